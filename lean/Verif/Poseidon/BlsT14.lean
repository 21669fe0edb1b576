import Verif.Poseidon.Check
import Verif.Poseidon.Primes
import Verif.Poseidon.Bn128T13 -- only so that the large tables are not checked at the same time (memory)

/-!
# Poseidon over BLS12-381, 13 inputs (t = 14): the tables, copied verbatim, and their checks
-/
namespace Verif.Poseidon.Bls

set_option maxRecDepth 1000000

/-- starky/src/poseidon_bls12381_constants_opt.rs: C L1429-1599, M L3189-3414, P L5311-5536, S L15955-17495 -/
def opt14 : Table where
  cF := [
    [0x595de597c900f4c763b7fda14bb29322b71ecfc5da558f36f6e6e6412b05e775, 0x4d58dc046de3bc3549dada7c0a770b61f09a9418881d27914377db13e83552fe, 0xca6b82f83a489f1d783b4a800f675b4b5464659039a076b6c4cb609ad841e5a, 0x3c84f487ca3b0d3377be986025c143c43ce2efa12b97779fce545fceb6636737, 0x5985b5df52f27b8eb49ca79361cb1972411604098ccc5c5350e8bde10c5e5623, 0x31a733ad19851ef5ead324a76fd1d6c72d2758ae00ffeafd5a97178c43a096f0, 0x482699310720ad31dfffdb8ebad7b1f28a0558ebef9c720c3117b92bca27e29c, 0x4bc6c9539d8c1f7427186f4f40635b4671e5f1e4b49e8bc5095cca8bb819d2d, 0x70f0ceb1b047b9dd8f29f9e0b83f04a95a0902dbb6f194d4749efdb3fc2c6f97, 0x3baec3aa2dc9338e9b225c3ebd997760c1cf3e9107ed22f534a37e3e956a3df2, 0x2410f802870c996d0eebc3408c14a69d9d89f1cd129867928931ae5a7a6d603d, 0x32da0c94a7002539878a33d39926ad920f19406c69c38d0c7750b8e41b2e421f, 0xe729d2bd2c0cf2d977b9f1d0d2fadaaf9f2041681a50c5756cbf7dea7a4aa8e, 0x48d020655f8c3169d9554f515eea8036d23880d0b00a4fa22a5b34ab740abb66],
    [0x6303d81b49e8598361f8edea01b8cca9cdfc9830eeacc58bb7e18a349fd88499, 0x196fab9c5f0c9a3ebb895dcc2de008b71409d76a7658f4e6e8c0816c9d8ffe3e, 0x665129df503f1ff65e7c33c3b094a1c45d6953c66bd16ae337961e9d3da7b0af, 0x6758d0acca8f761f6f204c12cc55b1cd21f388d4941a30309620bff16756c874, 0x2112efa3d2822d6c0523061075149433cba68bb08652221d316e3a255a625972, 0x15b2b6e6b4eeda6a4bd0c2bbcf28157ce5ccbaa26adbcf4ce06855ca056284f8, 0x12367fb40af7e316436e4d7ae296c2dfb7ea6cce8f72594938a5a877cc4be41d, 0x3dcfbc35129f8811d4f56b57ce8a8597a3b8cbd5c4c240f028f2805fa3dd4f18, 0x5c95cc69f8968c4d40c4de0af656bf2086df6747346e3ec64a1b4195ebe2e7cf, 0x4cc69137a1b8c419fbf4bf7d45db4c936dcc4f320efdae2eba2d9fd60fad108f, 0x4b72b2bfbf210bdcbb6286505f44f80cbd75bae60730d8243dc9e61d1be39497, 0xfc2231f7e05e33754c40b89336f1577175853ac725e9d445cd863b5bad103e3, 0x4313af585c73399230c95a867b8738d642b067eb597841389f527f2c0e55536e, 0x71e87fdff2990b95c5d3d0d53dbf405a59b5d5978f1f87e2b9199078adadaa32],
    [0x44476e0fdbdf6ebef6c4af8e0fda234c8c85c92ae80b62f570eb8d189c30b5b8, 0x34a3831bb7ffa5b7adddcb4f683c22386dc343ae0b5df2dc0635624ecd0444, 0x29aa17de1d73b8744adcfff955c6e2c8a101e29fe362471ace606584359a95af, 0x48dd9ebf30cb22c62f77a9d342401e9f642cdc78fe36bab3cef9a1ef35538627, 0x65383dcef0d4a00138c30f040bb174140c8ec97e5367169adc4223bfbe4e6229, 0x5390034acc03d849fe52a98990843e207232fa27cd1275409a4e4f49085afa77, 0x61ec1e9b4efc583265fc0e48e534d4fca11fb57f0e054a2f1ff3fc867eb4ab43, 0x5cbf1644ffa94c7aed2bd428827da8ab34cfd180e4cf0a8f7c7df59b59eb5afa, 0x2053e594efedad4e9abeca4407241728aeb1a644907af6ca0fd34f9c73b6eeee, 0x11af2f754566c22008d8615ea30cc360ba3f8ffd7668744268193a74dc8c7edc, 0x5e1f7b78f1c710e508d53750f713648bf8b1fe53169ed3cc8b214c3509e47279, 0x596e6c729a6c9f4ebfc4b12e73c4abaf8b280bf6a2d92fd353b783fcb5fbd4fd, 0x4ae234cfa4bc6d98a494c9d68f5b5fcf7898fcda216b9febd2146b2dd5fed908, 0x66f88490cc039c9ab6d4103dfb5940a87e6264fe701608585dc8216073d599c6],
    [0x50f83de3a59473ec5f922e8c5e51a809f58fcb895ed2e0eaa1aee8505fe0790, 0x3abb97c7527ed4b5639eeb452cfc3474685ffd5e2aba1e7c87f1ed15674349e5, 0x2c6fd6d6e378337999467c42dcffd64dc85ee37c674d23c2971ced99f5dbeb26, 0x7d6a5799ecfe45888655a51c0614fc21649aadf04393774a5dc65783af2ddcc, 0x3f5d3185754b989e015b042d339d30ddd1f77750f6acc6a8deb969c36c6be9d0, 0x413ab4a92cb48ebefdda1dedd7dc20e0edacb859661462d085941541606592e3, 0x1ce174bf860b9b7b4b83ee12b96d649a1bd51703d2b3738dfbf3997b0c26e4bc, 0x4e81feb76f299c7954bf794c3d69940b0f0881d84d8e51e30f26ce01e4c1fc6c, 0xf6b56966394fd8344c175c19be01db277b97730ad32db98af884c483669a37a, 0x520e4cece7dbd21bc1c39a4460434169e5d80b7ac28ed080c76221be9429e07d, 0x25f30b65d1a1f752e3008ecdfb169427a54a2dbb100a5c1cb9d6be3ff5d56325, 0x714145e85236494c399684fefe2d4c0e79b22d98dbcba1c209b3b200fbe39131, 0x66da27cd5b8a32c898a3b2327fd20c6502484631d1dc76610d19c8b22a41adbe, 0x12d54ff24d29bbfd43a6aa68588dbae0610d64eb653c3ff4df5da58e73254d15],
    [0x6ce00fc8bae963d827a86c8aab6c2bf8a3e620e797d2052c8f9b5ce25b67ce41, 0x1cb4e1e47272f631d2bd116cfbd6b610627eec0853cb2fa32ab518ba1c1aca39, 0x22b0bbf1e0b108e8edec66dd64fa5fc20e7c896207284efe6b375a16935f2142, 0x14688a79e57ae736a4399d32427ea8080f79daa72976ed6755f43244374650b2, 0x3a93de0fe55f748ac02ae2ac35c73e927fa110e8cfb112ad099e0ae8fab5acbc, 0x70208e8df6874a5cbaddbd5f62cc9817387d5b8aa7eb3261998619be57a3686a, 0x59a3cb41060efdb2e04e3b6b67718b462e02c6586436eebb9eaf3fa14009fc87, 0x666c530e03738a0bf8e3d85cfbe3da81c837fea2293f129b4b4fbf8468081c49, 0x1c7b3233c00e237af88d44e32f4d1061600a574c998932260573f5d759421776, 0x16f7265215d19c37ab57a43ea646cac510c5fbc5364c32b1c1a7f9a4fee5199b, 0x2c7a4545616eac3b1e88c9530b84ae8a8815125512151444608d949eddb3fcb6, 0x44e092edb2a36cd177d3049e52be4cb80c831bb0569d703567c5c0519a44a7ab, 0x6787aec3489743d83ee0f82ee5666d585b613f5560f1a8368c4710cc62686f97, 0x3cb545b53ebb3ccbeac9d7d863c63737a2177c64a0ac40876da4b8b4cdddb380]]
  cP := [0x3c188c9968e62abebc0e629ec3882cf5a06184a8dbeac3b2f7b833bc78ffde10, 0x48f0279b72483ea46654af7e8c5dd0ce032c441f7be818b40af4919bb9092b00, 0x558031cdb078313fb049f949d22a00c39649561568997274f10b4a0a468fa27e, 0x54233f12a0b69ea93ea91c256996d50e685f91c4f21208f7ab7a3b28cdebd8a2, 0x502fb12e7180c1d32e02f00cc87538aec6273204c5ac791aa552cc75bb6a4b77, 0x26c545f4d96d8894e4697c1823438976644622e52cd3f517e725de270092d0b1, 0x1de1ec2e4b1ce8be4cd48bc7e0c5f0d7ae02dd3d190fe03731a1a17ed0401d83, 0x70ed9283f1323a966e3f3ecf6cfe04e9f97123faa72232640fcfb57907940b39, 0x6e7582d81305a91d0d3af4704df0030b3a92ddfc2702d8e7d4b3b98f2825d5f0, 0x18359c2ef862fefb6bccf9a1cdcfaa9125739c56826ff236f1cc314366f5d5a6, 0x51bdaab398d2ad839d7f1563885ec6aab81797fd2f7021073b8d9f6ef5245927, 0x4e3277330285143843492f05b9de40c86acd3a1252ad7d69d3124fa0c6410ebc, 0x32f3782a3dfdb6e1eb1436621e963ff791866e0e9d21df0255452029bf9aa770, 0x3a0bb3ddb94e12c6b71808b758b4c6b02f4745797adf87e09493a85a9c0c627, 0x4520876a87a85d786f7292f427f9f9888fb6db4094af2d793ad300a1c0fe39f3, 0x13aece9af645adc2464067364a9695d42b43e2825a16f23ca74b52803eaa2456, 0x13fcfc19dbc09464f45dd30844c41801e39724b86070aa862f6e4502d1f9dbcf, 0x658a020c036bf048c38d4e5b06614975d28cabaaacb9d3fc13ef735df9f0373f, 0x3b8a0cbe2e18c113e968e729ab3d7454bb4642fa483523197fe690637f7cc4c5, 0x151a00395d01af5119aee58a8931ae22f807ca70dac044221a874df8dee710bb, 0x72bb2379628558560d5e2c6f1abeb0937893b776319e2aa7502ac605520bbb0f, 0x628106439e6977153bed0424a9d17948fd0a82f035388f664b32c4622289abb7, 0x5e72a8e5562266177879c0e5c60406b97d98888ec36ab06f68db6656cd6b5216, 0x1dcfb53138d25fa358a090f57fa34608395c52d1d654c01975e9b5e2ebbd9fad, 0x366683a1b7d8e81c7fb5e5fab817bf7e2d03c13807a831c0ec1cbfcd29dae05e, 0xc4e2ecb4a908b8f4645622f4ff19eb97603881aebd082448f0776c7109318e9, 0x6344a9cb2cab3281f18abd7b24998f50d0381b7f0919061767f8d6fbcd6a6e05, 0xc7465a33436891f45898fe623456ea290b1fcfd90d3412c5aa1118d54956d8c, 0x67d7aab3e44071c4211c882ec05753d8812add327c06dbee08bca31d39ee2b23, 0x52a0b12ca5e4960201daee550a657d684b233122af63829f55d5ea5ce8f8d648, 0x4c6665ecaddb2541c138b768252ee60174c4be92ac6cef97c5dafce67c4cd7d3, 0x25c668ae867123e09b9ab13cbd032f4f045be9e8868b01191be1ccf1b5672d39, 0xba6f32742cfad25a37d98aa4abea8ab5aa2e78658e4d40f73aa302791218292, 0x4d823e65d8dd3082f86a114ad85cd057956a8d815a301f2f9fff49ed6cc6cff3, 0x35fef86851457c18b65fef53738004e61fc8ead59f682940166f4ccda7740c60, 0xdd7a1c0fe6d8ff19fe9c6106e3244c7bcc6faa6b7acb8c9e0ad723c364584ac, 0x621cafadc59e6f00a30b56c36b1180aaf5bfd936a54ba7932efd0848071d348e, 0x1ba9d55bba6671950f459e51d1db9a810bc7db06685e0d057a98864a95679f, 0x229205b58861685e1d6b1232159bab3e96a139248adb350b5e47f13ee2f4374d, 0x15f39af21b60823bc70f6c0e486dcaf8008d69212929ae92ac00c96aaef23e1, 0x692f9fc500e8ca6746c0b35833e8726eec2b52ebf57f18464a0913a61b39c586, 0x1ca2f11d16b04dcaa1da99696e673d8955486810dde55a28413c62c58b2b24cb, 0x18d750a74033146904b3204f679c92d6ff29d13748d5f14e3dcaf02db4982259, 0x20f47f731aa429f0d0bf80cb60d2f9c2b25c5781afccc129421067b7d79a2c06, 0x383b2c151556a87f531ae8e87b08cdca256e86cb4c09309bfc3911a13e15f54, 0x62911c41f0b96ad9f7e7b4a6c758658742876964fa7f3bb07856d8f6c9cc562, 0x2ef079aa2dbbdb6ec2ece575e76014bf9fc31c0cfba9efccb54eb26b6becf337, 0x73cac28870e97bfd0fbbd12c5e25e381ea5c0e4b43e9dcc93d88e56feec59d68, 0x33d5982ff9df33d0a90e1bc3b0eca76486d337b4e9dec171b6d5cc772aa9e3f7, 0x212a770302e7912dfc8fc08a67a2679276077cf5da6e7dc1021e068de6fb1b6c, 0x2a1e0bd48418c38cedaf8bb599c2a5eaa1b0bd6bc2c87d1a269abe409b5a394e, 0x5bcef805bc5b8bac63d196e51a642a821c673e9fbbb0df7454dd9c16d61dad52, 0x31bd2d451dbd80812d01326afd46a0a8527eeeb264601212bb93bc68b573d8ae, 0x53f3e983aeb138b2b673e25178c7478b82aa02721844097a728fc654c3e92c1d, 0x5c9197c8c886d45428b5e51d8f0f8484551c80d2a8a62bbb685587f2253789ae, 0x3beb97ae21b8b4ca8c13d214762dd7856651814e0929cd1987488b0deb062554, 0x420565628109ba269b4afe1713314058fff12e2fd3a615f99d179920bee24001]
  cL := [
    [0x6279fe30c827a0c290d7a8c5da25ebf87c80da7fbbe7fc3bf4a65e359725c57a, 0x67f66e3bf394f91cbd8d4cd47d9567f188eca04779cace596710e60380b72e29, 0x3d1c89878fabb3b61e4b675d00257c6779cbce4b350719c194ea8f8aa8c50f18, 0x57949314df6820e59e739da349b9373c02e7e5e0462660f4b202c165197c7bec, 0x3614cbb313a9a9b74bf350182979d54dae3a0da7935f09795c2f27cbf7fd7b8d, 0x5242413a9973b5c0302b877a69104c998a1f07124e55fa9911c6ef8caea184a0, 0x6ebae0f3a63232c25dca9636572833ae16ef703b6427067fbb134c6a9d9a2598, 0x8a18a9fa14edf8391af96abbff5c1dbee0b8c7e6641f8776a4853bdce9df847, 0x2f59837aa5f29cae82439b76f38aeb69d463663bda6ea524bd9c5d463c8cc059, 0x68be869f1ee171ba707bb68a09a8f65e89f0ecbd90994b3afc69c51bb0300013, 0xc3af293e5d1f855df8db8f5c20fff397d99f439b91f4ef3d6ff60a9263c9536, 0x20e2eaa1eb00ed427be3a24d3437d22eb7fb0c73ff93504aacece1319748f61a, 0x586c1dadb551e3e3cb32c603f6d405d0d17f99378eadd906172d811aa81a268c, 0x4daa0fbfb6f7ced6ae0426560e543775f577a2f7e94ac9c659f886df0357ac1],
    [0x1d4faf628ac58e79116453f0febdf7b980b30d3d136f571c0ce55d52dae0b4b5, 0x5a60ec36660567cf93f30b5ab22d2222d16351eeea6595474b15bbc5e6b53ced, 0x2adc2a6ed8548ebf0a6b78e147375a3be29b5ec6e302ed99166d345ac3f2d7cc, 0x26ca8e1ffe30a4bd6c8b161f7908f1670d76bdd6e848481b64e559c893678add, 0x9d081015d15a6bfd763f74aca8ff61e061caacbd0489331df10dca721ecc525, 0x4a26a9797888dc4e9a43f6e3dc833e175bd06315e341f8402a4228dc3e0e5866, 0x20d0658ba6e23e1f5fc9169cae1b9da332d16214d48e5d01d7b0b1977f61338f, 0x3c4548c60dc187e2614c4ff5a0f2c96369ea90feebb6908469eb440e935a31c, 0x4860e3ff5a18e53b33b38b80123affee307991ed05462ff654604dabc5dda91a, 0x64d933fc0a0436ca9523344844ec4c92687ac66c7440c669f77f0809c208f333, 0x35cda8abdf1258c8a86f2b34c84a8562c56ebee8409e168d52025ac2783c3d2c, 0x6efb3ab9c1bda106b6f88002c4da3678eb306ae4659bfb7df720bff6b7cf1f72, 0x3fc5399f3283958365192c1398c3fb145a08a8c072ac5eb2a1f142bc0637f6ad, 0x675ce8c2afdeba5def77249cc04da5f03a06f2d6b18e83db7930c80116a2f8a0],
    [0x1de7fad5d2e550de9ccb2c01f31a1ee1a19066e979e470393b23829bf004d5cd, 0x1a6d9b9498f70a502787649d0f314b3d06056d50f39765e690febd313769ab4e, 0x5441c8768f2b50f859f0b021a60ab3bfc563b82108228abb72ae883e3ddca4eb, 0x4b1672e7e34611f8430907f8b2efa82cca03c67fcbd21344dbc498fd12ec53fd, 0x48ca05f0c28607c7bac6cc0fb8d99582d4719824b8f1c4347de6e3c7c49b4df2, 0x5452d5c568d15a4dd1c98bdce07ec41667a72989b222e667a6d2011a8397d9c5, 0x5f39a0d0bf680be502f5817372a21354bfc0f3126627ddae5ff409e718cfb32f, 0xe749aae8ce47cd6560d5568d0ec8e4b31e95054326d820d80b1cff54c8ac0a9, 0x49884654372e4306bb54edcf256004fb707994b73045735df51749930340e09, 0x643a66b14999769937f87360f35abaace8bf2c6d6f7a7b562385696ed282a0b2, 0xe866bdd88bffd44617f2555bea6d3c83b5324edf8a8bcb3f4ed75922138d11c, 0x3ff42b1a78de664bd27acaa76abeca7cb69233b0dc6561de03a0b312f203ffa9, 0x3741cdc426fd109eb87b7cc8a25b1a484856f11e3b79ab35d86eab1f2d4abc84, 0x268a26f013f8eb225da5f6fc63de38a32ea87a72019d9f772dfdacc34f7154c9]]
  m := [
    [0x4a867dda0877876545809d29bd0c9d27fef9e96fa4913b23edb6db6d12492493, 0x3dd414f92742ed7bd70dc88cd1efeaad81febddf77769776eeeeeeee66666667, 0x6caeccddf703a573b0063a878907ba84fe81c9c2cffe763f0fffffff10000001, 0x1b46fa31af7059b6a2a432d4b6f8e788c868db4bffff9d2cf0f0f0f0b4b4b4b5, 0x46d8580827a75ac891152076b08d923c24f3e43ab8e28d8d9c71c71bd5555556, 0x6dd3abfdf187ba0e815f38736770e79941dc14a486bb13c9286bca1a00000001, 0x1163a5e6130ad2cad47be0679b0b7a00cc8fa566d9995a99733333330ccccccd, 0xb0a7175a27085d61d427619257d20c38e120f9ec30c08c2f3cf3cf3b6db6db7, 0x6ea8ab5b04d08339482b9407ac1a7cbf444c4b1a22e72944dd1745d080000001, 0x64cea7c2c00361cf7a7514e599124c8a328ea4e137a587a61642c8582c8590b3, 0x6f1915afb28c42ba866cc45d093b19afc595bd2d8aa91829b555555460000001, 0x6aa770fa96ed0cdc062af9f2ea24419e803dd454ae12f879f5c28f5b3d70a3d8, 0x310bee2d07c2a14fc6e73ddc04133ddade81769ecec43a9d1d89d89d1d89d89e, 0x896583f0c9068184fa5784c727dc426520e0c2625ecea5ebda12f6838e38e39],
    [0x3dd414f92742ed7bd70dc88cd1efeaad81febddf77769776eeeeeeee66666667, 0x6caeccddf703a573b0063a878907ba84fe81c9c2cffe763f0fffffff10000001, 0x1b46fa31af7059b6a2a432d4b6f8e788c868db4bffff9d2cf0f0f0f0b4b4b4b5, 0x46d8580827a75ac891152076b08d923c24f3e43ab8e28d8d9c71c71bd5555556, 0x6dd3abfdf187ba0e815f38736770e79941dc14a486bb13c9286bca1a00000001, 0x1163a5e6130ad2cad47be0679b0b7a00cc8fa566d9995a99733333330ccccccd, 0xb0a7175a27085d61d427619257d20c38e120f9ec30c08c2f3cf3cf3b6db6db7, 0x6ea8ab5b04d08339482b9407ac1a7cbf444c4b1a22e72944dd1745d080000001, 0x64cea7c2c00361cf7a7514e599124c8a328ea4e137a587a61642c8582c8590b3, 0x6f1915afb28c42ba866cc45d093b19afc595bd2d8aa91829b555555460000001, 0x6aa770fa96ed0cdc062af9f2ea24419e803dd454ae12f879f5c28f5b3d70a3d8, 0x310bee2d07c2a14fc6e73ddc04133ddade81769ecec43a9d1d89d89d1d89d89e, 0x896583f0c9068184fa5784c727dc426520e0c2625ecea5ebda12f6838e38e39, 0x5f3a1296990a8256bc5d3a98e3573a96a95bc6b95247cb9176db6db60924924a],
    [0x6caeccddf703a573b0063a878907ba84fe81c9c2cffe763f0fffffff10000001, 0x1b46fa31af7059b6a2a432d4b6f8e788c868db4bffff9d2cf0f0f0f0b4b4b4b5, 0x46d8580827a75ac891152076b08d923c24f3e43ab8e28d8d9c71c71bd5555556, 0x6dd3abfdf187ba0e815f38736770e79941dc14a486bb13c9286bca1a00000001, 0x1163a5e6130ad2cad47be0679b0b7a00cc8fa566d9995a99733333330ccccccd, 0xb0a7175a27085d61d427619257d20c38e120f9ec30c08c2f3cf3cf3b6db6db7, 0x6ea8ab5b04d08339482b9407ac1a7cbf444c4b1a22e72944dd1745d080000001, 0x64cea7c2c00361cf7a7514e599124c8a328ea4e137a587a61642c8582c8590b3, 0x6f1915afb28c42ba866cc45d093b19afc595bd2d8aa91829b555555460000001, 0x6aa770fa96ed0cdc062af9f2ea24419e803dd454ae12f879f5c28f5b3d70a3d8, 0x310bee2d07c2a14fc6e73ddc04133ddade81769ecec43a9d1d89d89d1d89d89e, 0x896583f0c9068184fa5784c727dc426520e0c2625ecea5ebda12f6838e38e39, 0x5f3a1296990a8256bc5d3a98e3573a96a95bc6b95247cb9176db6db60924924a, 0x6beeeb3bc5a44881038e2168963594284523521472c0aded69ee5845b08d3dcc],
    [0x1b46fa31af7059b6a2a432d4b6f8e788c868db4bffff9d2cf0f0f0f0b4b4b4b5, 0x46d8580827a75ac891152076b08d923c24f3e43ab8e28d8d9c71c71bd5555556, 0x6dd3abfdf187ba0e815f38736770e79941dc14a486bb13c9286bca1a00000001, 0x1163a5e6130ad2cad47be0679b0b7a00cc8fa566d9995a99733333330ccccccd, 0xb0a7175a27085d61d427619257d20c38e120f9ec30c08c2f3cf3cf3b6db6db7, 0x6ea8ab5b04d08339482b9407ac1a7cbf444c4b1a22e72944dd1745d080000001, 0x64cea7c2c00361cf7a7514e599124c8a328ea4e137a587a61642c8582c8590b3, 0x6f1915afb28c42ba866cc45d093b19afc595bd2d8aa91829b555555460000001, 0x6aa770fa96ed0cdc062af9f2ea24419e803dd454ae12f879f5c28f5b3d70a3d8, 0x310bee2d07c2a14fc6e73ddc04133ddade81769ecec43a9d1d89d89d1d89d89e, 0x896583f0c9068184fa5784c727dc426520e0c2625ecea5ebda12f6838e38e39, 0x5f3a1296990a8256bc5d3a98e3573a96a95bc6b95247cb9176db6db60924924a, 0x6beeeb3bc5a44881038e2168963594284523521472c0aded69ee5845b08d3dcc, 0x58e0de26287035620523d04a6dc8e1596ade30f13bba79baf7777776b3333334],
    [0x46d8580827a75ac891152076b08d923c24f3e43ab8e28d8d9c71c71bd5555556, 0x6dd3abfdf187ba0e815f38736770e79941dc14a486bb13c9286bca1a00000001, 0x1163a5e6130ad2cad47be0679b0b7a00cc8fa566d9995a99733333330ccccccd, 0xb0a7175a27085d61d427619257d20c38e120f9ec30c08c2f3cf3cf3b6db6db7, 0x6ea8ab5b04d08339482b9407ac1a7cbf444c4b1a22e72944dd1745d080000001, 0x64cea7c2c00361cf7a7514e599124c8a328ea4e137a587a61642c8582c8590b3, 0x6f1915afb28c42ba866cc45d093b19afc595bd2d8aa91829b555555460000001, 0x6aa770fa96ed0cdc062af9f2ea24419e803dd454ae12f879f5c28f5b3d70a3d8, 0x310bee2d07c2a14fc6e73ddc04133ddade81769ecec43a9d1d89d89d1d89d89e, 0x896583f0c9068184fa5784c727dc426520e0c2625ecea5ebda12f6838e38e39, 0x5f3a1296990a8256bc5d3a98e3573a96a95bc6b95247cb9176db6db60924924a, 0x6beeeb3bc5a44881038e2168963594284523521472c0aded69ee5845b08d3dcc, 0x58e0de26287035620523d04a6dc8e1596ade30f13bba79baf7777776b3333334, 0x21a817cdd2467f35fe5b1dafc0bb5fbf7b689af89ce6bfdead6b5ad66b5ad6b6],
    [0x6dd3abfdf187ba0e815f38736770e79941dc14a486bb13c9286bca1a00000001, 0x1163a5e6130ad2cad47be0679b0b7a00cc8fa566d9995a99733333330ccccccd, 0xb0a7175a27085d61d427619257d20c38e120f9ec30c08c2f3cf3cf3b6db6db7, 0x6ea8ab5b04d08339482b9407ac1a7cbf444c4b1a22e72944dd1745d080000001, 0x64cea7c2c00361cf7a7514e599124c8a328ea4e137a587a61642c8582c8590b3, 0x6f1915afb28c42ba866cc45d093b19afc595bd2d8aa91829b555555460000001, 0x6aa770fa96ed0cdc062af9f2ea24419e803dd454ae12f879f5c28f5b3d70a3d8, 0x310bee2d07c2a14fc6e73ddc04133ddade81769ecec43a9d1d89d89d1d89d89e, 0x896583f0c9068184fa5784c727dc426520e0c2625ecea5ebda12f6838e38e39, 0x5f3a1296990a8256bc5d3a98e3573a96a95bc6b95247cb9176db6db60924924a, 0x6beeeb3bc5a44881038e2168963594284523521472c0aded69ee5845b08d3dcc, 0x58e0de26287035620523d04a6dc8e1596ade30f13bba79baf7777776b3333334, 0x21a817cdd2467f35fe5b1dafc0bb5fbf7b689af89ce6bfdead6b5ad66b5ad6b6, 0x704e3a189050915df1a00947c954c945291fb6e2e7fe691f07ffffff08000001],
    [0x1163a5e6130ad2cad47be0679b0b7a00cc8fa566d9995a99733333330ccccccd, 0xb0a7175a27085d61d427619257d20c38e120f9ec30c08c2f3cf3cf3b6db6db7, 0x6ea8ab5b04d08339482b9407ac1a7cbf444c4b1a22e72944dd1745d080000001, 0x64cea7c2c00361cf7a7514e599124c8a328ea4e137a587a61642c8582c8590b3, 0x6f1915afb28c42ba866cc45d093b19afc595bd2d8aa91829b555555460000001, 0x6aa770fa96ed0cdc062af9f2ea24419e803dd454ae12f879f5c28f5b3d70a3d8, 0x310bee2d07c2a14fc6e73ddc04133ddade81769ecec43a9d1d89d89d1d89d89e, 0x896583f0c9068184fa5784c727dc426520e0c2625ecea5ebda12f6838e38e39, 0x5f3a1296990a8256bc5d3a98e3573a96a95bc6b95247cb9176db6db60924924a, 0x6beeeb3bc5a44881038e2168963594284523521472c0aded69ee5845b08d3dcc, 0x58e0de26287035620523d04a6dc8e1596ade30f13bba79baf7777776b3333334, 0x21a817cdd2467f35fe5b1dafc0bb5fbf7b689af89ce6bfdead6b5ad66b5ad6b6, 0x704e3a189050915df1a00947c954c945291fb6e2e7fe691f07ffffff08000001, 0x706a54adbbbf813e4130555d209cf08149721367c1eee4d83e0f83e000000001],
    [0xb0a7175a27085d61d427619257d20c38e120f9ec30c08c2f3cf3cf3b6db6db7, 0x6ea8ab5b04d08339482b9407ac1a7cbf444c4b1a22e72944dd1745d080000001, 0x64cea7c2c00361cf7a7514e599124c8a328ea4e137a587a61642c8582c8590b3, 0x6f1915afb28c42ba866cc45d093b19afc595bd2d8aa91829b555555460000001, 0x6aa770fa96ed0cdc062af9f2ea24419e803dd454ae12f879f5c28f5b3d70a3d8, 0x310bee2d07c2a14fc6e73ddc04133ddade81769ecec43a9d1d89d89d1d89d89e, 0x896583f0c9068184fa5784c727dc426520e0c2625ecea5ebda12f6838e38e39, 0x5f3a1296990a8256bc5d3a98e3573a96a95bc6b95247cb9176db6db60924924a, 0x6beeeb3bc5a44881038e2168963594284523521472c0aded69ee5845b08d3dcc, 0x58e0de26287035620523d04a6dc8e1596ade30f13bba79baf7777776b3333334, 0x21a817cdd2467f35fe5b1dafc0bb5fbf7b689af89ce6bfdead6b5ad66b5ad6b6, 0x704e3a189050915df1a00947c954c945291fb6e2e7fe691f07ffffff08000001, 0x706a54adbbbf813e4130555d209cf08149721367c1eee4d83e0f83e000000001, 0x479a50c26c86eb7f6aef056e604d5fc70e133fa77ffefc95f8787877da5a5a5b],
    [0x6ea8ab5b04d08339482b9407ac1a7cbf444c4b1a22e72944dd1745d080000001, 0x64cea7c2c00361cf7a7514e599124c8a328ea4e137a587a61642c8582c8590b3, 0x6f1915afb28c42ba866cc45d093b19afc595bd2d8aa91829b555555460000001, 0x6aa770fa96ed0cdc062af9f2ea24419e803dd454ae12f879f5c28f5b3d70a3d8, 0x310bee2d07c2a14fc6e73ddc04133ddade81769ecec43a9d1d89d89d1d89d89e, 0x896583f0c9068184fa5784c727dc426520e0c2625ecea5ebda12f6838e38e39, 0x5f3a1296990a8256bc5d3a98e3573a96a95bc6b95247cb9176db6db60924924a, 0x6beeeb3bc5a44881038e2168963594284523521472c0aded69ee5845b08d3dcc, 0x58e0de26287035620523d04a6dc8e1596ade30f13bba79baf7777776b3333334, 0x21a817cdd2467f35fe5b1dafc0bb5fbf7b689af89ce6bfdead6b5ad66b5ad6b6, 0x704e3a189050915df1a00947c954c945291fb6e2e7fe691f07ffffff08000001, 0x706a54adbbbf813e4130555d209cf08149721367c1eee4d83e0f83e000000001, 0x479a50c26c86eb7f6aef056e604d5fc70e133fa77ffefc95f8787877da5a5a5b, 0x4c2e7545473b9b7896b0fbad82ac2edeede305610e9fd60df8af8af807507508],
    [0x64cea7c2c00361cf7a7514e599124c8a328ea4e137a587a61642c8582c8590b3, 0x6f1915afb28c42ba866cc45d093b19afc595bd2d8aa91829b555555460000001, 0x6aa770fa96ed0cdc062af9f2ea24419e803dd454ae12f879f5c28f5b3d70a3d8, 0x310bee2d07c2a14fc6e73ddc04133ddade81769ecec43a9d1d89d89d1d89d89e, 0x896583f0c9068184fa5784c727dc426520e0c2625ecea5ebda12f6838e38e39, 0x5f3a1296990a8256bc5d3a98e3573a96a95bc6b95247cb9176db6db60924924a, 0x6beeeb3bc5a44881038e2168963594284523521472c0aded69ee5845b08d3dcc, 0x58e0de26287035620523d04a6dc8e1596ade30f13bba79baf7777776b3333334, 0x21a817cdd2467f35fe5b1dafc0bb5fbf7b689af89ce6bfdead6b5ad66b5ad6b6, 0x704e3a189050915df1a00947c954c945291fb6e2e7fe691f07ffffff08000001, 0x706a54adbbbf813e4130555d209cf08149721367c1eee4d83e0f83e000000001, 0x479a50c26c86eb7f6aef056e604d5fc70e133fa77ffefc95f8787877da5a5a5b, 0x4c2e7545473b9b7896b0fbad82ac2edeede305610e9fd60df8af8af807507508, 0x236c2c0413d3ad64488a903b5846c91e1279f21d5c7146c6ce38e38deaaaaaab],
    [0x6f1915afb28c42ba866cc45d093b19afc595bd2d8aa91829b555555460000001, 0x6aa770fa96ed0cdc062af9f2ea24419e803dd454ae12f879f5c28f5b3d70a3d8, 0x310bee2d07c2a14fc6e73ddc04133ddade81769ecec43a9d1d89d89d1d89d89e, 0x896583f0c9068184fa5784c727dc426520e0c2625ecea5ebda12f6838e38e39, 0x5f3a1296990a8256bc5d3a98e3573a96a95bc6b95247cb9176db6db60924924a, 0x6beeeb3bc5a44881038e2168963594284523521472c0aded69ee5845b08d3dcc, 0x58e0de26287035620523d04a6dc8e1596ade30f13bba79baf7777776b3333334, 0x21a817cdd2467f35fe5b1dafc0bb5fbf7b689af89ce6bfdead6b5ad66b5ad6b6, 0x704e3a189050915df1a00947c954c945291fb6e2e7fe691f07ffffff08000001, 0x706a54adbbbf813e4130555d209cf08149721367c1eee4d83e0f83e000000001, 0x479a50c26c86eb7f6aef056e604d5fc70e133fa77ffefc95f8787877da5a5a5b, 0x4c2e7545473b9b7896b0fbad82ac2edeede305610e9fd60df8af8af807507508, 0x236c2c0413d3ad64488a903b5846c91e1279f21d5c7146c6ce38e38deaaaaaab, 0x12cc97ac9ef6f1b8ae5c6838a79db453e410ea29ffffbbe42983759ef914c1bb],
    [0x6aa770fa96ed0cdc062af9f2ea24419e803dd454ae12f879f5c28f5b3d70a3d8, 0x310bee2d07c2a14fc6e73ddc04133ddade81769ecec43a9d1d89d89d1d89d89e, 0x896583f0c9068184fa5784c727dc426520e0c2625ecea5ebda12f6838e38e39, 0x5f3a1296990a8256bc5d3a98e3573a96a95bc6b95247cb9176db6db60924924a, 0x6beeeb3bc5a44881038e2168963594284523521472c0aded69ee5845b08d3dcc, 0x58e0de26287035620523d04a6dc8e1596ade30f13bba79baf7777776b3333334, 0x21a817cdd2467f35fe5b1dafc0bb5fbf7b689af89ce6bfdead6b5ad66b5ad6b6, 0x704e3a189050915df1a00947c954c945291fb6e2e7fe691f07ffffff08000001, 0x706a54adbbbf813e4130555d209cf08149721367c1eee4d83e0f83e000000001, 0x479a50c26c86eb7f6aef056e604d5fc70e133fa77ffefc95f8787877da5a5a5b, 0x4c2e7545473b9b7896b0fbad82ac2edeede305610e9fd60df8af8af807507508, 0x236c2c0413d3ad64488a903b5846c91e1279f21d5c7146c6ce38e38deaaaaaab, 0x12cc97ac9ef6f1b8ae5c6838a79db453e410ea29ffffbbe42983759ef914c1bb, 0x70e0a9a88d929bab5a4c883db8895fcf4accdc53c35cb7e41435e50c80000001],
    [0x310bee2d07c2a14fc6e73ddc04133ddade81769ecec43a9d1d89d89d1d89d89e, 0x896583f0c9068184fa5784c727dc426520e0c2625ecea5ebda12f6838e38e39, 0x5f3a1296990a8256bc5d3a98e3573a96a95bc6b95247cb9176db6db60924924a, 0x6beeeb3bc5a44881038e2168963594284523521472c0aded69ee5845b08d3dcc, 0x58e0de26287035620523d04a6dc8e1596ade30f13bba79baf7777776b3333334, 0x21a817cdd2467f35fe5b1dafc0bb5fbf7b689af89ce6bfdead6b5ad66b5ad6b6, 0x704e3a189050915df1a00947c954c945291fb6e2e7fe691f07ffffff08000001, 0x706a54adbbbf813e4130555d209cf08149721367c1eee4d83e0f83e000000001, 0x479a50c26c86eb7f6aef056e604d5fc70e133fa77ffefc95f8787877da5a5a5b, 0x4c2e7545473b9b7896b0fbad82ac2edeede305610e9fd60df8af8af807507508, 0x236c2c0413d3ad64488a903b5846c91e1279f21d5c7146c6ce38e38deaaaaaab, 0x12cc97ac9ef6f1b8ae5c6838a79db453e410ea29ffffbbe42983759ef914c1bb, 0x70e0a9a88d929bab5a4c883db8895fcf4accdc53c35cb7e41435e50c80000001, 0x20b29ec8afd716352f44d3e802b77e91e9aba469df2d7c68be5be5be13b13b14],
    [0x896583f0c9068184fa5784c727dc426520e0c2625ecea5ebda12f6838e38e39, 0x5f3a1296990a8256bc5d3a98e3573a96a95bc6b95247cb9176db6db60924924a, 0x6beeeb3bc5a44881038e2168963594284523521472c0aded69ee5845b08d3dcc, 0x58e0de26287035620523d04a6dc8e1596ade30f13bba79baf7777776b3333334, 0x21a817cdd2467f35fe5b1dafc0bb5fbf7b689af89ce6bfdead6b5ad66b5ad6b6, 0x704e3a189050915df1a00947c954c945291fb6e2e7fe691f07ffffff08000001, 0x706a54adbbbf813e4130555d209cf08149721367c1eee4d83e0f83e000000001, 0x479a50c26c86eb7f6aef056e604d5fc70e133fa77ffefc95f8787877da5a5a5b, 0x4c2e7545473b9b7896b0fbad82ac2edeede305610e9fd60df8af8af807507508, 0x236c2c0413d3ad64488a903b5846c91e1279f21d5c7146c6ce38e38deaaaaaab, 0x12cc97ac9ef6f1b8ae5c6838a79db453e410ea29ffffbbe42983759ef914c1bb, 0x70e0a9a88d929bab5a4c883db8895fcf4accdc53c35cb7e41435e50c80000001, 0x20b29ec8afd716352f44d3e802b77e91e9aba469df2d7c68be5be5be13b13b14, 0x42a8a69c9e54280983dadc37d256a9031026a4b4eccbdb4c3999999906666667]]
  p := [
    [0x4a867dda0877876545809d29bd0c9d27fef9e96fa4913b23edb6db6d12492493, 0x7417796a71d7ab0df6f554fa4774ab69c112d94b765bbfc2928049800c70d79, 0x13de3204de0486da9b19638de4f6f58a05c41ee0e8aa50c8aa5ac2df1c65e330, 0x3f1febcf9e6ab5381b99d461fd89accc73b40e42d56f2e16f1647bf2b4bf6f4, 0x222b1866732c62f78e84d2bcc5bd33e67d6688eb6b3693c231ce096c8789c440, 0x50f592807a127d1ba2d604397fc012c3bcba4847d2c1e3eb221cdb703ceb333a, 0x5b5e5733c3354434be774c811df06366ef0c43ff38dfdfdff299dcfd4ceb9b91, 0x204b0a400c5b1ae1406b8f0ea222c3b1b316af00f3b57c7e28159f11e43078bb, 0x29279865f1bee77963593d290632fdf21a78278eec6d54d349efa8c5c013e2ee, 0x751ed22fb2001c651b722a37c813f07fa4b61d10962c71192eee357df87259a, 0xb6277ed7be306f00e48e9361d45bd1269a0d0d68ed2bfdbafe8df4451d17ca4, 0x42adf3e7ef8cfb99e33df5e64f1ae3f40390e05c2c4a90fc1a72c8ef9d89ebfd, 0x164a7bee84ae33d0aff33f8e596abe61f52f072d5b3e9b187d407c32aaf78ca3, 0x22838aef412d057369d21735b76d959e06612e5cb7ad4a314e991b1cc9bffac0],
    [0x3dd414f92742ed7bd70dc88cd1efeaad81febddf77769776eeeeeeee66666667, 0x83eec694b9f302d5ded3981e1aff50c8185b54c27afae5e9499ee341e1561a1, 0x499e6a87e256f1b5aff75e96c1ac0ec4698eea83d3f463abeaf728a31eb532b0, 0x57779aa540d55ef9a97d1334349b73786cd38eae100b573a0220a78e2669f27b, 0x4bd271d9bf5a7f392e5839fd736eee0759e203d233b2381aaebc4b1cfe61973f, 0x2cd1d41885d9da2e4071db71cdcddba064819281a82df3443d98866fa294c93, 0x2a7ae36001d99239f07a89f6506352391dca17b5a2b1b2445b88679f0cf0c233, 0x49bcfd194ecdf96e23fc0a8298e38fcdf2a3306b2c9cd8b1363dc05c750198a7, 0x455337d7a055666cfc412eafe7527dd520551e1ce047b9001515a0507822b599, 0x2fd019d35ca90aaceff5bfa3943c7f392800b163eaa0f82ebf83944c3690257, 0x53a431ac26649ad54b43a5bb0bb9d749bd508268cadfd086f75d4fcab38dda3b, 0x3cd5ecbea53a15e3a0eedb5c40fb03ed937ea6a891c5ba1720c5606f22b77349, 0x1af82331d063ab9e44e6abaaeaa7939d075a9c12ae280b6176c38f6642047e89, 0x282fa64565a15af6ea5706dcf99aaff79b1f2c0341c28db8568a58daf1086840],
    [0x6caeccddf703a573b0063a878907ba84fe81c9c2cffe763f0fffffff10000001, 0x499e6a87e256f1b5aff75e96c1ac0ec4698eea83d3f463abeaf728a31eb532b0, 0x5a6b0a964cf035d3e840ac6933469ca59e9ea341522437179cf770ec4160de31, 0x24296dc72c770e157733658fc3a52fd07bb49b68a6e6e48c179b9278e0ca66b6, 0xebd318bc0f7fab4e5c97192237464025effc7821e17deb75be88f517f029a91, 0x4826b49c71f1b37eb115bdebf37c1e1c6a06d0947e0e46eeeaf5c03b6cc8c3db, 0x4530c90eddeabb7265a5801881dec9d86e2979d52ec32e4680533b6a98da9495, 0x1e2a2955cb2f273a926734f2f73bbe35081e526456213f52589f6bdba35dc8c0, 0x58a8831462a15cdbd92b4105b295c726e0ea202b1ede93213086e7589cd5d915, 0x50e9d3f9f08e76f71ba01fbeaafc2cc80520c3a9a522494b5cb712c6be743d51, 0x19635b721cc0d2d00b6254b4289394b05acbb7c1ac7b8b9d362abc5e28caac61, 0x8e2a1b56b7c4d4ed5998cde3ce859a1c8f72bc258519cda30464507c2f8d485, 0x63f88cc2dd0ddd3320b4b4c072e48498f6485b13858f78ac5e49a2801e090017, 0x268d3e4b204288b603b90ffc48bf6315b2eefee9d96f18c1857193b50c071cc8],
    [0x1b46fa31af7059b6a2a432d4b6f8e788c868db4bffff9d2cf0f0f0f0b4b4b4b5, 0x57779aa540d55ef9a97d1334349b73786cd38eae100b573a0220a78e2669f27b, 0x24296dc72c770e157733658fc3a52fd07bb49b68a6e6e48c179b9278e0ca66b6, 0x53b52279cd6a6b101bb045ff020ada40d65393c6a6e3252bd7543a26527ff731, 0x7af467b87562a4c2e5e9e41389f70cae4dfe78a35169424b80d3dccd87ca568, 0x6a011fdeddf003dc093f8ae66984f70169987278bdbb912e0bd8d8d8735235f5, 0x6df37f3f13b86e5ec1ba687284bee91bc980c3dcf2c55b041b2809b0c3c44c7b, 0x2a26bb383f4550a6ace25ea7dd535f0b1acb4270c76e01de1be10491c92105fb, 0x536e09f66342f5ea3097c95daa4ad8828fe81c391d2bd786e223450e8e546fdd, 0x2279e9a4d48d85ba7be143849bfa3c6c7314b9332acaee27f05ba08eb01c0d0a, 0x536325ef597f59f9aecac6b844191207b95cd395f71f3813bbf442ce040ab5ed, 0x2a2302c55557283199a3ea1a4855fe7d6aea3e7a2297ca445a19c6e5b2f5177d, 0x34df224aaf644b383c4bff9a6542b65d6bce868b03c8d84f24a78b5bfb190280, 0x1fa53a58095f93fdf7f6343cc13e46c37d38c9a05205655973e7a1bce1610c2d],
    [0x46d8580827a75ac891152076b08d923c24f3e43ab8e28d8d9c71c71bd5555556, 0x4bd271d9bf5a7f392e5839fd736eee0759e203d233b2381aaebc4b1cfe61973f, 0xebd318bc0f7fab4e5c97192237464025effc7821e17deb75be88f517f029a91, 0x7af467b87562a4c2e5e9e41389f70cae4dfe78a35169424b80d3dccd87ca568, 0x269160277af6f469dcf53b44b148e81750feadf7fef4966209129e489c18391d, 0x24f114942abba42e6102e27f36e3590ae59fdaa2acf8afa30c6425b0a6295e3d, 0x634eaaf8cbc049888c814397dfa30c5bbb4cef270598443f646d3e64479ca96d, 0x33201a579f3f8efc0755a8bd4f7fa6af73e3c734faa6e5cc0ec150fad686e4c8, 0x6602aa6e2760f5880758a0254513adba39f19203df7f2cfd38812ce74a066128, 0x52863eb82df25174880526a4ce1bdd663afbb8691270ca7c6084ffb2c1b7f2d8, 0x1918ba00c31d502bad34e8c2e5c109ae0bd8f9c8911ef7adcd061892222885b0, 0x396a3c78f161a9ef8438f7d3cea9d5097087c4f7412172913f007b81b9b88828, 0x55e5999a3a46b4b4caa0909bf72391037b110d1a1dc636fe5497a7a0a679516f, 0x4a4f596bfc142ed266caecacd534ce46831079bbcdc52964e929cce8443d5fe3],
    [0x6dd3abfdf187ba0e815f38736770e79941dc14a486bb13c9286bca1a00000001, 0x2cd1d41885d9da2e4071db71cdcddba064819281a82df3443d98866fa294c93, 0x4826b49c71f1b37eb115bdebf37c1e1c6a06d0947e0e46eeeaf5c03b6cc8c3db, 0x6a011fdeddf003dc093f8ae66984f70169987278bdbb912e0bd8d8d8735235f5, 0x24f114942abba42e6102e27f36e3590ae59fdaa2acf8afa30c6425b0a6295e3d, 0x12a33abc41b3f1d0364b89d7486375bc2978949e7289eb17576f7edd2f652d25, 0x417d3a56f860491ef16badb54c1785eddb7df1081a7f2eb46041108cb1f9f817, 0x46937bfe4ffa56735b3d05f59f85a2f8bd32103cb9ef0294f765ca9fb1194b7e, 0x577722a10eead2bda52f8b372610ed3743795134d3d44bfe7b811818780f9432, 0x164c47f440a5bdbce87261fd96b07c0614983c1b1c93d625a98fa890c26db092, 0x65d8212217162da4bb30b1c73fe63d3443374ea814206447549bf9ec756378e, 0x3c72aa64bf045c423b3db4f7d8f04c121462af27b2701046ef5bde0a628238c4, 0x6af0a97de33b1446dce4b2b9eba4dd78bac482d88d852513964705e778775a86, 0x3b3355d675d21f552212863643ebc39bb9becf657630efc237498bc29539953],
    [0x1163a5e6130ad2cad47be0679b0b7a00cc8fa566d9995a99733333330ccccccd, 0x2a7ae36001d99239f07a89f6506352391dca17b5a2b1b2445b88679f0cf0c233, 0x4530c90eddeabb7265a5801881dec9d86e2979d52ec32e4680533b6a98da9495, 0x6df37f3f13b86e5ec1ba687284bee91bc980c3dcf2c55b041b2809b0c3c44c7b, 0x634eaaf8cbc049888c814397dfa30c5bbb4cef270598443f646d3e64479ca96d, 0x417d3a56f860491ef16badb54c1785eddb7df1081a7f2eb46041108cb1f9f817, 0x57e1815332d56eaf4c5d9071b40bd25649919f06c3aebb1e43f5826e360d9911, 0x192814bd70743a39ca5c2a099b557f005711709ddaa77604e35d87fdc6048663, 0x3477ca16bcee123768cc2bdd952346c746d0cba4adb4555972db203c07a4994e, 0x1f67f3b9ca9e33b0ed6e8b4c021ed8410a3f170600fbd1441db7553ce03d20f1, 0x2687b3cb707b76d635aa943be79fdbe81c3c6fb47f201aa582503e9144f61334, 0x10453f84e83e6d336af28820130140fd6e2fbb6fdb67f1d5fca34d51ac28cf2d, 0x34d7ef24c8bac222f5ca6961f84a150a55bc8f35d0ebe68ce99a9f31fd1f9a3f, 0x5ae6321e436eba5f1ac9dade2e6fd1e8be3d75789c8a3e11c8981d288a5c82d7],
    [0xb0a7175a27085d61d427619257d20c38e120f9ec30c08c2f3cf3cf3b6db6db7, 0x49bcfd194ecdf96e23fc0a8298e38fcdf2a3306b2c9cd8b1363dc05c750198a7, 0x1e2a2955cb2f273a926734f2f73bbe35081e526456213f52589f6bdba35dc8c0, 0x2a26bb383f4550a6ace25ea7dd535f0b1acb4270c76e01de1be10491c92105fb, 0x33201a579f3f8efc0755a8bd4f7fa6af73e3c734faa6e5cc0ec150fad686e4c8, 0x46937bfe4ffa56735b3d05f59f85a2f8bd32103cb9ef0294f765ca9fb1194b7e, 0x192814bd70743a39ca5c2a099b557f005711709ddaa77604e35d87fdc6048663, 0x1a6412bf9a7ba39bda5ec203f3fed6cf65f76d13ddd2a8e5f2341b170ed56adb, 0x51912bb9b99ee96307922d1eb0808c4b06e6dc221534e5771117e7e794e73f9f, 0x25177d5144a0024d2bcadba44755b8812b3a964a051860da5bab928568e3d60f, 0x1a0d4ebb804be273b7d006f746346b3a2901b71f2846c653e5f6ccf19899a2d2, 0x6c4f01e8ecdb5a38ce9af498c4566cede4baba88a2dadefe8258ac48674b76d1, 0x4705a374b1b6b850a3f747f1de8c3636d14ab61a01cf14e3db24df0b0be7a500, 0x4bcd950af51f500f76873d7da6b76322854103f3945f3bfde980f483b34f931c],
    [0x6ea8ab5b04d08339482b9407ac1a7cbf444c4b1a22e72944dd1745d080000001, 0x455337d7a055666cfc412eafe7527dd520551e1ce047b9001515a0507822b599, 0x58a8831462a15cdbd92b4105b295c726e0ea202b1ede93213086e7589cd5d915, 0x536e09f66342f5ea3097c95daa4ad8828fe81c391d2bd786e223450e8e546fdd, 0x6602aa6e2760f5880758a0254513adba39f19203df7f2cfd38812ce74a066128, 0x577722a10eead2bda52f8b372610ed3743795134d3d44bfe7b811818780f9432, 0x3477ca16bcee123768cc2bdd952346c746d0cba4adb4555972db203c07a4994e, 0x51912bb9b99ee96307922d1eb0808c4b06e6dc221534e5771117e7e794e73f9f, 0x1cb1e3a118fed7f129413434a4ac4812df08a6551d8e3a8864c5daeaf1c1224, 0x8cf626a157571ae6c6406ac115318bd55c91ac31ff4f8bfb81f95d94f838651, 0x5c7c69610249d3147cb51ebf1d8924fd0f2a78bff97b202e735025b58856c958, 0x1162ec5e389ec3c34da593ddb07c243acc59845bb1beffeef67dff960113fe29, 0x721a035f041e271c8eb95def88174571fae0049b4523cb1fde6d530dafe5b70a, 0x50dee7aff0e5da8e7ebfa22f5070320e59b69802079e3925f08039dff91935ff],
    [0x64cea7c2c00361cf7a7514e599124c8a328ea4e137a587a61642c8582c8590b3, 0x2fd019d35ca90aaceff5bfa3943c7f392800b163eaa0f82ebf83944c3690257, 0x50e9d3f9f08e76f71ba01fbeaafc2cc80520c3a9a522494b5cb712c6be743d51, 0x2279e9a4d48d85ba7be143849bfa3c6c7314b9332acaee27f05ba08eb01c0d0a, 0x52863eb82df25174880526a4ce1bdd663afbb8691270ca7c6084ffb2c1b7f2d8, 0x164c47f440a5bdbce87261fd96b07c0614983c1b1c93d625a98fa890c26db092, 0x1f67f3b9ca9e33b0ed6e8b4c021ed8410a3f170600fbd1441db7553ce03d20f1, 0x25177d5144a0024d2bcadba44755b8812b3a964a051860da5bab928568e3d60f, 0x8cf626a157571ae6c6406ac115318bd55c91ac31ff4f8bfb81f95d94f838651, 0x217f8ad31742d3f06efbb363d22bb86824c5fd37cc2abda256eaf9f66303770a, 0x245b22e1ffa4778cbe7f46f88cf00a86aace961a1e0973db21452b15499247, 0x67a6f1fb6d77eb3556f2dbea156a50162ebf5cc0939cc865a0a7c550bb05b20e, 0x246921fb50c8c01f0e822753e33a44fd412f960054660667dd5d24bb83b319e4, 0x145e03b3d392984312849f5d06e252f2a367459c9fd69c2119c6fea6f0845922],
    [0x6f1915afb28c42ba866cc45d093b19afc595bd2d8aa91829b555555460000001, 0x53a431ac26649ad54b43a5bb0bb9d749bd508268cadfd086f75d4fcab38dda3b, 0x19635b721cc0d2d00b6254b4289394b05acbb7c1ac7b8b9d362abc5e28caac61, 0x536325ef597f59f9aecac6b844191207b95cd395f71f3813bbf442ce040ab5ed, 0x1918ba00c31d502bad34e8c2e5c109ae0bd8f9c8911ef7adcd061892222885b0, 0x65d8212217162da4bb30b1c73fe63d3443374ea814206447549bf9ec756378e, 0x2687b3cb707b76d635aa943be79fdbe81c3c6fb47f201aa582503e9144f61334, 0x1a0d4ebb804be273b7d006f746346b3a2901b71f2846c653e5f6ccf19899a2d2, 0x5c7c69610249d3147cb51ebf1d8924fd0f2a78bff97b202e735025b58856c958, 0x245b22e1ffa4778cbe7f46f88cf00a86aace961a1e0973db21452b15499247, 0x15a4aac21a9b3a92884ad1ed69a7b38bfe35a8a24851a5417aac5746d05819ae, 0x6019cd6c3b7eb3ee0ad4e996f15ec8fa1bcbca23283e946837401a346fd26e84, 0x65ee8fac7c9934a11ed2fd651eb3f2a382402da4b22fbd90c8e367cef9e0f331, 0x6f43ae7d6def82a9394e30a6cf75e431d6e2f2ffd3b5dadf914b64580c5f0dc4],
    [0x6aa770fa96ed0cdc062af9f2ea24419e803dd454ae12f879f5c28f5b3d70a3d8, 0x3cd5ecbea53a15e3a0eedb5c40fb03ed937ea6a891c5ba1720c5606f22b77349, 0x8e2a1b56b7c4d4ed5998cde3ce859a1c8f72bc258519cda30464507c2f8d485, 0x2a2302c55557283199a3ea1a4855fe7d6aea3e7a2297ca445a19c6e5b2f5177d, 0x396a3c78f161a9ef8438f7d3cea9d5097087c4f7412172913f007b81b9b88828, 0x3c72aa64bf045c423b3db4f7d8f04c121462af27b2701046ef5bde0a628238c4, 0x10453f84e83e6d336af28820130140fd6e2fbb6fdb67f1d5fca34d51ac28cf2d, 0x6c4f01e8ecdb5a38ce9af498c4566cede4baba88a2dadefe8258ac48674b76d1, 0x1162ec5e389ec3c34da593ddb07c243acc59845bb1beffeef67dff960113fe29, 0x67a6f1fb6d77eb3556f2dbea156a50162ebf5cc0939cc865a0a7c550bb05b20e, 0x6019cd6c3b7eb3ee0ad4e996f15ec8fa1bcbca23283e946837401a346fd26e84, 0x2d4ec6505ffbf6fda99df4836a69ca00f5daf984f8a8b057db3abde3cb8a2fca, 0x1afbb9c7a9c05f10047fbfaa2ab05db8d4b177f70ddac7d3243a6d8681f8923c, 0x27b5e8b72a8f19f7381c83321b6cdeb820a0aec0710ba2bbff449d2a39879620],
    [0x310bee2d07c2a14fc6e73ddc04133ddade81769ecec43a9d1d89d89d1d89d89e, 0x1af82331d063ab9e44e6abaaeaa7939d075a9c12ae280b6176c38f6642047e89, 0x63f88cc2dd0ddd3320b4b4c072e48498f6485b13858f78ac5e49a2801e090017, 0x34df224aaf644b383c4bff9a6542b65d6bce868b03c8d84f24a78b5bfb190280, 0x55e5999a3a46b4b4caa0909bf72391037b110d1a1dc636fe5497a7a0a679516f, 0x6af0a97de33b1446dce4b2b9eba4dd78bac482d88d852513964705e778775a86, 0x34d7ef24c8bac222f5ca6961f84a150a55bc8f35d0ebe68ce99a9f31fd1f9a3f, 0x4705a374b1b6b850a3f747f1de8c3636d14ab61a01cf14e3db24df0b0be7a500, 0x721a035f041e271c8eb95def88174571fae0049b4523cb1fde6d530dafe5b70a, 0x246921fb50c8c01f0e822753e33a44fd412f960054660667dd5d24bb83b319e4, 0x65ee8fac7c9934a11ed2fd651eb3f2a382402da4b22fbd90c8e367cef9e0f331, 0x1afbb9c7a9c05f10047fbfaa2ab05db8d4b177f70ddac7d3243a6d8681f8923c, 0xd215b9aec39ffa364582b365144517bc02e86136cc0be980e3d8739537b15ae, 0x2ee4c00e63db4c1d41f0dddb8e71ba40f052b35b26d9dc4a34d253d119097d24],
    [0x896583f0c9068184fa5784c727dc426520e0c2625ecea5ebda12f6838e38e39, 0x282fa64565a15af6ea5706dcf99aaff79b1f2c0341c28db8568a58daf1086840, 0x268d3e4b204288b603b90ffc48bf6315b2eefee9d96f18c1857193b50c071cc8, 0x1fa53a58095f93fdf7f6343cc13e46c37d38c9a05205655973e7a1bce1610c2d, 0x4a4f596bfc142ed266caecacd534ce46831079bbcdc52964e929cce8443d5fe3, 0x3b3355d675d21f552212863643ebc39bb9becf657630efc237498bc29539953, 0x5ae6321e436eba5f1ac9dade2e6fd1e8be3d75789c8a3e11c8981d288a5c82d7, 0x4bcd950af51f500f76873d7da6b76322854103f3945f3bfde980f483b34f931c, 0x50dee7aff0e5da8e7ebfa22f5070320e59b69802079e3925f08039dff91935ff, 0x145e03b3d392984312849f5d06e252f2a367459c9fd69c2119c6fea6f0845922, 0x6f43ae7d6def82a9394e30a6cf75e431d6e2f2ffd3b5dadf914b64580c5f0dc4, 0x27b5e8b72a8f19f7381c83321b6cdeb820a0aec0710ba2bbff449d2a39879620, 0x2ee4c00e63db4c1d41f0dddb8e71ba40f052b35b26d9dc4a34d253d119097d24, 0x295031a0ca8cd945797e2c787b2a885e1c6f2bff5f6a3d1d8ed840a48f31808f]]
  s := [
    [0x4a867dda0877876545809d29bd0c9d27fef9e96fa4913b23edb6db6d12492493, 0x41d429250b0104ab376ab8946f263a1b2a35a5a40b65a05560bc133ff2bae30, 0x51049ce28b877c9b314ff22da78bc7c435eab54286a5f9169c5f3d3ce1d5789, 0x2565ddf663326a72d53de81eaa5d986f284bf5518c9440e5f39bab733330306c, 0x18acbce71dc7da21bcbd0cfb5dd0e5c00f4196c852635fdfdea904def21d7b47, 0xff4e3442a62ef284117a998894b67d41a4663cc62a9c0ab871a0252b893ccda, 0x4efb44cafd2a09ed86cb00af1c6bde8e9703a8344bc9fc4558e4e7b7c1d35357, 0x4672c983fdda1395e1096c0a3d57979e58a82e25fae28770ed1ec24fddef2362, 0x2a4590715cc23416345958374bdae62cb3818cfbac21c1111221ecaa32f0ebb2, 0x2c106a2922ba4e2469a1cd028bbab757632d80cc0ebc98eee3ef153a9b73ed65, 0x287f2632dc39ce930204a8b9ab52f4b1db59bceda94cbbcc7bfd273e323ee45e, 0x670496a60a6fe0086f88afbd4f2b222ae3c69689c803d884ff917068610ee153, 0x229395f003c029361d0bac35c19d565123f216a3dfe58001ef276d4e5aa473db, 0x141ffc818664f2431f469ffb5a0cb80480eb1fe6b504758ecca75e9b99b07f0e, 0x9fce6d67c78a28a3982bd4424b83f1184d9e7c78bea682098118641095a6750, 0x683a5ebfd560aca6f1269fb0139088d2972455d3c5ac85896fab17eaa1f2a3cf, 0x257eaa49422a31b9259ac77b0f4b493a8ad850ff03251895fd50868f5f572948, 0x1c426c66c68a3e4a4bb44f0611eb7ab497438521a5b0127ac5188bc0816f0160, 0x5bad6ab019a4a94a62b149670a61513257cb1e835f836ba397737f1fad51f9a0, 0x39e65c6e61d3b3fa2990e5f8aae3c5cd5d126006412808e3055d1835ae8306b0, 0x167ae7dba2e1f301f1e5cbb057abdfff81cd8efa4cafff881a5a43a583785870, 0x70595a339c7b3ad7929b408e69dacb91bceaeabb771fd7e06d388ef07a673857, 0x2057f39073459ea09b8ec3d62471cc851070a4bcf72604aeb5290b015c37f00b, 0x6501e8704d507c445dc7be4c724098eabb5fe5243016ae39838b4e4be02f2d2d, 0x65b2b6f393680b7b483925282ddd1b1ca17c5a9d32486713aa1e04f2d03bb4cf, 0x2c2194a9abc43d7f984c690ef81972022b51a19c55521076a4d772907c3aa354, 0x3563022848032694efb33d0d69112549a940e435dcdada0bb4fff34964829091],
    [0x4a867dda0877876545809d29bd0c9d27fef9e96fa4913b23edb6db6d12492493, 0x41ef6905d2f6f80ca09f2135a3cc03814acab5de236bd33b3e5042151c14e1b5, 0x1042654a23c194ac2ca1cf55cf95b7ad9a6f5d90cc9a7907b565c1e7a173a1b, 0xea1c839eb6723aa420d609b843eea251735e8c58ee88a6c34d8e7f7a9d0200, 0x32e237c64c1227c64dc90115905b5092d6f594507dd9c7af30893d09252a1c1b, 0x60a76817f05137503df35d878f7cd761013e582883369c7bebac64ced83bdde1, 0x5dde68d7d5f8b967b41af6efadef59bf54b2ba8645a10c38959ae1a1b2c0fe4a, 0x6ebc6250db27873de2a4ba80530b607f73e07b192fec99fdfce29d010bf931be, 0x427f06e3ef17da1dccee52150a0a658616ce86dc2c2f3657e319ff7c2756134b, 0x92aa09f0fd6dd96cd74f08aa28a33c3c1558643a2f4e027aafb25f05d4f0a5a, 0x3a2aa9f8705593b24975f32218919602783b854acf55e9033b53918e7df31ec3, 0x9b5149c20e366ebcc17a4bd6f35c5952089f2a1bdd71889c87ed38abbab6739, 0x290d3c08e24a2b376b3d2ca9acf59e6cf73da7e4894baf806cf89ba00c0af5c4, 0x73037a242683b5bb718632744537950b9246069e94f9a33d85f26d86802b9e24, 0x72576fb9a7135eb34717b95e6399ea7565b96d78f765e24855653a5dc476c348, 0x4193fcb8dd07c52c2c29ae7ca45d1f7144a802c25022f3496bcc1f49041ebccf, 0x64e50d7f23f6b1119bea72d35727702061ec70733bc6437788802a93c06186f2, 0x2b7ae742203de0441a896bcb2ee6917ba529369b342e0c6a93baab3e7fdc0d8d, 0x6f741c8060409f51bd97ac47f46771b39e25df3ec87ebd7a76b0bf931f9e73e9, 0x4919f6e1d14edb723e383154fdab464905f9244fcdfeb3b123867e4073460e74, 0x6d52f01d719cf91b5660f229ecd2d2cab8198faa6c3a671d866496e54cfe3ce3, 0x69d3e65b3abdbce102e20ed7fcb9afa4caa832a3507468bf0050a9b3e21b5593, 0x32e7e75556f027a355b4b51fff652135e94cc64054ab93f5514d441812a30a4f, 0x6d4b07978e69f29125e93231d96dd7b17488481f4b8772501ca0a3251c74700f, 0x3a309ec158558aa263b090ad2d9169c416fbb6bea05a42392c27309d75ae3179, 0x22eb0110a6f8bb36b4701c56f9c50ca103fac8617a3dca176e2b100c74dfc3b7, 0x2368b115742f7f9c86c8ce156af9a9427503143c1b0ad0f34634f5ee1909cdf5],
    [0x4a867dda0877876545809d29bd0c9d27fef9e96fa4913b23edb6db6d12492493, 0x153b79f8b6b735b9041abb34f0289b9647eee23d8481aacd8bcc4672650b468b, 0x6bf9b8f73461084c6ed2412155b6183ac580479c1e56b59098aa6f13c4ee29e0, 0x30eefffee9a6215b43c4a0adae69bee50dfec28d6cb912943652ec63654d9c37, 0x4d13d215ef867b8649369ca7d3231579a80bc9ca7ddd25d5033a1fbde1043047, 0x44aedd358651dee1c71fa434c1f08773303a115c5873e6e8578bb5b8b854e4b2, 0x17df25b9944c018933f5627a04fb885f4097ac5511fca1f09cf8fbe7b55bc57f, 0x514604203e7c7c1201401b335afc40b0940ea817aff20624b06bba480a71e04e, 0x693610b3f5402c2e9fb31281f010f76d278afefd36d431edbd6e387d88f4494, 0x324a638b2e69e59a6b7fc5edf179e6adf9bd85d11acb3cc359579fbbba6fb4b3, 0x5369a0407b4d6ad247b300133a9c0bb8cfc0cc9f7f7db5051c8bb0c96bd2e6d, 0x3070a2501dc535965e1fbd89465b3465074bddfc6df2160045c272984aaba4f0, 0x5128d33786808f30e5a4c0cda678d00c17692eeb2f12fc3677cd921fddc57ebc, 0x16f47fdf7435ff85adf570b893555391056320822e30e45dc73f80d34b0f9e5c, 0x2e67c8f87c82f9d6d5e81680c45fbbc2474add67424b765da82edefb9dc3738f, 0x388049cdac8ff9e90f4191cdf944b2fd171cecb043ce19aafb4c699dccadacbb, 0x6444e615d2ac15fee3a7bd9dfd361c8b3b3a4771204e31646617d68db5018b33, 0x2e900de7a375e0900d5f2037f826e31ba00a1bb390a41d73c6d6e22819db088c, 0x66f5ccae338d42efb8b9b52186700bd6024fe6a29d822f75ca86acf4675dba01, 0x19cbc4a38eb0ea1a35dd240619be2e3dd0b2dd1ae651de1b283a8ef725a783fe, 0x5de1bd2653fbb58a36395fc47a4f3f5963333c7c57e3c875cad022d5f5d59226, 0x35e5f14d867cad78e771c0d7bcb1b315c3c51e94f94baa13eea68c7b38861b4c, 0xd882eae8145fc98f9f827e80fbc4bc7bf5f2510e0f9f860b98f08b16f6e3721, 0x6f92c7806774e1c7f7b92fac42677407cc8821ad2f2e188e0a7edb457d82521f, 0x16e252f336f9539eae83bc16de3f6e280193eb28999aaa5ffcf09f4927f8a586, 0x4820dc7d8b429cd54fcc32cd08fb603614650312334d6879684d407f08a90340, 0x58193d49c676fd20d57027673e1451630f9a89217596ec6b18c2f0324cb13437],
    [0x4a867dda0877876545809d29bd0c9d27fef9e96fa4913b23edb6db6d12492493, 0x1993d42f099dde7c1db293decf320465948806face3258bf74dbbfcdc175314a, 0x6d089e4c0711b257764a2d1136537d59b69f1eab0f7df685bd94d1270e3b3224, 0x1dfd30f8754fed8e6e6d8ae603b5b0b415f459cd8d68c88b655e6ec266de8a51, 0x1609b1de712c7c00090e4615e61c14a9984ad8c470d28568b4361a0cf938cf1d, 0x5ec445dda415a1787f1560632c5ed85bd88858f3ac81389b068b5fed6cf5dfd7, 0x372cad958d4fb470ef4af1afc9ab7c0974101a860652b890fda2452952be9e19, 0x488636bc83217f6046b0f9d6aec12329196db0066fc5f7236dd0f51e7d12e37d, 0x4cafb90ced7eca67836830ecbec21d28ac175d1c3c9a12980b695a6f4e5653b1, 0x637ef5aea4828770f3d19a4aa0d3b611a9de22c5a679eaba47f229e8c348e8e3, 0x2fb04f7c716909dbe54bc595e0d5cd190c7e81a64f90e22547e10f835d3ea1e, 0x1ea6793a05d2f36c94bebce8cbb119cf47eb569d0c29c3e7abae201408403fb2, 0x1725a2d5c5cae005a25f08c2f71e0f4628519de1ef37651fc7d01cd87ec3df8b, 0x51fa5cccc0e059c8aa717035722f45b2ea5b0d929cc10ec964883148994494e0, 0x5f4f2056c0e8089630616f0dfc8b4c469b7ac4c12dff0ab0b23783e029235c9d, 0x2b2853c1e3956afe8ee89417d458526863fb35dcd630fa75fb92f61866bfb42, 0x25e3732fad16c0ec9c8aa2b1a1047f6f668a815edc8e2153a09c5233558442d, 0x74dd7729cfebf2cfdfada5c762362ba232b51fe3dd0eb1534a2ccabcd4e4c83, 0x37e5dda534e6f846865e16a6dd58741e7e15d14883cb8ef26343b9d99e1331a, 0x34399107e654f96838fe8d783e6a4a7bc80a870b314c7d330f60b220af6e5be2, 0x23ee12376ffcccc7475a7a5253b92ef98107938c0a93875380b4d8970b2b12c3, 0x618472cfcee5bac933a8d4e2df38a9b12f7fb1468c96c6688f18e8207dd58c99, 0x2343ff1c5d241e80abfef69713c1a2cbb159fe083ab718e0794159c50513884d, 0x2f4ac8fffa9da434e0e8d049f2ad45019595c4c8618112357fc081bc309aac45, 0xd96d79da6000c470bc8f71e70b4c410b28f170f32309f9e76a69240f6b1d1e9, 0x134c021c8407e1bb1f9618d7df7e320488ab8f48352b473071492708f23e4e5c, 0x1ec1509826bd0b2f785672cf3d15befeec90f1858c550ee1d9c9fdfbc27d0527],
    [0x4a867dda0877876545809d29bd0c9d27fef9e96fa4913b23edb6db6d12492493, 0x44eb72c02d82eff8497b55ad9a93926323a6e0b9fdec8314a28d6e706e46682c, 0x685cbc349168cbb5aed52be223f4a3350275d27ece4f2af2978917738de06daa, 0x21e810eae65cc94c4b985efbb551037235bd544e30dbc5312d1e9139647dc3be, 0x408aacebd5a56fb912fee6d541a47e212f7e3f75ee4697c2baf8ab3e0fc769ab, 0x5e8bf144fa59171da9c7f9b639599915c6a076d8c2edcd9fe566608b9eb6f888, 0x14ca52d812e5354cd96d4b71ee3b3f6997aea3ef6a0c0622d70741f552c88340, 0x1aed0aa6fb623e702753ae23c3570cadfe7186027156a4fe791f9ca79897a229, 0x2edd6e23bb17cb54128a51c049092a116643b941104664698b6a9607e16fd3c5, 0x1dcdac6b0675b0ea3e774e01024f74954cb36be057d38d3b23075f6ab34c945a, 0x3a50c8e1d88b5f55724e00a8eee448533b2ba2a6895e3a4cfbfa43367e76d62f, 0x595986970da8493317c52efed50ccbabcc562792f89c40faca00e2c11adb2604, 0xe2590241559d6e704bca68c078ac99773a6575f2f6addba3c0cb597c8c8d151, 0x2db3e53615d27664b05d29b3555ea413616265a55b395b9af44d18c2f3b7c665, 0x227f164028d9a928a781563a8ca32ee053f3568e441d907c9df45bed6f73b50a, 0x4e2aec37ba9c4b98131f159e018a669837b82c8cee24eaecd078bc499322396f, 0x1d31727edaf984a5fd05dbffc08502dbdab8ed1a132bd8b9543d0a0c86f30ea7, 0x1bd6ea1b218aea317ffaebf83dcb478a38404235dc36c17890a2964f4ab350b2, 0x729ed57a0fd2158c07a58a7f633624eded010d2025046402b6687edf0f49584a, 0x32c765900ffa2b8e6327857eecdb2679e26d495abdb8f17d4551c5c0e062deba, 0x5d27fadef855b6d27fea042b63c2e7920879fe54d6a974d90ef5cb19c2d5d852, 0x5d8860f3ce2a633820c28698d1f882a7817c10b7b8b24a6acb5a8718975c1a3d, 0x47ad555d0720c440381d1a06ecc5ca9006baa0e80db608965b6169ebe449a47a, 0x293c7667240379cd91707ed082d2983f88fc8f4bb4ccc9dd0156ddbf0ff75c0, 0x714d5f84d79ddbde9713e5818b172949f87a69649f4831599613afe3276acc26, 0x755af7cdab65370a88a7f3bec84567233df9055154a227f7a96f7c44fde20c0, 0x2893dd6793c21cae0bcf7beba56e7e9865e4a503532ebd2555bff182a07de02e],
    [0x4a867dda0877876545809d29bd0c9d27fef9e96fa4913b23edb6db6d12492493, 0x20b5b6ea4d093705e25cdd3a39a3f4ba319023ec9f3220b52566d2fac27652e2, 0x72d9d77ed9188f48f4001675d429214fb11e031605acce279f9874ad931250b8, 0x2f64cdf492914bfb236b4d3f2c5f5943f435c7f9d71c3a42bcb784fcf818784a, 0x257addc33d63d6d1bff46305203eb10190990d8d2a42a801e6dea468a3190e68, 0x38caba566de894a5ba1be024c0738c1acb11815d1198ca1a6ae0edc4f9e698b5, 0x27c2f3705436b5cfce262abe352fb08d368971c0fa0879c9632c675aa588ab6d, 0x21e0ff13e347bf8f1c26fbc50b08a0f3a4bd530b20d49def73c42beadae1562d, 0x68eb38e815559004f0621b2531d4b74cd0ad02b565fba1aadaed036822e1fead, 0x3435b72c64486747c32f5e891db806145a798811e1bb95fcab5a60b189b28dc5, 0x6ed60786aab6af27aed6961efa95f379847cb46f5df9ad509601d873b4420fab, 0x7524339fa62c9353afc7547009571b5bad0c78d5618f929d66a2b7d08007dc, 0x202c40b0d403148822664387d8abacee034f925ad951867e136154c27ecbdaeb, 0x6ab367c3e929356e28795e280368c93564ec8fce3d3dde0e9bd8604964609595, 0x6934a06c98a6f2b6a5aaa41b2c95d83bbf2f2186fbfa4a5c219175ddd826adb4, 0x247b1a5f98dc1e5f635a9a02db8f739dae06ccc25f10e129a11b21644070aa93, 0x6bca88c99901e874a92b73612ed4bf1f5b7ff01ca8516a52a8b0ea52be1f2f58, 0x103363d5933e18b69e56753af1d2d1fd9716a600f12e71255ee39e44d0593727, 0xf9e36557d748adbd63a55961f68be2d3f744c06834810325f1bbc7ac933f530, 0xe810eae6ac3895f0e32c7d3b8e1fa33f6f76122ffee9f7127e5aa78b053a8db, 0x1c895219f0e63182e261759214fe395040fcd3f70a43bca82498a3fb3ddea6bf, 0x691ac8c7331596588cca7e906c5fff892c010fa95a3ede9d060cffb079e26a83, 0x2ba9e35391e8b1e5425fee1bcb71397cab899520a522212f664a293db3450b25, 0x5a57a11fdbbecc7a0b4139ae064fa3df9c678d9f7b7028aac197bf2244b4cc33, 0x345dcb934292d0e63e8c21558c413af1b924ccd46be2d87138d38fdb1e205c96, 0x236d68eac0a5ae1074d46fb8141776ba6d3880925f267d65b47eec2c3e1334ac, 0x2ad703c0dcc30db3c98a5f258cc43940b2acdbadf4c616fd35d5eb6739d0e0a6],
    [0x4a867dda0877876545809d29bd0c9d27fef9e96fa4913b23edb6db6d12492493, 0x4904ce3287cc0fbd644b6de9bdc4e4d09ca9399d06f76cb84dbbfddee098a902, 0x39d5472277f32759473d41bbb375aa184ce9fd183e0bac58a0549c485c2608d0, 0x4c7fb36546a9cd1119a7f41f5a70a77c14616d37154e766265a4af2c84976ab3, 0x2164da380d1f5bb1c9bae65592aaea0e6cbc532f30b3f9c063c467996ba77a4e, 0x549bdacc449796720850dcfba0ed0cb9581dd15990668155ef1510a9e5194d97, 0x2455114641c99e3a06a0215fef9d1e5bb28e53d7557f06150fc00144d915d537, 0x4edf1d42a3d08605ee3932044de848ed077e093a864bfd2bc1d5fb0210c12017, 0x6b0201b25d8d01e20774d9015adc9c761e1ff0ca189c05773d81449e23bbb482, 0x71ea5e72bd7e155847f404a8d6ceccaf6a6d3943b55e0f8261277479117122ec, 0x630fb42fa2ff394754d21923e48d29897813616749773cb0b7f54904c235725c, 0x2381f9d5369d87d356d9c6cc669743fbf98b6341e0507dc80fa9315584e46369, 0x6039b1598aef0558ab34fba281a04db02c924d7605bad8595af09878c10d014d, 0x30ad417c577210d12cf82521f5d9a9b99655e5a2dc6f63566f31f86f0bfd9a5f, 0x45662c119f8f9ec51076cb624046bec5bc750964b8ce9325b2c7b8a25cd6604, 0x470493a1ad9fe6b718e9b2000847e7ea1cc07cc0edb04c1baeb2be3e3e414721, 0x3ec23eea0e6bc2e0c42397b447583c5ce49356f54d4b7f8ef400ace8f2ee460a, 0xe5f730379bf1d0d52c4d2e9a4678a5e36775c3ef27d29cd7780ffba592a5167, 0x6ff035c253f5f3ea506e4a7024e170a98ee6ba3bc997939b45cdd654cdcfffe, 0x6e3eb2237d4dbee0a58dc8d583fada87ef89cfda3160fd7361996b35786fc141, 0x6d06319e0a09780f08b19fcb59f3e10e2de29999fa3f17e8c46e3a609aa8be0f, 0x54ba328645655f5ee9e9fda801e10ee83d20b326774e3c450b9aed1cc8d44f96, 0x5c8c64926d515dc1b0c4165a05d059e39540af308049d95316ef24c8cf2cc3d0, 0x1c956e2e266f85736e645fac87d5bd4c5c7f7f20e5120ebed758e97c7f7dc646, 0x24117a44e4a359eafe26296d0e249d32b5f932e462c450b49e29b30058529f9f, 0x2d2771cf7c637b6992756b8546e5cb86394c9248c79126082bb8f410688ec5c2, 0x45a58f26ac4c95d528cbe8665a44f8cf7cd8233a2128fe98f80f3e3d6c5e9766],
    [0x4a867dda0877876545809d29bd0c9d27fef9e96fa4913b23edb6db6d12492493, 0x19f797d98b72d07ad6201fed90f5171bd9c53d3bc131561a52b21441d56a40bc, 0x3cac2afcedf9511cb55d058d00bcb193199eab0eda50f1db1527cbd00ac75eec, 0x3fef3d77450ae24a369022f48b5569b21f3a60d07a0dbc325e5e41af3d2e477b, 0x283605566194e35157a6df037f6dea46e309406baa0580774733b449843f331, 0x3718ce5db859b4d44388477822c5e5cb4bcc942ee91e8c51a0ad69f74fdca247, 0x6aa449b0995237645274d1cfb5aaf981b4ee70184c766ee23eb330e98456a874, 0x17178d5856af85ef6e762da261f0248fd56700341d10bc95148fcd0df6358855, 0x49e6f61b9305e59ca2cafd8e44ff6e64e60e5d94ad2d2c9890ebcea6e4f062, 0x15e8905b144feaef5f5a615f2edff15e55890b5f5d10c4339956c59f2bbeab98, 0x12ee57aff6c5969fe67e91a330db868a9904422b22d138cebb85771a466412f3, 0x4427fc451b89e6a59243ae41fe1aba4bdcd88b12ed4431ddab64f6696679e103, 0x11fe775f3575e6d0805dc9cfceb4d6b987e605c7645e7ad0a575fd5b1cdbe55e, 0x69f53f131ae69892d17ec1b9f37a7855baf8b529fec4f80c5b7fcad49b59b8a0, 0x2dafb04bfea310c2d2ef4155f1a10c28a9922d6e68d4f379733f91e92bb8f72e, 0x6c01418f9d5f3b7448e5c648a7bc8f14f10f494fb82501a62b58c97f3d931f04, 0x58d75d3f275d0de18b39bfcc6dc1a31e4e7cacd3f20660825b3c2478bab20a01, 0x51d8087a53c9025fbbe13c17581f4ecc515230cfe6c817d7dd206f9f9bb21459, 0x6055d563da472fb727044f4f5717f9ccafa40450096ed3a6aa4d51f7dee42ac8, 0x6095ccfb57935b3c1cdac54122de6dfd081374be97f164c2f5e8ed18c38b184, 0x625029f708d5efd1ed02b83480ff4df7ed6e23f6a802605a3fe2b9fea51e4731, 0x2e6868adb125825e1a9d14b4b53e3e7aa83e128214feea8f09439b7c68557869, 0x2cbe59e5e2bf8abeee5a4d8ea9c00540305ed14d7bdbfeab389eaa8d8f10046f, 0x57b8f914d3c387743300ad38767514cef1bc5b6d7a8f50e5dd9a1f415fef4105, 0x601658431670ffa4f4badf1a58f9d75593abbdac94f0825a673db36e936bfcc5, 0x7ac580a644c27aa77657ab3a76478cfebd2d3ae3295bf88866cf2111df38185, 0x7133b911c37ee53326022e277bec29915d1409d586088dc7fb15a5591e4fcec5],
    [0x4a867dda0877876545809d29bd0c9d27fef9e96fa4913b23edb6db6d12492493, 0x22ac365266317a693a6e367e104ef9bae2972c45a2e86943f2d344d16f3571b3, 0x1a9bdd2c4c12d3439d7fe89a72a5861776ae6551828494b189b5c02a3eade40a, 0x4021a888d6c80a45f3d353e3231b872ab2fdcff70660a5b459259c4560f186a8, 0x2398d99a81e576187e771bfa1f007ac16982d038c1d1c304efd873d176dfc187, 0x5a71f6ec4fef2146bcd574783f2a86f1c1b79450bf1935c1eb4d75ebbf315b83, 0x5ed646cf1b07837e172ec601e1dc0214c668c729da80b165a741c1014fc98bb4, 0x4cebf74584e048ccbd33eceefec8d8b036360ccbd7196484f3802c59800d0eed, 0x217058038b32ce4692ed46ffb36d38dd45865f7239b7a6757eeae3ad9b30124f, 0x1a79effdf510ce8d67c1749fc2d848d12cd5f0d56ed19a1ca42d588ff279d910, 0x4a8a03f399b2fe4393476138cea8e524851dfeee4b43201c799bdbeda223241e, 0x542006dcdc362c8fad0e982ad8b605d0fe8c2906ddab7148c7f9257c15e71ea, 0x24a3343ae7297ab090c82084c378f10fb4a01a22dc7f95fc16372265beec4b03, 0x3f4f02551e2dfe9809514323d1c782dc707c3bc1b13ad860b197a24e879d193a, 0x5380e306441a35f8281ef4970bd7c72f9ca7210423f29748ad1392424a351b9f, 0x413c30f5b132cb67646b102246071e7c50dcd12da930d1677d2e4e42661b95fb, 0x65a70b4fe066c8cb70a99f247a54ee51e90aee8466451789aaad0b76ca0a3583, 0x9298186899c2f5a5675b9e7dbe052067961fdbae632e6931ddc898cfadab2a9, 0x4fa84461997862fec0a120410f1b335357f02ad122b6dc47a38800dd23bec8bf, 0xea382d26884bd0a63b13ce6bec7fc5b1d97972542369217b15bef573c0965c2, 0x4783ff634326d8eb41dbb769526590db694da64917e99d68f010858f136481e, 0x176834ee4a74e6c7e2d77369da162579c634a31b8975cd743d1a17ff44a929b5, 0x51f6c363c5de9333e9f158ebc76c92f1e2aa1be1af6f453c319522e1aa5bf698, 0x5b13d3c15399685f3535f2ef1a483583d364ffd8f58295620c9d2f9eeb886590, 0x1e443a27d0bbe6f2a1e285d3cb8c889f0aa3ff77d6dee6bb9627872a1517a995, 0x45d52ebe2f70b5d51d7eb273fefc19aa6179762acb29e21d3f13afc6cde9711d, 0x4ec09b97210fa9bcc313df624935ab5edef382aa1046bb00a6a90f748edeed8f],
    [0x4a867dda0877876545809d29bd0c9d27fef9e96fa4913b23edb6db6d12492493, 0x5b2573af16b2c0fe92b484732346690e8e02207fd1ff814d8ce390c512150167, 0x58ddc956d6a253caa771e02cc995d26d33535a375710fa857365658286c6a445, 0xac5bf19b67fd6877d4b81c421672ee71e1693426566f22fade3a9bd79d7ff39, 0x6e719ec45e90a65e627fdaa1e7e7780c2eea6e0a05342cb9d39924fa6e41b33f, 0x5466442cc42be0ac80e9a792e9da2eef1629fd5abf2ac65d0da736c97baf5fb9, 0x4dac6e12029ba4eedc56b736883e0ec912b157f0563dce69d14e4f368967c068, 0x46a419ddb136498fd4977ecb053935bb1c26b862a60b847d0c313380b9fd6196, 0x4812c9c1d3352221f21c1979d52bc31e9fc548cb511103816663b8987097d29a, 0xbd6e6eb177331862b945c354189cde2322472250311aafb75e8ca22a1387d30, 0x26d0e66ff8b3a59f4121f97c6a6f4452a7a34f7d47b9182d8e0d3967eee59f4, 0x16c630137265f492ca6e35a187ec31203d366ae2d220091ad9662063422f71e4, 0x19dcf11f9e5e0cc02b6899326c481b781b3d781eb17c7be0367fe3018302fe38, 0x1fccbefc78a48153664e48c8ad5ba07aff1fedc119eb3dcbe9e31e8889b140d4, 0x574102e307bdc3cc24005bfe73d9a90597d62b30fdfdda8acbaaee000d413e1f, 0x2d20084ebbb9faf8db9f8543fa6da0c4474e37d765180b71961a3f6ab5f5d66, 0xa9cc7649e8bd231af5aa4949636591638997532cf638e5cbe70a4f1ea09e1d8, 0x58ba1d9c02957ff1a49c55509b4e3a5b4a514d336867c74165f49c0a91178e69, 0x299d6eb0a144a8b91922a1932f05172292cd9adbd317fb7447f2d166f0af75, 0xe9151d9ab04e0eb9024c4ee17e7c84839c6bd5a6320be3083d1c5d2f089b5b, 0x28799afeaa7704681179e890fae091513b316119b9e2f2c3c66062eb37b14f18, 0x223983653f73cebadadfac5750742852285667ab7149bca39569c0ca2c71327c, 0x5b37fe7bca4aacce8c74229c2ec803954c3221f44faabbe023f5d9655e311930, 0x232863bffb23655da26410a638631b0df27b075c1d5fdab1a7a55d94029f405d, 0x6182b2e0af15b27579b598aad6d106b64da44bd9462bfd9682c5e4353e3f1aa1, 0x535359fc09c164e2d7722e7698f0c6e3cfa5d021cd3a5ec5748f794d337a9147, 0x11f16fa199499289639a36f72e68134322a9ff1469838e054bc21227d7843973],
    [0x4a867dda0877876545809d29bd0c9d27fef9e96fa4913b23edb6db6d12492493, 0x2746139f65d4297e935abefe567a697ef6d9e81a6b104278e0006e9fd3a1ec2f, 0x540cfe62c8f1ab9141ad9347e349deda479539a4d416c9a51a3dc61183da400e, 0x481a8a899b1f4916c50fca28df2c5e3a085140bee99267e74d6085792f59d7f5, 0x48224ae1b40335baec59d553d8889507f6b557c7f77d04709c0d5daf31adcda, 0x171d77be294a62c40e5afa6ea2589208df78218cf97922bc05d6660323eb328c, 0x1a5cad08838e13ad57b4fd03fc42b025c9d147dbaf7a02d08465868c02274377, 0x655778f983cadc705d33a1ffb7ab1d5a0ed6cb06031ace70ff874359f3811ed, 0x59ba9f6fbe57182de5f71a30d432a539bc8701921c0f14cebb880341614fdc11, 0x13d4206613408801d7f210fab16af4fcbd9581f227171aaa303231e51f9ecb49, 0x71202a7613029a910ac771eae0445ea8a3a24cebd07f464621807b3316de9b0c, 0x18720615431d750d86681b633912a235a5a6672052f396aa4ed992da70a7051d, 0x13c7031102d64aa85caa203c17c10c89a8cc9c804e4aaca13d5332af0a01ce6e, 0x3866e9b38d562cac5314ba794f1d7f3eada327d2618a7b1a8b089bfc87a13d62, 0x703d9b1b4de32f7bd901a1d047eecc33fc643578dc0d5401fe5ef7650958e931, 0x5bcbc757e841daaf223d3c18f8fa14272bf90346e667abd3ccbcf3b4e2d664cd, 0x350859aca86adf83f058afcc2f4672ceac94b8834856186dcaa5ad154653346b, 0x428f382ccb6b9993cb6fbae3235985be93ec3c1fb223c74a1abc984d54e24763, 0x1f77fb9f03e21eb2e8a1d4899db781fb0046a7c5f2105e7bb344904cef66fa32, 0x2c54c94ff83d028a79314e86bc68d47aef87bfffe8f9434ce2ad5f26da19bcb7, 0x3d8393ece15233947096de5fbe31a934818c5166b3722abb71b6afa47e965c23, 0x59deb62ff301c0f9088e63059bbc8a6bae1b36a4fd3b1d6d16b478dddc081946, 0x62db4f21e068a4c9f3b8586a5991e9babf94db2687129eaa6f36cf262d3f4cc, 0x6c6e87dd88e0482501784fe83f8ef71e40e854f1410205f7380f09b12cd5, 0x4f24de7d1c46b86578eb79caff6bae87b2a59fd38c225e84e929ec61331ef58d, 0x47c351e1ddae45bbb0421ae7038a4b94e0077d0998e1528ce8f6f275e58ad086, 0x2ba15eec92664c02c082ca393e15f0fdcbd72542f44a73038925894d3b9ed32d],
    [0x4a867dda0877876545809d29bd0c9d27fef9e96fa4913b23edb6db6d12492493, 0x71c55cab6ef5df105f33876372517f5396bdc6fff1df9534db337c7f630f5c7a, 0x7befe629973b756bfd82cfaa92b84d2ece936dc0c3dd3d7188cf9e8754fb364, 0xb3724be643b2a96e7879aa28cc2a2182e2d4db6a0158bdeba6310cad98373b8, 0x1cf475f42fd7c6f959b8fb8f54ce1f9caa3c92bea5b7f257452da80847de36b7, 0x19383282fdd1685917befab0f36bc93b48637653d472db3f417808e462d80d6f, 0x2473960452a9f78daf41f11b996c32046ec319d9fe3a991495c4fe3729274def, 0x5e6a4e9ee183eee273be38c8b6511c0eecb2c0e68a012156b939aff0ebf289c3, 0x49a6cc5c7c2d4bbed199f8d6b0ca27cc162ba3afdd223cdaed03188b42c5dede, 0x52e49f8707a0e7a8d6bfc6af88849ae298069021c17ebb7f88ff76a11f7b2528, 0x23640dbe68b1056a98aef839d7516538cc4cafd4dcc72202bc9571612fa63b4c, 0x6c4674f03ef0e3af43c70842113dea6bef9b1dfcbb6821373b7f432ca78ac30e, 0x4b017446e00ed291c949b04da744f687e22d8563c25d4cb47c59597f6caa84d2, 0xce329bf1ab1053142998314a3ca68294f8f03db2d62f090aa88bd5c4fd98197, 0x27bbb25ddc1953ba1573be2f10aacb1c03d33a17fadbbbc4ed819e363a61e586, 0x2653cfcec86f7583b8595e2e7e39cd6bd287571959de41a7a14d8b685a3842e8, 0x617bc9535eda7954b7a22c74f09a74802849693a6e385f5aedade310bdf43028, 0x5119fc3143ae3ba1ba084f86026b9d5b59ff911bf6cef3b391cdddd0da19ece6, 0x66671249827560b7efe66644135e11313629b8b2c84e7070ad79446ec19f2620, 0x4285c9f5659642baa60bbdfdc386d0fc4462ae264df40ca9568a3684e1007fce, 0x400d25bbd51fc152d65a0938ba3f80166db289c2e922dfc65b4d38818c71e394, 0x556b166acde5b25e11346953943114aac70eba1f70d6fe2948d6bf5c0aa17674, 0x5ef591fe37db9c960b15f9b377ec734352d0ee75333a45a0f81c7691d70354cc, 0x3182c29b7c189a80df6fbb8853e67786aaaa23f5258db431bbc29ec35435b1d0, 0x1f8c53825e05610cf1e27014d4d0090576f957df06a6aaecc9cf3a66ee74f346, 0x178f1d49810766e8d58df54a604bb61204f07eaf61fbae4336b639134a378872, 0x4dbad4fbb688ff978bd035bddd4cfc29639610a361b7a07b0f396403a6c734f0],
    [0x4a867dda0877876545809d29bd0c9d27fef9e96fa4913b23edb6db6d12492493, 0x5c06172b1e34134dd21e5be0df04457d862cc58c2aef347470aef7398609c445, 0x66e778204fd8da7d95fbb366a69562fdbb0b1f18efcc236806967780b8ca8f74, 0x412fa49745d903a16ef96301dbac0cff3c583129832f521fe5dff91391247151, 0x5a77d00fd0cf99285186357a1afb01170ff63bbf93306b485c727b3b1170a88e, 0x640c2e63fdb8990257ae2fbae72e42bc54d9d39142a988c7aa481547c2cd2178, 0x18d2174cc0f8615159cfa1a2ec626368977e9e3ae6d023c7f8ade011eb2d6f2b, 0x2653a0b8377540575982c11c9263d8e3e059613934f9afeaf3ccd645fa346394, 0x32902e9e60c9ffbfb32bc361121601b4f9a10e0b185630477dfc95d6361d23fc, 0x5c84174b347ab09889db2cb708383325c3836cf03a9b0fc88902a74a36a6001f, 0x639b8b18c004794b50d37bb61acc4cf5229082efcf9637db548b836891130c40, 0x7254f6dd9333b1ccf781ef2234665ac08ad8939f5c2e5f14efe21d371d141c76, 0x1287b8114fb01b6eb2c0708a4fa10e0606d38f44c585074e19b8b97ee1a53a3e, 0x134f8534db860acd90b65e868f8262155a6a9984f012e23c66a39aff29c4217f, 0x397834356eec33d677e8d52039dd76de05f53eeb2df9f55ada42de793c525470, 0x3c78e044e53608d3cd0c1f4e3904e73776f881fb1e15ace2edf0c542cdb8e731, 0x5fb143b70f481d559cf709b868c165913593589a0aa7737b223fa241c280961c, 0x3a509f75fb1bc0081bfe3fcd7ef32c1ffac36d2716f71c26fdf4a7be55d349e0, 0x6572aba04f2c5605e260afde4e6a8245bb5c1003b87f3497e0992a4fce9cae6b, 0x7903b67eb5cc253047f14275acd7a4e926b659e4ab51ecb72c51ca438e61ffc, 0x38a82db65591858eff7cb8b4d759c3251bb58d9d46ab22e2cdd1e1d4a4575f63, 0x4f3f58c2b645847d6ad2301f522746af0c568b86733a75ac3d1929c725376ddf, 0x4ef7aa3d950df848c6d66702c6e00c085ccad01f54359e2233a9af1e2cd402bd, 0x5b025e85d079a447375fc16a02b41cdaea8f4d390da7062deb3dd56a0406c457, 0x27a47aca23b56fac0275ac87ebe12fdf5f2e703de55b95d6ab662fef6f61ca79, 0x9ee2707943648e0092683356d64e42b21fdf6e8e3e4c41920289b5a055acbcd, 0x43d10a5366c70fd9eed865b77f357fe5eb380e45d6786ea0f089ff4b1e2cf925],
    [0x4a867dda0877876545809d29bd0c9d27fef9e96fa4913b23edb6db6d12492493, 0x7008f827b9d7f0d5d0e5b0bef5ad4082b32e08e65d1a832c7be5ea9bfb966ceb, 0x654674107ff909b31b22792f99be8205b8d8027b5c38c44fa00a2c876b4e8678, 0x704553c76d29b4c0b8fb26fd19e300e5815eef99b76843197e66894ac03976e7, 0x2f0c241cf95ff8e0427ac5112f73700a27a6e18695cc106bb114fd86c74f697e, 0x46d07041b0c865ec9227224a7d6f857fa49d85997674b9e508f0ff3a758ef4, 0x1a8e042435d84e1c36273cfe8cf1322cea29a15a35cc5631bc3f25f1124415e3, 0x51bd03c46fed35f2b9cfbd8a75ddd90f589261182160d0e0d9ff842a437c6be5, 0x339405ec5cdc1469fe88520b80ee9c6590db1a0b1f1db8195a4770db2407ce6e, 0xa21ea6863c95f86c046fc5913febdc0577630fdb3ce4c6958287ae77f530b2e, 0x3c89879ffc12b32ce4002dd114f8f56c965a69e833dccb247b18c54bd87cefe9, 0x2ce40baf2c873c5233184d00e7a69d743c0917bf4c9718ef288d3cd7ba130120, 0x241c085c3d8572e2599cf3c3039856bab4e185385ada84d753793b799590fa1d, 0x2d64ab0d1e7ff005eeeee8d114bdee500fd6b19fca4a74c79d4f7a046e111350, 0x6ba2e1b3383ae85d60d6e0606d20ca3144ae7991cbd3477f9b8dce5481494f81, 0x479acbdd471b7128f69a743d9d6b4da5eaae6830c2d13efe47c173871f72c9fe, 0x7ed8263ea3da65f579f8902b390199e369beb5c665a80b854b7e0d92338a249, 0x5de87a6f40162276d88e5e7bab531c99ddca83e5f06cace82172dc61fa4f9069, 0x54cc3f3014b0e45ff31b6e2f42c70c4aa3ba3ec3d3d3e3338d0cd00f12b5a31a, 0x51649a7fe9be259eb50d899827d733284aef2dc571725b1e644f914f63c3e87a, 0x1f8e4cbc85971118bff37f5b0976b932ee96538a1f823201d8e93fe4c213b96d, 0x206ea74d93ee55d0387e713c106b651e5e2f0d67a4b801733c4ed617c5ad7ca3, 0xb497dc17c9d52149e37919a01589f3fcfa3cd4b3bcb26cc0990894144f84d23, 0x624f1f4c9344578a527933638dd17f3112efdc30ae265345cd869210f33eb56a, 0x4bac88124f63262b18a8955c9b5c299940abd4366d9e39bedd71344ec389d36d, 0x5495158e9bf6b354058e3790a2a50d6952c243c22e3b141be39d982ee59bb75b, 0x381a9f310c590e36a93cef42240de75fff774c763ae3a723183266e152fcbacf],
    [0x4a867dda0877876545809d29bd0c9d27fef9e96fa4913b23edb6db6d12492493, 0x110591b18c9c8d458df27d633706f6a2d342d02f325ecb9b39165808bc6b1fe7, 0x219522cb15720ff0112ed05f816b3cec8827ceb53c127ebc0ff282f243c7135e, 0x47d9c4e8e395b311ae5f9b094d01118541af7e76b459014701fc1d3c3892803b, 0x2200d409000e53c6b31159ec84cb3ce68d2aeb29cfef1ac1e4f7b19ed4f8d0ae, 0x22efa17e07989e3b8048633888504d84d4e404f403ac7c6481d3b54c27f8746, 0x40d2241942ccdfb0101bd5ce6f97d79015ceceb1f6c60a111a31d772ce9196cf, 0x2942434dc72a999609160e1a768697576bba81bdf22909833221ef01a60f9eda, 0x586bb4cda7cc5f2ccd6fc1071ba1c14422b83f35863cbaca53c48dd5a8bc10b0, 0x6fb964bd608210234036f93fbca69460247023694a755e00086ab48567672bbf, 0x44490dffeaf130ddf15aba39b1c37ecdcad3ecaf5db6031f20b04066206f0005, 0x12acafcf138ff095e3c737262cfbf74246f7093fff5cf2510a56d05f856a1c3, 0x483d979e884ed18366d697165c64ff5737a94dfcfc0ede6036e848cf7c9f3878, 0x195c15ce1dde0f3c34cf4dec0786c46de57a0277bc65637fd4200ca47b934aae, 0x67abb37a4935d07d82583cf6072812f2761b9f57563fb0a11448544ef3471cb8, 0x3f9b33ff65234c860af6f22dcbd21f1a09453e599eda086909f048f94fd17f63, 0x37f8646adebd8ca062fbd8b3d7e72ec951c98fee9c686b8972f93a069f81195c, 0x6a91b273c560a162d2685d6c9be6facc643694e65c84f79f879f93e4df7336eb, 0x25cf1baa8597d4ff2dceee6fc87e76053176b3a7cf042e59f28b04816b5e0ae3, 0x6f5f2a5a8c494e096365b66e6a236cc4b1962a0cf5657216c915ce60dc89637e, 0x534ea2db18fddae24a9f90be79cf4eca307ff9bf3eed6ba3d187f9b781eb9bbb, 0x3855aa42c93bfcba285d5c7cf88b61b39c4ec9c0e56feb4827208a55b30cb870, 0x6c6edb9f905edd43885d3034089daf07a20f7a51d617fac63253d2d2a242e60f, 0x465c819a5efcef6ddcd2f48252652e46d87bedcc03d240a717b055065aa144a0, 0x1098527c2306bf2e1c4e8391ee3637ece4d77f21e3a57e80f7065e2ca07472e7, 0x1a8a5871b237997a6e39cf411765f96823ec640476c6e094ac570521447e6a66, 0x1ac4eb39b989118b25d5f1e52386058765cd604d1ebae8e535dc8bca0898641e],
    [0x4a867dda0877876545809d29bd0c9d27fef9e96fa4913b23edb6db6d12492493, 0x73d918bc7a7da0a017fecda03997f3e30862e7f4f5045f4286c89ec396068ef5, 0x4959a0d096e362fa801c62624fdfb8620153cdb58a6455ccf641dbf7db0b0712, 0x6e25c5b52f89b3587be27d8bef1d65c31314625511acab43eca99cd9b1d4523d, 0x1d09039abe1a02c671f113313a48a4a4314dc7dec716d093bb4b0e486feccc7d, 0x371846c527fefe8b4892b39c3b309168c3a156f833a605620cbb7162554ec4f7, 0xdc10f1705668bcacf5746c45195896a474504cd0812e63417f5d77333ecc98c, 0x1220e16e2eee2efc1e2d9829550b5a871d934b34259d34359100f922e72af3ed, 0x49c9d36d6c7c2b34e0c42fecaab9791b22c015691ef57b05c7595997d75aa267, 0x5e9bc93f5972c001f1f3dabd3604c4a735eda6ec4d7f46bbd2b627e0e802d147, 0x66f9cf285aedeab71f8248599141543e7aef4469b66867362edf56050cd014c6, 0x4c7daec05b3efec93e7f22af7010535c87bf4dfe97442d547e2222af400d77c2, 0x48e2bdf2aa4bbd58b8eeb3e592e38bac4fa4e021bc2cd33e84c70c052f25fe4c, 0x6cedadd3932c4a479aa161467c26a90dd490b2820530634cd26af3c0175fd0de, 0x35616f42bd62f40d32cd032e99815e6ef71871f5807e83189fdae9ca6d43c5f7, 0x6abbd05c400039ad6200102684c347bc090bb0b1691d23e102da9c00af2f294, 0x1c924110297bab3bceacf0a854a3ab792d61803e09c041e36a2f7bb6364c3c2b, 0x641e4bbe6ddf18db43d873cf102642c27726af2cd58304fdf903412fcf980dff, 0x3113f739088373a7b97cf3f8e131940a22990288679b84d76b92b53931a11391, 0x5873505ec9acafac2c6e7221a2aa907b0490b636423082cadb6565de1e72ee5a, 0xc4f70127f27df83ca1b73150322cfb9077bdb3dd62aed17515f0ad339865c70, 0x824b4be1190fe9334c0cf2d1fd6380cbb76a1935205a146ec3e644a072395e7, 0x323353567ea9b4082e9a7ca4391bc475690b6798b4a3685915a8cda10621115a, 0x105bf1e829720c7a70185b61d97dc3e46b6842896290ae496d362bc669df45ad, 0x13d696a6396edadbd4e56e3f126f5e1bcb735de80e477d3b7a57c72f05f6e59b, 0x48b649654908a4150b8d5bebfae9405b366397eb26f4980f38b2d192d62cc1ce, 0x20a8a5c473d6f800919e0fb275224ec4a570b2eab27a7ea4261cf4c208baa45b],
    [0x4a867dda0877876545809d29bd0c9d27fef9e96fa4913b23edb6db6d12492493, 0x7abe3a1a4e9d5e756bd3a5c03d9f0657fc0b0309cfe6b2c98c6f749ebaedaa3, 0x44df9746a17a4fdae66bf0d17da4d7c0e05f323273eb9e637b1e17567906b0ff, 0x5114ee3bef8fcc7cbb5c75d19e241a9e83ffa0415795a3ba26cadba1ed05a2e5, 0x2f03ddfb678ef1c0a85eebefcdd49d99edfa0c0de5f528b53ae12e48f57db1cb, 0x509441e4dc8dce25c00c75459565321650dd625226fdc65c751848f1ab84be9e, 0x1676d788f1b2d90df27412ff434af6695b02792314a6cb5cfd853a5eaecfc626, 0x583dbc92fe7ef2369257214b5dd7470d6d6ce27623ebffd59597f7c35d0ca067, 0x6c5c5c79472e242807a37a2f7ddbca169ab29c6fc29d37f38fcc1ec7b2b63485, 0x24b8dce40ec94c6af25285303939c9450c212dd992853ef54c55d1e66b7f8ea7, 0x315b90f2f35789eb666beb553dbe15fd94fe055046f679497e90e57fbf411f63, 0x3c23de4ee2b04708c544099f23ecd3f56e9177b9848919cfbd4d7da884381813, 0x53f929bf6758cdc59d7a316ba83e416b22bae7f90a1be72ca80e2cc773e6c89c, 0x48b90297500ac41d86bf8440da5075e51677414d3d363ec57704c08edcd7fd15, 0x11866823982a3e791d596ec85fa98af09abb476f4cd68961c058a1d8460ae7ed, 0x6daf84a5b032ed44cf4612b15dc30e0c87e55467059dbe10c7d44d81b1f4b18d, 0x15d7af34c134efe89a2221c487c122430c50cb5c39f98355c60056c54f1cbf4e, 0x465a57a8a1debd4a1ea6c3ea30822f69afe82df8930075e2dc1cc7ac0f773e76, 0x1adceca0407242d12759d73be192e56fcb7b27c33158c4fd58071d869ac3eadc, 0x2134d14c886c8a22c3e0cc3b9de904a122d96f870f3c80c06afe57c5306f3c2b, 0x2f89b3c8643868fa02f8634a18dcfa8e1b0cdbaa6e13b9afd0bdfaa0c71f355, 0x6b159106dfd6a5f86bf24c6974dc4f4a66f7b49b06095bdf1cd1aef6e62b2740, 0x545d8b041c5933cdec899bb5332caafcf9c9da457bd30250c794697d9f5cbb4f, 0x5ab49d29f50eaa0bd61f19ab578ec1331c5ac730bfcd95341405fa7a86eed76b, 0x1abc5d077607e30396bf98a96c7a2890c55903d9b3f9b8ad912c5c003b2327a9, 0x4aa71d5e2d0d0dfff2a6e3074d0994e5b79de336f3b59d335b13703d9d4a3f93, 0x2e6cca650b2d24e49b6303cae83f2d99cc604ecc45fd0983246e2abda5d432d],
    [0x4a867dda0877876545809d29bd0c9d27fef9e96fa4913b23edb6db6d12492493, 0x6fb38454a14dfc4d3e6b0e7d51bab3ea440e4f308217204ad2f4b8fdc004b7b1, 0x631e29b6fc3f30209e09913350dc7a48164d1c64fdb43626a664ea73ad81346, 0xe84bfece3767441b681ff098b62c90c62058b0214eab935d478ee9c35b82f1a, 0x61074f799d3e6714c49414d4147b659d79dd0759c0757a0d8b4aa83e09e42121, 0x21fcc504c49eeb5ef230a2b739f99d502e1ec934baef413f62c1a37dea2a03b7, 0x42781aa88aa26321faa4e5959c9d9b55af5477c2594f13a3f19361e00a5348, 0x3ff567f1e68620312e2718803128b506f10dc8ded197e15473b7618af54d7d2b, 0x4694fd16e5608f98d03b03eed2f56c31b3c93488e44f8baf521e59f1ec8ef575, 0x202ab59d187b5fe9aee2537f55557e0f82621493ca6cc56704a4d88a9b5d9494, 0x1818187aa89cdcf63394653fa21ce70868cc662ecdd90e8e03e8023a75f8066a, 0x568505af528bc410ae83f81209ce9496113ae7bf34fc3634fccf1df1b2fb6746, 0xb3bb81b6f9105660a0cac047edf5720d73fac4a909581cb23787e16daa8a002, 0x6e5b36f6ee9cf4a63e5c413e5cb38c5c066af5b987562536a26b475c7d42e0ce, 0x405df590f01b5c5a6051d5014cc1014302d93539baba723b5de1710df8fee376, 0x607ad79fcb24252629bb370311c1c3aeca9c69ef471fd801ff92c7c4908ba9a, 0x5f8f1f9021f5c6dd0f75675c26d741fa0f1b7d2aa2ab099423c2831bded94f20, 0xf13e8bb8545d6cd68d9b9a7a7f25d8e14047a59ba05ce19997d0bee3f8986b9, 0xab14a045c4ed09b7becdc5533fcdf1ac126dc07a4f75fdcd9092a86086ae41f, 0x474552cd4db15605a8a65e9f7937b6d6e044457dff226dda542ecba92b6b8ed, 0x10e78243805d036b6e0c54e1fa0a43942db6811b3e9251fa2e31ef9b791bafe1, 0x4ef895da54e1ad5fa0f129fa85564229d1859401b31b38d979be4a82271131d, 0x1d08c5707f6d5d21b4111442f1c36d2df47b1eed95d4e8b1169e928bd86ff51a, 0x3a0ae2844bd232b9ed05f60ad0603846cf3b2ead83911160bcc192bbd8f60a69, 0x4b72dc6c0313107df3542775cf67b9404154519e37b201c5cbc0b9484c09a631, 0x2ff7ec0a7b65e01f0ff9863395b5f7e06d2808b825339497831b03b13969d03e, 0xf9bf2801a7bb584fda510b452309956b0d0965f737f1895ebb21b50915e6b1e],
    [0x4a867dda0877876545809d29bd0c9d27fef9e96fa4913b23edb6db6d12492493, 0x361a5d60628a4886e21e68f0c6a1ed20ed703ec6389cb03565667ce340e34a1a, 0x2aa03dd72093ac276393d1847d1529a7775db045bb76649193bebb5a74907e7c, 0xb648a7d99d9cd292ac7439f1a06a927bd3bd4e3cef97cd00b5b2bfc9db75232, 0x3a1961dcc5be24396833efe5fe5facce2f136e6b66f5506d50656e9f03dc2930, 0x2b1a2d8083096b9f3e12e32f47b1349e14a946daf99324331b9d4e9d56daa554, 0x1bd914d512a299699a2d382ca31364de5d0045df02a2dbc04addbf0adab39ce1, 0x65d9ffc214094162764cbfe898fd1aded9a595fdc887f95e5d56a6fdcba68b73, 0x21a2e44e7333a928b8135a08e458f439fa7c73a9d97afc6c3e4a65f7b4586e1a, 0x45b8ce42144d9fb1767d8fb88eb3e362a89a3a8190152de0212a880c9ef7dbc1, 0x701faab6967392dfe87331cea1274853b2aaaca655c2b3a1dd12646093df9e77, 0x5828fb769cc9a31a2b2d226a4483a4a1cff688af291ddb8f613c6f2330acbd09, 0x737917df5fe1c51fe00985b42ed27dfb54eb108806d51a71f944c09da3b4f6ad, 0x57fcf49bf50d495c90e8d2bc1a40d9ea5029b34519391a7c17701dd033cb8b1d, 0x60959ab6c85535d7b434c85d0d410c8fc4538eec6666efd1b0d96e7197cf52e9, 0x4af3ba63169bc0d4ee22d6b07835526e5040395f525ef966f3bee13d07896a66, 0x69680302a819761b3ce4eb4b0adb0d29cbebf599eb7238b15414710cf1ddbac, 0x43205be4ff16f8d12606f54f656cee73d167ef663d620d6ce5226581466b2dde, 0x7cdbd36b791e3dfe4347225835ddbf3d45dcbffcee4c3a83c6d0bc57c28a817, 0x5696ae1f04ade80dd500e64f875855e00884662ace90e54a1a53a748ab1d1239, 0x72f0571e866c872310c5436a81d8b4a08acd051f46ed6c82941ac735afb8672c, 0x36799cb37c78595718c92e95cc469a7d1493cd797083559ae79e048d5f528425, 0x370ca301f622cf75f363995bc861b942af694dfb899da3d15841bb71ee2f6d67, 0x3bbce34f035df24af8e9656b4395e0142377844aa487c5ac753620783255a9e, 0xd1bebf3cc44a1a0302bf83350faff7e5f0703b7631f1fb889110cc70b94d463, 0x3308e79408ff07b1e6c04b61250282c2db512708ddbf5d63fba4f0b4764bdf34, 0x5de56324a574ceddb5692b68e0632c9c882b7351cd8d8b2d8bbc21562b0a810d],
    [0x4a867dda0877876545809d29bd0c9d27fef9e96fa4913b23edb6db6d12492493, 0x22882bd13054409738f032cad30e209df5662f85a9ea13afc50604f8c20e73b1, 0x4e1fe44c24621a3015e9411646e46d3897504d1a63c65ceb3439ee45e2e22a87, 0x4c19d7677c7c4d0ed8e7c5143aa47943812bd0d90682069fb614e0a467276dde, 0xb025deb05cc97ca22eccc53663437e679a14d8be8dccf121e97633716cd6836, 0x647aac86dbaf59a642370229c62e3c851204d8575c8535e8b40b10771a067169, 0x36fe22bd9dc2b950d1eca2efe1296f2859104bf6941f91a1323c2491255069d5, 0x328bf1ed2fbe4d35e580572e465a61e627bf81a2f88e87788960478b10107036, 0x374ae10f265392444bb76e0eef2dfd1b766dbe19d85935ce9c5fea64ff0e3a9b, 0x61f6d9036f421eabe49a6eb9856f177f88afee9dfeee575e93d6bbbfb1ef71b4, 0x59ab25d1eb8a583c6bea4de18af6a0479f1af58f4b277a0b408936200e357991, 0x4974403e36fdfcb488f1418e1b83d16a69935245ac330b8a1d8ac03578b31fa3, 0x47f56e8cd901cb8c36c92d36bef04aee0c9e142970ae0e2df6b2893cd1ab0798, 0x64f6cccbe9a8fb807c790195764e10b6f20abc20f2531cc61d51419a726eb913, 0x72f1f064cc508c09dbf5f919a7be140a17b016bbf46f44b9e4f3f6ac4cb4ca3c, 0x38f11283a9058eb1464b745d55900111ca0189a6f698de53232709e37f9a39c9, 0x681ed58121d4ff0848d4fc4ca13eca15c00277974a4b82a4efb61e45264486c, 0x68a9e1fc4b525f1c6b8282fa209190c343c0205ebb51cc53bb220db03f34d046, 0x5a7f43b247a8904b804258c2f1867b91902426d4f72d38a28dd6b84f9d014a1d, 0x6027cf802d4ce8588329b7394850a710095e14c0c02653aa1009a73fd2000149, 0x32bf47acb428d589e67d47d7a1b497af72b47922a1e7498c80bd6e4fdc62069, 0x4db09e1aa16002b1db6184aff23fd60d8039c7d98b01170fc9c24bda0ea0e833, 0x338eafb09373b8a7983ef131f0af911fae155d1c9f9564d6981d6e1bd53e132f, 0x5f6ce613c89d0538e5c0df30d0e9874683a4db123bf88f31a6682eea25c966d5, 0x5d4bad511b9f0edaa8bc1922004b8769704c19f628abb0e450fe5596984c58c3, 0x106e22e79db51ef262191d1e911faddea1608440c847363f6e3ec8efd996768a, 0x4029140b9b9447dd6ffc22a17c25563bbc9e1d38ead424c89aeb2fc1008822c],
    [0x4a867dda0877876545809d29bd0c9d27fef9e96fa4913b23edb6db6d12492493, 0x18145a46cddf5889fe095e93f424588832fb4f6f060cf1b45334afd42146477, 0x1aeb832df31b7a82cef5b91b4fe32209a9bc2a055b5566185f95484018613962, 0x798621e1756568c5612c30a6cec413435ccdab0266fe7ac2ea49cff686843c3, 0x2106c6b4620cfacb256f759b6c3afeef14c80b7b21346e3d685b22b1e96cbeb6, 0x6d7e50aea7ed5eb845c35679cab7c9baff4dd5913d8d43893a83f127f83c7dd2, 0x60b0e7176a4bce9bb1ddf5072eafc91fc5ecc5c58b4df787d279c5f4f7e3ef55, 0x5498690eccdc85228a5db18962aeccba2a5bc5a1bacb4c2705bae7f4c8f8eb19, 0x6b0b16937ee05105b3d43bbf071e6b5136efce837df5b897f7d221b5a2e530a7, 0x5da893480454f50a475cfbc524d389af2827e141aecfc90d3abd46f5a2c57028, 0x6f5c9221808eaed6a31facf6cc67f1d53003db4fd3ab33d5502da314b9c37ea1, 0x4506eb998158c4a921777cbd78d79e686fbebebbc1035003a04abccae4feeb5f, 0x2276c22d53da6284166f547d15bdf292bfe73d44bc5ed1156473e6eccc082fdf, 0x12a3226a038ed1bb78f5d953df5747004268b8b6d9717f67100ebc5346d37e1, 0x45f09b607e8d0bb9e406a1ead9eb4377b841bb3c8ca19f853451a5aba04c6775, 0x2aab55e0451b498403471a8b9c73b7a478277d6fd22abaf7cc478df37e2fd3d2, 0x6f15edf1ce6ae559b63c87f3d1108c8a58571a9c388c56d087c7e5491e53a680, 0x40f26285968c35ae3d08600c58c048a08a9179e45d37fd7844378024711359ab, 0x674eac433dfc68ec499287baf94be41d726bd227201d47854e39d66add5d89f6, 0x67e5dac9aaf710d6c279ff32e95101c87d9baa5141da3b7813c7b933fd0e8ce6, 0x122ab8c77d5e24372f570ccc73152332882aeeeae7a6df675b53dbc6a48a8e25, 0x53754f12b9371c875817486df6b8ec777c3d378d74c5c9ffd1778cb7593f40ec, 0x5124edb9571d108092619de77d23eb4d64a067b0e4ba8aba109dcbcda46771ed, 0x33ca3e0595628db27672eabff4169dfb6c07303415fbeeee7b8e3f473f803817, 0x204c4534e7ff98f59133caf28e40c6e2fad9cf84fbda224aa840b7e84ff991c, 0x43efc6e5beee120bd9b92ece97e3b5d3d5c4c7f179f4358112d2f12b3b17b14, 0x1eff4a1b523ad529c9bda77dce36d164a73876a30b5041e15fed636deb3d981b],
    [0x4a867dda0877876545809d29bd0c9d27fef9e96fa4913b23edb6db6d12492493, 0x3a3a8b994be26738bead602893cd5950bc61ecb7ef8eae9910d19cc37acf151, 0x5973cd4304d0fbeec627f716667aca8d5b33b9f8b3753c6a6921155704038ce2, 0x3cb8f196cdbbe432e324b02db5691895aae4a6d3575a829879b6f401cdb32851, 0x6536e5dbced09b1fbd01533a2cbf63bcdcd9123c91307ef46dd0b89bc69a584d, 0x512be361378ed4adc04d21abe10a69a3297a7ac26f76e6abfdb09bc6f950438a, 0x6b0ff24827924772c60df54c4ffeba3492c713b3aad6c2b90775f956eb419e7a, 0x2944986f0282800ab9195adced21b67af7d0ca9a991e9a6cd40c34d1b4c22db4, 0x60cea2fce4bf7dfe0109f7437452cec30869222757e1326e3ebef96a720ab4ad, 0x54626a5a0dd0b81f31d384650b79879aad5b3e81af7e01364475f8f0420bfbf3, 0x5de5ae123f6b160fea561546737a540a235dc8a017f3d97ef135ddc5b4ad6ca7, 0x39dce0e843ea377f5d073aa07f1904be3552aa243d13a5794e185f467884df61, 0xfd550b18a3ba08222d89dce6f61bc7de91fc5c8a722ff936d844c24edbaeefc, 0xea3d3319fab999ae0308a6a6ab116cda2ac5634377acb6eacd80310c995f7bc, 0x3cf3f6ebc3b9cb00aaf699507e3d6c86171633a54ee41dc1992228d7eae33489, 0x5d745cca6699024dc2aba4f00ad5bdc7e4fa0dd02daf5656ed84e313c7005370, 0x529929e0b0383c5af668ca5fa625263a7843fe043be36657fef56b3fb491404e, 0x184e285c237c78921a993b8332ce9facc803d646f4ea37de60d6b415c462da4b, 0x62ad532b40693bea90225ced9d4157413040de5d54ec97b669b212f23481bb19, 0x2a45e085da5c13e084397c9b6bb65386e2b5104929df307de08328497af4a924, 0x11cc517afb456838b0a7d4bbed57230ee9e496e242a22aceab08538a77f8eebf, 0x3858b1e5e9bd4e62591e53c7439a542479def152102e2ddbb34b1c982c1ab510, 0x691571cf753aad4da1a7a375860f59f4dc8be91a9e89904440309e28b22d0ddd, 0x1a36e17d82316921d6a8e103279c8ca9e36f5c41ace3e8a66d038f53085966b0, 0x42cab803bdc697fdab776f4bb0c44f0a33f65a7059f0d90c4e2bc3f28c9af8a5, 0xe30681df78d342fe25e7ede03d5e1f2404db7760ad72b0db77638b9f66ad943, 0x40e29bec92bf49c86ed871234a8ce68c1ef418c7b61dfde0d9ef0f54bfc45365],
    [0x4a867dda0877876545809d29bd0c9d27fef9e96fa4913b23edb6db6d12492493, 0x37ba002e0fd906dcb98e0b7c51a4f4319b8ea48a571a8ba5a33681c5872f9c9, 0x45980cc7c48598a6ae0389888b0f0c8e843d93fcc9b0d5898bcb8d25207a0f31, 0x6f0916ec3b5681aa5c2345b668a824ee50889887bc8ffe42c64c278f85cff3ec, 0x5367b2f3e83496181cffcaabbe261bee63d4f1c126e9e2e4ecc6d9b86c9ca88f, 0x5d6a938f4ae859d79b60eab4ed0a478bb77cf8f4650931257f5a4d3185a8b430, 0x72f3c80eca6fd0bfb0b3dc283f807ca84da47f5b50f3daf52e5ad7ef053903ef, 0x5e2e6d6de8cc87a67b19e3567898f78367a3bafb972fb917f32ffeba712217e3, 0x57e6ccf7d20d6b4437ed65d20001ba6371d8a39d84786d93fdd3e2af5499eb0d, 0x2847e02c06e629e451c9060e519aabece24b5421b1e454a53cf17c9efc675503, 0x2d2e033086a89a08fd386e82df824eada9b74dfa13840b3533a6d4fce088a5aa, 0x50d8d3a9a9f683592c64832c46dc60c7161e86b270ca0d75eb0bfcb30eabdc04, 0xc56a092480af457e0bf9bd02659690d2ca0e2c22c5ee5b9265371fcc3689489, 0x837f43529605e92a4aa4fffbdc2a7557bb62d7cb5cc6ecd4c213642143b0721, 0x394549a991ed0d300cf7e735f30ff9203d84105176f11260479688f937f9a01e, 0x6f4ff76b52ff81faa2665b2baa95e7941dd86f1f4aeb4319fa032c786780810d, 0x5a737250769611dec347ae25a6359ecdd192e7a420232579888a482f3354942a, 0x263ad39698cab1ef0eb78528869507549032ff6b83fbb333939233844f98c752, 0xcd52d3cebf7b32c682eaa49968e082d45b126f329d00b9b45783fc00537b2c8, 0x71a56858a975a05a0c2fbd52154a6ad16f7fb267d89f54cb6a72a114f22ae8b4, 0x3c2e8234a7462d92aca7c39ec088e2b0c5e970f13f817561accf04e9f8ab0198, 0x42adbe031c05a8989acc2210b8841cacac0c7e09bf9734ed0e116a8c900644c9, 0x4fb2663d1c506eeeae143360f90949f3de221c70e694e9010b2d049d4a640b65, 0x2c7ae2d4d2858023c553be96f5dd0badfe2e94e3b83f6acc7ba4030a7156bc4, 0x1c14a1680b6ca41bef4ff6252058ca012a734ec42164465aa1b8a412b052ec88, 0x16612b57e445905c73eaf72a9ac1ab3fefe01364a01d4a2298cf9bb4b00121af, 0x291c6d92096897fe3368da6381b93cf39a54c945565828275257a4ca9dcc56fc],
    [0x4a867dda0877876545809d29bd0c9d27fef9e96fa4913b23edb6db6d12492493, 0x5aa01b0daab43e7cc730bdb12747acaed3e185b8a9892e48b576cbf7d7d5f337, 0x58cdfc52cec11f25f33ce1c33ab3b5f7aab7ea309adbcfa2ef9e72a74ab29c77, 0x73c198ac553cbf5b8393a51f99d9171c63d466e1edc9fe67127863d51ae239c6, 0x49fc089fe048fe9b5b64e4aaa6ccd4d0eb20e562716fa13363ee13a1485c9496, 0x49c1cac0411cbbcb8c5a82d069528dbc244d4db45b55c94b96182db8119227d3, 0x5ca63e205c7561c375ca822f798fd2ac981f2a30f539f41cbeecfb65c5645087, 0x2618ef5ff4ec3a6307271cdcdd0ec7eb3141bb11b3516e4c7f3720838622896c, 0xda2e8c99e76c35daff2c11d0c9ce225cb1ed7c05513e6cc85630ba3bdd36daf, 0x5fe06ebe5018c8a33199ab8cd97120afe2470cb72e59740f55ebefdae5141e66, 0x3102375bc0d41076280a138c4ae670f54340a5c81b87f5c1a625437c5fd7b9c9, 0x68da8c40c733eb231e980ecc36741f01a38d77af1b6e43e6b37fd010db82afb9, 0x62ecc07a2301be8957856032ab30d4d3fd6df59381707a10071cf3216aa2cac6, 0x3dc0ae355804b51c808d651e317a580c1650c3ef8566e1b7b9b2d66f7d80f451, 0x14a616c4e6421b3db7a52ae327d22f75e1b1327543a70984f8b575ef53e86558, 0x3f0a9cf9fe9f20bfd9b086a2f3c391f209dbb74ecffdb45d3f6492cc53cb9d59, 0x2cddbdd428434cdc40763dae359a47001a3d27e3ec4c5012beb5ef6ee77add47, 0x358d05116b2b123338270af52cfd0560d772542f1221872f8e2ad7f4440c6920, 0x127adc0f79c440ae9de3ee2c3c32fcebd7e17baf57517282f2123ac834ff67d8, 0x3c81a225782e85edbc41a65a0984005853656e4b69de75f83d92c7c6207eb431, 0xdb357c01208216aa8ee178c171b5a5b996752a8f87c121b705f3813a15bf4bf, 0x2ec539aef218ce729dcb7fd187f9f9e37048dd423cc623d10eb0c2e2d474a432, 0x46ca1df7e594d0b314c78a1d2d5fa47b547b024766623a16f6d323be98f35ec3, 0xd19a7644d062a90dc9878ae95aaff6f63248206c94759957487d1593d9a6cbf, 0xce22d897770bcc0cbfb0b81f532de20a6a134c8051cb37f5fc607a69547e23a, 0x39a0543acd0c145622079c5e8539012178d7de0df1c86c0e567f810a0fb4dcab, 0xd2b198ccd93fe65d1a1fbb438a4b1e39d85cbf1dbab5fe1f6b196fc672c1f19],
    [0x4a867dda0877876545809d29bd0c9d27fef9e96fa4913b23edb6db6d12492493, 0x52fa2a1ce0de871c1ef48a6376eda2e94489e3a818579e8f019f5c77f5c788a, 0x5296ee9971585ccaf2dcce265da181afb6dfad4361c7221750681e92f01113bd, 0x4ca4f4d8aa38dd6b83bf565147c1b6338e410f7f836f2f836b98c7f4ed5927e4, 0x5fd9cf1830e2120077e77d02955a54ce152d74b9522b961099c071df6373a0e8, 0x17ee5bfd61814a035d6effeeee32ae799cf5907c1df1fd38bc25c1276078a24f, 0x465bc4046eb7b0ec6677951c93e4268a76affc721673604472d9893cc981deb8, 0x211b495daf37885cbb422cdad570bc1ba944427f2b53a7179c04c584203e23fe, 0x1d536a105e0fc0f9af2f906d4c6b832c4b2ab7843cebda426b6f1a3c393000b2, 0x30092512f86b350fc2949a167bf93a0b9b3de9feaf33a162e62bc715fc4001b4, 0x46150bef26b6a79ade4fba92ef3c4d273915beabaaa6e2d276b7541a8d409501, 0x6281bc1bc95c7edddce447cb58e16d132635764f4319349a170ff55f58265c0d, 0x29b29b8f5c098d57bcc41e6182b4e3b9158219aab76cbfe22d67dbff4979a924, 0x3ac2fd49d692209f7a5a73e79c4f05b384346aaf8ed2f55b1511c28a654ae536, 0x6cf6ce06798f278e5bbb39c1b0b2ad53daff12063bb03ab56dbcfe7b213bc26d, 0x14cea6114505336ea451b47fa4df3be31aa7aa26120e31d9f62ac9715e02de73, 0x39a2f13105a51111c35baabd9784382ec527bb678f851fec57b60624901390cb, 0x4418f1fa89e7a68bf6db9fbd339d5a5c009390f9bbf2ed8e49adbc9df28fe7f3, 0x186d300072f7df50e04938e2ba06ec6a6832f81f996fb8745c617dcc7f8a9e89, 0xadf9be0bffb9aca79319680628664203cc032c127e0638c642d035a8e94ad0b, 0x54b23ad18c6e9f49bfcb89ec51e9f3dc89b504278fef18208632efc9e381d004, 0x4c1e968cce5864bbadf82c6c0e9657d31ae519af53beb210dbc297b239c51dcd, 0x3fc401bf3377e583fbd85e2de795962548b71fa7e9e5a4e9ce2abe06a4829c99, 0x3992df956d7ae9c759cb9a95775f94bd414350bb7a698907ba292fc16ec734e3, 0x16317b55365adc03a9a4c1839dd34699fcab080219b01ef678fedcccf44ea2dc, 0x5c1f04be3d1d54c5c0abaea12c63d11918c21aebc72d3f5b89a8798f860b0927, 0x654875c4e13c09c8275c83499269dc0cf685e82cb3db4ce0c5f1da048256a598],
    [0x4a867dda0877876545809d29bd0c9d27fef9e96fa4913b23edb6db6d12492493, 0x60cbf712b564bf189f66cd98957bdaf7376ee235fa60af6f6e80738da2356d13, 0x38a6dc25a650f690f263414c96a4ab02e596f8a5a92f0ce71ecf52f644618b93, 0x6d8cca0442d4a67d52eeea284f3b0a80e0a7661415df7795395249b6ec3fe31a, 0x5eb13d18ccdf446871e6cb95fe68389175f4fd41640a61021f10d009f98a68f2, 0x1250726b9fd4e85bc16635f18086c5f1a5fe58606bdc30c9683ff16129894948, 0x4fe4c07f6701439702f2bdba2d864eef37efb391feb01526ef559f820de6d10f, 0x72a18e87ecef55e34374401cdc0e3facacd52a5fb1040e005c634d335901f453, 0x650508c04ea6dd94075f19bb7a6121b3a4f9755f3ac7f29aea29c8fe3dd9934e, 0x6d42b30dc869708d0fff2a44804c1433132261406bf5d33e723947d103657be1, 0x5ca561157a1a92a321f9ac50ae804cef8ba72cb8824533fcbd63369b664c84de, 0x2c69a85037c438bd84273b7e7c6b12ea4760a7985bd319a9ad4a39034092da80, 0x5c9a96179f32119f0c04407ae7a7997d011a7bbe0ab36ebffbc7dc999f6ab132, 0x7e809755276c8ebe9c3b346353774d8be145dc43ec58dea1deca910bf3ab36, 0x580319e0e8d8de12d53533fc0d6dfe1a7cf8570eda8d1baddafa83d3ac1ade60, 0x55c3c375708e126a75f79aeb3fdc03c9378afb3c4a8f37bfe74906bc9f5367a3, 0x6491b9ce650ac7de35d2e828e189974445f668039f38f87fd153745ed891fc13, 0x3faf216ee9b6fae75cf710f40963cf1f0b829d2d3ae97769199fd9be5326571a, 0x3c8b54c109a79d72e3a62010af6be07f79e2a5190fb0cea0c8d9ec051b4f6845, 0x20c93c02381440d5f9ba30b2556ec6da0ac1ccb25257e8fb7690cc033824c22a, 0x61ce607dcd373846e9a9ba82ff8e83178ab90a2c42a9018e720956f4138349e2, 0x23909a5708e222fca1e83853513c2910b7b2808a8efd8a353d55db184329284, 0x6d2bb8c093db07f2b920220ab693f0954d863d3bddb82d7011df721c6d235511, 0x633b8463be158dc11fc668804b7f2154aae037abe61e59e3f442ea65d6a2bf74, 0x95e1e527858daf30376e30fe308dafca8c58c9b3125b4fb71a5a98c6388c09b, 0xbfd44fa42a52d9ea9ad402d1f6fb1290b546148294ba82a052377d4d2e0f191, 0x618cef092b080fc75b4acf1b694d6614b5e3e863a95616b18417bfed6bd83215],
    [0x4a867dda0877876545809d29bd0c9d27fef9e96fa4913b23edb6db6d12492493, 0x368ac09c65667ba06715341cc5002944a1ece4548b7edf88b4fc7e3c6a45ba3a, 0x74a503d6cbfa71c11f996ffe6d7dd015da442f277568ad6b6e2cee34cc30e47, 0x2782e3fa85c173a9abcc15b9dd36f08fc789f982da4f98595160fef54432523a, 0x4446e603d5db0c4a72a4ca0a70f3dbe501336eaa66730d4cf6c726b4f74ccfdf, 0x29e8aa110faf4bcde26cd2b10cbfb9cec5764eee4b870525d0ddf07a5988c8f6, 0x495f26309f96689836983be6c430c963cf66c02416e34a0841b7bbcf7d082a42, 0xce0f084c865133181654a22936b6e456f953185969cfcd0494c5108a8e552d9, 0x168794322b5fae2c8ca4a62d6d35f8bda79eed1ecdd585dac42d788563bf9a78, 0x91b6df36cb03c13e7042639860f5ce562db60619f41ef552c0a445a14db776e, 0x46c168ba47ba7fe3be4473d4b7e2eba86a5d45b3fa8904a1b10d741fab643334, 0x54833ad989e716c94788418e676eac4e4ba44a44ab1d21bb29a092e82166a42e, 0x21a658723ceb67934383fa1ee43b2f269fe23f48481f43033398acf4fb2244de, 0x294f7fc3b97e4f26169419f276eee4d2abf7598ad1e0387d5aebaf641748c730, 0x92cd307a525d38d9cdd06f7aacdb4bf2e08006fd40abbf709f300ab91760dd5, 0x2e3557ee7ec161b6a145dc652f250863605a47c13ba9f5f6201206d7146584b3, 0x6274faf12abf2e57846e85893e22a7149ad1f01ca59367ee6fe4f829f0f13c72, 0x3f28a027929e70f462d2ee86b4e1413a2fc4d79c31e9de5ed8057fc3523dc31d, 0x6f4f3ec115f222480a8082d60503c55f60f664b065812dc1ab003d0d3d284430, 0x23695befe2bd83666ab66eb8e16c635a4a82117e4ca23bdf58406bb928070ef3, 0x24b654266c9af5b60f1dc892c34da8d1da81fd09e03e7c5f009fcf8fcce1f758, 0x640570f84c916c4dea613ef5ac057e9b60725db838f3c8a21f0367b78aa9aa49, 0x304c58f6ce3ab97f5d7724da74161e689674ec4598025acc384fd9539da66d5f, 0x6346a427825e0a73e50eae1ecb424c2fc0350aa0ee108226b2ce850364d58675, 0x362806cf769edca287b55263e78eba8beea905ffb93f9129cd71aa718c9496ff, 0x434b541659adeee0a8202d5ff5afae10321dd9f2c96d9e5074c0712da094488c, 0x6e7d46721439867e014a88d6234f537907f81bc2425a91fa7cc10aa6dfcf63e8],
    [0x4a867dda0877876545809d29bd0c9d27fef9e96fa4913b23edb6db6d12492493, 0x10ea797b288a9b508516168febea930cb553715ae36507a4b4f12daa1de44b9f, 0x55173a5a34344a014aebb7355a8e7b50afedab96485a67ad0cfdd07f88cb65dc, 0x47d8a06c60f9b13b69cc26e32e00f8f0f6fd0c0b98917a9cbf1fdbf8f899ca3, 0x682cf0b29e16744f92a10b8624808e246a27ef11c89032120228ec54ec545fef, 0x68d3806d9ced47adb4ddbf761d2350dab6ab64eeb32cdca25e85a6dccafc35f, 0xaafd67356b4eff8e5122030cb026ad62efc77fba7e69a9ca13f29367cc9f910, 0x31999cf6251c40f75b968fa751648d780f90d14462087f2c22df7a3bcb70e846, 0x705c945b6738fb6cdf6f8f3df7dff5544ca2fca18c30c6d87797ba9249a8715b, 0x6aa51bbe7f29683763cb57604064521ae47eba1a030b5848b20440035a0bdba5, 0x3af07e8c8cd5ad75da9e0ea3c4c4ddc2424a9422e05c89df6795b25750e28ae9, 0x27c004463dd2cae017f9d2ef1aed2805d194fe52666f360ca50004c2307fa157, 0x22eff5c046d6c58e2df249b8d65701cd1591dfa23a7f7c05f90bbcced8cb541f, 0x70e98373406ab87f99b4be9071ab5c488dbe957f5e5ad65c8388e3cec8ce346b, 0x63f3bb54697493c4bd7b5d4ce58ea308edec25cc5133ea17b97b1795cdc78fe2, 0x8dda56e50c25057177222477f8f75c28a8595ff55b0eed5b8429793e4391d2a, 0x13278ec54fbf7e2f3918753fbcd072ce1b946f7dbc076703dd603469332aa30c, 0x36ef4ebb8dac952d6dd86e65ced361acf6a75f83746391152b2e01c7c8957eb0, 0x5c6987b71b605e7383309fcd9e63228650944677cc15d814e83ab829bf01ac88, 0x6453e8dfb557fc55e72c4fb589b490be53f0bf8ed47703c3d9567ff21ed6f533, 0x5a570ee7e48822641b5f96dded80d88196f933a37c1018c4e27da21db097b1f, 0x473fd591050f20e65c2c7f4c0aade697fa9b2f5b5c6e8f6bca015b0f7d5fc677, 0x187560f910b39d6bb01d3b1559c779a49c9401d182ca5a0d729676a8a63da7ff, 0x59f9ee9ec9341a644ea30964af1e5f69b395d071b154dd9e80546d6bce49dfab, 0x68cbd412f49adb1ef32d1721d7e4c92c47b078c10a0b0e4608a475e99cf0429c, 0x15904838077be1e2ff57193ffabec9910273b1fad72f8d3aa2dfc40e53279e98, 0x54fb878c2ff90455c0c7bd135fb0d917cdf11776911f5f8afd0b46584dbfd5dd],
    [0x4a867dda0877876545809d29bd0c9d27fef9e96fa4913b23edb6db6d12492493, 0x2e4e7a15cff3c715cadd095dc683be5682c890bca00d344dfd3a4af0945dd25a, 0x6ce1a6c04a42ef2fc290eb75fba51befca575cba7851179b163006b7e803b99c, 0x45a39bfb599544f93dfce44758fbfbcf79fe2ce33967b8b19802e72bd5ec31fe, 0x2db7c6e0f80fa2d8c73ba8e1122a4d9dbbf4648a1aedf9010dd71fe5fa2bd0f3, 0x6640421759634787d1adc3a925f9f13c569cf3f4a36d5f70e6c845e20d20e7ec, 0x1487f790d8354776ea49594f7108c2b25100ce9be6365976fd0735a726cba5f9, 0x6cf621e10c1739e331355521e188a4b1da675db7ee250f712c187112d9725b7c, 0x249d3eb9a959be474b1536a9a10d50ad2ee32cc9bcf2724d6ee8de30453d37e8, 0x29562575a30449e8c2bd24e448b551a34a4c7cf2bd3b91b63e858fb2b6114c8, 0x1f47d4dd2debc610aa4c315ce95e1fe06e3c0bc31d87743faff5d82e4aaaa33, 0xda3a5f4db1f9725e0ccb069eeeed5cb9faf78ec8201a212065060ada9564c45, 0x6b3e93d493f90783deea6e3e211b68b41d4e34c5ec1f920f576ed939d371e24f, 0x2ea80308e58d19e4a513e68a8bc1c79583733c592824aaaf7b9c752efbc6a812, 0x7393b22b8deb7f55f09253ed949d89716c8196bd541f117a3f650c0756ea2a6d, 0x1273c79ff05d482b22625d4ac091fcc5513b9482d6c3ea3f62de5f7f69da5d1d, 0x9eb72cf3a922fb19edd4431432c780944ff938c799470e1a3f4d2fdee860560, 0x3894c64df6f136299f4a2a04814698b9d09de45d762c73acac42a8634bc448ed, 0x3cfc892b0322bef5efba97650ec096afce04b29e9ef03edef6cad0ed9a59aae1, 0x5ca5396273b5121fa326a572bad9a99b917eae2fa983bbc1e2e1f9a330b9798d, 0x6987d82b7c69a50a68c8b837af607193d90f2f41c403c4a4383914d09ce24e92, 0x36debd9460bd9870c88748aa4653a2fa2ab21ccfd2a6ae8eba8e02f04beff31, 0x29b724aa0caf95a312a52d3e80e259fba8cd0e1093b6522a1d71a0f928479abf, 0x3557b91fa38d6a498235ff1841aafa2e38b03b50bb820b247cf1596a53bb1680, 0x11c7b76f382e8117ee672006b322e2beea4639cf0d00c2cbaf03891770202384, 0x287eb42ea4ad500160e2fe011a36a91f28ae94b15ec33cd514c1f957d091c4a2, 0x3eaac459a5132d077f102fc6eb422117e898904e50b2ab4e0f51d602da34b7d5],
    [0x4a867dda0877876545809d29bd0c9d27fef9e96fa4913b23edb6db6d12492493, 0x3b3ad5cfaf68c17c0155fd4b4f30172b918c0c964f54324b38667f04812002b2, 0x4384217c2593edc053cb1ea5722dc55b1730f02b51cfaca2955a744dec86702e, 0x67452fb36e8634486e167ac0a01e77b00cecd74a73868121d04210539822d0fc, 0x19418af5c8f0f3722b20d4417492503fe2f7916c936b397e7bb0f748dec84030, 0x5cd984e5006d4fe6d020bd0d5d1f27a19ac6b6952f320eea84a9777a3c7dc072, 0x375b51778f100626676f1e4320c1b3bec0362d553da9a8ef1b030b7fad2dc038, 0x3241cb5e0210206ceadcf5ace5c912a5a4eff688e2d46bb55302c5f940b22c90, 0x610dde150689b0deab17c92bbd6ebc98ce284b8b9f5e6825d6a4317a55ac0625, 0x5263707a4f64e0d4d9d232a1869247dddcb789ba006afd7b120ff681f5c4f56e, 0x3c13a655e771e62aef8c2dac3e88a0b8ea4087aaf6022403d1c37521931ad588, 0x3f9125e37dcfefd25c1045b39e92e8d17d7a6f76fdb976ed84f34f86b64a9c25, 0xf606d92f8185bb7eff14e2f38f4aaba379cf7846be64fa523b43e420c79413b, 0x1705bc5612f1325977d6ef4949fc15e2b25abc44b8f845d5846942d38fcb1696, 0x22d4faad52280759a859ca332386f06ec301c3eca126741269ed98c9f46d400, 0x198b0141f148220ead60b92b2057194c043c2026e7574702106f1122742f3643, 0x33c983d0b9d71df520f4d3b7991546a07dd47b368b16c2d38d7cfd85d45c3497, 0x6050453b470b2cbd64ba10d26ac7bc6506d38dfdbbca9131b3a32a9973c09163, 0x2deed5fe539515f44b303f811ef47031ae317c67a43786afe30e3d6da274462a, 0x10b6384c9ffb383e0b86a7c8fc416e5a7947984e9945d4daac62ef63f820bf1e, 0x1b113e5a5761bd3edb9820537d40ffdc52d2bc8df4b95696172f459859c9b93e, 0x448ba12ce35de750caf28990851845a27709494b9143929cd8c27338866e1566, 0x5573ae2ca393bb4801c09c972a4d43a52d23631407d1060afa8cc98f0683bc92, 0x4bfa67467f61fe3ad186279d7039ded413345b7918524251c4d8ace6c616c665, 0x3b49d5a5eabdad45b734c6dca0a8ff397d2fc5de2398da5ab80e37b637ad1fc1, 0x3bf771e0ba2bb6a138f919ff6b0ed4c8ed89fe6843116feab32f9e562e129346, 0x17e080d39e1dabe1696232b6b175d3d47a8581df081de23ee27174d1b1dd76d5],
    [0x4a867dda0877876545809d29bd0c9d27fef9e96fa4913b23edb6db6d12492493, 0x2a59a1f15cb0bfe71dd30479227d79d9063fc83c3f357d17ac18d75645cedb99, 0x4e36c40fcdf28ca9c55ebe1ad479233b2e7cb9f7ea05ae8e1ce29252b640d66, 0x7195ef178ca4decb29315ec97bbf7ab8e6165d789bec92b1bc8963abd9ed6119, 0x645a70143f2e97b62917898565bfbe5e79e99d1db2dbc7c96c80baca50766b34, 0x3a98e12728d233fccbf66de6bd8b73c962e8f1f305fe922d2eb61dc22d67bfc1, 0x612cc9c8f766bf3c249ae9e63227aa12d7519ef41c82c05978047c2ed427ef8, 0x58f8d4cd5065a1a35ecf2848078e687625926e6729d5c8835ac516d66ee3a86a, 0x3218c15e549f4f873764dd51b301ffb2adf87bf94a8556a9c2191e2c6018706b, 0x3b94629cf2b78408d4378ec566c94f5cec79869cd7e9f1ab67aaa454cf9dee19, 0x1bd1a47b7ab40125bb9c27536ef1a9d0731ae6932b51d3d18fab6fab546ff67f, 0x2e07d80bd7f60656932f3e047648ccc333ecab70987abba67a3e302428e19490, 0x722453cfea334cb17b6292e7d2aaa7c7022745c78e138c8dd98c8fdc3632564c, 0x52e127f99f27d4dd287c2be2cd99b96bafb1b754e21cbc1013b7d31cd940289f, 0x72ea0998e360bd04d8ed68c49e2800da2fb85b23c445716ff5854f91572eaac4, 0x43fce16b924fe403508e188514d939537cf9b9ee96ff99c077c8c183714db6ce, 0x5fe3d94aaeb3ca680a5b353f55a776979b4f57d2bbf6aeba7bc8d248c238e75f, 0x1a4eb1b1d50acf27c4d2f512e8999f77940fd1246c1e4dd572ba0762762cda05, 0x69aed2ad3f66c4b3dc38af1e94b9fad61c685d2886d0ffeb20a2a5f723380963, 0x4f6edf079eafb1963ca07a89fb293b423fbfcd4c87c661a1b159a66fd2b33c97, 0x6a0de709a6b17c61064854ca7bba14bd3cde7c16d99c5b527b2171e4d27cb3d8, 0x51ba1c75361647f74cc4f81c7ecca8ebfcecf43ad1f526f954802efcabb9d023, 0x5f3357c7cdc1c328157c89caddb41fae996805cd99e3cd04b09f93e82ea0aa5c, 0x67e3b6b74e26bb0a230b33eb1a5b4952a0356706c78dabbdee7d39cfe093dd1b, 0x48791868ab2a8f0052280353aed92e1a7a2264750fb207b4f1d5abfcf600ba0d, 0xc4e12089fd024395e984700ef76f54b28671054a2d2c78973f93e616e659723, 0x2712686d815aee5069d922c6268fb76866f0a1640dec1248878f48ea6ebdc6a8],
    [0x4a867dda0877876545809d29bd0c9d27fef9e96fa4913b23edb6db6d12492493, 0x3fabe997eb0a388ff1f03dc919b95ba5325043b380df03e86ae62f4b3db8e37c, 0x7dd68ead897f36416be47ed3c9db45fe21ad0046761a0bd05b0723020deca00, 0x5af0d19fdee8ced2f2e7016185ee600ce5d55b5a3dfcc074aa7f780b74f012ec, 0x5893a45ba66d12eee49628670653e05a2dad8f58b225231a53e6995384e56056, 0x646d0a8d38ea71d4c4a19c8774fff57d86ef73efeb8560ec89bc034917c77bb5, 0xcf9dee5f5a0aa4591e9f3e33d859fc10a64695b473aea022d76a143c784bb59, 0x7abfcc9e11f41115d8d180fcbaa21d6d5ac0afba457a04ea7a2964d6ea3b78b, 0x7106051aeb4a13103c3bc91140e9b270d7b8d440a5e813b828fc4ed1648e99d9, 0x1d4da8d2f8f13c407311ff00a50d536b31d53720e2d0062594a11416cd7c44da, 0x688b2eed6523e3979e0d080edd258e9e693c76ba0b4e5ee100416a785669233d, 0x35bf6c6170960faa74ebfd50468432bc1cd72fc6d9e420001c0b854cafd6c946, 0x34aa0ff364a7978eb62ac3e65a457eddc194d4516f715bdf2185fb24af0a0b7a, 0x540552c9cf2dc546091ad0eb11da4bdf9ccb6d60cdda18e23bef83fb65d89872, 0x11933e1e3f613d2601d32bb96fe589668eb4f2a9f3ec27fba829fbbb7ee3e8a, 0x4052b8932c1885f4c4b270309708074e11794a5be1527a6cbdbba25b19fd91b5, 0x2f9f328fa08139a36a781b93ce3cef088ac664189970d825cf78839555af0979, 0x10b64fde8cd811f60b85ae18db11cbf540537ab6a2e2f0ab260f0f8f04795ab, 0x3815be5e8a57f2c9cafdc28fab418fca54b07b9ad4ab2571f43733f24a305243, 0x735a3b75ad338aa97bbea57c8ee690f93715be00175fa5c90b5b3d961dcbdb12, 0x1bde12bc6efd19d34ddc15e83993533ad72b35355652b24234e85c4ad6accab3, 0x6cfd2b6bab9440152eb4f80508f8340b2ce908ca9bf09a1a9cc95224f4b9d5e2, 0x73b91b7152fd867c06518ce3061189a52e47f3cc08df0eb8032b4b07e519b456, 0x67869391fcac2918abbf698d83ab9fdaf2096e505d9699918cf75666f0634f4f, 0x3537bfbe3574ff5484e0a10d7136a987819b59fbe29c7abd46d039471004b40d, 0x4e6d554ab69eea4b14da2acbdacb6a15550597694463b05d7b01213eadb68e85, 0x22d962d4ad71cd68ad4d4959904a9fd37591e4bff5882b3523d66ab096c030d1],
    [0x4a867dda0877876545809d29bd0c9d27fef9e96fa4913b23edb6db6d12492493, 0x28fddc914edbcda5365d5d65807cf62bdd3aac62dbbae1a38b1f30830ae146fa, 0xf77c8302d4f0f07d281eea2848f712d9e4b9c4e58e9e429f496259991a0b206, 0x7152e60a9c8e6849a84276bf44d7d18ef0ed508b7a01c1f476fa522341c168e9, 0x4e9c171d1df256a52daaa708e608625ed8a7e8c3bc8256f5d7b03d590c63504d, 0x51a6fdf9f7a7b5ea0c48262a671ad5015dcf41bea1c134806fd92208dc58861f, 0x59b4118ec97a6f618bb5807419e89f37aea15f4da0a826811819f93dcf9d99f2, 0x16bdf084aac8ff43d0cdccbd64248bd83f7598da3a369cfb152eaec934b8a137, 0xa7b8c03dd1e8d59b94dd29430a709fa93c171055ebb93734a36f9277b9a22ee, 0x2c7fbfccd31057f834bfc0b00ada95fb60314007c011b49c7360af4846040f42, 0x4c2126e8609223b4136ea0c4bd9f56f466092d52f8a1d585ef40a5bbe22f1ae1, 0x418bb0e446074c924516ab595c4ee42ebf7731cf2f589d6378934db368dc1af2, 0x5300cc739665f5ef20452562d9eed082d71d0c962c7737444f372146a3c3ddc5, 0x50c7dbc0d5bb14fe9303768444c5e114f272e65069fc2622c2f6c2fd2cbc2b25, 0x6faa5b9204d42d08c8d4f3aab36a316572629c601babd6baa7d8eee765335581, 0x6fcd36071d6ca51f375d30b57510600fb320e301662caa4388e9b14ebe0246e5, 0x1ac699bcdca56db3aa012a52270dafa8b53ad39a3bae7b2dcdc107e2a8f188b3, 0x27bf9558889b1284389e723ac1a08dfca3711fb9a5e6eb9f5bf4c932e729588b, 0x673557667a1506d59ee145f0d61fbf4bdf5486ebc037bf9de7c1677683c434c9, 0x481fb72f467ce9718fca9d8dc8ac998d4bb60f23148d1152f0f427a1e929e057, 0x621468296cb26197c695104b4f943b5fbd409104d8dd0232d1415e82140dc755, 0x6fd2d267ede506e9f8c98cb3faae34125919a7575ea579ef06adfd4e5df0d335, 0x139b544dc3d553562c14f9582f70bc69d22d9203c7e884321ea28f6ccecfcc2e, 0x40843307e7c0cb45213a4776e5304fb5b2e4c83aff3f0de15091a2a46d3760be, 0x5e9247b252a34e1bb93cd616815fccdc9844d5556875bef51f60580f0c5d0e1, 0x3f84021a6115cb10fe2b9e4fccf7fc7fd2e474187f671739e80be5daaa32773e, 0x7173d0a6ceae50ba61bbaa786594d01c85d76a6fcfcaf162bd80dcf73a9a7f1],
    [0x4a867dda0877876545809d29bd0c9d27fef9e96fa4913b23edb6db6d12492493, 0xda44ee2faeffc83101d272376367dfcea1dd328bcc30e07994123e9862d6445, 0x7320f1e8c92d38b327c863f2c5100ba43d89808f12fadbd3d31d7bb6b96f6ae7, 0x2b3de27f00720a766f37d68546a797e009516463e45add9a4bd8f40fe6ad628b, 0xe7419392b3c9c492078938823f5b872c0dcc6c1ad738dab938612e8184a299b, 0x22ac211aa306af5ff604ee0400043d559374ec029a22b93a059b878b295ef8c2, 0x4f07dd852018c0cdd5ce93cea88221394df4b7069bf9a6286aee6e58aff756bb, 0x432e2bfbc9aa7437de7f684ca090ccb247577bb3bf874a7e65a8b7cb1d5f612, 0x3c51042868220a40e875343e9780e0d8564c2aaab996cb1578779fbc3045a625, 0x4ff8431a4efbde98dc9f9188aada15259a344a8fbef4b1f73e2e4162eec7c5a4, 0x46a8e2a899743a8a0875866415f69d01251c7b64ef981dcf75b5ce2a9917a81d, 0x252aeccfeac781e5674592bb83da96b1c8bdcc3005e52e0b8b72815a4362adbf, 0x57362678bddd037b6382e4b1be20bda99755419e5e65a3a69ac508e1c3e8a87c, 0x2e2d06f86033559671d9a6dbd9f6805b4e3033fbc9289c79b83963fbc0da2632, 0x20121ce2ca192173e934aa3ce3a9b2e5fe74dc12c39e5909dd71a83845d7d4b4, 0x3ce7e497fd40b55464779ed9012e89b3941e0842013020882086821c4d1aac8d, 0x66a9b33dc6dac469ebb364cb5db2afa253bda16472f88814498000abffab93e0, 0x5bae56614b0136fe764494e6cc42f5ca01803adfb97b3f674813e51e66eebf97, 0x713bd7fa7c901fcd7c1a98700d2ae1acd1ca0180bea4ea98e1f565bced11ea6b, 0x151e4c65651e635773da671a52bb54054249ec48bea8f90be73f2198edba5485, 0xb38b87318c9c189208f637386422a78b415fe8faea67de2d2feb24bd40aebb0, 0x70e02fecb13e77969bd2353879a85b170b014d0dadf6c96cee26e05191e19e15, 0x5af03b7379d675260c7f9d1ad3ae917e016edba0904318e21bab75727914ff0b, 0x474854567f65bd9eda6add2aa9f060c0463f1ece2bcef119a086dad8f60af6e, 0x64e2fc2671d839bb38a42dcf048543658556b961f24e2ec4346256a52a13731e, 0x52a189ee606d44e1278a70e4391a79365d0ce3eaf6cef0dc6ca30515dc45ee72, 0x67205b6237a2f4baa217c2ecba1c9df718497311698910ecf83ae3b50c9768ab],
    [0x4a867dda0877876545809d29bd0c9d27fef9e96fa4913b23edb6db6d12492493, 0xa7c24d223d6b1953fca3f9a5f6cf3c1cd9e3b966661f248b1be71943e04e5cd, 0x21c1592ac02c29741c2dcb0e7915874220f5e9e41f42ceed6b60010c68d225e8, 0x321854cfedbbb73cdabba4376fcabb1e559479f832b5eda58ec70f0cfa1ccd0c, 0x3cde637218d82b8a30d15917ecf5994f863430d8dedaaf00f1c179e14d62df08, 0x42516a0a95af025ee89fe3fc6cffc50e82a462ca314a20b08a556c3292993c2e, 0x38a2841aa1f9cd09d266ec37941e6381b9f1a7378a287c22267a6d85170cd7b4, 0xcfcbafdb19470a1cb727910dee0b66a05a3bd4934ed09f83f1a223c8f673d89, 0xd96358dfe5dbe5c3bfd87d603f646b671d950a492a6b372f2f685af9ab8327c, 0x1f7a1a21b6de2c82bf094e6a3f7ce67581959f37e93c31c983145fbb942cd3fb, 0x6fa616f5cc646e39ee33788433a2d12bbbc34e04bd4ae9606c5884579f54bb4f, 0xd10ab9666b082c83c1451e898773899f9e174c6b99ca95f7ee34ae272b7f50, 0xad2e142194289fd07a90fc4ec9b144a185fa375460994a1559fc7b6e1673a75, 0x5acc050e83706774284d147adf63d255c25268a4742278d73cd625ec136020c6, 0x6b45f0314273a283a093bfb17a4b1f9d5c224b0b401b86221c91e20a01a5004, 0x50749fafd2cd15408fee2370a1333543df8226700f82b7beade1255cad14087a, 0xf2bef1ba4e2d4de681b858da3d8753a01106684fc2efc875d8845402a66a0e2, 0x1ae56851da9d29316aa09aca8a960770e39875e3abfd6ba20e9e7a12caa541e5, 0x6d307bb9d6eb19fccac414231c90082a355ecb344bc453c92bf8189e0e563009, 0x6b19504a9204aeb0a3c3d1b36e3a6525e1d8c2a32434f8e2054856a83af215fa, 0x48da1f3d59e922ec05060f05cd4cea84b3a1c61f478f96cf3ece881a97684650, 0x149eb0573d27341bf3e803eb0a4c324869d297f12912e98e3dc67b028e0e28b2, 0x43a9a0dfb2722c816c5be5dad0e318c8fb391dabb6e60b43c55eeac404083c21, 0x156c199548f6e779302a406c4110eec38fd44a972530f75fc652c7ea3cd523, 0x19e112842547826f2ed22e85245b6fb93cbc2378c5a4db26451677d36e370c2c, 0x25d187ca4cc87a1d3d1833f7aa8d6c6ce30df1e0a8401b3f160602ca916050e5, 0x54a30d734614a722952e9cbe34d8c9869bb96ba137b4fe5d6b237efc008f33bb],
    [0x4a867dda0877876545809d29bd0c9d27fef9e96fa4913b23edb6db6d12492493, 0xb0fefb3e86e50a7ff50b23e0ce620ab7586b982e542d767cd42423f17d35c5a, 0x64c00a688b1e75b6a1fa2df39380ccc87f3be39c518038a3c6a36b98117bf5a1, 0x4942b1e0f2cfe7f403ebf83746ed96fc7e41355859852b41786e78bd8b599931, 0x263c3e44510e6b31b011d148b922e58535cd8574c41c6a16657ecdeeff70d9a3, 0xd9c075eee4a8f8568b2781003905f46baca8f4e00a82d6b7d9fc36f230692aa, 0x232b82d18bff22ad2f513f22efa81e482cb16900e6588f8c04eb53891c252257, 0x26460815dc559583b1802ae8b8ec284cdc44f4b8ad08246b3356b78dd7261de9, 0x19efded9a8d67f54bad2b7e7d9e761e3e01042d481978de6a5c6754ede2cf01a, 0x1413e1d1ff2606b5d8728d16bb454afa2d9bbbe357012183c0f8eb35724611c6, 0x643be877f70dd658a53086bcba3c36963be0ff4ddd4d7c2572092a5d6c8372b3, 0x3684df5b80a2900708904a635192007806091755d17e880bf7c41b985ce3ea86, 0x190e19a880a3345f8357434c5ee3df9c7cf66d81491c9ba10dddd31df05ab69b, 0x5e8d42250e9ca24e3171b72d76c2f3f5306be58f3f2e5888566d272fe3e834f2, 0x62928bf69bc5458f182acab6fba8fb07ec11c8c51ad60f19775ed79f55f6a21, 0x8c98a1696825b25dd63782454c121a51454f4e432f13ae572b2e34c52c5ffa2, 0x1d4879aff92b75be086f482eec273a73dbde05a08487979e62b806a2c78d832c, 0x1a4cf3b8f1df23baec2a7c142b0e22e513a3fc01698a97604f4cd34ab40aa0a6, 0x25ed14834b6ebb9a84fa72381cb2a3b168b48efa37e1ffb7438f274389d2edf0, 0x4a04c2fa0814092c87e9a06d11448c34d009aff2e673b0ee1cddd7e1eeb535c7, 0xe5a34488b76f3441ab68476757995ab9317a6c8ff840d9d83fef56d6b60a6c1, 0x6a4260fc5b3cb53637992625e10007b25b2e3d7e4ac354df1316f650f7cce8f5, 0x5452c9ccea6625c1d67d2ec9db57c8fea8e8c9008dcedd42053cc90c748669ec, 0x2c89827286b02ab362a86f6f7f0e43289796883fb797c00e06a665ddadc1da1f, 0x3d1fb86be4cadab83e6b1ad5384915cf088d743e822c77f3d25a22cb06b5366a, 0x5f7c1163894626efc0f72126a58e9fdd48b6e3411d50bdeabefb96d9b59d0bbe, 0x39a91951138c2b3ca30aadf008a792471c39f240c51cc9d899afb4f4cfaffa3e],
    [0x4a867dda0877876545809d29bd0c9d27fef9e96fa4913b23edb6db6d12492493, 0x4e8afb07403e4054256c5ed92dfbcef1e1e4953907bc90a306e4613b935288a1, 0x1cfd9eaf9c6b43b548bbe5d1a35262098d80065ec626b1559c83ad9b7115e4f4, 0x1ebf719df5c7b86a3fe8365ef64fb29db4b27d66afa255f4cf9289ba3a625ff8, 0x1d68befcca3e6babc81e5c614b0047c1a918b7d389f19be58b796acddd622906, 0x43cba8fe66f4b84fc6cf4b1ec62447f42b6becb782ac578f0ec165cc7449908a, 0x506fe636f48229164f7c0f72e4a9bd1b85635445a17f8af52e952b83cdf98bca, 0x414fd362be7234d325f8111d628ba4bfa84f99ceee72ffe33fd613de382c0115, 0x5896266eb1c142d359fd20e7977fd0c5c39d5666d86322f6dce6463844227e61, 0x457f40c3782f02a8942b9d474af10d2a77516049aa26e4566296ae865c0c2542, 0x165fc0ededb7211d71f2618b6ad84337a8d8ee933ad9c6cdb59b7dcbe9fd2f41, 0x22b98d9fc6293717af2bc9c278e69a3cb2a92be89f9934c65358643f3ae43700, 0x30bac4f58404273b2b735609c460c7988f731bc1906496001bbffa3c283f169f, 0xda759bef44603282761a4ab7d03d14b15c12a0c51d9e09c8d4001ac6d57cce7, 0x274e75b5f6209eadbff02a89b1b5ca2031078a8bbc9aebbc069520d8a6929ae8, 0x42deebbe771566e299bc2e3278586ca234729dd5dbf399a99900593c21f93140, 0x149df9bff9d1f40277a7a3bd2015c8804efebfa8937057d85cfd8895edbac432, 0x2908a06617349daa990278dea3b4ea8838d65fc42468672181a0ad8e0c7b4a8b, 0x2a2e2cb79b47e4fb9b2ce5b32a5b414aaa0762a75cf516ba643d275bc7cfb552, 0x4960817381ac526cd56dfa10bb82db629847ee16dae79f9c1a0079066de41112, 0x774277f99bc9b1f9b580a659bd81f483b258b7df12569fcdcc2f7429a537e21, 0x1141c7d9035a9130bdb089c2a2630a27fc9f0702fe9e6f83fafe6fd8c7611644, 0xf9c84d581b619505722d1f891b8451873c15e306188fd57ad585a1b3868c6ea, 0x62f48d93f49a71ee31e1bbd3048c9bb673906e575ca20638e09feecaa1abe0d8, 0x358ddb457ebb003427bbbb78fa3d6b51f8323412a65df21531943a3925a33477, 0x23622c682adb47573f75664bb628e6740ea0f853cdf0b9e37034c53b25c8ccec, 0x272cffa315d70a779511b521832c01eddd1640a0c9a7f4288ec766c4d5fe51e8],
    [0x4a867dda0877876545809d29bd0c9d27fef9e96fa4913b23edb6db6d12492493, 0x1d011a874325c73b3820f0e807a75f40dbf792960e9d72202aa3a0c06ab14f34, 0x12675d489349712cc0cff4ece05d081d17b1cbc7009c5b00d62f66421d51b20, 0x2f35a3b08db645fd2b79ac08c43a5d4a02d16a515ca7ed18484032a8c7c58703, 0x456b40f57fd72f0eaf5dff535c94051f95958be30a4fd1f8a29c302e7fad1ae3, 0x6eee458f99a17dd0c06fcf362383e8f87c59ad20797405dd1063ad5520a07557, 0x56bc493e57adce5dce3db2fd834e84b1e58fb300abefd242d2b8a16fb0a8709f, 0x5b6b3f18599e9d1a44ffeefaa4aa3d372be0dc9522838e3c1a785417986c69f0, 0x52ee1a5b32fdc08d4a2e7b423a974539ab86fcfce79d89dfead411d2a91d207, 0x306c37e15bc798694e90e288c271ca44d23642c317f57d099b7cdd774f77e46c, 0x17b189d013056ff469a1bde6aed4b2f7d2f4bc9819a2b6b9949f1c5c4d414abd, 0x43576ff3d3c462b249f88b4760bffecdab93509cfe2d825385d1e4605e5c28c1, 0x2f61f0ef768fc3b20776f5bee1bfe5965643a53e01e25f7d4f1864b0e56cfe29, 0x441a1a0fe8588a7df9d372427ff01533f7776569bfd81c60776c1a75c68aa5c, 0x4edf77dbc2d7578a36a7da512e32846f7848aff6f0c96e4229aa2f9b005398cc, 0x5cd01d8b7f9d70dc66fde56a4550b3782e83ed2c4db89a270f6456430f27632f, 0x4a4e91b3b3b85a44361130fae3e01e52101f3ee782d1f7328bb76875ff124e91, 0x3be9b2249519000235585601fac79c57cd83d24749a60f7b1821d14604924cf8, 0x120a01cda0a7f0931dc702d98017e58f059de605be6625da284b983aedcaa4d9, 0x6ffdc525613e1717869677246f61e5dba6310b3c40936db572abcc504d85199, 0x588250cfdab27d75d967cf4205ffd14386729cc329bb25849b4f708cc8471353, 0x3549a2fafa815496e3f36b213a7309b9cb4e981ac66d85016fc7b352571f053d, 0x6686f3709606615fedef5ab4c8dc3ad95b947ec622023e0d99f862365bb6b256, 0x2b5b0ac4a2dbcdc6cb5cfba99141dc922f6ca62480e2565a96b83573124cf361, 0x5ebc6ec35d9e8cf727a30e8c8d7d6edd8b9fe91cc950f754cee281eef62523d3, 0x5f6c0172fa758dbbeefbe5af51256a708433c88f784744d3f0336d9640e28cc3, 0x2f7a30dabfea0b1356ac99db171a2d3ddc767cd20a64caaea14ab96e026790f5],
    [0x4a867dda0877876545809d29bd0c9d27fef9e96fa4913b23edb6db6d12492493, 0x233be0f2b767bed06e7c53719f7bd1f81dcb8642ff0a32bc4811b41f3037c1a9, 0x5e6643ee48cb7e4f2af1ffa786a3c022007de319251801e8a04feb116f52238c, 0x522ffe078beb98b24b5c565a31ba5a3f9b86cdd6d163654647834c8cc8e96c95, 0x4bc83cf2323c3adc159ccc7daaa69fdf86565c5af9362848ddb3c39b14a807bc, 0x12c97d55a404a3547a4147bdca477ca3849f2ea47480ff11b5f3edc3600dfea8, 0x8914476021016f35b244852d970aef0b384f5b95c61ff376974c75ff344f98e, 0x28e502684df38d60b305833b3b580efcc27759def5a7ab68b07ff690517d46c8, 0x575d89e3c879c66b65c61cd60a064a736ca7dade30303d360b664897de4701ad, 0x283be7f0f3f10c4ae8c6e4ae9cc3f273bdf2e36a883346989d3ead8d0a22c24e, 0x193e7a80afa6521699ecb27796424b89af258572a2afad6cb68ae6e480f84202, 0x33abff5fa455d233016b8ef6aafb4966a8ef72142c56343579fff33aa6bf8582, 0x5b64cfe369cf3dd136bb37502315025c853fbf074d71ccbb2687e792e05e919d, 0x573c22b8fc69fd308ebe8cc7bfa7e6f5ff0f1665e1e160b1d2a0902ef2cca88a, 0x23f2dbe093a164ccf0ffffdfe62e03e6c2dfca0be0de45a6a3b61b37026a2939, 0xf2b3db1320905c154bf4e8275320ef98f1c8c512c9b0a27d368274933eb8770, 0xad104f3519255551f9fccbc453eb8a6b43d5d7faf2e63484d08bdd9d6da8d20, 0x171500a6d638d7d56c7dd57977cf27ef658fe0853b453f825f70f2fa109e14f4, 0xcdf358e999aa820a5699f83dfd0b7c5ef82cdfa79eda9024d07873fa2b94ba0, 0xbdce4c678fc81da876f8133e5217b0a9773fd0c364608cb6b43610740418632, 0x2dadaf8a51ba2d3fb21139f17122561400866d52e4bf37addad6f288ef095164, 0x451a89b54b250ff572b0c7ee23319bf31196741d16e824799c804112a1a541a7, 0x4aaee7e23487df20a0ae0dd5985bc65d9e726024539874b05c66c4048011a012, 0x47383e4585bd78cd26c4738737908f42a05a9c74e81d9a24724e3596d35bce63, 0xd9a147943c74743113001ac9826b6e69b9149ae02f82ceed878bd0c209d0204, 0x64b64a62c58eba78cd8329c753d5189a8e3fca089eee6e87eb3ee02a3cc83d39, 0x448ce54b9dc99c7672b96de48c0fa622f156ef889897668d87a4e2d98518806d],
    [0x4a867dda0877876545809d29bd0c9d27fef9e96fa4913b23edb6db6d12492493, 0x76f6ac9e247045a101a6c5fe5e6810452a0462a46399169dcf73233c55540b4, 0x40c8c64b086f57a16c7287c1b403252c4161a41516cc87594daaa94da73f510, 0x2b3bb5e32320c803dedcfcfc23056524b1b29e4e6c47260ddbbe8b339c259f14, 0x3bf896019b7ab2175a1c0981b24a23a38b531e2b5310e0b29e77f2da87b22ca7, 0x1622918146c4abc9700f30b29911ad38dce2664f44fcd49aeb04350698ce55d1, 0x2e5428e427ec6cf3f1531a58e4ee931966b6395478b8062c3ca08dfee5a594b9, 0x2b5709bf23ff54c19d69d2c1beda2871b42848c2c1b74a618e54f6fc62aaffb, 0x564aa3bb958752507f260f07f4e5cc3583aa2562b0da1329cc0474a32eb4082, 0x3483f1d9b56c97e10f404cbba316764824dd0501a04cd29c193613a39390ebb9, 0x6f93922222e0aded3cc8236bc9229e29edc921eb57ea5cf29513600da845ac12, 0x59655396382b231058211928f944f13b47928e85f9550cf2d19f3628b924cde, 0x469e322efead5064fd0fb19280bf0098e78c3ee30998543f4a9c2dda0cb14173, 0x45249ef416bac9cef9ef3920bb31b5227f55cf4b6e13059b98e46fa2a055b5cf, 0x434b52e5821f8468c06bf5eb88a6c6903337f9740abbed53c2b1ef4dcb0f1dc0, 0x3e574cd15d0c2ee5274619198869ce70b8c2c804a738e37d5539b1d957b6c614, 0x12eca9d1969bc92367b4f4738251afa94eae51a19fbeba6fd4291c1a8237efaf, 0x6d3abb0929257ffa88b367d32472c025b422091846d6e10ec68e27f39cf865e, 0x58703f2750bb9921c1b860c3e7e7b580852350ce42cf28515cbf838562384384, 0x8f961f04db98435b5779e9bd44a9cd896b30c4e4f1946339310520cacf58673, 0x683fbd505e28cfc8bfabdbf639b3e59dfa4c27abbfb510729315b7ce5819fdf, 0x1232d46ac17be7daedee200f0c364c49400d66f6217f57bda79fad647dde3732, 0x4db99e1ca288966e66c5fd756cc356628a7dd6237aea55533412d4ef64a854d9, 0x225731a35d6becac68cb14ba16f4923c9a02a4e0eea099303b662e04e37d4425, 0x73b185acfc8a3b3a032989dfefc7671f7c56dedcc104ee6fc5b36500f456d6a, 0x28a17d660a7cf9681f5fd5c772e376d1ad29fc08374efba0f195838f9ecc0f4f, 0x399717f13b358002d0caeeb4b03a087605da1cdc7e3e29b76906d8cd454dd9f7],
    [0x4a867dda0877876545809d29bd0c9d27fef9e96fa4913b23edb6db6d12492493, 0xf670024fd4a6b44e3842e715a089f05629a96d263b5fc2d695cdf032313c551, 0x4b4fb0d21a6c6a7301abc01d02642e7dc04e04ff26f0fdd2e07c1cf0484d7a33, 0x41fe29c29cda84706be8b5f9ea76a1e58ac1d159741dcdf0ceaca0b3e1546015, 0x51f4b29b8738d2e122923300ee44ef8a7c16cd44b7918071a1bc12bd06e81525, 0x10abcd3a9888430e5347691586ca0826994a1f17813c9944c91105aab7c0c26, 0x383312384dd408ece83d8ce6dc30c70659271b9283f5a476b3250a29ee48ea7c, 0x3e4057e68179cc101046bac2ee275aa8421f24b96e1cc054495acbf99b74e561, 0x54c1c26298fb471c271fb24c2fd4be59fbd75313c3b2e18da6cddfd4179f0d82, 0x4697a5df68c26788b4ea57bc64e84deb677d10672bd96c9f872360d5823a30e6, 0x7023b666de96b70bcd9c0e020c6afc174caf3fc9fbcd5333ebfe32eea43ce20c, 0x182a72f4d42b6eb9edcdc7cbb57017c4b58d2b25331dda7ff2b54d7aff4559d6, 0x3a495c6ac5a8f595a1a169ac1cd087711f283ed17bf92c358ed6faaa245a2644, 0x1ccdb1c5c452acb87f3b04c62767911802650141ca2af12f6da312e24046591f, 0x66b15ec51de1c941ef20311c7756a768207b80a30fe4fe521cc5af27ed59ddd5, 0x189d490d1e7d2c275edfd30f67b6ff7f1eac5cc79f1affe94f18a0f5febfa453, 0x6e7d993732aa1a7f53b874ec6de6cf5527a672fc1afd90e3feb5f5db98af9bdf, 0x2420334fff99f2470f335741da95d0177c95a3043c5f61c5562b80765138fead, 0x4c81b16ee785814b2e2363dcad3efeff8a895d2e2f1e384d8267aa83dbfb6484, 0x1e897bccef8782bcf612f2fb0f270403bf87266df15e0e959320b548a6491a9e, 0x202db2e4f7aa086c8393b59e1ab1caede48b66a4776ace10671362e43cc1933c, 0x4b74771572e62dc010bc74a06a2922756c29c8726a71044c55550a346a44a52d, 0x2f5528c3db3bc29ae08227e4b0546e6521905fa980015a3de5a04e7eb4bad283, 0x20ec9da76f2cbe049c6d061831c282c27b7beec7a11d68ba696a2906223fdcea, 0x13d45deeb326226fe46f9825a89105b64a957dd7ebd748d08ffaf3840b3de7c5, 0x7287bdcbaa502f83fb6e918bf920c571fc77c29d8487ddce53a5606310bf0275, 0x232faacc32d7479efb4caa501ae989f5a464c4e666874832fa640ed96da29732],
    [0x4a867dda0877876545809d29bd0c9d27fef9e96fa4913b23edb6db6d12492493, 0x251262a6669f0766a76e2a97b6b0615b797ca43b12b777acea3c3de189e5439, 0x6de93a1f9a866cca01d0e2e7a49c3aa1765123b8bde8d0bfd86a8bab7e45026a, 0x1e9a88e24cf6e96cbbedfe96e368536ad5556df44e713138e08b924b2ecbe18d, 0x45158ffae8739d554f6cc6d2d8f6ce9592988a691cd45dc07ba4fff7dec1cd99, 0x354c85c2e6590f818710f040c31083a20dbd8c836aaab3330f94b00760d49447, 0x30e0f67341abc0ec43e1b521e702d8215e21643b9ec3e4163d0f64e8c9c32cd8, 0x33f72454d28334f231af55f6f08ce26af6c0a3a9c2af9de3753f64ce2b2249e6, 0x5b90a69643a90a1b35cc4a9ce13bd8759586a2c938c7a83ce8dbbafb89de4767, 0x3ae742fa90b971f051c06b6c68e5b33167b16d14811159af9c988f83a815a04c, 0x58acf46319c5032f691dfd1dc3568326730505bd04045d9ed4b94c41961389ca, 0x4b813f9254dc063cec4cb994e4518f13533c03057354ff5a3c1f1a8ad1765a78, 0x49fe8bb386739a00619a89807a6d296286aedcffb359eb16acb0cf563b8e354f, 0x5902d4baa6c886eb312155cdd25a7ec67a6cb813acead95faba953ee9c6cdc3a, 0x48c5abf7511db838933f94f261ffcef1a39bdab725b609e4fdd21b29e8b886cb, 0x33472361f44d0e96b00e12f82d1aab8de4dd7a6fa35a5f9c4d99603120963d31, 0x20f5ebee177ac0f3dee00765b01b80a7ee9d020042e4480a4258a18c04464a31, 0x2c94dda51a32514a2186c335bf494b489e5906efabf0d67b8be2b696d7d15eab, 0x61dbf9ebd9f0eaff3473834ca7fccb020ab9515d913b9143d700dc8c75bfbcb2, 0x47d82aad5d172d8a1eb4b5498a7e2bb2f3021a8deda1c259ba9383f7fc173142, 0x405e435ed0c8beed5e41d121374d52afb651559b2c1742ba7585b33118822af2, 0x3b3529ec80ce93f4139c519b882ce1831964acb41fa483a97dff04195f817470, 0x7016585d822ad61fe284782fa73d66121275d3b7fca77e8431cd41c7a4e046dc, 0x67a7508a628997b01f4a74b84f28d9ca0b2e7b946a51f902310f6cf726321fd7, 0x30d18cde188c0d8a2afd080056ee0960334fd3594775d654f91000375b7dd001, 0x4558f267464692437fb14b683f6d23e2f667017261af44471ca294c1169ef6c4, 0x490e3396d6bb37ac4cfb06aeb4700692e1d742d55c51e41056400f4a33313221],
    [0x4a867dda0877876545809d29bd0c9d27fef9e96fa4913b23edb6db6d12492493, 0x68595be74edeb2a8ffacb9631c415949689aa4361262412a7fcd7918526f0ccf, 0x3eae21fee865e6913b86f87502f574b02e90273e578a820594d2757a065d7f1d, 0x4298bb80aab8aa309d1912319efa05e1907fec3610f950880c7825c86543c28e, 0x409f0666caec0c1dc7433dcedd117a20b3002331ea9d67cb940703ef473b3f21, 0x176c44003ea7d80a56383abc41e1418997345bf6d3b6c0a5efc5b5af25f8b2e2, 0x47459242ab7330d339a8f13f24bcc7aff7995e8eaf4cc3d32617583a463e2d7f, 0x586f0ab0461d1d1ea8d6a89a61fa90bb7a65ec59d8e5f2d9d134aae175d45c3e, 0x1e488bd197a8a3a6377c033b6225927e1aab009a0967236e85cbc2bff34ba111, 0x209060e01d078be346709990a753611aa998131fa062c819ab4ba2cd23164a65, 0x64c2984915afb0126bd0b6cc37e38d691220d8fc6ea2e3b5cae0ff231b9c80e9, 0x4830f2ffaf1603ae1a60e6a16d031786eb7abe3ea8b96c2fae4d3012681fb99a, 0x406af902b3ecd2a6d8e96761ddbca47e352b9365e913fef90555df0039e22f2b, 0x197469f9a3efda1d1ea1257affc1dd8d6a067a5fd2d85a49663fff68eb4bb939, 0x3b7b2f37cfb5899e6b5d4ba96003e058d1eacf073eb2b93da99dbf8a54766cdb, 0x1426553b470200f622682e63c9786458b8dbc619906e325cdbdd641fdcb61d77, 0x1cd51368264f4696a40715710e281510901cf4b6f811573d38137d7eb6a38703, 0x33b8605954308e9ccaee954107dc02da3896f4d3470d87f170a5fc542abfc979, 0x6a5acd47a794d95495936e38cd51d7ce1d0f9b7158facb429e1d5eca7625cac7, 0x5be11dcc0a3a2c965206b90e3cda2519bf7a4a62a7822e2aee374bdea993bc9d, 0x2b52bec82747a482066bbf5fd357edeaf1acf3e1d805bd94dc9a65fd73fff9b7, 0x5e69b5da7e71ea6aae87966dd8e01f9fc3b00ffee039499a2c8fa4eefc67f692, 0x6d77856eee8a20e081f0c9e2aac688729f691ad43b19357457df184d5d066171, 0x4ea9c31d62af727b2686625f181f80902babf8a495261705de7a38b0a5fb903e, 0x382de3c77b20928de9255602a79bea7ba9a3aba3b4b859263bad68d01a8167ed, 0x26e5f22884d1d5ad279ae0f0fe16f2a24a8d5a10fdd4ad1da546ae19c9059cb5, 0x3a5319eccc458342c4593677dd0c7e288ca12560d356ab83962897fde74a1e],
    [0x4a867dda0877876545809d29bd0c9d27fef9e96fa4913b23edb6db6d12492493, 0xf056facf19ee017dd0bcf4d8f883dc9a31fb3567a3b84f9f5a8b30e6d037261, 0x115936893e1f07745a9335a62244b3191b2bf1184b0bf0fd00e653d9284bc461, 0x393c36aec5f5a8e427c829caddb8f8d7a81a931100faa78a63cf2ecf7c3cdf42, 0x67efc96bbb0b7e5c0a33659bc3fd7c0b1857e11133637d4ef6be44bd62cc61ee, 0x517a1a7390d50aefe05dffc47520983f673054160c14d33e9bc700e65195a440, 0xf6d13c3695abe14d79143a6e0bb939bb0cd31b303d6771ce23a29a8e6e56149, 0x558de88bdb054d09dd32a99e95b25020b9590438af90402e9e0cca7c333c97c9, 0x3edb66ed67f5fc9f69cac76332697658cb6f9db53bbc01bf7fbc63f1fc55f681, 0x16c91d345f8992aa89fee38c6ff5b151538264deb509bb256d3708108bcd15e7, 0x394c1c5ae612e3e2cd009756b6c10a1afa2876cdf87bf76969e332c5a13a71cf, 0x52b2929a44149d93ff2d1ec087c1132d02ac1dfe8a8009638484843065b491bb, 0x1e9b4cfd18141c49502032a5b391fdb8e678f1bf5fa39b72483aa7fe872ebbcf, 0x133c129a3d3a848d0d459da590b1850e9921171d11d3eea91bf10c10658b85c5, 0x5d43363ba97e68945aed8f6734297cd77d4ba2a8f100e9228b8c372062660ba2, 0xb9cba37b3b9194d905fabb20c81d90d316cc62bbce7ef5034d9833174a8ada8, 0x395d8c6eb4df5f59d56832fc89293bd0383ee979ed4ab2a52824bd48578e6d74, 0x2f9b8169f6b35cbbe2cd29b9b36264b282ebbd4b3778ba7f5932d3f396e56553, 0x13e1a34fdde5158729039c8724d9b1c4da3e435ddd401ef531006639e8eb2a3b, 0x2393bd90b8dc6a00d9527de62d3d736294e0547e91570feaed242a3ca398d36a, 0x4844dafd7d3f2401031444839214c7ef977da9f0bea9e7c9382407f857792a1d, 0x41c940f9d41f959d82871415b2ad0fb084b3922662da4cff5a68f3b11679615c, 0x121bb6f9160ac0ee2d00a7a7e3db1fffbc168682f35644c62878e3144024d5ed, 0x649ac60b52d3aa8850426da514e4c35b3d02f7fe3908830324089f38095a2b4b, 0x35ff168e8bcb70cd16416b3e6ecaee897b2789b9af568bd771832d4ff1416c1b, 0x18c309c346b13e176c642a5de13846920c66b58940acc3a0fb78a9ba55562448, 0x428ba612b46ca467c9ae120e01a99cf041201bfaa78a26152e8d2d0b4eeab31d],
    [0x4a867dda0877876545809d29bd0c9d27fef9e96fa4913b23edb6db6d12492493, 0x524611c1a0e4b474a620aff54d7ea07dfc76c97764fe151cfa8405ca6e1bff3a, 0x4b0b24dbff15cd145973457aa2aa062c8e4bcb82c974036cadc55233e4649a66, 0x5cdf95743d5344c2e0ee2c83b0e1636a11a6239f308d35c6ba3fa2e910755730, 0x4cf563c1aa9e0ec61417fd5258c6726e86e57473da4bc666e689ea9df82c898e, 0x3e63dfb1546a69dc62c6f2503de099c717c03d7733e273d9e6bde90a47e3ce70, 0x1263cee7381d051d933c67f73c9a927360eb54071ff1f83f8cb42f01c0d3969b, 0x4ad2a97655c15d145514a272220286831421bc44f8048b96cfab829540c0b3b8, 0x5867d275498665a5afbb5d3f829d07e6335322c049fc54561d7b11540d38f9f8, 0x2e84ea1d76695f4042ce0861c0735d28700b0f3234904bb96e36dbea6ce897b1, 0x41de79ab77bb00d3ccac7a89a111b4a32b9aae508cb318c06161844b14e24d94, 0x295ff716f1606613a799f4c930df47d380a8767bcb5459bb68174f254aadebe9, 0x124e13abe26fdf75ae267657dabf0b251f6fe1a22ff5b7f1deb10b36a281794c, 0x4eb519da252435dc5b271885b357a4953739e90cf113174da3ec0be16c011e06, 0x5c500f16050f7e3bde8fecb410bb308efb11c25b7561875754c575a17d8b91f6, 0x5244ee11ee10e2512e4bb3213ba7d1b8729a000b017f485153791757189ac63e, 0x38adc977b7b1a1025533c956b3686afd627a5f9df96a0695fc108e4325ba913f, 0x14645e7cdb49fe8959ba8728eac1008a3b343f1fd364c1b06801521eb5d9ccc8, 0x250cd9357a29ef96c435f8a74b6d14f910049925405975c2b6749e3bc72de9fc, 0xc223ebf8050839218f9d471a1d0fe3e593876ec48e0af6ad1f27414dbc54346, 0x4e7fd24a969726a48369c151ad01730d7df9c2a1199026c516f84cab865badb5, 0x4f5dcf692b195303ae3651cd45079dcdfcc1881fc7b560bdf834de3c3034c4d7, 0x31f6842995fead63342b062589deeb9d38bb90e84a7453f41620be1ba8904ec1, 0x277e7014f4fe3aea5774c9b716203a9163ff3aedf508a52122376d308a12d599, 0x16893e8f3a65fa002165f937a078cea568468e20185d730f78fe7233f40a1323, 0x3338997aa572eaf3283be5c46d18f5a8df96acfbc0192a08b15a03c98530c87b, 0x1c47939b49a9e91226d2e5229d01ac4a85169ace0b167f97212e6e4f79e1c253],
    [0x4a867dda0877876545809d29bd0c9d27fef9e96fa4913b23edb6db6d12492493, 0x55abe6455eaf4e54d94b383a564809733cf19b0b3686766d6e21accda66fb9e1, 0x1c0b45ac5ef03951c089fc1b8158e41044a17f30e06064594f60253bf35d30d3, 0x332f03fbc4b59bc3355ead40750088bdcea539f0ee63162f4a5be85da8580d60, 0x1e746365bd067247c893b05461c23306d48b41e7c23bb4c50d6545a8485a4e9b, 0x4de8f25cccae1d1fc427c44ea4d58fe5e806aea443aa162ae324d1a3844ea6b4, 0x5ef9c80fff686bc999a928bb29ae4b6ab12a564af3acb5423408b7ffe25f9382, 0x1b7258379e208428fbc73c35b61c71f4c3270d5fd65a1830c5d12da3521c4c2b, 0x6abcf6d06964d281849ad3bb123c58a60417f988128a51a8a0c2f39b058c99bd, 0x48666ea18c63f86ec9cb6ee7616ff361803cf50467d8ebd7296593a105dd1ef1, 0x6add48e1da8ad061c2b4ee366183e961928860f96c4295379791f161641eafef, 0x6a387e70413d013336d0620961e9ee39dffbe5ed2f3fc745d55c3459c6c3889d, 0x55e59a983d86018c9eadb44d11f19cb3344832d6947f22a04dd1558b29ecf7fe, 0x1a7061a19f74d51ae95f14417514399b3be91c49abac8105e297f8a1ebbc7b21, 0x40f7477e02f99af1982c2124aee8e867538590ed807ba7a67c6f2733c7c10f2, 0x396358db52bb41e9f6139de33823cad75e3c4896ff082d1d01677f3dbeb284f, 0xc7ebe8b26cb2902f2b33d3c73a07c70fb27490230bbe101449316d12984fa73, 0x438c933d252a8a6005ff18405dd0d4428a0be562a16e6e3705f7473152af87f5, 0x739f8163400008b0d4dc4fd407e46062e368d8c270b8123b35cf072303e42cac, 0x7a44c595989167de490f4321d1862ed4e1b783e42b0332f6680bb52c60a949f, 0x625e5da901950ffa255443217b10294b4bf5f933e143a8ed239c80b0f5dbf167, 0x36761c92e50d23d859d2fefab0c534bba25e9c54e33ebecba8b080f759e35712, 0x23d1e328ced5a217d2a6f493d2f74228e4457894d9ac9ac61312202cdc4262f0, 0x17066a54e34110f14ca205069dda2ea8fb578bff0d7129cb03db748db9c70ca6, 0x1688c3718e8a70c7e0ccbf1ca373e9e71aa49f53f7ebc8236305d71bc961676b, 0x5437a9d224ba59a4d2d84faddd3cf17ee752cf8789e19c7010f83e3210a83925, 0x64cfc50b204a42e77f5363b7fc7a9ea8f9c9be736ce43741565dc2b7d18d3eca],
    [0x4a867dda0877876545809d29bd0c9d27fef9e96fa4913b23edb6db6d12492493, 0x720b46d302ed7ded557d327c1c7ecda7f42c710dca2b8be07e3d8ece393da27f, 0x2f2cfa317803b0588b990231b657de8d686aa17d88b4ee0668b1efaf9e398c3a, 0x45be2c8d779f20d8ebc5c473919427845ce2bfac06b55e40a4e753b22410a46d, 0x14ef10004a8ea363957ab7b2a8a09a84bad79a12ab576498f48e6a4cc2691899, 0x2641d1e2be57fccbef2bd3fa9ba197f78b898ba294a3909a5e68fde119450b9, 0x1ebcc4963ba8c7d7eb35a75a7d823dcca38cfa5d6d4d206323f86d167774d62a, 0x4c15fa43ccbdb9755870bc49d295e146f94ed4882d1fd71e1e775d9bdd1af4ec, 0x2dc75e1620c96ffdef90f4c3ddae7b4b2ce319bb701811f4a02303467412a1e0, 0x187076ba69d849611d1c0318a292010925eecfae3521f7bf56ab4a2e735f7dc9, 0x4fa50f790c726e79560c3772745ca7a68560a7604abbfc3dd8334634192f9555, 0x1380741875655b1638d55fd9746cda6511a757e2313dd3b03302951314849560, 0x3cbd5930d1b81aa95f2773433132b60d8b17dcd8338eb2c65204dc475a50e13d, 0x22b8ec63399486c63f7f635fa912aecd5bacb31572a1d54004c109b72814559d, 0x396d2641ac14573ff3f7e4bbd897f8b0a94b3d63a5c8abe5f3ec4e14e0066003, 0xf301e9439f8aded65ec2443e2f957c2f55ca2e9181b520c2cfa5d767fd07adf, 0x6f2a81d13d3e57cfe0413f0f398e9c7822784147fcedb6f3e84410e7e351d703, 0x4478358e653d8893d5939e5cfdd54117d90f856a5184a400b9d38161a181f4b1, 0x577d072722bf7712c1b8632bc14c7cb87242357e4276e4c0046ad286b3513714, 0x183dac77f7bfadfbda654db32b343b4fe4910fd749fbd9c356373e3d3059de63, 0x4b4bc12d2c64b9825371178c14d3728f33f41098656b8bf24d97b1e25ba5ea70, 0x46165aea36382cd1f818b4123c1cd361c0c055dea61341c659839acb7bbbf42, 0x5bf78c8f25261c01b4fa80a178953db28096de71b9c196bca77b435fcac0c8b0, 0x1318ccab1570ad2cd349cb5ef0697a26bab1a19ea4aa0f5374ae6c83e716bd42, 0x4870988b76626ae0f24afde746f2af449eafdf3f0346daa57e2408589844f282, 0x1f4778b072127ebd892a0c4fc1b956b6cb701f4811cce25bd6e0cd0ee4cd5a5d, 0x227b141537e4be4e8748ab680baabe6d762db6d5f66bbbdcea4b971089c1ba04],
    [0x4a867dda0877876545809d29bd0c9d27fef9e96fa4913b23edb6db6d12492493, 0x3a3fda8e418c0b3649988a67770d4b3ce34cceed61d8ec6a9b545cd261ab3b02, 0x2ea8bf49a91448c86a477536173d98d79c156d8bc4335a364b62a52be0b8331c, 0x66e9f553132551d9588774bd703aaecacd57961845350bc88d0a89fa63bee5f0, 0x40ef1497f8f93316e9455e5bd006ffafced2f4a071d910cc2c84d2a916bed435, 0x6d9a47ef59f088bfcaa6d9170b573a18e978b6db41baa51970790cbb9dbf4ea8, 0x295cb2406a78686e6d9d26c4e49b926f0905521e30fa8ffa4e0cd2c3f200a63d, 0xf5aa2b2dc6aac0b0ad58abe2ce4734c3e12d75c509b88ba6011ce6a6ab836ee, 0x49e60f796d4b142ea5a1c89006576ef1347bb65fbf3b25612127f0bfd072900, 0x33945d1042627bda03089cad7eaf9060a4382eabe72d0a6759ae3d9f7d08a193, 0x324e8e19b30bda8bb7b170900bf3c55737b9af3076da9cf2c15fcc9f0b593b17, 0x5597f344131a735c53e41fdbb20645df2c5c85aded1115eaa91b9dd1e615ac24, 0x55d48813aecf45adeb2ff599386d0a4445f8eccdd067d5e0f92ed78f0f511f7a, 0x60c1bcd3c6c6424f4856f4897f9f97d8eaa468d66077effaebc7d2f7cb726dd1, 0x54c307245073414c6c04a1006c43e0c025f1e8e44ae16ab7451f8a73737e5e09, 0x1d85cc77d32ba9735b1725a9c3709812fad62df4716e63d4b0b2d6e26e2746b9, 0x3455b8ac6102174a33b27bdcb2c5d0e954c793f04d718bc0b58078cc502c28b6, 0x1d351997ad41795e1b50ed8171d5b057f2233c8d8f1179fba8f145626f33e9d7, 0x16d1b74ed61615e865233717dca17b4b9304e4df579c1f2b777be58175724f1, 0x493389bfcb5a1a7f77636d090a28be1146684358d0f6b1917affd8ccc80f878d, 0x2eba358b6b27f7a5aab10df22a4a3369efe30168e6a6a51536db006dc8658971, 0x4016747f3884cffd41a3c030782a6072157b5dbb9c92b5ddf2ddf7ba6b81ee06, 0x1a3dcb7e1ffa8b010ce7efdf88d9a468450c5acd2aee622975b0f7e00fa18f2a, 0x5e91d7838b24502e41744b8969c34d0b97520509d20fdedac87e14e287878d6, 0x12d058b1c7ad668ef6ebd1455975efca9f15875ba40cf0cee33ed9df2e86fb0, 0x5a7446f6e1539a7cd964a8731e9d6f7056b965a7744dd85efce2b5f3c44448b0, 0x753b002b3f13995b32ec5aeff1a5812fc93bd41e2a0d0ed87a3dacdacbcb3b7],
    [0x4a867dda0877876545809d29bd0c9d27fef9e96fa4913b23edb6db6d12492493, 0x1d0d900e3295eebcd776cda34b0bcbf237c35ebbba5a4169d130782eb9ce5180, 0x30ed944df232bc93ca89bc5c6ce2de051313f81cd3d956d92e8fb6c0f184847c, 0x2d5afd8d00accea763477b3d3223d38fbd073648b987a3dfcdf3c803668375f1, 0xe7e8151fc7aadd21f1a4603bb562f3e075e3027596f9e7df0e14932319f0328, 0x421f8071d3b4e5f4e2fd29c6c0fc4588acd747b2d56bc538d3380de4678f1e37, 0x311161ba49879abc04bb917bad58770565df0273c6edf90fd5ce42035fed9734, 0x1a6ba0efd352cf14fbf06ca4c4f92568650f8514206606cb2b84c333162d9279, 0x4869eba34cc064db18482985a9a17341d4baae53bcce048d65d8f5c2a1f37d0a, 0x3f202b0d950466cf5c43c3a6ef9d94cc3b0adf3b94ddd4dbeaeb084c6e8b8a9f, 0x1704e3d7d5c15e8b306845fb70576c36331172aeba550e6c0ea0a803ef4df84e, 0x4ac4f1fd3a7088c75ea727cb0fa8251a1085fb1f9e3a92c04f073e237c57cd0c, 0x52aff9d50e0e02386d408a5019c6b19e3c19d956244cf00526e14fcf0926bee2, 0x1e73c5957c5c91602b3c489275287ee8eff5ca863b1887bbf67807b324ffcaa8, 0x394684730c5499d8384faff7ad1c43349e31401fa1dfd3ef5f91c8a1a38961c7, 0x624ea1982ef6b0e2e2692fb533f935e148f635fb76095bf554d69c3c820d79b9, 0x50061565cf8d32dbdb543354593a8e2aab2675e05b0d6114de658507f1521cc1, 0x6e67cc7bbfadb26819642f96e73e8cfb0afeb15b67690fe6a6c3c7c6e6b3384e, 0xf9f77b3e06f5e6fb1aaa516fbe20535b562d685052acb9efd148bbb9da9a99f, 0x30890072b202b9c4d1a7212aa573d4cb92efc2b6fcdf3ef82537c5e2fd64538d, 0x5c0907487c8b7a473db783cd4750e6f2e1b1edfbdab3c616af448edb7ec6d747, 0x62a0cdb3944abc9469d1347e941b9d13315ae6f3a3ba383eca082e02c5365354, 0x397321d8b7037b049472dfd3143d8f166d543e3f9b5ed4785003f2f584e2ee0b, 0x2c01644c1202ebce1fd0c9d1a3d14d737db18a8e78ae681823447809aa4dab38, 0x2de3a45e0943f58079ce241b16f2d25b3abe34347dd2d9e8669b23d5592e25d2, 0x14aa46a1795d97209a82da2e0c7afea7fdea1ca14a9be47c9cf4c905b0889a82, 0x13dea6c680a4c5ab97fcdd756aeb9cf5d6fbfdbe189ebe20d2213e7d26ed7ada],
    [0x4a867dda0877876545809d29bd0c9d27fef9e96fa4913b23edb6db6d12492493, 0x2c93bac39549b364d17cab7f3dd11516fd87804e57dd24a614bf114ffc14bf36, 0x910f440b0bd185843d58e1c8179b3ebcd4ed1debb7932ce858ac69deeb6b48c, 0x65da7578f0fb762f4322b03198b29e93499a9804ab33277def80f70b3ba12a8c, 0x4828a9f95ff05a0e4fac746a260765ce4da236528646c7c6e2e1d1256e21a807, 0x270c8d2ae3b51e3880683ad39e23c921880d716e2bf4ee66e56ce589ef19bbd7, 0x719e33b438d8c93216a77d6890a82ec0b62293ceb8d80bc3bec2ce4dc2bac58, 0x4952fc9d40df34f0bfc73600388ab067295d982d33395a07a67f010bf283b5d9, 0x64db7dd1fb437b1cbb27158b3c36fde97558d4e6d70a1bada4623251ecfc65b5, 0xb6e7b5b73312ceb4571ca1e6198c92f6f1d1b907a5c660522c6fa2a5b94b68b, 0x10f432158019e40cadefa653d269977490fc32b24cb3aab0f82c5a284eaae26, 0x46c6a58a0f4deaa9c4ebb545b6b162d839878153bf4d39e2610f786948df1ee, 0x6727d85b4b0759d5945c47bbd0e1b798464a371abd6247962dcb6aacd85ed7da, 0x2e58a19c434615d1971a52d7263ba594b779ba98eee68eb7d686c9d0062c6a5e, 0x499b49bd7c73f2830e1c043e51e676b6ac681e1c782ce6ab8469da6dedb64eaa, 0xbf5977eebc246f3445fbf89fd72b9206e133eedd54ec490a41398716733f371, 0x15f1e59a854e036330fd2e2008be2d445e5be4fab24a9ea521f51c9d1c82f3f2, 0x6984d93e9c22c7c72f8b3d5c3bac4584fe7667b653ae5439ea67cb995a1532fc, 0xc4de5c619c84299f7e77bf2c1ee16a8fdc148fdb5892609aa96688573e90db7, 0xaf23df0a40db6bb28296fd54dc6cdc34cea9dacaaee8817d964824c501e6eb6, 0x646ac176cee024228116cb3a294f8f23e52b107ef9c072c1252fb1d60bb5c49b, 0x4d41e2967962452a7f0fa231173562d9a30d25c8340413d0313899f6ab4c716b, 0x31c60b30c5917ac11cef9b7f6def012783f5575794b93f0a5f792f7af0d4846d, 0x909e03412fb21a0e1cbaf1b3e49ecdb3bf218f8b55fccf65e960c67d522646c, 0x680b091c8b76432da90b95e57e20c00eed828518f33a3cb3b7f0afb067900f4a, 0x316708e4836ec0104ddb20546ae87812a6c654907829075004f582e457203e34, 0x5278d2ef4b334b234f11a559be6589dbc3ac0c1add6d0f7b09ed0e5e28de5a66],
    [0x4a867dda0877876545809d29bd0c9d27fef9e96fa4913b23edb6db6d12492493, 0x38e2500efabf7ff3ba638851cd17b476e697f04a8bc1cb6090e0bed849bfd7d4, 0x62355d512442fc179b119057d863649e3e7f4afd41af87b213fe642a90933e4b, 0x17ca282cd065f340b0303155f9854c3c272124b0c68b19561aed4e9169abfed5, 0x439490d3b7e057d21623fcdf13a5fbdc808d54d0734c90be6195e05e4f8a6530, 0x9f76fdfef2c8ec3acedc4e5d5a9dc7984b465406961a19e2504629644ca74bb, 0x6c50e7afd7534ed3841caabbd3e33eb19c47d2ff85f5bce728c8079aacb686ad, 0x51405cfe578cc845a2ba1f3caea1a1c2043f2dc0884586807eb8a83e83bce5a0, 0x37c193c696e49a9a86ebf5bb5e37f6b58a83ed3811b2eaeecd123fc89d02945c, 0x3d4c9b164352ce13360ddc6e3c667f0c12adf54b45c55c469222fa74d48f2fea, 0x7174d53af370cf4ebd350b962e72aba0049209870416af90f68397cfbef3362d, 0x1bc89bc1bcbd7efc0c6fa13b8e6f17ee6ab2dd66a083b98dceeb21a6dde4b503, 0x479a7016cf610942281c74cc127131b9c136b6f753653c8473dba669837b5d7d, 0x62b121191b477ce9e62492d7254d2a6a4d271d2d1432eb15ce604876901e8082, 0x430555f56b9d16f3ab1c819fd518af468b9332954659cc1e9cf91696237aff94, 0x330eedae2e80c449efe3ab0a983adeae0c8f151717a72174ae3898a04a8d1f05, 0x5ae56c58c5039ace3889027d6e734d4f937566bd84835a287ed13397b8f42558, 0x11b779c2ce0b7670ef1b78efa2dc7c577dc88a036a55a47b406d5a7b1a07f401, 0x1c6c7dbba8e3435263ce4c4c149ab40370ec313d4d0e469ad30b9581828c3c00, 0x6d83c1feb63276ad5ccd6ec5265aa8bd3206bc9acb2faf70f6e5d05fce677a52, 0x6287b1e77ea7436b2d456fbb08bf967747abbe2e09e0e98be42b44cc403903ee, 0x37f78143280218969b50363ed45b9033aad86688f4bb045b3052c607e8b93e12, 0x660033e33f2ae76e856ad03ea72f3ea250d138d53950b70f1d08dd0766eabee3, 0x3552d21cfba2d2edf15a7eb47ffc40fa9f359d4199ac0c4afe61626adf0959a9, 0x10884e66496534b2aca9bfdc9b275369c6ea6fcdfe288fc2358accebaf1df519, 0x41cb6e6903cc1b3fc3cc5569acee06b11e946de07d393afd9c28dedc55caa568, 0x3be704e56981d3228b01be4c4f740b3d8c169c956645ae0b9aae5d8cdeec65b7],
    [0x4a867dda0877876545809d29bd0c9d27fef9e96fa4913b23edb6db6d12492493, 0x69fd6c399891cd82b0749f1797411e9c066064241a770ee2a4c450bc885b2b81, 0x146db9ab3852ca94e98d2e51f21ea619e697b3125162c784c79e81bccb1c32fe, 0x53cdb3066198666ce342fd77f52087aafcda74f4cd1a9ae3bd51085f3aebae5a, 0x6e58058e515e419a42fc82ed56703c7b4dd2fabfa9fd3ad24c868eff68a4e6d6, 0x2fbda76c9ae159ee546e1aacde640afc9fe028d5eec043d22a26ef134c4eb44f, 0x6caef196e26fd78b806248956b1f6aaf498541f4456d7ef028bf866e82c7ffdb, 0x9f5438a6e1b557db4f28f51dbac021978c2a1e1e034d594fab7f6e22948620e, 0x72c1d920d2c928172d8b93c29c6deeb251563a78050d1da4287eda0a355bb843, 0x3ab8701ade34a4431e8fc3803f3675ca0cfbd408681445ca81f4de186d666bdc, 0x558a2eaa12ebcfd0d3f155cbf5056f7d1b755fe5daaf523ffc4eb18121e8c41e, 0x473c0986811988b0b746bdb56a4264807c20ae1bd185d3025277a94f761e431, 0x690276ded5a7c74e4e213c53d745c6e440aa14f6d6f91aaaf1a83ac5e4165f88, 0x53f098fe019b431542a0f3522aec68c981b9dd6dbf2e2a99fb5582710ccdb0a4, 0x686e7cc4bc90a2da6996de9a80c3920114af5aa255a0cab085537632f1b369c9, 0x407e0ed9f4e6fbc7ff74ea9268bdfb4060bda739932a9cbdfa7f6d42cdf9c161, 0xa1a995bb3365e169246f0b7d4cfc9140cb39ff6138481e68ab2ab64670af602, 0x26be250f1c3f5efe2e8b9f9fcc9bae2783648f4f6bfa0e477d5ec96abca3789d, 0xd305f9cf871fb76da54d2d3c3a26d7f26ab17fc7f3b929fd3c845154555f063, 0x5c8cc18c52a6886c03169f252500cc52e36f8653590190ba3f9cc98543cb6203, 0x1a2a9376d10794d40fd477152b040569037e9b7be9838567697f02e92acb8ad9, 0x6d2e1eb3954792d76d9d283c913e6b9f572676703f5c1e81d4fd957d72d57765, 0xd0e28a3452167ee561f661886403563281dc3b4c638817a87d9a4f68d9a49a5, 0xcce2e1f9a5ff3147ad765693f69f46bd05ed181ae056e6d8ade822c477146f4, 0x35d6334e2182dc6dd8cc8122b0613aaeb02386cf1ac5522ff9b16cdf6b3e14a1, 0x2ba268a2ee583c355c65a486af160f2ee2f3745a6c187dc8ae49aa96eaf840ac, 0x6b6bb6bdc439f6d4d89163b0561ba5ac9b66f20c147d529093e63bd9fec277c8],
    [0x4a867dda0877876545809d29bd0c9d27fef9e96fa4913b23edb6db6d12492493, 0x6734c5bfaebbb3d48b84c1f13a31948a00c102984b027549d1c970cb174563e0, 0x4a072281ef42a97a57f192c455acade99c0ae66e717ebc5f791922145d64a009, 0x6ddc808c3ce9caa2c82021f61f40335e3fa658d169eacdabac0b9623a397a2a1, 0x14291315181508003569e61d37ddd015e8f2b9a82fb066844a95ae450a30fb2e, 0x415b6835dda59c56d082f21eea46aeb27f399520b8bf8447e2d642516d364a85, 0x372097245d8612aaa7335ca26838d12471289e743feea054470a662ca6f47dcf, 0x3c8ab103bfdd16384a0b2863ca33d7cd4896d533653dd5dd3762f2aa7a579a2, 0x5336f712e19ce30087d6d6b3114f8c5af999ce6e47822093fb37e58aee6948a9, 0x318b93491135c3f5ee295d341bf55cf374dcf9044f438368a385dfa81df82d11, 0x9a453c0511b463e4bd618e58c16f62d4c81e24b91339f9522bcfa63611ce6ec, 0x31a6b7827085b06a4b3c881f0faf9c871a9a83c5279c8dec4a0deebb24abaf45, 0x59657cd02eaa519c382034156c23729db83b3519988893894b65106853d6b2b6, 0x37ff5ae97e9cc93457748fe14d85025ade42cc4653e431458edac8b6f55c92db, 0xc10ae1a067c5caf0c292c3c2c5b452051e87c294e6e7fb159e81e1041cf8705, 0x24ead099969102e936152a7e33bd77ea1ffd93c7485e13a779523bf9a3535b6e, 0x1b34776789ca2ba65dd0fb90c39f67bce43e9d4c0918b670d9743e3b563611fd, 0x612d7c9d5c8e3a9659db7d064d1d387f4ed9c9c6dbb50165f8248e2672a62fd7, 0x5e851fcbcaed051648ddeb8d0a6ec7a181c5e9d524446f763ccce5a2b3dd1a3d, 0x2f9e1e97b68babfcd859f37fbe6d3a410bee3c941c50c1d27cf188f94f21e984, 0x42863cd008cebb0a03da78e824c34fef0e4ea71656b0e18dda95e6d247e1a12f, 0x4b671c6950b122e894da2c696593a2cb96ddbf05473f54b5a548bce88944d736, 0x6e9924a708505933b5e14889c64dd1037d3719d93a4659f2255f405ccd935857, 0x67f3722af7cdd307103dd3cfae470a21c458a6ed09647802416fc654822c5fbe, 0x512e59d3ac168e925e10b52f33ee5ff5fd485256abfc4f8ab25e4ebf801d4c00, 0x5bc0d09d6f1d93fd25c524c6ce4065a4668c40a1d857a05fb4d02dd79e9a7d4e, 0x1b1797dd0f34b25dbf9851ac73adefad37c256a71349212e17e17b30d79b9f],
    [0x4a867dda0877876545809d29bd0c9d27fef9e96fa4913b23edb6db6d12492493, 0x2e35c93f1c1b96fe608af9baf6f6385431c3e69e58a871f9fec1f9f928a27daa, 0x2cd874c5e40de7df5e651323283945fc0afdf06efb3ddea5f2eb5364eeef588d, 0x5ea615ca0d354a91f8c576c69c56f9ca2578f06a0a07d6444829e6b8dcd8236e, 0x13e5b7c80d9af0833c98f0dc38bc4a6c3953e8dcd7e36448855f667b8a096f9, 0x710491f06cbd54cf2905018e755ed74873135bcc0aa790f167102643066859bd, 0x1810db42346a0cb5c8a336f4b09b6fc721777a8e7b3b4fccedfa18aa13609a73, 0x7b141113307a18703b63eef073aa5471043b281f3b0d565acc3cdda764fec30, 0x4e8004bc4274ab767908ba6987d2754fab541f072655ebea1bc081599295112e, 0x46d4be4c68293ce89097ef1c4e526ddff4a5213a27423b0217e1e4bc4014db46, 0x62528ce9d70b1ea03357428d8766296ac31ea42fa73adf330dddb90e09621644, 0x3800a1126b6f49d12d71f0365ea97355b4666803d73b23181f3da62816ed295d, 0x696d04c84fa9d47e46eeb3011e17c29f63550f0ebf9ab8558fa3b3d39e0e0de2, 0x2fd0bdc64a2d38d74663ae41158df399b88450c472b0e023de3099fa3e4676ed, 0xdaa8c014445a04ce3df1a38a25d9d10b0be01e83afbc77e3c35bab6490ba8cf, 0x4fbbd48a78446d3dd7023c132979c38300702640688c0d14e1d355b37085fb5f, 0x23627420fcd935f1f4c9d1078f9c096f4ecda149f3d33aaf8e4620f9d7c2f2c1, 0xb037d5360f67c0ff950538a4c7ba70620c6820c714e95763ee33a165d0de2e0, 0x5c4c709db063382a358624bb31087eca38c183c7ebe450f6aa1f3dc6e0801434, 0x73aac7a870c3c53692f5180c080806a254721bf6ac3844cc4060d9a30ec55d24, 0x212e950733623df0033a382293c392962ecbb4af7fd6652ab49d61a160420c23, 0x5810bb046624c495a94598255af4a883591821b45f92dbc64ce2a78f2efc020f, 0x568c8c6f5a324b445f093585807a2cdb38e231b71bfd888fc490ff1cf50bc513, 0x3a73867abfbbaa4750246a28bfcb0f5b2c439a4b4e1a67f6c527942cb18cfbe7, 0xbbea367e6dd8fe943b8d0cf5fa41732bdf7d510a1f8b8c7136efd15d40f1485, 0x36f8ab55542989ab435b4b59ef479cf7975d39a2c8dbf8b6a97d3b9794e2f616, 0x4ab769c6da91a02c68287b760de01169ef62e608e2d1e5b96e2917f831df4680],
    [0x4a867dda0877876545809d29bd0c9d27fef9e96fa4913b23edb6db6d12492493, 0xf75053e49d0bb5ef5c37849f137f53182614829d74075e84caf611fa815791e, 0x172f87dd6eb9190e70a4aaf05b2fff1ceba9afa7c18019253e5c17ae191a2ab5, 0x1b46fa31af7059b6a2a8de6d64c44f2813536373d2ded4992676a65427618ff4, 0x6a1405ddaa4323ff230f6d823cddf048b95173c372d77bb85f917407ec6718c0, 0x3ca7efb896f676a6f781288a429a83565af3ac97fd30b41777a0530a6feb4423, 0x47b5e13de77e44c7356b0fdc228e66e4c7cfdfe8d51dfa90650c50458178dd69, 0x263c6b493d552dcff5dc2a603a05a07d30df9166c33102dc2309de33a736cb76, 0xc33f6aa702b867361749c37d9a4e37aa300822c2a358f1b6f2ddbbc52896f56, 0x14f5115c5c7745836505d7a8c3ec8bfa39e30cbb78fc7c65447cde67424c83f3, 0x1a2cace80325b4caf98d3b418ad2fddaa734c04a05ce33d47554a825a4ac5cb8, 0x135ae0b8d9172d675cecf4db79a2b4c11f860d6a49f5c7614499537cfa216ba, 0x19000ceec3134550204067c23fa9037d67496b74237a1757118c3c761ded4e94, 0x9986948ad3447cb06a69d0a00fb3545ae521845ddc68c49ad5ce11b32ec0361, 0x14141e31ccd90f5bb02221b7091492b4da7835560f98b3e77693426d569e9fd0, 0x3f38ff09ab8c5d4ecd48c62a702b934a76e862b9324434b971baad311eca3aff, 0x652ffedee94b229ede6a718d8d0d728ef2e5f30aa8a41d1a0580a6e5d7b3a44c, 0x2a2b6f3db484059ed3f1f2b20e5416df1e82ebe4a1dfee9372c12eb661433172, 0x648493f8b26697db8536655e67970a169aaf16a67161e74ad7ed46b0e8bfbe63, 0x2e64dcf86cee440ebe3d5b2071242d1a5e979d2ef3d328bc889fb2789dfd4b34, 0x20af3f9bc82e62ecb477f2012947f93b1fa3ff1179dff7b8b1dd07a7cf417f1c, 0x18d63d8362d23c00560d2cabce84750d24c9d8f4caf0eb1626af955c715cbb3a, 0x427533e1794e587eded40a94ce4f15d04cb83dfeacbc630ad7f755c0a1633065, 0x2b17b1c8882f8fe69fc87806402557ad3e9d3fd0f333f5a54579904b20a5e8dc, 0x2d51796c96fa3826d625e5a9dfa676a520777ffd713f0750ad3144af739921df, 0x41eec1064aa3d56c2cef83f44cb0fa98f3586ffe58f91d5125699bebe5790afd, 0x55bd830f72a11bc12bd14424cc738e8372a833ba01cbaa5b0f9f8b27acf6940a],
    [0x4a867dda0877876545809d29bd0c9d27fef9e96fa4913b23edb6db6d12492493, 0x55039cd695fc068a47b2f3c1a0a9e2ae92be451344919c6e9bfacceaeaa2bd75, 0x5cbe1f75bae46439c294acd33ae7e00442fe1ccf2ccc69db336da9a905d3ca01, 0x28ea774a87288691f3f64c3f12755b4d2c9d48f23b9b17512fc5d3607870d95e, 0xa9b9a2fc439e9ffe9ea858b9c7d3d98bfb6fff19a796635e0fc1ad42574f7de, 0x43d58fe09cb5b6ae9b33488383a79e1ae4e9d0886da6e9dfd3645f436a6d75df, 0x257867db283d5d98867dda094168c77c91f3beb6ba95302db3c483a6f8c73cfe, 0x18d00f275b8bb38439ac44b1c6c704eaaf1dcfa70c049a932f084cdb5eb40e81, 0x30cfdaa9c0ae19cd8ed4fca5118783608f0c7ad710f3ad18b28c2fa7cea5b448, 0x61e39edcc694ccca256590ec6ce4a1e73522c49793edb265644609c3c884916d, 0xa85da450f1a66f432bbd42570c3b4e6e72facfc79223ab132ac4949ade211ed, 0x53444c1b3b4660a9d75365bda5dc6d4d4981168ed044ede3f0f500f6fa9d45a3, 0xd4e7a7f153fef3708ff121e4e92cca9cb4813b5370d8efad4abf5d4a50b248e, 0x3cabc885cda3387f3dd96dc312a5165ca7e8d0456e3e17cbcbd522cb935a8019, 0x5287a9b5b7d5e86d4dea65fbf83a881c2c609b29252d27e4781381375d41d41e, 0x639a99558969615416ce2b917a57433f1cbe5b6d4134a61a8f129477de5a4b2a, 0x5482fcadebd0216c54c785e717d576e64e41ac68178eee8cb28a3622ea1207f2, 0xeb779e771659151caa7391b0903b9c93b35419d18aaf855c1a943ac0a0c259d, 0xb4711e707c2af97f2126a518d3bcde5011d140acd14e8cd07d02b5bd33ceae4, 0x46d88c015b6d1e1b846d2a75bb3027d7a3f0ebb5842cbd9fba08c159b22a3b36, 0x55321a32868753a6507a047f9acc0db9db4da8e4564c50d83113e65e4a7fc7ce, 0x2361feefbdcdf72e896465f7e903a4bcab49fefdce0c4ea4677e60edf045c033, 0x671ef7fc0bdafc79d50536badbaca744e6c9dfdc969e0e7180716f9415c819bd, 0x14e390428918fa0817ddd672fbed0976aba49ef7fbd3890767fb1464eab203ca, 0x471e6cf561dae0b83c9b1836d6a37f52986a7d3ffa447db6d01f96627237b540, 0x55e04661d2a12e7722100307f12328a803685faa396067c11c0b736ca9851df1, 0x2722077496b7ba8046bdcc5536b6966115d5552ec334a71672d0139bef220b02],
    [0x4a867dda0877876545809d29bd0c9d27fef9e96fa4913b23edb6db6d12492493, 0xf75053e49d0bb5ef5c37223347bfaab607faf77dddda5ddbbbbbbbb999999b2, 0x22c74bcc2615a595a8f7c0cf3616f401991f4acdb332b532e666666619999892, 0x28ea774a87288691f3f64c3f12755b4d2c9d48f1ffff6bc3696969690f0f15bb, 0x618dd7ae237007f61055e791a3b69f9cbe853af5238cd774485db3078646298f, 0x1588e078113dc016ec30c9d05a8e9bd7c6a39fa7ca1aa481cbb0be374b4ba25c, 0x162e435cf309d7c5b0b75f3a71c0f78ee3a36990a9c466e1d97b2a528d8cce03, 0x18d00f275b8bb38439ac44b1c6c704eaaf1dcf91427803859fe3419233346951, 0x1867ed54e0570ce6c76a7e5288c3c1b047863d79e50d20d75e50d793fffe8dfa, 0x1d2e58fbbe51d235529b27bbb9c8aa5de636c3f05a36a74449cff6a042c99ace, 0x27f81cca12a4d2588d1293837461fa6ae4703f93aec3e073416a6c2dbd36e08a, 0x43be1286f7d11ee9a229d09a4a312931dc57aa30f231cbcbc53b36c26bbe6ddc, 0x62fe22b16ba9358dcaaf63e177158db8dca7b976c371e90c0eb1324e6510648a, 0x2c34b23de32e9d6d9119ee9d9263ce2089770fcb0eebab5db103e00241cb13e8, 0x3dd414f92742ed7bd70dc88cd1efeaad81febddf77769776eeeeeeee66666667, 0x6caeccddf703a573b0063a878907ba84fe81c9c2cffe763f0fffffff10000001, 0x1b46fa31af7059b6a2a432d4b6f8e788c868db4bffff9d2cf0f0f0f0b4b4b4b5, 0x46d8580827a75ac891152076b08d923c24f3e43ab8e28d8d9c71c71bd5555556, 0x6dd3abfdf187ba0e815f38736770e79941dc14a486bb13c9286bca1a00000001, 0x1163a5e6130ad2cad47be0679b0b7a00cc8fa566d9995a99733333330ccccccd, 0xb0a7175a27085d61d427619257d20c38e120f9ec30c08c2f3cf3cf3b6db6db7, 0x6ea8ab5b04d08339482b9407ac1a7cbf444c4b1a22e72944dd1745d080000001, 0x64cea7c2c00361cf7a7514e599124c8a328ea4e137a587a61642c8582c8590b3, 0x6f1915afb28c42ba866cc45d093b19afc595bd2d8aa91829b555555460000001, 0x6aa770fa96ed0cdc062af9f2ea24419e803dd454ae12f879f5c28f5b3d70a3d8, 0x310bee2d07c2a14fc6e73ddc04133ddade81769ecec43a9d1d89d89d1d89d89e, 0x896583f0c9068184fa5784c727dc426520e0c2625ecea5ebda12f6838e38e39]]

/-- the inverse of the matrix (not in the code) -/
def mInv14 : List (List Nat) := [
    [0x1402e823708ce0, 0x73eda753299d7d483339d80809a1d80553bda402fffe5bfefe1a641fe843b681, 0x14a0ff1a221f9f50, 0x73eda753299d7d483339d80809a1d80553bda402fffe5bfe7a84d8a1324271a1, 0x23eb5cd0cc40c96c8, 0x73eda753299d7d483339d80809a1d80553bda402fffe5bf831b884e5c5ea0101, 0xef903a86ab2fd3100, 0x73eda753299d7d483339d80809a1d80553bda402fffe5be6c22ad6f0b9a30601, 0x1cecafcb2b36dd7bc0, 0x73eda753299d7d483339d80809a1d80553bda402fffe5be5d9245a753f987301, 0xf82a10c7b58c863c0, 0x73eda753299d7d483339d80809a1d80553bda402fffe5bf891fe66cea8ed2981, 0x19b80664c15c4b5a0, 0x73eda753299d7d483339d80809a1d80553bda402fffe5bfed11af0b10aa5c101],
    [0x73eda753299d7d483339d80809a1d80553bda402fffe5bfefe1a641fe843b681, 0x2e3cb75de28d7f90, 0x73eda753299d7d483339d80809a1d80553bda402fffe5bfd0732e8cacc093e01, 0xccdb3aa384a4b19e0, 0x73eda753299d7d483339d80809a1d80553bda402fffe5bc7b3fb37d2080d4821, 0xa81a4bfa224dec1a80, 0x73eda753299d7d483339d80809a1d80553bda402fffe5a8c3f43e66ff9089801, 0x259a17bb51c75320e00, 0x73eda753299d7d483339d80809a1d80553bda402fffe592fa8a94e681ad4d901, 0x272b2e0dca84f697940, 0x73eda753299d7d483339d80809a1d80553bda402fffe5a7bdd1905e3c89f3c01, 0xa0be27f5b880d6f280, 0x73eda753299d7d483339d80809a1d80553bda402fffe5bd6c1385d9789a68881, 0x497b7ffb4d07b2b80],
    [0x14a0ff1a221f9f50, 0x73eda753299d7d483339d80809a1d80553bda402fffe5bfd0732e8cacc093e01, 0x159a607b5e0bc84200, 0x73eda753299d7d483339d80809a1d80553bda402fffe5b724bc83accfd5d9581, 0x2615f536abc5a77e010, 0x73eda753299d7d483339d80809a1d80553bda402fffe54bddd7bae8404ab0c01, 0x10093ed3a6a410a0d800, 0x73eda753299d7d483339d80809a1d80553bda402fffe41eb8393cd67f8fee801, 0x1f3cad0c4744eb0ea4c0, 0x73eda753299d7d483339d80809a1d80553bda402fffe40bc1531cb1b4a21c401, 0x10de0f23f956f3861400, 0x73eda753299d7d483339d80809a1d80553bda402fffe54fb7184010aae8fca01, 0x1c22bf3914ac914a2c0, 0x73eda753299d7d483339d80809a1d80553bda402fffe5bcb8ff3367c47694c01],
    [0x73eda753299d7d483339d80809a1d80553bda402fffe5bfe7a84d8a1324271a1, 0xccdb3aa384a4b19e0, 0x73eda753299d7d483339d80809a1d80553bda402fffe5b724bc83accfd5d9581, 0x396f90c3feea134c794, 0x73eda753299d7d483339d80809a1d80553bda402fffe4c690fd7b8f0c8077bc9, 0x2f9b728456b7115d8140, 0x73eda753299d7d483339d80809a1d80553bda402fffdf28a8c95baef0d15ee01, 0xabcdb7c387fb0cd08a20, 0x73eda753299d7d483339d80809a1d80553bda402fffd8dd4f0489004f09f5a41, 0xb436ab46d63ed5f20540, 0x73eda753299d7d483339d80809a1d80553bda402fffdec53d964cd4676272b01, 0x2e7f940606c845090a90, 0x73eda753299d7d483339d80809a1d80553bda402fffe5052ca99257cec8d1721, 0x155d8aa508a15698c40],
    [0x23eb5cd0cc40c96c8, 0x73eda753299d7d483339d80809a1d80553bda402fffe5bc7b3fb37d2080d4821, 0x2615f536abc5a77e010, 0x73eda753299d7d483339d80809a1d80553bda402fffe4c690fd7b8f0c8077bc9, 0x43d2a1bb97c5bedb53e6, 0x73eda753299d7d483339d80809a1d80553bda402fffd8c663fb4723919c29d41, 0x1ccb80d9138641c29eae0, 0x73eda753299d7d483339d80809a1d80553bda402fffb6c1a4e35d1059abda381, 0x387b7cbd7ee9cfc2ad690, 0x73eda753299d7d483339d80809a1d80553bda402fffb44dcced8161cca775fc1, 0x1eae55aec674e30ccd360, 0x73eda753299d7d483339d80809a1d80553bda402fffd8f53f08fcb4b8a8ce8e1, 0x3370a00a47f47150fab8, 0x73eda753299d7d483339d80809a1d80553bda402fffe561adab64252836a9541],
    [0x73eda753299d7d483339d80809a1d80553bda402fffe5bf831b884e5c5ea0101, 0xa81a4bfa224dec1a80, 0x73eda753299d7d483339d80809a1d80553bda402fffe54bddd7bae8404ab0c01, 0x2f9b728456b7115d8140, 0x73eda753299d7d483339d80809a1d80553bda402fffd8c663fb4723919c29d41, 0x27ca13ca36e810655d980, 0x73eda753299d7d483339d80809a1d80553bda402fff8d4aade836b56b9dd7001, 0x90984993306b09a074400, 0x73eda753299d7d483339d80809a1d80553bda402fff37b34b95f062a6c857a01, 0x989364e89ca623eca2900, 0x73eda753299d7d483339d80809a1d80553bda402fff86f4c06db715ea1b89801, 0x2791b62f4b0acd51fbf00, 0x73eda753299d7d483339d80809a1d80553bda402fffdbcb2bdcfa54c14b2a501, 0x1243406498c9e89bfe20],
    [0xef903a86ab2fd3100, 0x73eda753299d7d483339d80809a1d80553bda402fffe5a8c3f43e66ff9089801, 0x10093ed3a6a410a0d800, 0x73eda753299d7d483339d80809a1d80553bda402fffdf28a8c95baef0d15ee01, 0x1ccb80d9138641c29eae0, 0x73eda753299d7d483339d80809a1d80553bda402fff8d4aade836b56b9dd7001, 0xc4f8a9f8da2143cd1a000, 0x73eda753299d7d483339d80809a1d80553bda402ffea34ce5208f8901f482001, 0x184aaaad1e54635c947e00, 0x73eda753299d7d483339d80809a1d80553bda402ffe9099af213ec7edbadd001, 0xd4346fe1f88f06e72f000, 0x73eda753299d7d483339d80809a1d80553bda402fff8d126066a303fb00fc801, 0x1655f4a625fafb4ef39a0, 0x73eda753299d7d483339d80809a1d80553bda402fffe32fc30856585f1287001],
    [0x73eda753299d7d483339d80809a1d80553bda402fffe5be6c22ad6f0b9a30601, 0x259a17bb51c75320e00, 0x73eda753299d7d483339d80809a1d80553bda402fffe41eb8393cd67f8fee801, 0xabcdb7c387fb0cd08a20, 0x73eda753299d7d483339d80809a1d80553bda402fffb6c1a4e35d1059abda381, 0x90984993306b09a074400, 0x73eda753299d7d483339d80809a1d80553bda402ffea34ce5208f8901f482001, 0x210962ffebceed88261c00, 0x73eda753299d7d483339d80809a1d80553bda402ffd67cce2367d14a41331c01, 0x2309f4a2d34fd523cb5400, 0x73eda753299d7d483339d80809a1d80553bda402ffe88a379ffdab189cdfd001, 0x920aa216f855577a602a0, 0x73eda753299d7d483339d80809a1d80553bda402fffc0edf967200835cb6ce01, 0x43ab098a4bae254a1400],
    [0x1cecafcb2b36dd7bc0, 0x73eda753299d7d483339d80809a1d80553bda402fffe592fa8a94e681ad4d901, 0x1f3cad0c4744eb0ea4c0, 0x73eda753299d7d483339d80809a1d80553bda402fffd8dd4f0489004f09f5a41, 0x387b7cbd7ee9cfc2ad690, 0x73eda753299d7d483339d80809a1d80553bda402fff37b34b95f062a6c857a01, 0x184aaaad1e54635c947e00, 0x73eda753299d7d483339d80809a1d80553bda402ffd67cce2367d14a41331c01, 0x302db05fe28dc511379380, 0x73eda753299d7d483339d80809a1d80553bda402ffd3f93e4b8cc495f19a8e01, 0x1a6c076e42d2cefc08fa20, 0x73eda753299d7d483339d80809a1d80553bda402fff34bace6fcb3b66ef8b701, 0x2cabe94c4bf5f69de7340, 0x73eda753299d7d483339d80809a1d80553bda402fffe09d3e221366265017a01],
    [0x73eda753299d7d483339d80809a1d80553bda402fffe5be5d9245a753f987301, 0x272b2e0dca84f697940, 0x73eda753299d7d483339d80809a1d80553bda402fffe40bc1531cb1b4a21c401, 0xb436ab46d63ed5f20540, 0x73eda753299d7d483339d80809a1d80553bda402fffb44dcced8161cca775fc1, 0x989364e89ca623eca2900, 0x73eda753299d7d483339d80809a1d80553bda402ffe9099af213ec7edbadd001, 0x2309f4a2d34fd523cb5400, 0x73eda753299d7d483339d80809a1d80553bda402ffd3f93e4b8cc495f19a8e01, 0x25540f87a57b9828509d20, 0x73eda753299d7d483339d80809a1d80553bda402ffe7113737217a58c1340801, 0x9c31b433f2530f86fd700, 0x73eda753299d7d483339d80809a1d80553bda402fffbe4cb0ee7dbfa87e86f01, 0x489fa4be718bb4f30f00],
    [0xf82a10c7b58c863c0, 0x73eda753299d7d483339d80809a1d80553bda402fffe5a7bdd1905e3c89f3c01, 0x10de0f23f956f3861400, 0x73eda753299d7d483339d80809a1d80553bda402fffdec53d964cd4676272b01, 0x1eae55aec674e30ccd360, 0x73eda753299d7d483339d80809a1d80553bda402fff86f4c06db715ea1b89801, 0xd4346fe1f88f06e72f000, 0x73eda753299d7d483339d80809a1d80553bda402ffe88a379ffdab189cdfd001, 0x1a6c076e42d2cefc08fa20, 0x73eda753299d7d483339d80809a1d80553bda402ffe7113737217a58c1340801, 0xe8c11a973898d47904800, 0x73eda753299d7d483339d80809a1d80553bda402fff841d25ad48576ef9c9401, 0x18ae20a765e431ae5ee80, 0x73eda753299d7d483339d80809a1d80553bda402fffe2e8703b5499a2cc31801],
    [0x73eda753299d7d483339d80809a1d80553bda402fffe5bf891fe66cea8ed2981, 0xa0be27f5b880d6f280, 0x73eda753299d7d483339d80809a1d80553bda402fffe54fb7184010aae8fca01, 0x2e7f940606c845090a90, 0x73eda753299d7d483339d80809a1d80553bda402fffd8f53f08fcb4b8a8ce8e1, 0x2791b62f4b0acd51fbf00, 0x73eda753299d7d483339d80809a1d80553bda402fff8d126066a303fb00fc801, 0x920aa216f855577a602a0, 0x73eda753299d7d483339d80809a1d80553bda402fff34bace6fcb3b66ef8b701, 0x9c31b433f2530f86fd700, 0x73eda753299d7d483339d80809a1d80553bda402fff841d25ad48576ef9c9401, 0x28fd64c7407f781b56040, 0x73eda753299d7d483339d80809a1d80553bda402fffdb61647b65dbd1100e381, 0x131e15b6af98f016b300],
    [0x19b80664c15c4b5a0, 0x73eda753299d7d483339d80809a1d80553bda402fffe5bd6c1385d9789a68881, 0x1c22bf3914ac914a2c0, 0x73eda753299d7d483339d80809a1d80553bda402fffe5052ca99257cec8d1721, 0x3370a00a47f47150fab8, 0x73eda753299d7d483339d80809a1d80553bda402fffdbcb2bdcfa54c14b2a501, 0x1655f4a625fafb4ef39a0, 0x73eda753299d7d483339d80809a1d80553bda402fffc0edf967200835cb6ce01, 0x2cabe94c4bf5f69de7340, 0x73eda753299d7d483339d80809a1d80553bda402fffbe4cb0ee7dbfa87e86f01, 0x18ae20a765e431ae5ee80, 0x73eda753299d7d483339d80809a1d80553bda402fffdb61647b65dbd1100e381, 0x2a004de9ae54de52a360, 0x73eda753299d7d483339d80809a1d80553bda402fffe57272a492fabe1e5c501],
    [0x73eda753299d7d483339d80809a1d80553bda402fffe5bfed11af0b10aa5c101, 0x497b7ffb4d07b2b80, 0x73eda753299d7d483339d80809a1d80553bda402fffe5bcb8ff3367c47694c01, 0x155d8aa508a15698c40, 0x73eda753299d7d483339d80809a1d80553bda402fffe561adab64252836a9541, 0x1243406498c9e89bfe20, 0x73eda753299d7d483339d80809a1d80553bda402fffe32fc30856585f1287001, 0x43ab098a4bae254a1400, 0x73eda753299d7d483339d80809a1d80553bda402fffe09d3e221366265017a01, 0x489fa4be718bb4f30f00, 0x73eda753299d7d483339d80809a1d80553bda402fffe2e8703b5499a2cc31801, 0x131e15b6af98f016b300, 0x73eda753299d7d483339d80809a1d80553bda402fffe57272a492fabe1e5c501, 0x8f0ed02bbad23e1a80]]

/-- the tables have the sizes that the code reads and load without a panic -/
theorem sized14 : (opt14.sized 13 4 57 && opt14.below blsMod) = true := by decide +kernel

theorem ok14 : opt14.check blsMod 13 4 57 (opt14.plainC blsMod 13 (opt14.plainM 13)) (opt14.plainM 13) = true := by decide +kernel

theorem inv14 : invOk blsMod mInv14 13 opt14.m = true := by decide +kernel

end Verif.Poseidon.Bls
