import Verif.Poseidon.Check
import Verif.Poseidon.Primes
import Verif.Poseidon.BlsT11 -- only so that the large tables are not checked at the same time (memory)

/-!
# Poseidon over BN254, 10 inputs (t = 11): the tables, copied verbatim, and their checks
-/
namespace Verif.Poseidon.Bn128

set_option maxRecDepth 1000000

/-- starky/src/poseidon_bn128_constants_opt.rs: C L998-1153, M L2761-2905, P L4883-5027, S L12548-13935 -/
def opt11 : Table where
  cF := [
    [0x752af3c6fdccaf3868276685f0a69b9749e1706a82917b64ec2ef847f804559, 0x69503d417e25f4568c7858ba8334301c0fa19c1b348bc7e18a4c1ace1d15418, 0x25c1b121f33f4cf7b308ec4630f27b603d22aa81ca3595e801c5fa7d9770a096, 0x23d6b55145bdb32827c1456af4d7be4c2d213e825c1d2f0c9ff99b2273751f6e, 0x1b357bce3ef3f2b76afc2b5804805adb14cf6bf37fe2357c79aa7d6b32acaeca, 0x28ec5ac0881c1e6426ba499409894a6f3c276fe5689f2c35c9027e80944877d9, 0x2c9862524ac8a07b47d211c9c504c8b0bd398d028acf690e4b8ed4005dd06eed, 0x1f6e6f0ac4aeb7a52343f30418078b40644cd43e290da0baee92891c4c065ac8, 0x3db3517e233f8a76d21b2fb23c85fa7cacc577769edea09aae39407b9af2fdd, 0xfc333dca4183dab479c5962eb05ee4b79a8ac6e0cce9e9b0a2142247bfd0877, 0x1eed281978a8395c04289b86197673b0f2b65e1a135264527e250a5cdf99aca4],
    [0x2e370db23857de3689fc9b908bf45ad8f42da900fdb4cc94a7a416286555a7f5, 0x109bb6e5e04c0eb5297130c6524097470f3375c12fc9092d21ed33400617a0a5, 0x73f4a17d45ce4cb6f4db87d6f3f5f4f1650c618e403e1873ea3b8c4dc187cfb, 0x1a3bcd45a2b1dfb8e75686d3651cace13e1a22f5d838cb4a61b17417665eecf0, 0x27214751aa86fd2654ea05fd2611f0d907287433875a8b0c3eb4b22d24d73ab7, 0x1c5463d40460415dc684ef2415ba66628b17ab5f9fbc9597ba65b74892d34401, 0xf934ec1ecd7ad74de590817347658a22a783496bab9943ca1a3c604d4cb745e, 0xec2ad1eca0b260c4c6573f2f3b506e946d2a82aa5f9e65c2fc4bf65d310b1d1, 0x10403c6f930519af3177a82f2be1532e5758127ca9fc84c93c652279618acab6, 0x12cb8319683971740fa81660831ab6dbd3d93c7bcd441a912810d963582bf346, 0x2c7cbab33b6294f292ee0eb31d53daf2eb8494d96a81c0fdbd62ffc681e71302],
    [0x19e16c1b9123bbbf8fade03b4a36c5df8580f8de0163679b1815dc90ec581bf2, 0x2d2734fdaea6da570313df4a533c0049e44b72b64906ae9cdcb3c86708637a4, 0xfed7ce5d50ca2d33d1adfa990161fc780cdc30c5bf2d588184a190f686567c6, 0x2533b8b3df21fce8544a6e12fd4c3c1fa09d3e1f146ccfab52af1ea4d6ea361c, 0x254a9b0da17f1d13495dfaf68cde98e224f80697a0c31b89af097f3cb270f277, 0x52a196789e7e3c6a020a0d2f82c246a903ad7f8ce3cede8153db72ac41ce566, 0x21df9d899981e100541aafa28753e763a4c5a2af9845b0e9b7c4ed1e7beee2c5, 0x10e9254d95c04bf4988f6de51fb019c8a7c5a20168b6a59479355e880028c873, 0x1872d404afb8424952958f29d07b60d9f868d5f26a4d260f843373b706c3e850, 0x2f7fbbb32af67d88737201022b56a6df47d476dafa7b88784aa9ab73c57a6f9e, 0x27b5ad383fc085d2c2639e80629d7086e4030ae8e08ebb403860b4eb2b4ac487],
    [0x20a04ba73975ea1af86ea418e5b9fff424b93a3807ecc3aeccec77de9c1d5b1f, 0x4d2735db418968e804766f579f2a4abf79deeb66240fb29907b034db93472e6, 0x210ba11f3526101019b98aaf9492c04491eeda701ebac8c66c453503176fc0d5, 0x598c75413f3f84338c4ddf176e856f6ced73ccac8d5bc8fc6f12d5f306ec8ec, 0xf1a2d9fa8407e310c58af407bf730becd9192070d7aa4215379d1efd9e6d2ba, 0xbaf577ac2621cabdcf7ffed4073e27d1f711f9eb5a9739c12bd6df07a3cf257, 0x23ba3057e5d9f1429ec7848b893ab3b40161bdbc6387c958c5872b4491b366a, 0x1b6010fd6990d3e4928fdff736fa857bd517e35935e54a1d6cadd941eadb8408, 0x2943fdadb96607530cd9f1000db50da2fc5cb030b03985d1d3cb53dcd6937ae9, 0x9375b98fdd737f277a2ec26a56d374658f448c690fc8e376e0f1012e4da40fb, 0x1c124f9f3a2672361b19fabaf0f2e1158b313fa2374b72c370b4662bf96e8a26],
    [0x10e282b93792c2a893c54294446a63bb36a5b3565aad7504499fc22ebcc58836, 0x4bf8cd673199f41df6b67b76dc46cefb40971f0fdd5e1fa15ee1921ab5d8603, 0x1410cbdc261964a2ad500e3b6eaeaa50ea8b119ea11666f6558f9b3d5855acf7, 0x2b17833b6c99d8d44c68f1a662a47493daba582bc549c3cd8ce47d572ffc9137, 0x1ac55a0f9d9d4983292eb30427f1ca01b861f17809f2fd94d3d89b2f72627ec0, 0xa5efc41de76c914410e9147e5e67f89c7792b20285cd0d15a1c1891e91ac293, 0x1344b6db5439c46a22d144f4d5843e29c750b1acf7b0727106bfdb94cc023cf3, 0x1a041839e844cdaa0f7c2a61ca9259e860599258495fb00d6a75b5c503e71977, 0x2555c529d366e3d95899d9c4ad4c2d4ab284de4a45d6060ad91b8a8bc5fc24df, 0x137894d2c7ff06b141e601c9a95f5664119ca32b55dc5e1667ba62524954a724, 0x1f2ed1b26cfa389194477925f4dd3bcef79e89829c8c9645678343a13ab2f637]]
  cP := [0x2072b0c4af46fd5d200122be5c5011f1bff2d44ab5d440ad946db4ba11b52350, 0xcab3a8e77c43896efc4ab5bb12e3fd6d234a0dcb236c7c935c57a00338511ee, 0x400e867efb3a8887126f96ca884358e969f14ba81be4df7668652e15a581cb7, 0x594f14af7027250911a4b05478f659bab181ab426631fa4c369c361fef0e09d, 0x171345094adedc87f3840f78d3f3ed67cef3b6a6a269b97198e012abf0ebb722, 0x1fdbee4f85800afcffa10d76c25c01867b472d48da1296ecaab478190f81e242, 0x1a37c8b010fe5a7f299fcf41738c50f5a904cab582e411ac14828e0c18ba8753, 0x59cbe918d4cc5dcf2d3a31b3af2c2cc107b6cfb03b1be9a939a7f73c5075b8e, 0x2f0054d719e7f0d3991e52178a020d3b7820a7f2a075695df201a5e292831b33, 0xd3353ad739baccf5ca9a56840d99776b5a7fb60f9179dc15950c0639d18fb83, 0x507a8c3d3f5f3965e2e9fe62fe9e824691cb53afd7430b625153661da3e94df, 0x1eab1d2b44f79f50e2ba917a96b21934ebd43ef50caa5b21def5efd8c38d9174, 0xfff97abc5a6318b03b46ea4361c8d29fd8a5a4dad51286897e77c2aba9f25ed, 0x228907c146b4efa56af5b8f2e59beaa01741ab10f3287369efcd78e1b16ded07, 0x183a209d14af4a1a9db0c647ad826fb75aa67506d03a50e6e937e3a4dcc2d0ce, 0x17052b40860ecfd4bae684ae12271e93a32e1b703c3127d5d23558bd75496d2c, 0x3a61810b60e019e3a5fb53fb055f81600c8f269b3c97fc228b373bc6a5e564d, 0x296d0434d977a105b07f8e8d537a8381e885dcfe482c3ab773cf1c39b3bde3c9, 0xbfac73b8e7f9882bf69125684ae20c7184882d3763ce87911dbc3eaecfe86c4, 0x13900e213c48cdefe3e7090111aaf1c0873e21ba0f0b124daa1e9089677ea937, 0x19f5725d859bd99469369d8a5b029401d90a4c7cf37267b4700ddcee31f78bef, 0x10f8c20b30622bb769d902fec064d87fe8700497de4c3a32673414603f341f22, 0x1a5d44a9d6eb166727f3bad1e4c9e4f20dd9e5c09b8ff1685813e84875f7c267, 0x285812d1f7e9c5652ea549efde3426019405bb080408b01f51ff04af5ca4f7b9, 0x17b5d657ca524c4fdcb6421bbf15dceaaec891e7a730177865542a3ec67644b4, 0x1512120e54def6119fc731a80ebf8b9aa449a5e6a5654dcb16ee8781b55c40ef, 0xce6fd9ff326d991817ed66f0fed93298dc8116c05f09e2144830c07afa25700, 0x14c9e544ffe86f310c027522adca6e667dbf138a586e6fa425bf1f2b2114bf80, 0x2e8ba8e57fe1c4ea06a941cdd2242c414fcc9a1e645b7e137ce61fc4456dfa25, 0x1a1fb2e69ebf43dcb8ac7cf0e6856170be8c62ca1db0f77120d36aade9fae908, 0x599e10ddc716d701d5857e23dec1130b5509c3913fffc727ce207783a2acca0, 0x2908ace556ff1f368f843e0842ccd0dfaa42a34faf67e0b78de6c47de2b6a036, 0x1e80d381cfe184b2f11fe38d64454a6292eff23f524d6fafae34ce150d1b8405, 0x32c3b2a8872c39fb3edc92ef95e76fdb6381f829fbfcddef26004da5b5d720e, 0xf058306e4f397b7b02a58ddae87d5165f21bb6109be64cd3175097f63d0d402, 0x2a978242c551fa8626d0def5ee59675998dd8ff90eeafa7d935b58b8a2d0d1fc, 0x2c646cf8d9ed14746f8a2a438cdfc86b70fa1c31033d4afd8694a7363d1ca0b1, 0x1cc7d59c756a8e93071f95f1eb8a5cbc2aeea366715432873be8f94e3f9c8733, 0xd09d0e6b64757bdfd7128d041c430b0d21a80a3792d0674f0028872c14fd8eb, 0xc28d39d145cb8b6afe18576403080ed19451473b578949a491a095b6a19d082, 0x22a2a85f132915aa09898077bcbd76e572e4340d8085708eefaabecc37ceca1d, 0x1ad68c4e148a6c6197fdd9fa2c45f8c6f3111ddac52db08bd2ae77860e203a6d, 0x19b59a4eb2398896e27a0e670529fbf4b72c3953a82c2bba9541a52186cf7477, 0x1e3aeed61e3a7bc6dbf7674f8002a59ee28d3d5d51abbeb5d850dbb3af50559d, 0x237d14fe10cc10d41cf7b9545c5dacd245207725227ee5d5578a3cd163c4c161, 0x7a561b03c03a856f5d7b15e895448401a8a4ddf1de311b51663640c81cf44c0, 0x20e3c12021f53fc206893985647a3ddd64fb1660257a4b9d7d33fba8be729a1a, 0x11cfdd5386f9ddf36e9e1a271c0a8565e03aa7e427c624c5050dbeab40b10b65, 0x97b90f7016668c55385a0f101b699d0c924d1556918eb58c9d9a16c7815b3cc, 0x23dd4f8205e9cb9e123e27e80f46b8ebfb4554df41528acdbca14166af70a8b1, 0x2004cf48392d1d3492069d0b20c5ea636c7de4704668bae0400f32d0678b5f90, 0x10efba7ebb220de9af4af5b3d2cf4e3a463d6f61b3a51b190b392897922b15ae, 0x26ca8fa32860470e9ba95f2b328f45b6d3aea8c6694f52f7b2b6139b31f0e659, 0x2e7a6096889e932c3bbdc1234b042946ca8dbc3bd9d42894e227abe994b3954c, 0x2b2a5b222000c7485717e5134d31d966d01094d20142ce0be0ed5bcd238fa4fc, 0x5d252566db243c26ceed95719ff4e6b2db926a82a90af66c3913457724d688b, 0x3016d7a342ccaefff833834f8c85e4cdde502f4cfd2e5e67a434ceea8e7e8734, 0x22e4a5742720cc545f5a8b5ec81fc76c856674c2956c74e93d09da15b9ea85da, 0x158c039583d91471651b425b67a9c428746b7d2ff4d3f9c7805cd097252882b0, 0x2e2b9193aee7573ba18105d36d5452636f0a4a23f6bb808dd7b8351b3104288c, 0x15288eeec077977863bbecc27af0e88653434f9db50041bc64cae3a4ab0267d6, 0x294ac3d23fadc39ffde4fc51c231fcb1e9043d207384a51281ec6993806fcbc3, 0xc994f0154a6042df030cfcb8775ea9baf8790d101fb004f7921bdefee4dd, 0x23be197c83df334c3818a4eb54f3755fba5ad61c6ca408d6fcaee753a2e449e2, 0xabe4f60f5710062df7838a25e613eec5c7c500292cfcdd88c4b104f92e66dcf, 0x22d9eea2ce981be68d03a627a1ac38ae17393b42fd589e8492df86bd03f69ba5]
  cL := [
    [0x17fd7f4e675f456e77902bd68da43d7a0cc8ba75075bdec73800b670faef2c81, 0x3cbf13917d8f6962b85bd9b1b475e083a9a6503290264d732bc7045eb4c0e7a, 0x13e3842e78b6be3414c29bd5528593673bcf7a071c9e547d4a6a8e8c1f29f43c, 0x2638bcc34e7ec977e6205a356d8073edaeb37d6d0cb2ee15ccc657e00884f71, 0x1824a36f9b33cd88b29d9d56794c02f0498c8c3520cfeb8d7d23df01dd11bcb8, 0x2f64d3e9e9660efd747a28a181719770cb89acc868f1db0b42a0d41424d5b97c, 0x27e976b95c1db0a431cc63d2bcb77b7420eab7240caafbd4f6ed94b771d7ee20, 0x71017cf059038a6f1ad9223c843e6f687774a7b677edb7d7dd6d4d8aaddff, 0x263e1eb69b7b2c87f3d9f4d492100367041a00cc20091402d6bf495d74deeba5, 0x1dbd8f7a790ee4fb6123d8162e879b6d334e137c224da75baf9b00dbd5b14a27, 0x1df0f444008cdfef43484dc04f5fdd1694d6c90e8f2e35a1850831879d9d7a2b],
    [0x2ac29049462ba770408914036f0fc449f4ac15c4a5c16768e95e2486c62da8b9, 0xafee4216cde441ab47db90ffdadb12b08978ac6f623f3acde4d4f9d8c77f3a8, 0x1f5df5e1d3372dcbc83d7072bfbf2ba8914024e3398ebbc3461403d39a1e9895, 0x11c09f4be4433544bb604db662a722bb16824fd85c484c45bf25dfa5ea9732e, 0x111ea5feb756eb07f942b5fb23849db24d1065b278b4643d55311c0672cff942, 0xab7c194763587f1dc30e0ed53aeb6eeb6036acd702bbec9509d649a81f940bf, 0x282c5951f988191603f9dd07759a4f653f19976943d20e30d4c0f8faba0daa05, 0x23b82721a7cdaac2a39f7b4bd10176e50983f32cfda8bab88ea746ebd4d25ee5, 0xbafc22c31e735870dfad91a56a46ebbad29b29e531649c85bf79c8dc91c792a, 0x24710e9cd9f6f42f71cc8815934ce87ca0d677facf1f3d89a9abc2da898f9687, 0x2475ccab50e2c13fb5d772a07571e0e6be551a55e250e44f22adf1c7a4d7ede8],
    [0x17326fde68e193e4a31782f2acecd7a468493aa94d63833575ae5184e9ba2441, 0x1d044be025c79f610d4009ee0a3f3b50dc556e785718d196e67c60fcda498459, 0xbc38517b0bedb66a044e38b1c199d110fa36adfa1251d46e635f22ce8fb3b61, 0x218a7ed7b5b4e39d21cbd4ecdf0d4f31308cc205583a9ef6d91ed6969b45c27, 0x70989c23efe1c0d6089f9bf987be86854b4bf5aa88b37dda3b4fbdddb068f36, 0x11f0a1f2d5894630701027346163a4c6974023d321780e91c8df5e91ea930c7b, 0x9070202bd144c45ab704c72dcc40a5566cbfd5826f7af4746b4472b1e68c390, 0x243392fe4cd6ca6b6747596c387450ce6a1ae7b0a90eba222c3470d8a80138f7, 0x1a94265093ab44062e5d0e67df9f4b702df8de8dfadcac6cb4229681117a5da9, 0x1ab31ce49e37f690baf9ec7b1443357cd24d7bad16a9e6e95e43b6564d987b1c, 0x2179ceef0feee3b0b03c9658e97b6342f25b208d7ed8e526150fc3b559128c5f]]
  m := [
    [0x26dba58ade8cda188f49e52fce7167b8f219dbd924d7786b0f98fb799fefa2e, 0x9813c803ff84a3694eedaf4b1c2172615275dc18ca654c799a70440946ccf0, 0x202973f7fba5bd21ed58bfe7156d7b29010d41090f63f1bb290c1d5da1ad60, 0x12305eadf64dac24a7913a62d95aefd45f48355576c671e56fde9cc7c8344ffd, 0x25c783ad66d6a1fc6c84770bd637f6207097dffb0378d7e0395f8c0b86b505f9, 0x222deb606f13cf28c73a67216d88b16f5958d5d292ba10ef3bc2c10f5a0b613f, 0x1614d025472771fd870a9e9d422b3571c5494e7d679824d8fe1212177d5fa2ec, 0x1358bdd6b7a51b1f5b5d094dbd8ee086ccdcfb9c27faad0806e8ef718d0e2b1, 0x1c2007eba4d1629846bb69404acc84565de5d24620f75cfcd9f11feeeb3f3748, 0x22f49d7244077e41f409c0b353afd1696e3aa15ffdb4a0bdb883ffe7a1a87217, 0x1951523a4270c54403dfe3218fd3d4ccefa43114f1b19fb2c2821a4374718b9d],
    [0x11a131a3778c3774233bc54096419d463d3abbae18322a7e77a511881665f93, 0x1495af03dc9180c886f0e1bdaf9d18e32e6b0d1b80370e7cbe5745dafc433523, 0x119344c53707f00243983c6d024fd49a0f8af80e5871933e58ff87c3a1f48b93, 0xa92bd6a919d1605615786f2efe80743ca57c10ec80cfb926722b5bed408b79, 0x1c7d3a92caa435cdd974520bb6fb6cac81634cc9bf4e534df77736e06d768c3c, 0x12fb88a0f6f749d68da9250d5adecf088442827248d67f989fd14b5c9cd4d4c7, 0x2f6c4e097bb5851be12bbe2c712c2fa906f310b78048d695b4aad301ffc0d268, 0x1c06c782fbc0980b9e493b29a5e4a04aefc668cd4255d6cfe208e9e7c8b9a1c4, 0x211865b7f9c1c791a33d703ad3280f69756324349afc8912a19b83de2cd06a0c, 0x25542e07c1c13979bb14f8d4ee93dab7a3dc750806cf37f2c02ff53b4bb9e66d, 0x12b5a09e1e95e0d01fbcd234fad473d8ee2ba976fa22827ffa6dd03c8b25a64f],
    [0x2a18ab4dc4777e13cb8358c1c423153570d1cb909544243abdacd4547c8ec3aa, 0xd95e8cf8a66b56c32e7d11e0107e41e1297122d1acc41332f1b49895a3c97fc, 0x7c22f96f2f55653d04edc63150567a7a04609b0b79eecfacb1485dceb7bc873, 0xf716c54de41920c401a62df8f9186e19b9523e98637a5b113d61ccc30ba0213, 0x2cd68fc31b67dc45fb6b16f42b5eb89dba2ae7e9aa50c5f1915275a81887190a, 0x66292e64e6a2c64673aed365cb50f7bd4e1d3b5270f6b2e9982590c3f8400e, 0x8a1ef65f52128eb3b22df2b6aca30509b0af8af2f7888eee766c0c24871188b, 0x24529638ebcdf26de8816287fec6370614e112e10c039190c103a75ced11b426, 0x12e4b5408f48641951739ea27e521067240b82aa51a42de2d4dc1e8225908187, 0x84b88b1ce4598b701cf96a3379a02a3157d4193c8a8f1157459f6a34ec32fb, 0x2c184e904d7bfd368d4495b9e3027f9af6b9313c8f193f929ac9e24d10d7a36f],
    [0x16ebd782cbcf6d63c38b87b27db2a4a5af5847a9a60889c4cf6aa318d6866b1e, 0xb05f16108c4616a973b01d82e50d4fc9dcdcce67d2d21f852816bd234e9872b, 0x2f394cfd3e442503c3a22512aa4b76b95b743c7076ca4115a9fbbb7c6b07ee5d, 0xa157e244f939125d57f9c8e66f7d88ec0fb3c05b90f526bac0871bca84677f5, 0x1d4567c12db648d4a9c41324c0329325b76a07730fad72ef9e490a748674985c, 0xa94a2d7c4093c638823b095733f37176d7e747ba24645b515ac2a241ffdda81, 0x2f6f14502f20d958a9ff23b696cac3ae24967517ae8b2e9592daf451840bb98e, 0x12641cc3cf50ca67bc93bc8c19ed89d4613e9e281a51cdf313cbc8111922242c, 0x2185c7a4ad8cb21f19009396f134a2c3fd614d305e475ddd19f26f6d4b3f9ce, 0x2f6da385450911cd272e13601e7ce66c2b91d809307492f7ee578ae34d6f5fb4, 0x16fc48e55d64d83010ad573377ea2422397fc3a7e6c88af808a566de0223f0c0],
    [0x2b7ed47fac275d34f842f09b01ef9421014de040c26a591595b227ba7bc6fb2, 0x230b62315b30bc49d73dff8a9de79c620e03c747b14c432f170715e588d605aa, 0x206351750037bdc90d4f3e7918619fc690c2b5857f8bfbd86d7c001e4cf2ca18, 0x2218be861d524eaf03b9420b1368e9c5aa7cefee72d0e6ef80732ee9d7e6e2c0, 0x69ee4eb20b4860d4af91afe1781338f53aa354562ecd873e0e625af70746f26, 0xa226128da1d9bd5b329f55f52c75682def3369ab13359dcb7d212eefca86229, 0x17ceb42a19de6dd32e3b38cc2990e64273b52a5618263eebfa49d84518ea3bef, 0x29012deffb112eb14034159c59162f866d4a1803b4d192a4329359f0f903266f, 0x9c4b2f61adf245266168cc918e96f7f8dfc35bd3df7b23fc641ef01bcc71cce, 0x1802b97e54bf3a8978632cbe10e429705b03680325d26ea190c0f1ebc7362ea3, 0x2db1ac4c2b1c23a00027fdcf0f663af896d87415bb035b149d28ad3da98c6fcc],
    [0xc5e49e319fb9535073f07f9e055accaf3e3f24a35dcb46cab67dfc648efaf30, 0x15d217a31784741048f326e155af96e90b5aae734f06779e698864039c92e123, 0x1accea09c2bfd17f4061725c712fd1976a07e773e54d906da166215201a58136, 0x2f9bd19d0c8c3887a7fc0173f863f075e66b183ad89f13704930416e1d5cb7ec, 0x6cad0c2bd438c4dba2ed64bbf75066e731484c36d1f6738b6e98601e9fb498d, 0x1b5da83966361586e8810fed032435caa80a9b476db21290474ed1977fcef22f, 0x2adbde5c7b73e9a7e22b913f99e40d95e689c65c428c2397cd273923cf68ddbd, 0x1a8b8ad1ecb6cb888273a90bef8b1a2cfc03dd44e0b28b18e1074e404a9e0f4c, 0x281eca14bbc3920919e001150451c3e44ff18e1dd1171412ff5e663d74a073c1, 0x54cc81c7d1d59581ebcd26b16ccbdcbf1968d77f87a2081d13054f51118f7c, 0x170c05a5f8a55d5c9fdc5e8238b367be358917a19a28b4c47e46f3e73d42a085],
    [0x161e4ae5b2d24cd638ba5c32bc2317bf90d404e37e003f1055d9a96e406d30d, 0xaf9afbecae1761cc17d44b51ca66d1dbdeaf341e85f1082958f9cb72f7b55d4, 0x5e52c0ff8c04a8e5e3c7eafa1d0902fe63e35898934b00f4333b38fe614f913, 0x14eb401c1084a9ddcd5d0092e5d1a299aa0f55c351545c781703c01ce87d6b29, 0x1e0e166d734aa614c6b53db4f691179841a33f8105430a3ee70abca83ba6ec6e, 0x2fa75deed281db734faba5b70eaf57962f93e2eea1d3dcee34c81ab1e9fcc0ee, 0x14bfe33115df293670393e1dc8da4d6947acc4b60249e5b1c8cae376665cd580, 0x17ea198f3ab261da000152f26b0eb0ebe088a709e8b06a18a3dc2108c2096864, 0x533e8a454b8cd6df8d48fa9b0a9cb2952933e1a6b1d423cbc54d0533a72599b, 0x19681b4242d11e28aa72530cf33a7d15719f1a888fff625e04652c77ee2b2de3, 0x1eb7f6e5520215c15e274355b19bbf71abbf04aa426cd07da536cb3f909f6e57],
    [0x223c7fc6d24fc53d1b428edb8f1c52d20ceec592187d2c7a6b0b147b6292b81e, 0x1da4f4e3c6790ae1b89c4118861d8ca2a50cc82a4e7f1ed3c5ba8cb944ba4689, 0x2e708baaf894bc5835e5fea81227fa8cfaef99086d12b0a3a7f3f85bbca61d28, 0x13fe23be24261ba5b92d363989f58e17fceed4a858d1c61fc2cf2b71dbdb6936, 0x1c879c9428e19607d647f5ef1415e76f7c59fd01e52afb80486081851f9a5284, 0x128cb3150b15cbc4faab14bf7d676ef3682b52cabfc8d3419dfd98109d19ecc0, 0x2bf523cd8aa3be20ce7d891f8727a7b24b72a4d4838484de842acc782fd8bd32, 0x45aaa99ce1e06a3c02150804a91087f57a43b79797773e83216ca969e873380, 0x284ccf70859547fcb9c3c7b64cf0ad62e51726ec81b58eb01c1a1f8ec7a9eb70, 0x1abfe4b1cf5db29d4078e5289bb143498abbbdc9af56720470a26a3dfa2ba855, 0x14111a74bd24730c833699eb41b38f1d4ed16fcf0fecc1655b76f2437d4a0c9a],
    [0x1ae060e39b338d09845e2e9ebeb70bfb74cd4af926217f5732be2b6cb7fe72a6, 0x2860aa52dc2f967c0c1a0b942ac81e02189d031430c11a919a5aa895bcfb6151, 0xac23f00ff015baab1c8be9a90943c3c72d17818be7ad427c45eb3ff1828727d, 0x32fa2f166622f057f61a9405c9256223cab2ba82c9495607921755ab018f690, 0x215c0cd4e3f1bdb482b93e571879d7931be90023d7a220e8f93b21c8add41ffa, 0x52700b19ef6d42ea392e044a094cbfc308eea1f72f2a3428b1e721bfc32c6ad, 0x33b93a5cf15ffbafa2726f2527824a11af8e42e01d3a7ee159b273ca0a6520c, 0x254e3acdbc75ac592679b032b65a9c91d2e092ab5e5719551b5da635b13e9471, 0x4fa5620a2c057dc552a59fdefe50a901068190fdc3df8761991cab50a01a449, 0x1d2279673f6cabf0a1c4b8eebf8e9c78361680b2e59d7ec19348819f5b3d5a14, 0x2d46b48e5090c0c56a390de373f4c9a2008db311fe31063cf4fed54629113585],
    [0x46191ab41e93929ea51f190fd4e773ac8d5083328d4b2f04828dca3e69098c3, 0x16ff33d67c85121bcee7d81cff1618927f1c92b4d1d21c2a07b6ae18b2b7b9b7, 0x2134798f4ca7fb9928012c937f37de87432b8665aeedf373e7ffa6fe0c13d00, 0x2aeddbfa245756ad1e1658629f747b8da7593b195cc950324f95edc9eda42aaf, 0x1f41fc67ca1322b37b7aa01b631fd19105281f6c6a4d37fbf68fc1b5f62802c6, 0x22d1e64d4ee15e60c459d851ef9f3495e937f5a90990382c97867c45b7940071, 0x249f416fae5ab52a435d65201006dd8ae8d54266e4d5643307551902423f7cc6, 0x12a996abc8577021ac7880c16f058d9e06e9511187f0aadff6bb640e4316d26c, 0x2d2640a74ede9af6c9888e5f68a84fac92b13337dad8fc6152fab34b55419908, 0xf246d2fbb4e1217f09631fbc8770827c36751e6ad8d6fb16810e3395143ad80, 0x15f30ebdfb8b8ee644241039a26b408dc7a8de77f2cc6fed754b703ea92dde53],
    [0x14ba1b5383e3733c63d00c32c2bbffd8e54507ed33bf7544c86388191eca3e40, 0x1ba0e835f47626b0d82426900c49170a8be29c39d90337aa5fc10764e2321a1b, 0x219f5e28a5fa52689d2b7be432624280c940c9bf9883c1fb0fe929f78873c1b, 0x123a6055681023b16570c70fcdf3ae8e387a973690b9e6761be22f9941d7ef76, 0x1dce36062af7e4b0098f5590622ced7af9f28e88d476cde1391eb30408d5d266, 0x252e74746677fd7584ceb0f8aa6936bd04f9528ef600737e9913fe4b5698eb28, 0x19a9079a9897a237074252767912bed7b7635ae8ca0ede2dd3a42a75c1c6b81a, 0x777edef4d91520fcd490a22dc569a97e540a0fdb527b4b1a3a854fe346b8e7f, 0x121a3764269fd35cdf1e621c3dc6318f47b862380ba00357849d8840059463ee, 0x2f80ca151b077b50767281ea5d4c1f7457f8da444dda16d8149bb6c1061ed0aa, 0x1ee950c45a0c2f4a4b64688a7935ed2b63d4fe5b414afa05c1a284674409f165]]
  p := [
    [0x26dba58ade8cda188f49e52fce7167b8f219dbd924d7786b0f98fb799fefa2e, 0x254a28279a58c838f7392034aa21d51ae44e1449433d90824b817e44b90cd22b, 0x281d2ccd521bc060d152223d46196f27b048f33ce6ffbbbb0884f3d5c64a6061, 0x10b388ce0c7860c8a70c4e903e61b3bf97b87e324c9150ce576aade8b2d06a1d, 0x3ed1d46b39ed65512e3e4c8d53cc1d2cf110cc65e1d65b37f1e5e785a6fe6e0, 0xbbac4700573f9573a123ac6a2735b63c48df92a7c91cfd1e88186a061a102d6, 0x4083e23f948783c32f671cad0395794a2cfa8aa1c1cb6a0c0105590904b2593, 0x1fa80347e1bb24e08599758c895a5a13fbc63df14dd9063f5ee23e5cac163b61, 0x1e465c7a4b123984937605aa07cb8cb830591e22e25b4d94d2efef2f25c17f3e, 0x125febe3a720ed956f1fdf75648260e56e67d32d0e785788d1cf97ef61f6ff69, 0xa3e7d3671a213b3184ac44ea74e12085cf5380c688ad23e8300e69333c123a7],
    [0x11a131a3778c3774233bc54096419d463d3abbae18322a7e77a511881665f93, 0x11f3eefe7629e655ea90af7061b775bdffbf26dfcb0f67a5578774e4b237376d, 0x11f896a08f039c3fe481a03e0b8c880edbf71b783d169f4bff14bed5e1b5f15, 0x127270ce679a10a9b93645264ed270d96f109e3f65a437240d629e59eff1b2cd, 0xe81abedbcf77d0706b6a4a7438b5a9c42257b1233f0426225c8d410de5806f5, 0x1bd40e4b13c0eb7bac78d2650586a59f28b7ee26be01fa2a677e734078bdc210, 0x22202ee3e2df678269ac3833b87fd279d1d045fc42eb3ae75107188ad0e39bc5, 0x196301b7681fd2882ee086f61a83db475a030017f92f72dcf3ebeaedbc571520, 0xcb517d9337709a54dd958c64afc6c8ad84fca2f59fe3098f74a7537debe0d2e, 0xd9be42ce8bb76bd249d36ba2d8c5a70b52d20c9c8686b7cfe346d5c72bdc15a, 0x2240e2f64b6f5bacdb2d6aa0b444887a91d1ce0eb1bbcbdd58ea71499b7a85d5],
    [0x2a18ab4dc4777e13cb8358c1c423153570d1cb909544243abdacd4547c8ec3aa, 0x1f19f9b9169b49713bfbe59154cd93aac19d03b4668733473fefac6eceaf9a63, 0x1e6425bea9db8ee466777ec75d3103cd11ad6ed24283a0b188b5aade7d496cd4, 0x22e2d64bc44841b96bb9286970439150d70c55f8d65fa79f1a4ab34befdf3c15, 0x22ea712a97059dfd8af604c752e478b8d883333e6749b2ace5385f0ba8697f67, 0xc19fc53d6d946af3d7fb79d8f22c46df2e1b0d0f2cfc983345db3287c44853e, 0x177800e892cde6dcf66dcb1c337b6f7f6f6cdb54dbe7e2e2776abbfda1fc67af, 0x133f706a099e95021e46b79e7f0fffdb210d87a4db1d129bd6fa5f62113cee23, 0x2c540ac453bc95fb61ad879a56126d5fec7ed9300d545938bcd80c2feee7a3e7, 0x2575061c9a069654a195fe41554ac0f4080dc8f7e808d676f3f33c615978d593, 0x283d7487aa3b5d0ede9c741fe754882776708f9bf68c745abdd38250ce70c288],
    [0x16ebd782cbcf6d63c38b87b27db2a4a5af5847a9a60889c4cf6aa318d6866b1e, 0x15b3fe328216827e93598e15425979e9dc4d9b9ab421f25aee3e49bc6067d6bc, 0x11cb96a094be409eca05bc42f6d8ad0f6cf09cef2b286fe5945d587cc36862ea, 0x1e5c6cea55983c991761cf70ca77fc17c3789a8023d2752554b49d0b8fd1be7f, 0x257d458a2883c760b295e5b2789e6a942b8d50fa6fd3eb093a96ab81a9aa693d, 0x4603c35c98c1e379b235724bb309885e9b56284a6cdb1cd0d3953270109bed7, 0x1b2957f0c085f578b4a1b58a21143c551e5451ec46b9fbf6ffdd0cf6e586a00a, 0x17bbaa8b0ea832469bf933ec6ee5941a1bf97f0b7b1f6b0ce3f708d43795365, 0xca0c774b1bd1c2b00fe8f6698cb08022e4a3fcecf13d79953485c905b76f8a7, 0x1b0265724a00dfdba001c87dcd71e5c04736a61821b19f30e02a4b53eb59a12c, 0x29ddc736b1d7fdce1bf6a2f684702703e857b3be81599e485932a1c03f4fa16d],
    [0x2b7ed47fac275d34f842f09b01ef9421014de040c26a591595b227ba7bc6fb2, 0x15a1af15f1f7a77a5e6e760470e7b7cc4da48f3fd35b1b01f019384381e37135, 0x15810baa26cba809c29275debafe2859cf2350199af232bf920496c5315947a1, 0xa1c89983188b5230102c213ce35a9fa49743c5490356fa305a8578c716f7202, 0x2a9243c6a61b2b7464f22e1603009e6b6f7946f31cb71cfd4d291601458ec39e, 0x14b216d879b61949c8bb2ff6d43bc7fc3c634a90b766f2276b0a5c6b09938cb2, 0x2b2b79db9b5bdc6a1844c4e5c7f33806d44ad8644fa0117f5bbfd7183754bafc, 0x20f56843ab66f86615274f77030d662e1f6cec212015e14896139ff6d28116d5, 0xf2a31d4612576ccc0cb003c57ad2db723008007b066054d114a9ae32d8e604e, 0x1a265ab962a3796d2cb4ee2980ff3bcfa03e8d6738d59c8cfb899cb771f9a61f, 0x5f7ca424f02338e81927a8928c0f02fc78eb1d1a08c3bfb8965cc7b43d8e056],
    [0xc5e49e319fb9535073f07f9e055accaf3e3f24a35dcb46cab67dfc648efaf30, 0x1d22b55a0b71329ee03adbd79c0a1e7d32efc4d765e6e581ecb349e2940f394b, 0x825a6da8cf0213b181fba494995ef1fedf1d867f8c777ddb93d10b64f1f3bac, 0x189642d90074b6ef89e102eefefd69d4d69e106cc6d77281b971315feca3f6c4, 0x1976bffe10562085862cc586a3cbff8d260055e1ca382a74332328c0eacecaf6, 0x25195d63f3bc30c2896cafcbcca1f5b73ef4b74929359594e4421c7c9a1c8f8d, 0x1f523a01526f1b783c2e3760a4e7e9ccf8ade4e32b56002d15baee4eb794465a, 0x17cb6777e65329e7c510142a85cf3781ba33de3ceb98a4ba021d783d212e7492, 0x1308c2b9ba44163ab7190c4c151c7f44f2e19eb186dc82a2443446972d667ec2, 0x3006fd98ea0d9db2b33144f885e201534edcf4c3ba6e96d8a22db2bcfe8ced48, 0x14f241ecdcca69b025108efd0fbf00ed34448e7bd804d5e85a835619791468a4],
    [0x161e4ae5b2d24cd638ba5c32bc2317bf90d404e37e003f1055d9a96e406d30d, 0x2b04ed9f42228f06802c0b537dd014217f3c444670a0c6f88b3b5ce001b0197b, 0xda48eb83004661d01df489e8156b75d9b661c61a9ee1329fad03ef74521def7, 0x1ba1cb5df0f9b236e9f7c4f637dd1e70784a2b07f8e062088b72c3a392d44b2d, 0x2c22be8e5b7f7c91490c46c27a09e91872e361c1e6628793b9674569ab3c0b1f, 0x83511f996c9f415dbe56786f78ec97fd8c84f5d4ffbda454b3c4d5901ec92a6, 0xc3e13ba070756735522097a41a9138f5a44cb5856648daf70bca100d2346b1a, 0xb14339306b1b2e3114e50b0607215d3f92ba684690d78d2a6ee417a73933c65, 0x25c2045be7d9a915562c78bc1ea2d954155a0289f900c757b7138596edd9db6b, 0x1b909b20dd52d51184b58d123962b7fb22cbe54881117270d279402c4056dc39, 0x1afef8497500f3d89345974c67a21f1e18fa930f7d78a1ca691bde258c5e2c7e],
    [0x223c7fc6d24fc53d1b428edb8f1c52d20ceec592187d2c7a6b0b147b6292b81e, 0x8bd608629b132b0d741a305ba0002b9ec1470499f5c0ae88e26f269ef00320f, 0x238b46140eeecb9a32c7289626b692dce13cd51bc3812f1b0d866945c0e08e41, 0xa5ca2631a8379a163fd40936e6913afa60c1850b9e04b622f2b6e109d179ecf, 0x1656737ceb63a2d43d462ffd902804d11283820356001961f1239a1e7cd23108, 0x168df74339cc5c612553d91ce34b44f60123aa40e8486e3177cef84844529bfe, 0x1d1cea63939b21940f784f77c0f79ed523beb6df5432911930878b59f92c7f63, 0xa2768ee0edf0b7e5e69a734e4de8129136b926e5ad1891e6cf57a5c39a14da6, 0x22c57e5689822b5d931e748dec46c5e64c04067f579d96b89b608ab5eb5a1e38, 0x1d4ee90cc3cedbb9973609382c57bbb1b7629fc5398ba62e2f8f7a9c55496ca6, 0xf9c70d6ee5ba237f04597a71278dba03151a3efcc594cfe61ddf16b5cf1722c],
    [0x1ae060e39b338d09845e2e9ebeb70bfb74cd4af926217f5732be2b6cb7fe72a6, 0x81e512179c27b63294fdc958ac35b91ca61cb3fcdbe4e661ce465eb3b060adb, 0x64bd952087ea3f724ecaab7ab891c7164148247b3d9534508559f290ab2c455, 0xf48a6aba18109eb41509d160d2b6e2bb75b73f2d360b142e2253e99285a613d, 0x2144765053902fbc1577578eccf3fc1990cffbc464b8d5955e387653e427eca0, 0x149178f36e2a8348229d4e5f829a53620864b7f8c3829adb1ce2f4f8f6198a95, 0x9e651e10ec1fe98ba2bd23aa05696c4bc5acd233717b7069069a206301f7e16, 0x2f995fb2fe9a457e970030416b7811a93b31b3f2ed7c7300034cf958575b3ef, 0x98eccc1107806d905139f5aad87c4dfe9ff0d1eecc1de30e8c6a4cea8c51dcf, 0x1720f40d61fac0f66408099bb1e34e3a48b29ad05b8910a7bc257e01de20dbe5, 0x18fce50e6f51644e0968c44adeda32e68bc24c25e81ec37ce5e8771383cb76e6],
    [0x46191ab41e93929ea51f190fd4e773ac8d5083328d4b2f04828dca3e69098c3, 0x662f21223a41d37668404a75b278b868ab602e313e8c423798b47c47f1f56ab, 0xebaf002ad31782757a58dca1b295b2e0ec0ff3115a8c931ebf74fddcfb734cd, 0x1e1567bb8636626357515a40b0d5ebeb351422e19acc9bb5b7edfda91649841c, 0xfdceb3ae2d8a55f07822d7b92026ef83ee8bc326e3a8b35225d587bdde25205, 0x130e0c983de0ad6d15d8770698e39fa4569f38848ee05757951cfefa1f338fd, 0x2f7be21619fd5f7c05e31d90607acc55e36fcb5b6c55f970170e660f2d818fed, 0x5338e9847d4e29692f22f938875dcc5610464d7393c6d87dd799bb3bbf810da, 0xdc0a5c9bf0d5b38785df58fb22ede06709eac85f230639056bbf1333b9a2d21, 0x10ce79d030bc12a43f0b6fff0d884c15c263113b3a6ce3b24318f0a60164f6a7, 0x232926077aaf9a6e42e885290c6ad736f29cedc9b0ed5c5a0530e405d57756b3],
    [0x14ba1b5383e3733c63d00c32c2bbffd8e54507ed33bf7544c86388191eca3e40, 0xdeb781e30eced913c20323aa3f86be585d4cce7f556abd2c2a0815bde87b775, 0xa877d868ac293ccec0f559d48e3dced60c81fef80ddffc8f70905664b3bc0f, 0x1d635d1267a513c78be7288e584254f53012b3f7955147ec7153532760c6c9d5, 0x120a95649ccf899fc3a8048ec4adb59a84d3ff5c292328f6cf32ee0c14d8227a, 0xbcf6e6daea072a539fa1030a61bd0c6f425e9982286ee468ae2ab7bf1b8d114, 0x1c4a6464c867d43eb5fdce8a731867e1b9730ab208fbe77bc9ca7ca010a74192, 0x562e63099a7630323f701d2fa312c654a891e682a7e0925429c0321f6155621, 0x1bb2aca445944760eb02e57360e6d3fae93056dc357ff0dd8882d08983be3325, 0x210f17a9d928eb4f42cc8dbf8d6a7865ab53bd038180c9a1c9a506a2dbb0602a, 0x277425a5970de392ade13f6ee3752600050830d3bbea3566438924ad5159df4a]]
  s := [
    [0x26dba58ade8cda188f49e52fce7167b8f219dbd924d7786b0f98fb799fefa2e, 0x239bbee0bd0536587314f5429186856d92bf093cb902a7513b11373dbcbf7134, 0xac0bca8c1a15d53ce77475eaa398fc316f791caa305403407056f9b14f47f64, 0x11ad8281442fceb40a4c536b728ee79730be6407d603333ba18ef5b7492cdd13, 0x2927ae7db23955f84264264e7dc4f4015b070620841d9035f54c501d0d4975b1, 0xd9455f3c59c9ea9302e721c00003feb40ec8231463b84c2d66c403cb9110dd2, 0x14d50f175c19900cae3eac1f457e2e02218929f5c6548a6e601f3038240df458, 0x237b9200970d84323901b9d7a12626a3d828affd132d9ac43ae01d5ac3cf618c, 0x19d66d04ca7851e0cbaccbe73156524606cba6bd174d94bb79d3fd99da05a2e, 0x2ca5d1e4cd8007c2a6e745ce9d3581c2661d28ebcf7b723bfafdea4a97004061, 0xd54ce53ed8160546c3555b48c6dc1a95bfc11a529d863ef3d6d63f3799fd407, 0x2c21c6df9e87d0942740cfed6b692c5e4868b781085a292f505a9f53e2969b94, 0x6351ae4eccfe35f6fa2f0e50faf512ebf3bdc02a9b61fc2baad2e18c4c7e128, 0x1c86e871f69f568ec2e47ce015f7b324c6833ab9fbfa2013173857efc040f95b, 0x2175813936c314627ae23d64f217d0725097891f1b1cefeae407bbcddeee09b8, 0x2ec44113a689ea96c746225258ebf92460b065c25e979e5bffbf0f8590315eaa, 0x2facae956086465c460b678df8d1a10bc8256e85fe5a3dba26ba637f3d4eeb94, 0x1865d5f9b9b920317a5751591a3275d233aff5b7f6e6ca7c0f6b2e3f1ea0184a, 0x412169c5bd61a200567219a93b8df6b4391fe1da096b22755680536a2173411, 0xbef9d4f49681702d6176c94ef8563f7d1cd1556ef5adf986cd9dd6402456513, 0x10c7e674a66fb25905751a9f355309c0a6b4a622b7c3b29e93c61f64d95d881b],
    [0x26dba58ade8cda188f49e52fce7167b8f219dbd924d7786b0f98fb799fefa2e, 0x1934288830ec4d6ef05046f36c7e664fc0790fe76e390dae265502624f3e6764, 0x21fe8f4f8f4fa08615bad7638ab88a92cf8f0a6f9e3e695f3458a459fabf9a8d, 0x4e0a4f483d51dd00d1062226b3266d95da5866968c6abdb721d96f8f7e2bb1a, 0x2d3806f1ea209c26c7b3fa95f40e8d213829e28811223aeffe523cddb5246ea1, 0x5f7a9f8fbc8104008bcca318850c76b19c624671782c0104a04b1b03c16d792, 0x1c429b4f17c25e0c73fca45ee8f69e5afff9bbc21b4648ec497276a7366568c0, 0x2a5f492892b38ae10a0615eec76d2f514c9f3251000383d1d1e13a90a9dfe059, 0x1eb8bd92044de59e84b8ff7e28347243a0cf0a665dc38be0a809245cf2632846, 0x65ee5b5e74d35c9e411443393e2462959a11fb9fc95bc1b627cd0f48429837c, 0x10829a880633680e7078e1fe50cbbb362a20d7a313647297a99dbdf6578bbe84, 0xa83ccb34dc841eb9cc8d2974f083c61a9d9f162d6169db459e0544be9935d3f, 0xf8f126cb3833ae566d7020e8bba5f7ee02525d4378d81d36730f97ddd2c358f, 0x2783557cf3c6a0b59926f5804752bfd7de101c1e831a4ad421b12d2ec9f7bf24, 0x91f200acb6c0436b64c4425917f2fa4c6373133a25ca40a19a28cfda9b219fc, 0x1e4a28170c7a5034f70a700fad1088648e97a11fb4856e22a5239385099caaf2, 0x29d63ae313de07d1dc59205c4b29f8b95baaf7efeface383982252f1173dfd2, 0x188a2d62c5e3519664418fefd0fd0f214b101577643ef5674cb5e5e4d69bb7ff, 0x230324a35fb7ded74a04c7fd4cf7ee0f68cd8851e1e86b5e4c2d9c1857d2dbce, 0x27e120b07d441aa2864beace6201c4aee9a06aa4357fd66ef765c6f10b3d3c88, 0x2d6a0fac700c78ef54b97bd61d43e88b5215f352dc6806201f3e32ef06a1dfea],
    [0x26dba58ade8cda188f49e52fce7167b8f219dbd924d7786b0f98fb799fefa2e, 0x19214ffdc30bd79894098fd3804b092c50b04ed072d36155e2003204e1628efd, 0x2f15bce2fbc19f00682f8ef66ebefd1fc0a67d43e4255f72ff9ceda492c98752, 0x215fec7c7c775fbdd3bd2317d73399873ec497b6dfcf434c606dc22603b41b05, 0x28965510c52457b2b0d9e49812da55f08028f23ff9764622f2af19ced2eb250, 0x2798d59530d1d41a6a311e90c9c37f0bd389a39737394a11829181d1f26c4988, 0x11542d205011b400201141b40f0e818051b0a983ae9387786906bfa71cdc1f5, 0xbaabe59e61426a7f5ebc2174ac06d27ca7854ddc67e51b8bb9573911387eb31, 0x268937a0fa2e75f79c04d9f2aa6cc56ca52f3c34352cee551aff2b99eb953a79, 0x1bc3e33a03e620069e915e78112c4b39bb36f9f3ce5d75e9d51624f0beb1528a, 0x1bc41b054898379199236443a43315088018c303cfa8760d7f679149ed53d3bf, 0x2ee37960ab5cd93080139be75dbf02d205adbc6887e96d278ad3e430a43c59dc, 0x1cdde27557fa9f3e2540dfe7deec2ea92d7862361a4a7ada6e4b68f2f3b4e867, 0x2215b23457c72fb4df6cb05ebb6e695a02c0c7fee8c1ea4553d130e9ab7c3a25, 0x2c0a94bae0c8d81169dc3c1b3efbb544d16fcb0a11b18bcdc68c4b6756c1816, 0x9c4335fe7a502889970a7670ee8537837526594d94bee1008d51506b0baab6a, 0x1d54c7fab67c393a91a61e0e2e38d5b7ad4e43f646286e64e31704c748ba9db1, 0x300b58fb17814ea816d0f7bcd9c3aee0c411ef4281917824180a3547f8f41b73, 0x27855ac29fa4b1abf74da38a4ce42de382834c90dceb506eb1f1259823889f0f, 0x2259c5da3d87b0a065ffb5a9fd340f8bc3ffc41113b77bbf66a2613a03b04874, 0xfe5e47f909ecf12bcfb1e96d2f6a5f96e8e95f7091a921d225fb33bace62388],
    [0x26dba58ade8cda188f49e52fce7167b8f219dbd924d7786b0f98fb799fefa2e, 0x2cf624bcc1b57941669693a6ee517fe56dcf7ae5f8dc152456d68cd4c839643f, 0x284fc4f8f116661b9dd2690be9979691b33a6af7b521472a36c154c5ecf94b54, 0x15f336d2348dd647d17cffa8507990c62d9355d63fb15fb7b7181c0aac883733, 0x2b097ff93c8883e63327f4009f9d0ad5518484aecc9ebbe42ab9ff386beb2d09, 0x2b0e0d9bb68edcc80f960a98b948c1a172236a4461c5f13d2b7d1fb648d1cbf, 0x21fb862d3aa99493e303f1fbecb67e2ff829a890338ebf642b1bcebcdd3eeba6, 0x1d742e5595d6548a4e5cde3fa1a024fc04ba950de76aeef9d094ef3a6aa80e01, 0x2f00e60ddbc4d8cbf208aace4afbe88c9025e161a5b3dbf495f11520fb314713, 0x937367d77f41edb078d7efd73191a38ec61b2f7ea633aacc172fc808e6e20b9, 0x20cc21ebecbeb50a3e7b6f0ffc58f95d9bd9990c8e0cb2b51bea7cf817e0501c, 0x2153722c6eeac70d60abd76aa40279e600a739a3c24b2d9950e7e0d08468ae60, 0x170429ceffee65277a55842cc1c6089270d658bc86565a5618a4e1156546957e, 0x2881b86019bc624704431bc3ed315ae4dd4c6589118f6a60d920f1c4937696a4, 0xf75ac5249bce09549072133d80f299f5e194bd34f820433eebeb5e020817091, 0x9a487d60d8c77e941b03d1a4cf0e9a92b8328bc432b437318c0bf096b8c95e8, 0xc4c7b8be9ade992204bed2fba9ab541af980a47b389cccf61abf5353640bcf0, 0x13c6f29a13b808abc57cdc98bd5b32326c0d37640b2b1c58a988c50dd0a66e90, 0xdcf77d7d72c03c43842c43d906862cbfa78b60f89780b9385a2d81e316d96a2, 0x1af4ecef93add6d17e589cb3e93a7240f2285e18c1882da49b0996fa64a5f7d2, 0x16500f1e2eb13aef4078724a58c869cf7af3bb0a8eb50236c3e2463ce54554ec],
    [0x26dba58ade8cda188f49e52fce7167b8f219dbd924d7786b0f98fb799fefa2e, 0x2fb22f7c0dcc8f0710df44a538564fa4835d8297a65bd032793c44d1ecbc66e, 0x186c3597d2e95409839a6577665c9247c61d1d4e39ed975d7eab0407571a3cfd, 0x268a806ff91bdb7848e65fcffcae8ab72e771dcd9e44918bbbf961d024c4e780, 0x22a72134e6b344238cfde291a9c27c8d91a7ce8ca75efc932a3ac0fce7229618, 0x2f3d93275b7e8f80483d94dcb59ecbb02d578565b6f3510a3b362db38b806990, 0x2188074227737f56f2ed000fb0557da0fce247b29e3fc1e94c782497dfedca5, 0x2795cb6a4c716bfb133f5aa5e413d7ec0643932100bee8003e35125e908e92e6, 0x168669f585369a0e9e1e1800a4a64e59198f67da9022257ae38ed2dae2f3e890, 0x1ffa32112a81bc68e5ce9b45a08becec9463ced766f99e3f70c5295bb287cf05, 0x24305de92f0bb0f4bf743d990721957c6147f9712ad12bd0970d35471343f1f2, 0x2553d6aca650db381e5a5cff064f3ae81d10dcf60fdc1b88d0b4a182cc3b86a5, 0x2f3c1b421f6d478376b135c9d120317b4290120dc11218033e249e6f660738a0, 0x245b4bed81074004368bbf0206d685ea4aad9ec2c5c27404550b134d60301858, 0x5d189b960a83b4cd0a7038f8a5bb9fc4f86a1195041c3d5aca8020cbf92a015, 0x2842fd81790b045c74803f7569b25eff6c992c2e571bbaf1cf9917f9dd45eeab, 0xbb806b253f4b014dac7ec4b9150635e5dab4505e9194ce2046af74db06e6fb4, 0x1130802bdbf1ce4ad31b52a3b3380ad274eaec3ad8217a45429e7b8bf9f57291, 0x236b083a817afa7114155de365d7157d5c45d3ff29a665828689c98c118887c1, 0x2b1118c83315eed11ca8a5128ddb9fbdfcb0944e37f30f57ae91e81344f76eb3, 0x26c7bf0a07d43c11dd2460b3d339014666f2ccc0d6f926dc5320693ce6530213],
    [0x26dba58ade8cda188f49e52fce7167b8f219dbd924d7786b0f98fb799fefa2e, 0x62d864c511b8873334e836d12eb72f7552810f28b4b9270ea837e9118dd92fb, 0x25587eb09d2cdb6628c520a7111ed2287f8ef7d5bf15e7ff0d9415616c14beb9, 0x20344cc75c81860502190a88a9753741eb82f1355eff6272a687af15b3370983, 0xcee668ab7cafe0c92f12586b73566a59fa7d9e14624394bca99d6fe9e082c57, 0x41098b20212f04cc7fed3b8aa272d37dd719e4304f79301d4b7ae6efefeaa72, 0x193870bbe39e62100358a649faa3ff6f81d1915da932545ad5ae3dd951529dd2, 0x1d86daa8ff221daf2c5910e1b9adc7d1a320575c43ec64b6f8aca53cab46f16c, 0x25923c7c452a59c736795ec2d6993a2d27a18b01107b018164dc30ffc6c7e36d, 0x166f933a262efecbfefd5d1218289e8306130b9b3ae903564812aae0c357b73e, 0xe710428c953a764b43ffbdd166707d10a6a08ed48aaeb562ca63a19b70c1c50, 0x14212cc175586510bb7e0107b7e99a1add7be5eca7445e35b23a9bf5e9bc26b7, 0x7922b817e326535d89ad077f917aa3f5ca180e982a89628502299515bd1db4b, 0x17b1b0209846528ed24450b5b6910c3dac0d79a35c1297c2e0ad518bef18ec2b, 0x1fcf8f4d3ba39e14ce346b78e781ccb86fa80a2c9b91b53b2b917d32201bb0e8, 0x1328e374326bd95e9a909683113443b309c75dd559c78e48589f91d3d667fd7b, 0x186b0b6795393cfd4a4961f0d34cd0f86d491ec8859ed1f39649f4a77d23d0be, 0x22866b41e186a1a499d3862f90ed2138b052753dc15fb43f71d071fa54e8ca21, 0x1a21712b5674e92a8fcdba2df567658a78f1c6409972912f59a3fca3fe10010a, 0x169c1593ef30d80f8f26d4c287a790cec8e41ae53c718b5aca62baea5e7a7f63, 0x10cfc561fd16648777627b6f289f95a96fbb95ecd84ee59ed541e7b81edb4d69],
    [0x26dba58ade8cda188f49e52fce7167b8f219dbd924d7786b0f98fb799fefa2e, 0x2f44dd9b3903bbe40ed4f0a14f06a691510f25d683942e3fede322c7f27db564, 0x1be695baecbf688d6618060b85965e37e50ae175e45f09704d33f2605ae3ed6, 0x163a43dabce2f70ea0d35c105ad54d85eea9b0953d028fe4e11c604e8b5e69a6, 0x2956dda14554b0ab7db32968d172b733bf92a1efdec6320b0c3c9114da88bb7f, 0x10f41dd81a27925bd837952dae5a9c494dd285ffa9a40d9ccb17d71b9098dbad, 0x280ad3fca7cff3b3cbdf6781f295bc0ee70275c10a6409b7b8c99157753013cd, 0xf12826ee6e2f4690c360410aceaf27726e64d0c6d39bb5eb8bcaafdb4266aea, 0xe9f48dc6fbc4706c6375c87d3fbbce3fe78427250b0fcae92e07890d3fd942e, 0x1c7a967977120a43bfbfc9351f2ccc84a2e1a2b9f440867e9d9257a1573c1f3f, 0x19d6f7ac7339519c004c1893c15b90c6b50fb09410e9ce523bddd88aa3dd3d75, 0x1b92f3e79d7fe18dd5a8a7c74fe697b800921cb181be388e65b39cc8114b32aa, 0x22998601081051242be4d99570e60ca7ff816acddfc3605f463a1221b11e097, 0x17f81154836c1b89e026090ab505be76f2da2674a77bb65196f29123106f15e4, 0x27b439487ca8865a03fc7699acf9c74e7589ec1282fbb0eea9f6fc4215fb8d5f, 0x2ebf049a07d92affe4877c3e4faa5bb176d58c7b514ce03b85ff8eea6b17011c, 0x14b55de484bf2eda58a874c907aed547c35e892592a8704e330457a6927eb9c6, 0x2cf300af23253ae125944cac6565ad837e1b4857ac3b9003951c414d167e4622, 0x11a0cdf58417864a0399eb08e3af0cfca6afe79e831eb14c2c7e6ae904ac14f1, 0x13f038e1602814d23b07765cbcb44033562f7c8192fd2e45ae1372cd3f9100ab, 0xa324aa4a2273af5015991b7e47dc180ec2c6cdd3afaa7ca1ffba46e4cb5a78e],
    [0x26dba58ade8cda188f49e52fce7167b8f219dbd924d7786b0f98fb799fefa2e, 0x2335a58b2a4893de3bb776a21abcc6bd01746d21d60dc99407a58ec99ca5394d, 0x3792e932762b5353053cd478898e7067fa59e0aa0f97bb5d075b83e7f1068b1, 0x171f0973baffed9d21be47d121de7717d9200520579e674c345741ee2c0c9af0, 0x1ff55845a587dee8b90bb11b2490e5abb7bacf3963f7739421b471e1f3cb589d, 0x6db58db2db6fe63f54d05adb8aeaa9cb89f48d8248e45d647b9148d1fd202bf, 0x207a78198a8af61712585f9e3aa8fb315320232612f83529fb1b5892c30527ab, 0xda95af66e6e0aa2f1a0ac71fa29c74d75bb9f99e9458079fbc43fcdddfc1be3, 0x244dff1663f2935bea98c07d041221ff4b866285a999a04e7badb7932a91e7ee, 0xf1666c15799e77aab89a2b35be57b29222ba0bcb4c690b05f144b61c61099f9, 0x2e9b5aed7ff481e79e49c949604b1d7dc241700cbf5d6e7748e13f74f30e5ac1, 0x16834fb2ba464871b1815f1495a872d63e79504d5324e80b34adf43ca7a68908, 0x143a59fd2f1e040c91f7230be230101ce4e6323eec738f2906357464515206a1, 0x43dbd8535bb232d99c3535dc3d655a963324bf70d1a3274e40e64393030471c, 0x7b166c254454f4b8d6fb5aa80087856a5f3affc248c814703364663f08fb766, 0x2047d44ad52bb40ba8e9f31f521339de3e41cbc7ef94245e7b9c82e3d5239f2a, 0x1e23eadfe8cd5443f15abfde942370f48254cf355214fead4e4d85a0722e3452, 0x1371b1a0c0ef71a90bf7c32118ae414f81d593f95f864cea9a1b60607b1ecba4, 0x29c9b03f3f02faa3d633b65dbf083f24565eb29e36ed1eee4bc5376889b5a0f5, 0x11c0d488111b7ed7b91e9be524819faeb74d64619847d9e96cd916a50d17311, 0x2d389c9b04a7aaa0eba8940233e3630c8b98f061a7565a7d5caaf28a3fb77307],
    [0x26dba58ade8cda188f49e52fce7167b8f219dbd924d7786b0f98fb799fefa2e, 0x12e351fea34839d65253cbc1cf32d39e34b1037767f5c2b90627d90d73d3bb0a, 0x2e27a42188a58299c9d8044c410844229d17a11812405d3d35537974652ead64, 0x14bdf13946d48ef5a08883efab512ddf10596421d031823284426fe729475367, 0x9a068a755057ee06efb7fd6667bb62353ec9cd08fbc887cf5f4fcb2ccba098f, 0x519b4409ec8e3a7860ee5c90956903fd27fadae89854357f81cf33fee0e8cfc, 0x2e810ccf1dd607ec36f7ab647ca38d42710eab334142a8398b5da402a5840054, 0x233108c004672dd480bed52d6f25174cd89d1a025a60ff6888a978503ddfd96b, 0x5be8a2527d11c6c19b0e5c5a0e75a0b54c5e21e68c1850494e4fe7784cfcdc8, 0x1c4d74ec5ad43fa3f3f50702399181ac51aa69d9260f1b32fe7c1ccbc232a0ec, 0x2c98c881a993b1aca5ee9e7f559ccdf305e696156bd0ad4515afcf5bd168de28, 0xac8b8f35d94988510c83febbd4925feedb7115380f6c4e167aaa9ba11ae739, 0x28b2d2b745647c152ad021d9e1e7e87aa179c49626348fcd0c29444aee62d71d, 0x232dd2860f628248f1b55a1f1b7f4205d5d8c86139e182b31518eb4fa1eba077, 0x2d45676dafb1b4e4f2e5326ad8f2d6a382ccce3969091d48ce0635bccd9f1f84, 0x23c9bab33c8ca65ba9579f56ddbd8967db1e9e3530889762e743a32277f4a56e, 0x2e3f511a8650b0493951efe1029eac8006bb5d44f214508ae0870daf794eee04, 0x1fadef99b87a98d042116dc8d68a6eba75609dcbba24feceedc576a5f8c56ec0, 0x13b1c1adee57755d2c3da15fe50fe6332e5d5c5b5929c5ef8ea0387043fc156c, 0x22a338fe1a442d6afe886f9cbcac11a4f7f9bdd77fb3a8b78dc8368a5613da63, 0x1c069ae1b1241b93546ccf9d02a0279737dd1065e075da8cb88190a71fd2e887],
    [0x26dba58ade8cda188f49e52fce7167b8f219dbd924d7786b0f98fb799fefa2e, 0xcd4ceac7e7f2cd68f2aadd77f8a89a35b39e6fe20795800da208139d3a12390, 0x1c2ee3595af8de51bbd5eb8567f18d3e1db383bfa37973f87cb36e72a88c81c0, 0xa7c2fc763da1bf375377589baab4d68685a7d3d23f08d106e5326eea97b0333, 0x1b50d5a9d6db07dd3f14eb594c51c1cd119a0e734a1f2459cf989a47e557359a, 0x30161bd3b8b78d824bd26c4ac8eaebf0c3bf2ac2a428c274b458406cba4799e4, 0x7274702734590bfd2fa48046b2b21cd261a226526c126dc9841a00c5b74747d, 0x23064c35e504e677bf3c438b120a1c02bd6e8edbc70778e46b7e5f00d1633597, 0x7b4b8fcf8c2cabf527256c84aaccb348d19a3d8e41caecab110f3dcd563d0bd, 0xa95e011e6866c8550e42efbedd76eddbae2a133a82edd6308f4c8d629d42964, 0x180517d31f2656d1cf425f6aaae0751054c71dd9df0a236c6c049a3b33cb4da0, 0xaa7c1d96d99bf95d733baeb6e88f4a8536c1f846730f460731b2074f534ff99, 0xdd0dfedf6a1d0e3368d8f79d159d585f181aadb93429e0287324179d1e37e4b, 0x572df3598f8791d83d3401b87b3d6e6b3a778a9a4a33e1b6c24746070a3bf18, 0xf9cb4e73d3b6c128f629e12d409ecd7048781ea825ac98c564f11fabdff8d14, 0x1db3c7279ff54baa1b579a2d00acce27d1f80dac5da005ac5a50052cf4ea6143, 0x2942a1875714a0c00d3b2d20dc216f466bbc448af3a63e05aef6353073503b0c, 0x2522caff7f2a2bf9cdf836ec99ab832e3f792614b5cef40cd3e9f00c9b2df92e, 0x1cc0d08465538de8bc30077a0fca970b6bc309fedf4f48c79ac7ec6ba1f4a6a7, 0x1be86dc6dca9d90b15bed5bf60edea532e1510007055893ccd65741037c814b9, 0x2ecc73f82062b8a6d91bed0d221022331d55436042ce722797c1ab25f77a9f2b],
    [0x26dba58ade8cda188f49e52fce7167b8f219dbd924d7786b0f98fb799fefa2e, 0x1e954a04dbc733e4ad843f23a7f402bba126324674450eed047e158c4342f75a, 0x1bf6934a5502144b995fd7a26c8be4f9507169f7d29691e460277ce8a06886b, 0x10a770647e157ab71fc08d6e560bfc21954d55647c32096c258e244fec48629d, 0x2379fd0b045b1b43d59bd7cc2760c8bc5055f3a441fa6288c84a3c7c7488a566, 0x242557dd84169e034b9c9ece2f2dc4bf4f4b3520b2ec0c62754cdda61aa13759, 0x24d0e65867e83cf7f865e89a44c0fa4f31df8eaf20194cc9e773188322020fbe, 0xf08e39c0aca58fd66c96bb21691c0b06fc564cc300040ffd985b0ffdab6ba89, 0x1c3119af9b3e6b5bff8c6915f68472b22cf3f9e187ab26981b86c3e90dc767e5, 0x18836e6cd384b031b1a462ad8d0a11c34910f35baa8a92fb3e56f9615cd702c0, 0x10b2bcb24625ababda8c1c7186890382b9ce83854d7bc4f2460f30d706a4cb48, 0x237fdf2809ea511ef064a7c036f29c1d555c0b32dfd257334ff535fe42cd81f8, 0x21b9cc4ec4c0832479f7cc5e15b4ad4722477a5ba013d9d359d540afc5737f67, 0x258e26b354d7ebe2793cd3fb7c3bf6d170cf9db55cda38f57158d9b865298d8e, 0x1d48d2d440fb27a8ed1fdf8212e7b34cc231bd2d893402412f96f938165bf3ad, 0x138fe1103d55fc0267df8380c50775947493bf88f75a73d783b21caa92197f3c, 0x1edf94fb5b430b784be783f8980634ad92449f73e33c25e9f7d63f3a62f30fff, 0x8eae1383cf79a2ea6482185fb4b72345ca8689c16e67bd0a253eff22c5cffde, 0x761d160fec46a8c06e3e055d34791703f805a77bf30042a43b6f04e35dde41d, 0x2e23c612794a7f8cbce764b156e02bc21f2289396e30ab846536239dc8938efb, 0x1539abe4d27172e4ab5380afc595d723f9ef3fb7e8063705f9a07c40a67e372e],
    [0x26dba58ade8cda188f49e52fce7167b8f219dbd924d7786b0f98fb799fefa2e, 0x4d800ab616d72aee2f1cfb8eaa194dbb2bd95d9bc9d8327943da4f45befc2b5, 0x2207ae07dccbc047ccce5415be0c4941ccd2aa15ffe4f4a8e07a60c0a7fad9bd, 0x64d711ce20b70d512f1ca107456bd158586fc1e3219d09f3de8fdece43088a5, 0x56adb05c833c5d1984c7f6bd75b02cfc1c7b21dd7bf6daf1b52522c96978158, 0x2efc241aa72e16ff31abc7977dacf9a6df53b26217544c53bb87807d5d61506e, 0xf41fed22cb32a447dcf33e989193fff2157f3075848ed1e46a181128ebb7e5, 0x169291f2bb1381ce3b16e812c546890ef5ce32c1d768d81264cd719e4e1502d5, 0x2f9fc1e4f2924d82d17c7ea7d3b09f67be93560ba39f29537ec0c1f2befd4729, 0x13ac8de14556e9b886de3944edae4c601a01f78fb263730f44f7d9991b8c7e2d, 0x29a69af8e28052f2c56dc24bda3a5e61cfb3e9c6ede0fdb857a1971fa932aedb, 0x180e9a2e161d21013486fb8598113f7a280697e89643400cbefd587893787172, 0x29fec555b91dfa57a42cb368560d4bc471c77a2e236a9d7c9c6aab1b6d1117f2, 0x231ef485473f733d46f0e2acbfe7e3961d045f30244244ab3bb7165863c1a46, 0xe6c1b39867e21ef0c630a99754d1a66a6688192254d40492ce88d47e5fa15c3, 0x2e0a260d61bad61b7891e6306df8b2310d8b8db9232fd1f7219e7fba86597031, 0x176aa7da52727a85134b313308a4c62994d4149bd6c6fc59d6e6c0f09eac859f, 0x12922be1b7fdc58e582eb1adc46890c48e10c8550eb8b9b11d8541694ef3a9f1, 0x32268b4c29827a65066e67d71e10cc978a73e0442bb1c9f67bacc883a3f4fdf, 0x10beab6538e0141fcfbfa8da4cf3070e69b2b49da1818ec8a9e54757a51b3c19, 0x36192a82ba9eea93a2f4b1994440a11a556d0d157ae5da57192e56c21c28256],
    [0x26dba58ade8cda188f49e52fce7167b8f219dbd924d7786b0f98fb799fefa2e, 0x34207380baf33709aed4bf2cf5d387a15f30dd072028305cdce60c1737ac627, 0x1eb09b8ad28ff81a7b21236652960fe9bcdc84caa6b21549da93a72d92ccbc8, 0x2545313ea42693cc8c0d6315d8bf240ae624d66f60f6f0a356a105ca6a7220bf, 0x1269b1b6e6ffd9938f8b4d7c4ae3c7feb7686b9de06a6831fd957cfc3c3bf7b7, 0x281e84c6cc599d853fcf8ca0a606f70aadc893adf4a4a099364b8c052f169ab8, 0xaeee3f27983d8e9eec8d6873cb1cbeb38c3d5912c74066bd0dbc559edb12c69, 0xfdc47ab86a0a3d8e9217faaee18d9b5b86e9d64deba55018f355d3b9a36b6a8, 0x2c35a627b5540525beacc313eb5733cf97e1ff3ddb3f9b4e8b4f063b686d2e12, 0x332c87526e40afec8b93f9735204bcacd4c6431c60b0b3daab4fb7f120bb301, 0xd5d00fda5d7c9aca26fec63f2565a7b64fcb58a67e7c29a64d0e450fb2b956e, 0x1b9cb4b5f32f1ba38a685870d7a5f7f44370b9b0e4c12ed349fdf28de5f49865, 0x1c63e1e8141a5a498ea10713d8bd8ebc5d61aad6e0ab492baff25befbbb26a26, 0x26ab3869c42b4e0139459f133c996241607f280672e2db244466d3e425c50fc5, 0xe8a1f3050352b43a39fde443e466884d09945cca09f31f043ef872a85511bc8, 0x51d4fe0ed70b240156e4fdd7fb3351d55841c4fd97d1a4fdfe0910932052536, 0xb0a1015d5b0b6a572187b97a4427f7e938485515cbe32e0016d11de7d6bc760, 0xfbfa326f445e39a06bdb999832f75f80114c3ead6206339d7a5edf276ee54b4, 0x9ca06de513672e4bf3625d0cebfa2286a44737b84647df4154d524528e82750, 0x281dba97e7243b1d3437c626fda37e43c95cbe3987bea3be9d19860672ed4719, 0x26de57caaf86357521f470a899d072f52a41043ff0bf242a845b71b8ba0dc6ae],
    [0x26dba58ade8cda188f49e52fce7167b8f219dbd924d7786b0f98fb799fefa2e, 0x2fdb2e183ab509617feaa6e075cb9de40e5165621c2a4266fb894471e9c1946d, 0x6188498691a27faf8c8f4a2b3425dada1a87d06c53861823232acedb25d6def, 0xbfedca0dd5e506b091baae85be99b391358740f9a7c6578c58349f522323a18, 0x78b237302bdc513c9965872103d4588c8b19a002b784ea4217fb04455d3133e, 0x25f15182a955582df5a3f58d36648b5cdef4bbbdddeca93eae6c94fafb198305, 0xa07fd1f3e8a7d1f026578e5999ed3c7d63d5bffe07ff0c96cf8b23e2e0f7820, 0xbd64bd942a57b8c209d7602bf222a0ba5c84251dde43bc098e938f75a0b678b, 0x2cbe62c979e608377112ff7050870162a94dc68556270ee7a66e65305d1b16dd, 0x9da1c5dbe788effd900ea877c8f099af1c03e112300d9e070e6c6f8c07b6a36, 0x7981ab3c73beaa4e1e775d4e4abce3bc86eb79168d6f157f9cadbbc30ca97e5, 0x3dced6534fd07a1107d6c54510a07f25c0a10b260c7376bdeb10c4e768d91a3, 0x988db118a1974fdd8b434549e13ec8654644298f3388bac401b75b4d550ed76, 0x1deff1662df511afe108d5322ab104e70703d65b729c1dfdc2bc74345d4170b3, 0x3a1bb1a92965c2cfce4124a8abf82b54e3ca37474728dfbe965f7e04fae0f1d, 0x281f0cbf3e036b4ae183795116b65070d16e37621d83b3d88ae69e98d8c44d83, 0x15c4576d8475a4291a8db61a22db870c56b013d0849b1066386e859b996d9035, 0x675b067ff63a96141eada800b0ad12de8eacad15c7f53e6241feb94cbe87f3b, 0x201aa00289c06147c4b86a521818881469fd0e4f91be7bb271afcaeb1037fd56, 0x1d590ada5a94b49917ebf20bdc55e03d0362b3f719aab865957c76b84a4413a, 0x6011f23c13d5ec3df59516c72371f2ea28e930f73189337762e3d4df3f7193],
    [0x26dba58ade8cda188f49e52fce7167b8f219dbd924d7786b0f98fb799fefa2e, 0x289927a769b163dd67f7165490a1a4d9fc3b8ec189ad4fcee07368a3e75a7573, 0x5a0ca87482e1f242157b180cd02fa975c72bec4c25d87f82b7c53e3a6830947, 0x2b328309cfe721d78f7a6e8634f54524c4eacc42ef998093e0b77c24d5ff9e80, 0x1ddfe1d1e5e9458ffb1d342e1b99a73b0083613406f932d7abadc8442204c061, 0x2da94a9b44a2e2681f75ee004c7d9cab662ca66c1ce78fb2ebd617ce449ee43f, 0x1efb5c3e6f22f498ced2f4e63c366b9dab0cb06adc4e92fc3f868709cdac330e, 0x464f0cbf6ac670c19420e79606bc447e259f8b203a4ba15f72ac220e853c884, 0x67e3c61a95e28c26b5628f679c7843e1e042d7841a670219194e99dcc618f82, 0x2d1ec49939d788c853f85da08552dd458a48a197cf0b023157ad04a49a72a28d, 0x25c69cc3ab094c56e86147024ede9ddabf71ddb294ab37659e9b2be22dd9e289, 0xbec17f5afb43e6faff2a6b09a02eed8455bdacf16ca542ccfcaffb119ea2c0a, 0x543caae6f7afe71cde9b817c9a746870d2cc62d2e7e1c6fe7fecfed5a98978d, 0x142025c358454da1e1cb0de99504766fa297d1f6fc62deb14ae0bec430d58087, 0x12b565ffd06708fd98bf8353991bd236bdc518c7fbb243fb05497ec7ae08939a, 0x12f287f0f3686375ba8431deb018fe9c28382d0b3f6d42c0c8bfef68b99b0639, 0x1b97a4c6e3b1340d563513c29d704429098877af661ac3d14a8e5caf2ec67622, 0x1160e192c3592d85262513d57850fa5f8ab05a95877afcacdf616cf742991fc, 0xde9cdc2af5b4780acd93ea46be905a8530e8bf89a97d41041cd39fa90975884, 0x29a2c79a9dc7c39e8ae57cc00010cc2aec866d9106a8f2c0def35fbc29b304c3, 0x1b39fe57a5648b6b19ed40ddeeda02db1a6a0590bcb4ac75d52c016bb5f004ab],
    [0x26dba58ade8cda188f49e52fce7167b8f219dbd924d7786b0f98fb799fefa2e, 0x2eaafd2a94018113bfeca9f6f909c380ccb8c99788645cd8169586e66968a6e0, 0x27f7e86e479c9eb87a4c05e80dd23700a81c2e720bf0e889a6a5d5d2f2a385c4, 0x15fd4d2d4de641f8d803e4942f19aad8bf6b01a1b703dfd0f0b51acc263aed92, 0x172a8e725dd29bc4e28ac7a67a7f86bde15c58b1fe2f87bb21d06349bbf6a858, 0x11820ecad02878ccdd901bf88011203539ed7f14c17edf151f237b8f3f357bf3, 0x157bb0ec622781bd0485ed79ceb944a23eceb119dac4f88f3aa4878f082f60a, 0x1a0c8beae4e98f3c36307ba5a8ecb345cc5ff4d33963002e42b36242c7ee6f11, 0x19398691a16329089e7dd608cd6ea18749597908b9885b7a3818feddab8737f9, 0x2c92297efa4d689e784dd5ca22480de59b1ee91203331f44dc2c33877789a888, 0x2b05adc1b6cae6f7b6a2382c527c9e486e825d2f6ba1b1f9aa395fdc793e9bbe, 0xeac0d420eaa22d35e8f1dcf344a5bf8c05559171f5b3d8490e7cc58244b619a, 0x1f14c4c41d337360748c3f37c2e1c72f831a6f811893d188902688b43ff7ba89, 0x2dff4909b43986a532997bb6881979cc68bcae8e01bf9caa69389dd064a21288, 0xc5cb5da369f1f4f874bab1f706b652ef2c50b297b5340f7f6c0fad98f6f41de, 0x13c2c78c6e2b39691d5e7da33ce14fb2cff83ce3577f1909d2a9b1b73810067d, 0x8bcbec544fb37718da2d30fbd757ca63187f342440c8052bd9510314f6fa22, 0x12d845717c2b2c79c55769851913284ad56f2fe4ca359ee39e569cbd52c44b74, 0x10c0c4538604fe7ad96a08ea533aadf5307c89534a51dc4d958f769a0d225963, 0xd2a590e3fc8aa2260656e13a383726d6490425ca80eac6481467c17f1050265, 0x3030d8c3cade8438d664d3ebcb0b0889f57ffeef914c655e50cb68ae14c2f283],
    [0x26dba58ade8cda188f49e52fce7167b8f219dbd924d7786b0f98fb799fefa2e, 0x1ec953704f6bb2e359a38b99d230ca7a4c8eb37e3479238a282da769f0425beb, 0x1eb6626b17b9fe129966d1ae7f272514826a0bb877d54a3a7d6fea8e46c94914, 0x2c31aba1b873c7d14d82ed3b033e75b871a7264f4ff1beb961a532d8a3b50698, 0xdb6e1d43e7479d449ea8e0fa42ef14a41cc880de1c7699cab480edd8a79ac7f, 0x21d8a97ad31f1192c8d87f08764c4f9a8f6c90940a6d444d922151dc812f4275, 0x29bd140ba4c910a6d297d316c9bb12f3a67ef0acb14f68af7afe36dcab638ca7, 0xa61d2fd60c57f574e19261a4a5f15b98af58e10836f3175d48fa7c361e98ec8, 0x1d593a571d4d07b6b677c7c987263c4f9ecd5d264071a49e6a65a9fbea46da81, 0xa764ac4206cae37430c7e6554f45e251bf3a4c8348e686d3103d44a3a53b565, 0xfc4c56a0e57f381acc4c3d8ccc8f9bc02332375f6a47343896e019f2679a7f0, 0x1c34df18abe2bd65c68b1e40a634311aee1429b49de0ac7a0ad890d434665a9e, 0xfa890b0f4e407242899e2812dceefc2e8e5daa8d41964612d862b182fb084bb, 0x1df4265e4bcb86f8df10427976b496708404d3eb8370ffe06d2fb5eb21597ab9, 0x14b74c5d557ec1780f3a0409c6d53b3b97190734d6f48b60ea42c5d54c194ab0, 0x112e82b702e99d25a62f79b82d5f0620605381ae21c311eb3b9b6407ef712a27, 0xb22a611ecdec54a9e15a98fbaef9be8bffe8c6f65b594fd8647ce0d03b1a819, 0x13552102754e83cff6a90cadf9a9fb9c9c4704c65200cb87144e7bbef93823f5, 0x90872282ea971f0593587dc8e0f8b7bbdf36a1a762b9d000353407306f7e732, 0x101e86c640c3bb179c0805a76ae6f326efb5ce0c7b584c0aeec2ddadd727c97f, 0x17a1236e80618f661c6b0932b1332b40802aacd5fea74c8575ab87a38bb7debb],
    [0x26dba58ade8cda188f49e52fce7167b8f219dbd924d7786b0f98fb799fefa2e, 0x12398407948eaecd57ed99dce52b4051d9a7f862241f682e26f29366b26e8acc, 0x1846ebf17d453d52ee6bc5f217abe6a0d5aa43084af5ced178a081ae3e204fa, 0x2054f2993d487237bf6e4a985c3abaf3ea8f0578ad5eb731f94a0dd533e846f, 0x1911b97db6f1c83692aa3a44172aaf316d863adacf721463e9b34e93c3499d5e, 0x1e7f11887082042971c2cf546c3fe7031d955ea7e371cff4d270e56aeb0a162, 0x12170e18a97a2c89b045eec5263655c47fb08fdc4622c5936d0b9d2aaa721cfc, 0x209b3d0342a6bbbcea6b3ec256daed1605bb9afb9adcb0ac9ff0d409751f136, 0x6144e781f4197e7402726ed1e01d1a9df01807d8f679e5bff27837902bf4b85, 0x129444fc0f4808af8a64b51d94d9be48764ade198781acd87360efc9dcc7a8a5, 0x1f12b62b42b308fa0b8677bd62e9b5fb6644cffd6ae43eacad6d127f8437334b, 0x2a1e7df0ce57b7a7c3fcbd73c68791c5aaf538727082f773c41e94fa24433fba, 0x11ac54cbcf0e6175c34eb7e364adc9a26eea739c22aff79208ae371bfc8b1cf6, 0x263230c117421eed84437ed926810a77a756789fc8b3cace2da917ee6311974a, 0x10df3a59e7ec06ae62a749bc6791d1b9b2e7cf0bbcf519f3c023e543514e5c5b, 0x2ee43f7cbc305d64cddff15cd91b7f6dbc0425e706b107e6b146316a8ed4c433, 0x15e9ba236c3bd1b8efe4391047d6de8b2d8ebd45ca5912a619f7667655a1b750, 0x1d74abec20aa969ad6f1991585c09cf7b2e4b68998a748fc84fe304511c6b599, 0x5ae72091e906e7f9d94e8b5e00f4dd0b43039d0ee9ac1598c3616c86d7ab06c, 0x2b548c790a449adefc53712a777b2b90bea7061df2f57d337b9f512940bff3ec, 0xc79e3413149346cf672ce76f5181de7604163cd00c9a5263fec43477ba2fadd],
    [0x26dba58ade8cda188f49e52fce7167b8f219dbd924d7786b0f98fb799fefa2e, 0x3017a09725154c2672bc149b4bcd370771a14807833c069d712618e207531b30, 0xb93ab490450416ec4a761155768efac5d022a8b3712cb410b78e43826dc07fd, 0xf7ef4a57e815865508ac5e78bd6ff37c11dbc4bf0773864e943b14e0f79c872, 0x28d3598fc9de7f8e645588886736a239902008f4c0c54525e1927cf66bd0a047, 0x178d2dfede02ec9735d83ae6ecb07d875b78360c45d9796753b52162050f2473, 0x2055e88d1c4873c3fc760261b724a8c8c852b05773e03e4781e03dcd410c878a, 0x201af7d279732ff24a7300d4a63a327a0d152d481e75701bfb1ae60001808de4, 0x20b9d7719511885b8e03da08d1289fa02923259857fa5c51a4fd3f6bbecbe8e4, 0xc0c12d9eb25cf37cd472d0ec9f4e283832823607ca823e3ad30de69cb10bd97, 0xc413585abc142ff58981d211bed7b8d7fbc6c0538dbffe36105ba44e18b38ec, 0x1ad95bcc4eb2757c070d732f7f27ca45f4685886ec1a21e6222dd7b99487aef8, 0xe9cd75323a37d831825a99061f0920e6594ae3e3e94d45a3a33aae620d670ab, 0xfe94376e19c40263ded62340d5042f64e3708e0c556ab677b64a252de7e7201, 0x236be50f0fe1b1545413d3a6d2c60cd28cb80b5cecaf301fb32d687ab8639656, 0x28033ec35e8541ea37b843d7cd1613c7c95de6d6a3c1e7688cc26ac5c0433dd, 0x186eea9c433f8f5ba4318087295fae6003a63a5250cce25ff3127ceb8ea62226, 0x1997be30d551c31424dd592c2df897dedf13631320bf71075ebd15dd0eb234e1, 0xc86b6e4ec0b7673c81e2a33cfab7f5ebdcf740fa723952f5553a60d7866c0fd, 0x2079ea58606d87fa8eb2de37607a65768044990a0329f877b16141d63675cc3, 0x17d722901c37847aaa1f74a31f9948d916c880d547bec7b0f2b9b1957ad97934],
    [0x26dba58ade8cda188f49e52fce7167b8f219dbd924d7786b0f98fb799fefa2e, 0xe81a4c71073cfff9bc2053e730c22f6f04712a44b6fdfa3e5d031ae937ba4ec, 0x1b643ddf9217a65dcf59a7c4a40f0a8ab16d034cc1281c981940d2ac528c11b4, 0x26cd2f5364c6d09211ed0c9944602e97e582b47e93f8877923f0367c25ecb766, 0x14e4f38d385b57d8cef67ce66e5199f2fdda3ff261a139a9a421ec1f2bd540b2, 0x168e02a829c74f8224d6ec0f2a87b93714d60848920306ad51309b5f2736c998, 0x2fb61a6b4f14e47f6ec64e4acdc941829a48782090c2f399435382ff67b7747c, 0x2b8353e21e9a695ae8b58e8a11460e8dd7630b073db22e59ef804f570e8a55e1, 0x29dc5e33af36ae34947c29d674778729ec99b8ab4fffd5c3d957ce532ae7ec10, 0xf36d6ea37c6705c7ea7bcc34950a883ec6505ac89b6b5d41cc743516e6876, 0x2799caf6a25f94e81d9f8e362093d9c5440aa9be99dee55c54f7120492a40cfb, 0x2bcd01c7e5c45ca9764c04385a1636e247e47382b443d73a905ece066790e08c, 0xf0d76223683dfda5320cdafcc711a2038f7ef465f9847a8c1c4904d6066adf8, 0x2974f8366a339e664e9b42672012b8ffae9079796783a178ea0009179fd6577b, 0x156f973d0d9d785674e3b7e05e96c5b11a582c75655082796018e9dc11bc5b64, 0x19da910e2a4be9d039440b18d700dde2f65455708e7cafabb61809e4103c87d0, 0x2cfc58b0abe0def0fb166d114edc3d0d3cea117ac3dedde6e6f4fe7ae4768505, 0x2c0c40c61c6598dd8aba498ad9199f38bee4e39fc06ea761a2de890aabb5d9a4, 0x1e30543b1ce12e136f719a5920cde3bc35e1b94142a993b522b96ea9703d4cba, 0x12fc3e01e274c109f341fd2f9869165284c3c7567e2604dd638d0f2267d63db, 0x2a9680b2eda565239cab76b7b7aa8089f732fe9f0167c9beeac9ca8b146387f7],
    [0x26dba58ade8cda188f49e52fce7167b8f219dbd924d7786b0f98fb799fefa2e, 0x1421e02cf82980b68a9c81a28eeb397e0ccaf80055d5aa562d9b5f68bbebee41, 0x217804431d1cfbcd6e2ae64af07ef7eb31e21baa352bcee45c73af5f07db8d33, 0x2d15bdfb3a952df31cade21c99f2933edaf8d7aa3f69fc1a16a3e6bef6c7f5bd, 0x27f5885f9ddc3ec7e7f2b43d6cb0c0ae1e0e2555ef46cdbb753d13528e239f0e, 0x3a37a151a0a4214c78b52217dfb4bc323c833a25e0c6fa5b2c9c4e1c3deb674, 0x11a6fda46b867456af4f194a5f0571a3053adde7288f9fa84793b3516dc1ae4a, 0x24f22cde459accabe8eba8e9608341086af4cd4c04da2440b067cf6ed63b196, 0x532b9c8c9c2627b9822eb7cb4e26ba7356c4c867c42889e19d80903be433a1a, 0x7f309d33a4d334ca3179048797197b7f6729a3518735d608057330342520b0f, 0x947f36abcd0fad800f8abf23edd43565b6b6c26b7e244af6527036971340f67, 0xbb49c33a2751cfb8848554d24c216ddb7e6b88234769ba9304ca0bd580c2493, 0x1f791d5f90371b44b925e5fe04c2e994a584fc427e4219f551c35215e022fa9a, 0x1618299c6088e1d3a91f6cbc0956c6afbc3c38fd691feadc8d6787ad52d976b2, 0xcd4c820d82ae74e29d1915d6eed53be77e06c36f27598cf78773b06b362e029, 0x158545181f2bd7b64bfa41c26e3d4f5917ef52851c0046a7f18c26a0544b2ef5, 0x1af91ea8fc2319db6925b994492b65f631b416992595c9bfaf93ffe5839d86, 0x26c03eac9227b0be2a855f95de0c97d337d763af75f1ba327a9e409cd5a718ca, 0x189b176cd8975d36e0ef78f2f39f8780769d4c7411a5ad2724927981ccb1ab03, 0x41d9c7ccbf82c77e0580400cf1f9b530aefcdee51dc5a1a4b5a142d4170c6f8, 0x274278f69995b40626a7796e2f70b1d6b52f9fcff1dc50967080d9f0332ec782],
    [0x26dba58ade8cda188f49e52fce7167b8f219dbd924d7786b0f98fb799fefa2e, 0x1c9a29a3fb7f2b95c153503276233cb8b1e4336434661d97a25389fbabf3037, 0x2cb5533d1d73b7b385328261659124419a9a7967483f0e3a3e63e3a4172d1712, 0x2e9bf13980f73bc9d03f4d644e7757f4a254235e659364b078607b15841ff222, 0x1467a26136dc7c21ae1d2eb531fd9af993c9c0f7923a0f17683babf7847ff5c7, 0x188210cd164a330cda3a1ec91c7b55c8210ddf706cbb38ede5d8b6ad98122539, 0x21789113e7aad51c02f8b3831e2133e1997ed31239ca267c6682b003d00f46a2, 0xd6ae72f4cac38afb4f95f69e9af3571df0ea4d7a726ec3bad4c9c3ce743543e, 0x29f63bb7c7b8dfc1a470d95f246c1ce2fd3126baa620abe230e181c191cb7cd1, 0x2f0fe6071d605469e17000e29ca7b618efcb9fa7f5b296f7312515b7080ba1e5, 0x2c993b62a92c8ceb812cad18de9b0ca96e041be6b12bedb8f64797a6b26fe167, 0x2fa9ced73852f04ca937475317f1ca35adfc8c2b89bcc4ceae7fe40a28f05896, 0x130264e8ed86dcaeec0aff16f605f7fd4577783b348758655222d4b6c003855e, 0x5137ce88eb7162f2c2ee9fa54b56b951a4479f53ffe656fd6a5ff4c9a03853e, 0x275c55e247d72ce00068db24abb786eed71968b226330472f6c8a609f2dee36c, 0x1cd13cb77f0c869c445fa8f9d6d49189f7ef7ec00cb4c00dae22db33c763197c, 0x6d9b6b1fd1e26a4ca07e71e3f9d40647caa0ef100a990ff9cc4b73ecee81bcb, 0x169dd62b282e78ff51548fc12731cea18b3bb95e8262d139b1974b2933a7b373, 0xc0653c4aa7fefb13ab5210cc32133a9faa456bbca5f4f0a4f4a1b8d14702afd, 0x2ddeae46a42784ce32df7b9f7118aef9f13552acac2046005af17748815c23a5, 0x2263646d28d39b4b0ff6d2243ea0e67239533523f83fa0f4f6d575bebd7bcfa2],
    [0x26dba58ade8cda188f49e52fce7167b8f219dbd924d7786b0f98fb799fefa2e, 0xf91c7a21016b36d9010165ac8b1b7169da842bc0a274adb5abf99aadb62b936, 0x1a2e0a81ccc7ca01220f2e7ecf9189a5f2b9b46e53ff92d8cd238b5d195e743e, 0xbf18f381ca8ee6f9ff4bde5897d635bb27dec564132e744ef8dd436d1cd97b, 0x13296783d0803516483338c7df1b5fcf81f710522c631a1d6db1a1feb7efe67d, 0x21c82f469bf6605a5ee156b2511e0f67e9a242e3d1172f826864a0606ef594ad, 0x28dc10865221c98f25307ed8eb2e235e27d5a5d41ab3fba09baa0909fc939838, 0x23cdb14dc014cfc69098cffe231e4d43a20c6b3e4db8c6d17fc3463fe94051fc, 0x21edeea093570815944d629d7ab442d595b6e468ceb883687bf4a1ad49fb2968, 0xae1075937d8413c6471b481f04b5f6da78c486c9ec3a39f166de8edbf6ef5c9, 0x2fce3f0792f5cd047fa8bc04de4cdf33e1fb7813fbe14320cf794b05df31e9b5, 0x19d1204d38bebb4547c168a8b8e5f9266c5c88f9d30ca6097a5939ec41366bc, 0xde612e0e3ff1ec8c10f2f6683274e98c095439b57c178a5bc0c322d94ef05aa, 0xefa0f50e18937701c781ab79f263cf9fd325d58dd4d0936c592867f49707561, 0x22e1e777da6b3d2afe2a2f6f74ed2487163085e736f587089fb120e5c149f8d0, 0x18556105a08859a354db011951e9f9c5967a71ce648bf0aba15f2a559fd3976b, 0x1a5931f9bf826e643d72f1e85104e5108ca339af493cf5b1cc364552a309326b, 0x19473fd23dcbda0867c0d7655f4a2b99dd34160fd90b3a12dba802b661dad14c, 0x29c96a2d870db1de1e35ba02b37449a947dcec5e3708fc592414acb59812c708, 0x157097a50fe704e1f4c54a55088edb174721db69c7b7ae1b7394403ce694b789, 0x21e90e34302deccd9b3588cc6c5bcf0abdb909e8c75bf618bb5a5334af7a164b],
    [0x26dba58ade8cda188f49e52fce7167b8f219dbd924d7786b0f98fb799fefa2e, 0x1d31a42740e431e210fc1553f20308cd05e93fc59b6bf166af395f9a66fdef38, 0x7d5c120df5efe5ad44d43cf7966f6260b523a9b25da639017e7f14dfdbe22aa, 0x1e4a39cd76190bd1b656e2982671758a893fc7d65985929f0c914553fbe793, 0x2762072623790fc85fea72d6c64a298bfb16f90ca429e91a1db2dca2451110dc, 0x144554ecdbfe88dc6f0c11c5f6b11fee2a86b1ec4cf9d69750091a7835ed3d20, 0x1983b95a2c8b6fc3734c7645ebb497b942da887c3f91c054fb1a48d3c8a1fc2d, 0x1113d1a221def2da4cb7faf3684ceb9f6bd2f3b0f52609bf08b2732252e9294d, 0xbf64c4ef1310f286504c25a637ec31686cfbaff0c10ddf272a92f6fa8af8441, 0x1209796e263e0d9999996e9f742ddcc4d92a12fd58ea384fe0a639da9334dcdd, 0xb1eeb6c4cd2d793bf5e7c27bb55c1ccf4a8d010c6e6fd4909619960ab127655, 0x4b05da50f761f6e8b2e065c6c6ec74e9277ad16d1829311bbebe773bc234a18, 0x328086aad9ebc7aa0190d029b1b9ff8c89bd85b90206799d7f0b9a67806e99b, 0x1ddfbad99857e4b84449e1076c3ff7a80585378d2194d944ed9a6fe227b16b85, 0x86cc93c30e9bc4bf90c09dffe4e3755ca2272a216434ee6df144c2414930217, 0x261fdfb4046f9f04902356a5682d941d98de74d39de11374bdc24fc441d7946a, 0x21672ca29365e252389c40a058d9af3cd23d84e9a5c4c405b7197488037cfc09, 0x2e04c3ce66b9cfecba87989ded13eba5fafb48fb63088e48010dbe8fa1638dbf, 0x2c8b25d7c74be5b163c04e13cbc7478735c966253677c689ea1819e760b20aac, 0xe9cd4551fb4ace8e62491b7e6a32d6ac5eb57fb5f801de1b27715cf1c770216, 0x17cdc28c38b48f61a48be7d1e5e5c57e8d3caef8f59159cb8017b21d67be834f],
    [0x26dba58ade8cda188f49e52fce7167b8f219dbd924d7786b0f98fb799fefa2e, 0x1edcbf1e8c9add9f39b44ea9a4616fa51a90aa8d376e251e034a309dd69330b3, 0x123673f7bf110ef3e41b81a4450a12dd2ca03a8e2048aa76f46be766192c68fe, 0xee62eb21957dccda2e276ed02acdca3cf83ef2d381de42a0952ba4e2e71a086, 0x67c268f3b750898c2a26b57a4018e3be45c9453001a6205ccbb4abb9a07696c, 0x15a74bcb36f93b558f2f215ee8d41c64c4780df231ffa1b991e116f0c6e545f3, 0xfd15b70fa8970f88e689bcfe746a1357b99a5b73354129d3d49673ae432210c, 0x217e872910c020e9f11ea5437b1dbc0f45bff9a2c050bcdcfa2b6c345ac11451, 0x1d12a9b49accc9f63862064b6f3d0a2510aa99f1d835880cba6ac0891e172578, 0x2c9baba92c77edcd883f32d4c34ff1dd285e99653e602c33ed3a6ebb65e70a0b, 0x2476eb407cc255bcb6509912e6748cff7adeb4cb933993b4f8c9643c03988fec, 0x629b9717c416be51a6bb98c3716043450d39fc02078e1498121393a09663302, 0x1b8a88c8fe80358d0e1532f7ea232f1716e561326b5000f53ae948fa3eff7e78, 0x23739fa9f1d477e950ff4d63f82d632390546879165819be81219773004dfce9, 0xe7522fcd267e8fac57c87e271f4cbd13d488f4c25aea6719c2a17cfde4aa8f0, 0x58a36221cf3818847bd604233233e69a718cecf262baa457cf1e5cccb9ff6b5, 0x9e192a9e456d483afc81ea5fc9cf93bb91a03334eb4d239753802785c6c8fdd, 0x74cbcb738b033d9e9be837569ad0dff3d8ffc1eb3ede44892566568cb66b68, 0x283e0b8b91557645c15defd2d8f6e21f27621adae3ffd0a7d7e9f31359110260, 0x10eade70c487ee2cd5e43d51525ccd0f345a69ad735b603cc108c17b498152e6, 0x2f01b82b8346c4257c16eff957b22028c5502667fa6874ce956e03fb6939f21c],
    [0x26dba58ade8cda188f49e52fce7167b8f219dbd924d7786b0f98fb799fefa2e, 0x664e78dad6b22d4333a1f9ca0ba708ad6ab875efa8e8997a0a8540a2599b0c4, 0x4e1f57eab14954bd0b21619ace372b8d8aead861ac55f082aa3bc1d8245074e, 0x41d00073a80f790beb8d4b4e2ac64f807f806d5fe9057aa196f880e653e6c78, 0x2d2d71f2fb3d724683423f92661c8f441565d2e5a878b47af687fb9b76e1737f, 0x2c80f1f732fd19836516ecae7d53f145076edfe857a6cd0749b85406ecfc14f2, 0x2c4c5978cbe976f81116003e82010a291a0082dbd92daacb0a39bcb060a8d5e2, 0x13e3c874118b9913d81f2d8bdf4a87a01d6e521d6548c66d7c0421db714dffac, 0x1c0abdb801cd736feaa3fe7f98515e72f7a8d72ef56b5952e6a0e807e2c685a6, 0xbd705c574e698fafc2d0979e92e9bbf0ff92ecb0a71378be168bda88c33d0d0, 0x49067c522e1f0393a320557b41676f2539d7815ef2b21fcf310cf626d13a133, 0x1989344c4aa025dd6a33c0f2ca58b22ea3f49ee5d29f0150ec05da44a6babd2e, 0x2059839a6b9192e77c6182e6e564002b930aed9f328d24061701ce784408e3b7, 0x2e29f425e322f7780dfc808e679480fcaa0761f752420a49075d76a085e80e28, 0x2b310e22ebc1bbfa6514fbdee2a48cea36c1e938a6927486fcaac8201ff253a4, 0x243b6f33e43a7d1ed19e7f1b8163316c0408e456180d572d52321b622a2296c, 0x3028c94e563bc654584b3f335b0bc3312ec0ff0df98d3c7f2d02d710e1c7642c, 0xce5a4699a96b251fe3c809248875d0b1d60b90cab8a30ec6f882e5ce1823fa1, 0x2b9f25a7fb74acd52831e38877f95297970b3086d7888a5c2e1c11ce1fab81f3, 0x2bfb58abfed4844f986fec4419dd8d83eb0d8a097b72b84c81c72a9eb4e4f7d5, 0x239bc1e4d55fc6ed2c1e41d18252c011fc588e358fe839e1075fb344ff366d8c],
    [0x26dba58ade8cda188f49e52fce7167b8f219dbd924d7786b0f98fb799fefa2e, 0xa948ca5c1f9c7d679c476d6cdeb6483d28b8fff1f4b3258aca45312da96c7d1, 0xc5c83d7d624699c3654b32ca98a4da4723c4601cd7609db406bdcc5a9634a9d, 0xfaa398f6fc63cc36b00addcfd69233489a8f96cac8fac8d91cc3c3b502d2e2e, 0x1db588b11e10eba9c51ad6d4d990dbb580c64c0bf499a3b41006dbcac277e1e7, 0x1cb8fddcaf050feb6977ef7fb82625d63f7286e4a0bfa52a9f601de563bcd96e, 0x22154748d72b0e00f0f33d6d49e08b874ed2c638fe4c33648adf8862748b2f71, 0x18bd4153a10ebedb78f02b14ea2663a857f458f2708394c628288cfbc802b043, 0x111deeaa497d2d32e93d6d783dadfac2726f8487093472ec4fe8c36bbe2bb5d2, 0x12edd647677abeaa0d99f2e4596bd64e1604f69552b6971c8ac3b44e7cd10a2a, 0x2a1d5873e48e00abde4902969a921782430bec7be01a4284d0455219675df9b7, 0x1470d1c0f33d2d5e2b2098376d16cba0738c4fe278ccfc3b824879535448338d, 0x16899463366b193f0dfb39b35df617118d55074561482e0a91283bdf40804051, 0x2af12631ed9ea59d387e2b2aa14a3ae1d28cc496e7fd28dc9cc149120108369e, 0x6eefb335586d1eb862c09c79eda3712bf64ee5f51913c14e64787f59ebd4fea, 0x256768779e0e07e677ca90aa7e514bb6eee69ceb47e749fb90ac20923d3af52a, 0x5ab1585ae26b10fb8645be74d3e1afe99f25546e0708fd16ee2493844574dae, 0x9b5ea9a096902a104e5b1fe5188a98ea78a373e7f9bf27f6218fd5f71f6e6ae, 0x2d34bed47cafecc7b37ca25901e9f5e3c658950001d728722dc56b71e2d4619c, 0x2d0071d201824d43fb057a0a523c701d2b8a37278b5178c18ed6910cbdceda12, 0xa770d994f92bda5a4b63e65ff8cc35f59ef5dbc20732e1580f703d41b5b6281],
    [0x26dba58ade8cda188f49e52fce7167b8f219dbd924d7786b0f98fb799fefa2e, 0x1949dfa21e6b27c70609ed2bcc7aaf4f6244e289500c48fd1245566837cc74ea, 0x18eacf1750c093e10b18f45702a42766f1803f4d2ad79399b86856d56d51f25e, 0x29c3379e427d4e89862989d63a72321fb73197b029092ab8bf24c127183cdc8e, 0x29fa50d3448bd783cc59afe8975b7da38d3410fcce680210b3295f8af30929e1, 0x1bd6d35f109a3549dc1da7f96953f1c38f069e9a44141e85e69908366cd65823, 0x2a58f6745b90dfe97d3f89415e375c43f464351bfbe3d140cabd8a343313eba4, 0x1e34e898a082d5a1bb452870e41bd67cc5932031ea8afbf460d6fe4c253ec6f8, 0x1f2884e10b6e90a0bb15c6ec37d269489c35a9fd5f2f8a548002cabaf189be32, 0x1297717d266d0f55d1a8d83e85c22948a89227f47408b0a6bba88cad4e4064fb, 0x2b9d9801a1b0a616582b65b84d5b76da1d6f428807f074108cce867bf1ecac7, 0x701f771295984199a107564c0918dd3c397380bd47e0a9f0cecc0d57dec9feb, 0x1a294c810d83e3f3b9bcf709dd22b810055dd3e6a11e456b284dcd40e084a263, 0x10103201721be8dfdc55548826c8f2c6c5ac249a66079509091b71179eed1d4f, 0x22d656009cc9ad0ea9a60cbd4eb058c820fb5387714d8b4ff52609638f3952f1, 0x1d493a429f8db9f3df571b9eb1d25d425a09d75e6bac7ea1c8c0da141445ba5d, 0x3d1a76c0fecbbd1ebc3b20370894284bbe97b8cf7b14bbc95dca839ec9c4c8b, 0x230688c1f26ce65d683b5a4033cc5b781ff38d4a4e28aaeaf57b495cf843b0a5, 0x159c9adea02eeb1276c2e1600930929edbd7e47b1283ed273db5ebdc596bc672, 0x1abb8a81b4629456b639965a0ffee6ecaae145990d97b2b05546f47fa416e57f, 0x12ad1b21a9c02da3018f187ac6a54e376f8f71fce321933f5ec8a55adbcd0ee5],
    [0x26dba58ade8cda188f49e52fce7167b8f219dbd924d7786b0f98fb799fefa2e, 0x3c6c55cca4740582956cee40ce3053e89ed882ea253a366d07dfc9a508c2e78, 0x1fad53f449b581d0ed39dd41975d9330768364c1a97d9fd511d0df16cb3f408e, 0x1fe8bcb3f7fbf9c21fedb5a0ae4dfb7ca275d535c7847b23cb74c18251b726ec, 0x218b93667ede394ae16efa07315ff7616f6864cb8293bfd3418f9d5b14756396, 0x41a688c1fb421db3d8716a64fc39d0e0677a5c43de90fd04dd9f3622baeb3ce, 0x2987dcb79171d214817a006127171695659ea28858ae18c6fa8e505a4ea02033, 0x14f45ac12d071af305059de0fc028778d5c1c8afb476d5b7b3ce2ea6a5f3250f, 0x959f1dec81c5f8225c1f2ff4ae2c67c73e4d379756f40ee9f691c82ee08c6e9, 0xac0780131779ad691069ecbc4f80886c0bd9518d9e04b99146d29bd7d9ffc9c, 0x2a7e23e5aa5668bc719b0cc26dcf781d2ca359987f1bd6f9099b953751c61fbb, 0x92c0b897d36323123bed6c99dcb3b50e397c722cdfaaa9bf6740907a4b653ea, 0x29b1674c1e4b705e7fd93d10a380145be75934710cf6b43d24817ca38699e702, 0x25db198e1a5de34b6974aa38ff53572ccc4036447a654aa7f068602233cdc0c1, 0xff3174ad5ae186606ffacbd55936b65838c2be6a635bf8c9941652a485b8c6d, 0x1bafb08bdbc32bf6b81d2026005e3ac6390ad3e36f9178be21034262ea674e90, 0xebcf6fc297c34138661ce9235e7c0153eda1f0c99173970442976ff849eef13, 0xd729230e5d6913a779746f2975e35197eed83aa613b7f9dcbfd2f713b8740b7, 0x20870e26b114e1e20c70ad2d6c3c29bd78918bea5bbd7ec8bc0a60980e601dbc, 0x84a3105ccbeb8137931901cc0a48ca7426e5dbe4d0095c11d63d0f91c64dedc, 0x1b1e9b1d59d5f4518412a828475ca50044fdaa1c3490491bb508d7296436d5bc],
    [0x26dba58ade8cda188f49e52fce7167b8f219dbd924d7786b0f98fb799fefa2e, 0x1f4bea0f3c5dbf0b4261b9df35e5cf6a5cc36973d09f0b35fad3dcd0a4c69acd, 0x1222849342a144de2b23e8bd848ffd096cd3332f57a245dd3ebfc26032a6186, 0xca7b33f1129a98d404e882ed0a70737543706248c7374d9aa6470583b24ab7c, 0x18f80a875ca2972a4d13d41d81a1cec56cf384780b5738e59988d9aba4cbb66e, 0x2428fdee2ef9912f4693ee9c2a59e82c625e23e9af79e990dd7884410846f8e7, 0x154781a2b5c4401f6ad2809fb9ac23f3136a8e3950ea6e3f084600a730c42d95, 0x2c554db641533606c10532eafe2439e48d2925c9d6e183dd85f0c24986ae38ef, 0x3b8b288b1e1a1fd2faefab9b4e00d9c503f8574e67112bbe603eea37b97ec18, 0x93a9b03da561b4ed6aae3a98f4d2a9d1d28146eb0e91464c25a0e8f2f6011c0, 0x108843f8d4eee7c9df86bd9a2dcf003d3ece8c1fbb2db80a0e225597ccc54286, 0x1f043a72cb5432a4c78f14505ee630bbd2367e83f18db047defb3ff1a495715d, 0x15a8fb06e0c14c181244b3f43d4967e28ba32bae1e84223037abb1524fc26413, 0x1ddbc950967b1769cdb4f8684b34d9bc25b04deb0fe5fb117ad609a5b7f4049a, 0x246a58e326b240d18618908b13785636f051ca1c3d5accddcf7cf4af1362b5c9, 0x1cf99a40b8265758ba68441a45b4993993d732a8b3b88b4d983a62044c0bf7db, 0xd7de5619f4c546050439e79af5f2d0b964ec40ac92ab9f33c617623c9d0479, 0xe5e16504bd5429f1989950e8f41adacc95bc94789df4f29eb5c623a9ce4ad87, 0x41f35a7896a627bb884f8fea782cb487c872dcfb82dce7d0e6941765d1ec149, 0x1537debc183e50b25642a94332739b9dfa8610ef8297d963ad4f25114897675b, 0x2d702440567bcd957920abfe3ca1796dc105a9d6d69df68f7040d45e14825154],
    [0x26dba58ade8cda188f49e52fce7167b8f219dbd924d7786b0f98fb799fefa2e, 0x14849e30e423d2818b033824be79e994d3b294a7745d47ba7a04412c976a4d86, 0x136803dc9b44527a2831afd600b224d3be36a4fcf1f1bb12f6f3d9c78a49b55a, 0x28ceeac4f3b856158657defc6ec2d98ae8222838625951aba51df3d92323af9d, 0x24e2a9e2a33795f29eec4e3e5171cd1a4f102b387032736248d51da2ca097dba, 0x176b7c931c84fc51a695bfc635c9b2d7e38c0fc9e39119a5d270be388a7ecbac, 0xd230fbc8ba30ea43febe4d7d57cd646c1679a1e1a8066637e19d7b5f783c465, 0xa3d177852fb1432eae4cea8005dffe984df233705a362ea87fd318658b1b10b, 0xea4e2627f1b0f14a84fb72f14025e3f2d4087b5e23e197b4be18de9bc5d07cb, 0x2b5a5586e185e6aff9ca42ddaaf4a48fcbeb342a33b7d8c30334f69917695c18, 0x930ff45950e0b3a55c7b5d59b1bb103f43dad87f10dc01af4f029f1334860d4, 0x13bf29d884e6f2f7718c62b49b2e4488f78abf3371e60ff6a55f8fe614093af9, 0x1347ec6f72f1e6424af5dc07e72c8ed704c1de25df8d0298a06ce875337f16d, 0x7f98eec37ea11c6a953ed4074e0de0319c71c5d80c6d9a7f1a7ed1642cdb3ef, 0x1fbd5467ac28426e82ee95d4e67c1bf39ddbb0d00c8edc994d01b085e81025f0, 0x160ad25d0a5b481711dfd537166e9a758f46ae98705c09a31bb5dc9ca672e06c, 0xd1b059d762e26c7b237c2529c1a2c0420112b04b34071f365768e31c4ee44f4, 0x576eaf22ed6ba9247a7c1cd5f36da28d3c82fee37029d5a564eae4a149f2ca7, 0x189097900e6ed2067403aefd8cb2d68f8be1386dac2cb067f346d027b92c13ac, 0x1d611f1ac08a2fd6b50b23612cd9a2dfbc77d3f1f01cdf0c97776885ee5f538f, 0x21966ac51d732445609cafb1fa452a675d16df7f7c0c932aa136c7914da84816],
    [0x26dba58ade8cda188f49e52fce7167b8f219dbd924d7786b0f98fb799fefa2e, 0xc4339f0ecf040eca09a8ce68b829e18174e1838978d18ffc85013bc4569bd80, 0x20bf882ac8fa2b8a798c0bef93c8faaf79248ddf7520bf6615b8d4438f3e2f4a, 0x1e097984b47ab98e3f1af30e8db0aeb16dfb7257a5d717b74a0302c0c65be5ac, 0x2124c450afb451c834597afcdeae34d494f42b83ce16525ddd426897cb85256, 0xae46f4aac64bbb73cbc4861b9d67dac7a5b9461185f1af393d30e0f14e6c86e, 0x29608e35e4618f2d31f77f1222d8461c5daf83f8f96a1c3c22ece574bad1892a, 0x8dda504925b8e72976d7225b9348b621d411c42725054f92bc5ac7f20ee1063, 0x2d83e776ee847bb606165d71c5395381883eefe3e72db208d05671166672892e, 0x158c6db4fa12040276f28c52fc4179c40c0b992ce3ff614cc8a335badcb5625c, 0x2ba81ac87e1ba4a0abd35ef4d5e708098d5b3ea59df026301d29b0c639001d1c, 0x297ca48636c22e1b41ac10da84d18930f4293297be2de6724d4a1c927ce6ac92, 0x1ec2fa366088aa3d24faa8b0857b0ee947e7ac412a5c383d80a52219e3036715, 0xef8e90ab9a0d92209ebc7ae7eef599134faead83d4cdc6a35e11486f256f91a, 0x1a1ba37ce6b31c46f06b166007b84b1b5a729277769da12ac45a05329b1ab25e, 0x1ce58fd6bb4c70f222a00ce15e034aa7f951e55745f7eb0e89d9945dc648ca8c, 0xc96b4aebaaf211ee53c2592611cbd815cd8ad79ab87eb426ac951d465200f31, 0x2ff556ea91ea4010ae322b26cc3dfdde21b77814aeeecd224d83754b6fa95b91, 0x51d4d2e3822d407607a763652423f88ab8ac41d836032e330dcbdeb89dd94d5, 0x1f484dcbd4ae03263c1043e2c67dcd871af9f682bd063efb99d6f2c1f58dc89f, 0x3625c6bbbeba41cef4419cfc7885a6acd236f23c10bc21eb96fa3329b0aa808],
    [0x26dba58ade8cda188f49e52fce7167b8f219dbd924d7786b0f98fb799fefa2e, 0x132c2bd9c3df321b8329f997d51ea4756f06d20599a69b00d9f5d327f431bd9d, 0x223271db36c5a5b734893666d05f8c23472da5750c9cc2185251d1ce898cdc31, 0xe442d13a0489c8ff0792219ab95cdcb6aac03d12617b498eed4f437e9e90f8b, 0x49bd7714d013f9d4ae5d6b0d8a1966e3b6ec2991f80938e99496db12778c62a, 0x16863ace52579a519dc0983e73f391982f34daeb311b455cd75b3c7f75c4a406, 0xb043bbb7a835e934403443a871e8b09789e825314c553ddb593c117ed9f7a29, 0x2233e42b11b31512cd6662e6e2d0f6123b84428079fd25823e39ac7be086c286, 0x1eec2344b54ebb5d2d89282cef20b5a8297eca522759df7ee82f9306cf7013f2, 0x7d3c2f7ffa7d307b1b80cfe7fc4fdc571ee008081d1a37b83d83f928aecbed5, 0x2040b72eb4e1314e2c6fe28b0e10cda2f444baa97cf15b110a5571ad006f36a2, 0x968c69a272239d4657b02e1e1157635654c2493c5dc21c80e459c36943c0c7f, 0x113daea091f19279a75d148f3407940605147f41277347181a2eb45da5e1deb3, 0x1db9caad8a73497abeeed4ce12162d16c8ea56a6ba6680cee0253d7010c8b0c6, 0x323906b531b036a422544f9a789b4818947bd7e1010a9d3147dfb298d747c97, 0x2a17b02e605c66f2e9191f6001fe8d0c054e9fdd72aa912d61b14db3e9e5ff36, 0x20215701f065bea87da0f51f31fb17022a2ff12ff86a3a7d50bf196b9a1793b3, 0x2ffb3a8d5050efe66c798eae2e37fcb0e75c8d3098463728f1258d3d15e9c58d, 0x42aafa50849b504124ea788b0ba7d398ce77b42c09f25618b1661af76c42d7c, 0x1f0760c47e75e2988c7c5f2729776fd656ca950959500807c33b15d2a20b8d0b, 0x1b41324592d37fafa8175af1dae1daf093b7bd074de9dbe0f47bf246fd338295],
    [0x26dba58ade8cda188f49e52fce7167b8f219dbd924d7786b0f98fb799fefa2e, 0x1326782be064b822cd54a82d526e0861f69cd054922b7809cb2f1c685b255442, 0x140941464435a4da425c24627a01d5d0620429caf2b74c1cd8217f6ec0c5952, 0x16d038333ef8265b4437495d35251402386b448bf2c652bd752875cd6abdd7a, 0x14b3bded0283d8f82452086053472baaa94214fc64e23eefab04ff3a666ef793, 0x265423dd06e1bc30d7ba50361df7b08371080b61cffa5cfcb4de6b840cdfce11, 0x28c4d3106aa551425285a62673853db6ee69f820a38010b1e986ecb25a517c43, 0xef4196f06abd4be2c6c77cdd3d9fc71b7056fcf82ba878a3c0f4a642184f33d, 0x9ae72038e07e063172beeef085b160204d41fff261164869ddd3b35aaa852ba, 0x1e653d313dc085a19473cbf173a65a752d300ac1001b2cc6f868c5aed1d5a957, 0xfc8d4790130083f7d876b437a36a5a07861bd3fde394a7297affba00cc0266b, 0x8889eb9c02f2805d59ad7c1cc11f1f8eac7d10cabb324cd28a4ceb64fab9335, 0x5e2245fb34a0b6d4fc8c7d9b98faaaaa578a4bc650b9ccfc08f2f94596579df, 0x1f303116020fcf151af2121de29d1237c03b89d27ccddfe6283c1edd985a8e75, 0xf0deb6bc06f2954f1ff6e7f2b0f5874a40a67621147f49d9208913e3da2ee1d, 0x138bd70bb31ee416686431f11be6768999f8a881cd5ded3fba47b1e715b98a76, 0x2323cc181a6d96004077fc8afa78000b67af7eba4a37699675326751ca3587bf, 0x2cc5a935240839d0916adf0ba2a13b373cd9a249f3dff29d4e636ea39bb2d47c, 0x2c2f7e211539740f135771a5613be1b9d5626f84bd9bd3d086f6e33e497d4301, 0x23a3b12944728d9d8aecd5b9ac2c1e8683a6d6fcde6de09f9d4981576f60bf7b, 0x98c6085a8de8062c4882a80a9b53bf605cd6d3afde925b4bd97dd0ced63a2d1],
    [0x26dba58ade8cda188f49e52fce7167b8f219dbd924d7786b0f98fb799fefa2e, 0x2b1aa48ed061330641b7610a5ca3ba0397bac5aed1220abf1ff3c053799d5798, 0x27cfd05fdfaab10d703c5613ac9c30f2fde048b85315e4cad39a76c2625878f, 0x2c6768184cf84573a0e970704987f3627cf4f467e72d878aba9ff0e6c32c76dd, 0x1660e8db6fb22994cd208878039549f85464278a6d593dd871de03c5fed8233d, 0x583531effd84ca69b517fded392f636537ccac39575313c04564411eb381b38, 0x1b1f369306d9312d665302317d2ef8ba8a5673364ebb84b82de156accbc68485, 0x26e1ae1e46325eef62e0ad0702b7c20411e5687ac8bc8b0c42f2294ad511e36a, 0x2267a248407bd8dc0be8d6d60a901e6a6f63198e43ce9ded8b48f35117cca600, 0xaf3dae82886360e75e265f24f928417f3404fcdc18896104e07dac544146d05, 0x1322272068ace8538671a961e8182ca7379ae8066dfa8824036856446ce68262, 0x2ad6d87af121d4b9d388dc3bd0fb2160dd0d43deb5d5fce770b3f66d22a865ac, 0x2db628ad83bdb8c87642ab36796e64464a71c8dcc07db41090014d6824e9e55, 0xbcc76f8301e3daafd571227cd8dd395fe5b1ef2a88262aaaa30eae1be85a66a, 0xe953f3e2a6ea919a39845e34a8fff06874f40fa0c021102551523f0052f2ac3, 0x4ed6096b59252ceee6dabce4945012b3afa929619e124fc1674f9742de6ce9b, 0xc45fabe45fad457d5e763ba6f401e038a8f05187a50156e2e4f73e9eb0c1521, 0x9cd9ddf426f07cd7ca72e4abbc3ca38063705cfe04a002396d91101f41a8ebd, 0x37124c13e8f5393d02c7dda6fc39b986e10f7eee7eb4d8e8b6798aea8bf8116, 0x12326c23b50b4f2ad7ad2a6e2f81e766da9dbaae3a85d5256c36f54f99504c10, 0x27097f5dd86e6bd0c09ec07ed1d565846382d11310d53e11e4ad9dadda2d2a2d],
    [0x26dba58ade8cda188f49e52fce7167b8f219dbd924d7786b0f98fb799fefa2e, 0x213719ecc1401b7f148d90bb4ceb0cfeccb1f84a03670a65cf2071a97c55188c, 0x3ce9eb2e5a78e09fd8f99bf3677cfb69d8d81fac2ed57a3796fda4c4a75e067, 0x2085f6b2ed31422f2ef8c9e8132320a9ea78f629f40050f9ae1f8d2212822423, 0x18c42b10a0239a0788ca80f40bca9eceb54cce28ad7025ad73c0441f46e25d7b, 0x2296d46885d7edc9e2f4552a8f61e0320ab91104076ba093415f525ee1bfcb4, 0xf464a47774953e1647c8823c1f0e7965faf6e8e51a392f342e27f6b7e1e3fac, 0x1afa5a730a377f7595ff598c11a257e2b25dc96a71a536671e98c4fef8fbb126, 0x275f04d5ff1c821ef2729f6851a372c7db62bd3d45b68fd05375753a9ca38ad6, 0x1ab45e9a2aa1daec4586bc866bac1bae78d8b8aa112962f34c5c19a4588f11b1, 0x2c2b2b27465ba8f6c19c1b3e4b52ad9e76df8671ac3817d8c467fb7ce1a0d9b1, 0x3cc2c6cd22dd586414a1f19bb9bb0f8b7dfde77369f2033f036bd19412410e7, 0x17b6daf401b7e08bd9c414d067a6cb484ee05cb2e7c0791ac2bf415e847705ac, 0x43084224ffff7fb2e73981b3d2da64588e746e1ff0a8e41021cf814e846cef3, 0x19d25137be34aa73379f19107fefaab7ed485b5d49124232a91341747818b125, 0xfbc00ac7aab927fcab38cc1f033d0c79ae42cbd8af8b9c676235361805f797, 0x2a452e57d835dfb153c5d5ab716c615586a692f22ee8bb70cd32ce786675b85a, 0x14ee41c5beb4f4eebb844ad27cd712b8b7b7d3bd96afb18417b0bd83650ecf59, 0x151e1b6f64a2a6ac4afd3ed3adcb59a2f246e4d018a85a4dec29867998bdeb1f, 0xdbc95be9577eda26c26b97276780a2c44046eff2d20ef3e233bc513eef1d289, 0x2142c00dc3ef56e58d4fa535297d2349fe5a8720609a459de7d10ee2ac206735],
    [0x26dba58ade8cda188f49e52fce7167b8f219dbd924d7786b0f98fb799fefa2e, 0x14f9e34fb8cf902037da0287f7fd59460ee42d86542ea027f5065f4fdb362030, 0x1af072ef30b93499a21687071d9596f8c0720959f5aadd473015a320f525f3ea, 0x1f79f8f436951eab483845158d798af4940c43b6c7606496ac7787e23d513562, 0x32ac1327d91fda3e58b64a629d066b7618b0d2bb14bf0054f8a99ea94a7f9d0, 0x1690528ebb80ebae626e4c7ad7808201106c3f6958a8fcccaafbf105bb982969, 0x28d5726bbe2136f717cba221424342090f8922b607e61fddb1278c9090879724, 0x2b8c6cdb0da43e1a2436f8c43ab3746356bbd0a40ae0f4bc282c8f24d205b2aa, 0x1057e1a29e1cf4f016b0ae4b377cb2946f4ecec14d8a9e906e8bcf994968ccc7, 0x26175299ec4bce279b5cd865110cb0f7253e035e4dd530dc78e98dd167a02c40, 0x2fe4d13a9ea0682f7c6c79e2faa642823c6ec6166864a3becc3aa96a06023078, 0x8faf60f2754c6f88af83be51d4d8fcd91a530c7fe1a7e15c04672be2e26ff80, 0x1125b0b9078268105061cd44cfd53e59b4441c494e4e621513c0e2a7897f2ac3, 0x2ca18674217c0814c200984a2e6d96fa6ad7a93a350ccb857f291dfa0a6b7c87, 0x1b654e8ca3777847d7febd35e71555b5fea755b167581b91b8e66e7557a13755, 0x25cb5e571aef3c5ea542332f3cc646f940ce1ea986284074b9ec9a26028fc3e4, 0x10152a1913afbe44180af20ec59ec32a3935fd2b531d968f71f0365054faae15, 0x27d1880942fecf4f9e46d11a1e3db53c0ae9385a676104de122c85c67a61b3d0, 0xb4adee6ba01707c232fc173d7db356fd6dcba566709cc81dce13db425685c, 0x1e4ce7b0213b39db08d07fb861278fc32ded0de6232c7e050f9e93e4abecf7f8, 0x9e5542f2b8481d63429010b3f89aa2c01b07684b08c406d0c85cbd0fd01d2cb],
    [0x26dba58ade8cda188f49e52fce7167b8f219dbd924d7786b0f98fb799fefa2e, 0xe24744fcd2826a25131911f4fa8edcf83597f52c72906932a58f3047f9d16a3, 0x17a27cff4f6f9a2f2a1bffc998f0ec03338c0fc3d3ec9794b13af50b3ed177be, 0xbf90dbe6022bd7df688eaaf3b9030c5b6ad0c3633b351abe5905c2a2b2eccb2, 0x2678e3c1f390d5459696d950dbadb7b264f8284ddcefaebd120eb27e2b19783a, 0x26df8104d4cdb377d22ad344e942b76261b457f52d8498fa69de4e1b8ed37599, 0x29c0d6adeada68a869e934d2350a77c91eeec6da2c0d7dd111b8f03d73a2f54d, 0x1517295c7a2561c1186efce6e54a6070307540b69bffe623abffc8984451bf14, 0xd79894bd7300df6fd04a93836438358cc4d6e6921da38520a04fbc8fb4ece95, 0xbda733ef7b53f5843811029b9a5c412237a72b96800bcdc6c71223d57157917, 0x27d91c5d822f56a78c86f2422ca4786b94aaa2f3e066fbeb35b81c7e16c0a1b1, 0x1e6dd8c7e739fadd91888860adf0392f260272a68d32b914f8862493847431e0, 0x115d86835c20a27ca16c0aef5afdd73a1b6b7ca6f12116720b235274ca89fb5f, 0x24df0f59376b1b5e39d9ec2aad776278fab288047a2df5df60990dcf935aa50f, 0x45885167ee8e695c6ac79eaee96e087946c584049012a309ab8ec2087491be, 0x44b70f5e0df4319827685be272a32a36ca3c4148b97c13bdab2bd0fe365bae6, 0x2cc8eb658bd3afc8f4209a1c99566705cafc79332571f133979940b14d736f15, 0x238c44c84ee349b63030b0fb02fa7653e547c4a6329b9902de3602c3c4fdda0d, 0x19a32cb6029fcc93db2b01deb8264a9eb157e995ca21aa0e335589b06ff77be7, 0x1c8612ec98aa9278caa8cb6afdbd00c02ee2f551d3d521ff5e9f92748557933e, 0x2a6509f5e770cc50d718f8590f5f9de7748372d2d39f59a859c9211ee4bfd50],
    [0x26dba58ade8cda188f49e52fce7167b8f219dbd924d7786b0f98fb799fefa2e, 0x1bab122c560118bee8f3e7fbe1712ab2b2a7312af61fb9820b77dee8d44d6ded, 0x27172e3eb51483dac0c98e32f05fbce687414c3a3cc27ab1c277b13ce2378217, 0xa9e3d7f3ef34d138cdaf36b92bff06b4b73bc9ce36156505741195b98d049b1, 0x1eca82667b9ff6adea09ea840efcbafa5e206c97037e01ffbb28412fd2bb44af, 0x1dd8dfcac157843cf5f94f9b10baa21f00e02a2cb5193944c3d3e970f910cd77, 0x23a1e6890522a89b9b88d7db407b00dc68a40692a366936de0eb9a57bbf1c219, 0x204f236b39b9136dc92f8135192c87c98c7984f1c77cb6064c71ec047975ff67, 0x2c7480b893a528fe00d1ce1e4d22b330bf286443fa443590a63e27aa91eecd53, 0xc5370a183a6f75b698c0fc6deb4447cba5de9ef2002cd8eb2904adfa4645843, 0x237300db179a8dd6b6d784735cdf4640d61d44b518ea8848d8321cda2b7b4789, 0xd9c58331bea02ccab4b9ef03eb202f1955b266c6666ad886272fdce7b289da7, 0xfccf4375bda2c5db513e2dd0638ea1d2edaf41c2c754482f833e17c62d92019, 0xc414e955b84493a9a6c827f24c39f62a9f9c2c8bdd9f76c3884d16217d30c87, 0x20544d89fcc7941ac4972e5528300d0c35d5a650b8ff51f72974008a312d40aa, 0x1af59412421b520c1171d8b74057dbb01653f41082f856ba5aa6abb79a43c354, 0x2fc1a459440613daf728da1cf3a258c093bf41706724e6260afcecc13d324b51, 0x177c1e93ee0ed483c73f148fc7f9891cbfc36a338075bc01498a69b0e1f8c49a, 0x98c005b2959ede9425452eee49a4b0803237cf111f046511f8d56bedefa7682, 0x15866d82d251f9afc692c1a115cdc5ac28b4771bea862dc26643e6db1d61978d, 0x2797e81dc6fc1e231f5051d228081b46fe53fc394524ff424963da9a91070bb],
    [0x26dba58ade8cda188f49e52fce7167b8f219dbd924d7786b0f98fb799fefa2e, 0xfd25da5fe62ce50a1525fe9e3566e9ff0c9587302f778d7756bd05d8c6aaafa, 0x2a1a6a789e908952cc8c2e72ef95a937179c9248b091d016f28e38db12312308, 0x2bb3bf8f61d1ed85e2175534e9a5ba3d17dcadce45eecb3d58749a03e2b04fbd, 0x1a30a88ce2e48fe060eff18e1c7bca6257b8e39351823a819daf303f5fe641d9, 0x5ecd325b357e47482e4e749cc8305b45ac1e65aa7ddd915ac37f3098dfd2d98, 0xfd33eed2e51061ed5cbbe5de05b6ede9152f36b11468387f518a997e4f72214, 0x95e4c2caedb1de02a6c60b086b8d8b67b9afd186f65e158d2748d2514d37b0f, 0x1842d38786dbac9400929648db9205d259677647a5024e35caab08260744f013, 0x203defcfa6213a500d5a788db1e0ffe30874406355502644de206a7303dff361, 0x2941a9e3edbd2aad6138cb7582c8522c1ac4885b719dfaaf49ab0a138c24c657, 0x10ff2a2017cba3c024111db07e677587896bf77e0673a928c5c2c9edc53cf2b7, 0x26f456aaabdad81d33930cd48342be34c4884d52c17c604b45e9bd80cf3c19c, 0x28e34a4031ce3e5b92d5d92f9b4733668ea65762bbe5fbbf82cb2eca7e208d9d, 0x9479c03abe2fc4bd11f410d7fe958aa64aad1ed9ce46de12e16dce1aa9007a1, 0x1901a62758c3b95378ffd836f543a2c2c1922ebb864000184b1a29167ed608b3, 0x24bbe4299e388e01c96d7de61ba9e9ad46256f8d8c186b2e3a387d558cf912ae, 0x27c84170d0a49798dfc9ab4d6a96731d0e8de772ca951c3ebb799378d22033e0, 0xf12a9b9e0cf4da08c085755f42f2c83cf9f9addaabe06fedafbd1ccb7696e1b, 0x2e34fc5a79f3d7859fff73ee159f8a963cc180ce2351f2709dbcbf6ec0a2d7e5, 0x6d2b2ce15705618d1574127c9324560d2c222065da0c669ffd2304a1bd31661],
    [0x26dba58ade8cda188f49e52fce7167b8f219dbd924d7786b0f98fb799fefa2e, 0x5b22e29f9914100e09f1d9faa6ec48b849d06dbb567b978c8e2875b8eddf2ee, 0x121d7d80eca14c71d3a9d568d1fb3d17d848312ac21722507029ec3df61d64a0, 0x248644294d40fc12cf53892614ec0e91eb6261ddb4de5a54590770b5a63791e0, 0x8fc50ee296f9fc6e508a23b38d180aa92fec743bb5e62017ee4a3f7c98aea88, 0x2f233d2487f18e22836df893982a593c74b7294f6cfe3ba3edb8272bd2559179, 0x10f6d94022fd2c078fc6dacb1532820021f50f288ba40ae4016366dfa703e8d1, 0x37d5df7e15cf95ac9c4bd02ba53e6d03bddd677a412bee4e0603f88ea1d6ef2, 0x12354c8b1801f10dfe6c394b08317c7e86f49e212ec933fff49d8b26553f3e72, 0x79679dd2756be024feb1bb2ee0aa5061a39752cf710ed6c9cb588f33ede8d0e, 0xd3b424ee9455f137160fa1dd534f67bf068cfce1913a075fdf1cae7e8324ca6, 0x227338281ee7da633b4b3938f5bb981f838c40ade4a0710875147f526fbae49, 0x234ac22358b519377341651ca93dad434807cce449087bd4384f46fc732f7997, 0x2e0c95ffbe680fa7622598933adab2a57c472a0073bffe10c0284739b26700b6, 0x15e0c89cc6c36a7db841d4270855d1d9b8849197f9b08131b625d5a6d9ba693e, 0x2f8952ad83b1ffb3c1a4fbd1064faac4f1c9cc31d0ff156a17478a1e3d255117, 0x1c7c48183ec207dab68d73aafeb96047ccf668318c084453e495ebd5f927d173, 0xecf362a269cbb8e56c2b0537f108a412ac9a3c6e351d0d27d365a4db7cd75e8, 0x11cd56f9dedcb991c0c6cd9c9a0def911edcb915dc1904390782a7ee90d0de8, 0x1ee74e2178baae842dd9658694381cc93b01592c655160923d40f4af2b53eede, 0x12a2830e24c8bf4e9c7f019526f71cc57bad7995f38c6ed20306bd7b00f0d7f7],
    [0x26dba58ade8cda188f49e52fce7167b8f219dbd924d7786b0f98fb799fefa2e, 0x14e12ee2c2f82a572d97c0b811a25584bbccc9be1b67ed1aa2141b2cc793fbc2, 0x4f32291e7636221ba7905a9a3a1cae812ad570260c81b3ded9af33619fde33e, 0x8a081bf1497e5210f6e0413c8b510f000fcf4a46be0a1b8442c5bc7e5fb7751, 0x284571ffcffe707510d0feb89560623db7e3bf57c9675b02febce95fb7969e8, 0x204b298a08577c1269dfb8ec9b4b3b502ed6fc3303544047d56d4135d3c01ab8, 0x484b3ef7bcf5d63934bdcf53d8aa372a0b0363b0241320baa3701e8a1d0da03, 0x9da34491e52c865a5b080cb9791a1fb80152c04335b1dabc34ffa6ad622842c, 0x1fa3cef56374f00878372c54070d9c41c5ab9ab1d385968daf9ca2ad67d494f5, 0x20b55b39b8df6f86a2ca381e2037d64987d1844c599feb2829648955ad16f758, 0xff1c5369778d4fd96e295c21bef4dd4648fad9531f669e704ad2e4178674564, 0x4c4c92112d998d5736b3f46120404369c9c0e428e47577c857509fa556a15ac, 0x27a72f4b6e9896945e7d584e41fbd3cd5f75862fc6ec94651f5033c8da34cd05, 0x2a1e46726ed9068504f7becf06cc70a5f645811bd65be579194b54486158599e, 0x15dadcb67e30b77d8b1e5dd79edc36c3d8d0afb29b6e7f0207455e92a301dc93, 0x29c1bcabaefb4954743a7a04502647c11c9f18de67e21c811c8d2b9f3ed82dad, 0x7d089a851d1c43af05e6c9243b69b77b12f0c0b0dd25351c522ce8dd99fe5b6, 0x1003d2e1e5368d1318992f181b7cda7786ec3e721be4bb89089bd794c6e9fc6b, 0x1747c287ece311b5484adecef423434d71ca807924c54a53e31109e6a502ea15, 0x134eff601bde8da30e62898b2e05c17f6e74d4ac31919c41363884ce7e30f017, 0xa2d92f328082a3fcf5809958671e304daabfdb5708edc2cc207175526ba3e27],
    [0x26dba58ade8cda188f49e52fce7167b8f219dbd924d7786b0f98fb799fefa2e, 0x4ebed2d43be5a74e8a00caa83989f16c0b9e82194db68d072226148c0a3d710, 0x29ab24663cace590f69751506905667079db84d33f78204a31c93e7bea1fa839, 0x14351a07d387943cf46b65496c66bc6f3bec8ea200d622074ac2430eaf521d78, 0x1c423576a075f1d7376168b207a6d7203712c523c67a9d38882e8642c8fcee02, 0x2c0564f1c52ac2d9f46211743b632ff07b210916de258f83d04df68ba0e29228, 0x7ae7e44ebe17fc24a06c9caaaf787c2f007c640faaac6bd1790793712a69525, 0xc4e1c566871f3484afba7d364ab755b839b09c5771413b0c31ed6a0fd2f4293, 0x17c4f2873e2da004f2eddea08a30a9cf2e05f196fd3331b6f7f1227ddd8e7fa2, 0x26f0a8ab7b5b0ac4593c98a899ed92d839837d520c5f6f0afd65da69a1205cec, 0x94dcf41915c6c7ffa168dc7137afa6778076c2b63ed63d1ab1b787681bd60a4, 0x15240235912d9c5ead8feecc29a4d77d8da47e9d1909763294ea18c027f1bace, 0x2bfec6d12a548b0fb9fd176c7200df86c3bd785d86b51b2076bd9d3e8247312a, 0x15954dffe4cd018acc436b70b029e0146529a26cdb39151468767b88c80ac82f, 0x1f430be26a11f722560b348b1c5b526894cb458d8a30b49887713d76368302da, 0x1360de1351ff67b63c312a8cacc2a465bb82dfdd3d792244068292aac083c8f3, 0xcae448f98a72597e67867a24eb6ef2c1ce5d454fcf1c9eb4d84d21ce81590c4, 0x20e9336dd103f61a54f27fab65e5fd1a317e75fbb5b22a81fff27ae4c8afbc95, 0x2e36c0ee853342906730e7a2061c3aa2dbdfefbdb554b3a330c0ef34bba74020, 0x21be1082ecbbc3a316c9d73495cc08c60082e1c20ad3d4eeb55553eef1a96dd0, 0x2c7cec0d47c779dc5b614efda39049642f1ff409a40be89cc93e29366df96dc2],
    [0x26dba58ade8cda188f49e52fce7167b8f219dbd924d7786b0f98fb799fefa2e, 0x287c8d33c0bd8b9ffcc38d1a3501b462711a41833390aa6291b5691321f34f3c, 0x524f490297bfff16e253a88a02b039f4d7be41c62a47525d615558fbb91a31a, 0x3a6f7a96eb42aca86cff7e2417d245dc19e8c7934e91f3dedb429ac4de7c61e, 0x155dd1bf1b5319c5993ffd435ba45f0a0ac8d47ef063423008b858ba214844d1, 0x1970a0db54455db508f369e376345b47d7df8dd58f6d69cce8330ed48723773, 0xa17d8e77907e26a6c23a52ef2b39064da014f030b5785f3ced98a8daaeca3f5, 0x199b42a0db3b829ede26736dc7fef94f2f211679cca63e75dfb6a221d4897807, 0x1d492d7c7daa80eb64f335e9cdf306b0be4b418fb7edf32eabbf0e89df5b8e61, 0x17c60af0291bf796fffdbc57db59d03897c671fd729bbd4c498e6069d0671ad3, 0xc646e58e3442bf43b2255aa0b44c45c87bf5c947ca5192eb906432afb47791a, 0x27bc23b6488e38e2ea87dcebd6360dd420d7ec90a58601eb1e312c6998a952b3, 0x1c50a70dabeed7c79cbe2f91b2f9a1d3ca9ccad68afa0a419745160b03cc07be, 0x120ae724abcc772ec7b0ac90719be72e9c17059b191f6e562620484e691f6e4, 0x69f84058a0565f943c4f5cff4c939581975165144f1d21c05217d64978ad803, 0x14a086d34d0cb4c050cf996b086aa3a21e451ae658ee0b037e7b0ec28f5905bb, 0x2fe2f8e67ac2734b8b1f6eb408f5f62fe88780b37d4d0e3396c8561309f1392e, 0x1b125268df7d9e01d789ba26c5956069989aa5328bbd46bb3a1c83e29b54f3b8, 0x3006fe14ef14b876c2e1e2c7415c98b78918cec927d8b711c4e11987c2e2cc59, 0x19332e6cc8221b23fd7926c431b68c75583036a24b7e6524527eacf775b5be7, 0x2780775cfe1ae1fe97897c286142833fe289028ac4e51285719df14c4ec967fe],
    [0x26dba58ade8cda188f49e52fce7167b8f219dbd924d7786b0f98fb799fefa2e, 0x1474d911726d98132a38828196f72ba9ea28de0e540822b530d53431c3f787c2, 0x29778cb7afc99ff62da1a393d60b87bb8573606ab7ad7cd0ce647bc1984cbb10, 0x1483d10c35376ed7a027168198d871358c79afbba7885d27c01b766770646814, 0x1a8c31c239faf47d773bdba0f70801eac0ac001c6df938463cce819a72a11591, 0x2c58e07b869bc14bb0eeb649f5c7d9c278b6f7639874ec404ebf75f58dec4831, 0x1d649850732837e1c07c9f303d6278bb14f5a54ca14c86a26379029023c3c6d1, 0x14306d8668280502119170da14128f6a340f1ded7e2ba209004c42fa628b3a0c, 0xd417ecfdcb5924437742605073656307d039e23dc9cffe05ef8416e9dba3a1b, 0x1b5881474a4679cde79a4b63249d1f98d8b417f1161599f6725471f582019156, 0x2c571e0b35cca4cf4ca7121c9de0c4c5aafc7fa6f75498e8ec57928fb1c67d64, 0x2637d9a03ba20a6cd7ed99a69c38a6d70b79d05904e37c9dbf46ab2c90583770, 0x1cde7eb4a685a52ecd269169466eaa897ca783401860eba2b6026e513d6d393e, 0x4f817cbdfd445391ae482fe7248567a0c8b82136358d239d4ef180dde2f489d, 0xda99ce6262676118f51f86309d5288eb65c95fddade417046403bfdbb087d7e, 0x2505fbe37c3109a4d1d321b72070a152625ff3b0fb76ca925e5aa2c058879ada, 0x2783007044f2d12e5db30735edac84614cdb1b19f69901e0f601efb3d44cd5b9, 0x1e145eaedf86b1c5cabe622df4cffdd8155e6db891ff498ff0b887f4ceab124d, 0x8bd690af3ee78b6d212cf184b969f3112d45cceb738558962382227a434540, 0x5a5462e764a4f4780125247cb6befaab7e4dc0d26e2d75f44087af9f6187b4a, 0x12c972140783d7889663c3c9da5cc43cd1a9740471de97908a62cc21d43e6e7d],
    [0x26dba58ade8cda188f49e52fce7167b8f219dbd924d7786b0f98fb799fefa2e, 0x16109bf9f0eed78c726bcbde7de40cadd12343460b04ba93a52d969201f97f7a, 0x1e85f44c0c271ef8b9a9a29e3cc73b3b782c60d4ed7cc7624d6aeaff8e492030, 0x9deb8ecc3bb2cdedba96ab5bd80b15d4abcc49b6528e84c1ed6971fb3aecb86, 0x7ebccff0e97b9ffcbc6a2b256bf888739c0db05bc5d98d9e591bea4d74b5c7c, 0x2124e4a429fa993d32f641febec0b25b9725342879f76afdf4e9eff7608eb81c, 0x1f4217ea25fafd2a62aa709ef72365c70d66a4bd4d756ead776b40521b29e76d, 0x10fdddc5f968f32bb7eb9555c0dd44462771f57424a761cd884cd0c152a35fe4, 0x201c0f5551305ce9fe25f26526e409c0968c80b9e065553803aa38bdaff0182f, 0x1cfeab50c568b3dd5c252b7cbbe28678939231d1287580ff6222d30821191ff, 0x2b4c60bb89f1ab1bee21f45cf38de8335a2e85b513fe3a9624eeaa1bf6255765, 0x285dc6058b80d18829ee46322acf51d442ec61ac331af40ffab6cd30a07ddd8b, 0x13b9bd7d2cc334d2f60d6249ee87d05e356fd182830d3b3e9f435c6240f47603, 0xfea707f44889ee47e8d9859c523f99c432083d85fdd6a8c75e1bb5771c10825, 0x809a77036dcfb9ecb677ffe4e09ee7fab157ac28330abde61af824725d9e74f, 0x152bb1a773b27f82406efdb0e1557c03a9397a6d87d461fa6f2e06ea9dd4e208, 0x29da79b1af8bb1fd1dacddbcac71ac28de5fbe6aaa9e30f471acc532f5fe9290, 0x252419542bfcaecc57733b02751f5142834e93f4560d7b95b85ad6423073be, 0xc9ddd8aed9e907c27fcc361067f1b6c104c2b0a553e6d6053d2f82fd8cf1cf, 0x2311bf775d429e2b982ca78c015cfb0a863fe4753625c4b63caf8e4ce36e37e0, 0x2a72547e8d5bb41f0623072d419bcf39d08e5aea781b7358e95757a0664d4b23],
    [0x26dba58ade8cda188f49e52fce7167b8f219dbd924d7786b0f98fb799fefa2e, 0x13ee4f15f3b425aa17da17f6b1f5d00cf09454a9515ae5c719a2d2dcfb41112d, 0x190daca6e75275d36dd65c372d302d698b1a03757c0b4c7689e59bc1a0169f61, 0x994ac0e199f04446e19887d6aea50a4e94172fe29818bf60354e92ba3ec6d37, 0x19d35ebcf34f6d72d2cc738a968ff2acee72f5a54cfede510482076fae55c450, 0x13b39ce996b064bda9880f5a6ee1677d731851ed9c895f19add559025c0decb9, 0xd53028037010842c02855ed8d3143166621d870199dcd06bcb970d30b8adb7, 0x26abf84cccb79dab1c143c12cd741320c9811199329ac1b13c240f33cb0a1476, 0x2f94d075a38862b56155e5bd18fef09e29267c0fe03259af2122abd935054209, 0x1d073e9398a1528b81d2a14baf97ce3081340b03c22ece28408cd284c2752b32, 0x1dbebbfaeb42d7d727f73f93ec0644264cd18a0180ec41db0a558f3b4430abd2, 0x2fac339c24fe87e3763ae29dd6d341aca13594792f6d48c66fae31b464234fbe, 0x89dbbd04d315a29ca4c4ab69cd041eb3f8484a1f4a726139de0103404e073b0, 0x7b9bd575f2ab6d2e57a6112b84c02fd38e25987794b65487f4975d098578ee0, 0x26563d3ad82384b0c3bdaaf1770c3cd5a04873b239fe06dc21900ffeca0346c5, 0x24d55232a8e458e4738c163f81ab363774595c7b79722847e3d6341e1650c80b, 0x15f6a6be40f74352caf5e8c0d27c8a96d233f38d778756dd8b09546416a42a75, 0x2e195aac1f98bb6fd894b6c8c78d0339d8ad8b48f6753046eb438897ca67cfa, 0x240c714f2346df0e0a84bfe85b6f624b177e2fbe84b253cc4dd67c84fb30e574, 0x15f8e5e81c571e42d0ba368ff59ad375c2de65558b61c63d08117bc95de0a133, 0xbc0472f8203755eea5f4a54c4202293e72cedce2f9e697cef329b4a2e4f365f],
    [0x26dba58ade8cda188f49e52fce7167b8f219dbd924d7786b0f98fb799fefa2e, 0xc8d9a3a7bfc7f53284d3f2d8493110979d2c58fa350b37572ba8ecb87eaf0bf, 0x2a431044a8b80f847d099afa8c1e72d7f21894f3946b0126655720f8a6c77857, 0x1181a1791fd2439ea67078819652478d6767154c7a9d04918373cc072d53ae2e, 0xf0ccfb008217426f92cc5dfec764630d0861c6ff9be2459b227266741a7de7a, 0x41f755b4afa6ff133e8e46fc826c9b3e70b45db7edb7ee2ac500e47e9844a9f, 0x1751a37439e9124554ecb92e3006d8c560d6109b98570800c2edc590016b5709, 0x2abf7e7390de929b5c7d29f75e5c341be84679aebf5cdf21ce295cae5881865a, 0x173d1a4bd47ad310c1227e8d26c8c7ac003258ec98cb99c4f5da10c2fed0be99, 0x208d34eb4ac78f934ee023480a4b55edb26e044d9a46008804113b8b3ea6e237, 0x125616d001a18f80550970d010e57191b13574c8f737e4c82b47be6b1984fa62, 0x671703eb5922282742b194f3c2d494840e872e60fa6e77c66fc03868c71abfa, 0xe335455fdb0c93b70a21ae7ea60638481071649d6bb76343651667a6205ed83, 0xe83b80d5c774f2c4e2a8c7f7dcea61c0b0f000c7bcdca6bae8781aedc2513d, 0x58c57cfec4eb7be81eea51addafb135b89b2c5a111bca597f5212eed8547da5, 0xb1f27ab7d0817ea3f949179fc135b60938c8c20bb9cc0cec20b1bc8c5fad7c1, 0xae5de9d9b873cc4211b1fd9fb2e0717ce46072da5f7d8610560c9582b7f06ee, 0x4e515f4aa39a0a8667cf06abff04d87ebef4d85dc32ce64a80be9073b8e0163, 0x19f6c6c86ba20bec8725fefa5ee70cd0b1bb88b9b20847927e963ecc6f46d376, 0xb97af80e65d5a12a9178351fe47f3c6741b18408ef108cd73a56a785f657fe2, 0x11001edf4b5785917fb4ba3f1cb07e46f8f038edd5eba9c657dc39b3f6a254c1],
    [0x26dba58ade8cda188f49e52fce7167b8f219dbd924d7786b0f98fb799fefa2e, 0x1f57e91f818cb6ec2ea89a4c5248e21db4ad238c11e2824455224c316c6de448, 0xbcbc929529eeab2f4001235f0dc786e792af2641c0db97dbb1780aa611ac51e, 0x2ffec2a43cb616c220af4bef1265a368c46b0d1c049e79d489bd62e461669061, 0x18cfa39baabd3a1f352d1ff2571411e36ff0c72a2796a40e9fc2238d89d99383, 0x26d86eeda466378285e93d468c3686ab5f649a40ed46a52c29c2b9aed41391cf, 0x2120bae48bc4d0b019112e48f3daef5b38b9991285c3d03e150a21fc03826de9, 0x2872ab1dad0eebe81027996467b9767b38ec6dfbefb43d9537d0ceff4b0d8032, 0xcadd0bbb15b10a2a3b5976ced621686e190691ddcf2911a6d7911aace0ee731, 0x12f83ac35b2e971f68f375e239c28cbfc8010f2d20a609ffa4bf3ca8078870d, 0x247b58e9d413e3b9647f7204b141fb1599eea15d505520b47d61c11aea6b1eaa, 0x13e4b5310fafb562358633169e17e3431a821e301a178c33279f5485290de69, 0x1da54e38f590b18af24713a270573e2c12e2b569b0e90992eb88312117269373, 0x28b85a60621eb6d7d4633f180f515bac0757a3377dfd68181bf6a65a9599121d, 0x1a152410d786dc50b32af794cea9b7fcb7fa48231d536b3c18dbcc7509606036, 0x92699deed292bfeeb718c76b997538a59e7ac548342832dafd64637e738f1a0, 0x774bf3637103073fe707caa2d322d9a9044e4bd92d81c1e0ba56467c591a487, 0x1a2f16440b008c3f42154123ee5c0c0f06eca84795d9b104c43857bf528cf79b, 0x149a1d50c2c217a068dd2ebce1907172d58fd0a3123debf849d13d873648a8bc, 0x246086052d1ce8675e03b097029adfed9a97c8f67f606d7093f6e412a7b4bb8d, 0xe2a84c4e9aa19be7da3e5d4dd74a495d308369e4b26a165dab9c4238eafa4ed],
    [0x26dba58ade8cda188f49e52fce7167b8f219dbd924d7786b0f98fb799fefa2e, 0xa62dc9863ad7e45ef7f77431acd332fc30280f65ef1ceda4ccdea63b3ceed3, 0x1b2446bbff67b4093c04a6f3e904075a796c5e28a5a6e586d6440753ba97551c, 0x165b84f51091009c389eabcd7fbbc992996fe32d9f8435354368e1e5b1dcd59a, 0xc193a00c3e7e8e353d0475afadbe369f9a5d17169a169ec197977619136eff3, 0x2088473c2b6a6ae33c857f94f2f12b90d7f5ee0569d96d801fa8b87194fc4595, 0x8787d2cebcabac086e9e7e1fafc216e3f8fe5335bd4642dfd1708a82a5371eb, 0x11191767947a0e4f9c3f782d1abd55624b55ff7087f34478ce0a7aa7b2715cc4, 0x2d28a1d818e8eb1efff60aaaff9483679cd5d77a701688dd53df7a9df567f5e1, 0x2fe813fab1011dc74f8a18e5b039dd373f0070ab1dd4fd126718a087cb2b8f9, 0x170e6e3fcd10c27d012f844c21af6850284e6b19fd5d1fe8258861d9db249136, 0x107d6816c1e3db9ea8bdc485fdbcc7f13e6134e807d7e4d686c587b4b02174, 0x19758af0d83c9505493b5419c17e6c4dd7f2ff338e60e9609259dcf15f33cb96, 0x94462f324ece93eddd9764f77d342e248121b7f1dede3f149571a9d9890ba7e, 0x86086b36fcdb387c6dfa2ff39c4910fd0af2fb3ecdedf957350e20ad3c843a, 0x2e3cfaefc61b8b4800158fede4808cedd9d7cb5b2280c9b1590e0429a83b3db0, 0x828cdea83f97fbf72dbdafad73f0954b8849f09a7f12c3bae6989012f8d9fc0, 0x462d87fc2c8185981a6d5efc6e31654b2696a1c42ae60b99eda523fd8c13ec7, 0xe8224f268418104de9a75f6bd915d2861e8e74a74057319dec312cf8be4dfc, 0x89163233ad979f94876f77c9717a7cc3171425a1b484d1050f7550e31c5b42a, 0x13f4fd6d8abcafc2d57797c252abf6319f2d2122dd71b15bec6dde9544f60448],
    [0x26dba58ade8cda188f49e52fce7167b8f219dbd924d7786b0f98fb799fefa2e, 0x2cd268e81100d72c444d6246f8003ebbc08c1b5b5850a508f162541e43804c31, 0xdece92e3458e7d6e3ed03f44c57b6a597f2a0851662e51f30c7e345ab3fc44e, 0x2782c56f48794e225a91ffec94d427fbc775704a57e24c93a1092b003ffbba12, 0xdea062e2b07f7c6afba58a89e4f46c9586b6ff9abca5d59ed857f5b65e618f2, 0x53f7495e4b1275b15b3f9cd75aa20f9f7693363d4311764a772f2956af6fac5, 0x2d8223dd32694c54cbca71235970b8f70f1a7428bd738646ca6a862f46f64ded, 0x230d3770de4960732ed1114493287bcba5a8b219308f15bdf3d66ab0303845e3, 0xa08b786f3debb023c5ac7f28402aeed473d83cf7345cc4e3ff319ef710c8e92, 0x1abec3768c3f0fb09fb3f77f12a70683a00aa39dfa9bb1df8ec678d38d2f59aa, 0x285759f5a94427ddcf1462454842a9d1f953a3d2f7ec048846fd78d01a0493e2, 0x2b4f0d69284e2851b5e39f369bc98b54d589c08c487f8c89d1eb0c873cc4be5d, 0x447dbf76029e36fa2eaa60a6235e5462decefe44e558246910c8f6d57b00875, 0x275415ec216217739aa767153b11ae80c6b8b5c55c70f2b971c41ebe8e2b6af5, 0x1a7afd3f33137e9fdcb3dc28cadb4a2dc634ec68033c4121f2e55e1fad47d19f, 0xda8b0bf0f0197a311ecf8a70c17d6b73882fa3d36a2966583161a3f767a5cdc, 0x2dc11aa7fc35288f4c50ead3bec7cc0e75b9e52e8a3fddb61492ba94948d5ada, 0x195f7447bdebfa31bd8bb43dd8d1e6875c5c135b15c3b4d609d52345559d71b5, 0xfb172e6709df3831ca8632986ef7d85745139a51a45c169c830c4e691b451aa, 0x88051acf2f4c7ba673361201ff1639e06fa376b2a6505a1e62038906a31cc95, 0x19e57228a8198e58cb5bccca90c63d15e07a0f3e6d5d130d973db1a831af0bab],
    [0x26dba58ade8cda188f49e52fce7167b8f219dbd924d7786b0f98fb799fefa2e, 0x22e5666a758743c42fdb3096ec7a7e4266ad74824b6be3619435d172f438e2d4, 0x13ea60e7594766cadf7e4aa1f9f005f9d9e06177456cb4a43d919b4538492a06, 0xff1eeeb246ed508d96db973e2c50b126fa55bc7094854acba766574c0889a7b, 0xaffdc5342a12d31f878c045e76796ad01bd19a313b08cbe6071c9fa06d37178, 0x291973a60e03d9e088f91cf2e0d5d4b814b2d84bb97aec7993175e5d6dc519f, 0x11739b8ee3040e282f6d5039784f6b749c3a4d6befe0ec6276270da24f8772be, 0xe74e778ce3b28a1acf824de6d089b276e535117c55c361debf0a40573c67eb3, 0x1a527cc72db1098870ef84543fa630c207a6094df73caca62c47ebfe12c4dabe, 0x12f701614f5391cc72251c38e11391e9aa2d1703c47e84a041ab471ed77450a4, 0x11936336d54527a9299aed9f52635b8a53f9a958598336c9848564b86516ceb4, 0x272318da87365e9fd6249ec7615961b138ae0c7a36b5175ef5465898c711be04, 0x236b144cf42999283d59501e46fe4ea1d60003599b4046d7a60373f0688093ae, 0x1a239569e5888ba9ff7c90a4aeb505659415da6efcd3c101e791228149b35b61, 0x1e9e91cc7f554dc236e84f167e2baecef5a26769296b73a94648d454028ccf34, 0x148af5b46862ea8269491067a96aa3e71f424fe1bee820cd988fd8b19527bb5b, 0x24772a606417d978acf26d46756665b3c414dce37ee779c91e98a4caf803b6e5, 0x1ed8140073fb5244cba84342b2727e8258108dfb63d1daa824f4330932a7f292, 0x109b45b57572882b3de57c6d043e9477acc341231247aadf512cfefb46159244, 0x12563836d2c2fe6d077a81786800dbbc8e90d758a5a323f549f9b8d523b630b0, 0x1ba00aa80b49e70bd2b3748968ce6d19e9d3fdae0bdbc10cc50e90dde09dfe0],
    [0x26dba58ade8cda188f49e52fce7167b8f219dbd924d7786b0f98fb799fefa2e, 0xf24297c2abe65471b0746d085d394de0919936ec477876d32f44707fe0bf799, 0x20eb0b298c48450c7f613bf10e04bdd22ed3115756fa21731aedc3ffbe7cba27, 0x176482f9dab80cb5c4d91f707575f2a2b552fced3c3b96a5bf37f9b80fcc9f64, 0x1f79915591cfa6648201a28d89355cbc6875e30f78d96a32c3f108bb3a8d5a76, 0x2961cce7579ff9f9f0e867a02cfa8bb2e7401cacee24f5556e9d2fce5d0cec8f, 0x2a41178e5d6a04a7a1463ca1799dd1ba6a7b5c4782097e585793f987485559b4, 0xec4ae2219594ec22f648bc1fd42b82673c47d95bf48e9efdc39e0da9406eae1, 0x261794a9029605c2a4aad5463047d0cb96f9da25f3b18f391047e684519a6e05, 0x2e2bf6b18878b8335e40349e7f475e2c85cc279f99f76c0bb717d0ff7866e5e4, 0x153ca309df24c9e664025e69edcc363ca33cc1a9a2bef69b44f607830195235, 0x2db12f885abe64af44a3ee3f8478b92cc71fd91b096d65099be20ef87c64628c, 0x1f2c5b4c49bf8be7e7d4d9f83e18e6ff0c70ce913f2e246e65024ce32e0b231f, 0x9180876813742a23b9376d01579ef57c1fb39a60e825320fa0eaca8953152e3, 0x2ddf635158aef59c7d8a6de274b34eb7a5d0088a7fc4b0f7f4ce699a18e73a5f, 0x77f3965e42d9f1951cc9528c4a10b099bf49f4eb00e54d389af199a8a474125, 0x23b552370636186071152d808dcf55927b95422529bbe9900d1a1244532efa2a, 0x10b40997e86c5be3b64959e84b6ff95dc3afd77d7a8f708ba81d649075c74ebd, 0x19e7c76c1b1e67f86073187b4f730e17bab59bf1fa5a00365be2f3541983633d, 0x1c1b3ca31b5179b6dcb9ee3ab883ad56a355810877c058d64e345815eb365f91, 0x75afbdbd2dab2064406909fe766072f532bccffa959708bd53863b53f1323c1],
    [0x26dba58ade8cda188f49e52fce7167b8f219dbd924d7786b0f98fb799fefa2e, 0x2d6bd5f440b052c36e1896ae00904b584661666912e14b5a76917f2a4023a975, 0x9fadca902762e1b9b2ea83254c1422c3fdb99ab470149b91d818f74c166448b, 0x1fc2ef7556e6b217f26c4ce8b049b857fa69b7f22ae9665d8fe061e57ccd86b8, 0x277e0a5d5df37f2272903866a0f10472e3e4d61505b48279dd78f9e5eb18dc6d, 0x1926393f89d142b831b5a9463ae3860bb088973ee5ee9008f0e1c7965c79be27, 0x2917f5ea018334c0f05c07baf8c846d354e3945fbd67d5a22d058a793275a35, 0xf1816fcf77643185cbcd7f0b141007670a027cc2891280006f4e0fb6f700113, 0xe5eddd2746b7345563203a3a02ba3f3be5c9de6fa3d6819c1dc8c10ca61962, 0x2fc0ffd1f2fb9e525e97afb88c5c1f16369b7864f845a922f56af6b567abb127, 0x13a6d507cf38dd7ab84c4fe55fc37ccc00e54ff9114fb7dda131aafaf5e3d8b4, 0x209e31eb994b1224949ef724609a754624b12e3e96aaa426519369d729d7f0d6, 0x29b95c4e0998e017f9a6efa329e997d750c315a7091995543108bbf2ef92ea5f, 0x273017f65d54a8a19e933a2850fe33bcdc56245fc66dd40bd16d1963065a8215, 0x9a00a7bb4d3c41d31473d0c97194d90a94a4348aed808ae2d9b68d66ac6da34, 0x58f37eb54a0d174ad881009a16e033b0413350052445162508f2e3f1fbd13a8, 0x2991d56ab55bed4794d78fbe8ba2d84e0402b704c63e8bb477815b94c0b6e72b, 0x2cf9ac97f208cbe23d5daadf7ce8eaf17b949ea0694202d6d3b4f6802c20c8f1, 0x2b2ffc8ad52ca2742997d3fb13e13abcb7c44ffea14776362b6bd9e1c5aad18c, 0x3f78a9a65aa3f5e30ce1ba2779ac3c5f275ab77961819dd01638a42d14fea57, 0x28a9d40e9c58592742de7987c8acdc7fa5e622f5e87508936c5c90e5a2b0111d],
    [0x26dba58ade8cda188f49e52fce7167b8f219dbd924d7786b0f98fb799fefa2e, 0x2da971edce5951e175b20231e2caecdd672054df0a81abceac87182f9bf2ab39, 0x4852b72a76fcfca8332cf2fca53426d44a81025b049c6fe56186da6b592b8ed, 0x12678cd0dd103dbf00c083c3d563aaaa6e6e39e940c80c14575ea53f7da93714, 0x63be8111dc061b7b1f827eba7cc5e10703843b6878cf85160b1d8c37f8cf20a, 0x1292d1489e40b2b7a96a47889a8c08c9bb62ba92c2fb6ca290d3026828b90a38, 0x131928f8c7f6b292af217e6a3798bb3c3740fe744c9754f71e964e739fa84c7c, 0x9dd09c082e6ef61242bae94103d3413d8e280c3d824f566b6191d86c3e52e7f, 0x13a9b7f650fbebb1c30c63886605cfe65fb13044bbf58f6b6d6d4754a8803d9a, 0x278e646f62cd15b671eab2feb4b10833606a737023c50356dbcc6802c47e22e8, 0x63a048acaaba44b87639a3d246f7bf5721b2dfef3bc6387eb9a7a1753bc9edc, 0x19137d8c7c05b4380c5427ba3589505a29927ad701293341a797f8dfc6b64eaa, 0x4605aab2cbf1c8db31f3530518b1b058e8a9fdd52380d4365e7faf99ab86431, 0x1a662725c05570d0cb0ce0e3cb83f5a9a0d641d7f7b5f0395b3cbaf27ee8e7a1, 0x2f00701e4012136574084fcdcfdb8a03d4370327b6778f7dbe08468a3a221d3c, 0xeeb43bee0ce1170554f5365901cc66aad614c7db44ee7d933114e56ae13645f, 0x514bd58df752da3a43dd75147804956f833e61091c33e8b6ebc059d1668c3b0, 0x2e501a1cb67757564a27a930415497ad671f61899a37206e4bd4f70525dac248, 0x16d477454abad4ab36e15a385dfeb9d8ecbbd645a459befd544456bad6de8e6d, 0x3c052112963b411255ac9f4937ba4162dcf4dc56fdfb5f11f585a2f973d1ceb, 0x12dbfa8b1f22ca2b3338b85b1a1cd75ff557cbb18bf220312b18a91a24d55d81],
    [0x26dba58ade8cda188f49e52fce7167b8f219dbd924d7786b0f98fb799fefa2e, 0x10818548ab73fd03d26ee40e1a406f294dfd8c805e21f8689f1001d1d3808e16, 0x24a35e4eb8df49312d9fefc8887e52fe90b836c0cff7f7c07a848a14b01fcbe8, 0x2e0f1e7d21d2d04fce40c67c3746330043b7168c16650a4f2c9dbc17eaeeef9e, 0x230af3cc2c7ce9edb2179f8615ae8a62e458eb13c246f9b673170f1466dfa17, 0x1134692f5f1f941f285cc493c3f2327065c452ad32cf715486dcebfc2d36e000, 0xa9d37ced0d525c9d8577b969975227cbfef65e389d902e6c4aadd01322e8ae4, 0x1db2e2b5cd0288b1d7c7faf003be7703b5c5e45ed5cd77c0f47bb8d3f2703afd, 0x12d629c5fe0a3943083c96e3e532897bb2f63db5519122159b61723410ada8, 0x54da7deba9f7f2f2e2180728042a935674a8446804c3cc47c9d15178e8d6666, 0x29fc7ab2d3d544f25354a989848126e23d60efc67d30c1d7e6dec4f01c8bd52a, 0x14dc9c3565c4d246607923146b654a06c3a6f33ff2e7b285cc339e7e045b10f3, 0x257f594d047a720f1ef7ae56ee5cebea62ac2239715a55b1ffcb394af09ac0b0, 0x1202ed4a356316e5710f9f1a5727b083c1ab217050e8bbe7d95ff5f826c77669, 0x30fe2beb49b890033bbdd087b9e263add126966570888915b43101888b8b962, 0x5ca2c86c6b813c5ab7ecc7fa53fbafef3678c328accc49fa70b5f71a1e368dd, 0x22b38b500c9b360fc2b4ac16b0f8fe71e8e30a9a5fffb2275f40112e01c59f71, 0x1a85a376a332e4ed41c5b9e85dbc2806bb3c3c6f38c7f251fba31eb492d2811, 0x30b8dd372a1546b35d430c7592b24a762c0e748b857190aa47ba294da43f9bc, 0x58804d2aa2f1e9d511cb4bf4459d8747a00af3f8cefa52c3af281d7b71a468e, 0x2be9874c17f4811897b082ce47809991d57d081de49d4f9259bac0c2bbb69e4d],
    [0x26dba58ade8cda188f49e52fce7167b8f219dbd924d7786b0f98fb799fefa2e, 0x10127c52ea1f6d2ae8cb3a7af70916ab29fd85fbde5d15596076ce30524ade37, 0x2d887f38f4f5c278b142bb09fa17210717bc38dedc721327c34b5af25fa4975f, 0x18413dd99e547cd6112c9b3890a4a927660153967a2fa3cc78281aa3743b7ca, 0x2c8375bf705e811aea8583b90f6004ca186f06ba9005d92cf3ce7317b4fbeea4, 0x26672152eee139f933ea3a888e343a211776aa698206a6b970cde470ad510e72, 0x179472871d26f2e278673df45769f49f3943f98b5bc9e76bc7bd639f5cb94a3f, 0x1ed0f4a870226c8afae5b2719e3aa60c8a4f3f491290ecb6a6fa8ed8fec32f0f, 0x1e8ab7c5158984fd536a1fcba52e4a9a99d2406c681d0d54c194a1378aae7bf7, 0x6e50409b0cc763889daeec7624be727dce09632fe17945329fbbbba7336b56c, 0x5ef96066a1106782bd7942af6ee88ae6c642890863ded5c908a70f0e97188f7, 0x275a393c79c2e975e32088fa28e808ef7b3a28ed55d7908b3304c6270b68474, 0x232f41ac9fb55828ad89fb910fd53a80463ad16ad787e2869f315a59ce7766d6, 0x275bb8e491e9023da98884c13b73892f2b1eb2e77dd1dda8b5095bf5c9adc9b, 0x761b386807668eee2b21b55ffc77eac91c6081c52308c6dbafc6c07028b4e3a, 0x493e9a3b80d179228d2a81e903a9fe8d65ad2dd99a733e8ffe044ec71a668f4, 0x304413ebc59f08c82a9e2356ea09341910ff74938709f03599a4f0524ec719a8, 0x2d1e1f38f6702b847019dd697437b90bbb302f642fe0d71df7faced0a3dad14c, 0x16ac849076bc69c52529d4baa1c20d39991d1d1bdc92c8e0ff1c5bcad374f25b, 0x1a85ec6762d6cbe146dc87cd11c2b2daa1ea599f611965a59bcfc3355a684318, 0x196530945d3d7b35c950174d0b08a4e423a8ea2bcb1d455f4b5e042d66cf2ca0],
    [0x26dba58ade8cda188f49e52fce7167b8f219dbd924d7786b0f98fb799fefa2e, 0x7052091360f5985cd717c188ee4aa7b12542f1ff3dad0a1996b00fde6e3652b, 0x291b5860cdbc43b0f0e3d258bdf8f8b58c839a56779bab5f918e042293b9868e, 0xd74d3b457f71267a00679f5b34b57cd193626e69dff827153cb0a07245f97a5, 0x6063d52c65712f8ea7af7b3405c330f3a0e1e4a1652cc21d3dc5e0f60cdbf76, 0x66b0a3103e081f9125c429640d2db5993037180131ed22bdd413d33d6a830e9, 0x1a1ec3ab8c7e73bee5257c0669cb9e5958eed3d51d6b8bb1a43f2683e2082a4, 0x25bcddfb7d8a0a191d30fd1325f71e08124ad4b099485d80f41ac677e0094152, 0x10436855078393e34186a26936181b385e1f4babccecf88b189a51b052d6931b, 0x13fd2892c02f51e42d36d9d6986a773f1cf644bcbcca74318c486e1b1887a8d0, 0x2c28f6b8646fe071a4d6eeaabc22f4398d09adc041da503fa5e13d55f280424a, 0x8283969c57b0158cd5bf0dd9ee3bf1d6008dcc45c1ef3288de7d1be2423832f, 0x1130ad17e3000bea708aa2ea9293faa1bb33c9fa734c13ad351f0409c649ca65, 0x741c5c7d36f11cdc84ec58d9e6d7428f8cf2d15110ec45d7218f7991be58206, 0x1f449a6d7afec87c3391d5f306fcaa5ba7498feae544c6048dbdc847c7dad3ce, 0x13c20e3e2bc12fc0d3ef6ba869311fbc5b6a3a4d779dafed35a96098e97f2167, 0x1fdabc23fa86f1b12e840c491a7d7bc267bdccf6eb113729e41f09eb416c0d90, 0xb18abdac519be96bae35d898d40a26e9d9e0561f6934be88da9a5c24e498652, 0x28b6810fffb6ed56cb0ab3df49bbeee7cf4f978461189f205aec741cbe843202, 0xbec82d9037048c805a293a708427fbfb95dea117a6dcd1e6f34f13fc9e088f8, 0x2f63a41ae9a12da286de92e8e7d65162eef3e275eeda01b2f1dde4a6b69826de],
    [0x26dba58ade8cda188f49e52fce7167b8f219dbd924d7786b0f98fb799fefa2e, 0x265c4fc58d97632fcf19a923a0667b9e9b28b7add612d7a71061bc93a8db0d34, 0x12885bff48b6298f10b722b699ea5cfefd234005c83ff78a16da563a95758d70, 0x151d53cc6bbeda594c839f198afdf5419d1c87ca6c45e23b4b5df9ce6590fa24, 0x14d55af045f1dfd8f49d4f256e081a6b3ed093f01a72e9e7fa95964d274b990e, 0xd2eabd86f01fa64ba065b8ed26f82ce2fc47e9e016448e3d727a7c66a7abdd6, 0x28b3060c2dcb657bf0ad4e015552f6c057d08d94e6a7aa8f65ccaf576ae19c9, 0x29999685e5c96a1b905f85dc5bd585d018468c52eaf77a65a6a7f7252d015006, 0x2cc36566d5372f76a5bdd4fad63e709b1c9a1fd8c638d508d11386a963949d17, 0xf45e1a65d563313981d7fbd8646e8b6c0a513e921fa4d91d06d1def1ac535fb, 0xbe5a47fdf5f5ebb05760335c19650934d3c9fd5bf6a947d230ec07b04b63361, 0x8e06c579f1e6e0130c801b93e325ccba4488227d52279b600cea03c02f55841, 0x2f50f7000c45cd941aedbfe73b0022a95ef948e1672e5e4ae7f818c5af7a5da0, 0x10e83f3ecde3d5babb785328a70cad7f1266ada3811812961cdd561855792100, 0x2391b1a42d1ad62765e51ebd3fcaec9feda26eb1a8e4bc397b4a7692e5036354, 0x5dd281f4536f0e512cf632d8fc3bc3b198fcd503172259acd0a43f6f3b2ca8d, 0x1805c870c9eaa246e93fe07b6de600b300eb1d2cc768abb8a325d1b35a73a383, 0x735b3cb5309a63477b17662d70e873a588e82e15bc083fca92f3b1272de5930, 0x15a7b08ffbfad70da2050e2c609621cc2817e9fab3f8e06f0f7d37599f374039, 0x1c7725a85e6a7f0ebaac87408b38e5e6ecfb4de63ab1819008926a7d1ed9162b, 0x2371b576f67ab802e647290dc0ca0728bf11fa282a106e52567e430aa5cd6df9],
    [0x26dba58ade8cda188f49e52fce7167b8f219dbd924d7786b0f98fb799fefa2e, 0x2d76222e6f0ba0ffd8667c9cfb2a8bf2ffccc92e74cde3aaf9d515f6770be25b, 0x21a9df030fc2c38623949ccc0e27da5c02225e2e4cb94258767e67046b1c9ad7, 0xc994ae387461d0c7104186c1f4e140f224a0c8590490a5d28bf872596eae2d, 0x27c61ff34f721d9b86250fdf7a433505b8fa72ebe9a28c0f8f9a5a86e25bd642, 0x115aa7aae6b9596eca97b6726a631722dae0a8f630a3368604dbcaa9811a851f, 0x18ce760e701aecf766400d3c8303e28aa7937c3c89c3109a5f0b8f9209729faa, 0x2e8d27465c96902538919868872618261b07e2771f087e9686a07b02744a0149, 0x100661eb6f7639b3cddca06469b717369b84248f18a9a0250198228d8580de14, 0xbba9475dd449868c67d4d7394ed448eaafd0384f417ab5ec3582db8962e423, 0x2ec4cea2ec233f82b5c3afc658cf0f1d5056dfe434c209ee3d3ae5101c5d38a9, 0x15a99df7e6b5ef0315db045932d7a24de603b0b6897f567626fd1dd9f47c8553, 0x1be6d866794b25f0ad77226028183b38ba4faffe5a4375d4b2560306acde3c5f, 0x27257e94b2e95e861b7120ed9762d8c4c94080b7612d9b58d00691fbeef97374, 0x3af51f300cd6fcb4ea567e6c8513d81dad94aa1d0c125a8408cdf1ed9f103e2, 0x193b1cb5ebd78dbe0428c993ddefd3df2414c558078f757b3f8035b047090913, 0xdc86ca1c3c10a634dba579115794017366d06315b67d84381f4e3d530800e52, 0x1235404239a1bd35d8a5d7e41fbf7979bc1132e1316236fce4704951990487e4, 0x17e965fa385145f2d79704557938893089dd6a9411e1a4054614bba0f1453b45, 0x17cf6ef863dfc27d9e23767c80219a62279a7c1df9553c8c3fba34d8d80706f7, 0x568c86457d66bf962613ccfcf294e2bdfdc444406b20a6563eb382164f6b38],
    [0x26dba58ade8cda188f49e52fce7167b8f219dbd924d7786b0f98fb799fefa2e, 0x2f5139526746698879515dc547fc4a18a47bb7b1069cf42d88c1699f37bf70e2, 0xe9ec645e63a3358158ca6bc99b354570c61b50ae0b66a9b2cdbd5b7bd2528f6, 0x110bf55f969e6beb814a08bedfcc429368f8a65317d9df987fdf690464e82792, 0x50a2f40f3337b14663877a5c5c66bbad6bd40810303fc9077996384fb942223, 0x9fa261cf5150dae90270799121e56745c2e3aff6c6edeb0d9f37ad73f2e92b7, 0x18db0fda1f48a43c15c1d72d7a8e8ec2042ceedc57f08cde78484f8a0175afe0, 0x12cd152e6a482b22678e14feb1d2b463560eb39b0a27bd82dc9cc6791c70e234, 0x208785a8e7d01f556b883d201a43071c922863abb6b5b9d62b06cdbe1ca198cb, 0xa2f6f2777331ff62db3918731dfb0f8981e3f15b0715a44a3e076abf1e29710, 0x2e40f60a955d8717e55b97ff156a8bd9c6f2e806d042d0213ceef2356fc97f74, 0x15b824ec28269dd4d8e6a563169d415cad68d9c1c7aee1aa279b76abed3cee6f, 0xcb83c1917e41f61a32024d11b6d8f43c8a9e9547568b817ea72b3ac253edbe4, 0x131c6c3ae3535f15bb791ba5c1f52051635c44d8e13e7c28d60812a763cf62fa, 0x274de569e20256784aca3a5ddca5222476b2c06e6976e4b5332578eb744ba058, 0x4cd6d293061e45cdf3f30796a24e66007a0aeff1b9c7cf7cc869dda589a8d14, 0x2045eab29038ee2c289a564f10fa0ba6377679514a389b836dd6998b4799a07d, 0x20f10e37bae5a8193adb95b06981b0f7623baf32b69b61a11696e7a8795494bb, 0x1f55e36adac5b9b352d7cbe55651b680c4b342c335bd8562fb45aadd3e83e619, 0x29602ba7068d0b754d8a59a67b5cb83de5a6d86092f8ba5da32960ac4237e424, 0x16707fcaee953e548b9f04c22b714507ad45c63e242d1f386fe813701e59d18c],
    [0x26dba58ade8cda188f49e52fce7167b8f219dbd924d7786b0f98fb799fefa2e, 0x26443bd83569c93383cc8cd7a2e05eb2bcead4621e70cc188f6405c89e778a7a, 0x5a35d0e22be0f9bd2528eb55583ced870d362ee72476e9706625e49bc556498, 0x1021e56558839fc8b5fb2205d2c799e3b31e7657cfa3106b0651ca9f6e9def53, 0xa4aa165b7771c0810e9caf04fdc8d6b4fa87e2b88cc08aba3c8ec908739be27, 0xb711cd6dc591dcf07f400fabe5cc8b78ec01724bb2b9e62d11456b6de351974, 0xdb4f89a973ddb25f113a6df8e80aa798cd2107439ca4c3a7cb4787f23148c72, 0x24580560fa1df7a3a4921875187ef0cad6db94f0bf7348fb7aeb4c9e31bd8dd4, 0x1de8c3e482d87d19a3348c786983ba4bae3ab00870d28ae3dc18bdbc0c8561e, 0x35ec9a49296b184f2225b3d68de6d1d5a623236576d838e557b150893bea66c, 0x1f7f2e438c0695e2057f62a661aa8e85793ec168e2aac1ce06ef7ddbdad1e115, 0xdba6ba79098331b4dc93515778b2497c38c3ddb2b20e6dc9df6ed5ad85c32b5, 0x22fa5dcd5070a8f46ad637e3cbf69c256afc6ab58dc0b0d98ff15740abee7e59, 0x26a5fd93dff7f5eb49942b51b03b98e9cd2ab261d56db7516afb897ac2706ef9, 0x2216a1a787d05bbccce19eff5d852b92e317606d55c6b5b3fb02afd41e69721e, 0x2228040c2cc6457ecb0acf3ef4699eab804d0251bc75025ea928d16d15065953, 0x1c20e02da095541abc6481a5c1594ceaa688ec99b43ffce38b098ba817af0477, 0x106f19142419a86a234f4c8b94c9ad6f3b6f4dab9e47ff3c9d6669bed5ff3795, 0x104c7b997f5f83d8da35fab234f56c49716df4b0a7318bdae91786b0a007f857, 0x272b659e78a33f1541fcf58f4cb3e64e806f3cd0e2438dce20a9ab7d416a3080, 0x1249186ebedf49fac85f76d0e10ade878518daa306d2b586e295868576a13ea9],
    [0x26dba58ade8cda188f49e52fce7167b8f219dbd924d7786b0f98fb799fefa2e, 0x1490ad8e9d330e2beaad58cbcbabda75796a6e00166bd7b9de35c84dca1fb7e4, 0x29cedacd10b839b576f81408dba8ff1cd699b9b0b11e16e5267c217e574a559f, 0xd55f5e0d31ed8c032f1b31ebc07fcb088feba88583dd5815f85431f3829cdbd, 0x22c2de78b8f8caee3778d4825710b080807cd14bfb6080488f99e303dea9c4e3, 0x256bf262a0b931d87affd8233c61534d9f5f33a3ffe59460ca8af7d0d3ba946f, 0x259e4f6cfcc7a4b6d2246333479df052ee0477b9ee8faa7f47da45d1495d909, 0x235e716b22b67894aef5bcad49467c7c9e8fb689bfc03f058176c9b2f2cfa6de, 0x91246bee1d5f4063a2ab453e658c50c994dae678cfa15b73b14b0f48408e18d, 0x1594541dd396d5948b6b0172b31330333f099973d8a3a1a9d299bba6f45d1bde, 0x24cc95bb62ee85ac17d1e8c36c15cc50c8c66c7cb12e08f2a8b865653cca586b, 0x2dba892c4f9bc80cdfa40ee9aa9b1c37f0d4ea781c3fbe5ec7ebda39e2272dba, 0x2f3f255428b447ee2819975595dddeef9fa3cbd71b62f34aee8594771d350a27, 0x2f4b81914b52b75c46b6ebcb52605d073fb458f8b1cbf68fb9db225e4919b8b8, 0x1e35a658cb61031459363447cde6165233b2bb5107c6dbb4c2d50c459940f2a5, 0x21938bd170ef0b687752b8714b803b82a4358bf72b74265a4623d5594de772ef, 0xd54bc01b18dcf2553834c7a2330ac8163083186d738637650ae7bbb67e69c01, 0x166ef423ea8ce954adec38214c8412bcb52dfc2af3ad407cc94edf187e4d825a, 0x304b27a7490ba0e5c20d3b273abc31ab57d4c9c39f2928b81ace40b26ae3454, 0x1873ef347ff8231585a15dd61cb7140998b4a07d1ffe2045dd368594edc0f171, 0x67a470e0c4795e245e75c97cb69745c9d9bab71c1b8836aeff01be895f3634],
    [0x26dba58ade8cda188f49e52fce7167b8f219dbd924d7786b0f98fb799fefa2e, 0x14189f783f0179d6a700e43b6f3412af189203e47b5f6bffaccbb0faa6cf850d, 0x121bc25b16a45c18843035e84ea0f03e550b85c5d5d865c391608764d8f9da3e, 0x2e7705b125455c88939ebff9c94d94b32cd19988de9033421ad2497299e1c07e, 0x4de92a097cbcd0eda877c95e7d7c623205a82e9264d48093144c02affe35f46, 0x56267827dfdd2c8e13c31ffee09c665605e6d0f76ecfce63a1a3e0ff9ba083a, 0x214e0300f805ffc715666db69a32b5ded6c1a5e46ce21278ef56df4cf75d6d7c, 0xa3e3961aed3e8da84d9b2fe01de35febafd742ba83c0cfcd82c48142cf1c42a, 0x2ec69abd5acb3679c257c3814520f5a2d4e15a9e1eda480e25744cc31074d12c, 0x1c68a794990b7866dd921b417960123999f52f198f279489f00d5db71205a6ad, 0x11838fb23d5f3322bbecdb09dd7f8b581465c87a0f6db0216e23c9231aaa5584, 0x5088200a18b6f27d2d094a42fec2247f9b19a17a2f85f9827bf372ff495e118, 0x20a562ef82e57831ee85dfb0b18b716e63de36bce2d28fe067a1ce10e365a8c7, 0xda77e103a18b438ac860d49030a95756dc69c0118e067bba3732b3a29d8fa9a, 0x2e71181976c28449e32e07d66706ca4fd1b6cab8da61b18e712f5816bf7e94d4, 0x1321a6faa0815eb83709c5f4bccf3deb91d918ee15267afc6b029d923bff2b5e, 0x27c3ea888b30068677247481893caf50ad99ce732dd4549e2f651c3e266187fc, 0x47172c54759f37b2b4d64ac2fb6ae6c6428edb065d5b7f185394515114dea81, 0x19fa875a5e821b2fa6c2ffe8acfa446ddd4d6f253338376fa289b20e83de1915, 0x2db07878d810de30ca07c22cee53280d160186e6e27c4c3a0bf895fe2c3349e0, 0xa8c2b4b98315d9c006a0a54992474ac89e5935a1346976400de47d115ca4389],
    [0x26dba58ade8cda188f49e52fce7167b8f219dbd924d7786b0f98fb799fefa2e, 0xc098e14e0b8ea8d519e73df8da0ef38276518e4e103d8a6101993f21ade6828, 0x26a7ab22e3d4701a4d54216b73e906da3d66859bee38d02be8f120e000a5b4f6, 0x211a846a0b674674aa04b33558a7d8050af880d13e6762872d4560e3f7f55b73, 0x13595dd19c159220e93fc8bf8645c5b9af252edacd343c89bae98a3a37314c7d, 0xd839375c08776325c25610cd2e5ecf8a969154c0979ac7f14f1e58a0e7e0441, 0x136b3190bc5d892cbe1762bceceb68b500861a7f6b590efd62be25ad1c73b2b, 0x8765d20fa4770fa4979632a6e5b500975b173eca79b0300856e7130f6657930, 0x3b2d35ea0ad26b1535413a38f690954f224a6f78896baa496b8e8502bf34331, 0x290489818e00b9c0ea5d2fce994ca9256bcd9775e9ca5bfdac81972b46a4b82, 0x24b7c1b84ec626f59c7952c4098123e690f221504c68006ae1e5815eae2e233a, 0x2d256f845196bec5b35c52a663e4cf84dd433348157a3c877a9ad08d41da5d65, 0xd1150f01d5d7e30b0fb3a6362c631f4664f6c7f6291e6b889544ff778131376, 0x79717001ed6744cae07a2e491a2338a79cb8c95755392c98459c1284c70ebb5, 0x2cd2058b448f75bc368a7cdd20f0c67f74206366bd8882235da404d702d2be65, 0x1b7a766baff43fa8a52e26085427a1beeddd80b70edd992547818c62bd2342ef, 0xd10757ea13e688a4d99cbfe646f4268cb2498d2f2fc8bc352694aaf44f71855, 0x1fe27d15068f85f384f63af983d10d1ccb94147d8560d456171c3d741d427f22, 0x2ec657144f084e48f4eeb405543606e23fe2c1b581fbf942fc3da65d8a6228ea, 0xb71ff8252f9e1c1d3773854103c48fa3857563e8b2de93b78a54d1c929464dd, 0x182b99aac23bebb445feb24cf5f4920497d1c735985248f317c36ee35c343115],
    [0x26dba58ade8cda188f49e52fce7167b8f219dbd924d7786b0f98fb799fefa2e, 0x1332f4f2281120300496b962963720e68a075590aa803c5c1cd8d3d582bb75eb, 0x24c4647a7db1c869bda030a3f816ea27e8dc93909416ff20eaf39ba54576b452, 0xf5df55c2bfac795888d3aae8751afcbc3f2c5bc2b2dec28148a252de9729426, 0x23a4ad4858fd3c269b1df5858ee89dd659dee776a895dd5acffb17c632b66592, 0x526ed32d567e190ff5628e6b64d762447caee284b84fa15adc9384a24ac178e, 0x144d89dd1b606b27d51d742d02deda341a5f96e7ae5ee380263f7a23020cfd5f, 0x8086e639a5f96c89faaf0ec803513e9c68647bc9778fc779d144991bab029b4, 0x24a2d9babdafa3f42f87ab39e269c2edd458cc87e9e3c66dbe8b0cce81db9fb5, 0x1fd030e5d50ca388859b18fa5617527cf0064d91bec5c81dda5ad3b611a28fde, 0x21e5cd68cdb35c3027433f525cc2fd4f460132cbe83505823bbcb12b11ebad88, 0x9813c803ff84a3694eedaf4b1c2172615275dc18ca654c799a70440946ccf0, 0x202973f7fba5bd21ed58bfe7156d7b29010d41090f63f1bb290c1d5da1ad60, 0x12305eadf64dac24a7913a62d95aefd45f48355576c671e56fde9cc7c8344ffd, 0x25c783ad66d6a1fc6c84770bd637f6207097dffb0378d7e0395f8c0b86b505f9, 0x222deb606f13cf28c73a67216d88b16f5958d5d292ba10ef3bc2c10f5a0b613f, 0x1614d025472771fd870a9e9d422b3571c5494e7d679824d8fe1212177d5fa2ec, 0x1358bdd6b7a51b1f5b5d094dbd8ee086ccdcfb9c27faad0806e8ef718d0e2b1, 0x1c2007eba4d1629846bb69404acc84565de5d24620f75cfcd9f11feeeb3f3748, 0x22f49d7244077e41f409c0b353afd1696e3aa15ffdb4a0bdb883ffe7a1a87217, 0x1951523a4270c54403dfe3218fd3d4ccefa43114f1b19fb2c2821a4374718b9d]]

/-- starky/src/poseidon_bn128_constants.rs L3740-4555, one round per line -/
def c11 : List (List Nat) := [
    [0x752af3c6fdccaf3868276685f0a69b9749e1706a82917b64ec2ef847f804559, 0x69503d417e25f4568c7858ba8334301c0fa19c1b348bc7e18a4c1ace1d15418, 0x25c1b121f33f4cf7b308ec4630f27b603d22aa81ca3595e801c5fa7d9770a096, 0x23d6b55145bdb32827c1456af4d7be4c2d213e825c1d2f0c9ff99b2273751f6e, 0x1b357bce3ef3f2b76afc2b5804805adb14cf6bf37fe2357c79aa7d6b32acaeca, 0x28ec5ac0881c1e6426ba499409894a6f3c276fe5689f2c35c9027e80944877d9, 0x2c9862524ac8a07b47d211c9c504c8b0bd398d028acf690e4b8ed4005dd06eed, 0x1f6e6f0ac4aeb7a52343f30418078b40644cd43e290da0baee92891c4c065ac8, 0x3db3517e233f8a76d21b2fb23c85fa7cacc577769edea09aae39407b9af2fdd, 0xfc333dca4183dab479c5962eb05ee4b79a8ac6e0cce9e9b0a2142247bfd0877, 0x1eed281978a8395c04289b86197673b0f2b65e1a135264527e250a5cdf99aca4],
    [0x2568bdf6511034343fb5d5d021e052d3080954fee357dca36fa5d78f33b5be3f, 0x1dafade374e63251deca970591da4a285a63d11cfe64661fadd9a001dff82330, 0xaf25c781abf56fa4cd6833580e97c7a60eaa97f1dc32b622e895df3a6915b39, 0x13501451cb7d3e0cf3cb57741fbe8dd59757c9367fcc48fa11deb135427c5c1c, 0x197045fcdcf15bcdb247d8fbf6c85c80f2d065f923108559a1730d71c73e56ce, 0x1a390d7281375fac249b9855f8c67a275e8ff8a0a821d1b305c4cdb1313c8661, 0x17f0706f7e12fb022d15f94297c7b45947755e5e84c7b9957659be1de64b737c, 0xa8f5f03f19d49799b6fba650c06e4aef251ffc75243a8d7aee8924d563f7e49, 0x24c9e6c35f4f819f5bc1ef26576e16d2c7c7206a0598044acf0c18fc5042f0e2, 0x2405ca70d51550dc14abfee18e3823b9e979072330d547133a14b25e461fd5, 0x1eab4cd56f1474b270d502945621d93e44663caf8f1d31d86b156e107fef38cb],
    [0x66b9750f73f4561ede55939407e74b497d4deef598b873c4b4a1f32ae425d00, 0x1ee3dfa596f5d87030a6c9d27d61dd175b271179408235f13bb3f84ea28e7a42, 0x1ea94b9ac6fc1bde29d5893fdcb660ed61ff7b2c65b638a4046eab217c02aae3, 0x131388351f0796d4753ce564e754591cb1bae02a2dd54878281ac6e7a3c069cd, 0x1a45a017fdbe53619a29d8d31f27e408f64be10bf05ce16c90af3d1f13886a2d, 0x1b4a0d68e54312b9fa67550c5c0ff0d88fe57822dddf9d58d9d2215057aa94af, 0x1d45d369ec0399905bb029dd9fe0b97a5ced1d29c7b5a39da358ad226691dbb0, 0x26154c9c51df8059745bb2d97d9a9b8cc8f3d3d813dc4af414adce1d69920e8f, 0x2b748ad3da43c5cb9412cc64313c8d4711251a7080ec5b59206e7ac8c701730e, 0x17a5468fdb1e5fdacd9c9fd0a7f5fb756e05f2f2fb4104b2cb48d830fed13758, 0x2697a5e22542123f0923b86b1529a5405ef809de03ee4129b2baee5cb3bd94e6],
    [0x9b07ad43370fc4bf9ade610e1addd38d9d962e84d8ddb109efdba69916dd489, 0x69c194b5b9f2301bc48d6363c8e5afa4a75ca2f8a009e15ad4ca11a17c81a1e, 0x1a1974ad418cb372d555ec9af0f348b9729cdee681eb0e4479b90bb720f542c9, 0x18a9d8d34cf2c633138a9eb9eb29820c85b7098895826ecdf2e1bf040dcf0287, 0x2e0554839dd70a4b9998fd915327fae14685eca623d662585186d2f124ba8bb0, 0x1e6d0216c8b678bd9e890ccd72d23bc267948ad87fab25aea6257f8cb7012803, 0x920932a6c405b1ee871ae173949731e6169a24442d8f8c9ed79ccc7a24a495d, 0x142c42de6abfff58054f6a4bda8eba5f7f10cf39fbeafb8d39aef30e884fa3b8, 0x1418edd88e64d3ddad03f33ca0936172444bb0712d646a8bce67b2e451ee0d81, 0x5c5dcf2bd5e04ea65654fb473c4d4692e9958a5999abd7e5cdd706cb7e082b1, 0x114464311fdfa11eec166d202aeefc601e4d16959ec936a9e8f1b2f97fd35ddf],
    [0x21b713b0fdb238f3b053f6d596caf07223b2a9d1fcca758321a1d9175c327ef5, 0x15ef67cae5838a50bc671a5ea78e87b48bc98e3cd7bf76d5fa033093ddc97581, 0xbf88917cb7c570f68b39429d8fee0fcfe583306a6ca69338c349026fe66bfe9, 0x1881f0129a64b7f861085f6b3669dcef57e568d63497982780770b4bc3b437f9, 0x2055eb732a72d37cada83f04ef741785368d648d09cb50142575430a110e89ce, 0x19b848c33b3876bb168846d13897cde6b0b9e2b29954395b39946a4f5f26d003, 0x1e19797232964cd5f26ae8a2e04bd7b3dc1bda25b541f3d4a059b48fc952da6, 0x28b8dd78e8712e172486a4b278ac8e166b1996552c74bd2fa4bfbcba3913457, 0x1fb1cff73196d134c30359da15a530b1a5741aa0e05788a9d4fb2032aff0d586, 0x23bd3301f59bd655225f85c42a9466bcd7c64aa93637ee27aefecdf288326039, 0xe2adaeb2ac7d6944e287dc7c833015313d3f2beaba25ea4c1dc6f0e3fbc8e34],
    [0x2f5d08548ef73d65c2853178cbcbc8a70c48003c0d1386db7288260d29a52d0a, 0x2f55c0e96de74a61fc974df0da85b11ac544b5c8544ae59ad76cbc03889e79b4, 0x18885f739a9c3dfeed39ceb7c8eef77fd635ad52e3294d3e126a92a64c5a4543, 0x1267cace9cec3c1a96fbda5f20df309df88f9edf5684a05bfcacb11167983082, 0x2a45c0484448da31b253b632f39c3d4f6c6af8e3e399ddd393b820cdec66f902, 0x2260279c332583a36011973aa7626d4e81d6382967868a9643a76e53a2b25316, 0x28ec82446ae8bb21783f54cd4daf07e279bc0ead04d7a313769f662c8e74a0eb, 0x16e13570deffb3bebe118958b2d86470578cb112969bc6eef3a1321befdac9b0, 0x2288e83beb79459807cb77408c9bbdbdd077e620279986f4e2f0b3e5facaabd5, 0x2db5b06f1102b72ce49946084d75f2109ad970785a8329de8e225a410e243389, 0x2fce39a19ea115f3a917041fdb267c1b5103b5887e5d63c48eedfdc533699758],
    [0x2c65ef055b28fb41707c324a36a894c6ad9f862fd1f97da54459c5db0bda55af, 0x29e63a24c91235dc00a6770b9e572358c18a9063a34066f8b6f56683cff48ffe, 0x54211c56cf9cdee64b7daa7677fe9f235e2b5c99c5d8b55de20d9aa612c72c3, 0x108e8e83433f7cb1728723837ede94d073032ab66e2e0fb6db9787b39559d73b, 0xff9bfb41914e199a553e070eed9438fff033cd31476589149a9e60d5058114e, 0x6913bc2e37230d4b6f56b44697d6f80418d7c11a1d20d8484e95b067f935bf0, 0x300d3b773b9a41ef818fdd12202f499d5dbde395388a81c5ce3bc3cc8b488099, 0x29f9b289721fe3001937f6c487bb30e342b344c71ddd0f957d02d9295fabe594, 0x14de0dbb50a0aafffb3994762d1496cf51449350b5dfceb0650667f7db7f33fc, 0x45cf1d37629dee9289fcbe4823519deb857ef66cb39cc6630a3ac6157e9e0ed, 0x1e7de46fdd23c6aeb94addf6cb999856322d3ad6d5803cef88b6693ed13590a0],
    [0x2c033fdc57232e685abe9aeb18a5950e59f666598a0a9032afcf58aea772939b, 0x117eae65ffe6634241265348d98472074e89cabe3d8f9f55cbc74ddbd9843e4b, 0x2988e81a9b5dc22c8b3c7a9d01344422f2483364c189996bcab079912d25993d, 0xdbea591b66a2448fbfb886d10b899d656fddbea4e666c0f14465e09ccaddff5, 0x1edf424bb6ca08ac8c4cdfc98d6d3fd04000ec4c6a8628d5e2b3b1263234755d, 0x214306c0105f363d5259e2141e97b7da41b9d5115048d1ac8483fc688a7034b1, 0x242e00b6930be5835aa5027493d3b11e311877265a70210e01216328452fdc98, 0x29154d0128cc650989dabb8ca0b18dd5beb1ebac0f63fa47be96e3832012197a, 0x25d22d54d9c82d7cfb89c61aa62ca150506a2bfab5d300db784d25d260827d0b, 0x2f23f0ba299f5c0976c16eb3b88306892612873923ee88eaa2db8cc10108f5c6, 0xb743a8913bd8e7e709e68311a3585efb096708315a9812039f215899f4294c0],
    [0x264efa00929546cb4ec30a621c3c6f661325872864ffdf84d5adb61af8dbb3d0, 0x1c49d76663a358387762d208dc85400e7acf1b65fbb13edb346df1f2a10ace37, 0x2f40725d1eb518ae4562ee25ca08b3e56dacaa511bdf82d099fbeee5110b682d, 0x2651bbf39215d6d6632a652ace6ff5118555acff7d4c8be7ee3e206f44ee7c00, 0x2198f3b0a3fbd0bfab07578d40d7fa03e50761ba8f1f2b018613d65b091f3eaf, 0x18d4c4699f7d01fa00edadc43c8e1f10d92a4f7db96c2d9139bdd6fb11fea408, 0x59edbc553491ec6b94233d53b5328a5d24b6e49f457190bcfd062a5822957cc, 0x129a61614b4e9e421e6667daa9b85fe14beaa822b3954e551288564bd2b14552, 0x2e2bfe4d7b3234df6b62688bdcb2c8767597ea3f7b7792fb44377e71e1ec9f16, 0x1f8397cfd8eaeeba4798e9863737ec54572f6a355ee47cdb827a7f20dc389c9, 0x117db9cc9140e4670bc74e7fd3a6fe99b87e1781d2ae191d011c6d64e02dcf8b],
    [0x11e0cce35b68def7ded5522f434c486f287db0b6bae3cafb231dcf951598f89f, 0x25bf4ae30c44ddfc8700e2369aed7f568980c6d48e33b6c63737c82f942b9230, 0x1153f5c16d5608a17dcfa2fcc5ff92d0a41d0fd1380b58d2f77c058339886f6f, 0x41bed39c29afb7004cee993fc222605cddfe641fa3a096c8013f38b5cd85b7f, 0x47cd5c5b0c2a604ae99c842540fa37d44e6abec3657699a116b84fc42ad5d3d, 0x154ef25e671486db8e882181a331826dae7b9739f2eb6c8f748a30649aa4180e, 0x1b483e74f41c2658fafd081b9cb7709df288999454496a29a492eee79efb9622, 0x12db88342d014b56fdbf93dbf9d9c082196cb34e0ceddfeca0a40904e2b8cb2d, 0x944263fcad7635a7e8ede76f4fe3afb205cf835f42a95c0336de6c42ea5a990, 0x2e7ac6fa9dffaf83a9ebb6966ef5464e4429b98b78b8f14165c501546970b734, 0x4bca07a15b585cd27790768caa382e99d14cff8fa57e2fdaa115a472dd4ec12],
    [0xa230ab485e781468fdbfedf32413aa400c839ea855a50f1916b03c6761c034b, 0x1621dc3c8c3db86fa83059f4a3c41298aec8ed93c49c53bdd2587339b216ec74, 0x1b4e4bc4f028fded0daa5c1a094feca0d05094fafebd6619348e1dd9fce168ca, 0x1a739e55ca644e9ca0ff28062320977d9738b357287fe6d8727e10ff4452c799, 0x292800e8452a5666cd02b1756950f8048c367a2439adea3d942ee3c3185cfd92, 0x1fa371d9106b81aa664c11f50cd41d2481a91439a39c0fa1311ffc28c4484dd8, 0x2a786941b8ab631a455f1f0bdbbd3eb9a19cda5d76c463bff4ef12200bd6cdf1, 0x1521f303fd41509e122d6b7661d62c911fbaeeee821fa2e11e29e70c843fc859, 0x242af7a107cc7bd9c1c5b2537e5eeb794c677827c5663418bb9a2c9dcef29157, 0x1cc30d4813bbff4b91740cc8ba20bd06afa9d217ea012ce12d14e0271301e77d, 0x23bd2922b425af4d8bdb587b1cc08ccdff010ab030431664899a4a323b29735f],
    [0x150fab5986eef5bd1fefa92aab5002530d9f54cb7e65633cd5c310555e0b390c, 0x18b43cb064bbf3c83fc2f158ae785aabc730df7e5c6ae3bbcaef613bc0ae707a, 0x13bb42eb4e73787060889be175018b8f2e5a28a1181d777e2aac1c993acd6698, 0x1ab89b566dff36a95f8050e843494740ba34cd3b35d0b7c97bd2d705ef842abb, 0x2d5fd90e717d8af8d5b10f73844c6ca50d005940af09546de8e34ff991435fb6, 0xb836d0d581914218db0e93c8598b388972a479b35c933ccad984a0b6ce94bc9, 0x2ecdfb150fa2eecf4c34c76d56eb29a44a94003996fe3c7fb9d64d72d352e3a, 0x23578d7d5ec8ed31b2d7eb794564d389025fefd00652195dad122b400a5196b5, 0x1ccfb8b4d93e5e08c7c4c4f30635706fc9df759375fffa6835a4c1c27f222796, 0x1c0cb735346164ba93308881d536f5888873d4441e308375e8e6b738a1c0cfd3, 0xb73e5b78e0d23f77b0fdfd001738191c33029c06dbbf6f410774f242d0023e3],
    [0x44715c00e5fcb99c435189c1ec24b3ce9b8311421f5b1f38484ab7692c6c632, 0x1d3b3647b8ea345e92cc286f1bc18b6ea3b3a8551d0bf1a5b95214cf2310f700, 0x1044b915a339a2582a6e7fb6a66f2b97bd6182f9946ada1e5d3f764ce1ab0ce0, 0x1813db2251e3d904d0d30bb86be2d7c5803a92b87375dfd68f976f4622a51534, 0x2808152f5685bfe577c94fca9d70962e5a08e0f6fcd8d92182df7fb3b2b3924e, 0x2da940a1e8c89a6f983e3f988a4e79759b5c6987ba11f3f51d9a53d3fd1d4011, 0x20fb1d869cd192c87e34254e4b48f222f997b4526a3d3f9c9fedf51cd1670269, 0x1bd49eeeaac3927d1982829065a4db42698c0f5d5febcfd48ec3bc1059959f1a, 0x135112b374480642311b6b142704f21684dd024e0ad55ae02728ac322689e66d, 0x2c9e245c71832c690a7ca3db1cdaadcdd7cdd39570bedc14a87ace5f726ffeac, 0x1a319a5ab3b2a9e95eb0c11a5a12b79e856929186a1ee3eb2872ad86be73f564],
    [0x1a123c31f99d5ea55bc42ee322b7c070f4ccc1fc26bece9f4f3eb44b90513808, 0xb23ffdea065c8e75ea0d3bfd966dff136d6602afa94328439590ff3e200ef76, 0x1c81f8e014ab25b8ed79c5e1bdbf869fb1be1eaedd875a7539678046bd1a3314, 0x1bfc092f4701d4caeff6ed32605cc0f3543ef523858bf7de922363354ac3370, 0x16068fc89b3388fe5bd541a72eebf297689d1e6f978925deed56f2ada6d01fec, 0x3bd9dc121e7e98b549441bcf073b564d5a9d40e3020de4d1a71039ef2630336, 0x1d0bbb93d9c927a609eff76c3ca95ac6e94e1893c88ef2a544fb5f6295da72c2, 0x20e9e2dc88aea45883e13db206222e4c21d4e8eb954202f2b90c211cac96c9c8, 0xa69dec0cd8a399fff11902a34afe9a1331f51ad13a7ee5a71efd7eb8594dae5, 0x867c910850d2f230f7e5a03b3cf0dc03264d5b6f2661105b675c5ff41575c89, 0x145603f8fb5a0cf56bf71b9e6ffff83127c2d0bb368de23c69fc7a94c844c404],
    [0x2b8bb76dceafdd4a12be1fc9437b9d406ffe2144b7be46d9a56a410d17da75c4, 0x89bc5ce0fd41d90b1aa659de78346e05eac7d054f1fa5fa7db91c07fb3fa7d6, 0x27bad78b8cfde47a264cb63481b5a0388f1339cb21f2cc32905d82feb4e93f93, 0x7043ee703d2b1b6ab8641fcffaecd107bcbcc034abcfd46fe967d8417fd3720, 0x4f5ccdf4036bb78889335f68633fe091e0da370d2f07e6f854f67049e54c0cc, 0x15b1ffe12147ee71e3401b3335e78681c534bcc58fa9f80a8130509dc0820256, 0x109b0548eef07fbb9230e92b4cfb7441873a44edbd265fc152d65018783cd573, 0xf07c58aa725aeb731b6af087e7c5ccec5a3796ad74c872a7426fbeb7fece87d, 0x1d1342ddce6e4469f70a948ce109108d3b1e75b3733ce7c9a237a4c5e5274514, 0x635be9e7e8443d3b2886d154344d243daa9578c82a38e252885c4f3bb138b10, 0x1bd4922ac758c0f4c50bb3035b7ed4b5618ad0b714ab468b5eab988cfd8c2959],
    [0x2e1a0e6f84c93342b4d529f88184554976e21ec6180c580e4a58634a7b74759d, 0x2f1589be5a127698a4783ba48722e4c9a9088c7c9edd9aadf9152b9dd839f2b5, 0x273dbaf645f1185466bfc99b676c6187f8415b9fa2e1dd6fc6435f0a3ef35526, 0x1c11b76df042385ceb6d0fe269cfa150695919e047b4807bd6e9a3cd4b4e0a22, 0x16a0988d4234ecb090f09db6bde79af35394c9b3ccfc6a0bb444dfc6c7867359, 0x215d025730ada1788e2024cce27f2a53ce804a93a2fc60452a0cf948fb03a8b3, 0x2cdfdb0847de8099ed8a941822b15ef9e91fcf64325af2202de42eac92bbdf21, 0x946dbe9998dec541da39a9d8ea544a7e449e26a4f9aa87c28c7e2f118961342, 0xf958982b43f8fdc2c3785c4ac3e631d5c89fb94e0c724a7a65c1c3218b67e40, 0x185021b192274b1b61952ad219cab61acc3b36fd36188a1b8c12e56d998c5e84, 0x24d56b4d52b47f9bc6dcb7ad353eec927c0e7d4212a2e6de0eac44a210260b35],
    [0x1098d58fe7b53523eee81510b083fdadca004b549468cbd201b0a31c8b7e1d17, 0x24a99bc48481068390bc48330c113b7921ccff028ad504583976e7e30efc3c88, 0x12a7fd0a7a6ed9c0eaca3465ae557cf318705146f72f7b4e4ab24934dbb4c673, 0xd42adee447d6aea66365bf01e5b607c52848089a845d1fcffae9f47e0716b16, 0xd5d109de2579f4e5ca2763a37d1310930dddef69c2023b167ffea54b0c4aaa, 0x2efe7e744a2f0e450693507731d9c0492a077d194a02210022acc59e7ea469d4, 0x1dc37644bbecdc24f85b713fd19af55b6fcad311b77b5fe3030a96d5334bb833, 0x243115568da36482d004008176a75427fda366c9d07bcf56c7b0f4821c263764, 0x2ac9106e5d82d4e200b257b0b222cb30957327beae9834fc428046a0f5926e71, 0x16b852944570287d6e02c35a6300392635820ce4883fd0938260f85555c6c0b5, 0x29dfa400161b661f5264b4158460d4776f3e862b7b8235119430f7678a2a2a74],
    [0x25908a5cfb1c210f3afcd6e8d63173a6d79dce7535aedc57aaee994326c386b3, 0x1480f56b3a68ef41e5ea44dff254aadddbf19d50f0e990965fcc89bdc3bf3546, 0x2c1490f9335e14dbfaeac6675595f6b10807bcfa3e49a76efc9032f5f53af5b8, 0x1833f0ce5dc529d3576a7fb481d8f70fa6e2170d31c1031a255cd800fcb262b1, 0x26d36461a1c9f3a3653590e8273554f81fd51cc430f25bee2cccf55e2e762733, 0x29027f0fb381318f8eac14af24f76e1707dc6bed2710362256f16dbda69a90ae, 0xa4cde8f3d42ed48fb3daa7589036f4994176cdf07a2ecc3dafb54f9d45d9b03, 0x1fbec12feffe0889cc4a31fcae7d819cec482785e190dda2536e2c4011da8704, 0x1b26f238c7bb8636782bc0ee48a931a309274684014ce72714005d98b8d8c666, 0x8ff4df0c027e88807b8b6e55e6bf7e643fa60c66d74a33dc844ec1c34598ee9, 0x2207c1318e959e4a002ad5015d381b29915de22629a612a1b6da389ab86fbc24],
    [0x9fcb07e82193539b71d0a052d3977996a09f84216bcc1e46f11ac84d5d75ef5, 0x1969f5c20e80f10e71ff42fe5af7bec47ee7533153678dd2ef33f1e91fbf98cf, 0x7b65d6a874f5706282479ce323f36bf23bdfbc34769e11ac34ef2494f2bff85, 0x9e9ac4c51b61ceada2c861e276a1c0665f1b069142f144f80c46649a65bc425, 0x8b74eb90b0e5b3013347515fbcfe94d8feacfd5aefb9546e1e5adf59ab4acf7, 0x19351714ce3d2e3e93ec9015c02e0fa056f68ecf8d1c7faba519dea116e0217a, 0x3c4a15bc97488139ce1cb928f474505ad5bc7893a53b3cf1c9ba21d51b00410, 0xd8b7773df335b6a9cf298b08721d640290a0b17d5060f0222f263c7417d25cc, 0x1e14c212fb7679676af50c3711b1917d6599f620652b8bdfd244251667aed9ce, 0x2186cc6cdc5271291a9b111b98bde50c62a28043d90aef654171bb70e429fade, 0x768dbd4b9074b435467927d1187378c4b174685aeeca35788de665f2812a195],
    [0x63f5a888b7bcd3f8ae406ba40e11207be013618ad5f811cc317fc1e558c79da, 0x17807cdc2e72f05b3371fce98fdee5f3553eb4ce92e9398d702f938cf9ee741f, 0x25f3dd0be3bdf8e632afdcbd431be7ae6601549304475ca580d13741e2a7fd92, 0x2274a45e2d69064bce67e2eb664db45aef4f1d9dcccd157bdceef7aae145f6d5, 0x87ee7936deb77a97b8d7473f53436cf3fb1ce85df07ab68a028b46dea841701, 0xaaec0f75e53087db937a974edeb32eabeb633ece1180f1f8437abc9099df1be, 0x10cdf01e8c61263b446c3f7a10cc29fd01ed91fad9891f9c6fcb7b5ce438ba95, 0x176627a92072fa2bb64dd5dff9cc4a0d5bedcf3f22c91fe991cc6568a4fb54ce, 0xeab0e158e2f672c68a7a0a48328e21179a417eb0c65b1b617644e1c52c4b425, 0x2edf1ea1cd97d1a91fe7901e64c0f2d12f7965741da5a7c7fabee25eac3b47ee, 0x1fc07137863b1d337bb5dac18ad91237739680a69eed5da0bf35062f4d4cacc1],
    [0x37bdff68025bddcbed554ceac3df66a9eb298966d79308ae414d34227aaf862, 0x177f68957ba07da671b9dd919f2433dfe5f363b74a3c16169481c57c5b5c07a3, 0x6d47b9921e2502c2abb0138d3b1028b02b85f8f42362cf43671b60a69e9e60a, 0x131d58cb8a41a753e767e1e97cef60d0003e49c8cd1f0f5101c861b177715da5, 0x236ca76235d9e69472c9985f842e626f33b3fd4fd5f543810a0c5d2143ed4c9c, 0x2fe7f85a579916545907f2a02202b83696b64d1f61e813730cebc06d068537f2, 0x4952326bd26efed64637d4fc0f7a4bb528e3a341260125588e75aaa88f62d71, 0xc2dfb577b78dad18837bb70c8e2990f32325bb418f4f66263a2b63f3f98384, 0x122c682293b4892d51255991f9cfaf96e25140bd6b37337ea7dfad5e1242328a, 0x11ddc540d4a110e482a2455112ba67ffb3ca3ee54711498db1a372b9cc23d145, 0x2f6bd71f6b2f3af3d468820c80aaad72ee48a337f1fe3d7ce01bb89242106a1b],
    [0xd6a16d136ee77c35f216f1aa0ca9e09bdc259e715848ce047be056a4a09f787, 0x2e7c6013d1be62a78b4c0015465fb0b293a07d4605dca6422109096164b22b2c, 0xd6bbf18b7eb684adec412713570d3bfb36fd0f569fb36474f694b11b2948ba5, 0x12403cf8877ae510b7314b7c75ab5b0fb7fcde2e6ab48121288dc04d5b51e594, 0x151b3acf4ce3297d86e823a72067c71717382150c080ca3f8012bb0ba2fed47b, 0x2a1396702063c62e07c512b9d4d181d71d88b5681a7e47fd114cfb682faf4f98, 0x25cc49f3508fca1873a6f85b6550b6e1041d90ce535c638d2b523a61dd7869c6, 0x1fd18327a0482c394723b152c90544729cf4040bcced94e8a37e1c9e307683e1, 0xb27566ce02bd4cd2273fd531336c0ebfe65a5b0da123cb31bbc89533e518b3b, 0x1a9e153ce82bf2a6fa0d71d1889c24b5f111d262c82cf3450f9ca80608ec15ff, 0x7ca794d5ac4f40f0fec4d69e3a3cd1f472c7446e4e27fc1fa4cdcdc8605acc7],
    [0x2fdaf44c707d8289da9373536a6f61b66494fa9e9e782e0e410405efbaf504ad, 0x154d7c7e94ee06a436fdf59b501b763be8dc7f12aeec0752b79179267d643a74, 0x2c753b7779a3909fa0cb0695a9f33a673532bf5cf394f40bb8db5ec5fb7a64ee, 0x144ef40df7a262ff41795d09590112d63feae75c3533c0ab4bb9ae43d61201a8, 0x22c68d6cd4bb18163791274a28ba33b0d138e148d6d80b469d6e95197d164883, 0x27ca38cbe8b2ec8a927b6fa011e982323e56da932c24d73095177fe7f8aa979b, 0x36994c16973ea012441dbae792fb3d06b139addd7ccc0c0f353be33d8873ea0, 0x242d7d1bb8ed3658035034b55e28b43138c56c7fa9c0586978056aa77decfd3a, 0x194576547027c4224e9cf6de762a5169ca5c18ac5db90108bd76021bb9b0cef2, 0xe823aa11624ee571f23da021d4d7990563fc9898a7d0ce684e535fec79fcdd8, 0x82858a4db283919b56c0bc08b89386724b90868a4ba170bb1ccf5e112205c4c],
    [0x217822675afac3da4a9137e0b172532884aa670f142da689569db24f5b0d650, 0x274c614c2e392cee896b7850aa7b6fe952b7681959fbfd7913b43af0f5858bb6, 0x27d35572895d61ef77994592fc75251f440e5d120133252049385ee1be25aae3, 0x2b391acc9c8e452b35f31c91bc7de27e00d3e625413d27f6d60c39d00c74bf7a, 0x1b6320cc8acd98c92ca849a5b3ae52f2de368474dce727a0069e97cc0a546b5c, 0x2286075e6a96f1a55fba6f84b3ca4974e87016864aed62735ff0d428c0ac91f4, 0x18aada171822e8e1dc3da76917fed163a523bbf82123dc98f4c097e17e11deaa, 0xfc3fab45d405fa715ee3ac4a279c7003885e52023e6e36e5d71f05cf5f3035a, 0x1ce99509af24e048925eaad26d294cd555cd12e1d65881777ecda694a5e52a32, 0x2e26c17c921163b5bb3aad23ffadd47dd0dc4449b94c90ea3eb4e4fef138f727, 0x15116a7c92e6d9d46fb7fb51adee5a862aa2fa762c690991804aea7df5cfd3f5],
    [0x18a26a0800fcf288aa7e98f047317210e6656c87be903bf19a92e7c2a499c396, 0x22d7a40e7e4c1e76dbfbcce1601c22469b7fbfdd055a3f953cfcfeeb47a85c7b, 0xae771488eb4bf107cda3042dda3495899ec5fc437921508fd29d5bf21807afe, 0x17104e0440a812a33f825fe57da99dde13c1bd3e10de8ec967a5deee234cd701, 0x2680e4afc93fbbeb972d842f18fa3a35e1ce822ce02a629c3696e2cdb2894a5e, 0xd64fda93aba5c384eb39bfc144bea57b13d11b27d89323d2ae2748fd54f16d9, 0xaeacc635139009646db8941410c819e087abc601709b1f923f04ea67b5f58f3, 0xa8a2ed2b2158fe6443bc3b11754c14521db193335616c785a073f69cf15bf38, 0x7b133a201739ee204c81df78b20a13e00fd8c0a386942794c29187aab6273bc, 0x118fbc76b7f861e02e9ae5ba516960c91142ad7c4af11563e1adff97f863ceb5, 0x2754b4ff473681f3069edfabe21dc75f4123a0ccad5597d42779a8120f54f022],
    [0x190360a036668714837675f7e59fdf15fa57634f4db0c2c24a80d26951c1ddc2, 0x222922f3670b5f65cf34b2b2665b40a187f3c303c76bed52017073a0a18dbf53, 0x109e9fc20acfcecf3d47c04afdfba926f30e1172a5d506d1241818aee9cc7c55, 0x16213b42dc9dd4c9ef91500adf2ef8708851787374dceee4d45a6645a3a69b30, 0x24023ea68a2a2b008acbc5d4a15fcd0942b67ce952b0e1a03ad175066f755920, 0x247404c48faa06e6c72b1d050b905fa3ebd774596b4cfe6bb4d57ac38070859e, 0x1d868231e2df133dc0212c6248179cea17cb0f71c4cd827f5353806230d8916b, 0xc314749559c134886fc12ba1326e4ffdc33028d8eacd341f510f1dea2be37ae, 0xcc1c33b5320c911b47eee03c4d96ea2b25bcd26e3711d28cb152cbc5b87d2ce, 0x5f4c3605ea09d4b737b29fee87e1c2ba74d332bc19e6d3e8ba947f0eb3999ac, 0x5bd7ce441a3a72786312e63866bb986adbcb847b06476f98c6b7f8b8f042457],
    [0x13fc4c0e950281ef4e96eca60355152f7c0b335e0f36bc1cdde5f3952dedc132, 0x153c2f89d6681e7f94df511b9f193e2876884faee1bd3aec26bb93493a064f03, 0x16fcfd6ddd242be8cd4982678cbabaf4010be47978764ee4d14e952dc4a3a118, 0x155435d02b33ce45b9c3b6f3f1090930fc0a9fa99788927e504721ea0668cf7c, 0x669fa7d440e3a06db6fb80c876a36245bb693bb7960646421621fc2c391c5c1, 0x2b57df93a096e78d7f14eb117a9a5c5ef69d96cf45bc807e55d89bf980e8ac76, 0x1e8a7d19a676b3263f85a8482d95d0f3e76be0b6e5c9ac107a12fb9e655c8713, 0x2a6de0bded2bbe2b5866801f880e47e6bfa69005a0c185897c72efb56bd98a87, 0x99ed3a2ae3f0f6d0a67a1f79b55a135bd066cc32e5942a3fa2572de1348f840, 0x1e7d7ce084654213565d6ee21bf1f27b3d8027a2faa810517efbdfdca997fbf7, 0x2e703dfbdc86f5586edfa0221c81bb6899143210bbd8c66847764aa4f63c65b9],
    [0x505b0c3df9f92959a41fb36c72d85bb826d5672798fe7482572b5f41f37194d, 0x26d1fc920ab60d7fc4e826056f7d19c78275087ff9116e356fde302840ffd3ac, 0x2b3439c16b1af27bd7a4c8d9ddc6934e7b9f5e10aae7cce40ce6a937506d510a, 0x1e45d86bc184f0e086020deae34e53ab0ee7123b3a1190475c6e25e06f832154, 0x23f3e2f49ca1c95434b0342156172e65dbc6c9f8321cc75e9f15a66c3bcb09c0, 0x1d8c2e51db59d6e96ee69f68480d1f8e48c03bc876cd7915d888b5b0a11a21a3, 0x1e1dc3546a86032cdf8b8bf7f94a44730b662f8a56ad862ea1247ba2ab0f3d2b, 0x1147e82c00df45e182d416b8338ffae299178da5f92d8f9f9153c695e7859447, 0xbe94456b9a03c6cbfab9d8a34b411e91d20cb11f5624faeb3f78f38247e90b9, 0xc4bd9a3aaa923f649b9cd1cbd7879574b266ff2f7c0c063b5c44d6b48cca3f7, 0x6198c1fe412e25887115b54ff87eb4f1e2871d4cf377969ca151fed5d7b4dee],
    [0x1ee90aae68a6bda42c34a797d4d31f79679ceb41b587f619d620e1f5108b839d, 0x11aa5360b586c21447711b49721e9f4fddc6b6c98b57b84772d6fc6b8be017ca, 0x1a41a67390f922f10cdbaaa0ce5eaef61d66b6730825eb98a24d25987e87be58, 0x24a2997c832fba549618926afbcad00ce920788393df128f8a5416d26231615c, 0x67036caf8b57daa59ad4514773898e1b22f8e88d454bc1f8ef0c82cc93a2772, 0x2f18e853f9b7b7c4b1b4c3f0d1a2570b035fd2b4231a584139adb7a11221bc33, 0x1b3874144923943beb66ca8b798d0bb8f2be7f8dd9dedac6d91fc5b9e53186a1, 0xef5849ff458a11dc413a2d8abea9888c62241c3c285afe3a1b14cf71574c3fe, 0x196a36a231753ffd0c094642e27d80ba201a549af584ffa9a70a8026817ca668, 0x2e02fc222dd56fe6568a345add3c1d577898a361847e58b67576f12e3034a8c6, 0x2383bbeafd391d96aaf0ba7481467867c67ad39366ed8c43b42520c6292452c1],
    [0x20de2cd5ce733ea00a7f167f686ae67192637321cc9f0f4aa7214790676a3f75, 0x1f1bce33439afb8dbab1354b46a5b9ceb1980b83514095d65e513b79351a9907, 0x57b8de9d8ed593b5d214302ce88ee08f1812ef53cec6e05baec160c054d6747, 0x26777acbd88e932b2552f7813e62f368ab8b1d626b685502253a10c8050a4a55, 0x1589c939e2e3efeb8cb6c103476879101fec7a530ca18fe4bd2f096ff44af40, 0x2a36b79d87c963b1f47590ecc4cd69142346a54ae48bc3f573adf719b4e09719, 0xeed87708b5b00a42af3e6de58d4cddaf22278be0ee6344f2a775132fe107a0d, 0x2bf84fed63a11695b639727e18111ac2083d936ce64bd51a32dfa9f1b0e71325, 0x164a6098075941c6467319c2372463c3ec7adba6f6db9a58ad59a678f8f18a39, 0x205075ea3558a17b0c51ae3a107d898609e3cd5d82f8df8c3f74b1b73b08973e, 0x1f1e3c76fc69fd8acfa3a9bfd0af695c10c2bcdce6d8f4d1f7b76d50419b4376],
    [0x69982a9b25bd75814397b6d3c8a90781e1733be57f7573f2fe44dd35618c54, 0x2f17582941481b5489211befd4bc0dca43d4432ce11153a0fe735e55474a2393, 0x164531eab380bf81f6313f32f5c255a9badbd4edb7767f990c46b0fdbe9fb297, 0x31f46a8b4455ff121bc184a1c3551d4507a17c888931f3e99d356a9a06ef8ac, 0x11334dbaa6f7f4140d1493bd188c77628dcc782c5ff82f1ebf41ca094815741a, 0x218b1d38a6fd11d6566a52fe136e2c82de229698e5414b36be8997f060e8913, 0x2effca369cf34f74248e37ae3bc74299187e16a75f2ebe40467060500eb93c31, 0x7e54138f828c24b98b3511392861ae9c5876550ff0ee776663c3997a8f1a116, 0x297e1fb7da5497d3dbd0798a146d2fab9ac5b0e7906d8588238187b795001fb1, 0x149016a717fd85cc7df7f039ca6b1b8b06a5bdbda365a33bb0ae228900e53b31, 0xf9e7a22124bf50d94db9231d63685122f92db5268ad2148ba534dc853bfc54f],
    [0x1a3519a62fa692b3716d11b88e9d62aaa0e43bcf03c7ea81970b1d802a867b88, 0x2bb67c5d6c48cf458a293d69b2d1d44fa7c2c6088e7b7f9adece3f873dedfb95, 0x1fa713dde3903e41e68f09ac2f34c9b1237a445d5195c5e361c5bca31edfa972, 0x2019aa92adf7b5e795f0e539682e4b39b4e32bb6520c711102aebdd0c1516843, 0x2253b9233d047afa018c40c49fe9ff1f999432a9c7df06621b2504a46f120cda, 0x1cea08c49328f5f053c6b47cbbc9559224be1d81354911a18926a98e047bdae1, 0x123ad23966a42c729713094fc352e466e2646af9adaac20fd8e58f308d2736e1, 0x1ef59a7e266477a644527ebecf0bbbcf92ce5f80d2280daf826619b7ebdf79a5, 0x19ec1d74d7f3672f9bc66be9ac40f5be702b7bac80b4e33eceb592f86d5de3a1, 0x242646c43d7f28cf38c9acaf8c63b1b33ff07c778c2ae68c55d4893a927a3a45, 0xe2c8a604553db3b81980fe40d801cacccfbcbd79992430fcb50b04a42cbe9b3],
    [0x2e77da327c869b63fadf3824d718983f2cd1f7f8ae64c88f5e8a500a34056aee, 0x191ca3be9eacc6be4808bc1668d814499742a1167792e33d70d35b5fd0ac2736, 0x2a26e10b714c8c92c42331368736018850b48a0e5de7936b2cf25eee46631964, 0x5aa6b2e25b7ce4c170427081a01190f2364872d01e51e969b14d984930c10f0, 0x7acb3904e2ccd87ac5d9d7b6b7b7bbcde3850493371e1b10bcef4cf32ff2085, 0x5aa9ca5f20dfc104c85eb2bcd80dfe7bfe69d42d1ba4400bcf0d8ad53a18c09, 0x411a0b6eb09fffbe966876683e86ab965280186985f72fac6da310e80175dd9, 0x1e165682a562b6dd29cef850b2759ebf862caf71e348b42027553ab1e7f0cd1e, 0x2b65e92a1f91e38b2e7f192ebf0bc60cd224ec7c1c67b10d1e5f634fdf526b74, 0x2208ea7d1fc63767b1d3dd1e7fcfd4b13cbfaacb0f9f531b36b0bc74d364811f, 0x1ac718a287105fdd6dcbdd6e3a9f833791e7c345891b6ab4760e6e2bb62059b4],
    [0x98090f723dea7b927edc36a8eecf84630c92d0138f90dc555f6a48971f50e6b, 0x1dbe00faa3343aff72d37b302260143bfb5d4e5bfa4a0b3d0a62223ed66b4d6e, 0x642c365181ca2ec3e423d6ce74e145068a43f88ce053575a2ebcaf718860998, 0x245611d0d8047a24db3d78131bdedc67e345efbe3ea7f6c7a4fcbd3c642246eb, 0x91ffe3d519525ba080e1fab546709b2dc62a1793e3811ec5161c800b487f54e, 0x2a617ed588722d3acf4900b3dc5015724b7c8cef458cf9db494d786a26b69e4e, 0x1302868a9ab3b6a36cced0f80f53f1a13ca436e2d7c0f9ada90040affba0a8cc, 0x1d903daf4300755be0acaaf9ebb4414795bc3fb377e5903f89ee9b3efac052ab, 0xf671792ec6b8bbd0936abbc039d2a868f523a0050dc0122f5d9669b26347770, 0x1045a4241667a8cd38078067970b02dce9c35054a36fa51cd892d5d2133cf271, 0x28d738f79c07b35d2df772d562d54346dd7a41bd07096c36c2204320a6760b2b],
    [0x2d245b5c1c1a732f8283446ede7e846f35be9d49cb4f3f3bb4e5e1fcd1789d51, 0x25a499ca1907638351edbc836c1498ba7c8f2e14bf99f0bc2b8b86bb89b4eea1, 0x1be3f4d7663b949402307b82b828a15f9423f9be115ca9ac4584d4ac75296bdd, 0x1b67eb51facef5814a30cf5794a95d4ad1151469ad4d851d0c3366ed6b99320a, 0x6ad69201f948e4749ef9095707fdc6591022c78cb6fa047f825a41dd3e495c2, 0xa4b8288548d5fb3dde7cf4bbd1a0881e5e61d99b1d52d0f82e8371509654119, 0xeb4a9342e89d9cf0f482c41ce66e40ff7c7d8f9ad1de8d1d8d48a98b0054c93, 0x1a645a223471e2cf776be1bfdb7060185e5a58a6b651a12a8969ad5a0dfad97e, 0x302c4499d41e259ff761ddb305a366f3e7c2b01c465777bceae1a67e6b412c1, 0x2c17e0b7f901b93630c9da99baef3c5c2f5a644dcea6444357a121bc2aa4274c, 0xb0e36da8335e243dc7fd59cc2365974d0e0ffa247c54ef9617a80f76d4195cc],
    [0x129e733c1dda2ede8d396d85fd6bb8b6e61399f2311c09331c7ef2f9beab22bb, 0x2cdea7eb18f6146b67c437f37c13f856eed01d5e464e8870447c5c8b4befc4ff, 0x2ad4f0216033018e7d2a550c2e082432614f407fb60097d4505ccfcb31d67745, 0x2aac4f54256835bad96eec256641a10fc44d0d63fd5860fd475ce818276691f6, 0x17e25132c09ead8dfded691b9081b581f1f76c4a86f2fd9c9c29d2433f4d228b, 0x2ed95e493ac979a091bb6d28e81672ec5e1f1e39f163e5f4b9948de5b4be3296, 0x161ce63d596de69443d7f542fff36cd3c110c33cfbb445c9cf3b70d9081e4f0a, 0x193efc77ea76010547c5bcc600a11f1d5a80bdd7796a6b3d9a0daf66a0b8a4bb, 0x1449a38a938cee3b56f505f1ba2325b186e2ca22a8435f241cfa443c6000f7e1, 0x2060ecf9aa31db3120201827fcdf6b5ee7f1bb93d550187ca2dbbd4a4205a7d2, 0x48dbcdfe2fb6c50968e825a958357646779546c93340748ef2e05794b48ab1e],
    [0x302fbe9b13a3eed91a823b0b4d3e3621413408497e6c3c2fa49d9c8aa36f408, 0x3e81925a3fd5f25081532f2986507e0ed91276cbaf4ce0860817ac7bb838e9b, 0x1c549879138d434cf3143517dd9bf2a322224d76ba5b3e4de34b7ec490407440, 0x8120c7ec356e16945d94e55e835ee7e2e91e410315dcf3475f82d270d16d0ef, 0x130646400633005168c1e14ee27ab8d238d8ba7514c903aaa591dcde7bfc1863, 0x23e9b4dd3d1f30c37cfdfb3a83d45e524f54aba1c067ac1ef1ace082ab43479c, 0x285b38aaba20c38b0459f4a48843122b6473162956247894711ec767994fc3be, 0x2559fdf58d3c2200c83ed1fb4f1eed568c2248ca08e5794806d1841f3a08184c, 0xe33c73626ab1ed741e47ac52be4e9f7f7913b5d81d7da1aafe203a49ecb983b, 0x51d4123632497aa324257ae52a51e2fc1f9ba8901a925dc44c0dc6779ff5496, 0x1fbabed28208178778241052b236f0bc7ae9893d247ca9cd05672e9aff613148],
    [0x1c2f74139538bd253c3dd45a2ffb96173550a51cdbfe2a76827237fb85beec7d, 0x157767e2a7fdf25c184755b2f47369f2ce924e5adaee5a3738d4f942bb0bf956, 0xfdf1e7c86898044ddb397feb48e5ede9e3d24fba5420dba8d1ea6d10dbf47f7, 0x769e84ed17e6c1eac40b5e00ccd2d820428101b2c84b588ee40a443ac9e08b0, 0x2f2a0f50ded1e6ab34f60f8c56904a516dafc8153721b44f1b3561890c02e85c, 0xb1dc04fe75dcb36de0bfe15ca2d5ad5bf2538aed1333df56e1b2d861928e2c4, 0x17aed8d117c277ed0d1d888b35ec4bd3dc0b823b2af037d3623ea103a2078b24, 0x153140aa66586cee231a8f3fd8605976e6d32ddf431ff33ee05b9f429c0c9481, 0x2ae922e11ef4d41b7b84d52ab835f5bc8027bce9de25c1ce5b0bb88b6a17d1aa, 0xf818243cc3faecb7c73dfc21c2968be63b7e9390bac077747bbbe167a055b55, 0x1f62838a30bad6eed4ede2ab52866db5155137cce327a27f4b66e2204075000e],
    [0x2fd97957b9460d3414008cae825bb610f018c5b53309ffd26f39ecf1e7f795b5, 0x2692d11e64695e0d210374b482a47267cc00df2d1b90557227cd49fc37ec2b51, 0xfcaa78988a35202687ff0dda691b035b4e9540a5308c96e25823d8787a5a040, 0x1a742b2cce21c83d7943fe6b492a9b88faff3990e48866670f52a1db33d691cc, 0x73a59e2c9c1aeb2a2bb89b1fb9b64fc42a1bfeff1d85b6e7a163b8c3bfa8203, 0x4c604d77b356b485d215a9fdf7e5ec3f29648fc90a186c97e512140cfc5d966, 0x1d380aad6383bd9f5c4b9fb4b127e0755d1198ea3a969efe5e3bcf12d167882a, 0xcb07cbf2019493088e17d16ce9d14fc4204f670d6b8e2b1b501d1f1b3fd7951, 0x166eb6ad5855dfd3c45e27df9154853d4b0874112c4489ff7aa0050e41fbba1b, 0x372a3beb9db36031b7f0c72baf1e53e9c7220780b247aed82ee2079efadeedc, 0x5bd655204d55cc6b6390bc1650301957a676f7d3d6017c6496ad031fd5f7b34],
    [0x144179199dba135cc5f9e91b76880f342a4e74b8ee661c27d5b651f45656021b, 0xe6fe8c96ce98f3cc97c11993b5087b55f3de70bed632730f92299b3c32ba1ca, 0x7a2eb5886375517d399bfabe4c7ce5c03ede836c44ac2b51bb3e35aa9576d4e, 0x764ec896ba7a374f5fd5a1cbed8a2be62bae0d572639e17bffad24590c3b89f, 0x7ba9ec6781cb474fa4d622908f09a01767a0785c3a14ac5ba29328c4da5f4f2, 0xc325b498965e3770243012dafa0dd4fb036a4013f2f67f350f3fc9e74049160, 0x219dd3ca3c98d1613393838c73c88a6c6502ca23b3c85b5b8959a29691e34271, 0xeb2b45fd518f54e1b0d4825026fffdd76489f6260380af40ddab5ffc1c5b33e, 0x2305b8b5abffdc552cd96956ebfa456a36b35d200bd3e43ce165eb38711a67ea, 0x1a7cb11ea9463f6390abb707987615cebe594cf232fb5e8914407a43ae57b982, 0x1e67ce0524d1079208a94dc25483d9e6b7428d40c36305bbe0893e194a25b325],
    [0xffc539a853778970432d8631bc0fdb0cf6020b4724b49ef031190dc4bb1120, 0x29945c9ca4c39d45540c035c10678a3f2f51cadcbf19b332f75ce1f46b5978ad, 0x19cb401323dbd3fd8be1da954c0291d6712487c687dd9664a4b167dc01804452, 0x285fd86adb21908cc4441249fd005cb1add0b2abf706caff421927506619dc48, 0x2faabfd09b63a81c1cf4dbfc64323d8c127ae552d00339b1dc4c59b1cc7ab4ee, 0x2fc7539c406bce26fbe61517b9b8efd3617110c8cd4b2bb3b4a2b339e9857d4c, 0x1296cd089d4750e55c1c01d768b5e8f21d2bc1fad76b842940f293ec0bc2ac95, 0x21a0c3daaf57fdcf2e88ebd4d1d1a44eaa465a40cf60b07cc26549b577a1f228, 0x1acf97f4cacc97d888e4e3b5ad02dd9a8ee511475e21e982fa1ce50467511ab7, 0xb3556b9eef69e8447d1869d1286e0d15482112d23d0ebd7f8bbd61c435df612, 0xb82cf5e2db8b88b32b37978b1176f2a64da2bea71894005f4acb1ce6a684b70],
    [0x2c8ad1acc7636f65a12bf83ce68ac92abde9f451eca15051413f36bb565ae3e7, 0x2fdcc46499cfb1102f554080793658228c92ae49ed7d814700ad1e13eb5bef89, 0x2c8d7b9323fe30ec21eb7b8e0b88248fbdc70f047b5b9166e3dd8a60bd2a8d0c, 0xd1ebf973c9d26a64362620e65b0ca9f59c9e971fc97506371af9489de93e918, 0x1bdd929216a105b1351c6047b43c53d79866a0b653d0f4670233e9f59cd630db, 0x162aba246750dcd856c975a9a473a7c921b625699202934b0a1d29ffd038fe97, 0x2e681db0e74c3b6cc499a9afbe2229c8afde2932e4b15228679b540ff45e2eaa, 0x2fcc235134792fb4a81da0c1ffd8084cb8cd8099293c3a129504808d3ee39bd1, 0x1eb6661adbbb0a1774c6cf1637fa1e5e24399f6690a55416def3241ceece74a0, 0x174045c72f6848838b2a08a7a011756097b0f3ed254cffab2926ce159e9f5627, 0x2a0575f09f3282fa07e9b5cf5538993fc74c4ee8621c95fbb2ca2e5f2dc3a11],
    [0x282f62aeb167ef5963da6c6faa8671123225ad91b227b886b6b981aefdaca0c6, 0x1b9abbb81bcff5f1704632def6d989e50cfdbee1d249803238eac244351d7eb9, 0x18f8a4669faf9cff11dd19f3d73c37748fb4626d18339c077a06e5c5c810badc, 0x21af0de4ddfc449368db59be9e9241185c49c8496ee86d1175bdb7a431086a84, 0xb9a1ec9fd21cb95dc93c0ac1911135b3a68d372ce6da9d455d80a780b15f8b7, 0x1b413f709358008f44c3e60877d810a081d90844f367e3dd0a7bb9cc118dc502, 0x24b4efb5028575888feb5b8b59d40e3498fffcea1f350826359bffb7fd4f31d2, 0x2b11edef3505a9dad6000607ffcbdd02788c7b5802339be9cd74d2ba57620117, 0x202279706096cd42f906239c40c6713e8bd89efd9f63741299dff53745dee8de, 0x207ed9f7ff57bb17d278f833b61cf678f52c8e321cc6bce3af0804a7c159205e, 0x5041c088d4e637431b2a49baa3772a9b0443f3161fe46515ae8d3ac0b0e551d],
    [0x1b7c7bc15682259ad0881dccbce0a64a0259c59ea3c5e012f99534fc02374a, 0x1ec19711623ebc49ef4d857325aa9dd7efb5fa3cd7ad50f3f44ccca99128c84e, 0x6cb1be75179c19f889920ea93186dff923e2c214c50a145518837a2b01ca900, 0x2712a82039769317c21b225a4e0ba45df63cafb4821303664d5b331d22218d83, 0x1d7d0968738734d0710ae851377e340dbb101428d7200b731adf3b1c220f3b02, 0x180502bae2da039d85f537212bade3edb56fb3b6a5567fab1e4061b86fa3e66d, 0x1c3f1a329f00f6f7115a5fabbb73a67bdd74caceac0e5a4ccf25ae0373e9213a, 0xb888038bf1e8afa2e444b9f47cebf28f42854d1a91608e39dbcda872bde960c, 0x2a036e70e2987d85453ed7a3d9a68d574adf56eae1214dc774baa10658962c12, 0x3f11abd551e44d9b6a0f4440f47006e98cd9001459c9672e6f96a92e5023d3c, 0x1f0fa04bcd63b7a2bfdc870efbb36966f543e235c9dd5b371c5ea5c26aa7b9ce],
    [0x154e2bbd796692b8942dc37abd9534c486ba70bc77be21e74c4e15381e1cb4c, 0xa0525b3f96a7507890e7f65e7b593886d18cb1474f5db86501a4db1fba04b0a, 0x4a473932e524fc0e604d5ee9cf3ba9ef8d5b463a1379fcd7d6af14dbdeb54dc, 0x21150d11c7232f615628e7392f6a0c9348c70115a1a07b88736d04aeb85e0f8d, 0xc71b12a8e8a7d8fd2b4ea9b587f1c7227be1c4e9740db36cf7c7c5e8f313087, 0x2d94cdbe04f7f77c5af2d36c37bbb81729d951abfbd791fee0aa3a32321ac661, 0x14e45c5e2b09d6d631cc60c59fb5c24b0a57041aac64b4a82db0b63600f5581a, 0xabc5c5c8489780283c139c36dddfa39f88ee0601636ed3d6e4cc14bb3b1dff5, 0xb937ba15135dbef736446fb4923206c8403a42a800c26e6284a93bb233d5c39, 0x13869afcef8309bfd43752610031bd0d155f0f8d11bfe9a7154452e2bf084057, 0x6d42cef5ae2ec34e497c596139ef1d504a0cda240f1762335f02dcd58c38395],
    [0x1554308cc7124ccbdc04ffb1bb97fe1e8277b386f65ccf2c8b5614e343031a31, 0x1e4fbc4c3e4f57e90ad50bc6e7a10b468fcf9a0a87a290c4873897e49791391c, 0x8d2ca5bcf00e9769dfc868d1c86f288e40a31ca8396852f3977369af24d70b7, 0x1f5bbebe4a188434ac69933fb8df5050ba89070879978fa4b7787bfae7f83b56, 0x11a2dcf45d740445dd1e82ef88829813555acf76a219024ca7002501240a0e43, 0x2a8a12e68b1fcba10e0a6d1a86c14a10d26e3c7416f36d62ce6217cf967e1c67, 0x452848d3c0c00fe60d721380650c849ced2cf79d3044820812223e146647f35, 0x2a47a54f59ff22745597acf600754759113ca7dbaf11d9c08f507c46a9aac9be, 0x185bf57472562cca45f87ac1b1ae8122aec58cedb831281c51f3799f07e72b8d, 0xecef6489e709ad5c587636b3bdd9c7b6e85742175ff86ebdfc53ab588d6d8d6, 0x1608b3e2624ffc2c0091e47e90e5ac3c9962713c6a13683fd5531723cbb3889a],
    [0xd3f60746bca57e5c968372ec0e987510a647f2e7d34415ba37989dafa94c60a, 0x98ecf0484e127aa679523cad148ea227237a8d9ff9dd8d8f39fb58162c3bd61, 0x302f10e11c13f3767223bc501a5f9dd130fe517b627f0248f789fb7b30ac105d, 0x924717fe7babfe9541b3386fa40455a0177c69731baf22c0982cf76278899e2, 0x17382965ba7be709d54d70ca3e13feca23b22b9e6e5a918a9f008f47cdbfa885, 0x20d30010d977f9d912be79737775178aa841d972128aaa95eb7b27e160c2d2b1, 0x594bdb78b3b69993449609386a251fa14ac536c37ed01608489ac1c721c0706, 0x2ceec6c13c11bbd47664844320ccfdeee402e0af2ec8068796c7c3753330aff6, 0x279fada83f830dfd97b7288e670459dc078c76cf0637a8983c0617f27b4b3472, 0x29d593a3112c3bf57ec8ab687d8398fc276fcf1d462a6822892738533fb450e, 0x7175181f0554da6ffea4a860c03124b8d50c3ae5b59a167e5847ba33d19c050],
    [0x1280cb7bde9bac1c3d7f557f27a5acead6e4a77be5dc3e8221087e4a6ce23ead, 0x1a994958d44c343f59489056b8cd725491ff551c0f449697b546c8dcfcb90bfc, 0x1f004034e8810c1f1de507b7eed842983412ab8473e2b00fc75593eb4e3f5509, 0x405fcc7b759b8ca30e9273814efb350c1e52542d338f24c47fd99a94207800a, 0xb872545cb5ccc73d220bbbe01fe39940e7a8929b084602541230807dafb3c8b, 0x2819facca2cd6cc16a6aea3191f833c2d3729d477c73835ea553be5873ce2730, 0x22e725f6cecf165754ce1a52ffbaea774d8e485d66cba799723253b26b68c53f, 0x1d122e4654861c4b3f76c3bc49529a8c573c7b0d4d3e79c48e3a4bfbd62cd1c, 0x1ed4f564d147f3faa38336a0985022d537d34521b511c9360bdcd1b29f89a2f2, 0x2fad9912c4caea5d440517f0e5688695a4d16b0e77b3dc3fd87f869c83e5b9dc, 0x2b5a8561f0dc586d6e3bb83ed5ec3248ed0c09f9b30352471f2b0b80321deae1],
    [0x186f4d63b014de8c9ea7ab01a79abe5b9be3808e6ca8344132f60f5595a33d57, 0x1ae5e940fc5d1295d32457a840581c3b8bbda0115b66f7f7ca429824faee4d16, 0x14afe0880ad92f816292a452cd011384632d64ea1839979d3d67d405af32778c, 0x1ac869e754be8b071a3ee9c64af49096439b98f44b15a8c6f4f5ae8b75a3849d, 0x2dc29a1a317499b43a5a4ba1b36cac1508f795bcc4431bfb0ea7028ef2fd32a9, 0x2ee8d03afe43c2b88599f0a35b90926ae6510637e2733ac0f6946d908de51312, 0x266d80fb5c10b2655e141777097040473cd5a4deda9225b8525c94836dd51eb9, 0x2e4d66f6559483f76f1f55682d1edb56c8c3e14dafb6beb3a02390544e52c22d, 0x10123aed5142580dc67408e337d4c773789d93e479e4fb44bd73218cf3db7500, 0x19526f25b7ebe2c461395e66f866ffb80b2992d53883100f0dbfc67f132a5a91, 0x2e77d96a8736e6c38fb67b935a55832b511a4ad8d86621f9bb313222dd37d656],
    [0x9f2c6c969d48ec291576bbcd917fd622c2b98ec21bbfa2df5d57324ffbb4b18, 0xdd360058171b02326c9e4c4618c8e194999d6c4480081fa738878c3e1b11e57, 0x198a52b8282cad7eba3a3800b59a794a2c70949ed966c86ba29d9bcc37f29365, 0x17eb8c8e8003d6b93783e67bd14d12a9455684cdea4ec58d76a83a07b428dc47, 0x1fb9c160b09797e9d4eecc79c50e2658ec10d0f38ecefc1e3e8786b95fdf9626, 0x202c3b6495a8af89ddc6e3fbf4d66d73e6dd13f8aab893174c0cafd78c8a510, 0x114ba7f12c0e1a3b12c2b5291bd8141bd50dfc7000465084a701f47b15763083, 0x19ad3e86ad82a3765aa64ea022d1117e1c230c02a6ac90037895728f82b3347, 0x254ff8ec9eca4d3fb26c72cd63a7d4e989bb1b9eba0d8bfcf7713dabf7f64e01, 0xbe8c9b5aee37efa93ee79b5ffc00e8b772742c601bf8f230252925ad2c9a702, 0xc71775341a98ac909ba1f26ace40de8a56330931336abe715d2c1eb7d931ba2],
    [0xb833ec8305c2cb5002b59beb9e58216a27ab69bbc7188e4302131e20fee9dee, 0x174aee31c36b81a6212b9d446065af8800a60cca5eaa1b16fec85c2e2ff974e1, 0x17831dd406c7785a5364d3939277da9eb5b6dff1e56fa35ff18506c64b2a8b95, 0x121e1c1bdb7e4a3574bfd1c3a4cb3994ac4936ff54b07caa0a7ca53cc09dc445, 0xfb2ca5d37066fd7292478917498f8788bee33d3ed4904525a4145bce35fff1b, 0x1c131cf8a1d5440337fa13e595cf6d42c3016049ffac09957e69d0b4501e7ff4, 0x70ee4b2f7a90add1355f9cdbc3a557f84aacc648634b0ff48f83de4f76a5856, 0xac05c9b13d1f28281053b12af198776f3c9135d48f95d67c9314b2c48ee0dda, 0xc95a176bf9b37e0eef92426ccfadd296954c0bca794929225cfdc4278961574, 0x16635a13512870b72fa81e4648421a2210c0b29bfa1a3cc9f41470a91884445f, 0xcdc33eb19f21017be8a4cf0b37b6b12f801ea5c4cdb77a34cf176ad85bfa6ed],
    [0xe876459770109bd315fd932ea7c69c96cf314e3403d0f93fdb3afd64a150472, 0x1f26a00bfd677bfe57b879c71cbc54ca913a4791d4b04e30437670966d840037, 0x229a17692c8cf3377225426ce0cba5d61ed5f7dbb5a31dd603eadfa165bccf8d, 0x21ae714094395df65267acb6549d580219c449bf86c33eb4f793e0747a6445fa, 0x2afbdd235c79565be2f6e2cdb1d527bd569adffece0cb39fe08bc9d0ec2ea2d6, 0xa95c11af3ef7a0c585ebd2068bdfab2a1329821a17baf65a6a0746b38a4ac56, 0x2ed822401a485a621ee0b04f6f7b50adf796d225e3eaa587bcbf87c4ec0a19a9, 0x10f52269c0c47e3d8a4c878ba77b098d1a7e913fcd58f8a1bcd4afb520ae01b5, 0xbab4900dc219d1a737b11c61bde5da6af375d36401c121e8ffe8535dab67482, 0xf0f8530f0310cb2f6c999ee2dc694329a957946b2c761c8505ececcb2ff2237, 0x2015cb8f32acceab144d968136e87d67cc251752a9364b7759888eb1800a254a],
    [0x660194d882e378a167b870ce7095e5ad119f66ff97465dcc929cb02aeb602d6, 0x312bad9275ac67f2bb34610bfdf3c6989e89ef18bfeb3a5af5a3deadabde0e8, 0x5cbc68e5b05a1fc3e784569ef325011f839dad380e8e07742dc0af514804938, 0x23e6688ad84690b2fcc1d166fa6721105d36966ce9a384a0f659ab02a7bbe01d, 0x26201713078d367d68a33ce6ebb82ab55b6c116e534c85043fe458cf4d1f9120, 0x2ad17744e079b70e3175ef0cc86ebd7238cccd281148038498c47c733baef3f0, 0x227b2456b2df3801ed64047464250e81b3bc1d20f3fb79fef34d38faa39773, 0x1936c25ab78e54a947a7452dd65c04739f52df324cb481eb9a13067364a0fdd0, 0x2aa9d353b8afaebffabba8ed09220a8121ef8cd61ad2c20cca4fe8d5d65772da, 0x2c37de8445ceb0e6e16551a08251fd477a57c36d493708f8f1503346e224ec73, 0xb6016b413068fd8119603ac0ae0afdf94284916ab9582732584857312fc6228],
    [0x1c2da4c3fcb0215aef82e75f67b62db57f7e261792fb69195382b8ab565b2814, 0xd9019e067b8a2dd481299ac904a14cb516ac0ddaa177839581770a27616041e, 0xadd8f2e12999625d665e7ec804c259862b99766997a2754498f1c10c708f516, 0x1b04c94fba0160faf1a69ae28901f6e58f265137c4e6eaff003dc34cc06ae9a2, 0x19b58c38a368d1bfb49de8aab145368123817e15d06bf1d887ca21feee481b82, 0x268512a6191579be4c51cc8bb8b9dcacd4663f69e60f295ed750430f6f7fd7d1, 0x13d268b42c3385b68c54f2bcb9f72457d7ed9138fedfc85181a048972d34e1b4, 0x2cb0a99448e388e04f5de4c9cba52f97b9c4b7c7486df3236c8f92e16200941f, 0x1f0101328d89d8c934d72ca36c83de0f0c9eee06ca36c551d8fbeea255cd18ce, 0x14262fa1b33f7ae3d7666719900f64a1387103ed4b3e1d995fdced66760720bc, 0x1364121b3d6d64c4ccdb10584b4bc6b0f747bbb66f30d764d0e60a796d30a5e],
    [0x2ffda5ed3ea18847ecd8fbbb951e83628462e15c24637a6a5fc443cc6445032b, 0x1b6a9f9c7c09354bb8f206f9fe4a9ca8e95c6e41b2df2945d2efeded3199efc3, 0x2954182782b8a9c2aaae675e5d8c81a38dc9d2ea6462f5e86d081770bebfd2aa, 0xcad57ec1b88059bda6d41d957f17178beb8a932a29b6162675a6fee7dae1574, 0x29d6f606caf5aad785e9677fbaa1f8715b130e908aa7a5d6d88e08b3b8716492, 0x303a687f559ed6e770c9a84115ae726643fa16f4a9ec5c240f8981699f2f8c7b, 0x2318a5a800de467ac7406848d22ba7e2f2ade1fe67df255cd62a27cdad188086, 0x228ea9efaf3b18701d3aebf00c7432d13a6760e73767cba67dbfeac461d0a8a8, 0x2ed4c42bf04aeb7873c2fa14d564658533553d0cc8357cfd2c4dcf543b229be4, 0x1dafc53a1dee87dc061e12435c932ae1f4d4f6cce57d8e4f030eb7c0ed347b86, 0x181f880921711f6128e2dfab54440c2087ad7d0235beca496dc61aeae235db3a],
    [0x143fbacc8b948ff561d61cff210e8af82a0a500852d84ae29d8410e4d2dc7e1c, 0x6c4e0679e8b4d1b8249e09bae2238b91616a42094c69be83939570a4751e093, 0x14f7cda89bbbcd7cdd778ff878c8df66e2997ced3fed3091fa0b259c743347cd, 0x21b40bdb3db178afb97e6c8f509a3a54e4970c702a3c96e2a680a3bd9cd1159e, 0x2233afa3456f472cdfe3f610d0612f0d74ad9842d0ad08b826916d3a3b43bac, 0x195838cd762c2a0ac237c6bb111d274bf80900ff6b4956680bde41adfc90110d, 0x982b8802216422f46f29c0985967102048b43b53e3c8d1e558b2ce81627f0d2, 0x11cbc741c1bf48f7080f491c26d116766a8bc51d9cfb6cd08163e569e5f546d, 0x4c26770bfd30be7f086c9c707f29e38a22ab6541fdd5d9491d613d3fc36d64a, 0x21da2bd83ee80170d4cb123e322f86c4aa2f2ebf85cb97bb19e8d7340ccfa556, 0x1380aa59b03b58c68d377f62ee0b3bdc06c1b2df0c68d503f8b0a95c17239ba3],
    [0x21309cec6120b32041475ba9bacb7aa507578fc7d428bb010fc06f0ea36d0762, 0x8792ccf88cf6e450d137ed7b5496295f3f9cd6376454346fae4717f7980e554, 0xaef0f9086c9e942432200e8b59555695a4f531e319fd0d57f1881a55e3a037e, 0xe0b748d5856936b3fd8f2eb1eb4c2cd2b8b8be4d6318a82cad3e0bac505766f, 0x172fad32593c374ceef1a42abbd708565d3591e8032c517e4595f3064155ae8e, 0x26f5f9ce4d72145d3e72c42c974ffdfc89a48c511bd760b3d9db03b9b105c4b8, 0x10e053336934904ff6d7b672a3bd2ca58728e5149a9582a72c1c309efcf7a407, 0x1f01a98934ddde51f300d542d1fad8fff4117471cab015d4146b05f1deb04116, 0x87cd7a95fdf5fb9d7f0431a0466625cdb42dc6237fffe77f5ba14c6dfa1b393, 0x1f9ae8ef71dbcd0d48a124bd265d37cc0c1018ca0b45e7b43796b045f65a7a55, 0x1571a2b0a25158c0c5d297a397715b00bd1c5435d2686c31618d4128c538f0c8],
    [0x2322fdf2761e45f7cf265e4d6272519626de08bbf5e71af17069df29497a5838, 0x2ca8980f9fdcdb1b35022e02f6be62f19355ca4b9eac9b2fdcc37df2ed0264f9, 0x1a8881c334f39420d4672c5050f45d9281424eb61545782a6c17040dc7d38048, 0x1f319a0dc0f9b7429e3ee9bed57a96a0f2f67cb5fcd92b1c9cdc97a15f7761bf, 0x2419336f26dc5d498f279af95b4d7d1211137c608eed29b5c9510695e1a467c6, 0x1f514d22f672cbb16363befa56678778209bd257ca117b5141b29e06e4bd5798, 0x28034a6c901cec4c56675311def10fbcd8088f2f68f795d3b35519bb1fbf1a1d, 0x26c2b92118cd2704063241fb919806a0fef9814c87b071d5a11efc2cb1103cf2, 0x3d539ea2ddcb358763861791cc434d1eefe731ad3262eda857c56a06d9cf8df, 0x2206f49436409e8be8f542926d9e299121b43210e71dd7970fb4283337d241c7, 0xdf25598607771039fef577a6f6dbb610ceeaf204eaac7a09b96ad22de683467],
    [0x283a898de5a21465cca3213af584b7f56413a9e84b524431436d0b136695664e, 0x26ab264e89611039dc9cfd4b216df44709b54f2418df66545c30cb93814e446a, 0x2210d7f2ef43e229c5631d4e701ef89ffdf1aca64351791e0fe7eed428493c8e, 0x7da0affb47d64b7edc682dabe5c6db224743b5a385d04a2474d52ffe8abfd09, 0x2ad8280ae5cf82936069f72e49010f8d1643cdc299f12ac096fd44c501ff9af, 0x267b89f84f4845e3924565fcf1a54e8a3257fe8aeef515f86cc1c0056f46f6aa, 0x2d46f5c35e5a81cd902f418b4b93f25abf802d32d52da054a5edeee276148caa, 0x20ae8e71570f8ae5e655eb42a4f274650226af1fe160a96b177854d736f2bd2a, 0x20b9b29a5644790a5a31aa0a724fb578f3650590ddd164ce5af593f43c798f4, 0x1390c1d95991972b3b8efa1a367383ab97f4714396635e8791395937010ef0a2, 0x4973b4363f1f55da12d4eab985012d32bd80bc0adb90216aed9574da9e97c58],
    [0x25f7a653fc5aadc4af0fe534953bc88307a20e941d7c686bc53bbe324d184cd3, 0x124d7810821f47782fe6bf64a7c5eacf03d559776a25e2f69de28362be180bc9, 0x2f6f04909dc360d1add503953c11648f726eb0f612f703ac1e378603d33309a8, 0x13c2cf1b21b786238faa93bfbff5c0921899ef1ab29548828a375e4bc00a1b52, 0x84c200f10eff59bf43cf3cc3a506de500ed68e59bce5cddf1137ec7d61a4ea4, 0x53b5ad5902dfb5ca36d76b2f980906b14ebdc4721546a1f5f1e9741644f2913, 0x23bd4498b4c0c9f248822f15b5c88bc7a78d528d3bd3e3d3b27af6033afe1262, 0x2b5ff61b0e1fe18cd84e352c417ab5b836683f28df1c16e28c08bc4fd269a99e, 0x28f774b7936bc5095e77eb655005ab8767aad076c098b8fbba8521f18a2485b4, 0xc7f6d2ead683772565984ac819dc2c8326cc4d3b18f6339125621262128c845, 0x1e03532e35111565173f76b67ee9c713953757037b272b369b14bb5d22ab6433],
    [0x1cdae1682f2c10e440de32eb51726d9db76d07b6429675bfad7e778cc0bee076, 0x24de40666f59de97deeff6d34c873b7c2498f022b856c551fb4ba6fe033e4e1a, 0xfdd0166d15c0f4266ed7296dba4b639040ceaa6910683ee44d37b08679f4825, 0x318ee2254c3888ce4534d9090448b7a862afbdffbd4470dab55c9fa24f50a85, 0x7a8d19a1979c8fa3401bfe964ed5d3f3eef19d7e4d0ba007f3854b4904c5f37, 0x2846f15a121456f0f74b5072112a90ecc56a48d98a7a07f30eb553424a00b27a, 0x1295ad2de68e05b113031de854959d9858facf448ca101405407aafc1fe50496, 0x2745210ecc2533017a43305fcd13078d69443d0dda35be2ea50fc485ff8f1c88, 0xdc27f0b35fec0e0ff8cbe131c7ee42a228d889cb8254c4900cb56ea784919b2, 0x9780925cdb1429cc17c1e70b0b43755e2e70602994e975d34c3fc31cac19839, 0x2ef89ecae1006a20f739aa4da6987bb866d6993fa89e4a2fbccbb9ce28ed58ad],
    [0xf6feab3215156ac3f878ce67c5953dbc4e5ab3d131ee958275326ff94d29a54, 0x2049c1bcb035cb59a2350bcecc2a62f4fdb658108f059bc38c14098571a87d22, 0x9c5298f6696836b2a6544c9ca1c0f6448e0e6e4e0d4a8c3aa7e635aed20da45, 0x1d48ec8d786be28f71bd71994da04f787dc4b7792fe258255af742b348e4ea64, 0x766ba3f360f9cb8d27593cee1d890f57350c235096d9d05633992d477ef2567, 0x18893956ce600734714ccfebc44f67036f51c652822bc0c23797d73a93d47493, 0x3ac5e6a3c0373c58379bf38c87165d716aca05e14ce4729ec91496dc74a1de, 0x171f4b3d04a6eaf7db0b86db0ba5be7d4451b4ea0a1333bfaa31be8f50da12aa, 0x181955a3fed4ff19d90d947c2f157f050db34c847f59f5f63ac6c03b55383aa0, 0x15e503ae66cd37b3a58ac65549aa1de59228f5e5aadea7035169b9801e58a800, 0xfeeb8aec6c963774b27f86a55b4594d54b4b30955e358490ea169738f9e6169],
    [0xdd9531f7a34f1a001d4ebc74cb4ea4772b95519325d2989fc933035c68ad37d, 0x219fb59ac221747972bce66f78ca33c9bae38305e11ab3481aebdb9ddb4b2cb8, 0x1fd60dc0c476def3b624c219b3055373d73213dd925e940bf55ced88231ce09f, 0x1f8d07ef3e16cbeba789241956211cfa595452801f08c876c2525dc504c520b9, 0x515741548eba397d14e6269b32566615d09447155bab001ac6ee205698f16ec, 0x2530b37d2dd1b6166039f29fb1d78e90e9034cb6e9b653fe7428d768f8e9b2d5, 0x1602e869d50b280951eccb3ce71715628980d648390e89aff50e55a1bbcad4b5, 0x233887217af672bbacd873f1285a3612796b0cbf7890463ede54882fc774cc7e, 0x1849b3aa9e7053c8e95252858980abe8f1642ec66804753f02ff63f0ff21d648, 0x1a0049780885e0827447af9ba9eb9e658ffd62acbac998f6c1a80dde5aedc1a3, 0x1ca9cbfa808ca9c85559425af31c0aec3e5934b6ab51a2ea2549fbc2e7562913],
    [0x28a2a0f0622c2a8e4f16f2e0365b72b481312d8d5087e2e58ae89b34b8cc93a1, 0x21d1beed10bff96ca9f615bded99674a7331a52fb3566953e6ddf9eca280153e, 0x187114f2bbba9a993297bd740c2735ef01b85abbdb5b47c41ce6ecf2fc7edbe3, 0x11d0a386775c6e670a360a6fd957c403b434ba13f72cedc39d1408bfa73fc06c, 0xff4ef2f46abef24ca15d8b389e02cd3944d1296131b6d2dce954dd11d724f65, 0x20338e47b520d281448f3f8bf008aa743f74c5b63f98a630a00108464bb28925, 0x256fa0fef5853dc10aefa865c5653169397d545f07584eae65e1b3e50fb6a616, 0x144ba3619d5fc9d84f0632df296e8dea5017329573661b69880c38ca45ae3189, 0x298498c8df31dd315380b3651fe9c7ed5aaf4a4950a66134bc8b6029472a3564, 0x18caf9e264a32dbca23da51a3514fba92fb62f78ecc2d844557355ec8a43b0c1, 0x194c812828f1cdbf0c4f0b0486afb4c5d96ccc218b3b90d04bc5f1c8665ff641],
    [0x23f93e1c44119ba856a10380c2333191b3105f502a61eabdd8b1abc803c04ae2, 0x25d2cc988e47ce70fa99cf18105000d3046717d839af547edc3de931969ac006, 0x1d1083600023cccdc7daeebeb19783aacc6e94226d00c7ca44dafd755614a80e, 0x1943a9ef811abfe657fff92504f2a8914f09dfdd5b979911047bee4b698004cf, 0x1f96db1392a3ae5cbfee4c1863f0bddfd95a652993c8f17ce18869c261bc6c7, 0x12d4814ebb315331d4fba9dfc2ef909cd77b1e7126c9e6258a3c9821d663d778, 0x27a2ad69b9eb5697b85b431eba85dbb19843f3c7518121aa49515a65ee552e30, 0x66f7f2981ecc4c4415da62eabd3230424abfed3567121f656e8191a78c5ddf0, 0x16e298f60b265f06f8ec9227e54e8bbcf2b4823921deb44f063c92430fc40a12, 0x1c10ab39cb04ce02ba72d996049ad688961f60f8d9821d1716c5a6a2fe0a9734, 0x2cd7c8a78dd99aedc18c8d47452b4d5b2e9c5b2128eb373b820ca8beec970a73],
    [0x23391ac9f29c1a99ed6fbd9bbfbe72b488569bf9a207addbd4e30a3a8b97311f, 0x3041c5599a51eda33a6398eb31232519797b00726702a98a319c7ccba9fed2f2, 0x4e64908d79f35ed77fa8196f07a948c848512b534d9bf4f30ef093c797403ae, 0x19251e907d7a903bfa7bed87eb04bd921dc19062e4ec3abc9e82b7fa4e25be6f, 0x1b39681c2c125cae8d38cc5ef6fac252f4f82374fd5b9059614ecc134f2b29d5, 0x217a54dd68dcd53e336cea49d89925fd128fee65bdca131659d324ae636696b0, 0x2c054bf6f91776020de3fb9705ba29e0df17d7e1afe61e11eda8caf78762af3c, 0x1f88611d6c0287ce53543d87ed8182ba475f6e223989eda35d1ab746275fa4e9, 0x204d5a9829d570e203bde491b862a96979d71e480ebffbb13c4cb3af566371cf, 0xeac95c688afaa773ace4856252788170baba69a6181071d1d1a4e0dd320b4b5, 0x2245a0967d777ac5160082563d5815b44ed0ff9e4305c65c503e0ffebae5dd2f],
    [0x1b732905466ad921ab2430cbdf772a816d1ced4dea6818dc3cedfc67ffe5ffbe, 0x8caf1a4cd826d19e1c27f970cad05b2d49931bae369b82c30011041879f2894, 0x27d8134423cd987b249f4bedc7773fb7b7314e8c83d9727f3a21d0f162c561cd, 0x9a2ea37b3d739dcd70862ce62a8837dd267c22a29eb050ef246edd84f48f9fa, 0x1adcfb436b238f7461757a9665d2dccfea1c7352c59e5aeaa8ed24b8530bdfb6, 0x2a2354db535feba0800ad6659761f29aab31c142716e16779583c17d3cbcd700, 0x1031b876fc704c3296bb38110b87476f88f5721a1132ba71ba0dc4168719a6d, 0xb85e9fb664cc3b4ee539936f885885ae543c606fda007aed20257c8e4ee3597, 0x18067bd085c60da630ab24cdf419afda09778912d5c76ebfd9df7ecff6207186, 0x3771dbe5c3340fd289917d6fac9a154b6d55d63557af13d9bea711aafc5e1db, 0x3a120381b15967cde1a33939fca7830caa1af1fbad6d6cbd4623592101f1f77],
    [0x40324fbad7390bd98c3553232cea681d4b18be857931218fbbd1d394d67f781, 0x294a9378accf723c26266df89bff1a2bdb710f198de168890dfd73acf786cd98, 0x203d8640466332ce0c493396731a23b85f77cdd95880c457dd9cd46e99bf0f25, 0xd339481cf52ab1f652ec8967a89776e92b6aa12056794c9dc856fc27ec91ef8, 0x158be4217747076a28aa6f617c7ecc6045c8ce5c484aada197994b618b37cba0, 0x2daa17b35ac2ea21eda36bb06db40a7fa81fe60cda556d73121dbf17c8a05ebd, 0x1a2f7903bd643c61cc5eb68455202f6613c9c03bc3c59a8cd7f8d10b0c779210, 0x1ca7835f4f1c5f35aa1e0054afb114769a82474b2f9f771227f022fa762ba56a, 0x43ab3c95b64cefa7f97e1e8abf9db25d64c2213bf44b01b0005fee067804beb, 0xeed1694086cdd6dd84002c69365120cc2318283226eb7dbd9c1154e5be774a2, 0x31b726aa5dda456ffac29cd38b64926be57a1b6c1fc593a50e7e9cd384f7ef3],
    [0x2652cfbf90110f7727750d68eeab7a49385886953f75832be375c37ea9ad6750, 0x24a58d087af381a6f27b0655de795b6a7be734f05a4f4edef0572279a28a3bd8, 0x1b04d3e92a338f6beeb8091382d93141b3bb3d033294413a398da24464272a42, 0x290b9ee02a3a29eda94ce08a6752191c3c296cc2c044edbbe091172360b24c1f, 0x2a012d2f441545c914d25d0cd28fa8104cda2a080845c79cc7d0f39146b0b358, 0x1d4e5bc180cedcb8ef0a59d25498a542e324cf0f7128f707c433eac1eded47f, 0x54659f012ec8b757b1d2a175a9fa643e963238c342264ae9fc39a69d75462a8, 0x19fc0305e1e5b2afcb86a742152ba895ab024ac59c7b57e535224ffb807dc720, 0x21d1fd0c2affce674ab016661a216f0615b5bb1f3fc3985e9d74dd71ea86ad66, 0x26956d93f01776d23bc7f1e3464992581adddb48176bcbb03efa853ab09c3b17, 0x2403120e5a687895bcbe57b5b11fba0d963eb0c863d8aab74112f512ed8ad9e2],
    [0x26684fa9b9548b08ac79e7a14bc28f8d47650312f0629a40bbccdb590a298cf3, 0x216969c221bdc3daa1c2adb9be456ca19fcb948de9725fc597ac626968715c18, 0x6d4e54362d5dc7cd489ef466713c1b8a703876062ed0366a475ae9ac0776c0d, 0x10c21ebf642d38aaf3de15ac4a0de3b71ab9788b5904a78326ef099a1eb953fa, 0xa4b8e91b02da94aa621acff16bbdd44f079d29b2034a9e1dd8be270e7e3a803, 0x2b1a5b52b5f1c739f8e167a8561b7c5a567fd449b61e4aaa2965f3177badf7bf, 0x1e858a1edb097f168f10b9130e51d5a4f3b55da7fad6896298f14bb7af4e6356, 0x28362c3ff6abe4fb017450c7dd344bd4e08100afe5a09cb01877265967aafcd3, 0x204e017d42e6b32cff2091368e344201440854761a0cd463766041d7e38dcd44, 0x182307aa6e06bf1b20cbe534913a0b561e310316e23540f35f1bc9ee437e92aa, 0x1ee400aed2b9f1ed67a8116438ccb7bdb8d179868c1fd6a6dd9497744ef9ba9d],
    [0x288590acd331f4499efc2e7e8aa2656e64cbf0a68c7d928c2220db643db9d410, 0x8634f649b3d25022a2125f5f300d2cce2cbe122df4f1c51296e6b65fff1795, 0x3c462cfcb45169d9cead1d0715c8cecffec77ea449a20882aeafa4aee274e6a, 0x18fd54d4986a2e7804cbcb77e6812c06e7b8e28ca51ae323e56d9094782a30cd, 0x1b9efe04a809a43c624c726e9294bdcd3bd1e97cbded742e2173d3fe9e429fe, 0x109ca591b9350c71a7f2886c6e55628b38206223a57c07b2a4490771c921e2ea, 0xf98134e9077529768e4ec3dce4b62ca6baf8199d78c7e35f451912a80fb1bfa, 0x2205834ab1c8a66de1bc766adee18eaf689a52beae8659ad4d0b437bec229526, 0x292a6caba071b9fd8fb5f0e46dde4d711bb4a118ad0c67e77a7637544bc6c21d, 0xf218ac63a89d96ea37d62ea0387c145df2f14957bcf5c7b5b2cb9317a871740, 0x21393e5f2e1121136a25f071465cb85b02b2fe124a8e4ea83181891a710b0a50],
    [0x6e22d6946484dad3f4ad0da41be11da2aa5451fc7f4cf6cc5898278a6747bb9, 0x1ec8117c5590074a29a019140efd1c627b715fc464f1d7ac9d47f0979a4c59c7, 0xe6f5d2ef82945dfb392e447138bc94c32bddb72483055a0563444a0e4f6dd70, 0x169abfcb3ee96d7e02f9711eadc0a9e24a47a2f9fb1121cf8c6dacd91a5b32ca, 0x2d1dcd8258d2c559535ec62861788dea60dd42d7fee0cccd20a6ae4214d21990, 0x1f8a46cec465bba964496d25caf9a351be7d09a628ff97eac4fceed7bfed5c45, 0xddae5753015e7c1f3b07dae4be7747398c9b98667aa13f80f768a2204620b28, 0x1d961204697279203f4721dd0858244f2cc64c5cbf1a4bf1077a042ebf11af81, 0x2611bbf19addb97f4b761abca43999a4b98d758bc74ed3719bf65b172635abbd, 0x2c93c5c5b057f52c0b3d54338659f05d1566d028c1816bfbfcf9003593b98190, 0x2a926fd3e066a9fb75f76fd02aa9996999a090450d11ee1a87a1e0e65cd287f8],
    [0x211dcee0fee3f8571fd96f2b5c55de1139807fa69fbe79216563f6c5709f72e4, 0x2b7ddc28b2bc2d2718e9d6b4c790d55834b77906de2d4ce8b301ac35d33bd761, 0x17ba5159321a180ddefe96bc9d0f9ab7f44bf2e55174b6a09029b9e3fd83e0dc, 0x25e12b63262139695e50a1e96b6480353a6dd6a1bb980c20f91fd59e518a030e, 0x95eca3482e28057b54118da6c45a3f0f5ae53d67becc4fb0ca2e96e241016b0, 0x1112aeb9622bd2e00306dfa76088ba87e8d9cfeb83d756b40acb4454e77e3ab4, 0x1b69507de83452ce3977a83e01648114afc0f41974a6ba962f77da7ee03b2353, 0x18c36a227f30ba8be835022cda0891d51b2049dcecb5261c0244336342681283, 0x32dff6502adbf3eae1edb0aa2a142c2387216dd501acaa18a3565112c3cef30, 0x67e9b2df10e463ff4e65fa21d18b8e7b5c55d217941207850d984c264ea64b9, 0x186a8c1ddfd9fb6731243a6c190d74c258076254fc4d851bb67c15c855da68c9],
    [0x25f12e0904af730ec68920122e8d7e83e6db7e0d3818d82ab3f5179652acf1a4, 0x292a053be9013f374156454727329ca30c50781b7f68371eb082974914cc2f8a, 0x12867bb541ea17c532cde157ebe2ff6f0a3d3e83b956e619951cc99af22e3d7b, 0x9dd2a75726a265e98ab42ca0d013e7ba2e15b26100516e0eab737fb70049b56, 0x137cfd0054dbae6b635b4e4f9e6175226e5c95c45e5b2541334f94dfd93b220f, 0xd14636d7b7afd1186f0b9d5c8f8ef551beac7bb2d36b25436f04bf7dcb60de7, 0x1dbc81002d8a5cae1fd910532f08a4323c35781c2b901bd722babe0a5f6dc613, 0x241057b0d9977eaa50e04ba893702ba182cdb3388cc632907f4c2081834d8da5, 0x7ca75c9d51c65bfc2ca99c9c773bca2bad7b498370b5d50e275a88cb6b06339, 0x15fab6f34ae8d22bdedd760610dd463d881cef8ce82fe4a0c0f860502f6d3cc5, 0xcf846e67ab815b7bfb255008733f8b45d83938e6eb0dbd19e6d537eaa581e00]]

/-- starky/src/poseidon_bn128_constants.rs L11402-11546 -/
def m11 : List (List Nat) := [
    [0x26dba58ade8cda188f49e52fce7167b8f219dbd924d7786b0f98fb799fefa2e, 0x11a131a3778c3774233bc54096419d463d3abbae18322a7e77a511881665f93, 0x2a18ab4dc4777e13cb8358c1c423153570d1cb909544243abdacd4547c8ec3aa, 0x16ebd782cbcf6d63c38b87b27db2a4a5af5847a9a60889c4cf6aa318d6866b1e, 0x2b7ed47fac275d34f842f09b01ef9421014de040c26a591595b227ba7bc6fb2, 0xc5e49e319fb9535073f07f9e055accaf3e3f24a35dcb46cab67dfc648efaf30, 0x161e4ae5b2d24cd638ba5c32bc2317bf90d404e37e003f1055d9a96e406d30d, 0x223c7fc6d24fc53d1b428edb8f1c52d20ceec592187d2c7a6b0b147b6292b81e, 0x1ae060e39b338d09845e2e9ebeb70bfb74cd4af926217f5732be2b6cb7fe72a6, 0x46191ab41e93929ea51f190fd4e773ac8d5083328d4b2f04828dca3e69098c3, 0x14ba1b5383e3733c63d00c32c2bbffd8e54507ed33bf7544c86388191eca3e40],
    [0x9813c803ff84a3694eedaf4b1c2172615275dc18ca654c799a70440946ccf0, 0x1495af03dc9180c886f0e1bdaf9d18e32e6b0d1b80370e7cbe5745dafc433523, 0xd95e8cf8a66b56c32e7d11e0107e41e1297122d1acc41332f1b49895a3c97fc, 0xb05f16108c4616a973b01d82e50d4fc9dcdcce67d2d21f852816bd234e9872b, 0x230b62315b30bc49d73dff8a9de79c620e03c747b14c432f170715e588d605aa, 0x15d217a31784741048f326e155af96e90b5aae734f06779e698864039c92e123, 0xaf9afbecae1761cc17d44b51ca66d1dbdeaf341e85f1082958f9cb72f7b55d4, 0x1da4f4e3c6790ae1b89c4118861d8ca2a50cc82a4e7f1ed3c5ba8cb944ba4689, 0x2860aa52dc2f967c0c1a0b942ac81e02189d031430c11a919a5aa895bcfb6151, 0x16ff33d67c85121bcee7d81cff1618927f1c92b4d1d21c2a07b6ae18b2b7b9b7, 0x1ba0e835f47626b0d82426900c49170a8be29c39d90337aa5fc10764e2321a1b],
    [0x202973f7fba5bd21ed58bfe7156d7b29010d41090f63f1bb290c1d5da1ad60, 0x119344c53707f00243983c6d024fd49a0f8af80e5871933e58ff87c3a1f48b93, 0x7c22f96f2f55653d04edc63150567a7a04609b0b79eecfacb1485dceb7bc873, 0x2f394cfd3e442503c3a22512aa4b76b95b743c7076ca4115a9fbbb7c6b07ee5d, 0x206351750037bdc90d4f3e7918619fc690c2b5857f8bfbd86d7c001e4cf2ca18, 0x1accea09c2bfd17f4061725c712fd1976a07e773e54d906da166215201a58136, 0x5e52c0ff8c04a8e5e3c7eafa1d0902fe63e35898934b00f4333b38fe614f913, 0x2e708baaf894bc5835e5fea81227fa8cfaef99086d12b0a3a7f3f85bbca61d28, 0xac23f00ff015baab1c8be9a90943c3c72d17818be7ad427c45eb3ff1828727d, 0x2134798f4ca7fb9928012c937f37de87432b8665aeedf373e7ffa6fe0c13d00, 0x219f5e28a5fa52689d2b7be432624280c940c9bf9883c1fb0fe929f78873c1b],
    [0x12305eadf64dac24a7913a62d95aefd45f48355576c671e56fde9cc7c8344ffd, 0xa92bd6a919d1605615786f2efe80743ca57c10ec80cfb926722b5bed408b79, 0xf716c54de41920c401a62df8f9186e19b9523e98637a5b113d61ccc30ba0213, 0xa157e244f939125d57f9c8e66f7d88ec0fb3c05b90f526bac0871bca84677f5, 0x2218be861d524eaf03b9420b1368e9c5aa7cefee72d0e6ef80732ee9d7e6e2c0, 0x2f9bd19d0c8c3887a7fc0173f863f075e66b183ad89f13704930416e1d5cb7ec, 0x14eb401c1084a9ddcd5d0092e5d1a299aa0f55c351545c781703c01ce87d6b29, 0x13fe23be24261ba5b92d363989f58e17fceed4a858d1c61fc2cf2b71dbdb6936, 0x32fa2f166622f057f61a9405c9256223cab2ba82c9495607921755ab018f690, 0x2aeddbfa245756ad1e1658629f747b8da7593b195cc950324f95edc9eda42aaf, 0x123a6055681023b16570c70fcdf3ae8e387a973690b9e6761be22f9941d7ef76],
    [0x25c783ad66d6a1fc6c84770bd637f6207097dffb0378d7e0395f8c0b86b505f9, 0x1c7d3a92caa435cdd974520bb6fb6cac81634cc9bf4e534df77736e06d768c3c, 0x2cd68fc31b67dc45fb6b16f42b5eb89dba2ae7e9aa50c5f1915275a81887190a, 0x1d4567c12db648d4a9c41324c0329325b76a07730fad72ef9e490a748674985c, 0x69ee4eb20b4860d4af91afe1781338f53aa354562ecd873e0e625af70746f26, 0x6cad0c2bd438c4dba2ed64bbf75066e731484c36d1f6738b6e98601e9fb498d, 0x1e0e166d734aa614c6b53db4f691179841a33f8105430a3ee70abca83ba6ec6e, 0x1c879c9428e19607d647f5ef1415e76f7c59fd01e52afb80486081851f9a5284, 0x215c0cd4e3f1bdb482b93e571879d7931be90023d7a220e8f93b21c8add41ffa, 0x1f41fc67ca1322b37b7aa01b631fd19105281f6c6a4d37fbf68fc1b5f62802c6, 0x1dce36062af7e4b0098f5590622ced7af9f28e88d476cde1391eb30408d5d266],
    [0x222deb606f13cf28c73a67216d88b16f5958d5d292ba10ef3bc2c10f5a0b613f, 0x12fb88a0f6f749d68da9250d5adecf088442827248d67f989fd14b5c9cd4d4c7, 0x66292e64e6a2c64673aed365cb50f7bd4e1d3b5270f6b2e9982590c3f8400e, 0xa94a2d7c4093c638823b095733f37176d7e747ba24645b515ac2a241ffdda81, 0xa226128da1d9bd5b329f55f52c75682def3369ab13359dcb7d212eefca86229, 0x1b5da83966361586e8810fed032435caa80a9b476db21290474ed1977fcef22f, 0x2fa75deed281db734faba5b70eaf57962f93e2eea1d3dcee34c81ab1e9fcc0ee, 0x128cb3150b15cbc4faab14bf7d676ef3682b52cabfc8d3419dfd98109d19ecc0, 0x52700b19ef6d42ea392e044a094cbfc308eea1f72f2a3428b1e721bfc32c6ad, 0x22d1e64d4ee15e60c459d851ef9f3495e937f5a90990382c97867c45b7940071, 0x252e74746677fd7584ceb0f8aa6936bd04f9528ef600737e9913fe4b5698eb28],
    [0x1614d025472771fd870a9e9d422b3571c5494e7d679824d8fe1212177d5fa2ec, 0x2f6c4e097bb5851be12bbe2c712c2fa906f310b78048d695b4aad301ffc0d268, 0x8a1ef65f52128eb3b22df2b6aca30509b0af8af2f7888eee766c0c24871188b, 0x2f6f14502f20d958a9ff23b696cac3ae24967517ae8b2e9592daf451840bb98e, 0x17ceb42a19de6dd32e3b38cc2990e64273b52a5618263eebfa49d84518ea3bef, 0x2adbde5c7b73e9a7e22b913f99e40d95e689c65c428c2397cd273923cf68ddbd, 0x14bfe33115df293670393e1dc8da4d6947acc4b60249e5b1c8cae376665cd580, 0x2bf523cd8aa3be20ce7d891f8727a7b24b72a4d4838484de842acc782fd8bd32, 0x33b93a5cf15ffbafa2726f2527824a11af8e42e01d3a7ee159b273ca0a6520c, 0x249f416fae5ab52a435d65201006dd8ae8d54266e4d5643307551902423f7cc6, 0x19a9079a9897a237074252767912bed7b7635ae8ca0ede2dd3a42a75c1c6b81a],
    [0x1358bdd6b7a51b1f5b5d094dbd8ee086ccdcfb9c27faad0806e8ef718d0e2b1, 0x1c06c782fbc0980b9e493b29a5e4a04aefc668cd4255d6cfe208e9e7c8b9a1c4, 0x24529638ebcdf26de8816287fec6370614e112e10c039190c103a75ced11b426, 0x12641cc3cf50ca67bc93bc8c19ed89d4613e9e281a51cdf313cbc8111922242c, 0x29012deffb112eb14034159c59162f866d4a1803b4d192a4329359f0f903266f, 0x1a8b8ad1ecb6cb888273a90bef8b1a2cfc03dd44e0b28b18e1074e404a9e0f4c, 0x17ea198f3ab261da000152f26b0eb0ebe088a709e8b06a18a3dc2108c2096864, 0x45aaa99ce1e06a3c02150804a91087f57a43b79797773e83216ca969e873380, 0x254e3acdbc75ac592679b032b65a9c91d2e092ab5e5719551b5da635b13e9471, 0x12a996abc8577021ac7880c16f058d9e06e9511187f0aadff6bb640e4316d26c, 0x777edef4d91520fcd490a22dc569a97e540a0fdb527b4b1a3a854fe346b8e7f],
    [0x1c2007eba4d1629846bb69404acc84565de5d24620f75cfcd9f11feeeb3f3748, 0x211865b7f9c1c791a33d703ad3280f69756324349afc8912a19b83de2cd06a0c, 0x12e4b5408f48641951739ea27e521067240b82aa51a42de2d4dc1e8225908187, 0x2185c7a4ad8cb21f19009396f134a2c3fd614d305e475ddd19f26f6d4b3f9ce, 0x9c4b2f61adf245266168cc918e96f7f8dfc35bd3df7b23fc641ef01bcc71cce, 0x281eca14bbc3920919e001150451c3e44ff18e1dd1171412ff5e663d74a073c1, 0x533e8a454b8cd6df8d48fa9b0a9cb2952933e1a6b1d423cbc54d0533a72599b, 0x284ccf70859547fcb9c3c7b64cf0ad62e51726ec81b58eb01c1a1f8ec7a9eb70, 0x4fa5620a2c057dc552a59fdefe50a901068190fdc3df8761991cab50a01a449, 0x2d2640a74ede9af6c9888e5f68a84fac92b13337dad8fc6152fab34b55419908, 0x121a3764269fd35cdf1e621c3dc6318f47b862380ba00357849d8840059463ee],
    [0x22f49d7244077e41f409c0b353afd1696e3aa15ffdb4a0bdb883ffe7a1a87217, 0x25542e07c1c13979bb14f8d4ee93dab7a3dc750806cf37f2c02ff53b4bb9e66d, 0x84b88b1ce4598b701cf96a3379a02a3157d4193c8a8f1157459f6a34ec32fb, 0x2f6da385450911cd272e13601e7ce66c2b91d809307492f7ee578ae34d6f5fb4, 0x1802b97e54bf3a8978632cbe10e429705b03680325d26ea190c0f1ebc7362ea3, 0x54cc81c7d1d59581ebcd26b16ccbdcbf1968d77f87a2081d13054f51118f7c, 0x19681b4242d11e28aa72530cf33a7d15719f1a888fff625e04652c77ee2b2de3, 0x1abfe4b1cf5db29d4078e5289bb143498abbbdc9af56720470a26a3dfa2ba855, 0x1d2279673f6cabf0a1c4b8eebf8e9c78361680b2e59d7ec19348819f5b3d5a14, 0xf246d2fbb4e1217f09631fbc8770827c36751e6ad8d6fb16810e3395143ad80, 0x2f80ca151b077b50767281ea5d4c1f7457f8da444dda16d8149bb6c1061ed0aa],
    [0x1951523a4270c54403dfe3218fd3d4ccefa43114f1b19fb2c2821a4374718b9d, 0x12b5a09e1e95e0d01fbcd234fad473d8ee2ba976fa22827ffa6dd03c8b25a64f, 0x2c184e904d7bfd368d4495b9e3027f9af6b9313c8f193f929ac9e24d10d7a36f, 0x16fc48e55d64d83010ad573377ea2422397fc3a7e6c88af808a566de0223f0c0, 0x2db1ac4c2b1c23a00027fdcf0f663af896d87415bb035b149d28ad3da98c6fcc, 0x170c05a5f8a55d5c9fdc5e8238b367be358917a19a28b4c47e46f3e73d42a085, 0x1eb7f6e5520215c15e274355b19bbf71abbf04aa426cd07da536cb3f909f6e57, 0x14111a74bd24730c833699eb41b38f1d4ed16fcf0fecc1655b76f2437d4a0c9a, 0x2d46b48e5090c0c56a390de373f4c9a2008db311fe31063cf4fed54629113585, 0x15f30ebdfb8b8ee644241039a26b408dc7a8de77f2cc6fed754b703ea92dde53, 0x1ee950c45a0c2f4a4b64688a7935ed2b63d4fe5b414afa05c1a284674409f165]]

/-- the inverse of the matrix (not in the code) -/
def mInv11 : List (List Nat) := [
    [0x1728bf6d9c2eaf098c53628570098907c1f2f8316d80a79b09e1d520d9253993, 0x64f1d08865809a9efc20e27d7b12f3b561ff1e63663390d4b2be0f92de063c, 0x19c86f936a007b2e47496ca3e39707c5a46aa0d6ac5c1f2365d4fad67f409102, 0x2d4ac8dd2767e6ebcb8d0156f5aebe8947a1bb2d6b6bb803a56acd0c905b6ba6, 0x2b887a227cd7446d0a37b66b277d1e8ec4b8bf41fa6fc9b4f4668658fe5ad503, 0xd56701a0ed733d39b45ea0910e37a7d8be093e466d1146951dff371fde8ddc5, 0x137afacf6af92b9cddaf1e5b53f2b75273fb7fb02db1e635821a943f57f258de, 0x2e16dc9907c0de63b7a46230ce3151265e46f0690d9d52c1bd41071e64f59357, 0x1c45fcb1b7351829143054bfe1c66acc0388dfec033241a7ff372467f24c3b9, 0x238700e3417dfe586822a34c03cc4ac6e2e1dba17546ee3b672b3c1b11219f6e, 0x269d15e2e57fea15f7230845672d8ca690cab2b1e1a52e080136c0fb53724bbe],
    [0x1f8319da98ee3dea259fc21a434256547a45055d18992be6aeba617fad793a2b, 0xf3b0309a0f5e82e530019b68a63bddf41231e2529e2efe8738431eb72bd2c0c, 0xc371d3747b938c90ae68c2d937307f34f3c58d92fd1c0ab57d5e8c3523ce83e, 0x1952b5ceb4980d413e93c8e4db1c3e24a933de78c41420ec54cf5b1a5e323f0b, 0x199152bfa48febd7dc34dff53a7195a3477fbacd80fec0d4b14826e8dfcca50b, 0x144f77a88a9c6079650cc0d03bedc8361d268cb0c84657faec29f37b09cd7d47, 0x145a60c179846b4f77eba046e84b9874b48ff1c8d665903a14e5378bc5de7b86, 0x13d4d709f9bdcc33f36e437917e309e45be3eaf8b16f6071f24da54410a4e34f, 0x16b579b15cdc5092a15739c4860a60124f59c6aed1d6fddb9580a2a79cff7e09, 0x2e8058648993baf5c280e08783e1d176d8a33e59146ec14634a31d6a5173c566, 0x67e9ce38cb64d3c8244ecd0e3f3ca82a8a6eeb41bde47fdb8d3d9eb262d23d2],
    [0x164c1933165bbddd48ee6baead071d4bb2cfbd329dba4c33ffc9d66daa6768ab, 0x2605623f39779b2c4e8a75397576d2db84eeaf5eeb863572d27b45d45365c719, 0x7fb799ab32aef506ad1ce11d9530266083ea6fe7c0831ee91d9fc4ef7072410, 0x9cc092ffc9a72b6d5dcc43da38f54a69de73827768b0a5916f330b99582cca3, 0x130d24c84f09d3e096c7d4dc722f4e57b58078590a6b3e8f9600b002432f4880, 0x163e8776306b8df074f0913a6edd283fa58a7ef55bfaeb7f2b4c7b60fa25614f, 0x1cf073da1cc60722a519c4a5bd85badb6c83bb73504c5fd82ab808f1d4642e98, 0x67c095396d607e7c073d573ff966e9cbfe3649990c217d9b742a8f18ca7b4fa, 0x188c1e028b0f525953312480bd2be4f1cd4db06f3f17bb1eec244f981c4dc673, 0x1d5ef595c9f5da1554bf2c29e15423b77d912d2c291210903661e258142a10a5, 0x28b035f9aebb14e4af75d350485697d979efcf87b50bfef633155d1640d67d08],
    [0x248524c03be45535fd0039c1e954ac5b3180a96333ed2b79fc213e986905be68, 0xb52f8c33bb020481e8534351fbc9a380c3ad0c99f3c01aa3770dc3eb927499a, 0xddc72a619c00eda993f508bd5323f3a611567c500c91d919d27a944a8bf5faa, 0x294dc68631298e2fdd7090c733677ab299ffd779d6555b254fac47942f50190f, 0xdfa4959e306bbb8a44b924a0cebd018e3ed6ef4adf450011995ea78f75f7e15, 0x243236bc6d45108feb83901e8dd39d7af50b5061f83a38736f6ec7acc2839cb9, 0x4fbe4c54304f7ef4f5665ee7c8e75c3cadaaf46fc4a55254b9e34966deeb235, 0x379a0333ecd0c63613a99f9841566e3dff4cc5fb4599bfdf199d698f590decc, 0x25a9571345c3a9c7edfc3c333ccbc4de7a501239721f13ba7cac7229b43926d4, 0x13d0fb1c566ed31ad9e728df26367c930f20ce9c0098895dd2b929e197899000, 0x29daeae7cd2cb2244e707a19f46b28e64fb6af4b2835e6252f2bc259ed47f4c2],
    [0x2c8667348387f91b26c135c163da0dc8647ac80b5d26afe0adcb57bab4f0e119, 0x2a06a652c1ddcb6ac140e69e2f6099f26110efe4cbaa611254631b42abaadc38, 0x2e130f09c39d327e7ba7c02847e9ec167032966cc87114282d5f8c9bb4753cd1, 0x13cba5c092b6be784e4c79c24c62b57e65317ed6d1bb61185ef3c09ddfb8108f, 0x1d7346e5805e23916f83d510eaba9bad848420d388ce7691fec4785400aac8cb, 0x9b19aa129c1264815cd0eb14aac4021e186ae53bc9fde9b2d6dbc9dce9e5cfc, 0x1f70c69a77a3ad70240e426fe17264d12736b78a118aac0198f695b10a869912, 0x1a5ceb2429ec039f2539bd09db8a18c917598736874f248d602e3a985c4953bc, 0x2d4d451c5e57bb310cadecfd5ebaf7dc03c0e15317bb9bac40707772a53463e6, 0xe1aebb6a07403f61e8b2e427a4681f303238dfa59a17d9e267c99a3b06ca982, 0x222f7ccf07300a6fafe6bf062fd87a10c98435392bd15b0b705302d9dd72a3ab],
    [0x146cdd4970c7a478e1bb6cbb134ac4ca6562d19498292a7da137d17a1dd29556, 0x25260cbac9ce96021b3294ce521fceaf093abb8016f06b0561afd01b57216bb1, 0x1ea277a9a7cf50b64662a8ea6fd6c7efaefb87f11b5b04273d2b93f74830e088, 0xe94ec6e568886d3b2b4b07fafae58b1386cae9c1a9c9c6b505af4d8ea7c859b, 0x8a6d0c2a6a2023aae6fa888acb12033e4aeb201e224eba38da3fd3913b1c873, 0xf7b76b6e89521192183ef02c3872616a6cae99f698022a21e0360366f264821, 0x2ba7eb9e0a3804e2b4aca3f1125221e9132808c57c5e706e1876f3e6ff0eed3c, 0x2d93ce609938875e06928dbb55940c7f65c102751815a56bc30d05db3d49f4ff, 0x93da3e805065a2ce4239894fc72e1e3e7f6b62390c691600f346b944ec074fa, 0xd35f4feeb9362c0d73c59d21c85c6f2c1bca9810220bd2837d7ff98a8cc9011, 0x202fb685dcd8f1b1dd80df8df9f304899a3751de1146c0daa42d3ce2d8072ae9],
    [0x770a23b4bab02543a3dc39cde5bf293326eb2ba761b5eb95ae8ca68767754c6, 0x1133f52510692eacf633eacc9eed904e18d8421904b71b16f3934b0f94d347b, 0x1d69757e19105a7ed556d742adda8eb323e929c17938eac7522a997c1df42734, 0xc94b8c9a83fc033fa7854f774e60ac2a411ef5571dcf390f2a311258888b991, 0xe1999697a7b1df9bc9b072f40183911286ed650bcb003afe5bc1271b229dd4c, 0x15be1d54eafeba4f145dd2d092e9f20a6660826a55df64608f0a15b66750d9e, 0x166e56b3324919d58895bdd8ea9b880375ec6fea67aaf94555fa93a26f743e07, 0x2620356b5ff34627676b1d1495981b0f31d1e65afc9f5983c752bef165c65c90, 0x28eb0f458b0a47ab259e41df139577cfca34d2718f5b76cc39b7f246b6aa755e, 0x1ad21d7626d8ed8812cff09bd69e48fbab60064d367ccaee6dee419a179c1182, 0x13b0bb03e5feaf87930a02dcd878646be445bb55226b3e20f4dd4d53bad333a5],
    [0x2b4bfe6c9778f1db783cf2c8f3fbf90dc5cf138f1ec89324540bd747a49720e4, 0x5f1a96d9af000bab9231a411cd1dfb67fc23f024694bddd032db5ab5f611535, 0x29c4821b321f30861c2b31cc11a049af6f1ae8116358051de43fc3dd8516ef7, 0x79df01ee5b720535dd0b29c572263a623caddca599ca2a2ee68e19310e031e2, 0x1c8906a81f3bdfeb816c0ca1bcbdf940753e5fc912a8432f60c81e9cdc5fb3fd, 0x2d3706cda3f61a0e9a4af3721f39eb8725ce57a4ab41c979ef24eda7ab470eb2, 0xdadcffc93502cd8a49fd841d169428e9ec557f7dfbc7aa2f94e1e857009c6a3, 0x1a0035349da7cee750f827a3f3b607a721a25654ce4e3d38334e9f08b639affc, 0x29d95fcbf4d60a086ff15f8a90ba93b69d115ec5e8217c8d7b863289a60fb038, 0x26d216b64bb89c91e595f1f3314683277fcf28c00a87f85d520f9e235b9e51b3, 0x5ec537a5e83da3422f6bd1745eb39e8d230fd8b46c0e0e26cd16f91522974a],
    [0xb23d4d68da1aece62e5a595f92ee23e45a5987f1576fe6239b4786a1f1e3523, 0x226c57abf632d1b9eb33331be9424064a93979e9d33e9c824cd32af03cbd9c6, 0x1379d1140a3470b815b16986f7cc2c5f911a4b8e778015bb8e3128804e1e2cdb, 0x22023d7ff6184afb4ec02647b7d50949e66b7e99617b1e00f9a324a418a15757, 0x9e82eadc87f25a66c7a2958902cfcaed53e216f0bdf13c56b0dd5b4b789f7a6, 0x60184cb3c2091c98bdea9886c799c438a163cce5c237c30d59cbe04b53d1ec2, 0x5ab26ae54026ba6bba0112758a478b528d5a0b140cc49f72167059b7b2a219d, 0x91662f0e59e74e203f22752bee2a2d396e8ab2d3d1d62bcd7c6c4adbe043520, 0x1b67d83683ceb207df825125f863151cc24db87bc272da9dc5f87a2d931dc6f0, 0xd26bba52407f56910da053f261c3a6c85df9b2929b9837ef70254d4de579c74, 0x93952fdf145956df59e0809839d0185917e51171b8cfead80f5a601fe4d3886],
    [0x8cd353a8c5e751f4a68413114398464a6232860e7e32a2d2b186d86a49d80ae, 0x17d87f51f0a931816e26a122bbb950ad0f767e49631fa93c7484af86307cd59f, 0x9701fa42f627ce3cc73c072c325e6cc0e413a0818ceaee67f048ac407bd1ac, 0x179bc67e69863320142f0270f0631b2b6100c9847bdc0103d0d774c70871a09e, 0x478104a32cbab48b0820dff7a790463af72abe08aa43328991f7ab5d9652952, 0x27098c00e5dc5f27f8d5f079a7b53bf0b5748c0a38a24b57719ba0296b48dfff, 0x1cdd30f87237a91460b48e64d5397b26edcedbde64041d3d3112bf0325aff2e, 0x15010f7e55d351448d15ebc54d99c3e74a58aaa3e6742db32aed36e905a2640f, 0x205c6822e2c9561f340e07a0714c6d6b6be1b9d979905c7086b239cfde2a7950, 0xe8ee430724ba547e925696e978239f492ee409ade36116830731b63857fb7c2, 0x279d182bc82bf79d23e2b47a1710b0ce762a6a27c29ee9fe0511c45f9901c919],
    [0x13942fa6cdd3c1710accf08c4d9be4056f35030f5f1f726e362c1eba62f9acc5, 0x10ebe536bb16785b5a7aee4ad21c03111d409d2a39f6ed2014980b0ce073e340, 0x29b8091f90c3cc9c920a71e831393c3af295121cfdeaffe61d061c2e30db4bd1, 0x2c8e0d0b00c43b2d44a97962947a74ac1c93aad429c26651132443bc0d31ec92, 0x2a7f7e94bc5317451bb2eacba0a853d6ab0f9e645fe4b848fdce928dc006300c, 0x532d60111c9dd12ff58fe88530edf5cfc61ccf82807311b4f4bb8bb30f61927, 0x57026e7b931d15767703986af2d168264259ed4dd88e0f093c261bd23bd8f40, 0xee128af5b07e83d70732efbd8b174cc905e263d8b887b4ff0c84dec2e34d8c4, 0x121f2f195f3a99f8c2b33c33fe4f3f5861ed2c9ed6f0341475e44121f1b5fb0f, 0x11f46548195deac33a86a335f1522ffaf41ac44c7e2a427ab080c1639b57d30d, 0x9b7ee87e01a33fa7eec93e544675385c48a88d921442165a5466badc5c9ec6a]]

/-- the tables have the sizes that the code reads and load without a panic -/
theorem sized11 : (opt11.sized 10 4 66 && opt11.below bnMod && c11.length == 74 && c11.all (·.all (· < bnMod)) && m11.all (·.all (· < bnMod))) = true := by decide +kernel

theorem ok11 : opt11.check bnMod 10 4 66 c11 m11 = true := by decide +kernel

theorem inv11 : invOk bnMod mInv11 10 opt11.m = true := by decide +kernel

end Verif.Poseidon.Bn128
