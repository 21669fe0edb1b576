import Verif.Poseidon.Check
import Verif.Poseidon.Primes

/-!
# Poseidon over BN254, 9 inputs (t = 10): the tables, copied verbatim, and their checks
-/
namespace Verif.Poseidon.Bn128

set_option maxRecDepth 1000000

/-- starky/src/poseidon_bn128_constants_opt.rs: C L856-997, M L2639-2760, P L4761-4882, S L11406-12547 -/
def opt10 : Table where
  cF := [
    [0xe1962c232fd0a6bb54ad8962a82b9838cfef19d290a55fc49d6debd061cd2f6, 0x1e1f45cff3e74168accd0a94536fca6317128953eb47d8d2d79b847b355cf51, 0x1367eec3b20cb74953618fd9261047755ef7f8aae5ffe96fc8f7d9a02e37bd1a, 0x2ff6ad40533afa2acb78c9b91650d7ccbd274b09f78c100479f3a4d72956d706, 0x152c8c3d9e43d90ad8094831a74af8151fdcda0b18d7bd8374ffda68d1a5fc71, 0x241707db26f96df502364d26712c7f465d0ac5597a309559b075406351a20977, 0x15a4e4728a197dae6303d0cdd2b6d1e4114a9fad38a530bca6fd06ca1ffc1f56, 0xcbfd63f363978c387d656e93f11e336987a68748c8f54f385887e64b1075598, 0x1fb594474b8334f9aea6fe5e323fb0e0ac27d2895921ac64e93e524e4ffd25c4, 0x5ac55361da931c1b4c560aa8dbabc8624ba225871bce224addb5af901676aeb],
    [0xe7266f909395b5d42ec298ad3eb73f6c11149f491164f997ea76b64282b9af5, 0x1d928ce916ec0178a2c0d8a890af90468c8af68c4c128c68f042cad51c6d7895, 0x11521e378f229844263410fe44628fca9ffad17eae9965dee900ef14a4d2d6d2, 0x23f3ea3b55ad3710a0052d7a4b9c9a65456ef71bc4eb16c1e908034b3cd3b2d0, 0xd4f972e795bbca8623bb08503764a90e4384be644f57b4a56f1e7e1548922bf, 0x2a53e60ecb9c00dd99692d57d7a54d893934468203995267e83954859d21b595, 0x18583bb0a83ad2e710369475bd54ae1d821d75a9e1e870df11c154f41be1a632, 0xd45688dc986f78e71c463b76ed2c056881c76dc552ccf8d3a1d795d7682efb2, 0x1448256830ab79d2618c6ebc5af5624fd064e2a16194e5a0c35c76fcb094d371, 0xc0c7912bf67c273baae265c68f378a3fc06eed7778ba6ad3181428bd55a148a],
    [0x900cfc715edb109d3e6c02b7a578326f57efeb3da6f58e64792dca3452a55f9, 0xb84b851d9d0d621eb2872fd75b848ad6a905911a988b46a3d0d70d264c8790a, 0x69b8105bc60bee13097c0fb14d05a1b932d37db703f6ff557675bfbbda8a5b0, 0xa0ad082a6226840334524022e1d3c7168423449df9c2ffcb44cd9d4d2302325, 0x18c350500a7bb9fecc04b286ee0ebe76cf71281b4463dbbcf8e266221817d32c, 0x2da317c459c0b0d973e04bcca9c112726c7618ce9760c2228c308b7433d907a0, 0x232a07d1aef79c1113e3ffe7094ac379cd67c41981b9dbd30dc691eddeddbc6f, 0x6f8ebb8cb046c0aa7ea795744cefbc827e5727dd16d0f27675d99f8964492ca, 0x10db78837d0652586afa0666b721e1c94180173183300992c4602c8c1c415478, 0x12f5fb7778fb2b8e1b5ec306d3d8f2a497ee4e9aa5bf1924a694d04cadd5c526],
    [0xf6a94bf66121d5993932988636d0aa2479e0299aff2cea5b7efc311a15007d, 0x18b818a1c250d6f8b77870c1ef5942250214655460e4b5aa09c8066489041732, 0xd25185fdb4a3c65e05963b80310584f2a6069c2c0b07ab2b6df2d04bea0f52a, 0x63666f719c9dacd3ff39599926802bd9e07c61050b10ee79adf0da04c59e8e2, 0x25f9e2e4766cf4b7bf91a63f7dbe954b2ffa4cee7269933134b5309eaf9d702e, 0x1237a2bfe7efc853fc4e9c4fb84d8e7c56b125286d8bc81a5434c6d8737206d3, 0x149b17921a60f02551a03ebdd0a3a71f7048d0f9f47893075c625341ae06159, 0x21e129ee052da457e94cbdc1ac5738ab300aabb76a3cc3c23637cb6221874630, 0xffbccf818cccf47beddf8558b8242c90e41fb603f137b02f0774228d6978d94, 0x13018c64072bda036ce65310501ef57816d397a9eba56f87b56024bac5ebe9e6],
    [0x1b009f2e8abc03f498fdb84857c2091bbb0095778f990fe799d0f2c97e2c2670, 0x101546fdb71f32991c1180cc07eaecf47920cd0704691e555b3bc44de5c5289f, 0x1d1f66a2ec0621f229c3f8cc7b153683d993e220ec5a1f01d42a14db46a785c7, 0xc0d0d8c79f76f62eb8ea785853ee6aeaac59256172a14479d34101dc8e63ad0, 0xa3f038a5f37073c1ea7a4edfc1dcb60859c1218e1fb611ba59dd245399c9572, 0xb7e89abaf697afea2ab793f7cbc3e807dba45231d4fbe6b657a95f03f1b1705, 0x91c47a22bfbe8cc067f70019ea1a2eaa9b381fdf90ffa8971b247812b977f6c, 0x23502619e347553b5bbd886ba0ebaf4b63c07c289da07b0c7728fbd6092241d1, 0x2f5d5281749be90119354e751ea126e578ccc43a4c372d67ae66d87c0c01336b, 0x1ce6855b5db80c42971cc52c9c35275e8bfc7705684a391bce4151ad9fcd9be7]]
  cP := [0x4f03f23505d6e117603510ef25bf46de44b95506011b5642b120b76c4a7a277, 0x2f0f36a6ecd8f53af95b4b9514997ae0a208d89e974bd3359dd98fe2e2b3d41, 0x1cf3c4ff9ab589d0a5660b86b5fdf8f38ec3ca5e92c445bd4cfbe6c70de64929, 0xd907e14510611fc14612e406616cfcc0b3b1258278d802a5a3d7dd785284e63, 0x148575fd984cf84d0f3dbb49564b397c17ac817e6ffe348881321ce76e35c44, 0x13c32c26889cbbfaaf4d1f25e64bcb720e1cca45312f90fbdea8435d9e6729af, 0x2f28f702d684198114e721efafb6922c3a42dd08fbb1fd6831902df4b55a6a96, 0x5fd91ec054800f61ee128bbcbe332ec4c4eb25bc57781c436c931d5a44b6367, 0x2a07137e0211d40057d39d707b177cb576f3399b29b9a7019c3dfc7d7a22d27c, 0x1b9592c1a0852470e5fa045d32725f7ce17982505aa3317a7daa6cb31e3e359c, 0xcfd305387cda42a1f5a8e00a0ef5286e0504738073dcc8713a43c2439c170c1, 0x2e10c62b1b5566b5047f18279f4680073494290584c69708553c7729b6a04da9, 0x2bb1653a56221c6263b0c62ab8a0a773d225b414a984994b6d3d5afd0892e67d, 0xf270ab89bd220ddf62f18fdf8d278f678379e7b616006a8bead9fac9f473c70, 0xa1301e2c189208513673b88d6b3238759488f79b99a79dd11d0bd1c973b95a6, 0x24cb02fc34a8ce75eecf534184d7373b7e1c90fb5f7e24fbe8ec8ea1ef54e393, 0x1603165537fda2e431b75d03df01dee7b39fd851a472243dcebc2c96d0deff54, 0x287166d87790f5cf540ecffb1bf65acdaf18cc46a4f1164b5bc0778022e11a18, 0x2a81c998baf847bbb21f7b7141efe84f7ac56a834c7967ea6f45429fa2fb1a5, 0x20c95c47c2ce176a500fc18e5b798ebf4df4eabeba1d695fe217e003ac2f0e10, 0x54cfe239b46d49baf4568088a72b2bfed0773be27f6e7e9a2c02bbb1ffa515b, 0x8774564392fba9a0289bd2012b509bcc7b126d9ef3378da0769d8af37cb44c7, 0x24a7f216983732c11ad301538184100e2cb090742dd81c09783918404f1c7538, 0xfafa523ca9deb758cc5c0f54e485919a3b1c6caab6f322a36b014821c74645c, 0xc8b11f331a17d83848b10efb6f8716baa92e649d9ee1c9584b334d0378b5318, 0x2fe8b8a523a08c2e5ea7600b7876fa4b75938fd56c03c74ee2b60b9d1e8299a, 0x1d039ad8acc6c9515c4b4a78f1b8a85784c287d5fa0eccef43901435c1c41942, 0x1b89217c5104374c0b74a3a3ee0971ca583f59d0980c37566ef8ef363b1a417a, 0x228b4d065bd84d6104e3828caed06fe9aa11d7dd8ea90efefc28489330674b2d, 0x1d57f64ca6fb25d9a4b65736683dc6f8f90b4d5594fcffd6034443e98733af72, 0x11ece5bbbbb611968ad64b52d89d7ae5d1eebc4169217e07b99dfdfea0fb69d8, 0x21ca2fb7b186974b4bb67f95f943a07adf662eb02c7392d9f5e7526764e7b986, 0x1f47138d833b0c8cf6294ef77d0ebede94ea57a28ac0a3e64bcb5df91320f10a, 0xb95be5cad31b06ca97ca74289d89772aab0e8007d0558228d88f11364a1496c, 0x794a48d6d0201d4b3af86c0fcd5479391f98f75623105f3e266dde215d76157, 0x2455a03e833b1dafa17f29a71fd76f94d8c5d09fa1fb1665373d509a88f3763e, 0x799ea93d781c35dea4b487f9849ff1800f1b63cc97842e2fde69f547bb76763, 0x28fd070e349d506942cc217a50064cfb2e3ebbd3cde16c09fd68b7e4eab1b822, 0x1cf5001c9cfcee852fcb9f8d89e19e336dba95bec545410f4435b5b01f4b80d3, 0x8edfc4e49ac404861074e34237a1b124e4d8e5d6ccde29d1ee9c043756c44f4, 0x2ee5b6524289cdd37ce4ccc8dd19e94cd2ee72ff264b468044bda8227b110dfc, 0x2775a93e2b3eef8dc0bf9bd322e5f14281eb5bbbff98cf7ad93d35f4c4392624, 0x4c564ee74a1199444d3dc4261e90b1886d760a7fa68ebaeeb5b5e353684e24b, 0x25ffe7b20eaee8f694fa81039440b5c63eca1cac712f5e3b21af1b9a7be117ad, 0x14a1035368093069b2a4337027fa695e985b6e56ca818ff944780c1677a836aa, 0xfd53ab1fc6def97651d2d66d0f58976b39d07db8c4c9ac195db0dab73060274, 0x16476bc3bc364193912051b64c939c0001e95953c76f7a748957d78ccc881040, 0xc5a52339fd84b1ecac4a163b36d41941a156f53b2559061602e64d2dd031039, 0x21b63c30dc0baf2b71ee86b7d5c91da1c17cdcebe5a0a0e5f2c8446584e05c20, 0x1bccca220986d8fc3d22391a70bfba575a47b4f83230652e1772e2dcd1a06ed6, 0x162a9696d6df2a13038e0bc6da2f52239951a204bd05a9e2a09066cf6b13a6bf, 0x1d661af4be59bd53da92acdf5736a7dce50da796c393b4e43001d27f88d58d6f, 0x1fb43feff48b0a4e5ac9b17a6c93e241f17b5dfc76523b65dc366bc04c9f06b, 0x1e70af5d289fea2ef26141246e9635fd007be3c3d755abf3bbcda9c4e4a600b1, 0x148928433fc03d3a878b420efc8954f04fdd4958bc822a6123df1d4d15d02dfa, 0x61b30453d8edaeb5a0e7a3a9f951a7211a50fc360903c4b25a51e4e36dc434a, 0xacad4bf22e14bf31537f39286d25fb493fe67f163bddebc3e94de911a9556f1, 0x5a4dc602f73e13984177dc0a6f2d7af269988f872b817c837c8559c79b03819, 0x1d1f813dca1d8f54d73441c814ccb0e84beae8ef4463effb612eb6ad131cf05f, 0xe82c3574b61d4c239a3024d6822bfa186d5989ba1ae0597092560e8694ad9ab]
  cL := [
    [0x17ea9ef9ef7da806c992916b2409a277fff09d36339cbfdf4687606793fdee9d, 0x19454e5c7ffa9716bd1db5d707d4d24b909f4c718137ebb73a9661ef41a7ce44, 0xaf8dccfbedea2064586771a23ac776db9ac4df3787fdf857db4a2193e934a3b, 0x2748872a6ad3a07b30161ae37440d5dda279a12cc2ffe14747bf9082e72630e2, 0x1a529a39f6519dcdfe38e311c7b0f661550e388870772650e1ce02135bdae984, 0x8a57affe13513b3bb19680381a17f82101be9f5ac7be0cf9c7e61f710e63892, 0x200d13b0170c124a25026f780273c4f557a3e95cbd68684e4e4df5ec00610f60, 0x14c79a357f53469f91d01f4432b728551db863ab232525c2d95cf616f7a098d8, 0xc513fd43af43ec6c905092c6d5d50aac833f144b9630e99483a83c3402f4832, 0xab802177b395f6b6ad3dc7d1995f60eddb63e9c378a75247a08002d2986482f],
    [0x589d228f316da74fbd8f0806ba45fcc1f31dc452e37430050bd9cb8f3e0acc, 0x1b46df6f8889fd075b585d61925fe1f08d15900074bce706ea5fb211dcc63d43, 0x1d2b938132acf70f122b64ae172ec1a822ecbde5a188b478e789c5c3e91cefa1, 0x2308c203544d162d54a4b87d92102ef85cbbf1ab4c3c02d6642af038730333da, 0x2eb7379bd69996d813136c99c2e66f45ca467bcdfae03a315cfe39ea99eeda3a, 0xcbcf8be09e77a9b7004faa49c560e84077038326398196c04f948d09ac57388, 0x72ed6973242f117e5fc1c344d9bc38d5fb3e94bcc02f48843a057e19bacc917, 0x6670c3a568d7efb7f10eaebd727e7a424a5e2b40d7201fb66d0b74723081ee4, 0x1e2105cd356ebeaaa12233233a2a22e0524c822b84fbb368b409d448192ef9d7, 0x10f3092cb126d913e829eb1e09cef850812658485e5ac06c140bd1b549f53907],
    [0x2bcf1b9917cb73d1856ae5dad349ff08660e800a5b69a959add19af6558884c4, 0x7bfcd988feeabe2fbe03ae71408c1a394daf2943c8d32e41f6b72f2493bfae, 0x2a977dd5735a9110178e2bb0989c7129bab2c6f9276ff1a9c4b3867a115b815d, 0x229f01e653f7b280153de1f8d4e9eaa0e18e81c3ddfe9cf0f5185b63dcf8f3ae, 0x272ebef10616ab9c79e34eff00b0faea7521fcea55df526bdc9e342592da9469, 0x2c8a5085170dc8e626fd9f5f1186f99763976ea6ac08c253d025fb46e1526c7, 0x2b77b7c7f7b862b6bd45b894af1cd1cca444f426d63571ffe6d57e608f12441c, 0x1518209639e513d5623184871ccc1a02e82536b68d48395774930dbd4f130ddd, 0x2417244fc99acce8d1da6685df7e33876bda3dd632cd684242a60d54555b0ef4, 0x12dbd5616e93afff056e7402afb361f5753ed668d6ded08cc8be3febe58ae3d1]]
  m := [
    [0xb1e797eee3f15b88ce3a1fafec88da1d6329ac3c34712db570de886cf569098, 0x1abb95b6e33243a050e563b5c4fd059de5513ec28994a6f60e57c98d3bc8f586, 0x110d213a836478aa301bc1fd4edd388507d87745b3abfba5bf282afd21f7242a, 0x18edb2d105bb53b768ae0137850dc2d2bf6d1303a1f8ee4aadf76d8f81990588, 0x1e53e92df6c53ecec4c0de5b07dc4c9a0c5545f2abcc1fabf4ccb84a0a6e2c27, 0x10fcb817e10f69f7074e64c393b807cdddf33c84a8b5cfe33f44b73fe18c0e36, 0x2b1d8c11fc652c593543b6f9800bb7d0c9371dedb96f08bbbccffdc6cc44db98, 0x19f473e40c05676d5f8d51e11336e9c65cb32828c397cc8125f1dc667b6cadf7, 0xfcf3a4d9c6c3392de1bdfe25cfb86817ecb80c51be17d47f79750201f1fcd01, 0x23b02d00fe2634889673a7d04736fe15b9f62652b1c0626a19af8d6085d70822],
    [0x2fe429db8068e61b82624f25766273cd9fe6368ff097eab97aaa09be4c630e27, 0xa5b604c958bc90071ad10618b1772599e0c8dddfb641131fef39daa58a39923, 0x2cdee0c635a4fcd9549f0f91b4f4a9b628aa7319e2eaa094a693b38b5cf9a242, 0x2c962d7d54a98c3a82a638d8c82450813f42071a17c6c05f470b44958f57ef15, 0x2bc761185f59efb7b67bcf1d3e54da00daea067fe49e3f1d9334e5470438b454, 0x2e450d1fe7773c9889a0be55e44453bcc844c94b56fc0bb806eb9982ac553428, 0x25c0f87c946f375e341f72f6a8dd63a94e86f4ad182715bcfcbf2b28df6b4a0d, 0xbfe6fc08e2a2e1b8911ae065b985388fcd105a490a4ab943b25558cf3d054b6, 0xc182e438257c4ad7e7b79c3b68d60984e507ac597cb47dc31d913a7a540fd9a, 0x2ff4d0b8798a82667793533730083c25223d589cdd079362f1e8c2e01d54476a],
    [0x2e750867942439083365d21fe760c7dfec9e3593c67de12a4255c6b01648b690, 0x24e82df5873953792baca345b7c19f61039adeb1190592bca18cf4f907c1a6fe, 0xd60f0585755d48577b465746de8e286e49925150f1784f29fb6b96dbd8f0ec, 0x1f495e93014314988dace5e4e867f5109e09fa00fce87929d1e0ece95a449345, 0x124331e0ecb1d9808a1d91efaa98950abe930c46fee5a30d5ad07976a5bc0263, 0x2f421fcf54d77dd38930cd69076f9baadd3d3f1947371215a66c894d637e89b9, 0x543b2bc66f3b2d93d4c1882039ddb37c70c0b437ac23ac5bb9868e6df24485e, 0x203d9ee6462a586914fe7dbfc1bfa29773b7f9b3d63aea4120c601129c16660f, 0x25a1ecbd7e7893f646f35d3e07ee997c94354737884fe6c26ae8155760db8aa, 0x1d897f60e87fce5ceed8da7f2f4a63fdee7ff9dcf179c08e05e9e5cdd8238ac7],
    [0x23237985a96b177ff7c01486ab0d603d29991b8324abd6b07dbb96f5c21ba17f, 0x10e3349eefd3a112417e110fd9e832078e54b5f4537cd018aee3dfbb90541581, 0x2168dcf216d8369a626ccc61453236a389d02519f3052e87eff9ccb8aa299c46, 0x262903f36acf0dc055f610397df0794fbc30927ef185c6356bc33e5c31faef9f, 0x46887724f29321895c2ef8bc0cf545df773c04baa097c352a4165395cca786, 0x13276081db012d1d4f4b7dd2d8a2f8a5180d2ecc33854cdd35f9ceb07bf40d53, 0x2dd117218538e8acb0301eb40adfa2435f5bffa8028ff52f96a99d77fe927066, 0x1b912abf2e1649ad4834ca5b2a3831cc9c207d4d08e4bf274a79dca80e52fe24, 0x20135ff263867f708ee0275170cc9788689c088b2933a361c775cf430748ef1f, 0xba6d4ceee2182d3f2ab2e4a3ad08fc31f7f4cc0fec91ad53e92bf8ada3e278f],
    [0x15ccec857b25934ffd429af92c910db31d00dc1c3fb83745a31d8131ea5baa85, 0x165adebe00c7ba019499018c96f5c5870eca5679c90c843d9527184a525fcca0, 0x3530dd962ef23dc16f79b28c1fc1ddafe9458be15174cbbbf3a806de5f63cef, 0x1b7e922b3dd503e6441ada966c8b3ba7b908cb2b98b5fbe1e4c2fb982455baa2, 0x247460ad4580a18639eada69b904c91b19f7d4387435707696c40bac3bfbdd33, 0x144d5be38d44c5bf8f3c5735334fb1a07c13702d86af39ba0b4220ec9a7568a2, 0x269b06b31e89ff132daebc200efdc8ab068136fce65f2fc55a1dcb939b7fc6f5, 0x62caa3c9fd39b69864faf701dc8a4588571cb31bfd5c9c3c59dfd97e99f701a, 0x20e160f772998a2f7d0064c7efa15884ebc6d8b71821cd5336e2df14341c95ee, 0x5ce94b8e9a60b28947710461d87c7757246266ae8fa5d3af3ea81776b5b8c07],
    [0x17102ad2d98043e5509e76c331e6b22d5fb62d074760806aa675764660eb56d2, 0x1fb81218feeedf4e7e0e33dd8ecbe62d65c6b7d4233f32e073571ff862d89c3, 0x1cedc6d4e1476741c1099557e58e642c42892aa36e2d0a793f670781a21b0dbd, 0x1a88ae2fde12ba32e5f4eccacf11c25bc163bdedaaa8824474cae5869e5ec20f, 0x265412a4e3b5560aba502d20ed833deff707b7d425ba3c09f3b6392b6f1f4339, 0x12691b599d32edc48ae99c7a73abd59e5b18f4bf773fa1051cabd2c49aaabf6b, 0x20d4401cbbf92877ecf616d7d28551cb0aec552fae9518dcf9218c38c1a0bc90, 0x138c03a2ecea183cb8f265eecd7e93275b0bb98297c1545a72197dc6ddd9335f, 0x150df11291b680e3ba925a0471c7fbb30e704ab4b554ea5d8c07b70b2b96202a, 0xc346b046af03cb9048c29353e1107d6b75e590bb2d422ea83c09a5da1ba0c65],
    [0xa4ecaabde9d1ea11c81dafa8d5d4869bee7ad0bf4eb78397b71b8f989cf9812, 0x1be2802fbea51003aafae82ff4499d1158377b108f8b020c82b8460a8d603afa, 0x269c8c139a4f61e16bfaae9e8bbb1c69808c9071083b0a339dff9e4904b443d6, 0x23407728269c70fe712b021915059dc8dc2124ae648e2cb549fc76362bc2b97d, 0x2ad06fc9f81684542e0458aae19c0a7c18be94f1de3fce6a3e5d2335a01e90e, 0x578a55f0fda29909b9f850c3d74be6668e4444ac691764f1644a626498218e4, 0x2ee2da24b7f8e7035fb73b08c3414833ffa38e14b1faac198a860a5767d2feed, 0x11589959fc2493292fb6c50730e74994ad7cd6d3533c3b00a57dae833cc701e5, 0x17572029e8e897202d0e65c2172c571d4b91ca856e7ad3f118ad922127b87054, 0x2fbf8cc6ec7efb30106423f2e67b0aa9403360e56e88b6c5cbaec34a80bdc7f4],
    [0xec1821648fddc448a1512aecc8ac37714923981940f5542737a468d4d887c8f, 0x418081de8c2958355a1e45e28ee51ba2c66cad04835f4fbd81e696de6398769, 0xea7bc52503e2039d277912e022fd6d0ded5bc687c6ff97194976f3a28bd30c6, 0x12ab318626d511c23d28baa9fb5b5802e0ab95e3cb17aedbaa25f4d084cfda57, 0xd1e34192343d66fc1b6591cb6a3b0602b0835a403c7227dbcbd72fd8000c6f2, 0x12e3b04924b2cf6e407bd26b3cd47bca61d6ffcf7efa1aea1c2e0d8a49de64be, 0x6dd89fabf92546847b9c13b3a36bbc7e679c5bb0dd785403f3ff49bbe61c8e7, 0x17b9facdbe747d7c5163ca00e3b0b825d012ed4357604e7185750d677c6b357f, 0xaff15650b805bff6f8b3515d5e29cf914b7349af8924e796009f8a4f1b7264c, 0xd064e72449efc11d1e90b97749de3909490b912bb1f72f542f41d62ab2d847a],
    [0x255a493aa4becd9d137eb76941c4120784c1233f6c5fdf5d65c0832af543e415, 0x1f3e937ab29f3a88c6fe438698a7198a5209aa6ac9f141319f3bb201e7fd6716, 0x2180b9eb156eb33cad1aa750ea0fa3ddbfa4127296e497f86e6441e052a23b45, 0x1cc69d8f34ee877838950e20a9d4c4bd3e9acaf3d693aa64cae04faa225a2e1e, 0xb565179887ee30e381631d8e5dd357c70ee2ebb410617d2321f6d8537f98970, 0x1162a56ed3bbbb4b6760a16a300ba7202130086da4d5588a70926423ff8c242f, 0x1360f719034572b59410c529b62a62aa94565654597e42779f33400f1d17d652, 0xc603d03f92860da8a68c6dcb1924d1a45099aea50f1a362edb2f2a7ddfe90ff, 0x1a918fc117d9a6445e363ee5833dc01411034b95384d98eee47ae896f92a7d67, 0x2a88e0c35617665f3cc2fc77d90afc7a8d1001c71debcf2733ca0c71a19e1ea],
    [0x120f44670301b1435249294d9833d59e01682af4c8658719727678fd9ab7ef2e, 0x113e968769b0ea32cb7b5ff70484aacc96f13dc2827a8e5e611695e0797fc3c, 0x18cd1471430adad31e45b529494fc8a7e319bd2fc0619c99207dfacdb657bbf7, 0x23d0fa965e920dfc530b52670b1e32e2d5fc2821fc918c0844a003b7141825ad, 0x2ea6b32af37cd765d728ddefa30918902a21e19b291400854f56393c56d69460, 0x3340cacb04d5a85614eacc4be3352938baa3fc714c2575aa9d85f739113c50b, 0x15ff827e034c02a90767f0152840e7fc6db983e496ea0519c0ff41dea8180628, 0x5d56f0c844d169248503135e4deb9ffd6329d54cfceed4b947d78a568681147, 0x2e5618411efea30cc7de310d4872597d087c1e122e02ebb117db0c2dff04fc0c, 0x15eeb3e0541bcf010da0c47adb12f6df540b974d439c93e19ea4d02f9975d446]]
  p := [
    [0xb1e797eee3f15b88ce3a1fafec88da1d6329ac3c34712db570de886cf569098, 0x2376caeace68ac7d5504c33a2219f5c7c5ad25784cea62a8df008c4fcab50d07, 0x11738aa054dba194b2e82013feb222a4257eaec8a01f131fc657ee766f408d04, 0x22683ac3c69cb11bc0879ea8b2a5c88aecb222d25c68a660a2f4999cde166655, 0x713c79d90ea4f0449b01031fb6149994fc9b764fa494a3b0bbaea522d4e48d3, 0xc372107400e1f8f8e93964c84da46d78197aa045614a1dd700f1dce65779437, 0x5abac870bca413db4ef84c71b44676ff7e7c741c9b5e3f3c8efaa73e446c02c, 0x11c5eb9e0e5c1669df902352e35eff4517033d2a2a946a8e5fd1492a3a141229, 0x20caf8e87737232b8c429d7f8e9c9827cd7fca92cbc159a319567e646480c7ca, 0x185ebe5ac788074f48748c8b4f66564a581e615b3df9c78fc5ddb70b80475d3],
    [0x2fe429db8068e61b82624f25766273cd9fe6368ff097eab97aaa09be4c630e27, 0x1b1d1d024385e8a3b81c435ef9079a52dcec3cf811253a83325e7432443ec02a, 0xa5f2f19c49d9ae6d6d8acab3a944b93221a074e7a84939dead82506063120ea, 0xba8903c5a36e9ed67d21b2297f06616760d8beb3ef96c69dc9c843bf52a3015, 0x2a850b071614649f6e6ea4c4382d7aa9981736848c3bdc0cebccf3bd795c65dd, 0x20090c8c6b2e41e84178c0700c9f81b1e128b15f65806648c6166ca8769ab30a, 0x1f9c5c5cd58a682a6155b2db3923cacc1944362035acb2eef2b421fe5bd91f44, 0x2a2190daf9de7f46b5c80235a0a468c68226c193ff86cc8a6ffaa7033626d093, 0x2dab478180d47e197cc91da2f1ff30bc0fb35da934ba38c8e5587e005cdc2f05, 0xc38b0564f60610324268079496ce366271d5693ed6646a6470acef4e779aac7],
    [0x2e750867942439083365d21fe760c7dfec9e3593c67de12a4255c6b01648b690, 0x77d21c1db0df5aefc4a82442165dc0c6671bf7c8ae708c8f9b6d44b033f2139, 0x1b974a1b3977e8bf679394da2b702e724d2fde8aa4e60b83c631de610d1eeb30, 0x12f77c314190ff649ec4a608780c3ef7bd065902802f2bd41a93a0666fb8a90b, 0x7626c698acdc1e4ec6fd26aa192bb334d96a0f3935e5a88a8d7abfbdade4f03, 0x269aa03a5af8a48e20ba3147943c07e1d1ac7760edad58d9d03d0f45157935d1, 0x45f5c794d9706b43bd71f2a4d4f376bcbb76c7276da8fa942eb766955c53efa, 0x6ff77c4c464330deed91103d652330809d17045c75cca24e8b1b0a61d572af1, 0x29e529381ccf3f80fc5d54b7c39adfff8c2ebb5dfb86745cb974a21e9467455, 0x6b50f490125ae0bc287d018d60c4d6752ea3f61ad3e939622c1773df67a7f4a],
    [0x23237985a96b177ff7c01486ab0d603d29991b8324abd6b07dbb96f5c21ba17f, 0x2b9c40e97f4e7e6eaf4d342b420fcae7bfdebc3460c120b7a4b99240ea0db532, 0xddfa16097871dbb1337b5ed7ae8d2bca1e5ba44e482df13dc7ad593ef27a5bb, 0x165e20a2a8ea0382f56df39ade0accaab08fd9db8a7657b74ee54b114393aeef, 0x174b9be8f359863993e57e21e4c6fbd4b4a4d339d943ede1d85255ee48b3ffa0, 0x304b87fcdd673ea0ae58bba75c29249f964913b2170aa9f23d4d03894208ed87, 0x278ec34449ad1c5182395a44f2826314db9fafa533e518a5bf082096c2484918, 0x301cbe6e44e903ab193531261770925dacc71b88207e18f793f59f69a4347771, 0x20334328490fd8682bd47066200b77f9509a72a11f2d91d456220c629280aa44, 0x2301d3af42d47b43c8a8052646c069e046ee7d180c62a5d36e52dd6f215bf37d],
    [0x15ccec857b25934ffd429af92c910db31d00dc1c3fb83745a31d8131ea5baa85, 0x2655c9fd294d40b9dbb9566609c264c9e602c777c8701b1b2b542a5f08cf976d, 0x29898ad417130c472e0c1da3b017f7166e3a3eb80481efa32503e81a3772e5e7, 0x1681ed2917381cd1217a0c9a2f675353982a438cb3e9108fa5b2048e6b7e32de, 0xdc075092f8f83009ee73cd35e511ac13eedf5e3999f9bf5b41ef3e1a15a8fcd, 0x837fd755c29dc2c29036c497fcdfc23f95c7bffb90a62db5cc43a25e20054c2, 0x19d489fa1fa1ec6441b82b735dbf0b84788c542263d4c1ae5335e49297ed4bcd, 0xeb25d1b0322624190db666759db3c82bc9718a990288d865116787e8c527351, 0x19084cece4945482947cfe51a1f6f4e2e216f5b54742b9d71cc3840bdcbbaabd, 0x3a99be2c75989dccb246bf31a58f88dfc494ce2569c5d8b18a9a876317ecef0],
    [0x17102ad2d98043e5509e76c331e6b22d5fb62d074760806aa675764660eb56d2, 0x795d5914d87c0dc8fbaedfd46afdd6451258f80779112edfcdf1a71d23af4df, 0x2c202548a326cadc3ee595a16a2c2d54ada779390f7bdd4c4fc9417d3e463d03, 0x181db647369841eb58ceb7a1b9ef841a7f3358cc6f224152dc7ad3c1d3b1c1e8, 0x26e7aa2ef4c91ee3f704849f4c181fb83b860da15f62f2250c792e0ee66c0ae6, 0x17189249537630e942f5ac39c1498bce39996c15400d052dcb6cb839aa45322, 0x23bb4a76f79b77f9f6b4940ef2538c7d60d69f1fe9922d66cfb92af9dcd0867a, 0x1ab80a8b5fbd7923f0cf79707d56f7677d1071e924cb497486766a4c4bd7f6d0, 0x1f8f4c40a0cfe0d05603433a0ed2d424c7fd040077b0a1642c25797c20d22d16, 0x29177f698bc5a897ef9aa6b915189f689efcfd88f3da8e60b84b9bccc2ae33b7],
    [0xa4ecaabde9d1ea11c81dafa8d5d4869bee7ad0bf4eb78397b71b8f989cf9812, 0xc066f7a1e10d00fd3e97cd8c67212c28b43423b03ca4ac03efb4d8a376ae098, 0x1a6947c4e87ca0c30ed9f47004e53b7a45455b14da41f79045c2405d2e3cb859, 0x2481ff49ed6259def9fa646c167c8864061c04cfc022051f83ef8a3ef8db5819, 0xc13692adcb86437a860d6296d74b4253e790cae6f41683b99c1760d09921d37, 0x27a6be35c45e5f46b2eca0aedd98f67638b6645acecf50351c5a9f3c428b0e27, 0x4660af4e63d1c9ff6f059b75dd870df938980e43985c5607a38dc0ac8d273f2, 0x2eb8302f1381d9118d9c713d50e117f92837dca8a8610e9de759e76e8ee987f9, 0xe9f931dd923dc4398ac12b101aa7b5e2a22f09caa416ff8745821ff165b07c, 0x209945fe475f6767f668abc045e0c47ae6cb25cdb1efd5586da6c4e655d68e82],
    [0xec1821648fddc448a1512aecc8ac37714923981940f5542737a468d4d887c8f, 0x1049076d8dd43ffc6f4ea10a82dcd60dcf4d60a2125a1b4d8c4ff954e7da3380, 0x192a1bc8e7dd6203116a0c40d58111850edd5b50f9d6e882d16f95fa6a76d80d, 0x1beae2daa2a697afd9b1388dbcd6c93731fbb4eaa0fa439f92bf777769055293, 0x1a31b8769a838df03348e01462b564e08849955efb968d1f41342f02fd627de0, 0x12f1bd9058590ca45a76e19b5891f5bfdc95d653394adb4f32090c60505de408, 0xaac3c820280c7658321df7aaf69274032fccd21be96174582a8c0c9de580068, 0x7c216183f03a4b7c77070c68b3790b31b5fa6d1df5ae42437b6a2283d5b8891, 0xda9d210a43aae4d13625782341ece1d0221bd6ee0dc4a639b7f13a6daa3c93f, 0xc0d8ee0a08021baca7a5799ed7b03734e4b9bd35430279d3f7b2ed473c48c6e],
    [0x255a493aa4becd9d137eb76941c4120784c1233f6c5fdf5d65c0832af543e415, 0x19a05dc5bdf1243b57474519b375ba67bd83e122b095e4272c14f9646e733666, 0xdd31347136b2eba27f0528eae1c25a710c3707bde9dff3d76ecbe33f188bb02, 0x248cdf26597e0746d01d8b7ab0e9f88aa452d90eeb039dbaf586563945972fae, 0x25718cec512fa137f8a5851510caee0dd2c000af55af09dee767e2084796a71b, 0x23688bbb9cf13bb7bb972d0d18d0e05c51bff96ba5314bef0af2d912dc5e8d1d, 0x1ee8c54669e6f0ab1fb6a54c809d1fad213e8ffb7a7b40387ef594b7cf50f4f5, 0x282e578ad2799ca36191b37835889bca6e2e8bdf7e4412628bed5e39885d688e, 0x831616989168d514c0fa151fc3874b8cedcf88d27185e7e037cbe93391022e7, 0xbc5380f3490175b28f01eb5cea3914924df2b1f745d33a9e39ab872b19c4fb5],
    [0x120f44670301b1435249294d9833d59e01682af4c8658719727678fd9ab7ef2e, 0x2a25bac660d90d85f22fe81abdc80c403a86e75d4f1434ba2eda3184dc5f2833, 0x2d19334d3eb5a9781f3b8105b0b1131ee95d4012e7faacf71864762b6fcc7011, 0x267b655f26896341492acd89edc7ae96dbcc24161d1e73ac652ea55d61efc3e3, 0x1d9c8ad973feacddad16da2be2ed7eca235b3bda01521da956f1c8a7d65ea58c, 0x15b9ffc66af5ac2aafbf2dcb199a57bbd334c9f971d903d7da7fd65e920cc9bc, 0x25814a817412e861b4318985ff3cb706db6e56dece08c2c6dc20584ed6fa6c7a, 0x4190e2e1cf613602ba331d0185b43c960ff5c57bc2f86f5c8bcd84b95c789a4, 0xe3999f52ed0ec7f486ff150acc84c266aeee72529234a010988f95a1b5885fd, 0x1fcfdb43cbd7992f0088a9a85c95e4621873666105510f25ae576bc08d7f2084]]
  s := [
    [0xb1e797eee3f15b88ce3a1fafec88da1d6329ac3c34712db570de886cf569098, 0x199593eecc85367004177e717d8adae09206aac28506281403748f85ebe9985f, 0x8dd94e1b09d8b9823fde4d4fc4a3794d631616a2c192a47fe257bfbdbccb7d, 0xa0cd01bd7b3c21552ee7c0ba8783ad231802aa4f847d00de820e9176e227744, 0x287eaab3e59c1cdfce30b6151543b6ef49a3be7206f3cea62db4e80fe1ca1529, 0x2a8230f7ed05f7e334f91cf214c7bf12852996083c456a506eb316c249cfb4c8, 0xa38f089600747a6b6e35342c2e321042ebf690726aa9431031351cbaedfb5aa, 0x1d5301168a7dac6891b7a9f6dbcd505fbf7522f875a61254149449869d316e05, 0x13abafc765fb2e45f793640bd7f1ea2f88d202f0d7b4200410cd96128d3ef472, 0xda7e244a420237fbd8730ebea03fff45156a52ac87b9ff605ff1ba20f7e83fe, 0x271d315532755b1d48814699af18654bb310bb94d1258dde0e589bcc2a5e28bb, 0x12fb6f92ff04b5d5de41c9508842798a8b9454a99f0cc49a92afead482e84bba, 0x24cbf9280b713f95571b177799a76e23f555db290a1187aa5ab7db69a2dda2b6, 0x18f43c99a1b72e7cbd6fd781a46c13c38202b4b0ba7ee75cd36fcb79b5ea67e, 0x1c69528b3df94c6f7e8a794ea0308fc165f1bc1c1e3ef090c7aaf4405f7cf3bc, 0x1cb0d8aa6512a7543bd8e8bae1c0f0d2db1b3457e1bcc0ffd372d4eee3c6fafa, 0x2e1fce1597591bb776ef16340aeddaffdaf039487cb42bfa6752a3ea0cfe18f7, 0xe486a7b7cdf0fdb88306d96e72161d4549b281152c6cfc98d84b031e95ca166, 0x1141e26a80698b742d900fd1e734839d51e4d50e0176303a675809ac47201782],
    [0xb1e797eee3f15b88ce3a1fafec88da1d6329ac3c34712db570de886cf569098, 0xe3f8ddade546278648095cc835e94063972b1d55c6414506592ab57e54c8042, 0x21933a3bc4989347b0703d7cdeddeaf6588a166e6a3f984e318de63ce674e8fa, 0x2ca6f945f5f755039c8e1bc30935de1ad33312a7cf325b065f91083cfb001a78, 0x129a9ad876815d96566600a97d41f958d7df9ef97291de611d28d7d9b2af46fc, 0x26b8f200c0d0371558755081221dc59767afc5a4ddbe6f7d403c5ccb4035289b, 0xc7c739377b0ad2ff9d3b0a8fa53e39c7016f049ea860e8113b055ec96ee3d64, 0xd17a36749f8f9d493a0a57bd87618c969cbcf83edb4b207c89aa5ccb3feb20d, 0xbcfe1266d757503881d56c7e64cfbbc3cb6a47ef4e655565864e01b9bd3f872, 0x13f89db06ca471b07ac0ad1f4448cb225868b63131700d1ddddda16e6d5fcc7, 0x24d344ea0550d7720827b6be6c09b027c8e4ad104d57d57771c258177a302b8f, 0x208ce89913e633aea3a855a854e7daec40afa1939dc1f728dde6b349e39ba30, 0x1fc4565041d810a750e306a14d21695074e31eda2baf0821774add15c0e2fc3d, 0x2fa22f80d4309be21ab298ba4bc16a5b20f2ce8f3ed7bc3453135655da269649, 0x26f3a23903d1e7d835db70f3005b3d5a67043fca7eb62aa8d78942a0c1cc8add, 0x1ce0343fae8a12e25f2391eb038b2377e7c0c21aa60100818539d6092eeeafb0, 0x244a2bb870f1e6f4ba5e20f1c225723f305841bd0ab932b7334990cb0572c33e, 0x1ec61e9126f4c8fd6f0d00b28c5f02334c077e99ecb358d2536b2d321cc00aad, 0x18b2ab087e3f0a7fa8a6bc1687900a5481ea991ffddf017ff52a7f371c22db87],
    [0xb1e797eee3f15b88ce3a1fafec88da1d6329ac3c34712db570de886cf569098, 0x140b91ca0e53110e898a67ba8853d04821952e760e56de985180975ad237ea52, 0x3385f50412cc6d4caaeab9aaf1099e8c3c61295754345534a1476144a9c2678, 0xcc396f0b80e2638615bb4a250f84e54dfe33ce76386edf22da2dbb233546ac1, 0x2810d8ef50de86e04cd8a07f6585a06eabc4ac5efdc4410904d7a906ecd172dc, 0x1f8b8501e9db678cc274b33246e39eb95635ac4ad2ff759a9201ac0c3f16c12b, 0x9b10e50dc0703b65199c6cff8510a9ef2172545f366ec2aaedbb2f5ad4e391d, 0x158a6e9ae44d1ebc7fb99b5b38e5139257c68f0ddea96593ff7a87dfe79cbbe2, 0x68dba3eb9f1b909707e666c1e7c745192f6ec2d8439c186faf6d3bb978b42a8, 0x100be98775675cb0864cb56fa3f82b66b216071d10cdf87358c7e46be055c723, 0x1684c4b116063b5e05cbf4eb9b3a6ba6d68ce1f30ae3978e1bbea7a71bd20cfa, 0x678cf4e455f8359f498a22b87a3dbfc50ce233cbbd99995cc259e419899e53d, 0x305d111beaf3f510a104ed93aa254f20a4c539eeca95756ae03bdbdf0c8eebc1, 0x197b0550e8e09c375f4b1976395ae6051649d6c7a8c39b78676e45d33a8630d2, 0x190712928fc6ac88f24cd9179348b4a2832748dcf708e01c50efcd32e2b83de6, 0xa77bfa4113e98b47e8d705a9f60160ba144ba344c274744f135f207b24929ef, 0x2962a7083e7830d287de0a3436cc093e0fd7c2d9631b4937ac124d58fe3fb901, 0x91a715976bd99e40777c119f68ebec701e3777cc9b9e52602588a5ff89583eb, 0x61e3488cc92892520449518af4f4133b52412a19fb8b98d3d0812dea2636e3c],
    [0xb1e797eee3f15b88ce3a1fafec88da1d6329ac3c34712db570de886cf569098, 0x197ce59bc87f624e9629b7383452b9858362754ba76cabd0e3d3161eb8ca76d6, 0x276e2e6272ab2858142f0ddaa038f436e9f4c53eb4d5dfd8812cf10ca5bab1ac, 0x9c49831a9e1c453d072ce83e5088666b56dfd1ad0977b2abcb2aa9ec83e2ca6, 0x2a4aadbf31a1c58a26626ef9de341f2268bca243eb859a465911da18af0173e7, 0x21b0460dfc8645851be88e96ed5f67cc2ea5ee00f4f3025ec4b5253494105a47, 0x120a8288745f9dc360cb1d580b012b52543030b53b9b97ac9324df79fc46df06, 0x9f0d911f5eb1bbef4c9ee96c2fec0b0c00945de4706b4cbf64f62a02015d7c5, 0xdd0124d8c9d7b7c202379a001263e0522ce49d1081f63816134ad16bb34277d, 0x2bd803e20cb341debccbad79b053df6e53f567874a52ddeb9422758e73cf6ec8, 0x19b2b4b0e24bee790fba0867847f947f975dddfbe3c11b4c566ed4673684c0cf, 0x1acda97c75929ac11c21cb081f177a6e550331b2670e6a66c2793e4ca4bcc3e1, 0x251c70a93b81276ea3438709b96351fd8004dbee0abc0df79329caa4d932bd62, 0x28918984ffdfc01138df3fba5221a8604c954b7ee40de7070fb0e34e7038ea3, 0x2ea1cff24f208aed6f4da7cf837817ebfb6f545528d85a32430aba357eef776f, 0x15b61ada681df7de801547bc9937b1c2e75a4f9728cfb5586f765b058735ccbf, 0x16a4ad2b453006d9fcef31919daf7ded6dedff3c5b3ba4fed692e2350899167, 0xe8cdd7c3d33927077543bda5b1777f6369d06876b8636cb95a9060c7936be90, 0x26152760e5dfe9f0a2fe901bed5e0dff3049827e43a1091e24aee4d457490a63],
    [0xb1e797eee3f15b88ce3a1fafec88da1d6329ac3c34712db570de886cf569098, 0x1ce56e15f41c99a2a005acc7f78b735e8330dba4db4cc96c524b4638010937ac, 0x2b33ef11fc26750d1497df0fa1b969f1c01c5556522150ff976912649af06a99, 0x47e2b54830ccb7ac893e39afe89b1d7eac35c7ec0f28b343e0249b924f15d37, 0x2e820332c7266af2a59ddcb5206d404827e9563ca2c5dde5d2d34be269c82612, 0x28fc123f79ace39838b7af8f86be8cbf89a3540015bed059fb7a55868edee623, 0x121ae712c922e7ef55ebb73809f3036db42852c52fa63bff322237bd883dd555, 0x3002f25a7ef8e035c0e82597953a107fc73a5a406770dd47ca93a34cdf8040a7, 0x23ea2cf159ca1b8a17ca61b73bc84b33ca7204c4120cec087424470dd062076e, 0x179e72146176bd15051df789ddc3d0f48437c973232846e4223daf05529248fe, 0x25edc52b2cd7bb6690692d75c3f1b999f2ae0749c5d2741d2b53284b5655d46d, 0x1cdbea76c865750ceb85ec17f20c955f2edd46df09f0ad90d04cf416b10fcaae, 0x2edd29ae05591244e1124edc195033a404aa98a863678d3769ddb5797a2a748d, 0x2d9d2a342475cc1662da5b26453efb92f1549efbac72a1226373414a49a13590, 0x4783348904bbd884be3c608fa349287d2e4d4284baaac9b6ffed192a641406e, 0x1588ed490b8448cfb883d790bb0f97a2f1962d14289c946b8ee49a4ddcf7a3eb, 0xbf107dfc33fc7e66153c7e5d6beedd252d17b8ca1bf1f6499a9dafea570fb07, 0x201d0f15aef01a1e0b401f946f7b29e6f01147b6257d7ee235c6d319c4474326, 0x1015804003503668b1dbf9bbc98eea304dcdeea4eb7dafc67b41a6446af10385],
    [0xb1e797eee3f15b88ce3a1fafec88da1d6329ac3c34712db570de886cf569098, 0xbee3e128dae75005ceb095d9e6e0e55285ff7edd96dc89654f5b83570593503, 0x1853cf3ebd47b13b2f218990eb3ea26379c1d213e70feea5b84882d76241ceae, 0x2c25e50d363cc08774bee7d9e6232855f6d8977ab169e38fc6fc76de9a63e6f, 0x21ccc1e8f8b5ad39b401f79c51ed881ec892d2a7eebb8ffbd848ef158afcaf68, 0x2193aa94ecd57e962604ab428aa0a8971644707c6e85663ef9b3720a685d71b0, 0x1d3b5cd3133a0533eb15cd908cbbb5dce76ecf5b711f2535e852aa472ee4c9d1, 0x11f29d358de76ef38d31d6d7247b64d41c42ebddc7ef5e4445c7897f57ad08b3, 0xfcc2984d1d2b762d6fa16a3a407f4d3eec484a9129763864265add7c900836d, 0x2f79d03e732317585ff9abb62a371800553f1eb717a71437e225b204c18f9e9b, 0x2f4f14eee6382dd0c54d10739b354abf104cf134babadf2dff9b8cf286f9733, 0xd0c5aa4bc4f774d03ef5b2f9619f618edd9afb37defcc420b0aa4f4fd145e85, 0x9b150f8dc9342c87a8b7e871345e5998c084662c897899df45d73157c4fd0f0, 0x28148860436280cd8a5fd6645fd1eb86abdb72dbcb02e8ef47065a4a681e9eb9, 0x2cf619fe3735ed9bccedfbdf3de64031cd203231a0e178417bbcdeaf69c85d15, 0x32f164c4f4e5122d438a9e0309459141505621343ab1c19abb63ce7c036ad03, 0x2a3efdef552208ce3441637e2cd610386f41f402bec452d674bd2fe16c273581, 0x1a9e7a13e4d57cd1ab3e38f0991fcaa4cac542f66fc2a46f9cf7d20029cac792, 0x20871908a0ec043e1e43ee1f520584f15b3a7f24a2d03aa1de50e27ca599d872],
    [0xb1e797eee3f15b88ce3a1fafec88da1d6329ac3c34712db570de886cf569098, 0x4767ef42341d3930d7e5219fabbff62f44e103b3a0905cffaea5a2dee73c19, 0xc4a1786e515cd9bcab2b7c9723c597e730c532555003cae4e36131a721f6ff9, 0x147f468c58deafdcf47e57114df0ead2c77452a45020e73955cb150e10153520, 0x1d1309f96110c70d9ef884374676b9cc3a599fde74388ef68d99e54b5802c760, 0x134281c387edde8b6f807d253bc0ace7a625fb3c1f65b88e4537febff52e1d62, 0x2fec2d972ac4b8ba14bbc95cee2ac6cb8c669abc35e77ae2f7dc962dccdad59b, 0x1782c9e451cbde261da8b4ad3a15e23ef7f4daf7b406732de05570c73040c663, 0x261bf6a9f68e313088d8b2016d3e7763a6f6eecd9b506fd2baa8d8f3593b4c4b, 0x133315cca34af406eae080edf7ce27574fb984710e4e8ec39aeb6491b97f98b7, 0x216763174ddb0395182ebe57e4feb91be8f13746e89949557e023df397cb679b, 0x9dbb42bf26459d3f9ba2ed5f491b4f01fff6222c6bddb7776450edb6c652ce5, 0xea832a969ad1d94f55cb34f35c7327f62f24fa140817b238bc676edf1f77b6c, 0xda7dc395978e8ee00ea5ba5103a39930e284533b1a51fbcd3d7daa542142dda, 0x183cf55053b7981ac506fe1c56fee73fe3a39ae042171e21541b2b7312618722, 0x16eabfa4236b9b61ba1b336ce55febf1cc84343f0449a54873cccfce0ff9389e, 0x2b62c1083fbc23f58fd694646499bcb90368a2e63794b1d39dbaa36bf782e363, 0x11ecdbc47a72138aafe44263356d01e931541ad49ac28c048428ecd233fe3c6d, 0xeb0e1c7cae7c3f491cff7216ddce50aeb98935e405316c6daff1c21046af99f],
    [0xb1e797eee3f15b88ce3a1fafec88da1d6329ac3c34712db570de886cf569098, 0x2323c898ca30f7e8fce9b31d21283d3545705a71d0ce9577c5012fde6caaa11f, 0x2373f9b1c4df6c500768ddb13eedecf0a82bda6029c0abf90f3f15f2e7a9f87a, 0x2b4a1e59a52b1b825f6f8dca5ef66b929032dab32a9d3a58ebb44887f84c18ca, 0x3034ae984f1538e2163148617760f62569231a619a0e2b620d206211b232ef29, 0xf1fb16f83c8ddd6959d01a9576a8d70c226a1a422ffae89ee0baeeb37e9a8be, 0x58d583dcf975f97dbf31e32ebfb0841298f765476b2e4833260ad9bb82f2f2d, 0x2b1060a96e8a6de59e2deac81b17d40ecaaa4087276b7d5a9ac2b47598c2facb, 0x70579f1869154a6efcb59f85b43b90affe755efd5d4e62686aff46646e0808f, 0x21444d26f9de3b9fd22efea95d62f5193c3eb0b2e1a6b393e85996439aa43992, 0x138671f92f9ed9a8131ff4c7da6806dbc33f6c02cfd3d946aa92288df2ff9d9a, 0x1e629d7b8f61fa02a5fb2fb163a5a57a593b158df70413fe868b338307a449d6, 0x10f0f884186e996c19ce4939bf317b3d12cd24bb87bba0d3bb763ab716ed41b, 0xe2f06ba65a2c7c8500850ba6a489879252d0db2af69dd23fa3ed106c92739c1, 0x19823b0af9feb33ea07566495f0de05e7ebfa52aa89f5a5d7c66f96ad60c828e, 0x16b0527fc6aac4b4485dded0afd8905e6b53e056efd33df7b8fc2d3d4b54cd, 0x8a584f510af49572ee86cf723346066002e5e7621e502e946f8f35003b793fc, 0x8a63466c0bbbdfe79375f181ed0266c97e6057653d0b285696a5ef3e93c27c7, 0x28ae69c874a3ab1ee6360bb1ff560fbab69591e837a4bc4d80ffb4d253e232c5],
    [0xb1e797eee3f15b88ce3a1fafec88da1d6329ac3c34712db570de886cf569098, 0x26751aa290792a4fb3921d9ff8b5967efdf68b1fd85981b4d96401bc621b381, 0x1cb215d90f4015cc5934293e248b2d6aca4e0afd46cca219a89eb4f676199481, 0xb8f12cbe7152d6f3e5fbbe978884a5b7be6f35fda4c00f5c5975158df2f338e, 0x17d6d8fe5ede1ba531918c33df5c6c9efefbc20304b2fbee19c01aef81299774, 0xb53ad598a4e14448fd044b8ce15b6336af6b91cfb81c0da827e7dd68e98e59d, 0x15e20ee8fc573330fa52fd42ec7b636e28cede5437be371b1990898751adeb74, 0x154fa8d9c7f09c1ffc7fdfcb58fe7b91e6d81b03adfb8f9e2fe0522f6f7c2541, 0xc17e59b4750d7443f8030f26ebd82d25623e2b8e5540cba1f310828e5e66988, 0x7dfbe56e6ae749917b93471525255853fba26222d45e0504d8f74784b1a86f3, 0xae4cd50975a86aff25632e8c9b7c0e915bc38159c90dfd9459e29ea9432e467, 0x1fd9cc61b67d700ec892a8c09af677c9e28097463010126823cb72d07583754c, 0x1bb36856ba8992334e795626486a4608c5d9a076cd93c8aa0e1a934ae4e8f3b4, 0x2f9cce5050f66f493cc95213db4336536a3a0e2a17311cecc27cfd9d88e339d8, 0x14839ed69feeab49ef110556d96b4f1793f8c95f3a38de800e9ca0df690f958f, 0x7b5c5afb6a826ccf1b740cfc8aa6f0279ab50c3de8a98f6692bff8cedbe5f0e, 0x142f7788b72c5fd5a9065ebef59f6e8d32eed74588cfc22ad0962aeb24a7bd0e, 0x1d07d62eeb6dabe9df4fa00ad642bfa7d36687d6ca9c8f023a40b5d04bc78ae8, 0x13e55cabc0bfbb9ed41bf205be0674e8668a8908c411ae821d2539d8cc587fca],
    [0xb1e797eee3f15b88ce3a1fafec88da1d6329ac3c34712db570de886cf569098, 0x262b44719763ef2a486e59231d9624bcf1ecb95f576bde1e7088dd5a7e4a5f89, 0x2dfde9e5ea549d50c4497d25b4a4cecd096226253b3c7c3874057fa62b8743e2, 0x21a567f428d745b4cfdda7100163871a5383e5d8ebbda66f7a305a4c6be0abdd, 0x1dda63eedb6364b5da1fd1acc28b6a57b9a4033ee7749a8c2ac152a1e94d4b4f, 0x685e2a27b7ec3fdbcbe3e017953374976ff85371aea9109c2d76f0ae1ceecd7, 0xbadd4c6541613422a3c2b71626af0df7f380d6f3f6da676b7e6dda463f63ffc, 0xe270311e05a64fe34fab3018b68616f08a2bf4c06a47ca457defa4c199fb96c, 0x20782abf7216f6c5e781a8f0350099551c5e9a1a3d4b3ed2d985e5a7f566b24d, 0x2b1a699f26b1fc4beb031df4f37b8d5cbabf780572fdc64a56de00748a65c07, 0x791e4fd31ebc85df2e06aae29edd808f129493f8583732492fbd7056e93dee5, 0x2cda35be891732bed62392cddd00557b6f4b195e000c1bd4fcfb605f8e369d64, 0x6b17710849d27210afb3ecca7e7c7ad3bfa36075ddf1b46d7bf0a557c7afba4, 0x2a1ad86529da724870dbf3bd6fc20cccc1998102cf0d7007a6b2263999e4fcd2, 0x2ca7a691f176d709c8799b5094d28a68db601ffb5d133cdfcbfae9e565f1ed84, 0x92ee47cd58d3038bf80c70d798516c0dc371ee7fc7715da95ccdd5a1e820347, 0x2f0a3f3ab9033e8640e9c1b7112b31242b7eb493837b84bbdc9cf56ce5858752, 0x2bafa447b4f5b878e812ea7b2467c72890c119992bd1f6e3ca60f926e812d2c6, 0x6f980dec5d6b3665f1cf9fea725ecdad874c5c9cb63e7987fb41e7430a3e352],
    [0xb1e797eee3f15b88ce3a1fafec88da1d6329ac3c34712db570de886cf569098, 0x2d69490ba2ee43e841922e9a426a5bbc264f17ed379f8bc91ae3d275e724c21a, 0x55c6b789c7c9586e4c88fbf4eb60783cdf8e9e58d356bba1ef92f8ec3514aac, 0x160f356a6a05a6919dc7d2e03878c6eb552a14995edcab05f623273c0cd29a1c, 0x2a178e1d8e4e4609710499245dc91e66f3795b5c0227a2ba8cc8a9f8830aa212, 0x2dff2498b5124e3bc2587f3b1cfef4dbc1168c2172dc43f1d801cb75c7e18ff7, 0x3062dff835ea1ef8f6960d05f57368fb48357ece82fd7ef12cb5254a55e3d102, 0x7f83dab6ad44900a3be2e049bac44fc5eafddc0e261ed5d1795fd513f12722, 0x1a037c2eb85f1dd82bc9988c67646efed697444ea2739b6800d214e8fc52c8d5, 0x17cc92ab3464a089e4f7747fcbee5043b59bf9d7cb744346cc2d889051463061, 0x36ec634c1127401f9a2206720e26e7198702b85deb2314a37c1f06217cfad7, 0x13e7e74a49ed94c2a714a46b12c19e3ed6793364b22763ae2c28b53318669510, 0x304fecd133011329f98954047995691c6991eaeba7141494506fc3876cf8268b, 0x4e860ca205e4d78f0d93d3b743e2d82d77737faaf2704e5540e163aefe75b51, 0x128cd6494ecba913473703b110fbd66d627440384a6187aca8088de1d51aaa60, 0x2c7111b9259f4fca63e218ad354e9107e80a436a3e82d62f180c0ff1c7055743, 0xb3901ec96ea864778a698866a852170eac53ec5c05c024373cb38585977fcca, 0x9aa27e7fd140dff6a20f7696c85702c3f60ae58e60233012be3996d839f8d6e, 0x1e3d51555af4c3321630aa1d1134ff631ce25a12b77d3c2f3068a4a981f79491],
    [0xb1e797eee3f15b88ce3a1fafec88da1d6329ac3c34712db570de886cf569098, 0x19b9a37490c9b0507423635e95f10a0f27a2dd48b840393432eb41c3fb9aa265, 0x7783facafa95b276e52a4e6957b6145806c64f5c0305fac11c14095e6770e7b, 0x1dd174936ad30ba73ea372209ca23d51868b21e533cbd15ffd438c51c9515c89, 0x1fa6bdba3839fafe0ef67bb8f50f2bfcca95ff34ccdd072bcf4451e1b3a8f098, 0x2a3116f7f050869bd4b0181245fb41613f482cf81d09b95898f9f813caf7c97f, 0x2c16907e9d82fe0a3799dd07efc106bf60d114def959261470623220d9d9224c, 0x3c373a0664f0389702f966c124355796a3819e6fcbf29583b4a33891961bff7, 0x2e67195c545bf86e5737e4d28dbf075c11cd21965127da4aeac13b49fbadc2de, 0xe0d816cd83dfd0535a9706aa8d7225342cd76b82d2c3df0425857d92aec38f6, 0x1d623c057cceaf69f4438d54e954e59f7f04065ab72132da788b28fe08ae403, 0xd7f30107ef57c75975e5a489dd2e39053d12cf5ff9f74bad3e647d6b4278659, 0x32f7466d62e6c9dd8c02064ac112042b9082c7ea2e8caa266d04a68f9d9b15b, 0x2a4bc62d27e720a9e53c02e6519ecdc684ed42222c063c698a9fa024c1bd0669, 0x2f11dad1623f57beb48f1f781bdd9cf57752dab6fa75b6442db3834cebf6d5ae, 0x7448b576267dd9d742ff7a7fc8324ddf3f340df575917d1583256b8a26c001e, 0x10c06e0e81bba5139387282c3883c5967d1ebad7ed164f970dd697de036db5c4, 0x30c7e1595a11101143f8997b7b9f63d265bb69efb4afffe36eb47ac4e170960, 0x2081add9a69f880110449f883df1816b141c11bc52fee4c355821501e3fcf05d],
    [0xb1e797eee3f15b88ce3a1fafec88da1d6329ac3c34712db570de886cf569098, 0x288949d7c29bca2b52de67a970192cd195390c7ed0788f81d85db64c98c78aab, 0x2589eefe89ee66a650a27700d7ad9ee3ced14f507536405c21a90857b6a3c8e8, 0x28ff008aa0b3a7732cd4059620a76a9d1cf8286a5ef84ee4df54b435656f14da, 0x2155df46713041cde67a10d82c7c13921f0e394bc66eb78f9047782cd17ea643, 0x2c16fb8505a4a94a7b5c775792cabfa62e014b33a5479a81c2fc8a52e8044d36, 0x2b1e314362badfaf84b4d272a4b6509698305104e27fd317fbbd0178137cc708, 0x2c27c6d894ba49e73659ae668667796a1547338cdcf3c35914b3d3e004f935c1, 0x24c4d70a62d779e831a38a510142c88b2071251f2737dbda104dc3cd5585041d, 0x172cd6c4cfcaa0085db59ffa6051971fefa9934458a50b5e3b98bef6053f7fa9, 0x1068776f66d6f04edcdfc6e6cb9473ee2f57d670941e4a191f6f69e7bca61a, 0xb5fbd532099ded25d17a8ba4db930a0c9655056fa6a01c56e825843d763790a, 0x20d62b8df28b9d5677bd4f3ac8095772befee8b2b761f9a4a7d9b9aa719209ac, 0xab9f332e0d0c4ddb998fcd6da668a8f744260e3ea8947b6f6189ca82c5db01, 0x2953639aa84c6c0feedbc71e3af4e4a15bc408f5cf3ba2bcb98ba5bc01c9875a, 0x1afc3b62187190e90184c6f1f1878020f0efcfa38235f5980ec372c2d9b4a56d, 0x2c67d12ebccd059b365736302f01da9088f2a40ae49d88e58c7ecab80621db4, 0x23a3292e40578b5fe32b0c7ca158b298fc7d6397ca3d46a50157a528a6ada69a, 0x2d5a92ce3878d73e89d645f35ea2b179fadea64310ff752a48a94aab957cda66],
    [0xb1e797eee3f15b88ce3a1fafec88da1d6329ac3c34712db570de886cf569098, 0xfb3cf3d82f7442edce7ae58c2fcbde983a9991bfa8c583cc9e8675176f5f500, 0x1441b92ceeaf3e93bb74d84875b7b32f66218d23cc25b747d522344c853e69ce, 0xc66500308b0fbfef99d8dda3ee219ee7faeeb6ac7c993572c13a93b172c09a4, 0x104281140d7c64b5bd415c250830aec689e5868c58a2396c8f4af87c06c0a617, 0x297d4462db9786475248b39bcdc40ba0ec662e5e772f6d07c3178964c86bb6b0, 0x882cd69f5f1b0c14f1a5f1473f44952e042d81134a25c45a01e4d997761b6be, 0xa663c1280a5f4d285524e6163aef8f83a42ac4a8fd6d3c44bf01c5f76393e75, 0x64ff7dc46adfef44b40646c79afa99d0c14ca6bdbf7da5aa322f346f169bf41, 0x901c9594190b84ee79b7282a6a5bf82cda6d28d1c513fcc679b42c5da8570fe, 0x21257b75cdd1fac9c5a38abc15274df2aa318adfad33a5263ea3cdb1a1990577, 0x255cf0a823fa7cbf9cde67161df7378969730138f3bab39b5be3575dd62e8b51, 0x1d4b1fbaba2e064f59db8d8a6e72ab84d49a8d82f6a2f9fd532caac3530bbdb7, 0x3e5ecf7a394eb453de6cfd3fe8da36f826abe096b15add7bc22ada6d2ec83ad, 0x1f068ef1dd48f8934037a95c94b3740ab3d399a0e36cdf8c91adb39ed90c5151, 0x13b5b483529badcd3ea50b491b6a042ffe9c38f2761e8367eac4e11a85210971, 0x28955844381caa81ec9032541abdf3f00b77b9a80b9f6e363cf4369e0b1b6642, 0x2a3fe34d0e5e72044a5af113255b129d78fdd2fccc280f3d6b81c985d16cd288, 0x8757825685a90d9476b5bcf376eec9556c41811a9c017fcd7d6ac44fbbb8a0f],
    [0xb1e797eee3f15b88ce3a1fafec88da1d6329ac3c34712db570de886cf569098, 0x5454d37baa3a2f999a53fb59504aabfee05108628378a3a9feb587663d274a4, 0x129a7b8af836412572e06774394c69bdae4033b15dcc2a4efc10d5b4d850fb05, 0xcbbe121aa60c9979b941f94e86121f984e67334708eb05850777184734a08bc, 0x1925ac7783c308bb5aa53769d434c44de6faeda6015848693c50fdfc7f465d86, 0x1e24206b35f67393f1d61933aede02c01ecbd9cd12929e48300e37e1def7b1f5, 0x4276737b519ede14db1b652fc56169408d4cc1abf043d8a9ce90a16447a06fd, 0x27b946d91e4453a4854c29cd248e0cda329d67a2ea66450d51b57f8b159df5fd, 0x2cdec054ad08c8c5e31588959e605ab5b0518517fd809d437edc27f33da7580b, 0x26e434190d53125fc7718bfae9f34f2124d41bb51bb2c23c37deea8407da3523, 0x519d0e4b6c1228368f420926c69ff37ee7dcf8e3dc45c4e95c821477d075eda, 0x2aae1f5ea6015e4acf22f950f6620cf74e7d7bb7a33ec09b372cfe562e5f2e12, 0x2ffb9c618799bbf03e071bca26d130a936a380f74f6e475f567adfd9adc269ab, 0x22a6091317f474f780d2c4e11d78e6eb875686f797f82a8ba7b3212879dd63ea, 0x79b093f80d89162556a653dbe714975928ba10cfd5f1d0bd47c0fea68f03493, 0x2741b4234834eca3dfd3ad4a3064246c4496defd8197e450b8416e4852028c44, 0x15adc0ef2ac09ba1689bc3bf21e4fa50141c0089d00a80225f39a8ee63ef0032, 0x168017fe19343b5d7d8476c0936a0870ac87beb8ef2ef9b02cb773dad72d2401, 0x2dc5d64afabdf089bffe3152fa2b290726cbbb4d52e3e08ab52b1876070a8b03],
    [0xb1e797eee3f15b88ce3a1fafec88da1d6329ac3c34712db570de886cf569098, 0x2631312e2a6d973442d5dd7efea28e5073c5cc17c878cc594e2c39dea7a51950, 0x1ae2f96df9a1a71be2965eb1f504ffe75742ff7f81a45df9086822ea4ff83f9a, 0x17a4bb48a247c563499f4b71a2ed4763c579ba38009184f3607d9b4b5b2594c5, 0xc9a0ebe3610863f0da6992f19a565911e14e72687f798d90b98f2c2b24bda63, 0x2f2731211090929d349ecff21490ef33747d4a402c8c1995b827292ad299201a, 0x9b7a78ed8d062af7d0ef55e464376fa6a4ef0de0e0cfddb6095156359825480, 0x28abb1d3e1bfd68df633d19408b66ec34a580540eb92794fbaa033f8eb0e01b3, 0x1e2014bbd5d2db2f97744448f2d57d1e27b6dfde486085a5d8c128058fa0e656, 0x25f9ef11d4ff48535b9301a31a5413236fbb50568745d44af96d5d307490eb62, 0x241b430c52d322bb0971e127e4e68fd3fad0a845f235b3e80bb514a00b75ebd2, 0x21b6603896d2fd23cfa9b8db8fd0e550decf29eec015b5cfd665313d91014bdf, 0x2066a222ed385ff7d9620fdd0343bc67d3fe9027c450917deb4c126ab9c5843b, 0x148ab2277866b9d0c72eab8df30a3abb6fab1610e164a9f2400ea397e0de92a7, 0x22b514cdab8e05d5b1289978bff23e2aa763565fe504c7e3bbc86069e0352239, 0x15adb32fd53195fce581f92dad1925b14c6273d02a73ce8a21e988944645e829, 0x26514ed0266951c35ca0ef8ce1de46874ec132fffec62807e01831664eb427cd, 0x24a1401fffe3c86451355add7ffe24db5672d8656cf51377c38351f1fef09a6f, 0x53da14e5e7a25894a0b0efdb05617d4f0922398022d656b13d24ac31c66838],
    [0xb1e797eee3f15b88ce3a1fafec88da1d6329ac3c34712db570de886cf569098, 0x23d4d5f42b19c73015c0c481446416d929469dfa05ec46df0163b835b30d08d0, 0xc34142c7d90f966770924de9bd02290f2a25d7e627ec80bb3d7ba339d0e8829, 0x15693ac825018e52a0d4c3aef740c97437e4dc3331d552a1c8e4b8a3c9e176f4, 0xc1d7701d2b195781d2ec69c9c91b532a326163ec4fa2f0dc4afcc58540acd57, 0x29f55706b8105e02770e12158f34ebf47fa7ef35f2ca62de699524be584a17ea, 0x15948078ad1c9f08c03facc3daebcba846a02cd92994d709ae047be01ae1c676, 0x1fff985fd1db0e045d0ac983e602592bdaadc7ee35c696f55da0bcad75e20a1a, 0x16b370312e2012c15fa0c6b9619f0ce24ff0586c10b4bd02589d2b7b2dae4eff, 0x2358120a60a01628aebf65fc72181ff9a0ecbee9ae148ebb4ab4bdc9b216e76, 0x2f1a1712d5a7eeef8647c7a32c2c9491c10ec872fb7a8280bd5f360a3411cfc7, 0x23b8d022a8e866d4095cac47c7ba7111429f6c08950a19de476ba2fd836b6cf1, 0x139ad96c1432a53b6fee35ecd66f2b9da8ce4bea3ebdfbd2c4a75961efe0d892, 0xd1a3762903cf32fffb016810eb11daccbff2d7dbd6b2a447ad32f810d88893, 0x1e2fcaecfaaa32924f964b021dd552cac420f822a0a71e37c28654221d472b7f, 0x12102994668f97d887812f0151144111aeb19e748eb198c3a75a9965176f8f07, 0x2cb68b7e634347542711e393d188b6fc2eb0f6aab7a7cc9177543b3ec6d7d, 0x215a89522290e4cbc142deb1584f336ad401aa76d058da586baedadb4c0b7b9d, 0x508c70de806cb78a62250db957fe5ed69e4c335b86635be74a068f200768a],
    [0xb1e797eee3f15b88ce3a1fafec88da1d6329ac3c34712db570de886cf569098, 0x3f5d10d3e2dfdcaaaf5d2251baa6e7deef7fe6016e0e33f67413b576e78439e, 0x5160b38288f77fe866c353e3fc4bdfaf39b54fb22c0361c6bdaa645131dcd32, 0x1a1f53585e77207de93ff07741144e90b6f8858f6c68d52b62c96efe319aae23, 0x2c48ab25015e0bdd2cebd18df7edf7766a28d757827818c284f15302df3d0285, 0x3001d8c6b2c0a9c4e7f80cb2688f909dbb1bce96b7abb884f405158aca90ad9c, 0x14ba759b81b8115d220b3bb5e077e597f805e30d961d02b132ed6d6dde416d8d, 0x2e3b3d96803a71c846f5654d3bc43f69edd66885224a46f6c5b67967cd9b0476, 0x1515804d3972a797545bfd5143cd3d3c2b85b18b734fbfa60e28a7d8024cb8ca, 0x2122b140a17e84a1ce854a0f924abbb7941eeb8af8831dedee228e4ed462e38, 0x1efeffb998ae5510b386fe1687a04b18411e23f5300e26b0dae71a1da6a16ef5, 0xaebe0890cab1a8d389ad98ac4e56b74e1176dde08cd90b0b69037167d221c07, 0x1392810e135502a38d126a0dbc2cf8d1977357dbefa4d84484d36a4a6e4c7799, 0xafe48f0248af7d2f35057667e79a08c2c2bffd8225b6219d94e785c41a796e9, 0x198eb323d5b100e891e9327f661d15848df9f2e3bc2e34692b0c644ff091b62c, 0x29c62456a430517fcaecf1a752a55dbf245a88ccd664e1c824da61000919c45e, 0x2817a686e5a15a89212dfdcf69fd15fa73b8bf0a5c5cd893372a7deb18d1a7f7, 0x12d401440bb03153830e9adb349d891ae4fd80cbbe414250d9f3c2d71448d93e, 0xfa1b160c62129071551cfdc0d384b81866bda034159475cd5107b92044b8157],
    [0xb1e797eee3f15b88ce3a1fafec88da1d6329ac3c34712db570de886cf569098, 0x3046d1d934cca5a2f7039907e78cd8dcdbb50c5e8cab13a78dafcef27ba5597, 0x2d724a2ce967f1115a32a74ee7cf63760165fc405621008476db3bb65b346b47, 0x6684ffbc3e9a720f7ac9be9c867f2532240fc9ed20c21430e2685abbae63ca0, 0x1e4caa2fe0f585e91bf011c1755396d39dcbc30e94aa4ae3ceefd381fefc0d43, 0x24a9509908f6b0a4aedc444647d1de173078d900d23e2770b410624472bcfe70, 0xa444eb331e3a9d4f98039f6d9a7a45482ad85d6e9d0917486bae82a5047f729, 0xcaac550d739a7699d5dabeabd3bdb5e37449e87f07b95ccb82fa742471b8ef4, 0x4e0c67a911f80f93720ce27d4ce2815f7c4f2e5d234c259fecbf562f863121e, 0x1ff8f4767dae471c0c2a4c2ef44275aaf07e1e155989a5ccf1e10537f860f72d, 0x2f6863db06c9adeedb84708e3b7c091cf44b4251023fe8f6bef72d61519e7651, 0x2e788ebb5af871b9ed5e9fab07da7b58126109807e5915e6f54d7cf7dc79199f, 0x2cdafe599e42909bc0475abddf4f10a4f14df5a2c0f429bef913ced315d116f6, 0x1b0a72225d8796640b16fec15a58e11d4be5a9a473d1337fbb495ad93b432f6c, 0x1cb387a29a3345bbf6cc407a81958e61fe98f7708f40bb8b96741f730c7e7081, 0x15ef88ba22652780eb14b3ab276c1dea798361f7631344cac3e771a16910179f, 0x26893d124895c43a1a271e72a5f99c4fa9fce6ffa7bf6c31e4926a4efb888e67, 0x9dc58192b21af8f6033bd84e9f5d696c602e0bb4c924f790b27df7db675049a, 0x1d659f67ea472288e942baa853889e47435056a2da4398acb9ca288c2404c7f8],
    [0xb1e797eee3f15b88ce3a1fafec88da1d6329ac3c34712db570de886cf569098, 0x17812ce47ed47b09cf9fed086e7764010e70afef63a806d9890a0c3113fdd15d, 0x5bc448e17449644d41ef38b762a183d1f9c0bd6f6008b4c902ca3fda45d9e4b, 0xb8f14bac67ece8b1f9a960f436bfc6a75ae541945689bf78b89e2d768d1b1c, 0x6e843ac5711fe5e7551ae25506875ba9eefc93563d15e03f15bb5d6e307b294, 0x37c5948a6f6dcdd4378f4e6220a96e4fc27c8fdb102c6f2fe0988b199ad2860, 0x9bb55e5908b10cca78ddac3e7a880cf469fc418c8b0ec0e2f96220fcddd983f, 0x549938eec4ef16ad9d89081f27be2a2c4af49ae918988ae5574965b506f0126, 0x13b4215b89af0652d5598eb29b34ca980cb1a1eb44eaff0e83ed8b6ef5c5cb73, 0x2d8f43577fb26728a6f2305e2f868a4298ac5f4bebf8419f072cf709b9bf6979, 0x58782a9e8860cb1b60314d2b18e437f36c169b5362e07575aca80c3bbcf8242, 0xf6ed9ca8c19eab0c5100e7dff2a1e4d09b3c2ec9e19a9aabddfa4de4903cbde, 0x11c3ba734cc607cfaabc73f220cc21f2422ab5e31d04818137793092015a1150, 0x1ecbe5795e0f92f55c9784d7687271c7f1d99474a4c9f66fa41618d17342666a, 0x2ed6fa55a83b01452c9e30b9888dea9544c10db14356cace8dcddcdb0a2fd223, 0x79287ad9db6ce54e8902962f53403735a76fb7eaf2fb92e8fc7e6cec890885b, 0x2e26aa5ce56c08151e6c8457e0ca280a1cd8117e7b4fe6895058b964859d73a4, 0xa889a87584a87178ad4b8ee2230ebc06301c08cf8407e631e71d6467079ac3a, 0x9c2891001f2a119d1126659c30f6123f65be071bf93729d2a76d9bdd41798ce],
    [0xb1e797eee3f15b88ce3a1fafec88da1d6329ac3c34712db570de886cf569098, 0x51fce24183d75c4dd506c99b7be05f0d326a972645730c2a76babdd8c7992f8, 0x1094ccf4dbff390c02df760b78ae8360348f9ceb187059aff7dcc1a3b5d9e8cb, 0x2d4966667b830669b5fcd632c6f3cee90687341f51653aec9f0214ab5db4a847, 0x1b6e79f0b003e313be5fc611155d4322d1c56f22957bd201a45b53854291012c, 0xc9d7ef70784cc153f1a325031dbb8dbac58625dc7610fd453c17cf8dee3b489, 0x2eaba31d2ad4b02948ea76ed4d931d5a42683adb9edeb564d065363190e766ea, 0x3af6bf9c7eaedeabe073487509937cd73b00a8fa5aeeccd8d4a9b9ccca1666, 0x24d4c2116faf69b99c84e389413f710cef10de5cd87c041669ca51c21f3b6318, 0x1f5cabd4bd22948e2c5cd975f92fd0850731301e6291fce364d7f5d951157b0b, 0x32aaadbc1decf6ecf33b074eb63f5fd75bcf94af261ed3b75e049d63dbc66ee, 0x194830799464f8ee702d72e41ac3aca3c4ab419b02428605b00829948a201752, 0x1a88bf75b55c097681b6c07feaecaea5a7e7a84c2d9b549381c51c9b0cb64532, 0x2c7969063d1fc97a8d063049637ca6ba63a6cdd9200b95c1ff1c941c390b89e1, 0x79a0abd9ba495c5859ff6e10ce393b50c9f04bd92a9261ec1ef7f99f77e46cd, 0xaf8f7e9f3eac9e6e82bc956dd7c53bdf91272cc7ae955d734c8f9c6a4e7385f, 0x1f45d6872234334442f08c99bce292c089d3f34f4763419d02ca14f24c4b1b8, 0x3a4a9d99286b1752d6cb735b9cd0fa27d4f1b8f0a1521d18d1517f6148b677a, 0x19484e61180700e93699ea2a7d64814841cf11535480dbde83f6936f5ab68fb1],
    [0xb1e797eee3f15b88ce3a1fafec88da1d6329ac3c34712db570de886cf569098, 0x68117f11b7f8d736af79ab2ae3328e576a95d12b637b944cdff9b5758499915, 0x118a504d77cc49d22cf454a7cb3d9ae8049efe9447a78201468e90ce576da872, 0x1e21ecd473c3deacf25a495ebb4301092012529381b52e0d1286fac898e3c370, 0x2e38b65fab0ea1b8152773205f8d39e6b81976426d0d64cf48cbaee81818ee56, 0x19414eb55e2b2717e2affe4f6a520a87977e938319b9b49d02db373469bf6ccb, 0x1f04b3026adc9f2f0995631d4ee83ad3910fababe4e78dc8b211e9c72084ce4, 0xc1cee5ac82b0ba4ac8578c934c415a0f2a50bc7521d2058853b0a59415f6f72, 0x1a0b86be3ba0c37e5fcba4f8f33d0af3333cc3bfb74aa262d3d484cbd60fbfb9, 0x277f4d465b4a3f950592907b651c5ada6dbad43f7ad0dfdbaa4b5c0edbec7e4, 0x2cbc8485f96542fe22965a7bb768cfcf79f4cea845cd70eaac0f6c383f542fd5, 0x13b306fd43acac725673d286fbabe249cba9a5194a6b2062953b75149f02cd19, 0x19bb715b15ee11c3f973eea2656300c00d6d96576c3724b070f38a764cd58add, 0x2579c1bbae48a8bf9c43de695574e7d4576c2c73358b18dd15a1673528fa4d21, 0x29bb732726698d3e98745354beed55ada619a0d0e5b8d05cc29f0ce1bedf01bf, 0x101b8a972da8e777f74c68fc481c37f0b999ef0df3c90b6505ab2a6527c95d77, 0x28d282b4a80e8079287ad62249731647b36221be836c246e9176c6e243623602, 0x30f5a91d4bd3a7a00ccfb936619a49c9cae07fdd02d5f7281ead5ec765a5c68, 0x23aeb8d675cc85209a4f47d7ce9374c6dd1bdc34caedd947a05836f8f3880cb],
    [0xb1e797eee3f15b88ce3a1fafec88da1d6329ac3c34712db570de886cf569098, 0x13efe2b7fcf22b13dde356329022c10caf94d0a67e448020cdf70a2a1bac2de4, 0x20116d8a08ef558a247c6f5f943a982d94b63e8a1580c81a049ae62db7550d8f, 0x2d082ae4142d9cf00383067665261118fc20b41dd5e3844d95d283ee935fd9ce, 0x103520a0cf36cd976f2243249d25d74bd11b4afad705051b28f5677e7726d5f7, 0x1e820f7db38b24a06bbc3dfc78c47d040c9dff7d8ba0160b522c6313c107852e, 0x275832ae1f1cd86102dd968a76e57d3df95b5c1cbb1ef28dd38fa2bef749dec, 0xece66ec104a392cd7d1e5a11f16cac7899588ee5f523b93f779b80f56ee42a2, 0x174586e5d012f172439b4d437e58dfd9c58e7d29ed659a7471f0b80151dece5c, 0xcc17b4f871cb91bd63924098c54be2744a3131d8a9ad21b1a55069f005ba35d, 0x24e6611ad441830b7fc88414d4902bfa9043e60933a6d1ba6e12d6795c3c1b37, 0x9392f480df40275b9d639dd95f8a1e0a62fb3b162b41efdb5625c90155fd3a5, 0x19fd18a6a69d2e9327fb48fccd6e0549395b2c9362af152d9d7e9901c68154ed, 0x174bd47eb0d06dcc5f5121b04bc3c61e02a262ef3c77f11c548b8f2580e664ff, 0x1be5877032c20df6d798e8bf265fe511739db9d9b1042b2a9843a261cb5a53c2, 0x263fdff0aed026e3b8654e2711dce2aabdc81bf44695f0a6694ec29174392aa2, 0x1f71c71eb6f683d7b8516f7de5b5f0ebbf0a581077fde56843c0dfaff80acad0, 0x115b998963794a6c504dd65e1b7d99ff4ccfe24b04462b5788cce32861eeed61, 0x17f43dba64c1eb81be96ed641cf7801b3a45c614ccb85daa14a8153d4e57e6da],
    [0xb1e797eee3f15b88ce3a1fafec88da1d6329ac3c34712db570de886cf569098, 0x1e1c19e05021208ac3fdfe2d3f116c8e72ddd60fb5530005656683f528bae627, 0x2596fa2a97ea6905c598c64a25768fa5bde504ea3004705ada129f936ed946ea, 0x429be063b1c6a85e848627ce4bdb658eb148f89887b08e4699f37e1c4d63888, 0x2571cd3671bb7bd7b52cc19e2291572e4dd8f8d077e295a22907d15cec049643, 0x23e2edfaf71fb3796d9f00bd618d48df5454e6edb91a509d173c431668c494c, 0x1a9b4db70aa7cd04e33a10c5f4188b7b7546ddb4b4215611965194caec7d961c, 0x115d0f27b177d1bac2960bb00feb3be427e4e0184f8f6324d0a06fb47ae2366, 0x24158958a69587f1c15512552045620f1fe1569c9f3e3668ed06dffbf0a73686, 0x1c6761dde78638d734eb9eb1a1b33a98cef7efa4255fc3662bae703182c01fb8, 0x2750d8eade4dae97328c60a645fd3c8431d96ae7482a818b0ae3b4cc46b9bdc8, 0x1fd32b82dcbeb8c048e9269c2e53002f6b7fad13aa737f386a6cdfc1e2c5a9e6, 0x594fc59fe25d24b2545c6650795cee8ba30d2ae04dd07b5d676b089ddbefa9c, 0xc84ab77e8af0ba2da61c55b53cf3534e766735740836aac2427587fbea5c8bd, 0x53cb97662f38bb4b44b958d4ec02f8c25fcc795969bfb079e664b87cef93dff, 0x1603ca0816ddaba4cef9853184cd3a94d6c881b73d2d6d893db88a48c3de3447, 0x18ea8dd9a27ca4410a40bc8becd0b6d42338881ac4c31a3ba7caa40cd1b56131, 0x1a527748bdf0057723c86acbe4909490d3e2415647a82f1461a42f3296bf4c07, 0x14175f91c0ddb823543a0167ffab7bd8c50273090aead801da30b25f4550584a],
    [0xb1e797eee3f15b88ce3a1fafec88da1d6329ac3c34712db570de886cf569098, 0x25f932ba4af84ae43ba5291e604cf8ca5fd208fd16b78c38eabc57286298d557, 0x25475d7d649f8bff2630d97844bdc0fe8df6efb89baec75e5ab9bdba2777d431, 0x89f1655b69d28450d05c9dfc610305d46a77dcd50eaf28042ebc878caf30d5c, 0x123980c7cf8538b96942135959a4af1708aba866cba105e1f5a382e9bb6aade4, 0x78cc219ae73e2ecb4025d0e0d90cf09f82f948a63243ddc062872b1070b6b30, 0xcda20a3684d79a2e18078fea3261650a2cca213f705b56eeba2949ca203b816, 0x21b9c66d1190ff2ddb30db322ca2508d231f7aaf8f7f5f5b95bc1711a672ea6b, 0x22016741afc2d1ee9549ce4b74318bef293bb2b2d6495d424cdf700060dc813, 0xd722902b755cd16c7977247cb28068a616adeaa13c00b1e2ff628c892bdc6d4, 0x217793a53d0ac28751e3fda8caff3f8003b084c474e2458cda30330e338e22c3, 0x2d31e0c6e311f327b0e780f291a81e25aebd9660648b0ff51fe8851d29671cfd, 0x216d14211de9aed77200602ed78caa665a310ee03fafb5b993ddbb5ae2230f83, 0x2681c24a56759b77d5e0a7afd37d286ae3422745564fdc15d25e0dd158c9f4e4, 0x1e3b6edad3fcbd9d991c34f5e4d838fb76c255542d27f82d58989912b5bc7dd2, 0x2eefb7b5eb265aa610c4356f2282dd92a03744a1b8484dedb115321df7518c2f, 0x5a848b35a8e270224242f52686cf785d9f11ec3bad27529c02f6448a432ec41, 0x9ff782048c9d9aa8690ed707e82164ad320e1daf646a3b30421f03dcf772423, 0x2b294de4467526f4914af8f9895903124f2a91249c23e8d012a04e3b6fefd504],
    [0xb1e797eee3f15b88ce3a1fafec88da1d6329ac3c34712db570de886cf569098, 0x27d44f13d66a77a645f895ff821ddcf8cced8c8af984dbb8cf82b84653a5db10, 0xe50c72da36c1a968102edf30c6b810795d41ce41c49783028cd0830acc37c98, 0x2341aeac831f989ac84a00d127c0809fbc0040495ad77e1d1f589cebe120904, 0x2071faf6e96fb5cd4400b6c58eb4ff5e527bf7d9492180bc2f4534cd0ae0679f, 0x14da2ed4e175cc095a8d68ac6e7f9e2d702e82b1791204921bc4806b157be02f, 0xc6232c7e84ea35400bdc0f7b8d0cd211fb5186df1fe8e927bc51ce0247d13cd, 0x1f65c4563e9f61ed7f7f2eb3fedcde581ad3b660c5079c16e7ddb053facc5396, 0x144675f4c54bc33e1bd7aabe8685c740738cf1c7891c5c659b07c6281fc67a8d, 0x14ece2c3c47e0435cbb019db4708ef6c904b4af975d729a0fcd75e65abf744ab, 0x118f931e904fffde6ba4e22eb0429be857819f9fd64f1273253b3f152fa18b0e, 0xbade4f966d523e4656c44854982d4546abfe2f5dec203a45cc463da1093ce09, 0x1783c94f37d6d9057a1c2e78e0d0f78efeb161a14dc2107a21661829f135d226, 0xdeaffffd0feb209c00793e5f800761b5419d8725f4c88286eab224160ec43f1, 0x8746a72fb64c2cdc1ef14613cb535911394a29c802d4a6a94cfef844610c609, 0x4882711fd9c5508fdd0a1ec5a2a0810b93a6cfce441a192047a827f58ddb2d3, 0xf2b738d3eb3b803bca325347b7af954cc10492832479183808b3aea72435c2, 0x2b5d5eba00e09e21bd9202d72e53306361608eddc951ac1f08a53dc3bc6e955c, 0x16d96e78a6078437404b5bf21aacd5a43d23ddd5bc2172412ad36390b3ce4512],
    [0xb1e797eee3f15b88ce3a1fafec88da1d6329ac3c34712db570de886cf569098, 0x2f6fd52b25a9485df2878599be34808517d5eed6c1d83ce497e1a9ea8d1c3844, 0x2f0dc0c61f11a53d419b3fb805fc2d476837c53c1c990c66fd1539ec9d2e4e44, 0x1b004ab51f77388c427453263ea600792a6be597e6f736509c2dbe87d4a298b1, 0xa690789ef915053a2ed12aa90a8621340337bcae525139c9e1ab973e1bf8881, 0xc925171c7431dace3626b7e5036dfa622bc08747fe849d6a6ae5c831143d104, 0x27e2a355bcdae99405fcd39ac25b9ffe773ae5b0ed9a87a9e470715fe2bc271, 0xd44cd56f0210228281e116260bc8aabf64fa0701601e98781fbc6b14faea9ed, 0x1ee8d9f2950080571a9605c7b454c3480e64876ad27891241b8f62d71d6ebfdc, 0x13edf09ae8addbf851e00d79fe8b990277b431d72ce0d9b48b55e3095b483bfb, 0x1d2c7f3a44dcbed040fe5f5dabd49064622c34af68c5b4afecf631fd998de93, 0x17e04fb5f49c12a6a91bec113708d943cdc774e64c6ec431bdbda3a6c1c0f57a, 0x21d9dbd68c54cdb2ea8beaf7de31afad1cd404c478c62e8f59653895909a18ba, 0x276950c5f6c44bacaee68fd94f14a44a07a0033515b10a76203ab2b12bd60440, 0x2ca5b12a8ff6ee0156650ef67333a07ff08b156454897b370734c4b98977c6d0, 0x2379fe3fe77b505f5fad59cc93f5fed7624e99f5359c30d56efcd0915460668, 0x10e790cb3f6be51c0b4fd7f6e29519bf9bec842ac6e0f6f5584d5cc1431b5c56, 0x20a94567158dc5f7b21cb0358dfd6fcf75abdd806b150bb4ef55756701d568ec, 0x191a6a82b77415d9a305c90b8189e93ad9d915a411a544d0fd090a157113d557],
    [0xb1e797eee3f15b88ce3a1fafec88da1d6329ac3c34712db570de886cf569098, 0x2ce2a89b4c51f97166c6adb43491a88c24a3276110055a0deac88f7e71f976b1, 0xe85242efe6b78087e6f76495c7bef828bab7776b3b6f5b4ae77b9a3d854933, 0x92654dcf9e69fc2da394139bafb0592b4cae24d00e34981bddcd4b089dd948a, 0x152d35166a3e900ca89d58fbdbe99caf3bdb1f984deae8e02cf703dd55e78a6d, 0x250159b61c5e545befaed62a349cd00e1fcd3ea588f29ead5deb675a0101d936, 0x1e66442753c8d95188bb9f59bad17a6ab9018f052ce8e1de58790b59bc4cd7c7, 0x1a91965586db156cc0d4fe08208ea762030e390bc498435d3a04d41b95e854cc, 0x205d22ff80ffd23060ee1aeb5050c709a63a4eaba0847ff587171db7d9ef27f8, 0xe92e1e54bc59e642a77b5333ddbb2e15594a1956a3ed0e2605dbfe4cd29dd9d, 0xecb39d5fb42dc2dc2f2b74c13e24307a1f3be67f35ab79b0ac974eaf4a0c41, 0x77aebae118635d5a0e0160df4961f3c5b796887d878ddcd2688fe1d618150ec, 0x2d0db6e2eb4386d10a3719148038523ebc7baf66dc538818b0b5d843002e07bb, 0x1dc7e3849dcf39a59aa7a87ef122afb09009aeeea37dbdef6e850e57ea37f604, 0x97559815d3b62c28056095e39c8b1a8e366bb8aa42af85f673e45273d0ae1ee, 0x7e08fce9a5121c2188a96e591b92b958da520778ac0bca67b59da2b3b06f0fa, 0xe3d58fdb4543949957ea33bd03e3abbfb109a1691de6696419d4b1207f542c, 0xc991fe43818ea306d3b776847d14f4019bca2070d200e07735c62da31a3138e, 0xaec16bb8df541908f11df6a64c676183c76bfcaf7748c503d6099acbb3f2a9c],
    [0xb1e797eee3f15b88ce3a1fafec88da1d6329ac3c34712db570de886cf569098, 0x85b7265354e883298caeca1761cd19e2c5c2119b36c37d6f5d666ba8ecbf19f, 0x10d7d5e67042939ab9d5eed4d520c3fe081f9ef97b3ea8f7ffec5d5e1889e031, 0x1cfac1f08b7bc16a7482dede1d624a8637eff2c6f5b38e5fbeda6f6bc5cea6d8, 0x6b10274305c15e9adb7f7fe7cdbb4071c1e4968e46e461c6642a861d0ee68fe, 0x2cf401be1c32c95cde4ebfc65cbbea9c09f9632239b314f53acc63bf37d86a56, 0x2fd0c9ebacd03258bfb689a7a700d43b1fec422b22299d73e478801d9533a36a, 0x4ec21b44c21c6c358789f92b5d126597e1b60f05050975b924cd7042087e630, 0x2d42130581a19be2488f98c4473e80511c275be79f5077db40b74b43881eb4db, 0xdf73be8b64e045f882edee4f17e9da2c5f25b2859e904595844adcf3df8f7f3, 0x1b05101b32ca2be2837624bd01f437abcd43cf6c4b561052e0e6df3d5f0ee39, 0x8a4f42ecec6f626427ce116b20f3405898759d0531091a87936427a99d5c919, 0x67eb4a3514d45d7e6468f85a7a606eb86395bef7b23018f25e133f7416cfe65, 0x3037c22112964f6f3d8e4a607f1f35ee562d505e4a22fdf24b41e6c03e506785, 0x23c4745c095e5970dac166326b875df52d94db0c9456b5afb55077d92996a8b6, 0x12ca85b142f5d2d2d87b44b4f190810b0a2ef1cbb96ffb43fe4094ac0bb450f4, 0x262501f3e02e6a5c95bfcf11749917b22125ff7d02ecdfdadfa374a45173c662, 0x2c3ec00db9c8e44aaf94ea99dae52f7688c663f0b42d186fc1d030813a4ca1b4, 0x120aa50356c54653eb5399b101bac1eeb8d728626800003f8858a183cc1320f5],
    [0xb1e797eee3f15b88ce3a1fafec88da1d6329ac3c34712db570de886cf569098, 0xb6c1dd3d2dadac79672ca69e272e4dede9b2bcbace5d12db15fd6c855bcc7f3, 0x1dc5cfb71f9c9ff08886866b9270504c330bffed807e5f608839afd49bef8961, 0x2ba9c16f49734f3bbf98296629f2a1a4e6d1b10063193206528ea39b11869cce, 0x21c37ce612e1b0d5fcb0271e20f27c062dd81f2c8efabe92c73f54d87aeca299, 0x29ca29c57a516f80006150ba546d332ace95854d3dbbb9ceb57a80f221f45b75, 0x9644e84f727604d62f2d77c2d5c1897f8b90f362740a8c6eef25ed898e18ed2, 0x18488a89e78505a807ffca282555f117bc71bfbbb9443d7d06e3060d9798728a, 0x17f99a49abde27c74d8fe51bbc0a223591121cb9c0efdb32a6ef4bbbc976049, 0x1106936fe4d91cad9dc00af8b85f8dfdca9298ac4207788a47c97ebd5adac9aa, 0xb19213f24f13dd43d620c6d4fe77574e3ba66807d606f96055af06344a953cd, 0x284fb79d4b5bdeb823b0a7e93566380739c2ddde6f2c1cb102f491389af88601, 0x2bee8122aaeb513f5cd47546f15090cc6730e39d28df08a9ef4f0726dc69a1d4, 0x109712b4385f9d1941bc8ed4cbee06fece38379f962681ff1f49f2c7577aaf01, 0x1cee8dbc9e7c22eaa815aab454705b2c2b61ccf56bcc5181d8eb9acd08a4b708, 0x123f9868d7ebd3d7c576a79f4bb3f0f6f8466aa50c642b2b8fb2938b2533acb6, 0xc0fbb5f96f795f870d7a4affa961ab0a80a95f9814f2231debbe27352088c5a, 0x3b268cc3e3aad22d4f8e5edbd7c5179e219201ba62987e3b4a5aa484a30c651, 0x2e3ff582310fb1449330c0dfed129154d2f8aec3871d2d593b73926a70d8e5f1],
    [0xb1e797eee3f15b88ce3a1fafec88da1d6329ac3c34712db570de886cf569098, 0x18b0d069fd19a7ac7776eb39fd607c75bd860a3b2fa17f90f1c016881eba042f, 0x12f75e7771d5d27c66ce2bf10cc3e3d6d542f3d39f1847e2fa726386ac83c28e, 0x107b04155a7d9c1881def05be1797dbc8018beb8fadfc9935e569e2f2a2aa474, 0x17318bbc96a3594382626c795cc986dd77a81a983bf0bcdc9aa59e6d71a59, 0x132974c4fafdf621f1fadc45daef9bfe5a92a1b59d33056448a125ae2654d20b, 0x258538ea87a962769068037de62fdd272eab79bfd68489fbbd478a7cb72e068d, 0x2cb1201c76a7fa15f79b9ba6ea261d17e0b62c2643709e0f984c937c42115e2c, 0x2e65cfe91bdd49c663d8749f335176abaf6377f582d48484f6748e24cc816647, 0x2cd3d763fe99f1b6627e6352b95ab5489d191d0e5d41df07810fd7c52b9db26c, 0x27bc4a5ea2a66172650286cbea4ff02ee1869e854ed4fcc270c8679a38cc8ef7, 0x88ff579628efad419d54070c10f57b7e69348ae96ad0fd68b5daaf303ee96da, 0x1cb43928e58efb24ee214ce17d29752fdce31605fe517609a60f8d2edb3ac6ca, 0x1dcbf79109a7193b75fd86b82c1590b31abb899d0fc5da91e43fe9cefbe45a4a, 0x2758dee8dc30394bbf30a412c6dffdb1c7b3c1588f4a93e9620db80265e128c3, 0x18d1cf4a6c8482ec7330af0eafb66fdd2e4289ddfb61c36f76fe87c3648aafe3, 0x2485597cfdf560f34e11989c881799ceb14143e0d5c4de20ee4a407904cf1e05, 0x6151f2ab033782abc7bfd3aaec47dd9c428681acf32d745e37d0be4642aa764, 0x6d2e5ef950f679c0195dfda3966ed8f2db4ccdea5739731627c012a453a9d99],
    [0xb1e797eee3f15b88ce3a1fafec88da1d6329ac3c34712db570de886cf569098, 0x2d3138fdcbae36004b71f47afa0ec092b328d2205d4952b47e9c90f286787d9, 0x1c8e178d93f93f9cc56b13c437128dab31456360dbe2415edc316dd0a4cef579, 0x25bea2246bf9516b6fd6299407d737b445cc6e2f158cd5944c194852cc32956, 0xffdd4b3b72bb34089f3b91170fae0a6560efbd23ad5c76bea5e8ce46b7c9f3b, 0x7c622418ddbf99ba65d8ffe6296f3907c1589d4ea2087034bcda1f7c52218f5, 0x170dbdbc927d2213df51e928d1288f1bb989cbc074537cf64485b5ff05ab8f0a, 0x6111fd3b375eb2fe504987aee580cfd1acfc7c39cb7a9171adedaabfa2656a2, 0x25b706a850ee172c03d98a8a1a04dec56d264d07d7995a7bd3b50996f552f9ea, 0x13a5b2bbccfed9c5c5f846496df832e8b3166104a183299b87cf2e0dfff8964, 0x256b7b5635f25f506009162f09e2aeac9a24a22d194db0987e9e0196bf805ee2, 0xa0d91ff25cbc2ef3a667475f91299ee679bffce4ece8eadf3ae0e86713e6c4c, 0x1f799a5f2a9fe2846d8fcbe9fef4004f2aab2cfbd8380486985787f9e82f739c, 0x8f8a5d38982c8c9eba1afb2d463d9b87cb412064271a6d721823ba76b13786b, 0x13f2f9a571f61c75b4485d9f3f74d84222f1d3258f5446e9afb9d82bbccd5c5b, 0x1ada050207bf232b77af0445cd3ad24ac2856a32df135462c196b718a4e2818f, 0x2270c97bfedbe3b54bcabf5df1b60fee20cfa8b1dda8ba4c832b580d71930c59, 0x17e429879da51390e1253592134df6fc0e6149656142baace891a5ac0b3dcad3, 0x2ca1a03e86b8e8d2cdc32f998a9a2ae3d604104dad81ce44d7b70b7d2c147b1],
    [0xb1e797eee3f15b88ce3a1fafec88da1d6329ac3c34712db570de886cf569098, 0x179e9cc5ce81c3b957469968a01d8f4155d1fab43566892efeb4aac8e730bd1f, 0x245436e222f18f0a95c5edfdbe70beb3cee0bbe4357c0ad27ec637b8276be10b, 0x12082995e500dde2a8f5e3db03cfb08fef2e717c59536b6a48a757fe897af0b7, 0x1ed351a76be7e560be38729f4c221d52e1b2e6b1c9a9906925d9d7fc659af29, 0x22cea0520bc1691068292d1320ab844c4ff641bd0f3f8b3bce4e50b5302d4291, 0x10d8cefa20bdf64f680f9f65e2f7f1181485743849125ee5009bb535fbd6737b, 0x7cd86f2f3733907b2893e812f536766b45c7590516b8e0da820af563de5053d, 0x18f7e2b8ed7ea1c7ccf0675a588747409ffdc5e0d9a1bd80b54bf47833ba43de, 0x11ad65aaa14357d137232ee3e2460a65310bfeba447590580d165a80bb87bac5, 0x149ddeff968dd3e4873a88f82aab2252e424934d62cecebf3c05e04101232c6d, 0x216e4879dbeb136adcd2e2f9c79d1a899123ec8921531fd19e8f3db769e9b9a7, 0xb32ffdc93ba89e798035496aa0f0e5f35173420d9605df5c29176b9c8fea9cb, 0x10059787e4b7b91491cad89e95af648197aab657bef0347224aafea1bd70f0f8, 0x11feafbb6d30aba9905fc46b2cfa8bd5a1cd6685c3411924f652003f98ce61f0, 0x18737f1b8ed644fcd203182f9f71ec606dfe5722848319eb06addba0862192c2, 0xdb96451b25bc2211c315c94b7396080febd132e48883ba5be7c6352454b2531, 0x14a12c8868c6998c77975fb80588dc50121cb3fe9070179f48ff086ddb44cbec, 0x64f7699ab015d1466ce5ba0fd8a92531c592eb91011e024e3a90dda0d38d3c4],
    [0xb1e797eee3f15b88ce3a1fafec88da1d6329ac3c34712db570de886cf569098, 0x27370d48e084e132bff2e3af0f91f787a9648ebd4fe7cdbc1cedec26c11cff0b, 0x16f9385f9edfa3dcc7c06b94ed2c0d8609451634db5a4e6e1997cc144e1415fd, 0x148bb2cb914552eb1ce755beda59e784541d31b0b9743c10e7d6d798afcff7d5, 0x2e9181388b5eb930247bb3bf036adace30496887c3fe5e51a08501a57834d778, 0x45e39ea727e4ff254ba2593f698f79e8e4b4f538d1b263912ba9f0d572a8eed, 0x1174f11359628820efaa3cca1f5f19974f475fd989692911a7dd59754df86a59, 0x2ed2ce65b2ae9ab3e5c33366e50e7f9a2622b21df40b38e6f0606ebbd6399143, 0x14a902e483b773bd59d298c316ba79c4abb6bf6e625312672fc529ad2e1334af, 0x1e68f7bd5130ceb11d06b8075b2da5fd09c5e2401fd816ccf5e6b14f3ce77b4e, 0x29827cb7a70ff0095050678d19f2eec6994c2db9aac20c2328029b37cc1d94e, 0x18b67ae206c91b0907dd5cb14430d2d00b7ca10382cfc464c9451accb64b3da1, 0x1bab9c538b70fbb24712c9c9fcb250b2725138131fc8887dd31c0ee10d7853, 0x1bb888723fe04304ff56a7c1aaa2a13edbb8c6d9b84c95c34cfaa32c44cb18e7, 0x15b938c5888d46730f0efb92f3829ee53afc9b4b9b3e2a58729c31f21c078085, 0xe56668d5e18b59ed8afb9f3b66f03bb0d8d0be49b2ff0ee4cf05802a6840a2e, 0x286d890c9e0b00dc5a3185b312d61f861935f4cf230267dd147843d085cb9814, 0x169b367b1b5b432d3e5f13374bb46fee87ebddae52745969b4d80b371a52984, 0x2616061981a127f1f90517d00c67ccf537e6a1e60f76e2c18ceca5b4fdd39ac9],
    [0xb1e797eee3f15b88ce3a1fafec88da1d6329ac3c34712db570de886cf569098, 0x2505d3c4eb01aad3e3759156410967fcb1309f9028133f32b61fe8dca05e7039, 0x6582da47cd85c00d4e318a61669afe8e1969d2c486e76ebe01968bc21302418, 0x41b8979d269f6ec28ac184c5b2f02af58c26351c6cd943cec6adf2369cdb1e5, 0x1443d53abe81ab259cbbe0494e98dddbd8284c1145321c2fe24b0fe672cf9115, 0x78377bdb2570000965c2505997614b99e6affb63d0f8ac1d8909ffc8c2b7826, 0x21343622cb874753f0d2c35633e7877c6f2f35247f080a1b0ef7012721579271, 0x2726e864c23bab466a4e2e9c1e6c90bccce6114a31f4283b8a87be3eefbdac02, 0x8c3cb7979e51a25092b8e3667b5ab696327cedf1db257537071a718d7a4a347, 0xeadc7f0735863ae63f6d3a2d980cca143ddbc94203075b1a9341fb52b54e7b6, 0x302733698edfe476ce1360d9dd8885e2fac48f10fd9b6aa494ccc84663016071, 0x390d135ec3fb0cc6bebb4ffd755406169d4b71ab559edfc3d03da2739f99c35, 0x29814b855ae75985f8c5a6475383bd701e5279d430aca51d87671614a2eec37f, 0x1c8271bcd402c844d59746fbb8c809265247177b175fc929101de73f741709d5, 0x2ea7af5aff4c8335a4556b1e621c3fb76e507132971a4452635d76310c241990, 0x3758c3722cb764b0eef270fb45c6c76b9d03816b0feae879a3436fdc9ba2abc, 0x2122e9a87a29841216a1c1e5dcc02363eb1185edc68f6eefdb38fc43454b588f, 0x2e5132a0aed649314c6665d51926a7a15bdd6a1a5c6f5134faf96d52caadd140, 0xaaca5b7aa27811dea3376af9fef0cd8275e8f98e235db83ab1361b4c49a834],
    [0xb1e797eee3f15b88ce3a1fafec88da1d6329ac3c34712db570de886cf569098, 0x203898b92bb3f8344f220e9f0790ab77acd669b383111e300fdd94d560eb661a, 0x1d55edcfada4cde82093e306a8a85e703e70d62f77f83aa4158c7ae06558e2c3, 0x1c57ec21152ef1becaac482ba2cd28adce9bce68434b291a73dafad3a2a4ab1a, 0x2c77f75ff6857d39dc5e0ede6ee9b6574764e4ceb3d2235aafaf9d8c296bd1fa, 0x264024c571ae242f530a593ade47778e04de4fafc1998d04196b3f8dc466b672, 0x123a17496bdc1d2ece7ee0ab1632b43c278328056b8609eebfc76de77780e8b3, 0x15d806ca8c7a7c727e02ed3aeb1210453d4d39cc3f2d188f421b58b7fb9b5fe7, 0x2938fef22503472ffde7a36b04c4b36b639064aeb9d77fdebff756e82ed8e6f, 0x1d5bd19b2c05765e3c4b83781b4d0037fec97bda292e3167002587051efd0445, 0x5a5ea7612d82dbbecd031202c5503ab73cf5ac0eceefea81ca45697ad5dfbae, 0x1dff1bb202e9a71287d999a4436ab81298e44daded91984d6422477266da4fa4, 0x1a65f01a835cc6df08fe1168ef8dc72e04f3c84bc4129d8b1c57c7055fd528dc, 0xc6bfebef542cd78b44786f865317d384a64ffabde52f6a5bc29f405d3e45c49, 0xa06a55ed8f52246944ba9e1b351b0f04e95e8e3c80337f7bf4c4cb3682ccbe1, 0x237af0b506f0185fc81451144bdf3ccdf7b66cbe1ad77e2ce4212f62d6271006, 0x1d6b421f3143a560e5066eca69e6939c13cb2fb22bcdbfb96e8d55af76d0a7fb, 0x1ea4cdc48eeb87bdc70e034a0ee1ce699e94b5b1126776f3bfa43c2facbcaf12, 0xcfe1b82dde8c5eb500403f5ddedf6165106b28c70cd941f1b65e49725335b68],
    [0xb1e797eee3f15b88ce3a1fafec88da1d6329ac3c34712db570de886cf569098, 0x10cd524d82fe05ba307dd3aab96a838f6b1fb98e10e284ccc8f8b2b9585a647a, 0x29069f8a102d5fd5db23e1e81b42867620f6af7e64b36f7444176a9febaf9a1a, 0x3021dd41004ec315704a8d77ab12c93d89a3baba330666cf8b96cc8042eef1b6, 0x173dbe8f25c7fa7ebb28578e0fd3103fda835507d8b53d905189757d6638eb50, 0x1ec7dcb5fd4210ff0361f44b48f4818dfce283dcbaba35c96d77ec9888f43718, 0xe52deb0da59b5f92497e0ba6a2a358342a8d731ce2f8c19c8df9d58ecd818d7, 0x77276a2ab3c0fad69733ad1fd53ca148350ba77681b6bc98a0cc52bed3ee671, 0xe62986c860d75a4502cee8d7d8932b7c77a9330c4b0884cd7152383cf21301d, 0x1977e4ab4ef72d06317496905d6cde467a424f82f7491ade88b7027645c05600, 0xe5fc86e5a4aa5897a6653760a4e72555f0ff79de77d4de9f5aa20db5afbc65c, 0x133c080c57426c50ae24fbe4145ecad201b964fa12abdf7ed16ba45bb76c0d56, 0x9809f0d9404684e91754565e4ed714b4853b2dfe29e44aed4df3df632f9664c, 0xb9ea2ad9eb74df89ef8f3132245aee0f0d0b3c91975aca7660071a8066b9fcc, 0x2bb6bbb4b8f9011e6167cefd64bb4874f6527a7eacdaa10ef403474e332824eb, 0xe7505f5d74a168934234e8a83b2fd267bccfd4e6c79dd64fb024268dba03ea1, 0xa96e9aab6d37e9d1a4d3e0ec375ed16cf201f7bf07d2db66c43d48f7dd06d2e, 0x19109a9f6cbaa378475c1ae70ad79d2f83100b33653b9a16bd84cce3e651616f, 0x2455d14dfc4e34f8b2f0c411722c66ec626c1727fc695abd1c849780bd746a0d],
    [0xb1e797eee3f15b88ce3a1fafec88da1d6329ac3c34712db570de886cf569098, 0x2720fa35b76500f2acefffd7ebf331c17d96a400b4084b78253e3284f942f855, 0xaf8af05904f43895b5e9236f1782ff4338cdf90b962a3ac0d086812ae628cbe, 0x25f57c83e4d1831829078d17e98537d56e3c3ca16318f2792b71a07055b11f8d, 0x122275903e7cd0419e6c815909fd6b655ef0f3516f9c9767ef7c7eb3d8f22465, 0x20da2a3fb1adcba29246bb19e16ec3a9f51abbd59aadf30737ff92b8efc61ee0, 0x1942ef506c145d9b15ee431212e1be7bc2861b49e7e68c6ac9dcee40344749a2, 0x29c8628087cf8197c8538332d6f0253bfa46480244ba31e30d23704022f55a13, 0x23ec0870cc4460faa687538179bbb9f395a1715195e86a6bb5240d5477ef3193, 0x220e9648212c6250017065d86188b9612f73f9039803bd329ba7040a9e53f14e, 0x1e424309dfb1a00240f4dda0e4ddbce8f4ff4a57017fe888e78790e7bce6e92c, 0x22dc20b39997ba1b40288caabd9dfd3e9f9dc4fd7bcd9fd11079bd602a2fe535, 0x22275186225901c11a65a53e0a89f199541fc1212b4e96aa7bd3c5bf875ab52f, 0x17ad868f1ce516279d8d50fd809a1c40e78010418c7aa4ee6a09f9b523a2a61a, 0x27dff28396bef2873c44964b33b30e44b27a8fc1d08a09175f1cc9641584359a, 0x9022e1272e97e9aa32634bc3bfc10224a2eed161b9b60f101595f8df207cff8, 0x10e1f1602cfc30dc4ab3920be41ec7daf5bbe3d96dab568aeafbc350c5ee934a, 0x1b1aa6b279c2a5fc8dd9a622891bf4878aaed7122fddeec0a20bcf2f9da868b8, 0x283b86d8cbfdbc913ffd3849a5e70f92b69f5f7917a0401db92f6f1ea11ef2d7],
    [0xb1e797eee3f15b88ce3a1fafec88da1d6329ac3c34712db570de886cf569098, 0xd21897ac3d9b9e3be9e5d182d1ca0441cb3b92776df8798362a4bb4035aa424, 0x20b3d4db18dd6de3efb359c8e60c86f1d21c20e7a9f1dbe67c4505ee7a3bdd67, 0x27db9f494aa78c119ef8358a8b122f4aed87152f92391ac9d187f9cecb07237d, 0x203a42bc685316f63fe61c9146a7426525fff758fc625540d9ad7a5602c6cda8, 0x2786086cb07a5e84a7bb5516818a0139fbbb33881cd289a36d55dda334f0dd5, 0x17197184f893d19475737bd7202447e5ef385d2b5f0a5e75533cbbea61e7d791, 0x505d0e83c6b5bd0ba7da5059689f8f448b27321c23ab4da273db77c954d55e0, 0x167393ca748cc53ebc1ae07b28ec6a3a2f0d4113b4bd302cec7c0b398a48715, 0xd479338ab58fc837c9197c0c1c5a3ec515cc52a1a9b2d42b7a3134f2fa13859, 0x21c2423dd4c9fd1d183de5619442f91ffda880143e43f16bbfd42806fa6c7417, 0x2cf480612db52dc3cbcd0fb630a07a92e2ea594304763509450bf2d199a2cc55, 0x71f821a426e22b9a20cfc997f266c5a7a9bb521f6a7353e25dc163a35c07522, 0x1461f8fe38f4a760b4f4d09b51e6a126d4c5e9ea529eb18c7c94cfadd1ed45fa, 0x1357d0271c479b5dbfee4a3cb14ddcedd8cf50365a31166c5462acae0b72b38c, 0x2b328c0d80b8e81a1de5804422b454f019947f4cc167476ae5ac14862181abda, 0x2e3b540ace24978dedde505b42c9bfab888ae08d442362449012e0806891b93b, 0x1ce4c3196ea44d6a2aacef87560cc1df5d652527f00924c598abceb3fa9fae01, 0x2851d688c92c184c79c18d06e3d80ef439074686397a5ebf0800004ed10b715d],
    [0xb1e797eee3f15b88ce3a1fafec88da1d6329ac3c34712db570de886cf569098, 0x196637f7373413fc37b3ac318b969590ff0be31ced0513dca26a263d5dd965d9, 0x174d93a947b4b73d687a5ebb5a4fdac7afce1d9c34af4feb7ffc41be2aa210ad, 0x1a844947654e868c7ee686ab18a2224639739de7ade503530f19e2743f3640fa, 0x2ca2906ae9b528c0ff4e3e3257c8d319f8c1368eb73a80ab26cdf1ce15cd497d, 0xa94ad92e43366cba7b3db85cb00b7b950f1d221f05642cba4d9519a6afc9a1b, 0x22bbc0a3d2c1cf2c8556116779eab7110ea892f32dfb0ba1db5ed38c6fde17a9, 0x1e04ab6b0dd11b6c3f59c29bb6fd62733161d74a9952794eae23df935454357d, 0x229f3e8f6afdba218d948aeb539787170f4e836aee874123698c47fcf37c175a, 0x995cb64172f8220d642030a21f1d525c39724738d58054d8cb6ac84a16aec03, 0x12b8663b8e3a6bcd9e2d7d334c88c0fd315117db2052793a7c2434776efb8358, 0xe306e47bc917fa7e38db51ab6102290228c40250770884029469817b112469e, 0x290d8cbe5211d46c41f561e89988de784422a5f75088d0cbf2679d753af7ca2d, 0x1e0aefaf9cd8ef424965e8ac51a7562e11506da29886ec17006b289370ec77d2, 0x4df18fcce60a87f50455c9d563db8f7630a0dd63c55df4a3f549ce98663649d, 0x95973dc58f6505b00c033973bcc95f1d068c316710b63260c75e300e8f20f98, 0x1d18acab418de031d02587a3df05d9dc50321e206878959871c7c2681d9e9ffe, 0x213d73843dbd3c4e90fe3ff4afb54f113a94a1e94ae7c93e062ab7cfd7ca42a7, 0x13807261e197788f606915b736d04f3127e3a532870f6a2885a09e47c7a9bb03],
    [0xb1e797eee3f15b88ce3a1fafec88da1d6329ac3c34712db570de886cf569098, 0x250b609ce88f0983f177aa4b1293825acf49cbe1ccc1d0d2218eb7b54d8720e6, 0x2a3d7388587ce77ad142e1762efdf17d8904edd69a6a90161b19a806ca2e5361, 0x1905f00fc3b1cf3fadde47cb7e1b25bfd0fc503fa90b34c13b3b1d660fa8478e, 0x28d30399b0b09d77d5113875af727910162825bdf73eea4dc375729c8b1b4415, 0xf6056c7c8bb29f47a2337228d5bf342fbedffd5237d233b3f1505e09b063b94, 0x25e6ecb2921119f783a410b7d24c83a5d9c917461edc62d0cf95d21be424a561, 0x28da486586fa7a6ee7a2505d51be49e38100470b4ede3b1ee7a5c364ca500cf3, 0x1e7a7c44e72cd5a635bbd41a543c9f46945b7851ee8b482871b3176557846ad5, 0xf8529665d21549208b12388dbbd55184f23fd713258c518249d4ee7f3acda6, 0x1632d84a0d31502ce509b0149da1a5293df1f8c11b2e2f10d214a2f52e4ca22, 0xe576e8ba8cebe7bb81ab72d7bf1a08c9830ad49016e9bdb83765bc6a05dd3cf, 0x116f9f8556eac9dddd689100fc4e27dc9a42c4534322f4e18379bee32b53adf3, 0x2617cb3f694b9d35852d5341c15fa51a47076430dc407b88dc708a57a4dad9f7, 0x2e1dabfcdc2242aaad7c5601c45aa376f8bf128954b04c477946e91893bcc19d, 0x20561db57fda4a5d18be48461c4209d39b3fd760fcbcee93874249d4a56dd4a0, 0x25ff336f1b5fa16576da765273bde6d1966d96264cc4e70766d170cffa123475, 0x2ebcfead11a0a9f882539b2129420c8c952361a46298713c3ed4d5d6af8ec602, 0x17f4133aeaa19e905765128b43d633f345bd34b512f2eef16a1dccebc1cc56db],
    [0xb1e797eee3f15b88ce3a1fafec88da1d6329ac3c34712db570de886cf569098, 0x1b3a49687cfb69278fcec9c9024c2cca61a3ef43728c21bdd11f378bc219aaf3, 0x21c2f9fbd8e7212a57051f8e39c6e68f3849797e36692723f44e0861264a5676, 0x115d3df00fd3bd6e540dd0390165eedc883ee6efc07b409f3675deb598eade42, 0xe5729bb5e9bad3ee592068ecaa3e9fe83de56e38603925bdb9862a460ef4615, 0x285440545506adcfdb2776c74d3aaa25f7a7b0de3b7c55f0e5b87fb7b6e0db46, 0x233f80e930f4324a6a0b146d07acd6fc8f3d9bb48cfe1f072d75f58da84e1eba, 0x21f9ccd305b8bc81a6b2116e883c69ad27c8455063e66e31d6da818ad1e74de7, 0x28fe2473f0cfc0914c93b9a49af57b809d9b205f2631dae15c8c9efc67c5ab3d, 0x2ec03f45ffe70531d6caa30b55289cff6ce7f852160797a2b9c90768c5c4692a, 0x1b6d0de6db03f0bad2f0d4879bddc431708a821df4cac5ee89cc9c9ef70dd9f6, 0xa11e8876f08f694ed493dd39340e775eb7a6a41aeeb94b274f24be97e39a3b6, 0x17ede99ae68e039acf3cb8d353b0db916c2f2e721f19965a474f47f1341cdc16, 0x18fff4f3ec52c43729d8294575f23f8bc41d85b9bea877df8fd12726dccc4909, 0x21df71f2c6a62f3945fddce6d52d2aa7d326b29262ef4b298027c26473b9eb10, 0x11b89da0475d9f041a5380c999272eb4f787090d1d55b9860ede80ba3983400e, 0x8dc1602808b04a2f3c3a15545d364304f4f7cdb9dbddbdd6f632991d0a5bc34, 0x7faf1ea463a24aa2845460d38458855ebbfcc9e1d4e775a350a0e88275d6fe8, 0xee38f40f3c1ef1102552cfd03824d68bea40bfde95785d7a4c3adfaeeb4ea1],
    [0xb1e797eee3f15b88ce3a1fafec88da1d6329ac3c34712db570de886cf569098, 0x17fbc184678cfb88bd30c7b1c3d7b28864204d74133ef42de469187f5ffdeda4, 0x1cf9d597555605a940cde10452784e867f46a2ae74fe0465f4938c46a546c3ea, 0x1c092bb49f2b4366b33e2dc2f6ee171468f95570188e4b2995b925b5539e8d63, 0x12f62053127e2084dae1db28a6d94ff62ef6a1a4732ab052b20395d0cd4ad478, 0x1eeb4476ad29cbea12ad7cb44732113e58c0ff598ab4648df979c474eb3835, 0x2c38250647fad3eedcae687b1ab54f6daa582bd29631c73fea1d2f5c403ddb7d, 0x2eec86ab0272f57df25d8453fb38e9fcf0dbcad228ed15b9e7ff30dc91feb902, 0x254f0f4597efcac8bf9ee78bbbfcddc5781f71565217ef7af0beec6e5d5f06fa, 0x12a47fcdb1b19d720a4398b659b2c74c27adbd2c24ffae0101c4d129bece130a, 0x1bc890c0199da7edf2f39365c4118f3c1d1ae24d666af9ffb83ab48b3e00a204, 0x125272075c48ad5c41dc73c2d27de0026796d6b47932bbeef89bccdf92fb7598, 0xaeb8e71cc24b05d8b4a1aafb1a16f8400cddb91e6d42fc8588ce50a191b8c4, 0x60ece14c283b3465418c6b9a9f56cf9c96218b68576081014122ba05654b3, 0x14728be414cd1dc79e436e4d72fd9392e44ec7d6093af846a49deb20f2823269, 0x21d5f66e745ef28c0f7178722cdc14bebe02412911433fb460be724281ec8361, 0x6bc631335961a7b600aec2c433a850ef58c811cecbb74bd1244e0304ec9b6ef, 0x125b7c277f162a0a077cd6f1981e5f22dbda2a0b0bec465a384387527ce3ed3, 0x2a2a1ff5ede20300c015be7630d8f1060ea8aefcc7ec0f9606e8aa8cae99bf4b],
    [0xb1e797eee3f15b88ce3a1fafec88da1d6329ac3c34712db570de886cf569098, 0x247c5ff976e2ad2713b0ed0c228a561962155f3455fe766e747b3cc613629cbf, 0x28cb0837980e09daa3e697291898baf1629eeac4e46342bc071da656c7bf5fe, 0xfa57cf86065e02c71402e6dbdc251b1b76c1205eb14d883d95b957b376c6bf3, 0x1333d78ac8096483ce1959d954323802c853a4a0369fee7ce1261828501ced20, 0x14d5ea7f1472388751201a664b15f402974aa24f6cda9a91a84d56b1b6eaa776, 0x77a697d92ad2c070d058b32564a9efc7e1a037a1d03962db5f2719de5cc6c7f, 0x27c6793303f3e75361c67fe56b8ede9c3b13ebc8d10e6ff787e69aad56595064, 0xd69340f71fbe2b9772464b2f1fdb25c5d93cd365e24b6926705a77a890e08d5, 0x1e2d709a891be7d5411fcb2eabc3cafcfcfdabab79964189758d1afaf70a6970, 0x2cdb124943fc7c3287733a0a3c078eb98adc3938120ca02b14a58a46a44f4fa7, 0x27af11497cb4a8d207471064e855bb48d8786f0b14366f833c710766612908bd, 0x392c9300d049ca31025170880a47ad61b80b1dc03f3e6db3264ed1219db5b04, 0x2aa58c8c95a91bd321d83ce2682a4b7d2f6e869a0a4cec637a272b0b30d58434, 0x16f7b5e9d83339c0a151b1142423fcd8d2c1758d677a0ff7d1dfaedd525762bb, 0x240b50d50ff6a5930a55ed800af55fc621e8b5f0333e022a49e1382ef80231a4, 0x16e43d57fc3ecee17611fafe5e8e7b053808f780dcb1112d1841f4ce52c15f3a, 0x18b989d920dbb70d51598fb2a6ba22b1825c2f3f05f7fd4897516fd749e8cee4, 0xe4db6c770ce5d662b21e5b463d99371bec01b6220af53375b8d24bf76685d9a],
    [0xb1e797eee3f15b88ce3a1fafec88da1d6329ac3c34712db570de886cf569098, 0x145563ae8e6e1472ade73ff73dc88ec306cf540be2894be758c99953826664f6, 0x1892c99793221d1f11e9c5637757db12c001ecef9965c00c697cf49ba9b881d1, 0x1f965f8daa018ee30596706f17773d33e6835e66b8aad44e71955303fce6eda0, 0x2935511ac83c99085b247a68119593d44307b95394392d8bc1e4366b54021442, 0x907907697dec1e1a3bd179fa8ca9a87265997bcc1bed376bbb2647430afceb7, 0x3396c267b0ba914a9c4ba45fe06a86a8b3960aa1dc12ed7943cc8a45fcd50e4, 0x679ebb051d64df99a0b2c93744857adaa8802bbcc6c17cf0cb29776fa229e85, 0x2f93483d03549c31b606b33224139de1998c0be6f9e4b900d9fe9728588c98d4, 0x1458fbe748fee53d852d83b0e7e032dea42fc174733ee672f833d8c91b811a65, 0x1a90f8cdc1c63f289f22cd6e4eb3bdd3b7ac9f04cca49d7d7d8cfb0f725805ad, 0x132a4fa82d6276051f33621249f4c6692cdde99766e52b21a0896e2faa1ce5ab, 0x1d79444933015ed9a7b37b53da5f35dfdd9da1dcefe3a454ec98da690ef1880b, 0x268a91dc77ae88ff05486fed8eddebea679c01bde73d634f5cfb29babdbefd07, 0x1e011a8f14bd69d6439cded45b157075e5d44ce51f4f9fe6279fa269e999e1da, 0x9d4ccb992e2ed6a7d1e09649849084e4c7af1c79db784e239c39daabbc69a66, 0x4bd333ef75b6e20a0a9566c7f072498868dbe38e028bead637408c6aa43f232, 0x7a22ff875664c4db8334871b434ba01e949c60a4264e8724abbec4d9822994, 0x2ce7c0aaa7d361da7d2d170270aa48f0a962db88bc02f6779be5a5079e40c85b],
    [0xb1e797eee3f15b88ce3a1fafec88da1d6329ac3c34712db570de886cf569098, 0x5c14e041616b9d457521c279f662e02245266a12b5164bfe05a7503440ef15b, 0x302134832f0832bcb9fc6fbd7f03c49e7d5d081d455eb0e3267a6e48677a417, 0x1ff1fc0a5041e83cf8c145b226ba9e4f38e42e58d15479caf6102d5f0a46c1b9, 0x743a2f884e7cc1bf16bd83352a5b3324366cd09838da3b7af8c09aa8b907ffe, 0x1602376f4173d959749ec5daed8394b50facff3fb8765a89b59b6fef0a7d1b41, 0x7d2cb9c94b0a81818fce3f94e82bdfbd1074e8c5159e7fb0ffe12291e9d833a, 0xbb2f1a3fa920981b76feca1519db3aa3c26b703facde82423479b244bfd05bc, 0xef15ab6018db6f518505668756a151c50ce609657ac3a1390df76759e9eeffc, 0xe6e886b5371587ec93eadca0b54cb77c72d4a709bfd9431c5e4eafdb1f3f3bd, 0x43868f796a09019cee928cddd4779ef6de4ad17578c1eb5ed9ea01761f46a30, 0x244a691b12e0202fd70fb283580700f2e25747c504c2a0ebd58993becaf84eba, 0x7db83a16d8673bbf160b3b0d5d96e7b14040490acb6787052778aeab1bbd9a4, 0xa38eb2851046d266aa8aa6d124f312e00bd995992adb16e47a60a086d5b7819, 0x9afd14102f5641fac42f5aad7e1e04fd5779dca6d20f21819ef3eedc779a27f, 0x17f1055f567a079eebc36cb46488e34062e598ff88e9e4280f0472021891d500, 0xe742b77b8daced0467679873f984332608e5cf5f573295ab6ff101c86bec259, 0x1e0137861ce424e6fe1f8161847e1c804525945db0267bf56e8af64c14cc2d2, 0x26af9938a85c56e60ad89ac9ea7ac83e04f574d33d340f143ca5f058e2ae18ff],
    [0xb1e797eee3f15b88ce3a1fafec88da1d6329ac3c34712db570de886cf569098, 0xca3bbffa94a2440660ee1481664e28729a7a581eb47fb1e7f2b8d19b33a7633, 0x56ddf288c8533174801eb64e46e332ba077df88559d617bbfdeffeac12c935e, 0x18f68bd602682d1267ce57ab65f27dce1859bbbf29ea5ca4c1a7c47ee6921f3c, 0x30595b7e6e83bacac2e1b9744f97c045f81ba17ab940a093f0786aebf107f4c7, 0x636950f2ee62115195d570a6c43d18e92a3edafb2eb0389482211b486f979bd, 0x874eb8555f4444b951b3e3134f96d75ad8866a0da0775fcaea7d80cc0be0c95, 0x165b30894e68376015f8589abacd55512eb63d272ce68ce7d478beab7672b55a, 0x19e4b9ddc57a559648da219a93cb0ddb0df84b89cb0192814743bda58e7e025e, 0x25eccd6b96f10e2a0da8fe7001a7458e10c3e669cc6e9df84e4b108c20a7802f, 0x12cee7ff70207b2601a5198a71c1430fe3754958721cb810b8de2fa6c464488f, 0x1f99c9efbb41738ea513af1bb140f11e84ce414f08168e165620a36032e844de, 0x12529d825e81e3cc950c208d2e40375f320daf93ae7e401dd21f31f69ec39dd1, 0x60570f962275a45bde460c929edce1c9e56d5bfdea7f5165a9ad1f338e43278, 0x13d11f33f4e872a1d7fca8fbe95fa47baf3e57002783f5503c6522c2835d8c20, 0x2359f3c444f7908a0e3a80861a42251115f650fa4e66febf815cab17676fde4c, 0x137c3d8494fafe8b81567121140a8933a957e06a86af79f21aa0786ee032071c, 0x3527cd631d2e66d0f82218ec1a2ae78d58abbc17519750f028e010153b5476a, 0xd67de5a809c3c17ec81f87ea47056557cd9a21c12e615f68b5a3b8b2be5ce9],
    [0xb1e797eee3f15b88ce3a1fafec88da1d6329ac3c34712db570de886cf569098, 0xe0a49d17b5fd53e41c716eeb7c3170aa596a3d994cf780bb4fb099a3e628ced, 0x1b7180247c35af01d58bf18ce746e193c5f9d6cb530deb707cc81f01663c2409, 0x2093c5ad6ec79e87b4c99af53c32b7c13559735acc74ec744a45da050d6d56b, 0x26c4d026b6da4a405fe6d74238747fd571561b7265ee49910c447438e9c0e1c4, 0x1fd3b662959f05a5ca35ae543da8095f78a4544159475be1e9d84592c526f777, 0x1d8a119da46c01ecd28598b1843020f2affcffbd0d2ab74513903b0271176911, 0xdef9ecbfc4c245d08fa20010a22886c01234245042181ccad19ec06eecc5aa9, 0x2f389eb9dd0db3310260a089bb9d0846ed025ac437c1eea56dc5c7159e8474fb, 0x192d09f6e1f97e95858b09dda316902de5e0b946d3050a296e86fb90c0824460, 0x2abe84bdc7a81e92248e62816419516f31b9df3c36088df8b0dadfa242af8f96, 0xec8036ad332bbb0d8eb631bcc55ff0dd1c71823b8ebd6b8e0699417b22d64d9, 0x212d905745129480f6496bff628cdb728a729394f7e5dfaa13004a4dd6d7ce01, 0x28b10eae188741517e25e6abdfb63f5c0b8234a453ba5f73d55731b126b8c442, 0x2b55e73628a3146399c9c4328e7b7c2b06c3f9c6b2d1c2f06de3b2b54c2c50cf, 0xa288f1c2c2e7b4fd66632360642bd18970ca489714681efa3a79597368000cb, 0x2a98c6af21ac38e6d8f70a8cbb5988d6aa929c6cd8a7bd41de02d6a461e00398, 0x28131733b6f0f9dcab73a997d3de4c14bbfbe517135d1a8d0559f0974ebb89e3, 0x1a0422b448652f8ff28c4099a5857e35474e8864c82b0705aa291052fadb42de],
    [0xb1e797eee3f15b88ce3a1fafec88da1d6329ac3c34712db570de886cf569098, 0x759e02ddcf9c02faeb9b1441d3e04e2e26b1c3c21c1a69dd452798b1ecebff5, 0x1e6e510013a7d26108d160b3bfcf269ff0f51a0759e1e1b2731f7c3fd9f65679, 0x87b228c959aec21d112b82be8167799104fcf2f6a1311a8f8c6ffbc9b91c0d6, 0x1db2a8fdf80413cfcb6c77e97c570ad471dabc38e8cb2fe680016f0dd6d2c5e1, 0x2c866e9e002f7ba0ff4a92bfc05fd5a9cbd2c4497ad9957ac9434acf2a3d3aad, 0x29032ecf930c2a41ff93c287e9bacfe4ed6435f5bb377527f945ddd90f02269, 0x21a948d59bbbb4b75d7e62e29f28fdc1ad21e673c3d895d264f3cbc0b9c0e0f1, 0x1dcace62396a9c5fefb317bf0771ba35e345a4e113a9be8b9ad3bb4f6a62a287, 0x29f8ae5c1ee78bcc95db21cba9113f31c1046c41d866a70383ce008a9e6aa748, 0x27c5c8707b69d2ab24fdc16a043d24f3a2aacce0994aafbcb79754e26d7a3c0a, 0x2d34b96bbc3259695bdc35d7ddb28d896f64b94f0923627193d50d82930a61fc, 0x150254ed341e43d3a5edf9fd4825f8094317dfe0f198f908355c9ffc0485b4a3, 0x2c4ca99c167d67e6ad639409ecf7669b0a99ace688c6c9c33a34d71dd3ef3c97, 0x3930cd56e534c58be531f7e9e2b9cb3efd62d541bb6580a1246dc9a4067a7e0, 0x24f69e897348f292f1ff886d4992b6b108f1312a3b194296f07314af94c27016, 0x2334c3ba5fd553bf774f53d77c3f556d404f487ad7597abf505626e5fc34a054, 0x2d72d7bd580f41990e776a68e9a1252d1c5d003fbc9bed64162a1dda8952ca5a, 0x2a311a00f6cd8196a6f12a725b9791b49f46a20955a0cc05435e136c3ffaf3e2],
    [0xb1e797eee3f15b88ce3a1fafec88da1d6329ac3c34712db570de886cf569098, 0x15eeb7dc60695985cc24a901b81f2c2ac6aee050695ab1de79e300d546b1f043, 0x1065fd42737ec473c96a3741ef8119bfd955ab6066955d4cdebaf9761ae33e3d, 0x17c3d9212a09026f12794eee3b04840280b12ab06bf5c688f02cc772608fad92, 0x1b3d7424ea8664710a024d5f57c9d3b372e2c1f5428683da382464e39154bfb0, 0x1122aedb98479614cfe5927434d6cb11a1ddea539e33c7771ca44535c510427, 0x55e9bded4cbbba7dad989d9b1295c5230d5a799a6211895bc412ee24086d628, 0x30263db0209be791391ad08f2108574a6a882f05b6c8055b0ba9e0ca8715217c, 0x643bec3e72fe54060c78a6188b7098bbbcedd5ae549f5d0f95594d03501c1d2, 0x24739ac04c239ad6549658ca1b7e0f62067bbd53c3f0ae9c3a0160dc8982cd4, 0x831cfa01b84554e6f26b9d604c0f91447c6c5ac03ed1d318b7944c5773827b3, 0xc0570121f291d8fb7b7a62cae11ea568a394915a9cd70f634830a5e36f93025, 0x2994d07daf7152b5024957f7188fab4452714606c505530854cec14a582bb6e2, 0x2e5ad16ef38f802fc789dc46eced2ccca71fd25cead1d5d1f14c482061cc703a, 0x9f1fd3fd77d399d36089d589dbce43f1f563d8d4d927122bf29819a0224053e, 0x1cdd5d1efa77002334e3af50973ad87009b6d26818bf78396b7d8924c7aac675, 0x2bfaf90c55d63a08a0ac948874f9b1fb60c0faa0a530926acf868296f8478e0a, 0x12d3e6c5009562c1647269d1b507123a2f0b7729804b66643f081bb782ba7cfe, 0x36e9be313a952e3b77fa42cf13942e292982a7568964ff200356a1c6f82e473],
    [0xb1e797eee3f15b88ce3a1fafec88da1d6329ac3c34712db570de886cf569098, 0xc34e42c97488447c321d23db64b398c6c25d4d9fd1fcfd3b5626674a42d1cba, 0x27d82eee53199316ed144a5591fdae1f6e2be76b469f606e7ff6759a8920dde9, 0x895f2c2986316092a0366d6dd018ffd6439c477996b4d2eb5c3aed2cb0c1025, 0x22ea26e3404fa1f74ca0be2b73237d0a44014f6036f9a96a1ad1b6a1393622a5, 0x245f9c36081e0229dff1c693e33858b05299349c921d4163c12b8a60cddffd9f, 0x120718feaf2106067a3dd824dc15c3639312811c1d8e57825aa782de88a2c3e9, 0x1cda330df4f05747f9fdf518d146f9160556d32d06f8c21f9f22432ae2abbf0d, 0x17c8bde1641bf784599b38a3ed9568cb3e2a8366bcedd556711e85bdfa71fcc3, 0x3b039fece617d27bb74f64fb7c0e24adadab1215fa077988fcb513b7990caba, 0x2585f69b3b7caeb08b4fd4403b72457ff3953e708f20a2a0d40872d5571dc707, 0x1cf1dd7016fc72885e841cbf7e92c931d99a2cddce535f72b065485b39fde3c2, 0x11f30f1bb28bfba19b81bf60611b0f26c1a2a7f6623aab774f999ed62be03449, 0x179f6c3ca3fcbd7aad8e1ef759216d589ab51482a6f7395c93d5105ad79c5e00, 0x5193282c4bce9d58154eb75ea6fa29683e2d2376d1e2b9d2265103b323c014a, 0x13f144857af17bff0c12f0fd177a6da9b1b3b10842f4805689f124d52d1063c7, 0x290400f022f09b1359bcb9812dcb353472449f4be850a28d949f914290aa598e, 0x26a590e2d283ea4e4bdcc39fe4cdfcf9b8e974b4603ee78ba0cef07e042da923, 0xb0bc561fb4ba346db8f28d41eb0bcc6bb1c40217610f165c5ccf4f2940ca1a],
    [0xb1e797eee3f15b88ce3a1fafec88da1d6329ac3c34712db570de886cf569098, 0xfc4b28f50f749c8b55bb53cfd3c76ed13a11e16eb3816520d732174b68f9694, 0x1c2ea86841afa29997e495b0e1cea881562319d9edc2aaefde7b30da0118baf5, 0x181f1de1e627bc0229055b2c08f12ad3b70d540b24fec6128e359cb8f32a8a, 0x2a4b0a0fe77c7afd26b08ac0eec6a30854cac5eb8c070db07a0a3c5b80626747, 0x13f62bb9fa1cf209e303e7626fd734710668d02b4efb3ec507c1f5a4b59ea94a, 0x2b5f4bcb8b0c0c1aaf90e370e93b611bd34015d4f4083b6feff51c60fc7f90da, 0xf61bfbacfe1eab14181c0b9ccda1da0272742a0c64ac873321c85af7c0f4253, 0xf29b98701d484f65bde657f17209bb04d1cdc52d1d45b8357d64153ee0639e1, 0x4f50fac0a62268e7cc24a64ce7f784bb1d7982be69a9dd168b0f191da33a5bf, 0x31b6743a6fee9be625862c05ffc4d4c656e30e17a4d1e9a68cd906ba9c5c784, 0x1b2d7a1f0ad3dce2e4b7fdb43de39d6044b9713b47c82097fb72721de84b629, 0xf2090d83056f23a0a8519ef633ad3f7454196a1da06db6aa93bb72bab913dac, 0x1f36ea15e1ef84a869d23f3fc7c3fc0bf425301e98022694e534a564ef69610, 0x1e7fdf4b6edfd3e8e19e73fc8f938b96bb271f0a8b5beaee67efb0f5fe1d8945, 0x58727d0875e0a1a590634c527e8b69a4c6e443265d013000cfdd5f00b9faac0, 0x65c67297180d56cefd31cbde7691cecd344e5517d93d36a2ca00b84f2ac6406, 0x26efd963a80f4104192b1e66102143aa18c6956b4edb14eac83399cbb957d426, 0x2d36f46690e480d2cbfe0f647ac99c753cb01490ad79327a1192e7c5bab301d0],
    [0xb1e797eee3f15b88ce3a1fafec88da1d6329ac3c34712db570de886cf569098, 0x1ae20386490ddf16dc579da580c4736d5e20066e4ca980efec6c412d6c5fbf20, 0x13855655eb53d070d6a3b9283176ec875cdd04a2310a8bc7da3778bba3a8bf65, 0x216a5047fc9a6423e0dce5c2fc7ed22e17a889ecd7dc313ec97da530b0012dcf, 0xce0a7fe4c77e0d037ce338a7272ed67864f566705e5422b954effa901c1190b, 0x295c4b9a9a97eb19dd9bc5cbc4704fd57c100276b7af57e07be392c18a953bc2, 0x2989d23a947312faab571c5ddaf9c4d09c22d1876e7d007847511d6e42c2f407, 0x185d73d77a0e88f9a67e2c1a59d6473706e24c79b845ce5f9950f0fe26d6c794, 0x182b0ed46716f64fece882661791a29bb29986afb83cc9e194efe397288aad4e, 0x22ff21a0030a575a4c62a82b286a37188b4cddf6d4285c60b60d030db206b1c8, 0x1313437aa7949a4ab64fe85327645748fd2a58e0e3d3b85626e88f7339d7b261, 0x6efe22994b02451beba2f6d0dcbfbe9b920817d74cb212adb7f738178ad2f40, 0x301063036e4697bba8d213d35d188697239bbd1b369e7bd294ff4dffd10885f, 0x1c90fb3a46ac9ade74d20bbfe8403ef060fda9603773064369d4c344bef5e817, 0x2c52c601cc0042b449329c045fea856de70f98ea8d1b5ce3a30ccf0fa3dd8a52, 0x19034b0b0a87c257ac4944e0500e97bfede7ed2dcb148c9546e3b581aba9db21, 0x27b086852644a1c773f0ee6c7cb6e58d7bffa32638b79b2990bd7f1dd683eed7, 0x16cec1cfec5d548a707a44ddc3afee7db168b5e986eaaa885748a368d1fc7607, 0x23e0d5c20594133dc55043bcc80a422dc9d59ff92f3e1a9e934d7c7486bbd410],
    [0xb1e797eee3f15b88ce3a1fafec88da1d6329ac3c34712db570de886cf569098, 0xfc871014612f0f2153585878907f011cca957eb00e86bc50f319ccba20a005e, 0x179dfedea941ec28ce16ad4a6ff320656632b0750e6616889e853719bfc6e88, 0x2200eedc6d000a31ba05af605292a6ac3db87e5e852b7edcda9ba306192823e0, 0xe0627308b4486b9922aaff007d2dc88a4cb80da9d90be1bd13d63f3ed7e1fc7, 0x941ece97766c9dd37c07cae87220151b9672f02bff4006700310b95efbf4f4d, 0x2d8806727504e7c422452287f378c0a9b859897254372eeb4e4cabd2c038067, 0x1f44136953c36a85d85da27e57a6dfaf955dc7e1d456790e53526625f470624e, 0x2ad2db1a37881b1f73e5ae98d404672ece9487a08ccced17974e1c925b0f0234, 0x1ff27989f4d74b500ad47ef372b8f08396499e4461ca7ccc5914675365cbdc8, 0x1d9e4bb1ebbf654ac8d81380ab49c45c698f4552fc2b385d61f1729f9a434fee, 0x269d2125ceaf4911300dab597dae2d4d97714a48abaf059f0060c26a6b462411, 0x85fe9b1797ff4833c76f23b0dad53a01728edbfd28b9dd5097a727725bae3f6, 0x2a1e5b7a8bbde19a0e4e3e189a5375543ce6879b8ac6c94b3541aa7b1ee5d73e, 0x38f9b328c38f8ceba41d67319a3186ece9be1bc9d16142abc3099e2a910e1a8, 0x3ebea7ba2a89695b6be00973736a209479d0e834a37f5ef2863063552d840a7, 0x29a1eb861aafda5c9a36ac4c094cc8763b491902b18b9dd29bb1b8dc216bd96e, 0xfe28a88001c17b2b1ceaeef8891bfc5abdb937c7fc6d51b2dfb56e5347c6294, 0x26ae83ff720fb65932e831bdb0705d7ae60c0289f7bcfd89a020a5f3b30eafdf],
    [0xb1e797eee3f15b88ce3a1fafec88da1d6329ac3c34712db570de886cf569098, 0x1492bdc61b5ceb6fc3b3d91065f585e0d1b037bee203ca82743459c1ec00c65a, 0x275f2dd31c5b79b5f188ae669923494e6ffed430e8c75bf202132e50b25c1a3c, 0xb327a4ebdc41f56502186a656ca06819d1d29a32a6e70588f548c4fdb2f689e, 0x2c5e3d0108521c8af0d038a617f2a0725d5003a5b9dd824a95a59ec6bde20b1a, 0x1b611cb1e5f7f2a0c4fbcad4e9dc65da5c6a34190fb27a8148359d465165f9f2, 0x22365c55c48c5736cb4b7dae8fff495e9c661e9e130af620cff5f40fa1210e96, 0x73fb93220556a2bfae1e07d2d076caa44c085e2ba6644bf4256094af48ebf3a, 0x213fb8bc8c11ecd95bb3311eb046398f377c3ea4208d14b80eaec8c4aff2bff6, 0x1a617c5b998762909c55ac93513a6d19ed1c1e28ff8b78fb3f551158a9d0d99c, 0x2e1284a59a10203966d53cdd502405dea6889490f9bcfc5a33ff9d8b6fee17c6, 0x27c73897b8aea1c08380d8ca28d0405351b957b064abd17afcc647b73ab348cc, 0x2bc53359578a242289a79806c04853ab89fca02a6232f152d05b3d1dfbeb6908, 0xa8ec1ba29e112cfc42aff081ccd3e7e01410696cb5510377072bbcb2f9600c, 0x2e0634f26f73f112cc5f285e4a232f694b79c05ac5bb9c9dab89dadfd0112ce4, 0xac9a6885431d005e4aedee93dbcdb638cea5b17c363289adbba9ae9e3fe744c, 0x216854bce3077af7b8294565ec200c0c455b9d5fb35cc98ca36a323620b5eae1, 0x1603ef2a582a0adbbac5655b3c3202b60ed3c22e59fb442c2a7962b9031a33ae, 0x2cfd0eb51e60c1c0869f5dd163666ee8630bb2f3b527af9860f8e23b2fe1a869],
    [0xb1e797eee3f15b88ce3a1fafec88da1d6329ac3c34712db570de886cf569098, 0x183f34db24beb7107f0f5bf9fd4c2532033855c37b5463ccbd658b68d870e6b5, 0x1a5079190245f746de5345f0775f5ea91712edcb4f165f391e9c8f0b1268280b, 0x249da4641b8f13206d3cb7b3943d4ff5d0813654aa5d8ef4eca39cc6cddcda09, 0x2e99f0d1ad289d3d780147284155f335f34224f7f8d3db6b008d952a84a12f2d, 0x1a95c807b653b762910fb0b9d8d0b4a32b000f490fbe925e0e207842a2dac0c5, 0x127a15cfbd88e0c122b2905572c496df5eac209879a235afe08e8d2e631cf46d, 0x1c22d61ac34f05eab74aaff0cfc01689132754d26de62038964b5a8acb1fb340, 0x2ee46c0fbefbfd75eff882d395294889d915a1a1e858e18a5b14c4200754f9aa, 0xab5eff34c9c0bd9fc90db5b058bdf68fab4f25eb7602e9369060fcb6df9139, 0xa91d479dcbe07bdbda4249188361f7aa7e00c8edd81eb74dc176f19bf05e8f7, 0x276a57e2c21843be0b10b8877849309b33d19089838744ffc2454199e6833f63, 0x2a56e477fb4a285b4edb52b2f19fd159914ec3b384dbad98850a19dd9f44c2cc, 0x2fc33d4b761a6ffe69a5f4f2ef4f41f727d7131a2ce15f74f67ba17236e89263, 0xb9ed85bc3e43eb0c395ab7dfdcff5da94fa809bcf5d20da866a2e0712dddcde, 0x2921971bfb16df44acaf0447858eae04720bff84acedf57d1059016932c0a9e3, 0x1ef4f47e8d9e92d554c8bf9312e0c80f5850fb5f124421a4a032243627170429, 0xb099dd3d5498781141cebbaef8b3c9a071d88ccca2efdb8d97071e878718f44, 0x304a086e6735ef7a00c6d5fbc6a55daba181f3ca901f5de3c9a29f6161ba5f36],
    [0xb1e797eee3f15b88ce3a1fafec88da1d6329ac3c34712db570de886cf569098, 0x286686a6d53d085d60793a0815cc1b77c61ea45fc4451e7b99e9c8e6bc80dda8, 0x1609e1fceea6ca88af1bc5075582363ff305d5f39683e70710f2f85501f4ef87, 0x124f27013e00d9b8e11f6550ccbd6a2b9426da5f482ae5746601d82fbabad65a, 0x2c47c743ff1069ae71b811ee87050e9e176a0461d8f6e0472af4a7d8328071bf, 0x11a058b976dc5fb8424c68192aecab8f56b683f5eaf1559420349281d849d746, 0x2222ec9d6eb62f5f431eb27a65f792b19817580562d8482027c7e84dbee5d7a, 0xf866b167acb845b0905fc05dcf985849cc7b32a76c532fe2774353ea37f1fff, 0x7197c02fc0c5f1e13bcd825e1f0df47111d16be06e4f90e1ce2452ed2758089, 0x99aaa6bef62d6b1f3098bd34ec2916caada19756bfa2dd222cad7fc9b296c66, 0x1a210aae2dc13bd0bf76b45124f771c486cd2c4ded5f125600ec961e3eff5d16, 0x4ae93e4ec96ef4a97132edc6219ee43d41d3d3820331152a83374b363cefc61, 0x2140d4f69e842e9257960fa14aa526f36d6b3204952c5763551600a17e9c5c06, 0x16f77df72961ff15724b2cac0f79106cc9bdb2b3d25534263883e2e379722303, 0x2a679813106d2d1a88e194dd55641143a5aebcc2204fb4e8f2cbb40f637e506, 0x12582d2bfe22fab8079bbfcd7bffcfdfa6a33221fefe31e74edadd5e0e58a361, 0x390e71fefb45b223ab77d04c90727eb97540b7d3d9ca70798bf3b3f97d91f21, 0x26b440f48d1c54c8300aaa49b9ab8afe622d6f7579857ff986966832584f82d5, 0x1dea175296f5bb238d04bdb371b31bdfe62974b0a219f55be2c3e644e82b5bfd],
    [0xb1e797eee3f15b88ce3a1fafec88da1d6329ac3c34712db570de886cf569098, 0xe0e6eeab1dade829f7d80aa510ed423c86bdac7b39dc5fef6df9b6932cc812a, 0x2cebbd5b0d62b44d3f06728f5db838c617d933c08491c23b707220a2d6060af3, 0x2dc31eb7528e36ab16fe4e845b1858b44b7f4ebcff8c5e2916b5dbc93aada42a, 0x1eb3bec02ab6b2a2977c89984273b17a0156202f622edd7adf787246ccc75f2c, 0x220f79359bc26509ccbbfc429980c2e65b195b3c8b0695c8765057a2d025a67e, 0x1590491b1dbde002f869c666a1f9feb983770740ede60e726926dfff31f24806, 0x2feea161ac374df1bd1e90c3d84f0bccc39efcfa6b34e12dae7ddcd0b3d7257b, 0x1a29866fc7a388cbc6c3c93ff3eb7f37e1c5e83659b05b0522bac1dcb33534d8, 0xb8199ba3edbfd7da088f17687da77fdbcce7f4730915cd9f18aa86cd03574f6, 0x2791b7c58a031d038d076f7d6ac43730933a76ef48f203fe92400d60b98d6a2d, 0x2f454625556eacc7f31439c8f2b0ef06ff37ed616f19533f9266f28ca846019f, 0x249369afe3c0b2111d448303abcbc18110aed1a1a4456e4b3bda7e8e2dbefc7e, 0x12edc078ee15bebc5ad4509f3d44d7c25607fbd61e9d464d84ba3223582de54a, 0x22580da134a629da679be562a7a84163a1565af42558a04c64579d98bba260fc, 0x1dda309f47e45f9a6cc38c7ec04588c51a650c8f0f101044ad6c0b14a5b0e6e9, 0x2ad483577232eb393cb943dcde6c616285468d4b5af36779d86bd789c499482c, 0x28ebef81b1b34667338b9828e4858f956349d34cc99584e1622e6e676c221847, 0x1352a39d4ec27f0e72f991c448a1511e1e7ecc4f4e76b705ff2551f2cd17233f],
    [0xb1e797eee3f15b88ce3a1fafec88da1d6329ac3c34712db570de886cf569098, 0x2697ec9fcc93302d5f66b3e1c1ad9b203521f05ba99903596fcdb8fb70e4cef, 0x957519127bd1afa0826384ece846813066831571e2aaacca4494fbb2a628c48, 0x1d8a3eb38e9a520787f7b37c59fd309e3ecf19a45e4e4855b53dc670de8d395, 0x13ca248a44825ad1fd500351378a1c873fcbf6fa6aa3da48c274d1227afc90eb, 0xde6ab6ae985160148e09d5d5b35acc7b0f61cdd119ca66ba72a11c89ffb99ae, 0x6177434dff8487f01d4e7fe5dc1f5963020409384269ba24b5751da9470fd57, 0x195ff62cbbd66aa75406290ea773f0e6ffecc1fb8be9b6313bd30a4e0626b6e5, 0x17ca97378ab5b95fd548bdcf531da28e4336edffda8d3c5adbed45b7f224a04, 0x5b258f2284fff0798c69fe24b70f96038cef3a3e7bee367a51a7e62907669dc, 0x20a38dbc01d5a38c6908056f5c4862c351754fae0750094c93cf54bdcfe75b25, 0x27649f4bceebf6d71f6581d40e0407b020dc73ec56bf16748c61854c6afc6c84, 0x12eba7df6b9e4a5a1b7b92bfd51d12e756831af7133a79a622338cc53e19fd5f, 0x8487f84ccd636bfd508b5584d1cdbf24cc1605c779e5300d4328bfcd4dd6db1, 0xe780d26ee909fc75487670a4cc043740af57e89d045b69ee6babd8089746bb3, 0xa58128a2fdbf500e89c8b81a8b883bb5004b4b29507158b7947178b58421d30, 0xb680246f8aeb38b7e4eef807ecb493c3aabad1d705435fa2bb37cedd04e9695, 0x2909a2616f3a24ab48ad9f50e4f18c75bee2c2f434bcba5ce605c1dab5721877, 0x143f55ba8ee25793ded43c6f14c92025153c79c964b44b35c886af59bcfac0a3],
    [0xb1e797eee3f15b88ce3a1fafec88da1d6329ac3c34712db570de886cf569098, 0x216f405b93971c6d85d700b4d991a983737006cc1099f0cc1c6c98a366d5e28a, 0xefb44ff1e32edd4f8db74ae8764f6493bb0f76744f41f2f1f35205975b49020, 0x125e52e4d58e859809ae43a4865b821c65e630a0de0a2f4cfd5188ce3cfa93f1, 0x4c652e865b682c60c57f60bd33a174e9b9b22b52a1d47aac4aa084b1174b929, 0x9cad80a5de2e6e280dd9b65d56860754dce0ab2becfa07b30853a32af5b011b, 0x81544e3cace3761ab3563b6666160aec7a52d7331dcfb34e7b035d46d9aa6db, 0x29c9f89966182d3c7c4bdb1c751fabf9dec6ca6fd0f3d2c4b2651fcd35916a67, 0x25ae65ab6ad76f18d3423dd2829bc059e43251ca5491c2e11c04e3e241db0e5e, 0x1821e88b8cdb1686c33ad7c1dcd41c61f47a6435beb00bd8d68644b930e7c317, 0x1abb95b6e33243a050e563b5c4fd059de5513ec28994a6f60e57c98d3bc8f586, 0x110d213a836478aa301bc1fd4edd388507d87745b3abfba5bf282afd21f7242a, 0x18edb2d105bb53b768ae0137850dc2d2bf6d1303a1f8ee4aadf76d8f81990588, 0x1e53e92df6c53ecec4c0de5b07dc4c9a0c5545f2abcc1fabf4ccb84a0a6e2c27, 0x10fcb817e10f69f7074e64c393b807cdddf33c84a8b5cfe33f44b73fe18c0e36, 0x2b1d8c11fc652c593543b6f9800bb7d0c9371dedb96f08bbbccffdc6cc44db98, 0x19f473e40c05676d5f8d51e11336e9c65cb32828c397cc8125f1dc667b6cadf7, 0xfcf3a4d9c6c3392de1bdfe25cfb86817ecb80c51be17d47f79750201f1fcd01, 0x23b02d00fe2634889673a7d04736fe15b9f62652b1c0626a19af8d6085d70822]]

/-- starky/src/poseidon_bn128_constants.rs L3058-3739, one round per line -/
def c10 : List (List Nat) := [
    [0xe1962c232fd0a6bb54ad8962a82b9838cfef19d290a55fc49d6debd061cd2f6, 0x1e1f45cff3e74168accd0a94536fca6317128953eb47d8d2d79b847b355cf51, 0x1367eec3b20cb74953618fd9261047755ef7f8aae5ffe96fc8f7d9a02e37bd1a, 0x2ff6ad40533afa2acb78c9b91650d7ccbd274b09f78c100479f3a4d72956d706, 0x152c8c3d9e43d90ad8094831a74af8151fdcda0b18d7bd8374ffda68d1a5fc71, 0x241707db26f96df502364d26712c7f465d0ac5597a309559b075406351a20977, 0x15a4e4728a197dae6303d0cdd2b6d1e4114a9fad38a530bca6fd06ca1ffc1f56, 0xcbfd63f363978c387d656e93f11e336987a68748c8f54f385887e64b1075598, 0x1fb594474b8334f9aea6fe5e323fb0e0ac27d2895921ac64e93e524e4ffd25c4, 0x5ac55361da931c1b4c560aa8dbabc8624ba225871bce224addb5af901676aeb],
    [0x135f83314252585f7e011692cd9acff36df6be985029f226de256803ea704d78, 0xa68f262c9e14d8a9ee116bf90cd7d65e3df561bb3914e314e3f43f167f5c04a, 0xa8360a837d4c97b946633c353298b77d6891b6ce78e82a3bd39fb7e51193d10, 0x136a21bd13b11857e0f7670e12d23290c2318bdac830154cc37330ccad9a3fe6, 0x2a60989b8092f8e1c1cb0238ec85bbd6b8b659327a03e8e193c15a54dbb73c04, 0x1b5eb81f143bf326da0f4eb95d4f45c8142cea640d33acafc8deab155f37345f, 0x8903cf6b684826737a348acaa452e1ba9f9345de911f2340ab7324d0bcb47e0, 0x3b8b717ba10035a12ae4dc40f4210b0f0529ae837766e1a269522105635d818, 0x623ee7c19eabd13115398893e826eee211daea73f80fa53a22f8ce55906027c, 0xbc8b24369ab76647fe0ea278c866d4d45bc3f93e8b06e76901bbe5bf20db5c6],
    [0x1a327d5f540190e1c9cb1e31d857b5c51c5cad9f1ee126c44670b782d46c2f50, 0x1087efac87bfa4807aca410a9c297d23184c05bb58abfd43a3fc2dd483380592, 0x2997117304dfbb464b5cd4a4188aa4f6ccd56de9cbd813da270ad7ee699e8065, 0x2296482e919fbd46f7a518155e72a55965596866f32b1f8433390f3e1f0e4063, 0x2152d5f164ce09f6928ace2566bebc6109a4f62047e4747a051e29dc187525d9, 0x1054109861b3349e419216f1bbe82f4a57823a77acb1deb6c48fa267ee5d302f, 0x1772f4029540432ab8c6968b3739c3a241cda3ade13ece2ea0a0b157d65c2c93, 0xc296afdb2e037d7979878671c78a5f6008d98cbf75be4e3ec3cc1d44e8459e, 0xec85b22c62686e52cb79ab29a0181dc8e34ddf3167d1e353514ec868e729a5e, 0x149e2435c20d48a3ec56c4e45dbbc583b85bd64311a2576ff352668962c21866],
    [0x1d44140dcb4597c7214a6ed85bff1a3b5fad33fd7c530699bbd610e3bf5240de, 0x3cfb0570f824856fbf41513be01ed3271e1c38a16f610a8097cd27a1325d4d3, 0xf223b396423edc29d51e58872b2dab7ea3aae89517bc41957eac79ce9761379, 0x1fe6dc2e6e83ab88e84337a45130963337746ccd01c2f2be100080be32a59520, 0x47310ebb459fe860c954517249440d367c6efc5b93f70c410bc76f8088b4a3f, 0x21858ce69a019e4cd46096a61790bf7e03e10e3edc1a2988df768498ad667cdf, 0xda4f87da196dacc964fb6928a51f3acef042037db741f317b4d80a81cf98a8e, 0x198eeea981eb256b4fa43f05fa4e1aec908e57613eefd35026358080e329bc12, 0x11964efd21ea079340c66ad92fdb62b8a18ee08a9992f133a417d23b78cb1b0c, 0x4b07b1960518122f5725ceadc0c1f060928bdf0f5ec42e16f8c2934877b4143],
    [0x246f5fbb5f719b0896e07b4c23fcf1d24487b4c775983cea49500f8637709ec, 0x24d78daede9327f49eba679539f85d099d6583060938cb052dce50125b01cdd0, 0x23de932658d2f181f59d7234a67e174763ff790d3904cfb3dd10af8af4d8865b, 0xc4f5431daaa994ddf5f3fe6b1df0c0c42287a38c9a5c4c758f72638e3bdb403, 0x175999589895b6947d386d83a5e6f5faf9c6588d523c7846433212233f64d04b, 0x2d54cef5e3cad1a80471bc6ef0c6e4e74c2e56886a31d79257b2762ee7ab517, 0x1539cdc69fd93f2ea50dd12ebb0437c23df4ecda29c76aeb09437ffdbf01c778, 0x2359a45452824ba97dbc050086bb910c12cee0a908db1c2808979dedc8f29942, 0x880e5da2125b0842203bb98e5f24ae26228a5af5a6efd5461f634a4476a15f2, 0x16110fc6c8167930bde230d5df954f107cfd0da005aee44ec5ff642872764c19],
    [0x1310c844b70d6a5856f6d18669e532c2d6bd5d01e6a31e804d81a2f5adc63fdf, 0x2ea868217a99a6cbe79b442e2152853c7330fd8de757eb7555765879fe42ce2c, 0x29c5042471d909ee4813cd1a36e8eca08d4e0d383009f17c4a367a877a3df4bd, 0x25e36eda0eab576075e88ada3914c29442172a027c6d174ce0ddfbb017d51dff, 0x2d21058ec44674d8493e702aade5bdf3b691e3faac0427089e867f9ed856bc73, 0x18d17c3835ecab44bdb8b67efe2acc71d39e9d3443dd0ed11d95045409a7c788, 0x28a2f63b0e940afd2c78d00de1aa6fd6953e6d6ccc3aa3203b39618f5d698f5a, 0x2635f5bd9bebaff0ce7614ec7843418a9aa83637910229beffdb91e23ebc10f, 0x1fb8e8726525268018845f8c826b0e4d56c4e9c58ea92752d581d1a51702b882, 0x87e2ce4d2ae5c93ea5611d50c313202a80c4b43533b49077fb569f837ea1fe5],
    [0x788fa9532cf00f13c817f38ee1bab85fbc687998cf1c14aff5fc1eab115a7da, 0x1c5c85c57a1f7587f8d2fcefc1d4e98c2741a019effbd4c50334b0c15c3815ce, 0xc1fb832b7cbe0e7e11e8edc2baf8749f6ea0637b20e972a63315dbdd5be1472, 0x229758a22b52ec3907f94a117f6639164508c77bfdbc679c1b3f876b46caf809, 0x5e066ca1257d8d5edca65a2921fb5b5e01e3a2f0a2a3bc6622c791552190a2a, 0x2b1a935a4ff16c2500bdfee2086d9df3927a358e8eabe75f6a70d7db25a31917, 0x19a55993108088e03fe7fbc2a014509ce987f4277f729ba5b924d25b39e0669a, 0x1bb65a3f9a4375ad926d44c188dcfe51b5a5dd6a7ee152aa6ccce44813e95db9, 0x1f721c4d0db7592f9bda01fd1fbebc8e57452e218d8a2e19163067d4af128d37, 0x2bd32a02899498a973382a4d40266dacae898a9847c2b33c2ad30bcdc4254776],
    [0x28585b052d22283650a9139d6361b08ce94d17d7c8f6dc1d54f58589066e4a31, 0x3eb34352610227beb26f8edfe466cbfa347d7950bee431e7165647bf1c5ccdf, 0x1c1347ef418d657abbe6e4c019011bd34ddb207ab54a9b99f07c4044589e0986, 0x4a8aa3b18263e171363e9396847a1933f044fac5f5b11f754e6feaf54ec4747, 0x12744a063cabe92e2e18f000afef29c928585a03afac3b2f4c17141203944239, 0x10af4d39a72d2dcb65eeeabfca40a08a69b274129704c021a01388ff8662fae7, 0x1038c656b332e519f483d54e5222b34b35af12906d13652d1d8c6b0f509b27fc, 0x10ee02ed1176804b7d43696eb87643b4fb45f01dd65889e5b65128f781d39d93, 0x1d08ccd47541575c60b567fd9b6705de88248f9cc60af2343098d35d9e4f6d35, 0x6bbf6e32d26e922baac8c62bcf85ec934cbdf6870e3818cfe49dd3a4c70897d],
    [0x3ae60403f93a98370688100dcd87ad4c71ee529c4dcc3be32d6bc0621d42355, 0xfd0f776d267dc3c01a377d217e33a255c39937ac281a3b0eacb58b1012393c8, 0x2d4ab3b85ee6f55bc17d051fcef739168ae28b7e6d5aa4ac12a2dcc07b9ba6f7, 0x2ec07b3fadbe296f9bd1fcd1758f95e6b922db7582068d76d552184131e0832f, 0xa6013e37f560f540dbd3e9790600200777b86a577c2d2d83ec7cd13db319376, 0xdcbc3cb4aafe08c62731dca44c843012265950e0796c73d8f9e53a767c7e888, 0x198c373fbc6ba598020456f624dfc906f28cab915b70eb5568f175f842355c27, 0x2a9515770f3053638e3c064f5901da7acc2510fb29f5f3607f8ad1256ada07ee, 0x2d4154739ed8a6cf9a92e590812f15f93013163f57b8039773cf86348d5318c8, 0x2bbeae4c716ee136c4ceef194e7985d46415fc130430a65b24e9f47533077d9],
    [0x192b5b08320766f45be7bba9e9a70c0efc69afec2a75e4e071e6c8f55fb9ef54, 0x2bbe0e0bbda936b305829e3a74a82df030d4fd8112aa7f169670876b028f0702, 0x963722d8db532fc95cf2240a570cd7a136366dff544947845b6d487dc7fa62a, 0x16010c0ed7a37bca9682ac858fc8d2c4af513f02d0f17dd306f05cd57dc694cf, 0x24486122987e17077b026baa81e705e5d0cb76b4d92dd3ff54bbb813f3d09ea1, 0x28da35a85262582b220f7262ea68c381573a918c10dd17e8e564eb6da113e5c4, 0x1d3196aa6209085c34db2f0e2b3dd4bb6bb670e6ca24d27d90dc8efa5e81638a, 0xe56fe4b7ba62dcda0d2f7b9de86bce6166d79a0a0c3c695341fbdb407b9a506, 0x145fd47676ade5c380b90bf08020faefc8c3d270c6bd97f92a18ab94f973dbcf, 0xb6704486fdd2a633bf9e40a5c5e4091e2d430c937306ab3045b39b8b74e333e],
    [0x276747994473ba9152275d15beafe42b924de69728107898b4701a6636df3cf4, 0x12665324c9fc8d246c1518e040a15e3a17c0f83f0a479571d8f61a47f3982d21, 0x288c589327ff97824eaa3dff40bbcc9ca73f69e43eebf24b29cd53fa111cc8d, 0x2c3b3f266f21d21da33e4c39001c7a703e6b93e047357840123f30724fda336c, 0x1d089260f53d9b6d912460c6a9d9ff9df5a6391a492731534826a5575e8a7725, 0x52226cd4ff2c85dc3fcbbfdcaa0ecad7125a03d533223c8667040fbfcf7062e, 0x2712f9171804273a9c1973f7e87fae28bed9a833fdb70ed93dc6274865869356, 0x276f2f781e0c9ca0424a9a5135593be95764a759c231199db5d5e0e776e15aac, 0x2b21ffc3ba163ea61b7c0b717d519c64aacab81957e268e175f46876e9ac6f62, 0x2f3c2b6874b81531b890a603be7e36ceaaed6c8a3360a868f18bf23736288c09],
    [0x56721148d9a370a8e8128ee00178695f66ec5063c6660ff554913394cd5df67, 0xe1712fd1798dbb4a2976dfaa085bb9822d2d2693983e99c76a556e75e63313f, 0x26c9846c7ca0b8227b6eaa7634cfaa6c4a13bfa4710cbefe80befe5119c0b608, 0x1ebb9eb479a644d25f53dab3e6dca08339f0effde9b7aad7a34748507d69a8ae, 0x1611f5e2add8ccfe9d093bea1d55eac62661a9ac9713fa4c70895997441bba88, 0x2462c3d5555611aeea4a146b8da50d30c419943c1aa600e5b13bc47a3810f63b, 0xf376eb9e7de4c45ff508a22b34e55f0ffda026826a98b298672d81c826b6292, 0xe7ff80c3d19a2ad98c8c52a5d19d1712517aa65826291ae6e75e0503c8b8a3c, 0x2eb13ff66ab49a73aaad760f5bf271316f3f8538c526a1a64fa65bd3b3fc2d4f, 0x22a40e530de7dddc1f842c9421192c635b43a6cb1f83d89ddbd3c56c2a512edb],
    [0x2740baa318c02fde162c920a6245b0f2208f7d0ee189823adb47baffdd5ee21d, 0x1965522cce8bd29b3ceb508ce40431f40d54b59c0411e5ca427f8c1c789d29b0, 0x10a0db7c2b0969dc250647af0bdb0d99cea4285fd8a90717c2760232a906be7e, 0x295486271ada3cae4cfe3721e6d7b0acf21bdca3caa0e020a6d88ead1f2bb11, 0x1d00206d65a92466ddef22e5583661c68ee313cc40a01c090e5ccb118a1af13d, 0x112222605052423fd6da21d95545d6e96878e5a6f43fb2666e2fdc5937971bc5, 0x25cfafdb7df32a86f2ff44a32ad7b2fd9a60f31a44e5b5ad423ae52b0e3ff2ef, 0x1a42aca3307df84a81ff5b9fbec011ac9fdaf3d9c73cdfe95011f7c1ac779d15, 0x14fb6c4e0df0063275d380e67c251a29ae638028d8e6072a6e4fdff4e039a4ff, 0x1687f501a8c07c9e43eb4ab2244914b651293807a28bc43d73ac4b5640445264],
    [0x2d64ba4067ab898f7b434409319d7cadddb14182f613e46642919b43c89b8159, 0x265e19e2a2bcff9489cb749daf9b77256e408f180cfaf05506e11a02d6d4b142, 0x1120d9116a584ecad323cb8b8825b9e43ad16ce59c5e8bb5f11b4ab8e5ee6801, 0x135c200f7c145c042fdc94ad5bd2e4661b0db889ddc3c24a207f5c7c4098034a, 0x2f9d365d9b5f9fffc5491c0cc39e6b9ad14e4d8794bf76e66beca2974dc6c65a, 0x2bb27c1a1e8452f317bf86a6384954f8609a285004593c52fdcffe7d85812df4, 0x245f28da6986368776968d7e5da1763d38b4e1a5b53ac3b457b26d35d8cc553b, 0x16047c3f4ca23c6f5daca5d01ebc6721a3d156ca4c35e0084903836bd12893be, 0x13299dddb9e277b122240d08656164d15f8d15cc7483de7087e8ad96909c0565, 0x1590dde29e11424a0e7f7d4b3e0fc7e412d092463cf9545b7c62260ab2d434b9],
    [0x19fd60baa2486bfdffffc8f672ab64cba40b394f2818366c76d05b77e91e2b36, 0x265828edfb0391d860822c4119b39ceeec02191653f95c7392c01725444ee849, 0x23bda9a3c2e8bb1b227b126ea574f97ec7793cd80c62ca44cf8b2e415132bb1, 0x1b770c804bfb918b1976e3357ab884668b0d2aa414e007ede000714714aa09d3, 0x1d84eaaba6521eb866b600749069e6643daa80f7de10ec27351f1369a3729d13, 0x73a0aa1ba4c1e1e982ef00539183ef648fc441be88ab1dc5315a0cbb401c9b3, 0x25ac099aa85c9e2aee6789f2592258cdf5ca8c7b5739e267f12034f705797f81, 0x1c1f0dc22ad54da9f26321b793e014ac1b853001d156eb590e6ec522e6850c31, 0x103749ccae90e434a1d961319f96c744e04ec0f77c8c6505bc21a1194da6c14b, 0x93c47c9dad5ea61c8566620e4f436c36ad00d046b252d2264d06d9a377e9c68],
    [0x12d48a22d443711b05bba73fe7cbf5e0734df7ed34587f85d850a5158c0a274e, 0xd1487ee7bfca46febcedb83e9dc73c33d3c099bf3c1a779334834f89f7da334, 0x2ebab1e544f6ad4525eb5592152ecb46f8e0f70cc54e739f5ae4c48945e534a8, 0x17260110bc0fa2d859a65a519b679cab157a6485e5062cafa3d9e8523543d460, 0x14b60bb1b813533655b74d1948fafd94c73e1e0bad2bf3e7cbbe997c40c22cb0, 0x144ca9b18104b5bb5a9d21d73bd957f373259539a163c78197210cd16c886641, 0xb698540c0ab22734bad58e48515ff84520051215f5ce4915d80444032a3ba49, 0x1f458fdf92a4c03bce2bf69dd3dd4e26bfc1663c187799bb35958d3613e25bda, 0x26c0c3f9f2abd19392330ee93e2554abb27ed377481e2a2552798dc952a0acd7, 0xfe825bdde1abafb480e985d6fa8f4c7ae9c6735f9be0a6924293d2ba1145c0],
    [0x24deed3988546ae6520a6c20c7659ebd2a5f4b828182a30f5195674997b1f734, 0xbbbcd555c184aae0891582c61d65195132ba14aa26fae5bca4cfa0ef71c90b8, 0xf9f78d85dede378437afbec3f6ba40c8e3f674cbaa51f2fc53555779ce9aa4d, 0x269cd2fb8c03936aa6e30dfd09c34ff786c83996e89f706c39cf9a673a79c8f0, 0x40a5ed55c1541ad1431b2e0a5c2370cc0ab8cb2ab31e62505f799b0a535537e, 0xb10db52d69a08382c9b0f60d53c586333018877ec879067a2f9548fa035b613, 0x1e6cc5c4090d2d91f567237064c57abb80f1d1886a509cab6bc23e81767a2aa0, 0x104f9966b6a892138319ca037d4298fae4fad5d09cd05e6e4814b752e51f570b, 0x29d96f530ed5cc92c904d21bf560c82923bf6569acb90abfb9d68c495cbb9814, 0x16b917a241c5e2a1941d745666d8adfedefb48f9cffc756fef6667439eaba1fd],
    [0x28049dc8703e7eeb4ae5cb7eec9d0b9614f33f03beca54a67d729cff65971fa0, 0x2bc236714aefeb86454cf972676c646a071e70959d53871a23a27bcc4a514b46, 0xe85e3f0b62dfac04defe89326b1f1c9c57f95dc299ef95fdce2dd130b0e09f2, 0x1576f55650e0dfa819a1273e6a0fa04c1f1ae18f1f841daf0ad5a235793b862e, 0x2e6d1f984d90d778bc0e0990dbe6be66258ad00487129ab3438da90c9ec307f1, 0xa5216c240378084d7410cc778801c590391c6f600a85514de1d5cfd2e29fa95, 0x16af0c6ec857714b9e9e7932ac8a6b1b01fb42532e51e957c735e02403ecd492, 0x7ef3829b21e86dcdbc3aa02fd246b8fa8e7e4c21578ef0584874d36de491aac, 0x21cdfdcab1ffdac2baf015ddad7ef6fc196b7442e82b370a1187b484d5d62d5, 0x911aa1ce608f4234ff3b9f35d9be546f5e7b94bf0a25f8bccb3535ebf1c5846],
    [0x1c861eb01c4b335ecfdb63207c5167f2f2a2dbbd4c604df9739082c5db91713a, 0x32ab5c0093afc059d72265152026bc674b6988489fa1922d3f6a130e6e98c0b, 0x1dbb7c4e30b3bdb3a248e0118c9259c31b75bebbda8acde2d114311e1166b850, 0x295721987b2a072f968216f69e14afc10ac7ce6870a1cef620b9e3167121e565, 0xd848bbb53ea8c72c8ca0a933711061cd11c38bef5204e1987c6e0016cc87728, 0x125437f6105b57329c045376be9801f150088384916ab57ee90e4df260533e40, 0x16a6f85cf070a9343769dfbde8cec30d62500d50ee294167b0cfc9af4707ac24, 0x23e4ba166e2b5a1506df9dd4dc74c7a30dfb79f493ade38be21c0a604073d359, 0xd7a570d5c131bf78031c66c8ae5fd454ba9855fab92eaf9ca379d08e856414f, 0x21793d46a696ee5040f599f482bd9845356c02e4c2b07a6450a1005543665821],
    [0x4cf9f12178ba86fab11c12d690e620603525ff7dfcb5606d0f67f0a7250d0a6, 0x1e1c8714aeba7e7549e08477b4365ec2dbebdfbb6018937f680d3cfadb5b9224, 0x125f99c81db5d7e74be0c6e6b4476dd0e503c1c704b3c7d3ff0ed356f9a5bfd4, 0x111bc3215b3bb2a5d17257fa73a77851d2a24e4804ad1ac6e652f0858326ceb2, 0x9e73771faea0065c80653dfaa8bff402eeb0be36688343826faf639f684b31a, 0x964f621946810a123469fce6b544ff61cc9b733033b632070d47bc9474f4b0c, 0x9532bf9f11051f863a4e80679782b0732d663947390c12b02954918a18e47ad, 0x1d14808c54583a620e6587c24b993b1838a0eb07395c3085b449d3135be322f5, 0x9b88cebccbb2a0a18e2d2e799e77cabcb4a231123c303e98cd897ffad598d44, 0x24ff5ab38ef457484493054c9bd3ec894a8566491a91a52bd788343c429d0a93],
    [0x13eeaea2298ca24ee7a73162ec3a21d817ba86f9772bb68c0461d115535daec3, 0x11600a36cb41fde2dd26a7cd4a98cd8beae0a04e46db399eec5c1d49020510f0, 0x2c7682d3ee4ec3ce7e1f67cce9bdeba4a1f669f04d9f7a4bee13b3c97d3eaa3a, 0x2d9b1db246b004e185b08c953dc0af4fbb7c7dc67b2378eff707507b2db06cb7, 0x17f1407c2872d3810b7474bebe3711f72583cc95831301b4e3e06a3ca9628318, 0x89fd58055d20602bdbc2171ae485ff48f205301065932bc9d526fe54d297f02, 0x2779eaf53710f3a5848a8dffbe40b5f442a8a13c514ff97501fdca080fb3bafc, 0x7d6c3ddb807b8634c89aef35615da73596e8ee1a8cab49d022f0bca8780ec15, 0x1b2918da0b9beea69a80b05a151e681722cb66fb8ef1f7dd82939e991cd021e8, 0x1a21a1409ddfca99e3c0987f97450840f958524affeb28c18fde739c8189cabb],
    [0x1f9e67e3979195d368172267a6ba3b448173e2379f25caa137ab6964714d1fe1, 0x7e57931399bcc4119d9cd7b2191793de0ee69474716b08008a9f68a428787a6, 0x9ef7d4aeadf7bf593c5a79279e9e65578d14315df9dee07401693d199599482, 0x285fe3b15f4b43269d4cc0183f9f75b0b4fe69ff170ac641b18c7fb105d2d711, 0x19a7682bfecfe18fbab22301273895c1c4b9a994877dd778646e9dfd64f24dbc, 0xab794b4433b5d0ca9f3f9236159ee7b9f112abe71d3a4d19385202c209501d0, 0x8ff64f5bb9e3f8be81573117e011c803f69dc6a0970dc05118ab1071a28980c, 0x2f0d454b49e0366171d95142230002d70f90c8c37047c6b258c07c0c9d0388a9, 0x17b463c68fcba461e149e56eda9e8db1a4bc5c7b8289b0cd4286deb5c93554c8, 0x2d1a83ac832e49280df94b1e27bab65faa9e21a60a48ef0f4557c03f9b7d11f1],
    [0x1e182411560c80d7d4c480e4fd65b9997132a4ed29f9a8dc3d882209b63b07c2, 0x4bc5c19cbb312941ba1b731f096349ae7624eca3b83be88647080f794d7fab3, 0xf10a1319508c09aa4427ea79071da02dce4a1745e139e6949f99216acd8305a, 0x7579d96bab793ef1f740713f70f3d2cf4af1d20ea560f48e6f8c04df64f2077, 0x1fd8b55d0a28cfd009b298b30e226aa3d42433dc148318c99c4e32af13c5144a, 0x2affd50c6aeba57687d824aeffa55c217f633d46840c928c0373ca46432fa731, 0x2fc1634b69dc697b668fad3e89c88186a76e4077bf6d1140d8e428eaeb7a3872, 0x23a53e514ab262e22eca7ee722497818c064f8f74ccd330503d7abfa85f015d3, 0x86ea98e8a4edb6d8500bca03d53a03a22f69b6f132c99ecaf9e950fbf26c87b, 0xf48915855b4d191b7c37d85e8a5d491648cd4e53f5806d499a8de87ee10f2e2],
    [0x13e0bb95d9d3078c10ed2f731f57f5e9e40c95637574e95a933d9f2a7aa56c5b, 0x2bc35b0c5b335dfc6f1a9362e5b389dafeb65f0ce5b44548280f46c16ff51feb, 0x5b2ddcc86a8504b00808acbb4a643b169db2b07fc25c9cc3138467ca750b5ac, 0x1750d1a47da211d8e8386c198095b83ff665b589ac278bca8c0fa01bfc683cba, 0x1bb5321e95d1fba2b22cf4d75e2ea2c3643b85efbbf1a3b2cd4be0e7d123880f, 0x2a4e8ad4dfa27652839ce179e0964cc4d4732fb55370901b3292d663bde41ecd, 0x19b984a2d5a0323b956fae09b529bdcf455122c443eeac7ff1584bcdd632787f, 0x11105f818cc27232a8445ff886ded838fe980038727b9e2b33436a55c2f9fd3b, 0x2228205732fe6b9af281b5b2b5fda2d07f5184c555fb52a7f514c6c1b1fa80a0, 0x20b4c468bb8e29c186e7f45feeef84bd857db85643aa798bc264519daa463fdd],
    [0x14bcd2fd5c7392bf9d93e49b5855b5f35c717d4ce51137b8751b828386a7a5f6, 0x161cb26e6fa48dbb05a5c3bdab4a1a524469f98b8d10181f2848029c795e0576, 0x26d537ccd8d4f3e62fd0fac41c6a24c9411f4d6ddc03276bac261768953bd745, 0x1de7d3df97d11a081106a4bd21b97603a76adff165cd40ac747ed49e61c611f5, 0x29800fb0020ae18d4efd8fac1def5c7607af35f4e223904acc6a14d8c6d14ac0, 0x271271f850f692a3503fb72124b583a81f3f0ea6789be3a56ffb49776579eb25, 0x16694bf37fe421340b186cbc817d0b136f972c935579f2da300d8f3c663481fc, 0x19ccaf839bcde3fb9764e57b40f8be036c1d0ad6dd23caf40f0c2dea764b4538, 0x1345bc63be8e3e86d3eacdcc4cf142542e0ac660f6f75fe34d3c7f3453823d2f, 0x7e733e36a63b1c54e453050ae43078c86a1803b9bc1984f836da9e5bde26cf4],
    [0x67df85fc461d1e13b0a744c4f7894d3126d400c0f674115d764a07a053f6431, 0x3c2025ea4ee2c19b2f8d8be0a2b90a1d2f43453515ec04257ae1fc6ce5334af, 0x2cbf1dc7af58fa9adb8ba31b1930847624cc4f8f67cdd8bca3a9276c1f06fbb7, 0x12035a5219b900dedaec32f62cbb85a2228a3e71b53afd4d2fe6b3c964f91fb, 0x1b8c713c90d62b367382c0ceebebe29893157acd56e10755d10699928f3505ae, 0x14475f758d5db01a2de2add46c405d939eb1af0ab36bcf26ff93e4860541dd56, 0x213776f1e0fac855f958cb20aa090d4fd47e70fd0e936f751037fc33cf9c4127, 0x2acf42c1eca1a093f10198dd5a16bce16bf8b21107724a94aff2f190906e6980, 0x19194b68b898476596a9e2d4056e15c95a6648234abbbf9ca592cc2c53703380, 0xb20a1d9a2470011eb2f8180215400b583cbbb1fd085fd53bdd1c9217cc5a3b8],
    [0x14a7d1d7065ed6f6ad72a0ef3b848d76034f7a95d2da2a06433c6c4160ef9c8a, 0x19142416e3b168abb99babc17ce6821d95a29a31d92bf74a122a8efe799f9bbd, 0x2cd1571dfb32abe6e5dfec8371f8130cf77566a9eda06cc8b6466fe9e1b3c528, 0x1cb1ebc4b42052876e83040bde7b380230f5f145f9400b5d4d7136a61c6eb458, 0x5c4ab72cdd1de95419689661e5e735e15b3ffcaeca1fdc8669e73d8a6cbc96d, 0x24c8da03cd8fb497e4f0450069b5d4deb102b64e68d5889772483e8d0e3974d7, 0xde8195805706ff74cb251cfb0bad9b9e3fdd059d01a5fc7c705d60971fa4840, 0x304ce8cb3cd5519623520a4883d35792256dca0c12dc1e855157a59daa4508f4, 0xf36b586984d1959a79c38a0e06450edba003daeb792c8d4df307c55c9efa8b1, 0x1a8325d55480646ac7faa3addecb2ec0ef7482f10a099c5b4656752e24551869],
    [0x2d7f6744d06196ae0879f406814aabf889073505deda846651fafc8c20185aec, 0x9205507dfc37672dd9711d7bf42e7de290b366b5df2367d437a82dc9e086681, 0x1c22e9bd3f23dfc3f73dc73c9131e16a8b076818fc8823425ccb1b732bf5493f, 0x1c5976233750078411d6c93680d8879596dfaf5f92d48fd4dd94ee5d29c51ca1, 0x7cb86c6973abbc69f89d248d744147e26690a61b6e31d10e980137879e42673, 0xc3c9880a8248520b611ee4df7fdcc16a66af45f52eb010457579107dcc99d39, 0x3928e6de66d490cba3a1e3e3665123919938effa7fc4f8c9b31bbdee1e479ad, 0x340f788573b536fe1e42c7fd409d367124723dda9c4b0f3b962e0137667e87f, 0x30a65bd5db79f009cc1b3fac1ce464c4c0d543385252da017b116146fe80d82, 0x2a42a802de9085d92c3bdd4086371a3f17ed03c08a2bc61b3e43e0539357de14],
    [0x1549a1cb250435699b3a2467f83901128094446a6bba526d5473e8241b5004aa, 0x30501645d7f67d6d4e1f64b95a344a85bc6a6f97fb361e7692c96cfd54a1d414, 0x1c3ea369de18dcdc3378f61dd563a1aaf256982fac9ea0994a3eee26c1f5d00a, 0x4f2d2437252a0d4d9ca4c1b01b66083c701281c233807e744910b3ddb971f3, 0x132fe529e4aabd030412962480562c95c8fb3c4abade9326e1d87becbe1392a0, 0x19fa107156b961886fb9d99ec13bcd8d0c4c544d4240c1f7f43c77c63f144857, 0x2d5f91cd3cb552dac7f7843f60552bde86f45e8bbaae484c6b79ccff34ac5ee1, 0x2dadd9a69ad146e65bbabfbaac3378af9c5540d17b9ba19bb29c48c85dbfe71a, 0x3c9003074e450209212b3bd1622da61c71aba0e8a094a7660be1f4638eabc8b, 0xba91729271f6b814378bf2b847490d8b06b46ca31cc5c4fc74c1cb04b71cf14],
    [0xee583d817f1705ac7ac0b9ae042158ad0d5ef3672c1d13dc7dd794aa84f3061, 0x1140026a5abd89c4012d2c43a478b52fbb46ec0861ce5b3b7c1cf69fe5c40f62, 0x176ec0bfa58b3976290ac145954418c577ed77ab87fb9f8228175a9ad8e6f5fa, 0x13e5899c46c14f7004fd0fd376476cd34aa7d3b13470fdc5232d56a3e59b47ea, 0x16730ce766f65c06cb611f8d7f4fc3d53c6662ea12ca4502bb968873f3e14f86, 0x165db0eb885ffed5f77a557b3eb21ef2d48b4a7cc6220709de00e61cd9f8f525, 0xc428278c217c1e7e76e3110f7e1b26a9095e8c8cbc07a171714e9afee2670f9, 0x2ef183424c590a0a5d3b8a639f37e4e77d10fe9e12327718b8ecc2b40a2e92be, 0xbbbe09fbbfda7b6e06cad868cb1a389fba5ca299ed9545351c974e612f5fdd3, 0x2f42003eccab3bff0dce2b22a8769a5ba1a0a6f854c73a788443bc13e8fa5ea5],
    [0x59113aaf928acd9154ea9295a5a69f864149ec96f0409673be860cdc1edded1, 0x1fbfaae77bc060fbbd03ffaeabae2cd4d3279363c5e4643783dfb9a5d5946825, 0x25b3cef1d524c48156e9a24aa0d2c20ed32fb69b4debe1c12de50db246e3c805, 0x15e6f0329ed4e44d0323f02744b4f6d0321e204fd38c99ccb72a35784b94026e, 0x16e47f642bf13ce66c2c2bca01a2763d704b46de0d7c99dcb2b480707c1a3bf7, 0x1d9f848cb9dfdb81cad62dd5fd43156e57c4ba194e32b421aa07de9e0a8700ec, 0x70e206946f4cb2c2a7c5c7c0ca84fe53ffd884279259eaeeee00627dd985cfe, 0xa5f91aed115950ce6348b0f0f001569243c840041b974e4fbdeaccf72b19da7, 0x27736747795d235597047a57b524dd4c1ed0e3f42798215ba85056bea765540e, 0x167c1d76479106953282f945c8d8cb72160f6310470a7f5165f1572d6c27ea4],
    [0x1becd457d21ba094804c47c3a688734bd543b2e6d7cb51aec0ca89d6c1e3c355, 0x1f43386fe739e7f9c63fbdcbb82bccdcd417338feac1eed42def7150d4a21358, 0x2d091c358175583b32cb97c58168f32d83a68c99bdfa7c2008d9c454b0eade16, 0x17257c5bc8dad57ef6f66cc041a1606350900dce184c312426065346dbdb1ba, 0xb4adc03c7bfd313902dda678c2fa251522a92a7fc6e4b47d4f1ff98ea1f21c4, 0x1af84524441ac03fa2d8b5b391a7c371f2d9cf06a09005fea6e3b708ccce2cb5, 0x23ecaf81286336251a1fcc5dd44a4ab9fd3940a048e771ee4668830744a5a9bd, 0x187bc703cc893e2cba22fbb598c0e778c2046adbe58b3ff252d7b635ed990c20, 0x260b02db111d63998b6af09a81928f62cfc97c4f8cba26e828ff5c057a0e55f3, 0x2f0232a9940c4c4cdd0e44e3c4785ced14ff13b5f871ce2f6ee35742ad050ace],
    [0x50adc4d5d64807f730d0f450da5517479a3786a3bb2c8de24536a7ca5de2d8e, 0x16ab8f682a4083d0f999f5816f41cc7edbce82c0d59bccaa89c254729440f981, 0x1127fb2f0ca9cc953fbb1d4793474263a6e51b77e72c38b1147ef865415d4dac, 0x1f6d04ad97f2f4b710f91f5226a8c55ecbc1c25af4e4ca8b76cc4fad24eec674, 0x141be544be4c23b3625efa886da65e675b6799028d3a7a6dde1ed149faa49678, 0x1bf785f9867194b45e21dc76b200325ce4bd664b7ce3699174b28c0fb3243906, 0x24d9be7c32c7e33bf76816e19a3c1e4a887c9ae74d15a7712dae802864c08651, 0x28a481ef8515851320db9cfde816826a2eaf994aef8a551a3d0022d77205ad6c, 0x20573c158a49c54731fedb7c494eba7cca17975cb4a448c688bc56495907261f, 0xa15b156592972641eef2970904de3e1334376ee64bf76db4bf5e7c8542c21c0],
    [0x1b2bc4a3f3f448efbfa21a4e41d5d6e09b73574739b66eac27e65aa1fdb78c70, 0x1a79a5d83a28bbc4c113600038135e86ce6188df4dff938155301593d4cc73aa, 0x1e15e7f11ea36757fdcfcc558e7c6bd8c7cb8484388a2c95258e2125164df413, 0x298a03bc1edd776ec3372c82ce73c44b3e12e9509c124459f15d9df783953816, 0xacaed186bd21b6bf01884c2e80dfb84699e0bd83b7770d03b918d24a0129316, 0x2529c4ffb6c39cfd1aa6e04800cb59baeaa31da43903d3385b2ab25864812963, 0x19c47c2a37278f183f3b58427114139b3eb82c0b890c4199706ad944391fa6a4, 0xd2701bdfa57cf911f1cd1fb435fee068caed685c636382249dd9acf45d4c989, 0x1e58e36e0ad7b4bad27ac7f76d34ab497488d1661a444dbc07cb9c7219409f12, 0x2698b2f66fb15f3b16a7e50cbd835a31fbb83e0b65982d7a7acb2971cc5825b8],
    [0x1c3a8e3737856514071a5891b7eb286fcc836f11b629c12c9b61a76a6f6dbe2d, 0x2927ce5173086473fa445d53172a05aa66a8f9d9a169f685c47aa989b9e0f5ac, 0x25aa17d824580d6d533236412a489aa45aa389b3d3d55a345d35663a1b143bf1, 0xfcf1112dacc31179819d66574a5cb8ded45003f76667d34c1d34153d8fca994, 0x6032d6e50d059057d461477999efb4acabd1a9da592731a4048ae8d19b3d351, 0x1e40e819f426fae3dbb00926a7d6556f30d84934ccabf99e9876351d1716b5e, 0x27908496d0906f524c251653251098cfbdc97b9d7417e437710e1a7f4b80d08a, 0x2db1814f1435cd07ee54f8c3205c7d76262cb5fc5da605836a08d47f3fdf134, 0x19377a45d6a5de00751ea901198e1a0acc41ca8a99feae5eec07fe5233d289bc, 0x2d004fc82e3df9a9b89321823458832770ec80f875895a3ffe2370c0aaa5cfba],
    [0x17b836256a7de413cdcf93a4c4f8fb6b76975b1efe30aeef0ac12a83b3434c0e, 0x1b234a28dab9149e2cd39bb34f794a85dd125f33383b77841b913128cb86a3fc, 0x158861fd76bd8a58950c0c55d9578c9c6c3ff1aefa88803f32770adb1a6f17a6, 0xeef809302d3141584285618b0ff2e6a373b1be0db0685be371bb601888aacb4, 0x1acf3ee76f19de157996768dafafe604e185bb23356b6e2592032eb732dba44e, 0x2f4f55f57b771ecc15813526d73b52b2fa1c4f065517b9bbf8c3658040e120bb, 0x622964ca65a48b30d40a9fd4e8fa757fd737f020459e74a533cea55829072bc, 0x1c8cb349b5eba594e3e96ee041eeb7e096facd421f789bd7df6aead030cfd1eb, 0x1ef519f3b82f280469c1ea7b2551d3a38d3e50ad2b0c52ed0185780e83470697, 0x71f966c5bb87111e1d0f03d17e2885ddf50b7b5dac99f2cf9c87f25a1383354],
    [0x768f94a8cc8222f9d2eb36abaeae3b351ad7c8fd075971bc95de6c2422ff2ab, 0x136fb9d089170fcb343dd1f2cf254468118c97ad2c951b6b3fe4933d5a4faa70, 0x14204ad52e17efcc8d6c3b29ce5220a5ea8c6829e2a9d33f646df24212c2ca81, 0x19349a56f15918f1e9c6c587cd23bb3f933af583322dd5c0fa6166cf1cd58c6f, 0x2ffd15400e3d57af1d503755eb97d331814aae9add4764bb7e951816e06b4fd8, 0x1880d406f04352ba0e70d1ea4e55302f239327e1dfbb0fe9fa74d947c04304, 0x2194fd04a6d3e80a04f53235a5f46e8e2225e99c530173cc28fb1577a0ebaa4f, 0x1384ccdde57742281a3d117c0dbc825cb7d1b7e2b57c0dee6521d315d60d8a11, 0xab80f679adf8789e9f68615f8e65cade12c9c19e8b096f9d7a58a6e9155afc9, 0x1be3a55706d4814487268bf10196ee80009ac69d26eaa4ae6b8299d3fa27da6b],
    [0x1f8a7889404464277e3fa7dad1438e5a55db2b53b46f1080ab25b31b538acdd4, 0x263c85c58282f656ea6193f72641aa2cf99ee4f7e47f1bc1bb22c46cefadbaee, 0x1019099267ff1ed724e463573701f4c2d074337b27f474060dc35e72ccd18a1, 0x429bebc430d4062e38733619b8d3fddd5c26d05b203ba9bcd5fb9058c7545f9, 0xa03e113f74fc0aee3e546e5937bf8c561c12274fc5008cc63180a26004147df, 0x688887334f483422f47a9397e45666c9fdc15e508fbd4fa83a5e722be92612a, 0x1cab73177feeca8c863601745b40138d81b0c209334aac58951709278ccf7c3f, 0x589e112f43c979ab3b8f131a7909a284f3786783a9205271f79813500826f3a, 0x81a1d79b226d02f3edc79d6756b2b78d06b7677fbe7bfd2e1c73c5b055cf6f8, 0x1d126b23da26bd262a0ba45cb83b78ae17efcf1aa5b97478d90843f0a618e923],
    [0x19d02ccaf1f728c35b88592e300daf8c6cba6eaa7334352eb047885db22f97dd, 0x1e7e21dbf66da47b76b4e025bbd438a654d665eeccff928e29ddd0587bdabdec, 0x169ca09f61d1010465b3d6a04ea6f323ff2126b2c513f473e258a738c34e84a3, 0x1afc1d0db8f4d43d32193344634043bd3cd59ec3c9e867e58f7c83489cf8e1bb, 0x219f8604bfa2f5aebd196ece21fbaa2b5e9d5a62855beda8781afcd668357eef, 0xdb71d9be8548133a2605d713b9f50cc768c1ab2824303b141f4b2f274c6f098, 0x13603e5cd20c12ccf12da4f7d04e9555cda644e5d9abd0f5417f7bb8c6c24544, 0x35c4356044389e8d8d3d84619243b57ec30cecc3ba8c7ee66d8ed9877c40d3, 0xba68c56af0f045fee1b2266f53980c31cee55187faf97b612dcd930cddb452a, 0x23f4759e8cf82af4e51b1a31233dc5277f53aa2422435da2698f1b65a9515787],
    [0x12012879b9f59dece1ed0e03b17ec94a6ac6f2919157ab97dc1d5fec6fa4f017, 0x1915797a54b7038336310e46e2faa0b48ba3e1a2d42b8b587bab86f80b9594ea, 0x190ed18777ce88aa8ad85e8ec239d8259bf0f51ed8996339759d0453429b4425, 0x24e04081c1519eac3990439d5f86f2967685fe86b8dc37a4444d5fbf2ab701b0, 0x1345cdab47510fdbe7fc389be04256335e387d3f24d2aa7326f59399a10c85fd, 0x119a3ac7803dfbda5564dc8178a79cc1eff78597aca6fd95b3dbbf4952511e7c, 0x197b3596d3b66cadac6cc4d88c2da1de336594ee48a4f2e82ceefd9c81267b49, 0x15740cbf5b80c058f671ab7b14b2e0bf3b15a44dca4d640da40453d0ebccb13, 0x23da644943d6f890a344249f0d499702838011dc6e4535c478efc8a0e7ea1afc, 0x2344f76a1be8f4bba48d9dec02fa88b6eee01d1c48d7e37d7210b5a8e471281e],
    [0x2ed6f7c7b4188acd5623022b461c2672054ef8f69a05ec58fc8ec7f0a8fc6085, 0xf5a919e83a103cc62a73502819fa163494d902d7ceadf613d7e0f7b56ae962d, 0x168506fb5ae2170331ee463708ad0124c50dda86c1ab464f13711db7a2f6c4e8, 0x65064ae2c2846b1e8c73942bdb1e2b402eb97a393e18a600bb8edbc8d029af0, 0x1710ff94c079aec5589d7a0487ee074ffa49f880abb14d9dddd2739ee6adde2b, 0x2af3554c9bbe595b39616669ca1984c2c143d16f9ee9ed316229b4f5a0a0103a, 0x22964fc3479b20e70b3e98306ec30bf3d5128056b6fb525e100f684366c3891a, 0x25de0b4cd61c81940d0fea87d9389eb473d469f0415eefd81b56d2048ebacb62, 0x1fd575da1c5352daae237b0e8f76723d44a3413b49e016ea12634876310edb38, 0x533b56af329976350645c7cb7fa29c1e0c3b5d880e25f5a52774d056e9658ac],
    [0x167d885c645bd9cfb4a2d63d57268000b73d88398616fbdbe56f231b8b2bc825, 0xcc2f243dd60cd41e04b2430c96abe40f21e3fd109e7a1946131880516bf86f8, 0x341715bcd52b75e84c60edd47292611c4703f8f81abb45f58f86ff7897eee12, 0x1ccc6d8301ac14bcb7d8cb9feec228f9c2eebdef5778fb88e69571374f2c2481, 0x26d54cfcd51f1d76c8a6f67f37dfe4cb5365e33017fb4cd4d5aadfea672b3b88, 0x2445313440a20b29650a00e2efa7432ecccd218a8b111a67e0ec28c559be72c3, 0x8287cd7099b718a473e3a2dbff7354e6f56a54f860d1533b28a0c03407558b7, 0x26c24628356a67c0a450cf53f60453defa580ffbec5295dac6f26d87ca67a71d, 0x1d1cf3eea9d6f23c1722071241367ee8b05560a7af1a825fe788587692091aa4, 0x29a6cc340dc509321a8db99a1e4a6f92ed22518718e050946a211b9b0b035091],
    [0x22b0472d8d18e2207c7faa819e646aaffec0283c06cccb04554899c28dddb385, 0xaca637d3f71393f5cb5d01e083778f519b821ef37e1335d65d14b2fad555568, 0xcc06cdda9bbac58a1e162ef5c910ed9fa9861163b5bff627765b6de8e1e9719, 0x21c547728fc964c17b65a60176da2a1a8292d0d503dc16a5c60513bf88863c44, 0x8512df52d8a94319bcc6daa9f814853e4bf58f57d16f57997eb61d6a19bffbf, 0x25c0d9feb0c02a64b753bca57cc68248a5dec4149be2b759bddb53b6f7593c39, 0x2352d3944fa61a2c4ed5c84ec318fbbae05eb102075612c26b0f38670e69995e, 0x24bb393dedb3f8114acdc77cda2e74a97ff8cf89d751fbfcd9f52a4287441763, 0x33ba091bc665e268b65a8f2278ab3113f8c4ae9b6a0baccb4b840969a3b4f3b, 0x21cb4b445e8a579c73436f6e08b6b2487ad0f5c4706f0ddc9545fa62ea0224b3],
    [0x4a925ae34260dfdeb17f5c793e4b672b8f5c0da69f16bfb29403926e8d7d50d, 0x2df42667610a6bc6602aba26746266877079dc345a79f6d673d64fb27d7ff499, 0x179934386a6423cdb3a10950fb65d1c7776812ee19c813f5a67202bdf36c9807, 0xc0f3cc0643c9053e7e87a1ed590dea8a70e6d5ebd907543c9561da4ee9fcf63, 0x51a858defc040eaf0847bc5714fca3d63775709d5486a995e93336184fe0aa8, 0x10a0da93f5e24e02e1da3b703eece97fd3a08f43a0476cfefd70372d6274fa47, 0x2d7beb4067840b65456935fe808f57cc971b6fefb7e09ec91336103e2fb072b3, 0x13f1bbb6a850cbb536a0197c016a46723d7387e991b67d58a8065c3e4dc18c55, 0x41fd980971d4897e5e3f42f4342db10e517f639855fbaf21c0b9590b23bd8d8, 0x9636927f5b349d290067029f74050c9750ef572691424a8a0a01663a45c5031],
    [0x2af36e704001f6023acbe0757637f6cb0facba8e0515b0df5eb317a1dd0e65bf, 0x2f97558fe6f6004109ac4658609a6d2cd1b22e5dc099a2ea132e88087e72cca0, 0x23cc4c0f96eb9152447440a55e3a3d0be1abc83834d9fe0873fc9d714b0e26d0, 0x2a5b6bd888a8a36578d8625f5b77e527ea06db8dc1b54796d80fb1c7db293b90, 0x27220be37f223c82ef3157df596b7c3f21bcc03de8c4ab8d7f1d5baaaf638f0c, 0x9b92d05c05908c5d9aaf4e8d234481f9684066bec0f478a6f7f41e4738f94c2, 0x103686d84f6209572cdb829b7aa67962be01752899ddb717831df659c2e2f60b, 0x23b62723d58ed5c2c6ba818383acd3964cf39243288d591a4ba0803b15b48735, 0x18870f436ccb65a0e1dc5e6837248474ae52fd226b179221bbfe73f747eae139, 0x28691d2f0c336148b5b5f1c5dc06b422d34071705f9a33faf2613c907f3325d],
    [0x1191fc63b79d85edaca6a27d88e92d40d897cc0ad052136e60b5bd0a8e560282, 0x16680b82f6e755d8b419d1e303203457b5470d8dfa214d023579cb6c1d09a3b6, 0x180fd65f8c737e7e07fbd0e7646c1541c8c34f0bd8a1e1623a3a0e383ca42237, 0x6c7ac54dd40d3891a14b48e742a06e587cbdfb65dff4a955da9c71d152241b2, 0x2c65c95a72571373a6ab7a18b7f4392c1aef296eb581541d876bab6c3bfe6daf, 0xd9c0008a4f07214c24fd0e733864d7c57f4e13c040c31923bde3e9288552bc7, 0x12d3a04f3439bf85b6525221a3f314a2663b9b84ee290e481169dab2b0a48d0e, 0x2c75ef5fcee292d05dee7a7ea27eebe87bedfe6582644dba0fb5118cfdf255eb, 0x17c01330bb570b1ca9970d5872c1aaab8cda24b330e94a2c95d12549168283e3, 0x35fa265ba78efec1b389d50f1880191c35bd402977c50d252892c70ff3a66f9],
    [0x146a648e47158802e1fd7b6e211561de3ce10df63473c254ed2e3994796f3b28, 0x5c2f2d7318f91f0398ab541c72b9abe4cd4810598bd0afb230fcdca28f0dc9c, 0x1a14bac926bc804faab0ad62fa213583872294ff31da7306e8a092eb070acd47, 0x883cd6e7dbe3bb29320db1da117618ff9f761713b7b07814f4bbad71610d89d, 0x6f98d2bbeb45ad82e7624bc3e387a1b0d818fcc94ce9d96f4e73e80caa23e55, 0xc2ec98dc0ee676d862cc05b09e7d74389f6844ef462de336f6a8b693e568d96, 0x255191cfa833cd6a862ac869e520575e8da70da30ec970657c38781a7b002641, 0x2636c3de1dd779e5577de214b3e6c6351711e9cc1348dbc553be1c8d68b8b067, 0x6437037937218fcf4e73ce9b338baca0c3fe948c398cf9fcba25ac02e652956, 0x1008550284340174d1e47ac5a027793311c42867e3b718b24a4789acfb7d6dc9],
    [0x152b99159e87dd6e681aaef38bf7295419bb87db5f9fb0cbf37320ec726d448e, 0xd382ade9b281a2e726cb96db54d26f433258818753b88e266280f74d8dca806, 0xf544e2459e6a636d8da23834e317ea9ade7b2a07c4ab94c368da356cd884e6d, 0x2a6122af7c1cf2946b33735d2a9f5020cc5dd8669529e77d0069db364ccb08ca, 0x2bd710638fa09fa70cb0aab6bcde56cacaeb11aa9bec688c033ef7830dd0cd07, 0x17e172b03f25c98e9680cd0bbacf1933a942d834d945fb9880fae95d2594939e, 0x759acc9cb975aefb18a833ff4c84df8346ef63c4eb67e220b11b0f5350c6331, 0x229f41e153a4409fa2c0c7c75811813d8a71930da6c8b1b8827aa648bdcea63c, 0xd3153d6d1440aa8e8dc0bf1058667a18e5931afe24fa90ac1911fe322d3d9f7, 0x198a6f179f92ba427490fb90b8cf3455f69f02b756e98eb07d4601a52c77a33c],
    [0x29c2be07e30d93dd927e80aa49c44df0dbb5f0506e96676d2d4b1a91570bc7e4, 0x13e75b095ad21ac9d107b2a7f1e62088974240549c0bb4e7d83ce4630cdabdcd, 0x186d1e26c4e415c8aab305f162f00d8a7754cc1a7a4a5f2f318b7437465ca869, 0x24462e17b2b3ff3912d0e41f1750cff169806bc158648da822e1bc9f6212886c, 0x4c8ff3b9a174fc06d3b3302ff57c510ad38580c35f4e3b5af79e24055662bc2, 0x174a26f79f26fa7c4c2682cec14da70aed49fe7c75770f87a52b5a672413289f, 0x1794c80fa206e99862d7e1a753d7754f6f1779581a85201fd46a5bfb7baa952f, 0x25b4632d29770667d09f79c33bb2a8a5af66a449d6d39f6fdbe63c976e1ca11, 0x11adf7def96c53dbdffd06a85d63145f0dd2395063e8d332be42ea99ca368547, 0x1b928b7f293beab032350dd3ea4c4b48c4a04fdff082b4f542e094d973a399b],
    [0x281187bf98a4c5a6bf90203092c6aecb9fc2e561974f79f7481aa6d2991832ba, 0x247168cd8fc0ee2cc9fea561bc4e01ad3ea57874756f9d9d734a7fbc45c000b9, 0x23097d74125e04278e5fd0e14f52ee1936b901c2de64a05b2b80991a1f3f19e8, 0x2cafdfff6422239399753a96110feaa8a156264bbf59013f1d8195a30838e649, 0x1a5820280d1cc66e2cbb99320a29d80e7844576377636d8cc22a5b89838b5e81, 0x439af191c824775b86b6ae9cdded69e0ac524d2d7953bce65dc54e116546a47, 0x59216dce06bd797a98709ad2b90c15d1f9f78177f0ad66d50009725ed6864b3, 0x17453fd8ce97c60079f3d00aa29be8b9b90cbcc9a2161b7cef52c599c6286cd2, 0x23a1ac8f3a07c86e93184c5f082be51a98f706b6d1467dce344bfe266397ec7, 0x13b7bfd3ad519190d49beb27b00df30991fad40a694ef0df12e89d617263eb98],
    [0x3d37546147228b5faf95ba080b2b40226a58810463208b9b39566f073163dfd, 0x5f3bcfb8ddc917835430a22e50cfb51396f15242a5fd0c7e3ac1538004d19ee, 0xb75558f92567fc1ec54e9954a33efafbf51866a5894a76552d1349523cf65ff, 0x9415183df1031dad23297c334ef7a255819b7d74365be4f353a88b427d90697, 0x2dc2c7f19b5024315cf5b0c76546f9432e068efb50dd37c395fb8744771c0e34, 0x115a5ac148ff0c29901220bf5b9cbd3d5de9a902c8c6efd02f7a92cb1d4eda5d, 0x1ec78942eb0fed168fbe55b730675f3ddfcab69c122d9f6ca22f7cfa72280ba2, 0x24bc460c697257bb30552b45ad37313987739e25079c2842dcdf2f974f9bb686, 0x278a2b29bde54b5e1d0f87216de48f51d4dfa284555ebd7fe7f3dddc234d1a5b, 0x10f5c4b02af508777c4cd3cd0c6c11f4d679fb3b0d7a52698593bf50cf203cb4],
    [0x2d695324f885445840f526b71e519f295cfb0a6e4f24145f952d8baf8572f573, 0x18113527536434b631fb3777ac733ab250ddbe971da50f13fa6cf26c9e05bd1e, 0x40730e3684e391d5a166b5487ef2fa42a9efc154629ce413c989efe2c878592, 0x1ebb21dae6af4dc7d80bd2bb938982c215ca124b15e0797883af2a80adec4a12, 0xc68022eb63cb3a73859b577b59b17e6f836176c595c6a1fda124a05ecefc10e, 0x88f4a9af5d668475bbaa35610bfac5790e103ef53b9a1b3abdbbe293e56f5ae, 0x1325e2e84e281caae87f905df719eb665173fc82cfce43743eb3f0d1fccc98b4, 0x2f3ea3a22a56db970cbbedaafe9d85f14f02456889b64ab7124b2479978ed3ee, 0x55564b7831acfd8f46df96ef819622a4462bfe8281b05e95557598167ee9f30, 0x8c29e9a22ec7f02449273a35136949b73de66834e3f015f4689043aab341015],
    [0x212a65492c6e2992484160e5e2f6fe8fec7581256613b05b8cd4237ea596dda3, 0x20e629bb5b6c1ef07efa2fc1f8f63b12aa92bfb42e38e48335db3adf267416fc, 0x4086fd6c2128b11a5aa58fa2a8b25ed5e57c5b6a3df6534839a817299ce7713, 0x65245cf59148ef3cf923d2866e6f1f61ea54e6a0e650b6ab8c9bf94dcf1e9a3, 0xb6c1b1badc00e60dc7e286bf1b76198e61a063cfdc2630f7565064af179fa54, 0x23a3829defce44de2819dbeddcd9bd17cc1cc24d5efd94345352d153c898097, 0x1b51d50b9f2a1ce039e1bf33a4395f693e12cba9aa5ceaf5fc0c6265ea446bdf, 0xada2b8bf069b0a8622be85bec5cc1502475bcc995a5687023ea33d3a949382d, 0x832620a355e131a479d163bd702e2e96aab3688f818b54ad378764ae1a2d3cc, 0x1dd7cf51102ea8b1048d3dfca649308d59f65f4f370be00726cf5c8e3a72fc5],
    [0x22cf9eadd9580935f02cd8a788978c53bb4cd780b262c7aa0beb67def5d1975e, 0x17e3b5605516db11b62512348f8e7f206c2e71fd57a7bd9fe96832af6bf7215b, 0x1aad1cbdd185bc5a2bbdceef570edb986520eb92bce2b265ab8864c51ac489d3, 0x28d5eced9d9e5515d0c29b800e333bf66662a8b5b9839856e4094222dfb4e3d3, 0x15660d8c936e1eeeedb10437c4cae544dbc1b9be0fdd639feffd0246a313e886, 0x1f5e8f3f715cba0dba6f1271e1cc8940b37305246fea62aa7e16c301c89fe3e6, 0x3bc3a131bcea5b2f4ddb5cd58f71a92c54973da67f3b6aeeb9c2b2b1ed32628, 0x10989c21815e815e3695b1e86eac0ad5e68468f37066142d042d951afa013609, 0x13a14796be2c62bfcef389accb50952a46c7569e009201965f13223a77feff88, 0xf307148b769d5a3aa0d70b54514d1de5098e070dab986c02cd91005c37a9385],
    [0x1e720c542b831a978860eca880ad522210565a065884b82fdd9abaed3d224b99, 0x136981fc4f37a5ddbd57a28438eb003ca7ff0109b349c2b3114447bfe6420d5f, 0x23c0f4dca797a7ffeed6185b6270045ae960f80e1ffbded2349f7857defcc5e6, 0xcadec3532eef6e435656436bdf7ec56853edf2ecc1dcab33e585d7f9f33f215, 0x1d3fd0cddca96749c0e76b1094747f66e822bb07a1a011506d198eb80b831421, 0xfa4bf5751e05cb1879a7e9d1be18c0cfb070ae2e54365037bf152b45ac085ef, 0x801c4500a511b5f9b6f0bcb6deb2d0898a3ee9d9727cf027bb17bced7992263, 0x13b257c8b7194f0ccfcd859b03f7451cde8314798115ac1de5981ccbeea58e56, 0xc8e8cb135dd381120087376a03c386e67871000da2b1bc02be951330f7a5670, 0x165762ac8bae66f3f3807dd925a4334e870a9b885628cb7bc0b8b7cb941c070f],
    [0x42543556c325a58e3ac753f4a5aec40d3c73926e9e3b0a62b92a5b920c47cc0, 0x10884137e86600bdf06f81d79045eac6c34f58ad687b799c849d2d12afb2b005, 0x243aa9a7d3478eb73fc5c1107b39becd9808c6e5e45533a3b267cea612a3bc10, 0xd56cd4f582b5719a3301be7873142cdbdbac3901c33c71f490a29f198cf837f, 0x1bfb79eb37264d67c12bc4b214fd728d6adf84d02a08165ecc982868612e504, 0x82b38037b96a47f54fea54f4f851430f7c716766cb58c14f3db8ee1daa707b3, 0x1d92ef0b67d46a991de603c82917a32b7b0911408f8c8ab283bd36fc1c62ba78, 0x1e85bcc91932f9ca07b35984a41c4bfdca243a151441e1b758c5a4c0ae6ba181, 0x25e30f6d84da989e0d4d0db84cf57739ed9d1f354c8e3aafcc01b47802c57a34, 0x11ee0dd308c65edc88ce2ad2edeca29b6600ffaf309fc6c5e3a3d6318ca98c83],
    [0x18f3ca75188fff5274224cde36c2d85211b094c20f53d9e3a4351896e3d1a1c0, 0x5b6b21c1f708032911b6e0dc4e57d1e8edcbdd144102b28c8617e53b11e4e7b, 0xeb79b07bcbdf2d2258177bfd15ba43bc56d9362e49f13d002394f6c635f20f, 0x1d963571ce7313a17110b17d64d45001b36d20b4869ffcee44ee578d23d6488d, 0x28c45144eadce345f87378b432bcf30e9fdb40e2ffcf61f5b918e3ad42ccf153, 0x2776530993a11fb7e5222ee0df505be5e57cdbb6352ff7853e668007714bd718, 0x210a7004456a4c7e56642e7940230842fd54b7fbdb8c337cb1493561e778fe8f, 0xcc1cb51986ab1a0f628c12d7c6656a9d8495db91d90e5dae8f0dd264d9f19ba, 0x13d1e0cbd9e0f421626c8db09dd24df92c270688e702495231d057c7676fb1dd, 0x1c2b5ad45cf4181611eda67060a0490d8d6ae3cd1b10a1570b00bf0bd3a26e09],
    [0x25edc11d3b5e6e968ca9a27c340cf9350744d28920f5762687d2d31dfae14235, 0x230c8e7ac3ff2b39daeba2788119cd58a3a90a9c24c3ed821eafd08383f389a0, 0x2937cb33c930ac4be787b6e890e67f8a08cc92c151f7e673ffbcc27b25cd0b1f, 0x28a3ac677b6f19ace69e3d06049557fde2a92476c199e1c819c907ce456812e5, 0x2dec341eed7524a26b7b91bab300323347038c01206e0f780349e5c2ca247076, 0xe83c9f68c5feb4210d633821cc840bd1fbcbed87effde9f23d4403d9b8b03e5, 0x112fb21185598e785bff0f0f7e4821289232403fb2b31b48e7ec9022df2b7971, 0x1faa621f0c039fdc8024cbddf4ca817581c6e3f26bde278b13c34cd651bd8782, 0x4e3d26adfcb4ef7cc322ee557878606ea5b537fa1f880445c647e8d12c98c91, 0x1a70c2015bf1c5dfa637e8debf8f759e309f46c37e535f0c64486995ea5b9061],
    [0x228f60de5b5f3ae8a52bcedecf7b3830d5b6879fed7eed95231c674c016c7fea, 0xe4ddc512fdf839ac48b7ddb03e765e9cf5e320745572a5d4f70097c1074406a, 0x1f8e572e2e0b48f9b6bdc474210a1c8df655ca5e19f7d13b5a89a185f3a3cea1, 0x3a183213151c33d6c58b6631cafa0c05300f75deb9ff971fafd35441f5cac78, 0x1b7da980828048a7498cdd2b49ec08be3bad7d4327c9754b5e3fd674e02c8286, 0x285dd9c3bde7c361a16cbf14bfb0b5a78d8f4ce4433d41f13a372e92c35e21b5, 0x6f952d66d60cd18949ec08a5c203707ff452e3df32d50a4e221e72a793cba06, 0x2f6843da088f675ea773a0377ecfcee33c9601ada5b8256b49f2c2259ab8abdf, 0x1bee4d9e168ac606a73d79a990c590900012aaff03291747553781384c28d800, 0xc8c85c0320d6911ab65a50deb2b2825d3e33921a46522e54ccb6b806e55f192],
    [0x119ffc6ee4a000ec8b6bd175bc99718dab6508e999578d85f57fe22946120d55, 0x300d0e8681f117fb491827fa12101206254ecfe5a70b08716d1950b6635cff06, 0x4f424c26471906086dad2de5452b3148a9480a644e69b0d2c6a8e3572070181, 0x2aeea0843be6d263700672c426e9820c16f096fdeadef7beb1c423c04eddde55, 0x270aa0ae5c5a5ddf685bc432b47c996eead9eb1ed89a25bed2bb358cb4edb6f4, 0xba4f42fa43b005e31fe2fbf27ae1df017ff6d11f27cf952436383ac901bd17f, 0x189ac9f58d25991d10ca6233b1ad8cc583cc1c2479967904a801f92c4db08818, 0xac7c203b5b06e4b6f56de45fbd9e502d79662b3ef4c122f73f7a3383fb52af5, 0x2ed482bccb4a7c8a75dfd31a443b74d1e4ef522a250660344c21a8320a478cfe, 0xf4eadae92ccf071dcdb7d67241db82286a0b53436225d8d6d06c3094d032be8],
    [0x2f3ee4a76715b3bc3feb74e528948ff152d0b69cae7aaa30ed3d254ba8931a73, 0xa666ccbfa6ed09c57f58ee2963407236b8ebe1935729e811689b398a9dd7b40, 0x2abf8b9e553379c8bf68fbc67a67dee5a22df97393673145211d0fe9f5efca24, 0x1e0e4a52a2fe011eafaace83d54b92e6d857634b4510101958e7d80686ee9274, 0x13ee73f6525acc520a0987c161e5195723b4785d7ba6a031c8357fd55ea7540f, 0x94ff2c24cfd2859ef66c4f62696fcdc7edb93ab92127ca6227a6c029de19e11, 0x26fdd4092be37092fa13e02d03b3c93dabb7fb7bbacf3129344061909556cc7, 0x60cb0ebf20906790098d260ed00a75704e88e33386f43e272154888d56fefe6, 0xab0fa8ccd280804c537d2e09aec4c1306b1a7b479c6623e9128364d9297f7dd, 0x13dd22e61ff5e9e3387f90488037e06c48cf9ec7b8fc40b2f78e831e977f3d13],
    [0x24c62af21d61cc277ed3eecb6b53da40f824a6bc8619f830a5a5bf86846c1d41, 0x2a025c7888cb0ec6a2338a4be571a7c67bdf7f7dcf5c0775b785a2c5ea3a0c60, 0x35c1ff077b016b8069c044a2bf5cc09803e94ee0110c17a5bbe594cbb270e14, 0x2f296505bf1353b23a672791a4ee325a28a9e1b21ddb02278e48b7c8fd354d18, 0x13b16c3cc0ca470c75bc2ad7bfd6cbf0b669c762bf0411010099c1162e26a9a7, 0x2d3c900ba9a9d5494fced5d70e8a40acb68f47a0bd2521f3813ef831f690f5af, 0xce9e5f31feb0a8d20eb1aba890083cc3092738bfc196e10db8cc34b31f1af2d, 0xda413bc6c64a52d068bbc66aa2517c323ce2e00ec365235cabb2235c32c93d1, 0x1897ae1a23df0f99f8c1cd4d480958b959d327816e6a79d83f64f11f29f9a26e, 0xd116dfe5362123684539d6841825a764c053dee6db6b2bb5d35966760a232d0],
    [0x21e25952e98f9615b696b4cdc5403cd7cc432835a8e78ac727a64674b34e4314, 0x1a3dad57e7ae205a48f3a024984c4da0501b544afc63aea283022642d3b74528, 0x19bd3efa0a6092951ee71b313c1b6cd2b016f1decb5b51d8dc14927ec770f186, 0x266efc42a30cd04d6778f50a3fbd5c51dbcfcefb6eb400f85a7a278ae184e381, 0x1c8d90d85ef64bf4bedde609957ff4dd007aa05eb2a2d04e07b03013d7c90b6a, 0x2ac06d4cdbd30847a9fce14472ae320e1f36252687227e082f213b219e72703, 0x522f2c9b0876d27388b8b52a51002e5fe0669f33da07014dbb8c0a8e29e85cf, 0x26bf744624ce575461c466270c3c7cb09ef5c0b8342d865985ff22d17b47239b, 0x2375100f868f06ec614e0ded6d99f714a1b3159f810493c846eec25cc2df2854, 0xbf461146b46b3e73e0edd4936989f404cea1f9d9a058297b94cdeac7758325c],
    [0xe98376ed641425e2716faefd8ed7544b173c5a3a66936209e4af629ae6771c4, 0x2f9c4d96056a1391d89f28720a20d0a1e7cb59a5c93a87dfe6069b5f4eca2710, 0x192f200bf3b555bbac797819bb21b990b729d65a4d28a27d6d3f00f1a02aa23a, 0x2bf8984b5626accf10b7667f4fdccdb7cb605a0ae34d6d204ac1cbc80cb49126, 0xbca21c12464247244b2a19fd30fed65f8e3abbf8335b49205c1fcc1f6aac1aa, 0x14078d4ee11f463471a49516c3c85f9a266f8c40f6d7b1f86b1d1935b09f15f8, 0xbb8a04ecf9f98e1697d330e922d0c8abde0000b50b5aa57c5800d52df4de011, 0x21526121c05e09a0abd2ca6efe5b42ebf7e9115382221caaae628a334917b035, 0xf6a443b0e7ebb0bf777511512f66c5e5bbe044c9665d96109018d9729c84f4, 0x10092751e94fb6b5e49bea158a014bd99078542458af14ba4cbd9258b8acd236],
    [0x29389903d0d3c29a173ddf452a66b4abd36efc642cb0b57d8f10819d5c0f5f4, 0x2b6d20e6cc7ca916f542668724179d8d0ff0741c3d51f74545e2139112177376, 0x2900b4277fb3a0ff83b4c58fac79a8861e305d5eb313f2cf57dbb05939036558, 0x10afdc0066dda9b64bdd43b86d0ed62b9b3938007cc50f5699250240cd2ee1a9, 0x301ed1566f5220e17fbd4083a57bf42c12c15a6647ae8103edca272fbd5f8f11, 0x27f1833229c3a5998686903e824bb3e3e10bc969f1342ab0d02de635fddaff11, 0xc4ef35ff9f906d0bea489d201c210c53abbd47a151a9e4efbdb922029fb64af, 0xba5ab9246af723bff457ab8228be06484af3e3545dbb4c932ca49115f957d27, 0x21c572bd4264d821c5e2aef993006499c88b3245cee9593f02c250149ae87ac0, 0x4d1cc4795008719326f8106c9ce9a4b0dde4f4de01d2429a23511b1fd0fd171],
    [0xa379f7d6eedca7c4f07bb5df2d8ea0dd87f1eefe2ac2271370a7f3be27065cf, 0x28daef7d37a43f2ba44065f2213912eab6c8c60e3f7560fca990be0ff4639720, 0x2906e8996458504f2c044f053c4ad24d35b0e0ed373b27e02e5235a3d34f65c3, 0x260738b3d0a746fb0612dca6db53bb968c552213b2f9a134df341baf3e1379c3, 0x5f177ae8c6eec8b9712cfa042776690e924bf422430011ef27af82df0abb237, 0x26811027f445e86c192e8ae371d2e83fb73561c8cfd10bbf5b29a77f56b1d95f, 0x12def5ee59c1b4a96b50ab3de36175640cb70363fef89995f34926ee84be514f, 0x69b58a6aa41994a11cc7dd3a428f6c4ce621b5b06793f5e95b4034e2ef7e9bb, 0xdbb162fce1812bf2a16aeb6aac7f1737f2d27660ca4cdf6e79121fbfbb6c5e6, 0x287ba84aa5087d8cc9f89450f1fe391cc3a84f28a24b261cd1dcdab039a309f8],
    [0x1e878a1f2fc77cbe232aea7683d46d8996debb9cb06af003849fd099e9c504e9, 0x1c8d1ef246dd75f42de13c5bfe069c08d6af9943cd7f2336f31c896456cba2f1, 0x74f1a678cb029488356dcb477a88303d0ded5f2d5ece54769f15abc1994538c, 0x2766e558172ac70b1f3dd85f4c80517ba6e18556bf51d20f687b669e7815d47d, 0x20636353e29facebaee5f04ede42fc3ead0d07727ede7a80af1c505c6ff5d534, 0x11ed975aa3d3f9bac1e0bab123041671f8db695fe07601fe5a71e0fcca916b46, 0x18100160418fd858f3e4fe8d5d6b80e2ef376618bfe5a556f24bc3247099c441, 0x2abca18d9b3f2522e21ee57a1c6634ec12774d041e65ef8430224cf31f960f14, 0x16625241533c582b9b57f6e0963dfbba9a7026139daab3174fbe71b0d9522c8d, 0x1bd3cf1bd3124abaa627850ff77a6778e8d82d07ca24655d94c5a27b57c780b7],
    [0x84e7ae8a515bbe6fd8370e7c13e7d09835c3749ed21c2842e7c46b4bfad4e38, 0x105b64fdb0f02988732b58e06db800b2df09a71a5b5a165ad2011ebf48a6447, 0x43ed436d6b9af567aac7e24206137faa086d188e8444cabd5234983904bcef1, 0x2451cb7a5dec1f93fd2b3f8b97c4b1dd2fce7c87d0a92c9f699bc550032a0a7b, 0x18f37c624e96ef9c494d2f016bb1ed956ef951f3b57420a46c7160bdfaa576c1, 0x1bf84d6d70c748ccd981c21b19d555ce7c3841f34220c10797af76f62e258980, 0xbf9b051f2021f38a294eadfd0811f05c08852720bdc749e1f9a62720f62719a, 0x19f1fd2199e3aac88c7ccd7dd858d158c2ef10e8236d2cd66a70a3f0d187988a, 0x1af9d63ace6db7a8ae20a04b776fa39de34b795394231214317f036e5954eea4, 0x1b3a2d08d1c3763b7678b9d9de1fee10cda80937fd7d74f27d6e550386f5443e]]

/-- starky/src/poseidon_bn128_constants.rs L11280-11401 -/
def m10 : List (List Nat) := [
    [0xb1e797eee3f15b88ce3a1fafec88da1d6329ac3c34712db570de886cf569098, 0x2fe429db8068e61b82624f25766273cd9fe6368ff097eab97aaa09be4c630e27, 0x2e750867942439083365d21fe760c7dfec9e3593c67de12a4255c6b01648b690, 0x23237985a96b177ff7c01486ab0d603d29991b8324abd6b07dbb96f5c21ba17f, 0x15ccec857b25934ffd429af92c910db31d00dc1c3fb83745a31d8131ea5baa85, 0x17102ad2d98043e5509e76c331e6b22d5fb62d074760806aa675764660eb56d2, 0xa4ecaabde9d1ea11c81dafa8d5d4869bee7ad0bf4eb78397b71b8f989cf9812, 0xec1821648fddc448a1512aecc8ac37714923981940f5542737a468d4d887c8f, 0x255a493aa4becd9d137eb76941c4120784c1233f6c5fdf5d65c0832af543e415, 0x120f44670301b1435249294d9833d59e01682af4c8658719727678fd9ab7ef2e],
    [0x1abb95b6e33243a050e563b5c4fd059de5513ec28994a6f60e57c98d3bc8f586, 0xa5b604c958bc90071ad10618b1772599e0c8dddfb641131fef39daa58a39923, 0x24e82df5873953792baca345b7c19f61039adeb1190592bca18cf4f907c1a6fe, 0x10e3349eefd3a112417e110fd9e832078e54b5f4537cd018aee3dfbb90541581, 0x165adebe00c7ba019499018c96f5c5870eca5679c90c843d9527184a525fcca0, 0x1fb81218feeedf4e7e0e33dd8ecbe62d65c6b7d4233f32e073571ff862d89c3, 0x1be2802fbea51003aafae82ff4499d1158377b108f8b020c82b8460a8d603afa, 0x418081de8c2958355a1e45e28ee51ba2c66cad04835f4fbd81e696de6398769, 0x1f3e937ab29f3a88c6fe438698a7198a5209aa6ac9f141319f3bb201e7fd6716, 0x113e968769b0ea32cb7b5ff70484aacc96f13dc2827a8e5e611695e0797fc3c],
    [0x110d213a836478aa301bc1fd4edd388507d87745b3abfba5bf282afd21f7242a, 0x2cdee0c635a4fcd9549f0f91b4f4a9b628aa7319e2eaa094a693b38b5cf9a242, 0xd60f0585755d48577b465746de8e286e49925150f1784f29fb6b96dbd8f0ec, 0x2168dcf216d8369a626ccc61453236a389d02519f3052e87eff9ccb8aa299c46, 0x3530dd962ef23dc16f79b28c1fc1ddafe9458be15174cbbbf3a806de5f63cef, 0x1cedc6d4e1476741c1099557e58e642c42892aa36e2d0a793f670781a21b0dbd, 0x269c8c139a4f61e16bfaae9e8bbb1c69808c9071083b0a339dff9e4904b443d6, 0xea7bc52503e2039d277912e022fd6d0ded5bc687c6ff97194976f3a28bd30c6, 0x2180b9eb156eb33cad1aa750ea0fa3ddbfa4127296e497f86e6441e052a23b45, 0x18cd1471430adad31e45b529494fc8a7e319bd2fc0619c99207dfacdb657bbf7],
    [0x18edb2d105bb53b768ae0137850dc2d2bf6d1303a1f8ee4aadf76d8f81990588, 0x2c962d7d54a98c3a82a638d8c82450813f42071a17c6c05f470b44958f57ef15, 0x1f495e93014314988dace5e4e867f5109e09fa00fce87929d1e0ece95a449345, 0x262903f36acf0dc055f610397df0794fbc30927ef185c6356bc33e5c31faef9f, 0x1b7e922b3dd503e6441ada966c8b3ba7b908cb2b98b5fbe1e4c2fb982455baa2, 0x1a88ae2fde12ba32e5f4eccacf11c25bc163bdedaaa8824474cae5869e5ec20f, 0x23407728269c70fe712b021915059dc8dc2124ae648e2cb549fc76362bc2b97d, 0x12ab318626d511c23d28baa9fb5b5802e0ab95e3cb17aedbaa25f4d084cfda57, 0x1cc69d8f34ee877838950e20a9d4c4bd3e9acaf3d693aa64cae04faa225a2e1e, 0x23d0fa965e920dfc530b52670b1e32e2d5fc2821fc918c0844a003b7141825ad],
    [0x1e53e92df6c53ecec4c0de5b07dc4c9a0c5545f2abcc1fabf4ccb84a0a6e2c27, 0x2bc761185f59efb7b67bcf1d3e54da00daea067fe49e3f1d9334e5470438b454, 0x124331e0ecb1d9808a1d91efaa98950abe930c46fee5a30d5ad07976a5bc0263, 0x46887724f29321895c2ef8bc0cf545df773c04baa097c352a4165395cca786, 0x247460ad4580a18639eada69b904c91b19f7d4387435707696c40bac3bfbdd33, 0x265412a4e3b5560aba502d20ed833deff707b7d425ba3c09f3b6392b6f1f4339, 0x2ad06fc9f81684542e0458aae19c0a7c18be94f1de3fce6a3e5d2335a01e90e, 0xd1e34192343d66fc1b6591cb6a3b0602b0835a403c7227dbcbd72fd8000c6f2, 0xb565179887ee30e381631d8e5dd357c70ee2ebb410617d2321f6d8537f98970, 0x2ea6b32af37cd765d728ddefa30918902a21e19b291400854f56393c56d69460],
    [0x10fcb817e10f69f7074e64c393b807cdddf33c84a8b5cfe33f44b73fe18c0e36, 0x2e450d1fe7773c9889a0be55e44453bcc844c94b56fc0bb806eb9982ac553428, 0x2f421fcf54d77dd38930cd69076f9baadd3d3f1947371215a66c894d637e89b9, 0x13276081db012d1d4f4b7dd2d8a2f8a5180d2ecc33854cdd35f9ceb07bf40d53, 0x144d5be38d44c5bf8f3c5735334fb1a07c13702d86af39ba0b4220ec9a7568a2, 0x12691b599d32edc48ae99c7a73abd59e5b18f4bf773fa1051cabd2c49aaabf6b, 0x578a55f0fda29909b9f850c3d74be6668e4444ac691764f1644a626498218e4, 0x12e3b04924b2cf6e407bd26b3cd47bca61d6ffcf7efa1aea1c2e0d8a49de64be, 0x1162a56ed3bbbb4b6760a16a300ba7202130086da4d5588a70926423ff8c242f, 0x3340cacb04d5a85614eacc4be3352938baa3fc714c2575aa9d85f739113c50b],
    [0x2b1d8c11fc652c593543b6f9800bb7d0c9371dedb96f08bbbccffdc6cc44db98, 0x25c0f87c946f375e341f72f6a8dd63a94e86f4ad182715bcfcbf2b28df6b4a0d, 0x543b2bc66f3b2d93d4c1882039ddb37c70c0b437ac23ac5bb9868e6df24485e, 0x2dd117218538e8acb0301eb40adfa2435f5bffa8028ff52f96a99d77fe927066, 0x269b06b31e89ff132daebc200efdc8ab068136fce65f2fc55a1dcb939b7fc6f5, 0x20d4401cbbf92877ecf616d7d28551cb0aec552fae9518dcf9218c38c1a0bc90, 0x2ee2da24b7f8e7035fb73b08c3414833ffa38e14b1faac198a860a5767d2feed, 0x6dd89fabf92546847b9c13b3a36bbc7e679c5bb0dd785403f3ff49bbe61c8e7, 0x1360f719034572b59410c529b62a62aa94565654597e42779f33400f1d17d652, 0x15ff827e034c02a90767f0152840e7fc6db983e496ea0519c0ff41dea8180628],
    [0x19f473e40c05676d5f8d51e11336e9c65cb32828c397cc8125f1dc667b6cadf7, 0xbfe6fc08e2a2e1b8911ae065b985388fcd105a490a4ab943b25558cf3d054b6, 0x203d9ee6462a586914fe7dbfc1bfa29773b7f9b3d63aea4120c601129c16660f, 0x1b912abf2e1649ad4834ca5b2a3831cc9c207d4d08e4bf274a79dca80e52fe24, 0x62caa3c9fd39b69864faf701dc8a4588571cb31bfd5c9c3c59dfd97e99f701a, 0x138c03a2ecea183cb8f265eecd7e93275b0bb98297c1545a72197dc6ddd9335f, 0x11589959fc2493292fb6c50730e74994ad7cd6d3533c3b00a57dae833cc701e5, 0x17b9facdbe747d7c5163ca00e3b0b825d012ed4357604e7185750d677c6b357f, 0xc603d03f92860da8a68c6dcb1924d1a45099aea50f1a362edb2f2a7ddfe90ff, 0x5d56f0c844d169248503135e4deb9ffd6329d54cfceed4b947d78a568681147],
    [0xfcf3a4d9c6c3392de1bdfe25cfb86817ecb80c51be17d47f79750201f1fcd01, 0xc182e438257c4ad7e7b79c3b68d60984e507ac597cb47dc31d913a7a540fd9a, 0x25a1ecbd7e7893f646f35d3e07ee997c94354737884fe6c26ae8155760db8aa, 0x20135ff263867f708ee0275170cc9788689c088b2933a361c775cf430748ef1f, 0x20e160f772998a2f7d0064c7efa15884ebc6d8b71821cd5336e2df14341c95ee, 0x150df11291b680e3ba925a0471c7fbb30e704ab4b554ea5d8c07b70b2b96202a, 0x17572029e8e897202d0e65c2172c571d4b91ca856e7ad3f118ad922127b87054, 0xaff15650b805bff6f8b3515d5e29cf914b7349af8924e796009f8a4f1b7264c, 0x1a918fc117d9a6445e363ee5833dc01411034b95384d98eee47ae896f92a7d67, 0x2e5618411efea30cc7de310d4872597d087c1e122e02ebb117db0c2dff04fc0c],
    [0x23b02d00fe2634889673a7d04736fe15b9f62652b1c0626a19af8d6085d70822, 0x2ff4d0b8798a82667793533730083c25223d589cdd079362f1e8c2e01d54476a, 0x1d897f60e87fce5ceed8da7f2f4a63fdee7ff9dcf179c08e05e9e5cdd8238ac7, 0xba6d4ceee2182d3f2ab2e4a3ad08fc31f7f4cc0fec91ad53e92bf8ada3e278f, 0x5ce94b8e9a60b28947710461d87c7757246266ae8fa5d3af3ea81776b5b8c07, 0xc346b046af03cb9048c29353e1107d6b75e590bb2d422ea83c09a5da1ba0c65, 0x2fbf8cc6ec7efb30106423f2e67b0aa9403360e56e88b6c5cbaec34a80bdc7f4, 0xd064e72449efc11d1e90b97749de3909490b912bb1f72f542f41d62ab2d847a, 0x2a88e0c35617665f3cc2fc77d90afc7a8d1001c71debcf2733ca0c71a19e1ea, 0x15eeb3e0541bcf010da0c47adb12f6df540b974d439c93e19ea4d02f9975d446]]

/-- the inverse of the matrix (not in the code) -/
def mInv10 : List (List Nat) := [
    [0x303193ffb07d15497a277b26820ccfcd05676c1c6b2e213ad4f6e8da482b59c1, 0x1b414a620279390fd7eb83d18f1e0f8adfa89e244c8567d3eb9aa5a938523c14, 0x2576ccf15236426fc6f27a8c51ce88ef801db23a9d86499b13791599f25449a4, 0x63834c84a7894e307fd379da59517ac6f63fc30f7b8414f70ab6ebe03dde05c, 0x2c667d0ef9d6c45bce9e7235b741e43f7af83e4dd800375bd5230a91f51e7d76, 0xfe52b96aa46de8d0dbfdcdb3a89bbe47808adf2e7b6a964df8e4f91bd0854a4, 0x16bc15103bf352aa7647ff8f08778e75f25814f098e64e8fe4481b9675ee2698, 0x869219153dc81a8aa870fff62bf25da7147ef656a784ee9cc469ed0de52bd45, 0x8c5881d294dbccc2890306cbe2615310d57604b149b3477523fc421f603b201, 0x2388ee41809fd96f88e3c1ff64a0760e1e58a0bee72c42fa6199cb730006f839],
    [0x11eea700d9887d1742e7f32b756917a124bc088177fcfe2b5bcee4d042adafa1, 0x2bbc27be73a2f473f9bd3eefa3b825fab6c8cbc0adcce8f832337bb4bb271b81, 0x7550132cb66bf82a1375aef233cddaf1fa35876c1b7c62d9865e3020fc7f9e, 0x300143031a1429f721364ca2344997dc7f1c95a330964513d57de004fd45593b, 0xc790f512fefdf147d52ef77b039e72c2e69b7933bb32262fd2c0147442b8b79, 0x3a4707291c616749da2c007be352c1166f4bcd726dd24f2c049ae825c7bf4e5, 0x2c82253e539fdf9ce463c02af2bc83acb7c65fed7d691e49c0c0cc0ae8198d4, 0x1d2b283f023f29d24bf8c0e8c64789dd05d5d85714c9f17b03093e2eb49fda6a, 0x8ee762b1e7bf4acf9dd232f4440c2c6faebb1ba1fabcb4d9ad3a480e8bd0cfc, 0x13a73402c99244376acc265f583eb51b4780a30568c15ad901d056450bd7547a],
    [0x4e246cdd3b1efd0ba47de282313a276d692129d430215c379ed9af5997f625, 0x133ff7c1f3a6401f6058d9e0942ca7f50932d6d953e05068793728f6f45e49be, 0x2412adf991095cb25b92ab25cc89ab65620bf3d4c48c0044ca928d2fd7a238d9, 0x13a4324048f91aeb97714e0ff7922bb61b36b9ac92024746faa9ff17afd07e87, 0x1116c964449881a7a57393c9bd2a640f3a531348cebbe2aa197cbb68861a7a30, 0x1890e76d31f8f7aa79da3cdcbb4fcd11db93a454d97f2a7987c4720a0515f080, 0x248f0d7d51d6c2074b8babf7ae099ebe227ceaf414879aee26f452ea0603d436, 0x7ee59b324be0436be0318ac9be720bfc4f01836f91cd780935b5e350e81bd0, 0x1c306ea82ab115f666e3e3925023f00ba509a73b28e8d917eb963bde8ee6d406, 0xfdec4e76314f492cefd32fac05c727495cb43a98c7b40c89a5b475a17b92dcc],
    [0x102bfff7739ac8d48a37046951cc7752982f84000a480623a9b2e4d2a0c4d1cb, 0x1f91ab7f2ffd3cb6195d2b970efc8ebaa468cfee46eba9a94ae20978b169ae7b, 0x10814ce4d7e968907f8abbb60249f490f17cb25234850ba6bbc59ed75b8d336, 0x4f3b5875c1a86ed3e39c51d31453377f3ab599b650a4a4cd4f1a43186239d17, 0x2b837c5994ae153143688a338b5deeda898bf4166bc226203f5f079234ead054, 0x18222aa60fdf9b2419c8589d740ca338fc88373ee98a45acd4ea5745aa26d740, 0x251154b087693fdbf47bfebf8617399a40da685a4e50fd4f35bc5c3c70f20868, 0x2781a708f2f6c8d9f6a5cf10bc694ebb872df291867154f2000d335b17e3ed27, 0x647e9076ad5f0bb17e17a8df9145964f83bbddc1967b8d4a76f3b04ab52776f, 0x9679e98a4dbd13a42f0ab8b07763adcef1f2d05512873e4f3d825f3746e7ab7],
    [0x12cf35f9af5bb082bb8fb7c6cfa1dececb75c05b4744045a16345978296ddb59, 0xf34f7b30fd66623f032ea3a417f615c08d5b12aa5fb56347d9ce948413a6046, 0x17cb5107deb982cb3d90fa0289292dba3b0a4e4b03feee516f618c407016936a, 0x8bb1e645ff7147a26bb928bf2592094a21fb51608a7312663edc338e7b8e3c1, 0x6b6d0194fd17dfa48a18897ffd9377cc71d43f8d30ef1016db54efca2fa154c, 0x7b9b790f060d90e18db0f4e13ca224a89cb0f4bc41b3c4aea167fdbb1f81328, 0x1b40a4f04b92bc573f57b30604663d415cfbb90d3be350974bc1004b914f8709, 0x2353b923817544a8c876df3100b6bacf69e82db192397b85fc78c6129aa1c06f, 0x20893db0a304e2d47cf9cbadf0df8d4f4b51171a61366dad83e9aac61fdef5d8, 0x1ad92c84fd2024f84cab75a326d08dcd692dbd1fd2bf0a936c440106deacb6d],
    [0x2785ef59bf0838aa3852f40b5a03d1b64cc353dce1551e73f2ec9b3794cb0d0d, 0x95ad1f3ac8c248dedc52334b76b18703bd509e0367b13b343a71cab465541db, 0x121db84747a8643da62d47075741d4511a5ad1b5972aa18fa117cb5cd7d19dc0, 0x1cc36f651e10199bec5a97c0fee695e1da7a49f5328d243a03a72eda11a07f27, 0x232540ce4dd4f54af8954999d81e76ecaf105fe3849948af1634777409d7601, 0x2f05ad397a057e3a5de6768ec01a3cf64ae36af17d19e2cd8da3d3588e0e5aea, 0x5d33f12828e434e0c5a5b0e5df172fc94df512ff4ddcc37cd091d11064db7ab, 0x135cbb3a0aa0bf48949271963f268104e8d8844bc25ca073465ef198e8be0b71, 0x1f520fb78441f57812922b7f7904142bbbb140acd2278f95d4cd82c19c279509, 0x2fb146c00bec227bde2d745c7bc11ffae0537bf6b560f1e2b2ee69b84e6ff949],
    [0x2efab1bf87223c77792b462f1912bc0aea4afd95babdb6eb4d9ea81970b87b5a, 0xd6c71a12fc91d93053807a19e3d5ab0fa6bb32e7e1050dc4f6aa7f9e3c88368, 0x1fd671ffaf6f9195f497977edbf5ec0e6fb3e9277de9ebb3efbe6b91cf02c441, 0x3fbadfff0a6655947d3b008abe97e46ec9173b9a0793cd8fa7a07972b45422e, 0x2b0bcd21b3fa962fcc4c9743531e064716985dbb29332a4344e0ac09fdc2cda4, 0x2f849ed98210babf4a1c388dab31747bda68c72151680f397bb0ef65aeeb679d, 0x132efec66014d752e6160ae8a12f60bd355b3776df5b45cc7770ef1c63c13b91, 0xf1b467416eb2bb583b11a29f6ce291b6619b600ff5054d1b7f1bc0b05e95fe6, 0x23caed869b797de4ce198bfd612182209d79b3584ea773d4335278c6afe056a3, 0x35433db1da81c01fa6efcd9d6839284e048c2d54c5408157c4aecbedbe5ea9a],
    [0x21df4836fb9865d7bcb1d26b42158866c5767da1c477482e7955e3d22355d1dd, 0xe86376cb748087dc02ca92d29a59f576594d580bbe3a27949c97eaf40fab70b, 0x14399fdf76ff3dea67b7ecc298b8bf48b9c37f9428f4641989062d60e3c1bc58, 0x1681534f7f4f5d8814c119019fc13410fcfdcaa6468c31d9e78d1b6f7ebac5d6, 0x2272532abeb4b914404a0b88f1e1a0169a8a415880a8ebe12bdba9be5a53addc, 0x382a1b524a68bbc89a58285b24e179ff374422202e307357c184fc91d67d24f, 0xf1875500520d007e597777bf5b5d3d006ae6ad3277d1e8c03cd7008dd565e1a, 0x26d22a8e0a301271b7955d05f26ecbf8d6f594a4428e27d9edc49afaa98bc0d7, 0xb86ea344016237e0587588fe5bdfc22304ff17a91b11b87d0c2732318ce8be2, 0x1f97fde462fb0ea61dbacd9b3f42723f030471671cad447f862dc3ee388c52fa],
    [0x779cc6584461777d8b044f474792ddd372031f0dab46ed8ce2aa7a091d4f7f6, 0xa6173bf8dbcd6b7cd5c3863dad0b0e89d527aee2d22184aaee02b2d924a1f59, 0x272ad25c4a213e4ac82773669f73ff0cf26057967df5b6ff69cd4c06cf84f147, 0x111e87540bf800219bdc9d211063075c1c105d8b0515fb0cb53c7a66274b455c, 0x22a12d0f634e7c16733d92b1b02ac1bac137139b27e525f2bbc67bbdef3d209b, 0x27900482700a4313bd3ba4a093a06f2d4f1ef5691237b34b42939811d5fa1c8c, 0x259edb8f9fe8f087a0497f463948d03d2849c5bdc638a8eabd06c7b6669a3e43, 0x261d486b80980304bc83b0aaa98b54c0ea2602fe96c4d3368a6feff700b0c062, 0x2f79ba1d5af7d0521ed5da90efeb8d755bc54bbbb0faa15a2ba8bf079dd851df, 0x21eef622552589d41c12a395f89e0bd9c23c65033901211c6fd21eda5a02aaf3],
    [0xc50fa5e0636044bd87747b56ca22b467ea3bb1b62c5e5b0ce3b39980f2404fa, 0x22e9bf04cbfdfd7eb3ce2da65166a880b545821f2cd59b4c1993747e6f8830a4, 0x113521839f22c9a2623a23f65278a452c2ae78702c7872a12bedf58a91f71cef, 0x24563a88157a91444220fa7fd2a94656f88f60baf9a4cdbf694ced7ab44c6f64, 0x2addc0f0251551027152843aa2806bcb03624e05493995bdc93f5145e9ebfdfa, 0x159557890a84be2ef2e17749e33432d5651de87e6e8e22c4573b3a235a9dd74c, 0x2f2a1359cc5f90663d2b3810a00c125471643ef93a49b353c6396ef7897b3386, 0x2ba19836cbdcd509b6f4c8aa1dee1b3825d6d95d7de5e695d8850cc848a0b0bd, 0x16637bae744bd3f374b8c8c826dfc1736cfe88f5d0623b091a02b2c0213e81e5, 0x8995677b17172e589963dab60021159723f5b0bf01672c6786473cb44026b2]]

/-- the tables have the sizes that the code reads and load without a panic -/
theorem sized10 : (opt10.sized 9 4 60 && opt10.below bnMod && c10.length == 68 && c10.all (·.all (· < bnMod)) && m10.all (·.all (· < bnMod))) = true := by decide +kernel

theorem ok10 : opt10.check bnMod 9 4 60 c10 m10 = true := by decide +kernel

theorem inv10 : invOk bnMod mInv10 9 opt10.m = true := by decide +kernel

end Verif.Poseidon.Bn128
