import Verif.Poseidon.Check
import Verif.Poseidon.Primes

/-!
# Poseidon over BLS12-381, 2 inputs (t = 3): the tables, copied verbatim, and their checks
-/
namespace Verif.Poseidon.Bls

set_option maxRecDepth 1000000

/-- starky/src/poseidon_bls12381_constants_opt.rs: C L82-162, M L2177-2193, P L4299-4315, S L6578-6854 -/
def opt3 : Table where
  cF := [
    [0x669f064bfa3ae17a23bd51861dbb4a24501eac92a2758b36a7320a009d6ed3d8, 0xa61a8defbacca36e4537ff2c84fa66ceee67c9645ac27346e72ab842b9d3f15, 0x21e9cefa24b89d09f91b1e8a45df275b17292b4e1aaa49301e234771128165d5],
    [0xbfc421d38531805382624c9d2d2d02b1f2f5590316c401b2f5f56ca2f12a0d1, 0x13b0ae4a89035df0c3d3fcf4686942e8beccf44e15ef3bf5ffca19f35a8bc5c8, 0x4b9addf98d64d0b4c1417481e426d040f1aac43c1fd12d20f83841b245aa3943],
    [0x2c24c3856581c7149b2eda9cefa1cf3cc6bf1a2c3fba2b2472256501cc024538, 0x61f92179479718029d91289f1a323cf6b8af610e3c2f8f42d5d1c1d33a51c665, 0x1236dfa5abb3bf324a52476a08f456b4eff0f0f1132af1379fca6ec5a9165c40],
    [0x59cd6edc11a8caf8cd6011fb967561525e971dc7e93debfd0ca417f4c22e5f63, 0x65aac0a0a09c16817a58ca73edd20ee4322e57a2f551c1a8e574b361d64137f3, 0x19f871c9bc44940f268b267e80579859c00ab3180e60f6618435b003b7433fe0],
    [0x713fcab884bfd08e8f9c136139ae3a792622591b5de7509b2641c09aea0a3b9a, 0x2137e69e882dfba1e84193a1c3d9dcfbaab690321163cb1ac50d630388357041, 0x5590950aa71d8ce93cf3b553914cbdbc785f875e08e4f236bc87371864fcbeb2]]
  cP := [0x15ea0de59c6ae7c8b21fd309ef84aba77c2d8e8139c9c08f5cca2138d161fdfd, 0x490d03d2b54da88afebf20b082dd1df2ef57d1f5c22cfedc36ad01257e55df0f, 0x61a362de5f6e86f0328206c43037b4fa6d998f568584756e626b6495ac4aaf43, 0x5788188851bfb10f844ca386350a39716bbe93447677a2f16a789bc85c3717dc, 0x578bf19b7ef10c031b56c4c599b92ea26411f5ca29277bafaaffe629df559709, 0x2834bdb4bd049ae9aa231b154488643acb2ef2fb55e4ee823c677884054a4cc7, 0x558f4008f1ae728e9ebe42ca584ca233e75f1828951daf3b1c43bd2c13553484, 0xbe5a1a175c83f94c92e693dd48dd7f3f2643f05404a684438e775ff2ea36861, 0x450980a0e66035f3916ef2d342f511ea818baf56a04b0f2bc94b6729e936ec26, 0xd2129697397018ae174869cf75268138cfabfb4f7d364fc276e7696de4c29fe, 0x4e5e676b2b3555e54e6fb9e0a846775395ca50fdc17cf2ef8d938bf283a7cfae, 0x2a15f60edc1f825ec66a676e13644c34dddfe849e5b47c945c4c3d19f3855124, 0x5865e57d47e0a5933dc5e6e82c72deb4a2cae7592f25a189d5bf207d5c3add6f, 0x362d9d5f6fb361f885729095808b3870fbba5ca0b3e74512fb2169c57962ec59, 0x6a63ba9f7b9a5d26d51d529ca0f4f6e63a5252247fa778265a33cdd2c2ebe09f, 0x6f7db3e777ac0728e89b6284937f5bc57360c71e3ea01dcf76248b37ecedb9da, 0x72e049a299b4c01d755cd67a374c75e8d8302e752d1e31c5e7eb174df3c79151, 0x66e141ead35048c7cc590ccfee0a980ae01f7115ee773679077ea78bed30b3e2, 0x2e032e691b04eae635db7f594377d1d035585311c2068e51ec164c63e9243bd4, 0x32bc02497721afe6df383cdf31578a5dcbc48ea4a3e88c1d5eef5224c767a95e, 0x5bef039a2fb68a94e2c320d0b68c1270932f76090beadc843b949f956a9f1ede, 0x25c6f8bd945ce03a59d6c06550fa5d6581d110ef102ec9ac13e690a7d0bf47c0, 0x71e71d955f7f79f448e258b1898e84f3304b34611f3b04a8e17e0d5ca52f6185, 0x40467b587ddb35d1c7df0ba3e71d0b3cfb0cf74f2a12119e87e67bd469435d47, 0x97becd4af55811f7d23233c9d2dfbf5da6aebefc5283fd9d0139922b6c1f63e, 0x2c913a8c0b779b2eec8a3b33d1b74f74fa8872635c704e2b139affe3de90e179, 0x31c043e2807a8563ab9bd62fab9d853e7954108d993b0acc4c83781e40033c63, 0x5d49a43f01fce19be18a2b56369bc6168fe05cff11b7ed65fb8dcbf6129a77a9, 0x503140a019bdde3f9ca8518853fea9745bd30fa41926f7a7a1e54917bebd1959, 0xd2c48b5009cda788905bb25aa02f8b7d74a009288aed5ddb0c71cb297928b1f, 0x23ef01c0d6f624c092d06e3def7535439c4ab2880116b59274963d6f4efcfaf3, 0x6dd6e28ee3fce2175a38df3a62373c32ba5d132c4709bc690f8ca15e21276eb0, 0x3514b140f2a8f9f1c5abe7275e49639095d477a23b0185900a669d4bccd11b50, 0x601a7bf5efaa64320da7a34c4074681a40b58814bef4347050109b3b514c694d, 0x11c2d475d07dcbc241b18f96187a5d3580ac1ebdbf98e7532839c650f233fc1d, 0x5d10f0e3d327f06546668d53366f6ef9980b13420f37c1ac72591c5398a1d878, 0x57ecbaef596d4e0967205fe1d5d0456acad0fe4b6055befafc40e6ec498dae1b, 0xd4a937c99b8b057e46fa0357fe7a043d10107a6c94891d14674a4541c62fa41, 0x6d3bda46d1c6b862674d902d96002b93708ab217cc3c5b2ea8d127b224d60a4b, 0x4d70a4c89d59f8315f5fe0005b1dde4202dd24d2b1f0d5506c89a201f203d6df, 0x5ad28fab208f6abd693bb1e73bf428910f9c0ffd2b43ba02032e58bc94c35449, 0x5e97039e8a5254e8afffcda9f51b7bcf570ca4da75fd0e313796d545cd9200f4, 0x2d96e4a68760097d7fe53dff337da724b24d679a3885337afc7d61546d093f62, 0x6989852e8353d2143f9d85bc3967f00794a5d8b384a94562b3cd492e3da41a3d, 0x4b65945c8832d7832b8f7b912e7032889c9380870378c89553401d3ebf88e7c7, 0x21638c05edaef75580ed73429657ad2f5bb36cd81337c91fd6e032516e1311a, 0x6932a3d49d0516c006e9f214e6d64c0f4eaaae5f2cc0e183896117c5ad1a42ff, 0x6595c8b8d5748e53f1652317e17ef9241fffe86cc279798b66fe238c518fa8, 0x5e33d95d9120d62f822160030a5471a6b93b8b224a85eeace5718f7799885ff3, 0x31c1333d03d8d48bae9c2e0a912c60ae4519897d184ad60e89efd16bfbf74854, 0xb60dc9a923984ec480b4dc5cb32332df1faef605d5cc6646513a8e3a8ed7e68, 0x60b019ee1b13c73d145ba1b8b29b44d1c0b86cc6824071ebe4845304aad9660a, 0x589e16c1fa152213cb343eaf0e51a30454030d38ba496f3c752e0c7f40c60ac5, 0x16058f7f5678c48a0efce2f0404576c25545708d64780dee10f4cd06ad9c4778, 0x583c8dc2fc9dc59369ad9eea83e71500a2724395a6d8533c89aabbfed742d331]
  cL := [
    [0x24edc9984eeb8a91eeafadbdeb685dbea22f906abf027e839ec05365cbd770d8, 0x47345bcfcb497bfbc8901d63845acc630661090cd1a43859108ef616df8d0d0d, 0x163f682ea8cf8906483703f9bcc01d13f24198b89dd7dd30181fd56613b14e96],
    [0x305ead1ea4dc91ce08e43af0c70b95b359ee2284f90f565c29b22d11fc2241f3, 0x6a2d44c577afde17c71a41e9685c029469aba392e19c8f3157971381b2e30e9a, 0x494e57dbcba7ecbd2bd69b8782b14d390a3ff51370e6aad0015774404116d02f],
    [0x4926608d2cc060a348e2bccfbbc3bd4ea9a80723397f4a798b7ce683bea48aa5, 0x89e407086a906aa3193e5083ce789186dfb0323c89c0827020e9499db789207, 0x1c84e3e9450113a4b5489decd8dcc8b25f057797f37899354931a0eea88d7d5d]]
  m := [
    [0x4d491a377113a8daccd13ab0066be558e27e6d5755543d54aaaaaaaa00000001, 0x56f23d7e5f361df6266b620607396203fece3b023ffec4ff3fffffff40000001, 0x458e97984c2b4b2b51ef819e6c2de803323e959b66656a65cccccccc33333334],
    [0x56f23d7e5f361df6266b620607396203fece3b023ffec4ff3fffffff40000001, 0x458e97984c2b4b2b51ef819e6c2de803323e959b66656a65cccccccc33333334, 0x609b60c54d5893118005895c0806deaf1b1e08ad2aa94ca9d555555480000001],
    [0x458e97984c2b4b2b51ef819e6c2de803323e959b66656a65cccccccc33333334, 0x609b60c54d5893118005895c0806deaf1b1e08ad2aa94ca9d555555480000001, 0x211f5460e751918257c7624b7077624aaa362edc49241a48db6db6db24924925]]
  p := [
    [0x4d491a377113a8daccd13ab0066be558e27e6d5755543d54aaaaaaaa00000001, 0x69321c24c1cca37406c6aa610cf3eae4365bec86202785510ef2a763f5e42c3e, 0xd90801cabee4bb8d1fc3ae4f4fefac93b1105ad4e18f2907e485df9b0d18295],
    [0x56f23d7e5f361df6266b620607396203fece3b023ffec4ff3fffffff40000001, 0x5ea78f2da2d8388ecc02c49a4620a6b27d41d1e5effd39812af98a8d97d6d2a5, 0x5520a6c1fa10647c5d2b726508ae4d861f26108eb53e8c91ed21b32cf61b91c2],
    [0x458e97984c2b4b2b51ef819e6c2de803323e959b66656a65cccccccc33333334, 0x5520a6c1fa10647c5d2b726508ae4d861f26108eb53e8c91ed21b32cf61b91c2, 0x52077538d6b5e62ca4c19efc7069b99b3565cdb57004cd4efe3e71b13c252454]]
  s := [
    [0x4d491a377113a8daccd13ab0066be558e27e6d5755543d54aaaaaaaa00000001, 0x59d39397f9b91a3745685546ac8e905f0374bec2c68a96278d2f73d4d6a692a2, 0x47e0a024d590b6d5dfde3aa97de4cfb29f5f41f22384e5bb8d20026eee4fe764, 0x58967f7ecb83470ce5990816f118fc84a0713c868c352b00eb409bffd891fcd4, 0x6b86e8b29a5dbc718feceadaa352e2408b5b5a787f19a11c0c2f312859104072],
    [0x4d491a377113a8daccd13ab0066be558e27e6d5755543d54aaaaaaaa00000001, 0x6b3afd17b58c884dc446de0d9bc824d67536b81594061b401a286ce70e61d4f6, 0x2f5224ae6e886104c17f338d24637742bfacce8cc4a3ace43dfa3220d81afc8b, 0x58feab7be517c244fa5bfa99ba3ee58377a5807051fceb696ab75c913750e7c6, 0x1e93c31624ac7d9eba2ff21c3ff0f938aff5a3631a15152403746c21043e0a07],
    [0x4d491a377113a8daccd13ab0066be558e27e6d5755543d54aaaaaaaa00000001, 0x4f9189c5d9d4f2c93b91c5d0eda967c96435a7e9e0823087c2c2d9ddeb29217c, 0x1e26fa70118dd535a669e153c4312da76fdb9954cd248325259831b13fbed3c3, 0x5bbaf24faac36b2ae4d066576ab5be3af61fbeb84110b6e6336c635769febd28, 0x1dbc76069dbfc974ea35ecafbcac37ef236956876aabd69adc308101ccb3bed7],
    [0x4d491a377113a8daccd13ab0066be558e27e6d5755543d54aaaaaaaa00000001, 0x5e5c40555161b4810c5bf8122baa2db67ddaa303135ad14b606b00a72896f6cb, 0x48c5d9a7d302bf888955406978fc84c83645aaa85501c0892bed1306f9715ab1, 0x41280a005bf1076f26698a8af2e19d7538b8bd703f5aef2b886c06549baa736a, 0x36da144bc93c50ab432d1c7c06ed152853361359a0c9df3490d57faa8df8b13a],
    [0x4d491a377113a8daccd13ab0066be558e27e6d5755543d54aaaaaaaa00000001, 0x702695340c4f0aa75f5a28e7a3a3d016655e386309803d8ba32350195c5bc07a, 0x6fb0624519a97d88f870de3068d04638da899a51a1a68e7ad96476a236971185, 0x5d54bac268619061b3fa33ed0e8583524bcbaf63a658b57e1cd1b995fdd7c4f3, 0x17e61efb8209d2206a9a8c138aabd1840df202234e212a09a98c7a7d0efbc823],
    [0x4d491a377113a8daccd13ab0066be558e27e6d5755543d54aaaaaaaa00000001, 0x4bd2cf598ab0a309b23ebad268495c870504cdaad892c8301a31680ebdb40fd1, 0x6a699aada5931206d3184ac4c897263fea0c912a37260e6b405748f635aaf7eb, 0x480ae2914d68b89ee3535f7aa8143d6fd0dfdbebdfd0d5242e3a0345312c4dc1, 0x66906c6f903a270ae98cde7b083616f0268dd464731ee799423e559a84d97394],
    [0x4d491a377113a8daccd13ab0066be558e27e6d5755543d54aaaaaaaa00000001, 0x24c3af3a27a77d1f1556ca17f257ece191340b0fb48182d732186dc58cc081d1, 0x504865dfa31e442340c07942d0ded8220b33d07319af719cfb4577315e24260e, 0x7e0b8b02573ffa30fc913a43aa4d32971dfd050ef02796e29a8139b98c5dc96, 0x33d4c0bd84bdf675037d0b9abe7a8cc283d3ba4fb9b4138b49c595b46fb5fd02],
    [0x4d491a377113a8daccd13ab0066be558e27e6d5755543d54aaaaaaaa00000001, 0x6204d6c63653cd3c39be663ff34d49cff055bcf630e93fc4893b2148abd73160, 0x3cb9deefa7b343e92e61f61e9a7699789bc8c18cc6bcbd8e31a2f83866e6437, 0x279b5906c62db3caa5557d1c11343348c06e2c77b77ed0e0c618fb11c7d58e26, 0x2e1c2c3a038cf1c8e0009c87b578a5704c39baf0bddc6920729f485ca4d61a8a],
    [0x4d491a377113a8daccd13ab0066be558e27e6d5755543d54aaaaaaaa00000001, 0x2f494a2fad41822fdaa6bb05626230a1f4299f25012f2a98059030b549d70983, 0x428fefc8570dbaca4cf1c7716c88a2a234f46783318ae78e8ca5fa0c2fd83506, 0x707859a52baa553119cdf9221946c1834c25a6f64636e55642e72c6a4a862d9b, 0x384e34746006d19b4625d3af783d284805b59a725f1e13aa544d46b855938490],
    [0x4d491a377113a8daccd13ab0066be558e27e6d5755543d54aaaaaaaa00000001, 0xcd289833f73d2f34634b83e1c97166e45246a69ddd3e4b63aaff7aee38ac679, 0x2fc08b344066e37ad53b3131ae9d8295156dce2bfb152dfcad66998d6879955a, 0x49a0f14839e0b8d83186c3c66e1043bd4e2a927f58633f35e32737ce33555294, 0x4c61b1b4096e93b24acd3554b6001ae5fa9f9b86080cb2961a6f2df11b2514ec],
    [0x4d491a377113a8daccd13ab0066be558e27e6d5755543d54aaaaaaaa00000001, 0x501486080e428a34b6b71d998677713218fa4d406fcf0ebce45ef5cb033004db, 0x640b9bfd2848692395758c6d191676fb1986300e1812c4357dfb391e4722672e, 0x6f3b383805ae0bce771200d10827a8f88c8671e28b34eea9085f8d1ad392e691, 0x4c7015949ad219229a38e59baa87e86e1e7c6b196b4a71adaf4572509c82dac8],
    [0x4d491a377113a8daccd13ab0066be558e27e6d5755543d54aaaaaaaa00000001, 0x4f0fc488cd6970580524af785ea92b8b55699d54b3f8aed8f5defef183f5bcd6, 0x18e0f1c8196d1cf9dd40386c077ae1c4799ffd8cae7477b96eea92a62f43c668, 0x1c219a71771d0b32684d883690e773b8ad487009de5e56821c3770de5ff2a5c2, 0x4d2ca8059830acd9575fbae48802914282db119b6ba1102ba9fac734824e3a12],
    [0x4d491a377113a8daccd13ab0066be558e27e6d5755543d54aaaaaaaa00000001, 0x3a99fed86e644d9794d885932874cbad525566cb8555aaec18fe5c7ede00b5c5, 0x5b0b35c3a4904d627c6bb65c6c900a697a296712aba3ddd38d2ddeac1511d57, 0x660b29b3ad2a8d8312e751f1f6f50f4f3a157a950f966b496743f2e79270ea05, 0x5cb4e2bf3eba31e13c6c588ea7542d90b84b1b8989e744b42d6181b98ff53020],
    [0x4d491a377113a8daccd13ab0066be558e27e6d5755543d54aaaaaaaa00000001, 0x372cfd25f3517176150c4d6d132766fc1dc70be754fc5f4b309a488ceec0dc72, 0x4f95b3e2bfafbfd08c383dd06bebf1dc6d9c6fde8a096e5ebd0b90a3cccec0f7, 0x3abfdab3ed557a37ba07696cc193d332eee60219d5fcabc561ca6090e043114e, 0x4e0c89ab18892faec548736f87b8cb2288764cecf65ddf35f63e70c394bb6756],
    [0x4d491a377113a8daccd13ab0066be558e27e6d5755543d54aaaaaaaa00000001, 0xcb4d97a660cc3bbb00e9540480df41ae52eeb06419a9c410fa0c8c01eaf6e62, 0x25205bcafaa4cc667430d312a02d1bb7fc036040ae12cb4496ea9aa8a693035b, 0x60f52dba09f0c7332c4d7894b197e68bb7760c615c540051c313653aad6d667f, 0x1b79ef5c392ad98efe00fc986fd08ce6c01aa353fb8a2d732d73c9ed7175866d],
    [0x4d491a377113a8daccd13ab0066be558e27e6d5755543d54aaaaaaaa00000001, 0x619b7f57ef27d3edf7732262ec3996ca42b4effd43ba65869c4741ec6eb30e1b, 0x5fbf73e4917947f11e1d18937f90450a719ee2a4f308eae31e42684fbb630098, 0x598870abd6a0a87ac711305d628222deb312a864945b0165e0a788dede83cb7e, 0xa97eddafa07857ee7a19fb8c00576f28d50f029de5e29dab811bb256bf23f92],
    [0x4d491a377113a8daccd13ab0066be558e27e6d5755543d54aaaaaaaa00000001, 0x4a1f4af5892602452dfbf51dfaea93ce1a0ef2d7ad8415da0ab2eb5e6009a50e, 0x20b4d46e3da1cf0edf866fe8cc1bf760480283235ec4df555539ef38ddfb394b, 0x5fd553897695b7aa259d905f44c987240f9226fae781e2adf740b878e7f2ee5d, 0x61993812d1bdb7b0baa1b1a77b229efe0213f85931245d2ee805f177ba59a6e8],
    [0x4d491a377113a8daccd13ab0066be558e27e6d5755543d54aaaaaaaa00000001, 0x55f7de03ac378c171847714af3427cef7c66569098e4f752dd24e8022fabccb2, 0x37ab37f2de4bda012662c3e5e291cd1f9842105ac2d629d4c4d0c34e607ad475, 0x4d0a4fe0de288ef479687a69003992671f9f94775101bb84a1a0b03944af30, 0x408dd56b028f8fad415461855abd95aad79e2588777e1f9d92c25ed32af8c3f0],
    [0x4d491a377113a8daccd13ab0066be558e27e6d5755543d54aaaaaaaa00000001, 0x44fa9536a38d3b16c02b6ceb738b9b72d97e9cf9f23fd1a299d4d77c1114b2c0, 0x10c2a506f76e1e3d8717430e7936adef38c85218bb6967c4a27f6723fd58d8d9, 0x3d6fa764076aea63b7953259cb9b6f3ae82d5fd0debf5421de33323a043a7355, 0x5a61c5a876912313f30ffe7df58fcf2f2fc3fceac097bfd4aabf87da52892a55],
    [0x4d491a377113a8daccd13ab0066be558e27e6d5755543d54aaaaaaaa00000001, 0x3b18a15dc8241420beaa4e09c87171afba114f9d9c7b98afdbfb8915e95fbf5c, 0x1e73b60fe306e9355f376542d6b63323ca9c0c8f24abbee7cf5426751ad948f6, 0x4d5ba78e2b90cc35805fddfa51f17a25a33f1b19a19a97172ae1df6e44945e4f, 0x14beb329cfdfa8dda9267ba98151fa5bc1bce8bfdcf945e4ce8a87a6c7130f9d],
    [0x4d491a377113a8daccd13ab0066be558e27e6d5755543d54aaaaaaaa00000001, 0x4eb917db5b87074f8d0e6908d98b5f458d3e586c2df033afac6affb0f76a904d, 0x1ec2c6b6294211ff03ef9bdb90b1c54dd41be372319a9d4a7923a8880c4148cb, 0x3de33f06c7e4eea9194f706272b3517d08a997ac5cbd6eeab92dd30aeaaf8070, 0x6fa7a9b87e71b16268eea687b14d4172334e62f6f3f35bda23143f57b50e021e],
    [0x4d491a377113a8daccd13ab0066be558e27e6d5755543d54aaaaaaaa00000001, 0x37a6609ee9eedd3f019180dbf9b6db2503639bfee6c95137c7bd79e46f4253a9, 0x6c99f92a975ebb8efd45e3cbba66a5089c35aa002105f9a721d9f98b929b1643, 0x6094072f3887a9592143b5453b5ae676013503de16e117ae6d9c6d4f7de8928f, 0x45f265d15c25377e846208bb8cc3e124dfbdb62e10feb6b0a0573be3b5d2b926],
    [0x4d491a377113a8daccd13ab0066be558e27e6d5755543d54aaaaaaaa00000001, 0x11a32c1e90a747839cdeb2ab033f1821e7ac08ff8076392fa50e7db3fb7c724f, 0x584627b5bb057e2e15d4326abd5501a2b273ed9ff452451a87a6567052274e14, 0x1ce37efd6bb54b6630fde21b65b0f23ec99d8a19257885d88a6dbb3060ab2b49, 0xb885dd3127ff6e9a1284e8cbdcafbf9c74be56ef5f0acb0eb8d48dab2a60831],
    [0x4d491a377113a8daccd13ab0066be558e27e6d5755543d54aaaaaaaa00000001, 0x409c74816658d572155e828c8a751fc6294e6279a046d55a59c0c1253ffd4e8b, 0x6aa2fe35bb2498c2f6463656a3281bb35d5485d613bca4d41681cbf66669981d, 0x6fbe4a91d15a36b7a5402316f25d38c5c079286399762f371b41dab46c27b70b, 0x559c7cfc6878e80c0dbd78f2765cf2f3f43880ed5bde426a5110297c8f068e76],
    [0x4d491a377113a8daccd13ab0066be558e27e6d5755543d54aaaaaaaa00000001, 0x2a49b044c05ad0ad76b57480af506d5fa8b942ef8135fa021e3c2f05bffffe65, 0x6a0c4fd6aa0cf7854a1d267eaef09e68feccd7d366abb7944908005f9333351c, 0x30b823a0932d5029519a44aca3eb6e8d1b811b1c8ae43f9aab0bbec0b88bd6de, 0x4eb9f95ede78db035ebd9e6256c5ee4713d3ac258bbac1626fe36e8b11e01533],
    [0x4d491a377113a8daccd13ab0066be558e27e6d5755543d54aaaaaaaa00000001, 0x6f257810a598e20ffcdc1a018b8cbda0011687800048585423491a87d0000000, 0x1e7a71b010a86d9089a689def9f232319bd5e05eb67cd6a7c03bef825999999b, 0x41d47d8e0f07e2f110fe6d29887ce4dfdc5c60e08dc29bd7bb1712a1881b085, 0x65e4a706ef59b44be994609bdddeac8221b6ae959d20b857d43e572035de9bc6],
    [0x4d491a377113a8daccd13ab0066be558e27e6d5755543d54aaaaaaaa00000001, 0x4250b7ef84d570d72936928796379e7e1e0928af8a0ee8c0b235c230000000, 0x16e0e1344ebdbb6ca56d3c9a041b947d2ed31210940582b845ea145a04cccccd, 0x5e317ff3eaa16c4e34e919d5fafd97d054cdb93c54d0747bdda0187a0a9455cb, 0x4659b664d5f3dc31ca929f53a7fffab0310494168fa51db75cef002ecbe88f8],
    [0x4d491a377113a8daccd13ab0066be558e27e6d5755543d54aaaaaaaa00000001, 0x2791220a45bfde7eebae2c8c2dbceb0943a46671eb090786637a24000000, 0x458e68aafbb5e776406231c54d735cf87c5292970dd3cfd2d4c53ca076666667, 0x21584ac11279f40413f34af54c109153f90fbd25861d299b30d053f33bfff6c2, 0x6bcde53e06ff3b9939e8d0f3ca63d6d07147f2cbc25f3dca2a602e225de0743c],
    [0x4d491a377113a8daccd13ab0066be558e27e6d5755543d54aaaaaaaa00000001, 0x179b8816ee9881d5072e746970cc6b958f16cb50fa60b33799ac000000, 0x5cbe1f59bb2aaabfdf0f8bbef4cc354ce27652519923e2006ee35630a9333334, 0x38dca1a6a8f727c9569ed102e0c97b0d4cb814ecd97450b78f952e452dda27c0, 0x6ca6437a9bc6d5b205833554525142b39cc201c452f08660abc88cfa30f9ff3f],
    [0x4d491a377113a8daccd13ab0066be558e27e6d5755543d54aaaaaaaa00000001, 0xe15dd23f00c4fc252f089b3baedd17f269dcbbad07ceed1a5000000, 0x2e5f0fbaccbd9557ce03d09ec5d8b86e8b1c107fca6fafaf99dcd287e599999a, 0x36ee8d03bcbb054631aa3246a0eac848020818c3dbc7b1570a60e2fb105091bf, 0x1435e3c61e29a191c1d3ce77a1a17d20de725d684434451a510ad20d9922a5ff],
    [0x4d491a377113a8daccd13ab0066be558e27e6d5755543d54aaaaaaaa00000001, 0x8676edfff3deb752fd68b591f10a5fecbe206f68a971e83000000, 0x172f87dd6eaf216c15e649f52b768d1c38e5369baf8b8b3e2c89b397bc4ccccd, 0x4ef6ee8427d1ae4051137a04c043acab4052099e95d6c1ccd13f498fda3a4eee, 0x31592425fa041fb14389419535c622739f6b82a0d948ac49432c93375c03d88e],
    [0x4d491a377113a8daccd13ab0066be558e27e6d5755543d54aaaaaaaa00000001, 0x503a6355e4f26e4bb39feea5c4c1d045af23032ab16e4400000, 0x458e97984c2b4538e435a29e1926272a7db0c3b9b7598c9bc1bd0e44db666667, 0x18dd7c0c8abf5f8100a525e7d5304ce0a80b772c1d99140b05eef5dcf5d7dabb, 0x1a9b74ab4c33dfe32d44d81c9248a615f133c2aaf9238df679f692598ff46cb0],
    [0x4d491a377113a8daccd13ab0066be558e27e6d5755543d54aaaaaaaa00000001, 0x2fde3296da49b632bbf8eb3bef1298f5b90544f435ac00000, 0x5cbe1f75bae464363639dfbbcde85162c77ea07eb14f64f4c22fa4a551933334, 0x2f7e0d8cac28632b51e7cfe246b0402b910282e270673b861fc0d1dac544a326, 0x5c333e6f3eb22c6ba1958392aa4e4d0fa8a82df8f780fda130b260f409898fce],
    [0x4d491a377113a8daccd13ab0066be558e27e6d5755543d54aaaaaaaa00000001, 0x1c8f72b9fd259edd5fec26e1a95c35d5f5d11b1b0d00000, 0x2e5f0fbadd72321cdf2c5e7ea33890bb7f04a0b2c79dfd8d5e7661aebf59999a, 0x53dbc030e6114aadd9958fbd891f39be5b708a16002b93b661400544e16ac01a, 0x2d35d513f62096430f42c92d5e6d054dc70ad9fd6f05df17e36b4b35911bb92a],
    [0x4d491a377113a8daccd13ab0066be558e27e6d5755543d54aaaaaaaa00000001, 0x110a5d4202cc5ed960388f3630f771a487a3832300000, 0x172f87dd6eb9190e70a3e7d77660bc6dda27bc81a70ab98b3bdd60242684cccd, 0x23caf86a0fe5c1b0dd87888b262dbf0b50ab85030c219ad3d30002ad76512da4, 0x2adb6314551d14a15741b0e07fd76b88965de80f25afd7b21719b603edb8b03a],
    [0x4d491a377113a8daccd13ab0066be558e27e6d5755543d54aaaaaaaa00000001, 0xa2acc45ce46226d6641951633797c475447f640000, 0x458e97984c2b4b2b51ef80dd7cd1301b58236d0c95c1ddd7ee74d8f593f66667, 0x6d196c5e18d7857ec99b5266d6fe8663e59ae5fc9d3c30c268ea92a72f9387d3, 0x257773ea30edb7d6912879f778d38296aeff621525b541a7a74cf9aef3360874],
    [0x4d491a377113a8daccd13ab0066be558e27e6d5755543d54aaaaaaaa00000001, 0x610f4942c49cd7518cf504f3794bd536baac0000, 0x5cbe1f75bae46439c294acd2c7ca98462800b4a6e8d8d98f0480ac70d5093334, 0x3d20183de966a1a6782fa822409b2487d9998b16a048218f87ca4c6ef16890cf, 0x5e58ae59ce2fb734ebde32eafa6208d12fffd8f7224cad199f597a9d622ae78f],
    [0x4d491a377113a8daccd13ab0066be558e27e6d5755543d54aaaaaaaa00000001, 0x39e9185606334ddc99a18465cf476226b50000, 0x2e5f0fbadd72321ce14a56699d2f4135260747fba05fba3088ab3612dc05999a, 0x5fb28d53c691123a6895b6e4b695807c6282128f54e99ac2d7289b3653de8a, 0x29b44d1438f3bd06c864e041efcf64860043419c48e915d9782200489a752698],
    [0x4d491a377113a8daccd13ab0066be558e27e6d5755543d54aaaaaaaa00000001, 0x228d5ec29c63fa0ca822a29b5305c6030000, 0x172f87dd6eb9190e70a52b34ceb9cf06507eb05c04d1b678491056ab4a744ccd, 0x402562560d0a567b0bb98dceaaaf1fac6a6afb9f8054821736451487eded0a3, 0x715c3c0fdf4a839f8a65d615191c36a81c77dd93325be5776cf8f87e7a857013],
    [0x4d491a377113a8daccd13ab0066be558e27e6d5755543d54aaaaaaaa00000001, 0x149d9395122a47abe7ced4fcea89584000, 0x458e97984c2b4b2b51ef819e6c2de7eabef43ba59e2b52472589ef8caba36667, 0x65a6063b6a9e3470c18ea44ded7e1295bf07ee5b130c5ac5be4d4e70b334c3ce, 0x12013e528829eb956f5aa80b3972a0cbe335d78b1fa8d30d9cc9eff788932c0f],
    [0x4d491a377113a8daccd13ab0066be558e27e6d5755543d54aaaaaaaa00000001, 0xc4cdb9eef9e407e9605da822f8ac000, 0x5cbe1f75bae46439c294acd33ae7e0043467843b4e664ba3e4c97d2217079334, 0x18ac8e77f2f37271bcaf31a92896af700bcfb2726cffc65c30b44eacf85f880d, 0xa4029b25b0d87fd9fdffad301664e162e88bf0891f669f3b5ddea66f96c059],
    [0x4d491a377113a8daccd13ab0066be558e27e6d5755543d54aaaaaaaa00000001, 0x756c2df1fda0a197815e41e69d000, 0x2e5f0fbadd72321ce14a56699d73f00221765a29e9fdda818f0560f5b5e1599a, 0x1170da0ce457c3a87176f5b5b330612010ddf8b52851fe588bc6ad3c1981dffd, 0x50be749ef572c4f69c421319b24084de11218f6d90d01cf27c7ea1c61a07bd1e],
    [0x4d491a377113a8daccd13ab0066be558e27e6d5755543d54aaaaaaaa00000001, 0x460f5c1daf58bdd2e2371323000, 0x172f87dd6eb9190e70a52b34ceb9f80110bf820252cde9140c7c66d52b3e04cd, 0x5e8415a6b762b9fb9c8e5c7248f48ee10f7018e78e2a36e027d1194894f85bc0, 0x6b2776720e026740202591c1186b735140048d927a84769ee3ad2443b3146b6f],
    [0x4d491a377113a8daccd13ab0066be558e27e6d5755543d54aaaaaaaa00000001, 0x29cd1ad7037a75ea21dd8a400, 0x458e97984c2b4b2b51ef819e6c2de803323e95984d2a80745c24596cee607667, 0x4b0f6f4140f98fd9501ff17712285e980aa4213774b687153afe074fd7e06222, 0x52ddf6b270da3885036b2a69e597d6176656d986fc27d4c474e8f557145e7d87],
    [0x4d491a377113a8daccd13ab0066be558e27e6d5755543d54aaaaaaaa00000001, 0x18f0cc3896bcc7f7a7fac00, 0x5cbe1f75bae46439c294acd33ae7e00442fe1ccf31589ba29c88b4ecea136934, 0x3256148ca3616b46563badebb553946aa758b2a93772a9a39383e2931442074c, 0x12fcd1d4a3061a42d5588b2f748805659e42b0de79c2d224b0ef8264f6f310d4],
    [0x4d491a377113a8daccd13ab0066be558e27e6d5755543d54aaaaaaaa00000001, 0xee17ad0a35fcd91cc500, 0x2e5f0fbadd72321ce14a56699d73f002217f0e679997d73788b1afbce69e259a, 0x5837377d2809d781049cd3744900a4bcc6cdfbfa1b157115944258c2ab09535d, 0xaac603094da5231478088edd8f1c194dded94c65f65abbd29947e8a791a948a],
    [0x4d491a377113a8daccd13ab0066be558e27e6d5755543d54aaaaaaaa00000001, 0x8e0eb941affc868300, 0x172f87dd6eb9190e70a52b34ceb9f80110bf8733cccc78241e14fd88082dac4d, 0x49cea32406d9d84b2d649efaf72b4e2e76452bc1ca6c967522d69bbdeac0c3bb, 0x2e91b6a8f41e2c5003d5f10ad3100689316285b6af9d85f84fbfc015e883d617],
    [0x4d491a377113a8daccd13ab0066be558e27e6d5755543d54aaaaaaaa00000001, 0x54c2265380ab0c40, 0x458e97984c2b4b2b51ef819e6c2de803323e959b66656a656846723649bb6b67, 0x1be942fdaff70cc2c478bca386564b80d597dc0c45531cc91399efae53640080, 0x3d908c7b0c4d57672483b5d2401d259f63afdf3fd1c65036ecb553a54fa62f5f],
    [0x4d491a377113a8daccd13ab0066be558e27e6d5755543d54aaaaaaaa00000001, 0x32922aea49fac0, 0x5cbe1f75bae46439c294acd33ae7e00442fe1ccf3331e332662a6c08c48c9d94, 0x5e7df6d9d9b60acbff70b6ac75637345fa9ecb15a9513c0e9b7de8b24bfd7e57, 0x1ee4150f4569f35a2adb3237ca6e0f7cc41113c8a1918571ee37ba0cff8e3831],
    [0x4d491a377113a8daccd13ab0066be558e27e6d5755543d54aaaaaaaa00000001, 0x1e2c4f9db2d0, 0x2e5f0fbadd72321ce14a56699d73f002217f0e679998f19933330f69a4a6835a, 0x57eb776981b7ec16711b4cab18be66fbf0f8e79884526b29ead0ff0dcb92bca0, 0x71a9dd6fce8f1407a80930beec244998c35526f525efd3c1f19242203a0dad47],
    [0x4d491a377113a8daccd13ab0066be558e27e6d5755543d54aaaaaaaa00000001, 0x1200b2c230, 0x172f87dd6eb9190e70a52b34ceb9f80110bf8733cccc78cc999999840c68ed85, 0x473411352503d33db178fde2525d1b4a1903baf5eac4cc1af0f916fd83f47c88, 0x5e4a283fc772799737feacdae1878de52631a12fcd0746de2c87debf2717d64d],
    [0x4d491a377113a8daccd13ab0066be558e27e6d5755543d54aaaaaaaa00000001, 0xabdc5e4, 0x458e97984c2b4b2b51ef819e6c2de803323e959b66656a65cccccccc2675ecf7, 0x5767f3dd554fa3890ef1317f33d5436536195069e2034c73e7af7135b659c4b3, 0x71a97bd2c668b418877f99739ea501398b3c40723e3560e5296a687f3ce8cbf1],
    [0x4d491a377113a8daccd13ab0066be558e27e6d5755543d54aaaaaaaa00000001, 0x668ac, 0x5cbe1f75bae46439c294acd33ae7e00442fe1ccf3331e332666666659991ffca, 0x5ef94cc9c4c8ff458ff5d6d2fa7b4b700bf82990e213c93bee11e11d40270271, 0x55de5355059a10e583de30b455d9a9c9e55b1891d6670ad8b6d3ff885f85660e],
    [0x4d491a377113a8daccd13ab0066be558e27e6d5755543d54aaaaaaaa00000001, 0x3d5, 0x2e5f0fbadd72321ce14a56699d73f002217f0e679998f19933333332ccccc846, 0x6a44840c3b7b082cd99fb0b208d45b5a376dd6581553d4546aaaaaa9c0000001, 0x4759e3a1d02a60eae9e3e802824570895fbb1e8b994a9238ae04e04d67507508],
    [0x4d491a377113a8daccd13ab0066be558e27e6d5755543d54aaaaaaaa00000001, 3, 0x51265b870387d7b28a421738d38ae403ba9e59354ccba6cc19999998e6666665, 0x56f23d7e5f361df6266b620607396203fece3b023ffec4ff3fffffff40000001, 0x458e97984c2b4b2b51ef819e6c2de803323e959b66656a65cccccccc33333334]]

/-- the inverse of the matrix (not in the code) -/
def mInv3 : List (List Nat) := [
    [0x12c, 0x73eda753299d7d483339d80809a1d80553bda402fffe5bfefffffffefffffc7d, 0x276],
    [0x73eda753299d7d483339d80809a1d80553bda402fffe5bfefffffffefffffc7d, 0xb40, 0x73eda753299d7d483339d80809a1d80553bda402fffe5bfefffffffefffff7cd],
    [0x276, 0x73eda753299d7d483339d80809a1d80553bda402fffe5bfefffffffefffff7cd, 0x627]]

/-- the tables have the sizes that the code reads and load without a panic -/
theorem sized3 : (opt3.sized 2 4 55 && opt3.below blsMod) = true := by decide +kernel

theorem ok3 : opt3.check blsMod 2 4 55 (opt3.plainC blsMod 2 (opt3.plainM 2)) (opt3.plainM 2) = true := by decide +kernel

theorem inv3 : invOk blsMod mInv3 2 opt3.m = true := by decide +kernel

end Verif.Poseidon.Bls
