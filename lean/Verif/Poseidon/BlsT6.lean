import Verif.Poseidon.Check
import Verif.Poseidon.Primes

/-!
# Poseidon over BLS12-381, 5 inputs (t = 6): the tables, copied verbatim, and their checks
-/
namespace Verif.Poseidon.Bls

set_option maxRecDepth 1000000

/-- starky/src/poseidon_bls12381_constants_opt.rs: C L351-456, M L2257-2306, P L4379-4428, S L7755-8372 -/
def opt6 : Table where
  cF := [
    [0x548521d894792fbc96a7c8847adc45fe120e1e21364e3abe0abb20b4527c088e, 0x31462b38d3e71d7fdcce88faa7b3d6a5cb25059971e7088279deac89a67fb22b, 0x3ea7ad5521a9bb3d3474bffb1d8d57a165155ea049ac85795ed4d34c31d8b53e, 0x48b9824ae7931e5a24207caff65e8ace4ee9e646ce184dc888cc0054bafcf600, 0x2c2c6e7ca3d18ad6ec43a310f5d10f9fd9697fd94cce58c17e37db749b1cc889, 0x3cb410fa947ede4391f97fff0efe0aea3e92a0ba29a015b56ba69145518e434f],
    [0x1d56533992cdcfe94dae6e7f0b7a8f6ead481e2c77f7630dce4124f9ff2fd5d, 0x1ee124ad5ea2bfdd82986a7303299899ea9c097fce656c50e375e1be08ea9705, 0x70194c4c690742ce215ec18a3118f4e175a39da4ca9b498df6042a00ab01e0ef, 0x64698958bfb0557abdaf4d15e617e48c068fefc17760fd60db210a0fbadfd2ee, 0x73291a3130dd479c790682c8c480819ff1c20e59e83831bbfe1fdf28b46800ca, 0x429397c312c4a6edcdc129a4292979c5dc006509034fbb67ffd9efc30b2d969f],
    [0x636a91c1a2cf26d0c2d8ecdc137cc5b8070e31214b75f9f41e6ae99648cd0458, 0x22b44ad002cb213752c370f4ccd5e80f1a35dffec630b670479a132c6849e438, 0x45b8bd2bc22c2e5aa0a00985b4291eca30657a8af61a2c20f42b8f2d31f37b7f, 0x4c2e341a804d5123f6cb0746385657819f3943d4a4cbece6df26e188fc751e19, 0x115ed0945ea624477ffb9ae7a439b7a788f4515380611e9be7b883e133567d, 0x24e757502c25c2ec1cbbdd9fc4180b7474c4de68e0435a3c7794be53fbfd9312],
    [0x674187d48418a2fe91253e896b1301ecad99a8688b1e7ec394a8227a4796a6a1, 0x51bac8c5a53cba517ccada1fa73ef760440001e443c71ee9ea8d775e63496294, 0x1d2063d5ed1d10bd0f292c7261bd39b16192c327d0d4aa0b8a321ec26af57cac, 0x727a6092fbcf0f6b151e2be668ab9acb571d8795d4813e8b798274fce94a803d, 0x5aa01ee7f974a29c80481ea3f19052c46c04318afaa23967b4e484c7f89e7afe, 0x2061c34a15dae12ba2dd428e86e2d9c3b68e9b56f930879ce0beefc50baf71d2],
    [0x55ac33c838906bb5b09555f66fdbb59fad823943072f71761492e88510d594c9, 0x19e5c8568dd1aa69775b1b142a06e841316550654d88781521d5d419672c1806, 0xa5de49fc1facd54d3f6ab8a0fd3521eca526642e660f2571b2e260816ec8052, 0x59b0c462cc29eb9997ea1a5992ddc67cda71f0e8cc0595747848409c62bada94, 0x71e36e56461097984e415d32be865b5761adb688b7b109d13339fc20e7a77c1, 0x57de5b096bcf834a89e0a6bdc76f6245d433c96cc4941e8140a0eb3ddb09f6ef]]
  cP := [0x365f6a2462d9d91c91e79702cd11db045c875d40fe79863828ebc36cc95f149f, 0x705777f4e7559bf069170df9d77d4a1480d4cc47a81feb798f49f5039acaa6b7, 0x5eab2ffeb15cd893a14c80f60507579d361f9e9b6104d79cf7814b24f19bdfef, 0x619788a9809f9304c449b2d1f8226135039b579e11588604ebb0da619620bdd8, 0x24386bc5be930bfc9fa0d7ca2ba3de99b6be8cd7be86a4503e3420e287df906d, 0xca61a191c36a50bfa64701e1607c7f8bb0c8c895a3b59a4d0ada01bd1561351, 0x512253accd33957fdee99a34833456bc2168fc368e8afbf891ac45c10ef44d2c, 0x33b0a712e645facd26aeb56621b57cdc261182705eef7b44e1be18eba717c989, 0x36ba4db6ec74d9bb1092c9927f2855f5455d8d79d3120aeec02ad80d8695920c, 0x475ed347c5650340c7b741c3ba7822162bd966f774caa585cb03d7e2a664a10e, 0x483862921dd833bbbe41d4b9b6f582ad6f84b370160556a652902226b589dfaf, 0x56190917a7605fffed3f9dedeaf2bb733a3a322f74e39cbd7f5b528df7eb8e41, 0x4c611d116ce6167abfb7deb0f1c5ba96a4fb4f3dc48f58aed1af48826150d66c, 0x487713a49bb945c2b01219327c4b9b2852210244df4627e888063e8ec53083a0, 0x59458cd758b4348b9a40aa955fa95cd2cbdc2f92f5cdbf86eb5cd63ec77ffc3, 0x3e0f56f1b82981a753ba0d170e2e0c79c81ad44530ab4447588fd2926e1983e4, 0x60d59c7be6b0ab95a52b145c355becbbbda28ff5e638f7a94b0acf54d2ba122b, 0x96d5706868723daddaf43961b626c811557eb822fed24264ef016f3f5ab818f, 0x9e932a15f08766d7ea75a31b9c5948424c6de3efa7befb64ca0fa2c4a95d11d, 0x4dac3a9bf35fdd1ab8ad87ee909c0ddb716e6a7eb90718f00d39ed37f04c878e, 0x71beed81e4bc5adc1037112eefb9b0467e14d4f2e4d2a44f43f6735c267e0e88, 0x53939c6df4aaa96216fb336e8285cbb0d755502576bbbfe967d4a151e25a5480, 0x16f62d768b71744401f1e890d8e15a3946b12092825154aaaf045f206ea43039, 0xc56917e18bce7003f051e7d9dc72d80b15e1bd0d599a408203f5f9258af6bd2, 0x22d53dba3821b9e6915ecf45df681b63377261af0b85062f5fbdc7b4230c1c9c, 0x624ab81584020348d3fd747873114b57c5f08f6164f8b86c541306bb6c61947f, 0xeba285a56be0a243cb3ec506cc112f4c9bbd762fcdea200941c15d1d1a64af8, 0xffba1bcb283f0df911c03fcbdd1b8456e687985c0fdaa3b81d1390c9b75220d, 0x46e24b649ddddceef10a20cd9a81996cc668e704cbb8bebc24d6701099f0355b, 0x20779f21b64468c783643fd2726f8fb4cacb91c490f0812161eb61f96ce1e1de, 0x35af74220604b052b977c33bfccf54b9fd14327b3eb86360999b5746b39fc930, 0x5765d3909063b352472d069f15eda0be8f7b2e63dfd4853760d0cb577fb56dd5, 0x46c18e8bfecb74ca27c4c3bf7d411792b6edd37adb4648b01cc721619ab82f0c, 0x494e78ddce8852909d826ace57801ef572a6103cec947bb175e59d014230d737, 0x201783858dddc56f0ac6dc889c41fffe1ae5378105294a284a114de5c0923d3f, 0x2cf57d3ddcbb0138c1196d3eb9f5868f2887f6da733e44bab9b91ca8fd6a7f23, 0x2df52d98f59134cf930a2ca5756bba4434b297ea6ecb05bdfe3069f6b9837da6, 0x53b2c00ca4c6cfd508f2fef841107ee996987589cedd7d10ff0e6dea75b736cf, 0x586925ae1560f4a40aef134a957cdf2cee3d59224c51793b11d39fcadb30d10e, 0x5f5ea0cd2e6b38500f75c27994fe78627cf5a31be346617af87dec79000870d7, 0x24abdb99b9b8087bc4f2526d4855267bec721cf13c0d3cd3c558960e9d28b491, 0x33cbe2b7796a00b95968180f0ad7646f3b8c3d0ad848ccad24d3ef0aff4f3c66, 0x26363531849afc6c5bc7a1f16e147905460bc29ac9f22c3452334649701960e1, 0x414cb29001d63cdc612d94e6231dec49db1ab3a40bd173cec92fb086a1ca0f6a, 0x53a58a6359aa16d652184629abfe256632d0a4e9aacb420c1d6c8d8220c244b8, 0x58920c4ec9d42e67d1b4d74a47aa30c3d2078f03b6ad6db9cc22caa89fab542a, 0x3bab092436eb27a2be2d5e162acd28ad2704421e08219c9947c5aa0743cb131f, 0x3c9538dd6a4119ee57221ba445ddfae737b8c25738d192bd5e1edf2bf1f0bc33, 0x6b163d30e784dddb16ecba0a25fea5a3a49e308e6481d1a31d14938755227e51, 0x24680e9771f42bc791c57880c95c305aefe36e6083bac0a7f51d80bdb874c6a7, 0x631bc205f0c808ea4c36262279cedc8f7d6fe12c5df6ca4c1cdaff45bf035814, 0x356a3835ba26e9deda8c5ec6ef5893c7d91a0f05b6601be928573970c6edb724, 0x414330ebd94e5b4217c96d90a1a44d7348035f332c80909b492b29a15957cc4e, 0x5c0ed3f458c293624c1c0bacd88d4732bbbd98f8597d61124f3d9be4bd0c2653, 0x249a7643cdd0bfa5124e3dedb2c225416a0a37be014901714c3968e2944ecce5, 0x443407d86533e8e4bf50fe0a7f64979a0b2ecd1a3f1de377f931b2ebf9f9253d]
  cL := [
    [0x60910144e26c33c27a79ad95b26a923dc536a9b7db5289d648c8410bc2cf7e04, 0x35ca67722495f3d554bc576208363b2784b4822832f9c91b2ca0ffc194f7028d, 0x38e89ff5d1acb1726e512d715c42bfe2389fe296ee36e034251a718f3914476, 0x57632f1ed8f0afb2d3eb2309656a18e53f00f421152b1e2ff5b352a7aae50452, 0x11bd67574d5a1bd893f7cc4f6e39acc64681de414428e8f56005b34c957fea4b, 0x44ccbbe34c0904a93704723db6ffdee66a70a622716f4c1e5bf99223680540e1],
    [0x1044807b8159eaae717a737167abdb6d7bd2745f1534596d47d1263a5b1f60a4, 0x734c87460d4169620906729f3a6e333464edb8cf5b1d6c826100aeb7a72ea4c5, 0x1f208b49daa7d45d3318896767c883947074551c3af83fee39b6f2862e300597, 0x6c198d7a0394495727f4a9c5f0691e32afbb127d3b041670ed0ef398a36e7db0, 0x3d7502fe0ca4ad1cb3f547b63cb7fe4c5d84b3e8241db8ae63cdd6c76cef66bb, 0x694dadaab8579c88f18f43b63f5f28df668edad23f8316cb2627c36510ce2f76],
    [0x5e37a94c112c0b99878822380b22a6935856f7133d33fea45b4222f8a125ba97, 0x3557023361a043ca16473c53edfa15ea67e6bf94e443349b4d14a5a7ff14bd96, 0xfd99e3a9fffbd94e8044d12693f5cecd5a6538c4dba8b25c4aec3f6555f9537, 0x4d3013635f233c809c5114ce374aa92453d6d7190a82afe776f4e9e92dcd4cd8, 0x481a037eaca172883286fdca16fd41be8bf187b870560e0fa598ea67beb10b15, 0x308b64de353a6a58c3e4a3da4c1e04f51c0e368571b2b9a9609bdd47e6df8ec4]]
  m := [
    [0x609b60c54d5893118005895c0806deaf1b1e08ad2aa94ca9d555555480000001, 0x211f5460e751918257c7624b7077624aaa362edc49241a48db6db6db24924925, 0x656ff268c469cd9f2cd29d07086d9d04a945ef829ffe907f1fffffff20000001, 0x19c308bd25b13848eef068e557794c72f62a247271c6bf1c38e38e38aaaaaaab, 0x22c74bcc2615a595a8f7c0cf3616f401991f4acdb332b532e66666661999999a, 0x6963af62e003892a5d1d50074e93217934daf23145cff68aba2e8ba200000001],
    [0x211f5460e751918257c7624b7077624aaa362edc49241a48db6db6db24924925, 0x656ff268c469cd9f2cd29d07086d9d04a945ef829ffe907f1fffffff20000001, 0x19c308bd25b13848eef068e557794c72f62a247271c6bf1c38e38e38aaaaaaab, 0x22c74bcc2615a595a8f7c0cf3616f401991f4acdb332b532e66666661999999a, 0x6963af62e003892a5d1d50074e93217934daf23145cff68aba2e8ba200000001, 0x6a44840c3b7b082cd99fb0b208d45b5a376dd6581553d4546aaaaaa9c0000001],
    [0x656ff268c469cd9f2cd29d07086d9d04a945ef829ffe907f1fffffff20000001, 0x19c308bd25b13848eef068e557794c72f62a247271c6bf1c38e38e38aaaaaaab, 0x22c74bcc2615a595a8f7c0cf3616f401991f4acdb332b532e66666661999999a, 0x6963af62e003892a5d1d50074e93217934daf23145cff68aba2e8ba200000001, 0x6a44840c3b7b082cd99fb0b208d45b5a376dd6581553d4546aaaaaa9c0000001, 0x6217dc5a0f85429f8dce7bb808267bb5bd02ed3d9d88753a3b13b13a3b13b13c],
    [0x19c308bd25b13848eef068e557794c72f62a247271c6bf1c38e38e38aaaaaaab, 0x22c74bcc2615a595a8f7c0cf3616f401991f4acdb332b532e66666661999999a, 0x6963af62e003892a5d1d50074e93217934daf23145cff68aba2e8ba200000001, 0x6a44840c3b7b082cd99fb0b208d45b5a376dd6581553d4546aaaaaa9c0000001, 0x6217dc5a0f85429f8dce7bb808267bb5bd02ed3d9d88753a3b13b13a3b13b13c, 0x4a867dda0877876545809d29bd0c9d27fef9e96fa4913b23edb6db6d12492493],
    [0x22c74bcc2615a595a8f7c0cf3616f401991f4acdb332b532e66666661999999a, 0x6963af62e003892a5d1d50074e93217934daf23145cff68aba2e8ba200000001, 0x6a44840c3b7b082cd99fb0b208d45b5a376dd6581553d4546aaaaaa9c0000001, 0x6217dc5a0f85429f8dce7bb808267bb5bd02ed3d9d88753a3b13b13a3b13b13c, 0x4a867dda0877876545809d29bd0c9d27fef9e96fa4913b23edb6db6d12492493, 0x3dd414f92742ed7bd70dc88cd1efeaad81febddf77769776eeeeeeee66666667],
    [0x6963af62e003892a5d1d50074e93217934daf23145cff68aba2e8ba200000001, 0x6a44840c3b7b082cd99fb0b208d45b5a376dd6581553d4546aaaaaa9c0000001, 0x6217dc5a0f85429f8dce7bb808267bb5bd02ed3d9d88753a3b13b13a3b13b13c, 0x4a867dda0877876545809d29bd0c9d27fef9e96fa4913b23edb6db6d12492493, 0x3dd414f92742ed7bd70dc88cd1efeaad81febddf77769776eeeeeeee66666667, 0x6caeccddf703a573b0063a878907ba84fe81c9c2cffe763f0fffffff10000001]]
  p := [
    [0x609b60c54d5893118005895c0806deaf1b1e08ad2aa94ca9d555555480000001, 0x1aa36d2d13a96ff0022af6f41c5239cb57724eba44224dd2a387101529e0d8b3, 0x1e3e972c1300d28b92dc8be105824f0f089e277272c033fe0553c37ab6e496f6, 0x6dda94c2b6c98b942e71a997e746e84ee4e5acd40e6b087a7d3c2d86497c4bf, 0x616db4348026d01b0ed206e133eeeb066cdfdef525a1c56276a7522e674fe03f, 0x390928e015bbbd31d6b6fd238b9c77ffa9c234ce91328e39c2d46216d79020a3],
    [0x211f5460e751918257c7624b7077624aaa362edc49241a48db6db6db24924925, 0x16b7cd0405725b667d457eac0f9e974d276adebca87f478de423bd87d3a352b4, 0x66f959655d4cc3d7a7a0609c78e9c7c0ea621b99f5707d6e0904decb20521df3, 0x22879fafe0996c878dff8b34c157b14c313be21ae8d34b989080f25e6db0352a, 0x732b9bc284440e5cd9dedd18b94f726a1cd14ee4efd73431043983d8734f29e2, 0x33da8a9d76d6c3c755be3e950d2ce2b94cd7bb3e6b1c90ce34f5fbabba039f7a],
    [0x656ff268c469cd9f2cd29d07086d9d04a945ef829ffe907f1fffffff20000001, 0x66f959655d4cc3d7a7a0609c78e9c7c0ea621b99f5707d6e0904decb20521df3, 0x6eafb7f8bb6358664fdc9ab073b87000cd1b35537d187127029503c3f0122573, 0x582aed6d6f07e8406f90c8ab0f7f0f824bebc9ff42661139bf5d723b1dc73eae, 0x27567f74bd0e4bb90554a580eb5e107c8b39e7ab39fb1f89f584f3e4316e9032, 0x5d88892efc77eeb01d9b277528fea054d6e116d246b50aa8c291f6d03ed164e6],
    [0x19c308bd25b13848eef068e557794c72f62a247271c6bf1c38e38e38aaaaaaab, 0x22879fafe0996c878dff8b34c157b14c313be21ae8d34b989080f25e6db0352a, 0x582aed6d6f07e8406f90c8ab0f7f0f824bebc9ff42661139bf5d723b1dc73eae, 0xca59840bf3a671a69ad12ed4de0df81f6013627ab3d3349c5a90d2e25cded75, 0x6f1240c28f3ee5f35510d0e4a20ed45a3817f9976a21cd9a9d550dcf7bb9afe2, 0x57a1e77a3e802de72fd4affbab5637fa33803d0c400907c7506f288bd3c370cc],
    [0x22c74bcc2615a595a8f7c0cf3616f401991f4acdb332b532e66666661999999a, 0x732b9bc284440e5cd9dedd18b94f726a1cd14ee4efd73431043983d8734f29e2, 0x27567f74bd0e4bb90554a580eb5e107c8b39e7ab39fb1f89f584f3e4316e9032, 0x6f1240c28f3ee5f35510d0e4a20ed45a3817f9976a21cd9a9d550dcf7bb9afe2, 0x4b0f8a5184a42d14b7f83985df5e5afaebde0d785419370f167a5110d9455756, 0x66bdfd0066ed9bdbdd95827374008ab7b5499f8a829a1b385011c2b26a87b05],
    [0x6963af62e003892a5d1d50074e93217934daf23145cff68aba2e8ba200000001, 0x33da8a9d76d6c3c755be3e950d2ce2b94cd7bb3e6b1c90ce34f5fbabba039f7a, 0x5d88892efc77eeb01d9b277528fea054d6e116d246b50aa8c291f6d03ed164e6, 0x57a1e77a3e802de72fd4affbab5637fa33803d0c400907c7506f288bd3c370cc, 0x66bdfd0066ed9bdbdd95827374008ab7b5499f8a829a1b385011c2b26a87b05, 0x3f82dc8e85e934388f0ebaab03ef0294af7898a1fcf42c33e11b6695876a3db6]]
  s := [
    [0x609b60c54d5893118005895c0806deaf1b1e08ad2aa94ca9d555555480000001, 0x3a94e48ee10bf1eb8de836e9c94361e267bdc817a46430c31145218eb33878c, 0x19bb322cf1f9d9147cb6fd390419f158e0a7fe6bd930137e812bd4f88343dfca, 0x51346edac5d6a14469a49468065f725dda5b020b27c423a9cab84bcbf2f6e75e, 0x49c47bad5096cc95229182f9429900e03a4a6810dee1ccc7e41b08e6c9096f1e, 0x73aa6f922333939d9f5792c94e1173335d793289bc2b452da2540b4ffdbe17bf, 0x1532fe9aaedd0a57373c485700f85b5519332d2140c506cbd30f05be97a45eb1, 0x1997abbd2435411e20c43b828d92da8e41023bea441dc25aef510f35c2c89e54, 0x262a5868184ffa7014e766f7f2ae6a2948ff96d753236774bb580ebf123e4343, 0x5b4e8457fdb51371e737dc93ab67258e81e06d85ea72204a11b5282109d4fc98, 0x498de19134ffd6710e0de2709af1287cf3cf33d213a909c95ca846d14e2a616d],
    [0x609b60c54d5893118005895c0806deaf1b1e08ad2aa94ca9d555555480000001, 0x5ef04793e93c5acfbaf9bdf13fe3584c1f1b1a2e9e6502933d518604c042af5b, 0x88db61a0a4bb87f1a9123601cf834c670af0ef4943b5a728a29b874ce06cbb2, 0x4a4fe80a4f12bf8762cd1ba0d2c694641b584a89b545d89927eb8948a14fa0d0, 0x2899bd63daa86d91a68efe7e1a93a53536573f9e5c81537e885acf58dbccc664, 0x4cc6d97aafb2a064274fd716326cd94444a874a9127cf109450d7b5a8b1e6a, 0x1a3268b769fcc0b29df8c493d13444c8455e0df9b38a2ac3b5ac8121151c12dd, 0x41dc64c4cf28475c368c235d38450d4d0426b4875772301f729b43f0391e70fa, 0x6e77366c89844b7de106677a1fceff3dbe4d120d8600742bd9614b01851051ca, 0x728557307a5f1c755afe469b86d75e701e8e4e4c32f1e75902cf9e4197966dd9, 0x5037a027d80bed6c2c3e6f1fcba1158a1d97c4ace858ea3d5bcd2ff6427f629e],
    [0x609b60c54d5893118005895c0806deaf1b1e08ad2aa94ca9d555555480000001, 0x4995f206fce876effa8a0b815fd085cffc6124bb1e06381e286f69676941e17f, 0x5ea77871c703022f2bf47e9ccbac171dda844584f6b4285da77002592b1f8c10, 0x41de7e11099eb4c2a5149615771aaca97286215a2053fb1f8a376fa56ac8d13, 0x26953df0f8ae8871a58e20cf20e6c6acd4cbce954e7ac10750d46cd0228c36ee, 0x26350b9f01e18722bf8307269c80ce07a99a5a8d378c025678bfbc7f0e6677d, 0x51879db539a17cd97cf6637d376b4c423c51738249fd3b4ae096896932727375, 0x2bff3226fcfbc65dab8e6d0ff60c04479820733bf316a59a9ccf0637bf429d0a, 0x579a914879642070a6dc93f953ae4dabd42cac4f6829439eef0d6817468ae117, 0x2844c6e668c2252e4d8b919bd16ae558cdc158718462525a0c7a6d0469edb6a1, 0x55e0801d1b4021acacd77612d49131ef0d1ed23db0f04b0031c58791fb7d2cb5],
    [0x609b60c54d5893118005895c0806deaf1b1e08ad2aa94ca9d555555480000001, 0x58806d8e1ddf38932139d8c3b4f79468399e1b1efbd65ca9a96bb2f831b3d3d3, 0x59405812dc782d574a45ebb6e3b9d8157ee953277cec8dfed3da434494cf89c4, 0x147360b2027a04efd6c7d5e605802464e2c18ed8ba7cf3370deed4cf39a1f3bd, 0x3921a83d36ddb89391641c678ecc8010dec8dad893decc8bd76373a3f336797f, 0x5c74ced87886361709d7694a43c860acdbf6949a2c55c0768345f6c944e1acbc, 0x5b5a75d9fe4a1a862eb446ee5fe65ba2cf275dc32823883236740a24f77ce67f, 0x25f3bceec44334d2fc03a71a9e6c84b61e7e260cc527fcc7e208c8b75e38f7bb, 0x2092ef90d0b81045efe8291eeba72551e29a9bb5e427dff79e6251a23e946fc4, 0xcf1e2a057820273437a81004cd774d63aa8593405e6a64c1134da569ac3f4b5, 0x4013538b03cf646699928de0d6c0aa6c8f83204776967e943fb2fe35cd213771],
    [0x609b60c54d5893118005895c0806deaf1b1e08ad2aa94ca9d555555480000001, 0x650041f0588710d13d9d78efd224c267a67c1227e962953501a3ef5ba56b6835, 0x44cbcbf0d0e443ead7ea389dfc81cb0fc2db66ca6424216e31d9929d1af63925, 0x18e1c4f6819bbfa7c21619744b73d45ac326fd7a1d8d7d9149ff624052278d96, 0x4e4719747d0eeffb3bad7173021b1412c9a3461832f9361772a7f4f601945ddf, 0x1d93dd6bc3fd3e904625f288ba5537252c2052423261351843c825c1e59c5f23, 0x634a0061854b18b6c3cf4d38b161ce5ca1f8a497a39820fc591402dbc0ea5a6c, 0x4a13ddf3a4d02f3378acb9a1bad67877e1302ffe1ac05d7898dc35edff19511e, 0x20f79293b6c8322bc14dec87dfb7b457b8fe892e94129ad08f43e6fc070818d1, 0x1ecf32631fc47d5e7481f3bb78c31c11dd1e647558717c3c78a73eafc4ef661e, 0x4541c629d2853a099aa9819345aecfcedbfc0b304c31eed13b038e2d8576151b],
    [0x609b60c54d5893118005895c0806deaf1b1e08ad2aa94ca9d555555480000001, 0x1b640ddd34ab5f1a86da3d08436a7ff12da1830d45cd058ee76df998b687318b, 0x253a86dce6f4c15499cff5c3a94f065f246d5adda7f13eb5d1a98544f4e71fa9, 0x5d8d39438baac456cafd79f688991d5ad7baf6a8bb78710fd4244e295a5045b9, 0x2ea92c6650ff466f06fd6801b4fa53e9c48969bba820061fd427adcca8e4455e, 0x6564db70673ae3cd9c6789e768382cc7dc1c88b3cb6fab0ca6011d086c0f5e32, 0xe7467fcee9dbcd476613910fd17a55ebe2fc0297fd5e848dd8d534c655aaec4, 0x560332199f02cd7a5e6962b6c941f7cb25bcbdbc94923c6ea289d896554f549b, 0xbca1c02fe24ad2b9d512dd04ed773a2dc1d1d5da216748e0e55860c2e050854, 0x23dd9e4940f16fcf36d0acf56e0e7d153a41d8abed08fc2b5280070cb415566d, 0x6e3c4d841c0e22042661090de45c0bb4ba63151e3720b99e07bedb46eb274e49],
    [0x609b60c54d5893118005895c0806deaf1b1e08ad2aa94ca9d555555480000001, 0x15437b2a48a125d360cf61b844511f49af8b246cab12b1d980796ea312d5f4e2, 0x55730a56d4d83ca34a0198ffa3dbc4c5a494a818fb4fcfda389ce84aa72ba45, 0x37f9e71abf193ac499b4faecc521421aef49da4ca6801ad8ec47911013420eb6, 0x4f0675f812d33a564bf988c6f05cededa7a37afcf66d255993f3fd76629dbeb0, 0x3ca6d6624bf535f3bbf82c83aff0aa3e32523d2f5538dea8cad3e4c6e1dfebd9, 0x6fc308d6cacbf566d46e60fc9d343bb1ee55d44f94e6010132e58774639f7e44, 0x2955ea8d8f1a95744350e556384b1380d15c230b4c9e78fa3d849d345a717fda, 0x3b7f4779822ec17321d82fbfd3c8054a056528739b8611dc4a259e626f8c9fcc, 0x6320ba9ae1e3b1aac91dd24592f29cf7c96e8934d2d91c13dc4fa5bae62a6978, 0x402562e35cbdaa6328aef7ad960f0f7bbcdf96263f6c64c035e5c4880a7cfa97],
    [0x609b60c54d5893118005895c0806deaf1b1e08ad2aa94ca9d555555480000001, 0x3693ea6c534810be4a80bd19c200cff40302f2efad9f053ad65605042cdd9446, 0x4688ee9027201f44ecd13190164894df36c4d4fd51c50d56eb8f4d760c4eebd0, 0x3ee4a6907af76521c2aa2fab16edd4c6291f95ada6abb70a16fc41476389d259, 0x705123ea05bb29a832b5df4c8e9a78f76a8766a6b829ab60e63e4c2c8b0a3d30, 0x37b98f22e4e98798293bfcd5edb7cbd33c64babd8dfde812bc46ee4d3885c65b, 0x1a22e924e66c00c5eb0fc4eb1ddcd6df69e29d78a6fe5297944cc58d8727af8b, 0x3000366be7e5d58317c689bfd57f7226a8866e01569dbe368fa4b26931787f31, 0x6c92c5de608c1643899dd92eb39169be74180c367aeb6e228bea88bf39e3594d, 0x38910cfbd64c547a773ef96e2621145e1a98e1e52fd7d48187ebb43090fdaa1b, 0x3d40561689b9f3493e3aa99feb369dae494a57dea87558c44a8c3940ff6971d6],
    [0x609b60c54d5893118005895c0806deaf1b1e08ad2aa94ca9d555555480000001, 0x69024234ab911e2dc58a892461585d664c2fecab2e39603feea1dddf3f1cb60e, 0x4c627fbf29438223c8a7a8f0521f99c9226359fe00d1bb70daf29d8be156730b, 0x6d6397b765117f6d0b8877c5110856578c1225ed8c1ac7fcf081d67d9e28b47b, 0x58318952d8b2ace68f513939e4f0e9d98f81c0edfca0a3ffe71c52f8813a32e8, 0x4f95a47ab8034b18911baaca7f95c47c638ad4e04518f32a72bb90bb93a0a3cd, 0x15c6b436ea77a062fbfc2c7576c019b4427e8915b5da6ac2282c8da45ac348de, 0x67e8e5f49275c00af5d0e7aabbc276a8c2ef423c1368c1b4cc88196c47d052f0, 0x2d3eaead98ef5bc7798dde7ec69ee482eee2798f9a9a6bae500435ae0af7f4a1, 0x6cdc2026a59b3c17faf281ee597630c91d7b5441bcf7abc9cbeb4fa3538cfdd3, 0x3178c2376bb79c991501043b287343157f2439d00e31b0e44791e6a03f0fd447],
    [0x609b60c54d5893118005895c0806deaf1b1e08ad2aa94ca9d555555480000001, 0x4a227a9dd81491bbdda1bd24a05f31d695bb3ec7365b1673f72fbcc17dbcf5e5, 0x21e2aba4d61f8af0268da2f12629c4c9c84ff87785071007b30c1c1b4e061402, 0x53ee8f59f7722dd6bbb6fe3f9a04ebcf5bd0ef6aaa20b48c3710c36ecc25bcb6, 0x3e44f1d66ce1b9f328e7fd48725888215a405122adcd3b04796457e02b443e2, 0x51de2668c3e01d45820e70bccc9b450d381436949566afed8b6532518a3cc9e5, 0x496e4be9bcf50f01855fdef789b41fee7e6d11b6eb7f0e665338baefb13ab5e7, 0x3fc07801c799af35fb5a153597d54f0bedbe70948c02eabe28f883f9acba22ff, 0x54e715cb6af8c832897d3ea366898fd37bf9510fda627aed2fe33fc247e12de4, 0x3887362f6cbe625239c01e976fd3e96234b40ce0265e5974b48e4a32b2e8f7f4, 0x3821e83bca933552eab38adc866998e3c19a5f9da4a9fe9b1ccc97dc7ef25e5a],
    [0x609b60c54d5893118005895c0806deaf1b1e08ad2aa94ca9d555555480000001, 0x2d512e9960df43a73872c3c00e0ae2ca6e2decbde450d09bd01cb0f2d8c2c880, 0x1a3f3ef38ff291493cfda6e7501d16819b21b279d49a4fce44936cc1d242df04, 0x574a2ed8812cd4ab8f155e3ed91b36a402b2be2f53d6451e74e07ed6b7ab71d6, 0x59f51a6c82984595dd28e9f68d5d67735933cb399b2cca5ac554278b23695067, 0x1194d4c0a64ffc99d3cdc6e20643ec1ed5bb5a6589dd44469ade98af16e2c00c, 0x2609c001771af299c350858d463bb8fe11af4461c3a7c105bf655ab65a850545, 0x1f1310085ea91ca1034866ac3faada06a024d91aa178e14c92b9173f90babed3, 0x6eacae8fe7bbcc64d263afbc549771afbf071cb1e059538821acf8c37aa4c38d, 0x5cf28449d3d228f1a347501901d98c37954fbffdef706db2e6a289f7f8adf6a, 0x5e7473c0d6523417a12fe40b155ec36d9974d04eb2c40e8bf677265340e70deb],
    [0x609b60c54d5893118005895c0806deaf1b1e08ad2aa94ca9d555555480000001, 0x130f05af7c25105b7bddbec3107de30b67e4c2b248f0c870c19f32e85af2347, 0x2ec06cfbedd4742fd957a77b72d579377c42d539499690c03b8151b65d5f58a0, 0x228c147a38da04d60be310bde54252970eef61eeea6bff47c7545bed543f7910, 0x2b9ba5ceade6342f2431e716f488b1079d34f4d29c28d199303d9051f6b1dba0, 0x461aeb6a4bce92614a5afaad7ed7f90e2d33e0e767017cd97c1b5eae71c6bb92, 0x4b8bcdfd50a983e1bc1a2fb46ef7de360dccceaf240ded9e7b07974a3eafe84a, 0x4f4fb87923e893108eb83fcdaa19be273b0f53ba0b7092bf63cace6c4f55b841, 0x4facaa20daf9ef92d4f42c66981b997082b35bcc9c7d9622d5294eb77fdd0afc, 0x1e35c695ca07cd23506553c284e810ebcff7bdb0052e0e750e1606fadbe70751, 0x3f27a00f7a619146b1798d09081376e57dd5daea860fc4ec3f6249eee5566908],
    [0x609b60c54d5893118005895c0806deaf1b1e08ad2aa94ca9d555555480000001, 0x52a0f67c52020a6bc27ebf4447c9f40d4c7eb1e175259b9279a75b346f502957, 0x347ba58ee25c7d81b22478d4b38b3e807db524a37e12247a95bf38e13a257692, 0x154209e30b3d63e954e9bc271f30a7ee7cd27500e1cc95cdca5120427b0cc041, 0xdd1317d74560239f30a4271e780a55a87e0d7d5a383aa77e25c403b7d6960dd, 0x6085f903cc4e8828d5912e6574cbdcb25caccab2c01c03ac5d24c02927515296, 0x31d7736a65ee799fa1615fa321b9c2b8009368259c5050f21a79dda28331a026, 0x4393a040016a468ce7d759f9465d6ede5fd34f3f14ff8c014736c92d967e9a17, 0x580d9b030098fedcc5c86c71738252743781a6c30db95a757c822d4819f59401, 0x32d48019c9ec043ed91cad95960a00f4f6e3c819d565e6e9717adc46905641cc, 0x6782e3821184fa6f04068e618776e151f3e354b28012521f62c94b5e335fadf2],
    [0x609b60c54d5893118005895c0806deaf1b1e08ad2aa94ca9d555555480000001, 0x11f4420112f930aeb5e7cb31e4296cc462e8581bf26dd15afa3e4f53280d63ee, 0x2bbdd74df355b48734dbfdaf8d66f2b2541d6537c4683290bddf72f8dd358646, 0x71e0e153e61622a0969e3b00a95a2f41503bed549eed698bf044deb0bf2bd1d9, 0x5ad4d2d0e19a34c22444ab588b419b34fd6d658fd803ed7c8e4fc3f7aeb42c17, 0x6e0be4076189cbd978725847407d223f4d0537dcd42f60a3b14eaefabcb9ebd7, 0x6fbeee8b0557c6bd63d71354b7fac3747f3c562d8b0b0525e3a0a54b8c6ba2f3, 0x62567621ad0e2b06dcbb66e824397948b7cb421fd20d7b27b304cf45eb5a9d72, 0x19a5e738f8f4b8bbc928ff9f65dead95b15103432c23e459f6c676d30349d328, 0x2e1d56ddc2e564631b8751df26d574022ca9d63327c9db68e2edf5dc69c37c8d, 0x187357beb72e8ec280272c04dcc20df19a6c3a153b07904e1a5b1a812465785],
    [0x609b60c54d5893118005895c0806deaf1b1e08ad2aa94ca9d555555480000001, 0x49be48dd036a94f5cee475487a7d15dcb862eb0e897766d739d499c45b7ee1b9, 0x61663cfd1770435867c09a8825b294ced27139d2e014afd75b6afccbd95653c9, 0x5742c5731e6d6780c89eebb4009852df8993b5c6dbb18f914bac4748213617b1, 0x68f04d635905106b65eca41920add705663856a0151ce0844d3735c5eaaa2b12, 0x723d24933169bf9608f62e18f383e126591c82d3cecf47bfa4ec7c8a20ccf573, 0x2fcb17965aaadda21118458069151a2cd1e79b4b5f4b85824568f08de8380bae, 0x8178c85029811238f50a5b19e38261e748d82758c9f2521c693a807268caddd, 0x10da12b48482f5664a70f6bb5d87269ac1dec49c1995d486d4372c7ce630cc4c, 0x11b9ae7a01bee4b27ed4c8b825a1b03198843455cd26741567070ebfd6a64cd9, 0x4d31787a3a4717b2a6ef010a278203651300f351d91e2c0593bd4d29a4678f92],
    [0x609b60c54d5893118005895c0806deaf1b1e08ad2aa94ca9d555555480000001, 0x600aa4e36b9bdbbafb9d364e03e760c068f2a516cb8227d67a8453ecc580a3b1, 0x31050b0ce248126789d9b3ed7cf018a7fef8217fc4387b6c77157c3d8eb80607, 0x6c5e74ac969b8d504d264dce26100088a04cb89e34b5cebbc4fac66e43e0de41, 0x5c120630908406a50c9b6d0a884a53a6f21b5ae3326ad0286cfb014cb28edc54, 0x1c784fdbb4f489bb2f1c1d185e0a868555ab29528706aac79f0c2bcc0b45c0fe, 0x10a49f6e39291fa821da5c0def44ceca318292a5c590a978c70bcd401cc0a691, 0x5dd30dd34d4735c9bbdec274710fffd9958f7df8656bdbbb0b42bc6b77f6158c, 0x23332a1ab9448a3020bcc9307cadcd5f1e775539b9ecf7797455e5c02177e77c, 0x59bc5a407d932c6c546e359ae67773629c7dfb9d6f25566dde991ed3961eb885, 0x6c0669375b70a4b0940e6e4fba0454c84980e5744bed9517cdf0ec4fa1bacfe7],
    [0x609b60c54d5893118005895c0806deaf1b1e08ad2aa94ca9d555555480000001, 0xe0053eb0797f7d38591e8b93b354ad9caf25d22792a3b1faf089f5b804fb04f, 0xe865fe568f4f91a1f510316586480261e6b435d765fef3b881834e74b14e651, 0x201bd45b3f023cfbece7dca18902cc5d9890dcac6b9da01ce9b471376aa1d736, 0x3a6b6316ac048efde3eb2e0fc7dd102299777942df9b79a5a31e2d38e911a858, 0x60d9eb06d30dba72ce30200158864b1565f723d0ae41326ab0d4398141f81f55, 0x61e6dee37c8127c5fac3771a5f76dc96e4a13e51a3b65f71d09b317672f7d391, 0x5675ec0a20a115c3e20a7c95dee54dac7c79d26ac83c98941396d269c0ba24ae, 0x678cf0338efa0ab8d644c6805da17e1a2b77cedfcf88248d2b12de9f8bd711e9, 0x59aa8529c105f3bfaee9daf3311f099a9f4dbb5d7ce90ac04433b6c2dfc73957, 0x1e9e8251f8b35c4fc2fd0f2802968a287e72691bb79984f8979aa3e86a7154a7],
    [0x609b60c54d5893118005895c0806deaf1b1e08ad2aa94ca9d555555480000001, 0x64aadbfc224e84289c06d5ed2ef323e18db1323efd2b567f07b4a600f955877d, 0x7303beca4b1d4c244beb3313baf37524442c389d51e53dabe8c2ff3fb117e311, 0x1f61918bacbadd0b8f692eab673cc69b6f784dec9ef07ddc738893dad921a3a7, 0x383140054d45b3125d4e9fa0e1138d12c0ed04630d05483fd62e34fed3b2cf7f, 0x5883bec62a24a435c3ad34ac2618c1cd5f46d4bef96e4f9959674749591bbcbb, 0xa70ce300088b00ee4bf108ec49cc446099c7760971a2c24e1393cf4a525321d, 0x5ca0519fe77a396b4fdb61c30b3172507ae029ece255243c3a4feb271b4069d7, 0x72edd1a0e15dd9091bc00dc4cf03ef2c03e6ec67354089f00caf4796608a1c21, 0x16506cb5d5c194b9de37678df709545240cb4be5f9c24160de9f912396378bcf, 0x497f160adff3d4813e5d9038b58927cc3630861da5021cdb9c4c16b8d06cbf62],
    [0x609b60c54d5893118005895c0806deaf1b1e08ad2aa94ca9d555555480000001, 0x520ee2ef304556d94066ca0473aa892eb02356e70de554839ff15078d80b4ad4, 0x51ab1eeef21d7671f80fa3ae643ed311814a5bf6f6efa6f8c9f60bd53560712c, 0x380546b704959460b0d7af6f169969ef96ce643179683daa5403864f0aa8831a, 0x5957f4ab722440cba7b9af052df99db42c87c8a8ccd321e1884f5044c52b9814, 0x37b4850048d04ee2923221e4c3cc564e382599896a5ee7f9cb3833ad451f990a, 0x55de8427fe43b644c6282b882120c83f5d2fc906521fde0520aac98b2c2620e4, 0x110a8e7e3b76ba80159217e88144cddd949b7aa99f2e385d797f831b9521eade, 0x722961e65c28c26676c039f115ae24e225952baacf51452f6a1690c316842289, 0x17bf63699bcf38dadaec55313700d59f2b4c06a769c37e3fbec2d5d14287bc00, 0x27349d3084f8e0146a0c5d0d17cd5b9fbb7a3aaa27fa9263987e897f6c3b04c1],
    [0x609b60c54d5893118005895c0806deaf1b1e08ad2aa94ca9d555555480000001, 0x3473cd9824d6fde5e41ca1a51e7175edd00740540d65991ed26c78e68f687ce8, 0x549f52d211f4a70551e84f1d677cbf2b45070b11a810d33f87d21fc0f9150365, 0x26242ef13732906aab7aa9382b03c39b170dbb96730d38f224e970b02aa776cf, 0x64ce51a7deb45f2fba416bf9ba41d1adaa051620121bb7b006ecd3d36a0187fc, 0x29696146858f1efbfb33e53c852a46aecd6793a3705d8d9d391055920a4514be, 0x3c2b137a680faac61ea2d3fd029f5d49dfd0592c37e17c8b924339e52ba7efb8, 0x4bf380fd5f1f9fc5fd0afe304eeffc60ee85a17349368393cf5101c8cf55b55e, 0x597c3526cf8e0e660cad6a43239b6a53a1573ce88d3ae7a640a833196126df32, 0x582581d5e55dd366eb951186457d7760baba6577c71ed18d7c3032e186b80268, 0x2bc82d5692b02cf8f92f85d0a4e1bfa88f4ff9b4ed69f5508d9894348b318d16],
    [0x609b60c54d5893118005895c0806deaf1b1e08ad2aa94ca9d555555480000001, 0x4707f54cdfe588de3f391e1896562f73776a4548122aa998ea532420593138d5, 0x1dc8256108e8613692c8868c8ae3ccc6889f423e4f2f8a3595d19f2326028a4, 0xe6c67148995f815de931932a26995be9a0cd184426106887c45b2fb38ab397e, 0x68dd0bfb64aa2217716d850e54ef004310d2d073279004b73ca31ee79da670fa, 0x6d8d44a9012093e29f21f6235f0d863a7b18ffc47b61ad9376300e0f051b868f, 0x36eca868c89cf9c1a4d7878438e8d7310ac75d33bfa407f34796f9b8c83509ad, 0x27d47ca17e302547ce9a7b3993468001d4cd1897b2eda13749427d99f0cbce, 0x3301ee633653f7637c93f1c441c47d640b0754f5798e85ff9f8826d29a371e0d, 0x6bf85c317df0b72813671fbac519d779ea3d7ae3a11a25df3c3c223e80f357a8, 0x327734f96524299a34289b5736e31b3386eda829400cd3aa727a7c4d576f9e8d],
    [0x609b60c54d5893118005895c0806deaf1b1e08ad2aa94ca9d555555480000001, 0x70892de5a94f9c3b15b2a83e8509b002cdbcc66e9fbc8896d54db351cd7206db, 0x35c57b20a7a205cccbd67c51f5b974f8ce59109f00377cd570f05d211f73109, 0x221324aaf3706b508118a2db57d4192b90ece2de0ee0bac5325d42f4a307e2f8, 0x178cdede94382c63be64014d2df1d6bc922597fcf181328e0b8386e62db101de, 0xf5f7e29d97f1cbcfd12257159cc7c0568296b8bb65d85e94f990bde4f309b62, 0xac9cb4afe912da4f1f2a1312604a451e1f08e004de487256debc8814d6fe249, 0x2560f0ba4101d941bbeb1c0be766c8ef077f28e4e6734d31896d24358ec12703, 0x1d545580487310957103d41b5dab8550111411c107a32402d4e4b8bc4fc0d7da, 0x1d91bd197dfce3c88f068677ad455c49e4a2bd20f1150000bb402c12699e6b6e, 0x6a858103070f5864ba80d4212748f390f74e04be824769f075ee0c97dabd4e6c],
    [0x609b60c54d5893118005895c0806deaf1b1e08ad2aa94ca9d555555480000001, 0x4b1b36f6e06eedb71119411230a66f6284b001422fd78142c694668c22d25df8, 0x21daf89b8e50b9608c1f93a708bc36ee2c20d622803c7b1d38a373198e0e933e, 0x1d39b486507342ef9133fba1f6008a5bae83db0190a3b3c15aa797f94c5b75de, 0x6f442f5041e86f53d6694e279c925599ffd2aa2b4508aaed4dc80bf4f0461393, 0x28f09e1320c6b867aaa3b116a1fa002822a3afedaf8b896fdc2c8601e3306879, 0x3f2b8bb9c206f957cc1fc316b05ef3c7ff9cfe31a102d659a87b95c9f3975ef8, 0x1e9ee2cfee2c5c679391f76cf9b94a83005db30a0eff6c0c9d5c8ebd6f03708, 0x1f42c0ce9ceff2459cf381ee564b50cfd515c039a6a40ab3004037315dd4e16b, 0x3e1b443456cfc7ae69285f7eb26d79fe066c76c189f51bfa0d80d7ae7d18bb79, 0x2c3865140d36c3689d4a29ab4f70df981a3c4759c848905efac9f7669aa79d55],
    [0x609b60c54d5893118005895c0806deaf1b1e08ad2aa94ca9d555555480000001, 0x27d87341eba050a3057f23c62f2d37d6413ea891f9682030185b02e4978dd98e, 0x6ff247ca17d5cc291c900c16bf88673ec254717d45c62c0f6b415458603a4ad, 0x56b8b7f9b03dd1b9b2b07f16a9a3a9ea2f6c3a58b9d638f06afc09df0ada1ded, 0x5d4e027e3cfa4842bb014ed1070747d0fda32715cefac853514309ef5fe633e9, 0x2231287e7f0eccf94c8bc181c1b17faeb2d4b79495f654001e4aa5013faf1fa9, 0x69a1f1da52d0fbc47ad98e446c6775d937090ebe942b5d20dc997ed4b6d14aa, 0x2cef3089cd729f92a8b1c264ab3f9674c0e75174b11841b9acf723008caf43e, 0x1a9fd1a5a882d93ef58501c01fcd99485d0681c54ced9afdaddd86d1742b86d7, 0x546700f20f43195245ee0b3b1f6057a3d0ee93032236a9cacf0a0d7254100123, 0xb37edc6e20e4b6879945f68b769777127023fc32a4ada5676fc8c1879291124],
    [0x609b60c54d5893118005895c0806deaf1b1e08ad2aa94ca9d555555480000001, 0x2de725985f0a7f1d5b88d7974e64e5b0e27f8b2b7d4a1a75584d7009b366d079, 0x2c2ca4199a39de7b8e56d854b1c1333ba4d0f6b4f95bd49285078d2d12a82ca2, 0x409aef591612d0c2320d16e38cd89b891b9cdd4edbe215180d08b486246aec45, 0x296e1a6ec41f8d2dfab6141d15b34585048d9d4c1410d0cc545c5c3689afcfb, 0x13debea94b37619ca82fd9bd2c0c231254ca100b98d07de9b6c5be4bc67e8a9b, 0x10a4d8fbb5fb3369c1353a75863deca179b3c5380b0634acb57f2fbdc99076cd, 0x4d9c63cde8caa921edc360a7011cbccd8a6798ffd262bfb59354fa7cae1ba7f0, 0x50fd3b80074e2e37d52e622c75967a101830173ad05caac2949d54e1114fb796, 0x29f482e8d4ba4892b95174983557e0534e9680e8f4c0d513df4f7fd2e5d0eda5, 0x71195ad466513a333bc58e43c079be5eac16baf05530f671f6d64cf872a7d6fd],
    [0x609b60c54d5893118005895c0806deaf1b1e08ad2aa94ca9d555555480000001, 0x50cc0c24ec7fd9eb24b4fef66b9c09901f0277237da6d2c643ea5b35c86bc94b, 0x58adab96e0c771e30c4d0c5734a1efff65ae3388b5e4285cf299daee74d86632, 0x590ffeb106fea64a8df8895033325edab049e3dd901dea05c4fd84dc42b2af2c, 0x10f562928983d9935c0d513922076e35352c370b8ebd71943e8772b8f295dea9, 0x9498cdd3770630c0f70caeb96cb38b092d7ab88720431137869c1a2a1bf7113, 0x2ae1146e24227f854ec33049de901efe2612f4cc3e2af85227f6502e6cbf93ee, 0x4b539a549b36dc1ef693332686337d24da721a8b668d7302da3171de3425a634, 0xc65cf9902fe0850eb75f7e305598fd1299439ed36144dffff66a5484821ad59, 0x13fdf5957887799341b2bb0242e9195248cf77065d13859f2346efa59fa39a19, 0x51e529b86594b96ec3f44c58753eb8b936cf612c73fc6fab88f72dd359f7c210],
    [0x609b60c54d5893118005895c0806deaf1b1e08ad2aa94ca9d555555480000001, 0x38615aea2e4dc3309a87674dcd14fda0cb209cde5ae7d7197c95901a5ed8f8df, 0x4b7fcd9c96b774c936c3dbe6ee46fa766dc331dd8e9d8884584e4e282e8c2694, 0x60fec427c0975d6c5c19d46257315ec150ade6902c1031081029f89a4890d466, 0x15e738a34008c44acb75df829065031d80d70c3b7c48b851d1f9436738133b7f, 0x5bc34157106b2c7b2284130158a9f9fe74f6dfa1d6504129ffa8f7611fb5bfa5, 0x6d4abc5a2e589a447ffa4f2d3f2bc36b303464554e3a366c24cbb08ac2fdfecb, 0x6457d97d2d275ad28aeddb73d015d89036cc322fc83b48ab949c9f2ff4b97e65, 0x6068bec3045e5afeaf6b514074e38e2a8c43ffa9d04fc0f8d0141dd3d94814bb, 0xb57f0fdb6f3d96e767bf8c21dedc27126508e4b20269deccc2df839b40393cf, 0x6728c80646e0ff05762fa82b3b704f95d7c1d63836ed9da82fc7a3ca003a2e20],
    [0x609b60c54d5893118005895c0806deaf1b1e08ad2aa94ca9d555555480000001, 0x4f161c669f58debf4e31d2a233af368e85462bc419fb2d6b77ff01c61e641bb, 0x6987011a0b32d1d6a8befaa52b99b43cb11c95b2b9da1d602ff09649aca7fff0, 0x12bf480c06b0498f857e03a2a7dad4956f1bc96a06a001f8a47dca95f59abfc, 0x2054e40d7978186c16bb9f35fff643aaf713f83cddfe8a4b3a05d4dbcf598bca, 0x699541eb6a170ac451e6bd637098a1cea4bd2bc2b909500fd1aa82538c48b376, 0x5a53f00fefa8c6880cf45d8271f16f5e189027f242b73ea8144b0df1deeac8e1, 0x2732379d3f87e094e99c2ec29cffab80ef8881b0dece4a27d9004342e3ae96f0, 0x53a73ad501f2aaca404963d690fc15869f247d84c7fa09212003c6831faedbf4, 0x210a1b7d3f96a466c9a24899d6a2710f906d8e761b1f906619379e3890b58c98, 0x5422c342c68d0ac13c3a77d26816707a7b7e754f89dd058a8ada238442439ac3],
    [0x609b60c54d5893118005895c0806deaf1b1e08ad2aa94ca9d555555480000001, 0x3b4c73c039bef579792880a34dc4e3e0ab634196f09f7a2f1cf5da8525d0e4c8, 0x300c304077dcb7f19f2802e598876cebb27ab425bdda7e74e24a70f8df8631ca, 0x40715cc87e3530e91592f99ff69ee36ed682914ab7cdea989f7a0464bce192cf, 0x37c1d494f34d112fc3c73a5840b7197dda6b4deb13dcc4d7b9c5f3145f69199c, 0x2fc2f1c657a089ad5349b98d690ceb12ad4c687d2ef14e14288ad99dd3dc7258, 0xc2e3858e87da56b356a9a0c853e93c0913e1e32cbf1cf7f731e3feb3f35c328, 0x212b97c34f7a115384ffcca8e328d63e6d6ed939cbdd4270bf0a6a24f932e7d1, 0x6013d52fed9556b8d1e3f5d8ede9704ad8fb241aeb1f9a98f09c36ce6bd308fb, 0x7367725e26459f38fd337134efd7ba9e0edec4905fe873ffcf0fcbf76a0a7325, 0x64d68c64ee70b6fc4732a5797dff814f997a75051af3d8dac3f364eda515e7bb],
    [0x609b60c54d5893118005895c0806deaf1b1e08ad2aa94ca9d555555480000001, 0x26e675941b1906bd16ddaa4b9d09154fd022931d30608e77144eb3c58a74e925, 0x37c8b142c544af09f3dafca7b117144266ef4dfdcb672f4ed3f0162e045239ca, 0x55781e866a2e38ec59328aabab2a876b6fc54e094e3cd5644204e859438299a6, 0x2af89291f32633c1ee487f41fff9a52c87011a24a2cf4d10384b50f9b10687aa, 0x344d03b907f3085cf2ea40f383b20cca52a6f99ec1ee69dd73cdb736d05112a7, 0x6ddb50cd322e38489c1b7509fb16c7f86c24649a08b54f4efd81cb28e4cc13b4, 0x4f97cbe07284488b305606a9500dd8ec36e783a538582af279ba10b0b41a6e54, 0x4d4685de3338833b003f1084e0f0f1dc67c2f0f94e99f75b8458b67de00d58c9, 0x54e2672477fa5b28f911a2995e69c804ca9e940be1f5fec5988b8283d1450383, 0x3ce58260d262893c45d7e4ef2b7875b3c4749ca9170d9829747049389effee08],
    [0x609b60c54d5893118005895c0806deaf1b1e08ad2aa94ca9d555555480000001, 0x4060d44fe5ba0efb722b6edee419db0e6ad5223ddaf65e3e557814e4451c41b9, 0x6e070b83002cd62e0ef188a9c62cfbb0df14585b0184010d391d3905cf27cbdc, 0x65dbb148833c51d6fb6a6028910ebdb6d8381c628905d758d6d9baecb1843e18, 0x60a2e3961c3272420ddd5d31c80a202dd8b3c96cf66f65252d845ad3cd8b55ed, 0x69371e2b7ce8a1322f18ab1ebff50a4302d45aec0d814b49d29aa5636ebaefcb, 0x11c482358d09b5ec12c2227edc4e073d4b26bd222bd7895b28aba877be516fe, 0x6588ad53db2e608e2d6e1a257c6c8ef2e269e22d4507b1a8a7242a3f015b0004, 0x3763b6eb953b4eb82eb783b02be0178306f882f912bf0f3b40700a8e61c9b266, 0x300643b6d50401ce0beb9e7e5d230d145b64d168b74576a3b32abe7045ac089d, 0x6ad91174c5373a0d0ac489bb1141a29c4617ee5ae5cdc627d0239f3a0896e68b],
    [0x609b60c54d5893118005895c0806deaf1b1e08ad2aa94ca9d555555480000001, 0x589d99cbee014e9b0022b9abe08445b897e3be630d4f0b6f1baf8f492fc71465, 0x2a87e647319695c2cecb260a455221fb7301cc3fcf0cd941666481b4d198a784, 0x213ccea65568eec2a1b6e23523aee49190d6a5958b4de19fbcac5c4f25fdead4, 0x1c842b2efbd6241cadde8b6b39a2bff69efb039bee0a68d482524e160b87a8e4, 0x265a5e664bc4d1da9b9581714a4ebb83f67371f5e8c5291075cbe7992da4cbaf, 0x507dca37bfa432334a43c426be4dff55c584c09db2900ad91300d6cf7b10e0c0, 0x37c0be5a622ba8924722776675ef1a537ae84f617067b51c56591e14b3e8f6d3, 0x34e2438afdef5c594010f6385cff556666de7505467108a67ea33d93097581c, 0x135c432ef9e8aeb7fc14d1fe4a896d07d16cbaf16da784b5392585cc70cd57aa, 0x45fccf5220b8a7d3cdfaff016a6718efd9d5f602cc222e8c8c11eee46e90ecd6],
    [0x609b60c54d5893118005895c0806deaf1b1e08ad2aa94ca9d555555480000001, 0xe94b042896ffd7f0aaf11fe612a41a75c32cc7c6c150a059c168615f39de2c2, 0x48d173dee5783d4c45458854c1a1480bd5736c5e4cf91fa99aadbb0ec4c3cfb5, 0x3b1eb5d5994f9daec09b302c27c6e4097ddf44aff0cb9abf2b72587709be5d99, 0x73c74608b2370956cdb89b9a377582072f9d8007e62ab74f9d633d23b63b99ae, 0x336ed0bae2154c1f6196eacc0622448b963ce3c481fb6e31d98a03af16c83f9a, 0x5fdebda780a5dbb4dece56e54850a4373dd66c78a3ba727ee59031d1cacd9d9f, 0x3baa8bbcc0622a22926870d2681a1b76df100ca0abd94e2c3abbd83680a123cd, 0x51242e06c881cf266c50a184f81bc79799b2acc01ac6262d02cf87021a06391a, 0x730af2829ecd76d84ebaccf236fafe562a0554d56fa74bcf80857fbe61538b39, 0x53b46bae584dceab2695af4e681f350c883c9ac206d27c7449bb63a3b1e849d3],
    [0x609b60c54d5893118005895c0806deaf1b1e08ad2aa94ca9d555555480000001, 0x1ab6ccbfba06521bb82c7936da50b245e00aa579c5c0d4ad4e117c880aec0a6e, 0x2b3f80e6b1cb0e9d5e29638c2c61dbe0da74201e1470c7b31901f20209bd3c0d, 0x25ac5c5d9edaec6e0605c2547ac8c040cff23c7fb06f047a17d1bc7bb7d11096, 0x4f5ffac38b5ceac7d86272459c5c363f461bf0df4d5886a479dbc76791c3ca03, 0x212c271a49fa8ccca4f1da3a989bb527519c35bb37aa635273cdffebc430dbbe, 0x23d2280ed3385af3c4b02d8165ee1e9a8ebce3f038746f221e7005bf00915443, 0x58cbc13cbe8cb0443aaa01ac6364fe736e82a51b84de634c2cc2576bc66f5810, 0x4852ee72be1c066ec6eb209d01ed560a0dcc63af7f71d9fd08e3ef527e5dc539, 0x369f8de5435ca6fe0b6f7966f513853ca5f917d020474968ee8173a036c02ff9, 0x3683cd07e79afa8cc7f95e5d276ae012e97ac8d8a5c0d2e49f200065ef4fd7ed],
    [0x609b60c54d5893118005895c0806deaf1b1e08ad2aa94ca9d555555480000001, 0x31d2051a0aa1412c3a72271ec642bba86d33586eb038b9401b2dc860d3452162, 0x16a76ec46c8b5beebf83e3a988df827ae5c381cb690bee7538fa9b9339d531e6, 0x37d46b2e64b7e623f01b4f64844b369c8aff23ee1bc3f7ccb7a4a591d780cb43, 0x3ba0c63fca86755308cb0db30c97f5683dfcabea23dd16c746da5738fa36f15, 0x6d4bdcf1f6981ce1fdd1c0665ddfdcdeb9459303ac44248bea771f1a79b11718, 0x236ae85f21bbbec052c56b492b197c6b1193380702021e2eea5df596ce247caf, 0x2a3b243f72f54dbeaceda24e83cffc7d2d04e897eb5ab2fa978d15608d160db4, 0x478067abbcf6888e460738c5410e9352d523c963466ff839e703080f33012902, 0x466371e788265c9408854c6fb96c92221215da8fd403cfdc9f4c78296fd618b3, 0x4007e0f313a73696fe137fe866b791f90c862525774dc5b9db66c108c0cbd1ee],
    [0x609b60c54d5893118005895c0806deaf1b1e08ad2aa94ca9d555555480000001, 0x72d1b67f73d2df84b307aab9be4fbfb8babde1579c35cbeecb061f12e64765de, 0x2dedb56c7b053b7fb54d6074652985a14521c99b067a7194ea08142165ddccb6, 0x18c8eb61fb85b4dbb7ed1d050819503b78ddd77c08d426954442b098c93fa8c3, 0x332b9dcd50e0b667d3d61b4c5f06f2e1658c03306fa0d5807d46dba8cb1e08f1, 0x64ea04247f148458d491a358644d4e2f56bf877b468238181259e82ebb9f6485, 0x369b040f0c2eab76b0e52e260d8c0975855fa0d0d94cc5ca7f1d81abf7fcb516, 0x285a240ac81115824c796a68d1439102b02db3affd49dd0ad4d664d30f0244d6, 0x13fc62f018dc6190066e3daa6a60584bffed0d13764394b7cf57bf259b243b60, 0x1961a55796c90d5ba730f42765de307b1503885b64a08930a2fca5a22c2f5e26, 0x39c3837ceeac3193c300bb783de050e29142a2d10a2e0a86daa1423368380633],
    [0x609b60c54d5893118005895c0806deaf1b1e08ad2aa94ca9d555555480000001, 0x3f555d5560bc48bb1e3f8e95a37948d5b05d4d0c9c8d9b313a958df747b3cf95, 0x2b5f3aece6dc531e60369b2a90c32c73bee73da9cff7f7ca8af0424c2f2595ef, 0x5a860d084a8ae891ba31c6d07b94fcb6429a97a86ef566a09dc66b7cbda5270c, 0x351d441e3eea30f314f7ce1831dc793bfa0218e631e96636cd6573cca26838ac, 0x55c6b76f03fbe2f0cab1442f9bcb642c3d977ab8dc4a089ab586ee62cc68aee9, 0x49d7dc483cd27232dd07b079325cebf78ef4e7f79796d1fff7805e3052ead78a, 0x6650bb467c4a3fb408c4f5eeeb3d8b5179df2945751073777b0de89dca216a90, 0x456f54e0a642d2cfc94bcf1515b7d0ac2b4687c0d3df4406e1a739261ef50813, 0x6def3754971b799c19633c9c391a642abdfa8f4372a2a47f76610230575a4d94, 0x453acecb514a6982a73b807e9e9779f994d83d97efca86d38b6b39c1fc9305f2],
    [0x609b60c54d5893118005895c0806deaf1b1e08ad2aa94ca9d555555480000001, 0x5470820a4827a9f0695ffd91a1b0adcc3f4fef6f95e8bcef9ca3042069f33772, 0x7027fc2f99eae83174157fc14f4798a5ba71226a1b07d02a862c2feab700ab3d, 0x5023f0f38c717f34d4bc8a734888cc572fd10075149a1f34f82dd3870e317515, 0x288ec4f03439911989fc9f6d36a95ac1bb64147278716c6f325ca85c1973a2b2, 0x4b7c7cd645f883144638661c56ec5fc6796f07e981cb99185767ee139bcbfbbe, 0xaaf30d5d818efcec278f9294b1c25325c90684310b79c3d52b4f1e189460520, 0x4994980f374d21ca7abe05dec90ad37e9fba7931ff1a07bdf8e3c854453442e6, 0x664a0921e676b8562553cb366fbc115bca96e039dc85d77deb8525106418a63f, 0x6630c0401131e994dcd475e34069e3cc57789178fc047ba1b62a46976b05d508, 0x62a27b833ee3dbd85383910f7fdd4e1f11822231af07af089aa52a303ae43391],
    [0x609b60c54d5893118005895c0806deaf1b1e08ad2aa94ca9d555555480000001, 0x519551ac6437fb43b8000575f78ae2985b4c46c596dfee3db75451b96e491523, 0x63140c960a8baa3b7b962fb553f59ca592f25bc84955b6cddcd65f91cde92403, 0x4712cae82f59e0bd520e5f04e5ea8c813b2ce2c689d2a50f915ec198239c2243, 0x4f333c352cc348bb3857cb65ad68b67e0b15b9a95e9c22538bb31b34d33ea1f6, 0x44c7a5b5f2a6639d2ef2d14e20467727cacd04d01c538ebd5d4499418837f922, 0x663ba087c333f25191e6c2740ef08d1ef55c190ea9ec47c8be26886dbf5c1c94, 0xbfd84b65329f4e685393dee45f18beea5197fc488cf1278c0017e858b5b92ed, 0x19f21b5a30c267e5871dba633d6d39a8b59499be8076bedc6f145fc0815d4d3, 0x4e407ce93912b2e2d559547c63c14bead70e47953dc7edfe437bb872be403970, 0xf989cc85b311f7ee83b70a11a26e8a56958c2a2efc5f6ae7cef7ca9467e16e5],
    [0x609b60c54d5893118005895c0806deaf1b1e08ad2aa94ca9d555555480000001, 0x33676bbbe3d5643d4583e5928c6b815795fd5f6aeb9af882cf7d3e6b800eda9d, 0x4f27f70664e64dce8f9ae9a782c9cccf6102735b62e459c956d3e6607503ec6c, 0x44fd591abc980e9b5cb1f4c2752395cb18724b51a0f830029e69e725eb925964, 0x171da2e6c0e8b79d7b705657c786fb737ec68b0e8378c45e1739bad281ee6610, 0x4d740683a07baca8e206387c053de2df72c9441d73f52f183d1bb9268ee64d69, 0x6d81a8c8251765a75cc4e49f811b59fe563330ae6654b246ae293a7f443f5391, 0x682121c167a555eb7c5aefe6990153f5c69c75f7cbc1e86bb764dcd76aa94bd3, 0x9ab6544089d689b1c43b614ea1aac98bfe91620f27ecf315f4f422b6bf3610e, 0x5218b1c320f3665cea3a13c24e419e9e1c498fe38a9cce67aebfb8dc2c4dbd6a, 0x6f278a9518b2e39647c01146dd2d140d1e820e92a59391a878704de5f96c512c],
    [0x609b60c54d5893118005895c0806deaf1b1e08ad2aa94ca9d555555480000001, 0x2d848e31f0e3b3658edeb6f6106a55f5e98bb60249d1902bdec4250424138579, 0x727da2075f9100f269e59b2b9f6922f9647128cd45c6ca5a4f5961741b9ce927, 0x47872dcf760fabcf335fae1b3584bf2ad5fb8ebdd6ccbcd2adbe9101c32afdbc, 0x335f0e06ecb84c48011267368fec9347f07fdc0074bbea001366c48a5a7e6f4b, 0xccd493ecf3d235b956725dda841307c89efdec3b80a6a7582c7bafea0175092, 0x4ffcae77fe7ccd2c528f0370ddf9c57b25bdf666b1c4c6927c6ee13742515517, 0x5c402bc8c8c0af92789e66fbc6c24898f16473afd7db1427332a7b7e25e3ef87, 0x5e92c258adfb23b4b5a18ce962ed370b383c82590b1de5d032efac1cac8c0a87, 0xdcd536e81d0f68062927ef14c0d83f0c9837fcfeb4c0b311eda5e316a2005bc, 0x57241a2ba86fc944be4102bf44cf03236a013507fab4658012dfd1d5d7d098e0],
    [0x609b60c54d5893118005895c0806deaf1b1e08ad2aa94ca9d555555480000001, 0x1c67078be01a7e5ce465ac4bc75fdb5a5058877f447b67542a010306c0e369ad, 0x2a3b717ade0c81fe322822cdf9aadddf195412a8c89ab85efe4e84ac6163618d, 0x109c4ce4832211cc5dbed892f49f12718e42b4bbac07471b76f5dfdf56b4978b, 0x1bcd3ca6f39d2cfe07644ca70e440d03682f3a3a3fb6981bc2130c86ee114806, 0x4ece0ad93dd86249c0ac05e5eb7919c252719758bb548e53a3cbe1fe4c6aa45f, 0x5939d02c10c24d330579537f5ddd0809e1e64857175ba3c29d4a314796730dab, 0x17f2697ef8669d598e30660349685c48a431505637d6f08d1dda1fa27e456ff6, 0x11509f8c07ee8e377f44c68bd3e8b15d60493b5a1b5bb666a8c512d00d462fa4, 0x9a33ea7550dbe085487960a04ad571fa4c6eea50277627fd2ea442d38151638, 0x632ecde116bc84f424c0d64d076d59cbd017560e4693dd25f5b20ee5a7f6bfed],
    [0x609b60c54d5893118005895c0806deaf1b1e08ad2aa94ca9d555555480000001, 0x29cdad0f5226602938b9f65a17d9b069426d7f23df712b1e56b7435e679cf086, 0x60a4a55c6d049f9cb6d0d152973d2480038370cda5b8d1437b576de57def9268, 0x9cba5b9205468f1a5d2703be06914744bb29f877185f0ac46687ce3426d7c98, 0x34f94ab77f2ef6d68f73d55bf3a8d41780fa88f8fe071d71653b29873a4701d2, 0x2e48a4c136b285042df0fef9ad02e7dac23c905848879e2b7f62bbd26eaaabb0, 0x156ce81c6d5094c4e25016611b8d852ae4f7732fac874fd81562e74392b1f38c, 0x4a2667a4e62cd2747f9a29ae891f94466da12a309b61b1a668a32756e59934fa, 0x29dffa3a5ea4db9083102bfabbdf5d6b6bf302a8b450da5e273b8ce68c7eb8b4, 0x23d6bb453bc9ebe76f053b564753b61854443b3a032e3947487e862b4b86d9be, 0x5d68b41ab6e0d24b3dd622b47da1281eb56e5015bc92eb4d7135dccfbb2f0e0],
    [0x609b60c54d5893118005895c0806deaf1b1e08ad2aa94ca9d555555480000001, 0xd9cfaef908badcdfc455c26990bdd1152a1e9fced8678e86be77b34ea8c3f2e, 0x20965f997ed0b7612cafd7bb991eb7e6e1daeffc8a42937dceb30523c0e32d37, 0x72c93e59e6297f58c48ffa237b1c9d9dd2cd7151818ac96e3004560cf2e46bb5, 0x7a40b0e41a751069befae5c9a1a436a80770d84a07bae80b3ffa4b51bf3314c, 0x43169b7a5ce9634d1fa3d073446fe96637d291c76bc82e7924e92878a3dc72c1, 0x2cf79993c64e51fb0798c821adc88759e34bcee9cfd3bb6b182f34ff1d3ca2fd, 0x4cae88a75cd80308312edf2015c759c3ac70d0a9147814d768e46e460c1e54aa, 0x6ea00dd9c273713259bafbfbcc724b2f8ecfd718e64e73a1dc2438e87597d23f, 0x439a87425d03c533d94e01842202a3547c21f1ed17e8dfd3924e9f5bd57e6bf4, 0x3b0530658606d4bf0c1ddcceb7a82c0b4f5fe1b491bf03731554e2b18e8213ea],
    [0x609b60c54d5893118005895c0806deaf1b1e08ad2aa94ca9d555555480000001, 0x66f2b8f3fb3812e42f096ada88168d2ff3b80a770fc387eb7ae2b7c8f17959b7, 0x56fc19182983408456f4ad2206876219cd875dfda2ab183071951ffd93b28298, 0x63404b949ea0b6fb7e807b45cf6c3c1aad20ca3768d3bb5f440c5cf097df62d8, 0x637f4e5625bce67b9b1dd0641b176d9e1212e7e81e8922088d749813b455c2c4, 0x470a6272b8712b9469c55b26be854cfe6047f068bbc97497a54e953ba093618e, 0x5d2dae5f5ab9e2cbb2a9ead8b57d43f1f5d65511eb4c77c5a0574ebfa894ca73, 0x33e7351a9eb281714cb84a873e9f43c3594656b69ddee0eb4b67e5f6c559968b, 0x41b4bdde617802fa1ebe50022dbcbdc4fe0d8a594d160c2ef14a4bf809f93521, 0x2da83849b359af5ba3f2767af24e7b749a0dd59acce0f5d8622d46b8b0ac7fda, 0x2fc273e91fd040744e88eadd6f6e3fd177710cd01ff03858595585ac1ff9f780],
    [0x609b60c54d5893118005895c0806deaf1b1e08ad2aa94ca9d555555480000001, 0x2a2007976dc32782c428ea94d1d94808425e492828080a1b5b2889b82a9ecf5a, 0x5104b670bfa6bc6fe3f881a82844ad47f73db09a92f4a70d306c0f1ad2a84a05, 0x46816ad73b9782a5f028953e31f4b5d2da1193b7c0f4b548e92b948521aa04fa, 0x4c39d8a8dcda54d5630106621e3a6733f8923be86c64288cdbac8f30af4cec58, 0x2b0fc1a4eb70d85db4869765acfe6562cfeb0f1766dc47ad5ee7dd465c88bbbc, 0x39324770b43668283a5ca74e9e8ddf33f9457c77f89ef30caa4218001224032, 0xc1fe7a8bb9149698d5137a841bd4debfe32615c3117b50c34ed93b4e4d60331, 0x6512911cd7771c42ac1c2d7b5b5b79b67f38d9c868e1c65d274a9253b518e170, 0x390cba7106f7063508d2cdfa93149d93808876a6375e266a817d0d153cf6bb36, 0x43ddef3f5a06acf5d4b2177dda580ab72333dd9cbb8a39d7d821d9d27f832cfe],
    [0x609b60c54d5893118005895c0806deaf1b1e08ad2aa94ca9d555555480000001, 0x6010b87da0cf9d0b68d42653f86441542a661b3472631f9bc17334666206d620, 0x36cebf4b32e2025ef20ae9a050f50b6b03418073bdbe7bc978b14f3cef0eb1bc, 0x3ae4bc3e4ad81182d99a7a79e7c6ab76184715631a465ace8b41b3e5f69fbc94, 0x6252853e639f31367110af8b9dcef282be3ca79f0d18833823495d3f66b83e5f, 0x6e432d75ed773dd8ffa9a8ffd79a5eecc452a63bf49c4c47e483c82945f15f45, 0x4426f9b1793c219b9941945f6840fb8a3eb5c122fb58689ec03f6c612ef7b889, 0x5940543db4a7560a1a34d5c89ca2c39ac46e456778af7acc4cf6223671257784, 0x672ecf83ff4c512952209c73c06425a91cf1f84dc41dad244e06a0b242d5fd3d, 0x17b4b7544c634aaec5d8673daa994eff41441e4b5b294adbe5bdfbeec84b6fe8, 0x35d9027032f365cc717d869ad4764585d1f379a5ff1b4a97473c5b82f2f7b92e],
    [0x609b60c54d5893118005895c0806deaf1b1e08ad2aa94ca9d555555480000001, 0x52ce62ba6db9f9dbbb270ea984fc10633082f0eff5c34ad78a3872ce917d2493, 0x31aea10c531519b95f8d465b48214bcc98d016e9a6905b58f212bb34884d4925, 0xc883025f491213437512787bd2418b7947757b926b3db5dfdf285a460000, 0x73ecedd970188036f5d40d95070cd01a558bb2431ab1b9fc4e19c52ed6878001, 0x15142e9ebaa3b349c35b5cc17a6fc12d505e7a411da5d30f348c8d911dc51746, 0x3629d2100cb896c11c26f6b1dd3fef54f78e83b752396ffad77fd6ff1c5ef542, 0x3c6545fe6ab0c53d1f143e16bbc1e5a4274c130b7250a5b4fc6c25cd9645d2ab, 0x45556c557c6b0542cb80378bb8f3426ec2a8e3841ad3af539ebf99378d405e24, 0x73d20b4f4669aa0a9cf54ce88888514a016b56723f774a0cead9aeceb9a328ff, 0x3189a6b5aad4a3c4ac5ff36821024752549ef73c4ca784567bb5ed608abcbe00],
    [0x609b60c54d5893118005895c0806deaf1b1e08ad2aa94ca9d555555480000001, 0x31aefe915afac1e7e4d0fc13381b04037698724adff5ab55e4378918b5074925, 0x73eda753299b171ffb49c6c109adad356c6d81a8fd0a3acbdedd9248f66e2001, 0x524ca2cef801198805aca65e655fb14efff41148597c5b1850000, 0x73eda7532998bb3cd58ba9685ba2af2cfd6b3b6416373b3e1decc75e573a8001, 0x49c5c792033748db58fc6677a5c389bd69e9e049f47d2c2ec93370955737d175, 0x3a2bb4becb27d0e4f0c46e88dd386c0a34700f4f3ac35771ff6ccba47f173ceb, 0x5e1507a160af907d89e255782d81cc8999ed470fa292ef67a1490f91c974e54d, 0x6dfaafb8fc0034c07fde51b37e32816fcfd8eb39c160f8c5c918450af93f28a4, 0x5e9498a48b532ba355fb2fe7c435cef8a5b40b1588b8ddc4e026020f799666a8, 0x6b9bc3e2914f03f6fec43f5d2f8182ac20831e37c7bbb811c6b21b8c59781d3f],
    [0x609b60c54d5893118005895c0806deaf1b1e08ad2aa94ca9d555555480000001, 0x31aefe915afa5a4383adbc1323b6863f066ffee3820d3de0732b3160050f8925, 0x52ce52f2424bebc5db62b47a5fc860f66345d094c26e85118610f2ffe55bd493, 0x21c78c9020f9bd9b7f543bf6a3b27e611cbc44b4d02000, 0x73eda753299d7d48331a98f5147b939c48167aed16028743e61fe1b532a29801, 0x544fbf824ccfa0eeb0eed1f4a93a97b02e23db015efe27a8d819cc627822dd18, 0x22e5a3cc4b7d2bc4d924731cb0050be62f99b6ca5ba885e9380bbb1ccadd22ef, 0x359214f9d8a525976548099fb54399de5a8b18b7fa7b9516c4abc29bd6372d2, 0x345cadf0aa5533ce6d9074c51261d802617f71a41c6fd050d04f4193e4ac1d21, 0x5a02ba15ebea6223bd6229aa5854383f5d41a9047988de31819b1f7260070f60, 0x36ca0a98cd5ce2cfd6e24c13d73f83f257e2499e68547882064cd7da30688e88],
    [0x609b60c54d5893118005895c0806deaf1b1e08ad2aa94ca9d555555480000001, 0x211f5460e751918257c7624b7088d81aff7d2899928696cb5c1706bccc972b6e, 0x211f5460e751918257c7624b700feb4c25b680691d41152fc74a09bbf845556e, 0xddd5b53058211ee029635ff3233d1b9e3b4000, 0x73eda753299d7d483339d80808d4a4f14562f450d0113869beb1613543621801, 0x3f3bcfa1b99bb8b304ab3004629db1898ec7ba8c4d50d6a8b5adb7bd8cdd65d2, 0x791e0d0c278c71e60d1b75fad1a13bd1ffe46335545b364c82a1805bcd0d4cd, 0x4da6a598d34aa579fd5c3f6690b4f022354ee13f557d60739ce074d6f3d70064, 0x13b426b3bd5bdfbf8ffc52115bc87cd60e8500006234f66a378663159df91226, 0xaa711418c349a90ccb0ce52329e541dd93f24d2c220985edf2b869ffa51f36c, 0x41353df27880171e8549b3848b331137e6c4547f801a01c32800edcee3ab53a9],
    [0x609b60c54d5893118005895c0806deaf1b1e08ad2aa94ca9d555555480000001, 0x31aefe915afa5a4383ab137128b3136fffc3f034a44e04a09c93c2827f2fbd25, 0x423ea8c1cea32304af8ec496e0eec49551c4e5cac91a2dc1e4e3699fc4b541dc, 0x5b0d23d52db536abb8f7f01af178e00, 0x73eda753299d7d483339d80809a1d8054e7a10cf0595b19ac7fc360f384a8381, 0x6963af62e003892a5d1d50074e93217936a2ce053c426e5b738589a10d0cdc5e, 0x18258d8d0b9013c0f31ff462eb8fa6d754cf19066bf026d6a4de28d83c7afc39, 0x7057e1dabf78ff5a7d6fa2d40b6d349b916cfb60c241c8baf1382b2c16e109c8, 0x55805bf1caa61be178629607fcb3e0524b306308e1d8cd8c2b00f83ad095ef4c, 0x7345160fd0dbf544ba3031fa60b3bfe7cfa2ae2eaa74df28bf5b97b10f7f8854, 0x2e64a1ec1c87f629007db4480d686c9b78548a0d6e73d116066eb97cb96cfdfb],
    [0x609b60c54d5893118005895c0806deaf1b1e08ad2aa94ca9d555555480000001, 0x52ce52f2424bebc5db7275bc992a75baa9877526b9cb4521372beaf563eef993, 0x423ea8c1cea32304af8ec496e0eec495546c5db880da099109e5ec4cf3e259fc, 0x255f2800a44b887327534700, 0x73eda753299d7d483339d80809a1d80553bda402dd6ca39940802e29e96df081, 0x1513efe09333e83bac391001761d6d183dc563a3800e7b938289e0f6d73de946, 0x4e7b585cd095f62d9ec5f15a34bd7f2de03a9a2042397e8598ba4fcef5505e10, 0x375f57f4d8a012ab99b53048b5aac6da6fca3fa923f0a8210c1a9617473ecbd0, 0x17c4e333e883a73b8a5a2958504e86cb4a5b533fd811c455329330aff3d22318, 0x140998ad6abe9e28a6635c01bbf1303a7a47c53ab2921c509aeecb79fd8f7d71, 0x729281406e688f02fef825c407f35254921e62bb17a7782f87d0c0723bc2ead3],
    [0x609b60c54d5893118005895c0806deaf1b1e08ad2aa94ca9d555555480000001, 0x135130f777a86d40, 0x52ce52f2424bebc5db7275bc992a75baa9877526b6da41b5b21a72bd39279a43, 0xf56cf796243cc2a0, 0x73eda753299d7d483339d80809a1d80553bda402fffe5bfe1cfab7837fb31359, 0x49c5c7920335acd0dac7b8051d66fdd4d832dcbc1744c62e3586171c12d2dff5, 0xcf36f28501500923ed7c4d08560b8d626000c84445cfcea26df6e5a150ff766, 0x3db91abf8d13c639807b7bdb099388f7d3863041665bce7b5538f88a95efbb0c, 0x17828625f058ab69460500b247c5b3deaec4a107116fd86ded23f83b23e55d60, 0x25e0f3408d5fa7c47338e87b825d179758f5bdeffaa163b077cf2e1add14eaaf, 0x6cadb57f461dce807c641697589e29594d68428beafe5aeb0d9f176bea2929a5],
    [0x609b60c54d5893118005895c0806deaf1b1e08ad2aa94ca9d555555480000001, 0x635dfd22b5f4b487075626e2516626dffea28c94db6c4eda92492491ece5a61a, 0x423ea8c1cea32304af8ec496e0eec495546c5db892483491b6db6db3586b5466, 0x64c3b6ee0, 0x73eda753299d7d483339d80809a1d80553bda402fffe5bfefffffff92df4e379, 0x544fbf824ccfa0eeb0e44005d875b460f7158e8dd1732ba22e8ba2e9f7ae3c38, 0x2ac877a7d574069db16189a17144def5c685fc8733cea1f370c30c3064924925, 0x171046db452c48cea832d57838c6002259647f661b225e9c2ad7ad7aa4bf4bf5, 0x730caf866178e8c88680ff96b84a128a8c660c9d567c71b9e04959e9f5f55f57, 0x4f86515988cf5c9cd95b3dc1a341503cef14acb18fcc5cba6614e14d6544d44e, 0x3ef607fbcf3f77a203b4028143b687fb3088c570f100970aa6e6d02b4dd0a9d8],
    [0x609b60c54d5893118005895c0806deaf1b1e08ad2aa94ca9d555555480000001, 0x108faa3073a8c8c12be3b125b83bb125551b176e24920d246db6db6d9249249b, 0x211f5460e751918257c7624b7077624aaa362edc49241a48db6db6db24924909, 0x4d491a377113a8daccd13ab0066be558e27e6d5755543d54aaaaaaaa0000002c, 0x39f6d3a994cebea4199cec0404d0ec02a9ded2017fff2dff7fffffff7fffffe0, 0x3f3bcfa1b99bb8b304ab300462584748b9502aea5d1660b9a2e8ba2e0000000a, 0x211f5460e751918257c7624b7077624aaa362edc49241a48db6db6db24924925, 0x656ff268c469cd9f2cd29d07086d9d04a945ef829ffe907f1fffffff20000001, 0x19c308bd25b13848eef068e557794c72f62a247271c6bf1c38e38e38aaaaaaab, 0x22c74bcc2615a595a8f7c0cf3616f401991f4acdb332b532e66666661999999a, 0x6963af62e003892a5d1d50074e93217934daf23145cff68aba2e8ba200000001]]

/-- the inverse of the matrix (not in the code) -/
def mInv6 : List (List Nat) := [
    [0x138a98, 0x73eda753299d7d483339d80809a1d80553bda402fffe5bfefffffffeff5880a1, 0x2205df8, 0x73eda753299d7d483339d80809a1d80553bda402fffe5bfefffffffefcb134f1, 0x27b184c, 0x73eda753299d7d483339d80809a1d80553bda402fffe5bfefffffffeff473ec1],
    [0x73eda753299d7d483339d80809a1d80553bda402fffe5bfefffffffeff5880a1, 0x5b99a88, 0x73eda753299d7d483339d80809a1d80553bda402fffe5bfefffffffeed192e81, 0x1dc52390, 0x73eda753299d7d483339d80809a1d80553bda402fffe5bfefffffffee97268f1, 0x69d9620],
    [0x2205df8, 0x73eda753299d7d483339d80809a1d80553bda402fffe5bfefffffffeed192e81, 0x3f2f7a80, 0x73eda753299d7d483339d80809a1d80553bda402fffe5bfefffffffe9b7a48c1, 0x4cc9b318, 0x73eda753299d7d483339d80809a1d80553bda402fffe5bfefffffffee9516b01],
    [0x73eda753299d7d483339d80809a1d80553bda402fffe5bfefffffffefcb134f1, 0x1dc52390, 0x73eda753299d7d483339d80809a1d80553bda402fffe5bfefffffffe9b7a48c1, 0xa1412b4c, 0x73eda753299d7d483339d80809a1d80553bda402fffe5bfefffffffe83f54129, 0x24dbb220],
    [0x27b184c, 0x73eda753299d7d483339d80809a1d80553bda402fffe5bfefffffffee97268f1, 0x4cc9b318, 0x73eda753299d7d483339d80809a1d80553bda402fffe5bfefffffffe83f54129, 0x5ffc1fde, 0x73eda753299d7d483339d80809a1d80553bda402fffe5bfefffffffee3552021],
    [0x73eda753299d7d483339d80809a1d80553bda402fffe5bfefffffffeff473ec1, 0x69d9620, 0x73eda753299d7d483339d80809a1d80553bda402fffe5bfefffffffee9516b01, 0x24dbb220, 0x73eda753299d7d483339d80809a1d80553bda402fffe5bfefffffffee3552021, 0x899a990]]

/-- the tables have the sizes that the code reads and load without a panic -/
theorem sized6 : (opt6.sized 5 4 56 && opt6.below blsMod) = true := by decide +kernel

theorem ok6 : opt6.check blsMod 5 4 56 (opt6.plainC blsMod 5 (opt6.plainM 5)) (opt6.plainM 5) = true := by decide +kernel

theorem inv6 : invOk blsMod mInv6 5 opt6.m = true := by decide +kernel

end Verif.Poseidon.Bls
