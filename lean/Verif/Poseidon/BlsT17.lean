import Verif.Poseidon.Check
import Verif.Poseidon.Primes
import Verif.Poseidon.Bn128T16 -- only so that the large tables are not checked at the same time (memory)

/-!
# Poseidon over BLS12-381, 16 inputs (t = 17): the tables, copied verbatim, and their checks
-/
namespace Verif.Poseidon.Bls

set_option maxRecDepth 1000000

/-- starky/src/poseidon_bls12381_constants_opt.rs: C L1968-2164, M L3962-4286, P L6084-6408, S L20982-22930 -/
def opt17 : Table where
  cF := [
    [0x110ba2bc11394ebdc472727c9683ed70624a37009ffed519b77bcea2c051b459, 0x62ad7a15f4d6185091512de74134492f4641ed0b53034ba4e1cce129e59c29d2, 0x59bbcd5f61ff3e4984f15316cf6b696beb8db9a09d2a0a7c21fc45b45ad65987, 0x124731ffadc7b1cc3af362c63d708c7213c5f1ea35350fa6939c7519fd211882, 0xf88182800cad7c1520656039b3e00d42c0506f2936f5477e9e6907bb4bab6ef, 0x6bd67c6ba65537a65604a0d1d1d9fd4ebef0327ea2b949b3bcf4d580752c0120, 0x4b5e6be7accb9db0c3753b027046efc2717316a99e81505be4acbec6a2d1c655, 0x2a99f539538c208858abbaa5c8e13969e352a08b7390c2124d5b30ffeaac5288, 0x2f50263ec31a8d71c5f0c9ecaa7426e807a136bb2db204232e97a167c5fb0b6, 0x29daffff04bbf2882d5ec04ad0d420e8088e43b20e2399a2c7ba2886a9f90efd, 0x129e2aee6383436f0dc0743c4717c6cecc19c447fbc697be2be6ca39808f3aaf, 0x593218fe9b23bac870a4adeff132761db1d3b351989ac0f0ec1caa624fab8973, 0x1d81e3c32b2fd9d0750057ecf0621167f32528c4378cb39447dd58615f77f37, 0x307c718af20f562c8653cbd398c3ae0866370cac38099c5d3be10dbd510d5aa4, 0x12f5ceff1a6a2509df445f4ad5f003b124919baff15a96ee7be93b9baab50eef, 0x3d8afb5a22159ac2dd84d2f22a6c363b2818e28c16249954fdbc5f5031f7f415, 0x708cf78ca5cbfe6a54860e0b4e86000914e00c6ebcaa548e35469019a46c79de],
    [0x5d58e70d58b1046a1ec6065da7b890780dc0e0000d78d7a432eebc4485fb0878, 0x40d1894dd549674dcccc5111caff6568161dfff4066d67216429bbcd19bc8690, 0x722fae84a87b1687fc4e6df854662eb9a18c3290fed10aa1b12aa521e1ad73a8, 0x28c12973075bcdcd5bfa52c50be58a1ffb8812b770d95a68f08ef3316aee338e, 0xb521894ddb3d1fe5726046053342ef89baa33e11271dffe40efe79870b05733, 0x1d483d13535cf76122e769ec61ee781e3aa9ff0eb531abe597487187d531054f, 0x26f43e84c10d30bfb3ba4e564b215cba907644b439b76a448ab48f9a251db13b, 0x555936d2d581092df674f00fdcfb27dab46f982900f768d4a706ed962a2d043, 0x1db4e4f0b5294cc292f93d8c0c1da06369f84a1ba0f1189d0a27cae1beb48fe4, 0x608eaa0d9e0e1e0103cac0cec9a1c70f21933bb78e377d0207ddcef35d643532, 0x65c64a2226474e8b7477f8f393e7188c7ca03b51de9ca65cee9574610b5b589e, 0x2988484e6cb152b4380e404f81487a10728bc5fd5296366c98ea33c873641cd0, 0x7024e4c87cd87eccd1106cd147fc36c21621997eef47256cb14a8539dd6d8718, 0x6c8c54c48605462e458fd485f9c7f9fffe0baaf576bdc0becc8174da0c9c5b65, 0x26d9c90569249581ababc363b2a838cb60fb3aa20c0856c79afe3eace087cec5, 0x19a0c2c8951d08c76a7dad6a325962a63b038e46983281bd5d5b2d10a558ab13, 0x2d652d82df7f19b1fae8efb04e3ecb6f587e738f0caf7f4e14cb5f6fc1e14fe],
    [0x3c9a7712cf1eb7810cedc295652215b0b3ed1f9e64fccc3f344e3d2bc9acfe5f, 0x355f1979c73f077af23edeab456d75524a65566ba5f45d449be1ea71544c44f4, 0x31f2f74be6723888ffe03a734d5a41cf86f6f9b39fe19fe787137cc518e7da51, 0x30e1c2c4db426eda8c7c9b9ed4ea333be1613fc09a0e240a9014b6c4e0baf1e2, 0x55d9a64fa640b8e110a65d5a7bd841aa986240d9896a6a377a4f2831f791fa13, 0x466f6432a52f6757ea6d5dfdc893e43bb75270c40ce43ae1324000bc072c6062, 0x27d6801f658e146f132ab714600e505d5f7e7fbb444445f9fcfbbdfb6285015a, 0x3c22a6020c066ca68532802192c6ec423ce0c57d870937a51f7a8b623733090b, 0xa2f767e89c2e789860b19a0543548b3009a40ee1b8de7c5e3d91d70d8ee99c8, 0xbbff3fd89bf20557de0c9324f6ddf8212e464ffda16e310f640e8d86fef0f71, 0x58eb88efbe43cdd97638c4d31d6514b1b5ea8f8d30a8f2bb5ef13b21d012fc80, 0x19403cd46a735b63aa88598d966774c17bdf8be48b851f63c44abde3a41ec46, 0x7297d3c4e25c8cee353235b9864b0261b30b6d4fff18ce7a8085bae2f43c1c4a, 0x1e312abca9dbf5530c72e74acaa2ca4dcbe555f470885fa66d58c9a1d4154616, 0x50d2c07cabd7e84509e7191b72dc6ae5c48896a76b30adb893c818376409ac8b, 0x40eb14d6b3f627ef9a6c3e722f20a6d4d3a826d77cb838969c106e9f320edbc2, 0x1c04fc9e826bdefd02e729d50d2f393d11df32516eabfde9fe037bfd52255afc],
    [0x21f2dd04895c4ff69220aebec2007e897a70061774a8b5140917478b254bd3da, 0x5c24ec16f77a029a65e94fb78f59bf507be4ae9529cb34081013644147f27187, 0x320844faf87c1a187f17ef7fa58f42781d931bc357d6dc7493179eec2e3a15e9, 0x4eeb03a4560032a97a9e14bd8e446ad943f72d9e0ce9d60fa7429cc5818b157c, 0x3cb1929ace965add025a9c9e98554e4858c17edc91810e0530a679273242cb56, 0x41cea5f3633a0300603e94da3b66c22bcfff9b469e2f4700d14b0500023433c9, 0x24d514bc214f736803ec4b74c1bf534d7477016ac90f3f7b13fbc7abd350883b, 0x51ba517ca0dff4bc5d1979c54998cd88c1705ea6dd3a0ce18ea2b38325d30bf5, 0x98e7402a92ff0819f95896eaa307dabe1fd931e534dcab7abf466514b303b6a, 0x7121377da427f0316585c8c855bc2214e810eb03f5f7740f9b15abecad6763c2, 0x5fb87e8f0258cfff965be4b63f8d48c58a8b71ae684432a9e99db73fb6cc2bfc, 0x68065257e520266b568c2f657696349648d9784726532f61a636527c403967a, 0x6d1e98310c782f480a916a9cd0b7f8e1be1d60a14a2f7c6b01a419675b7090f9, 0x3131a46abcf74468d46d7f5e5b9c5acaa8b388bfc76d9b9130de85cf56243323, 0x3dd24339eb9153e4611b1a418cc4ee1b900e8e3f07f35cdd07be680c3ca482c6, 0xb0fab11c277673d4311b01b8453cb95f03cd3530f68aece1265cf3763301f76, 0x695c781b2b5824082950394c59b748464c1188751b5663671b35f8ea1481aa3e],
    [0x6b14cc82d3f9bd0c8bad7156ae503bf6827e27203722338ee6af48bf0f11f20b, 0x66d8a76efb4fe52db50cd5e65a6e8974c9d658356dc85e59423665e7d5ef4bb9, 0x37f283a22fbbc926be94eac8d8ac36dc64555d03e02ee20c6ecd907892e34756, 0x4738921bcb3cdcdb14d22a161ed200c092a8b450998340d2215793101522a03, 0x6906c6aabcfac8944a7164bb0419a7a0435df8613dcfa13675efc9e2fc70dac7, 0x4aef4e2dca62f255bfae7b1525b25768ff0a39614c1707847cb63a3b36e89a4a, 0x20cef96c8ebc17e5ffa4b36610913e58a071ea18595fb36eae797e4ea963b23, 0x72d1962a08dbea3bcb8a2da28dd59a23a9dd6f0803f4a5b88236d16d97034ba7, 0x275ba14c23c62633c7559778a9e4cdb6fc0fdc850fe5ba431fb68b1b10db1272, 0x36d3fb73a83453ef38d7c9da1e3c85abfa82e18b1a022e7ec157ed9621d66817, 0x443e852bd5366a23eeb8f139e9489e378c9d8e45574bc2c7f87a93ae82f9e574, 0x5986e607038a19550df152bb2d6e110d2421e9374fb6e18feaeb9342cd55b953, 0x27cb23216743ea3c2673111a0c07a09a97e4d9f5332ef24b771a52d97c774a6d, 0x5a1edf4f259553516310a28b891fec561c1d8afbe0484d62927df2f1f818878, 0x1e88e79afa705738785c9fa744f6cc84c0e80b17d559fa68d7e93d2e0b0abaeb, 0x30258ca21506dda3559ae1a45bb47f7cb89ceeb5a130dc4a8df3154be406c4a, 0x2c27337f6c744826bb52077d9d9e0bdd38e3372fa334371a9192d8447e68cf4e]]
  cP := [0x3e890b929ba03fa567876beb396816d2e81cd3fb9b9a9da3fe442313adaf4419, 0x215c4c62d7ea8b2da2dea3af78f412c0fc7c51cd16300deec22bd2e291cd8082, 0x26a7ff1d3ed15a7180d88dda04250d968afe11bd46663a8fe726349810f1ddc7, 0x35a650e6a3d1466c3ed08aa3c165fa8003b870036d84acfa19a06d5e178b185a, 0x5f292de73195cee19244e5299ae4ed70c6f88353a01e7bfeb5441f9694f5716b, 0x3c0b1f01e4e21abb42d73efd7245bf338e75e3ae45e875c5e9fd6969756df338, 0x6abfa37e4386e9290ed6e245fee14626e68d910bb8dbe07d03fb0f699c487bdd, 0x66cc21241b5969d7a4341aeb69215af6dde25e3a851bcb965812e1f75fdf767e, 0x1ab85151fa8a073698085ea8bbbf94ec77f4d21047a2c33b4bd47e0c5c7b2a59, 0x45e943e87d01d276c640ef84746b5e1ac5cb8fe4dedd6002cd389cc71eeec528, 0xae98a27ba433936b5c07d2a8cd159aca92099edc4db012c5018954364fd276a, 0x4060bcb3024ba42117edcd3d0b474a4432ecc0adeac60e5af0a950a3c066c32c, 0x70cd1706dce69f73453ebd98c28b3f3295cd4cd38ddf6c07c3d911e48ce61e87, 0x291aa8cba07402a854832f74b3ac952a21b108e973739926d79a4f23b5c93fb2, 0xc341cfa0dde278e86bceb2e1f67f1c88585fdd8570f4606290a0f748ce3742d, 0x2c71d9c5c6778be4f0a4881dbd71e43a7676f4bc31641f4257aa5a709ae1989c, 0x2a184e086705e25804b112807c8491fd5ed8f8338197262829ff3258ca3be5f8, 0x6369d7cf561c894472cfc0ae9139563a51393f979b29c80c3c266b8154c1434c, 0x5a1769cc7ffb29a3ec5f2e10f9b61202668805a1e81f72780a171b5b4c571107, 0x542b0f84401887c6ab453cc218a67088815dc26d3fec8847746f88842cd5cf48, 0x6270197f75d02479644b719a8e8ef59c879dd3dafe9dfc53406d2c4997a1ae9f, 0x2b3b188ecbad873f044ad44649f60c8cc0c68acad0d487d12e9fbc407f7447b7, 0x2ac9e08d415e47d31ff0052655966d2e4a4cd53afe8f2c6a0c507ddbc9a2b9c8, 0x5c64f76dfb04ce44ebce7fad8c179a671d17227ea050ca7e931c8be4b6598cd8, 0x55ae6fa78b9271e3202746c2fef2bcebf81e1b0f14846a8b52a6a4602036d34f, 0x63acb9f951ad8a9c2318a34555d309f42ad523afba4f64b3369ebaf89bb5400c, 0x6d206d6f7829924ce6ee3bf864e384e53281549107bb6525b9924941c1abaf21, 0x3d09309bacbf4c2f17b4356f2a0209ce9fe77a7531a944b5166ca138832a31b, 0x6ba33dc52fe824e777489c5543811bf204ce516f2d4d93d03856d4a1edf41ce5, 0x65c863402cabdebaa3bbed5cce37820e1f742c8d8ec89344c4b082a14e1975, 0x5771a46b8c919db0289d00309da8118c998fb4f93ffbc45da7d50b6ede0b5cd8, 0x30189ffe5a67e134b71cc6361237e67d052fdaa5ab69046448c74f8b7cdcd31e, 0x39499758769cf1620c086dc6e2489c32c3a21a1e56d7cfdeb92900970ad16249, 0x36794c5180e5eff7e7591cb64291ce0adfc9ff392cde7719ccf37c8a86a66653, 0x57efe97726cc98cfdc47d63227d621ff699531ad48988b8a76fa5ca6d9279c1e, 0x455dd6d03a38c77666148ac0729939fa7f4454ea25250751bab82330d6b4d7c6, 0x47ac9ba20bc249059193821d3fffc2986a4e4d837108b994514e5b93f4fa12ed, 0x19a1e804081f2d66f33eb6593385bb438a2c5e4e4c3c7d2bdbad72365e36a506, 0x511b86bffb32876c587c0e95708669111b1254806f307f0088f374cabe09077d, 0x4d52c1713386e519b939d273a7ef26f8f525df1d7dba01c24a4474f10c15e34a, 0x2819dad160e337c601419c6b8c8aee0aa3e2b0404eb5a7c4139d74e0b991080f, 0x5daaeeb48ee8f23dcee5b29e87415038e8a53d49a9528c88096469ab9512ea05, 0x6f871b3ff0626930bdc5b88be3ddd524057a89b7f17edb85edef6b5bac84823, 0x487abede309b562316ee47b596abff50af1aa389e5dbd020de3b83fcfa38fd96, 0x712e9656d14134de7c88bd31d3a8da32d7cbacbea0e69f5d112cec6259e7cea2, 0x15c3fd05dc157a3c63aaf1ba85aee6cbce2319dbdb51d3f18d45e9ece9c1aed3, 0xedfe256b3f70e0340370d4584223ddb9d2d34cbdf11b688e33afaa801ef60d7, 0x2f5554aa8ec4ea59644d3515eb4b84db26d04f89411f276c2ed6e2d7bcc08f1d, 0x38c304962c4a3e07c98a37b1587f3e0f5681c8fe9b57be082c3c8333a4ce93ad, 0x33ca3cd3647d2489b7be921f26d93e0dd7a8f6e97d1daa120a0503075072f416, 0x217eaaa216c0f17f0dc83d6f8fc88de347d7c90f872ce98b5724cf68991cf372, 0x6af58147f892537bc491190698346149ea079c2253b74009bacae28ae56d837f, 0x40177333cf210723635c86bb3dab36cb684c7dcf90133da5ff941e6e8df9a5bd, 0x50cdfc8bca905f718f83ff351834cd29593b164e3c47b39bbf9cf4a0fe116bfe, 0x4bd324e80d60d34591d60a3426a6712ebb1af1e8e97bafa01f4a4f80558c65d1, 0x294495e403432f5d1de69645711d0f6e96c17db028868107051b48161c77ecac, 0x6447fef9da47318df8a679b630ed0dacc498b9df891251f0e714af98d8e5f0e8, 0x2f012f72dc446dce7d2276e5578ac2ca26fcc8bc42828faf8b45ce36c84f39e3, 0x5b61a83b7c72c3dc8986e3aa9bc7fa5b50c7b823c9b77b3e78e91e81e6a7feeb]
  cL := [
    [0x4c168b6617b1fbb6cc715d4deac5dd379df98203bb7171107f185fe232c418cb, 0x332a792696ef6cffd68e03ee346a1dfd184b424f0cb295c23648008b937089d5, 0x234e8f02145fa900e1f8b37c130c94f6492acf4144981ca656234fa735f82e3e, 0x6d9f5544852595c40702b519ef5f5564252e9f7ae468d0953d7dca3e94e8cdd4, 0x35d29605058f5787667f1ded6a30eb3a5bc5ad62d68623b5f97db8a4dea16e71, 0xa5f9a9f41ac3a987ffca0202d2b91980eaea05bf37b0f929e095ae011d82c0c, 0x5557a0d990942f8664aab8bf4d19d702b3950fce3af3f0a2ca261b2c3bd8df55, 0x2c6d3e718b92533459a3094ae0bbcce1b8879c7b1554f9850aa234905f4ea01b, 0x5ca98bb676cb5067de9eabbd6ba821cf1cab9b5c6904cae4f5a6dd42125e57d0, 0x7101e9b4b0a5b6152bd8e26dd02f63b19b3fc66ee04e90d20e15e4d6ab13596d, 0x6d7df31ba81d6bef0f47b70ed118ceb3d31b016f5641a1ec490efba64c4fc02f, 0xc8eb2db972eab14f127c2c066f6699dfe5588984729f3ba9c90aaf1ebac30d4, 0x1c3f6d99db0269d39cda02b47f676a4882dc0007edd9a48f9bb1c2e97340b2c3, 0x3e500cb03b0b458658adee03a1b7b6e0295a239bf791495671243d8692185478, 0x5702f14e1c4057cf79c8a521e4eb79b62089351b669dc260e11591c17ca54a05, 0x28fe44de4c15875e4f30984e5bad8c1ccbaf081fc06c8ca29f69eac655632801, 0x3d6f1066f7fd6680a2b82d0d079d36a151ea13e4b1d19e42d32b053845b35d73],
    [0x3146c12b01c7b59c46e3fcd8197e2e0c594deb50f8d16fea7c76ed65d8237555, 0x3c36ea73655112f01a827c8798a2b71a262521601e81a36ee9dd6358579292f8, 0x4b1d5ae6116d08453b5826e8c0b33c54a2530180181220c0b21d95f0b8231286, 0x323cc3fc857d9aaca8e423fdd17b4695d06a32a205a8aeadf5805f6fae710851, 0x1bc75c93230b5d06d6a5dac98430abe859e0b4bce1aee021ee33e8e2a5006741, 0x3ff0ae0d19ff4e9eb1da050695eba786b1dfbe6d08323350bd3042c4fc67560b, 0x2f52d3a6c625e99633cfd56d118850d4462a6a2ca03b40b8ccc78057a62d0866, 0x17f6c77373f85d2ef18b1ec3344f7866fecefe24db1f3d4d5055404760054227, 0x3c9096867986d6f4138d59dcae3f0bc9381679b1fe8f0b54b04435b0dd63aacd, 0x98089ed72f8c7ce0e3e74e0661708352e9983bf32707587effb51cd4f6c8ff9, 0x340683112e5f58673c3d713f534ee13a5c19aca91fc4bbf4a0e594e62e8683e9, 0x1475ff2ebd10cefe555ea444e9032e8bad5c2ded05f9b1d40c53e16e609f70fc, 0x283800fc300152b1d6701c86fccfc54b30db5b1ac444c6fe9ffdbd729977ac5e, 0x47b02299d84b876dbf9125127cad09e9081d4a93b000dc313fe4256a22db9db9, 0x133d854ae78fb643ac7601aee3cb77624bdfd23a567448d7fee1e2bb900e7328, 0x6868e7e5e4fbdd114bfa3a8ee00c5578a4d6038b0266c0cf43fb69ea4938608d, 0x5bdfc43a7ad64a35d3a20a0157482862d57950207c8b7a361aff212744bbe1e9],
    [0x18e0616f4ce5571061b33367d4f96ceb36ed08bef877cf130f92baac652ae063, 0xe060f32a15356f5ee6a83ed2eb5c5d65d86fa73b998098cec5f3e31c4b50146, 0x9d735a520dc7b42767d66090c1bbe9cb0ad1922291f09061940568541755b87, 0x5f9d2e1dcb041195d0573b61d4fc53e11d0e7770ec2d2a475c73b3d32bf2d65, 0x6a68338586aa56029c929d81f4a06ca1c5fde0cec0b0bdf7afa3c032cd567e62, 0x6f9239b4e2e127fa52c9fcfef3ac94b2934796786c2478317276384ad6502940, 0x7220d40251953831df93876c4b21dc3bf12651ee8788ddefe9989dbc5128e2ca, 0x6d0add8ba452ec48dafde658c925c7350d339c1e09e113a5d067f5b98c1b44ca, 0x3c936db4d3506b7bfad94bdbf86c9db299681699263150bb6601e6d7da113644, 0x30c5aff27fee46d143bbf6758039a7faf4e786f0a1b1b6dbe0d47d4846a49bd9, 0x437a2b64797d701c62939689b80894048835902f8f825c307e8eb6d7872c367b, 0x16125825f9e0edda41e20dec4bc6d39349870276c9b5ce5be0ab0df90b06b31c, 0x516f602f4029f18c25cdcb0c95aebd7120924a4b954ff64124ff908a8881c4b3, 0x718b890d3f81adc645178cd26e263a1805e403a8bbf927b527f7ebbecf7c3498, 0x29cb4a6fee2892a111476941972c0cc706eabf31f30e84b1075374a9659deb38, 0x7680a5c42ee4faf099f2001032d8e7837c7b9d4452944768ec83ca540172798, 0x4c70f74e1b70614409c3b21ed21c76ebb437803ac7d129856d8d93ddfa6ea35f]]
  m := [
    [0x1b46fa31af7059b6a2a432d4b6f8e788c868db4bffff9d2cf0f0f0f0b4b4b4b5, 0x46d8580827a75ac891152076b08d923c24f3e43ab8e28d8d9c71c71bd5555556, 0x6dd3abfdf187ba0e815f38736770e79941dc14a486bb13c9286bca1a00000001, 0x1163a5e6130ad2cad47be0679b0b7a00cc8fa566d9995a99733333330ccccccd, 0xb0a7175a27085d61d427619257d20c38e120f9ec30c08c2f3cf3cf3b6db6db7, 0x6ea8ab5b04d08339482b9407ac1a7cbf444c4b1a22e72944dd1745d080000001, 0x64cea7c2c00361cf7a7514e599124c8a328ea4e137a587a61642c8582c8590b3, 0x6f1915afb28c42ba866cc45d093b19afc595bd2d8aa91829b555555460000001, 0x6aa770fa96ed0cdc062af9f2ea24419e803dd454ae12f879f5c28f5b3d70a3d8, 0x310bee2d07c2a14fc6e73ddc04133ddade81769ecec43a9d1d89d89d1d89d89e, 0x896583f0c9068184fa5784c727dc426520e0c2625ecea5ebda12f6838e38e39, 0x5f3a1296990a8256bc5d3a98e3573a96a95bc6b95247cb9176db6db60924924a, 0x6beeeb3bc5a44881038e2168963594284523521472c0aded69ee5845b08d3dcc, 0x58e0de26287035620523d04a6dc8e1596ade30f13bba79baf7777776b3333334, 0x21a817cdd2467f35fe5b1dafc0bb5fbf7b689af89ce6bfdead6b5ad66b5ad6b6, 0x704e3a189050915df1a00947c954c945291fb6e2e7fe691f07ffffff08000001, 0x706a54adbbbf813e4130555d209cf08149721367c1eee4d83e0f83e000000001],
    [0x46d8580827a75ac891152076b08d923c24f3e43ab8e28d8d9c71c71bd5555556, 0x6dd3abfdf187ba0e815f38736770e79941dc14a486bb13c9286bca1a00000001, 0x1163a5e6130ad2cad47be0679b0b7a00cc8fa566d9995a99733333330ccccccd, 0xb0a7175a27085d61d427619257d20c38e120f9ec30c08c2f3cf3cf3b6db6db7, 0x6ea8ab5b04d08339482b9407ac1a7cbf444c4b1a22e72944dd1745d080000001, 0x64cea7c2c00361cf7a7514e599124c8a328ea4e137a587a61642c8582c8590b3, 0x6f1915afb28c42ba866cc45d093b19afc595bd2d8aa91829b555555460000001, 0x6aa770fa96ed0cdc062af9f2ea24419e803dd454ae12f879f5c28f5b3d70a3d8, 0x310bee2d07c2a14fc6e73ddc04133ddade81769ecec43a9d1d89d89d1d89d89e, 0x896583f0c9068184fa5784c727dc426520e0c2625ecea5ebda12f6838e38e39, 0x5f3a1296990a8256bc5d3a98e3573a96a95bc6b95247cb9176db6db60924924a, 0x6beeeb3bc5a44881038e2168963594284523521472c0aded69ee5845b08d3dcc, 0x58e0de26287035620523d04a6dc8e1596ade30f13bba79baf7777776b3333334, 0x21a817cdd2467f35fe5b1dafc0bb5fbf7b689af89ce6bfdead6b5ad66b5ad6b6, 0x704e3a189050915df1a00947c954c945291fb6e2e7fe691f07ffffff08000001, 0x706a54adbbbf813e4130555d209cf08149721367c1eee4d83e0f83e000000001, 0x479a50c26c86eb7f6aef056e604d5fc70e133fa77ffefc95f8787877da5a5a5b],
    [0x6dd3abfdf187ba0e815f38736770e79941dc14a486bb13c9286bca1a00000001, 0x1163a5e6130ad2cad47be0679b0b7a00cc8fa566d9995a99733333330ccccccd, 0xb0a7175a27085d61d427619257d20c38e120f9ec30c08c2f3cf3cf3b6db6db7, 0x6ea8ab5b04d08339482b9407ac1a7cbf444c4b1a22e72944dd1745d080000001, 0x64cea7c2c00361cf7a7514e599124c8a328ea4e137a587a61642c8582c8590b3, 0x6f1915afb28c42ba866cc45d093b19afc595bd2d8aa91829b555555460000001, 0x6aa770fa96ed0cdc062af9f2ea24419e803dd454ae12f879f5c28f5b3d70a3d8, 0x310bee2d07c2a14fc6e73ddc04133ddade81769ecec43a9d1d89d89d1d89d89e, 0x896583f0c9068184fa5784c727dc426520e0c2625ecea5ebda12f6838e38e39, 0x5f3a1296990a8256bc5d3a98e3573a96a95bc6b95247cb9176db6db60924924a, 0x6beeeb3bc5a44881038e2168963594284523521472c0aded69ee5845b08d3dcc, 0x58e0de26287035620523d04a6dc8e1596ade30f13bba79baf7777776b3333334, 0x21a817cdd2467f35fe5b1dafc0bb5fbf7b689af89ce6bfdead6b5ad66b5ad6b6, 0x704e3a189050915df1a00947c954c945291fb6e2e7fe691f07ffffff08000001, 0x706a54adbbbf813e4130555d209cf08149721367c1eee4d83e0f83e000000001, 0x479a50c26c86eb7f6aef056e604d5fc70e133fa77ffefc95f8787877da5a5a5b, 0x4c2e7545473b9b7896b0fbad82ac2edeede305610e9fd60df8af8af807507508],
    [0x1163a5e6130ad2cad47be0679b0b7a00cc8fa566d9995a99733333330ccccccd, 0xb0a7175a27085d61d427619257d20c38e120f9ec30c08c2f3cf3cf3b6db6db7, 0x6ea8ab5b04d08339482b9407ac1a7cbf444c4b1a22e72944dd1745d080000001, 0x64cea7c2c00361cf7a7514e599124c8a328ea4e137a587a61642c8582c8590b3, 0x6f1915afb28c42ba866cc45d093b19afc595bd2d8aa91829b555555460000001, 0x6aa770fa96ed0cdc062af9f2ea24419e803dd454ae12f879f5c28f5b3d70a3d8, 0x310bee2d07c2a14fc6e73ddc04133ddade81769ecec43a9d1d89d89d1d89d89e, 0x896583f0c9068184fa5784c727dc426520e0c2625ecea5ebda12f6838e38e39, 0x5f3a1296990a8256bc5d3a98e3573a96a95bc6b95247cb9176db6db60924924a, 0x6beeeb3bc5a44881038e2168963594284523521472c0aded69ee5845b08d3dcc, 0x58e0de26287035620523d04a6dc8e1596ade30f13bba79baf7777776b3333334, 0x21a817cdd2467f35fe5b1dafc0bb5fbf7b689af89ce6bfdead6b5ad66b5ad6b6, 0x704e3a189050915df1a00947c954c945291fb6e2e7fe691f07ffffff08000001, 0x706a54adbbbf813e4130555d209cf08149721367c1eee4d83e0f83e000000001, 0x479a50c26c86eb7f6aef056e604d5fc70e133fa77ffefc95f8787877da5a5a5b, 0x4c2e7545473b9b7896b0fbad82ac2edeede305610e9fd60df8af8af807507508, 0x236c2c0413d3ad64488a903b5846c91e1279f21d5c7146c6ce38e38deaaaaaab],
    [0xb0a7175a27085d61d427619257d20c38e120f9ec30c08c2f3cf3cf3b6db6db7, 0x6ea8ab5b04d08339482b9407ac1a7cbf444c4b1a22e72944dd1745d080000001, 0x64cea7c2c00361cf7a7514e599124c8a328ea4e137a587a61642c8582c8590b3, 0x6f1915afb28c42ba866cc45d093b19afc595bd2d8aa91829b555555460000001, 0x6aa770fa96ed0cdc062af9f2ea24419e803dd454ae12f879f5c28f5b3d70a3d8, 0x310bee2d07c2a14fc6e73ddc04133ddade81769ecec43a9d1d89d89d1d89d89e, 0x896583f0c9068184fa5784c727dc426520e0c2625ecea5ebda12f6838e38e39, 0x5f3a1296990a8256bc5d3a98e3573a96a95bc6b95247cb9176db6db60924924a, 0x6beeeb3bc5a44881038e2168963594284523521472c0aded69ee5845b08d3dcc, 0x58e0de26287035620523d04a6dc8e1596ade30f13bba79baf7777776b3333334, 0x21a817cdd2467f35fe5b1dafc0bb5fbf7b689af89ce6bfdead6b5ad66b5ad6b6, 0x704e3a189050915df1a00947c954c945291fb6e2e7fe691f07ffffff08000001, 0x706a54adbbbf813e4130555d209cf08149721367c1eee4d83e0f83e000000001, 0x479a50c26c86eb7f6aef056e604d5fc70e133fa77ffefc95f8787877da5a5a5b, 0x4c2e7545473b9b7896b0fbad82ac2edeede305610e9fd60df8af8af807507508, 0x236c2c0413d3ad64488a903b5846c91e1279f21d5c7146c6ce38e38deaaaaaab, 0x12cc97ac9ef6f1b8ae5c6838a79db453e410ea29ffffbbe42983759ef914c1bb],
    [0x6ea8ab5b04d08339482b9407ac1a7cbf444c4b1a22e72944dd1745d080000001, 0x64cea7c2c00361cf7a7514e599124c8a328ea4e137a587a61642c8582c8590b3, 0x6f1915afb28c42ba866cc45d093b19afc595bd2d8aa91829b555555460000001, 0x6aa770fa96ed0cdc062af9f2ea24419e803dd454ae12f879f5c28f5b3d70a3d8, 0x310bee2d07c2a14fc6e73ddc04133ddade81769ecec43a9d1d89d89d1d89d89e, 0x896583f0c9068184fa5784c727dc426520e0c2625ecea5ebda12f6838e38e39, 0x5f3a1296990a8256bc5d3a98e3573a96a95bc6b95247cb9176db6db60924924a, 0x6beeeb3bc5a44881038e2168963594284523521472c0aded69ee5845b08d3dcc, 0x58e0de26287035620523d04a6dc8e1596ade30f13bba79baf7777776b3333334, 0x21a817cdd2467f35fe5b1dafc0bb5fbf7b689af89ce6bfdead6b5ad66b5ad6b6, 0x704e3a189050915df1a00947c954c945291fb6e2e7fe691f07ffffff08000001, 0x706a54adbbbf813e4130555d209cf08149721367c1eee4d83e0f83e000000001, 0x479a50c26c86eb7f6aef056e604d5fc70e133fa77ffefc95f8787877da5a5a5b, 0x4c2e7545473b9b7896b0fbad82ac2edeede305610e9fd60df8af8af807507508, 0x236c2c0413d3ad64488a903b5846c91e1279f21d5c7146c6ce38e38deaaaaaab, 0x12cc97ac9ef6f1b8ae5c6838a79db453e410ea29ffffbbe42983759ef914c1bb, 0x70e0a9a88d929bab5a4c883db8895fcf4accdc53c35cb7e41435e50c80000001],
    [0x64cea7c2c00361cf7a7514e599124c8a328ea4e137a587a61642c8582c8590b3, 0x6f1915afb28c42ba866cc45d093b19afc595bd2d8aa91829b555555460000001, 0x6aa770fa96ed0cdc062af9f2ea24419e803dd454ae12f879f5c28f5b3d70a3d8, 0x310bee2d07c2a14fc6e73ddc04133ddade81769ecec43a9d1d89d89d1d89d89e, 0x896583f0c9068184fa5784c727dc426520e0c2625ecea5ebda12f6838e38e39, 0x5f3a1296990a8256bc5d3a98e3573a96a95bc6b95247cb9176db6db60924924a, 0x6beeeb3bc5a44881038e2168963594284523521472c0aded69ee5845b08d3dcc, 0x58e0de26287035620523d04a6dc8e1596ade30f13bba79baf7777776b3333334, 0x21a817cdd2467f35fe5b1dafc0bb5fbf7b689af89ce6bfdead6b5ad66b5ad6b6, 0x704e3a189050915df1a00947c954c945291fb6e2e7fe691f07ffffff08000001, 0x706a54adbbbf813e4130555d209cf08149721367c1eee4d83e0f83e000000001, 0x479a50c26c86eb7f6aef056e604d5fc70e133fa77ffefc95f8787877da5a5a5b, 0x4c2e7545473b9b7896b0fbad82ac2edeede305610e9fd60df8af8af807507508, 0x236c2c0413d3ad64488a903b5846c91e1279f21d5c7146c6ce38e38deaaaaaab, 0x12cc97ac9ef6f1b8ae5c6838a79db453e410ea29ffffbbe42983759ef914c1bb, 0x70e0a9a88d929bab5a4c883db8895fcf4accdc53c35cb7e41435e50c80000001, 0x20b29ec8afd716352f44d3e802b77e91e9aba469df2d7c68be5be5be13b13b14],
    [0x6f1915afb28c42ba866cc45d093b19afc595bd2d8aa91829b555555460000001, 0x6aa770fa96ed0cdc062af9f2ea24419e803dd454ae12f879f5c28f5b3d70a3d8, 0x310bee2d07c2a14fc6e73ddc04133ddade81769ecec43a9d1d89d89d1d89d89e, 0x896583f0c9068184fa5784c727dc426520e0c2625ecea5ebda12f6838e38e39, 0x5f3a1296990a8256bc5d3a98e3573a96a95bc6b95247cb9176db6db60924924a, 0x6beeeb3bc5a44881038e2168963594284523521472c0aded69ee5845b08d3dcc, 0x58e0de26287035620523d04a6dc8e1596ade30f13bba79baf7777776b3333334, 0x21a817cdd2467f35fe5b1dafc0bb5fbf7b689af89ce6bfdead6b5ad66b5ad6b6, 0x704e3a189050915df1a00947c954c945291fb6e2e7fe691f07ffffff08000001, 0x706a54adbbbf813e4130555d209cf08149721367c1eee4d83e0f83e000000001, 0x479a50c26c86eb7f6aef056e604d5fc70e133fa77ffefc95f8787877da5a5a5b, 0x4c2e7545473b9b7896b0fbad82ac2edeede305610e9fd60df8af8af807507508, 0x236c2c0413d3ad64488a903b5846c91e1279f21d5c7146c6ce38e38deaaaaaab, 0x12cc97ac9ef6f1b8ae5c6838a79db453e410ea29ffffbbe42983759ef914c1bb, 0x70e0a9a88d929bab5a4c883db8895fcf4accdc53c35cb7e41435e50c80000001, 0x20b29ec8afd716352f44d3e802b77e91e9aba469df2d7c68be5be5be13b13b14, 0x42a8a69c9e54280983dadc37d256a9031026a4b4eccbdb4c3999999906666667],
    [0x6aa770fa96ed0cdc062af9f2ea24419e803dd454ae12f879f5c28f5b3d70a3d8, 0x310bee2d07c2a14fc6e73ddc04133ddade81769ecec43a9d1d89d89d1d89d89e, 0x896583f0c9068184fa5784c727dc426520e0c2625ecea5ebda12f6838e38e39, 0x5f3a1296990a8256bc5d3a98e3573a96a95bc6b95247cb9176db6db60924924a, 0x6beeeb3bc5a44881038e2168963594284523521472c0aded69ee5845b08d3dcc, 0x58e0de26287035620523d04a6dc8e1596ade30f13bba79baf7777776b3333334, 0x21a817cdd2467f35fe5b1dafc0bb5fbf7b689af89ce6bfdead6b5ad66b5ad6b6, 0x704e3a189050915df1a00947c954c945291fb6e2e7fe691f07ffffff08000001, 0x706a54adbbbf813e4130555d209cf08149721367c1eee4d83e0f83e000000001, 0x479a50c26c86eb7f6aef056e604d5fc70e133fa77ffefc95f8787877da5a5a5b, 0x4c2e7545473b9b7896b0fbad82ac2edeede305610e9fd60df8af8af807507508, 0x236c2c0413d3ad64488a903b5846c91e1279f21d5c7146c6ce38e38deaaaaaab, 0x12cc97ac9ef6f1b8ae5c6838a79db453e410ea29ffffbbe42983759ef914c1bb, 0x70e0a9a88d929bab5a4c883db8895fcf4accdc53c35cb7e41435e50c80000001, 0x20b29ec8afd716352f44d3e802b77e91e9aba469df2d7c68be5be5be13b13b14, 0x42a8a69c9e54280983dadc37d256a9031026a4b4eccbdb4c3999999906666667, 0x87b891f0f8866d354eb41c2262b0fce7046123ea895bbcdf9c18f9c063e7064],
    [0x310bee2d07c2a14fc6e73ddc04133ddade81769ecec43a9d1d89d89d1d89d89e, 0x896583f0c9068184fa5784c727dc426520e0c2625ecea5ebda12f6838e38e39, 0x5f3a1296990a8256bc5d3a98e3573a96a95bc6b95247cb9176db6db60924924a, 0x6beeeb3bc5a44881038e2168963594284523521472c0aded69ee5845b08d3dcc, 0x58e0de26287035620523d04a6dc8e1596ade30f13bba79baf7777776b3333334, 0x21a817cdd2467f35fe5b1dafc0bb5fbf7b689af89ce6bfdead6b5ad66b5ad6b6, 0x704e3a189050915df1a00947c954c945291fb6e2e7fe691f07ffffff08000001, 0x706a54adbbbf813e4130555d209cf08149721367c1eee4d83e0f83e000000001, 0x479a50c26c86eb7f6aef056e604d5fc70e133fa77ffefc95f8787877da5a5a5b, 0x4c2e7545473b9b7896b0fbad82ac2edeede305610e9fd60df8af8af807507508, 0x236c2c0413d3ad64488a903b5846c91e1279f21d5c7146c6ce38e38deaaaaaab, 0x12cc97ac9ef6f1b8ae5c6838a79db453e410ea29ffffbbe42983759ef914c1bb, 0x70e0a9a88d929bab5a4c883db8895fcf4accdc53c35cb7e41435e50c80000001, 0x20b29ec8afd716352f44d3e802b77e91e9aba469df2d7c68be5be5be13b13b14, 0x42a8a69c9e54280983dadc37d256a9031026a4b4eccbdb4c3999999906666667, 0x87b891f0f8866d354eb41c2262b0fce7046123ea895bbcdf9c18f9c063e7064, 0x3f7c0c646607018f283e2710978f7c6470e7d9d0e1853260f9e79e795b6db6dc],
    [0x896583f0c9068184fa5784c727dc426520e0c2625ecea5ebda12f6838e38e39, 0x5f3a1296990a8256bc5d3a98e3573a96a95bc6b95247cb9176db6db60924924a, 0x6beeeb3bc5a44881038e2168963594284523521472c0aded69ee5845b08d3dcc, 0x58e0de26287035620523d04a6dc8e1596ade30f13bba79baf7777776b3333334, 0x21a817cdd2467f35fe5b1dafc0bb5fbf7b689af89ce6bfdead6b5ad66b5ad6b6, 0x704e3a189050915df1a00947c954c945291fb6e2e7fe691f07ffffff08000001, 0x706a54adbbbf813e4130555d209cf08149721367c1eee4d83e0f83e000000001, 0x479a50c26c86eb7f6aef056e604d5fc70e133fa77ffefc95f8787877da5a5a5b, 0x4c2e7545473b9b7896b0fbad82ac2edeede305610e9fd60df8af8af807507508, 0x236c2c0413d3ad64488a903b5846c91e1279f21d5c7146c6ce38e38deaaaaaab, 0x12cc97ac9ef6f1b8ae5c6838a79db453e410ea29ffffbbe42983759ef914c1bb, 0x70e0a9a88d929bab5a4c883db8895fcf4accdc53c35cb7e41435e50c80000001, 0x20b29ec8afd716352f44d3e802b77e91e9aba469df2d7c68be5be5be13b13b14, 0x42a8a69c9e54280983dadc37d256a9031026a4b4eccbdb4c3999999906666667, 0x87b891f0f8866d354eb41c2262b0fce7046123ea895bbcdf9c18f9c063e7064, 0x3f7c0c646607018f283e2710978f7c6470e7d9d0e1853260f9e79e795b6db6dc, 0x3e021802ced14302e5d18b5d99fd43eb0912163d23b7ae3affffffff7711dc48],
    [0x5f3a1296990a8256bc5d3a98e3573a96a95bc6b95247cb9176db6db60924924a, 0x6beeeb3bc5a44881038e2168963594284523521472c0aded69ee5845b08d3dcc, 0x58e0de26287035620523d04a6dc8e1596ade30f13bba79baf7777776b3333334, 0x21a817cdd2467f35fe5b1dafc0bb5fbf7b689af89ce6bfdead6b5ad66b5ad6b6, 0x704e3a189050915df1a00947c954c945291fb6e2e7fe691f07ffffff08000001, 0x706a54adbbbf813e4130555d209cf08149721367c1eee4d83e0f83e000000001, 0x479a50c26c86eb7f6aef056e604d5fc70e133fa77ffefc95f8787877da5a5a5b, 0x4c2e7545473b9b7896b0fbad82ac2edeede305610e9fd60df8af8af807507508, 0x236c2c0413d3ad64488a903b5846c91e1279f21d5c7146c6ce38e38deaaaaaab, 0x12cc97ac9ef6f1b8ae5c6838a79db453e410ea29ffffbbe42983759ef914c1bb, 0x70e0a9a88d929bab5a4c883db8895fcf4accdc53c35cb7e41435e50c80000001, 0x20b29ec8afd716352f44d3e802b77e91e9aba469df2d7c68be5be5be13b13b14, 0x42a8a69c9e54280983dadc37d256a9031026a4b4eccbdb4c3999999906666667, 0x87b891f0f8866d354eb41c2262b0fce7046123ea895bbcdf9c18f9c063e7064, 0x3f7c0c646607018f283e2710978f7c6470e7d9d0e1853260f9e79e795b6db6dc, 0x3e021802ced14302e5d18b5d99fd43eb0912163d23b7ae3affffffff7711dc48, 0x714b295717370040bdb2b607dade2a624c04f78e9172c2a1ee8ba2e7c0000001],
    [0x6beeeb3bc5a44881038e2168963594284523521472c0aded69ee5845b08d3dcc, 0x58e0de26287035620523d04a6dc8e1596ade30f13bba79baf7777776b3333334, 0x21a817cdd2467f35fe5b1dafc0bb5fbf7b689af89ce6bfdead6b5ad66b5ad6b6, 0x704e3a189050915df1a00947c954c945291fb6e2e7fe691f07ffffff08000001, 0x706a54adbbbf813e4130555d209cf08149721367c1eee4d83e0f83e000000001, 0x479a50c26c86eb7f6aef056e604d5fc70e133fa77ffefc95f8787877da5a5a5b, 0x4c2e7545473b9b7896b0fbad82ac2edeede305610e9fd60df8af8af807507508, 0x236c2c0413d3ad64488a903b5846c91e1279f21d5c7146c6ce38e38deaaaaaab, 0x12cc97ac9ef6f1b8ae5c6838a79db453e410ea29ffffbbe42983759ef914c1bb, 0x70e0a9a88d929bab5a4c883db8895fcf4accdc53c35cb7e41435e50c80000001, 0x20b29ec8afd716352f44d3e802b77e91e9aba469df2d7c68be5be5be13b13b14, 0x42a8a69c9e54280983dadc37d256a9031026a4b4eccbdb4c3999999906666667, 0x87b891f0f8866d354eb41c2262b0fce7046123ea895bbcdf9c18f9c063e7064, 0x3f7c0c646607018f283e2710978f7c6470e7d9d0e1853260f9e79e795b6db6dc, 0x3e021802ced14302e5d18b5d99fd43eb0912163d23b7ae3affffffff7711dc48, 0x714b295717370040bdb2b607dade2a624c04f78e9172c2a1ee8ba2e7c0000001, 0x61e5213528d4a2aebf2b28344c6688e80dd3574c7d266fd1a4fa4fa422222223],
    [0x58e0de26287035620523d04a6dc8e1596ade30f13bba79baf7777776b3333334, 0x21a817cdd2467f35fe5b1dafc0bb5fbf7b689af89ce6bfdead6b5ad66b5ad6b6, 0x704e3a189050915df1a00947c954c945291fb6e2e7fe691f07ffffff08000001, 0x706a54adbbbf813e4130555d209cf08149721367c1eee4d83e0f83e000000001, 0x479a50c26c86eb7f6aef056e604d5fc70e133fa77ffefc95f8787877da5a5a5b, 0x4c2e7545473b9b7896b0fbad82ac2edeede305610e9fd60df8af8af807507508, 0x236c2c0413d3ad64488a903b5846c91e1279f21d5c7146c6ce38e38deaaaaaab, 0x12cc97ac9ef6f1b8ae5c6838a79db453e410ea29ffffbbe42983759ef914c1bb, 0x70e0a9a88d929bab5a4c883db8895fcf4accdc53c35cb7e41435e50c80000001, 0x20b29ec8afd716352f44d3e802b77e91e9aba469df2d7c68be5be5be13b13b14, 0x42a8a69c9e54280983dadc37d256a9031026a4b4eccbdb4c3999999906666667, 0x87b891f0f8866d354eb41c2262b0fce7046123ea895bbcdf9c18f9c063e7064, 0x3f7c0c646607018f283e2710978f7c6470e7d9d0e1853260f9e79e795b6db6dc, 0x3e021802ced14302e5d18b5d99fd43eb0912163d23b7ae3affffffff7711dc48, 0x714b295717370040bdb2b607dade2a624c04f78e9172c2a1ee8ba2e7c0000001, 0x61e5213528d4a2aebf2b28344c6688e80dd3574c7d266fd1a4fa4fa422222223, 0x6c5e278af4d06f8bd6d77676d15a1247c32624721bd1f1d28b21642b9642c85a],
    [0x21a817cdd2467f35fe5b1dafc0bb5fbf7b689af89ce6bfdead6b5ad66b5ad6b6, 0x704e3a189050915df1a00947c954c945291fb6e2e7fe691f07ffffff08000001, 0x706a54adbbbf813e4130555d209cf08149721367c1eee4d83e0f83e000000001, 0x479a50c26c86eb7f6aef056e604d5fc70e133fa77ffefc95f8787877da5a5a5b, 0x4c2e7545473b9b7896b0fbad82ac2edeede305610e9fd60df8af8af807507508, 0x236c2c0413d3ad64488a903b5846c91e1279f21d5c7146c6ce38e38deaaaaaab, 0x12cc97ac9ef6f1b8ae5c6838a79db453e410ea29ffffbbe42983759ef914c1bb, 0x70e0a9a88d929bab5a4c883db8895fcf4accdc53c35cb7e41435e50c80000001, 0x20b29ec8afd716352f44d3e802b77e91e9aba469df2d7c68be5be5be13b13b14, 0x42a8a69c9e54280983dadc37d256a9031026a4b4eccbdb4c3999999906666667, 0x87b891f0f8866d354eb41c2262b0fce7046123ea895bbcdf9c18f9c063e7064, 0x3f7c0c646607018f283e2710978f7c6470e7d9d0e1853260f9e79e795b6db6dc, 0x3e021802ced14302e5d18b5d99fd43eb0912163d23b7ae3affffffff7711dc48, 0x714b295717370040bdb2b607dade2a624c04f78e9172c2a1ee8ba2e7c0000001, 0x61e5213528d4a2aebf2b28344c6688e80dd3574c7d266fd1a4fa4fa422222223, 0x6c5e278af4d06f8bd6d77676d15a1247c32624721bd1f1d28b21642b9642c85a, 0x766517d23564ece23f35a0b681aabbefa739815fa8d8326105726209df51b3c],
    [0x704e3a189050915df1a00947c954c945291fb6e2e7fe691f07ffffff08000001, 0x706a54adbbbf813e4130555d209cf08149721367c1eee4d83e0f83e000000001, 0x479a50c26c86eb7f6aef056e604d5fc70e133fa77ffefc95f8787877da5a5a5b, 0x4c2e7545473b9b7896b0fbad82ac2edeede305610e9fd60df8af8af807507508, 0x236c2c0413d3ad64488a903b5846c91e1279f21d5c7146c6ce38e38deaaaaaab, 0x12cc97ac9ef6f1b8ae5c6838a79db453e410ea29ffffbbe42983759ef914c1bb, 0x70e0a9a88d929bab5a4c883db8895fcf4accdc53c35cb7e41435e50c80000001, 0x20b29ec8afd716352f44d3e802b77e91e9aba469df2d7c68be5be5be13b13b14, 0x42a8a69c9e54280983dadc37d256a9031026a4b4eccbdb4c3999999906666667, 0x87b891f0f8866d354eb41c2262b0fce7046123ea895bbcdf9c18f9c063e7064, 0x3f7c0c646607018f283e2710978f7c6470e7d9d0e1853260f9e79e795b6db6dc, 0x3e021802ced14302e5d18b5d99fd43eb0912163d23b7ae3affffffff7711dc48, 0x714b295717370040bdb2b607dade2a624c04f78e9172c2a1ee8ba2e7c0000001, 0x61e5213528d4a2aebf2b28344c6688e80dd3574c7d266fd1a4fa4fa422222223, 0x6c5e278af4d06f8bd6d77676d15a1247c32624721bd1f1d28b21642b9642c85a, 0x766517d23564ece23f35a0b681aabbefa739815fa8d8326105726209df51b3c, 0x71835e816e14e0015cd34e32896e78da8ca9b0984553ba145aaaaaa9b0000001],
    [0x706a54adbbbf813e4130555d209cf08149721367c1eee4d83e0f83e000000001, 0x479a50c26c86eb7f6aef056e604d5fc70e133fa77ffefc95f8787877da5a5a5b, 0x4c2e7545473b9b7896b0fbad82ac2edeede305610e9fd60df8af8af807507508, 0x236c2c0413d3ad64488a903b5846c91e1279f21d5c7146c6ce38e38deaaaaaab, 0x12cc97ac9ef6f1b8ae5c6838a79db453e410ea29ffffbbe42983759ef914c1bb, 0x70e0a9a88d929bab5a4c883db8895fcf4accdc53c35cb7e41435e50c80000001, 0x20b29ec8afd716352f44d3e802b77e91e9aba469df2d7c68be5be5be13b13b14, 0x42a8a69c9e54280983dadc37d256a9031026a4b4eccbdb4c3999999906666667, 0x87b891f0f8866d354eb41c2262b0fce7046123ea895bbcdf9c18f9c063e7064, 0x3f7c0c646607018f283e2710978f7c6470e7d9d0e1853260f9e79e795b6db6dc, 0x3e021802ced14302e5d18b5d99fd43eb0912163d23b7ae3affffffff7711dc48, 0x714b295717370040bdb2b607dade2a624c04f78e9172c2a1ee8ba2e7c0000001, 0x61e5213528d4a2aebf2b28344c6688e80dd3574c7d266fd1a4fa4fa422222223, 0x6c5e278af4d06f8bd6d77676d15a1247c32624721bd1f1d28b21642b9642c85a, 0x766517d23564ece23f35a0b681aabbefa739815fa8d8326105726209df51b3c, 0x71835e816e14e0015cd34e32896e78da8ca9b0984553ba145aaaaaa9b0000001, 0x5789a824ac7c25219ed8161084a93aa0c1d857462f03fc52d6343eb0e0a72f06]]
  p := [
    [0x1b46fa31af7059b6a2a432d4b6f8e788c868db4bffff9d2cf0f0f0f0b4b4b4b5, 0x5ef859be45e97d4580ad38c7a7d826313a326d1d2d9581422e0d24a0877e9b48, 0xf7fd6f66cfbf881f04c6586eb30933c2b1eabb30c32ac2480cb46540502beb9, 0x1d31297ad5a88a17699cf548e7c419ab12521034f4da65c7b770dc668cd0029f, 0x1fa38ca7e6b5f18501e15ac96d3eedf06e47f1a1d8457ad4d70c012ade92c142, 0x63a4867b847283b33a7f707588136330c25f01c85095d4b216f6bbf9dbc9ea55, 0x3d9f6c224e9b0b478bca430aa946d4ea67c7349553d35c88da7828a5341e8229, 0x2ee02da0cade913d22f8f8474594404a69bfaf09838a302427ec8247521b24de, 0x6e82981674ee914c1b889ce2bf0ff26b05de628a6acd4cd59e973db60279ef77, 0x53021ace3eb94adebf6a47abeac294369aa8410f70636fca7a03bc83071c811f, 0x64e5e6c353a09e9b872642b412b2954bc08f6e4d14ab7411257641737861ad21, 0x6198e1fa98a5e90b96f9f76ba1f2c12691e0860ea5742c53877c18b41d1242cf, 0x4ea5b205c227f329a6aa881ecf4d651905413c7cd10ddabefc44c43b7e55eb71, 0x3ea5b4bbc3ec5c211a39babdf9c2bd983304956d079b0c2c2cb8c71ac7ee2a64, 0x2f923506b57cf6bbc8d732a7f34247aaa67379038ab6a56e1e017ccc4039968e, 0x58e66c9fc5a7d34c837a89ec26681fafd9fd5b505ec0a0b67f60683422da167b, 0x26c1a1e0afde446e5c95a49d22419b325522590531dd6f1be9640a0b558c930f],
    [0x46d8580827a75ac891152076b08d923c24f3e43ab8e28d8d9c71c71bd5555556, 0x126e03355e425ec1841b23130f6ec8b28b81dcfac43a560c7d7baf4f4ef80b67, 0x385c9437c018789480a2df32fec39b4e35bdbfb9f08731a37cf5d7fdc683ade8, 0x1835269b56a965bbab6ceaf52cd4f28b0c1ed6be1f74b4e66a5ca5887e310dc6, 0x4ce0e3b98b538a80ec9d93de00fe7b1509156c3b756c48da00494386364f4401, 0x67bd5ed3dc386a715a890fa5e02b3c0ef4243b6e1135a430fdf1673b93c21be8, 0x32c1844671b4811395a997fbce5bfd0d53fd648c9af180d6656d0367d1fe5a4d, 0x1c2f9d7e0902b3b72dc5654bf3a1ff5002e56dfa93d3eb03aea77fae24ef9936, 0x6f18e374102aa62c238f5dd8b002326edb53f66a79c2b8aa482454a71edab650, 0x5a207f214710b4882ea1f05d69f98276065bbbfccca3e1a2cedb00dcb2b14b30, 0x70de9f4ea8eab9d7050b1677e36be2d828fc3ae371c88cd9e231ba23cedc6798, 0x3e7ed1ee7c63be7a98a2cf31c3899af73dc4992d4e2788ef9047d1181e2b1fe2, 0x230923bc7c09fc74ba7d9d9dcd55064318d336661c76e7f2769dc010db15e55e, 0x1be359ce975123528779b191add86308f8838300446633af3a3abbad89ab1794, 0x61f21b9b6c8c59ba93678ed59d9164b0822ea783afcbb40d25e4573a268a97a5, 0x5cb1316785fb85465743bcc1df31b453ac60bb4cc0552dd28f9011a890471261, 0x33c24ad76e637c9fedcad7f93a155295f7e9cf347cc585c3d3130f0384fb3975],
    [0x6dd3abfdf187ba0e815f38736770e79941dc14a486bb13c9286bca1a00000001, 0x385c9437c018789480a2df32fec39b4e35bdbfb9f08731a37cf5d7fdc683ade8, 0x56a356b49d9ad2a1aa42e803e5789b16d4a14fc312b374d571b30ceb76539b0f, 0x102a118830497c16c0ac299fb71932823a4fb16da0def5133db79d0434ed5933, 0x4f2c76c643240aaee7bbeb7c153f60d1f96a8f3a2bb63b0ec67608a579b98167, 0x10cd24cf0b8c12b55b9df0d4bdc789673b59d242180eb7adecd633c655ddd7cb, 0x6bdd57e41c70896dec0b1e76b1f086fe232dd62bcb766866f100fb1cfb59e56b, 0x4570e1e96fe7081865de01e83e9d91db9a3808f12ab395eee8074ca19a9f47df, 0x5614ba096bfc5e7557679ed89f59b40fa5d13fd286d2338d4cac6afdaf933178, 0x1b29b8766c1059b36c1273eb8bf989513a81991575b8bfeaeb3a2ad6091264d9, 0x24eb1856469251ef7046191e4f684ff28f1d0083efa58572d9c4f14d407e310f, 0x359077443d43397f42963731f4e77cc8a141a84c3625a7e7a1fe37584baf0a25, 0x102e5d5b772d7db693ef2899b41f714b959d212bd96593b3bb008a6672ac493e, 0x64e662909143eb82d1a9ae10ad29a0fc2d3f1148ac8c4e9a0d9725d2860584cf, 0x24e4ed2caf4a8e5c882c7650218a3951fca76c23a20fb4d1018b8cf7e4e5502a, 0x59b78bd94cd9c9c7db3fe320b812c51c65dd8ce275dc97050f974a8f1c0d44a7, 0x52e44b8cdf838228cd4db508edce64aab652dccc312b3f4747e94f94a304fbd3],
    [0x1163a5e6130ad2cad47be0679b0b7a00cc8fa566d9995a99733333330ccccccd, 0x1835269b56a965bbab6ceaf52cd4f28b0c1ed6be1f74b4e66a5ca5887e310dc6, 0x102a118830497c16c0ac299fb71932823a4fb16da0def5133db79d0434ed5933, 0x63c14fb283bd3d9f602727c45b32b1cd03799165f30838f03ae2781a3e52f337, 0x6c402d72196106c65f61688423be7f38197d5c09f9dd3f28412f00413c1861e7, 0x8a3d697533680ca022fde55bd03139456c209d46b94c6d5978a58889ce0e386, 0x5f67cfd01d07d935b2f2e82482f2d240d67883a68c08e89189acc1aa6e961aab, 0x1bf2446a8db96ead399ffbb62a4eac78db58a044c66069e6ce049fbeb4b0b78b, 0xbef5d1806db062100674b2ea6b9a389a4de1208d7763b5af6718a92a3e1d840, 0x30b65c27e4415680be3843e8b7c9e039e11805dd628480653f41324e705216a2, 0x37afb652a45d5e173dfc96402ef557538d966143ad3046e82fbb8cfe0cdc4ed, 0x56457b90bc7d406b02914e0f341b9fec2e5300bd4484550ebf84f5307aba94f, 0x206df472eddfb728126bffd50db784345d5930e9eb0e7341eae23c8dfcd181a, 0x1f048fc189af8622e28c5d3ecd268b6477949043b9c7a70aafe00494ba4f1dcc, 0x6ee14f494eda6fdee0228d318589f03510002c12eb736855ce01958cef63fc49, 0x1ca1c9d1d1a9ce69f01d6ccdcc74d0d364831f7efcb1ff73c36a68f8da0b276b, 0x17181897f029eaa1761dccac53d97270900654264e96244ba054cbb6f9317d1],
    [0xb0a7175a27085d61d427619257d20c38e120f9ec30c08c2f3cf3cf3b6db6db7, 0x4ce0e3b98b538a80ec9d93de00fe7b1509156c3b756c48da00494386364f4401, 0x4f2c76c643240aaee7bbeb7c153f60d1f96a8f3a2bb63b0ec67608a579b98167, 0x6c402d72196106c65f61688423be7f38197d5c09f9dd3f28412f00413c1861e7, 0x2e5e3ede2b2d36928d1749c8e54ce8ce1005d0a1e707e249cbb04b25abd8794e, 0x8c57c555df9fb947479f6165bd705107a203bed1477f459acea5a3d9aa80122, 0x65bba4e80b2b141e5de938b00edd86aed56d93e2d697b068cbac4a4352c219bb, 0x7263e9d18ff59a985f672a2a77d209f37c11a6ce479eb59022fc7fa67f0c2737, 0x19ec3064001aa946641e1cc71f6b9b25697603000baf532745e194948801e13a, 0x587863a20bcd056dd63cfa61f207bbc696daee407c6746311c2b1d4e0295f420, 0x23bcb31743c50606e325cef5a2785a2ed5d3b5bffddf688ea274e7b2073c9508, 0x2a886439042038ac1862e2c9930bf5301d4592e1bdaec8c72b0515036c545067, 0x39943d25b5dfca5e96602b7f72e864d2df4c9aabe04da5ceb452111cfee6e6c7, 0x3f61c7515a5c14accc73176b2359bf09f9b1eb8560e1c06ee0836eb153c16860, 0x6dc9e47f46c6a896f50a46add04e222ab5a5c77a2d39e95a12a5b7d8c471e2ca, 0x6e9bf34e7f11f4a919f68fd29c8a776352c7ffbf73728cd054bd21ce6c5f79df, 0x2f105ac4a0e7bd0b24c64531eec551fc6dd283dd2d4cc77784ef3001156da817],
    [0x6ea8ab5b04d08339482b9407ac1a7cbf444c4b1a22e72944dd1745d080000001, 0x67bd5ed3dc386a715a890fa5e02b3c0ef4243b6e1135a430fdf1673b93c21be8, 0x10cd24cf0b8c12b55b9df0d4bdc789673b59d242180eb7adecd633c655ddd7cb, 0x8a3d697533680ca022fde55bd03139456c209d46b94c6d5978a58889ce0e386, 0x8c57c555df9fb947479f6165bd705107a203bed1477f459acea5a3d9aa80122, 0x1d64edc071d58325818b96297b29f5f3a116dd59cd640e70d54cac43f3899e7b, 0x13f825c0044d653c6f0c63c0b76a58f79b9ae34f047555d7812b1e5f36e7943b, 0x34540c269161780c332aabf03954a55efe0d96110086534cd7c2cc7b463fcc03, 0x260c68446aedf25ad458a846e38d9d60f919e63c6c8d27b60984af436a43fda2, 0x87a8383101eccb1d63d24f9f4813c5f34f72aee47fe2d399dcac9c9237e9a22, 0x251708debab3904829cc61ca7d90860fce293fedb002d2639189a31c12d1a173, 0xe961f6d7a21a53695dcb20ed0222057ff0475fd5bdd4a41ef98efb4fec8a0f9, 0x698efa6d35a6e4b8250a50f0e8185f9e1508113472eca4b4de20209e8bebefb9, 0x609f58f3a3258fdcfa57d7440ed637a3707637da5b4d636641b7a4fd7db48a13, 0x2740e9eaf6807e007226263665c70661b1723205e084e7b24a5690df027e6421, 0x2237718c1e2c0ad75d8dfbf399d998eb75ff59f9742807e170941742b06eae3f, 0xe7b29f3e5b85a4229d8cb4337813a03f80e478565f39d5361dd10ab65fcc2ee],
    [0x64cea7c2c00361cf7a7514e599124c8a328ea4e137a587a61642c8582c8590b3, 0x32c1844671b4811395a997fbce5bfd0d53fd648c9af180d6656d0367d1fe5a4d, 0x6bdd57e41c70896dec0b1e76b1f086fe232dd62bcb766866f100fb1cfb59e56b, 0x5f67cfd01d07d935b2f2e82482f2d240d67883a68c08e89189acc1aa6e961aab, 0x65bba4e80b2b141e5de938b00edd86aed56d93e2d697b068cbac4a4352c219bb, 0x13f825c0044d653c6f0c63c0b76a58f79b9ae34f047555d7812b1e5f36e7943b, 0x5989c56669e2517ad460f5586a5bd014bc0ef5d960a853a5aeb2163a50804f86, 0x2849c36fe717176b5776777d5007a8b6e989aa67eceb9a7b70376999c056c243, 0x6030b4cbd1422084415079ae858a638e9b86f96a7b45bc5df0d057fb7e0784be, 0x6680b7cf44692209b358b2608ba5977399b415196afcf7adc39e3643c06fc911, 0x51050f4d8711addaff69928f9615ee6fd450d1f5fff95354596493bdd1ad7b48, 0x3e1c30f47d6cc38cf57ea81b4b4843067bd53c63745c2f36f59369629c9f85e, 0x4a22d09452eaa54250dd811f4271677058499902f9dd195345fa5ec85e3118e2, 0x81bbc04b5317749675321989bab8090cf4331c31d6311ff5b946f260992925f, 0x49509b4b04ba0cf3f3db17f58d914cd66b2497d037a0b6082439dd8c57704ec4, 0x19e2751e121f709f051d05976c1838b70c015e3f33ba8a1dea4d422bb2e5fe52, 0x23619735261f2f9d2d8e4d6b7f194250448d030b7f99618356372b48caf473bb],
    [0x6f1915afb28c42ba866cc45d093b19afc595bd2d8aa91829b555555460000001, 0x1c2f9d7e0902b3b72dc5654bf3a1ff5002e56dfa93d3eb03aea77fae24ef9936, 0x4570e1e96fe7081865de01e83e9d91db9a3808f12ab395eee8074ca19a9f47df, 0x1bf2446a8db96ead399ffbb62a4eac78db58a044c66069e6ce049fbeb4b0b78b, 0x7263e9d18ff59a985f672a2a77d209f37c11a6ce479eb59022fc7fa67f0c2737, 0x34540c269161780c332aabf03954a55efe0d96110086534cd7c2cc7b463fcc03, 0x2849c36fe717176b5776777d5007a8b6e989aa67eceb9a7b70376999c056c243, 0x15206f0cae70c249d0aa30a5538b2589c82da61142f30c9208feb18b57cca6cc, 0x13d06c1be20e5bedb0478f3456bcd90667c49f971199accbca565d0e91c38650, 0xd945e93611797a43c08a70df314ca14debdacc0a8146365e89b1728fe8ce04a, 0x4e67c17d619cff6635985d4118a8ab4fc44684e5de5f5e8fe3889aa686becb2b, 0x625b4a6898bd50f2f4548df895f63dbe3f8e979d1590f5320cf615d5db7d017a, 0x2d5afc5c6321e3bf7818055777683e960fda6b016c50e5d7d1253a876c0f2a7d, 0x36f780fc00c78f084c2a388a599b949e3c905519a74edb92d422563af62cabdf, 0x293e898dfc210cfc6a01fe7d3f9be800586578b5e7054e9b9bc7d5e98e097f7f, 0x4d01b653dcae7ae5b174b3b9f2872a6c48de275e45f6ad9882748ea29d494c49, 0x342f7ecbe45bcf015a3f175fac0b26b7088194020f7d6646e50790bb3405de9f],
    [0x6aa770fa96ed0cdc062af9f2ea24419e803dd454ae12f879f5c28f5b3d70a3d8, 0x6f18e374102aa62c238f5dd8b002326edb53f66a79c2b8aa482454a71edab650, 0x5614ba096bfc5e7557679ed89f59b40fa5d13fd286d2338d4cac6afdaf933178, 0xbef5d1806db062100674b2ea6b9a389a4de1208d7763b5af6718a92a3e1d840, 0x19ec3064001aa946641e1cc71f6b9b25697603000baf532745e194948801e13a, 0x260c68446aedf25ad458a846e38d9d60f919e63c6c8d27b60984af436a43fda2, 0x6030b4cbd1422084415079ae858a638e9b86f96a7b45bc5df0d057fb7e0784be, 0x13d06c1be20e5bedb0478f3456bcd90667c49f971199accbca565d0e91c38650, 0x24351d8731a032eadc373de5252c40202f776f988efc7759f94938a467d25186, 0x166c65cf2cc20ad271a83ce298bc0851bff1c514d1655c9c6d930ae02fd0f68, 0x71cce9326ba47fed241df284d3dda712966b24758d9b53cb8241386b3340d412, 0x5b08ed0d70ccb68d470a3d36a17e07a6ace15fdc8979a5b2d68dabde70a7368a, 0x3a63f7222051029c8c6ef249ef270c9b2a10bda33c416ad246342c89a7e3cb3f, 0x45308ff71adb1f4e9f3512c69986a4eb97120f9cb6cef7e470cc6960eb82f5f6, 0x55d012f5761d2dd47d46c101319308ce3a42fc2473450281517ddb873c2d61ef, 0x285a157a66712656304c015a849fad80bad5cf942db60e94d1c1fb9c18611b8e, 0x39d1dff05f27d4699a93e08329727d4e04d895ab932e0511080874814e3269d9],
    [0x310bee2d07c2a14fc6e73ddc04133ddade81769ecec43a9d1d89d89d1d89d89e, 0x5a207f214710b4882ea1f05d69f98276065bbbfccca3e1a2cedb00dcb2b14b30, 0x1b29b8766c1059b36c1273eb8bf989513a81991575b8bfeaeb3a2ad6091264d9, 0x30b65c27e4415680be3843e8b7c9e039e11805dd628480653f41324e705216a2, 0x587863a20bcd056dd63cfa61f207bbc696daee407c6746311c2b1d4e0295f420, 0x87a8383101eccb1d63d24f9f4813c5f34f72aee47fe2d399dcac9c9237e9a22, 0x6680b7cf44692209b358b2608ba5977399b415196afcf7adc39e3643c06fc911, 0xd945e93611797a43c08a70df314ca14debdacc0a8146365e89b1728fe8ce04a, 0x166c65cf2cc20ad271a83ce298bc0851bff1c514d1655c9c6d930ae02fd0f68, 0x32bea8b3d3d47cd27945cb526035c1b19675d0ddcc408ea4a88d790f9315880e, 0x1f8989aa0f0636be64431b03ed829b74b27adaed87f488563a92cfae2890441f, 0xbd5bffb78581a864a888edaa279439011141a958c970e3fdc846640a2b506ce, 0x4637e7a015e750a0ea538b9661f77d0ce0892f990ab82ecff603934568f99eaf, 0x1c8b8074c31cea55d77f0fac00396236e66de6cc37aeb35ebd377252ae13e422, 0x2f640045cf6617ee14712ba708f7fad5727626e600ff287bae89b77761f634dd, 0x3f6be1feb162e68ec037874528ef359342b94b36402910281febc25182fc4468, 0x49b930227a7400cb7f222f89da6d4dac313efc386b0e3c61b7959d931e0bdfed],
    [0x896583f0c9068184fa5784c727dc426520e0c2625ecea5ebda12f6838e38e39, 0x70de9f4ea8eab9d7050b1677e36be2d828fc3ae371c88cd9e231ba23cedc6798, 0x24eb1856469251ef7046191e4f684ff28f1d0083efa58572d9c4f14d407e310f, 0x37afb652a45d5e173dfc96402ef557538d966143ad3046e82fbb8cfe0cdc4ed, 0x23bcb31743c50606e325cef5a2785a2ed5d3b5bffddf688ea274e7b2073c9508, 0x251708debab3904829cc61ca7d90860fce293fedb002d2639189a31c12d1a173, 0x51050f4d8711addaff69928f9615ee6fd450d1f5fff95354596493bdd1ad7b48, 0x4e67c17d619cff6635985d4118a8ab4fc44684e5de5f5e8fe3889aa686becb2b, 0x71cce9326ba47fed241df284d3dda712966b24758d9b53cb8241386b3340d412, 0x1f8989aa0f0636be64431b03ed829b74b27adaed87f488563a92cfae2890441f, 0x472830c50c9b36520a1d7e3b7666a46237c7478fd23de74b9df181398c879108, 0x3a71e741dd27d89782ef5f8fb83d32a7db36e0a3f8731e447a89c5aac8b8bc0c, 0x4cdbd89ff257d439f2aa419a25b844ea39003e2a6e9585f571b1a1d4b12a04ce, 0x761a98be7d0711f422132e050874a7d4f404d15939e9ac6244decb920e7d39b, 0x507b7220b8d56d5f0365f4186c10d07322150d2e7c1e690cc9805c866ab72b0, 0x13a3bd81e60515b52badb419693b66ad39dc1fb661f771aa75df2262127fee53, 0xa296230a0d157a253123b9a9f9777e331d48a4c831fea5811bb4fbbbefabe0],
    [0x5f3a1296990a8256bc5d3a98e3573a96a95bc6b95247cb9176db6db60924924a, 0x3e7ed1ee7c63be7a98a2cf31c3899af73dc4992d4e2788ef9047d1181e2b1fe2, 0x359077443d43397f42963731f4e77cc8a141a84c3625a7e7a1fe37584baf0a25, 0x56457b90bc7d406b02914e0f341b9fec2e5300bd4484550ebf84f5307aba94f, 0x2a886439042038ac1862e2c9930bf5301d4592e1bdaec8c72b0515036c545067, 0xe961f6d7a21a53695dcb20ed0222057ff0475fd5bdd4a41ef98efb4fec8a0f9, 0x3e1c30f47d6cc38cf57ea81b4b4843067bd53c63745c2f36f59369629c9f85e, 0x625b4a6898bd50f2f4548df895f63dbe3f8e979d1590f5320cf615d5db7d017a, 0x5b08ed0d70ccb68d470a3d36a17e07a6ace15fdc8979a5b2d68dabde70a7368a, 0xbd5bffb78581a864a888edaa279439011141a958c970e3fdc846640a2b506ce, 0x3a71e741dd27d89782ef5f8fb83d32a7db36e0a3f8731e447a89c5aac8b8bc0c, 0x2cc33f6d34f4693f7d38b2c1e877ea838088ff3d7100ba1dc0ddab91dd75f249, 0x73e407e1d0960728d9e44baefac70985134876520654de57854668dabae4d491, 0x445e853730983d0992d26bfa7d1df240e06e2b4cfcc4c27326e1241900150f4a, 0x55e33d61d9cff7c3f4e647a52858d9bf37d86370648015919ed383b2d2670ba7, 0x25beff76e1c2d685a64db282638f1a18ae9a13b740a46dfad7e233f9d19f77bb, 0x5eef9c5b6c70c4c706a95894354a8a96148eb54810bdaa96cdd6509ce933768a],
    [0x6beeeb3bc5a44881038e2168963594284523521472c0aded69ee5845b08d3dcc, 0x230923bc7c09fc74ba7d9d9dcd55064318d336661c76e7f2769dc010db15e55e, 0x102e5d5b772d7db693ef2899b41f714b959d212bd96593b3bb008a6672ac493e, 0x206df472eddfb728126bffd50db784345d5930e9eb0e7341eae23c8dfcd181a, 0x39943d25b5dfca5e96602b7f72e864d2df4c9aabe04da5ceb452111cfee6e6c7, 0x698efa6d35a6e4b8250a50f0e8185f9e1508113472eca4b4de20209e8bebefb9, 0x4a22d09452eaa54250dd811f4271677058499902f9dd195345fa5ec85e3118e2, 0x2d5afc5c6321e3bf7818055777683e960fda6b016c50e5d7d1253a876c0f2a7d, 0x3a63f7222051029c8c6ef249ef270c9b2a10bda33c416ad246342c89a7e3cb3f, 0x4637e7a015e750a0ea538b9661f77d0ce0892f990ab82ecff603934568f99eaf, 0x4cdbd89ff257d439f2aa419a25b844ea39003e2a6e9585f571b1a1d4b12a04ce, 0x73e407e1d0960728d9e44baefac70985134876520654de57854668dabae4d491, 0xa2864f954711c535c3c00b7870637d3842f851b4ea8dfb3463be6549428ec21, 0x154a6e2176fc21af1731f522112a55b2f14410c5bca6164fb14c33fd60c602f6, 0x2bfab65757cfe846abd341d5db9564ba1708d38378efecdc3d46d597d1b3387d, 0x527cc1f5276c025650941a38de3fb6b977c4d7fc6bf00acfcbac2af83dfd7c68, 0x18aeb36836f7883bddbaf7d456712ddee200dbe59a3c4bb9e77a032be14d6d2f],
    [0x58e0de26287035620523d04a6dc8e1596ade30f13bba79baf7777776b3333334, 0x1be359ce975123528779b191add86308f8838300446633af3a3abbad89ab1794, 0x64e662909143eb82d1a9ae10ad29a0fc2d3f1148ac8c4e9a0d9725d2860584cf, 0x1f048fc189af8622e28c5d3ecd268b6477949043b9c7a70aafe00494ba4f1dcc, 0x3f61c7515a5c14accc73176b2359bf09f9b1eb8560e1c06ee0836eb153c16860, 0x609f58f3a3258fdcfa57d7440ed637a3707637da5b4d636641b7a4fd7db48a13, 0x81bbc04b5317749675321989bab8090cf4331c31d6311ff5b946f260992925f, 0x36f780fc00c78f084c2a388a599b949e3c905519a74edb92d422563af62cabdf, 0x45308ff71adb1f4e9f3512c69986a4eb97120f9cb6cef7e470cc6960eb82f5f6, 0x1c8b8074c31cea55d77f0fac00396236e66de6cc37aeb35ebd377252ae13e422, 0x761a98be7d0711f422132e050874a7d4f404d15939e9ac6244decb920e7d39b, 0x445e853730983d0992d26bfa7d1df240e06e2b4cfcc4c27326e1241900150f4a, 0x154a6e2176fc21af1731f522112a55b2f14410c5bca6164fb14c33fd60c602f6, 0x4423208e371e28abebd91bd0c7d7e563209a5fe4d190c557e8245d7bffbb8054, 0x27c20d6eae6b07d563543a50b64b12cf443197ec7b9671f1a3a0364700e49b11, 0x1979fe0d042d002a2ae5d53fc4968f9ac59f44cc6044e59c53b1456c9e000a75, 0x3ff0a221d7830915b844271ace9757149582d25554ba2ec1f483df8cec11421e],
    [0x21a817cdd2467f35fe5b1dafc0bb5fbf7b689af89ce6bfdead6b5ad66b5ad6b6, 0x61f21b9b6c8c59ba93678ed59d9164b0822ea783afcbb40d25e4573a268a97a5, 0x24e4ed2caf4a8e5c882c7650218a3951fca76c23a20fb4d1018b8cf7e4e5502a, 0x6ee14f494eda6fdee0228d318589f03510002c12eb736855ce01958cef63fc49, 0x6dc9e47f46c6a896f50a46add04e222ab5a5c77a2d39e95a12a5b7d8c471e2ca, 0x2740e9eaf6807e007226263665c70661b1723205e084e7b24a5690df027e6421, 0x49509b4b04ba0cf3f3db17f58d914cd66b2497d037a0b6082439dd8c57704ec4, 0x293e898dfc210cfc6a01fe7d3f9be800586578b5e7054e9b9bc7d5e98e097f7f, 0x55d012f5761d2dd47d46c101319308ce3a42fc2473450281517ddb873c2d61ef, 0x2f640045cf6617ee14712ba708f7fad5727626e600ff287bae89b77761f634dd, 0x507b7220b8d56d5f0365f4186c10d07322150d2e7c1e690cc9805c866ab72b0, 0x55e33d61d9cff7c3f4e647a52858d9bf37d86370648015919ed383b2d2670ba7, 0x2bfab65757cfe846abd341d5db9564ba1708d38378efecdc3d46d597d1b3387d, 0x27c20d6eae6b07d563543a50b64b12cf443197ec7b9671f1a3a0364700e49b11, 0x2476751bbce446aa5deaada10637ef287032435cffedc126dab97c238a0be7cd, 0x4fc573bf93832148807450c1dade82f13c0ba71a31e57eb555c44efce5b497d0, 0x5fb5e9401ccdc69a897de74a52e03760c0977f7ed950beb3987ebc48d5596600],
    [0x704e3a189050915df1a00947c954c945291fb6e2e7fe691f07ffffff08000001, 0x5cb1316785fb85465743bcc1df31b453ac60bb4cc0552dd28f9011a890471261, 0x59b78bd94cd9c9c7db3fe320b812c51c65dd8ce275dc97050f974a8f1c0d44a7, 0x1ca1c9d1d1a9ce69f01d6ccdcc74d0d364831f7efcb1ff73c36a68f8da0b276b, 0x6e9bf34e7f11f4a919f68fd29c8a776352c7ffbf73728cd054bd21ce6c5f79df, 0x2237718c1e2c0ad75d8dfbf399d998eb75ff59f9742807e170941742b06eae3f, 0x19e2751e121f709f051d05976c1838b70c015e3f33ba8a1dea4d422bb2e5fe52, 0x4d01b653dcae7ae5b174b3b9f2872a6c48de275e45f6ad9882748ea29d494c49, 0x285a157a66712656304c015a849fad80bad5cf942db60e94d1c1fb9c18611b8e, 0x3f6be1feb162e68ec037874528ef359342b94b36402910281febc25182fc4468, 0x13a3bd81e60515b52badb419693b66ad39dc1fb661f771aa75df2262127fee53, 0x25beff76e1c2d685a64db282638f1a18ae9a13b740a46dfad7e233f9d19f77bb, 0x527cc1f5276c025650941a38de3fb6b977c4d7fc6bf00acfcbac2af83dfd7c68, 0x1979fe0d042d002a2ae5d53fc4968f9ac59f44cc6044e59c53b1456c9e000a75, 0x4fc573bf93832148807450c1dade82f13c0ba71a31e57eb555c44efce5b497d0, 0x69614c8d001499380d414059349468ceb64b2b1ae0df132c3766f98c838d24c2, 0x2031e803074efc001af2becfa440b1b29c046f598ec1607a99cbc45e399d01d2],
    [0x706a54adbbbf813e4130555d209cf08149721367c1eee4d83e0f83e000000001, 0x33c24ad76e637c9fedcad7f93a155295f7e9cf347cc585c3d3130f0384fb3975, 0x52e44b8cdf838228cd4db508edce64aab652dccc312b3f4747e94f94a304fbd3, 0x17181897f029eaa1761dccac53d97270900654264e96244ba054cbb6f9317d1, 0x2f105ac4a0e7bd0b24c64531eec551fc6dd283dd2d4cc77784ef3001156da817, 0xe7b29f3e5b85a4229d8cb4337813a03f80e478565f39d5361dd10ab65fcc2ee, 0x23619735261f2f9d2d8e4d6b7f194250448d030b7f99618356372b48caf473bb, 0x342f7ecbe45bcf015a3f175fac0b26b7088194020f7d6646e50790bb3405de9f, 0x39d1dff05f27d4699a93e08329727d4e04d895ab932e0511080874814e3269d9, 0x49b930227a7400cb7f222f89da6d4dac313efc386b0e3c61b7959d931e0bdfed, 0xa296230a0d157a253123b9a9f9777e331d48a4c831fea5811bb4fbbbefabe0, 0x5eef9c5b6c70c4c706a95894354a8a96148eb54810bdaa96cdd6509ce933768a, 0x18aeb36836f7883bddbaf7d456712ddee200dbe59a3c4bb9e77a032be14d6d2f, 0x3ff0a221d7830915b844271ace9757149582d25554ba2ec1f483df8cec11421e, 0x5fb5e9401ccdc69a897de74a52e03760c0977f7ed950beb3987ebc48d5596600, 0x2031e803074efc001af2becfa440b1b29c046f598ec1607a99cbc45e399d01d2, 0x6b024d6bf3cc38d1ec5660ccc973ea26b1d1d694aff8505159f78f619c0bbfc7]]
  s := [
    [0x1b46fa31af7059b6a2a432d4b6f8e788c868db4bffff9d2cf0f0f0f0b4b4b4b5, 0x18822e58c91a26794abdd2111b3c9bdd227819f11f4b397ef828786265e82001, 0x48cd27a8fee0b1bf634532d3015d0210276a0827ec2c12ede12aef93b4b2c549, 0x2b420529c06fd6496d1983ea26bb5a16229a9fa2859acb8c4ad4c785beebc2c5, 0x2216bf25ecb7b187d3e72f84b179478c5e30e99ddbdd169d651304a522ac4429, 0x586383964db4489ad2992ac6432c7be5eb421c2adaa213e650efdd708c050cbe, 0x23ffd638db4cfff82aedc59c2962fc7f16cb670c3d3c2042ae866c9c2617fe4c, 0x4e7eca5e004ac0dbe217c54bffb502987dcad5b51c7a00c1fc54aa061a30e5d4, 0x44922d079c58cb2076d48196d4b3dccdfdbcef3a8f8cb906263f386320c429e5, 0x2ee83d094daa3f9f7f4825abcf40f7ecad3251b24ef7eaebb8df01ce05755565, 0x1a61009fb5357e566e27abba28c4f09ac82c7688cbed85a5b42bbd9be79985a4, 0x47e054ba296c1015c749cf392d44764616b36e43123765cad744d53fe28be494, 0x243fa480a9ab2804588b5d578613f4ed6f3fe87f74f7676a3ff176bfeaeeb1a1, 0x2d3090aa22c892625df7fd466362c4833609c0a73827265ca8d9ef401e66c224, 0x49a3e66a216e916f98e5a739d38291b94399a161f5e85e6f92bed0370d94d8c0, 0x711569dcee56cd340841595d3a37bb6686bc79e513cbbd0083b75669271d3f26, 0x2dab694a473e9c479f7bb2f80e6308e855691b620aef5618c81d3d99302e39c1, 0xd1c09c19481191c0d1538324c12566bd29600aacfdaf8807fd536250c1cdb2d, 0x1776c9c06f61954d9a3c56179c7cef844601474ba0b194b1a92a084f149dc404, 0x6f3e0ba403fc96b9d835a88397e3ae81a0fa895ed10f22ade1f832b40697a7e7, 0x1f85e00cf1dfade45e2498375e477272508ae1310b93440dcc3fde99859fa876, 0x34154c81ef696f37e9d7bc83f9f23940a7079b5f2be799db9ffdb911ae274f5d, 0x13ffe79a9e7e80861de676927440f8ce994dbf6dd8376f88c1d847597a07a7b, 0x242e097b03a12530250c60a3cbaaf5e3eacbbdaa5a4e44a17d09047069815b12, 0x3be7519753b295a297a2931ad385b9411172864309d084e182d67b4e452f8b13, 0x2878ec83411ada96f287633117f8c16755a73f1358f63c1dbcea618080858821, 0x54332b01f0baf0f0ab0bbb443054343f8c647c9368d7d82c93ba89691f72d9a5, 0x319c45e1594f949cd4f04da46c8f960792e8893bfc8ba6b3e22c56fbfd131145, 0x4abe36697da9bff0312f9b2b274797ce169e61136eefc362c11afebc1b7ec829, 0x4ce860b37e395cad9e04253c1d33ffe1056893926e6859fc73a8c6b467cbc630, 0x70e34ff84e33379fa34bf0c568dada75f44ad812868c7553fa9db4297f19ed7f, 0x297e4b7c6b9b2c9005c78b598bdb3bb1b4c2dccc9df8aef49a987b90a449c480, 0x5d1a7b0f18d678401036b2e38df9586e015108ccd25c812f2e25f01e1c069f3e],
    [0x1b46fa31af7059b6a2a432d4b6f8e788c868db4bffff9d2cf0f0f0f0b4b4b4b5, 0xd206a900847e9be345b224bddc9aebf2202b0cc551d7289b55ad29ebd836bfc, 0x10013eb80e5bb8e314b7790adf5a3af5064b05f88e34b8458dc229ad2e3a90b4, 0x436534c7b68aa68af29b30bac1bcad409d33cba8a04e694839e35efee69a8efe, 0x923411fba7d25fb6ea52e6deca1d20bf091a5912f96391ac78f98b18531775b, 0x59e775685d4afec6f4196e2bb364c44dd71ebead0a7a19f1f2f9c67f6c4ff7ea, 0x25dedda2eed0dc0d99054957b791cb88ad4a1a8440d52189815b5b803ba24fcb, 0x44c992326e055742fb1707589602e725a69364d317e31f1025cfb66bcdfa135c, 0x1b668a631f7488102124011b3cdefb22574719beb8f978fedf17dd45c62a3309, 0x4b90c1f361754de569eec782e4fa7c1ba60b8415c1d846e483648244969759f5, 0x448239eeae9888bd7348113a29d13a9d3ed29427ccc0d0520da3209dd943ff6d, 0x26ddcccaca1c28d2981a878aeea69e0be568cfcdc29318084795a529cc491c3b, 0x2a461d6cd2d146e60eb3e14b9d5e4809e6f872abb5d2d39b4e15bfad6140a210, 0x2822224cb61d6c6b6f6a46b7d51aa83bf5faf881f06f4d06eab55ce5fb8ddf74, 0x593b6774a6b125037ae3120023705018802e9acd1c023056eb6831f9b71b5d9d, 0x61bad0f2b7dbbb9be47d3480f2ba1d20fb1f6341e5773a7470e9c6819c17dede, 0x3d55bdad4ca6d6962503f95ad8d2f06d4c407445fb96eefdedee4670f5e7af71, 0x923d36fdaa877135aff5ca2df321e1dff62d9d28e77092ba558dfc7a87b8fec, 0x3e584f48fdd58b935b22d8ec513becb83e79a9fdf0ce3a1093947bf5bd6afa0c, 0x36d4a6c101bad98a2d8a2e5736a5da5bed36fcba4d9927732fdbe5234147fb61, 0x25eecd6f9331c153bd8f43c885ff30ed42265ba1361037feda71bab45cc683ce, 0x45867ed2830800bbe640e1f4896f38d6ef0f1ebfd2e979bd79916dfa8d18a21d, 0x5f64d5f5f5ea0265a26803d27b91f450933881fbab90654c1ed33f2a438f00b0, 0x205353ceec4051f73a2ec6756322fbd3467d3dbb268886d7db6a5be3fbfdc4cf, 0x2d05f6f5f7ea6e7330c75f443872f7d932e4df7654c00fc1bfb1b16094f465bd, 0x5839d080a9dda2103a2c5b139cae6c8870007fbf0ada7399f804310c513cf1b6, 0x49f098eb180cc8b31f52dbaf976bf972efed44e82d753fa49ea901709e46c335, 0x3279f558a569ecaf2ef2989e8ff5141cc08ce4144d5a2dd94be5a041fa49624, 0xc5232d8287ded49297b62fab29e101bc450423e9634acf6f4726907a9304b8c, 0x12ca47e873268d10e3f8f1ccbfc23ef557ca6a23195931ff6e27079aa989377c, 0x2a4780d8ac2b289a726c9499831d48d21b0dedc78f39f7146f03ecf1bd5a7b69, 0x73195dbc23e85f3714fda24f1f2d3f38f0d4af3376c12f7cc57be9e97813d64c, 0x6401fec0b1114b95041b620868062d4fd12a783b91ce5e2d4a3dd66fa7128de4],
    [0x1b46fa31af7059b6a2a432d4b6f8e788c868db4bffff9d2cf0f0f0f0b4b4b4b5, 0x163e0312c9b9a8ed24614ce9a657a6a9a4a43ad45a1e377bb91f7e28cf3128cd, 0x5f69e53671346abdc614953418cf727fce3b7b31c4e6d13a8c797e6f78a07d24, 0x1e8ac8ab0587359335ced4407241e5bf1e39042b19b106cf5b53754bc074a0bc, 0x58361b99deef805920e06bf71b7908941e2afe69f3f5498bb4e61510779529c, 0x37f82dc153585cd94f10cae5fb7833aaebccaaff3983cf52f5a0f4e45c25a725, 0x5990300f08c64729cab969ec3102fa16c490394cb460b492233eb9e72afc82d5, 0x589b0bfa90982ad64144fbd112489a8b7fef1decac1576ec06c79b94cf8200a, 0x438256c20d780dc2b13a0d6356236597525cd4e0cb7174f04a82f6663f36c6d3, 0x42ae6bc0c769319f4961d2409d14c0e8dbacbd1979069c3a53b68135548c9815, 0x2be4c9eea3dc85de9d0b9db23be0ca3f1d5bf9579d5279a8edd77cd8af1f7fa2, 0x5c8df8ac33aba8e964276dfab3d87b79f14682f8d5aac5386885ef80361b3b47, 0x54920dd5770b6f147a5b826254f7faeb0a7c6e4f9fa780f3fb466357ac2e5cb, 0x21849fb3973cca3f57feedd848052d95b5611a36bfcf4a0b18ab1d2bdb812fc, 0x1f3ded7ce787bf4f235d8ad1f6c0de19da3cf6e48c18899855f89dc95dbe3ba1, 0x2e6687c1bbe6aff6630cfff845e744ed3f29f597abb0ddfed26376f0db8921d2, 0x713fb5d9843c798d6b3ac4aeec1a2aa2f7fe8267122fdbe745c6db3ab889b83f, 0x9baf16d578c09bb69ac93a63d2da875f20334e283e985d6c45a494a5f9251fd, 0x22518484c1e0504a46ae3602fbd33b9627b147d10822425bcee17717b3c5fbb5, 0x350dad82cf2cea54d0b1f885491ccfb96cdc20311df255f03bcbed48e1065f58, 0x58a23b5f8485ba9785af59f0f260da2aef0119ee54125f8c9b9ff38b9eec5b17, 0x2257150bbc9aaccf3226ddcf44fb7560a6597472d218748efb034c62c076c423, 0x68f48dec4fb65dbf53742617244fc587ea9a7be78edb5221861c8f470422f543, 0xc92a17a5bb18e1f75e6f90f0938af9f87643d94c6a7f04dbcd051cac90f383e, 0x3f0e90cc97c2d7e4448a460c67edd04481b74311a5d26a62a22f663c5ad7c155, 0x64cc1f9f52fb4409030dcdb22fc50e7e04dd8d76a9621dc951fd850d5ff68b1b, 0x6be9bb7c9a87e21c771dcc57272949935c34c487af1af4f27fc61f965e6ca2a5, 0x531b094ea48774241cf11e6a236d626928b021458c07daa46140251b772cad0b, 0x3b8b897c54a9a62bbe798af0e8e9521fabc7ee59949a4f735ed82ec9a8114930, 0x28da68737cd1c09678b5fb54684ab47b7cb638f282ac2dbc09d2d615d73e9aa5, 0x4c7be425db736caf525b2b2166edc0395fb86141c66bfa29bd2748fe1df89b84, 0xd899f818da7f6b6c21688a488bedbde8c4850681cbffb238480d3605f5280fa, 0x15adcef105cd0e6d62e0e420f61faf8e7ffd4f3e11445be8bda0fc89e9c2327e],
    [0x1b46fa31af7059b6a2a432d4b6f8e788c868db4bffff9d2cf0f0f0f0b4b4b4b5, 0x719c1ed86fbdad6d045173fb9600ebb7541ab9fb26c5e2433930460b8b5f2456, 0x2353b2522f65314e616c9a342c8fee361120e47a0f568b4ea99cf2c37633a9da, 0x1ad492bf1940325edec102449a1eb4d44b98e2747cd350a2d2fe7e4765b4fcdc, 0x1ca51b0c0856ab32ddccf8d26a6ec7e04c8d4e38b640e3f250a52b003b2ee83d, 0x2d0efc404ed06999446f0f47125c08ca5b1f195b0bb4de21824882cc51508cb5, 0xde0ed3f81d831978c4b825b214e264a6bfc9f311b33cf253c7f69f308e80b18, 0x42b83091a8b3f2f693ae263b93f54ba24c5cf2a4a5937874187f32383086e2e, 0x7cec5d6da676fe0105eb6f77957c88521d122f5237a03e0e976658bf717065f, 0x48d539722096c34bbdd78d4fdf3854d6b697b8086b6ab7c40538f8061bc88177, 0x4e3e9311969be988f93cadc3612a2e91fda84347d7735e94bf8a2180c305c07e, 0x2e8388e0f760447acb367e308feff634caa97c9643eda442ec5b45428333f6a9, 0x33c41efafc9ffd46b9e08a5cb0daa1db7cf07b808920dd46d513debebcf0432, 0x454d308caaa8766b162be2ce4f707f93e9f8c488bba49ae4afad7ec2e8493f95, 0x40b46b98d2ef7e6d72c9236b89cefd42f15f50e8c908732bdad63241dbcc63c, 0x158013847d414aceb78875b33412d3df51c77615af168aa6a98eb15cc6a0ef05, 0x1421a1baa470cfe1bddfc575b5897e35502049e4ec323fb88a509142f3328795, 0x2f3bbd592290dd5514927884cb5924972bb003f10d2c7f770066f5d7d76dd56b, 0xe4dc045cc191224a3a3970cb4004fff77df77ecfdccfc6a5611d9c56d3a1f3d, 0x1c4a1cf6400eaac105bd78765fd74cedd5d84f34d08ad7fe474db8be9097e240, 0x2849851337f8edfcf694eea06dd388035c72211190867a179ab51b0eb7f0a618, 0x76b8c8b78e8af0ca16dc429f928eedd24f64b693c6baf630469b4891e0281d8, 0x29887a83da25c2042d027afeccde83539eec2a1fa4ee3eedc1386e5eb0449ded, 0x494450590c1d023144d53db3ee4715af7aaedfaa745b857f41b1404f8566d2fa, 0x394ff47f23852e2afd6f5e7ca39504d386e09f8e866fcd1e6ddd3b3774fd710c, 0x1ab5209b72c0a46afe256d412967399d58a5ebda64a22fda23256fca198c0362, 0x463700b6a8ca6f793195234ff8239b47013886c873e990fa382696a2773ccfcb, 0x353a018d15c97fd712a425922f588960f546906e242722dc5e381e653e077d67, 0x642650c097b7c24976b229507c86a12a56ac0a63e2543e9bff745049abd14cf1, 0x5876d9e3bd7d02639b752c307d4ff067749eb3936328e4b829cb45be7cdaae4b, 0x1182489025af53c0f688222d0ddca658d3c9232f4028193c4cdbb406787ae5e4, 0x432ce13aa28e6e7bc1c47aa41d8f929f699f6bd7340116be37e52ef92590d495, 0x1de66abca9c03889fc66481f00409c5c4b2b80603e83ea901896351f5f5a4cd8],
    [0x1b46fa31af7059b6a2a432d4b6f8e788c868db4bffff9d2cf0f0f0f0b4b4b4b5, 0x50ecbd7c4ac564cdac108cb5cd704a36020d7d0e5a0d61714deef9e5040bdda3, 0x2d3ccb4814004f8a19730e6cae8ccf47acca529f57c20a7bfacec08026af6b1, 0x51e69595144000b7b0aef68581aa946e4c8bc33d0c72be80ee9eaddab88f837a, 0x4971fb51bd9b8976f2c0e43451e7a482fed116a114436477f899fea37723164f, 0x442e9f989194ae34238b8940d1b10f87125780c61ca40a0d7968327d96eaeb28, 0x1d1a732536e7c48fe38da384685835a89d7f408426d242578ec3e4b9c20f384c, 0x6be840880dedc4d00b9c118d39fda0d6e0eaf30d36678f3e907a85d702889928, 0x6b49e3abae190e47f28393ba70d16090058306aa2b1b9e12340915c83e1deb58, 0x6eace0b936a463190d5e92f58ae1044cbe81d7628acadc22adac93b7c661eab4, 0x6947a6a41c8e98b597af52fee5999bb7afe19bfbf80208828a9a8ba390d6a7ea, 0x3526fa8c1ece835b2bb5ec92823b1b6b3fe35eac4ce562203cb728a5ceb81cc2, 0x2d190709c12f37b595c7e5e051a860f3cabaffbc09e8e5878b53f21ffb3f6d3, 0x69bd85a43f14c4458029dbccb2d71bb25f033dba94cf0181d221ae2ee60ad421, 0x303565beedaeeed66f324f73a5931afa5277c722df40591b1c6a1a9564662746, 0x1d1465deb9c56eb0d50f92ac800ea58d756d676a3d8bbcc22eb3bb1b706cb33f, 0x6bf6a2515d0cc0adf7e3e1a8d21c7ba0d336a1b4d380c781d5cfc15f899153ae, 0x3df6cf13df2c49cc5f6092e7f5e7d5b7b720add977cac9b43dcae88fc093e1aa, 0x24cf4a594190f051ebd05864a5504f8aad0418c41d24ed2a116c690a2a5bc168, 0x408f63ac0a3d11fd76fdf387e8ff3cc87e79bd0cde8b6772647329a093c22a8f, 0x410639d2bbb32b45e79be5c7c3f8df113428883a004634b4cc2a3314cbcd9b5, 0x733597971b1a3573587d8268f24d1b4f61e608f1f40385c77d749e1b2c7a73c8, 0x5aea203b111238ca2975cbedc87026f9b04ff81fd2224d312ad389c2da816021, 0x346e2a962d213cd50963ce46b255c2a92068a897f4e5bab7eacf28f2b3189a46, 0x691808aed947d56446b10b3a2e9b94a45493ded4f4d9812a2363c93a95613d3c, 0x2cc58cc83db1fe3696a31deb4a1a856c6d1c37ad2ff00ceb0455b8f4173f75b4, 0x5129bccf6002ceee93ed66ded1671d1bab14fa10949d0c3cde9d759258cb2ce6, 0x646e0072864a2b2b1ea55ef92cfc34c28c75ed6f01cda4c204ac2bd80b420937, 0x1ed99665e2f6f17ae71cfef83a8d81317b1efd5298d1f149216a7196c1a4fa2c, 0x2dd3198682a3b65b97fc501ef68b93784f7a90ea625813d8b50826ffefcfe6b6, 0x366ad983eb79f623387a8e52d185c74189fc69e2ecbebc426333fd510e0a3ace, 0x600105430f0ea3e51d24f18c6dc046292864d928c186d15956d220db735cabce, 0x2c4175a45e5d97465a76a6a923ce9e71790d353644c5612a1537e1d7294fb2e2],
    [0x1b46fa31af7059b6a2a432d4b6f8e788c868db4bffff9d2cf0f0f0f0b4b4b4b5, 0x49d11056a31435b988bfd17dad1b6c4ebc3247ea032ab93dde047b9ef732d7f2, 0x680a8f952896450589dd67aeb5d80bb2d47bb5157a8a0aeb90984960d6b8897d, 0x53f04b2551ae17b04bcda189e7e30f2e0045e3dd3e56ff4f38fbde9cd9111b77, 0x3beab592bfd47454c26085d959acfd7b67c30c1c89427d2496bbdf3a740ec1f1, 0x3809d8e676d9bfc6fcd646f4500639a6551ecff6121b86b1bf569ef4d9a534e8, 0x6622c2635cb24ce89fe553a28c08e00a508d653ee39e35d47d12c8a86ea6136d, 0xa0f1ef4aae028ab76101e30167d5c95847baf4c1c037f1f95093a0d38af4146, 0x4b5ea71eee5f43e8d93d87aaa572fad24e0ddbd5c1af74d53588c4b3a31a279c, 0x4ce0a957599e1ea90d015f0e595c7eb26dbb7737e4dbaac5b0e446792db51137, 0x138c50dab818c6cd8dbb53011a4bc603e66126bcdc404902c3ba766cb6e7e56a, 0x1ca2ef581f4bebbd6df0ea325f53febf92ed20d5ed3444cabf91ae4666f60750, 0x293f74a5b5945bc7de5bf9537cdc14b7eeb9b398febc6dbe0d3cfa08ab2c0ab1, 0x5bab503c81ad04dc2095e1ca72b8195ef95c98d290911c823463502e3b88186, 0x3928815ca595672f81878abbc2276b4d2bb1636f67278d97825209a195c8f2b6, 0x2fe6e1f09be6ba3c584c8262c9fbc8486a0f1dfefda8bb34501455130e3425c7, 0x6597eb6c2529eafa1c9cbd4e5af1865caae8c35797de05fb230988251d8b1e15, 0x3667382ca1663835c92103fb480e143cd83e89de85059c4475ae4ced0c451a5a, 0x42f418b051921ec69a2c3f01d6895e6df46ad20da89dabe718ab3912ab23227d, 0x23b2ea4119fc2a9d90931f9d90bd24144d7e1ca990fb1b7ec9c6024b04acb897, 0x4396a3a770f0f8070f4b40ffcedaa53c303bde0f2a801cda1aa259b3a5cf65d6, 0xb46a7ca38303ecf916cbbd09008a977915edb6b5c6591358de93f3c0a92b019, 0x37d43f47f36631dfc3cf0bcbce98d33c8d15bcb4f88f888fe705df61d79cc0fd, 0x4df814ce199af5a36bd177ebcde523a91763df47cfb7b83f1dac7210b605fa8a, 0x280c6a49f0a3eafc6090782bc3e90da2830c8451e9225b7d069f2b5eec186a03, 0x127ea2be6cbb8636f8a6ec0bc993176d4252199f621b7b5db37713ad804d4ae2, 0x53db09b6fb44d5082d312fc81c8ad33199a332b48c103bbb8f70a9813eda1aed, 0x577b6f7161baa044be1b27c0f2cc47ab5c417b8db602a4d19328b70b78feead2, 0xaef290edc221b8739939d1114908eb6eae350cf022c33c13721e7549688abaa, 0x1468055445ade53060bc34c831d229472bddba7ab241997af8d77fefb5371959, 0x9ff50389b5c0ba35fb0aa1a53ed691444c0374f3698f1b88773672a3232f967, 0x5a10f81bbf205a4fc8180f4c81dd78d4b111a4a477e38cc1e2f0ed245745952c, 0x5141d5c31177ad8ee392be13f24c89719a66329853b2e970d3a339ec3a60a5ff],
    [0x1b46fa31af7059b6a2a432d4b6f8e788c868db4bffff9d2cf0f0f0f0b4b4b4b5, 0x4bede2a34e82c239d410c7a8abe4075e12a3a0584a2f83042067bf365fce8af3, 0xa8dd603f736a276bb1472fad45c034832e11c1bcd9e4f737da1c79f83285447, 0x6ce9d20bf15d6e3716b4aa14e20ee3e142b50ac434568c6740b34d0f5c01dce6, 0x13e8262461887a4914b6e8bce41ab8bcf2a6f34fd0ee76f8d5e0d11a805b232d, 0x55dbcd99907175ae12dbe422e4e0b739b04bb95b3866154e39b675ebdb0bccb8, 0x2cee968e391bf043896603f69d8ef64f3ea7252c9eaeb122d5c083432cc5baf1, 0x2a9ed23d84a916c1c8ec68d083775d116cf370f39a2d9a053797e6c60950e15d, 0x4ada41858b02dbc726f9089ba6db560b08bd23936096af09daff9b5786b6a5f6, 0x40b4c1077c0c4d169565a36ff496da9f3beb628157033378bee4f6c1a3763338, 0x2f2c74e20529d8d12e501381361a26a3f3fa1a5df029f2ee95ae27cec05d0efa, 0x452738c90b67148bc33d7af889331e2f3be3de88ff6cdc13e1ad388d8a7e741a, 0x1e07417c2e4f8bc4af3486290472755c8a05fcc29813fa2707f76800b711c8e6, 0x62474d21d628ceae6144fc155d06690d957e4c1ecf306b2bfdea95ab59f56b56, 0x6337366f14fca03c33b1c21255680695d7fee80f45b608049acb6e5f6566a1b4, 0x5bf907d471c182cfd622d0d40fca8d6c5caa98b159f828183999835a4f6740e, 0x456d45a9b7e1df95aea8038342e271ac3acbfca051aaa5366bc6e3867b3bac62, 0x6e966db8799b83fe61eccbb2f91b9a8859f49c8933229ed6884804d06b94a3, 0x803b97a706fec4a3fe93c8bc1242d523c9a2a1be731256a70274d6b3919651f, 0x5ede08ca73188a07447f819c8c4460e16f9ff1a6d0b40ce358674f6ef36c2a78, 0x61f1f675b90ecbb67170d03b12e7a7fde44e2d6f0c193546eabbe71112de5a25, 0x6425ba33e02130c5d5755dd9238434c9e1f1abb395f1548f96d985d9517ff27, 0x1c7b5f3248c5073682eff2d83d24ec9aa38fb08756b80a6cc661304f8e30226c, 0x5bf6597bacfaa76d6c9857acab51ba9bd714d79dff69a113e342d46ebedd662c, 0x2828606f61d4addf3640a6f4cb3ca15ed32fb830cd289f28ee68db4eb8940fd8, 0x213bcf25dc66b371974a20545bd51c05dea1d7bf60e623eed8b2233dfcfc9a54, 0x23623c1cf9950ece1b8810a357722183926c605fa1dbfff84e54b6dca551e885, 0x4f096a2be41b1195eab275c17eb96929254198eec113bed5126a5abb15678929, 0x4a102d66d0551a3a0a37df784499659fa72a811034b8daf7c48de98935509afa, 0x34633b766db047f543184947df0ccf39b85ef180b6fe3c7ceb52a792c49f0114, 0x72bae6325d1006fb5fdcc5f8d35dcb962634f3e9efd962495516e61f48a6dfdb, 0x5b46346a1c8473e6be5cf4e334715ff30dacc7ea56b4cf61d8c05abd6f75f02f, 0x32ba867e83f44dc95618de001e7ddb015ab133cc525d18546e8c1848469336bc],
    [0x1b46fa31af7059b6a2a432d4b6f8e788c868db4bffff9d2cf0f0f0f0b4b4b4b5, 0x669ac7b8be877ccb151ef3b696b49c74dc6446076952975f7624a955a1d106c8, 0x30b4215aeb6bf35ea4bcea1de5fe73157bf717ce915ccc2ee31e414f685664c9, 0x39245abac14b72ccca0c527c062409f63049772c8b2112c4d4c28cb9ea310f96, 0x45eb5ace042a5ccb8279e0a837824b1c816bbed1b41cb882e059d022f276617a, 0x5f07c1aa5be3dadaa4e8fedb4c9f3b9f7a196f3246f8a3d5fcd4930561873804, 0x4f0538acc2a50b9a78e4285e25a30dc650753d95e57c5ca4c3de742e98c6b6a4, 0x1f6a5e293dd6716b7b39fa5429dddc49b9ad0e918749c4deb70d2b7bf9698acf, 0x2104035124a247baba2905d64c7469400bcd68bc383641fecebc68d4ff7b3c65, 0x4a2ba2fd3227408f84052bd1b0e5cab57059398e7530bbb15b8ea591a3dc811f, 0x38dfeaed245524a8b75b9c6213378ac9fd36dd17fa2a21264a59f75f2d95930d, 0x470447faf1a29d0065568d68c6b90630c10718f97658ddcb15863349d3d3763e, 0x6f28d03883e1fe53bc23ededf23acacf6af0400f31aceacead78d1bd524354ea, 0x2aa03b02365864d1bcbd11de713c49761f73ffa18d609ef641c5d8b0bf34f035, 0x464a5e8638eb532e6d34ad3ce2bcdf6aba8fe3f768b833f8fba8172060b160a, 0x2cd8ee5cfc3e56143510db51a48f4081666c49fe7a5d36d660b6352ff76935e7, 0x4088e2b5b8d74cedf207857500b9d619329bba8b15240c4d38b29eb95d1adcde, 0x59c9d0d6453f0550b05871ab0e638114b586f6057848a0114378398f1246f7bc, 0x6ed716d1ba567ca5da8d770d8b91aa2483ecadea4dd5b7c3d70c79b3f0586428, 0x142d96237e568c4724d388ec1897475d80092e80defcbd909454c7a50d74595a, 0x4bc556e7b48a7a4452fa574cbc215fcc40e9dfc2a3e66621df5d54b065697bfe, 0x60fa4a974e432b5261dcc3acaac38fdbce9cd7c82ed5000fad4ddfbd0e5733ab, 0x5a784ef30ab998754a3e8008fd9e9ad7651039c2e9039ef4404996cecff9e3b, 0x2eab60528fb562d9b81d6a91f60d7c1ed84d26789d9547ce79889b4924070422, 0x7bfa7192ad79cd92097621eb48bec6061a5e38da060feded8fd97f536dbed12, 0x545feee1b04de08487eb2454095b24da5c08649b517ab6d2768a03bccc9f73c5, 0xb018bc681cd68ff2e2aec91f720b83ad08c6ab3ba9c5b9483e652714d0621db, 0x731ba4648e9d2b6fae4bb7c6de9954cf9217383dc691fdf6d899222d1c6907b3, 0x5bdf74f8274d7914a7b55be6b0a25c0ada5e3382eef926d8aeb380ef2b63659f, 0x272c1e5f1a57c0c326ff10628ff41c1418810b947df5ac56ba1a4b1d3be6c779, 0x448a00f294790cea2dec6b06aa03d42883edc64fc7c63073d959a3eacef41461, 0x4971a43e7430b08c81da55563dbb9f97ba99b43c64c49e5cc19019dad999c164, 0x2980b8c1939df13b44183c34bcb8a4d6fc577ccdfbb8f49fc2d12dec9727b8a3],
    [0x1b46fa31af7059b6a2a432d4b6f8e788c868db4bffff9d2cf0f0f0f0b4b4b4b5, 0x5bcccf0190dc757672e68d87e04b48cd9fc7e24f01436d196bf5a4ab48e3fed4, 0x1739635db11cf08d47f167563fdc8e7449ce32bf1a94278291d8d5d73abd27f6, 0x3eea3b246704a6ff57166cb81792588314c6ef5178236fe0147493367c92ec79, 0x10476209e2d52cec91a1cb710764c6c37b2eda1fc8c2e88eb100bcca833c2d49, 0x61214ce24de3c35e5a12b9ccba6f901964165571fb336d676abddfca89b9f91, 0x4bf7ed1a485f5ddb6ad07523ec6ddf2cd798da2407ba6a929f8ccca9ac3f243, 0x301022f44908046427ab23d450e7d3511c856cd5e2c92d4d6fecc0f8d4978cf6, 0x6e61ffdd58938e439808ad2fa916f22c33827ae7b83a182bb6b3ea37dae0a8dd, 0x47148364c93beb03d3ae817f1811ded52ccf490ced968e6a05d783033e763ae0, 0x2d7ccd08550557d251c7b1962421fd7911f21d14b347059ed31d4357f548e676, 0x24212dc14ceebe56b549eeb773fa9be9da710d458ee7c72a624835a5bcfc69a1, 0x59aa8e790d6f7d82697f34413cdb036283eca38bd800b10dcc74078312ff153c, 0x22f19a63faa9afb830c3125914b51e7e9117003048920be5e012c987951588d8, 0x327ed9849a2955f2513a834eb35d245b8b664eddafae86a72cc68b25beb545ca, 0x7b4f58373295d2851fbf1848597bef24c5b762461b782ea751917b443ec98a3, 0x3c1da8148f6d6c7a79e4a6d7e0fb250a3bed99e588c42fd3ed8cf23e4c420cb6, 0x447c16e39b2177158248aced16431f5d1c9f5e9816eb48fc29a85c10b324a2ea, 0x837416b28b859c5c6e80646688eceabe5646e3f25cb74008e53cd3a4001468b, 0x3e68109b32cf8cd3723ad05322fd611ec9677f5e2792c36b49ce4594a301ddda, 0x24521fed2c8b7a368928979e8d298e19bcadeefb5cc7d5b1cf91b8621050e917, 0x36889f41a831d854f5542bfee4cb4c28915ffaaea67d45f751d4dd8eddb4eb37, 0x717e4d3253de850f3284173f2dd7715baae3f7f90deee8bcd7e09d7168d592ea, 0x4a76b01e32a0ca445d742216ccf2d8371e8a4f3f69abbcb9fde0a418e8bcfe34, 0xe49973e5eec0279f4d57b57e45dc0e2b2b06693efea144aef424724d0d373fa, 0x37f9efe8172da3722b54d23b3f3f9278d58e75fa73054c1e5eaadd48a8533a08, 0x152e479337f15a72999240e93cb5882f19b128ed295aec4dc8c8cb27428e9e64, 0xda219c3ef2134c8862d6b4e17a8cd58a6be56b2229bb2a50c52bb55878310e7, 0x5b36bb83b1eb4ef721fa0dce2efcc38f0249153635ade400cfc4ce60cc5787dc, 0x34222572488d86d6e3e76e41b4e931b78987f68afb4927bd59c28f2ab21841f9, 0x1f3d88cedc159f2bd35aab1cb41b370c5aeb68722369ac80ea71e8e20e920713, 0x1df081c21256c04aff79a012159323ff1065846b402ebb54538f287253d08271, 0x62b3b284883b92f7b6d49c2e30b6ac7f00335dec076525db8621311d842cff3e],
    [0x1b46fa31af7059b6a2a432d4b6f8e788c868db4bffff9d2cf0f0f0f0b4b4b4b5, 0x294dd8c9fc699ca96c25465bf01a8b0c5ba98f4efbb301c19e3cf605b336a1f7, 0x73762f565d45347f42b31c6a2d6f83092a0e76602ba5b9f8f686357e6272b464, 0x2d67908f4dc79f5884d00b0f158691761cc46763b643d151fcd1eaf7d6e2d6f3, 0x4a1809d5ac0243a30ce6dbe7fb7bcd3d4b5f7e9474800b3d46379750bb527f29, 0x281f340c782b9e458bfbbe04f26e428809c5538004bb3a4aca2d95975578e00e, 0x3f1fe0d09acf1b882f6f3974797627ae884a06826259486e86d44593b98e38c0, 0x4114803d99c20bbcc9b9c274f011d6ffde33b8d887a35613aff0d97dd1b99f9, 0x669c8da79d8230378da378908c2921626477aa3b549c1bf9f1a6615cb9ef4bf, 0x3233a3b16d27182726c680655451e39e4c245dc1ef189658e151ef493ed60fa3, 0xcd0f59db83558556f616b0e8c8887678f64e8fc5d25386de182bbaf3d5d6ab8, 0x19988fbf255ba461bf8929586649e9ec9e840b73ea962ae0763cd56989a4002, 0x3b68953b6338c7b2199438c8a5bd4149743ca09423cfb88d6d05084ec402e250, 0xb0cb29934b532c5290e48d10189cd3600b4010ed9f2e6e70b9478cb38e4acf2, 0x3957d9b04b0755ddc6444f7ba9ae937d78f3f671ec5afcc6487830aeb4bbaf05, 0x4b5c6cc3a974e020bae911c53827c5f2f724a2ee2a8affd1d696f907d2ea11c4, 0x6cd4249e999cb69ef55b0bd8d4d2e6f6e2d2dd8aee22c83c205df9ef913202f3, 0x58fa30d08f6cdb8d3883ffa73173eff5b017068a4232cbbfb556e617c92050f7, 0x607904b290bc0b5f775992cf8f64291fbaa0066da437bd1f299011c59faa4423, 0x4c182014d65676beffd5c25a5fd6e2d5b09e01ef1b9444f188da4952fa365a6d, 0x3c5f2c69a7307ea15a61e090d96c9760fe45bada879adf443d70515cf0e552dc, 0x30436b570e7fe23c33b9f79142cf8c9fb0fd60ea23d1510a191beaca94cbd4d3, 0x4dcb430b0420784fdaa2ab72f12e1d368d7fa87d2e09db9a4ad73dba9e73dfc8, 0x49e386775a4eb24e90dc9a481db497f8119835d3f94f080be8e76af758f1d353, 0xef26ebedf4757d371ac254f58f3e93aeff38dc9bea728eaeb3f0e0e5f4500c6, 0xaa1f0ac051a5d75309165b0f765623833b03f61c7a9261871516cf713b478e8, 0x621a8ba4c484dd06fa7be30c7af0e29154319a63349d51f52487945a284d65ef, 0x4c2db5ea14615b0632043a114af2c8f22eee6ad4e3d3f3aa37afff2d26ef58c3, 0x68f6edec1706770ff492c51a5c4d84c02b722d924f476d5ebd620ebe67df12a, 0x31c002a7aace9184ee86f55551a9f63e6d8634e5102ebc7dba25d93e54ce454b, 0x3b9cdae9a5539f468e39799ce5cff17d3d4983c322d367b8b624c3ec2f47e64a, 0x725b9d66dda28d13aa779b9d3b84dab6e40c49add2bc257f3014d6de253911a4, 0x4b5fb4ec6216d5a66b16ace8fcf3d00bc6a606724297e0595b34d01482d4c04f],
    [0x1b46fa31af7059b6a2a432d4b6f8e788c868db4bffff9d2cf0f0f0f0b4b4b4b5, 0x18cc8ab05ca75fef9e9ca33b90eadf681c13bb3415228b9fc5a85b33a8f72e08, 0x1f935d249e1f28328b5010ddc67a4f64bfee3211cd5f178ce4f012ef84831451, 0x21b00a977d0c3948a7801292d8fe96fc3eea8e936eececfbd8a48f54c140fca3, 0x7164d0e69a1ade0bb2d40c09a6703039056f78e9c25390c90fc368c54b70fdba, 0x19f94ec754d0e5a307865ac3bda0ac35afd77c3241654e4aaeda75417f3117af, 0x1d396a12d1748399508625c8d25e9a7fd589ced9e35c8b02db23188b58b02b51, 0x1fda3ef35e5b60ea2be909237cbc1db4c603f4646d22f64f7730ae0ff74061a8, 0x1fa3c9886172c69bec493873b8ba7e340b671bc22e58ac095695c5e1c73f2c49, 0x359e414ea974f1edc3358ae8a47f30d873cf5c95014cddbe4a9510864712f4c4, 0x6a460e8ebbca0fcee6e30ad92dc98598cb870e8960c6b04dc1745e44962c9f6c, 0x601e806cd53267b95b8eb3e7dd6d64da4a18cb71045087a5f60341790f0edf81, 0x61fa51ba6be8a04d18cb9a358c599dbc91a2934d59fb5c1516767e7e40a8dcec, 0x513c4bcd19bbbd67bf398b76c7f0fbbd910099790367bb40cfac3f5b3a792aa0, 0x3fc95c9ebbe92be9b6f705836917f161fa2c556367152d73a285eab6eb6ec60b, 0x35dc62f3d82cfc86f5ab39a045992a8c379199cf5e362aba820329ca5da9e6e9, 0x2d1f57838be0351f2a436b2295dbaaeee4437d949df54720fa2ee8c397ebe70b, 0x1126d12d5e91dd0d4bb31b5fce635ec6879d878f64399fad502cad5e9019a11c, 0x4939c0de9a4338c553c8443a408f06ca6332ceb9dd61d65694468ed8253d5970, 0x1d97041bf4578827aceba5b82c09dc82540769aaa937284ba94169980450b8db, 0x58c6eda31fc2ed81180f8406d67be5c1befad74d49adb7f47e14e59dbb35c146, 0x6346877e3ccf09ca5c597f559fae56196b1a2be780af6d64abb3955917537b96, 0x613bbc8f0e2b3bb2f50d1dee6a67f05de2908c84fdfcc8eb8f830f90c82373a6, 0x170e136f30208731a432951327637a8b628c10b9a580fd95a594ec645230a56a, 0x6342ce43b44b8bac3b4522402e8759cd20a7e4d9954fcbd227cb8d915df2b9f6, 0x541bc006db625655752d56e71f5deda31236de4aeaa17035a19bc372fde4aa2a, 0x2a1fd8b312756f882fc63b77395d1d23dbcc777f92050c0f45f5fe512d708190, 0x2268c9042739220534ef8f3b0164a071f9d2e53d7ccf8d55403d6d300bf87427, 0x152d94c61a4f2f69773c94771145c43672db46398b14a6f3799c6c18923266a9, 0x5b612ca22974930448330b272b3f2facbc5ed98114bb03e96a2f9750499ac313, 0x335234e22a12e226ba42a5e107428d9a122735cac62ff28e33274b77669f6dab, 0x6a8b0cb956c05cad1130bc90bb96f4d2845c6eccff8464c610bde2a048e2eaf9, 0x36c98ebb4ffafe378b86809c72aad2ce51eecde7dcbfe9b7623fc1f6c88878af],
    [0x1b46fa31af7059b6a2a432d4b6f8e788c868db4bffff9d2cf0f0f0f0b4b4b4b5, 0x30ee6da79e85e20bb8b3b484598220b48153fc1d8e075fedf92a3cbff23bf23, 0x5fa5f55e33918ddf98a86b77d7efaa9f3c04a0eca5132d90e7f214256edca02c, 0x3b0d04c7fc5905d8a6fda255314670587ed5558eeb80d6971f4881da279cd219, 0x6f400b6ec98da755d4ca0c46ebdc323e15196241b906f14d45db3de4de848ebe, 0x1aa9a0b33df0d6125adc89565450b5024447475bcf2c6891112e544922440879, 0x244be2174839443f3fcd5216ca687ceb33f708448e92c105b85f5569f0d86579, 0x3391f44d40d07a3e0c5280dc226bcc2ce2305973d746b40c0fab0eb37fe51cb3, 0x1c56516ceecb43b821b8d3f0f54d5bbc89c255df93ca94577b8077d44c9c3fcd, 0x207fe33183cc797fea634b3f0aa734a422bf9678f7f7cc4cad6f8b3a12425fa2, 0x650f5fd7e9a3e20a81f39c4e3f6bba67ae48a17aa9545adc747d5cd78f38a271, 0x3026d028bc434fd2e88467ec120c2a0f4fe8997c651806acf47e538983d0cf69, 0x11bfbf3d4d15c3a9d5b158fbfc08077328d3a4302f063daff6d18c6901e0132d, 0x15dc6f1f6b1a630150887953d2548d353b3414051b23c9eae539ef1d8b895d39, 0x345723a866db8e1429b2ecd0ce52a14512532e3be3f1c4aef255d10690fbf0b1, 0x2fae2c13c00a5f07d51a1f3e8877bfd863f5f598d4f97d75d39f794ece41b23c, 0x4ec9628e8c66bb843ac18b79c932277092892cbfaf8d8cd5f6e64b41df67be0f, 0xc903fdce86b0d1e8f5f084281530494138102be547ac2693f5f59bdfe220d7, 0x1ce283d2c09cfc56e1eaa2209cc46d7720281419d4f81da3ef455ff465d05084, 0x5b370792a349209bd0c4bbda66e9320fbc4428ff39ab0e205434dff540399a14, 0x739118eb5a25a71bc5a082d194bd88b0cb1c350180434228b652aa6c36e59e15, 0x22be4848f617c71ab6c960b14f9824f2f54a0e004fd69cd23bf5c96e0a11c4ad, 0x4b27ea946a63ed2abece3513d5943d07d91fd8de6e12574884c32651d51c54b2, 0x54f9a55df9e5b8b31b4bddf947d6cbfa5cb2c0a23dfb43aa55a4812de40a5786, 0x1677332db54a154275209a0ea2be3397f7fd4132d35ee8a83b5c52f65d2e46d5, 0x411f2a390a671ec59dadb944510b420534fa8dcacfa3494ea1d3234fb3d7d6f8, 0x1bedeab2d715c1cbebfcaaf79aa6d8fbbdf92b3d5a07d169da4019b8c58e3ee1, 0xd0de0f8397ae4f8ee1376eb1f4e1fe26b7862b13a65efae237b922e13a02e53, 0x6382efa1a070d7c1570305e259c5201d984498452f030fe2a778ba91c805dcb, 0x6309d1a6cfee03e6e62f9ee44dfcb8b4eb37b48c226d042a9074e2557a4c728f, 0x224922620ec6ce3e113697b59b7f977a4b41acf452c94d813c011977a6e0d90a, 0x5855860ae6b3db80db970414fb89737577302c10687ead090fbe4faac320a8d9, 0xfc0b6506459c9cec9f6ce2d29e97465c35ca05884e6ef4656a58d36ee1ebbe2],
    [0x1b46fa31af7059b6a2a432d4b6f8e788c868db4bffff9d2cf0f0f0f0b4b4b4b5, 0x201d1686f7601ea579ca284e4971687f034d20164f706020a5cdc8cee3d59237, 0x341a16fbe32ebbac093bc4e5d11ab0d85278c0091aeb56c551687d58c1fcecf0, 0x646fb13118ab4319cdf3480685e08a5036165323f2ea4a33c9d1021d48dd71f2, 0x648c1e116056f1a5c8f9c2e53b13c7a773fcc1482a9248fd8e3cd5a028cb7ef1, 0x5a5f271f0c7a47504197f5a9dac929fcd79c3aff58ea5b06fc19860df38d714, 0x13c1560bc1b188fa4c8ebc1475d6324df2eef058b7e14b1486f8b27dade0461c, 0x55ddc10654c86a77a513d4c7490d2dca9306c7a12c1cf4c629d6f1d796e0eca8, 0x2d0b68313e5ca296b60e51ac930b97f8e84d118f65daf7e736e7aaa347879725, 0x516279eef77122a16f3e8d9035bccdd2abc65ae4a441ed0ce2df7a1070d68ac7, 0x4490fce06a73b6a523697d34c56d4a664851267ebba72f6b36fefb1e6a5d73f1, 0x1d332c2c17a48103ebd4ec68f208c2011a72076879585e9f24e8c5f85de8c84f, 0x7303fd0498e70ce87ff962109e2e7a33cfa774b7de4cc36828d2512d4bf39b6f, 0x23262895573cb63882c719da31471aba9ec4b584c471cb48eeafce7f958726c6, 0x3584c65e6133a3b2163279a0cd158b7df941099830b7c378cf1b9c18b5d579a7, 0xccc2a3612f63a9f2a2ee6d06b0c7a0b168dc29351abc5a2d655f820c518fa, 0x1a9d050ddef1a5a85b36fe1d88211ec944d053fc397ca4dbd88f36cdb4cb1950, 0x2daba9f78f2a2c1e07c4ec9dc612ea89053bcb8d65952945cc5028d6a0678c1e, 0x3ea7f7e1a1890ecbd0a58f6b35e3336d1d6596e19fb15600ce01a5ba2f48fc8f, 0x6d4d2321c284aeba87c9e85fe9a0d07126399f8e2cad837fac17257e6af4a40a, 0x683e6c7f6f522c21962bd5e612e74f7cd725babc6bdaa22a535c553106f25221, 0x645f044df58275da151d1dabca4407925cf423ac7dc923236028286d5c15973c, 0x13a29dc99f5d2fa1a1d74560589db6d5ee7f00bd05d0e16f216697191e433ab4, 0x196a397a8500c5a34db867a51d9f4ded77b8e19ff206b70df4953436e779b70f, 0x113700a627d05a0af2cf65ed9ceede3a7a2ff685a817d4537142d4fa10819fe8, 0x254169c79eaab41017626a9bc63895bcd386b0dfc0faafbb1004f27012af5184, 0x26e527c10b28e68ceeddc922c261aa0e06ecfdeb49836a8e37e2bb90570eaaa1, 0x6c69581ddc1452017ef39126edeecb19952aadf177f156a04fe70f8f9844fb81, 0x36532638437b530185d39fb01128f204cf6aec90361f0f196dc7ebf41ad6ce, 0x27d5cb2b9c1d6fcc97161fd16ae036b7394c88e8226604833e83987de98d1dc2, 0x73a1b8de6505979165443d82dd55f8de10b271fc18fd13caf9c0928a283b943f, 0x70fb5fbf235e4cdc5611ed8fb2575944cbe3f3eea0660b0f0bf1406329b8df47, 0x4593f5f76d6fa86e6ca451f5e49ffe46afbc1797a430de982bfcbe2f355e1d17],
    [0x1b46fa31af7059b6a2a432d4b6f8e788c868db4bffff9d2cf0f0f0f0b4b4b4b5, 0x2ad190e0a799f18473675a2df417fe9a339c290f48c279354a26c60304363c63, 0x2e32c8c39e3ac5e522c5f85909d8147487105e25bc00d98ddf10a2291d8910bb, 0x2aab77eab461689dafd358a4c7524f9776158afdfacbb22695fe422da2506a1e, 0x49269ad31473e8b60e7e57eb8319aff01f140cf05f35ff1d885c49759140de23, 0x3b62d5c1ad2c23cde404f6a3fbbbb224421fe6254ef473d3dc018a9d971bc231, 0x213bdbe9186a752d69869494fd4ecde1accfadecfdac03cd5504e07f089217fd, 0x5dd5c007f38c6594e48d3eee902f9c65a0346a42d926bd4c2db860c3e5fa046c, 0x9984b71ceff5dd9e365373851ede60523261bfabe8d949586070d7c0a1909d, 0x543e7ef74cc69994e82093fae302c1ae9d11ea9f3e83331325cfd67d3a77780, 0x683306b397a155727c34d3fbfd0ae9698b39636a6a7dda215445c5c57e0c802f, 0x62d969b24e2bc9700ecdd875b1621ee328236c531ea85c697361812f92ede6e6, 0x111ccfc9001cb41597fed986d281afff65338b3c14dec190c971b133767eb8f2, 0x2e72b32b976f88b95643fa56e37a43a6563fb2d6a66c5356d5da990bc285a814, 0x4a59dde7854b42fded3eec5f3c13f238db263e9601146dd4316bbf43722f3c3b, 0x5886083930a746ecd9b3f1712d16063bef2474938589d809afc84d93ca61482c, 0x43e9fb72c2af262b5a49a097e5bffb511403d0dd88407f6b015f2aa4a9e644f8, 0x5cb709e5e5009d15b1ea1726a15ca5d2de2ee4ad4494b9bc244d9eccdb9cbce6, 0x5561ad2e22b6436ed6d503a1a1bea90d40e2ef704b97c637dcb4f8832f131b5d, 0x729218bbef8dcb4f5bffb0cfd01161757cab594bf12d24d01064297f34b94b61, 0x3e11cb52492484c01ec756ed7f1c9b49ba15f79275230c6ed987d052fc4627d1, 0x4f134911c92eab02dddd4abb18d8c1ee7968776b6729b4e22605552ae15f5287, 0x10e252d5e417d394ca1bcb3391f7bf8a35f4afb305ec9a94eac5e4276d9d34bf, 0x18c86a7a2dc3981d30011a33b74f3dab94bbdfab1534581f1facfb0bf2ba91e9, 0x4fc7d5f165ef8682effa0ffe7afc9298094147907ff36bd40c4d341962635b15, 0x1c0639edf3dbde64faa95ea8fdde3a620787040173610074c20ac3223027f622, 0x39bf220928d722f5e76266e90d5180d35f268d357fc4a7e193eae14d07f34aa2, 0x5668dff05c9357a25e23924f5e8d0490a88e38a86bd459f878c085e74a676de9, 0x301f317aa9010600acc6c24ff755ad68611276bbd7000ce6ad9c6d895ab24395, 0x45c0aaa9cadcbd6460337d598df12b8018959e00dcbd4aeb953efe7389074289, 0x14e094712e24458837c8da10712dca93a85f580af729ad73a6c9848c77321f63, 0x2d12cbc4107163be5b7554996dbab9f25dbeb43e11dc94deaa49bff22acd3d1, 0x68a29fae753877884af7649521b6ff14763fd8049b35c62a2b8111ee962a188c],
    [0x1b46fa31af7059b6a2a432d4b6f8e788c868db4bffff9d2cf0f0f0f0b4b4b4b5, 0x4e774c5dc3e70f1e5682f5c6dbcb9228497d906157e4e458c8dbf5885ddabd0b, 0x18b096c6ba5df27f676eca3657b5f20a7e76a84f359f89b47499b6acd84b720f, 0x71f8d893b0429b94f94cb140ae68be61ce1c1b6401196477387dabab5d47635b, 0x6ec25330173cb292f421443074e9fbf3b63204b1c38866452a0da362b3796401, 0x4d3e3784522f8a7d0f83f1b4da48772fec807c4d2d35fedec6008a9488e9f59a, 0x4cbf078e8626c04a6dfcb822df6573579ece6360d272250252df665f2369a93d, 0x4861c969b0a0cf7f43873d825471091dccb0d56bfce555bd7917fd6bbe5cb06, 0x46206f50727292de3bb97253c52739024c6eda633844f82d98e9c42943889471, 0x1422b13d26f6d234576ef2b6b7bd5914f28a1b423af41ff58b0f4e1c181bd17a, 0x4af1197a663da8b3d67ba0580cf6e28d40591e196a715ab63c5dd9072188a009, 0x2b735a50afbc4640ab67e316526737c304ceb4feed15e49b382e1d603499cb37, 0x5af7427639a8db14adff6e2b9338db00b6231a2e0a032542ceb439dba152ad95, 0x2f3e8a3f1a79eba8a82ac65815fc920f0fe00e0f350a033c640a9fb53adb145c, 0x1b3e89c6154ee3089bf899f203f5c156a50a288a07ccb10e40d0dafdc1a56a0f, 0x48bfe9dc48314ce4823bb79595868b225d096e8bcdffddaa1cf3480377a78371, 0x29f4649c2306ec0e18eec62479c6e1491be0385245b0389d37c83c1920a5f495, 0x3ac491d4f5a672471902499b9c2516d815a8095480795c8db70538c1ed5a4d75, 0x2205b449d15117c15286fa2f17ce27d6e5c3306461bf15dc15d7488b20ae6c28, 0x342e692c1b7ad29e8e2ed67de75eab98f4ec2c7a67e8c1ca51baf16265430bbf, 0x3bb6cc09ba86b14bfed864ab030b880589beb93b7711c744ce279e6ecce2593c, 0x4c721d0408553d61cbe42e5c8e2ff968b4a9eda3adf0004286571c0d3b0b4cd0, 0x49f49287ef7b98aafe38dae0572a2e9a5227e8149703bd35b03446c60287a9, 0x1a6b72e8931eea903aedc496a4ab78e67e25568e2d5678c4c47293b283bbf53f, 0x5c6b3b4ff4f7590028cb79a41df8597e1eee78091de28254993910b128e7d1bc, 0x4b987d502f842db2f8219328cbd5badb9ea46123586478b394bb3a058019ddb9, 0x617a446571b8579ab08d0abee6caa065746fed9f20235cbb7a75e39c180b6d6c, 0x58622ff86e7aa3453ce616e2325958e9166adb651dbfde9257141c6b6d66bab9, 0x488b50c69271cab16120fde6ca9988d4df55a96181cce9d5df802dc230f95b93, 0x20f3645584028f9b1694b89acd0ab9e0df6a9b2f0152b7dfa6bd912e5d5b20e0, 0x121137a3e56983410ee1b52b55f77f4bf7cf837e1224d0d55e857dccabcb5d6e, 0x62bd052f64c2aa67bc20b0b422ee518bfb349ec8cf25e2729492d7527140bc67, 0x30c58f8db5c89810a8721f8008b2c986ecdcb94804ec8b49e1b54feea9e6c460],
    [0x1b46fa31af7059b6a2a432d4b6f8e788c868db4bffff9d2cf0f0f0f0b4b4b4b5, 0x68439c12392264d149c3240b679dfdd36e3ba06712bc060bdf395ff4e6c1a3e0, 0x2d1ed5b95471f89fc7c8e589e735242fbdf54010f42b11a2ca6e51533e2b8097, 0x34a4f15e2d01a72c2d9783498c048f98376d0ca7212280e070e5a002c7e4e6fd, 0x45f7f114ee3b261202d50829522f0fdc8c60f8936166cd3f4cdda36303a3e581, 0x1197d2662efa441482323b66734cb001b18562bb857e0bcbeff2af8ad0e67165, 0xbe81bc0fb9dd220918cf8822806dd18876e114299074a89207c287d818fffe8, 0x123e8daa219704daa976b9f474b89cc9fab5567bfb8ab5c39de7bd98a9878301, 0x526099cec0bf0a46497073b383a4e27c62f3273187d11408755287c77515290b, 0x248afdbe82e49359b0551409c625fa6b8351d82795be88ba666e64f7db2c4677, 0x4a85108dd4be07060372ddb9568c231db041821c964187bec523be01c153863a, 0x531468e9edbd12f07416d4e5075ceddb859f119efcb915445234f64fb6325475, 0x57a25c6a5540fce87d29ba22f6852e9ca48a59af9eced5e4b0255a7a2f95d606, 0x6e640576165f35e8c8925f7e47f55687062462a1edae4be5cc25b8fc9074e96e, 0x5195c922efd08150164c1b2923c63b720b4b46be2a9fe0cb8ebee4a9e20a89ef, 0x6dbc099fd7a868fb4eeec7b2c3297e75d2cd8f1bc83e772152ed84553b593785, 0x2a83b8b07feabae1720e4e173b47a4c30479130940d673ec95810a3daac6ac56, 0x68771a5772c706d3cd493fb00f2a42848a1fc39f01826dcffa554e5007988f66, 0x2db927711e3247828d7f32b6bc37d01d84720b6b790852767421ae854abab9c4, 0x35a6e8415e45f0f237681b20f8e8334119aca1518165c519783d8681a8b8775e, 0x330ddb03bfbfc5f2ea107ba4bcfa3c3c503ac9d6064c85e9a1fe9ef8ae4ff679, 0x375070054ace265a4f39ef0efe8021a9f3b93f4c42205f199049e49715f9cd5c, 0x629a54ac8fd0ccb05a828252b08f6d7896cd5b9e9c45d6208ceb04b7f513940b, 0x6a490ed1bfdaa1d22401200b6a8aa948c3e69545f2212951e18295d6446009b2, 0x5e8d12cf2f0a595d38c594b167d9afa6f4d5cc97e6eedbd4f799fd5cb9583030, 0x65f8c8406daf9bc6e8465c054ec873238f7dca8be16bb5d2600ad51eec93f1de, 0x19aa861279dd010152f02cb3ee0b221f97edd655b83e0b9c9c4a4e8882963a2, 0x479bdbf54b658b299e3a5415047dad3f841e0b48319ab835dd884dc8b4038098, 0xcd7846264b657bc04576c36d1c71d92a6ca9f2b3be6a216618b679f012067fa, 0x581e18d8aafe187f1e0bcb2226cc2b643f9b91af3dd59fe0578f0de88083f593, 0xe3ddc5bafdd8d44e2e3abbbd5cc7ee8d7ca6d88bb113de9cd044ec184e96179, 0x4672ce939911fffe2f165a9d8f03d785ec569504a43bf1773d6c7049549081a, 0x559febad7533d4fe1a8af215a46093949e6dafa75cb660f15128bb917be558b2],
    [0x1b46fa31af7059b6a2a432d4b6f8e788c868db4bffff9d2cf0f0f0f0b4b4b4b5, 0x6251c84ea25b7db7cb74ace09316da1b6336e639cbae858f4670829614ce093d, 0x14aeb69c0651cec7f28603ea0669e01061739c335fea23a8b8a1425f2678a68c, 0x6e3321127b7ed97fef55c23da45a08c228db37e3b73d240d62ee352ba6d8703b, 0x2862b0409feb487a1641b4526eecdc18a5a1b64578c4207c178324ac29daf843, 0x1b35c2764ffcf9c03e7fd501a68fa29747b481b8cca2d6e3a4816cffb444ac3b, 0x2111f97cda8e979e82d0fec2907b1d4d23a8e8ea2cc5256ffaf4fee1ff6c57c8, 0x67966966936158ec4de08df11e7e47394ca9900b8dd182500f255ba5b87369eb, 0x3aea022e60b5a45b6ac72644b3c385a0c0010e3a63eca6c12cca5d782fd17af8, 0x3e789a647bf6c0eaa492fa3ad28dd339059e56cf59d8da02c3cd7ff3bd33b7b6, 0xee03fed3a17377e18e85fc7e1ca0b07510d6f60dca0fcaea0075004372b48d3, 0x4a1ab7bb2f1255e780fdeaa5a07eb9e2e77ca4a4b8f6d409aeac3bb12d3db6f5, 0x7045521660d38896b4721ee7cf79fd32d3a2f0a585169f5b8be602467444273, 0x69c154daedde34faf892278a35a95b7d23251b55532b9468b1fd4e68bb98c302, 0x6b6591b2fd3a53441e5c33ef08fc55750d417b6e8ed7baf821666e8035c2d997, 0x686b89bd97061ea66538505253740e9148ef66c47becfd8b5fc40edb7530aa5, 0x63aca1091db7fb49d101a96186fc686c408f3bcdbe9baf17128556344e6a201e, 0x52ebb683b9c4c4a2c2aaca3f6408663f5c7469c69af0d9dd21c45dd723c042f8, 0x2893b0e2f49a8d3a668f0b0e4b967ef62542e90e53466d5fd2318729465361d2, 0x2dba30d66fa21dba78a81f2d4948bb5b88cbe0e9b5dd930d4aad9b68ea7d105c, 0x6be7029c085d42d71ceb6e5b98f3023ff5e62aef832198f5f0b55c43f8ef72df, 0x504b9a43b2183027dd10d28339a4c2366cf8ccbd8acf8bd57787317120090338, 0x78f2f817604fe4060f3365457e9c5f7705a1a06d84dc715b8a50b6a206cec50, 0x1511ef87f41be053b2707e25bdbbb2da3d5342c3b239a862316b22049c66935d, 0x649a2d945c596de599618f221704f23237f2bc06b481fa4ef5d2ad11b811c365, 0x5b44b0f6d5cd9a9b21027ccb089abf1adcd10d9ba991af9ed6f8a6f01963a11e, 0x1bcae0eae70ab136d3584f70fa4f9b53fbb2165ce99ecea9f7fe50666727ce86, 0x402ab2b2a0f31af71fabc9159d618c5484cd0690e52d70c74e521e6458f56ac, 0x70c09474b62ca9f0ecaa05b04be6d1d7924f64e58799500a91f54a81cb6586a7, 0x817ed690f126a91583065ed951102d22590e290878f5a1bd64d567693d14f2, 0x17dd18a359ee32075d14306b7b99711e7e8ce30b5980b434235a9c0adab6d95, 0x3c5069a89548fae80a21ef984c43a8a0cdd1a3eea4ca109dd63b83fd70360efb, 0x1b988738c9b1b48dc1dd18b12bc99f2cce01088e2296d99cdfeecdce1be2d6d5],
    [0x1b46fa31af7059b6a2a432d4b6f8e788c868db4bffff9d2cf0f0f0f0b4b4b4b5, 0x5bef980375cb90d58533f77932b4608d2f0f890228704ed613985f0efacdf170, 0x454875c691575fef9281f1939a879e12024772c8e37cf00391187c770d2c12fc, 0x5e0d06d4154f224e205a71bbda5c37e90e9cb2e3fb462683397b91b39001b614, 0x2c4d689fcab7f505f884348d28f4bda95a787371d8d4a5db331ced103ca8063b, 0x5fea1318bdb4a5b4ab31b618ba3f5c8a4d5fe5bb0c633117b4b37394c1abd0b4, 0x3ef3c2e380426b10e9daa949609d4d56ba24a44b9175ac25d2289cb366ee06f0, 0x434477c7b129695277921c71b1a5a23f641f03ca60daa3f088c703bc0ed89a81, 0x3e6542c7eb737691000e12b33fff25c3627ed0da0ae570699f6711ddeeb46d49, 0x115a444093fb3440db513993f3250869d8e024edfe88cec210dbe6e1778342d1, 0x21e49a11e04f4b566b7f058bbcde73e4d36dd305e910646709c96edc25b971d2, 0x4ad739b0185d54dead8138e62baabfd95e9af245d0b91ae7768ad0752532fc97, 0x3903553ef4eb8c5fc266e687e29c25d9cda6b7ec4d19522cea21149d027ef341, 0x6aedd6d4f06fdac3cfff5293029d00c59a74c89c334cab26d0b850171bfb1372, 0x1a45b2444621b256b1030a0821b421da36ee618bf3e74f960c1014a850542ef4, 0x1372fadfcb20f3102452f13431e9c1103285441278d7deb65a19ec3e709aa8cf, 0x1c965d053c47aa75d6a337e140375fb149d3ca08d65a4db7ad876c82b1abc92c, 0x254c247b5321f86081f47fe9fa463a24d077c254b79ff6629be991f9fe3ca767, 0x1b7ef7b90f07d94e2c80da5d4940b48593cf8562c7acbb9ca1a51d8b38e73140, 0x6a22521dcebf80c7207474abe78d1fb645110bf9fc41bb572dd3efdba325d7b3, 0x36aa7f5b1e34345bb293d4cfa0d2c1913007971ee45095c0ccc268f9a9c17a17, 0x654cdb0f89be8ad4317bb9e9fce90975da20ad7cbd4b5ce69b1902d5f78924c8, 0x29adcb9c39a7ed236b4c9039fa3415076aa6551dec6322d5001f253d8e8ea91d, 0x670bfd42bb3b1d993f6f0c8068faf7c818f12ea3e4f4d52ef0ddb9dc7055cc7c, 0x14c2d613ddf4a99060aaf4acb5ddcce1544a79acf12cd429c3ba892c3a731cdc, 0x2ae4c9f4d1c16ad78da5a8f79de1a49ad19a54c17ca8a6e269a451d56a927658, 0x64d20da79ee9ac813ca40805766389615c672d2f05d550c8b8308dc4289d16b2, 0x4b48a5965ea2680f51ef573686a07817840f2311938fda642bd134d4587610d1, 0x5e071da876448962b7666f6603f3d6e5e4c9d6cfed1ff308949abc5747340722, 0x29b89d7955cd18e1c70e1eb87a360e46221bfd02873ff8ac399bdcf7c4bf7abc, 0x1f650b0a3c48c6543a359f73686b0c4e6f43f2e04a92bb434bb8446d0ab7897a, 0x386265c14e877ba10b4a248abef04816af2671f8dc3dde9a000669142d9c6145, 0x4d4789e43241c0089622d4df8f9b6f9a1c4ab483ce89e1f82496007f2cbbd951],
    [0x1b46fa31af7059b6a2a432d4b6f8e788c868db4bffff9d2cf0f0f0f0b4b4b4b5, 0x414d0589da9354fb92524e22815bb04ae80bf8ba74060d9fef8ea4bdc1556f92, 0x6c16df567fee9178be9bed4331feb3fe7b31398e0f6209c7d1ae58254600a348, 0x21b8a0c449198f33be954e456058b0115574dd1de23a5efa768fc53bab831d9f, 0x2488d068ebf8294c476b67e3509710b60dc32615d995b6893c7a2f264b420c27, 0x229ab512dcbcef919f555b3a54459d10b98e201af0f28144901f74e366716426, 0x2c2536aafc74ee1101e052d0e6ef53cd1c05dc7881edf7b151776552386514a3, 0x143080f8a16249f2a0b019f0d465b2f1e56c32391ac06a739707994d2a3dfb5a, 0x14de8279e29dead2bcc7e11935053bf501600f17a09a689261765a958a2af2d0, 0x23f71c2e4b799a0aaf423ec316d0f10de7dc838be47138af529c7c06a87ab7e6, 0x6595a762bd00d89ec5de135a373277ac38df930cc70f3299e98432b4f0a54c63, 0x690136c5eb6665080efdf45f49364d9810094177b9c3bd7418995c58b9fbea9d, 0x1cbcbda5a1123c8cbe6a9e3b323b7c6ce122fc7d1970bdd848091b508c3a0d61, 0x59e8f8ac0d05bbb975990f2c61147a71cadf4e5e70a54c2d00639bd80b8032e7, 0x3afbeb31ebe856a96f5148e2f58a36d1d288a4ab644717e9a28dd58f7fc277d4, 0x3a2348c21818252faf310e96ac43963ba42146309baf3d6714f81603eb540baf, 0x679d1c2cfd1b9e92e294838002f43b1ca3e3537233ca0b1b0ec65184acd68182, 0x2179500275174e9562ca3fa0ea1652fc8c6b8ca41e741ebf0ea38e831cf1523d, 0x61a05436c699e1bdf6a39b0312ec686057fe3e7e3fafa19e6309875e6dde5c78, 0x230fd9156d5208d91760bc4e430fa5acf569be5e20a91575710c74f52ff147a4, 0x313cf387fab8c8433b176ea34dff5a0f40b8ec24157fa22619aaf4e23f6bc67f, 0x1117fa2ff720a30690b40c79e62ca938de447eac6b9f11ba30c225530c9602fb, 0x4fe40e54d92a132c2895f50d60e87533b41eebbd8f6c35d11750b4c0f4b2a212, 0x31f7efb7181ae72481a92cc3d721037181061be94e4f9e31feaa9f71d83f3347, 0x5b80a8e6905f9448a3891327aeb0e4518c4a27efdeae1779a84cddbb015b337a, 0x63035c356d3380e1bfb401b6ae9e342a532541cfeb51242593b1ecda8e73d21b, 0x6c90628a2da2e1b886f50d14c4a9da0a239db5c0e2d6243823411ad2274474a4, 0x6b5f36be50a2d39f13a73cbbc9d82b27beaf3dd73b1186f9dcb8e30837e5ae4f, 0x6dd41f9a00bd3ad22deb5ff9467fbf7911d2dfe71bba09a3c0f84fc96a8bc6a9, 0x4c64f237ed5a70ecf36f0684a5ee2115888be3b142e2c8dfde3995daf92d722b, 0x7197bead8508a15b006f3ecd48e4a3fd3d0b0c62d703878cbe72ae07b31593df, 0xc56b9d97bbe5d394193bdd91ac9564be99c53ade229903cb867aca2e374651f, 0x8b4b4d8f5bf33dbc9625116c7dc808418a93f71c6a27cd728345e446c2335fc],
    [0x1b46fa31af7059b6a2a432d4b6f8e788c868db4bffff9d2cf0f0f0f0b4b4b4b5, 0x10a1eff17668a3edb5444082296503724f5ad359d8ed3a02e0291c9a294b1f7b, 0x2b7412f75da8d77ab14713967676a7de664bcc03f5f262547b546745bddb89b9, 0x6ea18198850fa90e32c53a6406656e965d2fcad8452ded28e14cfa51f848c11f, 0x3739f12c586211f34f6a3bf12a9bbfa385141adc2f80713801d36e8546a85e9b, 0x3f30a07340e72d5c18a3ad1440a4dec434f644ee287147774bdb63164b2dcb46, 0x4d373bc52de2e7889f4d57868bf3216d11294910d3e6d7889917472987df8288, 0x17c0806c96ae68bd24da3a2d66d215f2aeb8aab7221861152bc43856e3762dad, 0x7299c57ffc84b93936576362828277abf306a7fa9bff6476a07708228d5bb89a, 0x2e6be09cc844359a0a8b3cea5b9565488cac491c58ae6e303c05b325907017a1, 0x27e395013df32bd96593c68f2ce91d9b211416a69535076655481d2b405ac009, 0x174f480775f45b91f5b5cc530ea53756ff9fab9529f9df17ebf62d0070632b5f, 0x71cfdd41fa2e3bb10e14537ca7b8f453f1fab95ee1c24ca9508ff05589f077a5, 0x4c6fdbc3dc5296d8ac128a395c2228f1c92348915a0c6cd3c76e8bf8bb33695f, 0x1ba2dbdb0eedbfb5c4beb9096f67aa9169e13b336c256b902015fa0e566bce1, 0x292cba2d53cb2f20eeb1a22d324086ef791abcf3dc3ac1a443a644acbbce04f4, 0x738f32a53a23df582e2df1e63aca18661a1263740035b3c094153002313a059a, 0x70ed0906b7cdf72a072cc10b5819116b5a131542fb49682078180a7dd9e4116e, 0x1e51f650b9f7b26a163145ff11979cadc29fcd4791d45001f560bf95ae09fb40, 0x4516e3c2afa699768023aa49f8fc5adeaa49b6e714f1dcf8cc0ec97a25b78a83, 0x2be9bbb7e94e0987bff504ea47f04269b425d7de815635fe3569fe705e33ca7b, 0x664154fc30bda42025b633a3a37fe6c69c38abee257cd138c639ca5a066cb282, 0x29aca1c79b46706dec5dae2896654676315c1f4f325ea95a1e6d221d25cd26c1, 0x339151b56cb023e1aeeca2aee6a5fd7a09359f8bd27802cf20d572c4ad593102, 0x3445918b940a8dbc9f09bb6909255f42f111f664b3c3474647e6e32dc9c6b440, 0x5bcb0439f2465b056012e576eb99e486e9ef813d0d212917d44304b765c58aa8, 0x19e0ad816ea65a80d8aedbce8fab9a86f054d7433038c2339cf216cbbf2c90eb, 0x155eb96d12c830cc6da0d4f71f17fe912d74eb840d6871af8ef26952cc08cb2a, 0xf6b9c5892026c1c92ca8f6ae448158cb416646834e2aa2bf9f549abc87b3a72, 0xe0791effc7b4de93e1c59c91d2edade773c075b62a6071262e83153c4b8e055, 0x3d0c90a8bac97c0e798ae1b2f85d73e27b1082ffd50fca8b9585fc751e65b70f, 0x1972f288beac2ddc740cfa980e9671b4c8ab871023df7e0c2d9e256199957f6b, 0x701833ea521e38e6f05d152377222c56879f70657ec3c81da678b3f9a7f5c8f9],
    [0x1b46fa31af7059b6a2a432d4b6f8e788c868db4bffff9d2cf0f0f0f0b4b4b4b5, 0x238bb17f49ac43057f3592d1cc1782290ac4d4d74d06d65ecb79d6a4a8f68ee1, 0x5510aef8eeb57a6b2a713d17816b748955eeff6e03e54fb496d8b34374e68ab6, 0x2b526f7c562463f34d5816f0ec8f7133a1109bc5461b2cee9ed374e5d8a7e86d, 0x6caac12e348baf55945243b8af7a2687bacf38ff29be46d53e203151f5a53728, 0x2d31e36eaddd31adb8f9643a799c3c6f19dcb4c769574324afb387efed66f462, 0x1629615a085cdb87b2757460ffde93d159ccb0f470ab5aa27094f41e48c5a1b2, 0x5d13b3a689537ce8a73d461252bb508b0d4ccdd41567fb9dbf98c15788270194, 0x3a61e85b1e5d15690260734a34a6e2aa160651b5d1c44e6f2f530ed0882b4ccd, 0x26ec1b35382e11679622da35135df1b5c8eeb56de75ceafd40242455e1ab0c1d, 0x9e6736f05bb938d5be67c5b78c33391d629e02c7c1466a6220657f2e61ceb04, 0x15f68ab7a5598fe8cca7117d4be7ebb64c92911cd535a1aed8650b3624f73bb7, 0x1ba790cf5eda8e829f2ec635c058c18afb02435ad22d960b19c69743fda2dfd5, 0x3b06a3095e5068ac6588749f321923943cc358d284fe42c32200ce4f2101255, 0x290a70686fccf9870608ce5f7e259859c7e85083939c25c3ed2c82a46b3d35f, 0x45d89e9895876f874de797e3b1595267bef6daf2d81ad8434ecaf96c0967adcc, 0xedb9597c423c99e62cdfe232b426e9626c760e77eaa03a05ac9ac046535c845, 0x73869f4e1d1af331ea878ff2be0a39b1b62d168b2791acaee71bdc65624b3ad1, 0x1900fdc5b9ac35bb317d6e45f030335b64619f80207ff207fb955619b5750265, 0x215396d672c2a70b44c419aff91987eab047cdb06675684d20964ac5bbd59e79, 0x3f717d3e5df7b107c2f4db01d5a2c36e8debc7c3cbe026e1aa5ec0ec9898ae19, 0x3709c229d80b440783dd186c85a5513f2c6d94ebaedec3632ad718a1e962003a, 0x6f4ba9109879de5998901b77eb175fb523bb6bf2657ab433cf1d7f475799d9f1, 0x689c5d5cbbaf974cf7702e627f3987c3bce60833bd942adf0674bfb52ec6f8d6, 0x55f69d31b91b853a8fe086fcb34a1a5eb0129b44eee6843e35f402f574d2c103, 0x55b56bb80640da46c68e2490629c90a759ed30442f0a7fffc0c3ba6aa97027e2, 0x631d9b94ca917b0f6481281055f08cab31f4f3e1057a57cadacd90001397475c, 0x6b28638a78e009743fe3ea85ac3f9b290f53bd67ba685a308ce0e5c411415517, 0x6096c3f7ba49492d96f34177257d88712026f77e10d26273863dc3c666606b9d, 0x63c72726e347bd723cb23fc48ecb872253ccf1577d65035ca2ca1c6ac68a4ac3, 0x22cc40cd36fdccd00c32fbea16b6d271f5f612f953a1ba242270b7e273740d98, 0x38473933d108f43330f72bb56a925d9a2c6ce8d4787170be58d83ba103b42675, 0x17bad92c283e5c5f7c73bb4c63ce3e7e9b96fad72a483a7a49cdc4ece8ffae43],
    [0x1b46fa31af7059b6a2a432d4b6f8e788c868db4bffff9d2cf0f0f0f0b4b4b4b5, 0x562cad8d5ff776961f30e8aa99553266e812fd2f43e968692d4dd40daf312d4, 0x4f169d45955057cdfe5e66dcdd6083f3b1ed63ad172d3db054c79ed425e76f54, 0x6fcf5cc893ee476a57ceaa8b1aea440af9ee9ac462b24bc829ca387871f44006, 0x65371b6b8f954f51ece51e81442516717bf434bdcc766db242731d5066686030, 0x3dfee2294c13db77b537cc389f3aef41585b26b5de76961c981860efaec93bb6, 0x149759ee20e697dc3cd5692408502aa3a1f118afdc544edb1c8a33628df1a01, 0x66d4d975ac1d753b0aa64b4bb270652c6298b6392aeb9d77252cdb8f6c66d240, 0x6b41d0d9210db15e6def00318ff3731824be31cd5f6b120f09421b8f7fb0893f, 0x6eb7619570c3bac45e99ee743f3041af38d212d05d0c03c0edd9117b7af81beb, 0x547940d311ee2f80f069a974650db1fe9b785e3c4c0daec046a13cbc0bb4d012, 0x4269b39af36b13d2ca2b4865189b4d8d877cfce4d964adf31646961fa4c1cc1b, 0x1cb9fae170b93811cb0851a83141fc6cc1b41decd2e05de8ad8a64602ea776f3, 0x6193913018eb08ea3b469eccf67cff533110c23aa5ce1bcbe4efa0c65e7af4e3, 0x70557c3fa0e0d0b3e895e282096614668cc9de07e4d49f22b80679e4413631e1, 0x605f680cf1ac5836287eaaa1bdd7e5f083d32c0131b1c32ad222a0622692863a, 0x44811664405c7317d34d31058e7fc0151e8cdfba0afd3fc35ab16ba5fda9cfcf, 0x6c95c71b24e348ef1df6972c60f58c8932152ffa963fe311b1c1768d72aeeec7, 0x4441842e038d3a67ebe905038ed201716fe97d80d54ed94c8720faf09b55cc3f, 0x22ab0b79d1f9d1ff8db74500552a290394378c2bb610f087aee296e289dd2cc9, 0x2e67f732106593010e46a034af29a79e2f2cf970066e8a8e404d5d40236fc51c, 0x37301ae403191cf33aae9feee28330ebbda8e2cc60b68e4c42764f79fdb7599f, 0x5cc19d058ff862695967d8e540444b47f9ddf7f0e62bebf1b85f4c452060c16a, 0x343ecb7e75c8671df0e6027f4ffa0b4a7900449e98aba29f99c9b0913d399f6e, 0x58309fc08e0e0d51a4747d0a1df28118a7b96d248340ef29c5b13e4f3524b470, 0x1684502689f08f6063eaa0269f96184ba3183feb8d2b78e36a4f2e153e1ef8fc, 0x66d03a654e83b427e84e2403aab46c4941201c5c96dec62f1ec325485f0f00ef, 0x58c9e3d3360cfe94ca1aefff63ccf085cf32f7b870deb9f7c1a3d8c3cb15d0a8, 0x399321660371926ff0f143bd9ab0663ad871252e3f33cde27b1958e768b3a917, 0x150050b49b5461964e4e059ce4ed763900fef68672d363c84a3ea867dcceb849, 0x411d555ffd7a9275c1c719f2f79ab32d1209e1799e0d1b898df6b8e7fb991950, 0x4094cd70b2bcf3a756edb83fe0c898bb266a799275e8620b9386135f4a9d42b6, 0x166e7837867ea1f081619f5e88ff650a0a5d6a8137ea30711891a226a58d0d7a],
    [0x1b46fa31af7059b6a2a432d4b6f8e788c868db4bffff9d2cf0f0f0f0b4b4b4b5, 0x5c28d1ff69c0c9db941a2a45a595beccb62cca29aef3a75add10f1eabebba189, 0x29927133ee840ab869a4e17a67c6419874ae289983de58257f57733fd083d1c7, 0x29b8315ccb4e95b142182105ac43c3269230d55a6b32d929b8f7e0fe8c46c7d, 0x5dee4f3cd3ef19c0b32cef4f4f10346ab04379f770b9ec5e0b87e8870b6feca, 0x5ff02ec7199a9e27a9e5e37152668750fcccde513ba7bb29d991a9598dfbdac7, 0x4bcccd2b0bb772eb4d1a2eb0590d0d241d4a213dbbb3da2eb0993a51de2cb420, 0x40bc3635103e9e388d1dc21bb5e76a9d1b5eefc043b2083f3b6648aeba70cf6e, 0x3ff1415b9e38eeee0fea875c965acf27f35e655455f734b49c2bdb2f10f5eb40, 0x177c348808e8195160f6a2591c4562e5fa29dbdc2eca6d2e08c9d0e83820f510, 0x1db8b5e94d7e826c5afb2501b9a1ce6426e964faab87319818b5c31d587cf030, 0x32ff54107393d37276338681fe93229bb74ea732afe7f7fe9daf4d8624301b76, 0xbbf0ebd0064542126f980b0bf9ad18a510319d72ea6ea642cd47341ee52642f, 0x61a34ac3747cfec74e93028cb495c00543ff97ec50af7effda51cc5fca96967a, 0x5b2e2027ec117c889165d3e58daaee9d014cde74c365d871c4149dd9699e5b89, 0x3075e9b59b37f00f7db1036abf51b223366d8bc019d19176c148e2bf67576bae, 0x2b54cd5193e6ee93ae7b369ee0d7da5b3ee1c4c89a3aaaf76740bedf4dff1d54, 0x59e189cfbd630be7d4f19373bfbd725a1cbf115861f720017f7deb7e343bcc4, 0x5e608bc0fd14056f1e228662ff1722fa4887126c208c1f611dbcd04469c62506, 0xa1ba6d93565c7c169c5924193c2d2660e9941de2ca289bbd48dc8bf8cade686, 0x5ff83cd56a0268543671835089f0200ef32a005ad82ad850c7c004f4b6d83d24, 0x4ce3f9f7f960a21ef2ba5d4ca5cad09dc707d78656ec3d7ebfe3957918d3bbba, 0xb2c28c92906251a65bcbb73911d3be9127631ae5662e09d0a3d83b550b6dfa9, 0x5af7453203eabc92882e073ab1e6d4dd4265d2c70a4cb82e0c45d82de11f1344, 0x48e452db1eeafc6223d319e0556cbb755b5b4921218a37005ef195ee9c9847d3, 0x71b02c58723fe401b165f72938a30eef7c2e2a74d605bfc280c61f45a5910545, 0x3baf34f5c8ea37283b330c30146cae9c287626bc63a460c8386b54f04458eea6, 0x9d422c7eb37a6e07f947aacfd58c0353da59d18469c5c7b5fe58dfd0e63c658, 0x54f7f3a950e1a527e20ef235f1f95c87d47b7d51a5bf0fd162a4baa36868930f, 0x620d2941d2766af3ed4c452cdfda8bc52b46527de5301a3e90657c1567afc908, 0x1599b29f313600cc9e27a8acec9ed34f3f15218973e1b424ae525bd716b47866, 0x1a9706746cda48ea818fea0423217db4283bdefd9ef163620d224d5f2661e0d7, 0x16430ca91d3a1767679e8a0e8b9027e4ba05f2828d6dd650e081155d84768837],
    [0x1b46fa31af7059b6a2a432d4b6f8e788c868db4bffff9d2cf0f0f0f0b4b4b4b5, 0x5148480669d560e48197d4c35009841ac65aabaeb7072a074e49635081e52c60, 0x644a2cdd701eab80465744e6a1ab5f8b657a6f6942741e70e8b927e84a3a3416, 0xadcac6907f8df9dffffc94c35fc756df04cc963683dea9644e85236e199144f, 0x61e98716936f6a1547ddd46763e7b7f80c9d281fccb82abd7ba3e8c3b23a1b04, 0x3d00cbf74dd4cac10b078665d0d8378e57e9256aef83a3ce8b33ba36fe4d67f4, 0x31fabdf6b9a2151b4621fe187d5492803133d87fe1a10db8166eecedd755b79e, 0x45514503f30dcb91fa756fb5c2fff73debdb88cd16674d515dc1e9821b3b3ba6, 0x10136607ea669f80200608f57a42fc18c5c20d309d9948faee3262243f740a06, 0x370e8e1b0b49e5d8e957bc98a1ab7ad7833601c6c0dbf9245b76fd0ede893bf3, 0x39c7ef7479afe58adf427f2f6142056cb3c085e498d447a84cb0387f86c55b5, 0x47ca29a189ead3470fd38d50b4c4067bef21d11f2fd0c94fd62627ae452d4b13, 0x2b4f349e3004010d10e855130a192389b19eb87420c8ac5c412f2da385840dfd, 0x4863638351605ddfdb624b9d1bb8c240853b36d505ce3eba24470f44aa9ed94e, 0xd3d6bc7f2a22be5340b1cc0205eb84ff370f3acf50ae8c4db3df1f93e28b36a, 0x69fc29c11cc6f2963de220359492be08a813f173fbd02628ed57cb951d304d72, 0x342b0978a9e5d8f19e67d0a7818f4d6ddf3563fe8221078b24e4626e9e63261b, 0x2f6fbdb3fbb4ae5582db40e8f1779fbf25f1457c05adae502c2a2e21e46bb5fa, 0x240a3b64003d96bcd3a905d04e55c875c5a9f5661cd4a23f3a51fcd243fa1456, 0x6d56cf47d43ddbc9b684bcfc59748cab4a4589423a6e4b335ec19def47140514, 0x18e29d54b2a0cf53d7c389dc73bb6ec321e9538595f979ee0cf6bce9899048e0, 0x4c673bc12028314ed435c115dc1e04711c7fc1acb0b081d9baa59aa2e28aa86b, 0x4642cf7f2b3d6b92fef2524319a005ea1f689799179988c9a0b76b9b5884aac6, 0x2cb2d05a4a0f0090882a20925e6ab27df5ce1bc5ecd208f5761c4f061a326369, 0xa594f7f4cbc7838ff7f7070dd25a52937bddcb9fb0ddeb3efc7fbba64762585, 0x2b8e5166bf42fc89306f3b229c8286d7593e1379c623a01ce7b3b02db82273b, 0x3c4451a95dce715aff92c1929dce263682977831ade418f631c0b911b982180b, 0x27e2219471d197b6448ff10779b093d282e0465678cfeb071accb4e7666e90b9, 0x54463488c0e89ef6759aacca176539d076cb717e5fdc4117585b76225f03161f, 0x462f731e6c97f05e39b563d1455c9937ec9ddf1ada2679b14b32d4814f2102bb, 0x3c48567e1eca59257453d883376adb258c68c4a1d339e73d5a85f4f96a478073, 0xdf666691387c811d49459f21653c4f1eebe31dde7a726becf14ad8d13cc1bd0, 0x44cd74bbee37f48ab09a4bf5bb24dbaafcc244a89fe1753d44bc04ab7935e446],
    [0x1b46fa31af7059b6a2a432d4b6f8e788c868db4bffff9d2cf0f0f0f0b4b4b4b5, 0xe9fe1b87e61286a2d14fb81a140ce2558fe763cd7bfeff716dc51f82f1e0f73, 0x12916f886709726ed967bb9058e042dc216f3c94d630a71e0089090d202d4338, 0x2710ecc91c37bf19f08d258f22755296161c014bdd9cefaff85af5aa62e06bd1, 0x2ecbbcc0ed701aef7cbb8a3ed0cc3bde8d91a3c2e0416542a560814a0e06ed41, 0x2d195bfaaff9ad8defc88f375ae9400ce66c443f5683f8d82ecbccf9f67439c7, 0xe0c252708495199c43e89d51b8753602818ea97c69b218808ea8ecf2baeb9a5, 0x27909801300654f6e48530cc461576c414e5b15a2f393a0dabb3c0ac5c042b28, 0x4fa2c55ddedb856416d35f706407461a7f6c0e0cbb38796d2d3ce18a31c4a7f2, 0x202ab469d497d701de87d489334e771765dfecdae1e26aa2e34d00f9d080f84e, 0x25fbf81f3932389f3a5b4221eeabbadeac62d5aed45cd88cb1cc121eb65cb84, 0x157b8de2acfe4ce4c1fef2ad076da615a18ee3c3f35dffba82dbc978c9b3d1e, 0x2727febe9da7bed25abb981f85b4a8d0b242279566c503d5a28048e753f5de3f, 0x45c0f6f3f3e4125cc3f81b26dd6cc6a9d4fbbcd73f2525b69cce7fc0e0255d1d, 0x15d3aae08c33cece56884d2f262c654205ec00f2d2b42b0fa52aa8be2e3467df, 0x5e46e4bd3b533cfa5cefdaffc160bff8c99ea54576b3ad2484fcecb67e58a4db, 0x305872de09551d81aec3dec0371fde27d7f3e2a34d2f1a915949f0cc275814fc, 0x197c0d1325e86b9dd9aba4437912a3b96ef226b01b5a19c1090edbd92563d661, 0x5695a9bc2975d84cee888e681dea8d5186566d47c656830b34a10e8d61e2621d, 0x2b8748c488b3749d3e6b9613ee115059183bddd162fece8da8dbd8e6bd6e549, 0x376058171e5209edfe245c59be06710f3fb370e357af811abec9f82cb8fdb8c1, 0x72b094eb8d931861b1c4fab836a7a581e38ba64a8a19f54c75d1f83fc81defa8, 0x1f7b99fa3c41cd7e7674fe15425c360e2f95d2f20a8c12510a9cb2679f0f4547, 0x57d9ab61eded6bcd1c2a10367e141896abe0e621e029646a59600db0b0ef311d, 0x6d38c3462e5434df91c4aec476533fc97612020e919772e97e99a3ec8ac07390, 0x4069e6912e57f0131f8ef4b34e937a1f8ea5dfdb5796aeef38fb5cb4b3fb78f1, 0x31b8d24db4fbf9cf60a479ff198493c19378e11a1c07dfb35a5add8bb11ccf96, 0x599c11898c42bd5b448cd716657e8d2c057455699c84e362e9acf7380c6e5c27, 0x4a3f401f0df4c13d2215910d2acefe56afe31fbff2fa47cb5df02c61fb967d8d, 0x1c9c18fd60783e7f2c5c9d101d361cda0cb3e85e15a75a424d02878bada3b3ae, 0x1cd89c37dbc142ac230f60c8979d8fef31f61923d30f18d6054ca5917cf7d379, 0x315c6e7a4a34a8056865b77348d36bf7a9ff7168909f0687a83e38cd81f53125, 0x625d7de71b2721e9b8a32d53dcd27cf9f4f8664b3ab7ab2d0b35c16fd8679b7c],
    [0x1b46fa31af7059b6a2a432d4b6f8e788c868db4bffff9d2cf0f0f0f0b4b4b4b5, 0x6aa802dd2f09159251b9ae14799c3b5bff6cd8d92888c5db5ec2e34a6794e42, 0x5fcc280c4596f3f231c4b0fff14018e448179d73a29efdfd3e95b09876d93b53, 0x3cc154ae2c61ef44e6a831c10c4ca7490abc5a646a6453e9b40a6581d080c10b, 0x38ceba96561039e56b088b51736d690159baa43dea2fe114d96fae072ac00e5d, 0x62c796f12e50c627dcd5b388f22a615b5b1022d8309babbad36064b49dbd042, 0x4b4c5d4a59ad689d2c70fdf730d2800b4dfa4418f41f1e6159892c0bccf5d4db, 0x33918447bb241895ecac2557575565a4b9dd80e41d06b052ddf2e6c311ebfdd1, 0x708a8d7625c931cfd2339bc98545e389e7b5171cce3a09169793d5e89c1b533d, 0x58114978d5fa65c2d5368f8d02182cba03f27a2756f9a5318390095b51005ae, 0x8a54ee8654991bb4969c4d26f6e1c65424096035a80b987e84f4ca1ddceaa0c, 0x6b8a753201210da7d7e1f2cb106531994dfa508331f3a654807035eb7643f368, 0x1f330e7e7d9be6aab274f5c774c48da234425ee739c4bdb8f365275e15c1fb5d, 0x2e95a59d7ee9091a6aa5c11ef58619ef77dd323fd281367965d76b620d96b249, 0xfc511290b11080ec838a669d58a781093fe615a552bf5fc2ffbed582c8fa4d1, 0xbae80d130e5550fb9739aec1546286c284c21fd07852e7c243a2a60a6792a35, 0x58f0af0a1aeda2c2bcad1131dd4a8fe073954d80542637744f45dd438f438b2f, 0x528a91471318254bbcbbb8cdf68f04dfb8fc0604d1c635d9bf20b48690c9e5ef, 0x49dc5b8f6a2db892ca69fcf235b759b01c19c65b1987ced2cecedd2d6432cb6e, 0x171cba306fc25f41dca0c92ec18a8d1b806d32bf1f93c3e64244e1de7c7e9b7a, 0x638088de81ac0a8fb8ad65fb548eaa82923477574a51b52fe3c96ea65380fa44, 0x8aa62b265e25ccba321634e2eeb40d01108d540cf80c749551020f534a84497, 0x510a32ee60c953cc2c4007daf4a498ff3d14cb4127c288e94b097de7a618c3dc, 0x448a08552bb38e833824f81103debfa62c6ef27faaa545c6f145761933f9cb60, 0x175210ecc9bd1f22c87ec1e787a872694be0ee54c6231ebc4efd3085ff1f8242, 0x45e9f696516e4340e4c29aadb39e3ebe79365eeaf60bb4a055776a1e78916a5c, 0x567fd64e59260091af094b1433cd4411a0338fb51e1cf08396c0e63e8234dae, 0x6327cd4d99e18378075a21f8bbfd20d84d542094ef4607bd99de1ac1dbdceaf6, 0x73d8336cac3b8944c5c86f9295228eadac848abf2838d5b5e66573f77c1a5a2, 0x50512e5a55e75394043dfcaaea24f57c3e5a36f8f45414e61e7ab63b698acdbc, 0x6e8542246253b67e02616e53c8a6634b559f34dd58ace73a4325ff645d6ecf71, 0x92e6d9c9a40b0b519961119591b891d4b4b1e0b67d92106a43cd5abc40ff524, 0x737b9305201f0ca53715eb086d59511c3a166eff5d30458daad030d039244f73],
    [0x1b46fa31af7059b6a2a432d4b6f8e788c868db4bffff9d2cf0f0f0f0b4b4b4b5, 0x594066685d948e7f160a9b70218e587dde21ce5c54de93e2b33fed9ca8245bfc, 0x43582e4828a49dd8bc65fddd9e2659aa811cf99e551666b77eeaf06817336596, 0x1aa84e396709eb8e2bd9bfa771f232d40d73b16cd576f2ea068e7a4c2d1081be, 0x521c3e36b8badf292ae277d817000d328151a1f1fbd56846c33ff18010346571, 0x36b88618e2007871852bc5732cf5a246960b5f36a748a520b92ff9da977aaa32, 0x449be90cda72979dd0e62653cf61b229ccc3440bc74ac2547853caad97d9d5a5, 0x50e5acaecfda5556a1bfc8f5ba38e86430ffba4fb8b8f34f7a703c0555fd5651, 0x122ce5705fea0aedfceb393793a5751d1e2e06db40360464ba6d79d49a17bc4c, 0x400fd10077224dce319c8646210d9a7ca24c8887d1135e06e801c1bc0e976e44, 0x2e768b8a21fb9f10619963ca112482c838e53efc66ab81e8e156db6a78b245eb, 0x393f38b1be64f36ae158bbe1e3725ec6a347558d744b8bf9094ec9e5687aff0, 0x176cb3df5c081f488cc04e23f4e0227445493f3ade7ece0936cb00e8ffee13a9, 0x30b4104c38b4d3ff3798078680fbbec4854031decf8de83ef4566bf8ab1a4b0a, 0xec0b82896c3ea361b60f048ad7427af1f26d5dfd51677847c897c1f9af131a8, 0x2c88eb8cb89813675bf56afb1848c975a37e663a9d864c0ecf801bbb7b177a7, 0x4913281fd3546039e5c127f165aa8fe23732ccc8b1db946eedcbdf8b547689cb, 0x2b6f8c4f44ef09f7e0812e129b890e1faf746fd58ff86689c9639cee6cd03cfa, 0x559bef13bf7084aae04016135e490ef83026e5aab65670e17dd65d38596db05d, 0x5997fc99135caa9687fca746bd3596f1748470bacdc97e71755c07d0ad3efcdf, 0x6850c10745dd62798f4da0f667895f8f9917fd22ec91deb2c8172590c3ed3f46, 0x7275221f26e0aee3835fef41679799205ea14b5cd83054552dc0550478f399f8, 0x1376c89f0b0789e5242351c2ab0f8d5474b8994533968d0080f7c1c6d1641773, 0x4ca22895d6d4a8752f79c563c448cd9822e76bc63e23b327b21887a8786388bf, 0x2740d03dbd31440c4dba2c222676a6b6fbd1a268bddaaca1d0f840ed3246f24e, 0x3c37dfa6f6353042dd080676850a998d9542dad463a30ff8412615209f954741, 0x663b647cc0f4275ab12d32f9527a8c21399965fa5427b4f9db7d68e90f19f6be, 0x34d4205e848b419faf232f017dd7746ca3fa06b5ec25829eb1624889e79948e1, 0x31a5c8be9a69b216da37b60e4cb2a6f605c4ecaaa64c29ceb4bda068364c3190, 0x7087aaf68b1590642cbe9c202f734e09ad763a5c111ba0e97ec292cc555ded2f, 0x61c0920b874b1c62eeabe1b2aa2afeb84d638081939eb0bb0578353a64e7f1c9, 0x2642a247d51c371592a51c901de6b81c9728f0f1a80c7510b5599f7256ba133a, 0x36c9b127cdb4d0066f3e95ab3725a80a03a958c134746f308972fd56ff30a01c],
    [0x1b46fa31af7059b6a2a432d4b6f8e788c868db4bffff9d2cf0f0f0f0b4b4b4b5, 0xb776e89cbe6b379a958990b677311c9df2779f9e0530cbecb24817485ea3902, 0x52295575db51e58a761941c2d30a7f5aeede3514bdbc4f6a80cd8db6618ebbb8, 0x7174611779f449c42cf124528c209dbff481ca763db573dffed4e81d0488c7dc, 0x10a2e506ed1cf3f1fccab6e7a1afae06cfd729a1a91951e08e251737f483922, 0x2dc3c498fee8f0954aef071c0c212d1884679445c1511caa212d1d49d1d00fd4, 0x14bb6488c05a2972875dd30ee9a8038d5bc2332ef7aae9f80aa068f950380f8f, 0x2b69cccd1cf6d356145cec6299f62e07b6958ac129d939a7cedb6fc310863b7a, 0x658259d255408407e57754398f61b4c4562dfb0bfda86f2761e8f8b29a2404b5, 0x11d5740c5f574d7a5ab85e8cf350dd6c0974179630b92dbb6ffdd79446a513d4, 0x17fb042b84046f42e8cc1037a4c6d8f62c69e088e1448990f9370a70603206af, 0x592d553b9232e31a6bbedf36fcc51b74f72111b3f7092e7f7f885c3890e5356f, 0x133b27b85e4fff8bb2f0f6f21e17e54422cc6d4cd602478b33192781fe535da7, 0x65c4d29b65d2051059c157bfd1535e101a6c357a21c2180d0354bbb54c56ea23, 0x33151b7b3d8aede8358eca99f5ace89ad1b19e65f8db16bee5194e6766d2fab3, 0x4222e8342294e2a3390aecbc9ae2e7f0d0934803dff6095f7ef8e984858ded5c, 0x489b6f3a6b08dcf975d56cf38fc994b9572638ca5db422382f4558f587162642, 0x22662aa8ffdb833bc59c998d42d7b8f6440bcaf1809763501f69ae878eca44bf, 0x564c62f98053cfbd9bdfd111de4acd21b9cd261664ce17aee654a73fcc10c962, 0x2ab47850a481cce141cad52346000202936560ea5526cfab9290b37fe8d1905b, 0x2d30f79bcd0f2e866288b67f2e588fe97dfba50fa2d90813516829f62cae2f2e, 0x69c010ac55b6d8badaef8b0cdfe745aa6f3101e70242e9adafbc8998110218fd, 0x3103be76ba84432a0bffb5402e824ee4aef3d90a7880e0ebba8695a7c79d7ac, 0x66c26e1f894af6d10b866cb2c96fa6a72164336de95bdf613a265fc88d23fdf5, 0x37730eff8da5e3259142592724d3f40cedc53c4230e82ec3335fcde2a0120a59, 0x4cef4b6e246be2163cd337e4fd6391cba924ef4a3282f08a64af0709059d87b7, 0x22076de03c58a2064029c0f38b5f58a05d64a105bd29e6d86cf0306a07698cd0, 0x2c57df3eec7eed9ad2fb0ba10b893e4e316dc8410076d0dc7fb56ece3e333586, 0x64d9a2a4fe250cf51f636b9d11e5713f2e24e73f65d9a1b0d7b8b7d236479510, 0x2c99a30791972ceaf53c834a186baa79e0ac8d56673043c4f9546891508db08e, 0x1390261e1f2f784a2c4c1c2aaa226ba30f221a65e7ce75aa58503b2df1a1150, 0x4d1cda83725f50df17321628f480624241df09ab79d3c54523b3b5ea0c12626b, 0x3df485e233d2b6d948ef876977895a235777426a6a548aadb13d90436c97e4c5],
    [0x1b46fa31af7059b6a2a432d4b6f8e788c868db4bffff9d2cf0f0f0f0b4b4b4b5, 0x1fd8a83a41ab89680e109f0b5868a850e3a9d1bdd8d67f99017752dad23a747f, 0x900ac5f3a556125cff549b6a9bfec6428ff233f618a2f3f30358ccb5f420e1b, 0x5d616a38eb2d9561aa3493c28cf97b88d0f0ab34aed7f9996a4deb1fbfbbb00f, 0x69dc06ba7fa92437a449b3c8e2cc53192f27f01a680ffddc21f74a577b219658, 0x5161273c5208c57de40dfb6d3eddf09f0eb3bb94a85dffc93dabd942d258ab09, 0x4cf099a465f4ac914a9d07d218c0338243aaf199c529b56981b0da57f40d59fe, 0x40474ef61ac4631d748001bdf3977213bb2d531bbe653336ca806cd14f87b4b1, 0x315a8150bf28771908d778826afe85d7bf7b5d62aeac223bd4d9725eb141e48d, 0x2f6a1cb38c2791ac01a5f63f0a0f584054d2eeb288b03929a0ce08d30f5f95b2, 0x5eb83990ed7cdcde0a6849df1e5d652093c74841d70e4880eb3f0498f8eaf88c, 0x557af44c94795387535ae429e8481dab83c8971205ec37f2c0eb9862e491b93d, 0x186c8fbaaa45466635f5d345786c18772423c25675f4c685de4c9511bd924525, 0x67d011dcbedae8297396ffbffff81fdba05243bfaa5f3dafd4796b3a9dcdd109, 0x66a54ca72f05f9992e37d7ddd876b7a3b0799d6cd29d7a1cab004488b032afd, 0x2616f6c205f5ac3f20fb7da1140e8f231ce472e117f4330071d37b37e87321eb, 0x133639951a9d5fabd8dcf90ad0d58ba3c0a7f73b8db0393de6b5f50fc648d7b1, 0x19ee6a6d936c963d1b7c68b90ce632936ae70e382e02b3f97e9e8f098fccc85c, 0x2b7ed08bcc69bbf83c356acd544512733bf49836068959c8ec4044fc3b52f451, 0x65110da5edf95a08c4f65851c898a61f1e9d0cbc38b12885f60c252add66b537, 0x266e3df88183b4efcf645022873b5916a473b96bb747ecaf9cba4a62ced1751d, 0x72c6ddd6394dfdbaca63499dbb789ffcb8ba7f9192f7d705cd4813dbd095d028, 0x51ef1304dab69325828634f737e387f6874655357847b87a2f87e5962955a021, 0x3a0c52206b9dba9110d6279fb400e74ac6142d2c50f5f6d85957d260efc041b4, 0xb652ba095aba64662ac3dea0b6f602f8a200461a9bbca97afb27c69001e6730, 0x334e96227265ae1cf76604c46286ddf5342657eac4d2213225d458e28b32d954, 0x4fac5acbb6c8dd20b8b452d5de479a63a5f90131679000294549f9e123afe133, 0x1148b72cb08e631963ea888f9a86e110f03c18b8112eb1a5aa80aabe307f4d1d, 0x43f81946e4003102f3232777e743f89b0ec4f5339da870c179f9673048d7bfcd, 0x1ce0268dee99004aa59ef9c0472128fbf921028545be62bce7b1bf627e13bbd2, 0x2639845eb2f356858e004f6a878a61d4a802969657f482e91960dba2d657339e, 0x703d3efa6b1567f989a84429bd424c96bbe58421d3eda6119b158e757c2fb3ac, 0x548001d11906977bc96b3913c64acc605cc8bec151315ea0044946898a44b4f6],
    [0x1b46fa31af7059b6a2a432d4b6f8e788c868db4bffff9d2cf0f0f0f0b4b4b4b5, 0x33bb5f110dcfec006aee57b7f9cd545617b636a6641ac90d8238e08d37615fd1, 0x2553bc05eabbb5df5e32b7a951315b81fdd8ec7433a76395bae25b3e57309ccf, 0x15db79e38fd352db9ca1757d26ff2bc8a79992ed7ae48b5b0122350f2692ff5d, 0x514bc6708671d17d9f90067363b14a05b6e4685be199bbc6c6cda4606f993819, 0xcd95b0781aacb38cfff67ed9dee531e0558456f9a6a14e3e27349430329f30b, 0x67931fe213ad5688ee57b9f5123f3b1d5a45a0039516ab4db786f37168f033a0, 0x626061268d11708fa388387fef7129d27d474ded3ebda9b7209a1dd7a001281c, 0xad41cce362614ec6ad4e21a6f00c324fd6175e0e44a2b53d89d58d6c9d20b04, 0x21a253ade563d9fa0c3a9f02dbfc4cf155aa0279497dec806e5fbb68fc327e0d, 0x60ee6fabc00bb6c476fb33fb648376ade40113e398f4a5eac24f2b6ab31e461a, 0x4844c51fc0d4493fa035a400195bc7ced19150ce72b86196de55390e2f3ec52c, 0x2f982c3736aba657f32dfb17b779733bb91da63faa8f99a2f9b1189a71f059c, 0x279024f5be7cc06800c82997bee1be905b7a7770a7ada73ca9c6ec13822f5aec, 0x676a8bf2683381dd76965f33b33cfb28a196c10adc1b2cae1fb1d6796579a30c, 0x3b3303c9c309c5afa8a7a48c3adf700a756126dc8b19be5e45d3e73858896adc, 0x2532f790308cd9fb3a4c9ac5e80f2de064c872a672dab707efd94ba21852c51f, 0x38eb2d19b5118d0e05a956ffd1251801071be02d70948e8d84e577f49aee0018, 0x9443d341e9a4c2788ef085862f3ad92238b319a5a0a7d08fdb91a4f2d28c1ec, 0x5cc5013c6207d56f58164311d71b40c5c02d07d6277d6d89f02c5bc41997d771, 0x5ff82412d6d0ca4c96a2681d8dee0c23ae552be6a5d6969dac9fcfd2e41a813a, 0x483b0580ce66c79a7f01c1537055a468345436ff8bbc54289f154a02ef251be7, 0x21890d97e860db327781fd24f85c935964fc6c4549fe963a71bcf69434f68c35, 0xa363a2e8e94fcb623ca8bd13ac39c3636ee7629e9b80c162fe1f47e69cc90fd, 0x32a20f1d67f48bafe72a97c4fa15d9d8cda3c33318cdbbe5926556da75647641, 0x6d8acaf556f65045401086d4534cda712893162b749bb15e168074c63a1f89c, 0x3528eaa60cd1151c8150aa3b82cfb25e904b4a8f034fc6436d5191681288757d, 0xaa6e6adcff9030d70ab42a2391fd4d0518958e6c491319707ba931fd19e3b76, 0x3d992dba6fc5301a0a66348559a43629a7440716728f5f73a2f40f1aa5fad0b4, 0x3125a91038e839fd82dcd1ef69db38853bd69863d28f3cef4c00bc2b23ee2b1e, 0x6c1704a1b11c94d973a639a9e2df4afb9b720f145b45430a92912b8e6c753326, 0x719e37e934e634ef5ea5f780c047bcec7193ffb5e3513dd97e57ad66a3757040, 0x18fc9d39e510ea7233e150bef9e550bdbcfa0a167894a7ae2a1b7da7b20ffe0],
    [0x1b46fa31af7059b6a2a432d4b6f8e788c868db4bffff9d2cf0f0f0f0b4b4b4b5, 0x69249488811bc8ab3f7f026f31555166535c4885b4cec9da6889f311a504692b, 0x3c9b09137a4e28c8a3b78ede9357f6dd65441657078bbead8f2cc459a58d2d4c, 0x376e955a91b29e42336ddd3dd273f2dacbfb5d1358ebfa5f84b1b31bd130ca59, 0x5c13896336dbf42625341a016919ddede0494df8c55bd62bab95cb9ef874a66f, 0x6172b7cf5d04cbbf5f09b3fc7338a41b73421e9937a99a8253305e1ac34c7694, 0x44f085cb880303a66fab045435f15cc2dacece0dc12558756e16389bd1ad8922, 0x6d890b9a0671bd16cb49be238291fdac0a0ed9a0d1fb77d77b8f38f6cedcd375, 0xde61fe8179997b0f931b457731bca7f114e300d5ec81007897301d126a04b37, 0x547d902316d778b316414987fb92b55c1c9e1ba0bb61c51d342d507d18bed33e, 0x1361ad0714132eff081f4fa20f1afc35005a1fb8b69053010b306ba845c3cb84, 0x628760043b7179b79d8de006df11acb5e7795128aef74dfe225545fee0abcd15, 0x4d9cb0ace9d600c64b3c22269f86245579a88879e82d39960677c8ee1944f680, 0x47cf2f5e827e4a6194e4514f59ca34e337ff5ccc2ded5a03a31a8526b8f0d8ae, 0x29a529b76937283d08b89534d95791c79465bcbe961fe5a44ae5ea92df6040f6, 0x212da2fb6804e84e87c636dec50f04ba1bf903e7b7d7cbfa8d89642e896d6caf, 0x329220ff91c0c7ce055931318bc3bcaf5ea1fe8a56fb50fc42e413a70f06f243, 0x3de384981b7d54cab6bc3232d8107dedbad33203e034dd8057486adf56306f84, 0x2d93fd8184860077f66af2a0d1f9be237a5f16668481f8327f9cae046fe872b0, 0x37fb3102d42c789d085a36a5c3eba528c0cbbbf825380552d6b349b96e3957f4, 0x1122997dddf217debbc5c0f0fa028f43d7c4f3e37e8ea72ae8fc9daad0557acf, 0x62167a35b0798791e58d1b3750fd9fb66c2a0cf5731f9b3674450c47738449d5, 0x8a7572d170b367daff97eecaca9f2256433f809bed3f855cdefe29ead2ee3e6, 0x3138ed9fafdc44c09e9584cc1dd357814c199f3f07ba9bb562634d27eae69158, 0xc943e8faa828fab1e791a161dbac18927e9280630c28c837dee62a2400b91cf, 0x3d1a7a0d2227197c92681a386d0a50f260504ab27f8df8f6e0f470ac481bc193, 0x6b7be562ddbce3ecae16a8f119a1d41bc077e8a37462e69f97c8d9d083c200fa, 0x48763a4e2c17b660bbd7405582b29ff267d863c54d6da3cd4e44ad185cdb3b38, 0x31c11aaa762607ffd6f7fd6372fe62bfc5ce1b8a50a1df49c9d053f1ab5d96f9, 0x55c022992d6809334646cdbb0f90afd647924703fec02769bd666dfc5e24dd89, 0x153fa0eb27b841f369e690a87d769725f6c9a1b2d57ad8196fd736f56302976a, 0x3859ffa9a0f47208cce149cd63370d49f0562127d2cd06b46358d5e4a93f4a4b, 0x538156cb7f1b0f635e7db8200bde09e1dee3a4be16ccad8b17b03cec5926f9b2],
    [0x1b46fa31af7059b6a2a432d4b6f8e788c868db4bffff9d2cf0f0f0f0b4b4b4b5, 0x58f1b9d98f96f1cded0a1cb21064f10aac14ec8b6212859b8dd12d6537a2401b, 0x4be374e812ed066872b9b9a8f458be0ce1021d65e866e494c2b1987eed28bd9a, 0x149acfacb585083800d1b88f2919fa9548054d61e42b7975c0bb774c63f2a22d, 0x4752036f911b530cccd847bf45156e38174ef5ddc02bb973b2f0753e7b7450e8, 0x72a210b5c9687fb8571229d1dc8c66a2d622431aad9b420497f144bd4e265495, 0x52446911a4e8f985533fd7531dca4a0fdf73934be2c2f96b38d3ac91aa2540e1, 0x54b83fd8bc80e01163d8c0841c13e0963a20896308ef8e5940315531af56560f, 0x45030290d1f677aac3a47be5772a44e9a3f5b9db09352121c829c8c48f15f675, 0x182b7d210e60cb6ea8d0a18298fbbbe31410be16861172d6afed7d769afbe837, 0x4a4ab9d359648bf75cd972369f403d813c1a66c66b62e5c369322f23bb3b1100, 0x5ef9bb6551fdb142e89b5127a1480c08372a4d6ef26caa6e232d930ccb3ca3b6, 0x67910d2feaeafa5cae710ae4037ba175371545c6c37cc526ee171ba7e01234e4, 0x26653d236c8e73b059287e4e9e6377e1fc92c72b18820d44aae550475d4a04ab, 0x4ab83afa27959bd90f1d941283b18e1e01e6639504f9189045b695abe21dea97, 0x5036de79f547cb5016472c4d4d1c992f374d9fb2d097b3e919398d2f7184c673, 0x26af5007789fd1010fc2a959f29d6ca7bcf6685945b1a55c39f8730e42c943cc, 0x5465bf0c72309df5eb54fe5e6c4ba5bfd2774baf2eb48a4f864d90a333a4efb0, 0x2013fd7f0b0faf53307b793ea09f3df5f157c40f605790d93410da49ac332378, 0x64abdbcf3908cc4c2963bcfa4ccb24f01bf01e1ea199aaac22135b662f8dd3ea, 0x5218979d27ba7903203f7619955284db90f7e8f5e443176ea9ada416b7d73e53, 0x6449d8a5b27d09905c461c684fae80e895cdc86ec002ed366307e343db35d38c, 0x3aad3e169ec0b50222a53dcf3cec749d2dd080250b585fc2d1f329f2b36af057, 0x479a3e0eb7d16e353689626589ba4ef2e308d72bc6047f3d9bdc81a3bc2bea78, 0x21cf7a70ddc75ef463da6588101c55908fcc5cdc04d5c42c21fd8880036f2edb, 0x44b21dc2a25f63788a97679319165796a7e0ca8b8df6a7306fbb0cf38591f0c3, 0x20525ab005a3d8dd3dcc054d59853ac5ff9c6c13162ae7e9e4eb692e4392698d, 0x248b557ba0a96e048e0363a84e19e1c09e52b470a38f04ead58185441959d61d, 0x62fcfd20333b303509b6344d5b2618f9f8b6ef5fe61ea3491cb2c774517764b0, 0x1fd6beaab732c50d430e70f5da26b445031e9705fe81256d535f9baf30752176, 0x63123beca38eef9efef8288d904fdae49d717d67910e21838e6dba8b8884031e, 0x4a43deeeb6638321eb01182359987af159e0e45a38d8da8670c4f7dfb768c93c, 0x1ceca5b4ef214375e3c9978fe4e75a1d9710abf4284a78b1bfe8cc3955f65147],
    [0x1b46fa31af7059b6a2a432d4b6f8e788c868db4bffff9d2cf0f0f0f0b4b4b4b5, 0x58674c2108ca65adc23a3a02eea6c57cb2f054273b80299c4dd34ad5a6f30998, 0x231f46550c432610351e65cdd1f3c05eb06643bd824addb91222a68db16e7946, 0x3cd4b28405564bd2aa13144ee6cb131e1a92503af289d61adf805742720b2881, 0x686b552035da75cde63d4191056804527ea9468e226fe0f4973cee30342afb5d, 0x71e1b8fad0678c61136f5d7fd84e500ddf874009060f66fddc13c336ab2db058, 0x1fd3f904487b946112341ddad2d661d35f121dabf098dae4057de4c3c84f8cbf, 0x1a041a2a90e8effa77947be1bcb84f3a44c4218354bad1e78cebca5f8ca49d42, 0x4ace30b7e013aae1aac78d2d9d036565dec6f03991a55599039b3a27c5e4fc2, 0x2e1468bc847e51eb832f94fdc62929c06e8b521a49d52ce85159c323f6bf4ee0, 0x1c8c716e494db93ad0c58272f656d582102972e22a5dab546e0c25fb68850976, 0x573f68b717fa3d933b6a517a851f1fc475874a40623e5261529290300a960c17, 0x435b0a2aad297dd4cc584b54cecc1bd5577e0afe6eb63d41281fd8a1cce95893, 0x1e371ac44c50e1e277f967c5426fcb5f9accc83656516d6c7037ee100e87111e, 0x42781c80d68f389e0dee6b0224e4a8b00c45320e2501587639378d725d83776e, 0x1610f9a6bf721bca1a9c659496d16478c4656512c3c3bc6d93a0fa5b4eda86a9, 0x58a54f91d65364dbebb166c9afa0d977041dbdf63a26596d4ef6657d7ccaf34f, 0x6ae5eb91be2aaf150436f201f77b5d5d4194cb8e060498286673fd70a557d90e, 0x58ac284fd0272f685ede7b47da70f33262a2976f089fc6cedf3e87081d3d8b0f, 0x270748715a6737253e8481c88aee065dacef334e08e47aa461309048f045eaeb, 0x22c5fbf8047bd8d7191df5450d2c0d12351f868eaa2d6139a4edfa9464d6114e, 0xc1ef9501fb3aa4da82f06924d71bbe9cd70397bf6126ebe8bfebfffb8beb8e9, 0x39cf4f688296284f72e38c00f3af0b540d2715016b63f5cc129f2fc5970e51cc, 0x9aa6c764bb1a263ec0dd6a754c925b8ffa52e1cd159f69cab75e350956c4d70, 0x4491631718983a6e2b53d7d6b47361674383921ea38795f45da3cb19f516867d, 0x31cd86a43dde2b611f3d89f26ed8f562b2c19da9aa5738a350078e31a47feb2d, 0x56cbb21d833cc4751b6c8f878c15a232bd54449b5f6d34c14db9b31e96997426, 0x2d9b3b5d0e234869e91021e0356772cdf614be9592b2d73d4f618be08111ae58, 0x53d8407fefd6edf5469235a86574a88e3905b03bda3083a84ac4eb912e27f152, 0x4ac9f79199f55db80717ac3705661301b60c8662c7730c644831e5eb7dcc9801, 0x2ba636a38a4d75a9394ddd70b4ce3269445ac80fec46fee10576c670c0521b29, 0x6bfff67aca1007ae3ab779af25828125bcf3be4209c85c34ec636edca3ec96d, 0x192984c9e612242f56371b03b5f9ce92fefbc039d1f0002eeffb1ba1e93a7c4c],
    [0x1b46fa31af7059b6a2a432d4b6f8e788c868db4bffff9d2cf0f0f0f0b4b4b4b5, 0x2da8388d4b1bd7aa792daf1ec354b838bfe0b3859e50d3b8fe0e849655180f33, 0x4e73be538cd0a0f2076e090db75960de3549f55faf4b392c176d3908fc981d4, 0x10c5895d5de8ea141bdc272d292a96ee79ab4533ff1db0e171045f47f63b36de, 0x3ea2298531da4892de706dc81cec30621a5efe3aa5944e59fec19d9f5e551c0c, 0x29609656eadc232440d2cbe2569773e76f5c579126fbc12247f205478e463bc0, 0x289915a75c32bae23b28d6bf16e7e725af240a09505352f0f6ab932ec9b1549f, 0x3090dc7f9e5aff96c06ce80feff75ed338d0d102d6daa7e04c56133efffab8d, 0x2f0c931d3c33007af4fdd7dcc3c53e4dd212cee9d32b3e6d9510f272c2709d0, 0x4197c5cef8fb0bc2e4a75d08f35f06dd0e6313aa080f230fa32da9cd2ae17f07, 0x6b9bb415335312b30d1e669c8a2cb3e73cdfd707a28cf4846ce3f429407a79d6, 0x76a21c4ca0762d319d22c3a97a4523448bf8bfbbd2c3b3e0ed925744d253418, 0x67e9e4d82091fbe3c5c33236ebb861a0075a038855d78d5670461026fd8b2018, 0x45c8336d99275a94870f35d6ae529540102b210444076619bff24c8d4dae908e, 0x19e385c25fe8dce062701577b4eb03bd106c2128fbd5f22757f42595ca3b3606, 0x5743eb58396c3bf086de75bfd39803f979e2b0a1691b10ced85b2e8294860edb, 0x4d6ef3e6d587927e9a2e9d13ca3cbe6201f93382486101217a653073cf550216, 0x268659dd4bcc4b7931306b89075883dd07fb8a2e208a74ccadf4c956d73a986d, 0xf99159133b0a90bc9013d195f6db005b3ded6e8d92ff72f93aa50d4ba700a60, 0x69cb1ab5e0e820f935c9db218fe8586ecb1090a2d9178a04b869f006ad959607, 0x58bb812905d9d236cc818511d403ebab7b5abf9107f1bd95e9363caee3dc3daf, 0xe4911773831405dc0bc3c31a6a70e48545fed0dce5b7e9f0596bb12480470ee, 0x4856f517c2264dc293d2b9ce1734e4fc24d975349360d711c3e5c79a4a3a78e7, 0x4fc58d130f9fffb100d60ee3aaee3fdf225098dc0740feee1d8099680ffd0352, 0x388ba7d4709eff2b106b0bef01dbb39ec7f69750ec5d19057c4f9bfeb3407d6d, 0xae3578330fe2e8f8e1e03b7301285bf866e985818b9c24792a6161ad4c3f4d8, 0x123d9fac2ea2116c864c02ac1b419aa3e71aa53d4736df9c3a0a7ad157ea0e40, 0x4aab5e92eb196083a75213ab451d66be7bd1fc424b7f246053c5bcad4d802d3e, 0x31f82cae620fb3f344aa7e09727242b682485868b58f284fd1ac69f22a648b95, 0x11e7f24827276e9193b2e1423de4b4a7d361a940154a7f981749633bb4915a42, 0x3b00afa59a3956e348c83599ca07d53843b78aff1dd4696289cfb9e5f3794dd0, 0xa57ec5bac685c07ce9e8672bd938511770be6cfa000f2e17f2ccd587f93772e, 0xaf661e69c538c2194bf0ad633c67e4fe1d4e3113c1085cd5bc4c68e1cc063f4],
    [0x1b46fa31af7059b6a2a432d4b6f8e788c868db4bffff9d2cf0f0f0f0b4b4b4b5, 0x711fbda3a61314d5dfbb9fc8d353eda14b6cf37b549bf564dd2780e8082b61a2, 0x2775f7a49afba4abbb977566e7d1ac0cd1f6d944dc8dd45086f6c6bbbbcd678a, 0x509f01af21f7515494d5df8cf663b97ce42b0f03c2b4426b72d460fe3945485, 0xb6d31c63d271af3cf009031cf83921809b348d094fdddec3052408ec1d35ce, 0x6ca9a6553af2618221df130ff44e99bf1451d7317384a93128b215005842a36f, 0x64c7136cf7f22358ebc9aaa90ed3ba20f700f97dcaf0030a5ff00fa1912ffead, 0x223467121d50cc7cff403e1d256d77a1af2388955abca17f53c33a9fc19686e8, 0x5fd866230a24f69a58e3e4dd74b96acd959c3dcbf83db1a3aea7cf4507ff2efb, 0x1e0209c6e717990edbc05f6dd117bc54dc2ddfe78507b6ed594e8cc474a15520, 0x4e28128db0e1af4d6210ac7acdd1730b74ea8c64b5d09fc0571622604d834e96, 0x4b25aa4a54f6e78dbc4b88b91ea9984ec334eca45caf97f67ba011d010f66cc0, 0x378c984fe7473ba7cf8a86ef61267ac121a0ed77d9f794c71814c8242243615a, 0x3e2336754fd4ba235ca900094751757cd53fbaaf5bd37e3b365826d39d222b3d, 0x66fa9551d774478ad266e3d9c11d78816cae7183bbe45921b72c3ca1e44ba4d0, 0x2cf2bc2eae437df1a13ac12e2715de862d621892dc3d9389b436137475dd5ddd, 0x931fd23d33818b33715facd9c42a6bfc76eb7d414ff4dfd847dc0747c313ec5, 0x5316419ba3238f93cdcd8344d6788bd171bc44d91e783f61422ccd7289676bf1, 0x3ab7dc534a4809b19b11b7384ac126a9ece88573dbf1a67a4c1a64ade3c189ce, 0x315bc59bfffdab33d735cac599367aa7ad2b6bb649c17eb0bef97b66d58cf843, 0x5e8adb53d8f57f2953072bd919b4bd4abe4ad412f3656657033cf6ecc70e0be6, 0x7199523fe14f3c3984ecb8ca75b38de67d3cc48c40b9138d7689f09bf81d3b89, 0x3743eeef37c6f26b3db172a7f8f80bf5bfc227ecc6d4a74172069a74a47517d2, 0x21e9099201f392fd8a78035469de1908e576afbb2bb191b05aa41a5976bb33eb, 0x24be0246ab0c876ab49ed5f65a1f4badec8acfba17c0e5185229f6deadfacd3e, 0x36362ee87779603ee4af8c9d0dfe383e3e44cb9f9d72d96f4174308381917461, 0x471c2bb94a6d44fef427eda2e41be69f3dae389c214c58ae820ac6beac6e073b, 0x1255b52a6003d5a8df31c4d077f1d37b7ce5292f0ade643cff4103bb736142a0, 0x182d68a1aa9cfc2a59789dbdbfb4b4b24ebfa3323e5ff9a0c5d16f08afcea848, 0x2fea281b300cd940f564c2165b61c132d5965ac47537738ce3ba45df83820699, 0x73b948b21ea7c52a30ccdf87fd5086f7da564fb9bd93ab5088b0eab5cccb9946, 0x33f64fa9248cfcd8d1bdee847e705650408874583fcb23fd1c967153773fe016, 0x3ce34c11152be612bf1ab05cb5caf16a4aba3f9c87b4e1213555849dc9b91b8c],
    [0x1b46fa31af7059b6a2a432d4b6f8e788c868db4bffff9d2cf0f0f0f0b4b4b4b5, 0x72690d8f6dc77a7b8cf807d771e58e0482cc197da14d43f480d18654814b3840, 0x3a6dfb298cdf5e3a30e7daf8d482606a61d88c7c26ef6a140c75ff0674158cde, 0x3a1cd6de5550f25e26224c15149e0fe343bd8f31bd665d3611e04f70e7e47929, 0x48518f90925cdc022b10235164eab729e5e150c53fb20135e9f53f4d2f469980, 0x2a9adfe06455f14eb034c9c813ff790f05cc75e9badccee835bab7db2355c9ca, 0x981b833d901ba73c2530204fdee32351c7f4b497dc114368ce217ab214f9946, 0x27a0fada52a811433d743cd0e1cf24e2c9798758ed5fe133d87c308e572fc82, 0x6957277991d1aec16bedaa540eab79d533de009396d3ed2e79b77d5e13f4c8e, 0x30fc632382caa985a9c59b9cd7b3c7245bc035afb3ea4f73607c942ac8b200fc, 0x1ff6b0685ae2a628e62f05f75928284d0f93372dce32bf18270185bff8137ee, 0x5d713e2a5e5ade24f5083242339d9cd69d3e26959ddfac76bb2092c5e0cb09a, 0x4cdcd3377104e37a67ac940c6454c1f2adb79a491ad8eb7230569b3817b96628, 0x471083080bc7c3656f65610e3867cf4dda1fa574ad7dfc8ac199e1853277e329, 0xdbf191e38654dfd745d354f199d9c9bacbe87ea2ae267bb9f634d5209f5a9ca, 0x55018dff7870506fb6034d6b96f298b5cfd983c880bbf96c92ff0dd51a1e22ec, 0x6de536dfc79707159c48ade18083b142b49599c38742b59ca701a2914e90e045, 0x6fc233215d979509ffc58a39fdd9f1f2a2046ac2803a5c14516bb98c7f1d4bdc, 0x269318072c57f74e48f0a56320ecb905075754806508bb3d9553d9679f299f8, 0x53b74839c1d9d8e2513765917a9daf57f2054a53728a6f34b57e1136b225b96b, 0x655972d0a3e5d6ed76ba9703026cf557a51e1308399adbe2312d32501f20ed29, 0x341e3feabece4a7add6452f6d10008a0fa49cebb8d086eb93e428a5f46c60891, 0x23d7c3051f72d2272d39ed5419604ad0728b928b0c8ba09c022347bb1539439c, 0x6347b3361e3699b6e25d4979609701ac181bab8714b35e555dd1c03cd28fc829, 0x834756efcd9e738f6c2cb2725d0b63c4144569ff4d2e77a3dcc750220efe17a, 0x5d3eb0c6332a0720b7cdceb3bcb6f3ca60479dc476fe2f3847677ad311fb0a90, 0x5946c876426e98978e40d68b414e6cf1dd602671fdf470bb6fa45b4972cc7eac, 0x4fd654eb105642e7685613126838395adec921bfcf10b8a2d1ce620e42889c2e, 0x594f9b85f8d40585e5b2a392cf2e8ee19260287e94b1dd6c07f002fc1140680e, 0x6c4afff2188f37e3d05489db43402ff9adbb200dc504e5608ec78cda354cc17d, 0x4f1fa9c66aca1172d475d9998efb99bc114a050f49f57f47067d1f2073bf64ea, 0x328913e4c711bc4b79c387b450944fa736aaf28d3b396fe5c3d84cecd00913b7, 0x2c6522c53a315c8842eea73e58988d90647d179ac04f5315b6faedfd9e7f445e],
    [0x1b46fa31af7059b6a2a432d4b6f8e788c868db4bffff9d2cf0f0f0f0b4b4b4b5, 0xe8916142f61d7763107260105e1fdca6dd27639e055b97e76b90f7043559dae, 0x57b3170dfc92af883345f8743747bbcd3f457584b66fd0a954f8d4871453737d, 0x64bcdab508b895d6a4fc41894634ce4d62777495fbabbceea86270e51c6f84fc, 0x405c333a4d64af4bb0a993a275e76d0bf61f24c801a85e8be8acb692258dc0f4, 0x2cdbf768caedd687c595744751a6daa67e89a9d41b243022a2231ad701e159ad, 0xc38d3945560be3ea146764d96817cffb81e14dedfd64c777a9a6b0a3fa07af2, 0x4e584b75d4263df8ec22796c75d05b213d74402f46ad29b2b7e3f1503a954a0b, 0x1c4a5a9b067b997193a1caa951e44e20cf2fae0e44b29f7fdf73f89cdc7a76b0, 0x489ca01b4aac117f87e2fb19f82995ccfcaa35d7fcd9716a7c062b6d8bd04351, 0x2b9bf1c45b1d48bef1c921886fc34b378b44616d56d9290321db207b3ebcf5e3, 0xdd6b26c034733b41a5a12b245a51ec446671e7c8d859c4cf9b895b6be3a7f4b, 0x4badf8930dbc3ed97cec0bbebe1fe637e739a0eb21d4c580506716ee1ba723e9, 0x3b5725be0414567afcfb70818d2b5dc87869e91af708d9d649174c89548d868, 0x4562175668c767ff362a51070d3f4f1a8d65b9c1b0ac7c21e455b232e60be6e7, 0x21859ecf1106ec893a2e097d26b8802c230e514552310541a011bab15b50424c, 0x1df6af12bae7b2549e3cebc38668b3d012bd7d7b34a51108074558b8c6e99b41, 0x47dd418098fc10c4bb3a719100216c5d48fe445456048bc4f35dbce7de8f3b5, 0x374366aef2379bae0c60a4316987841d65141638cf702f743f40dd18d77b70c9, 0x1a6a298fe5fa1fadeeff730e5ba76e4cf42123db55bf2c412a6979c52a37d8a3, 0x6d5bbc01af1f47f042eb6ba003e5441b7e41c893ca5ddc42f8f79982eb1346f4, 0x325198c7f5f07812202920a713db583fe4fce25990a9189c76e84f72c0e5377d, 0x6534e32f033ee6392e149979924d1dd3b3a74e2fbeb2b97880833c78a1dd6e7d, 0x649b14efae7675bd8947f90661e1359c7e80cb2acf0102b16dcf5583dcc9dae9, 0x73159122ba8d751eebedc568881a075c6c34f58fc4f578371d5cfcb88b14c31f, 0x56e9f1f5309659bbd35aff26cc51a6ff809499a4d5aac6bbffa1161cb464e99e, 0x39e9e607de03fbd7e5a012f35ec78d750952aebae459327dbfad835e358eebdc, 0x15e53ee1c7cdd1ad5abcbac2e080cce513ff607c8d581d975153cff8b882c819, 0x6bac4b7d7474c5d53820a74d8b2fe15106468b2d830f888dbe6cd5dcb7fd5b86, 0x49b444b0ebeaeb0f50a279b224036c6641d426c751dc31b910c0767ba3c482de, 0x1d529f055e53b322a88bcc2e475fcaef81345c03ddf5a90cfb297108f48dbcca, 0x3abb45e944003d19f27e58f392ed92c5ae2e1c76e2011659fef7f3957e2fa06a, 0x5ac4ea32ce84c740795861c98561dadc89f0ba56c5a0b04114170fe2a6d0bd88],
    [0x1b46fa31af7059b6a2a432d4b6f8e788c868db4bffff9d2cf0f0f0f0b4b4b4b5, 0x6b84ecefa09fc7db9bb079268b5d778b0aa163a5473bcbae69b2d9c85bd27383, 0x5ace2b48657519634b4c06484cd731b11578b7779b59ecea9b750328a899a9a1, 0x1148a310ab21043d869ceea7e10ab3aa1d4412bdd15e9ac4ff342444b0fe17e3, 0x25b282afc04aace1af53a4e57b794da3da10fe847186a7762e25fd9978246d78, 0x4ca08de27e2ff26f175a9037dc3b9e729c9c54055790649206f2d0a8ed98f223, 0x72a009dd9e7c32bb10f623a00257d5edac5d3a27a94133aab5bfd11e55e8717f, 0xc64b954cb3a608a0ad0be3ebf467782c1d54139e950f49889adb45688f6012c, 0x3197b8ee2123c8ef61c35abfe999223b9896457cc26bf6efa316b6ed01266916, 0x1b95de662179edf4f5d509cf8dba4b3e95223c45b038f614a17f02ab9e034f32, 0x490b8cc95a26b2be7e52e55a95043a4254c2c6415ec17752b88ae5c9118f14f3, 0x2099390665cd58640096695ef2c9d0b5af263c6539adbaae7991245012d04286, 0x413de47c990f55ca427504073cec450ebb269e5d6825630e7b8d37fd3e7a4528, 0x18d4fad54ef67143c4995d1c9d8cc5ac6bb213e2708301f20d88f3bcbff0d56e, 0x11971e729bde842a292bcbe87ded5fd5599f8dfadbea8f677468cf4b0a7411b3, 0x1fb2340e06bc97d9e6e1954baa92fe7e10393597d9ed6e99c1926bdc3d87d9a, 0x4392ef1749f08d27b0bb6b32dc25cfe44f3ffb806bb604b92691d8e8dba44520, 0xab27c63d64f6c4efc634404a19d57a5ee9b71dad8d1d1af7f808e33a6a80ee8, 0x610fa9e7114069377524a0d96a48e959c5c18300af4b356b6da614d41ec6fc29, 0x191642d5f86dbf2f7f87645dc4c1a0874f0929237d4a3b556db3d5e086346acf, 0x37be33f67074bc97e929c11ebc4561086bb53660dc6e444432156ec341ffe0b5, 0x706749f4f3d4ed7db3904d99604579e4d47d887597db78532c2b4a7ed16cdfda, 0x28944021c9b3f43dded023c9af10fd13f36d1f40632ef4240614a73ae9893dd0, 0x617891a40b459c2b976e5913e5321ba3bbb28753178ed24b5096be9bbbc5bff9, 0x38bccd6d142c6d47d28fe66f6c7fac78d0ecf9ee66f5aed19c8586b15f37325c, 0xde2f47f331a6bc0620736805ac4a120b07dad74a5f46fa70b7d82845060a1f, 0x2d534fd9822468b0f451c6e853d668d7d186ee11540eb7de381ea20fb9dce3a2, 0x1ddf4e2dc29e8c7120665e56e754f24d8e68d63ed7ed6a1be19ab292e888494c, 0xd6510788f824de550f9c94d0f1cd877ddfb67261e8daa18f25b0053315a7aa, 0x6f16bc7428e693e923c0ecaafc1fd6ddb8151f9a5b879dd85bf874fb3df12a6b, 0x6f6da588bce2b9abbac0beebc307c21305b7d86e76aa7ad0f7ba1eb4c0511ec3, 0x4d4c89f619d4d4b6a4d1243d0a4c2f628e20b3087da3454d5dd17cf44d7fbd, 0x49e7caa5ac55048a8a5fa9575f60549750a7648532169a0d937d1038df0c8b02],
    [0x1b46fa31af7059b6a2a432d4b6f8e788c868db4bffff9d2cf0f0f0f0b4b4b4b5, 0x279ec8b33969056c8d56bef0c468d7d90fc8f371cafce3c9920f533f2e7a3048, 0x4f6356d32a7d08f03d8b8ca9da70c23d4eefde5c4096d6767c6862106ee902fe, 0x54cf06d238dd32e2acdc18cc06ba7cf23bce6e26bfbf7103ffdb692fdf2cba25, 0x4016c757ef7adb568f439298fa612797dc39da718e0fbf781257618764ff754e, 0x36250e82570b407283eeaf13f61ff739cac10e1b3fa849f41442a98102e6d19e, 0x67e05a7ff3dede280252c86579f7ff3d56eb1b73ef871209d6f0e86016770ca5, 0x3db3dc8447040cb3a944f51c4c7eb020f00b17c0069535e800aa5a0cfa18c45d, 0x36e315857e0ef78e5d620dfd7a43dc92fb2563764b5ff2c93443671c2fc7ed78, 0x502e40b3e7c440067f3efc6eacb1f566568c04a189c51e830ceebe09f0d3bc16, 0x72cb69c7670730fd7ad62973ad90dd4ae287d76b40cf5ed872a74fc47cb93bb8, 0x5286d01a8886abbd02e43f679cf724f5b4bf6bfe5677f541dba4886d86d7fcc5, 0x5aaabc707407e04a8e71c9da0ec0addb94f71507ac6c8eb5d442aec642c935fd, 0xec9eec89ea7a159516ca1c81cf5c8891ee43d41c1bc4969b2b1eb7598cca41d, 0x649212fc3cb93b01b664a4fbdb9b6b5d5519354d643e358df95367b09249bafa, 0xcfbf48b55cf60b5eef10978493203bc34b1dfbc7f671475c2dcc2675fc8a9a7, 0x9cd69a3b8ed545fea293bc4746045ea8784d5bac38fc40f46ed86344ab37c34, 0x5db909d5885531a6b5b53c976dd5a6346c881216b50b1c7490ad74572f26f7bd, 0x66c7157f556a7b4062aea1d3e83e808353143dd65f68b9fcf4cd944c7c8013, 0xb6c2a67b06402d33aefb48800c61535c6c0f99f2b2e5b2203709c3ec00fb26, 0x544ae731ff3cce669480ffe2362797e125542cf03455ae8c967d9e59569aed35, 0x5273481400c764a355e88ec25972864de64d1e7587e10b4c3e735dd84be4dece, 0x166123c0bae909418aea32fb618ea6336321b0b1fab9715af4364ccfcda4a6dd, 0x353fc5cac55fc3821c35e19388b61117650339a86204e6220530f4d0cd8d6e3a, 0x39de41a3dc7dcdc851de3b8425199545082778340f52c739e57ae123c4d30e0, 0x5ba99faae0f8c075d9a9e26a2d77c6072d16c345a28c638a7ee6c5811d2b59d8, 0x36b6e63cc16d241de04a833491f1b127332ff783e11ae79673dfc75d1ff517dd, 0x3675bb7c4ccff90e6851d5f22d7a876699506ed4ae27b136e3bb0c2ca33d0658, 0x9c1ec5f03300c4d8fb17313123ddee15510fdee3df35786399297b196c4b15e, 0x6a869526557eb1245d97e85a33b8b447d922402e87e2cb359524e3d120f0b44c, 0x1de2cf468a22694ac8cbe7faefc509f6eefd4f372c9c6596ec2e80baaea1dd44, 0x21218adb610e29734296fe05287b66778cb671cd10002f0da526b39b36cb2507, 0x67c32ceb4dd696099fa6a8ac47c168c5af4047e30b5531f7cfb7941cfa803f28],
    [0x1b46fa31af7059b6a2a432d4b6f8e788c868db4bffff9d2cf0f0f0f0b4b4b4b5, 0x2c475c9f4eac71cd8a02744f70e7c9f6a602ba6d5244911df52f516405326c64, 0x58ca883067aeebc37784ddc76a4d16bc707ed1860d5b7ef1863da1a511d71dbf, 0x30299d746c758ff76ca0d629cfdae372ac01193891bd9051281bf0fee74ebf89, 0x28d994cbb5416bc974f98dc364d9406bcbe7f0b32def252f63e5bcc3977e6c52, 0x245441b551b549ee5755434b14d63edaa4faab7b9e147295eb80d429982ecf5f, 0x63c76d430393571f450f15725b683759a3f2ff2b5b3db066af3eeb9fd9ca1059, 0x9027244d25d2a8b7fb62c53318a2ed9eeab6bbf68066133d7c8f5088be08d5e, 0x51a72fa9619b3068ea85e98f80c46ac45787c7c31fd4bbe48089262851610420, 0x6a31ec2f26e80974404f03c185c9b781c2509fe57a35b5b0ba037aadb92f001a, 0x2638d1c7fe9b58c55cdf842095574d2a8ed9c149b585d3dfac4a2d5b3624dc2, 0x574c64a6900c699022f0b4e0eb76ef14109eff6990a711701dea9eb94f897c3, 0x3ca8ad8d1c7328fb4c80df30bc41c2e1ae4321b92c717deee92f3285c89c70be, 0x49b5b96e839198673657b6705636c88354056ee6cbda45034ca55ff334f73329, 0x21a6d5048520e5949705b0c8153088ec977286ad2ea886387ffcdebe0ef15aed, 0x553bda56eb82340fa2f34e8e2a5129dd57d06d5f7e0916c59c2e7cdb1f0b5760, 0x1350ab6a66cb82f571fd182d9c48de01a518dd33244a1d255f1e5662e8bed9de, 0x4bf125c0d4f49420141f7ba9d2ecb21c7735d022df5164ec3290a27d10e2a058, 0x4a1c98ffd131a4b50170379996b829a45698e314f2b2ddf4f6abbb3439399973, 0x27619774a19b5a7d82d60a55da51740ba2058c89c6242d1e5dc39f9314e096ec, 0x63d3279bf7d14db85346c13528f0d6126cfd72026a9a7067934e17a9e9384b8d, 0x3686724368817e8886db1e8f476533289dcc257dc3187b7acf7234f57593466d, 0x2c4b22ef40b3d7fa0a138da90540d15dff6f3cbc67d774b881e890005819aed2, 0x13a74b20c8c63a8c5edacac1c4eac155eeda85bff99726c333f5a1abc07989b, 0xba1f2debd7a79abbc236217dc79bdc0a4872187481958a4571cb98a1d295f8b, 0x389a48c3fd71fdfc2089056724ec919b077a7291d26236d158f2868d6ccff1d3, 0x38598256e77facfa5989f4d43b94c83c33ceb070469d177d1570216e08a3dd41, 0x654e3c46ad28164927d3891e11c768ba9650ce7428eeffc409efd9687d21a7d7, 0x52e03c6f00dd5b6331d46e61087d110596146f2fad8b65cc97ee79fb2d30587f, 0x555a6305c82b43cf382fab873fbd987a24262e582516423eb0118e89cd0f6b59, 0x23e6c158ccdfddd72a6a7ede8e5f0640eee01beb5473f7208b0830508140562e, 0xdd0f252f86d4bbfc51196524a46bee5e46330124fa537bcbaf9934c10b966c5, 0x6690bfb28815af943f4a5444d661f9d9a5fd4c391f33ddafa9a03a130e880298],
    [0x1b46fa31af7059b6a2a432d4b6f8e788c868db4bffff9d2cf0f0f0f0b4b4b4b5, 0x4840e2bb4eb66c6fc31235532a2ae004eea0f7566e79e6f71983d540285a607c, 0x64150d721e8ebbc16712cb77637a76738a36160c97949844bd3ccf8ca15a30d3, 0x4e157afe16757b0a68a7223ffee1dc186f16325d3be4d07c46e730a814eb71bd, 0x49b99cd50c24fc4849f1c447d5321f8bd5338b3aa2df73f32c0a4b870ef88b89, 0x277e40f627b6e58b36306a3fb78d1185b7c369abd57ce9260b917c915a308551, 0x10bad4d3bd769c575e3217b12df0ab7a44579d211e1ff803b9a79a2dc6e40308, 0x4d542f76d7b1aa62406b4abd731bf55bff7b40ee276f47bb9cf73764c5d73b52, 0x458b092e9c755d9804f08074091985c3df2ddfbd9c9282e31baa58a737a7a95f, 0x6bc3347a72f0330de43cc98e21cf31fbf7a676dd96a6f4a5b7db236b44b5bec2, 0x6fcdfd032f67978d2558a597011adc5af05f4b07a68aa50f09db28d4a1fcc6e4, 0x9a5c1be2f1b7e5212ce4fb365f2fddfe87d068ec2c9da6bd0c0a06c91c0384d, 0x35df2521a1391ac8ef2836a72a3d0b183a5caf5d9a7b739a7461d1f7ee1900c8, 0x61d7166dbcb08ba55d23830fa28b0331cb6efe6d32125b197d2a81c4c4abe27b, 0x5fb009ebf2d4e1772f83d97c205bfa579bcdb5887ee09e5eaf49df6fbc181efd, 0x554a48931bf946b245751a6314c5bed8edbda208ab4b3b9c6054d100bbea4543, 0x185cb7f064ea3be1d24fa48414eefcdbb23043f2992679b18827c583b5bca84f, 0x43fce53cfc700b80c12cc3cf1c98cd827da971eadd997d2d8f7c0617bb3d9055, 0x1b8bda692f327fd94a9d204686d3a6f23d6708181d8bfc3964b86fb8156760b5, 0x4cde885c19b3a54644f5ab11e7eb12df0565729c574af96df247da9f52e18160, 0x26d53ca7d19627f03e49136f9f50ef46ad3e875284fcb566e6c2480def71ee53, 0x329b238c425263e3a7e45ca2653cad70ab5f766b09adfd74ed1749ec4ae86f15, 0x43aa9b8729666efb507ef364eacc3aade7aa5565d28a239d091208956fd0a4d0, 0xf3f8c4281183acae72557dfdbb7f00d05f7137279e2f85a35229bdbe5de9a14, 0x22daff997ab12278641e3555a5f3671ae0e48c8289df86a746b0c40c287bfebb, 0x4f1696fa9292e17cd33d3cf9f5eb06db727c44925f2414272d78bd04b729b41d, 0x436252fa19f74173b18e61e7a761d901bb1ced000b0f5f79df317ba61e795be0, 0xb7b8e13179131644565b2da59e120a07f8f0866264a1a10bdcc0cdef30626b3, 0x638edb0de6b4bc81962b2296dd13e37c7baccc068c94bdffd39df6fd674c8a9c, 0x5330f2f4ad83e4e71e3b73edb1c88969873d5de260df38f9ecc1a1914ffb6ba4, 0x470c1caefde4e2a1e3a741d585614e2b2110a9f794b72331bd0dede240f0387b, 0x66d1bb4957bdf42122c32cd27ef87b3d3ede49b9a60b35b47db13441215fcd26, 0x164ae719ba9070b8e3e0cb90aa9fb5af0dd99bc6a6c56b8591bd09b9980d4a84],
    [0x1b46fa31af7059b6a2a432d4b6f8e788c868db4bffff9d2cf0f0f0f0b4b4b4b5, 0x4a16239f8d2ee92eab1774690da56c353ec40fd7a81cc59b2a02b21c7a47e73a, 0x67fc823a9b925b2b4c59dba78142a282167f006dfb790a7edc455a9a53167640, 0x5937c907af7140a1be0fdb164513a0c8bf0d56d11ef0badc2fbd52d76b03b19f, 0x29820153e9f8285ee2329ff8551de3488a8ec1e5420b83116e7dcf7370646f5f, 0x2ab77d01e01fd86bc541982e0ebdfb867124e51e3a8bbe219284a04f00394dbd, 0x40ec4f3bbdaaa4a27db109cb361eda37fb1ce3d503fced512a1eb7811659ccda, 0x346f1c460a4d2c33a44eae76b72cc69d04d7755c68cbaed3e8798bd74bb093d5, 0x42c57338c596ac234d568de13c543f2e8c4a8177faf3777a4ddb856b1597455e, 0x3202c401b11fdcfb20bee078378fe143016f5a69f5c471ef7ff43bfa21828074, 0x32516819a04b8bf402d82f4f92d3256d4a69d55071901a523183c405b907eee0, 0x3cf7c8a275fb0e8e8f4c75148c6b2922e5749778a8d08cb3fcf9f6053327aa0, 0x403132b08c2feec3206e98c576201c8906c26f677080d888e6ea705539665922, 0x15d59f0d556d8ddede355c21b36ce31f8184f217acf9074c08405e71c656ec92, 0x728b575d64cd59e36804f2198a492f6ccaf2e3e7897956c35b7842ecd72e036e, 0x711deb966872baec17f07f416351d79faad100bebcaecc06e590a579e67e9141, 0x44fa8bb4016cdad4ba9b01619ce46f4f21ae1c8a5e2c9d6c7910e7bdcc161ced, 0x5e288e979262282fe54b1d69815f55b6e45c61ab5a3e06049c34960961331715, 0x5dbc116af7db8db49e5d69e3d247225bcaa753b9449a6fb04eae15da21c8d799, 0xce4e119d4b3e763dfe05c451520cee7f772a8ea2fd010ccfc4636f76e05deee, 0x46a4c510efb6ce679de5dba55e1349de1da1228ef443039df59dd85d2c5dd155, 0x3e87138ca75d34d21ea5c3e720986e5453ffe1a24417af7a6ac6f7cfca36270a, 0x35a06bedd1be9db8325a17260dd7c87370e5d31f733a04a76bb9a79a1f4a6e68, 0x5b91ee5565b585c40ebf0e6452c32a86851e0742c9aaf77d33892878bd1e9d46, 0x31e142edc4f89ad3015815c8e838c6e00c36b28c9c37ba4e3fa8303f012ca4ee, 0xae2411489c11fa5297cd9341d66ead2a3cae2e201c0936d474d552b0bb8e7aa, 0x62614db9689fdf0976dda5305a2fb084c5d0a56fb8148c9b3620e0a31c0c2183, 0x6f09159966a2fc1ca0b3d8953f384e11279941212f396b7e870001d3b5724766, 0x1cab1cd72b8d5728c1db166330c26d7b87e4dc318546a307aabcfdaae1d69197, 0x17ec763839c41ef34fae2ac540be8c80937dadc858f542f837c4b373bb4a4799, 0x6ee61bbe5dfb56c66323dd3e3ed806002a30c8cf8dfbbd6a515146aeb22a4108, 0x6aa787ea802ef2eb94d3e2758628f90a0363df938d68c6f295ed84c6b4e0ccf8, 0x21364ac1ed84b62f179a58b155d597ba2f5cc7924a647795a0ee0629a5241918],
    [0x1b46fa31af7059b6a2a432d4b6f8e788c868db4bffff9d2cf0f0f0f0b4b4b4b5, 0xe870fc1511c87b79c38ecb9467a1b609634ea8405050c9d3ed877d77f2370a, 0x732d299aef6d56a6b12866b4ad3c41954b97e937e0d86113f48ec607f1c8bc13, 0x4da2ed8df74a10e0f8fe5b1333ed0914e8f7ff1b485ed7190ea5cd5dd64f91a9, 0xf66b42cac3f17259a32872200f8a6da1e715b93b8b56882acfba2b8ce4a0055, 0x1267c3caa6e0ba75f142d4bcb741e5df75fae3d1cc729e48db990566bcc08ca, 0x169ab12ed482824f92ac9cd1737b1f84c043d75fdc9f38038e31d3b5af77c664, 0x7148e641286fc3fd4a4f2b48827cd30a3435d942db48bacff7d6b665eda22390, 0x6150c0e627ea5f76a0f82ca060202890fb5ff7290905825223ff49ac6c246ab5, 0x24846ace8f85fe6e15aa235f95b54eb9aad79a78dc01456b07c110be75f8d586, 0x56b39cdc173a791db4817feb9be66cb2625409cb66aad5a05ba40853d21379ec, 0x5a4626d3bc0b2437ba9e39189d733a3fb2270edcdb67f712e047825086052a69, 0x5e3dbf24caf4334fe286c5952fb80aa1b1af426aac3c041196d3128515fdfda3, 0x40e863437db6bb4b16c7813c022529fa4acee0f212819f6fb5ec4dff3a626b21, 0x6793ba44666b589f902be08eb450f71e8c9b1d577bee19be429b27d78d2c30a6, 0x45f7155feb45d3974068831cf56a90282c5e1cf49b17c11e85df2c85d949a5c8, 0x71f2bd892ca5aa08370352946e1aecbdcde81fb7dc9f45e0bbe6fbc7761ce850, 0x1bab87bb92d931e369cc4565448e1e370c155709ebb80719d395cb2ad972160e, 0x9c9ad12176ccf3fb51c704e28b5bf026860cbe07639ce5d9e85a0cf80feaa06, 0x8afcd644cdfb683a500cca641de4ef61840cd24b3fa6c540bd3f1facbe54d9b, 0x16c2b32dec5db7c24c4082a3e34e3eeef1e55db2d88ee0c14b1f4956adffc870, 0x424142957fcbc9916be080cdb13e9d41e17e6601b21078d1c7dde5e012f8e449, 0x69bc4f20fa6656defb2baed8e4ba5b8e91c8c135d2c65dde0b5cb7eccd9693a5, 0x21fb3a58238f1be24c5e286c8a68f69684d54907a96c34fd0abb08d691f6a1a0, 0x5daf986219175c965d1216912ba7345e7cf3e008e49cbd7e067b259a3c07b172, 0xb09d4e81dfe726a5e754355a1714dad05346e14e101634248a94fff500cac78, 0x69ea895d1782723ba8411c46d4dca9d32f104e2f7d41c379fb4f6a260c7e47fe, 0x12d3d99d0ada76761866b224a3d5d6db7c4e7ed055661fd2fad86575f30f7006, 0x19764509662f0073c2883933f3221348f7c370688e5cf1ec5bc62bb4df41f59a, 0x3bed179591e248adec0bcb9737b7a48a377739867289c589bd95ee37a9650d99, 0x6efa6979f19640928e243a71bc722aedc25de9855835c5c86250aac9c39b1d6c, 0x997fd419465ff59532acd0bf885af665b750d1c0192f35d06f82b3ce36b88c8, 0x4c2b1481d86c4f336d3aff91cce1cb1b1787fa8b88a00eff9b7c7a1038618410],
    [0x1b46fa31af7059b6a2a432d4b6f8e788c868db4bffff9d2cf0f0f0f0b4b4b4b5, 0x22a2898f615fcb8fef738a7b52baafcb3ff38fa355fc67b0c010060a4919cdc5, 0x172a3c9888b1b5e6a4c78ea4f207fdd0a3913785879f7bacb5febe3196d50a3c, 0x2f72c603f197fcc6a8e47701756ba826cca6e71fe0e47b317f5cd24e6b58271e, 0x3831afa3f36eff210802e6bd77777fc3f2ad7ab73b351792bf65e8a17761ad47, 0x413387eca95cca36dd08a148cf27f088f9e28bc3de5dda7766c267ebcf070510, 0x62298ef1bc60b56fab381bf6e444ab5dc03b6a76fdddecf0779513b07e11eca9, 0x143d6a1c8a3d20ee8ee2813a4804268d6c185082d30c9dd5ba1fbc14184fec2d, 0x71375855bb5fda3500bd0906e35e74dddbebc2cad73ca123b7b321b56905fb49, 0xc6fc4c5ca84f33e5a94af3bef3fd102283956dec4ac2137b63fc989e4a8a872, 0x62b3d0759338f131b5c82b97f4ee123451b4fdc88cdef5331ce2529780455060, 0xac94ef17f3865eb94cb08397e2e9e7f43fa457281ae2faa3e782bd9688e94f4, 0xe714a0816b5b6ce2f6f00c9587e968cbf8fadec892379d86e087750e0cbd3d7, 0x290810d6180a081cdf4c34934697b89661ee9d5c41797155c5c09c3c555e0fc8, 0x142d67836f4819257ff9c27719bbd1c9f1079e6476615580dd39c64fe54eac0, 0x39eb7fa322e76398f3d83f650a8e1615e04dc6ef9e01c2409b65736f6ed2cbcc, 0xd464e8374182bd1d5866734fb3f20da04b0a0e5122cb45bebb7e0949517993e, 0x5423906ac7d3405b37ab2ad5d67b2130d8bf3b88a45b67b1773aa84df2ede008, 0x6d45fb16cf5c0ceac2dcbf55dfb61142aef9e9285af7076148baad6ff3bd64a8, 0x336918d90c7ffb7ab71ef075b4a6474fecb8bf51c41841a8872c5400062b4807, 0x21af534b0fbbf979cff64018072148eef0cffc07f6ba7b96d337e9c93aa97b5a, 0x68f5b58b33b1b0b2596b39d44577c4002a43a5fc79f932693e5c39fa6aaa0ba3, 0x26d1fc60510a1340211c0cafbc503e3e52773915243597e9517dd610a7d09d45, 0x2077ced5be3a8db3813c8c00ae25e2d7945ed6cc7e4eab6338ffb0b5fa1bfa7e, 0x64be8336138ec3b674e510927b60e8bc1995e35c07d7daa1856d242a3536659a, 0x1e31d807b6cad524d4a308eb89a36bc352e1521ada13c615226a538998b93e76, 0x40a0f34e44f39395fa22205324d339c2779f72130dd61f59fa9dbfea49e98a03, 0x5b293f5408e2448fbdb8b3b56674cdc9125c2f80abca171e5a5d2d842540b0bc, 0xff278da37e76069e5189410a86bd7c69b158b009fea888d2a596dae000398f4, 0x3c36155c2d48be13e1a998fed6ca4ae1d00f28bd0951e4e58c8d751d45dc2789, 0x828140acab7254e50d675a878b2c74266be6b52150be8cd97ea3bc83aa4f028, 0x249c52bb75cc16d6ff80c1786665de87620d35552c73dd5ec7c841c9b2e6758e, 0x4c2a2129fbb6bbd4b4cafa5eea6a8b8a9cf1713f519a44ae710b3eff5c9c62b3],
    [0x1b46fa31af7059b6a2a432d4b6f8e788c868db4bffff9d2cf0f0f0f0b4b4b4b5, 0x4a1d02fb9f1ee867320a34c063babe0b5eaefde6cd8ce3dd468f2490a7d3de8b, 0x1247ae02a2e5e7f5cdf2dd4f7c7bf7228b0c6e316cf309353f50039b8ee92567, 0x43bf4e3fe292f00a8b5d19a20bbc134d10b49b8a089e44c60162dcc1c70f18eb, 0x6ba1d644b7dff38a8f29a9ef5a809ecc499c873c49e2935cf1cda2cb747f3c07, 0x5beaf5c1999ae199ffcd3a952c512196224cbfd546f432acfab5dfc6e3a2d58a, 0x48d9e6c5e6f83bd5c89ae2f3a7c6f2774e1020f27afcb19ccc530b6646301dc6, 0x24f2c6f89e0bc5e2edb2bc178b18485c4fe33adbbf6a82f6c78d278bc41183d5, 0x2170e88455208d66859640539f316fd25887bd3acc3bf830b50a590ed11512ad, 0x57b0f77c3dc54411b55415e9c783120b1a10a771bf491f2b365db221c7a34e8b, 0x4432a5687fa1c665a59c479dfaa2f8dd4e71e6863e43455ad48e68427f24eeae, 0x59e784812af019d65e913a4d8604e1acbbeaaf3e49bb937d427a2df417799061, 0x1d5da2ec78c848e30ec9a4e095d97bda15850caa48929d9898733dcd4d37009d, 0x1b5461e493e25af1abff4a2961639211f42218b393f1ee48c359b6ef176e354b, 0x7209645717a8a0fd091e34c8178bd51a13011c0767c807d8d243b0de8e532ba8, 0x4db16eba6f590c59a607fe30f4b6aa0d2e9d1d1d36dfd1725b091428a824d23e, 0x7a3f58287eb8ca56eb3a76354397984dd86fb83586f6ba9c37ac54153ae009d, 0x287fd65ad2a702142180237ebf536dde747e89a17a9bdc4e7bd115fb3804d84a, 0x288b3d53e1d31e5ba0dda28644ba89458c8287b967147c86e51a4a22e575ab3e, 0x1939c830635cf3424715f10009dc8b5da2da1babc647e7c9169a41b8e797a46, 0x3bb7ca13e0f2948449958dbdf8a5d3fd68f4343cf379967dbd4df94165b86d9a, 0x7165905da6ed2c58664a080b9dfc6602633df06e019f4013db5ce85e13fbb015, 0x25cb9230953691d407dab850e29166380dfa508ec21889a4b83e1aedb4ce6609, 0x671a28907ab580d63e52163b9143ae0bcbf9f111630390d3c7996844dcc323ba, 0x4667f3fc94026bd9fc0a842b32083c107b587fd7f5c253434b356e3d4c102043, 0x16165e6ed55db50fbac1c0e22b1d2e3d238f756d477a3f3d470a64e85ff43f05, 0x5f63a0b07592deb2ce6a8a5a954e7935d1db4dbc5c4770ceafb38f891b2c6f54, 0x6ac7798ba986d9c4e5f2ede79f30a43776477af8b964b68436b8e6e3f3334107, 0x616a05ef81f554e70475f43be8ae92c87115f73e3d05bd1daa65101832e745b3, 0x1f4dbc2f43fd180b6ebf247d3f7d7926797a4634af951fcc61a52f0505f68134, 0x645471545917faa7fb26d75c183312a28f0c6529bb8e5c63b937ec885b44c6e4, 0x44df513992a031be56e2e7aac7c874bd568950380bc2fc06cafbaa9cf82279e6, 0x2d1f054c3a2d3295c27cbbaa2a68248186ae05fd448040bc5907445097c9e70c],
    [0x1b46fa31af7059b6a2a432d4b6f8e788c868db4bffff9d2cf0f0f0f0b4b4b4b5, 0x4b87f3e596bc7b06dcc5f6f1bbb40e70b5cdc9e9126d9151f90e271a9e5ae20a, 0xb02be16f73edd467de591e9e57da015516f9b1cdd4ee5000a6b70e613227b83, 0x4db2af52725b302db0925754f26597809d8d44de99bd150fad5e59eb3e9bd3de, 0x3c12b7b6ea576ebc11fc8d2398fce3423a3cdbb1f267c7790f2f1fe2f443a7ba, 0x14767310b0e5deb96d7a628f1d1ba9f6c0d09bc941309569bde4f214faeb4d5d, 0x30794b96e898b18e8e44c58680f953bc9c04cf40fad1d2aa371584ae5552cb7c, 0x38d23999bd8f4c4f215510f1c2ac5a63248b168b2d68ccb737e128832edaf6b7, 0x5688acda3d139677ab62711752ccb85fcdef98047d6b6ed9267f4fc843f911ea, 0x488502d4bf465b0e7bf0699da36c6cf0fc629f1a3616b0700a81a51d22a17cf9, 0x3b008c1f67177f26d56eec92aaf351b8588132e409b7c9a9f41b3d03464bee7c, 0x5a1b62a5092787014007ad4cf7339e93d831a1c048d9201d2d8e5f395d31c148, 0x483fd49f2a0c5c7f7dd6f33f3b268a4047d4320817f5010f6cd998a5f192a528, 0x213d3ac96c75a50c0ca0cd7735632780b4eb494f70443264f2887e2770278d2a, 0x3bb54a45c5a4210224e4ad009f2a521ab7239cc4706eee906a8ee7dc052e73ba, 0x505c6b9f56a50b4332d50c77020c67a3d660d9598727f18737583ec1db698c59, 0x6907643dad194bd81f002f84108b64c7d2138fcad5dede2f143be4f53336baca, 0x5081eeba43d7a7f2f2bf98f9d9ea8ed69efadee3a170b57523ba71cf5f7f2737, 0x4674ce946d648b0df712fb19e9f0d5c28146cf79626ac166f6e983b46e6efacc, 0x634cade4ffc2273c7b21739e866117238e36adee41b3875f9bc7e012a4e56454, 0x3c2c2376e4b47869b29f2c5ca1079add4f82e637e25411ed53b53f2038218f03, 0x5a95caf796ec2c160833a2e3aefbee68e6be8aa870d7517f9beb090c8c55190b, 0x5297eab985b1b6be4122c34506480bfcba7a4ca9a97eaeda61fae6be9bb67e88, 0x7256e227706eb42295aa09ee0031fa28c2f32f71b08628a2e844d53dadc3821d, 0x419389d387a2fe99756ea7fbda0b274ed08766d9251a4bfa5ffa0f01bd0644f, 0x12462aef89c127403b79c14a7c719ae5c59bab6d5a1278d8b868b05a015e26aa, 0x611a23bfcdf7ca3d7225b4b9045ba697f6842e9d6f13f49b66c0ee85c7443953, 0x62eb0593e6e5e486d600311449763bfbfb6f63f0690da05de6113eeb4bd5f181, 0x3b45673dce6c07362f3b465fc3fb2062d29a0b170dace8abd1d258717ad541be, 0x1637d2471f9acea917f73fd8e64e433e044d3d4dd3c430b9e1fd266e4d310d7a, 0x59a90d44e4594aae269c79951fb1e57f8be1d0674bfe14c333b5025d141e7f00, 0x40330d78f0d504d8523f5cc65e4ef21118d5657f83b26428e88b9935ce63d4ee, 0x261dc7f3eea6b4a2a6c46ada3104dac6be65f580fc7074ec02194003c8d175e7],
    [0x1b46fa31af7059b6a2a432d4b6f8e788c868db4bffff9d2cf0f0f0f0b4b4b4b5, 0x2552d0d8a9787013f90b28527b133137149226c7decca52a5798c3d036386cc3, 0x5f4b92d5f447b16701f7f79f1c9fca958a4ea33d34ce7f3d8e7641e57b927722, 0x4c435c67aed4ddd4d8900df9e30afa8b4df6a86c7285093cd3b141ae855757d4, 0x1aa1080ed4cf4a3cb3979270ce2b0059438d6881ccd9aee0ae3e10809552e42c, 0x12fe3fb4921bd814f3e3c4330ddcebf149fcf0247e97ef6c2e6ef9e31ad86127, 0x13bdcf5329b1683b3da50018013f6dbf01b1481aab6c14fcf9e0522cac3ca4e2, 0xe86884500e6ba1ce9fb753880102784857d5e68ebcd7cbfbfff8e60382d5ea5, 0x62cc1d9cc7ae2965badbfb0f33cb51257a7ae7fadff34d2cccb65b0e389b4eba, 0x415b65d324bfec3c2508c398d9aaf50175ade49eacc351513504f5b33601e754, 0x6d7e54c67c67c23eddf3334e3f10e3b0df80a053fc624adfff0d48927ec4ce63, 0x2b001aa44c858b782e9dbbb69b253e2507c38a51da4f5c2bcf70241e9bc683b8, 0x67e5760915ecac824e527e4950225bf7451fd968f45aecf2d70062743a452599, 0x637401e09ab0f7044937440ef0806bf5c123f6685e773737299ddda2d3ff6b4b, 0x10b67de38e2879b6577cba9572388c0c7cf462cdf0510717ae65ba110b7f0796, 0x35a7a52a83f2715db9272a40301de44ffde8de7b00bdf9c8d47597f04566c757, 0x6c415f098fb20e2b835bfe8318c15f6e972596aa98e740dc6c926f201f2adc4f, 0x574dd5f1dd4f78a94342c099f33f4ec5b61c4c402187e42f0b61ce0c92991d90, 0x6e0c4df28920c6b0cd61eff540d7e619c13af0cab6ecd5817490b694b493db1c, 0x11b7467ddedacaebd4fa123d6d087d3acdc0f8f931f9b82cabeb4a846d8fa6e4, 0x6515e0a4f87505a924470e0150fdbe6f3be9520fa1ed45318644b62f3a8cfbc4, 0x726647ecdf04096a92b4e3d6b8c84c49bc8cfb1dd664fd1efe7a111c98c7c3b, 0x27d976198c6f565baf4caeaef48b4577e7746957191b8cd4fa980dbb441423, 0x31402aa2739309d0533a0ef0ea8ff579815ea830407603d341cd70195194e1f9, 0x6b60237f8d3965c910cd94293f911bc8e93fb24a0e2c58f71daeee65e958861d, 0x4cb48101376eac8c1fab3f7cdaf56dc7e26e79042cfc302d7e2d2973c1ea3c3e, 0xc7e8c70fa4ca65a8881ea446ee946412f858107767632cf6eb3d23e549df678, 0x5bf81bed165a23381804453e33c333ca9287cd2e38373430f4347b50cccb7232, 0x47dce7ed6805758fa81438d195e355419c2ec79e04bd6c8fa3308e54af53dfa2, 0x3db1c010a4f9ec5990d9b60a1856d8e0cdd0484da1ba5d74a25aa0cd38fa80f0, 0xf90fc479b8a9a2059bc73f906fb3d0d65bb7c1ba5f68c9405ae7a3061848d3f, 0x39918d5305d2cf6eafcda2c8a94decb04b9f98208bf622d426057e0dd249eb3c, 0x20c398ce6b8f6b464c70d805c61101f5894d60a55d6624e951549b751ba05273],
    [0x1b46fa31af7059b6a2a432d4b6f8e788c868db4bffff9d2cf0f0f0f0b4b4b4b5, 0x12b03e4e55476c8da76844085ee1e305a689f346e5e788db9c51e320057b412f, 0x57d82012e1f4bf37c58a407ba088119025338fdb29c8dc964497780e2e84095b, 0x49183ce0a4ae1dbcc037e3136e9c8e40901d87a61f05e116be2924bff2163de, 0x52d712f856ed90042c9f111ae6bb36643f963ad9a7dd3e8f6bcba5c094c06c8c, 0x5c7a3adc3a5f1a9236ca69e162b8f8f642bd9d630822f2e6dd15300273943258, 0x316b00d8410921971c91a2f92f793393ad9781c1bbff9409035fc5f06779b84b, 0x33134e95ee6114dc6bbdb6570046b4187d31305a720fc3da84268262690e69f8, 0x610b61b908abdfd86082f4ba30dcb5f2503ba644e634ab2fd9f85a9d4ecd72a1, 0x572e3494c262ffbcbed97aa6c2e1ab4c5a1ad7baceaae197f88d1b344c698934, 0x28ca7c9df47776fc9815721cb34a908230997935ac8c1e6e57392e79f0a66c06, 0x4b2b95a925aa9ebda0971fc02f542e3a21925b4e050f773b4382102461004f50, 0xeb0e874c83b7d0ada546cd4874a4e1815732a58e449077899045e2180300b86, 0x12a3509d42c44060e6de683fc4ad0a9d7ac3958ef29998718d038f6f2fb3667c, 0xd7b5cfee61ec6e6fd8eb0406c34ae5642e87af8ffbd433cd205591737836912, 0x529a081c878de429fc3d525bb2afbcafca82d48429b193a9959237f234b4edf5, 0x26d9b640e7d147aa6ed7562f8debd97355751df457fefbd990aba4b204606237, 0x27e08d72d7255e3340f2f7685048c8395ed4354631a9e79c4e0c0aa3bb538fa2, 0x6c228ba5bd65e5c70bec2ef3df87aa5bbd86ab6caf7e7caee97476599ac4a7c8, 0x1877b4c425a98d01a2ff102be30a9d61489cd41a66cf31ca0a93de2383343ce, 0xc6fa8a724fd6d29961495ed6ff1f37070f89a5cc57f2bd2252d3ec896affeaf, 0x547226b3f07a420cd6b3a7321d5a418faf88de56a6068186e40c09cf0ac7d7be, 0x3d42f1487b1c49456d7463e3cc12851db3e84d494489f3e0a8c3e86b0e5e87be, 0xefbcf86f77fa6369995240358e841e3b887a29af027e79a2bc3c57fee59c148, 0x1ef1680fdd5ae7cfa7194033a6d7746cb8e84ef1ea7f00851bf03cba37d2e159, 0x30df33a8b8b05247f93f5ff2a049f7bc1ac15e7c95cc5625dc2491df39a4a9e6, 0x6f7eba25d7674d282304422c181f2dc655e2549bbd715b80e850085afcc07fd4, 0x6bf23da106caa24fe75ab8618d572ba1a0f652c99b35f07fb985fbe981c6b8b3, 0x3487a2f4fa154e9c1a98342239d12493f41f53c9e2ff6d638d674bda5badc923, 0x1cbcdd3fe9f0a053a329b78ad52574c6790faa8799a00948a50ebf7bfaf1de38, 0x4d4ea3948e2c8f7903054363f5aa439e7768e9629b1014fe41b2325c15e6a3fc, 0x604e82e0eb8a342599bfc4bdf6adb7e8a97c5900811cc6cd27bd22c98df66ec0, 0x66e8e4bcf63f63913ced68b538d43046d7ff43605ec8161564e1bbaff2d8fb4a],
    [0x1b46fa31af7059b6a2a432d4b6f8e788c868db4bffff9d2cf0f0f0f0b4b4b4b5, 0x51a687b6974522383743118162c40c49ad3320c653120692ab1e34e37ab97ed1, 0x4c182ad5be2eac030bc365ed590f0781dd5d4af3e33e7992202cdd82fb54db23, 0x472e5eee590c4aafa846d09bc4bc9d647b4ada7dd79b8462e6b75856bb1856b, 0x3b95ffd4c0fbb5ff25f1b7a91840bc5b4ae8d652429ef6b295ffad3af6581a83, 0x39bcd6d88a4afcea51ac3112a174bd0545fcfa5e945761d7c8c6c65107bab8e9, 0x404723b5c99a8e526914de352f656e7a50d56cb6565163deb3284375515e1696, 0x158120d65b43f139a3aa8b579c00db01832dfa12be0257fd8e82385879430356, 0x70b5c53d33d08c06835503165b1ccd3c57c040c809d97aa95c185d3193639ddd, 0x2960495a303b04ec44dd87b482a0981c1d7a4ef5a091f2b7aba0aa2b8bc37584, 0x70d50957b68d1717055d32ec0beb7f0f711a4da99fd8e8720d6c975573128443, 0x5b595cfdbf0aab5d4c432256973259c03e53cd0d84939579890106820d7ea052, 0x420a064bc4bfd7a1785960fabad2432e92ea9722d05bc367cca46b12407765b0, 0x455ab0548558182528d616ee218fceef01b3c8bebd660b4a28aa2ef118c55a69, 0x3f71f84457ba30693463417ac260cc4c38369aa8569bab9dce61392e5c57abb9, 0x362fd67e1e5bef5b8589b14eecd753d45d7f9b787bff25ec00677788b31e086d, 0x1bf6790f6c2c8b25631f5a3c27a9b402d97ff2339841c5c2f6a2ef91e9cb2e4b, 0x38b415d6ed5ee598dd18f8b59602c46b386c293c187c1b7bb9c9ecb959f853f9, 0x17664af0dcf04a4474b855b25f47ef7ad0f440d52a02870a53221f02f1029d96, 0x1e607c7f695679e223c3be7aaade131cda4249f66cb3bdbbcbf4b704212530b9, 0x48a126fa93fa72ce6cef6488ba9c79c066d0f9faebb1b66cc38e68b59cc2c9a3, 0x269d7fc36b16b0f56484bf66158e43cb33a5dd6aefe66f8fb7a5db3570d397ba, 0xb67b8e6faab487773b2e1adf7a8ab615ec950cae5c63a97fc4428d341486275, 0x69ed2a9454b7a9d7639de94428366d66d050122212cf4e40a58fc1cf910a1849, 0x3b1398761f3788793081a4a43e11b5c2c03715f72149710de3880b5d520da090, 0x6c033312e1dff2238abfa5b6255252db9a46c79a9371fbe395ea6dacd9229e77, 0x5a4edc305df19ed948ef30dcfc7c1cde624fd1e24ab173de5f53ddf61d362687, 0x68e7d6d84dacd7fae4047929f07ca2d8128aa23049ba296972725e872070311d, 0x4e21f4a744392da88402a5900295f28a4e80d3bc4331522fd34679ac9c2af7f1, 0x464051b01ce260e3c395cfa5924c2f29e3c7c997e1fce9742ddd718fa3475d06, 0x38eaa0e13ec861b0f397031db004ecc11bc2ab2471be65ae63f24758101cecd0, 0x5ed39bfb6e14e9f2c46178fde8b6da85748d936546e0d384eddf44c9df5ab4ae, 0x12d8cc20b90966837c8866129e29de277c0fee4cca2bd593a644059ef8f191c8],
    [0x1b46fa31af7059b6a2a432d4b6f8e788c868db4bffff9d2cf0f0f0f0b4b4b4b5, 0x626aeb472d7021fc6708604a032cf5d7dc37808f807ce48295b9c5078d2bac22, 0x10fcb9899fe56f71ed0583949d2c0a52955272ed00668ca479f0ccabc45afb25, 0x65b80c0c21340c8faae0e1cf4f7fe345d177b357b368ff2f44e7aafb2060c025, 0x501ea4183163cd482c4d305034c9fc55f09498dfa50d8ebc15c5fa150655ca72, 0x6fccc46fcf19a34bff15cb05d23a03c97106faca0955f3cd04efb18bff88a868, 0x50eaba6ca22a0540261503cd2a3935d8cfa3fffca6cc8b7cdb0c3e2a3c558aa2, 0x393feb767e37946029d4a2e42747168ae7f3122ed5a330002084613df8222844, 0x4ae6ef0e572769b18ed9c0a4e2ff9636d77622d17e7791709708d0f9dafd5f7a, 0x149236345c7345f603a03e6e14f046ecbbdc8ed3a60b416f3d54b6ed21ddd908, 0x3b87ab1cfe5d5f60969d863019f8b4b75b0a452cb29874f076b7621d5a911152, 0x6683b166d9ee5287e79a808c0bd84e152af92a7a5c4c89f4a48644278a5cb523, 0x2315f36ecd1bbf5c1dc06436c2fc0f2aeccd0fe9b43b01d064ae0d33b0781612, 0x4d42c73b096ad6b9cc3b081b1b7b9698b88477a8fcafc372115352161f2721c2, 0x2cb35e32505b95f7d84520e4a7c42a1aeca016239791128b0a4034498a582fa0, 0x3e2dd28915854bed82a015b5776dee56fc2c729d2c64b4b443e3ede079e977b1, 0x41b5453e7bba7f60c7d20783e653d8d6f90747f3f6f952fac9f55b3135af8a09, 0x60a59d2cc6a7c30b761f71d59494fe53db754ff2a12c5eb2b3e324c809becf5a, 0x278a8c55845c7705b3ed9b3a0a49e80fad5de843f5332242c706ad23266f0e63, 0x4414585752bd20b1a16b1ce3e60e54942a13378ffb0a6235771e28c6ea430e72, 0x411fc5e6b4fe5faee8213370c26ba58288851b44ecac18ade2623ccfc8e7f57e, 0x4134e086ed260e8a9a077fa69448a29a7f9458a639c784d05fffdbb859411f38, 0x24c3aaab920507b9222781fef8b534414e14bba066ce80cd3ed14c8747cca76d, 0x6f381f6355310978df1b8e990a9016f54dd05b68c474a45cf84ab8172511bf9e, 0x31340f53fdeb5d3760617d095253fc93ee01098b734d08ccda64257ba1b984a6, 0x2ae5b23326ba5cda5c14f04198190434a62f4a6d884554c919a892a63dc048d0, 0x1018c15cc62a386ced4c274cf7b552fd82153cae2d98800b4f50aac719ef5d73, 0x448c6324562075af66039982d62272a57cb12f10441a97b5865bb24a0b333c65, 0x31df1261f64cb33a751879e6519945b62ebadfc6af9b0aa4a6d59e8d699340df, 0x85edfbf89e3d6b70e63b3b15c4a94f85554ddfbf509608f95f0126b1ea374c1, 0x6b7475ab0138da067b8c6bce1d34f475c145d53767ac55963d4656e452b190f6, 0x4a92a27da4dc84f0d8d787cef6eef97e38883b8f528ab77587db66e4e7d259c7, 0x25cfaf7e7e384ccb454c3a59996b3e50f39d87a298204db67e0d60e8fb3fb122],
    [0x1b46fa31af7059b6a2a432d4b6f8e788c868db4bffff9d2cf0f0f0f0b4b4b4b5, 0x1bb096c0177dfe84babbb31ca4a4720a888b8fef385b0f2584ef3a23e4cc73fe, 0x423c524884075200280d453dca75c1f22191cd06b05a5cae67b2f63c6de8fce9, 0x4032c2b218f87d275318eb526e2c551cf86538ed7b7e24f37ff798b90ca673cd, 0x9416acfdbca73b6ef12b59862977c6c77749585c76b38c8e10ee653135caa27, 0x369231576be9a316c265349a00d6349ff68fae34a99b22c7d75a9d0c0ed970d1, 0x6548b37302b04dc8b48c138b0a8af67c0a6d30fca3892cf070c86e7f47cf61c6, 0x1e544659a24328c7c90e7652518545cdc696997973818d064aa714aa8f061927, 0x3051e3475dc63c6e2dab601d6de4f824d6d4100ec822253aa7ae32674ca55b8e, 0x4061f90632243ff420efb0906e3a9a95218c5309822e5a81abe7546fe84e7a8d, 0x6b70adff730f1a5866cda77d01eb0e38fe6066a37b2fe2524142c18df5eecc61, 0x3f3d2cd295dda16f92cd5e273021be47a6065fadc6469367e7e8f675a1a7e24b, 0x41aa693bd349d3492f5828ac4e7c99dafd1377224de2dc1528aeefcd0b79c801, 0x4acbae5eaa79d80eb37d2f2e9e4b37bead7d60437f5d402cbb9487f988efffbd, 0x2cfe2d0f9024b1739e2952b47ccbd9eb124841ea2b93f5d79b4379c44b294343, 0x3e94c672a555f938b164de8b3a502ebea05ee7f0384d5a6f5a39a8dcc479cad9, 0x283f5cc13b2bfd5bf3d105341b72f285ada46eced469abc2b1af86f7456ce40a, 0x3499ac403ea2688a5a5363188db136c5836b54161bc6be854a4ea1a9dc4524d4, 0x1067b456b163d9bd3e8199811941d923b9d3e2ce6ef0eb7fc2d92b80100ad9e7, 0x33736bdb4c74d11a081362611ecc0a28defc514c2373abb15478fb736d967710, 0x6dfabf5a3838576075d01b8bc34d4d554f1af870160d34ff796d1699662c7661, 0x2c3288dff3400d884a8e68a2bda8c99f3c18a3f2f2c29473c88f9974bfd7a3dc, 0x3a12aa8d4b7c8a135bc61c5d0e71f3bfd722255ac6a60be004089f5240d32e12, 0x37e14661b2735666b145bacd1caf4d853a26c5b2957d700be2798f204b2da94d, 0x7203eba543dbc3c28063fd1bde9c88706523cf65902828f8825b122275c28d0f, 0x208da052ffa519e5ff598f977608bc2306acd998cd804b7217702d95ca4de004, 0x20493bc3484f139eb7807055d7bf129d2687ce065b505a66c2d65903558bac56, 0x46e9edde9504d08e5b06f69d5b319cca7a504817e826ed2475a4fba19c74d7ef, 0x66a9cd585415771191230973c50800dc71e6f2a71e7a217537f5a43eaf3bc5ce, 0x582b8c7d6463353ea0cab8eceb139e09bbf0f430e577ad1ae18dfc34f36b85ff, 0x6a1d924de8e057a00995de397ad2805feb67be9ce390bd9f02aebc70c89093bb, 0x1e4bb12b44c7013e2130721f17bd8776f209738e668b94fa28f2d4a91f5826ab, 0x4efb50821c93dbe47978fd91953fadb12cef7a38969436aeb92f21955d41aac],
    [0x1b46fa31af7059b6a2a432d4b6f8e788c868db4bffff9d2cf0f0f0f0b4b4b4b5, 0x5b0761e712116cc655d21cf41bc05e00968039dca7bcbf380852395ae8262552, 0x2707a930008840f98f470af4baa53bb48328dc44b05788a40cd8f9d86450cb5b, 0x22764fe73cc75eebdcec47efa297ca49c91731e07a369860501a38c46286269, 0x5408795a68178f005aa976e26941e6f425e20607cef070899f1ae860b75b2232, 0x66f6eac4ff8856389d758fc85851b6f0327be739605c56c28aeee5be59afda59, 0x4c4d36e3f4f3f3739eebd20e9fd853fb185aa141a10c644fa00648fcb29e3d9, 0x110b58928ea39e63f15a165c8b4a49855f8d6a684f31f3eb1fa11365c4f9d765, 0x2ceb128f458d96959c6a22adb2f03ff458fde2e91d496c005060adc6498a4625, 0x4eac2ca4540a74510dcd30512356ffe04dc97c385503a39a1e21009cf122439e, 0x18abdada7fdc4b881ebfc86c01775ccf1cb1816ff03495acea436dfad72e4319, 0x6f6d274c72845cf43b32ce06108202c6a35eb8e459a3b9f424790ae26b5c12db, 0x3797f2cbdb33c5c84ab1b3de851acb67dab90421f8f2cb8daf2bfc6c2f70a9d0, 0x2296541d7f44c21c4ee38352c1ec3435ef028623f0c8ec2198babe32fd081084, 0x44a8c45910085553f6637c4515d3650798b34fec536a39b7377587da2f981838, 0x6a2452c0209a44345c8ce92be8268ced9a2956a02f90a5a53f6ea6011809db90, 0x67788a5f8e9632d5ee745f44831bb858c8bb99429eb23f65575d0ab43b906475, 0x5c5188f3ec7cdc436b9bbfed4ac0b1906f719a40c2f6d8e045376803fc2cc646, 0x2007f120bf7d9212308b8b45ef63d3528f12f289e287e6e4112225b00d37dd91, 0x3d3d29216253b3da14ac533bdf7c8db67280df2ae672046b143ac4b99bd8ea6, 0x65bb19d8b53ee35d47877919c62d6245e82696bd98a3e96a835e4061ee7051f1, 0x4d5910eede63e1ffd29be57887d805cd2d9cc2414af78a5c600ceb508bf393ad, 0x1338685a6e87e38365da825bb92e729206cc6a227d319135542dd1096923d3db, 0x46fd8f4566260d9a5704f37f8785b070af0d2482e8a828d6536312725add7819, 0x3d64b6f619ce118f9a1bc5a074588fd9b35455fb5f9ec7b93b464927766498af, 0x73b896ace9dc867c65378f7ec645f82b3333552ab9ff4210d21208cd50ed662c, 0x5908e58ebfcfdd7fcaaf58370a70a7af0e60fbe7b482d7c712d1fab9a8dc2ee2, 0x5255936439becef17f7616718e96152e33fde9a0c5f99dd7fba416dea47b8989, 0x6d065ac015b7928166e9ee90d066919c5eabc62f17c77249af0937efaa0440e1, 0x71568931055c2d661092aad21b7b9b11b655c08b037a0f7eca8217e6c8c60bc4, 0x23f03b2d4ca5c0ddc2773b699877142afe84a071f6d2ef965ad6c0e550a1f39c, 0x56ca19c2b5e1824ee81ed740784be941da6ef466f01699acdd24254e5ff48cbd, 0x43aa12cdf71e0cc54ff8e9db876728cac52f25bf9454755e5e38e80ce787544a],
    [0x1b46fa31af7059b6a2a432d4b6f8e788c868db4bffff9d2cf0f0f0f0b4b4b4b5, 0x72516512cfa38efb521e2eca28c1731f010222906b5a63c9b9f3c4a7c3c3f0a7, 0x52eb87a097ef6892fe14229f0b7b9425f3431de6b09f7cd354a6f85b4bbc045a, 0x3b9cae0253808e652f9a116a4b71f20d35aa64ab5afcd0b5c6517a95178934d9, 0x2e53f745586626ec7c297e89301b40b128ec4cb6f4204b0691a793dbe16b240, 0x7c82e33ceb327d183981025bff0476c1f564057c47eb9927d249d7b8f4563e, 0x29ad9fe668d992ae0018c4ffcdd2cab44c0482b44c6cf24922341ed0fe55a5f3, 0x4e10846465d0a38618407ef4acd3bf4f36b4bc9f0bc52cfc77871ded8c3e85a, 0x2f68999875070972a7a6be5508db69287d4c8faaec09aa5b118e8755ddcf7d04, 0x11f389ac5a0b4116dac116efae998fa1d046bfb1333a1ab8201aea3c07e59570, 0x462a63c3887358558fc4062b786bc966e7333c73eb85f513959c2e93c9ba4c33, 0x35600c97454fe593765b7dc617db1ac2f27bc9403018ff54cf9c56e347d96bae, 0x58e1de538b7fca214892e1b326c94f1d3c0f1ea0d1c8c63aefeff5d0253fa9be, 0x71636b159d6e8d181d254b5a8e80712cc04edeeed9228a159d0437197f4c259e, 0x4baa92205e5ab832adb0a64b66057dcff059597d178626c6e421a73c88a4f594, 0x1415aa1cbabfaa0706c12cefad3823158f28f209199c643ea367388670e22da1, 0x6c0c7385c41554277b8f83367d1b7f6b0d999fe88819af5e08ca707583b0a3de, 0x5bf43ca082f1d08807bb76e01930d29174178b00ec9d87eca16b68b6cd7be39c, 0x25912c2dd77c2795992a3d8356cd46c4ed1d3371c06a2fbaf2c4f8023dc3b1e2, 0x29ed89389987b7b9528f618b53e4fb40bcd3fd024d37ac02e27895b67f4bc436, 0x2268b711edcbe3bb18c116024b427d2aa5538e8358b79311fbb6f41231fc98de, 0x6dbb34e9cce3352abc913b224a45861595b25fa3347b7330c245a9e535f7c383, 0xa36b1442d5ae8f8342eeb9962411caf99868abe6a401ce99ade8b3240a7197d, 0x25b1ce6738fc3644817dc21cb0d644a8df31e0e483fc2fee84bd6cb859a7f288, 0x1ddec740d9ca6f2a674b51e869e1a553d0fbfa240aac0fb483ad0d1559e12ee9, 0x2a09a8b7d080d48893a0b93b4b82f0262e22ac12af9757b929767fcd4dedfdb3, 0x58be41035d7090e665e22d149337a75fa40c12dd5cefd3230714b7ab3e9241b, 0x3743a68763ddf1aafd0df1c56c3c5f7efc1c4c298c1d99e4dc2924c52d5ac489, 0x639011f8ba00526f7b5350f63e8bb6b851e36cef2935c73c23c1f752bf49168e, 0x4532e336aedba4dbae52c6dffab2329fa5605e5dbca1a5de295a7dd6018e892, 0x5e4ce8dbf8fe5d2446985a15c4147dde35c966e6ae4f0f3f4c40985bfae2f42b, 0x6c4f180e6ca918b9150436d439a11a03105d61a791a5e5103140c78cd746a2f2, 0x67872620c8a4eaaa9916e23d2168bf195f443764e80878fed7fa62fb9fa58287],
    [0x1b46fa31af7059b6a2a432d4b6f8e788c868db4bffff9d2cf0f0f0f0b4b4b4b5, 0x6245101bb4282855ea5352889f6ccf57030b53ef2cb79a5302bfd8c85dcaa458, 0x29c7ae04bba2f4c6fe19e8e79e0469ac604eb9d4981e02b26cab9d6cd2c6e38a, 0x322951c257c1de092075ac9cc2decb1fa96deaa22403d77a2effb723f531408d, 0x3c91c540f55de0748a9b8a20693f479509c3732fc94a0116736207453583c441, 0x2228c96fe050b36625196b3679dc83ce3b375a57706758bd6f2c84bfe9d1f18e, 0x1882cf33d8df0f762b80dd00b2a4497006fa9aed9b16f3c2461239758b4643ef, 0x33c93ebc91aef2d4ced8a581ee78bfa6242e7c2b4ddb2a3b87bec1f23bc59c1d, 0x6ea7e6e9cdad0b6e2d25f281cfb909c431147640dfaa0c309e53badf9475b941, 0x2c9fb1e19d7194d08c6cb429ff72330a15c32f81cd50877cdc336a44b5115dc5, 0x51a7a9d35612c548647fc246605bf6a6e812bfcb063c92bb2ef908a5df08445e, 0x5c009e8f272e984b1c00111a2bd88f18a0f8cf84e1b1e97e40ab040aa59ddba0, 0x45c1d66e73685ece9bb5abec5b6f18d9dd8a6e077d06b432095e17417ded4a69, 0x5659b2b7b7bc6ac26d298a91bbad881c77a7a08d17338c6943a02eb411ecb56d, 0x2238edabb6d8c2a2bb945dbce33c015ee0258d01697e4ce73576ef75892ee5bf, 0x5e51d045199f92cf7b78981526a2e656f672e5d71e7aea7dd4a71da95670938a, 0x5ba683d6a36683233ace7c758ab72fe22f9493fdc70293fba3ccf14eeb77ff7f, 0xdaefdf782f1d69ecc411f7ad522b83292d9bb2ea4372d4e45209c695ac9e2bb, 0x6b1931772d3cfa05d961544e209382d3ae901b61b09ae925c480d6f583ebbbc5, 0x51e652888d0fbc6923ef673cb61bcdb045bd3fc6365d7dc87ed9e412e2e20c55, 0x75b04e0341b0c51f04fe16d500ecd4b21635d164a5f0e461f3bde9587e0d76, 0x68de5308be4256017cd59631fe9bee3172c0cfe202035c9e0b8859f72ea13ea3, 0x352ede0a132655f29678a93f4d1bfe5f5c4d674261365634917ba4f79ab94b7e, 0x1071d235bd727e0f15a60749514fd34ad878cf72cfb5fbcbad7a153007c3168d, 0x1efab7771ca2aa2b3be8b6cf61d4788eca29e530bb13dc989f5db89e642899ba, 0x65471d1f5c8b25621820b2e7c90204cd08f0e2bb0ac5ac82330ef4d7fe244eb0, 0x3ec03f4ccd4d6405169771e59dacc34daf8302b0599d071b6cbb11126006e0a1, 0x35f9bc6ddc639500817f1446759fd4737edf98e972057509148666580ce5448d, 0x2bbdbaaa7a048d066b569fc33a6d152c4a48c79b2ae5e4bbb459362b397978e, 0x1ceae453e6bb4b27721927707844560ef3cfa525a84c2fe2b0b8ce4d1b3cf1e3, 0x17155b9f0a659ff4897f618e2b42ae44add635489a3bf26540a004ada5e7f58, 0x4d9d82cbe98d920622508696a15549eb78cad923b4f7ae143ec74239def7440a, 0x6e612c7290e05b89e9a6bc02785023a634361a79874d6854162664b090dce870],
    [0x1b46fa31af7059b6a2a432d4b6f8e788c868db4bffff9d2cf0f0f0f0b4b4b4b5, 0x5e767a85d251e117f1e7b1b8f3121c917b961a354ca7139ce04822165fd86262, 0x10c962e963b8ea84081e0db4171f79c532c226bb1b6b2d63c87cbf16e241142a, 0x5d3ce3bcdfa1496494a5868b985848ee47adee6212bbe25574a5727e9142f525, 0xa35de0f5b02d976befe1492965c29dc29c0042b81e89011a1f2ef43738014ae, 0x805089ceb884a02cab03864fd81c41de3bbb67457c4736b2f3f98bc2a38f647, 0x5b73ea27c823e0ca9377b5fab814d3f0a497db1e481806fdb7f0cc26fec7c0f, 0x43a3312dc3ecdd298a65fbb88a2e465ad084b7df04ea0602c64b0537277cc11b, 0x192b2fbcf58a1151df527a9b0306388b5e88b5d0942f32281ee79b9a335bd572, 0x7fb5d11131a004c446d089c71f75bced4771a13bb44933276030e6d2644e21f, 0x4c1b7aa760a4ccd7780a0a36c4ee6316f83f6b350d57d097b94f9f08012799f8, 0x216a2386f8b749ce41811f3a9e41fe7be7ab72656c3a1c64383e84b076433edd, 0x3c0575c04a3236a32c2949733dd3bf79e072e8fe759d8b86d6400dc6feacefe7, 0x25a1d829ab03f92de05b934e01d8995507ef503ec57b083ea8d3b534a436c375, 0x5c794298c9fc9d9ea22bfd8a5055760b54f97688ef42912719269bb4efefdc0e, 0x1fe2d9c6972168f9e1dccbdf15b8f4b53fc3288abac75181f41cbc4287e7eda4, 0x582d38b04c88efe05fdb8f1caf30a78da5d1f51496436763d6fddb714aeb124d, 0x115b31960bbf70a0b066bfb67471cd20847cc2a53e91683488c7103089f4418, 0x5285a8babb60c0bca11db7e2f103b5eb651fad4cda70aee2852b245d99dbbf44, 0x729395243a92a1e27a6295faa3b62a81523c757309211cce8844a3484875f957, 0x5d0e25c710b3eaa1a255116305243abae756c966c794f32f1c612907704e984d, 0x4ff4f990c0c7d1a6ac1facb23681c0d08c1e45082531d0a6581fe92ba115a50e, 0x64a2783552cc180b499273dfe73dfdf2c3751126cefd491938c539cfba87b2bb, 0x45bfacc62e2d6724e607c858c8e2dacb45ba3d03d0087de159ef2cc83d7ddc63, 0x11a5a7df500c60a40ccf2212fbb9dfaaa9a8163ee714d069c73cc9295544ad53, 0x5bb55e89498e7663ec5e5e50c2460879ffdbd7652dec88d56f138eb58fa2a8c8, 0x2617bfefadcfd9f8fe8fe4e229f0e4d1d2cb36541ddd99e93e6f3e316d6428f4, 0x4698283813b4e81c3724ad0c409b7d1fc9278828c03c0a272d95bcfca8f71b55, 0x600056055cc8e83e774a3ab54cd6cbb52358632f159b990849fc7178843cf9b1, 0x1a0569bad93fc9e82587f08753688254d88a644bb3c2270b004079ca1732d6a6, 0x3c5410d3bcc27a21485e131905ddc13626d58c793506ec92322f36e6efba0ee2, 0x59d4bf2ef5482b832404191d2802e681088c5c206664bbce6c7e1d084b533aaa, 0x35d7289dcee56b4c945da52e3007641054f5d78d63de0d57a9fa262a56ded832],
    [0x1b46fa31af7059b6a2a432d4b6f8e788c868db4bffff9d2cf0f0f0f0b4b4b4b5, 0xd7fcec3eb8765f6922f7e02914e23e26387f1c46f1722afef4e8c279b5c3176, 0x840d1e23d9e3f67fec0b63cd160e63d4d55ac05ffd0167b3bdadc354a5bd173, 0x639f6702c52953ebdaf438f63becef23f66f15edb9cb2ed478af96826a89ef31, 0x580195aee3470b76c971dc2da1e2139907c50c99b2d1b5ac6db1d94d437a422b, 0x724a69620c65aa689cf3aaab4cc9b5e465962e05049baa2b8d394fb3b63beb91, 0x1998217c3929f07f2d982eae33e5ad749ee29479351965199424abdb91e36990, 0x2ff25b7e1b086c2a7f3db02dedac45b8361ac36b73da9fa9849e71d533eaa828, 0x8b3994bdf1f930c9da4720e83ac71db9489257157b53efb4fd756cbcc459c1b, 0x3210df353a1ecc854d6609d26fdd4a755ac68d5a2957ec910e20e33dd86cc27c, 0x1d366dfe0a60673b08c3b5edbd184a17c5da9e98bc1370611532786f9cee07fa, 0x92bf3be616347702a6d6c39b23b18ecb7e1de23b4e466f58f4ce3e573056553, 0x498bef9a023a251a9857b3151526bf3545d12f4986830390d8b02ed2fb8269aa, 0x3c32284ca5e7c3b4100a5a5837284c7b926be74f7379cf5d3c71c2433725cf31, 0x23e4fcd1e6f67dd382be3575702cda01aac7c1b759282de15914115c82abed50, 0x53a452c3ec38b07ec803475074bf0a1987a2f6d1dfe720f443dc1dad656c5b5b, 0x574607c0560f3490271e5034b50c9b628dac68ae4546c7bdb0ec0646c85b10db, 0x5c2709376524a3fd719f8ec605a71d8cba35066ce7af7eca22d624fc9faff9b9, 0x34dc41ac4fe4167b2b074b4e8bcc55efa6178be5976cbcf2fc1c5e4830a31f54, 0x6f7c9183a32c797fa9a2ad1492da2d4ecc0ac5eb1a05633250ccd34424f7a4df, 0x22761fc749bc7f673fa6cdf808b4459bbb1373b188a8bc0b049a6ba713cf2e87, 0x723b2fef4409c2681437d3e75f061a5b904ed7a2bed853e6a423213ea40a04b8, 0x24fc17fa880f9b1f13c7ac9cf37906029d95a0236710f5d88692ba9d77adec9c, 0x44046d0379d1b1974b61b0f9f05bc6e529995e436cf10c83984783a9b0105850, 0x5037443e12ef604f304a817ee198a614b7828badd6e7cd606d2e8b26e074ad4b, 0x6cddbfd8d69732721f8c36903838fa454e55651dab532d7f87fadbaeee3b726d, 0x1d6ffa46e8e09c1346c867947a3f19336bc8f3c5a2c433a17c8df0a35a1f6791, 0x458ca39b972ea7c37bb0ff17ae5f74111702a018edf24983d46f2246286a97d7, 0x368db555a06f3bd6aa25b3a8c97518c80c0fbaf73ad1757168cb0dc167e8d6fa, 0x26d58581af182b12fd5cbe26eb1b5098ef7c8544fb9ac90457acb96b410e004b, 0x64dec38ee9a78cbac4872fd65ca3b6e43e330bef3fe3aed071ebdc6bb128ff7, 0x55365424265e8475f614e92c8c491e66f94e53ed800723186a19246e30859fc5, 0x6afbdedb68574b216cee03e6f8d630bccb40d40811c1d09375a58af8985ba491],
    [0x1b46fa31af7059b6a2a432d4b6f8e788c868db4bffff9d2cf0f0f0f0b4b4b4b5, 0x3386117a4b7319e2d1f0c08253e62ff7a7e504c7deadb66ae75edbe6aa6e88e4, 0x1a70967146a1c2dc466172f84add6aae4c90fc7b42c4d297ff13ef8c72e43e75, 0x556bbea92657aca763512542ce220a7a3164f62a2d844889c2e8061256adbd7a, 0x38f27f1ac47e5724ddc546b23992bf2ed0beb7b5f1d84ab891ff782729270cfc, 0x2a27dfc43713e700aa15b1bdf494a4429347d22d2e39cdb2fd33f004371d3e8c, 0x2852a97602e9175b08ba55509b633eefe357b5dd10a612ac878931a2b9d1f538, 0x575dc4b59d6c6e418559cc52b0ebf8ae03b5808b005ad3c3551700cfbf9794a4, 0x4b9afd94d107174ce5ad15be09346a85d885433ef49ac574c2445156d31d58c9, 0x6031e22556401b8a2e8c6a1e17874346dbf59b9ea420a6e986e54b5000, 0x26d456ebee5d83ef03a03fa5f372bd9a81539489ac5e7bee94c9a8a9a3ffca10, 0x670c235f09909679b4b604cdb6f881ab61254a3ae886bb7d831b88ad4d02a1c8, 0x6e4efd26de85146fd29578ca78789cd22f935fce864949721c6d6a89d7089c7, 0x4f81a3f09f50a263b8bc7147e98f3435f9729b1ee28f7ac19e7978dbd86d9857, 0x3ab7654f81ee38e71d510c209e5bff84f88e6158351e688867b27c54de94e526, 0x7122659aaae0aaf5f93a4a6daee391e5ee3823364ebb94483e55d79c73faee08, 0x2136b80d00fb731c0776e340903b0c377d13a2924545d7ecd33b6118afcfd123, 0x28eb52ba5ce49fa6fe01bfd5e6f7bf69a3e06e76094933d4170dd3bdf9b61057, 0x542ef3886ee19d8a1ed5f29158157c96981813a01b9fc11e16c21f91ebbcc917, 0x220b286b276d80d9ea3462ad15124b036a1380e6f0e2119d92fc3002604610f6, 0x5ec390d480e1c2c59b071c2975e08ca705b55a513e7f3ac9e1a6a65b2b900be2, 0x6041af4e782481a5810e9e7334ee4fc2d9f9cbba46f8d633a0524149ab38acf4, 0x473ab914f6b21c2ed78b5f81f6bfe32446d4dee238e6fab289cb9d10dd0d430f, 0x4085f464ce8b3d56eb10d4dc9b6c5b0ab00cd7cf3eecb93b64819d3d7479a0d0, 0x3957389f438dd37703965aaf1b53e3d2c6b3bed9a97ab0e69b5683345abf69a4, 0x406f7c691ad7bbaa02f6de25b41924cd0222ec0fca4486de5f094aec069a753b, 0x4542d7a54592fd997cf945264973be09e76333c2da14a92b663a2f5b3551eff7, 0x10600b783ae8c3b98a7e07e429762d42f7c10e7e5510449487afe584a0f42a35, 0x16cf28c6aaede5cab7c4ccce232cfdb328f040f65bb2d6d03a4a4d1301c3360f, 0x1129215f7a5288520d1d176a2a3a80a823d0a60a129248e2af3549235545f1c, 0x3b68a7009ce4ef87e78c8bc6beed17238d9169b9883d5747acc94ec26e9a1f7d, 0x697f4a62f59f510b4475103628143a269f1c0d62d176e7adc5cf8c8f6721719b, 0x4b94b91c9ae91f24c0351802bec0251325594f278e5e5b942617e70ccc9e8b2a],
    [0x1b46fa31af7059b6a2a432d4b6f8e788c868db4bffff9d2cf0f0f0f0b4b4b4b5, 0x3386117a4b627091dde0d1caaef298e5ec5451119ddc9c38fcf21c57289b6464, 0x4b40711b090c67c791885ad3d05b9534dc87b8cfacc953e926daaa3587083c4d, 0x6dd3abfdf187ba0e815f38736770e79941e67496fdf29e1d9fd7c59192e598a6, 0x208a91c680741133b48dfdc3610502405f1100b3aab1cb418fd03f25f6fdbb90, 0xa89f7f04999f41dd61c8800bb0eb68c206373b08b6a1196ad648ac76f8b3223, 0x142954c08ccd79f64bb1042deb6a0f4ed17993cb2f3ec615f592b7503d5ea79c, 0x4d491a377113a8daccd13ab0066be558f1268aa630f7d3656d147aa7fb635a76, 0x3c7bfe41a6686de2e3130c89c23e2dec66b6b675f5b81920251825dcdbbb4ed4, 0x50a553023335e7d92ec410b7ada83d3e4dfc3879c6c639ba7d80dc19c725127, 0x486e8f4b751b14f994ab5adddbf849f5171f3165d04e5726ae43d30fdbabea14, 0x57ed23642d2ac5ab02fce072ed55a650eba2e0009f5674aa22d8d47bace00113, 0x1525770da264c1642a9b80b4939aa4a72605e2bacff0976a18fed624841c5ddd, 0x3386117a4b627091dde0d1caaef298e5fe3149bb5eb2f01eae0ba7900f0a9564, 0x57fd16042c96f3a3635822c78c4b487467aff45c133cd00eb8fa84b962c0c547, 0x6d8610a646429671954bd0bf5bf72889ed1a6d95e20f4be159d3cac5f837211c, 0x575cb1f17dccf3f70ae69fa55d6ba1653b82c848baca6eacb17539b331714dce, 0x732bae98e4bdec91595ff31059e20a7a6a9e489638e1ecf6a3f94ea2fafafafc, 0x10719eff32b646ef886a2be71a827597b56cd9eb587f675969dac6e2f9d542fa, 0x4f392a0218be66c899737fe27eddeb0b6fa77b564b7a0d7283a9f23b1eee2b2, 0x3bbcf813eed6107cdc87d97ac23b2e231d9af526bc4bf9d890bee92f74e4d505, 0x5db7d6881ac36d9d27b06d27698d1ab49e47b57b10249cf368c5cde65d83dd9e, 0x1f7c609c2edb7ea33ea8cf1c6c33cc9290d81aa39c3356aae5f5fc04d21146f3, 0x36c527b17295b5277070648667ef703500a25377de5d44b236ce43c0db9be6, 0x2970d352f6983711a578cf6010828dbd854eef4c8991d0315b701472efa66ed8, 0x3cfe6be44bbf25a6e8fcce6dc78a3545070f98cd5bc123c08e2051865c5e2d64, 0x6b843b30458de43c75e270b1e7a6f5938452da84d2cbedc9f946ce1c801cedd9, 0x6aa388c4da73fdf9b585862402c8c5d12b4d2e3716fb272a635ee5154c91fccc, 0x58ed9598bc83d6db127dd30f5d3bceef4ffd9c42e9888c13eb80a80bbcb96a09, 0x35d5e7ad1e89076792a7bf43fd6926f0b9916b5a8b418a38307d6186ff33cc8f, 0x5d44c59fa56d3713aa134396e2cb7e2a9c931e779f305c6593acb9c0d712cb57, 0x666d65ee6f07721115e31306c8272073daeebb41d29eb27073407fdbac77f0fc, 0x68d374cd4ba5088651de034ba5fe074afaf5458ffea35b91b28a2c30d3a5fefc],
    [0x1b46fa31af7059b6a2a432d4b6f8e788c868db4bffff9d2cf0f0f0f0b4b4b4b5, 0x3386117a4b627091dde0d1caaef298e5ec5448e4e38d7e3871c71c7155555574, 0x3f0c7a7098e0e1542dd31baa8bf9b45cb8c574258fb73f81b3a62ce8fffffe5f, 0x4937c7fea10526b4563f7af79a4b4510d692b86daf2762861af286bc00000db4, 0x63a85e6fe96374ae58f2d926591f56e5240ed05c674af0c4c11f7046ffffb18d, 0x1f9de7d0dccddc5982559802312c23a45ca815752e8b305cd1745d1700014539, 0x3771a91183350f655026cb7e4763aa18cf01a77bde9b0a9b590b2163b2124fc5, 0x483ec5074de04a5d39e4f9a48b9161852cc4184c128bf68c5cc0ed726435ecbf, 0x41865371c99bcc6075ff4d953d18b1c03a765192642b982bf4de9bd2e9abde69, 0x3c7bfe41a6686de2e3130c89c23e2dec84bbfc8721635163a6f4de9b4e02a664, 0x52d93f599bb871daf7828bf59599c0ccfab64676b995ca080659355741af4c33, 0x2cea4c7411dad28c83a56010f71e0e310f21679d3c5965aefa8ef6d8c7b2e343, 0x53e3e21e3e192d7f585f145522fcfc045ddc8480925aabbc3ce5c5ea09eb3c84, 0xb8c6505578468adef8640ad6dd54594a350af3c215917e0836ed5d2c81ecd22, 0x911d55f5a034dc3add1eed3297970c5177280baa87ba5cf21fb41052470af33, 0x155f29fd8feba31a8114c83dc66e7b0cd8dbd3db44b3be0992cdbfcb924fdcf6, 0x25fa0e81bd982d047cf376e9a4c8af86f26fe08280e50e8f406fd09fac1e681a, 0x46d8580827a75ac891152076b08d923c24f3e43ab8e28d8d9c71c71bd5555556, 0x6dd3abfdf187ba0e815f38736770e79941dc14a486bb13c9286bca1a00000001, 0x1163a5e6130ad2cad47be0679b0b7a00cc8fa566d9995a99733333330ccccccd, 0xb0a7175a27085d61d427619257d20c38e120f9ec30c08c2f3cf3cf3b6db6db7, 0x6ea8ab5b04d08339482b9407ac1a7cbf444c4b1a22e72944dd1745d080000001, 0x64cea7c2c00361cf7a7514e599124c8a328ea4e137a587a61642c8582c8590b3, 0x6f1915afb28c42ba866cc45d093b19afc595bd2d8aa91829b555555460000001, 0x6aa770fa96ed0cdc062af9f2ea24419e803dd454ae12f879f5c28f5b3d70a3d8, 0x310bee2d07c2a14fc6e73ddc04133ddade81769ecec43a9d1d89d89d1d89d89e, 0x896583f0c9068184fa5784c727dc426520e0c2625ecea5ebda12f6838e38e39, 0x5f3a1296990a8256bc5d3a98e3573a96a95bc6b95247cb9176db6db60924924a, 0x6beeeb3bc5a44881038e2168963594284523521472c0aded69ee5845b08d3dcc, 0x58e0de26287035620523d04a6dc8e1596ade30f13bba79baf7777776b3333334, 0x21a817cdd2467f35fe5b1dafc0bb5fbf7b689af89ce6bfdead6b5ad66b5ad6b6, 0x704e3a189050915df1a00947c954c945291fb6e2e7fe691f07ffffff08000001, 0x706a54adbbbf813e4130555d209cf08149721367c1eee4d83e0f83e000000001]]

/-- the inverse of the matrix (not in the code) -/
def mInv17 : List (List Nat) := [
    [0x14131138d4a9725e4, 0x73eda753299d7d483339d80809a1d80553bda402fffe5bd914df78346a99bfc1, 0x20bdf9fbfdaa4480be0, 0x73eda753299d7d483339d80809a1d80553bda402fffe4ace765bb46c026f9c41, 0x626e511d8c2e44563b30, 0x73eda753299d7d483339d80809a1d80553bda402fffcc3f485d94b2c9595e0c1, 0x4f4799d1f486198b934a0, 0x73eda753299d7d483339d80809a1d80553bda402fff28fd140c1b52f021645c1, 0x15c43acda4d96395bfde08, 0x73eda753299d7d483339d80809a1d80553bda402ffdf1ad88362100d8b6fc7c1, 0x22d7cd09fa06c060c2e960, 0x73eda753299d7d483339d80809a1d80553bda402ffe07e73d2e08c7ead0fca41, 0x134f3d4b84e2f412504610, 0x73eda753299d7d483339d80809a1d80553bda402fff53fcd13824a1701dcc0c1, 0x2f5b1d77329fe19595020, 0x73eda753299d7d483339d80809a1d80553bda402fffdc475081c2acc2e215661, 0xe1032a42c8342fde03a],
    [0x73eda753299d7d483339d80809a1d80553bda402fffe5bd914df78346a99bfc1, 0x47d87388069455f3000, 0x73eda753299d7d483339d80809a1d80553bda402fffe1dc93ea137a1e43e9701, 0x20bdf9fbfdaa4480be000, 0x73eda753299d7d483339d80809a1d80553bda402fff29d60f533a333efe49301, 0x30c999bc47b4fc071f9000, 0x73eda753299d7d483339d80809a1d80553bda402ff6668182d95fef8b47b0781, 0x16a6be3bfcb8999597cc000, 0x73eda753299d7d483339d80809a1d80553bda402fd609ec6487e7ca462c90181, 0x3c319f74be65d1066b17000, 0x73eda753299d7d483339d80809a1d80553bda402fbcb346ca793c1f356387101, 0x39abcef607c48dddf32a000, 0x73eda753299d7d483339d80809a1d80553bda402fda90d1f798af9f8853bcd01, 0x11a1ed0387f4b8c296cd000, 0x73eda753299d7d483339d80809a1d80553bda402ffa29b75e90dea39ee2f4c21, 0x125e4c97bcc0577fd68000, 0x73eda753299d7d483339d80809a1d80553bda402fffca73517603f2139ab6261],
    [0x20bdf9fbfdaa4480be0, 0x73eda753299d7d483339d80809a1d80553bda402fffe1dc93ea137a1e43e9701, 0x360070beb897ef3455d00, 0x73eda753299d7d483339d80809a1d80553bda402ffe1df703bda080a4f436c01, 0xa3d422239d24a8b24e5680, 0x73eda753299d7d483339d80809a1d80553bda402fd548527c5fcf4d5a000ab81, 0x84f569f81cc0e5821459700, 0x73eda753299d7d483339d80809a1d80553bda402ec2453f0e37d30c76f52e801, 0x24bd49930135a4d42adcc9c0, 0x73eda753299d7d483339d80809a1d80553bda402cb16bed964a883485be0c901, 0x3b22abb746f70b7815d69100, 0x73eda753299d7d483339d80809a1d80553bda402cd2e50fb1e0b7cc739165401, 0x20edc05ad91071f0172bc780, 0x73eda753299d7d483339d80809a1d80553bda402f06cacad5729a0062ec36821, 0x511811bb117054f72e1db00, 0x73eda753299d7d483339d80809a1d80553bda402fefa5db794b7dd82d9d2f001, 0x182bd70a2c819b245963b0],
    [0x73eda753299d7d483339d80809a1d80553bda402fffe4ace765bb46c026f9c41, 0x20bdf9fbfdaa4480be000, 0x73eda753299d7d483339d80809a1d80553bda402ffe1df703bda080a4f436c01, 0xf0ee0435d4c010d2adc000, 0x73eda753299d7d483339d80809a1d80553bda402fa92208cdfb1788477683081, 0x169bbd07fc9906e567fea000, 0x73eda753299d7d483339d80809a1d80553bda402b957ad460aa1ca721b044c01, 0xa90790efeb4654a7b6698000, 0x73eda753299d7d483339d80809a1d80553bda401c6bde8adcd4416d30bcde981, 0x1c3a89be93ee909934b9c6000, 0x73eda753299d7d483339d80809a1d80553bda401068a901bbf13f4327b3c6c01, 0x1b2cc3644dd021aaa6cb34000, 0x73eda753299d7d483339d80809a1d80553bda401e5eee2382f33228e03a09321, 0x857de903348026f4a27d2000, 0x73eda753299d7d483339d80809a1d80553bda402d47f1ef7fc6470efb7e88c01, 0x8b93495f51d73a9073d0000, 0x73eda753299d7d483339d80809a1d80553bda402ff2e9248a88a62787b2c7a21],
    [0x626e511d8c2e44563b30, 0x73eda753299d7d483339d80809a1d80553bda402fff29d60f533a333efe49301, 0xa3d422239d24a8b24e5680, 0x73eda753299d7d483339d80809a1d80553bda402fa92208cdfb1788477683081, 0x1f4ce0565206ce7ea7def040, 0x73eda753299d7d483339d80809a1d80553bda4027d49ff28d3ab5020bec7f301, 0x1990e8ad72bec982e17f68780, 0x73eda753299d7d483339d80809a1d80553bda3ff2bffdd2b6f0477b319462a01, 0x71a7b004e19b842fb2fff7560, 0x73eda753299d7d483339d80809a1d80553bda3f8beea7f0dea92cb3925a9db01, 0xb7cffb3e0fee9d52b29a7a880, 0x73eda753299d7d483339d80809a1d80553bda3f91b778119b2b6a4e0f176bd21, 0x66c7f76de0a4a3b2aca452ec0, 0x73eda753299d7d483339d80809a1d80553bda3fff4fafa6cf47eb03da740bb01, 0xfe0dbef537ff39e11e4d0180, 0x73eda753299d7d483339d80809a1d80553bda402cd0030298967d70447e93401, 0x4bf8f377fa33fec89089bf8],
    [0x73eda753299d7d483339d80809a1d80553bda402fffcc3f485d94b2c9595e0c1, 0x30c999bc47b4fc071f9000, 0x73eda753299d7d483339d80809a1d80553bda402fd548527c5fcf4d5a000ab81, 0x169bbd07fc9906e567fea000, 0x73eda753299d7d483339d80809a1d80553bda4027d49ff28d3ab5020bec7f301, 0x2229b9734e7fc9316c56fb000, 0x73eda753299d7d483339d80809a1d80553bda3fc4ef6bfd6e8f87307a2f68d01, 0x100d377bf63c9dd19301b84000, 0x73eda753299d7d483339d80809a1d80553bda3e52dd6e14c569600a57d347f81, 0x2b18958b54c695e154c3a05000, 0x73eda753299d7d483339d80809a1d80553bda3d2aaca94ef27507605c04b7021, 0x29a91dfa050a1290c90cace000, 0x73eda753299d7d483339d80809a1d80553bda3e7ec3a4565455a40aee20c2501, 0xcd67b5a022616ab602b617000, 0x73eda753299d7d483339d80809a1d80553bda3fecf528b1013917d64f1d74f01, 0xd7782c77f3244268992f8000, 0x73eda753299d7d483339d80809a1d80553bda402ebea4789594dafdc4783d2e1],
    [0x4f4799d1f486198b934a0, 0x73eda753299d7d483339d80809a1d80553bda402ff6668182d95fef8b47b0781, 0x84f569f81cc0e5821459700, 0x73eda753299d7d483339d80809a1d80553bda402b957ad460aa1ca721b044c01, 0x1990e8ad72bec982e17f68780, 0x73eda753299d7d483339d80809a1d80553bda3fc4ef6bfd6e8f87307a2f68d01, 0x14ff5e8013de557c8c9f879500, 0x73eda753299d7d483339d80809a1d80553bda3d09234502634c362eac0ff4801, 0x5dcaa57584803079d3552d7740, 0x73eda753299d7d483339d80809a1d80553bda37b5097875216c41c8e20154421, 0x9852559a226cd3e15f16581300, 0x73eda753299d7d483339d80809a1d80553bda37f95d29fcd38b29cee38045401, 0x557c934eaad4964266ff7a9280, 0x73eda753299d7d483339d80809a1d80553bda3da6f9fb6b4a7a697d476ede701, 0xd3ff5cc084594cd6a9b79c100, 0x73eda753299d7d483339d80809a1d80553bda400562570f5f2cb92e68709b001, 0x3f94eb748fdf53189d893990],
    [0x73eda753299d7d483339d80809a1d80553bda402fff28fd140c1b52f021645c1, 0x16a6be3bfcb8999597cc000, 0x73eda753299d7d483339d80809a1d80553bda402ec2453f0e37d30c76f52e801, 0xa90790efeb4654a7b6698000, 0x73eda753299d7d483339d80809a1d80553bda3ff2bffdd2b6f0477b319462a01, 0x100d377bf63c9dd19301b84000, 0x73eda753299d7d483339d80809a1d80553bda3d09234502634c362eac0ff4801, 0x793f5d735255cc426d82cf0000, 0x73eda753299d7d483339d80809a1d80553bda3214264ff29d50294d1dc555aa1, 0x146e402630dfffc4312ec61c000, 0x73eda753299d7d483339d80809a1d80553bda293b114d05f3258fe2f7ff2a801, 0x13d2af24cadbf6522e24fb08000, 0x73eda753299d7d483339d80809a1d80553bda33482b347688cba27f3a973c201, 0x620e63437ed07f6cffa3c94000, 0x73eda753299d7d483339d80809a1d80553bda3e2f2885aac4ece434bc5fc8801, 0x672980e281876c1e342420000, 0x73eda753299d7d483339d80809a1d80553bda40265f9cbc66f046b2de827aaa1],
    [0x15c43acda4d96395bfde08, 0x73eda753299d7d483339d80809a1d80553bda402fd609ec6487e7ca462c90181, 0x24bd49930135a4d42adcc9c0, 0x73eda753299d7d483339d80809a1d80553bda401c6bde8adcd4416d30bcde981, 0x71a7b004e19b842fb2fff7560, 0x73eda753299d7d483339d80809a1d80553bda3e52dd6e14c569600a57d347f81, 0x5dcaa57584803079d3552d7740, 0x73eda753299d7d483339d80809a1d80553bda3214264ff29d50294d1dc555aa1, 0x1a4b2cc5b8d447b30770849a890, 0x73eda753299d7d483339d80809a1d80553bda1a13c169cdf1ed9cbd22c01a981, 0x2adc05ae0c9a9512aec4f4c1cc0, 0x73eda753299d7d483339d80809a1d80553bda1b26014f563b00c072623c48b81, 0x1821f0bf67f62cbaf3b4167f920, 0x73eda753299d7d483339d80809a1d80553bda34b81e9730f7b4fdd2f5bb7b781, 0x3c0583bec900bc85aab22ca640, 0x73eda753299d7d483339d80809a1d80553bda3f6eb106f11aaf5781574be8701, 0x120c88e6a0fd7b7080cb5a014],
    [0x73eda753299d7d483339d80809a1d80553bda402ffdf1ad88362100d8b6fc7c1, 0x3c319f74be65d1066b17000, 0x73eda753299d7d483339d80809a1d80553bda402cb16bed964a883485be0c901, 0x1c3a89be93ee909934b9c6000, 0x73eda753299d7d483339d80809a1d80553bda3f8beea7f0dea92cb3925a9db01, 0x2b18958b54c695e154c3a05000, 0x73eda753299d7d483339d80809a1d80553bda37b5097875216c41c8e20154421, 0x146e402630dfffc4312ec61c000, 0x73eda753299d7d483339d80809a1d80553bda1a13c169cdf1ed9cbd22c01a981, 0x37490ede20ed80644dcadbab000, 0x73eda753299d7d483339d80809a1d80553bda01f63fb5db26532ed4afea65b01, 0x35d114eb26bc426fb6b3f702000, 0x73eda753299d7d483339d80809a1d80553bda1d190eb591b0518de59f976d501, 0x10afd4bd930660b668d43689000, 0x73eda753299d7d483339d80809a1d80553bda3ab9bcde5f4f6bc5c18e60cd081, 0x119a1f1c68574435274bec8000, 0x73eda753299d7d483339d80809a1d80553bda4015b02f3eceb2e3607bed2d261],
    [0x22d7cd09fa06c060c2e960, 0x73eda753299d7d483339d80809a1d80553bda402fbcb346ca793c1f356387101, 0x3b22abb746f70b7815d69100, 0x73eda753299d7d483339d80809a1d80553bda401068a901bbf13f4327b3c6c01, 0xb7cffb3e0fee9d52b29a7a880, 0x73eda753299d7d483339d80809a1d80553bda3d2aaca94ef27507605c04b7021, 0x9852559a226cd3e15f16581300, 0x73eda753299d7d483339d80809a1d80553bda293b114d05f3258fe2f7ff2a801, 0x2adc05ae0c9a9512aec4f4c1cc0, 0x73eda753299d7d483339d80809a1d80553bda01f63fb5db26532ed4afea65b01, 0x461752ff8de5309e8ae04b6d500, 0x73eda753299d7d483339d80809a1d80553bda03861adea66fffd698355be9401, 0x2794d4611da6277d7a2f948ed80, 0x73eda753299d7d483339d80809a1d80553bda2d5a2b9b49a9c2d5f1ee8b67481, 0x62b466c3c2546e04860cfaa700, 0x73eda753299d7d483339d80809a1d80553bda3ef1b7fa178abd19a926cfc7001, 0x1dc089728235b7ff22c293d70],
    [0x73eda753299d7d483339d80809a1d80553bda402ffe07e73d2e08c7ead0fca41, 0x39abcef607c48dddf32a000, 0x73eda753299d7d483339d80809a1d80553bda402cd2e50fb1e0b7cc739165401, 0x1b2cc3644dd021aaa6cb34000, 0x73eda753299d7d483339d80809a1d80553bda3f91b778119b2b6a4e0f176bd21, 0x29a91dfa050a1290c90cace000, 0x73eda753299d7d483339d80809a1d80553bda37f95d29fcd38b29cee38045401, 0x13d2af24cadbf6522e24fb08000, 0x73eda753299d7d483339d80809a1d80553bda1b26014f563b00c072623c48b81, 0x35d114eb26bc426fb6b3f702000, 0x73eda753299d7d483339d80809a1d80553bda03861adea66fffd698355be9401, 0x348a64a0c520d230fd366f7c000, 0x73eda753299d7d483339d80809a1d80553bda1de236c4c85fffe8960b07c8781, 0x1055883b06228c74f279fa46000, 0x73eda753299d7d483339d80809a1d80553bda3ad59f92aae6ae2e7c0dc5b5401, 0x1145641aff8a9371db4a0f0000, 0x73eda753299d7d483339d80809a1d80553bda4016278309b7c6fde6d463e7021],
    [0x134f3d4b84e2f412504610, 0x73eda753299d7d483339d80809a1d80553bda402fda90d1f798af9f8853bcd01, 0x20edc05ad91071f0172bc780, 0x73eda753299d7d483339d80809a1d80553bda401e5eee2382f33228e03a09321, 0x66c7f76de0a4a3b2aca452ec0, 0x73eda753299d7d483339d80809a1d80553bda3e7ec3a4565455a40aee20c2501, 0x557c934eaad4964266ff7a9280, 0x73eda753299d7d483339d80809a1d80553bda33482b347688cba27f3a973c201, 0x1821f0bf67f62cbaf3b4167f920, 0x73eda753299d7d483339d80809a1d80553bda1d190eb591b0518de59f976d501, 0x2794d4611da6277d7a2f948ed80, 0x73eda753299d7d483339d80809a1d80553bda1de236c4c85fffe8960b07c8781, 0x16693ab3dd7f86bfe8dc8044640, 0x73eda753299d7d483339d80809a1d80553bda3582894aebc389bc0a92e026d01, 0x380525a0ffde8dd216c86df080, 0x73eda753299d7d483339d80809a1d80553bda3f7b287cf1b6771465e66a6b401, 0x10ec2840740cf222b9b265b28],
    [0x73eda753299d7d483339d80809a1d80553bda402fff53fcd13824a1701dcc0c1, 0x11a1ed0387f4b8c296cd000, 0x73eda753299d7d483339d80809a1d80553bda402f06cacad5729a0062ec36821, 0x857de903348026f4a27d2000, 0x73eda753299d7d483339d80809a1d80553bda3fff4fafa6cf47eb03da740bb01, 0xcd67b5a022616ab602b617000, 0x73eda753299d7d483339d80809a1d80553bda3da6f9fb6b4a7a697d476ede701, 0x620e63437ed07f6cffa3c94000, 0x73eda753299d7d483339d80809a1d80553bda34b81e9730f7b4fdd2f5bb7b781, 0x10afd4bd930660b668d43689000, 0x73eda753299d7d483339d80809a1d80553bda2d5a2b9b49a9c2d5f1ee8b67481, 0x1055883b06228c74f279fa46000, 0x73eda753299d7d483339d80809a1d80553bda3582894aebc389bc0a92e026d01, 0x5171413cd1a641f324fac23000, 0x73eda753299d7d483339d80809a1d80553bda3e847ad91a470cf2f04dcc63101, 0x564cfe550b62cb8bcc9ed8000, 0x73eda753299d7d483339d80809a1d80553bda4027eb7e546e93487c996020ee1],
    [0x2f5b1d77329fe19595020, 0x73eda753299d7d483339d80809a1d80553bda402ffa29b75e90dea39ee2f4c21, 0x511811bb117054f72e1db00, 0x73eda753299d7d483339d80809a1d80553bda402d47f1ef7fc6470efb7e88c01, 0xfe0dbef537ff39e11e4d0180, 0x73eda753299d7d483339d80809a1d80553bda3fecf528b1013917d64f1d74f01, 0xd3ff5cc084594cd6a9b79c100, 0x73eda753299d7d483339d80809a1d80553bda3e2f2885aac4ece434bc5fc8801, 0x3c0583bec900bc85aab22ca640, 0x73eda753299d7d483339d80809a1d80553bda3ab9bcde5f4f6bc5c18e60cd081, 0x62b466c3c2546e04860cfaa700, 0x73eda753299d7d483339d80809a1d80553bda3ad59f92aae6ae2e7c0dc5b5401, 0x380525a0ffde8dd216c86df080, 0x73eda753299d7d483339d80809a1d80553bda3e847ad91a470cf2f04dcc63101, 0x8c55c592dd1614b42fe127d00, 0x73eda753299d7d483339d80809a1d80553bda4013a8339d3ff00d0d742743001, 0x2a79e52ddb9aa02eceb62e50],
    [0x73eda753299d7d483339d80809a1d80553bda402fffdc475081c2acc2e215661, 0x125e4c97bcc0577fd68000, 0x73eda753299d7d483339d80809a1d80553bda402fefa5db794b7dd82d9d2f001, 0x8b93495f51d73a9073d0000, 0x73eda753299d7d483339d80809a1d80553bda402cd0030298967d70447e93401, 0xd7782c77f3244268992f8000, 0x73eda753299d7d483339d80809a1d80553bda400562570f5f2cb92e68709b001, 0x672980e281876c1e342420000, 0x73eda753299d7d483339d80809a1d80553bda3f6eb106f11aaf5781574be8701, 0x119a1f1c68574435274bec8000, 0x73eda753299d7d483339d80809a1d80553bda3ef1b7fa178abd19a926cfc7001, 0x1145641aff8a9371db4a0f0000, 0x73eda753299d7d483339d80809a1d80553bda3f7b287cf1b6771465e66a6b401, 0x564cfe550b62cb8bcc9ed8000, 0x73eda753299d7d483339d80809a1d80553bda4013a8339d3ff00d0d742743001, 0x5ba142e39daab97146bc0000, 0x73eda753299d7d483339d80809a1d80553bda402f76832125b96f863a5371ca1],
    [0xe1032a42c8342fde03a, 0x73eda753299d7d483339d80809a1d80553bda402fffca73517603f2139ab6261, 0x182bd70a2c819b245963b0, 0x73eda753299d7d483339d80809a1d80553bda402ff2e9248a88a62787b2c7a21, 0x4bf8f377fa33fec89089bf8, 0x73eda753299d7d483339d80809a1d80553bda402ebea4789594dafdc4783d2e1, 0x3f94eb748fdf53189d893990, 0x73eda753299d7d483339d80809a1d80553bda40265f9cbc66f046b2de827aaa1, 0x120c88e6a0fd7b7080cb5a014, 0x73eda753299d7d483339d80809a1d80553bda4015b02f3eceb2e3607bed2d261, 0x1dc089728235b7ff22c293d70, 0x73eda753299d7d483339d80809a1d80553bda4016278309b7c6fde6d463e7021, 0x10ec2840740cf222b9b265b28, 0x73eda753299d7d483339d80809a1d80553bda4027eb7e546e93487c996020ee1, 0x2a79e52ddb9aa02eceb62e50, 0x73eda753299d7d483339d80809a1d80553bda402f76832125b96f863a5371ca1, 0xce13ee2f69d8b69082d551]]

/-- the tables have the sizes that the code reads and load without a panic -/
theorem sized17 : (opt17.sized 16 4 59 && opt17.below blsMod) = true := by decide +kernel

theorem ok17 : opt17.check blsMod 16 4 59 (opt17.plainC blsMod 16 (opt17.plainM 16)) (opt17.plainM 16) = true := by decide +kernel

theorem inv17 : invOk blsMod mInv17 16 opt17.m = true := by decide +kernel

end Verif.Poseidon.Bls
