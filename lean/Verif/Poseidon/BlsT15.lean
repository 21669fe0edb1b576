import Verif.Poseidon.Check
import Verif.Poseidon.Primes
import Verif.Poseidon.Bn128T14 -- only so that the large tables are not checked at the same time (memory)

/-!
# Poseidon over BLS12-381, 14 inputs (t = 15): the tables, copied verbatim, and their checks
-/
namespace Verif.Poseidon.Bls

set_option maxRecDepth 1000000

/-- starky/src/poseidon_bls12381_constants_opt.rs: C L1600-1778, M L3415-3671, P L5537-5793, S L17496-19150 -/
def opt15 : Table where
  cF := [
    [0x5f179d678c949c8f9ac7862e820201b669f761eb007500064cd73b50ab95f531, 0x21ac792e30d35b73c7e95830c49e21e76ae93e1f1f5997d3e5bef2c543c805b0, 0x29b8da543ab28b2bf8337fb2ff57359857dd26940fa370d2a6e56da388c018e9, 0x539563cdc867cae628db2b7ecf6c0d99555f7449ed3e1381e1021f16b6833dfd, 0x4db7453d3dc630a42fdde0e23dbc26808d22f42fcb8a6abf14263df95b9eb894, 0x655d62810a5d586b9780ccd780af9136870a986a525478ce831abb90f37c93b1, 0x13f9e730de9ffb72b2261f68388d0011b17970abf3d4040155b22c03d97e31a4, 0x41aedcb899612a11f3c747b564aec9f7e6a83d44b02a79bb349256cc9ea7474b, 0x45a89190e937d688e9e3c7efc5028d4651eaefd6b238b5d42e0d9b6e3f1d1f72, 0x1826b47b437db080cc197d7a823ae4d5ab357c2907adba42b66fb8289b8f0d02, 0x57d167b1ff4f6d85e2f869a955a8eebca9b067076c3a21c5c6de54bc3a45e1a2, 0x27a1c621dc5b89ecab7553006315c5915371a095afa64925c9a0efe067f8bb0, 0x19cd0ddce3e26423d8f4cb409e6145cb2e578260016d7773e7f503783e0cfb84, 0x289a2cd81d8c26580e69ae05586290336b6623327d523bb73f396b3ceea7eb1e, 0x49af23ea886f678ae5dbe52d57abace6aa33998df1316b111f83e2c11ee93199],
    [0x3a1f58925f2d828ab57df903b6580f7b9b14ab4a345461fe7d01930a6de06a63, 0x3499fcff9f0830c98333c1ec68522bfb3bd1331dc8d70249d38a8d03b8a5a518, 0x56d3aeb172a15e17d35647fd0d2f755826d9d948539ef09d27c0b7c6fd9c0670, 0x72b2804754e41650878f6392fa397921ed54ed494d96685da1367627d6eca9ff, 0x2f608d6472927ee2b6f8ff3502cd6e499e0bfd37c6ef019d4d89e49a60524435, 0x5e2336fb119c6193c1044ea3b4b289e4f09fb8f716ec82de0ab6bfb2f7cc04ad, 0x1503a04af580f1ddda2a433cfe53f577ff1378591997b8ae52edc56f77ce05bf, 0x5eb6ad99350553f92e196451057d0b62c4400775fd53b14b1b8d876c707e5fbd, 0x1d63d5042088510d676c80639126928f280b467b8bfe5c8c2fc286002076df8d, 0x52c4a75a8e8fd3bc04b4264b0c6f76a854067244e5526e0726a4f4991400f5fb, 0x36287469ad7848b5f7fe64ffb4709690a4500f5bc9c4b41f6ee7ee499b112c80, 0x423758e2d1c2b755789a487114b80e5949e1b8d81b4b45bfcad0663721e3d227, 0x7040fc2cc512b15dbcec117dcf8389aa6a448840869c4c3900bb93b90a6a5d81, 0x5b6f672bfb36a90ed7bac11400931406b154e7fd5f8646f8ac90380ed9b090d3, 0x60a3465568760bc69ee6bcd9cdd7f2734e6663f4a5dd098632c54331e24f7c2c],
    [0x4fd63658ede8b39134031d28de502893e3c78cd8a168a37c4ff486a12fc6ea76, 0x6432e883cc329b619cb257661f9277f355411f46d9e8b8577eec3713ae4dcb57, 0x68ee7cf438c96353cb1177f5e0c9358bcbe1f85a1f829bf758e7e5e87908b05c, 0x25fd44614531132a8e958b6f29705548bffadbb18dca1caf4c11d6d756c0e9ec, 0x30f0af530fb39d1632759c04ef3d776c3a4e3784bdd2d3cac72ef66fa4008e25, 0x48a47d55ae16da0a619c341ec096bbf16aebb351f7cbb94f5b9e976404e34672, 0x8512c5d28b62f89db2df9a3bcf9ba2c77ff906533ce9272cf8173f4821b10bd, 0x2d4edd95dc6b98fccbc05f251c537561659677f9495fd736c20b06c0b3443998, 0x5864a6903ba7c5b14b0b09ba6a888acab53dc23dbbf427815ba59ddaa8112f6d, 0x35ca219fe1baa06513ba3bed904de1ecea4fdc6ad2548aac9a1e2167febf05a2, 0x33e581b15e068aa31be633ab9df544ec56e536fafc0071f2c98e3bddd0701166, 0x1c41dd0e0365172c912726670f1e1b9a6c292f9cfabec634d68efc916764918d, 0xdb6ab924e4a0ee22e9f1bc67ff0b39e3c2822f90d307b18e22c6990efbd4660, 0x1b6f4ce9eadf4b56423c670f4595853f5f097e4952560c6b41e3c2a8ea36c092, 0x501d48aa21c59bf5221ff8391a023f35dc6e2c7834650af8cdea889633a99c58],
    [0x1c21a496608a639277a403d1f369b5ad7b1e5a7bd994372a42aa34dca71ab4c2, 0x4b51114e88376196d86d543edda979dcc914f3819f898fa85968fd44419635c1, 0x301689cd5da35bf8af8a7296de277c07c17790cd7a56285a0789a40e91293216, 0x3d51bed5d90e3f0ccd9445cfdf37f9915b6707f2b3b87b4668ffa66c7b7974fc, 0x20db6bca98c0e8e5d6506f6a4c2ad4a829b7372c72c5bb71eaeeb28ac5e0f365, 0x309cbce0274ed158418d74d5f7abebc5cd185bc829d59a97aa213b28496934ad, 0x1dc2ef162124d8655a402069e28b0dd722d53992a8a6073995d7788a31f4d0b1, 0x14589b11cd1c37a60b6d6c38e6b0244f0046ceea0a61bef1cd959da7ffe6253e, 0x21685f630180f22f641f83c60782f3be7d273bb830b749af0e6d3d00e83fe25e, 0x62d4968d7909d99ba8fcd8b9d91717a63a180fd2cbfd7eb6dac4c392fd7020f6, 0x59e167c3795ad913302914c63bfd906357b3940c2efb8d569ac1a1a4001fde25, 0x4a453e04e3ad28f9d8f48223a77046dc4ad6316d4a7ee845a6866c9c4bed7ffe, 0x36a73e3726137ba0e76702db6a3b9b4025c56dfc433d80d24e45f7e3b0b702e5, 0x3296bb194d9de6d51f3cf54fc697f48bd132c47be6114362b93225304347701c, 0x30fb2cdf9b77a0c5dab8fe5b66226e474c758d8cfc128a6f70ccc1b1dc0e4b47],
    [0x2189dfdc4490ac9dc49b1c5028a5a746c305c4976d33a96bf56d9c5003321d55, 0x2a920be620fce820a69e1b2a728de402a78a5e34b5a0f2d0edddc0666f58e212, 0x616e02594e3502287326094ffa8f2d7c75055fb6ab9ae745439cb03816ed8eb4, 0x2ba63b23003e7aeb8ff290297177095e5ee2ac3bf5c2f04a5995b141872a08e4, 0x4f913ff337bb8f3fa821b1381c556d436b72fe4c5dd3c5bd8b17f6bf2b5513a8, 0x43ac79449c6aa06bbe65ed7454c4899ca43bf90063cec98777e06400cc4ef465, 0x372a5425a40c9dc3e3dfd2d8875f613b928bb516421ddc9b9e5378da3fc6e2d2, 0x6382a4f74601bda14d43863eb8ddb7bb5f7d8cefe58d62cb3ad30637e401a424, 0x3ef8e90bef5d86c8d4dcd4b9754bc84885d7e9d1afa1966a3764b7c923e8e359, 0x21c3b1a3939800fb6efae4a1975ca2386688433ef941f4d38312002d5f12325e, 0x3dca0f09f8d0a215653032d3bf1df9e65c83e8171618aef0c0bda475acf6f04b, 0x2d46a2179e0ad4b9a964df0d07225cb5b8df501967510f06268d7a327695187e, 0x3f13142fc9f5d2e1cbb66bc39dc0e57d27c57eeaedc44fdd38a3ae9a711e21cc, 0x2a5ec2302e83d9096a8a867f8aadb719d25c3c2f5b4cc6296273f68912336853, 0x2c8ffcb90c90396f79a18cdbd0532288fb8d95ace9213efebdb3f0a60a3944cf]]
  cP := [0x53e0b83c03ad095e5c5f8706087975fe19f45e09e5a64f921fe0c3ed4423bee, 0x25fce5c12f68a6cfc4975d0583fa97b0d3b4e34e376abfa4ebc246c03b9f3b28, 0x17ec850ff261f8a6331cf72e806151e3e3354b98c82860dbf21b6fe77e35e250, 0xd0cbab6eddfa124ea095fd4c010e6d6088968b2a11b385e78cfab644d990e1, 0x5056692d562cb654783596bf75ef7bb9452160dbdf4cce9f56043b6755e0c78e, 0x215f6f742ce4c45c1a44287de328b9b90aa08ea79581f133355db32c39a1e6b4, 0x3beda8f0554eeb02f7107c8491e2300a7ee2d0a97280c2567c696c9789849c36, 0x4ef667c5b0c5a89d44bb8ffc82688da275f9424058f1e9378e744772cdd03a97, 0x952548395ad428136abe7ff9ad8313e83f0309ada503a7bc548cd800122957, 0x31e63231edf25649bbe9645bd30e9f152454e1eb077a88d6705eaf75d85a3355, 0x7eb352d36cd21abf22a98aeb5e4a74392819b060daa22f840943b71715717f3, 0x31628ec790b3d384c0bb775adbb4c559e4cf40f7f66cd89e608db4febc9233d9, 0x5472295d69d0e7f1c61846675536057d0f7be4d142ff2f43daa0d3ac586e792b, 0x2796c300b360489381b9239da84f23b798d947a9f5a7a97ff9ccf484cf3a28f8, 0x34cc689a4590b1fff360dc44d5ff5eb932bdbd0f03fb86d6291eedffc5a1ae5, 0x65fd073e305cd5bc1ae52ac6e5bb363ee7b35c7c8ee40d099fe54beab5a609c9, 0x17530529d868011e03bc7af717ee50c02137112fc0d3004bd9143d979d5ec5f8, 0xc0f7cfe2a0b16b3f97c8eaf3a67e09a04cbe06002fc0a47668daf56057d962b, 0x2e3d43f09ec6ecc12c187614932eb55c24bd023c50c326f314faf5b72713cec8, 0x43545d121153873e7a53f65055fe7690cc09df8664ebb19f310b42f7e93090ea, 0x1bf086310497e55df250cc3f61ab4b7be259e6f5b474525c5ca8af008e8ae9b7, 0x2fd519d3f3e6cbe2115835d3baa9c657cbf4ad2c4f9e29de8cebe4e24698eb36, 0x4124282709bc902694d681774df990d1e0153d2a0324eddf70e2ce8fc10c25e0, 0xce3dd9aa5829a455267eb179eef94a8593b21c595be99af8689c4755dce1a83, 0x70e57ea1c6d7b879a8692c2aa153aa471bf86a3ddb6eed4ab5e547e39554134b, 0x36ac0502ced66ec4d2af05bb94ccc1b4076d663dc6c7be0df0d3e4bf702dbf96, 0x393257c477c2270f4e9f8466b328d28ecee88d018e6b6b0f5fcaa3869f4421e6, 0x28e9f926a54d82ef05c297eaaf5d189f2d0c702326757a32fd6c941ac07c91be, 0x1588a0952242101bcf8cf3d9e7fe656b64701b8464dbb50b53c75dda7d73af4b, 0x364e066faa3e675ea2e812180f02e39d50f26ca8048945f72e73d756f831d350, 0x6ea919a846fd840e4948ea39f5af6bcecbe5c115935fbd009bb6dcd91d59ee55, 0x33cd0c9399dd0ac6ef92d10853cbdab830699f39b674376fb8911b7c576b781a, 0x309ffea95c2e8ecb26cb236a9184cd32023ff50c5eece35d4c37336f35f3e3b6, 0x64e37bbf1a1d33359798cdd0207a6fbadf3c854fc5534464fad7722127beb3da, 0x33907c6011e3b1f307f960027e3b8e83ebbe626e88dbcda7074e49ae88bf63f8, 0x695fc1e1d2519ed96e4908d39ed5cdc534e5fb2495224e180f21df64d1c415b5, 0x381f7aca1d263147c9365da4435f4a5f386c305ee84a71015487ed36bea5e8d7, 0x35e02a045b31a3c781dbc0cfdce2fffe818c443f1c29bb8f44371bbfc1c5c577, 0x3fbd715407980f326f69ed962e5979613d28044b90d3d6c114798950c447afa7, 0x192219800afcbfdd45e81a7264f77f0a3a311660c1e73876fd2f5a8f139c6458, 0x25ebb495cca597e6efcdb91744ae1a4670ab25c6e19136a465bfc12cdd96b4d9, 0x2d554ded4bf5139d08da8d0d345989151ff7b5bffcd00512da113b52a53bd8f6, 0x33355afebd0e57b5435871a6cef2c0b4b8a3ae01046c980c011b156871c65e9a, 0xff91d0f9c5dc6bdf3cc22b7c2c3a98a49c6277da49bb5f61fb6140e7d4f71ab, 0x5c5163233067120125a3088b667377fb8ca5102699b50e020c5224811c0662d0, 0x4e02133f2f5a64de3d50b3a1445fbdae2562db17bfe9277873317eedc4440035, 0x65fa264df92ca9e72afa9cc319a961e1aae51beb11d930aa6d013dd7910ddad7, 0x46272f906884117cf1db4aae5ffe694ea26561e251ce56284e085c71ec0dfdf0, 0x4c333a09c3817bfc3524cd6eaadb3dc6aa380e962454f16d20d58a711d248bf, 0x2403c9a6caf77c8d14bbf94bee54fbc1aef70ca55ab641460b35feb03fada235, 0x284b97086f6e6021d067206f7c4ba4ee3f6fc6f67b3b39088a53ad918a866a05, 0x4d31760806f87749a368a3951f994b9fc7abd67e98717f627ffd25bba9b183f0, 0x48e86110bb6cf653c432fc6d4c2b75bf577dcb56173755a5b2a49e32e8ba7b5c, 0x21b6af71072894df1fc2fb64bee15c9b75ad5f7283ee634404a2937f6fa1ebb6, 0x43783585f6fa9d6f10e223f0d7cb82044b745ef33c961a01f7ce9e7b86144001, 0xfa40650f6f5310dc19e3a3a8f514f9945967487ca52668c96656b792d01987e, 0x6d0097eb9b60e731f310a8f79e360eebe958c4f695e3f3551d552ce984204efd]
  cL := [
    [0x178413feff783bf2a57b6c5dc5d6b74302c9fe749be93310fa33620aee362eca, 0x254d878fecd353b7a44cefb88e665e75716d28b6e6cb80baa0d025a4281d4e67, 0x1a39cc93636cf5654a7405b5b4db5349a762a8d1da67b2d3bdf52350e0ed4353, 0x153f123e94f0bc8d739fee182d5603e78253b3dc5dc0e426ca02616215b8ef7, 0x3b2abfe2d7fed53391eddac2f782da3b05640637a44f6ac2825689bb865a13c1, 0x44adaa97e049d50c90e36276ca9431fd73a77df6bbbdebf4b2721ad8f1153f00, 0x465539441a497afaf8eb00fe05730261f8a940a2018441ead88bf9cb99361901, 0x29dbea04143387c09b9402109eb3510c2f057dea1732c2bd7dc6483109f1141e, 0x5208834570dfcf48445ce4fe800508933eb024efb88f65a99e0b563317ea13c4, 0x4776690b2697c228aae951dbd93fd267b480a61e0a60f668604ae465ce34bdd7, 0x4f4940b57823d93ba74d2b4069c2dbe5ef6b869e09f1a47c16b04bd290ef34e3, 0x106c912f04dbfb51ea050d1098033eb53bad1eed1ef75622c00613b6731cd43a, 0x38649622fa5f70be9f919be2d7fa5d2adb4e13383d3bf8f123cb781e39f75c7c, 0xd93e09d16dc1fcc1caac7d2a72dad2d74a51dacc96d53fbb5604e08de86c41b, 0x3313dfffc4fb7a43c263f7497d3cf32acef61de4aa8458b9dc2d45f78243e7c6],
    [0x592795dbd8a70540c4bfa1bee5df5a255291bc03c79a69b200e8b43da489f7bd, 0x3e4f916b54f27ffd01fc5f7e9a296daf50a945ba27be6b0f1fddc1f375d67977, 0xa220df7067dd49d00714fd05caf196eff07156bc78cf029db6e6146c124cc54, 0x5e68d3f1318c0405ce1b353c0abedde818c3447b2b237305a15877d9e6ee29aa, 0x526ce83b0741cea6ddd8f8b5bf94af8c2cbfdebb54aa40ab9602ec9a957b510, 0x372bcc3db5f6a5480bea89dd6dc98739e8370670128debdfa330346bf34e9fb9, 0x6b76abee2ae2177c0612014ec1c380b47d382d532a20d0eeff220bfc4cc457ad, 0x6681702ebc52289e1c77e7be92f8cccc034cf1cfb0e46859a4810e4b6db33eff, 0x41f57e58213d3177b77ae88e1d5c35aadbb0731e73132443e5fff3e42308e85, 0x3feac8d50ee755bf27ab1d063d39f941181698165d876c7b8da096e26426ed34, 0x51e2e6d532c4ac3303e0daac9915db274cc56b33af3853297344a9f6ce301f4a, 0x692dda18368bf401fa95b3ff38ac251f5a36c23f264510416262d93b1292cba0, 0x1d7b2bf2438ef5e087187e9f5f479f040bb4e350026d344bde29efbb77246d81, 0x58338caafcaf3a6465e5c2b8021e6ef912fc86e6eb7ec270af420dc27e41d809, 0x6678d723b716f0e0edeb06def5f0895d4cce3c9c3d14b417ee32d0f18edf733e],
    [0x19adb799631524df0cab5e06f95881c89c673c861ccebd8f02a3a806fc575a34, 0x1aea95b9563b6c27c3d920546e621f4d96a8941a32a1df9adfa3a4b3423c0b00, 0x3e3c17714b2f2f69c9d45c391e63a39dae10460c0bdd61c03a504d14599ed5fd, 0x53a1b1a09c10c721c72e3099d93f874a6165896ee723090916563978c62a6cb6, 0x3af70cce22ada34bf4fef2085d0495548174edaef988e18c6d2c185a86eb17d8, 0x3fe7ce492287f24e76d9259f5fa7c68ae1f8719b85af625b2bb74c767e2c6545, 0x65ffe49ed8eb6086bad636f960047480b188ccdd2508b540f2921a4e3682f599, 0x5f8e41fc2254d7b24a83d91d11bcbc02370357319400b037d0bc491bbac6c0ba, 0x493363a89064b1052980c085323e1003cf4c0b71868417b590c302ae56d7e50f, 0x372a58ef542677a2c2f4460a2a86eb18d22d8adfb3828cbcd1eca53dbc09067, 0xfe9637c95c26535266ca19176349fb93a9d5ff8d3e961d69fef9726dd7b7f70, 0x59c54c046ff68b3878d7c45ed669186acd2a95f1a572c262b10b5d514b076803, 0x4795c641b177caaf91ca792e7ce284ffc3059d33df224d14b15f40b611c20d61, 0x4f9ddcb763527d3bc58732e3c77d6eb14c31c1d2b8436fd629d25320b315ea66, 0x5517b367e0d682dd07f3b4f42198cecf38c53961259eda82a3cd2cab58b8afa4]]
  m := [
    [0x3dd414f92742ed7bd70dc88cd1efeaad81febddf77769776eeeeeeee66666667, 0x6caeccddf703a573b0063a878907ba84fe81c9c2cffe763f0fffffff10000001, 0x1b46fa31af7059b6a2a432d4b6f8e788c868db4bffff9d2cf0f0f0f0b4b4b4b5, 0x46d8580827a75ac891152076b08d923c24f3e43ab8e28d8d9c71c71bd5555556, 0x6dd3abfdf187ba0e815f38736770e79941dc14a486bb13c9286bca1a00000001, 0x1163a5e6130ad2cad47be0679b0b7a00cc8fa566d9995a99733333330ccccccd, 0xb0a7175a27085d61d427619257d20c38e120f9ec30c08c2f3cf3cf3b6db6db7, 0x6ea8ab5b04d08339482b9407ac1a7cbf444c4b1a22e72944dd1745d080000001, 0x64cea7c2c00361cf7a7514e599124c8a328ea4e137a587a61642c8582c8590b3, 0x6f1915afb28c42ba866cc45d093b19afc595bd2d8aa91829b555555460000001, 0x6aa770fa96ed0cdc062af9f2ea24419e803dd454ae12f879f5c28f5b3d70a3d8, 0x310bee2d07c2a14fc6e73ddc04133ddade81769ecec43a9d1d89d89d1d89d89e, 0x896583f0c9068184fa5784c727dc426520e0c2625ecea5ebda12f6838e38e39, 0x5f3a1296990a8256bc5d3a98e3573a96a95bc6b95247cb9176db6db60924924a, 0x6beeeb3bc5a44881038e2168963594284523521472c0aded69ee5845b08d3dcc],
    [0x6caeccddf703a573b0063a878907ba84fe81c9c2cffe763f0fffffff10000001, 0x1b46fa31af7059b6a2a432d4b6f8e788c868db4bffff9d2cf0f0f0f0b4b4b4b5, 0x46d8580827a75ac891152076b08d923c24f3e43ab8e28d8d9c71c71bd5555556, 0x6dd3abfdf187ba0e815f38736770e79941dc14a486bb13c9286bca1a00000001, 0x1163a5e6130ad2cad47be0679b0b7a00cc8fa566d9995a99733333330ccccccd, 0xb0a7175a27085d61d427619257d20c38e120f9ec30c08c2f3cf3cf3b6db6db7, 0x6ea8ab5b04d08339482b9407ac1a7cbf444c4b1a22e72944dd1745d080000001, 0x64cea7c2c00361cf7a7514e599124c8a328ea4e137a587a61642c8582c8590b3, 0x6f1915afb28c42ba866cc45d093b19afc595bd2d8aa91829b555555460000001, 0x6aa770fa96ed0cdc062af9f2ea24419e803dd454ae12f879f5c28f5b3d70a3d8, 0x310bee2d07c2a14fc6e73ddc04133ddade81769ecec43a9d1d89d89d1d89d89e, 0x896583f0c9068184fa5784c727dc426520e0c2625ecea5ebda12f6838e38e39, 0x5f3a1296990a8256bc5d3a98e3573a96a95bc6b95247cb9176db6db60924924a, 0x6beeeb3bc5a44881038e2168963594284523521472c0aded69ee5845b08d3dcc, 0x58e0de26287035620523d04a6dc8e1596ade30f13bba79baf7777776b3333334],
    [0x1b46fa31af7059b6a2a432d4b6f8e788c868db4bffff9d2cf0f0f0f0b4b4b4b5, 0x46d8580827a75ac891152076b08d923c24f3e43ab8e28d8d9c71c71bd5555556, 0x6dd3abfdf187ba0e815f38736770e79941dc14a486bb13c9286bca1a00000001, 0x1163a5e6130ad2cad47be0679b0b7a00cc8fa566d9995a99733333330ccccccd, 0xb0a7175a27085d61d427619257d20c38e120f9ec30c08c2f3cf3cf3b6db6db7, 0x6ea8ab5b04d08339482b9407ac1a7cbf444c4b1a22e72944dd1745d080000001, 0x64cea7c2c00361cf7a7514e599124c8a328ea4e137a587a61642c8582c8590b3, 0x6f1915afb28c42ba866cc45d093b19afc595bd2d8aa91829b555555460000001, 0x6aa770fa96ed0cdc062af9f2ea24419e803dd454ae12f879f5c28f5b3d70a3d8, 0x310bee2d07c2a14fc6e73ddc04133ddade81769ecec43a9d1d89d89d1d89d89e, 0x896583f0c9068184fa5784c727dc426520e0c2625ecea5ebda12f6838e38e39, 0x5f3a1296990a8256bc5d3a98e3573a96a95bc6b95247cb9176db6db60924924a, 0x6beeeb3bc5a44881038e2168963594284523521472c0aded69ee5845b08d3dcc, 0x58e0de26287035620523d04a6dc8e1596ade30f13bba79baf7777776b3333334, 0x21a817cdd2467f35fe5b1dafc0bb5fbf7b689af89ce6bfdead6b5ad66b5ad6b6],
    [0x46d8580827a75ac891152076b08d923c24f3e43ab8e28d8d9c71c71bd5555556, 0x6dd3abfdf187ba0e815f38736770e79941dc14a486bb13c9286bca1a00000001, 0x1163a5e6130ad2cad47be0679b0b7a00cc8fa566d9995a99733333330ccccccd, 0xb0a7175a27085d61d427619257d20c38e120f9ec30c08c2f3cf3cf3b6db6db7, 0x6ea8ab5b04d08339482b9407ac1a7cbf444c4b1a22e72944dd1745d080000001, 0x64cea7c2c00361cf7a7514e599124c8a328ea4e137a587a61642c8582c8590b3, 0x6f1915afb28c42ba866cc45d093b19afc595bd2d8aa91829b555555460000001, 0x6aa770fa96ed0cdc062af9f2ea24419e803dd454ae12f879f5c28f5b3d70a3d8, 0x310bee2d07c2a14fc6e73ddc04133ddade81769ecec43a9d1d89d89d1d89d89e, 0x896583f0c9068184fa5784c727dc426520e0c2625ecea5ebda12f6838e38e39, 0x5f3a1296990a8256bc5d3a98e3573a96a95bc6b95247cb9176db6db60924924a, 0x6beeeb3bc5a44881038e2168963594284523521472c0aded69ee5845b08d3dcc, 0x58e0de26287035620523d04a6dc8e1596ade30f13bba79baf7777776b3333334, 0x21a817cdd2467f35fe5b1dafc0bb5fbf7b689af89ce6bfdead6b5ad66b5ad6b6, 0x704e3a189050915df1a00947c954c945291fb6e2e7fe691f07ffffff08000001],
    [0x6dd3abfdf187ba0e815f38736770e79941dc14a486bb13c9286bca1a00000001, 0x1163a5e6130ad2cad47be0679b0b7a00cc8fa566d9995a99733333330ccccccd, 0xb0a7175a27085d61d427619257d20c38e120f9ec30c08c2f3cf3cf3b6db6db7, 0x6ea8ab5b04d08339482b9407ac1a7cbf444c4b1a22e72944dd1745d080000001, 0x64cea7c2c00361cf7a7514e599124c8a328ea4e137a587a61642c8582c8590b3, 0x6f1915afb28c42ba866cc45d093b19afc595bd2d8aa91829b555555460000001, 0x6aa770fa96ed0cdc062af9f2ea24419e803dd454ae12f879f5c28f5b3d70a3d8, 0x310bee2d07c2a14fc6e73ddc04133ddade81769ecec43a9d1d89d89d1d89d89e, 0x896583f0c9068184fa5784c727dc426520e0c2625ecea5ebda12f6838e38e39, 0x5f3a1296990a8256bc5d3a98e3573a96a95bc6b95247cb9176db6db60924924a, 0x6beeeb3bc5a44881038e2168963594284523521472c0aded69ee5845b08d3dcc, 0x58e0de26287035620523d04a6dc8e1596ade30f13bba79baf7777776b3333334, 0x21a817cdd2467f35fe5b1dafc0bb5fbf7b689af89ce6bfdead6b5ad66b5ad6b6, 0x704e3a189050915df1a00947c954c945291fb6e2e7fe691f07ffffff08000001, 0x706a54adbbbf813e4130555d209cf08149721367c1eee4d83e0f83e000000001],
    [0x1163a5e6130ad2cad47be0679b0b7a00cc8fa566d9995a99733333330ccccccd, 0xb0a7175a27085d61d427619257d20c38e120f9ec30c08c2f3cf3cf3b6db6db7, 0x6ea8ab5b04d08339482b9407ac1a7cbf444c4b1a22e72944dd1745d080000001, 0x64cea7c2c00361cf7a7514e599124c8a328ea4e137a587a61642c8582c8590b3, 0x6f1915afb28c42ba866cc45d093b19afc595bd2d8aa91829b555555460000001, 0x6aa770fa96ed0cdc062af9f2ea24419e803dd454ae12f879f5c28f5b3d70a3d8, 0x310bee2d07c2a14fc6e73ddc04133ddade81769ecec43a9d1d89d89d1d89d89e, 0x896583f0c9068184fa5784c727dc426520e0c2625ecea5ebda12f6838e38e39, 0x5f3a1296990a8256bc5d3a98e3573a96a95bc6b95247cb9176db6db60924924a, 0x6beeeb3bc5a44881038e2168963594284523521472c0aded69ee5845b08d3dcc, 0x58e0de26287035620523d04a6dc8e1596ade30f13bba79baf7777776b3333334, 0x21a817cdd2467f35fe5b1dafc0bb5fbf7b689af89ce6bfdead6b5ad66b5ad6b6, 0x704e3a189050915df1a00947c954c945291fb6e2e7fe691f07ffffff08000001, 0x706a54adbbbf813e4130555d209cf08149721367c1eee4d83e0f83e000000001, 0x479a50c26c86eb7f6aef056e604d5fc70e133fa77ffefc95f8787877da5a5a5b],
    [0xb0a7175a27085d61d427619257d20c38e120f9ec30c08c2f3cf3cf3b6db6db7, 0x6ea8ab5b04d08339482b9407ac1a7cbf444c4b1a22e72944dd1745d080000001, 0x64cea7c2c00361cf7a7514e599124c8a328ea4e137a587a61642c8582c8590b3, 0x6f1915afb28c42ba866cc45d093b19afc595bd2d8aa91829b555555460000001, 0x6aa770fa96ed0cdc062af9f2ea24419e803dd454ae12f879f5c28f5b3d70a3d8, 0x310bee2d07c2a14fc6e73ddc04133ddade81769ecec43a9d1d89d89d1d89d89e, 0x896583f0c9068184fa5784c727dc426520e0c2625ecea5ebda12f6838e38e39, 0x5f3a1296990a8256bc5d3a98e3573a96a95bc6b95247cb9176db6db60924924a, 0x6beeeb3bc5a44881038e2168963594284523521472c0aded69ee5845b08d3dcc, 0x58e0de26287035620523d04a6dc8e1596ade30f13bba79baf7777776b3333334, 0x21a817cdd2467f35fe5b1dafc0bb5fbf7b689af89ce6bfdead6b5ad66b5ad6b6, 0x704e3a189050915df1a00947c954c945291fb6e2e7fe691f07ffffff08000001, 0x706a54adbbbf813e4130555d209cf08149721367c1eee4d83e0f83e000000001, 0x479a50c26c86eb7f6aef056e604d5fc70e133fa77ffefc95f8787877da5a5a5b, 0x4c2e7545473b9b7896b0fbad82ac2edeede305610e9fd60df8af8af807507508],
    [0x6ea8ab5b04d08339482b9407ac1a7cbf444c4b1a22e72944dd1745d080000001, 0x64cea7c2c00361cf7a7514e599124c8a328ea4e137a587a61642c8582c8590b3, 0x6f1915afb28c42ba866cc45d093b19afc595bd2d8aa91829b555555460000001, 0x6aa770fa96ed0cdc062af9f2ea24419e803dd454ae12f879f5c28f5b3d70a3d8, 0x310bee2d07c2a14fc6e73ddc04133ddade81769ecec43a9d1d89d89d1d89d89e, 0x896583f0c9068184fa5784c727dc426520e0c2625ecea5ebda12f6838e38e39, 0x5f3a1296990a8256bc5d3a98e3573a96a95bc6b95247cb9176db6db60924924a, 0x6beeeb3bc5a44881038e2168963594284523521472c0aded69ee5845b08d3dcc, 0x58e0de26287035620523d04a6dc8e1596ade30f13bba79baf7777776b3333334, 0x21a817cdd2467f35fe5b1dafc0bb5fbf7b689af89ce6bfdead6b5ad66b5ad6b6, 0x704e3a189050915df1a00947c954c945291fb6e2e7fe691f07ffffff08000001, 0x706a54adbbbf813e4130555d209cf08149721367c1eee4d83e0f83e000000001, 0x479a50c26c86eb7f6aef056e604d5fc70e133fa77ffefc95f8787877da5a5a5b, 0x4c2e7545473b9b7896b0fbad82ac2edeede305610e9fd60df8af8af807507508, 0x236c2c0413d3ad64488a903b5846c91e1279f21d5c7146c6ce38e38deaaaaaab],
    [0x64cea7c2c00361cf7a7514e599124c8a328ea4e137a587a61642c8582c8590b3, 0x6f1915afb28c42ba866cc45d093b19afc595bd2d8aa91829b555555460000001, 0x6aa770fa96ed0cdc062af9f2ea24419e803dd454ae12f879f5c28f5b3d70a3d8, 0x310bee2d07c2a14fc6e73ddc04133ddade81769ecec43a9d1d89d89d1d89d89e, 0x896583f0c9068184fa5784c727dc426520e0c2625ecea5ebda12f6838e38e39, 0x5f3a1296990a8256bc5d3a98e3573a96a95bc6b95247cb9176db6db60924924a, 0x6beeeb3bc5a44881038e2168963594284523521472c0aded69ee5845b08d3dcc, 0x58e0de26287035620523d04a6dc8e1596ade30f13bba79baf7777776b3333334, 0x21a817cdd2467f35fe5b1dafc0bb5fbf7b689af89ce6bfdead6b5ad66b5ad6b6, 0x704e3a189050915df1a00947c954c945291fb6e2e7fe691f07ffffff08000001, 0x706a54adbbbf813e4130555d209cf08149721367c1eee4d83e0f83e000000001, 0x479a50c26c86eb7f6aef056e604d5fc70e133fa77ffefc95f8787877da5a5a5b, 0x4c2e7545473b9b7896b0fbad82ac2edeede305610e9fd60df8af8af807507508, 0x236c2c0413d3ad64488a903b5846c91e1279f21d5c7146c6ce38e38deaaaaaab, 0x12cc97ac9ef6f1b8ae5c6838a79db453e410ea29ffffbbe42983759ef914c1bb],
    [0x6f1915afb28c42ba866cc45d093b19afc595bd2d8aa91829b555555460000001, 0x6aa770fa96ed0cdc062af9f2ea24419e803dd454ae12f879f5c28f5b3d70a3d8, 0x310bee2d07c2a14fc6e73ddc04133ddade81769ecec43a9d1d89d89d1d89d89e, 0x896583f0c9068184fa5784c727dc426520e0c2625ecea5ebda12f6838e38e39, 0x5f3a1296990a8256bc5d3a98e3573a96a95bc6b95247cb9176db6db60924924a, 0x6beeeb3bc5a44881038e2168963594284523521472c0aded69ee5845b08d3dcc, 0x58e0de26287035620523d04a6dc8e1596ade30f13bba79baf7777776b3333334, 0x21a817cdd2467f35fe5b1dafc0bb5fbf7b689af89ce6bfdead6b5ad66b5ad6b6, 0x704e3a189050915df1a00947c954c945291fb6e2e7fe691f07ffffff08000001, 0x706a54adbbbf813e4130555d209cf08149721367c1eee4d83e0f83e000000001, 0x479a50c26c86eb7f6aef056e604d5fc70e133fa77ffefc95f8787877da5a5a5b, 0x4c2e7545473b9b7896b0fbad82ac2edeede305610e9fd60df8af8af807507508, 0x236c2c0413d3ad64488a903b5846c91e1279f21d5c7146c6ce38e38deaaaaaab, 0x12cc97ac9ef6f1b8ae5c6838a79db453e410ea29ffffbbe42983759ef914c1bb, 0x70e0a9a88d929bab5a4c883db8895fcf4accdc53c35cb7e41435e50c80000001],
    [0x6aa770fa96ed0cdc062af9f2ea24419e803dd454ae12f879f5c28f5b3d70a3d8, 0x310bee2d07c2a14fc6e73ddc04133ddade81769ecec43a9d1d89d89d1d89d89e, 0x896583f0c9068184fa5784c727dc426520e0c2625ecea5ebda12f6838e38e39, 0x5f3a1296990a8256bc5d3a98e3573a96a95bc6b95247cb9176db6db60924924a, 0x6beeeb3bc5a44881038e2168963594284523521472c0aded69ee5845b08d3dcc, 0x58e0de26287035620523d04a6dc8e1596ade30f13bba79baf7777776b3333334, 0x21a817cdd2467f35fe5b1dafc0bb5fbf7b689af89ce6bfdead6b5ad66b5ad6b6, 0x704e3a189050915df1a00947c954c945291fb6e2e7fe691f07ffffff08000001, 0x706a54adbbbf813e4130555d209cf08149721367c1eee4d83e0f83e000000001, 0x479a50c26c86eb7f6aef056e604d5fc70e133fa77ffefc95f8787877da5a5a5b, 0x4c2e7545473b9b7896b0fbad82ac2edeede305610e9fd60df8af8af807507508, 0x236c2c0413d3ad64488a903b5846c91e1279f21d5c7146c6ce38e38deaaaaaab, 0x12cc97ac9ef6f1b8ae5c6838a79db453e410ea29ffffbbe42983759ef914c1bb, 0x70e0a9a88d929bab5a4c883db8895fcf4accdc53c35cb7e41435e50c80000001, 0x20b29ec8afd716352f44d3e802b77e91e9aba469df2d7c68be5be5be13b13b14],
    [0x310bee2d07c2a14fc6e73ddc04133ddade81769ecec43a9d1d89d89d1d89d89e, 0x896583f0c9068184fa5784c727dc426520e0c2625ecea5ebda12f6838e38e39, 0x5f3a1296990a8256bc5d3a98e3573a96a95bc6b95247cb9176db6db60924924a, 0x6beeeb3bc5a44881038e2168963594284523521472c0aded69ee5845b08d3dcc, 0x58e0de26287035620523d04a6dc8e1596ade30f13bba79baf7777776b3333334, 0x21a817cdd2467f35fe5b1dafc0bb5fbf7b689af89ce6bfdead6b5ad66b5ad6b6, 0x704e3a189050915df1a00947c954c945291fb6e2e7fe691f07ffffff08000001, 0x706a54adbbbf813e4130555d209cf08149721367c1eee4d83e0f83e000000001, 0x479a50c26c86eb7f6aef056e604d5fc70e133fa77ffefc95f8787877da5a5a5b, 0x4c2e7545473b9b7896b0fbad82ac2edeede305610e9fd60df8af8af807507508, 0x236c2c0413d3ad64488a903b5846c91e1279f21d5c7146c6ce38e38deaaaaaab, 0x12cc97ac9ef6f1b8ae5c6838a79db453e410ea29ffffbbe42983759ef914c1bb, 0x70e0a9a88d929bab5a4c883db8895fcf4accdc53c35cb7e41435e50c80000001, 0x20b29ec8afd716352f44d3e802b77e91e9aba469df2d7c68be5be5be13b13b14, 0x42a8a69c9e54280983dadc37d256a9031026a4b4eccbdb4c3999999906666667],
    [0x896583f0c9068184fa5784c727dc426520e0c2625ecea5ebda12f6838e38e39, 0x5f3a1296990a8256bc5d3a98e3573a96a95bc6b95247cb9176db6db60924924a, 0x6beeeb3bc5a44881038e2168963594284523521472c0aded69ee5845b08d3dcc, 0x58e0de26287035620523d04a6dc8e1596ade30f13bba79baf7777776b3333334, 0x21a817cdd2467f35fe5b1dafc0bb5fbf7b689af89ce6bfdead6b5ad66b5ad6b6, 0x704e3a189050915df1a00947c954c945291fb6e2e7fe691f07ffffff08000001, 0x706a54adbbbf813e4130555d209cf08149721367c1eee4d83e0f83e000000001, 0x479a50c26c86eb7f6aef056e604d5fc70e133fa77ffefc95f8787877da5a5a5b, 0x4c2e7545473b9b7896b0fbad82ac2edeede305610e9fd60df8af8af807507508, 0x236c2c0413d3ad64488a903b5846c91e1279f21d5c7146c6ce38e38deaaaaaab, 0x12cc97ac9ef6f1b8ae5c6838a79db453e410ea29ffffbbe42983759ef914c1bb, 0x70e0a9a88d929bab5a4c883db8895fcf4accdc53c35cb7e41435e50c80000001, 0x20b29ec8afd716352f44d3e802b77e91e9aba469df2d7c68be5be5be13b13b14, 0x42a8a69c9e54280983dadc37d256a9031026a4b4eccbdb4c3999999906666667, 0x87b891f0f8866d354eb41c2262b0fce7046123ea895bbcdf9c18f9c063e7064],
    [0x5f3a1296990a8256bc5d3a98e3573a96a95bc6b95247cb9176db6db60924924a, 0x6beeeb3bc5a44881038e2168963594284523521472c0aded69ee5845b08d3dcc, 0x58e0de26287035620523d04a6dc8e1596ade30f13bba79baf7777776b3333334, 0x21a817cdd2467f35fe5b1dafc0bb5fbf7b689af89ce6bfdead6b5ad66b5ad6b6, 0x704e3a189050915df1a00947c954c945291fb6e2e7fe691f07ffffff08000001, 0x706a54adbbbf813e4130555d209cf08149721367c1eee4d83e0f83e000000001, 0x479a50c26c86eb7f6aef056e604d5fc70e133fa77ffefc95f8787877da5a5a5b, 0x4c2e7545473b9b7896b0fbad82ac2edeede305610e9fd60df8af8af807507508, 0x236c2c0413d3ad64488a903b5846c91e1279f21d5c7146c6ce38e38deaaaaaab, 0x12cc97ac9ef6f1b8ae5c6838a79db453e410ea29ffffbbe42983759ef914c1bb, 0x70e0a9a88d929bab5a4c883db8895fcf4accdc53c35cb7e41435e50c80000001, 0x20b29ec8afd716352f44d3e802b77e91e9aba469df2d7c68be5be5be13b13b14, 0x42a8a69c9e54280983dadc37d256a9031026a4b4eccbdb4c3999999906666667, 0x87b891f0f8866d354eb41c2262b0fce7046123ea895bbcdf9c18f9c063e7064, 0x3f7c0c646607018f283e2710978f7c6470e7d9d0e1853260f9e79e795b6db6dc],
    [0x6beeeb3bc5a44881038e2168963594284523521472c0aded69ee5845b08d3dcc, 0x58e0de26287035620523d04a6dc8e1596ade30f13bba79baf7777776b3333334, 0x21a817cdd2467f35fe5b1dafc0bb5fbf7b689af89ce6bfdead6b5ad66b5ad6b6, 0x704e3a189050915df1a00947c954c945291fb6e2e7fe691f07ffffff08000001, 0x706a54adbbbf813e4130555d209cf08149721367c1eee4d83e0f83e000000001, 0x479a50c26c86eb7f6aef056e604d5fc70e133fa77ffefc95f8787877da5a5a5b, 0x4c2e7545473b9b7896b0fbad82ac2edeede305610e9fd60df8af8af807507508, 0x236c2c0413d3ad64488a903b5846c91e1279f21d5c7146c6ce38e38deaaaaaab, 0x12cc97ac9ef6f1b8ae5c6838a79db453e410ea29ffffbbe42983759ef914c1bb, 0x70e0a9a88d929bab5a4c883db8895fcf4accdc53c35cb7e41435e50c80000001, 0x20b29ec8afd716352f44d3e802b77e91e9aba469df2d7c68be5be5be13b13b14, 0x42a8a69c9e54280983dadc37d256a9031026a4b4eccbdb4c3999999906666667, 0x87b891f0f8866d354eb41c2262b0fce7046123ea895bbcdf9c18f9c063e7064, 0x3f7c0c646607018f283e2710978f7c6470e7d9d0e1853260f9e79e795b6db6dc, 0x3e021802ced14302e5d18b5d99fd43eb0912163d23b7ae3affffffff7711dc48]]
  p := [
    [0x3dd414f92742ed7bd70dc88cd1efeaad81febddf77769776eeeeeeee66666667, 0xc16634ac0f3d2dc200921a013522a6523b850d0c85f21b52cb87e1b2a824830, 0x1f84e27b5fdb0543e30902b6fff97933c683706dac4a7576ca4aa1e9a31e48f, 0xc412d0f0539e0479a77ab681fd730377ddebcd6b6c2f33cc769765da26fe55a, 0x164c1bc6bbb7abe58a7d25950e5eb902234c8a5642a22df631ba3a8b556c70a1, 0x28b3599bbc435fc2766634e84bc57ff2a09cfffa909424e96e9bba09da70557e, 0x6a9ec429429e86e7295b384b8173e6e7c5ff4b92053d3decafeb7e4da9fca518, 0x46df0f45fc642c0a9a35129bc012a0c5218ef6568c40b20c368a5818f62cf775, 0x2f84825c0002869f12930fe49ef3987fd43c71d6be10e3b68a4775f039ad6f0f, 0x4b9a66008d913917f8ed505bfe4e5a02d8a265efdbbaaff1ff701019b6db9b2, 0x2729d6f4f85d4fccbc8439178634156d616e2a276b176bcf39ed1c0a703de9a4, 0x54fcf5c0ba97e60a59798c9f6d76abdcae5128795d38d2440fe2eda02fa09c7a, 0x29ee28460380f4e00a8ad61093cf07d83f7ce755ac9fb178cd83c601a4ac4c8d, 0x5a526886454c941764a0c8cf73e084936ab3424d20c3618ba788cfb5c322a8bd, 0x721ee388bb051132757c6747e7c35052b13caa0bd1aa5cfce3fe1f7bd0ea4659],
    [0x6caeccddf703a573b0063a878907ba84fe81c9c2cffe763f0fffffff10000001, 0x4281191273d0a6f5ac3511f756a60f518118cc05b261e68a7ccd3b214e5b9dc6, 0x1fe663b03ae7c455fb489cb7344cfd81f23689c01eb04adcc39a903e96906720, 0x4330515f7aa82630a4bf370ac59874e02bf1bcdada48c9dd33badc2be1ffce2e, 0x122d429b58acb0b22e815988e26917096b8a019b9ba489aa748ed96937066b67, 0x49d07fe32456d5bd712d4fc0d66c0572b21b09c120a7e1d7936bf7ef86d12d9b, 0x3b88039e8840ad2483782b723590556da1f85187ae2f36e873e27084d0794720, 0x3f36d2f88d851ac481c2a46c28750058b9a930dd02bbe0d73a5b22bd80557b58, 0x47406305dfbbc908bbb276fe2c403b1989a53a985cc5db66df15d92780241bb, 0x6b6589783f17a1215292ab3a7e0fb8a8d91208b143837779fbf3593085333d3c, 0x2ba89ba7b9f3da9f12806a2c7e80dee6590377ed6f82ec4b4a44e1b6b75f3fe0, 0x9484c276821c5d6be21a3f240726e23e4a845e963a76aab78aec362c99df05d, 0x2005410c9d2f1d67f7f2ead809b80fe7090c84e215b834ba75cfab5d9251f4e6, 0x5cf7547a82f19b72daec9a33eae9f71b0c493c578492778c38b9b64194c2f042, 0x441f5374ef1bf198c9e08a608e65604cbb8f4a4cc45dddd59114a827822c39db],
    [0x1b46fa31af7059b6a2a432d4b6f8e788c868db4bffff9d2cf0f0f0f0b4b4b4b5, 0x1fe663b03ae7c455fb489cb7344cfd81f23689c01eb04adcc39a903e96906720, 0x89a0d777720244db165db0c2369d2caf58684bd5d432dc56dcaa9c4db217d5a, 0xe8cc063adf5cd2ba90c1cd862d0822a016e6ec9b01731da4e34640c970fe82a, 0x5db27c67148cbb8b97bbf10eff895491810381de8a919e1011e8755e7c00b8ae, 0x6ddaaa51cd560dc135bda65a081e8051c6f0bc2a9000b5db52cac0b52328f3aa, 0x600fa08e76f2aca96a55a4039ea4534a73c5d042a7edcd82476b1b0f6fde880a, 0x187da50591a5b7127e1ed3aa5a434ba8f3d92437bc059fd1be5cbe951906206, 0x5bf3c60fb8e5fab6a404078d87c61ab6afbfeb7539ff22e361e1a0d1d948bdc5, 0x44bb3b4ed3f337d24803c44f19c8f6cf3d068a1a8dcf9c4f64c1546d8c1c8293, 0x5cbe8ede0a5133587f8128585286bd361bdcbd024640f74852a0a888df9b7d3a, 0x5d2788439c7fa2d454b7aae73e80b4c402d17594b6dcdda09c92866408c55e5b, 0x4e64f86ef88d8082b3a48b6595fcc731cbee2fc0496af56eb06c6a6d1268c65f, 0x2d6a7987b0aff6c55c9eea502b44a90eb2ccbaedad04afbc36e04f11ef298c4f, 0x231ef1342a5ca8a1dc797793880a56e9a8c3d90c1c67e8455fd4204732867784],
    [0x46d8580827a75ac891152076b08d923c24f3e43ab8e28d8d9c71c71bd5555556, 0x4330515f7aa82630a4bf370ac59874e02bf1bcdada48c9dd33badc2be1ffce2e, 0xe8cc063adf5cd2ba90c1cd862d0822a016e6ec9b01731da4e34640c970fe82a, 0x738fa7d5997585718d16ce5884b395b1c54a3b8979d43a95434546475effd7ba, 0x4d3f6657c87961ecd02f2b2481491bc3553f4a153ce0e178619e604f1d4f6d1, 0x200ba9559054a74b56b7d507f9b3b23252a2c091f65d6ab83ad5c445a1923c49, 0x3e1e76c3d56019599a2a4eca54ba01a4a0cbd2e24020d361fa04485704aff8ca, 0x252fddcc2c212ca77b28623dd36dddc86e5481f56cf38ef23cef29ddaaca5fbb, 0x3cfbe96ffe8f64041a575c8e53f017a8f2ca0937ced1ed1e002fee6d2eaca132, 0x59a276400d59759b62d9466e571a4ea43a0f7385cff0470c84cb6bf060b7f9, 0x43f735a180de0045a7c54d0048a9c8ff6cf3de0db6b37449e07b48a164b9da25, 0x398eef2ab446ac5bd7959968630ba8ab1b3ea20c39b34ac812de0cbe0dddb94e, 0x61604b25de38df326ffe9ed3924df74aad5ca6b7d6d6f1c0e2e0af65daaa490f, 0x2e24a50cd60314fdd9aeed1190e1116b9786467ef2555206ef778c6a94560133, 0x306ff7522feced91fd14b0ba06b181a75549859a8217038955f603ecd4b0e57d],
    [0x6dd3abfdf187ba0e815f38736770e79941dc14a486bb13c9286bca1a00000001, 0x122d429b58acb0b22e815988e26917096b8a019b9ba489aa748ed96937066b67, 0x5db27c67148cbb8b97bbf10eff895491810381de8a919e1011e8755e7c00b8ae, 0x4d3f6657c87961ecd02f2b2481491bc3553f4a153ce0e178619e604f1d4f6d1, 0x1b4f5ed006b49f488c7c8ac4f7dabf2a54ede4b3a426a25ee79832f118fd5370, 0x65481915c1bf3f1e20bbe912e30ced8e108e0c2129592a1499e3ce7262281c7f, 0x5b0f502a94ac8696bb14475286639d305b50df301a77baebf93155307936a453, 0x206e90fa1aa2b4c6149eee44998735de2a1e25f3bf1f95ad7cddb7c6554dcab6, 0x147d644d767cf427e06072242d2277a7311e32c59f092e80868d339789309491, 0x3739ab4ec61de818ef649305604ff564b2bd0c72045ac63f285935f821443fa6, 0x1b7ff1aa83f44e5ed5f701996fcc4a38f1a42ad3dbd59716466caa7173a23b3e, 0x728de2a417d1fe66bdd6b71f91f2df0eebbc265d5e8a54fd30fc4ab9653e499, 0x2613f9ed1cf40ba9df51f437d3d98c0eaba683f49b33a182b3bd146ab7c37be3, 0x620ac92432532069edb07b2ffcbabffcd1497fdab7f04542c4804f59127cfa48, 0xaa11915aa4671606043278f9a28e4f84496fefcce0efd611960b12bc522ef60],
    [0x1163a5e6130ad2cad47be0679b0b7a00cc8fa566d9995a99733333330ccccccd, 0x49d07fe32456d5bd712d4fc0d66c0572b21b09c120a7e1d7936bf7ef86d12d9b, 0x6ddaaa51cd560dc135bda65a081e8051c6f0bc2a9000b5db52cac0b52328f3aa, 0x200ba9559054a74b56b7d507f9b3b23252a2c091f65d6ab83ad5c445a1923c49, 0x65481915c1bf3f1e20bbe912e30ced8e108e0c2129592a1499e3ce7262281c7f, 0x886fc34fd22436c1e5a6092878e9e0dbfa6012ca968d414d78993a232fc5038, 0x6d7feeb01a69dc6d9e23ce0e75268f17aa6bc97e6267a28cce77d0997a2f83a5, 0xe11ef30f73787fe18521905b19415a0645e329febd30a55c6af6fce11e75206, 0x3298221f3bcdb1e59ba4472f925572a32038451f24675c36335dc34ceb15d2e, 0x18140d438d3f67e3d6e75fed895ebf60f4793a64f7bd402047fa2361ae72a4a1, 0x181df98afb9dbcbc58607432514da9d6d9a873f7bd24b20b6b5cb5957fcd42ee, 0x17d70990f8703d7d9fb80b0b878e9d9bdcda2f0e2dd7da2fd1c1c31e47b6bccd, 0x520f787323a03cbbdee2282641123774818a2384013a9c52379a70cbef8a1406, 0x3c08eeccafdcee5f2377b26fc9161f6a4bb9668ff5ad45855512efe4ac63854e, 0x2c461edd8af40537b20a4b02055628daeeb7b27843a3efe8c0a0834a18c483e6],
    [0xb0a7175a27085d61d427619257d20c38e120f9ec30c08c2f3cf3cf3b6db6db7, 0x3b88039e8840ad2483782b723590556da1f85187ae2f36e873e27084d0794720, 0x600fa08e76f2aca96a55a4039ea4534a73c5d042a7edcd82476b1b0f6fde880a, 0x3e1e76c3d56019599a2a4eca54ba01a4a0cbd2e24020d361fa04485704aff8ca, 0x5b0f502a94ac8696bb14475286639d305b50df301a77baebf93155307936a453, 0x6d7feeb01a69dc6d9e23ce0e75268f17aa6bc97e6267a28cce77d0997a2f83a5, 0x35288197a68307f4a12693cfa1fcc52b83d9b528573445b68700651e7b53fe6e, 0x6da7d843de884b0f770c629d81839faf11d37c25e512ea888b5bdb6242caac60, 0x671c1a870d4bcbc5d75c7861be10e08bae59a937c0b5db4e9fe29e9f163d91aa, 0x24da0d227036dae7a6f00aa81addbf8524024a336f186e64e3a8360ab10a06b2, 0x2f445d08f9d31488b37d29dd085aa3e3f2bb46abe848473f09a1f80e054dabe6, 0x58dd51ed7c423deeb6f4cc8be7e54b2c9cb0ee1d5211b4d521744512ba0c6359, 0x15e647c45acb88d6c462ab388a520b28793dfd58205e2ea4f32ea9b8b3588c97, 0x2b0a5ff1b7a5ceb103a92ef4683133da9be6601ab18dc4f20c9aab5ffbce88a6, 0x4bf787e083c05419d67bdcb62b77d183e76d5567541354f4ba677e295eb7ee14],
    [0x6ea8ab5b04d08339482b9407ac1a7cbf444c4b1a22e72944dd1745d080000001, 0x3f36d2f88d851ac481c2a46c28750058b9a930dd02bbe0d73a5b22bd80557b58, 0x187da50591a5b7127e1ed3aa5a434ba8f3d92437bc059fd1be5cbe951906206, 0x252fddcc2c212ca77b28623dd36dddc86e5481f56cf38ef23cef29ddaaca5fbb, 0x206e90fa1aa2b4c6149eee44998735de2a1e25f3bf1f95ad7cddb7c6554dcab6, 0xe11ef30f73787fe18521905b19415a0645e329febd30a55c6af6fce11e75206, 0x6da7d843de884b0f770c629d81839faf11d37c25e512ea888b5bdb6242caac60, 0x5fc39ca7a1ec82b12f85df244aca03d2de725c6e4b73d606ef586b2c1742937c, 0x5a2597656a1f3e69f5203b0f288a34d1b9d2950e3447cffd06400d76471e02e2, 0x65e24e4a5b0ce58ce33c4f4f9eccea037def296e7edd99336099e307202e42cb, 0x4f8864f1289a415b8d7cbfcd1ed0484c246454ef052a77ea7cde6f2a7bfad826, 0x1c311e4a0fe98bac7afc6bf17e8bcad39f618a830b76cea8bb3806fa18001b43, 0x89e517de785b79568fc4ff4fc0c077022eeea858eac914a9e08efb05eccb386, 0x28ab03c7f9b4bd3da7c562f94dacc1dcca7ce3a1bdd65e329d15f3c49c45e48d, 0x60620094c1204abd3eea7cea6800e343e33f9a0ad0aff92d80af0ec580123f22],
    [0x64cea7c2c00361cf7a7514e599124c8a328ea4e137a587a61642c8582c8590b3, 0x47406305dfbbc908bbb276fe2c403b1989a53a985cc5db66df15d92780241bb, 0x5bf3c60fb8e5fab6a404078d87c61ab6afbfeb7539ff22e361e1a0d1d948bdc5, 0x3cfbe96ffe8f64041a575c8e53f017a8f2ca0937ced1ed1e002fee6d2eaca132, 0x147d644d767cf427e06072242d2277a7311e32c59f092e80868d339789309491, 0x3298221f3bcdb1e59ba4472f925572a32038451f24675c36335dc34ceb15d2e, 0x671c1a870d4bcbc5d75c7861be10e08bae59a937c0b5db4e9fe29e9f163d91aa, 0x5a2597656a1f3e69f5203b0f288a34d1b9d2950e3447cffd06400d76471e02e2, 0x6402c99980d54e5274080319ecf97b47d951cd2b8f73426aced62723c39bf26f, 0xbc5fdaed73d82b1520a3f004de23083c582403aa3b160e7920a840e03ce7c94, 0x3462829171ef2f1e1973836f1c5f23ec1463c6e7402fe31c0719b2468b46d65d, 0x4d92869c757d557a4de3ba30912ec3e282002ca99f7df9249e6f82b2eb9b3157, 0x67d513a36e94bff27bebc69fee3061357ee5edcef22ea6cbe1772615a09c58f, 0x401f93b34245e0c36e6c7fbfb13adfbcb6fb0057c12f71b0c7d206b600fa7320, 0x6675c29b1e396d41f00675844343cd241536dc5e5f03ce9ddde66e25b66e88f4],
    [0x6f1915afb28c42ba866cc45d093b19afc595bd2d8aa91829b555555460000001, 0x6b6589783f17a1215292ab3a7e0fb8a8d91208b143837779fbf3593085333d3c, 0x44bb3b4ed3f337d24803c44f19c8f6cf3d068a1a8dcf9c4f64c1546d8c1c8293, 0x59a276400d59759b62d9466e571a4ea43a0f7385cff0470c84cb6bf060b7f9, 0x3739ab4ec61de818ef649305604ff564b2bd0c72045ac63f285935f821443fa6, 0x18140d438d3f67e3d6e75fed895ebf60f4793a64f7bd402047fa2361ae72a4a1, 0x24da0d227036dae7a6f00aa81addbf8524024a336f186e64e3a8360ab10a06b2, 0x65e24e4a5b0ce58ce33c4f4f9eccea037def296e7edd99336099e307202e42cb, 0xbc5fdaed73d82b1520a3f004de23083c582403aa3b160e7920a840e03ce7c94, 0x540a2e00b9feb5febe908f5d170a20a139bb42924f2c24a1c0c8b23221dde8c2, 0x26b14a2775313eb417eba86998077969a8c86cdc031119f288c75232151c5410, 0x17aa1a38a363406b76d269893eb7f5f0da9474e51ca05ee774707b84c2f80fd0, 0x35aa94efe50f9e379f9ff02501704dbec8b9d4a9e8d0a062d6c22170911b0d8e, 0x1461460a3554a1e3a2120413b5a22493ec55d8b5c0a52114238966ab6c3b76b4, 0x38353fbc9e14cea1af569b498dc28265300dac9df729cd57be2dc792682ade08],
    [0x6aa770fa96ed0cdc062af9f2ea24419e803dd454ae12f879f5c28f5b3d70a3d8, 0x2ba89ba7b9f3da9f12806a2c7e80dee6590377ed6f82ec4b4a44e1b6b75f3fe0, 0x5cbe8ede0a5133587f8128585286bd361bdcbd024640f74852a0a888df9b7d3a, 0x43f735a180de0045a7c54d0048a9c8ff6cf3de0db6b37449e07b48a164b9da25, 0x1b7ff1aa83f44e5ed5f701996fcc4a38f1a42ad3dbd59716466caa7173a23b3e, 0x181df98afb9dbcbc58607432514da9d6d9a873f7bd24b20b6b5cb5957fcd42ee, 0x2f445d08f9d31488b37d29dd085aa3e3f2bb46abe848473f09a1f80e054dabe6, 0x4f8864f1289a415b8d7cbfcd1ed0484c246454ef052a77ea7cde6f2a7bfad826, 0x3462829171ef2f1e1973836f1c5f23ec1463c6e7402fe31c0719b2468b46d65d, 0x26b14a2775313eb417eba86998077969a8c86cdc031119f288c75232151c5410, 0x36a3df9b1ce792e2ae53c6b148e9db339e7a1bde3cd70f447edc2e8f8ad58083, 0x6a565dad78eb7f80463d5a081bc9bc8063325fecf8a0feccf825ebac74fb4197, 0x6cba0ef0e011ddf43e164b044ec7db6dd109b74a59f3241a46d478fe20b4dd6e, 0x3e66e3e3b1d6774ef708c51df85c096eba98ec096856aa07684e619ec2a6e248, 0x2716545be1f7bf824885bf13b1570531b97eb174eb1400e208e5bc56d2fb5e10],
    [0x310bee2d07c2a14fc6e73ddc04133ddade81769ecec43a9d1d89d89d1d89d89e, 0x9484c276821c5d6be21a3f240726e23e4a845e963a76aab78aec362c99df05d, 0x5d2788439c7fa2d454b7aae73e80b4c402d17594b6dcdda09c92866408c55e5b, 0x398eef2ab446ac5bd7959968630ba8ab1b3ea20c39b34ac812de0cbe0dddb94e, 0x728de2a417d1fe66bdd6b71f91f2df0eebbc265d5e8a54fd30fc4ab9653e499, 0x17d70990f8703d7d9fb80b0b878e9d9bdcda2f0e2dd7da2fd1c1c31e47b6bccd, 0x58dd51ed7c423deeb6f4cc8be7e54b2c9cb0ee1d5211b4d521744512ba0c6359, 0x1c311e4a0fe98bac7afc6bf17e8bcad39f618a830b76cea8bb3806fa18001b43, 0x4d92869c757d557a4de3ba30912ec3e282002ca99f7df9249e6f82b2eb9b3157, 0x17aa1a38a363406b76d269893eb7f5f0da9474e51ca05ee774707b84c2f80fd0, 0x6a565dad78eb7f80463d5a081bc9bc8063325fecf8a0feccf825ebac74fb4197, 0x3047c41897d57f3ee11fb6063dd9986eb1ba9edd5d64e89669c276cd5d0b39af, 0x504e651fb52b210e5f4c85b5ecd0632b6be2c1177a924aa9953ee6db2f682ba1, 0x2da5576497b59c8d828794228105ca8cf163c89e804e993cc891dd395b3553c2, 0x202419279896b3b164a646b4811578d6df90e060d57616306af99ba5be9261ea],
    [0x896583f0c9068184fa5784c727dc426520e0c2625ecea5ebda12f6838e38e39, 0x2005410c9d2f1d67f7f2ead809b80fe7090c84e215b834ba75cfab5d9251f4e6, 0x4e64f86ef88d8082b3a48b6595fcc731cbee2fc0496af56eb06c6a6d1268c65f, 0x61604b25de38df326ffe9ed3924df74aad5ca6b7d6d6f1c0e2e0af65daaa490f, 0x2613f9ed1cf40ba9df51f437d3d98c0eaba683f49b33a182b3bd146ab7c37be3, 0x520f787323a03cbbdee2282641123774818a2384013a9c52379a70cbef8a1406, 0x15e647c45acb88d6c462ab388a520b28793dfd58205e2ea4f32ea9b8b3588c97, 0x89e517de785b79568fc4ff4fc0c077022eeea858eac914a9e08efb05eccb386, 0x67d513a36e94bff27bebc69fee3061357ee5edcef22ea6cbe1772615a09c58f, 0x35aa94efe50f9e379f9ff02501704dbec8b9d4a9e8d0a062d6c22170911b0d8e, 0x6cba0ef0e011ddf43e164b044ec7db6dd109b74a59f3241a46d478fe20b4dd6e, 0x504e651fb52b210e5f4c85b5ecd0632b6be2c1177a924aa9953ee6db2f682ba1, 0xb9c0c581a914f5ca74ff49b67e4a7b3e1e6c7ea35de7d98892ffe2890670d95, 0x69e6eec6e9a070c4dc8f9ed6b6235b873cfe7da149f6a24c7bbb69b190d834b2, 0x213485b7000e54a65dcd0fb7d6ce19a79fc3ed0d0b62685bc48394ebf76c37fc],
    [0x5f3a1296990a8256bc5d3a98e3573a96a95bc6b95247cb9176db6db60924924a, 0x5cf7547a82f19b72daec9a33eae9f71b0c493c578492778c38b9b64194c2f042, 0x2d6a7987b0aff6c55c9eea502b44a90eb2ccbaedad04afbc36e04f11ef298c4f, 0x2e24a50cd60314fdd9aeed1190e1116b9786467ef2555206ef778c6a94560133, 0x620ac92432532069edb07b2ffcbabffcd1497fdab7f04542c4804f59127cfa48, 0x3c08eeccafdcee5f2377b26fc9161f6a4bb9668ff5ad45855512efe4ac63854e, 0x2b0a5ff1b7a5ceb103a92ef4683133da9be6601ab18dc4f20c9aab5ffbce88a6, 0x28ab03c7f9b4bd3da7c562f94dacc1dcca7ce3a1bdd65e329d15f3c49c45e48d, 0x401f93b34245e0c36e6c7fbfb13adfbcb6fb0057c12f71b0c7d206b600fa7320, 0x1461460a3554a1e3a2120413b5a22493ec55d8b5c0a52114238966ab6c3b76b4, 0x3e66e3e3b1d6774ef708c51df85c096eba98ec096856aa07684e619ec2a6e248, 0x2da5576497b59c8d828794228105ca8cf163c89e804e993cc891dd395b3553c2, 0x69e6eec6e9a070c4dc8f9ed6b6235b873cfe7da149f6a24c7bbb69b190d834b2, 0x20a2b4f4164fb775a759925136f6ff75712ee71d8d4adb63e32b601ed676c559, 0x4c3e380133fc57ace769040cca3991550e5d668128e6c9bd64ae48ac037d635d],
    [0x6beeeb3bc5a44881038e2168963594284523521472c0aded69ee5845b08d3dcc, 0x441f5374ef1bf198c9e08a608e65604cbb8f4a4cc45dddd59114a827822c39db, 0x231ef1342a5ca8a1dc797793880a56e9a8c3d90c1c67e8455fd4204732867784, 0x306ff7522feced91fd14b0ba06b181a75549859a8217038955f603ecd4b0e57d, 0xaa11915aa4671606043278f9a28e4f84496fefcce0efd611960b12bc522ef60, 0x2c461edd8af40537b20a4b02055628daeeb7b27843a3efe8c0a0834a18c483e6, 0x4bf787e083c05419d67bdcb62b77d183e76d5567541354f4ba677e295eb7ee14, 0x60620094c1204abd3eea7cea6800e343e33f9a0ad0aff92d80af0ec580123f22, 0x6675c29b1e396d41f00675844343cd241536dc5e5f03ce9ddde66e25b66e88f4, 0x38353fbc9e14cea1af569b498dc28265300dac9df729cd57be2dc792682ade08, 0x2716545be1f7bf824885bf13b1570531b97eb174eb1400e208e5bc56d2fb5e10, 0x202419279896b3b164a646b4811578d6df90e060d57616306af99ba5be9261ea, 0x213485b7000e54a65dcd0fb7d6ce19a79fc3ed0d0b62685bc48394ebf76c37fc, 0x4c3e380133fc57ace769040cca3991550e5d668128e6c9bd64ae48ac037d635d, 0xa3361a33d956fdf3360837a7a1248278dd9575970e2ca8b11497454bf148f05]]
  s := [
    [0x3dd414f92742ed7bd70dc88cd1efeaad81febddf77769776eeeeeeee66666667, 0x2e3d750afab7b7fd4f47f26ee34415853c3ea13200e5c72c545633db9d25980d, 0x2efc70981d5d1ed8ad82b87794fb632097057645b26d288d2b2d94b316d73fc, 0x5dfbbcf95572c7826e5cf0b919bc2aba90185707c327f1462edd695caaf864a3, 0xe5181b2879fedb823ebea32e9229e519e0205d8d41253765fb6bce8289722da, 0x5021364e81cb2e34d5f0f5597d106b679b7805ca1d4dd98e0de536978af83fc0, 0x5f0b4e5c68e6ad5ca2c084a54d35a7d8c5813b7b6bc2ec3eada7b63d8bba832a, 0xcb0a179d758a783dc5e926b0f16444f2ccdf87987e71b9e7148dc1ca44113d3, 0x6d003be6ba402d95a0aa24beeb9146d6f70017ad084a64727006de3908f66754, 0xd5cb1b52908f5acbbb1e1333049dafbb6c2b711fe18f44ccad5e058a35bd5, 0x4c614a96a2c29156f4db9bcf3192791ef2b06f7e3c4e8cc3960626f09cbae945, 0x9deafa01e91c9f027d913e08227a6fb38c6308381e95ce93ff12bff1c8e9014, 0x689bb02a84dddc59b620ae9abbb4cded18c311ef87c53a6de360cd625b536b14, 0x49d2ad51fec4e42f5b0498165d527784634aecf37aa7bda3d4d65f062457e226, 0xa07be26e7a111d8b48b31e566f4bcccb14b6b98a1d1ccbad6b12adb1960a33d, 0x6bc59d64f07873c6848dacbd6aa50d03d29157e9bc56e390b92ca8a0ff692bbd, 0x1b9ed7e7c9fd499f7cecd70575b8bc0559066b3c61089be5d7e942c4a6177ffe, 0x4f15db64b006d5b516dad6228739a103215078299254d6377ed95c291f5dfb99, 0x224c8e90bf0d440b5d94fb4be086a4a8439914563f5747eea644c10d875c2c36, 0x67d28fbabbe716381024c52366af3cc2578467f19a2da00b407ed8a52acffa89, 0x1d81e42b4b449b166eb9d20b6cd0b3598c96ad2a5d57e9a250b5bb51b446ffb9, 0x71e3ad0cb1b8b5fea2d778352b5aa5ccad339f87f0652789ce10006dec2ca55, 0x53a45564870720005ed95fa79ef4ca3fbe5ff721dcf73ca2fbdc880ad45b8b8f, 0x639bacdb25f78ea32d23255abcacde28968c4dc5bda9cc173ba9865f26a4b692, 0x81c688c30f10c8ddf10066f82bba22832864b0679b1fd17749504e897891691, 0x4f8231ec77bece61ff899c880730b81d58a9352b60ae500a18bf68ca249ad186, 0x2d2c5f18657e3be180a4169588c09705b2f7635dbdc636460ab80e1b8006a125, 0x5c9490671871b1ddde99b87b0f56832e68333f9af6b4b7c15a2c9a22babe9a60, 0x17d8f9e90c9cf5f2e3e694043c0251fce529cb43d944266baf7c8f55e7792001],
    [0x3dd414f92742ed7bd70dc88cd1efeaad81febddf77769776eeeeeeee66666667, 0x213aba6e90bda20e241051a553443fc29c450b28ea361f00a7126d3535924341, 0x3d3f5870d08906dbca559c1ace00202dd8e53b2f2dfccf2248a5fe5bfadb8ed3, 0x37ef60a054042c02cf11853a824abe56271a8e99f516ce832f3a7da46061d771, 0x15962d60885d6add73b502b59e529203d12102be6417cba89d49d3794ee8e191, 0x2b53d4d2844dad818c7c0221104630b79acd0ed96c001e5cc101912ac349697a, 0x12161c1e99e35fa47ff3db55b8ff43c8b585bb2f7eee4d4e0494a26a3f3ac76d, 0x30e14a4e2669a3fa1cb9e3b0890b0a7f54651705aa159838d72ecb8d7a034027, 0x61b7c2d755cadc91ab0a20dbbfd850c673c72fdbf6be6b3f8b6089c8c6a2c88b, 0x14f9238e58e7b2b13edcb86ca6be35021837e3112c5d9e738c0cdf2bc4237716, 0x4d0577454b8a3155e8cb116bb51af834f5997d5b34321876aa2810f5de29884d, 0x40698ad43aed5510bfea64f2a45d2a47d985e780dfdc76b16d6610bbfd48a2ac, 0x19f296ec3f06cd9e9622416cd15f01bb899c485c7eb83c4c477fdaa4afa49ce9, 0x3bd71406da0c1c68ff64dcd63814233d8ace3d61c1328f30367248e7a6487efa, 0xc4e5c1f97156d87e8d9da74252e9ff8b7f85af02c703917a537838ae3d7371e, 0x3cc23c94d1a69fd89a64567741bfed5115e61232f763a456d349a54afe73c130, 0x5b0bca6c35f9bea0709056166f435c382d6160ff4cbc0fdb1c270f5e8b04e6ec, 0x4ab1356ef6f4bfb1ba1e945e39e0716fe5a11625cc9209a75732fe692356e85c, 0x39407c8dfb5451ef429f249077ab4766c36f40c1a5a46cd3ef9f45dd6e847130, 0x2dca1cfb03486776a60281f01bc400ad2a89eec3bdce9e59d737a76638191386, 0xb9c997fe0f63cfa8b70f3266a14e9e861669d007d17e12603a6fccb803880a5, 0x650b615a16146927e60557d76112c24e9d6e3883c512949de9f37007484c422d, 0x66fc3a50a60d2c539d68ca676fdb4ef1fa7e1b9dd1cb44789aafc08f58c11968, 0x494d8f78b860c3feb8f3ecd51adec585572cd36c8f19f5e5fbe21d9b2c4202eb, 0x19856a20feeea4019a4d49028fe21c6b47a7775a8ed3d34a437441b568c8d3fc, 0x5d978991bfccbd9d4873c4c2695f801d698382af6da9cf5d05e19bbe08fcbb80, 0x5ea38b88b3b749f188a307eafa125cc1521446460b8cac38d96eaf2db40ee51b, 0x506b895b839bf495eef50697b7da53678153031ecc147087a3ccc8ba262aa6, 0x64e3d4bd99553bbff04d9f917ccd14c75fbe3f7a9df357c26935daf486c6cbc],
    [0x3dd414f92742ed7bd70dc88cd1efeaad81febddf77769776eeeeeeee66666667, 0x5e88fb00dcd1ecbb24c8fb9ca5fb3d739497ff757e5b78d4377be8d2350a698a, 0x5c501a0e88b1e042736b63af371f01cc23f9ebf7bfc122298429ffbb266d4d35, 0x67b5781fb43525437dae9a209cd29f221256218df54505d890995080a6736e2c, 0xbe60761b510bb6dbf225c5be49ff02f07b6f755615a8670737c8a00aa6718d2, 0xf64011ea09b3302d0b35c85623520485889d935b275ed903219cdb6ca8b5a81, 0x6692020fef7ed59123765e2c343fd98d6b0979dfa2fb8b48289365b31f9489a, 0x5cc25c986eed0a77da0dbfbfd3e13b4f6ba0aaeb8cca8d17143d7accb57ed6fa, 0x31ca30308bc693270b377fa7c0f2057b6406a0c12b1c9686fcfdf3140877cfe, 0x6794b9ce7f0c0e41673ed320a25cd7b4305c3a2d65fb0ad721d5ec9564844d80, 0x453de81a7ade14a8179eeb21972b87097a90010f0c3872359e5fb781161c6758, 0x119f63697c820143c9d38a191958ca4bacc716bc8aa67026a700786918ded5ee, 0xd12616ef74d0ca74b459e79aac01861f6896d4c164355d25575fcc40df26708, 0x7033d7dfd7cf0edfacc7763584b60aa92b1f7d07e54d83acfc5faf66f33cffe3, 0x55c87870b616ec672aedd156cf3b2b2b2ed87524be515b6320bf8e3d08fe3bbd, 0x556b422fb1a118286f6462e08a4e0b659e6f30fe547055276ba0ac9b83ac6435, 0x31f769de1b86935fdd17f21723ef6bc5f195f97a386ddcaa7cd7d353caf13537, 0x55a5cf0b1db484223d2b41684948e19648f7754ca570c3a18578e766b743b457, 0x4993fc5d6e661a6f09768a05ebce9ac7562dcea9270f9790da928702b5cf0b41, 0x6ccd9c5b4163e22257b2d8085e9ee6257bdca620bb7a86ade1355ba6e2008067, 0x246e3020d72830534a324a87a72ae588ac1705bd06351a82ed841158b01c2e2, 0x45b70c5865952216b46660b4e8f1edf24f66ef0ff76d2cceec730163aff60638, 0x61ce29d9259e45c90f17543ed273e76de278b23d0d586bf882c51ae119d519e8, 0x1d57227f7ca0f6dbf05fcbc97a14797bd751e574a46d6098c8f005df157b9f07, 0x582607735c68b4d32762999506382aeef9546df56d2574b8d4bd1fe70005eb52, 0x1e0fc8c99d0027e7df34e78a14c6f4d3c9b2d40dae423baccee0b981191a8198, 0x62dac0f15eb4a25d50a26a4553866320645ba96652d30d5a67b1671091057db3, 0x1b94eb3b92d0dfe3f675534cd423cd591d4a1c42cf1d26948109a11ca7ff9fc5, 0x253ba071228473d53fc91995a21c308ae53b4e483d319d1d79b456b6a376f2bf],
    [0x3dd414f92742ed7bd70dc88cd1efeaad81febddf77769776eeeeeeee66666667, 0x3eeb36427077b130b5aa8c6b73b3ef01eb8fa1826b7377c743a8d97110e2b041, 0x9c8a614cf5fa037f1f244bdb1db7fc8bb6b55c90123506d0f3fa32f16273fe0, 0x4643173eb3e2654e0854d2a15650593280c277ea8db40e211b30513ea0269335, 0x4247a476a103bbe234d241246162bd9140b18129ffc38a72d8d426eaf56bef80, 0x64ba76d9958193eed75bd0e036752ba9464cc85360da3632e07087599c712683, 0x2981208ef1c68dcb42ada20694f43d0221dea5bab9942cae01070423b001dbe8, 0x6ab6ba12338edb307e2a5c88ffbec659645f8e722598fe0e05020420e55524bf, 0x7ee8971367377c1f6d768b97e8bb0d24334e55d7a0aba6063c74d66b663775a, 0x29716bd3aa1a814257ed59d9b4b26b25a1146dbd61505ad01d7ac63e305dd5ae, 0x683c3fefc77864cb7dec8487422c56f641a2424e4f01367bb5bc0b3ae6db416c, 0x27ed37c34f1382bba20a17a425fd083b04e3672bc3dcd27766d67ad9bebca7a, 0x6d5845b556b436c26ba7778387406072aeb198af8ebd912abbb25081a191987, 0x6a959fcf020b14503e54bd97ad363de292971b44dc1dfec9e8452659b85eead7, 0x353304bc48f73889b7fc004057c9c61e43cde434b0a34b14235be044858281c6, 0x425a6fb86dbf7f53d856cd764f3d12cc14f4a0c9aec65c32ab11513c5e2bcd, 0x20dbb66bc7092b48b91d9c786af8b4f3b3f6db1b4f6bdce185aa769b00fb79a7, 0x5cf05830b138afc874ef0b7deb95f91d6ffa1d0a00b1911ef696a4d87b87621a, 0x65f313042453730372248cf6ed93b0bd27ca4bda632b68971ee75153e46146e1, 0x22793356a392b71da5efe7963daa3211b3e0fb8f1c13edb35114cc5eb2d5910d, 0x112cc69913c1ace3e964086ebc13890777a5a2027b49f1a25b41565681ce2a35, 0x32ce481b0f3cd0253982d00cebb26cd43b51c7b655df8f79d0e72afc6d2fdefc, 0x3de06636a157f374048eb5c9ced1950c381da98face3b78b4948bae3cae0a52, 0x28cdb364f8adb2a39af9bf9c90c02a056b7c2c2721bae369781211b358cf582a, 0x2dbad76bdaecd0b515c370a1a03883e7516769e94c4a8e5b52c58d563238a6dc, 0x653decdd060855eb76647d8b476605f0390a8eb085c29914d9cce39abd0980b, 0x33332a4aadb76436f632d89034b6bbdc060d9b1b4e08bb555028a8858ee80b84, 0x216921b7c42f68fabe081cea08bd122396e3c40f90244a5624db3a7f0f18080c, 0x5a1ab2ffba33e0fdaa6792dd3ecce09e865bb7ec44dda2abda6a6ab0db89816c],
    [0x3dd414f92742ed7bd70dc88cd1efeaad81febddf77769776eeeeeeee66666667, 0x4dc5e8162971470b377bb149edf01027c8b99caeee3feb65fbd3e6868d0b38c8, 0x3e0a56d4fb8803bee311b109371678408ef6c644bc2b3e3bca7d4a7523b7be8d, 0x717ff9b0ca5642e298bfdd2418610626b1c9004b2c2834089856ce5e752d3c49, 0x4528a23f3f5f07f16582872a9f85e30867f232d804ca3cf061c2374e252e6933, 0x4d3aa37e422cecbae4d51971e9e3cc203eec394f89f57569ae361ec583a64ba7, 0x5fc1d62f0f3566f653dc4cb95600d22895516e6146e9b0ec2f6b20300ca04ca6, 0x5d2df5f589552f5ef9df2031eab6d79c35c87f9080ec0c9fd8b44a18e834d894, 0x5d44684233783390d4f79da72be635cbd85ca3e54eb348d4a67a64f6ef08d32a, 0x23bdc30402fbc009f3b829cd1c782707817becc81c44a6b2644d5f864ac0ab4f, 0xad9454d87b96ca9a95b73e657574170c7bc68448d8f57715ecdb425a3cdd729, 0x701614f4b29a6db4861e30ec2c5e9d6ae9c946d12f63bcd91c21a5719f2f3418, 0x3ec931e423eecb10382eb6c165a1ad00acca909f43214b473cfa834de8109cc2, 0x2042b75edd068d26d11c6f70f895fa6b717425120d8bb839b596b61719984c2, 0x5c7f71f746fae6d6b58dc1562025bdc623bce0eac7dfa5debb8692dfb0046e48, 0x354e65a0f2d10317ec36528aedd0e2246af9262aca72e692bcfba57e938d139e, 0x4077a260a3d4f551281bc4ae29259442cd255f6369c6fbf65a27c5e6fcc51c32, 0x296649825b274624f1b5091de37e2330aa38884ce7a13936da841af8fb7897ad, 0x684e36311d54fd55e311e251a84f3ba2aa2edd33afb90fa22481044de6562e27, 0x5099cf7e723f4af2674915a06154af217c3641833427a8abacd0ad7d6546ca10, 0x1e889fb4c9cabc0e4b415f30935f5a5fef691aeb9f18623dc74c5169d68372fa, 0x65eebce90fdbb03934a8ebf846d1a8373b14cf059d6d72f9b495ec35ede8298a, 0x2fb978096dc1faa1f112f2a7b742b6d83574e0cdc982b334bc2df08dcda8d07f, 0x393339a7ea9e1c1a72cec7353d6dbad98761d6e29cc3c382e19c3566a8125cc6, 0x4c3356b7a878e0f7665e12429ed1f5f14333ade25906feeee7e1a10edf91a532, 0x4195697c33e142f7ad25c299a858a32b3ad8e7b659d65b590d65e5dad04083fa, 0x1e800a55a56ccb54395d12441011a6d169a70da95de648bb53bd876858d0b2e9, 0x2c087026d18e836ad10d049642efb4cfc4fbae6d2026c1a5ed4d9edd2aba29e, 0x360ee8766cb4cb90cd26f3834ee4783fb823c463e43761cb5064cb59a30f1f37],
    [0x3dd414f92742ed7bd70dc88cd1efeaad81febddf77769776eeeeeeee66666667, 0x28cdf7d4741598edb0cfc398bba2b383b40fcbe7af2b2816c0580910c294cf39, 0x2c23fe6c9f2d30dc08833a985643e318eb7ac34ae8e064b487d0d3410b9f9981, 0x3f33744320fc4d2b1c51e5da003ec380f41fb75c73de73122b5f0ed3cf888ddf, 0x69856750bb462fced7df5905e5a49fd53346a90cc1287bbc7c91c9e966596ac, 0x589e714c250453f0680f5669d0b0cd8937b244dbb0cbb79b6f527923fff5e0fe, 0xd340ad0793188cc28351031b202a47caaf83dc1a381c45362ab9844c384438a, 0x1cc9e1fdbbd2dd616b7c67464b6882235495d70f16f9ffab605bfd672ea7c70d, 0x73ede7782c5b49814c922d22f44399ee253d4275d72f2d457a3711cdda7fd96, 0x17835eac248da4b6440f1467d8a7782c12dd068b628a6602ca28232070678c8e, 0x295209e6d6dbbaf69c229465a6f0688f83d9fd58cae895428a9a1027cf78de68, 0x335ccfedb03b7c9cb47569214419024c481004e0fd9336d7db975831914a1028, 0x1316485101bcd336f178722b901c4777c9d543ad55de2091a08d135d49e6ed8a, 0x3a3075181d699d889e8aaf61f48a01ca78f5cdfb22841dd41c60886a3787d25c, 0x45c62678a66770ac9ef8f077392b5af63762cb423054664db02437c214a88338, 0x48bf3aa32defbe68c4b078904753edf3f6701f5604d29ce6094a84856d9c905c, 0x122fdb3390a074c35886928bc4c1c588d9d642e7ebe8d49dc7282eccf4a8093c, 0x3f666886dd4301da957f5bd67b2b4c631faf1c43e019261995c5d5392964a99, 0x5c06ed535bf3061e09904f915482d3fa07ed544ad078a55a683f308f30a77aa7, 0x5c19d5b7831cf81f9281d4cabe3030992e39af516e3cffdd0675d843060b5613, 0x1f5621899238a482d2d201caae31a85243c636e78d516bdb4b1cd2d193a39dec, 0x73b91bb986f82007d0bf28de303c516582ad871347f057eec9e60e676b734cc9, 0x45594adeb5f39ac6419e3b1e23e7bf1b0a2cadbffc1d4a36032111f407c25bfd, 0x340b2ff06fa79633b323768b2d2682a59dafbabbb82fbd0b2cd341ec9884c8e9, 0x14dc83cf2cdd08d8bc8d77cd8c7f6d6a482c1b2b0c118aa442e47a3127374189, 0x47c4cf2d45594066f308424a50c634e3fcb745eaad0e0e63efa13c0a07006801, 0x10c0a62c64624a7bc4392c44a64e0de4c81c745c6b965a37e4fc9a11d5840b06, 0x6e8d04168ad23d2e48295f06263711e269db5b52ab5672f57134fc0b12f61072, 0xc42c405db8f2624a49428f12e87418f540e83e5cb372c9112b06fd9ecb59c6f],
    [0x3dd414f92742ed7bd70dc88cd1efeaad81febddf77769776eeeeeeee66666667, 0x135570752fe961c9113417f640271e549fa23e4ccaf26d3c801a54bc0b335d27, 0x4ca4d8813d0f2467a4a588f4e46cdaf2343960c6f4f459c17db72f57c6053344, 0x2ad94b8b44ff05b7a3d2f36254e59e9136fe0aa5e71a923a4e94522d719c25c1, 0x682b09e62d84576bcfd327f342c7163f376077a6e80a5b2d730d2301415ac2af, 0x334193cc00d9352ad782e347b5415b843426082d996b0d7ce719ad8aba20bbb1, 0x37330f6b9bf862a89a0918adb4152e7cdc33212681cda0192395ba6823503c6c, 0x66ebe14fd9808ecf975bc93bd6ce80c6837750352517b18e98a1cba9572b5a96, 0x700b029e83042574fa098bf8cf6a6ef1be510d2a06e14abde598c4f9de819697, 0x236c4997672cb7b007b921c0acc6cc252d5ddbcf37d4989862ba0eedc0d17bf7, 0x6dc39e21de9610f64879112d58f58ee928a2111f4dfc792597c580a95e46bede, 0x25201ea2a26b9cf53a4d1bfca245c7149bed8ced9bebbb158eb726a21334d518, 0x61961136fa42c05cb6b5a2495aafdcdebf1546ccbc5577d0517c98920eba159b, 0x31a37049fc3b294f1b4d497a00e0484bc7e97122e2567c6fbc1133430b18a7f5, 0x242b314ccc733481069eb2a9dfcf0eec10a7cf9de7df2e2f86470228f75ca686, 0x26c4ae3cbe82e30be008556c070f291b44c3515c67b020e05e9dfa91a630bad8, 0x1dba92c155835879977b9452704b3bfb9c08ef50da6da96b2a3ee3224614ea57, 0x72bbf2b965416d439409099658e5f95fe30415974374e1f68c37bca372720d2, 0x47fc874bb4a529110dc96632f66725b55b4ab85830bfe679ff26f4fef670f2c2, 0x5c58a411565bd716afeabe479226c038178e2d511bd49c1d6a001b33663d756, 0x1734db9195bec7058ce9673586f2777314af6b7ea16aaa2e9232d6151488e27a, 0x4b02a6dc4b2a3e3819eded2eabcab938073037b2839372f03a302a203c10e707, 0xb4b5ae8f0104057641c3f7754ab9cebcc876c6ae775fabf946d7bfae39c62be, 0x1ae080917b8ff5af64a984c31f9334414d7ee710303b93d47184daa23e10577, 0x157c5fd43f5a49ba2f2e784ef44eec3793fdf74886d8aec4fe84e7f40979bf4f, 0x2d0b8520c037fcd201b225220ad895f296245d5109ffccaa476980134bd3b53c, 0x37281737bd2aeda04c9f171c7e6d1b3cd400a22cf583908dfd443c588fab70bc, 0x49c484c3b93d48423d282e0e606b0472201cfaa9765a5130b22171ef6adc0e44, 0x249659ca73cfe48a36e6f7efabd714aa585f13be224fd3e715a168fc7d9edbd0],
    [0x3dd414f92742ed7bd70dc88cd1efeaad81febddf77769776eeeeeeee66666667, 0x5ad71aa72c373cf091f168d0901e6e88900eb00b8d62003d185ea1393ddf5065, 0x4ccc0b805ebcfbbb8712b053d88ee647368ae61842ab1ee1d0c9d6ca8773701a, 0x46b05fd1c6fc30e9c6ef675c1f72aab80b557fc307f817a681f31ee5e6362ffb, 0x3d4594c7896eabfac308db258f69902ed6bd48b700fa12bf1ad3da1d66fb4825, 0x23031a8a3cab682963c18c825784616607d18b658c0f1876645922395663644c, 0x632cf87aab602efa2479266964688a2d8a1bd1f1512dbc9db8264212892b713e, 0x6c7cd6f74589bfcf9ff4095aaf7c21ea5d90dcfc8406b852624f2a0d80f26508, 0x640a6c9388db7fab28904523963f354f3642960353e7f19ec80557045cca4909, 0x4b4cb89dfe131ec98ca268af3f21673ff8d6b3b77802b3d4749decabab338b79, 0x533003e61deadf86230c8431a839f31dc36562f2f64912c5b2447bc1b898e9ca, 0x2c6a1b974149d66b7ac898b126beaa1c1742d37b1432a2a0ffd0ce2dc78bfba1, 0x47d79c2a747690087649c3331311d4f5c1321b7a73bc271d7841937c65a422a8, 0x7001abeed879421bca39c1b503a1ca453d3d14924b9b690d089046e508a68b75, 0x369bda1d02cae932df92730bd0f12715d30518de6d71a4c5125adc2d3cbfc5b7, 0x60af515dfdc345468e9d3cdb7e3106c0228f83420547890329144e82b3f41ba1, 0x1081f82e8233076be6b9cfa4595ce97df08389d2fbb6850dee4fcc8ab2227933, 0x31cc6853b8b9450739f19c2afd0482aca1c503443dfc13d5e3c8bb3f0b347efd, 0x12cb35a7e9234f121e4c5429e30640098cf53505a68b1ec33e751ab64ac52170, 0x5ea41013c0a7642af9fa2287bbd8a4e5bed19714d31e6ccb43d4f252e81b9c9a, 0x14b2f710d7538658bbf813da496e19f1216a478af3ac2b0c95c443356514965c, 0x34fd09eaf3e2a5dd230bb6be13729faa56fe45fe672f248efa602ce19ea8d542, 0x359365c43df433c657c5e806850f30b18d061ed7abc5e2a1de9112a87a04c271, 0x2fea182028c98f0e0ce7f4816a6815b4721f49ae8c636cc0ef6e0e75a76c2093, 0x3420d8f0674b21d6d4f071d085734cf0c6600a16ed4a95c1d5eddeb55b3f9ffc, 0x20997065d6c77bffcfe6189cd42a27eafccd51f8169b4f13640c392162547f99, 0x1e1ce40bb17660d0d2a07a8a999360c2eb4d13b08c9e214c5d563d7424517a1c, 0x160ad8253d2d8a7be75d87ceb1dd75f7e4926ab23981e18f1c24f3861cde54a9, 0x181052a5ccdeaebfc3e1d1064cbb61f2a0714b53466b7e81dca09161761a0d2c],
    [0x3dd414f92742ed7bd70dc88cd1efeaad81febddf77769776eeeeeeee66666667, 0x47da89a78e6f0b48555a04882a51c9b8b18d499c0f2ebd1f519748e2817d1418, 0x37f178dd79fd450eae83200d903cbf9b28d2941525b6d05de9966cfb5c07d843, 0x1b35a318d5ba8584f577356b932f8ccbb4e7e4ecb88df6a28102bfce31dcd8b1, 0x6b17ae6f119f337d76c4e603cf4649641f321997c69604abefa69374cf7133e6, 0x580cc0a35d7fa1d72fbbb1d52d2d9f046b4a6db01c13e5bc40df5b57b5ddc419, 0x51552406c08a83705c78b4552a84dc4d3686ec2a773ebdc9147e137a584fd28d, 0x33d2178d365251fca8ceba2db36072c84243e95681b59f9aa8f6bd2d4bd13321, 0x723d07f437f8d0d14f94a355c1663c0aab2056d28b696ea48988aec443f3d21a, 0x581475e349ca598155d34a7d3cf7e5bf927a573deaf98faae46994cd84187fc2, 0x24d2c354391918f3fee9ab1785ce501718b96d36fd870c7c2fb9b7f64e6287ed, 0x4513d75e671be3161164a8a8480b433af339b15c2cd56329e420a11a66e63e3d, 0x240e75ed2076aa5a467162fa0233588d21633e50a34c8800e7c826a1935e6c9c, 0x19bf1185d3d6348e63ef5cee6d95ac0d1d8c3c602cc5e49edd404edd74754bb4, 0x49b904792f185bfdac6f93b669bcc98ab588b662fa5afc93e39eb5118e51bf32, 0x5ba09fa791adcf1ef7bcfeaf74c7b12d285ee0d6bee20d431c223910e9a6f6fa, 0x3d59ef9b79891591f00b70c76f2d073aea5233a7914c3dfd0560392d7adf5af4, 0x5d59aa5cdd120c592e7e2ade9a6a3ee04fd8fe1b0ff7325bee3bf37db65f11c8, 0x638f3d0cdd97bf770850c46b63027a56d7577a0a31a8925d5ea89fc8890df074, 0x2bec10a411933df6160e7c9abd8ccb676df7cda0db38318ec3566d7ddd3972aa, 0x707fecc24cb63ce39e3a1ae6c5f2dbb51e4bf4b126f5edcb91cb5bc8ce60a3cc, 0x60b9a464b0594ab26d689496051321df239a35ec30e8c67042df7e6e605dee7a, 0xe94bf140258ed9ff5127db9b7ae860090e196c2a7664a286b9c20f162facc93, 0x4ad30d2e7508eca534783159f1bad660a759298794036ac40bbc7afb3ef869d6, 0x78f56a03227b18359cb074ebcfc1ef31410e1cc43a4b191f2eff527f4ed5192, 0x282235018f6f6a878ca2c1c49c9098a9e6c92f0de5132b1e91bae98c4de00f2e, 0x177d3f8c175ee3a92f961f416836b0ededd003c6a9ba5448d4f63f347a7a4d24, 0xcad6f3e6d32b2a14855e709257fff5b08cae2a2497dd68c386abb2abcfd5207, 0x5b3ed535501eff02fa0736ccc3640392c91a207e521211fb9618917a3228d57d],
    [0x3dd414f92742ed7bd70dc88cd1efeaad81febddf77769776eeeeeeee66666667, 0x581f4405c735448eb5a8e191713e7d03fd53e1ba5b8e6083bc9803d6e67de960, 0x43ce6de061bb58db284853500bfef01a2bce4f4dc5223de329affe8edec365ee, 0x65369cf4786829acdf8b2df371c5da59ab81bc4e18a8ec17ccd49c521559f547, 0x9452a45484f9a90063e18f66b2b355f24b8d881a653aaead769c792962a3910, 0x512d6ce72b0aedc988bdc2ffe26d08a907a8520b5c4f6c190fdc8d702d47479f, 0x6588dac23d822dd98b190c02518f2e8d589b713cca8e0c21127c68cdec90e86f, 0x551d0849bcb7255bd2d6027a2a8280dec5a282e42381f6cb047a85bfd2eb1f3d, 0x2f5c78e899c23e85134ef4320eeadb886d70f92235d89228ef03e7affadf9233, 0x72e2e44ec457e902de41d2d155f63b02320929c3a4272c37cfc46ef41bf31928, 0x218ec197788649a30467371582d6342bfb1befd3ecc4849a0d3c42884f7595e0, 0x299b19a3d304fdb76f2931d5a1d2e1de8137b002bcaa273486592bc010a96289, 0x1d44e447084fc7f8d4ba81525f62d60fb0053db929c539ecccfb42dcc07cee61, 0x3e1a5254df4786e14b501a236e8e50ea6cb695ecace97d6ddf4add665c56a33a, 0x106b8d1d9c97f4696e629ef507ddffb6c63eceaeec70253b1c9eb2004bb2a8f1, 0x59936b0a7f9ea498ad98cb3792aaf820bf38dcc334ade1522fdb2da5ff5f634c, 0x2b092fd3cba833e631cb69a74671af4168f13e3ea257cbcf6747050370567f89, 0x2a88d71e81254b6656b75803d4c30785c5744966ddf353e411c56dd3aa3e6008, 0x5442a6cf3e1d363e4ad813f2599d8f6e435a7ec340abcccfe98f9298ac7be7d5, 0x1dc01fcea41addba32d28fccca698e0432d5143b6543f74de11cfc7913812d11, 0x69cd0541a1ff552e47b286399eeed872b648db9075cdd9111a7f15abc416468f, 0x5f46cbe5e536ebfc1566adc5749e81535b20e5c4916f6ebeb6216e4f2d706800, 0x5309f553362885a43858877401da0f1c47678bce25fbd9114fb8ce2be99bc085, 0x5b0395094526a65cd16b66ef5c1c8bb2d7f91eccdce39158c56d9c1a16445935, 0x44f7181f985971f59b06a8028d5d727e5970cde90480d63eac686c77a99c48c7, 0x119a71f4f4e8448055ee3066e1939fe75c0e9ba5f215cdcaa7b08a7878ef3d2f, 0x4401045be914cd7675463181fd924bf5ce026835f1688d509426954e683d5da6, 0x2d5b23ba05d0df1bb6ac76b004e059ade80e47b99ba04b77d9da53eb385877a1, 0xf4af61787fa0c84a3b369cea0e8cb18b19827189eb886058f2c0818de41c937],
    [0x3dd414f92742ed7bd70dc88cd1efeaad81febddf77769776eeeeeeee66666667, 0x3bf6cdb0b11588ee6e6c9a696f7a4f5f7a736ce507d6e5d8e62040c9b113b4f7, 0x4a302fa5c4ec0197fe895930546dc22a548bb288a506e3b8554bf6985ae709d1, 0x30683dd96144b026647142dafdcec6ebbe3b907801a38f548338585ca3b0b7f9, 0x264feaaab7aa902835a23832954273d31a515141f99de018a477162505f1268f, 0x647d117cf158b6c89299853d74b6fc03359bb0f68ab5727d8e6cb19a38e603ac, 0x6a3b56e77bfdc319c92ed1d35195cac24676a9f74d9c91bda517bcf3f885b2cd, 0x4fb54190ec58aa7f61ec3e3d831a904e4ed4b6f0c0a249e23231b507d40ee0c4, 0x59b5c4edd9c3fecee31bc6dc3ac675231f5dbeb6454ae50f5fd368fd9faab3fc, 0x408370da98d904c80f732e85ce8eadc134a275a03e81a270c65b3dae78d60717, 0x1f5cdbc71d976ea35d65db233cc24109fa575a6fe4de7599ede543d66618e14b, 0x1c13e4d9c3524d00cd083dda1d9b367b13e881350e616b4113d2b3b434d9f3c6, 0x2b7eefdb634df44a48224987f0ca41c35de39538de3bbb269a94354b5f1894f, 0x4deeaa0b54d9737f7cf6952615e8640ae155f0ff4e934ced8f4308a7ab12e6c9, 0x495f89dd40ea540637ae2dd53e27c12055b2ecddab65612d66875b3bd3c1af18, 0x527cb634d5810f9fa8c98b0024fb3e8fc9ea6478f2e6b3aaf6f3ef41fe8f6880, 0x36a6862d4eadc4b70e1cc6e7c591c102d80047d9c1ec4fcea382cd62e1dca9f4, 0x42399eaca427978c7586f595795ea0ba2e1381ec2e4822437c598be33239ee52, 0x60fba68e00620d5a1d8858cf8819189455c6fe0d592a54a5814a82d32b7642c6, 0x3a6fe6a64376cd17304f9c1198b08671225b320204455a89020eb381d32f9c73, 0x596817c6508e5fc33f535479071a0168562f73ced447c943c03b95914498de07, 0x5ef237c976654a6a09762567ad31cf1f3827708bd7a4f064e9a2ce9db4577088, 0x5c584b196993275d851d4bd6b234a5fb027bcc7721a836bdba8488c0e74ebbfd, 0x112f262688f6663695034e1579fd3a0f4ec7e2d84b5ca6912dde28be2aa6713d, 0x219cc6a2f0b0971060541cc2554352940eba65bf85c502cc3f1fdd6024f64786, 0x444d9603908d3df50e6e923531dd4ea0eb2dff23d06286f8c433c0b61d8d9dce, 0x127c82a938ec96e1f1d09ccbbdf37df92b4666868d2c0a5208bb303ddf035f96, 0x1a88a96638f7e6857eb1a9c1e28aa5ed65f65822e37e98fa70abedefbd35b425, 0x4a40e97e2887b3b7e4c6377e73464df40281eca48d8e76cd4cb58cd3bd12acaf],
    [0x3dd414f92742ed7bd70dc88cd1efeaad81febddf77769776eeeeeeee66666667, 0x14409a85a17c11e4633888331a6df558d31d02cf409d69ecb693e5b21a8661a7, 0x3e957c17814e45e1887e9f4ba4ccd37cb6b1b25eedc1336536f42020b5d1fd2c, 0x722ae56c8bd6cc52feac625c3eb4cfd423032b130f1a5135737537e91fefb5a4, 0x665d71043463727f6e9c9de779dca2e1d9093faf1cb7c8303eaa3f5814f4e7cb, 0x1a87be865c69818806e81dba7a0305b1670392ae35d16de5785517b2554b627f, 0x36ec30d128ce7a11b395078942a93d38b852ab2ceb99c90aef5006e0d593ea35, 0x6ba4320dc8064529d3caeb8b5b25dc7c97c8ec61f188076fc7719bc0fded52d5, 0x2f1a26e7481008c5daf3f23436342549ec520a7749a7e6b8cf23036ab97870cb, 0x2ab20bf179297e1f3330ff67c599cde0dea27f9c7e37c7b8d0823314c7826d73, 0x432c5d924400622c88a3bb333cdbd9ac36ca7cebe55bc311b2dd90fc9f0084c9, 0x489937ffe421762934bfd0a238634b464bdb412142e9af3ee755f743bb376dca, 0x5266ab8edc139799966994059d1798f3ed7a71d44e17d0434c42fae96d304256, 0x1448a157bda7c2b78b5044f0e2a13c7baf1bfc65dc44c3d50bf0833eb9bd2c6e, 0x63a75a46feff274b2a4c98c3bab5346781c551d3797e16cf83c6e48d5c698b67, 0x4fa4959f8ab7e434432e75e7e873b03c8e520b30ec38f3dcbcae75b96067beeb, 0x5902a1a15e157ad7148710cefb0fe56e4021065066fc7a175fa3c907fcc930f4, 0x358decb159a831be3b8b8574a9c6af246fe9958ab89eb7d4704ce43c4c34ad03, 0x4758a00df36704909084b5863b673c95dae64b20bfff3af5d6a6635ff96d447e, 0x72e37038052dd555010efb9ea65ccd6bbe7614acfcdfb7c702e1f219a1f064c3, 0x5b72f6404291773750656fb3c08807dcc732a4cbea7ab71f2115276c1fc0c0d2, 0x1ef537a05a92b80ea0d73146fbf3fa6db535063ed615686302075d0d186b6fb8, 0x3f97c97f2a0f6d3f3b360d58742fc0b9efac2aa949195405d9081108625dd43, 0x6cb3769f69678f205a8909f25fa8f90d7d5a353a2713f3f454e5eb9723a7d41b, 0x4f7ad82ef6aea725cbe828c2086957adcc612de5488c296923bb8c40af77b5e2, 0x1d5081e80411e9caf5919561ca5d9f1f30a7703018e973cc0060e38416e0880e, 0x12aba0e3db8cf799252ed60b79eb4d43039c601201739fd09999f97dd5bd5546, 0x4486674b8978abe187efb6cd699531e66453e0854596668003370490c9f86d9f, 0x5917130fd3c3688d9ef4bef27858966ea15f5ef0a7d6d1a34d7bb58eed7c3593],
    [0x3dd414f92742ed7bd70dc88cd1efeaad81febddf77769776eeeeeeee66666667, 0x4d32e14db99eb0317617a68f43ed711feaeb136e799013574d7cecfa176c40aa, 0x6bfd65548b471f052fc7e0439a6dd3e44557671a2ea8cb7b3d3609c2c0b15fca, 0x48a44882630df7e87519eaad78f77d90375ec776edce06ee10163006c84995c8, 0x6a25a489496f8ad3b1215d9b6890f0e3fef82b2558b01185a37d768223a97dd7, 0x12b93ca983b2650258c0002131db58803223cbe5fb20a6313e670ff06940b7f8, 0x2bb4e8cc1c9afbb5248659bd506e77acf849017c77bd05e9e62b1d29fda5ac13, 0x4402ea8464582a184d810f2dff36db297aa507edf7bd51f5ca4db2531ec16046, 0x2861e169d15f0c484f74aaddddbcc1ad9768ff07a7b86a19029c0ca784d4f9a, 0x2dd29d208aceb27551773721e26bc47c2cfce0f6f848e9a0773c8d249b808056, 0x217e29406fd64141ab4a4124e4301e8dd506a07e36987cb7426f451acb6df7c, 0x516a4b438d630fc998fefc4d8c47b4114d5fece99532d412c67f8422404c7433, 0x69b58a0afeb16be8dcbcf45b5a8783afc61b99a327284c1d029d263bddf62396, 0x3b19cdfc4fda1f2a3bd4a34bf0f6a119248f6125e8c51f74510ffa62d98fe808, 0x26c3ecc0777257d96007cb926bc5b0e7bb5334da00af1a0312a601c988f01ba9, 0x615ae977c9000072c04778c81c3886439b9c284e2fef375d5997db6c37d7513d, 0x57e57179aaebee562eb7b4c1bb4c41c387575066b7466d1399f978304c979deb, 0x250a9c8acf5862b5f7c0fcef85cee556ff4d91151d3c67f030540bd6c48cba0e, 0x4bce824660cb98cbf745f10635f97f5c71904c7f93d16a2d7edee43d5d081c30, 0x1eb0f7ac39d35ed13ee77f26a1b94ddd9ceb73afb30cfd9889e07a3cfb52d123, 0x44be5bc18655d7ad93a8862dbc995ce6cb912c0e91de0dced9abb572bca71f24, 0x685fef73b0daab3e432770ee8a4ce1e69cbe865e746c9dacc92e18c8ff61e308, 0x338a6e72134051a66fdd3f6310c003ea3f4af4926b381c039b281cfadf0d1c9b, 0x4fe1ff1453f7adf032528a3ae4aa677bc991ecfd9babb69aac872a17b78cb672, 0x2c2df1866d32e5afaac562e0f1525d70feb34163eadf807cf04e736a985a0ae7, 0x54bb49a794535e808ae0be39d2676079de5a6f50fbfd3a3f2f71f86eb4953d21, 0x27bf2f2cfbfe4f5872c573ecd86e1a6743fc43d6d2ff54a7d7aa7d0cfd2bca7f, 0x557954cc226ff624f158fc6a33e447b61b06bb85ba38714b3a4b998a70bb7a11, 0x3acb5a075bae0726ae2ec8d2aba8c6159d6862fe1587974fa60562670e7083b2],
    [0x3dd414f92742ed7bd70dc88cd1efeaad81febddf77769776eeeeeeee66666667, 0xc5aab4d33dba029c39f1d7bab2ecc04ae6be1a78067ea18f320d5c31f27cd63, 0x2142a055870f35991392cf301f0f6013afa19e5adbaa27db1a4832181ba2ab47, 0xe0a4fdc3c6aff4ca6296576c8e8c4e61fcac50239d8c684776dd43f5d800ff9, 0x3c63849d7574b3515c3279c9cba0e0a4aa467d5fb7c5d18a5de58d721b93e6ce, 0x67effa75393959aedaea84a6f247aef39796d08ec617bb1a1d1ba315ef360d8f, 0x35a5ceb7981e385092b97f7df0f0acae928e8e9b462cab3eb29f277ec3230eca, 0x6600728ef81ba876b9b41127a3f40521d056885486552c67a48791629fae2004, 0xf96a7d08ceaefc2aaf2d545b39a9c62306383bd17671e6d16b27912a701c5b3, 0x13fa324285c4159412ea4c65740691d7abb06ec6442787fd935984841d6e17dd, 0x6c91530c74d03648cd533a26f29feed164d9ba2348d0a7e91467f595e839ce15, 0x100ae887f02323b6a2cac859d7543f70d2bed678bd9a5c35b663319791dc5485, 0x3ce5416f2c407081a3734619194f9e25ce4a06ecb7c17848cf856e1c3ef9e2, 0x69ba27662c4631e9673dd67cf68c1ca32f7e417090a5d5bb669f57eb29f6b072, 0x16c4063b23da813b748a98d63050cbe07314089780649831e66be15ad502459e, 0x36c594fee27549bcb48548fff941a6db386dde1e169dcf698a15d9c50a59c9a, 0x5514179d52f199d5b353ecead5c26bd548bd53e8b1ca65247963e1b60f0abf45, 0x64a71da5121e8df22f5fa35027fec82c4a9d62e4f28600c66acdbf12d176c9a6, 0x5923626e8a52522641ef5335ef1c776ad2f3302b0eb3089b7e626f2415bb732b, 0xcaafecc68c0a63eb9b942aa1509dcdd4c08c6c72e6aa88ec75afe278d2a2faf, 0x57b0829fe78f0aa96694d8a64cfbf15817f7beeaeb2cfffff54d382aefb3e1b6, 0x403c82d6aff9a935ec54f3e0f384ee52902c6613dddc45b04e836634b716da49, 0x5401294e948ee2d16296b8c8a60f712c97cd81befc0859e7fb9d0f2722dd5052, 0x63a22baeb6391b3565b71ddf023c88707a7b405865fed1f20a3c4206cbdc696f, 0x159d39bcd78df7a23ca201baa568749cf3958268687338cd09f48a534cccfa5e, 0x71a3555d4d47e761e6abe13bb8f36b221ee5bf024e601e9b6395179e597ed9a2, 0x402923ef23600ce33143a6a6bb91c1c2ee8089d45547b866b2cfb1174f6ddb55, 0x14cd2658457bce9cbd67b0a38d907b97315b9d12af4dec86fb41386d01b7b833, 0x641962d5b2e0d3d68af6e24e65ccb61bdb34ddd6e14695c3b77d4c5bb129a24a],
    [0x3dd414f92742ed7bd70dc88cd1efeaad81febddf77769776eeeeeeee66666667, 0x1779f99c897d1009e830fae24c47649be8712e6b45cd31d9fe33e2133a752203, 0x6e9314939d82bdd2e0fe4333804be8bed5260cc055bb0220be3d3d0151c24375, 0x27a861686bf06b502fc37f5e3492a5a7c55d1dc1134b0cde5e623601d9539175, 0x1cf396fd2c33fdc123c4d19ac5eb2b8b5310957169e52523d30635afe4a1b841, 0x424d316584b8edbfe813d237d708a0e7de4f22463604f4ea04eb99e03dba1a61, 0x3a48ed5fa2aff5883c784cd80d9883cb3dc54831593bc92c5bc1503388b928a, 0x300ecab0b84d1495a79362cbe2ae94e7fb035bd0f4c8bac875839f422412a645, 0x698d4a1f7aef5964f1290b9e5ab14d0cb9130f64544ff3bfa0a6c0dd36d9515c, 0x4ed74ab0407a084206bc9382b4277a26d52700efbb2b264264b819918d57dfae, 0x440d1a79aef25e161579bd82be8852e67ecc9c7308a93235cb5b4ebba1067ed8, 0x30983c590b72e0f984a159ecb369dc4213d02a3ca6a552c3d45cd448ae293750, 0x64245cb2412050f96cd3a91bda72f0df7af804b7d3743a158a6f34ba3a8efc81, 0x5b7b02bc7370fb8869acf84b15c3a4a5ce2fb66b20eb872f0a9d5dd6fe5e30ee, 0x11c72d494aff4ed0cf12e0eadc038079fbb2a50166bdfebacfc8da1604ec5ec5, 0x17969178b62dc09889b0734518e069d748f6a56b50e9ae5f6043237499a91214, 0x3a9587082f455eaa79a33cedc2dca9c8c795fdaa2685db35cc76d9e9d63884f1, 0x509f2e115d060f03e908f576cf86dc02a8d4c77f2d6ea5565d62a17bac4b3caf, 0x6f841aaf28e073dae9da71cf094f722d596de0dc2ee05f8f2b57dc44ec8c3236, 0x6265fa8e7f2803db2b66cc91ddcd8f9715d4e85adf350941ee3c248dc030dbbb, 0x474cb1cbf35034e807cbea03326976218858b9eed871a1855d61dbafc6fd5cf5, 0x177342f15b67d5707854e0d3955b43a5c222208f1d2dff0d176d477f0205b8d7, 0x378b5d6dfda96beec708e403cc8666c232fe408ed8d07b3109545dbbebce6863, 0x6c53e55128be71b09a65fbab41990fc07e7758a185cbc72d9efc0e3e5a5f34a3, 0x63409a6d48a196a8c3d275e54f447ee4f0c60b9ccaac1a2cba0f9cf6f2e385b2, 0x192802266ad1bd3524e717ac23ace0ff5656a883db0682c0c6ab18d210f54c68, 0x7c6480cc6cdf95d24283290a25fe68b95e210caa06f808e2579954208a04250, 0x3d73885d1f1c95925c923dd5572ed4e43c8e412f0fb540f624fd96dbc1e2a00f, 0x3774972c840eb517f54e74df7bed5e172f601f726cc3ecc0decebc2f7f74d2e7],
    [0x3dd414f92742ed7bd70dc88cd1efeaad81febddf77769776eeeeeeee66666667, 0x11d77209d01f6b22fddb31af49e8968c0b1209e5f1114f620db9caae59f36dab, 0x1f36890680b7805fc9ec69d844a0729c5698525e1993afcd4367c88e213cbce0, 0x6ffbea6886b3623446c50f17207ae57e70e983e336a69aeaae555dbbbb4936de, 0x7289e16ae6aee538180215118d92c98d56c2b11b3138db51e51768a428ed9a6, 0x5573dfe7ff0328f4d0d049e9440aaf7abddd0473076cc4cc6fbd3955f2ba1731, 0x4a407a950c5d4df2ed4ce90c04b95a81f75f82004d3d7389d0e5b972b560abae, 0x48d44698b6bc10a9f1bae8246452cc9b9129eaddae55dac0e80d271d2470b8bd, 0x66a53eb243f8d1aadd251132b2ddeb8ee60709024d80d07916f02e05d06ba5ef, 0x57466bff7af8ab125b58125571b2235bf6936b1e9f1c4dc4d3730347c6ffd7c7, 0x1fe5d56957d8c7e3ec93872c91704636b549c2bed8fb5dfe8211a3ba239ad25f, 0x1bff58f52b9ff096630808bc3bf27511d34e131f5867d3331c8dbcd96fb995e3, 0x5f519ef24b9ed152be1e19dab2c49957030818d54e8a0623cff7b0ecd04b6338, 0x3a7f3372b2fe72431c90a17e5dd86b0d966bd3bd3f5892000af0f2358eaf13bb, 0x2243a6fa277862a81244b1d7b775873f8c1236799d82efcc747cc03f9f7ac458, 0xfd093da43025d4885a976cce16432121ab5b79867331c2a6a4d90c4b5727821, 0x51a0e745cf766b30e58816db869f5a573a60f67e8db02b834659777caa808f57, 0xe2a5010e452633ae9f8582697102fdadabba11830429bc104a47ac29216fc8f, 0x2c192f0349848db858444dfec16c3b1b8d3c8e4fcbc92f7b4787c46c02f007e6, 0xe04d94fa09950b0c291e3bc39fcd3d432a06d99cfe784ddcf4d52882c933915, 0x918af48b0fe47eac7e7ba9a14ec2f2f81dcd13446087255aa096c6901cbc436, 0x340d375bc4fd9172417a9da05c2733f1e54e5b737c5e7470ba85d3b457072927, 0x33ab0bb576a5328914a3f17c1871dc5c07fe26c4668151d3d86756507384b985, 0x16b34f6ac557c4f76f20ffcf57c6d1f90aee7351a818be8a9761a795718480b8, 0x227c1ef9dc2212b06fc8bf59992d784549a401b5555adf8d751de97c682f08fa, 0x661c8543e04a8ba1a00b400749e18beed97220de7e7a5bf405ee96ffc081ce0b, 0x1e59ad26b06cc495e36674c130332bc12f949244b390d9529c29125a5087d8b4, 0x18d372d54afabe98dfa6ac93eaf35a2ac30e405ccbf3024b1a9118aec9f701c7, 0x591fc0cc8d6581ebf5968c86a4ec3edf9930b7cb406425b67532219ee615500d],
    [0x3dd414f92742ed7bd70dc88cd1efeaad81febddf77769776eeeeeeee66666667, 0x5d77b9d6c2522df221023e358080c70df8eca02ea7855145e8d4f4ba643428d5, 0x46919d56a6e29a3b61825d03067a075feb8a6151b01da78b90f2b42642281bde, 0x1ed1c2ab9ee4f95f879658f8272203c4e22d0e4d2d3cc4c79b9c945341f8c47e, 0x53791fba80251b7ff7443f342cb349b87303b461a7c089ef61959c7302562f5e, 0x10dc12040c94ee5592675cde2b0cadd2583bb4fa76da8e729f9ca6b102078d55, 0x4ba7e67ea07a3e2d626ea01b61cb05f779cb679ba119c74478b5a744c80ba, 0x4cd06b7e0102e91dfdcabb961fb5bcdbbce28b31cc59ef6b2b4ab994c701116b, 0x430efe57cbcc162d5f6d3b6e5308afbb21bdf47c3756155390eab9ef3c1c58ad, 0x5fd2e6c83b9e21d144a4bdc217d8e1702b40ff3e4fbfd9f484eeb1f0166c9742, 0x381ed069dbdc4fa617bc38f826ba3647f432ff895e05fbd2e6d9995d8631a455, 0x680ed62a6630aca54a6e0c94657cbc9be9ddc3f08ff3451af2837756f6ab4bc2, 0x50b87e1ee6489e37ac6481dc568699e617ecf5fd4701e9e08251ead3166843d2, 0x184e57c45264b7e40bf3f3e65e31189ba4b37cf24c87c8894a7f22b8ddd363de, 0x940db90025fcb9c4cb12e44cda6c669f554cfddad621f32c55923f94316220f, 0x3a7ebe3c249c2bcff71926ddd9f1f7d676193cb79c101fd7e7f06d5d986e6fdf, 0x40f8f8b0d0094cf698823713b03a3abf992f6d9323d73569b069855acc0d483c, 0x566f069d2cde9cd5d5aed2439451cd4cf7166602a5a322bde46d62a40354418f, 0x8f6295d312992a84076cbe086a5f2df125f28c0771a086e8b400bbb47433517, 0x23f81638ec7042acd2c0fa9585d17c1de42c38e403de628ee625d3ee4e2edf2f, 0x3be94493cc2d07d7ade6277416e78342a8b3ab121236ecb0c1e6549aebf482a0, 0x2e7764dc21869223c9caec7bf8ff597395be80a94dc6bcf4a10cdc8d904de13d, 0x63a66d7d50c95530e99afe5af4ce5d703e6235c72ec2bbb3f21bdb97d8fb3f5d, 0x4a833a70d243eaba8e22a335ebfca9737b9606a3cd39362c65fbc45c79d1f566, 0x41d3c0fb223c2d81840c00d9a5498c0d98246abaa0da793a1e5709273cafaa32, 0x44bb6d01a7fdffcaa2c64611bae79205ca2befdee66110f9e5757102ec5a74a2, 0x265dfab5dfe805b38f6ac788c5714c4905d04acb2abe2021fb8ccbc03ac51060, 0xb0b32220ef355d936df53aaa34c6b646c71f09e1b1806b0a8c337a6404ef83b, 0x4dfe3799800321adb7ae74c9732e09a5ca125145640468441f58fcc06d33cc71],
    [0x3dd414f92742ed7bd70dc88cd1efeaad81febddf77769776eeeeeeee66666667, 0x6165a8ee8d6dd682edc18a5840cf7c7930c3d0b4ebca9c608619bb34a4c21a7d, 0x315d865cc19069365ce175dcd497599b67e490200a5229083e4b40247b0165a7, 0x5c58a6684bbe30af6b83f24eb94afdd37ba4277aad0f398e24dfeba87868e20e, 0x37184c916ec00c2eb065faa4ea7026edffe1980e25f59b5e9418eb74935bdf81, 0x51fef59752303e44033649535006c6e400b6df98c38a8c38109f908e497096ef, 0x3bb9b4e1b6df12e330939637fbb39c70dfbbb64a8794423cceb0b2a69ec1b778, 0x7375e4c3c75613f2e6353803aaa1caf7385a36827769d28b26dd839653f22a99, 0x446d1da3f935268339127896a423dc83510198e376a305a0a7f1cb0eab8831ca, 0x7bbeafbb2a522b9ed4cf49203a4c98fe1a62a0cbac316f2facbecd5acbfd1da, 0x2bba9e38775a3a9a5a1c143c360cf2d26c3f4b266c5587467beff5b3f8a8b8ad, 0x501ddd1b88081070fcaa85085ae7d80dbf3aed5e16a1d91c597a71cd53c9ae29, 0x4c742f8e4c91a5d58a2365d2d7ed8f15fe0e15cf75ce0f58dfa810a0422e8a3a, 0x6124b2d0206342ae40698b447c675f1f5d4036b5908daa29ba4719bc75838adf, 0x37d4727ee60fce6af61a63682b9a4140a14c7a164295ba56874ea8738f70eeac, 0x5fd0bfb2be5b9fe7148568380c3e7b082fb06cc9fac3f6fe59c23255fbb16d64, 0x22a439c1222dd740964376f4ce804dfc1ed74baee5685d9cb1a47deb74a7cf67, 0x17185c73530618fee33778f61abba5228064f5424795878661c4143368d927d2, 0x42a9cd44c2e18f42b77010853c5990fff9464154e973e7c9d491db57ed3f390b, 0x4a7ee2c90c3313feb57bc4c06ad137b30948467a243693c323196958baa91e08, 0x31f7cf5c197d285710739cc988e2fc4764713966f5a1245dbd24f9fc719ae0d0, 0x3245a3be24654ce4c81ba2b0832f8ba596820e29c7444b2a4ffaa260036af38d, 0x9be1f4f5e35b5b1758625884fbf04b3e3f9031ef9ba0c328443c5be869ff4bf, 0x4ff7f20b5e4e0db756f3e2f7f7caddd40036f0f547570cae892d911da12eef25, 0x18daff1c1521f4decaec1398a8a328ac1764d930d776b49d61a995f1505869c8, 0x19174aa6267be7dcc93abe880f27c63a08b85a29995ac60528888f176d01367e, 0x58c3cd9ccd9f99ff26a10d90135243e0ae4180e73a2c07ee524c7ad4f24c980d, 0x60ca2435b152f4df99a68042411f22c086851a7cef279c558315e5847529f9ff, 0x59620b89c59b1c513a163f54c78a9ea9eab74934ab14b71f899b4b13514d5eeb],
    [0x3dd414f92742ed7bd70dc88cd1efeaad81febddf77769776eeeeeeee66666667, 0x2cc67c0eb67ac45d03e6509569782cb80c94bbe0a136e97ecd9a374241df4ecd, 0x51c004312ce09292d255a86c5ac551fe6a0e839c3bfc84c9086a9fc27535ee31, 0x6cd5249d0c7cf616e37e5b5910cdd83d088d32ddaf67230cad865fef375955ae, 0x53b15093b2e968a84fccb3b648fbac33b3da6b1583073e46880da0f2c66a6082, 0x784c84556e9e8e889b48c57bd8a0b7180277d11667612ce187065182f8837c6, 0x2f8373da564b521a550fe808297f6287346e80b9fd99c477f567b0100b0e3aa4, 0x3d76ce4ad4fbad2a511563bcaf397172db93eab766cc17b06129c83bb64d2e5e, 0x736cde06851ce17e79e53e3a4e3be3ae31f06747d7f61520fe6c685824ce7950, 0x6fae578d8fc014633efb6955923e033c5fb4de438c7df256dc04313f35367a3e, 0x3b4c3a7c8d033ab7c3f87364040decca61fd1998366512f8be02f9785bdd7526, 0xcd3bebe3f7289098b971a0d5f3e7aea2d06764934d841235ff60550e73b6b51, 0x2596f2d193206023f2ef05198dcfda74b58c6ebbf1f50767ec8b76e06d38eed7, 0x6544421ee88660b06a0b20275fa284a014bc4b7cba9c514d530b1be1ae64d4da, 0x72023e10ccf1f8d1a93718b3b7c10bce733da33e8bccd753670c037a75c4b184, 0x3415889e14c79d5d6f502dfdbd17613c07ff91e939ad3c96df074a26b498683f, 0x9c8ebfd16f021125d2b26bbfae9368c42f71a64dd56f5b7a6ddadc462e001d1, 0x9c20d0489f63ca238c038e18d44915f827c282277c0f5c810b01ebbbd1bc223, 0x405fdb6a1aacce319db8fd6a3ce8a7a06d01e7f382365b8c3043a731625708f4, 0x320962df583fb0fdf5c10b986c4a012c3624fe510c948723df0ce29c3f7ee5ec, 0x2825277cb2e122d64abd601f13fd7fbc80a7255502995833c0add394edf0dd6, 0x364a398fba44a05b6e2c82476cdbb2173be3bcb076b0d4cf3433614d89090531, 0x1e62d800a52e875754785407398739887db60b79f5ae096a1c9230581a1bc2be, 0x2ce5ea01bbe8be799e133c0253ee0527954b8d564f4a7f2f1eaf7b1cecfaa2c3, 0x2fdcfd78ecf5acb4151a630d0be66828359d65cdd874bce9a7584098b73ff8c5, 0xabea6a86c2b77e340a3067c67263897db58b47cfdfa7dd5803a754ee3a21d06, 0x6485a518c0f500e0dfc57b48526030a3edfc7eeaa69fe8b42c1afaccb461e444, 0x17cf0976e4c00af795ce8a79ef743ffa55f1c9e1c2bdca8fae76ae30345d98df, 0xe6c5200833679829e3b943a452ad1377a4c951c26d399494d78e5a8727e4fcf],
    [0x3dd414f92742ed7bd70dc88cd1efeaad81febddf77769776eeeeeeee66666667, 0x5275f8ffa7a33e86e882292045dd5bafe88992b1d3936a941b922536d225df10, 0x34210c89baa0bd164565778c64b211de2e380e9b2a8118a3fca9b9b7a409ac4b, 0x3e001e7b610971075deb4393098592c132a14eabfa89684a9e7e5211fe790b54, 0x5da9b9a155deba2b0db7e9eaf8829d3542e27d1e70da55240b61f369cd26fd25, 0x1efcbcbdfbafe38d2830e41ee9d7027927eba282ef1dca24af9ad56f075e6f90, 0x54aa07fab993b8c67fb1861d358b31916b44d652f95cb469a2e8cd1d9de87885, 0x38c6987696adf0b0fd3ae82821db78ff7499e9e2a30105a3535076e734f6bc47, 0xc3ed215481865f2e6f4333cec430f0955ac41267689d08a9a30c5e316224f94, 0xf0bb3321954ecb1dd5d9bf1ce5508d8135fca3cb8c85d7413a2a3a9a5057d9, 0x30476837e5e01de6b2d4c3c3c272c38eac318aef9fb72a61acdcfa41fb0547dc, 0x5a99c74c8d1e82184fe690fcfc2872da505c4dc4f93f9884a8c5ef4380b5a859, 0x55c2ec74485fe2da083a226609ed732e682b69d71f3a738fa8a29e954cc799a5, 0xba257a046cd21fd7c438374ab80229fed1dbd1c6171e90133bfe6f786e301, 0x38f889257dc06512c098558ea40e992074edded815056d9c2e291d8255fa38ce, 0xc7bb74c2b61820319a4c3cae68985affc0ef0e8af690cdf6998805c820408e3, 0x174fda574342e568d60a59060f07b030ec741ba7e8ba4f30e5e9b9949b1a52c9, 0x923c14716f4bb8e3912162ab5fbc45e7a43d4cfc63f2a341844292bbd4d3f97, 0x4583a09abb7303a709082879f74ba8c58fcd0dc23cea2be8ce9782117618541d, 0x3d43af0e887cf467388cfbba763416ddec1a2194003b860fee58c901bbb367ff, 0x45ebc413e46e27db5ec7542024587fc3ec8d3a49ddd04289edb7f521618d0b3e, 0x4b13b9bf592f4b8daaac490e889755621c48aa42927e40053b22e650084da481, 0x50833fdb63bf261dbd3b99012ddb0982c44e0b00a103b3f4fea53b39c3a35ec9, 0x24ee189a8b374f33cdf1d12bddd1f3b24112398cfcfb5ce35e3f70d003851a80, 0x15fcc5b85caff03a88ff337c711c220c10e46b4f72f006511a00db2b6170abab, 0x2039ccf739f40bd7b5d634e1e3bbec4db14cb31d53f776d686f870dec9453270, 0x1ebf6ad952c3fac1dd3550ba4a1671f4776c37894b83cdfec5b4330cb545d7c8, 0x61db948f80c8e47af253708dbe17af1c1b8471c42df13dbc441ac880e2727905, 0x5db1af5144176c9f6fabc9f97304faad8470c2283a8064462c4bb8df12930fa8],
    [0x3dd414f92742ed7bd70dc88cd1efeaad81febddf77769776eeeeeeee66666667, 0x32a761d6141c53dffd0cca4d124aa0862a3af83e26d6dfa0cd309306568bc8a3, 0x1a0622aedd6d37451028437f1ffbf4367413346ab7eed0a98df7579400ce155f, 0x4c87ff4f29355988d4b6300db7c93d51ba232f63c3873f24c111286cf66abbfd, 0x3a6cd6ee658fb8385682a897c2c116e7d0fc689eef15dce7b49bae8f10965482, 0x65edae4dcf096476671ff7060855bf8d1bc10e4d91e5f3e553e62f7843e9e443, 0x68d9d4d14a46958c7958188636f1c92028890d09b9f0f6f2b8e7ecbc5b427647, 0x1ff3cab002f3a51a5745c02dcdb38a9b463900a470bbba4bf891fa0df06cbf7e, 0x22545185dd726692e802e21eea62a4ca73fbaedbfe2c2a85bc8a18425f8be53a, 0xd20e48adb29f27ed345ceee8908f89034bbe69f75e4e841688d09e29a41aa55, 0x210b725546baa2c67a39b1a25ea564b2064d925cb475f038d3e04dc4e128ea, 0x6a608d5f5889d255971e2718d1df26abbaa9ea2303e52e3d7945389f204c1757, 0x73ecb37c54223245f71dfc7c9c1b871b3aef07be5d2452e824431740b44bf4e, 0x4dbcf718edd6365166633f1e4f5191deb49aad4adb81b7c4cc669595e6071d27, 0x4129acf873004d7a9b1ca4088d049089129db8fb36831ad566d119ce0dc25641, 0x721d9073ecf3d0b6ac08649b99acb7985f3ffa58cf90bec4a416695884256c11, 0x28af6fec4fb38fd84ec89d595342245fd59d77cc75e597c9b46f7fb367e096b2, 0x14efa68e4c11f1b0d5c256702da624eaf408396d7fcb274e250b18d98bb86d21, 0x245d01b6585337695a1cb8f62902e2abefb2e14ffdc25ff2a87ccf8d6874466c, 0x61d3e4c08f6f3fd005ef338c2acb4a0c3d3da52c9f4f8a463083550e8c09cd94, 0x47a63236603e09af908324f6631ad90a816c14cef8d93fad34dcfeca4e66a49b, 0x4e848db193abf626ab7c3fd749cd778513b66db32f27588863cede272367570f, 0x6b316ac4246d5b89959635ca885487e1f91ad07f76afeb359a304c1cb6548253, 0x63396e686e65e6f79988d1a4b46d6da235f2ebc8bb09f365bfbfccd61337c663, 0x4ee8253b1bdb1c0e4830471a7ac7436115de7f7ee37b8fdf4e8c4837f7498fc9, 0x45a2be7630f49ee764e0fa5e06e6af315718d275c84bdda3ad7686225773bd70, 0x66c80838793b9048f93aaeafacb3425efd8c66472d8719cd62e80be612d8bbda, 0x508495c2a3cc3332e2e7aef5b94840dadebb8a2e9fa8e20dba2812a7d153b6f1, 0x6cbab63ea63afa0f5b6ccc0c4c25a1c95a228ec5f8a1856ce5bdc1c1e93d7e67],
    [0x3dd414f92742ed7bd70dc88cd1efeaad81febddf77769776eeeeeeee66666667, 0xcb8a0a2f7564c7f79e0ce7b44c391f208cec010912488199f49a9896fce8c2b, 0x12d6967e2cf7a85a1ccc15f84c2695ab752378fa358f9160f327e3cedc0ec76e, 0x116a7307b9c6817ab75c870b9455a0d9806a8d5aacc643a2070420ca3fbb340, 0x434ddb0525166da6e3311fb96503b711a4902b6dfd261f628551ec3732a01a5a, 0x6f1101c3c803f3e16adfc12ad8530fdd438c369cc623fcf9fe78c4b17d0f1df6, 0x1853b4f0a40283e6b2d677a59293867ab18a0a47fb3fd1edd0a3631b2026aa1d, 0x41dea8dd0e86d1639e3cd92d713530c1a224f2eac31ae72a7faac0d78ad4b13, 0x142a2beb586ed19f18e2525752e8eb7fa1bc7c48fef32b4ac042d6b043c175c6, 0x47755f4d592e408cefe172fb6adba1d2667bd3b18acf8f9814d68638d6158bf9, 0x412e93fe3e0b7ee461c3d79929864c4d7f5a4795ede8abea2e59c4d9c8b446d4, 0x11f1155588de68e48716b4416d9bb49ad66003c481306d65160ee6702a21c728, 0x1cda3cb2a25b231186322237b6fa4e6efc713df34b51508e2d2f49516a0563d8, 0x5d9446ed929964dce06024a3c4da00b59aac6c920a88881581adb52a6b478395, 0x4f746918a6a38870bde331fd37d2871b5bb4ca4045abea557f9f9c501629defd, 0x5e46bd3c21eb79f457e6faf9d57796a523f9015c5e07138b2fa690c124ff210c, 0x64b96ea65d85bd2355c4b969f129a90bad49834c6669353779ed332364189f3e, 0x3f670c378f36a5654083e81bb721ceeab7b1d6b4b623ed826e3982dc29120fd0, 0x2a9c8a349876f94528bc47b7ef33bf6a4048c11da445dee38f4b8f6277c5c021, 0x3bbbd0511dbdb160e91d8fba18edf1162c17eeeab9baf2482ffe4a37c290f751, 0xb65d35c40578fd9e33e144c4c8706503ecb8655527130db35f60e020f45bc69, 0x4e9df2afde5a0534ed494005f8f58db6b22870502278c19948dcade4f82fdb5a, 0x21101a51fc2fc686410aa27d6fcdc012e07333b92b10ce548088bdfef0734475, 0x385288ab2ebef76c1d6cec205298731211f2e1b11dbfc4c0a21b693261b7f8db, 0xcc0ba8678eea8bd33947dfe063a9ee7b021cb8558ed851028d3d5c2de5b70f8, 0x4cf9217ef2ab2a711fe5c9932bcb49b6acc26971456f8261b0589e7ad85299fb, 0xc46ecd18eeca0b854a1150b5e4bb9c4aa6b4b3c76724529908a2cb4834bc8bb, 0x3d2a3f4f9eb2c7f034eb86fe9dfb181ebcd3a707ae6ffeb4d63fa0879eb2e3f4, 0x42dacdc5aff459df94469a520b1b7b6db4ec48ca76616b2cfae7ce85a2e45763],
    [0x3dd414f92742ed7bd70dc88cd1efeaad81febddf77769776eeeeeeee66666667, 0x32bf332234732c59df1dced9a4ded3825e8a2f293ab229763bff060739b54b0, 0x499c53ed428747a896de3ca946b53c4c0ee202b87ade8b92f133b1d073f9cfa9, 0x2528d87cfbbc4672ce1ef1a73dc7bad8a6db40a729ac2d6f7e18784730487baf, 0x18cfd445fc8350592ea6d67c3a69e4c45d35b437584640096f409f53ba973f8e, 0x3cdc1ba738cbebf7f6014c1a964043bef43d37777ebe0ed1f56904288297922e, 0x36500968a7727a97829ff2c21df4cdd7c564e9a668104f33a0067917e18f2837, 0x27dabf15f8aafb527c80818b045ff06ae1681609a28ab8eaffa7fec6eb215754, 0x712e052b515511ae5f91b955894b07eef4cacaa5037448f093e30244efb174c6, 0x2a4dd5b4a254a4e2e782edc40ae24e5471246b045c9c17084ea577313d45fbb6, 0x6161780d697a1dc8e3da275b4d0e2413d2ca9cea62680ffe6be860784b2cee1f, 0x1fd1504cb37e101ec4df148085e91706979a721baafe4e45d03ca2a4e79e5495, 0x6dbcd3c3684e3b5d34aa1900f08647b1b3191e99abe651f16375dec5a2879ff5, 0x6d4ea82ae0c1216c4f3bf900f0e74e2eec79d49e65ec38b75705ce7efe39c61f, 0x201e8f9bebf1bdfab4ed615c90e10256cc99e84c9dabf063d3c79684cf87e176, 0x69c8db897966e193785de7f8d6ced297202b6bf076225f6c9117bc7b54f34c20, 0x5507d406bc85dd649eda061d713c90e271fc6acaf51cd2ce0f374cb2c1439fc5, 0x71b92f7fb29cfd89aa40d4845f2ef91de59b93ac7121659f88bf429bacdb4a64, 0x18c7b89de7656f4032664342f7a5b1c83081b01e78cc3b81c9f3434dc0021d68, 0x27da0df35c51f3f7cd63245a838e888e3557c869a34b01ed679019d5eab8e64b, 0x50bad3e7a62bb79b70cafbd2c8757fabcefae638ccb1dbfe653fde43584a853, 0x6ed1832f42747e163a6d30cb801ab04626b4d4fbcb799b64e88f3a2edca3f6b, 0x1ccc81faefe1d5b9b9e9bde51025d1eacd5443e04d495469cdca9d42babaaf7c, 0x386d2bdca8afb087e9570fda16fa4fc7df5a2b7666d8baef74023b94a6b5c5c7, 0x645fc037f42910b3b2f86be0b291ba4b3e9ee903f8ac48446611317717c3a474, 0x3f592aab7a77822a89c83f4c106c43bd2b4b74dc2aee8ace470bc91ad0a19a2a, 0x5b8fb4966141a8d0c17c4b206a373b17bf6ba5129c3d3f95898a60db9950ef4f, 0x1b6a0ce96404be7edbdeb75b06a48de3ed7401d8695230254c754885cc6bdd68, 0x612af3a088bcc7eb7d3abfeaaa18d29b254dfba3ff9c72f5314fb73bad49ebb5],
    [0x3dd414f92742ed7bd70dc88cd1efeaad81febddf77769776eeeeeeee66666667, 0xa71d74fdb6849cbc03339193d52a289f3c690567354ae9a5ae0e11877d0a7ed, 0x21393e6d229996c2c593508064874f9232d07d19c9158e81fd30d041fbf3313d, 0x6be6ae1d427a0a6ee375f065958464a0241ca89ec02fadc7d43ed7ca15c7fb67, 0x71eafc67868d8f7467137f421bb42ef9d452def87f250e722d20ff4bb51fc697, 0x68651f50cdaf390ae409d823778a8b20f631e51e7c4b647c72c0057dbae4e7c2, 0x1864242eeed3657381116b2f4f793d976c2681ab7edcf7bf376adbe1894cceda, 0x2c9953f9322fa444c8f60fb00408d32207af920480bd318844f987f69899e76c, 0x1ea23c1b3e5c47714d922df7ce5ec93c1f727f22dbbaac4c03755391a756e0c2, 0x1b194897a64178f0250efa526b02d1fa1b8ca79cf882e3ebcc3f748f2becdf03, 0x2dc046278653b73e198870f4c9c6f6e32b4cc7d700f1665404928ddf2fe3c4b8, 0x37d43bab7b7377a11a2cccfbab9bbeda2d63f76843d8c016e2dceac2b292dc98, 0xe7fd4d1a1e000c978644cfb25f75a68042d83a89bb28385cc10ce90a957f1b3, 0x3decbc15995c26b649a1e353f0f661221115e3e81445594c6ed3e8a4cd62de5, 0x4adf3750d9e229fc6c51f48a58c2f1e33cb8e76405f0b4fd5a993d5969257301, 0x3e0941b6fe90d9ee23cc1a608144ac1d649687632ab6fb70a63589d334407f98, 0x2d505fd6d00243ab017640eca4e04ac1a045cde6712413052ed32acba0f2570f, 0x6aafff53476fcb235830ff826b20eaf9226e9e59ece072213d33491ecacd9654, 0x5cad8033fcfb327ab15f093d84b71f18d4febbb35685dba60958f88df9363fb5, 0x4c1f7440781cdafac75a609e49db21c0a1ca532988aef5ce2d7c2f3f505724bc, 0x3445f9ed7f97ff92bf85d8169309cc176bfd6a2b5aaaffbe7ec3306fb8a52dc8, 0x46e6444dfc58ba7901ac2c64cd59c9fe7fbc5d0abef305361496086cfa025e78, 0x193d7b8a28014febf2afdd6a67e4c3dad64c8f3ed81fe249bedcec667407d84a, 0x7196fa5c4ff1ba9573df17a0ea10eb816f606bef7dfab839d861393eac734278, 0x24013145f6103ee70e94c16a67c92c360f9e4da40c195b50327b97dbd2aeec2d, 0xaab25bcf4f19ccd17448cef8072fb3cbde84c7da2543e81efd469fe267a2930, 0x738fcdb507e811cf55d7b98902f10bc061812654ed04c97b3ac381bbcafbb541, 0x2d064102cf820957a30bf121ff0dafd68a539aa04b745d7e1085b77cc443af38, 0x43bb3ffe33ea7362b487e729be592907b7b16a493ca816b72f657ae71a56b328],
    [0x3dd414f92742ed7bd70dc88cd1efeaad81febddf77769776eeeeeeee66666667, 0x36bc82cca70ac715daf127b38b7ff755cedb450fb3b0a366115a0f300baae241, 0x17868b638b9b85a5067493a50c7bc5e23a7a4762df0f617f20b54c5830c04f4b, 0x453f8a2490ce28588c6dad2f8ad1453e10ca7f849cd953f0580b113f74a841ef, 0x2b8c4ee00b7dd3da2f33e5ceb6c103b74edca1d73f426864bca77ffe3a6fb68b, 0x5b9275bfe68eb856a307f7d64731f898298bed58681f65a5aa084289ff2965ad, 0x2b9784ceb9d993ab4a68813a72e26482a9534ce64c64ac1af5ae54b322587276, 0x2ecfe5045a76d827f48572c2ac38fd27cd0133d447b5774005310fcdca351580, 0xb66c4564f1a279c003a3229c9058d84316a352ca7fbf2f238c37ae183fb67d1, 0x6d2636ad48d7e733b54681fa0933698ca9d44f8e4b5f6b549b4307a23203afeb, 0x7016d943b48ce7d8df6fcb93de1af978cbdd1e33b2fc7e67391f8427be6d5249, 0x1330fa40cbd44be3f19b04a3e0c76826b67309045719a3c1a70e075c5156b948, 0x50839d199d45e69991c9ad2f4a1baaea398356e6e11a89e609e18c2c76f6f04a, 0x41e9dd80a7370435b9712d7d9105af6c3ac51b8ed80b0a0d089ef03fd675412c, 0x48ceb651d5ff72d682c7039fb285d5161596e8c1f7beaf85f4ff337067efae55, 0x526119f4882d32b8b54931d41bd53d10502b9572d54b24e044848259b9377a18, 0x7022066257a5143b6e7a14b21b10cb2e5325f49d032bc8970e365aadfd8c652c, 0x311513e780b28fccc261d5166477c5f7fb346b60febe7d0fe4277fbeccc5d4a8, 0x4eb703e700e4d4923538436e9c0a05246691e38bc70af1e7ff38ae5dd4421ff2, 0x63a4079a0885dde609a63a1383b33bd3f437fb1b36054fc88a2a96a88133d53c, 0x6003ea43e2f13b8b5e40fb05bedb3b3a5c3a13a8e845c7aa669882cf280b02bb, 0x53beb7a97940682387600cce3fc6b365a927d63084799b2bf4f006f407e3d138, 0x27e2ec9ef891d30a68fede70b6db28022ae40b588110b0d6bd1c8339bde7c636, 0x240d39d2931593615880dc398844a0a3a7f8033bf21e6adc49e0b4c7d5457ddf, 0x183438dbc9c4255942ed5767849bb26200fcb776612d4a59c46adb14524ab349, 0x23dff831378f9dd5882e35eeb80954a9ab4d487e494e20f12e9cc2b33b277a0b, 0x614148c93689b99cd2204514ee4e36660dc329794f9e8a102fd5c280f0ccd515, 0x5089f5df11fcfd5e59e6f4c9170d581a52ddc506d6b37b3ed859970f9af15130, 0x6b6dbcec4e7116cdfce5ff9169ea64218319bf57fcc29ca92daed2699353c1bb],
    [0x3dd414f92742ed7bd70dc88cd1efeaad81febddf77769776eeeeeeee66666667, 0x3acc109283d30ab043e1340fb0a5c7d2a1caca17574d7a10f25e5f0856d62eb1, 0x591765f3f129f82d6f3eb4b0c88a7cd47b8ac25e3115d3a371485919cf61e3a7, 0x136e96b4e30e63f13d7568335da3f5e2d0773e565cc48db2a389d5be714ba27a, 0x6fc7e4084d5ce7e594953b63d8a6ceb2d0cf6cb2520bc7a4a8ed2b2dbd4ef633, 0x3a9171ca2c51e892606da5b0af7663064ee9a49b3f121b2bbeb53b8e68c49f29, 0x723eace1719a28e5948771dfec3207cbc41d596f36a12d8e2989e645932b4668, 0x66d0c6c3502d83de1d166a2a033baae45a1352f1e8b64c3b893e9bafa0ba8ddc, 0x3d1c393582463841de9ad459807a640a171175fd2c96b6dc96fa42e7416bd8f2, 0x2eb56df6b52849bc3b48956f48d96c86e00b20052c4ee0a75c996e8865e2c13b, 0x51097bea28585e49a87fd3f23b1ca0e95388fe7f6417de47be9bbfe48c0a3b47, 0x73d14862dd9a43ba2352835377530c2d4f7186df4418aefeca37330c50362595, 0x57ce69e6ea70e22bbe4e11ecdbb253640c8bc42bef3b4b241dfbb24d54b417cf, 0x28ad242f6b0cb9425a38f01cf7489307a2ee7578a562f428f7c4cdab37f2df86, 0x53e832388a2834bc1d7a10416fbd64196634cb8ecf040f363819c63d2b0ad7fa, 0x116931050caf348c0ed01c13337eccbc5f4e304a327fc663a6db84b45a4af875, 0x3a7f0366dcbd0e3fe3bf006116a1dc0a46d730141c314ec092f63993bd673297, 0x672fc96803b953c3a2eada41c2075df822cfb2933c680effd52e757961370feb, 0x44735c334da5306285c64308beed3ed4242ac1eb39c1d6046ef354b0788181f8, 0x37511f1e73a11087edfd3c3c9211dd90211418dbc541ab2c544fe650eb4054fa, 0x6fec922c3af7a8f17c2db1279db335be32125e42ca7f163f8968f379cff8f40e, 0x1c71362de55da7f090044b9abac98824dbe5d175e14f7b59c155fe6cd65c37ef, 0x164c83c7653978b02712ceb9331b6caa76b22b1c0d31068449e53088cfce2c1d, 0x73a2dbd0a28233c61bb33c33dbae078e7b3faab54e6f317e2c0c3636be845f9d, 0x23fabc4ca041b866605c77a18870d68814be057ceb12c42f89092d091b6404a9, 0x647322bee2acf2a96da0debce6d1dad2a50356874f89293bc00ccdababed930d, 0x6e759347500914ce94862fc4ed455b9d7ae1d12891de06eb81e053c83e9ba623, 0x18150a1c86bced22742c537609796b64ff30131b12ed318a772ddac1be2cd2f9, 0x3da7a28e14d51881d56f125fa92ac279cd69944c86a871ac9d16676f85c7ab0c],
    [0x3dd414f92742ed7bd70dc88cd1efeaad81febddf77769776eeeeeeee66666667, 0x144dd9cd92ed1f97174ab998dff82f490ca3796c6d8a74d05647704a6e953875, 0x466ba7d07964df725ff6046655260e1fcffb87fad385e31f683352f62297e904, 0x71831dcf63a9bfd7fc9ada7a0a5192e2d69cd501f655f439cc207896f3d2c65c, 0x6a683580cd168d0751f0097ebdf937f2c387321e9d788896f44f700ac6d1a81e, 0x6c4a6c0d56c53b2c2319a5e30eacccf4fda6ed07c8294c03ed265538264fb984, 0x4453ba39ad641f6737c7a90b65249ef8b6aed9451ac0f158ddc8accb6e9f53b, 0x53412f010e326b308cf61375426718a45f8de988f03c5ed274150bd061e230ca, 0x525a01aecff544a5cd9807ddfacd1378d8175a063380d7cba1f7fa7bd6addca0, 0x553c7488d0de79b2d7891ac07d726a7e7b83714848fdd9fe19c56ce3b8142b52, 0x38f045ca0799ad91836b2401e04a0864ea5fc29c8d700a79a51d206805d2bc2f, 0x2d0bf11b2b363d33903f09efa349c105da548738766efa4d6a71c86ae238096c, 0x25827409f70f1a160a8635c5bf42847c5248db15d90f99b62745335683c7ee7, 0x6b1ed93ac8ba1a7c5eb9bf60452a99440df307ea0f49c90da7dd1fb7e3835d01, 0x5df279fe8ebd4aad7bf7b952a9ef95831b2c6451aeaa17769fd9d7053881c543, 0x59b040d2d00c5287e535da91fb83c041b9cdd827f877dea161a4ec4b98e8407c, 0x54371265c24baa674d0dfb84b5a1370cbeb38fe2644c3081a58e50f6869c053a, 0x16f5971da0e4ac6ea3a8be7417d1003db0000c0e59d0d00c0ab3f5b2152286ff, 0x42d5df06ffc9ab9592b7407cc6166e033776ba7d45b6d20d29f1b14cd3f4a4c4, 0x17cc9f83728b8382938f1adb7785f4fa2f3d225dd55f0af5edc2ceedb01c084f, 0x51d0133a33ed2ddcef78087e4386abee6d19ca2df0cd419f3e70c77d75af2e76, 0xd2c959ec7e9ca40fdcbe0123e8a1b25a054895e743e35953f057aa4efb49ab7, 0x27c09e57ca758276b61210a799452a10c70af76d78676320785e502976e8d7a6, 0x1bde68c1ccfe164070665fd7b25b6538a3e58de564848d68e1d8307dbe6130b2, 0x605e643d637292f72882e0b03c62bf257c280377f6222257b2b5643de3cf574e, 0x430db8c9aa0c1852ea7e70aa2f6cd0607cca5b44509cd48a5f75835e3a647e61, 0x4e4246acfe4fcc7e805fdb260c75ca0c7456cd2c9919fb37bcddf073d6222c6a, 0x3213d1d996104109ff54e327e854f9f87a842fb3bf4b6e77dca56fce4c0d3933, 0x6f890576d2830b25c90d235bc886fec8232bbf102d86d6b233047f9253cf3ae5],
    [0x3dd414f92742ed7bd70dc88cd1efeaad81febddf77769776eeeeeeee66666667, 0x29f510fbb6d4000bd0ecdb41162dfaeaf7224a0450c93daa0ce1262ebb4ea37, 0x4fe3a67a99d2c52b1b5ed34ef99a039e80354c5037ffc3ebe9b867396c7ada4c, 0x18aeb4f343327073e45c816f49e80791958250bdec65da76b8faebf3c07b9b49, 0x454d8bacbc6a28f0610cbceb2f55464aacc6132de60a2c176c94f7223edea408, 0x36ef4272a293a4b1a769768c8b63019477b2989a2d0555db0b18b34a55b0fa8a, 0x440d68afc21fde751149932102642263c42909e6885fdb513a2432eb0fe18f83, 0x781007b915a56df5066384d13b42c6a6494d5c6af16d101391e34fd49764fd6, 0x23221c8b7180eda865a62ac3fa93be92b44877cde7a7eddc35f3c9249b6ddc6b, 0x3e8b7caf26b1385df2dee58ecf0860b6e7d34871a54335909b8f9923fd599661, 0x2e8c170eae2549ef16f095ab87966517152bc783b773c6b88936da8e51d52913, 0x16744de28486342a1ecfebeecf7ad4a24acad8116a452ea45862c89901b0e416, 0x4cb0f9fe6c7ace8b6a617a97312803412a655f26da8c065b6d0ba8d7d686287b, 0x11c61170e00ad75630c87b44ff9d0051ab709193644611e04c6b1439635e77d9, 0x4edcf27ca71318420c097ac966b76ebe24285a2f1b5824aebe75308e4d1f14b9, 0x6955316284b8bc0b95ead5c8bb60f80393331759b2e6aa456ed6baddb2412d43, 0x87e76362747a5b301c10b13599bb74c467cb77b080b498fd559ed712c7cb9c6, 0xd2b2f65fa77b3f2d9db2f033c0a8f2b2be9aa054837fd99f1f04a9a9ad33a91, 0x5779d3922141e77216b8ab2ad3933c1e1721caf9feeab419d693b1cf18ad3722, 0x404cc464d605ab3801d5e716a2db8ff3a423f8df623f08a74ba40da9b4ba2a2b, 0x35f0ab465d8bebc5c4ebe9e633c09b3334875a044ee84259a32e72c197bd6be2, 0x3ccf73c8cd3df7a9e8c930db6db84581e0430e1849dcd775c02ee3b44287c927, 0x24ceb9f3825ab62bd941a7a55492f873c7a875f78dc68992977947c6641f5197, 0x36c71e765dc5e87590273114233eb7f12aad8878b1fd5c7c616fbdb12bfd39d3, 0x2ffa5e228d3e0ec5544b0fe698628f6de89fd9daf1dcc52d5145d485c7f5bf3e, 0x5e3941b84c1bb2a72f803a8becf4da6c24a5907a962e7539a686342689fdca12, 0x16b5c5ceaf1aa9a2fbdd54ae20dad4baaf8c214d21cbd8caf88e0f6d2b5a156f, 0x259f982a63269b9e1252f5e3bca933a91c51aa64f5c7ed1f87f4555ced681741, 0x2f0e27b813300c8b4f9212b75a70557c7b8cc0bd65e3c567bd294ce6e02eb479],
    [0x3dd414f92742ed7bd70dc88cd1efeaad81febddf77769776eeeeeeee66666667, 0x6c03835ffd0ec018367ce9a2ef0cf62a454715a8a8c652577c0e57f66a79efa3, 0x27e8cc2ad48423a7a31a091c5c9fe5a198eb351d8de2a051be06f01b5b1489d0, 0x2e0a19f819dfcd031e43e2049d7cf25be573ff5e7863d8c130142edb6313f739, 0x170b3e42b2eb05fd87c04fea4e3157af9f9ea81f8a9e5e1f92a1873b9a7db2be, 0x1e50339d758045d88803556dc9217f699581dea3435bb004f61d52226e99cd1f, 0x674f31bb27fa7afa6546269c9c86d243ad3e37416b0e2462031ffc7775733850, 0x5c7f18aaef3a6e85ea90935f14a87f31b092e75261738daff292e10b0bf05ca0, 0x10b63a8f590680e6b35b8a447aee5a49b669dd17a2be8a85dfc6e951cc9d726a, 0x4a18c908ba220e5be80663731f5596c65871e73a39c07be4c50bfb1c72b3e84c, 0x5cad0a556bf29187773cc030577ccb5631388870f13e01b60b95654557d12e0e, 0x2ac74026d3f43799a0553c3b71e38d81ed307bdb2ea45a3458445ef2fed21b1, 0xe351c062c5eb0059af9ece85b275e03b5ea5529a4291e87f71efcb2d289b681, 0x23a08d4a02dace53ee64163feb9b5920c87d7ac1acb85081bf61b18c95956875, 0x5252d26eef2d0ccef408bd1703685fd971b9345e812ded4ee9d5043baa8b4d11, 0x2ba9fd9f0eaf96a9c86dcba1d312043bf5b4b39e56680f572f7d170dfda53916, 0x659d3f6697190823a7d7e26fa84d8f14c16de8fad697ac8dc36f52c1904bdd66, 0x480a4e4f0bf8903c1a6a89459bf8eacb44a4b8be8f8a9d72374a2da09fce256e, 0x33183b778bdbcd097ad5e629991168f4e9010b31443babc6a56a28995c336d47, 0x1d184918831b9eb4a394eab4d24dd8c2c02ea8e03b5bacb75576ecc01671cfda, 0x1c3c27500f19f627c2b02eff30735a70014483883c2a1e109efb8812bacb7d24, 0x15108a92f994b6a149daa912a64e69999578a4a671221ea494b36662da247b8, 0x621ba28967a843ea9598625b9b6ad8538159ce7c8a778ba924f5cb45ba7ef824, 0x7ab3152f238e962ff35ecce5d889388fb22d22796d5f83411f7911c347f022e, 0x43434eb44b494f76f1466794f08965eb6c41863d0518cce635ec8f525eacc999, 0x6739f038473da5164d9983a962d7cf6af3c4c5892d4bee7d860db1f0c42faeb8, 0x2512a464ec4dd7dd9a3cc1973acf3dd538e55a8f1ea595e946372a59d5750c38, 0x21439d394622edfa6948d98fa90377a188a9a17adce9c51ec0e4ecffe1dedbff, 0x3f3796af2f6d8b73ac44b3878c994a958734aaeba86176d5f38d8e759bd5050b],
    [0x3dd414f92742ed7bd70dc88cd1efeaad81febddf77769776eeeeeeee66666667, 0x3f8288e8e83a2208111983c49d037f47148d2c01d49e2a793f684378e4d01e00, 0x1eecc426d1eb68ec6d71e6b032f0541940fff7374cf16e868275371934482fda, 0x71cefc18c975bf71d0d89087b1f61c185dd8f7051275203e39518a7709c245c1, 0x36aa0c8d7f1d0f2562886eba1a90ddd25aa9f5be4f0019e22747847367a365b7, 0x67d1b3dc6ed8004e3df9adc8396653bf3cbcd974873f0acdac5f89bb20ffa5e4, 0x589ddb71922097126a605e53fc15f2ae3662c683693dd28953b8f09708ab37d3, 0xf890246b72558030e11c69e8359c90998bd90582581af78c6c01753a46e62e6, 0x1fc9865ab46535af69dc44dbff6751ca4fc11bf80173d7ab2bb4ed573ce075df, 0x473a6b2324f7f44ccc380b738a4e0c87dbc86c0aeb5945fe5cf5697b20692e3a, 0x1bff7be515f1d4e627bac81976069b0935ab11bf758639dec38603cd6457bb09, 0x4dd797c700f8f9dda029a96ee9a838eddf97c46fbb3f125298c263644a116ec3, 0x3dbc1ab7c7f3ab45448dc52c1e6e385aab215b0981ac14d8a5b8f97b8f2c55e1, 0x28763464506bbb20f2fcaff2f98cc13c5d918358e2e226d22da2062004943a86, 0x4b1e225787cd0d3c0a0a1e995c932d75611330cee8eeb4a0f3311330b257a1d0, 0x170165eb5f7e42c66e2b22bab3c2ca74e8052d1e08ca64887d4e1dfefffeca29, 0xaacb490f82a1171204b75ead91334888056110362a4dbca6a12ff9a1b531286, 0x5ae512f22220f81dd7b4bc9d516c40adbba475ecc1634c8527257cb5c181c54b, 0x16d7e2b836a68d9927b443b52ad59a195bb438534332b7c7ebb3022a62e5407d, 0x1dc90392a322ca92af742424286a4eb77780ef8dcc44b67f88e3778f6b9e783a, 0x14f8b76314540584c56680f9f95ec4760e2548ea024670b01764b5bb55e4081a, 0x618ffc67e4b239c098bbbbbfa75d803b68a4d07f1d8bc3103b85fbb29b745375, 0x50ce13c586a63f020cc19deaa7a644a3db07aeb606ebd9ac2a8833b77b269108, 0x6436b99d0f26329eed17c0418608d0b6c8bc9918569fcfef0b62f6a84d3de9a, 0x62e313addbcef6201743d35d069f9599edbc40cf12cf97eba48424c90bcccda, 0x619d962d7d8529a6baed62e01573c2f7cf25136d57ba5c6feeefeb051a1a4026, 0x52203bcf2bcf641fde7bfbd5cb540c22d64aa4a15f60a52fc395e1d0a5b1b8c5, 0x55b58bf7a0b90c2c37ff7733ae4da4b2f44ae794bbfa439cce840bb27ec86ac0, 0x5c6632cb4912e365adbc773e2d845cd418ebaa2b642bcf4699ab70ff27ba212b],
    [0x3dd414f92742ed7bd70dc88cd1efeaad81febddf77769776eeeeeeee66666667, 0x687f6e173668c51857352ee375a143c816c5b504c3d3f1880c643331740d5017, 0x5cd924f3d9db1b12ed984d71a3271ce12782ac684c14e62721857b7133aba5a8, 0x290cb9ea7a256a8e1b7e10056ebcfe3530717ad138a072b92de29c839eac72fc, 0x310c8409bbb902d9013855b7376dea5fb425a097ff4264c2a4e6c90b1095a83e, 0xeca50079fc730e5a62dc69df3fe83141a5a7955925c0bcef16e153f4a73c13d, 0x26ba882306c2854a60a79a002383af77dfb3fa1cd398544c8e27bd1e23101e86, 0x2b68bb0b077c88089591e659a9003ea9091c26d31bac7bc78c05088ffe5348ed, 0x632c28583a606001bcd3e9d67e5d9ff947c6510b2cbc7c28dfa6c1128fd872a6, 0x45ed7813c772b0ec94d49eeb35b75e6b8e1fcf4727ae18d7d9d146b0ae6466a9, 0x35e85186abf7fc6bf33ba9bb1f0d3008482a1e56ec7b7b89b93871e35902d271, 0x6f2a4c3b985cd5c1813e0795e33c02d525f4a769d98143c38004bfb1e5fdb6eb, 0x31d54168f3a1dade069f3937282b7312126a8b35889445151299033df00b7c63, 0x316fdae7f42390782bea3d5a81c55aa8649dc9201ef1ace0294fa236545e854e, 0x5151bfef329b6921a185385d151cdfd0957a4a89c898c9c88e913a5eadc12dcd, 0x11dddbb59e2519e65acc1647d04c1ff96fd0a1ae0ee9eb457d31865278a8ad6c, 0x261ac2ec2e719e311942cfef7daddb2d9617142ff83c61e80d20e3503a257253, 0x3ddaa090da36750a067b74f4a830f6b7366ee5c62ac012fdda55ba4b1588d0b6, 0x5cbfbcf44ecc404b7ceef23cb98737156c81f24cee87b83d86d0c58afe3577c1, 0x347727900cdd1387c2198d92634448dc10a39825de11b5f74b51b1a9e7cb28d3, 0x648f3f7014cb44036e911001bf459c90aa32364bc13da665e1ff3427009d645b, 0x335a3206cb6a4a48c024390eecf8efdd2b91b776657dc9c66d13d9cc4fa8f3df, 0x345ddddf8e6648e68fe5ec1bb870d6d7f7f651c1fce88596c9c7104dba525df0, 0x50403f9f095258802b5e4385a0f0acf3f3c80a9370b9a4583a1aa8d05eeb6d66, 0x63cf55bc0623b4a1137bae7938ea4355a3d4304a29277b3226ecd57cb3b42946, 0x294aaae39eb4510335b5f9b67e2bbc0042cec1bc33e28ed8b8c3838bd19e28b3, 0x3719e9f0c6021a85729141156265ca26d6cc657a9410998871a23d040b60eedb, 0x39bc18c1c9fb985896c714ebe13e302abf951842a5e8bb51afe458162207a9a2, 0x644446f034e977aed149576045468ff8d209a59d2a6cb3421d5e749b4bab55e1],
    [0x3dd414f92742ed7bd70dc88cd1efeaad81febddf77769776eeeeeeee66666667, 0x701466116be437843c9f38c7469d00859c413f837854136b9ef7352a2c2dec19, 0x54abab903713a85758ac14739ba98c7b6ce8d3dcce5120d7a45e638fdf33b4b5, 0xfe4c8a810654499cc336aac15871293ab565d173c99de2be5be5df86eb3d22c, 0x2fa5132042553712348876b75821dd33c5118acb763618e1c5e0ffdc31bbb728, 0x58310803249fdbafba705877ce38328c64d7e375727cd29136a8ae93ede52199, 0x6424e7054d7d2ee3835b7bf3630acc554b3f5775b0a7661b24483a83aafc1708, 0x5faf3b2dd3bef82e4d1be66fc009dbd86ec6de35bf4de66e52304a22955d0690, 0x5d34081957e98e6a56374bbb9b569d8c7527d615b3943941ffdd7ffe0fb1c5cd, 0x5cd70d42f326b3b8a5738d53dd64219a3a3abbd8b66d1e9c9069f0a8b7d91b1a, 0x4565d7e4cb4769d6c3810283776fe9c53c0b2a9d77530c677cc88425be034dc8, 0x8c23a1aee61ad4da842076944fa36fa257a0d7c91b3837490af8da951d464c4, 0x5012f2e288037a2ea79d1febb236a949525655f49c0f1d578794f39438b415b8, 0x16bd470228e01441c6bf675f49acb807d66f44c357c3fcd1aea521eaa18e2f41, 0x2ac36f71a1e9231a63f65bf6326251348f71622cc932ddb1622d163b4aae48bd, 0x4d65168f42829d32c599da611b9f03af6bff8e68ffec70e584b811c0ff252414, 0x4721e66360d095f0c95b083edc73dc847bf87b94e5527257a8c85b2ae1b9c077, 0x2b57c062f88d563cd234395348902999483fbb27ad188d88e16b5933327b4633, 0x72a308cc286ca5fa962cfab8bb6c153e76bf3b70c4004eb3c59535ec706e38a5, 0x27b067c6236c675c82e5a36dfeac24a8465bc33679943d04c27e23bef95b1f8c, 0xd0c9e8c714c189d7b4080e922edaf35359fa39596b620d89335d737324ff3cb, 0xc5dd46895e0b15275677f28774b35f129c0cd4f8ebdec1aeada180b466c9163, 0x2bb98357d90752b50e23a502ebaaed6831691b14305a72d1ccdb1a53095b69aa, 0x2aab37efd2b196793a991a21b3c91f7e374d1d1aa996b613cd42e06ba285daca, 0x5a1d9287740f6c01c99f980e09e554a1e3a5368660b9d6d921c28dd9b9b0111a, 0x110c9f31ac3edfddee4a5600ecb1e41ca6b20513361d4c7fef7336c8fd660f89, 0x50b3b3b9907b5b9bf314b344a692f5b62379a0527f7ec94dd5580a95386d9d98, 0x3f5d798ca169c42a5d7f43aa35bb15e6832cd15da804cc424f98feff5dfbd12, 0xab5868fa1a7f5a3b620b159ae950ed33becda1c8c3695f68100407a5ec880c2],
    [0x3dd414f92742ed7bd70dc88cd1efeaad81febddf77769776eeeeeeee66666667, 0x507e0aebff0e7ff9b4deb4685aafc11087cca24316812e4a9305f32992f9fdbc, 0x1a87f2ef1caa88de34608b6310cac3c800b97f8217ba0fe93687caae2e6fed78, 0x6f178f86adaeb0b9495c73ef97abf30408b7ed817c46552ad4a9f8b7901374c0, 0xf68524ad52cb4d8c793d8e55b524222c57ddf817f1428f4aaca272fddf9bb60, 0x9cacade0d68827fcce3d153eeaf4b785a0e4195714f36d947ea9bc724b44ce7, 0x2480c5995a7cc1aa2162fb5be3a8ade97fb3bf62b6240245499cd6f9da13623b, 0x31f0c89d485221d27bc40b13d5231a214ef64f59cbafd177fea11b69e2ae6c79, 0xc1e59580a899f04252585e53520fc31949c2d6144d5c566fd35d54bcc99520, 0x5353c2f9003a9a11e0d357ef5b6bc82fe2304b2157ee559ac5323112951131dc, 0x6dae69acb03846ebdef2004baea8524227ae616627a5b28f62b047d687ba60ae, 0x2f2f156ffb802fdb73dedce01f125d70b4943cab0542b5ac032f0b1df4e741de, 0x4fa5ff1bdfff3f44494f35beaf1346f510bcba922225bf5c2385560bc80f9735, 0x2007ae56019701e7b1a58dd4b9e97df167cf61ec990fec936bc3f8b7761b70a3, 0x196756d2c19527f98673076e1d757b9ff17b41facb7ea54b8e3dbaed0828fb8, 0x44ba395f8767b353da033316d55f0a2b086e89d6d337f6be9b8338d63e8134d2, 0x6a479671699690ad8f153131ad45f2eb03739992a0d57d06a257c568e871fbde, 0x539df9b734929a435b4e52284f43523f43704f3d14233873b3f20d14b75bfe6a, 0x42228d866dd757b3627e49accd15a0097ed9e70560641e96668f4d5c4692f399, 0x4dcd373ad9b1afb14aab8c786618903361ef45f22e6b7b7959315a7d02a27383, 0x344ce5818659d9d26ab632d9fc84f95cf0c7ce0ffaec35d012f1541c4f284b71, 0x494523092ce617b3550f1dd42d84c16264b101632d3b858e452e64db00d62533, 0x233628a047f7584ec9e8d4a669edea635886696ea1ec48e6c18e10a390b23848, 0x412a62a212b90add14636c939e7da1db0f478446d3ece84198bc38a4ee066cb0, 0x301a2d4cffaa2d729086b70f20edcbcebbddd7afb9b177f75c508a0eb78fde12, 0x2cd9a1fbf4dc20811c88cd86f43457bb5e6ca634b8dc857d15681c801989029, 0x6bb739cd620186a283646859594af9deb5d26e1c6a25a31eac906cb2ee5c3355, 0x589ad084f7938e8cc37fbb8c81251bd2ea6317ddb7448890fe132c453b5874c4, 0x38a008b9ca673e0a61c9ebd2f8b2e703f4247e32fbff82597c1f675d322969d0],
    [0x3dd414f92742ed7bd70dc88cd1efeaad81febddf77769776eeeeeeee66666667, 0x5ae0a2263f174c965f8dfc353bd0e0671ba87807fca73f6e608778ff1903a70a, 0x69b769fd7be348100dee4a24a9c12423f8d2496b4c85a48bbe3afef2e4e8318, 0x17279de7904bbb462bbd66ce9596541afc173deb8d14ba1a258aff5165b4e863, 0xd3612dd1a23fe3cda52a01970b4c34d9449bae00b1b88a2f24a59700743ade5, 0x180a3b0e99ff5e1c9c670d986d03017ed3456d434816abed0505108c95614bd6, 0x2641f1582027591ce7fcdd60ae241fbbbb907e13898461b187ca4b7c54fe70aa, 0xe549d815e9e52ab9e41b1194b25ae6643988a84330c5ff53fbf5c4c1543b669, 0x4dee481fb38a7cb9ba821a85fab7829d9aebc12d30fb95bffcadb5e9c541a8c9, 0x618fc5ca4ccf4588ec8e09bbf0825dd75dc68181d51f5baafab14a239e694f93, 0x1afa85012df1ceef6f5593ff0fbc5384a23db44d7d65df9b3d35ffbbaeaa774e, 0x3c2ad035333e92033512aa82b9d7d0fabf43456e3cfe10860a4c1eac1748f55, 0x15e3d58b938130363ff0efe15b2d7f1b9c98f08db5cfa4a52ee0468bbe568a9e, 0x24e156ef69d180946bfedf1d80510aeea9a705cd613c1d3aeea95c21b69d2b75, 0x2091491f0914db83999ff6e15d705d0247e630946a1f160557d6bc53f3c66a99, 0x166a9a1a62140e2e1af38d3d88a4c4dee683030cebf838e6752f9b63560bed93, 0x48d94e7e731300885a4df3ff2206d8f16051bda7e47cd0cf29990014e64bdce2, 0x47829c1de3f475a21c965afc13f0002c3cd02a8c46c83263f5115a7e1ccac3ba, 0x463cd3987d4882c0bdf45c6d614c08a50b950620ad643fca1ef6b0d0896b610e, 0x370f89d566de6a1cc4d5315dcbaf11939f29cb01d4b9f100529946c4fb1862af, 0x6c47c42ec47953b546814d0efb462dfffc0f05518c9c96fe0f193b00f1124177, 0x462fd36d77e5eca43a74e4b600198d985350ad3452f6c1dab07cef3a1452d8a5, 0x4c6894e9565be3c643060659dfa2d43bd0ad0aedfdebfa1b73a3093b81e44f3a, 0x3f703aecd5b40c69aa382652a6b62f34f8e1d65efc2e887d38b98f7d9b10e377, 0x4b97600c51898ba3bd8421486fa0e2db43c9d161dad8e619c04604c66108eff, 0x2b749cb6a75e5f29e8ceeae08ac5735a7c687c04f3b9aacde06451a8efa2e9ec, 0x19709f7df10fa07d01d0e6badf8a14dd8c753b702a1efe7b154c772f82443aa8, 0x873234d8df979dd645ae84629bd6221c08dd0b461525dc79f2a108f5dffd962, 0x1f35a6d6958d0c2c7ceb5f8922aab083b1aebb291b4d3c22f5eadfff866c33ee],
    [0x3dd414f92742ed7bd70dc88cd1efeaad81febddf77769776eeeeeeee66666667, 0x172157103fe9915408b863bf9ebd78aeb88e3ff3988652cef4a1d93dec19a857, 0x5d3dd1ed3d9bd56242046c301ff608f0882250882483e3db113f77af1555ca60, 0x4c33d45a2361201a4030cf3d75d22d43d78846922dc992e60f18f2ced80d49a3, 0x5005c64797ac72781499a857e78c873ffd79ac254f7eb7c7ac29b99dd7a13d38, 0x61d02de11b0178c5c3501361bbea7a843241b020451b76bfc3ece7b0b9e8517c, 0x2e99402c911e634edebcc084f076f890ff70bf1d372c90145b4caeadc96d53c8, 0xb7fa4c9d63e6b96a2ce48c4a01977b78695d354dde72f10ac433ccbe55d847c, 0x4056f1e7b5e9c3f2ed85e10a1a88f91093222397d296a7e4d9f07d5f263b014a, 0x4aa4443927915c56ec948036d62b7f2e3307486edcbbd94a2c75664b535bf31d, 0x42f94883288be100958c84335c879243be22f94d43d408b2a9bc16f411803776, 0x37a240cff8d083912abdc7325bd78b592e04d18b3642e1887e78c1097368384, 0x1fc98ee7a8ddc163dafd127c318231ffa058f8f4a4a3ffe7572265dc28f5960a, 0x56b6196056292c9ed2f681a3d2dcc15b2426ae00a861cb1cf4cb534055184a0c, 0x2a15c931449723af44f43ad474876e64122836f05dc64cf970c0c8a267d79f93, 0x37f6904d6632851d648c350a722a676905abaac487907894719d56f39ef18f38, 0x2d3a1f18833e9c289a20e0fb790a7940c9aee6b3f1ffbb76eb3221ff1b4fd5ce, 0x69f94118b269bf49a07bd38840ef087549fa0bbdf9c42cd25f761ac884b0cf70, 0x6652641db4563699c9fe29a251cdba5fb2919d7e2b1dd8bb846ee2579e9f4f91, 0x1b8c62e1e064e3ca0845b721a7796bc265668cfa147023e7fc43615c947b8cb8, 0x5a00f82d70a51ca225292d04843b88eeadd919bb8c0a9572a85e6d30dd38c7a, 0x6b2c46a88ca8dec31b5b0b366bd17f6668f9e5c332d96ca0babb0af3267e3822, 0x26f46e65cf9f48be80eee5c061b1519c52a20aa5878b813cfac0f2c554bd910c, 0x12758079b3e5312c5756bdfd55ef569e5a2b61489393b8de9cd22e6a2b923b60, 0x10a67ac3f5756b2bea0219b1e2f9a0fbed996156a21b9988d79ff5ab0c69d33c, 0x3e7aebcee5c8b11fc6d02a652a33a9d69521b92c68b8f2188bc7ac142cf14359, 0x5ea5c0222d939a5adecbdc4a82f1babffcf86cd7dd38461bac62e68188f01288, 0x164f2dc3ce988508edc160637202f663eecadeaa2d8198fbad98b95374ccb484, 0x4749e0fe87545106b199b58bbd20d12232925f4fe06246a770610503001c54c5],
    [0x3dd414f92742ed7bd70dc88cd1efeaad81febddf77769776eeeeeeee66666667, 0x4a3957a0e0e868f4a16953eea00e69193a4cea0ad17ccfdd0644d0aa9b6ccbf9, 0x48510ac4497789e4e039117ae14c4bb6dd70092e43cf0b39f130bcdf501f818b, 0x6ca34accef407d21e56c6d1b30cbd3fbf847fc3278d7ff38c910184333805858, 0x3f13660eb8fed49e4864aa961b7866417fc4c98cf749eeb76daddde04c3422e5, 0x50d4b5dede474a3a0817fdd4ba752b7714bcc44af5e23a5a109a9d49633a349d, 0x8f8f38415733d16106e6fc171efa09280434a957ca39beb0957930d1c3ba325, 0x5e8a70e42b087fdabef3bf93265038ada414c9e9533c83599394a74ea0e12200, 0x6f0a70cf3302e6aeb23bb28789c016df6b7dfebd9de92434fb15393f7a2610eb, 0x6194ae0b4b94b5c83e560ec7f90232d211e2b1c0ab6d09bcebf06bf4bb39c2b0, 0x630d48b73f2b5be345c5a5c148edf9dd053b1c40e9f5cead7a0c4a5e04bc5479, 0x2049be67ab6460523ebfa1ff8f4108b68cb40ab0d273ab9eab54338e0185cf90, 0x6c1e982a957c413fce5ea4990556451505e5ee68d9d22a71819fc59152dc8dc7, 0x3000256559f602f003d9ae18a447baaed0d031d56ec6cab44781291e0a3611a4, 0x48af777394ee7835ebf2a6a18e802ffa644cf07ef8374ffcbec2230a8dede0e8, 0x5aae39c0e285e53ef6f7a1065c41092c8b737fdedb022692aa6525702776a02b, 0x25c43166551f88b1d3ff2ef7315593abe9620467e6d5ea8f518be115200d6866, 0x43eb99a57ef7fc300d3eba96013980d24219984d33b5197816a36289fca9b8ac, 0x5599bf57091c8a163ca1f81adbdc28fdccde4f2299767979e8154cbee597a86d, 0x64dae5dce1a0ec23d865c842a38219b512b5b0968e905c91a14a430ad2b716e4, 0x416b041e066d44f6244c4f8e5d0800816c381b437245bfb9587f37db1ba9142b, 0x728c87458b0ec95f42bba389179174dca769266de3758222481e91abde95f24a, 0x128fb59dc0b25c5900e8c0c29b53a33419779b9eb7eab88ba06be890af751510, 0x653ec0b2a73c36ffca6785b9f1121969116c0eb70b25206332c18e3b3316c02b, 0x2777ee7e4b75a84f455566264e86a8eb71202d51497db45700380ac6f3d23e92, 0x67f13cd11e072d72c7ec2135e4856645f93c47d8458833899bab1deea34c51a8, 0x6af8100bb0df11685cf34bff54251324c87ce470429da332ee6ce83f2073993, 0x36392616e4bc29e9d738b49d1fe1c041439c792f3d39daa7ab7ba88461e5768, 0x415212043969af1f29df2ba10952e1ce59824017bf96a0dca077670a286f55ef],
    [0x3dd414f92742ed7bd70dc88cd1efeaad81febddf77769776eeeeeeee66666667, 0x246507bf3076cbd79a648705aebb9da2926eda41cb76670117f33e41958a833a, 0x5668161e5cf1a475f39f807a48c83bedcb7f6730df48b612f58ab577c4d6eb4c, 0x4777b4d28bf0825d40d7238423b160434e4b6cf662da835df311aa32d5a3d62f, 0xd8e9a13704e1eb0fff747c285b1479b7dd04d30dfe347498c0347843a634984, 0x21ed2025882dc461e9804d6a102e5d595da7ecd36ee9046fc39243985eaa8c6f, 0x6008acf88398d8409aab9dc4ea3251726b46614fa768c0e3705259024b396a15, 0x4cefbcfa648aadeab32ce8ddc156c0aa0c75c304c1f7c4e6d5cc56474b0e67f6, 0x4b5444e4a02a28b5664385085405618ce273923d0a6bb5faa238213903c48bd1, 0x15e7977552b7200085fb36553c92fb2866e797450e465c99ebe32f5e794e46c, 0x133fbf0abb0a9d14315775d08371764e7d9e99836d5cf7e953cffe2a3dd65443, 0x1e94f20af6a9b5d5117a3948142c142ee68b584f169579ae5c49c6788f067218, 0x340c6b6ed1b3ae706486af51a1dca6ee12164f74d91971553541d58da0905f25, 0x498e8e1f9851f4bcf04c6b1489dedfda481e1f98837e8f3e7c688cc06d538742, 0x1b488a67ed61ad52ef845b89cfa0f93a2ccf4c93c78c4afe94808c2b78311d22, 0x3aa4e173a38c9562888c06fb4d4fefdd0577517602625deaefcc8e9753710a5a, 0x3f55a9424de6411ab645bd2a44cb7465bf6a849bd6117b0776871e7f485b6b, 0x6f33c8fc1df24dd39095bd3351c878c7daa8649dc3a46c360cabbb0035243847, 0x6f818f46d77d4c925db49eb249e1e7f9edc26228a60eab54a122d999b45b604b, 0x54bd404413bc5bb1cf035817be42dfc538b7d7b44a70f7bff7725d87b1c4a939, 0x13e2dcf8e374f74c1331029f7cfbaee51594bf7399346a40b6122ffb1207a1d5, 0x5487352f6607606ab134799e4aebb83f1735b476c34d4b52023a00d0bec4266b, 0x3fd237a12e51f4774ecc037c475b6c26144bd700fda0b63bd13a9ee065545449, 0x6d03fb976463e7776f445cc3099548abec0670e80333e235a137b91455cac9d5, 0x5520660b1d2b06b4a197747e8347dc8ea4afc6508160ce15c9d79d0d69bd6374, 0x6270ba1562c60bd5832e910a0b08b2e6ed317f7802b2b4413c916f5dd02aa375, 0x3e5ef35093861d39d91c22ca09c310be26b28593f48b93f3d095d4c345d177d9, 0x2010c9fff1dc08f9f5b7d0e388d843ef88cee6d2c4b2f6192b57d091f0a5b8e7, 0x3d5195700dc48c48a63f1013936def6c11bc0cc9b29dad41cd3e5d43393948c0],
    [0x3dd414f92742ed7bd70dc88cd1efeaad81febddf77769776eeeeeeee66666667, 0x5dbde52fc0e9340b1c4b3dc4253a6a06e7c492bb400018eccdf1997ed651e59e, 0x56573ef596b4c5180ba5d5156997dc59b1b4ab3432610d219abe6071b4186c5b, 0x63faa26bf910b3e71bcbe08ba2ac477a9bc05ab86d532f9c9bfbffd64aa9bb22, 0x31bf83dc8078cf7d9ee82fe116f35ccedacf3ae3f614622c0c35a7ff91a9fddf, 0x645aec5933a249fdbb0b0953cd8e7cdcbcf7846b2f7df18488aa863f8c603995, 0x46134320f85afad8241fe1bc200c1fbfb1d74fdbae2c10b0d7032b1f7d9a7b76, 0x28d4ac16edffa5ce2efb84f46df9496046b333a8b733f750346eb117f61bd093, 0xc776725c4b380d2a5bb479be13492f23e0aba78f4e58b4fddce84f7ccd6c090, 0x4729e171b77d87ab8ba79bfd43afdd41728f8de87133167c63a0af03d0a3f9f4, 0x20e75ff5a5268544a2eab50ff036f70636f905d9cecd5670daf6d632f25c76ad, 0x460539d776d48a3c8fe83c89a508df03ae8e1d67a59d8ce6fcc454bacb08e5d9, 0x6224690f68de1e40ac2e5f4c5e0a10a545f120f182be14e6dbe41e20ce605fc2, 0x3778def10591dc36eb4d11fb440c4c132da11ebbc6681b399ffd13f546f09217, 0x59526e258cdd380b79ab48c3f54124e0e92b34949659eec423e7939e22e94d89, 0x5bf817e18514e18f89f5afb592eee74b2ad77367e6fe1aab6bbcdcca632e954b, 0x3f107cfd76515e70264ec22716ba7f621b0b2ea74fd8b48585d91edb0770f458, 0x3014e44d9cca0baacfeb5069ff09dd8e03b9d2ec114615c41cacd7211c58709c, 0x549550395f59a7d001f38be8f98f635fd87d79af85c9de2199045daa3c86754, 0x36847f09d9491c56a7472e993bddcf6ae22e800f442443b7a658232da25880c8, 0x38475111b4264d33884ff1c3fa2741c6075e655aef1735ab5e36466444acdf3b, 0x185718ee3988b9c3ccf20ffd4e931a72c2dd96fe5b432fb470a17873fec72f23, 0x3cedc17a46842f4287e800831ecdcb44a463bba9443da830c819a52859d2fbfb, 0x4c9388775b28e0ec1ff879a8df8e8f8a17fef6699bc920a997979ec3210e8402, 0xc85cd8e58756eacac55a1aa0e3c7743ed9757c941b42d6ee146f7507e0406f8, 0xbe1f7630771c31a1fac3cc3739275d5fa8041946537de403d12be4fe7eab9e5, 0x2bb4f0e8cd3e3804c39af95b96fe93685bd6b3d6635f98399aa6eec109b041a6, 0x341ff0dc023d811b41c73b25e7203db74f2aabbe414fc77dcd0b3c20f549945a, 0x56bf7001030d25857c512e2b1a8050ec13329c6d0632c7c7387fc633835b4024],
    [0x3dd414f92742ed7bd70dc88cd1efeaad81febddf77769776eeeeeeee66666667, 0x9488e2cec5d33cd2510fb4c3ded16d5245b998831a5f35137f92ec153aebbfa, 0x2e1ae8e3291255b1e44cec01f0c853dd668325d13c6d10ca3cd856fe440c86bd, 0x4021f8dc8034628ce55c7e5294d80f0396902775ca26ac5a325f1471b789de59, 0x454e9e703b4ef00f97e18abc41a13d580c509811c295f86ea045114510c1b7ec, 0x3ad57d14809a39d3384ee5dac2c17d5656f9322416f108a6ae3f974315d4f414, 0x5a59260a781071098504a1c7b0227ee6dcc7171f8c82a7a4000d0456fbe6d255, 0x6de8b49c29f89fb9ee0697e9e1faee96a2bb17995c67cefca84f0be1a52d85c9, 0x1a8041f93661bbf3125b10ff9ae16560a86163113f1b6c05f4be111417539ce, 0x4addea60e289b4b42c8fc121bd9be5ad2d0b81e9d9090bfb4f4484090d5cec2f, 0x1187f4c19378ec282d4326f736fd3fa6a5b3c1f9917e3fbb1b792b7fcb97c2d3, 0x236f140acac4e6d6e89ff1a26be2d7f8fa7ea42c6b2ce789bd606ef8eef88f1b, 0x5dcd6028a94fe6d703239e2171aae8ed9829838d5f6da51433809d7aa5cf9377, 0x1a6975faaf0145f1868691aecbaff34a7b622a8f0219be30e7feb239c9d8c2fe, 0x7396e59891f32286f7f34a2322df6430536f9d2ca285d2eed90ea40869052048, 0xe7c80858955b99ad38a8672baa560d89930fed96eaf366f53e8b3dab01ff59b, 0x3a503ab89f003f5e997ece8c1d7e527700efe7bd39b4acbb7633e6405a87b11a, 0x447b358c16105b79aff2955ab1f0c6204efabffd8beb7090a6ea51e00abe8cd0, 0x2329ba35cb890678547b6d2db2f1826fe59def7b9fc7fdec96544479efd0b054, 0x21a84ae33c39272bda2a99326596fd32a6f9dd8955ce2b89a9b25eb1e48b8679, 0x1bcb141e7505f3024378e4be0ac94ae41ed1b9fdabd0bc35f5da13f57a2f7511, 0x2d96d5bc7a9bce799d10150c98baebf96ac3d4a24c6ae0f2cdab436fdea31dac, 0x3d56530a5fbe5c6664ba9b2e4a9e30287b3401cc2af4af55a1f51d556a8682b6, 0x39af55bdcf0a6b4dd88165b301fed8343f9256bd5ab7987dafb44cd66ef9ae93, 0x43003bf075ef4f429234435267db0a839e5745df175aef3155d27a086deba944, 0x55192e60c10d92bff5f1bb566b865f20c315a82fba33c0fa37aa4328a194d080, 0x2298b6102a2867a91a45f673bf05bbc1595436a91130e5d51340ce52b77ad704, 0x2fae103a8c0133afcd55d5adedce7892351b96bb8b6b90e20ac0f10afb521d0f, 0xc79de3f2695829af909e4cd83dfdeaacf5737f68626c2b39fd1e0a5943739ee],
    [0x3dd414f92742ed7bd70dc88cd1efeaad81febddf77769776eeeeeeee66666667, 0x33bc4543ea89602841b688cc86fb8e0faafd5b33a3d72b61897c3f6395374655, 0x3756c66f605172a6e22cb9ed2116b33c8070603feb8f59ad9745b8277eec6ed0, 0x57adfeb1b77aa2c72e183a28e4a3325784a1bc8e11fcadef014bceabe35992af, 0x49eb33272abf3c4f374be1a972c3430703970c5884d30ca47f3277ad0b8a23a1, 0x2384a90cbf0b480124ad7152ced5920b40059f936dafda57881bb15fba44672c, 0x6a8238301c53b7cbe133538e69672fdd2031006278b924a8818ba5499a83959f, 0x209c066e1c8fe2c133e5f6a8fa0ce925501e4ad91e41ae7f593105d3f0ca92a1, 0x80fcbb810a2bbcc82127e6992bd5649dda8e51560787eb7f7afcd2fee78a83a, 0x53adaf2cf2d93e3ff0b8b5701715e6fa331075d7a5adb8e5cf91b6759434066e, 0x27354244d893a9b930ef42a5421d91b8abf8931ade4152ec92b47ed7386b96a5, 0x3ea59ad12703151ccc3a9df298a757c943bfef98d9d16e4a47f1cb5d4381556, 0x1e85e055478bf526006ddbe8281df7c945edd521d75a79bd4cd4a87af1a12a51, 0x71a630b4ebe6b4161d27980c7d920f8cb2e225bddea9a9447a812f806ca9deb7, 0x3dd014e8dcf6096e07696a75e76c35f85ec4e19a8bcc701146667cbe651f033b, 0x22f9a80f0a0406d99a4b77ef74b18f45d705d80ef73988e29770132dfbcf9899, 0x27bb1a4b6ac6322f502f3e3eeea9adf69dbff7bba8e78935f89fb261d5659a84, 0x1c74e879c99cd6d23487df6ad73660c8742cd101325cacdc546d7002071cb350, 0x5042a848f141c32c3b1a99389bf93f99eb1b1c69ce628fc9187470c5b27989ee, 0x5832e18a4891414b858bf9bb9bec4c78284ab06a94ffd8f151767700bf48e869, 0x37a59156e7032e656d39ea80efa76acc2839ce5ad9e2c21fcda132697a8b82dc, 0x71ba1c7c8c1c198d596773a3e89a8e7c5960c60a8cdf6210f5b592a2b4b0941e, 0x40f4c9e0dc0a211b8228000c746c4f48c1b3c731b1943a9d698004b14e76aea0, 0x3430520f78d832886c63ce8a0aa9d7aa2a372f94d52ca6a9e780be46a934dbe0, 0x62539cc136a08d22b6a0c6488c8a41ebdf66fb32b2c16cf90aee0dfb14bd23d, 0x3f7ed0609cb0a9b708e98857ff94956e6c51d0fa8375027394906b67845be16c, 0x1aea4d5416f14c60d75f542943906b4c63076945fcdde149276ab025b1f94f4a, 0x3b4617a2b9f66942854436ec9769cba2c2674d543114100e9e1c99e805d2981, 0x4d733f398a3cb611c01bde4173941441f0046b1ed7f08dd66974598e734d3d3c],
    [0x3dd414f92742ed7bd70dc88cd1efeaad81febddf77769776eeeeeeee66666667, 0x705b3c6a0404d57a340e6a97c0c08c9ec931495009193b9e32e21660a7dd7bbf, 0x32bfacf2c0732aa14a6550c67c7fe00f2f79cd204f5bc8cde05ff1b939d41478, 0x3513202e4a0ff6630bc9d0ae0348f4c75a648ea6e6eba29c8cd99988891fdde8, 0x5066d087e30bc187239286a33f0c8d2e843946c3fc150cebcf1e6a1d0ee3c84b, 0x1b74d077e57f8f8a15e87cddfaeee083255984089102f86ee79e9f20fcbc437, 0xae1dd4cf7e444b3da00e7e5fe84491c9f1a6464e48d9047155c6a81cc2135d2, 0x55f014215347da5516f079849e2a6ee3076578f454fbea29515d5eb860189af3, 0x236b3676c9582f2a61caec9d7a06399acc4ca80ef9069efa17460cab4e9dc431, 0x47ddedbe1c353fac4341b7b245d5209c73f176414e831f5a0a1dc42c9b3f410f, 0x2aff21d69bb49fea0ab2fa22212db46e6758acf8213fd899208e3426198cb8ff, 0x2b082dc50ed08fb26f01da64101e175593349a085e3e3e851a18859cfa511ac8, 0x3c30aea5bbfc6ddae8ca7ae50e90e1601b06a2fd8bb0aee3eec9ef8c58efb1fa, 0x40f0b481cad3249e308f7303a886f59d6329759c61d41dbd5f949692293acb7d, 0x3033ce409564237d767f6dd384935ae5a0511e0fab068d715e8b51a355ef33e5, 0xf18550cc3e09b74c264ed3c1fe64c1f7300efa5c875f1aa33dec5a83fba80d4, 0x1fbd0545903ff319f1905fcc8fb063afec14b923188cdc0a768d2c967c05effb, 0x3c3e5ec9eb4f629caa70717f115a24bf67a659cf4db69ec26ed4fb7aa4fb4797, 0x689191ba99a93c2ca06c8df28bbbf874bc1156f9ce74acb2006cdca122519ae3, 0x254841ff450e68f92fda85933eea100c281aadfc0df72521496fc12d83213f88, 0x26f7e8e2942f0f2773e51b20c67a56f83a5894753ef8b31e6ef81def9afb048d, 0x13d4a011c732189e86f45996dbbc5d2ec350ba0d6c4ec934c5834d35287c86a2, 0x50e246355e9f703f36a992c8660821a76ed32c1ca1b9b5e7331d3d9ca0f27458, 0x3a44c78a308800abda58a02ea9f25c37f85d706cf24332c527d73e0a96b4007d, 0x16ba66c9bbc7037367f5ad129a3e0b0fa33e2d27800f9650b818ff8d87a4aeb7, 0x3191ecfc1e74e0b1d0a07eb8899ac7fdb566ab78fa95589d5b29156ddf7b1077, 0x1d90961e1f76bd207a82a6808f8ddf93a9bf541de7bf1d40ca9acd05850a0e06, 0x59b8fad7bc599b10a42a847f5926c10639382ea61ffa2c46325b47ca0660f292, 0x37ad5a3b25560b25db18023b0cd0b25426ebb2b3cbeec733c77307c663cd4e],
    [0x3dd414f92742ed7bd70dc88cd1efeaad81febddf77769776eeeeeeee66666667, 0x5c3b93c38512c0e1802b5e5e2bbc8dd6a259b4f6f8c2ffc67f0afc480f350b20, 0x632a3b585f3b804ab694e5f3d71026743ef03a0bf8a1b18511cc363a5492f65a, 0x3537388ea059525d17f800e5217d273f015b3d579ff3538133333891d8863671, 0x639dd5b7e6d1b5ced23d945304334928fbfee62739527204a60d70658ff1d51e, 0x10430ab5d3fce84fa2efb3a45fb00652b2cebe2cf3a89f6caecfcd2e150eface, 0x73bd99d9d744aec416bdc2d140ac4b162ee89145b63321c15e8b862bc667d8ee, 0x14aabdaaa57f3fda006b8d4581d438e11e049e1feb4f1977d5b629d6cec2c492, 0x20e27b9f17a694f631aed87da69383993b877ab00006e0fe7bb9924b2893ad9f, 0x1a9ec75fcea3d039b2b162deca552ea0863e64c60a2ee3287cda3d933c716a36, 0x7370f7a7db80422bd225906f4c3b0e2aa0a8afa03c23a5aa749419162e269c2a, 0x1ed53cd76b75620f3ab879431d57a2f4d4da4170a21ad5e535ebd54ca8a5fbe1, 0x3dff923b5f5b114d67f8c3632c301b45e95b0916bedde5c61dafa511682e835d, 0x528beef69ad3544a50e203f5d68f3527f717c4d03b84decde0082365ca1f2bc7, 0x5983a7a3eeef84c839eaeab6e79485545515701dd2b30fc24cb42a2f415750e3, 0x3d0869dd197a3f893e9317cc8f203a5a6a62b1ca45b388717bccd9d2d7bf3bd2, 0x45918d43004e5b82447edef4088b51cf611abfe76cfca2c68208fa0c939dd0a8, 0x7a4613805635b210063d7689313964c81ebe8dc3168209eecec0b2c42f7612d, 0x3b21751f3d863b730d21053ce33215a11b36877d3d7b63769cb524d5964e8eb5, 0x5724a6ae77f046786e5369b5a85b7be850ec0a145fa788b5a8429d899488add5, 0x4201d0bb84cbd8ec4f978d94372ffbb2ce5e6fd153a986d034bc8867269ca76e, 0x17bb1c40b44398340cbdde98db155c620447c446f5137c3d5ea65faa6ec986a5, 0xcb261d952171c113d0e9b81a698a1cc491380467493c37bd7f848955184f6b5, 0x63708b503552d5931eb9f361058696aa95ff7ede37ceda2df65019545c7ef3cf, 0x3d6bd5d40c74c35aef1a3eefe8c4f390f0da7a540b1268fb393f738a1348d02, 0x4e30efc0843d7e781f0391eea4a46038be443fc5f42c3b1cc4d1f5877c40deeb, 0x597e7ab5f52096d14bce5280adbed47ec26ad13fcc64b287e498eb8d41bef129, 0x3946c26f2fa8158ee12222b5dbd79147c9253a68d17b08c859e21b5053e28080, 0x6c14ffa62503aa2519d28acfe4e82afacbe1901db0e66a7d565460269b1cc5d3],
    [0x3dd414f92742ed7bd70dc88cd1efeaad81febddf77769776eeeeeeee66666667, 0x52c0c654a1d1a33b7d1d741984bf00b13c5183c318e6d3fc56e0243daefb5d0, 0x3442b49a2896b1693a75b276fb5b4b4ecf19f05e869be3a4a94f8c6ec0134e5a, 0x2a0ffd9aced7cd685a042c5d1701cca3064c4a948fad5550743c9bff395e81ba, 0xcb87a0520802b153dfa944d137eaa749e074e306ba57c765264cca820e8e586, 0x2c11a608e0ab21a417380585cc4ed8f6a5dcb51163b493bc51f5d4ab700e14d7, 0x6b59f02bd4c48fb45a1fde733edc2a702d366e56fdec58e2af7502995c3773, 0x259f3d1783f9c969a6ff86b4f1db567f97b9b740642cd873b968dd5b0474c3cb, 0x6535df0e6ee5db647a2ab6f85ea1ecfbf6fcdff14b50e22ea264c9739aa3def5, 0x1a941ebb0a77e3c459e0cfed31af34ce0f91211e8d9371699c7419741765697e, 0x66cd3b4a64bfc18e8a70603d343bc26ccb197dacaf8ff2b994fa09f5e05be05c, 0x2ba2c2d41228b773e9be68b4740ab922aaacdec30c1e85d35967d5276a6765f2, 0x487975a162d683c8d8a3a6f984975619749e411f6f7a456e5f48c9b15e068fbf, 0x3cda4a216df9c68df462573e8367ff07e26cbc46b43e42776b824a69f0b7452, 0x39089bfb1244df2b70f175ae262560b852744cb8e081fa18cb98e3a347e1e564, 0x288ffd3e85dd19e048f065d967e14f279fdc3e589d3d7fa22bd1ea4b29477da6, 0x6a53cd1e97e311dbc3a61e0c7ffa92f9cb7a3f2cce3ba3089e3cf97753cbdff3, 0x498ad8f8adfd58d99aacef166bd9e6e0649a5305b2486a859d8d18b4a3e48d67, 0x501eddbf6d3ebbcf0740fcd05a0719a49b994be8951fe4c9ff0d1a94676b1d3, 0x65316e288200f987e7cafa911929007d0ac1a482ce67e6d04b7a328f2f51b3c3, 0x94d96e1326969e5d3c7de9f630a192358c0fd009896f6404255ff49aaa6c70, 0x434cdb7dc77bbf58fd693c5aab95a90df9119e0b594f94856e311211dd9924a3, 0xeff39660d00aa06542045d82a97c92026c60a5acb2a292db48a596a8deff6be, 0xe8e1cc520ed8f8bd23aae48bba442d42ecf86d760b74b2fd4c41862b30674d5, 0x11d1cc28bbc26bc6bd48a037e987aa726b1283f33f0445a8ca1f81e276481f3a, 0x291f2bafce5a85e770a667ff1a5bd2b0bfd3ca710e6a0cf4afaf5ba46339e46d, 0x2ffc8c8fc068c47e78538aabe2dca2b1bf20f554b75ba1aedb466247ae657048, 0x6d96161aa5b08eb1bf9f5caec5a248c9a69c9180aaddfd39166aa553a6c7d092, 0x3bdc5f0de3174e99bc69d8c0c602bbc88cc0d3b23ae6842bbf71be16ae6b1847],
    [0x3dd414f92742ed7bd70dc88cd1efeaad81febddf77769776eeeeeeee66666667, 0x3a07d01f6708d6de929dbba7adf928b7f01ec3f476fb4070de0f81286c2a8668, 0x571cfb2d9b8bbdffe392d6ba0ea8a11306ec3be718ad046ff0131be3788654aa, 0x6fab81f6adf3a2be9ab8bc216dbf618b1b91d1f5b3b5f0db7797b1704b151fa0, 0x3cd2a2e771452fda3ff8089dae2cebf964edcab293733885f7f92612df33824f, 0x4f576eb63a3922edb079c5ca0a68a468c35ab3193e0cff6661cbad0df55d3df5, 0x6954d7ef60cf7809996ed8589d1bc44f7ba7882c1c70d166cc20e2a4529ff5e9, 0x64db0ac1dabb7aa7b2d71e2dc1879eb0a8eb72fc4b31073d4c0662581e09d05b, 0x3353bd61b5cf6d655c80f36f8fd903eaa2ad898ba6c3ffb64d004fbdabe8aadb, 0xe9273640af54e9c7919e7d939ba2b7b426050dc835e492963e7304c9bdd76a, 0x2c48eceaa54763a09475ef6687729e59aba5549d4bf6768a26e3eb7a3c8921a2, 0x6befe11932714b98b7d2133ebc2a318a64b084c76e476b476a1c13562aa0be72, 0x3c059e4ed04d1d394ea379b1c7c04e612dce109d6421c8313d003ac61c4645ff, 0x57faba7c15f8aba2fc6e716524bdf31d3ed4f624dd6dfa28e59a189340ba2a90, 0x52b45600557a932fcb5e6017b284c3164a3fc0af7f9ab374274954a25ca62e56, 0x25e2f0f8b9ae6f4008310c37527f96c163fa79a43bf0a7d3a28a9f1ae11318ed, 0x401be1462eb3e49dc5c72fbf2469bd7f327e077794cd7583374f608aa7e62866, 0x722e1b431a3fda389f6dc9ed72b926f34e772e65b508c434fb4c49e81c2aaf83, 0x27fba21ad0e947972fdf60868ca04a7d06014f1edbf9b3f63e2d852c5178f18a, 0xb18eb2b8e43f0fd24ac81bdc71a1f38c3a133bcf331a9cd0a5dfa15fe973773, 0x25c66891a8eb87cf1f0726fd4dddbf27758b529199ba1fa17f2877204c857635, 0x5e5771b09b29a2f1b4a214737c502cb4522f663312478f9eae89419580bce4ca, 0x4b3894a0bcb99770ce9abfa7172153f70e66f0ee3fee248295614dcbfb0f844b, 0x66e2c1ca6bb7a7ef52667c5c005cd858d757d1d51b0729c4984291c3bd2fedfd, 0x42ec932c6afc050b6891f2f82fd94b2fcec2bf82443ff06d2ea1d9fe44d98ae1, 0x18a77d00eef797f88bbd809ee1360c6f3038c48619e425e39411f3e717d44eb0, 0x5f9e9be4c4bca1741a0d383160e44c0fe3d7085c082e56ec9115be6caa94379b, 0x171826fd49ea333a6200b4cbaa516bc9fc2033db659faa1b2ff695b5dbb75afd, 0x11f29494d5e4b42edbfecd74f0d03e1ca4c70c6a316e145fe66102db1e98db76],
    [0x3dd414f92742ed7bd70dc88cd1efeaad81febddf77769776eeeeeeee66666667, 0x37e14f7b8de52c40d4d0e9ebd8b39c1b79a56d1e08c7fbb4357d057ef19c7a0, 0x66ea1d54280614569c3943ba660cca93f7d6cf7575eb63c756855810730625f2, 0xec6735d930b91757557e6c3eef7302dd010ed012bc559827b8a411c4bd67022, 0x65aaa0432188f724f29fe1e68aad4f5eb6d140a476993afba54423145c854a32, 0x68bd447287f158eb8579df244556e6c642acd00ad7807196ae35966720268fd0, 0xfcdb3589d5c9e6f0bca250c9d3689bbdf8de4eded2d58a61fded65bb65f467e, 0x6caa1c430dc177ada8369d39e2e135cada14cf846166d2e34c03bd350f44cd07, 0x5045e926d12fee21511eb8e79e15b25bb50aa163242f1031bb45b589dae7ec24, 0xca7ba79efa8e7caab22e20ea598a7a5204af109bee68c23e839b60882eae7ab, 0x33278b09e56893f6683666a56683ae143b52a064446e7aacd42059f4e1697c81, 0x50e16b33f330dca35f7b5dcdfda91218c0731c5e18968762332a8fd9510bbdc7, 0x27bce8dc70f43d3fc5fc7beafbbeb968c7cd9c583e7ccc5602d4b096c2464ee7, 0x5a2adbb602c78c06470639945288d6300570c5da104c57a7b17a160267ffb4d0, 0x11f4ba903615c99faa7b03b677f611a4b60b2d38a50931982dec00cb8461a1db, 0x2e6ae0343a96e57c0b18a4bf079a3d83fd2c8a156e4ceaf2e4dc995a56557e4, 0x5ea0b287168ccf07554c3030882e1b2ec7c356d594dc6b5eb5f5aadedfdd2ea0, 0x5e4ff7f8ddc6724514787f7fa2c2f0309a4387db0a627527a872b98239dfbd45, 0x1114a6dab78ac07fe89de4a5773da9d0bb8a4c0a1a7b0b7415a7fe72d04f8cd5, 0x1415f813f76120eed533bfbb9da11fe3af4a1d4b782d854e5b5b983a3034713, 0x3042fe8b84556aeccab172ff2165930a245663d0b0f2c139c985b65530fded0a, 0x308dbc316546a711e1f225e78cc19ea4968100d70424df02022645a508556aec, 0x6c5d3a6c6bee9bbc083399a39653a3dcce2e3f8133e72f59ec706bc8ab7ccebe, 0x54b567cf69d2084bee9fe5219ad825e7b060d970fc2b870e2a9c922cf0d5a239, 0x33a804716d29deab7db92db33dd85871e5c34181a39f0a4bd1a11f4aecc06153, 0x22befa5ab4796d8506fcde31af0ec0dd7ed25a9a613b0276da9419e6e86f1c1d, 0x6a1c7fbc94c9c1d388244edf84fd62833febbdc1c5d7324b63b63f7fe9bedee8, 0x6bff3e300f487a2062709b511d179c1fc4f5f6e8556d42d2e978acd86436d16b, 0x5c49badf1b9f66c2968f912ddb06f19e73b6375591dc4db01a92a06dde9ee661],
    [0x3dd414f92742ed7bd70dc88cd1efeaad81febddf77769776eeeeeeee66666667, 0x17e841f3b7842bf71b378e7b2532eda35dde2179e06c792a637a12a211d192be, 0x2599088344d967a9e674918682aec626d260f8e04945c0e3690f4b4c3d429f2f, 0x526631fe010bd5d0698eee02f19bf6f01ef4bb707239676db9b5cbf8267c9540, 0x14e19cb5f7bf7fdda019f69b01aa67db8097bf34f2e26432159dd1d9e8c65ce7, 0x20eaf13f6ceae837c69bc13c2c9a58cb7f0a28cf056d5aba5482c13efddb0af9, 0x607e63d50290754a5fe90e0f8f47ca7ace374db8c3d78e0ed450f80a7ef0d9b8, 0x2e820327ea27b055b381fdadf57fbf0f81435d0d4d33b65e0acbd344b684b1fd, 0xa865406fa2ecbb9d04e4e5987f632ed6a4671cbf6c87546fc888fc251ffb1e0, 0x67ace12dd44555be5d6d0592d1f24ed8f9399ef8e0fe60114f5e82882eba7a6f, 0x968a556953c6412be3354f9900ca10caeac0be9afbe13822fd27502307732a3, 0x5f606ec1e9fc27a552dc7cea4e0ae1082f3f302177a58012e22ae6ff10a48626, 0x32c53207e8082047995d10b95a33bd2e1d94417a8afcd9129c3fdfdc3da78743, 0x45a9788f31f0079fc4867df1c4d646546a97447c0b6e2a6484f67192f318b5e0, 0x6761822ae195a93ae3b30c6021818f7ef00a8566fa422b4c1079730cd4e8963d, 0x403d643d1fc58cad8a71e90d3054bbd3c710fb98f3fae4f633b93b48db3664ba, 0x2b13e1b5d5e088553f54d22d853b741edbb18d0b9c19bd5347949d99f433a358, 0x6dbcd7c936b2a5acac43bccabc893b8860c21bd79db36e1349f7ce52155c30fe, 0x1d684d18fade120fbeac92b3a1431ddba6d54fa19c6b7bf0941038766d8924c9, 0x4f4400a45f5780c530e4d63a91d7b12ea26a71001fa88dc4453bc13327cd2b4, 0x3257526ec2c554bd331915af7fc687db4fd0d3ad59618d338cba9b2bdae418cb, 0x5e95b6d229bcfb2313fa207029671c79fcd230803d20c84671bfc859b2a7e7f, 0x4ab16eac44b262ac986854afccc2cd49c9ebd80926181f323640f0caf06af4a, 0x119fdda3b138fd0a886c2a55ca142b199f1126bb5b613888d45f098850d900fe, 0x16aa247268b2d06ebf9ae406993cf7ca881421cd110ac3dc765640669b33ce74, 0x7b2dc82d2456121fb02107dc029ce8ba2141d7167df3d10dcc5d91c2fa67e85, 0x5856094a8fc7adbd6f8cac785528a5f579968ce6331ccfd531650b06aab4d673, 0x15a4bbc0d635eb94fc8a934698342d0cfc57dcd63b2a51683ba76d8b48d1b356, 0x34ae95364ce68105ce2b6abd32ffd75c9033025b7011eb93a039ce8622fcfff0],
    [0x3dd414f92742ed7bd70dc88cd1efeaad81febddf77769776eeeeeeee66666667, 0x6877f4397420d23d64d56f220faed16f21de68aa56b80a035c720c094be326c9, 0xc20373dd73c2fe1b1449d5ca8ddd7cd67a1ad1e70ae66fbbaebb18d69ec8be1, 0x254bf073366de75e0f375e0f36a21ed9f8ebe053d409317f5ea02c8395778644, 0x23cb47abb5661803d0a262f734ed080afb294a6f54780f4afb961f1d1b757f05, 0x6b7ee70302c587986a92e2b20ee46f9e23837d077e33a993744f580182262a09, 0x602b84f5a8b107792ed0af51b5916cb26ffbeee452a508535298cd8231dce197, 0x2e4537cb9ee4fd562fd3f49b734860569e5a69c7556de31be1a836b1a52d96fa, 0x348ca63791a2f30eb377ac9a8a17ae9cf673df0ff686403019087c9933b50e62, 0x66bfc6952a0ac7eeaf22261ad69fa368ab78e5c7a90da6d6a8218a66cd61f41c, 0x2b7a47b0b6ead4eab3fc9feee0cf8355c5d0e5cb63ec0b43344813f847c704a9, 0x9d969ef02c93b5df57a3063a0fd2bbdd0146f006bb301cef1bd485d3d6f21d5, 0x98d9f61702c06a5c5857d27972dff025af25b20c7c7c29a26a075dd19f3f35e, 0x224f2f44ed7b5f6a6bbaefad549011a35cb6f38510ad5ac5d9309d02fcb2d83f, 0x3e4aecd06a3414a779e6071b3e0fca1f9c3a2cf1ad18d1822ddb2886e7c36d20, 0x53f27c388271cb538b0a4ae32125a59f15dd2609355476acbadf50bf74a2a3a7, 0x33ec5b45151c169b719f02c472bb904bec442cec713c10ed9d9cdc8f4fe8dc70, 0x6eeaaff19608a69056d09857b5f170584316510877754e47dc2a7cf247442586, 0x1b909f0349ff7a151b7646f3449786b41ac55d28f5e10aed4501c5b6482fe01a, 0x2fe71ac8f312cb8cd56623c91c504f5001f3a53be2fa817d0989d693264a17db, 0x170658335ed5b1c81a26990d12ea5fd0477d26c1518e90950472e83f6e29cd45, 0x6d945b8a3f8f7aea7799e9d867d43f2b50bf3d43d5a200d32dccfaef9d6d413b, 0x1511b5ce44478f80c4bdb1f900c7e37e25dd1b623ac9142ccd8b7f12f8f17506, 0x7c7646a39720c81845a0f43fb9c32bf11fe06122912347d761a7300a6bafb84, 0x205bf387c618bc4fa4c0e27f69ad6e3dd91d56397fdf721d8e1c6592a8a74d68, 0xaf0bbc4be8a53344c918fe287895554b7f693b884278d584f23290da2e2a192, 0x3bdc80f7eed02eb2b3d5b1a56a4d06f38edd06eaf3ec8511d3349a115539f829, 0x283422150e56b688439f29e36129219b3f512604fca3b623515c317121a5996, 0x2a7d3027ad8f81b4d989c916d25f94c1b75b6c0e66bb9a423a0117a12beb0dae],
    [0x3dd414f92742ed7bd70dc88cd1efeaad81febddf77769776eeeeeeee66666667, 0xfcac3e2c5bd96eb3e351e769617254932da40bfa4609dfa4829b4735d45c61c, 0x5b464b33bdc3a36c676530a69d7060cbc4d092f98a38dcab6084c05bbad5a41e, 0x5cb937cf226b8ab07e20f8d918810ab8c00dc0a4dade0d82ea0c3199a4ff98a2, 0x334e482496aa7ef50acf08534461651052a216994bcaacebf80d379056ff93a, 0x411f53f9c72d724838c9d139918d92a5730f1d54d25bf5bb9bca6aafc4f0c1b8, 0x3b086b8189c5e56d97ba3466dde8af011e597d1a7c1efb093e740b1bff6c0e6c, 0x4c0f84904420741c595fc2e01e1e428c083a4a21255b4b5318b43cba44f5abd8, 0x297f28600ef6f80ab588009593a27d75af27bfa92f7eeea14b1095ea49247e36, 0x1982f79be767f1e1a2d71329e5e59bfdff52b0f7aea7d5216084a4860262216b, 0x4166f7ff52687d74296b454f7f743fbbb03427439680730994a29b431f10394e, 0xf397f886ec19a091eb2fc9d5af960bce965f9e09eb4511bedac6cfadf3dca27, 0x6da9cb5cf1cd317433234739dda9f902681cbed27b54bb2778f3f453171195a6, 0x578855ace41a26db9ceb6f1aeb7e65da5828e0d767802dc863c757f14e4bcf1e, 0x7a92868f8e08d6241c611d8624234613e4f684a9ef9b91a624a504fbfe89db6, 0x68d8975b852fa6489255a288e3b60e99d7dc79f4cfdc8d180530cb62b7567a2, 0x6cb73945470b6a30382869fb2356fa94f98534b409ea4cb96f66654177f69532, 0x87d94f45cfb76e2d291b6962388f8d4187093c16188f806ca6cee0d9503e7e7, 0x427f95af75ef94e2c3bde1a8c2a840ba3fc3efdba6faeb090b1a1e4abebfece6, 0x6e7bd466a1aaca287db39ffe36afdc2a8b36fdd5b289dfc0c96fb117e3cfe0cb, 0x5fc8fb73f3b72dfa866ff6e5337a5c2348ee6a9532db1e6894fabf9c10324fb0, 0x1ffd637078e6e5cc030db327e68a8e7808a30fce12941c1edfa1fab9f80762a3, 0x23fadf0cf284bbcb056082fdf5779438c819d0480bc242dbc8bc2d17f164d098, 0x5804408d5d42309ca096593c7ce70daeb07935de11323c994827e7774725f5f4, 0x3fec04f1d9fbbc00d4184de7e87f12392529d3118ac992c4afd8c578b51cdc5b, 0x594f0b3faa94d0ea2d8ac5d8cd4e2e2981ccecac780dffa1064d22b195d6445a, 0x16f99038889785b110d36e5e764db3d605cf64399e9f85bfbb51042bbce99945, 0x36555a7bb1b7409e096e0024447843d5735a9d47a7a0cb1087521b1d71aa83a5, 0x6024bbcf5b0c2044cc71859e3884e946337a64aa45577e6e928d5f587cec9afa],
    [0x3dd414f92742ed7bd70dc88cd1efeaad81febddf77769776eeeeeeee66666667, 0x5ce00744708eee0def1b1b32c682accd227023579a7ea84a1def9cfc1bc22eae, 0x72916efbf435c170356ebf2db714ce0e765dfd0abc9d0546a7dbae4c1d7ebec5, 0x6a4cdbb7c375e1a52a0a23bd7505bb7a158314b40f04f05e32a9c46dba3e7517, 0x21c0fbadd4a616e081b975cfc8f538a95034b70880fc65495ba3e112be4e8372, 0x358032c13cada0b8286713cdc052b1ead4c23dd0abf29d80d717cbe25a10bf3a, 0x25ad7a4adbb86aa5b185ff3803cd94c6f9a9276bbfab8bcb3645f4fd27e61a8d, 0x47fad51c2467e27d1ccd7a53a26e9623c89bbd2d805607320ac6cbdb5eae1686, 0x1d686290e54acd60c7c03d350dedb2bbe6c3530d522796312187888127eb8e29, 0x50cd3816b5ad60ed14a054650e0d010f6d86c1a8a920168671ed2c815b85a56b, 0x47abb7870d6ccf1d47751d8e2a1fcce1ad9a307a20eeb3df4acb7a9405657f6a, 0x5aea1cd3047ed0a190a4044bdf0e6226a7c5f6074da548fae0806e7fa6d65f39, 0x3e0020a4bf82755d9ea30a328d6cd23149af07944265edf2be1e66ff0ddf1b0f, 0x6bb14d61cf2dcd17864869b14a5847f278038b755558b64678a55af98ee896f9, 0x60eaf5b79faeb3b103be985035d1a777bad3ca33e8e609fb2cb638751696cbac, 0x5757d17b0079c99e459784e63870088c09fbd9b3e8cb07374b4096e2b2b528ff, 0x2ba0bc032393732c0be11630b17b5e10054caf180c3e28c6f19d207d6009043a, 0x7045f865ab6f0e530f31e881ceab344e236459589fcaf94a245ee771a5da520d, 0x4aa0f65ef348449b74e02630975648b29e29779f55b718a3ec53fafc1efb659c, 0x54ad2eb12e703bf7a65be53cb2311b76db8286ae20146bf17cc37c5b38a99dfe, 0x2e91d27d48c8b530876e9562c109acfc77d735a3b1fc734fe4b5be8c22b53956, 0x44bceaf916a9a0e579415dfe2324f3595c9c9cde0f42408643aa6d79a7a5b679, 0x11dfa7a7742bc0e43a7777b62079a705c0c4f125c7e0cd754e0e15705e579b59, 0x170e6f0d8fec55e1bca0a434926453cb74e1a9517f9e09fced4d86287e8c7d54, 0x440db9ea7163600c817461838b205c751e4329aa26a74de8994f48c387b30e9f, 0x48cbfc34251fc64cacd6021a008909a42c91cccc2ab9c0106af44f2863497336, 0x6582d484bf5efb33a7bfef28b9890a5b3896ae5cc9b8cce2789244264df14ad4, 0x6b85f860ce324afd9ec6af861c474bb8160dab7294cabaf45d631f54ad667831, 0x6e302b4eefa67c6dda46c4adf4654ba6baa271703077f210f01e3dd4fd6929d3],
    [0x3dd414f92742ed7bd70dc88cd1efeaad81febddf77769776eeeeeeee66666667, 0x5ec7a33382927b67499fc6f80c7b7d277d4f9ea4dd1badfb1f21e07548ef4aba, 0x6384d99187354aa36ecd98e911617164ee5e63c89d7e4f8bbdd0f718d0360d51, 0x503126496d0a44bd2851e3ec84b666a13a649f68f1ea0a895bf737379d6da2ed, 0x9de56017b34d89b9ea651982631b48eae6d2eade968ffd3f44688c59527a5ab, 0x2ff4c45646428ad3fc1f123833118f0169b4313f38648bc7fa5a258918729217, 0x449727428f11dd061e483c27e5ec8197bbc670526392f988d039f20fb31eb8cd, 0x42a3c9975bf8d9f23aaf1d79a6d8ae3fa432bb694f63b43687c939d65dbcc289, 0xe2993cf325257541476a32292fdce30dbc569a2ca01081aa0e52ae18a29eb60, 0x20599318e38d3f0b949f4b465d7b33ccf5b9d163c68d981284a58e730e3062b3, 0x182345e9fb87d73841a71ed931cd774eda57d833403bdba72bbb19bb7d4b89ba, 0x6f85e3d9b38d65c5c93941a18f7dd94245e3fd67e5448c4d07c8b4fc815c77a5, 0x2eebcdf0171676f5b22c06998bb4947bb808126915166f6d5875de208a7d78ba, 0x2f6dcbaa87364c6beda890f3fc5b438077233194b4f2e7ed46f29d0a5c2f4515, 0x17491d4bdee03a436ce3f58f432ab13461a328c8973692f802c3cd1a3818947d, 0x712e8ce1821970b837fa015bf4751af75585eb24b46a23eb99e58a84f26891f3, 0x3ad783d68d62d968714fb67dd7d1d79abc1873eb54331abef3f314534abe60b0, 0x2e881b81ad9f205377c08562179debaef1c19087b3fa6d754d6eb98baf203e2d, 0x57b6f699594bcae9228d882b0d3cf4be85346983762839cd6d3d8192c2c8e753, 0x411ad01a0dd9f3c6c7d7a1400d1a496cb71edfa95222577ccc7475a5d23ac22c, 0x578cb8da7e98a2b18a155832cdf6ba68b64648980e8b9fe84b5f5dcfa64599f8, 0x123a8ee58da2b2d3f8e9830f200c511dabc5bcb50b3340b6345ef047c8b11b7b, 0x104a110529082ee892093c1c0d0a96c1754c82abaaeb9af91e3e6db2e18226fe, 0x32ff24d67b859be9b87ef503ff884dd31b1afc34763c27edb2ff0cf39954355a, 0x734598197fcbe9262623e061cbb04a55a62d4142a3213602a34126ffa11e85ce, 0x63f9c04dcd7a817f29dae70be4d4e5969c8d73ede62616c4f45d48522a15afec, 0x11b8c8f62c0657dab064cfce6220d2f179ecd9340946a11beb3dc883159b8de, 0x1905e3b977929de125542c8bf5e9f45af306ba69ef7dd203a8cb734af67f88e5, 0x34f02bf0ce2b89ba30a428e4cfa2d3975a599331e294b3d953f6115624bad705],
    [0x3dd414f92742ed7bd70dc88cd1efeaad81febddf77769776eeeeeeee66666667, 0x310dcbfe122b0ed50ab5e20a1c73519745868fc21a9afcf96fe1021d95b5dfd2, 0x46d8b1725ddfcdb2713a1cb0b1e7f4b4b9389d1b264ae036d78cdb8b5da87d37, 0x4db433f29987af39815a4cfbccaa39a440e3ad311a74a719bd33d4ed7f0a0f7a, 0x34b7c2ec3fe67f0a50b82075f44bd50132a5af9543469578ef242f2a5cabb1a9, 0x256b6caf865bd82ed67f7b413d7a188edb813131b16d39d1efa1a4cd088ed89f, 0x8a17b455e708f011634daa1a0b0351fa1381d0da0d8e8703ea9bccd94ca89ff, 0x4198fb71fa6e31bb4925684ad82ebc79a8a9ce9815a2d851e1c68da788c74d48, 0x64067b270596b6b6906ab597958bd1a65e5d158e087beab92e5bdf4614220147, 0xa7ae4c6ac28e755f29a17afbe5ed260cd02dd6c16fde7a9c50e72f6355d766a, 0x6b4ad37d45f7a6c209925b927ac6b36be0fc66aee6e93794a85dfc310cdc7dff, 0x65e7865df1abc5cd1ee9977f9795d9ad7aa528b36bf26a45370e74f5725ae278, 0x5c3128cb0fd720b4c2d4daac9d72f67fd9a5ac5da26ee5a72ddf58317cb549a, 0x33e573ee94c50b34f92f97c8396e28c241a5388d100f636ef8f2c66139708848, 0x26b76f7edcab1d9af5114d5272f539821372baaedd3d401b5eac6be70fd8b9bc, 0x394506f5283d9d85530b6325688bd0b29c9448e537f17c7a0deb28ec0c79ea9b, 0x28a486701094e90d410368d14aadc8f34be72ef9bdf10a7214073dc5aab18775, 0x6a626d294aaed969adb142123f64a2986337284881d0e876be572d2d2640247a, 0x3a842d8814252f0a8d824b5abe06585b74eadba4772249a0b01827b3e19a398a, 0x364fbcf6a488dbcde103b42b5fc4cadb13baa1385fc8a2134d198013d174db53, 0x1ebc1b798dea4ae38455dbeaa8d82a5e5f6a758a535f93e55e8b0fecbcc34ffd, 0x6bb568fdbf24678253f443afe1fd65450713094645ddfeef81435dc1d8472e1a, 0xf54654c1a2d1861421f8b097219bc39a0e94fd09ca0333140652ddc972cffb5, 0x5803f85f3e3e6ed658991c4579f1e27a09f255b0eb30b515e88dcba149b21498, 0x45c1fd4926bed9216018ac5dbd952dd9a81939c68982fe9fa741434c3c35adb2, 0x2d28c160fc3e92289a12c11d7d346b3230dcb28b51774ade617fee09e18871b6, 0x527abae58c712df693009c8b52aba74248d43412f99a21621a149d1da1cf4850, 0x17182d40866ae4829917f823ea49d5f5e2195cd93def1fbc784e96fc9cb21146, 0x301ae5abcb6a695be975255e19bb8ab9d8643eb6324aef6710ed910da6ab7398],
    [0x3dd414f92742ed7bd70dc88cd1efeaad81febddf77769776eeeeeeee66666667, 0x58a7cbbcc08cfcff6b3851f2dc2b5737365bf68022661e4f84ed0028215eb995, 0x493d5715ab4c825b31ca6147ee08aac99f8645588831304d316e8ceea62aea64, 0x4ec0364aa1460c0cf30466e22baf62eb339019bb510250e0e6043476673ef453, 0x728094286657c542b0648161eee50231b324f9064fce0b4fcf318d56a7940ac0, 0x197d682b23b6705eb073948c51694d61459b24ccf65b9344c0fb0231926ba5a6, 0x65066649a31d8c510e750f91a22857d11d0fca0a5a34480b0f0a9318093fdf27, 0x65a7bad100d450a116eb84b9c6a735adfd7cdd60cd6a03ee37c7fab96037ff5b, 0x3d4bf6c08f9604fa9c7a9c6abfd4ae27e23a4bd17cb6ea503fc366762f608fc5, 0x6b14ec59f7b86707aaa4ae2b9916438708e214fdcb49075115e5cd3380e1ef5b, 0x45ec0349d01db79f4df48acb84fe23ecba477accdb11646f76555d26d5b9990, 0x51c763e6115d8a5a0ce2f28825258cea570d34442ad43f5e7bd4f62ea246134, 0x1e45231929633a373dce22ec6a92ba1f66f25e4bb8029a8955d403e61a7a38c0, 0x733c62713033d0c1279b4efedfaf8edc40ad6c51accadca1ec2722c4b969fdce, 0x246b8fb5c0e7ecb0e8beeee18080c15b4aecd51f91b98369bb88adf93ce18d04, 0x53c74e40a280f192936512b214fadf17b71f9a5de7b8310748db9d1691807aff, 0x29ef71ee78f073493be8e6975ef71fdf8c63e69c8c9d1229f9cdaa8e7907e8a1, 0x4039e6bdfd11e46e8a257ac09ea2897b77a117b6303ec11864ef1b1468ba23c8, 0x8b575ceaea8c017c60cb3f3efd3e3f6b71b11113969c49063320d5514d2eaf8, 0x2828964cd20e619e3087fa497cf7084959a7bbff3fa2ed2d5633ce2d5b4baa12, 0x355d13f3c467a507d5cf2d3cd300bfabe8970404ee672f2830f0dbd0d8fe6a7c, 0x3a0c592b716789ed0a295f10729d69b6a1d9843e97eb25321a90a3b0171744c, 0x5d04569fa9d9ce0cdfe07bbfd9694c75f3e20b2006925a9d7ac8e304dfb381e7, 0x20828b8dad0d9351f0eb141b92d06f03fb6d23f1f921149293bcbbb26a9daec0, 0x720417448c744cb30174b5f57fa993d3c1bcefa144ba0b4d30895fedbefc1206, 0x73d297d79cf0f8fe1917d3b01e9ef596109352ea7a4081f1aec1c20052ef83da, 0x9eae54564ee2d454aacbf920fd29066dbc7c72f4e52995f637ac4691e27ad6d, 0x45512a4f917f078b83605b8e46500846c27b2cdf9cc8fb2e35c84c99310feca5, 0x394b9cdf995248a115ce476b9fee7d6bf95a2517a0e73aa78910e45a685189eb],
    [0x3dd414f92742ed7bd70dc88cd1efeaad81febddf77769776eeeeeeee66666667, 0x5adc544ab5655394a99509b523ff94bb4e7c6cf387a7423ff93363b1ca4bdf4d, 0x2f0355ef730cd11564e768c2dee3107909f8d53030aa553cad025384e9fdb2df, 0x415a5f29a7f2b9b7839d323ace9f6fad92e81d7f737447c5126e5129c5465813, 0x636a75311ace3df0f58bdd39053394f64d455cd92e79124e46cac088307f9a23, 0x2b074e0bb92450d322e7f4de404b8c40638a9c775b062046428a63cec11959b5, 0x6d797f491c8dc4a82521f663cbecf7c06cb4934eca46f3bf2d37894adb3dcc6, 0x3b1a9879037c761d94be8cdb3ab97ce41453710e66b21da36fa1394ab8f40011, 0x101b1107c993d5d4912fff58bb254825d99de4ca907c49dc57e23617194dc124, 0x1fdd6623d6f7d946336ec80ade5acefc4f7f8e608776bc928530fdd38d2edac7, 0x12449c7ee99bdb9408d59f92607f5f79fa1102acfd4413b798363cf2f01b0b80, 0x6fe4c20a5eab59383b7d0c39a3923d38513d426806861e83d91e241f4a7c457c, 0x5c4ae749681e2e7efa77a4838ce27aa73fc3218079c3e62e417fc52abba5c8cd, 0x37116ebdbcd5986746bf0fff8ef579412dd552e5be28824c7dac543a2ad196c0, 0x319879922d538487123884c57a0fea07257fb0b661867cff0119bb2ec565069, 0x68426231c1264401b799f2c043f15a1f9d9d518dfdd947c86b15040014f7154c, 0x3552394e9beab56769c2fae45649e210edd2d5e934fdaafd8738fcb1a27ff0b3, 0x4b994c274d65a7e6a6f5514c7093b9aaac711c08f0c30a0b6abbe9714e87a7a1, 0x1ef8ce770affff5b4560326355c9d065b0d01505d7056c3d30ace55f7e26651b, 0x2124b9afa54532751b63767d284904ad67c16187710f0f88c4e79a3f6c0640ca, 0xd2fe4c2d93bf5cd630d5a258e3025007b389c884172dd18fd122b87b85cc332, 0x3fb5b6291f9e686a99874cad1a7d157dd5c800f2f3672f20ebff06381aa2ae97, 0x265bda887130116f96cd733f642f6508d09bdb1521390f55bc9e7d742edd3e23, 0x487d5248c8e279eda32a75bd0e2e99150bb39d5c7b93a705680f8a8d00839260, 0x576a27093b41d761615b0f26785cfbcda14ee74a1853864a63ed0d5c622cee74, 0x557df5843dadf89eb5d44b432ed3f04cb14a9da0ba2ea43808f2f3ea52b2bef, 0x2e749c1e5222f5e12b732764eeb7e9f80feda3af19cbad957329014f9c4e6f8b, 0x14ee976962ce61c9cfed5295cb6933f3d1a17fdffc3266c7c74a84ee4dc078e1, 0x34a941b4bd8ec243bc7e833213090aa819c6a0f213c3a8aacdc5a72d08b77b98],
    [0x3dd414f92742ed7bd70dc88cd1efeaad81febddf77769776eeeeeeee66666667, 0x2b06361e1c6d362116a0cb37ecb509cbe2a5b3e74c9cea7fca818745cc7e9fc8, 0x5d73f0680757849c398a81dc026d0c5e399e0f5af20cd22b84172320503233d9, 0x2defd379b366ec425f4ba592c14e775e32083a4613e9b6d521fcdbed7c24e5c4, 0x43de2b2d35f12c3c0f86979018fe426e88ac874432e1fe2095326510e40c2ae3, 0x36a93a53fb2aa74d8de376fb0c2845f51d38b42dbb6984f1266f615c2a15389e, 0x2cac3c19c0c769b1104c1b0a3b14caf9fe77d08da47b9a516d3ef1c41c7e6fcb, 0x425686a2a0ff6eebb07f02cb6521bf728329dc54d2be8468b65bddd0e69f08ea, 0x13ea4e335bcfec8dc7d7c09f93edb65d027e77e6787a9d634085365fae0e8074, 0x18579457697cb6822ccffae47d29a1c73e142679fa28d691a435bb6f5c5c0c96, 0x29d0af355a1fcfc33a344c88239f674fefa3486a9ec0204c90dc339a4b47ebce, 0xa2d8501799c3f30741e837c292549b0a7205accf5b828a0b9a4111d81e05304, 0x51f0fce6a8caca11934971f2765d32ea6065526387bde0bde3ce248fbf510ef6, 0x6a53f68186d583c25792b0d53f2b70949156e1d98e5bb6c90250fa927e95f69c, 0x6260388cd88492c19545210697a54dfa0de4811a8331ac287b4e75fd143418c5, 0x13cfbe8a5403c2096c8d7e420655cf0047ca1365799ddf4cc11ae8fbc885f8b6, 0x6798e876474573d274b17dfd04978b29ce5006501ee7fdd1b3c6d0c72d3a282f, 0x2a6f455b9fdac09c7720fb898b3f39f0467ab60fa6d5166ef306396c0ab39c, 0x222280dba7a8f676cae2992466e46b989172de9b55eb6cca49e2717d17a5f591, 0x3dc72bf29000fc34a6bc15472283aeeb298caa0a8a5624e9c47a4d95ba2be57a, 0x3e0d3b56aa9d7ef5c7deb2e133c1e09ff3901a483a68d458b64a1284e9376e49, 0x4c9d3d49f3401568c6a29f1fe603ef2762e755f92af02cfe5406d51a7daad559, 0x30643cf43f19a7268f9e72a8e35740c392ea4d4bb6ecf89caac0974105885480, 0x1db838c9824b9ee8e925b22575900d2f95d240745a11ddf3a8a0773e2f653e5c, 0x51f858107b669e9012a0b6b26ac5ee2929dfa7b1a9313f343119d50b1fac6178, 0x410705afd116722c524991032a6451b7fca8c37011e9abcbd1d14113d16b5c5a, 0x7093cc59485b544ccf062a455a4546b656f53d91372901c3ba97a40d0e9c8c69, 0x3062857880d8cd91f625251113cf1771505a7a9a5adc0cb26d1f13080decb04f, 0x525f423853fa371ec8657c043b04f32c91d530bda3ca46a2c994818ceb958ff1],
    [0x3dd414f92742ed7bd70dc88cd1efeaad81febddf77769776eeeeeeee66666667, 0x158ea88335f5a16f768846a1b168a191396e9c5d0da8419, 0x39f6d3a994cebea3fae8d8d0b55fd77eee0a144a18ccd12524a11ad0af9fb5a9, 0x6d1be8c6bdc166ee3f652f801bc4a997078a4935a1fc939a85f02f96765a191, 0xc8fd8460a0eb005cf3ef7492ac6f01a54d92b0c7a379322e560a380247d7209, 0x431dcca968ef6399aaa4a8a541d11393a06137584e6343c1ddc67384b44464e1, 0x3d03d15430d99fe6fde73459456a621c52d2d1850d9d948cb7a1f4a159209a52, 0x6dd3abfdf187bacc6966506c160b0ce43cb7773f17ef0da94dce6316b65f62e6, 0x497bb187e63dbebb7448349256037df8be720f66594570a05d9ef3ce20193819, 0x50a553023335fd247292b2583d62cc57a32814bf18c0c519473aa14692ea18b, 0x5ab9fd62799ca3b5c5bf5e09c352a9697264cb33963528f536f70efa500d8fe8, 0xa14aa604666bda66f1b980685a58496fe042f2d0ff7a16210d7c73304fdfd2e, 0x1933a9f0b000d82ee90e958afb913cc8d6c364288110c7f673a24bed6195d04b, 0x6ee35223066a1edb66016f3bd9960a3052e59240fabb283d837e5829a61663a2, 0x4ddd6aa1054e879209bac4076df187f1d6ae4923d871a0a57c1915e3450fc40c, 0x3616a9fcc70c94a5e66e3d3c2b238ef499b9408476753efe7ed502baa5ea06a7, 0x4a4b7a3b6af13d1e21c752d67f78c6614e2451fd550725ce08021cd224d7ef71, 0x280f8edfe8fe9ba165bbd5d7deea4fa4238161016d73c1ee664ae4672293e5f9, 0xe9e464710ee2de5a07924748090d884c752d1b0b041b809045e24433bacba66, 0x37f8ee45acb38b6fb1a843446a40170a98c281af3cc0ab14c5b02e672a3fca02, 0x65116c1079740a5b67c73400bd04acce9adea8ab67facfc31b021a5e1a506cb8, 0x8e9775873fe53b015703a3221a32d2dc764503137d6f49a08a2525a2d06fcd6, 0x4d5316db7188a4f238e0e3035ab338505d88ee968927213a13e517722dc24dd8, 0x3c86ca3be5d81688e62dd4bbd383acbaefb0b2258f3218403bf40cb48b991ccb, 0x69abc77b68b8557c67e254c9faaa27b685ed8754d55038054b4f014c030b8787, 0x50775cede6028cc61b17e99dc0da11cb9042181296c392ff21d7056b057aa54b, 0x1d263f8883209fd836fa6679661ac2aba85dfacad832229ca3b24137b0094b27, 0xf5a1227dbfbaabdbcf2f561ae1961f257ebacb8945e03e8d8ec49cd29e52d4, 0x2405a2d8ca811a07db033c8e6a9828811e66dc2671abf0802f3b1f69d9baf1de],
    [0x3dd414f92742ed7bd70dc88cd1efeaad81febddf77769776eeeeeeee66666667, 0x56f23d7e5f361df6266b620607396203fece3b0264eb52d6f5a4c9818b7da346, 0x1b46fa31af7059b6a2a432d4b6f8e788c868db48b6bd6899fb5e47db3a91f402, 0x368df4635ee0b36d454865a96df1cf1190d1b6b9bd684ce562dfe4ff594ed45c, 0x5b85b9fe494670616bcf59b580de16550c3765b9fd5c24be4fc6aca4d120d82d, 0x6dd3abfdf187ba0e815f38736770e79941dc17f61cb69453c5c016b6d8d47f40, 0x619fb553815c339b1da9f94a230f06c11e18ec4895f17a20784336dd0c319368, 0x30cfdaa9c0ae19cd8ed4fca5118783608f0c8f42acadb29f0165ae9dde48ae74, 0x1bdac94d6436d44a2bf13190489ca29f73059b648889406de8f43d8471d5ee9d, 0x55afa83256694656c1b051c32882c10f115fca2c0fdf8bdeb955bf22fc2dca30, 0xf1eff90699a1b78b8c4c322708f8b7b212ee08004a2107cdd22a30db9d02ad5, 0x50a553023335e7d92ec410b7ada83d3b5ba56302f16cd1e9056800252a5c6954, 0x52536f67944707585fbd7bbb8146692c9838bb03ec11596148c80404d6431595, 0xa14aa604666bcfb25d88216f5b507a76b74abe159ff7688ddd44e1653668d7c, 0x5b3f78f4b23806e15227c5ac83ef75d55e5090a1bdcae1001e483d41bae4988f, 0x13cdeeb7ce937011aae26a3d1b3ed92b93a398d19443fc84188888885ccccccd, 0x6b6688dd5dea5492795bfb108be307a7051ec927bae6ce92e070f5153135566, 0x43f0bf3b321a5a2f1c5c178b03fd9dfcd6a66f80ed69e76a502aa1e9d1295561, 0x4f4a4f153d6d3129721f406fd71baa44f406bcf0a342104bb6b70afd9cdf0009, 0x62f5f99fc97d87b384e5e8f4eee34a44d79d5381948644a3445161565462e3b8, 0xda57bb8f7a2aed66b903fda080f4f8779d6ca9f6f2d68fc0d73c41d0e3ee736, 0x37913e5502936a7d21a32bda5ec7526819c332647ba502577b5e6cfd8f421b84, 0xe884e39193cc8c3d54eff0ac4c0f1f367bb16d5325ed85498a89b583c7f1f2, 0x67a8334de363fedaf72d2a35e391e21cfa49487c0ab6f6b636d3f8a8719548d8, 0x4d8054eda83cb1c7501a7e9662076700ac5dd86ceb22580c507c3d8dea664c09, 0x59eeb7f44d00c36b9e0c74b05f63d843beae989018d8696f7529b20cd731ac99, 0x5272648d4656b33dbb1aef828877bff016f0b6020be2f9dce66385dcc97b4b5e, 0x6061b21ce8cafdb5e75f3ae6acaa7e9388dce727ec42b1cf7bd1155a29cea538, 0x5cc70fe80e5dd9b1eb4153b269349fd68360a40fe107b75fb165758f98a42062],
    [0x3dd414f92742ed7bd70dc88cd1efeaad81febddf77769776eeeeeeee66666667, 0x56f23d7e5f361df6266b620607396203fece3b023ffec4ff3fffffff4000001b, 0x24a76032c3bef88d6a8ca44dd5de771fcd4ce6ae1fff7b3463c3c3c372d2d19c, 0x6404400b83469e48545a0fb69ee5fba0342b2416aaa9404f7373737296969f3c, 0x59ba51f447d6a05f82cb48e423fcdeadbba9c3e5ca19ad72260b18910f0ee5c8, 0x2ab5df5488985693dcfa5d106f5692f47d2aeb9550d6f978e50d794300008c5b, 0x431dcca968ef637aa464db62f81a54a4c4b1290f35e41a50435e50d6fffea11e, 0x4937c7fea10526b4563f7af79a4b4510d692b86daf2762861af286bc00029034, 0x6a1ce67c286f597c151ced935dc26b83ff52c881480c8ec9c69723bb216090da, 0x3771a91183350f655026cb7e4763aa18cf01a77bde9b0a9b590b2163b21a11c6, 0x5b3b05e749ee94adb01a994fc93febab2613034bd25c345cb56d14081e0a62c8, 0x4690a8a1eccf2ade08eb8ea0b7f33593f030a69da6f3def442c8590a85925b8a, 0x5b495c2eef4d04a964efb67a9491fe3330a07604d5f257482dc22a0b946740cf, 0x17858d8b4eefb8f4ada3da3592a6673150103789e2514a516b981dae2c85b5f8, 0x6571cd03afddbd34b0581a2dab8c169640b4ea7ba7142f7ead5a7365170746e6, 0x6caeccddf703a573b0063a878907ba84fe81c9c2cffe763f0fffffff10000001, 0x1b46fa31af7059b6a2a432d4b6f8e788c868db4bffff9d2cf0f0f0f0b4b4b4b5, 0x46d8580827a75ac891152076b08d923c24f3e43ab8e28d8d9c71c71bd5555556, 0x6dd3abfdf187ba0e815f38736770e79941dc14a486bb13c9286bca1a00000001, 0x1163a5e6130ad2cad47be0679b0b7a00cc8fa566d9995a99733333330ccccccd, 0xb0a7175a27085d61d427619257d20c38e120f9ec30c08c2f3cf3cf3b6db6db7, 0x6ea8ab5b04d08339482b9407ac1a7cbf444c4b1a22e72944dd1745d080000001, 0x64cea7c2c00361cf7a7514e599124c8a328ea4e137a587a61642c8582c8590b3, 0x6f1915afb28c42ba866cc45d093b19afc595bd2d8aa91829b555555460000001, 0x6aa770fa96ed0cdc062af9f2ea24419e803dd454ae12f879f5c28f5b3d70a3d8, 0x310bee2d07c2a14fc6e73ddc04133ddade81769ecec43a9d1d89d89d1d89d89e, 0x896583f0c9068184fa5784c727dc426520e0c2625ecea5ebda12f6838e38e39, 0x5f3a1296990a8256bc5d3a98e3573a96a95bc6b95247cb9176db6db60924924a, 0x6beeeb3bc5a44881038e2168963594284523521472c0aded69ee5845b08d3dcc]]

/-- the inverse of the matrix (not in the code) -/
def mInv15 : List (List Nat) := [
    [0x14090167bf9e1c0, 0x73eda753299d7d483339d80809a1d80553bda402fffe5bfedf2139b0c9a09a11, 0x1859bd4269388dde8, 0x73eda753299d7d483339d80809a1d80553bda402fffe5bf42d72feecadf9d601, 0x33b106887c8e827e80, 0x73eda753299d7d483339d80809a1d80553bda402fffe5b4f3fb6965781ddeb81, 0x1b760b78822bb553340, 0x73eda753299d7d483339d80809a1d80553bda402fffe58c94e7393b0bf95dc01, 0x4849f7bebee25cd0e80, 0x73eda753299d7d483339d80809a1d80553bda402fffe573a1ec44e11d8195441, 0x3b849482980a95ce220, 0x73eda753299d7d483339d80809a1d80553bda402fffe59ea40a0221088304a01, 0xca3f2b8149efdab480, 0x73eda753299d7d483339d80809a1d80553bda402fffe5bd053e2449f2b1c4c81, 0x4f170dcfce88491c0],
    [0x73eda753299d7d483339d80809a1d80553bda402fffe5bfedf2139b0c9a09a11, 0x3623a0f94a7f02400, 0x73eda753299d7d483339d80809a1d80553bda402fffe5bd6c103a402def913d1, 0x11f14815fcb06889000, 0x73eda753299d7d483339d80809a1d80553bda402fffe56a001856b0dcad74181, 0x124eb25056c7ce377800, 0x73eda753299d7d483339d80809a1d80553bda402fffe2e1fa133c975fcbdbd81, 0x55f718c7282fc8526000, 0x73eda753299d7d483339d80809a1d80553bda402fffde2c2f32d6fde09ac5041, 0x80313fde33c807949800, 0x73eda753299d7d483339d80809a1d80553bda402fffdf7d8861a678aba13e941, 0x381c73dff7a28b81b000, 0x73eda753299d7d483339d80809a1d80553bda402fffe46aa56695d32b3eef681, 0x4edc323c991842f1800, 0x73eda753299d7d483339d80809a1d80553bda402fffe5b7934bbd5ca26400e81],
    [0x1859bd4269388dde8, 0x73eda753299d7d483339d80809a1d80553bda402fffe5bd6c103a402def913d1, 0x1e02c1c246964fd8a5b, 0x73eda753299d7d483339d80809a1d80553bda402fffe4e945b128f1f30a22861, 0x406bbe8458e56fe11170, 0x73eda753299d7d483339d80809a1d80553bda402fffd7feac86f4fb0b675eba1, 0x22896efb0dc127b6e2d98, 0x73eda753299d7d483339d80809a1d80553bda402fffa4e7b1e9f09fba5507b61, 0x5b9b9d876d3a2fe4091f0, 0x73eda753299d7d483339d80809a1d80553bda402fff84baa9e9944f4c4349f61, 0x4be8ddf2ba2ef1e30e6dc, 0x73eda753299d7d483339d80809a1d80553bda402fffbb29578d1934ba143a661, 0x1035ed4ba69e27e088ab0, 0x73eda753299d7d483339d80809a1d80553bda402fffe1ffe5bd7cae917108ca1, 0x65e9d4ec2641dd34f48],
    [0x73eda753299d7d483339d80809a1d80553bda402fffe5bf42d72feecadf9d601, 0x11f14815fcb06889000, 0x73eda753299d7d483339d80809a1d80553bda402fffe4e945b128f1f30a22861, 0x603561b895afc2174000, 0x73eda753299d7d483339d80809a1d80553bda402fffc8cfe19b7afa129f01c01, 0x63104d63d445490a6e000, 0x73eda753299d7d483339d80809a1d80553bda402ffeec8aed50de01a441c3481, 0x1d4b6757ab637ba22b8000, 0x73eda753299d7d483339d80809a1d80553bda402ffd4e867cad45e233f9f3401, 0x2bf73c348c44e422346000, 0x73eda753299d7d483339d80809a1d80553bda402ffdbe9b866d46329f9c5d281, 0x1359b6fca519585ea9c000, 0x73eda753299d7d483339d80809a1d80553bda402fff6fc2faa62e33827697c01, 0x1b535bc2a50c682336000, 0x73eda753299d7d483339d80809a1d80553bda402fffe2d891b2aee8e26732721],
    [0x33b106887c8e827e80, 0x73eda753299d7d483339d80809a1d80553bda402fffe56a001856b0dcad74181, 0x406bbe8458e56fe11170, 0x73eda753299d7d483339d80809a1d80553bda402fffc8cfe19b7afa129f01c01, 0x8b8d152d199d35cb65f00, 0x73eda753299d7d483339d80809a1d80553bda402ffe071d2bdc550f66a6f0f81, 0x4b62987df00b0126fc9b80, 0x73eda753299d7d483339d80809a1d80553bda402ff7058b6bd274dba1dd6f801, 0xc93e9e1aa20ddca85aaf00, 0x73eda753299d7d483339d80809a1d80553bda402ff289d76e0885a379e483b01, 0xa7adbea5ed4f4ac19f9cc0, 0x73eda753299d7d483339d80809a1d80553bda402ffa00d84427c152f40df0401, 0x23faaf765b75b166eee300, 0x73eda753299d7d483339d80809a1d80553bda402fff6049ce2a5537acb6b1421, 0xe323ecf538d26077b280],
    [0x73eda753299d7d483339d80809a1d80553bda402fffe5b4f3fb6965781ddeb81, 0x124eb25056c7ce377800, 0x73eda753299d7d483339d80809a1d80553bda402fffd7feac86f4fb0b675eba1, 0x63104d63d445490a6e000, 0x73eda753299d7d483339d80809a1d80553bda402ffe071d2bdc550f66a6f0f81, 0x66c7deaa6bd91be0769000, 0x73eda753299d7d483339d80809a1d80553bda402fefaefd32314b5d9de5e9701, 0x1e96e9e37b86b602cdf4000, 0x73eda753299d7d483339d80809a1d80553bda402fd47d6a96491362bfa81bf01, 0x2e299d2a922ca18941b5000, 0x73eda753299d7d483339d80809a1d80553bda402fdba3ffb24c202554bacae81, 0x146a16a85f45bc66708a000, 0x73eda753299d7d483339d80809a1d80553bda402ff819d948c6137199ccddc21, 0x1cf2d5ef77ed60a96b5000, 0x73eda753299d7d483339d80809a1d80553bda402fffb46fb780a7dfbcbd97901],
    [0x1b760b78822bb553340, 0x73eda753299d7d483339d80809a1d80553bda402fffe2e1fa133c975fcbdbd81, 0x22896efb0dc127b6e2d98, 0x73eda753299d7d483339d80809a1d80553bda402ffeec8aed50de01a441c3481, 0x4b62987df00b0126fc9b80, 0x73eda753299d7d483339d80809a1d80553bda402fefaefd32314b5d9de5e9701, 0x28fc335fca817dddc1f1ec0, 0x73eda753299d7d483339d80809a1d80553bda402fb277bfe82f530338e6ae601, 0x6e04047508ff6b150211780, 0x73eda753299d7d483339d80809a1d80553bda402f8ac28ded937b8c7082de501, 0x5c1aa439a5d7a1022dbe9e0, 0x73eda753299d7d483339d80809a1d80553bda402fcbfbf851d5b9a9d77fd1121, 0x13d879a9aab73bc42511580, 0x73eda753299d7d483339d80809a1d80553bda402ffb49ab6683c9153141e9701, 0x7dbfc344ba521c4fbd840],
    [0x73eda753299d7d483339d80809a1d80553bda402fffe58c94e7393b0bf95dc01, 0x55f718c7282fc8526000, 0x73eda753299d7d483339d80809a1d80553bda402fffa4e7b1e9f09fba5507b61, 0x1d4b6757ab637ba22b8000, 0x73eda753299d7d483339d80809a1d80553bda402ff7058b6bd274dba1dd6f801, 0x1e96e9e37b86b602cdf4000, 0x73eda753299d7d483339d80809a1d80553bda402fb277bfe82f530338e6ae601, 0x9277cd9d4928f600d150000, 0x73eda753299d7d483339d80809a1d80553bda402f2f8a8ca7c529da3b26ec801, 0xde173fa385727227d0c4000, 0x73eda753299d7d483339d80809a1d80553bda402f51167358ca766b15a92dba1, 0x62a01dabc5a0b2c3aea8000, 0x73eda753299d7d483339d80809a1d80553bda402fda28eb071b42261b224f801, 0x8c5efdb1edc0de1d7a4000, 0x73eda753299d7d483339d80809a1d80553bda402ffef63a4b4c53f5d2744de01],
    [0x4849f7bebee25cd0e80, 0x73eda753299d7d483339d80809a1d80553bda402fffde2c2f32d6fde09ac5041, 0x5b9b9d876d3a2fe4091f0, 0x73eda753299d7d483339d80809a1d80553bda402ffd4e867cad45e233f9f3401, 0xc93e9e1aa20ddca85aaf00, 0x73eda753299d7d483339d80809a1d80553bda402fd47d6a96491362bfa81bf01, 0x6e04047508ff6b150211780, 0x73eda753299d7d483339d80809a1d80553bda402f2f8a8ca7c529da3b26ec801, 0x128b96f39b9e3d56abee6f00, 0x73eda753299d7d483339d80809a1d80553bda402ec348b288339efb49b184f21, 0xf973fb0bf65bf425f041ec0, 0x73eda753299d7d483339d80809a1d80553bda402f7307a49df35fa640f9d4c01, 0x35f2991767940e17488d300, 0x73eda753299d7d483339d80809a1d80553bda402ff358752d2b0013068a78501, 0x156f3b7759f0e7bc233680],
    [0x73eda753299d7d483339d80809a1d80553bda402fffe573a1ec44e11d8195441, 0x80313fde33c807949800, 0x73eda753299d7d483339d80809a1d80553bda402fff84baa9e9944f4c4349f61, 0x2bf73c348c44e422346000, 0x73eda753299d7d483339d80809a1d80553bda402ff289d76e0885a379e483b01, 0x2e299d2a922ca18941b5000, 0x73eda753299d7d483339d80809a1d80553bda402f8ac28ded937b8c7082de501, 0xde173fa385727227d0c4000, 0x73eda753299d7d483339d80809a1d80553bda402ec348b288339efb49b184f21, 0x1522a7f6bd41b9ee185a1000, 0x73eda753299d7d483339d80809a1d80553bda402ef53800289cf764ff1808181, 0x96b9b522e51f53fb3152000, 0x73eda753299d7d483339d80809a1d80553bda402fc6209f80c77f8c4312c5901, 0xd739f3c7dfce9701db1000, 0x73eda753299d7d483339d80809a1d80553bda402ffe75f2366076cf0363ab301],
    [0x3b849482980a95ce220, 0x73eda753299d7d483339d80809a1d80553bda402fffdf7d8861a678aba13e941, 0x4be8ddf2ba2ef1e30e6dc, 0x73eda753299d7d483339d80809a1d80553bda402ffdbe9b866d46329f9c5d281, 0xa7adbea5ed4f4ac19f9cc0, 0x73eda753299d7d483339d80809a1d80553bda402fdba3ffb24c202554bacae81, 0x5c1aa439a5d7a1022dbe9e0, 0x73eda753299d7d483339d80809a1d80553bda402f51167358ca766b15a92dba1, 0xf973fb0bf65bf425f041ec0, 0x73eda753299d7d483339d80809a1d80553bda402ef53800289cf764ff1808181, 0xd27c56743af73fc74960030, 0x73eda753299d7d483339d80809a1d80553bda402f88d5b8686f742443cc26c81, 0x2dab677a84e21641c9605c0, 0x73eda753299d7d483339d80809a1d80553bda402ff5416fdb8310c235329da81, 0x1232d8848f746bb51187a0],
    [0x73eda753299d7d483339d80809a1d80553bda402fffe59ea40a0221088304a01, 0x381c73dff7a28b81b000, 0x73eda753299d7d483339d80809a1d80553bda402fffbb29578d1934ba143a661, 0x1359b6fca519585ea9c000, 0x73eda753299d7d483339d80809a1d80553bda402ffa00d84427c152f40df0401, 0x146a16a85f45bc66708a000, 0x73eda753299d7d483339d80809a1d80553bda402fcbfbf851d5b9a9d77fd1121, 0x62a01dabc5a0b2c3aea8000, 0x73eda753299d7d483339d80809a1d80553bda402f7307a49df35fa640f9d4c01, 0x96b9b522e51f53fb3152000, 0x73eda753299d7d483339d80809a1d80553bda402f88d5b8686f742443cc26c81, 0x43668adde9eac917a394000, 0x73eda753299d7d483339d80809a1d80553bda402fe6067c408475e0387b0e401, 0x608698c63f233f11e62000, 0x73eda753299d7d483339d80809a1d80553bda402fff40928f23dfb64cf470b81],
    [0xca3f2b8149efdab480, 0x73eda753299d7d483339d80809a1d80553bda402fffe46aa56695d32b3eef681, 0x1035ed4ba69e27e088ab0, 0x73eda753299d7d483339d80809a1d80553bda402fff6fc2faa62e33827697c01, 0x23faaf765b75b166eee300, 0x73eda753299d7d483339d80809a1d80553bda402ff819d948c6137199ccddc21, 0x13d879a9aab73bc42511580, 0x73eda753299d7d483339d80809a1d80553bda402fda28eb071b42261b224f801, 0x35f2991767940e17488d300, 0x73eda753299d7d483339d80809a1d80553bda402fc6209f80c77f8c4312c5901, 0x2dab677a84e21641c9605c0, 0x73eda753299d7d483339d80809a1d80553bda402fe6067c408475e0387b0e401, 0x9f024bab25b8eb53331700, 0x73eda753299d7d483339d80809a1d80553bda402ffd941dc46ffbb3f8eb85881, 0x3f879b685b3003a1fc080],
    [0x73eda753299d7d483339d80809a1d80553bda402fffe5bd053e2449f2b1c4c81, 0x4edc323c991842f1800, 0x73eda753299d7d483339d80809a1d80553bda402fffe1ffe5bd7cae917108ca1, 0x1b535bc2a50c682336000, 0x73eda753299d7d483339d80809a1d80553bda402fff6049ce2a5537acb6b1421, 0x1cf2d5ef77ed60a96b5000, 0x73eda753299d7d483339d80809a1d80553bda402ffb49ab6683c9153141e9701, 0x8c5efdb1edc0de1d7a4000, 0x73eda753299d7d483339d80809a1d80553bda402ff358752d2b0013068a78501, 0xd739f3c7dfce9701db1000, 0x73eda753299d7d483339d80809a1d80553bda402ff5416fdb8310c235329da81, 0x608698c63f233f11e62000, 0x73eda753299d7d483339d80809a1d80553bda402ffd941dc46ffbb3f8eb85881, 0x8a99e1eeb68e81f251000, 0x73eda753299d7d483339d80809a1d80553bda402fffd6e8765c50ce10b380901],
    [0x4f170dcfce88491c0, 0x73eda753299d7d483339d80809a1d80553bda402fffe5b7934bbd5ca26400e81, 0x65e9d4ec2641dd34f48, 0x73eda753299d7d483339d80809a1d80553bda402fffe2d891b2aee8e26732721, 0xe323ecf538d26077b280, 0x73eda753299d7d483339d80809a1d80553bda402fffb46fb780a7dfbcbd97901, 0x7dbfc344ba521c4fbd840, 0x73eda753299d7d483339d80809a1d80553bda402ffef63a4b4c53f5d2744de01, 0x156f3b7759f0e7bc233680, 0x73eda753299d7d483339d80809a1d80553bda402ffe75f2366076cf0363ab301, 0x1232d8848f746bb51187a0, 0x73eda753299d7d483339d80809a1d80553bda402fff40928f23dfb64cf470b81, 0x3f879b685b3003a1fc080, 0x73eda753299d7d483339d80809a1d80553bda402fffd6e8765c50ce10b380901, 0x197162cf757a11156cc0]]

/-- the tables have the sizes that the code reads and load without a panic -/
theorem sized15 : (opt15.sized 14 4 57 && opt15.below blsMod) = true := by decide +kernel

theorem ok15 : opt15.check blsMod 14 4 57 (opt15.plainC blsMod 14 (opt15.plainM 14)) (opt15.plainM 14) = true := by decide +kernel

theorem inv15 : invOk blsMod mInv15 14 opt15.m = true := by decide +kernel

end Verif.Poseidon.Bls
