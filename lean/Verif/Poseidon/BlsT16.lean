import Verif.Poseidon.Check
import Verif.Poseidon.Primes
import Verif.Poseidon.Bn128T15 -- only so that the large tables are not checked at the same time (memory)

/-!
# Poseidon over BLS12-381, 15 inputs (t = 16): the tables, copied verbatim, and their checks
-/
namespace Verif.Poseidon.Bls

set_option maxRecDepth 1000000

/-- starky/src/poseidon_bls12381_constants_opt.rs: C L1779-1967, M L3672-3961, P L5794-6083, S L19151-20981 -/
def opt16 : Table where
  cF := [
    [0x45e4ed98c84747be393163a2486cd016bccd5bfdb4f8a1bcaae81731cf55c23, 0x2da074637903a654047e848ac04860aa7ab118d04cd7819a63ca17a3689c5ab9, 0x25d94d96cf535b1df053502dad199d3557acbdb79c7b057d03c9dc25bb57cc80, 0x2351314177c537053c4a0031639c2fd002ef3196b7c68dbc545c8149c3bf0759, 0x4722c67773def58ec2b30732d9af050cab631c1ff6f45f05c5506c086708026, 0x701746137e2ab1fbb7295a9e46bea4d74680973fa54012e8cdf02b5a8ad7b144, 0x2aa114f8bd0b8026fe151972bf844a8916d29b17929d49b72b2cfc781b10456d, 0x69e8c9d11aa1307676d0450db9112d73918f36ff9f5369da04380edda4506b70, 0x317fabd80fc1060098442cc22691b72c1618bad463ba64f49fee15a1373ef22d, 0x9a9f0ac19dd2791d4a248cc0b9ca2b2c4e3d6f13448332241a2cb53b7e305cc, 0x1899578c230e8d8d206ec1adb99e54fa3e58025ebc25bda7d57d8d2a40f725e, 0x41e5cd960a62bd02593a30da3cf15bda30a637448bf624de7e4420520880075, 0x5eaa140bcb70329d92388c0dd4527b609b4ee931258e6c65313970596a5a1ca, 0x2e4577cdc277e0683f9a399980773f32dce5568befdc902b1a95cd8e57f58cb9, 0x3c87867ab1da122cb344b36c76b4b2c1c02964574140a5c46f5a9aba776603e5, 0xfaef4e66da19089373a9568d925b0e71e1d217ad07a666bc307b705138b18cc],
    [0x7383d4261f135b82bf6707eebac5c00030827485b89daf83c5428b960f03d769, 0x564c84034e6f8e0710670ad9b174abda269a5d54fe64f38bef3004f3470af074, 0x4af42a29dc9aaaf29bec192416b3f91b4891b37d2764c099c0a8d6d1b92e1588, 0x27bd54694b1c0ca526b70ae6a93b7b7f541366241e106ac623585fb83134713, 0x1b7dc69816b6fadaac958f0d32260c256aa52f6f7d9e4f0ce8daebe2b1badec9, 0x60d26e54621abe62159b11119e7e27edb5677d59d3e138ac60d44f76d8f984ca, 0x6955ff4bd5f5f02d9efc8245c62b20ee478a3309fb693def21c8d4af57450e66, 0x16733e29238a2f47df1391bd745be64ba40b79e635cc4889c9f8e4f8f543e81f, 0x6f3b09a94d76c570235120a0354a35af6a5a1467770ed2d5d7acd7d617816ccd, 0x25fdad973f9cd6b3d06971cb5dc69a7aa955b9f22687b80f250cd20d9a0be8ea, 0x4fffdf790adf0755a40521792df92f359d42cfc581dc9b41bd0be2cb8827129, 0x5b9ae68985c5798619d972b89afc2a2101292f015aa39b683dcad9f86074ddc8, 0x491738311944c880e7277edc0bfc850298a0e6bca77f38fad185abeeba7aa6e9, 0x3d6019870abc7dc87ee35052db6d46ee83ba5e9c7be9913a192969d49b864093, 0x455dee4cac8f2c2265d34f7da65934f7c1c87a7bcb4f0c0613066ab9a5ffcabb, 0x615e67e352a1066633e8d546c2d91e66551cdd57f1087f44f848e5a8b7530ded],
    [0x63340de325d4a1d4d6349d19f1fc91d15967fed8434faa758b08b824675e0448, 0x1c4fd093e5da163f16bd966a8c1e56076bf6333cb87f001879c5318b15e0199e, 0x4123992121606a7b4563ee3666f20b793f2c890925d5c6238d44c8a9e87efdaf, 0x7431a16f614bf30a6fad54cf1aa78905c8356a98117eff98563e4d8d999fdf0, 0x3fb395ab754a8c1c998bb820e6dead6afecb3cfb91cff1f16b411e10f3648697, 0x4e1abfd504e1591de0b24459dfaaae7033a8c397e62b741c877554c8fbf15e89, 0x542f8ac80035cf516b8968d3014a7042ddec8a584cc27597538778aef9292f49, 0x4d0f605a04d5aefd6a949770e40ca58e589a7b50d1b4e4c6f7848582577e4677, 0xee626dc703c2febb496341030ce217530291da2dec238c2492efff5bc4defb5, 0x5a7eee8ee9f54bac751973f73244a6815e1e4156661632d4359f1917c72dddd8, 0x6a7e27a728fd3944efd0fdffa858523ec13f7a57b4bb09246f4a50ce0437853b, 0x27b6479cab7a1c5989f3f13d8a986e0b8b20bcd2b3203a8768bf139c4a08abbf, 0x5965e3e8284a6914e4f1e9cd4ff786dc982d29832bef1edf449c53b71b1d4f59, 0x1b49743956192bab76d6239c448b86d15c8b6b9d128e0136475c863841cd8da0, 0xd1b3ea2114f82ac022b02eeef1ad591a828e53b4d5cc8d692ddfd7fd20099d1, 0xe57c8c104a4bff63ec7b44c8089a135865aa25fc35271769da01e6498ef9c08],
    [0x74bae0bfad557b23ad9353118d009e3f94898de871955e5782257b7202faf80, 0x21da4c631620acf8415a2c4895ddd62a77bb571543231769852b88fb7c366bc1, 0x44c4e5eb029dddf13b195e49167d5cb45b949e96adf08d336cdb94d28c826613, 0xc90ca99d2bef019a67733560c53a16eab89b38a3807c91111a35fc7b527878d, 0x44084e04967b4f7e24ce14511a99b36737722ff2bfe54af24654ee310b7d0852, 0x42e9f2f08b1eaea2e8febfe3f510aa318e30b0dfcfcb1da8c90751719eb64b25, 0x365c107fb2e790e86cbf4003d38f895a4badafdd64afa6e00fa904dfe8bb30a7, 0x13ecfecee522a5c60136d7048ea01a0de8f9c364da255853b67d3420a428a305, 0x3a106cdd1eda442b6984376a01fe918f7faea33c52d5d5520f800b2bd6712c5, 0x3b4fd83601e1498c4e2c3040564c4fe46f50579b25566b7f1a30690982c36cfd, 0x87f95f73297d8a97cfa4cdf4ca673e550d83a8151e5e41b47cecd0ef23e527b, 0x28df5a866aafab77ec007038586b269729674d9c4994791f28e803f10b5b8c82, 0x2d474db700ef75c61318bb932bdd6351f6d20eb941b82178c3a83f921ddb1d5e, 0x39ced808a7f996608d6351e4affd8642107d9d3a884d654b6d768e5cea9a4f5c, 0x54d5175e3c4331637d4d113430c6663ace2543348d52624d91e87948a70294d1, 0x5c1c2e14d7ffab328a45ad5d0b3851bad739fdf44bea9858c4ac0ba1311a8cf3],
    [0x195627f5745ff8b6e4f1b8518dc8707f35490675e57466c35fa182ce51b8240, 0x37e11eb76be050da85be805f91d80e6e6de821b64fb428864ece182f75275b45, 0x202f5c31ee956f91db7349e1b338564157738b27046c9dcadfc5e7eae31084fc, 0x1ea749fff31f66997dc52e3c2f8469f509f6a23e058201a9c1deb12e4fc2ba69, 0x29bd5d2a948ef479c27ee6925091937d7a529a0bfec85b36369e6f84099d0647, 0x1ab6a769e71813cbdcb65abfeb12dc1ab6d963f6f500a8e8fb9e1068d6ad5afd, 0x5d5286df908e18f1e9cc8e5700702c9122850eabc7fc939d3c698523c4a18d2d, 0x39dfda3dcd45e839500ade3c97ebe4ebe839b0a75a32dcc95e05557521fa093f, 0x5fe9722fd5561d2c9e2e75e8c85eede42fead3489f043853a65679976b4549f7, 0x4e06cbf0b576d7282bc5d45a25fe82dc2682bf9d3442f21272ac258e534d2bca, 0x69149b43b6c7f8559f7d09f9bd7539ec4427333060da11ee01982c0c4cdab4b1, 0x52ad107467db81d6358ab3b980c4a6003371b0785f6207f74aac8ab88c6f6ee6, 0x59ee0d5087786182f1104ac7884154e02e538efc9cedb87f341deb165b7c4958, 0x2a080cf274fed36643046af7c50ce0edee73384397bfc443e351476c816739ff, 0x24bda6bbe3a51fa4237db7664c495bf9984cdd9c7d35808f0fbf79b1ce35ebd, 0x47612dda4d81feba73e701fb62becc59a9a680a2507ff8e4a8c9d8bc95a417f1]]
  cP := [0xfdab20a67d09ff733ec50eb4779074a2c903c622ab027b67686343c04b0930d, 0x346fadf10b48a5e2e23ee1a95bde66131d9ebe27caf5a9d8c7b0034ad822551d, 0x550eefb262b49c44ed3df973b1fe29cc0a22dc5eb5afe8783787c454e119053c, 0x113950dd8e7a94e98a302c0395bef545c0c36270449aadf4e6a962e1021bc4c6, 0xeed88cd12d5c0dc85eb83938c84288131f6f3db03eaf32dc7edac4810873ac6, 0x682f8832caf3c2b0c81d591c8323b22f82290fef599f6a9fe4da33ccfacff5bc, 0x5fc803726c6a38cdec8dbe9769a063fcb10c217b3867a087b6f4534a03c32fac, 0x1f8c3d7de860cfcf510c62d3b096bbbf8b179a9fdde057b9ed02b28cf86c7dd1, 0x5e86097eff207c2606caab59daefd540880008ffdb123dfa275a6db7b6061b62, 0x3d90956fe72c7bf4765477a7b8a0bac34a2df90ebac357d7c1502c42275a2a06, 0x5a2481f47eeadc5c6b83acfa023dd0a2702e461a4fdf280fc669df75d17ad58b, 0x2bef8bab567039e3a2c1712edd14f90a9590cb9f1524d6781ddd0ab10b42e8b8, 0x4ceb0be093de6f34dfd4821101e686d9e9ef006ce92c9f5a12eb0d9affbf3b27, 0x40f207021532abb9ce53586717f082101aacb4561e61ee3584fb9a11e47c8cc4, 0x5eff1564d52dbc5744e01924ac72aa13574d0c3f03b21be5e6fe2c1e712291bc, 0x6b382c390f607f9383e848b8d135f6b1ca1d89035491a0aabea3eea4fd83dbb8, 0x2a998c29b5e95884b50a880e3302e3c4007f7672992060a7f2102ae8202f5ea4, 0x2943d4645def02476266aa2b2c76771d5257d050791420722ebc86aa7face7, 0x5da874b2b5e6671b10fd3cca730b313cf7a340831bc578b4f4500fba513afdd5, 0x352233d8f597edac8b897270adc2d9efb9d5f5544e9b50a349c012364b25a69c, 0x4f41a850a0c041452a6528dd39a0a0f5045dcac2aadb16c6c7ca406eff772e39, 0x2a1df9da61b322a9405816b3f309952560ade6cf588753f467788e69c571ab0c, 0x13214cef2be81ab12d1cf962b98384c2c425499017ba019cd36fc1de10e83036, 0x3e420539bf73b7222359e6fded24d73bbc61ba227f8d9fd100fd7d76820984e4, 0x6da60df79cd3d04be680cfe08c1062ff7d804fe651f63127e43e572c2ca22fde, 0x6c86f8d521ec4f9e3d2b787346adb54a7eece926e6c8bc359686c84a9ef94912, 0x2db0d5a77dd6e4fabbae7f703daff07eab6a6ac79d4d7577a688c5681592c8ac, 0x28b07cd5bbaa24eada32cb9e27b5d951ef7ba3368b2229b580a88eab174098ee, 0x3f0e67365691aa2320ff3510034598d2b508ae41034feb4cbf0cbd322cee9635, 0x48b5f2c91cc832e8bb485e258bcc9152825a778a2b983079ed3115ff76b0adca, 0x26e7f8a361cc76fe1686868ee1bac264b7e2a0430031ccbc85a01a60caea0c11, 0x2d8170f1bcf2660dc4b181bc634669cdbb89d5dea55992d1385b7e63f5832d1c, 0x2dd778f3130b94c10c073bf83f04b139a07285fb4e45c1b31af35fa592d38c35, 0x14ad62ee36db281e210fe750f79fc00f85ff5c93091dac639ef149a801e1630f, 0x260b49b210fbf45a21073a6c90c2fcb2136c28c78dccefd7328b0279db92a790, 0x1594a93f13a98b3a0c72cc6709c42e2d9b52a2ac3f9880c3753655269ac3c50a, 0x68c9b38426198bc415c7286d6572d762f1f8dbc262b48e333e2b712392a6ba58, 0xc1fc5f5af840d3288ac82b7a59fc2ed7c2e886782eb9912fa9a28066b310fc6, 0x66c327111e1f1363ba214b793008ff37403651debce5cdeaa529ffac50d7be37, 0x724cce9b6493682235dfb8f5014731dcc51844f5a238e0efc09fc46a42a685da, 0x169ae9101fe85e8bad535031560b73e62481ed0703aebcbf21e852638a8c4fca, 0x5c01d97434243b460c0a822bd3e4d16fab2121422ba9577478e35843f6960057, 0x237618c4e1e0904bed9d1acd614f6c1c418e13d38d131f7c46f361fdc3f6a965, 0x42d6eda58c8c13421e31c943183e0cf96ebac6037b86c0b52b3e1cbca78c9d16, 0x48f823d886fcb441e243ca205ada1bbd9ddf02985fa3a038245c433c2bd535c1, 0x4633d4f81af0d046f861b8e2e149e0faf8d7f15fb85b06aeb6f159992ead4490, 0x54bb8003e65c7b014ece07ff9cc313348e1189cc3f3b7eb3cec2a6a9d9c1b29f, 0x2d2f436e9d3ba82ce716c6278cddac6efcf8edd50996a8a53d6bc38c093a7788, 0x186e6f5fe7b2dc1eab0ba0395926694e8caf774dfc645eabf6bb08295fc15358, 0x6a286caf9714f14e1a051f4ccb325d532755405eed57a58024e138989d9726af, 0x2807ec7c5739e38c9a8f31e07a4e82d937305b5bd67c597ff98876041c0fca5d, 0x27b6c82eae94c122bddef32b1bcea2fe383f4ba93fb1e26a443e0b32af3444ad, 0x11204b676124153b9cbb35e485d684bbb458b498d1b7ac8467a656256cb74f08, 0x3e04a114a2aa3464879e3ec7ef364612f17756efccd732b08df83ea3fe0b51e2, 0x5db5c145c7a1feaf986bf35afe69a1d9a74176ab6d16de00476a9aada2fece64, 0x5ece77c314e3be479667d37b8b828ba9cb53e1a2e15990ff58a0fe98eb5bc5b, 0x22f912000101d37e75d6bdc9758c1eff082825e960a583e6498a0d1e541f1c93, 0x5dac8a890907cd8e813219b7db4e0eb2bb8cf559ed9004f3e9d92399889b746a, 0x73ac20e01f126b8b64a585ea2cbcd9f574c45a70a1e6b55a93b267f3c843761a]
  cL := [
    [0x699392d02ea76c2174045e496432cf264c56809d26dac57c39e81f4a54bd67c6, 0x4a7dc7d99f163fbe442c2ee4056a63f0d737fb490c7a17fbc80fabb5f005c430, 0x5e03ae9eec42e1c165935454bfaa6c926efab101e2d424ed0e8e85ee1f7a3a9c, 0x5ad74dbc3bf84573370de892d7fae072c0a06328f02a114b95152620c0e6cd98, 0x169962241d00f2a0d67a63fa0e6ab108f83e7321c8658437cb9f0bb23842e254, 0x4259e6090dc9e169e90869fccc703d687232086f841b345fcc09364c5fc4aa6b, 0xd0322ec92a0a9cc2d8833d5b5513eb53efe6c9b8a2b7f8e1ff7eb3a957f643b, 0x127298a25a6129fcff0b6722190efe955d04b0f1f92f25fb8656ceeedf5a5fa1, 0x1057184a8111281fb56df0d5c86518f31f51b11818fe5a53590f33e0dee34bbc, 0x33e51836c919beda9c404f7707d55e1c861814376b61b5ba7eac70ad3b1b4e6b, 0xb50d2a7188cb014f38afca30ff00c2a65f2aed64697630c9d7c34b304f82c0e, 0x4b03a9308289c38af314d60cf48f9317dc2e12cdeac8494f12d8de1378105b48, 0x16effd7694b727b08c46e6ffaa8c5ab52e4872e353ebb925d437853e39d32674, 0x1d8d9182246e0a541c33b4399c588a842071557b82ba2dd05408410fcecdb0fd, 0x4f4af4021d6a666d4a244da204db0e5476bafdb5342cdac421856731c9e8a29c, 0x1a578387d376aa7a2ffa185a3ab190289054316f794d49477a6b9cb794cfd53a],
    [0x6b21b2a2a93be034667a77c630394fa089c76946f431952849fea38751746750, 0x2910394db64ea309591a6c1367380b4d8006d16edb82185c114960f5ea7fb564, 0x6995c692d1a041f9d77b18ea53e6a7f9245828d98c911f97efd9c28f332988f0, 0xde60a3a844e080a77a89c065ef6c6ac5748a902723d1de5f9a82b93c5fedb70, 0x1860ea1aa6d1989c09863077955f904b635a6d2db898f9a9959b4d0398db9af0, 0x339bbce6c79d9bb72ab8100c9641e244702823c8e7cc876a09051d2e5f4c9c7f, 0x1fb09cd3ae950758e700f5fd7a9a1e24d74a7f088c8b2cbfef5d21583c339695, 0x66f7f78790c103a747f59de87c194d2a52b067b66a3784f46c638d58e28b784, 0x28298b15249880b881397ea8909e9e021034be18b3fc84acb62fd583d01631a3, 0x60389353bdbf0e35ee4f5f61293d01f1502c85d450cc781d6230f0c87641d099, 0x30701fe0c3905132c23a111c8aaee479ffe2a88725b22291a95d38df02a16783, 0x4b2bf87d4077baa53eb35cbe17c98eb4996b637174312bb2097b83fe7c9e8eec, 0x70e3c38991e9dedae4e0ac853e48c5b074957d47735bc833598637958784b0db, 0x46e067eef8eb26522c15c7bc065fb7f734f3a60a15d3807af76ebf15a26d7ad2, 0x1b6f0836870068dc2b38024261b328f86a139d926831bbedb4ee434f78c9f969, 0x38f21187e1df5b37f6d1fb1b85eaac0a901ac70ecd9be1bd526d7b9d4b0e43b4],
    [0xef72f095d0069bb48851dfd15b51c4c6d64dbb059057436b791afa3454211df, 0x472ca94751cda1c1d0f65207ef2a084b972729c2f658213ee6f6b1a4e09a75fd, 0xacb6be70dab645f8d1b41af4052dffbd5bdcbafc7b7f6a8503b0b54ff15a147, 0x3fdabcf0a18bbd0cbe61f4eebf1451709dcba23d26015f8a7f2955a71341525d, 0x56c423030bf36d12395f9c511ae5bb718bd2389c3e5d0863db08896d4ad30eeb, 0x724d1098ee05575c0fb42e63c44f0f485d546e660fc0f7e8c11295de5f96aea9, 0x299c705ca76a549fc23932576fc4b77b5524d59d491d0f08cf5491e60d051805, 0x3742ac8db060288d35c9a78c61421aa3098c82e1f3df4a86eadf5082fbec16df, 0x3f649363bdb0b1807e6864696252ff5b3b12596d89d6eb17baedaa2e2b2ac444, 0x5f0f013e21bbf272c4fdabb21a91a56a48c83b85896028a05e08a4d029a661bf, 0x2fc74226012862eb43ce467cb19c9439c30b93956aadd4741e05570352600ea9, 0x4e5856a5122253b52585373f732fa06b1d88f180fe71b418df1221c0d67d21cf, 0x72bf9429787c29fddc75bdb378c781fa6045091e1d0dfd0631a870c09618d498, 0x5f401e7dc9ee9b52016f8a2582babc1b5ebb534adb17dcce8f74795a43996442, 0x61185c288c7c2a521266575391f6799017cc80a4ea1a6415d88f99483a550161, 0x42740dc922fc2aa14cd1b276b34712a946f580ca9c7973110d49c65f3718adfc]]
  m := [
    [0x6caeccddf703a573b0063a878907ba84fe81c9c2cffe763f0fffffff10000001, 0x1b46fa31af7059b6a2a432d4b6f8e788c868db4bffff9d2cf0f0f0f0b4b4b4b5, 0x46d8580827a75ac891152076b08d923c24f3e43ab8e28d8d9c71c71bd5555556, 0x6dd3abfdf187ba0e815f38736770e79941dc14a486bb13c9286bca1a00000001, 0x1163a5e6130ad2cad47be0679b0b7a00cc8fa566d9995a99733333330ccccccd, 0xb0a7175a27085d61d427619257d20c38e120f9ec30c08c2f3cf3cf3b6db6db7, 0x6ea8ab5b04d08339482b9407ac1a7cbf444c4b1a22e72944dd1745d080000001, 0x64cea7c2c00361cf7a7514e599124c8a328ea4e137a587a61642c8582c8590b3, 0x6f1915afb28c42ba866cc45d093b19afc595bd2d8aa91829b555555460000001, 0x6aa770fa96ed0cdc062af9f2ea24419e803dd454ae12f879f5c28f5b3d70a3d8, 0x310bee2d07c2a14fc6e73ddc04133ddade81769ecec43a9d1d89d89d1d89d89e, 0x896583f0c9068184fa5784c727dc426520e0c2625ecea5ebda12f6838e38e39, 0x5f3a1296990a8256bc5d3a98e3573a96a95bc6b95247cb9176db6db60924924a, 0x6beeeb3bc5a44881038e2168963594284523521472c0aded69ee5845b08d3dcc, 0x58e0de26287035620523d04a6dc8e1596ade30f13bba79baf7777776b3333334, 0x21a817cdd2467f35fe5b1dafc0bb5fbf7b689af89ce6bfdead6b5ad66b5ad6b6],
    [0x1b46fa31af7059b6a2a432d4b6f8e788c868db4bffff9d2cf0f0f0f0b4b4b4b5, 0x46d8580827a75ac891152076b08d923c24f3e43ab8e28d8d9c71c71bd5555556, 0x6dd3abfdf187ba0e815f38736770e79941dc14a486bb13c9286bca1a00000001, 0x1163a5e6130ad2cad47be0679b0b7a00cc8fa566d9995a99733333330ccccccd, 0xb0a7175a27085d61d427619257d20c38e120f9ec30c08c2f3cf3cf3b6db6db7, 0x6ea8ab5b04d08339482b9407ac1a7cbf444c4b1a22e72944dd1745d080000001, 0x64cea7c2c00361cf7a7514e599124c8a328ea4e137a587a61642c8582c8590b3, 0x6f1915afb28c42ba866cc45d093b19afc595bd2d8aa91829b555555460000001, 0x6aa770fa96ed0cdc062af9f2ea24419e803dd454ae12f879f5c28f5b3d70a3d8, 0x310bee2d07c2a14fc6e73ddc04133ddade81769ecec43a9d1d89d89d1d89d89e, 0x896583f0c9068184fa5784c727dc426520e0c2625ecea5ebda12f6838e38e39, 0x5f3a1296990a8256bc5d3a98e3573a96a95bc6b95247cb9176db6db60924924a, 0x6beeeb3bc5a44881038e2168963594284523521472c0aded69ee5845b08d3dcc, 0x58e0de26287035620523d04a6dc8e1596ade30f13bba79baf7777776b3333334, 0x21a817cdd2467f35fe5b1dafc0bb5fbf7b689af89ce6bfdead6b5ad66b5ad6b6, 0x704e3a189050915df1a00947c954c945291fb6e2e7fe691f07ffffff08000001],
    [0x46d8580827a75ac891152076b08d923c24f3e43ab8e28d8d9c71c71bd5555556, 0x6dd3abfdf187ba0e815f38736770e79941dc14a486bb13c9286bca1a00000001, 0x1163a5e6130ad2cad47be0679b0b7a00cc8fa566d9995a99733333330ccccccd, 0xb0a7175a27085d61d427619257d20c38e120f9ec30c08c2f3cf3cf3b6db6db7, 0x6ea8ab5b04d08339482b9407ac1a7cbf444c4b1a22e72944dd1745d080000001, 0x64cea7c2c00361cf7a7514e599124c8a328ea4e137a587a61642c8582c8590b3, 0x6f1915afb28c42ba866cc45d093b19afc595bd2d8aa91829b555555460000001, 0x6aa770fa96ed0cdc062af9f2ea24419e803dd454ae12f879f5c28f5b3d70a3d8, 0x310bee2d07c2a14fc6e73ddc04133ddade81769ecec43a9d1d89d89d1d89d89e, 0x896583f0c9068184fa5784c727dc426520e0c2625ecea5ebda12f6838e38e39, 0x5f3a1296990a8256bc5d3a98e3573a96a95bc6b95247cb9176db6db60924924a, 0x6beeeb3bc5a44881038e2168963594284523521472c0aded69ee5845b08d3dcc, 0x58e0de26287035620523d04a6dc8e1596ade30f13bba79baf7777776b3333334, 0x21a817cdd2467f35fe5b1dafc0bb5fbf7b689af89ce6bfdead6b5ad66b5ad6b6, 0x704e3a189050915df1a00947c954c945291fb6e2e7fe691f07ffffff08000001, 0x706a54adbbbf813e4130555d209cf08149721367c1eee4d83e0f83e000000001],
    [0x6dd3abfdf187ba0e815f38736770e79941dc14a486bb13c9286bca1a00000001, 0x1163a5e6130ad2cad47be0679b0b7a00cc8fa566d9995a99733333330ccccccd, 0xb0a7175a27085d61d427619257d20c38e120f9ec30c08c2f3cf3cf3b6db6db7, 0x6ea8ab5b04d08339482b9407ac1a7cbf444c4b1a22e72944dd1745d080000001, 0x64cea7c2c00361cf7a7514e599124c8a328ea4e137a587a61642c8582c8590b3, 0x6f1915afb28c42ba866cc45d093b19afc595bd2d8aa91829b555555460000001, 0x6aa770fa96ed0cdc062af9f2ea24419e803dd454ae12f879f5c28f5b3d70a3d8, 0x310bee2d07c2a14fc6e73ddc04133ddade81769ecec43a9d1d89d89d1d89d89e, 0x896583f0c9068184fa5784c727dc426520e0c2625ecea5ebda12f6838e38e39, 0x5f3a1296990a8256bc5d3a98e3573a96a95bc6b95247cb9176db6db60924924a, 0x6beeeb3bc5a44881038e2168963594284523521472c0aded69ee5845b08d3dcc, 0x58e0de26287035620523d04a6dc8e1596ade30f13bba79baf7777776b3333334, 0x21a817cdd2467f35fe5b1dafc0bb5fbf7b689af89ce6bfdead6b5ad66b5ad6b6, 0x704e3a189050915df1a00947c954c945291fb6e2e7fe691f07ffffff08000001, 0x706a54adbbbf813e4130555d209cf08149721367c1eee4d83e0f83e000000001, 0x479a50c26c86eb7f6aef056e604d5fc70e133fa77ffefc95f8787877da5a5a5b],
    [0x1163a5e6130ad2cad47be0679b0b7a00cc8fa566d9995a99733333330ccccccd, 0xb0a7175a27085d61d427619257d20c38e120f9ec30c08c2f3cf3cf3b6db6db7, 0x6ea8ab5b04d08339482b9407ac1a7cbf444c4b1a22e72944dd1745d080000001, 0x64cea7c2c00361cf7a7514e599124c8a328ea4e137a587a61642c8582c8590b3, 0x6f1915afb28c42ba866cc45d093b19afc595bd2d8aa91829b555555460000001, 0x6aa770fa96ed0cdc062af9f2ea24419e803dd454ae12f879f5c28f5b3d70a3d8, 0x310bee2d07c2a14fc6e73ddc04133ddade81769ecec43a9d1d89d89d1d89d89e, 0x896583f0c9068184fa5784c727dc426520e0c2625ecea5ebda12f6838e38e39, 0x5f3a1296990a8256bc5d3a98e3573a96a95bc6b95247cb9176db6db60924924a, 0x6beeeb3bc5a44881038e2168963594284523521472c0aded69ee5845b08d3dcc, 0x58e0de26287035620523d04a6dc8e1596ade30f13bba79baf7777776b3333334, 0x21a817cdd2467f35fe5b1dafc0bb5fbf7b689af89ce6bfdead6b5ad66b5ad6b6, 0x704e3a189050915df1a00947c954c945291fb6e2e7fe691f07ffffff08000001, 0x706a54adbbbf813e4130555d209cf08149721367c1eee4d83e0f83e000000001, 0x479a50c26c86eb7f6aef056e604d5fc70e133fa77ffefc95f8787877da5a5a5b, 0x4c2e7545473b9b7896b0fbad82ac2edeede305610e9fd60df8af8af807507508],
    [0xb0a7175a27085d61d427619257d20c38e120f9ec30c08c2f3cf3cf3b6db6db7, 0x6ea8ab5b04d08339482b9407ac1a7cbf444c4b1a22e72944dd1745d080000001, 0x64cea7c2c00361cf7a7514e599124c8a328ea4e137a587a61642c8582c8590b3, 0x6f1915afb28c42ba866cc45d093b19afc595bd2d8aa91829b555555460000001, 0x6aa770fa96ed0cdc062af9f2ea24419e803dd454ae12f879f5c28f5b3d70a3d8, 0x310bee2d07c2a14fc6e73ddc04133ddade81769ecec43a9d1d89d89d1d89d89e, 0x896583f0c9068184fa5784c727dc426520e0c2625ecea5ebda12f6838e38e39, 0x5f3a1296990a8256bc5d3a98e3573a96a95bc6b95247cb9176db6db60924924a, 0x6beeeb3bc5a44881038e2168963594284523521472c0aded69ee5845b08d3dcc, 0x58e0de26287035620523d04a6dc8e1596ade30f13bba79baf7777776b3333334, 0x21a817cdd2467f35fe5b1dafc0bb5fbf7b689af89ce6bfdead6b5ad66b5ad6b6, 0x704e3a189050915df1a00947c954c945291fb6e2e7fe691f07ffffff08000001, 0x706a54adbbbf813e4130555d209cf08149721367c1eee4d83e0f83e000000001, 0x479a50c26c86eb7f6aef056e604d5fc70e133fa77ffefc95f8787877da5a5a5b, 0x4c2e7545473b9b7896b0fbad82ac2edeede305610e9fd60df8af8af807507508, 0x236c2c0413d3ad64488a903b5846c91e1279f21d5c7146c6ce38e38deaaaaaab],
    [0x6ea8ab5b04d08339482b9407ac1a7cbf444c4b1a22e72944dd1745d080000001, 0x64cea7c2c00361cf7a7514e599124c8a328ea4e137a587a61642c8582c8590b3, 0x6f1915afb28c42ba866cc45d093b19afc595bd2d8aa91829b555555460000001, 0x6aa770fa96ed0cdc062af9f2ea24419e803dd454ae12f879f5c28f5b3d70a3d8, 0x310bee2d07c2a14fc6e73ddc04133ddade81769ecec43a9d1d89d89d1d89d89e, 0x896583f0c9068184fa5784c727dc426520e0c2625ecea5ebda12f6838e38e39, 0x5f3a1296990a8256bc5d3a98e3573a96a95bc6b95247cb9176db6db60924924a, 0x6beeeb3bc5a44881038e2168963594284523521472c0aded69ee5845b08d3dcc, 0x58e0de26287035620523d04a6dc8e1596ade30f13bba79baf7777776b3333334, 0x21a817cdd2467f35fe5b1dafc0bb5fbf7b689af89ce6bfdead6b5ad66b5ad6b6, 0x704e3a189050915df1a00947c954c945291fb6e2e7fe691f07ffffff08000001, 0x706a54adbbbf813e4130555d209cf08149721367c1eee4d83e0f83e000000001, 0x479a50c26c86eb7f6aef056e604d5fc70e133fa77ffefc95f8787877da5a5a5b, 0x4c2e7545473b9b7896b0fbad82ac2edeede305610e9fd60df8af8af807507508, 0x236c2c0413d3ad64488a903b5846c91e1279f21d5c7146c6ce38e38deaaaaaab, 0x12cc97ac9ef6f1b8ae5c6838a79db453e410ea29ffffbbe42983759ef914c1bb],
    [0x64cea7c2c00361cf7a7514e599124c8a328ea4e137a587a61642c8582c8590b3, 0x6f1915afb28c42ba866cc45d093b19afc595bd2d8aa91829b555555460000001, 0x6aa770fa96ed0cdc062af9f2ea24419e803dd454ae12f879f5c28f5b3d70a3d8, 0x310bee2d07c2a14fc6e73ddc04133ddade81769ecec43a9d1d89d89d1d89d89e, 0x896583f0c9068184fa5784c727dc426520e0c2625ecea5ebda12f6838e38e39, 0x5f3a1296990a8256bc5d3a98e3573a96a95bc6b95247cb9176db6db60924924a, 0x6beeeb3bc5a44881038e2168963594284523521472c0aded69ee5845b08d3dcc, 0x58e0de26287035620523d04a6dc8e1596ade30f13bba79baf7777776b3333334, 0x21a817cdd2467f35fe5b1dafc0bb5fbf7b689af89ce6bfdead6b5ad66b5ad6b6, 0x704e3a189050915df1a00947c954c945291fb6e2e7fe691f07ffffff08000001, 0x706a54adbbbf813e4130555d209cf08149721367c1eee4d83e0f83e000000001, 0x479a50c26c86eb7f6aef056e604d5fc70e133fa77ffefc95f8787877da5a5a5b, 0x4c2e7545473b9b7896b0fbad82ac2edeede305610e9fd60df8af8af807507508, 0x236c2c0413d3ad64488a903b5846c91e1279f21d5c7146c6ce38e38deaaaaaab, 0x12cc97ac9ef6f1b8ae5c6838a79db453e410ea29ffffbbe42983759ef914c1bb, 0x70e0a9a88d929bab5a4c883db8895fcf4accdc53c35cb7e41435e50c80000001],
    [0x6f1915afb28c42ba866cc45d093b19afc595bd2d8aa91829b555555460000001, 0x6aa770fa96ed0cdc062af9f2ea24419e803dd454ae12f879f5c28f5b3d70a3d8, 0x310bee2d07c2a14fc6e73ddc04133ddade81769ecec43a9d1d89d89d1d89d89e, 0x896583f0c9068184fa5784c727dc426520e0c2625ecea5ebda12f6838e38e39, 0x5f3a1296990a8256bc5d3a98e3573a96a95bc6b95247cb9176db6db60924924a, 0x6beeeb3bc5a44881038e2168963594284523521472c0aded69ee5845b08d3dcc, 0x58e0de26287035620523d04a6dc8e1596ade30f13bba79baf7777776b3333334, 0x21a817cdd2467f35fe5b1dafc0bb5fbf7b689af89ce6bfdead6b5ad66b5ad6b6, 0x704e3a189050915df1a00947c954c945291fb6e2e7fe691f07ffffff08000001, 0x706a54adbbbf813e4130555d209cf08149721367c1eee4d83e0f83e000000001, 0x479a50c26c86eb7f6aef056e604d5fc70e133fa77ffefc95f8787877da5a5a5b, 0x4c2e7545473b9b7896b0fbad82ac2edeede305610e9fd60df8af8af807507508, 0x236c2c0413d3ad64488a903b5846c91e1279f21d5c7146c6ce38e38deaaaaaab, 0x12cc97ac9ef6f1b8ae5c6838a79db453e410ea29ffffbbe42983759ef914c1bb, 0x70e0a9a88d929bab5a4c883db8895fcf4accdc53c35cb7e41435e50c80000001, 0x20b29ec8afd716352f44d3e802b77e91e9aba469df2d7c68be5be5be13b13b14],
    [0x6aa770fa96ed0cdc062af9f2ea24419e803dd454ae12f879f5c28f5b3d70a3d8, 0x310bee2d07c2a14fc6e73ddc04133ddade81769ecec43a9d1d89d89d1d89d89e, 0x896583f0c9068184fa5784c727dc426520e0c2625ecea5ebda12f6838e38e39, 0x5f3a1296990a8256bc5d3a98e3573a96a95bc6b95247cb9176db6db60924924a, 0x6beeeb3bc5a44881038e2168963594284523521472c0aded69ee5845b08d3dcc, 0x58e0de26287035620523d04a6dc8e1596ade30f13bba79baf7777776b3333334, 0x21a817cdd2467f35fe5b1dafc0bb5fbf7b689af89ce6bfdead6b5ad66b5ad6b6, 0x704e3a189050915df1a00947c954c945291fb6e2e7fe691f07ffffff08000001, 0x706a54adbbbf813e4130555d209cf08149721367c1eee4d83e0f83e000000001, 0x479a50c26c86eb7f6aef056e604d5fc70e133fa77ffefc95f8787877da5a5a5b, 0x4c2e7545473b9b7896b0fbad82ac2edeede305610e9fd60df8af8af807507508, 0x236c2c0413d3ad64488a903b5846c91e1279f21d5c7146c6ce38e38deaaaaaab, 0x12cc97ac9ef6f1b8ae5c6838a79db453e410ea29ffffbbe42983759ef914c1bb, 0x70e0a9a88d929bab5a4c883db8895fcf4accdc53c35cb7e41435e50c80000001, 0x20b29ec8afd716352f44d3e802b77e91e9aba469df2d7c68be5be5be13b13b14, 0x42a8a69c9e54280983dadc37d256a9031026a4b4eccbdb4c3999999906666667],
    [0x310bee2d07c2a14fc6e73ddc04133ddade81769ecec43a9d1d89d89d1d89d89e, 0x896583f0c9068184fa5784c727dc426520e0c2625ecea5ebda12f6838e38e39, 0x5f3a1296990a8256bc5d3a98e3573a96a95bc6b95247cb9176db6db60924924a, 0x6beeeb3bc5a44881038e2168963594284523521472c0aded69ee5845b08d3dcc, 0x58e0de26287035620523d04a6dc8e1596ade30f13bba79baf7777776b3333334, 0x21a817cdd2467f35fe5b1dafc0bb5fbf7b689af89ce6bfdead6b5ad66b5ad6b6, 0x704e3a189050915df1a00947c954c945291fb6e2e7fe691f07ffffff08000001, 0x706a54adbbbf813e4130555d209cf08149721367c1eee4d83e0f83e000000001, 0x479a50c26c86eb7f6aef056e604d5fc70e133fa77ffefc95f8787877da5a5a5b, 0x4c2e7545473b9b7896b0fbad82ac2edeede305610e9fd60df8af8af807507508, 0x236c2c0413d3ad64488a903b5846c91e1279f21d5c7146c6ce38e38deaaaaaab, 0x12cc97ac9ef6f1b8ae5c6838a79db453e410ea29ffffbbe42983759ef914c1bb, 0x70e0a9a88d929bab5a4c883db8895fcf4accdc53c35cb7e41435e50c80000001, 0x20b29ec8afd716352f44d3e802b77e91e9aba469df2d7c68be5be5be13b13b14, 0x42a8a69c9e54280983dadc37d256a9031026a4b4eccbdb4c3999999906666667, 0x87b891f0f8866d354eb41c2262b0fce7046123ea895bbcdf9c18f9c063e7064],
    [0x896583f0c9068184fa5784c727dc426520e0c2625ecea5ebda12f6838e38e39, 0x5f3a1296990a8256bc5d3a98e3573a96a95bc6b95247cb9176db6db60924924a, 0x6beeeb3bc5a44881038e2168963594284523521472c0aded69ee5845b08d3dcc, 0x58e0de26287035620523d04a6dc8e1596ade30f13bba79baf7777776b3333334, 0x21a817cdd2467f35fe5b1dafc0bb5fbf7b689af89ce6bfdead6b5ad66b5ad6b6, 0x704e3a189050915df1a00947c954c945291fb6e2e7fe691f07ffffff08000001, 0x706a54adbbbf813e4130555d209cf08149721367c1eee4d83e0f83e000000001, 0x479a50c26c86eb7f6aef056e604d5fc70e133fa77ffefc95f8787877da5a5a5b, 0x4c2e7545473b9b7896b0fbad82ac2edeede305610e9fd60df8af8af807507508, 0x236c2c0413d3ad64488a903b5846c91e1279f21d5c7146c6ce38e38deaaaaaab, 0x12cc97ac9ef6f1b8ae5c6838a79db453e410ea29ffffbbe42983759ef914c1bb, 0x70e0a9a88d929bab5a4c883db8895fcf4accdc53c35cb7e41435e50c80000001, 0x20b29ec8afd716352f44d3e802b77e91e9aba469df2d7c68be5be5be13b13b14, 0x42a8a69c9e54280983dadc37d256a9031026a4b4eccbdb4c3999999906666667, 0x87b891f0f8866d354eb41c2262b0fce7046123ea895bbcdf9c18f9c063e7064, 0x3f7c0c646607018f283e2710978f7c6470e7d9d0e1853260f9e79e795b6db6dc],
    [0x5f3a1296990a8256bc5d3a98e3573a96a95bc6b95247cb9176db6db60924924a, 0x6beeeb3bc5a44881038e2168963594284523521472c0aded69ee5845b08d3dcc, 0x58e0de26287035620523d04a6dc8e1596ade30f13bba79baf7777776b3333334, 0x21a817cdd2467f35fe5b1dafc0bb5fbf7b689af89ce6bfdead6b5ad66b5ad6b6, 0x704e3a189050915df1a00947c954c945291fb6e2e7fe691f07ffffff08000001, 0x706a54adbbbf813e4130555d209cf08149721367c1eee4d83e0f83e000000001, 0x479a50c26c86eb7f6aef056e604d5fc70e133fa77ffefc95f8787877da5a5a5b, 0x4c2e7545473b9b7896b0fbad82ac2edeede305610e9fd60df8af8af807507508, 0x236c2c0413d3ad64488a903b5846c91e1279f21d5c7146c6ce38e38deaaaaaab, 0x12cc97ac9ef6f1b8ae5c6838a79db453e410ea29ffffbbe42983759ef914c1bb, 0x70e0a9a88d929bab5a4c883db8895fcf4accdc53c35cb7e41435e50c80000001, 0x20b29ec8afd716352f44d3e802b77e91e9aba469df2d7c68be5be5be13b13b14, 0x42a8a69c9e54280983dadc37d256a9031026a4b4eccbdb4c3999999906666667, 0x87b891f0f8866d354eb41c2262b0fce7046123ea895bbcdf9c18f9c063e7064, 0x3f7c0c646607018f283e2710978f7c6470e7d9d0e1853260f9e79e795b6db6dc, 0x3e021802ced14302e5d18b5d99fd43eb0912163d23b7ae3affffffff7711dc48],
    [0x6beeeb3bc5a44881038e2168963594284523521472c0aded69ee5845b08d3dcc, 0x58e0de26287035620523d04a6dc8e1596ade30f13bba79baf7777776b3333334, 0x21a817cdd2467f35fe5b1dafc0bb5fbf7b689af89ce6bfdead6b5ad66b5ad6b6, 0x704e3a189050915df1a00947c954c945291fb6e2e7fe691f07ffffff08000001, 0x706a54adbbbf813e4130555d209cf08149721367c1eee4d83e0f83e000000001, 0x479a50c26c86eb7f6aef056e604d5fc70e133fa77ffefc95f8787877da5a5a5b, 0x4c2e7545473b9b7896b0fbad82ac2edeede305610e9fd60df8af8af807507508, 0x236c2c0413d3ad64488a903b5846c91e1279f21d5c7146c6ce38e38deaaaaaab, 0x12cc97ac9ef6f1b8ae5c6838a79db453e410ea29ffffbbe42983759ef914c1bb, 0x70e0a9a88d929bab5a4c883db8895fcf4accdc53c35cb7e41435e50c80000001, 0x20b29ec8afd716352f44d3e802b77e91e9aba469df2d7c68be5be5be13b13b14, 0x42a8a69c9e54280983dadc37d256a9031026a4b4eccbdb4c3999999906666667, 0x87b891f0f8866d354eb41c2262b0fce7046123ea895bbcdf9c18f9c063e7064, 0x3f7c0c646607018f283e2710978f7c6470e7d9d0e1853260f9e79e795b6db6dc, 0x3e021802ced14302e5d18b5d99fd43eb0912163d23b7ae3affffffff7711dc48, 0x714b295717370040bdb2b607dade2a624c04f78e9172c2a1ee8ba2e7c0000001],
    [0x58e0de26287035620523d04a6dc8e1596ade30f13bba79baf7777776b3333334, 0x21a817cdd2467f35fe5b1dafc0bb5fbf7b689af89ce6bfdead6b5ad66b5ad6b6, 0x704e3a189050915df1a00947c954c945291fb6e2e7fe691f07ffffff08000001, 0x706a54adbbbf813e4130555d209cf08149721367c1eee4d83e0f83e000000001, 0x479a50c26c86eb7f6aef056e604d5fc70e133fa77ffefc95f8787877da5a5a5b, 0x4c2e7545473b9b7896b0fbad82ac2edeede305610e9fd60df8af8af807507508, 0x236c2c0413d3ad64488a903b5846c91e1279f21d5c7146c6ce38e38deaaaaaab, 0x12cc97ac9ef6f1b8ae5c6838a79db453e410ea29ffffbbe42983759ef914c1bb, 0x70e0a9a88d929bab5a4c883db8895fcf4accdc53c35cb7e41435e50c80000001, 0x20b29ec8afd716352f44d3e802b77e91e9aba469df2d7c68be5be5be13b13b14, 0x42a8a69c9e54280983dadc37d256a9031026a4b4eccbdb4c3999999906666667, 0x87b891f0f8866d354eb41c2262b0fce7046123ea895bbcdf9c18f9c063e7064, 0x3f7c0c646607018f283e2710978f7c6470e7d9d0e1853260f9e79e795b6db6dc, 0x3e021802ced14302e5d18b5d99fd43eb0912163d23b7ae3affffffff7711dc48, 0x714b295717370040bdb2b607dade2a624c04f78e9172c2a1ee8ba2e7c0000001, 0x61e5213528d4a2aebf2b28344c6688e80dd3574c7d266fd1a4fa4fa422222223],
    [0x21a817cdd2467f35fe5b1dafc0bb5fbf7b689af89ce6bfdead6b5ad66b5ad6b6, 0x704e3a189050915df1a00947c954c945291fb6e2e7fe691f07ffffff08000001, 0x706a54adbbbf813e4130555d209cf08149721367c1eee4d83e0f83e000000001, 0x479a50c26c86eb7f6aef056e604d5fc70e133fa77ffefc95f8787877da5a5a5b, 0x4c2e7545473b9b7896b0fbad82ac2edeede305610e9fd60df8af8af807507508, 0x236c2c0413d3ad64488a903b5846c91e1279f21d5c7146c6ce38e38deaaaaaab, 0x12cc97ac9ef6f1b8ae5c6838a79db453e410ea29ffffbbe42983759ef914c1bb, 0x70e0a9a88d929bab5a4c883db8895fcf4accdc53c35cb7e41435e50c80000001, 0x20b29ec8afd716352f44d3e802b77e91e9aba469df2d7c68be5be5be13b13b14, 0x42a8a69c9e54280983dadc37d256a9031026a4b4eccbdb4c3999999906666667, 0x87b891f0f8866d354eb41c2262b0fce7046123ea895bbcdf9c18f9c063e7064, 0x3f7c0c646607018f283e2710978f7c6470e7d9d0e1853260f9e79e795b6db6dc, 0x3e021802ced14302e5d18b5d99fd43eb0912163d23b7ae3affffffff7711dc48, 0x714b295717370040bdb2b607dade2a624c04f78e9172c2a1ee8ba2e7c0000001, 0x61e5213528d4a2aebf2b28344c6688e80dd3574c7d266fd1a4fa4fa422222223, 0x6c5e278af4d06f8bd6d77676d15a1247c32624721bd1f1d28b21642b9642c85a]]
  p := [
    [0x6caeccddf703a573b0063a878907ba84fe81c9c2cffe763f0fffffff10000001, 0x5244e55883654d2eb9ca100462b2161e474d87674b0c80cf5c5f533bdd473e02, 0x4bd932c492cde8ef1a20fe6b9118d9fbcbcd0eb141b79bf525365b571f12caf1, 0x72393aa91e9ce8fc6819af41a18e4b93a07caf9ddce2b9ea36efb08a5875a7c, 0x507e74a14f9cbd5efd8201c4c4198a924c92cf4fcd7b50c9961c57a002adf824, 0x32d2e4f0c061696d057549548c7f2a507786a950ce15c75cee76e3b99075b9f1, 0xc19c197fd7e64e696c6d77e99f14ef89c25657b9df5d7e9599c08fd7018d9f2, 0x3b964939236740f661a420df5249593719c682ae937e2d7393cd7b46bcf4060e, 0x3be598589984fb8f0abf0226af471380eee9c61142e562e2f1e1cb1f070530f8, 0x4b3f922a95f466433877c7d4524211aefa5b5cceba08c82156e8f62017d4fa6b, 0x58e62bf00311f4472dff3e0d0b2461f56905beca8c402e05dea1d57b70854c78, 0x4b292e6638ece946a4038b24154a6b28ab5a0467d15420125c4b6b42fb82d091, 0x61dc484ff4d81121a3c115f5b3014c082f655c36ad90709120eca3fa5d4cd7a2, 0x2daa047efb0817be7e82d048ee0e63e6f5841fa2023a3176b5d301771fd30d7a, 0x1425a5682e51c98aac4a7135cc41ef4c070427d8d2a3ce4dd76aab990a3927da, 0x4541b19968cbe17649a8b585df70f09d49b8c55073b62dc01b892cc24c7395bd],
    [0x1b46fa31af7059b6a2a432d4b6f8e788c868db4bffff9d2cf0f0f0f0b4b4b4b5, 0x620c74648bd69e14d440efaa63dd8fb006cfc4464efde6b2a9b06dcaaf19b745, 0x1f65d6f9c64428bfb82d1a63efc66dc14b2fa11fd41dc21dca440e0ab1b7f915, 0x4235e71c7a91549250b34e76c363a045470f8c7abe2061f416f878d7c77b4c42, 0x6bdd879e4f84555f567738ad4a380a67f7da0bf229dde2c3b23abe0939278ab0, 0x3bf6636c0c444f96740d2865019ac49fe30d91f954f822ceec63b39731f457a1, 0x332cd8daf81e42236c9c1c62304f4e2492b9b67783ebe7a31c1f1bd08f607d00, 0x1ceda4a2451ae013c23b1a03f50f96ee44a68eb401813fc3d885c932772059f2, 0x4b7aca64d82da53da750e9897bde9dfb74bbc3670cfbe3b2c3b88bde330cd026, 0x48d0ee96c7eeded65dfcb8d5390e46e6b9f5010555b7abf626f845acff7ee2c5, 0x67ee07407db3c1738932fc1ec3ce424f67cadfe83c521e725d42be5eca920dbf, 0xef58972b2e44bf50d8ea45fa6048c7a4be34804279341acf5698808afa39f83, 0x30deed68c73b8ca138a423ccaabe720a0612ac6ff9c0725802bbe19954d82965, 0x1d7ca2a8352d6e9779fed923b7d7b160602aa32b709036afb56b6bdd571928c2, 0x440e554c1bb0f1f9d0caf94a56653992bc6a8d16820c8b8fd979efaddb0ed633, 0x2609e3780ee8ed1aa2fef9a2e15a3b2d6f87fa2701b9b1b84be2e584db6be5ed],
    [0x46d8580827a75ac891152076b08d923c24f3e43ab8e28d8d9c71c71bd5555556, 0x1f65d6f9c64428bfb82d1a63efc66dc14b2fa11fd41dc21dca440e0ab1b7f915, 0x26e0d2ea640f3ce286777ba520caec9f643f8c4ac896cff995f12a98c1cd0f01, 0xea62684ec5ce96667e70b12dac1329017e8e1ef6e006626045d191de8f55fd9, 0x6c12ef32a321bac698bde5a520ddafdc1ea35e21cd332c2ff41ca0a8620e411f, 0x4ca62c7b6857e8a6f3c9fed2be18546a34422f855a71bbd73afaeaa1553af80f, 0xb81ef6f1aea70af60be03008faa50195b59149713b84733e8938eb0889811fc, 0x1283955954b41684847e7cbd111db623515d8ed876054bbfe29cb9b0ef20b3af, 0x486fb7bc6df75989bcd106d8e75c19e9bc4f3edefd9607da700ee16afe148521, 0x2edea70969a0a75a186681fe8d09d8f7f8906903035716cec61de50a932fa98f, 0x3ce648182c0c2ed9783eb9f0c378b68f0b1821334df574ca2989639314e1521, 0x71510223edd84fed73c86a06b7241e6ef56c21f9cbaeee10714f4a1a83eb9ff6, 0x3b11b220dbe1ce0959572c7aa2e15b82a5734d350f439ec87a76b55d5edfebe2, 0x61901370c22f0e6182b32646002e888d5ef3d7416dea388a6f10788ab292c8f4, 0x5a465e186277b49b015838fae79ada55907239dc0f63f26199bf0da7c3393190, 0x303baa75e8b4472e0bc6d2cbb9e9fb9b3ac3ce527b6c8a59630acfa24cd1e2df],
    [0x6dd3abfdf187ba0e815f38736770e79941dc14a486bb13c9286bca1a00000001, 0x4235e71c7a91549250b34e76c363a045470f8c7abe2061f416f878d7c77b4c42, 0xea62684ec5ce96667e70b12dac1329017e8e1ef6e006626045d191de8f55fd9, 0x6cdaa6093f4bd84b9a0354ef199ec301cac22764250d27dd28f30b3d5bf3bfb7, 0x545b2cc8227397757a75405a9597b8c550bc86ed340ecc9b22f110a593cdcaa7, 0x4a362a5e9688edfd9159c3af58c1e240952f59eaf4fde4631f6b981610779205, 0x450718cea4b6073bdd8e806807beec71753cec218106c32be0d76522dd30798d, 0xbeff21fd9bcc40d23636ea2a4209c551cc983075d9ca89f881f7cb013f7f1a2, 0x41028da6637ff5e3cecb69924caaac246a84de19bbac8fdc3abdffe029bfbad1, 0x79363d764a76c834e4ae1d3cadd62586284bf599ea7609979c46d8059152822, 0x10cdac9789ea80354be7bc031a1010312047f346501e7c9b3bb9faa8dde12370, 0x130d9bad6d15e3ed3e429a6292646983b2299b1bb7caa98a995df8fc828f09c2, 0x27a982afc182ee245ef9ec2fb492e431d4fe8044f20bc9508cf9bacbfa87178f, 0x27ca89d122efa32e95f6789b132b563b223f7cd535a04eb38735fe33cdd33ef9, 0x2ec0a7c06995d6c7fcf707f05f26ffff41af8eaa12894b187f71dafb0d4ab02f, 0x1ee5a92a578cee09da85e682e40a8d81451af5b306523e40c72f6db0eeb7077f],
    [0x1163a5e6130ad2cad47be0679b0b7a00cc8fa566d9995a99733333330ccccccd, 0x6bdd879e4f84555f567738ad4a380a67f7da0bf229dde2c3b23abe0939278ab0, 0x6c12ef32a321bac698bde5a520ddafdc1ea35e21cd332c2ff41ca0a8620e411f, 0x545b2cc8227397757a75405a9597b8c550bc86ed340ecc9b22f110a593cdcaa7, 0x366935564b2f026023b00ee6af025d9d57804f7eb4c873c0bfdfbd3bd000eae4, 0x9b75ccf9aff98f7e18416be0aa3badc045a1328559a84649a823f43b8f9ad8f, 0x2de5b5bbe1258431473bcfedcaa803fb0a353d1eef19bc4971b90c5feb25e349, 0x5d3304401be70a6e3ee2413878238cd0be35581a8b28678e321100b496186ad3, 0x24d9133a31a207f095fd023e89cce8d08441ef78b88e4937a35764f38e9f66f4, 0x5f1fee82945b068e236fa36d742f73d6b82a19a2eadfac2a8d3fc2f90558e868, 0x42472ba1c4b3994f214fc2920f52a32137dddca3f0081497f8088a49dff3678d, 0x1ad7e48b4cbde1b92b466335677c54c2da3d18548d71641ac2697bdfb70a0c6d, 0x30e2791a3673eb88660023966cc20a1341667f48792974b2ca91ccc07df849b6, 0x367852c89bededd14bf3e4104ee657ccbb003991ac260e28d9e69a4ba848cfe0, 0xce68ae1dde043cd834fd94faa6943136c3c5db902a17bb18175d1dd14c37a69, 0x49bdcc50882ab8ba2ab55298fa839ca86fe8e239ff81a47fbc38c50c1d94e992],
    [0xb0a7175a27085d61d427619257d20c38e120f9ec30c08c2f3cf3cf3b6db6db7, 0x3bf6636c0c444f96740d2865019ac49fe30d91f954f822ceec63b39731f457a1, 0x4ca62c7b6857e8a6f3c9fed2be18546a34422f855a71bbd73afaeaa1553af80f, 0x4a362a5e9688edfd9159c3af58c1e240952f59eaf4fde4631f6b981610779205, 0x9b75ccf9aff98f7e18416be0aa3badc045a1328559a84649a823f43b8f9ad8f, 0x5b89362111fcbdb5697b226ab1369d54504c40cf01262dbbf550b18be02a70bf, 0x1a1f30f5ba080e950ec2b1becc3e5c8252846dd9054ea2c74cd089db9f0fed17, 0x10e760c89ce6b010434004a0104b6155aaa5c2da7e4de34c6f2be25597af6f16, 0x4894836b257c073ad9a59596768aee96fb7939e1cac060470cde1cea11b770c7, 0x61c0dfde21cd971b122972e00797a95d2b9a823b581a5598998bda3959950db7, 0x3ac4b6fecb60ee73625bbab9553cecf3bc1baac2c681cb4b8facc9a7423fcd9f, 0x19f5b60733e24cca716125651f857546abd5879f2d583c5997a18df5b527c78c, 0x4e3fccf35b6cd4b53e7c864460a4a0e896cf5fa5dc5076e4cffea673713ca5dc, 0x314cb6b9ceab2ff919bb74bd048059c8a0facbc525f9d9b81a66f7f09fc36fe7, 0x6ed60e6c7c78daf43087fbe6504f9f86614c27345209750dd2d8834a99ec8540, 0x1ee5611c9670530aaa49bdf12287abb2472ab4458b510354caad15c76dbfd96e],
    [0x6ea8ab5b04d08339482b9407ac1a7cbf444c4b1a22e72944dd1745d080000001, 0x332cd8daf81e42236c9c1c62304f4e2492b9b67783ebe7a31c1f1bd08f607d00, 0xb81ef6f1aea70af60be03008faa50195b59149713b84733e8938eb0889811fc, 0x450718cea4b6073bdd8e806807beec71753cec218106c32be0d76522dd30798d, 0x2de5b5bbe1258431473bcfedcaa803fb0a353d1eef19bc4971b90c5feb25e349, 0x1a1f30f5ba080e950ec2b1becc3e5c8252846dd9054ea2c74cd089db9f0fed17, 0x42ae0c87489b1ef08b27f6dba6f405905153fa3516854fac654657621478601, 0x3627ae9b96793c12a07cda3a8da5a9ee33495357afd1a1471847782b35868a58, 0x60908fce96eed4209f99b61f8aa58df37fb37958e080f0344db4a50907445b0d, 0x3c405b2686cd2bb1ef47e3a6db868117731266c792f17b6c667a24360bf3c19d, 0xea83cce552c13c7de1b5683d021fe5c6e5ed4a9c508f27a2a1a90ae86363b48, 0xd6bbb74ba7bbf7a91c7c97a8597a5c33d14ddeb8c0d987ec0e9ea70f2429134, 0x6d28de30dcdec0671b56d28b86c7deb6f20c788830a7d44c473c1d3b668f844c, 0x6c8e7476531bf474258d7923f2c679829febd7e6649ab7d26b47fc267761e628, 0x5e8bbef99050e88d6f09507dea027f0cf2a63834566008f4b6f1c02ed0642826, 0x61db7aa83c36dbe08f7ce1630634d79de6d2634ac3c5312e3fc084bcea92c213],
    [0x64cea7c2c00361cf7a7514e599124c8a328ea4e137a587a61642c8582c8590b3, 0x1ceda4a2451ae013c23b1a03f50f96ee44a68eb401813fc3d885c932772059f2, 0x1283955954b41684847e7cbd111db623515d8ed876054bbfe29cb9b0ef20b3af, 0xbeff21fd9bcc40d23636ea2a4209c551cc983075d9ca89f881f7cb013f7f1a2, 0x5d3304401be70a6e3ee2413878238cd0be35581a8b28678e321100b496186ad3, 0x10e760c89ce6b010434004a0104b6155aaa5c2da7e4de34c6f2be25597af6f16, 0x3627ae9b96793c12a07cda3a8da5a9ee33495357afd1a1471847782b35868a58, 0x57557cdde332e3ae8f7f9a58fd857ce94f80269bdbbcc0239ff9be04f9e723c7, 0x4c5a9efebf4bfcc43229a2deaef2e0d49155adcdfd113a883e1a5af1e282b007, 0x6f99ac6d18388912804d3a97e81ece12fb8c3a3e745b089c2b57ce32dcc55e2a, 0x109048c21ac2a0071873130500bf2de9b343dbb92f4465dc82787054412a316d, 0x5ee34061208471079d588a5cf728ac3f3138da3a9b8dec2ccff9894a26aba5e1, 0x3e8bb7bacbbba374c44729791cb4a7d068402a7174515d93f9e80a3dc81fb240, 0x52c29639e41cb7ef57f22bc84728d0611c8c5b7bd5f905db13dc5462efc2f692, 0x5642f954aee73db2753d2e5d2c70522bdb2d49a277d160d5c359c4c1046c1dfe, 0x195530d5b07ab00e698c66fa1ca85cec81a4979ba6d6a7e660d7a89fcfa9f29e],
    [0x6f1915afb28c42ba866cc45d093b19afc595bd2d8aa91829b555555460000001, 0x4b7aca64d82da53da750e9897bde9dfb74bbc3670cfbe3b2c3b88bde330cd026, 0x486fb7bc6df75989bcd106d8e75c19e9bc4f3edefd9607da700ee16afe148521, 0x41028da6637ff5e3cecb69924caaac246a84de19bbac8fdc3abdffe029bfbad1, 0x24d9133a31a207f095fd023e89cce8d08441ef78b88e4937a35764f38e9f66f4, 0x4894836b257c073ad9a59596768aee96fb7939e1cac060470cde1cea11b770c7, 0x60908fce96eed4209f99b61f8aa58df37fb37958e080f0344db4a50907445b0d, 0x4c5a9efebf4bfcc43229a2deaef2e0d49155adcdfd113a883e1a5af1e282b007, 0x164142e8f8d1446e2aa810581c09481748613d9a392888aecf44179b69669f66, 0x2f3e2d8d69c6f25a2777f09364413d819f2068abe5f12f246647f3387fe23bee, 0x1f4fb60058a7132fe9a1b57a831d1a5fcffa0d344d4d14abaab58cc8170b01d6, 0x65292bfac0f739ea9660d9ced7474e4402745215d151ed917e95162e6584b266, 0x5b5deaa852f4e295baebfb89ffd5cc49da385cc152077072e57dd2ea996fd3f5, 0x1a1f6a3d264550c04872c412710bab271fe097b347c41a07f690cefd7cd5ab56, 0x7231909956326daad8c7c39872afa05edde3c5c2a9afe7bae24ed89c96d134d4, 0x29b66631eb2a625d7724c62daad42219293f725a68b4bdb2bdb83f3b2ee2105a],
    [0x6aa770fa96ed0cdc062af9f2ea24419e803dd454ae12f879f5c28f5b3d70a3d8, 0x48d0ee96c7eeded65dfcb8d5390e46e6b9f5010555b7abf626f845acff7ee2c5, 0x2edea70969a0a75a186681fe8d09d8f7f8906903035716cec61de50a932fa98f, 0x79363d764a76c834e4ae1d3cadd62586284bf599ea7609979c46d8059152822, 0x5f1fee82945b068e236fa36d742f73d6b82a19a2eadfac2a8d3fc2f90558e868, 0x61c0dfde21cd971b122972e00797a95d2b9a823b581a5598998bda3959950db7, 0x3c405b2686cd2bb1ef47e3a6db868117731266c792f17b6c667a24360bf3c19d, 0x6f99ac6d18388912804d3a97e81ece12fb8c3a3e745b089c2b57ce32dcc55e2a, 0x2f3e2d8d69c6f25a2777f09364413d819f2068abe5f12f246647f3387fe23bee, 0x25a7fcc2a85d2293c42f59867f96a37c0ac51481abb784c7260800eaada6ecef, 0xdb9cacb9bee84ae3122a0787a3b5282003360af0c5120a31a8227b9beca6886, 0x3c1c5c008432b7a8f6fbcf3c149fafa534c38000065f17205b4868c1fe8cc198, 0x6a9c12700a7c4cf5d5d663034947adf4fa82e7e87d3b19865e42437dd2d14ca2, 0x39851f43fa81c5e018ca9ed52dfa2fdb2f63229bc739175449931e25f4d93b38, 0x287b1d2f225d0d2cb2de311eaff51073f45176949145bb770e56936ac4b48d5b, 0x4c0aef473e5690e630f18c17943ee4906313389155144a2162682555ca7ddcde],
    [0x310bee2d07c2a14fc6e73ddc04133ddade81769ecec43a9d1d89d89d1d89d89e, 0x67ee07407db3c1738932fc1ec3ce424f67cadfe83c521e725d42be5eca920dbf, 0x3ce648182c0c2ed9783eb9f0c378b68f0b1821334df574ca2989639314e1521, 0x10cdac9789ea80354be7bc031a1010312047f346501e7c9b3bb9faa8dde12370, 0x42472ba1c4b3994f214fc2920f52a32137dddca3f0081497f8088a49dff3678d, 0x3ac4b6fecb60ee73625bbab9553cecf3bc1baac2c681cb4b8facc9a7423fcd9f, 0xea83cce552c13c7de1b5683d021fe5c6e5ed4a9c508f27a2a1a90ae86363b48, 0x109048c21ac2a0071873130500bf2de9b343dbb92f4465dc82787054412a316d, 0x1f4fb60058a7132fe9a1b57a831d1a5fcffa0d344d4d14abaab58cc8170b01d6, 0xdb9cacb9bee84ae3122a0787a3b5282003360af0c5120a31a8227b9beca6886, 0x65baca3e439076090fdc6f695a993eee555e9e24de5efeb0001367fa9447099a, 0x22b2ee78ba74fda58796899ba977d451f9be4fc11cc75b93a012cb503958aa61, 0x2d1833c2eeea612d593fbd9ab97fd293c96b1d66f4bf1c111b801f95f0c109c4, 0x66d3577930381b5925e4623eaab049838f4faa6e7f6bd8d60e9b4e7601152a82, 0x3d192071b14edea5279006ac410453f55b836bd540ede78b55599be625a39f19, 0x33984e8f8e3b9840ff956be91bccc4f5c09442d5bc5582f6093c037080e6aa6e],
    [0x896583f0c9068184fa5784c727dc426520e0c2625ecea5ebda12f6838e38e39, 0xef58972b2e44bf50d8ea45fa6048c7a4be34804279341acf5698808afa39f83, 0x71510223edd84fed73c86a06b7241e6ef56c21f9cbaeee10714f4a1a83eb9ff6, 0x130d9bad6d15e3ed3e429a6292646983b2299b1bb7caa98a995df8fc828f09c2, 0x1ad7e48b4cbde1b92b466335677c54c2da3d18548d71641ac2697bdfb70a0c6d, 0x19f5b60733e24cca716125651f857546abd5879f2d583c5997a18df5b527c78c, 0xd6bbb74ba7bbf7a91c7c97a8597a5c33d14ddeb8c0d987ec0e9ea70f2429134, 0x5ee34061208471079d588a5cf728ac3f3138da3a9b8dec2ccff9894a26aba5e1, 0x65292bfac0f739ea9660d9ced7474e4402745215d151ed917e95162e6584b266, 0x3c1c5c008432b7a8f6fbcf3c149fafa534c38000065f17205b4868c1fe8cc198, 0x22b2ee78ba74fda58796899ba977d451f9be4fc11cc75b93a012cb503958aa61, 0x3260c40c10a75dd6216ce8c3571796b4bf39c31b1f0e078c1e6ed24504402a4c, 0x21eec2ec73609843f207e03a31f1880a9755d4fe1a061a029b713832f0aa993f, 0x14973204ac6628ad2d4f35ac0cfcbab7fbbad069d70b739d9ef188949871bd96, 0x8bc8faa720999574b6db1c6c8c93f5ea9ca7097d0e98de09ab51bd86fb688c2, 0x184129792aa97cd5b31cbf16f46f60e76bbfa176ac9c9ec63c251532d5c37f0],
    [0x5f3a1296990a8256bc5d3a98e3573a96a95bc6b95247cb9176db6db60924924a, 0x30deed68c73b8ca138a423ccaabe720a0612ac6ff9c0725802bbe19954d82965, 0x3b11b220dbe1ce0959572c7aa2e15b82a5734d350f439ec87a76b55d5edfebe2, 0x27a982afc182ee245ef9ec2fb492e431d4fe8044f20bc9508cf9bacbfa87178f, 0x30e2791a3673eb88660023966cc20a1341667f48792974b2ca91ccc07df849b6, 0x4e3fccf35b6cd4b53e7c864460a4a0e896cf5fa5dc5076e4cffea673713ca5dc, 0x6d28de30dcdec0671b56d28b86c7deb6f20c788830a7d44c473c1d3b668f844c, 0x3e8bb7bacbbba374c44729791cb4a7d068402a7174515d93f9e80a3dc81fb240, 0x5b5deaa852f4e295baebfb89ffd5cc49da385cc152077072e57dd2ea996fd3f5, 0x6a9c12700a7c4cf5d5d663034947adf4fa82e7e87d3b19865e42437dd2d14ca2, 0x2d1833c2eeea612d593fbd9ab97fd293c96b1d66f4bf1c111b801f95f0c109c4, 0x21eec2ec73609843f207e03a31f1880a9755d4fe1a061a029b713832f0aa993f, 0x4acfa19c2c26fca569f9281332216289282642a9b27f359db6f1542945e36b8a, 0x81c0954c1846c0ab7faf98bd6ab8ae6d16a4cd9b175122c2fd165be00e9f2b6, 0x40e8bb2075cadc6c4662ce3339d139f92bef8a5cf47de974dcc261a99f3ad840, 0x62a9d0987b8991921e4b8d28db903ac0db608f0872f35e550789b0141a208f31],
    [0x6beeeb3bc5a44881038e2168963594284523521472c0aded69ee5845b08d3dcc, 0x1d7ca2a8352d6e9779fed923b7d7b160602aa32b709036afb56b6bdd571928c2, 0x61901370c22f0e6182b32646002e888d5ef3d7416dea388a6f10788ab292c8f4, 0x27ca89d122efa32e95f6789b132b563b223f7cd535a04eb38735fe33cdd33ef9, 0x367852c89bededd14bf3e4104ee657ccbb003991ac260e28d9e69a4ba848cfe0, 0x314cb6b9ceab2ff919bb74bd048059c8a0facbc525f9d9b81a66f7f09fc36fe7, 0x6c8e7476531bf474258d7923f2c679829febd7e6649ab7d26b47fc267761e628, 0x52c29639e41cb7ef57f22bc84728d0611c8c5b7bd5f905db13dc5462efc2f692, 0x1a1f6a3d264550c04872c412710bab271fe097b347c41a07f690cefd7cd5ab56, 0x39851f43fa81c5e018ca9ed52dfa2fdb2f63229bc739175449931e25f4d93b38, 0x66d3577930381b5925e4623eaab049838f4faa6e7f6bd8d60e9b4e7601152a82, 0x14973204ac6628ad2d4f35ac0cfcbab7fbbad069d70b739d9ef188949871bd96, 0x81c0954c1846c0ab7faf98bd6ab8ae6d16a4cd9b175122c2fd165be00e9f2b6, 0x6c0db381e38b3bc4a056ffd62155e1bac95577775f5be40478151e37fdab0b84, 0x2e5237ff3ead4976f752f6f78631f1539e15385ca2664de28ad0570581a8dab7, 0x608aa53c28d3974774c59df2322e71dec854f05b8bdd3f421a3e152ef1b5a4c6],
    [0x58e0de26287035620523d04a6dc8e1596ade30f13bba79baf7777776b3333334, 0x440e554c1bb0f1f9d0caf94a56653992bc6a8d16820c8b8fd979efaddb0ed633, 0x5a465e186277b49b015838fae79ada55907239dc0f63f26199bf0da7c3393190, 0x2ec0a7c06995d6c7fcf707f05f26ffff41af8eaa12894b187f71dafb0d4ab02f, 0xce68ae1dde043cd834fd94faa6943136c3c5db902a17bb18175d1dd14c37a69, 0x6ed60e6c7c78daf43087fbe6504f9f86614c27345209750dd2d8834a99ec8540, 0x5e8bbef99050e88d6f09507dea027f0cf2a63834566008f4b6f1c02ed0642826, 0x5642f954aee73db2753d2e5d2c70522bdb2d49a277d160d5c359c4c1046c1dfe, 0x7231909956326daad8c7c39872afa05edde3c5c2a9afe7bae24ed89c96d134d4, 0x287b1d2f225d0d2cb2de311eaff51073f45176949145bb770e56936ac4b48d5b, 0x3d192071b14edea5279006ac410453f55b836bd540ede78b55599be625a39f19, 0x8bc8faa720999574b6db1c6c8c93f5ea9ca7097d0e98de09ab51bd86fb688c2, 0x40e8bb2075cadc6c4662ce3339d139f92bef8a5cf47de974dcc261a99f3ad840, 0x2e5237ff3ead4976f752f6f78631f1539e15385ca2664de28ad0570581a8dab7, 0x3336f40a4efee2ad505f670d128ad0dea3eb4d1067ac8d76d9f6c8ad0f5a04b4, 0x10a77c36cfc405ec9941111b901080f3daa3448affa7c5a1d7f0391c66a96601],
    [0x21a817cdd2467f35fe5b1dafc0bb5fbf7b689af89ce6bfdead6b5ad66b5ad6b6, 0x2609e3780ee8ed1aa2fef9a2e15a3b2d6f87fa2701b9b1b84be2e584db6be5ed, 0x303baa75e8b4472e0bc6d2cbb9e9fb9b3ac3ce527b6c8a59630acfa24cd1e2df, 0x1ee5a92a578cee09da85e682e40a8d81451af5b306523e40c72f6db0eeb7077f, 0x49bdcc50882ab8ba2ab55298fa839ca86fe8e239ff81a47fbc38c50c1d94e992, 0x1ee5611c9670530aaa49bdf12287abb2472ab4458b510354caad15c76dbfd96e, 0x61db7aa83c36dbe08f7ce1630634d79de6d2634ac3c5312e3fc084bcea92c213, 0x195530d5b07ab00e698c66fa1ca85cec81a4979ba6d6a7e660d7a89fcfa9f29e, 0x29b66631eb2a625d7724c62daad42219293f725a68b4bdb2bdb83f3b2ee2105a, 0x4c0aef473e5690e630f18c17943ee4906313389155144a2162682555ca7ddcde, 0x33984e8f8e3b9840ff956be91bccc4f5c09442d5bc5582f6093c037080e6aa6e, 0x184129792aa97cd5b31cbf16f46f60e76bbfa176ac9c9ec63c251532d5c37f0, 0x62a9d0987b8991921e4b8d28db903ac0db608f0872f35e550789b0141a208f31, 0x608aa53c28d3974774c59df2322e71dec854f05b8bdd3f421a3e152ef1b5a4c6, 0x10a77c36cfc405ec9941111b901080f3daa3448affa7c5a1d7f0391c66a96601, 0x93a1f612ce493eeef952da872be0cd5ed5207e7bb6e5d6347e5fd2b6241365b]]
  s := [
    [0x6caeccddf703a573b0063a878907ba84fe81c9c2cffe763f0fffffff10000001, 0x4760957d675adfd6d33d298a61188155f3e4bc2d4e7777a7db87b519284c5c5a, 0x572d43af6ee5c1a96ee6d20bdbc7263dfe4487a27f70a3cbdc8717a1eae8943, 0x51a88a4373af972f0587fee4c0bce9511ec57df8a6537d89496d700cc4fd6ff, 0x427f610685794548e3c6715b060a381a8c34bdc4c1a24c13c3c9b53bde4da77f, 0x2bc480e9e02aa532ce0fde4edeaecfde63e2b684b79a513db14e3ae373c4c625, 0x251cf6e82f9b4c1d8aeb59f722a9c9315c1d55e4ca4d228aae65ffb105ee8741, 0x165263f9dbe395b570649a5135637428b35ee7ba39cc48831134bfd819bc5ded, 0x6ce377cc75143903ee8d19f40749862b66b896664eb592935999dfd61b4b905e, 0x153706b56f6fb270435b7e5a5cf7b6e651408c60284f78580a7cb7a0a47ea673, 0x2a58daf179815084edcf9eaf0e9e137e7f108c0c1d999b7d8046802fbfdc8f6b, 0x26a59c4f94673234d78f89e4babbd36cd82b8197a6b3cb7c88e552e8a589375, 0x492daeaf6daeef8316a1ecd97593f9fcb2b2503c2fd8ef79811ea5d9d3a2b372, 0x547c2ecfd51057558845a827bed8a9f6602e04618ae47b150dfd24c9df19b3b9, 0x14b98bc28f63fc653816d20de72c434caa2023fac6a60ca7ee87cd63d511a0e9, 0x2f722fd7cc5dd23dbdc7224267bdd4cae12d8d24bfec69e50a8e22d5f00eadab, 0x18dbf8554209ea4aeae8841c1286cac6314731d1d56387c0556b726a05c34277, 0x674d3d426ba5d0799c032eb74d7190dcb5e683364269d63c8579e065d9e05a96, 0xb85fb67972e0b766c174e689febec6aa77603d00b1bd30e0a66ca26148eaa38, 0x4b23d2432298204c64be0a06417900a616cf27a97c32ba1728e81f085b8b744, 0x5fa08e93ef46e3161b0360d076ed8e2523ac86688959e914e140b63dbd23bbc5, 0x4dd9dfecb545044f3b15d1b1b90d45cafe9c4566816dc19328d1bf22edb810e7, 0x43d1218d8031a246c541e8372492d01acc284c9b9d84f48c0bcf22159cd9d423, 0x22da5ac91b9f8330ee2de7481e922d55bb7ae816242553307daa20fa6e2aa11d, 0xeeee3b4d014ae79f1353f9b1fe53ee0fa9026975c5fedbe4b8e324fb910b58b, 0x60d148c78704d9201442423c7aaa53de9a957e8a55d406f335db09086e452d59, 0xef75d24f2d594dabdc6f8ef2cca98f3f1401ed8e844272be53390d1b254437b, 0x5627c1fd5ffa0f12aa13c7c52eb57c0da49d1819be2cf024f83fc6a4a4a66934, 0x2294a5b154a2d5ff6ed5ef8fdb6d121a84fa17a83a87a6b58d2d54ac01b9aee9, 0x39bc213294240719190ad077ed50034909a74affce4477cfb9854996c047e67d, 0x52b25a3f198b780b6a084d35ac3d9aa4d66b26e34f5b738fb7a19c658bda95b1],
    [0x6caeccddf703a573b0063a878907ba84fe81c9c2cffe763f0fffffff10000001, 0x184de2804e85cb2b84e3b5f1845d0e7c9b0c21b189f548d53666c5da5fd4b4fd, 0x2320eb6565eae85df09b1a45508e0f104d8a46c6b15300361094f44ae9c531b5, 0x500c499ac88e7b57d5eda1d5c4f45ee288f64c1779bfa651755eafb07446636e, 0x5f7a26144c0aea6b314fb4cc8ff0d266c7fccec11e0b4daa81bef67b11ecfb92, 0x3bae702ade2ce10c198e6a33f53ef72960cecf68ab5b3f3d3c0dbeaf4f669307, 0x15939c7fedb88fc0a7108a4dddf77d6375c6e337a7c2f56f412edd1a49632a0e, 0x2da69875b69decd8d06f7e3246a1bf7a6dc8e31f026acd97a73d5f79e65526fb, 0x4eb733d55ad97141473605f480b156af76806f1e75fafe687afae41e780f0391, 0xccf56a62b4cd1288dfcd467a822ba7a8d82974a45512eb989502e577a2ac843, 0x57ba7cd2687b13cfec1355e1f58ef82d2b1864c11b2d40ef63486842a6faa1c, 0x23453619fa9594fbed99b9a3974ad349595bc8cf68e450d24a9f0a87303ba0bb, 0x6569007a6bd65ac56f1612acbcc95bb05d07287c83c38051879c80a06a6ef415, 0x1a358fd62710bba4f29f8d64a6fd9d73520da93646b5006c2b2d4fb9d7207f2c, 0x46185948a4c7e51acbadbff1d06256171c2dcdb9bef47cd6f6aebd183a2e74fa, 0x35d84d2137a06aca6685993ce6517cfe723c8a96da9d1ee8c6f5778b58a7758d, 0x1a1d7b1ff4dc4dd1f4b82db283a73a0a905607166628e346ef097b10befb4506, 0x254ff5db40b63321318258be03574bb883799992324797b3060cb055d49f2f68, 0x6df639791e87044d47b42b427e596ef08e001d857c6917854becbda503b52629, 0x5221c52c946a864391f413170b7e66ff9f87af378784e3501242aca8fb63792, 0x3f8cfc32a3056dd8fee15fc424463840edcc4f91115363c24f5ffa0be5335bad, 0x4cb9159a2aa7fdc50b5399b1ace46643acb94cc808f2b62a6e29e1cc7e5b0b60, 0x386a7c60bc8cc57307c51b3c80693af453b528bd04eae875156ba76968519406, 0x2d7f4b21cc46584ca4d2f957305d31e6cd099665c243560a07f206dc646466b0, 0x5efd89198b71074761f38af82ad7bcde8290fb783e53c9f884bcc352f7efbbe4, 0x27af0064f88841848b3eaef35bbfe9ced7824c03b4b0658312065e9d01eb9714, 0x5791fa429321b68e1df23a44dc042eddb89814db3690ad845bca4dbbeac852d9, 0xa7a63cf4f34b984a4374bab69383f8f87801d73bcb7a021708534f7eaf41556, 0x521774358f0d8a7d45c3314a9a267df8fcc6c03eb41ae0f7efc00044264780fe, 0x18b5e05c210ec9f8b4dfc5d620fcbf19f3bfcdf5a2911563ae6e14d6f3d3060, 0x24a89abe05187c433d7871307d8b9e1ee559b4f03840f7e495f2816963ecf8f4],
    [0x6caeccddf703a573b0063a878907ba84fe81c9c2cffe763f0fffffff10000001, 0x640891b10ee8f2e6b1fd613add4b4597e4e81ef2f5b41d2bcf555c916fafdb4c, 0x2cbbd818233d119f8e54f403777862c8b4e2a3e42b340045eb4b316f616c2e93, 0xe4fbe0d3844bf51f557874c61bd81c7b4fced0971fde4ddac678b3db89435d8, 0x61a433519eb8d7bed8ea573fbdab5b008f2d703c40187454e2adbe8de0aaef38, 0x1a5360bf73dd47fc0920c27f95a8a9fccb1b0cb62ca5a7b3f3707de0f3ba6a3e, 0x71ec08adbf23a368abf19697bf2539452a1af972ae458564f518d272bd48161a, 0x64dc1763e0c3c2ee2b118ee7ddeac969e8931ad40045893a58fc8de92ef133c2, 0x6a1209e664e38e3e851dff22056fc203d9d9ed959eb2dd04c72c4ebe2af1fc28, 0x1c2e1b0ac82c43cd03147506310ff90236b00e5f756df99a88490e17dbf0a856, 0x60ffa65d0e32933aa18a2e0b8df16de251fab8c90ba88a1f1028d976eaf4ef4b, 0x42672e48b1436e05de27a29afd86bb0be1a5d2acdb98c1242d90292b2e1de8fd, 0xde50b98cf150040413bf3445ad56695ff4a234c2faf5548b61a1c1f9918f34e, 0x72b26bb209ab45915f00e1f6ee45b0d437cf2e7dc053808265a4ba1fa7b807f2, 0x5749d0bf907deec62d1edeef50179dcfa866114bdfabf03f270d2268c2bda2a1, 0x649bf1fc4cd9d5c9af2eb69ac66160515034ce1a296a411b87354740809397ac, 0x19cda687e0913bbca811d933f148bee46d28398021d8c12b7c7a1702fd4e8d4f, 0x3513424e081baedca44bf893141caa2c907b0efd1d332c789045bb52101d78a9, 0x338a7788a2d90c447d9656a32bf1772694827cd5620d641415847cc565aeab89, 0x6a01cce3b0635f2915e687f3da09a91463ffa22496ea83407450515ba3f26aca, 0x63b429b9cea8fb1249dd63bdcba2504ae5af2d2facfe2419a0c8e18f410a5aa6, 0x4ba86716f81f51eba64684cf1d9ef4641bc073a513d2b88b72c5325a0268350e, 0x2e54030090ec806316f1c066de4c3fc4b068b3fcc32bb9a0ca6aaeed20dc6ae5, 0xffe913215a5efa7001ff0aee68f90f16ab82fe97b94f45716b1651ae85aadca, 0x5f06acfb7b904d886bca6bf0d263bd53319cba778630e6c3d10bdebac5fa3129, 0x6ff026242195fc6af9bf81303b518fde0b95c49e8687d40f1c38d73c9ce59ea8, 0x602b72414878aeabcb7ce207342cdfd5c6fac774dc5a8f660073a6b019298f80, 0x2793abcfad270d6338ae03cdc9b3ac956bec8a4fd295050bd39a26a13a397151, 0x1b2976c06d88840c7d501b96908760d133b6a93709c1834bc52024470954366a, 0x3e83b988d579241cd2bbc4172ad2fa856299a5423c07a5fe9ff2caea092ce062, 0x5c33d06647e4cdc9b5cd345dfc200ea532fb585520ce8d41ba0301737554ca16],
    [0x6caeccddf703a573b0063a878907ba84fe81c9c2cffe763f0fffffff10000001, 0x2fbeb409243ee04b12b00a5ac5454856a2bf0afa7a1e32abc1565b47ad9023f1, 0x4b488bd67faf8d410f8de57911e73dd2bb244498420ae2bbcf52cd795fe97258, 0x6565c144345ec91e980fd42d9f152e63980a432c74fe195f423e825c7483d5be, 0x3bd16d7b3c3cd1d53bc4c47f852a0698b8366cf880b2ee85b9c29fb534250f6a, 0x191bb8a232dcd18ce476634ae977fc822de3582d7d5c6ef93085225b5943cbb8, 0x13a974319533ee5675d3f6d906d60b6a0ac1b0993a3e5987aa3ba30d414a2109, 0x5afff06a204df23cb38e9138cc2f5a852f7168aa6211632128f074b467f9948c, 0x6e007bd632ef863d195c809d6f99e044d4bcd8e3b3ff7553bdb819a52ad54a72, 0x159191a1831292f9275fed07c09fb6728db8f91b5f9ee90b2a0b63d4c5a3d5fc, 0x3741f120119abbf59359e66cc49e2d031978d01eb4d6cddb4bb1ad5f9b0a66f8, 0x5df02cb408c9cce92522ad6dbf82bd3c5c858fb85281a4f9e5bfdbefaa811599, 0x626710c954f554728a92c29cd8fd1b50e97aade04b3da03e1013fc53f6a8b07b, 0x26caa6e512a7daa3a5b298b8f74a5b8adf89d89312a879f1638a650b91392183, 0x17821882e1b3117acde4ec0b60168e0ece5cf8689f9030e39238bb829cc636cc, 0x54882291978c03f1f417f74951cd6b1c3e313c749b13a695892b26d994cef73d, 0x6fcddc1b30024c5274f08d848b9905e682f78b7d3602a4fa4df00c873431b4d2, 0xa2be8ba2554ddcc5918874281629862b272c4de6d79861f90782514abf1fa72, 0x4ac5dd715fe5bf215b05417c468f3e0731e8cc535168a689c17c53f49500416b, 0x3786019077f4086e1d23ae1bdeb305ece00056827e851376cf519ef277a27b5b, 0x221043eda85f8cbf0d25de6790ad786eeff41374fa27a534c2cf7d72b69956e7, 0x890dc39ea00803dfd7ba9ab47998df0af3047a5a3ddbd0cb1e49dad95ff02d6, 0x1322baccb426acebde2bb9de68c054102e926c3aca6fd397802f8feaefd3bf64, 0x6f0f4004d352971ba158d975f4d084805fe7887f59d51e7f027858b5c073392a, 0x291d3d7fe6277df5c9a8ec53b18a91095bef13bd8b9db6c78f93a321ede77ac6, 0x5deafa0a59b86b37d5d666d6bd429679459e692d9bc1133a50dca58bb9cfd4e0, 0x11363910cd235045eb4019600ccfe8bff6c4783b02c79b6cfbe97e29c4a9a6f5, 0x41c53fbbdc4421c39649f9ba4092b7c30c4a97462105ae623827153e5a6e20dd, 0x31325f7d9f7c16aa05320caf8c0e4f1bc9fa62e89a0d0f8c0cc418e089e345a9, 0x3ba40942959ad50754a4ae1ffb33e8655862a5cf91b8b09e8b7d4a09dce8ffd7, 0x492f5e1c74fad0f8c85465bc8e53182e7499a3a9a0a0e45b2f38157b2822ac1c],
    [0x6caeccddf703a573b0063a878907ba84fe81c9c2cffe763f0fffffff10000001, 0x2f044c9031660bc2b862546aba5af7bf72082080f53f9d9ada4fdb6f7b619fb0, 0x5ff2006bb7a062aa91dc5025f94a01950a7b48327dc619c7a86fa973d3d9ef2a, 0x1217ba992acf98b023b01a89eefdc5fffc1088aedbbd4d72de5c8a98aece5c78, 0x45969f17e4effdacc16158fe218fbe4d0550955c95facada9d9c5c298bcdad19, 0x56bb7c7024e5c2aa9c1435d7c540741e02caddec8308c7223811acf87b60d0c8, 0x51703025bbbf4e7f4d8ccb08971a59becad50f52f468f584e44e2133830164df, 0x5977c9836fe5c8b32e8798c2103ad397fda56992912b852b53ddebc933ceb6e4, 0x4e49ca43f2a5bd49c738ccb964b17b1141d90d952bdf638ba34040e8400e6bd4, 0x295c480176cfb809633a7e44b17273fff72ac7d0697a47b0c933bd2c48e77cbf, 0xfa6456e4ce4a5f5c1a4daf4d7bd283a02ed39dc26a275bb650ff9f2a9f51001, 0xf82395e0a6feaa993801a5dd66540fa6f2e49ee7c20c1e2d37e99e9b68f6959, 0x93af08c09988656ac56d765aa437ddad7042936e6913604b37e0de0e8d1dfc3, 0x65b91d2240880e467b28bafc7715729bfda47ed9f582a3725f0fc7e409767a4b, 0x73a5b13809a05f4c299ffe6eff6893e7c797490493615a862cef3f74c0ce406f, 0x738a4f69538b01e00d158191b693e5b22bc69794ce66a9d6b25d1e764aca039b, 0x38afa43995d23ac927ebf25d3a474efe9ac7ab73dfd499279fb015854058892e, 0x4ff536bccfbfe2ebc2c364e0ed758d11c82d5c1376cc851cbf5ea9d9a83000d4, 0x5951354e18d8d95fec6770a362d3c7089097ef02f4b5ecd6c1fad2bdab7a01f9, 0x84f9339d47fb18850536adcae9932fba996bb3d07b0a998be6013d7651ae0cd, 0x34f7ebaaeb6611479384d657c409cb040d039adb60ba133356f8d6c394592b1c, 0xa62019ff760550f6ff11442c569aefa68ade3a95cbcba0be52e18cab01de8b9, 0x69ba04d5fbf7a49b4fe42a6cbcc73ba28eda6df14cfbe8230d0fc33e699af59a, 0x75c40a6a1117d99d72b4c874d3188b26c4deaf46463acf660c8ec58b7489aa6, 0x5341475ee494c350ce89bbaca633cd9574c3ad9236e09076cd47a0848108dafc, 0x1817494bad6206991ad5a87d54f4f3a34af8614c4c25f11233cf0c08654d3a99, 0x16ad164f304fade0f5a8c590aaa5d8ba3e81a9bdcf4b1d9286597cc5ac9cd0bc, 0x1a0e9be35844b52f9ac6f8ba5eb2a66ac1cffaed8594f77fb693e6dbcb6a251b, 0x22a31387971d02afdf736b4b29df23262d501eac625f46517403ec5665023656, 0x9beca358e7ad497b581ff10b29068049e4ddd154c03f7e56154ca7ad5cf7e87, 0x8465543a66bbdc45537f670842c818500e7d5e20d5e40c455536921d7d85d32],
    [0x6caeccddf703a573b0063a878907ba84fe81c9c2cffe763f0fffffff10000001, 0x4b672e3f05075f0d61c43ca83180e359017e146316f024a2d1646d9b815fea27, 0x4521932bc833277b250270da25c461c6f113524e0e0d0c0546dab7fa4c501088, 0x5d536bd75a81e4d597b8809d483d36f2cc912751a55567c4af435f0b50c859e2, 0x4af65b510c4268884f7d87a7c49ba9aaeee8a9ec7812d5a78714082c83ce9753, 0x218499f0a54b12d67cdc53022c52f2c25cacb729c4dcb73e9bdc38b743ce804a, 0x3e7e19411167efd0381e5904b964172e3514034c8ef941f16c2249d5093280ed, 0x61ea04c3457b72d1ecd4449c0e278c4d7d4e34eeed94166ee01355f7aba1156f, 0x3022d599ef34ee0293dcbf57351f8b1d24ad19f5068784634a07dfff51163df9, 0x1e0abc21041387ab263c336d60c92ef9d055c3ef7a332ed8b8989ebdc59b5976, 0x2a564eb35e9cd037b21784de8ebe8adfb4566eddcc55e18ca751e22751150831, 0x709d11e0830c2fc25ca97d0fa8597b48b5a44bb50c235861392788885136a2ca, 0x56e455b2a72e471d2ea8f34518991149454940e0a8eb1ef7c8905f74801d7faa, 0x4f65739069e0755fafbe06e8e3b5dd7819583fc4d0e9568923ff6f1b7d9470a7, 0x1a129f1259c9d44991665d9d36edc227acceeaf220bbffed63c311c206b24e40, 0x5c9149b6a618bd46e62af8821c6434312f28b28d178193fff7a54f28daeb3c08, 0x679ee684c36ae1ffacee5bdbae71c255ee9b4fb886563eebe127ff00908e3f2e, 0x30f29ef7ce198f15f624cefb3b05b8a6d9da1a875caea8cc4cfd80463a2175b8, 0x3546583b50e3f78dd8d19a60078fe0864d6435f75702031962bf52d6182db4ee, 0x2f16c764c1eaf461bcb90fffdf4e5f3729b3b4a144fd94637ff84a2d14058a94, 0x55601684aab8b1135a0e501006b261fa0a96a5c81e70565e55c11555ce998a5d, 0x535a03f66c1b3de5f8ca19563a6fca710780a804e5ecff16e8579fca57bbd9ee, 0x6cef91377a436656080b89453903b867ad088942dbfa8075c71fab1b0bfbadca, 0x6dd2d67ca4712426efcbe19f02eabda1e2c053b36c3375a57cf51b93bec74d69, 0x10046993e4c99676866217cc1f2f3be81c008537a4050eaedb7a90ccb63cb17f, 0x581ae997883de751157b1c375cc8bd3d7734f41ac28e2b1887646713f1680799, 0x424b13a0f472f9503017428ceecac984e0e4ca35c397aa7d4c0890aa728d73d9, 0x290b17a3ba6fdbcffc6be128c5488232917d9ea06a06d2c75acd2ec044d71325, 0x4b83335c2bbadee3ea86ab60337e4b612abdfc7c38fc1d071a9d0012c4ebe404, 0x57ccdc720e4445e33742eb42200ebafc9e07e281444009334b3cd43b1ff74ed1, 0x5bc3ac470872a445533ce197f33937dd590c38ba511f7c2627a9ed2edaea40fe],
    [0x6caeccddf703a573b0063a878907ba84fe81c9c2cffe763f0fffffff10000001, 0x3db3ec22d216669fd424dc6629f248522100b8dfec6916e50ca1e9de0e3c7358, 0x1595785bf6ddac565e230507c7ebbda9da30f99e1db43bfcb5996e75e1954fef, 0x64162e84ea00687e3a29e8f93ab82658ab94b55e40f823305e6b48b8a8b02f29, 0x61ec206532ee7019bfe3b0c6b6e13683e26d73ea487a393cee07f6a206c9c6f4, 0x5d6a4943ec8204bf5db5b5ed75f60747e2503bcab2bf14fd422492429253537c, 0xf39d98e3025fcab10ee0e419cc2b1dd50f735542f3840e649de3430f0055eb7, 0x6bf2343cc180f61049937a0dff7357f85852f14f2cf0e6a25d6133a72357bb24, 0x4cc48ca8bcbc9980d47ffb1562081544d68ad49193685f98ef2120df0ff106b4, 0x5208c279d23adc158ae9f6a68be84d290f5256f99eb9ddb75fe2a33f0b1cfbc0, 0x442b35291ec0826d362a426b8d33bb063908159fd4fd16d5597903d58478dafc, 0x1bdfbd5206f5dfaabec2e4320eb589c0da0e759ab26a77779ef6e9926019e1bc, 0xffd3d6763867c5e1d2556d2a0c9307595f434b382938add46e76582f2dc991, 0x376f9554e986486678618cc0475c6a185287f6c9e9f0507c110135ce63efcc87, 0x25891868c6c1e49c37a74a219f0ad662632f62d4740661b7e5381f1dbe85eda1, 0x43c1725d3628bbe87c2e3d3430195711cffdb88c028252b9cd821c8ea9d417bd, 0x68786dc15e9a225697b96315699fb616b085449242279509abc34e73609f6477, 0x69a0ab0fd1926145278dd9da5c2f2c834a72fbfefa50e7186ac5b58ca901fc79, 0x2eb9c239a3202f3a17884e5032f3ad2533a68dcacce2fe52048b19d117c2122d, 0x3231dba1f30fb2d09b23d10ebee2bbce8d6d3f418e9a93276d41ce538686eb3, 0x544a8c1cdbc16d2a1d479da5e33a0b493c3f8266a8672eeafa096793675159dc, 0x3588f126ec66cf849cbb6a5a5fa77e6578107558088ae0da00831e37b28cccd4, 0x5c527af0cbe67d5e0dc53ad6701ebe22b8083af1f7358944f3e21b89796a026c, 0x3e6699ce1bddc431af738a00c69bf5e37de02f8b7848c1a01eaaea4ce6913200, 0x42d7616ea98f7f09815d2c0974631a037ad30f308f8175dd6eebfa1c00b02981, 0x1d79c230afbb8a9d86eea0ac87a0b7476e4c8f9566c4194892e09ead8ab96d74, 0x6fbe63cdf010039f07582fb7419ad51dcf761127a8c3136f2e482aba0d3f32ea, 0x51a4c44aa10c194b1b599f4702ac26615368c42cf7c8c02cb02fad63cfd639b0, 0x29401480d628d05bf9eb15663776f53d9c0ef5682f720eedd1f2b809dfbf36e8, 0x21feeab9e663b6719102f235bd295b325d129541169bbac38aa24ddb5cf3f72f, 0x6a3b5d539fdc67562632aee4a91c1d7912258bdaf3dc6d9d183ea87a0b57fcb6],
    [0x6caeccddf703a573b0063a878907ba84fe81c9c2cffe763f0fffffff10000001, 0x5a91e24dc9de8e3a9dc3524c7544d2b91bba16625ac1fd948e316a7d8f47bbba, 0x5e76fbe3feb480e9f20d199b3cf0ac62ae77d312ac2abc4b6b5cdcd650419986, 0x3bfe7e9b49f254ab7048a432bc54ca4244eaac3098992fc24aba5d8ba19fc43, 0x5e3bff0c82549ec292b1de061255f7c4208ac95cd4dc83449ab6ec433018c95a, 0x43e3e0705cf1704d594669a3db049e336a1705c937ebcaf73abb2e39e408eedc, 0x6a3636c13d7d0dc2004efe26fc3110b2cf3e80fcf495f6cdc39f70777c0fe39d, 0x2c1c8d0c6300ad42d6538d4e7f3e9d2043466bf2b9560b8ca2c61054d367883a, 0x5e4f606ce50d1c8c0fa932f1e07c6488e6228d1495cb1b53f3f85e7e824e9f76, 0x666c1b9263c912e992d84b063b0e945bb1b91006928867f8841fa15b23fc8761, 0x2cb858174f9b8a0ff5233bce76f19c120ae1bfc3945fb8879ac074f881881edf, 0x41247072c8c9f81752def197aac10cfeae5897852196b0bd0a7e300ca952cc3c, 0x4632c3bdce41f6c04b05bc51a72fe6d51355a5c4e674db86405102f2f9ebfd65, 0x377c6378a4cae1a8406d9f0de66d47229259ce0ae942a1b539cdb1b4839a6688, 0x225fa89e6114e4106fb0d47b79b01aed87ab924e249e7246acef53a07016af43, 0x688cd701a9e0277db558734a7fcade6fa0dd46e79b5b823b5c971f3231b7be85, 0x5fa8685c8700e5b7f884aecb9cee244b52492aff9fc5feed2d629e30218ef9ac, 0x2dc75307d359f2a3eaba26dae1ef001fa235c420580fa53e7c2ea3ef5d946e09, 0x1850389d0da2c14fb5b0fd615f8c17d39c5ef44809773c48a272fcd83fa25b43, 0x4a792eeb15e73bfe4e8d6315e03d39546e4556803ee20004b8038aa4ca1bfbb0, 0x6c85035791752034410f4a6d929ba9b3ed684bd25c4f7d84d586d1f64ef11848, 0x48cc68cc8cd7fbb31237729866d4f633d50133ed075f3fffd1d47d36025670ba, 0x3a7bf7ac1d192c23b35c5a6d27b6f2ab87f49e5293d8a30ce6c16ce832cee16c, 0x11402c9574c77cd911ec85bd5e3701f56a2d84c9e2d80e36b100ee992d307811, 0x6defbe0d776cebbaaf295c869add5b70852505baa1c02b77d4d015ea408b5011, 0x3757d15fbfc3f95176c0b220c319346485139d35bb73f907a9ac53a151255ced, 0xefdcee4b98170d8b5f26e9053972cdb869a736992625313b13b0abf6769f653, 0x4729cdcee168739f1dfcd836cb2649cfc86a53a7e32deb0f934a9e6990e2ce77, 0x76205a684a6ad151ec93b9c1452f5250cf0875aef351ff8a9784889e9bc0e29, 0x3c5152f6f6fa0c9ec3612313b5c8e1a8e033553204a664e1a0bf0a49112bc9f3, 0x2735765dc16f248e992dd9b8f01ea257e7fa52b5854863ba03c76ab1a2d084dc],
    [0x6caeccddf703a573b0063a878907ba84fe81c9c2cffe763f0fffffff10000001, 0x2215665a1542a28ba8ecdebabeab372c8b6bf4277aab8f37a93194a58388819d, 0x5b4b79c8b911a1e935064205b7e5558d640b2c2f9ef17ffecb9e43d302e7b5ab, 0x15c855b3735f92bed424ff855f236f14ae9e061465bd639c07eb0554372d12d5, 0x28087a16dbbc988c6702496aab737eb699f2cdf7f3013f93aaa710468aaee3a, 0x6419961e9f1b583a67f92a332d51ef9e3cc9d173a27ee5083b49dfd4912b95a, 0x26537a8dca2b9ee1863e53dac6628fe90a741436cd27ea3b91466be05dd4ce50, 0x4d4f4c1072b85cb23afbfc01307e15ab095e01fc113ba21c1c27184a49007c29, 0xb8415b88df9ca960dedf0b76b62c032f5eaebb31cd59ba4be8bf694eac2b688, 0x20bba4245076297de565d7ca521554d1e29d31a2d37a3023b6fa5a8be26b1fa3, 0x6fd1e884b9d56d0555472ac114470337296caa802668d2e0dffcda14d45d8b67, 0x5dbcb478f06a4d7a3e825d0019a9fa90545b0923ab772dded8e50b658046eea, 0x48066df34eab8ec8e46e61daa679ba35a20e40ea65577c3c0271530b334d876, 0x1ee68a22e1e1ede6ab838ba8c12f564c420ab503ec81ecf65cf4e1a647afba51, 0x172c42b2cee4cd1a6ee816cbf3db37c9ff39c6b8145bbbf8d9f3bdfc84de2aba, 0x1dc59f902c8ae3e84074a2694fcc4e4064844aaf3d721946c2c8e1d1932d2aa0, 0x331cb5dea9472ad864fd136d6d797fb4f762ec9f0e05cd8d6fea6037b8af6f5e, 0x2aaaf3019f029bd473715104a7123910ca7992f74b2f6839b7179d20ff62cdd9, 0x728f87ba013542a6e46bd4cc12baf72f1125c1d089534a4bef85133bfebc1c5f, 0x1376edbfbcccff2716bd26279ad823ab61df80f687e5ade892404394b5c8dfdc, 0x48fb70814febbe6a5781c0d9e2b07280805051f6a9a00749803a96397b171d32, 0x38a58686d9936bfc18a8328e2f01489d9497c579efe6a4f916550ec6ffcec132, 0x356e66da7a51215d3776a10ab4d33808f67ad282742db14fd3192b6c694e24b1, 0x360e3f1c932dd0e737c0498225d2f2528836f8ada25086d957bc4cb6ac8004da, 0xfa04d31790cca09310d6fb51b85009d0af17e6665b0deefe4f797eed5c05b7f, 0x28fc772b98635c0cea83e8e7c8421a0a24e94746534e2abaf234a68d0b442e2e, 0x6bd0ebe2e805cfc2e1859bf15360e08641c1c34b82dbe9e6621256c7b23834b2, 0x58a248a76ede333357fa712c05caac6ef0aa0377d5630eab91deea9767caf17e, 0x6fc36a45c2d3546b5b037ffbd1b9f556a29fcaae0d52d06c06c6f1cf54c81e8f, 0x4080d829e50ec711bc8a3cdda0e61f0c6dab431b76ca05217d5e3fb06b8006ae, 0x44298d0bdc94785966617fa36a36bf5424af438708b87510ccb4f8b644fc10b5],
    [0x6caeccddf703a573b0063a878907ba84fe81c9c2cffe763f0fffffff10000001, 0xa58cf8eddd7b752aeda1c8ccde986126e2f60f79e9f9fa36c919c840c12b51f, 0x412a111c837575ec397db84b142ed33c9de0d0630d7c4483dd03d2e3feca43e7, 0x676ff112c131ad2cfc3ada2dcd2cf741f5dd8a35d16db22fcb6915ef4d053158, 0x5b4933a22a5a352d7ef5e07a4aec209a72231dabb8fefaa16ff88e7a5ad7ff34, 0x3f0a7c1a3cfa8d568c1f2b04b155517572a1e40e35ee120c595cc9af00d3a967, 0x5528b8d91509738d794b795aad084f30ba7d6e64b531ce81068b72e3c9971bf3, 0x1d3d53b5e1456b1f0ef430d23347b9d0c7036021102012a1c9e15796394bd09a, 0x48ca25ca93cd2431ae043d582db10cde0d6f42ade51a55af25cc6d95b9bcd95f, 0x300afa5b17d0d8a1da97d8d32cc1b0bb5d104e95b16ec8be844051cb45c17216, 0x47d43b8feb436e6c32ec1ec169424c8dd61ed91e631713e676beec7ae919e28d, 0x44179e3c8443124b4a1904e50cc697256ab2ce93fe5b85f46f4f020d41b3c414, 0x66c44c7cec6b9061d3e509da270ae5d62e69387cecf475ca3e29a1f218957fa4, 0x98478f4188348e90544621a87f5332686a493fff4366d0de2c8aa53ed107d09, 0x535b35ef146e7e49248f4e090c4ed16e5e6e11d922d689c9522a993fc0f5b049, 0x21b7c000f3d0a7e504a8b3468e6227d02c8e63d6484935c3c4d910c45342a30e, 0xbb8ee6fab0a2f7a80424b60ed1db47d5177209cb837888495080634207503f, 0xb05eb0c7e04262fd922a21907d79fd21441ddc2977fd04d568dbb319f571946, 0x2a9dfa0375b36e3a0528ca0f4fc7383176d2dc1fa9e0ec859e5d84fe05537396, 0x2db960b7ee18e5ab36bf66518725a145d7d125d734378ec226ce42af4e62c22d, 0x45d9eb6b2fdf876107674738fabc5b8627ed7a579f7dd64e9e78a0f4f3f5a3cd, 0x180fab778af45721e98a8cf81bce5273cf1a285a770a4e1a89db2dda2c079e81, 0x52d2bd2cabe533bae08071618457ad367e31c5515b86d3073145a1fbba7fda54, 0x69160b7feb05708312c80f512a39c2ec5b28b9cd1d6391637992c4de276a6692, 0x440976f00a66ef1447400b9eb404fafb86ca267b052e2abf74b9e68146866e68, 0x1a10034f02281f1b126c038db96611b479bb7c695533cae93bacd06fdfd6f61b, 0x3939a1241af03fe37b1d53b53ff850faf380b02aa115cd8bd54ff1b7f54e894f, 0xb841a39b0bd2021f9cd838d2f1b23226a55004fb7b2af43d8ea7112f50d507d, 0x429bdb6e194bf48785a356d54a96230ed8f240386f12097036b507dc20638c6c, 0x44bf6a0bd182fe437b073ee477390260b20d35583d678d9248c0411640996bcf, 0xa220786c61b49fbc0f6977bb0c4bba9cdf67cd870d797fe75687aededf581d5],
    [0x6caeccddf703a573b0063a878907ba84fe81c9c2cffe763f0fffffff10000001, 0x5ccae06d2852f0a9904be0590a7135f08056756a1f5855b86367578cb29fc848, 0x2250770dd4acbbc2e4890e29d0781351cfb2919b0a0c0e505596fc9a4a3d204b, 0x71f6e3bd2650da811cf9e70434bf4455a175dddcb84af494eed67dd79b6fe9bc, 0x435ae1c3fe097f0e05b60506d1ffe739e01cd8292d14a6a179e6c3f4f7485e0d, 0xf50de9c8b47a6a6e95241aea283f96ab7a73f7de946807cab531c5ecafb8b6d, 0x27ac79475096624f3a43f01e53079dbc17cba5cf5deab9da33c8ff83aaa6e942, 0x4940d7962f7c8553f0b16968b720229cd14e2a925ee378701268883c751d5586, 0x6b9d21430baffb3db7720ffbd36be525a81188077aef2a8080f3a0d961185585, 0x689d6cb96c6c23a9a37c8677ef46d51e90e9032aaf48c85eede57379db20d36d, 0x72fb74704467de546951f218a2b016042d2b6c63b76fbd0bae2edb5e9de00256, 0x67cc4dc77f8533a713786db984f85f953ba233f8cc833d87018581591b7e63a9, 0x6af53d9f20bdd78704c9d17fa2c3214b322a056190082f0012571eca9dbf3b5, 0x55f4f4ec6869e31bd447ed58138be7b87f8ff2fabf047b44b8c5e22a079d935b, 0x40608218ec5c8b5009e186ace539acc45510a23b653c98967aca360c1aa266f8, 0x5435d05e0c62ff3b7d723288bbadc49410d9e6a3736ccf469f6c22c3f2f5b4bf, 0x6c6204e9fe4b6ef0699d821f1122898282442e673c1f3d169fa3e221a77488a8, 0x3ebe217e5a8ef51c02315f4285a4c37bd84adbac5b3b3e6181db7570f56ab247, 0xd32a55e1d6488b68a7aeccf1e582064ca300d1f3029a13d173ba8dd054a2db9, 0x47d9de1751b3eaea540fe353e569767fc1718aa79316875303af317997b3e9fe, 0x2af724762f72e1e29231898da662155fed1042214cfc1b316695a75ddce65710, 0x1ef6f622986eb8b83800843c9635e70f430d67be350b77fde10006f7ee50ad98, 0x6d78ab8cedae143f673defe0903ff890ccd30ca076530cbab3c7ef0c17d23afd, 0x1327176d5fa8066db0826cccbbdbaf960f01abe29d4b0b645a85b8c69392a40e, 0x6a0aaf079aa774cd20c7ff3ca48606232e03014cc1ec7ac0a2b6735f2b1259, 0x19ea5d4bae55957409beb3e21d4b29a36716117ec739ca1d77a11a5cf3aa7885, 0x3c36dcc10ab9e0733acc82791d16119aab96c4a6bfad46b269d56c87dd9cca90, 0x55e495f3af4d30150f33e7cff86b1c6fb939ca2dcbab03e371ab911ca455cc5d, 0x6c9695a4294642e732d917e1b3fe5b455411305dec8337253a8e3ac69f6ca357, 0x720665437169a8cf65b567de3c4ac853f42c930fcdb4ce96c904d2cc71f6261, 0x4e33b944d8ad9f65a538e1416f9ebc72367f6b23010a448964dcbe640ce32444],
    [0x6caeccddf703a573b0063a878907ba84fe81c9c2cffe763f0fffffff10000001, 0x30daad2313c6ccb9f3eb403087e940c182087ab53e6a60c6b8da1f0143f0d2a4, 0x43e519a1fcd4ac4c2ecb3b7b13e40a367ccf782a1062c39099f53c8a68ec5e63, 0x85479d99748595dd3e7ddb80a96d44d94639c4af555fc8f595d736db46e9e6e, 0xa39181224eb500e0d82996b83437cb935ae57d4796b7cf73c5110c368c7fc11, 0xdbb0d929d283a1831bf9059ab37fee10053aa7dd646878ab26223020b522dee, 0x4b4243b1222735e57c420e1279c8e036e09b48c3f671156718619ea7fc3cb38, 0x16e66e706e8622706eb8248374b69c2f6286fb906f9c7ba82c08af68f2f7768c, 0x805e962f74e0dbbccce475f524e9fd2eba0962422e06dd102abaf206b0ec204, 0x62f7285a6569dbacc44a32dacdc9be689bd9513d33abc859e9a88917a80c43c6, 0x5a727b8166eee174dbf43fdec3136c564d07d15cd8b7d8025fe872499fd50dee, 0x69e8f0e5d1cabd51150df87a471388ed2068bb43b13607bafba3269b5206f91d, 0x646b791bf8c8f8bc5a5e275b99e4bc889f564ea83dc978e8381bedaa7499bd4a, 0x402b66483c3480e8947fc122d3b828f3b3b4c521137f84dffd9b8b23ce8fd942, 0xf75baf3ab3646f8d6752057dc538181dc29487a33335bd1a8e13cd022ba1bed, 0x5fbaa799df8bf0bd44d1a171337dfe294e2d8a1135eca0659ece28ea119a5eeb, 0x15c66298242153dad91bb85f841815bf62c920d684d93284a8680e90a9785b90, 0x4341ae5e4396f697a932a7c61f1ae38ef8efe98d627a0c8d02307a06c2b30b3, 0x2e70b1216d5302146b373575085244e8278d2d2db917589587d1c1df8fcfaccc, 0x545f4c8363bba456e7b3aa96da30473012e0a40d0cdc70c0fda883a267ccedc, 0x6d4350fbe9a2f74b046da901c2933d00864a6dc5be10337816e23ba7526b1d18, 0x65a585609f1fbfa00d93f76fe7b1c162928715847d64ab7ba3729af4493e10d7, 0x1657e6bc52b1dc1e3c1e85d40432a3e681e0f3d7e3dac6b5a120154b867f1a31, 0x310cdcddc5c80fa44797c3f3c6a9845696aa53dba152df095c3a999f645edceb, 0x2c50a96a302bd279ff3d79f93d76dfdf51e71517c4574518aefb2cc429970e22, 0x29cfbedf135b1b0424ae82a43ebcd543416e4ad49f4d93a8a17d7032fb037b50, 0x52362deb1e62eb69aa84fcad1161253724db039301d8fbfaf047566d52c5775, 0x3613e027c2a120e689e6ab994d1b45a9e02b8f23c57edc54c20c8ffd280b42d9, 0x5fec20492ba0fa952ca020f78a2df8a8a8a463d2a88dccfa5f70b02c4c0d81ad, 0x2c6f8a267d1c010eded22bfc99374275f371d663cd29434ebfbd66145d1e24a6, 0x44c818b7fc4ca00bc93c20b9a96d5fc00c0d2d317d3a12be83103dd6be7ecb55],
    [0x6caeccddf703a573b0063a878907ba84fe81c9c2cffe763f0fffffff10000001, 0x33a9ca41bab4041f6e96fc1f3150daca2352a731fd6993aea3e901a5a750c499, 0x6888ecb16861d98f97cc974247438d9106c5b816130192c953e20d826cda55c9, 0x1ed0b0be9472c44dc28169bd2e351fccb71673e3331bb0fda36d978171c4aa9b, 0x68ccb9c10b59fd7012ff263b231bf03bd968947f3783bbe357a7190288dd9959, 0x63de405303a022344a95dec7f9beeaf4c13a67b4e07032ba20b2d851487929f4, 0x6e0ad0c6ec0613c3ce0bbebce47bbadb20688f011a480be05edb794d8862964e, 0xcb3b5dc9a7e7c422985f5dff0f4045a1be0845edb241b8a5916e22a2b2d13f8, 0x6e50c72cd08cb4e3f61456ad72335535057b76c8f04e0e3155d50f21b0a110b7, 0x316a8d3629f43a62ea2b35aa3821a73a1bd4bc9d597edb2e6b6ee920137e92e4, 0x1db4b917b0002a82a7154563c3780b3b4ed63b861e2206f3754260da045d1f52, 0x2c9c43486711cfbf3cbe744a889c067644bc41d65263ff5b486fe78a1f2537eb, 0x72ffc1ef20d8235cf86ae18379699e1bfd9b01294a4d7c0f8bd9690141bacdb, 0x3be6dd11554aa1e806d2abf862855bf7445a82d7f993415335199be080605e76, 0x6a4142cbab281cac43ca4d987ab7a65ae630f320829d3bbe51194bc90eba8245, 0x6edb06631fd7e52cfb7f10f05b52c7ebc9784cd4284ed77aa86bd6b561244738, 0x279d30488c96cca9aec0b999d7ff08f4f650bcc7500a14d1c21a6977b34a91c0, 0x434ed1036aa4c1d788ac279b417e12dd73dd854faa20eccfb6af77a0436418ca, 0x2211098b1b4e45f2e664d6f318e6cc126d9df745fcd30adb2b288eefa7084c40, 0x4bc947574ebc25390fed78f86756c63bbd604454398cc2db0204a8ebe666ec29, 0x3bfa4fe8e42b60417821062d198cab01547414ed0edb5cf0dc0c392d10b887b5, 0x210d9589909dadfc8d48e51b0df67aad4bb4cd78a66d0eadeeaa947fd0edd603, 0x2ebcfe9d77ddad59751acb30829e6eea6cd6373ca8daacb99cbbd303fdcf5089, 0x7f44bc2dac9c5fe5f618ceaf9dd4eb9b79d1ec0b5413bf829b109c99b4aaaea, 0x3b300f5f4eaf4d264f3b7dd365b7eb80334bdaeebc84b4c9947ef703dac04375, 0x1dc2d62292f339630179d0a5ed91f3985387b57268e5fc3a626bbffd5b7fbf03, 0x729809ccf70f8bd9827b9c678bdd1f353a5f4e6d640c21b0e734fd286f13e4c, 0x157fd8fcbad02e5b2eab514c6b1c8f908a4a4e54c2174309d463078ee4ea145, 0x3fdacc64ac6acf3e4a11f6e9f3ea4b254b877afa4e0e6ef44eab8a5f3dae728d, 0x631a9e76bd220eedd8c99f92b0bf682d18b11b8427b2336463ff98c1efcc4683, 0x1268ef37dc23617278abd1992b89a879084c91a0ebf4764912afa420cb0f3635],
    [0x6caeccddf703a573b0063a878907ba84fe81c9c2cffe763f0fffffff10000001, 0x6adafb958bdf73e32417f6b0d775cb87a0f68183a7666a0ad8da90bb85fa1ce7, 0x82e7a5da920104ae62a66b189c73299e4ca3ebb7ac3d5e9e62004bdd577b4cf, 0x4cc0b6e829e60ef6b49ca12cda2c821fe7cc0dac1ab6e856139824e8aff4c948, 0x51a4de9fa4902dad07b3246ffe402134ebdf9b4e38065c37e69559b2e8414c8e, 0x66d16409753df6be22a00779219e702746e5501fcf7607f33dc573b32fe62030, 0x33d5d718650a0b547104db56f56de013bcd9dc31c13c7e9137fa3fd87218538b, 0x675ef20005b25aa090082c006874f87d2a54f02e8cb1342addd20c3c79ef36b6, 0x1d04f51d620390a466de7845498f5b55968cd15868a3b8e8b19f4d5e5a7ed7f, 0x289c2c7d2b882c8542c3fa24a09a6890b8c7020f95ae3b197e94ad96b4213e6f, 0xb5c4faedc8075789db5fde1dc3dc1f3d2d2b73067e531dd7cfff0bf617c7ea4, 0x35d261b9418211822645e9258442a1a950976e064fa03328948eae673cacad52, 0x19c0fa022bb6bd0bf79177a9aa37d0bee1739c64fa5c6d5a693aceabe5324f92, 0x4a2986a0bd4e65592892c5499049a77a9e712e051df4de98fe018e0bfda0f7d, 0x1e5aec390d9af23bc6c0ad428a40c38528e673af85164ec1f5dadb10cac5b3eb, 0xbf51fb3cc544d2440cf505dbe1a291a203a80b341a9403bef72e763171226ed, 0x33c5e1a95f6270ede22849e7786af63e34e654b4cfa18e29ce39ad5f6a2e284b, 0x625b38be9a9e40f8e9c68ce8af7590d0ccbd20368feb4256629dc837e35739ab, 0x375f80596fd88bde2d64f94f76e0a7700ce8589e6cf038bac6c4dd733f78f0d6, 0x1c20c81d466e23b05a68084de2fb75926b4e5d29cf547a9fd12d81cf54f240e0, 0x32df0f1f9ef3669984efff375ccd43ea0bcd531dab7646946e90a3bd371a3cc3, 0x3027f9619adffec5dff41be61216e91b2e3fa52375804fe67d0b22d246398f7c, 0x4bbd346bebb6cbfe8e21257944f95e41fc84f183a95e33e1abc1930aa6c3dd4e, 0x34824cc21e8e13bb91b96c121e6384075bc829857e5103bc92343475b9cecaca, 0x3e730de1f31c47380e0166bf8fa0b66f1655da4f2809d87e571db0e7d84d0644, 0x376de6560224b3c71a846d5a4d0c2c3611c63bf1a3d03a7035cfd5f22762b9fa, 0x4d0bec5cc926a6526ab21d06b2a4dd44730d80619d25c7efded1cd8452093136, 0x6dd24d67d92b217fcfb35029b217fe31d0e04222fe70a0c05a5668a004c3250, 0x6bae695c9f8de5e6132e61432c32e35a7f00798ee05be2ea1a8c7575f9199f89, 0x4dbe1d81542234868da31455292a4513b61a67b51890339cc67e05cbd4c4baa9, 0x45a81168bcfbce87fc2b6d70977a7af2bf9fcff3e5f5b3d47ab32e89928bc373],
    [0x6caeccddf703a573b0063a878907ba84fe81c9c2cffe763f0fffffff10000001, 0x57e58eb40bf98c46606046b68184cf03f1e3655575e3012faae8b859bf4355ac, 0x6b4250ffb8512aaab005b68aa3379e86abd8e49d3d834fee7f58eab3f17cbb74, 0x203b45c9c78c4a30878065fb4a996a0c8df91796bc5a551f7827a77d7737c12, 0x4d13f0966fcef2cbf3c300a96f6258d85066844f482c55281a5156787b2a2918, 0xa61c2810856214cc89641caef91685401603053ea648d36733ad1cc24cf176, 0x47b901ef43ec9267386863f9588c20d7e296fc33444f135693fafb12e7242bc2, 0x1ef472396ae5be2acdd37092c4de38c790899c886dacb3b0f95cb15493001d02, 0xbf84a74d5dae44a58db9946d5f05324104372214d03bf5568d647d9d3c7cd03, 0x54c14938ce3f7a1eaca1b1f6911f63aa6cd8ad6bd1461b4f1233b09ad4d275f0, 0x6da444c75a24c68630dcba1923dcf32c580d88b604a41a4a2f3dc0a9df4c6f66, 0x1667a6378c87874b822ded13818e1fbedf653ed2550398d6a537804c1ecf972, 0x3353a514a4184ccd1fb4dfa5471e118c53bab9879978f4e43a347019d0a1532d, 0x34a1f726f9e96ecaf31b184ef24b7caa8e05640a86e4adfa1c80a041c2dceca0, 0x64b647a8ddda75bf3f42a8c1a6ee83db5983d301edda0c2eb8e57346f113c3db, 0x12ab766f2e6190abdf7a7bcb6e13c7173a043f770a2e27a49e20805000869934, 0x1159051cd1d4eac21ec91e8a7fb1ca268ec11f40a3ba4a974ddf89a83fd4fa46, 0x3bf888fcddb267e256b0604674a655a6588a6ebff51b3c99c1e0073838b7fc0b, 0x3ab4e966c1ba7022549dd3b5b725dbdcc1346d75b014bb1b9c9425a6efd7b74e, 0x1c361b623034bad8ffe1a069c86dd220ff6bafe16ad237743f80433aad73268b, 0x25761db1db249a7477c3a7c1d5648c285136a2c84a0b43e5b767673e9f556c56, 0x3cce6b69e305203a1bb252e2f60552388a4c984659514f0aad6d6b5695f92d9a, 0x104ed85f0eb4a770e79008499608a110081b01ebbb5741bb2c8a7258edefd366, 0x10d8a5b155cd5728dc87aa160e78200dfb46d0587c996eb694c3b83218a38671, 0x4e2cfb480c9a5602c27034f2519912773d9386f709cfd7d7c49d421b4a62cd65, 0x492cd4afbf4d949732c5d3c3393d9e64acf16b877ea36091dc36969e5bb5f823, 0x3b0a8892842209df55270df797c3933e5eeb4ffe22d39823812665469ac230d, 0x5393c4405448e9a2cbdc29b5f84ac1d7c9c4f76fc0069be8addb30f8d288ff04, 0x3cefdcd9ca13fff832894854fb01b2d7962eda4e28e026889592aaf64485d17c, 0x6403bfc57d60d5e54900e7108fbbdf1a36eaf010d09456a979471de37f7d23bd, 0x3edf5c8474561fe4f7dca90085c3e1eaca220129ba26dd9b4081987c6e9c8472],
    [0x6caeccddf703a573b0063a878907ba84fe81c9c2cffe763f0fffffff10000001, 0x45dd50f9b6569d8f4a1ed6cd5cc1a44b98f28af9a83e0b472699dbc21c1872cc, 0x517d4cab2de5b879fffc88d98a62e6bced8a645ce9ab5074f2665701e4116220, 0x251be24fd0ae9cb9e4a59ae98a08eb57da2dbee3f2e4e0db23d3d28e9dfbd1cf, 0x33fc18c524df852a5f8f2171ad1f14d2cff5506d0465102a07b9c8eca1930822, 0x59a748fc327146854da460dee018808474704135d4e96a0be1a6cb4890a7617e, 0x2ebac17958c5aaf8c1a8c87ac1ff87cfedaf835599374368ca3817faabe42ab1, 0x67ea9709020ec4c86207a932ead8cb774922d579af490e48fe01f49a098e39af, 0x3b86c4348da2e693cca5e4c09333e4bbbf7626b64d8f2f262d005da8a920b518, 0x2ab9a36a0efd9abf12bf1707708bd1751d2cba3ea621d0ed7ec0558a7f4f2ee, 0x69ec0a228bac984cf1b868138c14c17ccd5534dfc04297bcdaf677851d739451, 0x1f070c492d72792ea452fefbd0293fdb7ac2b295948193032b075c24a9da4a2e, 0x3a7633e68f341d96c4195fc3e2e90eb2c8e6c1a4e1ef45edf68777dd21c1954f, 0x41ea2b0c8acb8c3211135337049f2b0901475c0d8ab981212c04c0e60e72c73c, 0xac3645be24896e543f2ac2a38e3dd531218d87108f8514767944bdd2f42f39f, 0x1bffabf8fe2fa3b262042eaf40099fa4111ee525bbf25f35ad590cab0ad969e8, 0x6610ded1c1f48ccaee5fae4707260db509a533f8e4d6fc0bfc195a3766940b74, 0x33247998ddae9889d78178fbede529e919643a733cb8ef251fe1968ed6810842, 0x34c866450d3d6480f8677930148fdb72e2f8d7c61c3eb057cbb266e556280450, 0x2bde7b27dcddc18173c90bc991fc467f42311eda04fd2d618c15e472cc0a21e5, 0x346fd08c1823a43dd470996fc4d014e90bf4fc17e27c95ab25ac172ffe1d67af, 0x101d11bfbffe747ff84d1593bc547c4f50dd98ab6a76787020dc856e6794a5e9, 0x48d754f22aff4ad296c8ddaff79f770837328a692059de1d19365aa608020840, 0x3c483fd66b8a586df4054259ea9a992968bec31d1c6c1042837b0080a08f40c2, 0x547aa98aa481a53a1b5bf2191839b5f4b8ce6c52ffcc857363b6b2456c249648, 0x4ee579438f3cee4c1e6cedf57a977e11d911bce5d9879352aefbda8b60181d42, 0x22bc03e9a99de5cf962e2498ec1162f5a1b96bd3339b79a041df567ab30d7618, 0x8222c856a9bb87ffcdbb59f9abaaf9c507089fb32488dd18e34cf2609390fe5, 0x514d459cc72e64115223283e734139465c47448151719199d03ac1de118e5423, 0x1a98a9817c36e5596e8dfbe8e355fb4d7d4e3f92b31569140c873b89f8cbad6f, 0xa54e6b523cfc9deaeccf5f7baf9de3b8b7e181438054bd09e17d8b544005fbe],
    [0x6caeccddf703a573b0063a878907ba84fe81c9c2cffe763f0fffffff10000001, 0x26d456e91658c827ffa078984ad1889783e34c6ef5b9d2ae81b034f4efa40dab, 0x2ec582b1b24692a550bfb4093ede0f6964fbf86b57d5ac22e90aefb4d4e1b943, 0x5b8ac52e11ed4e2f790119a14a58e930e4a552ae153a98d4506d08febafae6c5, 0x2d6800037d1336cb60d861df1a1da2b59e692dab350fcaa16e594388d3483de5, 0x1b86b1085d5ede2906de58307debe8feba0e66a9131a6f41ccad4cbcaaa27038, 0x6bdab25893c79ffbb8c979b9938cce70f52b3ba011842e005aa2e678388168d4, 0x67f4e5754c1eee95d5feaed1ce5e5f332047f39bbfa5f6598065d926e03779eb, 0x55b46127d34b8e814608ec2fdc21bf7c939ccea338265942fcc05efa4c13133e, 0x6719612b4b0036e13fda7b5ac49973caca501670cb760bc9d65b61a8611c2aee, 0x5e9f27a7f6869b3ea7a064d9a64268906507ca30b774bfc41d2f83f9a2ba613d, 0x1b2738fecce4b200b12290ee87cf78d82b95a03f11cdd099767d07105e6494ce, 0x457e9fbeb410fbf6f63d06e9a6330c2dc3fa05bb791570b2cb7cf48066bd74ac, 0x1a7fa9cc6f47c37ccdc5b7d338245ba7b57d6ab9cc0961479ad4c557956b2578, 0x185aae3287c2723f348b690980ed98e933c284a6633910380379d651d6562bda, 0x64336e98781830c96847d8b2e46d3a8e9819e57428cf14b3000b4bdb6bbef470, 0x6f242ef90f6b4be3f3f18f439a6ca9fdc26fe6c12011f1e877b836dafd59b740, 0x31f14d80f13ea068d3058d27234e212d3963211c766c78d717430c3ecc27b318, 0x6755ff3dbe083f8308cc24e23c8b73e65310f4fb13abae8bac5d72a4702457ef, 0x2f0fd709d752407d8a5c8aad44b25a6a2bed9334618a18b516b4d51fe527b1d1, 0x32703dce346a74560d125800cd6a378f2477a4512ca483d665fa3c742a5f7cd7, 0x62c4173fe910e3e9aec8dbe159d67cae6c5e72c550c7a54436d2fd6b99117bac, 0x293261da9fc04c037254f8562afb4f3276e7a9e82b2cc304f80506325a956c14, 0x1923c0d5c03dbcd5016ac24bb0b93ba32cb67931ac57620df5556ab5480d43e6, 0xb7e73e3c3599cc4b4c9d05d9e72a567d3e824fa66e21ac7a28637832241d4e3, 0x4091385a3072b0afa386e9cae04042a368f80fa27aead7905c681459719ce719, 0x4efd6fba1a3231a334387e215b24d392cc5e37e7b457c4a9a0abd69159996657, 0x563f1fc61abe6d76c29a2936e20c798fa6907f90c291a19ccf21fb2cf9acee3c, 0x5dd2a026d841d9f6c90d40b61e4549bb5a83389ef26475ee356a1b3900297cba, 0x132457b6dd9c1d46f902eb3a3a62411a945e4730741edd434f464060c789e356, 0x1c2b4d97351bae54018114c6276347a886cd37df6b329f28dd5cf1416598fb25],
    [0x6caeccddf703a573b0063a878907ba84fe81c9c2cffe763f0fffffff10000001, 0x5850ba08459d8e8b059e3dfea489ffb89cbee816d3e584cb791671452944ea9c, 0x16a7e88b987ca33f65d10290b1371c64f0373fdb97f6238437b5215ec0f7c7ca, 0x58c712e62a75e72e8dadfb535de90d3e0acfb00dc6402cb1fb44c086406464af, 0x63136919a52f5839e094192884faddbf386094e0558cb38f6797e13ec001bcf7, 0x3216cdd02f793bb2b694d17fb1029567b8e4bb6efb1f52ef7e55b5da3364574b, 0x2ed32eaa7e73880b404e4b23326a8c0a77c0437fb86a4fcf50e5df23f0d37759, 0x482983def27f62f4e9aaecf73bcd0227e7f8887af4c5f6f46bac8663530c020d, 0x7977a3af26ebbc6f76c1a6bf4c33eb6c9c776066834e05ad81ad13fb199b2ee, 0x47cd1d4bc5095fcc6cf497bb7001b85ac45326385dac942b0d9d3add004a8692, 0x687686c6fdab9ab5b146b3a1bbc7bcd24f59a8ea6946957aef3ce8af5ee29902, 0x6a97f751715a24fd5d110fee8ae57653f91c4f47cf17455916c3126bcc5a2de7, 0x492f871ee2c84f8294dcd931a6781ab9003bf29c1cbf4cb5f6a8ea731eded8b8, 0x5c1c78ac349cb8d8f5d91693b93755ba340f726064ea790a467be856459da2a, 0x4171996a4b95ad6aa0ea3a3b955a12d722e583ad8735c770319a7d4b12488bd1, 0x37fd485b66c0034b6182466ceef44996c2200a3b6e22a93d5a0e6ae35926fa8e, 0x2c9d1a042c715b2377a85450d5911ef99c71d98f33866230a362130f3008ac07, 0x41b6c4a655ec5d17d8c87c8d1d53a0c58603887953c69ff5ec00aef56cf6b842, 0x1b1fe57ab5800b16843b1b66202906197f26164dd3bbf1eccf359a838877dab, 0x5d3a1c06edbc9eecbdb1e8504be914082d03089bc1729042371d4c614ab6f290, 0x2333b622055222491c3758deb3c88b512a0f8010edcd1b285702555eb57f38dd, 0x46636cbda14c172590a1728bffa3768452d6f0677f05aa607232ef23b5be9f17, 0x48b5b3293c7035b6b0a29681289fbaaa0767579e3ed27628c49023781327ae9b, 0x6e65fbd4d4e8642ddff0576859f28b08a7f4dda7d2868f502794e90c9d6accee, 0x20f19d8d2dbbe66d7f0f9707219072f8d2bdb28d1e8e7838b398b8fac29bb383, 0x5e8dc111f0666f57ec81541d6fd55e3f410a789af921d4828697ee1e0d02f6d4, 0x5ae9b985e22994a40c4777d6eebaec856b2be21f5631fcbad0479c622914d4f9, 0xd19d6c967427aa1099ef971052e134dca1bada22645af063ed710b423f0d13d, 0x840dfdc403cef83dcee88aaa2d8cb0c69140942cc50bd816e1c5c1561f90609, 0x696adf765c2d7c84b5b210529fc3531409a028f545eab6b005c8fd24fa5582f8, 0x3ea6ccdd1b96a3a916425449b5e66d8cdb9a56a003f31ee1db5c50ef70e7a575],
    [0x6caeccddf703a573b0063a878907ba84fe81c9c2cffe763f0fffffff10000001, 0x2a05c4455e1f2432240546e0cc450ee28a55e43e0af0b6806770fed1076979ae, 0x42e8d3234d9325cf814487e752d4ef5291ea408817396f903fd549643dc31741, 0x647d0c14aad24bfce24f542e562d1d6d56e145a20b47430fb0a0977bf3c7b64d, 0x5e053428140f6e1fd0c848950dee2ef864f75a3ee1817a4c4106aafebfe7c911, 0x4a80ce961c9252f5059dc520c386cb2f045570cccafbf2e5515e8ad7b3b8e2f1, 0x25bd8ffe1d2e4405ac24353f6d9d50cee047bc0d5ca699f5cbe3a475080afbba, 0x70b17139fcad4407e9f541417cc6b9131e9f0bccd7bf4e206838e4e45e23e91d, 0x69ceee1102eaf9c3a646199580810aa88c437be6ea01a12324022a2f7b42c823, 0x56e09a1441cfe1fc337c4d1adc8db10c77e5e360dfb863f06eded277358cb5ba, 0x63912f847dd930c4e8ab7c7da08fc17cd87055271688ad84503620d5eec428e3, 0x322f0fad31db52bce7939cd6d3f28441d9c6f68b540baabbe9d5a2164b659c15, 0x43b4ac62e5051c35f6345bd255f3de43f40c14df1cd0962b6a476cbd3cab9091, 0x10513159d4726e39a2ced22e63ec1b614716d290b24c167871b6b04cd53b0cd0, 0x23c739158c5a9942c345d2c4371d6c3cd9608cba49a9b825f1e05bbcea0288d7, 0x420b5963f8cdff3cc0d1994938dfeac74154dcb9dea1d1325f7020a8da12860e, 0x4eb85202b40065f4487e1bc869889fda820818fbcae63c71fc3dedcc92dd8577, 0x3a2e4e2f65ad841850a698177d946f1e6835eae7ae8c962977ab5dce3ba23a83, 0x23c8c73182cddaebc00df18533b207e83a3172e5f84916c4df4f9be40d26bd87, 0x1d0104cd834aa2f95af3e0b3977cf30fdc301d604792a9b971cd7aba3cb9167e, 0x56804d8b6445fee98b0c0cd007466b3891c6dcd25d5f4a8e1e1a97b6c0e10e66, 0x47aaafd573c20176ed1b8beec4955a9ae51eff1d29860660129167d24166d9b9, 0x736ae13f675a087d78434ea4ffbd5ad4e2d33d5a77601a97e153894c4ccb68c6, 0x5f41b63e3a2796bd2d2201af12211cd245c6ab712d5f253382e89badafc6ec30, 0x3f461ece7a13c874d0d8bde0371fe6b013082b7e5a3dae02d9f1ffd0dae4c71a, 0x23f56ddeba2c853a700ccedcf2844163301fdef8b32c9b8c87d9f86a1a4e1afe, 0x15d596f94e23a50c278f8743bcd4311de5b28992603ff738d62c711d1cf33cbb, 0x31f6922ed0f5f88ad7a8c5396f8d6f7f5bd168c9d5ab10d6275fbb1c15be77d, 0x5843500ea346ea9b35b3ec0a28ca6da2b027acd283d0d36eef8fa7a90a389c65, 0x3d2b575f8fa7a21645d6190f36a711d4259db4db642278805d748ffcdf04a35a, 0x6d06e625d8df80fdcc2c468d298355c50aaffb4cfe890b99aff27cc8d04e8b64],
    [0x6caeccddf703a573b0063a878907ba84fe81c9c2cffe763f0fffffff10000001, 0x15b93dea143cb0e6c7a2966547de6c9f31d594cd2daae5cbe615a56d75e967b0, 0x6a543260f2552b9ddf4255959076f98723b152f57fa3d233ed64fbfb02511c89, 0x37e19ecf440bb4dd052678cc9f8df7e160207dd9ae8a7ddf366aef224cb41934, 0x82ad0de84edd4986455030daa49fd8bbc0a316a44d5256cdd72f19171674fd2, 0x2d24d5883b99491f363dd0a453c407b06b9466380d704060595d3da873b727bd, 0x5394a0d2e75257e2bb6ed650da7d6f11093e2ece60a433d80ef0f069b6ff32f2, 0x136d2cb7b6ab2c93496e56971f7161827fe8662a565939394ff55265d1544f1e, 0x1d8e73d4636d60aae7daf56f0f03b0711f0b904766a6485d53b512f95285cae7, 0x4440a93469ad044a7673a9ea8eda0c985e30ae852fc365d8879121a689846226, 0x6f7b10555f91718aa9343d5c42fa9aea657b81e2a4a2f2d58923a9379ae4fb13, 0x2cbc9ff2edc049d32f2d51232e3b7804393303aaa1e63837b20b0321e8d99a9a, 0x4af570f6dc826fad812927b6b90290b69d84335a61f3c291770fe9994e524a83, 0x46efe68f4f3d98936ca31caadfdcfa6ceff6a41ba1fe19bf966d0a0430b60b5d, 0x439e87d639973ae7973273bfd7c0559f450581563bab5315534f7799992a736c, 0x23fb59b284af8d73fbb84f1639ae2e8ced196926e0d22ea08cb52dc8a865190d, 0x137767af08363694e6b83f8c7a542efbfe8f8e666fc171826edac3752407fa2b, 0x7c9950c8b04bb95fe163a6599afd9c4d162a84f1a9aefb0b40515a9ab417de1, 0x2003e9b31e10c70356d2df96231f05fbfd110f5324a14487a2c628ffd8b90384, 0x404a62575eaaee6001129ed474a2a9001a1fca2b275c9079005bb4253c7a8173, 0x117a622a93877b7091767f954e48be9e251f8eb736ed34f7aa06fe68efa14704, 0x167a5395a96f0b77c151eaf97b014bf47a5061b64f0947f86c82efa74f2aa836, 0x5e2efe2620209b80f08cd462405218d21398105a6a3315e6fde9293bf3aa9427, 0x38b808253b20090c370326dafb0a27f168c6a342b5de5ea06504b75097289dc3, 0x37c0a5037e7ac409d9565f3ba3278584c7b5b7d5b4350d248b9d53e724f7218f, 0x833cd0971736497e1865b3e0100bb6bb9ccca5f8ecece6c2bdabeef96f83d3c, 0x45144d41ebe3ba3e534d1743f24ade6c4932de1b3ff2d22bb6c65343e4487503, 0x3cb04f9883d687d0361538a3eff28756022ce41f8260b608ec00aaa16bdda2e, 0x41574c2f9077f283ff29ca8f07dcd16755f0e48ba55f6d7aceced3e0dcadd07, 0x203a00b502c9aa2ca245498205fb849ea97c2d61c3536924e3290c46a99b61ae, 0x5b2745eb348854e1a58437ccbedfce06450c461472736e15a6c309329c0874b0],
    [0x6caeccddf703a573b0063a878907ba84fe81c9c2cffe763f0fffffff10000001, 0x5acaac681885b02192f8391d31094e4ef02a8d56b6be5ce794dc0ab11bf491de, 0x50ac8c54279cd964fc374ce6d9642ce4982628153b6c3a0dbf6862bf3039e5db, 0x1d3bc075baf4524a017440e2d443cb4f72a2fffe98feb10fe88fec3bedde8761, 0x71bd77d42ba76efb4d5931dea23c54ffc10d2aecea33af5b0e8a33ac9269d72e, 0x17c5b75b12471eaeba78dc5d89eaf59ee73c6d1d901a1bca56ae99c4f89148fb, 0x7c1ee71d1f9674f248d05033cbce6bbd4d84c1ca3b4c7a4d6128cf4613e1264, 0x2269f52a259083d8367a3d6bfa26fd2a4760cc6af49fc3b2e562ac6181247959, 0x5624be8ded125581d71560fa65fe21b3109ed8a77709413b0a41e85fa67098a8, 0x47d6dd803dc325414a47d230f3defb3d73a5fa9795eb91d5cf3275f76b9c2b30, 0x2727511f0d2d397d330ab00784e1aac87d5b928adf224c8d42137bbb92b033a1, 0x4e6075b3ae63863d0f21d9d096f1b7864e146df807c4b58c11c4b565b2ec4b98, 0x17c79d8b279a7595f63b51249d4f07efdbea651a2155ae2d2c1e942d68d5eb4c, 0x25508c28f3ea17ba9bf588b38bd8af41c1504a8659ef4da90f0b0402b7baf45d, 0x35da69aa11c0206dc2dedb761aa674585c8cb65c8dd9105a104833de353670fd, 0x15657e63a15a3df82aef176babd79918e87c2f865b8901dac7f81ebfd354acfc, 0x3fc79d033fdddbc0abb8df762f0b090a3e1667c24cd96ede9f11f2ef3036c916, 0x3bbf75c14badb31b85669b61d323f8a96b7862de5547029a881da6310e413356, 0x6245fbe8c09a0f718cb717c275bcc817e047e9f8d805f1c45d078ccbe57edbab, 0x2d64a20424e020aab0cdc281922d5b0e2beb3a0324c293f5e2f0795b52ddcb98, 0x1c2bcfddcf104f80eee09d3e89797bd764739257324d2e9ba459277dc10f25d, 0x41da978278840175dc63dc48462790e9bd18d1127e349cade0ccfda152917dc1, 0x5930fbbd4c45d765e398675b55cb8a092c6133b3fd9528b60ade855d1273c163, 0xe0b5db59db276e0b923ef781a7c3bb28bb6771bc8370314a549ce6e0fd9502a, 0x3502f65d32123e156b49bce21d74b827c68e22c57d63ca9bdcc13204a75004d4, 0x694160e5383d8ad836a4f4131a6031f4590f5397c26c0abe8019791d2cd99648, 0x4bb2bc8eb727665997522c332f119f3d01da0b915dee70f594be3e7db263f2b3, 0x56f7322f55717941075eecf8e577427ea9421c0577486a8012e322d0ae9292d8, 0x252491324ddcc80c0436384932ca257a1738f34203c58d543939dee0fc6c7be7, 0x7286629ac2bd44bfb5d91ff69a60fca1295c35ad492df42eb87aa19096912b68, 0x30c92b004a1f5873ace3f25c6561a19147d0133c74eaceeef5a902d270da2b8d],
    [0x6caeccddf703a573b0063a878907ba84fe81c9c2cffe763f0fffffff10000001, 0x613e3f61367eac079e4e9417b2024791879fb7ba11e79d5adf5bcbcb627cde67, 0x36b9db8928153750d2448459f607c22d7584a579b936ae3ff3eb6d0131e1fdd8, 0x512594d1172c32a7d5e854a4070afcff2ef66bb7976883b79f74c87c4b3358a2, 0x2df2627bf923505170112992b26c51bf3b84f8a147a54e187a3f66c256035e85, 0x4acfb9535ad8472c74ac14f9e4ccaea2971de481cf8b391c8105cbcf4bda16fe, 0x21d077f77304463243cac463a4fd32c8613211f888fa153b62ed5b4c69838fb5, 0x6c5b5be6cd4f00a2edcdc98f4f38db0eee92ad46c8446d540efa77fe07c19900, 0xbf81724005404fcf4a4cd1477160b2bd2b0c4d71ef7488f6a46751808c2c9e, 0x63a52d3de169316813a9eec84b774644e6077836dce01a4b6dbd21ca3e224545, 0x3428085c0cb2082a05d35381c881feaaa2ab70c6143767efb3444a9c92ca8dbe, 0x46ace258f3c580b64e6afd64cc50cba6c2bbdb38c89755799417579041540d55, 0x30fd44b8aa9097c5016cc5453522e0621d6450c135f89fcbff5131f19d5ee39c, 0x5b044762d716f5a63bf7858daeaa15104acbb8a20aee8249904bb31021398f6e, 0x2d412fa41299d1fcf0c2a6c64189c9ce1b83c7e7ca84ceef4f735551b5244e33, 0x491c351120fac6347abe70d711dff93a78c09b8dc3f998de7fcf4ce4322859c0, 0xc456f2368d1eb5c488ba27daee344004f880c4bb03903724a77a2bbef58bcd, 0x19681b40a05bf1394d16349c597a949f5da3f64c7c5bc9adc9746013b6cee27a, 0x64069ed829906ca9f4e6618db0f324fc76b6bc4215b93b0fc19f1524b78396d5, 0x158c60443a451f8a29df1bf047b5c262539f46a9761b2c9a02d14c9256afd57d, 0x3ae9c7c905f45322b773b37d1fcc7d9419e0bfb3f544ea331f4d10330034a46e, 0x3c96d141dc4da1d8e6a0e7d142bc5eac976ea88a3af938b98d7df1c465c2b8a6, 0x6c253c46ed24e605289913ae979f3a338eaab953af159d521ebc5c6d1023eac0, 0x288cc856f936eedafbfb682a5e9cb8f339a34fe5e1e6d535743b67ee604baed5, 0x2f893e11453a16e1f293f438e588c9940e532ae57009acfcdd29f737360003e, 0x36700bc96841038ac3bded881560e572dd19f7989cd5cf90a11fcdf98b284b81, 0x1b063935e489f201370db32a23fa5af764acda3f8093925899a6477a3636eee1, 0x54bff4bad96a9fb93606fa32f52525c779703584db8c137a2ea1dc97ce02e5d5, 0x1cf6c672ad742636046f8dee7de9ba35598dc4fce8697261303908494f13eb28, 0x9bcb6c5223463713e7d0952f00037b8b190344e0bee392c746fea345ea2a1db, 0x1e3115f5c863f7e1ef6acaeab0ea3eedfe167cb364cea6e4e6e0e9b2b021b0d0],
    [0x6caeccddf703a573b0063a878907ba84fe81c9c2cffe763f0fffffff10000001, 0x41e0d056f42fc25c232f9480f4b3b6a07b1f011135741446dc659a2772a5b79b, 0x2bf84f66db5d1c4b02268079a83d7b0ffe2e9f2ad72e81dc9b041ed351bde7fa, 0xb1270a5b5fb975e846f13e769627b5187b8a10cde1c7569ae68d1c7c9f4376, 0x6892017a7bad778e74f21e59d0e5076ea21caa9344f5019a87b851a1251b6ac7, 0x52c96bbe2154e722e61946880b4b3a0599e46d2877544536a70b794824b73c22, 0x31b8fb0a751ebf2c007938a66dd4bc0988b3f8f4930cc0889b8cc0c61a6e8ec2, 0x1545b9f649ef7d1250315dc2bbb105066007c07b2e886df3dd1b5dc68332276d, 0x2258010900369b62f965fdae277933e6d83713315c798624c90a633d521272e6, 0x3ad18a35ce7027e818dc2df09c7f71d8c5f58b55dfc83523d2c6f616e5d06ff4, 0x55655dece39179674c0517fd33008368be075539b186ae91a1edc2b6185b406e, 0x6c305a03002f320fca3f6bbe05c999187ff97968d9ad1612d69ac4e50a0bb2f3, 0x6693fa1bfc1ceee11af07198ec5f81d29bac40c248435d3e1528185978f4dd87, 0x357f9831556e8d2edec13e455256718c31af1d65448819f5a5d01971fc5239dc, 0x475afe08e2b906edf0283b92e0a6dffa71cc61daef530696c607d9e24e09d063, 0x2d0a1cd449e7746de63282bfc2573ef357d4f9b6fd8ca7e2e85c693b54276ce1, 0x3cccc4ce07f2ec8879e6e77ee70fcb156bc5cf51a34796aeb133ca3149e87e98, 0x65052caaa58fd125faf67ded8a79caa08385768bb3d6d73fb6735ba898b6578d, 0x59f8335168f9128266ce49362873214ad419b8b8e4a81e659770bdb008b2b46, 0x1993aedf108c9d2c9c2903c108fa4b1c225aea04d1fbd3775f9855a96276dfda, 0x5ff817459982a0cc747574de2e453703c2ffd94b015495cf5cbdd7b9a83bc07b, 0x45ffdb3a4cf6e87e817a59d27f2374138eaaa98ee4a9907e835c706e8e6a3400, 0x2f2715a62771f0b182463acfa5350dafaa670f69a6189708b9240860abc5de93, 0x44f5497275510dad1180169f5488afbfc228f4bd96984a0e025103056fc1c49f, 0x43537b4f495720c943d4715a89622cc297eef00ae08f543b90e5a8b81d15d07b, 0x3e8a1abc1b4cc700c1d2b246658cc9e316662a998640c298c70fac6056dea1ac, 0x5eb3b76e87633a613fd6337c11f32357e10421012c672b1134bbd6267536618c, 0x424348baecf008eaf3b4407c437719942e0d745457e163d4d7303176eee08b60, 0x339cf42da47c6eb0056b5ca7ed3f1df8668c7c3cacd27e7ab5e60e9c0aeb8f94, 0x2cd4cbeac2c705b852502ce9152092cf2a8081d7d96203eaa8f9b937986adb1d, 0x2f21aa925b2b2a7b94f5ad8a4bcd2153df2bd3b2b2311e5e4af9568f68a7fda7],
    [0x6caeccddf703a573b0063a878907ba84fe81c9c2cffe763f0fffffff10000001, 0x2c81a97dd41d7eadac6232e4633aac946db33162da8e515e33ee238f715d0acc, 0x2dac98f854c411d85f83de27daef57156986d94b848457080edd487c17ec082, 0x1b241f92c8d1b0bce9e1207c2ff0ea4e485fa789ad3570c832a616320d7a836c, 0x39fa357b68f5ac0ad5577e768ea3812401888f7d2a0a6b69b5ef488a940cabc8, 0x2365a093cd3c228699cb69f2bdbb1b8fb52821da3cc41dbe9711d2e527a5c127, 0x331960e051a0ab15c54af64655e19020b24da71930aa5e3957787471613ff2a7, 0x2039566075dc699f28b6d60d752c7f5580c0fe4ad082b71c51aa19802cc1b287, 0x1ef2a9c6bfa7c0538217e7a93a709ea724083b89759789a7b2ac7915bf2c03b3, 0x2c16ef65c7566dd0b86f82effa77f865add9e8c4ad354e34360e009f4ace8cf4, 0x33fe08b0880c80222f527a3640962c6cbc9e5c9b6edf416880686b01013379ec, 0x18764672f0e1360111338aafb5cf67efaaf836faf60403d0b94f48b6b4dac267, 0x316a581d100289450ccc4763fb882c0aae68f096f21b05fd090817be064b6b8c, 0xd9a9d1103948280e41d90d3fccabfff7abb005eb85c244e6ddca93e0e94078f, 0xaeabffdfd7067eff8e3d870251b960d0439965fd0336d1e2f0d939a0f5ac795, 0x74425e4f6b0a3427d17a69a63e03eba735ee24cb7cb6cf39f1fdbc6220d5812, 0x1e9f216bea38c23abfb0caa926b4567b6a30291c410a94f4617845a0be281a04, 0x61a7e374831ceceb20bbca329a95f66c41ad045ddacf6a83300a29c091ee28f2, 0x27fe5a62a83ebc52ac5ddc7e45e9577181f25c2dc9530daa01aee74838135966, 0x34c97117e9abdf10544dcf8276381098dd82a73ece71c4f4417d9031e0fac8ea, 0x39af16a5ee9639d2361d406adcc44b1fc53f3a0a631f6c6b8ad51144b31777aa, 0x1f86117560bbc5ef4b431fcf0829cbf04e01b220a57f6ff2bebf331228f837db, 0x574aba5c6cfbee06ff42eee8a8155e52e210059a6788ab30556046504dfb0031, 0x1cf5a61185f35c27937b08ddd7194b06450f79921cb14e47c821dd91a43cec09, 0x267b80f92c3243d9f56fd23d5488e0c7f56ee00fec46cb4fb22a673dde4ef145, 0x1c95965b2c925682b5f9fd547b2be79f79ce7bcd5806bbf570217b049eda4728, 0x6e5f8f587eeee3e32bf0fe8716bedae386fff384b105a848bfff062fc89e27fa, 0x34e9daadd2aef9e6938bd6221e790259df15ce1c2c6e49f1dc96593ad336d32f, 0x63dbad362ac1454802b3a97a9431225f93066fe81eb8a7aa48b5075195d6d81f, 0x1764ac88be3ae811d95641c72597d7ec2433f887f5f0bd74647ff9f5bebcc796, 0x5e761dd66f0fe96363d0f68fbeca78e8d6cf22fbe37d9020777ec24c7fe05cd8],
    [0x6caeccddf703a573b0063a878907ba84fe81c9c2cffe763f0fffffff10000001, 0x6d683433f25c063509d8f5f9266316c822c3cc8c7fa4e30961406bb9b1025884, 0x6e8c806bd58fdae041d9d37ad1497bc7388da4a875f671fef81a926c313f6587, 0x5c81b4707ba590a2f44c19e47584b890a75f4be3f8cb3d2a2ff74f151dc9c0e7, 0x57d7b06aeddbcc58a93f97405da710114740d7614b5cafc31c04f225df360dbf, 0x2433918102fa244516c35dcd2a073f1ca44480dd57a24b42a87f701d3231ad7d, 0x6d9c8191afffcccdd7ce8cbeb0cb09c8b77df211fee607e32b0bb5441f62206b, 0x39d94993620299f43a5259a6a900582be87289db04fecca03391e668ae3b4885, 0x7284e7e9aaf1335d2dee0db200e5f8460dde8b948e673aba18cfc722952f7ec1, 0x1b1ca6ef6d84ca03d2fbe2b6e937525d7349057e2fa433d7ddfbdf48e64ac02f, 0x387d304464046817fe69aa3990ac4ce662daf9e3a6056db7aced7e5286cc2ad7, 0x2ea4a3039701043fbf4589d1ddb5da8a4dbb65285a0ac12cab119a6828424f2f, 0x5b2709c2f12b1701ab7ee8e4a333ff0bc103f0c0e8731d6ed64325674e0c6177, 0x6a8968c9e5c790124969039c8583bd6e8a8d7d8e5bf80cb55fab94c5be3324f8, 0x662c4685a8cb2a92474877a27d166eae9031f77b4fdad57787870b23f4c4e7f0, 0x2929351faf97611034bfe8e2217220aff5616e1d634ceafef27c708bf78b0762, 0x594c4ea9434e7ec0f7bda4fa438548ca7a0c94f93b9db0d4b7d030d44078bca, 0x605f98758d7732c2c66c5d6be44292946fbe5fc375bcfe1ae64754951daffb26, 0x637981b41585a1ef00465c0d3d87645e4236f41053e9c17c587a3acf7ee2c789, 0x5a502d7985781bd35d68f19692cda65472a7070ff6d415d0eb9364a6380aa7d0, 0x1ef907d510980b34c34118ff4d861cc65fa348abbdb69fa94d87a1745a574dd2, 0x45e466faa9a95c47d5f462cd58a7b80ad5ead716866b0afdd489a2388a26dd9, 0x4806ed8535b744239b26db09d18b3ca80450c1e6fdd6a53a14189e2bec439203, 0xc0c95c1fb85dc00ce976c7d5afbb82f2e483e45f0b914d7f01a9ffd490cfc94, 0x6b827cd2f962a607caed4de89565f52a11fc235341c9257b3b359914a752a5fa, 0x1a2f870c1214e2e7f24530278c87cda616bbd2f8f0a5b10ff1fee4bc186ed922, 0x20c33797928e2cb63389ffc655e4ad8b24c221555180f384f3b22a859c30a418, 0x564dcd5538ee52b8869507be34a9b91cdc5b6e648caf83caf9a8000c4b39e9ba, 0x1d23cb05c3a2101a9da48a72651536086e6bd9ea5577b99fbf8d0c692464b8c9, 0x356d0416470b2a2dacae36831abb4963cf617749f549a08af3aecaf54fad0dfc, 0x23ae6ce7eada1b2b57b0e260827b7b02ab54a6e4112a7523abb299a445720747],
    [0x6caeccddf703a573b0063a878907ba84fe81c9c2cffe763f0fffffff10000001, 0x1b6dfb056665d947b19b76f1b711c7c9dcbc75aa672d3ca64615873ae67eecd2, 0x4b110f1bd73177556d761dca5220623c667ae871901a3e818654cce533cbe750, 0x2e4c7db2fe7e719c5c60dfb5fb68c93eca51fe85e02793ed94ce5512e540ba26, 0x4dd86db8f4259c656ba9836fa4c8b175cb7fe6f04e88bba900bc0e6d6afa49bd, 0x4f6109be4e2c11a78fba22ee613d265cda2ae892649fb0ee6c8d57e4dd46842, 0x1660ac76b610fc807b81f11b35b9e07967a48793d76fc470b1197dc70a7d7d8a, 0x295fa8fed7caae7317e04bcc008aed37d4e95eb56c38de7178058d64843f737c, 0x286dd904c9941ac998d2239ba355fc25281d4af3ffee107289204231faafe753, 0x5232824384f9875d90d3342ac24a11f3d7be404e8c02ad2d1af4ce0177c08aa, 0x4ad77b37b8961905211a3eeedb9ff3666e872ecc269003d80a1580e5f74f7cca, 0x98db2da15c87b7049438e440b578b12ed0cbe83990ec3c1990fb629edbe7e47, 0x70b5ea80ef56138f061d3ee14fde627f7f470abe4ce7def0fa8f9a8b541fb28d, 0x599a72809b4b327dd60dffcc8380c3245c9e75a59877a9db0d05583bd3ad365b, 0x305f892d33f70a621d750d4719c0d556e9c06fde3d3453e1a66c0b9aed35d4b7, 0x7277f48b7e85423385e37e47e3f99ae2dd9e222bd4ac2ef09072352bda87e8f2, 0x63e13196e755a3ff495e34c7654b49f994c219f99c728576dd9a1ec108b83b4a, 0x5a92768f4a13a28316a58569f7054a48ee828604d9e7ca4a8f34f633b76cca5f, 0x1771741fab977b4fa3d6f9617f7ef9741d3e94140123e8123a1999eb2b2f487f, 0x527b97ac40e442a33086f0a5ce12ea176a27b1caa9277c040ea5c82adc16fbd9, 0x2d68434969da127f3382a71d6f01c230d73b4f05b6eed56b0f3b8f5c3355bac, 0x2c362f8befbdd24ecbfe198b3503687037d0008a578fdf595b32b5df90889193, 0x4658334747e4393ea02c5e9134651e871081200694539f431547dd655c081455, 0x1d679e9661395d0d016d632eac461a44f0360d24dea1bb31670f11ed842ad25c, 0xad16d92d7a47d36284e38e73d99aa986af3da025de1938545096b21f9b9f224, 0x5ce369183f4010543a7f7807216f721ec9f907d9c3cb936b80c1345696cf7449, 0x59fca256cba779ef300f008e2b07c859e5e01d1d389248f9b6d66b5e31cd34f, 0x62fbaf3e0458565c1e44e8918db5346864d496f84713c60d5a53d91ab2dfea22, 0x638454d4fd021d168be7b2d3cc3ca7897e38f41c55483353d483bab8ac823da9, 0x5f5c5c0c1107d66ff3de737a17f8e39a8f2b79b3e14cbbc5d68b84c0443202b5, 0x576d1a9be5351642336d211a71bbb04a96bb2cdc0595ee52bf1a007e04f363e6],
    [0x6caeccddf703a573b0063a878907ba84fe81c9c2cffe763f0fffffff10000001, 0x1c8fbb3f2b773b7288902ddafd62d5723b48f2b61317eb47b63862bada3cbeeb, 0x4f1187a44b80242d7f07171b8192b773eed9e658ec0d327ebf354b3651372e46, 0x90e5d5096b319b56a689b82a44c58b25d62fb72f73f7234a6b8a00e1e032289, 0x70adab94244ba71dd72335c8d99e9853fc0e5ab0712d04d500875d2b93a86a21, 0x23da3adc881fb2a19b1dc92e87e3d4d91a81c5b6b73b7b71515e36032e15c291, 0x2e3f0d53b0e34d3479643d58c2cd2daafad2a3b09c5068c6f0669ebd09249834, 0x4dbb3edb002eb926e4249d2c5a807d47585e30adae7886603a271cd15f99bf26, 0x3f1f84371caf7845aecf6ca5f7cd0f03ec7414e7b9ea09056547b603aa0306f6, 0x4d3fa6d62819706a114d72c430dc13a0bcea38a64c70521e8d5795030b691bb6, 0x1a7eedd7e1ee4609ca8fa057b2e710d699c693a1ca40702ac9e4893afb840dc2, 0x18b5e3687140b49256da357451e5f1869f366e8795e3cd9dabdd321cd5c220f6, 0x2bbff83d3b0169f52aebd65161c90af78d85ca4f5d6ef8751d0aa0fdf66fee5c, 0x73b3a637e57c5672922dafcb5c28ebb1087fecff2cf21adf7e3d87568693991d, 0x1c0e4db452716189a15dd84c2775208e78cbf9b894856d646b8d1c309ca02dd, 0x44ea1dd27f7923ccef852857803a37171181b2ec7f7f288f04793b6bf7c48db2, 0x5dd6e644755f4075d2613358e5d63f7eff68a9c6242cde57f3abe14427da6c9c, 0x45e5717544305a7e58d43ff1d5354860942b9328ac55f48c3d51dd4ccf531ee9, 0x402a608df64929ddf4d8428a04e06b8a68cc37a8f6bc5170ce4d8744e4532d1f, 0xd0afb094dc73c1b2684a2f8c4fb50146f40d7ae388b457d1f4df9e59d3557c6, 0x3d0875ab24d7cb332a33ba49930113c4019048472df7167e1eb9fe0579714523, 0xe667d27317fe169caae9c925b8b60ba0fc05b013f90faef37a71b57fa20ba8a, 0x10b6baf777bbe5ada88fa205fa7f1dcd9f78c3965c1467a031b1e91dbe890679, 0x3a2f8999a76df90e9a477d384970ac2a55317874fd9eba08a962f870d71e642, 0x181fde923bae8e1a0a9a5bf79a2b684fbc472f391dd33680105369709a9b70fb, 0x384f594a3975554f918b00acb3d1fd88ceb502b7b0a50e2763719cc9b43b530f, 0x6bb8fe0b8d2a1e4b3c9e658f146f2362fc6451e30081a2037edd906207946042, 0x44f809365a44e06a2110dbe89cf18aad4932bd3e1a6acb310c0183d86a3a9efd, 0x26a28c065e13251f17203629635def1e061bfbb2adef044ad79cf6c7ada6043d, 0x21884f003b27fe0debf86f53f1577827fa9af81c92f19f5623409b0b25b227d9, 0x70b6a23950463d3d5e5d78ecafc55e3ef3c025720635a869184b3788eef1fa82],
    [0x6caeccddf703a573b0063a878907ba84fe81c9c2cffe763f0fffffff10000001, 0x621986f7e8e5e0770bbf3078447932a58f3b451516364e8d10dc239599642e99, 0x17c48bd0490121c829c234909f97ddb336a35c36fbc9f12239b57657f484e1d9, 0x3f2aaa47e8d63ebe569e3c9a6d79b2065876c72a6dcaad195dffac853614f1a8, 0xeb8478f7060c90a90c81c997a85e0464953400b9f22e8058c55b34bbfcd16e4, 0x3128387aadbe54faaca3fd0a600cf9fd35472d63f0c1e1b0207f2a1ae8f1bb9e, 0x5abc59bfd46fe318a6b0e923d44598be0f5fc8a7be2ab385f96249241c64a882, 0x414688fcf0aecb9b68a53f055a2452d920876d67f08ed9e8d01255137aba8c2b, 0xd069fd1782de3d2226a48552b8025f14f0a7c00d61123cb9a865c28c1f6c9d2, 0x30fe87b66f477396399147665f25dc2002d29ad98a7b5076f66eee76aa865828, 0x3ee440bc76c529a749e6f99a2434f08d15419eb27a35da8b434a81c821dc332f, 0xb5b73d43dcd61d9868d4aa1a9eaab4dbe63db1e042cbef80ff2c11a54c2374b, 0xebe68b9a766e84b8702e5c5fe5d97ec32001d400a81458a5ef137594ad67a9c, 0x4ba9cccc5389d5a1d84b2c8010f507798824f714a52cd86497b00c33cb76ae4a, 0x4f228ed01507bcb23f5d0b1af875e341f25065d6a3f5ba66386d4072c69a0753, 0x2e9c1cd1e6df2595c4e367590dd5f895459f21076e59be72b60504f4d5e29d9e, 0x4ad9a246d25d9cfdd1ead1d011dd5e0173eef530a34ddbd6ea079cbad650ffe0, 0x2e63109cd91f1a3e1109bf4943cc2aea17303517bac3e3fd330b364cbf61d4f0, 0xb02ed3c41555c73203c8f52ea973c9d4e4d14ea972c05fb0dc42cbee8421406, 0x1a604f57c891d8d22c05ff6111897bf3d30bca8f2298fb302871ab6cd039f255, 0x406933227f865dc199126f468b3485683ff6e881ef4292f1045016c278af2ea9, 0x26e409836c29f4073bc2d85f9c01b2ee869d472338c716986ee23deb0a66cb84, 0x44f43418bfc08831b11d3a2264b89874c2febe16eaf16373260432038f8fed86, 0x337d04d9bdc7afbd8e05c5a298cff9b146bac14a22be16ae44353404654f77ba, 0x59ac4c92898008faabccd67fb3391b0287910b7b6806f0f9e4c9eab75e6eb98c, 0xf404395ba43a6ec35d39355bcf728a8f3be871229269ceb42e4fd0eb4b4de59, 0x47db8d43f07aebf4e45ace2ef2093c50b434ebc0f00983414a5c8c0724f017f5, 0x56ee04dc2d484dbb5c31bd29a3092fcef16bee52faf08e9b89d7c51c076372da, 0x46299e21c7e3709c09a9e4c5709b2560876e197051866fd61d9cdf227af78ffa, 0x4125c7275cfd6ec1d600bd3559b75826c7fb5b820e5a96944d25aee227321d91, 0x6ecd674ee2aa52b680e56d15f52c8b554a8cfec59b4311408c403ea4ef3ad81a],
    [0x6caeccddf703a573b0063a878907ba84fe81c9c2cffe763f0fffffff10000001, 0x410d378ccb63d2e327f233386ea59728106a358793ca566e0efd5f0a70abb2db, 0x1807a3c6373204e5508237ad9ffb2d8cb5e99facb1dd1752c541060a7118d81d, 0x41ae7da552326c00a090faf1033332bcd09269172cf47e1a6c795b8d6d82556e, 0x6998ceb3a51b459745cfa21f583f08efed95eb8558cee145a8df460855492f4, 0xf60b6c2d3f898aee10a8cb891600c6a0cb0170735432a382e6aada8ef608dfb, 0x5e8805b0cdec07e6d1f9f34bb0a761ee5c95fb33031f0d942785aa4bae9ec23b, 0x139356c4aa92ebb4b57a2aafeafd84167654dd2491cb25ec42fe43170e788ba, 0xdc8e25ac57cd3fdc08f42ecee9cf85bb6491c572921ec270785b4647e3fc63b, 0x5b7845765d78772d852a67f138c556829deb97dc95ea205ff3dbd06997c6838, 0x3dce498276a7217032e3fc84cf757b133fdc329b272719971d56b2ae2a365d6e, 0x52ab0f0598c43a5125be4089577c8c513701227a745ffcf8d816e094b779d1a8, 0x3be1b4545fe444329fbf170a283bf4d86bc08126880fc460a9eb2875b37f2489, 0x6b0b94d8507e85479b177b3cd8b8926e9f1d207d4c0ce3b4d7b4b87b591a850, 0x439936f29ecf8d807a8085a599b0f655a7cf571f59ea344a3467e933480f66ae, 0xa700ab15e818007e8b4b300406d52e78fe1282f79e11f2912c502be7c87ebd7, 0x63950af9b47ba2f432021dd693110bb0c8b9bde02e5b79a710a13f9fe7594ecc, 0x23b8715dc0265311eb9b1b63a46ad6809a8cae885621b492f063a80bd6d8187a, 0x5f0ec8b915473053baf9dad0b4fb12d21b6330195cff88b29cfdef71bfdb081d, 0x4f62208541c9019e69722c15015fc0c1527ca25be52a5c91634805ac67f88022, 0x662023811fb80ace80c35ec43c1495addf604c0c58d2aac8e67d32bd0d1be8fd, 0x2920968ab9109386cab9be7176368322a81d11884a3adc1734e0ac3ae7348d02, 0x413bba9decdd88ec2aa7d1e418698dab00a7972cfaced1dd3ba18db791349a20, 0x267c7c9bf7fffd6e5c67528caf6830994dc2735d3fbe6947a02b88d05679794f, 0x7228f7e76a62685eecaec5412a915320e0c2b8467d30cd9513eea26c22a77915, 0x1171b550ee616ed6a421584352205280c23f2f91bea9a53edfaf17272687ae6c, 0x612aaec5f63431bf2978d82d47abb37abe588ff1472589486b7e6ff1c0e1068d, 0x6b0871756eeaabfe664aa639328791e355fb386c0818fb752b216177d49e3fca, 0x4ca9a5c8984a9d8b4355f56382e137b714204c91a18f8d6015d881073ceaed86, 0x5b6c3c8e909df602508dd99c4d58f896c867b7016874c48dc4a7e1ecd22fac0a, 0x3e8412fef2fbeb75b401dc4e4a3b1f8191e1d9ccda0de34243179d6aea729fda],
    [0x6caeccddf703a573b0063a878907ba84fe81c9c2cffe763f0fffffff10000001, 0x16cefe9caca19de22b43adb11ad3d1419476f7a5fbca308239a8122287bdd39a, 0x499a395b7eaf6680122c7292018b3d25d81a864aea09b97a5d291f0446dad46f, 0x650460ea80e0d82edffb916e8570419756ceb0dd7eb8615c8b5697eb819d579e, 0x9b2ab985bf5b735a32c45a954a4ca0ce30ed93ac1def1df80a6878ef57f52bd, 0x101b42d7b2c4f912e833435955f2a208b38b409d62d28124a3b435bd578bdde1, 0x6aa4f5654a1f3f3c823d933c99523bc7eaf6bc000579269641302499502b1a9e, 0x3c54f5a0aeae1b6da531cbfd9b839b975ea7c1294b7516669c44ce270e134ff8, 0x100e60dd9f1da2896b64332216e93667d7094727cf682f9445a343ec7312e82b, 0x2f9e2e5360a4fa74b7ee38f17e42cfa5a948c574b044a58dfc0f090a3505c750, 0x23a11e078a5501ac49761afa61378eb579192561503c44d951c118c2c3f0f2b2, 0x50c814b1ee9ab1e289001d196183a3141e8d5dcd1b3d1e81c067c5bf905efdaf, 0x71799806c2217ce546ad31ce628c29ae4b32d5e8079fc12adb31ff5741bc0489, 0x58b09b49198f5cb6af4a9bedd5ffecad27cd010b8b2fd6631bf093f596ce223f, 0x3e91e3060dec8d0ce57150a1be290e2af53da63554345647547fbad02f1610db, 0x6cb525f5ec66945b2bb24c2fa5a310d49222527394a09f85a89175a54410e89f, 0x8071801313debfc9c84b02777dc2fe1fe57326deceb0b03dc8784fb233ac51e, 0xc36a77ddae26ed047616c5f979bd807ffdd10ac074b3aa0eaa282835877b06d, 0x473264212d9472a0a245a49355b48dc390064128f976571411b4308e3af2acc0, 0x664a5460c59717c20720d0dfffb46cc260aa8b599fd6810307abc07b9455c16e, 0x1d0e0f06b0bba6c50b7dc8ab8f72dd4a7e62ab74cf2cd0b3d4694ed1311f0b21, 0x57a19242cf847de2cfbbdb6f4de80dcc63e23453aedc33172e8b1e32075b8036, 0x4d5498bb7fbc94545f1be75db7e6c22185c3c85becd1bbad7aa7d7599326d685, 0x4fdc8f82df95944a5cbaf061b18351c7ca057d392014ded7ccb20286fec61a5c, 0x13e056f8a5e3c1a9d42e2b5cca22e4302c8982daa3161e71d1570613c88e8d5a, 0x8dde8042ac86b1e97a60b9a4aef986aaa0425281e87dcdc693de5bb69a345e9, 0x69e11680f60aab3a929ed1eb56d8843387df33d9f61b68d60de7e22d5f9ae81b, 0x7378cbcfd4639393c0779fc88149c92ed449e6f3af900f9e1be87ebfba743ce8, 0x4d61e88cecec936d00f03b95cf08a6527942f22c6a69be05d020a44c9902a69, 0x4d8b3a397a9e1db7aa1dd0d936874b6e0d62295af7fd0d0cd8caf1aee04908c3, 0x4d143466a7618bd5301b7b1b8401f927daf78d2f41bf2daa6111052aa56be5ed],
    [0x6caeccddf703a573b0063a878907ba84fe81c9c2cffe763f0fffffff10000001, 0x6c8d60f393e21a41469030637ad8f6484a74efd509df6732f65631b1043accad, 0x6547f8d6c41760ea4d3112efc7d73a1176857c8d59a4b4e1df8240823654a250, 0x2e36cf7c082333e7320282a4d45ba0808a6ad9967584e7a5c596506fa673b575, 0x5b44766956fcb7548ef2a442569424346392d2190cc7aba82000a00a4332cfd4, 0x10a85da773c91f1124fe1f2a1bca3611f697ec58a0a70622d5e1290b28955be2, 0x58fe5aaffb5a7cea504315e4eca37dc8f2059773b4743586d690c059d2c48d0d, 0x622e3536ea942337008692022b27079d75a2c009ed108bd7c04c4c35a74add61, 0x1591e313c50f3296bc6e99537c7687bccaf500b845c9377148eb1b56489b8e88, 0x32168c961ee38ae091ea6bf215b21cd21bc802a53dbde46108093b5f506a7690, 0x700145b0266aaa247aa530935be8dfc1bff8bf15f478b75c52b3a822a3821c8f, 0x171188e2b3b1d41db76e575509b3928ee41a9c2ea20d75c2e982b9a7f2ff2b94, 0x5839e3834fc78eddf04dd6d9b109169ae3d6812ee381506f6e341e6b6bfef0fc, 0xfefa47f7362bdc3beef5d087efa001c74a7b7e52918b807f7966af7cf48dc04, 0x49fbd4fc2c572b753c6b52b6983207a451581b2aec2a72302e2dec6cf4c727fb, 0x308056f82fe3e832b700c6929909157e80cd450e05c52ed3f37b5037cbe11a21, 0x4bafb7a9e1c4e1190465de83b3359bdd308fa784c11f3107f75c606461fa760, 0x291cf681a234a417a233ae55f46ab90b621c2a408f25476c830e0277e4021d9a, 0x32bf762556dc389e75cb1bdc95b02ce44db4ceb879dcf5a27d2c2cbcf100cc28, 0x2f068c2e301b836819a26461289f5fa6eea6747d2b67957232fe694d1b8c1ced, 0x17db91025ccc0f0eb09d2c49dde7a5e438c963064798b7ad77eb1fdb74e7e200, 0x26ad89db5523496ab540e3761d0df05ef12dc6502d7940b903f8c1356f4c9de7, 0x2294003e3b863916406ef1db01d3ef02d5da042c076312d0786c58542b5cf4ca, 0x3bf2bf375d0bbe49bc5504d35abc84e253590d685f7ea5cff8ad99081f7e634e, 0x5935ceb27918bdd2eb45f6175faaaa10c48d1410eab232bbf3600e738eb5b7f0, 0x3de2dae876c8f52ac0ce5198e0cc482dee6a9a652b9e2cafd3571842f37aacd3, 0x6886656a881d91e8cb475c0cbd16397b0f31408381253e38b74d9afeb807af8f, 0x44e3ef3ebacafa7b949962acf91365cc5332412574473340d9b424c6fc890db2, 0x66af9eb171b076c70852ec6ddd6672a717a76802b478a6b4afcae4a1d41e87f, 0x5df8862d86494b345e69ff832c4d0ee1274410a9b0e2ba04ce4b365191b08fa, 0x60be6b8d291ea95650ad4c532f8cba53c68dc10f60cb173cb153ab9fd0fce4ad],
    [0x6caeccddf703a573b0063a878907ba84fe81c9c2cffe763f0fffffff10000001, 0x69512d62e0b51bd4ef0ce70057f78966f28995487b85432ad12755afd9b486ea, 0x18e02c50706447fa34feda532ca9f9cf3718ad24839cd4de33ff84ab8cf0f55e, 0x3c317e6904125c3bb347aed771fd37e10373333efe80264f6736f98e5f33cfb7, 0x6310c1a4c82fad4219242465fe30fb864a7ac840154f28b7c4d16c695cd0348b, 0x53931d20dd3499db217bbee5bcf43078a5a564115f80990e1047cfe2c15e7081, 0x396a7d2a606ef814f5e1222a2dd71c20afb03012a424f26d0e86e599351ec53e, 0x16afa7471dfa6597b9487bd26af3564369b774dda58e8343adea990bc3949523, 0x6016319a9faf57f724a71479da530bbd6638f88cf260b55fe926070ab95e6e74, 0x3743556ce1e820ce186e74fd83df7db516c67b1dc00bddbafe72c74703d54a97, 0x2d5ebd0cec3406fc257b0ad2f981ac1737da72c1671b45a60115b81a9f3cabc7, 0x3db52839b8727d9d19d2260150ae3edfb29fb351fbc8b2dbc8b2269bfdca00a8, 0x44fb21a06c4ad911d53ff2cd6da4e3fbd3d0b3977ac81d25c7d3288f3d94a987, 0x6cd10305824addb9ac6ef4c066e752c953409d196400634bbce58274a189a220, 0x5ee7aeee06074e75b85a7f90d774f7b0a7a3bd5470d924b0b6d76ca31fa3bbf6, 0xddfec6b612f95e6802fdd3f6fa1e5aae1cf3856da3fcbd0055d063d0165fb33, 0x10754b2bfdd474c4468652c005083eda24960f17326acfdbce4907c348bccabf, 0x89864de54909afa038647430cb97c9913b26124583dafb937be1c6af6145ea4, 0x545990295a94df36413d851e8953d3be76340ebcd6a2cbbd176ed8a400d27a9b, 0x3adc00f0758fa94fc8dd4dc4f572c9d4a5e9d339fdcef444757c64bcee6a227f, 0x23adb0b183355b2aa69bb7bfd42465f37cd405a16991f8536cf66800bdb45771, 0x44b35153f8fe58ebdd0371b7f22ff983a50b4fd15d5c99d99b15ff6db1d67bdf, 0x62ca46d7359530b9a7a5d7a5f3c5b26307b802c877ac36f180611d2ae7b57d3, 0x3f336a9930b5aa7b2668b7a59632082ad86ce3329915c92f33c638038dcaaf56, 0x711e526e7c15629fc24d0249831504e5be0094c723e1ee9db77e568afc8b3888, 0x3a247c6b16ce650c4dbf61b47c04635451fec46390da16ff300c7b66f3989406, 0x4f7384d023a147ec738be6ca81ad638890f4eef8044c57caeebc49df4dd04b3, 0x23d793e052caf06d3d31e090d40e00d7d10ffb5b486bbf68e2127d4dfe4b5842, 0x351caf2c5121e782355601315cc17bff48deb9ff7724e159f231dc4c0361ec46, 0x1ad805ab5529e971d7264b2f3f3f3eeb030401d42804f19f2e78424564b8eef7, 0x1f2557c3b9bf941fde67c779079dbf13fcde0360fcf022075647075b583c57ee],
    [0x6caeccddf703a573b0063a878907ba84fe81c9c2cffe763f0fffffff10000001, 0x2410d42dbac75990d94c20964342f767264d36567f5a564c31d04509fe6ef27c, 0x1cfec9e6fffa925330c031c437117705279efa7ac4dcc1b50a187eaa817b14d5, 0x72bad7b60ed4a0e702e85b4919621fb5a46890f856f03d7710f6255c881dda3, 0x3e94edcd83ba879a466124c3958223602d4ba368cda5e1348b3958ab571845d5, 0x3b66d7997f9da46de5fa6d852eb42c35a088f95ca71f14d2e1beda318cd9106d, 0x400dc692095a6e5f377ce7ff7234dc225e6c8c909998e18f942a7461b30cb638, 0x20d4ad8168289d1954c537480d2470b7f6178babb8f131c1cea07f6218ca4527, 0x49b5d914449867a2b87fc1dce5611c0a07296066aacc361165ab12437e75efe5, 0x6f4450e029440975df1ac75a0cc801d1f1bf81297b7e8730333eb510b2e1b1e0, 0x1adb816ad27130ae2ca30b238d2b90c6757b23fef3f6b08e27131f61e6debc21, 0xc0ed41bef12583cae9ad66e000dc4b885bb197a96dd3750bdb548b523a7ede8, 0xdeef9144f61de17881683a90b1287ead0a56df67609aae63d915e8c8c3e093d, 0x665296fe35901441e9356ccc59e4aac7a882248131588ce0e65fd823f6a4ec4, 0x2a9400b4782fb8e441feb1ce60650d85e85b1cf40be12b3c7eed3966cc863cfe, 0x4798db6072cee29d7799707c89761c2e6578e64b0c10a1e07720fc1f235bf13c, 0x19da6ab3b66ea2ec9e0167de05f292e7e918daa2ff6a330a3fa6ca913f41d3b0, 0x20b37b830b4637b89072b56a2aafac329d88f9f4172c4c2b9496c0e4d3f1f034, 0x5e4d850e29d8df5252b2e31a690eaf183dc4abe107845b961371d9cea8995427, 0x3cfe86c2d2dd613e76ae87a3eb70df8cb5388ba2031d1359be783cfba1615646, 0x3dce325d7f9fcb5083ef9f54a3ddcf7f5926e115129278442bcd9f34254346c1, 0x4d2f6b3f1f401adff41b912c34b157f8a4e5fc46c9e8ef3b2c7f409201af2d0e, 0x709370a94f631f74c93c1f7497546b675c51ac7720390e26f010e6ca33d10b3f, 0x16a593cac35b44e2a64be793c2b53c0845815be9a93cb9f8cb2114cd3654f2fc, 0x56fc4b848234b0a404135e09393bbf408cd1af8f86853e1dd50b3b229805b9ed, 0x4f1c138273cd9995728ec4f453583e8d62b35346d7309b7d9eb5c414d8598327, 0x6b6d8af1858cdce608e0d1f33e227844fbbc18241ec76f9e41b2311477808468, 0x4683ca9ccb95659cd1c33d41da50f98645fd37ade90d92e29bfbb18e6294d709, 0x94255d3859a0488e9a1aa682e4c9bad3980f2de7fe8986d3ed3c02d5561b0f6, 0x675110c6137d0e567dccf735aeb341b553ed6841b5c0d064abcb417fc0621612, 0x17c52247ebd14152d81a0e9f4516994df5abc6816569c1600243921599799cd0],
    [0x6caeccddf703a573b0063a878907ba84fe81c9c2cffe763f0fffffff10000001, 0x234b45cf32feed175357df0a2ba5f1c4b597e2fd571f18d347f33c29431543d4, 0x6757a93cc0bc27e069222487336b9b2ef6459848d236ea0824bacb05176e89ca, 0x18f9b279cf7673cdcf335ed30a07e63b16d4680d97d567fb9fdaac7937a69b94, 0x5ff8821b183e8e21ced12c4e34ee90aaef60bcc9fe78c548e530a3ee54cc9794, 0x315df884c1413ba17d32d3693adc44cf16a9dfa5e24b37bf7c5348dc96c82913, 0x4bfca269b2ec4f8e554d78da0431c38294a410e146700304e50a8d05c08bc101, 0x630964ff5ab7a973e2ec6a3b099f3d0578c6d866ba77d0963fe4f61fa560a13c, 0x3426be661509fa00ab4ed3402bb7ca565c0636ab62e78c9fdedc13897fe701ec, 0xec13814b091b4823afd02a2e516dcfdaec05fc63f7cb73cde5f17d646eca195, 0x27c18767c83d66d0924d2e445daa84374281755ccc4ae87cc4dacada1774513f, 0x61c756466628635bf2a63d08959c8312394948242721ad5bea08559a57a297ce, 0x3bf3dc683a454db7e3dc165574dc6bf9b7dddf9f0234aabf86addaa0d5ced590, 0x3aa8247ff2c223cacf09f61f4d81f3684911899f1ae62d763d32ca2e6dacf7c1, 0x40b619ff9ff939989703aa82c60fa9d9b2960ac80c2b5f97072ee73f0b04becd, 0xa3406faf8730dc5b01aa3e787acaac840f2fe5293d260d39ea80d29ac2c4b88, 0x17284664c2521faa7bc2299a99f46d0be19dc9ec140d989a1afbf0473ceea174, 0x548e274e7719ca9130a468e63cfcab82aa82a487d598f0a03a35c8c066f3b08, 0x6df913461cbef26e353a6c1adbb45c6353d61351c763ea014043abe5f2702db3, 0x4de13daa21f7292f153a21dfc635d27fd2e13e3be1bc00d893fa018edcdb4df5, 0x1c73a6694ef7f7d8c7a2151ace1a1c4254f1cac0dcf13347511701462e6748c4, 0x52d1ab5ba33574c317f7454403219206b57ac0b37f92a479ce3f4624835bf387, 0x64f2821abb670d674d8e101c89ac9a8198100e99043e04604cd1c26879a2f4e3, 0x808c0d251447a44793ecae624e3eba4c167c7813b59af37e09ff3412836fe85, 0x40435922a0f5dece9d44c23d87311f3f0c125e844ab1c9f0f2a210ea65f81bbf, 0x3b092a7b725af42a948a1904a4764d5a0d943cc74a78310c57d20953c5cac901, 0x3bd381d0754d7e9e7c322a11c59f09ea498059f24071b7e048f2b5c231c40783, 0x42039d7546ca2cea33bb025ab54692b2849fcf56b96ba5453513d62f11d4f04e, 0x52e1bc646a8982a09147c1d3a08d9aa574d7d42df64daa9ab88b17ea4ff3bcdc, 0x3aa882261162f32668e1ee71666edeaa249cb4c10d0a68875991b8e5301ed0f6, 0x69d0eb501a494b1ecadbbf80e75f44d48a4cf002d23d7b63d380f076155ebfa8],
    [0x6caeccddf703a573b0063a878907ba84fe81c9c2cffe763f0fffffff10000001, 0x6322634789e94c2175a16d654b065b7a2aa2c0d68d100809a0792cc623321298, 0xf285079e5189f6b738dc53f85f3e4e1a34d3bacd8cc3760b8d995d21541958d, 0x15907551261b6a3fb2fa0583404655b7e30c745593f6dfb47b2afab654dcfb30, 0x6b3fb6e02f5198a2d23487f95d190cfef975396b5b831fd4e0b2eeebff5f7639, 0x5cbf9d7150d25ca5b9638f2477047f8093c951bcdfc94111026aaeb06732e845, 0x6b01433b5c673b550081224022cc304ada70fab75bb1c242a2deb74e0be05515, 0x4d5ca07304ef69032982175cf8fbb22be5f36ce8dbb853ab4775fe8418b8ef04, 0x587ec7148f51407208f96357497c1edc567c69a5fdd603e1ee24f4225f697930, 0x2f2ab66214f1810967aef82d3c39e08b83394f1d44966102424822a5e8eb3ef4, 0xecdcb06711450d54a77fb6204b5cdb1c8496e9a47a7a2e88d208e0d9610d5a3, 0x73388798bb765b0d3bfb6a31033cd539a59a40b3522dd454b9e4d6c3fe7975aa, 0x227e7ba662302cad490cfe4d5a7ae67e35231c915d6167c646fe777fbc4e8d5b, 0x38b0c7f3a62365e3e63fe86a0d85faf0e972ec204ab2b69939981354aed2e41d, 0x3e47b625b3d1db342d40f0775c30fc0830dad66735787bd2d74b4e635440f95e, 0x56dea4a589158a2d8a62b0808e9b0595a8e0dd0a8f9d18082c0e9d7f184e00ab, 0x6f661020d2014ad4292fcf2955c3274b541e98e6903c99da0f9655125639f4b3, 0x41674aaf6aff42fa7dddcd49fb873b937b4e46a234ba1ffc23d6f038db44a329, 0x3038e06040c09fa272d0365f00482813a55cbf0a6ef9c329ce420ea375eabfb0, 0x5a8b2ed4508fc016d48aa33e5c9c2031624b53bfa1f6e9dd3def492acd7764fc, 0x49adcaa2a0ba00361a398f58eb90cd3bf9eb8ade03210fa23111a3e06d7ab82a, 0x1a4dd2e86e50161586f38a24821b8ac2f04774615f0dd3027015031eab92eb9d, 0x6bd125036fbfb27da889fc42d7d9c94616855e5e5d07389d18d9c137ad416a29, 0x104d9b63576a4f40911ada0d40e05d26c6786b3808440ae92d8f45d329bf26fa, 0x3fc0ac04169233e7aaac68cc759fe198f3137d90cfca6a8cbe40eb831aee2318, 0x5b7895baa7dfa0f3c28954e8b89062b7f8d4e6ab0092935f9a4c904c7fb989a1, 0x3d2bdf5a8e2165432ab877ba430fc0c51672ee9324b66a9bdeaaf9cfb831a69d, 0x28a92a59c6e49cf8f534da5fcf8c4f4233e9788bf5bd2d4a8972776a33d923c6, 0x46c81cd8ee370345606ce8b288319405be53779115be06ccedc98a40ab1a1099, 0x512c72776c6f463d9cb5a4a388d7f595db1ecb6ea53e107c3729ea878f6d8256, 0x2ec370a7f955d1dbaa768dfb61652647e8ca6ff5d44c570f42953b0911f78f5e],
    [0x6caeccddf703a573b0063a878907ba84fe81c9c2cffe763f0fffffff10000001, 0x20bcb4224868a7e11c6faded4792167b820018a8dfe2d6e7239d6100c265d6b0, 0x215bb8e86bd20d198cca004fd4ebd43665c209b0a8c7cd75a5bf5690b287c297, 0x6ed7600b88f33d77ac4d9a6f22bd33a3bef3135dce82adfc5e4ba52e285e8863, 0x38975610d5dba6e3a09c9e43b2575fb9c407dd3ce53a29bd336dd9f75f035b38, 0x5a18aba3476211281d60e4a23953b4725dd25f2bbcd0cebfea179e3650a80fc8, 0xf43047a034ae104b24638049e84b1a5dc25b02cfb8ab345309117963c60794e, 0x6e5b98858b0d3ddce16f307b91ecf40016ccff3b940f8bc3d4c9220822ccfcb1, 0x298b92c91b636143a0c88e25465d73cccdd4af21e4550986b6202b0fe3fecf50, 0x6870ac52827defa160e308f483feab7f1af2e74640ef5d5eaa8bdcedee92234f, 0x470d83539a746998644e1b3d3c10c55369732384b2f12d6dea7daf18ec3649f6, 0x14f1b0423261dcf61d09a328e9f76204f1d8e46517ac85c587c0005254c23dfd, 0x251b85fe6b41b6dfec7a4ec0f86589d654d9bb26056b2d9eb6c1d9f74c820937, 0x71ef55595818967366f9397db369b2f883e975807e598cc3764aa1d289029f5d, 0x482c43008fd906adbff8f129df1479a2675bbc0e19906a27ee1c6d7b000d69a1, 0x1dd690b2b537110a5aeb9383eb586ab7b44eeb3d533c807b52d67af0b89861bb, 0x414d1d0b2e59a48d896ffcc92f0497d07917a8a2c1684b624144ba83f41a00a3, 0x5d7511090a6b041a829d40385e8e3db4c8b9dfd869d0f7861902cd4900463c40, 0x63078ced5973311021897f69f5c670c0daa35b5175b9358f8e4b2d5b09868ba3, 0x36ce7bb9cae4b555445cf1a9bae5ea55899e0bd897b28f9fd787cef9ad1f67c1, 0x668ba8fb9eca4a167aa9269e121f93372d0c69df44456f6ad1ccbe2576d98fb, 0x27b200db917b217d2431a5854865d71d6b18a448d23c01f1193568ca59327615, 0x2ea2a0f3ad3a934bcf87d755d80d06de448f8ccd5b169898349eb4ddfc99ebc2, 0x23120d87b7c0ba04c5e2dddd99f7330b76b41cd01742a79251ae2ca11d44798, 0x2e6587117ee708e10e0a751bef75a735de34c5a5870663ac2f563ce554497228, 0x537171cb0e0d6d26e4100cf210b26a953a987f19677928a452cad8e610c20a9d, 0x6574f52f61fcfabe199981b6831265d1a9a3f3e612af3827dd53f824db21ce76, 0x6f04fd01f02bc8232e0a4564282b8be56ae187d8f9bb6a7380a60e07e4822d25, 0x4dd722d3ad4ed0ea0b07fea0872d0c39abe3c0f59c9ab04e3bd7e2235705539, 0x15e26b8d2b029b9f4d40c5b9fe54299e48b347916cb926746dc9dfebf979c4be, 0x6e2510ef0de8ced86d48d212f1450c7746ed1ef94f091e884fdd487bd24ce13],
    [0x6caeccddf703a573b0063a878907ba84fe81c9c2cffe763f0fffffff10000001, 0x81871c1c359e015c74e6b60b824890425053b3420c93bedc17c79991a268257, 0x2fb404346f5f00aa9e9e50294d0e20fd700157834cc47d61506b7a308c3f3d6a, 0x3491fbb26be6172740b27768357a53606f8da5adfe3c02f0f93d75c4e6d67acd, 0x6954de4f9193029fb4652964dee50b9e4b72227f54ab61121eceba2888f5aeba, 0x73251de412dc74575bbcbc1fc3585df7e68e08afaf91183ad9c794a1f4e90718, 0x3ce78d8195696eea0373934bfd0aa96ed81c279564d73e7365399f396e8d84a0, 0x40ba7e2a73856eb56f34cae2281f1f7c38a23a782fe41c857d5f0cbc67cd8e87, 0x6e67dde6ee029d213e542e3568f04c0ace3141c3e4676560357e81fe0886d915, 0x2733f51e8a2b88567af0ead8e55a3ae3694cda3eaa72b98ecde0e7f35fe5cdef, 0x499ccde5a5f0c8c7f1c13b5c5442a12abf78304015ab54565d54e6881cad9202, 0x546715f8156ba60cb34271629d1d282f44b3de62174b45a399464874284a3ec1, 0x225dd0074bb8d630077c486a544aa527bb7a510ea489b2f4ead32b27d06dbcbf, 0x26b79331224ed13eebbcad98916a2fbb85b34086b7fb796983151fd0ac4ba5ec, 0x251b7c59e6509261e3b3db0deffec2c8ba8412c7e9ee11e9c1377896336307f0, 0x373eb92a48eba7feac4716025c18189865e7eeaf6b3ba5c8c2260ba090a61e2, 0x68cc47b2cb3f249df032d8d8a46cb61b074b2ceae65a98357cafe627086e7fbd, 0x29cdcc3d3f976502e951902a711b0b0984e9ff9a954dd3f00fb142cc0dc09de1, 0x612f91b208d02d2bee4f917d2702eacc8c517abbad4736bddafbd09b9351b0d3, 0x225dde16b3b29203d0a3344e47e0e88833bc63079c84837b38158405d5198c45, 0x12891c101e3db033afc0dbca01551029da12e85b3bcee1c395ca2d675bc3a636, 0x5cc7180ca6e94d58e40e2c99ebc5e7679998bbdaaa91eb4c38169a6bb21d1a6, 0x6f8f50e841871274d42c5163391289b05572f8464a1f9b7014aeb7e0edd1e316, 0xa05b4338418bf379adccf3b4135aa6b21773df047a68434925a1048075844d7, 0x432ec85fc6a87a580319ad83d9a2f722c09c92de9ad3688eaa80f35701fb37e8, 0x3ba72ed5255442eac8c391e046d8e939461ed8700e5917a330a13b6d7ce9dde0, 0x5dd9de0e3ba3a6e0b15653e5827a8f48dd6cf36937adb279be4535a18d34e6ea, 0x30276ad50d78a57230e2760784245cea7d73cece3dd3c5267fa65e528e024cf6, 0x4e83f497742945cae71b0b79a9dfa5d84a44a1e4c1461831b5fbf0a19a0fdfa7, 0x4632725414324c116a46c20b9d78b8e3c188191975235dffc42cf18b156ab9a7, 0x1925c4e0fe1d9fa8b32175a4ca46d87f8a4703a42fbd230a1cd427c77e831cee],
    [0x6caeccddf703a573b0063a878907ba84fe81c9c2cffe763f0fffffff10000001, 0xb9b24f25cd75002834384c4ac22eb0c4bb8040a5f0d03f054ebc433ee755cdc, 0xc43721f09450ce8372147aa4fb76ca85d110a123d9c1314b43fbb0a2d1e3cbe, 0x4ca0e49be6970a259eed2f8f8562348b40462b5f02c7f2f3c2548f2db225bdbc, 0x203df31dd485f1071932943729ec9416e723b78c78a46e7921fb47784cbcd0b8, 0x3e434390d2c67f09b89b0f1080abf92595651ab16d7ad1c29dd3208d8732f371, 0x42faa563da1304ba6f2cd8d1448c1e4793b51c803ab7b418c9808bbb808a710, 0x6631fb086441b6f9020228a914fd93e73de76e90001d3aea8f71c4dfe06ca626, 0x158e51482adbc7fbf5ff3092c868d77351118ecf9acf7af081ae0371b2322d0c, 0x503f6b43b9215a4402c60d94cd5c4cac4e73a633f07949bd767d4b8ba27f06ec, 0x54275562bb312af4651cd156f862218812204130803ed6d530ab46aa5f657c12, 0xbf87cdef857b4a1d8dff28531a41f97fcae51e2f367ad7824f7600953f6543c, 0x248106e5345834e1d110838587a05ef7c8d3d61c5763252a116d1e45c18850aa, 0x2e3bdbe01f163ff3bd3e92ef471b2f90c441ad7b79cb2173180fb96ace2371ec, 0x2bffac8e4cf9dbf404cd0243ee25dec16628e56fcdb303a9c272fb5f50a7d8cd, 0x4907afc44a55ac2b6b5492aa26933687def037e11037091af5cc8e75b36598fd, 0x102a427f3c0c5ade05cbcdedc4be8fce267c55ecf98db13bad400e78464b1c8f, 0x42b995a63a62f906277e96fcd3950c1eeb653862cc7d9184c568b637072b8ed6, 0x5c4c0c9354e9ffa3fc8bf9b72820970c2fa7d0370e27ad2dfd80705dc68b8a7e, 0x67578811fde14125132da197c075c454be414aecf613eedcdc1b2d5e563ebfe, 0x1a11b81571735bfeae87e717ef87d5a1cf7e7426ef0793e298b4299476e13ef7, 0x2fc4cecc237d83d8331bc922fc5ac3e08687259c8f98a3aa4fe4641b6a97512f, 0x94af5cfc4733ab3ae411430bb2b20d05e34db48a41a98335bb09db7a7a91219, 0x25ac7f5efaaccaccd47fcee3c2c4abd90d07eb53a846e6c4e24a2539cd8010c7, 0x860896b12a28c976fefe09b5324583ddd4191045621f243ccc645a63e88519, 0x82e370bf59653c558522d497094e2a7851af704018aa281a7ec0bd65529bcd9, 0x624258e504fa79815ff4729509474871d3416cefe969aeeb5da6c70548e037ec, 0x1244c3f85a9507a8f6afdb3f36f62708563470715af642d2403d6d36013aae71, 0x73e53ef3d8d38352d1b4a56658962ef0bc34a577700fb10f8c30ca49bf82a71, 0x2fd716e88d6b4d0df542cc8022a2356ce7f167ff18457615ffb7df13d9e76821, 0x2992c86983fda43123fb8859cb96f26e59ed6ab9685c1d85feb4a83388729f8b],
    [0x6caeccddf703a573b0063a878907ba84fe81c9c2cffe763f0fffffff10000001, 0x33f1443457f74dfee01f5f0a2b02c3fa2210cb0640427d48bf59e69457fcee73, 0xcca98ed34135b1cc805f34396175bdc569ddf7c34ea9a8d9acd57f4289c259d, 0x33b8179ca26bda9fec5aeb1f70b7633c4050d9acc316d6fe742f47c5192cebdd, 0x1f05ef836573e7209a1ced487076ea1e03def1fa2689e13bd2b84457f9f3085a, 0x100f99a25e071a20bcbbd8b3542f7984c14d0ce4984263e174648fbdb226404a, 0x43b43bc6a48315614c27e44046b17746c85224df41452c0637ee25b51dde95de, 0x5e4c763014f91570087de6657f63c93c9df86c3477f350b50e1422fed3066fb5, 0x7345817f725db27749971e9ce3b3af74f26bffa87c58664d54abc551c6562a9f, 0x344a819b2f11119127d1788078c36a10734b9d22c472c5faebaab3677547fe54, 0x4320ca04cea868de8c10a51b731b49744c8e54ee945a8f43f21b2915ecb51be2, 0x5663cad4c16c596c54e60a4219cafa8a123016758bbbeb57595e1055780888b9, 0x36500087fdd3e081cc23fa6d01fea4c81a40968e0a815ee2c67a141f57b59372, 0x60fe9e25b09fcf288d9a2f97919201beb3ed40b75a4a57cbdaa2f7bdc7e78482, 0x6077fc01e7d2e0fa29d3ab0145e7f31e96a50a1966f3f4e5c326e73b634f562d, 0x6992f86ace4eb8de2d0af33ddd3d4cb7275662c60bc47b3e72c95a2ec83c4cc7, 0x64b002f3acdb0f560550a22d64fe233f159d5187141de85ee319a5d7b24abfcf, 0x17d2bd3f04ba2bf138fe7dcab37df83447bb71ac527ddff85192dffd77ac8e33, 0x46148bcb66a6787465727c18d0d8da5f189e7289e818bdc57b527b1727d5e517, 0x19fbb08d97434ce1d417b895820a57a7594d4f515a5b1587e73bdeeb5924d8cd, 0x1264ce5007055e430fa628beb2cb7461d31483a0e1eb86ee5128d125991f40ae, 0x126d96b4bb0f5c2fce838adf677a3555c4e0dbb3b2c12d6a586c8ca7e23108e8, 0x73891048eaf54373e2e765e9956f659085e4e07a73c94542efdbf10f2084379, 0x4bcb1d829bdfc5c7395394e55fcbf11973ad45d386ea74e66abd7db8d5e2662, 0x6301d41819f649f5321c40e679184fd6a92d4b8fd8d27482e6acdb69d0852a25, 0x1ca2a58da4846362005b998a9359996a850a394d1fa07c9b19db820906d2bc2d, 0x4a5f8e24c5d903ccfc023602a2230052ec93ce914a6ff08481b5e56290f045d8, 0x72f57e3ff8ad5578bc46e8b32378f171b646b589762f9195ad0a83c98c200409, 0x96f9db1ed69fa7589d286195bfa4d1c77ceeb7bf3bc30ca9117ee998b37dd48, 0x36c0517fea220a93fc9d9d92beb9184741ad709d59f4256b0a70a1174045276a, 0x12ab0e52dd2342a299c6768e307d5c5a63eb2e5ee5b91045baf6f17ea50cfe9a],
    [0x6caeccddf703a573b0063a878907ba84fe81c9c2cffe763f0fffffff10000001, 0x7229ea4c195e7d7b82151f0d3bd5292e1d86480c60b454f8637b1dd0e5d40ba1, 0xd1d7118b7fe92d8408f477d9fc5e0ecc021a0a35b5637e8040d7f78fa7f3ec0, 0x48864c6ebb4d2017bab51be9afd8029ae23d4883be35aac78ce5a5eead0421d9, 0x4e43d2e92f78e3ea96922867214f696fe4f30b225b1b1cca531c805e701e18db, 0x6445461e1f0be9e772e3a2436e61f4aa5ccbb624b04e306a65fd2dcf6e556af8, 0x2a47da68a833504962b4fb80664b2c7930e939fc53cd7b7f99e9a05846a6e9c6, 0x5b734b3a08dccc49baf264674868c82b2488adfff8d5fe2e476d1129edda28ce, 0x1203da8943df11779bf9f8ef113616b688cad0b0925d397684f023b27bb6391b, 0x3221a3015ee87cafa21a2b034da34c4d63bf9d13b04dd89400465a7009b01f0f, 0x4ee642dfb8b48ed38a3dab0e5e7081c4689767973e3573fdb1534c8381ff0c15, 0x40250dc557e871f5fae8e3e46b949ce9c5bf1618caf610661804eaf1ca4c4d37, 0x4f9117afdd0de755701c6b746081723314a495c5a40555398084851ae5f198fa, 0x680a24feaaf67ebfa03972f545a32646309820c2eb54ed3bf3854f7b8e4a0bad, 0x29d423298cb00e07b38faa2a37d780c2d9b6cdf94bd8c4ab6bcdd2d06d3d44f, 0x4f90483154f4c059a371e44ff944c1aa6459d8fa8fcc9bf737fde2a4a1276da3, 0x6251dba012d1c0c6ece2e45d434ab6faec284d296fbcb31d1202c9f4a6bf8d99, 0x43ba1f60e701a97157d87d9e1fcbe087cd6523d1cbf928f41470d9d4c8766972, 0x4456f4ce6f15629e575879afcaab6f5902f7a449d5467710bf528dd4d0c169b2, 0x35998d1495f10b7c20ea3dfc758ded741bfb8f78b4ba1e59f74b1d3b77424693, 0x26d65745c597e76c750cfc5e85e4b5c248fdf8d48af414c07d7d99c1abea3dac, 0x57cebc0d26443340b2f40d257c19736fd40409ebf4c75d7eaf29d938bb1577d6, 0x37d0036391b27b068c434353090eb374dc58d99a0953c8bc48e868772e7cb58f, 0x49d2132ea1f09594ef12b74223dfc3bf109011afafa5e9392931c0efab65c091, 0x5c42d40d5c4cd13101c83dd636d1be8211d1db8f93eb78e041d6141654ee3206, 0x4f55bc9fd311abfaac0ca538f435f27e780e8f69dd578c0d81cd6d3c703c533b, 0x25f48007bd83613aa02ccb347a986b6ae98ee8eda44620d4a066ec29dbc67f26, 0x11c92a569459e7022a52b58244a94dacfb0ae0678ffae2e662e9000cadab8abf, 0x2c144a5de9cb61107d75faea08d71b511eb8409579ba12d398ddadc1dc8b0cd, 0x10e71e10e3d4d3f5760cd17b712f4f9feedc706d7750baa5ab8435b1ce833c61, 0x5e8ae3bf2f4f506905c082470aa78a14b4f670f1c56208c8d7233d35385380ff],
    [0x6caeccddf703a573b0063a878907ba84fe81c9c2cffe763f0fffffff10000001, 0x6c1b6df157e6cc9f57bc734e1f4fb2bd098f6db7b17083740945e563b33860e4, 0x4296608a85ae5b059dfe91557b3f169a0f195799e62e9920beb9b9c6464a5af9, 0x6bbddfbac8a6ba53b63426c07e29296c0f3c2aa81106c93a0cb1a0d088f92469, 0x6c1071e7c7351938b7a52f475a57f828e0e585f655d3444a7874ea407718df41, 0x16ea13d80c9be4c00dee8a9acfa219995fa9b9094da994587e414c80b2a3f72c, 0x56dd2f03c61c9be0de0f7326fc51c88a3694395e7960acd8f02c4bcc7855fdd0, 0x629e5a75127094807fb685babfa90f6c6e15da3e1e54d535ad0e34fe8ee9e4ed, 0x664cf1272d35044b9c68e569e966067e98c67a28bbe98f70e35ddcba10d060f8, 0x2b9ba9ec00c5605d98cd0b9b2b36224456088ae459fd51dea94ceb54bf4c2094, 0x2688669f1eccd30df61524722293d8b23eb17c943270fa278964f3344b2d4703, 0x5fde1039e81341ba1c47be2a50a0333396ed702f72801d287bcbfae1955d1d14, 0x4f05a531f52a358934d84206f8a7100db1989933a399c684ce4fe196e225e986, 0x451d869bd359a90cfcc7d3b2f5d9e6fa2f447be7d9d6e6dc9ba92efa509b75ae, 0x99126d3ed6262016afed12c29eecb8e704e70880ede07a42f8a95ca995575a5, 0x1efc9ea873134b90e66153105301142bd07304793cbe4007219278f50e655b1, 0x5cb3e296b182b1819d96200e11ac4727461ee715810be05b0dce40001a57a445, 0x468c90783d244f6cbb6c9c4593cd3d7e9c6f7e17c1535dd9fcbf24b422a79880, 0x43692f3fe7e643059b349e04c95079d8c75d3f42cb8382b541cdc7717a3dbf28, 0x6e52b2a2e1fc0730cdcd51b08d6d28293023ac98fba9726878f5dc4aafc51def, 0x1b006b53110fc0e720c196ca6fac6ee7f4b3cff60fa99a563bab4abbfc6807f2, 0x6e55fe3ee36cd4740bbad620c573660ad7c69820a228f210830d0d5eba157c7d, 0x46cd3d81d703bb9776fc564781cf365adeb1fa196fc3acda2662d137488028c9, 0x64d794ff2c192c4e5196e8adf589298f679e6bb6d2f2c30cd1a225112775a976, 0xbd517c84eebd7c12f33bcfb34e34da5b7c37d226198555ce5a88a6b3ed276c8, 0x7260acbe2b8b4318cd6783dd489579c8558bca2fc4c5ec132afee8d5805253a7, 0x6bbfe6717b36373824d7cb80de57214007b097932978cc4cb6bc785dcc1ede67, 0x43647987e6a12e80c6ac2d3bdc6589b60fb1b66cf486c3d6c2d7ce288c465c27, 0x3456712b9cc28c6c622eb9aae2fbb0c0b1f341a575ba7084c115dc6c779de5f7, 0x51841112ebbb9a652b44736d955dfd156b1772f2c9b467b4296bebad321d1d35, 0x6ab9995e7c30643c064fabbccb2caf707dfc0528afa903534a52ad7d44edf37b],
    [0x6caeccddf703a573b0063a878907ba84fe81c9c2cffe763f0fffffff10000001, 0x628c665dd67e82ca78c4bdc2aba72b65e48134e6ec5d2337791bdba9e9a91b33, 0x1a3ae462169a93ffa2f915a304553dff8e114d534bda2fdfb7b499e5da9fa378, 0x70583ca24ac3a5a8d69cdcc5dc9fc7565a9e761b87a88b92f97735cb022d1955, 0x582a605f7b1fcfe46ca9e57a601c76c5fd832b864a8c54bde38565319ee5f329, 0x111d248c2f503d821cf5190f935f2a9188c6756bc59c9203a1a437d8910062ca, 0x19d79c994e092fff6f880b4c52cbe6c7291e65dfb3b051f8fb471a2743656ab3, 0x13642f493001460b0c6b1f7e6934eca3e7a5e3e946d7dcdf4793f005d30186fc, 0x1b455a222e3d7439f21eb8215da8c6fdc8ca360ea7612d663be8c772a1f85355, 0x1b32dd2313b83ce112e1f47fa32e4d9743a44983b5620f83be080ded72e550b4, 0x25a794d729d38510f4eecc323c7d6708760a649a996dc5ad7d2754befea6d293, 0xff47cd1221f0f5d91e57d6c2c5e74610c9305d5f48042cd5a32adeef284702a, 0x28c3dd354d5a3cf38af5b4f850fa8028cbd8bcff33927556a4fea8019e2642ac, 0x5805d410bfaeb1be657684b4c122d8b8b2158d8cbe2fcdf4532144c956a5e001, 0x6ba9100c425fdb4ba53b18d987d2047bd760125d44be09413541fcf160cdc10d, 0x2c3c33c8ca6f91e2a006deebe327cc4794697e4d71b7568f0739f3823bebfbd9, 0x4c2a871550f8c388b00d046274e13b3aee677074558e8dc0b4d5005a0cc6596d, 0x3cac67e4487bbf7e5a53927e8f254e2fd308bd99f41a45d8949c3900f2ab11ba, 0x48ef4c6e3243b06aa479e2c0eb9e8edb65823c0c7fa678860a9c96caa8c59945, 0x1bacc1cb8b867b5d2a253ad34ad64ddf87a32c084ba3e3373d2f71e3b31f34e8, 0x66359be81a93ee61a23da0c95dd4aa81a0e2fd534e1f9cd84bb53609457afc36, 0x325a9dbc08257efa7c8da9d09893e2db4a31a9174136dfe650e1cf4b3c627d39, 0x10949db1fb48eb575634e599bc7632a4a2f8e4088622b07b43f49610a4169d15, 0x34832c37991a4a345e1c8785e65d1aae01e6cd7e56291ebd70b3a561c0c3eb9, 0x558aabc53f93b52fdb4cdbe7ae84de3a04d0147713a1163bb62a1fbb78a1ece1, 0x36486947174b5afd1259e57e7ffa14da6fb144351e05197507dacdf9e21de087, 0x25ad20371f2d8c33869b776a66961da4541435cfc5c34b35700465c9b63c17b5, 0x9b7df2ccc1dbb756c33f7e2db86e2b3fb841428430b6326523241e1deaa2fc5, 0x20ca755d9ccda6f6d8cbd10ca57e23da9ff309a9f65f71b06a44a5ac229e48f0, 0x3b7160b3215d66e8c1b688b92605e9dd5ddfa0f640807389c8d4278ae8b759f3, 0x21dfeb88e62457fa89c90c0bc8b33d22ff1131bdacc785bc721797ccad91fdb2],
    [0x6caeccddf703a573b0063a878907ba84fe81c9c2cffe763f0fffffff10000001, 0x58a4b805e27809bac58ad636ce42a085f3c2deaad9cbde28da972e1e61185d01, 0x6f6dd2ecdb1fca790280d9a3910197b4fa5522db6c6fadd30eb09334a07a2e12, 0x20e816325ea739cf70235ccf08b1658970cd8613ab29bbc00fba9a3ff2525da2, 0x293b341cf92746ade6168102b10bfd7ff4953ae90332118db1db55bcf8f76941, 0x2498b099a1c51603494c82f4d3d58e77dacb9137bc23af6b09ae0ac6a7be57c1, 0xd291bb75a92a1fcaf4f6e54535b23bedda0bd49e01b6bd6ec7e0c8324df70bd, 0x642974ed367d6a0f5250588271ed490c44d525baf588b87641647020e54a7d4f, 0x6bbcf19fa8fdf0bc816e68a6994ed0f95868c7373e355192a9c9c8b4c11f0c3d, 0x8101179c6b40e2411e6afc13c360bb87e692b17047b9b3224eccf17f311dab, 0x13585cb6ea3b913dc01ede50592fc096ea7210d68a651ee34a756ac9843b8477, 0x1147117fa03344b43a66abe62a3b22758557d86779a6813b7e27947a1400a83e, 0x5e8154bb0d7cea2c41b776fdf9d6766a939dd1738b5132ee7e15880d59bafe87, 0x6647cd78e108c515c5eaa3c445c089b92a23f9ec19c17fcd345b9eb7667c0c26, 0x2f6017383da0eca5eb858de2f0de1a7af8b50b5b9630e9a7ce4367221593f552, 0x738be699afdb1c957aceafce6a95443e69a02e978dee736e37d40f354c42cf90, 0x4c37821325d0c3db43b117118bd3c10a87d867707a601b79b952c9f1632b2abb, 0x3b14ce0e4962270b463c90d4ed8890a7ecc1e2469eb520ca40c9fd8918b1169f, 0x3b0b67a69756976eb4a3016952df132ead0dfabd4f8cfbb214567d917d6a97c, 0x124a6c3d3f1764921ba691541a052452a86b75e566753cd722fd20e6a3f61d89, 0x6d9f722fee3a179dc8a4e2d5865a883f9cb80f8e4922f8d80a17c8653837913a, 0x6565da419bd91f1ccd5b01edb478b31b6c0d36d469ad3111f08dbde0f48010ac, 0x55c49cfe725ab32b11a29a749b07f211655980d951d1b1649ac11b400567d78b, 0x55548df1060251e65d5c9e052096b0b76b1363afeb68603eadc49913bc0353c7, 0x6b6828cd062158fafd23fac51b000d5747e48d2a6ef1bfb2a5bf16a54bf5d211, 0x49ff1ecc35317d89e1e49f45fd321cb57ef9e93d2e0bc39b8115352ffbd98d1b, 0x3c35d31a93a292c10c561458a46ad09e1879706037e150155d3c10a5a430e303, 0x51b483aa0c22a20fe24ced606d6e822e35c27ce83cbf5304a974a22d02ab4522, 0x3abbb667d86e60f12907473920710912ad031c30e9727398b698fed591fc7559, 0x4c7e0bb7ab66998693265cc14b8230b2db6a37cd1f2c1ed28e967d75381d2fc, 0x6a112933d2401c008e5325183323700bed657d9647ad4e55d794011442a82ef6],
    [0x6caeccddf703a573b0063a878907ba84fe81c9c2cffe763f0fffffff10000001, 0x3ebdaa475c01ab9b767e324c04cbfd91be23678c9cc5f1f1185e2eb419937933, 0x381649bb847532082af7fb1cf974d43b3e13336067ede4e9ad970c029fa9a825, 0x50769f78551a6d9462cc528fc5561e1ad4dfc7ad697aed3166ceff459c9336c3, 0x650c94ee695b8f66c951e73e00e87a7a3483faaa6513437231a156cf80c14f39, 0x3234120a6ef9faa1a4eb55114080bd23164c0f8b918a58e119b54e1c01ce6c07, 0x421ab57f1fde9481e4fa6cd7f44b11d62d89b6e51a4d508ce4d3f97ccc3c81d0, 0x2ca9537a3c2e8a2e6db94934c4306443a9e0c55b41ac7b1fa2915fb69b0ba59e, 0x41156b2ff9c5d1842d462a37e7c4bbe19e66b298e4051f585f22e43f8fa1cb2, 0x20043d81c58ed4b800961eced321358b2f512e74046bf9246cba5420ba335bc7, 0xb5f420a2a987a8cacfa79f990aaf67004b5af998b0b374f9c0fc917a6281f28, 0x6cca4c0fd8f9cb22db449d9a200808c851b45fbed469705b8678d9209acd4b1b, 0x3b25305bc06562bafc46d6f3f7c723dcc77999747b7858d8c28524f439b55f87, 0x36429906ea4544d61f228cacbe3ffafb377647ec7493ed7b06cf160f66c163c3, 0x2515bc11ea72d4dcb74a72f431a2f9c75b36082b3047475d168dffeb45058654, 0x4baa123e87b559235c3f1c2ab07b15c8e78f1f068bab8de4f2c6f949248a0e13, 0x3e6d8afb1d8b1f07cc54eee95940c3a9493b2cf15f6b2b25dc541a26b9bdf73c, 0x575f09263ae3ac05adc884b2668c4dc0a0b7f410d7db624bd91132da87679cd1, 0x14873b7edd03ea637758f2ed9540c83e66145535580529b10ef6fb1fcce945e8, 0x2fb77c11c6342ad7de9bb9c51e13976d89e7ca04c35e8f7f416c79119ed7d3b5, 0x6501a61a0933012dd8ba0b85d94af6061903c42bbd6929aeb99d215d34692443, 0x390872f53eeeca6d0321aba0b78565504656c8687e8adeda31bcf6aae53cf1f5, 0xec93e470d0a41a4eed150bfa3a27cdb1db60ff9d11fe7ced307094e95e36733, 0x3c272c7af3fa2e19acd066285613d4b43eb8fe1c6690cbd4184f4526ddfcff83, 0x4ece9c43c71c2622432bbc9a9331e3bd9f3c2992f4a3125fe40ac8457fe71502, 0x1ad2c052c450569fb4d94fd2adc716a1da337aa6e617bc2db7ddb2a5d7f55430, 0x633aed9cd6bec4e500c6c31800b1afbafc0f32d14ed406fce6cf7860d1ee424, 0x11aa68ee878c11635851c5c5055f8779d5c29575efd5cc6a14df14257281ee6, 0x648c8d945626420c024a940a74da9a1b916b0f881818ed9ae9efbc158d87d78b, 0x15b2103d86223461f26e6564345d73489a8b98f71d45abdd9233d042bb8b7975, 0x3d0fff734a9f968a402a39a59ddf26f62700f2a23cca6cf4db72f6773a122cbd],
    [0x6caeccddf703a573b0063a878907ba84fe81c9c2cffe763f0fffffff10000001, 0x6f562a4effe848062eeacbcc91f21172c3a16fd9dfc7fb61bd8c28d3815d33db, 0x4f1ef6188e10bbcbc9ef6a993d73c7bb79a379da61f981796cc965dc138b7e53, 0x42bb3cf4bda798ac4689983600c87aa101153211ae441ffb33a5df4f0d9d93c3, 0x245c9d0dbf32dfdc1c545d81ec41ab9759a205560b1b32c271181426142e2a2d, 0x3869fecb5f331657aa4922622765cd3b8fd3ca7f07505fa6c841206af5c91d97, 0x4d969120a0a5529b529580688b2ce47f964b7bd871e28ca9f6da898e7a72b814, 0x1ef460bc6583c8d9938c6bfc9e9f71aafacc8076ac7a38f79e948a769b08df5b, 0x70de4d1980cd4e53541d362e46464090295606614985a01bcb3bb9fd366ed3e4, 0x6dc8f42def396bc305566aa25c6220148fe7150f560b2017d04c4199f43b5b7e, 0x21c7c3bd130c67ca5cb13bb95d50ca3057ea262b43e5c9b2778b4d73a5d848c4, 0x5e4fab06a166e0ec26afc3abf2ebf0e217ea013af7567164a75d1d38a6e69685, 0x14e08a7f2ce5f3588910302b5662c803e5cdaf27ac0d71c7ac44f689f7836b7d, 0x23fd29a2d07e7401a990c0a8c1a613c1c18f9370f85b6f3d8059c19fc3b63873, 0x3564446cc7e698d1839f14f23a51a56cea29d6f2293b07d3084228620e0e7810, 0x44736cfdc2c8c142c8bdda77e62d07e5da0dfb3cc702a89a9aaf9ade616f318, 0x3ad009203fe0c0330cfd7ecd36bdc4505dc456158e295fd31f5b3df57f016d84, 0x4c8258f14cf0e68ef2dfcb0b48d023b284deb31fa1de349e934b677536cb597e, 0x7370e78dc72ed7f6ad9646bbb02feb401744aabd4c095e74e52ab3121cbc7ce9, 0x192d5e958c7df56d0149b2d121d97bea72dddbb1c888fd78a272319ffdde67ae, 0x5b5d0318d816f1828fcc26cec72186bbd5fb6cf1f31892bcb137b297755f4a57, 0x4f1e1ab93ed522f0a9b85e31d460edb07e78429e962948d553e17a5612d593cb, 0x1f82a444c11f57e366940bafe0580c35d9096c1a450930829dcf83943ec3806b, 0x4e11f6a9f2b0107dbcc854517d6c8773b48d62a76036874cfaa052b37b919d55, 0x6f5d99a790f5e801004fea15c01af04b59e57cf5ebd09fb4cfc76378b644cb35, 0x1eae2123246be1cb5e4702d8b3c6b519cd87443b6d7119c89ee556b37644e449, 0x6e68bf3785d9a27bf93da383a84fba009bee4abfcb78d2785f57ef8fe6f01071, 0x484b663c506a19526de92ee395076b578661f59c01f556541e19f07ab149df8a, 0x3700f3038d310303e2dbaa292445096a56dc30969a95795d7be61ca8054953bb, 0x3e1958ae5e6eb593e822300859557ecb55e60f06e989cf4e8862c6a56aed4dbf, 0x10d2931c31c96782bb2b974afedfe8d251902348085a8a17bdfad14601d4f842],
    [0x6caeccddf703a573b0063a878907ba84fe81c9c2cffe763f0fffffff10000001, 0x106ef216cfcc3876e5b53686b6de67f338553ce5aea49cd8b1ce06349663161, 0xe25e2363f37d73b47d7d73317415c61129b5d7739a31b5b69cb3396d3bade51, 0x5ba7c9d9e35309623510427fb5bf978d20ab95208632d448cdb32b51be730185, 0x488e11746b155c7c807aefcd654c704664f55b630fe8d04374ce08197d5d6cf, 0x3c0555db2d585c4718a58d94d3aee68f6ccfbffb64f60b2fb2d22471e68ea29a, 0x41c54e97197fc6af7058d5f44ded7486aa450523bee5620b5c36b1c26dce027a, 0x2ba86085726b579f37c925832c621a1ec503349e0e20c3624aeb51036449239d, 0x2a429cea18187211f4f7e252c3aeb36d8b35a4be9b206e7270aa23a25ecde68, 0x3ea78678ca38acfaceb8e101d5d28bcc2a4d01a0c40a0736226126c95edb003a, 0x17b613bb277305af0285fb01a8f98ebc24a558d7a56f69020019334fddcf02cd, 0x1d2a04649c91cf6a2d7024da28c544837b61fbb95a927669ae85bf2771ba7921, 0x3c6f8b0db226bd0f5e35294a9710427d60b80bafd25bb971d0bd23012b85761b, 0x9a4b976c99f4f3046f501bbf8d4162b0ed69fb80431dda5a4eabd8d3af89707, 0x860ee6a865ef981a09667750f5224c2ba555fb54774ed8020f789c12bb22a5c, 0x2696a3e2711dca0854890f378277ac43edbb8d6af774472cfc3314f95dc400fd, 0x1acec4a7bc14962e0eb394d5347799490cf0911308b2cc23b4a6c261fbfc8532, 0x72b237226e1238b415cde6148b3b059af2703be6e5cd2f41d40b8a1a64f264fc, 0x118bd034b2f985dd9a0ee89a49e6b6a63d295efe1fa450c3a06652bb9e0cb071, 0x1ce98ad4bfefee43fa7b6ecf83d6e0fcfb1b92e59479611ae7940b32bc41f6c, 0x625fec634a18b5b9b18d2a1973492765bab3ed4eea7676ed4ac28f79b490a54b, 0x3f7a7bb00078f32ee5cec2882ff18c81f98f3350410e278ca48362c0226a87a6, 0x14fc27860d2cd1c6e684f349af78a192c20585617079cc480047d50be678b3b5, 0x18052255583b5782d5e1f4f2a6d44b061c3fd9a7aa266e4201e149820654931a, 0x4dee84ca4914bf8de1d0997499373163410cfa80af3b0ab0f92de04bf6855185, 0x42fd538e0ca8d8db6b27bab86e892849a63384f242cdebdab4515197e96f2c44, 0x5a0bd2d790c95fd4ff2150621b765c676cc48e291717235751bd858bd83ce5d8, 0x6d7b80d95a9ec683837250c81e839ff8b1317a0ddec39df3193f2e7b51dc8a90, 0x404aed215f6bca795bf39f086af533f5f5e2d4b69facef73eb87d4dee5d614fa, 0x3c37567bbb443ab8ac8f50b8c815a6293210748f545f6b68134744e2ac3b1272, 0x26a23d6ccc58b76b93eec2c29c7886a09373d284693841269899cb63262fc38c],
    [0x6caeccddf703a573b0063a878907ba84fe81c9c2cffe763f0fffffff10000001, 0x34291d8d8f0452fa865f4aec1bef2c77f0777d892421e48793da571780367c93, 0x1157da727e6e9d56b4703eef9885ab37d7be0f2350422ec0e2b4eb4fac2e2ef6, 0x4e1f78576e31fe084bd35496c60587e74d46d669da49f82026cc56a77e4975a9, 0xb079aaf3e09f800a036a02f612db4dd8de3faf9a83801d8f69b93353c5d92f7, 0x1b20786899bd8fa250a7718efb67d0ce3a2f7beba9efbf5bee63f2a91213bd7c, 0x4b4e3d4cb920649fc3dea50553dc6d6d57316dd8cd2668a857f17b1f2b3125d0, 0x72a62aa1c32d67d04785bf15175eed21738ed009c2451227653e51757e8e8577, 0x39c7dff828efeaca8110fe791f7b5493686712464740f1d34bbd3e8bec29669a, 0x18982db97bd029a548c49451f4b612ca32dc3232e30faa1b42d9dc015410574d, 0x3e38793695b56390e9273fe373bd556374d1b72c2b03041f3daa03ac532fb5ab, 0x4a921a83e1447dbd4cf68b682864aaa2a61ce02f9ba020e531d08e4f5f35ed2f, 0x3bb2d0ea8f6230c2625d6a3050a20626400c4e2b4215321b95783d3400bf8c8a, 0x7281a8a5498abb61f8a757220aa0666e3931ea70ecab6a252a78118cc3e32a60, 0x1046d02e0466f8cd8373e1d3ec77df77d7c15dde9ca0c90cbb0318fc816f47e5, 0xccb3c7a0ce6f7b43957a43679e363f0a05fd5255be738eddc4a9fb87c6c55f5, 0x6eda9e5c75c5049eb5f439eb2f2e773c3b0f2b0f4811b8f7ac8bc13b489e6467, 0x6b9fe3fa62779576657186b733c6b6fb7750091237c2c9709646b50f4f8fff7c, 0x66e5e12d3088f661f82ed10d72462592ca6b36d260e94a7621dff615e61ec9b, 0x3846ee220628e7a7837413467b9175f37d60db01bc79344ac50fbee6443b2404, 0x442436b0829f450159ee9c4226a8f067894bc57de91dd80fdca69e2a2c5ae05e, 0x2dc820c24d6825d0c0392920ef46de047454fcb2df40fd20a36e2f809c0e3038, 0x2fdea223fa8416f9cbaa66a6d2ade5ef18eae2908e8f13ad7cdd0a2fdce15f77, 0xe5077c10ccc14faa8dfdbefa7d81c1143b52036761ad9c69712c117b472e708, 0x4d66c50a5ef51d5b0663479245c3b86b1fa0f254018f0a8ca06ef6f650eca93a, 0x114bbc4f4485fd29b11acfc1d5fa1df68c36c4a1d81ec4bd8e6e9e1db7ac4c57, 0xf38d52159e1f96f3fb6347d4d1505a8095fad054e3bc1901f6508c8d45a4799, 0x1b55d63bc83427e656dec36f3a349b7de7b5da0dd3f9dcc1ad0796b0e427e160, 0x35f567ead5f1086973079f70b373520e84ff49c277e533ed06386295ca932544, 0x4ec1eccb4325e1f9b9ee1a42de8df53e21f48effde99103c342da2241d538460, 0x14e71895d986ba86c3dc6862f1c0ed6eb620b741ef7cf266d77e107f49a72983],
    [0x6caeccddf703a573b0063a878907ba84fe81c9c2cffe763f0fffffff10000001, 0x54576ee8375bc6de96a0a20a1b6248bcfe118a1fd61c73e8dc280cd37a33f530, 0x3fb3138338b81e9317fb61816b9c51152f0cfe5bfa95066d5d41b4b5b7fc6093, 0x731b6faeace28ce91f50cc86ffb55779d614bf733f4a66ed06d7a0af56bb50d7, 0x5bf03cc692be4795fbeffc4dc583412563533de760796646f23a5cb541e7e33a, 0x574660f6d2ae2d90e463d34a43d98302aa6b7ce99209516c807fcdcb5a608e5a, 0x65d6fc408570582fe52196332dbfab5fa9b6f004dbb51361c0573433455891c, 0x3d8992da1971efa615b3ece46e81b872723864818ddb6fddb9b4850df793f7fd, 0x4f3489ffc25e78fc4d8dff6819135282b503a6bc3a38a09a5a7e78c4520d6d96, 0x12e2bead80589ea3e91f49678c57ad5bba2849e8e3a00a2ef9b9c183b2d11a87, 0x6facd4e922542af0216df18c3ea12de96f68f446f88c3510c9b18aa83ec74f77, 0x51d1e4838601d3c2fcf9dafc304480a728c42010a6fff3761f8d6e8f58b38b7a, 0x29d3e6639f84a159a3561fa3dce9de8af91ce127bca8e5a4c58e315caa9c2409, 0x2b245238c8841f5310f570629015f7c32ce32997419fc0634ebbfa1dd5671c57, 0x3200b54aebcaaadc548eecc8f9b10b7ffbaf7e9bc674744f79f77c762149ec05, 0x10d8970920425cceb8232a99326b8567d93e466c69414126d9b0fa5c917d3c50, 0x230dd23f1123a34d3880a9af37ce3e3f3b824ed7dd871db75d0b926695238ac9, 0x1d001f1042ee79327c2c87a2828659c56f05258de943baa4da4afd5b70ec8e79, 0xe01b7cd008ef990382bdb38dd43d621f62b419a76fbfc3e8d4ca8978150a6b1, 0x11740ba59c1a3e9857834b47a648d738cee5a6dc0b2d467b9c084346392e0bf, 0x59e404169ca2e5c45f19582358291294736871c9d614e4d8377e357808d6a913, 0x12d549980a16daa882e043069a596bed69a0f8546813d94f1750313c44f55474, 0x26d0bc18c6b1b97bb86610ae1134338d78998a2454f3ef0544d1bcddb6d24a6b, 0x2fdf852f99ef643d12998083889f5b9639e22edfda4e400985ef828edeef3a8b, 0x6eef333de46bf47a100717dcabb3c463abd499328df14267bf4705109f40de9a, 0x344dc254685bcd2fa2be42bcdc09d6c5950cb4b70b76dbd127c00216e730b9fe, 0x67d54c80e4079ec0f234df0c70c22ec1e46abde6136bb4eff491b67dd2d8d3ac, 0x441ce6e45dc2f3825618819f96d4312d06819ac6a5129fe9c8842b66acecef29, 0x63cd0b92425249ccdad3fda7557e8087d7109a4dbaf250134c6e491c12924e4c, 0x65d066dbed064db38202d411cd7542e197a92b06b8ea430a240166648761d516, 0x3af5d51dc5353624c1edee3d4a715a0c611d70ffd5a496bb09a7a7f8fce9c602],
    [0x6caeccddf703a573b0063a878907ba84fe81c9c2cffe763f0fffffff10000001, 0x24fa97c06ba438581b7caa485134bd7d8445c38f5e03204e2784bca4d455a717, 0x2160ff9a77995d87e42e0671fa98f3c5b60ad3aa2f8ba258f99aea0ac2bcb02c, 0x66ef7b237c72af4aae8e99395d8794c825d14cc7c2b82d00ffccac5dacd1f34f, 0x3839a8f2e1a1184981ac5b9f0a5e56d9aefae81e3f621ba1c942560995fe735, 0x5a26c27ab0a6e282f308f6c5f6063d2a6173f2be6ffe6c045420badfae54fb08, 0x6c819a2a0d49f95d690dbda7a5f4c4220f0ff177402ae72f3efb96cd7cc2250f, 0x6ba72081f827f4ee0246c883abacd0d55350593a858cb47b509f55d21a84cead, 0x3ae2fb1d1d2616e2b3662c4f7888d7aeb950c6dcc0937d979f30af0bc87d7a0f, 0x6c91f3e5a4c380792f87eff63ce51581b348176312a744b61d071f28059d510e, 0x3c5cf41585294752a98c6540f078f2de225d3f9b9e254df9d60233ed0998f65b, 0x211df2c59ad3d1b73b8b39ef20720c1c1bd6c3d8c10459c2ede33a5543d8d181, 0x2ddf4bef2bbc66c78a63e81fffae0f15a9881547f9f3eb91faf0d3d89a1c070e, 0x27c62fc20d1c134e82a02cbd38b011b095206249959f0f5003ed851bdce40766, 0x5a6539d113cd48c234d2dcc4238310c919dcdeca246b2e3b19e234dc9d89591, 0x2dd3ef4b6884edbe7a08e395ae54a4e9f030cdc5ce621c98be6b97e158dca835, 0x3d1cafe4fea14ce0e988527fbbb7cc4d2bce2bd7164694f280070cd247d7f5c4, 0x3650cf78d72d415452787a1f644f59a92d3b69d3fc8e6181173bf47742304714, 0x49c519e6b440fbd1dd9c12a7d04188be90a8cbeabb3c873299935500a386afcc, 0x4bacd7574f5ab8cd79737ed366c67829a4d8101d0bd00efb46026a7459c65dcb, 0x17dbe6a7b138ea658aa7784c4ddd0ec4941cb64ca98e64759adaa9b0f65290f7, 0x28d71c860d98ae9ed7f28966f315fd471405f2e7e8fc41ae2cd9a682e474a092, 0xc744e3366117d5870ea1bedfb1c9bc28e3798b44e8bd2518b804adf8b72dea6, 0x452207f77c09361a79d544b164daa542d5eadb2c6e6c6e90767b4e5cdd88620e, 0x4e930acc7591a80b1205ecf4a376a10ef87c8cb39f13bce6629d019ecf964f42, 0x2036047d5a299f61132d7d1eba70a7fab4437d1394c6a5ccc223b8ea5a881a7f, 0x4d5ac4fcc59e894b43ac5046de46a215e2829a014655ddf166f8878e53cc5de2, 0x3897efaaef725a5cf6a6bb81a7a09a7132fa98c05bfdc086dab2708df518db20, 0x33c5ea6613bc380ed9318f2348de1c3b4c0bbacef5417a86401d6963d4096efb, 0x7b1a64a95dfdacf604bb3e0ab3b21c5f4a13d63a3c820751ecf50e8a9c4837f, 0xb9f5c555c972e8e0e3df1fdc88f1b0550babb10c055bb7fd8143c133be8b452],
    [0x6caeccddf703a573b0063a878907ba84fe81c9c2cffe763f0fffffff10000001, 0x79e3aa8d6aa21584a3075cc1a73641b69676341ce4408cc06a7134f72ec909f, 0x46846e03e404a8c7063153b93e978d2e4737e458005aa954ae88f9c4091f7247, 0x32c69d2bc63d8e07414c51e8c8e04288d1abc54d1686e8c4b9ad76e82766d4d0, 0x5094c28bd3842a1a290a4613c6b9b79e9819026e51aec5f9da6b5fb8f7d83bc3, 0x2a430f3b6554831d4b8bfc10e66177f2c9205707a719e8cea9700cc6cfcf6309, 0x6e3a70cf984e0821cc921a69e79259326fbcdb3ab79140ddaa43d12ee91ce12e, 0x4bf019b58b7809d382b947dbddecc9d6110e354786b4ef34237fcf1a3214fb7f, 0x3f701140d8c7406351dbd9503ed4a7138824d862fff8e5e229d0886390521d4, 0x232c4aff8727fe60d857a273c763948af0d9cb22f58549e103713097483643f, 0x259a867ec2ac112bd3aba510ccc31f84c2dbb9c10fd4a2e63aa4508ac8a4701c, 0x5b2fe4589de6aceef702d4066ca631eeff4eded38d8257b8c7390493fd2d4294, 0x3ebbfd76b9b349917ff3b9fdea49844a206dfe0bbb269a78e800f2531b60e41d, 0x42a96653b20df11688a244f83fb6c83b04cee3b11d363f815666a1b8450547cc, 0x2bb53e5efb07239a3abafddc76f3afef8451c84548371326dbc59d45ae3b0a2a, 0x1458927850d7ca3ee4bb626f31797eab288cd5eb4452fe5a33027643c403465e, 0x501ae549a7941a4f16b1eaa4e65e32103b2e44f9cb3c933f2eeef0eb6089e384, 0x19487bb466ba9ec8ef5aac7f454ca66275936f31098afd9ea2a6d58f05dcb167, 0x1fea6504d45eb9d5936f200305c16ec0b6fe835e00709639b8b0fd7b7a5930d4, 0x16a045f95c4e5a7a381cbc33cf3cf34653fa0e11b986522790ec9f08ecacf7d1, 0x62fce0119c1f991914d1ac17ecfda31e3f979f12f045342c78e1bb6833a0c5b3, 0x4e7bd6d07385a619c71da3fc79a833412be4087b529fbaf9b2efb7f1eac55a06, 0x2d4069f96ef21c6167de112a6610f962e0a55ef9fd8a93c7ad1ce383ec389f55, 0x1314aed190c337769f958c5e6584b2c2b87fdbd957a5f006fb1dee3b15e53cde, 0x1def68e3ab6181a055c2403c9e48392ee7ebc1014faeb9442ec602039f0a63d4, 0x5647b2c4c49cf32cf2c885afa42981902237cff80de981795312931b76a21033, 0x4fcb1cbcc67b4a949b5de51c8863e65bf9141d35e99293898eed75d8725f3453, 0xe29ba98cd55c7c8637cd2c61797bf52e6cd37eaac89df3863ceac7d0c61f07c, 0x44d7c50c984a79534b8a30f1e1ea34ee23d7eefcdd5d4829a617f38e52f0724c, 0x5bbcbdcc48ac3b582edd987441c409a13ca811ef656b035d97fe2ad9fef0dbd7, 0x24e2cdc6a7031cfc602734a7137b284ae37f1bfd0664332d6574b5c14a494cc0],
    [0x6caeccddf703a573b0063a878907ba84fe81c9c2cffe763f0fffffff10000001, 0x183322db3afe2eccc0b65c055a86f042196c7fd91a5139ca66c208eb4900df29, 0x2da6567a8a6010c47c255c6793ce952b7f5f4733beb3b43fb4fb9623e1a75718, 0x1e6499b8f0b7871f7517df7f266598e16812f0ddd8512560fb2ad36a986a4bac, 0x4cb10be6e103b827dd3994c21910821d8af8f2ae2fe5b90f6caeb5e5e23dc1c0, 0x147874215dea5922697e06458668f0368f7a698201049b51c5e68b4b7d65fc9d, 0x4fd7ffd7ec0b92f68faec595f2ac60ca614ae47648db371d3660837a64705cd9, 0x1ea228137a001b899dbc51a6c6aed000a54191093880424359667823b535bb90, 0x3320bd7ea8e1438932726b8c3330c3a9c815d7817850bf03a7205a94d4979d34, 0x3b39a380afbe1c498132b0e046ccb3550f3f04cd45f8baf43f7374f92732b601, 0x141b18f93fb2adc552b7cb5a03bf47266a4259fd270c0574aac7df4338d235a5, 0xacd87da2b928395ee7c791746b12efce791c2fce44277709f4aa1ceb9333327, 0x1b50631206903f55ff02fad032bcc4404f24cebc46d82257459e1b3ad2df017d, 0x6dee8328cc4a0e414de8ffb07eb00c166cedfac8b4700074ff9614786302c8c3, 0x3c4976ad1eade8adef774b4c2392714292012a5322663c0352cc841cbbe98e0d, 0xb31175dc0d398a22a4ea609ebfeb916c3c7d525f2e2f777405694f2dd0b22da, 0x2605981cc8ff1881de13f249a615c9b8603c3387be23988d09f331cb40a867, 0x5c7ef2e5442a2e3816260aee4fd0a9438d1b8267a2e29580bde56951277b2b50, 0xc95b500ca884cc4a3d67a9df21957f2e38cb27ddd1302092830dca177a42f7a, 0x5efb26e9da9b1ebbefd795f1e889a60a538c0ee0a9b338dae8dd4d5bd3a5f437, 0x23c3df355befc2100dae5754e3309f4910efdd705cb922aa9995a731c986c45c, 0x716f3b239a4214bc25f7f316add0ccfc687451b7f9c6bddc5f6e0f1b7edc54d0, 0x3d9fe6481d78fe0e50559ea8661be1add03c30b99cea8882899e0c47e505a14d, 0x230932aa24c32c19c57ef4b5e9d03492a701e351c8d77930d0bc3d196792ab3e, 0x31798be52f3ab66d57107f0d31b44a271fba6138d7d527cbcfb3a04be144045f, 0xf88be134fc1674807773922b7fd148c21ae128b1e8a0e1b2a86c0595eee695a, 0x3900c83b38684ce5b8f4d4ed31f67ea2aedc42dffdfa631e5e845c1eaa308a8f, 0x16aaaf2b49d7da885ab763ad2dbe49f7c260de6319ee5a59f35e1b0217557f99, 0x59b0cd896961b5fd52cdb8068f31cb26d048cc698b37f57526fec9d803123c41, 0x4cf96a15d521d33e6b1c2022d01ba9958183083e1b1be50c968b1ce69bbee4e9, 0x6b104233370248f2447112fb910521bf09a4907a8895d3af62799a6af47ed6e8],
    [0x6caeccddf703a573b0063a878907ba84fe81c9c2cffe763f0fffffff10000001, 0x6b4c644c13dc847831dcf5690904c972fddec1e03e03062593b87e26857de4b7, 0x5cd2bf51026e41cd82f7e145571a91cac16255d02a4c96d29c374a5880569a72, 0x1fdb6e14c4edc41842543efc12722b40ff4483191339efc7846617f6cacde6fc, 0x16439fcf30e657e430d3b1afa42ee52c3d377db0d1b072ad252e7946d6a79080, 0x4a819c87c0c7812032c8862a36d15b5de0cac38b1b254bcb42e037dc0c99e137, 0xb4f55a5c03ddc1810f973ace7c1db1970ddda4d5f2e4841bdfb3df7f43f1059, 0x1a0d28df7179cf78c52491565637ac985d11530137fb45d58c2c97076b554dcd, 0x54edf6a3093b84be060de45199c0e162dd7f5f28f39d526d9eda4cba64ed3832, 0x5a6a4724dce6fc9b3395259ed72538f969966a6ca01eb1f8afc32b6c1dcee552, 0x5855926515145f5cc76532d4440bb3625f72662bd5daebdd062b58254fab99c, 0x4e57a40667fb3d1b38bca35a1dd9e74a739eefc44abce292576ea9044639f10f, 0x577a5fb3b137d35df8c286b22b9e4cfaca7eac2cfc5b8ff64be955be26184b8e, 0x6a3b8b9aaca991a0ff2eeede553b51cb7bc00de89ce39d0b6f8170aefdd1db52, 0x2be4e7702db9dcd874a99c72a70b4df1303e98843ccc94e5e55a91386296071, 0x3c2fa862a08e6159b37f4c2c0f318d16ac8e9f077004505dffa15b43d3302c06, 0xdb44619b758073bf5813f8ec1f6bc955c515cb13032637279f281fef7261c30, 0x64a42ec299ed91c431f9ef7189f751d83253d527b5547e9ba694b078e98fb166, 0x93cb07850c5b291dadaefd7d97b930548280371de4b021cfea4897c4a877474, 0x4fc7309631df05c9c05ec81364f1e023a59fca9818342e9f8f39a93050f3e1d2, 0x380c02ea3d61f91771726221cdfee902c38e49ff9b5482ff1870a884f60ce36, 0x55d28d1a856cc3eab6a800aab013d9a2b24c01fe0d27aca782209b95ed5f9b9a, 0x3168e1858239c899c2c72a6621eeb0461a0c8e17e9c93c050ef883c3abc738d3, 0x321b859a895a8c35faa478438345bdaa4f7a68cad916a207583c9bde780551c1, 0x19acfe63962310b63bb0906b810ccff65fe58032078a8888cbbd3868adadf31a, 0x3c792fdb5fa782555e80e6a2fa1566575fd6c428b772eac142bd2ab7074580f5, 0x64c087036e9adfd6481a2d3c40a261e34bfb82e331fad05bbc87465ddeafec74, 0x10eaad0b511ba8461df8d9fd1739dfdc840efae51abb240979b2b1becba26a3f, 0x6a7c8b0124868dd449ab40efc95159e1b8ff9c4a188da7541945692e2e7ba21, 0x4e04b35491c1127cbbcd78b72576b38a65502419484b64ce62ac03ddb073263a, 0x171048d95342c97728203dc9d96c042405d8f15205c6a5f5e6cd5d2c0729ce80],
    [0x6caeccddf703a573b0063a878907ba84fe81c9c2cffe763f0fffffff10000001, 0x52b8651703453e9b02b17401a6538d30be44d304001e508c6cfc29e7bca08bc8, 0x38f80c213000da0a6117ee9b91e66e1facb44f9128b6ff4693a36f585470be60, 0x368de72557f60f3909458957d62169630fe432f4522b23ebc04d660061cc7ce8, 0x1b225a4635d222af00fc8ac3e626257bc185e6353ad02b17f030dda9eaee693b, 0x5cec13fef0222cc03ebb3d9c874733125eed315055aa804a5bddfd5aa662a40, 0x1c6dfbd9cfbedde830b7b31150e8c6be99c1541361319085d938ef9d5dc51307, 0x24e53688007455795fbe256c0fac297c8b1d3e21bcffc335500954fc0002ce14, 0x71ca343addb7fd5940222935b52b469af01ca0d119d3a08403d1d9694c75b129, 0x18d0f901169614fd1d90b5644f499ce08b37afb5ddbe4564580ce84dda52c0c0, 0x596a82c10d28529bd1214c0bdf62f07640965ad37d19a09631ae34435d2df264, 0x413eeca4aa838aa4417139d23f04457542ec53824016d00e7befcf22cc16d988, 0x185ec25d8e6b08dc948e3fee2b57635f945df70dbcb77a8d7f83ae0f1d482183, 0x5baca70149b30a5ce581a796fd02734142b14fee71ca2566cbf2d53cc94ec28b, 0x6573927d8599faba5bac024c2e243465d6fb4ade95005d0ef643df7289c3433, 0x3ca6020640a8d81f55739f8e27370d144be38043a7699446f03b169039f7fc0a, 0x58ee519a168f5c23a2c3569a392bfdf572f9ecb280c6661794a444f25d335776, 0xc2efdf9f3e0a2c11b56e90f6f400cf482405c760078026d4231ba86421c36d6, 0x7b70885073142ba7218852a3c2c53e58a877b4b8f80f6834541376fcef9cb5a, 0xedcd0f723aa2b2c2e76ac3b9ad8f5eaf68af1f4fe2316d8dcb21e263c05826e, 0x1f59bd23da758075d3f1ca6da95866cc8ea1ab3c510a4576fcf16d39270d4011, 0x1ac53d4dadd198c11b4ef697b8a0fb8c594751916f8c7d31b2812b3a4cc3b94c, 0x63f6effc7151e30ac01befde5b9ab44a88efcc9b1323b6bca8b8b442f6bfd75a, 0x577c768fbfd2b99f58acb3614ba41ccb146291244874b0451a6d297de39378b8, 0x5cc702df78da697733a460f709bb1778f5408de9254218efa1d666168bea74e6, 0xefacb048fb302bd86bd7b3732341ca0ad2a8985c761464002359702eb995146, 0x2d9e3a9880bb34e0fd3c945c5d0e976ab5562d4b25182d789724a90ef88370f1, 0x647537c8d9129b451e569cf47027d4992992de2879803a6ac2b03f9279c40b82, 0x6965e00e2551fd666144102c75c4184ae58b8f0e0244529bc5040f912aa304f7, 0x54ccd42e4e3f4f9ffbd47571929d105476b6008b38b71fc884d3cc5f3b0c2f43, 0x4343da9a1d7389df4615c0874e6f7d27c9717787a974f1c5b76b4c4930077f0a],
    [0x6caeccddf703a573b0063a878907ba84fe81c9c2cffe763f0fffffff10000001, 0x486f1fda392ffdf9273392b3929ffe1596a3afa89f9c5d555a45038282c799cd, 0x580724e9e409df88ffd290f03226018ce90041cdf958c2cbcc0e7f725841a25, 0x4b0cc90462625caaef75b1d418ae9b8babe1c6d5bcdc44c5925cb7b928569789, 0x154dd65063e41cf64ead15c5fb2a50dab82d41c97bfa1633740b36d29be7e0cd, 0x6a866eb80343e7cdc9a9567aed8d22bcd7c0fbcda6892ba264a5f5d0b820e4e1, 0x38ac4dd9e09a2585f86d9d18e5ce4c5c6c910d9325d932c1eece21bba3576a5e, 0xae9a7591f6733d06e7ee9f079a0c6ff6647cea3a014d80fa9a663f3cb3018db, 0x6c22937a4c5e4e6f51f7593d6cd3a125a9e28617d7aee513535e6ec01c9db88b, 0x632658f5406ec95d64fa98efa59f9eeec26ab44183aa366185cdb6593574b8ca, 0x98cac1c32a691a447d80aa7bd0521a4f1837139c3db75d4e374423a309d8e14, 0x3f25752270e78a0137a107200f4adc2497a6af63936fa2e8db04fb03cf5bdc25, 0x42c34036af832e5cb26d042e03267cfc40f2ca73141a859ad9e55226d9df5aa7, 0x59d614daa97795a36285630ab602c384ed3632e6c3cd0a1a4b554f1f2b665a93, 0x1047d5964a34a687033c17a9c597575ec2afed3c82f76bb1d994aea4f6ebe5a, 0x509fcedfbb3788e3042e3183abcbd42a0bd6eb5c1471c47d26101e4f819fbb07, 0x1f9f3f473ffc0c1565ac63ddd2d2f1bd8fc218ed95d077e27f9706a914195e53, 0x464f6344c7533a7c5919f7804c019198c0d6b263f50d5b40685dfebc44a7c0b2, 0x88a7cd3b90243df101ae4389d0cf7c3d2ebf88a4a357148712b97ef35556396, 0x62f9f6f9827c64dd50ae50b4feb845aa1a4b51a9ea64ad6449322371d03960da, 0x443f8df14f9417c35f4450a4efdf9233679c3be473467d62134af83dfbcac621, 0x2f96937e31a5acd89983af17ed06f831be9a9816b7b52b78f72e7813f675bb99, 0x3e090bb795fbb27665e756ee633e0bbadabbefc2695ba705377d7a1a358652ab, 0xd7537938d9c04a9d29a690265efb9f99f68136e56e770ce053d7604802c667c, 0x39babdaff35259dea765c5c96ffc9f15b14980338b5bc332052ac0083e35b3cf, 0x425815b392ee45209741d0da7d89d43a2b84f89ebffbfa2554158607d32d8a3a, 0x513a5008cf784abf9caa867fe59a0a624d1a90608679dda7071a8e2192d75ade, 0x538120d5f4565bd1938532664c24421bcc72e762f8dbecb26b405c460e2f9838, 0x49e0eef7ab3e9f7220a2e41eb3f271bd7709d79db928c12589ee6993737653f5, 0x73a6c20246648ec22caba0c8135295ebb5411f74b5ed726a9ca158ab1a8d28f3, 0x49dcdf25f492a05e87f4ba5328260b824925d0b7ed107fc3c08d42d188120bbf],
    [0x6caeccddf703a573b0063a878907ba84fe81c9c2cffe763f0fffffff10000001, 0x61b89645d0b514f4db901669597dcc4304dde0d5e67be25b09a06ebe6f8050fb, 0xe09c246563ea9c2f8732cd56d3776bf2c2c31aa764e0ebb77d36e5218329c21, 0x459cb6955508df6531dc417d8f4a99cf7fdd11b577211cabd4297321e7dab19c, 0x2589ddb96a95fcc3ce2447750b694e2dbc3ae1021d943f302808c2060c1b5744, 0x62117148dd9ea89ee5d9a75366b61333d501bd6acef8e35664da1c68c131a87c, 0x67d2e8709c8e74629390681a91cc40a20c66954dd1a7bcc8f96a135ff6ea910, 0x13e3a6209ed68b0b73a5806b2faf429955bbe5c5aa2f5df7c4659c089b41be39, 0x1814be867138524b1772c5fcf2c7aedaf8362deac52f5517d0609fd314b9ad3a, 0x5cf078b180d34355bc3991e8de7154c71548874ab13eb0e4240ee22b7346598c, 0xf430b628bd50a1ec91391512048e5161f6347688519078bceef4e2fd5d3f042, 0x4a5252d56ab0dd99e29ed420ee65a89cabdf69832375985b9428a2195190035e, 0x1941877105b594990dc21221f426a42ada622d286fd34e21c711440ea5f56ca, 0x67fb28f32f981a0f0e4e7cedef31c218482c2ff556ea8b541e62b18eaa2e3384, 0x2e7cf3da58a3a0af9f820ef19f070fb2bba700673f8ba97ff270832a47643ce, 0x2b7ab9d58621c4d28e3e4e32a2b10f6c5f96d2f31b40b4c3de7965903c21316a, 0x3e85d909a74e52a2b5a251e84e5c4e7f3658caecfe305b9af232d2700ae4c87a, 0x38a7ffecbd2c57ebf232641b7d2ef17ec7b268185037bc9df05768ccbd548d2f, 0x4a2e09fc7d9bd0c9ae2c04247167ea78e9788cda3538747544201c34918eaf31, 0x455e52b66a854ea8e34c48e789a6948cc34252d87b8e1c1d9b44acb029a165d4, 0x23abbc6b617f2f44dc8fb7dcd8f7ed9035e7c42599ad25be6f6b9d597064028d, 0x26121af3e438f0066c8a52d59d4f17644992cfd2fb00d907fff80f90a23c1139, 0x15f2097f59d842ab3ca617efd4604c450c1518670c4287fe7a6c1ba6379e51b4, 0x1798e9790498d7d3032e1a56b6173cef33a6368b1c08919055ddc20dc4da7f6a, 0x37b76bcf38a49b1c696eec261be504fb0be8bcf3d95f3f3bfeca0d240aeabcbe, 0x2c8274c3901e3061b8d18a27a0d65d9475d22a01a6997c428fd4ee63fc0689c7, 0xe45b63fe34f9f2ff2d35554e19662e774767bdfbcecad0856a0a9fba4038702, 0xbb6544f984de6dc444c27663744c0ee09c8cbbe418861616d43144538831fa6, 0x3adc85a7afa239cbad8032c8ef20b33f5d300a91661bdbf4f77ef31c99048fab, 0x4051fe7aa272d63878d018a4226e52fc07aa1542a79d776ff1c166ad25213520, 0x37508d0f47eef2e914c5fef1321819fcb7b407963982a9bb0da1b0dbea94b36f],
    [0x6caeccddf703a573b0063a878907ba84fe81c9c2cffe763f0fffffff10000001, 0x5ccce568d9344b9555d947c73ea1e7d95c22bc78fbb6dd203903d132e1ae82af, 0x39213c4a3f7be080939d59f47337a33ecf67b6f82579347bdc6e3d9f0f6e0d70, 0x28a71a41c5835548fd9bcd6864cfa60213b480b39124cece14fd995ea0de1741, 0x1c4b4350fdd74ece939daf9679a17c46b667257eeb7565eb45cfd0b787df19a, 0x1d3d550283ad68e3d368df14044db795fa8e6e715fba9f49a91e98c1d4241c89, 0x2a57eceff7997f7d48521322eb9546c8e8bbbde760a028b8ec1c511ed3cb8d88, 0x151fcce02eadae25f808154c1a1501f57bc73bbd2598bd577d2d8ae8514941b4, 0x50dab13f7abdad37a1fb47237834d4ba4b55057271cc8a742a692f9f16e72bad, 0x133c5573663060e022e4fe286896c3788d4da1a668779df7ad5ab98fcc124ee2, 0x3adf9504f4590b85f70af38c8ef5b74d65b383b363de3c98f66401904efa7f58, 0x7253fc9f1333f701d440f3b05f5b86d4b32a3226a9c4de5a8b812281dea86c59, 0x2054ef4f739af7a07a1a3d245325fba7d03144f86584443803b3295bcd102fba, 0x5a9e6268af2b17e61c6d709408ae561958506db1d3e2980d428d7d71aa28cb74, 0x6081506313a2860bd1b395fcea467bdaa174e4c3bdc818e9f36570f4e054b33e, 0xadca9ef399b9c344ca992f661e35d3fab7caf2f6e447f94d34cac7d1433bea7, 0x42a6b8588dfbec97968ac079548a34ac027ce0729ff65e97d5f9bfc5be15a8f0, 0x310657c90069998d7c00831d522b77f114300edda7aef3fda3b5b503e877cd8, 0x684268d54b28bef82ee69d4106d8079df91bbebb7fb3f1084b7bb74b5186d9ec, 0x4fc0a27ebc0a6e02e5214c73d832eedd746dc8d1c94af2894a6fab72cf4f8e9f, 0x1215940a9a74a0e068be05a2b55e019b6a75e1b7d9800f1326a912dd6234b353, 0x250508bc2b9a5447b71f31c295d1984f9d4233b5e01a9ceefb13bc3e9a4181a7, 0x3ad1686e08e55db96bf67bef031425048c2cca5456a029c27927dbc978db3a22, 0x29c9899c1d07ad6add7cfcbb63531c80be1b41a5c4e97ec28a3deeeebc162cce, 0x19d1d173f7874943f838735e5b519f75f96062e53537016230576cb1ddffbf19, 0x8dba425c15c0e591e067301d515e09f463882bffa779c6438618ae063c6fb78, 0x49f10fa03a16d470978de5023baaa7ed4531f54edb0442b72fe72b422eb8235d, 0x1a951c98cac3f6dd31109687eb35fbe71033c7e08f933dde124a8097ca2d03c, 0xcfed5c25e47d7c4b06a9cecf4cc00d09c372247f9bea20837c148fcf0c403b3, 0x138fb07ef0cd06d682789ae9556b6f4146ca8c5d8f1439585f051710f6a22dd, 0x1583f52f02374807fee276d48d9b42945b9c70449fdcbd4945fff23be0a2138b],
    [0x6caeccddf703a573b0063a878907ba84fe81c9c2cffe763f0fffffff10000001, 0x368df4635ee0b3b8fed3cb23139bc517cb7d4d64761f489cf5d64e3b2c970788, 0x3d5fb2efcabcc28a1fa1008e6dfe9c9f5dea55f328aa3e28dc365952b4dc3879, 0x556bbea91130ff41f0d15d7b2877e0d08baac013571140b681b7525caedf8d7a, 0x30cfdaa9c0abee97e1c3e55d4ceffff6918914a217bbbf014735092359bb30d8, 0x124df1ffa84b2d2e064187ed2e8689dac7085da54148cc208a2522288cbcde51, 0x431dcca968cf2f00db511eb79c76026279504a2c0f9b87c57a993463d792ef29, 0x1933a9f0b04e3336452c254df28fbf6bc01c644b0d6582211f3c144462969643, 0x3c7bfe41a5dd0fed87cb3da212be09f26cabc32a6e10f8a80ad1b21eaed34bd4, 0x5fc452929d8d77c7506fe94e254b7571cf2b4e82ce22eb1df7cc5044a20aa165, 0x23485450f5a606c7ae5947b0e02af05865d8b59a85cce5fd47f5156b7c7b4591, 0x4690a8a1ed6195f11a590b2aae40691b25436c4e4746eed028a44bc5589b8b22, 0x1933a9f0afb142baa1e2edcd5859e185c4fe99f8da66c91f29dc6f54e4e2b643, 0x434344ae8669cfba7984f32bda8d1d953966dd9e507f17abbfce0f97f2dc1739, 0x7d23d91511421b43f18da1b0f891a8d976b88f4c493f386c2ca0f2f5276b0d7, 0x1147968522659cf4e697b236f07276044b7c9c5d29fd67c7727d63a1baf7e882, 0x6cae1379c74579a2fddcca9140ca9f41fb17004b6b726e569aac1c146ced98dc, 0x70bac10dafe67e9f3d946514bb368ff98f39baccc942e8ef503f3196d7d61cfa, 0x34c86b2dfde51e55bae26ce8643a11b94610705a53cb442d01bd0309fdfb734f, 0x5aff8b6e069bd3967f5a7594d072d2bae5371d31d80a0cf4be60c8a5433cb3cd, 0x666f7f617f3121dec2facc9f073c75fc112370f465296f0166959099b9df6412, 0x1ba148e3abb8e9b1e21c03f7b2895acf25876190318c385b450e7fd925216660, 0x6046e540ea2948a0c8891188fd05def8e40eccfbd7c25f50925ae9fbcae1e46a, 0x6f9841c2ba9d45925f36204b4bdc9b102b1accd05f82138e4d50f1d64f5bbae7, 0x73a90a2bf35831bd912c8afe387c8d6c114007ead2a22a8e627cd9cef164ed7f, 0xfb920aecb8b48181f34d6b7c5b39af8fe38ecaab0dbd5c85bae7d4cf9dac13c, 0x679d2fd5404a1456bbde8da6af2e205c20a61331ec2c8ef2af717903e093555c, 0x41331cdcc7d25bc8380b7a85198c40ff72ff43d3a0c2d5bc4d0c0b22682dfe55, 0x578513f65040bc102bf1e1b03f535f3a7bf50109ee481138fe9c5ed5fe2fe88d, 0x2fbb46b41d30c89e2ce2d09cda3afabd43f68e56f1d8a019226fdf860ff89624, 0x3f566538d494dc53416a20ab0a7f7ccd43d5fffb9a6584d113e7da5f5b004e18],
    [0x6caeccddf703a573b0063a878907ba84fe81c9c2cffe763f0fffffff10000001, 0x1b46fa31af7059b6a2a432d4b6f8e788c868db5d5e3e0d560ac50fbb24bc07c4, 0x2fbc35d6f3049cff9c9f58f44033952f5eb77e178959fe4d40cbcabeeb464897, 0x431dcca968ef637aa464db62f81a54a4c4b13be22ba170bdb057c46d87139b29, 0x1e81e8aa186cd02079451de72af4b21c59674d91e9c7ac9b071caff2b5419f87, 0x2ab5df5488985693dcfa5d106f5692f47d2d2fcff11531cc29918daf14b1fabd, 0x124df1ffa84149ad158fdebde692d144359d4cb6df1ec145e592137620506451, 0x6ee35223066a1ecaa04d96fc8ec754319e150893c4cc8ded14bf8d1c0808e45a, 0x6ee35223066a1ecaa04d96fc8ec754319de360bb93b129b9743a88c47683ddda, 0x142954c08ccd79f64bb1042deb6a0f4ed714bae3519190802f02aa320ab3829c, 0x50a553023335e7d92ec410b7ada83d3b58dff01c1c8b58bbec19d9fc9d9c1a7, 0x1ae1c6561111f7f30f96b03d39e2bf13c958a3d938601f7866c98489953374d0, 0x5fc452929cd00351e788d3da1e37c8b67cc215fef3a72730a9beac68a2d05865, 0x1fa1f3516a27e71415a7633f37fa4427d5a0f4b15aa161c82920d3395f42be82, 0xde789e5e584e15a692aa1c7648fc3efc04211236b252f34db72dda32ec3fdf, 0x316389eb54eece4a53e6cf5d1fb9b3bcc9b132b6bf41b4648851f56ce7589955, 0x1ee6676c48bd45a0e43e0194f745f648f306c86c17ff900ce8f0f0f0acb4b4b5, 0x6e97dcb683f00cddcd4b3e5f4d3d24073b01f0a28777f86023a99a1541050506, 0x56785c382ef5a2c390578febe089eff58deee76b5c8ead5127c22c998d3a8fe6, 0x4f22fb27209367394882db2170e7bcc1f70dbe92b828fa1f7c728b81ab4b01de, 0x519e5ead0bb4ca1fd532a215854b06f088b5bf2974a5ce1837e01b157eac2881, 0x195c7e83b096d76131afcd05c057bb2d02c2881e6706e54f7728b945556156cc, 0x66d1e3b0056f9c1e53c5cbd982adca4516254f9e1fc5ff5f1d49518eaaf8ccc9, 0x29cda26d50498f871a952468ee57985d84ff16c1513d84ebd87f55501f238bcd, 0x5d20469091edb43dcb18f575a1e5869fa7e445f7cf76beb9d5594ab1b0044a35, 0x351764375c794f47ff9e4eea0b687028ef674b0158233655dd3130ed20be9a02, 0x11e53b399e469a807e15da8bdae1def1579817c3f12c394096c2262035ae567, 0x5abd5f19fd21996c7f859bd0508b27581fd915be7db1500e27e01352f9ea36ca, 0x2fad5a99d6948052e17a694f1ab7d64b3e2de891d4205361f338e4b696bbad7b, 0x3c3054f516501388a6d4d5cc2edb2305957d5a5cc04ced900c500e13df78a24f, 0x333209fa45b902358d46e3c25dd303b7dc1306e8116b51dc964fa61defd89872],
    [0x6caeccddf703a573b0063a878907ba84fe81c9c2cffe763f0fffffff10000001, 0x6d1be8c6bdc166da8a90cb52dbe39e2321a36d2ffffe74b3c3c3c3c2d2d2d2f0, 0x4431717c3698e048969a7f13c96e42d5f506243dffff08f05a5a5a59c3c3c25a, 0x14569b1c10488ac050d8be9a1ca321683b9a88903ee04608ce98b3a600000afa, 0x431dcca968ef637aa464db62f81a54a4c4b1290f35e41a50435e50d6ffffc661, 0x36e9d5fef8c3dd0740af9c39b3b873cca0ee0a52435d89e49435e50d0000d953, 0x1e81e8aa186cd02079451de72af4b21c5967ccd85e50690d35e50d78fffd9ed7, 0x142954c08ccd79f64bb1042deb6a0f4ed6e9542d0b211b2137a6f4de6f52f7bc, 0x1933a9f0b000d873de9d4539664493228ca3a9384de961e98590b2160b192d6f, 0x142954c08ccd79f64bb1042deb6a0f4ed6e9542d0b211b2137a6f4de6f58227c, 0x70e7743647b1de300e45b1012651ef5319e770fc3e52fe539e0d5b4408ddd780, 0x44e28c3c8bbe0b5ed7f2239ce45509a2b39d34ef3b5bc75c28cfc4a2a6fbb535, 0x1814ec57c4a018c9bdf6fde183db2081b996b2c4062ea7841eeaf9d0cc0b570d, 0x2114bc595cbb13e2d5f1296ea7c93de6244e4b9669cd200245fb236fea20b2ab, 0x436fc334992ade9017a85d6d74860fe464e92261b2778fb5ba259cf9a94222dc, 0x3d63d77564ab5a12c666a3489e302c52ef06cb8c30f4dc5ed8aa3fbf13977639, 0x1b46fa31af7059b6a2a432d4b6f8e788c868db4bffff9d2cf0f0f0f0b4b4b4b5, 0x46d8580827a75ac891152076b08d923c24f3e43ab8e28d8d9c71c71bd5555556, 0x6dd3abfdf187ba0e815f38736770e79941dc14a486bb13c9286bca1a00000001, 0x1163a5e6130ad2cad47be0679b0b7a00cc8fa566d9995a99733333330ccccccd, 0xb0a7175a27085d61d427619257d20c38e120f9ec30c08c2f3cf3cf3b6db6db7, 0x6ea8ab5b04d08339482b9407ac1a7cbf444c4b1a22e72944dd1745d080000001, 0x64cea7c2c00361cf7a7514e599124c8a328ea4e137a587a61642c8582c8590b3, 0x6f1915afb28c42ba866cc45d093b19afc595bd2d8aa91829b555555460000001, 0x6aa770fa96ed0cdc062af9f2ea24419e803dd454ae12f879f5c28f5b3d70a3d8, 0x310bee2d07c2a14fc6e73ddc04133ddade81769ecec43a9d1d89d89d1d89d89e, 0x896583f0c9068184fa5784c727dc426520e0c2625ecea5ebda12f6838e38e39, 0x5f3a1296990a8256bc5d3a98e3573a96a95bc6b95247cb9176db6db60924924a, 0x6beeeb3bc5a44881038e2168963594284523521472c0aded69ee5845b08d3dcc, 0x58e0de26287035620523d04a6dc8e1596ade30f13bba79baf7777776b3333334, 0x21a817cdd2467f35fe5b1dafc0bb5fbf7b689af89ce6bfdead6b5ad66b5ad6b6]]

/-- the inverse of the matrix (not in the code) -/
def mInv16 : List (List Nat) := [
    [0x140e5923db48ac90, 0x73eda753299d7d483339d80809a1d80553bda402fffe5bfcc9b62b19a3475201, 0x1c635e2c2a25ecb900, 0x73eda753299d7d483339d80809a1d80553bda402fffe5b22de064fb3ad014601, 0x483b25edd8b73b95080, 0x73eda753299d7d483339d80809a1d80553bda402fffe4af85f49c3c52e4c6a01, 0x2fb95da1b8547e395300, 0x73eda753299d7d483339d80809a1d80553bda402fffdf69e95543279a1305e01, 0xa4bcad572df8ba116740, 0x73eda753299d7d483339d80809a1d80553bda402fffd8efd723e2d2fdf8f5201, 0xc1f79fb95b266f6e8d00, 0x73eda753299d7d483339d80809a1d80553bda402fffdd2d8f67f86a8594a6601, 0x4634fec4d066430db980, 0x73eda753299d7d483339d80809a1d80553bda402fffe436a11683ed67102aa01, 0x5447c45171afa11b700, 0x73eda753299d7d483339d80809a1d80553bda402fffe5b7999f8106dbdf8be01],
    [0x73eda753299d7d483339d80809a1d80553bda402fffe5bfcc9b62b19a3475201, 0x3eacd6900d431b4200, 0x73eda753299d7d483339d80809a1d80553bda402fffe58d82dc169a1f28fac01, 0x1881c84c2062bd5bb500, 0x73eda753299d7d483339d80809a1d80553bda402fffddb0317b2b3dc5ebf0401, 0x1e78f400576d4d22df600, 0x73eda753299d7d483339d80809a1d80553bda402fff90285b8d435223e189c01, 0xb6293facb54ba65d17180, 0x73eda753299d7d483339d80809a1d80553bda402ffebd391e6313a6a113dfc01, 0x1719a2f925d4b9454fea00, 0x73eda753299d7d483339d80809a1d80553bda402ffe8787f32a37de1894d6c01, 0xf7f833772486f4460e700, 0x73eda753299d7d483339d80809a1d80553bda402fff66a69e5de7d40cadc6401, 0x2c8df0730e19832b2be00, 0x73eda753299d7d483339d80809a1d80553bda402fffdc3116c4b2fa57aa2dc01, 0xf24e546a26d8ef2ee20],
    [0x1c635e2c2a25ecb900, 0x73eda753299d7d483339d80809a1d80553bda402fffe58d82dc169a1f28fac01, 0x28af1d054b3a3bc8e500, 0x73eda753299d7d483339d80809a1d80553bda402fffd1ed8dfea991f4f5d3401, 0x688ff9f721f48b3162e00, 0x73eda753299d7d483339d80809a1d80553bda402ffe59af7f831733ca8025c01, 0x45a95e1ce953914df80180, 0x73eda753299d7d483339d80809a1d80553bda402ff69d82ec69e2fa571d86401, 0xf224d37ef2f517944bb600, 0x73eda753299d7d483339d80809a1d80553bda402fed0184116bba65e94d7ec01, 0x11ece521d30d6111e94d700, 0x73eda753299d7d483339d80809a1d80553bda402ff330784d4f56428f09db401, 0x6857b40d72e70ab6fc6600, 0x73eda753299d7d483339d80809a1d80553bda402ffd9bdceb1f4b72c27251c01, 0x7dd157c951a65b65f3e20, 0x73eda753299d7d483339d80809a1d80553bda402fffd947332f3e0010dd96401],
    [0x73eda753299d7d483339d80809a1d80553bda402fffe5b22de064fb3ad014601, 0x1881c84c2062bd5bb500, 0x73eda753299d7d483339d80809a1d80553bda402fffd1ed8dfea991f4f5d3401, 0x9aded1c4a1fe33bffb600, 0x73eda753299d7d483339d80809a1d80553bda402ffcb3193791b07c429f24c01, 0xc22c81065305127bb17180, 0x73eda753299d7d483339d80809a1d80553bda402fddaf95b32702c362bd62401, 0x490de033ee0a56b7ffeda00, 0x73eda753299d7d483339d80809a1d80553bda402f889c63296db63aafc4c1401, 0x951bb3f836dc36904a0e700, 0x73eda753299d7d483339d80809a1d80553bda402f723bffd6a1032374c1c3401, 0x648d131760f5b7594457e00, 0x73eda753299d7d483339d80809a1d80553bda402fcc3d8ab2bf337789404ac01, 0x1225baca878e2edd102ee20, 0x73eda753299d7d483339d80809a1d80553bda402ffbff1d932af8f03f0c3a401, 0x631486b35a8d33ca48200],
    [0x483b25edd8b73b95080, 0x73eda753299d7d483339d80809a1d80553bda402fffddb0317b2b3dc5ebf0401, 0x688ff9f721f48b3162e00, 0x73eda753299d7d483339d80809a1d80553bda402ffcb3193791b07c429f24c01, 0x10ef9ebfe9e51cbcf52ad80, 0x73eda753299d7d483339d80809a1d80553bda402fbf8374d19bb6e84b072f401, 0xb5cad50a536d2b798198200, 0x73eda753299d7d483339d80809a1d80553bda402e7b2125c82fab0a07dc73c01, 0x27babff3d1fc5c0313bb6d00, 0x73eda753299d7d483339d80809a1d80553bda402ce44af6d62c96105f0218401, 0x2f4c774bd6df5f8269695600, 0x73eda753299d7d483339d80809a1d80553bda402de625425dac16d5c1c100c01, 0x1148d5d05d211188e7fce220, 0x73eda753299d7d483339d80809a1d80553bda402f9ea5f93f891e8f36db7f401, 0x14ec738edc14d5bfd500a00, 0x73eda753299d7d483339d80809a1d80553bda402ffdd1d87b2fae1760b497c01],
    [0x73eda753299d7d483339d80809a1d80553bda402fffe4af85f49c3c52e4c6a01, 0x1e78f400576d4d22df600, 0x73eda753299d7d483339d80809a1d80553bda402ffe59af7f831733ca8025c01, 0xc22c81065305127bb17180, 0x73eda753299d7d483339d80809a1d80553bda402fbf8374d19bb6e84b072f401, 0xf527807d918c7791b369a00, 0x73eda753299d7d483339d80809a1d80553bda402d4aa9ab6fe0964fea0afcc01, 0x5cc89cd62a335cca88aaaf00, 0x73eda753299d7d483339d80809a1d80553bda402681706055098560a8a2ecc01, 0xbe593143f0573baf2b56be00, 0x73eda753299d7d483339d80809a1d80553bda4024abb97c6e4a15ec783289c01, 0x80ef366d811e71e4ba6cae20, 0x73eda753299d7d483339d80809a1d80553bda402bd9efdfd9a624c05c29b5401, 0x175c7a5d53ac411548d34200, 0x73eda753299d7d483339d80809a1d80553bda402faf683f1637155f788ba8c01, 0x7ffd4b4eed4f28e1584900],
    [0x2fb95da1b8547e395300, 0x73eda753299d7d483339d80809a1d80553bda402fff90285b8d435223e189c01, 0x45a95e1ce953914df80180, 0x73eda753299d7d483339d80809a1d80553bda402fddaf95b32702c362bd62401, 0xb5cad50a536d2b798198200, 0x73eda753299d7d483339d80809a1d80553bda402d4aa9ab6fe0964fea0afcc01, 0x7aafc6911fae8a7fbf865f00, 0x73eda753299d7d483339d80809a1d80553bda401f8edc9806700852bad8ed401, 0x1af3289b93fcad592095c0200, 0x73eda753299d7d483339d80809a1d80553bda400e3109fa03e322de1f3575c01, 0x203a3e6d3ed5a05cb6f757e20, 0x73eda753299d7d483339d80809a1d80553bda40190d9913c29c22e52523f2401, 0xbd2bc6bad6af30a2df61fa00, 0x73eda753299d7d483339d80809a1d80553bda402bd5a66d8e9427c5368910c01, 0xe5cb70a6a6b0cedcefb3900, 0x73eda753299d7d483339d80809a1d80553bda402fe90acdeb0c7b01c7c285401],
    [0x73eda753299d7d483339d80809a1d80553bda402fffdf69e95543279a1305e01, 0xb6293facb54ba65d17180, 0x73eda753299d7d483339d80809a1d80553bda402ff69d82ec69e2fa571d86401, 0x490de033ee0a56b7ffeda00, 0x73eda753299d7d483339d80809a1d80553bda402e7b2125c82fab0a07dc73c01, 0x5cc89cd62a335cca88aaaf00, 0x73eda753299d7d483339d80809a1d80553bda401f8edc9806700852bad8ed401, 0x234bc2dda9440611c190b8e00, 0x73eda753299d7d483339d80809a1d80553bda3ff614a1ace2dc228fdc606e401, 0x48bbe369b3c2ab1da21fcae20, 0x73eda753299d7d483339d80809a1d80553bda3fea9923787ec03334a6aa5e401, 0x3175d497b16eea90e04808200, 0x73eda753299d7d483339d80809a1d80553bda40167e3be2f223a10a8f07e9c01, 0x8fe1ffd80e30738f92984900, 0x73eda753299d7d483339d80809a1d80553bda402e0f5de0ec5dc6573da6ad401, 0x316bb835ed531b99819d600],
    [0xa4bcad572df8ba116740, 0x73eda753299d7d483339d80809a1d80553bda402ffebd391e6313a6a113dfc01, 0xf224d37ef2f517944bb600, 0x73eda753299d7d483339d80809a1d80553bda402f889c63296db63aafc4c1401, 0x27babff3d1fc5c0313bb6d00, 0x73eda753299d7d483339d80809a1d80553bda402681706055098560a8a2ecc01, 0x1af3289b93fcad592095c0200, 0x73eda753299d7d483339d80809a1d80553bda3ff614a1ace2dc228fdc606e401, 0x5f2433a6405e0b665d73af120, 0x73eda753299d7d483339d80809a1d80553bda3fb867cbe69ff3847d407dcfc01, 0x72382d687bdb4059b1fb40e00, 0x73eda753299d7d483339d80809a1d80553bda3fde874477336730fb09374d401, 0x2a0c7b4649757edcde00de300, 0x73eda753299d7d483339d80809a1d80553bda402129cc0ba6f0ed2a36d814c01, 0x333c97b0a6496d94e4b6ba00, 0x73eda753299d7d483339d80809a1d80553bda402fae3ee8a20898151ee712401],
    [0x73eda753299d7d483339d80809a1d80553bda402fffd8efd723e2d2fdf8f5201, 0x1719a2f925d4b9454fea00, 0x73eda753299d7d483339d80809a1d80553bda402fed0184116bba65e94d7ec01, 0x951bb3f836dc36904a0e700, 0x73eda753299d7d483339d80809a1d80553bda402ce44af6d62c96105f0218401, 0xbe593143f0573baf2b56be00, 0x73eda753299d7d483339d80809a1d80553bda400e3109fa03e322de1f3575c01, 0x48bbe369b3c2ab1da21fcae20, 0x73eda753299d7d483339d80809a1d80553bda3fb867cbe69ff3847d407dcfc01, 0x967841fc8052a21709fefd200, 0x73eda753299d7d483339d80809a1d80553bda3fa02aeef08370a57c0664cac01, 0x66ad5ca5ad6c4d9859a2dd100, 0x73eda753299d7d483339d80809a1d80553bda3ffaf712eabf2b3b177e0cbe401, 0x12b9e60eb808cbabf2eec4600, 0x73eda753299d7d483339d80809a1d80553bda402bf4757d8299812a3f11c9c01, 0x6732de57dfce01abd4d7280],
    [0xc1f79fb95b266f6e8d00, 0x73eda753299d7d483339d80809a1d80553bda402ffe8787f32a37de1894d6c01, 0x11ece521d30d6111e94d700, 0x73eda753299d7d483339d80809a1d80553bda402f723bffd6a1032374c1c3401, 0x2f4c774bd6df5f8269695600, 0x73eda753299d7d483339d80809a1d80553bda4024abb97c6e4a15ec783289c01, 0x203a3e6d3ed5a05cb6f757e20, 0x73eda753299d7d483339d80809a1d80553bda3fea9923787ec03334a6aa5e401, 0x72382d687bdb4059b1fb40e00, 0x73eda753299d7d483339d80809a1d80553bda3fa02aeef08370a57c0664cac01, 0x89996394f13e0c5a5b3778100, 0x73eda753299d7d483339d80809a1d80553bda3fcdb2265f41543a54e44c1b401, 0x32d006af7ab91992b71eb0e00, 0x73eda753299d7d483339d80809a1d80553bda401e0ba7a951834dbd61d365c01, 0x3e1665364255adce32470280, 0x73eda753299d7d483339d80809a1d80553bda402f9cd3a2ced73a3bc5ebfe401],
    [0x73eda753299d7d483339d80809a1d80553bda402fffdd2d8f67f86a8594a6601, 0xf7f833772486f4460e700, 0x73eda753299d7d483339d80809a1d80553bda402ff330784d4f56428f09db401, 0x648d131760f5b7594457e00, 0x73eda753299d7d483339d80809a1d80553bda402de625425dac16d5c1c100c01, 0x80ef366d811e71e4ba6cae20, 0x73eda753299d7d483339d80809a1d80553bda40190d9913c29c22e52523f2401, 0x3175d497b16eea90e04808200, 0x73eda753299d7d483339d80809a1d80553bda3fde874477336730fb09374d401, 0x66ad5ca5ad6c4d9859a2dd100, 0x73eda753299d7d483339d80809a1d80553bda3fcdb2265f41543a54e44c1b401, 0x464812e7e3dd2cb27db840600, 0x73eda753299d7d483339d80809a1d80553bda400ba574ba563ca3c11c4ab6c01, 0xcda7de77747d1128e82d7280, 0x73eda753299d7d483339d80809a1d80553bda402d3844d0a79ad671ba5b5a401, 0x47032333842980f89106a00],
    [0x4634fec4d066430db980, 0x73eda753299d7d483339d80809a1d80553bda402fff66a69e5de7d40cadc6401, 0x6857b40d72e70ab6fc6600, 0x73eda753299d7d483339d80809a1d80553bda402fcc3d8ab2bf337789404ac01, 0x1148d5d05d211188e7fce220, 0x73eda753299d7d483339d80809a1d80553bda402bd9efdfd9a624c05c29b5401, 0xbd2bc6bad6af30a2df61fa00, 0x73eda753299d7d483339d80809a1d80553bda40167e3be2f223a10a8f07e9c01, 0x2a0c7b4649757edcde00de300, 0x73eda753299d7d483339d80809a1d80553bda3ffaf712eabf2b3b177e0cbe401, 0x32d006af7ab91992b71eb0e00, 0x73eda753299d7d483339d80809a1d80553bda400ba574ba563ca3c11c4ab6c01, 0x12d0f1f748b66bb7463afce80, 0x73eda753299d7d483339d80809a1d80553bda402957b2b9c21a2b4469fcd5401, 0x170c890785df674f713c8200, 0x73eda753299d7d483339d80809a1d80553bda402fdb1387c2532cd982139dc01],
    [0x73eda753299d7d483339d80809a1d80553bda402fffe436a11683ed67102aa01, 0x2c8df0730e19832b2be00, 0x73eda753299d7d483339d80809a1d80553bda402ffd9bdceb1f4b72c27251c01, 0x1225baca878e2edd102ee20, 0x73eda753299d7d483339d80809a1d80553bda402f9ea5f93f891e8f36db7f401, 0x175c7a5d53ac411548d34200, 0x73eda753299d7d483339d80809a1d80553bda402bd5a66d8e9427c5368910c01, 0x8fe1ffd80e30738f92984900, 0x73eda753299d7d483339d80809a1d80553bda402129cc0ba6f0ed2a36d814c01, 0x12b9e60eb808cbabf2eec4600, 0x73eda753299d7d483339d80809a1d80553bda401e0ba7a951834dbd61d365c01, 0xcda7de77747d1128e82d7280, 0x73eda753299d7d483339d80809a1d80553bda402957b2b9c21a2b4469fcd5401, 0x25b4aba7383653abf8422a00, 0x73eda753299d7d483339d80809a1d80553bda402f7d45dd5dddcd5731e6acc01, 0xd0c9c595475074a1f06b00],
    [0x5447c45171afa11b700, 0x73eda753299d7d483339d80809a1d80553bda402fffdc3116c4b2fa57aa2dc01, 0x7dd157c951a65b65f3e20, 0x73eda753299d7d483339d80809a1d80553bda402ffbff1d932af8f03f0c3a401, 0x14ec738edc14d5bfd500a00, 0x73eda753299d7d483339d80809a1d80553bda402faf683f1637155f788ba8c01, 0xe5cb70a6a6b0cedcefb3900, 0x73eda753299d7d483339d80809a1d80553bda402e0f5de0ec5dc6573da6ad401, 0x333c97b0a6496d94e4b6ba00, 0x73eda753299d7d483339d80809a1d80553bda402bf4757d8299812a3f11c9c01, 0x3e1665364255adce32470280, 0x73eda753299d7d483339d80809a1d80553bda402d3844d0a79ad671ba5b5a401, 0x170c890785df674f713c8200, 0x73eda753299d7d483339d80809a1d80553bda402f7d45dd5dddcd5731e6acc01, 0x1c4c4f60d54074bfd319b00, 0x73eda753299d7d483339d80809a1d80553bda402ffd11ad2e9bb93c268e15401],
    [0x73eda753299d7d483339d80809a1d80553bda402fffe5b7999f8106dbdf8be01, 0xf24e546a26d8ef2ee20, 0x73eda753299d7d483339d80809a1d80553bda402fffd947332f3e0010dd96401, 0x631486b35a8d33ca48200, 0x73eda753299d7d483339d80809a1d80553bda402ffdd1d87b2fae1760b497c01, 0x7ffd4b4eed4f28e1584900, 0x73eda753299d7d483339d80809a1d80553bda402fe90acdeb0c7b01c7c285401, 0x316bb835ed531b99819d600, 0x73eda753299d7d483339d80809a1d80553bda402fae3ee8a20898151ee712401, 0x6732de57dfce01abd4d7280, 0x73eda753299d7d483339d80809a1d80553bda402f9cd3a2ced73a3bc5ebfe401, 0x47032333842980f89106a00, 0x73eda753299d7d483339d80809a1d80553bda402fdb1387c2532cd982139dc01, 0xd0c9c595475074a1f06b00, 0x73eda753299d7d483339d80809a1d80553bda402ffd11ad2e9bb93c268e15401, 0x4868468a07139424fde00]]

/-- the tables have the sizes that the code reads and load without a panic -/
theorem sized16 : (opt16.sized 15 4 59 && opt16.below blsMod) = true := by decide +kernel

theorem ok16 : opt16.check blsMod 15 4 59 (opt16.plainC blsMod 15 (opt16.plainM 15)) (opt16.plainM 15) = true := by decide +kernel

theorem inv16 : invOk blsMod mInv16 15 opt16.m = true := by decide +kernel

end Verif.Poseidon.Bls
