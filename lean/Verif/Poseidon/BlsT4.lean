import Verif.Poseidon.Check
import Verif.Poseidon.Primes

/-!
# Poseidon over BLS12-381, 3 inputs (t = 4): the tables, copied verbatim, and their checks
-/
namespace Verif.Poseidon.Bls

set_option maxRecDepth 1000000

/-- starky/src/poseidon_bls12381_constants_opt.rs: C L163-252, M L2194-2219, P L4316-4341, S L6855-7248 -/
def opt4 : Table where
  cF := [
    [0x435dbb70fe9639bb3d2e7e1948b167bbcc7c29bed7d24e2ae783b7258c3b9b79, 0x307afe4a167ba0d1d93f60f15346bda015fa08615bc785bd204aee1741264d5, 0x5c0e30ebca2f181197c0f06e98379ea11ca0b657bf1dde1060041f9e959945d2, 0x181b9f96bd7efa33178ba5316e4441a392c2bb1e0d5437a8ff1613f5997cc4cf],
    [0x6fe39c6ecaea8586657b75662c5e492e5f8fe93574de5dd415dfaaebdc9f715d, 0x6b1668e31f7d14145db9be07402ba11df9d311b1a28dcba682f4b2f095c6c007, 0xd02ce3725cf72376d7179f35ea0e0e80192a2bb1c84eddfd42b5fa894395548, 0x1d93b58aba1918f0349f448d18f17680cda62644e38395e95cc8842ed20e17c4],
    [0x5fa8af477a130b1cb322f93bf4a1bf679fa21d492723c381b696d8584cabb8fb, 0x30845841af14dbe3b43726de5d486b223d58ae2edc85a41724d0411545e8c260, 0x314a34f1f34c3134952265e406b30b1244bf6d50b550b4737c70b1df502f87a0, 0x67a67e2c3f0476e8b08ebf2c6f9bae780265dee16fa3ed20330c3fce66e04c4a],
    [0x4238ea9d988f73ff7793efd3d0cac1231e696d11b391e56fdd03662c89b65bca, 0x2cbf4a1c51a6f16f7c5189b99a45cd804ef37b00ffaf79643c1c21227075ba07, 0x6c76ecb0ede88d01c88e786882617534a393703b91b23bbb57052eff7af1fb1c, 0xb6199a56124422a75d28ce0d4cf9dd74e7b8f8a9c4271fd7ffbbba76ca30625],
    [0x6eb0b743123059d6d2b69153bf0378d46b21da8e1145889286d367b6dc9b4f54, 0x4ae3ed21591776502323f84753921571cd84dada5084adfa848169d77055c78a, 0x3ce784b2e36e8a977bb2488fb427201d65e80ffb40bb3e0c6e1c4b2c578eddb9, 0x331ffb77f1adb3d562d79c08c75167d877060195ed366faee98df31006c20bb2]]
  cP := [0x68f2a8f5e2cc523dcf00bf0f7280ea5379d6d72b3334ac8f930327beb024ba3f, 0x27ac28537da25103454914cb7900451c92288ffd57936e5ecef6397dc941d167, 0x5a3944ece6e5b0f6aafe24b76d66d83058936e41e78a87620fea885bc8dff730, 0xbfb44defa099399cb39e4ffd73d75d1d32448240afbcb5a57b1680d5cb8bdf8, 0x1b5a1f50b24ef622d61130852043bb7fc9559dd5c3530b4bd4fd87c6def9e92a, 0x418761f09b0e237ef50a19f228607d071c2237e8920bc857980df645cf75fb56, 0x4b642f1a5dc2e228d6b4ec24a3417ad60f60e6219418a091a5a7ea6646de0cae, 0x583157005eff67aa73864dda76855297adbdd510f9c0a02da114b8dcc2170a3c, 0x24531ba104c853bfa4f6a62576ec4e2e18daaed317b1065a6e275e6b34cea906, 0x3a362e99f6bf2ca20b1dedd7a5c7e089efc35a42221d302ff8674666a1fb9ce4, 0x1b97f53f24940e5c122f09c84ff5981ef0d8b04c3e71834c9f57810cc323609a, 0x6596727615aa3a610b2bd3a14ed74163f7bec13d0b5e306149ddd6d6c7479a1f, 0x18831ce0b4aa85276caa92c080323269e5c9290b44f9c6b95e7d50de927ce5e9, 0x4a8b0567c29b53eb2022087daf5dd2cb91d3263b64cf1c6224760ef30606f3b2, 0x2e1527136d3e97bceff638baa2d4bcf646af64aa571a2b73634228d37922f749, 0x51c63d186880e5108e8ffece5a18802c92815c3f7f2e435bea9059398351bc2d, 0x2bf398a54db358178f6be13a31a90b202483202240f3127dd33d96b095cf83f7, 0x6208579aab809373822c49086fa0e37b23600d8581946b4a2107e5c88b0e2bd3, 0x1fabf152e6b7e9cc580dd25c5d847e83467b6a44f250fb1d11c7e37c47c353d8, 0x442acbf3455528a31b3d091ad20c94178ba5ded37ae4a045149efeb83249367e, 0x41d8edfbc93585db3a310aa376ec19be818afdff38ae7e35880df5490deafd6a, 0x654808362687a47f7632037e2528a6835e0c29c33fc60dd3f09a0802e96f7f12, 0x32a95630d488e97d94a4a3ded0e40a3c1d31131875b3ecc60af8d217914f0a5f, 0x4fddc9f99b5c26107cf01970e685342b935506890daaea6416f09d214b2f7eea, 0x1d48599d0e7a8cf0e6781f46a34b7b734d86c85a4cb53ffe98f5b6d6ef9b03d3, 0x63360bddf5f6cf46f3e46ead171370e66682369c5dd572c19d5536aabe1f6653, 0x255e84a64b6b321c21f4470ea3e23721bb92292c0ae4c7d62aae180b3c173a38, 0x2050646def3d9f320529f757e16b11485ed811b2bf9a62fb4f6e50494ca0c4df, 0x3a4d15a80b68be202fd8dfac697572a89daacb9a18a644ec8fadea608dc3e335, 0x3850b67ab1867584ad6054f65718d64b8a353b939b71da870627220ebb6c07d9, 0x16061be2f7925b74d7f85af98e10440833f4f393f70fe1a66c5ce2965b288db3, 0x4ddc2998b4f7a7ba4eac67f8c45d62adc83dae828e5304d5f82b29c12f6c2d37, 0x717c9971d7517418e37f782f558c879f029b744c7cbc4057a79b4529eb7f6ab6, 0x46cc90ca82726238933c52b6842a266241400d86bfee5cceaeb93c054c797cfe, 0x49dd93afd698e4aa97541ea6976e783948daa5acf3312c4f27a1b4e90c9c2e07, 0x5fb8cc294ab7209dc0caf67a8cee5d4d2f2a595e3d5fdd2ea6268c170c015862, 0xfaea20ffe2bd8ffb43b7cf09c01c030276444cc9788cf23dd2a5ecadff4b9be, 0x26a593a5b7de9eec7aa57a71280c67959ae764f85c49625a299fd1bb1ae00edf, 0x58124e8866dbfbcd13201ba7c9e859483d232bc9d61d8a7f37eaa8bf778de4b, 0x3f079b1c7dba39a9303e60e386814b657627be77eda2a10bb8dbb3e738b553c4, 0x4e48506c52301daab568f0a126edcdc597a7f3f5c288af1efcbc75bdc28fff0f, 0x7f85b910c830517909ec3f3037748ed66940e8fca788c9e651db143033d5a93, 0x6f80c0c181d1eaf627d5072e04cfbfda49e6e75b933851bf134e4a16e889aa71, 0x15d9b7cce310aa1d9d79b77a8671cea7bc8ece2bb4b41a5275ec56877e495a78, 0x677a93ec781444ec1f04f5d2ee91cfa5e1e5170ad0fa1630e32442e80610bded, 0x2e54820ee6c9c04f95f01a46a84739759fef8a8f1be50bbaa06fb7b4c218fb88, 0x2a461b03f3d17f3c581d316d01a2c2b147d512f252b0794e3489e48c6c12027a, 0x45b7bfd7c23c2aa42d23071b20e4db25c1c2118687a65ccb500662e4bdd5d89f, 0x5e86ec66332773fb02612f2b4a1874bcc3f55ce4d40628e8be30a759457697e7, 0x3beee892247297655655babffe9ee89d1311826481f5b994af04411a054cc69b, 0x65e9fd45718fe2ce0397d33db7da72740ca918be35211f0736cf2737191dd04a, 0x3621e7cd802935baf348a9dd63f8c2b0c236f2abfd7543096cc6b4ccf8705324, 0x245071b77abad21dab2f4e0c8f65ab698bda540b10c542e40d3ad297aee87751, 0x20b3788b1c8829d3d03379430dc04c9b49dbe8314c666521ae502f1ef39c15ad, 0x1d1e309f746a4656695f58c9118751a62d8ae694ab44e045cdfeb05280cd27ee, 0x4a3337388dfae5ffc905a0e7771bdf1103671e98d41fdd3a1936f0255d70ef81]
  cL := [
    [0x4b6b7146995bfaf8a1c62ec74434c4ff9e1a24241c0484fd507a628e06f4d61b, 0x5a76a5da1ac07ad616cb26866ff5adb13453f782f493f22c16738ba4879ccbf8, 0x4673335181f1f96a6afdd31b052e1c74e8e18f72949237c3357d9388cace7172, 0x6cecd3ea4edc8e1f7b932964729e2a6b26bcecf01f0d21f77f68334b0e8b5a6a],
    [0x20fb07c195db37e7f86c933fcffedc9997640ba2097f616374d4560baa29211b, 0x31c2c2aca873bb1356d7b9862d7731ec5793ace44c4219ad729f33012e5747d9, 0x43f899738b8a0abe5f192d12f86231a486346691e0aa3b4967b9099df59080b9, 0x1e417e03d09c222b9853750af9a31a569d95cb2f90a8a8fa70657ff88314ed70],
    [0x1c3ab877d8a00fe0392b0f7154db6a9fc18c612d1991e8319444454e845af4d8, 0x55105fb58446692d16dd133fe2cf93ea3f62abb25f66878cf193005335d63660, 0x81686a0ee648aa2dd4ae33dfaac1d8fe86fc0180986b7799cbcc5547810ddd1, 0x4d444133b94aeb496c6f7c82764be69fe40fdf3056cf46c0eb37670f98394041]]
  m := [
    [0x56f23d7e5f361df6266b620607396203fece3b023ffec4ff3fffffff40000001, 0x458e97984c2b4b2b51ef819e6c2de803323e959b66656a65cccccccc33333334, 0x609b60c54d5893118005895c0806deaf1b1e08ad2aa94ca9d555555480000001, 0x211f5460e751918257c7624b7077624aaa362edc49241a48db6db6db24924925],
    [0x458e97984c2b4b2b51ef819e6c2de803323e959b66656a65cccccccc33333334, 0x609b60c54d5893118005895c0806deaf1b1e08ad2aa94ca9d555555480000001, 0x211f5460e751918257c7624b7077624aaa362edc49241a48db6db6db24924925, 0x656ff268c469cd9f2cd29d07086d9d04a945ef829ffe907f1fffffff20000001],
    [0x609b60c54d5893118005895c0806deaf1b1e08ad2aa94ca9d555555480000001, 0x211f5460e751918257c7624b7077624aaa362edc49241a48db6db6db24924925, 0x656ff268c469cd9f2cd29d07086d9d04a945ef829ffe907f1fffffff20000001, 0x19c308bd25b13848eef068e557794c72f62a247271c6bf1c38e38e38aaaaaaab],
    [0x211f5460e751918257c7624b7077624aaa362edc49241a48db6db6db24924925, 0x656ff268c469cd9f2cd29d07086d9d04a945ef829ffe907f1fffffff20000001, 0x19c308bd25b13848eef068e557794c72f62a247271c6bf1c38e38e38aaaaaaab, 0x22c74bcc2615a595a8f7c0cf3616f401991f4acdb332b532e66666661999999a]]
  p := [
    [0x56f23d7e5f361df6266b620607396203fece3b023ffec4ff3fffffff40000001, 0x4686ec0826b52599fb719b8a5ffbd967cd0e46016c8659789cfd435800c823f2, 0x4912b21fe016a1fddf2b1f42d4665f69ec45d77f1e4d5088d7cfff1b6635ffdc, 0x69fbeffa6c290cfe88c76c464715c779a8cf807695c2ce5cda01f7243af0450c],
    [0x458e97984c2b4b2b51ef819e6c2de803323e959b66656a65cccccccc33333334, 0x59c4248a04d8de9918d14a6f9f71bda542337b0d83ad6ee258184f5e691da933, 0x64ff3e0d57d822533c1dc033bebe31151d3ce185420cc74d3f53b5ec019240a7, 0x4969142a5043ff264633e380d5bb9e4f28e06319ed0a9ba77713a081f4c833d],
    [0x609b60c54d5893118005895c0806deaf1b1e08ad2aa94ca9d555555480000001, 0x64ff3e0d57d822533c1dc033bebe31151d3ce185420cc74d3f53b5ec019240a7, 0x236cee3d97ff7c36b156089a3ab1e376271dbcb32c40384400ec9bed05f768ea, 0x32eae99f661e70b59af49997c2fef599a0b5381213f4d238ac7ebff4e6020609],
    [0x211f5460e751918257c7624b7077624aaa362edc49241a48db6db6db24924925, 0x4969142a5043ff264633e380d5bb9e4f28e06319ed0a9ba77713a081f4c833d, 0x32eae99f661e70b59af49997c2fef599a0b5381213f4d238ac7ebff4e6020609, 0x173742aab932f5396869d496d2886def898584226a74144dfa12a16af30e24cf]]
  s := [
    [0x56f23d7e5f361df6266b620607396203fece3b023ffec4ff3fffffff40000001, 0x6ce6dd044a7fd004734d89e2d985d36fa7089579b7866fdad93a1b62d182197f, 0x3426469e9461f8fcbcaa9d43c3f0a0c7c11e79ccee784873d977c5765879fac5, 0x3110266eae08b8a684744724174902b33c5324ec5160013af1e53adb0314f71d, 0x5dc7992c02055ce501e1d0e237d0ba8a8ed5a89d0e3104d993ea10c16d9225bc, 0x51c97bfa5896bccf9513a5bc5e072cabe624947cc769e335a49cc486ffbec9f0, 0xe7b6537c4891de2fdd4cfedfdb4ed1fb3b85704550334b17ef2a9e9bd980674],
    [0x56f23d7e5f361df6266b620607396203fece3b023ffec4ff3fffffff40000001, 0x21cda2e836967051cee10e01dbb5754298d8229e64bb2e070aa6afbfc852df58, 0x53e1b04bb2fac31551b49ddcfc4c0bdde685e3957359d3196558de8fade735d0, 0x406a5c4b71ec06e2a8049b50583f4457f94d4b81d21a8306e59b76d71d6aaf6, 0x52efee61500a4bd8a4db616fa096b77c7c425ce7f56240ebd7a768582e72e8, 0x398c549ac0394dd79bae9fd1d323eb572a3ba8257d77de7ffabb54fdaa53460f, 0x5d5a8b12c6500e5074383a9ba5c7eeb04b15870ddda7f5569ba408c503928db9],
    [0x56f23d7e5f361df6266b620607396203fece3b023ffec4ff3fffffff40000001, 0x664e67237334a19f1291bbeea11b522b2a36842a77309177d7f3b0f6c6efc555, 0x5d0c104b3c7ba8b2da52a7d96c8fc37c3518fd3a2dc180ba2a327a113b72e0be, 0x39be4af0b435c593991e42517af9d2e663117c395f29d0121f730f42dc0378af, 0x2e176f825c36e305c111659ee131592dd5195017a5beefeacb574615f6ba6128, 0x98e5ade7abf5df9ae839d648474e2ed9a6e20832be7904face753c0bb7bb2, 0x5a24faa3ba99ea0b92e7eb44f67585d79dc6b3fbc090951be85eb0dcd92ae9df],
    [0x56f23d7e5f361df6266b620607396203fece3b023ffec4ff3fffffff40000001, 0x7389799f0fe1f2495c735b9054052daa14da96864add31c27285d3e283a06d09, 0x45012e0f79987b2e872464927de76a80b4f9933ed00c668b9d75e833a2644cce, 0x230506238fbd07b77b872b1bb6f655d0ea91cafae9966bed3f459ecf379b7032, 0x6a1ed541fdf34f22e4f554075705ae171b9dfa1e994f9609e64cb670416f07b8, 0x62652922ff123b6e4e2e729cb71a12e6628f81ace2a8f75b40dbfe64fbe66a4c, 0x5cb48ac002277773b11c59ef7946965feafef9b5d86b112a32de949aa037aa0c],
    [0x56f23d7e5f361df6266b620607396203fece3b023ffec4ff3fffffff40000001, 0x286454d0c8765941ea89b77ea39fae692a4d375a53964b6ee6d2e60d110a35d6, 0x415d52df50846140e7911a09fd3f9568e33fea4285c3a2588c16cc6e4937c627, 0x48f2dc1a67c065970f0accbe6a745e6bb1c9d355a3355adc4a67a2be2fe13afc, 0x6fcea9058afcce544bc75db22de9b965eb968b811bb8b263f8a1d47ce5000b, 0x4afc6072d4ba27ec36e677e94eb826a6e40eebf10b8cea67f53613599cf43c55, 0x1c7866168c0267084049c15bad8a77d5011828cb29904f21a10d272b37a9af93],
    [0x56f23d7e5f361df6266b620607396203fece3b023ffec4ff3fffffff40000001, 0x26fd465c1737879ef94ac6600de708b1a7b50aeb3d0f47c9c9e1135134cef752, 0x2a0ec4b42c3510adc2deb5f40b2001f9c836e11c3461cad2b52a7626a4b74c18, 0x3096b2f0bde4ea1bfc1cf7832577a7fba8189cf3766e29105325d63bada18d50, 0x22c5f8ba5f5f75ec034eb00f4f41f731ab00b35fe29d27c8c9f7f344a6c71e36, 0x400fb53bd7164b15e5fa22b598aad223c924b8647f5c597c6b653c1b7dd651f3, 0x15ed2de8320cea135a34afca0ad7d841d55cb5b60c33057e1dd5ff7d1772b75d],
    [0x56f23d7e5f361df6266b620607396203fece3b023ffec4ff3fffffff40000001, 0x232428624c7023936ab2113ccb7d58a308c42e8d2508b82ac5ebbc9752fd106c, 0x4cf341fa3de62d8a2f42f595dddae2c48f86cb24cd302306ad7c758544c25d90, 0x4b970afd1896d92348598ff5a28f54789ab45819c1d35ed601c4a2d4987cf859, 0x503f42e88ae8c1ab6f723423ad2f1de86b405a86664e6809d45ed1972fe207ec, 0x505af83b2da2f6d28a88542c84b3a918c793e798c373bc6bcc493288f428c8e0, 0x4450a28222084a2eb1e6956c990c8b160db7c0d9f645bb136fb092148a0187a6],
    [0x56f23d7e5f361df6266b620607396203fece3b023ffec4ff3fffffff40000001, 0x1c5e60b54104ab5694c747ffe9e8f77d47c02b19f59e2687632269254ab716c4, 0x29706d5a335c237c51009fa3295867fc1332d31a93f76076701ff8acfa380c2d, 0x713e8da610a0c2062e2e8798aac276b20215836e9e7326e1cce77e27f5e26ff4, 0x650e20bcb64add1aa8ac4c412f55dd2845c1681b7b1b9a8222115ee8cf6c1952, 0x59c3613a8f6b122bace574c594f32e68e4717ffd4a21621ec5a4f85bf22220a5, 0x3358419aa301cde0d76f482db81babaa1d497a20e445acd656b5231d0ca24170],
    [0x56f23d7e5f361df6266b620607396203fece3b023ffec4ff3fffffff40000001, 0x160b1820eba46190014d5c53544af59b3496397bf97ff0c6c7de18a0e5ca7201, 0x23d8a591f07f546d75e29f538667d01183350daa8abe8e3914f9ffad7da70506, 0x7e1cd2347c797b374b172b1a5db45bc39b11f464b13d2c1902f5bca331033a9, 0x68c47c4cb3bcb4fbddd7c8650324d77217aae2d68f284369e18de7d1ad67497e, 0x3dd4fc5b37e3e97658226172fe22542b9ddee339562578b42822b8347b9346b0, 0x17f70f4a90264f8041460eeff3969151a2f76891f48471c723a6144106f1cea0],
    [0x56f23d7e5f361df6266b620607396203fece3b023ffec4ff3fffffff40000001, 0x1f2bec92a9851ec85855bddf394867ff8c13a79c760687c457dad72698895721, 0x14ed2f9817d797c91ac5dd6047290215770ab1c2f83f6cd04c25c3848e149d42, 0x32ffea18777e835f183aa464357d915b3bbf02ef93f9bb84a905851bf1ecc5c1, 0x2d1abe887c8079bf4b9748cb66b993aacd7ea716fc78bf7ee78a1ada6ff856be, 0x2892b1795159ebcda49870085f26cfe06b299a1cf6f5f3254a8ac087003734d4, 0x503991e3fa3a1383ba3211e22a44c52d1130807c3f2fb806f03d1a2ad5b015ca],
    [0x56f23d7e5f361df6266b620607396203fece3b023ffec4ff3fffffff40000001, 0x1e6e4d106caca587b3722fdf0f87046c13aa73c50cadb665c88d9b1827639f3b, 0xf09230b50eb56acee9853f3a97f9df78720afb69bc30d7fba1e8060c98aeae7, 0x395ef2c76c7f2ea31690be67b9aa18afb37c6308c5385ce3aabeae4870612e02, 0x36f35171ab43b6e88ccdb4157f1bb6c316eef1d050f061cefa114f01babd2c84, 0x24893f0387af0ada2ba7b60740b60475444c7e6871e6b9298055cc733e99ff19, 0x2409af5af4b84c85432a54a19ea69791e1b2b6f4942b6d2f8cfc46e19490633a],
    [0x56f23d7e5f361df6266b620607396203fece3b023ffec4ff3fffffff40000001, 0x1acfe09a00747fcb7171d8407aa93db99f21e5c7034d668eccc920732e5b435f, 0x57d111d904c2441f4cfaff59baeb56120ebca9a2165d81c0cdff83b97d15919b, 0x1d91204c3e0efbccb7c0c989005511cc7e30ea222f2562a4b922780e757d129b, 0x4b1145c1213990a28f39390e50b1700588c30e8412b3157da21cb323afaee211, 0x346f85f33a5f6def5cf032e999d9e8141ed49a488a3a9f65451337f7b762a812, 0x45cfecc701531c2cc82c3e2a08f7cd8f2df895db9fda5839ce05187bd0f0fcb6],
    [0x56f23d7e5f361df6266b620607396203fece3b023ffec4ff3fffffff40000001, 0x5a679fda4aacacdf2f1952d39e1f17a15414278a97595fa5cf14ff9c9d9d5abd, 0x2180f1fd8b0e41d110fe04b783181df43444b8a42060c6d27ad03f648aee647f, 0x61537db788a92bc3abe1b16812c01e11c5bfbb4724796c779c182f707438e5f, 0x389fb124bf8b5cb62304a7f6129147031314a02ffe5e82de09c247e4849b7c41, 0x5ff7f5ea23d503bf4c4f3b5e88bbc3757a20371c9ab78a679a5d39f25b876ebc, 0x2274a17e4056bedfdddbba4273eba0e5beb22c4854afcf76780a4c613349ec4b],
    [0x56f23d7e5f361df6266b620607396203fece3b023ffec4ff3fffffff40000001, 0x52074a8d0b8517e0d76ca143086d0282d4a02fb2e1771605eae5a0fa9fc94c3b, 0x6283bd890d894e10739003d9b672e66822cf181ffa2bddf11d82c93612d93eae, 0xe057aaa1ddc70416467a42f8f1d57617863eb5f84c9e80679654ad8e32766e1, 0x1284401e9b08b66bf169b4fd9290d429a0d7f66f6d3309e18d168cb588e51395, 0x13a64201b9d805745a5b6d73ed3581ce0ad66b83123df178b4379818c5bf3c2f, 0x3a0f5ff58712376e430861911f07f49c7da039a1eb0074180d225bcfa4b78321],
    [0x56f23d7e5f361df6266b620607396203fece3b023ffec4ff3fffffff40000001, 0x6b9d903d338b3caf560a70a118f9a3463f660fb724c0e4f1a8a302b476ea717, 0x1af880b18dc1158bd3661b1043f66c7ce2e0ab85a927d4af7031bd8b48c56eeb, 0x5dc4d5a15e0e159237a7e6115ee21a7729fb38c6ba969678021d2fd402d3d18a, 0x2ab0a2a72a0f1d887ef99d63d4ab4708c949ead79058b5381a2e4ae330c481f1, 0x113408f5c35bdda3981c999e8023fb6c9dcdc2e1590365c4d432052813ad186f, 0x15de500a352fba867fbb2b71ee954cc2e52ce7a24f98c1b05349b2c9e37528cf],
    [0x56f23d7e5f361df6266b620607396203fece3b023ffec4ff3fffffff40000001, 0x64e190dcd9d004d051baa402ddf7989e1939e5580594c292ff61c914e2d85cbf, 0x6b72974922bb2889b84e459c97273f73c50ec49ee2d59d011108e25c92996b3e, 0x734bb442e7d8fbd4f87a70ad4d7e8adc7fbab769c63969d4971b2420ac51d6e1, 0x25df3102391086cd35b352ff87632c756f6b56941d4d63256f94485683ee4b45, 0x4ab289dd50df33a5c49df935d0795e7814cb9855b9a536a0e4fd7b75e5f52cd2, 0x166a1cb77052cf5b23113c76b8375f28458a68393bcefb436f8a682b70b166b],
    [0x56f23d7e5f361df6266b620607396203fece3b023ffec4ff3fffffff40000001, 0x22d8241e71458bae47ec1f072040996d87d90d36dba339410a8d572114dc9697, 0x4779b34bd2f3079de5d8cbacee897e785ea9280e8269b4a7eab42096ffc862c9, 0x33db832f57aaffb26c06a210453ee1dc60dd2f174974d35c3d03d5e6127fa74f, 0xe289d4a8583e2e8a35f535459fd762c141accfb6bab2f7fda9cdf1e398f714e, 0x6dc9ce18cba61e027813b1fda68ddc619ad43dea549006b7d42688f08cd4f889, 0x30375c36b0c9ab350d90f13da64208b2f22215b0bd4555f9052b27617ae44584],
    [0x56f23d7e5f361df6266b620607396203fece3b023ffec4ff3fffffff40000001, 0x6f8448e4eb2a53f527c14898f474d3d6e5e814e43d5dbe50a34bac63443c03bf, 0x6e12143d95c1cce9851c7345d22328488a48babf56d1c1894621fd9e19537168, 0x780122b39b6e1168285326c81c94dbf9404c810f09481552a0832d5f6361216, 0x376155386aa6cfdd24874c78ccd9039c1d0b75bf0a489f1088203ddf8207b059, 0xfb46abf32dcacddf67069a0bb6556d76c5b3da07c8c9c00d0fd89fe1cfdd0d8, 0x260ab515bf11d48c6a3bb63f0261745e166dc06ecd7c4be7b6a66a43b4d54f1b],
    [0x56f23d7e5f361df6266b620607396203fece3b023ffec4ff3fffffff40000001, 0x16d3bf624d0ed25c2784104b990050f7d7698a2aca097888c158968e2c3e349c, 0x71544062829c7b270bf338b0e23c83b2a2f64c4fd985298e91f89aed51ebce2f, 0x19f42067cc594f9dcbc32e754e2e89327aeb19a53c934f812562ad913efc9491, 0x255dca3ddf7ba6320d047cdfb36ff414c1467751550d2c0d672aefa0afc48ea7, 0x3f2b88710c62bb1dbb227018ea2eaddd467003d2e8623d14b22771be4fb54add, 0x1c71c797a7dc76e69725ba6b5fc68e040bf46c9345043a75a2b3fcbc8dd5f51b],
    [0x56f23d7e5f361df6266b620607396203fece3b023ffec4ff3fffffff40000001, 0x1ed442c4af946548d14ed8abea517e1426e326bb32fc3dcbffd884ebb0489439, 0x1f1f25d4c19a7a5b12cf65c50af5c7097df18b5b9f4a571091015caaa7d02415, 0x3dd605cbb25860b0f51b4d86e485009d71d97d1e74a25b8b56cae00e32cc4d0e, 0x6fadd351082531f1303a454d9c72c8a6ed52bfe3c07d45bdc0745c0f1c1a444d, 0x3dba402ef7a5dad08992f72305c899b8b35cb3a1537c06e1219a7483b572e0e0, 0x28d649561d70699dc2ad4083cd4548172e03db4c4859b854e191ead50f65c3d1],
    [0x56f23d7e5f361df6266b620607396203fece3b023ffec4ff3fffffff40000001, 0x157435b582fc6cd35e6bad3317d03dcf71506b4a1b8bf1a808ae6704728f8f1c, 0x2dc1da8ef425080b3b4a47b599b294ba0338994752d1ba39193522a3ff7c9c27, 0x41fc27d2c8504db762b6b5a5c18b020e9e7777e5fbe90f959f2bf2bcc4844611, 0x73ced13846442bf02dd0ffeb07b4290985732a2df7fb62d2f5392d46a3e45ff7, 0x4028af714a172e8fb8f90b65a193ba65cd3f3699eac9f9eec048945ce96bcd38, 0x560e2d4cb28857ff0fae6b729b2956b41f30c221d18b9bf9a3f780a950dd4a2f],
    [0x56f23d7e5f361df6266b620607396203fece3b023ffec4ff3fffffff40000001, 0xee9082c120885768f363f019af98a2363235980e9d0f153d8f1c538f027f9f7, 0x5d2bf51c87363aaea1eac80581405c81299ad73cc3ab95a1e550a151104babb0, 0x1b3ecc53d316cc02d4714162c9e6a514eb3a9a85acf268a2609a68ffdacdba9a, 0x4bb10b6ad72c5ed96ecd9b891907f0cc7a8b706b1dd945aeba4d622a65b97278, 0x169902da6eaaac16d7a47c8e2da85d4efed65e5a166c44a1f9b21f93897d62c4, 0x20613c1fd6a303b0a9a8b65c09d7c9ca2e7d121cf860e5bf3eaf0c66c99c7019],
    [0x56f23d7e5f361df6266b620607396203fece3b023ffec4ff3fffffff40000001, 0x61ddda209db55c611a079bbf0c113f44acb1bc7701addb6363471d6b3b09aa47, 0x4d87333c32821a4ff2803bf3a8e2bb2c99df345bb4b16f785622da7adeb02ff0, 0x6d4b238a14587b86838a3476ebfc273f9a346865f6bf1c4ebcd5e8fc188e1113, 0x55711c912251b5bdb05168f003620a6770f920cfc510c054efe16679eeb073f, 0x5d89255dba5049630ee8eb1d4e4e373997eeed06cccd38eaf36d64bdade5cc0c, 0x10c2a8a35299eb19a0569e53e58114ccb720e14bf14988358fd837314a057c4e],
    [0x56f23d7e5f361df6266b620607396203fece3b023ffec4ff3fffffff40000001, 0x1beff286a6f4ba85c6f6b3b221369348673c53ad5769d3b7e6bddb2492d11c38, 0x51d1a95f932c674a92b050aa2729c6b584df41f630b768bc7302ba6a0989baa1, 0x3748dbc697b5bb56cd34d68f68d8effd8387836272a62e5c7cc66b6da9b08096, 0xeb2602d0a134549d959b1cf6ef12ed701792302bdd288db7521743f66baef12, 0x72150eb4799f90328198efe39fc36fbf41dd65d907cabeee6f9a5310acf07a9e, 0x3274744511f8df522459b5ac05afc641c867125e8b72718fab23335f1de6f14],
    [0x56f23d7e5f361df6266b620607396203fece3b023ffec4ff3fffffff40000001, 0x28dc141e0f46438cfc326dbd1f1da127363b0998b7acf3c2b0e2b0f521741b9, 0x1dcab536ef405f7413e2d7d5a757e036860dad178b8184abc4d2869b89053d75, 0x4ff0a82cbaf183b88cebe540c70ef0dad57b92d833448cde98f190e407efb6e7, 0x46ff6e28d6732ac7f3f6fcebf5004542f1432549ea6974bc695b5ec4f907b33e, 0x3c695673b1e39185a7af58f055a5a8356d031debbaafa6f17f199258b59c7184, 0x71f5da69a0d604278685a06a0d0ccd96cd598217d4799c38c843d1b263638df1],
    [0x56f23d7e5f361df6266b620607396203fece3b023ffec4ff3fffffff40000001, 0x622b8c3450d24f2212d5cb4660cfde11ac9e694f7932edee6ecad29c2cea3544, 0x5234bcaf8caf067fe6cc5b059972642902d896f94b907f73279ecca94a6f5fcf, 0x392a61cae5456a0baa0318fe45723a7d5628083661016be725e1e8fc21a09de, 0x13fbfdce4071ee82228e39d99c4433a63503c8be272fb3dd89732f8ae1819b9f, 0x45c24b69546f5516507493d4c58c82038cc2c1d2464de95761afe5fbe8209198, 0x2a0fcca6bbe6b4a41329cb14df36d522980d5119aa26a7989dd9e0b3db6b91c0],
    [0x56f23d7e5f361df6266b620607396203fece3b023ffec4ff3fffffff40000001, 0x65b27fe60b8564f1fa3c65008a333b8125111eaacbbfa16acafe28ba68dbb953, 0x72a22d16745778f79d8a91f6d199d645090e3f2e3c71b9c9699d5065560caf9b, 0x33638070be55e239f8e868ee7c22b920059c39ae8ff908880e0b2a2a7f29690c, 0x158bcdfc1ea8b9c8bbffa67529705170faf11425d8dd965e778a8a326b54782d, 0x5b62cd76844a867ef0c0f7d7549cbcc2bc6bd10f3ba8d5c8f87fa45a847b1e16, 0x25bf0d1c3b43bdd0919b3f847bdbf38c34d533647ed2033f6ba439019c64dd66],
    [0x56f23d7e5f361df6266b620607396203fece3b023ffec4ff3fffffff40000001, 0x53e99acb21ce0803c9b278e8cb35d80e8fb16c35767ded5dac9483bb9e6d220f, 0x463843cbce12614546ea2212c1bee904d8ad5e04466f6c8a0938b48d3c2eb809, 0x458d89b9ad41290333c80769f3f2ca027eca8d6fcbbc3b1543ab412c29c8d69b, 0x42246896a1b27e736d67ed8e81199038786e00170069a0a1cc4908daf97cefc8, 0x59c1f8bd46f62862818ad58c7eb35452bfd0010b0c419811810e2d2d6821ea97, 0x5c01c908e8053e1270f2ac093c523899e873b5fa261355d64938122229442044],
    [0x56f23d7e5f361df6266b620607396203fece3b023ffec4ff3fffffff40000001, 0x29ae7b8d60857c875f53879d7098431314d9c2687d5f5ae76faea415d7768a08, 0x27c38de787278d476ee35fad1b72e6eea7df9444a1a3671cd6a8bac9a5d871af, 0x6c01aa0fc0337403db31e3325c6c06de96c3a80091681594a30d8bc0e45b89e7, 0x3bb17312f9402d816c44e248a1aac707715d4fd6e036577020039458b902770a, 0x4e30c92a37d0db42a4b4f051464da002a542d48840ef41a66bdd01afaa81dd26, 0x11ebefbf1ef89fcd876a039e93b243bf782e2cdc8e28bbee66fdc8465b808d72],
    [0x56f23d7e5f361df6266b620607396203fece3b023ffec4ff3fffffff40000001, 0x1f9ffd578d86062f8134160bba9631245ffd92cf37f4138e8b56168014a4f57, 0x34234810fc7e4de0aae6a1ceabe5170ae2e52740f5c30a4fd9db3a40bea97655, 0xb69938f09a4bb6ea69dcb7491cb868d0ee38b6593ba6399bdf0551b6f92dd74, 0x33a329cfdf2ecb180f44a8c65687f925d0644d29c3501b5d2db87df5418b34a8, 0x677a5616bdcbab19fd6e65dbcbabf7129c7c7ca7292e2881313c4e6ebb31b80a, 0x66bdd72b229e54f72e8e2e4cc62bb0df09e067724822048b1d2ade2669fcb826],
    [0x56f23d7e5f361df6266b620607396203fece3b023ffec4ff3fffffff40000001, 0x93448e71f831424844d36df43f66625789ba152cd6552b2c6cad3f4debb8600, 0x2123b264879865649b790d0d335715d0399e692d45384faa16a8e84d97b73a5a, 0x27b4ab6012d289e1cf9c0a64e0d1190150fcde4e9772c7613682cc398080d94d, 0x307d534ee9da30495e73253613127bb7c5038b633abe94351680e11f5fcde082, 0x1aada4450d22377bd179245fb8a45385dfd66891c5b709d882ca548d7f94d1f1, 0x29efd23dc9786586c39c259ad57017c490ae43ba88b578277d556f11a5787dc6],
    [0x56f23d7e5f361df6266b620607396203fece3b023ffec4ff3fffffff40000001, 0x36b45fe62c1ae5de0bb512a77b84b7831b3132718092daae0fc1242254006480, 0x733775f7a3f6713a351871fcb159ea2e04e4bfa698d92828f27e9715b76926e7, 0x4557f73af6b56a8212bf39743188a8e74454938e23b5028c0b7c0b9225a359c4, 0x55f61af059ff3a8eb7ab0f010ae4481b01c1a5b4a0a12704eb058b50bd7fd132, 0x57d1e357f390631be66012add50a0afcf289014f36959032c5cf626c81f6b83e, 0x1cdac7c2181fdd16ed9847b26d6d0a1f67e0474b5384d38d58c896a24185785],
    [0x56f23d7e5f361df6266b620607396203fece3b023ffec4ff3fffffff40000001, 0x3590f8944db0fec6915ea4acd432118975a24b7869a1a912accc72628b61fb6f, 0x215f42fdb055e7b284ce4dfb02f02b18f09cd268392fdea5635cc0f3c38d9287, 0x43cb1249f9827b8830c8dc93668bbf0324fea6cdd888cd8fc74e5897cebb5b49, 0x38757e085396a6835d29b0ea1faef31bcd8167ddf95964085d2f556131fb2a9e, 0x31e5ccb773bb689a80b4f56e9304ab623bd5366fb4f87706e0ebce753caaebfe, 0x3507b993035afe7b9f4b393b2a5df24403a4e75e1a895f24dadfbfcbd1bb8c29],
    [0x56f23d7e5f361df6266b620607396203fece3b023ffec4ff3fffffff40000001, 0x369a059efeaf48b8337070e1871bafad1e389fa831cacde4d0191e45f1945b03, 0x9ecfdc410d7fecc31cbb6efead0ad931d731572d360bab49abe3455e0c95638, 0x3ab95f53363be82b9d23be959a55b66c38a81be878247c486b5384c5deab287c, 0x5fdaf84c94e11d6a28c0df9a53c44a9961d7c5449ad1072a5f7db3ab85a38e6a, 0x52cb0624d1b0f812e2bb2677dc4fa85c5d59f12b7669e9faee9d1427a2ab2757, 0x2e8577dc6116a7d1b11bc33aff33cf3491eb35099a01abcd35c7fe123c1bf6b],
    [0x56f23d7e5f361df6266b620607396203fece3b023ffec4ff3fffffff40000001, 0x64aa2a257467dc5c83590e5110b6135ea179658d29517bf2f0df21aff1ec682b, 0x202086110bdb5a80f79ee7baa5358a8ec36646d062b174464727b0fbd6d7ba3f, 0x8f85a7b50c63a3dfff13b6d4bc9fc714c121b8aaeb3e76eb53a39b89a3d9629, 0x353c6712364b56eba748f9e91cff8595f79e60aa57506081eb6d7dc977f2eea8, 0x1e2d236aae38c54565f30a0d8bffc4d395354f4739d5a6cfe2ec1966b2bbf46f, 0x200c90582355c94c00f464b604b4a6f45fa89759ef4a2b2b50f8771c90264e7e],
    [0x56f23d7e5f361df6266b620607396203fece3b023ffec4ff3fffffff40000001, 0x4d00911f32c2b86b8b406beef30e654d36f39de4fea1381fe5ea849661e958a5, 0x4fe338a7b0cd6262ca68cfbdea94be5249bd00c444a1a76c1854731fe7f353cd, 0x394d7b940ccb985929cd433f14b3c5005666baee76ee9cbe693458ab330c08e9, 0x3f0a88273100d808a2cd20076bf6e81bab698b93433ca42011b4a94cca41c6e3, 0x9f5d9634e28c21666429d93408fec14ea07dcd09289335e0f9305de4113ae27, 0x6297c208ac149a5e9214f749b1d6fc684a0699201aedf9937b285b327fec4fb2],
    [0x56f23d7e5f361df6266b620607396203fece3b023ffec4ff3fffffff40000001, 0x13ad9ecbd164426566739c1dd64cfb075da3599384a23dd753e5e263e2807d62, 0x84308e8df080476ae7b7568b40f7eabd78b2ee380c6054e8056724ba4766bf0, 0x4f4c4334a958fe817f6e5e00a6ea1173efd5abe32b85baadf1130b3535c8576b, 0x1c5962212490178340deb97610a542a1eefd21df1e2ecb3e7496e7df515339e4, 0x73b8bedc8983d0487b46e8f3841666c26a15e518dccb3f1071224f44fb7f3ffc, 0x717607115ea8937cc543dd2301bdcaec593ba811879d02534022961433e93f40],
    [0x56f23d7e5f361df6266b620607396203fece3b023ffec4ff3fffffff40000001, 0x3b39b5a3e681882df9f0b344d607df68ce4d1848edf08d9cd6d50b44c3f7c188, 0x4ee64887fabcdba02431d60b595cd2173868450046dc53d333c41c91e408b03b, 0x3ce62c61e1c7ea53eb62154e99a68fdfc0e1d7669009714661ebccf63a5d579c, 0x72004900d4edb81a30e0d7d0d226ea7d7081d408d6869774bd2322e21ccc6246, 0x399b24002edea0985a1dc1787c233e3e9fb37f65e323277ea981586ce253a7b2, 0x61485b5f91373dc9244df9843bc3217a09a9f80118fafe4c917aab683cf8edf8],
    [0x56f23d7e5f361df6266b620607396203fece3b023ffec4ff3fffffff40000001, 0x19fe94dd91a8db0be1e3431e58bf89fe576a511d83c8c9736b400bc53333276e, 0x68e7d07b46439ca8ebbf66e5b5c480ec5f4a90608ca05d6d455fe10800001ef8, 0x300584d47cc3fcb2d2466054390873cb81af8c8300d170d4bb76ef1f6db6c7bc, 0x1b0680e73e8d84fff6b8e57e4e34beb5ad2c5e86800294d174a4d3b2d20d9c21, 0x388b00f4a44c7641109890fb71aead11d90281ed3f827d7bba74c18a4b8032fb, 0x106ad68caba7d7ed767fe087ae1cba5ed4a3d3c4fdf08d75cdd04435f1ef2c4c],
    [0x56f23d7e5f361df6266b620607396203fece3b023ffec4ff3fffffff40000001, 0x63d8d2c38385111bd4d3c623485d799e5a9b770ca2885b36b337ffff33333334, 0x1baecca817984323f6047d37ff0534e2e7bfb612cb19313f632bffff9999999a, 0x3d92159cac463ead0238fa6682124f3498e6a2096693e3fa25ba492424924925, 0x3b1c4ba555bcd76bc7905c23c1218525fb2c4ea169aa6ee6365779dfefc03d95, 0x6b207afccc8a5591c27eca2471388563dc572ef6364086aa2456d5c61ec18d45, 0x6748eaa0874a4361f47119561aa7ca314617c67672235d58887f80ad5e5e9824],
    [0x56f23d7e5f361df6266b620607396203fece3b023ffec4ff3fffffff40000001, 0x977e32521e4a389220f96c811019b1315822f97e0dad3cd000000000000, 0x172f6ef52b6e831a53a67d14cb58c75b4e38d7d15a7ae3cd93557fffcccccccd, 0x108fba08276ad21ecf9e18f6a8b7419ed4331a3f7f18c006f0926db6b6db6db7, 0x280fa5e274356680c39aee072c93b522c3004640ca1e057475ba99770c9584bc, 0x32f88424f065964960a8de3e4210927876b15287feb6a9c2542ecfaae1ceee8c, 0x65c2295559ef86eddcaece722f994b47555cb7b14152292847d6a7568fbbc985],
    [0x56f23d7e5f361df6266b620607396203fece3b023ffec4ff3fffffff40000001, 0x458e979858c9bf9d4e46fe71fe50cfdc7ea9e81bade2633c0eccdfff66666667, 0x2e5f0fbabc402e64dc8db9aecd4a7ae2c247eea93797fb195eb4afff9999999a, 0x52ce52f2576930a3e09885a6a3afb140af07f22540436ca9ad91c49192492493, 0x15e25b351543d24b3816ddc8767c502a137f78d2c5faf2f21bed611d6b76bba9, 0x52e2f7c63fe941efb320bf5d44e3d5faf316c43e2c893d1955400a01ad06068c, 0x4017cee092cf28b744b2f0d2b609ccacea03f5351612cb081af9c4e5ba5017fc],
    [0x56f23d7e5f361df6266b620607396203fece3b023ffec4ff3fffffff40000001, 0x5cbe1f75bae4750b2c9ac8a84c2c3bd7cbf5235d02490ed30d4fb3ff33333334, 0x458e97984c2b1eed8637e52f0bc29c071d0ba6bde4635776179655ff66666667, 0x423ea8c1cea33f2899c1712b70529a80cef7f8d4047847f5397692dadb6db6dc, 0x1d838657867887702d540388ad5188ab7b342ce852b1d924b7fe3f905647423d, 0x655e57c5bcd1d8c5daaab3cdaf7a478fa47cf74740024459c95aeaee85d829e8, 0x1ee9b9c79ce62ee8f0c64904afd4e33606bf8beab5619e66eb97c00e06909206],
    [0x56f23d7e5f361df6266b620607396203fece3b023ffec4ff3fffffff40000001, 0x458e97984c2b4b2b685994b867042a3fe0074364892efd93e9b9337f66666667, 0x458e97984c2b4b2b16f8f67c65d3d429c8a6728de06ac2b4009172bf66666667, 0x635dfd22b5f4b4872cd739e246d3de9765be59d6679dbcace72fc4c84924924a, 0x4d88cc37af57488cd197d26b02d9d88ff1d317e7547492e43152f76b14fd6cd4, 0x68bcc2474b7bfe33351e9622328c9950fb0bd6687a1cebd3b913774343284914, 0x3931c11b95d992a6a3e12455c2ee662905e73b7f81027027b6dad4fc00589b00],
    [0x56f23d7e5f361df6266b620607396203fece3b023ffec4ff3fffffff40000001, 0x2e5f0fbadd72321ce14a74491444af2d40d5dcf886ec25febaca60cf9999999a, 0x73eda753299d7d4833398972aa7b49c3a4389a6ffe349e1a8ae4bd5700000001, 0x211f5460e751918257c7944758b9878996b0c9d63693e72a35d1c6dd6db6db6e, 0x41a5a4ca5cbd6927f406da64ff291a72b57f22febd8ade1c6b20c791b9d42e55, 0x59651da39f3211189dc4612f6c8d8690bd293e561345e842d5316f8094a36e06, 0x211c7bcb58eea1c844f64d2a56453b2eee72da0c9d1b11bee388dc80bd21e80c],
    [0x56f23d7e5f361df6266b620607396203fece3b023ffec4ff3fffffff40000001, 0x2e5f0fbadd72321ce14a5669c54427d2776545e260197d629b3994cd9999999a, 0x172f87dd6eb9190e70a52b3465fe621d5f25dfe8c13dd9379616e84acccccccd, 0x31aefe915afa5a4383ab13716b50ec0d453f4afd617ffc4c761e722e24924925, 0x3c48e6d7b64fc0c77d7e6ebca1bdfc8d775423169b17ebed7c2e427fc2117259, 0x72deb9094de390c69dc0430ef77a9d2b8e26230acd97a87a74e3b2ad36b7488c, 0x5cb36671dcd6fd430799acb6b77eea9d203d3f94f5a53a599b939199506362b4],
    [0x56f23d7e5f361df6266b620607396203fece3b023ffec4ff3fffffff40000001, 0x350fc241fb13eb9ed995e42c1a8b40000000, 0x458e97984c2b4b2b51ef819e6c2d5c6dd83675556918504b4858a184c6666667, 0x108faa3073a8c8c12be3b125b83c09edfaecd1ef947a5de7a1ab5d8476db6db7, 0x635b76f48afe313003bb1084fe0afe4e72d4ccdabab3ae4a292f1d1ba36c2da7, 0x20dc99aefb632272d492ee5df75c8bee198b9f2a5e5b5e05c2d9a13931e624c5, 0x50638da7cfc7f80cd6b9dc56be03046e7539c07f5b9b6bf8398fdf99d90cb1fa],
    [0x56f23d7e5f361df6266b620607396203fece3b023ffec4ff3fffffff40000001, 0x5cbe1f75bae46439c294acd33ae7e00489b5f95bbfb2326616dbb7f26b333334, 0x172f87dd6eb9190e70a52b34ceb9f80056b79f5098b0ccd4e540dd4af8cccccd, 0x52ce52f2424bebc5db7275bc992a75bb1fdb3de964c605a41eaeb836ba492493, 0x141e277ed333ea33f7d225eb920edb9bd9ae99c6b3ca07b6f7785b8be865485b, 0x6ff38bf17e043226d16aa5c30b0805ea547e527c18a906cd8cbc9493a9d413db, 0x477d40a4b1724fe94a5b7cc2f1bfa359485a540bc9be90d8d89332bba9867c21],
    [0x56f23d7e5f361df6266b620607396203fece3b023ffec4ff3fffffff40000001, 0x2e5f0fbadd72321ce14a56699d73f002217f6ca7a9fa21c55189d23fe699999a, 0x5cbe1f75bae46439c294acd33ae7e00442fd24e010859f0a16a2055388b33334, 0x423ea8c1cea32304af8ec496e0eec495546cfb6c2f726f4f78ff858e926db6dc, 0x20d3c3902680568fdeb270871dc8fd5c57274c6909b0f14a301807612be92323, 0x4702194d7ab007152fa7726658869da4ea1479cba2f9b7ce7f1b9cd837f48155, 0x3f9f5a83f02bf3f146cd19418bf7906b863dc73b759bde50338343da2a314f6d],
    [0x56f23d7e5f361df6266b620607396203fece3b023ffec4ff3fffffff40000001, 0x5cbe1f75bae46439c294acd33ae7e00442fe1ccfb0cec1366178b91100133334, 0x5cbe1f75bae46439c294acd33ae7e00442fe1ccde8c23b632920c6ef87e33334, 0x635dfd22b5f4b487075626e2516626dffea28c95ad99e4f4459b5c2321c4924a, 0x73a8c5cf9e98dccd3ea4fb2a6ffc78057afda2c192c53b261d406c57fb384551, 0x38c59ca941ec1bc4445b8853a208e0b693326db99171962b4859a965bb5e25c9, 0x6dc49091518f3c0b95c551ee80b757c4a90ebfedbf0a015a5c6562e24661b610],
    [0x56f23d7e5f361df6266b620607396203fece3b023ffec4ff3fffffff40000001, 0x172f87dd6eb9190e70a52b34ceb9f80110bf8733cccd2035eb03147eee80cccd, 0x73eda753299d7d483339d80809a1d80553bda402fffca39ace19e834da560001, 0x211f5460e751918257c7624b7077624aaa362edc49253266ad0c394b9e92db6e, 0x5598d69f755ee5461d80a553bfeb365395c1c84d769b66de85530b287f08c879, 0x618531ad2048c70f41403be0e12337d5ff0c4a4bf12d369b5caffcb2c3b22800, 0x9a4b69e234bc2ebc00b5d391499f52206800a6139c30668ce51a0cfb2402e73],
    [0x56f23d7e5f361df6266b620607396203fece3b023ffec4ff3fffffff40000001, 0x172f87dd6eb9190e70a52b34ceb9f80110bf8733cccc78cd78b8072dca004ccd, 0x458e97984c2b4b2b51ef819e6c2de803323e959b66656a6381dd6ae3c6592667, 0x31aefe915afa5a4383ab137128b3136fff51464a6db6276ebe7865a59204c925, 0x5fe17702f8fa1ca1bad94db5ae8683c19ac2017f6f961349351de74d96dd7b32, 0x6d5283ce9271d7d1d481964bc21eba4a2e98f5d9ea179911f3df9dbdcba6cb9b, 0x1d01a7b9c571d3c3d40c590878d6b9027b2b11e2e3cd161ffdd270995ec1db63],
    [0x56f23d7e5f361df6266b620607396203fece3b023ffec4ff3fffffff40000001, 0x1295d0a28d000, 0x5cbe1f75bae46439c294acd33ae7e00442fe1ccf3331e332666358278e008b34, 0x108faa3073a8c8c12be3b125b83bb125551b176e24920d246db8ccfbab66ddb7, 0x2dd9ae739fa417cc0c97799ee5fdf2b4434c076fa70a97b3ae2a051ae97a3491, 0x163f9313a1bc2bb1b1879d222bf0bbc1ba19c4bd54b7927bae50d6c2a49b87ea, 0x1209a836a1a74d961f88a6fe82f49f2cd5519064b71702894ed4b81ac37ec75c],
    [0x56f23d7e5f361df6266b620607396203fece3b023ffec4ff3fffffff40000001, 0x2e5f0fbadd72321ce14a56699d73f002217f0e679998f19933333334591e679a, 0x458e97984c2b4b2b51ef819e6c2de803323e959b66656a65ccccccc820a8b167, 0x52ce52f2424bebc5db7275bc992a75baa9877526b6da41b624924926728b2e93, 0x286d650c05f30a0f408f66be4c9a7bd6017fbb9864f2275ed2573ac8a89f49f5, 0x644743581b1baf92c6d2b102e31f6a31a2b6a9787c71be43697983716caa4e34, 0x3c4921dda4ac3ac843c6f2667dcf516a43ded4cf6caa35f7bbbeb1f5fafdab97],
    [0x56f23d7e5f361df6266b620607396203fece3b023ffec4ff3fffffff40000001, 0x172f87dd6eb9190e70a52b34ceb9f80110bf8733cccc78cc999999996668780d, 0x2e5f0fbadd72321ce14a56699d73f002217f0e679998f19933333332ccc75efa, 0x423ea8c1cea32304af8ec496e0eec495546c5db892483491b6db6db64928049c, 0x540c4c82b15efad45856bc9f6d622303dcb64a1bc66535e5accccccc13333334, 0x4d7252456c832ace74b5ee8b0ef7daa000d5172b3fa3e1b9a49f49f3f4444445, 0x331439b5336b6b2ddd692a30c81ab68306405b7707130d8314c1f6c9a6806807],
    [0x56f23d7e5f361df6266b620607396203fece3b023ffec4ff3fffffff40000001, 0x2e5f0fbadd72321ce14a56699d73f002217f0e679998f19933333332ccccccd2, 0x2e5f0fbadd72321ce14a56699d73f002217f0e679998f19933333332ccccccc6, 0x635dfd22b5f4b487075626e2516626dffea28c94db6c4eda924924916db6db72, 0x458e97984c2b4b2b51ef819e6c2de803323e959b66656a65cccccccc33333334, 0x609b60c54d5893118005895c0806deaf1b1e08ad2aa94ca9d555555480000001, 0x211f5460e751918257c7624b7077624aaa362edc49241a48db6db6db24924925]]

/-- the inverse of the matrix (not in the code) -/
def mInv4 : List (List Nat) := [
    [0x1324, 0x73eda753299d7d483339d80809a1d80553bda402fffe5bfefffffffeffffa421, 0x89d0, 0x73eda753299d7d483339d80809a1d80553bda402fffe5bfefffffffeffffbe61],
    [0x73eda753299d7d483339d80809a1d80553bda402fffe5bfefffffffeffffa421, 0x1cb60, 0x73eda753299d7d483339d80809a1d80553bda402fffe5bfefffffffefffd3b41, 0x15888],
    [0x89d0, 0x73eda753299d7d483339d80809a1d80553bda402fffe5bfefffffffefffd3b41, 0x45c48, 0x73eda753299d7d483339d80809a1d80553bda402fffe5bfefffffffefffdd8c1],
    [0x73eda753299d7d483339d80809a1d80553bda402fffe5bfefffffffeffffbe61, 0x15888, 0x73eda753299d7d483339d80809a1d80553bda402fffe5bfefffffffefffdd8c1, 0x113a0]]

/-- the tables have the sizes that the code reads and load without a panic -/
theorem sized4 : (opt4.sized 3 4 56 && opt4.below blsMod) = true := by decide +kernel

theorem ok4 : opt4.check blsMod 3 4 56 (opt4.plainC blsMod 3 (opt4.plainM 3)) (opt4.plainM 3) = true := by decide +kernel

theorem inv4 : invOk blsMod mInv4 3 opt4.m = true := by decide +kernel

end Verif.Poseidon.Bls
