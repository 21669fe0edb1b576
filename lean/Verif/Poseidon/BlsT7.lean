import Verif.Poseidon.Check
import Verif.Poseidon.Primes

/-!
# Poseidon over BLS12-381, 6 inputs (t = 7): the tables, copied verbatim, and their checks
-/
namespace Verif.Poseidon.Bls

set_option maxRecDepth 1000000

/-- starky/src/poseidon_bls12381_constants_opt.rs: C L457-570, M L2307-2371, P L4429-4493, S L8373-9102 -/
def opt7 : Table where
  cF := [
    [0x5c72d2cf405b5ee824e54cb1ff5acb1776802428b042df9b59fa85e4eb3e8f6f, 0x624229fe6c8a33fdc6adfa1eaefb7a386f2b40c5d594f75d8381bf19d010abdf, 0x3f3fb27ffa569ded5564b5ee766a6721716e1c116ecd368f86a7ac621199534d, 0x6bc1c463efa733daf6b6894e11420e6bd6dc4e5a733acadc763d5b15d46d232a, 0x53aea0de8570cc9f15d9f4583b11b26daadbb93bd8c2baf566aa0a187bcf921c, 0x696acc17fb193072de5c433545f0965c9dfb9399ed69610dc1f1bf8cd3fd4307, 0x38e4c6a3ba2fae3fdea2e8305a3697d400dede47e9757491dee804cb481ad3ff],
    [0x64d7fdd5f856efc9b40aa757420ec28275d1818f6af6a3f07c3ad0bfbf891bcf, 0x3046065d5802fb0383c8afa954140a82423dd1f0348b25705091841da865f18, 0x34e7ce47dab1b76b77a82052f22a289e08c91fb8096f5af12a3fc3020c9ab1b1, 0x66c18f7ccf1dd43731d39cad979644ab503ede4e5fd416714b7dff9122ef932f, 0x1159591a2114a76b794c1f851deb1ddc0fa75eb2bd7dc9a689210824f4794203, 0x678c3749b7459420d61f3c81ec1334c7c4cc22e11bfa923e9ddf172240de769b, 0x3d33a56d1af1878180294248becba6b57bd9f34ee7b70cd827e9fe190be09003],
    [0x6a0fcb9789bfed0c06f68e36f0f17ffe09d828ad15979135e3f6d5c5bd5143e6, 0x50662dfe6babf7bde1c665ecf2fe3a963cf5c978791f2191c7684f2385170750, 0x581b176620bfa10c4e85c7fad574016038f0a643363208b772670805835a7ce3, 0x3b72feca571925f69ca2e66c3a93ddc6cdf2b1042954cd7b5f1521c8d8a09187, 0x45da5bbd7a5b4e422a3e25b5925fd52e837b353325a9592b4754a22ffcdb02b4, 0x57a0d0ccdeaf08bc10c731b71cd807630f282a69a1a6a72b20c3b7dbdc6ee926, 0x6c43025fa9c3b7fe9ef60d403b9f3b6fb6489004e883be0597fe2f3b20fe63f6],
    [0x720b5f7ca40435fe70f85a387a7a489055aedd66debcc4543d0c1e1861a575f0, 0x16191a7c63ae5119e9edf92bcc62044e73540762f4d66829a1c90e7ae09522b5, 0xeb7ba76b276e6dd3d85d16a2cc295b54a80233cddbec0f4856d16fb06623d49, 0xd2a704e23cbb3f91b0c6f62191582c4d5b52505ec0bf676ddefc9a15525d07a, 0x44ce569167ab52742eb9fd55d6fa4a7319f13ab7f8286ca33a78aa7772152ad4, 0xb49214e610f6221d807401573ee981bbfa6e01089753500b26f426d14e071d6, 0x32c7f333fe0c85d67d2039d332600d191496c7f35bcdb554c45fe5746b68e2aa],
    [0x23aa3cbcf027d2b3faf968ec3355ccf130db49530e7a25de38049b99368e013, 0x2b7f746aebd9487a8a407058ffb86c9d0545dfa39a55130552ab39e15b8dd6c6, 0x62c752acd9c3ccdde3915b77ee6d5c6946643817667044d4a6da0e0c97700532, 0x4fbbaac5eecf5b8d91bacbee985d172302b5d93cd8c3fef5d104195fbe772de8, 0x50efa280053ea25c73e01db0cf2de486dd3c63e61b78e6031e2014363b88c547, 0xa84b67c03c459f44451bcf42e0b7ba46e205e989a34c426b0b606eb9d2c1739, 0x5a630237e80cd49ac3e5c15a72d0461b0b4d3da5a7c3bad1cf1e459efcc28a9c]]
  cP := [0x1df293cc205b49cc598722880e57a6976847368cf329e82145534d46440d6354, 0x5f2cfe67f027d49bdf28c90a80b6c259aebb280c9df342ecfb78cef5d230a7f4, 0x36671fa44b0e06e42231823e744cbc75167dc05d263adf335329bf26243fa444, 0x4e4774ea696f98b008de7254ade4a4b2ea8f6643a2e1bc72e458944ba062a460, 0x1e3ebbaba7c51a00dfe7d8fb3580f627a797b52746ff71251b16d6da803c7aef, 0x2ebe50286c584b028fd34b4939f4bd6dd3f2f12486c712085fb6796e357c6a71, 0x4eeab03c04e2d828359e70e03026b42a73e6dbcf99750f7b828f7ddb6e68cadd, 0x50fa30d323f06af2daf7d63efe6cb50df13a2732754519e8711b9c35b57f49fa, 0x12f1a2396ae39cfe859edce61c4ecf3cd6d0f34ad96df814516c264a88688c24, 0x2115302b827adf3349ac655c26272a70da08805600bbbb5c0e6732fa87e21f4d, 0x2363cce3544cb07a8fcddd68ba54af84027381df80291aed4257cea2408094ac, 0x69757386a6665d283c58bafbcfa7135ede7066baae18d43b91a174feebcf95f2, 0x5f53ef5eab7aaa1c467094c587de4e2f24bf43924af3567eed1aa7f053ca1abe, 0x61c1aec8201d8d1c72b8d30f007de6ff2273c60c3e6047627d56d9783d8ef21, 0x5aa75cf75ea03e7e5d164e7ba77161c71e311199c31652aa1c1d7e91ef4871c4, 0x450c2ca542e672a77bf447a885d56d983d5bf90a3abdbb8635416ecd6f2e1f3, 0x6e48f3a8cb4ee224ae1c3515d30be2e91d2edc1a10c3e08ee0c0886fc096fae8, 0x618e6f036490287cbd15f6f06f571ad98ba8cbcf6e689ff999ef333ee43f0312, 0x40b5bc11f10046e22260a56c5a6f73dd4d108699260c9fa3db3faeda77105dea, 0x11c718779cf6915be47d11366cbb4a68913406991102d960e82eb96aee56fc6, 0xba80b1a0409a106d951a23aca4891159fc78537ac9d02069a9e2f9701e1659d, 0xc5a135558171e3231a1be465c59fd21f520e135d59d47522a83ed086fc47db0, 0x3fa3274252173ac780e966e721d21cb199be88da8750c6c17e6566992509d554, 0x5e9de8a83b7d812794f655d2f334587f5b0519962b187e5c1a534b6196174a65, 0x1d7d5c73395b2968cc544ad5c62194ecf1bf23e6d617f72d76e51d610e4be92d, 0x453e2b770d2d86a268af4b92fba9dd75365026808682b89de7427237b06fab6, 0x40cc65f41d194c31ddd4308452a66713308621c275449004b99b84e32411df78, 0x344d0477fc1ceae0dcb604352136db96dd460e6ccbcd07ae48548f422b801d76, 0x45f0b800684e19d580f668d4c500c86b3dc02a41b9ee35cee504777cb98dd05b, 0x2a39a8fb5b0ec4499d3c09aa8c537782e2494717468a6028cef5a1c20e13dd2c, 0x154d2487392060b928c363c444968ef6debbae38ca42bb7b5d583cf33c7c496c, 0x4755c2b2af608189634ae38cddfeb9d5d4509fea22252a7d89ad664409844f9, 0x5f92d86e6793c6a43cef39647b2815aa95491d52c780de9e8ceae8417c33b7bb, 0x3687787ed95dee702933dc2a681801b3444331513676e77d4d104d60acc73758, 0x5d1178c487668bb7437fe677d9608636d9aa8fc6be1898a6d46bd5b695b3ac16, 0xd89cea7941fa5a42277851ff7b88af02940d669553a6ea2501a4dab3dac1d82, 0x319c4c37a21ed5b51870442a657d394a5f33f2bc24a4f233aa3fce1347a178b6, 0x55369222e1644b855413378c1e3df83f1596018babc32b8cccd93c5905c4fa20, 0x1f114d29f4a57f5cc6844a39abb52c5bc4b3e522f11278f2758f535017164813, 0x23a3a9e8fdb60791581d8c342447d13847fdb4c23bdfaaa94337e923601ed84, 0x54619c27937920b93824c8809a223ffaea24377d4c290bbee2942bac05840b17, 0x1144b0845a4097ca100ce8f6dc9d918e7baf08f0b02c0c471519d0d8a3543cb6, 0x565ddbe667b6579c34cbe0ac831dd1579defe413959f1d343c8255d87e92e1f2, 0x62356fd40063ae0d67d4ed7d358c0eb02d5a43a899b53f4281e12ee0b3ea3206, 0x72766b54e25f2abe0345837ee2693fb3ae3543b5043e23106e5e747ad88bfa38, 0x4d7a16a7149adbfe70b0bd675f395a06092a8ab6dacebd3ed7ed58bc3d71137a, 0x5585e9251e67981c28be28b39a299c9a2b042313feac42a549274c537af30020, 0x63b4ca06995f1742b7b46a2f5adefb5f8065d7b261b48a8e0ff3fccd5aaf6086, 0x4c73ee5b9c6f7145da3ccd0d9e3206b660001aa231776c8670bfab0788f303ad, 0x277143e4db11ac0f97e36126a631ab51ac4fd00bc7449dfce42e4abb39a7bc42, 0x2ff818ded64b70727fa5efaf0622e084937129a7eecd7e9ee922f51a0ecf8d0c, 0x36e7e60f7b3fb8e2b1ecce7d55cd69cf997720dfd8bd849f9765f223d80c106a, 0x5c3624bb84029fe09cd7a68b3c2270a0dca29da359f0d762db03bf11dab718fe, 0x18feaced037ec579dd238ba16397ce63b06dd84b0fc5486427e244f13095ee23, 0x631f3c5aa17e324b51a166392eb6dec98bb86e28574a2c8ea2a662888cf87f9, 0x315453809850cea78b1849cd06a54812629804736ac65850d3b151758e271255]
  cL := [
    [0x157bd8cf98ffea8b298a435fdc710847b34d6257b6b10a23f6905c1a85bc6a37, 0x5fbfa8c0e69f4b499b0932dfe8dc03cb4c2928aa4b2bf2ff5a61976f5e2fab18, 0xaa7ee748fceeffa9469bd169a7e266752c4dffb37b547c36e9a2e76945200a4, 0x1dc47914917873e141d2f026aa5563c091945db7de166ada5808a840e82322a3, 0x1a03b9aa981ba0556eaa9adcaaa6dd22ecae6a5fb3553f92e7f526959dfc7ff, 0x1af8ebe629d76814a1673b7baf90bb9e51a4a398c88156f0947d5c477d119ef0, 0x663734ef41b9ca6b1beaa2ccb81518451f2cb60567666a6591a7b6c692ecd68],
    [0xc0abe77041ea6ce2538be7dcb352417441eb73d063c41b41ae1c9399f20b35f, 0x2b61260aeec151fc23b8b3a27f4f7160c732853dc057daed07c036cead2be1f1, 0x6a6a5e5bb913bc9f44a065d1f325d36bf493c37437ef233dc26e6243cfe28d0f, 0xc805ba379c6c101fc7a44842c1c06d13d60c5c86ddcad6603b88aa2bbce7f58, 0x39caa0c996a4ccb51c5d29486e9cac3c8e08ce4b276648da440fbf323ab9a60, 0x2adb3451b1eb0b4d467689a10e028a0c38f8ffef3648b47feb2abdbab4a1fcd8, 0x25068320a575dcc2eef65832ba864a6b693f2233d2d41ac1efe641e7e2e6391a],
    [0x17ef658533689d1cd5e203c9f1287d5780c6121c8225a41800a586edc27cc6be, 0x606d802fe1c17d38c329e0915fa036a13170add5aebfd01c5d39809ac923e17f, 0x5e0a7964264777830e85ddce7cfd11baf2bf040215298b5b4332c9e56829fb32, 0x48a1dbe004deabbaab9924f16c116d7ae2968fed1f48a861290b08de88a799bf, 0x23a3c4ec487fc65bbc87a8ae9eba7092b9c2bd026e64c3fbf2b263a89d813060, 0x6f29cafc74f8d305111a1f400742968ded1293f6fdf91f9782175ca35bd93b9, 0xcb440c0ba506b9af7cc2a2febd7d2b00c10252d882452d2b05139d6ec025100]]
  m := [
    [0x211f5460e751918257c7624b7077624aaa362edc49241a48db6db6db24924925, 0x656ff268c469cd9f2cd29d07086d9d04a945ef829ffe907f1fffffff20000001, 0x19c308bd25b13848eef068e557794c72f62a247271c6bf1c38e38e38aaaaaaab, 0x22c74bcc2615a595a8f7c0cf3616f401991f4acdb332b532e66666661999999a, 0x6963af62e003892a5d1d50074e93217934daf23145cff68aba2e8ba200000001, 0x6a44840c3b7b082cd99fb0b208d45b5a376dd6581553d4546aaaaaa9c0000001, 0x6217dc5a0f85429f8dce7bb808267bb5bd02ed3d9d88753a3b13b13a3b13b13c],
    [0x656ff268c469cd9f2cd29d07086d9d04a945ef829ffe907f1fffffff20000001, 0x19c308bd25b13848eef068e557794c72f62a247271c6bf1c38e38e38aaaaaaab, 0x22c74bcc2615a595a8f7c0cf3616f401991f4acdb332b532e66666661999999a, 0x6963af62e003892a5d1d50074e93217934daf23145cff68aba2e8ba200000001, 0x6a44840c3b7b082cd99fb0b208d45b5a376dd6581553d4546aaaaaa9c0000001, 0x6217dc5a0f85429f8dce7bb808267bb5bd02ed3d9d88753a3b13b13a3b13b13c, 0x4a867dda0877876545809d29bd0c9d27fef9e96fa4913b23edb6db6d12492493],
    [0x19c308bd25b13848eef068e557794c72f62a247271c6bf1c38e38e38aaaaaaab, 0x22c74bcc2615a595a8f7c0cf3616f401991f4acdb332b532e66666661999999a, 0x6963af62e003892a5d1d50074e93217934daf23145cff68aba2e8ba200000001, 0x6a44840c3b7b082cd99fb0b208d45b5a376dd6581553d4546aaaaaa9c0000001, 0x6217dc5a0f85429f8dce7bb808267bb5bd02ed3d9d88753a3b13b13a3b13b13c, 0x4a867dda0877876545809d29bd0c9d27fef9e96fa4913b23edb6db6d12492493, 0x3dd414f92742ed7bd70dc88cd1efeaad81febddf77769776eeeeeeee66666667],
    [0x22c74bcc2615a595a8f7c0cf3616f401991f4acdb332b532e66666661999999a, 0x6963af62e003892a5d1d50074e93217934daf23145cff68aba2e8ba200000001, 0x6a44840c3b7b082cd99fb0b208d45b5a376dd6581553d4546aaaaaa9c0000001, 0x6217dc5a0f85429f8dce7bb808267bb5bd02ed3d9d88753a3b13b13a3b13b13c, 0x4a867dda0877876545809d29bd0c9d27fef9e96fa4913b23edb6db6d12492493, 0x3dd414f92742ed7bd70dc88cd1efeaad81febddf77769776eeeeeeee66666667, 0x6caeccddf703a573b0063a878907ba84fe81c9c2cffe763f0fffffff10000001],
    [0x6963af62e003892a5d1d50074e93217934daf23145cff68aba2e8ba200000001, 0x6a44840c3b7b082cd99fb0b208d45b5a376dd6581553d4546aaaaaa9c0000001, 0x6217dc5a0f85429f8dce7bb808267bb5bd02ed3d9d88753a3b13b13a3b13b13c, 0x4a867dda0877876545809d29bd0c9d27fef9e96fa4913b23edb6db6d12492493, 0x3dd414f92742ed7bd70dc88cd1efeaad81febddf77769776eeeeeeee66666667, 0x6caeccddf703a573b0063a878907ba84fe81c9c2cffe763f0fffffff10000001, 0x1b46fa31af7059b6a2a432d4b6f8e788c868db4bffff9d2cf0f0f0f0b4b4b4b5],
    [0x6a44840c3b7b082cd99fb0b208d45b5a376dd6581553d4546aaaaaa9c0000001, 0x6217dc5a0f85429f8dce7bb808267bb5bd02ed3d9d88753a3b13b13a3b13b13c, 0x4a867dda0877876545809d29bd0c9d27fef9e96fa4913b23edb6db6d12492493, 0x3dd414f92742ed7bd70dc88cd1efeaad81febddf77769776eeeeeeee66666667, 0x6caeccddf703a573b0063a878907ba84fe81c9c2cffe763f0fffffff10000001, 0x1b46fa31af7059b6a2a432d4b6f8e788c868db4bffff9d2cf0f0f0f0b4b4b4b5, 0x46d8580827a75ac891152076b08d923c24f3e43ab8e28d8d9c71c71bd5555556],
    [0x6217dc5a0f85429f8dce7bb808267bb5bd02ed3d9d88753a3b13b13a3b13b13c, 0x4a867dda0877876545809d29bd0c9d27fef9e96fa4913b23edb6db6d12492493, 0x3dd414f92742ed7bd70dc88cd1efeaad81febddf77769776eeeeeeee66666667, 0x6caeccddf703a573b0063a878907ba84fe81c9c2cffe763f0fffffff10000001, 0x1b46fa31af7059b6a2a432d4b6f8e788c868db4bffff9d2cf0f0f0f0b4b4b4b5, 0x46d8580827a75ac891152076b08d923c24f3e43ab8e28d8d9c71c71bd5555556, 0x6dd3abfdf187ba0e815f38736770e79941dc14a486bb13c9286bca1a00000001]]
  p := [
    [0x211f5460e751918257c7624b7077624aaa362edc49241a48db6db6db24924925, 0x1c1f9db30b72dbaf526ee7f578e0c020e601d3331fb79c84b4be325d6dcb7505, 0x704956dd1b09d77cb451b25b963dbd2e50eb89b2442ad3d8cf519701bfe06e72, 0x684c0c335d5972f257d0a795c12741bcdc6c35e9a609f8fc71fdeb5a4d0ad55f, 0x5f5d1ae2fd7517ba3c1fd2adc798440b7ee8e22ee7ab61655329d38a10c3d702, 0x3c7da060dce3db1cf50486b8c4639963e3e5d88c31f494fe113037cb2de5ddf4, 0x5e09b403254682d5b981b55979bb7401f5f6874db40312c9837a769a20a3f1c3],
    [0x656ff268c469cd9f2cd29d07086d9d04a945ef829ffe907f1fffffff20000001, 0x35e2738c89045f5ce42214748674bce9cf61336aeaadd947b0f28ca828ec47d0, 0x72a727ef933c66ca7af94ce9d3140f8f0586af89985ae7888ce172e108f3c452, 0x38456db47199c7190c34fb664d0b1c7b5c0bc603334678a0988f7bd5770d128b, 0x5cc506e52737ec39c539fa6bed762d7adeb820b21561df51138b089596fad48, 0xb080448174bf9f4dc443e2e1b92e5496fc07b3abd5c63a9078f709e94626d, 0x1600856cd85d6aad5738ffb3fda73aef904d977b9efc7783dc4403e406330e81],
    [0x19c308bd25b13848eef068e557794c72f62a247271c6bf1c38e38e38aaaaaaab, 0x72a727ef933c66ca7af94ce9d3140f8f0586af89985ae7888ce172e108f3c452, 0x11105cbca116f4afec539d6e2b88e7d11ce36391cf40f196808d1ef8dee3bdae, 0x56edc18dd65d2ab5d5886bbe92ca3467a665f27c28857427c1616d3361f1f1ec, 0x5a0417ef13cb61a25e55d349c14cf654dd24d928f1f1283b8cb63d0a771dcd68, 0x5fd24d14212832c48809e59b9e872e2fd2c9d00c160dcc0eddabdae0dfb70da3, 0x75141b234f29417380bdee4cedc7f1e3b8557ca56b6d32b7113266f8b982bae],
    [0x22c74bcc2615a595a8f7c0cf3616f401991f4acdb332b532e66666661999999a, 0x38456db47199c7190c34fb664d0b1c7b5c0bc603334678a0988f7bd5770d128b, 0x56edc18dd65d2ab5d5886bbe92ca3467a665f27c28857427c1616d3361f1f1ec, 0x6cee3edb0714b303d52417896dce1a2a3de2e4d65a0e3b2b6d33521533c29088, 0x3a1bd96864939bcff30f94ad55e56448d0af3dede109da25cf104f760a19a386, 0x63cb4f95ac53035f1e74f45ba7635841dbb091a2607e617f3635e5ea429c6fe8, 0x6aec237bccd6fd9d32895a5e0e0a354305895808e7158dcff9b9ec25d00405fc],
    [0x6963af62e003892a5d1d50074e93217934daf23145cff68aba2e8ba200000001, 0x5cc506e52737ec39c539fa6bed762d7adeb820b21561df51138b089596fad48, 0x5a0417ef13cb61a25e55d349c14cf654dd24d928f1f1283b8cb63d0a771dcd68, 0x3a1bd96864939bcff30f94ad55e56448d0af3dede109da25cf104f760a19a386, 0x68baf22741c53ba4d47dfaeb7d48c5e4019eb2e3a1e1a969c5534ee2a7672ffc, 0x30cec77a5bf3af170484e39e169b56c5582e9e94c178f03983c7bcd0ca88ad23, 0x52485716b24fa8f7abe78f7d5b467d6ff0444547609bf38306428d12a2388189],
    [0x6a44840c3b7b082cd99fb0b208d45b5a376dd6581553d4546aaaaaa9c0000001, 0xb080448174bf9f4dc443e2e1b92e5496fc07b3abd5c63a9078f709e94626d, 0x5fd24d14212832c48809e59b9e872e2fd2c9d00c160dcc0eddabdae0dfb70da3, 0x63cb4f95ac53035f1e74f45ba7635841dbb091a2607e617f3635e5ea429c6fe8, 0x30cec77a5bf3af170484e39e169b56c5582e9e94c178f03983c7bcd0ca88ad23, 0x81e859d4289f522917c924021eed83b452a348ea57422a61cdfa5d532c7851a, 0xffd923ea67652e215e93f1fe246c83616b7c4ec0fd729420140af89244c51e],
    [0x6217dc5a0f85429f8dce7bb808267bb5bd02ed3d9d88753a3b13b13a3b13b13c, 0x1600856cd85d6aad5738ffb3fda73aef904d977b9efc7783dc4403e406330e81, 0x75141b234f29417380bdee4cedc7f1e3b8557ca56b6d32b7113266f8b982bae, 0x6aec237bccd6fd9d32895a5e0e0a354305895808e7158dcff9b9ec25d00405fc, 0x52485716b24fa8f7abe78f7d5b467d6ff0444547609bf38306428d12a2388189, 0xffd923ea67652e215e93f1fe246c83616b7c4ec0fd729420140af89244c51e, 0x42fc17d0c9d10f4a86bed1b6497c1f3015001a43a9e2f76b5460a1f1caab8f27]]
  s := [
    [0x211f5460e751918257c7624b7077624aaa362edc49241a48db6db6db24924925, 0x30744b0c9a13023d960f3b4f31e231d36540b5ea20d04006a2d56ffa3ddc4047, 0x712c9b15b09a17ea5e86759aee75bf95bff79b976d75a418b76fcadac3e7edce, 0x196b835327bc638946432b4083d0deda5721bb7d39d375990e3cedf445c00234, 0x2a77943d372b1cbf32cd845ba6e133dfcb53fb92b2ecb7e12c452814905474d3, 0xf5a513d861987405a06510ab17b7948169195535c1563ae2f94ab443133a10d, 0x4ee6306479e2a4b972992100f3a3157085968ad921818b4af97214c8204b6b80, 0x71a5ef6fd426c392cf3c3b95909e8bd07c441b767f498dfc86142720995d4298, 0x4487824679d3f7a9d142727cc2acc0970a273b51ea9c45f2798063b0f3fb6658, 0x71d98e711b9e10009e7f7e9782c6ae89a5389275820503a8d06dceb9dff4073a, 0x1c010db90b5fe7417d00d961ff27703c2c80371f38b87281b0fe0840c115bb8d, 0x3e1e3e1e19607aaf20a2d115cf9e3046d468e373fb0ae6a79327ca50278b6510, 0x2c2ce4beb1fab2e0a73a546aeb4dbbc9e5bf09f979dd88147fcb7a821a30313e],
    [0x211f5460e751918257c7624b7077624aaa362edc49241a48db6db6db24924925, 0x10f5ad8adb6f25d399cefa2dc82f37761d03df9cbd86b8791205da183b5a7e6b, 0x5892a2665b5ee766cfdd82bfa17cd280ff5c7a170df82a2a1d80d247bf4b853c, 0x31abeb33b0f03d11060557a7a0ced043efcafebb2d66fdd5bac251c51251dbcd, 0x3b9958b75e4e3e7ad41951d7541223d4ee141f9de1b72ade56bc23d836447607, 0x4d36a9790c7cc0c1845425cc72c15454122f68177f92df3eb9a9c6c4bbe73f9d, 0x32634a1ec89681ee614cc43d8db82445a55c5c1385a15eb98dcdedf38addbcdf, 0xa5542b803276aa3be4847b9282e3b50862421e3fc9ca18f7be1a2609bcac857, 0x31a9f7adedb6414e50e9323972be79a125aac450111df5ac9115a9305aa0794f, 0x2662559446aec1687368e5e4005289a2e302a2f35fc332da2c3553b7d6c90ca0, 0x946c7cc0be67b81af5534cd746ac0113e4b5ce9c5b0facc09086eac30550a2e, 0x640a1c26b63366032f6b35466a01e894e8e54b9d0dddbf8d5918f7a49dcacc98, 0x3184bef80ab1124c0edf833b0acf55bbe610ce2cffd7d3cacfadf22e6d310717],
    [0x211f5460e751918257c7624b7077624aaa362edc49241a48db6db6db24924925, 0x38ef723acb78eeaede22799afdd19e7f08280d026f8dae9f6ef7ef3d59e4ebae, 0x582f3fa8cc624b1b1039be77bd37ee5e45d94459b975bf9fc8da3d7c8501e36b, 0x409a99ff53b0d81500c368c9c98de6775943d637c29768a3313fc18b82dcbd9c, 0x39534fa885e624a0f8c6de49e026b5983d247784e39b62952867dfe57349cb09, 0x39dfb6ab5f921ff33c15a1556a6abc6f5b054803f9cec8021324c861284718ab, 0x27eb27e15ab78a5c0a57c7a7b66839180ea901e20df56b2ae1b8647f06a727b0, 0x28e869797f95837fe8183328aa67638df186c7ea32a2e9cac61dc4f05f60daae, 0x425e4ad96f7dbac5cada3766d0ed3b56e5c7d121710c47d8f835dbe948d33d45, 0x3f1f55a1e8693a3ab7884cfca76582a135a26686601a2d3b2b7a43e07238b940, 0x27af57cd0c8e18a4292c15266e4f4f45cecd1209efe0d6713c52391e8a593a25, 0x13361a1b7cc2cae4310007a52516a364e5a3fa8293687163c34f2b60b5eea540, 0x6d879b8db18a752c889955940b7af349e2948e7e2770a896fadecd5d3a5512d3],
    [0x211f5460e751918257c7624b7077624aaa362edc49241a48db6db6db24924925, 0x4892462391fc51590bd4170fd946e0662320dc1d753ac5e1b5034660b0239a94, 0x23b507f023240ffdfa0f659f38b6115cffb382450f88696711fe65a5c45d3a64, 0x11c985ffb5d3a7459e1ea1c9e52afb5cdc96438a8558ea799173702a910ef861, 0x1be4abacacece9c99c7514f83241b1f270198b3ec049d413dba38623cf443871, 0x157a4ba3d3657165bdfee2c18bc7b96aef1f244332690209fc2130d6b6cedc0a, 0x4f20fadc5e9695653f3061bbd6825e42d55a28e4bc8260dcc20f3cd5adf7740c, 0x4205837a6648cb204b69956aae438dc80139093f3a18032d6862733bf4d58777, 0x3bdf21100ae0ade37d9776ce99556cb8cada3e2b53e4f10a6b429ffc1b2cfddc, 0xfedb39687163f682de8edc66f416b9a621a42c3fceef61cfd5d184f45485bfa, 0x3f193de047efbf951290ab19005bc198ebdffb9b6a2d38fb53f0083398504ada, 0x1c4219cd3e4cda8d3b59522c0c3c689d7da2d8d1f340eb9ec32167ee783a54cc, 0x60946e4d271b6763cd1a561c948970a1132cd1cd86613aed42fb4b4ff051cbac],
    [0x211f5460e751918257c7624b7077624aaa362edc49241a48db6db6db24924925, 0x3b816c4c647a755719b8c744f53c5933fc68edb12d1b381f5eb45437de19c30e, 0x21af895e2b3152a2fcad26e7d9193c1f016ad3caf1d80bfc6ebd191aa284c56c, 0x6aebd786cd60c8c2dfd9348587483f2ea9d937f47a53e86d0d43c5de71b86449, 0x3ca71233a41805f3f2d90702bc318126173d829576505eaca3b64422eac3c648, 0x502087f726ceae4e132d478705b0ce8f38428bda8b6b229c430404c4d854495e, 0x5580f6063762006ffed1ee6db7ae8d8dca5a1a5c5122aed7d477b18a26966b17, 0x608a9b9689a4888d22e3d26c1a47beab4ec4c6313fe6e79c811c64f5455705d5, 0x2a82726a56593c3e395d14d366596dc8d6e6fb6d9cf975a8102a49400d34e32e, 0x3bf878ff10a1f5f08fc540b45ce8990937091b569bccdb4f51440c4a74d4b3fd, 0x29278f8abe3431427f64eaa4e292b5b13cdf90a3da5061e4c44bfcd65411effe, 0x418e4394e9b9ba80fa364ac7d4de3ba0e6be22de8ab6e5356b101d80aed7fed8, 0x69573ff7eb6c084e0c8fea91c0c7bf5c0eb52bf40169e65d1d36db88ece06a50],
    [0x211f5460e751918257c7624b7077624aaa362edc49241a48db6db6db24924925, 0x14c85096e8cfda933b81987fd13b21df516bc1e293409bb415b1aa7933df6692, 0x251b37c3d295e7c07a7f9d7d8d57f186936a78623b7776425af9b60b26984e4b, 0x53baa8c7db07d28f6a4f594287a01a561ef5c023b7fe2bd239c36dd817a7e57c, 0x4359854d1daf923f7a1df9f4cb61ce61b003fd41b06cfcfd18c4b8f2404e76c9, 0x66d53e5809537fc44704de8ba10ac0f8496f2d64d205a12650da332f4d027e53, 0x41da7be1a8cee6253ced5f10f94fab41ca2a4cff2e985d72286e1454553db09f, 0x3fcdc865c405f41176229e08e4b5f458f6359e66182377777f1b8a7f03ac1039, 0xb83f1a0f54f25797ab27df43cd0a0596163a4380429023d1236b7a03053d7e0, 0x4968b3721560ae3df43e901d64ebaabd69b6d55162775858b6588330bd265da6, 0x4c6218f1c19d3e820f0a33b945a242327fc3fd35e8987ffe61407506b7f9eba6, 0x178c31a0601b78ae5ab7f89bb20131a5e4997a48cf9ba52f1fdf3b723c716a93, 0x50f8e42c0db5737d363950698bfcc0488530e8101c22ed5470a41edbc9add650],
    [0x211f5460e751918257c7624b7077624aaa362edc49241a48db6db6db24924925, 0x7344523790e2e8fecdc1111df82199b93f07dd154bb5fccc8db1af51454ba0ee, 0x64be5babe857ee4352ea71aa44e2b8561dba87cea50f36982f4ca18b019fa048, 0x1a4f6345633a2f64cbd9c9428844a20ada09e4032077541e5b8d5da3c91ad7cf, 0x4ab82305b24981bdf382323401a9e3333fac4e5c92e56897391c785aafe663c7, 0x5895485096cb499508191432e36ed5cb56557edd3fca93340792246cc5a79e63, 0x281d9d9b1b822c38bcfeb3111c18f54b1b391ebe817751fbdc3e94c8ed844fc, 0x4c65665a59392c24152a2141e696418e9e3e14c5160fe4f2b1ee8a543629c6d6, 0x66984a230edd8c6eb00bd3d32fbc256b19da05b2f26068e939df3983c54a0c54, 0x37683afe8f88730807acea940ba32675965c3ef0f451e0cd870cff97a0f8327b, 0x1eb6c90d55059d0f7bba5f84a3c23861ee86b37bc268dd7ff1dcde41336e01f1, 0x4791671a17b054889ab02c52f8551c13d28178175dcd3a918a5b8c415a5e3117, 0x23ae93c6759013a1a376fabdfe9576304ef1bcf9632509bd1337ca4719d3ef61],
    [0x211f5460e751918257c7624b7077624aaa362edc49241a48db6db6db24924925, 0x2bcb5d9067bc1cd927ec4e49ec85eb9cd5e3f70cf54ae8c8f4b3870325e2dc20, 0x26bb35097fd9af219f49bfda6c211c733df994cd42b8a22ea88d01056e3d1484, 0x4b9eeec40f30dbfb74b3888c1524106dcfb00f70ca078526ead7bd25bee2dc1b, 0x1ec259efa9eaf9fdd7234bedfc05c1f8b1664435dee4d1c4f988c6243bc60c1d, 0x2914d44cb47821523bf45aef125eaf42a7caa8e95ffe14643a5bcfea2e3a0936, 0x33bf7c378d090ed99efa8a331375cb99d7eb74aeefc4ea102025fc8764e431d8, 0x173f257e058108486c5fdcb6ad6e9a4bb2f2968aa44b73d1bd67555c8bd73bd1, 0x231a4b3b6083e85f40d99f3c75980b079f94cc772e76e8f502dc0b00f5e3eba5, 0x729ca7187ce0e81c4783a16a08ba3558a3193e062ee39082d01f34c75bd5efe5, 0x3cf4dcca17db74b9845625db98c0568aa509f7ae07987f6f5feb811c23a54172, 0x31b82cfc28992e9a5ff9ae3657ef9f285999f08aab8888cfc9b2fdb20a6cf9bb, 0x21a6cb2de64cb5b87cf804be26b478e8f4088baba90bf3e61c7ef194b440cccf],
    [0x211f5460e751918257c7624b7077624aaa362edc49241a48db6db6db24924925, 0x3a450bd388026cc4972e0e37bd9b90229666b1b666e982d6637f0e417436fa46, 0x4e385f77f1377e988b2ce6834b1454f33e9e742eb1752e9b6ad57ef31d0a9b04, 0x1d4d88e98a55584e8c112a95ab2cf9ab760a7de08165b82423a28f6df7957bed, 0x20ae0a2b5efc0f552b675119698f8b577673ab5c75d2a7fbf4dda96a2bff2328, 0x674df25ded96eb4b45abe8c9c1a2bfb869ae8d777656731662d747a697694915, 0x700a8b299d0ff76b3a0ea39acb427e046fb7f98958df16026f16a2ea1f2eaa9b, 0x29300e0b72e398748656f0fdcfa3cbf505d5a4c52b59222bc5d4f31c1f4d75db, 0x10efed3de624a5b73bfe173bbefa589b16dcd336eabed24d9bf7b94b639ff16b, 0x3decbcfa1464d54d4bc78514e273961ab45629ad9b2e75fc38028ae050a56914, 0x49e110267bca601b84bfcf3ca9ed7a77605ed59287901d8cd491d504718af86d, 0x3e7c8030310392d617541e0244fc8f7d4f1867563dbd4f13a88c1512bbb50534, 0x214e34bfb85f6241118de2a902cae48d434fb975b3e1c80ec12bd6cb94904286],
    [0x211f5460e751918257c7624b7077624aaa362edc49241a48db6db6db24924925, 0x789cb6649103f13e6d5ce08914c1b99b73766dfad7acb17d78eb04c11e77dd2, 0x6079ff65da182e98c968c786a05857969eaa2464524e07548178b115eee014f, 0x36210f7d29a0f5daca6dd5110fecc36d04193515a745cb41e85e5dfeeb8b6bbc, 0x40a0e2bb98accea6c077de9a5f43bb2fcfc9284aca69afcc9082dd1b8934b88b, 0x16e8004c24bee813cf950d16fc3da73b1b577a824a47c3387883108edb884486, 0x5f9b7c6d76f6273cfad656b9693954b48e936f1044a082ab434473a5ad38a9f8, 0x614b84bece31ebc29cc31eae8f81af548dd36ef0bf7f228a223fbbd2067acade, 0x5afdf1c72ef73ae793838f9d9eb375210ac123d33299b119404fe4c10dded4f, 0x55ce2dddc5acc2028cc78cd5207ce93200768a0913854ef98e4f25928839666a, 0xb30bc9d228a8105e86ff096a9b5e2031943fa654d449579c67bc547054f5e2a, 0x2254fe6ffdfc35bd54ec6743809c6640f367a615c68155455a01837c1641fe7d, 0x584a07b4c041afc0299a647e02bb9d3fd8995febd712496833e110a6694e19e3],
    [0x211f5460e751918257c7624b7077624aaa362edc49241a48db6db6db24924925, 0x6dedc94f410bf9d21d535e78cb6d08c9d9adf8eab46d2e7fca741eb133d40fd6, 0x34b43d68a0fd336c4f3f9e13eecfbb7d5ee52f97f6cbc34b698585770c1f6d83, 0x6b32385de502b3aee3ee8684e27473a695723a09e140c63401caef656e05b514, 0x673e425c3104e312d176f245da743848d2c73df7329307c5ce7efaddee84d44e, 0x59817f7f29eced1cea4b6026bb200987e227e0a8632efa12b4478677221bc252, 0x27581964097e816149d103fe61c2b1336c54af6433fdfcfc282e3c44e7f0a5e8, 0x6b7fe24f163b15de7a77ff5b857bb380f304f29f308f7b3a2d070c13ae6d3d6e, 0x59c1b2d1fbd00b556c747b0ca488a14121dbb63737a1dd7d94dfbd3ba93c75d6, 0x19b92206514c391d1de64c478faeae79fb35b2b88e1a27043f61a08083c6426d, 0x67cb3c17175057066aab038816d56a9864f0e37aa67ee9972ec1e50ed6f2d6ca, 0x170320c213f9b8f54f52e7ff186f53aadb05eb2007b0ca6b59cf99eb3d362c4f, 0x147171e0b76669e1c00665b960ff1d95879f1af09b8218d0b0170acc73cd41ac],
    [0x211f5460e751918257c7624b7077624aaa362edc49241a48db6db6db24924925, 0x4230931cd20aa699c7bbda070749ffde8a1ab38890c508d13961c8ec28f6de4e, 0x2c7859f2656a6fd2574a66a7a71dcb74ffd0833cd73da3274fa0d1f9dccd6922, 0x26999357782886168e0226fa6d571d0ae17e00bf8e5dcd6d27c89c24a3865b48, 0x7c7df0945f967c03540a00458b95a09f840dc76fa16a34b065550c679038d22, 0x73cf8b7418ca45e3ccb0e8836c59f52793eb7007f1ff1c59a20c3a0a99cf38d0, 0x674b9de21fd9bad5f8d8191961fad6012207acf52962e856f4d288fa9bed8c29, 0x2ed2b1a5023ec246c467f0c8eaf4a0286aaad7c025bfcde5cd49f6ea2908aba6, 0xda4a6e9673bba5a59be74e7cb5ce0d1a25387ee54c297b90d4835c96f75be3c, 0x415cdeadaeb15722d709505389c0febf3c7458034b4f6193796cb3192617c6af, 0x58468dc1121982fee2e3e0ed28052a9f4677783dad80e913c3da88cd77a786cb, 0x360b40514e7fa87e288c6976412e0ec6cfd44b697248e7fd1b1fd006e9cd0209, 0x3145c405e45ba123c43412c253e9c7658144690515e6cae25c5d65c76b6f438b],
    [0x211f5460e751918257c7624b7077624aaa362edc49241a48db6db6db24924925, 0x5da44940b147b232909cb53dd4585bce2feec6bcfedd1f0551ce52c8e1969a68, 0x71fa53e7f0e3502784c95f9a444067d6a7dc07fc8dc70fc39ba7f9c5e7b84664, 0x6e460e9a6b403c27e30168dad3e2377d197956c8182f99e88750ddee7151e27c, 0x467ca068024e5c39cec267657148688d6f6e30ee7dd7e1d7fd0f6f765a1ab642, 0x222565fe2b404e5b9ebf8ac6ce6e9fface7b22a3fad21c259570b498d860d0bc, 0x56aca262c7a2bb316fc30e6561b90f0945fbd9023a80d19141d9b0709f3b2a26, 0x4d7c1e7cd3c4fb2824c9caf67464ab76329f23140fe37641b892295f1ab81d10, 0x4529e96b4f03e752a3cb04d9db4516c6c5dfdae7d7bde54d5856d0be295d6a9f, 0x5554fb1ed937556ce176636a892f13aeea2f0415a60148c068862162bb5f5ea7, 0x2379053d8d2957d9012d880461c483e42c495b8c7a1b25d5b1a541bb55823157, 0x4af83ef954098639b05569b705b94f576c94cb7dc0f62e9446aec809f3a8c1cc, 0x17b97b312747a7886bab26513117655dad501bf9760d1df28cd700f3780f62af],
    [0x211f5460e751918257c7624b7077624aaa362edc49241a48db6db6db24924925, 0x177933ac6ab7e1da6d0e0d34ee9e25768a617eb75476bd87a4e81f4f5b1456ec, 0x62489ae1935580e42804fd728984114fb26182ec41540c93b438dfc85396c679, 0x58c300765e6fc3445d199382cd1d18d6292e7a9d80337479cd52e553878efded, 0x6f9e32112b608a5ecd6fd93535878ba22ee72ae5063bbb4d095c25b40076c223, 0x63ac20e5d57d69316955b7db4c3229abfdd3ab51b2efc45ecd73e2458bdea65e, 0x4bf09d7ec84a28686a0f7de738c9963a46e564a0296210b6d403d5bbceb0ba97, 0x4c01f2411d71ee2b1bb48c0fb918f39aee6997c46fe21ee4138a7349afde8e7f, 0xf015905f4920cf1cd3142d8bb2026d6fecc22333a5a88d34fd8753935370872, 0x59391329fc9c08a41802e26543398f721dc461cc46aa8575379592ceb426a52b, 0x1403632f906fd95c9f28180ae65a25313bffc6ef926dc13cbdf861539d70ac14, 0x4258cc91c6ed545980189149bfa74dd7c79cbc9e5688d5bc86aa1cc2e884a286, 0x1c7ccac622f5aa386a4c11845d5782916b953b5bbe33a5df04fcf52f38b0b26b],
    [0x211f5460e751918257c7624b7077624aaa362edc49241a48db6db6db24924925, 0x349e5880832f5652be1a28dc82b29c7bc6ed22901e090299444cbfc3a2f65792, 0x6d4baca405b747f3b86bb81f38a14fadbdebda5d3d06215011cb7358e5fea969, 0x5a2f50bffe8a34844464992ba7590aa4eb900120323801f3064ed2a962f02f3d, 0x62b9d77c1bd1bc6270700fcd60cf2d21407933fe0ef2166432e326c3a7697b34, 0x44960982074808750ae17da98abad80cd5a918164fa135a3b077ac67b1987b28, 0x40b0a00d4e6c036c1e3f2fef5ca7381dabeede4fd9ddd963c193fff873e5ba2c, 0x72311b44edadbe47ced7961616dcd55f60bee0b97e5b37b8a1eaa3c2a4fc8c2a, 0x142cff7020d36b54e35abb30cd24520fc7e8bf4602c4e02e56661f3cf4823480, 0x3d1c7fdfd111df025650fc3cf801f14748ac5ac6fee2662028af303d72108d, 0x3ec19bb16c0f492f28b4072f5253c12da7c27c533aa82d6913a6e665f51798ce, 0x40a25806555c9c1dba8b426edd4fc60b8ae7da79c9ada8440ec902c0a46ddf2, 0x71f49c30b95946dfceab27d69f5caf71bfc3b4faebf03cc7c26902328af58fe8],
    [0x211f5460e751918257c7624b7077624aaa362edc49241a48db6db6db24924925, 0x2be1cfa1f7dbfd41c814d3c7c7c31de729fb883ed250b2db65f7c74da926fcf3, 0x1c71f4c02e637dec3ae2bed5a501b2496e097c7e279a4c496fe52a62ae02536, 0x689b01514f45d3052f2e481f7e49d23b501137d2c57f6e8081f92e64662781cf, 0x648f40926971316ba51d7de61135891e5182de123af3b684c1d82b13563b5096, 0x4d7a7fc7fe4837b5e8c0535aedb00fae198d448a4efd49b44bdc926739bee24b, 0x56ab1e29d02545c665bdab6059d5bdc3de1cfe7aa768b56aa0bf36efba89aa5c, 0x2b4906269fc863a4d08140e0b48bc11f2f57e119908bdde5dc25cef2a81d71fd, 0x6216338ab09f2b46143cefb99cad3899f6baf871cfb4753b2e8cebf889ed4bd1, 0x6e3d26a9ce32e21761ea8fc66fb157320533a2879c04253e71f53a4ebf9755c9, 0x3091518cfaf037d3724da38a43046cebb833160fea4929eb526fa488633669dd, 0x5f8ee057d898b75b0432427ea7f4f8173e6c89d3c72d600f58b00da0aa631347, 0x51b0f8af74f2e3aa8c629dcfe4fa12dac66bbc265cc4904b7548126cc508604],
    [0x211f5460e751918257c7624b7077624aaa362edc49241a48db6db6db24924925, 0xdd63cd395cd3a9fbdcc36620fcbf1df3d77ca89d88b1937b4432bfbc330ff27, 0x6f0daa71ade9b96d787a5a7713b1c3f1cec6686354af1cf2d022a31f46e9719f, 0x15ddf7bf0b86802f5cf9240d5633fa5e37206d9de6cc356203dfc8e271452345, 0x6590059b141bf78f17c4bf8d652fb148044d40861988e2204c9fc59e61d83c7c, 0x43f15990de776332052baac8640bba3aead558376955e13cbf737d2043e954a3, 0x5438844534a7c89176dc0bb7e97de22e0c446e6bea5c21ab5f2216b3717ed34d, 0x6943cccecb9ead1af249779f078ff6155a3d14388d44fee3777923c69f3289b4, 0x1daaa3ffa5775f931708f25c4f551f75ff57720f350315914d2f7e3b9c8b0f49, 0x426a5a65c8e02e836d4a68c361a74d9fd903597ca887ad8c46d1719e2cdea800, 0x45210fe5764b0b55f6189617ba1889b6e115ea5655b433cc5d2715a1a06c4af0, 0x486a0a565ed65f0fd5619ba016c5a4a832551406bc8d4ac63ee99b4f928613c, 0x5f8c0412e52ae46e61a79696888b53247e7b66e18ab77e9566a96e7101816bc7],
    [0x211f5460e751918257c7624b7077624aaa362edc49241a48db6db6db24924925, 0x131827d2a59a309caf62925614488c3c9163224d1517979bc89b1b4b0961d1b, 0x687ce6c285672e90d8299d32d03aecd6d5546753037e0b35dcc23da5d6343ed1, 0x6951e7b5423e5ba341ade2ee3291c03ae753350db00cfc51cce733da36f53d07, 0x34cee6de4c744c3a7690d5d5355956c958767ef99d3fc5ebd2141c0cdeb09f3, 0xb3f60e1ef0ceb2957398253a84e3db16e3211fefc4787a2db078b3a4ab0131d, 0x526f30eac1297439d266592613956356c6b9820e09443e42dad65702b9ef0aa3, 0x157b9fcd5e2242843f7b224a036d29e244ae57ebf3162e5de622e68fae6a85a2, 0xfb2c69d0a821f3537daea162327d5d5472505fbcae73706abd98b24a52ffa87, 0x5b9255608d11ed3ef40e9e5d1e152200d1754720bfe304cac566109d21cac27, 0x3c89e5b5f9b5e846e8996402a529e31f6407945b694e440a7de62ae2181c5bfa, 0x28b1316a9304b7df02806ef63d10f5a968dbe375ee0cb259dfd28e369779117a, 0x254155414f74a11b4e3b2771770f35a4b52653e18c40af241df944704aae7cff],
    [0x211f5460e751918257c7624b7077624aaa362edc49241a48db6db6db24924925, 0x6003d2d90c2b9bbe5695e97016de0fb502fc63381e87a4274b2e53bb0b7d1dec, 0x3aaca1d091b723898d2448ef605f62285576411bf8906cb5cd2f1596f999f50d, 0x3bc65f5912cf8f3fb1a10eda72e886363f9c4e419e72e8fa92e604b9cc08548d, 0x2dba43e2a592fc127a88730b0efa8eb8f9dad19941d0f24142c8263531590be5, 0x393de379ddca3e5ef83bbd8d061bbad0f24d1decf309f4963bce1cbb9f78a0eb, 0x65d938d53be46c8999f26880e75cc2d7c3c4115f3cd263021407c0e2f1cc3c75, 0x111885dc7faa89c0badf77934f5a399e82b87d9e90838ac62c3e8579b208c1b3, 0x60b874eac34c38952b60f5c035356d6f409e035230588e175d5711fa03d0e2e4, 0x5b53d0fd07899f24ee851d907e73eee99455c85dd22be65bb07cced9ff1b3a98, 0x5983b814faddb872c79c79ef6206c25ec43a13a2788e56bc8e4551a4a527c3cc, 0x28db1168663cbdc2d564c250831ebe0e1aca1dfdb26938bbbffd9c5ea6d0f1d9, 0x53522c8327af60af0c40d9ae49ba80f26da601e8db698f92a84eb215a346a9ac],
    [0x211f5460e751918257c7624b7077624aaa362edc49241a48db6db6db24924925, 0x621f2fd47b6eb94106b69faba39f9aa93cf3249cb46e4f3222c731b84012462c, 0x5d0e0ec67db29d5df015b7c437b24371c078fd8e78619a2142b25cbe8d934711, 0x4887ef52e2ddc122c53b4a729c772aadc94f218205e3c82d46594d6e6bfac793, 0x72ea5e7b90742b570b761692e465f313f76d7fdd325b61918219ca44477801ba, 0x4a44b03fb66932544aaeb6f5a5c5e3c24cea17f8b574c11b3918d52474aa7514, 0x65e79e0f3004886dc4c1061dfbeb9e4db8bf5fb1c156640fd92d4265dafe8e80, 0x72d2064bf25476ee1d9e2a7f4bfbda5c857d74a7a981ff59948ca0cd5054029b, 0x5ac2cecfd8ac7142fe3b45ee25fcd9813f1edfd2c8d72169fb8c8a7c6dfaa6dc, 0x4cbf725858c5f35aec892ad7e8bc8db3666166b418f50cfd641a2a893010b60e, 0x31f11b94e79c703a0c7a0791b3a3fbf807eca5cbd88d2bf6e65165420d303214, 0x4abf686ce3350df33c27df054ddf9adb10705412f574ab69525cae579024131d, 0xdb77559a3d268655f8fa7e0d36ffee067363f999802596c2136ccecd287d950],
    [0x211f5460e751918257c7624b7077624aaa362edc49241a48db6db6db24924925, 0x5e988aefa60ea1597ba370600a4dc7434e8979a650d99f15d8aa1569cf7b7398, 0x2ed2cb375a4502372edabb64803d775c14da91c0839077e6b8f15ff6ac300f88, 0x2e63d5750ce99ff4edf2e01d6a4f29fadc36482799993c185794ad794cb539a6, 0x665b2bfe65af3314c1c58582e0dc3b6d09abbcfe3151d1a3ab2fa4e6f17508fe, 0x2bacb77c3ae50845a7969d05ea5aaa2486eb48b997626b284e48509ce3bf54bf, 0x5ce6c9ede7299bdb04cc6924f7dd8235f8b03484a2de33f78eec66e253f8f5ef, 0xf4b4b81e7ac02bb2da362372849a605b444ff608c098ba4925587ec3b5ee3af, 0x192bac45d52aaee9b15bfae69b8de3c61ddf9e3bce2be701dd2f9190b39087eb, 0x6847cf610f617f5bd594d7463e52b93ce9458b41a0c3279045a6658199e009cb, 0x14c7ce898af712bdffcce28af17c36e958c60dead976328f3f03ac6037a2799f, 0x6ee25a822133975b926175b3d79ed2c1c14e05f1485e3fc26dfd0d7f9b4ff257, 0x33ad732b893bdba8db1dc4ae885dec49ff243e954ef5454457363715a30f4f8e],
    [0x211f5460e751918257c7624b7077624aaa362edc49241a48db6db6db24924925, 0x2eaa4075f830bd9da4ee13ae45f2ed857c70f278260b6ac5e5e56da6cbf8b890, 0x8c3d2111993365f2db6941ff5b9aa44a6b93883f4db0f18f942587968705c30, 0x58cf474dd123e6ba5e25aad9c780a27d54ed0ce3a231b92e20bf3cfdc9a39b6, 0x5b21cac4b1346d9bdb9ac2728c26530c3c4d5c838c3816b5f1b72b9b19f64d07, 0xd5814b79d5a7af2993906476e13321225ac428cfdbc239ca3ca440432f9c110, 0x152d37fafb28604bfe55976a5541d6c51df9b13023d72759bb47a380634e27a1, 0x6b8ccd2c165d6ce873de015adafa9a129a31895609c49161ffd865274b42b3ed, 0x5a781d1ce842805fb6f667243f90da9e5f3a2e4a4e0ed7b8db0d674c74a09855, 0x1ba96c64da712174ff50747a858cc6aff9d9a77935e274551190a5da9b1034c8, 0xa3e317007d4570903d5e1daff6f39cef7a5ce19e403b765e9ae2b200ae58b2c, 0x483a07dc140aa9b8a1d29819e89ab4350542c3697a9deb7facba4bbc2472b48b, 0x1a698c2ca3127dd5bac449739fa6e872a22d582960c45ba96c4b035d38390190],
    [0x211f5460e751918257c7624b7077624aaa362edc49241a48db6db6db24924925, 0x68f3adfb482bd3b7c5bc2f66af5abb857a13c3e75d76cd5e97eb9148bb7b00cf, 0x5c9b15d427da837d9c0d7af5b0c35bb0353ccb249f78d47a9a36046d57713756, 0x607b196feecbe3ba068f8c7de169cfa3629253f417bbf9f338bda0143b0ffddb, 0x67bd31b3705bbff6afc234bdcb65201e5276ddcf837be79faef4c0a5eb065160, 0x36086f6550802213f65eadd5e24bda4d009e4fb20570fa388cdeac5db60d93a7, 0x19161273106ae073acf89efa5b5b80549477e468c7a384b8a3e69328837700dc, 0x4e239a2d4993a1bf1e68afdc01879a9317411fd535eb751ef21270daa9d3b348, 0x1a6e44f8c859e523f043ed801ba5a19f915f03e120fe418d557289f183b30ba3, 0x5ba17de48bb81ee7d0db1b9402e11c93056275ff4416293013fb66b56b7d98dd, 0x104516b0d681d41420a83fabb468d8f6995def8df52e7f64df2d10e6c39b6ced, 0x3dfc6cbd29890de07c19a318849c432af082d46a6dc88bfbcbf0601532899c99, 0x725c8f7a96c12b81d0baec4eb7f1d2a42a501fc06ed68453584efe2b70cad0f4],
    [0x211f5460e751918257c7624b7077624aaa362edc49241a48db6db6db24924925, 0x565963117d82389593ee3733bd4bf7822273055c935b7913c45b9b7b42d0b5dc, 0x68126cc856a14273dd53ca24da5c8bd56819773ca6ef970baed19ed3491b6fd2, 0x257273e536041f025ed81b38503751b8c697c64f09becfd85c6720dfe44aff25, 0x18769f043eb3fa48c46729738f628b1bf662ce0970c6d32cec37d4bc0fa7401c, 0x2c2f1f9ee08ce1f4be91ac345e4c5ef3f410389fd52198968b202d8143ad6e4d, 0x881936ac6c4af4798b42555ddedb8d7837a9c7591b17e6010e42a01668b2d6f, 0x42a2492812b3f9b76f426d3863d5cf5f6abe17ae992192c0dc761c870f1c0018, 0x65e0a8f61c0d9afcad6ee79c696538c792e6f3bebbea18fd93e57ed775633507, 0x64b226294122ab60f78e050f8abe68d9586cc851ca1eaa883356cc0f312dd327, 0xdfb832b180400f092b7b65d4f393467e53233fb0f8be447bc9139be0a59b9ab, 0x40d6cfb303b3afb3bbb9d8d09e1932ca3063e92da733590a6c028d0ab9c966da, 0x2a7078a91f03c8bb31d54a36dce05462b34c7ebedbad4a79bd8838f857998e29],
    [0x211f5460e751918257c7624b7077624aaa362edc49241a48db6db6db24924925, 0x7270198876f9ea6cd18bb3aec13b7f7d65a5877cf62629e171a46e7dcd4d4a2f, 0x4b949a227f9989e9410551fa00c24b139422e60f70bc97024a4a9dc3faded60f, 0x1f4072b10fe11406aaed030f4cbd60780f3eb123f0a7dae5a8464fad7f64cadf, 0x732dd1c2946be323c582de769b3573daa5618d1d1d7a587c92e6e13f975efd09, 0x52122c2f55f64ebf021242512bba028eca23cd8ec065dba4a3df0a772f43183b, 0x461b2f2732088c50d080a85d094aae4a67ee7111ad6a6758f44540e141380c13, 0x687501d7b27c913b7db92650957f19636397a169b5aa46e0adbb97d06a866509, 0xa1ef6c6223d577da2c1d8146123a1d3ebf3989046229acb1a38b9383b294c51, 0x4e8e726a2150a3cd48a5de836aa9b422e6425804f70edc1fa120fb6f78f1dfb3, 0x4776c06db534bc682def1faeb69ce1f093d4545c89913a27f5aba99e422b7872, 0x19b34d4ad03496d73437393acce28cd40bdd29575c02826f2a1cb2adde98ebd9, 0x62758ddc682903d041a92eef4fd18e9f4aeafcee40b0a3d8e1637eb1f4a2fb3f],
    [0x211f5460e751918257c7624b7077624aaa362edc49241a48db6db6db24924925, 0x1c7e9e16393b28f5fb319606aa608203710ba865e874a7e61a48610a0beaa981, 0x360576fba139e7d437d40c231e21c4ad110169dd6a3afedb54471807f070d89b, 0x24bdd13a7f3bd4103a64a3016ca424600951769f48bf31dfaa2568f47352749b, 0x13e92ad969de33035cabf0ec38510a156b6624874c4310761f063c95b53b711f, 0xf6567151808bd3c4296c3327e50dc8fe9d35a51ba343f88a3f6539b22d09fa9, 0x3741557d14f461cf3ac6373a1ebfd0f404705cbfd06ab66425756c907050640e, 0x6c0b2aee69f11d1a7407b06607afc6231ec051b006a7efd01c1b801c94b694e0, 0x6946ee60442a62a1e78f7fdd97c7337ec912cb7135ec4516ae3f2409c8f129a0, 0x236544dcf928c9017c58b9d236750665b4b7dd4517179b419bebe680898971e1, 0x9d269299c5cc33dcd816f0d00e2629c6b7e43f2652238a14a8851a0ac3c9a1e, 0x34e0b3112937cb0e6471b3467042d7e215861e5228e5b36fb84b6945dab95f36, 0x6ca3b6521250645cb18b9fe62757345f658537dfec8dc0a9527da4416d2bd56a],
    [0x211f5460e751918257c7624b7077624aaa362edc49241a48db6db6db24924925, 0x33e0319321bc854991058b300163c0e19bae7606ea2a9a5c2dbeb9c54cd2da1b, 0xf29a57138e38b5fb81cbdbec0a54042bec1dbd87fc97c852a7cd9691d4cdfd4, 0x5ec558a5891b50fbb942d0829d56eb0fdc7388189ce1742bd9f1faa09ad743be, 0x6a60ab9245e9477290654c2dee9fe147d75e472f985c10bf06adf83e1b79a22f, 0x6dcc0de63554839742871c57ea7cd5015383dd9ede77c250ec0732454addf0b3, 0x2f24300c25a36d903c8522bcaddff62c6a2d45fef3b0ecfd9b9dcd2caf443eb1, 0x4e68cf15caecf92649187d16da4331e08601a970ec16e965bfe2d321e09951f8, 0x25816ef5b9cdceb9ee1ba6484dda7687a02b2d6da69010fbe1f2d0dd54366df0, 0x51257774fabea294e9202c8fef22cc2eabc28429b57fea5fb289796f03253b66, 0x2350e9c49a30b14d04c569e1124fbd779b81623298f328befaac6356547365a6, 0x3ad990fee67317c067ec072f845dd6a5f31c90658727bb780d343a1061f464c4, 0x3bb7f4cf5d01ecb7b480b27af6eb71c11122f9f17956fcca19987e3f3ac8a38a],
    [0x211f5460e751918257c7624b7077624aaa362edc49241a48db6db6db24924925, 0x3e9bea65d1d2e8c03e8840f260fc33f0648f107b3a27cbb97e8316bf9719a5c6, 0x5bfd63d5512db4cb7409655bc3b068c894ba2211dc21835b5a2c099662538540, 0x527a69e79d46c95953b60b068fd82c6ebfe4c2d5c43e3bc86dcaf85b56f4e2aa, 0x81cc2156ea7f16783f3c2bfd751a6cace9c079205963a29c745848a5d3c6eba, 0x330971591283c6d8e1c685568bde364eea6249eed24e359fee1745a0716f57f5, 0x67c3956a160cb5aac0c4b0f05f641b20bfe6529cdfd704288bb3ddc4acfc903c, 0x7143a7807bac9aa932b84e2965837baa77ee37136761d8f2d11c45ae60455480, 0x53b48410eb2d2028e0a7651fff8dd34ce335823f85afccaa10ea6a31350e00c5, 0x3adb820d68ca741cd0ca3ce1035f29628de7ae07989993cb2267df54b33525f0, 0x3577ac980a1f0bb6cb3a88974d52b9feb4d089171aec10cc551a757ad089e3de, 0x5823eb5b8fa3a0f626ae99388038bde1678483a052464d36335d0d4534ada4fb, 0x35a639c88038c8a02c230997abbee1eca96670b74b88b6967426c42987dd7915],
    [0x211f5460e751918257c7624b7077624aaa362edc49241a48db6db6db24924925, 0x45df2e33d15d0543a5804137c9702f92bd5a1d6723be6916b2deb405f3d3652f, 0x550406f9f252d28b20ab566f8e6b9331002255aa7ef41533cc0dd1474245eb18, 0x40b9c83c85121f1523bb58b7f0c17c4185cacfca9006142ab95f9611a1bd2c6c, 0x5d3fe24068d8ea5a7902ba474a05ca3db145d0625973192d68c4b6070f864acf, 0x2989260b9ae252b13142bc917ce74fcb5f27c3e98a04844b87d163ed1d86d11b, 0x586f7adbab955e55b423750ffee63d4f70ff421557a32f25f18ab405594d2546, 0x1efa8b7f2fc3478e42f428a95518f4521a7ce4b83bd461fb09bf21b65713bb3, 0x6ee98ad1626f7d4400f76146cbe7832e9c8be2dae6b697d60a43bc468f65e90d, 0x173153c255b2798e2f38e3cc2f67cbbb1948dd02ee9a7c98b6cab81916984632, 0x80e6eefa6f55bb7fb46a127f2299042a7c02459d8ff7f7fce7b792f9c04e320, 0x2d1ba4e00edc68dfde2bb9b4a995c4f3553512563fe702e0e06472bb74506b6c, 0x3ca1ffcd5b463250122ca74776b02a1bf336d3d166a94d21ed934a037c9ffada],
    [0x211f5460e751918257c7624b7077624aaa362edc49241a48db6db6db24924925, 0x5a4145d3b524a2538ec7ef862a903f8a7ef3e52693be27d02d62fb33e3a4b531, 0x19404cd54fd78c2c90bca75cf434914f587ffbfac7e5fef87ec0ad20980d2929, 0x54ad2c44d917155581d8fa25aa09cdf40436f190df611147bc67ddcab3cec6b1, 0x413555367238203f84aba2897724c0f45094995e15b6ce1fc5639c6c49a76e15, 0x66ee1587ba0fa20df92ec354fd06a1ad884fa244c710d5ed27175d9b2d1372aa, 0x5f78e5de040f80e2206d9bd50c28ba863001aad23657934592554e84c98c137c, 0x27461bddde6bfa7dbd9998e89bbfd381c554890c275b23aa33a136ed943f9b55, 0xd3002da385693c1196940e0de3b96a9df1480a07f8ec8f489dcc2bee235e3d1, 0x6ff0de319820ba5f93d55baa1e28749014445e87dee4258894b67050284eba56, 0x4272ac452ffe652fa981db023e012ca9e46598619ccf07cfee11c621baf9a73b, 0x1c3bd8cb194813648bda03f90e019865d3db671280caf016c34081b32aad026b, 0x29f963dd09f19a1f1e2e73d95dfbb9e14b82acf27c27262e7cb825213ce3542d],
    [0x211f5460e751918257c7624b7077624aaa362edc49241a48db6db6db24924925, 0x6840a6e6afd3f7bf28a6f9fdf2c0bc6e4eda6efc1f4a9717c1d938bb08fa61af, 0x57da8a4d80e56dc83f91de1e53ed4d85171a5da0480e42da710be87b5364da32, 0x1ea660d160724441f798cf79b589db3e069f2c01768e4a34ac0594ffc2a629da, 0x5791ee16b495bf483dd02da94b5c14192d7b866a67952a8422dc6e02eadff1de, 0x2da8a97c1e6090eb5f9e46c8f52769060461d9f031e398e18276d0fe8442bc1e, 0x5c8255dc1787bcbdbf99597d3161a2c65068cb364b482e7ab425e85b53ac43a2, 0x2183e42a194d5cf00ec1dd31f2d87e970fe756bf62fe203b9f3d4e65ee18b1ea, 0x1d1f639f459a00119d6407bbb486fc4ee242bd3fe6389b44122da9942483887, 0x1f980baa5ee5c1903e5addc99788ceafeeeb3d34b36befc7b05b859d9ee3cd64, 0x31b28c0e6bacf5fda185b92aff167c8c015b9ce6749fb8b4b50ef1a9f6001199, 0x16c800a3f29dc778b67e0c9cb9f7f9dba7e9ff612ba4f15e968b4b74b2d93e8a, 0x6e7d369763a1872499c7cb24784125794a6abbebda6778d15f4b84c11fdd196],
    [0x211f5460e751918257c7624b7077624aaa362edc49241a48db6db6db24924925, 0x3df5fa9090cb6e8e11a6f72a633f9726d12bd1e18a5a4b2df9b771fed65af326, 0x6429edc24d60915b7e63fa2d9af9c67e15b030d8f6621a28657e25c6d22fadd8, 0x20244f2ecff225436073c1260456829c6e073f45148d52a03cefc3488aac4adc, 0x155ea94b8009b1fa45f7e7f2f740c6aa89f1e7b6b253fc50e241ac4267dfdf9, 0x2d4d29a2e33dd5334e1ff7184610fa45cdf2190646e564e4758a4cc49e99f344, 0x1d776ff3eb1f3c75f1bc7808f50cfb567def6f415119501056b44156b296445d, 0x162b0befd6dbbf82cd26570774506f4451490406d7d3677d70bd696ba9c5b6dc, 0x6fa453ef46cbc3b4395834d776a971b3ddc45e53dc1406adba2d8fcf781dbca, 0x697d8e09df53c7c36b294ffd5a4cd038a2833f6dabc4637b43e4649aef940564, 0xb606059eaabf0b0cdf34a5d47f4a96d0a385ed5958f6a7aeb4b0f76095914e, 0x1c58097a1be8f6a4c755dc1d6fc9c1d425e849773128464330297fb79ce71f3d, 0x4d23b5d5fc085078f09b06016fc4cf547d98d6c6acbdfcd10fd811550667d8af],
    [0x211f5460e751918257c7624b7077624aaa362edc49241a48db6db6db24924925, 0x37ff46bd13a16ee2f2786eb344d2da16cf264c555bcf55f1cbff490b75a4e7f2, 0x35ae275efc22513f12dfff1f5f0daef580bc25899a6ebdde87ca40a0b9c69071, 0x5e2f3d74b5e82a7da89366104a54def2eb6e558606fa05b2cd9db1b2f4721e7b, 0x58c6d0045d3b049cf696c585fd87864cdf0d185e12b0afb6b4819fed89ce9545, 0x163fc6e624174b0a38210a409e956fee2077fbf333c002f5d86a66910e7f603b, 0x21b18346b06b3023c2d27280fa17025876d240cdea923bce5cf43acd918c4771, 0x10560c81f599d40bd5c8ac44294ebe5f12e04e59d8b7955233fa2dd386d9f661, 0x20a30cbfa4b5f859b17b1ad3fdf4d1d62ff1e6900ac3a6e3d355b0db8eec9432, 0x68844737fe24efa9929ae571bd6f4fe0defd7dd0026f0abe700b85d51db15f, 0x6318845cd3d99ba15bd06a2d384ddb42a37e23a47d407d7c5ab8ea4d7f583bdf, 0x28ae5172d9c5f916a6014d810c7e38fefa31442af6bb764dd2adac2cc8a648f8, 0x46a71b228e94c6416dc25af67b637bf1e3314a4f7bcc8860f937a6f31adee4ff],
    [0x211f5460e751918257c7624b7077624aaa362edc49241a48db6db6db24924925, 0x6d6507b5258405957a4fb20d2e52beb2aa870ed81fd38d53431767941f253e8e, 0x26ed7b1875d55ec3adf4cb1050373c4d1ea8daa467b6d80186fa6be18328546c, 0x10c921a461225a9d49202fb922d5dc460a66a3267573718a5c69235e7863a60e, 0x8b5daa67efa9845b8cfbb11de9949018da7f6ebda067a5c10a3af7c8a75ca96, 0x4a3c75d4a6e2657e9eaebd826eabeea575c4ef7a44a73fae41a7862314480316, 0xccd11f37849056856025f4057833ea5eb8319b9217236d832f4a34322c6533d, 0x55ffda7468d6ef75f94e5ce5de8a74abd1e7a238aab6eff31a5305959b2adac1, 0x684f0249c49e4312a93324185f001bd93be1e75c37eaff6c315483b3b7d2186d, 0xb67d957cd4981a4f2ccf80f448c21f748f9ae886b09c8533337e21dfcb10965, 0xcd8506fad78a12cf3b701fa38bc656d3c5963c574695729427467757abe6791, 0x1fd747f5c10bd8111a60a91bcbc7652a1c346bfb0dbb3ff283e8876799e03f5e, 0x276577ccfd3a7630ca297413a1f32c0b868fc4f8202a77d687d0da9231a2c76e],
    [0x211f5460e751918257c7624b7077624aaa362edc49241a48db6db6db24924925, 0x537610b79d64bf49309ee130bb511e3e4fb1df5cdd0a57b7b92c4a0e459c12e3, 0x3bd82022747dad14253664829a1f05230bc7d994cafcc8d9b4e474099cb679e5, 0x4180e2ab2c546e1ad429ba50079610e9e1fc7bd101c2827c5807324bca2e573c, 0x26800c5e98475246a12578a5f70df85e7df334adb98bbf66913e29f5a39fac46, 0xccbc992c5e7d6dfb12d30083784763d93d6757163663f847ed54d9f11fa8ad9, 0x5ba74c986ff5c8164a19fe34ff9d7d3a5e566e589e36cc4bde5b849e005cf9eb, 0x1ca7a14f67dc7359b7478ff36333d399c823cc7a3a5afcf3222df2b8da361e2a, 0x4e1667672ab2440097968ed2d77297c39d282925d23b1fea627843ce508aba38, 0x6eff9365e540248e7d15b54730bbfd1f4a9a93c0c8936688f00a0a5bea59cd69, 0x2c132955134fd5b30bfb66a25b60ea16af0164ab57b67ebcbf2e50ce7d333453, 0x34c3e3fbb8acde0a6738657ab260f19cc9b5d6bf4ff3956575c769b2e71f82a2, 0x40e621b5eaf186df53a8fa6e1fdfb0604a8ecc4bb23d01f8659e1d2d2167b577],
    [0x211f5460e751918257c7624b7077624aaa362edc49241a48db6db6db24924925, 0x2ed0e4461f2728fa1d54414d0dc3fd830807109ea12e7a4338d595302f320fbd, 0x3bb8723e808123115d92fee0674897d0bddc7045e2c39929644b3b3ffa582e15, 0x42acece4b51a9212783f0c407342b83c0340a210433fdc356411d054d45bfbf2, 0x613c0ded3f56cdd2f5f475d1972173ae9305a771c74d683ca63f53b74e3d004f, 0x16bf30e1721db6f590bb26a30e968f396f4122f10eb9d1153c5deafaa6921dfd, 0x1dfbcd166fd1ebdcbc8e555174f7f2afa514e04c6f83a7321c8f401a40f43f74, 0x4049a7ad73bd071ace28c20a76ee6d33b3562cad88c55d3f387dc089f5e7196e, 0xe38dd386c6ddb738e3e687cc26d04a43cc6b36b117f2b8d1c33cd04510bf54b, 0x502040795f52f8176ffef95cfadc0e076581922a976626e730552e530fe07b81, 0x10aa52b038893ac2dda7633ed5919b7e3688775fd4ed1cc9d30d79b2e78776f4, 0x3293c42387d710fa29de2e5aab5c7f1d7551ec8b1bd510fa44a3fe240802c471, 0x29a97790e0bd4c5863fec2cb8c93ea825f95905d47cb3c32f844403dbbeb594d],
    [0x211f5460e751918257c7624b7077624aaa362edc49241a48db6db6db24924925, 0xb48cef483f69d7e27976416d1dca925410363b032f6c26c4bb70b94d0b625da, 0x297980a4bc9db0e6c72cd71cc3512f55ec21ead21c2f1834a42e6558bac29355, 0x6a78fa5e43b701090802011a320d514e4f3bdcc7f4786811b43dcd43637f080e, 0x4ee8e421da13966572e0ea92b096d3cc25a78ccd553512520446914ae31aa893, 0x6f17304b67825fc0f3f7b0e8eb9e0f36669a7218f11417cb28ded01d9a35ba9c, 0x47c73564b01461491a853dc40be4892ce334954e6b4daee8b871e0f94eed774f, 0xf477ee6fc78a203c145cf57dd483e7bb35af205db8fae58508269ed6c1ec508, 0x5bb1a1782402738aff56d4093eb93d822d74286549ee8d5326daf0d8bbea7823, 0x186a1cf996b02761d927060ebdcc6104a05ccbaa25695ddf4a6aec43588d548c, 0x43585eeb645c529e4a5067e6fc6ee784beea98fcb40209a5985f6ef161e0a9a4, 0x1421c1865d113fc12eb92a6e2b028efe1159a6693abc8a6df5d215d0d997e0c1, 0x6668ea721640e03128c7b92421ec373fb22d24ada0627b3ce0c96db5e2831367],
    [0x211f5460e751918257c7624b7077624aaa362edc49241a48db6db6db24924925, 0x37981271020886de638ebaacbacd6082cd074df8c41da196ba11944b65990e5, 0x67e7fb6c688dde677f5b2d10e047602c148fc299ee40c8069d3d3844b8ca0294, 0x95634f9cbe5013693cd1c6b9bd89fa79ced15bc6886b7855f71d0444c98cfd0, 0x648ce3c722489ea7e5284e3a2fc4267e32c242c6e1ba7b8007c6530067fc139e, 0x26dc76f647c4f07451d12ce3ed12ddc78ba2967ef00ea24b4b6e252af84411c4, 0x29c0c35bd0533fc4f80cdbd793f73ca7609358587273f18e29d98e0400f7f0df, 0x213f9053a98ad9524a1c045c79ce0daf294dff22b136a449bac6ca4419138157, 0x34aca647cab26d155125d3b8c8d6be102da329cb5d2c143a0d683e0ba865487f, 0x52916210ba070d8700c56cba0f8d91739a895951f5353285268365fea361978d, 0x53f2cdb0d84e239341c378aee8004e0d6c320b958b0ee3950cf0f5a63cb5aa07, 0x5929e98c7c36ea9fc830ee0b393976fd6f561c9b226f223cf1380a8c9abde783, 0x4c1a038e58a09daaa1c55f65c3055babdd68e968093cb6b3f98c43e016d2ccdb],
    [0x211f5460e751918257c7624b7077624aaa362edc49241a48db6db6db24924925, 0x472d3c07befb8616442dab069d940f42e501a501704c20a3c3346d30bf9a99a9, 0x27dfea1a98706061ac304e46bba06faf95ae4f955358e93b01a183e708a82608, 0x2e780a2792569d5e680d0cb97e9938996f2da5a9147092c7210b770b340627a4, 0x4d877372df47a0604f2616f18a79d504f2a4d07e04f7b255a58e94aebf187e6, 0x629596410747d2a6822e65710b97630e5fd4d3f1bdcb1b64ed3a90f514adafa1, 0x1ae651c6840623331fa82f5ce2eada616fe49e2b255a346530d8f6737b9f1dc8, 0x493afbae83303975b9aaca81faea281ae0f606e4de563abaf132de727dc8537a, 0xedad182480851f832e5ac451f9af4de6b021501dc4aac500221948efd748c30, 0x6cffa2bfc590888f0382b4edad9a67378bee081e8f1c528982b832bf930ecf04, 0x115dd5a9b0a1508af8b0d0fb7dc226f95ba8f767c848cbdc2a1bd48b942ad86f, 0x54bfa06dd30dc9f1d6105a32ff885f60a88c7027f9cd52a58d64e42cad98cbbe, 0x25ec242786b5b37184e3d8636f52bfbdc21b8c21352900c942707040ff10c28],
    [0x211f5460e751918257c7624b7077624aaa362edc49241a48db6db6db24924925, 0x21cecb3a6075b0285d7cee208d610bcfb52df96801a8fe13324856e4eff8dacf, 0x3c9ece1dbc23a0eeea0295eb3cf209bf92d55b8e43cb62714aa86e38c8c26859, 0x4754b067dd3839936c6c6d96ed006d8f58e0c0464342fdb1b38cb4ef58316b70, 0x33d9254fd3a2a50d17c2410565d53ac3e2f25a22106198700a654132ce5d1dfa, 0x4d2b73d78e382b6b56acf48910b8d9504d28730876f0c4af0b8504da5de2c096, 0x468112bf1bb2ff9d7dfab63a3cfc2208756c7c108e295b92b4e84fff684ff80, 0x240ce1cfe21c7e6749b2681fedb2abf9bd10558bb4a3adc2623a7361171cec67, 0x5d29d32b87cbfaf6b480b1fa275e370d328ea13d15b631691027ca4f9b5e53, 0x3d3c896bf73a44c9470b0e2c5a54c13b412751b1bb22e006b420840ad2d93bf3, 0x178592748dbf9c344ac85272a5a1302c9cc03f5b15089f7a964ddeb61d9ed092, 0x1939b327a82438da8c605f62324963bb462484f56cc9d2f52378171875fb4b5, 0x6d2ba0c525f46a49bad7d24770572f0c6bc4afabd5db311f514f7c663d68d85c],
    [0x211f5460e751918257c7624b7077624aaa362edc49241a48db6db6db24924925, 0x400f8dd24f2b50b8309ba8ea7737ea510fd7fcd41e1e7a5b28378bc4e1854144, 0x125b63c608e0c3f047bac0c13cccaaf3d41196b31d118d8687c36136840ac180, 0xf9f6fa5476b48ce4214c93017a7a2c79b8257e7eea11369a6f29ed43509ec32, 0x302fa6f85bb2ee082240916232b04544424458859fbbaa085ffbfd36f1da646f, 0x2db820ade16a0e90c4910151fea690c8c1eb3bbb3cd9f0f64b75b8b07004e100, 0x4b092d57302c323cc8e135f1cd41b048880cbca0cd3512cccf169b692ce86911, 0x54b846034efe5e164f250a3ea5b1b84ae8364c05ce6960f703cfba1bb1e877e1, 0x6c401497a372bce74109e430d4566863d7b3c1ad6f8c380d881594a112def02e, 0x50ea8760896149ee83bb886d4341605ef006d972bb673f1de2b60d67f0588e72, 0x509e9f04a8bf8bacca338c3b29a7725b259d65db2d7836d6d6f5875aef632991, 0x5751adc1e6568b903391f24aa03f8a87590019a918c8fd5d642936e22dc9d318, 0xb554752eeeb1acb6ae992ce7ef6f7b0360d01a25e909dd8a03529f20c5208b3],
    [0x211f5460e751918257c7624b7077624aaa362edc49241a48db6db6db24924925, 0x6dfff47343502a8549d59f676ffbc1319753969b2731cd9f076ee918b3f63fdf, 0x110a248feee754a375fa64afb834055db06afbf0303b897e476ccd4c8765ecd, 0x5400e3e1af745830ef5b2e01d9eb4520afa3ce04ab3190804a6897112858a251, 0x5185bf18d6630347860aa3e902097235cdd005483bdc45a9969e348552b884ed, 0xf9805b7ed4abe7273a49f21f5dc2fe1cd80b76f8688f8bc056c7d33fb03a9bb, 0x12a5fc5f78f9a100c6de36b16f90e659de5370f0757031c7614e224dc5adc276, 0x6372f2f186b5b38bdeac54db0a11d6ae0d5195689e82a986cdfc5b8bccf67064, 0x4d320a9ed6f7d43c58c3d70e74209fb6ce03de7a4cc33bf2ddad502787a35e1a, 0x57187ea32870a680e7715a0b1d938b00cfb72bb4db6a64b211756422381f16cb, 0x14ba20244d25a826087e222cab05d7da0d087270a27e01da63a41ffce11d1c28, 0x1672aba5779709c532024b2e891f64a5ce503e7c1db1a432117ff84f27703c6c, 0x1eb2aa659b8f30b6171f03801f33fb7e530e65586b2d938060b06e5b17c95bfc],
    [0x211f5460e751918257c7624b7077624aaa362edc49241a48db6db6db24924925, 0x2e8bbfa2b490cd8f935d1356d76d9dd4b8a7b3f6aeff5a69a2ec4ec523f75b2c, 0x2a2c2dff1770b552506be4f53ec265ebdf2964456935b90d91802fe15f6a7dba, 0x22a8c130958dde1486269124bfac1b20fe197b27ba81989473b58604f9b3f0ed, 0x32dda8852759ef1dccff5b6a370401a38fb8c7a759bbb5defb7129203289a3cd, 0x57b6f44f6bbe274e112f0bf5363bcc1d64fb63a508af25d8be152d07d7ed8f03, 0x387e3ecc2bab437a36fe038a03434c1e7f233fe9122d08c7938a695fbe779aad, 0x26c00f19cd8ef6f45b780cffebc916a1b4ac227caef52170f4a72412e3d1b5cb, 0x72d2b4082be4b53422654d30ac7a4f2550bdea2f529bb43d99e333673e973f3a, 0x279a2f15f090a7ee5f0d71db4229ab226c727fde270da3e0177ac66c429bfdf7, 0xde723287ae8f741455988ce3d25760718fda652fe4535715ddd280927df4600, 0x457915e0f25b2f3be0c0e65097fbbb45411a8668460ef578ef759ec99af1abdc, 0x122f8dd340f963214170d7025ff887dadd6f4c025dfcf384ba9d6d1272a065c4],
    [0x211f5460e751918257c7624b7077624aaa362edc49241a48db6db6db24924925, 0x6bcba336d2b5308ba2c56cae3e88165298a8243ff39ced030ce6dced0a7b01dd, 0x5a3b655f4bf31b7c818d532886e13e047c780f2cc2323a42f6e05f46d71a7b8d, 0x4881e63709e8cbaf66a665a50b03b1ab88027436c9b5cd1497a12ae1b880812c, 0x50823c2146a95e0f6fb2417b1481852cd1f06f8820b9a01f1717505e5029c552, 0x653279b72648cab9d242de35abdcfb25315446d83a9107cd1baadcae82faa5af, 0x1f1a19b1c43be7c202ea6e6ad344c97773a64e65f0b1cdf4af31b07709747905, 0x49f5a7c8fb5aa7170835f1a80519651b3e5a2aa8193022b18cba1e3700ffb074, 0x5234f768a25e85cb5294da344e0c5f121e7290e8bb1aeffc03f66308b9a0068f, 0x5673c7e900a9daf088df7f769edf523e21e641d8e58b644d8a69b74e5119815c, 0x2c92a0a778a210b971da76e3463d60bb574fdf44cbdbecd658653661537a16f0, 0x2533f6687250890267b7a04100f5124f9f0f725237348f1c91e395f7fdd7b697, 0x4e6af6edf25cd6b428d43f9f77a7c4057061b5b85ec5319cfe9baab4af2f96fb],
    [0x211f5460e751918257c7624b7077624aaa362edc49241a48db6db6db24924925, 0x44cbd96991f7d971b89c5800f0e138e51dfcc8cb4795be735fe80aa5da2a4be1, 0xdc05d0320ac8d0f8c09162ebbb1b8987b97d24791153a89e46b19cb15b14fb1, 0x68e0394b1800fab18e8e98cc88be09a557ef96baf5665b4cae0a679567c4efd9, 0x26ab44d7246ae7786b366e247d55259efec54f1306d31061d4c05f915e3b201f, 0x57e8ac4ff3c2b87c254ad37c966107e63bb1c83e7da49a35565f808d82829ec4, 0x1489a59617ee98104e97b489ed6cba047e250fc31e43ed181528b4ca4b6cee37, 0x170ac30339fe65a0ef1e38a9d6ca54bfa9cd0be1ab0a4cc032ff7116b5538f56, 0x7070a3b7f1d4ea58cad142c23dbb4ab16c03057501dab77115ef0d1c54d33928, 0x1c227ac8492fbf2ea84f9c95c71878dd1281fc197b2706364c0be3948567e1fa, 0x69dca28432398c9498a526bfb4fc0bd6e4cce3d201e0b880ba41f171fd4622b, 0x56912f51bc09533a698b50c9835d6770d9d488a54f0d1f7e89c169863d3cf78f, 0x3f2fb371ec19ec98695f6f88d28727e7717717c30e5221d102f1685ab31ad3d6],
    [0x211f5460e751918257c7624b7077624aaa362edc49241a48db6db6db24924925, 0x1d7d56213020757e83bc27eb1b1e14176e8059c4076ca43481c144ea1fce738d, 0x67463608b840abafa6c00878101d1db1000974aac3ea5b4da5818fcf49fbae9f, 0x7787b9b36a18d8cd3c2f802f6abc3496e3a247ff3921995f942abeeb84c341e, 0x4b3c99006f5f828bbb5e2fd6b6e90ecb5672e8d5f25eac2748e3dd3ac636626d, 0x5fe218433774e458abaad94c7f0ea81ae7b681560235a1e719d257ae392d4a82, 0x25771779fc30f11539368d3788912f58b9e9c4749462a8da7a915378c27c52b9, 0x581f86bf2430563e89b9b0dd7a46d3b0fe14d44ee861c75a82f6359d4cf06d8e, 0x39ac21eecddc047295b2b546c84492d99486f3de1d30aa384579247498de8d00, 0x6b776b925107d7d86846474a10c76930850f078da65f33ec236342bad24e837c, 0x2a0c585079d36998322c5bc3d6b1bc3071bee3ef46176e0e43657750a330ff6a, 0x36c2309b584caf37ba8d57573d557f4e90aa0afd5b821473c947021f024ce0df, 0x26e457cf2e722ce5875dc78a12ba30b1c2c34aff63533909caf79e39407232b1],
    [0x211f5460e751918257c7624b7077624aaa362edc49241a48db6db6db24924925, 0x6ad938ead9454332770c365ed4a7f7fe35b137b5509992467af575282fa31b52, 0x34094b85930b65f75317ae1d4c01234c26af324a8c716dcf4b9893e872d6efde, 0x69bf5c403a2f2ed3f769ad55a01148e03842485e41140db2e1e5744ef02dc550, 0x3ef2c6a428e98a8fb4c52bdb0b59a6f8f1dfe75d6c058211186b0a13c1f2ba4e, 0x59a555e8be78fb88be42e620a8fa39fd8bfe89c5902f7893623a776444daff5d, 0xc1d683671c6494dce55ca8a10fa50dab3dc636a6919a18e9291c8ccfa7a3de5, 0x6542213b7baf7df7fafdcce46290f26fac84c9c4386794235fdf7e0ba7ebcfe, 0xdfe34a9e213548279a03b274e9addc72e7903ef20d5323d86b5717dbaae0c53, 0x28a8d4fedc33461577553c77de50aeecd3b9e7e7fd8c1903944b8539dcd7d26b, 0x271b3e1d976288b33fd2247e5b98e99f9bcd7b60fe713c59cfddfcbdcf264862, 0x44bd3ca3bc2ef56087296a253941dccf44e6e722b22b1a1a2823e3a3ea1a9848, 0x12af01cc47addbebb842d923aa919f20989673a12e0405b89daa410e4e6c1ca1],
    [0x211f5460e751918257c7624b7077624aaa362edc49241a48db6db6db24924925, 0x8c820f9236be50a7d66596fad80dca4dddb1364c5ae7f4379a403e314bbadca, 0x536b9e823c23426842edb921d2cee006973848d82dfb226d05fef53ccbb38ee4, 0x16a3670b09419100197d18bf2c20a53eb7c12707900c664a6569619df92b2d56, 0x661487090d3555a18d1744661d58cdae39be044c151727df84659a035ddcc5e5, 0x18551f2b2d545d619ca028cd6451c769bfe06481c50e680354ac27b5f0abc2ec, 0x3359e02f84d960b2b1e826e5ff5685b601a491fe8e0d3e63f5eb7cdc380901fe, 0x4b3228b4d7517a93cc20614ee600a3d2292ac08437a1de27943bbc7e445affdc, 0x3a69b36c4117d5f4affde95b65c2c06e66a2d5fd0ff0715db1b3abbb1b6a381d, 0x6599eae05e3b09e83ed8c519f94283e1a9da7651aa1b49052d7131ee3ddd7865, 0x5d0a1ef5cf04258f550a1c8342fbe37d867e83819082fbf0a9a0e84f495e1a77, 0x3dab910c9d4537f27fcaee52dacf38ed6dbda65a6969de43d1ae710d5423b127, 0x729288c0d70230bda2f3a86dff17ce5915c82971c4be7182b24c7137b9caa752],
    [0x211f5460e751918257c7624b7077624aaa362edc49241a48db6db6db24924925, 0x6e7f0128823427181d3f2988d58a4fbbad63691b967355fef0c7e278fbd1d720, 0x4ddc11d0b824088c7ce8dda7594048baa04c80b3aaf2515875c63f5bcd20b508, 0x5905312a901ef6d39003b328727bcb3fc08b19abaed9763eafb3d9a20defe0eb, 0x665cdc00fddc48f71129a76871f51b9183a4be7bbb8facfca162a7360e8b0109, 0x5bf869768d98254bcfc75d03157a0122fed945ec04664514b02a15070a67d382, 0x55f8741953bb6c8d00859c1f82fef2c370671381e06c739318e3bf813bd34052, 0x4cf19c72dfda5a0ec6a35108f0ace7e364fc615e07e9f935f27f2e79436b032e, 0x6f18a421cd52e3a4f85a03b526dfa7c07bc996ea3524049f90c9480508c2c285, 0x306e418de7657b2f64e11441a7e72b24b363a1e4e4dfde7243b23f15439923fd, 0x3a5328de8572db2437a9d7a33ec3f422e136962c506c16b9c38f4c43f096fcb, 0x19d9682457532fed6d02503a5eadb696ebf58d6cf0f9a0123f4754d6c4f3959b, 0x6c3a29b9b3a7817a4016ce5a58c0ccdc04b474190fad1750f15c7da601e3e2d8],
    [0x211f5460e751918257c7624b7077624aaa362edc49241a48db6db6db24924925, 0x63e4ca46c4c298559e73c109bada6a352db38f51730517452fc31a0, 0x73eda752f99cb579fb80bea243a6a69db47c5fba05956522cc3b8e9baa268ed1, 0x8e9609076264dd5564fa7d0e86f005cbb0daf752bb836323d1800a00, 0x6963af621266da53b78c314d5c80d3552e679354e63b642d0a40f80315c3b4de, 0xa89f7f0da23fd97d9a787dd02bb587d675e4376b03a6d79cbcc5c2bda653f23, 0x16b3025427ffc6858fdddee01e95086685a5d0d387857266194ce522e7bd2264, 0x13890051d6ed34081234445ca5ed1f1e5813ca03987f6aca7c7365b8763d645a, 0x3247b483b6d4cba76b2f589bf4ebc35f3be3382ee238e56012ab498784cc4c67, 0x5d9fac954a76e19cc6e9f6fb10bdda7bd94670a1d9b81ac1f3f1354bf777f503, 0x1cf75a3ce7149ce6b8bbefa986af52ce8e07bf1455769adc2ea1af7ec078bfec, 0x1efae28c5f08a5b2d1b3fe007eb36a8d959d6031e00d0a04bd6829f6f6f64a4e, 0x509f64be1d7d833fb93b781571d5b6982fed9f27e5acee0158117ecab9f95c8e],
    [0x211f5460e751918257c7624b7077624aaa362edc49241a48db6db6db24924925, 0x5a4f030f3d165b9ca7a894fcc4a72990b04a2dd29bb7a8, 0x73eda753299d7d4830837dcf487b6428d65970a3179f855ac29874745febc101, 0x80e79108072f28d8924e7b1f33c218157d75469f46ccb40, 0xa89f7f04999f41dca7e672ec87d3056255f85d435f53dc8a221582c7dfc8b23, 0x3f3bcfa1b99bb8b30cd5e97c3d20a8289b399ff0a06257f31eb1ab44887034f2, 0x4687a2aa8a19ff3dd1baee749b58d8cc1a493a793a5b3c33d41e86f26aebce39, 0x5a427e8c5c9ea20e4935a85750d5b6dfb730fa70ea789bc30235cfcbe6ee5281, 0x2789070877c7e067da05d5bc25fe4acc2516420edbddeea3fc51f6954839f7aa, 0x5316cbce9d394e251283884dbdc7422b4828bc8cef86396da953d222aeb68d5c, 0x627f7993727b9ac56f55cdfd5d798af8fd5a1cfdf725c56b26223859042c80f, 0x29105079ae02268cc5c75748acae0ca5bb653e0fc3ada0517c3ae8ad116c0e08, 0x645060eff6529a560b8a5d0fe33010c6b33c13de4dd4bb1ff2f5104efc4d5874],
    [0x211f5460e751918257c7624b7077624aaa362edc49241a48db6db6db24924925, 0x51a4ae2e87a542e33337a3a3b92f5bcb38da8, 0x73eda753299d7d483339d808097a9c61bb747df316e0c6e3ab406adc7cf5f3a5, 0x74892b4ae9e47803020d6fb2af3494bf9c4380, 0xa89f7f04999f41dd61c8800ba66aa818d2ddfe11dd5d9bbba1c916291f3cb43, 0x3f3bcfa1b99bb8b304ab300462ce691afa3c267756e9cc1ef828b1f1281db4b2, 0x30a42990189f2b9d660d8765d55e7d49379f9adae229ac4f3cc2c116cf880c54, 0x1d142639ae4ee03b65a1856ae30b12cda0103425e39d19a613b17faa5478ec43, 0x2cb9ad0a490c373c169571736c648fcdb899068ca9fb312f1dd7449b08d0ba9f, 0x6010cdc418023ea3e751fbcd090252b1236912d99f48de569540445f7a8357bd, 0x1b51f1822ad7f7322d91c8be9d6de74fdbdafe77dfd559629741ef2242504ebe, 0x30d264ca0071a97c69099680c446db50b056edda2dc7d73aa3a7b39784ed6a33, 0x2c1c120c73d28794f79a0f573256660ee82f10e84f55542441ca4ce2a17a9495],
    [0x211f5460e751918257c7624b7077624aaa362edc49241a48db6db6db24924925, 0x49cf344281f3ea0999ada4186402, 0x73eda753299d7d483339d80809a1d80553bb6c8433973003f4ff6a0910df82b1, 0x695a98a220095667295e9a16b6490, 0x49c5c7920335acd0dac7b8051d66fdd4d8295df9a78d1608ff11118d1d1c9555, 0x544fbf824ccfa0eeb0e44005d875b460f71c3b4e6847566b72dce86e89978dc0, 0x1d2f4c2341f91a2b3d3b513d19b2970ddf5e3dc9f879cd2cc876b4074022937c, 0x17cc611261df4e120dadedb9363bd40d28f08de8d9149fa06f6528264d942800, 0x14fd22851fb50bbbb526047f7e657e3d859eda670e8c7f4224a8bcc5dc0e002a, 0x4dd48f18d77fe761020db7a2f38a4f6fe6c9a2510476ced2c113ebb373849892, 0x4fecd5f863336ad4c090c3bc38d6e32baff846b22678466804bf180a630fa0b4, 0x29bdb7ab3249952bb6870030b7f4add56d75f599314e118e6567b17735761465, 0x65718b713ad53e20179148b835b3288195206ff4a58ed4bc5b08e36545489393],
    [0x211f5460e751918257c7624b7077624aaa362edc49241a48db6db6db24924925, 0x42ba47654df1a7f611a, 0x73eda753299d7d483339d80809a1d80553bda402fffe3bee487e0dea5dcd4976, 0x5f3ebde6bfd0259ac520, 0x544fbf824ccfa0eeb0e44005d875b460f7158e8dd172a249d71ae85e378b6f60, 0x1f9de7d0dccddc5982559802312c23a45ca815752e8b90e97549ec801753f1a1, 0x247b1f2c127760b60c8a258c601f3cd1573818c249656c03ce979697b52b8707, 0xef9da927483b37b7dbd2d4916a4b72fdd8797545e99e1edab53ac54664dcb8f, 0x1bf1dae3a9007644775f77c46408804a3f22292f05712a65cb88e6cc2ca9e09, 0x6390306ed8bf66b26f14763476b0212297f0d06c115e5968981173fadd7770cc, 0x1c9a31461e6bdfd3a461d780a25d75ce864ca0c6c7e0db473bdc1ec77157c3aa, 0xbe4844c88d63e66ec472dd3b59a06c580fe705a872053928664ce51a713905d, 0x4317cb2056deaa0c86b80504988ae8f03f8427aa9878641e8e3252d9a06b2b94],
    [0x211f5460e751918257c7624b7077624aaa362edc49241a48db6db6db24924925, 0x39f6d3a994cebea4199cec0404d0ec02a9ded2017fff2dff8000003bf78db94f, 0x73eda753299d7d483339d80809a1d80553bda402fffe5bfefffffe2e8558cae9, 0x562946d5154, 0x544fbf824ccfa0eeb0e44005d875b460f7158e8dd1732ba22e8b9b2568beb690, 0x34b1d7b17001c4952e8ea803a74990bc9a6d7918a2e7fb455d174b44b0a00b71, 0x6a33389cbe4a748f1ed0bcf3abbba5ab5e9d9d68ca49af93abdc309f99e64d55, 0x1ae9748ebbf24639e751ffdd4b60ffdcaa4c0612fb6d555b324924920db6db6e, 0x6f59db7c86cdc5cbb2d42822f21708d662f95a55fadd1a7f3e1ee1ed28fd8fda, 0x3199674d1439d93dca33478485bf190dcadabc92484f7bfb70e1636b1e86e86f, 0x1bbed0f150e8cf79397646ee07cd6b451e512a2647b01c5446f8713ce9b80126, 0x1d47e32844b16241d613ef30b17f4ad6e8bfb88ae5705804c86bbb4d1d1bbca7, 0x63bb0a3daf51bc29d69f0d395fc991bb63a4ab39eda96c40d4cb17efa21a656b],
    [0x211f5460e751918257c7624b7077624aaa362edc49241a48db6db6db24924925, 0x39f6d3a994cebea4199cec0404d0ec02a9ded2017fff2dff7fffffff8000000b, 0x56f23d7e5f361df6266b620607396203fece3b023ffec4ff3fffffff3fffffd5, 0x4d491a377113a8daccd13ab0066be558e27e6d5755543d54aaaaaaaa0000005e, 0x1513efe09333e83bac391001761d6d183dc563a3745ccae88ba2e8b9ffffff94, 0xa89f7f04999f41dd61c8800bb0eb68c1ee2b1d1ba2e657445d1745d00000041, 0x2888cd4d69d9f9add50b462a31e9d1cc280570d7dfc623bf33ea847962762753, 0x656ff268c469cd9f2cd29d07086d9d04a945ef829ffe907f1fffffff20000001, 0x19c308bd25b13848eef068e557794c72f62a247271c6bf1c38e38e38aaaaaaab, 0x22c74bcc2615a595a8f7c0cf3616f401991f4acdb332b532e66666661999999a, 0x6963af62e003892a5d1d50074e93217934daf23145cff68aba2e8ba200000001, 0x6a44840c3b7b082cd99fb0b208d45b5a376dd6581553d4546aaaaaa9c0000001, 0x6217dc5a0f85429f8dce7bb808267bb5bd02ed3d9d88753a3b13b13a3b13b13c]]

/-- the inverse of the matrix (not in the code) -/
def mInv7 : List (List Nat) := [
    [0x13a85f0, 0x73eda753299d7d483339d80809a1d80553bda402fffe5bfefffffffef31981a9, 0x35c063c4, 0x73eda753299d7d483339d80809a1d80553bda402fffe5bfefffffffe8d548081, 0x84e9b0e0, 0x73eda753299d7d483339d80809a1d80553bda402fffe5bfefffffffeb04095e1, 0x136cfc50],
    [0x73eda753299d7d483339d80809a1d80553bda402fffe5bfefffffffef31981a9, 0x899a9900, 0x73eda753299d7d483339d80809a1d80553bda402fffe5bfefffffffcbb7bca89, 0x4e2f1cc00, 0x73eda753299d7d483339d80809a1d80553bda402fffe5bfefffffff949f56661, 0x3735bfa00, 0x73eda753299d7d483339d80809a1d80553bda402fffe5bfefffffffe278abb61],
    [0x35c063c4, 0x73eda753299d7d483339d80809a1d80553bda402fffe5bfefffffffcbb7bca89, 0x9a9caa9ab, 0x73eda753299d7d483339d80809a1d80553bda402fffe5bfeffffffea00d90771, 0x18b6240508, 0x73eda753299d7d483339d80809a1d80553bda402fffe5bfeffffffeffb055eb1, 0x3b3010c3c],
    [0x73eda753299d7d483339d80809a1d80553bda402fffe5bfefffffffe8d548081, 0x4e2f1cc00, 0x73eda753299d7d483339d80809a1d80553bda402fffe5bfeffffffea00d90771, 0x2df1045000, 0x73eda753299d7d483339d80809a1d80553bda402fffe5bfeffffffc89bcbcf01, 0x213a6c3800, 0x73eda753299d7d483339d80809a1d80553bda402fffe5bfefffffff6c78be4d1],
    [0x84e9b0e0, 0x73eda753299d7d483339d80809a1d80553bda402fffe5bfefffffff949f56661, 0x18b6240508, 0x73eda753299d7d483339d80809a1d80553bda402fffe5bfeffffffc89bcbcf01, 0x40b9cd77c0, 0x73eda753299d7d483339d80809a1d80553bda402fffe5bfeffffffd7482aa511, 0x9dd5820a0],
    [0x73eda753299d7d483339d80809a1d80553bda402fffe5bfefffffffeb04095e1, 0x3735bfa00, 0x73eda753299d7d483339d80809a1d80553bda402fffe5bfeffffffeffb055eb1, 0x213a6c3800, 0x73eda753299d7d483339d80809a1d80553bda402fffe5bfeffffffd7482aa511, 0x1877d20400, 0x73eda753299d7d483339d80809a1d80553bda402fffe5bfefffffff8e6e0cb41],
    [0x136cfc50, 0x73eda753299d7d483339d80809a1d80553bda402fffe5bfefffffffe278abb61, 0x3b3010c3c, 0x73eda753299d7d483339d80809a1d80553bda402fffe5bfefffffff6c78be4d1, 0x9dd5820a0, 0x73eda753299d7d483339d80809a1d80553bda402fffe5bfefffffff8e6e0cb41, 0x18647cd30]]

/-- the tables have the sizes that the code reads and load without a panic -/
theorem sized7 : (opt7.sized 6 4 56 && opt7.below blsMod) = true := by decide +kernel

theorem ok7 : opt7.check blsMod 6 4 56 (opt7.plainC blsMod 6 (opt7.plainM 6)) (opt7.plainM 6) = true := by decide +kernel

theorem inv7 : invOk blsMod mInv7 6 opt7.m = true := by decide +kernel

end Verif.Poseidon.Bls
