import Verif.Poseidon.Check
import Verif.Poseidon.Primes

/-!
# Poseidon over BN254, 5 inputs (t = 6): the tables, copied verbatim, and their checks
-/
namespace Verif.Poseidon.Bn128

set_option maxRecDepth 1000000

/-- starky/src/poseidon_bn128_constants_opt.rs: C L358-467, M L2341-2390, P L4463-4512, S L7888-8549 -/
def opt6 : Table where
  cF := [
    [0x1448614598e00f98e7ae7dea45fbd83bd968653ef8390cde2e86b706ad40c651, 0xab7b291388e5c9e43c0dc1f591fb83ecdb65022e1b70af43b8a7b40c1dff7c3, 0x2b7cbb217896f52c9a8c088e654af21e84cde754a3cef5b15c4d5466612d6adf, 0x2bc6b0ddbe1d701b6570428bdc1ca1bf0da59ff3bbbb95fc2bc71c0c6e67a65c, 0x123a55a31980384f3d20b2cecbc44ed60c38c11f7d20e9271efab9a905eefd3c, 0x37501cc8c9dc819309a769f4df098e588b01858bc8eb7e279e2883be9fb8c53],
    [0x15de231637a8ea3473c2499e1bee320c17c6a0a4f48a9b28ad1444d5351ddb36, 0x1c9b1da36989206de9173b0ddfb539bdf07f89df055efc1cc489002da3f4b534, 0x1f28ec9fdcb3854cb327e3e2fe3958550c37fd179198a41cf20a1a4c810654cb, 0x2a0418e12dd26e796c091bc1fb1e50f8290263b3c80f68036e6593c2db2f83c6, 0xdf6bc990dd688fabc1f8a5f8fa02a6a86f7a3a9ee452f5684d123eac1507890, 0x24cd99ab301ee74e2382e238be9941d9876f320e9940481647fcbfbca7eb6a8c],
    [0x1036eec6b3ab659a50c22ae3b357252e64641ce082e5c084bf61a4e61198ac85, 0x21ece1030bf5ad5759f35ba96af936d82a64abe4f9bb2f50c28a488209286118, 0x2e5d9059e62303d8d17fb509a60afdc4d8ee1d9137f8fff0d0c6e9135aaf66cb, 0x2591d88c11580b75c4edf44dba6ba31c696f6789e22d3fa63bbaee71c6986857, 0x1e647345c108005a7e2f870f01142223bb22ab44a03c7198852aaf6d765c3bdd, 0x107e279d710e65358ef44f966e594d2ba04e3e15e37ca5aa5117adc71b441f09],
    [0x173b298298adf659b3f695a02f51617ecca7e221f678375405f20405e377a44c, 0x1228a0cd105946870acc7586969e7e3b3e8d4f5f46d450b14698202adb9ea1ce, 0x778cb45d98c0ec68849bf203dc7b151840928cc9d7f40670bf7d48b3c661d68, 0x72a7ff12706fa3b3400308feb33ef3ddeaeb9a5678bd4a17dff096fa99e9e64, 0x2b0997b01165c2874503dc12fe77d6ab58a44c583b939c35d0805bb555cd09f3, 0x80805129259af50e2e5f2d8efbde358132da1c19fcb7daf48985491c9d287b5],
    [0x143e4e1f2af4def1b19038a0d6ac9606e33f40704799f0890b4aba0b2d6cb923, 0x1c16b447df0a3026d5b9123abaf02d69076c59153052660df237b5221485da3d, 0x2212763564a17c5b816703e5e52a7db0c5bfb668fe2e424cb251361426830b92, 0x16dd30a48d96f76e9378f65bc341781e97cfb94af5a57091bf341342c0d7a6e, 0xefae4a569514657f67e19ca11c01e2426ef0faa2bed48efe0711d338ea3b86b, 0x281dcd532dc450be559536e252e0159ee21d5b91fbf9725f4a57dd870d80e779]]
  cP := [0xfe4d11a8b3f24dc559b4a37118f15ab83dad5a74dfaed41637e994a81333f95, 0x1857938e02790819328278a913222344640f200c51410456089768bfcea561a5, 0x2007d043ddfc54fd999f6f4b63d4ca66c5f126951388cddb1dcde32944155675, 0x23de66b927d576792c69a2c6e7df20d3fc745614f5202780bc2b4c2fb27e9e39, 0x2bdfcbefe353fa2ffe79d2efd5a51c981345a2de40ef5c764bf90da86fedcfe3, 0x26cffc0e5984933313e4f06dead07943880da66929d3aded77e0fa7f994244fe, 0x21c532ad0d50674be3947ff2d4eb744eadbaa2812fc0fc25a41cb84c0fd3efb8, 0x246ecf2ee4531862cc5a2d7842fe3c780b868ef445f70c9a1e2bff46149cc46d, 0x397b3980a3cefa0fdc7339c4f9500b3643c54a3ee7a39600304741a2e772e90, 0x144490957677636a9a7bf12b1ac99af955ea70999b2f972211552ac7562c6aef, 0x4a96669777938cd9643ff257d5f56c5f4f1eb5adea49a678cec3ea17067f1d, 0x2423a50871429a8c48ba13e4df938e6280d715b39af43449ff06030e346e3e2b, 0x1ca50640e8f42c03c288014e8ef12b8014c3c40a62fc5856ee9b633146ec602a, 0xa8335c2fa762d09bda1eb7e22b11cc117df788c0d023d6d8947727681a7a9eb, 0x1c57af7a6796ed37bd964c33cd1bc9c89747ba21df6100209fc3df9f707f1cda, 0x8f0ad5a6c01f0bde7d1a8e7d26848179f5ee31d6d59bb8e2c701e37a4cfbb22, 0x50c7821c6e53eba185a6278fe04a5c1f2f28641bdc843c9fab2ac897e8a2466, 0xbc5d445c5df52fb9b4b9d6954bc75763d53b0c2089832ebdca9605679f68d0e, 0x10a6b2a07c472c2a32e9dc1f0501fbda5c9f05b861d1c78a5cff3594197b73d6, 0x1a24448b3442479c7ac8191bfafc67d9c75e40200b318f7c72d0c2d908b3ddb3, 0x5e230c7b91dc067802c6c9fead50897c03379389e2a7def370ef4c28e5671be, 0x1eead685d9f3577f7e364da47f74d8ee2cf6cee31660055615d8f294a30294ac, 0x4a22eaa10791b59b1bd8ad9626df74275535ebea301f8f912c521ef29c504b1, 0x6377b60615b7b9a9f0eb2276786d028cca82fbce7db1cc27f50b8486c8806da, 0xc76495da478bbdfd623fcac2f3b08d641c4c654738fad67b9e90ea0715714f, 0x250ad6b94e1bd06817cfd2421423a95e18ba872b276c199e16a8fc650c5a9d61, 0x1b2e0e66146fb5b1221c878286a0983e903e6a95390f57d298a50dce6f52ab47, 0x18ca890aaeaef97c7c17cab2c3518fccf1180b8fbd134fbcbce38f786f2c0e03, 0x1b5c3db94d9e0cd45571c1b88084186eb58930bceceb2c8f775b12f37961bea0, 0x6294c72686a69b6069349a73a81542cb16a6ad71337b7c7ff5a5dfe06a260ae, 0x2c18a25a8c2cae179b1a643e11159e8f5c9da448aaee3a44de48be3eca7bb253, 0xfc45a2b9bd6f41901baa7afad40cc28d4479c304d101067c3567fe449332eb0, 0x378bc3b5a32cf5ca088227c5b6f0a566e0b75733c704804619e6a979bc1d36f, 0x255375346beabd092bfbfd7278b437bdd3c18bd951d7f4220cdc5013611fd9f, 0x524853a2a9717af64500fec836c13807e5978be32886047bd3683a5a65b6859, 0x1b3998553154fc26ce88f0488160c244e1dec648b930c132d077cb93997af5ea, 0x12074b4d83e92f8e0ab92429aeb5270140338a97ee8e5c74f2b599d9577f25ff, 0x1a40b1e01a096ea7ebce74c027536bc58778b45dcefb7cc056256dd07326a662, 0xf5228bc094b9eec1967d778a2b7d6b4de58ede8e0f974165d37ab6f2336bee4, 0x27314b961d2f96970977a33f2fac6823c043207e4b6a48a05537ea78d779c16f, 0x2a78f5bdf98afa1da6dd45ab360b877703e1f9f0e797fecca45327ee4ab46595, 0x2cfde59ca2f01a27fce554c265bc23fda32ddd9dff3dd0a2f1dfddd0764c20b4, 0x1925a7d1cacee560010f843ef5fc9e7b0294667d871d49e3523a88fe0af56aa, 0x199ff4bbaf94ee387560fbbec395db1af9eed9f50dd60dc3ca2cb92e92452263, 0x26f7f91d959cdae91907b28fb2f149dbc275f13d55776da51a88200f8e7caf09, 0x24cddd641b7ca3bc6c4d257832a5ae5e92126c3bd2e9f05e012731114d62d0c2, 0x18547edf50bd77b2653c2a53284c999dce5dc69dd613804d10a0ee96bca55738, 0x2b27178eca4b798ba72b2e6b566bdfeccb2a1e60d8504e4c8ec9192f2baebb, 0x3020eb88ae7acfd6342709f3d3be45cf2c146bcdc906ee5795273ae4b6e7004a, 0x54b81a6d3b1f002230c4cd623f77b0fb6eeca3afefafe694544eeeec1a170f, 0x4d1e03c93510ba6fb49bd9ab51063d3b15e48e2ed449bda2765d03065f6cffc, 0x2ca6a28e6b98b8c8220abc091a2fafe86f271eef1d93864b7b2bb5a160dd8d99, 0x2a586600678651f144bf1e54de3d6f8fd519daaf4a4ad9a1f32233e89f9d6733, 0xa94a9fb854a3c53411d736ce58dc82196b2cd13144a240a6fe173508a221d91, 0x2d336c647cbb5478e3a72f20f41d135d35f96fbdd9b2b2884e6b23ec201e47fd, 0x3dbe3f89948f9f4715c491a483dfbf6f6f9dcfb5853c5d3ced707f0050a218a, 0x22466ec15338114c3b316b2d986c8c0d3d14800d82275a42f476b0ffdf9435b4, 0x1c2d6c5b182f394e8d36999e91a9eee77da71f5490961fb783a4f8e6f842e687, 0x4fc56515cf83247e370e48809d3bd245abb52638d86b48a1cb743167db2294d, 0x1aaebc90617e5aa4b4f9036fcc5092da7edce9c110e3eaf00d7fd39b17aaed27]
  cL := [
    [0x15f7dad928cb34e6858a2deb2f9d92c452a535a096c5d713f7319c0c577e413, 0x60028307221323f46eb56773c5320fdaa2d7123875b420176e34b3ee079e972, 0x157b288cec9b5356e60373bfa43e67511e2a7e62493650c8f38d819fc34e59d0, 0x88dbe88f3fe8fdcbebc34ce3f00f07fda411d780ecff1da57660aebfd12ebfc, 0x9f13c89213c82d5bfd38f8f8bcfe46fdf403d28e6d349ec0176e37df9c912fe, 0x5bffad53722ac6c42236124c3200669abffa6dc923fbe5141c8e4157cd317a3],
    [0x290a7829a4cef2e25d2f6f28421463344bfde52203d4cca736573537af33421e, 0x9e7209dac7151697be17d3e3ac52b0ee6467929b878d814ae4cc2734b39348f, 0x7629f5b7cd3dd536df6a866a071fb5df56352fafd0f097711cd1667ea344039, 0x11641de0af5d033b442dce1f8334eafd4959f122304ea6c2177c377d55eae045, 0x1021e806d83de4cbecb3c1650c761774e83cae4ecbbb0df13310150cbada88f4, 0x4ae37e1e7676e1d3cf64285f704135c8cd640f70c895bdedd51ded260fbb69f],
    [0x2a491d28b320ff77bf7221b59fcc2535c7cfc9c0f11a5fdc5e49c837a71f0239, 0x2ba7c26958118f0b751444e8ea3524d45fccefd8744618e66e55679e42be29c6, 0xc6516f4cbac8b8f29be9406c6c309df34e2da7d931133e4a34f29ec6283e9b3, 0x2991acc7db5eb3159f8766c49d692079025b480a70656435ee70c5687daaeb0c, 0x29d7605b413cddd192779b7325e1afb8e52ed3e97e92adf701c7a70c118c648d, 0x2507bd3788f57cefee754d3ff5a92980dcf062ae4a3fad93ec0059eb2fe545ec]]
  m := [
    [0x124666f80561ed5916f2f070b1bd248c6d53f44d273d956a0c87b917692a4d18, 0xa514a5c227f4cec95dfa029e8dd124c34895aa46bb27c0911f3780d5015540a, 0x278bb49a7b4e44aea46eb0f882cb692801a6e60fdd5b5c23c63cd65ccce4fe0a, 0xc399e9f67aa40707a203feefb0b958bbdadcec5ca34901d253d026a2419f6a2, 0x1d6b3d5f6ea369c26f825d2362933eaa31ea35ec0a77c1fbd9e01ca1523e4432, 0x24be510095436206dd0abd0b0cbb95c883ab304aa52598b1a69306ec981a688d],
    [0x11924f02fd19b09255aaa1cf46ea0518e3d7bfeef47421609491011db0bd0b02, 0x192e16d17d956b257b85a652eefdf2ee09589eac5be80915775723d2cb1da06d, 0x63edec1bed831f506af8db648d6fdea145345887e8bdcff109035a1d9b674d7, 0x83f0df3f1a0351d0330ec3ff602ca8cc353b7f6e762c7107184cd7b423449f6, 0x119ef188bb3dd0d32306976c19941e8664be687e7a69692da27da215a6f06d40, 0x211610e2ad4a377426fadf7068b0c1a6c299a164c1c1a603eaed944870d0b9b9],
    [0x247fa7f022304a1994ff505456c2201ef9b717369498d3ffce446601ed9df845, 0x298ce0c1e3113bb935c7058e7772b533b1aa9db0c0926bdc8917e5605ca3ac10, 0x1baef1cb5509b526a42061fb53657f99b3232500e855192cbe8c940e068c475f, 0x1a6764d5943fc4a720b4c0a19fdb8c711984307287a58b9b5f9f5d58212cb263, 0x2d9e0ab5c06893dfdfd03481381ba86b6e6292df5609d71f2c64b2d9a79f809e, 0x15a67d981041b1f6f09f3f9ebefd864e779d3af08157786ac077505e50ec79fc],
    [0x3fd7b19ef2c861f22f77ff810f54e277bc94eb76c02d79d986be3dcdf051c3f, 0x94cb4e83621afd271e41bc71727f0158ebd612239ac9d698b17fe4be05b7fc8, 0x1324564ac7bdf9e22164e9858d7fa8e368b165eaea3daf4eb67ee59c0df2e5d4, 0x11a63a26feabf87fa66bde66cc25a922c96382d76c6a7ff48f1537beaed683a, 0x25f16631bf77060f7ea34087c025bf135784319ef08cda2e31419ee0a529e658, 0x49327fa79d28c12a2c82406947f77f06775b0287468b3136877701dbe7c9598],
    [0x18bd41239c3e71579a677443ecffbd555a81eeeea69352a68b67c8563c0c2a06, 0x3d880395be93c27d649af5fd142e76b33918cb8841d5a28173bd5cf7d328791, 0x5761b8c6aecb1a8ca4ea4dfc2c8376064a4a8004ceeda210a55240562ddc13, 0x8ca7b64657c3548f32bef5b63ad24288a41c0b251099ad27f9434307e3e64d4, 0x144c7a11da5a7c5dabae3f33fbd03cad86d18bc594c79a497ecb9894edb554f1, 0x230940dcc5232658ff9c29697a3fd416d170e8c998f1aa85dea0c42d79f951aa],
    [0x2d78c3a5d28de9ff35bf0a257635196e5730ca7f40493277078cd75da8b4ebdc, 0x28eeae6b5866ad68e443bbaf91680db7d7e2b3037e38fef61b42cbccffceca81, 0x10c9e283159d58cb4cb2e35fde83a3ba1fdc28002ed9963d2a99f186178a148d, 0x1998270471e9361955446b0cdb8bea915ec0675f1cd648ddcb04303507a4489, 0xf971162627723f3feadacb28b0c104cb8f74de508752fa8d7c0db2af13de8ee, 0x1b121c049cd1159e289007e0c9da9995cc4bab4c26fb888ec3972a8a2e656964]]
  p := [
    [0x124666f80561ed5916f2f070b1bd248c6d53f44d273d956a0c87b917692a4d18, 0x18ce75a35f7297cad2bcc25f0ed1bb4f7c592eea8c6903b19850511ddb83274c, 0x138f93361c6546d69015ad48ef50af34fa9e19c6e6844a847eba9d908572052f, 0x13c29b24c0e38e65a1b9428622ba42931bdb65eb5975e66d3c496c7fe6f7a30, 0x211a38485f1e9db425379f4b3fe9c20474c968aba2ef8a4bbb898a8420d0fc90, 0x2fa4d773833d944be46ec798f7d16e9fd02f51c086141af5d69acf97e9a80b2],
    [0x11924f02fd19b09255aaa1cf46ea0518e3d7bfeef47421609491011db0bd0b02, 0x2c001eb6b378c49fc5b37aa41c13fdba486bf324eae0e0063ff83551827f338e, 0x51071183ba1b8fde055b8f273005056fb37684b241f88851a5b550ed0cbc452, 0x14201055ff5412f834d761da8017961213666e5c44d6c5a8237deb4d0f734d79, 0x182177db418ecda99e6e9999c3c0492f4ec27a89b2ab554dc8165da9ba8c9762, 0x1111d2d4d2a013e33fcad48d574587e3d7f7f6b484d7fefcf933dc833d13bf28],
    [0x247fa7f022304a1994ff505456c2201ef9b717369498d3ffce446601ed9df845, 0x16e74e9c0932c76182ca25ffa7dc6ae62b2cfbe19142b2ce1d95ec0839d7faa, 0x1a13e7beefcfa55aef7815712c7b350b465c0785afe7d6b356342b61047d07c1, 0x1adcf63e81b22ad38811b20aa6175ec41784eb99fbee0f3e56a15df0c1ac5179, 0x2f3a76ad0307b740f6e6e7aa989335c6000d930029beebee83c0631b3b435123, 0x24dd1c38ec3e47cf711221cdaf4b2ccfc0991a178cf7df2f3d1b88f858763c40],
    [0x3fd7b19ef2c861f22f77ff810f54e277bc94eb76c02d79d986be3dcdf051c3f, 0x24de008c4b20c4dd769afa3b377e2e72f0a74339f53c3f6ba8b84b0a85fbe9ab, 0x274ab81953247f18a26dae90d93deb1f33ea243af6aac4e05e117e233b922bd2, 0x16a796c4310ddbc2c435ea5ef0d6381e163250c33485426e97a566ab6f2bb07, 0x1befbb4037c8b847d2711cda8600d941a1583cf2fe06a8ae02bbc26e180259ba, 0x3a01ab7488d6cac69f70b90101e5c8beb78bf65a79fd6068c9010ec2e0fda4e],
    [0x18bd41239c3e71579a677443ecffbd555a81eeeea69352a68b67c8563c0c2a06, 0x2a28f2409cb364d31b858844023279404e2ce02d38430be77b2755aeb9193a56, 0x1b8e6cf61af064c9804f1888a6a83f6cea7c57e574c229f978aa922ddccd80da, 0xca6769d4383398d1a04d3d7a6f3510d85fba7f5f6e6d287d447908d11c71153, 0x125428fe689ac0be368c80b67e8b2ab83d8163ba30b4391927f352b3bf3dc5b0, 0x30516fe884be9bad887032b15a83c91d84147d44fe15c90935ec4d421f5ed05f],
    [0x2d78c3a5d28de9ff35bf0a257635196e5730ca7f40493277078cd75da8b4ebdc, 0x2afeb1a63b374a502180680156748121a68fd7002114733bb039f74ad576c0d1, 0x3ddf5c61fc2eae153e94adfab9b234d07b261ad228547ba9218c4caf6cbaae9, 0xc2e8c673f27f45ac1112d92cc8b81ef4af42657d7a114d2d6bcc4b74bbab7c7, 0xda5ededdd0fdac9af41d58581e5aecafee671a5253023205aa9a2b7e1df842c, 0x280364612aadf31ee5b176ccc54b4a5f961cc782168c8f83ff2ab5b4d12adc0f]]
  s := [
    [0x124666f80561ed5916f2f070b1bd248c6d53f44d273d956a0c87b917692a4d18, 0x6fac61a13c7139a37697a657fafd9c12611f196b60aab2342eb6e869de7069, 0x27b4b4ea2ab70bb1a791b43c0571329ee6e44da480d8f0bfed4eb43125bdfdc4, 0xfce2531c0dd9b1906513da21cc6442611222f8c05b5bb5ced0c5d392a1b4254, 0x2278afba888b07c659b7d537ef4f2da49f03e42e6fd4f6ba90966b2bd89291f, 0x456a8c01bcdcc91bda80b7c97f7e9019009163bc2613446a40a49fba3c70ff1, 0x2e4c46b8f3ebe49417334ca76f3dad782cb15d40bd4fc143df9937aae5fdd9c, 0x2c13f0f7c421c96b47743df05ba0a84d302823a72fa019c251cc653bf9fce8cb, 0x57b6bc405c5ad7f6dba556199efad30bf33380cf4bf74ec23214edd123676a3, 0x2d127c7a346cdfcc822076c8df679eb5cf6bd0b6a1fff70f753f1317acaaf8af, 0x1a4dc6959d65fda6047532a57790a1426499672d67b10ea360603bcdabda06e1],
    [0x124666f80561ed5916f2f070b1bd248c6d53f44d273d956a0c87b917692a4d18, 0x1ab539242bb16cb2ca4984bc82002d07c6fc29bd0d9a71e348669ec4f909e567, 0x144bd8b4ba25cebbcc44c0847844f5d945e389efb61cebced8ac7740104e2da9, 0x8325106daf6927a182c4d83e0bbe039fd390e2507a359747a98d35b41bf57, 0x1469c5365c13ba0cb10b14f109d6893eba3239739e970ebc50b63a9870da0ede, 0x111e82bf1fb3d4458829cb1d852b66f7c2ce4079ed210c88374dacb88c69c252, 0x2bd6778059c21f8d5df3e825464319ba8d9f0fd7b2bdc4525ac788061031eab5, 0x212d3cc6c2012c922fd9372f6be58aa0518c392a9e25338071401daa267e36c0, 0x267547f0b00c32e85957a425dd05961a02626ac79b2eee417af0c450646ff99c, 0x15f1012eb18a32c69ac392696cc974530f711109a197501b43d9b49c445d9dbf, 0x24e5916738efe20b55496e3aecbca9239063458c2c562f3c0c2ad45ecb9a0c27],
    [0x124666f80561ed5916f2f070b1bd248c6d53f44d273d956a0c87b917692a4d18, 0x537e9d61e32a91ac981e5442837942833efed46c25b4009d6622c1d5cd67228, 0x2409867674021c13c26db12dc4687258c8a7b8c39ea9e5f0e538c9a5d79d00b1, 0x12dd0ad0bbdad721a2bb795f4b54e08a21e4e5043e30bb1fdf1e369b45abbb8a, 0x194d2892087f1485580dbd9db047343f73d71741cb1d679264d0f15f22011a17, 0xce1f30705772a51b72eaffe307f73c59d16cec505e28a06352fec8497398b6, 0xb4c42bfd8b2eee4229dc6b4b6ae934b6882a560dc0b056952cea95e04e84ce8, 0x2831274ffa49361ca9ad0f3687f1fd840db43b13fc4bd747fcbcce877ed78fec, 0x11c3faaea57cd532f952f56dac42a8d29c72c8d1b29459ec218d5280c374e141, 0xd01440afe63c28b5820215a0a082fe296ae749a3ee6116967d46c4b9d59b77e, 0x27fd7799437558165b866c1b89762a0b94bf7db886b158ce62dd2ba01dc6fd48],
    [0x124666f80561ed5916f2f070b1bd248c6d53f44d273d956a0c87b917692a4d18, 0x2aa5a2f43e0f4bb8b52041f635ec810e7fbd82548dc722605bf2c15e7b2e044e, 0x109e17fad36368fd93917a9c4919820ac8620c5baa64d813f420f25f0e97a087, 0x1c6178a12c2d4fc816077f0e4825fcaed9b6ddbca03d665be624cbef3df6c10c, 0xc8b545f3ba3005742d7867b42b2acb3895868630d4d1ca9bd2e7d18b22f7b1d, 0x1cf272cf45a39a8f47599447b65ed8ec169b564e656acd8720550f78b1aea9e9, 0xed81d4f2b8cc774767ad184b89c02d1cf3aef1866d4b8df571a8feac7e1fb26, 0x25c22916d7c3d030b6207eef339a432d2f2a485a98a63fac53be6a93d90cdcc9, 0x140c2f65889d437a0736acd2164839f1a951aa1e9ee18258b701b19d0f880820, 0x19b9bf03c47ce774ff4541d66232a3a61a1eb767c37ec93730c2d29b43ec2d0b, 0x1464a2e5c87714bb4afc1b5cb90f1cd587ac7f3133e7f4a5e45d0426bafa3946],
    [0x124666f80561ed5916f2f070b1bd248c6d53f44d273d956a0c87b917692a4d18, 0x2fdf0895b6e7dd081135a74466610d02ec2f5e53d065f8f28f55626f8984590a, 0x2136a6254155d5370c654be03d5f2ea833abac83f3ee2aa86080b4c812f6d9ee, 0x2c25045d4ad7cabc1457656efe3091cffa14b2a3c3a74cde1619658015d69a3e, 0x35edf90ee5ee2937a2258e02a11d996be7d2263c30a8111a8f461b31b61d756, 0x24a6181596fefcf6b89c799218467001223efd7b39880e0b241bac300d20a3ad, 0x29dcdaed731430d9695b46313d84713e6dec7b565f79b94b2cfa3dd7e9e4ea51, 0x1724f4a9b1696abe55d95e9c0dc048d1d473394ccf983f198d9e90d2c73d1b8c, 0x1af69c74aae418d0fa8d9c030ebc68c04e608e5a8cc00a35b1910ddbc6fcf143, 0x27a0793076b09c2b5e775c8b738f488a11171c0066277483afa7fd8c1dc5bdb0, 0x1d4ff6c75f1778615e31525a57fcef7dfa5b5d84382b5efe78fc90625f8e1e12],
    [0x124666f80561ed5916f2f070b1bd248c6d53f44d273d956a0c87b917692a4d18, 0xfdf45f1143c7650173ddbf41fd32b101ac1058dcb360e4f55fb042d86b3bbef, 0x28605df321f1d74a93860493ae581fac9bd5dfab8755373d8bbea346601a2a1c, 0x2894568db7debb47fdb42ebcba7bb4c2bf391c73c0ea435ff611a9a721a2ab09, 0x193887de99914c911549cd4c5a402b7b33e650ef0009d7c99075bee089ee532f, 0xe5688ca400eea76906895ad874136e390c7545ba17d0b64b9da48aecfd53d91, 0x2c60db3843ae2171a20f4eeddff7e6cd3bd2b06cd8d39e97f93b895a4096371b, 0x8fb4f2d9d8a12c667625b7df6751d25d3409df0443411de74f779e90109ff34, 0x4d7d91e3652705f015e14eefc3aa412c707a8615d7dc336fa2da72d1a1802, 0xc60ca70bd06719bcb51c3a8664b73f8b921234656168e68d4ff6e9552808d54, 0x1ed054abe9f3b4e19cb8a439399c5ff5f6de90c8463a09b82da225c567d05095],
    [0x124666f80561ed5916f2f070b1bd248c6d53f44d273d956a0c87b917692a4d18, 0x2b3d78867b390b2fdb654d68512c316ec959c5b8c9aec49d5fe74188257c3b6b, 0x19f72308eb341f3328570cdc9f78fa3838e628260d6e76bb3b09cb4e5136545a, 0x54c9fdfc6bb12bd2061b153f433d828dd2ddf02d56e4d6eb280f19591597d9, 0x20a858ce8c00fe452359acbce4df9110ff6c89a362ff4c8ccc7f9da470124a1c, 0x1a55f3dae7d4d14c6eb851e44463ee0da6e66b0f56114b8f46dda9e717a9b1fa, 0x65d52f3291af23a00e2d058bb6ba8e17889f7d03bfcbc5234272ae8660abf31, 0x278715151d06026cdd68f4bb0fee4b041cd0a8c62bd5faf71b393ea9dc3bcf2b, 0x9c6ec8631ac5a417f041efe2951033a622baf01b9f1630c7bc093ccd6f3fc60, 0x9c078b2310e182f40304e342c5f965f8605102931254955aea231962f762f75, 0x22f4faf4ed2ac6947282b926253d93751ab1118a05d1466bf117dc853dc3c532],
    [0x124666f80561ed5916f2f070b1bd248c6d53f44d273d956a0c87b917692a4d18, 0xf24da597b74c3677589a6cf15426219cd0e2c1a60c9acb4b9764b8e5b4fb5fe, 0xf39e91701d900bc7ea63b7f0d3b753cc31d2cf6666eef786a6400ad04515c96, 0xb41187c60cc3bff1020fc4e647452ba940a5b3d9ffdd1b47ab613a515df66e5, 0x619fadfd7cbaa89e7d5558c4d23275665531928f62fb14cc4aa42605f97a1b5, 0x285ed3287367338bc9387c83fb8987cadf1b4ea7f1dc6b172e924ee0fd2ffb87, 0x853d29d7e18010d04607ed8b3089833d55166ebf58aef558b3642f29ae2eb31, 0xb1d3737cb97c59030221a7d5d112bb755d096d8766242158d0bad07bed5ba9b, 0x272b60326347683fbe6dff2b97289dfefa1be8238526c8067ee0a126942ca6ae, 0x2c7ef420b2bca189f6d7929af54403354933d68446096f3cfccd12e76818b23b, 0x10fa5605e0b680e055175664a979aea1a45c45057f452e5b90cd613012b70508],
    [0x124666f80561ed5916f2f070b1bd248c6d53f44d273d956a0c87b917692a4d18, 0x2ad6fe66fcc8eb73e2dd7dc6a2186c31107f8896b5f8c7f9ebbac9bacffc59, 0x1db23b49760ab87c22237095db005ad9b792ba63647031f2f5e8d0c66ca2c833, 0x2b51ab38d81609e885b8d8c3ce799cedac1febdec5e27a205ca82b010b3bd9f8, 0x2bbd8df986114303d59bf8a408982796d6f1809269b983910bb6fcbbfa72af53, 0x3516ee288a26a7555d7bc66bdbec4203e74c105513cd8be87a99c035a176c22, 0x21161b2869e0be07d85e11051ac0d8894044cf1b4715d5dedd57cbd6aa48b240, 0xf4723c169e787400b2153bac8a074da0d992f44a8558a0956d563e73ac03dc3, 0x890ec1904c98ba5b3cef6bed816850fdf6734951b143faa0c2c643a1c1368b4, 0x1453882ebd23e2ce3f5655eb4f2db4e7d6dcd892a14e3da655caaa5f45a2744e, 0xdf69ed4eae9a6ffcf54a77d8d8ba14541af9d276327678b71e7c49c8deb41c6],
    [0x124666f80561ed5916f2f070b1bd248c6d53f44d273d956a0c87b917692a4d18, 0x84cfab525ae12db3c30220f978a1b48bb652c2e47d1f5f4bf1cb3d5ea4ae0a1, 0x220ee2aac4ec50cf3a51d76ea554c6960befe1a9b946be4b58cff8b4d8a16561, 0x9d60891cc06c285c3ca3cf7a78e37e2516e4d0ff503179234ea12645848d45d, 0x2f51338183dfa99604f1be042cc1dec8e96e08c7faf7bb3b7eb860dfdcdd295b, 0x29fb82b7e1ea4acf9d2ca8b32f27e68d10b27214361156770bfa4732f85e1b01, 0x24d4646bb66688b33367aeec4cfdcfe16b7d21f47f1bb1f88a25896e526ecb8b, 0x2cdaecd1c5653769c095f9ab2e0b4131a3dc4f581954fa91120dc7864a5d5b5, 0x2e48eb6f5a9dd830bab11e8f49f7431a851938335f6af547bdcde3b9a2595913, 0xd3d729c3d04c7f9967a7f3ce11c053d5a5598f0847966dc9840eeebd9676b11, 0x2c9c7d8f5c11a1cbf89ab2b794739a371d818f77cc71bffc6ca55d4472648f2b],
    [0x124666f80561ed5916f2f070b1bd248c6d53f44d273d956a0c87b917692a4d18, 0xf330feb7fa24cbfbbafc2eae5d109a2bbe9d5358ec7a34035d728c6a531b17e, 0x1b4af72b65b66913013263c37d97ffaddbb8a824b34d45819029b0867ccfb460, 0x2ace1ffd40f56f145cea9e679db6c57732315343423ce026a8e9275e888307fc, 0x1c328a5168d04cdbc31519e037fdcc5c426f9a6990fe80c875d625880c7d033f, 0x1970922d81c9cd97d3030d53733e33e3d046684219f4960ecdd0910f5aae548d, 0x76fcdeddfca38e6bc4c5e872eeb1628caf23d8d7b966d97963f38b8b55a86ab, 0x3e273f1f05592ce120df7ff9ba32eff1c1bc065b149c2c2a7986c1569e4cc3a, 0x2b1f8dfec05e8d4495fd0759474932a003b11289a3440792a48e2cb777badf6a, 0x126fd80bd8f9f83f00cc51cde97f9e4a3bd540c93921e8f3603c0cb13f89cc9f, 0x7cf5007a4ecae9f4cd74689126175d8a81f7c51a317a2c1657cfcd533b4a57a],
    [0x124666f80561ed5916f2f070b1bd248c6d53f44d273d956a0c87b917692a4d18, 0x18793b6ef20fbe077cf212e603b2a491b8b9965510bf81c85b4cef874fba6093, 0x5bc7621748131cb19ae5e7e6cfa468344c116dd37fae01e1780381f9b1ddebc, 0x1aa859447f3acaff5c15fbc24bf7c164faeca846b555b02637fa84a52cc9efba, 0x28c3d01915f85693e04821e4f2ca799c62b1fdc4739123d8dcdfbd1c77636c1f, 0x2c7f8527d2ad7d02e7046dbe690997f033e351fd18d357089e988e041223f15, 0x126b669244c7ea73d340ded56f5edce3632a0a69b9cddede297acf2f072db9c6, 0x24f71ee920c1cc2790112e7a8e9d3d824255420604fe31b331e98d2bef539781, 0x182fbdc24f8599ae291b3e8a96bd15251396a94167c8e34ed1f86069c067f03f, 0xeab7f1b18721b3c154fb3b7fb067c4f7ec18a50fa3ab3aa5873a408d6d8cbbd, 0x2012fdfd4d53aadbac3d7ab9172a826705d55e5862d1be643cd4449e1cc6b06d],
    [0x124666f80561ed5916f2f070b1bd248c6d53f44d273d956a0c87b917692a4d18, 0x140490ba93d42481632e9924a725c65bf59f7e4975e98fbdf486a9772f4b6e8b, 0x2adfb4e0a55448609a06a1ac31bc5d06d74c45a4dd23680923d985b867f054b9, 0x2035a526748b686ac46231697cc52fb4c6d8e48c4314cb0a1ee08eaeb43938c8, 0x242ec6b33cd2c625d1ca2833159053a0e9beeb37c59ec90e52d40c983e865096, 0x10f8808d7f88620998e3f144046327b9522a07220a62c7986debf2820accb611, 0x5d4d8a6023401b798a1b296dd42c9010da081b9e6073aa73dbed7a98bef4419, 0x20be6be68c47dda41e08c5f858520b25c036923b978fa8be6e870e85fcc16ac8, 0x39240da2e14965307bd9be9af5c0cdda03a4019f86c45bbbea90f40afcfc500, 0x60457249c4fffb06481b95457ec48e2b795dc414d6b71350ad08b56cdba7c3c, 0x239ebf95f3d5909ff12820066059f1b999f9ee594dc03af1fad6e0015d698e72],
    [0x124666f80561ed5916f2f070b1bd248c6d53f44d273d956a0c87b917692a4d18, 0x90738838c7088a39b45b7b8466e003c1d0b85fc0c95153e85f9feea552cbed3, 0xd0aa07eb53bc77f6a7c777fd33d11e4eec54afb97da769f937310f797df2469, 0x22e87e33862f106af8bf1a6ac33f69d994ce06f021ad32236f5529eb399a8ef, 0x16a3ff860e2110d98eceb0f5e7946d207273ff9a4f1e088a009f1aae19c5b0c0, 0x13e35cdae4c6ff35a681118ecf4612503081b2920a59f54cbf5603c5690ead76, 0x11dcdcbb80fe328963d887aa5443a88e602767afcff3938a877ef8b5e6b62084, 0x1440ac3cf3a1ca78709a2a97a0255d08882b40ae287994670dc7d58d7b929c71, 0x9112aba3d285034fd7808ce5c69caf188aa2192e3143ca73ce3ad404c503a9a, 0x2c8eb1b5f21c2f320943badb09721ad68f1c2f3576531713981a905daf415450, 0x695acc1afc2070eabaf2e2279eb6f11d6e24c787b37f3a311f2bdac5cf0b160],
    [0x124666f80561ed5916f2f070b1bd248c6d53f44d273d956a0c87b917692a4d18, 0x1fb55d0f07f478f8d6f5a59e0856ad2bb9a4e1987cbb36e437895230685ceef5, 0x24ffa19b717061f29d7befe633215f277119ea89aec1326f9f7e2fb3773f3a5a, 0x16cf73a3eb3a86fe74cba7ab2b591ecf57d66ffae3113107298e11f21d7f69e5, 0x115c7124e48b479e39faf24d853540716cea1bf2fdc19fdec358d1f740c1f874, 0x1587c165c3d5592e72a8445bab791271ce64032bf746d66194ba23a413116cad, 0x20677bb9ac0210a06115586f21fdcd1e6b28e8a1a8664e48681bb077b75e001c, 0xfdcb34056ef1d893287ad074ffd8e4d767ed07f9ac97b5de1f34d8e3dd1a651, 0x19ec313123a0d8e63b853a0931c9a99b14cc775f1c312bbb13d5d53f8818b79c, 0x19c0eb17f727d16dc136af9e86888808b870b5e9e5d9e3a3c3f0d9431bdd5728, 0x2b158fd09d9bb317ce4378cf6e0d574374690d42cc465100ac3f9a6bac9b6907],
    [0x124666f80561ed5916f2f070b1bd248c6d53f44d273d956a0c87b917692a4d18, 0x67895e624f72c2ee73f06438d1e38b380f0259e6a04047dc2ee474d543df74, 0x24d801233a58b2016b8c6af6bb88cdb17e194fbd8c619a7d844ce681b933d5f1, 0x18bbcf6fa75ef7e68070f388815361f028acdf41c8e0d9f2afc62b8bbb9ab94f, 0xd8f16cc1dac32ee244cc1837b1ba594c32a38e1a594a6f1367af545463db7a6, 0x85b04652f4427e9220976032ce4aae7e1eca676f0c169f9570bf91014ec3d60, 0x29b6e637abd64aa25e69de1bc8bc2061010a523a6319d49c8d908c46c2e76112, 0x686bc450316a122c312fde6bfea7146f929091962bbe3225769f767ee92e1f9, 0x1c7db281138ff861643018caafaf569efa4f7d1dd5fe8db8115679c9d4e464ba, 0x434b9adf694ee77662c888fe50a3f24f9a680df2fb6f501422589800c123cac, 0x26bf3831811b3222ad4a14f3b9a5357b756702139b7d8e7e2bb87dd6034b352d],
    [0x124666f80561ed5916f2f070b1bd248c6d53f44d273d956a0c87b917692a4d18, 0x24b42bac7abee89474ff328bcb61e4ad5f128773e068dea11b88fc2ea6ab66b0, 0x199ed05bbee1131c4dbba92583a02fbf9ea30aa59c7f2fc5bd5c0857cedb470f, 0x2bd6670f967781e74ad00648e01596abb5117b74adb95734ade1c81fd02d100a, 0x17127e11451908da53f67a87859373b4c6db941086091270d35f7742e286bb63, 0x292010c36ff554b02f56a128071f54171b237591087f805189af62b616205261, 0x2f6af6bf3c24ccd04480e6490018b489284a951f067750f4e8b461290402e3c, 0x11ff6780b8da3672a8b9eceaf9d5ad240bf0f1d91028f3abce5147d0608449e7, 0xdae6cefcea61ea52cc1bcd5bdd0c9a4f1cf123109cce7354405dd38054a8b2e, 0x2234fe0dad3dd0ded7a39050f4478ac43bdcdeac99cb7ea75d61a66c2382c35f, 0x1627a2a755f77f83d07a5cc58dc2aafec9ce48a85427f07f813e217e7d3e9272],
    [0x124666f80561ed5916f2f070b1bd248c6d53f44d273d956a0c87b917692a4d18, 0xbc958ac5faec064de3de070d9605135bb3bc321f74b7f4795cfc4cdd4f64c7f, 0x1761972f9f0d7d67e62f476c88b521ebe60cfe3e1aaf50580acd20f45590507, 0x3ae68549640072b1b75251b5fe4b2282191f235ff9a753fcfccc995a3ed3734, 0x1d3a95b2449e1d227b3cb97854bdfa5248b78bf8acc15feed87036a74829b12, 0x1be688f94403019eb20b49acd9f201d5b765853301e9f30943647cdac98a983c, 0xd40a2c767f9d882eb478793e2e146af99a620af4a76e6f3429d6259149311bf, 0x2075d588d996d67e08cacafa27bdfbb6ff08a0d97d2b6470f475b87c034fad40, 0x1db5acabacf79eef4e6079222f548fc488438af4e04f5f8e64f37a80eff37aeb, 0x14042fd27044254958665e0fa0ef7ec155c9079147eab6fc55c9d8c35d433a04, 0x21ca73c94e245ed00ec13dcbb943bf4ab0ae1c29b0f3c2dd27c7ed414a39c2ea],
    [0x124666f80561ed5916f2f070b1bd248c6d53f44d273d956a0c87b917692a4d18, 0x20ddb53f4160aa862028ef9ffc0ca24edc8e7ce304602be7e8db7a7ea7aa22ac, 0x182fcdfa75858b86631ea8d0e0308f3e1202f77cab67f448c118d2e47080c137, 0x28cd7a17b0f3349700263450f631d80337f6f6e490e8736b4c322f77c6eb94b5, 0x4a6cffef8bf0db8c769ef391c25c8162ad2588db68f202adc27f23e01199f97, 0x1f208c20855afe52522395aa73d971db1dc111dc531adef15f24a91fd6cf7085, 0x107fa0c5c5aeeb26505669eba119568c4e249d7c16da6fac168de7abe11b444d, 0x210dce59a46fc548ea60317c73249bc85062f0c2cef2944df4484f967c6248b9, 0x278cd8d83323de48695c3da57cce026e001525a3dd65bc57ca2612b3c6f1cd82, 0xb9cb7e4dbe036abc7cb070e610b96d61b7fe2bf29a4aee59d5f051bdf1b942f, 0x2aa13fa2731b295a9974aabe82b9cf343d27373cecdb3a83e03e0aa3af07baaa],
    [0x124666f80561ed5916f2f070b1bd248c6d53f44d273d956a0c87b917692a4d18, 0x11e4ba066ef8a6cb251a9704dd23abb5e8ef31ffc2048d70400ab4029486d1cc, 0x23578b304fd7b3d28d886e3d71f029c849885c84f9488e5687e5be7fbc2d2e4d, 0x143068c60714bb1eb26b0991681a9117decf370a9e1a24ff5d2163fb6c8bb770, 0x1a42d3af21b7f72faee430f085becc8598c057127907373ce297e1c1493715a9, 0x260e79c967c0d5bc720f95ec7a7b088051dc85423f798776f2de0e8c26606002, 0x2314b014bb5c57a4217f48112e9c91186bcd27feaa9a1f3800fc6b2fb6ada2d5, 0x10ab73560f145dd61d66edf15e597c73871a80cf0645b714e6e7268bc1b59bd2, 0x2da780f43e972a1ea7844b5cffe76215f0b86f708c3d0ebc758024a3328c67cf, 0x26e5fd2c13423aee6c1a543b5d4fee91af5ce83d74efa84dce6ab9323d1644ce, 0x91cf8a0d9aef97c341241ac92fade04f1f21f20c9af67c55a6a63626b73befd],
    [0x124666f80561ed5916f2f070b1bd248c6d53f44d273d956a0c87b917692a4d18, 0x1ac2da30c9db6a34995d64973ba9137283144b108b9619f678cf3f4a95c096e3, 0x11376660bfc8fe7104c949626d350f6b0dc1b37973819e4797017487619ec25f, 0x21a72bfc29af637d0a76681e97a310e9ad1dc8b47a66598807e88fd34a46aa81, 0x1d61ed0d0221cec05abe9d2e8c0f72cb74cf4ec2df3ed582d4acfc2afc972f13, 0x2cf2377f25f134cd525ddc0a210ae1edc91adc51cfbd451a7b280d332463fbe0, 0x128d871cc9d69dad9adc58ff843d01210527b2e434fb21b3770a9a7e639cd55e, 0x180f7db2b079ef5027f9e517057b6186136b6631556ed4979d115704ad305729, 0x271f62e52e4a218aa6d6af3d547117c04b4c082c24950714dff89dc0ca70cebd, 0x1c33419ecb6f7066567d7fc5addff3010852e87e68f89d6b6dbce38850401526, 0x1a75ac0eb3ff4f7b647206b926ab9b6b70e54815c7d169de9dfb34b4d9baf9ec],
    [0x124666f80561ed5916f2f070b1bd248c6d53f44d273d956a0c87b917692a4d18, 0x1662417df464715005ce1228264c58708b62a54eb3d0300c7e2ed1017828f1bc, 0x1bc3d8189b4c0993407f585a4e859ff2d038b607f678602ec2ee5af423dae356, 0xd1fdc7177e273bb5962f8ade3aa5d858ed7fd9bbd22b2d9856348382e8481e6, 0x2e847d92b4b1cd7198df2d2bd91b845c52b9d1f25d685bb54cf43d7cdc06a89e, 0x2116ff3bbe130b9b1bd4b76f1cb4b4d7c7b472cefb4d98dc08789dc993aff289, 0x1057a54ade240ea545bac05e9707460d7f0e1930cb04e460e261852a5aee96a1, 0x24c6693b4bafa19500e73514069e278c2abfaa8370d62312ac7dff2d8f973327, 0x2cb268850f0ed89fdce142c8511d2f583a22e580cbb3d0790e41bc7e47420331, 0xa731e96f407cbd92e535d4a18dd9981ce5c8e4ab15bf7f5eccd29d831b0712e, 0x9f9e3fd0498d86308ea480d5ffba80e367c19fb4a78b11712dbab0011cae43b],
    [0x124666f80561ed5916f2f070b1bd248c6d53f44d273d956a0c87b917692a4d18, 0x4670b146f637567754612aecee2b9bfcb842e7d6785b7904a3b1e37b740d4c0, 0x3c5e0facfdd5fdebc0255a4f78af5fc16c82892038137186db5687475ee26ca, 0x23a34dc39f0b7bdf631f9c88dafedb4bade20015c869fc463a25b7c483254b57, 0x20a919d5f1fb9b22abce924797ec204d7cf534a9c5e908e57315992edc06062b, 0x41f1d89022bcd40dfcd978191b200f8a2b7adb2168f3202b4f2dcce8726d922, 0x23c914f4087c43ee789ba6be9c4b99fb032b7b5f65ca9f3af46e14dadc38134d, 0x2d61a559f806a5e382041aeab1d5456dd212c3018ffdcada5235fd842f37ae0e, 0x2e5457db2f94992120c5c9054a6a45974270109e5c6b5a4830e175c812549aa3, 0x9f4292ce6a22415c7f83c120b5613b9b66fae13bc8d1b1af298418be41079c3, 0xf82a2950fe7f2169a76eb6c5ce246ded654db2f03ba27e88030124d9ceda7f0],
    [0x124666f80561ed5916f2f070b1bd248c6d53f44d273d956a0c87b917692a4d18, 0xc8a9b44c11b429d1cb9eceaf7f5501e9f0a400fbf4f0ff3fbb5f977607542f7, 0x116275de531eb4f4861812d5dba5dc91ac027d187072cd9aab4ebc5c316eaa0f, 0x10face39f20b71707fe83569937fa20ccd528792796bafd01dc9e094ba7336e1, 0x6cc30ed5380e3e57cb30f3cef40f3c49819eebd7784a7b0de815fe2c007956a, 0x11e62c7d02773e2a4bf5e2d96b2e2a7ab172514dadece61b41632f613336200c, 0x5688b27d4a2435fb45c8d5f3743b0b1cd380ba6ddc95abb6f117aadbdc83736, 0x22e95383d9f4bc94e9e2be09ed243d6114041ffc729e7edcc238dd82c7d5ad19, 0x1dcf7620094c223d73dae01624272a7706c44ea51c959df302fb6e91e70f2501, 0xd686d6407ba6f204fb927b3628ab5becc48de21f3979f6818cf12b76f7a89c1, 0x4059e8835ec958751f897986059ac067fecc5eef0911b714170e73c389169fb],
    [0x124666f80561ed5916f2f070b1bd248c6d53f44d273d956a0c87b917692a4d18, 0xce22a6f7aa9168150d064857ce6f891c975c3191bbff919474702bf4c8d813, 0x194f2018abf3467e78243e36ce971440b9e8aabc83687a0851c048d7eea72729, 0x29974bc9d401f128049f4732d6610eb9f269743fa28db231db6ace55216d7764, 0x23ad853475090c61403fcef91ea2d8a36afe29741569acb39f2e5333921739d2, 0x4efe76826f38d11a7a761748f9622e4210ddc38454bb5329eb9cd5ff5bf4556, 0x8a2e45b2884b3bcb463f58ca3a7e4f2e7f16aada17a609bc358e339486ea6f9, 0x1c22ab2592802c8f64a76cbf083074d7d72de9bd3f8d993467b00dec27c6e28b, 0x180c18b59f0dc43c04da21fa47b4bdff8fcd6d845d886f71855c212307514f7b, 0x146346178cae4f0bf5bc9dcdb8e1bfe21a0ff0d80abf33418c72499e70aaa225, 0x301de4fecad713260a57d4ecec83a8e4966d1b89797805c4b8f2b6be9561d1df],
    [0x124666f80561ed5916f2f070b1bd248c6d53f44d273d956a0c87b917692a4d18, 0x80ff1bccc78688253119861fa90b44fdac2f5d2708a1be1225696d47db0da7a, 0x2e8300243648b888b59914509ba219649e3f28cbe190cc3dfebb1c083a7a7fe9, 0xcda045c07fc05561a686cfa9e82c9fa0774f17f34450dcfdddc1d15f88b52a3, 0x21335dfd5874c230f903aa6249f64cdffaf2b30a19b4f8b9e42e6dc7472f3521, 0x2e7bfd8d6d903cd0d2722ee33f82aa80805629516de6d9091afe9a1613183c05, 0x443b099429cd33864738e414391c37d032dfc795378e8439afe62eebc49d241, 0x215a81cf42f2710c48f96513f2d1ee0d350ae57ff01c96daf3eafbd0b769ae8f, 0x156a1611ff9933ccf069fb2156159851c8fd02f7fc27bd5bad61ad00826c72b, 0x90d3ac25b80c0f69e9b306380d3cc0418a5de630ffac363ec793a0fc54fcf97, 0xf53453418098174e3a6214c9fa8b59792048cc0c963b668feb4b79fdfdfe4d7],
    [0x124666f80561ed5916f2f070b1bd248c6d53f44d273d956a0c87b917692a4d18, 0x167dcc32fc7311f7c5df9a1d2955a928fb6a1ce771019241fa491c655c697381, 0x2a191b6a2f8f96da4bb2f91cd377b32fc8e84aaa857e976fecb7dc98bf518a03, 0xc2fd4887d8b704662b62339aef5380e2cfc1eecfde9a4c9c14abc52c2a0a8c4, 0x1e630649bc36af20c735f3e55a10e18fb1192eb537dad2b23932079a5e3e039, 0x210302a02dd75f2d3846da16ea7c309911eab034fb60adeb5ba69c1b31b8471a, 0x1d9e0ac6e8f8b9bfc77b7439b345b772596f8cd23370855956e42366d42a172d, 0x2a6cf61cb3658480617be7daa4072efe4c2063b9777c1fc7748cf00ebb670067, 0x2c6d225faad9f6f0959163a42621d26c7c91941196ddac67a618b390bf84b5ef, 0x2d2cea26566fae8c2853a5976075b6d73da65b6a7156ab30540aa9db05d9aa29, 0x2e13c310c5e84e55bf6453d9cc647f87c90dc2625f366a6dd61f60a0b38ca3dc],
    [0x124666f80561ed5916f2f070b1bd248c6d53f44d273d956a0c87b917692a4d18, 0x18f8e2508be0983a6ad4de69cd797d5f3974c5f2e4ed2dab4e67db7b13e9119a, 0x122a34cadaaf871dbf14a2626be775882ee4653beeecd92d742541350f929c10, 0x1eaa9c56276ed20072675773838cf7f72966a70537bcfc85874821b40bbcb7b6, 0x10e0b85cefc5748eec9d7ebab1e9cec57d580b3d66e5b47772b1faa267eb7fd4, 0x961d96cc4f121a184a78db78c217fa96c22521ef88e9f454ae88ac934832633, 0x2d40eb8157494a91a99a67959fbefa10958f2f96111d46461d3abafdf3f89735, 0x21807e2e88a4f906a998c7d9c6a395aab2c1a09b38878f047cd59a2e61f8f85d, 0x2e19eaca5d16c8bbb6ef892613aac237eb47b65c64deb2d167904d719edcb77a, 0x16714242c7b7e789d41c82a4c9722d57e294d6a566f6a48cdfe79123f8c1d32a, 0x5566d38792f0671ce10c1ad7e93534075f422f61928eb6c2e4857e2ef1fa242],
    [0x124666f80561ed5916f2f070b1bd248c6d53f44d273d956a0c87b917692a4d18, 0x13290f24b105f48dac27734782f076151f3192c0f432da08f73ee09570c143d6, 0x1b4b953ada89454c82b19e887dfccc01784fa68082bba9a561beb496f267eaf8, 0x2613eebb5f02fde5560e2f1aaedbe7ac32199983ff9ba2cedda7ad9a6d3855fd, 0x1aec57bd5745a26c3c0219ef96fa6c69250bf9b6584e371cab2aa2bdb7ae4990, 0x67389e348c3409b4cd299d8bce723984b5f2e95b0be560fc10132d8ef8d3e85, 0xb0e06a1e7dc543f9187aba9ddaf2e32d32ca8b8a5da85597e6ee5fda0c9eef6, 0xa1fb4cb7fd491382e2cf3347ce4ac8a42342a72afd1a1e64eb0ff970f54d5f9, 0x1977003ba614ea8e81991f6f0d79d62feec3b0f15d20d899b87382fc3fb13aa3, 0x286e912fa4b01948dd7b1cc0251084aa96017f4fbfcdc6c743feaceb1dea753b, 0x23370231ef55f59d8f37515ad3cad730625e79325fb839e1d9e9c2d1630e6ecb],
    [0x124666f80561ed5916f2f070b1bd248c6d53f44d273d956a0c87b917692a4d18, 0xb1cf6bfcfeb3cf344f8d1038fdc7b9faf945027ff5bf710d10286df9cbd4ca9, 0x123d9a409d14c996b914c9a56c54b02c25f4a33a3ecb6066fec4a77c6525acb3, 0x89f21498630a31293ede8725da4179396e31708754f8f26935a9593ab1c207d, 0x2f5bfc653853a2d74ee03547dd49092a78177c6bc16eef3d4513709040705202, 0xa18b08811ddbe006ac8516b188d76ed6e8abb635697bb576f438b5eb234729d, 0x1e0fb18481c8d9535410561b4ced6025654b74d7caac3e4d487143d74155f7e8, 0x936106e344c77a4425d0ae924553340214d5264abf959ff5c3de4cc163fac02, 0x1abeb831643365e91e7266135607235fce484149cdce1551fa4577791ff62fc, 0x22892af37e8064bf4d88322256bb872e0d733c032d1f7beff2bdb749fc0c7d5, 0x29b830534e780d7205e38ca2f9ba43ea1f1eaab7d08b6060a9a8e52e1cecdfb6],
    [0x124666f80561ed5916f2f070b1bd248c6d53f44d273d956a0c87b917692a4d18, 0x2ae98ec328e9150679a246222b5122c2c2e35d2044fec7950832b9774900bcb, 0x155494f37217d033e8d586c6852ec501c6dcced5096404877c788f75f09c95e8, 0x191c6cdbbacbbdf644b3bc357fabbbb79045e3200f2d10f824dc4761ada0db41, 0x2d0f68dc5a731e30aeeb23a76c2d985338f7cf7aa1db7452ab7c05f6b96a1c12, 0x8761ae31b00851939ebf81f3201610f53702765e42367d15a5a64e4fc780e75, 0x22259606cc46b6876ed844c436ff76ee5dc734754a91bfb977d2ae9f620f738c, 0x290031eb3efbfdd567219f6f69b6ea098dc1c7ff13db57bf22c699d9061923e, 0x11a164ee321faecfcd283c24baaac523e609ad4dd6f6387206e8083d8ba2d08, 0x14a6a424876b86e06f8a891826c3393bf9a9355f0f705d61c39bf65204a488a0, 0xe1d8d72bd4c192af2d73279f2b7cc893ca0be9b313f90eeb64a5fb69e7a9771],
    [0x124666f80561ed5916f2f070b1bd248c6d53f44d273d956a0c87b917692a4d18, 0x2720b31b0b3687a93e8203819f9fe8f41591cc67bba0bd4c050339c327d0a6c9, 0x22ea080102094dcc01da97ec17bd1c5ff0e61f1afc3567ba2a4c79127e16e848, 0x7a0740ef451bc5150556d1083b5108eba7660ba47f5cef92df76ad0cd53fdd0, 0xc191e9d1d2ac3648df5a9fa6a347c9ed3c01a4176091e91f8191417c885b674, 0x21a6605ece262ebf5658153119ada85793c68dceeb560782c533e7143c53435c, 0x7b585c00d1974dadd86b01acc175939143e66f0dff55a7263b7f70507294f4c, 0x30570c2f5807b56cc39cee5e1164c58506d902a348dd400be3f3ba1ea9b918c5, 0x2724ae7cb7eaf7d39b6ab671df9d70a260fd1691cff81987460d2c19f200fb9a, 0x112877dce9f6f179eab02788c44fc9da3d64b99966a71cedbfc4d5ce1606ee80, 0x3006485215c00900e3c42c74ec9c58c6fca0047827f238431e387772a30febcd],
    [0x124666f80561ed5916f2f070b1bd248c6d53f44d273d956a0c87b917692a4d18, 0x2f2b423c67329cc34adc75ef955e65a6ecf5fecdaddbccc7c69de3a12ae457, 0x28020df7c36abcaba69762a94eee88063b5f132efc9bf99a8283d4fa34a7a1d9, 0x1c1e47e09591c1ec91b7840a307819d89c19a567d6e3eb2f8fce818bafbde9a6, 0x1a84ae16924b521e378f6db619d0a094066209f18492b604c6a8523d9574a4bd, 0xf1f1f4fe16f636b8fb7d1aa4cecd1846bb37f73880a09eb9680ef2dc49dce4a, 0x2033b19b71951e7d180851c4c0b54cb8e3d1df44ad55e08de3c10555ff434c0b, 0x298497dba4b52d50c528b089cf9f51b98c797b5f9f1893df8bd71d6427957ca7, 0x7979509bc42b0bd1855c2feeb4890c5a2e5cf6f6cbad87558b11b82e43ebab5, 0xc027d8065b422a5d05af6953119cd1451ecdf3b1c2b49048bac9ffa19a29571, 0x1cda0318f56da08e42b609732f23a762831ee22bd873a8565a2923adebd88e76],
    [0x124666f80561ed5916f2f070b1bd248c6d53f44d273d956a0c87b917692a4d18, 0x109f467daedad2bbc6b984902be029aa07e7241a63ef242966db9c5b584c39d8, 0xdf1e1a43181d21009c9873cb22a76337ca84b8196432cee8eec9975c3c1b9cb, 0x20e2202c033befa6d32f13f6b4426e40121c40ae7cf8ce57c8271e0d7e5f1315, 0x8fbc9206e82a3f139c8b86fd5da23bf86a2f719c6b7b7db42c10c62a0280bfb, 0xafcd3b41eef210253ae3d684a1f816f6772b2f253c2ebba5b444b8edc05b775, 0x2ad7e0ba8acf03ffb2fd84b30f89033119d3f34236df92d1a985d3a71faf5492, 0x235b9840306c9bbda7e11c12ed8805fb2de3127555334e216bff8defdaf3fa5a, 0x108abc439242ac2ba789aca0ca17f761aaaaa7f90be1398627dd51a5b5385f50, 0x64cfee2a05138648491938218fb9c287038cfa0f29397e83e914f355e0f6efb, 0x169b49780138618a4ac7de6e164f1f8a95dce8dbb68be3737bd1d1d17601b583],
    [0x124666f80561ed5916f2f070b1bd248c6d53f44d273d956a0c87b917692a4d18, 0x37c1010183f05d3baeb2407c7105539b59355e854ee6ba69ad0ca93ffe304aa, 0x7619f4a716dfa87c4180b37779fc156c1380a593cf4686b92f519e35431a0db, 0x303a616ca0c021b513b39d551877b764b241e582140cd49c66650ed748742f6, 0xe0a3c66b892792aba5936d212c510a929571e260f7ebd7e4d8fda17bbd6e4e, 0x2db87865f56b59e6db18e9fa23e4797466341e3114f73d04a77aa96b0608289, 0x16b7dd14f376839839b33d74035959e364029cb5ffc4a5197cf2f6654e07f9ce, 0x1282d2dc0a5418205d397ca3b788ac90b617ab48777a3d0754f288e105bf0aa1, 0x137494fbdd4f68f089812314c259f9d55b6f2ea9a5e01d31df36953bc67a6cd1, 0x27939a8ae7cd5b8891f1effa260b4003c5d1f3588ca41b51fa66a15fbef587a8, 0x209d342ed11c9c6a95f7beba1d6ae606dbb91d53c7b125329540632856980819],
    [0x124666f80561ed5916f2f070b1bd248c6d53f44d273d956a0c87b917692a4d18, 0x2374ed44c2bf10061ff872112598b048396433c0e99ee618a978d7b52eead11d, 0x5037cf03e8e4060b62671b6b3738c3326b57462d2df714d312dc3cf902e3499, 0x1bdc6d72769d56d435d2664fc00867d0818ca90f30791fd9b2b1e397f018879e, 0x125626a10725e4febc2526fea8f28eda9fc9facdc3f853bff34df2d870b6760, 0x6d4bff3f90a1436f9eb4cff6768bc95d0748105b6bfad3efc469005b74dde6a, 0xa7e7d0bd3eabab06af826e769285f473ba07336539872edfe4291e7d10f8863, 0x5b7eee126f854c941925eba6d02d796947eab9ebce35b78f94b68068b8e2577, 0xc787497b88a8df57e716224abfb8238149ee8cb2b41a30452ac5c8c9ea11bcb, 0x12e46e1b82dc0fc451122f0d73c36150bbdac4266091f6f16e887c29e6ab3e66, 0x13fd578c074db81ea352cb09285b53d7e8e9979bfab7cdbe954f2ebdb014c9f8],
    [0x124666f80561ed5916f2f070b1bd248c6d53f44d273d956a0c87b917692a4d18, 0x9d89ecd0e9e76d53bab1d004dddb96233658cfac386ad366c614e0b270f97d4, 0x1663ce3fd8e8a219e95598524d0a14e95ec2eddbeaceb5c91e3325f03b811cd1, 0x2d7643a55ef8f191a8385f26b7933068bd8691d8bfacc0298edd54b5da3a81b2, 0x10ef304c05d0641004092988202bd102a1b76a155469ebf41804b8556370ca28, 0x2058baa454c35fe9ee8b0a8b6c3579e00d8dea44db1f036f286f8c1c5a489e10, 0xfe297ae198ed7e6fd6836bcbc60670d9fa40d8196e48cd5e691b04cc7668744, 0x1dc4589f1ccbbf2e48394a90cd3cb121c3bc56576398e14b37f117f3588e6156, 0x2531aa8925a4e146a2178446d4213afe2b4bf59537090877084e08abb32b46f1, 0x2b8d6fb09de987c69fd1423ca5ba68c7e47f24326997ee6ec06b27bb8202fd79, 0x2cfa7103a4e60296297b5ceb2d5a59acda5b0f1c33c19c941a05b9c310f25ac7],
    [0x124666f80561ed5916f2f070b1bd248c6d53f44d273d956a0c87b917692a4d18, 0x10202be4306b5ec29ef575c5214a35a3ebb8c8e808c572c87ebfa388b13e947b, 0x1b5aa16b76926df627ac1ec6f6c12602520e67cb23106c456063e8faa4b902a4, 0x19a92337476b5856c088850149772036f311a5ff94f05442f0a15f23c5c4df81, 0xbe8fc498e64abe93a3891dd69b068a200b4fff681cd1ac1c8b6c0dec68489b8, 0x1a0fc42aa273470caf30582564186291b8d122dc036309656303d48a9c3d5547, 0x18db0efcc7f60ca3fcefa9809141bf46c3659de012760d8a1002f771c77971b8, 0x1237b3bd8e9218944b33f45ea4c9e7872be40e3d71df354d0b4d22424152274e, 0x65c096251bd3ae0ba92367a9db4753b90bac169e7bbe2da1a23ae3402e45d27, 0x1dc83ef066fb306e222db36b1b368020ed31d2b1589cb6ec2e84e406213c8e04, 0x2c1a8e6e5fbc28d95ac7e784228ac12d2d28be32c4fbbafbf21c6ab0776f449a],
    [0x124666f80561ed5916f2f070b1bd248c6d53f44d273d956a0c87b917692a4d18, 0x17ca0461bce08a8a8853a8f49f7e9f52ab8f3d8a7cb8a925d4dfd834a92005c, 0x1c90c977e1daec74c1d7e6d3ed14c7d41a17fec6d1440fcb3cfde4945ba43b7f, 0x9f6aee2e43570fe682544dcaf6efe50f273784349ee907a7da08cf0a3892a09, 0x1a9e810a073d7982a50a4a3ae97e16ef3cb1e231fe0aad228ddeff415e873d34, 0x25fadb922987714ac135457abd253469ff387847e625a4f376a21f60c54aacf0, 0x11b65d5a4e0393733848b5a18f5ba22c9df6667e9b87075de2dcca2a6322e980, 0x22e9e700cc820ac9dc080e94407b9c18adc135535702c34b64005803881d3556, 0x160c88605fad7ad65a5b926dc177fa9799c951ae17b067ed62b06679a4cf03f3, 0x1dc2851df6d0947e5b3c9385544d31278346d45806328142b6d3b25702bd7510, 0x8a42ac9c651c761dac4cd3334d8ff8541ecbba391cba04f21505589f39b4d00],
    [0x124666f80561ed5916f2f070b1bd248c6d53f44d273d956a0c87b917692a4d18, 0x289fa0e8ce8df0c60be933c0ab3902f988a6a59adc39dd4d87456c88982edc70, 0x1e70c2b91d3d44777fde9b8672508185789aa7af7d0ed1b3e08273c02eb63201, 0x26202efdbdd93fbc22b59bb52b001dea2076ff49c1bd9aa0ac0e732406f85362, 0x665130b10a00cc5088515f8e16903ba3156fa42285bf0b9d1cb845209425be3, 0x20a044a5e1a405e1ad5d751492516684148b3755b1fac705fd6b6eb666fde2a, 0x2640e021b9313db742e534158b3737b355779eb05ffbe6257bf3a96ccd0ebefe, 0x1937f02a9ea7e1700da7773129f32911d991f2b872def0f10a176054e332ff51, 0xb198e0da024b3dab3d6e79f1e1a0304c6055a8ea3f4f93b0ce24c6ede206873, 0x2c0a30d51449d8db5f3dfd12c4dae7857a91ee88e297208dc151ccd8be4f0870, 0x187c5f8a529149c6250007730a57ba31c7dc0461d40fcc17326702020a21d33e],
    [0x124666f80561ed5916f2f070b1bd248c6d53f44d273d956a0c87b917692a4d18, 0x2085c1bdf91d64b88fa27cfc4c08e07efa31aedd384d465f558c3d60ffb0565b, 0x25af25414fef41bc7e5f3320cb78b1ad4532319473caa7cbad0cebd1a77a91c6, 0x1a1b25a6cafd3bd28f97f314456566c05ff153beed81b1db117f20ff97f132cc, 0x2d9ab0595a2025fc0cc0850b027cbf4d778dfdb36b3f49fae8029efb2ea63f1f, 0x2f30cc9b0e5b85bf04d9c921c26195c7431a50a6fedc28250bad8d5cfdae1d39, 0xa37b2a74bd14072efd62cb285eff2901ae78fd90dc17e6fec4676cb04f244ac, 0x1c424788fca025dfac66c90118b11c8272d4d68e315879b3bad72b595016b1a6, 0x20f5240469332dac40167ee37438a75bd816dcc1fb4cce2ac7fbb77adaba5be2, 0x38722e06b9b7d6ba8232eca553b288225456b08a94f8c0722196654430b5221, 0x56eec5b756d6945d7f1ec8e5147ca2765ea9bf915399d7110f15bca953cb8c4],
    [0x124666f80561ed5916f2f070b1bd248c6d53f44d273d956a0c87b917692a4d18, 0x27f0800ddcac9fa1f1cfab29f40c24fc7d4ca5b1590f2610520e88b510a1ccb4, 0x1a6a8f6f7e612f637ab123355dda1d4bead9dff6643c35d5407652a392e70382, 0x1b2a744cbf0e7326885b084f907e7756f3212136d607d074486fe4ac707a413e, 0x4abaf721c7350f1696a88a898880c58962814c3821b12fef0927677ffead3a, 0x2f194b7fb646175f3ec81abfd10bc33c5deb6b4f69955d8e37f90d5619bb1f96, 0x1457d0d9729fd924f98a0ab82c379d9e1fa349c99ec5d40866961486f9c9441f, 0x24022debb2e2b1ebc444755063ded047216aef7a53efcd357c33bcf18abf7d78, 0x2f1a9fa9fa2d06c6afdfb03865806fac1f08d5b64a4a4102dd69b8ffaa16d9f9, 0x2a39c8affd2c36951f2d65ce28583cdd27e8d09b3c4682d9a91a8e6da20f018d, 0x6cd4a8162b4407a90a632bcc6e13d25a93501cd27df389a7f8240da9d0fb308],
    [0x124666f80561ed5916f2f070b1bd248c6d53f44d273d956a0c87b917692a4d18, 0x240bdd87896f169f78702f2fddf10472d1e56b0c8dca668c3be9c5b9fc922f8, 0x3cebc8d717886a58a2c2a2bc572e3f58922c19e6a8026dee09a8aaac59d9170, 0xf2ac5c2f8ac681e231a623034707fabc5e81b7c766c12db359575e5402982dd, 0x2dc50cb75530f53c584f0db1885d6c1fc03009cc8e8f8abc50b5ea096d8cc1f3, 0x94c8952fde36c4126f4df8518ec3f831fdd80129f8fa8ff1b87d7739efde02d, 0x180e29433d8dc3cbc26a9b063087678e5b7569bd759c2173ad0622557d942c0e, 0x137513995f9a52a60cc08ec51aa5efd1f10828587cea9b2a5d016788021bd0e6, 0x102c8b90ff6c327d16952ad18bc65d9d6efa7dc421443ff4159e72b02ae2cf2f, 0x29f1e94ed28f72023e6584dbc4a4c090c6c5ee310d8b83f0f191ca9a382e83e3, 0x1c5292bf3034389addc954d33494f4231ee9adaee58686e630548ff0eca63191],
    [0x124666f80561ed5916f2f070b1bd248c6d53f44d273d956a0c87b917692a4d18, 0x1430d7953574889945b2851241e066ee9d6b5cd11c106e1fd2093d691a164ea, 0x1b3448e3a38b05b85a691e2df172b46c7501f3ca292b5f484dab6286f4a23edb, 0xdb96c5859d2163a39d6b3ba31694b603706633accf6529526ed570fe019f001, 0x21b598a7b1f1990081af12292ae6d85107d314c05534cc1ed39f7fca3280fd0, 0x2110995ecd4f7cae17dbb93117661040a5059bd20650a990dd6781e6e773790e, 0x21893b6a2b4a66316b37eb749dff8ca4ee17c8bff8632ee3765f7f8fe572b0c4, 0x2ccaf308f912ffd14b46f30d8f8e2d4680b6f3ca217587a4a6c1c1bb840f3683, 0x10be28be53fa8a09cda9f67606978013149dd78dbafc39b3e4ec0ff2ec75b2d0, 0x17e826d4b7b4a2040fcba809278bede0cd4a79c0b0da81342163270a1422931a, 0x9ece717307f52d17f18b7bd204324209c011daf9ef789973e69f9f9e09940ef],
    [0x124666f80561ed5916f2f070b1bd248c6d53f44d273d956a0c87b917692a4d18, 0x21c512b8be5a975e58cc3dc195f284a90a921a264c67f8723a5c9fc79c4ee590, 0x1a9c325e96a34745f686eec8b268877ba7aa0d44b11f59b4eb11b24ba30ab1f6, 0x256c5ed746133373328079945658a21927e576985c8c26c42fb0e27a37aeed5c, 0x96dd009241c6a5a268d535f5ea13cb1f313735cd9ffbd97f580477251073fa7, 0x1b5697a3492346753e3b41b5f690f4ed6cae7bc246e9050e461154da63b72346, 0x212e6acfb305068286ecd6d2bba2ccba4bf952487d7db86840d1bc35d1890834, 0x188957819ec0569d19dc54c6a31fac77b75a89c8190ea57720a7fc3f7e6a4917, 0x551b30aa085a016401370424d8ec7b729442d95c263ab077ef1f717d805ed6e, 0x22883b03ba4694c2602c5e0c148a2d8b142da732f2dae3402732527f1a57fcd1, 0x53a4c4b2055a58c5ccb0f23464de37cc9c3af86cd2347d821612c4b017e8e25],
    [0x124666f80561ed5916f2f070b1bd248c6d53f44d273d956a0c87b917692a4d18, 0x12ccea9183993e5d7dfc16fdef26d9f845eed10de2fbafe63008e29d3ca8b507, 0x582c12381fe92ce0cb41392d98cf0bfc811a96519d717af5ffd45c6ca1679b, 0x47527fea0d1a194240f9d9f4c5198bdd620ee5041d2dca5db40375fa6ec11bb, 0x9803bd526d49e31dc0fa4188e3069b7ad81f2d6391934de41df4aefced4b086, 0x21d3b002266d0893a5e7c1a7bc7ad2f2aedc63bca12b0107670b271010c2c177, 0x18f7b09e05bf3b680428a2d2baa51298016ef23bb71ac95152bf75c82ab4cd2, 0x18bea4252cbd7815e4bc3bd34b039be2027c226b930eab9cb0714c2ee80139a, 0x100f77a4054eb625b22130838ccde66d21c66b6a4bf8c8b10edcd1d48665b7, 0x9c8b96501ea765284653b0d464445b012086366ef33d57e3a9e388e740233f6, 0x6c9ac27ccf47da2979230b1b6f6704a08a30029752acbf49942c1962ea2f9da],
    [0x124666f80561ed5916f2f070b1bd248c6d53f44d273d956a0c87b917692a4d18, 0x68dfe569c59fe117f04ca4d04df9a59ce5c9327ab88894f60a8433cb3bbc7e7, 0x29e21c7d1b3fdd04d0f89e3bec6e66c41347183faa487a085bcf1ad2a446319, 0x61ac0b5b33b8d667219f7663fd68c937c548d342bc27e5f398b8f12c4fd54f9, 0x2e8eaea01526ea362b730fa76697dcab6f0298fd91f0ee145ced504a164bfbc4, 0x1bba6639ec598530de2706ca4264f5b42e6ed5374993f5517d407f3a287b2902, 0x1da74a23eb1fd7db1b30cd5942ac540c379bc74a3d1e51d5b0bddd2087ed100c, 0x2a0e3100447c818717bcadcdd0b7d120224d203c8d9ef48064d7b97f6aabe593, 0x27753925a34a26b8a301c8531ba88815a976e1836858e054f90d6561c4373330, 0x2370d8627c27ecd31b2b6a93c33ad409a2e785c8798bc444f361d667c59417e9, 0x24447e984cae81901b8c1668e8a11d94557b39ddf2aec74ef457701e00d51e6b],
    [0x124666f80561ed5916f2f070b1bd248c6d53f44d273d956a0c87b917692a4d18, 0xac0847e3de8e5f007ad7427f2555515e4079bdaf0b0e34b4be5e541f482f33, 0xb2c4754b01925272d1ba4359fa02c399bdaba806b32f51c2285e2c16bf3316e, 0xd33fb4ca1a013eb65ff09dc85098969747083ddbaf4e0093d86f29ef3948fd7, 0xf06aa40d012cd276378c356edd414c02a77abec6bbbe8520d90b8ab96be7304, 0x11620ba3b59e9e02401b1023d0e3675c1a26d896908931f88ac8f487cd408d26, 0x2d1783e31f3c242476318403db851fb1a6b826651ae10aa2c8c6cee8b71e9bba, 0x2c989d933295a819e388cbb736f1dfc008a813b11500d7a5d75c3de45443c7df, 0x185d645f3186249ad6b20d2efeb6ae61ea7add22139c06f0fb143d4b36428a6a, 0x295390e4301ff52cb4cc265685900719cf785fe42fb3fc7606eea8402d2c3be2, 0x2cff591766f8ed033dd1004a216c9545cb1be5c235f59ac0189845a3f0fb623f],
    [0x124666f80561ed5916f2f070b1bd248c6d53f44d273d956a0c87b917692a4d18, 0x1d2f561702487b43d9f7f6583fb8a342c82f15053b53c2952a7dd2d32491d880, 0x1431b6537ec76dc2c30ee7476301e832700ce7f638553e84cd6fce7d6f14d7e8, 0x9f68e9512cf4368a0b526aae1af2bfb818655c50e8a87dc157f83d79b409a00, 0x2e07015e39f5f8af17cd2d0d04a76917c1b6c30f0b3bb3c35a24d099249b17d, 0x22d3936579de1b153c68258f36a157477c7c746fbdc4f9f3d8d0ab07d651c28e, 0x1c1511375128ea34b876fdf17a984c28f9f5f551b8f5008a559875d627caee62, 0x142882177b08db528d3e30ac62d3325ceceb585c4cc091e5070a79abc3105fea, 0x1a168d198284cb1386879a2642bffaba7bb7672c91bcd6c562be03e3ab636179, 0x17221d50c79b06811d1d66e63757c063ce62dece8b1359c38932b53e0c199401, 0xd1d4e722fc75c3f4931701cd9ac240a172a8e3b638bafba1c99fe987492809a],
    [0x124666f80561ed5916f2f070b1bd248c6d53f44d273d956a0c87b917692a4d18, 0x27db073487a124e2eef709dcfbb41a62f07ee32aa952f69af50ac486b6caa7d, 0x268c8bbdaaee13720df617507518283e1758788bd916fa548026485c7aa9a0b2, 0x1fde18979072c0225095c73dce75c99e7c0ea3164cedac4ee985f4dd029b9e95, 0x2531f077c0a77c6ce0ca7024c5b150a41489e06180688904997855777baa84f1, 0x294a5bd8cf93bc687c0568c4e29e516d90acddfa5ca2c7df81eb09286583fcb6, 0x294e322170c9ff2069704807e64caed0a0e9f31683641a3012e867f5e913559c, 0x2b3addd6cb0f23db00d6cd79dc8856992da36e648e3bf0ee0b2715d785d5b4b4, 0x3135e79314a76a13df9cbfa22a7eeaaa6a5d2441ec32edbad2396c270eb6003, 0x173a562d9eddfaf8ffa687c362e2bdc39da36db4a8557a6dc851055a2c48a2bc, 0x612d864c1ff73f7b2d780725cffad529426a6e1aa5936875bd9aa472e7829bc],
    [0x124666f80561ed5916f2f070b1bd248c6d53f44d273d956a0c87b917692a4d18, 0x2ba89301ebfc123b4220c6c74488005cb752c72f7487bc8ef630bebbd41bf6d9, 0x10fd2909f9f7f2774720ce193a4c009bc92bab7f27f959a57842b3cb2f10e622, 0x249c1b33cde3144fb9b9bdf30e45544cb98bb9304efacf2adbf1271d59bc00eb, 0x75727d6b84d8e427bb742cea7e88009c286e83bd66e1d6951dd7929dcbe3621, 0x1bddd7e537992438f10091b25a5225fb06132dec4ded9cbfeeb451a034acc670, 0x7ef5e8e55faf5d9129f012479e12e08834b5e1a38ed28aea583e7ca6ebba680, 0x14b714178fc8031d847db2e05553dded47111455674598347dce1ce8b8ce4e5f, 0x119e1cb2a7e4cc688569e9b87952d4b229be2265a58ed6e619aaa93f30c38f0c, 0x21575c98afb0fd8dc75ce88a04201c36aec620f733d6ce71bddd6c4dae189c0b, 0x2e69188594acabdea88e257c19b0aabfc728d191a931d7a5f4e7ed8370c24fc4],
    [0x124666f80561ed5916f2f070b1bd248c6d53f44d273d956a0c87b917692a4d18, 0xd30b0f7b463491b93ef9a20562faf35b4eee1b0dcaaf84964b850c3fa9f52, 0x104f6ec28eac4f771576a7ec410980b2fdc63c39d1b90c3f0e721847209e2025, 0x201753ba0a0a888b66ec516584f333b4cd1f57c164b75da22519a89811dcf077, 0x16fc76f1f5f7644de6bc79cc484e010dd1da3d0631ef42714cf5dd21f59ebff2, 0x10892fc5eec5ed00fc6d5d0975221d3d870685367f211ca576706cfb083b49f7, 0x1c59c9b6844de29584ac93a73022b6761b196e0041e3fa32f548373a84307ad8, 0x188a3064c72ee6e3b555ce35313f73c91a154bdb59e57fdbc95d286df429fb64, 0x25a747a9139698f6b090741ac55c98ba3e55c845dc8af25ad83d6e48c945e249, 0x19cf0ef78c77006fa9f4849ccfcc2c52dd326a646a5789cd25f79ed84f5ccc09, 0x1145187227de632d3deb1d625a4e5fe3886f5103ae46615a8f07e6035f65397b],
    [0x124666f80561ed5916f2f070b1bd248c6d53f44d273d956a0c87b917692a4d18, 0x12606f5141cbc1b9a349a9121e54295d17ff69f2f9027bacdb0ebc8a6dd2d0a7, 0x2d1ec807263d78373ca6b3aa8f4c51ae94487ae04cb9f5fa6cb7a6155d44cfe0, 0x2b83ffd72f83ccd4c18dd16bd1d406aee308fd475bf706f00cc287d9dcd97283, 0x2378c35a0428264b3afafa0b782312463b724a4d281a0b56ba6036abb9d84c46, 0xddba7feea2855679ecfe13432b420858ab5d93bc835c9a0ad59b8c011fc058a, 0x60a0091b5a50a516e31bb6ae3023d902a23e57efdb4c571c143ad6321304673, 0xd08421d815f9281094977237c6aa7e6243ab5cd76e38d9df19dd2b4a62211d0, 0x165a3eeb547af156b4be28850c24586c0733767364429a0a1b7dcd2e7f99822f, 0x2367643242f32a40574489345294604135469a362e8f6f8717c381dbef5d40e2, 0x303a0941f18aa3166611976111e43a94d92f51f6fbdaa07557b47b4680a21af4],
    [0x124666f80561ed5916f2f070b1bd248c6d53f44d273d956a0c87b917692a4d18, 0x1aecf5def09ba5be2ccd968996c5564145f38f60aab4191978db8089fdb31cdd, 0x304ebc6fb5252ad8b42ca58356799e8c6961ac84708f8b465227103259913243, 0x26ab128903aa48b65d12869a85697da4dd7dbbab09aed508b833a398855eaa29, 0x245567a4087a5582bb36dd3803f7008596ac2514a1d7380d66ede29e27823942, 0x46585da7e8d6c6cf0ff92b5e3394bc0499808442cde328d13646b44a69cadaa, 0x12be98bc0a25716e254570afde08db45e96e159a86d7d1c685e1eb2a45a4b3ee, 0x1853379c16580675d773c80841b8b6e7db0e8a2b97637204619472145e3ca760, 0x138cc77819364fd983a34eb109c53295de653f1d905fd2de7b6f80814fe8cc0b, 0x2db2fee2d496891332218a6eb709848a819f62b8725482c591bceeabc1e3fd43, 0x22e95c3ae4db1cfe5e4cfb697815697cd9c34211c65111b8fe850ed25958057d],
    [0x124666f80561ed5916f2f070b1bd248c6d53f44d273d956a0c87b917692a4d18, 0x14f0f0699aa9bd8326bbec5ddd0bccbe3a7caeab685d9ce7883e517164bd5994, 0x1815774675d576817db84840bb9fa16b713472d72f4bc24c2cebc09aef0c203, 0x2a82117a43030418e52b708eb696ab01c9ab04396eb53a3ea4194b9a19824238, 0x1f02d515206f3d9a3c2086b2d7c6b19004cc8553a77908d534ad0af83a637097, 0x3dd5240ce1c5530fda4993dae13bc07bee4c7994c1f65f263a2b8a2f7bc9db, 0xc414ca1ed2f718060876a21de201d87b76f6fa224faf2775ec99cc13c534117, 0xab48043b18014d78845ac07a6b9727cfe0b283b44404e20c5da462aaa24f7cd, 0x3fac53034fc748ce7cf966aa1f6bf15445cb4f6f3a4a929cb27ede7928667cf, 0x1f91737266e97b633fc63e5b0e1ca82b486680cf677b132ab7a6b4ac75f70482, 0x2556e1170d24d8da980464376850938b361e16999f2f628e1281f5d6ab0b13f8],
    [0x124666f80561ed5916f2f070b1bd248c6d53f44d273d956a0c87b917692a4d18, 0xd258cad10974250f6da3a9e068f6830d7c65f1253ae250324bfb72b50ee94e8, 0x15e2bde6eee969fbbb22dde530a8e6117fd640972712b644ebe5b4bf0841fc90, 0x231dd2a58fc24a20243b93b6ed5cf8b88b7a94a4137961852fb85a207b6e849a, 0x4fcf48ba86493a6ed7afdbbd1b74fa91b715a0cab2e1cb27d416d1cfd220258, 0x27313c2f8d4e5dd6764d672e1a6f951d50083e4e404b9c1cd22334e7eed12f4, 0x1e8cc36fca79a1a3319d34db2305478ce58717e36f9710873528b16d4f0c1a22, 0x266e3f3550eeee1d1e2931ff3be33ed142df41311f650e0704d1a333b0bfff52, 0x88acc576b7bb1fd00b8e1783f7a48b72b48a529e130fb6f2f6550f41c67ae65, 0x145537172cb306df020f911d46eeec82af8134b982f00dcad839c3c10073b1f1, 0x897eada2a51e4cc2e55be2bab91c68a0d1378aaa4a65bd985e22cc675fae8d5],
    [0x124666f80561ed5916f2f070b1bd248c6d53f44d273d956a0c87b917692a4d18, 0x1fede8462b07d0a305d02035683cf29be572a53ecfebc28c77d17ff531a0e873, 0x64cddb26305c79f75302ceef162391813ffb575b21526a2a99d4d05fdd904bc, 0x41688ddfe25e6f627d365fc18d74efe41659d9213f25808c81da4168f465efb, 0x263065cabd50395ef40943af93df5370ad2f6d17bb6de59b3e8e7115ec56b82, 0x1becfb943b8985991a66c0758322e4c3f22632c199c1737f83a7dc251164a730, 0xe01451b1ef92c997edac826766a61525bc9a345dcd66955f9ff9911b653e737, 0xb9f01062d426904168cf7092d57e2c86f6660111475f9978f6b0608ad2f2278, 0x2f9dc8eb38534652d3eea5e1b8de7f088c3ea8f9015ae1347004c3122256efda, 0x2d97e9440f1fca57f227bf0769729d3dba7fe6cff7fbddcebe492e1b1fa1557c, 0x1b0553d2ee91c3a63730d686ff1a53a0478682a7363ddd4e7ece42ba0fe0cb2e],
    [0x124666f80561ed5916f2f070b1bd248c6d53f44d273d956a0c87b917692a4d18, 0xe83184ff6e43582fabb4d62c346c957a365358123861b4061670720703577a7, 0xce4cb25f594fd996c28d4578a4a8e3b0581299a6f165882fbd1ddb2d85b2ddc, 0x585f5827997ef8691078d8ab635cf133358212340599c51e1bfa20c93226056, 0x29bba7e4c28316d70bafc5d05ba5a97bd5451a127ed75d9ef2136a02fb0e75f8, 0x5e8ce714d85ecab7027dc4ad12c3a5e75a211e771db239df7b3f661658d4d08, 0x1d243f2bab7712f5d12fcc7e4239b39bc533ba6d7e1fe98779a5ced87dcf0f64, 0x19207f2711d65bd5cc7d1f5afc770d74efbadf057865e27efe6e61db2a83f1ed, 0x54538bfb0b84e707e000ec579bfb8d796106da1a5e4abfa8a273141d6f6ed, 0xcbab8595eee6b93df0d9f2545d61416af5ae2dc55a4f332653af8ce11fb42d0, 0x1dc6ca4abd54f254c1f401b871501e022c4200688e661613926a63ce19f78945],
    [0x124666f80561ed5916f2f070b1bd248c6d53f44d273d956a0c87b917692a4d18, 0x164b183c9251e3f103a08c44ff9bdfdee4a7f8b860850fc3b0ddac111be2c24b, 0x80435e71f368774466eb276b7cfa5f9a7a4b90aa4c34e1984fc4998816a9fd3, 0x24a82532902cf98917319ef392e49cbd1c7906ebc78d24a4677e1014ceb98c83, 0x9f961322ffb0b5ce846054c4c6dc75852776dc8dfa0c2f8b66229b3fb62fce7, 0xb9af076f893d939a48902f2107976e8a8875aa5369806e57e8c1f6fc1f5527, 0x6c40239edae3e7600dfd00e6cfe939db8a69799a826ab5e91f035e971232cd9, 0x24701c675052c925f2baf10f661d4f719bf145893362632605adcfbdf5acaab2, 0x11000d892cb37fbeb8e415c01e1cfc25cb3a25d287aeb67b247d0efce56c3c29, 0x2caaccd757a3146300021050345effd1a9e5b64182e1cbb67653997b0e391086, 0x10d9b51b3a086b412b1cdca5ce171ada65395036badcc79ef33f84aafe908bfe],
    [0x124666f80561ed5916f2f070b1bd248c6d53f44d273d956a0c87b917692a4d18, 0x147c39dddaed8630bf1b92249600016fdddc5e9f5f08291ca1663358a41d3dde, 0x2d25d39661406faf935d340fb1535be9086598121d96d85f84cb586880517fc1, 0x1a2643c9cc6f7e74f27ecdc2e30158b4a6510773a5aedf52fe9fef5a2261c263, 0x2d5d7010ca67e74c9a4d54c50188de26c802a2e02080d6d352fd3d5b5682c83a, 0x3060121bf7682a4f51292933031818468d050b84c2809ae816f14340a635bc10, 0xa514a5c227f4cec95dfa029e8dd124c34895aa46bb27c0911f3780d5015540a, 0x278bb49a7b4e44aea46eb0f882cb692801a6e60fdd5b5c23c63cd65ccce4fe0a, 0xc399e9f67aa40707a203feefb0b958bbdadcec5ca34901d253d026a2419f6a2, 0x1d6b3d5f6ea369c26f825d2362933eaa31ea35ec0a77c1fbd9e01ca1523e4432, 0x24be510095436206dd0abd0b0cbb95c883ab304aa52598b1a69306ec981a688d]]

/-- starky/src/poseidon_bn128_constants.rs L930-1339, one round per line -/
def c6 : List (List Nat) := [
    [0x1448614598e00f98e7ae7dea45fbd83bd968653ef8390cde2e86b706ad40c651, 0xab7b291388e5c9e43c0dc1f591fb83ecdb65022e1b70af43b8a7b40c1dff7c3, 0x2b7cbb217896f52c9a8c088e654af21e84cde754a3cef5b15c4d5466612d6adf, 0x2bc6b0ddbe1d701b6570428bdc1ca1bf0da59ff3bbbb95fc2bc71c0c6e67a65c, 0x123a55a31980384f3d20b2cecbc44ed60c38c11f7d20e9271efab9a905eefd3c, 0x37501cc8c9dc819309a769f4df098e588b01858bc8eb7e279e2883be9fb8c53],
    [0x1c2116e47e03a86bb11695b0a5f6dab6b9a460b1eb951ab01c259eca3fd47d51, 0x2c18213489032e85a9c8cb8e9a65839bfaed13e57bc0fae49dbdaebf54f56f93, 0x2ee8fed3d4d2c71a0429eafd8e5db1718f29e2227985fdf2ad8703c835b9e031, 0x28c64d8f5ed7aac004c92029d9e9bf91ba9436d1cce94b9316d111c70a0c1714, 0x18a01d9ffb747ae0de3e83c707f8b24f682c84f15abf571b34254a03478665e0, 0x1c21d92bef197e73b234e4777b60db14e642a56cee71515d54e1ac71cde72bd3],
    [0xad404ccbcb1e195897cb60c80981ebb9d66a6677dbbedad8b6455fe62d807b1, 0xa9b6de833064f93b6adb99af6c005945cb654cb7bd14c8b97af8b60cc1fb387, 0x13129e3f930aed6d47690331ff09dc5160efa58ddce2c3e6180d45bec3aa3a6f, 0xd7a614c8991508ab1ce4895813bb1c82f18bf7bfc9e280ccca18079839387f1, 0x532f7ec36e30041b0486986875c913a49bddf2f5af5febe8c31f2f4094ffea5, 0x6bbcb8e8e180201293e712f4950f1b0bbee808c9d64263c84d9d8ae155cb892],
    [0xf558a4db1a3ac07f61e2e6bee947f73586bf40f211ceb4f687ca5678a9dcb33, 0x2be140a60b5b5f2f8edd78a818a969b20c643e419bcf0b577c24a0d0e7acfe98, 0x1c49c4b9a9f09f7b9ad5f74ebacc710512b8e867bace27cb0dea06e89b96f631, 0x170c1a732721b12cde7f33e476a39a1aa77a81c06e2eac503847b00d597652db, 0x19c27d0e52f65ca34f4e31a068e49331c6bfc39d9241f9d4c302041615cf27f1, 0x2f1bdc5254f9220c1a731fc5276964dab26b385fa40b6b04bed9960e2543ba08],
    [0x5b42d2fbccbf4d39d2be9339cabe9d0dc6d921e855cd91154b639d28d4a1cf0, 0x1220040715a41ad59f4f410e0c05a42c5fd32ac52fe9d06f88188d71f61e0935, 0x25f9526526155b83946609f7bb9507dd4925ef871dee916d9144ebb4ece1343c, 0x17bfe4284299ae7740b6d0e204951e314a8a5d0452419147978a95b34742444, 0x2a5d4764021ca71d78a9674cb6708f1588d2ceaf3578c4111cf8b359eef089cf, 0x17f02dab745fbe3c081321fe5cef845e7b8d070b2514d29b2a7b7d89cc0815da],
    [0x19da62626db7199b65f4adcf57fa4a3dbaa1764a7bd155708ee6f378c89ef013, 0xf88e295fa2ed81b426c91fa69366a73edf75f39bf18634cd266ec4038829e05, 0x1fe31c5548546c7948fe4ee1bd7412e3280eff7d20cb09aa85f49f2766148017, 0x10fdc1613bdbf67f38bdde561b2f91e4cc48b59f98d643638fdc0afadbfe126e, 0x1f2618c2ebe9574508b9c52f0000e33ebfddad1a03fdd6bca6ef7f0093127bef, 0x129fe7fc3efac6a8ab23dba6d886f394da11f5953cf98e28269a0dba2a745dd3],
    [0x15afd4cdf1e4f820c1631d4ab85ca4ba3bafcfee72beade9fae60523102448e3, 0x1f2c74ba5c367e370d728e71e15b268851a7bb8b45528cb734956079ac99b012, 0x1130e1872d76f2f9369cf59b95edf9ce19f01fa89c9c36b26e09def6786dad3c, 0x13523d173f7e6badb73b63fc1c9bbdbee242c61bc68656493327533a5c1b1dca, 0x14da40d0af427a65f1841b5adc96538653368f7254cb5667ddadbbad7a574cd4, 0x91f96400e4297ea85bb186c17b304e82638e57fd631ff6315976e1a5dd8b86],
    [0x303329bf9031c5515b9a34d49a64bb6a0267bc7b54a0deca5c450277a002cdcb, 0x14ed47e55c1da1c2f05d3c1a1b2e6c18509fc8336ecfe9db737916e283fa821b, 0x1161f10b357775d810ad53bcc4a20d5add2b03251c747deb04ee94c565e58d6b, 0x17a8a50ae72ce707f22bc070eb992851ca914eb94cc68eafbb8a96a714eb8221, 0x1a6c61d795dbaf62f99250b37ec5df88645a1c153791db6312b932dc250e4f62, 0x1f8bd2ab8aa840664c4eee198c4684dc4b05772bb2a0869da6722b15f447a133],
    [0x1ffcb852a4f0027a9799f131cd74b98ccfb8cbc06349d8fefcc62f10c8fb3e2f, 0x35e742ec52f19b36d489c720f467ffad77cd53bc2db5dddb246b23021f79f18, 0x1dfaaee41bdf94d783aa29fc62b7ec7b55673aa818d305fd42d175a05f2e3d86, 0x2821378477a02e995005a5635088540945bd333f2d1455f038a219b8c4796b3a, 0x1db4a4d0f238a570b1061c6eec81c02f31ffdd4a7c19e763174f238d04897421, 0x14bf7889457b20b7a1367b34a3a538217d693b52426aff40a4bb72893b1784ca],
    [0x2ced52c2bf296f87e57410c3ec9a9483a796d164f6049127109ff0d3a9c08465, 0x1ddeac5805a7f4ada4d0441ed108e3149d4ce6584f49ae5bdfd46d6766eea334, 0x2e36b4e5e9c97b462304e8e2b5f9dc88e1c9f2161ba040673f911123f042ae70, 0xc6840d1cb0666dc59e89b1865275d8a164b447c5ed64347caee63502c238d5e, 0x137e2e3e89e71d461f4c9bc3e8f12183262a4d1db55c589b2caeaac01238f58c, 0x250932e7b0adcf2c84ed4bfb60a36b6b82e55aa94751157b1d45794b081c8aad],
    [0x170a7292f5634c06dd3bf09ab5c9c4ecd4b00d5ce2f35f972b4555391f16b42d, 0xd68cbbe77289e78d5cbf51d70f1b75ba215df4e7bd0149d10b2c50f2a4f3b81, 0xcaf74563b90525f645a6d2036ecd1306fa1dc680b49d9ce4ed24c9749973178, 0x20a7d1c0a27fcce78ffe372f4c58306b166f9456ed46cdeb255e395b7d30d42a, 0x623f3226b5470b2789b8a53040e44443385e96b9cfa0be4d35015158a468465, 0x1632308688c25e790f57d68a5350241242a56305347de4a5009ce46b8cdcb91f],
    [0x2de4793a6f99cd14e3f6642211f4d0b7bcfa361597c544ffcb5a567e9076f47f, 0x1d4d06d19ea1b09cad79086d51bde11725a554fa99559ca2f09f3bb73d728c66, 0x480e7479a66a7cd9ea61c8b28974389908350abc4aafc18cd75e33dd130c144, 0x30430b03368ebcaa91246960490bcf917d78681463e2e7d744bfb44335dac24d, 0xb57b37320127d4c50f269124b0dbdcb2b1f1352241a5d12103283e089c0c742, 0x2cf4890650d27240e195f60a4f698eda249b8dd614b23376b50178d2df6d2b8f],
    [0x1e221c5526898bfd12de86851a0d9703751a2f239008ab5f9b7d3b6911c64184, 0x28e07485ad7d992ed1a58f329ca12adce4ec693ebddbb2952e54d339f2eebda5, 0x2f44d64f84de16dc67bd5ead51efb1dc8381c84520c12854dd5ef3a079acd4e0, 0x50a76bc32ebd1dfe2be330f304edc7ace7167ab7ba1516f4021c62cf0d4fac2, 0x2f58c45e5d659a67d781367241f6c35d8cb46361d97b28947d29421c270594a9, 0x25e8da9ae0e42e840e04b230370e782bdb67534844325ba36fc7e5e160c66a74],
    [0x2fec734da20fe32003ea04f127f844724f38a368ba10c29544252be796040f7f, 0x288a6778f3a83988a8ed1727f15e93b4cb14f4e3a3bbb91dd6d1facafffd5eef, 0x20dcc6c75fd89259be7f406750b3db679a25a8cd2715d245b9175390ac922c84, 0x17f42ba10942df25cb8a541782a18b6fd31cf965d11178c7b04ac45b4dea5dd3, 0x28eeb85d115a904020e0c6148eec6603e9cedabc664abee764aafd455986ba5, 0xb1d7cecf3a79b2ad3fa298f6cea7ae95d80c0299ecc918e9f8c9c3d38d59d40],
    [0x440339c9764cec79c16efdb834a26261db8e3f12ce1cf722d23c0e11ff4cf07, 0x6ca647c29727c1962a002177da2d504f4b07a5f7eb57c79b88e6b7abbbdad5c, 0x2ea120a864f5c4093dd1a962e8f013c7b8ef778b04d2ba5bfc3cab28619ba9e3, 0x2bb737546c4aee7c0cc2ba87c1157e2a77c479ebfb5dc76adbb39cf8697633fd, 0xe30da6490625d33e79cd50176f568f9a2c28c2f449a2bd51a25d15686803a93, 0xdf7ca7278a13650b919d85497b2ebb0f71035a7c20430d4131d903ab7f57521],
    [0x27cc589f5bf585794abace589fb8a74a2f784c0990b80fcaa6944097f870e2d5, 0x2255c36a38c8735de45cedf452afa842332d33042f78e60c43c7455421b325bf, 0x133d9602bd3378d69f681c27b05bdffc98b7d86cca63d73a60caed485784d087, 0xe1548e942ae9d3e26860699b93727c817a9948616c93ef4accd981b1dc3d78a, 0xf20f0e55d93689fe09ec312f6af47627482e4bde0a1602a8e2c8d6e84e8a6ae, 0x2e52328483cb5b7ff2eb4e45b12e51b26232c9bc17b7292954c0a9f6bfa51bb9],
    [0x2b2162d533e059a6eda2abb74712edb3a7860beea95dd8a4abfc957660804f4, 0x19e0927715d1cc6d389429947fb3737dad733974c6b2e13e5b3d432519516c74, 0xd3a800457d77785636303b8b94f17dcffcb46048872ac9f74ef7f27ee573705, 0x2c974d1952557a1aac5f7bae4996616da619b73f441c4e504dc8fe9cfb559e32, 0x766bfeeede2ccf3708e1b4ff30714c22c1d434cdbe8f55514babc2dd5d97bef, 0x23dac8ea54082fc131e173ae55e4630cd4ca7c871b2a0a479c1e74e7f191e62c],
    [0x17d5fb6c2cb37010e3e358ab2d575376870ed33186b8eae49ad3b47e340a8d7f, 0x175dcac76d8a8126139b583ae38853290246e43e783fa6903ec8007f178c0023, 0xc4fd08fede5d221adb7abf549898c91e5be7e85bf1fd2a611bf182cc2e71655, 0x277934b909e72d3a3475bb1ec766ab7a38ad59b128303fc5002f02a65bdfe729, 0xe88349998dfe703f1b184524f9c394d6004ccacf9cb952896e8cfdb0b078b68, 0x1f1b2078b60b0fce07824e2a2bc8cae8ee673514b0070a8b45710cc78cbb9942],
    [0x2eb1559566c536ddbc316f6482d51fa340557657700f5b8a846e812a0ed334d1, 0x1c4dbdc335cf6764355208b4c9d243d34541d623c669dec2c3ba066bbeaf6773, 0x2374a6b2da6f8cab8e5cfe8d805dd3a2dfca1e8b7eba5dc8574021fd1241e3b4, 0x19dd342533ccc603a99738e3fb5a569b94ef71b3e49f90fb874f6161733072f4, 0x217d66db6c7fb3effa508800587d2eb3c6d03d8385132f2fcce7f35f2705cccf, 0x815fb8591fe01038cd3a3b38b236f9efca77c618d3bfc6c2a7fa89296c7e64f],
    [0x2bb943b40c2bd456a6c17853b1ca88eb0ff36f5974b2ff9a5f5093e9bf63a16f, 0x11a5153fce659513ee7cb9974ae6cba581e3b4cd14570c5709fec3d8d3fc82e9, 0x1b72bfd07635d8501b2eff8785a2495bae74c7653cf90e6d5c9f144426836df4, 0x14902c0700eec897ae178ba8caf850d793f1d87512bea0ecea39cf6b1fee233d, 0x9c138c6e0a616a49ff90d43a6b043f3b745b78865856dc4c1a45e2fd84cb3f4, 0x5b58a3dce57b281a271d69895052d887458a715783e8317e024a61a35ec10bc],
    [0x2be8d29525c0cfdd5e6b3125e3bde3bf558e55fbe867f024457a96765474d037, 0x61d72f78f1ba9dc6b4d7f7784225d6a81bdfc1b5ad6c24369f9c0560523d9ad, 0xbf18aefcacffabdf4112eddadca6145738b4803b36145bb9516db501a0692e9, 0x2e73dd105fa8b2ec931d8cdf29ec679e3a9801a93071a7d5ea30659255f03bc6, 0xf8440ef667c9ae81337ba5d8c927a5347de7296860b211cad1ecbfb5d3598ef, 0x4d303b2dea627b2731be83f93ac34e7d14d178a13800558ca7396395eb118f],
    [0x234541ad72040a70da2996a35269230c94699eef313a4d480508008cbc3d37c1, 0xd123f1e72d26b92bdd8fd73d14286c312ad4c23acb46b2e08c157104409e174, 0x2fb360776f0de79d7098ee7aa4123c05ee6b05a8be460a774f3a048e138545bb, 0x3685c079434e167276c57d3cc79703b7dfdc41c156ea1e8b7f99b6956a55326, 0x260af0e0fffcc9772c1631b179344566b47aaada3681eb9034c6f75c3705c1c7, 0x2862b41374f89b695274b33b773f2554916e2bff9ff672545fc2f49563f62767],
    [0x2a9912fe170310227189ea1e691d0362f18b38b400b0eff192ca59513eba8d5, 0x8e513ade694a0d8ac1f3ebf1a96440d32c713d5058e1224e070348c281f4a6f, 0x140a4a431e2ee79400ed7465978d84773213c628264ff80f21ac7a6b673d09ab, 0x296af4d019cb5df7d959b29d549c3f071202b4eba8b53dc5ee979ed143377927, 0x1832e284a7f4c81614882b6939fc0f185573bd2023e3e505765470bb812b349, 0x1a84d56a67bfdd3d965abdcd329aa78d4fe93434496f2d103861fd19d66d7260],
    [0x40cb82847773927d2aefdc07489037a9d1f7631eca75c9fb0dda0cb9dbde143, 0x10dcf084cc29cb7caecf26aa633bce4ed2b019f2887cee7b1a78f89d3fabe2f, 0x7edc22a0911ea214425ef542b776db23b0fe5817810d40c72ca98aabd9afa83, 0x2eea4ab08aec775f2148479ea36fbb96936da58ba48bd1d2d3acd48173aaabe7, 0x1e40c0e8257fe4a61005cdcfad148cf7f47d1b5cfddfaa082738695518245f19, 0x23a27809583bd1ea51f436de5443e108f69d44cdf51dc1f03e21948b4980b876],
    [0x2e4652b044dbfe40e63b6b232fcd5f3f39abfbd2051ee68adc754080d49250a9, 0x11e7abdb6ecbafc2e7d8cdefe9c7b9c50475eb475db3c2caf7f7d67f485775f2, 0x199d52350cc30e8c73821f802096f0e547a13551b27bf6b899396f63ac5cf8e7, 0xf575d6ee67cbecd98345624e032a37c859a7cbef30b3fddc949cd0978484101, 0x1c4b6f9a2ae2b418e6265acba9c96b06184d07028e5fb784f3475ae7772ff057, 0x2dcb5cf8896de39f228e157c0c5593f4626fb9bc225206383db20360abf0c925],
    [0x1340abb9f4e113186bdc26cbdf4bcca50b531a107f863ca544575e3cf870f8e1, 0x2368e692b72787cb8870ea888e714e006f59d2b4460cfb74c48a8cc73b1d1a5b, 0x1fab9add9baa4a4f56f23165775c6f2d922a7632a94f96374b7dc852756f54b6, 0xc7f7b82300d3c6ce3f8957ba1e4add54c4c015e20d9765d220571c16ab8680f, 0x15d63e86beacd93c6083688e5d9c8f3c6947929f9f1f99ab578a4c3a922eff03, 0xbe843ae5f9b07e52572178af7dae8ed05d36b12c0607862929355ea74023d9e],
    [0x1332749c523694cb6935e0963a07e81b05967ce1d950c0b731058ec92a7a0c9a, 0x25439408810e074c0bdd4598b9815fee892bb95ca51029ecf009bffa5b9b9682, 0x57e8d19dd999a918da29b0940b383ba9fd15db0b0f64996dff67feb55f9a742, 0x1e014e37e9b117cf3b4870d999f2b55d3534d0a6be98e9e357fa43f01e70a29d, 0x1a4ed24e6e03aebcd6bdb100533dc966597afe15c851b4b863f6e889084c6479, 0x253420007083f1aa863ad4760905c1039ed4111c9f053f27710452f83ce36a90],
    [0x2276a1441971709affe6d2a99320001ec45ec72155c575ddeecac0e32759ab06, 0x28957dd1218ea799fd3411eb19325853adf7ae8ae1281f753302fe7d31dfa7b0, 0x2fd925726ab794c88bd75796aa3e7f1e6692f2914cf802267ddf01e37902a008, 0x1cf8a5c9c76a84b147c8238d9253cd55b47c0c43d82966c4636a28674705fd9a, 0x373cbbc306e1bab9e7077368715e6230b4b2e2e4a1db9c674b8c359a41e9108, 0x60283d2fe7f23dff513d9110b3dc62448bc48f531ce0c1eab5920bf23290a40],
    [0xdab465d6d910740f33ef6cc0eadc71bf8119bdfd5a3527dc8bbfadfaa40263c, 0xcba7bcbc8224b2a8e4aba17977230a686cd6421dc0ca5346f3446b62439c4c3, 0x1e4365db0790c9c4f445b0653c466ff21db96c38b4076ba8bd68bcb4dea6911d, 0x1bb2dba2199a9ab3bc86ef5f9de7f6c5ca13d60eab42ced68de98fc643800a8d, 0xad3c1870c6d6ef40eebad52123cd1a2913d9d62e80bfbacae812e082021f9ca, 0x1b098c91e7b0cbb5c34588077c0ddf95300ddf614935630c0ce3a2627245308],
    [0x19fd5c0eac14fae7598bd4ceea3b1e2998b0c168493b6d72ae41b576e55b9c3f, 0xd4749d79cc163f17110a404a46fe427c6434f3fe67b7e7b4ccfa6ab95bd7e18, 0x1ebbfe8114a41bb809e0b33399241232eb940ad8728c8a516d40ada440dbfdcf, 0x2704e5b6133d9764d6d3f17d49d833223e3937f80eb9faeabbfba9baf4b4c1b8, 0x2165e1c8027305b1ae0e323571635e5d540d13d710c3f9a390b6913f14d035e3, 0x2e3497e4d35fda596c06afa63bc3a0f2e55d4eeba4aceb60e65081ad63aa8b8a],
    [0x31da4345eecd6db6c0f7b07c7815d7add1fe0546d738f4d79ab5c57aa841edf, 0x89ece54e47aa5c908e43e5f08737c1436967089006acab1c9cd19eac4a20876, 0x2f53c15e2aded33c47f55a070483e6cc7f3821fbf8aa40677d0552ed9d10d847, 0x142aa34f4b2e8ad0df7a21b3e39c00c8b0aa2857094801eaafd72befed077f93, 0x17aea4da4c7bcf0d7588b014eb8b40979dd2725eda4e6ace331982467c7ff2bf, 0xe970c19d19748d8c465104d8f02200363f9a41786f02f1827742b20dc0d1727],
    [0x4bcad9e553795642f59baf714a6bdb432fc45a0a0b77f1aba3a9823476df9b9, 0x242c0bfbcdaa76f715dbd4ba825c71fcfed671c1b1901fa484c87f810315d0ce, 0x25db1343c24104071023fb6ed34d9909078311e1efe85af0a11b19114fa9e790, 0x2ffe4d9c420a59e9cdc7c31ab2bf35187ca147cb898a3942deb3677786036a80, 0x125bb03af3e2cf18bbe6f5b590eb3bf8d0d1ba63be696483e98f283bc7cd07a3, 0x816be42745b7dbb4ceffe5b8e24ea60fd8b719deba50037ac7b75948745c6bc],
    [0x111160f9acf6ec360d1b6a712313a0dbcbe23e64420055471d2ee4c5dedb35d4, 0x1377978e1b1f6a8925fa8e7b7941bdf8fb59ab9542342419283d8203435c9391, 0xdefc1d8882166ef3ccde53a4f236fba83d384621937cee57e421a513d0d3397, 0x2f8fa5c78c706e3a5d4a03f2a7a3953046d7e94cb88a7ef350e67b5ba0f0debf, 0x1a2a957ec0a723da61c2134bab0bf17beb00e6dcd84690c230dcb9e58da94827, 0x1cdf8710995f5e03412b4a7f699532f9fd01f0ea167a8dfc1ddf37e2805addef],
    [0x26fd31471828c36ae36c27b748054b0c0c4fe5239b301699e3765eebecc18946, 0x775d996cc2c4456f303a2c1f9007647e11a921d9fea3f7b926143b99d2fa0be, 0x16fb9337708ca638cdfda91bd0daea6b97224ef7b2062672addd1bd18bb8900, 0x2c392fbe7d3fde42fca4f9478bb439331258255356f184af6f76f119054117d7, 0x187a2a3bf79a69fa3e5089ef9f1fd56fdb47c55eece77aa228aa3de1b486bcb1, 0x271a863a280a32641ffa33510b2edd278c98630359532f3e506b275fd5d20ce],
    [0x1557459c9c74c94aa00e5af69a1e3112fb69537ce897ec0c718958d96516f2ab, 0x2a8e26ca8d647d9a6388516ea9dcff89083d539e58168c2a50c6dae30f109f21, 0x21cb752194cf43f3b51942eb0040eba9de2bcfb1c2a3fae97924b710f26832cd, 0x2c26daf996be247acd6dd4acad60d38b5a471e6322188d02c137e7cb484377ec, 0x240176ee0e7982eebe92a68d3e3a38c26821acc0f5d058cf8c137bca2d26f1b, 0x2636e0973c865c1bd974dd78daaa8d0a84cdaf6be1ad47ecf2a0d18f117318f2],
    [0x19e84f4f25a799496041661dc5d975b681f6e06744cee89b7be5d9fde1744ac0, 0xebf89064a3af247ca1f36f6f3570188e271e0b326c4fb26664e89e1454ca110, 0x25c7e97b475be00e8b559a38c452364f4c9c531fecb8ac698f7fd73ce22e71ec, 0x444c99e592353e5aecaa302add901c14d8c55270a160afed4429ef5598ad74f, 0x138db8887830565f2693d0e0f02e4e79e144967f0ba53b03519aba764b5c994a, 0x24d40f462114fe9ee02aafcf74b4fca24e1ae365dc75c3b52bb13cbbb2f21edd],
    [0x21e65d6d8ee43760bca40e730b5df4c4cf3a8a732db148f4b2951b4c61d68e8c, 0x248dd79669ec09dbf0350a15d6c75c6a9bdaacefca14d51300978f13d1ab6d1c, 0x2b8238c1548f9cbe29fd35cf91e7b48f0ebda7e639edf69fe8d5aba7924d5362, 0x2439fd239257f38181c7be3cf513f1bf7235eba94f6b8942a94cbddecf6f62f7, 0x200958235281a61ba2c4be0aa3282a18c74b6d262f5de7c2e33d2bb3e893dfec, 0xe1eca5df88ee5f60cfa7e1fe5befbb719fad8211fa9b2d02fcc233190c17f12],
    [0x26b53427f9b3ea2c769d9c660fc60881a169c12732d001b7158ee4b1b842ca24, 0x20f3b3f4acafe9f8af3e06661b3a8f778fa2812522b9d70a67402cff8db2b1b4, 0x211e5d2b39d62520a7a627ece8cacbac9f97506def4ec286928ba6c27d463b17, 0xbb743ee34802129c556731aed9d302dcd085313ce572f6242d13832e536b4b4, 0x23cb2661b488ee71e4c753ff23ae4bd25d8a44094f66b6532977e22140eba5cb, 0x3a35aa3123911cdb4535baed3359f5f6a5205b9c93ef31d35323a47807b8bc9],
    [0x27803848a0aed96a93fa943b6635e450217e137f4ade74a62d7917322714b697, 0xcb37839c2c9a7ff79884cbec75f41e9be5e47c76d61538231bd8162996d6f67, 0x1f0026d0bf1f8e1dd5423cc2fec1fb5cdaa1ecdc4c3cb218dbceef77c00d2f93, 0x2a7d7bb970b8a6ed2ee66fabbba956b6da3b100f5b5fb928eef42f9708273c9, 0xcfd7f4215e434c8da17ec3258b0bc605ad1ab2e90aa494351e4ee40bbc491fa, 0x180b11b720622a156849dc6f7f6e7f571659be69682230c5ed9ac339700a7cde],
    [0x4e96a965bce3d3a0a24a4a457c951582c871349ce7eee1aabfe578a94c65011, 0x15931f782b45f7fb656f2cdbd1f7705c353a23fe1d30a5a46a1522ed160df3ad, 0x2e296e57c97a5309acd26febf55ac963a5444c1c5f703ad88a0d7b97b9dd38b1, 0x26157bceb78e846bbb262f9a1e06d4271bde5a5bce8f0419952f97ffd13eaca8, 0x2194eb89847d6b0f1897f675f19c0c56b61b13248eff3ca36e34fb9d1c79ee43, 0x2350bf35477656899151ad7dde96ea7857e15501447008dab6b3d27c8ffa274f],
    [0x1a486f0ae591cacdaf09c58a49c4d1795405435340819e003f0469d110b7752b, 0x1b56dcf76fb23cc4a834d455a4065e133571402b7df309d59bc3105d42a8c301, 0x1a749d7964af0b7202913ef204c653f2b4bfb65ceab7b685233ab59ce3bb6925, 0x18ae590073f969696af762ffa4e8f0ebbf97f8cc787e37cddd1f321be3beadbb, 0x21c47b275d82dde6460d5e769a99421144b1c5a9da59294ade9cbb317103f249, 0x473ddbd52e737e527364e8eb63207975c38d5fd6cc32b272102b082cd1518fb],
    [0xb12fac95b6d3a881d892657c8424e645ac4e6b00515f902d594574302b26e02, 0x8ae7616a260cf6657f8f73ac284588d2c5f07ff425d837aa7cdcef63e3e2103, 0x39daf6876280b80e873bf2a32fd2834a83c69757badd58a888ef819e926ce28, 0x25e7b1d7470a3c75f13f0b56546c8e09f2d8efeff06ef766f9c783ca869d130d, 0x1e8fd3634c3ff764184d03435f98584b11b5b15aeb9c75262da3f1ea2c2a9e7a, 0x241dcc51ac37808a415dd1e3c281f05aff11789dc0cafdd77a35484e0993f9a4],
    [0x1ffc3153c56ef9755932cea2be0573749bdafe1c4fa0781a4b8b4078ce9d7547, 0x17630d62d9a3e510c88a4d43c360f92bc0fa00b66031adec29bd9543fd3a17ee, 0x2980400edd1d74e3d69db5458d2ccd5fabdb236ec16a82a4301a0ab59ea4a6e9, 0x3034fb24366123ec6dcafcad35726dbfb16194c036dcd648fa69439bfcd00cd4, 0x1aa7e8f4189ca9dff3db2ab7648be0a2392995ce46041e04680dca8ad7232df0, 0x1fa195f834a69e62372f60eb497da167646eae14153d803b39dc5d11f5d7800b],
    [0xf23f1c74d5fbf6195ad5a6aee5e56993c5477e8453f5b93a0d7bafd333036d3, 0x16556fac9348a735ab50aa089c97151b3caaf0a20a34fb9d9370505a1515729, 0x23d92b793648110fc5aeef0633f0c77cacb0dbbca1879b8a6f6e5df445e5f70b, 0x2e4c10ec5e65e2f239bbc43c13031df2686ab40fd79a304b05d611b823f23b73, 0x12418bbfd77b63ad5e16864ad9c32ffbfc5a3dd9b78ec2b79329fe5e0a8d2953, 0x1e4a8aace15abc1d5b76a9e848431d2c06a78f72b6bebb1293e6c58e5185696d],
    [0xf3e96107decdbd6872c20ea09acf92cdf17a3ee1d1331488092d96176deb755, 0x12c3780207f395cc21deb0abd951681eea32498ddba6ce897a8f9f0c2357067, 0x13eab1b4e672ba1b1c1bb901769301f1e5659d03ea10c61de2477ff0ac221421, 0x20dc664abb20b7456c06629ce37a1ecb1a27a4e8b24e31b48b9c4635aa30323e, 0x2c6b1e2cfea78e2c36785e76a8cfb1b057e9471f24f5b391175c3decb01e000f, 0x188c926255f5b7af3da96355729c2a8670ab4c2c70400481b2ac903740e0c5ab],
    [0x2f9913208e09e3d6e9e6fba6384fd076ab89f2662976e3e30e0870bb30eb54f2, 0x2b33803d90889706e714f720b5628d26fb60b545a1f3e9ce49a6ae912b024086, 0x26ccabc10eb04327cb5cc3dde2abb36f097086c97e738c133c9f57077e748b09, 0x1b16ae0d7c54408cb75fd931f246751f2b0c3dc20d79e82a2531b76c22b4d5df, 0x11d0bb461bd8af2844f49f0f840c94ef9518b2511344742d1f5438fe3d415ae4, 0x233031847b476bead0118d3db338e89133ec420d673e504ad647259df655571e],
    [0x1f84e97895bee438eb3c92dc9b1846c9ad29c164387b06aeb6ed1841ed8c4dca, 0x277f7f9b542f0c2bb5f45bed054f09624536010c3cf9452d2273193327f801d6, 0x1efc9c9069e5068baac13d2e6645641b7d27e80fc23077161535c44682ee57a9, 0xd6ec477761e2efbac4f14b3bf3d5257a99e64c3f25fe104faf988b20fe5ff44, 0xe0e7d7c5501999b7d16173b59b7cae1f203bef21aebf00251881439ccf93013, 0x217bef2f4f12c6dcc91c2058a23391cb77de53ca6e44dcdc6ea3d36fea326ea6],
    [0x5780c88adf01531b50f817e3fe44447d29b35aa8a389c71e8cf1226acef68ba, 0x18733887a6b2b3b4c90d8e4990196e23445e47d7ea5939ebfb89a3ee3d67b4bd, 0x20bace63acfcae0b1c9f2bee24b8e9da85ba597d37b0905720c4f15db231b07a, 0x166ea595375a6786ac527ee9eced73ed6bf550876abcaf3ac92b42c808b00d8f, 0x304262a9eff4040acf43e322d6f52676ae2f853ec2e7a80db00c488cf917c74e, 0x226bac7050166e5f6db78cd0b12d36f305b6e8c9a055114ad7709e6f57245b6b],
    [0x26b2f539c573829f6aca91baa954505bc5c3eb4e1df1d638582717fbdf2388cc, 0x6a0fbf4cd52e93ba5e4c6c4af65db02ee96297f8ad200f2f1cff252e769b551, 0x2cb9c24112d35341aceac88360fb528924e58b6ecac321b9fb29e6aa3368ff23, 0x20e88a4d607526dd07fe08a3552a44669129eb87fcc0b13aac8fe8afd9301521, 0x1544649a2bd73e3ba72f396df91dd65401dd8faf51de325fbaedb9d536ad94fc, 0x1980077457995712c44da7e17713258e3f8eb354bfd80ed9eaf3ecbaf6960105],
    [0x25d1d22ff13e7705d3c085f97fc4e4f6914b82ffaa5d2091ec64dac423765ef7, 0x2fec990ef556efe1035a464ff5581e74067445cd54abcaf6b8c0399fe0d24cfc, 0x1bd9563506d9544ef3e4830e13545012c579379c2dcc1330416c4ae49bc4ec61, 0xaffcd17ba6003c56dfa85571fc29737b225a80d480e7dd7edec01f14f23010, 0x23670dbaef966881f07f919a2d883128c7b23cf767a477b2b2e0762bc0dbc18b, 0x1f93a532917394c7e22fd17abeea6389c66fd7ae2dd9f02f860f6d96947f0edd],
    [0x2de42e9f537b7d61b0213771c0e74f555512be07b6a50934734e2c5beb40be37, 0x25c557f45b99781cd37d3bb22931662a67f78b37782c885b456bb96d55e88404, 0x2074c8b709705c9888538a7f8a3c4aff647731bd16f8e254fa74ea9f2be7662c, 0x2738355956298138949e442171d6a4e4b74ef2065740db7cfc3a0b60fd573acb, 0x13d36ad0a4ebeb81969778649659c65cb7d0c41cc519871fdb71a9ea6a0caa56, 0x8a2c18ba41381348c1acfbf9617716806b462a1691bc2e343b79b8085e376b0],
    [0x59092fc395aed285807bbf557ad9a1041f59c079822b1088457882fee7b612c, 0x161924151b5a5ad2d8cac119522a991a906f15e8531dc70567f6b28371cc24e3, 0x1c68ca8f7aa17659075405ef6341b8e69a298b9a4d72f3bb854b309e4ba87a1b, 0x27f5d03bca1c8207f7239a4b2cf73ae559a15aa37e7bdddf3aab05eec5ce5592, 0xecbff4846962a975d347ea9a8fc465fb46861557622f2c2564a7e639833c169, 0x277c4de2363d8b5b456cfc5a7ff8e46ff2ec8daa59855f5ad64bc0521f3ac567],
    [0x1b11862c52acd351b7a464793f4fbb57fec99f832b63226f95d175c8d2fc08b2, 0x6a719c584c74ffbdd7218eb565cb4c8bd86c92e3dfb3c73e1527201aa51234e, 0x230e4adeecb799877f7ce9a58c836b99d533584a195c1d77a313abe1c7d126bd, 0x10b109b864809c4767a133cce6cbad6c88628173b8ea51e8cca85830ca7de522, 0xe21117970dcfbd4b1526b253636f377538d3b4faaeb5a8b24bf6200d14cc591, 0x2667349978401362f6b17939eeb0e64ff55607ebdb35c7071db46bb3e7ba4778],
    [0x5000fa5fda505e029a13bfe304c267b0d86c72c039babf6d3ff02ee246be02e, 0x264d9e094aed5f41a60242220a34a284089087b2436a9bfce8174cc9be8c2e20, 0x8076f9c4743de6130ff622cf401edd2c92f24bfe114f3c5e724891746315c47, 0x132370abddbb0b1dd57f2a520c25336bd7cede94b95bbf5c2151d6d88e641b64, 0x8ff1116b7a227bfdfd4465a67890882b615c8c4c17f28d8d24958edf602ddcb, 0x2bcb0b0db8b9e3e02b7e9c1c9460fdd9c6cd98562332e648d8a3e0ab94597520],
    [0x12ea68ce6881becad7f8a6b117b03ab976f7abd597f903b0bf230d20d21a943a, 0x27439c98a76688067a097b19b6fdd7d78d5f88e274e0d8fea5ea6b7406fdda7f, 0x2f40d0ad05f5652e31ef9440ad71ebc8419e393493937f05f00499d02a99e36, 0x2fbf04284327ee4f680f06bd390e309d0d13acc74b9c5b14b63059b8cc7abff5, 0x1be686d53e2a8ad57a828b0651425cfc6978c7027edbf247f6b6723c21df86e7, 0x2683b425e85a508f96852f14b4220fcfe9f7ad8b17bfefc0e348c47ca78bb57f],
    [0x16dace9b2e8012e31db1c7ebe672d86bbe61a1aa3e1693e0eddfc0de0a9dd951, 0x27a321f8c7d3c9022e962f7fef2e3c848b4539dbb75aa139f30430fe545bcedb, 0x6ccd7210dee1d6b0e22b79e12d19082d8078b788d71007b95e7a774ed86a651, 0xa41dd42221653752bef350f6d74a917b6cbb1fd76a3a12166f4d0be978e4026, 0x220a02881e4d47ac94d950cdf8386274d1782e27cbd0d845978deec91298f165, 0xe2155a545fe5f3cbb6397606589eac19cd92639339c6b017298a4ad3408b4b9],
    [0xf0f19c6291e51546a267c60cc774e5fb9d088bac530782d891ec1af4b847073, 0xe925bcd1c6ddb4a3a1c67ec8deefbd40c53c0d33e7aeef1b46795aed5943c9d, 0x2ad000b1748abb812cd6e5411286b9ff3ef0a5bd3d259a36e45ef05b9eb5beeb, 0xa65aa232d32ed6e8de63d1cdffebc2f3fa616465c27aaf97e8cd3dcff648652, 0x263d8470ab4b1c61d74d8e896242f4f261dcb167a3a06923893d7cb2c93d6a1, 0x2901d946addc94b040fd58004d9a5f8cd1926540c7a8612cec1c58cb60c2b3a5],
    [0x1889cfa8209f4952df9022db9dc583b5717a0696da41cee64937d0cd6321e693, 0x236064d71cb6c64c84747ac25fcf8d881502e5f03bff87561b85a116b1f39aca, 0x2ff7a174ffcec29862e04f5dbdc73ebf3661570033576290c0c1f6cd8ced27ae, 0x19e724a1d742cab103455f0040edf745a2696a71084c93e322715450dd4d6f5b, 0x3eed3892b6f0e6c5da1059c5f3793985835aa283500a8129904a94c87f161bf, 0x8e2b8273bfa30c1ac850306d91e468a9e8d05092aee4cbc80c687248463ba30],
    [0x7adcca76d8337728839a1b6ac3b3ed42afb87d72af98f52f416f2ec58b28cec, 0x171ef37896bae2b1020a0a5839bd51784ce11bb4237d548c171169d32fa19b40, 0x20ffdfcb86f4d005064edbc296918c332d32fbeff1729de5056a26abbc3a35fa, 0x8ecd7a6f1735eed86baa094e608f488f38dbb398fcfed4b994383a0ca8e4647, 0x1c3f5d86e5921fde9890189f1d8c618754288600e6928bc182ac4d5e4c9f0ccb, 0x29c61184ed9d460f337558a1af639aa7e3c0975e4014ed8ebcad4a25d51eabf3],
    [0xdefd45b28958728228adbb2dbdaef6a5e9b1a64902a734f402b8cefb8ab3b56, 0xa74ea22d8a09336060610179ac1d82fffa9492df76deed4ea60e0133b0811a8, 0x3a37bf12daf1400d297ac4ac13ba24c17dc262db16c8523deee4e0ccde9a680, 0x11fe1790d5abbf5935ff22318e4f7ffe69966ada2f9136b54f830eacb0a65368, 0x18165842f406375f2346686915afb14bf1fe0564c8858ee3bde0aba3de5f68f, 0x261db25e7cff5a9fb72f276b1f9260b667300fb7d361b50fd5c0e8b6995b05f9],
    [0x2a3ac3314b2b66e796fbe36df778c5e46972320cc43ec807048826b6704ba7c4, 0x23caa4b80ecfa99e9d3fea2bbc1dbbf369d1bfc8937d03d074061c30fd8cd76b, 0x27db260085e224898df145f23f635f2066d8e4e124e581e8c6261929b1dfe107, 0x274f6c5fd34a784d6b915ef05d424ee6c0babbf369e79ab138b8167b5618ec7f, 0x2c3a29e13a84d26a0911c9289daf1aa4cf5840aada0701d57e23dfc796da6da1, 0x1ea210f2001a334d3e801f4e53270d42da7aaf317a553b4282aa78eaa2282e6d],
    [0x254dbeb52884b699c1ba7fa0d6e80d610903b18a3e509c36351ccc3b024946e3, 0x59e781d65896ebe0e4ba26dc2f29907f47bcdeda4a2ca2c713d8505ea31fd5d, 0xb5b1cec63d42d5e615dc269b885a24cef303ec78c972dd17cdbb3e915cc4ffb, 0x2a7c015e9c3b2c57ca8b7d26d39a1bcc85d6ffacb7d9fbd66d2a8f1d64ed0c92, 0x29b736b911d71a79cf63d8a6f786f11bd5abee24161dc567a7c851eae1e43b51, 0x285745a90a7fe3d09af5a808704bc69c6f1701e573912df5cc1e265d596c4141],
    [0x2d901b8195c3c96c8c36eb99fec0134ec2b8304ae810bd30da554e3080826715, 0x1905d3518355eaba7859b591ed7b8c9c253980f0450dbdf54d7a7782ba058392, 0x23e813026fc0b80064d19b5c5428942fdf7efea80bfa8ec4095272bfdb7b4c9f, 0x23c0a19a252c87e6b1c1c21b1a79800200c3fbff3e3300e7e5568071de9efb81, 0x11c4ae607bae492413bf62cdaa2c2868ed1fec6dc0631b067ca60fab125b9e2a, 0x2cd055ebb7ee4686365dea450f046ff62405fae1b1afc9fb01707cf81da0e3b9],
    [0x53c9fef2e021fa9a20fada22fdea1505b58a3159bbb47337dbf791b215b1452, 0xa35bd74e87cbabaabe89ad1319d2c9e863b4c631c21938c9a5395bf97872a9f, 0x1c115056539ce20cd5a04d1a5c43e2b00fbe83b25901be36f5ddc4666fc383fe, 0x242954047e5772fd3bded590ec8beb4c542f2e264c8c3e284cdc473505c51a90, 0xe2abd315b47c0dc93849c0cdf267e811cbdbdb200a6e7c2b67edf7cb0174214, 0x282b37020c0890d751c3fd76950d8068668e1dfeae621dd552d2de887da2ea75],
    [0x28933852266b52d9ea6b5bb923d9d94f2e5a5be5c778e75e07942c234b643bd9, 0x99ab6765505ba1198ef140e77b7954d4fbe79a056ce72bace39c048c00da3cf, 0x2af211d8e0ac2d8fda7f849b8f229a225c6186b55762c7a7b2ae2d1dd85c57cb, 0xcd070f234014a2809ab90c71c1da61e98a96322fedd99b6aaae1ca104f3facf, 0x26793e2abc8d3c30c60626fbaa158f263587d6bd15833d448b116264b930256a, 0x225be36ed0ee85e1f845ada84e5748a56699152113ff61b5056b6d8bde60c19d],
    [0x2174f49edb02d5154d2beca2dc92b9cc595383da1fde8f09e4b5ee3ea5a065e, 0xf64891c2c8b020e46c3594cb758f0bddcdbd09bd0308816fb41734a869872c3, 0x192a84ca2f99d36991e2d2b1deff3989d1c156c239e10e9f56140e1854576067, 0x29dfcd7b63f05abf2753a8c341d6b7a60c6243b04c9a1b8b3320bba04a4d4787, 0x1ee27ad6b9b5a867733afc61a2b3e76a52ba3e4bd5e657ade91fc038819dba5b, 0xab4773f150c3f8ad3bc9538f43cec395a7e3731ae973fefeb623a09217e64c7],
    [0x13c352a02f595186202cb0b99fa58c5542ab67f9b6d3a0afd103deeff6d80f41, 0x2a97cf2c10c4bfbfd299f67c52a169f92c05b7dac56a41c4dd4fe87c8246ce14, 0xbecbb47042bd7f8c9f6bb422162d1aed089a28482f7fd16ab06a13285fe702, 0x8e44da21d738691b881757ef37ed29c5bd9f7a4450fcf53290a92cc2ca2176, 0x2b205a8b6d4b7063d931f3bb5d3464053843fe7fbe4b83c17883f86527882a18, 0x2d9e32a7c90556fe108d255ac01e75df338fcd63b2bf84c19280d427298863fc],
    [0x29a322a84c25bd2ddf6e2e4200228d95abd6349a02266ac1dbba520738ceca97, 0x678c9bfc6f2df012f4fe55e33bb68ac14ced1df0d02152792089d046d828c43, 0xfaff3a5e7425794fe20a7e0eb615b8b1760394b7f2304286a3ae4009124db23, 0x1f8f5b611af9feb9cea86c084058120553e404103aee213f5a41d1d02541c0d3, 0x160875d8479602f96f40acc2d042ee52c1588b6a29de4284965a6dc6c930ea07, 0x16d87a5183a316a1d70afc951efe2cd667c77328fcfda458cbf5fe3045f46d9e]]

/-- starky/src/poseidon_bn128_constants.rs L10982-11031 -/
def m6 : List (List Nat) := [
    [0x124666f80561ed5916f2f070b1bd248c6d53f44d273d956a0c87b917692a4d18, 0x11924f02fd19b09255aaa1cf46ea0518e3d7bfeef47421609491011db0bd0b02, 0x247fa7f022304a1994ff505456c2201ef9b717369498d3ffce446601ed9df845, 0x3fd7b19ef2c861f22f77ff810f54e277bc94eb76c02d79d986be3dcdf051c3f, 0x18bd41239c3e71579a677443ecffbd555a81eeeea69352a68b67c8563c0c2a06, 0x2d78c3a5d28de9ff35bf0a257635196e5730ca7f40493277078cd75da8b4ebdc],
    [0xa514a5c227f4cec95dfa029e8dd124c34895aa46bb27c0911f3780d5015540a, 0x192e16d17d956b257b85a652eefdf2ee09589eac5be80915775723d2cb1da06d, 0x298ce0c1e3113bb935c7058e7772b533b1aa9db0c0926bdc8917e5605ca3ac10, 0x94cb4e83621afd271e41bc71727f0158ebd612239ac9d698b17fe4be05b7fc8, 0x3d880395be93c27d649af5fd142e76b33918cb8841d5a28173bd5cf7d328791, 0x28eeae6b5866ad68e443bbaf91680db7d7e2b3037e38fef61b42cbccffceca81],
    [0x278bb49a7b4e44aea46eb0f882cb692801a6e60fdd5b5c23c63cd65ccce4fe0a, 0x63edec1bed831f506af8db648d6fdea145345887e8bdcff109035a1d9b674d7, 0x1baef1cb5509b526a42061fb53657f99b3232500e855192cbe8c940e068c475f, 0x1324564ac7bdf9e22164e9858d7fa8e368b165eaea3daf4eb67ee59c0df2e5d4, 0x5761b8c6aecb1a8ca4ea4dfc2c8376064a4a8004ceeda210a55240562ddc13, 0x10c9e283159d58cb4cb2e35fde83a3ba1fdc28002ed9963d2a99f186178a148d],
    [0xc399e9f67aa40707a203feefb0b958bbdadcec5ca34901d253d026a2419f6a2, 0x83f0df3f1a0351d0330ec3ff602ca8cc353b7f6e762c7107184cd7b423449f6, 0x1a6764d5943fc4a720b4c0a19fdb8c711984307287a58b9b5f9f5d58212cb263, 0x11a63a26feabf87fa66bde66cc25a922c96382d76c6a7ff48f1537beaed683a, 0x8ca7b64657c3548f32bef5b63ad24288a41c0b251099ad27f9434307e3e64d4, 0x1998270471e9361955446b0cdb8bea915ec0675f1cd648ddcb04303507a4489],
    [0x1d6b3d5f6ea369c26f825d2362933eaa31ea35ec0a77c1fbd9e01ca1523e4432, 0x119ef188bb3dd0d32306976c19941e8664be687e7a69692da27da215a6f06d40, 0x2d9e0ab5c06893dfdfd03481381ba86b6e6292df5609d71f2c64b2d9a79f809e, 0x25f16631bf77060f7ea34087c025bf135784319ef08cda2e31419ee0a529e658, 0x144c7a11da5a7c5dabae3f33fbd03cad86d18bc594c79a497ecb9894edb554f1, 0xf971162627723f3feadacb28b0c104cb8f74de508752fa8d7c0db2af13de8ee],
    [0x24be510095436206dd0abd0b0cbb95c883ab304aa52598b1a69306ec981a688d, 0x211610e2ad4a377426fadf7068b0c1a6c299a164c1c1a603eaed944870d0b9b9, 0x15a67d981041b1f6f09f3f9ebefd864e779d3af08157786ac077505e50ec79fc, 0x49327fa79d28c12a2c82406947f77f06775b0287468b3136877701dbe7c9598, 0x230940dcc5232658ff9c29697a3fd416d170e8c998f1aa85dea0c42d79f951aa, 0x1b121c049cd1159e289007e0c9da9995cc4bab4c26fb888ec3972a8a2e656964]]

/-- the inverse of the matrix (not in the code) -/
def mInv6 : List (List Nat) := [
    [0x13caf562206db22e905db51a01d22d8d896602248d331883ea51538c61c45dde, 0x280f3694876ced9aa35978068b4ab35c64353942878b85e03173ec33c8c9d156, 0xee361f35882572be552706268a0d67c18a76a90ad68cde380cbf307a668bdc, 0x25624b006c28271fed4a8bd46586081db4655385822f363a84d560832497ebc0, 0x25a29715ff0b1bb11260bd733f18f6d037ab3ed6499c25a594d35362a25c54de, 0xc6934cdb769eb078cf7b05d4e8a6cbd9487a08351cd7b5517a9bfc4a9c2758c],
    [0x1c62a079932ebb04b26afd7aca88c2bd70fdcf42f01475c885a02c8ee72cba54, 0x235db6da4bebf3b5eb4ded2b7805b2cd862d2a14193ad852577612cafbe047f, 0x1824ca6289c8bd25f52ce8e4dba93eecc8cb01b285c3b683bcabd40b45a6158, 0xc6804438b4a5c79c314f25d2cec3545077faef39a405c8dc27c8fa7b0c23a81, 0xc79b89b7776dda68b76021687c8a1bd7a05216158a763d4492b162a3cfe2f2c, 0x181a04a4696bc2338615d7224ddc30dcefa1f8d2ca653b9c4ede4d88fe8ec8f4],
    [0x6731909114f929a47147a63f7d7ffedd9f6662b0b1422aad02a4965d8c2ee17, 0x2714abd6153fb0a68cf49d087b139db425ed3f437dca8ebe373452843be398b0, 0x13348c5293704ecc14b0f203cb27c1eeffd9c0a8ccdf73e15405ac054f5b3e49, 0x106a5689832be0def0ffeb0624b2ce85e8a9fffc78bf40fb718ab58854bd15e2, 0x2a6eec4f110ad41c43e8ca164baf438ad6ca3d819e95d6d91711f5b3d4a1456a, 0x2df30cfe5aff07e74dbb6e2b09a288366d68d35defcaf74d13c4b76e3aea1501],
    [0x14b62c9803161714a763baec336c8677eae7ee96e3a28d4c3001c7dd73daf49, 0xa80e36210ffe9b997943b7a10e9c021f6d1458851a780a7c4d700e8c71730f4, 0x2a2a3c71b7874c47919ee2765df8d2305b196e5b415474d67de63397cb17b36f, 0x1a13c29e1d10f8c024b33254cdecb22689d9ae86de51840ffb0cb24b3a4adee2, 0xee8fc49e566cd8d4bddb435c27a49911125d650082089a5401619b64db9517a, 0xf8b7c37795158e17e1e99a3de7bc5bb89c47ed3205802ef5e1938d3bc202086],
    [0x2b957e7fc0334600df7f7f506da8224614d43a6353c0a5d362149b0a27a66821, 0xd342959238be5e4613af342502efd5aacade1fd6bc10199f937a709a5faa3a3, 0x17d102d83dce6ed3824ff460a5bcdfacdc54bae20b65a73d0c4b97b093dd150f, 0x25abe66a099b6683dd2df01b5d60bce92e07e394fdb7e0627ad1f3c1569eadfd, 0xeeb529544cda939bbdfe62433d1c1f3736a026d3f6e8aaaf3437623b3613071, 0x3aa8a805c250586bcc164f78fd87512c1e8ef6fb6b11b772d2b54f9814d8f7c],
    [0x114d77de2d29f68e91bc32dea3430bf5c285436465fe87da2e12ecdd0d3108a2, 0x27b592172bced270895dc79067aac488b340353f0790565bffa70c75ea6f3459, 0x207714e0e9db0a0408c265abdd598c6902dabc960a1ce14b79fecafcb9298d24, 0x143d96d80af9fb310a4691ef2b199ba26afc91e288ffcc4c3e93b098d354537d, 0x1a14ab6eb7270ed2b5fc10c0a564f7b63fb28bbeadefb112eceaa771464c9299, 0x1ae479ed217db2e2441d326999055c578b482542c569e47c04baa4cbc274fcef]]

/-- the tables have the sizes that the code reads and load without a panic -/
theorem sized6 : (opt6.sized 5 4 60 && opt6.below bnMod && c6.length == 68 && c6.all (·.all (· < bnMod)) && m6.all (·.all (· < bnMod))) = true := by decide +kernel

theorem ok6 : opt6.check bnMod 5 4 60 c6 m6 = true := by decide +kernel

theorem inv6 : invOk bnMod mInv6 5 opt6.m = true := by decide +kernel

end Verif.Poseidon.Bn128
