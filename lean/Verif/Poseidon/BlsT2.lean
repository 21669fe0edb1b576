import Verif.Poseidon.Check
import Verif.Poseidon.Primes

/-!
# Poseidon over BLS12-381, 1 inputs (t = 2): the tables, copied verbatim, and their checks
-/
namespace Verif.Poseidon.Bls

set_option maxRecDepth 1000000

/-- starky/src/poseidon_bls12381_constants_opt.rs: C L9-81, M L2167-2176, P L4289-4298, S L6411-6577 -/
def opt2 : Table where
  cF := [
    [0x525dd14d753a142ba9f083211a71385591c3aa1c56b69c6a35ffe039e9c9b72e, 0x172d5466ddbb9d7bc60989ba65c6fe86e2da5091f2a9a25846b6516122f2b31d],
    [0x610f0083a0e6825441e9d7999395275d97a444b1b8accdf3ea51e11dc3fbff74, 0x272ccf70965866770cc86bdeac3730d9bb2566fcbda6f164f1bdde02b1a6f753],
    [0x39086810f8e09381b1837b5eb40ddfb1cbbbd881b7361c587335d7a14765d9fe, 0x99dc2fc30fe7d35d76e99c9d8b842997f7e1de2a47ce1864773bca95c0a8ee],
    [0x5471b001ed628a444c0566c529b86cf91410adba37833e4b6ff7b993fdbecf3b, 0x29ebbf7786ebde38391a7f3dc826f7b3a4459bd459805063b4321556d02a2740],
    [0x64c56ff7c4cf00ed15490e2952fb695da3b0733bac824a1ad20b29af6efc63d, 0x4c0460a3dc98687127d979f543ad412e49170606150087103c74754f7d31e1c5]]
  cP := [0x3c2b2d8caf231b806ab1af12916063294c723231aa87501718d2eb57d1fe2574, 0x6ff36c1fe3c6ec4758cd93c1ee2f959e37cd62f52be5ee02686b91c7a8e820f, 0x253eab79f461f5666a8cd32a5480f76880a2effb46fb9bec2c0ad6f39b27c869, 0x4e1656f8a943bf0752caeb768fa6177c6dc304b474ff98dd9883a237250d8071, 0x431158cc8ec1cde162a0a547b8df9f41d95f95c188b18674b1c8f1fd003bfa20, 0x50e50303aff402d0b20c68dd191a8c19ca9acf7537382b950c69676c6f942082, 0x6dbeb1c12f503d5248c47f653664220d95e09c2aaf8969b48fa19239c46ceffa, 0x4065029f792c20433c20a04186e84090a6b46741dc9892af7496fb97ff0d61a6, 0x4b431104cba4aea98d3de769150327c8c34f37275e513b1fbb12f9b3cba5b594, 0x44bad7e279cb2f959383e6da16e6666256ca47b0ffa4674291f51c1c52a4eb48, 0x66d2715be3082dcf44ed349bc17fe3f767bd5fb84421ff256ace48a5fa1041e2, 0x1d25f216627a1e0cc1bef9597dbc7a404389f09d4d1b7fc87d6f214693072df5, 0x2affeb586127ee8cdbfbac7c7e46a18251ae4453228d9cfcebc1af9804d1c24a, 0x383a3f63c75718d24609a239059ccf0201d1a8fae20ce9be4b71b6ca70da5138, 0x25209b049ab7f2de553e499a89dc0050e46c0c44c2c21bb92eb8cfae96b7382e, 0xc2dd10544ba66ea6e756dbd9b6a821f5d35d9c86b368816eaf78e13e4c6bb5f, 0x271b4afde46dd8ebc17d74562df5f817a09420f74601a577665445820f042e02, 0x5009d6b64309ef1dce9c14a86a05d464b1f48fbfa9bbc6a9681b3872e62d0954, 0x6c6feb565217329f8e9c1c56d228aa52715cb3f7a0353391b732d6c4a4508ebe, 0x3634bf35af36d9880409e283e1045bb9b0c598e272834ca3cbc9f2425fdf76a6, 0x3df32fd247c30d6b37c6f302e9789dedeb6f7f7364619003a41cd91b8435c75f, 0x38626b965c2b976889cfaecd791044c88353b78702c24099976a9361a371b7d7, 0x210038acfbfe394d2defaa3460ebbf51e1aebf43e5692e3a71b182210fb8224c, 0x1b65bcfcf808fa3ee2f2c4c55f789d3f8e1481bc5e49c0a9947d81b069f11, 0x71d631fbb1a694d577e7c36ef21ace3731c9952c37b64332b06afbc557515341, 0x25d898c493605a777ac4dd2b50f236f132b0978d5201fd3b1cf7e68dfd7f7531, 0x1e2775e151e483d1ba12612086e767ab23044d8683479908921dcd962331be26, 0x7256a36f6b05d3fa3fe576fa17dd6ca0ff6fdc2c9a370e3090ee766eae2764d7, 0x4a009bb2337448d90f3de1ba0738c586ae23fad5bcc580ea9e5bcb7f9c95fd7b, 0xa46782eac47a832a9872cebd7d43426bedc63988144ac60527c6f98d087e1bf, 0x22a75cf103f902cfdf8224b04d52696885a48ca2b9db787ca2c973a31a7d34f, 0x1fe9fb47fef7ed44fe6730d3a55395bf1fd6d1e3c140d6993acc94b33f3b033d, 0x346a0aecfee9a72f326c678394e4349d4d5b38782fa929f32a357d96609159aa, 0x374b91f713f88c7e0e8cfb74afff51c5d912046cbad3e6e0305d723104072ec9, 0x6720c655b5683ba5c25a892f480cbac30d2066d0618a82adc0f614bdb299184f, 0xd03803d1df09dffccae7df56df25535ce940a27b4fbd2a5c0016a13021dbd1c, 0x4f46db6d212d5735965b71458242ac5672aa57ee8d10b4426cdbffd20208c804, 0x48105a6cf01f957cb6e44ee346f4e8c4bad473459eff3b61f0a33cbf7911f9e8, 0x646a15ec04901ab62aab11a0b07b6713feb8ce10d050d507258fc24a7959e59c, 0x63f96ee4e7d056590a0435e937e1f0d98edf8958536e1d9d349553dfecd7ff9, 0x2eabed9975a6b47f04639195d3bb37bbb5aa85997c086a326987b3d394a6b744, 0x611e0959c03e6f6f7f97021ae48b253809833f83ee814e5ee29cceea11852aa, 0xcdb1ed9c462c9dc124d73d80de18ab84a3da976bac37c7c7ae7c9ee078df1d2, 0x20d57a010802923c38d5a7b98c27087407ca716ba1c0558ed5c3bb8c29cd0114, 0x5391e913b53f692af5157e114c4926661d3023a4ff955564c631ff32297ce292, 0x17023d70d61b4bccd13516eadb40e58273a971ca8063fb54a7e5faa2483cd3a3, 0x14ea6424447107d3fa90cc8927ccfa4749ea5fb548a5f9e7d9c84d9a5706bbd4, 0x494120c4f892531b3ed3be0ea2ca582751a1fab334af892d1423cc0aae3a1a9f, 0x6369dae72ef30c5208dbbd4475520394042e02c430f83d774b1f95b4c3e3a605, 0x1c553bbbee6f768fe84a814552ad8b659a340f325908095466f330140ed42055, 0x360b91e93f50f84c3ca5e4717b6e8f862ea2a49061dafbd643a3c2b5e6190a17, 0x426b304163fc636404164d91779b324c07ec1a06e168bb5a6c85fb5f91837b41, 0x6ead0253952476b14953bdb89fea1fbed3bee7d1671f5590edeec9a3881099a5, 0x59a2f9cff281caef7deef6cbec333caa676e1cc7db5e1c92a2c66612f37f21c9, 0x12386ff1dac1ba9ecc026df2723ebcdd4cddd2d9011e9845b3ccf31886a06608]
  cL := [
    [0x5c59aaec8819e02b09a5d6ec62db2d548627965bbd3e71d5de68a1be52373ca1, 0x48dc99921e45543506db52e410941bc87046a64021bc94450c8e0d8b9f641821],
    [0x4e7100d757e73d72524e20781c0bd6ad7003c9ce561ac7303b4677e1d69633dc, 0x5ad9ffcfc747630e58c832cae590873a588f49977771307eab1fa8f67077383f],
    [0x4161b98df5f2444d39098b5ddab000cdf71e88808afbbdfb6a09d8b6ceb763f5, 0x4f6b6f731420fba0b9276850d0627b62aa399d2decce28e79837734a52f0d100]]
  m := [
    [0x39f6d3a994cebea4199cec0404d0ec02a9ded2017fff2dff7fffffff80000001, 0x4d491a377113a8daccd13ab0066be558e27e6d5755543d54aaaaaaaa00000001],
    [0x4d491a377113a8daccd13ab0066be558e27e6d5755543d54aaaaaaaa00000001, 0x56f23d7e5f361df6266b620607396203fece3b023ffec4ff3fffffff40000001]]
  p := [
    [0x39f6d3a994cebea4199cec0404d0ec02a9ded2017fff2dff7fffffff80000001, 0x5e3117f29436e2a055b81e97bfea46f44e13773d6c56a384aa946f9bc54ce5b3],
    [0x4d491a377113a8daccd13ab0066be558e27e6d5755543d54aaaaaaaa00000001, 0x29a9682124c1caa6337ba0efcd873f35e59f306d514163a3bfef53b513f9ac46]]
  s := [
    [0x39f6d3a994cebea4199cec0404d0ec02a9ded2017fff2dff7fffffff80000001, 0x4d491a377113a8daccd13ab0066be558e27e82acaaa992a9ffffffff55555556, 0x1cfb69d0d40312a8bd32f246e2c393c13d14f0ecb15f7a15aa51be72153396c9],
    [0x39f6d3a994cebea4199cec0404d0ec02a9ded2017fff2dff7fffffff80000001, 0x4d491a377113a8daccd13ab0066be558e27e72acaaa992a9ffffffff55555556, 0x73eda743500c4aa2f4cbc91b8b0e4f04f453c3b2c57de856a946f9c854ce5b24],
    [0x39f6d3a994cebea4199cec0404d0ec02a9ded2017fff2dff7fffffff80000001, 0x4d491a377113a8daccd13ab0066be558e27e6eacaaa992a9ffffffff55555556, 0x73eda713c358b2b339819c560f53b403d61622c215fc8d5da51be72453396c8d],
    [0x39f6d3a994cebea4199cec0404d0ec02a9ded2017fff2dff7fffffff80000001, 0x4d491a377113a8daccd13ab0066be558e27e6dacaaa992a9ffffffff55555556, 0x73eda655908a52f44c58e940206947ff5d1f9eff57f72179946f9c944ce5b231],
    [0x39f6d3a994cebea4199cec0404d0ec02a9ded2017fff2dff7fffffff80000001, 0x4d491a377113a8daccd13ab0066be558e27e6d6caaa992a9ffffffff55555556, 0x73eda35cc550d3f897b61ce864bf97ed79458ff45fe171e951be72543396c8c1],
    [0x39f6d3a994cebea4199cec0404d0ec02a9ded2017fff2dff7fffffff80000001, 0x4d491a377113a8daccd13ab0066be558e27e6d5caaa992a9ffffffff55555556, 0x73ed9779986ad809c52aeb897618d7a5e9dd53c87f8ab3a846f9c953ce5b2301],
    [0x39f6d3a994cebea4199cec0404d0ec02a9ded2017fff2dff7fffffff80000001, 0x4d491a377113a8daccd13ab0066be558e27e6d58aaa992a9ffffffff55555556, 0x73ed67ece4d2e84e7afe260dbb7dd687ac3c6318fe2fbaa41be72552396c8c01],
    [0x39f6d3a994cebea4199cec0404d0ec02a9ded2017fff2dff7fffffff80000001, 0x4d491a377113a8daccd13ab0066be558e27e6d57aaa992a9ffffffff55555556, 0x73eca9ba16732961524b101ed111d20eb5b8a05af8c3d6936f9c954be5b23001],
    [0x39f6d3a994cebea4199cec0404d0ec02a9ded2017fff2dff7fffffff80000001, 0x4d491a377113a8daccd13ab0066be558e27e6d576aa992a9ffffffff55555556, 0x73e9b0eedcf42dacaf7eb8632761c02adba99562e3144650be72553296c8c001],
    [0x39f6d3a994cebea4199cec0404d0ec02a9ded2017fff2dff7fffffff80000001, 0x4d491a377113a8daccd13ab0066be558e27e6d575aa992a9ffffffff55555556, 0x73ddcdc1f6f83eda244d597480a1789b736d69828c560545f9c954cd5b230001],
    [0x39f6d3a994cebea4199cec0404d0ec02a9ded2017fff2dff7fffffff80000001, 0x4d491a377113a8daccd13ab0066be558e27e6d5756a992a9ffffffff55555556, 0x73ae410e5f08838ff787ddb9e5a05a5dd27cba01315d011ae72553386c8c0001],
    [0x39f6d3a994cebea4199cec0404d0ec02a9ded2017fff2dff7fffffff80000001, 0x4d491a377113a8daccd13ab0066be558e27e6d5755a992a9ffffffff55555556, 0x72f00e3fff4996674471eecf799be1674eb9fbfbc578f06e9c954ce4b2300001],
    [0x39f6d3a994cebea4199cec0404d0ec02a9ded2017fff2dff7fffffff80000001, 0x4d491a377113a8daccd13ab0066be558e27e6d57556992a9ffffffff55555556, 0x6ff74306804de1c4781a3325c989fd8d3faf03e615e8adbd72553395c8c00001],
    [0x39f6d3a994cebea4199cec0404d0ec02a9ded2017fff2dff7fffffff80000001, 0x4d491a377113a8daccd13ab0066be558e27e6d57555992a9ffffffff55555556, 0x64141620845f0f3946bb447f09426e250383238f57a7a2f8c954ce5a23000001],
    [0x39f6d3a994cebea4199cec0404d0ec02a9ded2017fff2dff7fffffff80000001, 0x4d491a377113a8daccd13ab0066be558e27e6d57555592a9ffffffff55555556, 0x3487628894a3c50c813f89e40824308412d3a2345ea377e62553396b8c000001],
    [0x39f6d3a994cebea4199cec0404d0ec02a9ded2017fff2dff7fffffff80000001, 0x4d491a377113a8daccd13ab0066be558e27e6d57555492a9ffffffff55555556, 0x5e2fe2cf28f196e9d1c44f8816eeea0af790e4ce7a8f8399954ce5af30000003],
    [0x39f6d3a994cebea4199cec0404d0ec02a9ded2017fff2dff7fffffff80000001, 0x4d491a377113a8daccd13ab0066be558e27e6d57555452a9ffffffff55555556, 0x1cf6954326ede3cead63b6083ed6201be30aa730ea42fa69553396bfc0000009],
    [0x39f6d3a994cebea4199cec0404d0ec02a9ded2017fff2dff7fffffff80000001, 0x4d491a377113a8daccd13ab0066be558e27e6d57555442a9ffffffff55555556, 0x73da550c9bb78f3ab58ed820fb58806f8c2a9cc3a90be9a554ce5aff00000024],
    [0x39f6d3a994cebea4199cec0404d0ec02a9ded2017fff2dff7fffffff80000001, 0x4d491a377113a8daccd13ab0066be558e27e6d5755543ea9ffffffff55555556, 0x73a05e38f205c5123c8dd86bd07c79ae35718705a434929853396bff0000008d],
    [0x39f6d3a994cebea4199cec0404d0ec02a9ded2017fff2dff7fffffff80000001, 0x4d491a377113a8daccd13ab0066be558e27e6d5755543da9ffffffff55555556, 0x72b882ea4b3e9c705889d997250c5ea8da8d300d90d736644ce5afff00000231],
    [0x39f6d3a994cebea4199cec0404d0ec02a9ded2017fff2dff7fffffff80000001, 0x4d491a377113a8daccd13ab0066be558e27e6d5755543d69ffffffff55555556, 0x6f1915afb021f9e8c879de44774bf2936efbd42d4361c5943396bfff000008c1],
    [0x39f6d3a994cebea4199cec0404d0ec02a9ded2017fff2dff7fffffff80000001, 0x4d491a377113a8daccd13ab0066be558e27e6d5755543d59ffffffff55555556, 0x609b60c543af6fca8839f0f9c04a423dc0b664ac0d8c0253ce5affff00002301],
    [0x39f6d3a994cebea4199cec0404d0ec02a9ded2017fff2dff7fffffff80000001, 0x4d491a377113a8daccd13ab0066be558e27e6d5755543d55ffffffff55555556, 0x26a48d1b91e54751873a3bcee44380e707a0a6a73634f552396bffff00008c01],
    [0x39f6d3a994cebea4199cec0404d0ec02a9ded2017fff2dff7fffffff80000001, 0x4d491a377113a8daccd13ab0066be558e27e6d5755543d54ffffffff55555556, 0x26a48d1b1df79ffde9af1733876c2b96cac4f699d8d57949e5affffd00023003],
    [0x39f6d3a994cebea4199cec0404d0ec02a9ded2017fff2dff7fffffff80000001, 0x4d491a377113a8daccd13ab0066be558e27e6d5755543d54bfffffff55555556, 0x26a48d194e4102af738284c6140ed655d75636646357892896bffff50008c00b],
    [0x39f6d3a994cebea4199cec0404d0ec02a9ded2017fff2dff7fffffff80000001, 0x4d491a377113a8daccd13ab0066be558e27e6d5755543d54afffffff55555556, 0x26a48d120f668d759ad03b1046998152099b358e8d5fc8a35affffd50023002b],
    [0x39f6d3a994cebea4199cec0404d0ec02a9ded2017fff2dff7fffffff80000001, 0x4d491a377113a8daccd13ab0066be558e27e6d5755543d54abffffff55555556, 0x26a48cf513fcb88e3807143910c42d42d2af32373580c68e6bffff55008c00ab],
    [0x39f6d3a994cebea4199cec0404d0ec02a9ded2017fff2dff7fffffff80000001, 0x4d491a377113a8daccd13ab0066be558e27e6d5755543d54aaffffff55555556, 0x26a48c81265564f0ace278dc396edd05f6ff24d9d604be3aaffffd55023002ab],
    [0x39f6d3a994cebea4199cec0404d0ec02a9ded2017fff2dff7fffffff80000001, 0x4d491a377113a8daccd13ab0066be558e27e6d5755543d54aabfffff55555556, 0x26a48ab16fb8167a80500b68dc199c12883eef6458149cebbffff55508c00aab],
    [0x39f6d3a994cebea4199cec0404d0ec02a9ded2017fff2dff7fffffff80000001, 0x4d491a377113a8daccd13ab0066be558e27e6d5755543d54aaafffff55555556, 0x26a483729542dca1ce06559b66c49844cd3e198e605417afffffd55523002aab],
    [0x39f6d3a994cebea4199cec0404d0ec02a9ded2017fff2dff7fffffff80000001, 0x4d491a377113a8daccd13ab0066be558e27e6d5755543d54aaabffff55555556, 0x26a466772b6df53f04df7e659170890de13ac236815202c0ffff55558c00aaab],
    [0x39f6d3a994cebea4199cec0404d0ec02a9ded2017fff2dff7fffffff80000001, 0x4d491a377113a8daccd13ab0066be558e27e6d5755543d54aaaaffff55555556, 0x26a3f289841a57b3e044218e3c204c32312d64d70549af04fffd55573002aaab],
    [0x39f6d3a994cebea4199cec0404d0ec02a9ded2017fff2dff7fffffff80000001, 0x4d491a377113a8daccd13ab0066be558e27e6d5755543d54aaaabfff55555556, 0x26a222d2e6cbe1874dd6ae30e6df58c370f7ef5915286014fff5555dc00aaaab],
    [0x39f6d3a994cebea4199cec0404d0ec02a9ded2017fff2dff7fffffff80000001, 0x4d491a377113a8daccd13ab0066be558e27e6d5755543d54aaaaafff55555556, 0x269ae3f8719208d50420e0bb91db8b087022196154a32454ffd55578002aaaab],
    [0x39f6d3a994cebea4199cec0404d0ec02a9ded2017fff2dff7fffffff80000001, 0x4d491a377113a8daccd13ab0066be558e27e6d5755543d54aaaaabff55555556, 0x267de88e9caaa60bdd49aae63dcc541c6ccac182528e3554ff5555e100aaaaab],
    [0x39f6d3a994cebea4199cec0404d0ec02a9ded2017fff2dff7fffffff80000001, 0x4d491a377113a8daccd13ab0066be558e27e6d5755543d54aaaaaaff55555556, 0x2609fae7490d1ae741ecd390ed8f786c5f6d62064a3a7954fd55578502aaaaab],
    [0x39f6d3a994cebea4199cec0404d0ec02a9ded2017fff2dff7fffffff80000001, 0x4d491a377113a8daccd13ab0066be558e27e6d5755543d54aaaaaabf55555556, 0x243a4449fa96ee54d479763bac9c09ac29f7e41628eb8954f5555e150aaaaaab],
    [0x39f6d3a994cebea4199cec0404d0ec02a9ded2017fff2dff7fffffff80000001, 0x4d491a377113a8daccd13ab0066be558e27e6d5755543d54aaaaaaaf55555556, 0x1cfb69d4c0be3c0b1eac00e6a8ce4eab5421ec55a3afc954d55578552aaaaaab],
    [0x39f6d3a994cebea4199cec0404d0ec02a9ded2017fff2dff7fffffff80000001, 0x4d491a377113a8daccd13ab0066be558e27e6d5755543d54aaaaaaab55555556, 0x73eda75302f8f02c7ab0039aa3393aad5087b1568ebf25535555e154aaaaaaac],
    [0x39f6d3a994cebea4199cec0404d0ec02a9ded2017fff2dff7fffffff80000001, 0x4d491a377113a8daccd13ab0066be558e27e6d5755543d54aaaaaaaa55555556, 0x73eda7528f0b48d9511286526fff62a546e5d9513b01815055578555aaaaaaad],
    [0x39f6d3a994cebea4199cec0404d0ec02a9ded2017fff2dff7fffffff80000001, 0x4d491a377113a8daccd13ab0066be558e27e6d5755543d54aaaaaaaa15555556, 0x73eda750bf54ab8caa9c9131a3180285205e793bec0af144555e1559aaaaaab1],
    [0x39f6d3a994cebea4199cec0404d0ec02a9ded2017fff2dff7fffffff80000001, 0x4d491a377113a8daccd13ab0066be558e27e6d5755543d54aaaaaaaa05555556, 0x73eda749807a365a10c4bcae6f7a82048640f8e6b030b11455785569aaaaaac1],
    [0x39f6d3a994cebea4199cec0404d0ec02a9ded2017fff2dff7fffffff80000001, 0x4d491a377113a8daccd13ab0066be558e27e6d5755543d54aaaaaaaa01555556, 0x73eda72c8510618fa9656aa1a10480021dcaf791c0c7b05455e155a9aaaaab01],
    [0x39f6d3a994cebea4199cec0404d0ec02a9ded2017fff2dff7fffffff80000001, 0x4d491a377113a8daccd13ab0066be558e27e6d5755543d54aaaaaaaa00555556, 0x73eda6b897690e660be8226e672c77f87bf2f23e0323ad54578556a9aaaaac01],
    [0x39f6d3a994cebea4199cec0404d0ec02a9ded2017fff2dff7fffffff80000001, 0x4d491a377113a8daccd13ab0066be558e27e6d5755543d54aaaaaaaa00155556, 0x73eda4e8e0cbc1bf95f301a17fcc57d1f492dcef0c93a1545e155aa9aaaab001],
    [0x39f6d3a994cebea4199cec0404d0ec02a9ded2017fff2dff7fffffff80000001, 0x4d491a377113a8daccd13ab0066be558e27e6d5755543d54aaaaaaaa00055556, 0x73ed9daa06568f25be1e7e6de24bd737d71287b33253715478556aa9aaaac001],
    [0x39f6d3a994cebea4199cec0404d0ec02a9ded2017fff2dff7fffffff80000001, 0x4d491a377113a8daccd13ab0066be558e27e6d5755543d54aaaaaaaa00015556, 0x73ed80ae9c81c4be5ecc719f6c49d4cf611132c3c952b154e155aaa9aaab0001],
    [0x39f6d3a994cebea4199cec0404d0ec02a9ded2017fff2dff7fffffff80000001, 0x4d491a377113a8daccd13ab0066be558e27e6d5755543d54aaaaaaaa00005556, 0x73ed0cc0f52e9b20e1843e659441cb2d890bdf06254fb1568556aaa9aaac0001],
    [0x39f6d3a994cebea4199cec0404d0ec02a9ded2017fff2dff7fffffff80000001, 0x4d491a377113a8daccd13ab0066be558e27e6d5755543d54aaaaaaaa00001556, 0x73eb3d0a57e1f4aaec63717e3421a4a628f6900f9543b15d155aaaa9aab00001],
    [0x39f6d3a994cebea4199cec0404d0ec02a9ded2017fff2dff7fffffff80000001, 0x4d491a377113a8daccd13ab0066be558e27e6d5755543d54aaaaaaaa00000556, 0x73e3fe2fe2af5ad317e03de0b3a10a88a8a154355513b177556aaaa9aac00001],
    [0x39f6d3a994cebea4199cec0404d0ec02a9ded2017fff2dff7fffffff80000001, 0x4d491a377113a8daccd13ab0066be558e27e6d5755543d54aaaaaaaa00000156, 0x73c702c60de4f373c5d36f6ab19ea212a74c64cc5453b1e055aaaaa9ab000001],
    [0x39f6d3a994cebea4199cec0404d0ec02a9ded2017fff2dff7fffffff80000001, 0x4d491a377113a8daccd13ab0066be558e27e6d5755543d54aaaaaaaa00000056, 0x7353151ebabb55f67da03592a995003aa1f8a7285153b38456aaaaa9ac000001],
    [0x39f6d3a994cebea4199cec0404d0ec02a9ded2017fff2dff7fffffff80000001, 0x4d491a377113a8daccd13ab0066be558e27e6d5755543d54aaaaaaaa00000016, 0x71835e816e14e0015cd34e32896e78da8ca9b0984553ba145aaaaaa9b0000001],
    [0x39f6d3a994cebea4199cec0404d0ec02a9ded2017fff2dff7fffffff80000001, 0x4d491a377113a8daccd13ab0066be558e27e6d5755543d54aaaaaaaa00000006, 0x6a44840c3b7b082cd99fb0b208d45b5a376dd6581553d4546aaaaaa9c0000001],
    [0x39f6d3a994cebea4199cec0404d0ec02a9ded2017fff2dff7fffffff80000001, 0x4d491a377113a8daccd13ab0066be558e27e6d5755543d54aaaaaaaa00000002, 0x4d491a377113a8daccd13ab0066be558e27e6d5755543d54aaaaaaaa00000001]]

/-- the inverse of the matrix (not in the code) -/
def mInv2 : List (List Nat) := [
    [0x12, 0x73eda753299d7d483339d80809a1d80553bda402fffe5bfefffffffeffffffe9],
    [0x73eda753299d7d483339d80809a1d80553bda402fffe5bfefffffffeffffffe9, 0x24]]

/-- the tables have the sizes that the code reads and load without a panic -/
theorem sized2 : (opt2.sized 1 4 55 && opt2.below blsMod) = true := by decide +kernel

theorem ok2 : opt2.check blsMod 1 4 55 (opt2.plainC blsMod 1 (opt2.plainM 1)) (opt2.plainM 1) = true := by decide +kernel

theorem inv2 : invOk blsMod mInv2 1 opt2.m = true := by decide +kernel

end Verif.Poseidon.Bls
