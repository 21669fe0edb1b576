import Verif.Poseidon.Check
import Verif.Poseidon.Primes

/-!
# Poseidon over BLS12-381, 8 inputs (t = 9): the tables, copied verbatim, and their checks
-/
namespace Verif.Poseidon.Bls

set_option maxRecDepth 1000000

/-- starky/src/poseidon_bls12381_constants_opt.rs: C L694-824, M L2454-2554, P L4576-4676, S L9960-10930 -/
def opt9 : Table where
  cF := [
    [0x6ce90d12c4045fe08c3caddb776dd84ac52b4ae7e48cd49443984154f2f4c2f9, 0xccd9b480c84022b25a75b52c8e89d80b4fa6378d32e58f3a175504940bcec39, 0x513ad11016ab7bb8c7ce9ae51256040e062487edf7168d206ba1b86dfe963629, 0x11f7cb649a0e7509a23d14173a5de7151173d08eacba753b99826b8b3779200a, 0xecff643ba9ab089a22a970622247f9cf186beb72648d332fae08a43750c3229, 0x6b25f52722eb0ce3ae300e4ac0e9fcb5d56878c60f075f75521ac2d7767755e3, 0xa0090685e43b923a2927373966665c1492f9726055b31324386279eb9203149, 0x15fe1e3912b8f22f10c507e053fa5844fcd781197fa4571823aacdf59c8db24, 0x5f2a741651a2e15ce1479c0409485bcc62fffb8f1c10d818f7e1ee309632904b],
    [0x3d60b7f170f1dc97472bc3a15c1fdf425fd4d52c7d629a9c8e2c0447b6f38bc6, 0x22d00f8ea7a93da510c226fd499f67f473f943e17b811fea30c48971a5648d08, 0x3cde7296ff9791068c24515a5214fd5a1649b2b4cec91c077d3ec6fcb3122ad3, 0x27d82ebb7d37c132f8b44adbeb51d00dbe938164eb4e747cd3cf5e8d12e38f06, 0x7293d8bee7c60e0a2ea4d27a352335d6b89a2eb601f7d74765837bbafee25fe5, 0x1b976b96b6cc94e673bea187561c0867d85e21cdeb781d292616ed5ca6f18981, 0x36db89ab6d33edcfd4af08cdcdda3bd9e5a1ac726d809f8a02f66f4773ac0aba, 0x12b7f95321eae6962251d7fb4ad1d83ea0463dffbb756927ef120a1e331ad1a5, 0x26427a72c6d103c2680668c4b9839b2f9b532c0bf024c40d6ee3128f50a3029e],
    [0x7067ed4253f473f05b23bcce7197d6afa556aad4bd63bb713618e44b5d86a879, 0x2a1b8f1b1679bad4d0ff5626cc43721177ccb397e3ed3406cc222c4ff59a0331, 0x19581bf47ca819e10cb91c0ac82ff518b96a7d06a10e5375e41dc04e0b2854e, 0x338124baf51b73d91d4c46f1b856c28e6e5fc537e0b19828d5d9bbf8721cbdf2, 0x57b19ca470ef72c6c1e0f1a43a03799a23da705d8be31ba5606e3f3185491237, 0x5aedf357f92863fa8609eca2c4cc1908cc8716eb59e606e23cbb4755b692328e, 0x26c8d16664d15ff180d9f316e4a478779d82fe484f823c145bb9a406b4fedcd0, 0x3e5b718b75d5aa2e02a2bb494ade970095909a96d03a6f08a96b2cfad1d807c4, 0x1441308aeffa813f853b5102e0cf3bcd9c7d9666e200b99b904b4b3605aed966],
    [0x125ad31b9be1442618d653ee1a4dca88aeb776cb5c4502078814b33cdc5f9735, 0x2e241301fea5a8c7142a6a6d77d60d4a2c750b1e2c0c64bcb7ab290ab4dc0ed6, 0x63f80336de108a212a17a09f18d77240ce59285f8a36fb1bb0c4fe46faefdf96, 0x1558926a82374ebbec66fb064b7b7240642be777ae88b241a6e3d0c0ebd32325, 0xccde4e3dc8693262000610ac1f7db1582d7484a0a5ad02771ab6ff686386874, 0x1d51f4b3544a408e6d9d75f657949212538dc535096e67b66864d2acc7a0bad4, 0x649ca86321b330adc0333975e24c1536c5af81f04501ca827d89604da486c4b1, 0x1e08b0402ae15bcaa820621bc22dda1933259218e8f562673182a52cb81abc7f, 0x43ed503d3cb7e9dede44fd153abef28ebf65d1bda6757f11d845134d98d46cec],
    [0x2fed7d0f37d395953d65f2e587fed239cffc852aa0984442f5e28cff75552cad, 0x56f620f825ff403ca4e55dca33033a588be51e3ab6426d7d14c5394de2b348e5, 0x4deb0463dc90e93291dc466a05543a278494b45bed38e9246e388d7b5acf8db6, 0x6a4e1e65b156f16014b01db8a38f21f71cb93d24ee1df808eb04c8263fd38566, 0x3609a0cc4ecfff6bf54c27c79029f75f245d0b1ae29467dd1afd49c34b0c338b, 0x3fa0e8bc15c15dcb16507736d75ed04ad035d9481651a267760868cd2459c245, 0x33d3755fd666b3bc2ca1cda846f581fa6d8b9f9f00b8f2d3324a5101248fafbc, 0x350b3994ffc987bec54717e153580575e7aca5b5c485c5ba0463974af98b0498, 0x2c9faa7980850c04581476d214eae7d0b13bd994a4442f58970d6f4f5c12e0a]]
  cP := [0x65e302005459f2087aa4f6c30b42d11ab0cf5e2e41e74b344a3b287f0796e43, 0x3c1eb841cc80a99109a21e43f0dabdfc10cf12e393edb08effbb5996c3dfc9dd, 0x27236145db9c4c1b80ab18f6be448a2e8dd2cd961a28fbe771c9f67cc100f2b0, 0x6de7f608ae600141c895c7ea8b6545ad3f23cdf1abadc0bb8de666ddf5c6851f, 0xcda90a66e957442c19b400b566fcd6fbeb4657b9acebdb8ad633015b17fe661, 0x39d4a50f4bb483d327afac5c7738b6644a42bee0daddafe83525ad01de86fb4c, 0x5b360f1bf96be30ec9d663485728bef82392571d2568027a384c44d88985eb7e, 0x43f524199f7d519160999d2a248e4b51004a9ed3cf91600a2c98e533a9081b35, 0x154923743617c87b67b23a632d5de15b6d939461c9d5a801bb4a38beb40f2cc2, 0x1abc9d5828db6754352813bb4ab2a2501f6bc02c313e971cf128f117eb825b86, 0x160a77349e15e07d33c34f9370bd7e33254903ae0ee3d53066620074e037d7d0, 0x14263a55abe0da7447adef8f80088b79454029c3d77b36de975922a33cc9c67b, 0x27ff5cdc02536bd91ba5db073fc904b89b75d5391ca4db155eb3797379655ddb, 0x1a84f0b7b7469787999e82286146d0c82f01bbcaa8bb68026b704fc488df33da, 0x49d19feb001ab0c19ecebd8c06165bd0d0a29b45bb2d898548e19af3f240dc34, 0x6fff40539171629131da733d440fd1b8dfc4e545d4358a933c32a091829cef1a, 0x2585867652375c51432a84e11a47c315e0f7ca48281cc1b1e63f055b2cf75d67, 0x57206e3a788b1870cfe89e436f3c8e7914eadff821e09fc3d8d905856b0294af, 0x6ffd55a11a74a442d23c57e59863099151a944355831b3ef9475bcae3b6ba303, 0x60763171f12e208ed5ad69534a2297255a161634a911395afbc7c10cc487acd7, 0x324447a5ce3358e8845c81bbd812054a68a0d3fb21f93e6c00acb5d833fcd695, 0x3e2b3f9dd8e1754da52b0e5dd8e3cf408d5a3a4cc92a5cb595032f61e9782314, 0x50b4b533fa46329dc284100ceb6a5cbe2b0e02a2fc4180e525a45e2db76cfcd9, 0x29291338dd656c6460a23aa3c70b866143b7713bba1ead285901835e9490740d, 0x2cd413f78a3f07709cbf4d9ee06684c57e94da02a4561a08a0193b66862f6777, 0x131511d5187501fbc6f9ec971bb4ff52e0b0e848364094c35a7a2cf23c650362, 0x346623a7a829ad49419a8047c0b767e06717132105656966154463bb1d324944, 0x3595cf22bc55e89ca672dda963e8139d40dba8b97fb7f26ee8a3daecf5ec7db9, 0xc330abce6889da2cdde8f60cd9789d47d137de34b5ebfc33dfa3d008cf349c3, 0x1e2ad56b80c02512a89af40408decbcd61eb84c1977b0a684fcf17b084afb94b, 0x19bb92ffbfd3dfd2124f17cfc65db22d9c4184167df58633d32b2018d728a63e, 0x28fd0cab8df45cb490b8bb19ac5831aa7cad6c9db83f84d64a66340ce158a079, 0x4440a081fade1570360497c6d38b56f351137948524b3ec7b3b89f313108b855, 0x1702e00b7950e216c055400f5d7be209124cb5bbe3b01537fa8e70d5524890a4, 0x324f759e11de5ce3ee3aba4061efc2daad2e4c1a906d411366c531af612e63e6, 0x1c79078c32b423e605c7224e55028b2b893608ac059d6ca0522977c15dfbb14, 0x61e9c9f982cb82a660207bbcd241e8fd9019d5d85a4e7929235a73bb4884fed0, 0x399cc570f7ddf6ced03f567838dd28d881981e878b1686ff4e2d6374b8f03c96, 0x66b11a116638ef3c5306a4610af19f12c13651783814c43b1e8ef51bd9af1e82, 0x382bd65b9fbf7039939bf9e29775196830c9d7dc5fe74efcc1cc95c11ecfaf78, 0x3ea658a5d9fa3370f3e1ce9666a9f694e515eda4dd110c8c1b4dbc06df591234, 0x210dd9c28a5cbc4962fa9192f2a6d46fe03af51406c9e07496260097d9ac990c, 0x189a5674edc61eb6321075c93d1fca6947666401a03831cb9d41184a0e9911a5, 0x257ef7fc09952c0cb9909f6b93e49f07733d736d59f74a8d1700a3a9a2e9d045, 0x2a22837f56d5f4d166d4742bf4ea174265895f3945e0ca8b504635171bb8310a, 0x20316564cf513f5fa0cb439e3feddddc01211c1f96b2f044ad9398bce0cc0a2d, 0x662d9cae8b5a6832b639304591910f6a6c37c6e3ead246d35cf7fe71f8a3350, 0x6c1ea8b8407da65ed60c561f643fb7129d8718efeba465b4a7a226dc435851c6, 0x182c7519926f330335b8bf1509a68431a6f23845166f282aa7388b3d86bbca8f, 0x390335001c6793a2c2fe63b7e168db436ca1a8999e59dd8d073c88bebde17563, 0x644ae5d56330b4c0c63e14ecf0e8a9251613e59a5e466e1d72424c45e9a6658c, 0x16cb0342e8c1ed3df188d5586765c0b05f1f417cbed15d5cb5a7667e00ffa17, 0x344f0f28d613b5dac1242948bedd73e85196ed7db23778f14e6d56fda8939130, 0x50e34116314aea0d58d3f5d8bb1e4e9a00e5d09b824c9656351520398413b92d, 0x2b30432c53d9b8e869f81c9eef2ddec13ca0fa0b025967235fa4fb4539f03645, 0x322e865097de2828954363d89339d8f7dbdf0d60a8b1bd18fba2d82f761175c6, 0x1067c63aac845da5c30ad00d5dacb0ec4bddea69815bdf29f8a95029d6a8797a]
  cL := [
    [0x486b65a343bd91d2bb7752d5f2c2ffa58deeb241c053e4f5b1171df4168f0222, 0x6b3c338d4a2c03b5acddc152e856fcc05b8d863d1dab5a3231fc27b6174bb17, 0x6b310440bad615cb9d42212abe39863db868e4209c3ad8720b434f6aaa89814d, 0x6b6d0ab8d0ad725f4e89b2e8f72626de148b92842c68ada8d16424dd36313538, 0x52b27c02accf80cd8f6b7296d9aa1427d63ab74563f9b90ef643db4db36a4305, 0x721c42a926046d0474e80e6fae1c2fa2a16174dbaa50def869daead2cf348007, 0x26114f2916dfa3f651d7c3ede6bcdb4950f56ad51ea3842d46e278548a13be7b, 0x643bee2ebcbeeeae2c79e99c2ea2b558f98ad1785031671ef49de5ee755da01c, 0x1e689934250c8492babfe18a9bb82888a058e7f38b68a70ec13228c03d0e55e],
    [0x50f80d64902f2d301d5b0a3a93f30c97bd1725505839bf6e42584fc0d012dacb, 0x5ca0e7d9ee8450f6f8b310ecf58e0efea3831c6447326c44d9dd594e9a237467, 0x3503dc311a4fb6082f72bcd5903b3df190ea95a479236e19ab6427f12eb0d15f, 0x642f061d6817408adf8d58d38b781f0063eff0a6ea3471543e1604611daa2e04, 0x288bfee9a129a3358fe3c420e9cf0226c50ed1d20fdd7a92f4dbcf843e8305d8, 0x484ee711b8387603d6dbd918be9fa2905f3d027c29ab47c84af6b55c14949329, 0x4a7ee7edca4a036af0d5633097311a9d13410fc6a8a261faa086e6901338f689, 0x27032e8e52ad0f5178a3b0bce731d4a4af06cafb58c96b9bb68c89ab61f6c0e9, 0x3e2327ec6e3703fad867a897b6fa5873f0219d91042adf60359aa90cb402ecf0],
    [0x5147115c0f2a0321268f71cd806e55d181be2ae2836b3949f1a6e8d7c6f65963, 0x4f3cb2e816f04221826db44ce580348ecb78b1c2caa095de685cd4f5ba049133, 0x37589efc81eddc5f17778a6634d7cfc206510807077efab22d1889a30481a3cc, 0x28b906138d32408a40feec85917f105550ff96f0734e68c68c895032ef15a13d, 0x5297e88d6be6696200bf1db7484db2347caba0026df3d9de4ca3d564ab5bd1e5, 0x291177be5e3d6514809b342f4e71273b53e12993e234bdfd856d086695921b3d, 0x6930ff3fcb128ac482097ecbae1f5085e034ffee42a55f0e65618efafc9a61b2, 0xb0e5fa91b63819f8013f9f45826cdbf8c20332fb2c6c494551f37bd8e6bcd9f, 0x1ef936f03c337433c2e5f3570555397ed790517b32bebaa823ab1c9d7f374cb3]]
  m := [
    [0x19c308bd25b13848eef068e557794c72f62a247271c6bf1c38e38e38aaaaaaab, 0x22c74bcc2615a595a8f7c0cf3616f401991f4acdb332b532e66666661999999a, 0x6963af62e003892a5d1d50074e93217934daf23145cff68aba2e8ba200000001, 0x6a44840c3b7b082cd99fb0b208d45b5a376dd6581553d4546aaaaaa9c0000001, 0x6217dc5a0f85429f8dce7bb808267bb5bd02ed3d9d88753a3b13b13a3b13b13c, 0x4a867dda0877876545809d29bd0c9d27fef9e96fa4913b23edb6db6d12492493, 0x3dd414f92742ed7bd70dc88cd1efeaad81febddf77769776eeeeeeee66666667, 0x6caeccddf703a573b0063a878907ba84fe81c9c2cffe763f0fffffff10000001, 0x1b46fa31af7059b6a2a432d4b6f8e788c868db4bffff9d2cf0f0f0f0b4b4b4b5],
    [0x22c74bcc2615a595a8f7c0cf3616f401991f4acdb332b532e66666661999999a, 0x6963af62e003892a5d1d50074e93217934daf23145cff68aba2e8ba200000001, 0x6a44840c3b7b082cd99fb0b208d45b5a376dd6581553d4546aaaaaa9c0000001, 0x6217dc5a0f85429f8dce7bb808267bb5bd02ed3d9d88753a3b13b13a3b13b13c, 0x4a867dda0877876545809d29bd0c9d27fef9e96fa4913b23edb6db6d12492493, 0x3dd414f92742ed7bd70dc88cd1efeaad81febddf77769776eeeeeeee66666667, 0x6caeccddf703a573b0063a878907ba84fe81c9c2cffe763f0fffffff10000001, 0x1b46fa31af7059b6a2a432d4b6f8e788c868db4bffff9d2cf0f0f0f0b4b4b4b5, 0x46d8580827a75ac891152076b08d923c24f3e43ab8e28d8d9c71c71bd5555556],
    [0x6963af62e003892a5d1d50074e93217934daf23145cff68aba2e8ba200000001, 0x6a44840c3b7b082cd99fb0b208d45b5a376dd6581553d4546aaaaaa9c0000001, 0x6217dc5a0f85429f8dce7bb808267bb5bd02ed3d9d88753a3b13b13a3b13b13c, 0x4a867dda0877876545809d29bd0c9d27fef9e96fa4913b23edb6db6d12492493, 0x3dd414f92742ed7bd70dc88cd1efeaad81febddf77769776eeeeeeee66666667, 0x6caeccddf703a573b0063a878907ba84fe81c9c2cffe763f0fffffff10000001, 0x1b46fa31af7059b6a2a432d4b6f8e788c868db4bffff9d2cf0f0f0f0b4b4b4b5, 0x46d8580827a75ac891152076b08d923c24f3e43ab8e28d8d9c71c71bd5555556, 0x6dd3abfdf187ba0e815f38736770e79941dc14a486bb13c9286bca1a00000001],
    [0x6a44840c3b7b082cd99fb0b208d45b5a376dd6581553d4546aaaaaa9c0000001, 0x6217dc5a0f85429f8dce7bb808267bb5bd02ed3d9d88753a3b13b13a3b13b13c, 0x4a867dda0877876545809d29bd0c9d27fef9e96fa4913b23edb6db6d12492493, 0x3dd414f92742ed7bd70dc88cd1efeaad81febddf77769776eeeeeeee66666667, 0x6caeccddf703a573b0063a878907ba84fe81c9c2cffe763f0fffffff10000001, 0x1b46fa31af7059b6a2a432d4b6f8e788c868db4bffff9d2cf0f0f0f0b4b4b4b5, 0x46d8580827a75ac891152076b08d923c24f3e43ab8e28d8d9c71c71bd5555556, 0x6dd3abfdf187ba0e815f38736770e79941dc14a486bb13c9286bca1a00000001, 0x1163a5e6130ad2cad47be0679b0b7a00cc8fa566d9995a99733333330ccccccd],
    [0x6217dc5a0f85429f8dce7bb808267bb5bd02ed3d9d88753a3b13b13a3b13b13c, 0x4a867dda0877876545809d29bd0c9d27fef9e96fa4913b23edb6db6d12492493, 0x3dd414f92742ed7bd70dc88cd1efeaad81febddf77769776eeeeeeee66666667, 0x6caeccddf703a573b0063a878907ba84fe81c9c2cffe763f0fffffff10000001, 0x1b46fa31af7059b6a2a432d4b6f8e788c868db4bffff9d2cf0f0f0f0b4b4b4b5, 0x46d8580827a75ac891152076b08d923c24f3e43ab8e28d8d9c71c71bd5555556, 0x6dd3abfdf187ba0e815f38736770e79941dc14a486bb13c9286bca1a00000001, 0x1163a5e6130ad2cad47be0679b0b7a00cc8fa566d9995a99733333330ccccccd, 0xb0a7175a27085d61d427619257d20c38e120f9ec30c08c2f3cf3cf3b6db6db7],
    [0x4a867dda0877876545809d29bd0c9d27fef9e96fa4913b23edb6db6d12492493, 0x3dd414f92742ed7bd70dc88cd1efeaad81febddf77769776eeeeeeee66666667, 0x6caeccddf703a573b0063a878907ba84fe81c9c2cffe763f0fffffff10000001, 0x1b46fa31af7059b6a2a432d4b6f8e788c868db4bffff9d2cf0f0f0f0b4b4b4b5, 0x46d8580827a75ac891152076b08d923c24f3e43ab8e28d8d9c71c71bd5555556, 0x6dd3abfdf187ba0e815f38736770e79941dc14a486bb13c9286bca1a00000001, 0x1163a5e6130ad2cad47be0679b0b7a00cc8fa566d9995a99733333330ccccccd, 0xb0a7175a27085d61d427619257d20c38e120f9ec30c08c2f3cf3cf3b6db6db7, 0x6ea8ab5b04d08339482b9407ac1a7cbf444c4b1a22e72944dd1745d080000001],
    [0x3dd414f92742ed7bd70dc88cd1efeaad81febddf77769776eeeeeeee66666667, 0x6caeccddf703a573b0063a878907ba84fe81c9c2cffe763f0fffffff10000001, 0x1b46fa31af7059b6a2a432d4b6f8e788c868db4bffff9d2cf0f0f0f0b4b4b4b5, 0x46d8580827a75ac891152076b08d923c24f3e43ab8e28d8d9c71c71bd5555556, 0x6dd3abfdf187ba0e815f38736770e79941dc14a486bb13c9286bca1a00000001, 0x1163a5e6130ad2cad47be0679b0b7a00cc8fa566d9995a99733333330ccccccd, 0xb0a7175a27085d61d427619257d20c38e120f9ec30c08c2f3cf3cf3b6db6db7, 0x6ea8ab5b04d08339482b9407ac1a7cbf444c4b1a22e72944dd1745d080000001, 0x64cea7c2c00361cf7a7514e599124c8a328ea4e137a587a61642c8582c8590b3],
    [0x6caeccddf703a573b0063a878907ba84fe81c9c2cffe763f0fffffff10000001, 0x1b46fa31af7059b6a2a432d4b6f8e788c868db4bffff9d2cf0f0f0f0b4b4b4b5, 0x46d8580827a75ac891152076b08d923c24f3e43ab8e28d8d9c71c71bd5555556, 0x6dd3abfdf187ba0e815f38736770e79941dc14a486bb13c9286bca1a00000001, 0x1163a5e6130ad2cad47be0679b0b7a00cc8fa566d9995a99733333330ccccccd, 0xb0a7175a27085d61d427619257d20c38e120f9ec30c08c2f3cf3cf3b6db6db7, 0x6ea8ab5b04d08339482b9407ac1a7cbf444c4b1a22e72944dd1745d080000001, 0x64cea7c2c00361cf7a7514e599124c8a328ea4e137a587a61642c8582c8590b3, 0x6f1915afb28c42ba866cc45d093b19afc595bd2d8aa91829b555555460000001],
    [0x1b46fa31af7059b6a2a432d4b6f8e788c868db4bffff9d2cf0f0f0f0b4b4b4b5, 0x46d8580827a75ac891152076b08d923c24f3e43ab8e28d8d9c71c71bd5555556, 0x6dd3abfdf187ba0e815f38736770e79941dc14a486bb13c9286bca1a00000001, 0x1163a5e6130ad2cad47be0679b0b7a00cc8fa566d9995a99733333330ccccccd, 0xb0a7175a27085d61d427619257d20c38e120f9ec30c08c2f3cf3cf3b6db6db7, 0x6ea8ab5b04d08339482b9407ac1a7cbf444c4b1a22e72944dd1745d080000001, 0x64cea7c2c00361cf7a7514e599124c8a328ea4e137a587a61642c8582c8590b3, 0x6f1915afb28c42ba866cc45d093b19afc595bd2d8aa91829b555555460000001, 0x6aa770fa96ed0cdc062af9f2ea24419e803dd454ae12f879f5c28f5b3d70a3d8]]
  p := [
    [0x19c308bd25b13848eef068e557794c72f62a247271c6bf1c38e38e38aaaaaaab, 0x48a2a8dd9fda9644ef97501c5a819cddf743c3aab06762eea537d5a901dc24b8, 0x4ce387bba3a50855092b1272b73be67fc49352a40f54a3c65c52445ab538f803, 0x2544149503581962104e388809f131f61fa720ca7cec9b2e983a5ce41e931107, 0x633b9a53ed76d8da91f4e310080d87337ff57ee2468de82f3d6cc39134266a35, 0x678431ee3f69c9eae672f73c33d0b00997154c63c5bbb0f4bc088a20df238f57, 0x410f7f912a450fd161b6e43a5202bf493298734540549fc6e5f6b0e636f70edb, 0x64cdcddc566a664a8f80ecac9fd58160e1ec1edf74b9202f5d00308cc07dd78f, 0x41fb1f210b312d0fefbf8c378fea543afe2d83c673d226662e93675cef30c8cd],
    [0x22c74bcc2615a595a8f7c0cf3616f401991f4acdb332b532e66666661999999a, 0x2ab02e414e808d28d3a456fa378b04e88e8628a1b076fa0826b555717b1007e8, 0x2863d8f95cc187704a6629f0fe6499250fe09a7d59fddb38afa823abe2811e1c, 0xb17b58bcd93401ed9bd37d678f159db5342e330f3154bf1ca3c24ddbffe164e, 0x3837893aecd67dabbffffd28ff2fe17d978636775309bbc500acf229fb62a4ef, 0x732d1c1e4fa66d40286ac706a3894d357840d9820f3bc9aaa693e900ba66f526, 0x12f7eb0363c274581c76508594eb17fbbf5ca9b08879462d5f04c73f761d1c7e, 0x37d951955a8edae35deaf213fc8fcbf5fbd91264a50a5b736b9976dec44cfe66, 0x18eb1302cb712fface0870bdc2b364daf1141d407f95f22b02b174986be5f1a4],
    [0x6963af62e003892a5d1d50074e93217934daf23145cff68aba2e8ba200000001, 0x2863d8f95cc187704a6629f0fe6499250fe09a7d59fddb38afa823abe2811e1c, 0x1c17afe5dc48593597a1fa9ffdbacab7a4f291ce84dd3b1dd7028d474274f620, 0x14fb86aa7bd1af6f441a21c79b5aaeaa819e8deb3d275440fd1cab16f5f1238f, 0x95b066179f6ff886935b751f8492a2ff681aa5bf669386d5ff6c6762ae641a1, 0x41f3b17f30da60fbe1569cfecbcdc98c5a12e0c1de339030314b548fec1dcccb, 0x240a7994607ee28b58150d4f67a8baf86848af01d20008b8efa9eb235536eafd, 0x48cec1298f793cc2fd97e2f08d5d4eacaa15fb69df206511e30e61a08d28a250, 0x3504121a213d215e65c942bfe34b298b46cd9260b48ccaee3ac5518a6a2b727f],
    [0x6a44840c3b7b082cd99fb0b208d45b5a376dd6581553d4546aaaaaa9c0000001, 0xb17b58bcd93401ed9bd37d678f159db5342e330f3154bf1ca3c24ddbffe164e, 0x14fb86aa7bd1af6f441a21c79b5aaeaa819e8deb3d275440fd1cab16f5f1238f, 0x62c72f07cd1cb4f0e00a5338db9dcf0cf4554e9102484f45f95961ea50d090df, 0x2bd355c7a0ac26db9b1a8a9d0f268472502d19b6af85bdfc24cd585beee19640, 0x62b8df58ed6eafe1be93d3e04253ab90c2342c5e9c7cd78429e93ad03110d8e5, 0x4ce3e7e8598b4ba8f00a865f7df4852c8be55daa83908c7b3bc26d768c4077d9, 0x3e5e168d02e3be9bcae8f0b3038c3973a2ff8e269186000e5aba42e350a0681a, 0x1adc4bdc7123904ed735af348fd9a950bbb2204b309cc23f6a93152f9bc907d6],
    [0x6217dc5a0f85429f8dce7bb808267bb5bd02ed3d9d88753a3b13b13a3b13b13c, 0x3837893aecd67dabbffffd28ff2fe17d978636775309bbc500acf229fb62a4ef, 0x95b066179f6ff886935b751f8492a2ff681aa5bf669386d5ff6c6762ae641a1, 0x2bd355c7a0ac26db9b1a8a9d0f268472502d19b6af85bdfc24cd585beee19640, 0x2c29ffcfed7bc2716d41133ac1c1603d469e22ba2d2f56867cd469f4c637b7d2, 0x58df0a2a5c9eaa4e36f14b07dc8c1a449fb1a6ead2db7a3d264d3534b777ba71, 0x6451000335ef325155d6970fa8c21672682ab80f217d58e55b5c387f4e7392d2, 0x6201e7be4e6a1c508b3f04b36722da4efd39d87c4a2231206e5e292cab3337b8, 0x3b6b40bdc68d1946cc65a60a135b55cdf9b9e917e6c6bfbcc26e86af83482a63],
    [0x4a867dda0877876545809d29bd0c9d27fef9e96fa4913b23edb6db6d12492493, 0x732d1c1e4fa66d40286ac706a3894d357840d9820f3bc9aaa693e900ba66f526, 0x41f3b17f30da60fbe1569cfecbcdc98c5a12e0c1de339030314b548fec1dcccb, 0x62b8df58ed6eafe1be93d3e04253ab90c2342c5e9c7cd78429e93ad03110d8e5, 0x58df0a2a5c9eaa4e36f14b07dc8c1a449fb1a6ead2db7a3d264d3534b777ba71, 0x11d321a0f81b72d066669200238fea4f662d669620bfead2855211f9c71cb2c4, 0x32cc6c3b0617144d5f461893313b38a6ffc70118b55a15780679372e77b97ba6, 0x194501111a85dcdbff1f17a0b071c6235dd57a33854209b0812f16e2d3d58405, 0xb3f27325ff47f6b1f90638aaf9fe37b629ee000c18a5814f03e233b7973cb84],
    [0x3dd414f92742ed7bd70dc88cd1efeaad81febddf77769776eeeeeeee66666667, 0x12f7eb0363c274581c76508594eb17fbbf5ca9b08879462d5f04c73f761d1c7e, 0x240a7994607ee28b58150d4f67a8baf86848af01d20008b8efa9eb235536eafd, 0x4ce3e7e8598b4ba8f00a865f7df4852c8be55daa83908c7b3bc26d768c4077d9, 0x6451000335ef325155d6970fa8c21672682ab80f217d58e55b5c387f4e7392d2, 0x32cc6c3b0617144d5f461893313b38a6ffc70118b55a15780679372e77b97ba6, 0x29a7aa5e4090f82137307c73321f2589bd478478f5865a706a8b276db71f5693, 0x7ebb7a69fade28941a85ae0047362d3d0eae68a5bfb6e656f0fc12ad12e9b67, 0x407ac7761d3e323aac20d4c4b5c8e35907454e24c212a732a5dc1eeb68c19928],
    [0x6caeccddf703a573b0063a878907ba84fe81c9c2cffe763f0fffffff10000001, 0x37d951955a8edae35deaf213fc8fcbf5fbd91264a50a5b736b9976dec44cfe66, 0x48cec1298f793cc2fd97e2f08d5d4eacaa15fb69df206511e30e61a08d28a250, 0x3e5e168d02e3be9bcae8f0b3038c3973a2ff8e269186000e5aba42e350a0681a, 0x6201e7be4e6a1c508b3f04b36722da4efd39d87c4a2231206e5e292cab3337b8, 0x194501111a85dcdbff1f17a0b071c6235dd57a33854209b0812f16e2d3d58405, 0x7ebb7a69fade28941a85ae0047362d3d0eae68a5bfb6e656f0fc12ad12e9b67, 0x5fd1e4ccc94879482505a7eaa080e44325b85894f94ff504243b4f911e488375, 0x93ffadeed9f6225f59595b6b92b26dd8f1da8fcd4d559ef3bdb430b6538e061],
    [0x1b46fa31af7059b6a2a432d4b6f8e788c868db4bffff9d2cf0f0f0f0b4b4b4b5, 0x18eb1302cb712fface0870bdc2b364daf1141d407f95f22b02b174986be5f1a4, 0x3504121a213d215e65c942bfe34b298b46cd9260b48ccaee3ac5518a6a2b727f, 0x1adc4bdc7123904ed735af348fd9a950bbb2204b309cc23f6a93152f9bc907d6, 0x3b6b40bdc68d1946cc65a60a135b55cdf9b9e917e6c6bfbcc26e86af83482a63, 0xb3f27325ff47f6b1f90638aaf9fe37b629ee000c18a5814f03e233b7973cb84, 0x407ac7761d3e323aac20d4c4b5c8e35907454e24c212a732a5dc1eeb68c19928, 0x93ffadeed9f6225f59595b6b92b26dd8f1da8fcd4d559ef3bdb430b6538e061, 0x12e485eb966a327be7830fef891172aaa3b231925a87ba700853b32f6da82524]]
  s := [
    [0x19c308bd25b13848eef068e557794c72f62a247271c6bf1c38e38e38aaaaaaab, 0x39d9d3927b2b34ec506369b9a21e54c10a98949af37d495ceaf45bc33bfec77d, 0x38bb998b37825d92cddd73bb7f0f115ae18ac000cd525b3974d661abe97f1019, 0xcfb704c93ab1339f5a607c1aadd7a9d85eb87b0ded6516a4e47e90dbb359cb6, 0x2a85c6d4a45f849cc611d0a012e31130d2d9400bc01a2df8ecd840232c2e2059, 0x25f32a68598eed223f48fc1487ea9a27b0bce88b532c69a54499d23ef53b325d, 0x715e0290f828f4f4fb513c2d5cc2dac1fab8d2a6cbd86c5af074d80e7a5ad94c, 0x5118c7967716343bfec81d3960128ec2e5c509b427062e9b091fad7231bc24e9, 0x4586ef80ca808d1c9ed2b87848bc36819ff61f598582a464e77eb597a41379fb, 0x50a53720d3629e00e1de3338e264d11c6da56b4cda00fcf7804903ca1e16d1ea, 0x126ebb778ec9435e945a0907ec8266f38e2ce1de5d17b731b76701b3462ee696, 0x182b13c669518fc3a758c259ec979c3e4f04e6df0d09634663f5e14729d1170a, 0x28763955a2e96eea52a2fc7d1ae9762ed154a14ac954ec9519db805c8080703f, 0x39cace31d66c672be125c7ae93b2f5f6c8cbe41a97b19c38386469039e44b4a2, 0x6bb2421c2017bdcd8cabce6f706d3e6221c4eb18f70c91f67bb1221ad8742265, 0x551474d31fa966e2bccd08fedc543852150a2606ce2c008a76480d92f0b4b13e, 0x131419e60ed5775adfb7adfadff36a02bc3d1095e6b5b33e96b74b4208db61a1],
    [0x19c308bd25b13848eef068e557794c72f62a247271c6bf1c38e38e38aaaaaaab, 0x26b09074ec88a6d696c7828f1dda2664dee6078d406ae46e92569f4482fcfbe, 0x4868b13c24e56360afd311641f720f0c7cc523b2b572f0a322be84dfdbc3db73, 0x123517029da87013e795bc9c1fc4de65cdaa5edd9c6e3a36bc73c798637059ef, 0x5fb12507e53bcc6f9da73b25759adbcc96637454767853cefeffadd9c5060315, 0x190b7e7a62609d5fd1dad88cd7e6ff4aaca1a014d08809b9f01f27d6fcfa4e02, 0x271efd73c6816c1f8a534d32e2e259780b799c2c1784ea14662389f7dd06cef4, 0x316a1864b4f8159fa276e9377934faacba46c718734e588ffab6392df229210b, 0x205bbd1e01089f4039d92718e29a381a6be1384904691b3e8f435d3c60eed919, 0x3a1b27775c3a6de5ab3e2cf11cd33cad66c7cc2575529d6065742c9e50bd099d, 0x73898770272c131ed5a6f895e78e6deeb60f0b2fd03d5dd54e315f931596e5ef, 0x3554aa887cf0b469d600b7f823d1e50a75c67b412bd23bb281641dba356b47ec, 0x104b33a79fb5e4e3c7bf2adb63d34f7a901b0a58dd96b84c3d6682df2764a567, 0x46740d5eac1c6280589e826ca006e143aac8dea9cfaa3b869627cedf882652b5, 0xe89e6d56d8696a8cabeb3a4e59a694732ac67a48d24259e0394b94b30670d65, 0x392689d8ac05766b4f50f3885bf49fc766b171c3c6be2a0e374786c851781f29, 0x4f6c25f9296f466b5c38eba071f3c7c375bf92e419dc97475fa37b91bb1c8d0],
    [0x19c308bd25b13848eef068e557794c72f62a247271c6bf1c38e38e38aaaaaaab, 0x3cdfd417bfb5cf44149cbcdf9c538e1954a74740421295af25c41527300f05e1, 0x1284ca9dce8f097b8f0794512a52575f2fd16df99767bd1d69f1f18406b503de, 0xd5766a19149d7f6c6f6f468837ba8d8798f60405a9eefa81f7d57a789f01841, 0x6c017179574f3278c9e7daa3541ee3a57c7fbcf85abe5fce2507bc836458b630, 0x56a1d68818249b08279211ef8b056ca38915e9375427795c91ae018571de0efa, 0x26b5f136dc06407532b7f5198474c63f05e891bc7f748fbd3e2f5fb7a4ab311b, 0x5cc633f7b9f028dc53e4c7e15b7f35ce21be66126c1331191df1ab9e6fccd644, 0x2a2aec80f69ae55e1bc20becc600932c5b5754013e987f0ff52753eac3f3804d, 0x1b7e64528f7d48601ad1694c991a752b98981e5a3418a937673db2f8d2fdf008, 0x7021fbcdb390bfff8fa1808ad5bb019c3ee8e62187665030577b1892d24d4cad, 0x814db29a10007ad3d7481c439bc7bb5f565388df55afd5a77e9b4c089f2d77a, 0x26bf1eff66eeeae2f675820e90164f2433e5ec9abdb9925e10f1fee77076ff92, 0x63f3d1ac67b55cae2357d8fe42c950cc1bd8d7218b3ec03ff2e83c225e7335aa, 0x70bc5eddecd550dfd9da5a28297f58efd32b6e8c1715d9e8564020007973d22a, 0x6ffa81dfeba720fc9d300d6b1ae2e76e12f1ceccaf8b55377e5c20e808abc581, 0x22a5c5d32cb7bb513213cc8bd61795593cf296b882fb84986b3d99fc8e424219],
    [0x19c308bd25b13848eef068e557794c72f62a247271c6bf1c38e38e38aaaaaaab, 0x73ce2d97b075bbff376814acf4c40db0b6c26d58fe4db4a328482f22c24a8ecf, 0x1b83b846e48818a8f9f9ff910164f719921510b0b5c8d0e2523d915888f4e3d1, 0x2fe93751a0bdb357900408e0e3c827326591255f997d3d7d4c3032a5b75c4f08, 0x10095b31ebf661cb225ff943f1bb13af472e19b88dfb3747d65c5aeab1b4f97, 0x48915b5ad1de07a95a4d762f654ad0502e42ef292fd7a87d983189cd81903c5a, 0x25b80e9bf51702e28e7dc0ea022bab34ad51466e3f5dbadc0b32ee17680db5c4, 0x19ef792864e0604ca7e6c49f76023ec187728d9f4949b25ee45dc44b4ac7d466, 0xffef9c30067825741671a0e2f1e68bc0406aab008ffe938289c4fdd02e05759, 0x3c94dabb96d975abe4781c5b0fe984c42afbaf3e89522b5289b0e0272a7f8d03, 0x50327b9dee479543b94a6cf11a63c95409b720a7b7adfd723eddeaaea3f3edae, 0x4e4cb847a1d609954264f76f2e3ff9bdfe3964e2022160b9802cb5c7d618b4c, 0x40cae94e1e15d706f664ae071d6a03c418eb608eb2dd428eb00bb1bf62b35556, 0x2cc8603322bdcfd4d70a291fc610616137005b7c37e3feec96bba9da718076e4, 0x44977bc2f599b674a91a2e73599840bbe7a98602a7639b2f57f340b97d3127f0, 0x393a2ef7d63f848cc6d44cd1af8a418bf042e8e1d6618c95cbc06ff0d32a8f85, 0x6015cba370b87093773c203f9cf64fd0e004c5a693b4c459ee69294bc2448145],
    [0x19c308bd25b13848eef068e557794c72f62a247271c6bf1c38e38e38aaaaaaab, 0x212e99f1bd618999fa0d313bbaeb6b1076ee779610aadd8929695d8e2f8a81b1, 0x2638ffee833fb4acab587a1b6645b5c799ffec90ed743a61e547a3aef971dcda, 0x4b6e7223d35212c8945cebca72920c9bf8f0c362b16a2de8c097b7449e7ec5d0, 0x4ed7a000c56173d7779b7d6085a4b579f6a86625ff855362350dea67a6ca50bc, 0x5a29a217f38fac812cf17404ba5540c67c7db8b242601930e2b588d5f3027633, 0x5635db259ba9f136d02ce05c3029c235d5d78d35c9a91137eaa9c9f2ad90a01d, 0x2002f82bc3de467a633b25be731ee9f5c2f966516320c32d366adda95552647f, 0x3374a326b3b6b93bb9c578cb60d898b181de41bfd4a86e99e6cd1959bd9ef660, 0x482bf1e93071de8f99b060d4d277c0b85a0a278a0a7cc1a3f3941778db40bd18, 0x506b85db5d97c2005ab2b930a7447e963461fec44a7f5dbd353e5ec532848dff, 0x53a0d0247810d27a2956148553cfe949742d22c85950593b2bc5a0c18c741928, 0x6d320674c85e171ac82a07e67f95fa36e76281c9b6737ad5e9d296df8aada6ac, 0x3f093312230377260932ff91600ba45583cd3148d80a87a8b378c98d22cec646, 0x3cb1859dac2d64b1fbd9bc43a62a357f169bef24d1451f5fd970c549e05c3580, 0xfc4efe7a3ed195d157663b72c786f748b1d551781b7a7d801fa47f94dcf2fc4, 0x51756f938c88e1f51361d69fd9330ed35818a03f2b7a86093084caee35b69709],
    [0x19c308bd25b13848eef068e557794c72f62a247271c6bf1c38e38e38aaaaaaab, 0x5dd3b98fde726ce6455093c039922372db2412a17ea1396cf55f74be21c17260, 0x73da8a9b9b938774ecad75868095ca01e59d165edebe40bde8f784e17423b930, 0x56607d323f3966f03e3a7306261bc1c1dc5c9cf3f598a70be38d87a656eafb2e, 0x3726ace6aa617cc5904de374f85c1d0a9b544a6f0cc8821a357d4ce529076fa9, 0x2972550ce0b3c3cbb1c1faa7507df085e53e214a83200d1aab27e631307ca56a, 0x2eece9e041454a26aa9f99b1ae334596ea7542d9f06a3002a38a5137ff32942, 0x7470260aff1130473d98a853d0a9357486b4a279221ea8e36ca3b2b60f7725f, 0x1388860e07fb4b6969778a0ae8bed0a459386336352cf948c102cd3dec8bd305, 0x42e6a3786e0e7ad75cba62d157b46da8cafb61371a977ee450af20f52a81292f, 0x3d4d5486eba0100dde8b044bb8188310e730edafd2627b5cc3377c5f8b4ae2db, 0x5966e9bb1c0d9035e1d360b25e9b4b74765b4db15e43d8cac9ed14bbd3ff0b97, 0x165ac3a5a3730c4684f45dc227f15b5784c0585e9ce2ec8cace9218a2d789818, 0x111ccaaaac0f7aeff97dc2dda99047098163ebff17c6201d7c0e09dc4a3e22db, 0x69c0f330a62a6e24f48f01e92e2fa11078cc0af3048dde1f6a19d621e75187fb, 0x1d359607ab628fc68cb37aaeaabeb334ce31afb4a6ead386cc3afa2ea0b74fdd, 0x518e27389f98239a397fc040166f548adb5c7c139683248a2f81f6a2f00a4f10],
    [0x19c308bd25b13848eef068e557794c72f62a247271c6bf1c38e38e38aaaaaaab, 0x52dfbee16585b6ad0041afd80988b45b03661e53a432aa30773c19dbe574b6b5, 0x5d50d7cdb46a0fc460ff96a4188cc37e80c92a7ca13493e97840f4866cc4806a, 0x5061c0166aeb6daa830e81f37ed8610ead0867827ed49a9c87ca8f89137f38cc, 0x72e6148f5f3a2c0ce814b3c53c3598943959a3d4a8af083c2c10a863ee6b6c22, 0x284ae970b7b086a697c264f9f3bd65ab7b915e5f7605be3fa339154c60baaad, 0x4d4fcab1e1eb8dfda65c52985e5905fa7ea4dedf5e5b0d3acfbc9546e7b41dc7, 0x6fd6fb32aec65eef4790b3261d9c64611e8c2ce8597c75ed237deea6aecbbe56, 0x1d802461c8a2e4a7b00adeac0d036e666a7826684be82941f59c19beb0c546e1, 0x323d3c2a943b7b2fb0a916e6ced18fcef2d2fe9d3795d7b88cf926fd06dd513c, 0x2e62d503ad152ba7bb01c90b9c8d7a09e3b525c1315955cf8ff156afe90d4cc9, 0x69187b35e2ce1f02dd108c0edca29b33a702e7364aa8e27515032bbbdba3aa85, 0x6cce72273c5e3ca2ea986d5498c566d9a4c1b002b56d80d8c30454e28868461e, 0x4f8dd459ce40db09375b717ae992f822dfdc61718a21fa39a4cd3e88f8a006f0, 0x1cf78aac9bf31392543496ce45a315211c654be671b78d7653f73803dac02022, 0x9c247fb2eb464273f6bf90d8f184c96d3bb20f1d181a030b044b8e0fbf33e91, 0x64b0dd3a9636214159fb23900108bfa210ce4abc2b06ddb498a9683d09f37a5c],
    [0x19c308bd25b13848eef068e557794c72f62a247271c6bf1c38e38e38aaaaaaab, 0x4afc18a83f618204f76f374778a2f2a6077ec0561e09ed603dd365d4e701e695, 0xc7dfd2fe34969cc9d85b47ee432665bb1574de58071423ae4b3f4f59052491a, 0x11fc48173bbe259f7fd6cc84efe679be26b19f629150b05f8b1b0c78955a90bf, 0x67458c9fc768a305834760ed3face2071ef7eb3d01f2c89c6aa1a3149fa680e4, 0x3ce815892e820ef15554daaf9389a3dcb63093d54f36e84d36f7d69dfaef6e65, 0x55e8e744f907a29647f0254d9f8e14e06a4241df24e556c5893f0af40c759c0f, 0x6dadcb207b5fd29699dad42813f432e321b103e3f60be5c610258f69985c45bc, 0x485b23dbcf398b929f18231095af667f3b7fa82c473d59e7150d71a63d492888, 0x4de59e048bd933423a64fdca665b62fbc67203d3988ceaa060c74fccd135a53d, 0x23c50b43231dd8e2dc34a7a615d868fb72c749263f35139b27e875cd7f55272f, 0x2d6f0b98feca68dbf2523b04202144e56377e961e7b8e77a6f11d5872125d662, 0x2d43716977c1297a0a2e6714c7e07d2cd82ea01d8e76df5b50039bc904bb82e1, 0x13a61877388f63ba0fabe8bb570b7ab5daa88b0c53f1ccc699515750a90af985, 0x288d2fcb66c49fe104350d42f298c4b0b0173fb94eae56b4a161ef59acd28f80, 0x17ed668bf69f9990b6dfc5868d2a397f83de302f7f9496e96118391059cd4924, 0x50ece3062bf48829735ffb519f9603b37057a8e7dda970e0b80672d6521ee001],
    [0x19c308bd25b13848eef068e557794c72f62a247271c6bf1c38e38e38aaaaaaab, 0x1ae27c804c5226c862ca068d369d14929a7dd1c3ce4a4b2b7a566b639d1131b9, 0x2aa7f6a2df626253b492f119807f0a93a4f075784ecd5acd632d003da7dc0535, 0x2e492a19116ebb4299a8a6d683b986105461545e4c06ad861a3022cdd87a006f, 0x3c912caeff0a540b532c6ee930c673d1f2c24b88db5a288ae8ecc6763ee7ee97, 0x6671142f68d560f871d9c85b06dbe80c458469efa43e9774178eca798402098b, 0x46e65c40f4a022e2946397e5afd10224f135bb20b57ab23de3b596ae955116c2, 0x5917a9393a20fd63f68550b7df7b8bcf6ba1be5d7eaabb5013ebcfe6f95ceb52, 0x1222f81638bce131916586b4e742f2d442b0c9e16f1f57721316aaae3445b401, 0x561ebf00fc5f5cce841ebc0eb419e40fbbd17aaacdaefc9447b11202d883ddcb, 0x15e16d7c8778412f7cff47bf687631d9a8d8a3bd6865ab827574585337ea1b7e, 0x4a1ea26092e8b80a104e1fdfec11af9e2af83d149776ffab777bad38bbd01901, 0xd76096aa365ca8679aa94ba02be288f951c57024e2848a69e054b0fd509a71f, 0x6d7cb2344b875930e73676591623740aba2cad58e2f4b9eb851433a71745a73e, 0x27d024ab8a49f1d8610ea79de17be357bdcf8f3794ef554a0ae3b8a201be16b8, 0x574348cdd4af3ee4eb29a61ec57453be379e4987c2c318dcf4ac3ef9948b8cae, 0x3715b38d72be1cd123044d2b37f90f0fb7be2ae452962034056d0e540c8b2b99],
    [0x19c308bd25b13848eef068e557794c72f62a247271c6bf1c38e38e38aaaaaaab, 0x5bc8b46502b2499e38cff4a41626efdf8872a7200af21ab0e76c167c122c78cb, 0x5a1a471d008cd492d8b8328aa580707106c7f617d294a4023bfa91fa9503b971, 0x21b291f17c0fe762b35e35d1691c08c1b34aefc24aa2934dd7086c7bbec08c3, 0x738339e4ce3b762876dfa788ce70f616289e32a264f713ede6754e45734c3454, 0x10606832c9dc26e7eb5d30fada51ea1dfefecdf2e4881b8485f181d01ffda937, 0x4eb87e4bdc7262547aeeddb34ca175412ef4615c3ef97887456f7fcacee93f31, 0x3303e6202c4dc3692f646f7cf5fda4a9c2f96bba0b5e9cbec8927ffa7cc14ed8, 0x8efc48d62c3f09442909dfce7eb38973b434cb645d20ab03d861506dc93efca, 0x438e1afb89eaa4e97251256c94aec64124e21c662627f81a68af569beae1ba2b, 0x422bbf91c5b067813d6042f268b89d04c326f886a4785e9acff3398a970f8f09, 0x3b6f8678907c6a6cc7ac92c044365c26032b045b4e2e1918d22d6ad23032cfa8, 0x219c0d4b0ac3e331ca7edf41c15def9495151f568864934e5abcba6da86fb2cd, 0x59fad2e53a30f88cc9c3eb42585f26e0f41d4e909ceedf42c1f86731c0f760a5, 0x36027b45355480b4781891b34eee695b7de2b2b740205cca5832b5b9c281a9bc, 0x4b354984d9fa55c3d43caec4c4c9ecb92e23734ba9420f109c1e28cb891eada5, 0x325a44f01d06e0065db1bb5e57ab68b75b21bb47f7443587879d8c5447fe2a02],
    [0x19c308bd25b13848eef068e557794c72f62a247271c6bf1c38e38e38aaaaaaab, 0x504ae2830d70887dfe3faed61f037926dd1f516a550f765a8526b05bbd73da1f, 0x33e89fb342413ba3b61dab426ff5349f204367b7b52249976d618fd467cbcc9c, 0x46e1017c27af152177a45cf00407ea9557300852b4719db9a88b3e682bb8745b, 0x4fa0b71386be8f75c89f3d7d3f9cc0bde9929b8c571049c279482b240688e233, 0x442a144a5d65ef17c9280166f5226633c9c657594da30c7281dd2531870828b9, 0x5ce99d5a801906993c9407a054fa1e8c3c986816661e1f085228bf91e9af2e45, 0x3d7ce08cfd46adbe197764e88fdf4bc424d3f471164b9e0d2bb2953136adab57, 0xd6f34cb296297ca45c0604f2eaa37e328690ab23c09948e2ac5934654f842aa, 0x5408d669d913ab2a7d1d47f17783e1e682e640afe536f5b697dd13e6e3f630b3, 0xe4878cbc2d594607b0482a1aa5e1354c7a130123be756d4258ba22de53c7e05, 0x500184075cb6649df76e71f89d0bf1e23b667cebcd722261270bdbe2fa34c878, 0x4cf8822275b69209481ff70c60aead6cb6bd5b39cc8dfe6ba7963fa53f673c61, 0x139ece61a045ca8da2df1632b73b59aaa9b39606737c96a69175b72b6ead5c57, 0x37b0d7d8f2e0915cda2a391eb63d52adced8d1008ef535031313ee9988dc7f07, 0x2ee354fa42a7eb986b75c1d36c544e9f04804a4b85dc8c626b4117df6329625a, 0x6e1563de6ffbbc261dabf4fd400b9460cc331aa12fb6fea711704ed007b9641a],
    [0x19c308bd25b13848eef068e557794c72f62a247271c6bf1c38e38e38aaaaaaab, 0x14696ddb5cd2a3fd8dc742df82b283c831be8a26f13b61e6f34298f8f43195a1, 0x3c5c973a267599c786d3a6b23969b032e53970ebe6ad1685fe8d6501f6f4e79e, 0x129c28b8c7ec5b223bcf23576bfb4ef24eb1db7ca6d4ecc9b2b168220cd396bb, 0x6d5e7fd13fe6895d62ff9551735ae18f821424909c55471dcaa8e0af92a29a72, 0xf42550d956d46ebaa2ed757f6b47a50b3d371b34d5b47a87181712af46f805e, 0x46ecb370cba0cdf706c2c550fc5b917615c246bc70b00689a6999b61d83d7a44, 0x26406b1714cb7683aaa64b05c63599166e8e8bc3b2a9706592ab04dc0debcee7, 0x646c3a5cc80c4cab58d616a4bb4f26567712c0e324135d971976f8d20de1be42, 0x254d65642a6b4fe40cc748ccc201b6f1098ce016afb69a7b10bc5a630cd36e83, 0x73ea6eac9cd5cd9d10218ba4fa7167a2533cab48e6fb553079abc9b8eee1e591, 0x6742d8ce10b1b8781d10912bcbb63f6a152473dbd66b433094f1b4055b6ee401, 0x5f96eff2c8960ce57a7bf0df0e24cc1016b7d32e423563d9153af830ce8a5bcc, 0x490a2e4a205a23659a188c4b4083810337c985c1a3e30bd84eba96824f26f70d, 0x427617dfca2a953595518c4d3d663c89349f84861e9f77c1942d20ebd0005cb, 0x6da51ac58e1616359d5bc55ccc785abb4746e552f7b6389e1e9cfc8b66d8dc24, 0x225094afd9de013b001b1f7acbdb458c9f5aabceaa9f1cfbc77396f655483265],
    [0x19c308bd25b13848eef068e557794c72f62a247271c6bf1c38e38e38aaaaaaab, 0x50409fa8b0bb01f1bfb7b0bc9bee9b23cb2d601de0a4713a4bec05804a90aa3a, 0x3267430f8aae9eab271ac19ac31bcf449241274e75a339d1082f2f0d0b05e04f, 0x377f68c1f7c395d1ea8daf68f3ed0673566f9fe6f5128e9f87a214788ac82e97, 0x3bdd53e07beed6f24d4faf50976ac32fc1d053eb5c5c6755b8776bde29c2b6be, 0x29b8d23d48099f9481d5cfe1d287b5eab6d603adbbdf79e14765fa72aefe5177, 0x4d9e15838e6286622a37b91dd5292acffc2c8cd4fb46751f2a63d50035360055, 0x3c704908150a8a24947e8b2e626578dfad9e56d4b38818d487c7cb10ef7fb839, 0x441d7ee652c2f0b0af7dca5ea3c1177eab5df77869a3a0510521efc2ae8e516c, 0x6865e8675b1129ae1448fc44ab5c32dd7b4c6f9fc992cd555f897b1df44cb357, 0x70e1c2dcae379275218c9de5f5b62f5cd3fa60c87ab30cc7208e0ec2835be3b8, 0x73abaa4028f69ef4d8b960825d9b530f8faa100df8e7afe5156cb447a4e716bd, 0x5770f71441b52a522a5958b18ff250f6277c4aa9661dea11340bd16f71f6425a, 0x48463724271a705506dd49a52d6adcb7103a11352bb754543b04acae1e4e0cf9, 0x1fe9f32a967704149670a0089e6670c9102b94c0d656a563d87d2b6b49e3f4a2, 0x29e7f619ade114b0af0d915264b950f4a36a73c61bd720b6837802d58e44b035, 0x408dd562c57a975f68362d56d7911156130bf322358cb9168310f743994b2699],
    [0x19c308bd25b13848eef068e557794c72f62a247271c6bf1c38e38e38aaaaaaab, 0x4aadf39980470265ce266c8cedcd414b3c56d5ad36be890167d2ba20b208c540, 0x3a232112286eb99ee4fd7263f977abf52c66c9005fe50296e9c9325e4cf95bce, 0x24a57185ecd377f627c9d8766bc28544457eb02f9b91bf02aa38910fa22d94de, 0x366823e2077188266693ad3da05ac8cc22f87c6b7c7da39594302f15320e3239, 0x3f5042f08b40625d1ba89b730a08d80b1d65c4a026f327ba2ee400e2f1b17dea, 0x664c0ca3a72af88068f6d37f49a54f2af8ab062c82f6f721444ccea449f61b04, 0x1bd475528f7e83563f2a3897eae848f8540d4f8e98e36f080fb3bbee05832b31, 0x69beadf2fd14e31190a2a1d4c087bdc552905d0d23aed08d5a60ee505dcb6d9d, 0x11e2506d713060e0279ba43f99ad8a1be1e9c5d4642ba22002a07dca631c9c0c, 0x2cd86bf13dbae497fc6c69ee031ac427c40b120ecaca7551e63b2d2dbfa54a51, 0x71d8ee9c3e67ecd38de378820865dc879eca229362dc4912dbe45b8b1ec2f66, 0x5e8bbc082526cf6149ef602c2b7831ba685422729e0e2df2156986aa9ec8d22a, 0x12609d4c869871202aed2c459735b4834101fae354f43e1f25e590bc51d5c7b3, 0x3c16dc3b5a5d24278cd821eaa7b5d37b0a4964066facdeaa57ece155ba8913a1, 0x4d54464346573b9188d5706ac5f3b7c0b0b60546eaf3abf53191c0ad15fe7347, 0x438d80bc37a74d840176b441a4ecf334b7bedf348fe8c4afc54e642e5fc597f1],
    [0x19c308bd25b13848eef068e557794c72f62a247271c6bf1c38e38e38aaaaaaab, 0x65ce7708fdbc1e1bd6cbc05ea5e7b548046a92080973bdc8b349e3354f25ce0d, 0x428400ac92b7e3446e7dceb6c76d43521f61924037801d23688b248462b003cf, 0x37d2e56a2bddd1565dbb79a298b371a605a0a138b650babd8460ffff64e80749, 0x4adff4be52e4edcaf7b6b6149432024ce4251cb357d1576e645c9b6114dfe057, 0x466cdec468f8fffbcd821eb86976db377f14cd551ae3ee60cea885cda4e33e83, 0x395c0d21f974cccce5954421c4befc9cf029e04f31abe818998929075a7b4605, 0x4561d25b7fef327978abb62cd05266df68e6c37215f90c9318e143842e46d056, 0xdb28a0ad5fbb6356b4728a11b606655196081d0522f796d665e191f41e737df, 0x130edd31f695db93d4bd43fbacdd911b364a4e5e4fbf72b4d8b9ef7d06578cef, 0x66090e24788486a4573f9d1b51ce694be399fa40cc074b3fbba6ba9715a6aee0, 0x4289b1e8971616a72a2f1ecdb2953be2bafe06a0a3b4240b589de1829b33498b, 0x738c55f79a87950344556d8b55ba8740089fe2752c8d87f77b0a5abdae128c94, 0x34e8e70fbb770ef6b8b9ba1742515090de2c1b8d220e141b837d088ac8c89c78, 0x5d9086d4980b26d00d000d196ba74770a837452b80e414af9609ae5118cdd2db, 0x7230c3b80a8d27d1045b498d2db1f0a7b0fae4c17e6789c2842ab0fadfece776, 0x43de4bd62785f1469dbc4fa5db87019795484a5668bfcc23a50538ca5917c56e],
    [0x19c308bd25b13848eef068e557794c72f62a247271c6bf1c38e38e38aaaaaaab, 0x7181ac23c981163f8e59ca8d82bfd4a93306f79a4d7e65535608b77af1662542, 0x3e1bc5e31f92e9af0a0444440c97e3bb65e5a46e4f2f71b27014bd780df0c494, 0x51cc5ed72addcd07c972920d68f8183b11314a75faecc98e653a6fb3f505b22d, 0x5be3b57717d7339a3c6604266701f8a369929ada143161f960edc74e0ad21781, 0x3a998524d78e5c9e9946fdcf65510b8e4b34112e1a14fe46811cfa8ec29cb087, 0x4ea50c9725c9b9163b0a1ed9c41105e3b519729273ea54db849db93fb85bce0a, 0x5480841ed0361f355f989b18299276394e971361ab3f815eff02f89fa6f080e8, 0x5f68d0f33f404339d52423068f87abab4a8735c182ac35e2fddf58f864d74d7f, 0x1e644266270a8e59d41c15e3bb762f408245a49776f1ea043b6e2319027fd68, 0x595bc3f700d347f521d7ebd055bc9892cffa5b02b6549aeb21b0652db1322bfe, 0x2bfaa58a27e8b3f9e66c25a6f00469da159cb7b56fc576f8f38069c234065f50, 0x11622a09858e5393f53f0bd7a250164db764cdeb376ba8bb5f515f17cb44032, 0x6538ee67605c1e0dfa8e4f8484bc657e5f8b0d450de5b4af92a9fe27e586e707, 0x26e6c23af825f15c7fc393ca0c96e8871763883f76f1e7e57988883244db83f2, 0x3fe2d8d35b261294f63ead54a53bdffbc1ee8ed4d7b5df7cc7e85ea25faa216, 0x563aa6e22a7c0452345a52e93e6e840e13b558023d4ee1e61a3263d447291d96],
    [0x19c308bd25b13848eef068e557794c72f62a247271c6bf1c38e38e38aaaaaaab, 0x4751856808e5f6059620d809b75d7dbff21850fcea6adbe2784805bc9992db0c, 0xac54d26a5b4cc4c0537c9ee260a73f91029145b61db7afb20b96e5a77a828cf, 0x3102158c6447602d29ec4e7bfdba59a7e2b376e82d08cf9f2018b78dd0e3f90c, 0x123cfd5a79530bd66c3933c193465a2c91feb2e6c783796f0c2c563b93710525, 0x2ed5574eabf3724b598cb0d825ef4f37713a0311187131b1bb68e13bf5f3ae3e, 0x601c20fc7d5048b29ecb8bce6b8c48f2028fbb93761408072f6706bfba75c26f, 0x22a6984803cae1f8f55fa973cdf4b4040748640dbae3e8ea63d89a9e18555e48, 0x3e2ef7e6732c3d299c151ad80cc65a661da000aa57dc55c25e85b0263e0d6f3f, 0x260ac688120b0147e6781691036bcf053e880efef0f5bb6b2031ac9d0d365c0f, 0x6e1bbab9e6817953c8557efd1521d979a00eccf2d5491cf9aa10775947bf0fb, 0x6e94480c5d4f7766165912392208a9323b5d58d96cd0918b2496a5f1e8f8d813, 0x579de26ebef81ff33c72831e0215d322048817d0f9744795c5db0227c0c75d21, 0x435011ac19eb0545383ac873147f6525b46bf59eb59ddc9e26c7f0a76a4c4056, 0x181bbdd0c2dbbe9e5900b0fbbbd24535c41d5e4f8c82490699e8b950fad77e7, 0x6ddeba3efafd9c19d4fb164baf61b6b2db41f61175481a9f2c025d7e18db2ce6, 0xe18c9fe7b771336b30d1884cbb3fbf36a9c15af6bb2a8cd7865102ec1bb861b],
    [0x19c308bd25b13848eef068e557794c72f62a247271c6bf1c38e38e38aaaaaaab, 0x232fc6a2b478cb15084901dc5cf1504efbf0a23ca7c0b8959b7c1037f23bca6d, 0x22a31ffb67060bb2d55193a1891207db69720649802d2b90879ccdca7de3469, 0x17d6cd97351ab8ed5ab83d43ae56379428fa17627dd58afb22a2a9eeba290811, 0x56722c079de43a00f79cd0a66bd335f4d0c42794849f5b024501928d32827146, 0x271f3d1eab2a3eaabb245e91fbdfaee0f95cdc7c97b9a90dd2dac069c1fb21e3, 0x67f0b0391bf8358a42a8de10224a9e1101c34be0299798c53682eb4dd7336255, 0x11e190fa0654f1e0109cdb83b32160402ac6b89420f361b5a33369a2f7a8123b, 0x729a73373b4130fe86eb31389ddfb69e8239371bae380500852a3424f4e0b258, 0x613e3eccc4bf48aa8eaad2398c323f913fc14048c3aa25f0b1202888e69b9c83, 0x37f3446c12ef4042453af9d520b07f7cd55af7fddcf24b654034930e6db3c3ab, 0x4d88e4a30e43936ee782bc1dbc510c7f76a674b25d61e908296c95df520d55d0, 0x26a7bb83da86211326a594d601229153921889cc7b03f099d4b82f0ad3ed8740, 0x6ae5124a48cee403cc0331e2e227cf47e2de7d9f183149d60e670b372de81118, 0x50733b5dd091519fcc1ef35b06ff34f5821cd502f9eeababa870ab4a6fe3a8fe, 0x67b822a88c32f1cec0531e64264c8ec7cc92bb7caa65e25447db724b6ce2694c, 0x6fe5a46639f2ad0b086d525b6d8f30932a6baa9011ba4246f03fc7b38d6c6229],
    [0x19c308bd25b13848eef068e557794c72f62a247271c6bf1c38e38e38aaaaaaab, 0xd1dcabff717cd7319fe5f7d43d1a7fa079fb4d4c2f7b8086081e494bde4474b, 0x21ec1de978737cd533c2ea9fca33911a0e96a49d01b60b903ce01b64ddbc7ee9, 0x2a43ac31fcd2f40553218fb5521e24e985599684879a98e938c91f99604a0d2f, 0x374d1b4eabb724397f02bc0722ad5f35208aa3c436cc8f481484fe3d12b88a58, 0x2033be3ad0474570d66d1405a0b3a07c0248f25ffd477e87e21b6acd5b755abc, 0x33a582a58afbb9a9b08c0becc06b1bd58ee4e5bd10ca7284e36c958eb123615a, 0x2e35abe4b663e11125f13adab49edb9f582a261559ed31348c8b10c0afc10fbc, 0x40c3ac2c5acf31f50e3eb190621ff8f43de3b4461133806ade8553ea38ac1c00, 0x572a0bc055a88b9ccae45717a248c362fdc2568d89ad9fa3a20c7350ba10b09d, 0x4dcb81f8f87248a8295e440d159496a0ffeadc1ddfa00dcac62d53d0e9698581, 0x8ebfe29001b4dff75f7c14703b5c3ac0727d98379f8321d60e5df86451ecb70, 0x1bb72a77e7604a9f13397cd6cf23f871fa4ebab60d1b1737acb923a0754bab09, 0x5d0411b970dac557c1d413bfea034bffb7f2a3c2e7b2bb18c2edabd78d990ee8, 0x4055a967ab01e0ba2e9b576d93fbc81f6f61eb70f46207f53d8c5ddf63ce9ed4, 0x65c21d530fc4974a10f39ecf1db07c97f157e02b68fa3213cd2271d0bf2ca6f7, 0x41294b62a72c28465a77be5c6431b7b257a9aafc9cee72eb3cf92a7ae0473173],
    [0x19c308bd25b13848eef068e557794c72f62a247271c6bf1c38e38e38aaaaaaab, 0x717a559941855a93310200fb114fdc5c7c3f14c75a2c372694f5a0d77f51ef09, 0x3e2a356fe6dff7a773687f315126dc55739ed380fdd8e4a673ef01ba8710318e, 0x7f1b65ffe6902fc731563bc5e7107b6f96dd1f1124a59b1b1ccefcd8441539d, 0x5a21f4ba9dc3f88b76556aecc432e520c1942fee2f8b5e8c87b441d9c0aea2d3, 0x2e5e16f04ca817eee6f6b639137206e1cbe670b3d129ab4b02410d0b6ea67b3d, 0x151ee501a1b50e0990f21215d4f431af1ab34a35babbe825e5350c1c060eee3b, 0x62b72c0aef79a94e7f9937c85744ffb7cf3156f17f4c197e1346bb225121b771, 0x4699360c77b13f743037b6bffd19dd858eee4bb452c6bc9b252cca83b4311fae, 0x5fc38fc88427dc649a4046bc836fcab0591590865c914c9f48e53f7910eb1706, 0x6fe20f7d5766ac472616b1e2bb69b860011ad8c848d2dc7a081cf5c4c8ceb682, 0xc28868d166d674b05a2bc626e4214f46dbef945bb7313862cd8ea8b548f28d8, 0x5c89329ce09e9dc5a7c60c221a68dec47ddb8d040d152e86387b477f2d2f91ea, 0x3f46edc6f514ac1ed9a97c12e25c40efa77025ea2439c696fd6ed444f27f292a, 0x923099c7874f87feb911fa11cbce6703315e910d4ac6b0f7b2d7ceafeb33783, 0x134df14a123c6c5e3b8b0bf7a0b8d22a2e80dac9abf6c56ac48fe5a23b2f7cc9, 0x5ff277ebe3201e7772eccc1370e3a1b36dd6f7fd465486f4d3c3ea13baf967b5],
    [0x19c308bd25b13848eef068e557794c72f62a247271c6bf1c38e38e38aaaaaaab, 0x52a9be5413556df3f703123dddca2b79caac3202d03d319db9d54540aa7a21e1, 0x19db2bf25e0d837afe8fa913d3580b80160147bd68947f22bd37fb86dd4d787, 0x16d8019d79516425958f3b9608860a966fe9611e4ac9e82d3cd0bd61f9b6f900, 0x3c044b8435731a33ee3d38f36debc8a260b515c6069c05f8dc829126827f2cc1, 0x4c1b2f5adf913a1e4709cc802e8c6564cb7ebbf279a0ad7bb9ca451fd9243300, 0x1f824e303751c29b5be99dced1099cb4703352232dee994f5d980f365d135ada, 0x53779e55b5dd40971984afb01c6250632cb8baffa7e9929e3951d84fe536961b, 0xce99419a84588b6b65b598bb5c34f5b20eacaa1accdda96c4b58c8a6860dd9a, 0x6fd0ab3c51e066bfce9d0359713f21e3aed48e63597e493d9cea131e8d39e3ce, 0xd7320e528da7da0bc3a670f93d14aad01f1103bc542f63d059830fa1159a0af, 0x69895c052e14061e61e8ed97c734cf3015e507fb6fe5369d4aa0b5ed2ecc2443, 0x14f4683384f457a9b099862742197c259987c7871bc08c6412e6b996ec94628f, 0x5d099dbcb9c04164695b353229e31e445a111d4deda930b72409a65de2caa26, 0x5e3d98a866156c862f45f12d11a4a6f1878f9de55962513c7d3da09dcff9097, 0x228223f78dbf31ec6cbe8c7d8363e190f20fc3809b547ccf32ead2c812f7c032, 0x3cad453470fb59cb402f7be4d1d1cf189a530fbfc145bda0a083c8506dbe19d8],
    [0x19c308bd25b13848eef068e557794c72f62a247271c6bf1c38e38e38aaaaaaab, 0x545928160c50f2e095dd76098581b7224a4118fe1321daf9859a684981ec4241, 0x1cfd2cadc737944954f70e3f8e4a52f3037ef7f7f5c086fe58dae807dd0cff77, 0x6bc795969952093ce762de247a48fcbeefe4bcaae8b360b26ec9b958640c7961, 0x6f3aeecc799230ae9983c397e0e454512a2675f96f3d0a524676c2a697a3c89a, 0x1a846f23591a5fef448df50bcd0102529740d0ed733e72381c9ff15472e54316, 0x3c68c42cbbef9037b570cb019130e9924e25907776953ef958adf7daac567697, 0x635a7675a50b88783ef754044af30c4f261e9af107c46be744e357a11d7eafe1, 0x18503ccdd1be453e4323ca5733128944eb21762fbb5bc83c5205c8f9a6dc0a15, 0x20bd3647e44a4e4f34c3514361ebb51f27e97ba3d3a0f8fae0ded73ed2bb7bc7, 0x7360d19ece0c2cd6179759a476672039093312a473b5b7d56eae620a316ecae9, 0x6b4f3404b192201b222b88489dac7f181061f45025a30c8ccb70aec3483faebb, 0x63db7ffefc16eebf73d16e48e97d6e43313da9d2d2db96fad61857ed12b86ad0, 0xe394d43c6de348be11f95707a8b27b1522e269598c92c7e97b0bfc5632ee8ef, 0x31ad8f70a53b2b1adea8d4e0aae5d6fcb6e5f76715175c7ccf51175c930949f2, 0x34b5039b93d082c5b6472eefec3ad89332622c8512e56cdf96346d8b211b8f13, 0x623b69f214f8f508780957692ce522728394cdc5c95ffadf388bb9d4e8f07798],
    [0x19c308bd25b13848eef068e557794c72f62a247271c6bf1c38e38e38aaaaaaab, 0x6a28e6d35049fa65707ea3d1b41efb0a778500af806e634c155bcec531c1d55b, 0x70cbe3f1c1d9b65587c2875b5d34efc0a88811b2d9f9f617ed0bdaf8421e8ad3, 0x68c3467f6bdd01701fab03687dcd0f39746a3bd24b7211809626ab4cbec66b23, 0x4d7cbe95623e5e51981d9264578560744fe2fc22fa28426240cf3db043b70371, 0x5eaab5577a3b2001b19e19f87af3b4422711756de649297995fede1e03453c59, 0x5530d0e8c4803e8765a78c663a30ece5e86e18e7ef0441fd9288cb0b4a74ec8d, 0x6df1c2e1addf81330e5cf53e8aa8ce4be8705559bfd19d2e84a68b68870f5f06, 0x5d87de25f7bb26bda0b4325342e0ee43365a67cf5edf1471fa68180f6653a835, 0x16e76038c30902d1498988c71646979c6df9290c6b5b695dddf49121cbd37d09, 0x24c89ff2884e9a44ae383a05367ad0ecec33b648d26f9fc287055bd9111b57f0, 0x4ba4d009a231fa755ef9f0ae7ff1c7bafdb6b7d282c4ac437900dd20a69c5e02, 0x5f739c05bc759d1fd1afcb94a1a4ce0ade901f1d6e8b2f78b6cf9570e3260f8, 0x1db1367158cbb1951fdf47e8c49ded5b84f6f251fb85d0dd215d5a00e1d8a758, 0x5852045ab7436d4904a8645069eea22ab2f418f4876ec75273670ea939476ac, 0x4c5e3589697f76e9b6e0d1b0addaa33ef267c9930f451739b20fab845f841f23, 0x4d94a9de28ad032e347659820b2bb935cec99de0159e7dafe1d672621ffc49ca],
    [0x19c308bd25b13848eef068e557794c72f62a247271c6bf1c38e38e38aaaaaaab, 0x312f788bbcf49bb90e0de78afa63abdc64f771150db3dd6eaa7bb1274b98e2e, 0x1032f4c26654a84e6e42dbd7cb8b06c4fa3b70c3eaf2a1d4c7c537bc5f460d07, 0x4de018c1795eb37914d294cd630169963b508304e62b628976fed6b5cde78bb6, 0x53f11080b15ab4ba317137164b9648dfa3d32a56303aaeb603ac75e994b48489, 0x58472fc167cf4975bc8a5dabbe5f7d1a183002dc08b30ddce0b196fe657838ba, 0x211a0d3129683a00264e42ad59c3ece06619ac9f8cde4b6255c2641dda694757, 0x237e7f31631b44653dde539793852c8903474051b0d94e011a4d33e4b8efd0a7, 0x610295e983da2ac2515044180852ff2350299b625358160cf19d021a1e9c1155, 0x72fdad845c9afe97319b8ba474860a409cf09c427ce18afc43b6727e4879e717, 0x71675b6863a5808eb0a1480b1bc9f94be00c1c5d64584ec10eb20aa89340a84a, 0x33936c5fafad7a714aa7a8085b072e1670000c0ff605322e682a2c2f11ebbc90, 0x3c6dfea5ba8fead1e9c5819f177b9a86535a767f9983099be9e5ff4a25370f3d, 0x8c597868f3eb3690aa4ababb26d32edc2489113b3d1b5f96ffdef41d54692d2, 0x3686e5de1f8ef96c13afd8fb7464398afdecab6381e69e1ae6894d323c3b672d, 0x4f4d746468a13d2dc11ed3b2588a00754557c5118732fc4ce2a25fe17c195f7d, 0x50ed9d621630f8a19b84bcd99be711cfa7b8080aa6aa023b1f72be153a254303],
    [0x19c308bd25b13848eef068e557794c72f62a247271c6bf1c38e38e38aaaaaaab, 0x37ae99a297a5ddf01ce6d39c532cf3f52e5a4f491955ad65436dfaf163f5ccd0, 0x1c75475ea5e52fb3a088e9f99c7d6061e720ed6287f4c55e8b5a7fbabc8cfa8f, 0x57e927b3cd61f870a9cf466f7cafcb5d50243e605e12aa9b98c53607333fd07, 0x47387807403559faf7945bcdb1fee1b919dc311037d75ea8c55d5f81b2a41272, 0x68756ade3ddf3539bbbd57fe1c90e8f636043e0063196c341de83b2e1789ac04, 0x13ec81df14619e4a17239f1445f86aa6aecbbe255ad80138c06441d47b936b56, 0x2631b3b9cae4c5eb7053cf0ff453bf6c694dbf0dc7ea85544e06ca9d2cea76a9, 0x2768b7bfbf0417f586cb17fa3d05344da5e8dfbfa94287d3605c80a59b2a6011, 0x34c22a5498bce107346c01adbdbfe5e43c6398e92c9e6931e84150fc602330ca, 0xde3a9efcb606b86528ca90ea5bd097710517940b41f1237f1653543f22b2614, 0x56c5f1d8d0847a467981f2ee34371b07221a34ad828b9a656d904273a511e269, 0x40680db6470ca128f144ae62bf8bcdc51a8354e00c7fc81f0d6a699bcb31a93a, 0x3ba4f71c026e14bf600a50e1716286603db53f908f2823981329b7ff28e50935, 0x26ae5d5963ff72dc93f5d51113fe4ab7118d6115c6756ae5558276df1ba3e91f, 0xc294d8ce072abb03b917a68b5773e0e247017d3205df0cc4c09f2248490a36b, 0x3e0ebd4ec82d5ab89fedfbb47bd31ca651a2ec7eadddc267d724fee08d840aa2],
    [0x19c308bd25b13848eef068e557794c72f62a247271c6bf1c38e38e38aaaaaaab, 0x2e6366bde94031cbfd41c1796ea04ce01dfadd6dfe10a881d2711de2d3ed5427, 0x1dcfcf0578fe11dede9cfce1ed7b1d491140043b066db38bf59b04373fb54ccf, 0x657e65a6a09eed33f2b6b3e494e2ca5c8a517118a13f519eaaa54a075a091382, 0x64912516a81cb8d57cae253b7d822fc935363a87100d6d10bb22cd0213827f9f, 0x500137a6b11d4e223a8f6f9a12533b0824d68a02754037198151be649f902cda, 0x7188a0880b192406a3a4ac1a3d4009e8ea7120e38cdb2f827cc01b586c491d5, 0x1a4b0ece6366a82e52146075a83d74ae717844579e58143bd208fd0c09d5ef66, 0x3c07f5430760ec1406582b45239adc9a1afa8462159bd756e4201c4eb162789e, 0x691574722e45e477fda7d321c264a01b376871d37c8b0420ade29b21689b3545, 0x6ee39c2ca7c40ba63aa205e947002891f3b440cc4d4054fa5f484077e193fee6, 0x12374db9d41ff6491aa58eac9a8415b329f25a276217c8e229fc827b68b233e7, 0x5d1654c86c95510ab84d015d131faadb63d06657bd45439e8ba143e707edfe05, 0x3c0ba7e22d083eefb23cca8aeaf8975c8f1d3064284b8e8db86cdc67f7fe5954, 0x2802f157bd81b34dff99a23d97f613ce8187dd4d18e3c94941af54c485ec84e8, 0x6751ab3350de17642c80f89b5830220d68fe725465e0a86be109448cc9ae9976, 0x1b5b81785852f59248dd459f2c0705a7c5e0b00ea090822d47cb5286b83ed158],
    [0x19c308bd25b13848eef068e557794c72f62a247271c6bf1c38e38e38aaaaaaab, 0x6a21b7d409bfc7a3f2b47a66eeb9540edc1c8c62795e011185c0816ed1e59d29, 0xe10a19fac7bd7c8f517c9f196c64f67019ab266feec86245b8f53c4525e477a, 0x366ddeff8b1970657c695cac1e6590c73f42c46d4d31bcce726be7702f738c76, 0x44c672feafedc525e9ecef8ac9b4d5f3e9a6aa44acecebd077dd934dbc66a696, 0x14022a1300783662b3f30e60334351b45d77e245d43aff494ca66dbb42a15e8c, 0x15e8148a7c7ad1a4690f904338d03568b81355d5f970064a85c1e076925f85f1, 0x35fe1a3e7a3b2e5abe14cf17a0a8b9d8ab3077553ca26ad017a9e58d881290cc, 0x374ad1107e9e759c04c4a9b8a65edfcc6ffa9f34adb722df7da326f6fd4bcdfe, 0x438b97b379238d5c57388d315b757e762603dce7bf1b35aef49dbd0acf2a76ca, 0x14e393705488ae3f834b4e9fc6b980ae62c6499105455f819ffa701a123ffd58, 0x59eeb8a7060d80d06b97eb002bd322a8fba3af209a9f835ba0da272992ff97bb, 0x559a4529193421f158581ccf26f17d4685837758cce050fb6170b4aefaa1dff6, 0x5769c5dd19d0b28448c33c466cbc4af268ba5bc38cb933bb3e91c4ae133d6d4b, 0x4bee7574755c261d2cd7d8ef8cc58f37be4e8dc2e6eccd6f9c252e4d17016279, 0x19da363c3de0a0b270870da7238a30f83ecd671e8a193b47332a2eb8a6d3329, 0x36eb66cb73b9ac44716fa32e4f03a44012563bc3e296a83f4fb2a0cd400de114],
    [0x19c308bd25b13848eef068e557794c72f62a247271c6bf1c38e38e38aaaaaaab, 0x5e5ab2497899fa6c1584c86983bb8a557df919a9ddafda63efea6d4c63b072be, 0x28ca9f200982846092b524c382a87ae5cba0a33322e3530ef1d9e45852c9ca8b, 0x24b357630e5315aed9027d07799c67a58e915b80e31326965235447a3e7e20a6, 0x132e10c96b66169c11b6403764ade5bb35f6998b73cb84068fb4c023943a6164, 0x7186e5a9c49e0b209bed2e7b843e60e1017904728673e7ed8813bbbe7116b5de, 0xe731c6d4ca081d0414b72577de2fde85760d73ec07a12e001206ff01c13ac3, 0x6ba3fa8383bbe73f922f56b05fd89925f4245b6a0bf21046ac074150fd556133, 0x3b37e43117273871b34c1305450250b2a6e7d94112ed2cee25e61c4bd4b6b4e, 0x6e95c26efc16c9b8ae7b0d9eb82d4640c143c09d6be041fef2f26e3050720475, 0x1425f853dd66d85d338f668d37cf45b60e85a466c5aebbbdf0018e0a4f919a1d, 0x323250a8d40d498cc83ced01bea3e31e8098fcccfc9a99d3670cbb3f937cb894, 0x15717d903bd6d1e8b49465bdd05eea05747ba2655db34b2e454e4a913e4c94cf, 0x16d698e35ebc2208d513d843b749e33b3cf573d96ec863133c811323cb814bc4, 0x5be7ae3b686a439b5fb982c2e7ad12d40c6cbabfa2a3c6091e11afa9ae10745e, 0x101fb4fa96acf1c5f0059090ae8ba5b5135885c56db7269b4947b37017f92fef, 0x728856b74d267a6c6a99611291fe7daf4b3020773f4da188773a5a8dae0934ec],
    [0x19c308bd25b13848eef068e557794c72f62a247271c6bf1c38e38e38aaaaaaab, 0x3211f522af6ef0f1e850f22299792539c957115fb42faa2b1c3fb0ffb80248e4, 0x6b36d8dd7461869e4b716d815ae90f50fdc44e09d1b4594f10378bf805f55931, 0x2222220264795f181af331130cdd2acedb984e082587f418d226afe6fbdf58ee, 0x5e09945b733eebf88cb32eabb3a3934ad9a9f1f61756fad47e05202859fb6be2, 0x310b977e4e0d3171598df9b0ac3f750491b3afa8624aacdb08b67f93a6bae795, 0x199de2a3e4935be964b2e94335c12d041b4fa277435a4a5b804fc6a7d3da3f4a, 0x210dbb3076b520920db4bba8f97e2280b1a0d7667e759ecb53be5fa739172860, 0x5242a5be8aeb8cc5234226ba72fa142945a255d85ae1735ecfba306774180d7c, 0x439fe037507d3ee64a318d019c3fe4956ec34a763d9e1e336d127d3387f6a03a, 0x57557c81f41a693c8bb5ef170146e84e94b9ff80fe0ec2be9aaadffb3855fd4d, 0x4edab74ef52e1be33c71fe3ff5bc400983c0974ff67cfdfc889e50db57de213d, 0x17aa66f64eea99294f9cb3bbb0c0900d5a21465818847b55b61193f30b999e0, 0x2609db735b1932b0edf0f129904da3a7fe6fcf73e2d5aa714270aed36d6b5725, 0x17fc2ce7131f8059c5023031206f5274467bfacab565ef10131ad91bfe06e86, 0x5c6cf650f72df0e72569c7dee3ff852babab86e7fab93f3078e9dc35944c731c, 0x70ba36c3c553fc0bca36a1fd715740e5bef31edde1f1ac88ad2253a9a0af2239],
    [0x19c308bd25b13848eef068e557794c72f62a247271c6bf1c38e38e38aaaaaaab, 0x49aa7559d63e42c906c8f51fa240986c6d9dc74d849fa12f3c2c9ce83dd57c42, 0xf8d581ff77416d13ced979b5fb026804d7810a96eec8b120db861fc12557823, 0x5f937f49cdbdf28aa43421adffb0425b82a2e1a94381a9e46c8b18c7522b61e0, 0x294730027c69aa181230cae919b9a259ed8a7d234f1c48bddd6861326f38aaea, 0x291ad96b78e84cd21535cc003fafb80846bb9c7ac62de97b35436c68296a08af, 0x41588d42f2a05ee5e1ff00fba4f1004da9fc04fc1eb3c1190e74ba9121b7fd65, 0x269a68928cc9826baf93f7237d16ed0eb3859c6da6c6e4b0ce11c1f7bfac7ec8, 0x3198cc11dee61c71cb0fb1c5152d6f7fbfc465cd39f07b7c9e44f10c5be1479f, 0x5b4997a0d9d6d0bd805fc70c86e403ac15c5ffe8ef975bd8fdc1f00c03403add, 0x1b5c55e012edd56677aaaeadab82469412961015428f72d475f844b8f2eb3405, 0x18b3f7810e77496fd4a51143a191a626ece51321d3dffbd1f61ec1faca93ed4f, 0x231048f187deb8d18becedd06cce9cb6e67dd4876d4e96d571b51a4b2ca05e36, 0x94f68af05617819e1e193af0b79f493db48365d278c98d32b0e9a5e930a3674, 0x5bd597d822848e45b368a0b47aa5f86983602e2f8e17c60b6559be8b23237957, 0x1a10f83ec2afe1fee2e7b9eb890cfb6dadf0c9c0c16fca7f7d3255a5ac6d04f, 0x3ab12fcad131dea1cabb4f5470baf3d2aa37bba5f6d6308ab0cfaddd746be437],
    [0x19c308bd25b13848eef068e557794c72f62a247271c6bf1c38e38e38aaaaaaab, 0x1f7eb1c0cbe9d01c4c385df1b5a02e69f6c3e9609c2fa81368e85421620fe1a4, 0x87b2c59908094b3ae64cb1cff8ed87ac07ff8595d04f5c14df69bd41d5b4098, 0x56daf49eb963b0215e7f1b4a24f93b23268c5b06a02d39b89a0f9adab5eec390, 0x224f7eb3596892953a86e16cdf031150b4cef4077af60b914f7d9dd89912d7b9, 0x59f7095c023766bfa45c3726a09fdba5e87c6ac1d6b4b2fd9b32da86a52e7448, 0x2d28ac618c0b6d53ffef8c927123b52925bac069b4068ed083f3598492dc79a9, 0x1ce82ef765f9d80ec00436c943222559bb4b0e01a2f994cb8b175ddd4feaaae5, 0x52b3e6990949e8165d41c3b1f0f4d17c8d62a01f3e7284e589ee746deac92c51, 0xa5a308b02770f4e33ad0f329a79ec547cd300e212d452eebe31a63881da722a, 0x1f9b051246dac128c19959d69db344d8732bf934c27e76bcb355ba394a002b81, 0x504f80ec58b4da0b56c2e083aba2b706574b9cfe6eb971cb9a6dd6bd7aba6ec4, 0x39ad6c901e21550bea6771659d0143418a857ba1c1ec3d188c02b70a91488ea7, 0x3cd2ff6a534a1a18a663d38e75ac25e40debd8b4a16ee409b5b071d8379557e, 0x43e3b825479c413d3a2f5c1131969c2c990109ecc43f08e4cc85d1585d975eb0, 0x262f28df5b6e4b68a55efbafe97099887a93fd5b95b3a039ceef095e0dfee3d8, 0x41acf713ad8bb46ddbd36300bc033309bd89562ff7817aad8ef88d57e73bc535],
    [0x19c308bd25b13848eef068e557794c72f62a247271c6bf1c38e38e38aaaaaaab, 0xed3082043dbe54e26825fbdb2e93e40addfb96928e081f4b31152d20eb0f5a1, 0x5e5fef0f4b4f7b07f7844e02b22f358333387d462900d7d5a3180bab821b1040, 0x9c09c16fee44ad2818a8dec9e1f1038b85fe3de93c75a99f94e8682ab36978b, 0x53c25294402ef360417e33cfb651ce368e42e8e7b1e88465493c7cf293f39cfc, 0x5842c430490756fe59bd7d1ed49f062a06d9b8586368dcbc7911edfc353299c9, 0x2275e78084109263ab7837f236ed4ccf86e7fc405a59b5a6d8f76e00b072467f, 0x525ed46b1d31217e7762e928ac4748eef174c2a48b09b10dfd6ab475319fa273, 0x16bf41ec7ad823b5becd0fc1d208eaf6f80093725c96013fa39054d86890fe7d, 0xeae6befd21a53d0271177dff6cc199c9077a88df84790159d1821f282fd50b5, 0x3c8074b5cea3127d1332ddb1b6d5c847b4ab6b9497fb8b9e8962ed474f543059, 0x6ff2147777c85ade76e0906ebcb54af9448c6dd983a1a00e03154b98710212ff, 0x14e4153ff0c1d58f8fbdfc23e16897b57743b9bdafa548ec62d984cfbcb481c6, 0x2a992af7188fe4bfb230028d064d73117d551d24c3094d2e96d5419d68a10131, 0x10b24d5083e65b290fd57c13f02727cb1261a1c795b05a7a9a3adc6a5033f50b, 0x6239c8d351bd6addc211872f2f013a01d38d4b45b66c14cd841393438b40d56a, 0x3048d29829890f8dad8cbcb0b889a23ba64a643752cc1fd7b99e81b1d29d4bd],
    [0x19c308bd25b13848eef068e557794c72f62a247271c6bf1c38e38e38aaaaaaab, 0x4c4f5ea4d854c490cb284c4e6189ae6db5391778376a890343bec25cd2221ef7, 0x651f9554fcb052a09c872b5727f57282673e8e67afd010b774b3f94b19b937c, 0x47aefc014519336b2e94f6ee0a65266652101ef6a4394346c536e9eda1f310b1, 0x10bc2888710bdd1559d6e747ba340c10b0001535c46656fcf096f5f9b97eeb2a, 0x5624159ebf8f1938c8f9b379614f4e67fc59faa0e8b0a8aa16d7699f8c160eb0, 0x15e613403bf7b6cf8a6250286d7cbbf3cdf1b5cdad70a68d3772104b1e7756e8, 0xe652df5abd9be3b0b0a986b0efbea329ac706f8dde6ef9c45365d190cb3394b, 0x2f5736b961e263f4dfcf6dc41d3f620833b80c8daad539b88e6df8bdcb6f4998, 0x333c8babbbdb87f9351ba2f4d81485a3e5c2b37805085c6594d7ecd677517282, 0x1acef9947ebfc03eddc37089e7220bef0910192c9b2dc3085fe5c47a2e74e776, 0x46609a28341b9f156f5c6c6890c332e43678fff97e4dc63d3c9c0c6e109b0c50, 0xd4577b9bfafbf88f3461ef3923c4bfbff2514a3805610475cdb17edf6e7c27, 0xb3b6ff1c748504c9355dec31b9c5a6b77433dbfa6f6e81cdf32d5439537cb81, 0x5c1dc85ac5c360c78fd0731fec0261dbe87e474f78f334281ab4086929de9e31, 0x6e77567731544e0e2b39934b352224e598eaa2274ac583862f53fdb0d3da894a, 0x1811a75f91bebd4ce2d14f678697d794d5bd824318d46a6b3d7dd7ac40e2f8e6],
    [0x19c308bd25b13848eef068e557794c72f62a247271c6bf1c38e38e38aaaaaaab, 0x37258dc810a38a313e9f1df3835761391b3472e5a52fa78a96d0d4e228d338b2, 0x567a96495216f0a3a5cecaba1d44e5866dc2cdf3baa434f0f579f69d6bdbec26, 0x5dc15dc8215211a5bfb77ab886ebd673f3a1561c96c32e84bcce7fc1f870b095, 0x3ee1ad7a53488df8ab6f7bf1ba4db851d72bcbc71438219ff23aa8b7a1dd50c9, 0x38c48cea7756f7c2d506852dd41e309ef074af62278efd9d2ba5efeab430ca24, 0x33c737f3d7b830e91d09374f74c464744ad66701c46ec9e2c9af02566dc95aff, 0x1f80ec015b2852abd7af0852e7f45c4dc919d2a273c8c2958ae10e24d61d6902, 0x39f4fb3d7871eaf05f5f3fd37ba1e36b2d57f5263d73fd6d176ab093783d1f22, 0x1f14df1e1630f46c00bf9507519d2955982cea5392e03ae246c7f1821ab7e659, 0x6d9c2e00ef55c05735838bea59820e63d5e061d3b5781ed8e304e8bfb4c2d892, 0x5f8b4148482fbc4eaeff34cceeb66dab1337d6226981c813a003298dbf9bac1d, 0x731aafe12b6d3c7bbcb88f5ad1b933fe009ef250d6e580cdc817995120760f8d, 0x42dd44eb2f2c5c6be652e3e191a267e42b577bb3b60a4bc52966e5ba37d05fbe, 0x11ab1fd7a23a918aa3f095e08579196550c174fb11823ef966ee55e1982495a9, 0x49c5a7eb641f847ebe7314bbbf8443d3eef3e24e8606c255d610dc4acc307a95, 0x3096da50ede5a2a7429b351b906fe55f9b11dbe83f99345ad4bb864e5ea343fb],
    [0x19c308bd25b13848eef068e557794c72f62a247271c6bf1c38e38e38aaaaaaab, 0x4597a8d0e2570003bc62e528f4ea754540b0f248933d8f36f70f58edae2efd20, 0xbc8f080d4791b02cbdecdefd74874283b492832f869b7629a004acd6663cb4b, 0x4e15a5cffb9b2aa87af2d74f90ad92f3a59c64feea27a4448c7a011df9dd09ef, 0x20b5a7dd58ff4367622018eb9c5ac3e4e83a51a63c7c9a8eaaa24f6fd99a9e93, 0x13bc9a07786514d860935bc57b4c5dface7b723710bcdd1374d1688e8478c4b9, 0x36cccbe2a0a3a2d4829f6f91e408baeaed682d547cfca933fe07b1c3da0ec50, 0x4b73f84ee3d1af5f16851b6d85befdf670f9fb53241f389951069d671e023b1c, 0x7191f662085b61c4e48d7cecab6ccac6a8709a5d821817564abd984897dcc19a, 0x73abc1c8a64e503365fc9a8318ebafb718b6c804bb4ee5b54cb3956cb5f695a6, 0x3fae38fcaa95ab3965a0523fedab0647c1af4586ff74394b556b915c5029890f, 0x47983ddd99029d961fcdd9e876f3dbbb1101048288d3ef097fd011d7acedd510, 0x24d005780f10d56ab1f2203ac94f6ae1b7211a0124307c997f0b473d26380642, 0x64f0c9c180cbd8fca7b48028d0226a2bff2f2a3236bfc281a22a6f8a8de93915, 0x46629def94f21010b4e55659e7b598dc2823f36b78f161f2e5d3f617492a9f5c, 0x43a05f11a29f074cbbc3d897dddadce83c12d141024ecb633af436b34d3f564b, 0x28da0f45d692d11642f622bc863cd4893bbc9fbf5359bf4611f5320e5c7ab255],
    [0x19c308bd25b13848eef068e557794c72f62a247271c6bf1c38e38e38aaaaaaab, 0x1cde1c65b1ff96f50253bf720e2134d9e76aacfec2396635419625c0ed514aba, 0x1b2a2fecdd106891c39119e4204ad4b83ebfe1ea7c51d3eb64c71ab21bc54817, 0x2f85a7231198c086bae1839ef15b0998bab1ef2289d55d24fdcecfddbd91bc54, 0x47a1fb8345bdf3979eab5d530524b108afc34d64b6077216ef2db54577d2d158, 0x1b9e73778d97cf641d63d4d162ed46d55df954e6c1e317e16ea14b4b23c5095f, 0x319f772bd082258db3f627c512bbf615846ba4918d16ddbfa2cc08d1b3cace1e, 0x6882f34408ca51e230366e04aa6a9e4567d9b6bd1ac07111e9d4d72eac3432ff, 0x5c847bc237ffc65e2d1c072538273d03e310dcea24ba6fdc329f89d93ebc0a7c, 0x22df8dc0a04bf5e345a79edd0580d78435990320f5e047dfc382fd97208959b7, 0x1201cca244d801b287ecf6da23c50e0c1f0a9a35feb4789779fc0d5112833d4a, 0x34fdbd2bb2fb17054e4af13adb2e3c88ae6a665c136e84c0a3732ceb768e0d6f, 0x3ccd331b3d9cc87a37b5757c2ebc8bb5415383c4a9f6dcdb121cc56c73f920ce, 0x33ec941e2f1dd409aa7d1a74b4d9db81b85ecfb60c52cc5db4dd1705cd13a6e8, 0x59fdedc41c89d0d12d415bb018d27856bff8237e8d176d355479dba94b446b51, 0x2b7a78746020851410a3ef0d959b0f7640c8c1597a27a2501f04f43e85626eca, 0x2cf2a76d5c631cf1bb2d899e8eb0630527e4b38c8538c6be497af71a9ff1301a],
    [0x19c308bd25b13848eef068e557794c72f62a247271c6bf1c38e38e38aaaaaaab, 0x2c1aa1ec477c298926cb165974b2dd3bb3a9b966b590df260ef2bb20993fc955, 0x65d2ef7a766d599e097e20b7190a008537581887b6ef5ebd45d355bcbec49b18, 0x6fa7ada274f568a28c9b713d4b7eff6ff71c748ca9e2ac8c4484cd37f016f70, 0x147261fd561fc5766914bc592577c09de6d4a2d2877648cf89ae7e3076cfb475, 0x52a0cc9b2bb1089b81cff2f2434d4ffc45f9aa3a23ba4af9d98fd976f86e3e2f, 0x3a48c4e7c554698d52616ee04a64718f2ad4af353d2d84dc2e0745cf2f947267, 0x6f89e5e0846fa649dcb0139733d0c0a7680a88b6bed655406c1e8f1e161e6c66, 0x5ca169ff2e649c41ef9f3642eb8f10b3b26323d264f015f9e353ba1c01f85622, 0x5dadf133df9389d65f3f131a68b11e85d3fa9a454f5015ec122e300d87536df7, 0x426956fe39a68e7631bd0f48f2df2951256f1efffcc8b83b464982d1a8953cf, 0x36939485265de38f936c947ca93f830aed73bfd6ed132acc78fdba0baa42f755, 0x2d4cbcd33b58b840633107343bce85977ca6474a6a3f58a939db76cb060a0bf6, 0x547c7b26a2de837afb0580fce6a1c87022b25a82204fb4a03977c417835900fa, 0x38e252937ba61def04b088190214f5994b68b10608e19dbfd60dc16ec151f377, 0x2b66e8c53aef17ad62a3f5233aea3dba2d07caad99ed93b916d13f7c173183c3, 0x443be96d580c65a75f7c667c3d72f5ff01e6d3c3c90b5d1aa053022885782fbf],
    [0x19c308bd25b13848eef068e557794c72f62a247271c6bf1c38e38e38aaaaaaab, 0x5ef26715938d10bad2bd323d0ff66e91fd94ad9c46b52c1bc60e6fe44c7ff288, 0x510e1fbea92db2576559ae0433c127ec1cc83a405976ee996d921d10efb634d9, 0x5186cc6b657f297aff09a4caf566168e8a075250e2ee716def873d4aa60e7c2a, 0x4eaac9b5c5635ef301ce691dd304b3a287a7e66fd010f4ae5db787dd93a71aee, 0x1cb4340b640f66431bb124e60badeb64417b5fb551b3a2a536debedf95a482a1, 0x64ce4c6009d74c2c65290f921420fcab36da15ce9c688f272ff0761ae16552e7, 0x3997e918b8e19d4da35dbdbd5cafe67ccbeee22ec15b8932475a2ab93e8e66f, 0x5501e8829afad98fc4cbbf3d9af0fdeabf14875d15cb4c86c89a85a016168d18, 0x61226defe843f07dabc4fbd3e92b6bb6f48084260949342bf187081df8b4d628, 0x11ae6c86426dda288200fc4e700804aee6d0f43678cde2a8bd5b5022e9e9561d, 0x27136f872fa0ef15644ce9f977370153822c60c9196e01e5cbd46f3a5f01d0d2, 0x62f948edc5e83150d0b41dafa65c07c66359c2bc9c04b1a9c644ce6e33d03b3a, 0x2f79c304aa941698d619e5c659c7b6d07e5f3036935c208051bb759d01966144, 0x423384228c16906563b8efc35df410981d3390de7e06c9da637f857d37bbcfdd, 0x5decba010c4d37ebe23e469fd757e501fc8147fd9a0c0d80359bdfbba80e1e5b, 0x13e1951fb17a2e2116c304edb7b829b5a2f584a9a08c1a220bc30fc54e91e81e],
    [0x19c308bd25b13848eef068e557794c72f62a247271c6bf1c38e38e38aaaaaaab, 0xe48c1ce276c4e4a89cce73f65241f7d9eee4069f8354bf3887651aac9377d19, 0x48765822acbf56598ee204a485a1f5f90a4199746991dc9329c7874bc9abe659, 0x6f8dc6d945a09232bb2d11b4fb4ec75461040d075232e453a281ba00567bebe4, 0x34740e7142da795310ad14e82b0a9b6e7f8a6f4cf05b596d2c17e6e9242c7f51, 0x3458a18d9e1ed7b5590ace311e1d5275455b9dcd19cabb999d13d695e1330ed9, 0x67edce21fdf2b6eec76dd5b8e5d3de9e075b10a4baccfacfd84cc7db090f71c3, 0x237e4d58b218bdaf4c9b0f4ee0003b65882b1fa720d833d53ee86045833e7179, 0x49f986060c986fdcda79f22756fc1e3ad5e550b4b2454dac874da2356ee014ee, 0x5c1fc14c67f2c645365a973fe375bfca80de8cd189b9306f1475a9c04d1d7ed3, 0x3fe6c0efa76c03b7f8082546b9d2b969e00c02d2ec79710f545726ad7240ca04, 0x61a2124aeb47b28069d5a166cac57810bfa64009d304a100bc96b1674f7109b5, 0x14fa1eb5645e3cd868f39a906e6db88a17bc40ef5c107466759fefe45b578eec, 0x6dd076dd02d72a34622de06fcc263f974cb97abcb1c417ab8fac40e126366637, 0x5f331be0f3047f5b051b7889453fd61937a7f3bb971d53cb8dd7ee3dcf3853c1, 0x6c0532b05e51a352c6257caaf7fa850aefd37cade134680bd878edcba8e5e13f, 0x2ddf29f6f3b34267eaa8ccd8b20ad315755f1ae29d2ab34c06170af65361b0a3],
    [0x19c308bd25b13848eef068e557794c72f62a247271c6bf1c38e38e38aaaaaaab, 0x58870ab9d2c544f158bf9e9d31df9e934d7adda49e2cc6ba998bc7250b31b555, 0x1c928e322c6715a79a385d5e0d74965d304b6c518f42cf565140ae061de179ad, 0x43c553239a4d028db07e5b81852363d9f082b9e42c39d67ef6ed31a7452ebcfc, 0x1e236d0040a3af8b03a86086bfe5b0adef6bbbf3a7b5ba5d652b7f06886941fd, 0x6b5e27e1f47686f418f5d4e78f726a2af94fa3ab552ca9b4b5f27f45326dec68, 0x36261282617088a8974a3409a2a98771b9022976c3e0364dfc40e6c608f5527a, 0x3aa9e573b87eff075e1af43c1a25d74297b7dade6a21f2b229368503660f7a03, 0x78f15cc763ae231f3304885e0ef690cc7df2aa219266a71c1033fdb5f195f14, 0x172165e8044b56ef19cca321dab5ba91c3e2b982ece16effa52f31f88ec49ecb, 0x3424e0c0c0c8cf541474521d63e5cea6e0018d0207760a40a602affe72aabae9, 0x407af13709d3d1f89bb22bd841a0123042d45dca88bb833a021ba50acb0cb08, 0x219f705818ca834af9d5a975fa768bb55c0a1e876f59bef92a929d470666f9fd, 0x65077871f90a45ee986998ca534fd96777691a111aea890eeccb1a264fae2f17, 0x3460b53f4d4322043e68e91cc97e4c12d702be5401f879b4a30ed957a9b504b9, 0x1b420dbf7a6a0c99f593d9920e0bdf506c17839f124e86a6b9386f08b1dd840e, 0x3e739292153431e727b899165f917179b75ca2a95dc2a91f1fb1429ffa989588],
    [0x19c308bd25b13848eef068e557794c72f62a247271c6bf1c38e38e38aaaaaaab, 0x1b8e72ad9d8af0c3d169194fbdcbfb491695a5fed2105cf0f5ae12bf7a99dce0, 0xb9e8ed2532d2174b2a6e0ea7452547e3739cf36ff1de9489787fab6bf8b2736, 0x6509d02322acd88cbed076a5dd599f209b3cfacbd85b90a9c12fcaae69612be1, 0x1f13e809f0e23b24ed568fc6c41426a7b409db22fa1abe21de34e04db47ccb0b, 0x224f925fd42c4f0451b6f9fbe140a1767a5cf3f1a12217a8a7852ced32ff3254, 0x47e9cc909928c00b9bccb1572492fdddc7b333ce7c2fc5f62d450058bc7077a9, 0x46b1cf39392b89959bd3d963b7c7c9cbc9cdd948e1a1621ee756fd896f50778a, 0x5d11e3732ddca487e9d669ad585751c088525f856ab8c2cd3cdc835addcc5934, 0x447524579d92c0dce4dc81d4fe7b8884308484fe042521f6412b61d113eb83e4, 0x8f3aaf5a44cb84eb2ccfe0f095472874cddcae753d9a2d4e133abbde08117a5, 0x1a2f8eee70a4107775eec600d1d0c50feb810d8260e0b6d2c8ee739bd882ab61, 0xf02685e4e6bf4f9e8990f2acb19ff2343b68ff0b40deb1b9139f4d9231c1383, 0x5792f1975d6ac28c81a32d5c8dd911deb379542cebd5cffc63a49ffc7a2ec902, 0x2d9caa83dd4607c74ced5caeaf28e0cfe83bd649b9a80ce521c0efe01a02d761, 0x4186cb52cc4e33ce355eab52eb5c66e1ca29dbb9d44689dae5a273fb6ca54d1f, 0x4d5b870da0ed7dbf8413c7130f3cc90eb403b174e9f9bb34672e729371e9d102],
    [0x19c308bd25b13848eef068e557794c72f62a247271c6bf1c38e38e38aaaaaaab, 0x16bb7a889e7661fe35b82a56e53877695979b26db9164098fc5e8a243ff283f8, 0x3432e8d5b57b13e0782a40cb1f9b5ba7923f034d028a685ba32af6d26e6ab460, 0x52b50b700d9530c97076103b04275ad21765672686bb8c0fc8265b951f527f3a, 0x3659872554394ffcc8a224296c2a26bce8df96c7aeecd5deb9ba2f6d8dafc0b3, 0x38bb60d5c5f47218492c28480a81bb4a68b21a775a24ef76f3a7caf2898dc2e1, 0x2ee65b7bb5fcc85d1b1222a7b631580cac91d1eb600d2a00611fa537f674a571, 0x1681c7b2ae71c83fe475fdf8277b7e4e836f8210a1af49b64eea0b721d0c4946, 0x1044d325464bc16c335991aba8ab4772db62a6e717427d7831ab870f0f8cc7e9, 0x13b9844780d3513d8c35a1f0f78afb03e5e9ea64798042468fa57f3084ef10fe, 0x49b73e82d3d67374398839d91c4ad6210ed4ecf3479ed02547545ed757876ace, 0x5e47ae024e09ed9029b2db6f51581e176084a0065e459dee257f02d85fd52625, 0x6e673b402e49715665c56a87b174cd594d15d57c48de9154348b3f460042935b, 0x2fbf0007bad2ae54c8e2522e83c39cabf1c19ada2597be77893f34a94fd6f886, 0x27f164c241042fa092b90409b91f8168beb44ac8ac986a88b7a2676cef6dd7df, 0x34a04ea11c10164c052b369b7dff9785ea7a67462b7778a3298ec0c34ea80cb5, 0x35c4ce7bdb3959b4ef1eb34357e4bb6953a1f3ffb414980c404ea008ba3f173d],
    [0x19c308bd25b13848eef068e557794c72f62a247271c6bf1c38e38e38aaaaaaab, 0x102cdd19beaa0a43ca17155eb14f59e789b7d237066c98b83232a213a7eea4ae, 0x66aa4e1b184ef1dcd5614ea04b697c463cf1a67d99328b46126ea34aa88acef9, 0xff9b3e75eead5e176e193da1ce4ee0974f22c5e38f83b9756ea49460c5ccb8c, 0x33f140f14214b58716c879f4e3242d901144a7510b67921530d6a6cf214872be, 0x50b4518477dba0b76c52e0aa82176cab8ea74f37eb3d48ccb6698bbea1900666, 0x10b055b1c555ebc99e396b6193ff920c1a7c142f78c0c5602a9c5123429669fe, 0x6ce0f37c528162ed190c5cfef6c35740a37ca9af7cb0216d1e3b55c55244a680, 0x38a2ab2e78fc00c96b323f0c0176af4e925ad43415813df575b528f132ad3077, 0x1ef3173996a7c7267118e3f5d8e5a029f7d021adc73c458769112e31ee68d303, 0x9400bf836a7ba86bfded344dde74dd1398a970226cacae17003a492dfdf7db8, 0x11ba4598340f02a8abfbd120141634703f6c1130d7d5946b6f9a2eb37989cc2f, 0xbb7d969eeecb0d4b2dc39f71c189cf1115f90cb2cc5432c82e339f3a6543b9c, 0x36e23f26b6ab572f21c5a7ccf4a49f3d556549add87a7e68e1efb1122d3a8d3, 0x6d6832eabf5291433760c69d0a5d5d78c898d4bbdc5c8dc8ff08842a722aafb8, 0x444b59c16c5b9eacf324e8c0fe6c51c92d695306719d7cb096c2a709f239f136, 0x19afc8c26f2da995d25044350ceb023fc0438a05855ed905f8dc7c18bbe8c5aa],
    [0x19c308bd25b13848eef068e557794c72f62a247271c6bf1c38e38e38aaaaaaab, 0x46ffa3c644b36979ca4ae7222af7d75d02fbddeeb33dc7b3dfb7d59a13494bb, 0x1b6b31abb4dbbb7189b7c0c24d7cf22af774c37fd8d78fbcdee66c0bf6ae9b99, 0x702abba5807e0cf074d9991933d9adecf289aaf5c89c048f88f4be6ba0e035d0, 0x53a9f30c19fbcfe36b41fb771f6113260bde06f81a2297a1870e8320e39e8259, 0xb4818142b525e55ac8ff17fa3ac564b9e3c54670b529f191b65fb38c0fd4e5b, 0x4119ca023db0aca71f38c395e8de2d6bee2b733eda87a617ba35212b19bf55d8, 0x6294eba942c0a6151868966043f25a286637d068de7d47c079347c312fed34f3, 0x6ee45ef745751f8ba9711c701d9ece96176c69076a5b6d7378902c1d8cf6b531, 0x810744d7f8e44e273f4f041bfc38781bddb30b454e4dd8dafecbb13d44be86a, 0x327618f5fcd7bdffb2d781bebffb01bf909e911d52375786439a7743c89182a5, 0xa45d3534515afb87228c865a1bfcd0def2045046548d46f4e273b54c1c931be, 0x37ea6abeb9ffca62894c6550fa4b68bc0883c7aec06629fbc433b16ff9f7565e, 0x65b793d3d1775c1d0454faefacb1175368e3f3ed0e2bd90a2df5301ea2d16719, 0x440c58b6ad2a01bd7e6684d212ebce352a7a1a5520db2c847859d7c3446fc13a, 0x27214000c2ad0747b5342c3063e95cad0ac810e467c4ba8693701edfd9393336, 0x5838d1f58d8c955e8f8580c89eac70d0390d4d3415e7d9139b85afa1e0cf7b9b],
    [0x19c308bd25b13848eef068e557794c72f62a247271c6bf1c38e38e38aaaaaaab, 0x6194fc9ecfb3072731d60233e78de519148d48289d9c1753cfdb05a8429fbe1, 0x72da25821d94a3e16d875952b9f98aedf6fb7141ed22de0046bc93a0eeb01785, 0x4e72c1696da33624c0c8ee56207983db79a4b2d462fb972b253a122d7a02e2c0, 0x3a94ed19cb974e950398cdcf41a3cc61f26ace2824e37960223a0d14809b2e02, 0x6b95897814f35fb94bebc887e1a9415b333297c15691ba53baea72dc9a4989d4, 0x7603cd4771abb731d319abc456b392fe4a917e164683d65bb9ae37e70faaf77, 0x11be8d77469eecffa2c6c284b000e8769a5c80eb32a95f0e8980f6d1e6a0ea48, 0x52ddd3f0df7094b9e52315108003321354ce44c81163e50430437d2c3c67fc37, 0x2502de37361e3d23ceb349414dd2ccecbce50deea147ce5e02d4c70ae9f45a03, 0x70dd40f5c819d32f9a4844160e31eeb3f70d55885f6b34d3edd6a53c986f09a8, 0x461b87f8830b75558f73ba5f6d47b283a3f0391988c0daf5e5f73c9fb402416b, 0x31845946384bf5dc225be1cc0a20d78cb5431b634ced6dce3f86bd775d4e2268, 0x75f09e50a212e3d4a1db62b6da68f7545c2f79c4bd1e901b5da313310ce6e94, 0x4b514ee56e2881d7ca0b970962ac72eac1c7e76e9c0aea23214c301748e7d02f, 0x33853c21ded2ea7b0f1592f699aacb4b4713f6f1eba0f8590921cd58a77b2e2e, 0x2d1441d3a715e1c4ac3d300a6bc31f024e1c783d5f06385aba5c2101132f6616],
    [0x19c308bd25b13848eef068e557794c72f62a247271c6bf1c38e38e38aaaaaaab, 0x3ce1f2748954d90ee334b8d4ecdf5019cd985a5436cd3aeaa797c0bb73354597, 0xafed6be074ee96b0481f14d6cdca1153ae62022ff4ada0494891051b4816708, 0x44d037fc339b1f4a5da4e0707b27f92fdfda9d40984206962f38e69ce0a8a685, 0x200f6255c155f291fa71ce065690c5921840e6cb0fa5f6d4968ac180201a0730, 0xc9671f93a80a939fafc48db3f8a8678e510ae565cb85bcccc9916edf8318941, 0x686f0049eca4ace38d3e3a9cd72efba83681c6be95770a293a0963abb79bd60f, 0x495d20d8dccb5eb0c3defe47474b27c25c58c756f38ed33b84025cf40e59773f, 0x4fa7c424a5883ce576bd4165ebe3a70428c7551dd811439d3701115c86dba249, 0x495c89018c75b0cbc19cf5a04b1f89ac4d157abe7f4e69e754186d1f7f203cd7, 0x4d7ce49dde53bc478ca7b70c2e706013e815d7f2d6f2b6231285d4518beb7e8, 0x372bb7543377ad93e70e6a1ba91a608f7075bb5dcf39206c58abf203df9cbfb4, 0xe766e6ba8df43eac654f6535ba8e0f6c935025c27d1870af7641024d90f33e4, 0x64d85a0ac1154e6fbdee6e4fad38385f28a0bda2c97040e946d6c2412aa453ff, 0x43bdec9ae8a03de0f0ba28ccfbd645329200ab71e88b9ec28ffb6214cade5fb2, 0x35435aad90a847f479b1692000334690d197a5a2ab9ff8c871e2def453133c84, 0x19393b7d6a085a1f6bc06d37fc863861f8f260bcba00a07bb091cd2f3ad13b00],
    [0x19c308bd25b13848eef068e557794c72f62a247271c6bf1c38e38e38aaaaaaab, 0x3457418a858517cf765cc22465805eacdbccedb621f7e44a2e214f651b729787, 0x5615eb1a58a1df2b1e56f1d313e52171a66889df9f596e207880bde663b4d072, 0xf3d52b778236925be29d556fa915df857f761c9fdcfa5a78a6244d26e60e319, 0x17e1de91163baadeba468ccdd7122178132247aa735817484b7f9a33db02f2d, 0x6adb02be3cef668fe668a060de972968d1abefe53ddc7e9f33c834fbf02bed80, 0x31af7b95f88d81dba30ca2ca9d9077c88284d96accf8412b6bcd524bb9d7f4cb, 0x2c04d71363eb68dc0595c6fd952a2ea3eb893373f487911bdbb81bc46cd4d01b, 0x3ecaf167f6fffcb8971dcf824e90d086a44f42073805001b1c210c638051fdb7, 0x7335bd86c05099421eb045d19e5ca807d6024e383d60387af90e84a7aeb0f373, 0x1f45044588f7fd0011921b5f7775ae6e1a5a01cc4fe260b98f5775cb539cda18, 0x1f7f4ccf0c722ea1f2b13074ef6e87c03b859c678a6935cd4d8d95e50981a9b0, 0x25a4a72f985d33fb55be74671a252d936c5b6d055b45556de4fe9606a321c711, 0x42eda9177abbfd4e21a5ad3de26640bf96d591dc54dd8050125c85e4c7dacf07, 0x42509c534c385b430edad9c0ffa61cd8140b6c03831357ddd1e05614d8a7c0a0, 0x36a9273d572489bb69fb464400a7d5f82ddc5204841e612f710f24c5690e7d64, 0x204be4e1f0c4aa39ec1364b7afd90d844f6a02a61b912359d417f8d012fa8a8a],
    [0x19c308bd25b13848eef068e557794c72f62a247271c6bf1c38e38e38aaaaaaab, 0x33fc6f23f3a1c08d071bbc8569c12c97e8a10a7244e10970a68dbf5f74762ac7, 0x296166a1475b3b11caed9dc64027e3f5e38fbc53ffada12b8e2d43fe2282f28c, 0x5f8f30944ff6d9dc7fa124880e2dac3f04f57e6be113cd8bcfd874806591c0bb, 0x494e1793fd3bd933477825124724c05643cd26d566898df2aab5bf9d8cd86078, 0x8d2df5b2c548f682a0370db6ec25cb3390b40458283756863306eca97a5890a, 0x16f48ba04a98b7c7d3621575010adf36f75e9601072dab6c21ec7e51886bba2, 0x15fbf85bdcdb0bbed05498108abc8a6ab443494588290576e25f3ff293fe865f, 0x66eb848e718be2d02689cd7538f196155792336e309eae54dae75f0bf1472d3, 0x169948811ed6ad16b4ae992d5f92196ba18ca358c39de5101512dede61d75c09, 0x40946418060821ab25a8f5c87020e9ac4bf4324f4d81f5f8d0f7032b56d2ede6, 0x5eb0ee1946626c842a81cd9eb3064341cced3295c572fb46f276adc243b83013, 0x293de25357579ca19cc48453fdd0132529d71bfe6957e4af2c8b68ed48d170de, 0x218a3ccdc2f5bc044ff985ec854a40675a4276167b3ef655aec739ca2af2f17, 0x249107422ab1ed5aa8892e10dd52b11fbe848e843ac3ae8ca1f38ae59725382b, 0x1a5f03fae733cee6739dedc451e2851e5c3b0d1e4f31befcfe3783536f8464aa, 0x6fb304696817a34b3b51137c3e2d5ed478c519bc9ec34a678259c0d572ad894c],
    [0x19c308bd25b13848eef068e557794c72f62a247271c6bf1c38e38e38aaaaaaab, 0x3562f071414ee2a2a4468a22b6bdc0345a039e5a440efce9d82a122aa78ec892, 0x1adb85481321d8a53c9974e42b4c935513a9b5b5aa9b257e6456194835df8cb6, 0x466f96f9ac75603f0801ce347f2b5dcebd9a6ea312a8f3027065b74afbd190d6, 0x293757274cbfbbf00e25237cbbad892309814df18265eed4c0e175b49c261f39, 0xa77fcaf11d86aaac7677d538bbe5fa05c6b14da87d68fa40b168a34d082c182, 0x5abde86ad4190c436b0976881b165bcf4c85a57c59bbde18dc53c21b459d67b, 0x260ea210392c37c0fbfcb8121c63bd68db11e864f3f2425fec4d3b466f3e9106, 0x5779f1ab105b80ec1cfabf239d5f7bf5720ec6daa7953ea4e8ddcc73d991d1ed, 0x268517cb094c677f848f1adbe03ae05dba06069cacbf6f2b0d3fc23674fc9910, 0x40754fbf7c4c30920a48e8a7862428b788818c47b104199bd18f9544883825d5, 0x2b6abcc740b5492abb08b9dd7d31f5926e4dc936980fd8065aacedf1b848b1b5, 0x1f721e75f984bd1eff41266b51b6c8ba6005db1a5a654ebab196cc717f46c507, 0x529a6a53584ebc421d81b7e13d2cbe9a74547a26fdbee6f9809465394b53f3f2, 0x6caa4769858f62bd223c11ecacf66b7fe4c254f6727854586d206e3334a48321, 0x50ec1cb75290dbe30bb7855767b86aa00ca767cddacb6fd16c7d805bd0245657, 0x3089d8d9c6864e6d5de6f9f4db85167261cd15e469136e391fff8fa1ded5eb1d],
    [0x19c308bd25b13848eef068e557794c72f62a247271c6bf1c38e38e38aaaaaaab, 0x3a59370529953f1951bf5a59b61166e75757cf27ea72c329667c1bd22cf25fd5, 0x4c521d37a83f956515bc827e6d1b670e8adb73a101533307e50b4311bc8d1274, 0x97e15edb4c57213d65bae682a55861a2bffe9bca5b9bc3fef3cd92debfa47ad, 0x5f05444d96c2ebe9c83c3076782baf471919a89b384d497ae72f129e57776b23, 0x6ed9740e4d7f91f72b7ee84e89666000ff975a70f67cfdb2c735490c17b7b1fd, 0x6d47ac7ebe3b2bd3815b3cbd4cec748a423a816ce67a67eb3acd1fb1417d9d86, 0x639489f48f6553d7b9c028cc22e941fb59f1c2a033407734592a44fa22a58986, 0x9d830558779e4c129d6521b5b97ad7b1e124a19f5e58b3a8419d01c65e31bf3, 0x315338a5c561502a1806e753a0421cf6d81176a6c919e145c176f4269c0e8cdc, 0x51d95ed4589cb281a2f2f49e2c7bb2c4113e5eaeaa0b4cb972135bcf1e847789, 0x5cd5b897818be9fab7ebc3f781ddd04c9369996df0de51c7501d005996bfcd9b, 0xb362a1cc01208bb40afc9514fb83037a8e3b1a421b5fa6ac2319a0693a37943, 0x4e5e2bd64c5b824c87423fbb1bdb0138935b58de2c1c812ac71bcfd866647f41, 0x519143a654fcfe31f3b71941f0fef394b15cc0235f32716efc18657feb83dfc6, 0x3adf5181f34fd9e892a5d2f40d76655ba5a3bf903771e4b513adbbf9ad212e7b, 0x1e680d2c3e747d061284253caf6dbf838366d4be07d3d9695b8bddf268b0382b],
    [0x19c308bd25b13848eef068e557794c72f62a247271c6bf1c38e38e38aaaaaaab, 0x192f6d73c676d3f5f60e4b0b932738ac011c5b33a09edad6a3c60c1acf5acdde, 0x11438258dd0960e259b7816c5258ac9a14ad3b898b7aecedd4c66b7401ba3e7f, 0x5bfe4ddce39b9f2688164791b762a0dc3b977fb5694b8e7747201db1d1df2a21, 0x3e8ee2076a10334de65b34843f446c05625492dd13ef83ea671c079d6935889e, 0x2db2e55782066d145f4d7e9f49f9982d67d37750f56ca1a3aa9c5abdf662f729, 0x342185211672f23c6926edecf544fb554256c14c7e407acf8d43b71f2ef20250, 0x9310330aeade5867cd85d4e5dc44c2127b2b043543908dffcd71a10c2b88fe1, 0x72789cca393aeb0412908edf11b70d8f62352f447947c1ff2162cbf29c16ce10, 0xd81ac12cbfa1f63b4ffc312d835e3fff12a5423670416f928a5b3c9adcdece6, 0x3333680ad7e5de4fd4d564fe38c7bec6e7da315e2a278e4c4f35be2318eb4061, 0x2e7774141b56a06f638136cc8b098bd3dbd1edeaa93f491c2b388a15a4a68e2a, 0x6c522e711da491cb2835f8c178f0494c10789a2cb1c31f7f47d7bb0c560f551, 0xc45106b25cf0d0ad06583f2336358e608953dc27c680a9be8b8d4799b7ba574, 0x649513a165c977e2a0ce865c949a550bca1b2b951b4c7f68eeb51b639c8720a1, 0x4b4477ebe55c90ba13df2a83ce230c329460103e3f11fd0f2c3da83b959d0e8f, 0x7fe5b65bbc8109b2127dae18b92e2d36c64b5ffd06688bffdb523dcaf6c68ca],
    [0x19c308bd25b13848eef068e557794c72f62a247271c6bf1c38e38e38aaaaaaab, 0x9d0c53eaef1a91feb1e83e5d5d48940a18af66d17f9fc14c8750222eb660000, 0x243748423ef7fed3078be2fd6a6d46fcf96a8a8ea6128e24992308dcf17fa2ea, 0x3c7c3c78a744626ca815983decc7417bd3b496c3a278aaf30d7904406d90fffc, 0x724afcb26ec8fbbe558dbbc01cd325343bd4fff5fdc94641418d6c8be80a5266, 0x719fc9636145482551c2218f51a9c44a0b40b21cf2e1604725b40e187d896266, 0x21c1a86e4cbc9db4534811f7d71f300bfc050d58ac9d6fefcd964635664000f, 0x18d16d18922c8825cea8da696bde70b8eb80eff451dab1206130c1d492168ebe, 0x204c5b7fb7224f9093e53bcbab6c0ce3c6aad4727f50c87d0e7a288de08e22c2, 0x4899af30f451078bd763292764ad94b496acb67948dfe3c2a2bc983c0def1d0e, 0x46cf3293b18ed65ff97b39d7a3385fbab3f971f8ef0001f10ef4eead203e5f37, 0xc3be345bbd1ee2fbaee9cdb15a9cbc9ff9949fbb55b5ac9851dbfb460675457, 0x4023d04f498437ab7231da848b8fbce9e72ce041e0e69feb7810eb7a92493038, 0xbf5ed075336ecde6172649592955cb2fc335d34e549dd3bd7943b04613143ba, 0x55cb25ebfe18514c57416b344ab049b0ad776c470b69c0f3b5c8861a1443683a, 0x1762da141e55d79caa7b5e56976b5fbb6531e5a56d5f29a03a742ca041ec57d0, 0x3bbf3c8dbbddca0cf6665783ba5a632be64c2dc4b4e7851955f8a19dd0effe5e],
    [0x19c308bd25b13848eef068e557794c72f62a247271c6bf1c38e38e38aaaaaaab, 0x2a719b0060376cb18250af60b0924b662f45eb310b6a1948000, 0x1513efe09333ca253309e01962e2e979d03dc9c5e6533b76af0aa1ec4f3b5746, 0x544fbf824cd02e9a232c1f1975635c0de3651f527391f7f575b9ad7a427cdd18, 0x33e24e7791a45284c1f692dc54001e876c5c0c53df7110c16dac2462ff8d9bc, 0x358160eb4e4ac8cbdf89d36cc635919492ad818f67edb05741046e470654589e, 0x2c967b6ec13abd4185c54613a905b182fb03188b1539eca2db536dcbd42249d9, 0x592cf6dd827a04e80696e8f38e6d1e2c375048afbe0dfafaa54ff123f81653b2, 0x66d073f65a31254a89c4e28def80951a3e82462f176b4792b3e57a3f59114d94, 0x5d7fa15488044427d5fc2706f6339dbef08b5351f722ab9dea6dbae72cca96c9, 0x4ae23781d041c78edeb2cad7572405a2739f6314241ee29abef8c0739b7dccdc, 0x23b09e8bcebe54a895fe4e9e128eb48b30f8bf491a3e9d13f0362e306c6dab09, 0x4ad45e6a8849f6720de297e1416ef2ba23030e6621cfda319f94fc9c0ee10841, 0x6e0438da21b23c7b11a52e82499af1f04cb48cc9a34236955f07b64969388aa9, 0x3de28c5d0b3c1e7f01c4008e1c2b89845aec1ab3b824159fe582784abd766d97, 0x46e97af43caa6cf1696cb241d4d56785fa03648376df40479ccdf62d1517fe50, 0x1a87bd57de8009b216c81fe17c4080083302c24a63dadda851efa9506758bd05],
    [0x19c308bd25b13848eef068e557794c72f62a247271c6bf1c38e38e38aaaaaaab, 0xb7888c17437a76e2915c75987c6bd0aba65800, 0x3f3bcfa1b99bb8b304ab30045a369c6f94fa6fb4ad91630f9899487f2dfd95d2, 0x3f3bcfa1b99bb8b304ab300488a1e76c36f1b26a9a6f6822b9b47893f130a9d2, 0x19f1273bc8dd6c98366d9d8b43a88e262faac342994a52fcc1e19d4028a53de0, 0x592cf6dd8279254b3b18cd90987d7b1839ea4810eeb2e3d6251e56e7abbcdbb2, 0x3e6c4667db54cd4e42f7c3178654433e44fbb8c87172fd5b317dd7dbf1a83763, 0x6217dc5a0f85429f8dce7bb84495703e28f3375c0403cc7298edf322e802f377, 0x58a6ad217a2d23919095a5334689468058e0046d6c82d322398308e53df54c3d, 0x2a7f69491292bc8ac19706adfcdd8dc8bd8f1c8d5792bc32a3f01b9813c0f807, 0x1cd18dfb7e10d8957208a6943a985af74b0eb2b0769b262d8286a56f4c556877, 0x51eb34d05b00c4e831207bdf368645b715d8767a8f61ba62bfdcf2f08a839a6f, 0x59ca69fbfdf2f2657577e06cdc8842403d8c4e95f712fcc60f3d1c904999ead6, 0x415d4c776f10c458deae1b882f71413572218a9a80aadd96477434c9422b03cf, 0x1afced5a8dc173e56c92bad528072ced55c7b95eb234c86dec16747b385dc9ee, 0x4041c4c071194f5bd33094ab939e800ae1314a56409e94266ca914ad8d63a394, 0x30832391769719018d22bc169d9d74a5dbca0134c49d3a15ba904c9dbbb2efbd],
    [0x19c308bd25b13848eef068e557794c72f62a247271c6bf1c38e38e38aaaaaaab, 0x319a15c360ff89a229a6480200, 0x5ed9b7729669950c8700c80693846aed15f83e2cf3f464c22f66243f724cf9bb, 0x6963af62e003892a5d1d50074e93217934dafc8a4307b5dd9a36458e2930065e, 0x6a33389cbe4a748f1ed0bcf3abbba5ab5e9d8315990438ce2f6416666f96c84d, 0x6b02c1d69c915ff3e08429e008e429dd88606fd5ef122543e064911b76a74b3c, 0x1ac0b075a72457fcf8210a7802390a776217efdf4487a9885774fdf09e85c74f, 0x2c967b6ec13c92a59d8c66c803b466c6f8d2d942a1255338b5cddce9c0908ed9, 0x63246fd2201d4612e2d4cc7171a635d889a47c3eab19d06c67b602761fbce9c1, 0x417e27163ac82b8f613410daeb2ac4fefb3d3955112328242efd5dae87becf43, 0x9f9f589fa3ffa2e3ae53ee5437a9bbfe5ce0144b93b7b70a046035a4480ee89, 0x470b0e1edb4de333d1d6ef120ae1c819dd8319a46dacd3f2d8e2497e3039cc4c, 0x64ecae15fe0befd654f13e2daee0f7c6cb170a338ef84f6738ef09bb9943a044, 0x5edd8238b42750c20b6a558efb65d8437929ab58d2cd3b0fcac72f11a52b17bb, 0x6abf0d04393ec71a1f3fa6bb5134ffd8b7ae88d8910c92bb5707e26a33fc479f, 0x3498a126a18022746a5ee31eeb609c20ab480e9efcaa735c860c33eb594d3dfd, 0x5c3f36f2cafdff123d74cc9642a6212f74f5ddeb56db11c558d5fdefe7bb820],
    [0x19c308bd25b13848eef068e557794c72f62a247271c6bf1c38e38e38aaaaaaab, 0xd6e9ef2e61560, 0x6963af62e003892a5d1d50074e93217934daf23145cff68ab99648acd08f059e, 0xa89f7f04999f41dd61c8800bb0eb68c1ee2b1d1ba2e6574489e0593f6924e33, 0x59fc801760c010affccc3a7c649151c01b683d1270c73ae0c32d038a7881bbe1, 0x2c967b6ec13c92a59d8c66c803b466c6f8d2c8ed7626c0ebf6e7b4a3a95ea8f9, 0x592cf6dd8279254b3b18cd900768cd8df1a591daec4d81d7cf5a3911d3df9bf2, 0x8eae57c8d0c1d5452b5ae2800bdae27cb5d5b62b13af36266df744f06b487a9, 0x71d48063086d7661892d369536a263bfba7a7f734ec34fe7d8e398be7fc9f66d, 0x4fdc9b17280bc8154b1c78608f2b39cac7e90a95fa4e83a449f49f4944444445, 0x5fad22e7a0128a3cad0a33fe3ff7a5d80752c612dcb0e1326ddbb06822222223, 0x101ff1c5071e1a6e52ec2d679e26d454f0ad7c5afc5fd6b5f10f9d6da7d27d28, 0x4dfe638163463b30d85ad736cdefffaeb4eebab33e76526869cd3241eebeebf, 0x7099efffd5b59aad0a4f649e641e44e3021f8036a9d97d4a6f03c6d4cf982cb7, 0x1d5fb134ae7dd988d3beb0712d6d3d15ba78c7abc2d8e7b6ab4a81758bf99e36, 0x18d51fc60d0f364696ddf14282564b55a7f6f6164333d40d56a162c647fa879c, 0x713e5f5cf2e786b84463f73d7413b3ace54367b505097ea12b33029f4de3b8c5],
    [0x19c308bd25b13848eef068e557794c72f62a247271c6bf1c38e38e38aaaaaaab, 0x172f87dd6eb9190e70a52b34ceb9f80110bf8733cccc78cc9999999966666675, 0x4be15f8edebadda39f33d338760388bdab2d004c6fb47411f6b0df6a66666610, 0x5ed9b7729669950c8700c80693846aed15f8405f8ba19116745d174500000123, 0x1d2f4c2341f91a2b3d3b513d19b2970ddf6013cea11e0541fc6b699f13b138ca, 0x592cf6dd8279254b3b18cd900768cd8df1a591daec4d81d7d89d89d7d89d8cba, 0x3749f5376a7e4f71340004919e319e29ecdc69ca4ad3e4fb95a95a952f42f1fb, 0x6ccb5622b8c6ff6b24421981a2a3b318b10c8e1a72359949e46e46e37e07e171, 0x23687114300a747475952471a896ca167a4d08f8cec46c06a5116024c32f7e17, 0x22c74bcc2615a595a8f7c0cf3616f401991f4acdb332b532e66666661999999a, 0x6963af62e003892a5d1d50074e93217934daf23145cff68aba2e8ba200000001, 0x6a44840c3b7b082cd99fb0b208d45b5a376dd6581553d4546aaaaaa9c0000001, 0x6217dc5a0f85429f8dce7bb808267bb5bd02ed3d9d88753a3b13b13a3b13b13c, 0x4a867dda0877876545809d29bd0c9d27fef9e96fa4913b23edb6db6d12492493, 0x3dd414f92742ed7bd70dc88cd1efeaad81febddf77769776eeeeeeee66666667, 0x6caeccddf703a573b0063a878907ba84fe81c9c2cffe763f0fffffff10000001, 0x1b46fa31af7059b6a2a432d4b6f8e788c868db4bffff9d2cf0f0f0f0b4b4b4b5]]

/-- the inverse of the matrix (not in the code) -/
def mInv9 : List (List Nat) := [
    [0x13d063784, 0x73eda753299d7d483339d80809a1d80553bda402fffe5bfeffffffed2ad9ad61, 0x6bce67adb0, 0x73eda753299d7d483339d80809a1d80553bda402fffe5bfefffffe97a5511261, 0x2d59e7ec248, 0x73eda753299d7d483339d80809a1d80553bda402fffe5bfefffffc6ecb08dfe1, 0x2bb5bce8790, 0x73eda753299d7d483339d80809a1d80553bda402fffe5bfefffffed3465e5831, 0x3718b62fca],
    [0x73eda753299d7d483339d80809a1d80553bda402fffe5bfeffffffed2ad9ad61, 0x103622d6c00, 0x73eda753299d7d483339d80809a1d80553bda402fffe5bfefffff9d1d764b741, 0x14bb62b51800, 0x73eda753299d7d483339d80809a1d80553bda402fffe5bfeffffd5e25f802741, 0x35364a262400, 0x73eda753299d7d483339d80809a1d80553bda402fffe5bfeffffd7049ee60e91, 0x11a181fad000, 0x73eda753299d7d483339d80809a1d80553bda402fffe5bfefffffcbe6e228331],
    [0x6bce67adb0, 0x73eda753299d7d483339d80809a1d80553bda402fffe5bfefffff9d1d764b741, 0x25e9e1a19340, 0x73eda753299d7d483339d80809a1d80553bda402fffe5bfeffff7ff9e4e1bf01, 0x1055fc2086f60, 0x73eda753299d7d483339d80809a1d80553bda402fffe5bfefffeb44089ba3791, 0x100796ecc89c0, 0x73eda753299d7d483339d80809a1d80553bda402fffe5bfeffff9143a9f75601, 0x147d308cf8b8],
    [0x73eda753299d7d483339d80809a1d80553bda402fffe5bfefffffe97a5511261, 0x14bb62b51800, 0x73eda753299d7d483339d80809a1d80553bda402fffe5bfeffff7ff9e4e1bf01, 0x1b27def6e7000, 0x73eda753299d7d483339d80809a1d80553bda402fffe5bfefffc84f2bbfa8451, 0x46f6168f9c800, 0x73eda753299d7d483339d80809a1d80553bda402fffe5bfefffc8f2cd3a3cf01, 0x17d77e5042000, 0x73eda753299d7d483339d80809a1d80553bda402fffe5bfeffffb9374101bc11],
    [0x2d59e7ec248, 0x73eda753299d7d483339d80809a1d80553bda402fffe5bfeffffd5e25f802741, 0x1055fc2086f60, 0x73eda753299d7d483339d80809a1d80553bda402fffe5bfefffc84f2bbfa8451, 0x72a82aa296810, 0x73eda753299d7d483339d80809a1d80553bda402fffe5bfefff6d654dd586741, 0x72162b6e0bd20, 0x73eda753299d7d483339d80809a1d80553bda402fffe5bfefffce741d8136d81, 0x93757891b834],
    [0x73eda753299d7d483339d80809a1d80553bda402fffe5bfefffffc6ecb08dfe1, 0x35364a262400, 0x73eda753299d7d483339d80809a1d80553bda402fffe5bfefffeb44089ba3791, 0x46f6168f9c800, 0x73eda753299d7d483339d80809a1d80553bda402fffe5bfefff6d654dd586741, 0xbc0874c93cc00, 0x73eda753299d7d483339d80809a1d80553bda402fffe5bfefff6d444f61226c1, 0x3fe23b7b27000, 0x73eda753299d7d483339d80809a1d80553bda402fffe5bfeffff416f117ad2f1],
    [0x2bb5bce8790, 0x73eda753299d7d483339d80809a1d80553bda402fffe5bfeffffd7049ee60e91, 0x100796ecc89c0, 0x73eda753299d7d483339d80809a1d80553bda402fffe5bfefffc8f2cd3a3cf01, 0x72162b6e0bd20, 0x73eda753299d7d483339d80809a1d80553bda402fffe5bfefff6d444f61226c1, 0x72ca82e14a140, 0x73eda753299d7d483339d80809a1d80553bda402fffe5bfefffcde8bb8b12e01, 0x95ba3b68a368],
    [0x73eda753299d7d483339d80809a1d80553bda402fffe5bfefffffed3465e5831, 0x11a181fad000, 0x73eda753299d7d483339d80809a1d80553bda402fffe5bfeffff9143a9f75601, 0x17d77e5042000, 0x73eda753299d7d483339d80809a1d80553bda402fffe5bfefffce741d8136d81, 0x3fe23b7b27000, 0x73eda753299d7d483339d80809a1d80553bda402fffe5bfefffcde8bb8b12e01, 0x15e72a561c000, 0x73eda753299d7d483339d80809a1d80553bda402fffe5bfeffffbe66b5361ed1],
    [0x3718b62fca, 0x73eda753299d7d483339d80809a1d80553bda402fffe5bfefffffcbe6e228331, 0x147d308cf8b8, 0x73eda753299d7d483339d80809a1d80553bda402fffe5bfeffffb9374101bc11, 0x93757891b834, 0x73eda753299d7d483339d80809a1d80553bda402fffe5bfeffff416f117ad2f1, 0x95ba3b68a368, 0x73eda753299d7d483339d80809a1d80553bda402fffe5bfeffffbe66b5361ed1, 0xc4c8e05da39]]

/-- the tables have the sizes that the code reads and load without a panic -/
theorem sized9 : (opt9.sized 8 4 57 && opt9.below blsMod) = true := by decide +kernel

theorem ok9 : opt9.check blsMod 8 4 57 (opt9.plainC blsMod 8 (opt9.plainM 8)) (opt9.plainM 8) = true := by decide +kernel

theorem inv9 : invOk blsMod mInv9 8 opt9.m = true := by decide +kernel

end Verif.Poseidon.Bls
