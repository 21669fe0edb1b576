import Verif.Poseidon.Check
import Verif.Poseidon.Primes

/-!
# Poseidon over BLS12-381, 4 inputs (t = 5): the tables, copied verbatim, and their checks
-/
namespace Verif.Poseidon.Bls

set_option maxRecDepth 1000000

/-- starky/src/poseidon_bls12381_constants_opt.rs: C L253-350, M L2220-2256, P L4342-4378, S L7249-7754 -/
def opt5 : Table where
  cF := [
    [0x45c919736a0e5f2ef32c4c7d0a338eb1fed3d9e317b7580921072285c7e215ca, 0x3c8b831256b341d54b67d50f8fc3809ba701dafba05b89a271029f031d96cabc, 0x167a20b0469ec356267695fc87eaa379ab9d3e169b61fc293bb22da2a5c0c551, 0x1f348b984797e77b386e89b40070a25b747fbdacb45d3546f0809f5d872a5f50, 0x57abe8ace6aec57e0419933c4fdca23639b91a0f25a44a6db1a8231e0c24a5dc],
    [0x725ed083647390443e9c6d2deb5ad1984682815793b63dc1587b6496f954ec63, 0x46b34fe7354a836bd183c2864b55d3350c0c5ff6c84ded0d1d982da929ee4643, 0x54b744adc1d8924979eb183f12b0b07bf5457a506c1e06ed19ca946aef694f31, 0x479e391f7cadc94fa4560417ff00272fd9e4fdaef9e223818b3ac00ead0386a8, 0x71e0c16a24a1def0dde8d5b59ea2758cbbffc507a21b5913dc989ee7d2046bf9],
    [0x34ef25d73df4d39fde5e2352e869b0894974c203a7fb7f8fa7f0f9cd3d028bd4, 0x25361317c23af195c5b8fa0a2e2557e55fca7e179679da52ac08ef7416df6516, 0x4f5d5733667f3099077938e04f26d6e29cb6ce4fd04c048bc2505e55706eb0b, 0x4935a905fa3a0ef2d5203f199e4dd55fdfe17ed6125d55c88cdb85f40d3de035, 0x5d7c7220dcce409ac6e6f612089936eb2a98763ce00648fa8c430e9b312429d7],
    [0x2a5df9509c031fe994610292d33219e163c4d0806ca06a3891667c5e67da2e02, 0x354f2ac62a1bf37365ea1c13a0cf26c9499e80986c39eebd7780c47a2d28757d, 0x111d4aca7859bb81dc99bc6080fd7cb7466a1170f369a90c12a9f08e1bc85719, 0x47c47a09bcc6f0b092388ed84b696c7196d5cb7b44e1789bf4b9842e688120c6, 0x3b600bc0af54460c0311e293f29208417105e3a81a975ab936a5a27c0fd511b4],
    [0x2c1c692558b67ba18b946154f96486af75170b3d702ad6746d419a1cba47b042, 0x685e1701897c826e136b5fbfac5c321f1733a6430400b3f6d129874a311a67f5, 0x1294ec4ef71534ea842bda34be59c50d29a5bff9b5832cd40da7e0c449472475, 0x1f141d038ab5b4ff945c632b728aa17345ac34f1a4bb71c65a60e8a02dc541eb, 0x3e6989a765f1d7007031dcb447458c91fa5024a1d10b807a676219c92394099f]]
  cP := [0x3101352874fbf4ba21d2853ebc79d4ffddb3b84a28642ffcfcbd036d13a91c54, 0x3ba4cd9a3f9c6d372b0bec3484817315155fa3ee0a14904a1341798d344a2a3e, 0x39aaa8f499cb8a89532c5d9e43fafaeccd776dd0fe9773b9ac3c4451c9cd2429, 0x554de984c38c25efdae7b5ccb981c1d568efd129582ed777af66781ec39993ae, 0x61e7e4f376ebf839703d2594b0869a403c79832a25852b0382b62afdb4999779, 0x2b721b1c620f1c9b5f0f94a6632e95e5ffad518cb4bb74b68218047aa5e089c, 0xb1d860ef7dfaf5614616abd1aab9034a1565bd75941f5ec392875db0c0bb79c, 0x1f2c5aca10027c81085f12fef53fc981d3595a335086125b6c5e350c4d6e8fb5, 0x3d87a0830a3d94394f4b786d928d69d3f0689b6cae03ec7375e362e953802748, 0x5515b1570e5996fc5e56be9644f26919a9c2b3ca6f52fdbc9f06a1a583aba117, 0x4f77e9da5abfd1c376868e5bd63a87648ffaf4874375fd4d7425527a513a4b53, 0x13969b7601cbc7b826d7d5f633716c1eb4afb37139a2cc24d02f9d71cbc9efdd, 0x3189fdb4f89d8c1f40aee797b273c9a6d22966960d7a3f8a6401a97bc53ccb17, 0x76bbda425fceadef3a404fba3ff33c3cbcf9f4216fa04758456206b42713d9b, 0x256085587b382f9bd36631e384072378c2dfc36be9a89738f05eda37cc9c04fe, 0x1d3415113b4be075a95f60e4c917eec1a54acf5ea11f75ed7d301ffbb2dc7185, 0x2ddcc85b096af995679c94263d6669bde0fbe750e0a8e41271d038810009825f, 0x45c9e70bf2e0a041b55a6e894331f673d0a010abda06812be8f0b67f7a13bbcf, 0x679f20e0bf8ca9f15ed9aaae2bf4d62a53b929d0d31a118adbfaf4b688aa9fcb, 0x2ed902ae93698c5a9c0791ce4808e6731c830a6e5a12afee8c0762ecc701b8c2, 0x5221c6fd4bcc5eccc13f7efe4a0479b4ea0addb3c8649ea067e60b9d102ecec3, 0x4e6370f5b7b3e3510b487dbde24be3f9905cfed0f1c311017b0aef6308908895, 0x1496a3e4cafd7c841663375fc647361ae1792086605ff8c36fc0c60e63c69d83, 0x614017861833d98b5f97bb3a11b2ced703d99d53ffefc17ee11ea610ee3152f6, 0x4837457e508d7ae3e892b2565db51115b3ca83729eeb856d76890525ea452204, 0x6d20fc7f9b721593b0f9ff77f7078074164ced6bf402835c8fbc529111916d4f, 0x460c7e7354dc596ebd66fe0f15488059734e47709746955ca254621710e5d040, 0x4dbd77879592a81ae10010f2833f0b3385fb86447fc582b9ef24b29eaf0de5c3, 0x60d94da22a339ce87bb069891d95031d0cd78433da2b4b9789ed2bc9848f71c3, 0x58ab0a06159369b8696153ecc2d121e8110c905e49a5bd661c30f9a85fe3b823, 0x2f8a345c9e7f74324b618a95b6756f90c90a4e7d45960ca153d03c6ef1d2a6ee, 0x6d228a45fc1613c6c29cec953a447a0faecb642c3421bc3280837fae731d68ff, 0x4a1d31cfb27e943d3ecec231b9e97f9c9151d7a0c0c965f0921619770075e61, 0x2d093e4652d3e69b85d60aed8765a6548a9f824a648e57f280fd92203ab6cc71, 0x47a2bb45cc8d4dd8e92f85aef513dd7279c9a67cb0c6912206b3d7a73debc4e8, 0x539b3709ffea4406d1df8ca84fe488fbe2b85733a43e5a6d10e58c675848444, 0x39c15e9c6a2f7eae13e9dad03c9e4c04a6cf9c874cea47f6ef056b2fb70098de, 0x66d617bef9e0f7c78c83058b2241cbe9942f57b4fc7c8171b84cad460425206b, 0x22adbaa4209bc318cd7649e012c4201c462a78f8b15747b88210b82732056e07, 0x6908fd82ad93709a87705b6cfa76bc6b1e8b13fba886a23b280a0df54ecc6eeb, 0x52f42d7e0a6d634eca6d674f32551c39b79cd8f9e45d4423609c5f30642a027f, 0x3f4d6e2e10a84c27e6bbe6d16e72a606c1707e6c69b3adfec16ccc456d2c26d7, 0xe1cbd0a60b81b9fa7fe7408ece6751b56cbffff784ea2697ec6c0f799dbaff5, 0x5e05abd0a361d9b462d72a07f8940336ebc0dde83409e989f5bf4bac5c0b1775, 0x37f3577df3ce04b642275ddd39261dd8966b4ba940f399870fc0aed70de08b20, 0x69d587422c1ce9bb4aad0b7bfd56430ea092b8977df1945a21f3d3545e8da0f8, 0x275c70103cf161f180fcd8a4d7874cf5013c87a5aff015266e44fa9b146323ae, 0x6bf5364990ebfb64c6128b15d12f576b4daba2d27780d73380d25726857f2db0, 0x28fe4c484cca226bd1c288177247d5aeebb6df4fb4c1f03258a1120b2c04b1a0, 0x507b7003ba9cdc264ece8f392b289f31378013905ac0d332f1693231fe142f3b, 0x32763ed26b29bacbedc60982358c94da6b23235996091cb265c853a3b70129b0, 0xd4ec896f171658002a204b8c04d073cbb09e3984cfff3c4c7fac6f9d5f41796, 0x342e22c49e88aedb47e30672131f9d7068a317fe2758f45ae2e3c930860f142e, 0x5f89b36713d0df0fcf1647f295c77a146b1e028ec0bfe412ea17a20c18194204, 0x4195f04a00753abdab1c632d65567bf0835f7ca3c94b566f356e468736c1e8c0, 0x24300473cbe1e96699590a7a8606fa6647be94ba3f6669d1a939a8910cf33868]
  cL := [
    [0x6aba79c7bbf1aa1cdeac51a32a4c4858ba3843b4c70849a75f67a41fb6f9b556, 0x3985c5d7c9df4f47f996b02204d463e4ff0ba52cda73c9dcb030c4606100b22a, 0x2aae1a73b24fd36cc995a1c0b7e1e4af3331a3041c5973436f2f893b0f630289, 0x6802fc43cf14c1de032356010514531b5a0d72994c6487c01945997373a99b6e, 0x4369992a9a3984f0ef2fd9af3282a58bfb06e4587d3b41f9093665119244c52b],
    [0x57c6beb9ee93f6ec225761b55aceec745b63bdd94f1e4639cb74095da2a9f043, 0x4a13d33079ab334028c25b6e8e9a1df0d8859ef17c99ba2cf8562011a9086c25, 0x53113dd5535bcdb3dce748783df21abc21061db8efbd6ab9edf51cde6390dea4, 0x5a8da923919a4057b3a0e0c2ce56e26ee1902803f2fbc8d82464374e613bedb3, 0x30c1d30749eaf1757f009e6f29738a6fae77f8e162a52d44e7d65a78e2295403],
    [0x3c31a0d17c2157ecc374d6c19e1636bd1c0e8d0a07867ea1a467635a4ca01ded, 0x53f797d7db93140cc917f1f1ff49c9b73cc16b9421b993359f1fdbd7dff53ca3, 0x1528ecadabbe747e3fdd0937ac2ddb5dd33cc26477609b4f336d7d32ad77181e, 0x37760958ccfc713f5d6849c715000dbe0d0ae0b98e722e1f61e8183697fefd0, 0x107d3b9de9f95ada46df77005c3abfdbee812882bbb35c09d296572c2af30e2d]]
  m := [
    [0x458e97984c2b4b2b51ef819e6c2de803323e959b66656a65cccccccc33333334, 0x609b60c54d5893118005895c0806deaf1b1e08ad2aa94ca9d555555480000001, 0x211f5460e751918257c7624b7077624aaa362edc49241a48db6db6db24924925, 0x656ff268c469cd9f2cd29d07086d9d04a945ef829ffe907f1fffffff20000001, 0x19c308bd25b13848eef068e557794c72f62a247271c6bf1c38e38e38aaaaaaab],
    [0x609b60c54d5893118005895c0806deaf1b1e08ad2aa94ca9d555555480000001, 0x211f5460e751918257c7624b7077624aaa362edc49241a48db6db6db24924925, 0x656ff268c469cd9f2cd29d07086d9d04a945ef829ffe907f1fffffff20000001, 0x19c308bd25b13848eef068e557794c72f62a247271c6bf1c38e38e38aaaaaaab, 0x22c74bcc2615a595a8f7c0cf3616f401991f4acdb332b532e66666661999999a],
    [0x211f5460e751918257c7624b7077624aaa362edc49241a48db6db6db24924925, 0x656ff268c469cd9f2cd29d07086d9d04a945ef829ffe907f1fffffff20000001, 0x19c308bd25b13848eef068e557794c72f62a247271c6bf1c38e38e38aaaaaaab, 0x22c74bcc2615a595a8f7c0cf3616f401991f4acdb332b532e66666661999999a, 0x6963af62e003892a5d1d50074e93217934daf23145cff68aba2e8ba200000001],
    [0x656ff268c469cd9f2cd29d07086d9d04a945ef829ffe907f1fffffff20000001, 0x19c308bd25b13848eef068e557794c72f62a247271c6bf1c38e38e38aaaaaaab, 0x22c74bcc2615a595a8f7c0cf3616f401991f4acdb332b532e66666661999999a, 0x6963af62e003892a5d1d50074e93217934daf23145cff68aba2e8ba200000001, 0x6a44840c3b7b082cd99fb0b208d45b5a376dd6581553d4546aaaaaa9c0000001],
    [0x19c308bd25b13848eef068e557794c72f62a247271c6bf1c38e38e38aaaaaaab, 0x22c74bcc2615a595a8f7c0cf3616f401991f4acdb332b532e66666661999999a, 0x6963af62e003892a5d1d50074e93217934daf23145cff68aba2e8ba200000001, 0x6a44840c3b7b082cd99fb0b208d45b5a376dd6581553d4546aaaaaa9c0000001, 0x6217dc5a0f85429f8dce7bb808267bb5bd02ed3d9d88753a3b13b13a3b13b13c]]
  p := [
    [0x458e97984c2b4b2b51ef819e6c2de803323e959b66656a65cccccccc33333334, 0x4f7a568d2f136a4330a0d0d95259681cb2197768a7cc4759c100462671a04e88, 0x3e5edae6fd1fa70acaf56b85e4621300ba0ef6ced28e26cead2a6b0acb7eafb9, 0x6b69bed9dd98b19b536db1ba89bb622f01efe9b804ce2b5b50418e5d3ae91972, 0x5925b1536e05188717225c857b7c7a55b4fb8ce62b397c16494581213a4f4675],
    [0x609b60c54d5893118005895c0806deaf1b1e08ad2aa94ca9d555555480000001, 0x3d045c2704892e213ab77bc1a9296aa37e6b7e311b9c090a11adbd5c34e2e626, 0x5782f4cda3a41ea9adc8d2809b1cbdc60397727f2da93005e737c67325956a97, 0x20d393b21f4e1f820bf5f2629b11e468608325f17049c9d576ecc6117cc1967c, 0xbcb5d2aacef80f658938433e0bdf530ee618a4db0a0322ad982a27f5fe53c85],
    [0x211f5460e751918257c7624b7077624aaa362edc49241a48db6db6db24924925, 0x5782f4cda3a41ea9adc8d2809b1cbdc60397727f2da93005e737c67325956a97, 0x6b54b14b70e35d4ac36330db80e734cfb9b34764d92ed9f481a5bdcbda6f6f9, 0x3da17e2ca7d85a7d1515c882873d13e9f39ab5c0f4d649b1f3f890fa5e6996a, 0x2bb32b216e0ca36b42d90b922f74194d63624682319ccecfd2b230006f84268a],
    [0x656ff268c469cd9f2cd29d07086d9d04a945ef829ffe907f1fffffff20000001, 0x20d393b21f4e1f820bf5f2629b11e468608325f17049c9d576ecc6117cc1967c, 0x3da17e2ca7d85a7d1515c882873d13e9f39ab5c0f4d649b1f3f890fa5e6996a, 0x4b9dad480da5c0592df350ce863ae17511dfc32dcd2047ab2dc24d487b629069, 0x4271e0c1b796577eab8dc181740992bf8ae7eccdd57d934c066d93b2352ded3d],
    [0x19c308bd25b13848eef068e557794c72f62a247271c6bf1c38e38e38aaaaaaab, 0xbcb5d2aacef80f658938433e0bdf530ee618a4db0a0322ad982a27f5fe53c85, 0x2bb32b216e0ca36b42d90b922f74194d63624682319ccecfd2b230006f84268a, 0x4271e0c1b796577eab8dc181740992bf8ae7eccdd57d934c066d93b2352ded3d, 0x6adaf570e3ae54731aae329e3e32fca188117cb697027faa7bcba54fa5543d20]]
  s := [
    [0x458e97984c2b4b2b51ef819e6c2de803323e959b66656a65cccccccc33333334, 0x18a18e9e2b73eb891838d0c518c14e4b715d8027951518cb29645d4b7b04b314, 0x21015182d571120f6195ab70c7b89236f7e64250afbbbe3eae89948268bd1440, 0x382f85393da58f31667b048587f1b683f08cf1e9360db3c7075748cc56484c1d, 0x50f6c55dd4ae8ee0693729c38e1d1dfa7eb5a5fd3f3b30598a5c3bba7ff4ca30, 0x4025681db3f3af1999e45d28f6b8dccb32de44b406770a750bfb94484d5c7896, 0x538d147e6e21d7a6a8accd94165fc125f6a540d0f350f2fbeb24d5ef7e065476, 0x51f046303f3bd18fdc80be1108d6a4ba0209bd08ce0efb0039dcc0cd8a764b44, 0x1e253d18dc604d7510184b3e302c01a899c64b7803fd157491a7c2f628d82ff4],
    [0x458e97984c2b4b2b51ef819e6c2de803323e959b66656a65cccccccc33333334, 0x416925e0b742ecde910910126677a5c347047a5f1f9dc0c0e929b86a42a96083, 0x250e4564b01167ed16ead7e54e842516f378fd64c92b205f29906fb97a96b325, 0x19dad68bc4c7533a1c1af0ba283748605ffe5df2d71de6209b65d0c591d3400d, 0x334d037c9b59cd083b9f213b453765833c4078f7a5af3b990c76c134ec496cb8, 0x4fcf75535a50179325c7a9ec95b9c3ff53e592fa67c86717c0e0f62337747a85, 0x47afb74660984f3a53882013b0dc777aa2922eb8fe6501eab8d38f576f29ee66, 0x335e8a42230001de7ed0688267b39f536e9afc214c88106ca12226ee8d9e51bc, 0x5919b499aeee68516d19e2d722c2ff8b0263a0ad37da5c3f9d8487b1f4af72c5],
    [0x458e97984c2b4b2b51ef819e6c2de803323e959b66656a65cccccccc33333334, 0x2cd7c4bb9eb5b556cfa5e77bcb0667d80df381bd5b910eeb5a568466e5dbee73, 0x567e8fe8da48fa6f682193365b10db133768c96cb9d4f4d0c34f2772c55476ca, 0x592589b3a8b3b00cba946f26bd5e887be8431cb65a379a82bd21d5e0328b5fe3, 0x66411493564cc7c454007f5151dc2c0ea477d8b3641fabea41614f9f5898eb1a, 0x289904b84aa354ab12483c31c44d88bafb484643e8b185c0846317a69ad6c2b1, 0x541f1b4e1731be75543320978425e356fd097a5e3f7ab3feae3f62d0443a1d53, 0x3c72b66e97cee053435bd936fcb30fba561997c2239ec6cd3e40c458ce83348a, 0x68898f33fab2889df02896f075c492b06629415094aa8c20adb314a7876f4dec],
    [0x458e97984c2b4b2b51ef819e6c2de803323e959b66656a65cccccccc33333334, 0x6401496dd9de9c8930ce582b649f7c4bdc448a5264d694ea798eb743d3c35edd, 0x5a12b99024431c239c36903171735cd8b7205e81e0805d86fb249f95f36b5146, 0x54f15a7ef847c29b3d2ed6c76bf46a2c4965b4d1ebbf780464d3255cf28718cb, 0x2f4e18be33a5e076501cd2ab9fa042a8fb6d28e54af3143c32ea68989da39d3, 0x634cd2bd21291b4a95651f31f17f5f4df7554591021b9dd2addd9f04d458da4f, 0x6d172268bd1fc247cb1ae1d2973ccc7c1959219e3b9f94b536005708354a2884, 0x6b2b09761f373a6373a1133c6739eec8ecb3f20da8973e542a887cb7cf85d830, 0x261f9cb3ae5c4fb8ed01161df1f129cb009be551f3a815df06d3633dcc395a9b],
    [0x458e97984c2b4b2b51ef819e6c2de803323e959b66656a65cccccccc33333334, 0xf7f76336022a50d42dc27c38223d7824f0d65d38a2f93ae5322e851a3475a0d, 0x426e4e8cc342914389c0c8a256628f59c32d76b32ac4adfa3b5aa45f0e04da7e, 0x10ab959d37aca5ebbf7726c975bdcd5f126893821be18c9711c3d07d49e868de, 0x51037876c393e15d0e342589e99b89c2299df1ea3280e08c79265e04dfb1299f, 0x63ae0e4e1964a7564d9f542f57ad02292e376e2cc6a82ea7fd191f8fb2684b57, 0x73b18cec3c185992a9b63f8186cfc96d8c6bb4765f2ef9f79f74faffc80d874e, 0x2fc2d87927fa28c04a7502f0f594888b9071fba1691da81560072ee990fe24b3, 0x26deeb229d70090803fa09b27e1fdb48578aa570d8b57c734260d06e746773e],
    [0x458e97984c2b4b2b51ef819e6c2de803323e959b66656a65cccccccc33333334, 0x298a7ccb7d4a232e0e95a1ff4e59ffcffbdc21a3fa1f71e4f447ad0e9becfe4a, 0x65181aa57641c33cdc430a883e5c41deb0bdc2eeafb237fce327f831204648d, 0x65b4500406360619c011745be48c532e5e81db850509398fd46b401f72d9f208, 0x5da167218056b4787eda6ec51cb304213de0ea9be661a5df99ac37c44c533567, 0x5cb2a53e5da396490c8503095e7897098109c76fbdd1183bf245c08de00da8c3, 0x56989487fcbb61ef628f8cbb292b6dee9372f6d456f6dc12a1a88a9a6a0f37c2, 0x24cda12b6605a65ed604756863a60c61d05e8fbaf3dffaf3ef68596b07cb2603, 0x4296e563cebd8e9c514247187e7bf30f5c5cf39dd02460bc0e31797957765e94],
    [0x458e97984c2b4b2b51ef819e6c2de803323e959b66656a65cccccccc33333334, 0x1e8fddfc801baa2f846a025bbde5a606b8b5e99933d367675a4b8e8e7198128d, 0x160f2fe324f322c18f22fdbdbb98442d76a14272db6d8c8490e67ebb933ac296, 0x6ca819e733bba88853fe67ec0d105e4bd7cc30742b87eac4475871d2b8be91d5, 0x3afeb4049b690d8a7357daab8ced48bcfb86452bfe2fa4a0e75693583ad6e98b, 0x59570b4edf02e156e9fbd0811d7fa2d9dd42597ec97ffe34dd77b314326570e1, 0x68e90e513215b19e7e1e841953d51c86c8f6aac22a4f9b465faadedca888577f, 0x48eeb20ad7e90cea96ff2104a487eb6d0905e375b38d72e94ac4a4f4e7b6e027, 0xbaca546f2cd44a911d0362fe2d520082c66e387779a0bf5b9d75450f4aab06c],
    [0x458e97984c2b4b2b51ef819e6c2de803323e959b66656a65cccccccc33333334, 0x3001695be99029b2acf1014a60c64278c2c4894909d2a2dafad278adf7dc8f89, 0x6fc2537fb128bc2a37ade844c22e0ce0b06a7cddbbbcc091c1a31761df0b50f6, 0x28208769130165881a8c63625ac2ecbb1907163321f67fd92e05325cdbd6b5b9, 0x250436a65a8685387b19e62fd28ece6fa91f55c5bc4644645f341e10e802c6ab, 0x3e0ef7c807738a92f744321725d01e1f1212948bb3598f8d7154e96bb059e494, 0x3a54b6060b421ae34ff89f315dfa5ed948d4f77ffc442a1446d4620a936f01e0, 0x3fbfb2928c0b26051572af8bfab892a44db2489e3fb1da24b31b5e587cce67ee, 0x58b7ea25d8edc0de40c896b76314aa8c24a7073a5fc2997515fd9514c339b385],
    [0x458e97984c2b4b2b51ef819e6c2de803323e959b66656a65cccccccc33333334, 0x1b3d6a0dc942af1cbe9c47183e974914bac1d05cd14cd957bfccdd79f2acf7f4, 0x5ff7cd557c059b0db5225574dba3c3cd726379421b35c034fd25a9ded05a2dd9, 0x6e6c44c19f9cb760be460201c9af3fe0b84e8a867aad852a7905da0f75bce769, 0x30cf4d25214acf4d69b1a61d7ae880e33045399ea4417a9dc9d5aaee487cd2d0, 0x66c990e1c07198e7ead12c331236354160753f4388d0cd62306a558590129e55, 0x6d8e10aebb8f68357bb23723591a6169717cd143e52fdb274ab226dec0b04084, 0x612326ab9323744458e0ea8cf05290ddad7e6a2481eb5ba07c7369cdbc62cdc4, 0x3b94534e978d31599c34881e508823545ef66993bae6a3b5a5132c9f0c676079],
    [0x458e97984c2b4b2b51ef819e6c2de803323e959b66656a65cccccccc33333334, 0x6c5852fc9d920fb9995c60a2ded3ade56db5e88e5aae37d9651b09fa1499296c, 0x3353ff5c613a1c56ea8501178d2543263101a9853b3aae0dbb9a982b8fedd8bd, 0x2057c0463ae36e09bb75df0416601d3d461527de646ebc267cc06c049da341f, 0x172ea4b418469f711fb6f860e44e3131be4feadfbedaba36794283cfa90f955, 0x2f2819eecf5c8b1643bc3aff678e68a8705ccd8e27c2307c6b85eb7b8268ccf2, 0x6298baead42132eefbeea0b00816930c3f84bee5313b54dfc4ee40de6b427fac, 0xc5d8d4f71b11eeb05bc0e8eb79ce5163ba2bf12859b534ed3db4f2f72602e2d, 0x5ed45b430e1f890bf4d36d7f1fc39d62e17dde77ece62c7a1ed4b111f79e5a29],
    [0x458e97984c2b4b2b51ef819e6c2de803323e959b66656a65cccccccc33333334, 0x5a35d2f42ce29572d51c131d79361cc0986de717b5dd148d0931cd6f1f08c75b, 0x23f95920d356b93778d04a2d95d59843e89e0f8d12b8e49e565038f1ad3d6fe5, 0x2cef7959ebfb31c1b3dc36c4af836870940760c9a32b763ea8902138897f0606, 0x530007a5e1217371c6b17326b6590dd094cf95baa534436155f136f290ac769f, 0x534e36d2226f990fdf6d0ade801fd45b59241dcb9795b2d40b2da3a7b7c6c8f0, 0x29f3ac1d07c1053e20411c9581ca804459142d2d3a15d4fd3e8813054917396f, 0x1b60e34a8ba554702ad89bcf2f68f3209f4c7b5358acb57f9f37a02b09a095af, 0x6306a5e822be714c46e545e6a1356767bb71332b9001ad9b40a25ab9b7af9df0],
    [0x458e97984c2b4b2b51ef819e6c2de803323e959b66656a65cccccccc33333334, 0x48dc9f1472e3e0172f40c3467501d51213658fd539e3b55fb00fa0a5a7c84b37, 0x8e6065d10723819b45494623748714b3735f3628ac4975b5a3aa800469667d1, 0x18905db6f47abee99c6ed4c670597419efe9c0f99b47248cdc21714ead32e18f, 0x3b2bfba54a347264802f95e0bcca64d7ef3eea64f43808a6250fed18a87c0842, 0x63bf91640381923a41f51da6fc8c3b48328e17495bc20fa554e31a20eedcce15, 0x4f051402e9847f1b4cd40d122f4f6d982e984f687cb15ba2e3c941a3eb697957, 0x4c841eb192e859b2e7deafd87814864c02ccdc5334f44b2082e96a3762da0793, 0x2d5a0fa9e38a49dda34dcaa45a32a1712fa4cb72686f6fb89eaca8f319c417f2],
    [0x458e97984c2b4b2b51ef819e6c2de803323e959b66656a65cccccccc33333334, 0x5d44540c1dec3b8cfc32eb9e14393ad53a67342bff8733e44e0142a246d0b579, 0x2901481f6fd105aacf631f0432760e98225c52f5beec3df11fb297177e495bf, 0x1768eb06350dc730d925f8d0a69d22a67da65ee866df8ed6b1e0239e08f10651, 0x6b57868f98cb29f991d9f7e7b8e6f3d1713bf43e60e8bd1f638bebeadcde1e5e, 0xbdd461f3bf6b0b43c5a60b2da7db624ae8adb54519fa1e1839736eb69f0f0c8, 0x733dd33fccac9fb6943e0e8eccb0d2ff530414f1f306599c6c74c2031f25b610, 0x55fa1b6d2aa76161dd27c5adf87ff67b2893884a8a2a5dbd52ccc423d1b94e5f, 0x6a1b46c4742ccfcd534323cc21b47795dcb49834f73450ece623d20597fc97a1],
    [0x458e97984c2b4b2b51ef819e6c2de803323e959b66656a65cccccccc33333334, 0x353f536b3c10250701b54c5fd089de0a7f2e95f2bc6100f91836edcdad56c243, 0x4b028b7934d639a094d60f75114fa283dfead9b20ad3714bb85d10ac22efaf5f, 0x33e77b214a2345e095a664e26245327b4c89aace9f7aecd84b666a760152973f, 0x3cf7eb4687cac8448a2d9031251e2cc37f80b3dfef2883ae60092e572d031fd, 0x76373a2a5b13afeeb11845ed1dfc2023d434f5f56358778f3f03e7f80a9ab8e, 0x27a3e0d130e9acccd280b47e4e8088ad73b03a224f169c42c5c1dbfcb0508a3d, 0x1bca0ee3a59afa888c48ce94aa89427fd756ce12d2fb4e04d222ab9fd0f3e526, 0x20b8c2f8cef7ba1ce4dbf1c0954389ab9818f868e8cf97b93b0f7527e9139aa1],
    [0x458e97984c2b4b2b51ef819e6c2de803323e959b66656a65cccccccc33333334, 0x56b802bc55e0b8feba67750499be96d9a55f2141b7e323e0542ad00266be816, 0x5217980fe7b88121c04b82983e3f3c23566b4596df5acf56f2cc1d54660ef307, 0x60800bc649225cd730038ec6736a2de68a024d85f81280c0d610c07cd67c67d8, 0x527ec1e3f3a2954c29cc5c57dd2cc44dce63b3e257a39b80f4299e518a5eff8, 0x7aa9a59c754bfbda1200862e1887e0fbfe0b8dbff21d8b8c73ec2dde5418c83, 0x462c9ef3af1a76ed468eb2e3fe7f2d12488b8a4973d6b77a27d85c7db7d37b03, 0x2ec011a33f2ee4a5e0d26d479d5c93617078b53c36f30dddb9cd325416fbcadc, 0x60b3e1490587a0b164aa7eb41d2af1bea5dc90c660b4b21ffdcc2d0708f12990],
    [0x458e97984c2b4b2b51ef819e6c2de803323e959b66656a65cccccccc33333334, 0x6a52594687b5d93e2b8c17ad6a5b18b530176865cb3e131865d25e016ba0de66, 0x62c8b2e500b3fdb36751062cf12422fd7d7fd7861a14731173d9e109a390aff1, 0x35f69cc5db20d3cf1cdede10c9ec6c7f533aea87092c28966a5d34380a8e92e4, 0x2b08a4c899ccc50477f4353bfa206a4047b4e4b6966923bcc1101bacac86c1da, 0x5479aecfb72b31bf2f6c8c86de22ebb1bd5879cdc6d48f53dab4c82f036d75b7, 0xfee92de7f9ecaa01128130d761f3f1c20879f61c16593648d0053b71d6aedca, 0x31404df06dda808fef1eb18e684539d3beb7eb4f1e2905fd8786f1e9bc8a5a79, 0x3cc27452e665a4fd60480a90e38d170617d9f5a385fad45add7e8f580ebc5d8c],
    [0x458e97984c2b4b2b51ef819e6c2de803323e959b66656a65cccccccc33333334, 0x57037e476d292cbdd3656cba1f0adbd8bc46f8bd78c8aceb2ae1ccd82c4a8cac, 0x36d406c74da1f63ea4192b88b4a7db54d900aab8777fb88ab209c4270bb67b9f, 0x1099ad3cde35e47f843475a15a6c6fe070630ec045d9248a0ec82c660c5cfea2, 0x45caad2264337d97b3f3521c9660b2bdd40312a13fffb0f6ac8c50b470c3a8af, 0x556647b4220b9283018655d425b1ba3da17b0bb106b9075bf361d5cf1c5ccb89, 0x34af2721e92849e22465735540ff9424669952c048f519996709f560806c9fea, 0x47dc520e2db454d2f1ad0567f0da3ee5a02b7aeed8898e98540016aed362634, 0x228b411309299485ac8a64ee5aa083429571eab9ebed829076f695c52b0e5753],
    [0x458e97984c2b4b2b51ef819e6c2de803323e959b66656a65cccccccc33333334, 0x2a6a2b7d5f6ae28160043e362df9d3479e7d65a564e7930373716ef9e92a5492, 0x4a81a87b02ebf026f2efd6b6289151baa66e809be3cf656d501ff54addd5202b, 0x4da474b99702b5728e5265d9f3c0c571d5472fc434f14ef45313b9a45c0bcac, 0x163f8c5f69d5d8944aef502705ee2dc0f423f9ca92d3a61c0a55413b3b3ccee5, 0x2c07e9cfbcd930352c5f12e5d8b1d56c694206fa590cd1550b27232d5c8a628f, 0x262229920e6e613b35b6d6413e7ce446f10008cc4a45e12059adb19dd26ed652, 0x14abf292a6b0651effc123ed6091faf89328b4cbd8f5e49c3a0af789c5e68a55, 0x59139c2257591f8a97a38e1ee0fe40ae346be124b7a4abce3d6a99782b72c9c],
    [0x458e97984c2b4b2b51ef819e6c2de803323e959b66656a65cccccccc33333334, 0x565c0616a850c6be36c670272ec48d92d72e16584a3115ba4c452431260a19f6, 0x47e2d0e1b0850a8b3fe2c92ae2b6fd875f65b975ed01cf07dd724011de256b08, 0x30a97e5c7324df7bf692c6d29acef5f7a95c3f973d4a56df978364f02387de0, 0x71b5bb9a3c9abd70f9f8d68171c31a0c7bdf44a63b55affe82fb5753efea422d, 0x5126257ec8fb78e9b3ce2f25130d54c268b6e2ba8aab55cc4965586b7a0bdd0, 0x27dfa469c0b76962ecb60ed51ccad360f52b27886e1fdbfc9453995fe06253de, 0x5f73948733d5e2511ad91d263ee463eeb0a65bebfaf6581c8a618ad60c24db05, 0x3b1bd91bb953effdbbef6a6a83ec89b7b8e23ad1b643917356d39adb456c94d5],
    [0x458e97984c2b4b2b51ef819e6c2de803323e959b66656a65cccccccc33333334, 0xb225882a64d97cc78c4a03c031655372653e7fbd9cf77008ad2758bfccb0925, 0x11e3aead83c272faf71c41745d0206d94118defafc15b848cfc90400bee9acbb, 0xb74c512994d4f3d238f8488e8e175db956bafa1c6a0a392ec23cc8fa24a1e8, 0x47684fd638077f0606dbaac25e3799bd9e8edc86d10ad811df6975e4ce5a928a, 0x4a4faf2a9af279a071c08cab13bafb7dd23633fb22b093e488ecf9e4b0d9a52f, 0x55f49ee07b359e639e6936f42f610e05382759b3739692f137e9e00782e1400a, 0x4d9b4827500d5ef3afa8b4eae7d8278c164eb709059b875425436fdf1d8e7f6a, 0x4f594d372e62ed3b585d61bebd6bfef5b9c7d28d822fe29c9e862a1cea2deec3],
    [0x458e97984c2b4b2b51ef819e6c2de803323e959b66656a65cccccccc33333334, 0x27b50691b3cc93c9b7cba3fcd5387914038369aefd98170bca417ab1353e9aff, 0x189bfef9c14405b647b6b0c35190404cdf00452e2372a7679def6623ca9b09d5, 0x3e706739853a21a7bd3cd64ff7b52617ba53c81bed3b72ae68b649ac9e7c4bbc, 0x366125fd785240436d2f7c612841448126f4242901e4c2a630857c9197668c, 0x4611c7f7ca363c0713d4e0d5b1a1644d142f26a114c324084741b85705f84978, 0x61a239ad748cf1d5566492733cf5a8ff39c5a7f1c2be221bdfa0f7cef176d854, 0x416c54103b03da901c7ff385495a8406af99a0700d0d1b8ad6e8060161a16f95, 0x5ef93917a3a718c4c4c7f1a8792f957eccb6f4039dddde8b04817f2b53e3089b],
    [0x458e97984c2b4b2b51ef819e6c2de803323e959b66656a65cccccccc33333334, 0x4753561e4cd77c1170266fcbf5f82d8f922881454c7fe860fcd6a20ccb426ac1, 0x4e1a25d6609db466156fff7d7a3a40da045f28d87619847192e3f64440f98423, 0x2c4cfd31f4e64e86895beab51b9ac5d12a8b13589cc6d7cea44b1a690d697695, 0x690fdbd05324835901a0dcd433c5e5e58431269d1b1fb43c8abdbc37ae4cbb2e, 0x59b9a28988734676eeb96afa137bd14f97ff317c0c54ed335d373f029d5fe882, 0x461b2d8e74cfd742626efec5feb7d8c9e0e6f58f4f90b9f95b6f243346046844, 0x46d36278a939d6947fe67e245f9b01bd417cc0d955b6193ded218c59fc29080, 0x5bb25d639e9dcffa769db44149960890abd52b483dc2e9ecb1e956b7e31d6fa2],
    [0x458e97984c2b4b2b51ef819e6c2de803323e959b66656a65cccccccc33333334, 0x3b9fd6cc86a28d5cb38b2810d62c972f8699640c58ff0b221a106153ab95773b, 0x456d5e9b4d29198781b18b0e5d4647b021cbd3e581e8aaa9043da91f88e46aae, 0x3f69d2f20494b91b89efa95f4f036d3026474a374690f2b63267286af3ced385, 0x3fc54c6e60366118b457def592f65b08403dc5b2aa470f66d4836d3edcda698a, 0x1f7d2f31e6c7a7824ffb2625040ed505f8f209be81b3055cec2af2190f3962d1, 0x4f06b438422811b62cf7f0838adc680380dd270113e2a1958abe917bf9ec230f, 0x26c3e09fc1dfd46f1952a22edb97cdc177ee6427b42818acc7c00c4f215a990a, 0x53630a75c5b736c271797dd91f3f06c5ea34f8858fc4551cbb35bc4ae5540f7c],
    [0x458e97984c2b4b2b51ef819e6c2de803323e959b66656a65cccccccc33333334, 0x573407742dcf581852da61d7aa30f841507d4da2e5764da4547043d444c11012, 0x1044ed354d41752d96158c886a5a567439b3b42a528d6bcbda57ec069d02f3e1, 0x40cfd210d02da80a1d5cb5df78aade57db596acae24d60269fd1538ec849ddd5, 0x6d3f7d17885cf8a2e6246ad11a0678eb8ad220ab692540e591b89f3cb1b17d2f, 0x72aca291a9707c0dfb8306dbed38297df4311b19626fc707fdf420fc8d0ff393, 0x1157a03af08dee5ea31fbe1c3bdcead757ac52859676c158be11e42bd414c13b, 0x62390bb5f77cc49e4f718cca2af7163ba70567054fab578b84234c0e8c3cbf95, 0x1a3c4fbd01ecc17e232a563ea0b3f92e72a5c80bc1099643aefcc4e538069539],
    [0x458e97984c2b4b2b51ef819e6c2de803323e959b66656a65cccccccc33333334, 0x2d8b575b688ad0445d5dcd2d545acfd46281a38a78b6a440696985fce5acdd50, 0x6944ca68b1e219564ec15c0c70e849480ef3a5982098e8682a155347ebd6ded, 0x2b1dac30c7e4620786aee9d9f4df40581fb9ff9f72490079644bfadb66838f45, 0x4d172e6549fbdf6692468a16056991ae8742a41159c484291f7cc55210ed7ff3, 0x2387c2e784468504db758703d8c8dbb83cc8dc13bfdafd9c8aa3f584ff0e9685, 0xc6ba88c72fc2f9c626bd4038b414735cd18b73872c9266ba67cffd386e191ac, 0x3d2641c06201241987274a55cc65d6ae4c5c25410cc3c1fb7f4495615296c9d8, 0x72882ab5c705c7e279941fbaec9e173b3dd818e1249bad5e18369bbde42cb9e1],
    [0x458e97984c2b4b2b51ef819e6c2de803323e959b66656a65cccccccc33333334, 0x5e082331ba9a09ece8e4a240793c147280fb14f45779a7fc72dc87669227ced9, 0x1ebdee619fc8f95fcf7146936594e22f2f5c328f709bed8e749b7ed6d6a58409, 0x57ab21f71c3f9964274df6a4b4c4b71dc5effc99528da3fec494fc32983a8622, 0x7152a04f5d2f3220d134892a758575dfb9c05ccdbce76272486707aa68d7e85d, 0x4a5545d528ee4d85e0911829b812f6b2d751294709e41efb2c479e605d2993d9, 0x71d6f18d4b6b44f9167ae87eac8d7eb97fe4d84cf678d67a23e9443a7da61b1e, 0x4741a618d485255ad7c11e5f9f34ce90fa1b2abc4a537af7aae55bbb8e86f4de, 0x6baf791e376f39b7a33aa530f91b184a0cc0afaa92614e44f73b4c03f0fa0abf],
    [0x458e97984c2b4b2b51ef819e6c2de803323e959b66656a65cccccccc33333334, 0x110caea4ad8cb5441862772ba025f18afef01721356aee4416c8ebf972384c5f, 0x23346922af2996ac4ac2d369bb292c5b87c1c126a6777fe07eab610407faee8e, 0x8fabe8aa4d6247788471dc9ee59bc18772b71af714556404ef85d50b3e0435b, 0x6eb1d7c0b5d8593d5e4261b9b6c2f0001abbe4de8700d4b6683fb0c349701f12, 0x33bcca8ae6864119a2366d5c9849b9a62c403b8f5a94e8c595a6193d4b3c2f73, 0x64b16f460c55c60c19370320cef292e8ab8f3f3f97932171b2197762997f72b7, 0x72418035f88321928ddfe31fdff5e10e74bc2bf37ebc3da6f3c94ade0ec066e1, 0x2427d64016aaf0312765e580442c736715553bc584f55e55b26faa6a1390a488],
    [0x458e97984c2b4b2b51ef819e6c2de803323e959b66656a65cccccccc33333334, 0x417220f70d0faa974ff3ea806ce2ba2289f6368118c682b7e433a22ff5634be, 0x1bdd69a25415073c5b1a35beda3f43ac23d9e445d686ccf3fa8a021091128927, 0x49a773798726bc7f934c1d0c4d9907f6b75eec6ae8607baef085078b67d71144, 0x38b75b84c34bbd0115baa81a3a1a7be211cf59e68a1a1c3a97e375a3cd08c31b, 0x3ae7611c85f3502454602257922dc91b7de5189dc0ac9a8331c4d41928998ae, 0x24caf7b773e703f99159a378f3e9edf40d1c8931b5c522e0c275bc097d3edca, 0x59fe87b656f583006ddeb4e4c99fc556d7b0b8de531f5adc5aeec2cf2fc6d213, 0x3e61e41f7e0385fbb1bab36c3362c4ceb281b565da12e3df33a0297f7f717efc],
    [0x458e97984c2b4b2b51ef819e6c2de803323e959b66656a65cccccccc33333334, 0x2a2aa6ad219c06a8014709100b951178b4b20a189df115729fbced8bb56ed212, 0x2ec013be8902da8794c8ff003cdb31405ed67ed34530b50c6f696d839f8c729b, 0x44786557b5b14ba68411b9c179f434766809a76cfdb8d9a8808e2d77f8587930, 0x3953fbf44f2295493fcae42ad58718a3d173ac44952ad2fa10e265290c373f76, 0x5109e76daf359dce8db9e38d6235a3d493d4656ddb47a7d40dcaea1b2daabc7b, 0xa06a457419fc3db96e542bfb1d12295696ccea33646c57d7a77e25dda6b21e4, 0x6fbd45ebda7a8655cc22cd07fc50a27b506d93f3796d15a86855dff75115e158, 0x6e0fbdd4cb9619d9ee0dc446c8541f7f7ae515dd31d7de4230ac80c7a051e44c],
    [0x458e97984c2b4b2b51ef819e6c2de803323e959b66656a65cccccccc33333334, 0x42035d1595e8b111ed92aa7185b38605ced2c5ea3aac5a8ee184c0509e2ecfff, 0x6c888ef90310ac6d527ebb9fb083b1498c57b8b26fbd8e88b7875b8b958d4464, 0x6f3b2fc8347af5df734aa7def22380d73a5f05cc3aaa997f7221125bbf755b52, 0x4ddee55e868f9675750caadac412499e957f672f04cfc8735395d1154e00cd61, 0x30aaada045f47ba070b9d4f9bce0c99e7478bb19d3a0b761a4ca5d207b0ae7ec, 0x28e139a6abceba9beff50b975254d149ab1471f6caf5f8aaf264353e8214e6f1, 0xd069c68428dec4f73545ef04fb05d44467d3446e03a1a3fcdd2dc98f011dcc2, 0x2276ccab5c23faafbe6dad910b70c03130e696d3e07e0a0fa641f69a86f9ff91],
    [0x458e97984c2b4b2b51ef819e6c2de803323e959b66656a65cccccccc33333334, 0x6023975917d7e699aa81e402e51ed84a1286d01b3c6e9058f264f74288b3961e, 0x384873428e3c6378ed28d9083eb5849537bd1958efd6b53d2b38c546ad9fef2e, 0x730f959b2ddc1859873766e0b1dc2374beba1ec17507fe0b43797b705f39794f, 0x1cf8918bb7242f9b9d95a7a0698105c8c7d51b86f3454d37a18b8405a72a6ec9, 0x6b149cc78d0f9cf4f50a712afbdb92d685bd566450142e8c01fffaf503f32534, 0x4aa494a408602dddf3215fb4d5e0b8c5746b4ced09aecab67c1579e8d6568428, 0x1a0eadb1d15745671456c80d2c135bd0bcc1fcb8ba8023a64a58785f63c35f46, 0x5dab96d0d8c0642a7b592a658a3e6c15dd7630f855093a31a5f09d9ccbfb36b2],
    [0x458e97984c2b4b2b51ef819e6c2de803323e959b66656a65cccccccc33333334, 0x20dce7457f03e38e52cb321f8939d2c9e727e7fc2a6b7e27b18fc025024b45e8, 0x6a3df2b3092e7d1233f55b694055ea5b7b63232b30d139f44b485571f99b95d7, 0x1619a8df679427a7658b8b6339a71766049230e9162d24383df85fabd3954e71, 0x20e9503e004d23a18d95351f4a842af15cc254ecf6f82ca97587337edd2f06b9, 0x4ee4f2c4362964fcf80660fbac76e11c5bb1e13343b8e5c84af60ed6bb833b4, 0xc8dacabc00870c8fed944fe1f5b493dcc8cdbedb084c57973b6cf4002e24346, 0x1e1d39570e949d6b046e3a97590060c5749abe54fc885fc4550115afb1a95f0c, 0x140480adeac93789159c410f21d1b21b238cb508d3c75ac05e36e8fe7d7ebfbd],
    [0x458e97984c2b4b2b51ef819e6c2de803323e959b66656a65cccccccc33333334, 0x4b3309d92f7b6f07f311ace6f0b9f00a755b73c271e2a6f356d63cd0d61892b4, 0x685f430e34b581c27002a4ce01ac8719792358a4118c8b77c74bbd87045132fa, 0x3a0f8e42d30ec672e557eb7bfc9a36034a0fe793b3706552f56eb244682c17b, 0x58c7b4a279104399f690882cf8b1408e31573f2fb2e2839eee62258a85698cd7, 0x1b10de894467ee5bd225c0a7f690eb4c68be42a251dbea0d9ff4b5a6adefe11f, 0x5d47bf941e0b46e1f7f3e5ce25ad446445501978b87109bc4d422b891ff9c7b0, 0x2ee4249c2f807d0c3fda6c4d3486e142c674f8a6d564bfc65bd0dde9c84e5057, 0x3765a7897b8f98e9944cde8e54d857fcaf49c35da95616987b9fe3f34773b6a8],
    [0x458e97984c2b4b2b51ef819e6c2de803323e959b66656a65cccccccc33333334, 0x4cc60cd5559a8049869db81a23d9a385b0c28548f09e0affa4a684408578037c, 0x42ab0fa031edafb4d7f2b93e94778e7e6666913c481cda47ac363b55f799d7f6, 0x53f5494d60b0fb6e1d8510428ec49514ff20974c160672f65633143793a38a84, 0x15db44682c90732e1d113b3259baf657492b8515b25b5943dfbf999fe863172b, 0x3c20f05f0897f3a9ebca80fea281fc9cea9e9ecf692e8ccdcfd250996b9ad315, 0x5940dea5d0fcf8272352d30941d7d36f416565f68fe9931a2f7e3bf284373781, 0x42458c9ead7bdfe3738bc5c16542277bb78b2b235427de549f665bc4f3befd56, 0x30c84ef9a869193a0fdfbd58205ef5c38f26b34fa24bce7451d012f188b9a770],
    [0x458e97984c2b4b2b51ef819e6c2de803323e959b66656a65cccccccc33333334, 0x8d370e666c78fda9c10dbc92793e9e742c5800a07648cc9ef704a995a930bc7, 0x697e07b2fd2c825e2a97db9e3b14c0ef6afe7a0acdb4c8f53dc26edded4e147b, 0x4f0b364bf819f1e1c5d489b37ecfd814d122dd1e57873007f1f934b88f3ad371, 0x37c31e12097e4cde5f219006e80dfea2b504aeba13cb86af65a0f04ab64f3173, 0xcad8522b83f1728c84574a656f6595f4b8ff3e2d40a9283a1304e21a918de6f, 0x51b610fd333eabbe5961a3f329060d9b2eb004ccd0db2812a5305e7cabf21099, 0x6248585b2e88519828376fe8e20f6cfe91878ede06440ef72a836a90c6306154, 0x20ca0ce0779be145e79cdf2b43fedb8d20137ae6d5b6d5d1bb3d0ef3d56f0c59],
    [0x458e97984c2b4b2b51ef819e6c2de803323e959b66656a65cccccccc33333334, 0x633cc07fa36addc88652ff2730434e72dabf433e8bf4bfa64ef969659a5c41cd, 0x4bc53a05a8d2f5215a65e67ee49386816f4922702243e9cf66cf64bbfb67e134, 0x2123ecd319b5d35e3ce219c530f753297d58ed306195839f2f79204c1d8e1d28, 0x5aad2e81cacfd89e736b5facbdad7ba0d954d8d5565852f572d3be48bf8ace97, 0x51976dcc7a26aae6f43c060ea1450d940cd55b375f7eb32e650f8c728b63e38b, 0x624855780b45a98b5271d816acc54f6f038035909d3577f434f5e624a51642ae, 0x112f602987b279cc5fc43b8e6c743705eacc9c3ec5404ed55aefcc27a41b36c, 0x5f06f8884a376a8afbc0e57eef107106eb17f28b3bfe4689cadf299b1e26b011],
    [0x458e97984c2b4b2b51ef819e6c2de803323e959b66656a65cccccccc33333334, 0x5e8bd076d44b78f0b7b24143b93069a8b744c8988cde48f2116c94b39e197609, 0x32cb79438d04a2f1f9a110eb7aa7e15dbcee1d9bfc0c4f6eeec2937d2a207332, 0x312352728b47934dcb1773363d83c7cd8b3980d48e9d506eb0f9116ee7bc82e5, 0x69f818b643f2816404c1cb23e981d363369ce41f37edbc3253d41c5741c07dff, 0x2076202e562de7257fbf9d4d73f01ccd8cd86aa6064cc1d9255d42b2a8c90c4c, 0x6333fc0cf2378ae6fd97b041093364c75879ad3eeb71c98ccb505eef71e2d6fc, 0x59a1c578600ed5b7de312eb6b5e0fe2956ad8a48fce54df68b4a9a6330035f48, 0x34ca9a309636e285217db3a0132cbc85974b6b645c53a03679a7073021a55527],
    [0x458e97984c2b4b2b51ef819e6c2de803323e959b66656a65cccccccc33333334, 0x5aa814e49f42d6164a1983a2a4cd1858df56d0b30f4345332fc8ab06b83697de, 0x2f60f7a823d3e2f38c8cfd3b937845f278c23f1b88c7f7f0662fc5082fe7c6e9, 0x3d7e9f88d56f2867fcabf6104dcc87ff4ba01f6304b1e226c6feca4363868a93, 0x564bc6e0d1835f64d27fb5eff98842e1b1dff07f3ee175188d4913f1ca2c8417, 0x6e38b42ed6d4414c71e54c839c95ed3753f28cc5803e0c8f9e623e5f51cdac68, 0x588f4a67cef693477949da25a4e6374fb53f2e1b174792153cdfdc9130427b39, 0x623fa9981442b83a4ce22a009670e5204764efb84dba0f5febcf28327da970da, 0x4f51d33d6194e1c7fc65f47f62f64fb3fb181b3bf3d12ed4b9267242ae5815e5],
    [0x458e97984c2b4b2b51ef819e6c2de803323e959b66656a65cccccccc33333334, 0x6bfca6957b0556233439493de6ecf141873b170d4ee8b9a2a713aa56f51ddc56, 0x409bb8c29bbf179e4215735185c273690e010acf56d6566f01a687a4f6bdf920, 0x2facd4904c5708f4ab3aca0c1f2cf674e22dc041c9ca8efecb4248127cd9eb6f, 0x11a9e75e5d47722199f0259b322b7744a7d7f35a8f3100c033d015f4d13b934b, 0x5dba58d3df9ebe3073b484ebb4ae881f77f3f6c260e953a09c30e9534636a6bc, 0x6eed1ad7dccb3061180edbe659ce3c3b662bda463c660259a1c2fff2b277abb0, 0x1f39cd632e3c5e8396ae5e71d9017c04c2658235c523dea26234692b00b4a125, 0x126dd82b5c0bd8bbd69f637c1239c2913b1777204b62482d4b2ab4c020a78c50],
    [0x458e97984c2b4b2b51ef819e6c2de803323e959b66656a65cccccccc33333334, 0x46211261e7cc36acbef2fe564990fa4dfe0035cb13251b97255024410731da67, 0x188860f200e51aa9370f2ea7606290801e467380773ae79e529093419bc276fc, 0x2a1f835c5bdece46830e552e34d585f69b48c6cd301d95fb47220f037af96f21, 0x5b391a57c39eda328b3ca2ad9c5d89e7f1d4d978e2fd3be8531a8d3f84ba4688, 0x86af8cd022fb79b254eec2beb9810912493676e0b6f19411bc767d31ecd947, 0x27fa53a4b4e38a59dc189af8dba12f2039bab7ff58b8f86ec782a672298eb0e3, 0x20dd1f7f110ead0c0d83fe242c930b4d371df9934d979c1039056ccd4bd8df1, 0x246e9fd86f7805a0a53e4b08f593f5e7da5040bcd45b519afc1d458a88441115],
    [0x458e97984c2b4b2b51ef819e6c2de803323e959b66656a65cccccccc33333334, 0x5888398ed9641d585fe111e5432adcbaa43b9b6800935fbb30ba8336467ea2cc, 0x238f95e37b4a73b3cef5e44175090126d817565d1f63e6920d1ecd627fe7237c, 0x4627e3dabcca3ac31aaae6acbbf91c23960ea95f424c8ff6c2646db8dc45a62f, 0x1a679b1cfa5f1245db26ba28a50a1e782ca55430c4f421818429e1a243ccb20f, 0x6464a23a284c6dd37682cb49f1678165dfb8810c12558dbb856fbf56c55ed9e8, 0x2bdb63fbf1b7b7a9afdc14e12458dc1f080a75cd7825d15496254b996b9e843, 0x3c5305a489c67aaa765c1b51c6ffc2aeb1048394cde984c11da4d78c1e6f71d2, 0x6c5a163392a0597f96db4122b494149603488550911bbd8cf409e6e5a5bc64b2],
    [0x458e97984c2b4b2b51ef819e6c2de803323e959b66656a65cccccccc33333334, 0x5d096d9d79c991f54314b5dded375e65313dfcfa48690d27e68a6348d385ceb2, 0x5373a8eef26e1ca008eadf04099d92826f04e91c09bb4ff26b97c759d3aaa618, 0x5812e1ae89ac8f4c1b5489075645b812abd018705c7bd8532fd2f822a5e4c8ca, 0x1fc93731393c23aa279bbb0c5e421f2c6078757cefe71d4edc505d05ad33c3d9, 0x1ecffa7a30c02ae5a2e7187ee75f04bd9d46ec1deefa333b572240e9096e7258, 0x6b858f765ff1b645be23cde7cdbf7603c232fadea6d02f14ae9ec2c4cf1e5c3, 0x3888b0670f437c61707ca33ab86c9372a083a616e09e54f1333439c1e2f92ebb, 0x3ef032d6c330e426f6148fbe0a3af69c7b479a59129f009106e8858d1604405f],
    [0x458e97984c2b4b2b51ef819e6c2de803323e959b66656a65cccccccc33333334, 0x2e125ac530b9f196f7c5afc72d890c355923b59a96aa250ae458334a04f64812, 0x451ce012302ec92cd9f2c8713a4c8d77803af40cbd7a66f7602f6206c8a5367, 0x1730bfeefecf1cd2c344b98bb93ecc9649eeb4cb8430b9d880c55c0c58aa2d0f, 0x81c2a356f0a142cb4bc9a91e98d133d4cfde69bdecc0136a46ebeb02c4509be, 0x61a6fc07714f799e8f97c38a74da214613f24086bd7a946247fb56dc401dce8c, 0x6ca7d2b44a07b9f3991f57bfe96f7e10b37a628d2ec6dadce16916a106020e54, 0x1fc91c9d4cc261fbb2d6da15c68c15384d3a65fcb53c37e291380e6a42632ceb, 0x1aed1df5143805ac364876819491ee4644d8cef5a5c8b50c4563ace73c9ec571],
    [0x458e97984c2b4b2b51ef819e6c2de803323e959b66656a65cccccccc33333334, 0x4da0cedac8d0c59c3c6e8fe05cb5c87283248729c710e6df6d357db2b6a9b6f2, 0x1b81119bce8884a93706a6f61e54f1a92ff34b1b939dfd708bd0fae0360406bb, 0x104c3f674e320430f4bf4d9f0e6165162ccd8bd492b4bc9fbd49fc6358d5f3c5, 0x67cc625378630ba9cddca62c94ea44f790d7444904e09a4a8ec86cc47f4985ee, 0x4c97afcb4274cdbdd2b3626ff07a11032a67a08cf4090138201a600271100fe7, 0x63ca864cef2ec58d58d884ab9113a814a4fb487058396146f00f19506734d183, 0x41699fdf5331e0ebcdee6b43329890119aeffb9819ef9db803b78397b769d14b, 0x3ee6d9e08757e7e7ae6d266513ec53835315821465b4920639e140f9d6e8bb06],
    [0x458e97984c2b4b2b51ef819e6c2de803323e959b66656a65cccccccc33333334, 0x27ebe1f5695e347bfe51c5d5a8eba7b50adba333c0498f52c275646d1f2aaaab, 0x4d6602e3b7883212a7ac68289998150ae87144580e91e6f146db6778cf492493, 0x287a3357f25e09e27124dc4c87ae9325e762e3b46f84f9ea0a7cbe02dfd6db6e, 0x4834b98e647d187ac4c9f448b0b6f762cde49970253dd970275966feb7596597, 0x64e2b19f3399869a73aa0dae547e32fa18280c925ae45768e93af61695dea010, 0x55134bdda8690a559d252d6c5b0dbd29134528760de9608bf6ab788da1ecf48, 0x3f4653a46764ff6f551f2ef361db5cd83fe86381a9f59401d19323017c9bdd75, 0x39375df2fc44d123bfb20c279eb032110e5e730b0c89ffa8fb344a15bc788a53],
    [0x458e97984c2b4b2b51ef819e6c2de803323e959b66656a65cccccccc33333334, 0x26a48d1f8355618a530ff20ab920549f2ebe9d4ed00bf4a713cb5394b96aaaab, 0x108faa206a1566d27f412154f7595dd914776e88ac759d534bc9bf35ef3b6db7, 0x31aefea72b2bbc1f95f03aed331682fd92fdd09aee67df135bc0c3a90eb24925, 0x9335e83167ecfc5dfc1867f66e62b2ea2dbc82b567a550d1c88f9db3b03aebb, 0x235054eb7fd15883fa90ee0f1db8af0bafb5b4c5c75cf3af690e300eeab6e90d, 0x61bdae2391af4b9f2595adc5888816f962a3cdb82fb5543890b089713426425d, 0x1f0f23f553618855126a4c33108b6faf635e8af14c7c10428735156f8cea6ed4, 0x4c3f9b1f11a6f46cdaae1c64f555f55541cfc7376295a73ed27f26eae06c74d0],
    [0x458e97984c2b4b2b51ef819e6c2de803323e959b66656a65cccccccc33333334, 0x26a48d1bb889dfac922748b4da6954b19c23fdaeab095c193ce7b46517b2aaab, 0x31aefe915afa2ab3410ce91ffbe771815e7eb62620d8098f5cdee1d3a8e24925, 0x108faa3073a90972b1bbc521f6920d100658c98662340bacd3d9ce64e46d6db7, 0x6c915baf67fd079053e1579738e5c3e8839854808bf2225321a0f5d53c604105, 0x2c72ca6c21bf1ebae6eecaa6916ee700c8f9b30fc5fcc360771dded3d1f33664, 0x4a9a2bd1e33518c70d0bf5182c4e6c4e56129e34ed5924b7973e51ead0ce6870, 0x22c7a1995836f7dcd8247728c5343b4e5f7b0a8293fb64cb250ac19a9c3e097f, 0x1592cc5450d6c9d1a7b124491301497fa87cb8c25377a9e3a9aae0afd4bb9b22],
    [0x458e97984c2b4b2b51ef819e6c2de803323e959b66656a65cccccccc33333334, 0x26a48d1bb889d46d6689f8596faff78834f7d23a7b702e69b4e67a090176aaab, 0x635dfd22b5f4b48706c916b2bedb1516051c7ed63bea2dd6b2b529d1827a924a, 0x423ea8c1cea32304b04ea286e79dd21ffa2cdcd87749a8d62ee863f9a58fb6dc, 0x5c01b17ef4545b4d9e2aabaac1cf654d0d5f7871a927081f731ffbefe28a534e, 0x464aca29e48b21b6ce9582a5abed7a38c47de748f90ff8618c301e9995d3212d, 0x1f2023aad42c04a76378eed0b5803b8fe00d8face7e0edf548c43fcde9c5254b, 0x421e4a57540c9f8cd2941e76d4c6f6efcc004380e52b591f9a7919420207f5d6, 0x7262f133c46b8524679c5f3edfadd7e1cf0a363fed6fe19046048254e1a99550],
    [0x458e97984c2b4b2b51ef819e6c2de803323e959b66656a65cccccccc33333334, 0x26a48d1bb889d46d66689d586622d04ea98cd40f993905c1e64a3a7472f72aab, 0x31aefe915afa5a4383ab136f86560cbb4ec2c9eb692e9e2332206b3bc41f4925, 0x108faa3073a8c8c12be3b127f144ffa8c0962863b4047d3ac43fc461f6a38db7, 0x9335e8cb2086f87c30cb7bea49c53299b3c411897ad5e9010ba1ef25554aebb, 0x5993a6177fb1881266d21ddcdee4d258c97f6f756b67cb68aa27ee77344e9741, 0x146a200f8f3311aa45a3d0e53d4607edf5992f9568d605b9f046d3db221248d6, 0x302a30b9c31e69bc195d3799e12df2e26755f74f90fc0d6b49b8f50c4e31c774, 0x4f214cc3c148971e55955c19cf6f6d1a128fbc6c69c51a0fb230d689d21d4d4b],
    [0x458e97984c2b4b2b51ef819e6c2de803323e959b66656a65cccccccc33333334, 0x26a48d1bb889d46d66689d580335f3d1d56310e42a92c4d0a9832c3b1e256aab, 0x108faa3073a8c8c12be3b125b83bac4c8e595a789206296408f4ba17e685cdb7, 0x697a3e5e76078080b7012288ddc55522000, 0x4b72074e80ab928c729b7c56802c5cfba4d4c92d585e4792e20212da2a89fd97, 0x5e67f518aa8ce1f285eef357e72f1dfe8ecefbd7cc6983f7681bd6dcfff3b334, 0x6119a983e97549c1a67b5b1e31e48ac739e8e37eb3b5c0171539a9fde8b2a9e8, 0x1837bff8bdf67b84da9c339f1ec3db0ff1c2a7feb121fa22bc09434dd2ee2593, 0x50d1cc5d2de907407b744bd97e72bd8d9a41950f9b6896b75d3ed2c5b1b57283],
    [0x458e97984c2b4b2b51ef819e6c2de803323e959b66656a65cccccccc33333334, 0x26a48d1bb889d46d66689d580335f2ac71429cce5c1eb5df27e59608902d32ab, 0x31aefe915afa5a4383ab137128b3136fff42e669c0eb26a62c5a2d0380cb9925, 0x138d2e26629b2e06783962bbcff200, 0x9335e8cb2086f87c30cb7bf9f3d9b4da1067080d39f7b751f1d3cb0a5287ebb, 0x280b058e0bca55553f6e96713c7eafc3592c04a1e30479223eec4b350b9ebd6b, 0x41de8706c77e26fa83181db36c27efa7899316e7626a60239eb3833d213a3d6c, 0x3ae8d83a02e9683773214584323e4d6d44496a1ea3b845e3de7513169d984932, 0x27d088dbec388e9638b4f877d7ca9741d5876f3b81d709e3af7cc50a02fa6187],
    [0x458e97984c2b4b2b51ef819e6c2de803323e959b66656a65cccccccc33333334, 0x26a48d1bb889d46d66689d580335f2ac713f36abb4bec17be82a78fa362b36ab, 0x31aefe915afa5a4383ab137128b3136fff51464a43146c5e0d42e8c3873c3f25, 0x52ce52f2424bebc5db7275bc992a75baa9877526f0d68d427e9a4d158698c693, 0x19c308bd25b13848eef068e557794c72f62a2472583ca15f165a16c1d77b39f2, 0xcb2b9e8158253a7f19d81a8131260e251f117fdbbd57b2ea3e99b6858c3147f, 0x5dff6138097c4f80a6c0128b166f752bb58346ccb4af10978af5bd26e2789481, 0x27e085eebf2df06ec168a42b0f360d4417cdffec90cfcf8b38887d7f81d9cf6e, 0x30e4a7f67f655b7221ce41783e5fa511f4fd101c33aa2b67db81e047b2aa5374],
    [0x458e97984c2b4b2b51ef819e6c2de803323e959b66656a65cccccccc33333334, 0x26a48d1bb889d46d66689d580335f2ac713f36abaaaa1ec83af2d84dc475df2b, 0x211f5460e751918257c7624b7077624aaa362edc492419ca6ba28da79294586e, 0x423ea8c1cea32304af8ec496e0eec495546c5db89248353dafdd320449e9b4fc, 0x19c308bd25b13848eef068e557794c72f62a247271c6bed07a3be5399b99cd72, 0x45b44b6d76bf818761aef048371a12c7bd853997702e39a2fb21057d836a7eb8, 0x3682ed0e1d80c29f76e282d65de43c0b755c160a2b58585fb8cd74f2e344bf7a, 0x29e2b96033eb9c3f89ba9c84476e886cce85635b2b2a5e0bc3dd2600724f4ddf, 0x2e2278f106e678c5fd178507b4522375b88ec64702b971e9caea1a02351aa55f],
    [0x458e97984c2b4b2b51ef819e6c2de803323e959b66656a65cccccccc33333334, 0x26a48d1bb889d46d66689d580335f2ac713f36abaaaa1eaa5555ae003cb6956b, 0x73eda753299d7d483339d80809a1d80553bda402fffe5bfefffe8902a4c7ee61, 0x423ea8c1cea32304af8ec496e0eec495546c5db892483491b6dd6bbedd47b0fc, 0x3ae25d1e0d02c9cb46b7cb30c7f0aebda060534ebaead9651450646f9d7048f8, 0x4f09a42a937cd202803aa94f0cd4421fd7269f8e06ee7d7d623cff7a78394c1e, 0x85609160b4f9be535451c5d5ecce7eb6c36768ba2c6cc5cb35f573eddc9a4c, 0x2e98b628e4d910b91e29a799558a5cc7d0a8366cf50a86668d96e721083af8a2, 0x68cbc310d9c5b2c6dd7d863d63369fbc96ba28de8fb43d8632c9fcecd945e211],
    [0x458e97984c2b4b2b51ef819e6c2de803323e959b66656a65cccccccc33333334, 0x26a48d1bb889d46d66689d580335f2ac713f36abaaaa1eaa555555550107b0f3, 0x31aefe915afa5a4383ab137128b3136fff51464a6db6276d49249248b28229f5, 0x5e81f52, 0x4b72074e80ab928c729b7c56802c5fe2f57b6abcdf7ce689820820815eecd6e7, 0x3dd414f92742ed7bd70dc88cd1efeaad81febddf77769776eeeeeeee66666667, 0x34beb0a52c17398e0278d96c7ebb01c2258bcf46bd648b9a08170d13457c57c6, 0x483227a8ae3e3c9cd91f7d12023b09bc058f1e93ac7b651f41d67a7e4e52e52f, 0x241068d74839aadffb201918d580fb7c527524bbf66c1e4ff0d4d31e56a3ea3f],
    [0x458e97984c2b4b2b51ef819e6c2de803323e959b66656a65cccccccc33333334, 0x26a48d1bb889d46d66689d580335f2ac713f36abaaaa1eaa5555555500000007, 0x423ea8c1cea32304af8ec496e0eec495546c5db892483491b6db6db64924923a, 0x31aefe915afa5a4383ab137128b3136fff51464a6db6276d49249248b6db6dc7, 0x117b33a4ebdcd3e858fe90527b5b73e04b9c98bb5f7db88a02082081e186185c, 0x609b60c54d5893118005895c0806deaf1b1e08ad2aa94ca9d555555480000001, 0x211f5460e751918257c7624b7077624aaa362edc49241a48db6db6db24924925, 0x656ff268c469cd9f2cd29d07086d9d04a945ef829ffe907f1fffffff20000001, 0x19c308bd25b13848eef068e557794c72f62a247271c6bf1c38e38e38aaaaaaab]]

/-- the inverse of the matrix (not in the code) -/
def mInv5 : List (List Nat) := [
    [0x13614, 0x73eda753299d7d483339d80809a1d80553bda402fffe5bfefffffffefff7ecd1, 0x1308a8, 0x73eda753299d7d483339d80809a1d80553bda402fffe5bfefffffffeffecf759, 0x6df92],
    [0x73eda753299d7d483339d80809a1d80553bda402fffe5bfefffffffefff7ecd1, 0x375f00, 0x73eda753299d7d483339d80809a1d80553bda402fffe5bfefffffffeff7ac369, 0x875a00, 0x73eda753299d7d483339d80809a1d80553bda402fffe5bfefffffffeffce8319],
    [0x1308a8, 0x73eda753299d7d483339d80809a1d80553bda402fffe5bfefffffffeff7ac369, 0x145b090, 0x73eda753299d7d483339d80809a1d80553bda402fffe5bfefffffffefeb10141, 0x7bb844],
    [0x73eda753299d7d483339d80809a1d80553bda402fffe5bfefffffffeffecf759, 0x875a00, 0x73eda753299d7d483339d80809a1d80553bda402fffe5bfefffffffefeb10141, 0x15c0c00, 0x73eda753299d7d483339d80809a1d80553bda402fffe5bfefffffffeff7e6389],
    [0x6df92, 0x73eda753299d7d483339d80809a1d80553bda402fffe5bfefffffffeffce8319, 0x7bb844, 0x73eda753299d7d483339d80809a1d80553bda402fffe5bfefffffffeff7e6389, 0x309aad]]

/-- the tables have the sizes that the code reads and load without a panic -/
theorem sized5 : (opt5.sized 4 4 56 && opt5.below blsMod) = true := by decide +kernel

theorem ok5 : opt5.check blsMod 4 4 56 (opt5.plainC blsMod 4 (opt5.plainM 4)) (opt5.plainM 4) = true := by decide +kernel

theorem inv5 : invOk blsMod mInv5 4 opt5.m = true := by decide +kernel

end Verif.Poseidon.Bls
