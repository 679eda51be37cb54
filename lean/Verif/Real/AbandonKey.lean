import Verif.Real.Pbkdf2Fast
/-
The rounds of PBKDF2 for the phrase "abandon … about" (eleven times the first word) and the salt "mnemonic": the states after the key and the first value.
The values in between are only given so that the kernel checks short pieces; the end is in Verif/Real/AbandonSeed.lean.
-/
namespace KC.Real.Ab

/-- The phrase. -/
def text : Str := "abandon abandon abandon abandon abandon abandon abandon abandon abandon abandon abandon about".toList

/-- Its bytes. -/
def phrase : Bytes := Str.utf8 text

/-- The states after the key (RFC 2104). -/
def si : Eight := ⟨0xc7e1dc57fa37e61d, 0x5dc0ceddaa8a3f8a, 0x45ad7e4bd4530a8e, 0x993f347257b058e9, 0xf4b88dddeb2a39d3, 0x1019193aaf687faa, 0x85ee62cf0a99a736, 0x0a986e242863d5be⟩
def so : Eight := ⟨0xfdbac1202307cad8, 0xe0de309b5d4f7b30, 0x0582751a4fc0ccb1, 0xe75469278ae23df3, 0x8d065a2e683e4e44, 0x2f511380127cab17, 0xee6e4f82abb89c87, 0xfb071827a4ad1f8b⟩

theorem keyIn_eq : keyIn phrase = si := by decide +kernel

theorem keyOut_eq : keyOut phrase = so := by decide +kernel

/-- The first value. -/
def u0 : Eight := ⟨0x64d8279a3894fed8, 0xd8847f5c3c9a4267, 0x8dc846253fcda331, 0x57df5c148ab9df4a, 0xc3c9079d364e2a6f, 0x9d24b24c3ae858cd, 0xb0cfb546e01986ce, 0xe10967f2473a2b37⟩

theorem first_eq : hmacSha512 phrase (Str.utf8 "mnemonic".toList ++ Bytes.beBytes 4 1) = u0.bytes := by decide +kernel

theorem u0_fits : u0.Fits := by unfold Eight.Fits; decide +kernel

/-- After 65 rounds: the value and the combination. -/
def u1 : Eight := ⟨0xeec77a48dd06d63e, 0x1157cf7b9555142d, 0x9ee504e96d9f1fea, 0x1dc8cd5a79b43810, 0x4ec80bc85500ab8a, 0x910e58ab078cd2f6, 0x6f9a99ee2333a3a2, 0x4f1938bf8dcaeb0b⟩
def t1 : Eight := ⟨0xbe97a8f85a40e033, 0x3751c04f0647473b, 0x846dec3f880616d4, 0xb633cbaa35876805, 0x7696a21b0cc15573, 0xcf1ee797ae31a3d3, 0x90cb76fe86fd8331, 0xde28c2dde4ea81c8⟩

/-- After 129 rounds: the value and the combination. -/
def u2 : Eight := ⟨0x1c99aaef1b966a29, 0xf685c67f6efd85e2, 0x78b4f7af8e71574f, 0x1146dcdd5e35550e, 0x8925e08b7f538a40, 0x85ab7227fa4019e6, 0x7a356964010d696d, 0xc206cb3003d12c3d⟩
def t2 : Eight := ⟨0xe5786b0a23dc59cd, 0x699c376a3572259a, 0x01c75e668de82193, 0xc2400edce8574915, 0xba4fcbd7d2e0c098, 0xa82c0afba158273e, 0x9e17b86faeb0739a, 0x5d8826833d5401d3⟩

/-- After 193 rounds: the value and the combination. -/
def u3 : Eight := ⟨0xa4fbe868e780e52c, 0xca335fe127c43792, 0x08d1b07ed139e06b, 0xb0b0cf16681cb91c, 0x9f879a171d8ebc46, 0x204edfe050398c26, 0x86a814c5dc44d623, 0xb0291fc4565dd6c3⟩
def t3 : Eight := ⟨0x4ca809f2df04720e, 0xb53f473ee876a750, 0xcdaa03ca72e99301, 0xb5ca3d01eb954e00, 0x48bc95bc7ce64acb, 0x06fac2564e113300, 0xc0fdda6f806d1935, 0x4a3909d96c070b54⟩

/-- After 257 rounds: the value and the combination. -/
def u4 : Eight := ⟨0xe5ee0e82fa5a82e7, 0x6feb5bf755fe0500, 0x0eafbec9f2dd4623, 0x87a4a0d90b5219a3, 0x56784e3251768808, 0x9ae3d095e3e307f0, 0xa9f5fdc83eb6a6b0, 0xbcb98a1ba57b0932⟩
def t4 : Eight := ⟨0x950715b0aa6b9fef, 0x2a5c32bee9dd2799, 0x2a1b233f3d93e39e, 0xc8f7811b2a96276f, 0x69cf04f66b80f49b, 0x517adfa8ac00ea48, 0x5b464516b817bd33, 0x239246df6938f2ff⟩

/-- After 321 rounds: the value and the combination. -/
def u5 : Eight := ⟨0xaa0a8e64f5791223, 0x204fad1c182f4db0, 0x23e539ddf9a23def, 0x659261bbb6a047c1, 0xb71235895d1e71c1, 0x4fbc16a4785d1e72, 0x56c394890a2b61e7, 0x1170f0958d01387d⟩
def t5 : Eight := ⟨0x358c755c50f7d918, 0xfa5bb7c8bc1b8be3, 0x54b03f94fd055d17, 0xf701ecea6e5adda9, 0x881b02e0af83d433, 0xe8593fc3968a780d, 0x261b0ee3d656a165, 0xe1c760d203f61200⟩

/-- After 385 rounds: the value and the combination. -/
def u6 : Eight := ⟨0x5d4ca5607e43d2df, 0x20f413dfb1ad915f, 0xaa5343ba4a18b6b8, 0x7cf856c0d5508f4a, 0x5457c018882f7941, 0x0c4cd863669f8dd8, 0xc9807dceeacfdb18, 0x437e44462c48d0f9⟩
def t6 : Eight := ⟨0xc2341aed7efd1add, 0xe3f8c016b5d85f79, 0x2125e9c653c63372, 0x5a4afd3d4487de2c, 0x6c6107ca3b91bc25, 0x3c7ef18e7a24e1c7, 0x3594dee49c46c9e9, 0x2f6fd2af17eb3267⟩

/-- After 449 rounds: the value and the combination. -/
def u7 : Eight := ⟨0xb492f4ff3e172288, 0x7470e4a447c0b1da, 0x214c117707474233, 0x90cfdbe19bbd0619, 0xd36fac278031d579, 0x42cc354e300a2fb1, 0x5e4ce78b17e8da63, 0x1aa91013083eae66⟩
def t7 : Eight := ⟨0x8755c09ee3c5bf52, 0x8c6763c69d193596, 0x468e785389905a0d, 0x870f2e8bc06fbe41, 0x3412d473b4219eed, 0x73c19db20b3ca541, 0x5f4ad08b15c7417d, 0x5a5b5dca9e27c53e⟩

/-- After 513 rounds: the value and the combination. -/
def u8 : Eight := ⟨0xb779d28b87b32936, 0x36847381858bf08f, 0x7e44e509d34eebaa, 0x75fd48475c07b2de, 0xb2337c49b1b973c1, 0x380328af7e67200e, 0xd8b43b7f6dbb5f61, 0x7301391dece57735⟩
def t8 : Eight := ⟨0x509a8bd0b428d8df, 0x77932af2fb3cf35b, 0xc4cd5bd3c81790c7, 0xc1e40b82263bfd37, 0xef7d1f8ee101f2eb, 0xe5af33677116a5f9, 0x2f4cb28ab1b7a3c1, 0xffb653f6c818745e⟩

/-- After 577 rounds: the value and the combination. -/
def u9 : Eight := ⟨0x0aeb879efaf05072, 0xdaede8f8639d2cd4, 0x3d7f34d676832243, 0x24b5341483305b1e, 0xc4d3ffca62781453, 0x864e662a75c2320e, 0x8f4a7bf6af62bcc3, 0x16ca66906561679f⟩
def t9 : Eight := ⟨0x160ba91ca0c9d636, 0x889f6e53193a98d3, 0x9968d9d5a2ac2b5b, 0x2fe851b7351c7854, 0x3aec4df910c0ab35, 0xc64e3db87b5339eb, 0xf9d02ec26ce2ffcd, 0x5121cb1a32b0f31a⟩

/-- After 641 rounds: the value and the combination. -/
def u10 : Eight := ⟨0xc496e22e5fc477b5, 0xf9f94b16cbdf51c0, 0x8fef1f53ed95c9ba, 0xde4f911e2af6bf09, 0x195ab5eb081d9d28, 0xb231e91b8f0d5df7, 0x030926402406a369, 0xf49095e6b4e2d533⟩
def t10 : Eight := ⟨0xe84e90d9e36a6eee, 0x634f252aa59519df, 0x43f0d9484f7cf295, 0x03c3810783d7be0f, 0x70a8aac6e6c143fe, 0x8ceebb90c29b4992, 0x4feae673187410bc, 0x5c8b052482ea901b⟩

/-- After 705 rounds: the value and the combination. -/
def u11 : Eight := ⟨0x4e3fcad066d4c9b7, 0xe4490f5e0240fadf, 0x891c188df192b06a, 0xff4a7c639c39120b, 0xa499f1decb04673d, 0xad9a33852333c862, 0x388c0b0b245304b9, 0xed745321540e4eb7⟩
def t11 : Eight := ⟨0xb3dead90d8a2b7c2, 0xa798dee58637dfc4, 0x3fd3fdc72141e183, 0xd6b37b9214f3feb0, 0x5994f2e3520b5418, 0xa73d8ad104e0f275, 0xbe9eeb9d1c1c6b6f, 0x47a9edc1a840f713⟩

/-- After 769 rounds: the value and the combination. -/
def u12 : Eight := ⟨0xf75e932dedb8ab88, 0x32e874f118ba5e85, 0xa4a02276c3a01cf5, 0xf19c7494be520f6f, 0xa74085c551b676c4, 0x7ecce0b966c51465, 0x5768947a7bfa4ae1, 0xd9bf5ec11e2d086c⟩
def t12 : Eight := ⟨0x7be6d58e081071e6, 0x8002064b7cf05fe2, 0x66ba94d3c0ea375e, 0x9032e82c5ebed173, 0x8cb5dc3e3c1999af, 0xa68e373843d31d93, 0x5025c2bcea7f87d1, 0x31fe51e7c2c5d8e2⟩

/-- After 833 rounds: the value and the combination. -/
def u13 : Eight := ⟨0xe759a66cb73b62a2, 0xb0c2f560a81a7b7c, 0x22bf61de97a3f91f, 0x5835f1deba0be7f7, 0x85da9fb3d500b6e4, 0xef8220e451ea2b77, 0xfaa4e6f1d859bd1f, 0xa64a47be8487cccf⟩
def t13 : Eight := ⟨0x193b9d86dfc72b64, 0x806d02b0f86a8550, 0xd1f0cb1f33ca4b3c, 0xeee4418432a51726, 0x92acc6b34b075af7, 0xcbc48f56b70c672b, 0x6ea68c38a9f93aa7, 0x0d1593725c51e047⟩

/-- After 897 rounds: the value and the combination. -/
def u14 : Eight := ⟨0x4e4246b6a4f13211, 0xbcf3c639aee89fc6, 0xce82701150c74d8e, 0xe385542d4e1dd8df, 0x50bc59ebd935a5a0, 0xca28ec6a648d4ce0, 0x2b8c47dda24816db, 0x0a403ec6d5cdbc3c⟩
def t14 : Eight := ⟨0x8eb7b3f62d19a9a3, 0x7b7a6898a33fb3a2, 0x4e33a2bc7e465fff, 0xe1319c08f70dffd2, 0x279ca8d4571ec1db, 0x3b5bf150758f4720, 0xe4c1c19f012a2e84, 0x879c5b88322fa513⟩

/-- After 961 rounds: the value and the combination. -/
def u15 : Eight := ⟨0x292a12f1625d793c, 0xd3705c82e279c146, 0xd49465a3ef5409a1, 0x8d3daec09e6d8579, 0x55f2fac0242c8467, 0x68bbfa918bbf67aa, 0x43ab53b758eca489, 0xb5b715bd6156a0b9⟩
def t15 : Eight := ⟨0xf81df433c80a1082, 0x7cc96dfbc13d29a9, 0xdca5422934129f7e, 0xd4708a8b3976a804, 0xcbb81b18ac0a047f, 0xf2e51936e255dfe6, 0x1a75f1b79f55995a, 0x6860cecd006f473d⟩

/-- After 1025 rounds: the value and the combination. -/
def u16 : Eight := ⟨0xce293a5449070e1c, 0x89a773b35f5dd1cb, 0x024b557dc20197aa, 0x5fcf1af555f6baf8, 0xe470d2c727c2b418, 0x6d8652c384dc6ca5, 0x1d8e70ad02316b10, 0x25986d82b26b9719⟩
def t16 : Eight := ⟨0xeb482dc5b44853f8, 0x5f2aae1df2c06ece, 0x0f2f493a852695ee, 0x306d06c325fa8062, 0x44a4bc27d8a03356, 0x042a9cb5d96d02f2, 0xef52bc0e06e1b5b3, 0x94d2797b0cb78bc1⟩

/-- After 1089 rounds: the value and the combination. -/
def u17 : Eight := ⟨0x46b6a1a3851d845e, 0xbe1d98be182b8b29, 0x74d233cc11c05320, 0x86494959f4a24f23, 0xfd3e77458b703304, 0x11b29d1a4f47aca4, 0xa57b2cb090657c84, 0x33f2e9f1167c00ac⟩
def t17 : Eight := ⟨0x554cd2efb9dbe8f2, 0x582ec8c413dd7b62, 0xe2115b4e0a58a0b6, 0x0c9df43886dd3c4c, 0x01b45b598f5b32e7, 0x547cd92ec3aec9e1, 0xd1408576dac6ed93, 0x296a75f1c6325388⟩

/-- After 1153 rounds: the value and the combination. -/
def u18 : Eight := ⟨0x73c08d48674bf8e4, 0x2d90be7ce4a67955, 0x3bbb1e35ec7827c9, 0x6612edb65be10a7b, 0x70ec51b6a702b477, 0x0de23a31bb484628, 0x47ce07674080b505, 0xaf31555d92f5fb64⟩
def t18 : Eight := ⟨0xc4a8dca46d8c5e62, 0x55cba1c2dd9b8505, 0x5f7aa17a874c2460, 0x4c6d0023639d3ed2, 0xe8e36fd669bd7327, 0x3af62899e870f865, 0x9f025292386d09d4, 0xbda186300acd35aa⟩

/-- After 1217 rounds: the value and the combination. -/
def u19 : Eight := ⟨0x406e932ed0e79421, 0x339e6a52d3a76d5f, 0xfe166611f4e05427, 0x955fc827c5db3806, 0x24712646fd99d142, 0x547cb64c9d806085, 0xe98bd72145113cb9, 0xce42d7c877898959⟩
def t19 : Eight := ⟨0x888c63466463a541, 0x685db3432c29cbd8, 0x8fd72601f6102571, 0x17c0cb2a82bf9d31, 0xe2507ee466c8e0e7, 0x6e355d4ab4541a51, 0xd3f160117843de84, 0x689aeb465a7d6c2b⟩

/-- After 1281 rounds: the value and the combination. -/
def u20 : Eight := ⟨0x30f2eb5107dd4ea1, 0x8be373e9885fb4bc, 0x796df7bcf4758d85, 0xd98caf04c156120d, 0x4bc9995e8e3e9f71, 0x03ce22cdf92c4e51, 0x4276ea04cab01687, 0xa1f73df2f55716ad⟩
def t20 : Eight := ⟨0xb32657de43b678c5, 0x8aaba18e4adcb820, 0x13a11ffb46e3ade5, 0xd8386ad9e8e561e3, 0x1fcb8d3c99982577, 0x551a46f4986c954c, 0xbd83abeecca5751f, 0xce94d60ccf61c825⟩

/-- After 1345 rounds: the value and the combination. -/
def u21 : Eight := ⟨0xe8f0db16348d0f47, 0x75d1b8294e844183, 0xcb553c9791c4e59b, 0x153c42fb38e8709a, 0x37df70ca4f84d12c, 0xd4f194b252afe195, 0x0b235c5140cdb44d, 0xa500694bcf08b5f1⟩
def t21 : Eight := ⟨0xce153665316c6504, 0x4ca8c58ed8d67f57, 0xafc165769da72f7c, 0xd3a3e46a53201009, 0xf7df3123554bd7c2, 0x6f14b24eefe3d3dd, 0x5829217ed62defdd, 0x264619b64a8c1cfe⟩

/-- After 1409 rounds: the value and the combination. -/
def u22 : Eight := ⟨0x949e3b719b8dad2b, 0xc9c9d4d088229b00, 0x108fd82f8de5a1ef, 0xd39d60a25f11ee1e, 0xaa14e951fc075575, 0xa706472bf84a8d03, 0x7d379f8f5c7a4daf, 0x4e3fcd0805eafd81⟩
def t22 : Eight := ⟨0x77f4aa46f8a615c7, 0xd1acd09d31a6a0eb, 0x4d37093d81d0a9ca, 0x83d07c3489bf8501, 0x1f3b1229dc3b9808, 0x54911cb3f6ffef19, 0x503695de639ddfc4, 0x4527fa5b5af2ee38⟩

/-- After 1473 rounds: the value and the combination. -/
def u23 : Eight := ⟨0xe68a7bb51a453c7e, 0xd3f060630a8eeea9, 0x80a7fda9232b01c7, 0x2ec6488f66c0e45c, 0xc8616b1f4ab0b059, 0xfb3756e33e92a475, 0x0cacfc691a6dac10, 0x54f7a741837fb464⟩
def t23 : Eight := ⟨0xfaaf6e57d81d44ff, 0xf0d49de21470a3d3, 0x8d925727cbfa9315, 0x0215d941062e76a5, 0x4ed2bacb337fe283, 0x03371bbe635b64ae, 0xafc90acd57241b28, 0x8af353dc6ceb5647⟩

/-- After 1537 rounds: the value and the combination. -/
def u24 : Eight := ⟨0x729c0b08d5aad2bb, 0x012078c813b4b317, 0x2e680ca19d0b4183, 0x627efc0fff2fa3ec, 0xa2cba71a3de21565, 0x09bd32fb2dd11faa, 0x3a9c954b8d06529e, 0x96da77ccb5dfc764⟩
def t24 : Eight := ⟨0xa3b8c99aabc45a8d, 0x896b022d51fca275, 0xebe35609817335c8, 0xb19e5d2ea43b1ac6, 0x183cb09a4bf4c690, 0xd42c08498047d033, 0xc6a7103d005aea4c, 0xebef43e49d420de0⟩

/-- After 1601 rounds: the value and the combination. -/
def u25 : Eight := ⟨0x2627d8efe0a520c7, 0x2bb65653fc99bb18, 0xb3352959aa9d9eb1, 0x8595b760d51b933c, 0x64f72b6781395464, 0xf9c9efdc00fd8873, 0x1fee580c845a1110, 0x2eb7cccb6baf0f4b⟩
def t25 : Eight := ⟨0x9ad52b1107c828b0, 0x37e5bb2b3f85250e, 0xc59d5872858900ab, 0x5f58712b7875bd47, 0xfc4395118268c26e, 0xd227a44153ea8d55, 0x07496e0a3d03ca39, 0x1a11594d74fe78ca⟩

/-- After 1665 rounds: the value and the combination. -/
def u26 : Eight := ⟨0xcd69c25cce88955c, 0xa63c075f9ba4db76, 0x2001bc4259d0ae20, 0x05138ab3a45112b5, 0x4314e10bb074e914, 0xdf0beb789400c2e8, 0xd0e68cd7be46139e, 0xe0fd67aa0929eb8c⟩
def t26 : Eight := ⟨0x5407abef8c2d4b8f, 0xd707966b543c6b45, 0x7decf194dc46682c, 0x9da778eeb3ca544f, 0x87ee6b514f3e44ea, 0x9049a9ffbf020577, 0x9e11d38788a493b2, 0x8dc0a4963ccf1957⟩

/-- After 1729 rounds: the value and the combination. -/
def u27 : Eight := ⟨0x565006af4357bacd, 0x7c7140c51e9a9882, 0x400a32d2378748ec, 0x46b8ceb1fe871252, 0x7aaf4e3316a3c244, 0xf686839354f28e75, 0xe2624ad315640b5c, 0x3df53a8dcb929377⟩
def t27 : Eight := ⟨0x375dc95255d9c29f, 0x57390f0f86e80ca8, 0x3454ca8669476047, 0x34f23b3b6046f0b3, 0xba36cfc441eab8eb, 0xeb5dc9cdfc6d7f53, 0xf7d45f12236b77ac, 0x35deedf428c6321f⟩

/-- After 1793 rounds: the value and the combination. -/
def u28 : Eight := ⟨0x777e7cfbadebfdf4, 0x817ea59137a8346d, 0x6667b0c1f49c3b97, 0x5f71ae323b5768b9, 0x1391370d3a675c5d, 0xf389c09d40ca8019, 0x088d6fd81fbb1dfe, 0x7b1c3ba20826e6f2⟩
def t28 : Eight := ⟨0x6a636315a687a294, 0x4afeccaac46c1858, 0xcdb617fcf87b7572, 0xf3b4bac147d93691, 0xd58c216f7c61c36b, 0xf51850ece06a7b2a, 0xb253e64593018fdf, 0xb9c40ba57329de58⟩

/-- After 1857 rounds: the value and the combination. -/
def u29 : Eight := ⟨0x06b2dc43e0c40ee7, 0xc0c232f261e1d781, 0x3a40964410ab7b13, 0x4f8df3ab6c313d52, 0x24c46a2be63212ec, 0x48a4bbb2c852177f, 0xbf0f4b4e9e151131, 0x941525a741bef0b8⟩
def t29 : Eight := ⟨0x519683d3874a55c2, 0xabc30a74d7a3f881, 0xcd3fd82d0b697269, 0xfc2e1afbea35e7e5, 0x07693cbc7a105093, 0x226ad56dca4f6a83, 0xdc3ec879da39ebb7, 0x3e4fd45022e5ada2⟩

/-- After 1921 rounds: the value and the combination. -/
def u30 : Eight := ⟨0x4f3de3248853332f, 0x7d368963198c9593, 0xfd63d94d051c43eb, 0xf48ca14dfbdbde30, 0xb9d6128be598fac0, 0x32636a016501dc2a, 0x62399dc211f350e8, 0xea6b2077193ec898⟩
def t30 : Eight := ⟨0x09f117b224594f71, 0xe2ca5a40473fcf62, 0xf02d720822981fe7, 0x1c5cdbda139b6609, 0x8e53ec0d1c322a1c, 0x43631c7cb39e3a85, 0x48ad569f3c1b7f9d, 0xa8bc89be03105f41⟩

/-- After 1985 rounds: the value and the combination. -/
def u31 : Eight := ⟨0xf8f373eac451f8c0, 0x040761bf8ee63a39, 0x7b3e60bdfe3a7f41, 0x2da4dee7e51f678b, 0x4149096fe8c250b5, 0xf3917a40e0fdbf62, 0x475845eca1186d98, 0x68d8a47f35962aeb⟩
def t31 : Eight := ⟨0xeae15a6964649ef3, 0x1a3589ee53a82980, 0xb7998b35b638bb0e, 0x3a1a9b5f383de9cc, 0x5a352dfa2b90b29d, 0x5086b03db1439853, 0x2fde791b846eaf4d, 0xaa69d242fe98e0b9⟩

/-- After 2048 rounds: the value and the combination. -/
def u32 : Eight := ⟨0xae4de1afa6b2e5ba, 0x8a2e5b3e45d82469, 0xc2b8dd54c85e4d1d, 0xe0b755989ae5676d, 0xa86b346ad1203947, 0xd3802c8d322f9c23, 0x6e6c495462c0958b, 0x51c511e1d9166d88⟩
def t32 : Eight := ⟨0x5eb00bbddcf06908, 0x4889a8ab91555681, 0x65f5c453ccb85e70, 0x811aaed6f6da5fc1, 0x9a5ac40b389cd370, 0xd086206dec8aa6c4, 0x3daea6690f20ad3d, 0x8d48b2d2ce9e38e4⟩

end KC.Real.Ab
