/-!
Generated from /repo/src/precomputed_ecmult.c:7722-8233: entries 7680 to 8191 of
`secp256k1_pre_g`, as pairs (x, y).
-/

namespace Secp.Model.PreG

/-- secp256k1_pre_g[7680..7743], /repo/src/precomputed_ecmult.c:7722-7785 -/
def g15_0 : List (Nat × Nat) := [
(0x892686371febc52014709cc6b2aeb5dc32e06b14cdae3d76b1bc04e7b9b5dc8e, 0x46823e4209c0815eff99cd7df3712f7809c102af0173b61f8de08519f19a3783),
(0xc7341942420d4e63263a144c8a10d22afecb1bef64f926a783951e0f6490caee, 0x925019a5212e9de72e6e2336c3e2aa759511396ca171412b53c8f9ff3743dcd2),
(0x0fdede5f38d83f9fa4ba3218fac6f0aa7c9f464e33dc59f908a3444efc0ed7e7, 0x26e4cd3f3dcd6a6a211bc8d06556425049c6db2e9946dcaf43cb42f3b0f20449),
(0xb2b5364aeaedfe4cf046193a6777ec1a1841436e3cb17c349d27f42e8e536618, 0x32b886d0f0f94a7f1b1d87e74f2c7dcbba4a5dde8e93c864f8f48bb450d08ffa),
(0x4c3693f452a95b7985e399820f31689793d289cf66b3326f3e1cc77e457f64bc, 0x48d7bdfefb8c3abb0584db0bd3407ed33e543715d4ede9950df0e1b852e12123),
(0x5cea23d4927f038557f6bc1fb926e59493250b3d6d934a169265ae0824a35e60, 0x5806886eb01ca7248434f2f8be33287bd9cb3c3eb927bc4b4fefbd51ba98b5b6),
(0xdb0a50f6b4558c1061a3ff881da60f9a77b42469a9713c8f8339b8a70b903d93, 0x7afa6cd257685f499635d15cbb7defacd6f94c17aa19be024e2efc70d84c45be),
(0xb0029adb25f32b758023ced1632de91b3e3e55a61abb56d50aada032f2c01ab5, 0xbaadabe22ebc5fc6d5dee65b0262e96c63c99fc913277d849ec8a730e1bbfe91),
(0xc336b0773ce16975bc2041698126a40ef8cad88606a52c50c5081ba70b878af5, 0x6f46f5e7b82aec01ad4993400fb90b81420b4a3f977579afd3eb0ce9c7d752bb),
(0xf403fde47232a9db9efda1c05df4963602137f5caacdfc931346dacbd2501451, 0xba30815c197de8f2258c83d8dd7ed0cccbb5388a415b86292cf5c2712e75bcbf),
(0x85cd71a2020beec13edd01336b0b85e2da056a1c4a48a328f371af1aee502c30, 0xd6accbba491c915e88474b92bf23c7402648085f88a62d51b26954b3f6d2d4c6),
(0x00324d65b3c2bc55d3b2a1251b673eccd26d2b23e333849b7549339f7f0d9a42, 0x83750e9532086164e9aaec58b6a2f00a3838d76a208d645314042334b4af616a),
(0x322033a5c90d7a319439c368b1301f1bd088974c915600630793b6f263b401f3, 0xa61f4714488bd2bc84bdb122c615ac94a7d05157e6d961df4f873f5a582e4606),
(0xa414ed01691f2a43b18dbda22d3d009ff94f8b02672e49f058dc2323b71f5836, 0x2fa3e483a12ba87412d709a9047cdf226b96523aac7f4afec93f98bef97ec01f),
(0x774310b17752d7bc0d8b3059f7f4cac9e661a8419dcb20fe355bc7be3a4c65e9, 0xb3333227469ec87f19e14e3c98148b4b45bde0f6698829e93bbc931356e18b12),
(0xfbb23c7b5c15bbcc7ad0118b6826e3853f6c40785342ea5711109f8a027dd11e, 0xb12ec70c9b4c908e2538f4c6b0b3d548ee199f9a1e9b6535f1c7808141664ad5),
(0x4bf836d70fa7308c89b075df1f336fc8af3c6ce064e1253f853f623dc483b400, 0x08b368da424e5a8348cfe98793d47a1e1e9bbeb73f5282af82e12e4ac7eac850),
(0x91b4a84ae521232d71e3d20249dd1b3bd134509fe3e1ed1a4e8b5062a438bdd2, 0x52d305454972471e6900afbe2471e1c916c82ce22f955ab8454f9b65b70ed759),
(0x9751092f62147caff3953cf48a117082037a78b65bf0de56848da1e94c3c3a42, 0x57fd0a15fe069db55fbe870c096d42807b9ebd8733908bd749ba0121a900b08e),
(0x544392846f6d46c98ac10a58ac3c34b73cc5569f8f9fd7f34e7ad2be826bf293, 0x1aff0b85e5b9033d7c44e87757513317a17734d113043cd0780da0322dc3ed03),
(0x172704b7fd7f5560f17cb6ffff9a01449a05a11329b86df00a8d3256ce139a9f, 0xa416c0afb170cdfe169f894ab10aa97f2c068a4fd70a6878ec9f359fe8323bea),
(0x2236799aa82d4b645f412aefeae944b5e28e09968a243ce5b89868616f735dfb, 0x7f20b2cdaf70cbdc6aeec02adae1535d4bd919c2631ed69b9913771c02f482c1),
(0x6a52af7fc6f75636c33047b89f0eec31066bd97d8df6579d02e2a4416ec4fe8b, 0x4eb0813d220849bce0b948e9a6efcafd339f8861eacb9885040ff8e1acf1efdb),
(0x8696e0b4ae3f0deabf6d8dd3854faa5dd07b01a886f710ad9b4cd84a5d61a617, 0x67633be1a662024f77931f0638884175d2c234cdc47096374711c79f42a897df),
(0x6c4b727e3bf9af50fcae1ed6163ecb00142d9a53b6d3f54c8aa140641358ce7e, 0xc4f2665f395af262b30561d148bb0f4af560310280f57f401506ec372bde79a3),
(0xa51d229698aa29a96d0e5510f3e815f9cfc6d492dd0b2fd5bbfdefa4984a6934, 0x861f08487658d4a0141e9d38aa0e268f40bad7c9e2615a377a4b974a6828d525),
(0x1afc4051cfb5635f9c2a84777dee5fd9fc4d40a83ebe2f89f36c0b9d08327288, 0x61ac4eb916567e13d1b03ae7ad5c3d8def85bf6f387c511ebba6c23796e95f7a),
(0xf8fcde055a2a92dec65d18426607a939b3475abe2437c5d388387fd4afdff590, 0x4cb8f7e2825625bae3f179bd4ef945606e18634661edbf488ce51ea8ce1b0404),
(0xcb3dad827e7464cb5fed0cbf7e29e6ec112ea411706d10e5c1fe6fbc0a04a3e9, 0xa33abaa76c9afe3aa8ce5add07a2a056b396cdda2a0021613de97556a0364629),
(0x39d2cea0acf8059ba6275a08ec3a3664f09cfc43f143c317bed8d75133d4ba0d, 0x6beb4ca3d3009ac8881d6d15e0a29eda6738befee31707d7f95eacc5fbd77192),
(0x90bfc4da3be2d74bff9b5539d0787bf44a1b6d7c2baa14a1dc6801d442187f96, 0x1254e7eec8acb35cfa0695c585f61b69def3ef5a6219fa97e3b09dbb0351152f),
(0x50772bcd454ae992f97ac3f89d8193d5ed50b69ab2e62e04d6a115a66e71c977, 0xf199a8f6f78b0b97cc20316f6617738364338fda03eee7f0f36eb0ff64accdcc),
(0xafe51284f033bb43ac6feaea9520e83ef2cc1e429e273bc31b08716152ea6926, 0x77ecc4819ffe6efd3359290717d22cebf4344c9df5f5ea4e4d443d1725c8aa1e),
(0xb0caf67c151b838e4ecaee09c7908c95bd3ef86c797a5a8d71cb3bf03a46ab17, 0x010ae7567bd2f6d6712c448b34636eea2c7c3d999890130814825b4e423284bb),
(0x0f2766b48cac8f6a80a7cf3981725834d186e88d735fc7f15135ce5843b3dc8c, 0x63590fcca4e21c3950cd78a0569c0d2e959254e14bf2ff228d8fb216b53601bb),
(0x80d50e7d28269280f8ce0dd36afb9f4338df0403d5661c9927ff817a46f60a0e, 0x22fec5b97472824a9b2ff25a68d947a50a8952aeb763f37f702289780514cd22),
(0x18114ad07097b5f37d788165e45ca1b8462da0b578e5d37be4be363235d2fff6, 0x87c5f26139cb366f25fb6bfafcc8408bf4c69c8129df3cfe9190213f8c15a66f),
(0x3bd5273768294cd873a488318f958e4585871165c82cf6a39126e37843975444, 0x8c92d391e39a50f34388510fc8dbb68627f2925192ae8edbb2613948c01281ac),
(0xacf47eeb526208ba8a3de26e481a86acf17f5f8881d89d43ab8a5a26e00db5a5, 0xb451b4cc8be8339e4203c91398b9a29ede86a91d3e34768853442446429ace0a),
(0x5e39f37587a0753686bcd7921183c42420159044a9f66ecc2bdd552c62ec35c2, 0xb7131328297c69957df6783bd9bc550d05c553e1030bfc3efffedbd75e2d003b),
(0x315b67c3d980796f6f0a5505ff2d25f28551615d12bd73deb10c4897580371ba, 0xdfaf812f7525e0872d11e10d612004cb3e2a70248c40416e5020ef6682d3bc1f),
(0x8f6764f77381039662537cc5aed6a8e0318654cda95d869589fa471aedd0d7a0, 0xb91cf5db2994d207135c1dbfb9d9d78f7e3adea58c176630c09140b7f5c67e84),
(0xe844b948118fc6a70eb2f96eece3cab6def5594075c7b7af0fcc5603f2012f96, 0x707668d889db03d1561596daa831aa92771a0fb9e1b21273d11a341582292314),
(0xfbbedfd84144785efa71e23459973cb887deda88971eb62a3007f3501fd0ae4e, 0x51d23941cf84f121ff1e6a5d651d95286ef1d8030819ce643aba8d1667ba7dd9),
(0xa01903990c692b9adb172ba8348b404f19442b604df60142f6330f36ca6bf352, 0x6ce7491ab53290422555606971502da1601e3a04f38601d080b3165420fb527f),
(0xd240e1354b9e6dc9110a6b25afcf35e074fb02faf3dbe4844f46818a89bca65a, 0xd704be81e25974606014ffccef12563b045faf243e07072764f341b87dfcdb7d),
(0x39bd84aaf8a15b0b0809888f133871f30c40ea5f02825582a35fa9a7808e5e87, 0x94ad6588658752fcce45ea1b752ecd022b621c5a26908cf869c445841d831d33),
(0x2172be6edccfd021a56a553e53f814c7c7cdd55fd181d6714ade45e772093142, 0xb21439dff7229e61cd3b7c77fa750a94660f60a753da96bad8ca7e2069abf76d),
(0x57db209da40f30aefcca78382ba525e2231343b9250a1b1f67fad7f4d4079594, 0x34ce9bacbd35557e2f73c7184287b4930c524a3ad6b403f4ae77702642fd37e3),
(0x845c2bc33683d8998b90a2d5ff2990645214b272a056ed9363621406d3a4cc11, 0x44a46738839b2e3e1b6b19bc56a1ff067754126b20654e513a1f13c6de4c6535),
(0x705af30b251cc64a26edc929e3e9ff3e032ada2e69c2cfd0eefce4cba37329d1, 0xc0e693eb94c0c1f6cf1a0ed48c9b13aefaba8ebd926c4fe3ec9071be2db463dc),
(0x9b2a64df009b1f8e34844e3d920b1af3014df1b778b863d6f1a6b94a869061be, 0x5ff03134722faad1ab6f87f0bc3c6abe8406bdf36506b6626d066ce1fa6a7cf7),
(0x494967f01a0c07dfe7d9a8b3e6a4ad13893a894c026192387384e38ad514cff3, 0x11ba080372bc4ffeb86e25c8b69ea4505f6e3b24504b5e38210beff85d82e1af),
(0xfd547247812e423355c4a9774dfecfae812ef2f8f3fd832da3af2ac9257d50a4, 0x65ed23c4d776baf4053faf3dd3edf65a5d9935ef9e22fef253319e220ca4bf51),
(0x4aa16ea268ae95b32f405fd96fa784787c3690154c124733a07c1953874b6246, 0x4306725f579fc0132cb8c6407361c7c4685a2a49532fa14a360107797f5104e7),
(0xde6fdd338b6eaad1bec84d55992a5b74aaca294a5f804015796d69c2cfe67add, 0xe58564e9d2cc10e7184d65b17e0271a7f2e590730bdca05fae664f827e6fba13),
(0xc8290adfd0da5f1d1805f36f288a8709eae0b93b1a7490da5ffc29fabf834592, 0xff161787f096e022f513afc4e0b84d73e7f9f347798e1026931271b08f1c8a87),
(0x1b95c512815603a619750d6e463d5a3355f09c2256484ae98f1c76c110ed8fec, 0x93b3750c3a1272d8bc9e4c52b5efb6bcd794c2c3939bbea61848c9ed423bb39b),
(0xac0d9939104bbaf4d2eb2560356f2bd4f1037ee8397f0703b7ebfb49463a22e3, 0xc6e6d039d6acc470c1ee1013722c4a004c59e47211da302549351216f0bb8985),
(0xd8c8f5b6366c1d29b2f28f538645b17cf001ae5971a19f05fb6ebb3e9e36faec, 0x05db24ba6d78e76b42262b65e631390c8540b72a0746cc5bedc1b6818b1a113b),
(0xd42ccf6e6d1c663a3dd95fd3c016d5350c50e394fd63b3532949716c49315737, 0xe7337f222d353eda651087c513cfea4396e9cc5e22aefb4a5fb3ea8b579c7298),
(0x53417fa24871adb76d875c0508c46065681f637295d221dbea76d88df687b817, 0xd014e6eae00c4ec8ad931dd25cf569d2efb3068f7aaf5dedd49785461bb31d76),
(0x202e947653b677a8d7aca305c52af8b9d33b1ec4c5ec94fc5f7775aac478f150, 0x539a24fb211da532b378f3e5cdd688b5c57343c82e03a63739544c8b34e3087f),
(0x434f102772aa05558bcb2f6b1f64bc8d72bf1bb28b972c3af6f342d5f1493f93, 0xa9db9031f2d1b8b0e5840fc2b453497090aee2af5bbd83d2c14a5ad8acbf8c14)]

/-- secp256k1_pre_g[7744..7807], /repo/src/precomputed_ecmult.c:7786-7849 -/
def g15_1 : List (Nat × Nat) := [
(0xa0e54d1af09c47f7cf56d3a5725d67779fdf920d3c1dd566caf71666de7d5d17, 0x87f5db7f197185b473cfc2937b0661ce1ea92099fbb5115163c2b26d47ba97f0),
(0x2d43cada5455b682f6430cbd96a2e316ac0b4b27e9fb8777a94dd2c581c0e350, 0xbcf181801c1722db1bd9b8f18a1989c0fb372acffecbf9f2c37ec4b3b459c916),
(0xe5e6dd1206340f04431552e9903ff4a3c309ea1ec498e483e19b9cc137418d4d, 0x58d35fe2024ab47d0093cd53fba322524a3ea9b6d96390df25935a1bdd12126e),
(0xb112e4d3ff9adc6f706cac35195843cf302324e506aa73059c8b5f3a6dd7dbc7, 0x4fe767146529e6f6b0379366334595beefcc7cded3596ed883e3b30e780dbccc),
(0xd26b5261ca7be73995de1bd4d75991ef4d357fa25c8d513ae209ac6f064ad960, 0x5f3b8e0774e78bb75c395bcc8512f2c01b6c451b5c8d6ff418f9ef3530c6d046),
(0xe2e4f568eaf2807ecf43ce083146e96192271bb8d6d9b24ce7315b001cf04fbd, 0x56894a0258093a3422f2ad5e548158fac55ce47ed00ede05404344244e204b93),
(0xa62080a42d8aa30732255b2ba239d9fc19729eec1dc24bca676527059b1182cb, 0xae848a12893c34f2260c33c80ce2bcb714fb14388e6f3f06d91925496a9ec13e),
(0x684c16477771de55ddea8aec290c1e2565120fcbfc8ce0db4316dde3f5ae8d91, 0xba85dda944dcfdf8cfca86dcba9026753d99e7515719e57964e0fa0c03be1f06),
(0x3d730e7aafa97950bee35934da18648cd0bd62e69a49281cb63589d05efbd2fd, 0xc28545f23dceca1aad0a9c7723b6151944a3c984d57517a7cf6702cef4dbb630),
(0x337c9584b49a49d929b1212ddee7ecb639f007b89ba94180080c9548459c48b7, 0xb26db3173e996893fe1e0797f75cd05a2eb23ddf4806407e1f173d2948bb0bde),
(0x7013edd6f49ba92f9c9757d1d3374229706078dfc2e9c64cc2e84cbe85c6b5b7, 0x0e8504197975353b2863b577d6f0c392a8c5bdb42dd557e98e9711145e078de4),
(0x9877cf36bde592fb5f4a45812bc3c39c68ac995623b3487a635d6e4589e26e1c, 0x6207d384737a0d80fa9f42e0576845840efe1fa45cd73eb7bd50abc32722f159),
(0x6d35bf571c91a2ca1765ed62f9b2f6800cbd0955bc76332cc83a73784bf3eafd, 0x47a589b515a88d786f94f64d674182e97dd12450ab3ec375a9a31d8a375e5f7d),
(0x40ebcc0fbe3a2a59968bf6cb4d6388735468b53280a9c96b639dede3171db2b8, 0xc2181816ab9f0d72c5cb167c5bbf7e579f17d7f4484996e63a23e0dd5f5d3a8f),
(0x90de4b6c3a5ccf14cb033478577461af8c3477319857ff4079e6ef275e557b87, 0xc534bd97a4af903bf307c1ce549a997670edb69bc76ae827f277ffe8133cf394),
(0x54e89b59b73c76b6cac52433305c41b68f50df669b99f47f599504ee93ddb110, 0xd307e8281e89cba486ac125c01c5d8bc943394ee222b4b06f4e3e5c7b5da176b),
(0xf2ef67ad60858ac9fb03ad25f75f85e2e5ac151d95c96967093ca08058756f2d, 0x92c0dfa9372e1e7b7363f2292776c05956742f607b100be356dffefbbcda8cf0),
(0x65b7d935a71dcb6deac70b6491b9fc5035c63f21655a856bafd00a3352f5be39, 0xb0773657cbdd38138f50813c558ddbe03f8ad81de420401f175bade71429927d),
(0x06e950ff6471cf6672ea542fcf05aea82c2e1e0ac22470214c78895ee291ee22, 0xc0ca0886f0ac828e021a5c60776494fca6f19e71741de92ec11323e70e874788),
(0xc3b15f8f96c0079b471896ac089d7d118ea1607f18a20627fb18e1ff24ee3c1b, 0x33a033c668e3cff6414835a6ae3f89f6643326cc7e149f5699ab4fbed5f506b9),
(0x9e333d9e1c022776da901c19e6936c3c1af45491a93e9405ae343c54775f36b4, 0xc6734e913d0136106c77a1d3ced1babba6c6723e0316c3fd34a7911fcef616d7),
(0x398d21094c0baf8a0ab63ceb6aa6b64c678bbe86f7e01b3b8c0ff291450244bd, 0xf1ffb185112ee219024a1702183f9075471611e954fafb4e36f6acc84ac7acf7),
(0x08f99c7d553ca4eab160a07b6d45705890634086080c709c530aef44bce43c8a, 0x52a15e232e90d233211d707d5849e21401f56e8d189783ab3c09f37db86a776c),
(0x8d798338b2774399487fe227e2d883c8396983015f01bf00d154f4f9296512a9, 0x7cb53de99303a6be9aee01eb3a5c115deff0e18b2cb5e85275e9b7ff53e35666),
(0x00c9d6aaff6b648d69416bfc6e4688c5cf13b71129c785e73ad1e04fba02be57, 0x9fa834465405aa0f332a6aa1922e3fcb90de108adb01796d9045d423ca0c2632),
(0xf736cad3f1264671f2e79bc9c21551c4aaa5da0fbefc1928b9e7fab1f59c8c5c, 0x2ceae81d16206893b3810abfd2aedb5c55b792221346cc9c908346e7cd3e661a),
(0x077489657c1fcd79060fa4a836feef6d835f960ad3b850097462a71e8320a34d, 0xcfacdaa12906f705d83212b155475160e02cde2071fc5c9f6a6d59b68e100aa7),
(0x279f43f1e26ebe7334924bae563a0e34e5cea7f0eb9f5702129fa6cf8b0c67a5, 0xeb5a49afbada98307ceec50870a490277d1cd6f76f332249b2cf250582a2a828),
(0xcfccc0839bbcc7d35ceca5753b9148e40ddd44645727cf4726f33d62d83a6a03, 0xe3cc09a09d26889ec969c734a3361dcc0d638b17608baa1ce7cbb99da5bc23fa),
(0xe60b045170c2e3bfdd627fcc5eab1218d3d598fea41f6bf1dace1a352daeb287, 0xa493847f04f1d3bf9e90c022851bb652691af15cf4c6c539bf2831ae9cf8f2c8),
(0x11875535ebc90fb1eb7a08ce90dede09fa8cce24b3911fa644ce81118848b433, 0x2fb1757e38148919bb197d4348aa536fc0f06f9a859ef737ea50b1fd082968ce),
(0xc69559b375cdaea356003ad23edd8ca6c415868ca13a30d911d4c694f5822179, 0xa39427b4914b58fbdd35408a67ace8728c299a39278335da9228ac8524652906),
(0x625ff5c31e951b2840f431fb4842f5108b738722cdd52c4efdb495ede42f1f7d, 0xa3eb00d74eb30337d3f61ae9d595996ec7d5a3f0ceb39f233df0f5ff43298d7a),
(0x1e2fb107bbb466668c31a9273ce57baffd1df9053fa28286196a03da74327c2a, 0xaa8823385261bb03a8d8793bc8f9833097c2273146ded3d80966b16f337643e2),
(0xd0cbd747970ab0f619e5e4e778709399b65b3f1424a084b4a2dca8ab10d76ebe, 0x7b5f778a94d3d75d57b5e9793de246bbf36669dfb7dcc24aecf4e1532025b73b),
(0xab4c057ca40b84f910142209a5c173ad6ef31616db80bd1361959f11b739f9e1, 0x598f12b34695bb27ccb2fdfea0911eceeecf2cc31063a3bd42dd100fe93c7ced),
(0xf9c11e912cd3cf06d31e479540c703a74f5f31008e6ce29930d5f08c7307276d, 0xf873ce740bab3785156468ce3d6a8cbfc532db232a0a92fe91d290cb0ad08713),
(0x2d95744a79c4d23440e2f40ca83cd89e6157668621293dab6716072b2089b77f, 0xa25249bb9dd8a94d44576a4d7ed800c19adc5e2682874ea05d63bcff2f6b2704),
(0x3bec0dffe9a96bb10f3cbccfcc96ecf7e1335b1b86f13b636467fd315cc33abb, 0xe31f8a49dee2408a2d0b92884e3813799fe404ec1d8b96ab39413f8252b85b5f),
(0x23721d31616051ab60287a0c2b4ada421bf00825127ea0eb1341beafa207fedb, 0x8cafc4b540e6f3a86fd1b54687ff8c3afa2372e02469607159b6e195f633b169),
(0xff8e494c446cf1c4bd5576150a4a1ce2b8d25bac62a8992900993cfd51d45099, 0x113e1b98555ddb77b8680effc57eeb964038de0426a052898744f8ca4f3ef028),
(0xf170cffff158e36881cb677ac9d9512a3c1705c4850d5a8517a666367b0cdf21, 0x49512fe43ff0f91db9ab918b808ac11cb5eeb4cbed905f21adce5e4e42ebbf7f),
(0xe9ff6261d6c05d6e4e35e37357fca0cd3c3ea8844a33e504df3dfa2ba524d158, 0x4969683b9af581c1963525b4e8244e5e6b7e7e48f85c1fe01e9f0dc2c66e591d),
(0xc1c4879ab614ad86cb64d15ecba92aaf4d1c774276d6aec34b59f731addf6cde, 0x6d7185b8fc1b99be383a7a5f0385a08fd7125e3e0f72f93c25063bfad44abeda),
(0xdeb0c0363818a101ba38a6575c0db8e4a65f824d57014dea1c1103877bf2d9ca, 0xf658d43bf0c106cf6b45e5523fcd066ee754180e08510b5843708b5ab40dbe32),
(0xc4d4164d0f782df0f536666783e5aa9a8b05c7c691c47a49147986851da3fc9b, 0x6c394d4c3118c8a10030bea22396562f6dfcf8cb8f0a91ec20a43bd1548bd80b),
(0x94d83b82f6db0da3f1bc24ac8c5bdd0f6e89cf2abafd33bd2fb3ca879cf63a84, 0x9e8658be59d64a287cc0cfde1f35b83fe3e098dc6212afacea2344372591f2ab),
(0x9de3fae6e6934304a84eed5a58e077b376da731061859847d6abecfafa650dba, 0x7e4cd395ea8b90fc20850be24ba8dd83e79dbc4f4efed68f504eec04f9bcb212),
(0x251869eb7a567c9b7866c9b5a829206d867f20928f3a6fe646ebc3d52df7d99e, 0xbd87d706c49690a19e0ad77e4b3b8f0c5efba7e12a448a3bb4ad3c7d44e35e7e),
(0xe92e5aef818b2980432276733d15021dc84192d5bc9307fa1add63a28e888a9d, 0xba3a315796ab2051ad53b5e7a058f700ea90e40cc5855712d2176a0ac232f94f),
(0xb6a8a783c2716ba8009a37c7d7022dbc25fef8f676c676b8267038ae64a33258, 0x93b09e158bf081ab9e69c4c16d965743cc08ad85a8eb248c9c67043ffe61ebbf),
(0x26e95f267ee205ad50dcc75d823308770394c56c84546cb372fecda5f57c2556, 0xdfc935f863840ca471bed804d0c2d14ec9528a9bba1e6f256545311e5cae673a),
(0x6c1ed40ddd086dd82fb00bbed969ea907e36349697c350e32d0074d33e05bc13, 0x854d177b5593cdc3ab1e49030c64be022b6b0cb225c713909316faaea235b269),
(0xa9286b2e81030401c37d69cb01e73caab1c68a4f4ce1538b11ed850e67d11aa9, 0x64ab5453c3a1166c18f351151f031117e29b1a31237cb2ba51f1a873529766fb),
(0xa2b862c0ca02cc3ae1bc5737876f81ed83dffeb24e6954c73cf97bb250050cc0, 0xdb3a03cfd704f98ddad8f48c5861988a1caf439db50c196a32289622b9a49b3d),
(0x1925939258c25edd953117d1fc7a74a4a9cc2fad892255e4fefdac844784c917, 0xb86a1bfcb7bc8844abe424a5b7409abf26e8ac627983fafa70dbdaef43a88eba),
(0x6b85864b194b2cfdaf1d655004960370306ee34f87c91187230de0de42fafd09, 0x54a9ddf387458a54cd305e0661dd43f83911e88adb6f0256d19cdf153ab4b388),
(0x407cbd77b88e6d4760b07e26f53fefd12b98bed35403c693e7ea33b4cd74b5c3, 0xeb73a1d0fd122265dc880cb2920b4eda610ff1cda74660aa7cb91323e5485d60),
(0xf65cd6a4594299a96cdb5f9a7889cf4462cca331d3329f7c43ecb224d58c817e, 0x8c906c4a119256979f84722a9440d2e50f97e483542658b68538aa0bf10f5572),
(0x2ea38854775422db43eb69b7bbd47a6ab8ef169428753fa808cf49c89efc6e63, 0xbf6f2d212b21c740a25dfacbbd22436b05118f1a2004bb90adf580c96f21f1e6),
(0xf2bb481494677f3b6af8aa4e6a3b1100c2e0e99e289536e70eca3e61a20793ee, 0xa3a788bb2a8102679a3d98f26a9a274091a3a29c234043aeaacc488a67849762),
(0xe157c4a284354b8a73d5e5ec58dc1ceb2396ca3d7f651e6f4547aa7899899daf, 0xf06970d95bef3e0be2bd4597a1c96581275c97190605f63f9618816d669a0bc3),
(0x25aa7f3a3a14731fc7fa3b8131a569e74bf32c9e3492e626aa4a4316f263cf12, 0xe5c2e210a8a7518031778f4f4737a0dcbd1a13121dfb40c55c4358034bc3eeee),
(0x73ba22088cb96b2ac23dd2a97b3cfd2dc504ccb6024c2dfd5062f8e2bcc442ee, 0xab9d3a1c06bd762b9cd866ab07abc0e1f898c56761c7071ad64d5233caec0ca5)]

/-- secp256k1_pre_g[7808..7871], /repo/src/precomputed_ecmult.c:7850-7913 -/
def g15_2 : List (Nat × Nat) := [
(0xda94893b3e73246f6a72041a44c7279edd8d4d3d55b20db2eb0e08df4c5837f2, 0x6949f6528601b0fee572ac0389fc35306b2d09d7b59c40c7a1a607cf51684006),
(0x908480b235c49b1112bd65045b3a8e137cbd4820030468801688ed05abb8b7b5, 0x8a887f57622a74823fd40b26f58ae7a018d2d03cd5ed31cb93a529e3387fec7b),
(0x682d740131c966e32a8bd15027fae9f54452fce1360c449b1b20bbd0257d58d1, 0xee7f773f9d074436685a2fe721b1b8299369f543dcac37e99adf43b64525c19d),
(0xc8661c4edbe125bca31e7a2283aa0f9ab4b3ae708512fab221bdb4d308c89fcb, 0x30299a1716d3fe047f48627e36195b21e6800d4da26dcc6396c7fea508f25a2a),
(0x5112b1c62b88e704f0d2c731834019aad51a108e1a8614e4f6e62f680d7372b4, 0x1bfb5f8aee37bb825494c9ce651d32d8d47e5a294b9123e07311f2609ab4053d),
(0xb9214d3449e16aacb90f6704ee589f6d8fa45126be235e9b61ef3ebf2150eb99, 0xc94653412dbb107b965d177fde11bb25053e879569814d1734ee9ae5267529bb),
(0x941856010f9599991999c91982e5042fb7e68583533f956973788d5c03a087b2, 0x5e51c755de79b6d2eb640039a4268d3a601750c8dcd0a942eafc93396fa36c98),
(0x3cdad3b202a707d990fe4228adefc934e8c69a9a8a4cbd87844a6ff5a073f511, 0xf6de425f26e170455589e22e7824daccf8cb8561832db31ae8fd2910558ff9f3),
(0xca986704a0d1935e1611e17660394d007d2aa1cdcb17357bb4a557e4f5a4b5ce, 0x8d527934a73f2b0db3cf571aac53b3de11ac99d46ba995b75a09195eb10bb5f0),
(0xf59201563ec396c582fd6090002d98ac2d5dcf5acd37e651a1e80c43f76940e0, 0x2e821f197e27f92720230f1d09e26dff5b3d977e4b4a6cc67482f3ec03cd5523),
(0x9ced8c1ebbe0d213b396fb898aa8c24d870d305de9346239b2cb03150c883cdc, 0x79367b214a2e21fb1e9b24d9fed6a0ddb377534d4da2b5016999ebf70f77de2c),
(0x5b07b283ca2627514a10817ebdfc8044883f4de338cae14fde955f189713dac5, 0xb8d6d9f68a71aec63b7bb44d1d2b678c75ff83c637c254c83a14be30a5957b5e),
(0x4c2eb4cf3fe64ba021297b8e321cac6fa8245614458489331945305269337386, 0x35ee24731830eea985171af096b6bc0a72f3e83c6d83f8af8ef1131dc8b52c8a),
(0x5f24fcf5f8c0bf43043b8a0eb3b6d8f72901c9026d43f8de4bcb1cdc6d5019cc, 0x87c2a306138265bb59b2b2b56992fb37b2ab28d40ff4909fd6067e2b4f312cfa),
(0xe26bda51c385a8755083faf56a9159443eb351a788e1597bf17649b9b23ab8f5, 0x35d66322ba25896d2a14a0a8a3f5bf91d3ceab499b2683f50db7f58e68ca1071),
(0xae5be06ab1ae531e5d2338cad929b5a34c28303595282aee7c3ac2598196bbd6, 0xf4f486a5bf11191c9134d52262ccd692cc5c6686c9013ed2782b816cda416d25),
(0xd143463b4661a1736b88f2746b3c20c6d054683f9efa5221ffd3badd14804880, 0x77b280557aa11d3db2ac8de2c9c5757ed0c9b0cbaf6fca3dbb295bcbc3ff8afa),
(0x054804f728ff88d0bf6fb4a8a24d4eb0ee5379f930f890f78e31afca87f23343, 0x79288e99a38accc2c59ff29d9da5df6042d6308945900378c40dd7652f0f5626),
(0x68c21fc993d41345484cf5c98aa93bf225fc2c01922a0151cb3e247cf130ba0d, 0x9c43547823b9d8bc2e8ba0f38f2b60dcca5b60300eef51c6cdd20eb5a02c6245),
(0x2f50b87096b2e15d6fb350010cd8f95a875cea3aedf21a2bc433b2547798b856, 0x44b09dfce0b8d52217e7d9f29bbc5d6f9886fe9e3e3606888d7c4e70c3bea0ff),
(0x9d054954f0c22da5f330b3e069310a9366b721292fd3c98e76464796847d16df, 0x45962d48143c94b357400130d3e050a74defd464223ad599e6aa947b12679a85),
(0x31980b959f51a6bd4cfd9a11b86dda390af66ffb97713ba73edf8c10462d5685, 0xd0a029795b45ba4e7464fc477a09a90b7265f5aae6b0d655fca5828a837c2840),
(0x0e9c0615f04442341f522d93eda33b298951a2677c4cdcbdfa02a63ca57d1ed9, 0x7aef87dc7095f48305ebf2b3156be9ddecedf54b1b0c739fc513ebda5c5f296e),
(0xfec8bd3ff19fa6fd17523af627384c7c6c92fa850aeab8bfbbdd217889b12650, 0x0d01a2786ee8f9db38b1ceb1a3fb1df6b631c0a523e92460d0d513671098e414),
(0x2094133c86322dd7ee1abf802ddde826e63853426bc87510dff63f3ab94f54eb, 0xefb2ecd213bfda3a227b791ec24ff62717ab559f1bd289b7e7db992fd941e850),
(0xa34c3385ee882646b44bfbf0f64225b2fb86df27c616a2ba6cabbb68cf36f3bc, 0xe99bbaac57c9f5efc64c66876f2bd6d3b9ec8eb5f9227c989a768f3423e91422),
(0xdf09dbfb564515f3a6d86e05dca59a0ac353746f0b291d9cadd27d686810cbec, 0x90738e506bead3aac0cc4a2dcdfb85295e752945a7b2e3571a99c90149017c47),
(0xdf9817de89526a26c61e4294f245ce068b5e22a64937d5f96898b9ed74078989, 0xc4db6e86c6a4409123227adc345d6eb7d2f12acbf2df3b44978a174394072f15),
(0x2e7133877a0419b37bf7787400b24fd07cae9fb159919a500223437b7746eada, 0x5dcc4c1e12502573b052081716fa46d18ba43ff7e7f8c8cce3c141ca6176f805),
(0x99826364f00613051ba033ad63b9588497158ee69542d06af2f86d9103bea7a2, 0x5f10925424af45922ab30701464d504d6006969e30a9ce5d76a3b1156158c6ea),
(0x19222e8b5fec6d2f33a35fca83c3b9ebeffb9e3af2ca9c53929fe5f2a43bcd32, 0xc79b4f984621b2c1d627dadef01fe7618af239e6b80c23eda2dd1b1be750549b),
(0xe0ea59f86b7925d3ad5112808b1ae5edc0acf6c6d4ed0846d870a66305573970, 0xbbfa69beef531b325272ee028c88017857ab2a3265b5a6b538ef81db83b5de52),
(0x7df189b7c29c06ab83f7d84958ba3d1e7da3ebcbfeeb9dc464b604203631fdd0, 0x88e00d458287fbea5c14ab336a879948e81d9798cb82054b772728a404b69e56),
(0x42b9867e7cde3ef20b4b73f3e4df7504b7f06cb067aedabc16edb27697bbca58, 0xeab47aa1df9af0f540d1c6d2ba7edcc6fd436f56c944c8721e1f495863144390),
(0x009ffd9a5535bd30a697f61ee6fd0ffeb1a7e5c19459bd3a708a71123a3da54b, 0x79fb0a7a8334fe3864fef8a760610920af2741c1fa41f58237e92acc29644011),
(0x13ea8e5d1116a57f8b223a5f79c750de6c25511d558e6878e92cb1347b81e393, 0xa41efd37d35ea9948175d989cde449d0e325b40ea247edd90e8f4eefe6a4d283),
(0x110d401b0d7a1a0ce484fdb234cd839d5e40cad86244cdee5c4f2ba3ee1e2eb3, 0x0cdd91a54dfa47d298a46f150c021a38975ca108f2653019460134270349d7ca),
(0x48a9f1a2fe29b05ed419a14e8ed288de46affeb2296522a1f2407b76a8f6b040, 0x0f1c5ea7887c029f67202b41198113ccf1ba561779afc1ebdb0e10ec5b5d2a91),
(0x0d8c4d9afeb94e7f7b83146477aa4e3ea48b6af5350159414047cd011beb7176, 0xfb8af9c8da06c2b808787793bd19d7ca6cc645087713af454f5fb4c7eeda3c2a),
(0x34e844172f5ff4a270a9064cd59943279cefde94d295f4242c491efabc1f0839, 0x2da40cc05120e4e78e84435f895a3ed76c507bda4d16cd14b602deb4366ff9fa),
(0xea802ca2f07a4348791b7df899639d06c6db8d1574ae8441b29c2d1818b7a6c8, 0xea475a0f5f74e6feccfca44bddc38a4e3cc19c49e2bffa49a95721466338a155),
(0xd80542c7a7be8da66346d8674154f65ab1cc8e9419299d8106a5c874f25ee43f, 0x5e85d69f0b5c72aebd94b1e4067e0d30df8da61e4150f4ece3efcfae78d88d25),
(0xbdb35e497c1c0d1d7a1203660cd259e7031cb2531bf804aef0c82cdf561d0c0c, 0x2675a4eeaea6dfed8597c08a69fc251b7bad9869e83f485a73dd1638605915b0),
(0x5174e27a9a1eeafe6411f3afb627223c0db0da116bca0ac3d39a3080815e22a7, 0xb12230465f58d183fcda2603e459339851ed87ed6839d9b04c845459daa3d5bb),
(0xc8b1299b1b2880ee7720ad036258834944bcc3096a7081ebce10ef20ab1f6731, 0xead86be885584e4d34ac18e3d787031f72feb217694a32a076f2f88da04f3440),
(0xfc1378cbc42fd6e2f61be9bfe60bb2c9b36c5a0a4aefef09c8287a3cf1310d31, 0xae4ff85e5b22d2fc914192d628324d1251ffc4691ba8ca13f8347edb5a9170d4),
(0x7c0bf943023e7c1a8004b23cc05327a4d4127c7beed27e3c4a825e415f3c3a6e, 0x30ad62ecbd19f80aa9dcbb5b145d18af3248eeb21d14e648d7fd7217f1089728),
(0x2ede5f01232c040934b07b701ccce3d8027f85ad2a56c987e29cd6eed841efdf, 0x24cbe9f469f036a76e140720f65817dc847e95624820dbdfb8a1384c8d39bdfc),
(0xdecd1afefaf01eee0d2dd89cbdb9711c4f1899fd437d037155cf74f509aa0858, 0x899d1c8c49b0b3a189a24445568becb1d3b1420dffb2c7a308fc291b258f8ebd),
(0x01dacbc14be6e70c4043f5be3f972d363cb456a22ee1b1ce3e2075788233a79f, 0xfc3b04b4f502affd37d71c58d6f1a61eb126cda0e156608d7f2ab786e0734486),
(0x12ad0f7fcc7cddd7060cc6a33fd3de83b1ab0e3dcca013a568d5978ba176cc19, 0xb4e0cf970335b374661f6c2146aa7315a2c4f6f2b839f88d5376e25699e6e216),
(0xf649bb96e477a5f3f852dd3165496c075e14a85dfa92979464f1297bd56fd1c8, 0x46e37dfa7eddec8288fd18eb9ac200e679337296e2cad24ed67f98a62e61d040),
(0x34f5e5a1248db96f0a165950a9b74392acda22d99549680882760daf642c600e, 0xa8a6637da1cad7d20f72fe1adf67eff849d0ab0d7e06d7c1a11078aade9dc733),
(0x26e940f9ab45cabaadb1e4d323e5cf70575c44dcdd2f0b101540174dd2aa715a, 0x972aeeedc5fd01ff3b04f236c799039a9c7fe6f0db1348e8b97dc885c57926e5),
(0xe3ad36a5132f1067503498e1ed4b315d4d06cc673a9207ce4722449712f51a4a, 0x4fa719b737cdf1b1cd5b963f16a47e6ae43dbe0d490423defe5deecc5baf9e8f),
(0x413fd0f94e2315251aae9d6f61aa0038dbf7cc0310c81185394c8cc48b721a9d, 0x9281c5b9ac1f56f150776cf469e571188cc6989cae41b950f72ff25ad6de836e),
(0x9841a473600446a55ce0ab4f2e77ad12bc2abc341e607241c0c61d2ad87148d5, 0x7d1bb113ee4b5199952318341e05d87ff9bb355fdf9584103d1619691d786f4c),
(0x1d4cdc2e3e06c05269958ebaf00484b336594f9bbe1ea98c2382e608cf78272d, 0x6cf5d126766fe5f775bfef7dc2d91b4866d4bff4c8eb4e59230d190316ac6bb4),
(0xda74f38886de9c6e36227258758111ce3b9414cfcf8d5cfabcd9b3f544f1262a, 0xd9231255e3d9189ea8d0344a80978b833f1afb575c799f018b4ab73e866a38fa),
(0xb2ebf11946e37704e1e12345c68f70a9a031c0b1e85c0833c5df9c0ab836a6b5, 0xc16528321666f0f419806a4a86f4aa8e46fccb4cf7b6493e26d9699a9db2bde4),
(0x9fd899daeb6f84acedfdeb4bfbf8b5216b5757e810d22d4e56afc38e0da747cf, 0x2daef35c7ef36b82d61582562466895b9656970b4beee8cc2e0b12da83d7af64),
(0xeda65e569cf07e8419d07f6f04aedd243c46df2cbac92772bca7edc6ba17b217, 0x1f394c99b48348e6fb709e5cb4b4b77d41eac2aabea2a4a6353d1982a9985281),
(0x78567d1a1a96df56299c9ee21d916472303178b69b18fb00a23c10e4f093ed5b, 0x09321fb06c5d2dc852e64d6e453d9923bff7c626efaf5e50245b4ff264158f23),
(0xc639e1a590f5973f148e96f915c94d8d7c7ec36cbdf1515083503aa99ef5636e, 0x3620e7fefaaf7581886776e4f739159994ae3e2f2a59d4e1ad6d508ef4db90d4)]

/-- secp256k1_pre_g[7872..7935], /repo/src/precomputed_ecmult.c:7914-7977 -/
def g15_3 : List (Nat × Nat) := [
(0x73ef665500c498947aa2b63b89b77f143ac096a1d7333494d9774ada5467b60e, 0xc04509b62135fa8f0816436e6ec0f513ccbb23f8782e2ca4d5eebfea6a5297af),
(0xbfa4506cdca70a3ba8fb0188e0384bf703afbaa06818d503df5015f4f10cf341, 0x9fc7388e2edd63f79a5d328d1b949a2ca364075ef94c8de837cda5e17d566ba1),
(0x002d594b814a9e927ac9433f3400c5e501a584576f47b8f7f5f0b8d8f48b2cb2, 0xfa9a1577d565b9061acb9efb4bf415edf264b662594d1ccd51baf83f101183a7),
(0x401ae44ca40398504d57390f66044f6bcf1e9fe9f0f2b0573f64f026b6d5f3e6, 0xed94776836ce65ec0f947b819dedd31ec8ceacd016a40a3578a592bd04c2626f),
(0x43f9397ea000ac268a315406fc9cd047b9cad5138a7dab382717744cec6662b9, 0x14d5bbe052dd863529c0b0b2dff7379f03e2ae956c5b4920b36452d956085bca),
(0x25036a12d8eca48a78cb5e8441aa5a5316376e83e2ac7819db9895c4dcf2a22e, 0x14c421dedcfdf9ecb69a24fe1c289ec9f4d0f9ca6f4b940935ac9815a4154209),
(0x30e9c9a0d9b9c92e65794acfa2cea34a8d56e3dbd5b562055910012826bf8991, 0x999e4729bca75c0618f0bf9e8ebf04553460031d4ae476235e4ba1822f62550b),
(0x0a8fb641fe27c40a8e4108310fe1b0d2cf74072abb626b192fa51341e99ca538, 0xf3832ab304eb69173e2f3755366b2bf24dbe257eeb516e394bfb91e00a63cff8),
(0x5e09a34998a824e2f3ffe2ae34a835ce6b2f0d2843b765fa08dee01049df7867, 0x20ea03e84817593b931d16122d01dc7e52715fb936838de9d2c9fb699c935025),
(0xe62a12e9d02a5a7a475dbcc879850ba8340b638ba5c3b5058d3c7ffbc90f0dcd, 0xb075d21b40e5897c7e849529bceec7f1d5f87881318c115facc9968031d17f55),
(0x45aa5534530265c1c358b529de15487cb6bef5515125e8350e027b0aa69a9cb6, 0x2e56d88cacb32ed324068fc44c03ed2b1b70392c9facfc2c2fafc696fdb8d397),
(0x7fe3d94050e2f35831b410cee54c7c825eb05553981f1c45b136a24c4d4a4b57, 0x97b0cfad4f6669f6efb2d35c42302e1087c03b3b01c22e2324050399345165a5),
(0x110dd61485bedfa6c09a2e5d05737ab24a5b35aa40129388c6ce876fbd3d9c30, 0x7972ec2c621155fd12f0a1cc3092766913a9165a7dab66aa8f8fca537411041c),
(0x7427d28caecb7a35a4100c429fe03d5e6d3f2f91a5067866c618c4c45fc53547, 0x8cf74ed71324616d0bf4135d8f442ba8b473ebab0fe981f23a426eedbbbcff16),
(0x9779c81198040c8e754b9df4b547c09aa9f254101ca1fdde365b0ef834ed95aa, 0x148280a1d26c8ff951774c557590081e36030a10a148c322003c737967d036b8),
(0x41113833f7da3a4a4736fa62ad7b450874ef5b9ab0961665e30f30817d861adf, 0x98399ec30485a984cdbb6817783223b659884450881d2f413f4e59f0ed5fbc65),
(0xf9830e6b9a9a9dbe50abcae1d44d48563a92e505aefd52d92259c41f4b8b14bd, 0x12061be85a0042ea1baa46dfb36d6f7862c11cb5b8a070aa6c6a899162ea1c0d),
(0x71284b2b36a4c8a440fdd7136b647482bc73d6803d6d0142833d34bdf2794077, 0x6e54f5fe8cff4ebebad1b47c4e5d640744be9171b391492cdf48bc3510e195df),
(0x0524a04da1b7ba043437753199178ceb7ea18f362c300aeba8daefe86e63e9d5, 0x1c71ed93861c3b1e41a7fcd657225e92b2ddc5074d54652e038986838c3688a2),
(0xe1fb70fd2057dc3bc545fb800eb91cc9479cada293c3492e260b0a754bdc0222, 0xaa799a9c25786c64d5138ba21f801e5e88fc2602d4e288f196c8d79d7bad2278),
(0x2bf126e98302e8cb407570f8c3fe12063c91bf2f63cdd9a93dcc403fa8592d29, 0x6452a6a220edbb863ed65ed6cddd70d26b4975bce843a41a10ce6ed3d38591f2),
(0xfaa217d01d9f05175950dd5de02972c8b2c8807636090d2a6f17e7df02a70cd7, 0x73077022dc1cb45af9e9d0561963576066ba7b07bc79601dae7dca1ca6cdc033),
(0x3d184ee0ed45af086a7263b347b12449a7270887b8460b7c6428ae4a6dc4836e, 0xd002efdf1259dd8eab5bb60697e8892b4cb5376d0c26d08e052b7c9a760e8826),
(0x3c825a7629890675bfdcdb7327f37c4e43214a91c6ddb6d0f31e13d30cd26eae, 0x45bc7ae4649d70ba99df5d0792e8913087a272b1bb2d6043dcad0fdaa5444fac),
(0x3a8822a8d5b230ef62f657ed31a12d632862f22deff16f088065981bed3e926e, 0xddca63dc57ea2ecdb25e8d032868b12dabe8f7ba8125a4c556d80a9f09784a04),
(0xd0042da6aa3b60a2463e339698229067c80f892412d8323e7482ff2c53ad86cd, 0x40697e7c004c5d6c4ba11ceefdbae25ce234ece67db446dfdaa030255f8adf35),
(0xa06e32ee93d70c5f0a45a68e2a180be47d8a7f60017d035e47c94d476f3838df, 0xf4bc98eec7f50d344e88ee87d8705b504cc0fd5a5bfba4985fe0699adf811bdd),
(0x214260739f41da952dcfa74edbcc2f22375fb35993f8384299e3735be39b45a5, 0x697f2d8874cd2249cb84c9aa16d20956f5c403589d5b7965ea4b46d19cd61249),
(0x84d52769327646d613e3e1ec2d20791d76b765ebfc5fafaa20097164dc9cda7e, 0xd87be4b42e2e55fc8f87dab5c8c64493f09b3996087ef8fb3a6c653aa2250cf8),
(0xca48382b49283747d433be3fee0569ac7d3714fcbbd76157ac5229ee0ee25dd0, 0xb67165e760894bf43cc80df5006e3109db7e370abebc7503ce20836d3f0ebb2d),
(0x8a6a751f816c206b91e6760858fd7def8ea70956598b1c618e0699ce602cda79, 0x617ea6f1c7f98cb641f0186201f4c8cf12a556e5675765ccc7bb1283cc8ed073),
(0x1d035f81fdc7c483099366929bebc7d915fd3c0a380f334813c65527d82344ba, 0xe4203070f687298daf8f6d666030f3a05826b0b9031f0e558c356aeab3464712),
(0xd28f1a4a1198f572a8130bbe3f25e5850348a33c2d73053cee7e29de8a3ce79c, 0x2841bd4bc46c772a57018c748510fc7adab166440f157d519c38391c4470f7b7),
(0x41c71a1eeafbd9264a49ba4de976e72c691026a2b1773d4a88670b4fd9c57fb8, 0xc2b198e20e4557f841203c16b511d61db39e8a6721b776e9865158e1091ea5ac),
(0x3f0ae72fb1a06f84803ff8adfa0e5c76ed0b596ed52568e26fe4aacf6cdbc3ee, 0x69a9dc3ea0ae93b06c4650f2941ebe38fcd4eba2fc9cc0b23fb9c12781c53f78),
(0x0b59e2f62f01449ed6728b04e9334f1054c4c8e2db4a422f70566b55ba4d2e5f, 0x1b6b73a57444de3f4137f2ba722e70abe6a785fe1ead6fae9f2ec5db299f00d3),
(0x42145fdae72df9aafa3c20ffcbf11a0ad357515eec6846a65cc6ffd88fcb1347, 0x4a34e518c9d397363c88ad6562ecc0ea02652c6f4895585299a0de0b005f42b6),
(0x17a085d78d8013f9b98a8509aad7553fbda81df333aa6f7b2457a74bc83f6739, 0x412d9b80efeca81b29619ca68bdcdebf7cd253c5887936756a379655d10df76a),
(0xf5ec770b2e0d0afc7b155abebf31027028bdff39a08d113fb0409624e7049ae0, 0xe9ce5d462dc5d255a09ba37aa7a5edccaad29ce86f9c6b58d2781e8105d88a25),
(0x45e3976b749279e4486d2db6fbbc7731168e7311d7d75f62b754839c2fd17918, 0x84f0c0790c0127ebd1064724927459d9ebc22eb3502a99a0e5876e1529c8845e),
(0xdf15c304378da3617f821d07d00d1bdc189fae9b7aabbc7151c2117d8fe0c21a, 0x00589dafcad5cc5458544b9da69dc5109f8f1e82866b10760ff1d2295942deb4),
(0xc5798ca4547cea3975e3b613911434e4e5f503bc9ec6e9a48dfe8386a371494c, 0x2864334dfb2bff0a4690f2ced1a1d1cde3b13f96325f295a8e0d4f1bb13413f6),
(0x773ba0e2e1a80ca39060556e2fa8d15f83dfd018dd2267519262651c9765c915, 0xe59a686a3fd132840e380188fa40e9e82899137420c906b9ae8825127dc7dc60),
(0x6ed4cac2e1685eec16c12251db5dbceb90f542e3854177d983ee6024d6e7a740, 0x2558db33ab59811801802a84e6ed32ae49c25379606a31506ad03ec0a5308b98),
(0x21cfc6eed98915cc1bb52da8e83aae9a64970d4fca3e70d16536043ebfb60fef, 0x8154f487290cb8ea073cd147c1286d5b9f471665d9e0ee24c2be264a2f1fbc36),
(0xf8db764ebb8f031c88921a7392f753237d1f4a227bc8cc648bcfa9a1235cdc11, 0x82c25fea2d0a1e37e16dc4e1b6737ee2281693b0b48911dbc79c1470c4e6274f),
(0xd52f4eef14a5a860983eb0ac8e02def953f2ba03604cc60c80882e56ad6b3dfa, 0xb34b31317e37b97309559bc26f85226e705bf06e1fcd818fd5b88eedf2d6b7ed),
(0x3e9d0688b9b67517e25b526a4e46be084e95a171f9d99ae34cca6c1466adaf6e, 0xe1938d76c43493751d5b98764ada7b7f571448787880554070b7c27c9bfa312e),
(0xc74f8dab54590ad13fff217fb62f43ed7f42ffe36c8fddacfb6315f4a3406094, 0x1bd8025b057dd3825b5b6896e90ab5bafd31ef468f02846f29f1b1fbf90302d9),
(0x71f8808900a8e0ac6cd92e03b1dafb0476c0f4890f16def975985abd5dcd02ed, 0x839bb2637827e6abf6941b5367c9aa090835c5883956733c267fb52b6be767a9),
(0x983d1cde7d75d70e328a8a62ec82a96d5174ed4fc9676e107c282be7bd408b07, 0x5fe2426f287fd353173c699a39407e36c365c413769866407c12f11c05dc436a),
(0x3cf9defaa067fd0f6b012fe98b05aea283c332e8cbc8296d0c7779519e62519a, 0x3fbffaec0c77d8727dad2011aa3146902806f763b73b780e375508a50c77a613),
(0xf415897acf653c3c26fc5231f375e28fc23041aaaf05455ae81419dc25546e30, 0x3a9d5669806ef66b7a0661dccb941531d81fa7f3e08fec72ee6312fc4a7f59e7),
(0x5bfb64c90cacbd09244f3a96d5a6800c4a01229795962fbea429b6598e085eb1, 0xe5c4ecb49cc4c685a4fadc8077889298b94e779f7f462aa20130ed8b0ccc0604),
(0x061a5a78a086ccfe9f54cb0b750b7c8c5c8dc4b0e32f3c69c65ce4f89009587d, 0x50193c13affe3a341ff3b8a0b37f07f4b49667c9f89403119ecec58fa76d8c60),
(0xe74514ed93784bdaca6e30e4da2a9a78c7c70bf942cb4ba6afdc357ac694ed1d, 0xee4a8c9f7d55dd09c51117d0754d301a0cc36dcb49d437ddca46a9207088440b),
(0x0dd9aa58f2cc4c0a8d2bf5486dea653cb4671e40c0073df5352b2a9b95637617, 0x6478aca1582a65d26c0f42e748f06e60ab85a494d0129b855b5fdc627dc7f580),
(0xfd7f2622665c20059bdb8c46d140ecdace013ada6dcf3503e28eae44c2dcd83e, 0x536c948e05db297831e2ab3ffee860d5dd7fdd16645cf5610067e484f4a62c61),
(0x9635dbcbb2595930835598a7149a8a37be64f607c227b3074d8e8184c2ae99fe, 0x1b2cb2260bd9f23dbd243ea3eb57baac163f4e496272d2209f436f817b6d9442),
(0x642ead1cc24db5c477d798b1515083a77777476bc3a03993883a7ab5e1abf814, 0x185293e96e6dcd7c209fc891d96f9dfc4012f7567d3e2f1c282eb0fa5de46eff),
(0x3c5be7eb3aeab34a2d982ebf3a766962822ddb39527ab79b83540818a4e2931c, 0xa161ecfd2b90628046d6d1dec149eee0e6c92ccc5f936a5100e2a4c382e555a9),
(0xc1a909466c0ea8e4b60611fd6c61733a6d90b0f9d1b7a7611f9e3e846423bde9, 0xf928d301b6c27eed079b8a8aba388ef524b172207ebd73965623e60ff650dcf4),
(0xe49d97c42ec1b8f143180188382b265e4216bdcd82824a153a0e1d7383207541, 0x8e521e4b95a1f4b0934753afcc3b73b47b3eb00aa9c7af487e4e5a026234b733),
(0x49f71f26f0d828be9e9a70c1bf768117ad2fe6b46e9f416deaf1769580dccfc1, 0x86f4404a67e8e6a69a901589d7c09873eb553aca41b0cb66f476762176ff0d79)]

/-- secp256k1_pre_g[7936..7999], /repo/src/precomputed_ecmult.c:7978-8041 -/
def g15_4 : List (Nat × Nat) := [
(0x487d806f67635c8fb66afe463754a5b464afa4692ca695415d91a6cc8903e853, 0xb610d41426951e5546bb72166dfb62fc602b3d2018c38670760f55a36c45c688),
(0x47af5aafcc7b69e4bc536d578f57b9583fa176662d30214154e3e35b57357e38, 0xb79a4c34709d215edd3b0fe49cde9de5b45ccdd2af25bbd3602a0c909834dbee),
(0x84f79cc1a257fcad546d82185caae7da8a8d523e7feabb7916ad7d8f05421575, 0xcc84b84455ef03ea59913a0a01919c0dcde9fd92ce87202957a998d380ec1986),
(0x550b7e543d3accfceb488b6fb2b48d0b9017a5d4ed54d55a72b8ac6fc83f6d14, 0x91f318dcea83ec1ff43d51720bba5ab17891f3e12e162b6b8c5125895f2e5141),
(0xf691885beece383f1f56593f92de0b341627cd58389afaba0f44266388aa6a32, 0x1e6c920d2eb7665663c7586f7907471f79e5faa1b6fbf4a6c905e4229a441638),
(0x04e3c52a96889e52b99aa469b5f07dc6f6720e49029f3961fae2c59a98ffacf9, 0xba3a3d9fdccc36fda86421677f54de2d4c079b2ce70b46cc926d7d9cef1978c4),
(0x66720c8ec638367cc934347bd876833854eaaa01a81a876bd2321e4140381224, 0xeb595ebd67c5a08b244820425035ecadf20fcfe89a84a60a093f3c05a926d574),
(0x4b01f86ff9feb661eb33d7eb087f940b74302cb7449b0bc484e97af956b79d2c, 0x2680db841b233e2516b74190fd3a0cddb8fce285ed8577b1e13c220509af0d3a),
(0x0dea430d6a4b5e18fa04f77b55f85d36df9dcd4787ad5899c16d253374494867, 0x46b1f5b6307a1c050f3b42ffe7a272c8c63c2a9219bd2971d70ea7935bd508e8),
(0x3f987bbed7fe896b8a8067a6de49de63670e7260f255e5c8a926b9d1fb62945b, 0x373b2f5186d7d9eb18570d3b9e48756b0663cab9df3888997af923c9bd79971d),
(0x6cbcf29156e3cb2ab0d3c03f3f4c0283d953a6419f7e8655d8c46566e3990b70, 0x535c1017fb40108b024de2a80358d21708e47961e5f4cca2aa7e7c2b339c60b0),
(0xd253488a5610a541e4ce2cacbf4d49015fe63dec94615e80d795b39d9885201c, 0xc58ac205e7323ca89bfd284e9c9bcf3b89b05571b84d3afcd69a9a969ae4fcc6),
(0xbb77470dcf0851b229494d6be69aeabbdac4401017200af6391cc2d2352bd9e7, 0x187cc653b6b56e6e6c9969ea705a6d9d3539d4b8b8777371b64deff645307942),
(0x438c5a3e1ede7063eb928da9693d7602809b9e08e49951f26a600eb3e929ad1d, 0xd2918af067d34eebd8f179ad2f3f105ea5cbfc9e1f416cec372a51758ae797c5),
(0x35db0905e28b3e7bb8c4425b8d9151b99cce6a6fb6e1156165b7e3569191e69c, 0x025963feba45cdbf5472c0463da3279a60a3f1ca9ace47d04c4648b152d2e560),
(0x06ef2e9b79e4844707532ba01b658af1e27b13b1f16353176b47d994cf3c6bce, 0x88cc8a3aaa1f20407976ae7a9bfe09f4f0c1fb8572f122f84aeee871b87867ca),
(0x0c85fa354c064f00ac39d4557884f8a6420c4192aef2d6af8afd61ec2b977b33, 0x3d17f8496ba4a79abcdaf50287fa5fe615d2c24e58f27ab27cfb2d86140a5f0c),
(0x7f47028b4e84f4a421909f0185df2743e3f18f1e134f90ae166c4089a9d44803, 0x4c025c2ac2a1af49fd7e1e3d2ddab9ed104a0e21017895fc036eaf9c7a550e9d),
(0x6ecc57c05c7f6b986cad9c940435664e3b036ae7325ea091234ac2163dd0e324, 0x670862889346eaf7e6bc8ac525d60d5c41bd9701f5cc5f5807995fd61c75def6),
(0x46a2a28f61fbbf15c3afacaae181f5272b957bb47f127465fc03d02176359328, 0x88b36e792c071ec4adf1a34fa3d1114ff9813f91039b2db583320bef134ace83),
(0xa2072cb2e25bc045fe40dead8fd3f7d6449f8d7b57adeb47b6ae9b7f7d6a5b2a, 0xfc019c0d8c9263f3aed518e444c1e5bddcf796fc7d16cc6ec90c4c597877e36a),
(0xfec203e960d4ead8e351054503e739991ce5234da92a20f1813414a3599874c5, 0x118cddc6fe918be8d2c5483ec985aaa84d7087674af704441fc0692cb92a540e),
(0xfd166bf7a69d80da6e03c740002ce6f4a05f1df40e2a131adaef89a586f73681, 0x1e3f67917f2d38240ba4ef0786ed8f08c65860a7e6913fd68cdd759a2deabf29),
(0xa479787db514baf50b46a5786a221d722eda896aa7fc1e434817f1252bbe0d6e, 0x1a6f785792bc5fc4e2fcd87c6b82ed3420426f300a9c6fde4f09ae149ce426a1),
(0x7aeeb17d0f75e9c72dab575d2ad1cf87b3eedf998df4b14dd42b50e37895f041, 0x8060c0fd5f903934d47f38868731ddfda6fc135553be9a443841817437b79fbf),
(0x6dd254bb63c3fcc9a5d1758e90c0c6d2bb1a19ae788b351d191d0261cba75c76, 0xb00b5cfff3246b0fec8353451d9df9484fd903d2e278ac2e59d8ca20647c2ba0),
(0xd9e76beaacd64f559a9c28885834317fc24fe5f67e540d276233c18776cd7323, 0x4d079fbd15ab81b40f3aed0d663178c433f976d4f69af7ddecf61a13b831e71c),
(0xb57b26a055c4f22400865b22287c94024c801618c50b00df33ef8509a94a0f57, 0x5abc43031701260af41a0e49a100da198d0331798b26026d6401654d39d53670),
(0xe03c71c79d902be85caf4df6aa401a6d1859272502f10be1f4190b67bee3bb8f, 0xe5f16a54ce5772cb1390e49f966a00e6893ceadd5a753c7f9d82a2ec07324240),
(0xb7f3b64c980f19f4e4f460830c1ca75870f4313b3c23c5b86acd6c8d57ec0de4, 0x5fd0d8f92a70c9aabcc1523f91fa603b0e17fa73fce738992c1d720d3d55b1ca),
(0x27b248682a1b91863a1f5c9ba5010a372349c417e1d7acafdd94c7dbc5e12733, 0xc54c23bc4e17418bdeface22b8e527e14de1aee971c921fafb3f58ebe4778125),
(0x5d4b2b1b05f9e640bad96aec6d3bc5b6169411e95dac7346d1f7f88550679a14, 0x80f0e3e77e8d6c4862b1f6c9c0ee37a33b98be7de1c6c8ef12759b730c20a2e3),
(0x790a4189063c3ec0ba6babae18ddb717463d3ec7c0b018525e760e96ac5fc2c1, 0x6db8b4569f2fed97783a6e800413d8ff0cd0ac6ed512f7124cdacad44845242f),
(0x38dd209d705c3f639cbdb0b4221609434ddf136656f2cc8b22d27479c5446f99, 0x8b793f603621f6b01b1ac36bcfd92c3a7dffb7fbfcbf831b1db077ff7482c25a),
(0x29c6b2a9024f95c858857951cea2baa0bee9866d77b3f7d63cf9debb16437528, 0xc408f56500cc78e515a6e0c17a96392d2952e25bd067a0f2d2f10effb54c2ce3),
(0x019f1ab5b54c80a5a32a1fb81bb3f389ebb536416c8a844d3846c2cd350420c0, 0x38a56a7d7eaf41554f5b8090c06fcbba9f516a23340617e4dc5951d335b75de0),
(0xfa3d2b8ed73ab5c324980054278308063715c17c7981db6a617570481e1d780a, 0x7bc0b4e24cde1ca3e30ec60173121a43f87f679dcfac6db5a9bd132bd6a89454),
(0x908e538d730377d90d3585ae059b0949c46a6acabb04e72570b189d557c26825, 0x5e10880006cddf0039f7d85564252cfad4a3776102b58b6b05fb29427e274af6),
(0x0e57bfd8f38d456f2e977090d9f81673db11a195568a85b8dd8bb725a30d22ec, 0xb5965e5ee680e791e87ceab7156a3e03dda7e9a09a9dcd76a72dc838d9e2e6a1),
(0xaabc514cb88112c46e6e1221d61e2abfdd7a3bcba2c7cb784d57dea61950534b, 0x96e3d9b3f3a4c3cb1473f61ce224dcbca535c90a7d993409ed079d323c8facc1),
(0x94a800a46eb9506a8f6dd737ba45c6974e563c3e1df409594198d1fce499d2d8, 0x0627ef260d39e19dab4d6bfd9d4fcc0f4bb4d97eb088642640b7ca31952be814),
(0x1022de3d6caa7542ddeb47d21f82cc3b06e04170ed9d4ef681b58b81efd6c3a9, 0x2317f1e837716a0d0842884bcd77cc3ed6235dae9fad56619f20a883af459b5e),
(0x9509f343017c15f7a54cafc73d4275bb41e39183538587244031baaf97bed951, 0xdec71a0c7f8108b25e2963612d6623b67b2f6d9c69d7b6cfd7273503fc72b4ba),
(0xbbf19e9aefbee2dbfbd5eef8492f52be2e2f907206b3adc1d16f0627f4f19d25, 0xd9e691de0f2ce976c66d806bf35a2b1356f9fc077b7bb239306680814b52cea0),
(0xb5997bb45b359516b28ee935e4d59c39ae434c295e5d98e22ddeff5704afabc5, 0xfb6d36a6fb2e1aafd9b5d89c39a854f4a3cec0531e1a776cb4267b4ad2bd8ac7),
(0xfb746cf0cbf2f56f6a3a99dc71e84cc5af76899a03a7d02cfb272391b77c8384, 0xd1e4cf2757373ab2d1ba3f2dd5bf8b26a74d681423a5b16c9621b788a51e9796),
(0x644facf9e62904621a5278c30f4a2ff884600c2369eeb557bc412540c4966655, 0x5b5ee0cb449423fb67c9b5423868f7b706d1968b9d7dd751075e7dd52f994b88),
(0xc41931cc9c311617f77faa3f6b6f6e21bd030c2d9778b06506ca105fcdb8658c, 0x8a759dda8db8a8edeb1f297212858879bb2f49c7468d8edd14d28525ca3c0746),
(0xe8dd906348691527e4f4fc962a0e5608d151aa6853257e2b1acb7d9456f66aa2, 0x470d108a4180fbd12a377517c5e472d4680ec46852bfa472cc400ac6091541a0),
(0x6b48efebea6d0d17346fba318fa33deb301062d594b254bbdb6dd28bffe27451, 0x94cbae78eff2064ccf91bcc4fe1ae3ef3d767b636eb4720e35f2340e87c1e941),
(0x1cb08c2b72f069c00e1e4afb7ea73e48a33f23cccb89fb08db1b091962bedbd4, 0x64d3500d5b6577e66c18d3befc0a7dd0833d32451ad03257b45a31a467c14095),
(0x2150558dbc64dcb6552240456d9432087b7c71823901f78d9702a736998906fc, 0xb49e2adb321e0c49ddeaa1529bf83095762ea96f6c1290ddb6ad29b3c84b8657),
(0x530f4c165828410055a67001eebf528cf9286825fbb60ae50da4ecace3d7f4c1, 0x80b147ab1eae892250bf82fe1a9263bb415736177dc02e91fe7e07b966bc6af9),
(0xc51589478266dd62fa495d4f094bbe77b1230f44685ac4887642576c8d92e6b8, 0x1705fd37da813af62a799e413a45a4e24d2121e01065e692ec1de14943be7c90),
(0xe6963d21b576da6e6aa6f1ecda7674d0d827d53331e19d85083ba0e731553f86, 0xd3560d2f91c7219c76962a5e3b2aea76604b5ad482da8f8c419cf2c87cfdbe61),
(0xc5aa5963a249a9a59445c0da9537d482dcb6ed9c8372e4554d44093103c3f169, 0x7e7f9c154ba213f5981389d622af8694b1efbdc81899892392c9d65492ae7fa6),
(0xbd04e3d85bffa42981310c7b2c885f0469f019772819f6f25e69621e05a32752, 0xdc4da51fb88ed097b17358d3da4fb755254d8ceb5b0df72c9dc995b38e145d9d),
(0xf8f554764418c6683390b604c9f9f4521ef6375658000c49d3b8b1da80261dd4, 0x9943a6e41b928da0fad12667cc997ea56af49db38c499a2fa2343efb52ea450f),
(0x77dc24bc5f32159e7c3b6a3d168a669843b12253e403299fb4fa3db874350dec, 0x240d860ec38457ab6d741edce4fd8c5167f75733f12fe892aece4f9a578c6bd5),
(0x9f238f7d588d53f152da81182691194d99a56fee373745c9aa2a3a7e58d18825, 0xdff57ffac2012315ad6516d692902476cdb2d3f158803c3b4dc854ed8ba9b756),
(0x92f95782a59da5c3a12401da34c24ae3fbf3822e355ec9486020ac043ebbbb6e, 0x1c6231c4e09c414c0e0d3cbf9be73bbe004f1fddb3d65a41c716f0f9a39788db),
(0x1b40dd470f4355791474b56066a0efb988271a1c19186bcbb171519684f3130d, 0x9fe6dcec0991d652c9e1309966b0aeb353869f9928ebc9556c64973a4d983b5a),
(0x473f6b8ed4162f9a2f40d48a8827f79d180052e17b28b2404772fe1d64cd82d3, 0x743450dffc8315db72c01f1b021c4eea9c0a39e4c1e92e339109657637e97fe2),
(0x40cfc629a550b4379e0941aefa8abc6c8b4921552045a8b7560262a486954932, 0xe627bc579c84859bd2a9ba9c9d7a69d38c8f06d7ccd9e68efbaa0697655a8a23)]

/-- secp256k1_pre_g[8000..8063], /repo/src/precomputed_ecmult.c:8042-8105 -/
def g15_5 : List (Nat × Nat) := [
(0x4c91dbc98d2d2891a78615990ab55fce0943755f5f7c909b3f0f85a2bbb75c95, 0x5e541495ecf131096ac3aeda5324fe5f6f761ddd0d2972fe812242ce12fd23d5),
(0x1fe3c538ac18517244461f8263961364c3c74bc69a91bb4e699739718e729d23, 0x974c02cb00d7d97c65f89b90327e6ddee627d96a275c869f22c14bf96be05389),
(0xfbe873db565793494ca9c8448a6e0dde226d4e4a2f21066130fe1075bb11dd6e, 0xc91061e4d03f9f0921f56d76eb78640d4df80464459fc41d4ca33d4b5ebbc5fe),
(0xb58277a83a6d677982af314f7a41a69ab1744e6b1cfb4803f52a25e98200957d, 0xc8faf7cd59e4325633403b907abb1b83d3f0cadeddb9884d77c5fa54b55fc51a),
(0x003949cbe84b7790a7a110d79c41d548d379604fec567ceae3aaf0f6fd0d9b49, 0xcdfe904e56a9c88a76292c3a5da2110057795a76fddc1610e7efab84750617b3),
(0x6ee9ab2b537aeea0bd8332dcd810cb7d36f8f7f357be2bb35d84e236f1bca531, 0xd75518a4d975b0d1e27808514b726626dfc182a3885900f04d82c8391c64722b),
(0xc2875d783e15f95933bbbd488a24c65d2001f5993536fa838a3e056c20a2eabe, 0xe5870c2520adee2783cbeaaacfae72830538446b7cfd7ded12e68ffd3f66de8b),
(0x88e26c2fdd4755478795e8dd8285f73add9eb9b2068c1b1665f1a701cb3c81e9, 0xd00344e109d14b3f1dcf5c7e8269237da2af90ea93a9e24f3a0040eed3f171f1),
(0xca8e8c50660f39283cb7210543710f5609a1518a7948689d3d7e2ce7a038bc55, 0x576002131892bc9b5afede4fe71f5ec1a15160390ace088f9a851278c52b2487),
(0xecb6e53f4330d0ecb9aa3605b6e6d2090222d61172858b1fd2663797772e0249, 0x0b054af94c535d010bcbd95561770aa2e08678eacd8de0dbd8efcdf8623e9eb7),
(0xa011ad64551233169916b20dca6efe7de78c6b58feee97fa7f9e3fc68d889cfe, 0xf53b71eb63f87651aa0de66ea51f56f7c5e3ee26ed4ccdf41978d7b6f0191277),
(0x3ddda2f4ec1b402031a73abfae69dd428d801bb3fc96fd1eb06334d3cd7dc27f, 0x0eb1b6b4137ca36f5b16011238fba95832c5e5b0aa5560dc39600db0624b6c1a),
(0x13f5b643e908dc91415ff85676357687bb777f213972cebee815782853982d8e, 0xbc2d3402f3af6ee7bef0ec2b73c75e53b70309ec633d97afb9ababc062d20ec2),
(0xed9fc1ba060a7db893db814848790e524a246279d938a04bcf168ae571618e2e, 0xb241c920ab995cf94ab1b707b06bbc7e1cf7b8eb80325934d57e9e9c6ba08459),
(0x89d4f6faf6252ba0d036dcb454fa5f1d311ee8281cc5ca8573fe76077b16fadc, 0x5f441ff056fd4e24ca4c9efb859d6e162e4daa4ba7f3fc58e42a540c23b6075f),
(0x4acfd390e8a1b4309af0c28c87f51308a1ec57418c19407245c96c7930498a3b, 0xdde7b57e5e5ab27178f2ae5b6494a5782757f508bafbbe6430b96bc496728d2f),
(0x08320cbefa7483dc4f5e7b7dd74cf492b95b7e31b1bdc6516595b605eecc134d, 0xe766291d013959f5805de8f2aa59cd668376d93e4b775010426db24eb2ff41f7),
(0xfbfa6a21deb1d183cfeda065687a0b966d8e50fe0475a17a7b6900196e7c696c, 0xf5901c105f30f5d9075530b03f943caf8de85a12f54e4c7e5685184e8bacae2f),
(0x70695a8145fad213aa14a7ecd3c84f5153e3906d5483db4ac6e8c2290ecd2c3b, 0xfebf34ba9744a37d6b91335fc735c4261208595b3b8d048a3fb48e7602008e90),
(0x89fd8cfa8fd5bddab6a80bb996ebcc926074a15d371622b61cd772f6ae1ae9a9, 0x85c2cddda8065ee2244b3d3561e9e05787c6cc4ed4b1ff5953b736cdd3876108),
(0x342256b4cfd8e5b75f5d088e3a919d64ccf38827b18bdd002ee9a6c300fb4dad, 0xc54f4704f3512e554d96ef923005e4aa34a157e58bd6b180e219dd5116c4be16),
(0xcbd38ba1189a152ebf78ea233eccebc716f4c28f273f5c8bec9df3979dba0dd1, 0x0d3df2eafa52ad529089c7c9581dccbda2a0e0607fd4b902cc915f28717c2d29),
(0x5f7ae38f61dcf17645affec87514c62485b880ad38df28aeb695cac0fd1d27ed, 0x9b955855f74cc04063cfa4d1fd098e5de0030c4c6dedee4171bb5e7bc0939226),
(0x72e72eacaef492f2f3c5ce7ddca58f40c919a1943662adb43d855a8b532d194c, 0xd7b5e558a0cb091d3b39407e1dd58b9530fe75616b4c3352bfa51320509d2d7f),
(0x925a19f0c73d85d5674a62b02d5496c05868fd41a43696ceeb153a0a2e5b8051, 0x2ff229b96c23cdd82bdc56da37495c2978fae40cb429a1c73111d3923c5505c3),
(0xbaca4fb333bf98dc165cb9e43bec920ebbded256e990820c8f902e843f6e02bf, 0xaf304697137728d4e96a38d795b830c06c18579a9b46f4daa94a13e80d3a0341),
(0xfbe24c7a53b90f3f918b92eae58ef633bb72e6952eee6c6c2210f6d88da9e0df, 0x1febd844af3d057ec9ace544d5fd57f0c125c55f1d9df6364f6be8fcbc53e3b5),
(0x73b7de54ae8a38c6ccde88c93f526c2e54d823dea64154885e864a2a001b0574, 0x2cfa6943634201d89438e6c6fbb7224bc2e6b313538523f3305c75c35c68aeb0),
(0x8496040231a60cd4cd623d4b80bc69aa7cfa7c0b52cd88b42f22ca6617151dfa, 0xb5324b5caf293ece38deafd076835e10469997af7dcccd89172ad20ef36162a6),
(0xb6de647b98585f7c061f071276c6f62a40926888b1bab4fead64098b4b9434dc, 0xf7180d81be634f34d878a6452c662e8adb9c18e0ca7e7c138bc51e1c1a5f5c0a),
(0xe062011fda416281bc296718300a080efe7ab89d8469e8dcfd50680e12dd9348, 0xc33030e41ec1b1c54ad01bb98c4e2c4832b2516b1b2b3b22adc4add81b690787),
(0x0f7c7545649b465949618dea7fd15a061e7ee0325d955649b76b66f0534a5501, 0x02a929b2a68342c181b2f55d6b5435840ac06077d95ad8f3fd3f3ffc24f56a3f),
(0xbd90ad481694f2976506e2bde97d5803b810f9ab7479ae90dc1fb14638d4d5a0, 0xf973b70d8dca64e00c9384b7ad3b4ab64d3c74aa722f9284a9da82d55c6d02e2),
(0xcb5d91e668b3c202b72a38c2f98e6e4f14bb566cf7996d9cc08aaa07210b1b1a, 0x68e9920c597b633f09bfdfb8728144224ad69ec1e435e84373a9255d79f52d7e),
(0x0d251bb983bf849b8f058ff632ac6beabcd126494fea947af943cdf06e0c240b, 0x5098026db8ec5c548e3ae103f0d172bfe84281aab8c0b13116295587ed4500f6),
(0x27235299c1f8d73c268bca8862d2b6d6635f151ad148c6626c0cd5cc1a3d2234, 0x5b03cc60f9224aa310d8193c74e70cbb6513ba73d6d98ad3002e1c2d7f78ad52),
(0x01cf437baef8e007ba02a24e735d8444698e5edf2f9d41d3cdb28cf33dd53851, 0xe3fcdb74b580b8ce8f6edfe1c276c478da11323b4e96862b926ca4c7f739a8f3),
(0xaa872c8570e9449d6cf020c677669c8a7ad408e40d9fa19499867c6af77df918, 0x572579ea3d1d9575e60a79a07a2aed834fdfba5261b962ed42e59322c02fd873),
(0xb3224a2e80c3a17466a9994b717b4c37424f12bf9dd3f17f6eecd8013ee2ed56, 0x7ad1cea1128c1605552b8be2a5fb6bb8907e4290d76bc82be17ecc321be6fa43),
(0x29b8f73a7fdf60324c907022b0107c72ed951eef29687feba8de56ab4e47b8ad, 0x19b849d90bbdcf00a6bba6b2f10586954f2868849b5be608d6b4c3571098f54c),
(0x3c2f568096f946ce3d048364dce939b4a05ae9a7c31c2a11d2a29a1a3fed06e2, 0x47701685b698de43ac5150629c40a15abb952a0e000bdd96ba4a1b4c5f61658b),
(0xb80f00c10ec0d059c9f5c69c10cfcb26651716d93d0b5702b2c7b29585af4c55, 0xaac197dbab42141d31f634255df908fdfd026d1001263aa763d99414adfdd02e),
(0x066af0716b78b85416572c86fb3e51e9b6d66ebbbfc2a2f8dd66401083c83435, 0xb8b2ce8efe794b134fcaad05821dd8849a8318db0614d8588dfd4d2d65314398),
(0x7ce8342a6ea85f61559cd2ab0e82debe82eb5aca142153e5320562a76ba155c0, 0x8a9302435ebf4269d75363c693ad425559f493e0e492150a9f110c9008d7750a),
(0xcfbc37c5184fe2067f7b5c6fc5e50adced58ae610d9059bb4ff64a19f48483eb, 0xbd567b193da2b2fdbb8941a5be9fc72f11d9cfa24c4438c6a4db30919c8867cb),
(0x728c27be52c5a742859774d32d33fbcd41e997d725d6be46af480c8cf9ec436c, 0x745c77382a833cee19808d129768c2137500e8b0b140e3b294abe97c9a7c73e7),
(0x04553277fbb30c09a1ac1ac6cb7d38f588cd5f3ed4ebf6bf5b5f6e7812d47d5c, 0x3ea80bc9dac9f1a5ac4beedbd254cc15728f0ee16949ce9753f1bfbf98e3c78a),
(0x7b752d909fd6d063f1ac0f22d8cf1e6c78a335c60ed1174388192fe3cba54cef, 0xa252376fe482ec592ac440e73aac3b460a149e351aac2d51244ffd93f51d11ec),
(0xe78e796ceaba974d89d344f2b610e84bd51443bd1fea5422d2bea9575467a376, 0x013f0797376bcf76b6ade4c6a95b6446962ff925b32fef9f4549aa1de64e2b1a),
(0x1b7a8c0283f25ac4cd4a841f4045035f92a39bd2c1903c904071eb445e8d702a, 0x1843f7577d03b6b222bdc28f047c7fe6fb83b25a8d795b469e3ee9d1ccf7623d),
(0x90d06a906ad81dae20cfc2fc6be85b2d41dd9f2363e13423c557c4c4bf3e5e4f, 0x6ba7a127588617842d7ee3d59b71ec9986a72ae771312739795440951e5237dd),
(0xd7bb4e18ab61d8f1de4b5bd99a5d03ef1e0185ca55ef14fb0be1f0b54cc4803f, 0x311f268fa672975bacabcab51dec575448eb5a82685e339ee23b41fa112873e6),
(0x6d5f1808f17e0b81a6bf12aa340326440b70888296e99861fe5ba4c55546c44f, 0x8eb304c892cee7e070649d73ae76893a610504d3fdf37af092d5dc7a9eab1094),
(0x0e4f62cf9835a4e5c2b7a456596498df2973192aaf2c80ef0c036c7169df470b, 0x874a48df1a25a003ada8939bf727e0ecb7d2e4d701efbec47193a2b050ecaf28),
(0x7fb31d8db3d5b77d4aa9d0d2692013ce0c82ccd683a2235d0848037bdc6bf8ee, 0xed5cfa619fb4e350dc37e2a52bb6710490dcb484b19af3688101e59c0f9f0f0a),
(0x8887db9ce3eddeefece414a4f46ff0483c4fd25b143548696c60871c5eaa9ffc, 0x50294d611040a466f826e6543fb93f94b4d60b11d589287d6ea33df5a8dcf366),
(0x9d9d224a595c843d1f70297c13b3645f385eec9780fa9e50d27115f7b677aae7, 0xaf9d5f6124594cd9a3aa7100ae6f169ddfd467c41affefe9c9a0a5e66d7f2802),
(0x743d9b40527b23b8f165b6fb9d5c14ef450e1ce694439354ab501eaa2f34137c, 0x6aad08c3bf602b527d43e3a6e7efcfd7f24222fbf8213f25e81955019c8f0885),
(0x63c850ebf0cd6fc33bb7a4f56d43c3891f93b11b5f67e3d2f9b7537ee5a951e3, 0x29d214e8bde33612a5a160e0f7cf3acc3b83686cec5d7c36dd90ebb1d97c7ab5),
(0xb95608d984c1324363809f820b42cd16fcf3c6be5b19ccd2249016ebd93b4a54, 0x41aabb2fe7083dfbea380fff2467a843c88ef6b49740e73b33a088a7649fb0ef),
(0x8361b6325eeafafaf01e36246bd8f0c7aab461efcb3484e6c1ee871a7ef95114, 0x34ac956e791cef3abaed24de7f0f59e0bf34dc75edd10159b3870248255eef36),
(0x807109d4931731c0a94127afcc98e4871fb444676d8cde8988dfc252868bc853, 0x363e3944be00a7344c50afc9cbb43183f56eb20ac0a5d9ec74857484ed9e1d61),
(0x25ef876ed1654570244ec258e7ebda0935b11784bf5afb7c8652e5f8bdb34055, 0x63459bb2b8affcb401f6ad9b9437f3cc6d8082acd400928a29f11fdf503c8553),
(0x1aa87b1b54eb6bd35fefb162b27ad9dceee4b5ecc1b69d4f1fc6e230d1848435, 0xe5cd86ac023c3790369d7fcb2189098ba4fb3007f82e509022e8ce5a0b44258d)]

/-- secp256k1_pre_g[8064..8127], /repo/src/precomputed_ecmult.c:8106-8169 -/
def g15_6 : List (Nat × Nat) := [
(0xcce2b0fd9497190de6ea068c98bba7de0a8f50aa12930b4d9060808cb1ce6152, 0xb6aea7eebecee27402bd8146d792a6e9ae75fd79bb8882c811135d0f8d5e68c3),
(0xfe421506955b7cf6f6a8422830f7c6fa95e4576cda7114155a49c238e0bdcd4b, 0x4e4a31d509b70b51f73a4d02eb09e4cb7dc74a29bef959ed86558fc7d4c8f401),
(0xcb26c118264778ef512f8acc385e5ac310b489dc88991e1513665b7d587d713e, 0x7375bbd09fb3051fa907fee680683f9354403c76085ca7eb97a711eb069033c6),
(0x8f286ae6171d88d7d82cdc2893960bcf053768c89cf1f149fba0acc6f5056014, 0x6852d427a888c5a24e748f2ee482d38a42879db22e824d1cd72cf15b8e32b085),
(0xb7af4b6d7eb4eb03e827f099fb8b02f4bdca366d811d031bae827941235e75a0, 0x7cea697ae8cc53ff8c738ec2055a64e44a49964304bc5e16422ebb9c17d3dd12),
(0xc8471c9f53eaa3fc850ae514dfa1109de89c500be965682c6a4bc2f9105be1e0, 0x7d5f32ced1e758ffe38325b4778e68b6f0ae55090fcf9195c1a79d41057dc519),
(0x8d192ced73629184ff6db80eb2c6df4ca8ad77f6dfc98c529406e7aadd506536, 0x3b01ec04ff45b037c14442559cb2f6297b4f8cffe4c3eed63b95d4a888fb2137),
(0x318aa156f4912dd97b90ae6dc29b0f8a99f616a25b023f08ad35a8c510ec5015, 0xb398cdd95ad52ba1d7038cdc67e36c745625fb94f62b1b9faa2eb5ddbe6ce52f),
(0xb7fcf98a6a385f68a1c6f9eec6f069c1081b0c94df8c05efb59b49e3aad66f54, 0x912e2098e3b6e44f46eb638283f554e180af035b16c0eb3a4e000cb8d4ea2da7),
(0x599b7a5b0e7a7cc6003e0b6638171c0d41d78efb92a9bc8a1d0e8f48b2b92fc2, 0xafb3343a1983a867c8e196c5092f745c9060330c1f0c0509375e30de3a214b7c),
(0xc35787053221f18f69dbc241f927ec483280ade644c7012902b30a11a296db9c, 0x2b75b2e9fdef6060029633ae481ba7dc8ca52847d4d0a2019da7405640a980bd),
(0x9e2020e7cc4153b0adc2b1ef3cf607ac305a480e3a8854d11907fca004811fa7, 0x19153a832c9a0612dfea182fa855a039330357572e98e5ef43f266993b8bc6b5),
(0x1e0c4c686e5242c06645f4ac6ccb18c082c5d5e6c89322b43b6079b6ccb5a5f3, 0x63c4a4d73ab71f2fc49f5532b543e38183ce223ac8609be9d6b729818b5dedfc),
(0x44b116835f922e88e7ed4328cfb212f6aabb619964fbdf3a87dc7f24faa761e0, 0xa9181b5c341cd78f2e1446a9e99acfee7aa5b91d4c7da20ab7cf200cf470ffbd),
(0x940baf24717ccfdae539064df6e4b6702ad8b60ac32e38cbfa4eadf26a7bd3e2, 0xbf5ab95d2cd9b68fcdf535bb84b967a3f4fc44d55e6d21af0d09e1def5f13ad5),
(0x4191f800857671060a9e5fa68521366ea3adbd79ea315b939e63f7972995e7c5, 0x662791d3407f50b37a68e15f5ee719912e893099a907db3ef818938f9c3bb2cb),
(0x1bb8ec0576ce9cadf96b418dcb5c7d469b49ca817f253b158b26cca1cb9a472d, 0x762e9c6b023357690072396f36a56efcf2618754f1c3092330b521bc4e0198b7),
(0xc5216da791635b83e55ec5a2d9f3f8beb1a2b0e3cb097528654c50a30315be78, 0x02536358e58ffcbe789d34e325d9f59a2210c2470a80eac8c716214b9d5e520e),
(0x7b1488fc83a02d7fd12b9eea555922d3f4a9c42b52f030d9bdd39156f0890225, 0xae7dba7ad95420f28c8185cf5aa2b777b9fc5c14b6c47048d8ef071a77dd4397),
(0xe245e4f97d6c69d15e244f4a668afd07d57fea2cf8401b2d8cfb6adaf01f8891, 0x88a0648a0ed5eab1d57226e463411b9d3632537d699f39dc07d7cbe549e76900),
(0xed78f3d51f4fb9875918a0cdd6e5280d6516f5a5acdee916d3e7c7a1d757d188, 0xebc569ce9b3cd325528cde0f9a2ef54cd9f920a21ba7785f62ef40dd9463a81d),
(0x3e8d870fbf768b418264ad3489026fe78870e2013f98696c81dc3b7bc0b1b599, 0x28558e59a6a6c255a352cc9ac20508eb55af744908d75dedc94fe414fadeb218),
(0x96125a018f901790fe25b41cf2f7fc9850cd30c8cbd05ffacb76bc4594d5f5a8, 0x125db4763fc8ccde492e7eb4458731478f8ddc5b6c2b588ab72d9b1bfcd4c43f),
(0x779d98476fd72d41937fe1e3e12d40765cc61f4119b374370391978218a3dfa0, 0x75a3aa4b95523e0542f38dabb2d80895cf3738fe5152c8d096a587d590442891),
(0x681e390c323224a07ccd952023c9d89f4069100d3b275c5ae773efe6170f4e4a, 0xa9bff0ee334bcf6ea3bc44e705d85accf753a471ac008e0d47b19ac2476b184a),
(0xd7b8530f3fa18d18ed94b9382906e43144ad59945eef1d53e32908875c4af2b9, 0x2efa5bd10acc4ce673b8c76abeab2e8706399f84094a1450bd6833dddebddb92),
(0x1277ad756e965ecbc8c04ea6c22042a3ca3e71e0743340127063d3b2da257a5f, 0x38c90310ee2bd94e5f3149f1f38d065f08df110f92f126f13a69013c515134ed),
(0x4e66e59694c521a18114b232427dfb978c7f14ec7b5e18e89c11cb5e6a2f6f65, 0x47d553c18a858b59f1aa8f4a51803450c237fd2e60b137f6d13647e76683caea),
(0x1fc1e8bf3eae2dfcb141be5eea612378209ab1bd7ccce45cd51fcfb28f192aa3, 0x5632d350ab6b3da1599779c99cd8d7b5e317ca9def3245a8eb62af95ef769c20),
(0x7eca2d928d2bf4fced1a8336eb87c5f7b864b842b3057c8f97d5dfd376771d7f, 0x969da0397a37997cc243d44890d8110efa580359bfb35342bf69dec74bb17337),
(0x2531025f8fddd665cf34baec5273330328e47e4d827248ad9a1e6c4ebe3db9a7, 0xe404fbcdd180b2ad931b4f615902eb060cf00f666f1323f7bf0652fa94dff64d),
(0xdd28941c0bf6e4bd76b4bad788f700a608c4937a067958c3bf6388a9d5e26441, 0xcc45f07b9ea1a81c8d89af848883ad1d53ee8a522416c445c49637917a366909),
(0xd3af9e12053ffb850ec7829a4d41d7041ea629524d7452a8d9ab6ef01d6b509b, 0x9c115e7891b383ec20739d376450a2e66f332e5ec7a3a97b02eca8c0ae819bbf),
(0x2c59063f13ac98a5ed196aec4f2aba11c8647d7842be85f4ab87a00702b49001, 0xe9738418cbb6e31cf588a3b870883f90ed3bd8e486e3c77a37fd1152c22637d2),
(0x06c0ace3f182c96345deeee3c41c5e518dce984d3d409a896d766ea1b1ff0e0c, 0x17e09dc8dfc53cb4952fec4c92782ce43515544f6181bde101d1ba1abda709ee),
(0xf161125f3a229d292053fb9f6f11855043d80e339bd45af8c15190432098c9d9, 0x1b442ffea186cf2c343b90b366a3a008e08edf90f073e740abd5d20b8dfa1327),
(0xfd081f056b219fef56a3fc1b6dc7873afb054b401b3ae0b2414384e09080827a, 0x9711912f4ceb00363e5921b5c2f7ca49387b78cbf1b9c2ac9c5d5d1d01bd8203),
(0x72c6eecdd87657bbffc3a03db6e1f9dc83252d2dc73ba3f58642fc08fee42b4e, 0x282180c17737b51ed047cc5064d53cec6340eefbd969525ea1524f0ca305e39f),
(0x10df231d4582143f1ad7fe00508cbbfb3d49775df13dcee1d6155768c14bfc51, 0xb7743bf4e7cd49f888cd0d26ac196037e1da940226518e07407bad1d20af7dc6),
(0x354e8b0be40bd9a036620006744c09135bd4bcea34ab33719561e36ef465956a, 0x3e7407a22b9d71eba04239fa600834d705f643c8b4ca6308475f6c9e08d35fd4),
(0x2ae99ec06a4e080e879a60fda93a47df9ba7e0f3b87a6772be6d7e239bf2c42f, 0x3fdfcc576a36adbd52467e01f3490fbd82766ceab956f80c7b1d29b05066c31d),
(0xf47ff09d5e93e82772e73c7a8f1623e0823b09bf86ba3023a223a680fd849bd9, 0x379ad3a3cd546d2735fbe5d997c3dd8b8c45a3d1ce8e9c49b23bbaeae93a08ea),
(0x252c0934acc3a624c4d8b409111b248a2242dba47d57718aaedc9cfd20647cdf, 0x17b7a015a2ea993e89a7161bf50124ad561ef131609981acfc92e495cd2ec91d),
(0xb7f6bde607cdbbf94a3e06b7dc1bea75d6247197a8617a6ea1f65f44a7459006, 0x6d6ad5960fd3472c9d7eff56943c1a03ee4f540f29782f77afe999e614f5e316),
(0x210c956fe0a741a7edad58d5d47a2a340fface7c5edad0f8f4953b7228350b2f, 0x4d4498a0892a9a9a4e87ccdf424d7910bf90fe95186653c76e6966a5e7a816b8),
(0x7ab93adfb8f35eef8af99e5ee37aaeee401a1936fc0b8c880518065d012f4a74, 0x4f0782b10c78954b8ce37bdc7e5331453b885d92da1dbf85940da9a9b7f0dd8d),
(0xbbe1b7879c93e7cd891f628bc9a655e6f4c7cde4fa799596749782249fd05fd0, 0x493d3dd7be33acf138ef5b738eb8f8f54e2703238f70078d5f7bd9e7177088cd),
(0x61f42d35ffcc6151f8c93b215df0cab1fb804cdef9c688180fc4f413b804942d, 0x46ef1e12d6add0823917a7589c137d45c38ae2edeadd847daa574e0618708396),
(0x18542b753e78191c0b3dabcff9c64a8e5e4b075dd600fe60b830e7327fbc7b40, 0x6a816e0141b17e8665ec280bf6da9dbf8061329b6db9d13aa9f10c0f41340118),
(0xef83d0f4a3d2963ed14e708c6d22017eaa97b2f5023b06f1140b4105459781d0, 0x005587e5137258191b10bd40e616e06d16a503927a8b1394a562c396973d98b6),
(0xfe73429a7714dac6ed0db327d6949d4330d2b16ea513d3b67b74452d78a82a4d, 0x7079088dfd828815ae087319c232817a4928f743843a4966e9411276d16214b3),
(0x2e8b8a633048900c4b82ff8dfd86a97186e3f1b46206b252f06a8c8582555130, 0x74e10dbdca84d7960b3b37aeb32624c52c5aabc5d4fcc5d221c1aed4071c940b),
(0x9f4164f54f34a59f3a7be378066a8204def2fd988dae6dbf5d471e0bcaab7017, 0x4b662fdebf2615c08c7b53d0b2915d50ddd2916fa3599d81bb2eab6d80e93f57),
(0xc6f3a26badab6699aa08fcf46f0ac9002be3597c161332256a5e657711b16ecc, 0xf29db1d6579d0e364528c29736019f4b6e8f060dad5effe6d357d709882a250a),
(0x76a4f5ef6a869e28e6494cbcffc6eec01ca983ad1b8219cbd2b84eca96f8b910, 0xe1d8bd7d55a297df32ee185cc60db286a2e46cb1312a89955923a068cd3318d5),
(0xd2c25c8acfaa0b2b3f6e70d5bf09570068102f8b24867970ef3c8000b2212d1a, 0xbc9076819c7926dcbf81278f7dbfc4cb292a8071177ce8a4f4e9346ba2d9e500),
(0x0b2fc2ca5a30c67861b0bd225bf2c08826d799a59c9a680ddabac9aa5cb624fe, 0xd4abc7c9fab915d0fe9dcf590a0f83ca56b275666e9841cbb5b148745f6732ee),
(0x110ef5317824c321ba7fa94fac98de3ac6cf44afdb92b7be1006c7519b425065, 0xcc3daa2006c0eb836bdfe64001f7461a261e7233c70e615fdb82a99177b83cb7),
(0xfe21a6077419ed8812d16ba75485e01e3c063359f95a86343aab1c84ba6ac00b, 0xd6e08c984b7a5282bc1857b882604fc0692a2fa640cf5a5cd298f34454c836b7),
(0xc5e45275ec85bb32edd327027d7d87ac8394bc51722e0bd958281e61c454fcef, 0x9b158ee789034035fec4f06f2fc8175559f9f7623874271592ca6ff9e5712a8e),
(0xcc68f3f33636048105583d657da51968a4a44a691264bac8289791aadc7a4ef4, 0x9db5cab67b31f3fbf3b5fde2273496f7933163586d14e80bbbca4613319df9aa),
(0x6d33be855fe8bade89109a3a8c089aa3f7e9d178969100b7eee7a693d83ace80, 0x0931273687c08455c43b4cabafe71408333fbd69d330315a03fc9a52a9d473d0),
(0x5aa581c2fc48c38c2aa2e176c12f12b54810ff6f862fa17a196c06e4812b9e3c, 0xadbff08bbf6fd5e99f91f9f09881cfcca7b5c2af709bf8386055079b2f75f3c4),
(0x12eb2ddedc6ea4e8dfd430679d45052bb882e4d900bf516b61edaf00305fe883, 0x8f948ee0f8514f9a1bd8a71f20c95e4de30caa5bbb3a383d9561f02734bb1950)]

/-- secp256k1_pre_g[8128..8191], /repo/src/precomputed_ecmult.c:8170-8233 -/
def g15_7 : List (Nat × Nat) := [
(0x3d0d7eda43045e9f62dc680abe47e93374a95d59945b69cc60acb89de40dcded, 0x45c53d35e369af07eb223a791d148ea701875cd18ca066d3399743f965e184b4),
(0x173d47415803d2667ea94abf319c5917204256cae217647cc024a9b30be7b70c, 0x2da6c348cb066462eddfe8bd3dd00ec134a0a0604b7e17d7e6cda389dd4d5463),
(0x10659655e2f1ba5ddb390184c2d6d1df1cd2abfa4cd4bc18c89decc95b5d6319, 0x05ac27933a88870ed5c7752a459ced4569435a097cd0e03025608cf4ac2ae267),
(0xe462be7c380d7bbecd45c6dd8fe602190404b0c94c5e0e4d31a23064002b5b95, 0x872183ec1ba5b8541f3f99d8ceac80c59e84756dcae2e6949b43ea7ed1cf752e),
(0x8200badd1df41faa19b20cb8efa424d22f39b1f926b692c02a0ef6e7feeed67c, 0x8402fa9a6ef0f83f42546b05360296d374db551ad89be995f2c118665be528b3),
(0x760e2457a3e1a165526e9fe22b5bcad6e8107581337cecace2ae87dda3c54592, 0xc5111ec324158a2156b897a382bee2bd0de0f9dfaf9ef611a7fd3fc74a635b3e),
(0xba6229c71729cae65275719d9a35691cf260a003168f1a251ac00b090aa17872, 0x7d28160006bd898182126d2170fa0ab1d5dd0c7bcc377a88c43cbf6170a633c3),
(0xa2cf1392571e758e6ec74708dc45f70f90833ad4135e7a349d2810a18efb5216, 0x2420ffddafe965069e6f92661e3839bac9b1db40d40149ae3acc868386acd175),
(0xf882220427cc4b3733268925fb80beb5a52e5391b2c8e31ef6e995921775af20, 0x6cf6eb9eb19825da6edc5d2a66f3987dc9eb01e2b70e63950abe29030d43acee),
(0xeea28950fb676991444f96c57e42ea16aa380e3ddde63111fac35708a4e45b3c, 0x34d3072298a686ec7e1a80954e2911f15e11d426ecacf11ceb45a5cc7204114c),
(0x7f252a726f9a1497f61bc4ee7b194a31432c01782f40b16f2d36e9c37279e25f, 0x8edf25c5f50c6f0df8a17f92611bf02414e02d0cde38acede96d5a7f4467c449),
(0xd3da23fa56881cf3a42a50a742e1067f054ec24f2de19921b1ae7f15fb90509f, 0xb4ec4b178e555cbd15210f090bd1ab4328e458fe6aa3e80044bf0093ea08f90c),
(0x6752f294f8ad85e960b6a88ccfca78745c80ed7a093f6f053782ac73d96e31e3, 0x976222efa6f6358d42d6289a4f11bd65e7e755a3845ed49e3c972b5c5fdb2418),
(0x4fe21b0624a45b697f42aa5410e6385d645a8d492a61ece5c8d5b2ad1fe74efe, 0xf7666c097caeea3ac4b2993b64f4c0cbac93409908870adeb7cee48ac3c2c413),
(0x15af87cf6dc1acc51d323a36b2daf163ccc8c201a92f06776a26ae277fb9d766, 0x53fe45666a975d350ed20a5a7bbe63c44cf8011d45e7a171d5d72e575debefbb),
(0x656f3686c60039b44c39a5d3ee82cd08e8aa8ed40b9a943e422814074ab6821b, 0x9f277baf2da730b3dacc2a43512411c013ffca657092e695d49c8d24a4cda4d5),
(0xa13286fd2c17a61e6bf8d209d64f58792534b037cd854470a09c8c8d95aa0564, 0x9322d3d4c735a4855d76e5d1fd27fdbba8af2fcfddf7bdf3f9e26f977f4cd1df),
(0x3b3559284ddb285a1eab73c56e6bc5549f40d83a2b859e01a30032f3a5a7109c, 0x780670b567755fa510fc33857745a69cbbe73e3f8186b3c18a82c51d5e1d9be0),
(0xb0b15be86c2dbfed6da6e7c651c10b17005040707d1747c3ff2dddbb256fa495, 0x8d2c438a42750adf0345332d0f02f6c455a07fceafcc51e496c270ff913546e3),
(0x0c754130bd717ab0fc17e14ddd6ec50daa6bc02ca338cd9a798ee62e72d517db, 0xfddf938b028500ddc9f1fe0e70104564d1bad398d3bee900ff609c8df56d3b26),
(0xee61557933d877e49bb228e362766ada8615d382c022c33339f78ff65e5d9ceb, 0x3dd38b155ce01a1b3d5434f1b2e04a266a830f47fe89263cb0ad1b5e18bd8b76),
(0x0f830dd704d03a39d7f5ba3d132b40bf130b33cb9b6609e212b6479a014287c9, 0x9183a68c33c2d25dc237f8edb5a63d444dd2bffbd1255631221edb9a4c9e9e91),
(0x544fa4773aa3589d9e63c8f0f30cd189a8b6658eba908212cb1b4caf2d5f64ca, 0xbbf57d7db5c6b8d6e202a7b98ed06edfe1a9ad01381da1d811405fcb8ef717c3),
(0x9b270440132f5b096fec6214dac1e27f3e6c6f7f25eb2cab680c3feae0b41b1e, 0x0a7e591deb9906176bc872636ea19e04c9a3aea9590590782a757fd76d99c6dd),
(0xbbd69c5ff0b9228bcfeebb9732b3c316c14d9a54d5a3e9caebb337e1e33525e4, 0x78cc6c848c246e7b7636949d4e3f2b94989c77c4812b8189cb857cd13457c403),
(0xa920edc14ddf5bda56719c0c2adaea7c9aa8aab925a5d6fd41172725bc65341d, 0xb8afac7446e560cebcaaf43869dc92872805fc14122cb19a0bb59e518336ff80),
(0x3c6e9595a201956d0ed27e8341b22822445148e6d00b2fcdecfdd66b2405ae3f, 0x2b8ef9a70d7c37d0d2b7730974718eba16f221a5f3074678317f0b6b7b0841b1),
(0xc35c9e453f487f8fae5b6010e1bc1ac3ebe4ee533366687613cc4b355162ed91, 0x7a8e64d49f827631579421ad3c7f7ea1f4866432a341f9556741c521c757addf),
(0x8fc84331a8f8dffe28f30d71b39c105a0ec09aca4876241c1c81a223a1953637, 0xaac7257acf0fce3aff8fc7eae8d196062ba6d7ad9b7987bc35a92b9b20360174),
(0xb43ca4cef1b4a2d01a20fc642f3e1456317f729a1ee697984ed88bfc1c5a2908, 0x39ae1e51f352c0c98a79cca6cc859eb792bad6ae5318f99dd62d3bd4d8fedad5),
(0x7f29c50175628aee5d39db41cc4d89a69f133f0047500f6baa7a90cfe13159d2, 0xcf17c6f2f6072b50257f722b5756d8adc7486cc1d21a925e8cd29a154b514cd1),
(0x3fb9395955ea2522061b0488212e15d6b28e975e5ff5f35715337538247f2a54, 0x7c3db409e06d6980d834639fe9e357bfe6a4e9b0ae6b4fb8f5e45143ff625ddd),
(0x945ad87118199665a4078a46a9596bd3ec7cab840b6323a07ceefc63d7ba29f5, 0x6eb6d896a24d02c0630c909e65d13d4c2eacf1ef6e600b891b171594aa28c206),
(0x513bfa9357c827c1b3c0289bc4ce443bcadfbef0b28b32a9265ab85e67efaf4d, 0x645c5b3f0d45030f1aaea514baba706991def89b56fdc2924b6842416653b6d2),
(0xd41b35bd421ef7bb1c03c794477c2851dee92831714180e66e57e735caba5835, 0xbeea21169cf971a5ffd83596d9bd77ebcb1e0c7d506a45aebe8c0c7c22738f9d),
(0x96006d64fac8f0de88f93e05da8e76e640afc1b28ee09a7d5633643bd89ee3e7, 0x1404173de96a97e9ae9bcad5c9093d05cba9647930bfe6d196664d0b13c93618),
(0xad52822712257f87d1ef82c44af5f046648c2a72497651bc2327e9711170e7bb, 0x2ea908a6c742f542324be9594746ee484229d497cc8bd535e7989525aa36f079),
(0xb4709a81c067f6e393ef97abc26675da6f01a2f7e3f35275e7089ea8ad5644d6, 0xf655b89bd6a83838ffd23f6afb944bc0057fe7f11d321a0d2152568d91751d99),
(0x3b7bc8ac5ba85b402080612a84e0226f3b43c8dec0e54b6eea779b76812782f0, 0x8405dedca02825f35a60333f190001fd98ea399509dc6e61c28c5e2e5213fb0e),
(0x02a76b67d197e7a37a38bb10d49d523dc4beb4a3753369747e22e4079e0310ca, 0x6331389fb9cf9feee89b089a95abca6ba3c2aba538725c1a6848fa46997d0e87),
(0x9938e80877c2baa453e0256ed250439db11732de1abf7555949a7574f62819e3, 0x250b061fbba0faa4468a080afee8264cf72fc12f2ac91dd713ed92a11b281124),
(0x7366eac07e5e4573003332913e42f111e53a78a60506989852db2355de089230, 0xb8dfda3331646343bfb60b2f25050967e735861e1654f0f70ff42ed95dd652a4),
(0x10fc632ccab22fd32583599aa2efaaf16e1b01e6a5a96c595087101233022152, 0xcf53d9ecc74aef447019150fddfde494c2382a07b2dfd73bc628478f7fbae0eb),
(0x785f4da0240de52dbb50b1bdbc53994a473180769a1fe06e05a40a8ee677ce63, 0x9b5759d20f77bbb9e40ac169a01500ca6dd6bd706a003871e7ba4d66b32db9e6),
(0xa7f20615593850c327aaa06fc03e0d46d3ff20a09b8498101759638d08cbb9cf, 0x13b9ebb6f0cd59ef54e0f93587a14fe12337e34694f5e8f110323fbdd7604d3c),
(0xcf083e4fe0ed444485dbd99d8e6823bb483eb749b94ce67208671de86105aa4a, 0x36eaa3053737849417050dc28290c74dd9ff9df4cbfa434a2b89de00e06f3099),
(0x9fb8c370bca485d1dcadc251ee906f5806f3e177be37baec6912e535f5c7ab0a, 0xdf5cf77e1ad075327150136e7ebe7f351db4741574444b24e9cf2f4f31ec683c),
(0xff9e2f29170dd4562c94d48ceeb0390ddb7837020c13574f8a8c6a796427adca, 0x784c7b683c8246035077911f957aa33b47534180d70a60d9f248b860736a24c2),
(0x802343c3e07f9f9ded2ca4363e455427367b852cd23ffd7ffd690eab90b4162a, 0xb093f0c5f0fc7d01a5dfb7f6bf9d90d88595140aa13fbfc0f7d6af2f54ff5ce0),
(0xae74ed8711a1a6849e558e0547ff8f9bf63375511dd3d272ee0597fbfc2d6914, 0xc304897ce5afb5b9a383cb64e85071a3cfbb298193ea6ce055257ba4cf15bec6),
(0xc099b05adceb601a14892c977b267152f29ea71efed6090e7267249e43c2390f, 0x6c3ad3eb8c95c72fe0030a7d34329945fd1eb71d8c4aa1f98fa4656c6bef067f),
(0x097c6949a25581f5945814e99d590dff67d936d5941010054cac33d0fb3658a5, 0xcdc7faad5bc387cea16a10f66971e5ee6d32756b596adc1457081ad41dbd2e4e),
(0x14a19edca1ec89e9524548efcf3dbc0381b14b46928f742587b11df17aa721f7, 0x0f83c4d0aca0870963a017b68db3434d6088015c2ff1d8bd739fd62035d1a19e),
(0x4742af63c7597424e6d04a8ccb43142c54c5b350175bf5a727c398202187d00e, 0xbb1f2f720b21e15fec17af322147edfe1ca80ac83e030dfe8be39fddf340c56d),
(0xa65978694d168b00d9df41defcd48ae968313394db683407330ffae9f2559a11, 0x6bf65c4213317a5dfb561e8c872c8b1b90bdabc88a8d2e1e39919f8e5043ced3),
(0x9e62e4681e22abde4d7a2fa12f7867f6ecbfc15b54990e26821a8cdefed76985, 0x4877297ba64fa8edc039ab1ae62ac72d8d7bbf05007513d14237b8dd9f1acd37),
(0xd24333b4de55b0f5d47c72e488cee8ee8c960903260a64d2c89bca45db7352c5, 0x688b20b0617ac12d5be38fa2ab52e78569766a832d8b44d5cfd6ee88b19b9f1d),
(0xd203301a13d1c8aea8c790071ef8116c3916bb3edd5110a7304b9145465be838, 0xa606dcea398dc313e61c8fbbdbbc38743c103297164e66a14412a21a5319e55c),
(0xd1aa98ab7010146f016a9d6bcd9115352595bfa51bccb3d55e3a4a8762666610, 0x03abafa4999294e880e3fae9edb4206b09b9786d0bddcaece2d01cf1ab715690),
(0x1e20823e081051b26553508509aefed603631dbe023b4e79abd3c17c21f053f4, 0xe238adb686592008f7fe34b99b93406015c323ec55981b2785feae6e5fde7186),
(0xd878afb88527a8614b4276d8fba39300721960176f437014980b7bbfd4320ffc, 0x7403107bfca8ac64baa94a4b128e72ee4a015675845519bad5609331001680e7),
(0x53f86d4561deef96ca88a68538fd35eca95740a43a52c601faaad0c2aa3ab72f, 0x667a6ecebfb97682c5e9e5dfb6d2915609604f63d9ab00ab8cb10000e6b01514),
(0x20990660f1055420b885fb0a388247403b141c375aa20dce8a29191ae77bbb16, 0x7d4344769e302e389e14c02ef5fd8a5c64cfcf3de9813f1cf53bc6d34da93559),
(0x1e70619c381a6adce5d925e0c9c74f973c02ff64ff2662d734efc485d2bce895, 0xc923f771f543ffed42935c288474aaaf80a46ad43c579ce0bb5e663d668b24b3)]

/-- secp256k1_pre_g[7680..8191] in pieces of 64 entries -/
def g15 : List (List (Nat × Nat)) := [g15_0, g15_1, g15_2, g15_3, g15_4, g15_5, g15_6, g15_7]

end Secp.Model.PreG
