/-!
Generated from /repo/src/precomputed_ecmult.c:12358-12869: entries 4096 to 4607 of
`secp256k1_pre_g_128`, as pairs (x, y).
-/

namespace Secp.Model.PreG

/-- secp256k1_pre_g_128[4096..4159], /repo/src/precomputed_ecmult.c:12358-12421 -/
def h08_0 : List (Nat × Nat) := [
(0xa8f11586f3df4945a753c4850ee0fd4de410771dbddc1b26c9ff10e077b915b7, 0xa4ad6f16dbd741bc71b2dfd20dd2d3403816bf734e73cc10abcfa6bbd0f161a4),
(0x13e697c3812d4772254082da372892d4e1a66e1aeb16bbd4f7a0d5310c979cb2, 0x87fa7baaf6def12d31e42c14f672c0d6a9d0e2e1ceee25460d65bd01c18df57f),
(0x3cae4590821a9697a5963269b44f022298f60021b6048b3f49c6fd4d08650c7a, 0xe03f8745604184490ad97f28416647450349329d268c1c4386e251476e44b234),
(0x6f42f6b1cb6bbe13cf081480766cbb3609d2e63ee691722eac81621c66e0fccd, 0xe5d8f8eb67702ed9e33c7b71e3cd7b25cc9cd315314815b0b67e8622fd35f022),
(0x43d24bc8469cfdb751ca7d82987270596fac14e211d37041370f3bec90e411eb, 0x2129d618fb1f70309715b2eed8e70aad8b172b74425cd74703a3fe40d7c50dea),
(0x259170e1d48b6f366a2815923474f0de434f4ccce45126e4a15c503ec1f8b97c, 0x9ec06188dc194bc2be131217bb862943aa9cf36b7703c45fb1ffd282c3c12549),
(0x18d547f0426139b87837d1c1ca0f5f06883581b2c001e8e72565c9fa80fa2719, 0x026d9dc3e1145ccd23ae36e05c133f6a5ebaa9fdbb9547923e762a8a9fb60260),
(0x23b5936bf2dc961f2fc938144c96232ddceb477a753253cf1bf057131b9e58be, 0x9b6780701bd976e88d66e7402c00bec8e4fbdaf4976289a44391b28d45519b07),
(0x46de46fc0209df6206185387938724fb702c3239fcf291132807894d148774f6, 0xcdc2ab0b5d37a3481b44de55d9c50ce54322f8be6f284ed1ee49f04b65f4f2d8),
(0xd3b78208f5876faac4d3c9703a87a586e897c11fdca9a7cb6573c8149b5d5da9, 0x112ecaec9f4451ae234855799cfee804ee053df78e65713acd43d953471863e1),
(0x52d51f460ac86afc391e6a1d8ab1d8622492ae18b3e86f135e42fed94cf3735a, 0xcea47627e7eefa907b8bfd12f3212ea0bfaf9e000f407bb408a86039d4815215),
(0x46451d0448f3f959e133723eb9138a73b3877adff294ff156303a84565a4c39a, 0xfd1c4a00bbd9aa06afb147905c0530e1d6c3b5dac9001b9f8ec76df3c7bf3c76),
(0xa12f5e5116c58aae90d8532a09182d54f539014ee2d8357e05ac785426fc78db, 0x3db94e9bf37ced917c9f466d2a6db2bb21725e9ff4dc14823e6e384a265e0cad),
(0x98999fcc38fe6b7197ebfd61fe8942ddbe944f986f139c4b07bd6bd328ac250c, 0x48adfd3ec348281dc23335bb08702cf8acbdfc849ee34a3a14bf36cab7dd0ae8),
(0x8ac22420f9b9aa050705b31fbdb57d050218ad72ce09b4894d0b515b4e5940a8, 0x37a7e2ca442b2446686f91da0db6975b06f63454e3a96df3de8c62a4364d30b6),
(0xcd0804d7b1aea00c13a94a33f75f3736f575908096a2d418c5b54c72de31d619, 0xc7f6857610df1c3806e677bbdd6dc121b3d9e9cae54d22bca5ce1184a3dc755e),
(0xb6c4bde62f8fe3d73c32e641573098c1c559e847e40f60c349d4005049b0411e, 0x62c691f1685104583e5191b3758d7e3ab2cfa31e07a00d7b97e39f880786f9a9),
(0xc20990dc7013491742cec7668b725c26d918cb466cbf7ebe7b1f37bd63d5df0a, 0x6f1e71cee28b22e19c6f180a4d7a48be9fc696f40cfd418d134c11966e285d1f),
(0xebf16672045ac7f7385b5356dbf977a903602a1140ada1147face805dd93f9fb, 0x24b15faf3b3ac9f9833882db0b81a9769a37e6ad1a4228c9a4f7d0aafcca3400),
(0x1c62065763199ded804deefcc33822f9cf3d4c1d72f2022f37714eb383367621, 0x600221e148f74ad4dae118d1b6dca782e00117d492881c23b5a7cb7986cad767),
(0x40b300d00752034838bec63ef155b527286db841754702d1d512c183345d492d, 0x29305ffb31b1febaabe027b5f432679ce265a57a3960b8b5a66e6de95a10fee6),
(0x5768ffa5c8b567721e10c2ea421afef5dfd84120a8d40e13751a895afccc6c2d, 0x52ee5ce2e60ec4857ee62e81fb2eb1184d2a6ecfd8ab7e09dd728d165e508d30),
(0xd906e71ab6bc6697858c66d682aa85afe8d80ced5f470ac08158b5aa4cabf2b7, 0xc75ace8c745527568cad89e2201dd954bc6f4ae63a671d2c9bed78f640b7e70c),
(0x0f71937ef4553a81a3f155d22f81a5b6e080c0acbd8f5c5afd4379606a63460d, 0xd6e4e57d422df901e6292a28c83c3bf4136b5700f6da035133099febf1228b19),
(0x3c498699da858f1b364c464fb4317b765d0853931c18788883072cfb39ee337c, 0xcf3033a89749a0f4fd4ad86767b919a1c946dc67cc46524baf5c0015833daa0c),
(0xc416570ecbc5576f97090660438dc3ecbe269c426e36fc4445d53b0eb2c5d54d, 0xcf6380d876e20ce95cc181ac4fdd42c4b91d7132d1b1c19c4cc0db0104ed782e),
(0x8f97b2bd0344fcf862846992e826f5b67fe7d10328f342318a9f7de920d71110, 0x0e296632fe41f8cd0b3da3cae1c356a42424c64911dcdd58c21aa1f8cee07ec0),
(0x6283f3718e67e91705b8c1bf28e66bd8470dc4a01a720a8fcf1df325fcb0e10f, 0x5e80225c87c0d6fe3432db79e8cf43658640ad4f21efd2a4333eb6aea46bd342),
(0x9e29c616ba66db06bb71e56a2a049727e07b83ffcdbff6ab898a73a2f2f9d58d, 0xb5997133bdfa29e4431494f28444f1867c4fcc1a516ca195c8eb6fe3f5693dfe),
(0x7a0db51d56a2b33b8ab33329a1d41454a30e34fc3db33a3145c1cb07923ca061, 0x334164ab64cdd8fe9a106f2d156a16c105da4f07fbd7f1ade9d1fd7ac8630fc9),
(0x5994233c13ba74ea19c1c65ac3653a6ccef79c4bbbb827afe736545e33ac05bc, 0x2175bea73090437c9af6f994b33023b05fdb278dc0c59063eb3b805ea6b6bf6e),
(0x011e13de2371f7154d15373dd52c504e5081114610ebeaa3f47a3335ee4e17de, 0xfa961827b81e71fd60696d9717820d67ec86e8b874d3d4bbf50df64461f738b2),
(0x787099cbc8896328dad08bca04e682e49046157429aaf74023795a1a47f25ccc, 0x01ea57550bd653edee7ee8d00b3e6214df2e31d7731a1c9e47a95f468c3c8ac5),
(0xc644c88afa42bae127bec7d9528cd6957bf7d906942baa4e14ac960f046469cd, 0x9d7b39cd22007b04f61c59053a3b761481dd45a1532d395cbaf8ffff377f2644),
(0x79d1abe5cdc8b0c49508a87d46163d1fada43640ca1a5e890d2f1c078c58820a, 0x00465cdc983f1be8948b850ea9a4d9bdf389878165d5a1861c94d3d003fb9289),
(0xe8d4fa8edb2a1612d7b6fd8cd6aa2f1e0a8f1ba132572d6edd0826cebede0e55, 0x92aa3d43e944d032afa03d23dcdb460456cb03631fe2f8fc404dd9f3f832f065),
(0x6f99e75eb09110e73d5e304fbf5690370577554e5186135640c2c69f4a92e88e, 0x63b5bf05c554aa30261a09e3b292b9ce8f1bcbf00ad91c35aed04f31567757bd),
(0xcb089170d912f8aee59f21f88860c0d5182b52523b2cdf35b9795d1f20c37815, 0x4e8c5b3b6d79cab99f2570de8c58c34e6b6f5e190b285bc46988ac8620e645b5),
(0x5c24879351e487d3af1b6d16b25367fd9d2b71859923c5655d7567d8ffd621f0, 0x5806bb36ac3cca862624401c27c54e90c76fc7477e83e6f60ac89f2235c84211),
(0xf1d10f0a2ce54b90ee71ccddeb6dc4d4c2cab0c95cd35bea5f20d3b351d15896, 0x7bdb4d3ecc613f8a8fb84d25541970e06c7385e3c04022d582e2efb84998eead),
(0x536a5966b594b460bd27b4f3aea6b55595940f06311970a036dc0fa23a274519, 0xc44b0b54cdb4eb87b5d70d9fbfd4a6015c34182a31a882c9008808787910b3d4),
(0x7f8165ceed27a393041d542eba9ae875554265f61c1c56c6cc0bbd662ff88686, 0x0699372426c18b1bdd1207e2f3bcc0b8673f481ae7638d5d451348359b4e39d6),
(0x12214607c610d01283b9265bc59d74584e0a79f68a4e8535a72809fe11a6830a, 0x5d26e4989e3edaf627cc4bb7105ba8de3344e506d9bc9a338f1e3219e473e609),
(0x9ad7f0971d1c326b8ac468ef706f53a19e8fff258e599f0e72acaa15b21d58b7, 0x2e7c09212199c7cbda8d3645a5bd78314234849c41a238c2a3dd7fadfdb8a880),
(0x355f75a49df69d8e4ccad41b1fb0445f619ba9aa34697a5e24ec8e92f5b41068, 0x9ca834214622ad8a90a09469d155bbec717295ecc071894c6c91a7b6e1345f24),
(0xbcde80588336a996fa6af5bb5ebf7441ed3bda734802ab5d5c0eac318017c706, 0x49e4084478cf1912ddc9190726411814a782a3c1452117c9993d9e8b4f247563),
(0x372cbbc33417320e21ac4ba5f286a9ed273b64250e8ed22bd0c352e4f0a97270, 0x6e05363cbbbd6b118f2842d1243dd629247e90d84e7c9d02c3677f93d1d01bca),
(0xa1122e8d82e97ff6ce9fd024cd4ff32c76aa0aacc1c2849d887240a7a368e064, 0xef97035e1df999431139cb88e03bdcf08b3a5c86d4b42d139b3acb12e4e7df3d),
(0xe0101d711d0c7b608093997c229bbbed63b0522453c0079a518826f92bfc9d5c, 0xa0acb9e9c3d3d3847f2d38bf29da71c9af0b5a415bf738fcbe24e367c8db2fcc),
(0x6df3e57504b62c9241f8aba412804ddb74ec864a12076a34d9cdf9cebe336e8b, 0xbc66fbf9276fc85d767c2155ef481295963cf371c0ae6b4850140d1fc32f80d6),
(0xe579480197d3eb68fd859d0aa616912fa2a52a7ef3881969626f43ae4ac20586, 0x3ba69743176c43f77afdabefa06eabf594b9d0ec1114f3527cb1b127697a5275),
(0x7b290c31de7dcb10177313f19a15d7510c128bb216823c5d69298baf575657cc, 0x9d3b3707d8f2b17fe14b6b1d80c55d14b747c3e08c79d55abb54809fd96f99e2),
(0x4ce2adcc18632b7a0560bfc3beb7138d8ab210de6cc7f6cb47171b4513e991f7, 0x5aa8204b689d8f690a42e08d5ecd293697ba76b21bae122ce925265925a874c6),
(0xdd798cc997530af7d7ce96d1a6a93abac29056dbc69eebcaf46496484942bcb3, 0xe9ed537e7b67985288bab4bf36ed677c14db982c09ce8714b4f3a32b56609e49),
(0x356f44149da655e7c9ea5a3a5c4847a9f908c608aa492efb15e7cb008b065b79, 0x2adb4e6a0ce059ee44ee8962b4aa8c71a4d55f3128f568776c70c4c719fa6332),
(0xb607a62bc16ffea9b30f61d9c711adb1d110c6b4357b1e0bdc71c8e94d06668b, 0x6b933ae09ba42b0696419a90e6579a338f4f3fc705134abf70cef838efc5270e),
(0x77fec5c924fbca2ff564bdc296ebbfdfd52f0dfb1501179257085c0a8fec498e, 0x6c7729a7c92a662644f33fd31ad5142a0b52172024e31308dc11f73c0ee29d69),
(0x804dd2d98014a95b7fea2651195585acacab7a461f3134adf2c4403b3de98461, 0x66fae33c458de63bdd04fce81c425938dc13194cac03205ac278c071918a4e84),
(0x65866c3690a6cf7495ef54a4f222bf9e3ea803a898eebc192214133e9ad35234, 0x8cecbc5f4a1528646350711fc4df57dd08a2c44d4133ec17c95e00d8b49c62ee),
(0xeaccdd6f2a9616edd6f8c3ddbcb04c1d49f0c4c38d8c34fad47174f92323e15d, 0x15a435ebe23d23fb2313b59e2fe0367b017b6d9de900332a2043036219c4591b),
(0x0860d3828ccde42eb27652d1c159d9db57a0b9def290b071e93e36aaf730c53e, 0xb4688879ef616c7b0087bd37641e0381115dd487d5fa3e8799257afd26906aeb),
(0xfe446d0e8d174570493944169c332f9c0eb47e703f214d832777398adc8189bd, 0xd4cb299e760ef11ea3846dd309a49f344d5c10bdba66dccba43e3647718e598d),
(0xe4e6bb03528f913bbc34d9102a96385ebd0b8aa9a07a863f9d5d41c7b982a578, 0x46ed6885471b4806aca3c265d0c405354bd63da0af35a89ce8a8689663d38690),
(0x12d69042a55157328b729ba44fc3bac195c419f8ec71f438e676d7224509bc56, 0x80d7fe5552e88a74a87d24eade1f9e35de5c45ea0b8a9b4809e7a0b84bcf5d31)]

/-- secp256k1_pre_g_128[4160..4223], /repo/src/precomputed_ecmult.c:12422-12485 -/
def h08_1 : List (Nat × Nat) := [
(0xd3ab538001f1b1f736d94c4f2af00a81ee1815ed83dafdb6ef5189e413a32552, 0x691c4594657c0809f7b6335ffa4fddcf8af5b7299262f7902ef12e34f546a401),
(0x50bd549c2da950517b4c72c367074539412f3b4c45ec69cfaed0fe6125b50d7b, 0x147f8768515cb5452f291d4f5a627f3605c88b2bd19457b01fa711fd9bc71abc),
(0xa36bfbc2330165f0728578b90ec81d14c0417090e6ed73ace8aff5502ad9c62a, 0xacb881555251f37ef31aca05bf33f9af9ccc57df586920674f11b7878c7c9337),
(0x2be3d416ca9627d509f259f01d52d91509972f50c391531d70a6b79f735e7413, 0xfc0eaf6c97d11c6bcbc2722ab3e821d5363b04b8edf2b70015ce37f2f70e51de),
(0x07ca7ca3393a9884c94430ad20731f2b7629203e9c892d22ae6df1a9fa66aecb, 0xc05c74b4e2580f6b9be6efd4379b763126d3e0d6d4e9925d1a7f874cfd620f43),
(0x6805c83e19aad8516fd7a4b7e9bbb82e28d9d0e71f1608f9dcf37a713b434893, 0x2313791b8fc68b18444cb3099cadde98f4c95ff988ddf601ea3eacb5bf1c1512),
(0x7540f0733a358a9080d2b07b64e179e605de80106eed4eecdc8c879a87d007ab, 0x998820f3bac2fc5148b0823ad20b5f77eb7acf5cfb2e968d02b98711a1ef778c),
(0x6eb9b5ac960407e4465a0c228d98621e47f169f761189aa8f7de2fe879daa64a, 0x6a32f21d379c38e9229ed85b33b4a35b9999281df96ecdc0018d248267d85d54),
(0xe32d3fe080d92f4658331d25f0f2bbdd4367188598cda4167b4920ff0afd5cae, 0x61a8a2bcaa82c5d101e958a0fbfae374138efec684ea8e18af1d13b35388d1b4),
(0x22a0ca56c95c522103ca126b65e5382a5f14d17c976da5df5494249543415d70, 0x4cfbb8e77e3f04c869e62ffcedf23907e8b17a4813fc95d30cf307e2978e0bc6),
(0xce3aeaf2dceb0f4c50120b90fc027d7bb5a4cdddfc337e0514298873e3ff340d, 0x49f2b65c4a64b46269e93c2fca6cdf14b0c819820b095ed30644805ccf333021),
(0x75251b27b360b2369c0cb297c5f6ec1b70f6afbd5af1acfc038bd7659c9dd5bf, 0xcd0559b39b18ceef85c151890fbd7a931ceb3f7f6cc93d3d7681f56417f3f891),
(0x9d69e5b332a9ba92017884f7e7a1ab9153a65c43917c566ac2969f50accb9047, 0x9ef330b9d347c93da9441706a502491d55d27723ac1138dc751308eefc6b3a37),
(0x783ccac1f7d6409f758849b6f7c4d5bc401fe5f5b08c2f841e0e3fc4fd7a2d47, 0xe5c62a2765ea5ab86aa1aa009297d1fe57248127a5d3c36b9665cd93b6255f83),
(0xdffbb4448362773fe45e0272eeb1a8b8fefee1b559a6bb120b9613fe55ef33d4, 0xfd539cf6aacc930d2ff104dd0405ae6ee4a6b3ad1a9a0038f4ffb4ba1a6115c5),
(0xcfc948b3c14d06fdc528d29922305663d7a427f2fe08cc2d0942528ddac8ebe3, 0x81ab799e5be02ce0d3aece6fc6ce84ae988872fcab640d96c3ea6bbf3e2e709f),
(0xd9fb08fe6a7cb6ce721cca3274e207325933595ae59aa0d8811008f5cee83490, 0x2c7f12878b6ad3b588cf9483f08a92caccc18ece93c682974d80ae3154965938),
(0x4272b55849ef0ac2d7830183bfe3cc4565ab9d9f32b9366a0b0477d1ae93956a, 0xcaa07aa5d117616d9f442b9440549bd0f64e7a2e3cf96053bd14faab196c698b),
(0x69536c0d6404b02661598e111e6eaa4fe50a2cfe879b0f744df57727933367fa, 0x0aeed0652c5325a9539133347e4fc4b0d2583608c2086bf6b2e5ad25261c6bfd),
(0x199589ed5c4b6e2465d582572fcfc19460f7643b7019c02f08038d0470368268, 0xc48567e7ef7a350714d1b4791a70e7b05c1d4351eabacd9a1d8d5e80a5da23c2),
(0xef3c4f9e53ed652bf48feb4d1c7b711f5526dfaf6588007d1c2ce942086db1f4, 0x128e416d570c3effd45da6a631246fc4f45b7d2b8cf85a9322b5f65b0361fc49),
(0x6bc3a126011ca8f83d0790c9f5b5b1374ce51c666c553ff69d1033703b3d7cc4, 0xb20988c94b882f50a0ba81942f168bc8f29eb6fc4c3d0149571968e481b76ab4),
(0xa01005745ea131b14c180c17f26bd3c81bd48ca6c2310c4d34bad2776bf51aab, 0x0177551d299c9ca992de3e9ef82b115e6d3cea9cfb2769555509795e4870a546),
(0x15553b6b0defdbee532599ab09e0de23b4954dcc912f49e8f084ebb5af6088e5, 0x8dbaf203351a111916e8aeb2e5eeaadeb0ee5d9c002f502062b9f5ccca40cbf5),
(0xae84a42d49dad25ff0a5320bd6a33f8d79c9f2c72871f41ef8b02cc2c469452a, 0x9b23f07a234782b1cfa524b1ad539ea7b8fac3cde9bfb867799a258795a48ca8),
(0xeecfc7a7a41f75dd43e2b85b5af33ad5f017e0d48f9b9beef0cf4499a3c762d0, 0x65526d2673b9e5b28ec256bca524e376f0e40f622db6e492e1c53820a3180d11),
(0x35e427f6d0be7dc12d306ecfbe9fd8ff107a044f81c38c8c5b9a181df4565440, 0xde09eefd27a8bb89d8fc38e80d32aecb5c6bdc575cdf91ca2f18e926dfcca94e),
(0xd27cec9d111300247f71fadd4ace1139cbe3168d0174c93d4c756c4289cef3da, 0x5747fbf8c4040895fded5c00e1f6040340e078278924ca9602f83b3fe50ed701),
(0xdf30926aca9062bd7bbef9d9e312a1cc49442ebd9994b93fdc652e6825efe5b9, 0x8d1ffe08de1134475c3adb77ee5aa58c593486f9c3f27c32a20df5706ff5c572),
(0xc2602b7b56d0eb73ab4949345eb77e880787e54c79558ea3dafe3f5084f96682, 0x45885bf465996b12993efe4439861b3984d5fa8905242ea80f49869557391182),
(0xd6d606e628c55e0861a37803072c17b16a2fe04be68a0cc760fdf7ac85c8816c, 0x76b299fb9e716eed7f09c879ea8256bca953454e490edabe0c90a2e5dd277da8),
(0xd1bb671a10ec53939d67f6aa03b09e1b57bb6414e1f707dcb832ff67056289c4, 0x47559cac311f20cd55760ed62e1e87accd8603e4c1d0cba9079f68026b294a94),
(0x739ab4bd6b6132f82659fcda5fb468367adf213337f897fd70a9552e786dcb91, 0xb562e7982bf508ba1b932deb3e6b596270bba4ca402db3b4d806da6efbf6670d),
(0xa710cd7b2aef00056d8db9542abe6cba2a6c6132a48a6670c501fa824de21388, 0x4a6037d187db5b522996bb0e47fc75091ad9eda8e15faa5692d56006e72fb220),
(0xcdbf59c9b38e40ccd63b36b80b6e894ac6baa22a93a1382c9d7fd07058e69b7a, 0x3e836c786954d509348314df8ce08f0b59967aef4e5f01369c6d0f9102682d77),
(0x1d32e93f6e5e138e7d226636d5e0946b8117f91bbd59efb1560a15bc657e4dd3, 0x82c43daabc1e23d63632e1676bbca4229797551ff729cb5dc8ac146046ed20f7),
(0x02730066cbe72e84304e3563a18689a1c6c8e0b30e92d8c0d63a96c7e3573337, 0x8804d5cc6aa91f7a1ae2350617332f7d811b8f1f752fea435208b77094e67c58),
(0x044624eaa1607e8b8bcbd7369c67f86e6b0f52264cc76a3db40042cdbc621cc4, 0x95867a99d110d9d9e382d3d8a5dff78cd8db012a972a87aeac24bb42b2747e53),
(0x8ba805d8864774eb4494ca5bf8257bf6980466f8300283408aafd6657f1ef49e, 0x1a1164e3c1b243cc57507b070734849595cf67c7b40d4d7ff10ad0963f3866b4),
(0x297d013025bdd2d3f4a008d0d8c51a3c7b16b60595958d9e93e427a87ac01267, 0x56361e7022138026683b7bf31a6bedaa988d3938cf8399aae0f3175e61d7e2bc),
(0xd866bb8423527208e66f34bce26a8ac0daea9d0327c9dccd0cdf0e2aa0588f52, 0x5e16262d3564736f30f26e681c5ea26ab6f63429f0b25dd25635a3b31fc45584),
(0xab1e9d8eb18e016cd8ec49e40388636d5dd2ab558b3dbaa2433a976aad8f16a2, 0xa14cbcec6327451b15d47facd3f3cbbefef828c46ea07a0a9c7155cf2a2f291c),
(0xcf2f035ace393efd3032cb054f4e92ae5311dd04bf8f36535197748d2094cd30, 0x75b38e909f02bb507a77824335a1c97d75bc653fc6dcffcf615bf8c2ec6b32f5),
(0xa801d552e63ba1202c3ff08b8fb025dfe545ed3501adf00f1a08d9829e8bf9bd, 0xbdb9274df5298fab4cb08f42252639e4a24b553e892cd1ea93499c4741c23165),
(0xf7ad7a63eb2b90aa3de2a80e844e5336287984f06075d9f126f24108f4a5869b, 0x0d151e7d09766a811db451347cc22654c5ac40f4a1d82d962de02c58d46cda31),
(0x732541be26fcc3e8c824d5392828261196717b002af01bc857f4c0accded0a80, 0xd44adf28f26370a83c9eee244e870dab3fa7a508bd14a56f17c9a8455055f8ca),
(0x892ee5f2a5266a8605bf209414c31225b92dffda7a3ec00cee53dc0b8c3a3367, 0x21bef8333b9836657d243b85c0b4e2cb6a5b339d831cfef5d676c7d887a0df00),
(0x1a4597e377569fed70875f9bf8f5531e6bd3b363b96a345f9275365ce1e64424, 0xbd142738fff7b9db00cbff1c93a968b1f0ef3e638279b74521aa53a76e611f7a),
(0xc73064044b4a3a006a584193e915a174631c8a2e0ac45973c815a2f4aee82f35, 0x280adb294f9642cccbcc434528bacdc574beb7df84c0621668cc2fecd78731e6),
(0xc06d9d55264e4ea9e160fa7878a7e4fb1757f6dbfe6109660503ae03b4723f2e, 0xc0d82600ae072564b29373a1ff1a036a45f68f229d1594ad1c9584ccab732743),
(0xe878c0b2bf38b5006c309a515121a3c45b13440d74ff6e275bfe71d751e6926a, 0x4b8be14911432ff6c51697311c1db30bc921cc95b4c98a3905228c08b99b6229),
(0xd1f6621f89ac44217ef39a54a0922c77dc7addf478b157962558ae729b24f65e, 0x657556fee02492c197c9c97a67bf1d6ceb68941580a1ce6a1e4d98d964902f3a),
(0xf9199ae3ae51f441d88d72d69c1ff64ad5cc4979b5fd6a23c514e9b466ea0a5a, 0x3c484bb88ec31009eb95b97169c7ae03c20dd833eef53cdffdab8cd57a82d4eb),
(0x4e059bc7516d5fe20510ae63d3ca9543f840bff5710a744d62de3965af6a657f, 0x222309ca242c58585a792045bbfb3e55b61daa3cafedd1ee19a0038b0f929a47),
(0xc1673413d8b4298f6ca04741a3c32d7983a7d5b3dd39ada253013d3c9750ac65, 0x333b16607b998e8efa7e3d322d51c0521de24d3e9e389f0e9a00015d6cc32d54),
(0xc078723d8abfbc0363f12766cf9c626109c311735f3a9654b653a8f9e08f551c, 0x880fa5d0be09cb8e4f1457491c7f54e1ceef1477ba7ed7185f27013e032deb89),
(0xc77f33514b44b0473835e3ffabe8d7acae5f912daea4e6e04ed03feb78c41ce5, 0xcade531d26ee668b5e2fc7ce0421de2fd9a14dfb87286c22c840144e1290e910),
(0x90e14c454ba4073910f800b2bcc7b0170ec586600bdb1e7216cc6afb8320277e, 0x61dfb75df5f74d47287f828dc4ff46d7fa351a1f66da99da40e747582c6bd4b2),
(0x34c65f3423f2474b7e2f294ced4da6b5c05d19efa2b5a792103b681abe1a3f68, 0xd0fba1a3b12d3e4ef18acdbc68fc285b08ef13656aa900c8c86ae19137f028ee),
(0xfdcc63b0aa5017ce215735cc2802eee6aa5ef53a6a258dd7a128ed7b9a5df38d, 0x217ea8635c9b88c719c7f9e61286844bd4f4b7588153595407b24df01fd5bf03),
(0x10624260058bb9f6a5e8374059595ffde70134924392c75315853f4d9c7070f8, 0x84a92509e809874f86e60bdf85c75d7f2cab596e185f56d9262b06e4e79cf785),
(0xe21f29c670cfc7e80b104921bb52441453acdc5f0fd8006639417966ca235c9d, 0x41be8bdb969ddd5309093dc1b85dbd4ca78f7e6867fa916c36136d24b6c4af38),
(0x154a85d860b532cc16bfdcb22769fdf36dac818ecd2daeb0864eee0cf78a5c5b, 0x15f2dfc93e5e08e49d340ce4bb805afd79f940dcf97456ebc73b47ea5098e429),
(0xae6f8b12d52907e84ae5063a114f8e2ada7be317454ea505571f21325e4acf42, 0x49376af91aea68bdcdcd637a909b639cb7ff8800ee003fe6540d6797f0f296d1)]

/-- secp256k1_pre_g_128[4224..4287], /repo/src/precomputed_ecmult.c:12486-12549 -/
def h08_2 : List (Nat × Nat) := [
(0xde42ac2647fece4e693415827e3c5b7da19dbbd622da9fa858a3be298a47bb65, 0xe57cc346b83b33cb79a3480542811d1d4178805ba2b88de6d90b4fe0ba8e2740),
(0x14c2030ac65ec50d2f7c176c4525658759cae0d655cd57c2c1ea970a11d7bd0e, 0xf3d9f0f05881801cad4df4393a3bd2df1a045181af7ccbe67500b02f061edece),
(0x32fd40e47a94e51be4c927c142b5f470b2abd2b62773934ca29a5ff30924b2e8, 0xb3d74958f17147e51da38ded7cb09c2796b7e36c3149d85c09b7db85acd89bbd),
(0xfe4681540cef53834820fa33ad85c15833635cb4a55870fb0f588fa6b8d2918c, 0x96650453252356067bcbc214b0a04021bc71c9c54617b1bedd34e6cbdbb42873),
(0x57826e088fa3841da33ad3dae5b5a6881ee770f5bfe45f5d507b4801ccb511d9, 0x6cb01dc44da6d83e77a6e8a6d374275e7d8484fb4863b5f034bace6030e6b3be),
(0x61bf08fb1d5376241dca611919f0dfcc7787090a6747cdff8757b037a1ea59ae, 0x6bcc632af4f43c6b547e6ac55854268f1801614e5bc9d4e6ea0dcd9979f7adb1),
(0xf54dac2cb55218559dc274ce25b776456525e91bc011e6575ff812e8d846ea4a, 0xbb9734ddaf492c1882bd36fb0f365009bd41b8bf1378d9c6a18477b9ed627f11),
(0x640ebea4b85cafa0d5a38ef77373bfb136b9571ef9694724680e92fb13efe03e, 0xeaf8d756c70ee81360dadfd9702f660b516fe3a804c5004392bc7c1b892a43ac),
(0x6c4814d1e3c6c16c366c877693b6df4e266b45a426fb0d5ba2d8fef3a3803975, 0xd9330c828fb02d6333d57990b6bedffaccd143d51b5eac785c7f058faf77a37c),
(0x8dca10b5952934527bd2f2646170b6fd59d636a1f2578b6fcbde0c968bb2db30, 0x50da69726451668957d2273e55dd046f1c398d1b9e5e864dae6746fb825ec83b),
(0x1409a8cc34389c3d3fd1b4820fefdb253ba32070dc23b7ae6b8a1ac02f00b776, 0xf8f1c0c63bef801127ffaf5300d5c07c430566e26c4a9591f92d694f82d7a9f8),
(0x1c752b3a2cdb6257fe8bb102e7560b8c6f86e7cae809892f58df3b16728c0999, 0x9f1341ca61dd07f8882596fd12531577d09fcb455a086b0d17dd53908326c741),
(0xae8bb1aea4341bf4c18e7d997bc3ebb3d9f13c9f0b01b93f885cb32fd0586999, 0x92eaf2f5c4e231a6851a2324a146400e6b9eaf638eca473b9d4e034a3d5c8e6b),
(0xe3d2429b0ba45b4c2d9c9bed45f384a17d74cd2856c877726d9a98fe67bcef97, 0x729da85f927c04e2c1db1458c133bdefc454d0d888262b1f418f34205df2380c),
(0x858ee23be5166c66b99d48dd24cb5078fcad23e4a8df9f9153ffcab20fb8624b, 0xc50881323af436fdc4f63b91b06061d4b26fadd46bccaf05bbe1a8b7338cdbf2),
(0x7c6a82f0e2d6c5a3ba37be0e1bd8d4e199f9aa3ec9c58054a66099b9a4938a1e, 0x881916a787e1f9eb0b38906cc101b0e65d245fb7733c00939a7f6f0a9b4d113b),
(0x4c980c4c144e4060c00e7476c782cb8342ae8b026a155904c29837b9fc25caf2, 0xfbc05490a62e49f56daac9dd5c730f90183ee565d62ca9495bc7ce5661c2e8c1),
(0xc9b66a8f6c163037f5bbc7b9889e9cfc357ed5f7a5e5cd176a7e4bd96da2fa3e, 0x4eb8b3e5365a6a444b277b4e89b89e042b44cbf8b73f183d42c9d8b6547885d3),
(0xf2f8fb3e2bd3cd8299e2faafbd5809f012190658b1efa389f58ffe28c1056fbe, 0xdb6c4cac35f780158fed40c4341a93b564af02c012d4817c478726fe4faf8273),
(0x8556c286895b94020283b5d2f90ec950f91c4dbd6c1c8a0d6b27cb8c3bc7da8f, 0xf2979daa81ea79b5d3ee27184aff38059bce1bb7fa36cc534d139b83c176badf),
(0x4d4c27525f24a7d3ec3673b6a3c8f110f5bb5c5fe967577603d8162090579267, 0x43ee95e65834075a83675a8815babeb9824d4703763b5b098c3aff78837b353c),
(0xcc6689e1d08b243ca49a7020b08ce4ad817193c7456fbf4a97fca02df1ccf2e6, 0x32f00dd11080c238cc7e8c9c60a1b7dd075034172ad0464e1cdb422135ea580d),
(0x966525b926bb65960584cbb35da78cece6709134700974f26cff34a123fba535, 0xb5c1834752894cc526336590d961af5d2453d9a340bd151d259d8be76c5a9e7b),
(0xdf7f51ddb0e6c595c8f3de9eeed5da8bb05e2cf9a4555001760888e638b11c4d, 0x197591482d4f49ccb69ef50ca1cbf3a249e3958aaa9af2c7becbb72b8d53f8e2),
(0x4ac2754f93745ef561d6d2137fd2339a81cfb619b6699d9d021897ed975f6fea, 0x854a015317ce38efe070da13c07829f21bf50d406458109b5700a3ec0ed6a3c0),
(0x7c0629172c59c7ef2d488806b1131193b6b6f0e0221d1ebbeca1b35843959694, 0x77f73272291c1c735d79857d60cc9db6b6128e864613b3dc92dd970bd5dba9ff),
(0xc80152f1e4b7728a036acf22158b8215d8ce0ea7401274a21139dd7159d81557, 0xdc0c54e988d2ee7de8a56eabd358aaaa4542a45ba170db5889d634f1dae95df5),
(0x9c2352fa464cd43031f4357853feaddf7d5ee143c6403ea1230961b6377423c6, 0x841277d571934bc020f71b36dcba229365819fa2b20c57b35774a524d6fb20d8),
(0x8d7554f50fcaae19cbc20c7b73f22f30aaeba42ca22bef773d7802058c8e1d7a, 0xc6bfa4c009db5101d33abd0c47c4e125bffab86b8ed508646b6a2b0f322bf5d2),
(0x1e75acec28a2ce985929479de0842826bd556b566961d5db66c9055fb1b63635, 0x89cbe475d2036dbc9227db67d62b51e9ac669a2276e4e1e9d0be9b1d58efca6d),
(0x9fe621875e71bed47d9f2d7991e76b4188b2c8c610f20d335b38bed2eee85236, 0x9a3fe290fbe192f48a44177d4f0d037afc6fa8b1c57032b13d5894c8c426e8cd),
(0x8dc1710f8869b64573c361d1ada3f43f6f2c175eb24ec3586409e9781687a220, 0x37a4187e0bce184509520b609317a4b8f33b371f1a768ba196316f410373ec87),
(0x71ad2a175cf75568214fbbd1f177c1a99eb75486c161f1b7ad47063b567e8d6a, 0x29d807860e42d9cd4c801f96a7d44eda5e325acf3b82e1432576ff1a3b334850),
(0xbe0eeb11aaab9c1cef7a2004731e3ca4435c8a02548b36b2db68ea4a56ad8b7a, 0x00cd7ad5c9b7e8671a1c788995e45cffbcdfe42a6222e0c41054a0f5f7bb00f2),
(0x364154a13a7d9fa0b349c6fbec36ea4351cdabfd8fa7931888e4ea5dee8bf6d4, 0x40b404747e8b30a6a3cdf3baf0956fa5f7f61a2f89a8cf7ec2ed7445504a71ee),
(0x19daf7abc9f69a318b2cf1c669d505325bbd7254c4bc4126d7b31dcde7b558f1, 0x6b740772606874b65b1f819cc7339ffa30669d9b2770506ce9fb243c6ee4a925),
(0x5ab3dc00eb9efd03ae49184450fe176b765c5da7d95ffe6f61aa00737366c918, 0x2603f1ce935e3af8af5e3d1dd76a34100200037c87c17a9396e11018260dfa01),
(0x047bc2c3d7dd83f72b2160a264640e5816316d0e3272abf4b859dd0f6c7b27d7, 0x1ceefb1f23dc61a72f663d9c3cdd6625441a63f9f9cae8d5c4ba88d122c0f258),
(0xb220435ee903f1bf3b4435495a01e739250be2c143f08a73bd7dbfcd75602ab5, 0x3659abe7953b817ffd1c02b656da4e549df250c07c28e9c089ba315abf25e1dd),
(0xbe25604bd52413fe2c74303198aeff78c27086f897fe4b20be5b625152fa2fb4, 0xebdb51910aa195eea0a39bf7399bbe0376073830fe54cccba3194eefd8d34fe5),
(0x5cedfbfd633f16f708ec8a8f3dad7cc6edc1a6bf03e37cf36506973164aad0e3, 0x70e687a9d8632ed6ab188f14229f2e3134a3adc8727c7b0ad7a16d781244c9a9),
(0x8109ca32a86fa712690315e21bc09265bb6bae740588f5071bedebac47e54a3a, 0xe7f3342c6e8a3dd1f6d02bf75610511fd0cffb401c14633d308c2939e662cbf2),
(0x54264a0fdfb894a6b29b6922b859d715077f0359ef825442e0d43b79a0fbfe3e, 0x4884ea59cb88fb604ca4de66110b7d98ec529112d4574cbe9a2e7a5e5a4a644d),
(0xf2756955a6a7db9feabaae3c844cfd375d86ad8ba84dcfba0582bf4a273f90f3, 0xb24c14a7d2f60103a7d3652bc5e68988390c0e671f0fca22ed927f6c96302239),
(0x0351da3e6ab7c98e840d0dfae7231d21ca21a81b3638371a673892d2e40498b9, 0xe1c5ffeb43b443abd31332bfaa314fda5a4c2634afccfb9767bceb3f13ed5f3b),
(0xb5107be090f84c7ae3d89782c6751b22f9a7ad2b3a1810c8f14bdd8d52344357, 0x3d5571d236a7c9a1aada08359e8ce1620c46a8785e09265dbb52b419144c5b6c),
(0xb617213585b2557b7c2531899422c42879825eaf64d8e8e22f7bae1231c9ceb7, 0xdbfe3609df9b8e1a33629219eb241daf42d8be2db9a20a0d942f24ce1a117e3b),
(0x5eeaaf7f577b445d13481c9da567825cf0a5a3f29ccfbbbfd8f1f8a536e712cf, 0x84a4352dc40556ffab75acd3b5a6336639119d8b0f814febe55fb3eedea5821c),
(0xc1bec87444b0210a9a86ca9b94891d00e1fee6c7490aa26a1af61f975dad1c13, 0x14a61af6d280ea470433d7951786351df90a98797678781a8d9d8884e88a06a6),
(0x34787098f0df9eb5e48254496fd7eb6b3118dd45aa0ccea9f606a794126b9ad3, 0x85c30ff1c8dbde4b88fe9ff820c9908aa35a0c53c2175524a5929eea5566a564),
(0x6599b07b5d31c19eee02e287ccaa1bce70890b14cd7391406f1d862b39d794a6, 0xd18396df27e6fc210a9c36a18d8f73efc79e6c56ecbab9cb83750220a816d5ff),
(0x27b50b15c92c010c60feb4735ac6ae0f9ec0af7581e41a90a3a940daa1a44ee8, 0x31c2c3c861e64b7cdf8ca011bd4002ba5373ec638c3608fd619bbb923552c1b5),
(0x40aed5af953f3a17f5d17622127f16bd4cc5bbee33e234435f49c4f7a48e7a32, 0xe47011ee96c702a11eff428d2940ddabd17b76cc6765d5ed126876ea2496f6e6),
(0xcb56977df69956dacf40909b69fe44c14a5ad547a025d684c9815ff1b5331ef8, 0x9904de7a9ce0f6562f025ffc79e8b3a42e410ad58f0caa1662a13e29f0b00bd2),
(0x11dc40ff58c6d2a59768a77641c611a82aa651c115e9d36cbd3ebd18ac7a0df9, 0x4717af950274f82028592bc74a84e4679d168dfd0826a2925789edf4a06e0e50),
(0x3baee3663d2033a7f3170bd0723eded92fad6501702fa530b26d06238d6992d0, 0x4749702541900ac2fb236a2681ca09dbc34fc84e98ca289b63e07d172e4671f4),
(0x6b19e8e6b2010e2bd461d71666f691ea88417df6773208f518ee5fb10e0fb580, 0xa7c743809f744b0599b6c4e4709a8b86241ef931effd93239a6d15f722916578),
(0x412a2c52b31158ab9d3bf4acd4355eabb7e94e986a83968194a7322c72bff9f8, 0xc649c493b19b713c8b3c4e30567547ab472a599ecc95ea73d36d373dc92f7dc1),
(0xb5e0c57bf79e73649826a818bed1d5213cb8864505dc91a4eb157a8add869c24, 0x752feebe9614e2333b876297175078fef9adc63a046392426c88ca94aa06163c),
(0xf656ab089e75bac06eaaf3731cc713476a63634735ab57c0222589b1e914160f, 0xd05493f352b660e04cb00b455cede6b174337488dd1650c84ddeaeeeb73a6ae9),
(0xbd2465b7b5af290d2d1157fa76e4550cddb239227d30c2558f0cc3adae5fa32a, 0x63a28c79cbb50c21bcfc85ab269090ead56f63961fcc6dfeb3a000e73284880a),
(0xd53c8d243dc3600dfa32dd69011a87ab722108e4192d7cec4d84eefb9b32a351, 0xaf6810926afda47aef5bc91d97f273ab78a21c0164f59c0ced66f7a85b67ca24),
(0x4a83ae18ab379d5e0f6cd2be77f64abf8fc23b52edc88ea49efc1bfe402432c9, 0xe9eef9c2f595ad74abf10b856ea24ac5603d46dec320f9d9a1453be392eef8a6),
(0xd1df4416dc7cce22832f9ab0b74d927bf9b3b7a5c52acee53d95812ff26caa82, 0x9e5242f1163a863aa5702af3cdc21f7db0143f76ddba2a2dd592676c057c310f)]

/-- secp256k1_pre_g_128[4288..4351], /repo/src/precomputed_ecmult.c:12550-12613 -/
def h08_3 : List (Nat × Nat) := [
(0xe6add3b2583addd78299fd2b14b8715593dcb13a3231458dab6864ce87b9c890, 0x384bb2a0930ecde41e9945f6247a653058e26bf688226c8fee9a1ec7a1f07740),
(0x7d3f5447295479f296c11443eb9b1fbdfe81a25878ce4195d2f0129007e01fe4, 0xd12e4fd79f66a45b2596b066651d868683e6262795f681a41202204686304ac5),
(0x060636a745442fa957f216687fbdde4ea6f7f80a0ea2832eca3ea43bd1f12709, 0x395ef963bec2979cfb211f8bda3f4b4f2c129ce826a35367d955243d3b40022b),
(0x6bce083739c04ba6b9dbba8cf668bea94d8a8b382ac17b87765bdd5286e47963, 0xa2d85e2a7ff5c433c2c77363666ddd3f3fb28f8b02b7aea116a8f42e384a0a37),
(0x59e4e7e4438ceba0cad5f146bc127c1cdf7f4735f581a0b26a53a366947d4581, 0x032207f595fa4cee3c8ea2699578b28b06290a3c33eb0ba7e3bf7267b2bfa445),
(0x0ae2cb18d4f053ea3a4971628c822f6d72806f79bd39dcc8364ea256f30af032, 0x0583d363b9ac6fd2709985c5079603d94902da041563879d245433d00abc54a1),
(0xbc4eb578630ebde0f58fb192377de006c630e96a5121937943e9a240c30951f7, 0x5224d4034635eea8e63b9e872875f27a129de5fffae3d5165f6d0cfb5bb7e584),
(0x0848ca196fc34e2ce484f74d79565ba69685128e7b2d21fe8cf0e4b1edbd3b13, 0x2a41e449532de110e0d3fbb2bb794fb932d0d4a633aa65f8ec40e5bd5c4314ef),
(0xb90e1d094257ae30bd12debe648d4cea3f063740e3f9d3fbc67eaa4b8ca0bcfd, 0x5604b47531b28a6ae0a13a4731f6cc70de91d429d2204d45e14236525a5a4b43),
(0x430752bc3e1191f306e084f205f3e30bda104f401de9326762dde1cc39d94c71, 0xe707daaf841f62f56d9c45fd3304e61630b6af9cd68714766132e12740f5ebe0),
(0xab919243c8bd75b9d67f331ab3b487e0ee9c97ffc35de7b7e29827c1ab643be2, 0xd4d853b03971f1fcce365db9cf4a54f15e6059c3c5138b2edd765c517bdc0c7d),
(0xadce8be32277c2cf6ee46781f1da8f301cafea5118322adf8d6b8a29fc3f7551, 0xe819a7fe73311592bcfda0a73609748e6c039066feba9e5d41e125e84dd67fb4),
(0xd6ed759d15f5d47a146e7fac423b952a5eabc238a0382762c2a226ed8c24b601, 0x456caee91c212f19acdc2d829eb90cb02ac35a728d280042658af65ab6840e9e),
(0x3583bc8fc3ca09c66f2f4fe283da5c47f0ebcccbfe8e94abfd315173fd3fb2be, 0xed60aa95504e9b3181225d0ca4f513c66da2a2ce9fa9afaac12e04c4f1d50b59),
(0x223879b3b9e50b467bceda29905d09be01acb2065b23a61c686d6f39bf0744d4, 0xa8326789ddb38afbe993ae336cb1c3f792addfade47663fa52a296a3b6f2873f),
(0x29329ca6c6ce20b581a908737206d44a95ff382f1ca0cafb755a345083883d69, 0x5d2aa87f59e13a0a8ca4460a4db7f4961c118ab9b4f783e10305bf43ed44fe71),
(0xe1c6a08c593454a4aa116edf13345cdf6dc00b1db63b7a64fdea70bf0e4301ea, 0xe0f9f3ff5e7e395c42b3e09387b8363d3709233531c317d81b61f20df06fa662),
(0xda098bf4133f656df2a09d95c437eaed0fadb4c98102d164b355c7c938e65216, 0x74ffa0cb1fe7f0af8a1a6ed0531f8e9828be111090b580dc5ff55fe7b75d9b66),
(0xf3f7c27d54b40dec05b3da04b2cd222e1507aa70bd236bd42d6e5c95c71bbe7c, 0x80e17f047cb2203ccc58c364d77e9a1c8abb092c18a9f8d56edcdaf61ae4062e),
(0x466b6e288981fbcc92c4ec3aa54eae4e2e2660415b242aa5523579b5b1fe93cd, 0x9ae0e0c7d056b2a6831f540c67a9773233bedbd5bdcd29042a8987cf1fe2a86f),
(0xe15af3368c59576ca36b5f80d9ec0458d9534bf26650cc26a2079946ac43fcce, 0x07fe0423e6ea121b308d167bada98cc2fb8cd772f95c3d84c1907f0966e5b46c),
(0xc20ab23506dfe247d8fd1a9cd8c4f16da5322bff692efe70f256521d1b990492, 0x3c0aae11e4cf9a1757feb3240e1a2f0e48d5978c6007429dab32b2f4d1a19bd6),
(0xd8b6c1904a848755f126651cd96fe3747c5a37441fb7048fe15c4693dbe35e17, 0xfefb5310e7e3889170fca6ec61ffd2d372605ed34bd22d73c852a92cc22fd30f),
(0xa825682305416b18a01d2df0f47757d0f42c26e3780ae6ca2421aef383361f8f, 0xc919241277948b8087d1c45ca95224ae5f9c294dfa74c1ec42ad6004f8646540),
(0x28f2a237c4dcad5ba6bb52741e743020e90bc5988ee66b39cd672ed2ccac6c33, 0x416c59f6c1b1b036f38a5523722954eb528488728ecfac4b5bfea63dcfc181db),
(0xe65d92b7571bbea54e541862a4dc7890bd546782bca886e83c1ea17f33d77e9f, 0x6116ed4313def2ae6b0f2b92ff07c91f4139982c12511152fd7ed5fd851bd04e),
(0x68adb9eec7ae0198726b045791fe52b4b5c2ec784199da86bceac230d55914b5, 0x41ff0808e42aae9fe93ff7046f08fb384b72d7ec7b1dc6cce00713067ee5cfd5),
(0x3f0f7d6e6bf73a9740eb842a35cd480085db4766f7fc374e1ac915c0e4d6d6e2, 0x392aecf68b4463462d37a1068299a09d9ceeeaa4f0ee3397dc54b2f35e3332d6),
(0x929aa2ad48a1f3a024fbf7ea70e9d57b9ef65afcb3cb2d8c5041a933321359e4, 0xb1cfddf34693ff40ef16d8f108fd1feca71252cfee13ba4a16094c203b4fbf66),
(0x9a9ff691f16ad46ad0b753a6fb09025be196b443839114a9580eb2e7fc494e2a, 0x3776f83b92c135f205e5e60027f65e2d582fa2cbf5842c3f644fb7261e305c67),
(0x6752b22665900d8147ea6b7325b212a209bcf899799eb1e6213857dc6959d32e, 0xfafdac9c2f791be2d1cfa78b7530859dc1b2ff43e546de141f42baef3d6d1371),
(0x9fc32749e636e845aebfede11d0928a18cc6e3b45a2536a90fae0a2bddca6434, 0x9021fa8556c5fe05cc87bdd36cebb00b3d1b77e180ce2f8aa4d155ee84fc6441),
(0x60ca338fff905b58b1d70d5f89c4cebe15600495698b262b0e1550daa0054a99, 0x6d57de6bf7c637ac4d7280909960ce014b541abe0754b82cbfc87ad15fbe6ede),
(0x91537a09697d36580b06b853d07153da6d0228f00786f3340db6151c64becb87, 0x231a2595e04dadb4b39001889f34b43d5cd3c81cf13fc6dfd432a37704f53015),
(0x93a85356195e109dddf054d12a901d83b10db692fc17e878849eecfa5d387fff, 0x58f2112c3df38b4651e347fa5aa8569a048d95b2670c76bad0de339a72ee87e4),
(0xd5d1f0ac0bc2ed1f5049003043fd020d7a1afb27cdf783186a043befb0708eec, 0xc473908d4d754fe2a5fdea8662a6ad21b711560d77ad85d4e3b47175b5133e52),
(0xafe283d38cbb257c5f2c0dde2fd1bd562ad33e5e605c24be51a255ec5725b1bf, 0xa050f64e978a9ee6368856565cf22d7c2fb45e646df60abf06d3f9e1132311a7),
(0x179667a172e0c37f33e835d9b5b6f3263d963f371dd07d40e790e0a121765180, 0xda24290ee38be6aaea2e86e6bf683d4d90f5fb7920257b78aee8be4dfa65eea1),
(0x9add8ed26feeca4cd3e583f088398ecc0f245d30a888e135b86ac1a7e4e42d05, 0x41bcd07cc2e6acefbc488d748a338c9a7e6d3e4385029f7563dcde8354d82232),
(0x25ba12376bb6e1465195db7829f51889869dc972fc9805d3f6dfabb8000bce6b, 0xa39dfc2d0223f92447ae617d537a4877e6a47e0a7e5fdbcae1bfc956a9c42571),
(0xdbd78620c9a75ddf55d0a41f7312ec44d3108f34e7d75195d3d49f9988e2f986, 0xc184bf06ef304b721637bd3ad511dc92297dd5f59bd8d053a048702afdbc400f),
(0xf8d67c64b71d14afb07d734f675913cb7a1bebc16e4a491644f8f4f46eb69448, 0xeda6023e5df40a5c89a7bd26094767a5f17042adf95fb4f288bf9fddb91b280f),
(0xfd5f322856c096d34683a67264ca5d7658a8b7bd41c3c1f25de2e6b3164c8fd7, 0x8372223f3fab4f89f6604b16dd66db85b8a27eaf30741bd37a90d34ff19c154a),
(0xea49d0e1b07948b8b122d52f8e8be6c6e470262e1c239b40483a60760c005136, 0xb81ee77d3d8489ab042a997848a2ba17273517fa604a2abdf2e1e726d71b7e19),
(0xbab8ce82c1210a99ce17a5cf3636baa552cc793f89fd25bcb6f078c392149bc8, 0xafe2bb15d00cf460953a7c1c8e466556136ebd4eebf61a76e49726f1e3aa8e73),
(0x98802d2e225bcdc79e02e746891cdf12ac434154c08c2e78589dd9f427277e1e, 0x1eeb6b5c4fc6459f28e3fc496d9a6baafc66ede085d4b0d74af4584078987514),
(0x5dc542902b33fd657d37a22cc669ff2175825cadb34e1ee47aecf7f52dfd750a, 0x41fb96de60564df76c8ec857d7f0ceda2b330fda2195a70f5f64f973ec0144d6),
(0xc4894f07f6679f4e13369495dd501aca736663032f7bab6cfb81d7a91495834e, 0x31b7e5c035e81c2289de373f85d648dd892021e71d120742e4ac6af244a25a8d),
(0xf7c9950cd5c5afdaede613bb8f21ca15b0e9248781e163780c7f2cba5efd7beb, 0x1746037cb9211262f086718016f0fed175debbb95eca39dfed757c02aa282d24),
(0x96703c674e7e2859f274e7f8d458f7a289ac0bc4961ef3bbb120a1e1b82b5a55, 0x1f92a15e5e8b476aa165823e59da387f2f9ab5514703010cc35b787d0c7d8ddf),
(0x4e8fa83bbf9307a78b997e4968227e860a0402f0643f98bc5d13837b63d08156, 0x081f1f92bb2a9ca814cd212a6de7ebe97a04ed974de89e5fcd8749ba6e49e4ea),
(0xbc239122b0cb1f432ed0c2ecbb3c5391b7eebafcc4190fc58f62d3137f58c1bd, 0x5b3cd401d9cf971a6b9f70a4b6f8fab2d0026a240cceaea2a86aef0ea76a3cfa),
(0x90b7138d5d2e11b286d29b78521aa9d7205351f01451e1348a593b78fe5f1778, 0x77cdd3f5829af7d9937ac98f58a78b99b54fe9d7593415f218dde880b5039a37),
(0x631d0fd327bca9a6aec8eff954fdde7bdf43edb7b1f602fd0a32c387825841e7, 0xd6e8af71273702a3a2a767af03c438f0b07ab6142fd0f67d74a9d35874e29100),
(0xac2a0153d810371c6a7bc097ed09be6714ae99354a9910ad7ee77ab96d54cdee, 0x39707795a4f0164087b5e1492ec8fc1ebe11d8f7c43555ac6f4674fb8ac5b0b0),
(0x89751ec3c1aeb2881953d3d3f2f634ee29b1aa18c55b8b6259d5cadc852ac99e, 0x8b4d51e7e2f94c0eef80e16d9b62c9352ac91394902537f1e93744c9072f22a3),
(0x849a6cfe05e3ab812e21f4914c6ec76b5233d4057ffd487dbb0b50912ac499d2, 0xa490b967b5fcea21d0135ec3c9ed5efeecf7ac6c81e0664866cdca60a1be7037),
(0x4ffa897e017d760e41859b6f3bfc421c55fa1e31eb999f725028be410cc8a9ed, 0x87b4b5abd9875b94aebe632c64ea441c71ec73535ae2c83bd9b904e37f7fd326),
(0x4fda56c38bae34b655b2ed2b621e50747ed1dc13a1a815f3be12a223d54c43c6, 0x6cfaa7b3c53a1dfda03dc7eb6086b84fac280c557c357d16fa5938cbc149bb10),
(0xb572c9c79ecd2ee3154c56a59c81444cb16df1f782198eb740a78c7a0e5c7e99, 0xa1fb603e42d3ac6a5ef5dd74ced316240fed90865b02b3c92bbad21affb1b79a),
(0xa77038c8e79abb7ea94b4e1735f0f5fda07b1ad3367047f4895a5104dfeaa623, 0xe9bef9dbe8e2078b346aee0eefd646572210e451ed2e8d63b92be059c577e1ea),
(0x3158f3e114de5071c6e2bff932f1c2697e374dbb786e960b7e59df0326e2e1c9, 0x1d0e950a9124a62604553d293e5cb8cd9dd05d45f48de2baf60fcee0ca42a9cd),
(0xb0825b69373aad7b53c256c31258169f2736d47b1c4aa22da052b864375a807c, 0x23ec01bf0a857fa01f3d46f87857b211f7533c9d611dfdf7951d190ad7ef07db),
(0x9578e6e21a738f66ca04647cec610da1afc5602b1e72e0960bd192edf19c205c, 0xfb5da9827208b4e611e6dc5ddd8b8ba3569a578f275e6d213417fd377e4e6cae)]

/-- secp256k1_pre_g_128[4352..4415], /repo/src/precomputed_ecmult.c:12614-12677 -/
def h08_4 : List (Nat × Nat) := [
(0xa0aa979a5448d27be42c39e22fcdf40ed3b64c7442b2c40e2f6d38fffabb196d, 0x7a9bf938937be244038aa212d9342f98ab9a35dc1361fe565d04a25f176eaff9),
(0xf535145cd57aca97f4cef68bce57d5fb62ccd1eab48dfeb13b87b1884614be82, 0x1323e73bdcd6b16fbc481294198d8235b98a1885a336f07d593e5df3a21ccc11),
(0x587d9e302f9d60edeeae03ca252cd2fb0117bd07fc91163da7cc569d1b023f9f, 0x7bcd5b423c01038c9d3f7f71ef52b4efa99e4be16de4314a5e517e8a950f45d5),
(0x0b1e3b70aa8a0cabec119ca005430396ed98d9f9e3e1a65094cbd9854cbd0932, 0x3c9496c8eec7dd929718f7a28c7a67b5c4e55d885a943cc0deefbd11fa4f8de2),
(0x8f7001e2928200d3a478ba12424be4c8de8f16f2a932e0001468d9a048d57816, 0xbedb10ab72eacf261ab17a34e513868634995952545129b55bd6c7cd84b50bc3),
(0xc95bae04e1c397e1498822f7b7910019922e43de83119ae48517aa9b0aad6f35, 0x8fff7d3cd8bd7af6c8523375084f73aa2f1b03c6585c798798fe29aa36620486),
(0x228fba21ffe5ff9ce04017e27cf04c711cc454d4534d340449bbd1c960d2230d, 0x825fb4a9169ab67f5096373110f27fc3f6f7acbc09f2918fc6f0bfa8a92ed32e),
(0x89610875bb7c5f5387929e3822249817ade80ed2a69dec5aeee31a486c40e316, 0xf7d5f52292a53c2a447f9b6a05c06b3f22fcf19e4a200ef09167c255a373ef47),
(0x9f0542f88e7e2b4bc20b7b5b87f051af6650f60567dca77b7b6e1ccb2a63f6e8, 0x2b80c8405e343203d0a7d1ccccc997364bfa10d06e71880da0955cc0b1ff98a2),
(0x859b6ce5b7075222549b59bd3de967b21655d163c57e94e56c9fae12e5222061, 0x25b8cf47baba200019036027fc86f03a1c4c406c4a8b2c34398b7191bf125aa6),
(0xe6febd1c91e66c5dafc7caaf4150a023b70c57fe2a14f84bc9fabce734982ddd, 0xb606e3ccf997b627a0a02c4ce147e0ef58e3e275a43940a34ac74760457ae5e5),
(0x00956912ea1f5ce352d39e67a41e4ec58c7106e04552e1a048e4b1956cff8c01, 0xb1eb2fe77419c11ff7e34dfd0a75206439fa2e6fb9f9d34f70740950cee3cf40),
(0x1bca39eb09b6a5d53575e5106955143da6fe9d6700999500ea78cb89d832ddba, 0x47afc8c9358e5f7fe92370d144ecac994e69afbf6ef1af7a32adefb79331173f),
(0x2c6db85bc4d84c2e61f0b5c62f330e7edd672c63a14fa5349e4d1488ad462c5c, 0xbb488565cb2da5c90be8a6f6c71555bdd85b4a5320ca0753f524f91eca1e331d),
(0xf66c0d7336bc153c5f85e297528452558957a08b603e4d3c746e0c19572c9f82, 0x74e32022faa58df31e4a02b6f00ce5e7bf34ec93d8095144a1af69f9c637f01a),
(0x774959efcf8c126a067012f810217d39298040adda97e97309fe13f9927f6757, 0xc33b9f7db2901f8f171151c5dd8b890b62c0a1c19b7d46919c23ed00cdafdc24),
(0xf59361a574b69786f7ea4abe44eef2f45000328ddd72c2d5a6dce9b863037ca6, 0x34deb360ece45bb0a2417618e7c67adb24b3362080d464afa1ef20ae035da05b),
(0x0add233d31c179dabb62567d2a5bc5d79afc5c5093dc81969767ccf38790a5a0, 0xb9ecd67513d81a648ca5ab2f4d580d3f7f7d4def909f2759af61e497b6d8f82e),
(0x3d204b0d1d7057147e94715052a531bdb67497435c94c7f48f821579170fa257, 0xae20862bcd86c6d8e8344911cfa8914df40e3a80b762fd54e2b7f7044de86017),
(0x22be58e51c5ce0e2f1ee6f5e523a2f55e110c4b7bd3135d239d7a25a94bc13f4, 0x56894dfd6c2cb7c85689cf043c1d4221a7dfdfd0d05b1e68cc41afb66a472a04),
(0x6e015fb9af8ec2d39f101509f8f1fc9cd95dcf5782621ead4651a062c8487687, 0xc7dc43dbd1d068da9cb751fe51251bf87f6edbc0bb19925abc02cf6dd7cf8554),
(0x3baa1e6042844786fb72075867ec526c2e0f7fabac8e0eca24eff87647720c2b, 0x909d202a0b40037e9afe2ef4d8638491d27a1d2498e497a0908a52c152b1f8da),
(0x689cad9b02cde514b9c25275d6a3e68ace0b22164418a403a83d88a24dc4d25f, 0x53e7be29165632b1d1887aab94c525f786166f3256b44e70295dd0d8bb9f22f0),
(0xc1cc4802101d025176875033ed9fcc07a66a57a771ca1374063d7c7b655fdb6b, 0xffa736015dc4ccf68afc41e80e25450193eb75a10060a98c6c800d0cf10edc5a),
(0x00888e3486eef22e2a25aaec9bc9b84dfec14fa4c98e9d574fb9e08f5b0f76a2, 0xd2e3ec7cdb9286b4b0223762234d771fa5b6f378b6a4bbb3c94c3303af49b4f3),
(0xab355f17a43d24dc330a9195c2be2ed506894a9de38d3dd11a31f9d99ca88a93, 0x7f8f8748c07cfbd9fce0ac7cb624f2d0f83bc49a53276b007ca2b82151988e6e),
(0x12a65c28aa2020c65f56d9160c1cd11110f68f0c2408863e635e05f01dbe4141, 0x48bbab231be954847a0b61d389913ff45a8b97bc384a0780294d97d39c9b9be2),
(0x9d96107c0591d95b428542341371290b370640d402dca9fb5f5397db84a5577e, 0x183fa1b1cda4719e869c8b44e97cf2143ab14e5de5d0d78178e5d68a923b3dc4),
(0x7ad05c26aa64273109eded7a43f72faa0d344ef4d413d88467bea1544459ad55, 0x0cbd8ea07fcbda54813f990ba6eb84506faa12d1cd478a9bcc278a32511ba8f9),
(0xd1ddaa712795909065ea358fb887e4b0894028bd0457d217f1ef6b9d143a2292, 0x0e040cd3d5f19cc0456a55a388ccb81f787eae9e51a289cdd8ae8d25881e6ed2),
(0xec3bc5daa9be90e51af0c1a2bf41adfa8023bb4fb40e65d1c65a0e826bdc30a6, 0xd49627370f9df1f448df1d9cd8f7a140233c21755d8ef5c6f292b2309ce263cf),
(0xf3135904dc55f515806dbecfd51b8106f13dd1d343f78e0591de1f9486fd193f, 0xc5bd300224934faa2f9ec63453fcb3a820af608eefbeb96323871fafa7dc2246),
(0xfb5f135fb2f7638f36bc332e1bbd2050335c141a49db5452619f266fdf85e8f9, 0x6e71e045827c3ef1b75bffd20ce543611e627ccac94c8d3c9b8fff620e10b7b6),
(0xd1dc12ca062a1285e3c161250f71a1b77b0dfa9d0c1068ba2bb56bf398864620, 0x6a6bda82232af467afaecb2df4a7ca5303c41d63d8f7093bf04a29646e4f19e0),
(0x523547302d24cb39f9117e35d9374ea8f3b6d027cfcc23b758f0bc1d0b4f2d94, 0x83719f2accc79c431d8ea584c78dd5f8daded80afc3341f25789181b7671d586),
(0x0fd8247dd208839f93eebd97f6068ae8a6640a4648c16b656bc992b84ccfc5e6, 0xdd560b939b530bf9a8bfd5f9614f498a49e5406161107517e9ab010454e42f3f),
(0xda5d83a19254990ac14af844df04bcb9accab6555468d08f3b5d93b8425f1600, 0x9e5a87866be51fe354bc24126315f8de1f0113cbae78b72fcc70572cd978fba6),
(0x1205f8ceb9c89dce13cd44f49ef0b2e814b78639372d9f61f0543f54bdef2944, 0x6c820a46afd1dd98499636d6afc34ae8218a8c902f210dbe530a9211a058768a),
(0x7d94e0f33969c5c8164739ff11aa05e045b32702333d947f8a0cbb8057dd3c71, 0x7b92b36733f9272317948d9ca1875303865fd47cecab145d9ac9d4c9864d62bb),
(0xd7f22ab56840dd87d939c4ae3bbe5a6775e7a2c6dc969a9640c7f65a9c18b2d8, 0xbfc6071802509244b0ab951bf4032852054b73d5a23a19a0b4ccff251e5dbd6a),
(0xcee331462accf4fa5f06b598cc36aa06342c83d7eb4b6aff90b9555bfee0fe61, 0x97583a485c323459ef4b3f02bf63f9bc315cdf916163b389c6a48cf74127da34),
(0x1e1d2d641ec550e11a29bc03cf7c8442ca13f10a182783c0d4ee9bf08c3c8a18, 0x1ca8ff62fadef98a4d1faa0d28e75e5f117cd8902934e457e042b870d8cff1bb),
(0xf10b2e758246bf491b70ff95a385e701dbbf333a95a946526df7cb7a4b4cb68f, 0xad15b5a4d39d645855e57a653872d9d75f4b3168182bdee0a6289f68aa7f99af),
(0x4674dd8f16ba5557c9ef32a02b6be805e864e7afc4fecb8f666cf396f7e6b0a7, 0xc9d9512073388bfd45f702ac8851b5b7531edbe2df04d8557bd58b3ac889f48a),
(0x095bb741da472f8208ff1f98970c2bc91dcaa4ff2cd4c0eb195978b3242c66f5, 0x1e097cf6d47dbdfa08c3f2ce90e0ccde5adbd58109a6e135957ce258805a4130),
(0x9a89205642e03faeb24d8fe0f94e4f6fd0c72581604a65a099e3d28bb103d2dd, 0xc6bee4e0d94c30deb99c1a215d28d7cf930e89a07865ea1c87d39f5e1522b33a),
(0xade39c3be95400952176bb0920541076dac8e68aa20903b15048e5db4b0539a4, 0x6bec56bd60596cb57ea8a355a6a6a4bc90871c810de902b06abd45d25802b204),
(0x45f808f8bab4b4e1a790240af036516fbf0a8eaadd4dede1eb88bbb07d248b8b, 0x3f3bc72fbced768dbb90ddef5b1baa9d0aba634f1fe19842c3b4b4568957794a),
(0xac9aa903845a30812ddb195dd79ffb6b06e8ef0e0d34d0a549b577ca35a116be, 0x368ddbfd01c5a2fac2c183af1909741482b272d052cec4b1745fba6b4a9fba89),
(0xba26fbbcffa6b9f3584f18ca255da089f561c30f29a378e29f76de9eb756f6b6, 0x55f67b1181ff78c4c4c86e7c931e314f0dffb392306a71455efe875bfbe39ba3),
(0xd4b1a9021ebed92509d53f2e0d76b03d25b4241ed5f932d3a54c4dd5db3f0423, 0x6f1dda699e60053fd9d2f5c2c2ed2ae8ba3337a9b669ba053e48d974f73c2d93),
(0xbc91d139b2de4778458ca891fa97e413d4cf32b1753cfe0e540726c4648b451e, 0xb56454c34f5688406d19824819ba350eaa291f165676d7c9fbd2d592169c76e7),
(0xcd7a85ca0a0f408b26b293063e01dee4acaa8f9b36f7273f0378290fa4435450, 0x01d9508b1e7f5bc7ba8fe5d4f44e8c572bff9a98887c3ef52fba3057f132c5c5),
(0x497f8e855788085632edbfecb0065ac83267fc31da9100cec2b99cba1e7c26f6, 0xe67294280fabdec32db731bbf33cf45e5001b8908f82c0fef7cac291f89c6a46),
(0x0068a6074065c372a95e7a6dfc742e320e59cc4b86f9127ff9465474a466e30d, 0x58e591311cfff974e9e9162ee974de92904ffaf6ffb97f49d9dbb1ca0bfd927e),
(0x79d2dba167b93ef882ca60efb803e1a6eadb44067f9dbf6bd45c1a7223da19b2, 0xa59f1b7d9ca146bf93b89f2e244dbf00315110754dc03050aabf0d2041230ad0),
(0x5a2802acf4b92bf81c98c43128ebe1f9c921c211910b66486391ca0e4c6ad50c, 0x5a0d7b4d049b5835dc3b395c83031571f7c361dd840b41d0405db35114d86eaf),
(0x87b8a84b1fd98b53e9eede0674555c7d806d5b7f04cfced41620328018c398d5, 0xa38c4d7d0549bd5d28fa39e9805e81bb975cd13764aa8c7ca7055d63bdec52f2),
(0xf7ca4d9e7ac1139570db6a06c7f008335982181a066428465d0899bd907a9223, 0x2c3dcce12ee6a99552a72eeee0968552009195025d4962c5a33035d4501badda),
(0x15bf39e15a11ff6d216c0f7ff1597f7eceeeda3491b450f53b3407ccbf7ced7d, 0x0325462a6591d018e495c6f3fedb3abd075d5a4f15e9ab99e43418cc4aef1ecc),
(0x2755adc5e69db19d7caf52ee117c69075b342e734af64a4c77b369d4269897b0, 0x199bbefa7e0b1c100bd78eadd5e65a6ce6b3ee491400b9ada7874bcc0be580d5),
(0x96ef0e89806022251d8bb9e8693f3a675152cc9c43c4e9535310b9f2c4338d8c, 0x2414e79914b2d6e2a9be60ed52508d6c15765c0a07fc17468820fb99a9feed56),
(0xc1642d67339fa6dcc553233f116f80862edbfc245512c2bd4ca6e348712bfb19, 0x065e9a14c7356a36625022cf873161b8ef43ce38a99586cb9b5c8189f3c6b8dc),
(0x54c536b3cb6da9b7e4483ce5d5c9e660bf973ef2f4c8b095f52dfbedffdfb96e, 0x777f16c3b026b75ac9863f38d015f04de1067f2aa9cbd15f9ee27475ad46a4b7)]

/-- secp256k1_pre_g_128[4416..4479], /repo/src/precomputed_ecmult.c:12678-12741 -/
def h08_5 : List (Nat × Nat) := [
(0x706041aa63dee9bd4a441238bd343bef14e699290f6e007e181ae87a68362926, 0x36e15a4457b86f4d9b233dd337fab91f67e4c8113340463f8f443b505a0ba014),
(0x49acc336116c91af6f90a6a2d69b9d3dc0be0a16afb9830cc1af0b5e749b2765, 0xbc4f0f6c725e037e3a9d9be6c5d4f80d67b3e28b92e5d3a8fbc8f66d9ba97d52),
(0x96bee384ff79ed86a9d816cf32f3d569d1ae03d2d154c65ea117707d74c818b1, 0x848e45ec27eaad755328d84ca76a7235ef4f492f05be115aa622171b51dbac8e),
(0x3b2b0810c4052498189affe04c7ebce7b9050aa46a702d0f72c5c7704ca4d1ec, 0xf782ad721bec3b8db1df97d47765434fe4145c8127acece39dbba6044df2543f),
(0x54c3547de4873721df6215fbef7bcb4bb9acce427b0381cf2de151f7c69549f0, 0x05e7ce1b728a3b21e94b41380bcb89aff4778dbafd21aa4216d83a7c9ae81edf),
(0x9f1c53dee7b895d56081585ac6eb3821d89bfa6155cc96d2e8b6c472edf57f27, 0x38369e41ecbdb4ac619aa7da4d708eaf4c572ed7f1f2c079d0bd17d53ba8288f),
(0x0e79f75ea1a224c2a053393665a5f70515eb0aedb924dfbb5aa30055d1d82b44, 0x30c65139f6a6f5ee5304334b1ce9dd1527ba60312ff2697b8eebbdab67105171),
(0x7f95a1da79cf25cda904b7f311674d02fc6dbf34ae8ba7e0b179b48ad942821a, 0x3d3dd8bb31cbafd3247ddcebbe1faeb3b00e057f7e90bd1a78f89cdf648f7c8e),
(0x41e83f7b9067a7c3bb6ec755ab7c83a4dff74c9365d0259ccb635bea718a416a, 0xa54a4b565286b26bd0bec3382053c3492de800622189e2efed10e3c39457a34e),
(0x81599046453d0a962c5f3b47fee7f827537c7c58c5ad068ee5e6ae6f7a9c6848, 0x4a83b0153abd0df4177ef3f7e8a7ac7ae8e5afb9a2fd359ac30c13ee321f943e),
(0x11c9aa762cc334f0a3274f1517a1e60f2f0eedfad603f83a120162bbe87830d0, 0x7c73d37426f648fe4a9978c6a64ac787f4c8d79fb58b0f5870e373e4d317136a),
(0x2b41f344b285a31aebf4f4fdf0c4f46349fcc794e5762e04dc39efc7936735c9, 0x7eb708ba3f683d48db8e0c25ac8a6f8e5c3407490c3d6ed57936d5157f3d6e73),
(0xdc063e6638098e8c6ff55a73faa20099c10d025887c1985043d1011bab211b93, 0x4abdfdf1285ca3ad65bb9a857ad647f7fff0178279fc6df106179e1d495d212e),
(0x7cb514e8b6361aeef9a7abe1f84ef40197de721b609c3151a056eb0371ccdf8a, 0x4d359c897d03a633369bddcd52a67387fd4d1e002406502d9ba6e967a5efd0be),
(0x103a6644ee731721bf29f03697641fde9775a6429ce8d97a26b06cebf9066693, 0x127b69486db0d23006ae90a14b8c8ecc1e9293ebcf1543715ecbd579e886a726),
(0xadfaf771662d719e532ba04572a50f12144fafd0afe93f7e1d8edd1399226e5b, 0xb4d0335e8b600a4f84d919ba514bc249e3048cc4281db3b9a7c620134f00bbca),
(0x609d935230f3c6edbf64275a23a9a258033fb8c309c25dde4b55ce22e64b50fc, 0x0cbbae84c57f9c5267278c4d3b0cc5de9327ba71ca1a1bb18aec9a97bce17552),
(0x5ea5aa201b958a8c49b70510b7c6a29f86d9ded9afd4e83377c433d0f62d9ba3, 0x27c5cee9fe3c0bc2af8d0e3057eb0f57b1fa4237996bf8ef5ccd25efe1b87ecc),
(0x3f8011153603a689800c04d27d3b3fe5c415ea29c6e119517a56712f20a10862, 0x4280ab6165b122e185abf4d414a31961ac6595cb421db18334e57cb3fe9bd059),
(0x54981ffb5b692a3d6d9ec7cef027fff30c5dafb70aaab4c5572522b90e1157e5, 0x893183bb554c81de21c84134e395b9fe80a5a9eeb06e3b672ef9312724c307ae),
(0x97c18e92d499ef6277585c6b28f36fece9a2e118f793260e32750861a1aeb813, 0x38a877027f1df077d6e734fe18a023ff36c6d4bf4a7bc7ced3a3d38fc3069f33),
(0xd5507aae97bb6e170410bc8726d9eb2d11558b966c54e7db6428b44a3589820c, 0xe78d01407468dda6d9c4af921984460ce523c10179f7aa15d8004dbc4fc63cb9),
(0x220d6c2e6c500d019ded2aa65de205f7cdbb15e569038ba57bb1700f1182ca70, 0x64b68506c387ec2d9e030448797bc28c5e09e8a995f5f80e70c26a1fdb7b16b3),
(0xc1a45038da6aaf1e0396595c3ab404eb9584ec90d894985c18e779de793d20ba, 0x1a443da172e281aa4393e1de6f1e4f894fe5d1ecb3a5bcd9607cf79e6f20b533),
(0x9a66f9b7f3162c80d22d0b5d2a659bc6ac01c74f46804ca6c908b6cb90fb419e, 0x3465357b00209c2ba7c766b69c17abdc69205c54787fd0ef0e744692016b95d3),
(0x8b305bcb1b6156e322f0f0df28265cc879e5909bb76b546eeb223d6289883387, 0x929a341ddfa0557490cf5293244d924e852b00d0d328ffe47ccc53560623a31a),
(0x4e36ee67b53981698ed9460acb4500237198f2494dded3914c2ae00363c8f664, 0xa784c95a09a443b75859a1b1373eb750150e1ac9d5120ca6f273578b73df77a6),
(0x167275aa38d02988c53e0a36d8312e32369bc6776d7143dfcc6fb83f66747caf, 0xf26b985131abcf45369a641584b2956a7122a51fb909bc305427eff3916e6e14),
(0xc93d0b74c99358d6d24a962a15adafcc8a4e57cadf0afeb49d46ef53cf619797, 0xf93b324ab144c6df336e34e1beef5c13b931668e54ab34a5eee1a8f505acc683),
(0x8bcaa2d4671bb4b68a92410932128551fbf6d924d48540277c1dff573bc4a8f2, 0x088be3e16482477e62255fb324512abe27cbb4dff63c6d8c93c3c92347e519d2),
(0x69d186de0f9a7ea80be833f2590db08cfc0acfbc64a648b68ca412d688c03808, 0xd776b64443a81bf7527f658e45d92324a08ce1716db6c259898fab8cf3d6d41d),
(0x4a53595e0e2cfbc67bdc9f070308f57c7ff5afc8a35e27ece22cdbdf6efde161, 0xe55913ded481077aea36c502494b3b72b1691786335b02783e40fa1c1a1b0876),
(0x90856f9a5f7bbc14557dd419516ce5c9aa451bce13c17ce55c9fb1b5f2924995, 0xca083d2eb5a3a0674a2534fee03bd99d976b96bd2b7f16ea6e2552ee0648e934),
(0x2eed315ed863298caa374ca62bf8313aa0ca07e19a94bc4d58eb235b52d36dfc, 0xafa36c8f90d7adebec33ec6940c08d1f2a4044a7477da88a6653d90b880856a7),
(0x0345a7f2ab7ef064eccdbe6aebd11dc503c7ede0b62ab3def8e409e6258e84c4, 0xc0c0dce593cf96470c0228d842b78407c3b634ac799fae19f0e685d26ccfd73f),
(0x5a669d7c209b222b47843a5a633e0b5348442258663a58cff6ee3cc41b893d3d, 0x7067be1d086366982b808b163c05e57f2be77d1a2bf78038e242f5c74ce10523),
(0x3f0b0f3c30a991bf927f51196fb4af39e1399d011766b1ff1f0ff2d8a3199062, 0xbe8f878104c06a7597d062c2196a49ef93a73923f43d16ac82c015e54789d472),
(0x9d7f2c6498e789828492b8c92e0e49c7b5c9d4b2e86c409d828447fe4a2f5a13, 0x95ccc54008202dbc78323d6c7ef66d514af346995be50b5698a5864d34e502cb),
(0x9f74143655b3cfb539917a7c79fec4ba164503a83958aee1f6e8f34b3d861b78, 0x0345738cff8f3c64f5cda5a7a1aee7eff3a33141a5139c3fb891c6aafeaaa7ad),
(0xcf1d313611d4b6ec5f1a9728c9a7b037d9c16d65bad95fdb17376200b1a9a97a, 0x51c72169bf7b1ad86159feaddcf3b0a7a7fc13cf7bf12d98409dc3b4fcb7a9a2),
(0x7e04c6efc7433f3ffa2bb82703fdcb3ae0470abbcc7c8dc5414ff77a915868a0, 0x0781125c2184eeb8087019f7c5c0b4a55922d11c53c3db9ed5795bc6e7539cc4),
(0xfa6d73b2a97801b616697ac6102b002a53d29d330289708fd8f7396477f3d57d, 0x543db558025c67a4cd01041309f8a0937ea7ac2a380799f1c22495693cf557dd),
(0xd0fd72088deac18b1bd63fbd6d5be0ef5dcd34c5538a9b64ef43daeaef321d1a, 0x7a5e1e2a1b2902417879f2238cc8928a659881308136684669841b933ddc3a1f),
(0x0e856e67e28330ed77d8687fbfdce5d9ab8ec1554c94ae0f491d1e439361cb99, 0xc51585a19da7c26a4fc07c6af17999e7a6718542d7500fc91bd21fc38acf1eea),
(0x389cff209f2407480b9beba0034d36e05e758a3c095c678e28cb022637db1bcc, 0x0ae5a0d3db1e17fe30daa2af1e1f759e905811c895706b7ce574105102b7ac4c),
(0x28ce0f42ff79cdb816b666c9c3014051d46e8df2e2377c3b619b78d517f21a1a, 0x4e835188f742237cfe581edd937b7294e06fb295d401b35f5b7b293c6d57f875),
(0x3d955bfe5b27beb968400d113b8666e263af6ef0ac6ee49e8628e2ac4d1e69c4, 0x1fbd2aa9b6913655e00f1384a15a7215d3d7340e4891893aa67faf3988801e9e),
(0x53dcaec12dd48ad9ee65c9bbef21a02358cac930316263d49d6070748aceb771, 0x05b976f2411d7624d4659e5fdb624b059dd5e06ef0b65740ba394020b9d279dd),
(0xab822568f7e9da8d3f1220e324752c80b02a8124f8d9f65b3b4532ec3740881f, 0x6c2152dd34451ab5b47b7c08f7edada8f9f230c35fdc2de335cd93d9e25703c8),
(0x36719c401518b976684bbdd92a923485ce92b321dc26534fe5a0473e4c873c30, 0xd5d58a83d493cccdd16a128268aa93e494ce8638041ec947930c72e0887564fd),
(0x360c82e618a53dc20e44677ba0bb8c2e2a08f6d7afbe849815d605c32e5fa969, 0xade18222e1d0fbe0a31c55b8d2cb947f1fcdea111e08ea3a4f3dff02e3e38b70),
(0xecf5073725a3b81edc621bb86c98fd59f805d6b82f08380c64270df1095f020f, 0xf5431b8a0cba5d271da26cb4fc3412fb14ccf0886e0e08ffce0db47c6b4172aa),
(0x3b751389e6dadda0852988607607624946df960ce030caf691f91d464d05be4c, 0x244b002848829fc3824dbe61168fa1c03e4d3835d3da3a537c729f0a191e92cf),
(0xee6e33ee7fd9d7e7aab10b8d2c58f2a726ed307b6fa69b3bf1f08a74f1b04ffc, 0x4233398d6ee49505c5f215256cc9112f5dfdd7e34bfb9a8a476b3cd802645b8f),
(0xe7141075e20f0903f39fa384f91a57087f24deb368571939572caf0d2fb543f9, 0x5265e24abd84336c026b4607dfa25c4449c4693fadddca01599d814c21787cee),
(0xd401b043ee9944dd7429a8c94291dc557e5827d588375dbf1513d394a778826a, 0x9ac9b4175ac3666d7c6327be5172b8b801dbdc96eaf8578b76f011284434b937),
(0xd48c45cbb90394d823574c166089809175d503b599d936f1f60246d179c9cac5, 0x4e6b2bad0a67ebb7a0743cf8522980522737f0fc6cbef646fb270d442a285612),
(0x019f6446fabe1899ec4476ee1d61f6af0961da42ada1f77d2ab41cc428791c64, 0x7a0aa5b14f2ae030d9711963bbe160ca424f6a7f17b6a709b5f0dce5af1d0498),
(0x2db1d56ef19a848f6d6747c682cffa4778444b3ad57ea076b0560b1c4e57c83e, 0x701a5894d1d6b6ccb421b168fd34aeaae85262ab44f70c65b8ff61acee541cf6),
(0x443597f79da3df8b5fddf8da3bc3a06083f2cb6faffbb1ab8a12db9259661adf, 0x31b2c4ea362a0cbe2b9b1488719b7ac43a85f7c963e9f2bbb46ee055071e2ac2),
(0xe49ad52a7bd2db07d972def2d1ce668469aaf6b33c7e342752d79fa09d2ee9ad, 0xb2063f371ca78c2c429cd401c5e46d6bdcbf373f5cb771635760b8edb4f91ba4),
(0x35b3fc0a4a625cb5808e1c2e73c962e16ab7dfb3028109effdf81e15841afd0a, 0xcb558481145a5f75b639133e8ce42c98d36d8fa85348c815d92a2c8ecc993bf1),
(0x1cc238ef3f64a0750c3c264bed42a0acaa6de1957db40d5286c482cff62f609a, 0xd33823172b8a1450bd918aa3c57de76d3012887c98452f7bc1f58610f528af49),
(0xf5a2794f48885192dec727c779fb0b6fc2cdf3994ef7cacb94e357914d138e84, 0xd3ed4f1b912f5dce5a0842ffd2e671b7f3ae8448b1a73f43249a1acf915b9c34)]

/-- secp256k1_pre_g_128[4480..4543], /repo/src/precomputed_ecmult.c:12742-12805 -/
def h08_6 : List (Nat × Nat) := [
(0x21b41016a8eb7c6f5519d94badb0fa7a5c5538226d080e3d6d2956e88a9579e9, 0x802570edb9b01b1bed79b6f176ebc4b355dfdd16f43e82e807803be0fc44e274),
(0x9b5611b7938ac10a9818bda73615a47c1ee0f07275aa3dccb8919dcbe7beaa88, 0x89787c01d088e3b3603047e52f49981f7f007c8ca88502c13bd9c327e3c83b1f),
(0x28163c9ab08a7ad938c7b35db19e700b3865800a55a3103d2213c9ef2c03858e, 0x661e089bdf356bd4afcd0604fa5ade9e74c5663e77ab57f4a069bcf9b8b227bb),
(0xbae9ac08aecc06f0ffb8540e2589a32f11d34a7f06d899e57a8f5ec5bcf1601d, 0xf5b63d9f8a5d23b080d0bb6c0b8df736aa660a3b6f987683cc0a54e5f7d1b4d4),
(0x19f485423ed017830cb83d2d2efd7264a10c6c231f5a242b112eccb631d91f7c, 0x79ce383ff011ce1387537ebc3e70dcfe2cc2764a3d180fdc74a21062a5b75f50),
(0x0cf459cacc8c4ff2c827efae06593a52838658ecbf1a78f475965856a8ad007e, 0x786781e33279964eda5e6374bf088fa705d18901df01a0d36c87b62eb419dca0),
(0xc19f2008e6945d10471a13e48b16f3a6381de3e2b24f2d9277ded25e930d1f47, 0x7179aaf5322b51d87758219fcc30e9d6bad5ab77b35dced96a513b4bfa7fe147),
(0x3fc1b6493b6cbecb1767d0e56202c84f039a6b4187f05ac0d659c45f05bc565c, 0xdb9edee11768e29b4eefddaec623462255d06e0f1979c8c35c366f4b5cac3f5b),
(0x502f74d2cf589c65e63b2a8db2b1e4ba5f851715bbb27e8f165fd34f29cff7c5, 0x755e6c73765bc45ac2f9d4da499198a73674357140846ce36afd8063981a96b1),
(0xb9eb62bd7cc6d1d8b0eca2b601920be59227534e7fb581c64dcec4f8f1ec44ca, 0xac567b37891e3eb5c40fecf2d4c5b106bd222c8b064ab491f7a028a6a02178e8),
(0x2e5280c725a109f4c5de565b9fe5357c718f9feadb53aa9cb07a0f3bf5030ad4, 0x4783be94001b162e79f58d4c448756bb8ea18c4b692e236b4b2b3ffa24a456b4),
(0xbd59ac7492d246069b233efc1b68c371bbc9713a284f7f0c699a1d5eccca64ab, 0x1abc71f2fce8372aa4a16abf1d75bd87a19c08edc8843f44fb71bb7ca74ec4e3),
(0x6acd12ba4623582dd769c8bd3d6adabc2c13ba3fbb67e4edee0fe70f3f832f5b, 0x982fce11ff1e6c052f21be20ce1710d85cc043ddeca9bc435d100d9ff68150b0),
(0x601f42858b0cbce990500c64e7eb77e1c433dca555e6ddff05264a98d688decc, 0x56110eb5d5b3ed7905906ed4c027582779cff7fcddecbe7c74d2bf10ab2beac1),
(0x4d393dafc47391d88208263db8132156e9fdd6b70da48eae90489d12832dc938, 0xa14180a7898a5a006ae5b8c8d034c23393ed2ef4faf6a4fc42c4df1d62d0ea7a),
(0x4ea24f6c3c1642850166bf2b1918b3ee3cac86315a1175d54104506f68b7171c, 0x87da621aa18d1a18b1dc222faf37b5a0b149714ae755ef03ee3af91df2a7f5ea),
(0xeb1f6f2ca5749f80b88a7359f0b67230b2b844a24fb72dbaf5604e73cf6e432a, 0x6f58093a55e3cb378830e58b10612b2456a35fa4b8e604091b9b8304e35cca51),
(0x2361315a03d41b8298a9d768be7f453ceeb977afbf1db132c831bc00aaccc9ab, 0x090df3be336d4b587965778d9300cc1b3d954d4a89abf173a9bfd99c29492dbd),
(0x44f432f046c7defb630d5535aca1bd47105050126b2454b34591b0797f8e9b28, 0x1fdfbcb725eee981c19f98b46bd19dff9b6cbdab730ca2e31643d415e3aa0489),
(0xd563a4754c130e7181b60a66a3f2ee527040f9f00eac9e26866fb226f93db593, 0x49fab7c96e3209616f4610dd532d547bb24f7f07f916f10e630ae5cdb40d3b11),
(0x2fac4651f0ac98764a74c06616e7f1b8aa6d2bb299ef9f0f43bca81e07a4089b, 0xfff2b7b8c330e1f986a69324a63bf10ffad8e78fdfbb6062c96a67b9eb460d5f),
(0xb6f60ef3d8b793d65794aa8912e8e1a09ef7604a5c9eaedeb803fb31e8195dde, 0xb9b179464057de119d0bf993fe92e4a8bb633d6cd03ce8b510200166467e6bbb),
(0xd08c681365789ba24e5806372eaa1ad1d12544623cb64d835ea2e1d86e34620a, 0xe94875caf5beb1ccf88fa3c5e2776203a6f3cb5eb480361852215d0a9076b185),
(0xdfda222ca4ddbb560661f56db9b74be9a5a7c34c4761483d0928aa489bfabf52, 0xbfac4ed0ab4ccfa7caf64d8effdf1aab6aad50db595b1b497fab28d7656b6475),
(0x3f72e4ccef5c0bbf995bf8b4677599690d93ee408e738a4d41f5589617f241ed, 0xc42ad85703f49218c7daca7c8ebc5c7df9ac301a2aea209cab6648f98ea16f5c),
(0x6e85f58791431b6edd848aa470101103f63881d32fa9f1c1e3324161e9ebf0ee, 0xf7f00d3831e09d69f068410759dcf837eed3d83390efa35240a9ac5b2daa2a57),
(0xd991fc762f75235a5268a32d64dbeac1b2333a345ad552a4cedfab549b191f14, 0x90d58a07794983c83f6edcfb55ed0b688f43d9f50eb7678d29610299063c748b),
(0x24cd79227ef207bb06b9b6785156bf7677101e6df5fb5576a9d33175008d7c00, 0x446089745f1157bf9c9f45a1b212a9788e348a0f55129935b038940f84e91468),
(0x5c053ed8367806a28545692a4731485066910d023373b89de85bc7a1c25bf6bd, 0x9a3e45f8dde03e646d6c546ccf4c8fc5a253054a2d6df43bd8c4afb6385311f2),
(0x4f3a4d8820948d82b598f1181d350719ffaa5ce99a7f614fa9e3cbf2e021a6cc, 0x149c6722980a41ce5d4c0b949cbe3c994d94f2d7c36ef45cd7b9084a79f451a2),
(0xbadbce648d55b579cf8d6dc674580211a6bff85610804077adad7c2d238aa542, 0x567d75d71570d7e5184f4f4ca53fb92d654b67d1f6bff96dfddcc3fb932f0343),
(0xd2eda5405f828eb2cd3bc5c19f9a838f8a1186eb3cbe95755cf6642d13601942, 0x0ecb3dc3655ea9924773cb570f4f4c8d6380c66569f08184f521dadac108629c),
(0x191ad0df31c7f3b8258e5bfcec9d1ff12143b24024d93a17893da09597304f1e, 0x04ad49916bd2296fb6f6b697dbf5a3cc4c3ba1366f6dfadec859b19048fb523f),
(0xf108bdc4a1874aff35bd1facb8e81b5a7a7ed597e78dfb7ac716bf7e7a15dcac, 0xb88e4fa0d630d92dbbdeda054a6c6624e7bb1d5ba6dded85347e5275e08c9414),
(0x30fb76057e2a6cdd59fa279b3574cf1fdb9d515919d0e523990be02bda1ebffc, 0x5743e72a0752b5581b959a483b6229c233fa1b3b2719ad3ca6f8f9ba1702ae8d),
(0x6facb1e26d1ef1cfff41314563f3b2e40e762ee703e43378c4c15f851cd948bb, 0x92000e2ea3a5bdbff6eaeae808619f2a48b649c919972b7b83cbac2262d484d7),
(0x741c12538cd4da52c596840fe6233558fb480a0d432327562a9e2d59a574b981, 0x79040b6d580efd7d84356117a93941f60b47e6c0a53627e1bb80fcbce6881234),
(0x2b86fe6002b2e87f594981854af1f98607debc5a084ae8bf94d2d6ab4ec8be09, 0xcf4c27b6b33b50202ff7fdd3ff0743e8f28ca75d3cb74d21ecf21dabad7ae079),
(0xe6e7b67609f0ed864163e9d366a7e2a7a37f1ee8e827b10503119b8bd36e7b84, 0xc2e5b9b1d82b4504454062de6c24430f53e03bd1819eb1e302f2460673d09be2),
(0x86600d22e7bec9465b0afe055e733b03f8f81548ea44e008740ac807ddaabbe1, 0xabb367d05e6d2fd0a2c1d0af5ded29261439c985ef28786080614bf98e8e33fd),
(0x671712615cbe2da0b252a77358f81c91fbe561f487df09e6cedc8a55cb3414b2, 0xbf02d81d10a472872b7e65e493d97cfae3bd6ba43997737108cde6748829b0a3),
(0x97db468e7f3a25c4c34e202ce9b2480a4344aa9e1b76a1474bd375ed6d10c0da, 0xc58ceb67a28f99de2eca70efe8af24fbc381f962d5db6e3c481cca6c469c4c27),
(0xf3ac0267ef19ae9d762c40234ba97e33a88b015ae6a83f4bcf730d84405aed26, 0xcfb8a3efd110487308c1c927b31ebd05105bcce1d57c7fad1972a5fdcbe84f06),
(0xfa44128c03c258fd5a99c85e775fca634e8a46d84fbff953b373bd506ca3da85, 0xf3196e74d17cae3e3c9958cdca5913740ddffcba7e36213917e5e119a5538b1b),
(0x952444621eda0b2dacdc1a5741725c1fa7c5660cfeafe18dff8789ba164e7dbd, 0x214bb6b17af1584b76a9e5a62c32eefb497324d57b00f71d24b162e71383bff9),
(0x11de80dec03a732d6769e52c64be4d2ffb1d696b2a658721094aa3840392dff9, 0xe1eb8932423862160f543eeaa2d1099e531d8e277cb2e5fdec76b3afe9e9c7b7),
(0x7318b452a2b9d23aeeb30bb13883dff5b373be9494451c7236a2c02da4c37e75, 0x26713361aaedfdbc2966fd1a0ecfa705772012b2564b077c7f5db7b2c810861c),
(0x82d189ade56108251b03cae04b138ff7dd2d77b5422535c5cef9be7c1899cf75, 0x3634267b1b3c3de0d2dba36b924949b67e05d79029c9452c18c6ff700252d570),
(0xe5dfe9958215251380859865f16fd0fd0e4d60c7be0e2aa2d9b2af4f3714f8f7, 0xe1d87d8f0fdef88952918e625bcc90e683f337a6103cd0001cfd01d1eef4b9bf),
(0x54cdeddc9fda5fe463240f728ca66c340ec05394899f2472d82d237828a06a3f, 0x27bab6200cc373ed10a71c18345ff27fe20e1bef98052afcbb45fdc180b94a2c),
(0x7f96757b8b473785e1359cd5bffbce2d5b26e8fb579d783300607d58a791c47a, 0xd4b43e2e20a43fa35a96d1ff93109aa0b7831fdc2d2c016e181beac9c1cfcc4c),
(0xeaed18ba83238fa5ce4e6c82edaef1080b1f99293148f3e62d3a6d4b535455be, 0x1017291b805f7b1feba367f59a1a10b5f75013557e6eb92120838c50aab0d29b),
(0x91ca8ba1da9c262566a135ad81f57b1065ea46325bec5d42ca1ad62b826f04fe, 0x2d5d619e84fac3c1e30343baa61d3bfde1c4a9a98d968e92d560956e138e34ee),
(0x8a31ad5712e322547d0d2907cb73adfba9a1ed5ffe98d64522082e6f1cdb1364, 0x8ecc3fea886737f4f94a29840e6edba98128b2d3bc79a2092b2c1a7bb00bff9e),
(0x123acd6bca6731700400bfc41071cca54e03daf3e1ed145888470c04568b972e, 0xe97dc60e0cfec2d5c6a6e1739d60f7e9838ad723ad0fc7e152b5e70db48b853b),
(0xd7c26043ad647f0fd056c10b4ac932c66a545bbd509de346d439194252e69df7, 0x6bbf2f042c9459cbc72e6aa31b6d8e4de606eeb7d5d4e0f57f729a79ab1f5e9e),
(0x67c4eb00548e2cdf50626c8b1aec11738370da419280c9b01c8783ee91e018d0, 0xffff201d91a4538a97ceb50bc9aac646bedda1d13f22a121c709bfc623b95a67),
(0x7e1264ea486b08c519c7d8e65c80e1d4d2994bb095185c7263172b1fead93428, 0x1797609c816f10a2e82afe3965112a35798b0874b24503a8f57c983b06ce7ef6),
(0x912cb1645f7d7bfe5ea443af1c458500a95ff22b212109e312fa01c241319cf8, 0xbab658b0111c48f8a2f620a5fd130d530e1c70e762e33dec55b22d8738c1eb99),
(0x1d60694f15577a40f6b9f299be5eb62d251f62adb9b5651bdf804e27df919fb7, 0x3799eb92e18335b0bdbc29b1f8ce07ff3f7cd409005840d5dd324bca2f902a14),
(0x8166b50b0811bf534a94af107672ab4a4e154b2fc5cebee8c8ef6ebc18cc3906, 0x6dea31f3343e5b45f5b08c19903491f90349f4ca29818fa916f5e02d085e09ef),
(0x04852393e42d082106664d5df85eee609660eaf9054ccc6dfb1c31f90da17923, 0xe4cadcab17f64d8af5dd74daeaeab7f713be1de9600d4db1a781a0585ed2006d),
(0xf40031b5ba171b26e02be47ac34173aa18ec38501b1d529ea922a4181c3491c9, 0xc2db89ec2e50105c4074b729a53ef0a79371d2a3354d2d238fb39bf4bcb5028c),
(0x8926d2333c842f9a213547a2fc5ef5deb0bbd603e69d347c41e7d49eaad76cb2, 0x8459bc100b7b2617b0d434f4b62a445280bb951eb4ada14cfa800389b3ff892a)]

/-- secp256k1_pre_g_128[4544..4607], /repo/src/precomputed_ecmult.c:12806-12869 -/
def h08_7 : List (Nat × Nat) := [
(0x7f362b169d9bd514c6289cdc70ea4b77e7518db6a2e33acb8acefcd3d8c5726d, 0xdd1e69e2071d77dc2629cded728693457c63ea2c8636c712e45e6af04c15fe35),
(0x261b803798ca780b50dfd56b81093f320d7c348e4f093b9170470ccc4516ee1c, 0x5723ca6a5959d5894a24c12b5f87a5af84c7a6a689304000344bf5d481c7752a),
(0xd137c0e8edb3264212f6b9588b527a9e9e57f3fc0c358a2b68f11d6189fbd900, 0x0d1043b35f809513ae3705884adf90c19d164c3a0816602792ca55df74c71466),
(0x96274665253f4479753de9ffac94af8c943b8231b1302040bee722402ccc445e, 0x8ef6f9fcf1e21c2bd913f877098c6ac9f53445f36c2b1678a301a4f517867296),
(0xbc6ea584b1f9b0065f39226be31a866f7f90229e12aade70136dc747b37f70c3, 0x23f1c4eb99dfbcbf665397624d20c4dd4414bf15172cde8ab7652ad6f87ad5e0),
(0x3e9687415adc1afa696e3222fe3519391d3f19b6feb1de83f4f1aec4d25e2387, 0xe3f4de2767ea84c78baf13824b7917dd477bdc87cf1cf38f008f5da1e096b528),
(0xb5973535c9c9d4bc2b2a9b3857cdfdf64995d64b81c9e68babe4d4eb04eee489, 0x907cff055eded925770280de9ee0e0251629796e8ca05a4748ddaf9872bfdc3e),
(0xd616bde5acd5f345d23e8b2c3d95038aa1d7a354a7613cac057ec3e80d07e11e, 0x6c88c62dd795d065c6c86478cacc56d32282b4f8f3059aaa55388555449879df),
(0x540345c65869d3cbcf4099c3ba7422e0feb87ab6ad67429c2dc99840e6bc82b5, 0x9f424998bceafc7aa58e5f16c58e53d0c0d51f64285b0afee84ec9f6b22f8f37),
(0x6b7893d0ace6ab5fc93f2e8065a3de574d552e5d4a89d660714113c5a256fb84, 0x81a016a37be94a2af45b1bfb968006a358398fab424811f76765fe75d4438d5d),
(0x357ea5e17a0795cacac47e4b9e59bb2445d1b6cb2c713f047029f6de2be57734, 0x571de7e027dd05af90bebc29bd7345f577babdd275498bb6d43a668a8a4d6206),
(0x7baa27391db2a0c8679d0e188c5e7c8fef1814adb7bb3955519b41891a63ec40, 0x73b5616820fddbb5749e8dfeef834f74e266df86e34510ccf5eebb52a868075d),
(0x4d5251b2dd778e045143169f08cab93b9a9b74281a0ea1ff964225a810b1e578, 0x9376395f0209103616a956864e55382b039b69342b2964d834face11a44f491b),
(0x3c0fb553b0c6330a3cc06bb3b0cb4c2b31be758255264b2998bbc166ff57f7ca, 0xf1f409bbcc22782404dc08c3147e0b8303522da96859400f08d19272e33ef1d9),
(0x6dcc7ba04b3b0827e3bcb4627b7db8d0e0997c7f900d27de2d6c87d9aab2c373, 0xf2dcb11e87b69faf4400e9b3186eeb6a4fb48cad6d6da2763943772a4e18b450),
(0xa5271e35ca54c1b316d6113a40414ed926bade46c3258c6e82a63e9d927ce06a, 0xe2d6051fbf42dd9b0e0b2e001fa4e30866232871313f9c820fd6ee376e8e376b),
(0x574d1ffd976c616f60371e4a76b2712e84b0a2318d3c1c0d3b56b10ce978efe0, 0x13733a17a956efa5733dc130cc4c848c19ecd6f807fae5ac82c73de506d1bfa0),
(0xccccd911ea84c247262a6e618028b2c1a147f55fb637b57097400472fe3e27ce, 0xcc4b4f5e491f32aaeb6d04045965a97ae4119e7333bd1b39f2ea98737d8f33ef),
(0xdf1e4fa5410f14389a41ca2631eef3764f10868a0f2f05a1050e2c7f8c3a2643, 0x8185a88e2b4a343d0bbc10da723d4cb829014cd63211a82a63627b011b01e87e),
(0x02ca6b7eb53516c72e216263213c0d6000fbb02fdd227f6e4ad29069f6da9213, 0x81d5fd1f5264af8553a8227b7500d82b84ca1fb587ea30bdab30fae367e3d7b3),
(0xdf4bd7900ac3a0db1663a8fdaec1cdb5b30c7a6799ac2ed016f1c4745bea92a1, 0xdb80f378f33f920ad0f4fad9595b065544ffc36cebc3f2943db13b83cf609bbe),
(0x792648ad8c053cb2102dde19789d378279e0e0ca0c500f40d46bce6897af2839, 0x3c2d9b55afa4ba1e1ce3d1425e17ca6f191b40137b7d816208de35e8801f72f4),
(0xdc6fe84550fc11361f648fabdeb9b3f8e7fee837ea545228b2fbd432e53a8aab, 0x2a4bf74619fc5408b4bc6421f4a570aa172ef263c890c853d7b06aa065960dff),
(0x10d4786e9151f2de89f368f89502b7fa74b7b9e57a1485abf82fccb49c2deca8, 0x15da7f51bc84f4212ce948cc28663e578b4b851af6533f2ab548adc8147d2243),
(0x67c7c0aee82dfd5a194dc4164138894729ddce965b7d50f3ca9225126e730bf7, 0xa8bf40e5666ba93f1f72341424d8a7a16a2aed837f022fdf557e6082e3e515fe),
(0x602c3df08a2efee8329f391ca9f7b2f831ab6d32bc4623c8922729341f78a4f0, 0xac17903b3808ee52c0208342696f52505789206d515421ee8b1ab28f5b788eb6),
(0xc3441893e78910c83cf917fa44b608b6671ea50837a7d2e04e658c6e2a91d9ef, 0xb538838117c264a4a0876c3b7c261bea0229c2d0a7399c05114f520ba7185dcd),
(0x49dc68b4412dc3c6c4b265c16cde755dbcd49f0f394d552b76f67ff533c7fddf, 0xf1490a38cdbb6c88d270eead07de6358132cff29ddb6aea01baf63534c0cdae9),
(0x890801974a95beffda864c2836997c7d3a4c0fc04ad59eb15ba4b124702d0f04, 0x86e165a3b2e7eb559a7996ad63265609aa6e338530b51d224ae4f16cd30be3c0),
(0xc9671a3df749d6355684de031764cf191087bd06965d23bc4ea0555d29ee0804, 0x33cc0d4bb02a19100c158db0ad2bcd66c9585f9b456321d761752148e6224d85),
(0xf3c1a76e1d4ce622dc667a4fdc0f4ede7eb7111a1539ce5a0bca71d2fd48a26c, 0x269ebdcce1d424284e0dd49a73968676588579987a0623206251ccd00ac9f9e2),
(0x12002fa6689249008a54042950ba29015870a70f7fe95ae3dba4b07faa6fa460, 0x51543d343456800874e8b1f66ec72fd8e2936b6a6022401cd13d50bf931996ca),
(0xa59df11dd3fcf1d3264028b36e26dcf562083e44f91f3d27f23acdcdf1392a9a, 0x4dbda71848afff3ffaffaab05c5376e55fd15ced68b03ac404785ab2201cbe70),
(0x89f738a9802d7deb5cf2895f60916fa3d6d74bf9e740d2f313ba393ab40cacaf, 0x293aa5b50b03557ae72880665ade09cdae6abc718e7d445bcbf85a44a035b73e),
(0xd04149786252c5fbb4bfdae756092769dfcdc2f2ae38a5fd92ba9df70f91a9ee, 0x53ffb526a24df2b3d6e8faf5ee6d79dd7f427d8c14d2d5b5880f1863e7e95099),
(0x4a638f24ef3528c7a4e42cdf3f5bb946081e6435ba2c99d3625dc282b941d341, 0x39d97ef2949f1338bc016ec789585780832043ff337773579ecefac0ae40620b),
(0x070a25f634d32af147c4dd065d52f78ceb5e53fd64bb151e18e8629d0f4f8088, 0x1b6bf3d815a0f91968dfd6a707ab7417d4aed9c0a52b93b99b4e4e41d1e558ce),
(0x59ea949024765addf99fd90811c65ac1d0f9ee8f27e459b9b58517658e96ab82, 0xb38bc716896e0337e4a1b36159e2b5b4e1680ef5beb4b47ec5934b4c8d6675b3),
(0x874a6ecc6260617fc6d4f33440c8e0803d993594ccc2d47fbe2869af9881f2aa, 0x0f509e396663327f7d768a67aa0d2ef8353b613cbb60fc38bd2715cf0349c02e),
(0xdbf3567a1e634ab163a860ce244f3046c7f486f1b12928d31c44624a48bb5df0, 0xbcdfcc8538e4702f099f9d55eaa55216730405a566fbdf074c62b3106baf7ce3),
(0xa534bcb1964509655593155d2da069a804800e4eeca0b50462d844ebd179ac50, 0xf86b38e2d558be4ab0a216a2906099ddf3cc16b730e784e8745f39cd829ff3de),
(0xe11bb8400b79063c4e09077129d2bce78f291f10120b57ad63594780fd1f1905, 0x7fcac0ade0cdc573067c9d741c6c992815b7c3fd3a19b266e0e5a94a9a9ef9cd),
(0xd79bf0b6552c5b6e6e9192b9765e687fea226d86c6f83f44b427ea9f14b404f8, 0x54e7a54d583e2cac129f17d6835597aa934b47326ffecbfedeb503a9eb9660ad),
(0x103396a657856b615507969d958de14c251bbbd49851a5e9ea64e0ae2f87817a, 0x9d66ba9fcf3e0c2a655cabd391774015e209d771334c461ed27b683ff83b477b),
(0x9b49e25dae607f4ffd8768375ffc0fb7142f9cb1f0fde836537f320a9636723a, 0x3472462ff9fa5ab31fd1279e7953dbc985623021e714c951bf00f632e9f72ab9),
(0xa017d4f88e757556b7ee81b9d4c9b260ba2f7f8e5e1b69a5fff94abf723cc438, 0x5f2819cf53fcc35fc9c15d2f13dd51e52c8dd134f012aed34b4383f48b00cd95),
(0xaff1db2d3fa6dc0051a8723a7127d57f69ed0b49ccbca35e025f72bd19076211, 0x7cccb7c94adc20759c7f8870fbeb1a1e9f95d644af0411be0a6b12d3aa6f00d7),
(0x21ccbdabf6902a86d368d445dfba0f314f80de6cc7f05f7e9fd1818d45a174de, 0xeda0b8b87f40e9f10bdd5dede65bd72b6cbe049cbb1575c96b779818a67251d4),
(0xc3e58ebe36b0e5b72e15c47ecca6848f5312369dd270dd1893b589b056ff7082, 0x212df92dd724e3aac42e293e0b1a2de53c3407127ebba791b901ff879fce94b0),
(0xf19961eada1d77df2fb9d9767d7c664ec04000662ecd724412b72dc30c5de133, 0x74f321a91287943a8ed14d0296b05ada1a24fb52a09d467e8e8175ef8f04a2c9),
(0x3aecbe4802aaf6af35e63ddafc919adcf974e89e765c443769ef535ecdc05e01, 0x92b854b930e5e4a885397592fde89d3a601c733fd88d230aa1168e36ee367273),
(0x55fdd639b87de7c39acb95ed33222935bd4217c0fee1c924f1060f54fd22055d, 0x81f4ef4616e51585cb443bcef16ad8e236d6ed1887ddfa60ddba2089f4b83c4d),
(0xb86a6272ceed47d24ef4cc67bef0b117c0761b4c29548c8a367d8ae70bf90744, 0x1c0de18cd5f3331c5439020c05964404be582f883feec4c3112396ceb657c4fb),
(0xd141a7ae9d92913a26deec5dd2acb7a2115da99763be5a76c5a0a4158b5b8170, 0xde784bc09308c82bce3be9c809abe41a4ed9b9ddcf817aab3785e344dfdc2ecb),
(0xaf3405596902ad5be3fe34643cbcea5e7a478a32b1bde828ec966837192344e4, 0x3f65050d13e7b96935b013c49df385d9833d419faac0f7545c395ca375ae8965),
(0xb70dce7f870d3d120472d3c5481a1288cccfdb2d12637a9d973f4e12b026cefd, 0x4b4f733de5322132080a36e4ba57894da563f4acb1a55a9c83c8dbc896a7fdf5),
(0x14fa3dee44dafb00d2e71c915d217cd7a9c2b50aedcd0025f7aad2d5b6c62ce4, 0x67c3a65a65bd4292d271fe139a8c9d84343bdf680cc16e50116765806bc30d8f),
(0xbaaa6a5326a7fc36e519d9a248dd3acaf6f0628da64060210caf0d0c56d9bb3d, 0x4fe9c638c1078c39a0fc39cbe9a81bc34b15840b631ecbd38ca4a2bc010d1f3a),
(0xffe2afcb5e53bc7c9ee07740c8094a3a32c8e6274dec7eb8cf2673a2dba11725, 0x68d7092e2b8b56da1653dfd642de49c1799d3ad5864e052c8829815db2ad952a),
(0xa25d7c5e83a0659c5ead610eb581d325adfdd3b8af03736e4039ee1f40612431, 0x679ecfcbb1da355fd73d02e8b79fc949bdc9fb5b05a4e28c5e68c2447599c806),
(0x1c5d082b3121c4b02e0e224488e53b8d0ac5500b0bd396f07fc218dc7311b299, 0xa2a435af4838d0284d459216f395542759f1f51e9a15f28ed83987dd9c09e5b1),
(0xd8d212002cf2ceae6c9a90db89f7d0e042a2e97c458b9024437e28eda775ca26, 0xb31b6a024b01de6b6159ee513c118921f61a536dc1442525cc613290364b9df2),
(0xb526566454579771947bee20f8e7bc4801e15d072adcecbc3aae7b91a4d0f3b3, 0x170ad05ada7f67eef7c611ba3c55c835f054bcf2445e5c1a399c7cd7640ba8be),
(0x1d0d2a240898263518a28203b78cb089acd5c29698b86b7b48fd4db63c80812b, 0x71e2e1a207bff3bf9e85e1457f4460487643f1541cbe829ef600d861dbb752e0)]

/-- secp256k1_pre_g_128[4096..4607] in pieces of 64 entries -/
def h08 : List (List (Nat × Nat)) := [h08_0, h08_1, h08_2, h08_3, h08_4, h08_5, h08_6, h08_7]

end Secp.Model.PreG
