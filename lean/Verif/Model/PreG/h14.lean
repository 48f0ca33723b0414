/-!
Generated from /repo/src/precomputed_ecmult.c:15430-15941: entries 7168 to 7679 of
`secp256k1_pre_g_128`, as pairs (x, y).
-/

namespace Secp.Model.PreG

/-- secp256k1_pre_g_128[7168..7231], /repo/src/precomputed_ecmult.c:15430-15493 -/
def h14_0 : List (Nat × Nat) := [
(0xde45c27ffdb38ff3a91c0dda56076875be8a136923ef5a5526af8829c9a17705, 0x4356455183b6ec8c48c1daf8d8f0cacc4b3bd9325d6e5adb893688342ef5ee90),
(0x0deba00f0aa0d172a6bf1c716d280e2c8c8e35ba9c15f0cbae574940fb78883f, 0x2b282f66c9499232dbe30521da2298c97a0dfc43562ac5af74eaac201d2dd708),
(0xeb95be9ceb4d5db200ae9071e5dca616dcdffd15762dda325d13b576f6532b04, 0xc21f9054d504aeac79f98cda0de167ee60e8cd52bd44e4e93d66e2bea9867741),
(0xa2849585a2d9d78b9da83fa0cdf7f4b262c29e29876297fe3ad3bcc3691acca9, 0xa165f5d59ba43cba816ddc9cb33c4d14e4f768e796ce32ed2f7111277bb8c720),
(0xe5a492b8cae88b61c72c8772eaf6de2040c89597a4c4c70385c28e2962bdad2d, 0x0a0dd4bd8cc5136a184fd7e3aa025c2f62f85693163e726f0cffa37e02be168c),
(0x875a73697940cc11b00b28fdc72b31f619c9018d05c261aff1cef7e1be71b61f, 0x93718642241a4e8b2276024002b4f4e1fef548821af31e69cd45afb3427fe8c0),
(0x39a301a469836ad3f98d708624b53106fd9d9affc1253059f45617d6ad6c0c7b, 0xa7f002296ff382a64bcb9dd10fd9afb54dfdc2f2bac962c48bb766037224a403),
(0x8bc53451922203aacaae85134deadac810c585c9f9fb44bc57113a319474f090, 0xa4bc9c8e8ea5d12254a6cecfaa46b79168cf14a2280c86ca177871b2abc65b8e),
(0x796eec7637c1fc113ef31366dbefc78dba5735a928505c0ce2a22ad8b447b1bc, 0x11e91c1cf9195b5cb89480817d8ca5e5f0fa07e019ee556690da195bc5eda060),
(0xac52e1341b531c2560efb2eb1c0c79b0d1f3cb6f3bcc4b166a7f701d7d5a60df, 0x4415cb74b2ca5b76985a13862278f53f871813e20905e51acad2326564efe34f),
(0xc231c57aed49f2712d571e10fea59a11c4d427c34a67b024b4713af7d2288d69, 0xbb4ec2426026ce7b56471afbc4ed8772dada133561d07981907d278e70ce398c),
(0x1a1b76ef11f3d64c5670f06e7354fc4fa7c1712975ed3094b5a6df78c8c03034, 0x600c7a61188e6ea876b8bd21b121ee22ba9d50a2d2ce0fc3d836829d1f829430),
(0x82b4e49f2d9d49c00f409ce6013b65a5c031c8faadb3ec8b6288576000c69bc5, 0x67b8cfb956b80bee5e5ec1686cbad5f5cddf38ae3bffcafe17d242ab896fca10),
(0x00bb32018ebb358d575cf58fc08426b2f7116d408cd2d7799acf6c4f55de461f, 0x8f3205b3291c8da0b0ebab8bac29291312ad3a7a83ac3ff16e6f55d0445f22bf),
(0xfab9cc7560a02c8ae916bfe9b61cce9e32d3720308b42b58150db6a7cdd40a22, 0x132d80218e3b6ced0e6b30605812823b80c7f0baf369caab8b3b7cb3bbb477d1),
(0x9f96535abbd2b21abf41bd19549528fe1353724ecfa3870b3df3256a661c7e47, 0xb8acdf49a978374840232e1c9a0f68541547b7d6d1d60bb5c321a1b654fee431),
(0x60d4754a2faf463df7b0cc2bff4e6495ea9fa9a2e2f1f4e9d773301b3d406daa, 0x43d162256bddfb933588da3e511ec6485599ef3f7db3a1c8899c21ea2fc91936),
(0x3850610e10a40ef15aaf4d4db11ce2147c82a449ea965cb25cd9ad4645ba44d8, 0xc10cdca4aa919f204ab148c72eb4e6f37939c70ee134433f5c70e45cfc30be3f),
(0x6808958603a26181a69660551ad8d4319d32553370839d17fbfed5c7fb84fab4, 0xa0cee27797d2ff7ffb7a6805604eec374ef4182f0a163c530015924f287bd447),
(0xaee5d57d17a9167e9d3ff19e8eebeb097675b709e3a89ec738280b9fab9404da, 0x154f14e4f991644daad6d858940a61265a8f1c1eef6071db5e1380815e2d34c9),
(0x8f3362fa659c58a82376ab88c921fe2f02c8a5def36c057b3154800fbd493950, 0x5f88cf3c3fc1ccc22105f3c78ba7b8c5525a9fa77cf769768906d0e8caa64408),
(0x2bfce32a9d69a14d324d8f9415b42f8725f5befdba3cc6ac2a5c7778f23187a3, 0x0f7e88e051ea8e3b788e18e295355b2a75fc3c3ce62f7797d3b02681d6a3b63c),
(0x62984e625d026f0ac6c82fb046dbc152a05c9a223f55663d5cdd87d10e094022, 0x1dadce42d6b68fcb19439f332d2db167f33861de28cd303dc94e3a8b7b26964e),
(0x15502824b02a10a1d7b131374175bcb56b70f796fd3d071342bdee9899d8a057, 0xb391d51bb2b89dae5b687e16e2ce13512296130be86a7d21c1d3c6b7b20eca57),
(0x1bd98bcac0ed80d40f23422dc32c59221164ce3355526ea161e1d9fe518c0e11, 0x6b0afff3b0fa5029b4e9731afe772fcac0e30c84e6c652e0f22dfd41a9cf0ef1),
(0x4dc9e532d5543e88a59872fa24b99968e649977f9ea08bdc0303ca4ed574bf40, 0x07c05536d9181687133dec9043cae3af42dbe034af05a746b6de1ef820276947),
(0x3e92be78d7c7db610104982742b0d213672cc543c27628cbf5985c195685f3a0, 0x171c3afe0c69648e7bb7912ffdfecc4a78cfd246a4fe1263e5eeedd5330f84e4),
(0x57b6c4f475bb9ce202086a5adfd5473b73b0f6d6278afc7a16854e6d32b2842b, 0x4fb4aff6738f05ce31ec79343638a7173806d347c11afd82e39d492f0b961ebb),
(0x0571ac8b0835c5f4a7457344e8572910309f0d3a26b849a1b3bca2a528771b59, 0x317ae8053aa2855daaec95e172f4005a6ae09ce7187590b641fc13c49bb4cf9f),
(0x534c2141e38a7880bf1469517d4ceaf2a25bf5d6a538eb1d4161461aae54c4be, 0x59dc65481b056dc8c3e98364ce6b76f5fbc9c5016ff24e0c1c7bfffd306b03e2),
(0x7a761f863a224193157d3d1f8fff8a05e5c13366a7ef76042cd3a1fff9f936f1, 0x20e86bd45e93b784f433d6a58056c6a8e8d1fdd9e924fd37bd5b16fe0fa0ece9),
(0xc1497e7ab9373d324bfe813c32aa9daef1351351c86ed3820fd3d4c56a54f62c, 0x09401bb91621a3272c233004d6a8093df812ee66604eaa8632085b3e482eccf8),
(0x2dd83787e31e7237f49a570dadc675bb147b91e13910f22ce41bd16fedf3c0bc, 0x101483496883687b7ee844f6d60ee90f1aeb7c0ec9f83293be96eb2f5cd6d46d),
(0x938f1399018a0fe355ddc7ecd6dacd341d9c996f9ab4f9d690b435e1fbc0a74c, 0x30c71b30e7a3c244b8a576be9e527e6e60d1834d17908e6fa0771daa92517448),
(0xe71217df430dc65a00d188f6861b00acc3214125447d8e267dc5473f09471284, 0x8f27019f114e542e96eb5121b7c3e094f18f6287f2cefd9e6a5290e85e1dbac0),
(0xca2ba87e4c040efdc06ca7fa50cbe414b66bb2e3ded2bfdf7744f81a91b102fc, 0x24848b824019bae74cd7604d101c48196e808ecc79db885dbed683540ba3f138),
(0xc267ce5b633c7f121be2b29745b4dab9ff488b02c8f89ba8706948c777167ad7, 0x16184a770954c3b5f9e330f8e8b308de1489ebe4bb9ffe59f3f545dae7748385),
(0x1eb9af4296d58c44bd6fe2ffdb05e0ba1b5f581aaf8428835a47a050468f8b33, 0xf88a112895e53e054e5141175a2c54f6a235cb0803494a7a991fba4afd0bf1b2),
(0xba342b9576bea3ec15aafca62f4f505fc35bc2ca64e2f4be22323b771ee39062, 0x91be57461fb662f6cc28e73df0dd61e520cd3ceb2d6fb0b339a76e5a39114afb),
(0xf3a8c7f286117118a4714895eda7f401dce4be87dab4d4feb55068b4c948b350, 0x1dd2f66931f0ec6274e8bd5397cb6b50d97f92382603c93108ff1c6b18893bf0),
(0x3cc304a43aa02bc525437a89977b8ee09f5f997c56c4d317f531d22e4a60f55b, 0x9ce121dccce749b478823adcc9a613b8aaf78f5dc2eac8b5d5ee6aed592c7bae),
(0xe5be6c29b9f12f421f499fb113e54bf44a577fa6d8d0dcd96b509f651b4f3587, 0x7755eecc721bdd9cc6e8c96ad398cff3c03e77c79e34dfac1f51873b08771d40),
(0xf933bc46f296b7804284de6d5bbeed68bae90bdc0cd731cbb9519c05278c7fda, 0xb6ec0484faa4c53a630a8b81e1d567dd543a4e554e89ba69d72646c507ab3740),
(0xe1d21ebc297edcc2b595976b2f65b2a7a6797cfa3e5abd2734e2a962dd2f507e, 0xaa31ee8f4c80a0fb09e52f32c7e4a69dfbe8d2978dba479eb0c9f4d0350012fc),
(0xc3cf0aa18e45aa16343c52ac41b12278f9899b460e17ef9dd7b67f7584a1eb72, 0x174cf51070418a6ef83b3db497102ca95bd99985f2554e5fc32cdefbba47e411),
(0xe6a90aff6e1f031134f93967538040e4921206448e8e2106dbba6f5c701700f8, 0x93895ef21d3513e119228b9586289c26f3efc0241ac2c963b394cb87265638c8),
(0xe2b695fc8f1856c6131761e09f75a55894a4a7a92837dd29f8e8a4747a9b9a91, 0xb580a2e40240724d5c5381df27a17d724d0e638d958c0a27fcbba34dda5361d5),
(0xc0660a146db599e215f813a9f267d6db4542a6969b08334c6bc80558ae518063, 0x6a9013466bee774a54ec2f9747d7a8d10e157a13fcde8cfc57e48d84374f6ee6),
(0x5c41cced2b091fa7df1f8e303d78b117842511eb41717b59f776e05e39daacb5, 0xdc4964e4d91fc985af5c0f87f0026a6e290bb1c0b181fe2e195f700152509f40),
(0x6abe857449cbaffdd0e5fdf6450484b5f86361705c8a0a59a3612dc08d0d52a1, 0xc669b0593a5fadf686b9583e7fecc9f2c5eae9679eb5be36a201833764703bdb),
(0x560dc0ec2d407e814b5034cb8d26c8bc7c86487cf74e2fb9a076b521f68e22de, 0xfaa241bbee929015b41831525aff50623a270bfd6026d94ec3106e3ae66783da),
(0xf3ef40ed08d82c02a141b953e8593f06b74b244ab85edb18eda3e6933c8f90a3, 0xaeaa6d256db6b12cd9a6ab5bd6d0d85462c0d2985a772648db46b6143050d4a7),
(0x413e0fffdf030385248b1fe21bebedfa77c1cb86d665790b21914da458a4479d, 0x6fa9db7080ab1736ee7d54dce5d1b545dd17e3f445b39038595fe1802b34b443),
(0xed3c5ee2cf1cc50237e5c654d903083c06fce29ecda0f42705a6e1ac940b8183, 0xfd265e7903474e60109cac37a867bb81d8ba8b8f94b13f080c409ad5362492c2),
(0xb98e14a23f5e5d6aa99ef39f18e234d442102e722e330d2ee654b328e2f3bf49, 0x67a60b418e820ef972ffa57b01e383b13558592020434df0e443c31889734499),
(0x31bb629328793b42dbafdc9e6a418c51f0a0cf0b6da9687911a6f046c146e475, 0x1bdb131cb14a3d85a532f88989112231341a546ec88e8a258bfa341a07826512),
(0x79b2d26ff257ac80ca67a6399be17ff18ea0c10d739b106aa93107546ba0b252, 0xe09448eab102b1cd654b6e1e7e4754e1c63d11c246b0ec5d31df61756b99e850),
(0xab8cbf8bc3a740d3c1bfc2e60efbd7ac0f444795cf2e311dedfd5c2d124d55da, 0x705998470895f335a8bd33f1811201b9a860555e8cde2a274c348b4c6ab449a5),
(0xf6b7c2bac5468fb1cfa0785bf67972b536367ef4d3dc9ef925e88085524e6021, 0x663be56dc325b2e23753bf151f6b2ea02d6a62b3a3d5f5652734401c9c661a3b),
(0xf5d2e04d0229d784d7af5af3ea65a35d637b404bc431ca721bec7fa4dee33377, 0x16c90231e570a434700fd8e70cae5f8dfbfda2e0e234ef23a2e82452a0a953e9),
(0x4df218c94277fac33ca43921e29fba576f183e74fa2ea78188b8245deddab853, 0x7828e9296c589e6b1d80b0362c9bb0c92c2a79aa378c597e8a64b985d6e4d108),
(0x60e1cbc278d4a0bcb7973b32964da6749e2b344824075a0d1db93e51ee3414c1, 0xcec0aaa203db6c3e6d6c3189c2dca9de8ce91791a721ecbc1f09c7ad468ee8c5),
(0x1e7a9c4da6cf3251559d58ebbafd1a7fee686c728b1ad271d9da3b156a9f3737, 0x794e3bbbcdc0df3eb9669a108a32d7b70f3fb843388cc55eaa893f64ce1b960e),
(0xe89843165ee703c200a413c72a5c8ea0605c0b4b58cb844c85df83c3b4f361b0, 0x69fd6f895cac17160f0bacdd5a880f12f964c2cf1cd402ee27ccdbcb5188b64d)]

/-- secp256k1_pre_g_128[7232..7295], /repo/src/precomputed_ecmult.c:15494-15557 -/
def h14_1 : List (Nat × Nat) := [
(0x2b95eaae6078c53532a232250eb9821ec7bf864b75187df302736459f0797e4e, 0xaa6e1922b5102e6977fc23b5ac2de98cedcbcc3754c928b17c7d124d980666fa),
(0x403c193359ac90277aed0f41f9ebc5078ae553a6ec3b8a4e4f66a84119d221a0, 0xedab51568667e7b2c7793e17839e46e785a6c7a008af72958e25b41113829ead),
(0xfb182399c535de2d556ecded54e42f298c0054a61dea24779df1c7c3bb53e1b5, 0x7bed179b732680274fa6b227d13763d84fa62dec2e351ac2d3aa59d88961123e),
(0x9375a9d3ecfff9b40b672d9045aa4872f61c3b8e4cf86a387daf74cdaffaa521, 0x41c7bd13f4e491db77a42bb8d65ba77df03acc6ccd78975937486d08c3f691d4),
(0xabb9554e1b68c55481d8bb125b426a4c433cb11079254f8addebabd29f5be0c7, 0x946d680c1bee958d3208935341ceb7ee5b4a8168a6368a92e1ab10505d0e76d4),
(0x56e8aa5137b385311e5e10974df857eab4f7e53d111020216463c212ebcb873d, 0xb51e19817eee5672afe7f688092ada73abe703ac4e19770c97dac3008d3b1632),
(0xac487fb04b00962b2b098cfc4f22eb28e5007944d32a136e5988dd470d9828f5, 0xbd3055295f4200e4c5e6238d76665bc767ad84020dad13d86c6fb3160a214a5c),
(0x1dd7562ace273114660ccde45f41d69011621bce56cc49c72016f19fd94e9e9f, 0xa8e8861bef664d9ac19391b65bb97715ef677199a373f255876aa9add8a93043),
(0x0c198019cda66df32bd528db0e3869d61d1d7cae57ced846eebcf1e2bcceb8c3, 0x0b0a9c52ae2b26257699d3b1008614744d66f09f8b795d81acd3e5de902b247a),
(0x950f54ab3cb421f695404b539b1f49366b43e61c7bf9879d168027bdf58dc386, 0x0e14586c7f005f5f21e122bb02a35194d5d2fcfa4898c279cc296b249b48b2a0),
(0x5b20af8a31b69820a56d0df0c7374c8a3780544981e0c01783b4ff492bd40ed9, 0x7e49b8a1c5bbcb3255991da799613598cfab9d8a82f731d0dc2f52a16ec39c55),
(0xeb8a10cf3777670f437f55c02ddd868163da41ff5b534c63ffb23ac9ecaed755, 0x99c18d8ddf2ba9a0d46ea92d8b983f50c16f14b9086b955ea577f33210533df2),
(0x12977f3fd75a9c7281358c9173664b408d8ccc9845153edec62b189d8da2b176, 0xf24f505a75761c5d939ad8360017f0c6dfd8a2f3fea047219078e2b21aa317df),
(0x7a591539ff4fc3ce2e2936d350d753fb131ba4198d034c65e76d0744c159096f, 0xc95d8b2552b3920a6341ef435e3e797a446565e00652a5627e0674c7ca243425),
(0x993061ac819fde52ae500ed703277ecbfd08930f8adff61df5f9c3c6cca49640, 0xd54444ce748f60581005183852f0073a8a5d1477f14111d8b623a316a67ad06a),
(0xcf807c40c5664fbd910a31bded3cb7e52e54d1ffffcb4b437a5799316f803051, 0x0a5d21e66fa9b5a82882b77bca66b6e4163d579ad245d089602274f455ca9881),
(0x9c0119ba461d003ec6fb7a012bb32b89ec819d978fd4cfecca1c3b2f1f14f0bd, 0x0b41c5face1e9a54f1605e8461b5e6cec11590c0158380592c511360f4b537c4),
(0x56ea325905d97b7fd7f9fe51b525d73d3d77d483f8bf84608d874d25aed3da3c, 0x0f764a402cc9278af1ae6369e1723bf5f0a15a47992f8fe0ae33752e473c3058),
(0x2851e3cc2fa6752be0a6532646aa8445071736e1d22a01faab3becd650460acd, 0xad778ace631584dfda4730a42024277981f9f829cb18b20f08ce727bd62d64b7),
(0x1674559a528fe0ad5aef46f4eeb4e0ba34b8c2e8c23d34095ec1e164ef351979, 0xafaef98eee2ada757be9675ffee76686d2350972a9d1b80dfbbc0719efc38b21),
(0x0ede70ea37946f71848d72fc7a98102bf9c167f3219671ab1843b5c68ba6d7c0, 0x920d61086929e5b80030c4faeb155b4c9d32400159d748c9d7e74980d54be37b),
(0xfd3b1f22c5037c8e93f4f9ac27ea723b3d3e861e694ef349dfe51f8350ac9fa5, 0xcc02effd6df182440fcbd177a624ff17b0da8fecfd60624a3d066be09c466cdd),
(0x72f037df352a4619729bc550e23ad7bb6f2d79777d39ae36bbc1d45dd6e864c2, 0xc4bfcde12a5cbba37e0470705937c2c9da7020400bf49cb5c762d60ce8fca76b),
(0xf17a9b25601ec8efe320558fca832789d0d8d55876ff7c536af0f84bca799a61, 0xc90583c62a8635670b0d8c41e47c3d8e07e196a19269a40931a1eab8f1402837),
(0xea9fdf499e201fbbb0a26a7101b9be2edd17b2d20b96390c4aa2dd0083bf5c86, 0x64322654c8bb2a83ab0cb743eb907234d8503fe7381e17bec17bad5cd33b4df1),
(0x8d5d6f0a24aa6e3e7dff42b9ab8b22aa656788b11e18ca35b4ca6f191d50de6f, 0xd509a2b5e9800d5ea7d1d047e945e6932e5c192359bb02101b2e895633e0257e),
(0x25ebcc4e84a1d22cf0a8c98008252d967dfd528a808ea2930ffcae9450e1fb81, 0x3127af8e4012c2b50c92e4282e455de1681eb1b26e660fcb04ee8fefb64c6101),
(0xc55c17a1dcd8fa418a3edb5ec2da86784fed0840522b24ed4bcb85c80cc45c20, 0x7d5830912526148944b56fed17b079069d156fa2e9bdc462eeddeebe68f4f463),
(0xf4297f5921a867ba1e58b9e1def633f118e058d5a7889721f0e4814b7e63ecce, 0xa39f359e35a123eb5fb66d81f117858fb05578590aa2c388a8298d1143f137a9),
(0x00626b0a0cbcf0e7daf7d21874f72be48d8248834428bfeef82ea516c2d1b98d, 0x74ae68671c27a64253a365905247cbeb77173b072e429de23ce097308d54ddc4),
(0x8ed35ae3c02c5db2acb516f32d3b682361964f2e701889ab26dc9512ed40172c, 0xaef4c71ce241be5663a091d9e230463d237e071778b7b6baa63688c76c694334),
(0x5b082ab8963510de46c1cc494ac6d3c6dfa25f338627a00b6b98121c073899ed, 0xcd8b2b84185718a1c4686ff07cad18ecfe3d45329537910d31458086c280bb32),
(0xdeaf505d0b08a282d5274de643c5719df51827e62ed035f1742792767ddc1158, 0xc10673445e4c0d47ad1ca85d713a59161aef69609294d738103b945ae99ed1c4),
(0xeb62dcb4d820019ce865129a028b98b5be6c6e16a80f7c76db3a15ee31ba7aea, 0xe78eec22be4a175d68b2257fc5adbe46fbe31c3d5eed473602304d80ae4577a7),
(0x6c58cb647ef638c2337cfedca9345837597ac142577b22307d231a3e5a9173cf, 0x563008a57b82342760bbc4005f60402492f0bcf02ab2430a5d7accc5b62cbcd0),
(0x106d8978775a41b112f078157c3bc5dbbb5980d9c745806ab5ca5ede8b468d51, 0xbf9603496f7d7906141bc4fdb1766102e8dfc49fdecb469f75dbc54f21338dab),
(0xcd6124f421796b6f44c349828b536ef744bf30ec6ca08142e959a35ec0385224, 0x97ccdb9f2896e81519bbe9e8ae491e61e83417c66db8b6a9bede3acaf6608ea1),
(0x2918b2d9b0bd83d0b8d02815059219c6bd708e2f02139ad01815b1ffae60e03c, 0xf322596ec56984f2e7b2ee908a9bb56ad213f84f3088aefa67e372f276e2a233),
(0x6d3fe999acc04d132462f14d680a90c989b747f23601d779507c36ce8c2acc7d, 0xa6c7413c36b6399e58a443b4e4137ea5551a9fb2c53974579d55b48a5df0e30b),
(0xbd74ac798b320aaae3e511239354d4e9280c99c2809e88be1398030562d55d52, 0x734778819b9067a078b4010838ae59f43f6ef064ba35209c46a9f0dcaaf84597),
(0x303f6cbe866b45749d2822171f571fb78c54dbfe901f2f43681ebb0c76e5700d, 0xb13dea580d3dfe087fd043f58e63e56585230d6c273d9e3b22145e39afd6ea4a),
(0x3bbb082416a2e3bde328f013154f18c14e840030707057ccf4fa0faeff56181a, 0x18b214c7823b0cb1763751467a49bb8cddc0047f782e3802be12a119ecf0f480),
(0xef42fcbc999a3f80b4e7319b1fafc2c649f518452e423c55f57e5e1ef8338adf, 0x786ffec5604648824864115538aac187ced4678acee2b9eaeab6ae61ab2061e2),
(0xafb21e4ec095bf3134276f4ef1a4883a6038c20ba7a87ba66288bb1a3bc6f77d, 0xcda832eb073dc0e9fb77315f6cc7a3132212c7b41075a290d591703362363bad),
(0x329c98f5a40b81bd7d121b9078b50bdfbc16c9bc4774436834a5208f20d39d63, 0xdc14f7d84bd2a1e722fdab981044d6e598515df17da5536c7a95866d0008231a),
(0x6929a4dfe15e7ac8e8a9c5a93544af51aa621dc7ca04038a9c9cf6038e081754, 0xe1333f46e4d1f151f2b8c341d2ff90cfd36cf73c6f441b4c5c0ae2726a25fbf3),
(0xf40fbdb427d2d68e854cbae024ea59805948ca40e3fdfcc33efea0a457e2bc24, 0x33493d8441c8945a9e291b5805e1278934990a7f5fec49dbea1ff6054bf8802f),
(0x220417f3d9fb32c01439e4730d6388569b169c381057b780c9de7d12e30dd796, 0x4cd936725abc4e3989e64ed1af9b3d4b4732ac76a6c34d6b232745738d765a1a),
(0xdcbe3dcf2c0120d94d6336ae6158bdf2859cdb038c76ea3ccad4ed11013ed216, 0x670823d973c74725ce929318c2ea650d5feb7c33c7831a26821f26147db7d8ee),
(0x34de2319c535a31a87fd9b7033c363e28ff754a79e0669a637230443228ab3b8, 0x31c65b12cf6f4a9d662238b0c8ab52afceb96acc35b90b2b81667b8b0dfd9895),
(0xf0fb2bdea5626729720ff432542c5e41abf0fbc4772aca7a75b882ab2b364acd, 0x114edca074520c9e2f5b805959c5273f25d2e621d2f55709b42d187c932b6bb8),
(0x90477ee6a00742ef78662c11f3725077dbda7b667ba55b55f9bfea1a4c5f88f4, 0x467196ec0638d13733971505f291dc0bb9d0f3f8f284e3ab9035273e0d9c7279),
(0xecdef6b7455a41ff96cf943de489858cb7abc526e41d463eb24a56f9dd6eeada, 0x1116e7da9fe727820e8c656b9f677c5bdfb3e46c98957c3049efd7b6dd5d3258),
(0x58d30bd1d8dbf5d9885b6e7e4f28ceb8381415eb3851a031ef04b07365e16598, 0x9cb96ab0546246fbf5cc08787b99db0b26c9bdac184a0eba728fbd26bc880480),
(0xa7587d1b771b3421f56e342acca98e7d82c7dc600765a48153379da6fd341c10, 0x9499ba9d8351d1940213ba3543d4b563aa28bba09a6d88119b55f38990742929),
(0x8aa99d899db3c7e1c28bfc5e18abdfbfd9fff46c560e4fc00cff65cee18ae6b0, 0xaacbc2e2bcc4ae581e354d29617afee620ced0ff859c62b6669cf2e0565a9bef),
(0x45d81a7ab4158aa42e45fe7f3966d27875f8647bdefa0c8da761ebef894ef249, 0x93a76905d0e785f2db52e09f573a461f183f672f9f10005aeeed6e0cd40d31bb),
(0x0de19bc86fddeed90909eff480b0760b66a1a24582e33be455b8061b225942f9, 0x6eb2c1f6f604056a15c4e91f789e35b61a787abeaded0f30abd2525f19486d00),
(0x653f0e92977b7830fa546dec44f0554980f5a9f661f2cecb7e360efc41d16380, 0x58ba9f7a0eb7aed340b54d7a6f9ad0aaab5eaa2a7715d8ec48d52ce3c3c57128),
(0xc05441fe2ddce6b664270b6983d44d5c251efcb82bce46659388eb3d0537acce, 0xcc82b7bd3a049b0698feacc811a1c9fae95181d250c0c62a55a6d662c9587d65),
(0x7a569bc60a089fbd294dd5d0b10f3a7a31b6bf3942ee97d049c9259f7adf0a7c, 0x2399d17af6207b8f20286fc478896af45e596b097c97f6629bff0c0314db53e5),
(0x1c4c7a374e14ce88fd08a1b3100257117d96878ae173d29e1ac53a571d6ae794, 0x919f9b82e827cc787352f0ab99770e97bfe1b60040cf1034b7c5178b3d1104fe),
(0xfd4ef218a09baf7057b53f652ca1e2e58386e867521dc9981bd4ffdc619c31c1, 0xb1d2e71664fec6d93cc8bf1770ab5f10a49a0497ac1586b7b8299f7ae92354ce),
(0xf012612c1f933373ac30413c1b2cfb9b6582957eb74e4de529c0267ae7552a41, 0xa38b2418e7ace7bf3a15035ba68f82b5aae491925783066ef0f0263d6dbc86fa)]

/-- secp256k1_pre_g_128[7296..7359], /repo/src/precomputed_ecmult.c:15558-15621 -/
def h14_2 : List (Nat × Nat) := [
(0x8e0d504bc9598eacc4bd27268b3ad24ca22b753432eb5a31d7e54948d57f6f4b, 0x50f594550ba1ea3a5a0cc105a1c40c4b72637a3144bf9438a1e3b52e7b30911c),
(0x8635604b89ec22bbb3b4e2663e76cb3a976cc78ec7db31fafc16a7ab411ed197, 0x8a11d4576868d1174f41c40d4c82d27e3960d57d4b1309a4531c2617b1d90227),
(0xaba7addfc234513b3e861382654959c9984628df72b2a8966459b3c486bdbd2b, 0xddec8263bfdb4c3800c9e7fde4693b0d962c6e5fa4f9eb9b9561e81af04a3a3c),
(0x12aa3b4044f699c48ff6c59808a7ce5684f3af858cf2ebd34d59ca7ff7501895, 0x76397e3f3c42935b6a42222a525c21667662ea0025decbf78a856391a03956db),
(0xe01136bdda38f328af447a5043a48606a1ab5a860b3bca98b13a53aac7061098, 0x76f3fc470c1aedccbf26ec5c4f6ad56cfa16321265844d018d2f2b94184b64df),
(0x639cb266f0672340d0a789a941eec287b60c380ef2f62f9641b671374b286aa6, 0xd381e7bd5dffffd950645e5663c36d9183210038d70df2ca04bbb837e8eff508),
(0xeb12f18c89a6d2e65e07d20ff7acf3c4b903ce685237aca45692c0e0f6a4714e, 0xd26860abe6f977450dfb01cff6225c36bf62e5dd24088d54a6d44384e9eed86a),
(0x8fd06b6d96f37c6f8e69187cc5ace64a6e36b45e37de82b4872731cc8781e941, 0xe7dc32543b40599e852d4e9be35a5438ff68b0633b81c8ffc2f3298e931e9e98),
(0xd248d9144ca3f10b3fb66763713492ac93b427819119683fbf0e0f081bb6b241, 0xe7a2ca15f1867e9ad19ffdc3f1a20d0f2469fa6ae04f94bea289d019c405318c),
(0xba2150dc15884df034a64e2089023947687d1322475dd073b163a4bf4eaf0740, 0xaf92a566a320a0a434095dc6f02f765f4ebdf04ed81e2c04a86e6e2e923f8c94),
(0xfb12f487225a684331e393093133f377a6f841a7f6f90ccb18ce3d3948b56616, 0x0e3358a9406905b7d6bc0a336a89a5bae62136a54135c3dbbb32f1154cf92b9b),
(0xbdeb3e387c36bb9fc45a1d62f712821720e6d0a655a285dcda87af3ff59e0644, 0xb23fb3893cdb280a432756913c1de5fa6da12909c0ebece712c9da4969a3cb29),
(0x32f3ecc5925ccc13f753ddc7d5c0c576e80402abffc6dc776e8bf74d15735007, 0xf950add3926bebef9d8e3a5e4d0ebbef24b54dfaae7c12d132b6e973dc67c050),
(0x94a725ede57e5162817d95b054e2732a03afe3a652ae3e46ca9de38f6dd9f0fd, 0x805f6634f8ba79b8ecd5f46f74b741a4de5f9678d29b8cbaeec7349827671f67),
(0x22197e54d35357fcad20f6cc986216e70f24e6dccfd9bb893e5c1ee69a99b3a4, 0xb3e7edacabb1d1c3d375f3611f04a9279d2995c93e18e7fc4b5dca90a2a3fe17),
(0xa51664bc5a1edd2aee8ea6447beef61b419e20adac9558475e1d666b1b4dd52d, 0xb8a95fad0e3aeac7bcd8670c78dd1b2b5dcad225277ca5bdf24f131d94405c39),
(0x896a11cff9db64a1aef51088baec42d016dd5a9998262f71a005cdc8ae8cab78, 0x7a7263eaf64962dbbd09a278a3958708e61c48581a759726c225471b20899077),
(0xfff7555246da269a2124d03c677f59a218b995aae69c85d43b29f81e5201a757, 0xdbbf15586670c1919da694676e8906f380eb3f6134c656b2a4ccfc714b3223f5),
(0x89da8ea856f946d66e9b07f3db5b2ca749a07e5f78b59c1be52e46b13793e198, 0x25889e02d2013d866653cad27b3504d14e547343fec74a37a3ee71a9646a36b3),
(0xd260dbae6ac3e8a1442ca7b98f7118c57d6cef72783c0b3ba4ad7e7c3a8836fc, 0xe00ee7fc95131cd33a446bf4c21b85cc45a8e61d2d9d6cf0287996e277b7cb6b),
(0xbacf90ec75ff002bc1a259f03c9debe59f5f9dd5cc0cbff90e8fd62c4552a619, 0x82dedfc142202786a7a12a2922937c0c23bddd234418979e78723ff26a9e5e88),
(0x01ec23fa995a22ef53a91deca5b2faa9514b5ef8faf125adda61f84c5b13a397, 0x1568ab1ccf75692cb7d41c532dd4427bed7043e6cdfe01a62f9bcb47cb97435d),
(0x48225de5eb07155bdd86e7599e172a3bb96f69bcddcdb051af2dc769f4450b1b, 0x856ce939b81d976c6a6c249ec0d087cb36e28082ba050de54948d92c6693f4aa),
(0xe9ac996316c1ff8ea7d2bbf4148c8b3ba869d4e10290168fb3831d6b3bbd164f, 0x2b1ac6646bc87e3ae6914792d0bda8b85cfe11073d0447efe4a65acc6eac846d),
(0x8af31ba2af0b68c94290bdf4b4b803455f52ee89f4ddbc981dda10009c1a2ec2, 0x0a37cbc1a5efc09cdc944f42a66a305ab302eb1721ce5088a7deb46b5223f0b6),
(0x1d211de7d75d43894cdac2359b0b9e406b71b8a98c0583a57d7a0056b3e88779, 0x3ae4bfde20f83eae96982e9662d654434359b2bbdf249a85c7c83b9556d7679f),
(0xbe6beeec18aa8d77201009753dc7d745c6d49f9bea64ebfeb8fdafc092a192ac, 0xc9e14aa24bce41e0f444030fddbf035de808bc0663a70593454ba2874ebe50cf),
(0xb126dd86555491a8e2ab601b2f133960d86a7f9ebcd2c88acbd8764f1afee3b2, 0xd22ae79ffbc60439baaf2c2e418edb7770837ebca909322db5580c3027c20821),
(0x857b9c626350cec4f928d4567d30cad806f1cfad142b338d74a137ec61212791, 0x9d3dc070f610ee55cfb9cfaa4bffda5652f7fd187f3546340ed4f2dcd27f9ca9),
(0x0bbb7d303e242e872e94e3b427197ebe5252c36343ccd8ca940202fffe5775ac, 0xf2b5b2100a40d1fe140f86383a5b0f9c096885d5d9857a3d252523b8d59d33f5),
(0x3e90a10ca61bd12afe9caabde52dafbe8bcd332c0e0ff8bd7718b68589e26447, 0x3a4d342dfec7d5577cc52bf9d7c60537501501468a05baae7b562dbeb626a952),
(0xdc1f2531d5e0d30466b963fd7d09524fc66e6bbb3855b6d3141db1709af05fa4, 0xf1644b11e8291f924884d3eacf89d857fc98c3fce49fef967986e8e9d67c9b0e),
(0x2b4714d1fd0aa7ab6c103ae919493efe4a503d5fbeba56dd93a8c9db485c1dad, 0x0d65bb3c47efcc3f7484b6c009f5160530542a81d1192ac75d506c4316f41220),
(0xc9ffd7fa3b14fce7c2946111e940ab3c8199b7e540bface25d8e3b0dd1a15176, 0x3b40f328a4539bd0a0b71e5d91a881c887b31e110453d9f582066f44ead8d5a5),
(0xe019b0e76b4221c0e45d387c6ee41bdded5e219ea7069b73d92b63392657c39e, 0x792691b804c8748acf10475a955aaf5a077328c60f03c2e9bd1b20bef363f368),
(0x51e07e1fe8dc56dff6394d1d7f2887a69e7959bcca10af77cd54064e6268929d, 0xc09b86d66837e473574bdf95f0b99851b97a821f6dc622d0d9c6cfbf18db5ceb),
(0xc5c19c699a9b69084625d3b95c6598ccd1bba7a06d4e2f9188f1b77b4aab720c, 0xaf066357107d856a51c699a0259774b3352f8c12988201c30c71bfe3c5d8280c),
(0x7b51ad32ec4a6df5f9c952e1fcabd8dc7661ec532631331e5205d231533f8d77, 0xe1346672ebbb97d8569a12aefea65246e1902f0a9cd91894a4b8aaad5a02ad35),
(0xbe3059dc3789e16f5ca8f6e2c469f834bcd3fa735d84377f907cadf9e7eb895a, 0x5a6fa277ee5d317e81819fb111f40778ab43756748eed726238ab5c7f4d6ef06),
(0xcf75a66e810f328452e09fa315451289e1cba33a0ff1013e4702ff1b92b6f587, 0xa0658bc58c894702ec5c366c5a6b18fd86269d5a8117dee3601dc40fcc93f17b),
(0x06356c707d5228e5253f09b77020681afa64dfd63cabd70391d7f892d9822737, 0x3241ba88cef88e8f98d19fda717904fc737a9c7745838ba397141964946ac7b5),
(0x90d7f09f7b8a1232236b4459b031b0ffd5e8c90336a35f0494a896153baf8554, 0x4a612ce4b18b7ae00f3c557ec4ab51bd7c32f26b24d0ca7eaccc748b3a2db676),
(0x170265f95a3f936f57a39e1fa748a3cc902b1b204306c49ef4485b15555f80af, 0xd2f813a4b329da9c68104a55301eb7cd3ff6dfe1c4aab9d9d2fb03c9e7ae2bee),
(0x2d6316de37598fe8ed6e3e52ac47d442636a6553642746925a468f0854377eea, 0x0e064f407f0d3b3274a61d82d7b750066fab6447e66f2d4b20439303cdb3a107),
(0x8c89678e73f3085a1a766e14f566625acc29dda603eb7bc9ed1195b85fa2092b, 0x12b42d8e091c9640b8b2509a157229bca66d28b8157742fba12d7405eec110f5),
(0x0ddeb9280de6424cf9ea76f0abc208f11673159629fdb2c5c8e6ed2838ab6b11, 0xb13956639ac1f06d74aef36b619168727709eaffd8b76905ca404459325839b6),
(0x485e8e4435c46bd1d0c2a4db19b958fd4a87511aad4aae65eec4f5ba6cbb38ee, 0xe621d1d8736d6df5df2db5d236887c27a93733b8d3232dc095d0b2b6d0be516a),
(0xbc527a442547aca191fd98fb84ce7b3b6210378c46f7bd46bfd375a81b61206f, 0xff7c1cfbd3c2161685d6f405e6f19e8b6785e6bece3741894efc149bb3031707),
(0x9911194a7a75269d2fda7214021e4e2e3666ad1203e76004b5ff9afe9ea89ca8, 0xb1f350abc87d942f1aea75fe6c144ea2fc5cc0405c38af569ee45413017c7bd4),
(0x93226535e27a96af079535974db1d4d54a65d3e9331fc3df7f028fa3288c3189, 0x98007e6660fc667305e8e864afc6217149168a8627d35eea2d02d90fe6f15331),
(0x752d352b2459fb97d5a0c46c3fef99ed50ebfe74ceb1c881b2fa518f3aa59e72, 0xc6e99a8a2544731ed932a164ca0def49dbfe4f29f8894133ff5eed0266c4fbcc),
(0xab37b416dd06a595ae6fe33d717c4ff1fd1de2ad6c58e2b3660e872eaac7aeb5, 0x182f07fd61ba43fde11ad355d7027fef714c9b9c364c0b721838ef7cf85d9470),
(0xd2fa3ff2b1cd890952a0d380d43233f41eef04daaeac6ceb46dd8e6e572d170a, 0x85f3c8543eea0e64b8a9eabf180577006c3a6f70a790cce624a3f6f95752c520),
(0xe256c5b799ae8dd71daf5a7f3dd94f940e040d98291a2d6e9b3988890addff0c, 0xb4375e5c82517974b515ae2854c83443e8bf9391cb975013727e3bc51473b133),
(0x300566480afaac00c1d77bd7e7b5235afea2bc8c58b34a6b83e630d23036db6c, 0x16ca5c306882fd6ef7d82f93b25ad01ceb3e9e69b8280f0ee3aef2e2ec204600),
(0x8602fe69d4b1f32be84229280200c5b5816f08a1759faafb29861e07c5dccef7, 0x059a5ca035490ebe66409e2a283f4c9df6e0a7c79dd1ec82f31f7e4e4f23ead0),
(0x053bb9f5ed205516036ab1707afc75b56ab3a75a3d360c153b0b74c2d7d9d64c, 0x77c6c1ecc7a53dc38c6540d4461757c80b5f7b66654fd754fbfa8f5aa5318cbf),
(0xbadc41b286982d760e5374b30dcf023edbc1e18770cd0b2e2916d436108a4328, 0xb16946510a69dfad924fdf5d526c25cde732078f311285563d42ebb13329e2fb),
(0x15b43026f5134b3f1ad441c9793b9e57a318d455fd6f10dfe4b0bb9105d36600, 0x4356855060fb010a6d5123e8b446a1e7cfddb6b46e4fb18f245a4be8f9975a1a),
(0x0fcc64bd00c9df174d4e8e180cad6116a48780e2a180f7c757f532da9fdf37e7, 0xede3706235eca482b935410b6d495f5312b133cc238eeb6de8e5f59365601951),
(0xf394fa79254fbdc27a1b31df1f868c489b48b6d51afab5422da5b1f506f3edd2, 0xf56d3d7de7f8d9c5fd45d6e2cc2af300fdce32939be5b9759d81ceade2000e7d),
(0x3c7c8c546b853a5f97f929325558793a0e1debf303f680d56a79bdefd4608d91, 0x575771edf26feb38a728354a6c4023ce4b019d653f7adfee3c83cf5809f2fe4a),
(0x51d6125843b8d62106c0880d0f04f34d9acbb422d8194a98dcbf222dcf27fc4e, 0x2d0bbd0eae299afb93980894bfbdbdf86edf9509ea408286ef602cf0ce3b33a2),
(0x14b17f35ac7b5914e08babb55aa37cb426d3bd340f2c1e4f45acb4938ef51a65, 0xa9090e25cd8273c315d1ac6a15eab0277981f6bda85fb0822b24cc882918fbc1)]

/-- secp256k1_pre_g_128[7360..7423], /repo/src/precomputed_ecmult.c:15622-15685 -/
def h14_3 : List (Nat × Nat) := [
(0x59ceb93dd78ff6a5f45c5fcc7c1ecd7243f2d8afe4ba8a3ffb03053a586387dc, 0x28f4d0e638ac1fc198aa354856f4f19b479ff8255d150f29871630aef82f3777),
(0x273bc0a7eb63a0dfeea8d7acb24a5200a7086078388db5bb37a0a6f6acf24656, 0x0a971405a287160e22909b67357fb63d10af5ecef725b1ac17c7fc73759936f3),
(0xc9b5b6903a45e5293a2982190cca93e052a2719c25cf2f50c4ff7f045f346475, 0x7db09fcaff1aeae2dad001ff1fca6166a607eaffbdfc327b9b63e2a8e97f665d),
(0x90044beac8459e34edf7c40d2a101b45066728d1cf0055eec8ea07abe39307f0, 0x19763d0877d4a896ca9ecbc0056d405b5a6ebcce1ff6ac26593be19f63caf6cf),
(0x6e0898bfbf6baaef0d085f41da7e6b936b6c9a8803728dc78ce7d71bfd597b2e, 0x0476914691587abcc2f21e054542280af7260a72e822edca1e63c0893bea3dd9),
(0xe94563b6e0156145ca2ef19f58de97277b806969a249629a4f024b998a023792, 0xc8949547a4d25901f3980cf5333f65f58e1797d8b42ccb0bdc550e6d5909927f),
(0x3cd027e4173c279954d06c3c0ec05c0d161a3b73348db0d28c03d0978921ad64, 0xf0d1a3e8ebc3387aee88189ec1fb3f6d5e73e8957b7372d932b00144248271ba),
(0x04c96f512b4f075838335d47db599db9a2dfe1d16783960cdedda119693d5686, 0x4e840262668972889bd54c15219ae871e6426b67afa949c5e1226bbe1204dfe1),
(0x8b03ca2e004588730963ba6bc9dcd14b59fb11903f2330cb22997bb419002fbd, 0x2b29df15c6be49d827981ffeaae269307a461f848285f5614f910508eb865781),
(0xf4217bd232229dbf39066a17c252483838098362f0891b69275dede1f8e64f0d, 0x7581350a957f480c8924680086c2803e99ff5037938e3e1922e3f9a67098dd96),
(0x247274b3d5095d63132673cadbf0e418898468d39a30c538a46a271942846bf8, 0x4265a1b77d1dbc68956f24419c4d2b709e71f6e46e24e336a978285c22a84f11),
(0x19c25b9b97f40ddb23d62bd4a298ce7dbefdf39d327aca4761815c0a28d4af9a, 0xa9b5d70594cf4c7eb7e947e2101b18bdfb9f2f20fc3bf89df5a63d7f61d3b3ce),
(0xfb69718cbaf0c5f8e20ca98c2fdb18f559df27e5c2a064fdffb2785a73bf27d6, 0xb612c5904e0b1c547beb4e0782ad271684eb895a862b59b5cf6476b80af52107),
(0x9fe6e793ed1aed77d838135284890e3cf817ca6037ee80df6646a3ce9c316a6b, 0x17214a0199370a8841717ae5041d35a496f8f041e9b3fe884188f6f4e30b0657),
(0xc7f7ab4a394f17c847010e9df1764fae6159b140578f70c9fe50703baaba62cc, 0x9673f262c875953b90558dec8ddd04a26d7d3ac1672e3d10c1a3c656b0318c19),
(0xcc2e30bc2d63d4d2bd0f5bca8faac99ea6add12382d014c1d7bf82857ede2297, 0xcb87a21cf1efe789fe72ca0ab6acc5be063e69732ca899e6fb9e05e772d4d8ff),
(0x6fe7070da78205ea1f12661b4538d0fb060b4bb49c1709c9e53de22ec3c25d6b, 0x2f6b773d492a82f7f9609cbee1af3c9b2940a12f1e615c1a801c02b219e6b8cb),
(0x1affe9daab5da7f79b331e9f91eb7e3a0f4dad512317ca453ae1352866013d8f, 0x2706d2aad313909773a0febc191c7a0adf2ef168c65e759d7c034bac49c8a92b),
(0x13566dd2d0cdb199020a1f9caa1ab581c3ddf2ad125c13cfefe199d5bc338231, 0xb403ab04067df46b2efa5b8a04cfa8bd97399c8712ffc55ecae8de52d4f6f28c),
(0x135fae699a969720b1c0d899790afa9983074584da3ee8dc1e011336dbc3636e, 0xb4260b882dc794238cd0fbe65242147bc96690dac391e3cfd2c53ecd2ae9fc60),
(0x01b05d97744364a05432de4a7d8408343ffe211fa543bccf71a4b21003bb0489, 0xd61c9d21671b2481a4ca0c367d4ea919ae1b331fa8aedb87cc6b6c9885616a9a),
(0x2877f02683a5cb487014da9d419c8b9c920f0940718e2d06d7252de55b46a84d, 0x849f9fb288d3fdeede734aaa3592ef01483e02d362a5e0ca2ead6c0b42628038),
(0x8a7024ce6348d2fd84be71abb363bdb886ec6a2d29d9cd831934270a27370b78, 0x8f5209729e4e1325363a68f4ad53737b688c63dd1cec6cfcbf9da51a098b29c0),
(0x5ac77dfb2309c0618f68b320bb6eb76e4b0f0792b8235fc1ed768c5744fabb1d, 0xfab11baabeafeab443a14a82f8d70228577527327b016b5632b924c9ccbb1db6),
(0x0aee4edc93413d5345e0df6899fc2193be318a8bf279f0e056c0ac42a60759d2, 0xb6a874991dc68ba8503beb0b8a6c09dfcb9efb6ba44aed6a3cd7befb506119b9),
(0xb51d3e77741d0d443a67b5d567b45aac2008c25b5196c71dc9f910e7b76dd2d1, 0x431c7ea3cf4f577f950d22e274b7cfdf2c2934afad0215f9459a802dddee4c21),
(0x0803a2ffc59c2a9465d8935d93d4765386e5beb90c8e702a12d7b56598a09841, 0xd5e02ccc5d8ccf6e29a7fb765a257dc9c902c900a4fe16d153e9187e290efbeb),
(0x22c1772544eef5145636a39823e874df8c58bc6b6935598a440ae9aa5b738075, 0xa67f431c688d4426c519be329b1dd50e02c6464804d3612f35d52089c98dbcfd),
(0xed67feaa5aab50a9ff71c434855bafb05191f036c691c8c500563395d2053b86, 0xb2d13cb64ea821dff8829ee157cb5fca81dcce75d091719c73cc7785c443f0a8),
(0xf8cc5ae203b670b93c27ab8c7d8055c84654b427f9e6b733b083feccc7c5d375, 0x007dc9967bc3a2f2f516aab3682f8d6a32b84173ecc742d5c8a15c5c72eb261b),
(0x838891a1fa46e300a20fa3d0cba3fe093326ffd7bcdd7c730b6e96da5d591332, 0xd46717e2c5fa3d52a268aa9ea85922e4547ea9863a37b1aeb77d75b0d48a8fea),
(0x92caeb7f0400d0436d36656c8ffd5d456097cb51cf512c0001fe613e8dcd5544, 0x2096bc03dfd088ca25cb9aef29b24b992b2aa00be3429cadc0976a3f162e47e2),
(0x02e6226d574b687c20dcd4a9683697f8afce56a31e11cdef6f0ba6f0dceb89b4, 0xd9c4d7a7a7aa5f8bf30f0930d6c3bbddb1963b1d8cf24796141bddb1ba8ffcf7),
(0x33aab3f417d936deb8c1f07a9fd5024f802fa5b3a593a6b09fd4287175f4ee7d, 0x4c13dc957311dfaf932eb4cc68c825503b18553013008dc6878dd09250edca9c),
(0xed74a882a947da53fd62a242b67dcd0450896a43e9882c84ada77f47691e5fc4, 0x0454a18fa8fc6d8de673410b213875ee351902219f7cf88ef363be08571030d8),
(0xb5d3f08456db930a7d8b47282caaf807be7bca65bddf973867a5622439723ebd, 0xa89e027128d5872af4d6b4d7c5a7efa3b0339a3289a129182077c106b61e1a4a),
(0x5e40e90c1a01e008d5fde186283919efeb859921c3ec07cae34eedc2b0f07967, 0xe4be6ef426eb3c9470ee3084f431c68d82b2df4805286082082cc1b2afe77900),
(0x2f4b14a2674a743a4aefd3027fb214f1a76783363c9e7c8f8ebee72dc5f29830, 0x11b13461b6578710677bc7333d28e773c78dec4b27ca1aaca17121b0de9868e6),
(0x7190916235890bbe6a8f7a9905b1cc3ca68b3ff907551d0959a978355b7167c7, 0xf9aa3992124fa99f167f1351865a14568ed9eb92c7cb20505082d2284b1532de),
(0x8df50d7dd3cf99c7b0269ae5e70546ddbed3f05e260bd8340575d56e0e65f7f0, 0x835405bf3c84c4ba5e253feff306bd1c0c1240ef8c03da98d7c092db3a2606ca),
(0x5e0f6a7ce9bc1e0b852841ad52045b02b4fd545bf2106c8217a76bcb441173ee, 0xad70f0654d75c88fe6654d56fe65c57b857d91e80ad6abff148f35777afa2aa7),
(0x27880a2521a78fcacddd0b785a3da1f42e8326418f804a2a42fe3c0ef69b43b7, 0x0ac9f93012402aadc55c12bd0e450700b0208d85a6784586d04f1c936df8624a),
(0x6578c4a0dc25e06897482b123f38cef339cfd6b2ec06c89f6da11449de5e43a5, 0x8a249d9a41e6c1a5a776ddfdea93ba7815f2e908b8b854c23a7e3ff2cb99bf70),
(0xc66e890a71beeba3301bbbef2bcf4cdddef8e634dcf476f46907a280df3dd33e, 0xf3510cb89c46f493c4a7097634a9c50211532929ddc883abd43bd3601b028dff),
(0x393f0dcd24b473808119779458bf5e48b2f5479c8efd8925a1f78bef6bd16665, 0x9898d880e24f840ff1b4662d3d444c296527cfe82b6f1b4ff0e5928cbf09de74),
(0x337fc46943942ce4f1601877874366fca8726f4a65a9bb26c6c2c013856a3adb, 0x95df242b2d4446deb2b792a4d36ceb2cadd17365380d78c63b23b1011b3be914),
(0xb7edfbe5118cfeb14c1aa23b48154dbf5e9d1057a27585167fb8e0300a457874, 0xbc1e5723dabdfd76c98f408d1d8c13e57dee979e83b3d610981b9718f1e61eee),
(0x4dffac466a507b9c2e2ee5b6ca81d8e4d4e8aae63d73395bdd29b02451436e5b, 0xaf227fa8ad0bfc48eb469596b9b2759bf41eb1691fb8f89601451489ebe0d5d7),
(0x0553ab9903448879b42c72e297d597a624416a45f5b35720c93a303bc6dd0e88, 0x5ba2d3fb222a03ddc5302b25ffce74cd58de90a1c3e4192819717c2852ad1b39),
(0xb351ad4e4c7df8538f6f71d4e95554ca3a07932e7a812309b0b0c807f98cea2a, 0x5ba5141db3d4ff447efe06c9c624d4471aa3c3f347af74af49929de8d8558c70),
(0x844b9bc0ae73df50e5b80fe2fb24a35cdbc91c612753c2e8e3765e1e47d44263, 0x80eeb80c414c3a08a42d89b887883d4884b38bd140f7bbeee977ff5bc4c57b90),
(0xf64b4ef68fc1149138ed4ef8ab2d63363d494b37b56649d15d15777a8cd315b9, 0xc6f830105dcfc707f435cfa0b6bc32f38ce8afb628bf9139dfc47279cafa56a5),
(0x969ceb7a441f8be1f16c94bd6065db17942f88dde55067427cd30deecf9ba5c7, 0xa08ae62c6e6758f9724baa45d35f3e039f636265d841b61af1b31d20bc8d65f8),
(0xe465041b78c33311d4397b309a8ba4de6b312d10ec2ca906583162ca1c599102, 0x3f21d5d4416f19547af1ba976687dea3520ac30443c180ad3892d46b86618f55),
(0x87b2e548b019224fb1021a06522073dd46892847308fffe9910ffc285b702bd0, 0x6e641d359e7ff12b20123b72f0e5ef16338c341838c2f4ea06dab94c7c3f6940),
(0xf832d7b3590a59d7ec2c8a637ca0347a893fe4614eaba0978707c3538296ee14, 0x3fb3e8454624fe35326062b4a6f30c85f0e7101ba35324557687812e0412233e),
(0x52aff21ffe1819f37f8b5974ab0043936e99d8cd8342b7bbad46d3335e4d6651, 0x66d79c3cc7d08828d8646e4a6a44853b4a49df0e85c95e85d9c995c2d09b427c),
(0xaae627788069bcdb0fc91bdb946cedab63896817575a471b315a47ccd567c678, 0xf254c548832d95f84f20215eca4805fe356e806d9b3b73387dd36e85214b70bf),
(0xfc15d494b6580e0de1c769c395c5d047202e8d07ba94bd1af96064b8d1a4bfbc, 0xf9327fc875319184c1876748bdbbdd3cbfee8baabf46844baf465d4eec6be335),
(0xaacec857fa4bc62c82790a4a496206f2d79a31dde17d2db2d99619d8c3d880d9, 0x6dd1e4a2adc502ac150293d942a1cbeaa576da49f1de7d15de70bd67d95c5fb0),
(0xc7ba3155bf34fb9a2441832a027396e1998365579c9cb85644c3ace29ade66bc, 0xafccc814243a1fa1345fa46fee4b419096082bf07866fa8a2a887d84d24192f4),
(0xcf7a05253bee95d7711d8f7b7b301f5d8036a487a55e3860900b25b1c4599115, 0xe8a4a9be7b9cf99a5dcb4db98249350b7a71a12fa95826200eda5a351a8a0484),
(0xa43362486b999ad1623c4c320c79ebb34e8d6f3b484f808b9a088ffb2885a11c, 0xedf8eef974d3e5ae2a991a286323597f05a161f92eeb9256207be548f9b38d16),
(0xd3cdbd988cefc8ac3a44258751364a10649243a8d4a63927f4fa3b10b1a7dcc8, 0xf10e26c811f4a219da4f948c51e8b81bd8bb357a182031cf40ffb464d5f7d7c4)]

/-- secp256k1_pre_g_128[7424..7487], /repo/src/precomputed_ecmult.c:15686-15749 -/
def h14_4 : List (Nat × Nat) := [
(0xfa038534028dd093026977fcda344269fe3c61fe35567eef909a23098e5ceaef, 0xf31c5d309e234b3b44fbb52b8c973aa2bd85afac1f9f0798788721a9380d8606),
(0x0718c2bc26dba98f24f34af518e188705510c0a74e228cd69d4e39d8a00a577f, 0xc41d0d818f0932465675a3260d0615b0294b8455909af0c6e557195e11225152),
(0x378ade510463d9491ed22ab1834cd7bd6b99a12352c65e1870d5005be97e602f, 0x76469796d7758ba4b3bed1eb9f8389a22a421f5a20f8df7172821a8a0508e4c1),
(0x40bd7df91255680bb50d3d08fead68155f80775987e9cf8015e6359c9f138b8b, 0xec0417d42eb1ab50a469a853edc65ca52fe00ee753b30b9c56536e3b36144e8a),
(0xf01b30bb985dfb537bb4cd6218cb0b00b5a772154d84a802008a4969260d963f, 0x3cf483dfd6b58eb846e8ba1b0f06c2e96784255a02afbf68613f39f144b82417),
(0x2392d86a1bf9a63638eaa5dd76a7c6c9eabd50bc9f2ba568183c0995f7195900, 0x806cd3daac23f93c3b11cb5da3bc4482ea49ed2b444c6e64dc557e463ac5c033),
(0xb0e7747e0c9496fbaa7798dbe616fa425b0b7acb7409265dc989b8e920087133, 0x32fa615ed0286b64b83cbfb1e8c4b133855276554807140189f42d93330491e1),
(0x8d1342f42f6dc3cb9bb741c19daa08e225fb6352ffe860e176a26fdaa0601624, 0x82d35ed757cb6f3181af31fc36f538170191fb9bc9338a973757d0bf50d79d77),
(0xad09dcc1d3ebbbd6ecd7be450d7eec5def7438512ce076e3cfc4f8b9449a2ccb, 0x26bde63ae1f7fbd846260a64372d015afd3d5ae6125dd801523a94fc8421d04f),
(0x128f5199068435c1a27591a32edff533d12a725cf0c7e121260cbb74925cc292, 0xdd8945f742f1d01392152dbd01e4dd8e53277da8bab68acd8c7c8d73f5d7e190),
(0x118c1167196e8eace519d83d17ae1e3036ff1fa0cbd1cc5841cc3763d1d8a931, 0x0eea348d54f47b73d5d8c2b47eb7604b53beb345c82ceca34f8639e145b2e3b2),
(0x81ee4bba6a84edb183e1f2b75103e4532ba9613ab612e0f127009ee707be3bfb, 0x00e58208d152059b73b42039e0a7a489df067fab1d1c2c049eed00cf893f4847),
(0x494a821f6f4b2d757e5be34cfb9949bab92715993e060005dd807c83adf04f2f, 0x8ab15e9f0c37d3683586a1edef9ddc598dae7206499cf53c31a8cc4bd7ba15e0),
(0x3749271ada87c292724a3ad72861a7df09757e313c3156a172cd3735608c865a, 0xaeffa1c1aaab4f093998b4efe046aaf0f404d590d6cd762f1aea57451f8aa3f5),
(0x103c8721321ddfbbcc3ef6af1ea8fab13de6aca0294dbc793a1e4216563dc1f5, 0xfe9cca2db459596c462fb268a811588016c2894ee8839caa362e4813e8e827cf),
(0xddbfc6556aff403b10a643fbf62a60ed656baa39b10febe692140bf67b78f2f9, 0x1cd4169ecc8ac589de57b5a6e02e03dff3cc7bb345993d5c04ea57e6852a8417),
(0xd025f5833e51a9c6a1c785c51c5795285af0c297c0fdb82af555fd59088dbb28, 0x5170614c110f31ced88424fc7d569f4ee93d5017a8c676afc7261ed3340d22ef),
(0x3f349cbd08ebac9ec570b0ca29fe8ce8dbd98eba103f131d0daaf1934fe78516, 0xec9641f3175ed56bd0c8f26d188f9fa4b38d069fcef8f4cf71acf66f1ef7dbc9),
(0x7624599c61e71532a177e838ba92d7895160e43fad798fe29170e6d9bbcc11ce, 0x409e8cbf6aea70b821533902150148a07e45dd61c9c8d24ab8cc3da3f03c49a3),
(0x8a1e1b473c699deaaa418ba285cf746751af1cb08bf78228932dc6ed845403f4, 0x1bd300a207a9a8da6ed2bce373b9d39e661d02bdb460574020934bc6abf3c483),
(0xeeb91c38d9b834bb5e3945b09655b98896efff111e3dde8cadd6ef2c7ea51b09, 0x0899d84124f83b43e2ea82ad3a6411dccf36fa8617bdab35d83829d1456c56be),
(0x46360f698c0233756f05096960b3defc2a1897dd44e0e159d185ac043315ef47, 0xec02a6d3828246f0684d205923ba73ee10cc88c9575fc0056271fb8c67e0a4a0),
(0x16e5cccc0b410c20e8de1e76e5b7164964cabc26f629f8be36eff4da66f875ad, 0xa80de48e0e079d9cbac312e070f10d6ffb875c907dd3ff57c9bf8b9057c0fe14),
(0x0c315230c8ee5bd8429efc06bd089f495f4c5a1e2fb188bd81e41bfb85acc82f, 0x71430e8ecee9c6f5eb91eb1420e07b5d736217e54bc25cac9767a749a477599b),
(0x7731eb8c1684092ad9d2ec69b50339d119436082c91163668ce2bda7ee80c0c9, 0xe6636efc22a4c339f8100deaa227a70942d182228cc58d13ae4d613ca879de8d),
(0x02c1c2004a5f04c0b83d143fede8175567d4d54eb2dc4ffbde00b83d9802f68b, 0xb3e2e43430d409cd26490c1c818b24edb10e835bd629242245c529f76e299159),
(0x2d984bc6a2031a3e1a57d0aed13d798dfab45382d29e4a7e8e029fdf2a9d95c2, 0xb169c34f09932f028320ed874a74da8b5cba81bdf20a9454feb315fea0926720),
(0xf61abddaf7673f7574e966f1c77096c77f6e8659746e45e72c9fbf3d5e0db5f6, 0x1717dd6f86edd17ab242212c91878ef89ff1b865b32b4e24cfdab7dede90937f),
(0xa68f5871bfbce14a1097eced68a9e906c94599cfb6dd4176ef946fa7e5552c3b, 0xcbc07a0886faa82e0d231eb0739a24e362a717ed30b0512b96ac8dd956ab05f2),
(0x520350761af3e7866090610536a2ced006f8209da0eb2757cba705a3467ccbe2, 0x7a01b9445f63cf43cba95191262b1b530ae0af9b4b172b783970f84ff8ace09c),
(0xbc8f15379d4b9862a437065b10f6c28c8c3323f451f2847c63251000c9f144d6, 0x894826ed61d85e9058c00e74cc731dd5d62684b1ca996c07ab176df0e4b951f7),
(0x536b0cb50081dbf60ab3b36464a397d72a513bd8a7bb823770a725d22eb12a98, 0x85bc95fe6e160f2f9a31b7e274c0902390cb2f4a22f15ac33d0ee72ab666f5bb),
(0x267840eae2f49fe89889bac740eb797eee42f922c1821a66163a580aa0df90d0, 0x2c7fe7f34e06f09da1a2b1ba79906a0b18c3d51bd9b6011f688c69e901504a00),
(0xd8fd79cf06beed8cfa57bedcca06e367e0667e9da057222b81fba682979808ec, 0x39cab6139cef186a248562d4fa581384d6c81de5a0f7fc49140d0822f6126034),
(0x601407de9ecff4d0836228aeeeaa612f2b659706576e2eca74bc32a1d3d14b7b, 0x6cfde6942f0e44951e25ff022f2501e67101828f8088c7bca8ef2b2588036ec3),
(0x0f518c5cbc0e854148c402530d500a2d1ea1d25fd31dc777d6365050d3b26804, 0x8dcc63782b1ce6fb9f15c8fb70c5fd0e53e4d80acf38261f49a558e1de637b6b),
(0x16a9bcff334e35e280258378b2e25d9a56ce58c30b3426bdda82978f370ee6f6, 0xc7b6656ebaa3864ebfbc5294fe9836a99fdc095dceac6a32642e6911a6f3e933),
(0x9d940fce5ecdc65930c945db7151b823a9259d0a2a3991c9f71e8b00bbe35d4f, 0x032f533dd96f2e3602109a9648ef55b2e588738780de97adc7974227b23fe647),
(0x19e973f769c2d02a8bed34ddb75918285036e72422227a81850f3d313128f586, 0xf2f5fab4fe79c177752ee60bcd85e625e459b50ede702010a6fbcbd15b31aa6f),
(0xff07bc26473271d64371a4d29b59f858b1b01e40472bb4e01769ed2b66bf2097, 0x3eba7660492ae09a0abd7bb8c5d80e3344539ab7276edfd5b599b02f27c60b8a),
(0x175f786c93d89acb8959d846934c21df5dc4f6cea9c1e150e7da469fd27e6605, 0x343366e57f5b9f7a407cd5667ef1f0f2464a293861fd5f2cb0363a5bdc9c2f9a),
(0xa9027f8eb662a7e0d70aa1acd3e0b9bad4e0bd8e8bf8c88340b0a7f5cbafa761, 0x2f9dfc2c57bfd835271d63ace3cecdfef6e19e0afc19ac0f71ef9ec27fac30e3),
(0x677daf40728a6c8906804ed301df283e19b41c2d36a3a98fd4b93fa606699983, 0x1affbe573a56187237dafd1bbdcaa594e499b2986af58591c6a2ea3a2016c039),
(0x1105aff4d4761b7768db74cad9fc7aa014c5417ede1fe641ed1dcdb19b5a3690, 0xbfabb1aa76906ada4a1ea463f4caff44a41afa71b82e2457d2756ddd14946ff0),
(0x3221d03316be670be05ecc948b537ca79318eb65f93ab3e732e7f36cbd06249e, 0x92f7b5c985ba3fd87b14a09374d4ef94130d3642517369e8f9de5fa1c8ccb803),
(0xac10037cad83fcbe6aa7acf2003043ed831dcdb566921f16246488de6e012fc8, 0xd530eaa8ebe1d47c8e57892d9301c4a429b223b27344e433f2bf77c4d9a20205),
(0xb3ea670bf5001657913d5d49ee1005ea65fdd33c4ad81987efa0331db29a3e53, 0x6d758db6df4275e3fc148e916536505f6393daef0c54c3b0b708e0d08de3f1bc),
(0x042762d8bf60f678924b7cf54e8c513bfa1223cf98e124d918d88cd9a54c8d88, 0x96be42a1f0dadc8464a3522de13f10ad03272505f7d4fc54e6dc1a33ef6b2eed),
(0x7b9e0117167c51edc3f7d2b9edb61bde0aa90efd88349510c4b1cf1a43a9ae6e, 0xc43e0d1d08a673cb1f0d9d1ae3a4c985bd47a0682528ac366797688101ead7a4),
(0x1e807fdfc69acac4ba5be7fc9c617005d34ff896dae25e6c428abb963255239e, 0x7db7d6e88bf3b869fe4f7c1165d85faf55bd677f5670ebdd89d2f8b9f56d972c),
(0x9aadd434753841900a6289f232cc6491fb7a1d86b04ae9ea94dfd2c8449c3961, 0xfc4919073ffe94d13b945382eb9c482e9da5a764d9aa1d1cc3d973aa5edcd3f3),
(0x5012b7eb0481fd85db13c3fe02bdd06a720eb4c9805193d2b99b4bf739802f26, 0xdb8555d7e2cc1858219205643c288352220861611a611dcbd1e985187c46cd4e),
(0x78f9e5ba910712705160654e2393cd7385e4681f8efb4a45cdce5ef3d73cc7b1, 0x24c4512f911101c9d3a4fe24b746858536cb81370e13578e95cc016b96d86e20),
(0x91a7d9274de2c0fe84a10579891ea8cdf87fcf5ba09394114612efd46bb9f826, 0xd5a5e5110b85436b89e46211ec69dfa8d0ee87eb7c0daa3124d48462010e6c40),
(0x3940b4e94626f86d4592b96a4f27f874c37c6cbf005940de37dafc1f35350b69, 0xecc6176c43df3f71cbf0160b697afeec1a9a0d695ebdb7bc34b0efe92cc68b39),
(0x76e7ab548c63ee6a30c736ff11762061283af0e55a7dbbd223fe467b85c95d8b, 0xf266c922fc5e61f165bf521c33235e05113140db6a481b0ee4f9976d2696fdce),
(0xecdc2e5db8d5028f0f93de09c9f5a6b3c439b14b3c322c5394622a1380f04067, 0xe70df9f2bf6b0a359029f9375e74aa934014e78de68e29b09d96da055ff78112),
(0xccfe93dbde087d5b9194b28699243dc091d4dd5d7189a5e0d56213119dee9a94, 0x2b0a0a20cfef0c73addd2dc6d9b4ba7e09e44f2c26d9f3768ef90241b2d907da),
(0x4e82a200e64f5b3b3e473e50e437c224e21bf875ec8ac3647e599ba784f02574, 0xff696d9d2d9cc0be217394da85201a1d208e43099b9372a819f6d06988839c0a),
(0xa292e1056f3f0a1ee816a49f51ef4760913243162e3c734e802550a2c942c17f, 0x479a2e957a05a6861c08df3b221ed2c65d192181189269fe09ef42a8e71fd6ef),
(0x47279a828311aa4cb6138c9bccb2fc6cc4b9d27e2e33438901773fc1ee09f461, 0x2480a805496e8bd3e02b36cf8081bc5a254f821e40c0ef48291ecbb16699a10b),
(0xb903b4f82126fe06449766435f0982f4394db57f0b47340109536740595562fc, 0xe8c97572bfae91fd61cfee633b24bece0e587291f65a6affb71c6a3b615e1361),
(0x16b9e3ebeadf469d368ab368431afb79214bc7285df165e6c3bf98a4701b05a5, 0x26e74ff064cf5de9ec3d084f8d75337dc04918ebf783c65e0b50b948d48eb003),
(0x4927fd2bc17b92c13b3ca52e759324ca353e8505ba81ac249003091d1cebbfa9, 0x95a6c16dc4c52f202883ab4ca9c050c2b2849b71e19e0df08ff495cdf62d73ac)]

/-- secp256k1_pre_g_128[7488..7551], /repo/src/precomputed_ecmult.c:15750-15813 -/
def h14_5 : List (Nat × Nat) := [
(0x070c503d00093e4710262c8bb1630409979b673a79ad08b08d855365f51ffcaa, 0x2ad207aa5fe0514495baf3f0b0807efbd10265f05de63d6b563e4ac5e70b89ff),
(0xcf59864232972f7aa6cf12cedc5aa95d4bd0f96e38ed546b9ba9040ae25a9e6e, 0x67f2f83af5f09b52caed83e51b9d6de058a6e9b896d1a6edd7ab4d4030332027),
(0x617b9e5a8d0b8c44b186aa60281cee51dc224e2c9e1c4f07c342a18078b271f0, 0xb64d8d5fbc2907bf90b983cba6126586dbb7e7f3d95993e22bc1b8f89472d200),
(0xd52e0c90c69cd94e3c849ea7dbba79d86aed2a3e3ca3f106d2baa2a359c50534, 0x36c8390cfe400769fd2b2fe1b6af62d07fbd667cfcd9a132b6b4f974a7e454f7),
(0xea474a0136d16bc2fae6f5689ea3c035aa6580e6b238f42fe2ab19be81330a46, 0xd09379ceaa89765e1164f4384b0f0ef0c1e8be86427c7455af98e4b5c9ee8145),
(0x4e5dd22cb6a4b20597f71375cc49ee10ba6b82cfb06cf065a25d6f5dbef51d70, 0xd4ff2ed055279f96344dc16e010e341040378ff8b8d912c3a17cbfb070588cf0),
(0x774587f7f3038136131fa9ebf1eb34079e473a8bb9e5acb7317ff5c917447878, 0x9d3779a12b067b00d2a2a3e946f8078be6279024d94c83c628c0cd48145f510e),
(0xab807569d1a3630ce5447b36c205e601a6a230694d2c078619d9b97ce0ba6611, 0x2b9eef15054f8ee60e11af6b6a1d045ed47b8821ec84c6da366afe102730e9ea),
(0x91602928ed3cea8f4faa254c28962b68c44376023076a5c16bad95ff3e328049, 0x764faf562d8de3c189b7fef762012be800112db4a320169295c7e76dfcbd3be9),
(0x6c1ecc2a258a44b1ca1d964bc86c560049fdfd98b362c35e3c830647cf1266d4, 0x1f9d3edf5e0e8550e4534c335b07d73119c49c4e29397f6a938fc1bcebf8fcef),
(0xe176821a4006b429999de3a4ada09166f6e5deaaf09fa61360bd3733db8f7084, 0x7d07d1a5390325d027b05e18d90e7659f5ef4c8cc7c6dd000c7a54274ec91842),
(0x2ae0b70e535368938a7faee5da5d8dbee5af487332caf51d7bade79feea50df2, 0xe70be2e8c8110c31c3eb5e3631dc5a5ebebeb184e6b9f081bb7236ddcadf903a),
(0x1c686fcbd7a751b2d420614b56d37c8f81c9a600335fa911835dad8a7c663e24, 0x4fe2eeae7ea1b639b893329aa65bbfcdb9fd8f0728614bd86a5b0712076aa576),
(0xb369d7e5c31c9a56f480b44b003354be084145c397dbed68d87a4c3cbe31dc5c, 0x5080069017d3147359bab021c876d152c17ea8e8b5c957620c749a2d29adf3cb),
(0x522d3ac342a0ff3a9a8eb5ba54ed4dadfbcdb48f53bc6e1f2c0c12a561cb1e9d, 0x32ed883e1e1f562a50063d7945075ad99ab55ba6fdff0d589d2b4a4d10df82fa),
(0x7d0018037b722a7a17d74696fed9bbb50f3d5f6fd8a623b69c952a2ef2be939e, 0x81ee30e6deb893d6274c4b468533d84538073ed868b101e9515ebd8470e368de),
(0xc76b074bb228dc241dc9b70475fcc52da3f3bf0a5e954910ca4e6f16bd298983, 0x4fcc807b4c1e37cb6a6c42dab939a7bb6f1d5ec287320d74408622faece22266),
(0x8497f26799c7f52583c620f6e284a9a0351305569d7caa1af118de41c51b05e4, 0x3b861f5616ce6234c684727316bfa62907cac9d5ff562f6624b26146413960d1),
(0xddb10ff0a217ab76241a587a8cd46cdfce6ff5aee39d2d857f47eeb76d2bd68e, 0xa4110196fd0813ea19846dc712537cb68faf933319e7e49b0553e523f07b004f),
(0x47eb53da455cbbb9a8330e12e0210d80cc565661348fec72529390e2a75b812e, 0x088e4a8f91ada18705734dcf42b85e2ba3f5fc531f1c1df1300c3d5fe811fb70),
(0xeb0a890342fb2710a4c7811e78384918dedea7a29bb7da46e49211bd95da1426, 0x8d69a88bd85e2edcd8264cb6c44d82181ce8946a818c9d4a6f757bf85817ac56),
(0xd400c8ef655d38790579ba4c488c3e55af5af95c1701bd15482b25499334906d, 0xe7bafda25a9f59346bcec6e2a9408f18e81b76f97a9d721f496c27f642725e5c),
(0xbae81c3d1772e10466625f8bef08d4a45f07892c72bcee050fb7e3822a6261fc, 0x4ce5f14f74f28b0334a6cc64452b90498460493f3b64d9be2ecf98efc0270377),
(0x7f575b9b46bd0f74555a363cd80122c4232e8c530a6624d8e13b5c0674986961, 0xedc0ffd5952fd4d3c752271b7cdfaf3b4cefecd866d722f03da1e97b49aaa080),
(0xa86871d91292f7fa07249ee8e77270fee7bddafd3255b4a1016851ae411293f3, 0xc21ee1b0bd897d82566cf438b66439dd3dfab0ec3c7a4038ccb860393b0b0187),
(0xc320cfdf9cbc65798c8b33c4d97d690b64ae90c9a50706468c8791e91ee4a18a, 0x8f1a295b2a3c8c5c3b5bd8cee3380a04819a86587be87d0373a0194cfafac74b),
(0x0169a1b4f2eacec2be263ced2e0576b4ae77b863525b2a9ff8fc05d2c07a8fc4, 0x7703f867d997a2cabb697f87b97ea98678777183aea8141701dd09460309e77c),
(0x218de686ed51588b1307d8b654f7f6fce673cb37553d23b7b8c23367d6b7ea5f, 0x98325ea9150a100af5d2af492fa25b2340ee96061553c3d7edd4d8705288b8cf),
(0xc7c2e438d12ed0ac063635648bf2899cd1b39b1b200ffeda4ef9cae05d8381e5, 0x93a36085fd09ff08b83d50a83b140edda63e2442e4bf4d1c7ae44963c1646f41),
(0x12e834e5605d6e358cbe550b8fe917dc59194c5866b265cc50b00e3c038fe058, 0x6a44ecf217f468652e0991b7df3b3565444e7e293a2d637861a8f3c15ec1517e),
(0x30f33c39af77735c749fd328e228ed67bd625fbe79dc3b06ab31c173777308fe, 0x29a00f661c998f1dbd62935e447944207ffd7b1c24f638069206e1c65c3d9604),
(0xc5bd81b6b057e68719c47964d55ab9966c7ea99b25c1c2cb50d6fbd9af492358, 0x5a6b13328562599ee87c475a1e7da886c460ec67ad81372a7ed3949841225e5e),
(0x1fd0e7699d931a800dbcfaf146b5cebeb9547f8bb7fa75fdb2bac9aeac0908ab, 0x1177083888607506bad87ba638c9ae26d79a9dc66746816ab9f21d64fea96838),
(0xac14a06a4679e9afb2ea3aea015f2749bc9610a3b576a506f96fa41a76df97de, 0x5aafae085b8a0a7d48ebb339f4dec90621bf5162dcb85100eb7524e3a65a4921),
(0xad58307413a4eba9ceecba6bc568bfbb30566031c06e8e975c5d992b9ed2bd33, 0xc2bda9bfd5c87e0f0a663a4034162dcb29b61800c1dcf02ac11fe61525af1772),
(0x5a8bd45d6fd468dd41ecafd5aa0722276d0176be81b92061b4277b7332acfaab, 0x878a8d5f7903d74f6abe28f8d94d476703698a7e6acbc32d9e92f9d6bf31c2d5),
(0x6690c9c1d9666be456d3540a6a2ed706372256f0432654787b54e56df28df74a, 0x007ad59123772578999c90c124704c13a7193b6264240aef63d12d88340762a4),
(0x3c051303c113779a6137f46d38d1175d8778e4608b1e0abbf7bc453980b64a2f, 0x9d4d04a0ad1c772b4a523c130cc48990c733eb87993cdbaf61dbf75c4f6a96c2),
(0x1fdff50366319168f5dc381e8085ac92223b3484a8b362c226d1f00c976f9f04, 0x5cb328e856aaeb0562017bf865da44b294ad7404df11e1178426b79c25a49fa6),
(0x0ae83da752ec2098a4a593acf99dd58fcd48da14361feaae6cd992d396b4fd8e, 0x6dc92b41f1e1474ba259e96bec4f2b36108745b9a500ad9aedd9c82804c3d129),
(0xc0f86e7a6c0fee54a2f73d2b6b1522e9fee994cbd5089886d98a4748161811d7, 0x4aea0b922441c184c347243e5ad5a064ba00768d052d7153a5e0838ff497d551),
(0x8e5b23f885d683a6a6a657edd2d2f4031320d4c083340126d2958dc24c5f5ba2, 0x25c6db80477f37e0ed6c6e3cc96b1c7cf9a7ca168e940e8a0b2946c73b02e61f),
(0x6672b4dbbb16c6722592c2397d9ea25ef081d48daeb42c89ae6c42bbaf09b3c5, 0xa3778252e239ae3af64e3b917f6461814f71753db4bc958cb5bcd3ba4b5b1a4e),
(0x0e0af1a1b894fe1c1f7de8141a393a3fb12b31e3fcbd8f2a356e61f4402d76d0, 0x37913973b4de9a2d23f4f795709fe8258eee8aeeafec599683d924e721fb9b0e),
(0x94355dd30c3d73a1cabdbe7a295cb015335a5a79dd30171810c245b3d0c840ff, 0x31e96abe22a1603356681d3e0e5e8330628d8090bfdcb92579074cb682845475),
(0xfc340c8d1e3e28491470dfcd1c2fb445e807e1a39c525ce8141b292c596d2e36, 0x738e721307580eb3615b7eed9b069cd20b6444470024696a7cd222577a931464),
(0x0c0c4e0361d923fc4201872a1ff525c61697412a7bea7a92596e9204f1af90c3, 0x25c4c2c6d6593ef7ff5f04faa5b0b2ca736ab33f5c36dc63433821b5382fc4b2),
(0x81afd4a8d666b97fdcdf0d360f2dfdf7bf7c332269728b7526dcb3aadf51365c, 0xb7fe76532c8d48fb8c3d038268d57839edf80cb5732ae3035c1b51c7cb8d3efc),
(0x140b32fa62130c2f1d49e39d015f9c64f5cf54af3a0c65b2298e91e321b9477d, 0xbac2aca4c96d436312107b2d8996875e6772eaeaa507092039c1171b9113b516),
(0x17418ab7046f1eaab98725ab68bca72b9cc645d9cbe0835e4bf91a7b03939b98, 0xdc964031b1292c03117a4ce8b3341e23da54a539fdd3112641706257bb9382b6),
(0x8f0222bb6cbf749112b95780b50077d7be2a27ec5bb6dab4923cf36d3a12618d, 0x8df2a1490abcd27631265890471094ccfe6bd8edb75c23646f7dd54e30c4c6fb),
(0xe39653241c543ba12d0ca0ad88c26aceb265f42a41d2b7d4f252ecf0a48275d0, 0x44467da5187866545722fa1536c187a6f67f2e8f5a424336b0ce8bbca53f9cca),
(0x6a4b614c41c4a6d4ba4f8c5326d08bc4ecbc72cd0d2415c3b7caf285acb07c1d, 0x76dd92d63f85e1dd685faa18283f86672425de4c95a7985acf5f74c27b29b576),
(0xafdd252f82037cb10928d89674f3ff6457b94412b563a4e01a32cf2d1afde412, 0x0d57f319300a6f931155b0b83dd83a5ed2b4a0e05d58786a8024627b73360609),
(0x65adaf884297a0876ec0d433ea82bd5b9e3590c4921fc2efd1fa0b120cc74808, 0x030e4ac977b97c4db7516c02df65de7cd9e8ae086146716c3da4b26beca17033),
(0xeba0dd63c667395a9e9eda3393f5d1018462b9571aae6a09cb723e2da45704e7, 0x8314c56949b7c144197647dabaf857caa164e38562c1cf46bb30e7a7a8dcb680),
(0xd3341d4f1f967f0f010932a5351c6c22c748af0901d547cc2766e6f31a9f570c, 0x9694fb8374177e3d80775206f58b2e1232b87c9a21f060ec1915243545502951),
(0x1596b7178dceadc1b5f3a5de089c089f62506b6e2c6e49a7f1cc4a11e502079f, 0x971575382aba92cd8f009de09dc143c851b0f3ea3106738148a348588c085d49),
(0x138c0bbb17c63e1aa3e65b503c602d8c741788478dc2bcce65b84cfc95f7ec41, 0xbdf88a3e34f69fc2415fb95da4b6d3b7f159651f36a2d4e0b4063e5aee86dafb),
(0x7d99662de627443265ab2842a4ed79be480404b31b847c01c557e277ee073176, 0x0e2ceda2bada9b63ff2fc02244124d3cb83dd4d1f3fb74b2763ecdb646e4cbf0),
(0x9e3f4ea0b1db451b7d713eae358022290fabbbfd6f6d0ab0af7483a537992e63, 0xa902319910301c3d78933143b54e87d41419524b16c9c00c5550fafde6be8b65),
(0x108c8cda0d6ffc3db0863a6643f0a4bbefcdb0c7202f630ff971a7cedec3ff40, 0x847ab4b98fba1fbd15f6bb2a4b3d1038726c2d66f4c9b8e9f740af8f5067d95f),
(0x05258a6a7c85d4f3e650f0e51e2d82548a768c0af276da5527ab00506e97e710, 0xe5605a1431c8941e4f2aa3c79ab94e3fffed156eba2159a27fde377ee2ea7e26),
(0xc40820e7f46acad25bffcc6d0745aa3e7036f26ab6ae85f0e3cb8f95029dc3f3, 0x6ddf921788249ac76ac2c9b01dc5e62e91587d15c76fe26d6d7c3b2ffeaf3b12)]

/-- secp256k1_pre_g_128[7552..7615], /repo/src/precomputed_ecmult.c:15814-15877 -/
def h14_6 : List (Nat × Nat) := [
(0xc135f50f0160d04e43148abfd76509c4e55aadc7554e4ea5823e013ea0490da7, 0xf9a597a6b26a1485a7d5a91d0486d099093de9a46484edc872f8f4be710aae69),
(0x484be5a8b903230f991c311838d3ebdd9759f5cb11a9d0a39bb11a0303924268, 0x18f80a36a3d70e675bd65253a1ad3e40a3152d55c114131557f8585e315ba462),
(0xaf67562e998a403277fc5827cf222258cb2f23a74dcd0d4b315564c3eb66da9c, 0xdd5bf89ec9b2c1786adea201d36f3a66771b3f2acfba7acbc30024fbfa73ad6f),
(0x038dd6cd475f2808938d92be8ad0c955f3cf3255c3602b993c177e06553af411, 0x1abcdd020d82cc0f680362bbf898bf89304d681b6bc3afcf65454ab508d44214),
(0xee37f0ab3db1f9b32da0031d48f537663530b68af47bdb87679426b0d90fa6d5, 0x6cdb12d8136fc9c62f025cbe7882ef214e7b09dc9fba4cf9b021c4d6610c0397),
(0x670684ddfcc19f150ba9201bca36d14347dabf31bad07e8d068e6fbd2630a98e, 0x77bd28ffa969973701304d4f82d29d1fa69dc1236f2ee438cffe3f2d358ce706),
(0x1654f44778026345064e3608bb29004a812ea39ad96830f666a92f5c54a79359, 0x11d919623f81fda036d2d021607d9750cbd3035983c4f47a21fc8116ca93cbe9),
(0xccf0a89d429a02747b000326d62825ec6978f24e8f92f490e8cab1abff90bfa1, 0x5f047694375222bd5968dbcfa331db7385b4df2572791c5342c624673d84400d),
(0x45d3670032ab11c70897d64867ed4d03a9504461bf28f3df7e1276fe4c1de796, 0x67e837fb371088442338086ad1506453ed1f37fffb14e61793908c7c2a8e6fa4),
(0x9af3b6e1627a2ffbc18ddf33b668fecebbe7ebe0986df82f1b2fdfa156dbc565, 0x55e9562e882f66291eae4c6b05a82b0bb5bc2cb2b8f884bc3e45a126aeee19e0),
(0xecfe9d5ed3b9fe15c320e05c7e0f3b1a5fdaa9a45e1ff99f88012642a5d45b4a, 0xb3cc1fd0e0117151f53ec671e1d207ad5f2b07558956cf282be5228ddb5d48bb),
(0x6e4823266ef64478dfa30c6cf3a951f9fd9d3108dbe80e5d3cbf221770f5483c, 0x97a3f599906b1738372212da80309562d3d4179dd2abc2b641ef2f4e6561095e),
(0x3de89149f6c939cc5419e4baf0baa93a390f01a34ad0fb7b3b170e5460a380c6, 0xe9a077581c4617c0b996ae3fb250b723874b66fb85a6d826cc5826e5bb068491),
(0xd4d2819353ace188703643d384622505d9020459a600349e69016cf4faed2e25, 0x9a494bcfe15bcdb097513682ef09890a424d6bc1ad1cb73f123ff5f67babb364),
(0xf694a819fd0f203501193ebac18e2db79c2191912bfcc60b6af8e0672281095a, 0xd80d16521e43f18a4b663898bfce86706f53436da30b06639ee6f99eca87e667),
(0xaf8595b88de7c4597d1d1614ac897de05dd9ff05593dd3b6cbac81ced2e1fb5d, 0xe9dcce9c83ee7217857d5ca5a48bb72069d467b6897be9ac658dfbef3d40e6a6),
(0xdf4177f6a7deccf4c618b710b096bb4eb310e4e2470b57956a6331548ae8123e, 0x03638e205d42ebc67184e567c177f47918fbf9b1e4f69435487b289c35c7fedf),
(0x0ef5048230344ae270ec6d30f4daea23ce7b64bdb101638b5a52ff3d6dbe9fd3, 0xa6eec78fe38a2e6fa9c062bd4ce28ddec5d25fd5a3204281ae30d79d99a2658d),
(0xf89596f3ddd57abe3344080ca6d85d0c492261ca7a698aadae00dafc75615954, 0xf8d7d2eb45dc2b9ea09795508d9da01620b53a19b4150ca636bf0f86ab3dc0dc),
(0xa7c2ffd750b99bde92ac141957d8df2756ca49e93f4c7434b24899f124fb3cc5, 0xa1672adeaadad853047d1440d573e3dc91987d6dce55c67d665402d5f8b0a289),
(0x463f5f25b5c63801a6b1accc6662e6de5256fce737e1c8752b4a880f19ceeee9, 0x858e4a6839eb48a7f1a7de4a514fdb461f4203c265e308d03fb9770f1f8f13e5),
(0x4c99bf3857073c27cc92314cf260dbf9e0f4bb7d1a5ffadda808783d3bb602b8, 0xaa107422ac7dbbbbf6e8064d22a5526a96bcbca99dbaac33c1f35b2fc6df568f),
(0xf682503564438569aa7a5a4be24684538d8bfb88f7e983d5033ebffdf8588520, 0x84ff2ce69d79938dfd910bf025a2fe8de6013c0374784b730168049ec851cf15),
(0x62ea02ca16b2e528002f913a36463494c00df0468afbeb3400cc9573b71577fc, 0x36be98bd2c83e8cfe0fc1aad98ffd9e29ccbad8fa25b9da823de20fbfe91f9b3),
(0xea34600a07591c57d0a7e3510de6e6d002c7222062a980cbbcca8966356a2984, 0x25eccb4fa6102f5260e4c545057aa960b427e372080c35b8edad5f521bc93aca),
(0x5b76cc792e78f17797b32c4692f2eca51ae1b7bea753ce988e58d1166c667027, 0x2e01ba25799e1b9b3416493e3fe9fff2c46e634c2175a30d074584293ea60b5e),
(0x62a52d8cd856262448ce531528213ad006fc6044b6490db7c27b7662bb66f07a, 0xe8f5e0aaaaa65c7c2b51e665f3b3115754ab9fdcac492ee5fbb2a348d8db5376),
(0xa276992a5e155e29d091e05a5f0513d9ff2dfbee6ec1ffd9a91f55b9bca641c1, 0x3d480cf4e3f6efda6cea9cc9d769b16c0d1f3d6423aefe9aabc82b8aadb22e48),
(0xbdb5fd64bc99741fa2a672d4a895aacc98886a9ad38a486ded1915f10f0b515f, 0xd9744595ae6e1e645a52a09475ad094e6af9655f185ab90cc03262cd39794f93),
(0xcd6c68299d2b1c609b70153a4525926191b9b9d09fcf0682d312960cc3f82c04, 0x2178ce3f1bc21a2f7accf32ab20d625a182f8733e460e8b9e1067dfafee6b36e),
(0xebbfa9e18a4107a2475f99a8672be581f32426a2d774acdbefe501c0af97a0f1, 0x1845a5fdd71baefa064cdf1fd1211158a70752b3adf2b4d4b5bf1a9f7a0abdf2),
(0xbd5af8664d51256f455a319088b754a5342231351491f7633e090bd627414fa6, 0xf8b5bbf22154786a29f75090fca2e14960f84b47050ea8dbd7c309d252233f3c),
(0x34ef0b385a8e776f1c3ff95a5852027aab6d1da66201548afa181c8155382b77, 0x958180ce9afc501f84d4d3b4eb556ca2e6ae8dcff949db6d33cca5e29b357280),
(0x4b5f666311e6956c0e186fe385f00069c0dfbf67e4130bda064e0e891abaf471, 0xa6cf35712e790d5f0b5003240773281c43f6d008f6578ab2b48fe4de1ce3b545),
(0xcb22489cbac94ccc887a1d7d8836caccc8c2a43a4e09595c39cc6064ca04546c, 0xdced75efd7ee6ae018ff26909abc82cada74e823c62e4268606334e2969bf94d),
(0xb069007c4a50bfdd38ebcbe431a952ae5356d63a9f4179b50e4cda3ffe478c42, 0xbb90d5c8e66c6194ec55acc76dae5f0bdd4987462d24a265c314e93d618a0f41),
(0x18722ce29d9cf99ae52a420e23fd8e85e1582d02c520d4f116c2b82d464091f9, 0x9fe257cb5cd5f644183c84610ac2dde694cc84e976d9c623584a9d9440fea12b),
(0xa1562afa6420b34f92a78951e9ab1bd78772a181636df48781bf4bc0b16bd196, 0xce4435e87105d0069b3537345a503e0f0a692d3a8571e8b966d9a72248ecbd1c),
(0xf466db58b4fae060b12b780bdf11c7e5ea8a08cbcc50e68bf5d85926b9f3cd97, 0xc86b415345515a2c9a831ff1d6377a8ccae62456f207df2c42a1e767684f79a4),
(0x686a1d05e2bfaac8e31def3521876c8127be2ad134ef3dcf6de5277837278176, 0x111404e17f2153ab43597a74be1c278a998b36955f4d465f271a6a468e9e8986),
(0xd8433d5fe5ec423c73bb3ec495d06cf53a77474c1e97ff97f72a04579a60926e, 0x3df114d5a9d63dadada0ec4ff98cb8cef1ad419ae2c23dc2f24048b41879be1c),
(0x3a9a0aed4581937ffe49392f488053df349f01949666418f16e56fcc533cb73d, 0xc9db1a902d6676da251b4be97a643bddd55c2b1595ce51b3281cc86640cb558b),
(0xb35a204a288847083091abf334be3696b1082fc75caeb0d518387aa2711a4190, 0x65f951c87823234500487e8e376c22bce5d9e8d5ac04ecbf24cafef94de358f8),
(0x81ff6fec11f4869159a2d23bb2a6a9b568c5e6c51df9905fff73e1cc0a2c505a, 0xc7b794cc0d657519fc05632e33e23474654f13446ef1b4aa1a1da18b4acc1e49),
(0x3588a9e17feaaca1a62fcdfb3952beba43116167bb238f10a41fdfa9bc316d8e, 0xacb24c1a58ed9a0b9744fa76df4742b9b440347a4b4446eaa3e55234102d4789),
(0x7eb13fdc9588b724e7cddaec498a8b15d57a49af529c8c9acc8303b5e81f91c0, 0x89f6ac3f38351f7d0e4b293ef61a87a42c08a4a3ae0c160a563ae5afdc62dcfd),
(0x2f68c6efb363459d862710a0a0ae67c4afc3cc0085f02e210ca4d7643c76e00a, 0xf8be99303a3aa7e5c50d3f539b88bfad60f05fb01461d7a8225bb21e18616cd7),
(0xb11994c25e3e6d0d917ac215c5f396063b9b764b5dfc2b75ab8ef8803b57d802, 0x4a7ae35ec525d91acfbdea6fcc9afbc9b3cc8c80acb4385e9bc20158f9f2b55b),
(0xd8e7881a0e1e4d04c431c09725dd4cd9b4efb4c43896256b7de47fc63a3b30bf, 0xccaf57cc138f0bbf5dbde16e91d1487500c0d5ea3842e864be8de17d875fef67),
(0x88e02abfa37ffc97f564cf3d8a086c8a62c05720802319a230ab7cfeb448c478, 0xec2d316915dd0c2d6f03f85197a96f9a6c0772eedf0c4524c08f58f239c89308),
(0xad258ffcb42d127ea875b1810a8883a531d18a64d75a6dd44111d69790752d1f, 0xacf5ad9dbfbb14cfa25748e396bf23ebaefe1bab6550b23490ca0278276e9db4),
(0xa2bfdb6d38159e5a604d564eaf29cf09a0a8ac791aef5a63e1c05da5fb6a0c39, 0x07a45c5ca7ee7c0e74c059141e3d898fab62a8c731ca0a66a937ef5551dad999),
(0x7c7bb792ef21cd53bcf33a826a1ebf930e9f335751131f9b36f659d9594f453d, 0xbc98b32e173d91cae9daf137766c5ca56e0434f0e2eb070e7fa7f8b2e7364635),
(0x40a2000cdc0c1c9e4c037a3f03113b48f26730ce11e03b1fd2f0721707816f8c, 0x1966929f210afe169daee99b7b48eef727e1703c8bf42006922c0496888b690a),
(0x6427d169cfd7e9fc1b310f68e337172028c17dd7c6d5a32f4ed6d41a634f3f1a, 0xb1a71fdc6a030ca3d7dc2ce927f3b9b3ca7169f52fdecba4bc85e32b4e52fcff),
(0x723013b424fd897a1e8ab77dee0618c93c83211794f8b8229d7a9e511ba8194f, 0x21acfca6e5e0cc31479e5a97174946929134f2e6ebcef2acc777925177e9aede),
(0x1b18b7a543a284b83165bfa8ca947da5376fc4a08f4070e0a20aa905fd12acb9, 0x713ab4fd9e0bab6caadd2f631c5ef1687cae85e76146319e94b19a1ef6a69584),
(0x65e5990a4700f51c9d3e61d426c92f885506817cd4d60c66a341cf919646ff81, 0x2ebdd818f69cd1351405c63a7160ad4f17a6a7e2d4353db47b554eab3e737819),
(0xeb131661eb78d37f92a851f4506c43b51f2a155adac7eee3b1dbc29ba0b1250c, 0x45f2f41847d2258c3f78a2d2794e9aa8eab2339508debf0eb1440d56dc728334),
(0xf20aaa980ab7d6f1d6de080eecd0bd28b14cac9e7f27c9315576b03916777203, 0x4d0dc75384c942d9347f007d543bc3990ee01e847625d5c1a57cdd6779c4dfba),
(0x9994a963ef21ca0e9657cbcb3da57f3fe28ce38960ae5dd2812b294996969047, 0x93d75bb135572b754801509e5b64858bc0a415e03968efe42e5587868516362b),
(0x4696ef3995e5818fd78947372fd68c75fbb455fa8477863bb2687fcafc2cd7b5, 0x1cdc53f1c52112c2f58a6f6607c1e4e9110d83f9d765347ea724c784d8e5d5ee),
(0x7b052f1fe1af95370ab3bb5b3e0e510f7e101cf0999f85bec403fd6253e68d25, 0x69c7f15804b6c36cf7d881a0fe4efa5e3f879753641ce0f43e73bfe477ada27c),
(0x99452d743311867d1d86c1b1decd1ed47192a58b3ef98cf07816823b1296abc9, 0xffabb50da1a0451d36b811ab5e0c55d8751a18513ca8bca48d6b3ffc61ba36e3)]

/-- secp256k1_pre_g_128[7616..7679], /repo/src/precomputed_ecmult.c:15878-15941 -/
def h14_7 : List (Nat × Nat) := [
(0x40c6fec65ded468831f72de9fb5c7f6732c0c17029f19b36b00b0f8505a12424, 0x17aa0baaeb3ba6e4c5000e96c3eb620dce1dfd81b35a3e79b27b824697dd5741),
(0xb9bd9e2fc55ce5dc2e46e4df56401c72e01ac3d5201a3cbba6609fefae2e827b, 0xf545efa7f95e9a6072cb97506f929b4ce0360c8fa9f058e65b87bd55a72abdcf),
(0x867c0fa90f8859352756e3e411666eb259a416b47c2ff329e30be46213178921, 0x6fdda8754a50ee1bd229d4f0fa8876d69caf9fb2a6af19fddbbd2a815dae486b),
(0x1cbe83743decb58ff2fc96687ba45c64812507ecc2f71d66eeea12c292fb36cb, 0x799533ce46d2c091d0b553b518c82317f516049c4a4f50be909c875eb0bbe21b),
(0xc654f9fd574262480fd240972595d71d80cf771fcabed8d4063bdda8340398cd, 0x898e9224c9e94d143f96702dc296bf509b2cee37da574bdfb7c09cec18357a18),
(0x49e8e14f4a9f09ff48725eda85ecae6c3fe3400b81012e00991f6a692d75083c, 0x815230c9284924fa57d089442a30c61b8ce196447a8ede69fb645864ef35977f),
(0x43a6ecdeed83f1fa8946f58499e71bd90978f610b46d1613c15fcfc0f79786af, 0x2995f70c11eb448e68eb3d10c84b36cd7605e24901df1fa32e9eb57cc0275482),
(0x96861d91678e50047c4919505bbfc70ae342c3d2361729b04d0bcb5fd93eceb5, 0x6845ec379bee6269464b2e9f156ada30c518bb8e105153e1c3b3e948d38078e7),
(0x3c72be53c9f82add504a19557b9560a17716a05826063408079aca60c55f4515, 0xe584b72bcc4744d96a00dc44b03ba61fc2269731a817875502a6dce825d31b81),
(0xce4b4d07deae1fad33192544448ac5b277ba7f7027b81a08d7f845814f71787b, 0x2013299b2c744a5bda6b243cd04d95b7e515848cdc28eb400892d40c210bd1b2),
(0x37984db16d28886678e1804b9c94ebf8f3a1aa051fefce9665712f98198ce116, 0x20a259668ed14a5ffc3aac096d2351b3b6cb19abda4c833b4a2a6c6855d1ce59),
(0x0ac01bcfb02e627b2c9c931cf87beb2f4ad7328f9caf627a2bf695edb7353acd, 0xbe4eacf477c92348fe0feea93075e93bbb3633c66747524ae387df82176ea252),
(0xd5d6af831a81b72fefe5618b0ea43335bf1d81f173382fda860260d81a2faa83, 0x0865f9ee4ff0fc6bfa761709db4c67eea3213d0721b2facdfcd8fa578945698f),
(0x3c16399c4de35853a6dac8c18eea4b4092a22a8d5e69ed0c13b9c2a43cd5e39c, 0xbffc2dbcc2ce4b046a92b967d1a04b5a2fe40be0fd9930d045b51f8a15b53edf),
(0xf67018d423e50a7368045b0dce803e35a26d9a5c288a3a7cc25ebb03dad28187, 0xee97afc51c73531fea8998f553086a59cc67c6db955baaa28f57153cafc4e772),
(0x0de67026529a32fab3ae79f6ef9ece7a047008d246f89053e9339c4cdcb53b30, 0x4daa87004b05500590611f7843d258b9516f1fe861cf06cad466e000d3a68783),
(0xa133627caf6e7ed31d26760819b69f457e75ecae2169284a48b5ee16b5dc8c10, 0x755ef12afb5c071a36dbe2b71f858d8731c93d81d271c9998f632982d7e97ce6),
(0xd255c1e7ccc88c4c33887c9cb9c15a2b52b0847190ad14205fb5909ed36059c7, 0x83e3e1ca99a386e84b1193912c20593cf9573996d42cb7c36db24a5fcb413080),
(0xaca6c69b9ea178034af6742271b8062f77e6dbe51df2a57065fb3057ea185b8c, 0x40cb09f2adef414c816b22f8d7a59f8cf5197fb9b31614d9ac172436d0f54647),
(0xfbc19c843b656fcb021d99c35289d3e32bc58fdbc2404309a9d8831af2365f24, 0xcc22999f203a4fae59eac72c28bed6d9291f204b707bffcaca6d83591e403124),
(0xea308c88c366677d5e575457cd3e69785b491a02c542dcae5dd5e1492f839c55, 0xc19168312f48555fb80845fcba89eee7a7967807d10c6f6eb516c19094873ac9),
(0xd911d62a33fefc48abfd44097ee2d32fd7e858162a8a00d1342646ac8dda6cd2, 0xf160f93341bb32f7401d153b4a2decf8b793fb5b4d5520c906d9cb9ecba79aa3),
(0xbb75b4977d6984427b0ac74b939ab3d8fb94304f0602e1021fdacf2227022a4e, 0xee3cc1718e9190df9b45d8d354eeef9e11639423dc091128ae09e451fffe3468),
(0x358e7639b4031852b983b5c0a6c0d33e5edb304a3f8bd15c35d35794e2cf90f0, 0x5da4be1d2e9bef5a5da3cc59d3c4f85ae6624ee317395ded0398147a12c56c45),
(0xe098fb9c440a5cdfbc5702704b57eeed0f3087b7e196522e4b194618f3c874fe, 0x9a5b80e6b22dd1111f824c364830e72318b7825e2f2a0fe6ca460d0c34eb6449),
(0x62d607b2d1a16e4ecf60480abe9416a715d70b5c56734e7d1498ba037632528e, 0x70c5f4d14f5c900a96291a4ed0f795ff439d35d52c5bddd2ab10571b1d7d20c2),
(0xa630c5bdec76f86940842391cba6cdfb9109940be1034b87c6a1e5e69662857c, 0x8f28f55ebeed28833e347b1092ff8938133558c3bfeac1f6a6b938a4c783b79f),
(0xe2a164aae17cb0c48ae1e911872b0b3a7c0e29f093cd5e18971452110d72147b, 0x23ccf99cafd1bfbfa7ce1ade1590d6099a423b26381f5761c19ba373290e6193),
(0x742526f5b95051cf2ee349948385fa72425162e70e46bba3febe5ce8595a8b37, 0xd106a3be638987e6870acf8d26d4f78ce6aa0e9b63e4eb19114fc97aeee3a12f),
(0xce7837c231c3244410dcc790de465c0675404a1a68d23fe9b69d887e9c554f45, 0x2c0be87720cfdb118c37b2de00a2c355d12279da58f755707e738867146257a3),
(0x601167cb2788b146998f0b910d582cbd27f4b86640db7ec607f26214f3ab9212, 0x50525e401f2da57d1f605f348f11ac2319ad182741d7be1146538e83e03bbeeb),
(0xd2f657da6f7c3c809d2e5291b1161d46393009cee2bd22ae32b99eedf76fc728, 0x6df58d32b795b6de2a9c3b150f4f1dc94e6e6757e01891e279acde59d13e3e75),
(0xe9fb6b74f84973fe7c7a0924e0133b92bb4c22d1ce9a94e8433f0c722a86e00d, 0xf4df6cd9df43c1509d4b9580eb87298a551ebec52438597c87dd46d43a8ad2c4),
(0x98d46b64e43f338488c63da735af1141e8b41981b706ac5a7aa1c0ac1182afd3, 0x3b2ce2035bbd2cd7f3206b3b6aa3ac6831e0e2d47f9e57f23e780fc9cf865733),
(0xb358a4c6a7130b1ea00d84037164e68fc6cf96eac6580ee5b1cc245208d2bb5b, 0x3bbb25ab4645c17a2a6f7e642d3952eb864625645647abd12e80d965be1d3854),
(0xfd8807c6c456582ed03114a62b42316d4d0d386aaee634cbd33f2f82c1ad6f05, 0xc67d1611e45c57d61f8d721c437c0ca2189488bcf363aab0f25314b00014f896),
(0xcd53fa2a1f989cebcedfb7a5237addfb2efe94698b6509c93081710bf0db107a, 0x47e61ca64d26e6178192e993411d0540bf7c37b58c748eb76c1c197c87c3f844),
(0x38cfdfb101b60a68b00a40968f2da5e44a60868bde9af728fcb888b49a098c66, 0x65f4f19192667492d717cfbebafd007659c0839230da216c315f2cfad3725184),
(0xcc179d391c6ab4f37fae638035886e2f82038bca768d139613fae8dfa167a271, 0xa12fff6884a967e6fdd6e14b4083c0ba2a2bcf490f7d60710d708c704722b1f3),
(0xcdd61b3375fd00cf430d9d54202c5c61465fe7c0a3f51660ce74a3bc0058068c, 0x46e5334dbad31f3f6c4bccbc6812cf135c039a5dd51c651649564f45045f13ab),
(0x39ecf8d504fa9c3bfef7d5e65ebe0e75288f17df4b33036bd034be2dfa5bdbbd, 0x21991cecef62e42170da3bf98b2f9bd7790d5b1325159727a53a07355ab1d956),
(0x7b621836342994d203185da867d47e69a67a184e000925a3524f5e7b63639263, 0xb08c269a1569538e653f2beb3e6e348dc61537e07afc5f13f56d1f74518b274e),
(0x28e5ec3b38359a6e7d3a965ac571336544b91ea5c9f350bcd315c15372133bb4, 0x5bdc5a02627345358621c1f1492b3434be731c25f82c1a32163ecf097f548465),
(0x37ac3ac203f6b2a1a3a5a99c707a6b8d05f05e80133ac522107ae5ff414d33c7, 0x460c947e76eb51c8042bd0e66ccc093787f61bc3554538b4c2065fdd533d0b02),
(0x275f5ef2a4546ba09d96d138e698cd3278cf27f302ee297a5ff8dd41f16bea50, 0xca91a3b85b0a493ca49168b4c9eff87366212b9ac030fe6da9be42b745d0464a),
(0x6c43669fa69bd51c63cacca021c69bf79a94ef9f3f0aaa9203be9380a6702e34, 0xb416195a1419771d82fc2ce00637cf5a29823d1a95614642c93a979e5ff3fff6),
(0x606c37c1271b90f7482e6ba181bd956c44a44189346bfa670539c188ac0eb61f, 0xf6af64cd3f04e30a1b4a7019c6caa84b823bd00f587eb58ae190ef25322154b0),
(0xe4136e15b3fdf609f779d0c070ce85212babc592577361d047ada13a2a83d43b, 0x1af23c84ad240ac850da2ec2721531e718776ddc5847edd8b4d79d5226e53125),
(0xa338d9426ce420acc9fb29b9cf572af072c0d14446dc2c3c75b9d5c9f7fa244d, 0xc88a4399f6e3ef2c619cd9d5215d305d3715b962b02b29ca231446cf8ea7c40f),
(0xc454d1b26f77ad27a168d032fc1a73cafcc4aac3ace31f2a433599fa7107fd9a, 0x989b6091ba2ec267380c513947059d4d2773109c1afc21a43be54ea6ad8f19ee),
(0xbbd7bd305bf1b36c6cd6c1802f41525d75675d769352dc601a727931ee6f40c8, 0x3c3263d375bd412e1d7f7d5e72f7321606415ef352d1fcf058e6c046ceb46abc),
(0xacae6fb005d5b503c2e3d84119ce3bbe1380b363e5d8763d3c520a3fdf39f7b6, 0x6fab4b7bdaba880c9167ae8f5feb9aa43ca19f2877ec50210df36ac7db730293),
(0xc9d4ba53a44403b30b06915f6bd9bb434716a6390453797e5b8e1cf5abc78425, 0x749cca456abc2a6a4e97058942cefba5a2f55dc539bf4f3ebe5088cfae04bf70),
(0x3408e46099f1a1760fd52f703c772f1da46d32db0246815da21826dcc5657e61, 0xa93bd344de7afec82ea2842d40fbcf60732be8fb738b8364aaaab7961e20974f),
(0x5e061a06f97f61d15f66c3ff1737262104ce82af3e606b4e9f64fb62e405376c, 0x609064a0bde996b2d909e50f726ed7beb4698ec75e1c9c453ba1881502915cb1),
(0xb12ca67f739f42843a7adf58d2a2f3cafd245ff4b766793cc79cdc3145579113, 0xb1deaf81034f017fb2bc20cdda75fcb7d219c35398ee9887612781a0e3f3d1e5),
(0x95a72f2fc241fa0fc9500cead9cf069d23820078f61d4492508d0fc434fc223d, 0x832a39791fb9fd9b7974864364643bcbb227c39ae4cb5051d136263c293cd453),
(0xab8ccb014b672660b867e544926749bf7172a0f5ac6317a1a18b7d15f039fc94, 0x28471e3ca2d6e77c87700c4c7e3df1e92fe91efc77724df32f20ceba1ba000fb),
(0x261319265261c0d3ecfa9769fa9873471b9d4ebfdccd830a96bd160b61b47278, 0xdc9ab665485133d259d7b6045e1e4f529b099e9d4db9f6804935e712f8402f66),
(0x87a4227d2303f5c00acace6e96586b68178dc65e2c99583e8e427ad7167c4a65, 0x5bce1d82216355d65bbf33e09b3baec4fb0befffebe48b24cc01d45407de6db8),
(0xa6576ea239af87ba392a225fbcec30458920b49468c54ff392d2f509519ce85f, 0xdeb950bb6a767b3f3603be366234480c1851ae4b1980f902f8fec863dfabde82),
(0xed41c3a248285ad91642f6a6feccdbb166298fa6467b0ec0ea256570c8e343a4, 0xdccf3578aafbc34d8ca5fb6c0b4482de4b94dc65a8d22845ac800947dc1042b8),
(0x227756ff800f7eb54493181f83050c329f27a35b891a3bc1ea5f0e89b94e77e7, 0x571c9345e9e9523803c7dc6269aa0fff46455825a032f33a154a89ede13a09c3),
(0x6f3b91f13f2d6787454bc7a22ee780a23c251697c0da9aa0a03dcc3ff03e2b0b, 0x432b396fc2dcd370647eaddeec058a0153fac9554b3f400c435c47555e61afe8)]

/-- secp256k1_pre_g_128[7168..7679] in pieces of 64 entries -/
def h14 : List (List (Nat × Nat)) := [h14_0, h14_1, h14_2, h14_3, h14_4, h14_5, h14_6, h14_7]

end Secp.Model.PreG
