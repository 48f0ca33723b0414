/-!
Generated from /repo/src/precomputed_ecmult.c:9282-9793: entries 1024 to 1535 of
`secp256k1_pre_g_128`, as pairs (x, y).
-/

namespace Secp.Model.PreG

/-- secp256k1_pre_g_128[1024..1087], /repo/src/precomputed_ecmult.c:9282-9345 -/
def h02_0 : List (Nat × Nat) := [
(0x7e068e04dfc0be48e5c0d3b35bfc734e96e96dddd0ac487692f745350685ab7e, 0xdf2cd14690d225c8d04052e6093f14bf69351e08798836462c88401e4ec70d0a),
(0x73a9bfcfd10aac9b046e659f76c439a0b7c2a0737dec217a21f43f39949a5052, 0x73b915293ea7b0520682062c08f86cbfbf379df691a9cec24a1424a9b3be10dd),
(0xefddff840c8cc754e6e34678d85809bc55cc224bf69be05adaa847ecd408c55b, 0x65dd8f418264aab2efe6ed7e0c45b4ac8aac218a3b6713fc1736dd6dc2f188d5),
(0x46a945857118384d8d23d6dfa4386dd9dc264f5b171a75857565688ebfd73f4b, 0x3de5af7ea298c18f4dbf16cb38e7f6171e684ee8e8df2a6d256c011a65aaf35c),
(0x6890edb27ce3c265d4afa17bbe160a9445dd0c8c9ad6d93b910ea47f3821cd3f, 0x60f47c5b10ef5494cd8810a7ca8802ab7c24beeaeb67b852dd22040f77cbd1ab),
(0x08cc9eb6340b886a81ec4b3287a251c1e33e68c21f55688d952b44b42a05f5ae, 0x9b176b0d90e382908911981a3bc475b9f0323870150c9c955078bf02307fb6eb),
(0x2b062f5ada48de0b58001ccae96cde15227875e026c94e0b0fd1fe2a495b0475, 0x537f1c683d5170c508097bad4bf17276da9de9948eff680548b353902f1eab0d),
(0xdd55b91a84b3d53f4332ff7f224e9231cd358bdf27f3008252d7a8bebb7240f9, 0x0e6f1a08a40b6530ed7376094deef969774d2173a3ac158bff681908192a5c94),
(0xac5127e040b1a97946c0cdb1c782ee2c8986fd80d7151e7516fc964af2c59c70, 0x849e2249323d0539dda0a82e1764593f8afbb097880af8e24765ea01b7ae5db9),
(0xdf2f2edaf0b6ce9a3784e9ce1e1ddae79d136423153174bff72212c1b5311123, 0xb9d98f8ebd78bc20316da64f46644026fde6ab44162027bedbac75f6e86d46a5),
(0xfd83b387d630c17623b85e216211361097bdc5f43fb0802773ff93d7a373e5f9, 0x9a962a7d375f35a59d7503d40c0fddc9115805bc38438837d3c670b6ab6cd2ee),
(0xd8fbdfc1155ec8ac8bead443ba3feaa8d565ca1e4206cc9505feb8e132cac4df, 0xf9453c0fccb99cb4739258edfebf76427fb1fcd61f963abc9cb9a5ea751f73ac),
(0x9fc9749a20a3e8c01b30938916aaf3d685f00872b82350ddc89110c0dfbf86d6, 0xa2f679a76c92ac595773bca7008f0f1875c85cbae75a63791094a799863e19df),
(0x29e0e34671a91ce9bdabcf252e2196bb65b81092d3728f62b58c815f2f476a3f, 0x2f440c61b82e0ae4798a35fb9c66b2611ce5ad0aab42f9d4174bd698d4d0c0e6),
(0xe4068a15398955a0f27e6f929cc3dfb87fbee70ba86ee78f8736b5190ae102d7, 0xa3f2f2ad550f9cb6aed9994384a9a35016b911430747d4e77d69e6988f165086),
(0x51b45e10bb1bd9898bb156c8a4c8197810f16364d3d5509248a42028726c9f2c, 0xe30719d04225de63281ac47970010cc08a1f1d5148c57f6bb478c95be3e141a2),
(0x14cd5d297b8ab6b5e92ec2e606c63b3d64dc492fd5a0c5acf6fcbfa5aaa0b83e, 0x5bf307d77cdcc866349ad1fafb1c7d8d5be192702a46b3279b72bd77e3666805),
(0xa5a8a71149d6d146c32254cae9c1828845e9f2df419ed68f8c3cddb5d22c4da6, 0x9f47d8877bc3d345af4ae69335639bf0b003f4817833d2d549c0bbad3cbf6c2e),
(0x359328d24baa4232d75b13ddd146624dbda494e52cc778f999a4c0c41f9372cb, 0xd31556b571df399e99084afe0c8f680bb6695d7d648f7050a7881acf241af6d8),
(0xc9eb81ca4f2a5a2c17268a12d901edb0c8fdacc10d26c5e891af95bde673e7fd, 0x6d4a512fc974fe9a711ae19cd9bfbd6b5acb73e5355608df76ed2942488adb66),
(0xe26631f816f3b308ac4c9f90eb6102e248e5573024f41f386ccde5e6c2ca8e2c, 0x16e0b2a8823aecd0165e2f102051825396cfb8140bd5a24858a4615feb9306bd),
(0xf76e9af365c0e7e507807b24269c4732677e5af9a3b0a9658db8355ff99110ba, 0x80cbf439d26f164ebdaf2542385f9d659d174c6296ada1028a0cb013bd2a9407),
(0xdcc8145baf891483295d6ab69a88fce0bc333d54841e7421e65f6270852c5dd9, 0xcedb3770a620e7a9b40d6cd160363bb0296155cd80d89480ccac619af31e2a19),
(0x7645e13a6a1c4d0fa56a199ecae930187660bc4041edb847ed33fad3c603e4fd, 0x7c8ea51b7990e5d5125eccbb5da890d2bcfc5353b22c42ee1864c22cbe91e713),
(0xba26886ed74cbcefafe7210d51c1b6bd4658225d45e20fb44222b3189e2f3f25, 0xfd885db223ddadee9e65fa64abba326de0b896277359e893bdf50db8a2b3409d),
(0x68b500e131005b1d901bda654a525e800fc6578d5e792c92299d21a519050fe1, 0x71ef7d7ab3544a94f3dac8e877da54688df9b12783e0202207e05d5f6b12f96b),
(0x2ccca7e2613fa83c27ff851f12c6fa075b19f7c9940a5064b84ea75ada7996ff, 0x5ab70a2222dd1ad0d0db2d2f0c59390bcf37af8f0bed45703c6ae0f327d7707f),
(0x6d797d2d6a56a45a1b5af7183cb6dca4383ad9c04d5cf3c1827f4da6f7179f14, 0x0aae34e5d203d18d99e84bee7d6f5a8bb80e541e15a3aea67b162551e80edf3f),
(0xaa6997c437be76b19553751ad96a53e49a565a58055f67b511605996e98ee327, 0x6034a4219cdb40e09698a15b2e2f5f1b6532e277a1f4f4cb3cc0c33c0c684835),
(0x56c40fbffb8e1d70a345d53a7b0f897e01e62484dc01adead010c5beba2a0f48, 0xe9d06789078b929027ba0e09173d8ca9676a4a787e299f4c458cb6aa46f0bd01),
(0xdb6ff6a83963ed7bdc262be08b52c3ddb6e1e2372a5350731d2903d517918d89, 0xa40112fa0f30fd44b42f6b18c144ca0f0e248d650d757bdc162b71187d951769),
(0x8df55701a46f63e2338e730d4a543013dcdd1173754e5de4151ca18063402c6d, 0x64cf9c9a64b63ff01396ddafb48bbf62b3e69665bc89ea93b9dd12dd57a1c3df),
(0x9d10bc2c51018f57407ae460e5dd5e4566485ccede258af37bef48a01b0588a1, 0x38ea3c08b2a4e1717edebe44e03dfeb9726b302eaea0eac2fcbc938984922c04),
(0x13bbc875cc07a7872ca7a7068201606e0560257b0fce7e662e4b980737640367, 0xb4cd971a47c82a66d8ca19acbaaf1b1ed2ea3dafd6f547697fe474b1c0c2c708),
(0x8f26dc37f617b174dc947630d0da6dc91857d9a313c92b1e24ec9cc95ea9c3e1, 0x3848a3031d96bf274e4238776591ac44f887f2fc1553375bd5cf76e0e73f15ef),
(0x2e1e543df290916f5e55236f660dbe13a23e0d9b11065041ad3a579a4c7b5f21, 0x885a4527626e05dac10cd9f3218434b7947bc08328fe2d28ff10ad2fb5473846),
(0xc83c2ca3e0509ea8bb876936e3eb69b58bed8f50e8c7b85a1238082cee3f3109, 0x2b9602a9bc808de2b0b0da10d09da55474b75e755301cc0e3b07c331329cd5ed),
(0x8c7903b4e2c114e53264111aee385311afee8b1c90606700578d1fabd3d29607, 0xdd02dad1964df94d01eebea9a2a343e8b488c40188299b2528d47376f1025731),
(0x48263c54dd7575ccb30adfc6c1c1eb85b5185786654c89bda38a681da6569cc0, 0xe6f107bddacdb5280ed98e49a25936eae223ac5f55cb7955ddadfb881213167f),
(0x6a7c050aea7d1f587918644c63cd5d98accb7127c54ee27495fb254616f0d2d3, 0xfad1926127a2646e34bf733dc089b0caf80f7383b4bb154628d7256ed821e232),
(0xe1f0a53f62fbc202df9147dcc31cb09f0ece879a0ccc5a3bf105a1987f5c3ea8, 0x3930a10f0b0eea300c314848940377803968f692fe2e5d8dcfe920f1e5706277),
(0xbc0fb113cb0fca5bfd66efcae8a4c866da9b6a0a6d4e613b48526675d3182b7b, 0xe11e725e6993eebbd2715f6913ecb14837892c560745c60131ca1c6cbf090f31),
(0x1fe5a0f49c438f4864bf9ebf89eae7b70ee7e6a174a134fe266b0329cb42f908, 0xdb8095cef912641c92b3878bcfa7b5960694514ace9b779b35ad6109c675f66c),
(0x5de3fdb490167002fa6e61aaeabfa53cade6ea833f3c8f6de434320aaa524cd4, 0xb5cbde88862ad6ceb344a1dd88d1ac296d7e9ca3d5e98535dc158579147e08f0),
(0x93b06993a913dfcf5eeb0be6294a645ab2964f2de21960738adbfcbc023da54f, 0x7836782f856cb7444187330efca3c7e29c151ad81e8b507c4d14a14d492ae0b8),
(0x0705740d27d90741e685a044f6b055e09c33369be3815851886b78608e762f0c, 0xc4a58fbb738d46c69e93193b529f12acb2142b321fbb3c55d3f5dc99173d956e),
(0x7619a000fc485526734a20e199530f0ae5b787676104086434a1a1e11d93e296, 0x7f300de1182f479cf6fa0afe0a2ceb59ab26f675772032014f8be86d046ebed6),
(0xfe20f5a8ddbb52016cd346fcd281413dcc0d54b6384e460dbec5428a599ff2fe, 0x5b488ae6e2604871afebe551f9957b0d338cf47ab4ecae0bae7a92b9242d879c),
(0x995b9727ba7e52cf2dd29e0773c751f9707681218ab88b84422e1e3f42ad11e2, 0xc3c9ddc97ee41468c4ec5e5f529bd8b849c8d585f905b91f42af5c6d2f7fd26e),
(0xcb4f2e4d2ca94d7c79e9134455161921636d26a0d84c2a16e267c242702b3136, 0x215eb6ee394940e6cf00df480f7e2b8b1b9b2f717a68ee49bbb879de803ddb9b),
(0xca0a2a5634b49144bacb10707668eb674572b69d5e1a4e6fc722c256b9fce397, 0x92079cc974ab2fbba5098c8556ada7a76e2562a70bdb5ebfe958eb82d3f4841b),
(0xfb82332dc6c0c0afd72f27a024ef163abfadde8967b4c246acd6b922e3af7c7b, 0x1a697119f21cb690338beaa52e2c4b1b2b90d39919ccf0c660dc540ca934c7ee),
(0xd056ee05d9258def20e184a4e2018bd6d07550a063db46736afec42a5c513dd2, 0x0af2c1d0d222e35667e7cfb6201ad72789ab0fc4d68dc31c276d998cbc15bffb),
(0x3fadb222c6584262c4046c594b778635c6325712cd8287267aea125342526f12, 0xda5c8c07fa6811d384ca7e8bfa1d74b7d181e0e1eab8671758666b7ec199ae96),
(0xd27ac969e222e50e5dd915dd39d3e453214b818efb67e9248ab4263b1d9c4b61, 0xc4857694baead3056e6709a32840323609a7c55ad81e7f6f9b494a76cb3a1c7f),
(0x412379b48b981ae6a5fa4324bffd69ef99cd3a0191a1acbcd9340f0172c565d4, 0xf24036c9c7dbe4f02ca523e7ebe6ab57c755053b245523abac9d3e87fcfa280e),
(0xd8234eaa99374c13b9a8cc3b663d00a5bef7909fb21243eace9dfaa3f79336f1, 0x0b8cbe8ec4b465f66a3c15930292babc1845d8f91dc80e5cb1ff904b6e755c27),
(0x426f8b3568c5ff9cbac0ea349d8d3c00427d323a3d877bbe47fbaf2a5d189009, 0x4e02293dce023c7b9c7a1ba727cb82b99931f57f78853bfd7dc4399cbd00586d),
(0xf1c706f902ee5f2c2412a7fdc9ca5c798717576ec780f6ccfe72760a4497dfa5, 0xc5e1a1a1727f55c3b397870051a09b849ef75895d6b9c4d59f85cfac2bb7e740),
(0x84e2e07ecc1d5987968d6682525356b75982001e67598b67608f186936c2c679, 0x41ab13438ab5ecdccbe75a8ab7fceba52903f4f6f5b43bb628173866cc28555a),
(0x7935eec2fe53582344abb6993a18cf6a3d599b0bef0f60689c689b4076ad2b54, 0xce2fc96aab978861b6ced574fe4f5c85b77480ade3d75b406c4cfbd553371910),
(0xd542a4a8319f6d56b79abbef9da3a0093e8c2689421e383927aa6a30b0dbd9a0, 0x5104a16265d285ea8f99f3e9c1951a066badb70c985877a4f1979aec7b8173e1),
(0xbc6926194228989004af0157a038126c041011b926fb232fd3c27d9a44ece2be, 0x8e2f10c147e2a6309372e8543cb8ef7711e2022edb25f4f9847369c7fe52f3bc),
(0xebe1b736bb178c08deacdd80b48ab650ae079a9095f43e51f4521bf5d18d8d03, 0xad81c6590b1450de45f78ef4b2a8126b782f2061fc8eebbb0cd0a2eacddb7514)]

/-- secp256k1_pre_g_128[1088..1151], /repo/src/precomputed_ecmult.c:9346-9409 -/
def h02_1 : List (Nat × Nat) := [
(0xe626b90849e1853e4fdf887adf8f0562666d094a9382be7bde152decb9e2774c, 0x90cf55daa4192a270caab4062cfb87582dca7342c59627c30f513ff90f4834ea),
(0xfba7a057ba0487922313b8b5ba4514f00d8f571cbc7ac0b61a987a9ce4381e67, 0x7d2af7fc142653babf05133f958a57eb7cea5b90ee5300f718cee7aed69ec44a),
(0x144cdb955b5d51815a2e5bdb57033e670239735a456579ea1e3be68994c35a54, 0xe6016f89e896fc5980150d2b08135b4bed0a108f8a2eaa8391987a776253f1e6),
(0x0538de6ee7ab1b5ecd74a2d1a9599d9fad28cd8f02679eb681c25e1f183c0a24, 0x36c0a747796111935bdbac87d5b38a052482b973213d09601de8404b14121004),
(0x76914f0fd28f73ee20ca3806263b757c7876eba7054bef2e9d10615aebc03794, 0x6de24dcae16855bf223557861626c62c59330752f9f8808ec393068033a12642),
(0x69915e6cf675f7daf595f7f96c912f2986bee7bbaa5800af27e32baa9e34e4a7, 0x6094fbc02f10985577b53c918dd2da3b139bc31b77674d56df72cf222b9513c9),
(0x4ee6c20c900bd4fdbe942dcfdb91182e2c37eb35e4287e5d859ba84718ce3015, 0x84ac9769863d618c4b738e668c293d3d42e2a9c64c47cf7590ed50f32062cd64),
(0xa6813c1af57bf8a38ece11dca4c8c581aa5982110af9ec6ad227179688a0fa61, 0x6420274df4e296315b7e2335e98fb2f1d415c99bdc5a00e1d182e8095b8edca4),
(0x421003b7107b289724dfc743275db49e69d910776ee53d6c0fdfe6ab710fce84, 0xcb9555697b924395c31cb14988bcfea60a9320873aa8002ac218f33c76f9427f),
(0x09cb19e10cb8c4fc4009d362eacf5f255e1252985b546df8fc60bdc648c8c522, 0x227015d32c6ee68b63e20e70ed7cff868fd286e0905bf6231b7e894ec7d70d12),
(0xc74135968193588f38f412d64e2ce0cbc4a7ac4b75e33704362363628bb953c2, 0x7bee7fa01b7cc4d6d22dd4c90ec16b395e1d70f2527788019ae75ef4a908aa6b),
(0x2a8e8a05321f4926e8fac1ea8a97cc64c2f8e3980e86ecec9dc2e67661df22cc, 0x63b865074e4fdcaaacb60c21c0d3f81364f0c007faff77809c81fbdb981fae42),
(0xf3ef2e607d40359448aab014ea8e2dca5af1d8c7c6f661273552293ed497a14d, 0xdfcd5334214b9f44bc5d1d9649d78c159e9ce44bf43dbca9c637c31d622cccc9),
(0x6d5c41c8169c33a5d1111b361b1d6713a9396424bbfeb65a80e402804857ead9, 0x4c1f74c49f01bc2a27a91d3700f59bde3d674220a521aa4a6a0c548aa45e84c8),
(0x5d812a61c6a986b02c5982ce34fd478d6082232247e07c73488c71f44afff85c, 0x37083f7b16018fc425749e164c923484680b15178bed41fdcc8da253ffa960b8),
(0xe01596ecb82ff347c3ba971082911855720177a609efa7d5dc6aa8477f73093e, 0xa674c832849884b9d38da5d06a58e4a7a17acac18776577e5547eb3bb45b3bdd),
(0x67a5a9000313ff2e7b32fcaeadcff7f0ad52b960ef6b0d0b8344402c09980f55, 0xe77efddb5e8e8865eb80757537c41e0c9fdf928aeb8b6a03f41703c93c0a4a02),
(0x2b96879c2e2d0ad8281c16477de6258353d77db357281c217df0d7c36466b277, 0xdd5d347343bac32bcc72408f64a9fe7e7e0dae06786a70743cbbc84680b62b25),
(0xab94378df08748d72df137aea3e3e123639b054bfb726bad825e2d9c310367e9, 0x5785ce2440037d11a8331865c78ddaf57f9d769ff2df11c99e3dd01843a10f03),
(0x707825560fd6fde38c93def6ca3b6c8d2f3fd4db87be4985fa3aabb043e7439f, 0x7913bf65ecf15020cc5274b48eaf535151894bd80fa236af8f9b3fb8178ebec7),
(0x3025d070138bd507b338c72c1024a3f76b4d5e80efcedeb3e71a018b77ca3942, 0x3a8a6a0e175eff95a94172b5f2a4ee538d50329563a5b096f83dd6690eb470ae),
(0x3fe372d065e97abb94069e7b2a8d01e6576081a193897ac9901a3d180b9ab0b6, 0x2efcee923154dcc0377315e41d67b5a482403552ce260c2d4c1020a254842e5a),
(0x368c70113a9133ee97ebe8f9cc06bd7fc3c373e0da8101640bce5a302af55636, 0x21bd40fa4870a8e16f28b942bc169712eb7d70e5a6faa4a135bf86b4d06162a8),
(0x7df8ffd8beb45e4e1e440f230ad6d71357682f68e54fd00387eeac94ecd96810, 0x3d9e4cf9908e5a9944857d7894c7ffe7dc55550d0a07d3c9ec07667d982ed0df),
(0xcb6ad939eb49c7ee7c21626249b1127688269172504fb8bbdd2dbf7d0b6f23d4, 0xec8604db18f27367de1319c459f8e6685480ca65e1789cb345e0018eea98346d),
(0x5ae526c80fc319e6e054e6a759d9b205d8a1e042e684c53d39098f2870f4265a, 0xda1e128114c25a90cff3ef80d5577c08a03f4babd9e33850f2488617d50a9a63),
(0x868d788906ddbacc1bbf2b10e00456d6174777675b8d3323a8786ae725ff7661, 0xd92d681d189b0df8e2be57baa9c146f646e6ce48342a0ef296fc3093af22ca1d),
(0x9f2f0b4de7b881b6c4dd1f8a74106a3223bd329847c325a48341d899d7686b74, 0x6fbbd511c2974af8b5729ca6658562f2deca285cb47f16e3c444fc148e440088),
(0xfaaf222b813b0df15bf2da983ee2eaf6c522f5ebe8c08b4fe6950376d3fca8a3, 0xbec53e692e98dac68fb2ae8744f12abd47f00e6c5d6d1469b2cdb41d440b472e),
(0x7f5209b9db4ab9fa2c2a7ab706c5c62f13c81c80a4ec4008fd67d229a7161475, 0xa13d6cdaf9e8699ff397d1c76f191cd8a58be40b9acc4ce4e69cea0b4a48d193),
(0xf436156e80b136f08065f395e2700a1450c7b492405a0c046834bf4f12c84c2a, 0xcdd957b05684e01ba760807d39b007e8e7aa890b8882a0e59118951bbd7e60c4),
(0xef9aa7495c5b37d82060c2bb03454fa6882167542b24d69f201f1c313cf1d06e, 0xf840da4df1d84a8fac125750e4e6cd7c50003aefd1f7766654ccf4caf27a4aa9),
(0x7deedc43e96eb93ac290809c25e7936d6d9e1cc8a5971d40b122896ffb5de05a, 0xe65c0e6627b9d0e400e7b349ccf12fcdde6683fb6bc9338122026b6526a8e0ce),
(0x5a1bef156669795c47be7495582f361d878384f4f283e15c0e74b3ce986d6459, 0xce985a811fdb02b29e35b97e1833e38069b28b81ddf8cd61b1179c472ccf39ff),
(0xd8123d39233413c2b14eeb78983c6fad73b8fdcf84b2383bfa453558e525fa8e, 0xea9d399d905b720046ff78a5abb3cb56835e35a30c958095ea226947a633ef73),
(0x62f43dd4f1f4c310266a36c3909afb5f10d3dfd1a7a6b5d8939313340e4d4bc8, 0xbb7589f1f83bd6472e34fe2253a101f275525829daa2e8ef89fa1dcbb590f3ed),
(0x006cf371d549c0451415aa750cf594d4865f6e446f62df4fcc1cf312f79d72f7, 0xf8ceb62b5c979bd282a4ce20682b45a02b3dee9d068ce16a7581adc5c9e93af4),
(0x5bd7b780770be9c37c1638dd8f95408649aeb371516bdf3c509efc5b47cdd7e7, 0xd46c78488a87aaf4f606b91c5add0c25efc12c032a28b1e302190999286ba9ff),
(0xc7704954a319bd4ae5a086653b959ba081eecd7ff15681af0e6bf3dbc36b6a62, 0x373543e824784ba83f53b9c6189ccc4be508f600b15c737836e3b3ca516d0fe7),
(0x2b4f27fe41533a9dd807da707102c1eed6e92c8d09e439588fedc6d039b19cda, 0x98ba83100ecd7cb1c11fadd4a92f4c3049ba218024015d6b089e2ad9f81fb424),
(0x0e7d41710b3dc34d2600c581d6931f972c920c813d7c3db54d306c8a5d4c0e5a, 0xb29581ba9a82538799fa97efb5a6c4a303e75b71d1cd51f75b6144f24a9a409a),
(0x6203022c18f435770527004356a2717f2face761e806e84b2b5660d5f1c5d52e, 0x18a52f255d0a4d750275fe973542b97e0212efd6aa8864eb06c80865136a720d),
(0xbd81c7a28c1c80dba0e327fe3b0fccca48987679791e66300e81c00492e43b2b, 0xca50a84ea14bbc649e0831f07f185536416064ace93a8678db1e2347803871c0),
(0x9bc43e1ad3c1390fcd1385cd603a6e0db875eb4e6f3a554a0626a9b4fc4bc29a, 0x857a58bf9aa54bb57acd8b34b79717b264ea39bdd8f4a22e6b12e6a6e0cb2cd4),
(0x3055a68d194de3c79ef0117cb98bfaa15e5bfb71c656f9082c8769cca7e40f33, 0x0183f9eadfebe1c4bf0218cfb6aba6bcacbd8c72a7fe086c1c9233e4340d1d10),
(0x4adbf984ad1fd188c927107243583b802cec12317d8bbe1b71079fbb734b08ac, 0x145271889560ceff3d9507668e3f2d0b2192ceb6f79f59547094d5e3d7ec04e6),
(0x38f72dcc27e041d9c7bae3979cf16d2283fc6a36aa074b0cd00651d1a56487cc, 0x5238c97c33a106e41370d6f2c0b6ffc6496104442e51988df7160c3a933dc0bf),
(0xde55bd8a7bdffde0a1413828ac59ff2a0456064747c27813322188c6655be2d3, 0x477861b0df5b25f375f9d09797b0afb767bf9d51b996d51ce65d3bb50042d9da),
(0xc617bcfdc47e02b8918edf98666fe912e19340ea6c5678938739b89e5e3bcc66, 0xb90ba117357e76832ae0f4e8644cfc49a6e04672b5b08d473b82634965117072),
(0x4655c1961b5188c94b6402f1e92b3033c455f4dbecadb6724adab3bbf1c84758, 0x3ceecc93a2575f4dfb202df4f4bc05ea714600c028389b5cf2c1c6dde6fbc4a0),
(0xfca90f40dc05e5ad3693c503fab43da0110df4319c1dc4c9e5f86e8dd7726a45, 0xf5822f9bbe3e66041af37aeb19a70a6e7478edec68c8e1c3e6cc86fc5f5771ca),
(0x3176cc4adcb28258779e88d7f90d3b3ea31cbe0578c7cafb93ff151bd27f61e9, 0x3863f2cc148a0a43c94fe7bbafb5ab5b6a18ce4456cd06aac340c23142cc0135),
(0x63269f73d124210ad070db1514f82cc551d9c19cd31a54e0b811e650ebb2ddc4, 0xbf8ec7dd8a787a424a74114e5088c387038246bc3f6aa188e300f0dbd85cd0ac),
(0x679a1d328d0f53b61ae7f544541326a80f07e74934dd2708dee3ce54632003d0, 0x83ca13488f21eca311be341d5f6ee9a6c9b3eb55c9a3485c0349018a725c350f),
(0x69a27d7929982c84d3948568a54d8933f7172f9de80276fb846cf399e0b38b28, 0xf411d207cb0f0bb8574b16a122f39bd769c8b7f5ac2db4f3a02163e43bb26168),
(0x298d505701af5042cbff21716029cef2abfdabb9cafebc7f9dd56c8f6773ee4d, 0xf4343e71d271844e412e62c4bf6dc36f4271bda79ccfa22075e3c055aa97e9e1),
(0x3f2983da46d1f1018f8eb9845bcf3930e26f66e4544f63b1f8f8b979200c4653, 0x4973a914c4ad33b1036d57e6b326d3809b2c38bc79d81b53b26c599509d71db0),
(0xf836fd3e30ceb88d942d64b2a1d2a6f954412ea1ef6a3b1359faa8bf7e3538dd, 0x720a308153476b5a709fd29c158b7720c8161ee306e6aba3b28e0282cf7f9367),
(0xdd72eb9b911e38a263bc8ee4fe991fe9295ed52201eef930b3ae2df200ef583a, 0x2a0da5a5688bf7f979285d9b360b53b2398e86b143f10b8683cb40c940c1b2ef),
(0x551e265046ab255cc427bd818258b7f37cef92a4496119be0283f0334968a619, 0x317c33d24cd8f35b9b86a5ecd1582a6ee5ca16aa3c6ea23b2007a370e7bc4f30),
(0x6683de92131de3d0ecb19a3047825591ab28cb615c852a90fbd3ad785336c650, 0x49eea58e7fd95523f8a9556ec46fa0e4b3c3b2c208e5d9e4d636d089282225f8),
(0xb5b3b1e284a6ea65e0a9b146e8f895e9ca99ef3d31a4bac7bea49c893cf97805, 0xa1720a94f333e296f2b91437e19500be3cf16cc3547e9667ffa4ee88e5b6fe0d),
(0xa50197737c3376849709a2329718d463ccdde43a55350d1011a2401f9bcbf466, 0x09cc069effefc5dde8fa5e09b6b751ebc51fff8cfbf3c27e12efad87a9d429e2),
(0x9ec3498feb2bd86142841b663b1c58b2e5cb722488e2f849e1236b63ec1588fb, 0xe00c91a5e14b97f0362719bf2150dfede517e585a807333ba000652f0c1f5f12)]

/-- secp256k1_pre_g_128[1152..1215], /repo/src/precomputed_ecmult.c:9410-9473 -/
def h02_2 : List (Nat × Nat) := [
(0xe10b6cb4adc13185750b446bab926667581f97bc5aaf04b1f4731abef3c5b6b2, 0x53a512137db20477f3a87bba5b65c01dd5520b42f2660ed3c1f5fdc835e2b9c3),
(0xb754a967e36ea7c798c93691e02b604360ace92713b18d0d3ff61ce1dd3ae314, 0x8a9a39639aa7ee59a42f8d5fbab01e50d83ee029933cf59be12b82a15473d849),
(0x5fefcb61c10cbf3e06f8a51e6bea569d7999a2756340ac8d489183ff32efa869, 0xd81b3093cbc4835c1d88c09328c20541dfe499509b34920715bbe1bf4e881e83),
(0xfe51a3bb04ac97e196009400b27c8995f0ed6f0ab29b918470aa442f27d2d848, 0x8568fce0a4c39e440f2b8aaf59f0b183d306254f0083cbd6ec5fd568c9116a58),
(0x6a3e46299fccfedbc58d5d38aeb2a420391df798e447558d7b591466fab7dee3, 0x1bed8fba7bb15d9dd42e7b5a3ab1d9e689873eb9e3161a91aec3ee9b22a5e548),
(0xadfdbcb83c40d4def7d62d970e16bd3233db304d392492ee7457ffc897450c37, 0x7b082bdc163549ec2a8b588c4156ac238fde78192e1cc1956be85b87f4138e0e),
(0x96850fcc9c202c5483654c2702d17011509ed7dc6ecc6cb9f06c3dd50113bf61, 0x104044327f966c49af0c05dac7ec18b5b9fcc455a01c3b6c0088b8b0d281aaf7),
(0x2ae211978f78ca14d88151ca804379a71703f514166f3ac4f09409b55c458bbe, 0x4de74cd9576035fd451c7dde387961ce2328e327fa0312c86cbc9dc419ecf7b1),
(0xedc18742e1b5c9962661a332cd62c4267e5816e3c52746cfb79eac611a987e57, 0x80003b3fc63309bf3f9d484febabe57929ba903230311bc02c021a3405b4fe5e),
(0x7802aa2a5fa0f0ae29a90885c8b9436838b35d49843765aa1d6a640cfe43a244, 0x0c7f329fe63239a8407297e0416c49bb7e3dda1185baa5dd7f5f71679192a803),
(0xfb774579b124475ac36ede712e3fc5aac2173de835e72386bf67bf7f992335cf, 0xc0e66b5163c17b7ae43ebf0e31a8d641b6f413a6b763ac01cdfcbcc047a82c94),
(0xd81a3d8a43abae9e32f94881fe9c1200695a9c24a31b6982051e21b3fcbc2852, 0x630dd811e8a8cb6d7bf51de7e0a98db5a693e3a3c9064dbf2ccf6bf2dd12673f),
(0x519fcfd497cf068b804da0c7e2268cda7cb2eda04be5249f9bf776b7c7324cf0, 0xbec6f4cd198ab3ebbe6916466e44ab9fa357c8ec3bca391dc20e6ffc9562fdb9),
(0xcc4ad3e48fd660735e193853e0f9b1c23e31b284e277044124f9296f868ef592, 0x88af158d8583c4747d5520ac67b03c759b12151edb25af68996263add783c27b),
(0xadd950ae6f5186a598b40cf964ded6eac06a57a14b85de338f70903478d24117, 0xc59ca4bd2d69285cdebd6853a0bec744111f6dfc7004d65bc047bff4a3affa7d),
(0xdc071b4543097de712bc81730cb358afef0437c67c4927ddd0bc3f6dbab383e4, 0x793912a9899b304c173b2adfc187dfbff28fcaa0fb11b85f9e410b40e95ca8ed),
(0x5dce337e6db6099da9c37da4a96b7a72fd97a67247f6babe94d79b1aaec167c7, 0x1b887fba1f098a43b6482991f16ba2a0eb35bf5664eb21d57549dbd64e4377f6),
(0x516eb6ad8493a6626d22ead80e808982900a83f43e6109e5ba284cf9e1f5cfcb, 0xca350ab38085b46f48d8308c61d3f947ef6a8511bb36fe3c68d30fefece05042),
(0xf767c1503b1f2da1e5b912114e917c87732b3fb808c860a335af1c7cf00e5e75, 0x3ecef8c8cdbe467b888f64a2655ddab509ec610e153cd65795bb473da1aaab54),
(0xf9bbebcf0f792c8ca7bbc5d8f177de7a4185582c2cc65e7531f3ac2673c977f0, 0x290ab4fefecb3a26256f767b8a19e55fac751eaaacecaf52b8c9965749614a85),
(0xc6bfe1febe5c8db1f55bff42c123df616ec3adbcc9b08e8eaf477fcf4d47c45f, 0xc595f882d6d6a2ffd832eddc9567989041c27101347ea995c79ad56cd641792f),
(0x56c2d771808fb4c871dcfe6e5170bb47c55595218b872425761829e5e0d3ce1e, 0x6de72ae69e03e626fdca91889e721c6112ec15af7163629f5ee0fc9f540468ba),
(0x20218b05ec9f5be587a96d8c3c0cf7d2da9ecffefc604fb5066a36675109d663, 0x2ec1a7c2c5357e241f2ea0aa7a7321aeb41bfa3a88b42e12e79283bbef8f6993),
(0x3a0892690a04ccd95bfdb4f33494aff3519035f4bb3a4f09e2afcaff976be4ee, 0xe5680e25fb0ba1fe91693757b3404b320bbeba22640da757ed91ad856842d1a2),
(0x8f9f2296a0cd8b53db0fd0f259860496dfd3e101b2975a2e2856523af45b3f07, 0x61c159072cacdf31b229015cd6290d778ab3be0a57785920a3fb5722b5c625b5),
(0x86580be8695bda97cd1599b26d4b6328097e2b90d1ea106c836f474cfe88070e, 0xabae68a17e19ac5838a2fe5fd07dc7ee2bb220a89dba4ac6166c51abb17d7d21),
(0xfb6ac38a1e69d589ecc5b4f0e57aa1e5eb1f9458fb187d048c72dd2972b4d762, 0xd601dd16bec271f316f1d3af2b82b5cbe5d1806f0b9600147fb0130186ac32c1),
(0x7c10606bc54fea81bf3aec9472bb09cec5bb7d31b66e27b4242b8dbe7ea5f0b0, 0x12215180d3d6564376583987240b445a02ea522a3e0250abd14d77dbbdf68f54),
(0x85e6ab94833593bc74c7822b1d9f384a740a5be63b8464952042b0172d52a1a6, 0xf5c160d068d6f86a8f6512138cd28e3ed6e69fccdc75f0f981fe5ebe01fae93a),
(0x7e1e2d3a99cd1ba051b74ea0e5471f505e626aecb880ca27f02113adff51cfe5, 0x413ec82ee9d4fe378c232229136f1adec1eb96cec006299781f4b0099dad89bc),
(0x589640ad813735f2ed7a08dd6931c61d6a9490ac729c2bd2928ebd01e87aaacd, 0x89d6b10b8a89fb4b3679fc33096c4cd57a1e909be343ee15c1a0271920485429),
(0x7080cf4ff3465ce8fdcdb0ef3741c19d91fdd7d444118c5d7b7ad0405e6e6608, 0x7a3f0da95cbc0ba0b5c6d334f80db1d83033489d34143d347dfad89f8e2441fe),
(0xbb660b4c2d4002692dd96bd4d7737c31091deb036553e61c7d59a87626917c55, 0xb494ad13a75604970606840315e8b86ff150af1118dc02faf5ea3f40c0983c24),
(0x73a241ec7ebf15b24408161c5d8a5c653f4f4fb08cddae0c1e2c506d9f221b27, 0x80534bb433a0a56f784865041d480d8f64bbe192a2f6f32b5e1bc175d463640a),
(0xfdc1ef51f08bfdbc7705741e6a2b58bf9e45f202c3d7ba6f89a15aaa78b1fe07, 0x7e9d00dcdc1e4878647ac05b558325401684f714755f4e36880e5a0e996c0586),
(0x204842cba0ce5cc13ab44736ea0e33dfa15ab13a912687bc6d6733d3a33618af, 0xafc92205a6e991cbfad18741818a94f29e1804dc2145ba35896f92acc96bd521),
(0xa03a9c1ef82c31518100956750486869a47c4a9983bad93e0b2bcb60157ed768, 0x786f9164fb9c6980eef3e5eed9a43b8b02158ba2dcd8663ca26cf19ff6090a65),
(0x5e3b6e5f6cb417846355e3ff7da813cdfa18bd42c54565baee19b15bdbc00ed2, 0xb9c3a55342bf2284fc3b8f9f88d3e4d99d6f358ac5c8acfde340036c42ee603f),
(0x19b0960e082d1280663dfbd6efb2746cabf764761029a54b0154385ca05dbc70, 0xf8b28bbc440112a945f35645135d041d33df5ded92116f312d2664f4e5504773),
(0x1061e9007597bafe74b9b274ba1a22cc6f1c2d1db6be8d0509876638dff3677e, 0x707ac922dec592ec44d7b59ebe2518a5fe2ffff14cf4cfa98155c78121444b21),
(0xc9184c1160fc7d875439b56769a0e501cc0e221e3b155f5709a71cf1f3030b85, 0x880b69e37c04689fd6dd30f875f238998e83e5949fb1ee308c43e98228327805),
(0xa35fb3044dec52cd8fc5af94e6c26ba5c8fa23642622af12d37559ff4374cf04, 0x1544f375692a3584ac7adcb9a3422dcf8b3604718532684042dd755c112242fd),
(0xba8c03ad60ffebe8118efbe8eb130f6a1b2c501a78000a8c1b204bd1b90929ca, 0xe95ef729a3f341e0faf732112f7800ab65b88d47ae137722f11369c6e3aaafbe),
(0xd2ba5755842d8a7797fba189f49a010afe08495f5e64bba3361d1b528f30ddb9, 0xda3669b10cad179f784bc5f0c3a55d600549e72c390b7d477c030bfa53df7957),
(0x3e04eb587ec988b277b1d2b2880ccb24d3de157954ac994a086db9ae6c8703f2, 0xfa412113e6dc85d9eeb1d6503df96fbcff3c6089cc5c207bb98cdb4fe728dd9c),
(0xefe5bb424339a49d3e19aefa91f466d660c9f1205df91ca17a0da3c2699fe7f6, 0x98c6212ffb39640fcea21db297cf9fc5e3576b0a7cb4408ff9e3e9d3245156e9),
(0xa29442e5a330336deefe65915c4e0ea7bca2dc2d9816c8a302bd66a4baa0908b, 0xa1bf88297320e47c3b774c130a6fb9e6dc5e7789446663112db427a9dea135e6),
(0x454bccba6f7225f6a91f632d1c9218b148e877ff8018d3714da8aa88f08bb792, 0xda0ded312d532b0160a1106b202ea0dd8157753da07e0e3e918958b745ec713c),
(0x0316394032c39566cb0631afa250540456573782e940dfced425834cdcc2dca9, 0x18c561c41b15b0d1a477464c6f4d668a67f0895fa55544dd8445a8dbcfcc5fc7),
(0x54b5375f53f07bf20f15fcedffc7132d5240893a3bce0a92bc4fc88449b07703, 0x31be2b3f0a944251e52922bdfa2ea218f5df11c6d67226a7b3f163ee61abdee7),
(0x283ce31b0745d0672bfb9b6a694da3ccde9033c4639e83280d2b7ee60058b3bd, 0xf6a948a4d452bb56e3dc24e76e81d2c90dc1c7aa67aab38ff9d20044d8c0245a),
(0xb5e74f53117ba7547b12419cb049457948d5f831624bb3e3a60167f210e99967, 0x5f635754d635f9aaa83c22e89f3830083da8331f4cfd9b5e10d48280718dd3e6),
(0x681e5f32cfa33183170dc776fcd51dafd587c34b1cd271340a856713cbf83080, 0xc587d8b8d144e4dd7b4361d9b7fcf30a76f646effbe390e38f241a547279266a),
(0x1fba5eb7722f289f2521ec17d05df56d2f28b2215ff8c621b925a5fd029f1d0c, 0xdf1140d997ecfd4dfa7f287efcacb66a34283b635b2bb7d1524dcbe9eb11f5ba),
(0x38bff4b0df378b3ced38fc5a733f1bce17855b64cc254f2031e1300a6a0d0a77, 0x6d4f065df634296e64c485ee32537475f35a5065e73bfdc2520dca1c6606b1be),
(0x707013c359a9264bbe4050d527b5798f779df8a077cc95ed6e08f74ee57de831, 0xb9f379a0315386c0657b8dcc53cd98ae582313a7632e4c3fda9c9157014ea422),
(0xad94ed2f70282484e490abbb320905abfc5b8c919de6535a73da3f6345642ef5, 0x9dbe8813a554e1f3e98011fec65452160fdf49736d026bd6cb8702c2aac88457),
(0x47b56de4e991876a499ad1552443785cfd174f8758b881f54f545584ff62612e, 0x0a1405375855beb77c56117a5f753777383d92d20d4912d986bd59a57cefdced),
(0x51bce64e9291a6931f24643af11f2813f31f624d0cf336af03cf7b4815f431e8, 0x08f743d9a30122470ee35d284120394ff40c4c690d75ae13a063aabaed07e552),
(0x76287cfeb52c5a0fce98e56b49b4ebe083b80bee03bc7447a0cb9542e7f7a43f, 0x736b7e56fa5744bbd39d064a50d98b07e9e3399bdc5847ff13e33eb6e2a7a7bc),
(0x614d739ead01010c3191aaa2c1b7771a8dc29bccf1c4d55b181acdc0df6b8f5e, 0x5ccd4e8fe8607b76c8a96c2c5000464e5591efdbaaf071664f4db66d0c2f8085),
(0xc38444c8ee8c35f2b339404d90d53ed035cd58898966380803e2d33a5e4e1bc9, 0x8b4408cdde5452ebdc222109287fa9ab1d2ffc9a16b93f441f4bfaf66ccd29f2),
(0x8a9c9649c6016f35d819bf02852bfde656a1c1972dbb65392391df7a99c8f349, 0xb2dcd957be2c19fa6c4a6030a4cb500b1797aa5a339181afdc6e974ad769a8ed),
(0xa0f5cd1be444970925d0ea0a6cd28d7596292ab41d1766bced6b3311bea04b03, 0xd270b1e9291b29b0ce045d923e449ce0c8d7931a071cf4b868af9594927ff95b)]

/-- secp256k1_pre_g_128[1216..1279], /repo/src/precomputed_ecmult.c:9474-9537 -/
def h02_3 : List (Nat × Nat) := [
(0xa78f2336876759877afbdbaf028e259025c64ddca9543a64709d4c111f3a9614, 0x1365fac9a5d245bee5245b3ab1f50d19de34aa9a439f5e7ee241f04232a6de83),
(0x3bfd37e3ae482c5b92baa6f5a413a46baf6cae309ee3fb514a9fc3e40b391769, 0x2d93081834bbb0dc66e424a07778c9cfd0219c064dc7fd66bdc554f0396d1c59),
(0x92cac49a00261d23e776ea757e796d2ad426f23d602ece5d1b41cd71d13881a2, 0x8c76ec138e0f37c899a3e587a8c0c5d8c7a43ac8187a35dac0d8492e571521c1),
(0x0cf6ede00ea7dc67cc3708941493567b718944de7a96dd6b829402140b56842a, 0xe2b717d4e939608b7ad6128a53dc8c520fa070d0f591842ca76e8d0f54627cb7),
(0x6204c998ba51294526ecb92bbb06e218968c8c2d11e0435e3dd1bf82fa91e17a, 0x1690a15fe78365c9c8fae21ef0af2a3fd1ed18c79a607939d12d8add94cd0ea4),
(0xa2c4fb48cc5500e135268d13a6ac2e16d8ce0707f2237f12ef71affde4c0aa5d, 0x3809440ee608c897cb7e3906c58123abc403f57a8d59b9509e5f2d703c0cd839),
(0xd8af7fa1cc303e4bc5da36a6d3b2e3096acc8ec4d73224f2b667873deb656f60, 0x9fc7f2bd5a5533c50dfb39f97045b1355e14d81b9edeae5ddd4ccffff0c6de0d),
(0x3e9a00adb873291a604e6bbdb05304bd3770733ed1daf90a864d775d76dea0e7, 0xdeb49457f6d1c4ef53524e37f19a8d7720a5cb9b321b463051f8eeb40901ded0),
(0x0bef5ae930aa620c9854346aac1b2ac9760ca8d5ea18936809de50e5d3dc3d7f, 0x20d80c42f7925f59b0212b9c7d4041e505da98a3fe373034c0fdfad648dfc48f),
(0xcd4169fbcd28d5076c1743088f39645a38215e47888a435d5922b4909155f67f, 0xf9e62ca21a5564dd5a65f274356c1b68a170dac64b5aa5b929dc2f2635e74674),
(0xa4b691ed34cd2624fdda2504797d76cd4bd37b114cf3921d538b6042ed5a4c28, 0xc65374b16781b4c115b0ca5453e3397e5c045a7772c72d12c336c205d26af55d),
(0x5e4e916a4226b788197cf68faa850c0fc2b3a615bf9e847dc9e55dbd88aa4818, 0x3f3c3ea25c7c52e65c9991f4464f4b2ff3395d053eb272808d984a31b798951e),
(0xdd4782cff4d69f72c951b3ad50a4c601f743e6ba2194d05ca5f474d5eba74a7c, 0x97a7bb5e9854ef7c5e3dd6ae8628d8c205d3a791d4db281d6c7c12c820977b99),
(0xa1530ad54ab405ecddb945432669c07c281aff4113e4af0bcc080991c1adce36, 0xf3d252212732842e5dddda781e2aa5b1b18550b6fdbb968a774449584a63e756),
(0x51924ef7b438e4f00614523f232af64be5ee0d32ad8e53234a2d76ca9e64719e, 0x87c115a811f94db56736e82b8b644bfbfdfe6e558ead817626858c77128a8095),
(0x82cfee68e137d874107625d4be20a9d56ac9055c06b97563a3bd556853fada6e, 0xdd49aa46c4f5c51c72a804d76dee7a72a363e978502a5cc06ff6798730733b7a),
(0xa3738876f7f1ef4405a1346b036c7da6e02b70fd2cc3bf30a4efd7e55f2e623a, 0x6596f52be1ea52b2be0de46e5480331ab1204d36581b2edf368d9611ea04a21a),
(0xae4ca6f7aec818d72b624fd6b2ccf24a8d8382b318b0dd7dd82036582980bcbc, 0x6a7ada0335ad7c571e2a29f2554c8bbb348155961aa995e92378c97add8f1ae2),
(0xbe33562bfa9d762f9b18d1984dccb9c84d6ac8942d8506b1400f7dfa89d12732, 0xb666efb877c666a735336cc214e874a5c4f5c956903048fe473d2e6e9475d442),
(0x9d7da6d9815b3db85303b2888a60ff6bf382891f05c45ecf37cb92da37c74446, 0x46c2907372ba5be0e61f6d734b413d44df3d2c0d89fcc1ac5402b68d755b12a8),
(0x39233d31e513c2bcc06028498bb7b3be0b5981fb7c99a366b62a9df43b0d4d3f, 0xfc27857c92e0ea4f4d8ac3e1c61fa7741ec57d4ba9affc81f97e384db916dfd8),
(0x5be2d788db90e83b058d02dd7b58f41a547e6f33a82d84b43f7e5143db7768be, 0x0b8cf3a86b2dfa33e71396f2e84fb6cfd585ef6b9a264875b9049f2f6fde1026),
(0x3ff59de8191fa14c113600c25700479e7c53a0be3827f5d682f7861e88f162ac, 0x025d59856ab0b6e7beff5f60c279a11f08ae4efb5e79a4dfd815cc322dc77ba2),
(0x81dc9c30ed22192098ad9475da00f8d8b61a18a4e6305b5875f75bc1719a256f, 0x2970745e5c44cb27a6f8f9c9869a25f89cccf0244d40ffc2ca678d28f54682a5),
(0xba3e1e16579c40991576121b230d4f4aea386943bb7a8d24f765a3e49b70e9da, 0xa1eeb808653cfa678a9d8d9c7d30e7b154eb0de655abaabd90f8223632c72f4e),
(0x035ffe8150faaee1141f52a51b7d1e69fa66d1943b96f04ca0589c4883f854f8, 0xd66a1822e83f6dd3fcca09b8df1105c0b4ad316306070dc9b7dd08a8c9366fad),
(0x398ebc221435f9721c214c0ae38b98178b50d7e3e5724f685b950aad60763a06, 0xc2df549d0eb2eeabfccd4da7fc2c8ce915551b87149030116825b80480811f46),
(0x2ba27f33e7d0a75d1d18511a84e5ce1e9ca89d2aa44fda0d6cfa13890ca89e96, 0x5023684b832375c38f39946cc91ca11445c2ac54fcc12f19c6bb662b997cf4a7),
(0x4257063e7ec51f9204ecd485653182eb2b54973ef1ff014465cd151ef9e829c2, 0x47351f4116dd051511c9ab35b69abd64919f8b5a812ad5d747c5462b55232c1c),
(0x77e737c1b5b3ca5694218582d2e5651980da819588ee46ebe3ef172d9b4063a8, 0x0f7cb5c5e66798ad37c8d4f11cb912e3651ae45c4d7b07b50e0e20c289d1587a),
(0xdfcbb64d71018c1fbdef98b82a4cb72def027d4347b5e8c44a7eec7a34cdaa4f, 0xdfc0cdbcc72075888af379e8751c4f09bc2f4e582dca9a92e06b0c5d97972a23),
(0x8eb686d0a7871e8e32ac5256746d7189b39855e22a52ce78ce6962add355ae8a, 0xea8b3611fec52837fd0afe424c22c5fb89b796756e8a6a5ed71e331c6ccc30da),
(0xd17d8713ebaf2dd5316703ff8c4c20feee56522dbea7a98785a96b1d36cc3e54, 0xea70b7e86d7862ca9d8a7a19bf8941d0e9fdb8724e46f8b56821d85bddc10b54),
(0x7d4c77e6ae050a1c856d28e9c14eeeda249c471f82cd6cfa3ec037e230b3ba89, 0xc5a07653f5fbdf934b180f39327d102d900ad68c3da1a7bcea773fe96265fe60),
(0x96381109451e5e686d61d51b3b250bcc3721dced0de39e88f4f50c1b4d7ebcab, 0x9498f419b088ca547f17642bdd6f0fe609f06514a72283947f15d16564801b64),
(0x7400b55054353d737b2da8f2f8f4e95385f44e83fda3cd208afaf90a978c2ba7, 0x9933aca3ce503677e2129a04cdb1d5cae36bed1d275048be6b18aae7fd909771),
(0x3d7b0c11fff7bfd271ef59639f12ebd8d1de3bc393b51be2a011e4ba066ff59f, 0xb63974317f7ca0e5ce1eb57d8a8861448bddb12f75469789b791c4cf32404b9d),
(0x4944d9ec7ebf7f14e63125455c8dd99645d128ddfde3743c5cd6f4cf65c46328, 0xf065519313baaec1329cd408c9d1f3d35c2f49d9126c9d1f5bf271bf2c589996),
(0x9960432b4764b1d0f8607d6d8e08b355f37b993369bacb5189ce46d279bdecf1, 0x304ebb4c0921d2fa29200ea9ec214adff7e1a9f8debab86578fac56b07160ebd),
(0x313f535b63585658fc3409cc726b5ded9196cc596331681d9ca84aa3bb3de4d6, 0xe511a48aa55fe0ebe5f23bcfd01ff4f159b049ff8c999fb3dd64092fc56c9716),
(0x85c4586f8cd36dc0db9b9006ef4f74ecc99478d65c011bcb3ccf034c548ed7b2, 0xcd6953c0045c5d6cdc6325923f9b0070144c8c5a67639f63a75b4d105b434229),
(0x968bc6d2a7fc359d1edb668db7381eebd489b20db64d651d21d706f994671af8, 0xfb0ad6a3723d707cc1b2f3304e59517ede88bcfc0b52f3ce0d0bdb7cf0725186),
(0x2325aceb3722e77ee6cc722156ec0e8726d343cdcff6a4200e58c563bf28985d, 0x601a7f53dd295978f2a596836f3e9eec19b9c8fde81bba5a21acc8ff878d39e1),
(0x8c6e76abb2313beadc0667f99aaf32a64b1c933587c31dff05407fdd67acd2e4, 0x27e3b850d422df3ac93b19c4229b390e3d7bb92e340daa46b3f5112d1e50c29f),
(0xe31fee3134468d3e4d6b2c728d538a140352e7a88b9837af9d8d42305e36748f, 0x89b096e12d1948f8937974f6b9a101e237f9df3e280d4139e419a1b26d0309be),
(0x596b586e849404b47c742fdd7e5a3398da748ab067ae2981215c17d4b0d306c6, 0xe96c5cc5912cc7115e4e8f05edadf2192ac277602b2ce791ff6e18f862a0a16b),
(0x200cc1675cf500cba199c3b71195270fd453d5a38313f3177145248615aa1c02, 0x780aacc87e34429c6445c133492403711905e24ec17de4b3e7b79cf55320ce61),
(0x7e4d5432e10e1fcf079148f877a4f24770f0e96f81331767dfb5e9dd2ad2025f, 0x35f5dbb26ee82837f37f5fd7d417982dfa58f0ca13e3136eec0b525163aa432a),
(0xc1ed750895c97e6e7a78f800b6eb10c0ff21f879352870e5776bb7bd9c0237b7, 0x90723a068dc0aa899c31e89f64ffec3da38e809597209bb1d8b1418feb418fb9),
(0xe5fd4ae8a53e809f83d239b2a15d8dd29948ddae6956d8defc7ce730b2104770, 0x6a4dda9c1cbb2197208e8ebd35f2ddbb050c7bf5df4c112ade02f0def71c4fa2),
(0x03ce75f24b33bd887ab72cdb42f9ecefe3534d15f6733f2ca766eac1da51f30d, 0x9eda315b51ddf6e262ce9b5d828af559a43eb48cd3dc936213bf04cb1a838ed7),
(0x98c04c4f33a81cd4e498d8ce77edf598527fb9a88e19dd34ad8cef3b8813391c, 0xfd2bcd67f853f812f4371c4630560957acb4843a8ff21949483f0617ff8bd3a7),
(0x050e9c882906cb06cbce62f8413ce43df3d2dd286e4141b10fc8a0790a87bbf3, 0x043c713bb05f19cc685eefb2ba04474a479a615a2f3c8a9ce1c6243cd82fa3fb),
(0x5d41ba17458bde3b064faa663f21b76c71bf65642a73e3a2eeb8a83143adf2d1, 0x17effc54b30821592b39e22b07ab058f07f64fa76876351087cc445f57b6cec5),
(0x4e332cbf2a02593b6e83cb8e1d92e0766b34cc60646fe3e789d38f9d24d5b077, 0x50fa745c3ab9030095b6998599e391e1744ad03ddecd1955c8b2a859e79e1f95),
(0x1bbf629d27ee825bc357455e43410507c83cd47cdddb53f834716ebb35a2dae9, 0x850908c1e99753f34f40070ec0bd85e58fb72f69601d370971ffa8943de9bb75),
(0xa9149aeff9dbd62aad0cb3f5debdcb3023aece9bdc79db8aa25f5b01b5cde650, 0xa7bb4b46e6db111f468a16d09df686d6ae3c148c61d99a79918f0bf6b4c327bd),
(0x801009ee0185d64219de5b406b21dacbb98ffcdd75f8037ffc5e1721fdb72a71, 0xe821660957c7ad6c1dd36f70645c75f138283905898650f2daf2e5af37e26441),
(0xc070e99ae466f67a0b23458466f132ec96c6b6393900468ab7368a86c0ba6770, 0x883fabdf358d4f568a56f77e3b291fffbe6f8fcf9c0f0171a154490550769362),
(0x6be89639cf61276178f549a9ed0af9a18e028c531dff79da71c5ff1f54109f4a, 0x777aed7ddd37913126a92f38ff9970c4ff2dd6f16d766e0d8215fdb39604cf14),
(0xd1fd31d41ce71e4a02052e796dbb1a87100945052b9d90092195afc59624ce8c, 0xf357abd378a8029deaa796d91860e5e536d5f2aaea2bda2e5b510949253fded1),
(0x1c85382d66fef14b3cde617c0a426996614c328aead990337aed469b8f169d9e, 0x58c5af1cb236e6a84f58702ab727d9a5e2406a4dfdbf9113a8f895ef078a71f9),
(0x2d8fa9edd5fd67b742e5c2d52c128ad7eec32cb743cba12e272edfd94f36b5ea, 0x71b15f3937eb2a09f9533af4bc964c3223145340f780731f0aa9ad1d8f2cd37d),
(0x4f512379d9f6c596700d0a15950ddbde40ceb1c687030c954c538122dfdbafb4, 0x54de9b05f864df5eba861980c7dd85674b320afbe0381674c7f7c0834248c05b)]

/-- secp256k1_pre_g_128[1280..1343], /repo/src/precomputed_ecmult.c:9538-9601 -/
def h02_4 : List (Nat × Nat) := [
(0x9a5f91ba48562c2158e609496d43eca32c69995ced93e8340168d22cd9e7cd1c, 0x9f88a3ecc668eca2e01b11266acf9c5129bfa33ee12f76382d40d2a9b722b86b),
(0xdda30502d417fae4c4ccc6b6e833b75dd84d54fe0d58fcf006577dd852f9f610, 0xfbb88dda2e74641e6d45468d102e2a4207f4c57a6c7fab0c5d4dbfc1155469a1),
(0x8d2e9e7c5586141d848e50cc631ce5f40600dfb1618d65e8e88da5e35b26e117, 0x989c39ecffd67c54d55ab4fd85c2a556bb72fabcf763c9a9e33a1ed00251aa86),
(0x726ce076e6b63d6cb071cee1c3d1da2710c911cde3d59bbfa27a7ca9641ee995, 0x4e41baa0c91ff8d34d2d01acd8ab5d3606ea5e810d4895951c49622e610af9c1),
(0xdebc91fe183503d3fbac0dc2c9e95062c0d42971ed2e97aa27dbacd9bea43a1a, 0x13593715a6fece9af33b2ab80d5f26e66dfdf3c8ff688100d497a333be2d2f11),
(0xc539433577914ab8e7039e8c472ff2d7237c794ed6b24f41c585e910f0fd4b28, 0x2805359b628a9c4e7b30411280aa2a0d23c26cf69a47310d1fc6fc54cd26087b),
(0x9a2892fd33c300b1802bf1fbe8a8faec72b818104bee4e1cc998bc79a05f29b0, 0x997f123bc2fa0136522ebc53a5ce37cc5538705df5fa8bebb37f72ff45186e33),
(0xd4a22cac0f224fbe7ed7fe427e0bf1801503bbbfd73de79f4c558104b39a351a, 0x8268fe9730622e092a513349548e346a232603110a82e860341af6b83ace752b),
(0x4a4cf3ff15adbe1d8d414963b0709fb911d4d2bb877dc03c077594fb9cc11659, 0x57c8458336f1952a624418100ea64ad35109a30bc39ff36fc2dedd60d1ced874),
(0x58c0ecedb580d53098c836cf42ca2648e85e0b27871caf441f69bf0c158e1539, 0xeaf79c491e1dbc944e63d36f702cd1aa92e54a09fa11ffd74121783ee842467e),
(0xb0fbd0e8a60c7e8938a154f3fe586a33261323027f4e416f634cc9bf724892bb, 0x27ba767d6757f40db54fcb50104998ba6dd83f93137c3d079a0330c782a5d3c3),
(0xa94ae12a26b0135a125fecf3e4ef1844ee90c2f784cb40818c16d8c2d992f0d3, 0xa37447ba665e7595c7816a6f6bba3d66e046fe3608877c95bbc8a760218e2050),
(0x8cbdb09b3eb74fae32b6c4844f9004dcc540e2407305aeeb9adbe3088cdcbeb5, 0x02b863a291f6efd2ff07b14c04e5a169912df7451b49e3b810e72cf434c932fe),
(0x3f8cfac3b70eebe1cc6fb89ed508abd60ab3131c40d37afcf8f39c8734cdbac8, 0xdbb02111846ef25d794b303db48964b5a68b5287b443d321f0c493a12d58b65e),
(0xb61604e0cea3e79c12fe9a4e1816630b31fcaf4db3ac84b90547da60df15b25b, 0x1aaf2bad9ea0fa5b56665b41ba1264a4317d53889018d92cea2e9d9829b86801),
(0xeb0e74103c6ab38e1c26630a7fbd68b6fa51bda364d1ca3f07c86ef0451327d7, 0xdfa0501757c4d3c19541c9c7d9fb743845cdaacc2ee377d44c36817ae0e82e6d),
(0x636fc503be51e64c8dad28126762c04b1fcfdd7e4b25544f4bcd0bf69556b7ae, 0x57b83b0f051041497f3b6735a8b7d886b633c8dd5052d1e69848703a313f4cd9),
(0x2fcc70ec4d42235bc6afc2bd1d2de19c5ba9dc654ea3e288c15c7358e52ab330, 0x6a3560182bfa1e22db64cbbfcfcdb69535bde8e82519d06939577e65256a30ce),
(0x115006c38d38b8bfdb8969ebd6bdfa9583be81e5bd5bc7d01cd10e227ea94b54, 0x6043ad0216eb3fba9af39e83f6e878023fac023a732527802505a1d42080e08a),
(0x017d565a15ba1c2960ca2da82fe54d013756a986bedc19a515b653f28db3aaf1, 0x917bb9dd42040b3e4b8b05aab9d312527a63381933534c35f274ad7a9bc7399c),
(0x0dcc248988501c430b8598f7a3e5bca9d2af8f8ab482f30e02374c6d6b221ef2, 0xa859757dd5c6ec52b1f102a6ef00decdcd14cab599f1eb0a578646464f652e72),
(0xa68b2b9f4e9430b7cdd919db6e808a7fae2cf9c3d43cba03d833fa8f351f0b0f, 0xe34b8a32d3ad09238e95614d927780217f45b14df2f9cf66d6525bc594786526),
(0x2f954e5a938e11985d2d11e9ead59539fe7e2f174702d3c23190829f8d0e9462, 0xb2f0d379fa8b7d40ba2fecc846a393b1f6aaa6bf9f89ac61e55ab1e70bb16dd5),
(0x223d3d136bca94fd9b3fcae86bb2ddeb3cc33c8d3ccff556fa93938cc27ffe4f, 0x87e19106e317187cc256f7dd83d6219b27f6cd8a53bb4ec09c74ca5851512915),
(0x5591d8e8291161b643df3a3e9b4f495cb614432ba0f3aabf517834ad9e8f7b2e, 0x2c8d6a35f6267e52d9bd454ebba4719d30b3fe7ec40a1416673ef5940e6d07c2),
(0xeb2cfc4ad15d1a14870cbaecb9e9aefb4141841e2e4e6252c8e9375145f29a29, 0x78810e0810bfd992b7b04c79c7650150e62f210d6d35cb955bc672157052e5ac),
(0x6112c3f99680a8185e4b1d4c539cc436bdcdb47d2e19f92700d5e3e9eca3f74b, 0x6e860bdd723c8bfadac8f9d401f6ca96f2579d7c6a690f353b8da52b98da4403),
(0x892120d8d552d8b00c42c23b9a0f17c3b9b32914d7e315797b391deda7d58b16, 0xe62523acb3c778f2f913d1f64bdcc037cc4a9496ccf0cedf32502316b5cf7941),
(0x4758b456217ad3be02315583963044a560ca4a49168461c5ecbd1e911fc4dc0a, 0x99e4255a4f30973f057eec6a1c30ac1bbb74987b03c4e7ca9604878cd9d83679),
(0xab0422a69a207a8797fa0c6f978479afa3b95dc7d962e143b99e75756e5629da, 0x73398d0f00fc9855ebc280c32b8dfced84af0f704994edfa7a06e2e3a5823faa),
(0x1980432accb90b1430d0b4c35829374d852cc7a60f0a1b20ee7ad43ed545d227, 0x96ae3873bfbc8ceb2afd1a0e9b989bd069c919f8f2e515467668da5b9e8b05c5),
(0x4288137fe2dffb3aca761cd72abbef3e93b8a015743d50cbb716252ee0e93f17, 0xc02c333e36c366a6fbd855f14da0767271fddb0459e788de456086ddaa238825),
(0xd65fac3505bc89da0afc4d160aa73fa477e43276e0db7d3d52d9281ad6b6cde2, 0xe6f4c975a6c5f337b4500545603862d38e9f07e418886b1305678478c007383f),
(0x7029b144e62dd27a4fe8b54e1607936ebeb96784d1b294c843e19978b98f6ca7, 0x8b10ed6658056c6e3a2c90c3855444f09a1af347c73dd14aa478f2a67140a25c),
(0x4f2760ebdf969bdde80ea87da5da0c19fa343e4e4471571150295b43cf9183b2, 0x43e2c17bf3f9ef09fa01fd39b8f69b6915d8625d4daff425d462967783e28167),
(0xcc996aaddb4196a8f355f0d23b9fa539b573ce57f2ee7e5214372615c374a5fc, 0xb1c40f8718782935c30a9cb66be85d1144284badbfff99232c09f2dc0a8ef28d),
(0xc7818ad3f3e3d905b2c38e3985eb7091cd9b32853bdac6313cf4303cd54ade42, 0x55574c4e7bbb850b14763fb0fc1443cf3403a5fdd1f5f9378007fbaf94339eee),
(0x6cd035846fc48ebff4344d1f3ae5d2589a45dbc9e779445e52a757372589c4fd, 0xafa85b7db165e371adf67dda8e4d1fa94d811c928d2d4723a44e8cc893416e34),
(0xd652a205f716b1ae632b723591152314f5231b92474dcfd3bfaebbad443b2e0a, 0xd2198421b78240f7cb82f0d85de03d8bc4646a23ec166dcba458a06eb93bedcf),
(0xa807d04dcd844a1df99b3e4fe340045981ff0bafd34e2d73a6a052f8dc52fb54, 0x188a78bb739398353bbe5079ffbbc718c385c04797cfb151af019e9fa2e2cd9a),
(0x1efd2bbca5d6ad48e93acd07d6cb02b9b8c3a95e9f4cede224efdc17cc9eb2d7, 0xf951ef881b98c7e6357e191a1bb357f602a9d2aea8af1a050063eef366745b39),
(0x05bc5e54d27d3db5982bcd04497fe0e30ea0ff137c3bdf666ed0b9ac2395888f, 0x3555bc02d4f4eb01661f8b857321b36a5a22d975027103754c1f65f282ec3300),
(0x0f600a8d26b08d0de6e2ea80e8ad2f1e158cca7115be6f221f5b808f746a3247, 0x23be5a134bc3fa5b07ef75b28e8e11ba76c753dc6516caa3cd5b3ab18bca3523),
(0xfc7e4e0b2ab2a7a8cc5712a8be590135f5119bc36c73f81ae492bd2690ccaf7b, 0x4bd612f41f2746906ea862b8a6dd8929e4a682b5aa835cddb31c90ab381151a6),
(0x51325f3cfe12d00bfac67eecd79b63e541641d5876aa9700bcd3b3b589442655, 0xd6a894ad7b7ae6e2db962360579657ff982a35e591cc3b33a4437a4b133ef941),
(0x2db3ac271a55f608f21bd2d5717f003aafee9a6db8fefa0905626e4ac598aec8, 0xc526bf33a0c01c60c1cc9fc9d66609f53c662168b47cfdd6e0de0c889bf9533e),
(0x0908077293deb01b5eb05b5547de432135fbd4363f391be51e1d205dd5fa7dcc, 0xfe961eac172433370653d318b5c6215964dfef84d3cc3f23e034c1025ed7442d),
(0x32a1ad81e5a64fc82dacc03f6790cd4f045557ad3d3597cce2ec37bc339ed9d6, 0x87abcf68180100227097b63ca795cec679cb55d8a9076cf3d1371062627cb07a),
(0xf7cba8fa58689c51a0f1af76971d17a908c5849d55b396e9a3771d174d9246f9, 0xf4b0aba910d5a9caeda4d73335d5fba25309a0c2fc83072cac37b9ecaf58ee45),
(0xcda6b1042da900d9d65b6b7bc0579a43fab75f55ae7046d58ee8af826329ea81, 0x70c86c0eacfd74015a1171a01e3601e1a8ee20e29ac7c0fc068d6f1dcd1771e3),
(0xa261a64009c5b1ce9a8f27b0544ca0bda46f3bcad11b7f2ac23878f0f67ee58b, 0x1e26a71d4c42dae9b4e9cda8fd33d72585da67c3052594d420c6e410f3fff888),
(0xbc70c967fd7f842cc018e885d1fb6d349435aa3c682f68846b394ba6e9f4db57, 0xa2b99d3a837e2de0c40a0784078657013032efc487c47e5718d84e11f8bd9468),
(0x364152f75dc431494cbfdba3ffaf234ac7a265671051e0269c60389a7077a9c2, 0xac3ac7d9f4ec85433038ae4e7ede71d53c8fa60125bcd8eae084c32a0546d265),
(0x52fea4bed57d5d58d92f59d8e4022df9d82ca42fa3d89326cc36dd9694f3043d, 0xb7e9832852f98a75f738f9a37a67b39c5708c6085b6ab99b2495428d8c4feb35),
(0x34fee910c8bac880f973a096a9ac3ffb9c32ecc3d2be3ce67b8d6822863e1a4d, 0xe0f010969c9dc446c78db14b122e260c2231f6a0971d08b224355620689c7a17),
(0x6af28f0bf4c9d2e8192424ec31f076f70f815ab0f476a4bb4019b3bddb49c65b, 0x2c55fd2fbb663b311a9aa346917f606417d1e1dd0bca45d3f1350feb6ea45248),
(0x70b6ab6639e4b41e644f1b6b6ac5d36fa4f0ad813baec03b8bc74f724d320e46, 0xec6409e64f4e4fccd19ad5f1096d3cdd96f7135ddfcdec9523780c188a913a14),
(0xede56f114ab975aeadbeff50ff7dbbe30614196a138600bc15508481a065724d, 0x9e7fae4c11f421ed26d839dc61b0684b71906b636efdd73c02dadfc95336ecfc),
(0x83c34c3c840a73103d819d7466648e665de54af9f1683efe6857c3e4556df8a4, 0x9c238041562dd6c0eecd97719ce2eed290aa8137f109840fd31d70a40c86cd10),
(0xaa2afc9000089b985228cf03205e87a452cbdb4524d377c61020593da0c7e200, 0x3443196ab382ac19d3d3bc4fa3161e006d812924fe8a86af2db5cc2796be01f4),
(0xe42ec7dc4310cc8b9f2956a02fbf71fbe90eb045881ee800e3a757304155c520, 0x939ef2cfa52d91cfe20324bbe8da54d92d00094558abe7b693c2679cd625336c),
(0xbc0bdd24937c5200fd78de47a16ef9f4181617ab267fddd34a3c560632ec2b21, 0x0db04a4c10b521f7986e0e1d192b08704a028511205d7ac9df6d299352b63035),
(0xdc88c9d89b43a7335e310fbb3f760e2955c005d5640df9906264ebaeadadc8e7, 0x2d6779e46f98479465bfc67779feb7b73fe37b32cc23d63625a3c8d4fc2fc512),
(0xa7ae0d8ab0c932c62ff0cb02e05d76ef5ee3dc5088c57210f6f9e34980111c20, 0xd632abc9d63162c898b9dc94b321de53ac8dcc4569233cdd01d07da192e553a2)]

/-- secp256k1_pre_g_128[1344..1407], /repo/src/precomputed_ecmult.c:9602-9665 -/
def h02_5 : List (Nat × Nat) := [
(0x4620236ee7bd6eabdb203af757da6e64d631ac9ba5f03215592a5acc5cbe0e97, 0x5df4244f69ea1e2a6cf30cdf4fae66a2707851bc7028d8c88fa9769028627c6e),
(0x804cb84a3d8bd93051f50acacf9323015cd35fff349d8a38e2bd991f27d8f671, 0x4b77b8129ee0f83596ab2f1920362128cdc39552bbe6d267bbc9a8e470ae8d3f),
(0x6ea5370f5382b2f2b801fcbeea463912b4f6fb4d0e2072378e71dbbdb91c2ed2, 0xf5b4f909d8f3ff080e92a002f1959ec88b513ee2d37825b1a8bbe14190b2d88d),
(0xd8b8de1c4ff575a612bb0852af61c6b31ee56403b81a1f4769fc7072a2e22ba6, 0x1e3c4190d37abf89896ad82755c256e5f23cbdcb47b058928d538df4e2468c0e),
(0x66ac186404a0bd6e9c73f3ea43a00d6c80d3846705080a9e475c8291edf1b147, 0x2cc60c0f7db6b77601503efd551e1a369be98ec673dab0bca61881cc4fa1260e),
(0x47194a2c4ed223e707663cf938b5a5caf2784435c375d85bef3c53673f60e942, 0xb0fde11b5a64dc137bf2738c75027d575808a3ceabdf76045f4484c0d3d9f920),
(0x1141c8599af2d9838827474288dd768c9fdc1b2ac5f0629010bd3cf42a4c6186, 0x7a431f4761ed46133317555a0578d0f85392a0d2ba98ec64d6b508d3eef0226e),
(0xf905bdd8e80afe9ed65da689bfb8e549487002d616ac651d4ba300c3e7496f79, 0x1ec7bf7f3bfb5045d461b03ba7f05067cd999fc5f9f4c0fca7e25b1977bfcf72),
(0xba54b8e4fba452ee23c4faadb14f0af8232ea62fad47a3e5573f1fac0f15e9e0, 0xaf556ae9efcabbcdbbd8e48a82ac80f39c96ed0b011370b8da1bd4a060f5cda8),
(0x59d3ead0561f6e2430e87f3cf361a2b41494a04203a775e9c08a28b40a26a80a, 0x9b26f47d50a92229c28a278d427c7306f5f1ba1cc2d095d9ac51e18f000a9bc8),
(0x2a6e5a3fab4cc928d8f2924be7e0f3cf15520a08eff00f5b129d9070ac865d47, 0x055c03505872702386d191964609351c919913dee93800cb38b771835ca625a5),
(0x898f50d1c35bee41088afe91842cf659fff1fb1c5aaebd846828b002a8907502, 0xb2456e80c97c2ad01ae02e4906b84c02fc9bd0f14a3c5a79dafb8f8f62f3267b),
(0xd1854ab8b49bf0cb1f9d2304e9ee3cd3bda5d9a3ac04fbf9422c46710d6af85a, 0x04e2500fd88181805b16a07753eddf34d7bdeb0217df7fabd0afebe947155c20),
(0x861fb88a394db6e1f03cc787d968ef7e4a417df42856d303a3edfc66feaf4680, 0xa5d7e95aab8b0b1323fff11b0638ce0268f3c38bdbc018dddc6d23620a135da6),
(0x9544f768b9fa9dfc3c155d90b676cf7bea52690339fc111cb0ccf62d813403d6, 0xcec4d92fcbde624f0851ed21bbf5154b28d876035e30290253e99670806e047f),
(0xf7722192f80a66be23cd7b0789f3a094311cd40d3b7149ba2cb5cca8d1db68e9, 0x041d0e9f3243d64e73e266610cc851e51c11e320277f7462d40efe0fc81b516e),
(0x876b4c651f88729bdbf9927a89ea91e5b6bd8e7c439f6fc1be9e07ad698e14ed, 0xece2cf811cfae9ddcf787b88f62f25377b57308486ab84e16ad31ddcf96b49da),
(0x706af4e462249924884614278917899c721be8f63353b127b7ecb03c07b70b10, 0xc972d9720c65d200e695bd29813deb74cdcf0ee0e612f545aa6506e97e58a5f3),
(0xce97a218c9c96262b5cdde0ba27e5f4a4301b75bf9d17ddef1495b7df3863c9d, 0xe9398e1a20fd142688916410d7af68f1c12900b272b03f55c5770aca02a1ef10),
(0xfb625b9a92cf831e886a1f01c2db3d537dae0febe9b3d9bca8fe6449d53be895, 0x7f783e74ba569e040a29d68f12cbf2231fe2a8c2a651f44c30d597de82599a37),
(0x81ffbf697a7d2b8b51b9098a8833244af126c6f3b42ddbc4c6b2c5a555f4747d, 0xe2c67357982eefb73213d5303cdaaa7d90b4d1ded0fd4d0a8b002162f006f33b),
(0x6dfc0f668c30ab7caf16d4d6309ca2ec679d6b77be695ba8c0f31b556a0ed0e4, 0xa41ed2b2d9a0aa743182d7a620f441e936772438bfddfd905aeff87db15a563c),
(0x1c6bf1d1b953e56aba1a9b5b0f63c3281d5715df88bcc23fe77f94c33b501b44, 0xc667214db4ca1782019c368bf7c2ba4a8f1e74df91a22d3a8e336089e4e4b0ef),
(0xb69112df5d999f605d8632319144d2f35417b9f0d1e78ba6b2afd247fadef93d, 0x2163cf7a302886e7070fafeb8acaddec464f115c894220209a034c63558df4ae),
(0xbc038732ac230f917c58b8fcf9ef92299737a2cd8e01687cda464bde4976b6e0, 0x0339260100796373603e1d6fa7e233857a7ae0d9df638ab37191c046a25682d2),
(0x96df32951047ad4c6aa4d9aee59bb00c7489c20caded01ae1833ebda27e32d81, 0x418f6c2d74ce633c181189bbf5d0f066cbfaa8f1e66744661818c4efe2e2034b),
(0xa3c53227939e40abec6fcefdeb6193c1cb6a65fa2f3501d263cd2fa76a304979, 0x4468caa5498ea6f192f29ade37a2f66700f46798dc600de8cafa0ed6dbc967e4),
(0x93fd82073dfd6d6d6b85f1b31e172a617a0c7d46b91d5a92601af0ad2545eb2b, 0x601beac19a8a6a411bfca8636acfebb39611559b20b8a86688397d47d563a847),
(0xba7d3bef2e2c63f100f9acef2468ad8da5bc0d9eb45e4a2bee87a0ba86ca0a9b, 0xffff9a6733129e3110d33ed0bc5b6bd9376f29b17bbf2e097c6efcaea55114dc),
(0xe0d955c02a4f9c35975972582964d7a4218898fa97ef30111904290e036157a8, 0x176fdf9e7d420bb9a0782f0f08707789b28cbc69d5a6797baa2bb98501c617f0),
(0x16b2c1408320cb93112da689c690d6ab6cd226fde1752dcd0a444750bff81ac9, 0x2a2face3dafd3932f2617488faa17b6e5025f79253c65edd2abc7790d98bb281),
(0x2fbb04329c823e2f645d61d9795a414e220db4b8eb4da0c7fc22bc10e9f502da, 0x1adf66ef15eaddfbabbcda69c87068ab0cbfe58e69f58246a0ab625990ebc31d),
(0x649134daf42d2579b6522f2f404d6456c178f8838c9ddccce132de4e67208ebf, 0x4385abfc3c554bc2788446480a9aea5ae7709b51fe644e8a4a756c3bf09355cb),
(0xb95544b1dcb81f9ce0601c1729c7fdef128d62b0b8993023dbcedf8b0d3991cd, 0xf871fadcffbade32d51f2d4504f0726f206fe76093c0ab0f33cc5383769dcd2a),
(0xcd403bfc5034d0c0a23df5b4a4b1b096ace1ea170288f89fd063c0ca5dd668de, 0xc1296131aa56f46f49f59760f3a4bf0e3fa92e54a5d8f16054ee1fd426717742),
(0x0a4aaf37d7f8bdc990202074c9a8f56a1ad7847995b4d9394b6ea4783c04c581, 0x4cb3b6f2dc02b61cfd2594f940773d731a8cb9cb388af431009348d3af16da34),
(0x57102ff8ebdf048e85edd3c52864578e97478fc7e6e7b9376c37d9f8abf438c4, 0xc84f1d9beaec1962e79e308c251b2f31915aef1690ab51288331d8eef8161d4f),
(0x68fe98e93c5c5fe1108c08c58fafc70112424685c6809774832b0623a3c9b6ac, 0x492ac417fd956b87ee8078e2c46f21e3cb5ea58fee871cd4d6480cf90c4df273),
(0x00d4bbb69ef5e23af0932cef02eea4abd97baea2b0893d43ec08be402a4a5e77, 0x05818e609c1dae31f65e223df0cd08c59e74884c2a2dc166607fa4b047c7c98c),
(0xe9627957a8eb8b727f0d872f28acc53d23a5c53f763f3b5d68c7e6905a83192a, 0x5da92e7ddc291696d9466d17d4ca6cca0cab10574f5a08d66e59ba87cd0d984f),
(0x49f21cada83bf2eb7c508ffb70f9fe841cd547f2df83f2076dd2382f1711caf5, 0x1c7d81295f834ed8ac73afc2132e6eff2447611a4fed8114ca18925f39f31931),
(0x058282a940f61d5314d1d110c18713d46c34a8cc5b0ff64dfd6d0182aefa792e, 0x7855e155d3e0f2d6523701457d83d7dd2a96ee493eac091e677f0a34105f6ddd),
(0xc9c97a324b07027a7b5db6f1d70bec7ddc3a14e743d492e5f556919923ca118d, 0xf601f40f894ddfe1c2b1e99f7c2032b915d600d9e2ec41e8747d74c69664b56d),
(0x9e4dc1758ed6750186a7bcdda11f92739bbbe0ccaa72862b8d515a21159e054e, 0xca11c31f2bb866a6be0736aa19b7e36ffcf4f4c8715ebd3bc9483813cfc6c0ab),
(0xfd0637893ae0030bcd8c1e5e8cdfbdda8e5af1f6268f552f7a7f0c6b8aafe2b5, 0x8c09eb0b068d744a20468a8e4326dc01f4a35480df1a0435b2e21d530dc8e676),
(0x37dfdf3b6e7a76519ba81c3ec1377580d85360b5b466ec77b3f2b272fd4af04e, 0xcc3137b27b732758d78f3b0780129e77043dcd85ec941727ea3b4f8ed0fb7844),
(0x45ef106ac8a5e25c771a2f18bd2be0c90a69cb49de16d8ffe72a45d46c1dbae0, 0xcad6a40d742e7db73f7bd452e016349060e5681b31918bf42ad8b698220ab158),
(0x258c52f988b9ca25073cde710472bf5899648cdbc1052d14be02469c11fdfca4, 0x4491d88b26ea5c7c6a66c9e21a5b61fd0d60d0b88394cffc359af9ec29939dfd),
(0xbc92a4a7727c4e363d0cddb90d36f1d9d4f8ff67de881c83afd51193a9e65217, 0x76ff6a08b18b479561f1c024d464e9c0331c22b4ba3779d79dd1312263aa5120),
(0x8a19e8c258c04834f11ceccb0c156bbe23e4e837fb5ff353249c12d145f27ebd, 0x15fc6c70bff48ea20c56caca2b978fe18f50a9cb85c19f065d65e507e4e92c1a),
(0xe59b82d1ab90344db113c1a7a39968bfe6f3b1a8c2a44572d9c911ea55d70eea, 0x91e33d8cd58c6a1be4df0bc012eaa76f6634d69900814b80cc22afc8313b91be),
(0xf994ee5f88244cd6bc417db72f941bea0f3456d25dacbeb3330031b07371a7d0, 0x9026f86aecc299b3302bf9c04dae48f7d9c2689f42707d4051440a05ad9c62e2),
(0x776c4c8c32d1fa5027b17bc79803d1218000cccd565d95ffc1e3a6937800410f, 0x40ece234438e77386f8201d503d3e319988b64a638413803165f0badc8785149),
(0x393675a5dd13b00129caea3d8bf2573032c1968ac5e02620fb83fae5b5c9b12e, 0x39e6cfc4793400ceed16ff4c4b0ebcc32e5dc7734e742dc03784a69fa75a8b00),
(0xd7cdd29422edc7b62cdde130e90be1fc94dcfdf27bf38eaa2f09fa8cc3401b1e, 0xdcb9cb28073cd18bb74ca141dc79eb460728bdd98bf14302db5c7065354fb184),
(0xbce3f1272726449e3f620671824949d19026137a9885a1b99cb67dcf6e56bc2c, 0xa4240017ee92dda4be968f040ad125ad1c33c37dc52a497d296d5786e6e76217),
(0x9df098cdefe9414a79adaf4421e35faf7008013774399eb9738dee97ff5d6e52, 0x6bf9235fef36943cd0f17bb806917d97f04bf4b4dbef1baf3b788eba51abf15d),
(0x9958582ee561dc4a9a4839a8292713a005d88ab472222522e8dcc94db3d43f1d, 0xe0958a14b63af23e86f76cba2259b37a850008b343b5cdc78cb4e88d068c226a),
(0x3e7fb8ce7d7b279e7d292447c88c048bdda933795233a871bad933c46dfb1f24, 0x04279d08341082392d77a5dd906ba4bee36352aa9385f09d2296ecad648806e5),
(0x1cd05450f7405a110cec93ee7826cf5897611d69fcb681c71ac0a6a375e8ed62, 0x085bbc70bb52b040d620a3a020b9536e5759d35c9931936b039a203baf34d0f0),
(0x0504777632145a3df6f87bd01b81032f93cf99ca0fb4c5e3c76adbf7d7c9b367, 0x07badf59919c777189eb97ce6c71f418a0e67b23884cbf7a1ed6080457d1d2c3),
(0x1ea912c949b64ba8309b8d87ad1498a479fd302bf7f2f0be636f7a0e4470e6ea, 0x9b279fdd0b1211de8414896d3502ae8d4acd50e6cf83ab4d029086d0042b7650),
(0x9b3fa0d34b00076bcb4e0b0095f03c4be1ed329bd2f4c7ac8c03028f21a01628, 0x10117a48b2a58ef52e0d5dcb0cec661f8cef81d550efdf4126e9527c27d420de),
(0x65fef7b801d39dc4b3ac7f7f5bad14c36200d128d0257e22ff678fc0824c94eb, 0x3021e1ee680c4fc277373b9b36ef276ef2dcd6ec7a02b2fe3259af092708b475)]

/-- secp256k1_pre_g_128[1408..1471], /repo/src/precomputed_ecmult.c:9666-9729 -/
def h02_6 : List (Nat × Nat) := [
(0x3e77b23daf763a550644c0f2bc2bef5b6ef5e1bb8fdedd46c5a2917f7f85f9ac, 0x55b278e95bb078799c7f0766a2db2c798d4fc78510fd021b415b3e4c2a4f3221),
(0x2ac4dabf2fec922bc4615fba1cd7d352f69fbf8a3232f78396f8c08b21de2965, 0x2c33c01776238bcf02be60187f85a5186d6494251eff089fa92f3eac219f957f),
(0xfebc8a2067da04d0855feac742b2cebb748be0f197e3155868d542854d62c66e, 0xaee392873d45e63ff9a9d583e105a771e3db346da262bbd1a554a8d265d96083),
(0xa41174b4a598275188c2d10bd5c5401a02654202dc4e38d3e1c8f6898606a569, 0xbc6b63b99fb5f85ec6965337e82b651d6b589f2f8d90f67e3bd087e91f732a00),
(0x122196cf5d10a3af3bb97fc6d12f749a907c194d3caf2ae93a3a464e5a5de220, 0xccf46742b3c1e213544e2c7c59423fdd674697c5d405b2b946fc6e929304e533),
(0x77bad5cb0104dcc7e1bbfaa08c8677619f93ec61e8e3b73e799b663c2e1eadb3, 0x0889747bad8bdebf48e1214ddf2522ed4023fd8c5ef08fea411e8609c6faa3cc),
(0x1e8d40758c49ad416ad4516373327e6e4e3f6c89695e15d2f5517ebb12d4a98b, 0x1d16ccb00730a619c9b379a2ecbc4f8398d94aa0d4881cd1259681600e3b09f4),
(0xc87a656b240241dd487f4974afb5b535880ff2acf4a028cfb1869fa5fbb6ee42, 0x16f25f3a6fac95385ed74412fa6a790d34f694a8b4c99cb76ddaff70be757beb),
(0x96b01407482c6e88e9769944cce16a05669adf16e7393b8071fbd9c24b55a4eb, 0xb32be280590384f0e08d68de3868801882b786e21b178ca4578bfffb94b50223),
(0x120f68b3739562e681e72fb746d08f54b2afd16222e1deff7ebbf8846dae4af5, 0x7c1eb74f2b2376f9477c6729bd90e14d02f4da9d615c8743dedc1690300bcc78),
(0xe64871ec2789b4558608be2cf248fee849a4411d285c0989b65c5dc4e6acd157, 0x2980b2d14999b0b55b79ecfd45ef91fef3dbfae5d02f21458437629458e10a6b),
(0x608b1009b20d3e2c25324adfc73e5c8643daa1e253a8d2660eb43863aa6798ad, 0x826e5a03ad5c963851181c68ccf0e663a021e13c43efc38b3b4fe2c88d0e13df),
(0x8c9781558132e45f60a6143536f4c1a8cdc4dc2b6850b3e57c65f841a1bb152a, 0xca3b3098394d81ef0a9083c53864f1941875d63d9c31b44ba6ed4137db7460fc),
(0x0353591ac73b2482f8d8e731ce01106f1007275768210627f80c8f8d9821bf3e, 0x2b7e3d1a501ab469ac6306db02608eab70ae89819f44bdf9d4f84c7b41eb6412),
(0xeb2dfd88ec357372ece70a67178fce323c387b7da9fda978b05dc4309cd78857, 0x6f2bb6ed1f5a5521c441a8cf9852372e3dd7aa7fca0a1f6318c47ef1a24b88e4),
(0xa41c0ff65db1050e6998f3b07eef66dcabd72ae98672c487b29ff732992eb279, 0x56fa7b205616ff9df619d7f865210727bc0786eb2aacc244ba951eee99a99cd4),
(0x8e748b35f5bb1500ca45917e0859df11615d85ad861bcea941524e57a2217e92, 0x55413362e226c6a784bf86043973bc50825515a396cfe66c9ef75e3efca46df8),
(0xa83f6007cce7062473cde2c7b7ec7bfebc506c27ccce7708f35d535c26dd17e5, 0xad48ed2daf217e5c63397a379d50d6155a1ac614887a2cbb26c3b74c626af268),
(0xf9ed7a927e4516249380246ebfd397de5cf208ddb47573abf118afed1282d2fa, 0xc15746163a6f30f780d5d53c670d380f03c84407b4be5324087bbb5dc8237b70),
(0xa2bde78a175ec7a67f9177078f09f812c7dff01246c5255af01126726c2ea08e, 0x7125698fe82d4c0b6d7d27419dc503f93b5dd62aa5db9e20b091323dc9ca12ec),
(0xca8c05c79dcb6736905cc0e9b8e1690b6b37da42e1875a56e62ea231bf9899b2, 0x504c51ca1e19adba66560c1e3fba9caa2751259d7138999641d0f19f1487534c),
(0x0fc106ee61db13ac4137ecdd1501827861fd4b21c979f97c0617b01954eca02b, 0x6da55a284fc266382afce9c2cdc5a2c2971f2cd75c92f08e6bc996517bbef3ee),
(0x2cb21839f47b10685419a3217ac7846f504f674bc2f8f90b8b9b6a716492a8ab, 0x01feb332ae75044af6807feb965e2fc863726433045a97aff1081249f00a5757),
(0x678c50ee759c07fffca2963efba55edb56ba3572799702245d4f21325561f3ae, 0x1989b787abbf04c1c93afce2d389e1f9780b1657daa77107c498bff4aecba96c),
(0xab63e1ceaa2e34d98215097c30b2f26675d407ca41f3dda41b21c910824aa6fc, 0xec65be611150ff72715d3da2c4541ad6812eb7e57d0f4d824792556a6ce2363c),
(0xa69399cafad595975a639a2a31264983ec567279b052bcc9f5c919ae903dd336, 0xb525c659c30c4f4da7a799dcc93ae3481c87304b634917551c43e12ec50d97dd),
(0x32bf4282507bcf5ed25cb5ed439c82d0bd7a48afd3be41fbe13753bdc0fc5f3e, 0xcd92017a4336d9fd25682f90be347e826773c5981e80033ac20bb6950e79bff2),
(0xa1fcc9837e7200967203e2cc11450716f2fe6484f681b2ec5e42e9b8eedfd862, 0x1e16b6c317e8fb89dfffa79a722de49ea419affdbc17fa964ba6c31631ed4fd7),
(0xd85a314e69617e5018df1e8221cf738b60485cf33abe8838472b32b97f0ceae0, 0x71a0ffeee92dde6666b4b5daa88a79b4fbbcbacf3308a4e86e1aa367e00a52f1),
(0x189226fa0688c70e415b20e31356eac2f5a53b5e8043e24e4ee03faaf20c2e7f, 0xd9bfd8ac40c7d53e7bcbe5759987cf62fc2bba7f952e4eaa1a0587def1515aa6),
(0xd3542e0a6a931162d7a674e632cf213532465d254d2d9241ff70709a559e1330, 0x025e8f51e266423434cbe5ed622bbd83dbd4278404b1f2bf9a0799174b57c369),
(0x514d9e86fb2cb6121ec6e6b8258758569a8c0a5aadbfe45f2876be18753a2bc5, 0x700785c0be5423c4341918d9f65f79d91b8370bc4862979145ca841857cbf261),
(0xc9f8636512e9ccfde1f1db335ae606ab43f9aa622d723f6ad6d684a3ea3fe495, 0x30d3a6313868a01c9c6f9445ddcbe3b9b7b80b58f31f5db3a3b3beb21e30270b),
(0x0226f20c8fc089fe098cd96fa0e790db641200a72b908768357d206f2c2deb93, 0x2e23fbb8b43e936203fc204524b43da95e02626fee180cff1c03b95aaa5f66bc),
(0xa1b27668d4b6f94c7219bd9e6b8a7e619fcc79fd88d9bda0a38496b6cb5350bd, 0x3933fc5eb6e1c16ae7aa62bc200fd5edc96b5f74b72b9b942644f32dd6d68a32),
(0x10f136570087bc311f7b71810808eb0b57dd4e7c1590dae38c40df7eafe28887, 0x1a52e48709bdc3ec4e6c570d91d4edce291338b4a79a3995db5c6e85e3366d84),
(0x08aaa0eea984f583f9f55861500dc5ecf613b3d88f989884273e1841cdbe3e46, 0x529621540f85277dc02c46abc2f246ed24e56458156d97b8f2197d22a133260d),
(0x32805a710024b1b79b397ce5f7a93a98dc9472efa5b8b4aa3bd66643f1c89d2e, 0xaf525c7cb7c139f5cd2d0a8582a74ed69e23c765c0b882a2f4d50e58843091fd),
(0xc72f10cc909ad4497fb0835a4f3a520d058db0c287f6ab12cde50749a9412451, 0xa5666e7d5197ba9e37d5ff15b64b60f3b8e2ca3267467030a7a112d6f2c7c65a),
(0x6ec768c7870211b2415a74adc203bd4172c0fa5ad4c05f97c032086577fc9a22, 0x18394a220aa2dbb0925e67100549c8c3b51cbf42db67d4d05da260ceaf1b09fb),
(0xde36ebbbff99d1566050614387045fc9a846e7d0eef91e61dc93a71c3ca64737, 0xc58176520f3cb37b40647dcda476c4e0488208ba1b4d0c81b39a4b4e900f4270),
(0xf534155d5538fc685ac01ef86dea6f4c19bea322b46a297bc0c20ab73cc00218, 0x4fab7df2979d98caeeeb38a49a2d1253f9d0924f14dda6030d3d5706b3b9523c),
(0xdafdb850a1db9025080ecb98155b687c08db2088d0dab5210bc7fcc13286129d, 0x43965ffcae6c4c143febe601f36fbbd27d0ccc5060ffe91aa2ef2fef651ada22),
(0xac9a0a211dcabc851816893ee33cc69e2efe4069680b37212999f9f499d705ce, 0x16ebfe408281d2bdffa1e02c2d00d712acf64eb139f5ba8879c3971b98c728ef),
(0xafb37bd4b48cf6e95e1eb8b97b8b69fd31ae2b2f03b7aceb1db81ebe98503030, 0x1ccf4164f8d9cdd96f231af3e5fa313dc47c06dece44dd84d3fcdb160a4b7929),
(0x01b902ef6c294f833ab18e7f21d6470cf553682d2b1287d51a6029253888e709, 0x7735c5ff34e49fe72385e9fe40d66a4c66ca010246c724aa24b1eceedcd69ebe),
(0x6e4e5b108a2029587c5b4ec3d33220fcc61b41c58c3bf0b255e4e28b7c3133e2, 0xb49f83065c336af4469ea410648915a4b55ae5046cea2f660f14a99d9a8fcfbe),
(0x87ce3f7fbb8002105b8532760d3931b912342d987d81e80b5b10d1ab1b7e9714, 0x56c6a84779dbf39c0293c3869c1e33856b71f898dd46ee16d1e1973a4cf0f635),
(0x8724329bb7ba649c9c01937245a1e946d368a7062747dd0c9f6667aac9426b2d, 0x044458e848d7d44b5dba5a5bb0fa047955b109d521d170d89d090ff9650b944c),
(0xb91befa64735c09132db18b6b64d7d7fc6338dcccec845cd7d297f62b6a1a4bc, 0xbb3961ef8c9b79c6867f16cfbe4766a015e7ca0c8f9f340b14cf701de0138467),
(0x4321ea59332e97ea3bcfbb8968a3489c9ae3d6b865cd696cd8de3200a0d08fb3, 0x97e480d4c5149d53d7582e3fc73a35ea03f6b0235ce50f7ee31cb60084cd538e),
(0xdc4597b2836d96a6431051d25a98d4217950a8d5e88c206905752ca6f6f1bc6d, 0xc712580d16ba30cae84e3a83c35725ab362bb4fde4c42ad7f9b73f2053df36ff),
(0xce644ef085ff30090b2617508de007bbc5f19b652d9f89929972d39c0159a009, 0x009a41d0058db965baa00c92f6409ab0c9402a6920a66c17c089906cd73cc8f7),
(0x0ba1e35cb6c7b4bab81aecf423cb8ef22ec439c2584682b4a7444e019936b41a, 0xf3b3c652f91dde463e178d6f7b17a8e401098b331cead28ad2fce69435bd6272),
(0xb9f98ea02a331bbf60fc839f845d8f436988c7471902d14d72ed136086e3920f, 0x09fb2501a7f23a16cc726f5e8aa17c1235d9b04fa94bb27d318fb292c60d03d3),
(0x7059174655f90f81c478e702ffcff930dc10dbf116d7aed09c1a369e807e886f, 0x8267a0a4b9d6f0ca0db1ec92560aa3f7d09d3f41d1f36f8c64b95509b205a59f),
(0xefda78bcc43ca063a7b6469f8401216114cc5a6e4e31c31eb76221acc25434bf, 0x7b436ff6ef45f8590f521b1353193d134cdf8064449af2aa92be378156fa2864),
(0x229a4b0f5d62095e3a630988c8056aeb35fbd874001a2f0e4306d094750ccc34, 0x170d33af491c74e3d2d694cef6a519bc741acf35dc6a34288bea3595e234de6e),
(0xc770f48e20a02132189d44b83acd0f93f91860b481a6bf178ce8e2ec6af07100, 0x7e1120d38b2a191f9ed43aca3325beaea6d8dbbf7e0bf8c9610f8621c0266eec),
(0xa5db2c6303901d528b60a48a20b189a9e89b89983d424af8eb74869af286aa44, 0xb9961d926a93d5b01a74e6abd9c37eed0384e1868051ba1446fe1a3724af1e50),
(0x3ec7169e9f330288a63897b7c168db9a4b447e48cea2c5ff0077b298da41db1c, 0xc3fe974de8e60eda22c4aa34ed34a4d64b3be26812e58b49e4477835f3053fb2),
(0xb733de17c3311184d5860d4cf99e48eb810cff93ce92eb777cf2c114fb5bf3b3, 0x0c75c0dd72d20ad32000d537ebb6157157fc4ace9f26a90ad28e1a43480c11b0),
(0x57d6e208d555bc2415d49616a158075c027db59e6a821df28b4501616c2ed278, 0x83870a79d130da5a3528e353353b34f674b5d02e6cf2a891fca34c6c3746eba8),
(0x9e4234f1aa69a4783bf2fd3c3208f6f26f069409fdb2faab8d7925886ad3673d, 0x5f9a47737725ebc3e8bed04147a058419fb42b16affec29bd753733e288d0653)]

/-- secp256k1_pre_g_128[1472..1535], /repo/src/precomputed_ecmult.c:9730-9793 -/
def h02_7 : List (Nat × Nat) := [
(0x6fe3ff9d9fc12ffdbd896202fd8ae91322e4fcf276068a758d43f1f39ab68173, 0xef0d56821d414608273ef7b509208c590bf94e163e7faa3c2ab3da22b509fa1b),
(0x2c31e54fd2586e19efaaf415e54cb49954c49257d11b161fff2aae5bb45c4631, 0xbedfb0ad364ab1ace7f53c0e9fb825e4039af3541a70708bd8e0e42313311346),
(0x51597259023148c3478ea2ee2b9338584d745b8949c2f7823b8660e778203ebc, 0x329f6153f688b743c4fdc47025790503b81ff7ce5a6133628a59f3bf66aa1817),
(0x188b332458f7d7b8dc3fcb3bdf51ccfa0d394684cde37d6070d41e46cdcaf1f4, 0x04dea5dad112a11731a6b04c8999c6a83d1ddec288aaf104487656a4d3901910),
(0x92058e41a503e1588ceb0a494e13e2a885f804cf7f13c90e307372d5cfa6e471, 0x368072d4449e685e17e5a230e2177e95bcbe177a58cd151068e7255d84ec108a),
(0x6a6f522644e06506f27a7a6896eac537726f79e89e83105d5b64788334099fcf, 0xcf3edd4bd8ced83eb167b664574987f47104e79a5a4b53214c19a32da5132586),
(0x7e37cea2340cdcc3ca21e0efad548f37c77c340234f0148d89cf926f2376bb26, 0xc72d829b42a27c6ab062938e05cbc22a6b02d42bd31cb69e83b9fe9acc9a0016),
(0x1e6c2069cf0f6cf7bafb4b39bc97a8dc800d010c52c3cc5ad848fb82d8d0b667, 0x0c181e76bca1d84686ecfbdc2cb0914049146986630b7e81f86c72388e60196f),
(0x5566600fe6eea4f7b06336c8d44b47eaf36ba43cca404be35203ef5b06f07e16, 0x6bbbd08f7adc1979ed4acb4c0f372eda69e5ac167695a78b5a7fe1ce01057e55),
(0x435c634ded451c5c021c5adc45d94f8c69045016d529ba7619ad07d931c791b5, 0x31ede2688252a50f2206f9591953c0ca850098762b6f6c14024b4e47c74d4cc1),
(0x6fb8cce6a66071c7395c0612252a414df19a0d2af855e7e9dd1423429c57b9b6, 0x17f94249e2f05314d4799fad68232626183dadeeabfe34c5b845d89f2768e052),
(0x866f3e9920fc4c949496a695f54ee63411c711a299e05890148de8c32980dc36, 0xe99c55af4f8dc3c1d38a11e13c00db2df5211f02e837909bae188786d18d62f7),
(0x80c13410b7164899a724f7234dcbe50562404f0b7c027c794616f61880468b2d, 0x8631942e71a01e4fd7b592819dc69d39bd6e8fe1c2c416216d8df895280b91aa),
(0x8f85bdeeef4e9d88053e68bec17bb6ecbf37abc0a4ba44d2c3815dc182a7da99, 0x36d45bdf8ae9342caf0f8ce78aa591a34e8c295e49ee6962b4a9fb7eee17897e),
(0x09cd0b2b3393cda60ccedaf40ee8a1b317a920e4826da2aa4404a01a49600749, 0x3831d35a51d9650bb1901e348f0c4ea23a00c492a4960463414e5deeaafc5a5a),
(0xa0c5f1af15c67ffd6cf832f7974c779a003ab7cadffa32d3bdbe0377d49f33b0, 0x6aff40d442de6262417344123620c5ff3079392bb8843c578002968201cb91ec),
(0xaf396f400013e217d7e1fbf02ec4039ec011137037cb2d7890a8231358edfacc, 0xaaaeb9e25a57534a2dc35d16705f0e5d6754c599e85864bc936e94f59acfb936),
(0xfdac3c57e3e0ecc5e7e871b0dbe3597987d4c071f2f89307cf1e71c491ed0eaf, 0x3028a0cca22ef09673c877afccfe36d6b14d14ff5da10b18cdee60683ca09fc7),
(0xe3aeb1239587baa9ae12b6a968efaedcae745fd6aac5103e14a471d9eefa88b7, 0x7ed1c78652c1544be306833fbb27d1a57b460305a2c8f6cd2d33397bcaf769c7),
(0x96baede3382a0162fb4cc663c91acb940eb83d7a3e3e0a0e6055a50cd78352f5, 0x78722e97b3ad2824388c3a80fb93008905100d61ea58f9972adae059f0c50cbc),
(0x6870495616975637f35e1eda4db546feba93d122446a3e408de04ee23bf5f5b5, 0x6247d2feb5f7471f3a06c7a204c4261a934bd226772405ff46e361bc614ca494),
(0x71ccc6342ca1f8588ae02d72eb0dd2b362eaf652f83edad794095e09f4bcf749, 0x487aebd923b10e694a8e3f222703e5a1aee1779442a96c686cb9f983dd2a45fb),
(0x6fda1dd065739a2e058cd1831e8b6109713844baf249cdff25d0b3ecf635d3f0, 0xa2ee44f48afccb724f8a96c32a88a8b0a232a93d553713df60a965f52078108e),
(0xd3f27709ff5ad97b45e395c13994711565cbfcf5838e7b64b1016cc6d5147f45, 0xf96cac16cdc8e1c354e026ed29bbd6c729006ee151d9d61a0439156793265077),
(0x27ba1944a28a6eff78a7d064bb8292c668f827938e2be78641ee366ea4a011d6, 0x24bef8759d216430e7312fc9458f0571fcbe305d574694d0a77f7a984e7bdcab),
(0xfd37b8125fd87ce082fca9ff7872e0e9772f4c441870748ee35e7d00944fe190, 0x9450a525d9ae198ddb9b8c43fb337df28ec68a44601069511847b9a027dcb453),
(0xd9967cca92583e0d8d329b63f32a80174467518a595d8b802c24cc8a8e071c69, 0x6aca3673c2c39d693bc86dbb92e5af2728361cd32179eab97ed64ae973376c25),
(0x8ee82d3c4a8d01ebd22798efbfd95c16f53cd45f0e3d044f3d89ed40b94a0a3c, 0xe0b0ab7e9167fb9d0aa71c3afd5b9c0b79c8b6a0db3ae2f036c626c7791e1b2d),
(0x461ec3d2817cb549a9fea029150297078d709ccdbf22da4764c8a1db0c562caa, 0x661b2d7dcb5c9790510f6e126165040126cdf80db086259adb16af47af6684af),
(0x3155885c0935caed469bb7ffb53ff6b859f51780f3de5890673101bd41f5793e, 0x603594e992ac108f8d0bbdfe08f3576e08ca6ac269c7581e28d434ce2043dfff),
(0x5cac93b0ad9199c1906267a0ad8874e4c68a60a2b9fb6f0dcad427582a4ea9eb, 0x836faa98a116dab969961fe7ad7483ebc48e729537e6634a0e423b99880032ab),
(0x1fb6d3acafd5ef568b6eea1c4a8f017954d05274244879047e3ec56c6956cc42, 0xb8ef91f2f89e4f326df6a1ec050c63627431be481183c8393133dafd2e2a5411),
(0x89c0b1e152f0005da30618f03fdee7b369fe0157f7bb2bdcd31fc773d82b28f2, 0x61d6e357bbf46816acd05de5b26c67b5ad8223d8ac9f47a925477ab180b4a507),
(0x07c5d18b1f9d1afcd663875a341932407cb968be0f31d7510807ab1bb79a211e, 0x45fbe7ea985bda0fbd23b4495d4e945fd136b5b1296c9b3b6dcb9c37bc779ff3),
(0xc827cfc19393108c9b31ad4db5eb7f00b6afdad3a5e2f792ddf9dd13f159f85c, 0x5c5fe07a3025d40154fe12fc89951e2c0330ea3dd6335a129c31aaa6753a1cb1),
(0x6347b32bb1f3f7dc205e2fa406b201b42e0dfa80550741e65711787557cc5d9b, 0xf8f30e109508d34ca48d72553f8ac26da455d3f3b170ee52e22be1a3ae8c3ba4),
(0xd489f595e822101d5f6e42837db032aebfa21f3a94998130e0a1d22667ae1014, 0x8b112e898dc4a1468f64c33d1261f8c92bfa98dfeb9500c22b4a66d9227c66a9),
(0x90cb9c63fb4afbceadeb8f981e76a64502200d73d43bc0b276f058dcb8a6205b, 0x894afdc0f6ba7f1abbaf19c6720471d82611a77b5bf6c87ba02324ce52e74645),
(0x40df68bb19f121f4e566a1bef0a98954869bb06c699e818bbc49a7956a196af4, 0x70d41c09d0cedf7c31c9f8303610f6b6e1d6b3d2a431e69da31bdd63220cec90),
(0x4936fd74a0ac504591c962b6431f17fca888dd1eb35549d78b41143a83da41bf, 0x33a8e1dd6517853ed7c68af85b3f1cf53fc5b72b5dd0f392c5ab5ff21bff4f92),
(0x17177538811075b8f5baad592958074bc1a0c6e7b2a3f594288e82b0da023557, 0x583d4814efd8742c5e7a0c5f734da121b163fe28239a877504bbb072c1b10837),
(0xa126b7fbad5145eab414c82d8f21f2086abb118f03692bab586770cf4f8926a2, 0x79b4ac17b601b4d21a2bfdb741f7fec288d46594699e4394452cb2d1ae2ec669),
(0x51eccf61f88400480d55de512d865a523485db8d869844fdba30e703ae871163, 0x594ad25397bdc9f082c0c46a200ea09012b2c6a957a53dcee87caed32ea8d50f),
(0x977816336f1b7131f55966cca79d25afd89844388b5168825105ba3b52b3c7a9, 0xf1df3541b4b08fe0cdda20e0a5275eb6105011eef4355516e47e89d93b214c60),
(0x8bc2c43a72248dab5c78cf6db1a35ce864231d3a870bbf01cdb79be02c93f7fe, 0xd52e2e76173e9dbf09e8106affbb9d7b0b428f0780269b2ef49bbe0e14cbb425),
(0x59ed78816c7ca119ca4abd0334b90b376c327175e899e0d979953e5005aef9f2, 0x239fc027690c0febe4db46a28669e0da2077942534bc6133152a606a16449910),
(0xbec399d176714995d419239072a39c59c8ff8e9a2cab65200ca0cf6b2fc70fda, 0xffc4bdef7831208d23a1ab9ade52f346a21a2f7cefc5ffbf70999bfdad0ba8e7),
(0x93bd25eef4cef1dbfa5f99517d22a77d9e3b87db58c6307668a358859e0c4d34, 0xdd7d141297361b849a43b1f94f89970dfa008c6303404860794e6a876735b4dc),
(0xb203a657fb4e4d51158b2e7087455a5744e553c5bdea4f8e3e8e6c920eddcf58, 0x982469480c63e18261f0d4c7543fba7bc74ae5a7a19afa6a0ac803595ed8c99c),
(0xaf38b53c1dcd27b58118a28d11da8aaa3e20ac214cff64e70be683dd80f6aa69, 0x91e38936ba8b2b42346867237a3fac675ec1017918f8ac16acdc32f9c09fd919),
(0x55e4da5b0b99d805e205875620ab4cee988ed4720f5e6d862f8c574f6bfd8518, 0x7368be3475179d32e15b5976c34c366ee7713b258f17930940b16117aceb2d35),
(0xd3d7e82aa7ebe24083e1a15e1d817d91a3608c6dd25a35d90183a0c9e42133f5, 0x0a5245cce89537c6895080b06c5e27724b1c6d696c1bfbfcae6a7d4ffc5d504b),
(0x8bd14f9fe6b544379761e8031dcc9907beab754b68c6c3f22316e5a66ee48799, 0xf89dc150a387625751663a2635633868ecb2eb27d9ae860389110aff6978fe19),
(0xb1d7236503f50f42cfeb0858972a5a223a7dbc5b0482370485c88fd222212932, 0x40597dd8594ee1f9b74aa52d385b21dd6279864e007d025570bf3716c02143ac),
(0x44d303e1cb7d920c93be4763e045cef5c22d440305e1d3a8593f4f72679d3023, 0x79fbdefc5ed6da2f31bd6fcc83e3cee3e77e41a9a01b200476912c615d89a70c),
(0x1655ec54447aaae9727bd4b9060eb99692558999083d4aed3dfeba123b0cb3ca, 0x8e90e578cf96e31e988f7bf8a9f06d946ea28fa6b1dad7443b9ece506626fcdf),
(0xb02ae3fb530566bf66da932618990e6e7902b104800cacb19717bb7d845a3f29, 0xc6d32713f448303119bb76311b397427d8c0523292a6105162a0307d7b006876),
(0x13c4656653a0042b8755e1402b12b9ad8e123699a153ec6e065e49cd10c5bcd3, 0x70f3672c498f603e3c521ea403ac3e107bab13a8a78b02b004492c5106d41c88),
(0xe7c7562b03fc37b82e9c7bffc5e97b390dee483f141df4c6361eda3c04f1483f, 0x734be4603d2b4958c1bdce5157a16d0e1a9372981dbb28331b12f8e6c3454066),
(0xde025d2dfb6cfc75342b2ed1ebc7b27f332f3921c304b8d2263d7fba2959aefc, 0x46c609b16ab6f3d02dafc30c38373a301a88c31d806945985e676f1c16de12f1),
(0x21e788b4fed21c3d25ddb714abaf053a25730af483817e4b6a42c3233eca2e01, 0x1fe716bda7d07592b66af9b832335b9db249b1f9cd413c58ddd29fdae5c1c4c6),
(0xa7db27ca7481d50b1a458242c75b28e6d1bc1a9dda97e012e39cff107b79edce, 0xc4f8686dcabde6c1d3455fc1795a7cc4084239d23b11e2388513618371ae73f8),
(0xc52051732790f240e21616275ac894cde80a7d3ebd5bdccf41af64b65e2d477a, 0xe9aa295b209410a0f0e8e216deadc3f8af87700a40543cda463beac9f62ba20b),
(0x487bf4ad99d1daebf1c25f86d36ebcd938e91eea8b855d05ea9371c49572846d, 0x81293837ac6ded0bee04b2a504c18ae032f7297086de0ffe791a9576fcfebf70)]

/-- secp256k1_pre_g_128[1024..1535] in pieces of 64 entries -/
def h02 : List (List (Nat × Nat)) := [h02_0, h02_1, h02_2, h02_3, h02_4, h02_5, h02_6, h02_7]

end Secp.Model.PreG
