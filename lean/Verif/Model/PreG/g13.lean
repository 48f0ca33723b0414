/-!
Generated from /repo/src/precomputed_ecmult.c:6698-7209: entries 6656 to 7167 of
`secp256k1_pre_g`, as pairs (x, y).
-/

namespace Secp.Model.PreG

/-- secp256k1_pre_g[6656..6719], /repo/src/precomputed_ecmult.c:6698-6761 -/
def g13_0 : List (Nat × Nat) := [
(0x494e82e41c24936ec291f69e791979ae3e2a6696c8f68601b57942a8fe6b98eb, 0x59f3af2fc720847c19fceea6e3d2a918ff7f564b2e3bd7a4beda641565bf5da2),
(0x28b3ff40467a8c6869fdc61c33f002f9737054684fc707abc0b495e9a5c0b401, 0x46a44995b2c8f0caa32d8e33b8e384654cfbaf1daddc4d1b852b2a0458f84e34),
(0x4e4cf4f438a40e8aaea162d9dac13531f5730d9659c436fed8acd06a0c4c46be, 0x4fb4bf3fbc394c7b57f81a592ea14c301e9ca9905f48ee7a5db08ea5eb6dfd7f),
(0xe2ace7b13a9e3e22a9b8ee66c56e80f19370cda90eb3ffb62d20805c7f4c34be, 0x1c8fcde12a6534926428319a981e160244aa823ea82831b4d0eafd9a2159318e),
(0xe090ff27e42469c991dab9a8dc9a3a41d46b74820a59ba9bcf4de93bc95c7e78, 0x0d070752c5679b454e1b617e08315a481cd9d24eeb53a6713b4160ac64e6f824),
(0x705c87907b976b8dc8ccd3aa897b2ed9ea091c37e285c37baa321c8915ce089e, 0xedccb4055ae9f933973950f7eb79657fe94fe28627f6cb2e784d667c21ad4d3c),
(0x4aefb3df663a28f0d531e390339a56a04da1c64d4692c086de2327406d386d57, 0x167af97b43a36a181dfde22e633547e0eaac2f1684e8753e1ba1741c2a18fe3f),
(0xea909685ee8c283d1d7dfc4d6ec8910bb8d821d33997f24cdb5f5ee3bb7bd72b, 0x00685b64d3e02ee2be2045ba0c3bb428636258db33177da317f6de0cf8c805f8),
(0x5987cd59ecccc129b3498331f20cbfeff377cacb0dea76ce2e221aacd3aace8c, 0x3427cdb4f7367d6044ba21b8adfd5863bae2981b340c9bffd0d7e93bee4d6140),
(0xe23845eae6ed3d3314fd6f6ef6d6e9f592f921c9f448eb93edb4986997837eb2, 0x89eb22d6455cc139e42c6263b65233c54b1a3b4534ec3d7e58b788f26b11b131),
(0xcac7dbd97dcd353ffbf60696d325bf142e3920ce26570b59ff9aa65aa6993199, 0x06e81a4ecd60a26c90f890fd6de2d15950bb70e892eed375025a48f331307620),
(0x09dab0633a5952fef168d6c03ebb226dde3e591b4ad0c9dc96b247ae49a317de, 0x846d87d27662b958b3422b3ca3410ffd1ae549d0c6757bf4f96d2d77168cc83c),
(0xbce277d9ed439b09f255cee8af5363a112ec2d5eb111196dbe30fb2143f501e4, 0x63f472d52649843c42e8f90005adfa50d6a938ef8f4f04d8897a68d88c213328),
(0xdf9f87002a6baec78b79cdedbb501dfd54f376f45756501ef03a6c7eac5f1d7a, 0x2a1c5c92789fa6e284105f4c74b0a10827ea2f055560bec05d0000beb9b6c4d5),
(0x6211dcc9307c40ac3c7be1c75553511c15d3224e3b305c5a39653d83f134dbb8, 0x545c00d9f02b88335fe4851a88cbde99f7f02d05ac674f5a6559ac9bd03febb1),
(0xd739aa308d9022fc45735eed3ff92f38545f6c9bb70994fcb5f41f78772c9378, 0x0d3c3fbb9077dd53d023838a5c35b728af4a90c01f16739d12870e1b15e1e6ac),
(0x9d85e55e8ed84471b6822c683268c35bfa314b72470e51c1a7ac9f250f8bceb6, 0x8b01f444e84436eeae159a327026d2795c4116b3b2e78f90099f10351511ac88),
(0x25d39bff22c40a94b194c38fbe9d001d4a632407237fb091163e463d07c5c70f, 0x3338190511368982445ad7f6608be022209466c798b9abe4f4fca7812c0c398e),
(0x67553ed3f14c28d52abc36c93f15d0c47f6fe1dd628b652f36b29225ef8ff51c, 0xda5d42d59d41893d010ed28d569c0cbe1cc077e336bb5c21e3712bbb9c480383),
(0xea3e80f8c800b52ca6dcbd2d399ec5db650574778852a73d68af22d6f1abbefb, 0x5cd8f55db5330919377b48d08ac1bce0dfb8c3ea2b97a5bf547b7bebea64a4d7),
(0x7cf11aaf638b1fe73b8c575348bcc01a41c61ee8f2eb3279c2ad21b7f6f60780, 0x579d9a903a8a77a56bef3ce053ffb3c3cf969f9a39ea5badb1fa075be918f048),
(0xed377aa842897f6d1092caa742c292852349bd7ca0e0cbced3cda58effaf5e17, 0x44d1e8bb6491dfeacde536625e5d7b521ca11a471eeda2600647f6f0f0c5f917),
(0xfcafcd82dfc874156e0db5ab2fa2b56fdd488032d22ddc1a0b7a0ec81f1c4083, 0x42f88e6acf851a7eca3fc28df771cce2bef0d7ce3d26da45a2d9c307e9e7e040),
(0x4d3728657fde43e16874411226b347139c1ca4acc2905858de50def85515339c, 0x5dc438eb7091eecda4868c48a7933b717ba99d8d5e8a946dca9605a47421df39),
(0xaea6fc5547faaa10a898f21af63249aca0625f78ea8196298bca035d7639e470, 0x4d20c80f173980d28e6bf433bd1dacc31882e28335fa9993ef808464a5568d42),
(0xf0ce04bdbfa81a58e157a49a11695baf7233470ebaa7ae763a07f0b70f71cfce, 0xf9e4d701baa6f197d9912b57d9df016ab789e60ed731afebf2e5f920b4eef9f6),
(0xcc476e63130a950bb8284c8ffe74a0598d9d44d4c0372a9dbbabca17517523f6, 0xd2cd50d2e2cae10cdf744ff661a6c96b64e173685f81027ac937a2923ad7476e),
(0x90e0477e8dacfda27a56344865947a05d0afe9ea60634473143508fc6abfc73a, 0xd117be49166bb0100afb0b82a46a4204c18ffa42e3c897643eaae0f3303dcd9b),
(0x522a6781951f6ec776b6cf9fcd20287d6977764c517d4ebc07209d555714b5d4, 0xa109c1496318d4814cb221993567e5f45147b64fc1f9216b0922d65307637031),
(0xb0a4c701725326e5611ea140325b0536b22406bcc1e7eef21f874ff4e02ec2a5, 0xdf44faa28a60eb903974649d54cf340e293fbd0966b7b7d8884e4c8ddc1ec875),
(0x9e87492490f8d4ca2ada28a32bccfdaa51ead1383421d7d3482af7f66df47c51, 0xa58a577dd03a719d001bbb646ec3051b44535da05e7e04d9fca427162e335fd7),
(0x0650a3077b8007edf0441dfbb7103d3cd5146ecbb949f9d9c8c99e2f25df7324, 0xaa05b3948c909957ed1bd7e2720286d756c7e4138aa202beb08bc4462fdf86e8),
(0xf891ea992a3ef2556feafa4d7dd3f7eb1f1401c2b75d65d26ab81372bab6f932, 0xf7002bf5821837f58df109f72ba5eea56c767a4e198a759421467d64df5e0bd3),
(0xd35e82bd044fe54b5d2c054391260c04a5ce8d4732e83ccc2f3035e556bf2626, 0x0b00249599705173e0a45f97196b9e411a7f5d1e033f1b39100b511ce51f6953),
(0x07dd56d51f139070a382af7a2db135bf854c8e982a325b41ed869de4349323bc, 0xa23a473a7f263bf4944ab5bc2d82e20e8e9256fdb11dbc17bc0e6bfaa8325f5e),
(0xafed2eb3c5a95b4ae88ee73db57594c47013cf13a48431b0f7930d5c27f5c3f2, 0x26b49096da6660973403eabe342ab06578c8ec6fbc3ac7d72b3c95dd54735dbd),
(0x1382677674f36fe90ca81ceaac65c2b551e9fad300af246f4cdc65cbcec534c5, 0xa78e8139760a94e83b3f5ff2a65fbc7b6b2b55fc978b8399df2d794718b496f1),
(0x99200c1206fed5ec1fc849f7e9769a7b0aae3178bd6b59ef2563ed6c5342b80f, 0x7a7f171338a84536e73f358f91eb80b16ce8ef27ea55795d16aa7f05577fc13f),
(0x159febb027e04f1c321b852a03cca55028aac30a8bc27caa73a069e4df7029cb, 0x6bc7e0808834b880c590d2490241b709e7280a057cbc18979b8cc9b3cc21a821),
(0x2add9be1a3acdd9fefebdc0da4272ca9311567e461db8eb703519c1c6473bbc4, 0x357ae640a88c55e0d3559fafb0775d782373537cc25e595ff21ed1ffb36b5925),
(0x8e2d42651742837bb077fcd10488e73e5dccd6ba6401c6c18d36fe9cc428b664, 0xee9a5b1ea04ab8d96430ef397756f62fa1dcf35ffff314a1c3eb1dc8d9a1e5e7),
(0x79dd7d765b4d7db0537a69d9b94210e38e7a11f8cb9cdd8c6aed6a15748a3ac9, 0x0868c4b626dc49fdde6932013b89cf13e1dfa1eb56fb4de89e5467dd86e449d9),
(0x552c2ba996a13b5732c3b2fed4e9579d365e03d92bcb231df14d1d1c0288a963, 0x118e11e8646a03356834379cbc93c1d13ad80145dee0a51c49b10e17f6952f79),
(0x0fcfde18a53b5a689d33bbf779d0b6992faee8ec243e72c07ca09185d997e581, 0x6709b56f43013d4723f15969ee01b0b9ff0d9d955e2b98eb7e78e1ad49cf3d80),
(0xe9e9d7a74ad279c5691367dc9c4b7bdab27451b6a8e4ed47afae188396d8d82c, 0x292bca82e6d1c88e8869f33a7a6df2ecad812dca4c46eab45c56c3b915f79497),
(0x514054e13e7ceee93a19dce996256b5b5876a55c6cab3c4874b155474a58f285, 0xf9ea80de80403f342866dc400cb0a9aa4b38b98cc4c38e3b37f4da03fdf7f5e7),
(0x00ac0364eeb9e7b9b9589051635de6c9447b327e8c820272f04a47506cc5f290, 0xccde3ebf13b5a291a73b0c8b09a694144b2176617b0a77353a6e92eb4af21b7e),
(0xcf5585944a73a11aef500dc960cde799ffb4983dae76826aa027fd77811058ba, 0x369ed987eac1683c4e8874c640049a330867fa0a520e5204df328d89f197bfaf),
(0xee216b8562eaf12c9189055e32cc55c82ba5e3e0237de083a6e7787863c56291, 0x2a8bad1da697832c856f6adbe1cc505877e543c3429b090a001d3cf0d2df6248),
(0x89903a7055dfcb5d175acd28f7161862c9fe22dcab752d883f52801f92ab1892, 0xe89c4f9b7954c2b8cd3b4868ae171331871a26939355d88b8d37d4f6b90c143f),
(0xf9830f5066b1b44a89231a811192a2849ac94ec413f5223d51d1e75ca7727884, 0x18ac817058795d51cb9a5c2cc249bcfbff3fe3b91506b721763c8fcd7e2ae44c),
(0x326be8c855c9f74219228eaef7d79c48b02c2e043bc28e9f275d675431afa8e0, 0x293647f876b00450b223e7155faefac5990322bdeef964c7185acec77c105d06),
(0x6117b67ebbd6b120906da04788ad7dde3549bc5fc4f80e049b216b000d441dc9, 0x7ebe557617dabcd9f41aa34e1443e12e0715c9a7ccfa04f7ec6a9a2574c1e540),
(0x1fa858e8aed841c0902db240aa0e4c80f26927dd94e0e4047e8ecc25216dafce, 0x265666142111086bcaff0e12e4b38940ecf05a5b58f3e705d7011b49413a52fc),
(0xdd77d20296a15edaeef79ced9b59e77c1483b9366e9949efba3298a0efac4886, 0xb1914a1180cb154af791a93408c89bb070f2ac9b0acc50c5f75b425adf6bf125),
(0xe5fdfb451e7ac947ece4e8c05b87b9a92d49aae35ef95f5d1d18bcad18053337, 0x841d054a47b4998dd3ad8dd3d2a1ee68406a195b1975bd1ad4194417fdc4cad5),
(0xdecd87d46fb7438056a83258bee67d9b1a49e170bb1b549aa5c2a2bdcbc050ef, 0x5ccd1cd3614fad6f601a4ad6e964ee69a1e06e8a2e29edbc07d19562a4aebc5a),
(0x1a94991b939bf699468c465b5aa4b06400520222c0ccfcff193a84846f6e4b8e, 0x31b1e6f530147e1dec0199ae1830a36cbcf4fce1e12584413e89eed60889b9d1),
(0x0f32874fd0f18d037f0ae5f2ddba8f16fe7ca4f0d694e803b9216c5991bb456a, 0x1dd8f5ed0f228a9d53cf881ea4e3c4796017be43e613ac30690435b7084a4056),
(0x1c5991ef154b79dcdf2ceafb3f7fd7b07ce7563a9312ee6f1dbe5960f91ba569, 0x497d2a93028ddb18221b00753432f510bbf042a5ebc44cf93090d0644a252a7b),
(0x3c88095edce549963bf6e3124dfc14ff4ed4ecc9d6240af16ecd59845f01de9a, 0x499a17eee13c81b90bb7b2975e7ed1a1231d9094348d22fb9254c520a65be01c),
(0xc849c3591c4fdb6855971840c0b78bd359d1de020130adf7e277cb4ef6eb7748, 0x6add7151b2640b780b8fcfdcfee4310a4c4c97c8bb0cdc2e3bbdf802750a7920),
(0xf53017aaa5f79e345a0cc318f40115f252ba5401614b9eb8ac9245cb3ca5680d, 0x2d8b8c24ad89361b6d77bc72fb0c7da8ff129a5f2bc00e26e635483ec4c44b1f),
(0xb3657e9f84975313640b7302a288ef4d2dbf36ca651c0189b39fc10c87d7c4b0, 0xd821329ca2f18f947a71f5f751ac1b2ce56aa432992e7a3def84e631db61fa14)]

/-- secp256k1_pre_g[6720..6783], /repo/src/precomputed_ecmult.c:6762-6825 -/
def g13_1 : List (Nat × Nat) := [
(0x79942dcfa834e01377bb3eecb7fa31a7b4eabe7a578c46d93a0dd17cb3455f61, 0x4c08fe53c3afcbd17fa0a809bd4ff7af88713a3ed7713f8218c4d4d52a757ac4),
(0xe5f14474619e3acf905da5c23d1bc3117f1d58ff8c63ed2efe939a225fd9d9a8, 0xd4d225b585b6b319431939a68e2dafbf8ed90a6e5fb559c070779d677c03028c),
(0xbc5ca5033ca4398d5f3c62400946c5d7c9102996e302b9bb640aaeed8c9b54d2, 0x0ac15cc851e59843fbb2956f55d39f24200922bb6cbf1e8668ed3ecd6fae2627),
(0x2f3abe56d63a2afd35e35d4f9e964c61a54834025fea8cfa66ba9aedf75947b2, 0x7adeb38ce14ebe738dceae8c77903b243066aed9bc4886c1356449a827496d5b),
(0x704bf0b5f564ccef4d6e5f8beb2e90c24b46d58193cc0a415bfee2fe95021b75, 0x44618d170c54684e0ea1ffe153892090b74201d8ab3f9312e7359ed65ca94c27),
(0xa898e473d4b599562a905edeafc78bcc9f374c6af524fc3786a9137583d749dd, 0x5452e5567d72dab5e085ab721168b5e9c96a0fcef9d5862b9c5a0daf3769395b),
(0xfc4f83da817b1648a8a1be3fdbd0f309db7122252988ac8f64774c29e8d9d573, 0x57876e316a0ea4733e34f34cb0df75b11194017b258cc9447ccded3519edd00b),
(0x63e97e3082c36634d151f0a8837956d60016d5d464c663730253bb94ed5c8236, 0xaf68f06ae045e5be88242af42e314eccd719f76e33092e6d8b69f791446c2acf),
(0x04c060735107e9fef27dfbfd05df447c16f1c91108ec5cfc8083a5889dd82b23, 0x8c8508d4b86e9eac2058a912f2581ae7fe81647ee27075d4fd01b051fe0ab636),
(0x0667f60907b6af1fcff5852083175f85ea01a1d3c508b12da2e19281c8d8e443, 0xff9fd0d74a0cb42f3d7ff6d167e5a65f23c346790caf3f94ed5d1073af31607c),
(0xe01e169e7fbb436558e07dce08f8deade2ec2e277d18db95ef8e9f85ce800fd7, 0xf49f594b9d60c59d155ea702a1b5e3a7b26aeec671b275e710d0139a21041960),
(0xed10fbe2565f80a765fc90ef224c7893cf9df84d0aa0a3b29089f7f1c014ca50, 0xffc44137c3ac6fc6fddc65d187d6b456819ab1b2df461ecf899c70fc59387031),
(0x4563833dd00522185a43bfaf7e55c2d262a12febb76254bbe8310687e917cc36, 0xfac05d5cc781d49e9bab4cbe384b511d1c8c1fe4f68cdc2c8c576be01c669e63),
(0xbf5907b01d05136cb0a1b51473682fa168772a1b9f5db9943bdacb3a1e8c47db, 0xfc69b0364559f5d3f9e0c1a3e4da38ac0b9968e91731128869da21582e334cbd),
(0xbe106d73d01ce0fc5555d4f20379c9061ea6ca18ef8ef8fa754ecf64cfc27fd5, 0x09c84f040947687ef7d641baff89a11bda9e97698f8ceefe54e2a4ca0267956e),
(0x05bceda42e94ac3e68f6a3e4e45098724724e9fa59ee0918859884e22c98f15f, 0x4b19d70be1471e3c7907f7977311f5e2ba78c6f56f2ccaf1cb6b684f7d048934),
(0xe0831b14fcb2d4f73d17b6c7f6d16803304cbb322bffcd6c84bdb8919d7cc9d7, 0xb474a7155520cd3f65b64d08b8e92ca24b2238b311d91db248720a6b65444038),
(0xdf818b882300aaf841cb39622f0c9166468c1ad13aa284f589dc354fbb1fe97f, 0x40f571f9f63fb358231c204b3b9707f0c5cf11c6d7ffb93c991cf7f8dcfb3895),
(0xd9fdd569bfc892374bc56a1ee56bab5acb5e0ce985939b85c929fde582a07bcb, 0x5c56b1504cf3767ee22e4b00fa467b754c9ccec4c1364216d34ee210aa5b56ce),
(0x11a93998d031bc3ed55e74c9ab327945cbace727647bfcd75ed04a2e004836ba, 0x4aa311b06fc8fc86b67e8eb21e75d997189fa22ba33e7e99b07d610b01c94655),
(0x7c4fc7477319464e2d71f78780aeb385aebb04200d8f85889652d5deaaad580d, 0x31d6d7fc2cae58f7b3e4804ef615d7e1edf9d06cd1035b300ee9b55b21b06eae),
(0x83704a5f4ef8ca9ea3d5b1632bb3df98acd774d64e07b2190b9a36a9ce88e1b7, 0x52976995faeb6179bde4c1231437dc73b53b6f900f0cce081e3e1644e1ebeb18),
(0x5de15f1921258b5cf12f240d147bd38efd5e3c3ddbf148c59e541c01ca7d724c, 0xc0e18562001500f0e3fbbdef45550e1605fc2a2aadc72558e49f1e3bf5f4fb00),
(0xf5d1fb46e32884191f2cc8e82ba81ba75bf1d7b597ff82ae8731d27b7f059938, 0x3d5118fc9acc83949e0bcba5c7c79fec2f0cad647910976be4e8f9ff43d8baa0),
(0x8ebe619a985f720b9381a99cdb63d0896a787dc97d007354fa83b931223f8596, 0x7968b6fde3dcc13c512aae25d9a8127f313e2d9c34489606864732b4c3b5ca1f),
(0x5b14482df96cb0a05664bcdfe4ff7b876169db9e8107b0b578baba9eb1f8fcdf, 0x19a4ed84cd2ab376b1e0c2c9ecded5cf2e874f096d84d94622be58069f8a5e82),
(0xae810d527f94dad0d140877eddc5e0e6cb6363250f4c926a1a263f1fbeb9a8b8, 0xc94f0c8af5ceca8fea29dbe6c8afa649f813744d039e303bc1f0c1350867658f),
(0x38853d15d74060fc7eb2a56a0b8772f6855aaf83b731d853b99fde93e7c06e7b, 0xade73ce54f513c89531b5bad7f47ce7ea498da85e378639a5ae0507e1f27fa7d),
(0x837a1d99db477c6cda83270037f111f60eec54022bf747734c18bbab35b503b4, 0xce852762ed9b36cf065602dacfd3a250c547a9711977ba8664f72cb389ac1f8c),
(0x3136acd5a1460d8d717e452ba2069b884eb6fa81756f8768932c210edf08173f, 0x42ad61fbedf97b53f59ed7b6afaeaadb831134ef73e33b1e26b2816c099fc330),
(0xa9609269c3ef7f092a43e394e482483c119d94df10bcce436691230bb77d3201, 0x8c580df79147069a05c84abb73e28b6bab9c7c0f7803d6f1d9fa86c8f324be1f),
(0x3cb613e11ce19ea4a8a90edacb182c095b1601c4928229746ec22fdabe699e08, 0xf05a18f5aef9dfe687e69a9f287fd8684c9757650284f5785029459851538b05),
(0xb41c56a7472329507777847e178eaa67ce61f561021c7f212c525bd3e7adc359, 0xb0026b4b6f9dc9547efedd80d914a3e965b17378e6e0055e527f6754c5c589fb),
(0xf44724a13cdcf9fe5b4a8f3af0d3e0764559c14d87eb8ea3803a41da9ee9dbf5, 0x355b54b07ae7c4779eaa314c953340f2f5583ae2ba730339acd231e5c3d64627),
(0x6fceab96d5851eeab5db9caa9a0ff7e786c2e0975c2207d467f343e3cb36ae1a, 0x83f2b50520094ad6cb8443aa69b8af96b531341b81cadc21565d28e743bf2c47),
(0x2acc57ffff1683619275273e9a821fae549475397f6b193613917af0ef83cab5, 0x764b04bc9068fae575a202c100f01f87f36503583f5d30421e2460209fdcb94e),
(0x02ac302a28126e575e6aee8b2b12ad19f5e1c0562d63d73e80204b1d1d4227d2, 0x74494cb41e7828f69d2dd529a70f2e529bf4b52426a2a3c1ab10a97499624589),
(0xc5de085e4dcf8dab0497a645c7abd5134054b22532ce8405f6e5134c515d9de3, 0xd1da7171031a859aa2c90816386f03189759326a6cef86f9f3425bf2390bed7c),
(0x547292545f78e410db85d01a182bc5ed84bf68433b5784cc852d3e70acbfe90b, 0x618b0f0a7919751f46c0ec611dddd798cd89d4dd32d1acac31432308d1a615ba),
(0xc6fc6b5d84bd05b1ec8b0ed8fd4eceb9dda386693859d90a0a0853c37f75e8a6, 0xd3d8ffb4988f7e472c26bd4b83f95453149d1534bfafa97c39a1e8d270c53582),
(0x01e325c1ef4a976e77d6e76ef9a6dc51175175bf23e2c46d7203d6bf86ea05ca, 0x60f35511510aad52e156e2656e7ec137c319b8c1a1591258590186eebe4c1471),
(0xbbca6232ed8c60937ad123f687af56db28947e019934051095850d386ac1d89c, 0xd1257327269836af2793a1ea21106bb7ec95885fde541f661a4a7c3839c222a1),
(0xc55b1ec11f7aff98710c3b8034021aa183645a14edfc69260cd56eebf1e5332b, 0xe541bc987ecd2b66d10ce29c572272ec28c26b1b1703919fd0b28e764ffa87df),
(0xf026dc49feb9105168f76b0e7abcb9a3cc78a5c400e520c257d2f6885f1c49df, 0x2471f06b5dc74f9f6cca7d7286571c1b54ab3813d30bfb5753274a4b4257f5c5),
(0x3f721c3c605169fedee4a4f2b07865bee1f0838c669f7eb0f234e700f2fb16f5, 0x9691b1ccead5fba99d9f1febfae6baa3cc7717abc5a671f38def15560e27e100),
(0x65bccdcebb7e968ca1c5dd1202d5440b97b070149838f4ae95962044b822b0ae, 0xbd594952f8424625913750093cc6716fcf7bae14a6fbab354a962282ee0b3fdb),
(0x6c1556587020a902c225d7217b1a5f2c05646179df5613d9b95826ff7723f42f, 0x1ee346cb5841939e42aa41ed084bd24b3307549068de18098e5f860559e9c073),
(0xd2c9f7458f75b42fb48dea3413b2bf9bdc0455428c5a3dd42a08716b0bfc4367, 0xe2a9be5c8f06a4326f148cb3cf58f767cfc8f8ea1ff4656eec19a64b183f650e),
(0xaa11c12f05fda607aeb4af7f08430cae3f5df00a43910ff9e413b3a407295a38, 0xe506e63ca0568d962c489851489fbb62acb60d9afb9dcf1c7aba7be22e02c67e),
(0xa355e3834393793221affe2f843d25413faf807a900bc2995a201f10d5748f99, 0x22ce77fcc627019aff0245d3ef2b31fa55687ea769a4948c5656945c0c5a5c74),
(0xd8f4e3938b93f252da68e1b016fe8889d837ea8e61e5d3f68928bf3222643cfc, 0x0c89500661003ee503d8f739d6fb7ceae2f7b41428a65ca1bf493a3e27a2e826),
(0xf69ff0ca03aa0ee7122a00a94b6ef41e1394526396e8c59084ab2b376b899cfe, 0xa5211104271a3020d65ca305c0daa6accbbdb1b1d349a2ba1abcfad9bf63a7d5),
(0x64b1b59d7415d4337f5b9a3d98f06d107e647525b347011d6d3b423b2a377592, 0x12ea28140ac8e0bf1da8e617c8f051ad5799593df9ffc1f8abc963b0faf202b9),
(0xbac6a7ef9a3de97151044204ddc3a2d34668613e101a7e6a5f93c25a6b20dca9, 0x7bc2b76457620478321de1fd8ae8afe96047d087b95390c5bc69b972654b97cf),
(0xfddae798dad79951a4c3b80311ced882903c9dcb4d4daccac4cadcebb837f688, 0x2e21e1f9f45ded15768298234892d2ca26ad5b6d7b0baa770c2dfbbab1dbca19),
(0x3dc783eb4077912025b7dfe8f493f073b3a8520cef0c94b21c3a5388b0a9a01a, 0xb3fd90202ca16d20fbe8cee8fb8bcbcc821696c115545aae84c414a0c4401bb1),
(0x299a187d299c61cb6893a5d9cc8831e3df92ab13da2f0048555d1358e55e866d, 0xef0b105e52a18751056080cccefde2b2848d43ba6d6500682b71fb9dd34b819c),
(0xb690b4aafde43b5b362de597100c74d897cbc750688a46b4cb1093e2e253dc4b, 0xaffd5af230e4de4f9971627edac86808c97bfa30f051af29bf91e36fc3edf0f7),
(0x7217384c1596318c2a98db2b7264c909f823de21702f5e64b19af937cbb8be39, 0xb125b7aa1bd67232df7d2d3aa671bbc1bace159f3ba2fad5e82a1ae3965d5c01),
(0x4bb4a86a58f1248a11f61599f420fc69bc77b7c6086d2838f436897167013852, 0x29909cb13bce655e88300d784f7984de352c9b9a0960148ea5b65acd99b62d4b),
(0x4b3a93282e47399309d7722a7de44fcd51658eff93c3711d3a8f01939a54902f, 0x9a012a8e7df3b988204fe0e050cc197fa27618cad8d712cf520c7be4cf4e0f02),
(0x5488985b026978af50099d9308d7b1aa0c545b0744938190e0b880c211782b26, 0xb51f749a76b998c083dcdbe721d5fa0bc4aa4392f81821ab3436fbf037d37bd7),
(0x7f2ff4bcf270b566d2d26cbdffeb1b9b031b2cd7b647d89a2c86c003b23f644b, 0xf48749b621ed28ae47223281fe8e633f35580bf408eea29fd6aae487ee8e0588),
(0x3305c4751d63baa818f5bdc00b4e46c9acdf1c429ff5d177bdfc214ab838efbc, 0x491d45be85ae9675310ae85d258c6c9c8e28d7fc5239363c911eb12dee68a435)]

/-- secp256k1_pre_g[6784..6847], /repo/src/precomputed_ecmult.c:6826-6889 -/
def g13_2 : List (Nat × Nat) := [
(0x4195dd13ae5ea5690179dc64b07f66dd4a2e28780d81a222304d6a884da60b86, 0xbbdb99ff8d4ce150543b48ee9109f1275234c69e52293758d0171ae4ecd49677),
(0x8dca74668ffbf31907dd9826cfc7f450fed841ed83e1d466e92470ca1e2582e0, 0x2b19be5f69fae0e2563a3f802f9450e0fc48ebe5973f542c4c12fbea97627e57),
(0xe235d1503449667eba23d1199b5225db1b26220f60f8447670c6bdaaf5eb7aa9, 0x3d4d8dd6b0c8c2e0c8f54f6bdffe8dd05ae22d5ab4f9dc18f17acafb03fab327),
(0xaa214fc723c3c4588bbfd962b86cc3b30e1ed52a25524ed3ee5c49331748ddf3, 0x9b54e29f63240e30434f7a222679006c24593e269025497835a60897d3578e18),
(0x1c468a51cc9d2632860bffba9ed83e5ae97dc1d8c8bc35775dfef223b3ffcc73, 0xfc569e948eb2052898b4cea386486afacec0188e044dc4e025b34855f1466e87),
(0xc663e752ce62dec081f8ad573e4f5c92138e6a8be6c9d015d5cd2cf0ccd1a203, 0xffc249a70554fb97c0f9d96f4cb06fb7ce6e868ce7e60b30f67a2b9e919f6f98),
(0x949a84d805f68f7081f379e19d673748bed14bb8dba2458c34327c03c893067f, 0x1b9fe41cf474e57f8497f6f676472a28fba6b25991297f81474cb6fcf31380f0),
(0x6a4bf3ea5798c8ed4b35c629c6cfdc0ed16d0d2739f8bcb8c34a91050fa35fed, 0x6f69e357d512330556d04946f926535377610fee20667815e7f3cb01e8196b24),
(0xd0a99a37d1df89c099b0dc1c16f325b9b2ec145521d4f80ead67da854f2a5357, 0x7a75846deaf7c4e305c0c87f83732eaa7f6903f7b721648a87e1909b053d3e9c),
(0xe2a45683f3781309b6223a7a5ca64c4ccbc5d45f29c66082912568ca3ec6d3c0, 0x8e386acb63c52ed65aaacecbfab458b99585951ecd0e35a619c0fc395ce1c0ab),
(0x9527ae8010ddd4437237c2b3c8f3afb9f31e16965b10fedff150c29603cb8e60, 0x06e0843a87833be4f882c4177198d9855af8b14411e78c3c497fc49f5f728479),
(0x15f15c4a2cc43062d4360a8d0dcf8e0f52bc4741c7924f6de1dd9f120a06b9b2, 0x66a127e72c55db1b57050f4ca0d8abf39ccb455d9785a4f32ee67a423bfe5ccd),
(0x558648bd64c52dd1189912b267078e8bd3c6895247e6c848d7dc529a7a24a75b, 0x12332187628728675bc8837888deadf93a8f2c5c864371dc6be0be6344fad7ed),
(0x1e87928ab6e10b596b231b0887a823f13c6b3ff32852d35cd1167244fea2db0b, 0x04cf60a4767783a91c9747c57abbade13d7fc02fe833b474648038c3b68d96f5),
(0x7a169de901d4c3f0032962792c3ebfe7f2eb4410f7b9a34dc402ae64ce9231fb, 0x1ca2e8be7a7603b7d95820ab86487a04c91ab3fcc88e2f0b514a15893908e463),
(0x65185a2fbbc8c96fcf9a6df40d002128afff1f2e5c0182a295639a7d9fecaafb, 0x10b6902ee83c56833d796b99665cf365c1e41d6341fe72a472e5ea6e39dbb9e9),
(0x61c452124664432e8fbcd9501dbbcd9f1fb8842dc8e61758439b6d5dbf8dd626, 0x2a9c7c5748509dcaebfc50624d7a0b0c021c9f5a45733f8de0441bf7f2b359c0),
(0xf61aff9e267b6d91e3d4ab45734579870b1af9a938b659f41ad5cf578cc59d62, 0x51d0b694e5692be06841a3eb160474cc6c248213019c9648c32ea44429cb2553),
(0x29f27a518fd448cd73aee0dd7316e566c655ca44afc5daa3ee359ae5b96f8bef, 0xd5957a97a6447a8ea83012195fd53c1b063784a814c29c80d0061fac2c6cc1a7),
(0xc656d66aefc3597a2ee977ba0bdb7357a2485a6cd654c56cbc58a0ad598f202d, 0xf8267b3ff293a5b511f4e466dce0fa88a37f1603a3a8092c934fb8241427a59f),
(0xf28477cbefe654fbccd3a9abe816f9503749e1833b1faebd418c85c9112a5135, 0x9df0f5056ad98099ac0dc72334af973d9c98c597ee26e22fa0a7a60aa3b76cb7),
(0xd007a1a8b6f05046a66fe0f09a02e5103ca7555a277c40a887a719205a429e79, 0xd9a68c51f17fd51eb19e4946694e90f52cf664edd2d454895f880400b410b8ce),
(0x348f74ca7e5b1ff9e6ccf3d990ff1f7a4e3a8296725075e033a85b2f5ba0f338, 0x01648c7f32a206a4e21e7309f1a68a4bb2ee116af3fab3f57455da937c4afc7a),
(0x1f54e1257ff3dbcbf1b55720564f0c72d322b8e1f14d2b9c1f6244d9c85f6f70, 0x34c234054a970b582cbbcdcee67cc5646e187cd9b3024dfc731a212cc53c2861),
(0xa984f8be33360b3fa012cb9965ed10e643a8df4926f8188f24719a7cad6b5238, 0x79a592f915c925a098406d08075ec4fa90b5015c4001addf1cab32f79f06f213),
(0x2ca5e94876db7877fb82860968e39c8ea413a0571a39e20ea7b98f93f4cc4887, 0xb1ce7c2f8380eaff57299cefe840c552536296917ed367a35c59c3b4ae67a02d),
(0x65bc7a84015cdd075f493310de05b7a4ae7c874d5b5221d47ee556ef4c21a0d5, 0x0ad20620aa39a14fdfad58b79f1ad70d2c637119d9eb33b7ca9abca1f5dc3db3),
(0xa0b6b293a9e25a9718fa0db1163627576e39cd4383140822b2241fa8c432f276, 0x2cbd88cf295707788a6d79a3b451833dc596fa088b26c6a9962880bc48ae2b19),
(0xb4d308f574f7832f4f4026265ff8178891a867249df74486f241baf228e130a3, 0xca82dfe74c5768aa046927fe70c93227cc7c30edc2fb63039a1552db534019f9),
(0x819b48daf19c48c1f6efd0b7c4ff5996dcd5e99e7146bde41c83e333ac891b3e, 0x0c15bcf4c9a630f4e1489585e5719746ac55210ec9b82da3898a0d884eab0459),
(0x66528e21adf8c447526d616c0777dde1fa7469ec175facb83ac9ed2fdb773f85, 0x0c5d38c7c13449ad4f3464981eb7abbca98de561d94f46bcedf3dd101839d91e),
(0xa26e3a0b6f61c61128c2afc915ddf48b8d3d3901df93a2b2aeb825794822e605, 0x41f4e806787884ec84716647ed72f3310126f1416837a232e1612ac999c7d115),
(0x56623040c198fbcb9aa3206690da22a5a0496a825313a2fd0529fc9b26647d22, 0x3586715842a4c950e67b903323c55fe03ba3bf92a9ecc5f8397088697e2e1e98),
(0xacb401f1b535f18175ba9cc58e32514bbe8b6d191401248f20500dba0023ad4f, 0xf57fbfc79bb94ec0eac7d09e52b699e6d8407335e6dda706f7d1bfe071e09f6a),
(0x9e02a873fbbeddcfb760d48e6e29e6a0b37cae8d6348a8d5bd651be059ecdb33, 0x9f926735cb2f46eb7100560056dea8539fd6d1402a57d05ae884e8f11a293c39),
(0x3e88f76bec410c460ca20cf72d90c66f476fb966c46f20b7facb7f5017f71617, 0x0bbbb4d9a453277fa7bb83d2eb8b295003fe51b07d4b93fd5e9936639b78438b),
(0xcd39870ca6484a9fe6d30e473a6f5e8b3ecc1702e191b5de3d4d6cbfdade08e6, 0x234240c28f2b22339369298ef22cf32a7663edb42524f02d6879b4c9f4ab442d),
(0x5de275c2697990583348c4cf8c039b44daf431d2b7b1f86298ae24ea271644c9, 0xadcf9fc310ce2d938459db4730273255cc4833423f6bd4dc56593f066466b8a9),
(0x2d986200bd9dbe51eee40ec12730701c621333db9e71c2321a6463e1f26cb76b, 0x57433debd9149b3237315114e9747758228d17be5f7c54d4f552e7301e094329),
(0x654868b739d6a72e75223cacd0f827d1789c410cfe0d5ab724cdbc2ac9bcb269, 0x3d8d427000063cfe6724f8d477ddbd100b24899a3ab0a33d876836469f4806ba),
(0xd97cf5c8e1a4019775312099fb1a2d622b3354d0e524cbe70bbd3187506f909d, 0x53c8784ccfc900a2f159e98b764812393d883d708a953905044691b51c8c97d4),
(0x697707cc9c74c8287396d53b9e5d436b24b861d02fcd9208dcdcfb548ad2d903, 0xbd203dfe7f4a34841f5ec966f063d251a89b7da5468bb2f732775a1f3a62412f),
(0x36b4329ffbbbd80b0e8eecd1358c05f36616b456588571dac23d7752edf15d65, 0x07c42145d87748270a0cbe9eb9ca7b902353c6f6118291ad950dfee6124fef3f),
(0xdad2b02da182ef285b00b0e32af770640ca6b3c1417661947fae06634861e144, 0xece34dc3704d0561f6029366aa45f192a2b55b1a1786e8a2d84b2361eb2c2af1),
(0x4cdf386ac0e7cbc6e19c5f851edb009a059b0526f3f4d0ca3c82f2800dd33531, 0x3f8b3eda4ae484e095916efbecf1ed3a27bcb0346cbae87c6a388488331ddc86),
(0xd4b65a7aeb74d38f2a8e938302ad27a72e2a89f22ccb5c249e4e55d4da7a0cf1, 0xa080a32cac9e0ee26e6538a0233f23743428b2ad821852fabbad2a2363a7d7e3),
(0xc41cd230d99c5f667d7ea00053945fed70a2a8074893d4885be2ee46cadff9bf, 0x04a7faa23ea4ab425f21e12ddea7530d429c64fbc05e1b24adc24f550c34af43),
(0x4c67ce599a841ecfec147a89c120619a227100abc5dd0ba80da6d3626f687824, 0xaec0ecc40b65694f150da4f8fd514d3752f4c6d1aebd8b5c19846ea3bf4b13b2),
(0xe765b00da067b5cf0a40bf02dc8ed6bd4e59b470ed6eebadc02b49eb01d20c37, 0x23e0df009ca95773a91c080540b024b834c0d7de4dfd6c4376c979fd2665f21d),
(0x18a8cbe4d7585fe23b958cab0a9303d9505928a507ca105821a9f192ea52298c, 0x09d005064a1f3406c3864d732ebf3e1db6f20234d0f5a99c3623ed9d530d71cc),
(0x2dc043eaa53c27b6050e2f1cb6fb7fd826c4fccb9572bbf5103356bf87b3d649, 0x2695f192af96b031a41b72e7a61593cc30672c07cedb090835ee207a5cf18271),
(0x71699cbde1efa1f2914bd0ac09b281118053f7ecd51e79c044daa4acded9c9e9, 0x8519592fa3b0592286797110b222231cfef973bcd51ea4c43499899963637c05),
(0x23f4668e40761e37235dc0cd41b6c7ff1951678f131763b87d394e126be4c370, 0x1cce41812279761d8753dfaf8bdd206ce4cbfc5fccfa88269d2d4327431fa689),
(0x923669599a173d3e826233c78062863c2a92b525106c11594885058e4a7797a6, 0xd1c9f57cd03c004238f898bdcb45c064a1f2cc56222bbc03a61997fc877b23d4),
(0xa2dd03bba75a7bb2fc9915dfc66c0b2276a7347e6cca3d32e5727cb8b54bfb70, 0x9ba4266db9c66907b25c41bdb96f8a94a9559830f171a8786637206751c7126e),
(0x79174d3e2379484ad3191db726073dffd69a31c894314f7b282ed68e71395ad7, 0x1cada1487ded181bf1a9cd3021afb04f4402a1713a570d7e9f4928c102069315),
(0x874597e380449235af5c10e37af7eeb8f755ebe06784d5e3ba0d1021fcd3b12c, 0x2ebbde8358c4f2edcc89bd52e6cd61dfa251bcf5713858d3d247750e266a6129),
(0xf23c18880c22a764c85c6328387e9126f4ad772cfa0a6034914d5f607efcddc1, 0x6cd5bdbacb3c6cd74c2c5cf81c62e774560211acf1ee8096be9eee5eb716881e),
(0xa4c2054c3a8344986dcca592db5fbe067f80d32f8c49243679c57b760ae13b96, 0x7ca515b78a3d55906100ecdaf70664590db9db343bec1b4c6a57626e1f560444),
(0xd6880dbf50d3faa9835404e5d723eec8b1bae88eb8ca22bba85fda5b6a8cb669, 0xa08c4200718edd4e42b775b11beb9a6f0eb3bb93b54c57af5218eeb97aa9fa09),
(0x2dfcf2b0babd3990c305cdbfcae7795ba2fb3cb63ea0cd17787122ab5af86bb8, 0x0e0e921a15882601c151fd93d7b7c607cf033633e6498004d29cbf767fb19f6d),
(0xd1dc82f9aae7e02e177680f10e5d73ae8a1782077b5ebddf45b56bacfa1f11b1, 0x04c9294ce3ad0fa0ceefde5ffd80905fce57a5c7c6807da4186c9b4a7c9d6237),
(0xff1112004231109bd131e7e0f6434461ff699d8c6be3e6bb7eb9e8279af4a4b3, 0x2c30b8dbbbe56de53d8b33079dd741ca8c7aa59678a3c75ba781a77ae470620e),
(0x9fc4e1ac28a8f268c66aec120f5e795df3dc23d5c515c5ec11c394c5e6f2a11b, 0x188bc037ab114fd6508627db12317d0dfa194cd1bfd56c1a4ba25d07206aaaa9)]

/-- secp256k1_pre_g[6848..6911], /repo/src/precomputed_ecmult.c:6890-6953 -/
def g13_3 : List (Nat × Nat) := [
(0xbdb0b3735bcad639386579e2aa78fc40ec2f47004b3174b01bc2cfdff4164f95, 0x45d65b9feb1f60f32919506078d5c0168c6b18206afcab340a2623e1d2bc70a9),
(0x1386e11f3950b8d9e87589dac3dc9a47bf36b0c78378d2fb253e5bdf9f704465, 0x415f50f4f048413c7eec4c2d122a4f7df490826531f9dec20313bc7bb1b2402e),
(0xbe24616975b321a2edd491be90b7a11d75a36c12ca782d20732a285c5a6a1572, 0xca9109cd5b041864050269779490edc9d239778c256097367b52d82d97f588cc),
(0xbaa5965ac352a017080b13593945030b32c83b60805bff01476ece260cf89384, 0xc83a9515dee6663bb5688d5b483f0a2e51c8180ea130e0ea48f7a4f01d3d06e6),
(0x17dfb33b957bd5d336c918f2cd1fdc9523e2980f20a7666dbd5e8a7f8ab1f83e, 0x032ffdb3db6dfa31ca67a5b027a648beb978b6cb7ace4241a0b6a7d8ceedda20),
(0xec5dce25af07a01d09dc43a9e92dfb5129146307cef69b48cb7b6e85d9cbd91f, 0x1018c449949bb2cc00e185a94a9a06b6bca4c8b01a3079b53f86d830021d46de),
(0xa56b5b4ed4e4e3a6297018892cf21f67868ebf37b8696ebc83afd980b5c63817, 0x1cea139e521c70e3f0a4b02cc20345df90a579b120ea5dcebc1385bd162adfd7),
(0x2ff27783681d264b540df574b478e3a62b919e0ac4ab1b663e27908325a707b7, 0x3a477dcf65b233e134ddae747fa5971ccc0498e7be9f17cd5e34bb0b0480d360),
(0xaea30054dcc9f7ebc9dbbd45cbcea77949780d5911edcc19937e6352a726b3c0, 0x7ba5e2d89f681e00bb74a353f37c36c007264accd6a31529cd5275ee94a631fc),
(0x78531772142432df81802ec2848846825ae2bc93aed1fa8be345c1067e23d059, 0x6b8d514ca0a13c1c6425e5adf808aefff88fc6bedbdfc7881d174868efd21063),
(0xc104c6838448cda2c94b03037b5ddccad4db1d7ee744e70f5f9275b3244b8405, 0xac9e65453722e2c90d7d97aa767c32352a213391aa2e327d03884ecd93f4b133),
(0xd4b02b473f851a30604356c0e9310d4d7bd0f9a117db0c9054862b58969887c5, 0xd451896a5eba571d04e55d269c3c808255c5cf18f1f2d033b8d30788224a68f2),
(0x93d2f6a3e97e4aa410fb6006f3853f85065bd14daec87192e61b8f9793f29b32, 0xa0a840bd336034f1a98a0239c6ab3ecbeadd69c251b2e03c339dd4bd7a407308),
(0x7d7d7357467e23a12022788b2ada9a691243fbae486cc61b56458e2e781f8f3b, 0x59d5566d97bb583b940de40644e19530b1bc7ced02a00c50f4bbef30d899e7e6),
(0xea80f7b58c72080ff2d83604ccf6e4d328a71914abf948888dc87c4215fd4a6b, 0xecc6e626f01f73b25d7e92e0d1220b828f2f8ef33cc921113d15bfab179ad8ef),
(0xc74366e726949fa06913e6abc41cb17ec3837659253c303830d543f6ac0e4aa6, 0x671ed2722626ab3314b6b1d81cda24d29fc132f951f97b958e72bc0b09eb42d3),
(0x6170ed4dc3dc22182b45c1c6fcee9fc13897ac17fc32fb25aaf2880f4cbd11bd, 0xcb40f34e7e8faa897133883421cb247a4c938f3ef6a97cd31711f8030c872621),
(0x7dacf9ad5775fa620f99e0935e948526b94ef22e912ae95d8dd4e5ba744a2ebd, 0x6993169006c73045d8530a39d33a8e21d59129699f7b721c1dd0c616725d5778),
(0xb1d113f20ad7b487908767a0b6faa4136a8b3dad41dad9d20b6e8e7c9f294639, 0x7c802cbf4596903a90b1de93649bff3a6f63ab85a9e3529a7d907b417f973b61),
(0xd09d8d8a17a1b113aaafc270db36ed634342d90c64b6ae979733391deb67f3a4, 0xc48701eb738c3edca4f78313a56660f53da8ebaa3cd8d469d1dd5910c618851f),
(0xc264ffb3c223e60ffa34faf9feb186684b05b7e06770db1f9561ed5aea0bfef7, 0xe4df501eebb4cdcebbe6c4ccb966de7718ac54793e403e79389ac33092928e6e),
(0x55505edd605e4299afb5a69d81f6df34c7c2133edbc7bb10ebc49187857d7c49, 0xddc196107c3bee6dad955e1f76afb31e93a88e4bde8aee59aba50864c295a487),
(0x9d61801ba07c358c0f9942bdd3614d3f74904b8f8f8aa8e6a957eadf79fe99ef, 0x7d9d59802fb5dacd93ec6c6a92ef86bb6079076f7d964d3170e3ad3b7bb854a5),
(0xf1a6cc663dbf46dae1ca98af610f09e5e9251a44f6b9915cb68c58f79038645d, 0xe41bc6cd747c03906d29e29c4cbc2dec6817114edaedf220b7fce48e7e6f42ee),
(0xdf24755850b523d6de15c3ec38537a3caf9a90fa2c0e8b253569628910517a79, 0x0bb567bae42e989985fc478a4303188c2da741febbd1742c0818ec1ce64818a5),
(0x4dc30b60b174bb781f339277ce3996f7fe102e13d80873b11a9e6b4d54247cef, 0xb13e5069a7344a994f9cd2841d9291a650e1d969dd3061ddef34f0377c85e20f),
(0xe77aac3e946f7715b9d0999b1f3aadfede9c31dcf8eab336c5bcaa510f16f64a, 0x9d78c14d90cb37a300835d23fd8d5a372b8fa1601274e5f02bae50f1587a11bd),
(0x24f29bd351e6286403a7d2fa6c47ab78a6d0c6f2c73bdf00864e8bd0c3f038d7, 0x4a34c7f022e43220f6d30d593d3ccb54dbbcc50b4b845712e72636dad0cecff3),
(0xad4b9b47b9cac9f8a5f3728cec610000163ac2ec6a18cc34b630134d9fcc9364, 0xafc8726ee0f988f0532471771efb25aee07b70baec7c425c050e3eae2898c077),
(0x1d38128dce7ede1b265a4f8c4e6b911cd0e2808787244a60dd9f646e2932e509, 0x0857a6c8e4f43cfe129e11bb462101d79c76e99ec7b4aed4efc029beb1b9c1c5),
(0xc171b7a27badcf84c3c61afd07568d235a14f0f40fec777b4a91c92c61358677, 0xcde264a048d2cd4cd53d73718546802f1ab67815d6ebb3cfb6415f4d5cf4057e),
(0xd50f20d6f4781aebeeca2a8e85e8b75c187c6d340a940266daa1687696acef4d, 0x9aa9967135a1dae1af29ed059fa15eb2a4aaca2799d98c645ae0ed037f08f37a),
(0x6b83cb0707bfd33d181fc83563eabdd3a50be6d4abb64a16e338f18cc098a977, 0x3e04e660cfe61fd801ec67b2d20ca9fbf9c6e03871f7c838b261ade051b564e9),
(0x2e75abaddc0501f3afa90484e85972b2679d1d0462d6d20642c7383015213b19, 0x4754077da6868edba09433973c60a58188a55ceddee3835193ce045ae93517de),
(0x8a322085d749f63a38dcfbba624d0c87b9bcb66ce4e3d84ae97f7781a0e9a164, 0x3b592b8f9d8cc10b58fbdc7e982e3fa67aa67c90e9ca884ae1f572916d7e2076),
(0xb890b7f9ba1f19452a7bf1bf944f9949036bb4ad5e2e0fb8015ddc1e2f30d72b, 0xc1b652c4f8e9d91c8a92f76ef6f72ed33357b35a5ac00d63a039df78eb778a46),
(0xcdf33d41c54c8a0edd3a0b1a12290d13715de82b21af5306a1197444acfdd5c9, 0x02d7b78f31d08fc8afdb3940ef1afaf73bf370291e1be3c95acdc6730ee2150d),
(0x20b24e10c0f85631fb891ae5c0b0b36e5a3829dfa5018c1d8b59fe87b051b55d, 0x0b5b920467394039df0a34f1308b086a454c795740d31fd8960f6ab833998c41),
(0x61976c23257b9adc48147038ff5ace0839d8827409810bc925590555b0e1c709, 0x2b31a4c2a712edd606b2da3f84447c73f2e3f6520d22b81dd37ac4a9def5390f),
(0x4ff22758a2a25681d28fbf09e4cea5f474c00681d9b4fe6def3227e36092b52e, 0x4b0f517a4e56697b37341ab06fbc92e24ae3d03d392c33d2377f743210a89fdc),
(0x46145b19639938dd9c6c84ebd4180cf9752cf9fea77ca6095ffc8f7eead61f35, 0x5b7b55dd8a5e7d00a3b62d202f371d428eeacc9e7556547df2396c859503f6f8),
(0x32464689a5d7626cfd02b5fcda68a8f8dec32eba887b523c4b4e379b0c40bee7, 0x6e9cb8c53fb716c0b583b3567ba6890d2cdccd39646a49c8132ef061d89f6710),
(0x564388942c9aa575efbaec77cbecd9fe79fb4461c61ac051195ae384dc0d6ddb, 0x663528a429696073f9d47d2c0bb2c2569bf6c452c171ca437cd3480f95b69a05),
(0xf04fa37b9c510beaec12fd4a307b1b0ed934fa1c78cbfbe3bf904b0091491e4e, 0x19b7da4d826a314f586c4c78457a307576f3ada461af5bb6c374178c23a79326),
(0x36fe4596b1ca6409741f7a0cb899f89fa727207eeedc8e570504847d2cb304cd, 0x0078f11f4473b1245772a101564b646843d4bf76afacf02cbc45ab39c7221e19),
(0xce3e6d1bf2deae038ea4333b0ebfa026d1954ffd0f50df66e2899b051ee87b0d, 0x4cd4635f10af69c750e96edee4f385912a14b104ed9023af60ac6e93a9b9bcb0),
(0x33ad3a7fa600887574bd735cb2ec5dff10ffc5dc3163d8d16264408600888d29, 0x8c959ba32f7b8ed04cb2bf2f2b5e5f56b29a851c8d1f6bffb48fab315335b3e0),
(0x7101a2b236aa79036348006ecb8f81f6b481ed8d8a3081aa40ed475f13fde43d, 0xd0a9365451471aca80a05745057b4a249d627dd5c1428ed579feac025fd2cd2e),
(0xba3b40429c0bb526c31cf6023f9abe17699743445e66566c851501a5d125471f, 0x7db3e93be9944c42b16544076d5bc6a099806c676cc7415a9d110661f4c644e6),
(0x57c6a5821da61528dc291aec3a9f1a86229594a2277675835687ee91015acd72, 0xa9e4750b5580b2257768ce7ab2909466589a1a122e54a7af035f44de44cd5dce),
(0xc8353ee5847efb7aec03d949633132b39ad898e89a367c777b4a2ecec47a7c10, 0xdfce02ff071060be5e12d377524c798e097bafd6e9aa9e1027c07a8d6f7d3a55),
(0xb0f6ef6778b4ee996d7807ca9f1f6f44203eed8e62584c6d666e3698e41c0eb1, 0xb92763af0c9ea095f757e921ac0bdb02605eb66ed3e1735ff8f17e63dee5460e),
(0xf2e4015e62645bd46f858b25cb636f976ccfe5f8da065b6501ec170cecf5c411, 0x8c05cf9b1945959707c1d1b64ff6e9025d78a17506416e0aebf33c217b3d5dda),
(0xffcde722ad4a222324396b525a95a23331dab41d95a4e19c1a23c2e3db7460f9, 0xf7282903525ac2ed3f9db21a92d3fe4eb1635a8c77dcbf8be671146c8eca8115),
(0x81dc05b52d9a210c4904bbdecfb4eacd8b3f08f1d667e9f0a27345a97d37b37a, 0x747aad1dbd0003a6d89f9d9c0fc00977719d24a5b8ebb80798d1b64487105f5e),
(0x5b92318da267772d946560878d698aaa7d2c721b28dfbc209e4a3e8d1b0eef1c, 0xb2d274ec7aade4174f2f87661b5018bb47c83d32b2fed50c437348a793041906),
(0x3eabd0fd6b5bc51bc187c943511c30058f86e4748547fcd64959507026fb805c, 0x095e8bbe8187398ffa4ea4cb0b50bae219f8cc5a5f09503b3edd115f729b2101),
(0xa64d3807f92b91e00717c310ec79990843e3a394a5ece3c87c3bb2098d3123ae, 0x50fbacf8be11f6b0ea0e36b35c46bdb08fb7906459b529019af59b1ce80ad239),
(0xdb9ce1537cd47f3f4b08858ad429c9759ce6738c2e6d56f0fca12e70777b83a1, 0xa91b201609fb1e2ffd52192d7030d86f663585165ba328296c9aac95192afbf6),
(0xbea03f4976ee0a86e00bfddc79e521731baef841d751ee479a46cfe789de2399, 0xfeec1fb03901a923862054e67024ba7f4c485c702ff22aa41620e85706dcc863),
(0xcda308eb06975d59db439e2332505d294ebdca675373ed7925b52a6ef60a33c9, 0x7d2053c5414c9bcc5155f17a6fc206d8081cc882543417781c5db51f3ce4c224),
(0x430bfb3a802988b3a68d55950c989cbe75d409d268dd84b9a1d4a5b942360174, 0x3de4c6e13c87338c8bef61956559335ebec503fa2025529bb015cac66d8060fc),
(0xb4b1b7c9932be2436b06b2c1e5de312e4a40949811a226d85bb30c5e1487c36d, 0xe169a70cb95988ddfe1a98df527fc17261cc310388d41ed34bff23bb31da4dc0),
(0x7a954055d2d6acda8dbe81e746310113e26af09b91cd59dc92a479c6d6079ef4, 0x83c6d3ff4582eea7becaf8bd422c0558a2bc8d6fcb615c5907c4698247cabcb3)]

/-- secp256k1_pre_g[6912..6975], /repo/src/precomputed_ecmult.c:6954-7017 -/
def g13_4 : List (Nat × Nat) := [
(0xaedd36fa91a7f95f2b2f32c91be7786075783bcf8fcb20b5f20ca664dd89474b, 0xc747f32a174ec6a7936f13a47e80a2e90324b7f5e163b396218c4c359391e565),
(0x41052d4854402d09a813492a2f9362ee09799ffa3d27020045a0ae079f913f60, 0x97cbdcf9b60518c974ddd987386d60d13d10defc8fe64511843d5bf713774178),
(0x886e5afb69f6debcc1c5be6fb636eea87314ff1f0975cd969070e376c1a9973c, 0x6a8ec4b7098fec5eb4a8d645c7b72663d6bf4aff8f4f4b36c064bf3bf6e7b5ef),
(0xc93adec2ddf85ba8d9147c9182ee4fbb5727081e0a6938c0a4bcfbfe6856dee8, 0x09ebef5d2b2253e94474331db52739c171214093aeab11e4e51a2be4e201dfb1),
(0xd97166fa94a4e51bad21e1d976e01011655ce24f5f5afdb8feda67bf8ae65a83, 0x815ac89457f83bf95579fed2ea470ad2ac1c83f8546ef3f8bc3837011bc62a48),
(0xc23cf94fc5a93aa1719ea8d44f426fd3d48220cc10ea558ee4680c1adc91b18a, 0x64a4dd898f36efa6efce9354fa30f506be3766f30a31839e01fba56b5a07ebd3),
(0x7236b1df88751e982689e049c5084b71b8d7979c2c412a3c995e61c72440929a, 0x67155955bf5d19169e36636eba56fe44f7cef6d1b0afd3c2beb59b265e3b67a6),
(0xd1890a85df4f7933ff72fad605b95f5cc9fd86833c1bd2fd56a3b7c30e90428d, 0x8b4896ad4b4469d8af074ebaac38563aca68888c5411ce0eb3701ced75d4f87e),
(0x41ae85b19fcaf4a6013901d203cd237662f299c97cb306ee8ffc13fc75d54e15, 0x20d99cc3215f0b1c20922ffc6e111b53e88ffb39bb6e118c61b9e3eefa7d01f1),
(0xd125489c4e07c44f35d39008e4e29c43c28ca5053e370570a7bd34c757e673f5, 0xd142e19e825ff93eb6661160b60d4e06b439338843500b292d4d62a928db2bd2),
(0x8c50b3d3667b2aa1a60c425d1128d389f2786b3d656ee126dd57af96ebaad9e4, 0x55eb7ca1c2bb588107f82cfcc8b5ca355c2aec5c68dd479d948261eed342fce1),
(0x3e77a3c8a2e995b7582f502f9bb1230b35311af4dc8d07449211a13b0444fd42, 0x99c427f58365ca18752725087dc57985d59d72edaedfd5f9d61517c61fb8679d),
(0x73ffde6480547448658ae5a8529755d72ad7ec845711f0b320acc53ea15ab609, 0x786de118c6a0daee48f3f585d10b9f2cb4947661b844ed5159903ce5f2cc8d18),
(0x8f2ec78b47c61a39c2ed1110902b3a434fc9ddfc0b11b1ed75c675be5b8a172c, 0x441686b5c1327f0fd2bee35c5d8f2aefb6da72ace62069826d6812a05b937346),
(0xc36c0376d360f87d280695117eddf1fc75ae71185fd5a82bb47d8fcf519ae4d4, 0x44c31c56cda1c2d441161ab70045f3c025c4ada372396658cca23f93bdb6a303),
(0x1ff064903cc7e6860d4089094812a7d8531c4188ab8aaf4ff10bcc5a9cac352c, 0x87af78d53122ad899a6a1297fcc87c1f252bbf9cd8cfbf57f64cb6adfe77f3a8),
(0x1265a4c006e1f1a6126a9e37a6e4f90b290fe44949b82bca8ea73759451e0b25, 0x4f0f7a6c9bc7f00c42b90d9595871176d723941e383355818f7aacddf830d15d),
(0x2595358e4d45d3625fa1c89da3249cc5a26ec3d1e554a86351b79fc34eeea90c, 0xd9b8d147e4e004501baeeb5a8440235a88913063bb1ffa789402c3f72c603899),
(0x3f4326217a5f415cb028f33840fc226e5906a09bd054eb5545609fee90135082, 0xa572303a131fb0f9c63d88e63520ef2e77bcfea51031fa600fada909a610c830),
(0x9ee85c9b4cb0102a6b21c517947d798cc26dd8537bb5d6c046a50144f3297f45, 0x85b798abc2e4fcddbf3e17b049e2a4956239ba169917ed08ebe109e04ac8016d),
(0x479c2ec028e8c83fd7946f438d802ed30d72817955d94c55bdef505067774934, 0xc262229e23eacd99f9d3fb370b7b904047cdd5a66872f4ac0800dbb3d87fc3fd),
(0x02a52f4d821cf4ae758ed4776cdc3bc92d3924fd97a12f1f4dd5a64624766b4b, 0x285007546ca8f1426f3a4a6f6ccf843737c6a9177ab59b920728f588f11509aa),
(0xd89159a6d5447ab1bd03d44aa8db3410c86305b404f06b25b88c42445ab1e929, 0xc539ee3ae7dec645810c4a02e1777977d98ddba2281d57012ed2a4c585057013),
(0xc91267af4c303e07ad82c1e62ddd45d7cfae00a8d27a34f1eea8d15c01add920, 0x975967db347415ae24b427a1b8f7229f8db0758a7ea13f7c0582c260c0711b85),
(0xc860be3118ce92b039b27a50960d3caf88e24bae6e45fd8c5a253a78e3d0e6cb, 0x015b8374922f44f3adaa213d5e3facdc09de1ff64da677d3d89f6e0aa800413f),
(0x0eb8b5f42fa90313b3dd7d4bd47338e29861e52cb492e9dd6a1897ec4da14c14, 0x9d1c4d0d056c570b8835e188517fe7db490aa6b2bfbe1564579e7af90c0647bf),
(0x151e39fdd5961da744ac587194081a88666d3dda6507404b607d449f1b3c005f, 0x476bca6d6bfc5e2b2c183794563d35acaa8d38bdec3846b022831bda38fa28fe),
(0xb46d2d52b764f9227ead0399c391a9db1737c9ab353949515a57c76cc3c05c59, 0x8aeb78dbdb1e52bba8030a3f0b9f57f6644332be6d0ad41c34b7fbd313c6eccf),
(0x0a89e77d30c66dbaa27a2dfd5af0684ff6ccc84e049b8d98f402a88b020e5bf7, 0xaf45b2dacffcc49d4f6db57429f13971c74f53214dd4af492bc7ae5f10abe1ec),
(0x8d774c5beaa0cc577479873f9bf5ff6c808afa4c6fa6f2be88b538414cd088c5, 0x6b9461a6600ae1ac4e61714973fa8b48074dd7cc9f331eb6e15bfcc32e26eb63),
(0x34ecc029105f5e19d6c2471eeae5b671cd55f2c1bfba7dc846787c92ba7de2a3, 0x13e3cd9adb98a6b2433dba08ec7d40c9c2467878f6f4bcd00ce6039767aca327),
(0x41b102986889f83e0e89d4f8fa50898bc9bbf6502d153c3685064c9bf3dc3c43, 0x559f5bf40fb827bc0dd068d3cdb14d6cace08a47c30e3fc78972ceb89f88c21f),
(0x04a7750579ae33e455228533b8856da2b14f70a8d13ac2f4f6bdc5eb4f5c9aba, 0xd365922e3a4876353ee1b02b511c7926e5c5edfdaac153e2686ce4dfb623ed2f),
(0x173af9bcefacadf6c107748f278adc1bd42174e68fe06d9df84fe27870eda280, 0x7b120d622463b94a57303cfb2c477f9549d41a66d6ee7c2a4c652284b8535faa),
(0xf0fa5cfdba53a5badf707983134c34595ba232b57fb67a945c5c0f25a0539be9, 0xccbc91a9c0a2efd23bffec87cadd16ddf4292aefa59b3d316e9c7082742edb6d),
(0xa5df803f751c484610799c60db4054399b1d5bfcc99fb316fe884468e57ab77b, 0x27f8f706a2f08ff3249f8b62ac0d59b631fe52fa7ab08ad52d09ff2c4138dcd4),
(0xd165fa7ed61c251ea93e8f16c9291b091f258720fd303a3dc573131bd98628cb, 0x0cc0dee9f01f0dceaba944611e48f9c5282a7480eded0794081d0b8ca9819a73),
(0x8770337146a8694e2bb5cb1076ffcd94309c9c8cbe6e8cf65a77f4ca4d31efb1, 0xee64af6a5569a2052cd98c10871b2ba06addae3b3cec463f6002d86f0b16e5e9),
(0x1c7e4ec70c0909063d98f786dc22db53da4d258d6e75cbae30d4b99ef4ca47d4, 0xd2001df73297e6ec0c0aec17e72cfa6f5951e2bcf03e4aa55f329c7747cd92d8),
(0xd485ec0a1a0abc6a69f308d4c7f8b8bdfff5ac6fad4ae4ee271a87ce973b58fb, 0x68f51764ee7052653e2f7d7b7415847c03856e3e1a7f49326fbfc9c65976cd48),
(0xae5ab51048215ea23be55d934e0dce0bff88f09d10c8953e390b79f2da26e43f, 0x09f80d7136a5da617f90d0c8a6d9aecc5cf88abf6bbc21815f8320a72fa8929f),
(0xcb879f424613487c24aa73a736f211ea9654187733fd709140a824ae7641a708, 0xd46a4ad57f607301f61648b6e99891d9ccc41af1af29a66bb894575aa6b3d5a2),
(0x1e8d6ac8ec0b543d1e0aea667f35b55687e30be072841fc93f599c814a750d7e, 0x8965853e6519ae5dc523cb52720b004fad2f03e7aa3e0413bc68efccc0617f85),
(0xdd8e5b0fbe63df6f5c20e4470778f9232e1b2c224d28cfdab2c672c666d05f8c, 0xd8b75f77f955219bd4d95e6535d5cb0d23c2a1d1671b94162da9c4c9b2d4a94a),
(0x78ac44e9938bf51a0691132e93ec3a4222be318535209054a76b87c6645e0252, 0xc0f66cf0003c20ddd136d1f1cc00eb17efdf2a4e72d373a399c20da88342299d),
(0xd53110b95034e916d904cd151170761d4f3492ad9e2572653ef37739df9bb035, 0xc091177d796d199e5c05abeb29d0df1e0e5ceb930d272e6dd254b6d9a6dd35d8),
(0x868b27323debb9aa609424983be71d0b451ea44b64c222252af3d63c03eb512b, 0x8951dd3439774c8d89cf4b4c485889e30df2503a102ae568c63fa74d23ee659f),
(0x672de7f234e96153d83da7fe3e19909952ee988d961620acb8c6b4c3520fc50d, 0xab02a8b52a2d93068a83a0dd23ff882fb1052f2272a0ad11cea13c634efa33a2),
(0x4887f473af8189d9c46ae22fc86ba6e0f03c81a1490de03272b07937b63a7527, 0xa2e7a713e1e6691ace09dc0fa86c92b0a00978997fbf26d398581731a577a21d),
(0xf97ddd7738bb419dec051fcfa93753ffe3dfa1226cf02e1f23afb3767a121440, 0x2fa9c241f747fcda0dd09139437eafc894e7a47cec8a7ffa1e054ce921d73243),
(0xebe75f9b2c92af9f11eefb043456f6eff616d1ecb616a9e99e7f89604f1d62fe, 0x40b5cf37b06cfb0f294da3c0f756c867af06449fe2a916c8a327117e9a47f74b),
(0x10d376b11f0138b3238deefa0b57dc847ef6684914e9f1201a9619c6b1715a13, 0xa216f3931f398b67d68a28881d5a31f6e5e0da820e2b50604c6f63229cd21748),
(0x69e26679f103a1f98a9a4d88c973874edb7c82ca99e48554372844450b55517b, 0xcab62aa513b41a9c56ea455b6a880b959d400bba74e7a2037b60ccb04a89b8c8),
(0x3acf827d81e3993364e99fa563f89305dcc60b6244ecc0a6b101c6f6ecd5bdab, 0x77e3bd2840a99c4530ab77674d8ed17ff57a4f1a4ab917327059114cc06fadbf),
(0x2e5125bf9e263d807a2200630434f928d9a4907f68601eb9829041e1a7b89bc4, 0x9810022ad7d3c333d7c022d9d0779b9b5807226c9fd41e65c3fc8e1aa7a0b51f),
(0x7b68da4a197f6bdf56948023d2baf10c9449d6b00b18addc49385125e62506bf, 0x85a92b7a190aec87bdcb9df842e939179254ae6fb45e676432e410ef4b28434b),
(0x060d4b539a29562e8fab8ad73b6995503fe7d6c1e2ba1465f05c92b161dc829f, 0x2c2ad4398fc7c8365b2efcf21e4d01561a753f5e0d945ef2bb1a3394203d07eb),
(0x05a3a1bd30250a40d22aed4271892b883c03ea0a0baba4586b65cc504c79b107, 0x9bf3bf42df1637cb80c1fef2cb9bfaefdcbff76189cf9f5ed00f0f4ae551e31b),
(0x9b9d93b56b70fc6705476c6a6913e17311ed1ade6ea7b810b9c909770a8f3707, 0xae01a4817a9ce6ef5584a48bfb96a9c521d5bb7e2bf73cb4b71f4dfeaa7da298),
(0x044bdd8286a3a4d76ecad7f1ef66022c6a49b9163d7a8ccde54bb017814d2f70, 0x26d345a052034ce8b4382905f60f8885e20afd4c54df6d6cccd1c2e25d06adaa),
(0x8de8205fe44946c8582dcbe7152dfe3a07eb85e7bc0702823c97272754463869, 0x1dd97d78e12a92f0cc2145eedb4ef561af21d3db0f3cb123ce0bb5826791a30b),
(0xc36a713e3d88ae25f79b4add90c6a72477be7d9ea62ca0ab2d5a800d41f9321f, 0x2df57da86cf17f7d63ebb85ee7570869cf90b462e76af48b641c07c945a638f6),
(0x1ce37a88f25b8b81941db8a613a7d952c2cf868fe979bc0d5f35410d147207a8, 0x7fab8cb5f6611850e541dce2315a7833039990415c18ab0a718dfe32e0ebe992),
(0xe489744bdbb11e61a7e827caad18ba5541f4c02ab50b75a0353f4a2df504d575, 0x6abad3b53ad97e6da301ff7c7931f37e55246ab4000c7560363ff2142cb9a398)]

/-- secp256k1_pre_g[6976..7039], /repo/src/precomputed_ecmult.c:7018-7081 -/
def g13_5 : List (Nat × Nat) := [
(0xcb4ec0aac1cddaf1c7a675075cad6762cf8ffce76a06f76a38bb88c45181ca3d, 0x7f15e7265092287cd2ccf3c5dfcda0c18c63f2ad21c06a2b469bba5ad9e4ff36),
(0xaee1c4366b92384740127dc4150c6dccea62864f394415ed9a39d539adda44e6, 0x2496d2da97990e6f5fb1526db93e92e78a011c330061218dc3d3c56d952f8666),
(0xa099ce61d950fa1f19abc21a79c74021472c46abd8f6779834df0429ba785491, 0xc4dc483d6d61ab1d7578ee0d7548e0b4295891a139774c227d073232f2f3ecfb),
(0x6c57db5fb194dde1b8cc9686fdb65fd4eaf8aba1844343447a770ddc9055e429, 0x2dfb48f1058663b36a7747e84b5a9001163ea20ef07649f71d7a21b9b11995e2),
(0xf6efa15f20b2e91bcd7323a651e5d7b7a8b323df924c616f21a7d6e0e34d3c76, 0xed48a4392bb4d59658e7575795a0a4d27443415d7662a535a6246d643804fc1e),
(0xe79834760a900be4e9dfed9442f575e64d9af3621e874a99576e06e5d31485f8, 0x9d21080a08b0534f6b2dfff89eb8172bcb5388ffd910fdfa405ead299df779be),
(0x88ffff0d7b415f768c515d809c607949b469b07f3978caff001ba64ece198ba1, 0x06816bd9ab0e773c38b737872881e96b08eaf381b155b20579b24a39eb9e0fad),
(0xe5fd2c3ca1c85b033d93a3c1261a5c1ec4adb72a7700405e7c0bb108d8fec1fe, 0x97bdee1750801ab9a96e3fd400ec4860e59034e5c02f916879b1e6545a65fd39),
(0xfb010f18146336ff030dee37b25aa3849588b83abf943125613d2c72c2f5b3c4, 0x04b0ff7e7a6f15c4d377e92e73c8935bd2d9f7b35be91cecda891f61c7631bbb),
(0x9be574b2c28b1460a1d67d9443e4bb85c46a6bcda957499a179cc8f97ed33c2a, 0x16aada1a367def6ed4f34409e0ff5d41f38544946a764040e1109574109bb310),
(0x358e97b76799ae09b80b679790e346303d61fd4e71733d6b3c90fdee2ad44bf1, 0x3eeb5209175677afc16a38695ff7d3a5e9704201b802ec3350c6c2bac0ff4144),
(0x2ed930c1c941b209b6e7cf3e83971e709e36bed7a4d3884afaaf013d5b589b59, 0x0ff6a5a5e601377b9dd974bc4fe71e360403f2cc90b16834b1beb6a098553d2e),
(0xd86110c06e8b20a2e6da1930fbda70a0d8c022e3e68255f7262168f32bd58986, 0x34dd600f9b7157cb2ec545e5c50b3f952f422b2104afe255b73378151f3dc048),
(0x4e7ffdde305ea002f7dfadbee2da926e6d2c2714596fb0527eddfe9281d4fefd, 0xfb4dc1e9476cb2d13bef45489ab7ca866ccbdd714cfc937dbf024f12ff04eaef),
(0x06ba04fe47c4c99f849fbd687e1ca6f603e001793ba3a08f86acf668df0afdfd, 0xdad78b7a9d34c7383111280191476b92b8eff31f00fcaa6da07042445fe32e37),
(0xbda2c2c486029d0db804f1eae921515034276a88179154ddd5d9f176cd7f50ba, 0xa70291fa47b98bf1fecd9aa5b53ca61941d62c9ec8b02ea791c79482afc8f1c3),
(0x99801a164da92a6bde6ec7a269c2798cb421af015ec24c8f1b090169018980a5, 0x3af209c7de27a68356f242e38805a36866cf778060c2806d76f9eb0635c18358),
(0x67fcf955dba84390638517f95792d09b64c056aaba98acf9d63c2bbddf5f021f, 0x96f96080b5758233ee15e8c47ffdc3aebbc752a9d7697e1c3ec3d4794f912d2b),
(0xc15990a050c2946ae4518cf684ac9cae1022a29abd88f8c2c8e724c289b954c6, 0x611bc99ce4ad5b6e3ac932cde2e70e0b0a3690ec758bdead5edb3b0fb5b95d56),
(0xc5261ad4f6d03a0bc15ace200aaf95bf94d9ab5a95a45d906ce7a6223b09d59c, 0x5fd1b7a3b22732c74b5dc1cafac998820467bd8053f2f606ca5af8fe6d741448),
(0xb0bec3f4eae81fd702b7002772a49acf46a5c50f48358df5e174eea3c0da88a4, 0x13a4cf63fca873d6cf1b8c35ce25f4394d74a5d2f2fa2799d4c3bb988b50ab67),
(0xe3d32fa89218a38ac503780bdfe23dcc0e6a7138d84668b3f71b3fdf891b6256, 0x246ebe207ab7c5368f7c97959e7aa1fe69909d50f4b24263c32b8bea7674b85b),
(0xebf3bd9c1920f6254c32467b7c1c138d3ac6a4c2b185557f6eeffd7b2aae0d63, 0x58ed82e125fa22412bc4397e73009692af1d5febf640a422f52e5cb642d4bccf),
(0xd062e72b3dc76d035827786da9cbcb03b710ea612eac883db7f50df3fc6f7175, 0xcc56b076dc3cf1b9e544858c01a3172333ba9848a8c463f2abf2c6d0dae14a6a),
(0x97444eb232b09240fc596530374da035f5ebd37e6c74b51c8158eab78ae30f89, 0xfa06190fd2072badb9144f720db18819ba76399ed171d4bb1293c20d63d70391),
(0x3e1ffac815f683004714f3021ed39460d5e4d63f6fdc445f12d8470fb273c242, 0x86f0839f8610c4cc6ae85d54b951441eefb700e99ce54aa9fb6c7988a8494c25),
(0xdeef1e7c12e498e86542acf23782ece52a02b13e3b4e71cfe39e79ba541d2679, 0x0e039a94f4b169fea13ed182f9e541e52b117536d90024e69f3bcc7c988714cb),
(0x69ed1a6200b3de5cc5785b27c7926e5204ca15279f8a00ebb5e1c2470a6c8265, 0x9c5fce7a84b79a679f3030cfa179a682cc22c46411ffc8b1ceb885ab4753de36),
(0xcdb364195c3be45a0bc9f58ee5a499a6ef58ff2d296ff9899fa987c6b753f82c, 0x34a1a6fb7a6b6c952a604340d2c30c1569c46123e5cc5318833f3a3fbd622e47),
(0xc5749ad9f4583689f2ed313f0dc35fe8acb6a85edd0498c5ddcd4842fa21c555, 0x0f22ea47ba61044b54ef967ec8c821673d14d710334784f6a7b46d4819f99cf6),
(0xfc86862fb2fac126e4341121c82a9e14d7a48b9c988b84580300dc3aba10dffb, 0x042339dc0e304641f814327bca5a611f3638d61085826d703d94c76b8297f6f9),
(0x66dd174e446ae0c63ded267afaa20ba5621314595576d10a1e44ef1869e36ca9, 0xd93a449f6d3fef4e435f6fa63191b625b883c3031dd8b380777b556eacee9df0),
(0x736a80e915b39c215e5efbe8ed6f8fff7aa826f85c9401103c7ce37286d952c6, 0x4a9e17d89066ecb2954470584dc58c36c84b3d9a30ea45cce62454fcae13e0ba),
(0x7b747f80f4a324afe6042edb0d8682d31b8fe12e19936844b44c3e73f6b7075e, 0xc268449056e7633d2add97c975079594b9c0d038cb864331aebddd3e18830199),
(0xdfd54b47e4d2abe1c40e0a1c2916469a7e8a61b3bd95a1ea8b5fa182903d8339, 0xc705b4a60761d2ca49f87fa90ebb4b3935c3c6334f6b7643417c8a2995515fa9),
(0x992a5fca521a86e3dce0ccc5fd1b2ca3656f44c1f49679318ccb7a287879213d, 0xca2836c0496c75b604c56c13641d0402b64cb2c7617c9fbbd820245a09321217),
(0x38e59093acc26364de9cc5f4de39879954774d68ed4b02832bde2a26cfcd23bd, 0x953c21c314ad2e0d511d3f05678358f9eec2fa480d6b24c96ed4efd5da3b3719),
(0x889ea31a5969b77ac41c0a39cc5d006f6ff14f22a62a5f26d736ebccf5df8239, 0x4c2fa5d9c2f0316fdcd6462b0e7571f492aaee96c3c888e521cfabcf78d2c3f4),
(0xf70e24a16807d5a108e15fddf31301e80bd210ed5d3d614d82eec8b0326d7b6e, 0xdcf95677b29a5ae615e2e7b6c370cf69ccec71e89569f0b05715963eda6a34a1),
(0xd6eb74259c17d292e1b1a4ea624e6876a78aa77402b14e94d3fd1b43562e35e3, 0xc05013d14056ea0fe5f1fca4b0c74b5f776a8564ac973973c929707bb3f078bb),
(0xdf7cc5f269faf3066050409a6a03cdeb8f33d1d74e30658ee871de0959701b16, 0x3d8a28f5f604c76505f28dcfb2f3407e6a63db146b879fb5bc785e6559319147),
(0xe6bfa4b585f6df597840119b06a31d0e4ad800ea239bbbbfa8a1a36cf8c6b5ba, 0x312b5d5535402ae137f9a02caba859a022a8ba0088a2305e4afe828398844dba),
(0x3c762a8bacb68a132e3e022b35634b3c1907cdbb261ff6399520352dfd94b3af, 0x2ad358b965555cf1e0027e3ab93d46c5b104324e2c62f9b25f70930ebf49f385),
(0xb4d94e269955b2138025e5a5bc5ea171c2ea6d049ab6018488f47f7bf6a6d3f5, 0x197b20a881e9280d96b5b4d6ceb3fa2038a28654063e76ffd0b5b4018b59bd1c),
(0x406e616d907a0f7212acdf3fd5341a799b48269788976615388064c974cd8ed1, 0x72730d26b2698e297f62fd9802a3955cda516ebd642d66192d33a915ba39d0ac),
(0x1762d97437705ae837603446c8c11568c7878053f25baf9ee3bd23f95babdaf1, 0x1db8fe6c77f416561fa4df402366203966a8f891e5467b553a2593a51ba796ba),
(0xf5fbeeceaa5386c4d75c92a988ce6bf0f957a0ed3f0caff942f1f29c7ad765ee, 0xfa45a4e585ccc69188426bd208ae561da2f59d10e4bd63b04f8a53ef1cc3ab28),
(0x7e0d92d0d12bb892b87b8bc0993b4422cd1e9d95144602c3a2aa3c06bc945ecd, 0x601b10190746bbd4ba9bf00b4ffaccd0b1bf885f57ec49d29fc917448aa70761),
(0x64cfeaa14d4e0cdadb6b6a2d9e2c2820d2fa781743d7b2c28211b1fae17ee0db, 0xf0b199a61a1856b3360f519aa60569007a0ee62369e0aeceea64f0d08cf568f8),
(0xc90f70e699ba1a7586073eb45540b3e080bc78a4e811069ef861b0485f11c88b, 0x7a8257cacdc7538a13b55285939c614c14d6a94f7050990044b286d67eb84e14),
(0x3edbcf0eb4e5e640f40afec9ad370813426b54883090f8d4b72b16806694f42a, 0xede4512cc4baf93df05c14c9cb17b1c1fec46052c70873062214a05d60743c80),
(0x77adf15bae449ae2f63d7c443c56cf9d64d438405154473a5948cc79160b64d0, 0xa1bf9aaf7804cae2c377f98e86b75e906886d29321aed43c77e330dcdf9113d0),
(0x350632ea23e399623daa53d65a916f31b2ca02bb5bca1f5835b85165b430398c, 0x4193133948282550bfa1cef994c28873ee0165e2fa970d04e51f8ee2b87916be),
(0x3d6aae935ee4ab6d46de768ad6938703262e9fdb13bade310d38fbd09fade000, 0x62674fcc6eaddef7b971e9645a688e3214186605615982eda09de4ba13eaab23),
(0x0856e564a155a29dc1b739e6309fbbe85ea4debff12a9249347a5435af674993, 0xa0e6deeb3777ceb46017ee63caeda231e616fda3c105f0cd6174a3b3dea84256),
(0x95f8b405c1ca86fed56727eaeecbcce732d2c521415eff95b3cb42dc5230cc7f, 0xc8c66b1f2637df4e02a5375e3a2e5e4a0a89404c810322cec4b2bd1c91163ccf),
(0xb51de21354aa18ed6ea589fae3b92d90732dad076c80b842579d53bd2089e0e0, 0x8f0697371baca2db208f7db4c43a85fed816eca4e35fe95b0780e2c4a3f1b948),
(0xe36ac0b2c4b737837a96b372b8d0779f41605e992a0013a53c8eb4ebd5e2a988, 0x0d41ea6eef06bd627c2acd2f645acd8a75e353c2448aba53452787b6670eedd7),
(0x4d08e46ba3e812b067071dc8b76cbbb24effce48cf4a4c5bff4e15af71c51635, 0xfcbf2dd0ba055845b70cc54505a8658f39ef21769802fbda02d3ab98ba914c3d),
(0x314217745b1a6b68918e8afa4e8dda056094a6cb6024c3e0c10fdd99245d7501, 0x7ea6ac191c0db139eafdc961e8f91f1d79269f69cce275f7abe9598c2916fbd5),
(0x79bb2dbdf9afbc9cf605ad454768cad314d482410724b3017b5abd516f8dd4f9, 0xd1c9dce030fe1a725d100c07d842a78d0beb689a0606a933ca86505149007b8c),
(0x112abf7c1d5d66d00cbcbf421874bcb888d3b3b75c2cf36b1399fc0417525731, 0xb3d3ee4af44b53728d0957c5e388094c34fe0f5dc51abfc576c1e18ac920dabb),
(0xf6257a3a60365e63471fe77f893a8ae3174d30a19aa495cf251812d4c5040400, 0x293ef8f391804cdb34845404996a24a95554fd24185ec85c3a27ef8ec89938cf),
(0xee7c8ee8bec75baedb32c6f43b3b7a042c10e903de9e7d215ca08135d59a682e, 0xe68a0137398fb186d5168e644421ac4b30a635fdc15527f3e56b21b7c0008ff6)]

/-- secp256k1_pre_g[7040..7103], /repo/src/precomputed_ecmult.c:7082-7145 -/
def g13_6 : List (Nat × Nat) := [
(0xe292a4c0fd63ec7cc661ee1b25c9d5c7dd805a97fc6e64ce5d3d18adddc92aa8, 0x00ede2267fa6fe511d4a510fe7f5e14d8fa29fc8b77d61ea2e14073929644745),
(0xcf91432785a05d412ad061466df68649d3b8e0f686a83a70d32c2fdc978d8124, 0xf74c12237b0899dd53afaad1b9b06704c61c6e9781456e860ea55e6596b0b13d),
(0x88e58d2195376fcfb3f0c44cb013f2ba3379ba552ceca46c38ed48f1263fe894, 0xf2f38177bc673cbd708534326ece10905863ad841140c59a2a782af6ccbaa71a),
(0x90ada18bdf0c62d9dfa35e14d1eab9b348d09579f4e82cb365dad65b62ba53c5, 0x2c4e704bfc9a9b977d330d92602c677a04a0604074517775d441d0ce6c5e5e2f),
(0x3bdc1ecaa939c8b8c164e5f31a02a6dc9d2712a46c30f54fe2159934d492d1e5, 0xe53acd2628f6e646edb5f53ad9e1639e43b4ee9db61a3545a98746099b3c1e94),
(0x54a206cc48c7d529c8bd2ca391501ca21b58f5ed921ba11a95eadfab03a720bf, 0x83f4f820b9a07ae28c5e137bc9ec4f0c31c875a4b055b0bc8de38f74c54c06fd),
(0x2754b02113885a9af44cacd52999a03b0d16c90e4e3a7a67cb3426dff6abe546, 0xf8969b1ee955f8e2dc0d3090167c011666beaa6835bbb1dde721c4cf768ef566),
(0xae4381534cf07fc91dd14a4068b3cfe3aa6e608abf1d1c1e13ac54eee0759165, 0xe7807ae7395fd0726f77d7dc956c58a069243b6332bad33672d2eebd0662fb99),
(0xcb9d28c5357165ddfe18010e4263e62665fd631560ec8126c7b606036ec067a1, 0x86879039f3264d1e511fa8e24298c9ed6f1e7625897666ad04db9a433338f5c4),
(0x763534f552317771551524ae7ce3357941da627fdb77d4e1a9cf72a5f182d276, 0x9fd8ae13b1706ccead1900669b1d2f468c177970b5173f7655efee54ec5cd8de),
(0x3990fb8b39d529d0b2d384323c60ffdd03b32f7c278aca88f49f1523fa16ded5, 0xe43c977f427570b5b238edd077db9df8b1b82e20b73b8d5684a2ee37886edb83),
(0x6b76502a22280e31d0b6375d6dffef0a94dad7bfe640a4062ad696fc2744cbf6, 0xe667122cb6861cfc97fc4ed0e6193883c79a896c79e31603a67063d20421845a),
(0x7ac03be72ff152335ec9c34998e77ff779e5f348a49fda4ae52a69cc6b02c02a, 0x74a9e36faf0ef72db493617e9474b112593de375c845c8dcc1028ee79fd17599),
(0x31a83e18c03c570f31c3ecbebb787aad6492cdc23e07d3a443b56ca251c0888f, 0x3cbddf109bf08e81830dfa49d4d3cf95224b7a4efd6d99979dceb64aa8d7e440),
(0xec13f2e853935ae0705c2644d1512bfb8ea4adaad45a454ef761dc68c7ace561, 0x5413964197e2f5c55b4b7f5c5267ea7abf36b01dcbd627650ff56322c107f321),
(0xce8e23ccaa38e60370defdd937803f0218ae79a73679c36304dab15abd46004a, 0x01ddcf9292ea77c804a1346aa5f79f1326c9092f14ce1992dfc24bf1a2da35d5),
(0x77d80689f7cd8585fc03cb2014d024253b547962a282beff17aee95688292ee2, 0x466283f6429248fe301e18ef61a8978447142fd7fcc5c49636dca83eae8e9f03),
(0x6eed61a14e7e7ea554a4e43a61fa7eb8b8e7fd0d52de9ad8e4e9b13078178a5f, 0x2cb4d228090af9cba3c050ab12a3dd531f1c6d6ae4393449219d86e26465bbab),
(0x10cb3737a7916d8412c955d432d1ad46d8c7a60ae44936baf62b2a26b698e4f9, 0x35499a5d11e356adfc5960d58d6842e8ea0615f5e8bf39c18c217cc67a1faa97),
(0xe866ac846040f92bc52d298a6ae110dae16bc797d69588581f63c00f6cc68211, 0x257803b9ef7bb5ac59c6b59d32a49d5364c6659a0cb0482ea9d575304e244f90),
(0x5e75ce15aeb91c2ce4ce06a2decf02a1db85ef5aa43c42b600179d4a2eb4e404, 0xa08d537e529a6654a785969c8d8b0b86e3a76f91d9b72d92992f82151b61bd1f),
(0xfa80c52a12afecf47a5b48fd60fa35b50ffd122d8616ca071c1271a9bfe2c104, 0x74487accdbe2e60ee054643c37cd624b3dbbc3d34aaa60099c97cfe4b3d69e81),
(0xddec1720dca13ec02eee97cb445044e8d6b049f50694ce5aefa664d90d89b6dc, 0x122b68affeed4f56b72a4a7ee20a7f8a8daa98839a7978578dac08511b843872),
(0x8511656657b70a1a96c5da0efa5d302549fcd00d104a4989442ff143a08b5a59, 0x2c96bdcc430c6c289d54806c9c17961a8121b10c5168cfeda0dc8edc09f4f551),
(0x7de80b3689b9dfe9de2f4fd34dbcedba9ad39842f105f580d8d5f6f7e1eb3e58, 0x43d20653db727ee6155998cdf7bb70b09be15c7ca04593b1398b4586baa3c417),
(0x0e66179d366fa7afa982c4809578d46991731ce8c669d8e6bdc399c2a2484b1a, 0x9371d85628bfb10ed07c3390b9f0822298793229ca2cf2ee75d53d2de8144441),
(0x1d435048d7b8bfa96df91fa8f8f6d1ce913bce85c2c7a1adcc199afa5da012f1, 0x4e389f264f36b2c9296934ad5f567eed30f3179d6538ef70f42052192c3eac82),
(0x5866c91b619f53ee3256772f56191a3523696c7e2b5140a289f36c11c1cdfca7, 0x6709099933ade86e3a5d384c840fc58402a8508710085798913c41b0e2dc1737),
(0x1e06d76820c95907405fc2c6bd75e1c2fb9c4d0e04cee15694e1a4d765a77a01, 0x4aea359fbd26d7a61b1e9f750554436327eea590fd2d5eb8087ece7c41759674),
(0xee415cb85e1ef10628c149bb2d2f9e1ba808336760a7b56af122cf4c9b59e5c9, 0xf52aeac6e2fb8a7eca5a629fb431736aeec16a06c1a4b87694ad8bedbad88ae0),
(0x42da5368b60f85c009f52c3c9aa82e664868ee3704b1851ed37ba6a3fb717e6d, 0x71f65b16a3937a5e00b535daec530798d1c91c88722fadb6580510bc5f27ed65),
(0x10bf92546300aa51bb08f8495acf4e53b1eb4e571328fef8304189e97acb81e5, 0x9b519bf3482c9516132388c6dabced4d971d033c52bb56076c788a37a9eb49cb),
(0x2f6456be5c2c184a1dbdde7c2dff16ac8f504a9bd86de1a7d9d3c1b2bb0688d8, 0x6bcdc62d4e6184ef1fd3972055da6e7d45cca6d94d15c0528ddfa7154aa68336),
(0xe68e8fb9beec6d15207e7017c3574e34102fd7f65e5f18f1e533487e5bb2fae5, 0x13624e45da0b6edbdf4ae9388214859063094aac1b25d534f80ca56c814a944c),
(0x7d314f194b776d00b946825df634f763e0b5aba9b1fb0424833301bcab1e94ab, 0x80d402d6a8dca19e709b9e234dfda4f39f9f758c928c1b9d842b2d5daea3fa54),
(0xfd78e68e5b5b952214b35d5fa0951f4c4d5df05628c5bafb9c6144e5c2c33a49, 0x049c62b9aa91e5f4be13a2097f941c9dcefbb300eeed9fc4a12c1e4537f4535b),
(0xe751f61a11e0b68b205fd3069f4abab0b25761313ac3ffc4eb4c525bf2b28f6d, 0x0aafd8f62fe20722b180ba67f9c3b6e808ab2b96956d603c868a8867c09ddba5),
(0x6db64d2e281e6734a8908de8554dfa93d7811f012852a3069e6ed59ec09a4823, 0x1c1276a91de36164309d83a2d9fdd003d889612c6026817acda97f8bd2cec77a),
(0x4de91b17fc227eca652f8d158cf0c696c6902df2b44a02ead05dfd68e408a17e, 0x130fd485d59456b148458cba922e9ce7799683400d7e5267b2f288d96df924ae),
(0x356ceb618c57db920931a3054537ddbf8bad8cb0c13f447c1c3fa4855c0ba01b, 0x6f52d242ec189e410d8ca010cdd645a08889206a4df816511e820e0a074bbaa7),
(0x595d8d681ccf61b0456ec03c53cc5a9385e553b5036033f8ec56c575db49cce3, 0x773b50cff0718e6a6a269cd965b5001df56132383e279bc8fb937580a76ad035),
(0xb076afb7234e8fd44107caee8d31338a5122d7854707605c2e5dae932e6c935b, 0x0a18e6611921080a84a74df615006847981b552a4c3021fc93967c64b19d629f),
(0x834a4467bada612e2705b0ae19fc9f1cb80e6e9f07c4c01e5899fba01f60cfe9, 0x9215b4e5f8194645813f00a858f77324e28522de16e93e809319731038ed9af8),
(0xd00093b1ba6eea04c08df30c90b2f7de06e13b42c645b01b0127003b5642aae0, 0x87739294746ec5474497a951c26ca6e912ae46381d0e28045363fe26de088434),
(0x66a33bcc71bb2f0bea36e5d0f1446ce5f3d44a9cb715e6baed00cf704c4ce1d1, 0x27d0f5b1a40fb2f1e1f9440bc1c1573150efa23db8997928cbdc0e032824a6bf),
(0xac65226cdc40fb92a963272420983b879e1a76150fcbde26ac9754ab408211f0, 0xae633790687f1c0252115aff3a7d5c929064bbff616b5eb087d5c1ee57cf8d3f),
(0xa4b9821378cb0e23d46b135943b354da3825e27a76f33334147a3ee752a81913, 0x2786a9fc3701a6e7caf070303bb382b2ce6d7c524249613013382f5992fec4e5),
(0x6f58e6ade4af1dcf633d3f358ac868360cf0968a49c2e85f2434ffb42475a34f, 0x70e30dbcdd567c8da6aa970d3131009af5297a36f80750be6462f1e8336db9ee),
(0x9bc7ace7d55fcd7ee67a04847d0d69020f053288ef17b3c264072dc0ae0e94d9, 0x7f57fd7093f3d09e53a82818e5ca4cc16b46f73d2c00e50c698d596308a8f3f7),
(0x248195deab1ad52dfe739d17a03ab762927e058bae666f2a04f7e2203173bb3d, 0x01b1914d3dc9f58451ac3346d05f033ab793277bdd80262ed2ffc21906965b96),
(0xf6008de021c5cd46d9d811d44070a7d646105a552a68c389a11161ce9baaae2d, 0x962cd254e5b0d7245ddf711432ab280016f5583ab8fa02a861b7c3dbeed77d91),
(0xf6dce5a3a919eab80c1d850b4643dd3b96e5c7e2a1923b58202543e54ece5b40, 0xc1b88f2ab3d516e47d289ecbb16b9bb74082a6c08ccafee121abf69173734c08),
(0x23fd6281b4958fb3b94ac9cf851561ca415cc9797ed619bd15192ca77ad39a71, 0xfac12f700ee38f19b2dbbd5c3cfe02e1b69bbde87a45f8d0bdfc909b640622b0),
(0xda3a5c2d7cdeffda1ff2085ffcda0dedeb40bd4003591395e4b20b0a25a1aa8e, 0xe0d90d58a6cf603810bf2891d51da50877d3aaad5ccc971d944ea960c943e3be),
(0x22113f6b8015b2f5bbff28c2cd5dc253c495cc6288361c273e788aa358a94554, 0x7b6f7bac2db4f19820ca6e90bab75cd0983536bb80051e6b7da589eedd2ae962),
(0x03b59d8f0d59a2e689c9d1c8a4e2515e73317cf741e38108eaad880ae3417c72, 0xbb96d41250614b508903c28eb5d39ed5b4e735f20ea10bfa1265aba70f21ded5),
(0x3407e5a24831b572abc0eeafc587b20e9339dd05ebf395d5378cb151e0dfe661, 0x4921418278e4d0be31cd4e1b9b0458b77e0288404a0745f040960dffb9022926),
(0x9540e18047717f7ef6ce71a831368919e4acbfb618c1582dcb4093f7caad2601, 0x6fe0f64c3f0aec375b36758a7f65c7b8e9329f6203309900efdd58f007bcf244),
(0xbd02f758513ef0450af72344f5d790cc1c549a23147a2743b8c0cb30891af3a1, 0x3c605d6013a560d0d792c5a76ae2f7397631ea13073478644c6bbae6dde96079),
(0x43b10d72cf1ba39b17abb149884fd00e56525f61594f965448683c1688f3e69a, 0xcbce7dc61bf71def95bbf6f2fb03751b8a0c63509eb9ead30713366d8cb71407),
(0x329003449ad585676ba2607dc873a8f080d9c0eb2f7314cd9746008f3c569642, 0x8c6560c69a037d5a3b2e740c270ff54354abb60eb32ce5cb4d18ecf81ab7ef60),
(0xa1495bc1911886444991e0975334c9ebcc277640f568a7b31350e4b7222b885a, 0xc5a1c34167cbed147f28f794d9d2867a9019948e56f986a0e69a0d6d6ae7dd1d),
(0x4640f683f180cf5a4929c2ab05169de28586105567c7c2a33db2d01bc3c8d726, 0x7d6ced337e752ab5c87fb211903c3a91e5b0ee7800361a43b716754f0d0daad8),
(0x91b3f9d27e989062ced571ecf373ff66f877521395e625db7d1b5168e895473a, 0xd7efd35f56ffd001bcf0191e2692e83299d0715a0edc1a192b74d8f3c0b23b80)]

/-- secp256k1_pre_g[7104..7167], /repo/src/precomputed_ecmult.c:7146-7209 -/
def g13_7 : List (Nat × Nat) := [
(0x437cb866aedcc0d58d89a41f95cf5dd0b355f2447885843f0c163d54a3839db3, 0x9d644bce31992f2f302c5daf67e42b7874bf3f9aa944e936aef172035ac2bddf),
(0xbe8cd347572e0e465c745c8326799611a5ebb1ad03ae74bf474a63866f4a3705, 0x6d39457fc1010837eac6bd41bd4a245e10bb39f177c5633b92bda8a2c50a3dd0),
(0xf40a76f2130d31a8c560795b54fa119b153a9a75bfe7dd28cc00ca352d258331, 0xf92558a469f1055e251c88147a94dd0844bb204831f2d33fd95858bf0dffd695),
(0x17e01809b94d294fc4438a926f90a2955a9ed96fa201df62b96b19d17e837876, 0xc9506f358efcf33035603c30880d5625db15175c0486f3c5841a14e88e5f4e72),
(0x7dbc457d7ad4752f8d57a09ed4e8cf026c8b009cbc29afe5ce2ee74561630da9, 0xfea9908bca852ed83c1b44da207e8bc9221b8dbc7e8b61baab8d29b414eb29de),
(0x89fe19a76fe2208b0ee4de72249a503b88c63e2271794bcb9484fd111df7902d, 0x8a4853dec3cd9e1a713e46ebe771ee97b88defe407e1106d88ccd7134e3a6779),
(0x3753a13f531da9e35569ba377db76dcfb43b54831e65fd50a6ea560ee70f3eb2, 0xace8aec3867312f4f095b4e0d08ad3142005cae8b1369223d1301e298e51d4c8),
(0x30d76056384beb454c54b4bcfcdcfe0b1c1ad5b05e6933848794846ec93a144f, 0xf79b9c968eee678db899f349412bf193005da9cdc0ccdec82e45ac5e058f3d3f),
(0xd98647007c74872b40ec273c59aa149f8059a1fa95e5b47e378ec515841eb2fe, 0x782a39ebea47da969361a337c5e2cc0e049d43dc6c6f9da66952f347ca51845d),
(0x40d665ec53720f9542ffaf3c30e8602b53c52123e9dd3b916a2e90998d534fb2, 0xcc420012490afedbd840a466bc27f66d526a965aee6538868cee46a06a58ee30),
(0xf31507a5516719bbf07438a87b6d6d93d02a88cac18fcec39190f358bab3647c, 0xdbec38980f884cb2aedfcdff402ca4ec8c8f8727485060c68da0d2e4edb46eec),
(0x62573f5f75db743e7939137b6b5e1d0d41468ed628d2b76fca26ed2d22532c03, 0x9a4da6c0d7966d8b138497dfaf25b0cf2d14215fff039065d42897f0df33be40),
(0xd0887924f15c50691d7ace017eeda410e8d0a10ef6091a4a7b5f368a42c54416, 0xb2fdc385527d34f7a434c1a41f9fddc5add3b1e682b63838da0ecd91016571c4),
(0xf7585b4b5f3318b22307f34d3e4bcedb0d4b91eb180be6644d031bbe9b5e3d90, 0xb6fd16dd49993bd64d05398b9ba7714e798d3ffe95393231395c03dab3ccc819),
(0xc9cdc99c198ca8e4458e54733e5cc0c8100fb0b22dc6f07eb1e99d2f6a4cdc42, 0xc4c2120467198733a845efda33a5c1b767cd8ad347a16b6d04a6f5ac995dd680),
(0x01a054d15c4fcf45384ead78e1260edadee9e90784021c99179a9fc1c7a3ac49, 0x50ac5d54d4fad7d15fbff150d70a3ce29825e79e206f4279f1030d292de89a07),
(0xb0796a0552245e6656b3ce5199864d40aed71b623b9d55b0d99163de7a8e3455, 0xa061fa6563a84b1501ef666d9f99abcbf1611e3f6e26dae26be7ac56c0f2768d),
(0x66fcf8776ea02717aca92a3b5c19387e72658125f6e20da07595e376804c3738, 0x9fc66cf23195dcdd7a72225d96a8c5fd1c84287d2189e414d0deb6b676e67518),
(0x3c7caf6ed3da8c0aeffd832cf5356114556469823a62dabf2ccb3de3452ac96c, 0xe44ca4eebb2905274cf8f55440c92ad96055fe3e1bb344ab0ace5c4f80e3b984),
(0xedf616b11e7fd6c5096df3fa077bfbdef3f82e7f93e5addc53c83933844e4b73, 0x879982bbb89ac01900e83f5cdac1fcf4fb918e2f53a5ec3545be03e189bfe152),
(0x7e9af2acb3044985181de5aa9908259e077207ab933c79159dcd7aaa90527eec, 0xe4cc83d9d29778a5eb83936d97bad637370e74a43254eca765d0a449106ee3a5),
(0x32dad8303bfb015b6aa6759bc2e8d4bc2a9e356d92d97286c92dbcf453591aaa, 0xee27e7fab36a2450f04962f2ee60f9bb68a1147c9ecabaf7e0981564c1164fd7),
(0xd20720f573f1db82c1a2dc61d3684d7ba3943186cd513a5a9eecd59ac9225a82, 0x3b29448ecac88f137dcddeb936f027246819c6c33f03a2f8cc40a6e6f8704570),
(0x3a732b5f5dd6dc771d215321f8cd223d022f21959d45c7085b00012994d5f03b, 0x3fc75d80ea7a0663c90cc7e88a6096f1b3a8c9c69849ea50f1fd5c947928cfc7),
(0x201961f5412beebb7e190d7570977b50230810bcb3b69e3adfb5e259d811333c, 0xeaa3f6813816ca15dfb9aebc8888b5780e59282582dd1b47ea50cad4f59b0101),
(0xcb18426770cd3b68151f7d820cf7a12c00dae332868663ab4546c119fe26f4ad, 0x6c395538eb09c00a3e973def8272eed427a3ca9ba77d1a0ec4e206f874591a40),
(0x2c13d3ca9ddbe3b42920f0ed286222602cbc0493e515665530b53da47ae3ba59, 0xf7d9f8f0c58510b2db28e7236d9af034658599dcfae14274efbff408dfd18613),
(0x3ae7b7a386ae6c4190b3a0e1e5f1a7ce4fffc40584f0504393e716a43ec83d41, 0x643043a855603964c46e3ba0999c73e6ab34703d9dcdf9de01743db771591bd9),
(0xb5eea0d4ac4d0a9de37fb1d96825233da00f26be86c0b640f0fb34c3465bc441, 0x9cb5b93a56d35b2f2d921c4f15b4ce0ffbb9240d30754acef16b301954732e1c),
(0xdc0494539b8d5200d513eeededc2afdfe76146db358a86b412ae9e280e8501e3, 0x6f6f2d25b331a4b3686adc1400c268149600490034524b538418fe5b9776a3bd),
(0x821e937da6fae1b83b6aeb4cf5315bcf77b2fb07d008188980478765cea7f398, 0x41405d00332249822acfc2e787be96587baca41914b70315c1a578433f85aa21),
(0x818bdf95f55a8e51c0d08d8329574c281ae3397cf6ac52244d82ea538f465c60, 0xbfd4143846dbbf6e3fc442c97a66e8b532445d39fae8c473051e0ee99a9a53f2),
(0xe3bb326236533fd7084fc6d984cc55902b03a19b6c956665322c0bb6264b6d72, 0xbbe4844e2be51197d8d84c75ab83cee7c9ed7dff51eac1251161e09cc1078aae),
(0x36e3355b5f946199b33dad7fb42d12454cf8126c568c4be2cb2abe4ab83decd2, 0xfbd5d87a8c0120643ed3441eec6862371759ccdb4a7f564ec2ff9584ab824833),
(0xbd7fc1931b06bd7bc6c274ea73d33e711e1e57f1e6bf7a8b6452d979777aaccc, 0x095b84e3d8c41224c74451c5ec8a23ca35436798c2f34ad10b1cd0952f0170ce),
(0xb82cb5d52e026cafbc0759686e1c6c18206231e4f25c956cb3a056908c72034a, 0x6417cb0ef1a18ad5e1a2a5c6945f3b38b0522ac87018864080a0f33e2796b042),
(0x47d70d51e97fad87fa0b1c1043246c0b32108c36734c90ec9de5a2cbc6227682, 0x6d5a2cdfe916fe8e8b45d5fe14ce650b79a3cc9ce4f99aae2e9c449aa79a4a08),
(0x13fa7ee25ea49c25200b40e6b9232eca16dc68404f76b43f510c8a12d520dead, 0x2722287e35c9f98c6041cb15845d515c870f594374a1ebd736f973e75e6dc30d),
(0xc1350b7b2a4e73bb90d36674771d55371fa647ffc490726a3748e7d20e72fa7a, 0x2370f4c900403ba78e950274bc1f87a7bc80c1fe7618169d5c9bc5c481e1badf),
(0xdfe512c6f884588c80c1ea7e1da4b3dbab8d4beb60749f409402d583ac793e05, 0xb52da5f0333b904f678dcd370a890b79e985dbfab501e61c899306785a0bdf09),
(0x088da19102face14e6f5ded230d303fc867f9b26d85c2299bfac1a239757b34f, 0x4236025ef82eab9af1fd3c1242a73cb7fa305e5cef6ad5abea62cb8a4d74bbc8),
(0xb7a821337cad0eb6c1de7b3c8aff879808ee936c921a7dee1434156cc6505abe, 0xd03b693b4fbce189a552a66c03ef458635454006308c40edc7dbbc2975361b7f),
(0x44971116c14d80b2f0f88829fa1fac440ac4412411ac6e92fb898e72a0aa7ed3, 0x9171395b3cac83ba18e9a0a034fec7860986534d667b0521801638ece19343f9),
(0x95f0aa618bd8573c81b2dc3caa16b5776ee636a5a8f9c963b8a453707f35a618, 0x7f2300b390006ec7373654232b488d72edf5192aa1d5afc94bc95a18edf5532f),
(0xe1bd29e8778a30e7d9d91da23db2da23bc2e8d08d5cd170e8e753e3e917b728b, 0x592894f2114c11d5f04dd5fa6b341cb829c58e1da7adb51a19d881be39f87eee),
(0xf6110619208f64ea8f0e81641ffe9f328e70642787dcf8c928ca8629adb99e7e, 0xcff63452a596744a75c5e8a6badc4937e6f2c8603919625130784499733651a4),
(0x4a3f7c9f1ba0f01fd6d42aa4284e4481ed1433c93248da6376f25b62d2d2348b, 0xdcd4c18b2ee4e4473515c7271467e6b386b6e640834598e14ce3f67947f5c2b3),
(0x50fc4d7803964a68b26689df34d996cb6f229f2aed017a984e02740705fd730a, 0x7ccd6964c6c5ab525d31db1bccefc3e27a0882b58586a9550b76c7549698a7c6),
(0x1bdc6b5200e92022229cb15a6436d60126c640dabd9697d8bd0c49bf606ce554, 0x1ddb0cbde7b0816eb65d7ea398da0744b3ff390bd2e13cbbf8fe85eb8f3d2059),
(0x62dac91248f29712c312652490db807aaf92d3fb36117f6a0f5c7f5fde317000, 0xb3bc4dd897a2fcf7483c00150f79381029bf6f017be3753018b55e354250ee0d),
(0xea552caf1d0810ff24eb508931b57573d8eca9762b314f9f38301b04ff5e2193, 0x68181368108c4fab7c58bcdb5bac3a3e31eb1b3b837c7eade691b56de24aa832),
(0x7d6132a09e2c0af49e3359dea750551d07addad68bdc602fe65af48bbc1127a9, 0x5bf6234c903e5f7245b461879d780ffd72aef438c0b65c7cd0b5fc2f8ad29d16),
(0x916d0d6a3d08a94c604c34ae8c930edb5ad575324dd5fadf7a4841b2775c475d, 0xe3cd9b7f79572001a1ad9c192921ede764b122104d4d8796a435eb13d883d391),
(0x804128a3d982b50d203135a9c59449ecc43ebb35b2bf52666b710975a3847524, 0xbcebda70043644140dc269d26214968b95ad5bce239ca9bef10fa1bcd6f31757),
(0x850314b34898b5725898dd9ef39196f3cabf40268248844b1c3d2f55a3346f2a, 0xeb8d17e03c9f7fde29276d95c20b657faf2173e37c620a0fd2ea7ab5f4706b33),
(0xfd8795398c0ee90b089aa731a4ab60b7be0375fb599328797bd73390058d7aa8, 0x3fd62aa835d10f6f8bf3338bb48bbc338f235cb06bcccbe756716129abe8159e),
(0x5153695312e7c4dbbb18ecbc26c512248f841792e557e8798eda9db2c9840357, 0x175d3e7f92ddce9e5595fc26725f2c09fc322b2a251fc323ad3c6f0844badaca),
(0x8783f2c5f7325f73e5941ec35f91449d0558e31f28af335b02fde47786aa2808, 0xdc602736ccef3e4160b100a5ef99c6e5c59734c342b545e6021d9b03daf0030c),
(0xc871ab314afd8d5aa58a0cc1a5eb49aaf25b4b3b6e0ffcf53885157627c0726c, 0xd06b7e2bf44d36aafcf653dfa675bbe136a1893860864df1fbc9e6045a3707fc),
(0x40efd5c21a9807bc00b34a4471066619a2bba48fc306293aab59d9c4b30e9b23, 0x085cf3484df34dad2f7aaee7b8a6f5854de1314c215f6f0fe5a38e61f3decad1),
(0x07feb5d9844798a02413cae7cd791e6f54250fb812f998ede0ea6eb10435986e, 0x0d90ca7e8e800e6ffd0ea027b8a379b39030a03c7b111d68465d2a0599dd358d),
(0x1b2da7e6f9fa412cec8735127328f1e90ea775015741a2841201829076a79b2d, 0x9fe58682ba3f6ee0c7b73933d14ce656e3fe49dcec7a5643efa07a3f1a4f26dc),
(0xd7fc1f3f7a6bcaed1a84e8e57127a6f637d935a435500e2147e8fe03d3b06066, 0x29938603d89fb11814d33850451f5c1ebc5a594370c2d8f01d9bed34f0b2e940),
(0x453522641cd962bf35d8ab653d8d6c97757827061454a2ba3d957152e177ee5f, 0xde5005a43989b6c00cee0a71b534137fb946b262bfe353c96a217c06c23826b9)]

/-- secp256k1_pre_g[6656..7167] in pieces of 64 entries -/
def g13 : List (List (Nat × Nat)) := [g13_0, g13_1, g13_2, g13_3, g13_4, g13_5, g13_6, g13_7]

end Secp.Model.PreG
