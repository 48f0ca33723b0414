/-!
Generated from /repo/src/precomputed_ecmult.c:5674-6185: entries 5632 to 6143 of
`secp256k1_pre_g`, as pairs (x, y).
-/

namespace Secp.Model.PreG

/-- secp256k1_pre_g[5632..5695], /repo/src/precomputed_ecmult.c:5674-5737 -/
def g11_0 : List (Nat × Nat) := [
(0x732b5521e6cb7053ebfec5a9c5b35f478da4a9b4c4bc570842b0e8b1242bad45, 0x30afe970fa640757bff0e82593a102b2e1b619db7f7d68f117f275430e72f57c),
(0x94831570f0146aaafd2a7ee5011f992c6e2999a4b22cb176dd516dbee0e16e5f, 0xeb275132385efd0635baab615367697b8bef0c9314fac9914a2c04e4aaf785df),
(0xdadb60a93af95d47cebb540a1c0aecf2839f1be3e264a294bbd03317686726b0, 0x8b4bb75546efb999cddcb88aad5b28ddb73ae1c648c810bccd9d0f03c200e27d),
(0x148ebf0f7e23a22052ca69ee57237eca6c1caf1ffaeb8718b9b8dade4b97be1e, 0x32f68bfb464ae6a2b23ac7dc3910a87b89ff7042e863ed3d3038d75af3689f4e),
(0xec532193614ca440033a827549c65e0aaf446a216705f9e068e448e86e882bd4, 0x3027736658dd1673d9f701ab50dc3238f073a297d579cb8e2ee51dc8bcd44b36),
(0xbcb65ed5b16fe248bddda87528eab71fd9357099af71ddd29a8471e9b2b26e99, 0xed827c35e6e13dffade8b9c9d2c620e6576db5a71b1e22a03f943f96cb7282c5),
(0xde30301f18df0e9c15d709a135c3047328cd335695922ae0f283290a638d516e, 0x8939826137dbf19753012e476846f6d545a48312bd6f4c65255b89f4a1b9df99),
(0x2eb56a7db051e9a58a7c12a3a92509d95da4956e8b820006aef166fa92873644, 0x30867ff97ef8d955d497abfb463838aac946d487d702956fb75ebf89e25bddc2),
(0x88f839f6d7f06f8582ed781d1206244266d4f9a1e2007a89f660fd24ebb30d5f, 0x29ce1d8a376a587e96fae37b521a89038f0bffd89f9934d4eada075032faba00),
(0x112cb93a8db33b09641aef75c3f9a399b180831464e8a85516e309c499ca9a16, 0x66b1a1ccf2255c2c119bd0eda75dfe73fe2e9d9f3aa9a6d743a4b7aa9d76bccc),
(0x407dbfb553b43e95639aa6c8d6868ef32f41f1ea70cd4aa59d76ea2c83b567d7, 0x69fdde78a4971ce0b05a57a38891691cd1fb371fb1322a6f97849c64bd7b57ed),
(0x16fb5fd1fb41d76dffc130d89549465f7976a3b10ecd6a4d9e5d55e6b2a6a40d, 0x3d39a81095904ac49559aa898fa087b9b84ed72b55f17fa3aef8b32a10e942c4),
(0xe40302f06c102ca6e6be13702aa6e8605e71fd376c87e2d0c0ebbf496fcb31c1, 0xd32d294e001e80cd949255382156db9f2bea101af652309b08943cdfb82d75a3),
(0x8f2cfdc0eadf8b00f74305c7892a43269cd31300d716d65292a7a36f7f1b3b9d, 0x06d0e726838fd16132d19538147248a95d76c7c0beadf1d0b553e4b6b7d1a2d1),
(0xc7a636f11a9cf7934385daa05c3f3abc8c3a15897be0b49dae789fbce07674cb, 0x4f715f0ee52c638c954b8b3a84baac766a891889db0b7f826bdf81e84040cfbe),
(0x245aed6e5fc309bd980d55979380e8c579dcc887a2758e13024ed3a1833dc820, 0xa7980b85c6ce770b13a888ff22a1356e4136eaf249238c38dd103016f0d0b1da),
(0x91ea17c1d90556a3722dffa5631286b7f9db0f01e411ac160f5203c41a8a824d, 0x281023e988fdcec194af265ec407910c54d25f2069d64b130c5261f0c157a3c5),
(0x729db97d35fdb72c0a354c650a0e7f767bff9ade964b1d57a98f9bf039a74eb1, 0x59596a577c888b016e00143c63f0be1bd86d95a1ef59e0750fe7e3771472bfc4),
(0xf8cb711df74a49611391871ed8de6a6389679130b587beeff4eebcbb9daaae9b, 0x4c52c310c6f960c153f386ed6842c4d5bc1b4c99433567b0fbc40e9391a5e022),
(0x01700d0a32624d75258d80a62228b6ec91e66949a463f3b516dffe43b9fa08fd, 0xa007bbb6b687b509f450908eb617f17692918f18be3113d38a80ebe44ee750b5),
(0x9f2f3ee770a2c422b9b92eb8a52570abb535415457f0efecfcd9141f62894132, 0xc977d79fef198135b69aa3c377a7f2513274911a73736b2ec543a72117908588),
(0x86f750648a2b829a91acae014beb20f9aa9ee46e8e513678c4fbd7c32ac36e6e, 0x1768035ebd1fd3757caacc22495a5902a3c616e649eeebe74377b99630192b28),
(0x1d4207d7adcbd969d432bc7435f2fb75b35adbe3fa1f45abbf3ee074b8269f68, 0x11d80191accff888928a0835562186c730367e9091d310d82a712a9b13d70f99),
(0xf782bf742e55fd7c0ab249b21570d9e8cfc12f465330d2e657eff6097c3d19b6, 0x896e9e480a60ace984d07ebf124499809d96639d101b340559eed8770908394f),
(0x22bde2e7e3c0d268f556c47882e50f2b634c42359067cbd5a0daed531a166a7f, 0x5e03a94a5baf0f927f4beaf76b7e9649aa578eb3f105515ced670c3ee1fa3e72),
(0x85ef9f8eb54cc4f3aeed4769855299457eb4f3bb1e5849a2aec7b257a8a9a074, 0x8a0245d2f0c8eaf284a01114d29c65f1c146af0cdedfb5ff9e3be650e2acaab5),
(0x3bd6c026636206844d2e1a892378ec64177145d624062d23ce9c2d084f34ca81, 0x7f0e505387fade828596f4403687b04f4a2693ee253614421d9712e4b3e0c179),
(0x364f9a2d641173de4a0cd185972f6d7875b067223cececc29bfb8aed7ccd3311, 0x039e76168d64795b504de9d53049dcb3a95fb3c9affa2d5e8e8cb35b6cf71219),
(0x8833f9330f4049c70098493be5f764bc47dae8fabaf420d844c7436ceec27898, 0xbf615e471b0f10291afb28392c874f83ae55b15a58e61be412b7c7a613868279),
(0xd4fa51294835f9dc049cc3adb9401f6197654f43ec88f2069a63852d06abb4a6, 0xf24535f99efed47e80d669258924e56a44530ebaa2aff32b70f365511db59521),
(0x50eb861399f7988358b9de5888c47cd7bd4547c396e1280f2806efd0d0715b89, 0xdff64137f74442a4dd0c25ffea968845f9e14ff4d3e32010f1c64ca706afb1be),
(0xf8608ede92c5a1e05f61c065606ae232b0f81161bcec88bfb4f2b14e22165cca, 0xe583acc47ee133b48c3c1eb65d6f4891b53c84ec7bb352ec3b6e41ffaa6a2089),
(0x2c00145a60e2116998f23b9f6f83223a6ceafa12c1b928442a17bd630582a4fd, 0xed76c7cfc65a881c5dd270bc7be9ce49c2990e43425ccb7aeebe64e70eff423d),
(0xb42d4c3879f7aeec096f212f1d5bd79fbdeb9850ae44af81b4b3467a85c29c49, 0x7bdbbcb61eb04e419ea8f9badd5289e0d718158b63ef059955e3c5de41f833f1),
(0xa5831ace8c19fd6885e9b9cf34b9fa4a9e80eb3c36e256cc44cbe5216efb7128, 0xe10dc4893e0fa1caf2dee4765b8ab518c3778f4c583abe27af293869c765955a),
(0x9fccb82159ed46e918a407b4967e11544566afbddf6c0639d5cced9450e56b17, 0xc430e829438188eda443cb2caa7d69393004ed755ff61e578dbe9e64251615ee),
(0xc1efe41f44186467cc0def62eb0f0ac922b8bad8e234784928b465e71789fcc5, 0x5d73f89f709d54d4e167806fa07ef07a7fd1a7aadab9896d33c290f1dca74872),
(0x805c081643fffffac9055f2a0996fc2ffa02b4ab4fa440f48af5878b4eadb694, 0xb0a0dacfd9b3b9d051ac59e2b367a8f2eaae274aee2b05d918cc0042eb02b6c5),
(0xd5da1b829b477768bec178291c9abc82b595bab86240e705715de4200fefe498, 0xdba833fddf1915b8fb43b39d0dbbd6358f12d4c431b547c4af07a6fd75fde785),
(0x73a2441b1f1b9ddb844caf0f8cb0a91b5adc65566f8830268ceeca8f7c6c5cae, 0x512e46bab47e9eaf64cfce2724566bf9ab43e32abb0e098a5dac968711927437),
(0xdbff750dbed18702eacea6d8b54540e6ae60ea0585d77db87a63a050806037f4, 0x1f34989529ce56b8bba9193816e842fcf74b56e1568857d82f193e02207f84db),
(0x57c73f7d57c7882c5d574f70fa225552ab3d7741260bfd3cb616d6be9698dbb9, 0xf633edbaf7f6cc7a9d8ff9eb75bced20f865fc9e81245e7732db2ed30876e42f),
(0x6663e27a7760f187a1f6782364044da8d4cb82efe296f5ca90c5d81a049b7cc5, 0x04df0d124ca9c8db4885f8d518cbf06d0f5b437e242cf86bb11df29c5c83937c),
(0x83f688c588ee13f4a9e720235169dbd7ebbe0c684cb618273e2b75bf5fc581d3, 0xf76e519a151ba05fdf5f11e6f3cfbcdc4b00776b14c4598c517830882b2bc6c5),
(0x2114e1291f65c339d1bd43736c6779374385b3a55dafa8e4a05151346b650389, 0x881033991b682f7e9ba02fd3e104932f802ed44eb996beff7fa9523ec9c2a9d4),
(0xa68b163cdb6c8aae8ddeda397d8031a1394ddc3648168f1347774ad1d569233a, 0xeba470d34ae15c9457ba1b3ecf5f3d96682b8095f83eba7bf319feee6740d3e1),
(0xa44b2a55baa92a2bcdd2f06f36874d6940416b7920bb6daa2bd9edafc12bbaf6, 0xd06941d828f1092d3667ce3d59d2315954d6cbcfc0da31d51663a6bbccedbb47),
(0x5630eea08fee55700c094ded917746e918535cb8b0286bf6f6cc294d5714fd33, 0x91f60b643457dd9a0b2a02ff099f931eb38b4d870204de10d8a30ceace576b62),
(0xcc8b173bd3112432cd0c741a8620fc26ac5c5d89e05c18c313067fe0a41b4b00, 0x8cdcccfeb4ca500c34dc308758f424f8525179749a33e27e8859515a2f7c0926),
(0xabe16c8be0c99bf4d396e70daf00af89b5d95f5a3ba33570892d086c4b807943, 0x14b2bcfe8cec39c5826fad389b8f878851e1595bb25b1a87149d862701218e9b),
(0x62411146ca2da616b557f0afccc2cb75d278b07a4dacd8647e449dddcf29c09b, 0xd081b63d67ff0c075f00a3c72771c58187804c1e4ec5bf68faffbd214c71e15f),
(0x5952a672a50af56066de08adbe4f5cc238f3e4ee84160b1d14534c4e2b50ed52, 0xf7d7e2e3e9612005a0344e93454f112c0792f825f3d3044a28d9af6b798da761),
(0x128fd5b5420f68be03742defc987da3ebca771d7af1cf8e312d6b3badf162492, 0xafe5edc480c1c8b95580dd8caef14338c09fbf6aa1c951d357ca4df209d3f183),
(0x6315678a13cd71e46e283287244996716adedf31388417180cf5168f60d4bf8d, 0xff691d8dc5f97f7af2ae319bdc5905186ec3bd367f492d0a095cda479492ad3b),
(0x502771594169f70aab39095dd8027324e212f78bc3b0865aa57f1574dba1bdb1, 0xe31fb30a58eca0daaea93548bdeb9f32325d6c3069b3d936d610bbc0de3b771f),
(0x51eac8f88cdd7ac246375960c6b7d9faa89352a54024003bcada1e6fdf389721, 0x6d4c875095d6ccfd9d8a5830c4672c71d414ffe7cff2cc15b7b5d16948e872d9),
(0x0bd3933076c0f542a0590ad6398b241892b899ab75ba0065b1ace928b8cc0ecc, 0x12f4bfc457e97c3c9d4a21c2ad106ee88cb5bfc992d151ad589e90f70d65b5d8),
(0xbd0eb60005ae967e081214a1889f7dc5d1e765a10af74a93f5292758539d6dd6, 0x2e5327979e6a22a263025e574805e4c26d62b33c5269d35bbdeee7f604a2cfc3),
(0xb7b068b68ed18d8067a0c971a06cb3f05c96ad7f371dd849aec3a2f9bbe23eb6, 0x89871d76d3e6b6059997345d4246087aa3fa61c7dd75f5c7b2ed1e2059a00350),
(0x10cf2c380643a08bdd842c4b79efa2c03b5dcd1bc708b253ef71fba7f0e51f48, 0x0e37d14c934524d2dc562f6f997227e144094184e8342995d556200034e71f4f),
(0x5936b57120b6dc97ee242ba2deaafad45ab837959f1e739054a0c026df7bb342, 0x86bab74fb9d4f776e82831c63a409237d5923c7e7b3e0b1812ae203b064fc750),
(0x67bb9ab0bc48fafa3ca66493995ea995e36cdfb7152d64edddc56aa26c315896, 0xcfa9a456dc2c82b7f87f4216e365f5e797223d2a820a127ca5ee4ee9281b71b5),
(0x05580326678b44adfb313c23dd8a7dbd0c6869fd70cc58b6d20f8b92ecfd81b5, 0x6d343687f3dc733b55dac794c895e5d509032613563f2d72ee94afe4c2a932d9),
(0xfe28576753d2466dd056d2bbb7141cf7e52c2b960d0ef3c852c728a7d2dd8126, 0xf344b3adc8077e9224c6c5a9c9f40a1ad87213516b8691abc5fa9f73726a6c98)]

/-- secp256k1_pre_g[5696..5759], /repo/src/precomputed_ecmult.c:5738-5801 -/
def g11_1 : List (Nat × Nat) := [
(0x12f25359638fe4f397a17f99c233b2ea7a794d71e677b206aa32f25108cef615, 0xdd0d68e5324e4325ebd45766441677de40c1579219d65c6e9c63f15a91519c20),
(0xf1e45fa721bf7fb445fe3eed29c26bb8bf1ea59ede7c1a6be652663d233c3e9d, 0x6d145f2ac3a041a983b9865e66775342a0f8a435de19626dca8b9328797e20eb),
(0x6b6ab442d2623235dcc7e3e485d00ade7f219576509c528e6a3417a4fefd328d, 0x5d627367ed25278a6d3505c8e13970ba253a26a3c605d11f1eb345c556584e95),
(0x83e10be5d21bbef2ed1ceb33c4e558cebee76405257d957351f5d90e0f219552, 0x41f5e174c6e9b2832a39c2fc4d4fc573634a8975e143243d14dc4be3434a4380),
(0x2ba259489571ce20f792129df43caf4dddd93b76e4c8cd637a9de68ff8d615c5, 0x9469a49ad1a814d42f460325b7d58f2beeb851830a370cc369a685e6a87f6e61),
(0x3fac1508b669f54077a840ca3ddeec5bb70c03b0ff93a77d0f2f73df2728f36b, 0xdfbac9d5ceb21745a6d27c3f0d6fd96baf708066a3bf765a208b7231d5fb6955),
(0x8996dc029b79d0f90d57b8c8549fc01c2e1c1c7c2ce2cd707a0bba0a0b3420ee, 0xd08fcc055194c4bb2d17ad542f9ec734f2a9ab8ba7dd0467c5d916aa10f7b8b1),
(0x16af9433c9baf15d921f931ef530a477b04b2e03e1e8cd0542e20628df7c3241, 0x65863e2aacae34b5a1dd53e05efd423b165235cc6919597302d0f64ec5b56fac),
(0xd82af39eeda70e3cf28e2f6bb800913159ada2d3854e81a93798e402043d1d3c, 0xfe03de8a0326e8bdb202b5b9929c2f3d4bc8abeaa2377cb229cd4630d1dc1c50),
(0xa7ad92e47a442903c2f910337e2ebc9814bfc943f2747eda666bc813c04382ef, 0xffba6b439379448b56b2016344439b9e8d6da76472f67a2709c7f45a359234c1),
(0xfe9b92747b27f7b06419dd3853e61762de7a511648008802681bf52121a1ff92, 0xf32bec26b9d248721a47c65b48426130b8e72e68d231bd4d82c5d4c2bde605a9),
(0x8e22ed5be5d80940970de4285ca609af872b8a4fb8c93942fa1e62d8588ac5f5, 0x6a461962b74b0f93afa722844837ec30b99a65dad688c161cfa420282ed97167),
(0xbd3bb0ecbfdcf06a62f0046a989b45e9c76f4d9eb3225495eff7068571518fb2, 0x5592029f3eed8e35727865f1dd2a6de5e19e6eb50f92e520529fe97ac296820a),
(0x50a9dbb0b08a48b876dc65fe6e2efd92d44053ed73b8c2795b688e00a1fd1455, 0x4a1fae8251581f9e32fe8f675675ef70dd7c2ec62a42eb3de1aa13e6717df147),
(0x6c1dc44e67b52cf5a4564ce17a9da713c718833a6d527e7debc6b1f20c893693, 0x89cb4508681d58ad77900c1caeb25c59b307c9f6c84f132935e32af1e39f8f67),
(0x3ffc35e24d4fd0e6ffe4d1c9b5097d10c12dc7c04356cea3b5fad66b5f3333c0, 0x89718e6978748c6de99d181f0137eb746e28b05f27af7726e86c5f5cdaa1eaea),
(0xfe2261bdb40fc49299be54de1d0bf22a634aec8577b5e9e151626d673f4214eb, 0x896bf33a5c9b7537b621a168f3da1bd7dbc94816922350fb38925c965e57c175),
(0x0129b6e5dba2fe86749274a4f1ec59990b2fc682933a1120cb8e16bf4f4131e8, 0x24dce651b0fe47706c78c217f0d5ed4d4bda4e7e4e7ea6b9ca59e751b018b5bc),
(0xc2d1b28079d91abe1a44c4bb096ab548903230549407590737b39ea5e1fedd72, 0x6974b9f380edabdfe7961bbd71ba1971ded6ba2490466d1da5715d9f92472637),
(0xd8dc5f3876f6049da9a5c9e9396d287f911e06cbac0148e826c8de9315bd464c, 0x701d0a43ab41f321b8f86ea1b1f51d0ec22a3399c1d8534a0433ebc238ec248e),
(0x2b1a41d7ebb9756ab62a96fa57909ad1a747dad4b3730da9a12dac8e3ee4c414, 0x8ebb15123f43224ac2cb4ba7c90ed7655470a968454d0c811ebe33845c6ca968),
(0x724fe9d6e7f75b527da194213c984e31f63ac3f71b5819bc344ea339567bc179, 0xa1db688dba1d85fb020da08f802b5195163d179c7bc60f704ade1f264e1552fc),
(0x835b30f28e54b8345ce955697d71b7a57cd4b5b317ee3fce577224547695c9bf, 0xf431ded9b7ba9477ff041f8322685e4a8c88c91e15a14f216b16e302e243cd11),
(0xf5015d2216cfe581e650e579c49b6ccfb5ca4dc64256125621df7fc819047ee6, 0x45b099abfebbb4935356872c40c0682547aaef2a72e80d27521b65eae2d4918a),
(0xdf0b1b57f3a0dde8b136a92fbf953a83694244bf099782ea98050bcb3313f826, 0x6f7c8326bf5f6e15538a1f310273adea6908e5db7f38f39549284822012124d5),
(0xa5a24cab96c04bdd6e5180a58fe27f9e51897bcc3a0aa9d8de06de6553d2890d, 0x4f6dfa5aa6b44550105fbf397dce3a4ce0b423624a97d979eb31324ff1215525),
(0x849c2e79422d1dce4b568aa4c80eba4dd8acd23771f6dff740849bd3ecdb7e41, 0xa465929ca3ab167adcc4fcb17ef9102c35d8937cfa900ef18022918a6ebfe79e),
(0xa9a98d5dd8f8ce0eddcd90ae671c52b71b09b75db4185d4a1ff12c7170b499a0, 0xa4eb522e03aad7f16aec7758c9528bb0c07184c9e3c965f7afefe128bd285c5c),
(0x8d60786e1ec1fbe961e056c2d6a57c5d813d7f20bc8c68aceea0020a2c4e57af, 0x3a39b0f16cc346c7fc695f4591b557b63c1f850089d742b160c3974490e55720),
(0x4710166e065b9a2d8de5b80c192303ed25cbb80cb91c57a0b31a38c55c218fd1, 0xb4cd95bcfa48a016658382af37ada30226887fc98200f77c2b8819a9ef489206),
(0xe2183510408159010c78a304e6f0d5455a116560a91d84fc0157f0615ed6c0de, 0x6c557bb50358454d419c5cb51bcb85e7db3b04bad18e1a63a75687c98fd6d973),
(0x807cf5298730d656e68b4aa65f8d8692ce246c2c4e668c69b5e93e8cd26b289c, 0xb22a6fc3d7ffdf57f18e744738cb1bb0aafb7b39101d3259d31574f9fff644e2),
(0x568f659df19f14e15d91f3d6bd2a4690b274901ecf6fc684dd0d86158dfbdd85, 0x28eaf8bc1db684714ffbfbce030977c7606bc591dfb8ec02e43a31c2ecafbde7),
(0x651dacbc564fdedff4e5e3b60f2dd36637c691407fa923a8ce88ed1ca65e6b86, 0x88dfdb8e6f117a1eb99ba42389ed2db6cd5608e78be2c896334ffb8d2e19aa79),
(0x5a17c9568214ae7180322b0e574529c4dd7d951c872809c6b33ece6d8cd7cd0d, 0xba4b0cdc7d7e6ff95a97e4c26af714aef00c91425e562ffa16942fe2852a3e06),
(0x6d5642515edd2987568dc237b5b98fa8de9b86a3e7176e62f2609dfd65810920, 0xa99a0d1a12534f640fa97227825b094a22fc16bbe8777669d5aedc4d58e81ff0),
(0xe3687c75c068938122f60fc5b346e8dd17b2dff90cd7fbea94aa54b7ba1f6de9, 0x4dfd45371f62a968399cfaba87a0b985cb333510dfca666d395e0f8e2b7f473e),
(0x1a3d974b49e7e68ebb2851c9c9f22d9a5929ccde9d635e8d61aff93ff7244472, 0xf6c9e7e298815ef8d53a7bd79f10275eea74ccd85d97cc3dcf2e97b183c97c86),
(0x8e0dba73012c4afe8e1bc5084d9f4944654a569381a64158d7db70073f897cb3, 0x560eb34a2451905f2e9daeaa63dff50f761bd68a2321a71445930de004801875),
(0x35d9eaef6c4ded5c371a655f2fdbac4535471c32b369955bf8f30d9521cd5817, 0xc5a084ba7b2ea4c2e3c3d081dab53c9aee40e10f607ce88c899f0e3f5850d75a),
(0x44d1dd16c42b7811f78374d802ec99837fbee7ce4b3a8ccf81ae4ed63b7d2c73, 0x6a7bd35cb10c4e8960e3eba18f6585103be8d1a85c4932f9f1e48d81e3f66604),
(0x4b7a54a5e7153a540e4400ef009311d6cc16f6416695fd925fcae9ed6b2738d5, 0x43a7bf76ac2f663edaf0036db665291f0cf983c0791a8a6da5ee19562dc18850),
(0xadd4a15dd1a350e9e5df62b504a6638d76ee221a4007a19edb5bc93e87f11ea6, 0xc26d6fcb3a8bc1fcf1474c2631a4216d740cf94ba9d7e48c8f01be28885ee849),
(0x9b52aafa119ada49ce33340dff75ac50ac9a9d87775e8e45da58452f228a23c2, 0x67640253503b5e3f89f7ad07b9379bfe077c946d4f61b83d3fced91b69e850af),
(0x965916f58985494426c1efb788079a55f8109cb38bb111b842ef7f002d4a45d6, 0x9aa2ef4e61902148aea7769ca561d04bcbe1b3400a231388e332c30b8488e531),
(0x3af7890dc045aaa42f7a8f265fcff9ea41bae0f987c75c223ae3311de09b6ffc, 0xdbb3141727adbd5de34202b7f7a880a241f18b0fb1a40a25376c4a30ec607152),
(0xdc465cfec07f839b46406f4d9a0078d7057c2fe0e62aa4e2212ed33d05b2026a, 0x1ef12affa98868bfb51901f72693f8685ba2248d9144038053bd137b024b3bc8),
(0x5ae92f8acb9e2ca72f4d4c70f4daaf96bd237bab2a83c0de693d8207baaa0f4b, 0x54e266f7aa1b7f228f24ab915e3f0a923220512ade239da31069bbf235d63049),
(0x038134bbc6c5a4b363421af6ae573ce720421d361f4966c7b9e7f125f49659ac, 0x5d42678cd6f8984872399321fa86318f7a4e3f054c3bc6f46782be354ac4aa16),
(0xf2b807a13fd603b4111ac02d5c646f6eeb819a4f7893992b9132aa8376892a57, 0x6f1beea1a315c0003c957d85bc5171d0ccb8ff06446f4748738a3c78f9ec2d4b),
(0xdebe05cbb308a6daa1eb55bd73c3f1ba248ade5dceb1ef3abaecc6ac7a5e8c09, 0xf4fb16b144beb4ca789aff589374e476efccbbbeb74e2693a4d05ba5a809ff05),
(0x015cbbf12720f8f5fa1a7752b6f3333391cf3d0ec40f029224f5b7b2c966c099, 0xbe3b15730fe38200a464f4f0c3c2f9d624bd59bc9412110f6eca2ada2f1c7294),
(0xe4fadc292f0cf77e4b14c3cdb567f5c9be82fc93dcdf2b50bdf20fdbf5984769, 0x2858e2bac9834a2f942ea7fe2e339d8eb384c2556a48d688a9510808a1235452),
(0xb0a8c6ddf57434e8a8bee1a90530cb9d3d4ac31eedd176533d84780c6909554a, 0x4f7467d362185e380f6d6c30e4c3e4ace167f3cbaefcab8beac754ebc76ea3dd),
(0xa439886926e4d06e5337e61ddcc6f49104f40c04eb3ec75247d9d0589dfea2af, 0xac1fdc5b70d792c07bf7e55ab07ea1ce477dcef60cce858584cc90adc62b6272),
(0x84b362fb1597f179f30b7e2c0b516153946190811131d45c0ba55fd194f369be, 0xd2a80ffa4496515278c2ee3b122b5c3fe6d27f9d6ed6ba949258c2fd94eed4dc),
(0x7518268496e2d03724c11192e9112501f7c27d198b92fa1c3b0e931c2b85d32d, 0xeddd2a6dd884f93ab6f8d225c9fb32b89f396f1c2613be98d866b71314a00d70),
(0xaa96e0b8104884cd7e22211b8b12e6e6b3f3e3f7fdff04fc202d8946838fe15f, 0xd8a9b5c39739fae3dd3b24834fd2981dea5290972ba5254156905664f289e3e0),
(0xada17e8082a0a15f366f3d6e6775b5ef35c980f712ea75221aa796f42454988e, 0x7df4c1e3191214b60e40fdae2f5dabaab6e9837bf53eb10bdd28e674230cf2e5),
(0x322a052420f0fdbc85f35fc2de6690e5a61260f1428ec6624185ee8cd2385caa, 0xfc81cabd789995e7d36d3de01b650a201befd7a7a415d250697114e3c95e096d),
(0x5082ad623bf2ff8cb4571b9b86303032ecd137bc86c5514d0b9f218c4f091153, 0xb29d3823eb4ed9589b0fbfc92d006fb3698ab596d3e60360e435bbdcbe4c80b3),
(0xde9e45fce9e0dee83bc806ae286a2c5aa7978608042ddf02d29a6ac39fbec470, 0xbcda9466e7207f7b007d986e36b3f238d5bc51ac90ec35bc56e0949b334ef964),
(0x95cbc3a561ff4cfa278678a56f8b16a1efe2d286c7103047310454cfa1a822bc, 0x8720fda558d23b5faf9b80ebdd5fa62593325a6beb5ffbd8f333cd9d9c8b7366),
(0xfa0e59a0969de9faaaf7be6024136559cb384b7626d3bdecf70f3e55696a0632, 0x2e8af3c20a54e837ddbfc32d8a47f342a856b8547ec4b0ea06fb369548b8b588)]

/-- secp256k1_pre_g[5760..5823], /repo/src/precomputed_ecmult.c:5802-5865 -/
def g11_2 : List (Nat × Nat) := [
(0x056aadb82056ff5b3337aa5d337671a877168b0cf0330e8d8f5445a0cdd75075, 0xd6c4cd4fdb81d8dfb095f681f7349fdcc2cc80d9399fc16e05fa3e869460a5f0),
(0x7da6a13c11d5b0638132254fc064ff3fd3818a5ce07168ebed5b7345053bbc19, 0x26e912dc5b03258af914cd8688d6a068266eef777d4f45f17c47cf9216d00c4c),
(0x4004b235d58417a0ea1a2071032b30a81dcd6a9c3ea875a36d2a6225e2b56917, 0x1c960bd1443c22fa96f06effa717b5bdefe8b1057402cd937a6aa9095775e226),
(0xb12c4d856ec6c85f3553bfeec7dacbf4f742ccc1356fbc8dab3d25b752bdfe93, 0xa8a11692049dba878c8e6c56ff8f699f0d7e69c6f994d05d4e0643a97f9cd2e2),
(0xa78d9a2e8b74ccdf97c6ea9caada26448b5602877d7b097041d2484091490970, 0x39cdd4341d1e16dcb89fe937665e70daea80a1745ae7b99ddcad04e0efe841a6),
(0xc8233855b1f242bf59b86372ae49a9852528440f00e3aa8e28d594e0114d2ae8, 0x6f515202a14738eeae4b430c27391144c551bfe6bf24005b81f92900bda92b7e),
(0x6da24dec9d6ec5698dda9655672a9b794923f5959157af1064cb53cd5e5e8f6d, 0x59517e768b0d39d02c075a46c1e653f80cf876fecfb10746a8c248cf4c73fcba),
(0xd0c55dca0ab79e0c84ef08ad57ff67c50b36336f2f6231d68efa2fac54558ef0, 0xd4365ebb4096888fc9a74d901adc4c5e16f5dddb442cb5d6b5e22b32099aa573),
(0xd76f084f0237deddac8a1936319d198ebaef2c4a3b81ae42e92f96b6e222490c, 0xc77375639639b7c832e4bf45efc8da2f53e20e25641ea71485674a4001dd5f14),
(0x6a1f69209196c02e6919abd2c8fc835b889c5ca16bb25e3def7d0c4b9f4e6d29, 0x84371bc27bd206d7389534ef0f2a49c6cca4c9c9874f59b10ccc8b5b0bd5df3b),
(0x693b352085e1ea36bc5c8ce83fa49843369300c5170010c1b11a3c764deb12d6, 0x4441c9b7808b1ba98199349b243f08db6cdf5326d745382816f008d945c1251e),
(0x5ee94c6570953f2737c16a59590f7cd787143bab405f6b23718878c7bc95741d, 0x8578d18ea49f9204e51513a89492022470837b2bee4809295e4c4f0dcf5c7794),
(0x30c174b0e7b0cec7e6da6a5d335f48ee6f59ef16984e891232e874d62e51fe2e, 0xaf7f955a0880744456b2c9655c4ad915e040a360eef0c4c7891db1ae06983867),
(0x3121068aeb60a54fdd427eb092e3089592335900cf191eea7911844267b7f4ca, 0x0d9e8f74b8d9c0e7c35e314b51a52a95bf672adb9c6fb1048d2ea4895135aeae),
(0x0a06f5e36513a659106ec301cf1f2df56093e69038daaebd4b17ea459e977ff1, 0xeb19f18a15630965d2bd8bce9e3503741ab35f0e4b442f129c9d831f3811cffa),
(0xa26af0b650967dba1c4a33b505226c2aad445f43845675803b97ca1cf3d217c7, 0x22c8aba10604df49abe1694959b33ccedb11c241cbdb171c50b0fb0a399e6839),
(0x8e4471cbb650097ed3b0e938018b8ec5a86fedd1addc6ed18703a99b4128919b, 0xfa5457bb4068bf357b0502446eef2507c1d8705128770161ef0e92ddd2308495),
(0xe9116ea324650463fde960edeb7d5dd1f575491562c99f4831b553ba2663ba1b, 0xe30d7323fc29e3889424442263434cdbaebc58958a6fb35033141e9646a4529b),
(0x8b2267e69052f769833b0fb0ffe413f34b8edb939a2009b859d6673c4ca6ec37, 0x97f80a18ac047152178432b3d445a0e984755d9b7ad431658707185dd573fc5e),
(0x79947669d7bc732dca08e0cdd3e601f3c4344532e35aa7a712271b12339ee2b8, 0x55906cbfe782d32c013cea8e83812e8c84c76d38472ee59e134994b4b7b92897),
(0xca6d40aa2f863c02b6444727d00f8923ec58afec3b4a4e51f4be232a4b4c7c7d, 0x0ec73856b0529f1d9d2ed892b22b059f35e4a91bb60c6a6de919d611d9bd90e9),
(0x7ba23bca5f9a88c4588dec373861b699ddfc9f5a5b277bc5e6e16f54513fe7d4, 0x25f10a4feeb77ff0e24170afdea0e2d23f2289a3e53ad6741640cc69c042dcf5),
(0x186da622d0e8a9bae26d43e0b601c68b311d20464eb36f2bf86c3e0e5d4ffcf7, 0x53a6f54add11af9d50bd82d970825bccfe9da1d50ab55e64bbe4582bf5248d37),
(0xe9601474568cfe7e6cdbf48863f11f12fa17ecddc623cb114818eb52cafcdf8b, 0x096d51b27b5e4fd81bbb009a2ce40fc7065fc6a37f8bda60c4927766a52267da),
(0x811f5957accf9f323e48ac3a33fbaeafc5120858943e70659c0da18571d1d4e9, 0xede77562cc8ac601e3dbdfb5944d59af63bd1aa2ffb35bf41f79c418d1d67937),
(0x77424acd1d55424a0edb0149a6ea0349afcf44c6667caa51302b70f95fddf277, 0x70e15309989a2512422a5bff221c0e0edf6087467a34dbaa99e77f9c62b56c3f),
(0xe9e139fd073c2c50375d3966ed4af6f004bd80bb00439121d61bfe6699dabd2e, 0x260efa550805918ed45c98b9c119bed421483d88722e0f87de7a31b5e4b541fb),
(0xa9a5313be634813a0b10b9b36b38ed1da971c0de5b6d10104cbe426d544e7d79, 0xef7b32032a95144f17803f0972f6e2cb80e6a0995196911f916225ace97bbb97),
(0xff29a1dcb5c97b7cc5e2b73d7a0e0244bef71dfc765127f5f7e0f38bf8a099db, 0xb8334f11682b9a22ec08a376dc3994c27d235d5ba4a7780379ec0fb67b4d0345),
(0xc98df4d2da452118852c096cbb34c8caa2ebcb6ae9a3420da4fd3eec0cc31c5f, 0xf4f9c61844cea236edef80a14634159c726633227372cbda004b26800b5dbbf7),
(0x6612613977cfafb2283e1a92d632717486add807b88cf79312fef2b7197289a8, 0x504387f670caf9062db248c3ed5faee0269d019070dd5accc8599f5f5e01d1d0),
(0x0efa8bcf281ad4da2f083e6e182765cdab0e66f2e8411007e216a69bd73d5e94, 0x06e1afd7e97061c6cd0794f6837aefe6e8ab76b653d8084698747ed40064e20a),
(0xd4f9fa7e6e385f02c068ce7a1b80343c20f85b7a4699c126575915bf69a2f6e7, 0xa6496004f280f970c1028b3ce0d9418734dece113f9fc7372ef0125c851de143),
(0x05980a5c456f383ef0add52313fe37a8874059ee497b0a23c6dfbb2f09f6c494, 0xe1da9a59c8e3d4820ece797209c77308e47bcd90cdff915c32a94908db1651fd),
(0x988ca976ac6bcfb0b42125c0939a12072eb1356529da3e726b70b2b95c310e12, 0x97368d8179a76a517c7d063a179a2941fe5df19f25f1e1fd42a32af9d5de16cc),
(0xca49ad0d25b36130cc878861f4b72a4fe945bc0bdbae2f4c629a63753d88037f, 0x5ad2c0b72e084bb395b9268f22ba1774c6e423e24a5191d5b940c89ce1039f0e),
(0xec18622fb9771723c8e6e6e35096e51738c4dafb82b103171f55f900b24c2e06, 0x5803ea86c839ddad6c288b8cb382a1cf76a790c56f99df9a0fc9915eeac6dd61),
(0xc53aa26160e627bfbd905ff26b50a17118062ebcaf9d9ca0c486430fb6de5da2, 0x7d6298e00f17a515529fc5bd2b85c7efd183710b96d62a2c5a0195cdea561790),
(0xad138110f9161559229ead184b7ea7b2846384e9dc22b8eb5b7710278c8913d2, 0x135a3ed1d9df6a0e00105c7ce6ce625af8173d7660ea04b49ee781a890595eef),
(0x46946390304df8d915705fc45714f3b4233a5ec1afdaf145b6c097179c6b43e1, 0xaef28d5f088f62a7e3ecb9786efc97f11123fde388ec1bedbbeee3c9f9d3e014),
(0xd464a300df9de2ee0220ae234d59b6cf44f4d2807ab4f588aa21dd1eeeb80819, 0x899883490b1ab2808b8297547e5b36cbe66ddd164d7542d1cb0cf21044a8be1c),
(0x5e99ed219ade424e25b807c50bcbeb059b638b7a4ffb3c6dd3bd054bb7af9f41, 0xa373ab0c4aba0b04878451bb968076047d811fd3605e8e4657574efb21681aae),
(0x805edc9206fddf92d33db0689334d7784b30f73e04e6551742e62c50fc6ff2a3, 0x170e43174361275c2102aa8f5406ff9e7bd355238bf1e9461a6f16c038beecdf),
(0xec6e5a3fbb96f0afdd7007018c04699849a879ef5ebcaf67456748f2f25fd18a, 0x9401937dcf584df5a9399fa7bb309ffe080ae01520933d63df1fc181b2979fbf),
(0x94f226aaa25c710e2cc6868302b9124affc5c3fa179ace52327c6866cfdbb3ca, 0xb92762c3a4c56d951ef16db7b3992e9e0aa2f9c3ec48f07762a379f80408f94a),
(0x8d2668fd5d46bd4afc84183f4fc31dac0964358bfa6b03f916ac5beca619a92d, 0xc24f68153e49048ca461eea8ce50c8db7794b10dd80802362af6677b45e45f95),
(0x2a3ef1120d00514ac562de17a68bc4dec4c04db78266892db645ac6bced47f67, 0x6e93173d64333933c3db0f568c05410d8a1dc73b6a30c6bc2b0d5493d9f9fe1f),
(0x6eaa118519d6cdff45d884266fac5867790faca74ccc31bd6eb1955108f752dd, 0xaffb02eb277a2bdc0db79d9110ee8a7d058c966222cfac03b3d26cd63c678f9b),
(0xd17802d01944d9f7aab2b542fac985cee56172b9e5629e53ddf57e0a8dd07137, 0x485ae7ac34d13d9c9ade04f2b3fb8cc7d0cff40697abbe2d4961e7530b8de013),
(0x09e4cd8267c121f896c8104f988a140a71f0cf18782b574d407a4840607f5804, 0x00c05f083fb5c4d39d3e237b101f46e06547828ef05040ae87db78749d7f3bf6),
(0x927758c212452995886e97b4b1d16c530004603c7362e190dd2558a843521a41, 0x30e4d5dfc5ff4b5a5f4f757a3483234d4c658b7bf24dd5097968627aa2a86d56),
(0x589906c590a1e143ae7ea4fb084edc7a9f00bc90dfeadfba1933c36b57f2bd25, 0xe9d1d51d92223636cab62cab362b79b212a18be66468f06ba543921ebc9b1c61),
(0x5b5162161171c076b10d498703aff89bc080d2b19e3ebc3ade8dcfd1734e2f35, 0x572c40fd24965ce8a78c3402381bfd90b683d6a0d379d7ca21e6680431b8ffe8),
(0x1603bb4b3dced105b1a2b74821080a5c2629a52b5682352484deb6172f6a9694, 0x2dc4243dfd20fd16d1f2798f23e43be5f88d5feb1f6fecca6fadd5c3f5a63c37),
(0x7bbf75554c14bf1a63ef9f38ae3ec2795cf0aa1f335c816e580bdeee10d95ed2, 0xd2e1264881ba6d5ee8cf389e84e37ee107c178b8dda6375632d9330cbeeeac53),
(0x0b2d3aee0d0837870eb4e14f328640a3c557724ce06a62b917134ebdfe576073, 0x68cd90be2df0fa6bda2693b0f18357b70ea5205e2a1f5fd75a1413b4fd9ce0d6),
(0xdd10759e086121fd6296f17157a90f2dbc21723853969f854a71461b27df81be, 0x713442b065546c391b71ef303bb6ebc0659471befc165a3a686aae0b270f13c9),
(0x54229d5703a274ca6eda619462dce4b935ed143d16e470f1239f10456dd2de16, 0xa6739dc0916112b74fd6ab7a134093fd555417585b3fb39fda647bc65cde08b3),
(0x141f3cdc124460ea15fc80fadbba8fced89c442674e9a3dc55f74f69066bb8ff, 0xf0c8d7d4dac4ba661768514fc9bb9e2b319645da735e5be151790483d7b477ac),
(0xe9795743efacb0d04c91c74d33837b618d08acc1cc2603acf02b161016fd1363, 0x9f1c8ab6735f3161811f710a1b5703d6aac65c2335fc1af132ba005bbbe66d7c),
(0xe5e8c40ec6c9475dd4cff6a9c9db5cb3f8202bf1bf60ed413e213d6f2c860797, 0xa9570e76482a8177b1adf9a01a7716f4b1e754ef864d2deb354a96dc0ea1decb),
(0x5292362ea095d145c002f027be53a28ed52449820bcea97cb56d9ab6162f7ae9, 0xe7f00a6108e636644555170d9f13420efe1849dd641bbabdd364825081934e37),
(0xa67729983d6a765a67e9e3a745e7de0e1e42f34e46b7cdde8ab20262ad246822, 0x53281b0bbb45bbf6a1e804e40cb6f4430537b4bbd551c9d08976d53c1020407f),
(0x7ed3bc8a8a68ea64c9dd316f48f012ed0229e5f91a2946664546ef68bb48959a, 0x238e6696a7cac135ac551927fef28c045bbf23ac9d24ef523d69aaef27312e69)]

/-- secp256k1_pre_g[5824..5887], /repo/src/precomputed_ecmult.c:5866-5929 -/
def g11_3 : List (Nat × Nat) := [
(0x96702aafa9e17a9b5fa4fe87d3b45633b59779ba570026790063a3a57e7442c8, 0x53deadec73ed54d4db98093f9e269442d9a4a955f9b188788be2c410084014a4),
(0xbd3e9c0442a9b0dbb063aa20b09e7e0b4ea18ecc55a5794e14108aea1ffdea66, 0x0b5e43b5fd8cfa37dfd49f341ef14b0bc2cc571ecf9f7511f2f11e15825a57dd),
(0xd95c6ddef07abe75215e14bae76a3be16dc514f17542a246e48a2a35108c0833, 0xe49d6c1bbaaf6f7e44fa73893176775776d6756bce8353abca6e648acd2e8fdd),
(0x086f74067a86227b2f5414cd12c9907ab78464be8a5c22847d8442ead585fe8a, 0x53c73db93ebd33402856a7e3d91d29e2e9439a3dc43120e21fb5bb04384a8e68),
(0xbdd92d35ba51344e4deb6b77126fde219e7030e65e1d96fd4987f1ecbc5ee6ca, 0xa49915dcb4f29eb5af9d643a6c6f581d94a205de3a8bf3f6a26d294abe11cebb),
(0xdd4b5fdd3ca8830074f19532728a31e4152be2302e6ef55da6ef9209fc70b65e, 0xfed2978a3cc4c8d802012cd57e06ea374ac5f802a0032e8a21d58239860856bf),
(0xfab1a71ff8a64cb514c94e0d1c67fb2370998570ebbb0e259e09df03e82aaeed, 0x6208c3fe03fd0d9c640a19081a6a6db4cdeaf7f2ede4835d46549734c1c50035),
(0x4d6fcaff167a869e311e8dd3f736230e78634ebcc4470b910686018c7b529509, 0xe860a3b9289279561cd132dea1de3456576c4cc6138bb079a166b9a679555751),
(0x502caf195004fb4375b13ca516583e1b3f60b32fd97698320b42423af7ec78c3, 0x0c0aadc336019a17ebf7f2f05afc036ee807df5ac2869bcd19c2aca01b5ccec8),
(0x35727dc6ebe8f38b1a84d2012fb24a2e9ddaedbc63e8de82e18de4a3c4d021ac, 0x8eaca26b3b88adf2d19d9d52c84d83ff894517506a77b4fafd717b074b414322),
(0x7ced897a47b5b0d5f4db6d9a0ecd9c5d54b35789919023246f270d7e7ac4b377, 0x1c6ce9930fb84c89ef5dbdfe68dad70dca39a4ce29cbc658d5332d1a6f6cb157),
(0x60d1d74f660a5f6dbac1ee845aa43dd8889c9e4c6b0ce1abe9952ea27146972d, 0xdc4291c7db1dcde08e618261b8d177aa077b5b0f2aa8f3418afc9eeb0dbf068b),
(0xa8b28606e7040dac7941cca0b9cec03131db3f95bee7d6a908d60c3a1091f81c, 0x3fbac40161c81632ac8655c6d5c027447c836244e228b9a5bf5d799f1fb810ea),
(0x6418a48d2705a27d5fe6818858a61a214e4dd39e4151aa899fc6d41495f975c5, 0x21abfd3214d98ff75b1542508480b32dea8c50c23400235bbe8005201609c7a4),
(0xb46f6f80c71cb3543058372b9ba5e6d52617728c54c10cf66ead7ca1de2700bc, 0x2008111ec4b86ec426bde7abf52bf20110787bedd7b2e922e3a5a60fe68a0f4e),
(0xa0ef81c3c9f78950041a8d9069cc22e922bc0cac4e61a030495ddf48eaa6dcfe, 0x08617df0b32975a16666f86c136e8c99c07ff948ff8d81769d968544aee5eaa8),
(0xc03cfcd421cc70955a3e10e4a4ed12f0d31abe86506da6e9c83cf6e1df73d093, 0x08d6f0b3c0d6edf4b5d2041a94d13f8991adbb030022ba9fa56b31cb63d4400f),
(0x4085a2aa095e4e8f11b0e94e2673c48dd42506a181d93a19b5f79d45ab88b688, 0xcc769f7d0f45ceced3cddf9fc75c4dc9bb7018cbf54986da434128afb26c0f28),
(0xa485186ab21c4650e9f7375b2ba644dbf22e2db220933cce2bf0ca7a0c404fcb, 0x2d227efb68649a60bee9461e9390ba02eb133cb0eb8388e3f64d23a4332ec903),
(0x9faa3103b212c2ba9a454898fb451d17c3632b7fc936845203ddb88a7599f14f, 0x9dcb34ce51f7c4db7cebb0a21b50ff2ad67c6bd97066e505601321683be236e9),
(0x1bb9ddd4804edffd78d00b86ccf6a07da798d91e5d88f2a937575d9681187564, 0x6577e8f3ac22184bd46339b825a426cf2dc8cc8678767d87999a8e635789dfe0),
(0x7b32d099c78bb658248681721b375689b91f065045fe3d9c8af4a3312acfdf58, 0xa4c92e67f4bc53c5aa84cef5908a36abafcbaf66a946d98d4254271ab4f088a5),
(0xdaf23c72c67145d5e2a55109f95742d928cc16dae53d0453c8dc22fea9eec7f4, 0x205dac836614ebe2a55c04a5970d4ae5a9ba4b1dd8d51f5250de622d2a2a472a),
(0x6f156518addc53c976a16944a059a4658c49f6c86ac4339e82a2f69fa3599279, 0x50a277ea6650fd6a4a5e4c2efb09bfe278fe8fc2c7a86089b4bb0fa5fa7262d8),
(0x17661b7b5b5a8a4cf700397a1f819c7da6c44cf9a7d28bccdf6e7fdbefe50580, 0xdc1d7f84841d8ee93a9f9fa46a03b2a8365398c3f94b57d677ad4238264c7868),
(0xc30423891483fe1b12f16146f48ffe673a1ca3eaea330d54db5f7c95fbfce6b2, 0x131d108c14a4fda777d323f3f717fdd0a422acfd20b9db1e2b2c4039a330ce3b),
(0x654da43f70e4c85fc9aa2d5a12ce1a51d4364a095c230ce4f8ae61b3cde7fa4c, 0xf82cfe9dbec57ffa4109e9fcc9d7913549817f509fde819579190d38f0afd2f2),
(0xc17be24fd7d2535ac4eb722bbbc4444cfa529cb1283585c0730813de7219b481, 0x2d35a0b227582d2cb8155b92680f6651c0040508ae3de034cac87591654c0c86),
(0xfcb1fa46f8178153fe5f10b8a91a411bcdc4cfc561b5eb2d29446a798deb14fb, 0x29c752524cb130542b9c1a26b4606eae6f40ba1af73d006f5bac65e93821f0f0),
(0x07b86452e43ae1f7177c131d0999b5faa6e4a107e0a06f6f4305a8ffd1ead9d8, 0x3e7cd53bb2f27d89829e331b8236f92efcf674c6478846c2c18307c6e82691f5),
(0x8271b58b67a27540c1d8305a840475f53faa00314e779e2b9e578c07366a342b, 0x5cf145f86fdff8326712be08ca1f3a27d3e58fc0baee76f7a052f7df450dbed2),
(0x3f027c764ebf933b50df3d3777f602104b997d1d4b9cee19cb549c58b5d0fa23, 0xcb44dc89c533abb3e255fbd26dace4aa836caf4b2589113d82ad18867eee5d80),
(0xfbeadb62ffe218e5d0245d5c4bce7334cbbfbe91610e8bd9f0b89953bf472bf6, 0x7e824c099727cd331aafba9c6776815e03f954fb539efa5cfc4ce034db602c09),
(0xee2807ab4464365212b021b0dbe946185d22fae2f500a740127f4dfe32ee4c60, 0xd958ade600cb9d3aae21602ed25556b3b3869202beab09101a1d97e408e360e1),
(0x94ab159f2448f865f3d38d6512273da4ff4762893dbf74d2ef889807081d6802, 0x88739de5da331b7087c58bd0d734bd755853753d1d3b97fe39c685558868576d),
(0x98d2e8e5a41a0bf4a880a510b4b653217b9a62f0c466c589d0c1634f557666cf, 0xaa24bed80a5cacdabc3c950fd56bbd1ff156efb24632e073ac8228752617d1f6),
(0x64efcff276cda1b7c8e5ab1b12c73a4805a251130eb9a5be0496e52b0ec6ad16, 0xac29e2d718bbf63a16003992d85a90900098ae89834dcb24293d6bf1b8130e3a),
(0x6a8e33761636ef4db1116d5434f3fa05d8cde7e531b260ee6aa9ee611c4cf5ed, 0x5161b5ef4bafa1aff76a1e21bdad444a2526cf5cc81636cc36f18400b8dc47af),
(0x4786ac326312dcbfa1386ca8c505715f2bc7f85c22b6049ae4386bec11648013, 0x67c80d39bfb6cc587fb312c38fea53cf6937216e8e7f3b3b04a2290e6d6df687),
(0xb87d2d08ee206c180646713e8af6bfadc77754c959158facc31928afc66bf596, 0x6110c98fbafaffc17b40277c17ad965015de7069705019c6b7a74caeeec6e65b),
(0xea9f310bd088429e236d565fd1b3129c7ca8573c191d1893c1c157d2a0867d4e, 0x61c95d39c1893c68fdc60ddb27909f2d98c9ddd6efc67ccc7482c0e43c05b144),
(0xabf862bb9db85d515d6a37f55f3942b45404238ed49d312459f9ab3829b34ebb, 0x30d13c2602157c1f1ffc8a46a3679e6535be1981c202e7de10de5386db863739),
(0x80767b75df3e69dd757b4c4b0fd0b4bef75fecc6ae22b488214b0035a276e492, 0xceea1fbdbcce30be2d88b601895a8fd292f61b61cafa5589f9eb96528a78fbce),
(0x8b7a47e7dfc3509377771622482e45fc84708ab2c9c734d4fdc9e8d2499dd950, 0xdbbd399ad62e830914bd0ba619a9963b8aacc765cad19734e2526af42b2013d4),
(0x13700ef1f1e82cab7e9a7d79d76fcfb00b6e8c18ec1e6546d27eb919bd871f2c, 0x97488000f96aa2a15913502b30ae5bd5f9edc84af97dac7dc79be68da0f7f4e0),
(0x51f9a79a991fe61ec5b7c93bd0905bf12fea0e0cbb9e9a7bd5d99188f42c8a16, 0xa3ffae0e92e3bde251c9a8c41a6d05ef2fa2ed53d7a21402e759c10265d96000),
(0xec7c68920644bcff715b027bbe48936b26dde18cbb4a1a9cfa1628ba84d5b456, 0x51bc2b69b76646df51644c288570bac5d51a0e9d6e9f0ce71abf6812650b18bd),
(0xefb8249fbed3299f7715b3fab6a23bf286560ad372e31e6cec7255220227f5c2, 0xf36f462459a7fced3c6211588eac73c554593c4eb7c82fe7b0951bfc8987bba0),
(0x4efe94a4c34083dd049762eaeaf58feb72f6e2839931b706056427bc0e9913bd, 0x5c8b94485c687c1676605dc2d414f37cda98a562c71e7e72fb2b8d5e6ae0d60d),
(0x0ecc5864fd6a1f7e1e20a84cd9dc70909775446e2e0bf6ccbf896bf797f9dd73, 0x049eefb1981d4b87ff21ca805471770e8e06354158e9c1fd9995718b014d9d6f),
(0x133f37109bcf565548d03c90b82d55decfae1cf8a5f3e1175eaee107aa7eb121, 0x1af96963e9113d2c588ab08358df45cc8b68312c9aaed5043f17fffab29bdd7f),
(0xa8b1b9f3971667be2a65072cefe8b1e5e64f652a4758f51b4888087d4fb489b4, 0x556d9a3ec2861fdcda258a1f8c6e81d81df43669e64e3daa90dad4c7c6c0b662),
(0x104889dfdd81534b655921ae5483db4b0b3227f2fc3563fc4af46e1e2c4fa88c, 0xa70984a0ce97af36b827aaa5218a974373feb2e6fd7e2a020040859047323ee1),
(0x4603c58f4fbc45757e9e165f8a4b41e6b0d2bf09b11249983881ecef2a8852d7, 0x37e5990d7c50bed32b72a43a2e6a0ac75676cc82113e3196d6569e2103adcd0c),
(0x5d1ddb75774d64199f07f57821786ad59fd7119cf895196fdeec090f1240748e, 0x519140b001b340a4a7aa2864fef5a0660feb59c63355c2226805e45e160bcd9d),
(0xc9f8610462644b3aec4daa3ebac656b9de816cc3a5aff1a3633f90af8401a97f, 0x405087e8804036290516d4850f17590a1277e058840b3fac4e02d3bd7be92954),
(0xb774b1e99f42b296dab0e3716d4ee04f8bd517e67846d0b33ef5e0f2569e97ae, 0xec78bffcd6cfa76e513a2b4bdb638f73519b570f0f423936ec0a54f709ceb5f9),
(0xd7a1e238ad3eddf529002e8e87476ae36668d656595b3d102486f1a5c30e6a28, 0x5c9fdd1be132b9eb4d7b935c2209e10555cb28e6c4616be57b248607697ef6e2),
(0x832b146acd002cb8199e800c47b2a0cfd96591e991f1b406b2db981fc0aff924, 0xf64632deb99254ce9d60b02676551e8ce21b300c086fa5bd8bd7c32a4a81a18c),
(0x635f97ae1785487f437fee899ec21d13dd8228f2e209637e18c85ecd6cf50202, 0xb53fec651a1af1ab2f51eaf88a3af104e1a40e82691da03d9a179c6a3b30e5f9),
(0xf882f98399891dcbd58b931dc215ca05a232aa9a7cfe5acb5226ebe4f4a598de, 0x3d0313cd0aa366685422a6e02dd7c56011fef0ce3c268a423509991a97cb4562),
(0x5b16de8e3f8b8670a98099a5250e310251107cd5d04bb804e2a7175f48183594, 0x33c3d3f9e3099917e707a42903c832054a26cf2b2a9e3118fa64f441e7561fcb),
(0xb47e085ec7a7977cbe3e2329ea417e98e86eea9baa23fc9367cc06db0cf06647, 0xcf6f1cc3f564879af95156044b7b856b827335af5cdcd55d1f8bde5bd3f539e5),
(0xafd1a856e0624d6c16a876c12f78ba44303460f4d3cc793b5dd32a98d8aca9b7, 0x3b334e5383301f24df0e2df612cbd7fe3e1b6650d5355bb6c9d3873df42d73b8)]

/-- secp256k1_pre_g[5888..5951], /repo/src/precomputed_ecmult.c:5930-5993 -/
def g11_4 : List (Nat × Nat) := [
(0x0454316e69f558ff6e19057c9c754b2b83eab233f696ccd1b80bbb423c81ae57, 0xebbbce3d4e1cf2a7315a394dd03bfb64300ac0f511627d0607a5341b43a4ace9),
(0xa51f1d61dc60b34c65345205b2a316ec766560b9c50d72a2330f828aec978d05, 0xd4e9b10a58bfcc59ef24379f532784a7ccc4c0778aa11bd8bf00884644175faf),
(0x771329ba3ae1f814764fb9c9ebe68f3726b8260a90d4e49a7dfbfd3080cc6128, 0x128479e4bbcd5b06ddf46f49614f6ae1bb8914a07a0a5bc734b69b39caf71b1d),
(0xaaa59016d18bc9e62716bdb86d0c6bcce04f74f198f17675c021d078166c9fee, 0x36cd35fd53be5c1784dec1ce80ab3ff495abf36317824a1271cef62002784f91),
(0x0be187d000b3afc0bcbf98ecbf31bfcbf4121265c4b815d69403d9ef926cd254, 0xa3aa0d558b5f67209d8a6514fe22026e66e8d972912a65035faaecf0ac2d9b25),
(0x0228afb7a9564fd3641bd41720a0e44cd2ab5d99844fa61e264ca823e197da88, 0x24457982391e320988cc44fee42cd24280fe1f64b87814b90bb485d2ed0d7757),
(0xdd55db40e33333797b8ae013297b477ebca2f58616f293006625aab46c367ee9, 0x836a69d6603fd34f92d3f775d25ce89db92d280348a2117844f9273f1a97a9e9),
(0xf82dfaf25113d8d5728c53de3b43f2b9d2aac0f2f90b762f390f745d7e10093a, 0x1097ff800ef2f5dc088873c12b5acf0ca8a803cb0ba3624d4a036649ffa07bcb),
(0x666f1006057ebb1bf05f50c12bfa7fe7cdf11e0d6cb37c994b39df89acefc7e1, 0x3e3ceb4b0eb292e53c00e4bfab6dd9d3becfab1f19880c3ecbb93a4c415f67a7),
(0x9769b5423b098d8c18871a538403ba2cd32f556a7ca7b089ceb9134a5d983e73, 0x536e7c8005c71c499d9acbedc6fd94a803e64a2c8afd872112f6848d60851084),
(0x26081d343771ce6e39ba59dd2c2e15c24c6903ebb6c157fdb1c51dc40e5343bf, 0x82f6d67539d048254cda5beae48795479570f86c9ccbe1a2ee0deb39afcf5efb),
(0xfeef7b4adbb0e287a0762b14445a8faeb860e08b19600b4145d92447be732bde, 0x44e79fff55aed478f8d951e7f4a327f6c4a1e282ce617a3b5128f528033851e5),
(0xffb8488df26d306b70b5b1be4b6f2e4e0b6d6b2b4cf05d3e9502f3f981406cef, 0xf2891496f5affbf0bc60c46e0b96baf72a4e67973297a28a948adb921cfd5dcb),
(0xfd1ec3c1736f2edc5c080981fdd99fca9e301851cbe8d840038f03a659f21ea2, 0x86755e0c7b01dbffed701a7e0b5deb213566f331d707888f4f658879cfbf3bf0),
(0xaddbda08d536486cb9d0b4f15ffc9104ff75be96739d4641a405e2c42775fa4d, 0x4d70179e1237e2d461a0a0b3c3bf9df79483afcc1b8fe02f47d4b3122f339089),
(0xfb5e9c098ff0520db162e57c19b80ced7c63ea681c7a2c562557a1ead2d7a46b, 0xc4d9cfa0d31cfac078c187dd2ccea7384667776fb8eb09359330fab4b9f67e2c),
(0x28c333641762626ac9e4d2d053a1e5f0771449e7a0977f2c63db46811c675b45, 0x0239e717a76b80f62b11c6f2c459d516bf81dbb14dabba889f1e627b5fcb525f),
(0x68e783ee84fea44c59c46bbb170d7751c47fb05b602e99952469def7cd061c9b, 0x7054cae831dcb37fae8d8298859b4e56772f8a6cd079918db49c7bbecde61f16),
(0x1526613ffda17eea1a7930dac1be4a6a4ddffaa51adf3c9273f3a2da44d69c46, 0xc9c3d04c996c4d40b906bbcf05b0ac890f541ae481b7c5c18f9b57627b9796af),
(0x263e60992adc9f241cd1c16cde291760babe6e41d4e3d064f1a8768b94bc5439, 0x3ba3eade1c5b82257559c0d797c47e5c41f60195463b2eac748014390b3a6663),
(0xce58e7e073c871b2673e18e3c9ebbb8ee6bbb2d6226e3d0f4bbe6bb673e72816, 0x85ba41f413158058fe8d068ddf70f97cacd4f512cdcded1dff9c3c39eb1ce1f3),
(0x47c3eb291402d2d525a95ee6fc54d1f9721f29c1e5b51cb9d82d234b94de6594, 0xbeb5da303383e0d14d13eca008eb8af014f8220a81b1e8f647c1f95c4503380e),
(0x8f5e8092c71ce97e0af578fa052f174dad0133f3094bf2caef5c7adb0bbb37ad, 0x1ca41380ac714a5d3c6be070117b10b2dcff62d1bef220e24063c97189f6ffa5),
(0xedefd6065883e90c31215558b05f297c45c64fcd34cb864e3f0265e507e7d5a4, 0x924502b31d0e8df22a54ae07edf1b0bbf2ad1df407de805a43ae11ae8cf3d628),
(0x31516a47507734736e691ec4e6891eef601d6e42d7f4ea4a1e5008cbb77e151e, 0x7f243d736ec9d71cd2047cd8d97c159d345003d872556e944f7aaa74acb8562e),
(0x9049e0ee149d379b779639721027627f5cf68f7a9b1c81fd189ae6ddeea5c552, 0xecd6003171dd919977ef92b4262388a07aec9cbe65d808821847a5b8c758ad26),
(0x0977ac1198214ec6eb92699caaa9c2196246df8285a6afd200fbef31a5a93b8c, 0x27e01787d6e29c74f6308e2124f9fa996a5b78b54f45fc950b71430aabfb964c),
(0xbd7ead55e8ebc96e05429f5952427ca38dad3d9d649676c552a010993c359a26, 0x9e596b268c90186f8cf38e1bf47d6d6ad7204c78b557b3bd25125bddc3ef7824),
(0x90c82d899178857ee2563cdfd822b8722901b53d3b93a6f92905a4a2163be70d, 0x03779d0dc99fc8148b2f58c9fab70952373365d61adb6e5d9ac3f7619f27e943),
(0x0a312a0c3111faf72cea8b7c3e2786a165362caf119196873368c77f117ac42f, 0x1b78c42eaf0e6219ccbe3ed2384f5529dff57894b9c82566255fc4d0fc798b6a),
(0x7cd723dbc046d3f45b0fa2481197790f688632b45f57569e2f7754c09fc9bcca, 0xeb5fb704a5cc0b22979bd64a0790f428b57bcc793bde8fc44d6bc9b18c21e495),
(0x2b24dc16593244833851815c1675d051060713a57dff00f89e72df7bd1c7352a, 0xab05061c224fb577a72f5d2a38a9e59d18c526459564afca0a9539d0c64c8fc6),
(0x955ffe05c4653033c2b4afa1fcf8d3f13b55c9ba80d67c37598f6d8797f11b1f, 0xd3502a31bb37b95093b3e594944d4bac3314d490d375e1184e8c5a7f2346e6a5),
(0x699392f3c2baba311bfa8aea180283c19036ea92f287fc080adb32fa6785fefa, 0x242acb3ffcbce5f59dba097f3d358862112324032730700d0724488e8bee3478),
(0x193d04f361eeec14633c702af8e7eb222c3de17ca0130e9bcbfb3daa94674d24, 0x39b68a3279e625338bfda7809f0f8264ed2ba2b5ea9c00356459882aa943e088),
(0x564387e1ed778e70baf9f8762a0171a26a4e660abc6eaf1c07ef9f0069794817, 0x7cf553f9128d0716e3c810393d1ca83f1cf0fd827f7d4ff0ff53863734ef42cf),
(0xf0eba12fb282171fd20aef8e192741e54469c5c7bab13f517084d293c3c294cf, 0xbb0211fd182292475238ba93f6992d34a41a7ae678750b04fd34f3cfaf61f90e),
(0xa54b91bdb09d29abf4cb354d283c436fa8e9cb20d3a7fd35e59f59c4200bc13f, 0xbae1af423459a852bc16d45ccd35fd94c0033d895c86fdfcf4fad5e63bec2cd2),
(0xa9294788b2c9d99718193553403350af78008113ed58cbcfa2816c8046f75d47, 0x0dea8059c24c1c8444a0263b2896725b79c2c8a26d425479f44bb7ad225bed8f),
(0xb6967b59ea3d289900c14fd2cdd4590e68dce683de275313ec94d5d61bee65d1, 0x67eb4a278813f69fe5bbc58615dcab17011bca30773276652fc333d052fd2a0c),
(0xffc0f3fd241ebededdb0c43aa9b8fc2a9e7789631af8d54b0bf99c64add0cd7f, 0x203e3aec321e40fd414c002ce5c6cf902f3e75d8ae0e360461028ca1e21da260),
(0xd8f86220c390bcfc0f714ec38b6f6ee3d37b41da4026805d6fbbc7988a936ab2, 0x7c0ad86331ab776fc22b25390fd650862cfd2ba62f5d67a16eb957b18d812bf7),
(0x11295381019a146b442c3447400b6e7e9b2190badd42a75e24460ca645a3cb88, 0x4495050175662a98793416c53c55febc7babcd29398d609923e1c3e192dac1ab),
(0xd7cf3779236c4a8f0d592525d30dc0a9a3318c051823e0b043a6542df38d92d4, 0x1f866df2429a3dcf1a28526518308c25262c1ea72aa2267c39a315c60dcd22ac),
(0xd2bb0f89a089740425fc85ce4d8fe24cca061808e426b08fff49a525137449b0, 0xfc4c4bfa02bf202e4d10969a2c4ca38317a8c17920dcb9657de7aaa96b97ff33),
(0x832d95a0cfb914945b43d9a04f0372662ad4453d353f6e7847d4aefc449dabc2, 0x6ec0aabd03c3981b8ff5574763bfb800453f302a8161de79b6b623d9253124f0),
(0x3a2249830f83c41d33d3aa2ac9d29ca9558503880a968407664b28303967f25c, 0x7cc3184196c4fb8a953602ec3c79ac75069e1fd17a26394627826a887d651f79),
(0x81197d871452332c2fb187930c0ebeca3d1b8a4cf161b7090e3da21f3917917b, 0x56a0980d01ed1f773c960de31ce4aad390a5ea76fc410a2b107ed82db8bdbef9),
(0xb8204012c77ebdcf790f48fc4acb23f0b03e5d406fdcf21281545200faa2b4b6, 0x0b8718e012ed5a02164855618a5fb6c4ee4db08edc9c1842881287c7dc7191b3),
(0x766d82f3b602c418d020596a58e6140020f58fd1524484432f816dc48d437750, 0xd17969a3c71ea79a3854b5260efd56f8148b2d793ea3c76eeb14ab7ede5841d4),
(0x35fe765505d4c88cdacad9ac1bf125d9924276c78c2ea9c6a9c1ae8752d1e323, 0x09ce2d43ef8fdb3782a38d69972229df9b9c0c980abad2631df192f7e0e75324),
(0xa29581d255efc2064d1d1839621daef2ab049724167ced737566f4cc3a81f5ad, 0x7eced1c0575b615238db2928964f7713f65edd4dc31a4b34ae20b6a2babaa8b1),
(0xd7787fd3754738012370e71f4d2575a5b9f89e11aee370ca2660dff9dc6a807e, 0x2875ab09bb1b2a7ecc6cb39a939e4a912ddb1dbd5ca43ca7093ac663552ae91c),
(0x1fb6cf61e8be4d39b36578cd8853da6a1e62cc7f29426838a7ecf0a277395288, 0x1c0181142dfbefaa6bfc29576b79c91b16cf03d381285e2eb74f71db1986e43f),
(0x511e9c97866e651bc4e32e4192f7501942316ead6a0cd78dfa61e0f1e76aab8a, 0x2e8cd531d55bb19e886b86cff710559168a9507c7d78d34b9ec50f925485931f),
(0x74afe7a56387bd58d5996a9a0965073044141ca31f5236e9da97728973c9d434, 0xbe7311c2b456681912d135468ac1e26f6113b9603039c24c5e77edcfde452567),
(0x5b545191025d5f8ecfbae2edbb724782d07ff38010eca9a929ccc9c1ecd0f04d, 0x21126f87a0cf18241040d7074d37e8a30f03547163de669b9f502fd892322dfb),
(0x5286fb501a525e82a944d1baeab4957252d8669319af1367eaa8d5c3e73ee8d9, 0xf2abec4368f3800b30da81de5b81e564f94942a409409bcba9faffd251daa0ec),
(0x7b01eb860c1024384be1f02390a5ed7dbeea652dcf3ef77f92fd883cf2993069, 0xbecae52a915d139315435d9dedb72e2ffb9bda334b2e39ed6e6983449e1ef819),
(0x3955e911874fd6d674e04ed1ea3b43a4486a0ac4197351143b451c3b3028a674, 0x3552c619a845adea64951c827599495908609a3d2f691d0d5947b4744636e06c),
(0xb67801c6d96aca8922d8e7a996e95729c4c29d63180e4f73dcf013f198eb0d29, 0x876e3361d82f58f3f12923151509ed622e2a73afd063466d4af5cf1c1ffbb150),
(0x1efe40041c7ddbba1aade160cec007e98abfcba47d2928394598b5c01b763b10, 0xd9f00f5ed0868390230168e7c5839be7cef8ebe0b3b70d73ebd92931678dadac),
(0x2083d5be389e4bd023f7685f2ad00b23e368767272183afbd5d0238436d122fb, 0x11b6176cc7554617935304d04e12e8a74bacc20dd438bf77a1729a15b424937e),
(0x8a9420d393ff0ba025bcbb4feaaf715e4ab1428185b2dd91f8eede56f3006e46, 0xf48edd10dff930312b5df63dec9c7a2fca373d7765033de38a54d37b2ab1f4c8)]

/-- secp256k1_pre_g[5952..6015], /repo/src/precomputed_ecmult.c:5994-6057 -/
def g11_5 : List (Nat × Nat) := [
(0x64a2e8bfb42de0b4b2dc8fd59e3b2c18753b43dce914fbc1478818f8145891c5, 0x8258366040ebc62fd5526ecb9f95209147f7048a4004a0a407b08905012ac098),
(0x0eb9719328c44e0a3f2568bcb99815a7c5c2e7b790e7fcb5a2e7f7d90920404f, 0xcfd26c16e67098731219fdc4aa8ed998c6fef95578d7908cc72c04a404bcf305),
(0xcea3219ce03a2433f9ad8d9373a6bef6c1f30b3ffa79d7cc6ced36be9abc9c03, 0x13ea8ed6a0dd8fa329bd7563a34f34996442b03af2eb703bd8d5228ccc4c4e7f),
(0x2e1675b4f00a084389b0587bf0cb723e1a833539c024caed36101cb2bc4c4774, 0xec1d76d22752a6625dafb3c96235eb94f9af12862b3eff6d2a0fb965ad3173c7),
(0xb0eb32777c8d1b09e22c9b9f1c37e8ab74be3c497ab6d73e7fb6ec1110602438, 0x6d44054ea4cb4a223811bbf66d2ab2dcf7263d7d6421a36809a9ca4f097fac66),
(0x48254bd48df24e2a759c5ef9cee308551c1f79dab0a326952196ea1f987b6d70, 0x9c12a458f39f4880ff04b96c72b8877fb4ad0020495626f41d9b32a8084f7a36),
(0x0e3c6dc6cfd0b94a57b3d34b3a77f4f445328a12764e4619efef75f9f49fe8e9, 0x5c229420500f2fa2888d834fa517188a207d8f88c98b7b7d31484a49c4d43a31),
(0xa8d9d9cddef3362cb260ad0f3de51aa5db066c744166d9ac57db782f656be9e4, 0x0bc696df80eaccddbccc9ac8960325bf1a0e9aa6100908b3cd0c0ce343205db2),
(0x38281034a34cd15334b6fdc326fdc558555147cb534a1c3189beec745a2eca97, 0xf4371a13a65de538f31ecc5b50ce4b92d5dc56459e523851f6fcdac65994b5e0),
(0xb745114b449f0d7a4521d7e6728c89ff54131e6d8add9f3bbf18edffbebc6ca1, 0x18678d66781a9120ba33e01cee3fb1acb7790f18b30a651a099b913ce621eb67),
(0x5987629f9c26a8cfff39955c3144f4abc4d094c88270f3de620fcdaf093a7fa9, 0xa554b7be24e49819f1256c9e72b8d9812aa5984ac942bd815709ee0367894a07),
(0x08fc9dd0d84cf29775ece75e8cfd7c38dc9f602ab0152b01982be4a1f29b7290, 0xed128f962cf605037acdf6d509578ca89a232a0cc432364f2b661ac92a3176b5),
(0xc8b5b1af90d64379f2c02ac951ff715b02978ef0bc87f72103edfd09983ecc35, 0xc295c0d4964ef85a059490aedbfd98bbf60962170d7633f044470b6ca1816b55),
(0xb4eabf60c44d78fc298b2c906cdcf7daa23d095d867fd304513f90c5437775c5, 0x82d906a12d10d6d8e4c843b548ab645be6f32104f07d8fd8c128351be7b526bd),
(0xb19350e8a5163076bba0b2e72159865f59a8ea83b0154fb764308bc74d0bcfa5, 0x29e4ca7a554269c321a12b37a4fd0fb2d3e57ed54e79423d0f715bd2ecda9907),
(0xfecf1ff7663c792140f4deacced924848c66bec6f4a5550dc340896c5543b886, 0xb2621f65d52538e292a508089008efa08f530fd9a321bf306dd24f26c9a1208d),
(0x0ab70fe2355d6d6b05c5a3f5a6bdb60586372165b8f07d2bccfd61f40798dcb7, 0x7adfb6d3dd44adff87ce37270efef0bc6fdf9f4944fbd238822974d6dd57e8ea),
(0x5ae5d60aefd1dae243df9d7eca025c3f452b6c62216c1c1e8b315ceb0b94769b, 0xd90d73b96e33cbe306d96c45656f098be7e57d25dd03be958b9cb2a1d00bb434),
(0xfc51f965bf8dbddeb5fa4af87abee8a9a380918d4d8524e673f8501a291eb96b, 0xceebbb7e35eda61247ad8c8a5d54af8c9dbc9bd1194ba5a95844fae4b658496f),
(0x368b51e3778f8ddc2d09e9b7fc2808c8ac793edd244fe1770fe3229ae5a6d919, 0x5b3ff9e5af4c6ae0575b553cc0ce17cffc4da66ee19fc3f62d0470070e1716db),
(0xac9c4efa5f63ca0735fafa0e9612b4591a764955d435c14f91717e4226ec0186, 0x5d4d3ebf9a064670e09f1d4879bc9e3e221981880561073129aa403e73d7777a),
(0x2b5f951f360dbecb9eb1d31db414aa139d9a7d7ced952a72c0f93a61d52fbc08, 0x8d46f1b9cb8883e4cb504715eae4326f11187e46de477dec2108ccbc2b3ddd35),
(0x25a3593f9670924aa35c2008bd8278a9a78d22d60572841c98c4399e26f67cfa, 0x3b07ab0b08d400f1af88561daf8bb7c6a6e4b7c6a8bf59154cd8529166ecd965),
(0x3f03be51b35e265dd9cb974c4ac021d9d22b229140016bb40e9edf5236193eca, 0xa17df05de4b0e5bfc7ecac3ee3253017cc1d47b29fd3d1d5411f2660c34932f9),
(0xedbe9bd6f16782a5a00d7003488b9291faa4f22c9602c736a36985870995d25d, 0x64569751212d2f6ec2e7a6a8973be7fbc49d7a0c8857fe76f9c48011735179ed),
(0x1f477d331fb16ac745c29e4877df8c1783f69e855a111a30e4717fc8ebf85377, 0x64c947cf064a66ad8a417bae1bbc1cff56826349e024d3bcbc4a9078f4bda708),
(0xb8ef8b11901602cc9fd1559fc4bd6bdb22f9bb7d8b289c6bfdae85c3e9aa3e9a, 0x60b3594a7349c92033d816fb295f41b27c4d1d86b4c9d2e202cc3f4fe603f582),
(0xeb6b31eb198741f749e4b69f85c23e4b58e3223bdf8537cf60a94411f03e0071, 0x576746c8ba579896969c228d67a57cd88501e27c773a344435b7e860bec9f471),
(0x47193aec0aeae207ad675228f4506db840a316a26cdb328c2af6c24bbd5e9a8b, 0xdc67bbbdca7cfeb5981571f57022986a4ec3e408b641c34a57b7cfd55139a1ad),
(0xae3c9591c2768a02f99b00769c56fdf301a98fae1eca368038698abb1d44f961, 0xba9b0c4290c2fb0aad84754be1c3fa0d7e34f737f3874af04ed2824a46efdb24),
(0x178ef5428c4cc38ff088c38371f0ead14e7b44236d90bc7e9ffc3db2fdbe9b9d, 0xa5f01afd74aa9324b10f604127ccae1924da7b23072269efab984fe6ba1b347b),
(0x2df7e5c13d0fdda33ef8f69bf0ebe1d08649b1068c965d9737a7e9b3c13f4c92, 0xeddbf5c6324853c37d478864a68d0b402c28ac46295c00c22359e10dd0693d94),
(0x671abd13fe274da6a5cb6119f33fc88e37ee1b7559adf215e08fcead0ee946b8, 0x49d7cd3f3b8162f4a85787c691bc29fd69eaccb71354bbc28ba172278a8689fc),
(0xb69fbdbee72b14186fab59f06b57d940fb8cb5cd92c53727a0eed42e532ed39e, 0x71f488d2e104d21fc816631ed774a71494c0c609c86ee0520210113d672ea302),
(0x1d5b8e6a25fcc50ea4a5429b6233e27647d978d128a5f495a66b1b12d7cd8714, 0x8428efabd2bd23c32de8da3bcb630ee7ebe84541ec3eff60645ec4fa003978a6),
(0x4844a10effce265b1a5338e6a10c4f18b95b0681bd702e309a376e237fcefa22, 0x9018e1d0034bf225b4826e42565a76d943c868c3168d74b933b3459698b5192b),
(0x9567ea6e231a9c9c3ea5bd8359b7340cdff96e3fd1fa7a5bc56c88a1a57d951c, 0x507e21e0cc59bab1f2c38cb342b9f83b0f291992a0c83edb4cb62b496c54759b),
(0x60f2f71471258f566de747740eda196e46a30d663dc0b3081cbad66272f07bcc, 0x12588be3f62dd2c81e485efc76c754d2de642f53d3937c68f058c61bed7b6c22),
(0x4276ad320b33ba53ef2ab0af9fc42af66c7bb23dc7b7a9df9c00e1ddf76b6283, 0x9c477729c61fccfc0a2dc0c3c3a9ac89b98f437fbb221be1268a6f175d0dcd9b),
(0xfa3ec157f8186c363419d8184473745bfdd2d054e0c16e1efccd514e095c9336, 0xa7864a6891aec12cfe8104a0eb3cbec44a90738011a3acbbd5fb6680289cfa2a),
(0x7d7d2728b1db5fdc38ad6a753f39df2288d50838b106475e28ba6eb75248b600, 0x25d9d4548b50573916ec7bcc877f6aefe2641eee8f78f1b1a7f74c1140173e1c),
(0x8cb9cc7e4ec87013b6994670aae06b1aa4785c06614ca24d00cb65346592ffb9, 0x728c4a8b36bf36b2a0bedad9144c326171df8448e87d151bd8bee067769113c1),
(0x8a9aadfc84aa81d446442635d47a9a4e988e64de06fe883679b8de44f57c0169, 0x60f39bce0be18abd10afefa02d076d49073d961510017a1f469eab8ac15eab60),
(0x3ea01e463a9bfcfa391252167b6ce7715fb309e437d495b7852be3c1af2a0b5f, 0x2b756a0675da2633b8d2650aa2102738d59184209c57dd647b4c6c2cc5250252),
(0xa0683395c5245bdc24b2b275e8c2a19605068fda253343f749ab56e893672c4c, 0x7f25a7ca92d25547975ddfabfe50c2476b4855cb8f9ec4b8ecbe9271779431ea),
(0xb8293e681e33b6547d2902ce3addaeed2fcc021acf7ee3969be12661b2abfb5e, 0x7943e6b6fd0c90fa824b1e8d25d63a1bc01f16fd3c9e2254e1dc35fe416a5afb),
(0x412722e8ba1809cf2df25d5a49c7648db19e42c73cc30b7e1107ee4bf0aabaa1, 0x557a299c38ef6a7561d79a10ea052a52818ce67e1b341c1ad70b984e8e41fa39),
(0x7a62c6faf4a1f6fe4a45aa48a854a16da2fb19a1a5647e3e28a35d0f619b2844, 0xdab316416241ad423e7ee774acb52a9626b4b6caa4ea0b4a67a513fd9637dfd4),
(0xc3915b0c0019df990ac0ef053a07b36d62643630201073b28e3ec5886714a695, 0x8f21f1363cb4ff42a52f74b4b10f1dc35bcd782db477ecf638866d79541de3bf),
(0x2a373fd3ddd125473e30efe25533316f355dd52a6854d7f48144d19b648f4b59, 0x2ba90aa0b3de3887c1ba231f49b28294677adcb32e81c2f03c563e0d221260a3),
(0xd8729e1246cc8a52a5c9b7eedcdf4d3b3d0ff8aa6efafdc5ddf374802dda4476, 0x1966d7a87e527a7abc1e829f90e4e3e8f4a7df3048f098c0df8a5eb002a8bc40),
(0xce45fb7d2ccb83afdd1662e03ffec83b5173dd2e448eaa87edc980f910a20dfa, 0x05973238531c5a841388c6563d4f357941283e3144d84ea331374d8de2122244),
(0x00230a69f0fff585a11637024b16481f65bf27a53ad7992d47ec8ff5edfe073e, 0x61ae3fbd90f157ba6332de25a571777c30d8144be12d9a2542bc18771b6abedd),
(0xd7f914961bdd4fe47b538429df2bee94cc4d66d9270da392a85e8c621527700b, 0x67ee91840bb2cb2b9671aaec57634814b6a1a9f5dd0430e66c5e27745afa9f13),
(0x4f2e459b3eac734941cb81d92d8b3942ee7b0dedb2d9d8c190ff390caff7e4c3, 0x4188f6bec3526afa2b29f953f5044bf38e583c27395c9f8c979ff539b4198e17),
(0x8a4a7b6c3b598e42851b0913209a95fdedf0f8be6f152b331dac61a26f9b6997, 0x53c457a9f892641563e85b0cb39ac9ee69b31c655e3bc200d37d86aed4291997),
(0xa48f69c29dbbc92278a5f8b44a2fa2bef432a4d1e6fcfda38ad60dbe6d157990, 0x0f251873152f4ec8fe5fc88b0cdf28aeacef895b1d0f0ce444105e147ac0ff22),
(0xfc0ec54e20f7e8b1fed5cc89d18a5004b7aa55ba7520dc18c9cbd9357c78eb4c, 0x17374d8d36116ef649b723af62a483504bd47bd4c17c7990fb0e119b47f21ba8),
(0x8203924d9fc7e5d706e3c593ad439d3f8512c0fe5c298163c8caaa3df7b39755, 0xa224b743258a82ac2dec871adca1dafc2bfa8e33b221778502b97e572e1344f7),
(0xc4f66a17a595217d58d5b5b5da997a7c79b870c0f5fa9ddee146fa5dc21f9380, 0x13bc8ef7ce6f915efd7a3522f5fb9c3bac603d0e343d344c74565eb9e8e3c777),
(0x4341f0a1efdd7d68435f1998559e43b77d1c6780d3d3e7e6212efd965b30cb47, 0x1777a4501a693970c2bf759ba253e716b17cd5eb9a247d47cc38242448ae90a1),
(0x865d8a50ad3b8c21f8ff0e928e853789a607abe6e155b04b03b81d80c97c29d4, 0x2a506b83c4166a1efdc32c2fb2d027e4837d9989a82d08eea31a46c9dc72b272),
(0xd8d95cfaac50b79f3189093d50b03b383b7985323f01ba52d76f033c83c832e2, 0xcddf6560d99422285a3c0f1858a7c27dfd7b8bac9b23477d8677a1a3c01a8454),
(0x0d09fa598ae6588360247b05519aef862b1c5196d38aed11e8350fe05bfd6cd0, 0x45f51a976744568037b1bde9866968346dfaca49719c5174a9f9eea292ed4ab8)]

/-- secp256k1_pre_g[6016..6079], /repo/src/precomputed_ecmult.c:6058-6121 -/
def g11_6 : List (Nat × Nat) := [
(0xe19796c9c9b48a5e59556b729d9b807371cd7267812b044d637aae50d6d3d1d3, 0x1b86acc0d904a31ab5637e18872eb31d326179302f3d6bb9360166539f218d89),
(0x6a88899fbe0c3c8296fd27f86f89283af83df13ca273217c0fef69d8b048afb8, 0x68ba38ccbee044a7a026ada9d51e8d4997083dfdf65bd483a45eb58d5cc774b0),
(0xe5082ab6a112848f9f5f33628be3e26787e24cbc6d5563c07addeed70ee44662, 0xc3c1727cd0c091308323326d210a68d368bcbf810bb3814fdcfe6631d42968da),
(0x795f456f5d0cc15c72ea286cc881d8a021294e05cf80ef7f4497caea92235487, 0xbea99154424f54d1e91322ccc52d3a514627fb1b2fe9062d91d9017720530ccd),
(0x6e9e5f968c233f4d8d2bcb8f25d9232bf2230e9efbafc89cdca174988d7909ba, 0x3f8b0b0fe60aaf3a89f5de7935f9979aac3f3fc6fb161d3f29ab2ad5d50411e2),
(0x72ef1e8889cb7f2219b4a7ac92d5678ea04c898c5b83128a1f7fa8a163772f28, 0xdffb88e53f348c29411e4d473ccd7d418a0617a26a640a9c4b03aa0815ab10d3),
(0x4a91fcd432f6d2e7ad20787d749524b2e3e1c34831b41041c311421c1aff04f1, 0xbcd9108e6e8c6da6a15156c55c9d60bee4aecad3b0756cd581b1eaf0ad300b9f),
(0x5f5255d98c7465d663fb4507ac9856298a434d5d0429d5a97b645256e2cebab2, 0x7c38536c31e7331a362fc94438510aedbad4cf29bf0e7cabc995ac6c1fec04ec),
(0x866b5f8da735ab93e84f7811a33f160440a513737b52e6757f212c8d65c9eb05, 0xaf2cfb6f9e32f4125f1c66ac61393756b8c6016f9d45a58b043e16c6d3549be5),
(0x00636aca387e767f4702fb3ad7b50b4c4b40fb782c8c44b3a298051dbb3a71f1, 0x070e580b6993c9ac5a48c2f7558773c1f5c4ff3faa929635a2a44e97c0eacae9),
(0x31a28d8c2205f5c575ddd8610df94bfa5b6b6e3883797d1c07d4a48705fcf7f7, 0xa790eae6788407dc89df860a9ac250118b8c65f5f47e0bae6aae95ee2d733698),
(0xc7f36e08bcea178f7acb0b92fdb32411a028ce88be5e3480a47c2c88891827c8, 0x5c2850104742764e7df86e80e6e2d975472abeb1bd5664d3a994289c112a9e9d),
(0x85a82c692a5e248f42a3f0d3e092840cde52e31f19a2a16185b2ad106afd92d3, 0xeeec281e55c79f17332c4ce07ac4edc4a3d75e67558b4b3e4dc865326132155c),
(0xe67482d24c2e3a753c1fa968bf120a4b07883d00950bb0bdef5472e0dfb09287, 0xf9801b51e0450fcb9e405ebfcb535355024db5e991bf15726f446aad34ae4194),
(0xc6ba17e781fad656c9c93e5436409414c58e2761b0297b8e1811dd6862779f1a, 0x92583a9c515a096e8691b3844104419dc4e8696604da70b3afcfceb4b9d74c92),
(0x67cf02c5a616b59addd421dd15812e95f36e6d16af50166309e60dd4a8706b24, 0x7856ad728a5f0d18bf4bc3d375468f857bbdb1c1206fcbc407ae66b56ac91b29),
(0x72bb64a0aa8c690e7bb6ed99847488b9f37490cba7fa120ea7b5df108fce4b61, 0x6057c37e198f64283b9481f053441e97dc827cdeedc554105108fdbaa14d81bb),
(0x1b132067209e179a5b77977beb81aea1c480b32d081729c532d100df310575cb, 0x67482a94b5ddae4fcfd613eb68680dd6c8172553018478bf79b5c07ab0cd817b),
(0x96f5f1264b68fd7ef633330ef32951c003716b627d1f336800703447f9dbb5a0, 0x941fa02fc6262bcfdccb1cdd1637c9cf719077c81b26e7e72bb8fe4a4d530e19),
(0x953359079c15cfa4a674ce65113127f7a1ce740aecceef55da5ceed8e4e56a51, 0x57ee067a5f506b145c1c20ad6e5d6b119bca103a60c2e6e3b5049b4d0db15baa),
(0x72ca7d4176c687b21125c290e737075a3281ce7d76b72725c7680956e0463f23, 0x1e6a85aa246b0f1b324365fd19809840242fef0e6d658caecc84bbc3ad56af44),
(0xd5376a102cf819b3a439feecb04d9fa3c90d76c3b9bb749fbcd6aa26039ed5ea, 0x3659d2df266a0ff9c2854f6ef5a5ab041c0d854777fd4f75320e064cc4d0a4da),
(0x664a26cfa965b59d10c05dd6e0aa4e6bc66f356fbb61b699113a83d9e0a2b4ff, 0xfd191a92c88d577e47e725eba3c38b3b9074bc42016c5d6b4edb3af72c4e20f9),
(0x07729abfecf9ca40e88679367fef2d8429bd877a56f367801e6772738e8cba7e, 0xd5cb751742c9de1184dcbfb75c9e139ba59b6255b59c7ef8539de55e7a709d36),
(0xc6d5f50fe8e784db630bc589b4df5810a20014829ca1608acd3e363407bd8141, 0xeedd06e795d063ef3d1627f0bc7ef37da484658061e472b889679d3cd88ab294),
(0xbaa60dda3cf83a1182dc2ef4f79d362e6b32304f896d30a5b363c63956ec70d9, 0xcc9e627475feba44b93451d2753e94a2853152777674b3fbc67490e53627043b),
(0x370243c092b957c474df755fe095132149dd36691a89fa84e43a06688ca235ff, 0xbbe8ff046600f245349fbf3b1c8ff04d08d511853e35d13b30deba9184383ba2),
(0x0118229192b1e7682abe56b19f90e41ac882edb227b25559ce4448cbdd19ff06, 0x24271274e6156ea9e3f82ba28a72d4768509dfadb985c200244687d58a11c1be),
(0x0dd134e00e4fe67238716aa4edba1ad706879be68b5bb029b32704b79edfb2b6, 0x7aed539840cd7dd47e94c224151627a562f6a5192f0d0b5c416e6f1e5e8a337f),
(0xab7e722f458d3acb0ad28a292f90cd8fc2e09b2a2beff3f8f08517dce673e3a3, 0x522a2227c724f9bf1ae08d93c4c6ffc2f54341737fbfa502d6e49b1c2ec4c792),
(0x2fa16842ebebd6fae6c67327bd5fdcdc7e985b1c22dfe30723a9e2dcec43df8d, 0xf027937c9624aaf1ccbf7c5866bdd9d405bbb279c2a378139166b72032030773),
(0xadf5e014e1f18c38fd1863cf76a6dcfe65827107fbe0eb99117a859bc5268bc5, 0xc9cb3584728b177116985b28f5259aa5279e15a81c1cc6b92b9e5f8a6206961d),
(0xd939322ba9b2cff26a2b1c4b5ffcd96d822dde66ad0aca31c24a8260c9fc6d26, 0x162fb6546118a68d7fb88bdb3e3ab7849278a5eb13a940e33228580a2258c8f5),
(0x18fb262171f79e5f46c0087cac8e55d966f29a49e2c91363589007873d7e3a6d, 0xcac82dd24a0f75eeadfe906eccafd36c5b0c97d9cb150fcfd08b28cb83787a05),
(0xb8c0ac075d009e4b5ee4429889864cf60fd54092df835ec26658c90257b670d3, 0x2dbc6d4b6ff28cc114e1f34d2b6cbe527ca7dead24f8468104407c4ea0df0bdb),
(0x6477536e43a3ba018988c8ba753d732f9ec061a349f7826e2c426ae53f2232bc, 0xede465d76b7798de832e5f68512cf3c4d17282a5ef88725b036d8af15c5d2679),
(0x55b052a652008a8341135e55ef7de2b133eca8b9ea0c4800ce4f80195f7067db, 0xa823cc0563efbc19d47c2c925771497aef6377a38be0d23c81a56f0625c43e56),
(0xc86a02fdbecc364716c58f5df3f150da6ba864992df09dd582b9653f10cc9289, 0x263d1b5eeff52a271a9c46ee8adf11941da9d3bfe69f62b7262099af43d6fe3a),
(0x23c659e03a59381b3d47beea60f0244f66af05965f903297c53aeeaad143e90a, 0x1c14650e3aa16bd5b67e6077be307cac2bd2cd39b246d6f7216d73dddacbaf64),
(0x2f6d8482734aff4e21094c392c5fe8331c8f97564de252c2f6f690ad08b2fa9d, 0x8b143db307e14b403fa98a74a81adc79c34f17ce5c9e6f21687709571eb639ae),
(0x6d58e265d6b08c0bb050ee185175a9ed51b5c64fd523ab35ed1457d2f9caf153, 0xd0675517eb71ed0c4fbb86c6a2b4a7df259a77953293777f3a87f6202265edee),
(0x4af09f2f0069d7b96676f472d7f2009b0f0bb6f0986f502f322afacb7e9d570f, 0x1f93342bddfe589652e8b64fa348f3335396012d3e87088505b31024f14f8e7f),
(0x813e446f87d923abad8b864971b1ca39d00217f8232a71ccd63467983a9a0e9b, 0x8ce9f4b3541a8029f14767282bedf1f4367ff25760f2ccce7b273b2cdccff418),
(0x53c4fd57ca0b1eb87f5ca0f23ecae8ebc44e9c19aee3477a3ca8524edcdefaf7, 0xb3db3613aa916430a3227d7335bd053274c122b818e4ac52858e513fc3ab95a4),
(0xe0f8afc20ec894110d9263552c33af71328331dc9c9452feb0665c39ae90121f, 0x13523c161a00784bf15d286715cc05ec227248ff80082e73ecb139e8f229eb4e),
(0xfe3efcee6b82a5b5a8c9a51dccc11f01ef8f1a7e0588ec4b17ba1369cc6bb80b, 0xbe17246a4d8660ca98d57f07ddbabc29650f9a899da60a53d21c6c96dfdee15e),
(0x8a5182ea591089a511ba9f19ce4fe06231b7e2ceec4cf75e5c11094b9ddc8de5, 0x073688ccf13d97eb19a86c2d8b0104061c69ca94fc9ec90d8ada10ae37503600),
(0x2d95aecf72501ef8e20bc11722dbcc0938c552f8f4e0596c9974d62ba99fc884, 0x7d9c418ee1745ac9e8f5e4c39ada4400e65acb22d336bcc9fa2cdbe997f7de88),
(0x7908e4f6ede4d3113dfaf1149bf6e40fe1f8e33d720944485105a11321d18b80, 0x11d92d749b011e835e06d7e601103cbebf958d8dbd47d0b01ac2ad2202f7d275),
(0x2c6dc24a687d843744baf725c75e75240c0e6571f32817f440183b6ecbaa9f95, 0x9692bdaa775b832b48584ccf713421e75074f1b7ed5477f104335db27abf03bc),
(0xa019d9a04a9780c943dd65fbb87534cbab7c0831f845e7240d663578ec7bc090, 0x38de35e6faa2a1aee0649333898a6ca9264dcdd5ad9f289def7501109bc99d4d),
(0xced934dd5c15335dd050af1da8295d2ebd9b827258d689acf4a48d855ef8a0d9, 0xbc0c92371ee7fe7b69c7c100e5258c9f1d68b6dc309736e4e05718dc3a49cb6b),
(0x65e5ffe6502ea7a147fe9c989cc745a3b5262bd3888069c392d1d1f0a08dbb83, 0xc80ee08084dc5e65de8df271c1132cabb8be293b69a390a6fb3932e851ffaf38),
(0xf4466d472365b6656d1947b06e67e3934c0e4f3b91d52ea61f4588f24d217655, 0x17afe3f72d384ccd9beb59c3d64353ba57713f03b8644e3c0eef45dbc74ae84e),
(0x66a80bd8ec0d08ef3d9aca5b4329198cb949ce847933ef2a10baac280dc98cea, 0x7457685c600a707d5fd5d5279f309b9d5b14e6681656869db041ba7797029537),
(0x240e36327c3f4c63afdb84d08586bf909b359c8d7012f9ffaec819864c44d597, 0xa701b76cd369e0137b627216f75d0ec9fa208b662d7075bba6b6d39c6a1cbb30),
(0x137f0df8cafdb26d036e1b57c427ce08444516daad1ca8069dd60e2f2ee23f92, 0xc29222199e4e7bf2f915913813e682736bb6a9986c015caa43cd30a5aec74a49),
(0x965fef87a63beddafd4b2e35e1d0baf917d5850b1f6beca464d4fae1997d3a41, 0x05f19603369108a5c599ce5622bbf02bcf541867a57cff2d8b52714830124ed3),
(0x1e2ca98e519c60e6cf7ff3c951cde109209188e06c68f4dcc22eacf134a4125e, 0xedaf4c8d8bb9703289f9fb0dd0023783fd35e77941773a00fb4289cdef8411bb),
(0xe8e0e2f0378595db68f96e6a882752bfdf039778e261375a47fd43942b68006d, 0x75b428221e2fbf9c42772d35e4bf1e0e8d3b1ad792ff25caa488b51d4ef7186f),
(0xa405f5b028e89d8179e7fa9c2ebac86cffd20ade60dc5226cfe6c91e5c2f6634, 0xc27ea4e3b0da9e580665f507842251077893d6cf5225d5d8a06f68d11d863550),
(0xbcbc3c777367168e169f3fcfdd2340cf9e6af955d6038a0cb763f0366f4564cd, 0xc7c120cf9913820140ec53390ec23f5c1ac0dd73c9f947dce19c034f7e7a502d),
(0xfd569bd514843a2de86ab2c0475e0c674959c04fbc230255db3e82d115cb0758, 0xaea9c73bbc083366fc5e31fc90a1da7266a9c43a9d16f6ee67bd56b79c354cc9),
(0xc2fdf561eca2e3b8f11074759cc43b9a789ef592e8afe885d88b9dba469c616b, 0x678f57fafb2e42fbbd1482d1e22c866e683e4fa76c1d27146540610d9cbd1360)]

/-- secp256k1_pre_g[6080..6143], /repo/src/precomputed_ecmult.c:6122-6185 -/
def g11_7 : List (Nat × Nat) := [
(0x50f20965510b33172836e1e2d6e00ea6160a9c712aa30bbfac527c629d8f4088, 0xfd9852c60974c6037e88bf45a279b565d1246924e3c4a0f48877b71669b68141),
(0x3f2934171e371e20cbe0a858e5984175ba465906fd64a7e6161c8a7e5847764c, 0x763e8dbe571ac3dc1e803f327e2f45857268774f01a45c509390dfd496bd374b),
(0x8276d399fe32e93165f2ef6a2f4198e7944bb9a3226b1a55fff52dced2b92b3d, 0xe955a59105c496a1623466be088c45a3f545527b4edd4283582c03f72a2d897b),
(0xe77e7701f4b405c35c8b7a6eee7d0637fa1f566fd2a2cb64531dbcc619a9e474, 0x23fae4c07661e588365ddde2063b97f2cca2023bc70633a10041a2eb1d3799cb),
(0x7ae8112a732d642825aa2eef102983004293962869e7eea93fbc7b3d2c5210a2, 0x3590e3490f878af67f7754f9abf4ffdc4d4f444248c1e0396071271fbe5971ce),
(0xf9fe96f68e20a4225b563483c1d2389a0ebd8a97b1b9accb0ed7bc518077771e, 0xcf3802de20b5ae42b1d1db65b033f2e3602ca08d972eed639234e1c148542478),
(0xb9c5eb6dab28292e49a76b3449cf903cdfe79b85f7797623924a4295bf0cd171, 0xadc0a5d818926d8d7bdc83fc72b2ed1119b87592900ae961ffbb165c4d5bced1),
(0xb7e25a763f3b8bd61c57da51bd90ab571df3fcab2800310430c44fa54a6a5765, 0xc471aa74babc3fb7dc80138c83940e42961f80a323e9741cc44607a80258141d),
(0x5808e4f3e01937f0e9c887ff8ea3a34f8fca4d8d7868a9d57de6d854a0582d71, 0xfee8cfef02d7889655dc956068e1a23a4308a8f77962c2e4f90b2ddc87f011bd),
(0x92ac7dd98da0a4e6609649433887974c5ec4b32f875c02ba1163d06cb424793b, 0x857b20468104a986a003059662039e6071c8f950b7f7f74616fcacbfb8eee5fa),
(0x5c38092ffba5798d48d0068dd10375631f40a693194584fb7199c409b85d52b2, 0x32b1d62815ee2555f582f16dd59c465867691e1b389d1fe3222b5444294ab391),
(0xad7beb62cec8aa9a0b619693eb40c47753e22897a0007693f10ce66421d5c15e, 0x49f981760a36029742402a9326e34a38cc8372783873b076f887c811e2bd98db),
(0xaa335f870c61f2e97d87355e2a1c2e51f2a0ac921cfd3cb75189f256386ef185, 0xb39741b2fc158d6a435bfa8e1a68eedf13deab27388032fafa22d649c9c9a8a0),
(0x854ef50924fa2fb49b7b7b4944ad8c9d8762788360ce8bd936e64f12a550356d, 0xc5af224696c7e32c0a385f7e3eb8326b7d9e353743a95c8f3010a1601d6f534b),
(0x71b6366e42a8e2c531ad6770ff01481f5a39c54ad38e0ac6f068117d8d5c9d5c, 0xd6684df592f085cd0aee831359bbceb01a357edfb36f8e14706245eff01db334),
(0x3a4d186955b698d05e760d758842bd1fcd869e84c2c29e444ca83bd03408d6b4, 0x5ddd1b1415ff793a80fc196a83ff2736e9791418fba7eb9871b51269170d9904),
(0xf596d2427e51e5ce0403d6730cbdd71b75550271dd2d7d93798832589d3c5739, 0xcb9ef0eaf6326a5f83e4042879675f81188763b1ec06fa263d7793cb82b4ceb0),
(0x4bb25028b559809015286b2aa8858e52227f3b119075077b3083fe1677efd4ef, 0xcb63c7c69de6503ad33ee35f95d4533e1e978f302762b478e88d18aa5c4ff098),
(0x77c7c0184c89f974df648e0dea57ee4073acd63fc6e22a556269ca4ea5dc1c99, 0x0978faba232a2b0a9cf3de55976ca950ce3f197ee774b2e0d4bd1e5fe65a1b41),
(0x0834d038926b1ff613dc90017d021bf40005bae5d3741460db68133261975c30, 0xf5624b83614f5e8210190b349f966fdecd4eeefbe3e6b046b3028d6c3807b475),
(0x370045a0a7f8a64ca2b9c64e85a07fe89a7f725b2cdec8db258b3d3ad9cf379e, 0xcbec192ccfc58b626b89d6d39b4bf62281e308b202aa3ddf51d4556137b1811c),
(0x613021646103ee821c3103d5f4d2aba4645816cfa67d94d8ca53dcc292ca36d2, 0x935e3db45ee1789ded8f0dedac0430e27317f38a876828509568feb815e20a1d),
(0x4d6868cd4df5b1eb8d27e045ef04209bc1dd0bd7aa7129378f7bc025e569d90f, 0xdc0079be850ab0abef9881ac740140c6958e12adedfcbd792f446d787157780a),
(0x43413ee9a35c7c44bc95369d38d9e7ed53175f1706f9eb546df9854093105549, 0x9eaef64f45b421d1ee80731fed61f658861feb4c72b5b2b0ec65982563172f7b),
(0x1e72834095183b28a443e00d6ae0192175844d9bffb1c77fc00d388a080a6b76, 0xd1931ac7fccf26d3a2ef72ece8c7ecefc51ad264ecca57487e9cfe5ed798428c),
(0x7b5995f0fb0b8246c588e39304499404415f0d03c91743176cb2f4aeb06960c0, 0x716c78490b6963a9f1a7998f49cfac4c42a329f877d7c8fe5b35f958ceb9c0eb),
(0x9c5efff902be6057f5223d4187fbafd1a59c364b239120a2fa1c45964fdad960, 0x4f4aa66ee42548c94d6cafa081e59ce70ab65cbd78027de600b1edaa25e6d7dd),
(0x46970472192c36903c7bd061dee19fee5f3a973ba70430f3581abae13a61e55d, 0x4d232a7762e04a36c62894d341665ff9ad8ba55d353d52cf44f392cf7787922b),
(0xadd62a3e583dce2c55e97257b64c26bf5e86b0db92962b3fa54e7c52ac00b32e, 0x3c700f82c5365611f3cb1ca9cb6b0c2adda80e04617142efeccfabee178d3dae),
(0x526115b534b212fd9836a98f853ab3c124bb68bfafc1d641b47d08d739566c4f, 0x29c983e602a4de194efa5b2a9cd4971d6a86c8e9f535d599ee04db95120fdf4b),
(0x87908ac3ee8f4e5f31aa08c0ac97e93b81ac75fe33bfbff07d4f09347c911f45, 0xb756def752c71c513f69235e8d515d6b0f3289a5a579b999a695a2f649586ba8),
(0x2d6e6ed5d2ea89126797b39608ac1b0ef876904bacbace80a2613b35d9bbdd11, 0xb1b6661350ee7a2bd149ec9b25a502a16ba6143d32da00f313cc389a7c0e480b),
(0xf076c9e98590180ddfd36cd6160c21fb7dc6026377435e7430f74cc3c46533f9, 0x2c9decd86da7b49b1b4d0a8f47aaaf9d19d9e8bb365c383b63726f64ae56fb98),
(0xfb52489b6d101de12f51720a60a7820784ab4dd839d05c9da3b9c349a74452d6, 0xf1a967aedeb5329efaac7381f3f0bc769eb8cc8978d5d56ef382a17d4c3baf4b),
(0x0dc1e91153b3435a8f23cb08a7b52f64a5e2870c9345896dab4ab8809710241c, 0x3468d632eb3a51fe133381ce2b5dc9a164f8eb689c019b0b7e48d50450e85630),
(0x2d8c675906c7856db7062c632aaffbee46779bdc777f0be20a64093d041d4000, 0xc7006ecab64904f29cd7baaa14a5226ae5c4b3fa068c62cf657890662eb8e8ca),
(0x31e9d361fa0041fdbb73665f2e1541f6c41764e778023272478cd7f8e9552f06, 0x62fdf4414effb45c5408a0dcc0a78041cbe39cac0562659cab8c2b891a940c11),
(0x792f50cf66aa0f00068bd7fbee12bf44e1fa666241c43d2f275a248c29459830, 0x633cf86aa3f10f3140aaffe1d04ee094aad1cc56129149c32702c33e40d91e3f),
(0xbe4f52ab8f6ad1f0664e4d28b67be76bc3d318f39f45570894060e032f8547b3, 0x22ffbfca44482e4019ef36d9209b426248d625917d81b6a157ad945a1878b4c1),
(0xbb693c4f7110d2d38bdcd6afd8b29b4380d003a7d0f6420be8d02cec3e7cf385, 0x3bdfb9c3948034e931904f13e3dcfa7813d3413f5c2daebc744bac879e4314b2),
(0x56e8a65d2eb188d464dd4280b987b5f98b92b8e434b6bb1d1800fc4af8f2deb5, 0x11cd5d1463777189f8c7d19ac692461bd21fa20ff12d19763b915fa433006cbc),
(0xf09d5cee514e56e59566953df8600a94cbad003e9c8982615bb998f6a5b8cbb4, 0xd07ee0a9a0e88f5d6da3d918d5f309ca7234373bd528cd8c21ee9ca53d1bafd0),
(0x58671c9f687ab0a6f6b7c687ef5467657f29ecd9d62500880d5887427b96fa6c, 0x70355403abefa39a72d893489a8251c2010d59df80b4d284f3f02246f3f6c60c),
(0x0e47ec1f8a7169d29c05cb9642ba126caff841f80c2edfcf25ec9303772eea78, 0xce97644c0ca604744c269973fdfbf169bf0fa37761737dd377692b9bac775c9d),
(0xed95cc7aa24a4ed41dfb019e31abc80d93ca5c04b0515f2c492e9105efdb12cc, 0x1602bbfaf17e8c1630ab470fbd8fd829b4a466ca9f2109047e0903c4e012d789),
(0xb6fa3ceda07a9cf4db71724209de8069216a7b514145470dd811755da2908a2e, 0x64f695ae7f19c7d117af6ca936dcb2df8715ff96c8134313c111da697a354dfe),
(0x2e3047cb4d21000739b8d5cee4884a5fae969eef898a600c2202da33239b3627, 0x197f37c07c11943e40328e3a3c7c11d8f2d77d168453263153b7cbd769808c9d),
(0x0df9c4467a691caeb8a01ec10a4a8ebc0fbbacfcca347aa539d56853c14ecd3e, 0xacf9554e906e86ba8459c108d49f7aa1e1e4b2ee9957101af16d43f77dfaf6aa),
(0xd452f3bb2e3e54c41f68267bf846f50499f39f285edb86cd68330ed9510aff54, 0x52c5d16b41eb102907f86a3028d1b6106f6c5aad61b63bd353d95b2bfd214755),
(0xcc196d069ad60096c4ba1057fa4fcd9c4a50b28b7822707422d531b9dd85a5be, 0xbd930456143882830b28cb67758c792e5f9d6c0e2d4c1a86745e0504ec902b24),
(0x4974252f9c246a451187b1b6546cbf27af9c21ccd03c7b37df7a604ba3b6859c, 0x276e69e5b85e324133f9ec76d628fee83af37bd8def6e677bba197399da14305),
(0x311548d2d9f880a717e776088574ff4c185cb0f0a9660ef67a94d0903e2fd845, 0x82b2dfdc2d0ca2e1d403c1db7593dc012043122afb50961ed5f8617418a3d7b7),
(0x300685684497d5d32c98d3ee1136a9afd5bbc79e340528cc4e0b3c5574e867f4, 0x57c141affd65005079ea563be9ebb161a7725bb8e41e3c13ec528b2ddf23430f),
(0x1c223f581f03b4fc68024db4876b743d8a2b635f988340f0d22c389c43d130a1, 0x9d99aaead3bd3b1a9891dae74a3dd8573a86b6436c623c006604b2114e27c133),
(0xa675c89a5d453821429109cf45cac77a0880e0e6396a0b4f16053ff9eabfe4c1, 0x8cda99bfc3426739c4888767113b7f4c9b321a611b63b4d12dd50a79d80b90f7),
(0xe990a236d7854ca73e40c66193dbf3ab741983511236988bcca29eef772b32c3, 0xa3d42c05851b8138ef1bbb7b41510bb6fc893baa928c98ac91127b3ba100aa12),
(0x02a6eff8af4b80492c3d31edf6672d1cd0b231d76deeb590a8d0c4c083586027, 0x2a7427d6951e07fc4d5cd4f3ca8a34158f0d03c23cd2f250541c0f118013a623),
(0x7dad10619c4a7bd51edf6813daa8fb4a2a9e494f9835db8a42f4b0ca827df50a, 0x3e3b2b7ba44500d0277b792c8a529fb3416675601c4e443c9c2fb2e0dd17f1ee),
(0x39d5b1620fd487251bb42303b7b8887b092180faddbdfb7ba14ef2e03cc32aa0, 0x3a8bafa45645e4e9bf4e017569fad346210e65eafa92b971413a2190b64b6f09),
(0xf9ac329cba09d60b5aa62bed81e9ca157a3bc53dacd8383689742ef3cfcfd795, 0x9c2fff50aad80c182e6593ae796ada7a0e0a42a417ce77bdea7be927161be4ff),
(0x19adeabb6e9aea9cfe245329623b8bcb3554eff3999b0b0b8e03545014cd964f, 0x0c570d9999e9c62da3321f3fa548d43b99f05df3e17273cc2a45a3d920654cf8),
(0x978f705beb9b600922285468521eddaee71f65211ae795673b122090fd4eb3c3, 0x8eaa7bc61ae92adb506f9e32c66f54574e1d929bef4953cda1cd3f8dc98ff8ef),
(0xe29b57d8f6808d6bec982a12ac70afca1c9c19ffa7b0c7244fcc5b0e3dc2fcf1, 0xf7d60b14133721c3471fd91a864e576d84e5a06eb031b1fb3a2947b2a33b159b),
(0x72073aeef39510e281cca2d97831e53356cc60169462a9f045100dae3443bca8, 0xbd761539177458eedff87628d155c9a2d6a00e2651158def6ce72c3584d56a3c)]

/-- secp256k1_pre_g[5632..6143] in pieces of 64 entries -/
def g11 : List (List (Nat × Nat)) := [g11_0, g11_1, g11_2, g11_3, g11_4, g11_5, g11_6, g11_7]

end Secp.Model.PreG
