/-!
Generated from /repo/src/precomputed_ecmult.c:2088-2599: entries 2048 to 2559 of
`secp256k1_pre_g`, as pairs (x, y).
-/

namespace Secp.Model.PreG

/-- secp256k1_pre_g[2048..2111], /repo/src/precomputed_ecmult.c:2088-2151 -/
def g04_0 : List (Nat × Nat) := [
(0x22ca50390e660f601036dd7502bb973bdcd104b5dcb8f2e74de8edc6c292b03a, 0x86fd44711ef6b81e4416449a708fa0c9cb6731bac403e58eda5e915f646b11e8),
(0xcfc18f02cc004640f2116fdd1f6ca2022e39be25df75e27c80bde842e6b6f938, 0xd62b58df4f79d0e597ba2923f708cbe5c09236a4d9d013986451d6846290df7d),
(0x3388bcc23425458e991f46ca6235c50a57490556becbaf259d3c14f99a80a087, 0x7d4aa2f806f6578301c223166958fbf306c3dca5d4ac413b3102e13ea645c016),
(0xd26bd0131b8c12de3dd8fefc136d9f9544ac963d4cbcbaa802ba941ef0b46a19, 0x66f89ea331b6795c6b6948724cab492a0d045a7da6780653cb10ac25b68d3a99),
(0xdcd3370cdb67e8f2163960edfef5f66b465a03d4d447f5ca1d99d29e57d1fdb9, 0x8b93747a320abf872cf8d448393bf7328a9eb4bd9b64ded9922616a7347084ef),
(0x74074d05e602ad56337105af59c6381921d449bb3fe0806f80589f3f4f8d8e7a, 0x1a4d4bd4adee80ad044fd515a1dd5236bf0dd8f6c44782cfe19b8414b03d574d),
(0x0a89cc81f3a23ebb6a8df438a78092a9971203940d6bb4dd732373a82f05c174, 0x4b6f83dd676df0634e5ddc9fdb979dec326a9ce75707fd77873a9644a3c4fda4),
(0x8f1a10bafa913f0e1902ae36b07f964a6443c540b60ace037dda380f6616424c, 0x1028d64445c177c324416ad4e740f31d14e3a462d5a0326e869985555de5525f),
(0xad8fda7914f9a236a7957268ada499ad9154a2f8478fa6d6f4c7404889e27b51, 0x9ca1d2ab1f7da6c6f76deffc05c3c933703b74f0260638346174e4be320e82ae),
(0x6c6e990a797b29704408cc246f238e2f2192700fe4fb3c874d15e32cfd67fbe7, 0x1ffc17980f3556599fa5b32cc040da3139811b8793d4d9e1be83061a3f91dac1),
(0x202b13ea31ad2abd9635351de09f237b9f86f75ca340a47cedc1f9a325118969, 0xc52fb505a14e37f4d5111184ebc81873868a4521700004c0fe3cc535181bcba0),
(0x5355f0a1025142fab0dc7c7cf9855953034053c612326f5fd2284291d7b748a5, 0x75bbe36a553501f6c1c8ff9de60ee3ef9cddd36a781c518f4b1ccf177e281949),
(0xb8852d78eacbdec9d1cf16644a83aec279a39ab134706235f913aeacc29829d7, 0x763bab5052b3c61fae42735d2e89ec3b8d51eed0f729e0faeb431613df183156),
(0xcab2e44b294df78e1c17d4d6a09ecd0d696d18e80b0f188beecced5b07057ae2, 0xf351b09a501a499aced49607c55b506ede28bfad05b20ed54059a06819ff2f43),
(0x1400b9c99c6d555a2bd2355eb54b756bb16f9f36b9b866589d46853c57056b31, 0x8b29081662f41167a0a6993b3d4211df5709b91f96f24436e569c32adfa077a8),
(0x52ae372e973e9c1c687ae7a9a111446bb3d31b195588d8a50fbec6e6bfd9141e, 0xf982b40de6d0e42db9638721a4590db41f87cfccd8ece56b71ebfe0d82351ccb),
(0x3d14ffbd40824625be241e14850dc0301139b708b937f2e0fe5f65db61899c24, 0xb10a64fa477ee0474d9cf16b8d2213a2799882efd3766872981fc76188a1dfb7),
(0xc6f52adf54e0c197a8bbc2700d4c987be7ab3fd1a95fe46e82415ecdbaa48930, 0x7524c06fb53873b49050281c099fa44bb9ef91932adeba8f77e5afd93856811d),
(0x90089264bdc47cb67a3c838a4c79c1c05f2d1dd806d18f559fe60a3ec944c1aa, 0x18963846d70b32266a9d582cc430e4b6ca140bcb91de7064eea0fb39d2ee04de),
(0xe27c24ea478b37c16275b2d4ce8212a52db7416696f3c6ebc1bf7091efda0662, 0x27ec5279c3a267cbfad532bb5031791bbb99f4dafc3b7b7d8537cf0912783de3),
(0xca5daa129cf1d6eb70025d857955d3bf2549b8ee6064092b917eff84c40a3eb2, 0x682d4905500f6f7d33e7c7c27d420b4b7c4aa5f277b89e9ef6a84259de7a9811),
(0x9069ec0f2b2ac68846623fb5c89d14246c98ac5b4250c1704871699efc877f55, 0xcc500ec4eff8371216c0617ee2407dfea6c3c3a8c8b80266975d3a56e71fb05e),
(0x5fe1feeb0bd5ee1b6ba742d3c5e8aba00536393c0592650fb8cb1391c3bda16c, 0xdb11b32701ac64ed3425ba068072f76fea02ae6a4375daf53bf942b79865a34b),
(0x0a4a91a5f168f88349035b6cf90e4e0a6bf2602a85e0ccb831866c4aac1b2c34, 0x05bfeea8fe36ed1d18af2ff8e2b898aaff7265a9c08f4857ce0820307f837596),
(0xf4135f36f0c35b524a8705054eaabe4d43f5366ed3c7d9e35f06f746fa884849, 0x1c6707f1b8b6c078b4d9d0ea43075d75ba1a5d30c3a9c52dd55fc4b2650c526b),
(0xd5a8998a9363fbaed2b44992883e84b8014a504d92b41e0fdcc3a9f394380203, 0x96016b036fddc8058bb8ae7c6d46cd7f2f20c5afa62abd4b0bf9b3daea60e9fb),
(0x8804ca3404b30dbd0a07fb62210c1938d50297e79910dfa8cc38b9be4bf3d176, 0x5b64bee579927c637788c55ff3871631eb65db50b11cac9124caede757d37b0d),
(0x8691c1fc440c21b6bc48e78e78bda5a50c947c747d098e740ac5dbf62b811021, 0xfd8ec1c535f51181556c330af02a7110682f4539f66c1c0903d48bcad7b1787e),
(0x445fc1f6343be2e1fdebfe3f894e9293c3ee5fabb0ed01eb58a40637ef093229, 0x857f17fe6737f853d04aa1b73eded13bc3c087f348da90af32907bdb7d85b605),
(0x5c397fdea657d1b0b2e3aaf95b88c4d6af1a5555a1dcf9667d1c5001a76493b4, 0x9ce748207b6f3c752d736aee6a9fc54fce5cb52cf487fd32de79a06fdf0aff0a),
(0x9b5565cb28d7e028361d2bc5bdfe1912d9f53584372d30c1d7e36fa4c7fc1b7e, 0x7d5cfa8d2de2a83258a57f054e3f6c6da23af075d98b062d82799b1163879eea),
(0xafbdec631bbf870d3971b16571bb195aa5229a9f1012bb4b89654da3c9194f1d, 0xcfcba749b9492525f9874ad1bbb0a26783fe57141f54316a773c24538f27e296),
(0x7712abcbca3a53475cbc61605e9e9ec7a7cc11c62c4b3f4d0e01d688acad916b, 0x7b91c9bc0eb12555ad2b43af8c3bd332b57cbbfd1ffefead0c68f0a26a4b82fb),
(0x3c452346f2935e412e5fe506fdf5066b11b43a1166e75c9f07a2d38b1ca2b7e2, 0xfd3f6de127f968293af532f8d4811fd90e02038a352b66962c608c7ff59cd800),
(0x0bd8582fb4dbda3fc7da53d670c994b8e04eda44ddf0b0547d182db0aa48b7be, 0x799e2769c18268bb8c16b282ee7d0828ef0dc4b79767033ad6de8c6345285c68),
(0xc41010a78dd9dd4062bfb71c1691338fbefe03ead99eb71974dce6cfb2c84112, 0x5008c39de71ebc223b1c5dbcf824a63cf270f8073143e08d29b162da42a2ff83),
(0xe89e807e6cf4ba27006586a6a509bc8ff786bc5ddedb5f4a1b6253cc2521d311, 0xaadecb797c4948de9379fcfc4c0400292228f9c1c099117aad6d9949f2fea2cc),
(0x363df1b3be2dbf906413791951218c3484091f73866f3fdbdca1b90fdcb08577, 0x0aefd04e5634e36c49621493f7e76f20f9ea5b646309a6057e3bdf0f75848bae),
(0x5c8d163883d2824e4812132285cc44bbca8fe33a34d5c3becd4a3c8bc78ea16e, 0xf66f91d9c7ce66c08950059149f7525a355347df8f31a685872aebae1ac0456f),
(0x10ac6676083583edd837789eed9254da4181dd58be75dff408085e87eacbe126, 0x6d3eaade23f3e7bb07465acb0c6b25af72e0dba01815ea1a01f57ebebb17d22d),
(0x1e79a1ea7bb65540445677962208ea3e974c4c0f9b61f7da8dba697a8c153048, 0xb63e3d7920a34888689874064a8008ebe07d35be33a055dd394ef2a5f0787fc4),
(0xdb0d1c7397b0a23f508df2abb00ff13e1169911811d6476a7bebcd0953fa9a5b, 0x1c9d08773ca74f1ed19724312b5c8eef2f85fd416629cdc9d0b9e3284900dfe8),
(0xe1fdd7b3481ece8d266bdc2292e775bf96904223e620f622003a03edcb385f27, 0x3cfab39f28953ff70d6dee6583fdc6a7d9b31f93e2103e6d09e4066a970a4c77),
(0x967971342b69bb8f3d6701c922130c8f9ed85fe5bf1898803b2df11aa223ffd3, 0x2d43343f630b6f9f7c4b6d93cd29a3e6632c0dc6c095794e05997e470e631d31),
(0xdfb402186e27d494c69d2a0f399dd480ec0a776d9a99fba8cba81417d9c33efc, 0x332d91dce9f9327315e45bcb796030509bd8501c17820f4861f7b12b5d37796e),
(0x6b65c5ebed13dca451608da7b5c1a331171de0047fbe35e5189b8468c27681ec, 0x0afd0ee8e0aebc0b2f246b51f6fd4f853e71fc4df5bb9f43e2679c8e89a34f62),
(0xbc1c3da160b03965e26396aa5d426df3021e5c22fdfcd00480a390f528c4b619, 0xfd65717465e4fea90ad7862c0422c11b86ad94cd35acbbc8076ed464aca31640),
(0x589b1d1796d6ca3553f8a6a8cbc587e109026406c2c6f8e2de613dfa8c05913a, 0xe655d5ecac254f46e279365de3bba2a43c7b6469da45ec879742cbae503fb3e0),
(0x9e7263856d1e6c2a94dc2ef5c92d94bd6ada63cfcea756776125bf9878ae4ed5, 0x8c238df51e5b38f8b628a48e0dc7aa2b0a83bc4043c91896069f534160e304dd),
(0x12269d7814e0f74fba40c551b2080e004f9bd3af255218d57eab5dbdc6764263, 0x0f0f70bd6584975c106febcdbbd16920daee58c7c22dda704a95f864e385b3d6),
(0xd3212f2fcc509014e0c48cdd6273effc5c73fdbf1676faa315e9173b573088a6, 0x39af39f10673f51f362618c849c6934cff59b6ea853fafc09db640844832df82),
(0xc535f72b9bcc0bad44014e724f6496234ef288fd9f42adccdae45a2084250052, 0x3f79985b6fb7631b62814a17f7ce829a88447302293000a74655c7ee4a271022),
(0x4f5b71269b169fa58602bb1860ed0df7271e3912ec0d7c121c80fad393399605, 0xb60fc1047f2a58ea9102c6cdb97c932a576f63f206204fb5dbe41363cdcfd0a7),
(0xcb459b3b244c38b1af2c2863e0029c140ec70e7d737a7851de9c8f1bb7d5d065, 0x7b67b15d3c0376c82f6462411e890b3aa888bd15692c90ea53a74a4f1957fbd0),
(0x787d61c70ebde0c518f121bb7f434196d389f563d1a46597ea72a1fa4e19054e, 0x5baf56f25fcf8cb8c271cf396b3d150bf42e9ebbd72b54ba4b93bcbeae72a658),
(0xc38afc2a31d0b0c94b77d97cbd6390823373538a602352bacc93b6ebc5f6115c, 0xb925dfcab138fcc24b9a26a4c645f8d5875e098bd2e584690d84268843ee529f),
(0x37661e3b8e606e95b9dc6ad5e5b9b25f39a5dd0b8ab7a82ad6ec879aff406d0a, 0xab735e5d430d8fce1317e07bd6cf944160d8bc39132382a4df1b1638a7e9b977),
(0xe5127851b8c22b47c3d8e9348dc0c67788ea5ad9f64e6062abd68a1651e256ba, 0x5847f77e00349eb790b4b7dc05537ffa5b1e7d4db87044b3f947f387270405c6),
(0xf3c7f45da6b8a8a13713e7cb7380fe06127a36980520bb41955647b9ad7382e9, 0x2acf9a11eb1b9d31f71decd0900936774b469301719d4a51ddfe5fbdf63e7c87),
(0x86de4047e8d5b252523733a1848a990a79125f953bb0e4de0ff4b2f084d745ba, 0x71e6a4720dac005d2b284cf7d5de92d3569211051a9ee0074279a74671bc969a),
(0xc6115c3072259d66d960cd963f3aa16a3029d9cac0c5ec635e2875c2f3f57504, 0x18d690d0b33fdd78d797f56c23c821a1ced024013443c77050d128509f7a712f),
(0xcb5450998b43473b91838cbd76929b058bfae0f1e2bfbc6ac61d367442f53c5b, 0x4119d74d79e34f08cd7684b4f9b9df55c00ba8ba7bfb4ddfde38db7891572bbf),
(0xd0dce704b9362bb4fb1771e2660a98a20a333b73c6d093725a752f2852922d2a, 0xf92c3b707947ce0df1f3891a259cc2ee124d3f54a4c518ffde5a391596e37e47),
(0xdb93e238e5aa598638eab8570655cc53d4270259e7d73a96249a19bf216b20a4, 0x8d19dc8b670e8eb650b4f60cd26ef6573ab17895c62fc94c815d7eb5fbbcc7c5)]

/-- secp256k1_pre_g[2112..2175], /repo/src/precomputed_ecmult.c:2152-2215 -/
def g04_1 : List (Nat × Nat) := [
(0xc387c37fd8cebef829e07e54b07961294d6c6cfcbbf11835ba85d4ef68c3f486, 0x852580d9ae7eb3006ca0f7d7f12d7fe7c8e3ae0db6258897994fe78e11ddeda9),
(0xebb58d34f04de55137c01b5b192bb4b64d3b22dd23ad9092f943749c7606c232, 0x1b979d059c99f9d4db1d3e82905abc9bd92ae72c509c912bc59488fcddd1ae16),
(0x7891cc66acfda29b765810b1730cad132f13178afbf238d82525ce4296e38e6b, 0x2219372920188c6c462987ad07ecaec3a21ff6e7db00adb972facf65367caaf1),
(0xc0b02542e4bc1e8d2c2578a53793fd8c0acec800c0a311f472c50de35814d081, 0x024bdc710f5917c001ae6bb571c0919776b1a884ebffd67313698bc1b57f8371),
(0xea15d574b8704507f12fd9a3e40ea603c2000cf44eb3d4b2f07a36b5c426d2dd, 0xb6596d4f4d8ca39f4e0faf58ab7e3894c5cdc16c589a524b6ca25a518a30944e),
(0x77d387dfc35a6af7b88d5726a249d34e708776981358c6726e51b779cf9604de, 0xe5daeecd2d70a962d2d3c23514fa2b1d45916506de01724993fcd9a4f08b4a87),
(0xa92742cb7d1a24fbc1a4dc2f9d6fefbb1064f9d4c3152db83296a9dc9dccd7ec, 0x665a9cf98cdaf0a4ec346df60823f3c666d4f163b3e7225ad9d18e4231679f76),
(0x253e54f79f0c393d5d34053d37b55304f62de9da29e0eb6f36cb105fa6316a46, 0x54e168cded78ec0c32a9417ac5b27ef067c8577f8fe0bfd7b2ae33ebce7155e0),
(0xd13048e0e9c387206179586f9e38029a55fc01c7b33d84434ee45cc00003fbf2, 0x7c4466db94502477854906897b251c39af257840b9bc61e36407508084743f37),
(0xe9234110387c21222887d0797bdbc9aaa632b2372a5632c88e60465370a284a2, 0x2b98b08c4ca3521b4ffb3afe66f98ed9839a2651f740f63ae80b0cfb6f6523c4),
(0x302e03a7ab6978ef73891a5a7bb257647428341c94f8a71332ba9dad83a29be5, 0x4abe0adb210c35beb2ee850d2e56bb3f0e8430db644082eea98a2f835710120b),
(0x5370138944400f30dca0571eeb0f8c7a4fea8bdc31d688598d7cd15611665368, 0xca34566439c1f221a5731bbe5a9a36e1a712e2dbf16a6d1971b1a74feaa97cbe),
(0x8c0e8186645d7cb8fad2b6f7a5a2d399656aaadd5423cff49579529af28383cd, 0x2ef275ea14c449819307319d18fbb48263c6d24ec94e18ffcdcd77574c48d27f),
(0x64a7083126baa3c9a11615c45ff8ca99adddc512c697901dafc43d7a5fad8af5, 0xba43c48b59a65f6ac3a45c354bb17968148efe4a288f742c43253e70aafe29d5),
(0xfdbd066e82ff8e24b2f785e2e166245f63559acfb4f5668051db47aa5d438e06, 0x060dadcfa19ed8c2376a5d3828b9499e875731d5b2417def144e2a8412973d63),
(0xb287ccb81ff9073119ddba01d946151282cf15cf2dcb3e0af1b26f41eead174f, 0x6ff153397a9a0bee4b38a4635db66ed236d1beabc0039bd1acfbdc09fb74e090),
(0x18047a48b65234a4fa5f21888b3032fb3b3f845701bdec3c962d5cd7fd068116, 0x1362766918198832306c54446cea568180134209101a117b1f34e15a0624574b),
(0xf1d3b54fbe4e2ce588a2dd328a41e1366b74ffe95bd4aaae0ce7e7a80235f914, 0x37c25d41300e817eb4ae1471e8486232c0c2116597efe33be86d6277a8a3981a),
(0x9b0da9e95046dfab7ff509a6010ad56d9770da36c5e22a839ce3a36d853bec4a, 0x27d6034530c25a36e80bbc3ff43829cfdf757c191a2924d96da7750338135faa),
(0xd0833bd95155d18b0be55d403717568e2d3e4d24f2eb65f9f13d8d65d899c5cc, 0xe509aec3b5044ab511fb1e4c56db7146ffeefb82ec4e9de13c473bc9964741e8),
(0x8c41627c185f17e428a01b4027980e6bed62ad6217c9f8a626c329e22fc37117, 0x75ca226c3316a55237e8a1e7483f73eea36da441c732dca77d95b7b93a3662f7),
(0x371f0105e43aaa305cc7099e9a13b97c2d75c26e5b50b11e7cc6283b27728d27, 0xc969dbe7d0976d688cc6431204538eadb1194426cedf149b0293b80c6ab3ce99),
(0x5102f59a4238a358f8b4d3a185d864c2d94aeb837a8f3e03541ffbdc2ccb1710, 0x9e14c4f9adb63c3f4cd30606cd41cabd0bbffdc389e996ce9152209385ef1445),
(0x0ca21b6cfd40403c078353c7836162f0a7f57eafbd4a8cc26df2baa71ff08beb, 0x108a3c4647eba55b3fd9f2ef751edb0fd6b684821424bffee6ae3e581f7f12f9),
(0xd9cd44b3ff40d19ce8368bc8200e3dc97ec3642cacc407697c94e68a31d775d9, 0xb6b6fb6c683ef701d4cf7101079de4affd7c4a1b5babf3cb085c95eb485f0901),
(0x9a1354b2cbcb6888bb56442671bd4904510da5083fcc61e104fbdf4415a10360, 0x3f5f5291707c48b44da3a2a893e24037bc4927f381dd9b9b710e8b82874f953a),
(0xc5e55e0f271a81c4ae7deb0bceb0fdbe20fc60c538692941bd50ab9dad0fdf79, 0x138a0f35eab4930107a53e7cc62ae93a85ed9e7d708a00aecb10776ffdc83a63),
(0x5ebc2f647f66bd3d2290e4dc6cc5f6627c67ea720599d2c69a004aed9060f919, 0x68f7dbcedf2085e227cf7920653696373ec1e860b10c8f1e56e996d60854659c),
(0x4f28eb9c7d060dd05051a5a79a79c960161d7081d3a58b2da421075ccf966e03, 0xec37886105434741bb2aeb8e4a2afe7844849f3d2cf12a6c2eff3e05d267fafc),
(0xf50e20d1ce113e09850c7a9a10b347c99fa039ee57ec85c0efe15b4a1a83fe8f, 0x4db7c23190df41a28218595f61407f20cee4647827d54aa94db9bfc3fae975be),
(0xcce6b2d01adeab95dd78cdf2b55882bc79de945cd4249e76ab2841a3abeff5ef, 0x1d6906741312140afdf764bb560b1bd5bab1dbaf9fa26bd5604427e534626e52),
(0x55a65174fb10557d2ecc731215afcec1e4830be52d34bbbfbc80ed6e9f2d8475, 0xc69795f1de1e537a970dd412654938063f0623d4e7353eec611c8917278012c0),
(0x78221cfa7b4db3dc7e22779e97ac8d46d0c1d81976594ab0267ed28a6127f290, 0x8ddcd5edfd8e8c624883a1582eab5652ace0660c2e358b663ad53e90cbc46a54),
(0x9b985039441ee434ed4da39d6010782c9006cce28f92ff9602b2d6fa986ed178, 0xe1cf85c87b537b2b78bf67d22d9388c28a50dae173f003bb85fe5f9c12c6cfa4),
(0x9aa2ffb14a9e48de57db9d78d9b6757a6c27e7b0291dc4f38ae9f2040f7edf20, 0x771c7be378e0f794fe0066ef8592952d8f80d7d52772ca115ff8b7f6377d1040),
(0xd105908366a0b46317c510cb40922a0c949de2516d80ec021e359a89c6937e1f, 0x84053a25c9ea4414a897155c0c45e0da0e5e6f2faec780ac99c41545fac8630e),
(0x1f3ecacf7456984afedc2d8102a81f7f1ac58ad9c70ba7c23e7a2ff1f9c5d066, 0xc6add8fa2bfd24f173f4539ef21681f815f1f362e0f98d94cd435d8071a23e54),
(0xa312c709a16d0cad25551ece86c8f9475e504d06eb3524fe569cdca0da2c4371, 0x865ecc2aea04c5da2089ea2c66b5bb8408c1fc29ac7bf9690c778039b3ae7b03),
(0xf21c4675e829ba78fbcf64109c2eed388c3493db1017d69d953f32f6744197af, 0xfd2c673e43377caf5db0ee061a37b03d043d9373482d3ef2b37f74ad098b2f57),
(0x116174ea2a029a02fbcb2eb61851ab31f4836933a73bd4268feed7c018865692, 0x2123d027e1cead9db5fca2a2d6f5d1d525cf385544b64352ee772d4dd70aaefd),
(0x358e77d0919e4c6cf64a2117357e72d62334fcd0f5e7e60a962335fa73f9d663, 0x7ef8d6206f99f40310781985988ac7cfdcf5cdafa086a0cb8b5b6eb67837bc08),
(0x509f7e0d9e81f14639157e203165faac8056deb3a813460db86c6daabaa33fa9, 0x55148e1a340eb6c4e6a8645f93f1ad3bfd12165fc3bff090a095b8d2a0db6ea9),
(0x358e325c185f0e261e9e30c49346f21ca15c95bd438020b9ad9c7e6ad2a4ed09, 0x05fcc074c97715b2812ef6903b3d618554aa11bd34789b3d97f9b65f2d18c4b8),
(0x1e1c712dbc00af2d37f37e4ea2589e02e314c31047890d2608d36be3dda2fc4c, 0x04898f9ae3136bbe36798cf5ad30b38b974e7e75042d4c145bfb1f6a490655dc),
(0xa6516f9aaa3f79b0ff3b794dc80a959064e317207361b918bd797b5723ffcd1d, 0xc5934c6b59f3b83053f77b0747c7c312812373dcebdbcf9bed5503003a54f5d4),
(0xe46b48d88b1e1b84b9fab8240304446950cb5633da599b79295011b8b1098155, 0x43e9ba244a339976e342e551259743503e7c8a80cd950a80a5d79365b0c94f51),
(0xca7a509997a9c2e00625105b1df9e714e1cc2d4001227400e583370d3f65aa0b, 0xdd8ca4e4d2eecd1a20d994fcef7cb0ef19c61844cd2ce039b7a1eafe66e1f071),
(0x326b5ec0d29b576f111352d4b7786c408486599eec01ed0da390d58696313f08, 0xf4a3f171a4ac654be7aa60633d5b2a0dc2d5d3a03da4d26495e828a81011d384),
(0x0b76298254f5c75aa557038dbfe9bad97c5bf8eee512fe2b39293228e70d306d, 0x8b808f9fb36e3e862c75bb2d0d7de8be0cc85c75398496fbf92db3db143606c5),
(0x8bd624e12b1d36ffdde50a096f1a811bae66f1a5790654f5ef79a21b872286ca, 0x6687ea2ef4538961b6731c74744234af8bf6a2a2170544d0fe9b8057ad1f02df),
(0xed25eac72a9f92900bd414cccf846c65509d1c33d5573da42d78d25d05de48a9, 0x556fa9ed2710fd03b6d1583c682cd7bd8705a9d01f73a8b98f3a1eb500d89eaa),
(0xf1943b6c9ed76a849c67bc94c755fb300e8facc1de2800600df4b9e708bc02bf, 0x98c7ba0885dc4e0f6acbb64642cb876fa3156232df1f84b04818ca56882a40a7),
(0xc5b60b142de3ab8fb0c24276dcedae7b834228216ac8ef391d351832a5e9e5d3, 0xce86e4da1174e609f55e10d9014d4a5e33259578e07c1260e912acdf9eb5cd69),
(0x0b06638e706cfe633359647b253f99e1c7778200c168d4f592e2c409493755ab, 0xe6401fab1b4d5229136e249339f95357e16dd37b87e7f69d3e88a383cb44bbd5),
(0xcef8c1b5486dacfd29650ea5432fa563f0ec5fe46814bcd89f539b7d264b14cf, 0x080cc2c18d0b0be3000939ea761d72815ed4fd2ab252d66c9316aac11a5a2fcf),
(0xf616904df868f2a15fcdccac4198b1c162defb40269754f38e546da24b85d7ce, 0xfb971012344024c9f0bb93e0b73b31cfde8b4d37aaeae3e47f62633a7b8255b3),
(0x97386144bc7e4a7b33a51697902fef4d1613d8e5ed80a599a59f62c3f98632e3, 0xbd12d584584299392dd834a95431af2708e56065ba79bb6a5a806d360cfc16b4),
(0x946f130c7a70fa00f403a56f6656b2791eb08ddc0561311b551ce437bb0200c8, 0xacd698f6a5037e607f5a923f3af05784186d9794a7bf710507a66949e1945b8d),
(0xee0cf18472c453b00c38c064fc0d2589d5f1afc33423687d91740bdcc3929230, 0xd817775a7fecd397e954db12fca249908c773c28b36e991f79c782649fff8dc8),
(0xf335f7fe9542a58709d48b4f4ab1287fef0072894d93bc2123463a777d535d7b, 0x336e49a302465d2935389c06d8eafb4d7639dae9a6b19bf745518502e3350283),
(0x55bf81794fb37f8ddcc200d7b76a9040b1326d6c559d7f06f0eb0e0fc97e7739, 0xca33cf0079155cc1e902ade6f7d703ed3053f6a4f49d086632e930a2afe69bfc),
(0xdffccf816143da465ee2195fabb6d9431033b9012fe0c62349b7d6f629de29b0, 0x9bfdf3f6e1dc4ae7dc29fc06f85e1588c04bc39d5fded90bbfe75b9c74f0aff7),
(0xb9748c9425fc6fa2fe5c1395b556bb12c435bc112e8f577f3c5e7d823539dec3, 0xf5238bb2b995d23b5e96b2336d5141ecf76d31bc63aa96e3dfaca8a8c94007a2),
(0x92c43c54e951b15738f29e335f52ad9a2c5349e5fa6a39a3fb615878ae97f7ca, 0x7c7a6b73dedd1bca308924fc6364b62abdc4ae79d68a62bf71bb0195612b4a17)]

/-- secp256k1_pre_g[2176..2239], /repo/src/precomputed_ecmult.c:2216-2279 -/
def g04_2 : List (Nat × Nat) := [
(0x0b1937ea25995e55ee1ef139d7a589235677afe9f4726d96040b66b0d21eb272, 0xd0f95a57544ac7cfe6c3e0ca5e44494c5585c503a8ea99195a993180cf043dd6),
(0x2c1cd64dbd7ee24b2bc5a6b72009b788e2a5047a8d10dfc94a46d807c133f457, 0xfe8a63dfce7d7a4be7c31a1f05e688267a9449fa9e9ce30cfd8684b7660aabe3),
(0x4ff10a78be6ea8a2b6830649b0a403d66d5443686cc854ed447f53fc45004834, 0xb3cb30c356d505962e81cf5bf4e2db0de43384d728f5d8bdb362d287e58765d8),
(0x33f55b666c90665ab60a7c2a0c714591f877e8c80517344d9da03558f43d28de, 0x399848ab6aa95ed58ae0ea80c93931a2af146754385edce08c2a4f642d5163f6),
(0xb97123595a7237eb18b7cc150ff2d6be408da66d5885a636020887ab340d3e04, 0xa283a3bd643ac5a41b3f0ab8fc693146dd125f88fa87cead817788b3be72363a),
(0xd20f90676efa9435f602c1e9fff7338f5a4204a54d984dccf0ba5fc160a1035b, 0xac3a3c7a452003f87244406cea315175ca1af26f6645486f3faae77b8f404139),
(0x322d6ea3157c9f0d444b2d0bd072e19281d8b3e003ee2ef54e294b53fef41f2d, 0x838147f19dc12dde676a9e676a638c426e096df6ea62ba97ec359b4df92936b3),
(0x95925c08068341b6b7564ea7bae00b0d1d2bfacb94aae4cf8f29ed9efa0c26d5, 0x0c63edb913152232c255557b2207c2ecedf14cfcbdd246d02b46f7f876b92130),
(0x7592aab5d43618dda13fba71e3993cd7517a712d3da49664c06ee1bd3d1f70af, 0x554ee877af74284d5ac0aef1ccfa8ab27a9222ae977a1b457d79d38616eaa410),
(0xed9d298be13eb71f8631ad311b3916808062574a6053f503671d9a591209e0eb, 0x97a9abc0dab8886d9a07caa30f40d87d7b479efcd500eb6fe54ba1b89d85c3cb),
(0xcdfef636a5900bc3bd28daf3308d469b78ae69a2ffc39fcb9f8e4942fa355fad, 0xf8338fcc54c0ef4ea46a1c25591607aaf4f6c7c5378f2d5179f80e46520db6d7),
(0xf638cf220ca3bd6aca7a8fc426d9f5dbdbc0943d6a5875848ca52e6a7949db49, 0x56a267dd8309eab790b490039d595141653a79269fd1f732f3691e0a41675295),
(0x4340fef29b1e43f503c76cab163920b37a66163abc942e1e6387a2b18f14bd1c, 0x2d5a782d6889d353c6c908f0b6f7a9dd59ff2f158bbb9eb6ad62bc2b832210a0),
(0x78af868005e3db130cd2c01fbeeb826c1aa83296c6ed1a30bf2822f1a9b80991, 0x19c7ca3637a6ce912680d95b6b94f835ec458cdd86206a2a49d41af6248c3725),
(0xd87e590fe6a4bef754a831c013b3d5617206427938b96d4958a2ae11c9c41ef4, 0x3928a93ac9b43489f1fff97ff8ed4ebf53b97aa1b50896b3e30b40b9be1d1dc6),
(0xb59d19f369c547e94155cfd0a0b9076e85ea8569195b8a7f630a8446ddc54c32, 0xb8f5588affe7abe0e2b83d5528162c5f2d50827ec44a4357f81ff085da661865),
(0x34f643da7cd59b0003aa64cd81c143ab662726bd5eaf543a6d83d30c60f3ee78, 0x41574cf291a7f5735a0bd29b03ee5a3691906c1e3fa47b22d5204446f4501ee8),
(0x56ef37d0583e9de433f78757dc31c968fd007bf56b05db4ecac395d6233dbbf3, 0xa140e01ab5c898f910ae280753ba14eaba8cb5dfb9e9629a92c14b9adf5c9286),
(0x01e43f34815b568b1139ca5cb3a5dd42fc54dd7678454fc87e3dd00aedc957d7, 0x5cc38274ac96ee2078a82d9e64dc2bdc8e947afad043302c85d724f77e334cc8),
(0x0ce79e4935d2db7cd9a9046d3d81b7ddf8b06c8298f78eabad93062fc339a952, 0xfc2f6eee1b90626a5ad8c4943bc3cf5b8765c8f5fdc05dc7fffa08a1b84f9686),
(0xb4144804ca862c2670cc3365e1a00cf8f6766cc34b3dce2c76c40c3186fe4fd9, 0xe4368a1fca9b6e00a3f752f003a00fd429cbdaab5e2a04b87175b9ad51b2219c),
(0xeaa297247406f8248e79cf65ced49d395416341ec1bc46a70b71d4221f4fd39f, 0x68e7f81be3b75cc3de4d993285e21842d0d4b6cf038a1d46248dd28ba97c14a6),
(0x4e2d10ff1f7288bc3b8c6caa3dcbfc72eb7371c9f42c6999e7a2ec5030f5b6a5, 0x68da3c5cdf2a4fb0a93515ca3e417d006ba793f5eb678f82be88200f0a5a8774),
(0x834f21e1114dec962a8a4b45c67c28947d073b94457c1adce009dda2230659f1, 0xe9fa61b6edb5a0a02f7acb27d04a67c339263adb6320ca6ef78ac7fb25adc89c),
(0xa84b44aca0a64455a97268d7cd3d68fdc43caed9f9bdc381ece7139e30c7d0c7, 0x2f903f3b74e702bbd2fbde43f919af7bd12678793882cd6da05af2590bbf6b74),
(0x21219e0698bcb97747b1df66f9e0fa6e600cbe7cbb432cbdd413481f241d6789, 0x7a4388d3c8961874a897d9688b5d32662e6970be324bb736aefd189270954055),
(0xfa514e1f93bfccf688b4bbdbe4f498797b94654982a275626867b22f9baeafd4, 0xccd4821552572b4a9e087b518c930e092c2f6156c26a730a478f257da4f91b74),
(0xb60afbf1643099f0c0533a4a99bd8c2d2204d4f53f2fdffa4cafa02c79451ffb, 0x0fed8f901a029926cd4b3bd276bda6e9d321e0063eef3f43886eef8b4b21294b),
(0xf29cf9a3196ce34a86efcca6554694e817c2b76539c6cdefc74850e8a7ed76cd, 0x5130863af7c333cfb37f1bf62db5bacc994b29779951e8f62471129f88c9c5f7),
(0x9cd9e23acb00bfc51a3af34b03e23f1dd8fe314a322254ed563b9275c5084e4d, 0xecf0235cc66ea710151d6c1a17b317054f31bd4cf8d2a77d4d36fc4e1298e1d5),
(0x56f889b02cfa048af96d99a6be56a28218ed6691ab2b25bff3d3b6f5f6e5d65c, 0x352b20ea4a2372aff674f8248dc8fca1bb8ecc29ea0c8d921b7ea07b241fe4bc),
(0xde32beb7f8fad8fc16d69a7dd3def5568e2366e5246bfdea16c936ab5dff2a08, 0xd731f11c93a71c2246c2bd06fe265fabeaa216ccb0de1acba7c004d4249e145f),
(0x85ec7dc1dc1729d8c03dfa58fefaacdb7d12dc3af984a6930968895e2a6ba256, 0x523038af8e9aabcbf98c73b5afba31dd89e4b9f2ba1a841b194b0b459a4a747c),
(0xf794899560528ec1ed7f5efe42db8bf6e223280e2b26d4abe23a5caf41e2e141, 0x9f7594e296ed1f9886837e9fda8d6d9e58871e5616cdd2fcdd6fcb7b80c6ff98),
(0x588d6fd3b42088253d76e8eef01a93be866bd53ae228c13762199ce0f3454f10, 0xa5fc96533e41208bba3f29ade31b7e3206320b81ad0ded2c6d922a4bb42af573),
(0x186fe08dbbe5c8a756f87d4e8976777bb01db294e834659c0bf423de1ccc7443, 0xd99ded39a46f78203437a93a435fd0ca29f12e26a6449bdca256f99e9bdfbdc0),
(0xe549cb083055abf33b7eac38cee133362af22e9802f576bb5a06d5de59bd3d25, 0xcdf37f20e7b514836641c7f7afc35ae55ababde434a945fd4fe0325c7d332381),
(0xa4e42afbfd7f51585c86108fcfe84b58b930df79f53a86e18ac933890224422b, 0x0e9f8e1b03963102b58d6177f915d7ac541e551cbbea3e2f1ea4796000ce1e30),
(0x5f7ed84442022f426b09e9cfb7750fa44755fba97199fd4ed09efdcad803dadb, 0x091d5dedd06a8eb09c9592fcc9096f1ce852d9c39bfcdaddccbe1bdd2b76ffad),
(0x3fac474332f064e10b33fa223f67bd1591dcf7f90afa38f1868e180ec2938d66, 0x45744e676b2037993386d10ab11730bbeebf270f9ea659206f93da61e2aabe5c),
(0x5fb983fff058d2142e4d13df97d8e784d4b10e0f6a18c6b190e64bdffb7a7aa9, 0x333946018dc540cd0eb73f73a9733d74ec5811818a6d58e83460f1a68ddabd6f),
(0x0baf35c30fa939a2db15eec1ab0836649c6e941e19d3e0e043e0f5e6df41f88a, 0x42583cd3e53fa1bc4eebdc3fe3b8b0699de4144554fed966214108d2f68e9201),
(0x97641f5aa51e7ff0f1d86183a3fb3d604266c4d9acdb9f9a0c704a05809a8602, 0x134ffa32aa9fbdbed8d82fc901cfa78f1ab169fd459da39b5b0d3287ad9517dd),
(0x96a3711eacdaf6dc5adaa8fb4be05c37f59febca1a876a5ee23c6b552727292e, 0x8fb0cfb9681ebb7b5e1fce0e67ad5d8134be912356100e96b82ecd3fa5da4392),
(0xae64428b8e540c6d28d388926136320a9f9f16b03e9d5e2a14faadef4f154b0a, 0xdb202e5eb9bf73cdb9ed5193b0ff59e7cc68aded6fe6c2e4d5b79493fc118aeb),
(0x2c5932df65c0c2c114b532cf15b48433e16424ffba87438d422290756cc984fb, 0x161ef8c4b908a056d395deec38b9ff4d1c6436282ceb1e47f59a2c24c7d29130),
(0x76e21c786937ba6918252d563ebfcbfe2415389dbc692071f9c48f557aecca3e, 0xde7786fe9db47d61e3b61d0d49309fe9ca634d288d71aa77a3fa4efd4533c8e6),
(0x7170dcefca8a138d1d20b3466afc6a46099df363fc964a36eaa70805b267900f, 0x196bfd39476f145598f89f7bf870f8f8440562e4623fb20303b36d5dd8c0bb8d),
(0x98eddeb075bdd245aa1fb466ed1e89f761a95662e35836f2e6907c5b691b6ccd, 0xaf3fb5f6b59124b8c9c2ddc2108a3a2cbdbcdc99ab296814731a841f570c91be),
(0xbf42f80659ae606fa5e36fc5c58379c18dd1c34e0fa98e6768bf6da8ba8e8849, 0xd343fb706e4adb9446f4957826bae8c4ca74a0d121cee98f26be68f87555b8af),
(0x40c1c4a5891e8dc629075c3656249fc2c42fd65c08c338a0d82df9554662e1cd, 0x667223d0e68ef6c37195d8192bcc12b3f20253273a05703ae5aa10e9cc689ec3),
(0x162dd3100c8e3fe48384cf1b1a0a2d6fbfd3ef3c5492fc92b921133e8f883dc1, 0x1f2311d5c82f02b9f7197685cf490e1c3d0ebf4e86ea0e21a653c8e00db5cff0),
(0xff0f814689eaae3cf3f302e51089ec585d63c4fd5157bb3dbdfc7e40cc6331cb, 0x4dc1fdb94eb529e3bae54973778d1daaf8814cdf5a3b0c2dac2b56470551bf2e),
(0x143ae674b011b5572f472b2244c6d9ab14b3e64154f4a033c3ea39174607b78e, 0x1528d5820faefba26018820c0a03dfd7ca20298ae199c99fdb9cb4213601c35c),
(0xf3adce288fffd45f96fa0efd32974d984115a80ecd6b86f35e17b0178d9009a3, 0x20202f0096329bb069a0915e494a586b805580a4eabd4ba72d20665b4916a20e),
(0xd2270829e2730d0e2c8e6bc6fa4c22474904ad22f44fb2f85ad07558c4d8cccf, 0xd5a6b4ac9d5bf6695989741df262e41227c66c7aae067a93c6302f5e8879a3bc),
(0x26d17eb67d9bf2a845c57a9482bb2f3d8347538a65c9f56756ecadf4352964a6, 0x954af3d47d67c345bcfc4a520a49aa70b8703d1afcd21c6b7f7719c1e2068fb2),
(0xe4437f8be104c8995cd1618ce5ee7d1036a52d99313464760bf68f21e7fac74b, 0xd6c156d5b8256e6c1a820dbe3b56fc8cf9b015bdb81c756e27b70db8d995cb81),
(0x8932e04e96db6079662b63ed29b5a39dac5bb51c00d1ec70851474efa2d3c1d4, 0x5437e77fe030225d053f51668c3551c9fc912a0da3bd336ec058754477e58541),
(0xfe776976465b86c05b2003c736c8141c933ed0e405c6dfd0c7c8251716617b26, 0xb279dc5fd576d506d302b0af359ddd5094364d3e255102aa472e6d9cc52aac39),
(0x6c60a4ffb2a292245c84ecbe1633817df69eb73ca6b9f72cb86fc91c535b45f1, 0x278dee6f814bcc1c70301a510f9c78536489af2bd23d62231b55cd292a2a0a2c),
(0x3132e58f625f902a98d556c5ec9e8617a955beb46e9c2a81e121e4739c9af04d, 0xa5880964a2443c5e14db9220446904c5cf0a957c945c50069438d86945a9e461),
(0xb05cee36361a9bf6eb9003fdc8d38587640e180a9de822dc57e5012e34903f6f, 0xfb47388629519a28b745ce16d625d85d26fe21a230d798c5305d8e82545c9a5a),
(0xe202120f5659e5807a14e68de3aad7cc23cd2f6cabd8673903a05f1612005e83, 0x49928b05b66af992d937cb4dc05fbaf2a70e8fac7c0815440849d55e0fada136)]

/-- secp256k1_pre_g[2240..2303], /repo/src/precomputed_ecmult.c:2280-2343 -/
def g04_3 : List (Nat × Nat) := [
(0x57a91d892e5409e0b07e68f0450614cb9a9bf0cd8c5b34592f1986330c7a796b, 0x47905cce59018fa8baa612c3124b11921dbf7706c5d8d16bbd5c1e9f8498e7fc),
(0xe092c40a3ba465c20d59e7c58265ddde91c0468d67428ee1dd153b64a5a7e8da, 0x83f4e2b4bdfc42482d4ab1d313b097f7baa51411134eb042feb26f715bffd39b),
(0x73a3306e7baa4fc4a081a9c2c335d3df7c1ee84ff5a46554f78a60091de0ab38, 0x1f68c8f92022c326e37a70439552191a3d93f6843af0a2350bce893deda1f938),
(0x7c7a79f86e90496173552caf4a1401dbe99883c5a39e493a6a6eabbe5f3a4434, 0x85ceb252e488393196c8ce8ac0b596cca26709812c29355415e17f8e26e869bb),
(0x6a9df561ce4ff772b37054fae513657f19f03086eda93918623a1c4784a37788, 0xbcf0274ad9b3bf58331ba398a6611fedfe719867106eadb42b25b623fdb65280),
(0xfe7bb24d47b3adff1c545d2dad2c6aff81934cb5bf2299eef3f8c53bff91c950, 0x7fe65f8609d2623c930c27d6f0a292cfa881738b04af0c5befde5c408a574e7f),
(0x26d1d2f27944b77c290ba60e17d0534782ce2b64ae8154531da4290730407d3d, 0xec3c50243106000b0d0b23725358138451b768d1d5aa206f4d1055b4b4f0f495),
(0xf00e51f938f915734ac563ff8ea44de3fb85cf4d8f0348060e6c096d8e73e2b8, 0x7b7bffed3a39a491d3ab6a136fd88e0a5854081d21380c703c596771a22c727b),
(0x73e15472f42f875093abe811a4d4bca88bd179d14e3e3b309e011e2737cfc4d8, 0x392ef4ae583217681106426c9b00b4a9c53c826b84bcda340b5d0609f85b9231),
(0xed4667a9aff30464c851d86e479df8e4d29d2348edaf8333a7faf560a9568092, 0x773678756892d42d469a9ab50ff577e06d9f4fda679882e43dadc7e63d49bb0c),
(0xd6ec16ab10811cbddcc346a264dbfe0f51066f2c79034d74af5b0ef2541dde26, 0x981f1cab7ac7be229a91b7336c0b89bf4763b01e4a1b715ef4857e9e4ad0527e),
(0x284ef47e691931ac8241d92d2ee5b7173f762ef2bd1f48e68dca4b53ab4c593f, 0xab739ee1e6a7be47083e12887ffe1b6bb53a4d2e3bfad3e1c7ac54151bcf5e82),
(0x0530f9e75a267d0afc3ba53ac49018ef44b490bc835774f6c6cc3f8708d505c3, 0x630c481e44e5e9cbcf6d7fba8f7fded4bee9fa704b88a8d36e2b3bc34e85e3f1),
(0x66a9b4fd81d0165b6737a4b38025d2daef9c4d203c49a2bc1ba4d59ceaa905f8, 0x2770c44e6a4dead97dd7311c195d305112c86bca257955f121b7b1cd4e525e8c),
(0x25812e7edca47b649b18d7397474de2539bb789896ddb94f6019213523a289be, 0x4bba3d83072aa76e6ba76f7f18cb8644788d3ab8b58d0e5c795c62136f17e2da),
(0x3c81be70af162448170f88b58fbf587edf1a0e8a3576cfd724acba77dfb29608, 0xab16e48eda59f4807a0b52507102e9baed9dc9fae0de870027bd5ff42aee13d4),
(0xab626dcda5142933ece82c8d125aada839626e9085c575252fb24f76e0d6e39d, 0x8add774b34fa4b1bd571f2a34d8ebfc2bb7be73d0dab73cfe7eedc01764abff6),
(0x47f25106120720ff8cad65321a3e2873aaaaed5798e3933de1ccfe0bf36bd85d, 0x0f6d472e729512e4ecb74ea3f96583accb44e013ecd0bc60c38b16f920585b60),
(0x6fd30299f7398f1b3c538d59071b8bb0e1640926752d084236148b9f23c26b1b, 0x3b8d6166a79ce2351a2e9c4dc5c89ff57810bef0277f3d33372e05bbba6799da),
(0x0dd5b07c784e1cd658c51ab745c4a09d49db1287dd7871e3f449bd664a02e040, 0xb26dad8a62a491b8dcced2a7c0feed9b6a04597cd8a0f857a4731078d68d8659),
(0x03cf5836104b4227aa275e5f16b84bca15b61a8a700b56b7dff2adf2167fcdad, 0x1cc6f65a2cb579fdf681234088018dc9445af7262db43b5ce9e49e4ace00c9fb),
(0x683b545508b9421cc3aea163d74c043dd4cd804d23857f413e01d28d4919bb58, 0x1bbe45762cd5c0568add69438111cfed691e2369055022da17cfddbe79a11f0a),
(0xd78661b7897a40dc5f42f7ec4202ae53e83ff0e0d73ce7d219503279e43b724c, 0x465299b0e3f478ecfc3db82a61d5f290aeead2fed0ec4a026652b29dcad20b21),
(0x1258c664fc15e794e64dbb87b4eebf1b32e89e7d50ec114a1afa550619e15a21, 0x327c4a9281a7388070d1a7dec2a0e5c7028c5997bbc2157194b0521a141be0b1),
(0xf2d04fb51cffe2bdc6e43cdfae7314c5387f4dd24bf7fbb1a6ccd62786e8be00, 0x89af3f8d435f21528d32ee47a86a2ae178d3a7dac27ceb3793250a8c27061c9e),
(0xb67bbec14ab23ad8e52cc402def0083bd21551a192a9df6bb335481e3f0dfb08, 0xd6ca6bd19383899305284528565875543757cc13fee01fe6698b30f810a64a23),
(0x1baef1b9fa401fd6a053ce90f2d661b88a46658483a8489d90d483122b79235e, 0x28a19a14a2f7817d922b3872cba558adbc1a69c6c0b65ee803352494a31699d7),
(0x6c0f066b23623a48b2b6a746801baa85f58de56ce5287c79c3c10ff1b851aa8e, 0xec837256084cb0f8e528bd94e1c863272347a4792059f3574ccdbb9315ff0868),
(0xfbd5bb0965bb9d22bea6d6cb7aebcf28a0c815d618b79c0d94913dd9f63619d7, 0x3303574d5e605e5bfe298f77e20f3f6c60ccc06337a29c7e6612dfca3f00b924),
(0x2246042ac4b22334af6c81ac8106bd1a0f8bd5f28dad88fe7e568fa0b35b1739, 0x1da0d8eb9c10116f0ce29bd961f92e369e538282345a4f797cdabc705aff6e7c),
(0x470a914f2fff2d37835b3caf542cf50b9606cf6dfd294c515632d9f34182bc4a, 0x6b3805a8d2c74856a5be3cc9e9c6a8eb4398c60681ce12dbb3a58660001d426e),
(0x4e03f50bffb6d9334282153ba3f909d044bb7a1150300c1ecc8027b0321b4be0, 0x596c58ae963e71ecf1fe8f9cb4de8cbc9149b125031e83e0095f6e5ab08c504c),
(0x5a6c4feab806bb76191567e9139dde28188a26b40a1803b70d999278fc57455e, 0x6e81d07c6505366bc28ea476a718e5f7353d73c42f5514590d59a7d782e6ce49),
(0xed73c9b29adf52e21280bb1bef63dd4d74f4e09d01be56c3a246dc379b29bd5f, 0x0e9917b619ebe0acc7d1fa5b7c4b7c52e272ad9f2df6216159dc87b3f913828b),
(0x68c6145b38cbf9ed4af10608503ca13f710dd34c2386fa99bdf93b69c01c04bd, 0xc963585e607d9eac5016f884df535a9ee7cb74d22e0c1e9de928d7ca3fedc73a),
(0x1b651863927317bc1dc6094c3f5c91cc92269a12059879b6a8439a77b0454126, 0x31c6125f8ac3d09bd8c1fe920c31bf13c42b1915e7147cf91371dc01e8f5009f),
(0x45593cccdadbde3d456b74f7a3b705de7229ff2090a0df0d38166d4e6a09c52c, 0x13d6657d89fd02053c2b9a311ee964cde14634dd20d85866a43a4ea9bc0bd737),
(0x1409c06ed6f2fa2fcd532983d28c2109e4dd7c1a4ce77960566d3eb437927da5, 0xdc05f98d4206fdbae3b69836e694b71efbeda304537bc62390edcad1460984e4),
(0xd9e08c6bc307b056d43239215426febe5d6e5cc84eb737074e2f00dce85f4580, 0xa23c1647c6b47a43a3ab52adda32605d172f4de4201834f915d5a4b6292c632d),
(0x7df319f3d3c2b6b73533a91664d5fa265ac0f18bbbd5e8ee1aa15dbabd62fb32, 0x9120f6afe023bb981d6d8d9631de0814a9bd169ba91af0b79c3db58d2bc9f8c0),
(0x1a94e58738b9fd1f93146232e216579811d742449bad37110a3734456986d7a5, 0x332a27b317eee7ae0fb4604b197f2db20fc32549ad86765a74820428abe4352e),
(0xdfa2cb4d6db266db2a82ef8dfc0cf8714aefff41895ff691fa0781f91b619a47, 0xc5e5dbab3a28a6c18cf20fef4cba62f9d2a1a0f76ea7056e45acfe4c49ad8b19),
(0xc2201007be6bf76b5e82c1352a6e053bacf4e2ebc10a417bf35e4c793a876730, 0x92408aecb9ae4d743af97c159c3873439a735de890d1abe70c8d14ddfbefa581),
(0xd45632d2ab087f0f9d0d4d85267307422f25c794efa3815e33e8285a1bd7edc3, 0xb7ce3697c4994fa82479e99f9c9e4b1d814e7258da7ba5695543d6ef8d5ff44f),
(0x8cef362bcdc292b4885f34ca923a171adf6c25b8f6b7cdedc9003b71cf5df93f, 0xb3910f34ed8b7fa2bfa4f1c19d41d99ad702e13b5dab6bdf2608186dd09aaf5e),
(0x247f7be1874c283117d604318184878d3a415ae559595bfc7f17583b3cbf9838, 0x90e235e6a779b4fc0f9521da65f65091efd513e8df3384642f8a7cc8f1f30eb8),
(0xb8c0cef1c8703adf411dd0b0acaa2b82f2609348e36aac56b0148ad8981cf568, 0xa041941147019aa14b8e74a81d49a97b45e7aaa454c0f916a33472ae01275f14),
(0x8e55776e06e1c7912aa6b43a4dd1bd170a35ab0daad792c0ab51bd868208cf09, 0xdfe4ccc3a025abbf0c2d12bc6d462e6acec7307f6daa9c012c8a7ad870822d56),
(0x0f1cf6d3fc9d98244e122790de390241db813b70c48b667c5f05846a0c3ad1ad, 0x4925c6ab3952d1b235ef1ec77ae7a84d75006993b173a6f6c8b969afc3984799),
(0xb49dbf88dce5ee492b4495ab9db762c381164147cacbc00a9e56670aedb9ea31, 0xc0f92f17ab5797c7758d703efd288a468971f7c2de8923feb8b7acfaffa9ef2a),
(0xd6afe2ad257b57ed15573c50a25f7dcc399e26439e64acab9a8c9f750d8ca362, 0x5df236b86919b56b1714024916282b1138d355a3561c5b42b47ac6f38d35749d),
(0xbb0284c5f23365fa5972a439fcee4b4b45b48a9e6844a44b53e120041ae8e89f, 0x684bcc0de09e593279018fb2aed5532953221dca6f14f4936ae76099ba265300),
(0x57e957148a4096971b8be62198a04177c4779627ab5a77e46e82d847e64467ec, 0x714bd1b114ce258007c6d3a8f12a5375fd8e7cd25e854c126bb519f2cd443f13),
(0xb0c82f60b33c3b47523ef2a3de804521a1e14478eb637757d17526d91e713094, 0xcfc8d1b9d763f52e6522f70ac93f7fd923d163d65a82b2eeac1af994a2cea63c),
(0x2ba76170404785bd5932c185c6d98ed0667d8324ff7f85a35c24a4bd553e1ee3, 0x0181079074262af5607167d6b55164d1e56aef19f3e2f307205d5603eeea35b9),
(0x5bd54e13d508b920fb1d15c827e0ca5903eb1c85a7228895b5c9235c6ed3e88c, 0xd65d35fd5607e193ea70ab1e4ac7d822878017acef3bd6fc2b1933af660cf0c9),
(0xb0bbc2d2753bd89ab2bf1664e6cf212ca590d65f5664e6947ccdf9773ea8d09a, 0x9057b6c1a1078baba14190654cc67052072257411f34d47e47f09bdc8f993c23),
(0xc17012033cca38acddc0fe4195452129b38b463020e8c459224e9dc6cd3133a8, 0xc495d87b1cfb6f6746c0718886c08616624f78b5ebf4fb14fb6b636af5557e9a),
(0x1e0bd20e5f1e49ff322879617fbc28c47c9fa4ddd93532ea74930a245fa21bda, 0x2d4074000e98f15de5da681b2472fa11b2a5869c66be1cd57038e16043dd6177),
(0x5cfc223fec4c6618ff12a97408533a70f39defa3bc05f88b03a1b158317ec15f, 0x7d928bd489e3719e6386ec226c738b09eb4468f7b6718cf93da33544aff21411),
(0xf506560abebd668e057e514ebad47a845da345ce50ac0e8801cccc2c81efa67d, 0xe2ff0bf7c9c2a99abc3580ad17f64a2663111fd815bdcd639d9a7d3aca0fc7e9),
(0x8448fe98ec88748545a46e4c449d01681d00dcae5bf96ef8306e7bd826c54f45, 0xd0f07229175003222dda82713348137685b20045f69d656a66aeedabea6f0407),
(0xc9a6857fdb037c2e36d5ca7132942f342480cf28a98644f56bc455ba97cffc55, 0xa69e08b98f678e616c0b8326ced6f97df742d974b68cd1c6b798e3678faa149f),
(0x0b5d13f5c611eb3bc82f7db2d89ab19fb8fc286d8e4699d503dc664dbac4011d, 0x27eb16507cdc0fdf5b92493ff2487d0aef2692d89c702bb6259808b1324b7adc)]

/-- secp256k1_pre_g[2304..2367], /repo/src/precomputed_ecmult.c:2344-2407 -/
def g04_4 : List (Nat × Nat) := [
(0xbf9ec5f32e0ed4acc001b88718c29c6e90218471d7f1afad75abb34eda35ce44, 0x13846488892b4065b79224ed368c47a4a1734f687386546bdd837a80467ef2d1),
(0x2c3812be4d3b1c13aed1f6bd1ca6f5b8893c5a87ad6a8f2ed6d92ac13a526e19, 0x366b82f145d551e0b7bcf877db340bcb1b11edad1466baf324a94cef3433aece),
(0x77bdef28dc8ef6c87fcd0a13c08a26e59fd172538d8bd3a6f21c5c86ca33f572, 0xda66b0c7bf3bd49b00ec1fecaa580a516977ba8a83f957ef08167f69ea3c3a1b),
(0xbc4a799d3185877bcd86503e3f34c6068693bac0654eeb154effd1168b71afe5, 0x53fcd7f899a8190ea7159c99e261525bf59abf6bd331be664f7f77577255569e),
(0x301fd884733dce056190e4c7d03750786fccdb6f2e13f9dce275c1882efcd040, 0x79e4f9d5185b9f51fd835cef64be607c312c910c0e25cb735de2c88a51e25cb6),
(0x241b4a9bbe5e7e54214d0bda13719c42133f8377e50db2f387b6018a814adb70, 0xc66edc08fa4fd22e1f76bca27fcc00cba8ce2100248b39593c164847b410bdb0),
(0xbe6f1639681912893c5c1351d633d51ddcd28c16f329498156ea1602d8c79585, 0x6f674a7e1a65539ea7f8a9668f5fe5e61ade5da0a543335a5f7a71e5fbafff21),
(0xc8b5008f79c69e2a7e209ef60a2d14b9b3f7bfbab7fcb285e237cb313dd3a283, 0x1dc793486c3cf7e00bc36dd746efcb363cea15caa63008f52d83ec0a6bb54bb9),
(0x5014af9eaad5ed624e997ec3a796ad1eb038edac77cf27d4eeda7ff4c06c0998, 0xe01d786fb8faa1c52d44a77a987b4b6d91143953349771511a4886023189dd7d),
(0x6ffefde62c40643eda2d4f284f28fcddb0845ec08d882d2b45dadd8ca7bb989a, 0x8e2b183c782d3a9e2229e4bd9a2becbdff0a54806a6f44717fb6fe5c8411cc0e),
(0xac762bbf190e1374d32a7e5d0b4c0c360ad0140fc1e922904aaff1f1487d463f, 0xccd79f1831016b40a381bfec5db6b12fbc34d850ed81aa7e435a513e5f3adefe),
(0x973496d63ec05c75093244e7b737b1dbd791a5cde828f3427968eae0e811cb24, 0x4b2c9bc0044e3351f637ff525c3f34f3d7420b652f57bb7abf573e6725647533),
(0xa9d891665f77bc30743577539ea39e36c39ce3006fa034291a799b3484a15d32, 0xd09c3a17fdedb8fcf4f9ce9820635a5056dd884fccfaa96b8d0813b84b80e213),
(0x108a8ffdaa2b544d8b8a7419f2421baecbab636f60d6ef769eca9a20a0c5710b, 0x0ad3e9fcab04ad58a265776a75f0e389cebbb2739df328d7b125665cd4e0249d),
(0xef969d7bc8843c57bfc0ac6df5e4495f9543878d95120a36de8c5bed727c5fb5, 0x5ab81bb226738036b145d81a1deaada5d1d4d6537b80b02afc1cf85c361f16fb),
(0xab825bc24d505453f12dafb28f70b245d74200f2410f5162b0ba309643c39b62, 0x789e7df223774415da7e31da277a81c9708098b8d455594c6f9cb065b1281a1d),
(0x4984a4e52c173c02ec79198cf8496972eeed4e399933bac059856bb048bf2622, 0x4596b67b79be2e61a0887a9c2cc3ccf6f199e9243991f4348e7cf897acc5df3f),
(0x285c6ff493c1be13f4f60d0d8aa7cb244bf0f76a23f3efbccfa4a132625f7272, 0x39dfe9a5cf9cef28d5cfd99849db9b23c4caace5e8a27c1212d7b3d9d3ed49d3),
(0x1e14b1d17e721971e926671713100aa99bc6e506c278ac7b348b708f843db340, 0x063a239dd705f627347fe464c4d4143c394d7dfc5f79ea1164d05f044ce41cee),
(0x0b8f73b9ed71cd1ef61dcf309cd485873b1394c04cf318fc10140bb5be17c8aa, 0x8af5dae0bd66ec852ff4823aa1be65ed0745676a5ac42ec5827107e6776f665c),
(0x7e0c7297e878fcf6cb6367760d15afd049c995d31cd49d15e624bf6e8714540a, 0xdf5795f74c512043f48b7568bb271a00ffd595300a0280e58aaaf0fdaeddd658),
(0x09f0ed1d465bed9fa2b51133fcddfe4810999011b754acbade5fd0276b798545, 0x7005ec9c73bb0e0064badde012aa99d9d85b6c38e63256e92179999014a8459f),
(0x2d556f5e0b5c5af00160608d80e23cefcc8e4000b1e35b125a0a51aa9c8e12bf, 0x0760014425bc3baf1dc7f6fc1fd86f41d24d4488f80ab8a94e4422ca15f12000),
(0x2617667d7637e02c0b479524d9c7dcc12cc14ce54149928ee8d81bcc835ed3f2, 0x521573ba2cd809eb8f5496be478ca6397a2c4e1601b299babc6ae4194780884b),
(0x6247916c5b519a647b76e10f8810a3f34cae40cfed05a492ba1b061f0d9aac10, 0xffd02570535ba978906a193c500da1d4602b0969c3e9f4caf2d33026eee7f098),
(0xc40b27e08ed50a8860017e780ececfb9ea14c64a95137db4fa55d4cf9a3c52af, 0x2415cb8c7d025b84fd9d1e977105aa54c4149fb830ea801ba86f1acde07b6493),
(0xba5aec8a54a3a56fcd1bf17bceba9c4fad7103abf06669748b66578d03e0de12, 0x348dab11abecc4bf3c7474d28ea5ba60a705de6039f9b70dc49d58b06d57ffbd),
(0xba14e658f8dd294e1331262cffb3f31ac1e9e504e55c7f675c00224894076268, 0xced74905fc43e55ec70cb36c66dd9a10c221b0e3a326e3659b96de4ac81aa1dd),
(0x3375af698880c7fa29e718cb4139ab30f9c1d00e0a1c22d4cfbdfa16a7f4aff4, 0xcfa8b491a83be5b1b66fa0b85e26c68e8d27db79ce55d726ddde67eece295a27),
(0x68d2614b306cfdfae9fa109a2c4b276f5b9a8ee2f7d502d5efc94aa4bd9f01fe, 0x148c36bcf04365ed7ddf54e84d40fb59ef9e1d488408c8f3661386c85f48550e),
(0x93facea5597703b0ad2990d71d63387b900ece6b06c3677b7fc47b7f1c533edd, 0x3c801bfa8fa114e8b5c1998539a1f6c1c20bbe44d8ee71797454797c942ad5f4),
(0xf11dd4a672f7311895775ae176c90b2a5a0a61f16ca205d6eef6c27575054277, 0xbc06a16d2ef2ac0f7ea2083cac18d0d06c307d4551e0a0e83f59b568b9556ef6),
(0x42ebcc5d710ba454fd29a94ef83c80040b71fe859725c010f10ca39c864204f7, 0xf8aa84eb643101ed4c7d5cdb271d067ce633c17cdc698e40279064d2d65f223b),
(0xd40877dcd96d5a94087b6fbce89d19a0549e96da13f1fb2e67e9e3e185c80e52, 0xbe9bb9b385f20fcb8e57b59affc01442c0be8306f5d9087c837e234c5e789444),
(0xc18b2c98cd2110ab888ec934239240a7aa40c1bbab8d7e398fa743582562931f, 0xd96210349147d74c75df18cd1066c40bb83f189c937c01cb24c2ce97155773f8),
(0x154d6b221a44f8411cf4fa0c4bb4debf6fe94658c648f9e4d14f88e3e05c0bd1, 0xdf0bc307c705332f328bbb6add94e63f7c1074f3ebc55976de552a595875559a),
(0xa38259e5629f93b1a397d22859842dbc24485d59c3ab86e0a9326a35e1a26f15, 0x69b5accc2fe52a63b3874932e8a79b8c1713274ff435d892367bb9ea91f783fb),
(0x9d729eeee91e34939925a7d52eeded18148270296f822013d4db2a3c763fcd19, 0x6d83215403cc8621166f731f2d874fb09cadc09e4e330339657aa2f0e3e89a1f),
(0x2674f00886307c7e576cede7944a9f9b46398c938a0f8b39b25701b367751e3a, 0x03e9eb426ac9d1ef837638d07b0f1f4ee31bdec7a9d22fa212a666b8193f83cf),
(0xb2a06d5eadb1b856dd28e9fdbb626c0fb7c1642c6f70c2c2743f34514e237f41, 0x5d4caf8b8673b268227baed4481ad60bde579a984d005f5ff3bcead63bf664d3),
(0x20b27d64d61debdcec3e4ec92040f05d2b278c0f1415ba60f0bf23e1222d713d, 0x481d85e7ff5c2df35cd264886056750ec8c5c809bb3afffb41e447b7a4e516a3),
(0x4f4a610c450eaa25f60d7c1520c551f75270930f45a7c51bfc7cd5c53ce3f2e5, 0xdf1e8e11db416228672d8d8e0f9d68ede824234efd7de39c2b32fd903a47f328),
(0x9b375ed80050435825570b4be359bc07bc06c98914659e9e776fba36a8aceaa9, 0x3d056593385c0069915de5b1f59c34832268344086dcdf26d1e6ae2235e90927),
(0x436408045d432c8731f865e72390b7ffc13aff8737fcfba4060c01922ec9d1be, 0xe2338eaf6fc73fe1e3df2aac54bb4fbe5aff2a925b8b16eb2346b2206070cbeb),
(0xa6e59c4f244611724161f35cfbe88d4e59287f2ef2b9ea394c476127f41e0b66, 0x75c70747f5dd75f941cfa470c4cf718a57a8ae2b2e7ab2775f5ec5fe7d9f334d),
(0xff639617ae7351fd977bf1e846a6d33a5293a95974b296ed7c9a007b25322d51, 0xe6123dabfa2355f7653f81ffee798353e21dca71ef40639f79d7311653dac457),
(0x779148401710d8e608a37cbc5ad5e284c254dfee01c8b0435f8ddbe94ef4faf3, 0xd97f44e99ef3d4c704075dc3894d2a6a623be44632c98ecaa54b8ed8e0611414),
(0xf68910aa029254aa10551c00adc135c4947cf1fc06dd8ee5d42579fb79484aad, 0x40bdfbdb33a56d630ad587eafc9784de69f9f5c43f5c7c941b9b59e4c052c1fc),
(0x15be8f81473d4cef719c75011d560d84f2d4d8d2def1d69629f624641b6e0fd3, 0x7e66f926fc991b41c451ead006d9326764b85ea8849047bb1d28eeee70fd9a2a),
(0x0e113d5a2e22302ef432729707c41c8bd0c5c26f9a0bd9db9091abdd8a84e9ca, 0x2e4862d834c6dc4517a6b70b2f1b2c5bb54941d1cb80353026a257caf5574dc0),
(0x96b10770485bba677f620d9dec0d1be22c94dab057d6d595aa78dfe747bea688, 0xe060aaae0222726ac1a1bd58fc779d9aff854ac24a4996a52259e9f1bbdbf30b),
(0x81742f005555954e17e5e8990d2cfd8c57f6f7c75a38e183de8789342405545d, 0xa1763fc2e5f705f2e6f2fbb073578fb0a8d742c68f92236edf1ee03d2ed2fc0e),
(0x17c19f1396988f6277cb72eaf90d37bb86bc7a0be16c1c17fcc481ffbb78a480, 0xcb1290d5210164eb621c2642ae3e51b93f430e60718f9fd9c5ec3bb653c78833),
(0x007b0f06e8746ec9c6648b2bbb861548bfeee50763c01c3f40319beba2497a3c, 0xc694937884297d8e308b318f1caa0c7b1634b7589d6e8c6a2fdb778ed6a70020),
(0x715c2b062414183f9a67d8c28a89b75455a80517cb1b813405f56e9112c5e8b3, 0xf89b89c89a795dc71e2d4cca7f84b4d523167f0397787b339205773f2520370b),
(0xe0d0ce00f974fc7876777662efe5dbf5057aed09dd89a4c78f1f40dc8f74d3b6, 0xacc5be65ed70484794bc7f05c4c5511fc253befe7cb3c0d3e85704e2e3e3eb56),
(0x3755328976fbb8b79a5aaf75ecd9d2a1bdba9a875bad6222e770ab1fd26432a2, 0x6dbbe2331b7e064bd80bc7d012b2a08801087e7c2c5c1d77eb016108c2ced92d),
(0x2e95c3ef51ea90368683f6b08b2afb04f46ca6512abdc699446ab3a06fe3d3ff, 0x0905ea87b1d8dfe048463b94c61dbc6201556c6600b2b49839cb40c3299b554a),
(0x25310e1e721f32457f35c67fb73553f66467580db5916cf40fe7d75ac4ff8eb5, 0x9c5e52f9be42eeb5425a359b87dcab1d46ecd662c17eb041016b5430786b4ace),
(0x25932b1b2b24fc2dd78779117d7cb50627a23b7d7faf53b0cf707f51b7830b7b, 0x7e8e23b4acdb26b01d7969a6ddf3a2ae2215e2060109cf3e04e32d91df536765),
(0x7d232af6251f7667ba69ba44397f5b8a892e135eb09b684e22b16a4473c5ed3e, 0xa3e8f638c8a589b58cfdea61d9824f1c131b90459509b92c1cd26571a6d8356e),
(0x4d56caa01b65ea87ba3e05b0a44956066afc864504847633cb9e9755c8c720f9, 0x14c3467836e65197ca3f1ada936f03487c1eaee1977ae08f50f4177177537330),
(0x71abd165ca6ff8bb775c81f42c722ed72615b5033727dc2c122efbd9c500a88b, 0x79ba246707284f862fb1c46ae11ac4b9a596935264224eb9c39ab884492620f1),
(0x8462fcccc3810519cc4496345c5d9e5630215e74c41179f42002e90656a48965, 0x0535a966cd7fb998bc548a7e29fc4640f0eb75a75c3c05cb64d09048a7787d4b)]

/-- secp256k1_pre_g[2368..2431], /repo/src/precomputed_ecmult.c:2408-2471 -/
def g04_5 : List (Nat × Nat) := [
(0xf68eac93fed751d00b578b5c665684a8b9c2b1046fe45ae3286e935136c09826, 0x98e0c32b98b0a8a28f119ff2fa50e54b66f7d8d5732a18317334fc45fd48bff5),
(0x6144725009a8d9359c0e4014f6ff569a43467dc7e4940b1615f442b2d9f72041, 0x0fb7177fc7f57ee7deea7108dfbea888fa58f2092aeb2d2eb2f331417ac8f807),
(0xea69ee114ffa1bd2e2259a26e2d88cf1c9846ac9379a1497fc28ecc54b15614f, 0x589b81b51dd6d750910141083dd6cf3d63183d1b809b62c9b17b768c5ce4e2de),
(0x34727b243404de96641a1ce0d7ff150b38e6aa15c51fab781464c6604e5d5263, 0x9198326bcf56ca7735b9baaddc0069d31920bff2d5bbf804435289d4d827d4f2),
(0x952452ae613778dc29e2d2756e98b4f0eeebf4d9526cead952f8d0d99e217461, 0xc08b3a28c195fb5af9a50eb101b1411bc17f6582dc14b5ff0797175b2ad486a8),
(0xfbca3f18dc4a8bc77e9afeba66610306401b8342bde2dbfd2d4a156ae78e49ff, 0x2b829d6d6027b2deeda0db7bc76b924f4cf75573bb9329b6c7b7e443f94129c9),
(0xc7ddf11d7ddc643a957dff64a08a4a705302bfffb940882b57bc4c155bd8c141, 0xe9ca11f1ac93b01803fe8146839be79bb3711ee18a3daa8889d556696e708e20),
(0x71043a3086e3063eb831f7e44e6821811b3f23539cb6efa2cd0ee4a670ce31b8, 0x4db3f338ef9fd2734aa9cc9255e2984d9334c1645320b411ebcb7cb489322c9d),
(0x6de4ea4015347cbbd9349d3680fa375c5d70f044799134c3dbb6a77648602585, 0x03b7658865ab52dbeea8d83947025cf2458a324338c73d70f1d77df27f960418),
(0x29faa79f467cecb7ea17e23b6f7ba03ddb9a0cc0e1fa6215bc425696ba4fecbe, 0xe5aa691fc42fbc29c1f027d046bdf10664a2245ed2ff1154e50ffa1b48f34838),
(0xff880bfc25ae5b2278e5f15a02bf8f5bd750f8b874910f79c8c42f9316aafc99, 0x9535f70a00728f7937825bd81bb502db60e7a166bc8a0b105eeeee823a5747df),
(0xb781b6a03837f6f58520c566352e8c0960eff0b242524eeef6a6bd2fa4a2a378, 0xacd7b7d46c683dd943722ee73c12b69dcbf8389e62755e4fc44fffbf4cdbbb62),
(0x6d976593e8bac5d0da732c6482e4ac2bb3f1906259045990ee540a3b467406db, 0x30c353e4af6d81616c0bb9c0f2a4aaed6cbc18259a8b96583bd7e9c12f2a8b6b),
(0x18ed676a4dd3e0db462121129fad1e13683ec7822a6d94015d0866bd6cdc3032, 0xc86b06e15dbfa82a5f7b976265e0367006f9a6e77ee319bb8ef26b1600a51bd5),
(0x03138e38e9440ffcc2cbce4daefd4b8dd1e859d3b951d18ceb3540cadb5ce2a1, 0xdf8ab1b2a11a8667dd660a13490c6e6ffef4bc4094efa9a3430e28c96895c241),
(0x757df4ac2025c9aab8ab1e76149a9762163ce608f4903c3a091571cfe8b00c95, 0xff0af5feab36c5d847d15ab765000765c56bd7cb4d0fd8c4a37d4eccdfa03430),
(0x8a697a527156589bd13319a081e3b2f20ce09de8450b95cc9aa70409884c27e1, 0x09eeb93cb6029e9e37f2815ad332d5d95a5edde6bbf03ca13df09f86ad51f39d),
(0xb0bb698736f9e0b16cfc2198e37a84d5d35eb89bd4f4c0b1650d60e3e58c721b, 0x33d5b200ce25b5016f09808f0b38e82d0b8556152f48c1ebb3b6363bed6e00dc),
(0x1ca0edde5dde46342637882a0d2f8ff7ef6d6f5e906ae2d8d9f1b545c837efed, 0x19efb5ae4cff683da7d5d4c0f5eb9f3e4c4d3a4fac58ee41acb9ebdaa82863bc),
(0x780e5b0eb9a4e57d66a8493101e1b765d59ad11ade4e921ed90fc4224d474aa7, 0x5ebd9ccc58cc5f212da579f4c79aa3a41d8f34ff418516a3d339320c133ab811),
(0xf7e92ce9398085052d2af620cdf210a730ec079a54bf1468edf686da34eb4c9d, 0x2c559dcfe113a96158fd54c032f14ada57c234967a88b5857b1f7ab978f93666),
(0x3c3afa2075bb20a78f9ff80920d80d613a5688a4269336f54bc7da5c4a89f938, 0x7ef383081dd235d6e563a9f546435f223bd836d93f1d132b978f3f9c7b888c8d),
(0x71d6f01dee60f9b575dec59e07e5612389fb9edc03019115af4fb155f22097ee, 0xe1ccc2454a31a35c52854091fb41432138da4fd20eaf16802ef0470e1c80bfee),
(0x9726660f5705ec80908a77b28e6257deb107fc31c58ab6ea1f5f75b938c4fa2d, 0x94cc07ae3102d1e96118c213b6db0c65d3636fe708ea40c690c86949b48cd4c1),
(0xace5d0c754b2a1af0691a1a297e8b632297fad12ec1fc4b87fd02ac2b2802719, 0x924f9f248d3e725ceba491f05f188d6a7fc843cad24d08581f4c94858b9f85eb),
(0xfa51306b34800ff0ccd778f2838a4a2a8200eafd622e98b88fa566b385943f64, 0xb60ee6166b144873a1cee030fc92b50d04b67757ad34d5c85f05c8714296e293),
(0x85df9018329d25a679c097ee458eafcc0b716a59611730f17c19d5842dbea60a, 0xc555d5b6046d211ce99ad7c09e787774b7bc64c6f2f6980ae62e8911897ab0fa),
(0x2f77c00dc2024467ab461b52ae634a99337ff5f4780637f3efb989ce24af5e3a, 0xc7f4a678ebcbfabd870c52b0be7efba60c5d28e7aef2b25303f0e7fa905e3e39),
(0x52d8a23a720050d60ff6a4997b802bf51f238df5b0ef600158fc48c2228bb34e, 0x98ae81a7861b8e1a162d29b51c30c786cebb1812c91780f2ccd302db803d9136),
(0xa7f3e479eaca004922fb832047555b5c701daf22407462fd37b0edb17212b211, 0x80f6190c8c4ca7c17ba68498d1bac0393e33767cc476fae8e926500b9fbdaada),
(0x31ef3150e67bd32661bbf4d7942382af73db5799008f4880ea04607ca2356103, 0x7db8f5d6655d28d193b50bb514b16ed5bc03c46ae3d2c954631834b1a8a9a8ee),
(0xee82f155469c029939ad1ee352edea30599b0cd3868131fceabee2453b8b058d, 0xfd0c0d4e2d77c2c42add9ed6cadb898c32de9398f0394400eed2ff305092b10c),
(0x0dec7c7abfcedd6f0a9f7d458a07157527354990b456873e206d1f7e556b4586, 0xaf841ab4cad597f4186f0912b79fe3202c7626c7b85cb27673c18010747200c4),
(0xc28e337048cd6fe97591ba405519bd802bf34f12ee48762e526b34d1f4d2369d, 0x0e00abddda4567317f486dba6976ba13b8640f5239325a647d50eb17f0636e8b),
(0x47157ca92c275f6500c29e9db0f23531370277311cf05a9307145123df222195, 0x648b17fac911fd25af87e9ed441cc8749fefeb72b34f8dc4f430e0ce89cbef6e),
(0x84d11702745c53ced81b550379ff19479a0a9253a7ab3868f5471a646ca73241, 0x4f16b6a20c3c087a4efb1353644e64cdfc593ec1d8d656b62c0e0bc225f858c5),
(0x3bba3022196060b86b2b2f28ea8811c7c74e81288e91adccb7fbe2d797d63fc9, 0x7f34054af0945373a77c5aa12ea4f54c879d3f98b6e7ef3a9d73d2a2a734e286),
(0x085637f47a2c61432437485ab3d40e70b9f74606aa8538f4425e8a0698651c6b, 0xbc6a95d56fb42b1e67b07576083a5036f76e8531a30d0096c3500ad993396054),
(0x25302e985e75019a21ed1605dd3c543ee8021a42a40a967d8ea6ed314dbbd123, 0x849ccbe023097591d46f9b4ba13713f9c022063911fdd0f3267a4d8e66797a83),
(0xe59a30bf88e393e3c08d73daba720ae3485fde0fb6b85f8e4117f5e4f43bea40, 0x6fd7824fe222cb371a0fa6bd33e4bf8383ebbb6487872fb4422844986197dfd5),
(0xc5902df697981a60589e9bc3b935de2ede05331d2c1365bda83f8183f6247e4e, 0xc67eb14f5af551ef1ab5ecb58feb7ce121d0736eb93dac91f865ac7d2d75fe3c),
(0xdf8bdac7fe27127ec679a9b474e3c809b8b6409c2e6c4c1b277ab4e60d5e66ad, 0x3ff26fe49f0b389654d802ed72eb47082738256fc0266dc7645b1027717d43e1),
(0x1d55404e9c7cb8cac39c7c02b810d5f09eff912509166cf3f1e8cf762c65a82c, 0xc1787023f6a1c8a35c499f64a2fc4d23e5a760ea09a04707c24bb9bdb2a7632f),
(0x35f390c9b035fdfb68506073d585e4502d040e9667a1b4ef804ee0880df43b44, 0x6a85cd8886aad8b77dc36fec50eb97544c3cad2ada43d0383c55da38bff512a2),
(0xfbb0840dee888fa6f26d7005b2449cfd1d22786ed43d06d588f744c4c5e059b0, 0x6460514fd89a70f23a4ffa219f651bae203b05f4bd3d45a6508d2b25cdb8d3bf),
(0x24056cf01c2275dc44608ac466931e9161fa0ae13353cac9ce481271a34d78d7, 0x43ebd3c67e7381d1bf03088f434a5275965a3fa0d86a51bf7dda1b63cbc7751f),
(0x3b1043dfe8447c788e07c938cd72f6b354f9f745d7e71297e779197270f9cd78, 0x28e028c4abf0d511126c29d4b2b185c7b67ba3610e16c50c34af129a5e40d6fc),
(0xaef909d14179363880d75b236635805c8088b08f5c577a81a5bedd2069a040e6, 0x0cbb4c6f0de26b6c5d0c2b43df40a3fa93350cc01c497382d8a1bb7c8600dc51),
(0xc8d494f7386331cb6ff59aef5f229bc7913367b810f407ac02c9f9d3ca833f28, 0xcb2c76f94b6285d4d39afdacbd3ef114c7b850278d62da67e70aa74bb10de4d2),
(0x25afcff7af14ca323dc7444371de7b5fc1b52e176fe5f3f5f4f3913934f75b28, 0xd867a4a47f9d7e976cb1f57f8d505a665010cdfb4af4b781752717226942b789),
(0x02436c86f773930d872c220dc8bd72e5d407682d7708e2f819ad96323d32e2c7, 0x6e396dea92af663cc44de69024e1407f20a9588737f01662bc89cdea88ab67a5),
(0x61ceebd59e5733c7910bcb86e19159ee57638bb87f3cc56b0d0f4d25147f349d, 0x2a850545e9b0ed08fb63082e741a30ea7d85218f86282aef3e74b15cf2fadb9e),
(0x5a1133b5d45d007142b91a7379e2a46f0dcbfee6e102d16dd77e817eb4b6c187, 0x2ffd96aeafd6d9c43c9c0517133a4b7d34c1c2e8f398f81f0f6f030528d492e1),
(0xb74a38498b701b4129eb5abe8dcb13b9fff0f191314dd29309c38d0f4563c8ac, 0x9d844e57e50a20fd864d6f7c5a677855689be528f8431186ffa966799cb9014f),
(0xc35c9cd04afb20b43fd1c3375a952ad48e9a806ca64aa4b752fcb2045f89d26c, 0xb041c6aa4a83efcbdee79d8419e195b248c765c3f069d5a4b7e8779279a9c65a),
(0x9a85aa58753868b3f04b2af4479141d711703ddee5b6e5e8fea8ad37d0b82b96, 0x465c70abaa16f03bd24b8075233ec6264e0620413bf485f2551d99527bd75d27),
(0x3ec71bcce051f3e512d83c14cbd23f49b3e825a3cfa4c61bd12eb0575c86fe14, 0xf198c21de2daa56a55294c5ab033f1aa45caba3a9a950007db35f05ee9915bdc),
(0xee1cbe22939e1ede09010e23535bf33f6b09e5793737db45aea48f00b359ae63, 0xbf604026d4444df627f7d2971dab6a91acecb6d9de53228d47178017921b90a5),
(0xebcbf3e171de3a62ef47677d1ff4d0275a8cd92bbc889ee78dcf0c996746073e, 0x878d63c7bc9c72240914a3f302dadeb995c6d890a3823f9805c3f5749ef6ebe8),
(0xe4e92ee4ce72ef15b87c57d5259520d9b6066430c090dae56e81b2fdab9db797, 0x3faac4654a03a753559f47dbf58774526d21838c9c1f8217ebef6965655f944c),
(0xfc1ce7588e292b037b4ef74312eb1f67cf275fc67c1e3d635bc42dd0deac1cc1, 0x176b79bf44f7d9af7f7c791e8cafcb7a495bc392c23899b42fe7963de65186d7),
(0xf1f5bfff179e6a6c692a86b21c95ef8549482b3ab97a491f9e9c7056ba94fc56, 0x389257a8a2cd3bc3fb4f06205c2aae706704151210c6209313a2584f8a39e143),
(0x980e741461c3e001ba6bfef8d175a1412c7aaa2e748c3323ac744fd6ab793eb9, 0x6e37ddae29e05e83b3cdde28d428600534cbb33a636c4259c7fa76251b31826c),
(0xf519cff7686a5257071986dc7e6c1955adb7faa6a6f7a07f66a257eda1b1c179, 0x3e803eb08c765c987941d008a93b8503174ed4ed1c31e97f09eeb8f20a55a807)]

/-- secp256k1_pre_g[2432..2495], /repo/src/precomputed_ecmult.c:2472-2535 -/
def g04_6 : List (Nat × Nat) := [
(0x2dd8d9ea3851fea91ba9bafd0bcc5cc09011d93910edceee144e2755ba8f8061, 0x6147f1afd422468937cd058b4ef526187adfdea9ce970dc1365fe04d1da52ae3),
(0x860c42620948353747ac0c415aa00f632854f88cd7d09b35edefd7801454a4ae, 0xa2a7a22a7d826d258e7dfc561eef0d85d15378a280535cef95ce6e2ed73392f4),
(0xe76b20ec17d82c3d0987d4ea20535209e0697f902c964b28ae97ad0baed732a6, 0xc97844b685f6613bfdb7cec9cc47f70132bc1137d997f8f4ad18249267f54bf0),
(0x26731d0d12fba582636862b162a417b7718ec9cde3d047a650455efd0910ab88, 0x3c10efb30b464a6106e2023bb0736d6e8d29860947ba57143b1a71fc9b542192),
(0x50cb487852db811a87fe46f5ed014db03fc4570e8b2d8ea89865df9da224dcde, 0xbb8488a87937ae8988f572a0c100e450c69db48d303d06f95d54bd838b39621d),
(0xfb69453b1d67ffdb670f9fb92b3fae5f064b0c4dcb28ba0e7ebeeb21ffb02a60, 0xb0fdef3692d881b63ebb1387984120f8d1ba17af477364ca41e303eea4fd2c39),
(0xa8f1280b4b72022619faec4fea3f784d03f4061a56dbbb9938c7706d8bb249b4, 0xebb3b571ac5059134572e5014be7be33a97e12b9bc1fd9d4484703f46e39b8cc),
(0x4292ce09df305790f17cb3be30996016420f83c1bc19abb878b490276eacaa98, 0x1b14d94cbf2b1d1d82cf18733461b76cf32c8d5b6746e2f9aa2aa2481c745d36),
(0xac241177f16f747f0b79675049c83f8f8e1a062c9796b05b8c5a5587a4c9464f, 0xdd0575038261d044ec84eb0373065687266b695cef5cb41d1cba3b5d9176cf58),
(0x692eca7326bf2da57fd9d640acf7f84678e75c9b86b18e7dd7fd2545751823d3, 0x17d6d462548ea78a18557320289d61da014c38504ff033478f17fdd371c8e97f),
(0xd01b1a4455ef5011e4ecf946ec02e6f5d0e129d4d2f59889e823cc5b6f10e216, 0x84a4d89e55e33eddd54f38f21649f5fd807879e3388df98834556ae657f91a0f),
(0x1eba61f296a788d809273a6718f2a0cffb0798c2393330f12f890bc79bfc1e9b, 0x89f298cbe84710462df0a6a6b6c4b6af505da2c09ee13266bc47cd5d2ddc9661),
(0x26dff8da946031214649fe1f721edcc10a2300cab1a6d5489c9b68d7415980ea, 0xd8264a2155e1bbdfc3b65862efb9548f3c4a0a5f97f5b7139d3da15c90004e60),
(0x4e642b51425e18221275f64f283e9eb1a3116adca6e25047cee3bc0f323fe676, 0xf28b7d659125468c4951db0abc35d4dd65b9c5a0ed27d74247a68a2389eafbb2),
(0x354aff5cee9a27db37e7c97b4cea476bb4f3700ce9c26b21e94d2e1a78f448a2, 0x8d6907d1624b79e56392d0082f6a794e99b4c4d16ca78dd597709c862930fcdb),
(0x5286d074949369fe8f69f020c0b65f75e76995ee5f49b9dcd570b9568ffbdc3d, 0x255ef2e53dd2c40c1e462a4527e6ee00e0a23d3eb16b05e202781de6879703ab),
(0xb84a8346c86e22999acc8ff91a8935926bddeeb86fde121c266d5f603268add7, 0x31179a8c79f40238e1b80c8781e4659729f5c8d3d8bea0a3f65b403bef20789f),
(0x1e7bd5e663fc9a502258b9f114fc51c31b9dfc279022c67e0fde7872dd12bb94, 0x6287a9b40555b1467d250f11e77ee8b507accefe6d91cb6b927611f20c2c1b84),
(0x7ee68a2137289ebe7a5cfde6be672ca69d28acc454d6b8da9c96b2ad37d2bc81, 0x3ec3406400a6c3caf2a8aeee9b24e02303d7dcbeb7acddcc8a53db84c570c83e),
(0x29d4b10cf4be3bfaa9d07fddda6ba7aef3adef7567c3c33f8d4d914cf8ce570e, 0xb6a7438596a4f40a40d03c252c7070da2ec79e08dbef71f2422392ce1058bf4c),
(0x7907c5d95c5cd647e312a43b42c3f05350218f10da6279c9895516d7328c359e, 0x6c65a9e1ec062a1bf2abca52fdeeac182688837858f985d4c8f1c98764d6a625),
(0xcc436eaece11bbc336014fe7bc68fcfae5bc2c55c53430adfc994b8d959d31b1, 0x16160de7d6ffbf64d644e608960529856b2bd53966d7edb3a50c924bfa9706a2),
(0xcf023d5d278d4201ae659d556239dfa21b5fb30b014adbea7351b620150ec1f0, 0xd6007395ffcec07a6e71c26e7575cdb434c473b7057d45749e5154e4d4990741),
(0x01a2a093f718c59bd4d35b732c547b6112b6a257e807a38d71b04125e7746a21, 0x2674b542652fa39a1a2cadcc3924796e16c0f8b05d83f919f8b9354798fd4c95),
(0x534ed42004b8ac517518fdff0224ffaef712e4c706a84215fac925b7eeb799d7, 0x035e58523ea6199fb9fe497f576dfae8fa30782fd24cd439c0708118dbd82155),
(0x8d31e4ad9e6f30ae6c78ff188f4b0457e9ba646b3a26138cf11d84c14a00d08e, 0xf0dbefc1909396c13a1e36a4844b2a87e4b0b1cd4b30e99647839bcd4dd5feb2),
(0x817484520267405abf66437916ff7f73c418439f86b7315954c15fd22d2b3412, 0x13d1209b0435b50b014093899961f5ae9f6f95fd280beba7cb3f3f5da0f19bbc),
(0xbca87f72e604e8850064552bedf380ca4584227057efe12a6cc238470658aaa3, 0xee508af528b7712572c123c6276ba23faf26538d5752d84b54ee82badf9e3d0e),
(0x0de2baa9a19652f6c0c0365cd6e78cb9d527e5461240fc52e8c591837fcd3fb2, 0xaeb418ef466c32fd4cb5f2be571672dd865739410a9cf9bd73377aca1ed38905),
(0x7b8ce1e914df7919b54a0591c077135e556f6cabc7665e5ac000439022acca9e, 0xa60a3ff39cd8ad490c100b7204338a54d06a96a9f3fdc7c2fb8ae598c0b40628),
(0xcd71c17913fe744319bc80f8205d76174d6d44fda6ac3d1b0402279beca50e75, 0x9f1e73bfcf3438d01f01d1a93f633929ae385812528ad211967bf38c71419064),
(0x42cad02e32dc8dc34ba36161d0816af10619b70e117da444f4f1e45473ca8fe4, 0x97cb21345a259cff8870823dfe11031a79e59d7edd2593c665128a8c36e75568),
(0x98a891304f0652c62986644a62a1dfab48331756c8b9e1f6d473c03cb98ff8c7, 0xc130f2cecc5069039ca49b3e534ad484b277e0ad7b2a873398864000e9a824e8),
(0x23c45c76084762aa7bfd39ff284403b0d7a4a1286bd7b45522c09d2edf8a4328, 0xf4ab731795c46f47c3d46dc7cb0d43ded57cb274ff0c350af0d79548bb303cde),
(0x8b700037d584c4f2f65416f2dbd37c359e6a7b83108dad343a6c4d0c6a21d856, 0x8371ec039ed0066d4e8e7d8669169f9a5a172cf60c324c2becdfc76ac365ca35),
(0xda6164a8d0fb4111ca1d78f2083e8180004f4ae850ae8596cdb97d9aa30f8a7b, 0x0f9a8463717e4f17a77caf4e10c111011cc0b5a1c788307fc7aba4822a9a342d),
(0x49f37d65a9d1a54d1929b9c206db7d7ec45924e29e6010fa2202d47deb5fd6b7, 0xf9b9b78528f626297bd0dbba9340c14201e64895b1befa94ca677de7686aa51e),
(0x8755f088e26859a001a56b78ba1898ab12d80837308677ccb38e9c53e36efa10, 0x5d67013d1eec7a88215b4768f55f83f6434906a9f2f6a9a9de5df75f6ef7e478),
(0x35321796b7aba6dd873550fc5a35e081a4e6d134a127c534069ff777c609045c, 0x47ff0f43efa93f4ef197a6804f1e1133c5c8301cb49de8ba6fe10167f0a1e832),
(0x3abedd2b644bd2bbe77ab5ea02823b4283479fecdf2b342156fe9ace612559b3, 0x4269b08e6c13b818131824ba11e3369a87bbccfa330e408f17985b21e5e32b06),
(0xe30112a22c23462aa803dc530e3277d7c14b62cc92787f775be98ffc7c956de8, 0xd0c7e3d0dbb10e8b7a9f4e0ff93e758199d90f6dd869368a8d2ad3694898da40),
(0x06250858439c4b4f30d47f6cb9259103bcdf497bf09d3762f1073f5b973cd06b, 0x3437f5e484ce42585584407afb0e438387e4c9302fcc902ecd26b7215075328e),
(0x77ad4485b8c94cfa4e904bc390e93e3f66838d50fb16e09bdcb39ad688f826ea, 0x4dbc505a9798879e137c8444750ec3c334c2ecb5485bab736b0b9bbf806001d4),
(0x5dcd3e92e413601db9dce3377a8e67e43852b8cfac41066cad5791993ac0b7db, 0xacccd08135efb43a306760edec278f7f36996ed0d6367f85417754cba4e997c9),
(0x3a26663badce051fc41d2e6b9b931851e65ca38515f59737fc8c27f5caff788d, 0x2d647eabaf01d8460070110e07272cb49b9db0b8088a8113bab5f89b90abc2bb),
(0xf57cceb951dc98fc712fe9c2c024031f4e3b0f0205067ac4b8bb0096e4b1aec0, 0x696093eb7a8aebed0a751455782f99fbddb2c66d438a7bca9c4df301b7a1ea25),
(0xa89a4778bca06e140bdbd46c948ccd36df47c83a2dbba9b093589406be9b4a0c, 0xf4224dd69d08262d22b98e2e4e781e6e939d69edd59f30d1d23f9ea16ef366cf),
(0x6473838184fe82472b463f4c7ff04a6f6a3be92fba295d72adf065b810b962a9, 0xbcd100c0d09f6e934fe9d58dd58004d09ba164fa324010bbc973709a02ce32de),
(0x4a683a3821261e282e0196bad9f8727af7bcaa4cafd5e6866c7cffaa3adc7774, 0xb5aba4d0ec3d9aa439b37f0b15f40fed913af371b1b94f202cc93378954ff3b0),
(0x1025e16efdaeccd4436cfd9eb8ee161453fee046e420296f53cc2e5abb5cb3c7, 0xf806b96b67ce92a3e159b80758f38f730704e4d83bd611c225314400f0c48f3b),
(0x6149d809675a53536fe2217b7f6777c760039cb35a0840e4552e2ac6db6650d2, 0xe4ae636c9a9808aa4f49b03fbd12f786c72f07f29e397a1168154505b1a96ca9),
(0x0ba241124388834254ee83274bb03dd32fff3edb4d607047d8c141d4c3fec47f, 0x8a6bf12329c3fcdd38e6a18ded28c8a13717e9979d0c366d0aa640ddbad5c35e),
(0xc20df0963c7cac7e9dbaa259538af55035c0055094ad49932190688e7856a961, 0x491e995d16cf7ae985b8dd8d6a5890b8fb4f2c42aea7c33bad84835fb245d40a),
(0x6f53d8ca4dbb4d72d9ef3dcb93dd2ec1aac9f38b1b4cb2a50c76449d4faf0c50, 0x6784a02df449beb724156de2486753c077bbecc327caee12f78886874e7ae24a),
(0xe57e78bd71a08f6051c8a046184757eb6364ae0f8eca86b351317712737bdda3, 0xa0623c7e8a535f6657116c82da77554e31a1d26328ec0e8f116976d0f4385342),
(0xf52f6f29aad496ab9e0abd0ea7cb53a77853e8e1a6e5ffff285e97c4f7ab099a, 0x3df7c1fc6d5c5e818b5de4b766f2995dc361511c198a68e0b7196204559d55a3),
(0xda74f5fb5c0a6d096fb26268b33d9c86ec5cf08d8bd65fe259f836a73efb0dc3, 0x7e50e989de5e28477e31c81642a51edd8d0ea03135423f3effea07a948a62c47),
(0x2a2c9aa87bd452170f341d359a9d2de835d14414cfd3eed8a2337a64e051f4ff, 0xbf9efdeb99335f68a01fd7e5d8aec9f94968822159d18bf8a466c6ef9648a1ce),
(0x2a3440b191dc5314c6d0da7db07e2cf37d13bcef1ebfd23b492ad63292022266, 0xbdec24f5c993a0202f2fda24e8707947e4c1e9f22c34efc6dd1e62d3e2ae2b40),
(0xa3a9bd743d1d36adfad36e8bd55445000e0accead53d081c28740109e10942a2, 0xcc33decff8cae7d8dedab1fcea1b4c162cb71104ff75c16b66db334fec794ca0),
(0x5b83d48f70a2f212093dc72477f4d87f80db7eac2b08d70d308953d188804950, 0xf78c0488a10c66c2e11368d7690fcc4d982ecdb47ed539c3030d4b144248b545),
(0xdd5b46a56e3e4a220039e210a871db8ed901ab963c6fec294140d77b0be9736a, 0xd9b76ebaebdd45ac35c52268ccd35df89e7136ef879848ceae647c13d421d46b),
(0x2f74db5a254861276236bc5b22214097d1ff781f03798f6462cc6dcb3f61a6d3, 0xb6d635ed256f6d2fa91b868ea3014db364647147ac89248eca983c0953149c1c),
(0x32adc0c41f7c939a58640b8bfde1c8ba119bff26dfe4b0bec5058ddf23ab2e09, 0xcf3172487f0bb297d7d7772d2a01d91740beed833a35a29366bbb0dd3946ae3f)]

/-- secp256k1_pre_g[2496..2559], /repo/src/precomputed_ecmult.c:2536-2599 -/
def g04_7 : List (Nat × Nat) := [
(0x4fe53ca700172da8272a152ed74c07ed4e336cb585cb2ae936f9f30187c6cdce, 0x81f6d1c4bd711c1621cc2986916578c6baf4287058b8484327e46e9881e3a8ce),
(0x601934f5577fa2a6702f316eb4dfed9a3b08dc065d3e58ae63f8548d9fb2569f, 0x6df7d8824360fd7fb5f96f6893b1f1de55e19690f6acf954362074d030f714cc),
(0x079da7088ff4806c64492ee52e9dda2fe1bec3c679fa31298173c0f7aa79d321, 0x2b1eca2976f2884a35167e8abd2055af44be734bb0e0847ff90abe8b017f9a47),
(0x602b8209c39f299cbc208b51ca8bf6915b8d4fc8d83991867e589dce79262974, 0x0f8b6cda05d7ca836aac43f94791a5d8a5ed1f05af90f5f2267cd9da567f5555),
(0x57a4f368868a8a6d572991e484e664810ff14c05c0fa023275251151fe0e53d1, 0x0d6cc87c5bc29b83368e17869e964f2f53d52ea3aa3e5a9efa1fa578123a0c6d),
(0x4f9b48f0ae9df11070c4c5ae2b012cd64599063e5bd32b5443548b786a06db2a, 0xd5a7a0fe3cafc78f66f563ebf6fe42ae980cd621bf18aa157bdeded7dd5ea016),
(0xe46a53084b11349f4466158938bb663de1910aad35de07085a053b5f6c5e7375, 0xda46da889583632dfbf923be9f07ace2cb8c3d2bfa6bfc479e1a7d32e1183ce9),
(0x3643d766b94b161e323e64de3c925040d62f2ad62b60a67415c8b96201c071ea, 0xfaf69af11f2b9e05db29dcffa020f6d480835d4f83d35a967aff1b5b9f16fa98),
(0x967696940c0261521bbe1b48544e05dce6bea57b7fa31478f6ff1b1bbf497dca, 0x4eb5a6fd7d0dae149673b033bd97c08f8210fd12c759293c40782702b3e30b03),
(0x02e41def2c47993189be0ff4b4110e287f80fda6f4134ef65c867e6659a24d07, 0x26a14d7bb8388b12a3ba1f50e56ffb3a69bde3c117441f520158531dc874c313),
(0xf39d941af6eafe0e9a44fbf771eb63e4db94cbf0854a837db7f284c5ac03c29b, 0x1ffed7700dac4d122241f8b5507e04b072cd5934c03b0183d8b62e738cbd7b73),
(0x90900d344576beea0911f8dcc2d906251cdac04528017d1c5957644950136419, 0x60d38bbb2a338102da0444980a2b2c5c1457cee6eb34d666b0c0956a48161ad6),
(0x3a5e46271007f4a62e744226f1d2b78244a523e397b6509ee3e1a513d8ac2e06, 0x50f01fc1074cfc3f0256dee2fa415f350bcdfcfe57b79d90f75226bae8202449),
(0xf66ea256f6d711e41ea5492ef6f6e46ab13ac258a8f0eb87a06b6c3f13e24355, 0xfb8a1c470980ea6c87ec24014c0f6d2a8f32a2a06f3fd0b57fa0030726243841),
(0xcada052019a16cccfbb6d4ed6c7436d0c946a485ab3362a85c62580bd3038fa0, 0xe249940a34804324ac70696391ae7393421de9710af0f2032b5f2d2107d32ae6),
(0xd16f5b5e820b729596bd51929dd830b2ce2084135c2db7122c4e75facb759cf1, 0x70edb084cfbebcd7ddd3638075e051476ecdd585e228749ce61e37846a448ed8),
(0xbbccce8ddc6bae0dcb6e51498c666f313dc31ac9d4d949a484751134d5f71535, 0x4da772fc63ff92be5271b47968e7bbf5c8941f680989fa6ea23ce5ad23f91eed),
(0x515f28f5cd8b75c4325e940d06821ebae7d5d2f8e836b2915f606152ed4243fe, 0xa13143ccf5d2b8fe14a09f4668229258e1855a826f7db2a24ba2f1c463668b47),
(0xbd2f46aea78c462d8691ed6f9d38127868d356b5b8fd7f79df6ed84521233837, 0x8f645ed3f3cc803f7eb32f70ed7d6fe284ddd9ae62ab8324b92bd7c879c4af11),
(0x8576f13cc3d3212269e10b512011a45004f8d7d392e0f13347d7d65df9e37dfa, 0xfbbf20483fa0e1312309eb8c19eede8b86ff902845b661958d19d903f68b1a4f),
(0x70be1e918fdf4e47d73f262abf2361fd763a83f2d31cf41a23b8c9f38309db4a, 0x82f80575e4246ef40c13fa488892943ba1897ac9dc3ef18829f3f708428bc573),
(0xbb8a093d1d586b539bf54a461a353af90173529a12312361c8064e914b41180f, 0x460e0ed78456a251cd68d66bccf5de7e28707540d221d65e72334d85af478269),
(0x7817ae4f34d9194cf4b306287071fa1e7b976a84754c18606dc4a124bc5c2e69, 0x25f4ec56c4e3b1b5bc6ed346e4f8b3406afe1c0c0f84ad7b481be5dd2cd55cbc),
(0x85c760dc411f59fa6feed8e2a0e5bb5fe72af5f12734c9a5bccfed11bf66abcc, 0x92583db0b57c9c71bf0f124823a67e5b89a8910e6500e8ad10666b26cbcb8cc4),
(0x20d80d354d9d762ff2c739e3b1e7377bd9ee712347ea979ad4c81abc5d5086c3, 0x6e191d7b8017a675e8123b7f1f1351b50ef6ed6b1b225cf748941df762f0efe5),
(0x3306922d43f2c4b065f6d9c8d1289804ec26cefc97090fde086dc3e0fdba5657, 0x98a8cc9fc93dd7ac7079f76efa1c406586f0e9419f87cd881b865c3013c7efc4),
(0xb35c759754d37f12440f7703392236818a1b9aac0b085fc18acde6c73b2fb001, 0x00484b9069b0848595c58ffb0df5968e2ea789b46f93d660a7af6b7513cd649d),
(0x9bd41b537f8bc3036cc9d01045922b1a05c647f8e90fd58786ef0975474e1f33, 0x590afbf655ece125da486bfe1ff389a58b8667768d2013aec25d03bcbf0274ac),
(0x2a3a672ca9b3aef0bce89703a38e0dcb6950d93a7359420e5278f160541ded42, 0x4c3a94b613f3383db908ebef6b62bab2c95f850cf88aea5fc6af3b89c2693d8e),
(0x31ba6af20a2d94f8d4df3800353806dcc8db945f16dc5bf69379438258f74d3d, 0xad19dd02b290eb1cba5d915ef60344c5fc1e6a82c5427f4a236238cc2329df5a),
(0xfa2199bd74b014f05df0f9b8ebf44a98587c0251e9c49bb05bb12952bc869720, 0x4328917d6efdf5f4b0f5c483860e1e9b041ab6eeb1f5631a66d2d213b163f45e),
(0x417b9046c7f53c0f5ccf2847692ab63d08aaac02e3bfd99f30a469a98be22d52, 0x78c15e655f309788dff6eae691706e007aede9a83bdb08e0d495d6a4863b82c0),
(0x56ac91f247d51fd88a0e6eca67a69ffa6158f49801714964f33e43d56f18bc2a, 0x351b7d5c9e1b1a4b717c518b37b81c64429beeae26e7a740c54b1a66dd0680c7),
(0xaeba32f883307ef3152d835aa0babec9e164ae7010c9025068507d6537215f8a, 0x8d747d3935cf5f2e6ff165577ccef8437ce7e3c6a41cc40fdcde2ae8582c4e21),
(0x42c7b2199af00c97693d6bcc256ed04779ee10eb0e4dbe63d47d681d21db5813, 0xa15fb7081fb1c7cb2ce44a4df8958432a5fd875d1fcf7c75c3c4865bb219378f),
(0x4337b297ecf365a888bfe19d01bcd5fe25e0dba209c39e2c36ca116da24e5d98, 0x49c723abc6541edbcbc833485e06db7328d1ef8bc9cd9722915415bb2242b7ad),
(0x18998c761481932ce968af0ceb84b250aeefbf2527e4ef84a2519a1db7f857bf, 0x455ebc85645184435cac9ae77f3289d091133054d0bf9ba39b7c812826c97fa2),
(0x64c76320fa24572a0590516f1bfd8b4f87767b641e65588e69cb895b06a49b2b, 0x0a39a2a5c4795095a03ae76f86825ec178366c8a8799d395d39fe8cf74b9603f),
(0x41657405e35eb87ca5ba5f2d3c6f12a6dea917a33b3b44e1ebbd3bf4812b0ad7, 0x8e2169ae36f1452b4577fe787adccb534d0ed75c2096b4916b68dd6f95ff815d),
(0xaa200fa3768a4b8916e110c80f4a63157bfd4a1102c10cb68b76e30dc0391f6e, 0x567bd95928b21555dfec898bd7d198a8c49b79d46905afde7fb3534ea584695b),
(0x7aa78328841d2f54b843ba48c8c9c623eb529bd69e584966555f9bba77131599, 0x6b4a2715e4b8478b24da7e7a64e2f6f13271124629a583ba1bb44af369f698ed),
(0x94b1a7bd6a2767ff0459234fc78fbbbe48446b4f64bbdfdfdae34475396969a1, 0x8f3065ef2273a871dd29320a8b9aa41ee77e2178e8b8854fdf1e88cf991cc33d),
(0x6b957ba71bfeebf5294c8cb27681e0c05407df7137a3471035fd98ced526573a, 0x67e4808d3fc1853c5e5cd4ff6efb509235c6df0ec0a5f7f4583fdb887a2724a0),
(0x8b2743300ea341003be93892ab1fcb2bf9a6dfb680bd9cb2b8aa691643717f7f, 0x54fa2abb77855883e627f82849c713894ed141aa09c9cda3c99afaf17998db90),
(0xd3f64f9b67362339491274de77ac665f3b686372499a12e75d145e267b58db05, 0xc06116c852bd15f4145284f43899faa89bea58504018310e5c82a050c9a52449),
(0x198926f8ce0e432901bb9280390f795e870d071e801b4d4bc4aeb555f237ba79, 0x76125bd95b8d07e75e27658fa0dcf10f5d6c10d04548dd76a833f206d2b3d34e),
(0x001bbd4d595152f839746cfb6ddc2584ee4358fc6f8783099adca58bcf01a13f, 0x18f534decceac5ea7083cdfe3de5ebdfebdc70fc4f0856e0b587e9fcdf8d7733),
(0x88737f45b263927237cb551f520226930052457f21db398c1312e275f5a3132a, 0x79a5672c2895e1e84b1a7b2221ba0c5ee3e61cfec95aa0290b2a179de0c496ed),
(0xcbf3e18b1f27777334cca35e8fe1cfa92d68497e46e7a252004e14bfcccb1e83, 0xdb00c39565bd456c3c9d242a5f24748c7b91f770926ba9a401ff5c9486bc3f99),
(0x8070ef0cf186efae5f9c884672a93a988ab65b202720893c40b1a641c7022f70, 0xda9805b046946a0546824cf5a87fd838cc85c853a745d8caa249d881127bd9e5),
(0xacaf984b8fa45dbbe84c506408b6fe235c57dcb621243e2190286980c3f71eab, 0x46f4ec168259fa2ef144dfb0bbae2907801b8c1df17dd0b5d1db3bd12ceb278e),
(0x02893a0591f9ecea735e8a32a57e3d25e891625252a440994eeda971fbfdc965, 0x6ea2994191e4b123012b5186efb7d255372aa6c20aaf12a18c3b15a07bcfbb6a),
(0x6497463168f0cb609c926e285ed12df0cfccab0a58f11b39dc05b644c2be951d, 0xea74181b2fa885e24344bb219f2509c7d432b5a9c178b4060160489a31eafb7c),
(0xb938443e513394c8b2d4f7c2098110390918621c5d3a86e2d1bf0e88ba1faeef, 0xaf47f2a8c7d9864250784f3845ff9414c52473c89b669be096387dafc353fc85),
(0xbd1ee245ad10f50e9f8fd4a7876346b924f4758ccf69bb8d42f6dac59d2a5320, 0x776e2e3e069d88d5c26477ac74ffe92c134ce44364b39518af787348e0039605),
(0x0cb7ec68805e855f17e7dc054279d8fb6d8e132067a486a97d49df43c660650f, 0xf50790b284c0410311f302eb071525fdb12d73396d259b5a91ce4fd8229e903c),
(0xef07cf7e0affbb5a29e22a1c7c84cda71968c615fbde2a15e1c1211bab30cf83, 0x98f4a6c9422630d4103fc2fee4c80f2c2ca5565e25859979815c425c70ef574f),
(0x4ffc19484d7fcc59ccce4ca0d11400f113dc5064086267814eec26ad3e7b8fc6, 0xbe9ebe0798ff3d83cb5ac1075dc87f12d94b65e3937ee66961b4e5877fb75aa9),
(0xcbdd5373339ed493b8cdf0efac6371b0fad1ad6b2da4db63b4ed68bc61d18396, 0x527de487c3212d471f538b6ff709c1303784a7d7c803e5fac77bfa1ad6bdb13f),
(0xea035b2bd8a1d7e9db7f6b065e003f994e650aa0e3035fed65e7bf5bc67cb5d2, 0xaecb43702219f48886772e91afe81c6b2cd57e962a3b0edddbc646088c3761c4),
(0xde1a4fd6c1d6240ad6e9dda6b2d43fda911648f6901ed0cd99ba8ef599f8db89, 0xeffc94d161c0ff41d1ca6085371e2e62f85f90b10542d2cd3a4223ea884da03e),
(0x2e644141e8d87ed6e12157878bcffebcd75e118af00fb7f0e58cf5b7e6a076ed, 0x4aa858ddf2ba62d86b8a7011026d22c2b45c240df65f85b7320e80ffcb34b8d2),
(0x3844386a90d6b87890fb78ad08f2d28e47ff88792d275c3e956883b371b73a33, 0xf7f5df121a8149c075f6bde12ca8ee89ff284557f17cd57c714fd474b365cd18),
(0xe1fe9b321b91d3622b618cd89ae8203dbde185e0bab2fae8ff7e96f074358e42, 0xc590fe901797132ea25eff10f2bf2a76cef4f064acaba1d5f8537b4addf3e1c4)]

/-- secp256k1_pre_g[2048..2559] in pieces of 64 entries -/
def g04 : List (List (Nat × Nat)) := [g04_0, g04_1, g04_2, g04_3, g04_4, g04_5, g04_6, g04_7]

end Secp.Model.PreG
