/-!
Generated from /repo/src/precomputed_ecmult.c:12870-13381: entries 4608 to 5119 of
`secp256k1_pre_g_128`, as pairs (x, y).
-/

namespace Secp.Model.PreG

/-- secp256k1_pre_g_128[4608..4671], /repo/src/precomputed_ecmult.c:12870-12933 -/
def h09_0 : List (Nat × Nat) := [
(0xcbbd4ee633aec586ec7ba712c3bbffafa0e6497b8618a476b64c660b340046da, 0xd792753fc73090ac177ec5e340aada733b31dcf3a1f46952625dab857e9b9795),
(0x73cfd29599b6b80f8757a873ce9166eab1960f77fa8f1d550ddcdc909420a751, 0x17832aabc1083af5683f8cf723c6376c0c22d190241e1e376b1ef2dd7333c873),
(0x20572bf80abe50ea037a064f738dd18f531b9404e7e4d6932c9fc34fef6dede3, 0x41c7937511c8911f3146bb2f63750887c663d2d6f3fbbd5330af73c69d332191),
(0xac2088052f1518d03724ef5dcb149f361ed713a294392f929617385794794f70, 0x1820bb1a0e8432559025f3ac977d9f594e812cd7e27c390b0b2fe905ae2b7017),
(0x33467f9560aae872b5c9afba7f29cd32a213f19747745d8d945d06e8295afacc, 0x44040bd8138d9bb276181e2179f4bf984b0c3965a1a47d34be8f47ff52e15af2),
(0x01a7791075bd3497cbaff6a5d5e8bd6f439f5bb7ca3eeb9868033ef1cff83f03, 0xd8af802bdaeebe88f823c43d447f190663ede3d4c4b9dbd5caf82a3db4f1cecd),
(0xdfacafe8cc15f85cf829d9139a9aedc86a98e0105308572f94c183b5533f5bb2, 0x0c076b6dc708d2c9895e22f302fe42f433ad38c2a0c55aaa5c551facfe601916),
(0x3cd975ea9eb5fc5614955bb2db0ca413b83116e3a09454dc7fe973c57ee33ca9, 0x261e55442fd503f77c1c7a49de96fb500aeac56d30cf3ae408b2e1cb1b9fcb6a),
(0x168ac250d23cbce60023eeda1389e261c56bc7184234bebe6b108bf9bf6df45d, 0xadd3ffb7b0a9a86021ca51e20f3d2e2d19206bad78d9e6612895068ac880fcb2),
(0x47bae439031966a6984241b22afc8b8694db88c2abdb1737728e1af0e3803968, 0xa7cb7d64a07cd13d2c8dc7a78a7a144f08edf9155cec20af102260b2d8d355a4),
(0x76e73a26730b14448ecf60e13489de8b93355af68943669f20da17f14f04d517, 0x41f755203d5d528b2e81bab19ce8031bbf9c73ce7927645d178ad762669b99fb),
(0xf6f08712d85f9219bb4751221ada6a751a8d47580f5dd72ff5231d56e634c19f, 0xd72cfc420379ee25eb0fb134338109a37752fdd81ad102b5f365a2761d133f10),
(0x1acac95c9b0ed53be6c37d037d47a7962a371cafcede380e799d0110b0634f7f, 0x658c6b744484695293a5215c63695a5bfc80f818633e0278f6a1193c6d441bc1),
(0x5759a8bdab76d44913258631687733695b76d2da7b1e40041bf99198bb25f218, 0x15c1dc978ecff6f7cfd6cbb544ab866683127b41951c247a00f448554afde3cd),
(0xcae1e14ec28ddbfa379a97d05f3ae3793771750f5a9ec7432039f4408fa7e2f5, 0xeef092686b9f60da8e64ae6408f13d018f7b9ef6aa849f9f72df2f9df80fbf60),
(0x9aaa132b947da7e49c1de2eace06e3f9ccdc37d706d2081abe5f3a379b0756a0, 0xe9bee628d6a64476af60173768829c11e8646e8cbeba7174806d800f056f6676),
(0xf38b62b24d609d0170cbe85acedde44b7a766a300d8b7db68d935735c4d0d204, 0x8b61a5f7e3caa2f917ef9ce2c5eb24990667558f7c4e4e842644dfdfa57666c6),
(0x25c121fc74c57f340029a1438ff3c47a0f06b5de74c4dcef4a093b873a2ab659, 0x69254121eadbd76f289cbf3c21cc96fc0436ea339ccbc8e6fed92b2d331246da),
(0x95666156c40929aa8a7ca656c42c64d0e24c3789ad3781f709e2a0eac7ab9c1f, 0x116f57507e07b84692106d6b6976741a59bf7cf7909733e8e1fb54f3fd77e783),
(0xcdf1c0107c48b65bc001df94c6e84d12d8885af5820d65a54e7ffea1ef4c0081, 0x8f3d1be4206bd313e1c498e15e7a999564312ea5aa8231969c5663499c3a04b8),
(0x955269f2be0d5e205382b2c1959103fdfa2c23869bbdd33ea09487fc294dd1ee, 0x6306a0924ce6379841b2d7738cf97ca5e259f81aa67b1e0d042903f1beaa869e),
(0x78013976449ddc234d32a7935ea525d59afa361747e0a8f9c8141d9c2b231e14, 0x8d28142cbb88abfa1a72d5834e509d693cdee0d3bdff478883618ce7a1ace69a),
(0xe6d67a8dfe5131472c0fe227bb08a8f225e2606e23672969ad3acd65155f972e, 0x46c8695a5b9d931badb568c9d3f9a8a9dd501508fed00c995159f518bed035ae),
(0x1779ea78eed6d974563cac2bb3e72693409b7029789e0188d061a1823f18e962, 0x82590ffa6b9e0e13d2e72bef96d555df9f7d2b812423a947e0dae41f91cc0722),
(0x28ec208a6e929f8ea815fc177b9270867d48254753ba5c3d3b56fa91acbb67d8, 0xb4453dd2eb96434894cc1cfa25616a2e2f0803e28796206cdd31ccd2dc69aff6),
(0xc218c6d83124c9d1c988981fd4614af7ff85a572dd89e4ef6209e80fe7656de6, 0x7259c42145ef6e9bd4f451e6e2dd226c2e7506508ff7834a965cca4bcdbfede8),
(0x4c9891e75559d993536fec73a433006f4f0e4e42f427300f7a3825df85b1cd9a, 0x7463ce1b9f9af66d7a5d2d43ab0f09ed186eb13292c754310ccee6454280aa2a),
(0xa89fcff0694ed82d537399ebb59a054f0f43eb74f8e1fc95be0c03c59889c931, 0x3ef3c627e3011b2f38d596d08ded759f0fe30ffc9db953564e01c8a02949ea1e),
(0xa8b3ef89561da88d0ca9890d5e4be6528a4b8fe1691d152254bcca431e7ed801, 0xc86fc39752254f6188ee51284bd543478abe7390c784b51b6d41c9475d58bada),
(0x6a2fd5db0da9093c2f7c7ed89eeeec7eefd7e759eacc29465d1f3a15baef5b42, 0x8b71ac633886ef2574e212a0499c34e2d2c7c1eeb70fe7f438e0891448395e4a),
(0xd33dada530626dc91d23d16a620dbeb47551ca44dd6c8b18fbf136b31ae4e097, 0x4161f6a78273ead4443c93f802562a291dea1adcd84ba0d375a997d0f07d4ed0),
(0x53ef9ef5731d947393e70829bcac33963b7a597a1f3c861d401af7f7fb1559d0, 0x8654f8c363e53905a4d1e2c4378fc3b5fd5ffe3de7fd3adb399d883b3d1b9e18),
(0x5f13c5af06979832da1bd43c4b7df9701ad837cde59d8f15381858d66263b0a1, 0x3b0ec16a1024c902666dca024649c1102a17205be4ac20df26ce5b928baf90c1),
(0x674b7de7f65337a8c66dbf232f86d6a4feedabbbb71e83dcfd85492686f14f86, 0xe3961790a662c6b370460e1618ce3b6f42bb614278fe9e2e06bb1179181c2aae),
(0x291eed8b47c3e2f6b3c2967f767437085c460c5dd5d6a75c489dcf0b4d98b8eb, 0xe19a9d2a72fa37e1e10ec8539c772565c53e36e90160651dc2a8e364db408ef8),
(0xe737a4071bf4fbe4ee5d3d747df3cb54cca38f480f977919907deccc7090ee3a, 0xac66d42279441d732809d69568f700a03fc5be058241da399be3a63f8da16069),
(0x67fb16767c3231f3428b39e7bdd082d701194a51ae99a7a36c113e87d338712f, 0x38c2ae1fafb521f2279aae5b6ba5c6361dd34c04a7726555acb9265d31c996f8),
(0x9b3b478871bc413c5e9d2b9c61e0cda7f2fb908b805f3370000456395e616230, 0x7028b68eaf818a13d32f116aaeb0bf45215d3d626e6ccb1e0a901544ef1d696e),
(0x6319341559bb1e392f92dad6e5f8576f7f49d4d1439f4f61a6f2be0a75bd99e6, 0x259d5f216c780a8a5bba3e662242f26f1adef829a535dd9711f8e786f0a57932),
(0x4163082b7720a8ebe881b398dae059ff3a65fba7f8b93afb06e3dae66a969c79, 0x03939395d8e90807e77e87a74c89f861c689de81a37caf6c327883107b938ffc),
(0xb3a6baad15c01677ad6bed54ea5ee4154d0bcb7e3ce59f170007ff26ef23b82b, 0x711681f21e56c0c5f2c2b011dcf75716300e305c110f407151d1189025bc4760),
(0x9011d111fcebd882b9a228dafdee1297824c40077d5ad9bd059e603b43be8f52, 0xd530102eaac87930eff135f2e55b53107c03ea00d24f12016653e3e55d778246),
(0xd50adaf10d68a746e1e7b1487660e90cf268450bdf460d52e1f761abbf7018df, 0x4ed454c45eb30cd6e6f1c4d807df2beae15ebc07e4b4e50ae4dea73393abcf8c),
(0xcf886295d1eca9f34c95acfab86a506182e30324ba5b495c70318cf79e910d70, 0x59bb70683147c26e45c76e7be018e4671f47f4882c044484062a50538023fd40),
(0x38723d58ffc69ea09a8f2655dc225da378b9224af8d81e7abf8f29ee292ddd24, 0xc41d67bbe699e5043198adb8ff11a5e004033b6698d3ec18256bab1193db5535),
(0x5b41d5f81e2443dbd13521e6e7b7fdf24a226cce0f36927922b353ef107f759d, 0x8ad730a5bfb9f01f0853434b24866a49912fc756e086e781a07ff2e798ef38d3),
(0x4f3c24c707dc7e41843e9018400d3bc75d1dc9582895c11d3855b80f4709373d, 0xa485adaec547a5a4e0695913c4c2fb5d0ea16a3c5211c1624819d7045b0d8d6b),
(0xf603e0c28b40c8b0a6a0378bc42890595a4cf4c92b74199a4e4e231fa6b458a6, 0xa73aa12d76572041f01c33eaca599a309ba0b8380f1d67fd67a9a5d5c3ffe258),
(0x84ef0a980229c7af9404cc2560f4fe1b4c8e66d91aa9611853fc4f25eac78a61, 0x653df9373640b28b2c2c40611d79c4c4a2d577afb572f5f9e50cf3fd2b2dbcd5),
(0xe675d9986b3bcd4ad098ec95c386be9b4e96e448ce6c937115c5dedfd97941b6, 0x4319799ec4103d6518590091e333cd589901b020a62565b7f84219bfe31003fb),
(0x10837b333603f33be528f391b5b672c893fbd81399c5dfeaf6126e6c2a2633bd, 0xcdee95342456a2618a293b49d91ed2aef620addbed83fc66d169da3aa6d0e2f6),
(0x4cb1ddb606ad3c1b68c6b0ea408ba1d7dafdbe5489c22d477a62dcc777a8e013, 0x6c00548429e789f75c34d8cda473270d75eb8f1c3db1385687cda96e5cd4b370),
(0xdb72d671ff3e0102b1c52481b66ea1428f7fcd43015e2792eae234a9291926e6, 0x71c55f7168a088f9980bdb6b79b052d74edd0b197ab7359d9a2f9ce9f1c5a5d9),
(0x99f92125162e18ce7493e6e391cd06fd681371b32e147ab024ae379915f586d3, 0x9286b3de12ee578a12ded34175bdb712d939b7e5555e86c182f1f2833c1b1d40),
(0xa2b8b63c8984a6662b09c18db2d7f263796660f43bd78eaf0af7c63b986c92d9, 0x2003787b2af02879642b0a2cf716f4d585dac86fe58c7d41d1959763310a67e1),
(0x9292ef4021bbe6dd8c26a862c9b7da544292e479a9e89264618e3a479773b446, 0x0d1a51e465bdfdd0dbf74fd3d449f6bbea862eedad369c5234a695f1d229ead2),
(0x08d5a920547d838f90159068ceeab220cc6aa126d423edd02e136cc001cea5d4, 0xc3334a690f7694e943ccb1822caf2abff4caa83ba006af52bc010bab8710b596),
(0x7b62f4a707b79c0976dd2f744ec08d9d21511fa07891ff5c52b8dfa4ae3430bc, 0x70ab2073cb3a7cea350e6aeddd0c9a6cff8e02eb69bd14a8a09e9b8eccb19a0a),
(0xe18a9c0205829b47cdd34c11f97f2edba7fb9b9dfa4777a6dbdc3cd685245b12, 0x7386fa51881fe49aadbd53278d6cd0c51063dab0aa830b7d88c7a4d79998e743),
(0xab9b68ad61335dea767c763e3294d41474a6d4cee4ab9a787fbb674907307d0f, 0xaab48fbf53f365adbf94f823ea973a25f6ddd341397bd81f8e825f60c916852b),
(0x3412531e8423364d8d8bac05bb78973d7b8d375a9e52d81ebed480272abdedeb, 0x1b9f5eae59ea33859de752f5db973a864c735e69fa8882ece1ca835077d77335),
(0x6a6425bbaf9f65d01a40133046053b507ac8d45a77b30de369eed52b956799b0, 0x7cbdae8193368c6005671ae9faead4ca02887bd89a06062bdd6707fef849f484),
(0x87860648af9ffbad50871c2f29bce0b3e96938358a0672015c1156a67107a4cf, 0x8660c0d8f1aea58ac613f6f35b27baf553835493fbc0e203f024ee3627bbfa53),
(0x3573361071c550575392c6853cadd8a306618443d80b362553a2f197d3c52539, 0x42935628adab5bd4e0aad0dda7d7662758524b2f34ded1ccd3e442496d213630)]

/-- secp256k1_pre_g_128[4672..4735], /repo/src/precomputed_ecmult.c:12934-12997 -/
def h09_1 : List (Nat × Nat) := [
(0x82d219492fd48d5165bea0276ac15cf5d27bd73645e0327124f0f6898a2f4a25, 0xf13d9063fed02a941b4e5c67f42d82b533f18ff9ca4622f679c6aabcea454c21),
(0xba1a1c836dabf825e517ff65549e1d5e729944a1d7b17ceaaa4466ac39ec6eba, 0xf01dd75103557249d2fb224b40ea19e057b4052eadc46787af587ad1458bb4f0),
(0x5cfeac366bbe58d845a36cd7de6601c856943a07522364b223a1718e6df8de8a, 0x6651d3d5a344af69025fe039c9e29e7795544b9666752f4fc9a3bb57c5586c32),
(0xe5e314fa2b2bb6306fc235bacfd356aebbf88bf7eb039629165d8651c0c7d5ff, 0xc727787ba63cddb8feef96b02f6c8d0c9722fb4c6274e03432d9016aeb4d8cb6),
(0xf84d8db4b745cfc0bad4844cb5a28d7c080ed5fe6baefda41d9cff9c158c7ec1, 0xcbd7bc36a8313a27feb8121fa8847bd7937fa53ad56ea066fa600411d87dcad8),
(0x8806a2b9d72156ee4948e86d43f4b3ac0cb24529e1b2b2f35ff94812e9534513, 0xaff42464773f6535b4dc5eb776a3f7b07bc2fdce1413587fc4055cc5afca3129),
(0xe2ddb5efa1105437b6107305bc715e55ec0266aaa0ba1bcbe12ab80145af7eb2, 0x43e4d056804f229dda5a1efa8f4291896c9edf94fba505f31f22b5118b698ba9),
(0x636f32ffea843368c0cb708f43841ef320151e3935683ebdbb1f476eaf2f8c5d, 0x7fd533210517616cc7d24b51851bede6b03c50d982269773dd51e36e4898365d),
(0x0bbcdd1ff5b47391d728a06d0b4783d5b0e279cc107488de44446e369d11d143, 0x6ac7dfc647d25b377281abf90ead782ab5f815d7b2c9f6a846a8a6eb9253014e),
(0xaf0ed949022336a4337e9c0153357e023d7a27283c6497123e11794439ed3577, 0x0d8b9c03958dfa89ec2105b1d9542d68568797e37df16cc30861627f298f3359),
(0x11ba75aedb365552b0d3f938f03a115a544a0818b2f54f50e48732496f80ce13, 0xa6bce69cf983831770f703707073e87c61b65c0dbfd34deaf0c549f9c58e674f),
(0xe7560fb579e5ca35f45881dbb05383f4c5536ea8a5438fc4ec198ba87543d3ad, 0xff48d1a0bcf5e5109ed50a0ded8e5b8344da25e1a1a3d421606d19f7e28fe79d),
(0xce7e289c61f4927bbf933eb5193fd2a3a068643580c8f2351e24c33ce418cf10, 0x17246f2e0e87f4cef1c8596aecdb1f951407ee7f0dd839c9981023442f4dcbcf),
(0xb765b87532ba4db1211c612fb833ba18156fa0dd0875aa61df1ba9b47d1c405d, 0x862d28f6d85a8ad3bebfbc82437404f52e0abafc64369b51b75364cd0c827171),
(0x400560bf0d2863ea2bd9e2464eafab2c2798cb95b976c022bb9d21530e5978a0, 0x92ca9a1d938e53d5d10f1f8354abe43ce8f8c2c9d4e851cca363ed59071e2681),
(0x7859190b8e619c9876af21e964f323e5221cd4c883dd9fdde56f691ee3db91a2, 0xe1874376755165c372abd73e415f2663bd94cf282009492ae5034da86f6bf949),
(0x87d90b40bb472b84f9d24cafba7a6437b50febd95c643aafe235750b12527ef6, 0xe6a0f7192569742523517ea6183faa64dee1ef63183ab1e83a603b9820452c4e),
(0xdbae1ee5a1b6affdf9b41ff6a1f2790b2c492ce7538656900ce5281ea7f08177, 0xf6a2be9000a2c3cf8e14bf874cc52648b60f9a262930f6e89fadad4fd919db6a),
(0x943a79cd8826047510d90c994d8d784b32c03d1ff247810296125f7b28576216, 0x48d4477bf97c4cbb4a96ff99e427d4accda9a3672ae6693088d8cc573bb3e2d7),
(0x699911a381ff3c7e71b3a45814133f3cec644378e3244d666d083c557b6c040d, 0x03eec6843190d6f385b07116b3b1ba154ecacec063e029339b83afad5598b22a),
(0xf002302d9ca256e5cc38ad82e529b461efb69f2852513917fb8d63df45e602ba, 0x78455ea9708b750a97dc74ec8939c880d76010d678e0c1123616483bfb4e788f),
(0x5f701ce965a20314a65e2c0e1cedded9ddfc9d0141a1e095e91b9915cd2aacb1, 0x57e770f2d04e33ffc9d7807a4c3d1edb003f9ed2c19771d67e85e618463e5663),
(0x454c122aff85c42e49d6f033877444628acfed3190c41255e8e3492883563fcb, 0x9d9d6435a2c4d146d92f34cc40b32a7e555848850082143a52039fd7129fa6f6),
(0xd9abd19e81f392d88382918d6ab3f89dde793abe2eba3aa7b58b0ca31e614e51, 0x8c1a0f808b8d9e56aed2155495f8902ea390505e15cafbc42b71cf05575abeec),
(0x20779414b5ed6524b3613a8cd0b6e9c7ff3b14b77264cb8d7b266ef6cbb224b7, 0xc1437dd771f46cc43cfa52a128c70367d668255328942150c4068da48c218d66),
(0x141739f8503f2225feb4043121f0a5ee844a770762e37d1b3e43fad081c631b5, 0xa0a13de010566ee31af8c6e638411c1ca3df6c63c8ed67da8ef7bd195fd6e73f),
(0xde8d06aedd58b14891184145fcd9bc64634725fae4a77d3570b21c8b77890b60, 0xa046f3510eccab991d3d1c1c642387fbfb9c3f92075bbb9346688555f7aa9460),
(0x312c7ad153f7280a9bb86cabac573944d271bcfe0bd59291c6f05fe4ec003a81, 0x3c6428db5eea01c69fa2556b1f20c1e74e65629be73e642981b971adb6563866),
(0x2eafa04b0d276e3375b8d063b206785ced69f7637a5a8b990ef7d3de0bbcaf35, 0xf06464db56ccf55a1f41efe4d1cedf81a642da243cbe68eb6ddf7acef67dac6d),
(0x5873091edcc8a95ca0a475703d88e54e1381c2d7a418f615eea974702c2c6fbb, 0x05a91598b8e47d2b2fee6cddc33aa3099bec74dd216885429b76543ac233ccdd),
(0xe713bd84ca505ad3aa022577c0cac85b466874a5b02f4ab9e8d14bba0c131fcb, 0x706dab4afe49e6cfd290913d358d1dcf62e8b4d50b9bd46a322ee4a65a660849),
(0xaacaa6336fe86d41b05feec10cf4866d340fd268f869f912c2373e10bcd95340, 0xd933cc5ec01024e477d1e80ec533f293e4fd0dcf7d1156b87ebd9d81b9489c57),
(0xcbe0ce9c7764903125590e03cd9643b50dc45ecc604d51fa0d5bcb8a196b65ee, 0xd2287fedc331d56fe585bf1b793fd957ce425492df41d8b34faf84dec3bf4d22),
(0xf9990413deca9f9a04ea6bb8fd9b873257d15ec370e98187f4170103dd416dfd, 0xb0593cb5dbce573cf0a75f2bc47567810963e1a2e988e0cb23efbe26c215ace7),
(0x2ee21d79bf3e82a62bcaef34085276c53b51bfd8becbc9f96ad316f3a74bab97, 0xfe3cfa79b208de80f659cb81bed12184ea2c2524dc0bea0564acefab1acd8fb1),
(0xaf5c91d344fccd3e70345a2bccefc0d219287be5aca40ebee61de52256f25faf, 0xbb58da83bebb53469b345695fc23853cbc0221b85d75ced1da107fc5c106875c),
(0x2cf50e13477d628d117e0bb61d3ff9e61108fe94bf82a6f24138a7436077e0af, 0x339c0a5377a6465b29377e1bdc344464875687e27d1f392d096a275a0e259793),
(0xc51a66101522f63b84b98ec931984865eb3b29cefe115b280a87f89c67bc441a, 0x240b97176af4beb4b0502d7b2caf8c7f47a9362a9f9610c5826762eaa2a2be5a),
(0x27478eb7b14d84b080426792b0e2e5108a4804e3a15e80b9c430d7dfc09d05ce, 0xeaa0a07286fac65f3da47bfb4010fed0fe8a9e17ae42ece9233c20782b36422d),
(0x0531ca72e21caa6a43f0c9bdd0bbca5ab12dfb9f70f045b2f0865077cdde192b, 0xc4ed88b1a03975893cb14ed00897d6bd783dc6470ba5977216c308eb630367e8),
(0x295775cd950d0702602278a156c1d05e04343474a4b3ae8763f4a6867688e42a, 0x0907fa8f1269cb6441591004f6e62b144d6c54b5f6ed424d6b0a8a7526935b49),
(0xe88425d8bf6e89a0f9c9f525097eedd43c33105810936c234da69d2109a86f82, 0x56d53ae5e7a354d0d65cf742d603da2b0199e1473d42bf3d639f83a1cf91cb65),
(0x4d20a032c44453f7b374a82ff088d816c1fa933857dae8c700b8729598869a4e, 0xa7ad5993af43cd421620e87ffa0b3305e7da39ef0704319fae5faf555e3fb43c),
(0xb98e9728e9288607a7ed6df9c68749e39d7efa1c4f9644285e9bf81e246e936c, 0x1620c47019b9cef87c1f0612cf56adfb5526573cf7746a9848a0d40a3a92d38b),
(0x562eb109e9988778bed854132fa7d08606b37a8b0fa2d2d3470da3c697996a48, 0x29f4f0dae554e380613156e3034207e6fe8fa6784c08f2bec3d6a59d1e0941b1),
(0xb189e8648dc0ee06b09ea73a9a01cc06b6fa74dcf626e41cffad926b901ae851, 0x4e42c8703d04838a9f0682fbbc13c849a515d5f2f248f393e2caf0c9b6d61d0c),
(0x3894cdb3425c618e1da2c6bd1177109c49362a4f24030692244bb0dc27af6913, 0x020c00215c72939a497f08f0bdb034938d04ddd48fe8f3f297dfef19ec9397c5),
(0x394f74a99146fd439035266bccee72e936ff59cbeab7bf4e925c6363fce7d4f0, 0xc7da15cbc1cdcea321efb1fdc56bb3d12bda06b9993b6f5b2293e49305aa3e5a),
(0x44fc66cad6e67f97be95c667fd5dfdfedc82edba35df2bf4737b3ba414d15c27, 0x9c485757351825c5245c6eab2ec4a51bac60c9dbfff7988d8f28728e060f418d),
(0xfa355672d9f7a1c5030b2d76f183720fe50840ccba413b640e449d2a8b0518dc, 0x63fe1c7fd97c774435613167660926e3b7377fd597dad03c9debba5c0a5a76e3),
(0x7325c26950f1bf212f9cff6a170e446e62dafc2c0f05dc504eb951d26322eefa, 0x5f8fa04fac5232b6cb5536305a48b647263a57d12c4853636c93049740965f00),
(0x7004b364c89ac7baad03a03c0c8e29720e5fc52cbc656165e08df216afa216c2, 0x971a428480556797ebea8b1cb37de6a41aa11abbdf9b28b77f50d362b6554974),
(0xffd45087eb9308fee76448179406d9b977364732f3570ebe80a4710da0ef292f, 0xf4ae4df05af2ee0e456cca0a2c9d93a083eb9751a09c2f8c5bcefce783764ffc),
(0xad899e8ba7aedce9e53d86ac5ca15408140c8f1dbe3ba4a4275f332fb0320572, 0x0a914795bfd9850a24251eda98bced8f2e2627a78a1bf6e28b66ffecf11ea105),
(0x7078718de94255ffae25f1df4ec2ad90e59ada115ad4a6dc8b305fcb93a1114f, 0xee736453927cd7edbbb5501032eaa95cc0f6bb42be77db4d62b776501094ed7e),
(0x30858d4cd39abb36051b8d3558800c185495bf31bf23dc8b176c1f04171e304b, 0x3aad84154abdfbb91eb95aa84e7ace9bfd8b5f6fcc8ea08be094c8748161f85a),
(0xc06d6d2e5637fd7fdf08b41e5573478beb19ddedead1f0c29309fd599551c787, 0x78cb251437d4ca6291bab9c557e88244edb9dc30fb1a644178217039628e1db2),
(0x2f93455c279d2a261cc7b7244c32c853459e5d9932692fd8ffe7ff0e493de2c2, 0x455f090274d698dda1a97586fe797421899f7c2260ef0bbddb0664e8fa323156),
(0xc00c345bb4b53f5a5dbc5f10597dbad075e2816232e0ac71fd778c5020b663d5, 0xc30f78de3495063eab98f00183fb4bb55cbf58a91bd52ea536a4a38bcfe89288),
(0x7d78faedf86a22b014e86e1df98d425cfe2e65a239b37994ab25a4d85c863382, 0xcffee7d65181e361679c9d51feff7a36e8d8428232e752b962689eefa1ff4441),
(0xab492cb1da2e8463a2536c0c7cf143a59626497b23d4c179d2af4cc7f2b55866, 0x11d4205f55a74f81e9512496becb61c46363c42dbaede6719bd7f2f93e00b14d),
(0xd1a3790b478bf657360b3459555e1dc4ece339d693b5b51c8a3af12179578688, 0xc60289913ea89956802f8b8ecfc8dbc35894846d1aba20749a55153b83f73891),
(0x6fbb6fcd36fe0388a4bb648c95a004f9b3c64e4f9aad672b42d8c6494c0cef3e, 0x51be473c74ca2609c3b79c602fe90d9862eb9d14b9e52aa9ddde106f7253da44),
(0xdb150ec5680299af681ce826794e48180c0d6d3de3c392e279ecb408aa55b243, 0x15e47cbc1c4689bffbf7ef421db5c57be3ab8c16b69bb5182ed8a1cf20067de8)]

/-- secp256k1_pre_g_128[4736..4799], /repo/src/precomputed_ecmult.c:12998-13061 -/
def h09_2 : List (Nat × Nat) := [
(0x51ffc919afe67f04a889323f4438da9972d2161a54f9e81faa1e644e9cb88835, 0xe4b579b7e985b38b486d06003f82553852a9d0cab8fc98d4371a7e334898742b),
(0xfc86c54a48052ae8d8480235e4dbb7a76d05d830d2c0cbbd297db0cf3d2d6cea, 0x6cd61522e2a22531da973c1f9cca1c7798ff66a38f568935e378f73f9f1d7dc3),
(0xd440de0120d619b06add3d7f661848645754a4240f4b1054479a83bc7df0db9f, 0x3f09b2459112417589071c5684215cdea6999b17b5b2f6646074e7ec6c38f68e),
(0xf3310bc77556f234e7c83d6948afebf05bd91a25b516cf8460d0d6ec8483fefa, 0x1d10f23ce0e358166b817553cbae07929e34a4a6ebb471861d4013411ef2b3e3),
(0xea770a59e88b598d493fc75c62eaa9e7485271dcedeb1d2f76df983e54cbb51c, 0xe2a4baac096c95383de82a295bf3cf3053bfe2e46fb0861d65c60c090978601f),
(0x2cd56ef86fd04d2aed4f8520951798c2a1c69a388e635a2cedfeb08e3af0e331, 0x3b9de80c42e0c68385aecbd9c8775b5686a8a376039efd2498664343e712707f),
(0x37bb0206c96d8fd45315e96c860f5cb4a44d2b6d0af17844bc305b4b59c9c649, 0xc77b4a05373c42e4e071090a07da9b4a4ccbbeafd399496df6fea1d1a83808b1),
(0x55fa08fbf83dab6eea7034db15bbddc0ab2b472ab29861af543a970ed16033ff, 0x73c8a90a865429704e25f3700a5caa4ba68eb72f5ede1edc05549105491858cd),
(0x4eafb67500281fe898593817efe128cac59fb77582f6006f339631e06e7d2e7f, 0x413479466630f6d39fa974046808067ffca9e1733e1c41496567eacf047a0bc6),
(0x857587d8375f24f9e69247939ddf3a60e0469f3806ea0d55d990f1e84ba5c7dc, 0x1913a1189d867c572f947fb43e062cec03df37c3e8edc6b1927b315d10c37be3),
(0x89e334d8f71eacef6cdd0a87b1e033521078a1fd20dff1441010820293143815, 0x8b49aebe71b60ecac925679403cf74d980bb3e47161b27309ed158727accd84c),
(0x069902d608a4ecb1d2e496e8cdaebf9458f71f948f4341a411fbc2dc524f694a, 0x19a54c4a5de179306c50cc030b0b8d54b613cd316f0bdfb7851db63a9c605896),
(0x52f8a3bc0832de461bade51850121b5d2ff475ab5eb0e71ba91ede4641f0d576, 0x2a946bc442f24ef9469b81213102118605b22f3aadf936485b7907e4791236e2),
(0x146fc3414ca1c49773734f6b0b78ee9e56fedee49487ea01a31d3e4c0152d2bf, 0x82e21722e415f5a41a076f3a08324db402436da5a3776f60b5c6f53de5419db9),
(0x09e220438458e463b1bd739928200a4fef7c3760a7b6357eafc29a5e36b37b94, 0xb1f5fd78c1c40d981473fd4e72af64d77387c28b7f00519105ed2587674877a1),
(0x531905558d044a1b094caad4526cbed182807c652bb053d761301ab968323f1d, 0xce591f2d61b47a8f8707d8f6a871713968ad569a667ba4acf2d18356ab6d326f),
(0xb93b3c6b1297cadc392b0cabda322a1f69791a68b48b0ce74352ba3bb8a3cc8a, 0x136ec00724fd378a53d5c57303aa7a0615b2fb204fed82ea934bc13107e7ef22),
(0x62e6af72a9fcc95604367d44c06998973674e3f7b79c67bb8c8a82f106d3f744, 0x4c1e4e332e9316ff24a7b38d13ed1b30a659a8d18423db6aaf6324f94e7d5475),
(0xc91facca0aad0790886c4421d28f3ce29d64dc870514f06dcfe95063dbbd0e3b, 0xe7a0c83a18d655d97a555c514bf8f11759ce866c61a7e6918ecb1cfc21e50710),
(0x72b3b928bea91ce8767b2f22958458ab9a23f4550078f83665c897177e7ea502, 0x773235f2c9ec74e1c06e4e7f89247d1227f303ff2fa354a0663791a6ffa40e49),
(0x1b014ac27213cc0867877fa3c0c07b1d9152925923f6164cf1d204d9addd6f4e, 0xe0dec57ac1ec264e380909bcc62394c7413cfd48180b1de1c5440d0899c67f2a),
(0x985e884597e2831c4ba488880ac219b30bd891dc631769534e0d8a96bf583a83, 0x5afa0b311e9095944b228958657b95dca198b0086f5cda96c3e4da6de444a418),
(0xec3cded4cce88ac622315a510ec99ed31ba2cb32074a43e698e033d40e490bae, 0x1c2a22362704a765252b2a57aa1ecaa54f1c21a52d67c050a3dba077ad4b4480),
(0xf882c4f77911f6e864da7cb05f09da54b9cf712521504815e6fdb9e573f24be6, 0x9ba4a4c1e0978ee61f83aedcb1db2193518a71d0c112b9fa59c629cdd42ebde2),
(0xf06c3a4a9f1e80cbe2ee6b06ff50e44713d8eddd5857243ccd02c5d27996eac6, 0x6b38bddffccb4888da20ce7e495bac5e7b9ec8b202feaff58d4329c3c546e839),
(0xdd1c366d5be82883eb86da5af9b5d5b2089de6b91165b91c20ad7b73ab4de421, 0x019bb18170b31a8145232ba7ed0fa93c273751f4838633f3c94647e293c06bc0),
(0xe965c1f689b3f7a597d23d9f378b9a03fb1c6e295354de36a5bfed533338372e, 0xd98295bd890e98a59d6dd93dbd9eca2ee79b028c7459779c2d3fb66546692242),
(0x4f9148b6cf21f5fd911d7fb0e92132d4686d3e1012da444bf5a8904069c2fcaf, 0x60e9b3ef924260dbad68793ad684c3166889b0d038474c706ca259784a5fa7ad),
(0x0d9341e66a505a91dcefd53390abbd5452b3959442deef9f6a67dac08faa5e00, 0xeafdc1b52b7c97f221ba8635d49b58fd17cc798392e09d138c41d67906fda331),
(0xb948bed34f426bbce6c24ca1fd1d20921de6f9d9f561c32f877a4104afe81ae6, 0x5cacf40df6fba19d763c5b0b83aaa284f94857050ad882b6d51bd46cb12f532e),
(0x73011c970dbeaca88bf04371311e95581e494b731778a2f3cf906cdf64dd781f, 0x2b5abb31c2e56a38e8236f7fb28a93ec1bef3fc89be46d92c2fc476c42ff4ed9),
(0x448350431373a09513f756e736ac83422400434870d6cc5dba31f74d565056ce, 0x748f041ba9c990b770c36f685667109aacdad74d4569b107c968e517143499ae),
(0x3463b029e9dd1907bba2b582c9ff1f2604a5ef4b40f5af282a00c13697145ffd, 0x9e30bb18fbb70c1cedff9065968523af33665b533f14457f59d7edbbd5f07c5c),
(0x5d95aa9a9fc6775856e6655c21a62670c567e2360a41b523436beb2c18e69c97, 0xd64784964220cd62b4651e8f965bbde322aeacc06557f656764a20e4649a1ea5),
(0x48c65239d03715f571ddc36f313a1723b014c04730cbbd8b0ca9617be8fb3874, 0xc0bd39e63cc00fde74c991cff6d711a50356b0295b6eb9c028c445af21de8325),
(0x67c610bafda8dfe6c7977b707a57ebd39654c7d4c9a0aef280c896e0e8134078, 0xc3d4ffc9891a4267612aefe96c1093f78e1b9a580746c986c52653813ba46aef),
(0x4605213f4a21b15a4a471e10f157d0c3faebaf0af7cd05c5a27c56c188b6d430, 0x9853c1455f4b3d38200aebf9d08f87ae3eb4a99a3d94ace294331e03876fb751),
(0x6277ce5dfb56c2fe3d32e28d6754255aecece17970615443b0d33e5eb54e475e, 0xdc7a742f9216007469d53e73da526102a6f68e7fe8f07a9198614f0c17daf06c),
(0x7fbc032afdb508983270249cf1a7d27d198432c16815b7d2c929ab67bf12f01a, 0xdd696a37fbc4f8526db85ca06bb498e86dc33480a4f845642b49775a06bf20ae),
(0xdc849e2806b934ef30cab6c01cffaed69ea74ab6965780274c88845b8ac264f1, 0x6d7f94ae347b9b180bfa2bc0d6b9a8c113ef1a7078e317a253f21590667f4b5d),
(0xe29e08337da9e0b6b6886c7dfe010cd89a4b10c6f5e4ce38c1202f5994a69016, 0xde082f4a9c21db410573dde9d2ca825657c67173207d43efe42ea81aee812dbe),
(0x407f0e21ddccb63b5672eb15742d72f701a522f920d042473e1438e37bdecd35, 0x28d6f39ccfb36986351d7619daba62713c9869f9357504d325c112bb74ad336e),
(0x653286df15bf657f1685bb92984623837c819def84a8c33277f6d7774c8dd3b3, 0xc5ea3d4ef7a9732496a98abe0f999c259a8c622c944a099e146c0708d108eb34),
(0x47613ca6ca7fe67f4286f12d3b4bcd86455a186394f2bfcae162f9913bf6ed7f, 0x4409a6d62ae63ffaa3f2be740e7d0e5e03ad4704076282b0c291975072be1386),
(0x8f9bf4cb04aee79112162fff75f35393509fcd4d0aada298655bd58f567e6adb, 0x893c8b520c2c25f8e2ea051ed1a35a3c8ddbbf9f508ac79237e531437818102f),
(0x4b25cee42f955db979c856824dae806a3925a33c42e6b6b6ab4997bd884f68b1, 0xebe38f45bfa13922d3112af91324f5261c5f864f4d72257624e3afe99eb7ebd8),
(0xa8a40ca056b5e1686fb9a348ae26b15bcf812cc5b9c5abc344f8602169958e81, 0xa55421a94f1fda1af6d64e48cee3e4a3434293d6b49a5cdeb521c0de49cd31cd),
(0x1f7e97c6198e27a648ffebcb55c001f0d591ca6477c7c1f943928e2ddbe88dfe, 0x2dcf0a3ff296f744dd402fd248d29c9649abc871028624da28134cf76242e6d2),
(0x7ee293487d6520a5586b3ba74a0a660aa4392e5b77529e8b890a5927aad1ab71, 0xa51d3123b4faabc377bcc565d66d4c4092decf92f63f81d2ba3a4f062a8ea485),
(0x030880edb4f5f2d095c34730d10a8c02011efdf6784b48864afff98c407734fe, 0x4ca4b10641c559059a19cbaabc6837b5300aa1c98b0d8a728caf5cd2914ea693),
(0xbb7ffe45b725038b597a20e26f67d0fac77730e24ebadc9a23afb4efa01b4d50, 0xdcfbe71746bc35b981357857c0b4564e1ea11852c5ed8372bd15eb69e674e14c),
(0xddb59e2520a5842c62607d4c6d31f2ed0b79e3870527dc125d96fd0484385e51, 0x2a167f9785ee428507471c452c38639e69940f77b3fcd54c0a69710037d9e5ef),
(0x3c405df136b1c6f9099fe0b32bf5a305bfa4a6e9994a150609c5fcfc318dacf5, 0xba5ab8fe43a2de82ce289cf12255f554d7881d08a54017f1e0c84180d963f3b8),
(0xed4e6e9c9d4eb27773f2249c13d6fc1c5c07be479ca48e35913f6fe8384851a0, 0x8242617e36b3c298b13aab58b7383dd793ccd4d17787062e195456ec43fc4198),
(0x60fb77669f312be711d0a2690a72a85ce06b70c81d34416ff7ce1a2841d50895, 0xba2097a9772a616c82cd5dc784585c8065206913474f49ef71579a3f8cc0d825),
(0x1336a678bd5d495dc688c0390a60b256a09fc946830fa80b1622890d9c8f0881, 0x6d57f261b1073b42f6eeb51458e994f47406b3f27245a0e7528748fc65a4937a),
(0xadb7e6dc072c02a9fb99645ea3695824db60df0bf9b6a42075cf02bc4e3713ee, 0x963258662a06218020f8b86ee5ef1e0457d01fd6d5541d6e5079888309f03b3c),
(0x674d6e5a6501f82487efd592c37bc14aab596cec4d5e6e8f1be44a53a9d2f416, 0xe6ca115376af04291bc2dd6b2c47a816c17e0ad70c252c1dcdede8fdc9a18630),
(0xed73f5a793dd035968e253ba8ac4f2ae83d7f29024eea4b6fdc418e24b63dcdb, 0xbf687b8104691d485296e1920d5371ecdaa831ea0ce2d5024e321addb62f0faa),
(0x601cc63047ce63d2c1fbbc49f3b2dbe56edbca0917ac41e9b39f7ac405cb3ff8, 0xa773b9b6d98c7b35458e956ff9cc71e08539b118bc2529f0fd496e54efc2b25f),
(0xa31ffa07e16fd36d2edd7d1d944ecdb82da2641ecc6ccfe188219a675677a740, 0xc2253d8759ab43d70c9197109e9ecdaedf1f2d82d34c5d82d113958f0cbf1e3f),
(0x131060f1ba302b06b26360adde531db3422a6bc96ca1e9e298b5da8ac8266249, 0x4dae16bd40159bfc96665d6a0d64c6c53ce90fe095a316a68cb84844ec183cf9),
(0xf4a29fd790f35f1f4b3240d6c0cbb9833e701a9bca241d3dbb7630a6da2de25a, 0xb2ecd7945afa51e01caf3c215334dd9e9f9a1f6b8f35767fc63a3f0069c01382),
(0xb30546b7c5e45266854b90ba53afdab8be1152515ae22f1b5e0c472ba3b44042, 0xf14a6b95178fbb855aeb9cc3a4e655603e8b18c14cc54cb41e0595970faad7f4)]

/-- secp256k1_pre_g_128[4800..4863], /repo/src/precomputed_ecmult.c:13062-13125 -/
def h09_3 : List (Nat × Nat) := [
(0x0b6cbbb510ff83fbc8bdd55fcfafeae8947f5e834cc78eefdce45dee2014e175, 0xd0e29276a14cfda6f518a3fcac6a416313666f91ce5ae7b97abfdff4925cd415),
(0xfcaed74f19199482564ce4b07e1033cac17bd418769981bb6547caa3b61bafd1, 0x0c52c08ef5331ccc271b108d5e7794ee4a493ce4f6665773f97902d6ffcf40e0),
(0xc6d1ed8329ade032c9924945189ff23ac6b1befae4a337948b1b41266d14344d, 0x6e1c0e9fda23109286d23cb32c588799507368b88c0628deb8a79c97e4ba817f),
(0xac7d0edba7b86cdb60963277cac4367419dc5d85ccd9a649bd335dd5eea2a9e2, 0x61790bc0ddf5307a56fce8704bc9eed69d61d857f4d2fd34d53a97f24c4c5206),
(0xfd9d0c61d3dc3ff9bc3735e2b2c7d5d64a740b1abcd46a7a860816f984a64645, 0x701e082a5e59460ec3e3ca2140137ed15bf9ef49fb4673c74fa5e4ff2ad8b762),
(0x82ce7d44871017166ee3131011bdf02b336fe44c88572c37930a33ff5bdcea1c, 0xd7fdb0973961ba18b53b421b21c0424b7b4807ae256d883e2e3a6f229bc44c0b),
(0x5e507c80bbd32e0befc31714b464580ef7ccd3a52004f2f19fb9b0f6dad1a767, 0x95facec8a3b5c996e0bc9d5f77c11407d0ee071b9cf5af3ded6250253aecc75b),
(0x640d6b4ebde998b41bc86fbe2e9816830a83789db71bca7676715a29143c9b55, 0x61334a92358ae235104aca00a632006b0769475ada8789f4f7047f75c8b1123d),
(0xe951dbb696ceb16b6059c3ec9d84ae8b8adb146ffd79a32359c046770aff990e, 0xd3443900ea47be0e10ea91783f1524f2fe5c5720efb62458987dea0f1612a94e),
(0x2b601b8a550333aa2a0e98c9a4b28043aa38f20b13a72cb87a8cf212cd0a2a92, 0x2f3f309dff296fbba406602bbe72d9bbc3ca0578f5f0aa086e65ec0d8989f670),
(0xd803b2429814658ddf7cb378bb9708ed6ddd7270ffb7d712b64da007158a5add, 0xbffd353dc4d664f86d7f150f30e44acefef4abe383f3036915b4d5d65ba3c131),
(0xd5a8348dfbb9f9d5798d7d1f3515e25da270786926ae598d500186d8a284e86d, 0x0ce31c6219960c61f2a8a7bd2fa36f0d06ea78385463a4a29dc1ee9502f37905),
(0x0250dd67781128de65f0529a11b2405beab01ee01e9bde06cabcc9d3cd038065, 0x524aa9b58dc5c6e06951aa70c4bfdffea2dae26c01e8341a5f63a180731a0dcb),
(0x0f3a2017127dab2a917dfaba5eabb6da0bebe554431e796fa3b0977166cd47ec, 0x69d1de462e63beeb1334fccdce147b962368394221c4865cd50fd6875c1659c1),
(0x156261405aabf9f9d7dfd21803d7fe2c900ee051784537b8deab8bcf020c6e0e, 0x863d8797f2b20b0dca1a5b939a43a7124d5f07258ae7caba4b76d30865f9a98b),
(0x3261fb492c55978b20d2c5b23e6ac5d95e3b40a9462b748c62a410352efd227a, 0x4072fb7e3fafe4568f62f4c983d0988ff9096c14317f75849fc1aed103e39708),
(0x2a5e6aaaf5cd7466b851802b80305dff3e655dd9b0456bfcfe704eb8582836ac, 0x2e3894d5762e70d04d3595f883dbec7d051257200c516fcdf361ab22be67062d),
(0xe85a7e0813294e2a6eebb00d2e3fdd76318b7520dc6827058b3e923d536cbcd7, 0x5a93656977b89e9f10c4ba6b7dcb1611fb6a85fdaf0b1136b19cf222a2e9a477),
(0x8e36e66d2f080ff2a24ac83625e50148e5017b7db898820cb7d73214bc198b28, 0xedf99b43c2b976b16eda2a75f8bf5aa86945d7009965b528bb78b5303888c56d),
(0x99ead62e11cc613f2290332b9d5ddb988c121ed5021a0147589bbfe7db0f0c58, 0x6e73b10dbac646ab44f3a0624150da41d666523fed55fdc1c1146fd8c4a262a7),
(0x15e233c40783fced39c74cb434e77491083004e26e16c372f6f7f23ae30efb13, 0xc9954660eedf09c3af8e16423b57af59227ee5fce18858375ac5a85334fc5034),
(0x3b33e0a1254d310defbf526a8a2314bf18bb490fe592e36f6763b17496f57a67, 0xe4e6a395a6e6c73067fb2e0e2c5dba639745daf8bb9d6aabe96f59d08eb24c83),
(0x08be3fe6f3e45fda270d54e649bdfa8c1dbbecf635922aca2d605c666933e859, 0x1026984715eddf7fb7b23972ed1f6fd6882481f91a12eed7f8fabad9da0917c5),
(0xae6863aee6d519be773edc778e7bb5a75e0d30ca91dd0920aee358705bf6effc, 0xd104a8c41939444a1a5843e392fc5fa8d2dd864c1f4429389dbdb543415988b3),
(0x58a06c8c658430fee03b32186ec051c118174f8bade2cfb4a98cd9b8013e12dc, 0x017f4ba3da575c8481cdfc0425567dd51d2b5e94a8ed37cb346f88fae6f3553c),
(0xcf0b0d643843e10f142ff912720373e72fd185761f3d6c7152647afc1ebae367, 0x8ed9b909f4b622d8cf5d5b19fa2e1cc4bdb42133c4dd926122f1aef46dac4c64),
(0x8be4187215902e718f75558e4b1a5ba79d3522d2e8a2d723f863c4d73c4713a9, 0xf7be5a776b8ea8ee01e59765ecc6a33d210eadbfdf4c5586aba4371049c715f3),
(0x1e6bfed236a10a7d9efd88cfaf1dc1f19649197f785b4a30c68391ce808f713b, 0x90200be129c5235f41a79bc72d4d10a9b00911cfb9f27b5c6d47eba98530b8c8),
(0x971764638cee344b1ebd8c6717782c6a86108b76e1eb74a0791527ddb18e14b5, 0xccb128c52295ca09626ccd39b5827ffc3168a6286633843e96184aedd7bf898a),
(0x2fd201348e0b7259415cc828c3e4f79b2184735c86e534dd77f1c5b99d8cbacb, 0x41fc80ab25ca1a8267582a89f901ac612237b9429d724a2b8cd0dcb6c96564b2),
(0x5ba918f66bdb4013481bee066aaafa88f741c3620b5c3a4b28dd45553c1aadd2, 0x230f6c20f39849af9de4ff998e39ebcd818d5d6d8056ca678f04f33ac4fafac5),
(0x69b5676db8e2a30a8870c86c4a859ba0dee25a28493909f09ac88af683b70797, 0x04831db198c1b4dc69942571e4908ac741ec4568e27089a4682ee7c98ee905d2),
(0xfaab5a9ac530f7a3343c71a4273935bcfb280258024a63ce8f8da6e2a60135ab, 0x1443a23e793eb339f435337134937bbe9bda0eb8c2fa2d50bcd8575768c79797),
(0x0c70ef20284cf1357c43709310451a9e5ef10cbfe3a0ebfdb90f487b08ca62d9, 0x8970b39435c29dc2b8254d1c9c4cdf546df52979ca70ff8a7dc171b05a176ce5),
(0xacb67abbfa6dfd52e9829767182f5ea566dfaeab42a2f2d9aaa545e12e9cc68e, 0x4a0971502367b1eb04f51f6ca394d351b734b30ffb36dba09e53b4ea3f6ebfce),
(0x2da4ea09315e0f1bf5b6e0c5b8af330cc27e26ef54affcdbfda834bc0cd578a3, 0x0a4097d6ad006cca53ea339110c80150f63694bec5ea7728f77ebb832362a407),
(0x70cb8427c2d5ee8659b260550349937463e7a4826731ab856b3fd10b0be3dfdf, 0xf44efbf90a9140633e8378c26e9676b8351b6ddb33f7e7db5ced5208e4cb7361),
(0xb14283ed9a9db980b135557d9719006660e4e1cd3ab288b8dccba9b167b24934, 0x95fccfb3827332bea813457f28a63a89087dc8c5340a8f8876788a60f03b2606),
(0xca24774c727efbb115bbbf1220e59841891dfd509f99744dde815f5f3e959555, 0x2519e414a9703de560f7412d8949f509bacecf3ae672e7ac58c5f98e33162bb2),
(0x5a5c1b07ddc79f1826bb95e113e03894bb63b593c808f0a42bd44b360dcd3765, 0xa11bc3282f672c9e608468260521add757b891b5d4fde6c9738c6329dabf67b4),
(0x2caf25451daf272ab169a4e9b0eb9c0d26888c18ae7d8357b8dd2b73ee4cf7dc, 0xbf8d8ea3afc9d56d09799083c79f12897d20d7ed48ba38a1acb039b12292a3c5),
(0xaf6650e34022d1a1b66e8c3ab0a8e9f3baf44318f6946a0dd1c65aa1e3f9c9ce, 0x1b0222c1a5f3691a248154bcbc9e5e9c6b2c96c1ca468feb97a7c01f02551bd5),
(0x3653e4764215cd7f83ff59e2f63f2a7fdafb879595006bd000182e0e78ca5b39, 0xc91824ee6ba3c6852eeb26959a3b136b371c9bac4141344ca1eb30518a6d8ab9),
(0x7826902bcdd4e7b5463452e1baf885346472358886643d49cc89b482298f6394, 0xdd5bf1b691647ce286c745eb6246d087035cba4f22c26a37e326ed1c4e3d968b),
(0xda19c3014e77f987abb00fda8a5dc50fd27778501fafec842ce7e5f637edd1da, 0x757fb28b366104a8cbd269813697d8c7821c6e0e5acbb33f9cbd5fed25cce98a),
(0xefa316972a61cf86df713186c1bc61f763a618a08034c26c462a24570907436a, 0x74f17527e6c7aebbed6b28c626e612bf082d61adcd1ca156b971abfe2efb15b0),
(0x379d460d012fc3514c46567ace05cc9eded3cc35fb416bfb76d14f3bc5164f7e, 0xf548ad44a5c87313aeb528855ac3a955178c89922415837dd3e7863d685004fe),
(0xe3b66f05ed217cb16e3f8ce356704f7036b97104e39c564983bc204c5b112de4, 0x8a2ee4f3ab9c8cd440afe707d8dc0fed473db9c10be2b6e7b14de905ba38ae2c),
(0xb14ebf0cccda021d8db1fd20a4108c48750d10a7e0659cca064f3e6eee8c7a4d, 0xc94ca9d4d2ba47e4576aaaadc15f9019f335ebc5763cf232f56f215dce42322c),
(0x1ffb2e29df24e7a76a71f607f4f0360843d3715fc3e468b992b684bf1352cee1, 0x27c39636054ab5054b008e5b4598d025ade823c3df6aa7c818d4d4fd32442990),
(0x63e13d7538f1eb8b7276ee28acd56bf0448f026cf98c77fd5f743c2404872b70, 0x845d65c0a6cd8b307c7ea0c90802477386a50daa3f36153957cf995a43705cc4),
(0x169b95d5417e6173b4393c6f1ace153c21c83c7c971418f127e1abf3aaa04673, 0xbcd1ca4e5618a183420b34d252d25dfa0e7cf6993e936450ffaae3d461a50c50),
(0x3dde4fce54d2779429b6f6a58c5315ffed682bc45601c623948faa882309ed27, 0x2b22dfb2dc46f6254f29f8a14cb4496adcef680626d4f499a17c47514a1802a7),
(0x6b37e3b02422eccb299e2b891a150be9ef56a62862c78c11f34116149fd37802, 0xa9c347b1fa5105c5a27ed367261a1cb55d54a0717a2927ed29d45eca6e958295),
(0x07bd6703ef78de4df32f0d7a274f63712d0b0a9bfafc3f6f5c03b654599b443a, 0x33d9b1b68254d47d6aabb7b00b66298d8447d6744612a2b1f722a597857fda25),
(0x2e9a4aa0a2062c8a63b18e5f91a609deb60ae12693d7f1fa757057e9ce169b61, 0x65a55523e34dd1313597b250acd1176362df6b071d3f0f1b907fe0bf46ff87ca),
(0xf90c13169524f4078c7328a7126c48f4eadd6d658baccd1f403a0b68ff95e7e1, 0x1d6a1b1606f5b4f79f51b04642306f53bd84b7df2a58457a000a88694111cb38),
(0xa7bf0bfa8e84b4489ee29801a5d06f66a17d2374a6d91eea2482354d66c60074, 0xe60ec8717ea63cc0e4785455478848c0363f6717748ee9f01c928370df0905cf),
(0xdc4ac1a8372c06fbea7a44cd11a352e6fd204df60f6868cb5230e4209ab36e6b, 0xf3a1b986c86134c740c0ac9f008f278082a103aa0e9e426984516e09659f668f),
(0x538086b2aba47aa4dae137a44bc747ce9bb225c06aa015dbe9478da5e2c9cdb3, 0x42ed59f0fb83125784b15d27b9086eff9aec4d8b9ac36f8710f93bbb2ce7d971),
(0x92eaffc8955f3f06fca49a8b881734e86750b34ad253f160183388aff18b8106, 0xfdb4551936f9e2919e2e2e6f7e5d2dfe16e14da8b5704a2760e92d9b13758767),
(0x63fda46a4350fdeafba277c6190c5f37c4cf7c88ab1b2ba57b0ce9ec60249c46, 0xb64fd169403a2687f5f41038091e811f6dbb344f2c3a1492fc408f740433c65e),
(0xf9f7568fd2e444a814b03934725647985c16424c1ea6fa8079f96df2ff3c73d2, 0x8ae3a292fbef875dca18fd898e1e882cef7bc222641401831cc2d268ae795a14),
(0x43a5ef22934628490ecbf95d3c92eb63ea89a39d2e0a5da1eb261c1f2e8e4bdd, 0x896699cde580ef9764ef1860019317ddf7c17ccc34d340ddb23621fd5e5ea5aa)]

/-- secp256k1_pre_g_128[4864..4927], /repo/src/precomputed_ecmult.c:13126-13189 -/
def h09_4 : List (Nat × Nat) := [
(0x1fc26dd29a3ad9664206f23382e543636ec9d95ea58e7af8a4bc8aa4736c155d, 0x5f6c4cd9c6f954f3f0f3bc548bfc4a58faec99d59f3466c0bcc09053346bab63),
(0x9a63cdf284ee518934b73c8fd8b3932a50ff88f48ecf9b40c0056c7e168956b3, 0xe52e79026a8d4e95c7f473e384b9966e16347c608b6fb6c8484335c12872f4ad),
(0xaabebcd68050337b1e6caa4513d279ccddc4c218f849afff8c1302f76b728bb5, 0x808fc6b390c2f0010bff1993346a55b3663378d6e457c639b9a73f8778ee8d09),
(0x9fd45b7059cd26ff02188167ecdb5ad762efbcf2b668830b475df22abf526239, 0x6fa79fa0e76536af92eeace777c1b73519092fd4870ead7135634768700a1241),
(0xebb3ab2de71844f5b6ff8baf637cc0f11004611ae8a3b57001afeebba7a4edd4, 0x30eed3cb55a236133bec9aecb620f1fb1f39a0678a44622e84b9e27162294133),
(0xa0e7ea2e33c6a3eb0423138d8faa7ae1d7802a73507d48c1bb38bcf9029838ca, 0x31158fe7ad13203662449ed976c4aa1767382a8acd42c842ed22badc882d7d26),
(0xa19abddedb579ade1dba92649d58b15f1bf3b87ceae445202ae758adf2164fa0, 0x508d24fef53d8f4c77e43ef8eabecf3addd04eebacfbecc9637b6c07fbe88084),
(0xe86ea1ab95e23d10f086c91f289e2f80d10ea0bc0aa9d8f31873158d19166976, 0x4b6bc0166d95e08a72c4dac79eeb405f938346d2ae45ea0fab76ba988c4e910a),
(0xaad23857d8d835f8e37850206b1cf1f1efd9c9b6ea15d42c70444ed881710ca1, 0xa550855c381bca5044be47c142d52259af2f486f622699a6aec28138554cf06f),
(0xb5c04c3b436fe2ac97bf20433ba57e9b897816bceb8383beab11d488e231a138, 0xb1ee4b561965ab9a9fa8711257a250a20d7f06de7759918d85c69d665546a6c0),
(0xeccf5dee9b6e3fe31e3c02daa2d5c40872766edc29da88b0cdb01f4f524b0ad9, 0x7770c7e5d97ca3f8cdda858fed5976f7cf2bdcc660459a64daa495e928f4cc37),
(0x4c34b06f6d02467c9e667ceb630d98654540b18b8832292a17e74d9ad0cabc6f, 0x057671dd326be6d02ada87890b5f27c7b052c8c7d300b2b3ef881a2453bcb6eb),
(0x9493f9c398a50b504db602edef50cfce5bcc9f0abcf80ffdd5f65d1bd030ca31, 0xfb45d7d3fc1216ac6b94836942d33e82932af020fd7c29f0f2959eefa41dcb30),
(0xb0ca3c540153d435b9d6427a20ac3456ab980b67ee92c6f7605aa934faee0bbc, 0x2e2a47e68b9594021ed83edbd4968c6a2eb4be8e2cf128e3a377875120f27b16),
(0xd56321172e9b97eb4b282d8e1e303cbcd50656df2a99c9fabad359091888ee8b, 0x30157215efad51b8020c03f82e4c9c9311d15bc83dc75beae44e1e5207f1ced7),
(0x3a0f593b69396a6f62655efd97c103db5e2095548d45de938963cbc0dbb9b4b4, 0x66ba5298590d027b30dcd9cce4605e4a73adf43c6e377bcccd19eb92e20e267c),
(0x10eb3c4c0cccd5cae15bcc7b92d108a6de762cecb71bd78e1917752fb3f6cf86, 0x6d65809c79395f45153d765074597eb7edff81bb598ed20bf9780e45bd91d077),
(0x40ae7e81e33791bd154945a5105be36f57477fddd36f83f9d31fb73c862e70f9, 0x71511dafe9cde10a7e4ff05b948a0454e5fcd355d98b2bf58ed3ca541a568498),
(0x994dac9f3c047519823c007c57851a8d41be04807c6ba5bb88e19869261fd12f, 0x913e96ebbcef4fe760469aed51e9dbd84910d6069646255c9cb3bb7d55b1e342),
(0xf0d9a17d112e91df63c106a05df3cf416471b817a3ede631d845b6043c04d0a5, 0x3ab43cb6cefaa2285c84a42a8f1f41b5631bab611d006946f06be576bc817f18),
(0x20919d38ef12de1a64992396f7b265e62ab8267cbb988d1a06771d8e724d16e5, 0x81f79a2db629ce9747f146d6b16cdfd790fccd71c46cf9f7fe526e588ed1eafd),
(0xb92087f743494d5371978b1d63e11ae8a159523933b87a44704ca3d530f1b02e, 0x6eef6ac249a8550a135072c29bb42afe5d27c8f7fec88aee06274d27036dc0eb),
(0xf69dedefa8894583c05b1fd1ae205fba3ba11a37ca628150d287f01bb6920b34, 0xa9f8809766d1828709d97e015544c7abca0cf8fcc5b9f305ed0bd9e558fa5b3d),
(0x8bd8b3c90a301a769f5607a3e116edab9d87bf79e4099d62a328c1c5f8b8b6a2, 0x167117ecce6e15da47a076c7afd851a0cb5dd1c3d8187f4a9aa5abcacc0af771),
(0xd7e2bc76e2a87357000826112619513c10a2eff8857fe6fe0a2e2c00c6f8ef4f, 0x85e1891f531481a5e935e80c448d8da732f1d061dd234e39d55c58eedf8cb93b),
(0x2701bed3778a857ec7a9095e6487e92c0555ecc932ad8e0fb1b59d704131768c, 0x9e38370a8d30d5d66aac5302efc7496bcd5734a220d2e76efae3c72ca793d991),
(0x3662a916a05a80a913bfc287c81cf28b7295dd1faa52badf5ea1c83fe1b90521, 0xb14bfdf0a33c9286eac83a4cb982f5ae82e2e13499bcb3de03ac930e2ed0c931),
(0xd778d74e317063ff6556388e2d2ac4290410337a00d62917a94b76546a04787e, 0xf7d92bacc92600b4e818496011f135fdadef70da0b72c1bb9da26bcf7a81f0b7),
(0x7b05001e388f9197ff3504fd402a5291d1257621c8eb202bdba87b56154b6f8c, 0x8c9c1c9b05c151be39f2875db31797ba2899047b6e5c491a56f7fd281b897f2f),
(0x603546d01fe46be0eaa9f00fc99b2a6fc38fc2256553bef49ff47442ffa7626c, 0x1f86de500aa457edea30625191cc3cd561cbd8f32b41145f139110f064b73b74),
(0x80f9318aca3b7aca65cb1965a36981d086ba3b328a95cfd29c6bb7181f662c25, 0xc195025d794abeff49c9b1f6724f72ca70b0badad06ae11f2101b49dd592ae18),
(0x61182e02a877565b1209dce10bc84c62f3b1007c48332c566dd6e697664cf64f, 0xd21f9259517656d13efe7166750c341b06c064b0542bac2928424a30ce4b51cd),
(0x21cd4f22ec3a190c7707368058562d82036d463cf7706f10fbebd283c19378ff, 0x2e04af2b0155beeadaace708c510555b467727fd145426bd680d19640fc1b03b),
(0x2d3f6c78944794436004ac92554a507c5a20ffd6f275f715b176b3b53d2000b0, 0x72e0e16f09d9ceaa2ffc5a1a71a2cee0eea64e447f716eec1fc417beba16d92f),
(0xa9f45433c040d1ac6bd36d335b655fd8eec0d3a0bf1a622bdf422039239de17b, 0x0264ed6a8da4a169a66869a0a846229e81d5251722fa4c2a4c775322f33b1184),
(0x16e052bebb65657c309d67e5b68ea4414179ace238315c8fdf88626e084281ce, 0x091c007ffcd4633e597ee06eb28296bf02837f308cb21be59bdbd52c4ae0422a),
(0xff6d96b6f633beea1de8051273c06bbe181a10980db737c841a48d44cfab935a, 0xcd9a8011c22b643a90f1d9c754b7330f1c1970fe5ac04225c2720054fa6a8444),
(0xdc2e3b1ba2619ea06e4ddc0999630c4a7b94c78e0ed1351725b8b8da137fa467, 0xf97e82ad49bb438984cd752e820aac43bc6cccc3f9b0d9ebc2337bdd89cb83c9),
(0xd53b97c58e23d50a3b855c4380a992c92d667afabba4b02820031f58dd6947c9, 0x24a54f43bb9a04c08b93aa969dc61f92e705ab75e644a3c440391af0ad375ec7),
(0xb598a510beb9cbc1c4e03f8c1ff610e07123ddc6ad69dd6ef9fa7810f79c8ab3, 0xb895b8f768a80a3777d8b5bd46754473c9590768a56fd586058ce97a366dcdbd),
(0xcc2296b90ee9726c17b0cc6c745a038e038b55355e19fc49e89f4ec3372b2a05, 0x6a466fd2f9a5c4129f5b2fafaaef4cf20be71406590ae031d68c482c86e3f89f),
(0x3e84c76e254c858d51cd4e7472c22ec8364ce28cde81ddbfb7b3093f44acf9b3, 0xce8ae6f5f56814dd21186370f70196d1339c264bc78a502ebd57e771b438c81c),
(0x976f67c8c626f8de9de43f8b39585d7fd4cb35c6e4211b0068669ca9a973a3db, 0xae4f1f6d25af4ccc3eca4b2f6cda0caddcc28f78c8e881c4eaca913102f0b057),
(0xb28bc958aed50ba76d5293f97c41982853bec43c21ef0f969000fa4749ee95e3, 0xe7d4cc8ff68182a215dee7074df2c351906d5527c47e641454e97c1cb57525b2),
(0xe54dd5d216bc59039a630bba7cccf5e681a3113ebe8fb57f83c51209965cddb2, 0x86352dbf5f2b23270ca50458b3b2cdd18d403629a2e2a776055622407e8407db),
(0x58379e1a010115a08f2b93a203f2f4e22787aaeccf129910b1911b43c209f379, 0xa526d32cabd99175e63b44937a0dc96ee0feb99cbbe00c911e606537c871c6c2),
(0x7858a68acb34cfd3e1cb7d064d233322ceefa6a7a2de391f991b94b4da9ebd63, 0xf54490f5ede73b49946ffe19d5ae6f7fca026c07b1dc0138b14093835d792db0),
(0x3c8c636ed20d58c2f03c26acbbbfed703fd1330474bdf2ea7526f16b4fe6f7f7, 0x550069d1cec630e86d22af015981f20cffdfabdd6416bb00f2dd8c6a44401759),
(0xd03fc7eceb716cbdf033d76e8db97314858674db48ede8dc1a1c7dd082ae7f93, 0x16f7a717a197fededadc25b5a20b04861cfaa63e3157e5ceff0c81d50bba296d),
(0x6d6c983ed60601d4ae5ef4abc73914c9b9546964a6a3d2a5681b09cdafee2c22, 0x13f5af5961877fb92a2ac09aeb691a8820ca836181359fa396558ad7b2276b1b),
(0x92a9f5d2149065eb01241d82fd06ac2ef1f480033bffb06bae3a9d88a1d05f8d, 0xf0be596475545835f64b09851baad682b84d7a3991ea0f491d19b7ad077ad75d),
(0x222aac7dc2fe0066b766e1fd179c19125f289e9833cce93c749afe38ce0aa74a, 0x0bd6c4d8043e5923b5944e408d309733dc0cd9c8b266dd8c2df162defde5bf5b),
(0x28b146283a7e17851c9d18316c9ca17e56a13c257877ca3f49ab2369ba2898f1, 0x292856f900572ecc5f000e0b1e7ebdc23ec726193c97542e8ccb10cfd608eac7),
(0x5031a6dadf8d12ff9eb19209b844b0080dcc26dec4a6f9f1bbaa45c9daf909a6, 0xef31dc6e3cb5c39c64011c0c89cddb047ef9a8810a0d718b5057bdfa3f5e1ffa),
(0x925835eece55e98f130008fda6f01768aee2de4af96f239a430d408d95a627c3, 0xcac1b7d760362e24f3b5f277e370ba70f0f8c6dca338c15c46c5fb4df9f1bba7),
(0x6b7253e69dd657818214fa0467f59e92a46716480c465ea49c993bf3de8d9e77, 0x50a9cbd6b429c3d732bc3b68ec5813271c2b0a4d2d8587bc7b26ee15ee7e92bd),
(0xf82d660dcd5df408714213aaa7406a3c868a8d051fe37689baa6fbc3effb3e33, 0xaffe0a1ab7bf498c83b331faf3e7b7232a2dbc663b93da28e12f0d56260677a1),
(0x990954a55342c5a8db3fef46da2b31ba32b6d597c67c829009329a90c39845fc, 0xd764f09140891e20a2130696216049d0b3eb1af57dcb979704c42abc5298977b),
(0xd6b8e341f8bad7e6ff434dcefcae81a41946f237e0467120000fd420f3dafc0b, 0xa8ba941e81677d32140666f355fc28fa7233ec8f8fd13703214bdf8f340c389d),
(0xfabf51208632ee4c81ad6d34cc84de68728197b0fcf07971326d4c047017b905, 0x79c781e4aa7dedda4663b8db7fff3cadf9752cf7ef2382e4b02544897c6c04b2),
(0xe62db266d9b208b183016754c871a8d74b6848de0e496ee7e2c1447c2029b0d5, 0xef7410f4f44d741453b9c1c68e5689bf37cfecf21602e95f3fe053ddaea24f77),
(0x4bd9092814753ea01025ea2b86ae23105b581b4898359481d1b7d36ed9c6e478, 0x2f12e4b7b825c8585362afc0d002988045fd638d65f1865c6ffb31ce424baa50),
(0x3e397cfbcc5c9fa115519366c6e814ec4b0ed9a5dd093321219e4028028126ed, 0x31c352e4d4bef7cd8929d3f00aeecf9b1d577ef0e8086a2840d469660c1165dd),
(0x24bee95154baf31cf5322941ffc01fda9e89f80f2662f5b4edb751b65b372ee8, 0x9568a4f3a34ce5c98f591550b75f2a84be5cf67f1fd7713cc126f46e1c3b6883)]

/-- secp256k1_pre_g_128[4928..4991], /repo/src/precomputed_ecmult.c:13190-13253 -/
def h09_5 : List (Nat × Nat) := [
(0xd242bb09e4c6cc42a2bdcdc60bad2a028e4bfa21430acb163f0e8a702ad2f0d7, 0x2eede9ec799b9e5a13c40c4e4cf6dc0f9640d4722a78cc6cd920b610d070b913),
(0xa57b5fd8f50de3c598073cefbc6fa56d20dbacc072dbbf81347bf0e87a36ebef, 0xa99f123fa45b136932394f8c1f7ea2b3563ca2ba9c0da00db2c9c119e6f20287),
(0x82a43e2ca533abf06aab1199fdd20f9e1616a79b859c6467ffca4b270989da9e, 0x19cd40f58c997e78311e5ba0c0b3328ab845da97091dc8efa6cf7e5defd51c6a),
(0x95bf3b4db8ef8bab16e00f5e7dbe9907b54c98f92331c4fe688129a55cd021c9, 0x2b4c46e5b9d9f915d5d020a33c63fe49eeb329319373bf9be359c40a19328c47),
(0x791ea7684d333125893356eddd8ebe4b3f98ae580e25a2d167006a4b05c05799, 0x5f72cf6807827ce26bebd598539f65190a50788c9d0937669c3b9c29f52d5422),
(0x85138ec5a5d3f0a7881ce23fe34fbb800fc3038ebb7c2a24ccfeb2ae5ef07b74, 0x8eb9e80d8664b11bd24753f2bba612bfc06bf9f2a4bd061e82ce9037895b084d),
(0x3b4c114901d984839ff33b3139da0341f430175ad5800c8037e35dfca68ec256, 0x574d6475e225aeeadace647a1489b2ea873175ea83cff3f2fec684b3fd2ad143),
(0x2ea17f9c6a028f58396474bc8c51b1e3cb9ac0c67f73f533a428281d4101b04a, 0x19d1f0218b8cc0c1bbfb892577087cafebed340969dc22813a1dd6eb9d6c44a8),
(0x678395922fcc7ffb627486dbe1d98a4525ee13385a98c01d6b3b9f8df64c507a, 0xe13ed82aa1adf7617cce3760d049a72c7572508a5ecd06151bbb589f17e10a7a),
(0x54a0d2ed39778fc1237ab4231e4384e64156c1a7d5e999fb2c92ba42ef40ee68, 0x3d879ff8c25ed54ddf848e5c49e3eedae8eccf33afcb1c1f674408108b3e979f),
(0x263ff1ed726d0ff38b47b398c713455a3030d4993a77ffacb9cde4a2cd12f7f3, 0xa5f3fb33c739bc93c442508bac70884fd90c369934fd698dbc27f7b0ca48a0ac),
(0x43b2fae4a431beba598b3ccfcaa1e03491e7099fc19508fb8e693de6dac9e3ac, 0x3e43aac3379c321a5313b41207cd00a1bd8cd17749c4240e7cef1e9722daf69c),
(0xa73e77a85733a2962da7fe71f4c16166cf0acdc82d5288e18cb9479a2a31f362, 0x12b393eee323fd52e44a9ab43e19256af7a8c892076e9e6c9052f0c53ecbc031),
(0xf007a9f2bd3d0d4a8cb9524ea5aae4996b2d0c1a19aaa56d4038a21c6dabdd86, 0x517a6a7b03b75b68bb04bdbdd6f93414c97b4b7547b8fe220c5828d67e979702),
(0xbc64853f111371d08381c082c72d2528823e18b999de4303c85a5fb887250833, 0x051e7dc72325617662a9f6f270bde4c794020e619e8dd87f3f266d9971596146),
(0x144dc699a063c4734b9bfd22845317dac4b55e92a232b92f965967b99c8e21df, 0xa20a79827d57de3885e573d16d22025b648b9ed40c656c48bd6f49022b67c681),
(0x834ed65998d49650c3f525a1b34ec72589d167f7a3cc6e868e4cdce3b2ba3179, 0x06bc2b06c97a108b2abf4033152065f524c1bf1a0e79adbdb7eeec179e598cbd),
(0xefce92786052c989adc9595dcd1500c908e93eaadafe2b872011bf553488b1a6, 0x48ca33d4cc89b486c093082991f23147d910f29cc9d137877bebf55ea3dc92ab),
(0x5b150240c356335439adc9fd23e9f94c369a6cf927f45bc0f0110cc1b7321f4c, 0x629b62e31a85fb44b448c7e8e76ec4230b059c9ac8144c649d77a4daeb044aa0),
(0xcec8cb023f166bd69fe04f668ef6e949f4e3d26bd748c30f53a9b9f09ef3f9dd, 0x997f9fdfdee5cd89352e6c38760c4cd0a7bb269694916567ae60fc5f39b908ca),
(0x58427cc8edc5e6163726519c7522980c30443eef7e72cdbfb135ede1f15c0890, 0xd2fe9c007eeb0be08295e972e69db2e6a54193d3ec9a3ea9f2515e5906e34e88),
(0xa7d0a30c1787b9f58ebff502e4e3800006bf896a2feaefa404670dee6030bee1, 0x774eabaa863fd4f163b3a16e4c17078afd0a1761b39ab05c3c6b1d365e487592),
(0x9d70eeed55ed86a1ba17e8174c400cb8ab0e5da7b568ca8160b585dfd1a84e74, 0xf4c1fde7f11b329ef3c3e196bd78a3ce5387662b859f99c7d61f79622d01b5f2),
(0xe0715fee9639817b8501de6d6561e623628de7ffd0dbab5fbf58ee4ba365f684, 0x0e34ba5dacb60318c6ccc001871800cd98ba2c5d529a42a2fd1453367b10c22c),
(0x594612b24cb1912ffb9454651036bfb279be0bbde718ca26973552b693d20143, 0xd68338a0d03fd0c5e6c6e3dc07070c7872eef1c8cc2154dbcbdad699b594b142),
(0xf4f410871dbd53945fde2583b08ba65c6729dc05b32ec3acc8aadb7200a6c0d8, 0x8e948ba3853102b299f2f558ffc66181310bc6764b82dd7e85fd075d70d92fbb),
(0xefca7b3869f2981c406cfa402bbdd00f15ba56cf0c6e9f669bdfa14eaa9b1d21, 0x458fd928a07fa32fd6a0ffd664a16b212bdad00fa4534093209b0c92f507f9b9),
(0x25b2384ed9e09e708098971f153ada48f3f4a9aefb94622577d213c1e7b326cd, 0xef50fa0b4cd30cdf2667bb4f7dff0287df666dfe7d5bdb9cab567af4b77c7535),
(0xed12b20faa2ac5de0db62c172bc67cdcf0534a336a32e26db325321b81901268, 0x9245a6b135df02d93db1224b1a0a296ba39f07acce7ccee8eda552b9748eca9a),
(0x5dfa472bb84ada50da3ede148bca4f0daa885d2c61633336b2a8a37c76b200b0, 0xf314a5d82d20fd30ee2374877a922a54f4c10468656a5432974cc3dbc2c7fbb7),
(0xa9e5c0d65b6d4b4db242d87f57c805a05b7f243a515c5d34a037ddc6afcc4470, 0xd90fa599de5fc8d987a42c57f3bf9dac0d5b766afdfa07db04c56c0d3d71324f),
(0x04e9ccc2c0e3169ee25a6701a82e7f022663d3cf585100c82c6b5da4d8c42e8c, 0x854aa160d48d241df5bdd1da2c74d1f90a00fad7effa29fa5ecedc423ba43484),
(0x2122c569da05f14548d42f9c5ce3a96bbbcb49fdfc5b2dbe1a7ab0ea84aec76d, 0x407964183987901893bac6188a7286a8f874570958a40cd6001202acdba5867b),
(0xaa8cceb3415df249b506989975a853fdeb409729331b1807ca2242e2a75c6968, 0x5362b581fb676eb909f125fd5f674be4800d89f0133a1363f1cb30ec1fa5b468),
(0xbeaea0f01fd8e44250648032530e41cd7e3c8271f4b83b4f7493039bb21013aa, 0x0e21f7d153e5d411794fb47247897cc6a86396f63f6291bbfe2f0f12a263873f),
(0x8eaa225e63bb92b9666bb31822c166e03843ff47482cec9a69ff584ed1a750a6, 0x0aa26b32e69c5d9419663e056c9f7a601274aec8a839ff1bb5a43c2e136ffd64),
(0x0bcba92640d8b4cf8d73c0e37867f5dd081eef9170e904e015f05f3e1bf6591c, 0x8913cf87e33aae4ca16b139175d60106ac7d05f4a8f10db2b0569a6dec121260),
(0x02d03aaf6828d0c59ffadaa75d1b7e95b3c4a54746faa5c7c428fe451a9f3332, 0x68468e2d597e753437b3865b3c968e4fe3f6b1fa996e6b4d296a12c320e61cf2),
(0xb39b4de5be757b36b1e8877347cdaebf11f8d6b8ab59d780fbaf2263a823b5b9, 0x01b609d20de73faad613c4dc6ac3c2e033d62b227ca3fcfe4aca992feef90b0e),
(0xeabf705fb699614800170b239fb8998edf6214a2cac27fe29c66a89963d2f0f0, 0xe1867fd298603f79d17876f47aea4437cb39ee7cbdafbf0c5452b02486182d17),
(0xa4ce885aebe9335c6ef43c6f395e1644201f578a4caa7f7465c1254227f1bc80, 0xbde32eeff7fdc4981c50942cefb38cf3c3f1a8a75addfe7c0f11723ef57d0c41),
(0x0db8ee69b0e00ff76a094251a53c61f2e00dc65ea11e00e5553ae121ea958361, 0x24e7ba7122742e09728108ac059c5f46aba40d1dc308edd29d494f390d156b2d),
(0x88a5b43ad6cdc2b5aa3d58db9a9a2e1a06d70afa808efa871d7f3cbc509cf064, 0x88483c55e5bc87178114605c1febc726e14345d44211b6706b6185d8ea6b7103),
(0xe3cb24cd2130716f10a4d432d4e592292e11a2f53190bffd4f478da2216b0051, 0xdf432db5caabb417f8252d37dd23e11738066c87101cd93473a2883a1b7e8de0),
(0xd9c8847197f04254731794ec0e29ba74f1d72f198f424beb8309e1ade09e1301, 0x12037266331f04b6db4264dfae6d934e5f75382835a646f5cfa4ae8be6defdc1),
(0x80bb740c3510574d10afa586a6e541feb5368797231d2a63067d28908877dc58, 0x24ff9389bb268f42b04f1702f7b7c6c17194c7bc0c5f4f63bbcd4ca8ef476fca),
(0x4b8b08fc400d6faeda05cb1965c9c7858f93452ed1be8f2928c83e6b4d2b06a1, 0x070a66122549ec2f6cde4a4a9ae8a5281b05081f8eefa8cc1111271a1beea7ae),
(0xd27080784d19552b13ec84731eafd2fbbc0ae927dd746a8cbe1dfcedd072ddc8, 0x9362bac1806dfc84e736758f22f1039d57a5e44c40586195885abb78f75d3355),
(0x7345d1a27b9dc922f51a046657721451cea5b54f6673a4847a210b4c339d1f18, 0x293053e8c180ee0ed81bc4fd658fcd5b99bad3299e62aedb74867df23ac12d98),
(0x3b3a6bafb9003f37ca27889ba2be2a02748ba52f6c6dc719afcacf2d578b1e24, 0xa9749973c49ebecc501f9b18830565056c88c2862747496b951892c68a61ffcb),
(0xb2d1a3e915b027091abb5ba70206ad2c5d07079f8d4c7fae3e6837be34159226, 0x9000720278d4188eb8efc45e8306ab47be1c6a16d88284ddfb627b1d92959898),
(0x298019e55de972aefd0b4c9409a9d4eb46689fa09b849947bbe278054a3f4a5d, 0x5b7a4298be50ee99363b5f9a1ef103fe4fec0034fd8a236405cc76f80ff804f0),
(0x604f1e627f5036615b55fe744540df91067fe575e0aafe138af68214f1080eb0, 0x2ade0355b373ddce2353669e06af5575cc6b01ae58b2a5812b63f36b58effd5d),
(0xddcbadcf63ffbfce326db7e92df0d4839a35df32fc5760709f2422f26e07b8be, 0x7a3bf369dc3a5ae0c91cea621429ad45076f7110b654a1f0edda9b573076306e),
(0x160a19ff10c8b3347683b21a880226da81d536ded9dcd3570d4f228318853837, 0x91dd522cf6d1d276e88287a5a37afefcba01011182b93eee1483cf56e6cf5218),
(0xbc1210ffd75737ab51300e3eea48a2645f3637931f4c6f95e850703484834819, 0x08acc70b363e52ee779e6342ea7dcb7cd7d099465b0eec60e35ea360e8baa7f4),
(0xc2da24fff2c5419c3d2ab241e55cbfff5f41b9ae4efaa1050abcc173a81fa1ec, 0x3fed4d9a4eabf3bf6b913bd9279761f104aa630ce278d0d84bc82ac70af77481),
(0x73a495abb26d4be1bd99935ff5583f6cf5c86d79fc86a4ed48f87f402f12259b, 0xf4126c3b3e9b8dc7ead63ddb5749fe5e6cb0bb3e3c85426b950326ef9092301a),
(0x599baa65fdf949f0f54c44bdff605ef62f53d68af0e44bf8274f0b73ce251227, 0x297ec5dae3893363617f5448b13237a191fb5a20e52ee897a124daff9f1eaa9c),
(0x9a032a506786e1fbbd9ecd25243ea67d57f9e4bfd1083879e309690cfb07f253, 0xa073c6cd15445d6d80c51af24e7f540df1b75fa089a4849aea14ea09ededdb0a),
(0x792160b3eda1d49348ea96d6857d8631ed1e198cc7f185d60b9d2c752b1cae63, 0xd12d76d8bd73a68109bc581ecdb84efadd1437045554984f8f1132c5fe1bc32f),
(0x8fc4cc459639aec02c337f16589c09a7e787dffb69ba290737b6c465db9f12d8, 0x0b2ce3c257ccb79ab677a9d849ce18332a97fca728bf3e836dbefd235343571a),
(0x0fc06a9a5857b2e6df0c3be8b5840946ca77f6904ba114be044e760e267eeda5, 0x6662078ef0de0e945a770654b8281a74f82168c449455250136dadf687c5bd2a),
(0x0345da4f0e1e89ebeb27b3534352c5a832d3c9ee456c01e4657c2885733b5f69, 0x3db274c6b89e7400cec4e2a99995ece7be8b98da39a2fa48bbec96a45c758be0)]

/-- secp256k1_pre_g_128[4992..5055], /repo/src/precomputed_ecmult.c:13254-13317 -/
def h09_6 : List (Nat × Nat) := [
(0x309850db36d8c2b4610cf8f3e1c124313931aebe1a9d2099cb3bc7b6fbd8b0d8, 0xedb3a9bcf6417672af9b13799bd8aab2f953391b27cdf167320005d23fb3e4d1),
(0x8a35d7fd8c7c75f4e22ba36dd84533cbf314a54a2e17a43fd250c9415025b0aa, 0x97ae015ffe364a2b6c12cc42fe526eea7250092f79c40b94ab7102c6fde1fa5a),
(0x982d9d66dbe6b7382cf2820fc72ed491d6a61addf1eff091de30fcb496ca4161, 0x0b4a7b422e9cd74b10cde7a8012b4d88f3621324acdcc911b39d09523cb3b501),
(0x1396bea957d47670735ed20de2ecaf6bafe7e0675f2a0f656b3e719f573cd1a2, 0xcd77e7d5a49d6cac5e7871c458df45d80821d77ef3ad3db356989c1c700cf484),
(0x0685799376774ed8a08da47a0932324171d09fdc964893d2aa5e783cb8030057, 0x640c986e0befd4268fbfb1318133ca77879ced3b56ec251d12d0a65028bc9d3e),
(0x801865eefecd50cf4970e6baefeed453769b3e14c103db6b2632e2412405fb6c, 0xb3d3f23c8f75e4758784016e06ce1b918db765998c7c1aafaf047282ebd7a636),
(0xf09220f727e57fd3209eac131ed93f96142c400db9bd708c9e71668620f1793f, 0x8280375b1b2f4915cb82a72c43c9fc6cf3a7de5c32762b6943187a8f013510eb),
(0x1c814b696104f8e65a51b98ce6b0c4f9f26b56338ce24ee224a5aef2967ab705, 0x1cc2bbfc6182827790502c11bcaa1f1cb5e34891a7c669f4dbbb604bdf2e3135),
(0x22fff436de961dd2a7ef38c2f588aade320d072155e6a42a3201bc6bc7d24a54, 0x6f13476af48f91973845af18ce68ba91077a0d4fa835acce76814c81f6aaef5a),
(0x39da98eda85b2de3c9bba6d41af633d55a392dacb1d4fb9b0654fde5a3343a65, 0x29b8953435045e6f2ca41bfc9e5c9ad255eee42695f41744b239659d460fbdaf),
(0x6fb84bb63be242036e0673461a5c1fbf7d89a0b0c98ad2e225cc3ba2191fbdc8, 0x21a37f8fe4f821bb03886333c554d6eacb8924f2bfdd7ebb339a8a92ec9bf8a4),
(0x29080a3b7c1d33e113b70c4c8388fd4f59118a86c4bf697d253463688f60766b, 0x745ea31ce9731f6889aaf5d81e7f686fb345c9d73af728c67ac2b8d760ffecc9),
(0xa54f7e6baaf05de677e7d98c5385d9e957f68d2a8e3c24bc11b6435f50cfd955, 0xf7d6109922ff9c98ee79998a597dac10be885d5ae7b53158fb671e38470b5c69),
(0x7472bc8dc109d56da5f150c0bc41edce7e37833515e1726762f50ccee8845b2e, 0x03c59290820b997d3c9109ac7319048de37c528088e671fe9cd85487f03917fe),
(0x6f4cbc32ff1805da6cf83c64b0d0eefc6bae76d0586de80fdf2317b0a4e68267, 0x29e492e589bf6c6817731a2976577124c9bc9e321856bba88a060bf16a6c9d9a),
(0x01a93effb60cb8658538cb27d8c12490483e688616320327e2689591c5413a12, 0xd96609d9251ea2b8f150664fefe6bf6fa0634cdab8846cc65f6c8a8e97697c9a),
(0x79b82e7bbb23efdacd79c0f087f2d0d0e2d3db5997696c730e6e94ea8cb72027, 0x0bf16f2347e594ecfd08718948d531e98306b173885464930d620218b25e3758),
(0xa806c90228fbc405ef56057a0aee9993ef17726174d456fd818126f25d93f986, 0xfc49c6407d9d26f2f043a1b88a41bbc13ced6a93bd669ddf3186dab29eb7c5b7),
(0x227d909469eab4789da2fe7b3cb618d8d781e0a654892f8692eccce20f41e9a1, 0x81cbb45eadfe3fc1de5975ccf87f0a44e9f106d719cfe796f33b5c6085de7691),
(0x14f8dba604bb5aba0f7f58e81c9b04252c357f3ffa8aeee9fa4ac7008c49e060, 0x26b19dbc52b913f3b6aafb313de99445b49d64ef2503d28bbf2f9e2f4614609c),
(0xf22646cd553c5008aa3c4cf9f01a05e920cee0214e9b055338a75c1f23e5fe4e, 0x52cdb77b07502794ac16003e2f4e859dec3e68d8c84a3365a307ac8053d3089e),
(0x515de841814df2fc7cd436898780686ef3bdbfff83eed568af19c75b5ee93a2a, 0x7395bd22705a81a3d62f3130ad416db9268961c7facf81a444d2ed8fe4df1282),
(0x59f4aed038f07bd7b2aa6600ca6f15f2d396310fe4ffe2124e6a89e73c7c4ed3, 0x47a048be5d6e45c24fa6932986b86edbb990eae2f5dc65243eadc69f43b2ed3a),
(0x7492492ad7f942934287c7e25f05203c4c70b8f580d23b4d4822d1cefa3450a1, 0x195231582fa06da5eb5368b0f0b199711a1bdba750d1c6ab80ca1b4ad649eed6),
(0x2e12d13d464de937372a69beb90dac9278977cd0e7b954d930360d6ea51cc3af, 0x35a900c56c7cf3528c4a5af156dbebaf32d2a1288a58e3a2ddbcb539bc3e3505),
(0xce4c4b4fa52f06d111dce52c402395e2a6ffd186dd8275b7bd43e9419f4699d7, 0x957b994dc5bcd5e0179a67e794a40ac5cfc074da6d23d178969fd8b92d9dc455),
(0xc51f1cac5814de82f4bd5d2fa8e4950c38fe78bb8d09bc5b628ec13ce3084592, 0x721122a2f63289c10f8925ce34d810a4be52f7bc9bfea23247617f958db1cc95),
(0x9fbaba148293f57846c717c8718a3a9b9dc5df9863ae10e89c3649a3e26128b1, 0x4917061fad964c4c05d797807914b2f4b6c3e7303bd440b7bc00f15dbed2b497),
(0xa4a9ed86ed3a1dce05423c1e1bb5fb9dfbc1ed4166a4219ebd3439228542ea9d, 0xfcf6821e463867640c61eec019b1a84f06a8851d89be0da79d2768af6eba9d89),
(0xa6fa35679a732aa7b58582b15f3e95d1f702ab165249e9e789a5a3953858d1eb, 0x3bd67e4ec0dae02c43d32cfbd25a4b2a75898badeb2986b56cf61825ed2830ab),
(0x3b3992be8f7e1b1b4d8f57106feb825d568b176daf0e41f59c2fd59ff67d9b7b, 0x0ddf2751ac17a4132ffc5c083e8c7728a74b0063377228bba60cdb871b5db297),
(0xe9ccb20a8a279cef2a15de57e34f510af60ce3973fa2ec2c4558f1667ad20201, 0xb70a11bd1b5414de1b30035b3dcd1dbf17558bad368c78c90d5d91366592fa53),
(0x98083dcb1356be80b324aa95e38217f7c437f4215a7f3e98ba803fd85cc04445, 0xbc0d9ebfade6c640d16b82b6005328a2d5ef2f8b52aeadcae406ae25e9b756a1),
(0x6a0f3b019e3b2a9d453cc36d275fae6ab94aa14ee0b4103d137b17418b446ba3, 0xef30c9f846c54902c10a4ee6c5013b25709e71090fc004b6e291b1bba021facb),
(0x83a62b606a1c4d031a18473cf22300881d7673329513b7a94f402f183dd45640, 0xb23888d998bb9c00ea57c9b9517080de95e6491dcba0d7a5729ab99b012a1246),
(0x0d2781bf4b05944975da8b83cf82b43db5ee89fc168186bf74f2232130678492, 0x76fe195518e009746af44fb36e623f4bfd0ae8b6474e91c33ec364a391049d49),
(0xe4445252dc6acf3cf7b3663d7176d46befe95e403063d1a168fd57422795a986, 0xcf7613ddeb200aefe665bcf5a6dd7fe3cab6ede3877f6a2822b6620d1eecda68),
(0x51f59cbe68f523b5b435633cce11c0fced2129f35d392b2aef789044722052f5, 0x10403f8be70248873c4f0aa8e4d0fe4611f34268178368e901eba8e4d9b318fa),
(0x7d1806b8410ec62977fc41c88c86ebcc74da9a0fc6b35c4368d069a2c8c974f4, 0xefe8890f05aab9bdc2da2956bc089b58b67ffd79957ce0dd009a53dab26d68b5),
(0xadd675448cb87adef8cfc3c185fbce12e0d1525b812fb5d02420481db22dde96, 0xbb80527cb22a3bf6728ba305bbff36cec6b44d689cf79ffb930304608f461174),
(0xceb2968ffcc7b751f9b560bfb08f40ecba1395fc9a3f63f1065a1be1862c3dae, 0x67727357b2dc8d2a47606c1eae61ce541d79ba4904a5e31000e0435b383cf088),
(0x3a03b03a1348cf01afc6066526b6fcbfb3977ecd7c17725ca9f0c494f31223d0, 0x3e71c6e07da0635aa2fadf5b78c892c4c95f794a88594b720183a9b24dcbe7a6),
(0x42ac22a8c708f2fa559f9b9cfc7ca7054356d18a95a69137bb8b8b1702b771aa, 0x0ef669b285ed6abb477dc2f2bf0517f30794c3719ba5b2678f622eb4aa4ce374),
(0xb2ded9eeab06f1c4019c5aad5163e731722c4923818185c0d99d6a8bdc603a06, 0x23bb4786f84e6c75e565a7082600585ce1fd60a2b935bb4d390d07ee5e8646dc),
(0xea1faab0bb0b6cd5454e63a3d1546747cf9707c648e4837f03fc6b6fa2ccc5a8, 0x8fddc23e651ebf4d89e541482043fc347c26b66cb2ad2d801fd2fb7e77d4058a),
(0x487920c514ce0cf09d939ce581e134099fcad06d3e6974f00a3b592512cb3a86, 0xdb4472178a92e9f865a1b0223baf54fd618a87a115887f02011cddbe986dc927),
(0x06828652aa50665560349cdf132ca8c89a6f9a1b8baf6adf64e10c129ef9217b, 0x9615f56320db28609062aca47a136e85040ebab03f8b5f7f93bf0369aeee0cc4),
(0xb66a66f19c94868b3e45139cef9d75861a6d06db7202781483dbefbb41157a94, 0x5c0763d88aa90b2fee04eab9fb96b2805ed5f7e058c9805b64fb17ae9a0f224a),
(0x5318b13da824dbececed642dd742ca300479874e31c1013dd770a0b3c9ddcd9f, 0x130935409b5d56ccd50049483bb220094b7d5a5b06d357bd76b79117458e60ef),
(0x06bef6b9555f29feb5277c480863c9908f1fe2c95b4b45fd8c5eb4823ef4964c, 0x36c00eed04281871fc5e15d77acfe3c26793455b9b3607dd71f3e1639790e3a2),
(0x7972f7834c01083789b92a08d21b8b8ab6ff6ef792eabe32fa1c92da04c8dba6, 0x2c3352f3f458a538f8228321c1adf9d4a2df9f8bbd22675bafbdf0419538f1e3),
(0x7f03f087168dfd247a93e840e68cd221f02735d393d777ecc9d2c9ff7cb0228b, 0x663dc741fc8e98d07dece9605b506b5da5f2af721b64480b1dd3e7b5a0ee7743),
(0xd06ffe61973be01102f17bec6f4dedda09b9d3104ed22ed7d4c2f009843d2c04, 0x175f409cedd739dc5adea16a187a951bd42df4ded1aabfaed56f1ac526cda8f5),
(0x9094c5103a34209b45f7062eec65c14b72fa75f41399911738cd7f6b792119d9, 0xda541e517211db66272f8f8d413e171713cf499f6c9cd694b98e53df45e9d501),
(0x22bb9cee8a5b99fcd7ac7d675e2321833f71a72d55248a3b451699f49f151eba, 0x841e729293a98297ebf2e9a66d106325265d91cff7e4c245845e5a40522b94a0),
(0xb548dacc944b013ed50dfaddfb84173fd5829b2f69a2242bc152684e7b8a3ecc, 0x6c7b70fb9ae39eaf583939b11a1b8aad673b18f27568d2e0b2680b198c662a88),
(0x34f46e0a2281a617f8ab78c3086ed27df837f23ee986dd20bf705daa01b0188d, 0x4ce4df08bbf1e7356760e05c6e5d3f3e664fea9d6e1a72d6bad17bbfa3c089d5),
(0x3063ee2e3834842b84cce6d950ba5afa1d645c5de0acdb00a9cc4ce3c266f649, 0x0b08247af79c2be1a0e4e0217c9ccfdef76d1e4665f3185e8623aaf863bff9b6),
(0xd7232b553740b2fd464a919c46168ef1e09638e365117eea979130aad40fc525, 0xf842c25638e84dbf47d13fcb1763a29647b729081b5226234e307dc01a402ded),
(0x06025e82e2ec643c32b10e6f62ef310a1157695796c10f8db099dd4e1dd8cffa, 0x1e5aeacccc5c5455d542dc51b12fa3d175061cc9459315487467d09d945e2596),
(0x141d07cc256c4d2d44ddb7f2ef720aa84bef767b3597ba323b39915c1d84f175, 0xa842c4399366b2a191e850df333c9cd46c983158cc57989c588c305a1144ead8),
(0xba4ad1056ffde49354d131493184651986fee8b2728917ecbd1a0112b986a90c, 0x0097ac53f84e995d92d14f0bb156f47cbe5b65062a7f8b077e235da2808029c2),
(0x5a6ed894bae212f3eb44304d098ffba14a944cdeccd125175e52d7675e0f801d, 0xd8160707d43053e1e5806d7abc17563cffaf92daac51deee55fcb9ef715b08d5),
(0xd82a95b656bd1abe50933a3f0e2915267b257807c8cde42e5f1648c7f35c4f3b, 0x748904dd3157bb0765f94c187528c74fac639a36be18963b676b9b3783f54591)]

/-- secp256k1_pre_g_128[5056..5119], /repo/src/precomputed_ecmult.c:13318-13381 -/
def h09_7 : List (Nat × Nat) := [
(0xdf7c9de98e7481887496734034a76645c1e55bed3a90fc65dfd9726da2bd3826, 0x3bd77fe3e4a4018f3e256ca02bb5c8b1b783b72921ce329afff9caf6b530b1fe),
(0xd3ae1d684614c95b51cc4af5a9e8a05c4ad7eb4aba4a65a89a151b96d91bdb68, 0xa24cad0cad0ba98a860d6d74aea57c3c237808125fb2356bb55f0bf295e25e67),
(0xca85c92448a27be22b68c9f4c9ab431ab380ccec2439c8b1944c234cbd865758, 0xc53177d76b16e0a4389e1e327072d46090e92f4822043bea924fab464023038c),
(0x34309aa34e9fda0df2c20da23e8f8f31eebea0961e769c926c4251bd5440bb04, 0xf655cca9d5811164577d05252f5605d1b4e2b6d4dd5540beaefed4ae84caf3e6),
(0x40212a4ab2bfcac9624426178a807655185d29297e26c4374879903b41307b3e, 0x266246056ceb4509b481df0079e25f1c4dfea60ea3768e8a462ac2738166dfea),
(0x2e441425d121e1405d2118b97a3b305afcf62e914f24bb7246e92aeb1ebdd152, 0xc3c7a56751dfd70909535d0723778131692dfdb17584d9c0c8fed42e5eb662f5),
(0x315399129e59668b49d9b8bd5ee66b2faa727ff496f457f433400a20b5242b5d, 0x5e90a20fa700c59cfb0ca2ccae3f28376dde44c03cf6af64365e4cd3b4e6b3b4),
(0x3b586e2c30eb1959bd5171ad54b81c36cda6b0ecb5e77b41a7b5b0d30e1ed4ba, 0x06782aacd675436cd969f413c471edf80ff7d89ad0a0757516bb695b19ef40fc),
(0xf4299c9eb3453201375b972ffa39f01d90c68625a63c9d060513fc9c8c623fc3, 0xcbd0e2a5f9b9ebd3f482a5bbc5c17894d5c320e02874429231c94fe555ecf68e),
(0x96d35f35eee50b3232371acd99d6db8ed2b7c4df1f62b8675559543b785503d2, 0xc0e8bce88bee1e0229a5d2ac113c9f2afeff0260869ecde07cdb1cd63ba5f73f),
(0xad3036ece2bcae0d1fc34680be2d293fb40d9133905af3751ff89c492c183e1f, 0x2c0773d4bd30833d24222f8903a4f5e8cd6abe0663d66d632d5fb8324c260f9a),
(0xa0f340da909f04df70a331951c48901f6353f4d04d22f99b3763f567be9d207f, 0xcaa1d9de46a37b8d623a39a86792475cbf3bd694597351ac515ecc8b1a4fe78b),
(0x2adc4874af0b3cfc675421b95369ff0f950b55d1331aeee3dcd0adf30859be4d, 0x6ad9fd3fa840d02eddc01fa0ffa61bf94dc1db4cec733976bf1c6e41bdd92b79),
(0xb9222a37c14456a1cf931410d96cd84fa304b9f85a96edd76e67f92843536175, 0x4002a875dfc4cda74ff7145eca46aab88cfc5ed453b34eeb1e5dd8594793e3d3),
(0x530bae23c3796fbf76f86f6ad8b59b80801328b76c46e8f1cba6398b270919f8, 0xd4d3b34c06701f07bc47d1d9fb868fc2b46ff3972086cbc0517e29d738a7964c),
(0xa7f2ce515b9325060c740e8440f254d0e0da57bf4d9199f6acfa3664ec36b823, 0x4946fc413ef1b3f186a2c7816c05ce7f803fc7dea00fbc2e7e6c4688fcddadae),
(0x8ff613d11c81c4c90fda3860cbaa71f80eab9ac3d9263f3155317949d6ac1d53, 0x54f683d1fd382305b2193554bd3a6d2fbfbb99b75d9c3e1b876c3b52e2bdef49),
(0x6fb3bc815ef3d8a0d7aa1a69dccbdfb63f7a58c47a12f98db09cc1054306422d, 0x798fe7acf9fc71ad7023a8e2c93761618fa632cbec607109d28a63a39a4228f9),
(0xc32aa38ebf0ec0ac61bbea0dd2c633c0bd49ddaed77179c7e0098c8f04488da8, 0xe01f5fa51107cf4c00f4c1c578c3b5f3a1baa05990bb89139e2abb302e9e5042),
(0xef5e1efbd1ede40a810434ae833a46815f9021f941ef1d82fb8c139916c4933a, 0x094a9cd15f160c1f04f85ec816fd18349cf19f8e96ac9247695ca37adbad6ef9),
(0x8e3aacf5033de35e4f923b36c378ea577a5aa47770ea63900f92c73d50fbfed2, 0x49cd7650ff69ed12b96ac3b10042078407677497b731e0ce316eed657e40e014),
(0x84521790204c64cbe026152f474b0da225703d93259438217d66f20e3ae0d06b, 0xc1da2f7e438fbc8257f7fe4c7e49b73a446a19ae775e7f1d20c8fa31edc3bd20),
(0x604cd90097fe538db27cc2cf0a2d6c79692f2e2bc1b1b23d1f0eb949df560697, 0x914d528829765538d77f8e040182c50fd2d9aecb2412ce474888d66646b2258d),
(0xc13a44bc9a27e2415531b8a05570e66e6763b3bfa80e00bf59d6124fb3d67858, 0x71557bf04c261c2b19196d0e9e459f3af629cc190084f4113183540003a60563),
(0x14f3399d5204b65423d9318e4adf3af90dc43099eb43b719eb4644a4897ffbff, 0x13808cff4c09665572329034d489433d976cc011d1a30ced702ba4e95892422f),
(0xbd84d71243dea7fef151b2075d03d2ee170488ab4175965b128411f3f592a36d, 0x57a1c602408fee75ea9e683f43d7a984bf03d66a37513c505cbec6c66d286fc0),
(0xf319d4a9b5f2c1ed6619ae06e5aaabe4013a2a6c265283fe4a51c7ca6c49b572, 0xbd9d90c22a369a031856ca9c86426171db952537edbb1ba893fd16ea35aa43b2),
(0x9649689a424ec9f5aa4cf4c845588046c50eaf9f700d041283e026409a80c61b, 0x5cba856795b0440a53e0d1c6ad560364c398dda9d2e97a1fe594355e1402fa33),
(0x45fe12f5a340034f381764b0adf503b30802637470eb26e96f4181e268cb1c38, 0xab7715c452e5581bed940fde355892f2b8a16a3dd322123c14a57a2372f244c1),
(0x98bcd24c3222401aa46832135a3787906c9812ee989b8f520fa522c6d39adcc7, 0x14c7cd387bb5191cf49bbe4152af8b0307135a6abc7e469735a72a38e44433a4),
(0x6dc565127be34196a76530570f79b85483c275ab65c05c2e83663da531d7d652, 0xa6839fccba7db053affaf5a94c95676f9d65eba3c2474472cadbde172ad3692b),
(0x7a7f66deb04492d1fd2fb9aadbc4ea7bae5a380147b86e6860513a570eb6b10f, 0x0fffe4f2b722f36f1e55567190d84d9a039b819efb7a343629b83adff6045f05),
(0xaaf9f1883865e2f7eb5007943888b4ec09013371f71629472cf52adb0bb5288b, 0xdf634c19e7496b4b478bc10c7c00ac8a5fc24dc64f193355f0fa9c62d6048243),
(0x6304b1d7056988ca25afb747476acbad2e5afa5c86136090c86a82a00e52b373, 0x91a2d8292357463b0ea1a7cb33d79be58bd71732f1d2cc13ba4b27246fd39f05),
(0x6eb171472aad3d80bf4e06afa36e37ee5fed9c18bbaa1c4f5cd871ddc526515b, 0x6afd615a0e2512fa70c9670fb56682d00f304a0c6a23d1abfe958a7c2a4173fe),
(0x9113b613ba815ca643e7bf6627dd71d98c2d40ea5c00f5966216ca9d0d32b1ce, 0x8790dac5bce4100b8e4e513566a104acb55d3ca43d6ea083d23716d33894de2d),
(0x5c7af38b8821169e2f7e2edf18b3b73ac387e6f6a8ef1cdb441f5a130284f365, 0xe12619eae2a07b8bc55dda856cd37927d448cf2af40284592e371e108e91358b),
(0xbecf19e9023fa7b41cca0efd937a5b11e227fd1822743fff80c4269206631ff0, 0x3213c2099f255eee93323d1fb440cbb764e86f1a4021b82c485517b03440ed4a),
(0xf22954be430be6ab34dfbf92264c24060df3a0a719ed45a4d09cb1614abb0c91, 0xa60397e3ef3308a8125277440311673bc18bc43f352dba004dcd41247b84846b),
(0xc50ae8c761776e625156f9fe7d863c3679d43126c5f3fee75b837a381803e770, 0xbe966bf599b67e6cffc421a5e6d12e4b00cbde124d84eadd781ea562aac7dab8),
(0xc6c3a65fe849c113748e9b6bc9a9419c1a91950336201a6df989bc5ffa07d359, 0xfc205b83b4764ded0ef5808211eef1204d9fa9594d5b7086c2fa2c9c3e56f37c),
(0x73466c278d5f13addc7da10cb8855c239069f57b6ec5e80ce27191aa196d9b1a, 0x7e7e2cfb533cfe9b24243cd67680ade235abddc3d8d00faac8adae3915ddf6a1),
(0x6315ac1035eaf8848919bb56759f701392fe442c771a42dddab88ab02fb0df2d, 0xa49d2c976e0e66b450e8511fd91f0f71a7516fcb70ca61a098f135ed8e19396e),
(0xfa195146fdb7ddbc41daa8c598e1f81136c33eb3bf23dfc203f20b361c8e7bca, 0x324fc70b38677dd4c8e7bd824b836d0e738dd757ca408ff195bdd5d2bcb5cef2),
(0xac40bc48087734bd51247e9143e5e188e5e2bfa42e3c0392f39755f73952bcad, 0x75904ebf603c2f074eef9435eb22c6631279afad94d3bbcad53498817dc4a472),
(0x15b7e1efd2c41c6d416b6dd25f6612f0a0acb0c41b161b4bc40c5ad2a92604f6, 0xa13da672175018334c4057d885be8fb1ceb6d3696979b80583fc0a37bc27a0a3),
(0xadf4aea66fff705d5bff3c84093e88704ba4019fed550cc50c203439ff8512b3, 0x53ad212230528e1f4fee43c92369dca43d0711773ccfff26aa16a5026206a3d1),
(0xda0d5286fc261d921095e1cff67e729b501f21b945e8d84fba2c80ff335d105c, 0x5632ce7ae8d9ce7daac7cf262ef7bd270418613cb288e79335a0a6386abd83f9),
(0x463fd081daf0279418b95a48bcb8dfef3a9dc67c2237d2e5dded1522f714d6d6, 0x3de4cc767126750e4038fb430bf6af1763ebc0b2ef56ba8ca376b8156b4f28b0),
(0x15e37b9f58ce033c02f0ad85d49f82072e2547c791c7ec52a86069742badb586, 0x388168735e37c957c18ad56ae7ab81ca8fd89a2d1710f032054393aea046490d),
(0x2e121b79765d4f4e8e7aa8df5c70e4b3716b976e9e4536c0dbb3b5ae4044a345, 0xd7ba59fa97a7d6b38b70ecea0312cb01f9016b33c160d1e8d33fdf50ffcbc928),
(0x8d4c7aa3c59dede0bc146b1038f8f8238182c4a701cde0d8e17005e864ad29db, 0x78aa343a28a48f90edd7fb31849d6d3efdb4c67773cb523f82c0b1872c17f44e),
(0x1ae12a1a0019a5d103b2f42c0035a385f830272186a67801c22818f694438c58, 0x5cb421bd990ddad816de943987bd96e7e1ddfc5a8d0f86f7b30e3483897815d3),
(0x7a6f584cd48be9eba7b733778a173d5e3833aed3a603a226741ae1f3a1c21bbc, 0x5995b840bcb6cc280b83d0489faa5dbbc6a9319046b11b1359827266d177d27c),
(0x2dc5ccb408f78db23f0933f0ef67bea053c7f2a680788badb71526a4f55fe758, 0x9e4743f9ddb46206a544994271743b44713522f5f358ab4734c9afcdf528736a),
(0xf7a5219c75dc44264322bda03b60312726a6b3aa0c471f42a33072b4a44fc9bb, 0x9e1feda55da277d5cb18381a4471939ba12c692aa40ab965fd03949cd8124ab3),
(0xa1bc311ae29e39265b3be1ba23d7ffeedf0de8af0fba089cfad797dd8ba67c68, 0x9abf66cf109821c768c98164b0598068c4590d7eb9ff4c53594af6e8e0ceee8d),
(0x2c2ffba2e3fee9300fe8d0613bbb829022429fc6654d5ed361eb87201d6b92c5, 0xed89f28abad9510bacf44d055934cc640ac7e94e2dbc72c9986e6cb0acbe434c),
(0x1d157e1397f6b22c3dbfe448d1168b8abc963f86bb3bda29a8011f07d2cb5ffc, 0xbc7cfad1e1633419cef1c82cd0249ee84c38b3f9d628337baacf04494ca3c0b4),
(0x1b9e972356f8a4c95e8d5fbc8e2f2cc599c77d6290b2fd442e63b3e6dc33c772, 0x59db6eef988386fd21e8a772a1fe048f95ba77a5122253c01a52830abc12742d),
(0x80460a3b16fd9ba2250b07fbc77f2526bec5488d7d6c45ae6f48030839af48fb, 0xbc7648a7744347ade17da2e05cd1ce10db704acd26c81fbcdb251ff1c6fdef10),
(0xc6903a0dd8c26c8ccdb675b5972aa0506912813ca6f0c8b02edfb792491222e7, 0xf4759b4e9db7f1db7c8a1c38dfe76d86c377842329280aec12b1be06d8e49ff5),
(0x95ab78f3a4268c8b39aa645d8c9fbfd5b92469b0809d63693d57d076d305a241, 0x8df4c8d0ed85ac01a965d58078f36a5f690aaa030d9479d1b2297a520053e3c6),
(0xbafa3ae440a4b8d040862a18cca806fe8cd0e780483b396e41543486db91d9b0, 0xd7bd60f0c0ee0b8e38aad85a85a42ede56c66d54ee73d371a3bb7cdce93df670)]

/-- secp256k1_pre_g_128[4608..5119] in pieces of 64 entries -/
def h09 : List (List (Nat × Nat)) := [h09_0, h09_1, h09_2, h09_3, h09_4, h09_5, h09_6, h09_7]

end Secp.Model.PreG
