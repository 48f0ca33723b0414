/-!
Generated from /repo/src/precomputed_ecmult.c:13382-13893: entries 5120 to 5631 of
`secp256k1_pre_g_128`, as pairs (x, y).
-/

namespace Secp.Model.PreG

/-- secp256k1_pre_g_128[5120..5183], /repo/src/precomputed_ecmult.c:13382-13445 -/
def h10_0 : List (Nat × Nat) := [
(0x7cbf5d9e3bea6864b87ae157fee6e352dc3a4f326e7cfc68377fd199a6dbb71b, 0x42d082e75d55eb629771942e3801c27afd80b502a997ccc59f5a95f7d7276999),
(0x9108db63751b8a9ef4870524f1198f9cc4d3ec20af54119d6011f263de13ca29, 0x8c1d6c47aa016e83d2c8f76cdf0935b1b6f909b50bf5c90bf420349322c711d2),
(0xa705e7ebc20ac4d743be660b0d61340c9629d0691b08ef01a59e78e802d8b347, 0x01ed8ec913ba19e0851e19125854433af71b21d8df64958cafc5d7aacd29ccfd),
(0xb75483e160144d4678af9a3d701c4ffcfe154c49fad45ece3945289d0c3781c3, 0x0a4c045513cfa7fbba2931cf722fc56987b2c79bc4b943135a458d345ee16d57),
(0xc59aff260bd4fdb937468989763376f50064abcec00d54e345b6dc2d9b7b76cc, 0xc396c194db446fb1a22e86e18a37981ed114e675474bd24c784daa9691eb15b3),
(0x2f6701c7815ba7c637c4649dd05a31d3e909d8ba931e713601e0662e3ea19985, 0x937eb67b9262bbd512a21e90393f9e6566e0320355c77afecb98d1f4bd25e8c3),
(0x170d1e33f0862542dc72b1b2950ba98a812cc30874ecd0c923ce7c09ed7cf9b3, 0x5148ef3968ff35f70a633ba7dab6cdaa54dc6f87510f1a7d4d3019f0c00bc868),
(0x0743b02db02301db453f8694cd517c6b433f609c0e205cac6f6a49b855890708, 0x7af6350d561303391a9ddce5f566b9b29c10d535d51838506c7431248dcd707c),
(0xba6df8bcf9d839884991c6fbe0aa0ecbd0b6cdc40d0e372f3ec83b51da6a6570, 0x7d27b1763a01a8bdfb7dbe0b226dee6a73ed3644807ca33a1f5fee61cc161fcd),
(0xd3b63a2c364f01db6a6f384b4bba6c2f2fa46a02860908261c8b50454b92ca5f, 0xdf6b9cfe0fe7aa14a38bc44b08b627b6e0ceeca71720d630cc4fabf7b020e2d2),
(0x638c2b1e374ff6b34b634f4cbf363bbb55d66c8caf4d3fed43cf436fa1daa7f3, 0x0985487337b48f324feda3a1f267dbe88831aedfd7bd36c86cc8d862857507d7),
(0x1749ab4a607d78645c4cbd304bc34c0694a7a6369c8c8f8cbe4602bd16c4b4b8, 0x465bff86b459b842dfae4df699be17588b1aca97f9802827d892792c0748ac92),
(0x9071a5ffff23ae4e2d81b2fed341bfa9cb86ae6eed32870dd549af20a1db9feb, 0xc0e3d4e8277d099a9801ddf33e513aa91761218a967d530f21d70894ea7d38ab),
(0x91bc005528e2d857ac644954242fe0c7bbaadcf29119837e898244e3a305ba6b, 0x6fb637583aefe60046997b88315d5a24683ff95594398694be304dcd8b588f67),
(0x9663913d48c865f6312fe51b6e8e7c6c51ae397bd141aaf2df3d6ff5edebbe68, 0xc62517517e24d81db1da26a66627fbb328b5f81806477b3443f7c36a918753bb),
(0xe88e87027843b94161c718879a0a9a90cc0d6dd38329c73ca18acca43f44ffc9, 0x7e31ae631f9c927fbd055f58e682935a3225e7789221a062f2826d8697143a61),
(0x5ad27e79dee03a52be771a9cded6a02a58337f26be810d1af8cc5ddcf1eeb917, 0x91c18e01dbee34e9a5302a7a11bfa7fdac852e1be53aec2d3138259bbb53e6f6),
(0xbb7f4694f2935a5e8711ae47bccca5500cee26324347b46858e40c7449111ead, 0xd9f94c14332ad75a59dc784bd674e8c6146a2b74566ac1efb0ca17dd9eec8d74),
(0xff77ae06e0624cf5f6d905eeb0de72815377c0263e01b6c4a139e4ac3304e82c, 0x1f27acf9933d08b6f089219911805d141611a318661e6e7c75014b84cc35c395),
(0x84c15fb31b12d39eae59ce0df8646e9a67c854928d6c498b4b836be2eb19a060, 0x6aea0d78d54090e32216c3aebe0dd433a666e67b44cce0ec1609804ffde33f74),
(0x9a48086a8bb9b150a6ccb9663978f55541db6d481b3d5266e958cbd1df9ee7ab, 0xd8eb210913ee09e7b576766113157905b3cafed4641903b6da0ebc08a0ce2f58),
(0xdb32ad1945f4d9f7eff1b8c6b87c55451b0c74d98f1c4ffc6ff1e79a21ab3033, 0x02d56e650a70bd23617f85f14a5d0e4d52aa6a70a859415836d02d87309c7eef),
(0x4de7f1aab9089f5cb6d95b67a04952b0d4696cc76640e1daf4bbf7d1da985851, 0x96f2cd335fd4b8164499ddc55e81f5eac4db439917f2151af86d2ad1e2b3612e),
(0x74bcfa735aa43e8d1fb540fc9922362b21878c09666bf541a0e739b9dcbfd1c6, 0x84b26fc28b2a05cfa67947d499c1ffe8f94ed4d46ba583b7cf26ee81ba60bca8),
(0x9c596bcf3d2e1df7cd8d98078a1ab17bf16e27d866cfb582ef58498c48ee0fc4, 0x14dfc09348f72d7daf9e35998b5f18bd5287f3f8381308e063666028dda9ac56),
(0x8e2a0d3b2786d67c0a15cd724f2cc6dc16cddfc5cf080ef8d9576b2ee5b0ff9b, 0x2ec4853cc83c72d268555129ce30c83650fb59b517a3d61d56ac42731b33ad06),
(0x25ec48385fee8fab773498dd85a23ec946c5983914fb8a9fd1239ea8ade3f829, 0x123bded65312030ed47600471867aa4db7537239b363b6cb58ecff9844986924),
(0xa1cd98727551e2c5db7985b51698b97a31b90d3d32fbe60d34f8ec2e398df76e, 0x40858565aef814bb8bd91fe1410f95563f1bd170345c1283b64fb2684980c398),
(0xbf7d3973aae2cc31e831390ef2458e8509ed6847e9eefd6e0cf91e3d4a4924ef, 0xc2829fc42127b303c801605f35602b8432357564d9333ba8d962d639ef21a6aa),
(0x5a5299efe0d394eff4b510ba96dc73bf6332d358e276bddd527ec290b73e3313, 0x9ccd461817e18104d324e1e81597eba0cb6b475f4e5f2e029cfd2d63b613de79),
(0x90efd8cf9e4b9d745cb36c1320a8bb0db5cb8578de49ea4b0c289043e2ea810e, 0x87a73339aaceed7baf47b5eb97aca554d80a4f78d439ee1404b2d0fbf8df5e3a),
(0x3a1742944db7f2d72498e2fce2026d5cf8600ed6958db97c24ac0de8417f6def, 0xe60c566ff3fd14e22ff0cdee0045c4c2317979517aa0ca6800af91a5e41f5f60),
(0x2213e0a13679040f73e4d68cbb9416656ea8364033abac762e64d50948a97656, 0x2b87ce0fbec2728aaae6586cbc6d9a89a4bb9b9a211de522cc9092795860791c),
(0x382412a1ab3965238b06c47be941051abef3b21516efb2803ff3a1c4824954c6, 0x7cae8b141938312fba482980ab9073dac66c1ca0d746231e8ba8f3314cfd9cea),
(0x3d76bfac89c1269d53b6ded6bf13c785361b1fa384be2ea0d582ee43f06de56a, 0x18b1cdbf96d12859bf887b896d8f2e6ca08b892c688c76878294974daf6d6284),
(0x715b18a068d86cfd41a20541847b36a3ed7814c1b5528751927042f985e7ab70, 0x2b8e0228b0a4d39b85a3d3d40f5a10dbc68256590f4b967c361da44924890911),
(0xa31a10eae38e6a000ab4f0048b45c8a3e57856b0d0b64e47fa90e234e17943f9, 0x5d4b51507d3f3a82087e5d516bb30b892cb9f54096aa59621f77e028480e594c),
(0xb397f9651dbbb6db34708066a1743511d4a1633295f5377272c43a6d6e21c1b0, 0x673fd32745bea2fa0748a759030679b2471e4004423dc8b3f34f95eaf88d2b8d),
(0x2e4b865bc12453251ad8b3f6e8776bd1a5878b93ec34f84765af84fc146d9919, 0xb3e7d479661ce03450094432c538f55fc8be869373a91fd0350c80890ec0d76f),
(0x9a38c7907c0751e5ba750bc30485b4a472b661c363a3980efeeaf59a98533a43, 0xdad7ac3b65493036d30068ca72808000d54b42d6d263de93a1ced3d8fa82ca71),
(0x5599d2513b3c8337f8af18ea70d1d2e183f3e363637353572b3f6cbab4371d9b, 0x7ccddd9eec8dd50769f6f633cc70488a6a4e322a2716218c5de50fae45398dfe),
(0x0610c4724699e983530e8a32b60a8077c7f60226cc3b2010e49b2e30f2a98afd, 0x42157de0fe6d8e5317a3f565fa450f53087556796d98c7a7ba0b3e96844d25d1),
(0x89c082e11438e2b56a4bff8bcadaf804c9d11fa08f47bff539cd074176f24a59, 0xf4dad4e619ccf814e899d48a904a88e06db6ab190a2e06a7b359db9dcd0ad0ec),
(0xbf810fed48d1ec4f77cf37320ed10a44df9e454002e1a1e16b29c82e32537565, 0x6657fd300337e294fa31d30b409b426d546a47cf38cd23bd75aafaa0b527d66e),
(0x3b1317b8bb3c9c91964ce36919ea811b90a8bd5debadabc2d4d1af3b50fb3524, 0xcfd5988a78aa555b595531f65fb0e3f1e756c1db626cf60b4c1b17e6caca603f),
(0x8852043961558d797b084143783d9e03791e6183c932d1a417eed30ebcec0bd1, 0x271097c44c723ab10c1d13e993b7b232235957eff21a13b12b3d302a0ed46ba1),
(0x6c420c30343cf500da0cc05ac315d3c345ed8aa8e0551bb032fbc512732f34d7, 0xfb3c0808698d38f83310fe1c15587cf7137bef2f666229b5bc789dff1b2f1111),
(0xb12e21e0e060fcf5580d75ef22e8a800033e2c19487d0660615f7d51ba00e430, 0x3931d63ca6e0da2b295bd22a4bbb27f5fb52d89a03c4ac36795747e6e74ce944),
(0x4fb9da544da95655c0de5654f68c2820a78847344bad69340e671d56e7bfe11d, 0x165867019bc89b28f5fdec4078a2a51d6e087ee429456cf3d258b97c209d44fb),
(0x18f8f6ef23bf75f7a78110255babbeff792109ca5a550472245552e435588e7a, 0xe712abe63a374f25fd4b18c84b1451fdea77692a43c0e3b1cf3469fc7a9acd55),
(0xd730d1671bd366547188c07f78d82ed56775d7efbd0967e61abddea77ed6073f, 0x49c4bf3cad4e31dfd840045caa8be15e43f90196818e30f7b379c74c1d866553),
(0xa915fb727d4c40ab547c983c24a4f0191f5e89ce07ab0636e903aef7592208a6, 0xfdf28a3f06557f275813ccf38d927f40b910c5a90ddc3c8314a48eb16a5956be),
(0x7abe8d85bd95c580cd9d532cc1295f5aad5168d7e3dcaf28b19f5e7695107157, 0x694abe9b9a6ed0d4c3ac1db879b490386fe9d2f9443647d191533fbfaae3cc02),
(0x93a83e8dc80c7cd764dafff1edd148b29c336de7cf978b14fbd35625c965942c, 0x91ea57750db50bf9a7e3f79b77c7d5b2deddfa08a1d455e6fa21e547356c634f),
(0xa334ed87dfd2e1fd699ce1f0a09fe921487f83216cdcf75dfc8d7e5dcbbd1af1, 0x42a0874ed148bd32ba4324aeeb0260cc7f0d20f300f43388389046408f7ae7e0),
(0x811597c1f4129ac6e150c231bfd8e4b84ad441ff2c698486affd4ac4c22bf8b5, 0x5f7fb47e11b476cdacce155295ac000f3acb38386ad3c6ac191dc12bd1e299dd),
(0xcf754ed247c9eb9d24f3129c4b4cefd894b5e58b832f158e2e82911f8177a59f, 0x262cb6052991777ebd1ed5ded2e7ce2976dd73d1ad4c9bf49fb5d8fcfbe4a3d1),
(0x290ec604a6b4d816ffe75715419b0f33452530dc94f48883b39821614592b229, 0x4235db3d0df2e3f1b61ac412a90f543a0ddcd5194f4a315ed889b32cec8f76e9),
(0x1f90b8694bf9ffb57697ee7229b7f20b52b4799735efd7f41e4b910251886858, 0xdc3d7a68abaf70b3c84d533c48ef38f69be7d26a13c4e8345a7bee29c6d3c87a),
(0xea20b4c0931087a344d5642f6c018aea2da5f189a4d259689611028188545ba4, 0xf9adfa96f945e74588d2ab410e32ef5a76b370f3f0362e57129c3998e32cedeb),
(0xb8bb88c121948c013a61fbf9bae86eda28e9bb4c6870b0f17109e5b7c00cf4e1, 0x906851298607d7ac25bea5c61cc4feb44148e07d2fc3fe7e449773d48245019b),
(0x2345a244f2f411f6ef09190481eb90839128f7d867e8b910124d1e44d116c529, 0xa8eaf5300c69b792d6595967004f23b9b0e239bfb69d05ea466f9f5c9bd5affb),
(0x75aee82438bb03a9b9208cc9b725f13a1fee1aca20ed129ee5ecdd59b92c89cc, 0xfb6bc8a00fe0f684ce4cf1532053312fb97aa1e3739fab8d407db39a737ee51b),
(0xca46d3eb0c981eb100764867c99cd7fcc414bdf031b2c9a896829ebdf31e2e36, 0x463633550862a64b97541f7a7fc5cf51ecae168cc6530db53a7f23942e87bb96)]

/-- secp256k1_pre_g_128[5184..5247], /repo/src/precomputed_ecmult.c:13446-13509 -/
def h10_1 : List (Nat × Nat) := [
(0x4fc1d258575c4830bc7a03d76a2594067d633e9ada2c734f45ce4d9f99dbbe7d, 0xcbdc616dfed2bae29312c5bd09e195bbbfdeb2c8d1aee5e8cae8fa0a4bd6baac),
(0x04edae0854365c27f6ad83b38f68c7d3f0a09c6c153791d4df98b5f203f0b9be, 0xcdc8a4858ac66847c732a2c54be86af8d6d637f3e62c7802dd71c7b92eb18223),
(0x624dca6016beeb28c35bef5fe97d320dd725619c3faa7ca5ed79d49172b12469, 0xcc33b49a6fd125cc98d65a81c0713cb602a7e6870276e7fb641e2f7652646c12),
(0x6738d38e760e50b06a18a9ebb5e3676ec38f3487e34461bf02e5d52c5bbd6b4a, 0xc3ce03439b9f624ea92eecc9860ff68063a907d50b57c43e465ead5bbef5e709),
(0xbcb7452710f178a9eb48655e3d373b568f02036c0e9ab8264ab7cee852f7f9c0, 0x4e92839252ee05de587c91d406eaf5e592ef41e15a2b5c2ada9e4512c25bb416),
(0x3375c7ca1b5fb4d11838ffa0c21d7e03de34ca5c92bb4592bb4598c42b490382, 0x8c284e32f016d186875b87d303bf42714b9013c8ea159634b39b73657ea837de),
(0xc347409b336c0677ee95de610f93fad4738268d56f31059d380af07560e496bf, 0x37dfcc4c0c13bbfa5df43c69eda0c68c42de70d6ab64a9db0a4ed22f1cec3fdb),
(0x305ea4adce72ff73976544d7a3deb346452ce997f280c3a6106b7c9e3b9bf5d6, 0xbfc33cd4ca178310c4caba8605b8747777e9e5724278f0f056b86a861f2e13ea),
(0x8333f71470e57841312a33bb4f1463dfd237651dfec4e1a640c0ebe7478c5a9f, 0xd39b03d111657c2e019ad78d3e1208eff85056951bc67098b891c42eb427bcb7),
(0x500af03feba3b6460a0690f074cac255804c8f8ac2aaa1f5f5cee4e4041913e7, 0x5e67542e8a8f0411e9985a7697ba626df0607f669f9c11da826b47b1a52cfa2a),
(0x0e4403850c16bc155023cab33e7a48e05e7e0c57e0fe848f26b146ab237a3abc, 0xdd8ac982b627fc9d7fd83c2651805de3d7369ef92e9706648744badb3db060aa),
(0x83eef59bb0a26fa660c94e45c097bcfc08622c37cec46eb3f9e93aabd0fa6438, 0x8b51311cff685570d9aa7a665b47a3eeb6bc05c0a2709421c73ef814bc703723),
(0x930cdc95f723a7ebd698c1f246692f39e1add95ef8cf84ca171d47002a7d759c, 0x0ff161a231fc89645bb6dbb9f595daf486cf01c1944021ff6ff793fc2613bfbc),
(0x4f7cb0a2c83f352086085b19a6e5ccc1b0beb70035637e6e8a79fd78337c2616, 0xaa32192b082831eda9412f4d6ac6d148f68ef4925b438cca12a73b37b4a8fb74),
(0xc7238fe317590be1d8403ca13eacc6b171cccad7e2e8f659f11357ad70590424, 0x5907918090bdc74daa06abf0940519fdd09f24b8088c15cba632b814fe8910fd),
(0xc6afda17e658242795cd34e3edefb60070c7373702d99f6cb2b8dd3c99874880, 0xd805463d15d185e8b4461293b6e6f6fca0b58a490eefd4d011ef48cdda5a16a4),
(0x4a14de26ab18ebc3414c68561a77d62a0221821f8c216496700bfbb821d95b2d, 0x8037ef39d1f190b1a24078e30e554ad1cf86d5cdf731478db34b6b5cc9174314),
(0xcbcd6696547fc4968c6e7ba54caa4a744376485243f479e5558e2be577bbad00, 0x8e0099e80559db5ddba0bc72021505efd42c1c95876539ab19dedb2e8e561482),
(0x37f168b64b41be8546abd1a47a5ab3dd5d690661e41b16c387025106caa4e2ae, 0x8c617348bce3bbf754a121b2373427945d734e380da08066c4de59dae60b5c89),
(0x3aba708155dbb35edc4a3fd11db54446a7501ea0d67b02868d2e6d7799162697, 0x829502c42dd1105ccb046e0d41cd68b438437394b93f17de5534f014270c4602),
(0x84842bf5fb46c69744eca7207b1be6b4e5f5809eeaeb3e9b1058eca54498cafe, 0xf4210fd5b49f64842efe3089327673d795642ad173b6840c7323b7c416d61fb5),
(0x88383deeee0db44b959edd96feec2bdc73d6ab569333fb3cd4b18b01ed8af5e3, 0x8f0cf3627aba3ceb104009f0baf84ed10f57402efc330f106e0b45d54e0626ed),
(0xad0a97ec2197c5d74e8eb9bf9798a24baa7c3e5fad6ac2631acd51095178d8f9, 0x72b352a7445db83202e33c935619e7d30266f25464a4c4f096051ebb1e37065d),
(0x09b727e4d107418e1f62b49999c1f8ec55ef6e91a9a10ec68905be9733903d85, 0x27d6456f5ea52aeea190dc81647ce31d15ac8c36de65685b4784eaad4a32e41c),
(0xe86bbef38d740a447a2cb0d0a89c2106d85299f8c38fa540a7075efd3a02fe03, 0x8a9f75dbecc532b60ade5be9b855a27e185895cad6a6549cf6c4c1c87e151b04),
(0xb72ac468092092072cb735e7d424a18c5ef097c93a9b96ef01ab7e29d0f379de, 0x8911154427b03712e2236fcb12cbad3598ef794fb8141913aeb1ad8ded9e6467),
(0xf8f5819b203b2bfdab2dc532532771032f9caf34c53c7ec77253b3142e731ff3, 0x433fa8313dab76fcaad5bafb123621266d8d7c099d513ee11b633c6ee3f1e96e),
(0x8e4a8890a15da3a6c14d2df7d09f6157d5dc95f74f9518de8aecbc4dc0ac62f2, 0xc06063ce1d3c2a242494a1cddb3815136200827b78ed080e03cd14f45e545acc),
(0xb1f6dbe2ad730748f906d1d9160996cbf3f2450cfa656856e34f248140767081, 0xee6b2a033f3245da76d01bc6e61afcc694a9e64a4f0256bc62acb5a182e45ae2),
(0x2139dedca8365bceb9c49cfe3834e4d427a46750d6b0f0a34e7672d3d12509b4, 0xb20a9101b63be2a528340f58893e10d9d3c63fc777b5c6e6a9a6719313725870),
(0xda3aa58585c00e4187db0240547ff665376aebeaa24e5aa667d477f3c4d3b914, 0x92405390d255ccfea6bc7dad4fb1676bc741e530cebdaa3e669bfabbd1c4780a),
(0x89c47de684e1eb9fa5828e65dd17a8527226a75c3d11310297f5b8f65b67b210, 0x970bc229d60b00a7c2354a7037ec8569ad615fafac77ddabf5847a09c1fa57ea),
(0x48ea67cedb716a956b6066f1e5e9fc715994a4f6f4e2cedc0bf0c09f4f8c8fd1, 0x513e45eb159f98655ac821d0e18f4e06fa3cb8e09d45c3f18d3c3bfc048ff3da),
(0xc5ae6651ded2c479a3b6c9b244fa35f12eb1eaf3fc78b52942ffab7c4e33a1cf, 0xae6ad807435d4a9ee8bedcb63bc804e7e67e94186494bc8e384b29e231af8cb2),
(0x24e485b67c27af76e18ed11690c9dc9073a0b80be93f538106669e2d3c0175c9, 0xfcb183d8696805be789d83fba197fd24996d3542b2f3eb5ac207950df9c079b9),
(0x3bb47a19b1bdc527a8fe262aecee2d7f1e772627e5cd5c70eb2a8c39f1977628, 0x2d10cdb991fb5042905f822b68846390a922da1a7b7b313c047edaa685217fa3),
(0x07d4233acd50bad871e0587d0e10204f6013a784b65b6540733073645f3078da, 0x0be85d3d0dca838a1f35ca111333e943fb498cdc63258ac874bd6acf2b934b77),
(0xb5d0d791b6685aee2f59950500d01bd3d41d5a1c531ac7fce6c33b97cb0ed264, 0x47fbad30413084aa619d7bd662502cfb9648e64be757d6eb24fd5e2d006b1629),
(0xbd6178e5b1c558ba432a89a0482585ca40ea9922007c94ce23f5b081d606c7f0, 0x9cdc6bf9d32b98cc73bad7b8c08914ddb9a8c937913eeccafff72daefa1cddfd),
(0x13ca834ca5f41671ce7f0978a310420d6a82fc38fcbd997b88a1e79a66fb9375, 0xae32a0df7f269c8a744e409e16ec3d8aeaac151a99bdd7e55028700506f48f6a),
(0x9632280287add1174040f802ed5c71c85f9243981ee784804f16e5f30f0fecb6, 0x2d07de71cfda4b4344baf8387933a3723d5364117e4c0f842b4021563f9b56b4),
(0x961efbd2ae687808bbe275a2cba1769d4ca537a41046c5abff269c1fb9477ad1, 0x9d22a10a294666eb5c816bf3c4dc2c44d7836202e15bed89e3d288228193251d),
(0x4e7162a30892628284ac4df588301fc85d91c8692fb854a3ffd34c477b216ee4, 0x6e6dc88cd91b97020cb38cff2d6a38e1d512fb469d85f8788510ed972704ba27),
(0x6c1f707d51b1d3f4ab261d526d0106e43e0a5b1c76a5986862e9d97cbc6e3e38, 0xd25638435dc8b102c8f4ee13dc345f85289cd4999bcfbe201bf3dc7e7dae1f74),
(0x3ae98e6f49d363fc8416f9654e57beebd37635fa4e78d8eb77caae69f2201798, 0xffd95480fcef06869ee781efcd2693f0e6be2e27f207411c39a184654d2c3cae),
(0xeaf94fc3fae4eed635382e912cf963da2bbbda8c3197e522e0054cf14cdcd5b8, 0xa838a4393d4bc0eea57e62355dacfd977d70afc916e6120910d13fad7c1c22ec),
(0x7eb52e7fbbf5b8022fa6d66d801c36322c195b6a4eae40505295612aa184e2c8, 0xb4591e5cc66521e1b991f63f456306cecb2e75685227788fa2e9a75abd58b384),
(0xd22b8dd16ff246035fda0ebc77129644a846937399b2c7a260d8e985d4f2a215, 0x07a9a092e84737766718e2b39068e163e06618b16d6bc046b33e2d768649611f),
(0x8f6eff05f746f0e09b328ec62089e575ca64175ed950ae4bc67a7ce083afa1b2, 0x3681243fca51a6c57ac92100f38df1fad1093fd6ecd53231bfc01fcd89e38305),
(0xac9ba060ff5203359a4111f5c8c536e8e27a79d733528ef709da7b2136243a07, 0x2ba3cf763dfc0860ff3333bce660ebb9c4e5a988909880d41ceb421989f23f77),
(0xd689683062bec27c815191b34addf36acee1cfe7475d34d4d83a83cc6dce3992, 0x9f038f460529fb8630b19b08db11c6307059357070bc51b4fc1ced24f43fbd00),
(0xe815019af6923eb7cf963f2d476db569bb04cc7d78a0bbf53b422ee1caf43b70, 0x984c16e6593d8642de871694800ca14a0a103a6120b91c174e06567e2d731c95),
(0x3670e86ee9aaf03640136ef73344152dc792c8d5a064c0eba511e14c41d6f7b9, 0xeac7dccae491cbb7cd27a522a7db96cc7d300c357413433b9bcd430e152fcd33),
(0x3d03f8194802149cc6428aad851bd879189c557dcc9ab1ff8e2e4cdff0723308, 0x01f56ada27f2c92327ed2fe588d8736afb68259a1d5b1c147f85669aeaf47615),
(0xbf2ac0119e417837d4815c9f743518694395ae4077429013007aab32980748c2, 0x17a47bb96f7a3e7a31b5a8ab2adc9fe898fd94d29ea7c3b4a5b6c5bc9c367ac9),
(0xc72eea14ef09c0e685c2284095e73e0b6aafa64f9410eb0c97f6ad4f64dea571, 0x9a46c93d256f67e41ccb609f4ce9439000df9c9138a9d2db9b99345613346031),
(0x254634466da168cb2d816bdc3c9e3a437ca3463f8c8a83f362704996c1bb5b96, 0x3d69cc73006aca2acb97e1a3cd57be14243e458b305df59b3e3a67f9fdc17b6e),
(0xb40dbb037062dfd77151013e7cb0a92115096a04c39f7e2e66188aaa368c49d2, 0x34923fac7b1a4570e824c3c52edd775fecf935732198f8018f617db6474fb519),
(0x23fba417ff084b42afddc4a5c070305b553ed7ce01311e5d04c1f7b2772c9aeb, 0xaf4a342df9346ead89b3caa66a3f187f96f2b470c0a2675276e895cfc5ca4adf),
(0x2e7ecc9ed4f21af3a31187990d1ab7e30a30d011edc53e33093dfdc56e80927b, 0xb3959fdc0f6c487636813bfde7e83b4d7ee0f1c3054e0491f3195b4baee2df72),
(0x1c68c34c8aaa0f2c7daa215a961180af3938599b1324aec87a1b3841710db2c3, 0xd8d6817971acb5985cceec45fc5a754ee002d09d04be45e8ab6d2bdcad094b24),
(0xfc0ff082ca6708eb9b9294b6fabef1422cddb5a3611dffc6f06c05e7f1eeddea, 0x6f67fbb20df22611e2f1e796c67d6c3d14b17f982b6e39a27bef257ad6955b70),
(0xfa683ae58dc857481a7ddedc708865b9267e9fe2e485a2431d005e4764130548, 0x4d9759ed76326207891a96493b4d2307b9694fe2c15e23270a79dceddb8277e2),
(0x3cfead7605ef36c3fa9903bf6d43cdd246ee8fb33fa1d13e42fe98186d299009, 0x85a18ee1da24ebc73dd87aa3ca1e75658f868fec50225e2cd5b5480ecc0ccd49)]

/-- secp256k1_pre_g_128[5248..5311], /repo/src/precomputed_ecmult.c:13510-13573 -/
def h10_2 : List (Nat × Nat) := [
(0x487fdda7364dacf62fcec7a3fc2dfd27c38079efd48f022085c627462c8ac658, 0x1479200cb06440a7186a946f83a137d57e5368b67ef8a66a9540a131e4bc9b8f),
(0xf3e413ff81c2ee7274c079f3451f41c40bbe1e51f7c3a1ca513392bc9edd487e, 0x4654455379a33a0b13fe5904504cce4755d0e2e56c4163a514d5b902906caf54),
(0xd93692b053ad5194b70b9be01dd80926e2c93754328b3eb7bc85c45c63e6258d, 0x7221837b3276bd2f9ba0981d883cd68d97d2ce779dfa1073d59b01e5df311ec6),
(0xe85af4c742fd54242964eb26b531fd770550d3b2eb64bf39e97de2030ffe2d28, 0x8368322ce40ffca849ff1a5376cacb1798fbf4c438f5869054dcb642f805b9f1),
(0x9e4e35a2d913a2e3bc931c59298ef6bb3893b086ee40c978430d843649fce4ab, 0xccca94d7d4bad95ec15b19e709555579d47cec609f42112d3d9920356d31f7be),
(0x7d72793cdcd78afe23e8b00041d679836528b1f26978e2624d0224167ac5e741, 0x1189804a2558ff1f63a7ee1fad5f8ab750a412ffa83a9783996e5f26637100fa),
(0x3b8dd2bdca65d7de6a7c55bb47dd5ef15ce6f53396ab335c84c0c9a84e06a7da, 0x2ac78cf3e1baa981b27dfc9fe1b7cd2b01ed4c37f96af6e499bca1f70de62aac),
(0x128aa84b3d920356db64bc95b52d4c8f3054cf5b22c6039d1d21ea60b2274c44, 0x5a74893206a98019824a9d7ecbea2de05ccbd9f5a2cc5dd3ee0b3dcda92e8758),
(0xde8b04b2c761b8764c41c344a3b57c41fb62e6b4ba25ab1908fc2ded2849e151, 0x134ae148d89de734a222b656b878fedc886d5928fc6bfab7bdd0a74c3753f1fb),
(0xf643025f9fc3824a6ce7067723475aa88df24d59682f5a6cb18b1c0d5e297017, 0x24eb7c8be3de50a7cb473bd881db35158f9484f88574af66a15f920d3986a049),
(0xce2e5454543246807035594b1aabcf6d5d8cad20729a787a7e01b61b106fdf19, 0xf3a2e5d6745a16cb3403a768c1de8f73cd26388cc10f296ff00cf9f5209b1555),
(0x0bafd293dd071a2125a857c26acc5afbea79093d3c9771c3cd3b875eb74b3280, 0x2d56802fb8f269504adb2a51a91ad2f0d1ee6501f8c9279c6a27b5248dddbb70),
(0x010e09095dc7ae309f1afbfe1bcad71fc66489ad56256c3ca648f554c000f414, 0x47a5a7cd968dd158e843639940c301793807713b0c09fb0d83c6c851c6b7029e),
(0x73b8149b4e7bf0500b6cd9f493c85bf7610623292dec76a32d7054b0c794da63, 0x44cb915fb6813c71dff3830bebb6888b76312778897903f1d9988c373c362bbb),
(0x59a5dcce9773617e73c529da6015ca40bf923956339a366b84a69e23d0a60fd4, 0x4c62abdbc4453ffa2b806a6bb823fbc159f57f232234c8daa471192d3081ee09),
(0x1ad2aae4f571c6ff01abfd4535b3d0851aeabdbdb3a340f67bef0f78f7afa954, 0x1c394b1c9453975885d72498b36a3be5056b4f808ef52977b0157885649549b5),
(0x2403f66ca6a7d60a254b51e932cfb700f37ad73d193f25df6024bd51d0f337dc, 0x9ad75d4424517aff007df86c9bf4f315cb40199d4a2a5d5c74044c4a9c79d69f),
(0xf3139f4b50dba59687080a7eb19bcc3402b58df926576bc70dfdc8e74914c524, 0xfbaad228ab34e8d4451cf6b3a1dbe225bd46bfc48a4bcd9410c150fc5636c687),
(0xec415f8a81b1f559714dd7902441eb9bc5c7bcbd0e87190cc109ca04a3e75149, 0x9b90bd46d27e0200369fe9953b50752fd00b9472fd31383af01bb88fb223bc5b),
(0x5e336f17264a53e7d0899bf86f676440f83ea0c15d53fae4f19a71f6998a3ca2, 0x2a86fd9a8358daac828d42e79c6c0fa5bf977cfe56899db327ea32fccdf09f3d),
(0x98828ad8a6ee9ca137f9ec2ff0cac84f5e664e09684557733f8fbab3ec38570d, 0xae7ba3cbe617e9e106e67f34f69af8633e69c9ca1f46b18288126f169ec0e548),
(0xd6a7c2b7169348d501d98f0c274647326f67ad5a4809acb16b783fae36808436, 0x698cc098ebe430c54dc74fe5dc300f647ac0a0024109e002d2f43ffe89fb3d9e),
(0x9bf4a4ea9fc4b7315391b6531d3ad3a0f0fbaf59b99f76aa7807c442f8e63bef, 0xe69fbade598fccf46f1f0931f37f3c55900dcc5064e54ae4191796fda4791068),
(0x38a09628aa4500763826f3847e63121cd6e9e64500f6ee0f8cffb106508021d0, 0x5460c8df56fb7d67992928c7fd969f95d29de37c14c2c9a22d60d6616cb7c383),
(0xdcf8afd8ee73bc87c17c97c6807fd3e6a9c57a1bcca058a1ad24f2c26e9728b6, 0xefee96123e78cfcf1dc3132afa4ef49212369710fa2e8e993cc70b486ba78709),
(0x9c26ca1bf52eb7b30a0d40dccf54659138945c4341e0c61140d0662d1033420f, 0x4bfbeeaa0ece9f2ee11cc67224749c3de12be6d2d3d21d9000ed742d031541ec),
(0x2209194a006a3b7601ddb2b103bca12f036972484bec29e3102d77349832ae6d, 0x7dde1b85cd00a08d38035f68fdef0576c458476a93eddfc74bd4927acbd64543),
(0x6ffff27c0ce5efa3a8f8af72edcfc7369874abf85d15e1f4cc71a1869a7a29f0, 0x27a0e163bcdea2971abe52a8a92fe19138b839f467772c8381504328fad94a2e),
(0x34e91b7ee2c5f4078a9d1ec47e2b2c021b8480b48c3b6e4719cacc36b4250382, 0x8d60947a42d88728e0d67d2ee9a0559b55cf388792c733a73ed50b253706cb82),
(0x3b2de9799106333a98504128e2135e5d7deae86c1c921c58529aff1412fd62ff, 0x4ba409858c5b594df4bf5e81bd7eccc63a7bbbaffb32926e9a47503ef031d86a),
(0xfbd44acd9e593ac212fd1f64c4e18d31c3b3fffcae1c88c46aebadddac608b2e, 0x9f4feb5f2ab68e29ca64f458d162dabc7a05c5522e38c4cb74529e3e41d805d6),
(0xd21c3321bb6ba2aadc0cd52b0be68716864ce1f844107374c0481c0d91729b39, 0x02b51f187b95725ef74deb008e9d96f4f1a9bbb5c9aa28fb0275f700bd964566),
(0x00ea2d29f85855db788087499ed79c2c614406c3adf646638756b60f16166578, 0x33971e7939faeedf15b1460737fa71127d6f49aafc423f63783e808d1fd10369),
(0x2a1a6709301ba6efc5ad4958e29fa73acaea18e9e01214a9652919778bec874a, 0x56c971a8d29d66419c05fcc99b0c0156a1ebd007bcab2cecb9e920fc85f796b9),
(0xaa870dd56434af8a36d89551a7109cacc1d0c5d9f5e4363017bba88c579cfb6e, 0xd1fab1eacb5652f3cd4d5836082aa3cb3b1b6854c0ec11574148602873625dd5),
(0xe979a3bc5165f53a60042a1b11e8062ae74f35f2d70aab2db250a4a6f4507507, 0x4de869280b9dfb2d8509a1c48efdfbd7a5432933e3f12789cd51ed9bb967ff1e),
(0x620979cdf37b1cc5b1fe3e01f761b8a2ffc29bfe8afb7cae07ded5cd37f97829, 0xcc9716166ad438244c6be4897cac0b95afe5ed6b11be673fd67f0d896d58f7d8),
(0x90a5df7d986198fa70152c7fe2abc14e02c80d5e6b75b42baa042e03f3aa00b3, 0x0077e0ad2f3e1eed472a543c3852925b327e3eb7aae590302d7e12a7862201d5),
(0x17802140e10d8be8ef210b69b7fa1afc16a85d9fea1150a6c6e5e234cf638446, 0xaf4982e7fdcb7a8db6478b54a5bd7cd7c48d1dbd02a3d00307e87b6e13c9f5f0),
(0x1f2b8d3cfe515cd253f66b0d59fc51b14cf75ac5d9c7b4e84c75d92b0f0380b8, 0x06902b3119f38b045b979f94cc140481d4e6f7adb3efe12c4de1bfcbc71be72a),
(0xaee51eec9e5dedb21619d1145594ea7b27e21a4b37acccccd5fe522d2e46d29e, 0x0d40ef1886725504fca42c2cb8b80dc2c1028b711bf3fb189fdd579df7f0ff8a),
(0x40fe6d08b714ee12a4d643b421b331c4fbac165bd7cd88fcce35a873875bed7f, 0xc32f1cd63083a9766b7dd8ee7133831e6796709ac67953d34ec5d8df922d2743),
(0x5425c5558a6f9068946f7075db347e6fcb6c723fc5ff829f01634fb213b3c820, 0x0c218ebadb4e3ad6e41a28ba129a0c1f8626ae2a16839b77ba12257aa6aa2318),
(0x83663c0ef024207e16ba74c5ca534d37733a7dfbb2d531bb21a28243d0572a00, 0x2699a48bdc9af87ebf18c9a0929359ccd7f2f137b84fc0702bc3497f69c83d45),
(0xbf931d61e72f217c3b820b63282f5d4a0c929134efa06fff88480f86f6247535, 0x82553f48bc40dc42cb8bb098ecb84af65cb3956aaae7bd0dcfa9e181de93c21a),
(0x1c6e08763c2242ab17e2885a0537bef4e89207829c573d0064fb83e4910312c1, 0xb7c14efbbea753a75d8a597c7f1a716f8ae4298f379aa64ed070ab2c28e66185),
(0x9a2cf62f9eb5810c31b276141592f20101eb158a3d12361099af0b777d42c0be, 0x159ac59d728d1c49843a0207e47d1cec7b9b773a9ddaad523ff27d78d2767d7f),
(0x3596950b393a56e3443c3b93b4f8288a7faa8d74d26cab37dd7a5b4f6a9e183f, 0xf99bbbdfc566b3e4e65dd63a15c727a4403cbe85202e45f4ea5d3462173babb7),
(0x6f556cb80f5da81224bbe6286dc4e379ec12b12421cd95d86bb1d580a13b5c37, 0xeeee31331dc89e5748fdf10a1fc0693f1c09aeceaa27dcbe919d60f74748d656),
(0xb952070ffe60bf94cb14bf68b37e3e54bd9b8063ec8cd4d520408756bd318bff, 0x57996eaed38f066ecb3f8113aab5e4f7f322859e1fc075cd69ad1ce43fc48ff9),
(0xdbecc1668d94b2b48d37c13326fffedc3e690b7687563677023352ac1eddc2a5, 0xf124cd3ce42f56d8a7588145e53931e0ce8b79caba5195f73dd861c99027823f),
(0x12dde570aae95b1c7cbc2da10ed2d936bbfa5155f61979b3e67057d15fe5e1db, 0x328711a9c30e4455e2716e603bedf4d98fa25d1be892ac72b5be17c2b25ca311),
(0x64bb18aafbfb7def3493c920d2faf9c557856710766b0bea275db46ff8271282, 0x717c28ede928484449cd0db7180cc5fa20ba79d941c979bcc0a8f2743e2e2901),
(0xa798f4c9bb3ef48fd2ba3df52b040611d0d5532b9134aa28e21b5585d2379ee7, 0x91f903cca4628477b208bdba59ecd246bc50be7034620a44b55e0e9c214e563e),
(0x7bfc590258f8000082946c5fa1a352aa808fcc594bf2ed7fbc6dad3d8bab00ed, 0x17b5dde03bf6a814efbed1803e5f195059499cc713e727d2405e07482f912cd6),
(0x23bda819978c9a09864a1c53e0fed0d6ddc18777b614780a1c6fe08ec35a820f, 0xaab57ee27d226f886e55b8a7c4d7a2457badf96c9312906a3efe2cfd3292af5a),
(0x8f64915254696b2c1804467be1619ba9d37cd87488db94181259d69e135e1455, 0xb05b39ff241ac0c77e2fad78da585b09c98815e10b368040d493bbf13ab54ac1),
(0x177ea3c9e592ca96e9e0ef4c87cb00a1cd51ccb51e1d5252963cfd0877f30331, 0x57185496db5e597124e55b141042ef3099f206c467415318ccbefdb3b18cacff),
(0x160429969ab25db9e4ee42317497a607360bb1fc96e74d66cd87cab444af2f36, 0x1dfa3d9cc3acaa951f7ad037bea4c20fc311a8d4c2ce9cb0bd30078eb0ff64ce),
(0x10210453fae1b545de76c4a14b6ea5b6172ea1571fa60696257532312630e29b, 0xec8aa7595708f29272e2ebabeed6bdaf955b27a1469758b844c2668c42acf576),
(0x659574c039345165e35deee5ab4c3b095b873ba1fa14283d6bced3f1d562abc1, 0x1a8b17c1bbd83037b20fc2ed495b890e526461c78f0b8d61e94a35f1bac9520a),
(0xa8a00f02174b4d3b9ca825ba88cb1ec44c1883435478a00f38025a5d1e2cfe58, 0xfdac00d955b6872a62a36dd1cf666423b4dd6b4f4558cca6d931a1b11e42561f),
(0x3ac8f67eb4c2c3a82cd90fcef612ec7e7daa10726e4f8da357d9ab9656e30414, 0x15f71b5d17dece22a696fbf02e360226bfaf685b6575fb9968fd52fe7a21f9d1),
(0x87c565939fc7bce5650e57d937e77642a1ef510bdadd117d2732d316a4f2ce19, 0x59908fd3e2b646ea210606edc790851b4077142cec7733f8613dce613431570b)]

/-- secp256k1_pre_g_128[5312..5375], /repo/src/precomputed_ecmult.c:13574-13637 -/
def h10_3 : List (Nat × Nat) := [
(0x6531e4a7f9cbc2f3f0448bb7f82505426cf5c7b9d4a1ec6b80098799d5e43101, 0x622a2201f3c0f7666e81be2f22f1ea60f4b458076800fae8c353c2830b6ec3d7),
(0xe2a5b419cf421b15859aac6c9beaefe629293f393beada53e1ae567d9bb7cb34, 0x3c20b681578aef9b138f852e90f495266d30f3b1006ea2d323dee9431af4a5af),
(0xd4e9df6135cf81d221003bc6e167b6c79e912c1c2dcac775f7d9d07d6ffc7334, 0xc8f54f41513d7bde3055c7f48436c812898770da754ed9acd6eaddfca80f6c21),
(0xb83ec73410a1989b988e2bfba46a421e0dc3ce47d549d8388970102f98a6943e, 0x4e0274efea2966c50200dbcad8090f7898bc66ea44164fdb31507ad1e7e5db5b),
(0xec57668e12f0590be99a75c782c02ef988354f47522c114dbbdb95910238d3eb, 0x2b3c508e81a3f696389a5ec5974a1baca572c04269ad2709250012150c58ad7e),
(0x5acca76e7578cb868d5ba7f0aadfcf405ca4cc52d778712b785764a12afa01bc, 0x7b0df4a45e048fae65a0683bea0185fff867a5780179c1535fa9356154138359),
(0xbd563b916419f92c043a7c2d7042fa71fd88e5e841115b5e36a673cc93de4e07, 0x4ec5b773b35a5579b7c729fe1cde3b32ca34f97e83b989b6fe7565973cbc840a),
(0xa070b055839d93be2b4ca25ca4a6b1335ef7d09a268bce7afb1406c642e71025, 0xd3fe85771241be24ed209e8eb5b28ec6e3a0bf5227f360363a7325c75eeb6acb),
(0x9c50323f0c758663346c586384d5aef1123b4338eae00ec686aef2ede19b2f06, 0x1dd9442c0cf588e66a3cebd70bc68f2f6f270d7bbf01f088a49a5ce6da430229),
(0x90fe8f78166e3f6c02d19bd0685fa2d01f6bf06c2ea220bacedb0f22ac9c558f, 0x826d63c160fe38759c5887c9cabe8f93905fa1a5e87a82720670cfaaffeeba13),
(0xd2f44fa9b704491e69488c44cc8ccd296addc6302fc669001703afd9a2a5d3b9, 0x2de1d619247636ddce1de2d975f14515ec5807a80c7c0cc45c7d03dcfc19352b),
(0x17f1ce719e3dfefa106e95e662786729e8ec2bf625421edeca71ca145782b23a, 0x62b51d2774f514cb5452cd29e3907a7bb39a9b9e400d78bbf6cca78fcfc1aec5),
(0x5b1dcad45974f0eee99d7c2383e4858524428c94daa956afcd692c4d5a63213f, 0x6958ca48f13e31aac52e531f886da2465ba713d4748cf6e0de16e0a0366c33b4),
(0xad284e67a0682585f18be40fe966b6058cc787bec265606d12f202e9031f3067, 0xc86ce860ac3c395528321cb2508e4da5abb4dcfd2844b95bede54ce5b17e45b9),
(0x9ba71712dee6f0a27352cfad59f6c0fff133b1b137ecf884a537b672a4275c8c, 0xb910f036f906a41921fd37d55e0273a5332edf6843dd8afa43070542b0849b40),
(0xcfc757d5171c9d6aed8b9123a2b4a405d8e869fe0e80aebd75255454ee6319a9, 0x43dc370ac2eb8fb44f78940eb41d614cccf2cd7cc4f324a792ba37bc7e48144e),
(0xb8288ec302e4a56927df3e136e81498abc9a52af80d74bd6c85eead885e0c49d, 0xa0d53c40d2234ac2df69605b1422bd1e4a1d77dbfb0d726913de63bca2f96078),
(0x3808cddc497c9065cec574e103b82a10fe2323f6065a99df1e7242213eeb9a79, 0xeb046225eb6aeac95659f1fe75dd910d2932cab69b4b810ad83e7681e0c32907),
(0xa1620baecc99c3117b3889b47bca5d994ecfd67aad5a7461646e55a519e46398, 0x5cc4b5d2edc5f7a854cc30541c7ec5710e06c59a52bb5cf55882ec181b07c0fb),
(0xf1d942b2bff74aa71f9cb411091ee85de69558024a4d46eb53ac02d132fefa93, 0x19a564a28352bc48a8dcd93250274bd6496cf4886e2ba3903cf91631453f57ad),
(0x1a4e38360a34db30c47ed6d59ba6fb830fcb7a5aa0002ad71b93b154a5fd566a, 0x745e195fd94900b0aee3c5f87c6fc62efdddc18b984900c420c77ba54141cff5),
(0xaf37075f866d7aa59371a08c1e7aaa5cd23ee51f54428fb684c09b270093b432, 0xb32e8869fbe53ef54250e803facc93ff0a100a84becaec5f872d0548da4ae9ad),
(0x88e39f4e83a0d6ada1e01ac89021a7eafdd1f9de740bc10a4d572c46fcee9330, 0xa14f6881bfaf691a9624932237522174e8a1792052da7bec0a6c77d45fb8a357),
(0x8e406574a46e56a4dd4cf7809a7ecfad5a1f9225cfc2fbdc6b7bfc84a5ce14fd, 0xbdc6108ed5616bc23ed52c5a1314642ea927270720f00be962e489453550f167),
(0xaa31e1fc118e00c98b8f561c479c64278676356c640304a83b687a348ad4a091, 0x31c95ccc2520c0db7c7440ac7e640be07a8ba4d9c0020b1bf31418fc98d9eb17),
(0xef278702becf4f15ad43fb6dd0114077d9f8bdc3ff4c78d40d0a2a1508fe160b, 0x377dcf3a774d641658bf108a87201b9ff28c70fd449a77f3966ff441d89246e1),
(0xd1903199b9762761fd02c4da99fcc503ac15332f4be01b7fa044c5c3f848ebc7, 0x662ca3d59ff2c5fea75ad64af7044a9460abbc250defd0a3aa6b0e6f2c7f4f3d),
(0x682ffe366838fa12827ae0557e38c12abb57122747643f269cb9f1bc922b07ab, 0x4531b0212e8fad866f6f67fbd8eac7521a360968f0f9792ca4568a55855924e5),
(0x418fa3e0b32be1f3f06b96d9728aeac33294ea8f16f3513976b3080181d8e833, 0xdc1608cb68bb0480859c99836baf95589451022eb9966e0f498245e02183ef80),
(0xe3f7dd7cf5898b7b174cd8095c7c08904188bce4bd6487abe974d979f7faec2d, 0x5ed5ca2677d3bce015a6cb519922a55e9ac1adc061bb0774503e79e8204441ea),
(0x810ecbe4f43814f40e658ce9234d71b3946556d72ba9c3f3006fa04b4dc25cf9, 0x5fc5752081397434e395a752560a8a76252e6eeab9ec067a16befea41f1bf1ca),
(0x6dc50f0d7e9518abfa16bcdbf43ecb2f745d5ee47269225e368118196542b7ff, 0xdfd5e41602d596f5b44602c220a87cfb77473aca6dde260f856b3295527bb87c),
(0xd39c98585ba2a859a6fac25d0602c8e1fb205a887aaf628f5d1a210cbc648fb5, 0x6e92fc099df932e51bd0c6bd05b6567f61a1e8c393d69add111e9320661ad724),
(0xd7fd858059c1a86f1b81c05bee63bda68ca93c4e5ec99e9188d9c7f440dae0d6, 0xceb56f19cb3e5b3964a4c58b5cbeddcbc736f0a18a2f8f3ff0758f24525a8fda),
(0x2e269d93319a79d7513e6f73918638df0c4b1b7c4c19ec83b254d780dc45fa87, 0x650b68464e8537af583cfc48caaff61df31dc67d5a48e0f85857d7c09bea1d70),
(0x19f396b77147937ebef300960044b29202a6e3c605b5c92922b7311807120224, 0x4751cc234d49e926651a9a29c2a8a55af7e4b25d9cb4bd2e83530bdf494b131d),
(0x88f843b4e3689ba0264d6d4b4d310afd85de2ea16fbe7275d33112c7538a7c02, 0x5dba802430d31ef1412f23103ccc5951066e903a55bb2a358be1e71527fe45eb),
(0xb1301f5e1474083b3828ba5a837efc4421990da5275f6b1ebf773b525ef14a1b, 0xf9fa0af5b508ca7f2345d06c5bf1e5e4907f2b193681837a802259e707208864),
(0x63bb3295b57ac21c4b96ae4992b8f3c57c23743d044ba348195c5f580d5360bb, 0x0f5e6a9896683293af6b9dedf9f163ba15b44017120c61bcc9e517580f3ac793),
(0xdac9f7227d0c012ee3e1ce88a99cddeb09a2397914c1cf1b915dd41b8ce27687, 0x85bd90b707f2917ccf1ebd473bfe04df386d37de69893cc69e79ae892255a12b),
(0xef05aacca808275933719aa0e0958f6e4be6a6c23458f243f84fb2df9aa422f0, 0xd6006b80bf611afd3f1ed523988b3e8fd44be73d565ef30d911e4226ae546f23),
(0xdedf3d9c807065ad8c1e3714f682ff864f6ae08d6bc1577353f27677ff86783e, 0x07bf6f3f1f3e5ca66902639ca0b071d950dc233152f1b47b05c689239a1cccc6),
(0x3db2b461d18b367fcbb4aae007a73ce96c1b4cbe140099f4d38397647414b5da, 0x515ead0ba8ba7b259f04484a4c55b5325686b88277562b9921827706a036a142),
(0x05516a033da8cc3e281700105e8d57f3daf5bb84596c040a3d2ae05b41cecd4f, 0x6bf44084f0ad14a1f129a267e13b07176d2fd2742d4be75a02192e547ceeebf1),
(0x7bd86d5e6fa18e26cb0b6e2dfaf2a4d6a784e8312e7168bb8e660e3d92514c3c, 0x9b634094dcf4ade0eb49eabba26334f17770bb94b776de4664d847fbf1574afc),
(0xa24a8b40d63c242c3dcd2513fbee3c04cc15117eaae40dafb39c3373e6a83bfe, 0x49163714afef59b3b503eb73ee091349e599c563bac4aa37013d7a6d6f5271a3),
(0xacbbcaec8b01374b454208a519051ebde5128307785f7b25706642f7775a932b, 0x102283d81bd1e9e7e5641b8da701f51c86047d7651becfba89478d8aa6226572),
(0x0efd56548f37a09419f9fc116d818523c4d76725860d49e4a1cd8434a0cfda99, 0xd521204bda2b9db5dfa47c9c6ae4616a52b3caad5440e4f7f1fc41ba766bc180),
(0x15600bf30ffca622a163244f47789725b4c112b6e3d7652ffe829a6e386041c3, 0xb1a1ddb3e2b0e1708cc9e6db13c7b11193673cc8397d9b595b4e8deaa39cc5f7),
(0x8d14cebc62f7cd8dfc60c2ded144c76f55d9d6c1be5380ca1e1ecefc5a85cc53, 0x244bdd675030a8ec0af876f599a34f98ef7388cfe6705734540f57f415641220),
(0xe3cb732829c6d09f6ee940f605f30c797dbbc26bb8b8c860f6e07088a485ebaa, 0xe50a5c446768827dddd57e1868064e6151c8951ee4cd920bb664ca0667096db0),
(0x9a18212d45364ebd3ecf4d763efcc66aebd17b7af8bb7f658679664e16888e47, 0x85297209abebf492ebeca275bdf3bd2f987d1e296bcee2999d6e59e92b890143),
(0x43366191859bb3bd05b44f1ad9076ec95439c082c99f70d7043631178020521b, 0x9dd6d89016666a3e6bd8c0dc76cc9792fe5d76b8c49cf9e375e031c8bfae2556),
(0x1b77e51c0b11e51429955ae237659c5ba8050ddb685e5b74fbe3850633bf9358, 0xf198ea651ed4a743a14fb905fd0bfefd843bb00d675781de5fb1552fc7f382cd),
(0x7cc6fcc5558cc6b7156a62d20e823631e0b95e8c57fb79d4b4aa3ff49cb718cb, 0x526becaac0c84e610b3fc85f60d028d2eb90567e319bd6f412b1a36b9c3d30ac),
(0x18c1e51e10a7dc5f7783d5116f2c0457664ca2eb6541ff29591ee59bf9f958cf, 0x7f72840eccf4d03f29ce01a6725f6b97d701a935bce8a2b3c1e44904cf98a300),
(0x3b9335fbb191bc9d17efec98779603072648edb72c42752134df37b6f1620c44, 0xca5261258239c80a01ae893b268d28c2b02d56f2d03a8a7baca25def34d6d694),
(0xf39660c7ba9bf800381b8ddb0d783dc6acf8c18395f9144f688db8c99d7874f4, 0xc50376252abd41f97574a60752be4c31e5ef28745e9d80a8da2ea6764bce5cc1),
(0xd1d2872eee06a4b5d3b735b19db1d88ecbbf9ba689c1e411980b2cdee70c86d6, 0xdc5cd630859fb9da70f250235b7bf2ec0938743aa9f04fd069d1d746e3ebbfef),
(0xaa4f71b4720f64708b6261a1ee97bc7cee85b274caf71a6a1f7f000ab06a1948, 0x958fa65facdc42f6c1e98f7df67ccc39014dc5e8d20bb87232d7c898e451c017),
(0x8590482463e6963342cd1e891502c309d74e1722fad8e766d7e8f56649bb732e, 0x585601b55bfef406ec5f71bb6bae29c3c5e77247befbb5495ced52a6da64a2ff),
(0xdc899ab489a12ac44152ef6348553ed829855449c204327bbcce641875df4d99, 0x6791a96565fb749c44f133d40b3c9c8d77488831c8a99ba907b66c9b43deddb2),
(0x2fd60f253e0b4f1f2589a096f9a0ea3a405906c2690fce35ac7df791f106020d, 0x872d52b01cbfc3b0ff6999505be33b51064a7054bb00e22a9a87d692dccbe782),
(0xa74830c17f816549cd617b94c0360b8c9206b3826782d351650785a7fb71212c, 0xfa928b9775b28be74e340caceabf866cfe7e72997c2766802d211b1b389823b6)]

/-- secp256k1_pre_g_128[5376..5439], /repo/src/precomputed_ecmult.c:13638-13701 -/
def h10_4 : List (Nat × Nat) := [
(0xfd450d48c59fc4dbe3366b430caf00c20bd10045842311ab20f8e24c6a9a10b7, 0x512d1998db747e3934451fb79aaed7af48801051dc8ef7564580db9f0bad910d),
(0xc08169239f2bbbc734d52def79f9f4bdcbd8c435d90561ba0fb23f120f1fcb93, 0xfa00c81a8c5cc2d35f78f0d2475851f173f70cbd0cf2c9508ebad1eeb35a0852),
(0x247c40759a0e7098025a5d824fad3419551030520bcdc7abfe4e559c84a04a66, 0x08da3cae878260ba1b95a5db0900f20c125971874191cf21939ab6c7fe378067),
(0xfbe3b30f16ad660832f9ab1502f440762f7a09a0b07b12b64375db1537fa4e9c, 0x98cf3e682a914c3aee54971a793a93098c63aab3e2db53893f05450d61b9080f),
(0x79f71ab6fce86badbe02055c520e6e0d88e98defd37f2d2e488bf4553ec954c1, 0xb5de6a0bc17453413023a65045262a31e92640898a655b0a4b3042d3a9114330),
(0xd190f258e2e3bb8e6812da59606f2f4a2e3fd1ec34e2c80a9d280f5ee1e9c4cd, 0x98997b49afec7d7a26a26f509d4948c9b5ebf9b43eef618303a2b7a86183c267),
(0x24f355cac0e00545f47e199c3818e76f534eca88776ff6e25424468624f0b636, 0x37710da65c3afbb4308d59067ad044c14df30f03427ac83c23b829f537d25b46),
(0xbd221461ae73e6396b23d269ed6907ba330544d080342de3a769d3cc668cf536, 0xa5f255133967fa67b22dbe31917d9d1bae11a1d9dc7ab73126e8f0e2fbc8deda),
(0xcf0371e722194be7ac5d19c11b447978b38f8a1bdc1dc3e2471d4a8f75d0f6cc, 0x4bb0442694fe9d55cc49dd4ee168b604564b95f599566f3b9fe2fbdf16084f1e),
(0xce21a5e0287752fdae9e04ef363540edf6736c34266a2d77b5d0bb5a868fc32a, 0xfc30fc93bb5a27318b81b9424fe330d1878e710eb9a44fa7bf4cbfa710c7d0dd),
(0x7c95d800da4720a4102de774d585f2302b849e571f42982fa785bd15334b4b12, 0x244deb56fa5b43672c39693af09083f92b153a9d4829ab3fff604feda266b30b),
(0x40bce9b4f90489f4d392fb9303f98f71e9281976164b25b1982cfcfe338d93e2, 0x5a9ebed725bf11e87bbec766c52309d5e2036454447b8ee66dc79dac07a2a9b4),
(0xf15a2ed82c00ed9b9e7a93382d08c46b33ba7bb5dc15f5df4cc29fdb086f11c4, 0xd02ce92ce556287a3acd4115a190767d2979dd7c7a32dfdecb6d806f6e7d0205),
(0x4230d263d5a4a915cfd863c0e38514b04929d352d8a90c00c0ab9ee056215932, 0x4b134eb051699656dedc77043d5586c162134b00e21ab1b4517bdc545f05fd69),
(0x6cd6bfa963327c26fd2c7aa4fc1599561a90096cdc88f414d5cc9c64df6a9e84, 0x06741fda1f774c5220b04db19ba7402d9b77eaf5b8e9e2bda000d2df2022565c),
(0x118face3ab188a36581cd1ce1d434fdbf1d06f501e9a64bebfed2ea4ba3f477b, 0xa263037ec8d5a9ebbe1a8b97bbfa5624ce00e85244828af98cfc38ee1da9052d),
(0x6be81e795fd1229afb24a395fccfbb6aae4fda1128f93faaf74bfb76c39794c7, 0xedd0f9aebbbaaf0e0bd1c01faf1287305d5fc5c7732885eb327eb21f62683869),
(0xb9a0023b6fcbb06a48f97684509b8b9b937f990e4c3f1a6127a8a18ee4c96c3c, 0xe1b25ce13e8bda89ea631d714c07adfdc31fc6b7304b5e7f1cc7221a6597df11),
(0x4e384b06ee4007e8e70f22a61af73d894528722bcf58bfa116eaa29f0e1f2334, 0x2fa6ecd48faeedb6240db0d114c7eb3e63540e31788f5f5598c52fd20538ef0d),
(0x14c8267b6462dbfb6ad45cff58d9b22e9fb0de4e3d0269999357acc4d254ea52, 0x86da149de14de86a20becddde33e99cd158a50aa2da085c3cf675eac224b292d),
(0x42d0c7fc21129bdc9731898573b6d111568005b5cbabcf55c18283404f5de376, 0x8f83e95792880a3f0dac6738e65ea4631399daa4defbd1e941a5586d0a42f652),
(0xbfb0334902fc28eb82bdf9b4417f02eef93588a5b138c5207725049923e9f135, 0xc65872e69438a5e7a20c349207a3de7d85c690c8b20af801915585d198184882),
(0x1a111410d04e127803cded32b36020077dedfa326493a780999c68a1dee18047, 0x874723b4c6b63cbdd957098fd01247793e711a56fcb8499aa046f5d636d5be75),
(0xa47aa9953a999aed9c1d1f77da8b736e6d045d3f09b32ecfa6bd4225fa66cf6e, 0xc4ae15664da8e033f0e3fbbe472e16e070a4b40d00f210f73d0a6fe93dea782d),
(0x52ccf2b45cd2555d5a0a576592b5ca7f5ffa329b6bb129798f2c10d4bdf34119, 0x92abe502d23e9f61f420e4a544e428642462dd0d7d7f386fff7cf2b0b3a5043f),
(0x5d2af6df77107953e6221a4accecadf0a2a8d6765e720d2e38c386a30e6b48e4, 0x5a44be6980ca80825d435aec34db8be46dbd05e99b8fa17645888bd42260cfaf),
(0xe0f9b457e184de7e7484ad3adff4adbc4dfe508c14341dd9d2c4f584807e3fba, 0x0d0712e13bc4ad8c782616813d00a237363837317de79d0b1f52264b6ea70526),
(0x6797c2e1d1c2643ea831372aabf36ab5fcf888049a01f052a7930792acd2a7a4, 0xab00558769f8d361002217de8d4bf20500925bde7817e97fd155fa948f084167),
(0xf302e07a8953b3c1f0b3796b55bdf13384809aa73dfe4fdea0d56ae7a04c2f26, 0x339d529aa6c0c8cff46682b9c36390d828b2861d6f4906dda4659028c74d780a),
(0x0aa4c04fb82619659254f9b32d9e25ccec651f79b710cc3dbdf4eb3cdfc207d8, 0x520cbe2ac8c0382a23d2cea606a18f28bb87e7736bf60dc1cca64a589fda48db),
(0xcc4bbc6e7f4b02b5ebe6d484063522574651fed1a079767bfa53d1e0dc38b5b9, 0x4be5e0dec97683d4939077d10edffcf6dee4a88ff7d42894c3d5030270c9554d),
(0x6a4bada6cf1e123ce80fcf832d6934f5486901f16d3ad0afcc87a4cf205e6e79, 0xb79145f824d693b3832c6676e35a73b8d8acddf1681720f60c8d5ac7f81752fb),
(0xd7ec4d611d440625367b2c5fa6904b8dcf6f0d81039cc3bc16299e1b50c9024c, 0x18c402c63e8186477f15bdb6d514373c89d1f7ffbdab83f35267eb0cdaa81d89),
(0x4e21e4fa4b570b4077ff6876a1d7e4ed1db77d0f56d35445178ff5085b197169, 0xdab19080ef84f0c84919d86936de1aa3ca85a1c0aabe902fb46b31b03b350580),
(0x32aa04b7537520597b4ef60362aa208aeffa6891240a587ce1cae58a28a6075f, 0xca649475a58a3ebdc3802c13f006335a7d203ddc88bbd1faf0787839b9452f21),
(0x306bcc2b94214994e86c7fed4f510ad79eb1af11b824d897a1cc75649eaafe0a, 0x820c2986abf17343350897735b4da35c56265a254a7683465dc084aaecae6dcf),
(0x37d2371601044ed4b395b0445d70eaaf864530a7fd8490c1fe2d1ea561f4bc19, 0x0a6a9da770558993ce38d5d4c69dd25d0134f37fc28dddef02e7edc0c1343b83),
(0x1f324230886ef5940aecbe392d7a4434fbb9fefafe22573e09302d3cdc81490f, 0x39e53099f25e977eda860f776d09338bc0e7544642557c8cb05761a7c18537fa),
(0x256d4808d6dd018d392a67162af909f051bfeea09ce22a766266d1e7061df967, 0xd5643938c7d9163b38fc8072609bcbf3e063d78e10cb8cee32c00abc6341df09),
(0x58a91493ff7aa6001f457506624ce8eeb1c142cad49f67f1be099c583a7934f4, 0xbde8d64a79d5722d6a96d240897a7f488e20f19f259fc6a1e4483448e0290122),
(0xb4a80e5d0eec93918f146b4be0d91630606a5c791c4b7b87d4363de6e2691f2e, 0xa6ff5b82ca6fa424efc00b207ea90991fcd5af15d23140ab96da6cc8bd532297),
(0x41bca570b4981232f21ba7654f23d5ac27f3bab69f1107fae3dc51026f8dafad, 0x5a14cd599b0bb88410ed147508445c493af3b7c92cc6435c5560c4d7832709db),
(0xbcff28e00bb6c242a7805142122848ec069519400bb4a2e35ae05137d73e8264, 0x436619339ff9f2e80278ef17329682beaa801596e4a12b0e615fbe7c4b24e1aa),
(0x8aaa2f44fbf66c2b00809180bdbb4e2be25ff178232fcaa50a2c25638c1ea21c, 0x69dc0de1686bffad1ceee71195831b90c57900a90baf57ac2f34a9176d33e21f),
(0x0930a3dff84583b0ced82f8196c39c16b9318f2b44efde122be6c10c70b33dc9, 0xae8029362b10029aa81cfc471251ffc306b586deda9c17544a96d3ec031cd6d1),
(0x907cf1c192b984618021a33d1c9d22e322dc83abd5768a39c04444bfd4e76df2, 0x527eb6290ca0a2e27da96361ee727a3497edb8c8686948716a7dcca513b6f901),
(0xf9d32e8476c666f629e86e0d3804eee8abe1ab26ae2eb396b584e4ebe9583b88, 0xd92f265e9e6c5f4bbc05a4326fafeace1516f8233e5dc280b239fa6cbfdf7fb3),
(0x94772c3170e50bbd9952bc6944e0007f3d928cb2c86465b2ef040fa1b4f90d9e, 0x290219139326e3582cfa8ee2428c430786cb2de96ea2c735eb71f759bab14637),
(0x2b49cd388cec8c30e984d40bf1409c6fdf7ff24d36cb699b5f3c24c0fcc872fb, 0x9e65a427ce5dcc20db83a96b720f29fddf643b2ba192736dc621d92a06583aa8),
(0x454f174d8c3444799bb58158423d8413ce87def9002fd25a5164807c982d84e9, 0xbf324810d9894da61eb1e3cc5a30639d6500a453c14e8a4078353d427ac67ee1),
(0xdf4461b1dc1eaae85b4b7fe1e87753e50546f48fe39da02ff1012b2458a79a17, 0xac4fd2bcaf8e0b5148cc5a5d463732098993b3770becd718732fa33995412fda),
(0x032973a0d1be4c6d1342b2a144ffb36b81fd9b38c0b7411a65b8ccabcda9161e, 0x558b278bf507b498fdbbf73b524c465253a0082bd53a87f075d5a49abb601b69),
(0xcb63a9f2d1a11b080479275fe1f0bc64371268755bcd8a213481be2c818c69d6, 0x4949d3dda31db2b7b2d42f2b4709a8705094d4701e742f07b6f86670e43bfaa6),
(0x0543ae5da0c271b841542353277e1651b7b0f587a5b18ed2856c2e0741c28914, 0x22c999cfaba6f95b21f87ab82f2edb2a3dbb43a6ff41350683835ae8bbcd0a37),
(0x7ffa63ef3df62097a3b612894eaf5bf74fb39ad29ec63f022c6f310e77268c7e, 0x9d26cd728fcbfe546eda19db5ac619781b45669959a216282500e5f5389679ca),
(0x72cc66060b02943a5bd9a4766b24caf40e0e2f83ae3bf6715f05b39e3436122b, 0xf35ff21a39503637d05b744a777975651e290541326d920bd5bcbb6f74b56c3a),
(0xf5f21182de67c3eb396055f6a8f64f5e540433760cdce9f33cffa6014a348a4c, 0x1fe09f9408ad7f786c1846753105cbd2e0f8be91f9160e819201fed33208b3c7),
(0x1cfa62a37017143152fe149fdb07b00fbd8d7928e5eb145fb4ff7343fc19437a, 0x01efe47fe41677bd337451b392eddb1cecfc19d05ef0472712927d4c77b2a742),
(0xb6609139733864d3abbdb6bf04b827b23861594f0ce9e9964637ef14f0fb6849, 0x02e807dfae409cefb7be1ffe63351d8d8de5fbebf3be506931befc97d479c006),
(0x13da7c85bffeaa0f0e295ce638de0b051b4aaf9bd888f5c55f74fd60abf2e016, 0xc0477fadfba6531ef6369aaabe6638713bd6954a0d1e5df1269c720831cd5bc3),
(0x2abda634547a86aa1188b2f6ffaffb36dd126d9418406bed8b81e29f596526a0, 0x7db361412e96e02c34c0e39e1201617f2a7f2100d5c3cf646dcbe563e2b25524),
(0x4e161f2e22785c683ac494d41e3cc2d5e6b87be80bd65e858aa255dc8ea8fba0, 0xc81a4e95a2cfa101fcb62112b60c574c623b5df65a1fcf51e6bf293645d5f17b),
(0x586be2b5740b0ed66f5c5f6f0217766ead5543eb8e983ffb0928fc409e76397a, 0xf11acf9908bc2a25487995299c7ea84d98c6a5256cbca56c3ad534f926c6b08e),
(0xa76c4f911d0dcd589417fca98124f62e789e0b0591a9ce94013e0b7de7d5986f, 0x6a49fc1e2b32aeaf6f2911843995602f903c8d76858fc5329b3a19402c2c9b7c)]

/-- secp256k1_pre_g_128[5440..5503], /repo/src/precomputed_ecmult.c:13702-13765 -/
def h10_5 : List (Nat × Nat) := [
(0x15f11b1e804a6d54a496ee4ff3030167eb510e9cc1754bd1d46beace1211a68c, 0xf8968e8d21bca27175a79de5031ad810ca6c6da772ff96f9937ef8248f4fec45),
(0xf0169f41685292bb4ac93afd58b2c2393985ecd516acc8edce46f32574b23e58, 0x6fbd711efd488c8b43151ecfe3a42ad6256970531df18afb68f8ad71ee9aa05e),
(0x2f241e5e2596d32b6cdedc4eb6de5f53374e358d8db78d089e772b376250f359, 0xfe79f0a0cdbef5a27287c86fafbe917e4c26c4ca512f57e4ab066d3a03f7e71e),
(0xa14743eb92bdf49f5f404a54ab19310026f3fbd6fc5a06e3e8c6b33d1f7a5559, 0x3e7e5f24b1d0425cee5c56ef1e38098c6d67fd12f57eb2fb1ee76c5741d57c54),
(0x2d097299db14ce888da72472da686f67b8ecc8125618cae92acf6457a011d2a9, 0xe9cf719532f711305bae1fd4ce3a8fb3c8d71088df35b49dad9c16d88734a187),
(0xaa7257f0d7e51fbd95598b7aa994fac141aa76d6318cbda020d3047173317f2b, 0x15e00f94f684c30b5cd4a9780c6245e68d30d9590a30fb39834e97d8c18a1b27),
(0xae524618e2877095d52ffc9467a081e8b27b4b16566e2b37c8d11b1f1f7416a0, 0xd0275a1f6d49a7c944a07a6bee5d50957b22b6982607f8228ad15253a546ccb0),
(0x0e7a85efff8b0443eace4cd881d768baef4d93b979b17eaefd237e8fc9ff660f, 0x4b53f0738f07b3607d66f720b1222df300eee2ddca20f40c630a7911a0fe2aa6),
(0xdaa96ecab8412eba75f58a8084a302a637dd7d77bc9dc502a2d083f835bf242e, 0xac3dfd97a01557afcd1f199cafea0cce52c8e3d4975cb33101c817c9fab0815e),
(0x34dec21a965b702744fa78814ff6f782790d551b007be35c18cd46b2e189baca, 0xee825c5c5cc289b9d7f01b4304de4f0dd250f9cfc22c8d20a1e541759bd23694),
(0xdc2178c12f015bee829f0567566d15e4d607c8f3b29928014b6a56071e61247d, 0xfc86780e31cf57ff5da387d1c3c25a19036a263df6571de1d098153a97b41db8),
(0x6faee1e9354bebe01fb6515820b7e9929517cb4023d49d192a002ba4e4782db4, 0xa4915992ceb8813be2778fb047766b6d3958cf72f18e91723f74cef001d2276a),
(0xa2bcc0124112818e571c8dae3cb724dde45faa06d04d7128e9a71dce22f300ca, 0x1f594d9c64ba43bc11764c61f8fef5c2e31fda393447e7d210d004bbc13870e3),
(0xb8cba39ac51d86e7d83a50aff5370240cd7b20f381aeb799f951883f458ead76, 0x3a8bfe742b3a05be027ef83539988cc4616365fae3738d3529f9c0d1c15eed4d),
(0x56e532dd295792a6ede9da94c43e0b2a25b72725333f82057a352ac97a1991d3, 0xa617e23418bfdccc8facb454649a49142f0abd64f30e06dc838fd80d7a141fc3),
(0x4803406ce404957519f5306d6daa003d2aeddc1fc1d4db4515a8d35caa39a6d6, 0x07add51c012412f449d7b0e4b7df38a48315112649660956da6273ef8b53fd5e),
(0xbd61ad652e44effe0ca396202f84e4d5d81cc5792a2390f652409852cd79c459, 0xf3d7071b8bb189281d827f710ab7b1ad05289033ab28d20d643af02fa2b4ce5c),
(0x1b543175e5b6f27158048588f81a791b3ab216a3578e2f79354da6c95e4ea9bf, 0x67a2e60b321456b85b5499cae33cd6a6d5445f91eadb5a5af0e2164f324417d7),
(0x2035953d3319ffa59f75d86a8d1b52c0e8118ec4d830d15ed9616215cb82d080, 0x302cc0d85bc1e667b160bc8a64cc3bb8763066a56652a0bcc12691bec41d7aa4),
(0xbf2a9739f65bebbc90413f9fd311e095e7628dcdd76d25a98a4681eff4f84035, 0x83932d07cc950bcf380cea8128e0432226b9a4bf8536122bfd055517e7d3b2b7),
(0xa915504abb62b4a801288c448605e8abbafb4f0affbcef23c9c2a26ff2cb8557, 0x2fec1059abe1bf4a834c50c1edf0e5a62ef21f7f09da2fda20989bae18acd442),
(0x318939ccfb2eb0f830d300797e209f006e28b8998aecb548b3b979009ea6aab7, 0x5308df9d10c7d151cbcbe41791b627adb7204db4dbd2e01ac5698e61bdbda375),
(0xff9e4851d3f0c9cd818facdf4781cecb7f622039c23e236a7e4b736864af1a8b, 0xfd69f241bac1c6b9a52d6dd006e7bcb64a4a79a49c3881be6ef8c83d3f462c5e),
(0x497113bea88d48882c98ac14ba0bd0aad3c75c8a58d374cc86a7fd0ab6259cc5, 0x9029d9bb96076d69a264d2bb6fea2f15423ff1f6ff47c02d4699943c9cbfbc4e),
(0x2b2cdb826653f563dfc4c37396d738e83d1dcc5aec5f48862d5ca84c2ba69103, 0xd1985cb3f42e4ae17da33b7ff85632366e2f5c89b849ac73afc3a7a81d049d85),
(0xc55dcffefe63e948af77c8c832cb6c0a0c09ced55c338beffc27fd21dc63b6c8, 0xedef9fcdb00fb62fcc97c03f26253069de6f8d00c13a5666f574feb7fabcab6a),
(0x52a0dbfd371bcfb0e2c69160c9cca2b78dcf679f774c9d99706d306a30eeb3c8, 0xfe01f320781275bca6c031e6d71df46756473d8a780fc54a6f8eb1ae5640bf65),
(0x75c4ace76bb32bac13141f210615e11e7608fda90cba47239eb6bb8f349a9e86, 0x7fde50af19506ba465d49b93c8884478dc34ec9109bd5e22be6bf71ea870a70d),
(0x69cd7caab220abe78f36f7a4633802b485969ac0e9c4a2447b0ad78229daa879, 0x4140a70b8d9025d17fb3402d2ac8afda0e9e0269b29d488c2266c1bd58accc9c),
(0xb6cf3a30d2a5ec8f4480df82ec6104ff37355ca6f16418abcad3a0c7bd8da064, 0xf12006b75d40655851fde0ebc68113b850441595dfe3dddf86c17a5894a6d923),
(0x65c4a0810656d9b7445131e86081b3063a6e0c025339d3d7cf48e9ec4e8f59f1, 0x51f4ebb94b63b8bd2cdd6d88c84c8608bb380e38c748ddb33dabff1cf50197fa),
(0xc243570de74a1fbd938bea43bb17a92947a228b1ae47a6cd15c37524b034fa66, 0xca57366fe3886510903970cae1a5dc5ebb857007cd4cc56a37fc7fca8aa4cd40),
(0x9290d0331c95584de2bace9b788c50b2f7fda83dd45a4a3705705400045339d7, 0xdcb3032fc4a410768b8e442e046cfb16b63f4fe9f94a7d5cf932d0d495e699e6),
(0x295df203cfa65b666afc86cfb879d6507075f75bd1eb753c709760f66ae9df94, 0x2cf505f88220196f9e5478e36bd82501671c6b91a404fc0fb1fe00cf12085934),
(0x1631e6c13f89dbca36cc78db1056a4616ce2dcca62f90b0c5fcbf23277d41116, 0xacbcbff32c164cd3b57d3b89a326b5d146b5769fa5b35df1efabd2f4407759d0),
(0xdb0b2c5beec9f06a9bb43e4cde18d97859a95cfb09b319d25ba619eeabc49e31, 0x0d647147d83303151446a40585bd857febaef109022ddd0e3ac622318ee91abc),
(0x2581d0469e8bdc16e535c7871a37c48f929aad34b694ac2e5d264962011e744f, 0x7bf3c68403d953b2dbead1f48614646cd18b0f2acdf6fbfd3ca68498ab25bc60),
(0x9db20da4d576f564372aeed6eae78eedf512d13b13d4e9e2eb3133c6013c4b80, 0x40f8b2b60fa113b6ed7dce55d62587d8a86a43b29e0b4876c5607b899144d255),
(0x849b193ce490990be2aa48a1c31694c5fa041f9607086a83cd1a06b6ccb5e3c3, 0x0353b49a6ac0c7055a3d5e310fa428e2391165ce402291b25e1b0496bda41e1e),
(0xae83dff65a1dcb6fe2f56437c83162a4a388a16abd387d6200f5c5edea08fe7e, 0xe9c57ed65404a00ba2f876134d4848424a32246bdef6c31b533caafe7029eabb),
(0x24724eab046175b4efe51d4a5993da481a62c6e5f05d16a517e4f58c00fdb103, 0x94465b42e4e378c21ef0d1d18b25d140fb17f51afa4d37e3450c73c472468b04),
(0xc2e2f8024ac48fcf41a3790ee99160185a3018593cc3fa77c78405526700659e, 0x0b1fe2191563f9bd20c4dd450615d8cc0400911d20cfb7a700672b0620d32a2a),
(0x8b889bc3e2d1405b47a1a05ffd0c17ef09b4dd754d30640be3c4de7df70791b5, 0xe2d459ca0285629d956d504654c5e9076ed92fa6c95643c07d746b78e03a044a),
(0x336c05858f5ee169fc09fc73a181ccd13bd62dd7c454837e1a5d7676abb2faad, 0x5c29a6560e8f28046e855c6ceb0d908e38f1b62a69c679489d6a03ce64a90c2e),
(0xc9a6df460411961da703ab23605fce16fe02157692a9b80e65b9e4abefc9ee93, 0x8b63a4ab18a4b19089dbc53cef0b0dc920c0ec7e01fcf075195bccca58d52f6d),
(0x6cea35c8b3a45063075456a62c95e8b37d84a6d3e909c5a9cc4800eb5bc28367, 0x68198888eacc93804a3233ba1801d586e5bcb2b278efc7da6764bd5dedf0ee90),
(0xf13d4ee6ea31999dd8d1220a13ce83537c350046319a0412e562cb8d3e4ee80a, 0x5f7afcc437f0b29aab11a8b214947521bbb4b622261b9e73f989e1b99f43a2ab),
(0x7385b6442e43ab56f4df8a574d0a32ac6e5a711413dcd992f86c0b0433830307, 0x6d27608a8ea00e224197c8a19e9511fc7ecd708386e94ab96aaa35f9c8c2c5f3),
(0x35923ab9a784ee6e5a4e911a7552fa16ccefa4e3dcc90083e5a19e314dfeb06b, 0xc900475d0980cce87d5cc0917a28c18c2fecd5f5cd2cc66de26deb611c5acb89),
(0xd88b69073abccb022e235e604f3e2877ef979f85a5b3fc4d0fdb166ba4155d9a, 0x1eefcc8269a20b9b48d30d00e7ffd021a9b7b1710378a299819d6e6d19d5ed24),
(0xb86c5281cfb9f3b84be4f83b1d13d33e1f6abfaebbedcac163362a768740a827, 0xc1a32696fc1f8507289f111c85483b2323d228a6773030e8dcf30f6d57857dbe),
(0xd28132219c73009497c257f31fbeaee91afa001c84e4b813d7ee24526454c640, 0x75d722d97111d6f6b63245988720ce3966fae55c03d81e4dade294d61269b4ea),
(0x445addf5bf941ace6b4aad556f174ba1ee793bf49f46295d019fd8e2807f8d3b, 0xcbe249f1fbb39f8d93079d0ce84302dd52212b6c828a1626b7446f9104f6727e),
(0xa2dfad8d66fd47fd38fbcb74b983d366c57a08d1b04f1acc4fdf047f100552f2, 0x63011d2b43822a21ddcdb1cfef4dc0d25f59516526939761953fb73877586c9d),
(0xc4e845116644466b8c573b8ec7dd3788ecf1c6c263ecfabbb13f697f2b2e3a7c, 0x01e53964a70e83a8ed9f5d8ab6b796297368bc5dcc90e6fc4e8e6f65542f63cc),
(0x63c4cc2ccf368a04be814d1d81fa4250653ebeeaccdffea7944801f6efee1aba, 0x06fc2bb4a7e573f5fea2cabfabd9a145c7c36d6211928341e9553e8ab38fa90c),
(0x51eb8782a3445ef643f01634caad6fe229585dd6f073acf362cfaa3e960343c6, 0x56d20f568e6d868f491b6e1b80fa5c88e3d625d1433b1dcb5ae2d35e0b40a960),
(0xd89ea50dab6c4c3948fc4d4b73d7812ea6b59ee18e7a51e8bf6249bdec59d068, 0xa1ae85aae842ab6095feec2ad6ce6206e81a6e767f0b7b20d41cd28b6a8c4258),
(0xd121a6a811f953fe0a90d8f34487d654fb48e4f3c5ac4db83e3f50a5cd7bac9c, 0xa5b9e6da0e07a0f1dc1695e020502f5505fbf136df11b5864ecc63e2d7061a6e),
(0x83f7dd06e5afbb3f7b2563f0faaaa3cb20c32db15bdaeeb573219814caa599b3, 0x0c452f491e4482c11cd4bf46075d74c5ab054163b6d1b837dd10aa05950f199a),
(0x1f5ba7d9b4cf8684cd0738924aee19191f611d78a943d49b509fffa6031fdc19, 0x0a017e137a8a199ae361dc18527f013551e48b02c2f7f102a6c1ffbffdd0baba),
(0xd25fc73ea83ef669c2e127c71615df3bec61ee384a6b3396cc52066ec3b70b8b, 0x9b5d55e1c8dd008f19b5e989363ea737e7d7bea3f7b0d9b6951dd78ebe6c5334),
(0xd749373fecc1814bdc8ce6d12ebe84c90e09806a9cbec814cf98dab24a46ddba, 0x88012af184f7ce23730a3a4f191d06874d5652dc2be4721461e9ad31b39ee397),
(0x8e05da99971ba37d38e7642b693856afa90d72062d3606116c8f506d68316b9c, 0x73de534b5833287b61f3f9852723be7be8e22ee31d1ef4fbf45d6931827e3db4)]

/-- secp256k1_pre_g_128[5504..5567], /repo/src/precomputed_ecmult.c:13766-13829 -/
def h10_6 : List (Nat × Nat) := [
(0xe71e83f1c6b285db157f4a14825aa540558a7853673900aafdb84556ae5c891e, 0x0e37980bc180e3d20481d81ff9aa33cbb297ffad7dbbdd794fc013f543ee679f),
(0xbc66d644dd9da12a299557d5fd35993bab05ac8fbdd3802f25b35890db8eed32, 0x5fa8c7e4bdf77750573a4ac71681ca044f796ea9c8379cd5ed55631dbfdb8405),
(0x537f194eefe439858dbe1eb28e27448ffd1b554ab12805fb3af43538fe0e37f7, 0xe82018eb447b28101502453fdb4c1cb6666330d2ea3331d3f79d5652a1d64af7),
(0x4af2a9f2e0fa4b4e731dbdf3676538c1110f32327b8f2766a7f489de8aec3b4b, 0xcf2e0ca5dc83085643151cc01507af4f0d84b2532f0fdcc96489baf86c1bd4ab),
(0x81369bd2a4945c15389aaea34e2855d76343e2000a9407edd05ae9275585aa36, 0x0a9b4ba4e26950c66648b5733c0c4e5a22a51e71ac3c1fdc78403eaf3a667161),
(0x1c0813d7ef91aa739e3a6f0ce3c7edcb2b7117a72ad1dad61aed130fc61cdd3d, 0xe339057267ac3bfc5373cc3114bd0f38ccc3cb25862b243c912c0aeb098bb86d),
(0x8a651923d2622057059e5f82b38bfae7dc922488749ea56ce43f0f74c268f9ab, 0xf3df434f14f67030fe888ba0185e25c838520bf66e85023ee4ff4f04b056d9d1),
(0x89d9854830a2a572dbe91018e66b28de835dd02bf793a4692de3d720d70e8f43, 0x629868e99e434bfa0098bdc40f191a0872e68768ce8a918c07c2da4275e5cb3b),
(0x97d0c83c5d83d399c567ecd5dae551fb7f1838de1967e84c7f053b8162965fe9, 0xfd71668373347fbc407543b670734733df623a5501766f558a02059a2ce55c4d),
(0x20807bb2650e6d8238a66ed4b239b59efe073a5f9cbf0d6fe3d9a16dbe427de9, 0x46a25a29c104c56d8436155f64b1d84ab974fb2c951470df17a9704abe5c1f9a),
(0x3cbb1786945bedb5c8ac2d0edda1b0bdee314cc5faf56b75fa878bf2b218a8f3, 0xddcec0c0d05403e8ea2094a96ea910f83261932d701a2ea04e93581a7e4b7275),
(0x961d01441618561dc35048597e1701bf35412ad302d04486704e5593b9278734, 0x7e137d6b2060572bef66f8b4c8ce535fb858327e26dc22956ee6c94bc83859bc),
(0x2814918a0115ca2d688f43589010b7d8b8b560f306a3dce208fcc05eacd4845b, 0xdbf76f51ef80e3248820cb0b0bc7f0c24d50ae486387d206c333222c5f959dd1),
(0x6c4f3b00c02c19a50ddb0ab1798929ca222a9538b641cb3c0dd6173677c9442f, 0xa91d13a4d3888b82eaba51733ff76fae8022fb108cd61f190206cd787d1c99cc),
(0x8f48304cac37d4950fa1a2ff2178f4424af030ca70662a1d0c750bde5f5d8dd4, 0xccff617647cbdd3c3d0c588c37a98723c2b2aa14fd17cf9fea45ec72eda8defc),
(0xae3da559e3fce253f5c1fbad8e12a52dee989ea98552a192093f7db0eaac9405, 0x430b86d1322191c709aed5bb12eece79f2519bab179983468aa13b6994032ef7),
(0x90c093fc027fa9de66a1fdc4d921e5da6f4fa04981cb6f91e085f89b96561471, 0x1bdad5364ae198aebbb0ff883bd5dd2edfbaa91de989f45a030befa976f2db23),
(0x0730a1c45ca28743538fcacfa65b7d90b6f4b1c6087364cd53dd6585328eeabf, 0x7420e8dacc64a059b46221c6c3adb4b346eceeb88effca391a1e36d0d665257b),
(0x341eabe9066c6ce465ac18ca1eda053d04e6137cac0796d436a942e599ef897a, 0xd298003dfdd9f5290c1977b3ed426d6e2df46098539b20efc2011a36b7e49cde),
(0x08f7e1b2cb538fce4b4a777590d1a95c2fef83319792c0bc8d5f349354fca169, 0x71b0849fcec62c5dfdce37a261e2a06d32b3e0de87c8aebee5a95cabb0c3f798),
(0xc7ea6b43ce1e0e83819bee9a31fba8233ee03a6b14988b98e80aef2ceace0d56, 0xe9f1328fdca6a16e2100ad40138f981017e37e677e7ca747c3a57ad924b8891e),
(0xb16ea5c3b03e58b0e6c217c86eacc4b93032add430acfd7ae50eacb9a0e5c1fb, 0x507fed895c14380f0ab9e54ea3624e5acbdaed64b2712f8848018b907a88f47c),
(0x015cf4de7c36b72df7b98c008e928731a2e71c69cd0427f3ac9264b15a5fd487, 0x3865beea6b36732c5ecfd21a562ab253d618546bc1c2474508881b20643d7e2f),
(0x394efbbbfa740f53b1e70eb9d12671e755337357b982921a79915acfddd18218, 0x8f1f19806c1d631e6519aadfb563dbf237b75db154baf06f6fde8218a0a68eb6),
(0xe6c3e15227453d32cd4449d1ab1ad78d058f5bb6f29d813ce7c6628fb284399f, 0x89d879574b640a870abadc6adc51a5330838a83f53de44489ff0640a502dfd62),
(0xe24800009db30642f925ef8ae31c54fb1340e88db6d633f8415ceac5f583cee6, 0x39ad28f18ecd83025cc1fa72ae4e989781318cea9e50679450abd959f19758c0),
(0x1c1341203c2e7e21f5b10ecf402d52bd33db327870cdfcecf3b277e478f551f4, 0x0cd6907b57cfad795e14e7c3b2a06a4617b7a27cff476bfe38d68d0f1470dd63),
(0x6b2fbbb1515c261c954a0be0279a1cd663daa0831fbd58c9c69b7be7ee6047dd, 0xd38ef59b4e276fe56f1f2fe674b6974d5ef1f4a974abb2c817cc68cf078a164a),
(0x0dd5098a8cc8ccf07db82096b52d1fa36bd26c2b57f0cbe62ca954db1773e9cb, 0xa198ec1e71c53d735b50000d678d7d93de64a72e8ad018bbf515b4f7c7840aff),
(0x0f6dc4943baa061359a000ab3aed34561972d42534df86ae3eb8e5e7cae23c22, 0x7150f3bc5a968248d8c71ea832b116db73ff34e535ec1e6b64b2474a947174dc),
(0xe115c9265930dc67bda89798e267dc4812c06d2aa05e4a5a6519b0bc7096f84c, 0x5b0dc7bc82b612752aa17a13c1fe2cd76b60cf1eceaa9234ec9e66097b2018ec),
(0x6687f498098a22d858ef88a1bcbfb44633d51eb26c1fc2eceeecdae9e0960c56, 0xfd1912f507c0e69123977524ba58ea045757aeb9309a5b943c993a93057475ff),
(0x366ea4df3aa8da52763b513cefa3c739af61a4976fc4c884e879dddec2457d1c, 0x876520bacca3c711a23186a4833db7c714b3de4ffc86e8e4cbd61cc09a48f34a),
(0xf7951805eaddd01202bed030f3013e156fec02b980ba8ff11a0b978a3fbeb778, 0xb255b5c2db866de0a145a108f5eb4b69271c13aa8db75fc9f467843ea59549a3),
(0xc77d217c5c7b8fbbf7bfd244b2a2d2db372d821743eb4a0347858678471d8be7, 0x55573d9bdd16bda6ad916820874d64d4b260a489b4a934271ea5a79af57dc5c3),
(0xc803dc3c1432ac63019db1696d7ebc1658021b8cb92c0fe6a59d1efc2056f214, 0xce8e23aec7dca4718666f61dd7d8bc10e06d19297fbad7b707d455269e207b09),
(0x676c4c3f0617b6612affb2c2dcfe072cddee8b29dad9124fdd24e87b52a80b88, 0x06df8c35be6818bcb6857f470f59a11be05cebaeee6c53ed8cb93fa892c49e0b),
(0x8b0c8502bfa15f590335cc3420e04c90becc230812d40c7e14fc3e3088b8f34f, 0xeb75d3129fa4db2827d20c93de9c5cc904237bbba9710371f767f686e5ddbbbd),
(0x6ea071485594bd902d0d526c28918bb2cdb7d1cfd3ad0b1fa3ebbf7671a2f90f, 0x3a30be2c2058cb43c6f8ae981ce8986a8b4dfc3d81d49a804e40c81aa1fc8220),
(0x0aba7df48bcaa5e4c4fd9a216b4bb3fa27617205693763bf71b8b2149cf83c48, 0x6b1b719fa0633abc4580a9cb9c1210a33e5e3bfd0177bc7639057e513fb9b3fe),
(0x0ccfca0fee5bebb726e2062e2b5cd592847031d35edc7767414af8099b3ac2ad, 0x135b2ff24e40f04cadef93edceededb7380c1e9a0e32a499467af149cfb532cd),
(0x9af36417f307659542ea54b14671d2dbf7582ff9b7e659a76465ee2d4db88e35, 0xdc5d07a258d4f5d5ae649b63e07a42538b8b3e42c65a6ba344900028c84df8aa),
(0xe2f308a3e4d99e74d6b37cc1dc41d9fde98a44726e86764a89fe959ddeaf922e, 0xf5f8eebcd9252e1c74b9040b569c9d5e11d12af50aa210518f87043c7b47776a),
(0xa62581d40c4fa4b6aee11db08fb698e9864cf336578c536a8a887d1a89b43e35, 0xb530ce21bba9d034d53dd4902b76f25b4391914a5f87b6d82526f7c3def132ba),
(0x11ef91f5dfeaceaa52f434b0fc03085f60c12ea94441574a5725aa8652c259b4, 0xa2c81e79cb5ad0d6bf0221ce2bf7497ebc91026eadf0e25e6269dfb302ced7d8),
(0xff549a04fb86bf9e3ad207b5ac76a74c2532a1a6516327bc96353baf66269c5c, 0xef1088fc633f639ff0061bef4c1e4c645897ba0eee229d44d99be0d695e494db),
(0x11c9ebb8893b65340b323909961bb8ee4c90c85452848ad418fcf223c80eb7cd, 0x4b0229e089a1ca0ed60ce2ee590211a80769d3335f4ef32f4460f8be940a0dd2),
(0xe86b3691f8ae48c412a6216cc3633f1e88667299f828d6b13ff88cace060b1b4, 0x14d95d6a61298fb51fc974fef3957db54aac7130a1ed873ccee5cada6eec0c6a),
(0xe5b9550eeaeed9735d8068b22c48bd2a608fdabb563c0e5a6c2b235124c49d19, 0x506ff6792ea7c37c254d7ae1a459204daca2301693c1598c2449b7586d437de4),
(0xcab58ba0cb15982ac1ae5b51ad65574f55540820d057e11e0f9c9f9ba1388335, 0xae1c9e2274958b332ce0f0c7ef621a4904d5b0adb04748c6539dbcbd6bd4ef18),
(0x715e45689bd663cfe9c8300682fc7c905ae2da55042b0ea440cbe2eb36e1eb43, 0x58ccbf968860cbfc06b03f6aa5fe05db14be0e3f3d6224bdce6eb54f7372aa85),
(0xdf92f1de4d22a7ee6d2bf45a5728745ef59b6b0729614536722c7de7965c0648, 0x59e18767f0e22894be586a1346950c0388f1529ecced0d1850439dd0e5bc192c),
(0x885dd01edc8ffd40c5f26d7abcecf6707a791ac0b2332b9112e69cbf11399808, 0x4ad582766e763ddc3f4ff718569f600d8c76465987ebd74c00d506c2ba886ac8),
(0xd3fe74b617a1ab46c773549baf4bcbff917c7eccfbedb63b651b219789c1ff9e, 0xb2e6bbee5d84b593d43467db7372f40e493a9fdcc5d88fe65767f45c837acf93),
(0xc373083674b9723766d9e9def7b6d79293faedf4f7d8630175862d62d4ada8e3, 0x0b669a24a31f82778686d2aa6b2acd16872570f08e6f06b8394f498adc29f099),
(0x4ef2ace6422be7ab6a614e2bfc43360a2fdfcdde51cb31c8372a20422df4e100, 0x86868f5c37366665fc6121e0a8ab3a8692ba1714f5b8506f9a3c3025eaf9fbc8),
(0x51110764573c540b813ebc4e79d5927767e30ed170a951b79ed05f8e8d142cf8, 0xea8890e49668304b63fad75e33f42601f2649a21724fc49561110e79d7ddfea9),
(0x36cbfeec5491e1c2f853d98a275c1baae74dca332bd3d8307d896607c1cb651c, 0xf67659d6677b44cd33c0cedcd5886ad890eac77f5b393fa56cba107754489eee),
(0xd1ff38750e1ef071eef96f05bc19d356aeee18a7f3892f024d07b43bc3f09dbf, 0xba825e4372b4a644dcb5b8f9062e0099ab75ef9e34b54874f8d68197ecbe8eae),
(0x45e7bec675819b22f2761ae7575ebd6a8ef877270a15e33b3edc7eaddd58fa5d, 0x3482080eedaea330240b539c7d6a2e4202cbaf40f93d505228c773f96d80fa86),
(0x8ca5d7e4bd79aebbbcc5250dc86ac1df373eb3ce1d8cf2ff5916cbb71e8e016e, 0x1af3f417afa5c1c789474f79a0755bbfa9a268bffdf242f4c1599dc7b7cb1e55),
(0x56bf2e78e7c438416324e5817330a6bd208edee53b5d61cba141f9cdec3002c4, 0xe8f91e4b3984a94629060a4e534bb4def345879af488421463dd02992bfc2fde),
(0xaf15285931540f001be4a65ce3f55437f7be7d8cdb0283bdf96bf71cc004455f, 0x1f58be49077cf9b8b7ddf7fb74f7356d62b8fe336bf798de3dc435b186122b40),
(0x2f4d8117bcffeaab7db186c57aedcb0080d67b36a560c5f0e323b7d779be70b3, 0xe0a50d8280677ee9caafcaaa5d7d174703f4980c73831f4329b1545294e71829)]

/-- secp256k1_pre_g_128[5568..5631], /repo/src/precomputed_ecmult.c:13830-13893 -/
def h10_7 : List (Nat × Nat) := [
(0xbd96815ce6b6d0f13688cc26777c42bf50fb8cd8cd0aa08294ad498c620d1f4d, 0x8a882c496592b186b0a4071cb0b556ca27f2ec82417aa246ae24b4158e4ddb23),
(0xcf64bc04e0796fec112a5ef12c3cd9095c041b462772b8183e6656ea16d046c2, 0x6a05162aeddf163afc2cc91f34f7a7bf41660b4ea8ac7af5698c259e47e77e86),
(0x3dc4bd0c2c8253e24ed942a07f45c2c6390a9d076d334f3c80dfabe9282a86c5, 0xe09946687cc9c6cae2d048406d34cd22e4f8e271da4416dc77e59af17057c43c),
(0x40e00b89e58de3906a56133afa57401951be1efa6156baa045fb398794f7ff11, 0xcf675e011f20efc424b882fbb7bb9ca505a1134fb628acd9a597fb970968641d),
(0x5626496f1f49190a48929e9a403f9f54319a6b1d301cf256692cadc041301c27, 0x21702c7e2ee0efcdb98a0170110e3495e23fe5b99674bb0db6f09e57fe76b48f),
(0x2a2c8f2ca580145ba9593b87dfe0dcddcaa3cef020b0e2cd3792da6e2f989a11, 0x4aad23a0e01f6a433f6c2a40f480f945d45c89b10df42d67acf6b0da3f46bba8),
(0x68a74703a88b88d9ee974a87af7b1be51866ea40ab4cae9d90a4c2c65822b565, 0x3660b266c74b8be10c98d3b9b1f14dd7e039b476733a1322d2d7d2f69ad59700),
(0xb50ad45a4898f77bc5544dc1cc8c05153b1e15aed043d2f140bf9dd729e413e1, 0x1a59e6233bea3be005713c06b18badce69b84693636be68a532adfa8c617a773),
(0xdf18b0163ad015e8da7e87ade6fa5312d665c696e42e466a5e9e2a8218337c22, 0x532d4260eb34306e691f42ddc215ffdf2f6cf3efcc1363c6046b8921ccf277b0),
(0x405bc408446bb0bd49eb838aeaadbf1b27d413efa15fdec986e8446e2c799391, 0x1293bad0ca26e4a9f80dcdbf1ccb70d3fca9f40389bcc331e917d7e4bf4d0b3e),
(0x1230acd275b02450255fdebedd0ae80738f081bc5faaeebe4542664bec57bb15, 0xaa31d16db145414dacc29c11b0ed9fe4fad90a7c451d97064f7ec6fd75b15703),
(0x4015c1de3e09dc649ec990be898db42d1193e1cb81956b08da1c15c4b9a2af48, 0xd58b2d0e553dd49fab07e5dcc5a66543b7dd351d84375fdf2ce1db568185e67c),
(0xf3da2f127f47b9a7192f00a15576aeb08bc3621107fe12460ad6142185f79009, 0x865ca0c64aa629afb84f761fb26a493825fdec29ce1d4a669dbcd13841bb83c0),
(0x15f1e896f7c7cc94f3f921e76dc1e30cf0d43b99e9fa035242e56a4b90a0c736, 0x61e85195215b864a6f5bd52cd0274526dbc80af14395f9d1ce60bf7427c18b33),
(0x3fad3455470a113a2f773ed1258111ffda926643f7fa1cf28e9f7b80dfd2105b, 0xffbe436fa1975bcdee4eae518dece7d0cb34aeaeade738d10b39f4c66ca08a05),
(0x62bbb9ac282329dc65ae7b4fbd15dca770a088e545850aaabc4c09b19177f92a, 0x9c000eb7f6104a0351e1bd8cd8ac8f7e2257829135eea222866f26322573dd72),
(0x9bf86604a46cf253324f5608b7bc87c872939597131f12c0eae3482db1935e42, 0x0e9f2dd215cce5af16149d3f01116d7974f512671b575f8f6ab6367ffede26e9),
(0xa2ec976cb5e720010a25f95ebbd7d3542f3b174e80ee3752db0829100895f723, 0xdbcb75c8365c6248c52a83fe1c79d7b937ca8ebc5060ba7f60b881c1964105d5),
(0xdd91f713ee212c4df94b1fc8c7f246b9cd162a9c5c8988b8f3adff0ffdb0aded, 0xefd02821c4eb853bbb8c55efc54f41fe7e53582a230d52fa0c18a53dca40c81e),
(0x504e6ab0c47fb3f4b6b74a7b1e67f6e8c28ef10862c2db35f16f31cce71d423f, 0xe7adb4243200ab4e71e504532d8493151eae224750ff7a5952bf265665b3ded1),
(0x1a9ea37727fad3be155f7ed51caf01ab1d30195b1629fba0dd04b7afc1a4b8c7, 0x2140f144e531dab222cd4137921b472059efbd57c1c97367ff2083e7f2420206),
(0xd76324e831920463d5d94ce8f965439389d97ba3eb5e91ac56898343397b34aa, 0x189631bedf5d46fefa8f60fca8b22fc2ac987d23b21ff267005608636ef3a72b),
(0xde87a31550a6f146e681d8a9f9a7cde67da28c7b5cd7a70b703695e23c9bddfe, 0xd33a05e777ba9e6d155bab5602b8cbba27f4cc6313038f7ed193137fd14b8502),
(0xd8381e057fbc191008b5a304fa984e0ccc0f5d27303a32879ecfbf73a1137974, 0x1dc513d5ac96238c79d8f740c855e045e5c4e567b3f44744abb3bf460ca394e8),
(0x69da86a3b355f0d8138bf80979e314ab7cb34e6445be4842b8f3810f11b2ad66, 0x7db776df68bcac9ac0f8f55e8ee6a7e1771d41481f5d953ee9bf832ecf713cfe),
(0x0698f8b866093996e2e357d4d671d21b230726a884079fbd766332a54e7f18f3, 0x5925e34edcab34580ed959aa3903ac93c39b8ebd1c5626913f844150d41ad20a),
(0x372741206cb7047daa97274fb12aa8d2e5eabca2f3ab0b4bdaa3fd7a3d5365df, 0x30d36badc10337a2db6c30f2e887622605ccc6a17104460a6f438a9d3e8e9300),
(0x4e8c8df730f5d4117735573984a530b38ca4012d03d4c8cef6c00689b72cbeca, 0xd9f7aed1f5073c8a8d2948d786ce6dd993a405ba393a20a8719287ce00797163),
(0x1e62c3c716e4f6ca77b6d3258553a5fd059f67dff7295115cd6e4bb119b4b5aa, 0x7df17da2a7397df9e314fd8b6b03d293ff7325e2769d7477ef3802a57d8010a0),
(0xc79f25a4664cae13d0971832fee6a316ff338f1540c1f3e595c707c006e035db, 0x05ef7879c46266ca7b34226401594e815c189ce0f057f187e43a61fa10330e85),
(0x768a47a364304a4434b097e5132edab2b98405846e543dd4755038dae355cb9b, 0x79896b63eed7e86632c33041d037554e551f2a736f2c2b354dd7d7acf6562344),
(0x131671bc0604d622eea3f06f200edb52f7223fc93fc8d4e5496af1a9f72e56ad, 0x5a6614d37985f50302ad7a539b99ccf77c453f943975983ce948dfe0ffb867d6),
(0x3b9e612748d11bfc1d2d008124e79a9c604bdb946b25ac57749ca6ef302d7a58, 0x379e7cc0fecf689cf905e84e8516388f3e1cb41aaab8192caa024de03332cc70),
(0x4f9fdecd10e8cc9cf5f2573ea2fd231fb1313468f516af1f76af0eac9ad51d76, 0x26d6731b71382ea201172142fc5e0f5dd0f7afa2c9409fdc062bced0e8246194),
(0x25f313d70ad044b0538bff0aead5c689d5fafec57cddd9a8031b9a4f59b848e0, 0xf28c77b89202c9fee64c058075a972cca4839e2042c32b66517605d587470c40),
(0x24a8d407e26c4cae3f8dbc185820f34581bf43557ad036a5200b9b7a68bb8d6e, 0xfc6a5d964fa25fad4d09a1a1a4ec4697818e46b08cdefb70367e34532462b98b),
(0xef4df8ea5cc100e2768aeab3112c7ac06077b754075cab97df3ed51d6d397f4c, 0xfbf555d227eb051f54965eb3fac1e21b82d216ec807b14855074ee561ad70883),
(0x80c9d5940578f6e40e8462dc0228cd999b62149363d55cf580e1c524627055e3, 0xb6d5bf0497b44e3a7c7e52e328f632145eedda41f80c44dfc7ca6d2977436f24),
(0x35961cd157bc177440dd41b16a81e31e52349a5ae4085248fe4a19c3b10f7a45, 0xb999ee7cb32f1051f0e7eb9d4689fb30fac7af1eb410d53a85e79f2770a7566f),
(0x4aa49d0932a7fc5f77a76a1216240142596a82d66b59d38824f0d8a1e7f70948, 0xadb5b12a05e40bd0a14c174b13c242c6c5f25ee0642a626560d293d9064a4671),
(0x110d8320a9b2c5d65b06f0c0cddd243dc83cfe4f671db970d1213780f6c4af0a, 0xa97c268905c7b6eaa3a02564d2af735c9b43ceeb9f6f25573fc468b0467b12a1),
(0xd01abcdca363b065d8d2bb08388c3545cc8ee88e90ee66c618a9f575c0caee80, 0x317409e4a70e30ac279914d7135f9d18e19fe5204c83c4725f86a6141863b4f9),
(0xcea07679645067538dc24b6819bc3332f320f16c61eb7b8596e25bc401499796, 0xedff87c067e97ced4aa330e4e9dbec3fd800934eed7238f78e97a46ca6ad9ea3),
(0xd4463e7eda5fcdd808ef0133a5dbb1cac93aefb564581da13acc3871cb94ce1f, 0xbb1efe8481dff341dc7a4a8ac2e44ca1b071bcc381e7ecdf4d4b7edb6996547d),
(0x089cb5755e9323b87771a2d058dc78abad8bba706f845a8e9a45a16effbca1bb, 0xf7e743f8a24a6728f8e8051f5a303d71f1f47059202d332c23f3a2939ab97e37),
(0xd035032f8e8e955bb71006d5a3b098eb7dedb73fa15d0d367e01c39018bdea9e, 0x01ba4cc2fbabc437a9d17ff4f3c59f2d2a416d2dc07c0c81c3e0a180260bf2c0),
(0xfec9ff6ae37da167208b1247b754cda46c6eb0728d6b65b13754e2e2eb3223e9, 0x305400aa27a59f3ff19d15133c5a3655464c6f3994fd2ec4562d7f85fccfb767),
(0x3cfcc8e69e8723145853743fefd2802dbb1a05dd0a03a73177daf6cada9007f0, 0x42b23158fd0c140129298d42a6cce708743924fa624d582a94b682ee4beb222e),
(0x4438bc8cf41b7916dfcdb0385c9b68068336240969ce8869c294990bcd340e45, 0x78154e51a4dd31d514885a18b7185fc684c699de2862f480937c96976155ae70),
(0xd2ed1c29faf76c12fb15b5146a31cc2f0c799cc45fb226bd0c38d3b0176b5d52, 0x54984b3096d0c2ac763654b332666baf82c04562d0d92310cce6db16216bb219),
(0x37f21b9cd12431705ee6db23eb578ab731f4b470ab07e1e168e69bc7539b170a, 0xafdc95dd6379244dcbcfc81154aa1917e8093b548ec2be735867574a82ec10cd),
(0x73fe29dd54c8584a7d25641ec62f257d400f013f763c504ff0a3ec02d1ff8067, 0x197ada53ba57463ee23b9831ef8a6a69d3d2f84dc7225782e7569603fe1d1c83),
(0x56b27676f0e88c453db1819d36a73d0395aae3b659f612a9fe28714e020bc73c, 0x98660256fb7d7d75aca14107dda9e7c2284593410ee6de729e463c2c17367149),
(0xfd898f2fe7f918a461f8e57ef30380bc5192a5d5e1f520a05b99658e8d57bf54, 0x6861b3c35b0f694348bc488615eab8b136630618592ac04f80cdd632aa63b620),
(0xfef7597402911ca28057e1416288b351ccf2d490634c98a70a80153fe9dc6929, 0x9d5d00313417797a83f0ecb5d4f45890d679660fb1b19686ffbe060edeff716e),
(0x2c4338aa18a27e60d1daaa923d837414f199f5858d33b66b471c6562c8324bb1, 0x13c28f3625f2b2738646cda35a2a729eeac1de3d80430cd16a0f3a9acb859fe7),
(0x53d6a5c1deb5615934416235c2f597aff6e10ed5444d15c5d9ca82b68e1820f8, 0x26a5d559cc04f53c6b1ff3c204d5a62ff63e50f4b7c1b6199dc54c20628364c9),
(0xe432c338e550a63579ab747cf01f3ffa9e39d066b221fbae8b44429b873decd5, 0x297e10af3006b09b80d0ae193c1e8b3a80ae90513dd9944a444b2c7c42d0066e),
(0xa61c5ac260f3048f92cc2af16d3f6a4d0696e543f044192c9d840962493f5cf0, 0x01249d4f83608025331ab42fbbe338b4727a5ccfb086aeb30f1d9c9626859158),
(0xa2f37e43c3c2ffbac45ad316e912b5862a9ac698f85ea54e98fe9a6ce1fa038d, 0x93e950006bd329ea57397b2571dc2e78a466c4f876ace5fb036d945ba6e9b24c),
(0xb225799444c2ed2f3114185a6ca617b4bf4ac15d40d73b6244a81852d30260c2, 0xfd4607f13d4ee761adb6b13903f87bf8e8b051565561d650a47efacc5ef01dc3),
(0xd0607bf15317662c73df9f40805c9b3e0208ca1e7fa8c04dab9766a28c7fffc2, 0xf06da1e27e72179941a9e128e25ec992eb030ca36161c02c8ee31d22388bd999),
(0x596aa391d4831e6155d8082935a85beda1ea31900a499ec6374389cd1bd5d8c9, 0xcd9240b29845911e47ad147eae55a0c80639b9948d72d2f272e89fdb578d4ff9),
(0x433ec09e19b7543fa460de41e70f63f66097ece6dad9b5fbf4030c7dbc5862c1, 0xdce03718a609efe71858f6db184708d19275ec2c76d5e93fe55a13e7927cba95)]

/-- secp256k1_pre_g_128[5120..5631] in pieces of 64 entries -/
def h10 : List (List (Nat × Nat)) := [h10_0, h10_1, h10_2, h10_3, h10_4, h10_5, h10_6, h10_7]

end Secp.Model.PreG
