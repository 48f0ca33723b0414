/-!
Generated from /repo/src/precomputed_ecmult.c:10308-10819: entries 2048 to 2559 of
`secp256k1_pre_g_128`, as pairs (x, y).
-/

namespace Secp.Model.PreG

/-- secp256k1_pre_g_128[2048..2111], /repo/src/precomputed_ecmult.c:10308-10371 -/
def h04_0 : List (Nat × Nat) := [
(0xe01441517a2ac970eb6381df7e11fb4c6b00998006a0d330d5429126e662c3bd, 0x8238ce9ba691c80c2156393418d18dbfaeb3fd3448863a1e7f4ba360408dfcee),
(0x0be3213e8b062f33caf16c5305a0b666f344e0d71e28aeba08b215a37ec86c37, 0x552523baeaca38a4cd795683852a2643550fb83dd1db0adc3f1b29c97d51cd1f),
(0x623393b6bfbfbd64fc7aa1db9e58e2741c18eb6db5eb30abc4fe167ea9e8ff2b, 0x7c0e4174f0fd5bf2a025e316fa3b7b971339a197b52b0b500bad4dfe34e42cd3),
(0xdadeb702dd0a1e87669eb624b8cf40bdbffe79aa8afab26fbc6215b10dcfe97a, 0x930890cae4c29b412d660acb8cd39bca5a522599a1ab0bb48fbc38df17253490),
(0xb528d3b783179b82bb1c9cfec26184cd0ac98ad58e253c13627fb778c9362f33, 0x063203af1545122a63940676ba2d18a1aa902e088bb444f047c2bd52db8babab),
(0x2ff223e093986e22ae418a5c804e9e817a4de5620d7436e02d025ab711734a6a, 0xc5c8d188ec9cda19bda76d8a97838ab781990475d4a000965efa79c00100f678),
(0xcb8731d50e1e53c9ccfd2c393c8ab1cd9ec839f699fc712ff946e74b99eb1742, 0xcd2f9df838fec504dd125248092ce8a4a9db3848e487076d8c18e53cf6d19fb5),
(0x1377ac45d776a5cb76ec265aaf2726906dac52ddbe98779936bb1271e0cf4a2e, 0xa4b3330dd5954932d5a7a8187d9493e025ab21550d4ed0d4f34aca1ec2a04670),
(0x984b9bf2f140c75fe03489bd88041faa22fbac737ac10724c511a253641a5ccd, 0xc474f6399733eecba750ea82ac4d50c7d82f4c9a942a2bb590b1431fc8d14ff3),
(0x4b8fd00074f57cf9b135d56ac002bf99d50504797298cc4d857960d7afbdcb06, 0x7c0441031df0f6f7721937a4c60cf76c95560ee94c6d097e3a8e37b334c703bf),
(0x5731665368412236619250b258bd0ddb34fc751b8becc0b660585683218b6079, 0xd1d56e4f30f01c5748972898b8afe14216f8335be3a39c37da64050a91652904),
(0xc9a00197a0ff16f2fbf2cb59767d43f4607373674f2bbbd253c7220fdb69f286, 0x177c6783d739117c1de074b0c605cabc6b4dfeeda531f4e4009cc51840142f0b),
(0xe23416da91df23a9db161618579b3008c87b9ef57ee8bff645eec6cea61881cb, 0xe556417f84043691e7ec82e0e1718296e42fbcf4a3de013793772dd570b8da15),
(0x9f96e3f2369d753ce6614c45077bd8a914293eee8a749c1e3b0e2955638e9ad8, 0xf5cd12681567a4da71650d10e413e0eb9b01a396e529cff6b494b2b9a21ddff1),
(0x48657ba4b24b0123cd54317dde6a3245ae4880785ba43d5f1d94fbf6b9301fd2, 0x191edec06eb537812813ca772a9021b0dd4931a0929a7e36a4a8c66faef0d890),
(0x67b322e9d72e864d8cb1551111402d7ac6c858c8077832d4e0187e696a36f24a, 0xcfeb12c26b58bf153bf87058c5faa8330e15c867f7f9a208c3dfdf3ac7f6946a),
(0x042e8068542bdd98fcce8925052002dbc545ba1316082d40fbde06f0a44ded15, 0x1645a9b0c1f33cf5273649158c4f261da1ee814e7aac6402bf644451bfc4aae5),
(0x8ee7dce1339c50dd556191079bbac0053e058cca4a8c8e307588c105fe90d4c7, 0xffbd0af48aae82792cda61705dbe9fe098e102ff1e6f11d2b4669a816ec9d5f9),
(0x0abc950412926a716adaaaf27b20921637a935f0cc66eece55978a821fa368e6, 0x72e54935e9b461e79fb75c484dae4fd2155a4a48d3a467c9624c5f6d71f79203),
(0xbd25032081e0e9b53b00568d40378fccfd72fd8d783f2f3b433ddd1ba6976ba8, 0x5adb8bdb85855498994ca879717b8e7ae8c4c87d29d6a1ca4c3c63956c3ceb39),
(0x0b4fb262fbeee84e49ae91677e7aa0d9b31609e048888740c018a5e18ae25f71, 0x34df3f86dc091d51258ecbe41cf616e9265d6d368ea3403b24cdc7f8e176e5fc),
(0xd1ba9b6766f24eafa145ad1481063b5fe460481721b361c495de8833be605c01, 0xe80a6cbd17de2f1e663ce7f28917e3a9f871943ca4b8ba75068476a3d9e8400a),
(0x5c98b6b03a3e5a8d2d46652d5eb9e2aba80c670269dc5ba83732752e922639b3, 0x081e2f9a145d0cdd2c51bd130f907a046a35efb6635292e06b8f6513c50f4a54),
(0xc1fa4688f75fb86f61cb70714fb25f2e908abf0e0a87aa840c8db5dd4c2618f8, 0xf2f74a776d4bf26d17f55d0b1aa913cb9db869e5ab861d9b2043ccb9ca8397ea),
(0x05e806e9a644eb3251c62ba2f09a755b96aec78b4405df76dc22ba6cf7227ec1, 0xb88c8118d6a1829d6aecaa050742313ab871d2eb72f31bba9d84f87fa73e614b),
(0xf9d147fefd2c1a7bf623d965bc7901bd0968636deff54c1434c6326ed1c8de9a, 0xc7887249ab6686c793a7d77b4117306040de44cb84980c33cd548d72d29caffd),
(0xb98cc95685f6d11fa8d38a1f507996349f7020ae3171023babea0feca70ccdb1, 0xf074d4953689e8a36ee4cc0d408823553dcbdf2170975f495712adbc990ecf7f),
(0xf161cad4100817e7ef9091dc714bcba618458493f3bb6b034648a6496817b474, 0xb7eeb92e396af32422881eb245e62515c4410af9fa519ffd61289f6d9b740904),
(0x7c8b6c892ea4061e456abac246edc08bfb54aff68a2678fb1b7b1c085326914c, 0xf08e1f026ea1d2c29ff5eacd02b346822960723dcdab95b10d69c8af5e7692f8),
(0x4668c29f16334658195b93ccef71a0763ab2078f724dde5dd3635eed24f28729, 0x5db228c98391ec520324c72339d995148fd22f7c2f61cfa129ee74004c74ea4f),
(0x3443d0f39dd6da5c19a39f8cf367265296fa6729c9290b2f4e21c7e53167b65e, 0x4b6db6399a088ddc8ed31f637c07945114a4320bb7ed94b92a87c0e897429234),
(0xd3ce350117a04e9558281e693574c096458dbca9afac20e8ffec78108bc227b4, 0xbcfc77b9628f6ee93541e47f8d556ad07696ee6e90ce384a9b77fcab06eb9908),
(0xc4dc6363ad772452221f86409de0ac28f2bc1ac3cd2d708023301560f95127af, 0x78c9ba8fd789a666439bc94938345250038a79c597f6a71b3e096b8b752d3038),
(0x0c771f94221a47ecfcd78d7a123d2e0e1bf4edccbbcdd075b23d29da6d5ac666, 0x4dee3b30829f5aaef447192465de293ff2ec526f5b8f5980d9155f71ce8d6091),
(0xbff88ce896338f7f5b6516e6448a1f2536a1e9bf275afd50e772517d79e6e199, 0x8f3f0c7ab62010a4eb0b62117e9761d9c1552629bb55bf6853274158a788c206),
(0x4afcd0645d57bf24e850e7e3d3cac2246a467e76f2ce02da576a1f2a09a3b97a, 0x52f23b5487b2af936cc692f61876d6c0ef927d3b0c06df93984ae54e4d10f0a2),
(0xc4bc122cb9bf0e2057f933fd94db012f79e23c3498007abdf8a8ba2132b1f373, 0xe40c47b6a31d81badc45d4273ab56d771daf76bd7bdf8ce1a877886166fbfc6d),
(0x487a19b1d1be7791ce223d27bab11aca837a0f8a7d34d9ddb4c68f1851f821a8, 0xa53cd74316ff4e9a0863355445415e35055524037b25ce67f519e44aa5d0ef98),
(0x274a3cecbe06c74807603516588ccffdf4ac3d80a85887f810632cb84301a326, 0x17a24be3afbe8b4509a72cab5385cb6f5d06b47a63bf19b3ff4989c485a9f40d),
(0x32b31f77b0cb99ac03bfc34e7558f9d3e82fcc6a000be2c48a07910633afa9e8, 0x0447b44cc191da90e0eb3f71db80447217f422d50b1732a8993da80a5d8f5bc2),
(0x78c39dcf55561468dc339d46ffd09337945285e1066dfc2925d8b85a024a2752, 0xd691ddbb4e41ca85eebdf63d5c023e62a66809315e1109ce890884677ba3ac55),
(0x5fc75911a4920777c4502116deefc1a8d2f21f962b1e725fa04d6fb39d34e5ff, 0x59f36f7f18f5885cdff524d96a139749f3fe16624b728d507a460bb3497512f2),
(0xca1590e9152b2b49a6d0fc164e346e19fa62dde6f693b64ae38289d3ad08fa8a, 0x46a7bb3c1174ed7549e9eae17126455d535ea744936947f524a8ff308046dc8c),
(0x5c7152665ff0bdeba7f6e660bf66d5ad743d94bc5ba9b7f1f3d50cdd9d11fa1f, 0x7da23b1556e995c3a21ee9ddccccca4ee41684a40f208c39b31ffe9c4473a03e),
(0xc7f71da36361c73a55dc38774f2e1033fa0c09ce1c9557c8c29d8684e4177e82, 0x08d6e47fb5c2cecb6b22dbf9a04f0f9577c6f50c3429df92078edb8559b0dedf),
(0x6e91bd9f5264a13e37925900433b75364130b4cce6fa716da0101c2bdc58afab, 0x5baa7455506b58495d820c20f209aa01ee0f94341df5b4499ed23a51b4fd604f),
(0x1f00de8e69ac7cbfc75c789df3322813244907a03505907268954196baef0d33, 0x2892ce90f32330ed2800c30b4482b67a0e65fec841ba6feab2e83703dae040f4),
(0xc00133f507d8c469421efa3ad71d8d581a2f5b0b2324de1091d791457d300638, 0x3c76b1820d3ee982dd05ea4559e8e31b1aa3dc12fdcb67a2f86434ed34f18895),
(0x0af639e795e8269e12cef75604bbf970cdb172e066cde48d2f8e9083c60cad49, 0x1bd01179ce92cd290e414a74cd1de4870c479daf5673b2198082c4742426abb4),
(0xe6dbd27d5447c04418fa0a5d8ebcb9a0ede585388b73ccd54e97979731f4c9a1, 0x77f38524f28483203d4c780a0d0cf8bda2071037348db8ee6b5deabe3d242153),
(0xf51a8d23c95b70aad02dd904ec1119ea8d1e3e1ee405646e4c2dfd53336360a9, 0x426b2c9a1d703cf60c7488714959acdaae5c6aab5194513873e4b1a9c0f46c57),
(0xe12f11e70fe437b7f578d8fc33ae3a60a3e4d1ac1ee4586342944d50a0f6bcf4, 0x22d15d5835fa89ab563985b14114c9578bfec8d66dc7d253e3c6d9004419f5d2),
(0xe758860a8ec762d062f51e56d958a14fac6193519d890bb9bf6bc7ede988e14c, 0x42d9e0ef10b84f21fb88d780dcb4750f104386823b003b23ec41c297567ecd78),
(0x3c933fe90ba21e5cd822b90c78a54b7ad4799882ef91f2c6e423a39820a64163, 0xc1eaa0be531922e2ca5b23a56700b4ad7fc1613511f67f96b672ddf3669080df),
(0x4757576a83c9066cb6eb6b08e91a79c0df828e4e3c09ce07939134fdea857872, 0x13f22fb262d77f15de3e8388d9270c45818248e89d950d7b058ee6c60c38277a),
(0x35e6390370085140b19df9039a7fff4246570fcd8661caa80129d6b4031045c7, 0x2855f4bcaa9d60d86a44f022b3c28e8453cfb3ada58691f1b0e9cae5e5b9e8c9),
(0xad446e011f1182073565f0316d0a85f6ad5330dc6a8be4fe82be632e32126fa3, 0x240382f1decee3f51f92b2f81ac0eab21d8acb542f730d4315c194f628e83e39),
(0xfbe9e5f3eb01ac37820af7529c4221a689164ef5d77461aff82d64006a718815, 0xf2f30cadd85a2e0ce393e08844de9215ba2073842abf846847801ff612d088e6),
(0x1e675320d81ff430a0549aa2482cc9b8b9b585f632d329166e952f133b038135, 0xca0f1276c9c7d995c5baa5de2988700c2e2c7f1b366d1db1b44b4c9af0686aa7),
(0x176dc77023b0e52ba2eb8068ad27924b94c3f64330e0e85f3593917cd6267718, 0xd2dc62885df75b06f450686fdf6609500548d4f685d1a701d510f3fe297ca8d9),
(0x3c8536c232a02b3ab36feadbccc7c5417ac8394203cfc8dd99a0ab7b41a9c938, 0xa684eea5249cd12ad24dd8f173022ad18ebc7f52d6a3bd9dbdc4f5ada25186b5),
(0x48aa73abc61a76b6e54c446fba881198ec6ea003d63c54a5605a322d7af006fd, 0xc28c5eeeffb208822d0185065cf3ddf35977fab7040e4d4ecdbf99358e403a64),
(0x747327620abd028d9dad2b3638baca49263d170d0ca7e4cbd83a3a1b53cc1ff1, 0xca11df0ce8dfa09f3f2ef7ce5c023b6c927a88fe60ba9f3fddfbd69de536c2c6),
(0xeb71ab09520e5915767dc918814fe901a40427255247c02eb8672c5b95698522, 0x5fad7ae0a7e95b38ed6563cb2023b2a9c81b6901c007f1eb8749f56e4d48e995)]

/-- secp256k1_pre_g_128[2112..2175], /repo/src/precomputed_ecmult.c:10372-10435 -/
def h04_1 : List (Nat × Nat) := [
(0x2b101bf6c7763df572eda74beb179cc6af5e8695965761cef84443717ef5be6b, 0x00dd16c84e1d1a3d98d4629fef258421f66647197f89a597067fe8623f140ce9),
(0xa099efa82c6665525332b05075e81ba213976afe8f3b33ebca2a44366e0ab337, 0xf883957b5cf1f2b3ddd6c7faa126accafb1e33b5e5b753abdc0a99bd5d136c07),
(0xf4396856a61c3ce95b72ab6d470bdeb18cc107cd02f58f153d5bc99f8b62f95d, 0x6e3ead1aa8edb0b0067240caf3274e63df81c2f3e1ef2567cfd76c016e9f6133),
(0xda73219726aabb184a0aabe5a493d80353215b7c49458008bd5e387f694050c0, 0xe2075f2917724b686bcb987d85e954e19489af4ce7ce1b4666d84604e9a0eeb6),
(0x99171a1e19596183f4259c09b97402018fea44d14d0f2f4575f4d66f980a6792, 0x522b840c83e1eef3e7f2cbd80e07bec066af1bd2e7607f5f27a767b175219a4f),
(0x353cc6848a2c4f362408997a944889c01db7bcf69133323f8f0d34ca758cf08f, 0x1865bc62f4ba01567e2b283f702834c897effd146e0e5fa243d5124dce67ebe7),
(0x8b16983b5053d3d38e67c77f1b6fccc1b9ed7e3dd57a26d5deb242dd7a312852, 0x49d93f92fa5953d3956adeedcff49ac80caeb3d2c72a0e9fbe6c85e5d85d47c6),
(0x68f5dea4b1da327c227b2513083fb622efb367303bac02ef505e0464750cabc9, 0x26740f9c5d624b9daed2577446c9c742146de04571cb750c4356898fe3d31782),
(0xfaf5207fc3acf00c8e19d8bd7208a6d7cc93670698559244e74bb202020c699b, 0xfab7b44617a6c6e54ac186ac971de8e7d42c152708607eebb8564a0bcef1936c),
(0xc3d1aa91b541c5bd3da04707a2f01a16917c0420a26604a2bcaf5081e8d17630, 0x5b57806e5a58c405f06d7ce54e5f7b45c9b631a344c92c64d8cd1435fcd9ce27),
(0x23278a354970b920450db526391b30f254b5bd5afe2c1455623c99fa8ac8db1a, 0x864d81dae8df9e471ac93b74660542df3570486bfbd2144d55dee44190e1888b),
(0x602f618133cbca4d074de4ab29dcd1017c12c32b0ecaed25485765c5478c0146, 0x4c42cfb7279ec350f77d2da1599b9c859ffab342ce6a011f91c9e460027aa968),
(0x1dc4cfc70126c3b25d82aa463dcc8cffc545a9abc7962690fd4ecaad25843ee9, 0xa93579825c53557535820f1725e32afb6002b1b92a9b43ac18225e61b3fedeb1),
(0x3694f1216e02bc7914cd99108ca65fc5887a95df8b04e8b33c6c23cfce35af82, 0x7ffee291b1c41976d456e74288458b9ec61e57c99b8386d1d1c3642438555d88),
(0x743ada75a95964207b8725e0af06c2c4457be03ba920c3b4b65922b21df1bdbf, 0x8f2b81b55ac4c5d809cc23ed92dc1b435629b9f939b126c0b16d7175b40f908f),
(0x0bfe93977c7cc4a7b9cc42d7f044607cf047cf2e26d6f94f210af7d6b2420085, 0x625d60598f80dc8301ef2b510dee53d5666c3dfea02e1d921260906fae373d64),
(0x86c02c0e6ee646c8c29447517867a1adcb56ebffc8795f8373e6d8b91b240eb9, 0x659b5e9fda4b1098b76af5290f56f80959d39f48916477b40bfa66afc85be4ed),
(0x3b281045857f01e9995d357d3a84dc666c4f8f474b82ace5dc3a9229387bfda4, 0x9948272ccdeb154247c7c42f1f313dade318a1233f500f8a16d80e7fd2e9fd4c),
(0xcddccdd3b54d979f0504d33d46d6ff2a9859038e033087a3da9a5284fefc47c0, 0x9f2a13f8369313c144d91e5e807ddd650196c991a7eb03212133aeb4056683b8),
(0x98100502a6023ddbee34462bd02327118f8c2e9f3370808840352c34870e16d7, 0x1a8bfef469af3b3b1e381c08454a84ec4cf8fb66bd721a5747a94e901969b9cb),
(0x8b76757db2fc179b090168479b82124bc26092f9b35de316c90223e599978179, 0x47eaf326588e65ca541a71a6a1167321ee4492681e8b49606eaf9a7342b16f05),
(0xe66ed7dc897fb6606f44d8a946b0c61c45c83bb2d55ea771bf2571d67ecc3b43, 0xe536f79b8a9fff4ec6cffd4708a405bd7f1745f99374d810518cc5a9f214dcbe),
(0xe0600592cc9c0b9f8cead0656ef5c115ead6320906a0a0d22626aa13f2bc88c8, 0x628d94b78b84705d16e552544c138416e7f75f5dd549ff7ca42d51cb7f5a584f),
(0x1b0af242a9cf25d4cc758fc7063e2f0762db2e426b392cfbffc5ac0719152767, 0x33ae8aa5eec30559a3d28da0d9354048592dec4b02f975a0ed043fc3c856a2be),
(0xe204ffaa142f7eda3505beeedb0bcbf09b80924dce5bced5439aa4d6af5acb7d, 0xa2804d9b98e11519adeacdd1aef2c22ba02f7030479a559e6924db495d8911ba),
(0xafc40e67651531f6214ea1fc13173d4ca35431f49284596469cf099a0d515ed5, 0x57ef6ef41e480de932ae85963b04d2675e629707cd3bdb455896d33300b648e0),
(0x59538bdb747b641f800588b045c0e3c9729634065ca601d4690dee22abe8d226, 0xa030486a3c919c354c26547a3de9608752ca7a285d378e28652031dcec2d4438),
(0x6a91d34fc38d4028c63a4baebedb2a76b964cf441804a6f1efbe469aa997ed8f, 0x32500c836a0b52742d2ead10dd3e73eb45f221d1ca6cea00f2b01d75d9073260),
(0x9260e687b11d97ee97dc44ab5e21c344332ae39dc85c2ee8f7760cc28ac28d61, 0x0f47df3de8d8654ef7124f5e2dcd9d95c1d13e83a33e5d1892ce98516223e778),
(0x3490e7337a66f301f678561f4b4f293cb48820c3dcf9be06a03904104cfe3cba, 0x49591a797edb70ac74f8763685bbb22aa8169536532886f1f5ea07215e9bbd6c),
(0x9729f4fe1f47a9a37dcb1311ea9548a1d71d7a8127803c8a6ec0a6808d07b4a0, 0x56e1a5d4ccc4fd728e7ee569e22efea5c8f03d73fe8ab86c2dcb8af2eb17f896),
(0xaf63904f06da423d1cfd77a6680044f05e694eb580ccb4b1c37d8d83ae9c2caf, 0x6decdc2f5fe2b948d15fa10b4a7e2eddb8cfaf0f7c79a400f3d1b306dbe110b2),
(0x96271f721f4a1f21a2274edf87c294fd403cf0e0c7b7b1f2f242fb7a2c435a3f, 0x66ffbc731fc8cfd52bfbbca449f6e94971940077ae411e7951cf5b21ca5adddf),
(0xa42ef2151f0cc5a015827287eba8d960dfa5a13c7ee2696a95bd94ca4b717c7d, 0x5e491ed45f08a59132296929814608eee32431720b523a1ba4995f6b50046fec),
(0x193b3dede770a757d859c28968be2780fc4ce92b135bec2f7fb2c07bb862e5e4, 0x192c4bbaffbb735e0a1d5cd138de0556d1d1d740980c577522d19b5ef0716700),
(0xccf9a075da6f44e4cf3b4fc826feef3e054084b0e2756029e290a7ce8c1e8dc7, 0xd04f844dccf2c30b9020f0a2308219c60a5d6491ffe9ba67bf6b20c99a35a183),
(0x7ebea25b1d69bb43f60ec69ef9853208d3ddffb96dce3831873e7aced25b0140, 0x24540af2bf87d63754f1a47d013a3f382a9483758955dd16fc83e7ca4fec3d65),
(0x00c9eb4ac2a31b019b7ff038038478b6674662ebd729ae45d7111c6384a038c7, 0x7e2ee03dcaed3f4ebef2b90d78ae42a312f6e8b329d116a6e26bdded81f32240),
(0x45756e0c08c84e9ea7b23bc5cfd87b4acd0b290d86c547b87fed946fe5acd867, 0x9c3f522ce577c0173db984c3d7dc16d031326e2c85b084134611da0a70acdd1f),
(0x1bd5848121bed636c789e341665e247759438de710aba25ce4a0db7f13e3c0da, 0xcb0eb897bf90539963a8a7b750787430ffd4d6d79589c8e7350f43514786a90b),
(0xf199562c8e809ba584aa80a9759dd98c32eda7e0ccfa40630547ced9d9324dc1, 0x33519ead76430498949dbcea33ca14de2f7ea811cdd38f324009ac7ab408d1d0),
(0x7fb4e910e9e37dc1f56ac3b930589522975319e984dcb5596743d3d4f45ea6f3, 0x0b74a03c0cdbec9cf36b59bcfe3203dc5f4d94a7bd54c62855f0d04e67c960ee),
(0x503d08fd19839d78aca2702054dc4233c1a1d68a6b9cf1364c6fa9fe886c03e6, 0x84ad95db9a09eb87bd905914473d23de698459d57c436f7758937bd18e448e0a),
(0x335c9204e6aed3e2586d0deac87158a562db42c8e42fac250919608351e1e713, 0x15b359bb10f8bee2940849d4212fdd8449b60c5dd3419ce67ef9f0acf4c1c2f9),
(0xba68e5cbe0f7159f821117df5720bb50f218c2989ce3f5ef30c441342834bc9f, 0x2ac25bdd0ff34e4eff45a2ede412a287101ff44771c657f3ca57bc9440fa5d72),
(0x93d6e713311d843058c20267739c494b446d7943a1e47a0a02a5ec20877e6baa, 0x5997c19c99a2fd26e04710410b509f9de10bf6157cd4f24fdb56a65d201a0856),
(0x7a94bc1b5cc77a0a73a84fbe0c5d1b68cb8f46268ecc0c22ac7500a45f397172, 0x128c1c6e82a4d52a719c9f8c1bedf4d3032d3695016decef34af6b4d0578bee5),
(0xf031eda7c19383d945eec848f6f3e46775fbe52dbacadc54c213c596c821b809, 0xb4a78d0d1c17e4f5db81e2e7ee52f195eb505d36af96bea05170c77623cabab8),
(0x86ef1acd5c17e082dd4cb924c74d01950ce9f37560ca760857ab7d702039907c, 0x6936a13db9078ac9426d34b106d5673d36c3105c9cc77de1ef7e0ec24cf3bb3c),
(0xfceb6cc9c78e3a3549b9beeb62a14fb86d24eec92ab10bc940916b60cbc6d720, 0x7c2e60245f561f1ce0b69701512ca5189f8d9292ea75562f08b1787377f7583d),
(0xa1d9ed1b9a36f3481f426d837afe4380d475e36e3b140f3ecd2213eedfa5c8d9, 0x3683c97ca1273f29ec02cb779e9fee5478bd5e3be6aa8c6007d5bf07dfa558a0),
(0xd98de9996311ed55e15bbdc758affca13e8f629a77eb3dac844f90e051bd48c7, 0x8af6194d272a8ee768d1b8100778e5c269394353969d77cc07d449f284ef2a22),
(0x78328db7cd6afa29b6f1ba80d65f805060f4d2239897a3edbee8ba3fa99aac60, 0xe37e496f1d143ac48123377f4e136442629f8185c4996f01f35c7a9e76fc5efb),
(0x3d701493031faf0b37c1e1c09b29ee6c5d9747cfcdb26117223d1f66e336db5e, 0xd1e991408311b20ab41f7ce0ab4e9dd3414ea3c5b87f88b6648cd1d3e77600ad),
(0xf619acc047e0d4ab0bd5ba2a7a54ecc40e223986fdbf7a96e90f762ace288628, 0xf24eb63de1545d10fc96a2d70e7fc1eef9cdccdfcefb5de68fa4eca6781564f2),
(0xcca809b871f85a003344a8514f797fce91718f359e2fb489a1dbc00caad0a2d2, 0xb7d72ab8356583592258f260a1f62f97aba642ed382992f712b11c116890b037),
(0xbbd19766ee2c501dafb4eec030fba145aa26c45b51c1beeaa7d3ed1c7dc81958, 0xbc709dff70b3612e7cf0a6e89724442f6c1ca4cec32efcfeb98f1acfdf5250fa),
(0x6a6fdca0e4a58197267a19381644aa5dca8f0ee83a68a5f79c34d4afec1cfadd, 0xc28b123676585255cc104298d7ebcc706bd7ff6fcadb0c36db6517e9d2732081),
(0x0922e3e1fd401a22ee7d693de52f0ade9564af2b017a4be02c553216df5c8006, 0xa7b10065aae84a40b9b79e0c5ca8a227696841c720b944aa3b9eb1c41488f757),
(0x53ffae4e3526b553f92bd9dae3cbd3b3aff8a6dad489549038382f98a676eac8, 0x81fdfcaeb51f80b83d23b2228ce860ec9e665292c456fd23cfde43ed99f8c6f4),
(0x14a0ddd1c94596f89d3e7028929cfe4a7c2e70c6b55d15b9772278620a03d119, 0x2b5dc071febe1d1ddf7e148353dc65587e8c94efb598ee83806f1fbe976dd086),
(0x7368240dfb74f35bb51a25428caf3b90bebe272a739eff4dc0150f1e3d68c8f9, 0x95392b17b4c5e82e774c71687c46469f21801a72b15cbcd8fd2ba85ee4a7a27f),
(0x4c0a8053b9eab39d2396825e2416885f5fbdb6107bc5879e6400d01020580560, 0x85a222a75b7de532617f67f65408b79ef5a6f8266083c2f093ca97bbd7db5427),
(0xca0d66a824a6f8acbd9447a4933dfcb26751a26af5790a1e91e320533ddabbf8, 0x61cc898d4f8b084511dfd49b1ef01e436f7d7d080a5f16b21550f32979395d18)]

/-- secp256k1_pre_g_128[2176..2239], /repo/src/precomputed_ecmult.c:10436-10499 -/
def h04_2 : List (Nat × Nat) := [
(0x646a0775e62f6a36d520763b5c7fb081a3d7dff7355cba7645358a6e55e9d6d4, 0x3e528844e7380a6420db236622c936f9b1100046e17c66f7a6b1a01f7b7dbbb4),
(0x435565ecf3d6bc13142d7c477052da71bac77f3ea81107f2303030036455d070, 0x4ed5289689fd8d96343ca8f6c9f0c70fab6edc5c1ae96d159fa9eb4da4c9f6bd),
(0xd8b018969328544aa51f22fee605c6937a014aac0037316fff6a760b93aa8f9d, 0x63f51e42a2b879ad36d60719c1497b5ddd412782e4c620ac989f72593a06edf3),
(0xb94759504a9b305294af6f2b6f182e5e83a30abb47f0799a21ee5446d63d48d7, 0xcbc7402837a899bf79b896769e358ad69680277c34ae1018042906890c2fb876),
(0x14317c492972d5bec5a01b5e34842135d521b4671b262f0fc3e6a271ff8e0ef0, 0xcc4d2235d1cecfd22e6a476a7db483d9d318e79e4c3486cfc2090651c2069381),
(0x8bbdb3575b6867f44f062ab338928d5278c4b8734e95c5f8fcddd4e49d44f8c6, 0xd38d338732424054c05a67e6c7d00e621279eca2ee1b59fa90b97f335173a778),
(0x7775fef636ecbe7809279786b996c0d7380b00f94ed314761ab0b190f06aa685, 0x53152a73162dd659dce57d7fcb885c44342431532b8318e12a996ebf2f55407b),
(0xdb5e4bd139ebe377bca6495029e72fb4bc9b0ea55450e42ba7491c0c39693b48, 0xa6468113a5a796ada337ceb3238827dc416ca20ebdbe4e6214194e66cc5a0abb),
(0xeab057b0578c52e2eac11be39f069cf16ebf0631709560fc2414ff11f1c619eb, 0x5422023fcf69b8a8458e5c6c3c2de1e86fb041ce180c5f750cddb455fd023f67),
(0xe955fcd3c657d6117e2d43cc0651333ec231ba32418e6fe6d021183fe7f5e44c, 0xdd0eaa9865212f272454953a4c46c5da973095fcb2e36369cfe228f4828e6b57),
(0x5f5a3c5758eafc30c311f596f1d6605fec0f5e73eafb27a72a07f91b042d8e49, 0x03cde0b01d1fb2ea9d85a04aaa4536f5c6d9f55e84ca890ccf23ef2a5dcdf1a2),
(0xfb7a31e4ff0ade1eefffbd7ae04af11849c82cf26ad219c07572d92408b99bab, 0xea87aa0c431de57eee86bc4ebe463dd79e69102c0736345a5502b07f31df2a01),
(0xd57b1d6aa3e877794b9f8dd9683ee3a36ec18d3de6b22b44e411778d4bae1ffb, 0x256ffed6b85bd2f009dadb0e43ccbaec9fcb9e57022d88ca73f8d7abdc0f62ee),
(0x9326fc52d3a24a38ef0fc90e183697b30f726832c70bcb5bbd6ac548cbb8f1a6, 0x863bd0a0cc0a2bead21176f5c99fafa8d7d766c254d5730801a58a6f12889a2b),
(0x58362cd5abc9b5e657617e94620ad087d5d310d5313ef6da36079b4ba93caff4, 0x05f2a4044e86bbd8d73b673b2e432233d6923cf3c262e1c03da48d42f62fc52f),
(0x7dd488b9cd06e68f0e01b3a96b318d61b8c4cd697e9a3681034fce81841738ee, 0xfd7aa5ed0130c897cb770846a3d292a0d963ded05266010f34a99ebe099782cf),
(0x9bf78b02524c15543330d7d5a3b417051fa2a3246ba8061df95506400cfe798d, 0x59f537d66d2e6801d79d5a703b4219c8c7d0638576964f481042754890cf5a83),
(0x4c816973743ad5cb18db4f879bbd6d1ce71513b6eeebfc393663dc360eb3fc47, 0x1a6dc6ac37a49400a933ef09f00f965044c6f8ebd516c254ab142d890d41105f),
(0x60636bc2c74863435929640840f3a26c173f4e5a7f0031a835c1c56fb1051be8, 0x71a78b7a3aed2bc970a4190b0d1be56e0efc2e6b7cf81b08541dd8f5dbe88e8b),
(0xa6e772dec3e90a706c663fc94d5e6cd31221153740ca4a2f0047a0f307f8d00a, 0x25b8fe1f5c7271814a6175a810aa1eb8f1090221d78c32ca76ba7c73d0eed520),
(0x79c6653c60307215fabb4b2aaa8bfbaf1692f613166326c9019324e57cb89262, 0x36d5ed12b6b49496e2b79da4c0955cbfc24eaa3c204e28f8db1e7ed2d2197bcb),
(0x3f556b2e4530faded4774af4ce4454c34a2bdb4eaabda42ed4ba8546d646cb15, 0xbab1d3211ce843313be8996bf5c5c4e2c9fd04d8397cf9e058829389ecfd25c3),
(0xeda59a238d21fe9f5e11e0fbcf731fe2d645c52af3861dd93b7273b73fb3913a, 0x22f22f014ba320b82cc29c06d75b7eb7d3cea85740cb25624161b9a8712bbfee),
(0x07a1ea77323dfb4f36958adf071d4f033a2bea2ba9f62cb0c42a42797de68548, 0x4866ce25ee7a2b5da276f9766261318c6d2d7f51f6f41940f6cc3f20264825a0),
(0x0ad0fd3aad62d6d0bae7c51d590876e233d1028f62d5c178a0ecc3d9a323de2a, 0x88e024c59672469f54f4a64eb792d761d163157ded982787a6d40382083b0601),
(0x1bf19432f4044a6956d6e9d67b84a5cbee7437718d634dfd20706cdc602729d3, 0x4114b200afb6a1a075ef8e3e16c37e9b4f2acd9c3fa4e92263d1c4307c516aa9),
(0x514616f20bc2dafa8be3b9d5f00b694d2fb1af5f12d219afc35204c2e121d93b, 0x3e5cee53608a299cf67f4e0a065adbf257ba8eb70450058a74072ccf922eaf9c),
(0x8e3fece85338ed3193721d181cff34e4fdc423306a8e1a1c3b002da16921a661, 0xb095734b6736486b676dfc249cac99ef128945438b333b2e077664f820f686d2),
(0x46c06820df101ed2928421867d8a20b96db1eb9a0ae63355916d438ca7ad4447, 0xfcaa10f4059bb73fc48d1b601147b535d7d439581bcfe26f9acc7abcddf1afa9),
(0x56334df71f9b390ab001e406ab37af713fff8c691c2eedba0fec7dbfcf722b31, 0x22d04394340dc156a73c4b0bf49a6c938a3724c4047446904af420bc726707dc),
(0x202e246d89045f8c9dbe3dc97ca52d23b2fd55fa1b5cbd37cb8826630ca67c4f, 0xf4e6cf899cbcf0231c9f661ec45880727a6241e3513cb3659a2e7b20a17a62b1),
(0xc8054ee010211c2cf5bc1ff943552effc56b635cd65e409dece239e99b9bd4d5, 0xf50515af51601cbcde6842b43b854b050bf1ebd10678c46b46e2282717f31057),
(0x9c29788c235eb61ad29407084b9701a1ea3282ae56f984f51c62553814438383, 0x32111eecefdbef2e236469db4ad30e30c116cc4299dd286c2ab70ec49759ead7),
(0x5854e8d0b7b5c3947068dc86f94c3cd672999023367509e74bc1745c19a57ef8, 0x7e7901c50c06bebdf50c41134e0d2d3cedafec05417d45f2345b75cba63eb98d),
(0x8bb2fff0f45be789a0446e1b3547a44d1104a5dd9c8e50b74d0fa891f73fef34, 0xc332e365a5343ea66c571e2bc383f767efb979df72223a7935da917373b182c1),
(0x0ea88e656ee4338786165faacb643cda992f5656dc7333c45ad8b5618ccd209e, 0xc38c40d64a7a343d8ab357ab845725c6af9f4f4a843986f1fd0a83a25df0f909),
(0xc0c1d4df857c7ea613322c2ee0d4ba2aa3b18ab8cc8d9ff66981d6a94446295a, 0x247115d10e8eef7dce6ae1dbec9be46a9a284648ebb7a9187292fe059d72b981),
(0x91e6a4f9407d36002a808d8ddb723ebe67b8e212792ba65db74e028cec7fc72a, 0xef6ae56035f58be85cce98f7b2106e0a12e57dbb47a4a99547ee50413c5721ba),
(0xcd7496189a8c1d362995cf61380d036624a7a402e21cf07818794e08fb208454, 0xf3dc92be15d1f912a03debcf88afcaba2dd6ba2f1d23a4f6ba02c5edcbaf0bd9),
(0x99f5d12d02e68e70c304f3fa44eb24a685f63065af0a15e9f71752ff82943018, 0x59f1921ad97ebf3368f962c9c0a297b1dff9f980246d5dfb61168dc1da0b8a9e),
(0x63c6cd30f9c0709611656b1e75d17191a6ac02db9debadff7b3d602bb9f7608f, 0x2e43937370a41b8fe0e5f0a13ab75be46d8b1ef40ee717234b73ffef461083f0),
(0xb7407f2690a5ea11d9b7fc5517e6c1b19e04fe47180b1e9394cd5e975d184d92, 0x1b95392947dd49847420f7277a6796e7828ee8803e0d701aaed8cf7d513de6d2),
(0x24979116161c8840dd521e9627a50056c29ce48dd86b6297150f9a6de383fd40, 0x13dd71ab3dd69cf7384d3e325fb1664876f99943f7ba3649143e09b028b9a70b),
(0xf109b6c36122b2788656c80d4c84150b0b4199194650d96b6f2de8f7f9d73b7d, 0xa7457369bef8d54dc0a91d4a39496f85bd971f6b4a13dc77142ead5d791c96ac),
(0x59b303f82031c3704f17c9297fbd0ac136be9900a26b55169f0e3b6d69118df9, 0x30c7c4dd1666271a5ac8c936b35068c19830306d0c695e02d6c65ebd2fd678c3),
(0x6627359aeb3910db4ba54cd6c7b884c9a678621ad2bf6cd66023974ed462fc52, 0xbcbcf9bad2de78a7fc48673479379778feab83ddea4f50b2555c457da910d487),
(0x76fdad80c4fb507d9c9d230590e818acec7efc041184281e9212785add51f1d9, 0xcc8cc7cc349cf307f34adf7ef559855b9b88b70d7fc9d19a18cecddbe3a8c346),
(0x07893406e99cf08a52fed9cc4a9bafdb7f2380cb4c288700b983b791e1313330, 0xec15e1af39eafe5ad081acd3fbd5b8ecd0c2e83b7a5b807450ef80af2511d149),
(0x0c454aa4e8d02133ed93c229d0e834f5018f16cdd83a39ff3bbb1ba0838c81d5, 0xa98e61cf89c43808f4895924529a6e598af57be6debf5f5c67e3b3a873ac51f0),
(0xff0bc21ccbe5c122dd2ba8f96423901097dac1ee3957b27bf990b61172402880, 0x0c34089c1f7b21818d4cd5f89e445ec1ecd634f7052960da467cd39677bca50a),
(0x8e4486e349a0423bd8132e39812b78f03a0e61e9d3eb773586f1e2793731c301, 0x897b24d437cc260d52e1866f4dc222ed16bbf084c108883ca8a7b9b29a2053a1),
(0x4f4ca57f84f5c4e96aca30d20351089d0bf7fb6c13847584590fa5b44dc579e7, 0xd53db7dc1691556c36f1cb1f8a1b91a9336349758f28d0b717d250e5ade63a9e),
(0xfe8924b2d7a24fa905c618300aed8fba79b3a96f388b6423c760aad8cfc203bb, 0xbd303e29c6be0e2bf4e79df9cb17e0ace92c37840fa8c26a7e3cea32d0b056be),
(0x3099f75cf6a8c72f8685895d152f99b3008ed9a3320f3fc5dcdcd14dc46abb5d, 0xfbb5bc2aec76529ca278a32c2a95c2a704a939c4c0e2c0bc6fc20b2ea6fc9f1c),
(0x3b939f83f84126f3b6632de012405c9f432443222ac384b97415c2dc9c72f4eb, 0x843b7353ec454380e9d4cc2023a138b5c1e602c7f48be55f1d3c24caf05607fb),
(0xdc7506a04a50e345dca3cbc06384a938b032f197d6d309327b0c646d95c732d8, 0xfe942311f6d49d6299f9559a3d16f43dc6a39d4eb623f9eae8dde39d9bd5772a),
(0xf5a4c596c6996a35172fb61a2721d75c3dde68fb4abc9433f84d20ea83b30dea, 0x175e0d3e77d2f63bbb2ef9220d30b962fd783b30ef7dd8e35ae680bb9df26572),
(0x7e9038e2c499049fe5d222ae2f79f4b1373c2f690262f133cb9be1f9aea4029e, 0x3592e66a343335bc0e0162766550a3631d7dc64b2223bdfe7146f32b8025c737),
(0x80f22f73d16bfc6fd6c28e921f990eb6e2cb803ad920850f0af489fff62b1f41, 0x8714a5d3c5ee74bc073e11fd24cf4d80370e6711c726ed682a1bd77e7b503b28),
(0x498a2ae9e86e53f843470a58ab96fe0b007c3107d9d23535fc887bfafe0c897d, 0x47aa9eb373e841e14260f6516ab3081f7ec3809d53b8609ec3cced3a6401bb53),
(0x601af64cd14ce184ca52c5427a78c7468e9c069a80277b6d960ddf303b3a010e, 0x2900a63fca1576d011b46c2732c87ef556dd579b003bcd599161cd20ceb7fa18),
(0x8fb2e0f07b2fcbc4ad58b06a822aa683957f2bf105dd59849a1341ff2d74a25b, 0x7cd823508d797ceab1b386f75d5f82af06137dc909f6d6e6b7c68cb475070aa4),
(0x336d780f0e9d14e8b55a1498072c63bc83468eafaef3282c9bde58af6a69e6d9, 0x092d1004be45bee6b8eeba682fd0187aac3e6679f4fe0fb00b723214a63d2261),
(0x507ac721f4d587044f8d2cbdfb03aaeab0634303cce3e1a5e4e47efa90d5872d, 0xb89a398de7db05d7a105509397b83d609ba53c9539caaf0e917d22c8307174d9)]

/-- secp256k1_pre_g_128[2240..2303], /repo/src/precomputed_ecmult.c:10500-10563 -/
def h04_3 : List (Nat × Nat) := [
(0xc42dcec13bb7fb9629171026f66c012c992c604cbea189a046e688a9473ba343, 0x8aa37731a53223cba021bfe7c413929d8fe010ec0353464be3c1ce02e54f7bb5),
(0xb02ea2c3cd6093a2d5e6b5c45c510848857eedb650038417d9f419472a866a2c, 0xebb45c50cea190c61bb7c5058cfce93bed1d8ee8c75a5bf86ac9c1272fa5527c),
(0xf4d193d29f20ed2e273dc2c9aeab43b585626d4159b7edb151e17c45ef70d84b, 0xbda19a3f19b834a2c493f8cf14cda57901f84b6c611ea7e7280e51961add0974),
(0x8740dceb19eac62b75859b9e4d0302d3cc84f6bb1ff6e857eef7fb64fe5f1bb0, 0x0a729eb04783205a2e1d5b6e7eb5221cf2f151de01489d1b1d98fb68e7c6ca49),
(0x79ec464a85a29f08d910bc940449ce8850aec6263693bf6c92a5ea2384fcc9cb, 0x77d170f5b52ed0b29aad476d085abae3a1d7c544c625ba2cd44e68ea0ef53b39),
(0x4f1018d5dd54bb71cbc0e29b255eafd46fb3aac045889238847efcce3207fceb, 0xc32819e5d23cc2e773a9b2a0271fbe3ba64531d92d41622224a2f64e3be7dd8c),
(0xdfbf19362094e85fddb25de68ca85cd4e53768ab81780eb033a0607bfbe969a1, 0x25ea0b5933ba21c32ac5f1e4932debcca2ca3abae0b7c67193d97e1daf80e563),
(0x184c66c002c368832c1805f1086124490940a371054174f9b67bb41a85226649, 0xcf63fe44f1cfc7914fb4a24c1e0530e4736f815ba910b487ec4fec7df8662eaf),
(0xdaab3606d386e04ee39a8a51a8242e43ede9de09f50322e0a0f410f50f043686, 0x0c0ba1c40ebe7d106fd0d0ac4e8f6e8cfbb2b6823a9d55e5dbb7718ed411718a),
(0x0a887f4a5311f252ba0219d1f848d33426b0e21669020dfa89dcc3397e04530f, 0x5a7c04bd8c37cac7f429bff3eda01dcea5b4fa44eecd31952878f79f9dedeace),
(0x1b315664409feb984d5dbfd5a85afbce4784a907b284958d28123f617c2d207a, 0x2972cc7cba348e5a5841d4634597fd5784eea5baa99bdc373119c568aba205bb),
(0x154adfd427c30d56d5f5de1e0d7e84656727e69f82ec8d1f019dfa16b1fe4984, 0x5ba86e8a324b279e449f61baa7fa52df882477c4921f2079981997753e0372b5),
(0xdebd69f9fe55c15fb28df417cb1af3c2585fe89fb44c2f9494fec0d588480994, 0x98d8cc2155c16d24e8b1b8314fcf616b002564ff9345fc9ef8de3cd757f9708d),
(0x9fcd34902a7c54f9a2855fc09558c465e0316c3dfb72c66b71d4492aefbaf9e2, 0xa7ac4160c2b5a41689e9e49c8d5aba67143e1de826498be51cfa691ff7f5d14c),
(0x59cacdf6fe4bae99598fb1d2df3de7e0586fd792eee0d9bbfdabfa738943a727, 0x7c730d347b3ead16c74d349e191c484f624599c40d379acfed8d2341160df035),
(0x5ce1abd1fb291d97db3a4c9ec4ace63534e6b373407a882167722fec07fb226c, 0xabc24634b4070973d8a110255ff7a81b0a39de6f05275d3f7630de8f023b7526),
(0xf783628ebd0a0b4f6ee680015b3014f5e70897d0ce159baf3afb1aa30207d73c, 0xd06438fd5b96b88c94a68b6b1f5fbf326c7a6efb83b2f1df2849f809cc39af61),
(0x7830fabccc7229ee35c7130db441d2ea9a988d4772ebe00c6c159658537ba0b3, 0x49e8b58e6aead1783d5c901fa803a33f78acc88927f2d57e835aaadd1b38fa7f),
(0xc930390ea890128621a4399eef9a4a906416d549c28f748206252fab5fcba9e1, 0xfa0e87da3d0618a20f54e8fdd14b4bca3bab137cdaab019704d110efb161cfce),
(0x2a0da867205719176f949876e5f00ec3ba0924b0a5e758b52d0c23dcda9cd28a, 0x96cd04fc69350959595b4870f6df11cf90c1fa1ecd04ddd1975d0bf0fc907647),
(0xf64881e260da581af576e92e03968e24f2bef6cedc1c9c53256374b31446fc83, 0x808a945b660b67f443ef833db491fa562aacec09f8a2dac3863b72f50e7c8b94),
(0x970bd93305ec5f0d3a3cea175090f1e0c181e4881565c34133017f99ab81f052, 0x4d1d270fe284774afcbb6658d5cc019b8eb30bdb39464a796ca1431f1ae9fc48),
(0xdfe94b3124c4541f4723ecfdf5cad1972c0588860928307335415bcee4c4779a, 0xcc283e53d547606aa0fafe8c5d3403c5d047aff68b194b1c1855a7ab9540e23b),
(0xf1813379673ae5948fa30bbad8737d0e16c8bdd18f7047e3bf33a39e858df800, 0xacd2c1a6139a2dbf9b008d50d0b4d1f220bfb9d8c24855d2ed54440ba87d294a),
(0xf4fbc156fb631bdf51192bd01c0db0c88890ec979c368f3ec21060436d423740, 0x3cb08cf05b07deff431faf91e1874baf9cfccd3adf487f4b4f69026c1fb7149f),
(0x124da4e83b079d724a7a9a725cc45a80cb92675e74541bbed36224e20793de6d, 0x3e700066f12e0cba4d6200fb2a7595541cd15531ea065e6ac6fb4986548d00e7),
(0x749721c4455e78261de045bb266b97d06c2b112d02ac8c16428ce961b78d1138, 0x27556aeda3f331c2fe95b237d3326c7d025bc59439f07b87086559fc055a3032),
(0x62cdca490aa58f5521c60dfed50fbf58257676bbfd4c4e979ff9a91b7627a028, 0x8bd49b9ae16d10ea7ee1528b4f433e8f17c4a688a7148fbbd10ed605595c37b5),
(0x64d650f139b13aa616d3b2275ed164b11cd3a1e8817593447895a4b1686478c6, 0xdeeee52af7572d87f339595b79643402f9e2a0657b95ba426b83d87f3dfa5c2f),
(0xd08a3e5566c636ef3417c17cd8526df637cb935edb00365a1ecc9f4a009ab59d, 0x2db049c75eec51763fcd350233856da4e9ed32fd24242a549c9ae462240dc103),
(0x8761705a35bcc509afa20d6261859afe9715478249ba47c6f4b8df0e30f20d89, 0xb34c25eebb0296224929c3db78046a090fd43b9ebe2dbf64436f0df8adb726ae),
(0xe34539334ce22643146cc31754e7ce7e0e35f6f40e37b307c4e9e11a3c6f5f85, 0x73ee178a941e81beff22a0caf2bb45131afdde7b336a3bf700ad05c1d465d97d),
(0x8389192f6609a7e7ac8e6f11fdbfce8e246b36bf95e0de27fac3608234ca917b, 0x957073a550448ec29d67b681ccfb1aa267c88976e53c99bec68c378c0f2b636f),
(0x8bfd70c067bbe25fe2e78029a97fd863bbf287fb7a24eb8de5a61af4c3c5d387, 0xe2e6c66bee7265cd5a1b1d644f24fcec8b59001a6edbb1fd5d894740f3f952fb),
(0xa5d0999aa05f0bb159a1582d0980520beaf8201568875269fdb593e0e6ff257d, 0xe34d97205ef05766676b62b362ce4b34fe6d27d1a644050bf9c65c34c423635a),
(0x44e479a7b949c88b507942e3089ffd9d1764518592d4e5442827baaa5d5043ce, 0x7b86ec298c12c463b0a7141624a570a9e2b10d77ae12ee232504edde213a7087),
(0x60dec943d9797811706e0251e0abd0ca3f37bb8d559213c43176ce3d352aa558, 0x2dc689f4a31c59f6c5181448d698533516b0764f8cc6fd508bc109d669fcaab8),
(0x5ca58d385b5449e60f93c5c535941b98d4ab829fe641bb24af7e7ab301f7709b, 0x82afbae980eb6f48110ce0907f39ddc0945d9d84d5d3feb74d96581ec17cd575),
(0xb775967ea1b1d60c9b09cf3d26bf86c3b9a23ea3cd32913810099048d18b031c, 0xd2b7169becfa105570d885c4adcfadcf66f12d8c846f70b7120040970840fef1),
(0x73d8d4f67d602f6103c3595fb9aa05d7a23bc4c11fa3844e92e6b79a40220f96, 0xbf722a2cffc9fee5bea185309ecd14ecbb17fb3d568fe85d331575ab2400ce3d),
(0xe8104df9f49f78220152bcce79c6df0c8b1e9745448c24d61e7b118099182b75, 0xdc2fd539ec8f2beb1bfb0da00f95ffbbe14fc6821c5d502396b1253f82137361),
(0xecd72ef6fb6c432c8e1449b6d16180e5777e55244900f209e89e995c546113e6, 0x1671715d358fba99e509f518e14586004252913e268129e0e00d64eb7a26e135),
(0x0e3b5ccfbe829bd16f1fc6b5fa6d7c35464bfe107e9d6455a9907050a4fc36cc, 0xce7abb9b5471c1a6de17a2c9b5b671fa296cb5f010b5ffa331e7a87da28044f5),
(0xf3591a02ffab91d4eb7e75f7f4ebd22c41c1ce4f25f89c5ed7ca1ab927107734, 0x345a2e11f2bab926487c7d535314bb6bcf04746bbe2edc1018a57c2b94fa4b3d),
(0xca4b045dae54ad9537d184f9ffc5a950c61349d3227ae1a65501ad97cb45c635, 0xe30f817e255ebeca352f3c24b441d1e94660f4560ce9cd72eaf4c4b4d7c1d806),
(0xf7cc574054a9ea61fb8ebdb7b76a95f630094720675aaa72dfd29bb66f41ea38, 0x9d463d8cfc5424d918275aeb5e046be3b3dd7fbff52d49900f52c81eb2556eac),
(0xf75b5f79fba3e3f8ee64bbef7d34e8a9b4fd9bfb27b6a9f876b1f70ded6ab6c2, 0x220b40bc5c3fb77b72c48e362745677f7e0e8266f85a14f9d4030ec090a43faa),
(0x2aa367a25060236a627d89b6ad0a398d89d86a64735a4fde0e88fa4c0d9cd450, 0x2bfedc2502491b1a764a802bc4d77d861e70ecffe9aef8f6e829448cd841fc32),
(0xff7f49c111783cf6e7da1e2215827b07a1078ce7b1eb325765a37c38a141620f, 0x69550c9e2e48058e8bca8b5421251dfba488c585df644bead519acf654702733),
(0x31d053581164f4eca45f7338fd3ebb9076d017b45e6796016fd02a0b5c3aa39f, 0xf124319b72177ff10462fa902e1f8d23d4d3ea0ed1bfd1fe6bccd92a9963f575),
(0x6eaf0eddfd1203eca2cbf2f308da9ad70c8a02d3ab5f06eabb88fb5f7e6a3bd0, 0xd9336d012d8e947449c521a010a3b83a815a0c74a31596d4125909c673e05f08),
(0x0b95a51977991ab7fc3943acff5fa88d68e759c811cb91b9e9a1ba977eda1347, 0x8cf2cb5f446d448a5a98fbfe75a2ffa69758bd1536eea87f533822bf6de5ef23),
(0x4e5301d48ce5edbaf3b1dc212e804e7e1fd386f56b90eeeada6c1c58211427e8, 0xf503ec3de169fdb2e1d2f684cbd9d684dcabaad9376d96b76fb0a5d801b9f0d9),
(0x4fd1a9e509031b43715f92cdc49c2d0afc7c2b54ad61d7a39142033c3cf49cd2, 0x73ecc11cab0165bc3ab4b43becef694a2d99c9be8b8771602c885a6c8e4adcb1),
(0x67406865b32543fa5ebb7fa4a8d8fae0384070fa2e8a4b867451009920257c84, 0x3fdd9ad593a4e0b94f4451f5e3227df7e829a45cef3d271f3fd85896bbc62008),
(0x14b955aed6ee5be6ef3dcfa0edac40a0de7e8dad19c8dcb4e4992a65a46569e4, 0xd4b920b621823f818481eff6761353dd7d9f31c25ea9d1ebed60a5d5fa2daf70),
(0x14f283bc5608d5fadfaa0b3ffe42fd204003e434c6368fb722ca5f223339ae42, 0xb2415e3dc3aefd3fc644d4bfb0a87fdbbf0ba6302baec8c37c1577cf9edb7397),
(0x3fde0c677d3ce20a6e6275be7f80cba85416a55c058dfd098e733a321fbd1c1f, 0x9b8ef7dc610f192c949782f90bea1f089a018b258926389a1155d0331adaaac6),
(0x9c55e669df5f3d05f15c74dd48290540b993bf4c41dd9247df5332a20ed17267, 0x23db0ce930c97665175abd7833757fc18c6b3c322d260810981b4e0a6e4979f6),
(0x0bde84dfae141a0d6e8da60b30f41746506d2dc34b3faee7d8568a9282968d16, 0x45a33214ff1361dfe724697b99a6c686900374f36c298dcb468f38c44ab3ab04),
(0x1940294ab8f3c2ca45f68f454c60c5a1e5d97085946b30c054939dafc99546a3, 0x563f9f993816c62a1e60ea7677c61bb0848bc926e76e386abfd96bb4ece3b81e),
(0xdd6ea1e0d0d13e647d0df92ead22d838757a34d6373ccad66829fcceb32ccb0e, 0xc018e9e36bf4e8b2853ad27fa49e5ff8384b557caa00c3fdd8e008f0ee33c313),
(0x657847e8c7844562e26656bfbbc27b84dc10473742c4dffec06696165b7fbf19, 0xdd90dfb658b6ada4901beda90a4a9a8a42c6a4b4e79a41725b5f6ab6095f2df5),
(0xfb7024b140be9d6e906d26c2edb781cb49b8e71f396b8d3e352506b3fe3dea6b, 0xde408ff4e50b2328b6ad961e9dd1ac46fea360051407061c5a0fca32eb08efdf)]

/-- secp256k1_pre_g_128[2304..2367], /repo/src/precomputed_ecmult.c:10564-10627 -/
def h04_4 : List (Nat × Nat) := [
(0x2d29c00865a7b279d3a80179cd3e8944b3f2be0c49a398dfa3113350d1d8e8e0, 0xcaaf127aee704a4a6580274859649e4525c55005f2667ee992e9d923daefcf8f),
(0xdb69047479b7209f4de8d42ba3c1be3a39268589a7c336326d87c1cc53d5662d, 0x90de8be95c3587aa9913ce32c83e24e9c58c1fbf2922c63c0b777770fbaa4e00),
(0x9806506f922e4f0aafd54ada258d6fc1723c7087ccf13f0adf247356c941697b, 0xc07e2018a8cab84137698eef3d31cad1b97fef4977b277c925245a12f16bc237),
(0xab868d3fe6da25ac5b11c11228f14621661e0ad1e33d25eaae1ae7af60e40187, 0xee24b698334a98501a1195ced57a7fd94b12c488bbd301d4d47d5f133cbf54ad),
(0xe7561fd19d2a8ee612056be174257e283122f366abf66f4931fd89eefd8dcda2, 0x2052e74be3656d8c5c766ea73227b75b85bcb1908a07918d5a8a80013e166d5a),
(0x5f19523d84bbe307be08f2e0fa844cb57b562f013995082083c2df9be8f21e6c, 0x3a96fe1628ee1dde2ae9ad2d5724eb88333775426e91acb9d9be7c417265d7fa),
(0xc9fa46683c949b112422ec1dc5501efe2fdcad17255c754569837d28d9c10cc1, 0x1aaae75d18f691accf1dcd8d9e8e0348b5b6e73476d47ffab5e23edec7fd1dba),
(0x1da90e2a1e911879ccfa084c393b82051799b2d415a42401b1ab793b0beb8d8c, 0x3d3f7c6911ea4d38046cbae153b3fc3274994ee51f4fd3322da4d28ec89c0b63),
(0xc6fcf10f3851e4326bd504ac0b7847f7707e4098d8f669153e6f89adf31b3186, 0xd0ac89f4a16a63d86e36ea108f8ee5c84e2705afa9c98bff03ea525393a50ced),
(0x15057a2eeb56c67ccb6b7d4ef1257ae003cf236b1f9b6588fefd7f4616378233, 0x4dbab530ccc0a7a8c49543ef5e3d0a876f205a622f9a90cf5054bb0fdc4930c2),
(0x37eeaee072d5ac0e6ea7337dd07ddebd45bf1cb78c02dea36d1e419f0308b20f, 0xb0c644965d9daa1419c77249a32a3a3da5761adbbf5a394aebb91630f361d506),
(0x5a207bf83a8bd0e33c71cd96d928bdc5f1d6ce8b7ad9bebe61a273622557745c, 0x3accb757fadc9b6a2a5494ac15744113ee878901323c613819ec766660f54dad),
(0xfe08dd6a1a0fe3255a391271e81befb6f6b2ee08907046d1642d39bbfbabd139, 0x42c342d13535822ee4ef1b4369f204c3665d23261379b0d6c520c64e0181ef40),
(0xb7d262c908dfdbba6483edcf38044cadd6d859e003d1ddaca39cb99978706111, 0x96086350b308b3976a007c8f5181b5ba30bb4c110653d689ee97fe4728d798e8),
(0x4b12ab2e23b337753ae97d7c01badf5a7d354b57dcc784076836f80234130c86, 0x419d4e0d9f708bf402e11e73a1fe58152bc9649e49ae45c0f52fb8f0f23c450e),
(0xfc6d2682a96eccda4b49570c8bcc47c48f362bab7750b4f74f30cc49d8e88dac, 0x1af5652730264580d1f22612e90597f80694aff09600184808a243acf4beedbb),
(0xc7b9c3a9a189eba054742c40c4afdb9e5e07e6c0e442cf0632e9b6551e607e8b, 0x5bb682772f2274db62084cd19c1a545eef6b38b8d4dc3e30fc58042ff01822ab),
(0xeba4d34230dea72f29a339ba3ed4306a46c761c2bb6f962703406fa750dfd956, 0xfce17a0f23d278b2e3da1747706840cdd31b01a58793506d2155cbf5dd237cee),
(0xa4d36dc02177d47135b4358c6adec2853595dcf46cd9acc8944a569f82c04155, 0x85a2977963b21be0e378fd0fb5a60fdf65f3e45dc2fafad1013377f481f00281),
(0x4916d063ae8bfae1e3f5bf56fde73abe0eb165aa4e6d4a169060ac9576109ba2, 0xa79167034a0b40d5f967a08ca536b7c83b2b0b4f676386564ae9b4d44c3f22ee),
(0x761cdb10b296603085f8f1a4404ab49c9de0197985817f97ecbae4120eedd046, 0x1d115720763b545d72f8f50ab881e7fb9789f0ea8dda90cf2ee2f3a22e193db7),
(0x0d7a25704d718e92df85541b490bc13e860ff014e8ddd9d2e05fca2b8dc64ea3, 0x5e454b9d2134676771c0e035fbc6dec66102db85aa3acacec158f43e534cb90c),
(0x2af6004f7962c52bb0ebcb0632975bbe0a6b9a994dc5a5dfeb20a43f3d4d3bbe, 0x6988a9e226f8cc1503108e3eb68c6596be1deb1b53239933d91e095dd81a14f3),
(0xa92740e53bab08601127571e5d33184fca805d1875ba495974108f5ca9504255, 0x5df2851e2eb76b71066dfd3d03aa84e096d49c8510daa44e68d75eb6c6d2379f),
(0x90d0961a510d8a6b60a87c4493a0c8ea768567700d076057bcc7ed9870014939, 0x74d4753c1c91308866b6f7a8a2386ad37c13dc2f85b4b4d3f8d7603accaa545d),
(0x0ce52beaf2e3a604f62bfa2792e2e0838dd5c6a6ca338ded249be61104ecd12b, 0xa869de73738a0a2b7c824444925f3d9bdd08670a8f8ff1a1a49880082d5c009e),
(0x99ca8dc210e3fcd2ffd39a471c06ac49122154416cf16be7cc3e350ff3cd05c4, 0x78087a80131adc2c6bf26309ef0720be4550fbe800912142c6ce496adfbc4982),
(0xbe442cc29f5a7bc5d07ff1f4322deb90cbfcc6a17d8e611ab51ec610a202d1c6, 0x6250f2c4680ed9348028f2c01acf5bb2fb3d1f25e324b7341115612877c084a2),
(0x53f5f5f4037fb0102130346b51b9b14fe75d95f9b8f80e6567770bb0e4ec8e54, 0x8da52b53c6e733f5aa0dd2ef23e2e1c224c0d571328520f9cb1cc5dd28c62f93),
(0x206ce5650e90ebff7d799e3a134a56f6a897ab19186ed55411de6daa5c8c4d6c, 0xc2ff5d22bd2d6dca7dfec5c2e79d5320aaa5d53c38ae06754dca9a96a6a75804),
(0xd1dcbfbb87ee2fab811f2a72726d2b5402176a20cc23f744faadf2ac7073f443, 0x0106c63b41800bb7bcafc27e3f8337d8f71da693e1f4350c1870f968edd17db9),
(0xd21aa173c54376ba1eb9d43226ffc9aa0a516fd0ef17c2f6db117392db749328, 0x37cf5df4e01480d6604f79de63a754b02326f9a4ed74cb247724c6826074e424),
(0x5234b024a22c69a7569acfbe2cbb7ce615e56383f8e1e03178dd54eb7d1fa3d2, 0x2beae442651db52d62bc3b042a5b343ab4103895a74aeddfd91896308bc000cb),
(0x9e6e98759f3e21aba709dbd4f598894df5048dcf5ee6cb6a50941c1335412f64, 0x2b670199e38f2e5a424dd1690e04718943111033a7e4f4a92dc2690631757ea8),
(0x8416e2959a718e7710df8a9272de9bb289232c73832597fcd28f29288743ae45, 0x6ef49202801b408ed81b79044cd1f00220732a74764c44db4c77121f1133d139),
(0x852a4fa7048a3b2f326405ebe52ba2dc27462f729ea3429bb108e27ad53561a5, 0x3e06c046ee0d9c236b0e441c2cbeb672770b99f78d062ac6a81ccaf3a562e520),
(0x2880dda02dbe56beb93b876d3c083cedfa6097a1cb234c5d3282942e3677c1bd, 0xdfb0ea1092d46bb4fe95366c5370dfa23d371f7840e919d3bf9664410f1bb43a),
(0xcb6fbc029e828d7fc03dbf8699a676a037b53555275c86f07709ff89f1819c65, 0xfc4e2d9a3657739915cd50c21cb76cb8ce9161fbe05babdace51627786062266),
(0x8087bb5bff1c343821b24106606d0ec30abc76a58a8721615f6305eff81afebe, 0x578b287aa602c02b8f5c5030ae9a463223a4437e944f4353d9bc17de0824ce72),
(0x369f54bc30f2c90c7af0def22517ce58f8ae829d124ed482653a28fb42d3a33a, 0x0b8f2eaf35af7e32c63c97aef596214361f466bdc4cc1b40b4526157b9b59d16),
(0x87be4c4c01b2f87153bb2448ffdb6ac7df2946286be49eb6edd3d5331fed8f7d, 0x7ef474bc6386c0a15771ec5421cd51d071fdc8a866938a2adfe6f4ebca0effb1),
(0x7b6678f018f75bea8c310eeb239edbe280393f1b5eed1cfbc013fa291e14715e, 0x78e8b8e2666ee69a7388275d2aa1bbf3d985707d3dd52890c181a8b1f38b1fd7),
(0x089ec64196729e022a9608f58fba388b77d2826d6b37caed90d27394b160f135, 0x5def3142108d7387019ee5a741deb18b5e3030b0d919a1f80ac94157a4786cff),
(0x2cbec7393769090b3aa2acbab78c3fac8b83749d641f931199e6d1a636177f8e, 0x3140e7e757ad2d5acb34a007f4f26aeb67fea7cc8902fbad2ca92083f3de8886),
(0x678cefcda2d6a58b53e7b116d03020ae29d576184663fcf02ebcf0eebd946908, 0xf45be9e013298eef37cd56ee932b2a4118834fc4331c1713314bd0280e6a3491),
(0x8ddbd278adcc4ece4692305a94cdf0115073b073c88c1524b43f1822c73ec0df, 0x90510edd3c52c6c8caa9ea1ae28c77845d2d675ba33b102268b93b1780fc5b0c),
(0x972bf082b162ff5f22b149c3d238260c607d7878aaf707393041d0c0d7e36626, 0x4685b3baf61cbca4d99b64f43e90a4426eca9f24d0235324797505be4c4087dc),
(0x42af0d5266604ab97de801c54514d23dd8c1f760bc86280f540cc57cbbc97230, 0x05649b898c9029ed4357160bd97b74d5cced066898de3b8977192bec1699ce38),
(0x0536677087296d1d8e6138bca9a1a0c61748ee214c0410a9fa5623f3d7bb30ac, 0xe0683a60786ba0d352619c2f672d90ba7c297b2e59591f31fd8b8fd8ed5cac1d),
(0xa03b6284e85bb18ff04308d6bce40e917d5d0ab4ad9202559de55c11fc39fc24, 0x2739ee82c22cc34823fe7235a939db8ac073005be014b5644cad5a8fe8785493),
(0x2f394ed7268a53a6bd9980550a24f7ddf5801dc999233a637332e24f26b66e97, 0xb52b4f3ee934ba86d1bd3714a26bc4c00e49d09f5d0554138d3f4cdd73918d88),
(0x91773010527e537e3aa0c19a611ef5fe7740bcedef0b56ebbb35a12c7133f8ab, 0x68f937b328b6480927e1063abbbc36b5b097ae5cccfbb96500f4814fea9fb5b6),
(0x2851bdbfcddc8af17a20c1aebd529df828486bc550a00b24763600d6904af615, 0xd302c085702e27ae6d46c376033035d6ee2acfc83b7317585d15b2d6dccb1356),
(0xe986d7ab025499f145610b791b47e5978be3d3635a6f29c25d34da48314bdfef, 0x0d0638dcb3b3c15010ec63b961104559cfdb182d31c41c165f53c33147de35a6),
(0xbc45db2c5639b2ce2dc1c5e0d831d824ab44daca7fbfa099b2e648e28f8bfc03, 0x5d93e3b127b289ad49e327400a9f53e079a80580826068842c1f9b5207213e32),
(0x4145d67e47d9809d2c67b4c849e29101849ef512ca7b22fd667498cb50a8dfc6, 0x5471f4fc2a4f7f829708604d90daa64fdaeae007d6290ea94922173a4513f096),
(0x2d157f7f4cd79d56bb15314aa738dcea427e3087e7a5afa3c1ad740f5c686825, 0xc1c4f31876159f4b94e7a29a2766bb46962a4e213a7234eeeabf1ea2296fc1c0),
(0x2f42628477040b2e5dfe26cb0c12a81bd6e896968226987b361d7961a73933ba, 0xbdce120d141b2879effcf601c75532f8a384f942879f24bd45e483d18144075e),
(0xb419cfa76cc91302e683c9c0eef23ca7bf9f8f4437ea220ab8a1fffc3bbf527f, 0xbb86954e290f2419e4891a70b48806b4a911e956e3cd0dba3c0251e3aa929517),
(0xcdb4a6f95734164fc7af2913f0ded9392b17bd09b03698dcae2d72d54925236f, 0x89eda236bd1bf5d70e500c47d4996451d57c963c04f125ffc9ef8e6eaac8e7aa),
(0xed4ea751a45ac44a33e6f2f150392fe8a12a8c4c2233ca3e321800f8f408c256, 0x9c7e9da74a2b349aae9266d4d04d912ca296d96398ace64acaf40634970ffef2),
(0x9b06fd38fdf963c2830ccfcd1df08a7384a74b02fa79a87c96decd0a3cfbf5d3, 0xe866461ce7ee6015aec4ba3cd4dad0d63ede27a32a1b20d4eb29de006b226416),
(0xdf11481eefc1cd1a97e13f1ee0702056c2b7894bde1a44ef5166e5211af6ae75, 0xa141185635429fa1ebee1f24de73e2cd80c76661717abad4a8354aba222b7e02),
(0xf8328d010b1f3fb3d07bc65de807c61946e4df15a518a84523da032d12a3c9f5, 0xe29dbc747746d4789ca9a6d0b5ca9ebede1749147a709df0d5e0f100cdca6216)]

/-- secp256k1_pre_g_128[2368..2431], /repo/src/precomputed_ecmult.c:10628-10691 -/
def h04_5 : List (Nat × Nat) := [
(0x3e3afbbdb7fc2301f9a135900acc4fb5ff0d1b7a92e09e461fcf00934d3fff86, 0x1fc7f7e1b9821c51bd44c8d09619aeb1a5c2af1c3ec28742f0f262126eb6ebd6),
(0xaad17eea683480159cc19f8b69d335b478ede8804c55166074d1ea9b1ff86125, 0x0e993b8cebab89db67cf45bf361ee910dfa1749d26b488e8ed6cf9df9d365257),
(0x213fbb195515c686fe8f44b6fe26a178286442b8fb29072d37ce9972910ea35c, 0x497b951b7df7f4bb2d0ee57719876203d68c39586278136218e8969ded52a852),
(0xcd7f72a578ed819e3e93321ec8b8c7a7eba91b47092821a292493790370120fa, 0xa3d51c7099280f2cfa2c537d991077e6ca4eac9193e97ce2d8ff5fcf45bb1148),
(0x70a360c700a72939f9a3a28a1d1a9e2f8240aec1878f9b19068923e0b67f3b51, 0xa1d9c07c53a4dbc22ea4ae36b6a0bb8cdd175c986d2f61b73eb05552ad710259),
(0x544a615b4f8e2b660fa1dd1999e9cbe8eedc35fd9cda6d337a07660121b5e46a, 0x75d26db9c76fc8d765286aecbdd9c97fd7ba7a9a7308e6bd75150b35ba8451e5),
(0x4218d79f76a073d7af19b26574d5b5c8f8b779f736c23c92a01c34678ec8acef, 0x6815f63149073b5fe65c05f4eb284c2187e60355e207cbdaf2c01eb9becfb28e),
(0x6ada26381a82acc18a3337598635f83a03deca5d9e4dbb3864a2fc1aa269b0a9, 0x53d356da65f7526f60d05f32b8b5f8412e77b6f8b61533bae8ace2295eda6c08),
(0x5fa99d01d9f29a5975518e987c382c418bd46ea47813f5793366618ee118b09e, 0xd479d23838deb81bdcce381e4982652af15f6602dbec34cd6fc0e82d33fc3b39),
(0xcc6ed57634cc67ab6ea676d72fef96d30bbb4a00b2b7fe4412d0195b44d76f6e, 0x0b15c15ad50999b8aac9e5f15834284fdd801b0d0da4be94f520af62f7bf820c),
(0xe4cd0fdb5323ea3fdeb10bf890a26b6dff447679d8747ddfec32ee3a40ffceb4, 0xfbdb40c8ba9c4357656af718db7629c4e2caa87bc41f8c48d5d86a30d220e1f5),
(0x77fd722aba51b929ac1e3ca1a23468330b3c1fec7a7565686afb7cd89b88a8af, 0xd02519e10d6e9cb44f378ee31df4bb746b5b555b2c7b06919cf90f5b3de98505),
(0x4d391fbca9dd3d479d3ca57bf299f4f86291e52395ff73e2665418c2997a41dd, 0x5cc9ec33b55e606bb93e9fcd593c43f3e5d4a3c439ec6fce1a9ebf25b4ce899e),
(0x740bc44617b17b845c99d63c3c92fe812eb232f88161a2ba83f3a44573084e97, 0x0fd8ec6e0f4f956771717481c1301876fb10742a99028c67883254aff8355464),
(0xc258c21cadeb84535bafd8d60cced030c6aa12c41bdcc392b2d10e5b01b46e5c, 0x7cdf037f3e60bd7f739d08afa20de5f2b73646a75ec3e2af4cb621395d171d31),
(0x8fc88069733a4d5d0bd80261c0c9ca65fac22a5e1bffd768dbeffb8324130d44, 0x4211a94bf88c042d54d37ba741cee691ca5bf0a638f0ca95954f4aa012fc946e),
(0xcf62ee1a40321c247fbb0e0bce99d314f5152de332b827c967a61bb90c96ad4c, 0x6284a7c3e64f7b8d4bd978c077dc0d22e61373366410d5a19bb096401ec4a3fe),
(0x53351f8a4d447760ecc8844319b69160bb00b3cafd6fd9d06c0040e4549f8ba7, 0x83844e193816e6ff755c148fd5488384c7c1cbb88c09ea0a16352bcd377f6b83),
(0xa02063ceee2c919194d0e1f62ace9407baa0157ad2e600a9e173348a1d06bb0c, 0x630461b555653f52da9b40eac4448a8bfcdaeeb01007dde05f4c186e9f146339),
(0x70bcbdcc25de17647274f374196608aac360c09e951b98575a6a8d6fe1d35660, 0x3bd5bd9b716359ce80b5e719a9e1d40c3a1c743094a82b64a90b0f4edb461d74),
(0x0df8ad7783cfc3c06fbb1fe52a515de054b161c174155fff13812d19aadc8fc7, 0xbc4090f60416db0c9d34ff20a0b7cb99af38401b1264c60444ec735580069569),
(0x2504e9ccef3998005f2fff3a452d56fa8788df47e05509ed777a9d9e540a30f9, 0x73c506a2c6f48efcaf7f4d2fab5fd8336fd6514edb690a5111659f797390612a),
(0x24ee07241c9203343a6a6fa568979fce18a9ce0c819e3a61571141a35bc97025, 0xee642ecd605b84e868940a6ccd7f4d93fa0c681602fb0bf6ba22427cb0bd7b8a),
(0x1ead5ce09665c05a63cd8eb112097f354961e12b25c03093e1c6d9197a3929b3, 0x1800df5da1abcc4ab1c32fbea1dd71207284b5f5dee7009dc2f4aa6d7156fcc3),
(0x47cf2ff226084f8f9020b0dcd838874b160c69ef2e5e89c098e7891eea05d507, 0xa340d3df129b5aff1044d0d2c3866464bca2efdc8dc83516cf8fa522d5fb7d48),
(0x4064fb9b8e2e4952a218bb8eae474a4d51f050a83f9a7e75b04e39c442d6cbdd, 0xff9cec76a2ef193092d3e02aaaddce0d18ea66c0d1adfd2b9c7886ddb835de10),
(0x838ac8d6e58e20d0321e0150ba6d401fcdd70a4069d980d222de3353fb81904e, 0x993a6f962909dbbf7b9a6b2514153331b1ef24fc0e8927105f95488ad95614bc),
(0xa5e36d83189d43d234d6ea260ecf59435aedee72bc4cf3855fce9b5ee202f266, 0x78c02c3ce25c3b899dd2933fb41435a3dfc2d1b5e7ebbfe954ab1c9479822c55),
(0x9e240cbcd357c4d334f3120958d6f7ad5ad79e7a9b51f5725ddc8fe31fba72c9, 0xaea34a5ced60a062ec1476b7b30b3c9c68cc5e10cef9f0eb6729172cb511f06b),
(0xad1b0646bb3153805c22b91d1ee47a26dfc9ed5a860be0c7ea8daec3b6dc2eba, 0xee2e61a22499c5091a910c9eea159873a298daa96d30d8bb353b995592dd2083),
(0x4f7b088911d8f64a550d8c7f011ecaa6fa12df74a236a0cc35cb7cd35b0ec72b, 0x931af41b0d297e18b4d9ffac8d7f869129b94250f1de1d993e31525c4dbb21e3),
(0xdab2a170e4108f3c93fba87470bb12fa834d027435695870d2d3523c93d3a7ee, 0x262f12cfc37f010ddeaecb24d08ce35b293a5c6f1746651e7bb0b2fbc573ae4d),
(0x3437257b0784d72e419e5082311b5a66d499f687c4bcfa317abc7484a3cf39be, 0xce9bcf076da8d68e8453fa143b06d7c0f38bd0a076f1cec2a49b3bdaa5c398d3),
(0x4594ae9f82611ab5bf786024ea34bfaf939fa40934ad155c9ed5e7360899545b, 0x2255c7f562b0ba72c3834e72e77b478d77d3f15e3ee0cda4c4b3f928ead450f5),
(0x0733770512db06fb036b21fc26b585a73aebb036b22743c2f13212dd81898819, 0x753ddd59725fb0a2561cf461c587f3f8848b53ed29283c515150c57f50307887),
(0xbd9158144d2afef3552d81c108c74abca53f4c2d0654f72e3f2abd66d69790ff, 0x1af609e17f27e373b42b3277a5f4714a31ae895b95e0c5b950e7ed2d1827763e),
(0x8a11cd4ca51dfee228c1ced903d8870d677827401f49fc73d4ce56db915bb557, 0xd30ad7eeae9f9c97eec278229f47100eca46b3f0273397196be0f61956f5cf23),
(0x7929b5f02802bfeb6c23e68865b0272bcfd058d7c0a45ea697d46d876f9bfcfd, 0xf9bbae218039783d4d1e366c32a890c18c80d1cd41f08b36963b54e2f4fde5d0),
(0x80df06ac1d5b966f8080e79bcc9f01f3d55f88559b1a58bcf6e4c5263bd89d01, 0x346926d0a59558a92625614bac010f365ee5c3372660fa7ebe41aac941136538),
(0x745454789ff383f294a92b4f383ad13bed4b01dad20f4ac6efc83315be5ccaf7, 0x36489f7781ee77fede1ea165c4cf2b5fe82173619e760ceafae777cbc160fa9a),
(0x2c6d35bcb213a8a095c11fdb42828b7fe562d7d5f877de67de62bcd85af8fe85, 0xaa30e37034094f9f4502206c72f232982e60139c2bd3563144dbe6b4c75d159b),
(0x8353657a9d934eb02811846a728cd1624b43429d304aa7be830da70fb2e338db, 0xf8400438020ffa5d28189c5ace693c8aed4a4caf3aff83b166a9d40474e02b71),
(0xf216e93a54ce56d7c7ef6336561a62992177ca734ed867f6fd1a8ddfaaae494f, 0xdb0a3f13a0fe8326063e8fadb11cc3478da296b702f1b6723f43ea44acd30611),
(0xdc3712219b5d73f96562baa4b62ec7f42e9a3dc8de6e7112273d0811a88324fb, 0xeecc9092ec563e963720acaa929f9bb44f1c90157c3300fb581b154fdf57c004),
(0xdb34736d48f0b4f1e1ef60296ef534aeb10f047b4256516dd449907236649475, 0x1c29cd6cf7a8c786952c34c9b93e51881a116966164d0fdfdd1be4feac586bec),
(0x0a24845720468424f355af5362f5bcf1971b09ed358fbd3378fc729703696add, 0x9a703d6137d0deb8a3767a56c2e24573baffc931bc8506948c9a377626547803),
(0xbb7b806fa9ac753bbbeaa42931f68d0e3eba38b98fb25ed240c9faa3124436c4, 0x8f812574a1a8bbe8d9b682e3d9b0150c07c6ff9cf9b42e646e5836a812426752),
(0x6703c476fc28a023f661942769e0f068489344aa74495ad517b096ffc3ecf446, 0x8b48023f7c9ba723584211a306731e14f42699ab0522e15eed3ac43d28e2a38c),
(0xbcaaf8e4bfa4b448fe23f3b7a1612b8214cf0daa349463b71b44ba61e2dbf6a2, 0xbdff2700e2cc953fe9d08835dbe8793bb07498ec68ccd736d6fe1710d5c7f404),
(0x906b4fda1a5572201dd5b446d726a2e6217945173ec74f7bbfed87919310cd49, 0xd753f2dbcd2c4d28d0304bc478690871cf8384902d7f4f93441a74d3892653cf),
(0x9ec09783018f7d955180e326e1bfdd04fa5369cdeb7869058d726ac39ef93d5f, 0x9cca8057994b164153ac68424d28fb70ad22baf8f894a049d1794add97acf205),
(0x53347906b75440ec28362a96f114d2f36f823cbebb0030f3a2de331412b8209d, 0x0ccb38e0471f8abe47ef1bf029550ec5595816803e19034ab06a090cca0c1fa0),
(0x27c53f2961b7048093e24b18eb357807a33e5411152153373b98f80dd23a4870, 0x5a3f4b8de18636c471fc70e59ac8c4e4703fa5fa880594fe2f3b888bda575601),
(0x921927e37a115f9a12a616bacf55c21322ed51a3e75caa5beaccce75de59b68f, 0xbdbb7c7bc1e4c5b598afb5906263d77955884e7117864ae2e0636c4d0727b141),
(0x973b3c876eb81ffd677c692cae432751efb3e6091a3d9ff8dde6cd6e3f3ea8c2, 0x340df7710129510ba4112c5dadbcecd98684b0ae3a9683b849aebdd957bbb0ed),
(0x20b817def05337679938ef0369204700d5972c3212656ce40205e9ac1b01ae71, 0x2ae2fe5be2daa0161c65c35294a0abc5c6b1ce64fea99c1234a14aa88395707b),
(0x63e2544f7a7e918107a347b7f72eb43dca9fc5d63d931402aa6889b4a3c95876, 0xe62aee6d20d714ce005cdf5218bd5faeadf49cb1f86e6067f91cad71280d16b1),
(0x2f90de1071508cf0b3583abfc47d762da69dd472e41834216ac39753e22aeb80, 0x5371bebd04a0dd74625e5e025a118488880f3a899c23e64b76193abd3788d389),
(0x8d423ce8faa96d0545e37cf75e5a351f7c9359c20ad1c48ac9adcf29d2ed7209, 0x83d4b83dee76c401a18df7948a655c3fbb9d23c15ac0bd6eea80b1290bab40f2),
(0x12fa41425e028aff303111a209144242a9c91d88055b3ea3becec11080181efd, 0x6b95b3708e792b57ac10eddb362eb10fee5c3b8bb2e37d4dc4d2ac40e8c3ff57),
(0x923ca95f2a3bdd7cd7505632cdf2d730ce70196fffd0cbbff83478828a706f73, 0xf8b0c866c39b6173b383983b210cfff31903afdbcad0b2ee3e541ab52746abbc),
(0x0844d53e878240e963e3875a728f470464ce3aa166209776a869e0d688893646, 0xc60cd29192bf8c1ff98c47b4a713bc751c84f9c719fb32b25b855e736feeaca1),
(0x43786fd6c5471d8dba277ff81005a5df8838299f66636b2a65e7ac21f1dc98f3, 0xd292a2c29c8c5bbd8f79109cb8706fe7745ff884f98c127e9142f52a56091b51),
(0x6d1bc28df5e9ecf638783f71fb98a2cebb0dec458b07257ce94736dcae36d7ab, 0xc2c54192bfd8044786214cf7a28108dce2c00e072321638da0e8002388d549e6)]

/-- secp256k1_pre_g_128[2432..2495], /repo/src/precomputed_ecmult.c:10692-10755 -/
def h04_6 : List (Nat × Nat) := [
(0x6bc4ef347f74ce3c2ef3f89cc3e265d56c742cccff84b7f67d8956ab16ff86c6, 0xeb4492fd2d2ab04f1276be35c6bde62dbe26a6e460c5c66b8b0fccf179b46408),
(0x6af45075fa810958d42a756e00d08d5c0d67a62bcb33cddcb35fa99bbf678b38, 0xadbb724f0e7682c7678ffc3fab738666886c7b9384960bfd5287ff9fba5bff28),
(0xeb6d8b7636466365a96f49cd355b7460939f340f905ad1caa24e8a6655260600, 0x7ae9cefdaea30b7fb9ba11ff603b81d241f7a187033f95c33c2bae0d7fbea3cd),
(0xbd0c22332fef7d3f6738dd694bad4cf5b34d5e9bad6500af11e4575e91795068, 0xeaba5c4e2ea0b21c0a9100b666823a4da91c4d573aa9d13676f820be9d1cf209),
(0xc5e23bbdc50494193483e083142491570aa56d9f804374b5054c987952b7e392, 0x4caeb8cbf684217fbfdcd02e3aa4ae3f8d59e766855b4fe2f7f8ac7a6e597751),
(0xb5717631f3aaab925543edb03d21c60417178e98dea38bd810867cf88c92d2a3, 0xe74209cc0324a9ef08b31874524dbab4d2bdf0ac8f1d20e9a02409f28c11942a),
(0x9c45609949601f2fcaca85d5d30a07e1b2d17b7c7b838cca2fe4b5e95d305cfc, 0x2d7a1540a109dc7c2841b61b31e50078329273c3585c8674674ee06eff04eeb6),
(0x52ae2946c0ab36c4a8aff17573b6604be33dae5d73228d5498c77a518aa82f63, 0x70e23d9b66061bfa4d03f899b65493f27179f5c80643104d24dd771c777f87b4),
(0x149ec3bf55ff462ddc1ba490384081e989db9ac2c29efdcef4f59f0a0394adf9, 0x059c1d88b91db9422ae8fbc7ce6951c849642b5cdf949801341a8bc1789dd7af),
(0xaff89294d66718dddff8353461538da3dbe14a09c14d05768a16381042ea7ea7, 0x71866bebcf5887a5ece2352acbc256dd7b6154912a88cbb9a924e7644d59266b),
(0xde44f4782cb30472ad52d49b303e2b4133887eb738e2ab78da7bb406584e76fc, 0x6798ad8425bad82c057c630d7ac8ef21b13d08fa830edda7eefd23c9ce482bf5),
(0xe0bc7a7376169366c172c88be1ba02c6b3a380eb2894e1345a2ec7c739682e61, 0xbd147eb933b18fe8dfe7c0ec87b7e9935ad1f7c2ab5424d3c23609cd262cb2e0),
(0x5ee34f272af69f339473cfa70a536a22ed26139a71cfbb1127c7a476032f0e6d, 0xc1df8f96dc0d4d82f6a57de985cdefc51316bf10dc3636cb80762aeac4e13b8c),
(0x4dca3bc177fa7a639b8c274dfe157d7b67296846bed5d13a68bce5e8e599a0f2, 0x8fd2b55836fb9aebfdb3fd758f59c8e92fb4896852eff2a1d01c32c53d2fb234),
(0x554f6bc187560290ef9ed9373e993f5498081034a03484f5bc184751f8b48136, 0xb454c3b7dfd512a3517834e0e8c3f50fde80863a1e0fd83d2064a6bca172b26a),
(0x95a81b50a6c0879a6a960b2e162dc22e955af87cb539eba420b2825b85592ad4, 0xbe55e8c4dfed22d1f5872b75f38aa4c37c7d5086f67011af2651ab0c0c45c712),
(0x907b6d539e496a6e358d14d3431f558244a4f8a6ea291d853efb8be7477e5c4d, 0xb3d3d6943853bb9e67817fad1dd7d1d5ff33e2002922665c21f872e477150eac),
(0x8527c81bb342576f67737cb233f17605c8884c646b7a83575bcccc09c7f17aa6, 0xb6d675bcdb8d524957b1930c145777f19cd47b9d33386a645044e8f5877604fc),
(0x8e1e3a7d5a320d924ea134360f906e9bbc6bf83a819b9e9f913974e2efab00ec, 0xd94f03abd81d5f25c323dad4ea792c500792e07c79281c4aff309e0ff418b0b9),
(0xfc02cb93be1f4a8d09acbd86bc68cb6add0d89495cc7434d72cfab75519a8d76, 0x71f7a532729e45c598a6ceb0885a256effe4cd9d967e84e98b73c7727e4d4f94),
(0xcf981302a2858b3bb1ac44db4f08751bff76357f9b2ed6af80a289b10be6e7b8, 0x237e9c12bf23666e70205ded984f1fa2f1a8a828b88847bad3a1be888d73b528),
(0x3e6e45dc1408e9203ca74cbbac8d50cf71718d1e0ba05228e97dc4bea8231d82, 0x2e3fdb7a2ad3a805f61f287ca7ef86df961009e1f0fde8a3147746773b1ef848),
(0xbb04779507581471108090888119b0ee3ce1b2b2df2668b3749b9eda707d4657, 0x95a72efc5f95f3a6af5ad6977dbeeed28d6ee55bfce29bc1bc43916875c67587),
(0x4e015d42b8b02c104aba31034ce04cb500fe356d8129193903f5d1b968dd6748, 0xd35b20e7dfbf6d71d94e96ffc9267422746419fa811bcd2dd3942c0070a870fb),
(0x609a4c5790c8b2109eb7391bd68d078e70850af2410df86792a3745924a49daf, 0xf3a6327ebc965b3a581cb14e78a4390b14431d00d1f34e8a0e35502f0bad0e98),
(0xccbe07362a955ac04e1b7558a17ecf61b9ea0761305b4aa1780bab03a27fc730, 0xf96b7c166c98a1d765ea4e3ae0643298d981a0124b03fabb71fc47f91c92cd3b),
(0x6ed6028285df2302e6b10ef904e11ce09143c569a84388c3e2151c69c3ccab14, 0x675ea3b0687a3b78e8fc75649665e62fe91b0d1c258526081d591ea51ad196e7),
(0xbdff05cba0cca14c55b3c5923851553270806177443dac7f4c07ff69cb49d8e0, 0x5149ad0486cd8ecc274a72390833910ff09d7993aaac97981dd106da6e0c9a50),
(0x064ce68ccc70325b22be5366579aed1caf9f6e55c2c7386eed5799114e2bff2b, 0xf8c899763c8a9a0eef61dddf2213cbba11bf1be1eab6506bd596aede45cb1cae),
(0xcd42e46f489150f3dcaf3c06e1e5a2f6b40de7f5626107edaf01471a18ab2bb4, 0xd9c250ddd2026967b4c921f4e253a78817f11f89f679e5c281dfda0a01bcfada),
(0xf7c29007e7145420e2da7e8e3ec4daea5e9b121c35c4ec4359d55f0189619735, 0x664514064dbda93e637735a56a06ddb05ea2933a36cfa3ddc2ba4a33eba493b7),
(0x6339c1e1d494485626b3d2214715835c377609d2d91150f2c5c1f6795e93b7a8, 0xefbe6dea47b4e8f7ff55a20d8facb8c1d10a696098762d95be532fc73ed59b28),
(0xfccf1f137d22ed065f4bbcf1e9f4eb8607b1ec78d9f40b4daaf580143489b37b, 0xa5a77c2fef9facc3881559d9d9756b4d6646beaf21b3511c64a4b5507dbf3e10),
(0xda97ff1006f284ecf123b55417bc8f5ca13434d758ec3d4e935c1600404f62d2, 0x65c2168b4900330df2f1e3d1cd8ab92a4f308222881a493cf8b301ccaf12e168),
(0x6676a4d5428a24ce36957556c1b44593343ab6f221f0b9bddce2d898333e4fd8, 0x45bddca4b9332535f5f4d3d83467d793b7afcf5845a19593854b1c5f3daf7b41),
(0x791e6abecf46142054a22c7cd3deea4153396e7a2a619ccd30212adee57859ca, 0xe4033bfd08c55c93ec732990aff43ecbe2ec07dd17e4ec9268a7b0ccfadd37a1),
(0x3a7c7bb2d5181550a78985aa84b73246c66dd9474bd7c5ae20717f31af0018a1, 0x2388eb17e03cedc5221f732a9e505f8ab6c38d25184afd1437b52d45fe9d7459),
(0x249a2db186801c969cbca936101381d762b740172b454c3bef720bc5413ab999, 0xda185c4176aa91c1d783cf9c85c075e82f708e0b3ec930cff71897b5d1d5e7a3),
(0xb25e0d53b4e0cc09985f21e0c5655e5032c0857fb792b13614da68856b4f8590, 0x1bd17aff6b02e3ace1cfac42fd28d83700ac5b8042b21055d6b84e675d83eda2),
(0x7360536805e83388a869db66f110243ebd1073f7517fecd601359eabb7862fcd, 0xe9c7a02d0842c5a60fa434076e12d41fe767fae55a75e913d69125366d5f9d56),
(0xec2f0b5671392e9702f8a0c9af259d422e5b52da5e70fff97115c96177f1b1d9, 0x47f7debbadb24e590c8571fa98e56d32d49e072b4fdec8182049498e908183a8),
(0x7d7a8fa8250dd43a91a2ad2f320e18c1afc25595213778e5cbfa60584be2d378, 0x6b48ba1689627d7702700f1109bc20d7fab2b07a413f752e02a0e11160fea3be),
(0x316a71ce52b6723ba67aaa01e26082c606e59490cff4c36605c695ffaa6713d7, 0xd6f1c1a07820c61212b44cf6e5cb4ba184152ffdcf82e0200e95af73d6a1cb9e),
(0x21a2a8c30ade89ffc32e5fc6ead97a229ace885711db9930ade6e72a9fbcca51, 0x95fd3d0438df517b5712aafb432f0e35726fd438a2b941e47c56c1cf8882e4d0),
(0x3f181867b3ad8170dad46c68f513afae1ad2cfde041f95355369ec32728f94d5, 0xa51a94e4e9f20eaad55991894222ab0d91abb8f038b00a915f09df10a2317527),
(0xe967313911be39bcf11ecb9b690ecfb479b7aa6d3158ea697d0092f089f63c1e, 0x0c100cf76f8783e38de2017c032022a0da9be6e8613075461f98142d4903abc2),
(0x61ea8ab01407ac7e547e94b06f3986c6d3096d432bd08cd861554fae9008b122, 0xe5c55bcca6f713a976490488e69f1cee150167f4283fa792a105ca8ff4a4d182),
(0xad8fae7a17457fdd9f4815540239a3f149673df724a3a402cab73f93bedab9fe, 0x53b7dfef7966c4bbbb01d03712563f79485172202ed375d4d777efef50f03e6b),
(0x8605cedfbf7f2e54d3f62f2744d9d436cdf9974c9190020c586818bdb6a829d3, 0x5af8a55f0ca2aa1a6209fe4da7708ff6e7a33df050e85873d786f54b7d946b88),
(0xbdde544b465b9ef47dcffa5a7a794cf96e83253c2f22d4c8cbcd2d6cff921d87, 0x6c5363677ba867f55ede7d23081be6ab0ec97c8df88a1a7414ebd6ce8caadcd8),
(0x31882a45e8b088dc93eeafca85c28f4962a47bd2bad916bbfe3e734632fe1cdb, 0x0b3588f0c5f86e1e12ab833c12e028c9d03557a9e02aa1a6fd11d69355f176bc),
(0x17be405245800f9edb510b72603b8e63e49fadbd62798883b0d04f76a5dc1202, 0x1504ebdcdf8855ae028f7738e40d277d81667e55a2f59cb9c9e33a4b8d32fc54),
(0xc633bd33bb697d2a6bfc4e69707f2b28a303eaf5a601b08c9c56afadcb629537, 0x86e3f4132d4764dbf2c06b92461c64f39f3b7f7833139eac2b4d59b7ba18cef8),
(0xf39e208af4c710f7190881f3a33cd113633434b63b460062570618f58260bb52, 0x90c56805807b36f6272e2b664d943c33d0171ee3ba5cd4e2bfe52f92b9e2e62c),
(0xce98439414f29607a54ddfb372db8ac5ee4e5414f59f73db89360232f4a16c54, 0x1a4805a1d1057b13c72f78354d40ae96bb80542dba5ebd7f627cfbaeba24e0d7),
(0x5266e79f81107a4fba571af10885d75594504122a15a673f6257f633bb0a76bb, 0x5e7ad1d09cc85f128773ca3977b55c2018d38200fb739918d3b0fc96a559b457),
(0x4fb9de5763f47aa3bf370113c778bc8b675070095126f5c11ffc158fbe7056e4, 0x2cd976368eec71970aa2fa3472fe3db229fe02758789d75e52e875531486f7ef),
(0xad168024a99eddbdaabec8406158cb924ae7bba8d233745bded5740723cc0226, 0xab105015968e46738ede230bb53c4be69ee6386b91ee03cba21f7040f14095de),
(0x055829aef7cc555b733aea9b0f1b307d277923ba148ba8d55a7c800173719cb8, 0x6a7b2eeb9c9b95855403b47d6c60a7bc382969f6c4bafd3d3c4f09a763267689),
(0x2119f2338efa4e0e2204bbe784e9de014e1e4c43450d5910960ebc386b78b935, 0x9f219dc3778544c67a337db969c513a852acb46934a7195711c36913b8e7bb93),
(0x11fc3e1b09491be9d7de53caa2558d36c52274983f5c1b3257f0fe5bb1295bbf, 0x1c69c74decb059336aa6b6c0231105ad91b8d188d109ced62198c528844cf6f5),
(0x34b6ce6fea6e514395091bc867e606ad5e64ac189908582180abea3bdfd2a908, 0x5b6ed904f4bdbef3fb9e41a132c7a31328e9f3254e180694403396422bccad6d),
(0x6c225dcab45768ab3b1c567d97ef745cb326fb3d2db6ae2e22a40c953610a84c, 0x7e85d7522180fd8cebf63cfa2d843bdb912fe042d00ea29cd72fd768402a1084),
(0x05f776e541dd95c232fcc757014b688bcbfd20200e7043e32a7071445a8ed7d7, 0x3b8c5c78fc6d83543a09de0b9a64d529c116803f6d0d62ff2a20b3698b273c0e)]

/-- secp256k1_pre_g_128[2496..2559], /repo/src/precomputed_ecmult.c:10756-10819 -/
def h04_7 : List (Nat × Nat) := [
(0x3e26d8c5531543ef5e37eaa63244faa5d5371e4816fd94e9b8bbd932891b0e23, 0x30a09d1b43a4a036ee1a53bc06c3ebfaa5b4c70f6d8af4b0c70faabe0b79bb65),
(0xc634da91c17a3568aaa970ac26553e4506be8afbee12c85e8aa0dabff18b36af, 0x649681bae1390a7bd05d34bd98d87ed416eb9f99c606f46d6d522019f1a925f0),
(0x0ed335d64d643598c6eab4eefc242d7e4e8361b3ac8d747e806962df2e7e9a7e, 0xf0e7c3f819c97aa72334b69098f28bee5a1552e7f578d5e1eb56b600fcaa93e7),
(0xd37f8c09411359ec3f63dbf22870ffb2d10be1647553f28ed72d95851e521581, 0xda7cbfb9ba3ae03672df1be756d3c9be831467d4cbe3b51a191e47b49d1f1922),
(0xee3121d7c7475ea5c3aae0611c6b420c05b32d05ee86f91943c3352e7515c360, 0x703b2e3797bea3b29b447411dad7b12db809164aba690281b76f245bbc4c1686),
(0x7b42c9bc5c2b114ea0ef1a59492a61323f5c7290427572b5fe98017d1987a12b, 0x5cf76382e85b73d756fcd92a99242725dd57edde30ddd9c9dc7dcd95260d27da),
(0x9af5ff9ab13a53a293f9b6b9a0f925d47c8f9b845f6933c3ad074922f8a555cd, 0xca93ec9e89954734c8aa13fa5908c85513a9ec196417042ca336f1fabe5d4153),
(0x5ebfa27401a2df1b06e1d591f70983dca5b2b850856bd7b659c818773848dacc, 0x0b0adcb96ac23c642904c15e822991e846e12411f472e0fb5fb69fc7a0f7ad18),
(0x93b58d08465e5eac8518382bc1f6ebec0daeb4867da65dd3ac125e6cfcc81e6f, 0x54be8918c3151784d74646c36bca9c8b8a50b8d863b1db8cf4fb3ef51a24a4e7),
(0xa28a579b4fb46474ffc943ee32b406645bc868990edaa11132c31f1dcb6fc858, 0x40ee91a3d56256480196605f0f650ab76e059b14faef639646c9b1539af14670),
(0x0e987909781d5560b71f6029750d20adadd7cb47f90c9078e8de5f2ad606ac9a, 0x07121ac34c80dacfffea346f5c5e1a81c55318deac8cc90710274f18ee9819d2),
(0x291ff11d158780d7fc0ee62ae395456e5c84bca975e84a7d1d2b3bf461e1dcef, 0xc5c8cbe8abb6854b670298ce8224a94571e79e379335aceec230366a53ec2616),
(0x4adb13909e28b53e42bd9e57373aa131efda7d16b8dffd824bd9803efde315b4, 0x66d7eb12b827ae7c970a796e5c0c99b124eb70024fde63eefa2ecdf5d4b1456a),
(0x55e25f4b95240efde3c7e47b2254601e01707a8de40bf3846b3a7024da7591ff, 0xe9f2257b7e98606d743000b372dcba0be4491ae322e822664b1e2b5b78c830c2),
(0xd24e7493e41dfc32be7a6d8d5463834d388ddd018c213ad8aa3005b1fa747eca, 0xe73a8216a51b4b165e9f5bee414d49f26d7feba0982b9e93fc4b786348c26cac),
(0xa510b2526d015da1cb7e46003ed61af7caa03562019227d9ed8eea1361fd8b2a, 0x3d98c2a09015abba63eb15a280c6c479eaa2b2f2a0011adc3565d2f38abea726),
(0xc04d04d8127500d515bac63cca55d76c8404cde6fe681f4f6b8c2b4887b314d1, 0xcb3fcd779fb80eba99cdb93731bc0814e3cd4458df7fee1b98c4067adb4d9d59),
(0xec9c7c61146c3357ba851e6918ffa7706b5dd2ffa789245a0df70f90eebd0649, 0x9a09d3fa10ca6923c068803ce9161923b36b0709b12627a4dafd0e3d3d186170),
(0x95df5d3f5d504c45f4b7e8403805e54bb25985112ca530640baced580a0488cc, 0xa43dcd8589b85305b07d1ef323eb305a35079cdb743dcc21c7a6ad484ce8ecc6),
(0xb8eece0c3a950c52c46bf50eb5dff9492fc8ec4d6bb196510c72d447633a6d16, 0x74e942a31b75bf83ba6c1460d969a2c24a49572cce3fb84b8d0b08e1d5583744),
(0x599ece16d1f69c2253deac5175121ea0c82b2d77c5e2c0ba0520bf1c72dd09a2, 0x048a10c325af3d0edd8e2e725d7baf48b2fdb672664238599f73d231a911bb14),
(0xb8ba5a068d9458a96e2fdfaa961acd807fff711bbba4e3bc35a5fcdf0e82ab32, 0x8035ab227554582e0903884544d32a53c2d824176e2ac7e32d44cecc50f8ca4d),
(0xb6846be1cccd7865e56d3d7af1b1fff3ae806380a1710c508c35ed17227e65f4, 0xbbdb702532945f0ade989f5268230763361ee9d49c0e624177fe6fb60cbc7201),
(0xa1ffa65e69872bbeed009e53f846d9a120dd31b3a11932ffc3580ff80da9d0fe, 0xaa32e580d5763bf9dd05499968b6ba6f31c210cb26846adadc0045b1ceda215b),
(0x9b38176d67091c7df448c70780cef08a2ad73cd6de65eebeb62f9a21730d0fa2, 0x22d26b19c0fb9b7ef1ec86bab8ff599664a45988190499d26fb604ed4e609207),
(0xbc2ccc9e209dc64fbb132553bdab43fa0accfa4d7deac8981fa5284135fd0cd2, 0x47366adc176ff88b0674931ba8791fbd350d1d137189134374d58305a55ccfa6),
(0x1ce000a165452a625d036f514fbd2a30d4518734e7f93aa607a7dcd724730f6a, 0xe09103fb5b90f0ed54b34baf3e3d5bf3fa288acdb6b0ec19ee3062af35c6811d),
(0x846c569a887d64c0e8fb26a449c624474cc63d684da0909d63dcdd0adde0031f, 0x00547753132c9f98d7facf93d4ff041607dcbe4477987be47df408c6fa12c07e),
(0x6365a8f728656e23c9c585185686b18b701f7b1f54c84b82f5c81ea574fe59e9, 0x8c7cddfda992e53cad151d46c9cc0b3dbe27f2b57ffcc23fc8d9cfa7eb16c2eb),
(0xed425f3c89ae3d8d9797261955e8fd1771dc5bf598c5237fbd267f807d2939fc, 0x4226abdc14f7a03bcd7285fd19cf14f6010c98d06e3c1d74daffd60299a3590b),
(0xcda5246c2e1b7ebe8d667f235ae310be85a0bd7a2e903d5662a6dca3971f00c7, 0x791ef296f8ea9b34918534ba318a4fea96b2c2f321e6d3f6eae8248b29247f56),
(0xb42a84e6ce79c1e1bedd3f7e596a11c2f5017d98386fbbc6f906a5a3f4eaf99e, 0x2e722cc960bb371836ffad5e47509fcbcc3d060170b02610823fa40ed407e6ac),
(0x358be08ce1e2e9bcb43149df58700875be23cad0ba8524c16d46a01fab0bcf90, 0xf3c4fef070baacccf64fe0bfb6f5111b462318a636489b0034f05c441f9d1308),
(0x3ed6435de5b36230a4f74bfe14571041427d16f79b433ac985c9e1356016a789, 0x1c72e85e142743d2b5be677e352d3dffee0dc56d5aa56d9104b927626041f26f),
(0x249f7e2c580dda165940d7e2672176f40afb7e50b9250610c253d9e62416c910, 0x6fc1631149e9916e8f70f8423dcde36e1630f50879e96e486dc7147b3aa9f50c),
(0x97b3b144e8381ba31b0f6f0b752cbf9114d2d76f6f418d4c69f0de6ec89cc85f, 0x67c9bd3033b720b5a14492570f1de85af72822609e411dc21820444dc988724f),
(0x3b38459e868b291251d0fcaf4124508780610d0e395e9b68cfaeef1a5f395a85, 0xbe5180ddbfde7454c78cc9a2b77245eb91ec4c259b17e3a3c3e8e49d5225ce6f),
(0x4e6f17909f33e08a914974f448270fd074fb35d149a017efc54fe21c96163ebf, 0x0fb6578f06f471565b6d34913a9a5e4c0dcd2880d774e6a3e56cd078e6b9fd15),
(0x9141ac63e408937d7425a0a670a2565e72e301b775619a9218db32da315c75de, 0xd35e290a56bec3e13cc55e7212aa57dbf10b34dfbd7847a05de91c4f546d6045),
(0xec9b73ca72052751565c006a04fc9200337c916288eddaa2e212c611395ba578, 0x37e11ef5c1a22e7738d5f3ab4c74e2f1ba1922754c4e79051b15010f3c224887),
(0x56fc14e1bb1a928fce0430b1feaac6e5aef50208be530d7ef0f5b81ace1caca3, 0x4e5a6084f8680d079f3101d7a80f452bb05e597cc38d9865f6d7f30790209001),
(0xaecd741b2cebd4cc82b7c36270f1b22ccf3997c3f180e1e4d803a89a657df731, 0x5f104b336c0df49f1936356e8dd09b3a256bd3170afffd4d8ccc57e7f90b8e21),
(0x516267af54f83d5224a22b9a4309e9eb9b5c107231c3ff0d418f8bd415836cb8, 0x4187389b9e062c17f4ef6fd54b6b8439cc37e85d8a3db13d865920987befe4fc),
(0x68bbeabd8d3f4473f91a03687383b4ff6e7658dc6e1287e7f258f5432466fed5, 0xcf63c80f0ac99b427a67f7ccd978d5b08656fc7a6a383c27048635ad097049c4),
(0x20ce22ab69467e9b51d592138b52c1e449ba908f909658a2b90dbeb5b07b67be, 0x562da07d9f4173f69232d17e49ba2c1731649ff14a9dcc3e68f20dd2de97ce2d),
(0xb5b7d6d3a4a59f923afc1ec6a52157869c86cd907ff80b07d04160ac6e798f78, 0xd05e32c9775125ee0dbc55af4d1597b445b5eaba5bbf6dbcb8ef3e79fe9d4de5),
(0x955bd4897a4280b15de3d848f75f6dba3967e5936b077d4acdc4c30a33f45df4, 0x4bbeb7cb5d79991cef3b9fe5bf25dc016448261b44b156b2749f97343d453a02),
(0x9f60e95198e7370eb3c02fe18bf5373550fee8499c876211201e47f8660a5a98, 0x6395aaa933ed5866a02570f59321d89bc865a7ea62e28a6a3a62c4fa4cd613cc),
(0x7081f0b6f5923d0dbe4041c7589a71009c2b64590a255468999f2d4e50d776ee, 0x9cb60005e067019e93aec9c91bf28b4a27f3f0a3288c4758403a9ff7668f9fc9),
(0x0e2901800d8d5a7c1b0e982abd63ef9ab607d60587e663fffb0ab73b3369561f, 0x462776fe77289a4a250ccc7b80b54e51993f741a14299f7861b88d17d4d924f7),
(0x8aea7328b285bd5eb63d5939c5c8c6b4ac254cdfc42cb5212f4c564358598bfb, 0xb682da7704fc55ffeb4a559a8ca0580a13819aee990d9e228e0192f809568ec2),
(0xe9d108b254b24b57ea4fc28745865c0927302d7a1dfe90feb3a179062f256e68, 0x0fff72746d29d9fbe7b0fc0b1af143658d0ba69aa45a72c48f67b939aba128d0),
(0x9ea1f93d1f317e61786d4909429e4cc8b81f291417d289136d886b86adba0fee, 0x231dff25d3b0b3516e63ba6aafdee115975a5c00b95936e45d9c6be46980ec0a),
(0xe8a12415e5fabbee07cd687c43e8d53080701d01085980c57181b68d481e7a0d, 0xdd69839ce263e74699462f18587457270ac53bf22e0385dd5d6a21b9922f62c6),
(0xe287f3baae486145a1c2e04c7f6d5c1aed79684027636cefb4446ff306c3def2, 0x9395413d401db0ea4ec53baeff2155805bcfbe8e7e6bd6e0be5b9fbf9d968c63),
(0x8f99f79cec205ab0e79756eba14c8e7dfb23e2326ab77927641960dd56ad1194, 0x805953e615cc6d6e2f61b0da389b24bc89cbff4fc9f0ade8c5dfff99e819a2ea),
(0x9c87ab6a8cb723ade0cdfb59e5a1ff6d3adb63d47af33e14c6b3c343c766f586, 0x747981227a3bd79e7d5012cbbc81cff76a3699e3758742004edc6e8aa965bb19),
(0xc52c86086f245de40baa10b7fb512ff46042bd507d88bc3ec75ec75dd99dc00a, 0xe8c2813abae8b8bd9c8762d837d42fe785e5406c05fb5cc2ca05ae034ab3f844),
(0x0b6286e194d5be259a79c6b6ebd634ac0dd7c3fd066ab0ded8d4e160ba8dafb2, 0x72ec2ea8ee0bf270777cdf7b4799152427eaaf242a0334aa18b3855a899b5910),
(0xdf7b56f2045f2f8b7213792e370ca89a45c648a05f3ba4ce8c5d6d342f086b6d, 0x386ced483850bdcf4209fc90d039b96d39ac18cd5d97ecb43df23ae61596ab4a),
(0x2acf4c9f4cd423573e9110eda64aab59459b2b37675e420f48ecd0686d46a3b0, 0x5f1a5829aea5e981cddff9bbd2521ffa58b37baf9544c0cff622857d5a2cc579),
(0xbfaf95aaeb55d3787210033db352372e6a64f2aca420b877586b684d9cd33f36, 0x7d22bb13bb61e76e2a2fce3ebbf9ec8378c6ed2e5f143b0f60803cdab0a3d8ee),
(0x78cdd3604eaba890da793c9ef589cca5faacb6a914a29f6a6add7d8d74f31421, 0xed7e9c1505b801d116b0d60efb5e228776430c8efaff4bfd327a38dcea19a634),
(0xf2ebcfa9050a391fc7b97713566a8a49edb8944c7cb68276d9843c228d213d2e, 0xb1c7630d956f9f13c53a180c569d534f09513d164f3dd900bb3f5e78b0fa4eaa)]

/-- secp256k1_pre_g_128[2048..2559] in pieces of 64 entries -/
def h04 : List (List (Nat × Nat)) := [h04_0, h04_1, h04_2, h04_3, h04_4, h04_5, h04_6, h04_7]

end Secp.Model.PreG
