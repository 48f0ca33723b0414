/-!
Generated from /repo/src/precomputed_ecmult.c:6186-6697: entries 6144 to 6655 of
`secp256k1_pre_g`, as pairs (x, y).
-/

namespace Secp.Model.PreG

/-- secp256k1_pre_g[6144..6207], /repo/src/precomputed_ecmult.c:6186-6249 -/
def g12_0 : List (Nat × Nat) := [
(0xc949cbc948db844d2cd04810433f982a680b6a95e3461ff2108492f9247fefb3, 0x162ca70c0c9f19d20d3da47b3b0a2361f5c21492a12828ae9c0ff9c7ef1d7b20),
(0x9acb7d8ce958f7e5189676c3e7248ad79f717a672d4c80b59c425663e078810d, 0x112dc86f1b241c2630d874122faad000473bce3295bd69898b6a45217773284a),
(0xe468a13ce5ad4c244df9aaa5e13987f9050900b4a32ba33f430935c21250e4bf, 0x61e3e755a91bb2a53fc2ac700bb232b20c1aa356d494656c5df93232a866e400),
(0x26779f6775d8caf146638c1771e33b02b41c61df325acbd4506199c10bea8310, 0xe9de26b50c076eb9cf3436ddd9bc7f8e5772720aa84012277af573eb0065a769),
(0x8c408da9a816c7baae2846edbd923211926e5e5cad595a5ff2dbb190f48857a9, 0x89373ca7e9f3f96c1f0bc7ee0d427dea99808bd3b943964ef0db4bc4a7a1256b),
(0x9ccbac95d80bafbc0b7e699caaccea8d3169db5e328e1519825a3f4badee6a19, 0x5a8d6936a2859d576accb35a5e80c9444d71612e76cd755eaa3465b0dcad8aee),
(0x34c7b7ed6fe88bc9803567ae71ea7c28c9511f600e2ebfa8fffeba31dbbce2d7, 0x31a3bfbdc42cffa6c77aa417955c671a426497e6b35efaee083a58bf84de02c8),
(0x7940ca7fc3bc810b5679456b88a73cae4b2abed847260052ffcb33deedef6155, 0x8923cf739285b368d32d690c488d8b385d3285aa0c399fdf6e263daf4e0b35c5),
(0x2cb10da7104ff7d80d8f174243425c2c5e8773ed71e62e4dcc0c2d4a56ac3a08, 0x610cb16f53ddfd287a7ff301a8047555801c13b481033c944e145b1f98458520),
(0xced78e5e58e2893c3910bd9dd43fc362ce06dceaf44c5aecca17eb0ecdc1fc53, 0xc66050cb835c97cbc08ae0df242895c8f0f0085d85a020b5122e041f8fb09607),
(0x5e83a4f77c4cc672a7a381f3e527c8fb331e8d75f8578a8539ae100751903f24, 0x545cda3125c29fcab343c22f824c86e889f2cd3cd2a6f3b89e3308fa2968b8fb),
(0xc62958f833217811cb099492fb8c13a45b3d04b812a0c1f168cac595e7efcfa0, 0x0e179e981b92f1be25c9f892d6a71ef462f3e1c543127fe1f2b711f1bf61aba2),
(0x7eba00b2f151282b83c7fa9b5df6d9a70b764e7f42ca29a92734859fa2f0f016, 0x9e3162bfa619123e8e87728dda8258144b760c2a3d05fc2f1fc255651d72a7cb),
(0x8f68c1f483ce557b98d964444a2a7d2ca05d8f25e6f9f909cb44b58da030cd90, 0x30f15dc217e7ce70a6fae901709301308f7d870680c43840765ee89a5f864e00),
(0x393d5b72a9bbc3924f71219551ba7f654bc4df18cf93dcaabace126fc4262b5b, 0x976cf232fe59a3ebc65142421912839502945cfbf792e4c81924834637f16e9c),
(0xe1648650d0d4ca1e8fac2522cda2a042bc93b87902d6f87029c6d888a11312ca, 0x4d9191059ea261fd9470ffb90e60c7036d21da3ace97588039e1a820c636f269),
(0xefc7519f4676989aa12d823e8e49b1de96397ca211fe729ccf0fd67bbc6d6a74, 0x3f304e50be6dc6f1b7c7997904ae38ffed11a253778d029413a98547e3b889d5),
(0x85726e3eaa8f70161c3629c284b7a7ef79259de084f8bbf69358f66da439133f, 0x756800a811a472eca72604e4c2eea08094971b583738e7eb2c8172502595e47f),
(0x2e238f2fde3c39e1191195419eccde3eb0c4fee3e432fcf3f58c4f774ba070b1, 0x7ce6b671c0c79a822fdcb88aa10a8033bcd0e1a92cfab941d052c09e4e5e4c81),
(0x9cdc6aac41e79b7bae77a7b9bc027e991d4f8c1c2b4913a31eaaf1a09bd87f24, 0x9d666c3c3503b9abd609b074743f8a3f460c0122ad7a0cc5a22a6d179d948ba1),
(0x360dd1e4608c9215287936b697e5e819390629a07bec616f7fc713fc5ef8ec3f, 0x7628d7705c744125d5885c2bde25693c05afaf8a3d5739a5deeeb5e9ac1c62da),
(0x8657fbee524c5f5e25aecdf77306c97b78119e0a5f155c4f37918e8712302d35, 0x242172c2f90ea26db1f7d2cddbb9af4d78a1660a32402a836e598c92df9e999f),
(0x3ae7e8db7b069528acea3e0adc005d527ca9e1cadd3d3cdd5564ea8605e1a453, 0xac203ebf98b7e46bbcad5156cc058857f32a8d622114acc455cde626591fc5c9),
(0x81bdb0a19852adc7afcd977554143362c7e724df884f1a2e796d88bd1c1696cd, 0x2f189af1a90f9445353d05494d5562f74a3d37cd1362d92aaefe03939b46ef0d),
(0xe95b0171dd117d45263141e695ceaa523498a8d9d1f09ae6855fad1c05e5c3e8, 0xdc8bf907ea6a48249cf930b0bad3e3a6c179fda4107a081276f02a9b9c689416),
(0x020e3979e95fb62eecfa4ff13aa3fd46094b24abc814f560ce18026211b70bc8, 0xc9d0154550f1d7beda471272822522ddd6924a98f6331fd1cf6837d7db91da1f),
(0xe0405598cda639ec6c058a6104c39d56f71c43ea693f9b86c9df1bf9e4fef30b, 0x9df9b561a7bb2ebd67b67031a92dda6e12550d0f5cc2368a603ae64fed20ef3b),
(0xfaea8667646d16002dbbdfd874a59ddc0a2b8024b2f7f6f0f2c2036d0ab5c5e9, 0x8112167f0ed386f1d1e02307de202bd2363cd1f5fefe06211c4564feeb0220a9),
(0xf01d6b9018ab421dd410404cb869072065522bf85734008f105cf385a023a80f, 0x0eba29d0f0c5408ed681984dc525982abefccd9f7ff01dd26da4999cf3f6a295),
(0x5906b1439b994465c9f3d4fdf7f09a4ab9ae0864262b0140def210148b097533, 0x2917b92bd0368fff6e6a98d918cfeda40d039c73a3cb865a5d77abff9fe7970b),
(0xd6443bcf53ba252e925f5ae35d508732a3289059308fa67c7b051ed966b6cc92, 0xe0155fa0366a2d1caf8d2c17a4ad9cf7f4fc0102f1e1ec137f1b2b511af0e7dc),
(0xb95a72a1dbcfa0ebed2200adb57d71f0b96a97038bd3cba578eff5f4e9454196, 0xf89c7cd9783a4c341bdd05d8241ec4ebd88154634d05cc84d5601f4a6f3fac0d),
(0x50b287b4d8b41f0388804ae22b56abc7be632cb8a20629b53a00fd3d09a879b6, 0x67c3bbfa4d8307c00bd3210657f5c0b478bc070e53a3024e1ffe103ee5397076),
(0x64feb83a5a81f6d88218e2a04e6f97b406efb89a6f394264d905c93acb7e5493, 0x3fa224d4eda775804d6ba88e63df4c3b5d9fab1e519eca921ada5f44741d5035),
(0x9434b5f902d63c2cc90ee2fdb7f7289fb6277c693076d73ecc38b032bc8b5cd6, 0xc940b3a64c04e6b71de7f727d6fc0883294432766d2ccd516d24dc223998aee9),
(0xa6db8e9806d1bda8995015e4807b900d704f8d3b8ac5fc49aa16bc6182390724, 0x3277c29ebf27d0b5ef8af5075e295f2392c41f293803a8b16ce601eb2abedbd0),
(0x50733cc1dd80ddbdb254ea6f14d0679c6839e6b173aa0bc09d0ef5bbbc5c2f9c, 0x246e1742a5a9172aed4e1e0a9c0d623a5233334e47bcb68aaec4110192771eaa),
(0x4252122d5a89f6212c7b0a995ebfa8c3b980e142f7a89e07d4788d911163ad99, 0xbc63b87bfda041bd0f9ac11ce2e8ab3da1368cd02e276b556419e0ee3d7fe284),
(0x6bc864110d3f9d25bad0a92221f0146c9173cc99d00470baa41897fe0b5678f5, 0xe2c1cd753915e977c20d45081af1946b1d8c5926cca74ab5c4ec0bd7921c4cda),
(0xc786df9c6b2e656da30146cb14da537264683e465569b1dcdf4c1541580d40a0, 0xb8d229d10d8773d5dedde14adcf8816eacaa274a1f4ebd012086159d01feb32f),
(0xf42032f7dc6dc6765b1a945374ee45f8486e9b946a57e6517dfefb0f9ea3164c, 0xad2d7a22e477f5cead0fbcc1fe2c253378920fd6cd9ed4ec1095fa882189131a),
(0x3c2fb5d9a5bc7ad2d4ce09705090a5feef54a6ad7f8d827b2ce51785b29ba5f3, 0x3ec2d878a4d836c171f68648f8cac869472847f34c2671395f38e0b5e96b653d),
(0xb182d837dbb1e47cbdbe559ef30f03e9ae1efc93a5a165e310285bfdffe47303, 0xc40cbcdbd7f1fd560c486a3567420a7fe4ed4ca843a68bdc81eccbdd213d7c5e),
(0x75a35130cea9cec281792d7fffe84375a4aec378574961229a77270b43b12391, 0x988821eeb6ee31c98201a90e853c4afb8e3305926349d40590c4840dfdf3fb5c),
(0xa97b9c8597362b4baab43b64db7e5e0f3e4cfea982939289e5266f0987fc8503, 0xccb75937fd647eb67da4aa7b72e8d873c9f035a5cfa120fd4d4881f09924d8a7),
(0xd129bad34c7674ca60a6f07e1c1ee8b4aa3dce4e82ff890bcd25632413a56fe7, 0xb3c8d4047c8610a1a56af634b54dc5686af075a0a0cdd4f175855fa6d22cc4c5),
(0xd8a0aed3cf37542ea0f06c6e754503d73bd693cfc3c357f27445989e137f73e2, 0xba4ad8e63bde0d8c42172a7b59e1f4f40581f48ecffc45bf929d815f8133e6a9),
(0x9f905bc0a5f479ee6162ed3824d74a1bd6d48bd54611f840ab1ac55b7b84be18, 0x05babdad4248a4ef4606dd261807e25f6206dc816eeadddafd8b508252e3da53),
(0xd51c86e14519166dc2aa7604c88670c6ca44a84c6735f692ee4dda79e957b85d, 0xfcee6753029130c5f4b260a9cc7efb730d51e6ec8ac1ec5228ca0ab651d5b8f0),
(0xce251fdeffdf0f595a563941179f6f8a86402b2c6bddd1ea07b37b89bc649102, 0x05b26a79882b2f8979610eb65de06e02b09412e8bbff66c5cc650211d1b9ccf5),
(0x6168ac7b101fbe735b9339b69c459fbe44a6f6c7bd488bebbf0b81da0ce511f3, 0x65b6e531f350983a2f55db14588e92db436f70685117255fed474aa253b5c9ff),
(0xaab2deff7e77f41459d4361d2722b4486530f0c946b93d96975f5a96eb4bd091, 0xb416562dc5b057ef7e63ec2ddaf0aed484320d7b60695809c6fa3aa9e4eaa431),
(0x9ebed934ca30351f44b7ea4ff3f6453f6d0c7f810869226cc8f4312f0d413056, 0x766a6f8c311550eba8500ab6f3466ca352e6b960c4a52cb9870ff7844191a2aa),
(0xa2e78d35d51970c342d03a09bf3286c23a131ff9abc4bea6352826d45fe2da0e, 0xfcb844e04bdf8d96f423c49944275ac58885c38457975268ec8cd880dc640346),
(0x1a49f3525203a7739c7cce34d21c51fedfeba5e5c0f21622eb954621e3d6726d, 0xe617de367c6a92838d4bcfd2bf2fd21c15b530076a0367b76d6ea65baf032213),
(0x0be65c6cde6c54b6c0c4d30665cb4d61211c97dca74c57b713f41028e2d14832, 0xd7875fb75cce3a409a74e48a9b577a044c09a43a989606b5b44fbade89e6c03f),
(0xa1572e5860b10c960bb3e0b67a047d4a9957448d74bd8a44823de9cb50aaa639, 0x5ae37e0d088c9f6d173026ac58ef45fd17b0a0da40304954f9671c5693946d1b),
(0x21917639b6ef2333378bafe5fed1780b24d9fa8217ee49e7369099a88c9baee5, 0x0fee39df4bcb318b4dcc40177f1af605f22c44ecd67a15cc297f02fcdfec4eb7),
(0xac2a8d9bb2219c98444d03a0036db728ffa182d0d31831adf2643010bb76d3fe, 0xadec7f18c9474dc8d0741d1a5e72e479c8b86f74327fc5d3cd79cf86869310ab),
(0xc540463fbf62ef36a972d7972bf79054080b8e67415f1895d42d261c165d1b86, 0xf04a351683039c2e8bac5ef51db4e10595a27e25cfe680ede7d840e4f70e50b3),
(0xdf63238c77e75ec9b844431bd15007d656b849eb4b6902b4e79f0d6e9527ef29, 0x63846f3fdfba6f2e46bc7f2f17af5067a953cd0bdbe2fef2052e73beb8a17330),
(0x43dd347a1bf0ee84ad774d4f70c67cea594946c294cbc33015bbdd21890998d4, 0xb6f58d9ee6e13c1db65dbd282343d8d23f73035ab439967215b0300c0f7dfb48),
(0x5af8e3e7f5ba9d8073c5c1e30c8d0a6252eef1c117043e017d610f2008b5eff0, 0x246c7a4c6f6e75aaeb60e256756e6365711e98a6aefa5345adefb632321d39da),
(0x60e7513ab327df8ee3d4422295e0d886b264f5601c4e3d033b405d37f6ae8518, 0x4c58466eb68d6c8133fa663912f4a12ca4a9f3e3d4e0f6e27e92a85d4d541cd3)]

/-- secp256k1_pre_g[6208..6271], /repo/src/precomputed_ecmult.c:6250-6313 -/
def g12_1 : List (Nat × Nat) := [
(0x126520ecf3129775786c4d647226174d3ccaf5ae2e4a151490e1b691f07946a0, 0xd5a2544cefec281fe70f05e82494085c133fb9186416435d4b7fe6730088c440),
(0xb588e8a02396bfa78512585bcd0d0e4a7d14b5e9f76e14260b4591c96602c585, 0xd7c6a7d0827852f9e34942f9a6f5eae9cd0a7f29d30057cc46d13e2d4ec04caa),
(0x257f90fe4409ef7d30730e37d7358c7b60a1cc2157acedd0355d7a1c89b5750b, 0xb14da56d9aa8fb67b2d1260d8de63c00a9a7aafc6fb890a0e1a148ed5e371201),
(0x8072b8cb47c713319ed2ce85cf913c8785955c84d338daed585284273f3a4a56, 0x6d7a0ed6bf3383be08953b47d93ac5a5e40e85472fc6d3d771f89007f8d20d39),
(0xfab935bab2b72a27b338ef89509b3830b780081719c2b3ec8467c73624ca2640, 0x2a610c0677fb514cb224dcd656c5136d88f87f3486fa0699eb71319dc85a103a),
(0x7c6364c64906b7c2e1ca0d876c1639327e8e146bafd94c832330f990f979ae52, 0xc97e7b4426b91f6c88ab7e39d57f7b7d4a5e0f9cff15aad5e58e7017d51c5317),
(0x98beb1ac48c8824d447a10cb43b51167b8e7cf0d9eb4e4c843403b032208570c, 0x1712c13eddff8fd5191fdb28717efb740ed52a9ff47bc21e0b15838dfcf00af3),
(0xf683a66731241c444adcf062156f3fdcd04e8450911908e195bbea2d8c5bf918, 0x460eac5348ea1e789fdef168a150065e1e4a2f83852683853355586c87453f1c),
(0x38f065a70165e5d4d31238de8dc38f434dd024c66eca026dde03c4cbb43639a5, 0x790bacf5d35a688b130bdb38029073b828837b9c9357544e1e44d766e401d044),
(0xcee8a2182b3004fe76714511030340b07cf10241d9e933c497ae84e9a1d525f2, 0xed3737093e0eb05d3ee2823b25bbbb11ec9438481a3ceae189573d717a596b3d),
(0x164c6ee5620f458235520eb008276d859a14e266b7b59576d0a3e0a6636f124a, 0xfe92dd66139f02c876ff6e578c769a4d634840725c909bc9481d4a52f60565f3),
(0xd4606a181a0bd363eb63849a81c77d0b942ff14e7f885c610d1fb77278ef1008, 0x81e7b2cd00e7c5d929e1d69a309a334f2c01b084e82b789a835a7aa85d7e93a4),
(0x905f57251df1651e083aa8b3dec2d96ba32155eb90d7f985b3ce52132092be07, 0xe4acfdaa9eb8995aa4ac8a0a2b66cbbbd561fe6b0389c56f3af6f62ad7579632),
(0x2e3ab14cd3aa69dea35a8ad4991303020b16f3d39df06b777c30e40491eb6dda, 0xade534e7ea0217a888c50bf4ef81dddba5c7ffbebc0f90e7110df2a8e0c7c2c0),
(0x98207cc023f50a6e5f5ce8a5068c5b24d4f4f74194de76a6d1e6f44e72619a9b, 0xfdacc236bd42468452508806b08fabdd98a15b156751953b95b4c5f140bce374),
(0xb6d8bc0f894863a23a793c3da33a5e66cafe8696f9cdd40e777a40eaaa203ee2, 0x7e9b246c8555b4c247c45fe1d1e5d160c7ed7d37a3a43440deee6ef415dc092c),
(0x56d030adeb30f1b47f806276651a56d87f0d8b6c458092e1613513688cd0f6c3, 0xbb3a1513155c5885e084180a1728902b33e1a61b364c8d9c94d67ca2e386f131),
(0x77251aacf919aa4eb7610a770ba27d94c85b973caf04c88592fe5272a48ec088, 0xef27aac0593cc67b93535bc84d0a04a3e8a865a1bdf6531285beac2bd58e149d),
(0x00cb7b6acbbbdc236471158506d80df32ec9aaa0c6380b3e677299d013658121, 0x1f818bab72575e35a60ce7f1c720e9ce2f59b08663cba841ea28892016a40ca4),
(0x4a18eb1cbddb4c3fed44fdfc6242959c2972014221d10154c7fbca6805c475d0, 0xbb24f347ebdcdc0a6429f8ba490654759cce87aa8df104966d2ebcf297e70ffd),
(0x384286ca1003c97d7d15103297d81cfbe3e3dbbe5dc70c766a8dbdc70c1e625c, 0x07201deb0638d2ec6cbb4db4e955ee1ba3015ceee06d2ddcf024daab8f07a277),
(0x84b6d6aed5e00e3173c24d3980f05cd6f61625e311439a55e03ae2dbd79a7d55, 0xa3da9e1a4c32e4f9a1d326c36670296d3ffb18fc0266e169a99d4d004de383b1),
(0xaa1cab51f7239cd4dd27a4c4805e614c5d972cbec2830ebe7daf6ed8781c37e9, 0xcf8bb72e535fc8cd12a2f4d5e8f9e25738a288121c93b0615fd4fdeb368be5bf),
(0x7c4f183af4abbe430d7fa6d577ea6c1483302f2db863a7c5bf072e513d2140bc, 0x1eb08c670a417c0b58fe81851a66902aa608db0724dc38c6706bb80f5956c808),
(0xdc30f68e058ff30a04bf2f6b28b30708506140a21a971c048afe04cf94b54d31, 0x6f996e088d4f7f53aa1c2050644a47edbcc1da4f519978f86496ba1ec7be2688),
(0x145185a9ac6b036fd0d3cd25c904b3b7c8f1d0ad3ffe5f89d87b78048b017426, 0xd7f6acb2828ccbc0db0708e279db6313fc955d2bcf9e27541a7535e324c7bc90),
(0xe87001385c0bc4e29911f29ae39a5ae3ad3cf1cfd690cbef32f313eafd190fa9, 0x92d837082e5139d0f80840018ebf8703da250361466caa96717edd0d6e7ada7f),
(0x5fac0aa79963a1e45e1c668e3512d0fe2eb2c709d5ecc71fc862d5dd0523f864, 0x9c7bfd73445e7d9e139b96e6813f1f802ec632c6a76e9dfb8afecf402788d16a),
(0x441f40f6f3ca4dde5a085c1557f14cf3fbb7c3f25716c33c063ee90f45c564e2, 0xc81f12051179c2a6f2614495322cf40a34cab55dc90d61b4d1bc3787ec3baeae),
(0xa4068c1fc63d8f21203cb6afb37d796a3c454bd9db974ab8e8bfba8bb832b043, 0xb5318b99e9354250a837f8cbcf8d9cde0d95bb1d1db0becb1e8875354ddb96ca),
(0x44563417c647b097d0238a5774998fce3c809a26f6d2b71ceeecebfb134cfad3, 0x3f4176801c15172cef636dc31274242913d5907973ad09c309fd8c6a08a95104),
(0xd57a5fde47873327728f57060d2f0d641c5386a9fdc41808a2c062ab942acb6a, 0xcffcd62ac0c85aae4a6b7881f3be170d9836abdabaa47d608c0b8f60f9aaedd1),
(0x9dcedd10d495fa2b6f4b438757cb38bed6f09949017e7ece7de913f78cb111fd, 0x73196e22059d4ae9950725dc77321567167d776129cc32e9d92b6dcd4c056223),
(0xaea290f3a4ffd405d51f1c8b5f11cf7460f05300a1e24c0825b96910b24e32c1, 0xf6c100a603c918f8f64ffe8a95840421dc384635e3465cf865034bde17ca8eb9),
(0xbbfcd3175091846f181696f635fb1b05802e76597ca970403133938146812234, 0x2a0a4ebb1f09b31e0aab447889000fbb5876d7e2dd8893933001a9778aaa3a15),
(0x2a3b4e65d9d7661caddfe1e196beaca3ccbc0348dff6d2df21f394c7a7f4594d, 0x74c6f1711a2c0c0178bb6a27b6e17cdabddb72600acbc533a49b19d1e0b4a110),
(0xd8e47e3215cbe145aaa9efecada428f18d8c599e98d2f9d78177215cc85dc2ae, 0x5c4d4f6baadcd87c7ac76eb822e1c0dbe7c81342702bfd980e193df1809e0511),
(0x5b5954d125d77778f3c1514c6256ef652ae0ab97151f8856dda6c87d1e04a34f, 0x1c5ddf3fb185edb91476948295e687e44049758226b36fc63502922fcd1bf81e),
(0xe8097e1a012c6837a8f29eec31ccbd16f191e7a7d7b199ddd6d9ee6b7f26ef55, 0x84ab3d24e2c4407b53e4299b8de1aa8a22dab9be0b6efa5c5715a94365174b9a),
(0x495ebcc5b0573416f2b3e705fe4a4bfe1e7562115f37b8a2dec57688dedbdd45, 0x3bc657256783970c7696d5a7b04ac7ca8c627ce9251844e9e7cca7744d385be7),
(0x4ffc69afb9cf40ffc94beac6aa0201090b7855e0a993984f5e59ba16fc78ad51, 0x6d43d1f9e3283528494c9783cdcbe9ae2ede071bed494c572539df6e0b185ca1),
(0xb047e0d1afc922517eaf5c0da9d0a093fde5e82984c8483ed256640d166dfc75, 0xdca2ef000a282972d4bf67cb74fb31afda5b8145ec1b7a656636376c504a70df),
(0xea7b0b9348e0b3e20be800ed6ca4b121277a496e84fb668002658f6837b1d530, 0xcef40d2ce1cf820b19b435bba541ff1c0fa572b1ca3693d0cfeb3b3208ddf918),
(0xe35a53ccad74738abde75a3ee2b10d7ad4ec39bfe32e1daaecc151f3bef1966b, 0xad06a8aba0296c17fb24eff3b27284c56ebca204f6eee752276ab9a81f1bce13),
(0x70334511ae9acd50e094f03417dbba054a104c84ea8d625013e1f8f6907261a3, 0xd1f603e05af2e1df4b8eac69b4067810c302ed18f02bc9642eba34f6bc67e84a),
(0x13adc074c3ea88774598d0b9ad653285c81bd98dd4bb6a43c126db2c0d1f08d7, 0x4bbda9d3c83c7a64fcccf3e2c4251a7ef61966b70ec48e89c991d44b9588c83b),
(0x4a2a5fa071702fa0934b66ae7c003f00306f07b8625d92f2d2276efd18ce5f0c, 0xf9c2f4acd8c594a40117a8367fa5224ea7ccbe602475e3edb19a317c5feff6e9),
(0xe2f7dc14079bac0e0a95b5a2001a9f4e8c42a23b8f25d09ddacb9a3bfe3ec638, 0x00ae6c820c4f3dc541f140a502eb6b0cdd0e200e0d0d951be85efd4bb9b086ad),
(0xeb1d6d078f6b74f5c48a913b8510e8d05cfeb954856f3ebc628d0db1a253963a, 0xf3d73300e216d14fd5a67c3591b362bef13818c336a93784875ce9b42cd8c7d2),
(0xa22c6d711d79ae71403feb966dc11adf253a5d3fd3d74b445f7268bd84b52277, 0x086d5212bf37db8b4e873476362017143f295f0bd69d21878904a53c0831af06),
(0x42f7eb02797cc76a21c95db30c9a00144ec5defe553a45b51b701c0b6f5ed3d0, 0x605258773cb864520928e37dce19e2ad4da631742f0492149f9823edba679519),
(0xf52506980b37da2620a3a80da9c1c88f792677a26d2b9fa549065339ecc1e95c, 0x00b0826c66edbd2c5562bb14d6f8df25a5d0bc547a1163dd4a8dc1e37d140266),
(0xb845d4a0bc8db80543526506cac5c093cece5c5a85750d54317dd78c7bc10832, 0xe38db2fa207ce0b4d9b01ee8b174a24ef28591c99d203ca507d900800807279b),
(0x4955d2810746b8c94bac7d5326aa28c39fba71497b4fc036f9971f7a870a67cd, 0xce72ebf4aef6e98703fa5cf3e66ec918911885ae848aff22eeef12e2e50e6cee),
(0x20fdca2aa03d610550f2eab8d5e7d47dc4e2e9ed0e6d2c7bbfe64d750176b9e9, 0x1e0776832c44d6d219d19c7baec0a303f4d3d5f64ad8ca3583f873256aee262f),
(0x418de9de9adbec78769eba7acab3853a9a85ebc72bdffc86844d0f3215de4877, 0x20d521c9974c8ee0f817ee37a0fa14d2eefc4e052c93ce87ee6658989e49c5a2),
(0x135b5a4af64eaa0fd288bee5c1bb784630df305b5d3b13dad8c446d36e13485f, 0x3e571c3cfe32fe42669b08c914a655ce828f41cb012b9c189234f4eb1aac0437),
(0x7eb64f505e26671d21d3b2c9fefbe094c630034825248e865daa8939f8b7e90d, 0xbe847834f303ae8a55ebaf3b5bccfd616284e83613eecdaeab43bb6ed4d4e986),
(0x9ee1ccd1670be914f9b7a070962f7ac5ac9d069ceb3e074872db2e0832870fd6, 0x7d3d9dd49e71fd684271b17aa8203ab61d2bf6d52fe3773c78a8ccbed256cfed),
(0xa256c06a796cffbc5c90d91e93ded565b9755b7cb760794ee3060b333c217e71, 0xe9ef8b6d7731c2626c93fb06b7a6b3fbfbbe0e0f54682409e5218a74d4a064fd),
(0xdde8a9afec32c1fbbe9470d7a435b4fbbd34416de703a1ab5188fe8ff721aa4b, 0xe7dbb850aced2fb2fcf5ea6bedeaf383e4ae0fe798badf4166e58f136a87f3ae),
(0x0fe885990811d0e9f780d3592e8106fa2f54fb6bba1df66a0b7b0b412c130c49, 0xb3b0b8b3c7f36d4386f304381989d88531edab91f25251b4e01b3d3a6ec97f2d),
(0xd7da001e8a606b37ca65ae7132214cf8258dd422efe0fc83adabd56d64b0467d, 0x97f503ce8eee18737e422bdf91f051f71025353b03a1f6f1545206f82a32aa5d),
(0x65237583e3e1a6400c2c16a9a49d09c1f5dbe2d7a3845989574abe33397e747b, 0x2296a1b1e2350d8f14a6fed3afe30faca45ff3459f8f515a370aa260d435f7a3)]

/-- secp256k1_pre_g[6272..6335], /repo/src/precomputed_ecmult.c:6314-6377 -/
def g12_2 : List (Nat × Nat) := [
(0x419a8e032d8fd27cafda65389b7575500313307d12fd185b4d2f026a40ae1de4, 0x2932ea7d3421d7380d821030f75b0343fffe9d258b605cf7e20f6b481a94db03),
(0x275d261f7ae2ab4a4ad1fd661621a2237ce08787beaeeee1a537b103c0a44023, 0xda955bd04ef1256c9e184615c4ee666dc9ae14c7d95caa7a5dca6f111e5e2e58),
(0x3ac6681b0d0a29680290ad83cb0e00c66a9962cb4c0823660953e29458ff3651, 0x28348b5638ede2287578cf14ae3850664595a2a8d86282a0edcc389a346066d4),
(0xd4ba242d9407df55a9f672b7e01cb1db99ef744bd24d3e479b1841afa6c1f05b, 0x9e3951440aa1fe509d72d0864a1673c524c4ad65fb7bdb16cbd520531c6f11a3),
(0xc65250772bd399d9901d57b57e8fc941cae0f5fb6d47ee3f5b3a7cea3fba2e83, 0x629f7edca6ec6b0c579cf9f1867e1befe3bf9bea8d8e64b72b18532a47280efa),
(0xf12daac6d38fcb00c2425a792c52225c0a94d544c6b960767ec9c885d6d4430d, 0x1764feee2584dee30abf2aaf737a068ffa6aec896c02e2fdcf0ccad27ee8f210),
(0xdb858a7f4a84d88f236b5994dca409b3d7111df4f7e5c0094ad1decd82036673, 0xc0606c89e4b130429e0a63f51c93b3bc95d98832d89a95152e5c1874f2c94a53),
(0x237f5f804d4c50ebd611b0795cbc6567101ec8ba1a26597664472f7f5a725ed3, 0xb558d31b7647c4c91367d696a67e5d887645490000f340cd5b8d74909fdd5993),
(0xe962e9c77c97cf3632bf0a88d6e939d268af9fc6ebca96b86fb679a2d953eb20, 0x931395ffa50a854f5aa29314c50c253cc317573909c2eb20600b02179f8ef48a),
(0x890514d214b5779685c0cd66818d182c3d285af9771c7c48092ea2ac115a8c3a, 0x00047c5aa4d76cfb2a62993bb499df86fbe7e130d47582357decd72c0b61aee8),
(0x8b058976295a316e65da1774da78722d8d729f885ea4402bf20dc67bbab7f815, 0xaeed497f57d5248023b94a3b05fbe9c0e34d00392d57b34b377bda9eb8703335),
(0x6a4685e07d96a793d55a64166b089623755fe5493a879fbffc9a5a747ee7991f, 0x313ffb6d98044c92f37b3f6681f1b4b2d9b2e42a7c34a5bb0db45b9c06063aad),
(0x65157530e4ffeeda41064bf1f8d851742b9b8f6487a05ea93d2198bb3f33fc26, 0x05b0e76a8f96facf9d49223295a0c6f56a609504b9b07c38a72b6f154cb8c9f1),
(0x9f6c288c01e0470346b02d478fc0a40cdfc0229d928639cc6ad2ac8896e55085, 0x2af7c1c17210b5524ae2083bb45e9749c9452776c12d5e83ce265c9851266c8c),
(0xc566e04fe5ef70627d914a0440731caf3a7dccbd5415cc1aa2d81328b8a6da75, 0xa3fa5263a7f6615867f4327077d3b2df8db1befd552249ade96db0d28c439282),
(0x6963ffcccb62ca7e565fa9e799db54c3dcaad60195bd2dd8df70d447c443ba4f, 0x96c715c684bed53127c28e3d6d6a0214883aa21425c4626b4c11cf1736b8f134),
(0x50db27a98e0328e281139df75376bec637e9272cf7c23333510bf5ccc4f46b2a, 0xb5221242009eec821e9143feaf9e7813c135be82bfc153f52ac061dcc1302d92),
(0x07badba38f23f8542404e636b96e86a6845573102bceb7c0241e71c61ae22ad5, 0xbd000395b5d0ba4ca76ac6825191fbebf6066d8a81c4a21056ceda82e13459e4),
(0x147667bd5591aa8326fa497f0c60f8e7a5ceda479d4b2f7d93bdab3d81bcbd0e, 0xbcdbbbc42adac6ea413fc3f36cd2089f420a6183a918bf98fff27aee3e870849),
(0xee576c33e8404e1e11e1b5d86ea52335cf8b0ade49dd16a37a61fc10cd3eefd8, 0x722bad176e083868b3c14ee9a70013d989c01b5f44188ec67db7bc3dca26fe2a),
(0x8e3cfa71f3b7d3cbfe59d8e0b579b76ed33d318f041d3b76121b02d32acdec80, 0x86be156db76429cbff2c67e00c015b7dd0007c7e33f6041ad817ae9ded5dc4fc),
(0xe220362f2df8a48551dbb7ad634c4bb3714151fcdb3cc2f80e483aac50d88768, 0xacb8e001a81eb6ac099dca402d62fed308891fe2eeb8e0236d8f24476f4fd200),
(0x1777fc269bd7aebfc014c78525dcd40cf93db01231541cac448c44f489628808, 0x641bdcb2b87e04ad3ea3a3d40c364e931171b2a2cf3c020577552b7e594c649f),
(0xddfb5269fcbac0bfa855d2c4c9062c77836af1d1145b4df50688b6a524c11651, 0xc353674b9520ea9eeac3bbcea85b0709d0284c370a7faf788b573ebd67bac8be),
(0x0b01ea11d4704bb424cb11d8b42411a73f227c84dc10eb13c2b20a1bbf23258a, 0x0240844e9ea3edfd948d2df451538cbaed57f157d0632f2b8b6445705f9ccaf9),
(0x0934e20a46fbb416fbe829d146bebdf52220c0db958c2a9c642447134509cabe, 0x76b7a1cf79ebb5fa58f77e644395d33ebf90c0be037e7439c3d2901325b0dd76),
(0x15bfe9595ee58bec791981dd13ac53806615ff5395dd466128c23f59ea236967, 0xd6dd460bd3d36bdceb7d3ba7745fe6c2fddba241fadcbdee044f377fbd43ee00),
(0x5e1a723f403cf56f8019797e6f8191f66e7ccf15dfb1965e590490b6224ecd24, 0x9734253236c48696645a7e60552eeacd4cba990d6d73117adc6f2967a6a0fdbd),
(0x1485fddc85c819da8894c1b38be82eee762a052f3830dbb37d21ee74868c778c, 0xd779373dd503731b52f9e689805988c0b916a579921c637b0286c58093343d5d),
(0x6f4b7385f881c9ed202ab6ecc8302626668a129636274f3cac4296e91eece7db, 0xfcf6f192c6c80fff3f5c2bbc7c6c4a5b0b0ea2e3707998270440e998cf6b26a4),
(0xbc27cb2933ca44d3b56280d77d69af2f9220f4aa49aa0fab685c7c5462adaf76, 0x7607d5b7a02c5e21cfafccc1026e843988c10942aae6333db52624261ed4da98),
(0x76f86b252530d87ab04e64c24cd1e05ae8324bf0a717280d3845cc5fa6a1a733, 0x2db7ce3833bd24b355e95b89ae6d8a5419124761e382745f2a7347cefd7c382c),
(0x5615175d2ec968f881dacc1d1bd6c06bdf87c9ab53fdef110335818fbafa918b, 0x5f7556386154cee9e71d21b9cee3971c7d41e3e00ca2c1fff66982b4d66fec25),
(0x6390f1af1ef24aae20e2ce29dfe9a0d150b2826bf5cb36298e0dc16d0ee2bdf8, 0xcf3e2b984f120d1016f82e1b8916928c263f332352bbedb3c29ae1edb0d49b1d),
(0xbc5df46b4fbcb83f7aa53579ac8d5c3e8482941ecf848810f9239138b57e9378, 0xd4d15516624e72d59002dca83c8b5914b224d4c375260dbdcda88f9f2f772627),
(0x3d069f1ddd52177fcd802195c7c8b2ef01e43c349bd88b4143bc2d546a2b8d33, 0x2ba4886114218d671b1fa4e42aae97fd66164e94af1e30268dfe9dfa7155fde9),
(0xfa657492fab9ab23f1a49c1740079d7eabafd7a872e481b87b30cb638a47757c, 0x89d2c7b92f1ad11bd2808968c426a00fe584ad8386dff03c1a047804a2e98630),
(0xe2318d8461f85ac07db07d08aacbed7c5f5a45fd7e505bb7ac86b4176b3eb46d, 0x3b0170a3b6f466e0380ab984e5bf4b3489cbc479cb2808cb445614bd8ab012e9),
(0xdefa081091d1db16fc2f86b4fa5a7331f0c156825585513410f41a6da2bfa6a5, 0x8429db90fbb253543e77ca0fe7a731d7f1a481bbf1c997e85f585844423ace4a),
(0xfbaa75677306fdd48c85514cbcb78e04ef4d693adc7c356ef95ad34acc880db0, 0x45c4972a161f4a23cd71f726d5617b710421b68fb06110973edf11b38a391909),
(0x5dd76e24e3cc0c5bded55d15858f1c19dfff7e43b299df433ee77b462122205e, 0x992de68b87bd6760a75d6b9089dcb2b55f0b39c8eb079ba00e4451fbdee8f2d3),
(0x890c7a78d0f1db9575b53e98a0a63d818096422a3ee18403ede8ffa63af9418f, 0x7a362df87430b47911e8d310558195c8fed28b05531b68a91631ef97ac008085),
(0x4914f692f88e858cb6174e6a9d4bbdf987f0e3731bf6e69b8bf3531a43a37e6c, 0x8751e02bfa9e03842ff3e4aa307cb7c5fe4f79411069249bc8b19866b6169cf5),
(0xa5f97745ddc2511781693df1bd15203f9d23bc939015be73c6b4e256d1d05416, 0x57a99674cf64bff97b9ba0c569d253dd52aa188e3ec645aa89466c795d0f0370),
(0x62da0bf98d32519c16fac80995869f09b570b953e0a7bd839623a9c9bebbdf84, 0x9b9ec74ac960fa8c2ea8bd4d93ff624a9ce54fa24a1822a237d962d564e9121d),
(0x5caa2062c25d7df223718f9dff29a403e5200d22bf064b44c95197424c448a5f, 0x6063bf931f72f65b9ca76400de5f5204a8a0bdc4b19cfd122664aa3379a7a27b),
(0x4a81083cc18dcec35825415b2854250c9dc651fd5d8976102ceb7691576ebe60, 0x850f48f87ffbf26deaad1f8b2c0b82725f7c313f55811b98408f8f348421f241),
(0xba8baaf49d0c194a4814070c0786fd9f4b8dc012c42ed6677b39f67dda7fccaa, 0xceaa887410bbe8549e87af6a15ae1326d85bb99519a8c4d5dd3a8599d9ae0ff2),
(0x4c780a0b886fdcbca30f239e21495f9d5ea38a6a07960ecbea4dd2dc9266103e, 0x7e50e1d5b6c811fcf86ee6515d64e06b26827ba3656dfd511fa64124224e182a),
(0x50a433f7f528d66a961d71237e6d2bf6073218965ec6599db1f34b0cdb21524c, 0x6bca10839ef8d450e56829d0cb23ddcc81e2e7dfe79b53f32f8aab9fe2eec15b),
(0xb98e05de573e37c280d6de1bfd479bf9bd23a6b72f6ab34fcaf03236c67ec5fa, 0xd86f07e08a4c3d61f087dff3a2af2d9858787d2f424b49dade0c584f4d8756b3),
(0xd0cb5279e76b8be9b2e9cdd7b0c841b33339854124923224db54a91a81995433, 0x11fcafb728a3307d2d87f2ae0d107b0bd64f6030b89e845e01f67ce74cf7ee6d),
(0x90c89963619b1593d5fd7eb6751ef03faa7c680246e36bcc5d0bbae625376720, 0x6e8f2a8675b803f2c3c87f9a98318cbc61b990732b8b33b662197ec573f64a71),
(0xbd3ad39b989c3a08e45007d9116b0d4e2dcb6a1426a44dc229bff2306c1a89be, 0x07e633d7de03e6d6a7a4a833f338160bcb91499706dc208028c3e2ddb1c1b11a),
(0x1da5082da6e4721a499d555991e8d216f26167b7d6de224d17bc4e5bac94093f, 0x5f8645114b89eb6360ef865e6eb887c2bb0b97e39a0b7078888049c129f63c77),
(0x1932041652e24197d195a0f19981892535c1979099d159928999073b4028d659, 0x2cf34c912d1666fe01abd3b049b12dccf7086e58b7700b23497bec180e057059),
(0x79a7b5e0482523d085bf574f2e6e431db3bd6ae84e921b87fff0f683976efa9a, 0xf713e01170de0de8a8cbe229b147cf82efc7fe3cd7171785c85bbbfaef935755),
(0xc2e16cc68559a1609fe16d0a9be4016d55fccdc42d22ee62895e0eea0a64436b, 0x22399345d40c11bb79b9f0365fdf6a914e1f43e9bb1f0a8781d2ede9fdb6a118),
(0xf76c0f67bd3c648d0c3201255c34a93fed6563788c9f61a9c60933d40e2d55d7, 0x205c9c5b83bbf9228e99191de7ef0feb429050e82b9fb3ca01dbd2d5cd35f612),
(0x24a3af8fee393ae32c30230ded6f96f29797d5911cc3d934b16e1304de7bd75a, 0x302041e92ce00cb5d4a667ea90df7f90576865d37f462126400c77a0a44259b9),
(0x2e8bf8975f29a6ba636e6ddc1e2dcd6a1373f123c6f155b33c8f46ddb18baf7c, 0xa93f0c91258ec64bd6e18761872cf0e2c89f9713b90086050b0378f81ec867ae),
(0xa5d354837f90d71c8d829897b3a8fa367c38b41c879a3e6d52f2988ab88dcf68, 0x853a586d9661cd5012d1ae6a1501b874739405c4c7e32bd4023ab7c162382bfa),
(0x51a6c879ba6f75d94480aa712a343be1bb9aebc6bb4ca3bede16d33e992659c7, 0x3e636d28f8b0a4faa3ecd58580d4625361f496b0344382b35742fcc9403e7e05),
(0xa1d34e3c0aba45bf1772d2f4bcacd17e342b66ec97dadbd6780cc453ff2449d5, 0x6c3a3b8e9717365d2f21e2efd72308b345008ebb010ca02e969d14c91aaf677c)]

/-- secp256k1_pre_g[6336..6399], /repo/src/precomputed_ecmult.c:6378-6441 -/
def g12_3 : List (Nat × Nat) := [
(0xfce0f1a16903437033de7e6db2364b0d4441c5f2ee405e685dc546c258adc2ad, 0xc018bc7cfc5ad1f136103729e1a177a7495a6195915ca5aec086804b8c107865),
(0xe380e6afc47b11c51ba0c8c39b79617939b07cd90988896c38011e73a4f98a81, 0x60ecd299c22fbed9132bd4551f44022e151927e47ad93f1aa0539c372680f6cc),
(0x6382fb8b2f4179e3191d863b0a0ec4cd94b52103f24a03778f6ee27c7c81115c, 0x6e8d41819621bf4e3c04c5ea2b4c0146dd0ed973bd4530dfd671f39ae54db63a),
(0xc488650fd66629fb927dcb0b9f5d07711caaa3f7ad6df39f7d8f98d965490aed, 0xb395d9fa46475b166beed01e90c9cfd783e6138a7bbc6d5df919d41f003e512c),
(0x5cf1f5be462dd02d0f8d1e9b6cb1540a04f1e5bede9c8d290954bfb0217e494a, 0x5e8727bc2429c9a75123967bb598207c461058225402bfcdc3d070b9b2351d20),
(0x9644ace59dba2b1af3f3a4afda130ba3c3bdefd939c3b52e670ead4754407b9c, 0x5e83dd4ae338fc0b8c501f98722954004b2465f84f1c272d20e3a2bf300b1b79),
(0x728e6659f0bb9bd5916846ff3aab6f1085517ad2c17254e40c2ce908c7934781, 0x7df3232700354020319e9cb7696b03846b8e5bf6691cc73f829abd4244e674b9),
(0x80e68c8a31d715a75068091a142d4a60ff30d2c942f625c5d234bb7831009e8e, 0xfe04addbb9c47f693dc0b12667b0960c1b4a7bf2882aa626b1888e5ee4157fd9),
(0xe655129e90211425558cbf1a4eeeb630df68a4e4f96a176bdb55500a89f5af02, 0xd5e3a471ba6988979f747ae10a1aa87ee10c50693df12ed3ed52307da0202a69),
(0x30a9e289f6ab5edd7b56f48ce7373a6a97dc698b511343c28c5c217cde67ab6a, 0xf4016c18c4f75d52927127bfc403a83d4ce304d28a4fb965beef9fda4e9d3f4e),
(0x8a6a45572c1dba29c9499ecfd59ea43b1ebec5a878a3e2c52de09aa7c0288e69, 0x56e4acebe8315c2fb92715190080a21d0c17ebad63223380b24a723733ec205b),
(0x647d34439f4e4f50cee5b0d68047f130965f8abf482f61668859c86e326c1bd1, 0xf951b5a0b180894cf74c5235cc625888fb8303823b0d085adbe857addbc22088),
(0x6d143d179f0a42a685031c6c0f62ef322cde46b3978b04ba0bc37bd334de5634, 0x925d0fd911c7863db0ed42c17659130772b456fe83bb80633afe5340cab4b5a7),
(0xf21cebe27ce8dd3efa30428acee881b4d65eddd130f9fa629d78291ca4f4b0bb, 0x4a6d7f43f2ed3d26330e58c927a87c55850620fe1edc6e360c9a39788f922ea9),
(0x37883073e227a5de452c7706a4a065945a891c06e594fd4e191d36f679117c35, 0x224bb4cb389f3d2542411fd6594ad6ec0bf4f1c911f723e153dbb42033ae8ec5),
(0xc21520aee6cb035853a7da78919c88ec84c17d103ac13ec86a412d9b96e57c54, 0x56720dfcf748ca09e27e8aa6e29ea591c02052903d38bc353b0b0155113a5bbd),
(0x96cdb3f0d61946757346b2a21767fc012e6d1ca6f5e788d2f89e2fd889a57924, 0x9f5fda94e0455b281cccc5317118b1750edd6c93c212e7c9fe845f0bcac5a592),
(0x7b5e5f5e564606bba71b8f1a7d410b1e6482f5080879e1bd38ecdc44b7effee4, 0x92a3f1b484ddc60b4b005282899842414f91b9bbfd55eaba37dddd0a0dcc1c6e),
(0x541fd344c9d553fa1e87c9cb72150caea69a9a10771ac96dfb292be7261912f5, 0x80ef7a006ce5ac0e975ecd69601fd059a9860e0777f6f31f365187b1f6c9b392),
(0x2b2b392950b07da05c20b72e4101e36abdfccb6a2a7f36d5b57f58dd1403035c, 0xff6c1ba2caee889c14414086456f096f0d065a7dd2f9c7b09ed4eb713b4002a0),
(0x23acbca34754dffa8cb3176f0d1435d64cba0deb84e12ae7adaafe88497aa60c, 0x5d95b3de26f703a40fe9efafcb27392156a49687a71433f69a2813ab5fdb35d2),
(0x5fdfa3936bf9c69924417a2af36054d595640b6e3ae308075ef51bb6cd63fe34, 0x97fdd994bf74c9592a5435fef1baea418a79c5fc1243fedb5fbb04664d599d04),
(0x177cf8ef58aeefed02832d53417c7025c6b56fb38122ccc52b33f79c71c461fd, 0xd8a12d8c69da9b31832cc10b55b57a60b900c19df8f38c92f6bccfdb98d3acf8),
(0x14f90282e5a3121da59e919afcd146a19251cf5dc0d805bbbd013eef4ab78bd3, 0x74a504be928ed13c0f29032e05c3dcb3a18a1df8aad26b4ca64ebabe6afb4244),
(0x31099221e6ceaf1681b22b33dd8ee3ef1c2a95f72bed88e815333f69f91867b3, 0x772e45f0930ebd2b7f5b7ca0640467a08ab5472bf6bd347c903cfecf8f80176a),
(0xa6a0a416d8eb22be49036f4bdfc79c6e6cd167cb3881326970e199adc5d1b5de, 0x54d036de6b84f30884faebee4f944375fed61a6e7763bb40a283ab523335af10),
(0xc7c5cb1dce48447782e7da9b55bb84824f715a80d844294a3c05dfd83dde77cb, 0x0bb667311bb0c2a4e493e257d289a42d3630ee24ba0f7f86134a7c6a72dbc3df),
(0xf1bdcb4943267948fe1c9b7b51afcc797027e4fef98c2175d7d1b8de0770328b, 0x271f57bba9249cd7dc5101735a2168c6ea97b341b44cacc54083d1156de8e728),
(0x2815f09a8f0e2dfad21f50c460b8f69d3aad54d8aaa9922686050582b954d912, 0xdec68871752d862b32ffdf2b482ce1c06a659bcd3a2931a629bda260cb3cbf35),
(0x622619ba8b74a0d05f8fa899aaddd272c9e6d43c49bb6708367155ec4907d0c2, 0xaab9b1ad10201d507bea05bb5b20453b6474154debe3ddc0c86535ad7c701954),
(0xa0390604a40611cc6e36c81d30cc3e75d162e6951ae0515c75417744c093b997, 0x60428c288d32d2297417b6d9b100352208190a83066cae58f78870379fb99641),
(0x422c7d1eb0498cc4dbba0135ababc80e5416f18711f0dff380f1e1dc23bedf0e, 0x9c47d3b7eb5713ddcbb9ec8a60d931c603382452a4c0861a847a354bba57d9f1),
(0x982844d47f572298afd6734d98064369d81e48514b1760596d3a1e856f043f5d, 0x9b86f6a7678cb5f9a4304f1aa8d3458dfa85e65affc79da3faa1fc8ea2b7ed2f),
(0x0993385fa76b9373422e4411b9e8a85d3ac0e09af9598570063d50a867b67ed2, 0x3e7a9a3b222a66d2f55fce7fe33effbbbce8cfc28991d8aa376a8ce24e9b8460),
(0x15b05ee3179d1dfa61bfb0d01903f93af7e04f98cfd40be302ec094d1bd5a4a1, 0xed1301a1451cecad30e8fadd801c9db55acfd6973ed366212f2e3032adddd939),
(0x6062aed57d6312fc433bf7f49c10772e829e294fe7ad07db177c75cc9fe5e52e, 0x96aa4495c6eb07da9a5a0e198771dce523a5d7ffde3145623b704f44c4ffcd24),
(0xef45dd6c1213ac0a5df184269491cb3ebb5312d3fb55c7f28351c98a1ba564e3, 0x91541d3243e032f9450f3605cab238f2703a9eea8e4298247a6ef63a45540e68),
(0xa1e32dcbc3a13a46166ebb737e09041c3487120a6ec469876befb2a994f4a69a, 0xba88b7b18cdb2088b5998b340461b8a5d85a57c631aa10f86ff808e63186e5ed),
(0x0817e6c26d4ae706f43ddd7acfa4eeed6498ea2b086aa6619a0b45f4e22ea33d, 0x08aeed38bccea5e34923b95953bc9629d93484424f33b06b0b02c88225e47bf6),
(0xe734f5a7736014fe2ac9137fd025f9147574d67b036965969f89b5e1aeebf88d, 0x74fe82207c83d3baec54f032f11f93099be25f53565f0d605f2ab4065287c997),
(0x87b2d307414c314f184eef076e9809d8ea19c002390b504738eb7bbeba1ae7d1, 0x37f5c369f5dd54b687729036b88dbf37045f33da8c2bc9b264213468f1c56841),
(0xdda23ad96c51604e602b8e6e9f08a67f981bfa9893194369269c56b77986b772, 0x6de026235ef973da13e2577abbcde720aa8fbe1223c5288c5724bbc0228074a2),
(0x8d56a7236adfe6a146182431da5ff846aee7893127564954f14172f527048fb9, 0xc7cd6bfbfdc51a83252d4e4a2c978cd767fa3809521678cf7dc5e514eaf0b418),
(0x9da30ccff147de11de528d14863a4fcba2ef228f506aee98eabee895eb618def, 0xa4ab41eba16b473334a818f4b6bd3c43de4a9392c15c9e19a8b4e9617fd4bbe7),
(0xe3339c3ab14145e540c08544eaa631c47be6c09e563ec93d2a05f219f4afdf2e, 0xfd586d7f3a668a0bf888083a9ea84f4843598417f55dfea9790ee89ac412fed7),
(0xa6e08d0766274337f3b139a8d6fc3f614dde9ef72e03fc5245f7dfcb1c0ab41e, 0xd9620b61116af9450708a610c78f0b528abd97c021ee34fa10d289cbf3c06d4b),
(0xf8ffa0d3b463fc5d44e6eaadcaecaa8508515bc469fe76e14ecdb25de503a040, 0xe80dd6f8934fa405fd4d74b11da0d09c0dd723dfdaf46221796cd7e24bb83f1c),
(0x22a212a43c00408cb4b94e2a45a6a999917c0fc70aaa565dc6f982cc64b0d0d4, 0x663d8ed03128ada4f421853d8ffd82011ec8b9974b0d827ced318551ff9930de),
(0x08d33b62f162963af6636f18ef33a83ce9a17fb6b1fc58de006d271d472a9d82, 0xcf0092e660311726e0856ff71893555b625b117d4698e4f3f31611eb21a56f5e),
(0x3bbf59cc5b4aa31ddfa0ce941853ff699db29cc7a0021cb211ba28d01dc61d3f, 0xd54beb79d1edb94cd6bd5ae711a3ff229f2baa0befaa139ae4724ae3624d8318),
(0x4cc9c2ed3a7266cafaffb517d3ad4aea02d4d877d9b08433a4fca2a3691aec68, 0x70ac52d61094da705f714f60854a56568c25cb13015021717bd4085e8b489756),
(0xa997cf8250d7ec36125189bfeb6b8631cec31fdcf156d34b186f29c65d0b30cb, 0xca73d95b93b43983b2c51518b4e419f8415f14fcb6356287cd65d49f92929d5e),
(0x5fae92aa7c43ac60b4bb4f90ae2ac462a6f886819aeada994d0694a3a6dc1722, 0x6b7ebdc4dbe15dd09c1e4587c7f297c174d5c9336bc91511f31e0cae2e51b280),
(0xcf541216323a9591135614702b187b35fffaff7d8cf1993a5144c7d4aa836308, 0x9d955733feaab81c4b03fe4d25fe36a25075357cb6ebf8dc1822cee97f585f80),
(0x9c2c8607bad80760efb4ba73442a359ac1cb9b45f81e54be28f3f6f44699773e, 0x7848812ff3101eed137b4dd14f503a429d71c157449767c6a5850204869a9817),
(0x2f3bca36fe504b7e93f701762e65dacd250b3789541076ac86352481c896f77e, 0x5af55f5db2e84dfa38bdd0ebfde7ea6833471d28add88dd2a7e7c63f0dfe513a),
(0xf2fa3afc0fe4e5da385f26d81848f8017401b06f652121d69468d2eef640260f, 0x54cea12ab4ced3ee2ca351df4310e96ad3ca0d80c3a3c86b267c4620bd0f69a2),
(0x82559cc9ead1465fa910b781cb2a50ed9a2b6ff5d8513182425b7dfd983afa50, 0xdb5dd99e242287bbc94cd1496e4aff707232e2bc1fa4c4405cd9f22cfc4d239d),
(0x954079af1494e324fb707e7ce9f1fc2a751e194e4ee058a6e55e26d8034901f5, 0x2f90eb0f43bfff96c3b0f3a1bd48c00b85d3650e52d1f614ed65ce704fa19e99),
(0xc913a980b1aca09a196544286edfed20dce316761fbff05c1c05fa707eced342, 0x17d2864edf39460f99b5b51c91752c5710ca7af9a6e10c4ec2b3e9e17317d3c1),
(0x815b7dfd3b97ad9fcf6ce427ffe4a91f2b541e2a11305b172fd7b63b82272db0, 0xf0b958ebfbf32959dbc407bd5290ca666f28bcec2fa69d1a7108a2ea19d58484),
(0x7f7c1689e93b7c7720ab5b74572e87b5d2a907bd624fb6ffd5f29f3fc64795d5, 0x691a2f460430c53c375829fb46ed4030b5bc4dd67064652345fbadbee6f8a1f9),
(0x8911275c106e5a481c3dc5be0b9b42e23be8cf2a5a76198ee6749b240bd9c5e7, 0x747cb0c216d899c0da5a8ed8f279a650f4537e7dca51bf56b3ca8c4392b5e99d),
(0x24cc2552c907e7579e85bf7ffc868ebe53e44b97102b31f238678bb7ad8c244a, 0xa152808f7d615060ba9e78ae720c2fcaa67772b70fd99ed6ffd5fbe7ed114567)]

/-- secp256k1_pre_g[6400..6463], /repo/src/precomputed_ecmult.c:6442-6505 -/
def g12_4 : List (Nat × Nat) := [
(0xb0fc587368795dc855e3e19d9236244a812d19200afef4c97f1e6c7925395f85, 0xf8b468795a0e40ba2029538afb7cef589bde7b3ffcc010a44ac962b0afb8d7e4),
(0xcd6f4558d634fc666dce566d0f94397fd3ab9178affd370755852679adc6565f, 0xd34d7be0ea40586e4f9007d74aca55e9edb4b31d8ad4f3441f611a9d94161b8a),
(0xfc5e8a3bada62f0b6453f4457dd4aff3993005d6de7b94d719fd487eb88fb7a4, 0x46041321f7fed84d2266d4a4d86d836f12f12296d62ed2966a7d5507d6717130),
(0xdc72a54055c962ed90e64916bdfaf6eaaaaacbe2fc180a7b7e7bda98f45488d9, 0xe3b4639441a2063e59c4cb061a0a7e5aa171fe39812922f8c04df63f41c8e588),
(0x7d135c3388bd589647f4cc3d67fc7809a7a4c5300e96fb5c7dabe3b432a4fd90, 0x79dd38348a61b6429eb7a8374e9c217695cff14a3596a18d19f843608aa0922e),
(0x7a56712db72ac3a6353dad9a15cfc9d27d9ff67e9a35936ae38e1c015980980f, 0x6eda856b9b5d4019d0efb2f49f1af9338969872c126b2682f56a8b0897a83696),
(0xd349548025c7f966d59b40d96ccb98312948c992fcbe2f6a7a7feb6a946125a9, 0xb346f8bb532da4de96908618b0f85a10fe9a87a8d612e4ac053bdbaf09dfdb3c),
(0x22175a8bd0a51763d18180546095169814af196cdf8648f529d27a9a825e60b3, 0x756d571381b5ce71e23c0190a1062fd0645eddd17dc84c9bb1c7d810c13db63d),
(0xf557e38137a1c6e0a19e42074a1dd59b17c5137d97a58fc255d18be1bf63877f, 0x6cf0bb41577ea3bb7c9945d5db33a8623c1cce5ed6fc13b9b0739ea99af10381),
(0x8ddbadb9c6a789782540d3e19ada3ed05ef35f45a38be47007083dff75d501cd, 0x75b4c5f951f70fb80a89fec5d52ea0b1dbfc57093c1ee5ebff2ab0bff5854644),
(0x053f0892cac79f482194dd9ffc0763050a8ecdd4977ac27892e2d454965a2aee, 0xb39f7a9cecdd4ed6d0fb16083b86d1af68aa85b8c733617e5e97ecda269ef97e),
(0x027121108fe28f55c746525de7cfd4c2f3a11b8e3c6329dba57a7b325a7edb40, 0xcf6732b374681ab73448bad0ae54b953ee5d7bb205a8658d3b366a78dae5fa69),
(0xe7627b26ff0448bbcb45a5382ff8ec9f9376127ab842521346e899b441cb5660, 0x79842f72e02820b1e6b6843f3a0c23ddc0941ac2b6fd30a439397edec78bc40d),
(0x37c48874f07ce0c6cf5be1819ba31bfd09a19aac97b270111de59fcf559fcb57, 0x34dcc4056a6dfa3f283e0dd108b1722ebad0e367c30d9f1ad552f3949ce19b22),
(0x316868fa33cf55441e9b9bc09f74fa1f8daa90583fb8b3cf8d339971311eddfc, 0x89fa5c829d9f4687f7cb6b8fae20d6a8cf872deda7f9b6e06e168c1e45db4e73),
(0xd34a83f37b7673b96c8695f181ce837fce2f15b872664d3b1a045c7abceadd44, 0xe4f2cefd591988081569295019b9120b495a44d34862323f808b11b3a8698081),
(0x687a48cd4142060a171a1efdc41dce8f8127ab64ebd7c22c7803f07719168799, 0xc082e15241f7db05ae6c1e15e4ccc340f4a7c8c2cfd8bfb16bcd04e7e635726f),
(0x70d2cd791d2d14189cf67e48519aecb4d58be2af164d06052132517e87f444e5, 0x73b4c12bedda1a7089ae9db8f105059a2a558475f5cf47961042c470c9e190a7),
(0x2a6f2786a191130edba1307ff1bb0f61c3d7b8adc02286f6044871cc170dd2c1, 0x28a0c85b8ec93fcd1b9a0617780da654e5448475a02a6222f70651325ad64b2a),
(0x3f482e128d5bfc4ed2f359cdb4244db7ec7edf92f3fc5dde5367d125dde8c772, 0xd41be140cc4b4217cdfaed4eb09ce5d4d3e95b52ed6689ed3f6dfde73c581cd4),
(0x96673e27fb0f8a468fcc53de1287604577786d935afbca99355453636614a5d7, 0xf6a4eee71c4249c6ef85009059c12f6a44adb8a9cefe7a8cff2ac0a0da28884f),
(0xbe7a886e499a9c2bc05e5f6477bcbb4f26772e5804565897408eb36ae25a9c58, 0x24457eb7802810f4de64516f24718b06d61b0adcbcf0d279d883b2bb45363a40),
(0x123985afa3253837e51f933f8f25591a823b244288cf8ba5a0247ec994eecee4, 0x0a95209621f7a9a43867c6a1987dd6611d3cf9962aebfadcdee0a5b86df196b7),
(0x75887ee8c28bd2f6a96086d9aef71b7b5a5fce50080c3963787089ede39b0214, 0x47386fd9a92161933bb500d9a1ee82070dc3edbc17d3ccc732d9c90b8995eb48),
(0x4f7642fb12376864291046572a2fffe52322df397cc097e8f7a57816e6709fe2, 0x4f2ff70f2e99354a60cc5b2bc3ef33d37e3e9ee716766018e3a0ba39efe5f971),
(0x8117d4fd551c9ae74c9fdac45d87bb669bc7dc354b08de037c4a13780734653b, 0x13633743d1ee8fd708482e3a3a9e39e975b0f6a7efb227fa84feb897693c5c10),
(0x8afabdf9acd49723d73c0deb1016ddce571abaa1a71ae3e9a20bceccade5782b, 0x2b66e3faee86dde223dcc7b610ea8ed2dd42124a247b79379e1900982580c71e),
(0xc4819cb5b5af7aa2895b81c931dc6bd1de4a1434daaa4fbfabfca6d928c9965c, 0xae4db5d5e1a09a0367df8c9ffbd2ae079f79ff96410a9a5c017229fe5575c22d),
(0xdae02e8f5d106f77c8a1e1f54366daeed312da831f86dce23e846e30737d49f7, 0x6d666cf473d269bfaa7c3eac4e5a286857df3661c949b5ea7f9a7a0d11206bb8),
(0xa8762d34c6f8317fcba5c64c68e25d550e5bf7e45caadb65a5468d2ef9d779f0, 0x6accd443bb181cd4591f8fca210f999686460bcc89dc06a02edd7bf3d4b75533),
(0xbf503c35fc8a0c55fdf4149e96b2d2180d29e4b91f703e7a9b0d4da504153d99, 0x7e1c09aba1437e02a2be3d4d7a444753e475acd6e3a4205694e68ea3cb7d1847),
(0x0789806748cc0ad5ab3a3449ac82a1c7d51f2b96791ee038dfceae58ea0c5cc0, 0x66b5963496eb4a69b87aa0da2905449fffd2ae3fba1555f65c9b8ec0e94ad922),
(0x25833d28addd8172c2a323d7cf498482732a0be2c10d18958d097cc0ff4c9a19, 0x74708306d01258d9bac99a6958ce1117f245d6f14a1f92d0dd48ca9a4c7b7da6),
(0x6800bb8a9dffe1709ceac95d7d06646188c2cb656c09cd2e717ec67487ce1be3, 0xd5228e3a1e0bce22c2d85b44e670e78effb1ec696c01a7222cd1e62adc4e63d4),
(0x3d7d587442e4816daf2f0897dbb06ceaf6c673da445a5342c61a8793420d107b, 0x422b212c93ab83e5d6323ad035a55321b7441835b83f180fc3803ccb46fa4ba4),
(0x3c44084faeee280334db27ea63339db39e8359b5c9cc9a857ea49740032d063e, 0x36493b7f1a732a87db4703bd61a768254a82846f31d8920f2cba7ecc1d744491),
(0xcefffb5ed26cf721a51bfb2d0460b91aa0b40a8152073da2cb75050df7fe8d19, 0x0b4e40e11eac7572efefac2fa97e5cb20a0d042c3ae8c541e51be4bcf6d33f4e),
(0x63add0db5f5099a32f274c38780cc215bfd58753144bd464e75b0da2dde97938, 0xbbed52310fe6d5b49679a13cc3c6c3825c300fb842b5eafb13355c41120c6848),
(0xba5d1f3463130cfc425cc6dbdfe083294d7aef4dcb207e3fd1cefebc7c791920, 0x70df29d78030a8ba56514df4b6ecbd2febfaa1b3df7b23eaed16458ff2f18786),
(0x7d363dd1c6dd28da94a7f850ee7533278b735dbff43e945667fc26e7af75d6e1, 0x460264682bd00bada5be02aa5034e762fe50d02d6cb8dcdc5aafa21e423267da),
(0xe2dc0164c9060646904206ff37f912ce2d50458a3ca186eefdda8d5304184070, 0xde5267d1354d12ad8d9a5930443dbef965947f2a5efa206e146e7b1edf7f5a2d),
(0x2e53caa635f0ad1c7bc4c2ee1e29b39a972edbd07d3c0feb9ab0d94545815ee5, 0x1bb33d23ad85b572130e93d2fe366e498371c49bb47ceebede3c12863f443b23),
(0x5dbefdc49fabdf50e6bc146413d59940cb36551e5a6607bb13213ffe0b56eba1, 0x893fd0a61797abe2fceb4054c4f540a4ed644ed313a2200be1d532db044d0374),
(0x5ff207e42b52b0046ab8bede06bd26f5316ae52cd148965d8a21e8d963374a2b, 0x1b778704daa94eb7a36ad0e722a6d56ec0b43c7ba739985a538bcc22b9181bb4),
(0x00da260bff4bfb8ca54261edc96493d3ffa90273a55538dcc9b237ece775fb3c, 0xc7c744c1dbe1cd19020edbe3c13f76311378140d9ee64c3eab07240186c067dc),
(0xb1985ca2e7103268f18d1063c59d8d782250f450c467d7b2f4e41c2801714421, 0x163576303970159a99a34c0fe114b95cf115d9d7dc9b09ad7c81d769aeee6898),
(0xbf98e773fe93f15aced03ac8368e42761cf3821b461cd84402426d2dcd1f7d7c, 0xf4fe02f5f45a9cbbb67ef626f239bad6e5108c28d783d70f6bd889b86331185a),
(0x5dd657a9ff99f15b56c5143e86ba7bc4b0f3495771d9180571a3d003ff008fa0, 0x8da0b780f644b14d2b661b9b484225b986b13038a8a9bdf66999144a4f5c212e),
(0x53b42d75bccf22037252ee9d25830f3e36e7ed8d8e1b6d4cb2371e14fd4fdba9, 0x7791453adda2ca19a775d6849ee60c18ca4958086f8b56e51bf2b2169690cd73),
(0xa3f43f6deb178109cf4aaeeda0666bec481a1894c25a4fc7f4a87e82680d63b2, 0xd0331e737dc25db735625621850732403a69a474d5f78e5493486b5b3d1c067a),
(0xb83bea86b07b217dddac9cde9b42b334c994cd1f92beaa8757a7e7cd2c71b1eb, 0x0b68f8fd66b45aa0dd56845873eb78291e61356958345fba7dcef9eedab957ca),
(0x016ce1de573b3654a0c00212e878811b25832f36373da91b9d9d7c890d06ff12, 0x264031fc7441fe5d4ce8ebc9232d18377fa810a0a0e19ba75ab16ae5e93d5763),
(0x18fdf98e93a7e3808762e8192b6e634ef255b2ee51c65b581ab799ff52409e15, 0x2d71afd6c6298868052ea0a1943dbcc8ff844ba380b177e862f9285297868dad),
(0x3d5f8af4ff89de18866f596b91300a32a7aedcb2a9423f4fe364cf26e2f53e96, 0x46e9bc8cddc56d4dba25a2f6e77a6a702e7124967591725f1d240e7f09836548),
(0x69dc1e7c11516a159edfa4bb1afe0ea35be5b7a47695df8e728a8dace2997db2, 0x71be8dddd4c51c1d05c137043aee61299541e929799f7b6fda08aee452f4ce8f),
(0x4e8278ed0ce9b3401ddb1c3c6b208539164e1ad03adc082a8d9dd5a09c63f737, 0x13e6a5ea7b2e8ebebabd812f2579b8bf56b476cedd23c4189be7b85a940c5d79),
(0x911575697aed20df771c1f4e78b73deac89b27819b8a5ae705e2dc12e6e7d148, 0xe7114d60218eb1bd730749575b96fd1050fa2d09f37c0fe60288704224ca1a28),
(0x3a37e743bd2fe2f13f667abcb6c03077fd82722b859d7bccebeaf1bba6087d93, 0x4192a6b7eef5103464040fb26b8d992821e321b8cd611b4c8d3e0186646f5dad),
(0xd45b57879e4732adad0996d5879980a1fc8dda5cb628435e96c3b44bfaf98f09, 0xe4d4f5ac1e4b039e731143d760e2ef35dc243097d2e2382db86dc82deba0554a),
(0xae5ff450aa607a9bbf4549d84d96adbc6041cb0d719793f92ec53b9614522a00, 0x2f061b20e9bca3af358e8d14a04f1d8297d1e1dda406d60ad15727d066b2b8fa),
(0xbefd368432785d197709ec42e3b6407c7a539b55d97c8fe7afd4f96fd2050e17, 0x65691153b2efb4afebd2dae1a50fd3aab648c7aff5804d995270cc22c02e151f),
(0x0d13626c00bc00cd36c776c78bdb17c818a2bc149612e0fc7ab7888beab48382, 0xea4c3fc9fe2238f71023ab83fe0e09a1dc167c0e6aa059338f177cbd241bdd45),
(0x9730fd420fa9ffdc414f90ddac7901109619c01bf43bfcabe65a341e2434435e, 0x0de610246152fb04c997fd62961209f944badeb36ea7774e30e8c8a08bb0b496),
(0xa27e09ee9dd4e34c6a92f4beaa1b8c0b2a60b33e99fa981dafaac6239f616d15, 0x33e6d8f70bcaaa24b6008e44377b48925f88e8845fe738078cd4f405a2747f14)]

/-- secp256k1_pre_g[6464..6527], /repo/src/precomputed_ecmult.c:6506-6569 -/
def g12_5 : List (Nat × Nat) := [
(0xd2dc788431e5a4973905876dbd6ceac78246c9d073d68872f54685eb5970763c, 0x85f96d40e31ecc47dc07fea44856068d15d2a999735aeb3a4959e4f99ecf5fc8),
(0x38fe7a6cc401daba981875a0f0c2f52830ce31d8816a1d3d47a3d96a664a02f7, 0xe9893a1a870345969d95e644313d9b655896a93181d36f6c7e3901023cb28c74),
(0x0f2d38ff14100172d117dff61522c61c3a590eb7ee9fca77dc264e6032291d78, 0x94eb4046ab31eda37593e705792fdfee2e3df8f3655befa9ef0ef39204b02dab),
(0x9e23c29094b6b8e74e112b1169c5c7754b690d0e141b74f82988bd8478d42021, 0xe252871728fc8d9a283bdfa3a011d28af531f392b5da6da71834a29f203e747f),
(0x3054117c0033c15a504156e097e9a0f7d76be8a9c1c88fbae1d9d2c54e1c9185, 0x998844e2b73e94681b0b09d74ca48dc2f29c6df5f3c38f7fb6846178d4ccae2e),
(0x65d1e8303421444b7d5f86002c6de12c16f15a88504c6876b9e94cfda206810a, 0x71c9cca16e066545b11e2c29edbac8f48533ec411e331e15a2bed53f1b1878db),
(0x124b78b8948c43747c5b32de50cbb055ebf9fe7c5643757340723180131ec0dd, 0xc0fefa74970829d94c1314b364a8516e3a3c7fb8e1d49f06b1b9c19fbe18ddd6),
(0xf6d81a5c395ab69828e5f1f784edc6f6a55137b1411baa28615abdfc36c18567, 0x3a759acd4b758dbe79e22f4b26774b8840121768f655664fc3f9bbbc91f564cd),
(0xe76bd19bfe13dc17ddd14619da6b12c9f28195146acef71a9e7bc32a7abbea8a, 0x68cee27f152177e30afa7d47903801cbb20ba02ac48fefd6e23fc102e6456bc7),
(0x07356c0dff8f26eb7df215c5cf923c4e237fd7adcbe58f7fd5c745be6451a830, 0x16a0d86febcf42d2e89e9a1a803838d31dd7debc527d49e4a7db799c0e1eeee6),
(0xb8d00a5643fdc57bdd9491930c5df30d8ecf5b4d8b3a13e264ba3ef7c8bfacc9, 0xf05acf539343641c3feac33628e9b08b9a4e3c4994c029aa470fde03d5d8cf8a),
(0xf555e29d4dd3e0ebd03f3866596be43c677d1ac401a1a3a81936ca6c89618880, 0x171d88d19abf05a6981eddea8f030e53117a2e2a97c2f352255038fe32ecf95a),
(0x172e61676e7755f3c6a59c4097a8a870cdc09d732064d24c03db8ada7ca50ec1, 0x7c1e58e038f322d3e147b3dbe9b8f311135d688a98458da9f6f8a6d54d4e2a96),
(0xf8f5fee7d4e8eb5192cb7ad39ee26cfb44724b7bf9c74fcd61f95e3af33fabc5, 0x607fd05e361bfd66519b5e11d00d22af8b0ce85c11b16cd8eaba71e12ebe6bbf),
(0x6fc770f3f6169350bb8b247d160880314348ef730cee49e5c0f56a19d2d66491, 0x47708f1080e755f12b1b0d9b3439312bdca07d85fe94fda8414dbdc6ed9353de),
(0x2b8c0b49094d3f7879776d8fbd2980c87840df1582427cc4f07ac8060eb7f7e3, 0x3a335552ccb3831292a713769c7994e419a7919db776ce6cdb2ff09292e4d798),
(0xe473c99bdffad22b72b6fcb0d741179eafb78aa0de4b5d42dd19d7d772ab1a60, 0x2d0f795c61ed1ac8b5691d5e9d52b19a42c368fb9d0787fa8ef3b2752a3d9d26),
(0xf389dc2db76a47aff9d7a380ab49274b1a40c4f7970bfa63729da698b4afdc4e, 0xb15c2100b63f7f5f911a647425866d795a57dd9774c21cd14907dec0f5f3afab),
(0xdf6e36258fdefe31dffa19ff2416f8b49fbc09c5e86569e44b7330fa56cb6e1c, 0x4b5fedbe835f0b8fae20f627c8e74f410a5443c1a764c46665f673f9f62dfc7b),
(0x27e40da1a5d7cabcce586e33a4ace757da972cf617c3781f3fb0e0c4e6f0a70e, 0xffc4b3399cc0b70136d871eaa7c3a6ab0fa9dc9272625fb5b8bde8d8be55904d),
(0x71b6f20ee558ac12829362ae53900a59ae29cc7077dd10010d9d7eae36b95618, 0x0e765adc1125219b316beb884c0434eba6f62499b8b2d217c209c7cd622d0597),
(0x535d5fc61eef1a9250ceaef8e09e17978debd3608b03f72cbfe265a2633332e2, 0xf8453dc24ad1ef7b819d4329a475275726c98e5565440cc5b5d509d861c98a38),
(0xd1e2222a26817cd3a537f2fb7437ce06ce9fa6519d3c196771aac21b97de68bd, 0xa131cb69cbd27e62cb65ab48a7f3035fa78ef40c6c42e94eda326ccd2b452849),
(0x5aba95902b5062c159b9639ef08912b8e7eacda9759a4e98b0e21d96c2597b07, 0x896a74fee2596e461e93f4ca178646cb04bc5454227a2dce1bb5d532e558b334),
(0x9f07bed84449bf9a815a546effcbd0aff22c9016188d15ad7c353e2e5cf84343, 0x6fa14d01ba16dd07015f3e68d57738f71cb56d9561eb84cbad63bbd2d9ba439b),
(0x80a1920b14723439cc2090b7189f96e020e6eba55f8964ad2f0be013b4925515, 0xfdb637916d0743768e32f983f2ff17544313632350b986742ccb9ae27997a020),
(0xdbb37c16202dfd9e914f2922e8930789a70d4de09fe7eb257d9a2b83aec2b4c2, 0x0f6bcb8a2c7bfa20491d3fffbd36e82d091a72289e4fb6f89e167803a17b7932),
(0xf03035f2f0ad31ac59e64a6cf46e9ee2a2243ee7de5ccb0d0cb3008397551b4c, 0x1a1aacb9798651c12bdc6ce74146e2594263474ed7b9d42d7802633160748722),
(0x1886fa45e7447e89b0873362605beafc4e05965e53fabe41041e1c424fb234d5, 0x0eb5374da4a198cdd90273116b4331edf0f6a7a2fc52aa448a9274b9ee3d7743),
(0x46a262a25b76baf8ae0ba3f4ed8f86fee4854272cbd0ed41313c4e0a357471b4, 0xc08ee49466d7dc12a8e08880732574e6f6fedbf271d6dc37eec3c32433d8070e),
(0xd521c6c4a0db26685a36b61cb73d3504ea7b7488e3d75410494e89e4ab404d37, 0x41f334e76a28cb9e25e6efd4fe3eee2d17480189b921d726aa027b3f75f94bfa),
(0x8f44a4e3c18d714f62054e546e9ca86e818fcf39fdde40c83044ddbebe3b951f, 0x210ec152f8c90d7b8486d1f9c5c49a4868249795bf7d017134d9573ad5b22aaf),
(0xd5a74098eb20aaf7b664fb8d063e08b0430733f1466552db417ec64836a31dd7, 0x7eedeaca97f1c85a98496159eb0245641c8ef0dc21c31ff89d06012a3387647e),
(0xd2a63a99d6ab9e57a2a6d39d3738c3bc945053322a34d3d24cabd1ce5111bb08, 0xe50f6c3e796ac830e276fac9ab6738b40722fc87880f2e937417198d9c6c1323),
(0xa1b826f21f7abe38c622b93a7510114ddffe4cb6d3fe0627dcc0465cbc82ad9a, 0xc9cec051a253ab24a8507b070d24ee4ac1d5a5c733f0c3d5611e8a9ae4aa9667),
(0x40719ba689926b5b00ca99a40161a1bc0d999d402311fc5be2f5260ac3c10208, 0x9edb353a73e9fdad96ca6b770b467dd9c7d6d2c8e041d8f219448ea4c603bcd0),
(0xc0ee8dda080fed10721e7cd809dbd237216f4e84bb8f713811f8ca161e3a0977, 0x6a786e532a0f49cfeabf03381d64de561a1973c936d6a5ca4aaf4cbab8fbe1e7),
(0x09c75860ecdeaf1bc598a53048a221588099afbe20cb08c13afbb133b2681809, 0xd7019eb35fb61aee56a1afaf2675a028b8735dccb3f5d93bc3e296729203321b),
(0xe39df6406dbf2584fecea5bfaae78b5dbca93ef09054c754d8b235c2c5463657, 0x33ab2fce3a2e3e7de2ab230be69bcb7a4d71c87ea1ff5d34eb8b78f2d5c61a55),
(0x0022480e4a7cadd0d17a418a78074f80c4731ce5d9f1268b1ca502041ff8282a, 0x993591da11ea444508ccf8bc2cd55fae69e96a7789d006ddb85a22ae85316200),
(0xc613fa66231d38b3359c3b94132a2337e2a8c6083c88b41e58434c1948a6a1ca, 0x8087377bc3d6ca308c932dc6ff82430f3fce21c001a8b8b6c28bab78d3ddab43),
(0xc0a94837c2fb86ad0ca791fbbb0838c13bb0c981e23c4ff794dfa5fa00c663e5, 0x1f81050ed21fcd5a471657feabe6fccfa391f1e19a88c1434644bfb5e1f69f9e),
(0x87ab257acc2296afd921bebc8e52fab1c9c21f08ae09faab18858a061e408ccf, 0xd5dd88e789d2f2d43773854fca9804113dd694750a56864d3c869205d682027c),
(0x10d14c28cf44c5d8fbf5caf60b307f6fee203968eea1be3eb36975152edf45b6, 0x46926a1edd4f79ad74fd506e0444337523ec76fae09d216d3ef3ed4c73b635fa),
(0x2eb78fea63035a3ddb64149b612832b0c9ab7880539c67e9d722e252f7e23166, 0x4f72ef76d3dd59c0a4e1be466ca5a3cefd84d2070f7d671b240fd41b20e72af3),
(0x14d8ab11402af341dc5cbb6e1116b85814decf11e6761b0931b449b020b6f56d, 0x91bf8c4dcc717657990e0e3b3558a01febbe534e897d12048a7d978c3a1d735d),
(0xcebc042f2e7bd361934da5e60dd2dc8a9e73537f5d5e3e463a88bcc3ff6d5552, 0xbaa841c85e0a7287b1f16c898ef03f223097e92c44952c3245f2fab1dcd988c5),
(0x4f28e546ef539c7e8f33191b897b72458f48a01d79f65b8ea8f672f7d0ab027b, 0xb1c1db0d55be796d2b415259089088a7d86c41f8cd8ccdff2bda49f2407123d5),
(0xc4d31178b73cf9abb0e1d554a2cf93dbed9a7b9e8f49c9c54d63c8156e111505, 0x0f5e45287089cd963118e279bfc6661c1e77ab67b81a71bb4ec14fe00ef0c13f),
(0x8e260505bf045c43f3fd972ed4189725a4db077452f94eb951e42eb56131f0f0, 0x4afee681c60698935ce21991208457b011548d979a33a0becf3c840f77c4b4d8),
(0x982818ce69b4c6f70631daac868af6a679fa66318c9da2c4bac994baf9c95d81, 0xf5b13c91e7593e5b69c859576398b1868c503b6c251792707e602f52f30ca9c9),
(0x75c2f2b3537207798737488d16a5ca6edade382b78f2b2b3226fd5ed6ac6c855, 0x95aec19fb97734cb8426e530afda15e4c3c3dedb02aaa24f7ca73b4baf475960),
(0x606ed5f18e4dc1e53b6f5ae3896433c2a904cb841ea021fb84537f6a09dd45ed, 0x3165cf7526f277f5b9bf22e73629151310158d63b97b7c88d49d88d2d63dde9d),
(0x0a33e07bc2934f5ef02ae1436b3ef5aed2d633f42b40e35bd365fe2eb8c72d51, 0xe93cfd7df2e988179eb9c34873530504bc5cd8e5d8393f0e844073eedf6d6511),
(0x5ee1d077735a4a18533b36d1eb484f1498b220eb0cd41746b0947403d6b4644e, 0x7d4e123346a6ba1d8a8625144d4bc5be0072e23df25287c73512817de632f8ef),
(0x7485b8372bb28a8fd496f6a033b92ba5962026618adef933d6aadc5655765b0b, 0xa58defb8deb4445d80016c9f5c04c2f6e06986c8cc95da943105d8fbd0fe84ed),
(0x3a321f942268584ccac5d8ce5d6011b122169e73d9093b2ce3e0bdf9ad680d21, 0x99fb13c0ecb6c5441347a4fb842a726901492219f9bb7c251916f8377d4e2cc0),
(0xc115a2e8265c600510bf7108ee30bee177893d5bab0a8cc1754810c33f112585, 0xe2f0a6365836a24c7a5c699745022e8de0b88afd37737c84d1ae437deaf0b3d3),
(0xd8895b97cd390ca2cf8e60930c1255411602fd9897074a8eaa11bd3f5b0f3c1e, 0xaf8c594bbd2308e012a632b31d05a25e23247f756d7a22f6fcf48cde028056ad),
(0x4ad1fd48e77fe497b4a15e7e869377bb163d760e105e46a9a5477d69fa944eb5, 0xa96cce4fe2f5f59017af235901dcbda3b640271e95290d591fdcbd8decf39703),
(0x62ffcf4b7ce6c5cb76766893bd0a6f2ae33ef821d953c00151c4be3e67f2cd8b, 0xd6b1d025152db954968ea1bbdd2a89db16103f5547cdd0429b7380f7c4c985f8),
(0xe71343c3cec5e49f60fea9706d256a4dba499e866f9ab33d6045a1be00cac40a, 0xee1fe3dfdf22602778228bba91afd126a96fc10bf5d2cad1260911193a92b426),
(0x31766ef2f3531ead2c7bbaa3279e81e00b040182ab78065f0d1930612792035b, 0x87b93ca891151ee9775669bddf2e5bf79f728d52efabf584352ba4db8cd6f6d7),
(0x1e8764f1982a97d8b65a0a6053a2fb5d39f1221e0dd4f532b007b2c80c52d39f, 0x8ed84e0ade68b7895ecf8c0780ba0b2653faeb493d23a453cc23987ab51f3a18)]

/-- secp256k1_pre_g[6528..6591], /repo/src/precomputed_ecmult.c:6570-6633 -/
def g12_6 : List (Nat × Nat) := [
(0xe249cd914e35f97c92a07f4d6f9961bcd7f6efe50ccdfd44cb3bb6989939fe43, 0x9ee2fb474abdac665bb0178fd8ff3bef6381a90dbfab05e4a9e5566ccc362ffd),
(0xb9a28764d21db971f7cb0c1e87c9db64ee6a1acc485a02e45d5ffafeea1012b9, 0x1b55a989043ff4fb25db6aa112d5c459b1ee0fa3aea913cc54878682f625e882),
(0x5d0428039f8c37b4dc92a9ba43bf7213971488dfbe69990131820bdac0b6ff03, 0x1ffd534888796c6ca631c3a14773f89aea6d59140bcdf27c38949147cab8ac1d),
(0x6d817b4252986e2e8ecb908e99011265df0cff5961a82b2cbaf0c61ec8b22326, 0x55cac99ad6a70b965559af1fc5b674695d653662bce7594e022916fa7c4b826c),
(0x9b069431297f0d3591451039df8a382c1eba93c2f62f4e9890e5455939916ae8, 0x70bf9138a04b9f142841a2e6bdc3600f1b22c81cba27f30819a763b6e64fef71),
(0xdbf5e41ed83110a05dce4bbbbee05f0bf9700ef8273b4bbd57099bc9460050f6, 0xe3e8f5e1697b05b123632b8928c3b34a06cf1e6f327b4252c3009046c8406404),
(0xc8ef12ee22aaefbe9ca024bfba8fd744d7c5d489663cde66a3ff1dee8174ef33, 0x0db64c2c0db21415fc552968fbef01ed131db2f01ec8372d1b9da98f4792e8e5),
(0x3d086c8faf84b66dbb9212f1512663b1793d6893023f45af9bdd17bafed8d7ce, 0x2d6a47fa9e1b6c20a2cf30dd0a99547ab9ab9c135ef86ebc280ac62d2ce7847c),
(0x0e173d58714db8bccfff3ab88cf1be0b547e03f9db60c97bba5a6735cbf4bf4a, 0x44b8f9916764f39368b36b569033e3047fe9066270758fb685cc3f6d0e31b2fc),
(0x31ef8faa9082612566e739cf299de928068c6027b882978ef72d014c4aa4f379, 0x9fb9e021fafac23708d21caff1262d7fbd9b8333eaab0fe88a3499b3d153a2e5),
(0x5e112e522997b67e146b998d781bc5287e2ad47cb2c5863deccb0873fa088b3b, 0x19cf3f06d3c1fdeb8147e074a42fe178c0b141352dda527450a7d5ce58d3d441),
(0x9ba2cddbc1a5153f089e9144e862acfec624095b8cf8b7a5b15edd6ec7b70eae, 0xf032469b9527911a92dcff6b5847fbb89f4ce42ef20b40d480b3a58c72fc805b),
(0x9ff7e46a4e2c6e9ad5843f4cc5e112c60557babe723203ded75be7eb0179e814, 0xec890ac02ece651a6614bab21e4944a7d248c886bebb33c336c28df069be91ff),
(0x2a13752a1aea6e21d25ea21db644ab0bfb84b1308d3f2083be26098ffc4978f1, 0x18f4936e65ab66db11bf53e57eb7d1144820fd01ed827f96652514fcd8ce910f),
(0xa0647c4f02b4f27197f3fbc3bd81bc7ff72d964c1bcc131ecaf9bda657b356d7, 0x5e0231029a8eafe89466181a80440196e850390fd42dfbc21d3fbf6d6373a56c),
(0x6abaff96aeaca928ba9a0503dcff7a51420feffc33b1ad53b1a7bd578c641ede, 0xab59c03f7ad47f73df424882dc3ac2bcdc2ae6ed3eaae48eb807b01098dc0de2),
(0x442abb1854161ba247fd366e52d40d5665293573c339aa2b28dc67c670f4ee99, 0xc3f44b44d13ee3ed4ffe5188c5134d60a28806b0687b565299924655342a5898),
(0x9f54f23b45f632c1f05245f6c5d1c4339e18671fda494eb43bd22be7b1610096, 0x25c9e5321a5563f1f47a1e4c99d6def8541601ac8420de96190157ed0aa17445),
(0x50296c0c185abbc41c86f5788dad10f27f76074e24e931db53944b486ddee613, 0x81a02b32b1edd53937ee1c78ab630f2b45336e16cfc560f00adeb464fb71b9f8),
(0x39c2d099e2892b2b01b6abb1a198305c0ed59d94f7022cd6d521b5109a8fc219, 0x8900f6e63fe1a7c727728b92aea4d70c1316570fedba940ce626e94ef03dddff),
(0x3581e30b17067e44664201bad7a6ada3e0648516260b760fb406dc4811c9d0f4, 0xc8bac12983e49250bc478ee5fcfc066037d68f9ffda1acc36861743ed7a794b5),
(0x72b67dfed341824b9fa090570b8362d138287eac072926101169e41f19dce477, 0xbe527b0e52ce07a699065bbdebd360fb72c6dc7788030aa945fbbabe7f038524),
(0x0805af914a973e3643712cd44a1da4a83d1237e59c99138717175aec4a8667c4, 0xf6a7beea205810ff5d1f0e8f5818854abb730c7a1ddf02c0968b1b0592ed8a15),
(0x447942894b297a87e3cdeead5cb2dc429fdeeed5b8038189331874ac88e67536, 0xd67efdbe8d7ab8e81e25c34077687b940d22d8ecb89d7f5d46ca212f0abcc1b5),
(0xb73347c9baa967a75e5c8ac314f3c6cf275cc89372b26bee731693cb48d36df4, 0x307f8fa198f1ba577ba330d5816cb8ded9ec3f136bec058653c64675753f1542),
(0xec6d499aefd540e90357f1004a136049d1f7df5ad99c44c46e3ed4169e40acb6, 0x21e8082cdf4fa2a838327e80aac15ee440549109aaf6ea01ccbfb95d3f7a47c4),
(0x7607b7ff8bd8369a67d22545c40a1588aa2e50c1b5be6115cbb8794e2085f283, 0x6c4a9aa21dd2ad4f7d6c4f0223885803ac3b06fa6c0772ecbfb610b6a1d25ea5),
(0xdec4b7ae042e8a252c414458d4e0d7fa004bf4d0c943275413d3b7708fb53839, 0xbc54d9026d035b643579647567805bdfaf6cdda4d0177206384c4ca98edb5898),
(0xa7be101782bf48e837c2e0ec821e37b3eab0360736561152a95a06a7fbb7ae2b, 0xdfd27057dfaae0a9b9523a9edc28a2bc3631e84d5fdf8c3de1e65055805fe0bb),
(0xcb398b2029e55994741b87cb592e90990926229aaea60bd630eaa528726a04a7, 0x263e89b585475a8a50723568d3328fdf56c8fa8af0f796fe7b4d2fc59aafe2fc),
(0x438a6d60c289dab2e89331535c2e09b7a677cfcca605ea728815bdd2615c852c, 0x109ed19a51e01f3ba9dbea30f652676bb3a8afd35ab5178cae5577930013025f),
(0x04db8d4d882fe513e5738be2347a05e92c97816c0b39339b0adeef997b682e50, 0x88280370d13551a8a9803a28c56bac4770feb07f56a1a0ebd132262af1ea574f),
(0xae2ad953bf13c4c5c3fd5ba3389323fc260de722e36bdbae06db77b21c0df210, 0xa5866bb107580958df07c17180606be125b3ee739c3bae928fa35e9d8efc7364),
(0x85b3809a3f772b20dc526b9c19de8cd49c2d9814df4a9b601aadd01664c66c9d, 0x984a80612ce95364b9819440551ab1b64028f61d3028b72574dfbeb68c174cd8),
(0x7e2ddaece443396a7c7eede70ad96c2b63faaef166109949e7431b06309259e4, 0x3aeb7f9214fd37f2aeec1921e64e7a8fe6a4c704dfbbaf62779d0eb33b1e81cd),
(0x04565a746cd1d26e962bebb4447985ed7b1622f30faade841291d69417c3ea84, 0x7215d7b96362fcd2320c0c29e0b304d0ab174103bfd372efe6e4534c64ff3708),
(0xaa8c5a11712aa04da870bad1606c9549bbf676d31ea5b26027bd1055ed56f996, 0x11ec28a5a74354363d302f2324eba09268028664f0ebd323cb7bc5877d92aac5),
(0xd9d5c0d4b5a3305c9f057dc98ecf7482f6d825e469a641f2caff9180b7096e0d, 0xd2b0eae9cdf57651bd296ad2f4403e77d643db66fadd7a8427a150f306d547ec),
(0x2ab2e7ea1e1bf61a8bedaa4fe8fe3a7a0db66c25ed1b7ebc536efc7f8de22777, 0x28806bd1fc7dca1ba0cdc177908e0588605f8c1ee76cbc07ea05b6ad0080c0e5),
(0x2da97d42a9d064d738bc7fc2f2db39a9588d57f98094903dcdaf5054238c1568, 0xfff93946e789b9028694ff95a68a7fb2981ca0d5d2b6de3ab3112381b8360f1a),
(0x470fd28f31418f2d70367e4e961da5cdaf8d02555bf6bcf5e7db89676dbb174c, 0x59a494442a2502643faf843acd242640e3622df9da6bb1cc6c956b7e5a26078b),
(0xe41bbdd46b78fad70ee62c339664fbc7e884f88edc184e12715e8368160a7ef5, 0x402525937979b92cf72bfa7db3f378f0cb4de758a6348c7b02b1d73d57ac9faf),
(0x9761799a7e155a4d0e6aefab963b23fb1f17d8a9cc5f8c646d4dd6382359c553, 0x0493bb003ab38aabcb4d4491b6b9e8ecef068c9b933fbb326e0e1c75ca44bf1c),
(0xd59fe2e05fcdcc2f0dcc22cbb92200512c936bc82205f5df75267a5db45b1245, 0x68af556f949df3fbd8299f05f5e8587457d109bb4d39563489d3ac773d4b7b2e),
(0xf8bf168b8a03f3c48e7568abef613bf93f515f7193a24b62827455a6c6bdf142, 0x434f350e8eeba6f6d8f07137a33199b888907744eb547384dcd96aad5f9f3911),
(0x065298ff636b442c8c45e748c3cd2d1b94770ff33bde1d6321135bc089ed81d9, 0xd0aca445cf460f5f470902022c84fe1dac0a81e0b7458e4c9b21dc348c223ceb),
(0xd1ac0d0e25dd02d6fea02b6cc98f4b173804641693258208f04a81d3450aeaa5, 0xbe491f071833efce56197dd4d3471eba2a23491df09a87f908a4ff14257d1dda),
(0xbe876d37fc1605e9ea0923c4e53497a38d51190bdfc3dbbb3191a483949cae1a, 0x8499ad31ca5acd994a98caa92a91a3215fd1f1f6cd70c463afb91673ab6b3a72),
(0x07c440cdaff0d8da6fb5e2c8fe27a301c2906a637d9b1bf2db848f13175de738, 0x7dd6cf71cb013a8e9494cca600b418fbe99e9c803ff34d35e586fe258ffc4fef),
(0x25086ee5f0037c83e38abbaae0e3356fc49020d6f9006edb235937a04d7074fb, 0x35c21eff8cb888dbd3271a5c4dc1db522072e58d974af68b4d6cecd5d13e582c),
(0xb1a7584b6f43a593363d6e62edade63655ffc71148e6c9b42915d0d5ebf4dbe9, 0xf418f23a9dde880859816098ea06d2e4dbad3385737b7bff0a1b339e1b556718),
(0x87e1c0c6aece59e91118829dba8e0271db30409fc08dd79004296b9143fb7aae, 0x4694c5cc176cf309e4bd4935b88e2fb0e7e1b63c28c5bab5d3356733184ef152),
(0x19f43d3f4bf0f2b109a157f33f71c5a1020e21353187b508e568dc5d8131a2ea, 0x3ff130d9835e0eab2744cdb25607fa63edcf9648d910e25fb885ba9f0b340860),
(0xa7f9239c5e8e371d7d175c8b120816be2e543d89a22c3f7c5478ae1a14f8f6b8, 0x75711a87561fc767093510d547abe6f1678d0cd7335e7bbfb87abbc2cc3089e4),
(0x9f3598e8f80cee53969a79a6d3b655c066283a8ef2c5d7b78ce89e675d06446d, 0xd9cbf50dc2aedfd451fcd93a46245bc0772e9f9dfe5a25f63af027b2ea1edf79),
(0xcc00a72a66dfc8a9e7a4edd6699764cac15140e7216daa59cadf0edfd1e3267f, 0x91b10836c8ebd0312f72cf2ccf26c89e1489c100c72a04cc071c0d0845c27d94),
(0x2dc7758db176a48ff3117aa9671f7b6bf0b2128a4bc60fc3f907eb1fd20ff347, 0xafc8270439787ab6bec0d4f07b7f289643073cfb65e9d3ce0db8ff7b791f2f59),
(0x2502f7f58dba7c37bc4637ab8c77c047700dea3f5b760ec709b681219cee008e, 0xf6fea3d64e776f5ccd293dd94109d6f01e55c039c30438eb6e626489c92f078b),
(0x70d39d430d7f209253967479de620ed2bcf963de6ceae3b1a80fd27501801382, 0xfef8bea645807be0e1c5c3e204d391d8bf0a6b33564749d104fcf4efa8aa7133),
(0xa09962fe9a934004bc31f92f526ff444da7889e179453a55b0fee769034c69c2, 0xdd71707908cf19b81f55fdcf86cd3755f708256e694fdaf5f929c967eff687b5),
(0x355a25554590dcf284ca548f9ec9f40b22482773cf122a4025ed416b9d29c692, 0x549ed0bfdb861bb74684ebef7d70ac563703997ec59b1f86bb4b5dfa574a2f64),
(0x4c145d2ca165a5a8b66f7fdfc16bcd5cc22304f2f0ec31459b9fb0fc797c9b9a, 0x7cc14054948caa4fbe04b54f1b60a51dcc482fc8c94825f78de4f4a9a63f8d5e),
(0xb5ac199bfa5913006d635fc686d87cb252c5c67a6b897a09bee578f49c57f8f3, 0x41e164aed3d967da94f0cd0691cb3ec079c5712c279b3a8ad75affda2879b234),
(0xad6199130f00f620038321c359931a9efd26941aaa02a8128d9f3bf408818185, 0xd7b5a0339e4b8ab2bf66a59745c0b496b58258869084d306660670f30a9de912)]

/-- secp256k1_pre_g[6592..6655], /repo/src/precomputed_ecmult.c:6634-6697 -/
def g12_7 : List (Nat × Nat) := [
(0xf8314cdf0d7659cee8377abef4c80b009c99c1b2f2bee37da726c6d2a1deea90, 0xdb5a45c9a7ea22cbdba3a784131ee81c2a1d9edfd9ccb9f96fc93d35a332eab7),
(0x1fe1bfca5df9c48268e8866189e238e37915957baa1e0c3eaf317d12c2f84650, 0xdbe03060745396b6fb22d6cfa6b273293b3ed08ba24ddb388942199a765d7414),
(0xc414da43814bcc4331269d581c0a8c149e304f5c13614a897f4147259ed39070, 0xca194f90dac3f7226090b94a3b94db7c5c68931c7461619d8b9126924fd90a4c),
(0x81a098c3d1ebf42769f621b83eced5589dc0faaf24206f97480e40d1025faba3, 0xfffac91a3b729698b0b26f8ae6391b1c8f8327f47978b011d7d1cebb6b0ad8bc),
(0xf99441dde4332003b6421463b4bf6595172121d3f000763ba40cccdfbe2cf439, 0x231fa7c3fffcee74bd111f183689062e1b6b366b2fe144402061de8e4688b3b9),
(0x2f930e6de3586768792e565c211e1abf99e05fe879c010833e6e51217abdcc60, 0x2d51a776209a3da9ca4dda2207beea48a93a90dbb51f072102864f36a56424e7),
(0x9f8e96d599fd07bbe9e0010f90802d254b30e359bf0fdcaad6e782da62c6d25e, 0xbaeaf150de04c7aed8d34278aba6eeb49b3f213bfd56585d41890632d6b64e02),
(0x57f186f6fa5f4aeee3e8b44ad775301b66d7fedc4ab8c827cb13838664727f10, 0x5a65c0c4a69b16e01c32a95e77c8f99d53bc15af5c16845719bc8220d7baf849),
(0xd344361ddd0b764cbe16f46f5efe166c10a88bfebf532a8fa1fe138a78e0e1ac, 0xdc1afcbba84b8524a5d985ac5506f15fd0b92f85875c2c4a4144a93e0e455792),
(0x444163a758095900e5c8fda488ecae9524fe54ae2592ae537e6db41e8019344f, 0xbae54b91e69ddcb2c1bf22e0bdd721b70a9ca51bdad93b2859e0950977c26488),
(0x5ce2e1d646f10fe7e419641437fa2c1648029fd55340d2e50f32d467e0c4e222, 0x6e95f538cadb1b568313429f35fb925dd9ba571dbc6f3970ff4fd2764228e82b),
(0x8b7226b08525a07a84ee858b58c418d31d4acdaf9b08176156b83a8bfde6d773, 0x0684e6dc37a2ba2d89c0b01ab4e1fcc21734eed82f7b15096724acab5e276006),
(0x6aa5e30636046384ac8e3da3f2f0071308acaa0bb0d12ee21e69018a4d0554a3, 0x2144dece31a7453d3a07e290cef1b694f393e5d3f6cb07b7a8c991b52a788029),
(0x8537990bdd59836dda16ccee3871a23203bd841f6128f845b036985766c7e0e2, 0xbeda6acb946a6e0843ec2890c2d11ee2404cadecafb3f1c037cfb9fb07b733fb),
(0x85a8cf21001de57c9c0ba88d02f9a77361041619639c9de3e2f2bc71cb9e66d6, 0x80d1d1cc3c757338f5a6aecd815cd5aa1d772aeb5c1efa05d5b6488697ff6de7),
(0xd4f18d05cb183c547594ea939330c17437870e7d48a613ab4a920e3818068267, 0x32fc3b50394bfc8fa2a3f912b35ebb69d388c87b198c3619b04b6b3c36b6190a),
(0x123e8bc565ceba86d4c1726d5e7e2a32ac6f628e940aa97fc96ff72cec79e637, 0xe54b4332975774e0748fb58f3ddc5a148c3eb1cd824bab83edc76c28e991d2c5),
(0xac26cf030c5a95e39a9757460a26bde68eddd6b16c83a3c581fa0a79e93d0cdb, 0x73ebeeedb96d879b882ae5032f4001425c8ed97f98daa225346a5b7e9abc4832),
(0x54f2cc5aa4d81daf6600e921441f5aa15bb51a427479e123b9561d0c8c71299e, 0x3ff4e7f083f85039d238a740b7fd16a1e313cbb5b0c6fe5dad99f221da4aa27e),
(0x008bd785b73cca1c6c405ca91ed4833b428b7ddc1a61c8d9b0d1dea8ef133586, 0xfc5b65e25c3fde0f3239ab96625a975127a30cbe0f98e1ee735c1f71c86cf292),
(0xbd4218beaf5f92ddf96a54fafe873cf2171c2e30a13c866ee830bb2fabb17d5c, 0x86097c6f91024f4f8900853bd17dbedee2674e369f3fc69fa2578eab174e783f),
(0xa40066301b63e757fce2f5d2a7444e5a1f2d7509b7f594766951f38c1755b497, 0x87aef8b3eb160df94b46a56a337b6400c724658ca49c1162c418e90029efde08),
(0x5c5af5f565b2870d6fd08f95b414637915cda056e18ef6824cbbbcf8adca740a, 0xc7c6de6ce679f0dc84e2802786ea726b8eb0ad04af4b9a5ede516f11583607cc),
(0x0b5c3629b86e9235478aa7e2d2e5b539b70765b779ace9ecae76a65980f0ebd3, 0x086a8a06084fef807a081bf03f08c0787ad0442076f5e1d4521cffec8b2dc96d),
(0x1784e06acd25fa6672d1fc089219cdb454f5c7114237bfe4a2143eb320a0bedc, 0x11feb0a7d8d43ebd5bfde5fd21fcaa5e7f091da63acf4b91956172b35d3af378),
(0x39266c2848f58af447e5ce4f61cb3ba69c3bfdad7e5742fbba4ca3f4f175a291, 0x7be4b8729d1e2fa80fee16e5bfcdf4ef2cff2872e9c7fea2c1997d6c5d7f1efe),
(0xd6fbeb8c72214cee58b33bbf2eb04924f96e9b63d104aa92fbb09c8fc2e4b1a7, 0xcd9bbb10a800d77709d4cda40561a2b8759b4dde045dfa2c319e4e59039938c8),
(0x42ee0a8385464cbfcd4a9ac273001bb8592f2a740b28ab7c2eb7055e2a471b76, 0xd22c6ec9d5499b4f26947233a5589aeb14c943769a6166c2af9d323be1adea4f),
(0x8cd2a0434de9b238f4dbc3b7e56ffbea4f025e2d6c73a68a4aa62bb49e9057f2, 0xabfe69a9986ae1db52a807c7c08a1116a2dc7aa2ec3b649d7326bafaca74d21e),
(0x14c35089062dcb50d01750a9441eda381a95abe372c501bfa99f953a5c94da3b, 0xbc57dbf6bba79503f33be20f96a54fda0fcd7be9cb0644103db11e3e2034a3ae),
(0x2cddb64676717e4486fbe0a7f7d6d85307c3fff9465e31e68da22abdb3eedee6, 0x136346f0cf5fd1020932036c3605179d1429a70671d95524a14869a3d1cae8f4),
(0x0d806ee3b5702d2350c3f179a00c37019c055103318594c58f10b1001b705aeb, 0x7920174921e69caca0ad590242e39a04c3af8cc4c665587ccc0c89b83744b9b2),
(0x00534f24715e9b8ff5f76a4fa617839f6fe2f1753cbc3d800331d12e98f6ec30, 0xe26ebaf64affe9d71ba2cd55421c33ef2e4a3fb1c59a72b593ececec65a40e1c),
(0xf33af0ef4e23c8ae7f3de5c522e8bd9a6e527c8a023242c84ae6677eec90b8f5, 0x8510bee6bacb563345f380758d85dd0f493d179cb9250d25fe88134a6055aefe),
(0x3cad472512a745f67e36fb921a2926d6ae2942788004386b272d8520f5a9aa61, 0xd12ccf9727da84fd317116e49d45d741776c82784b2c9f1ae3773e1f57b8934a),
(0x4b7fcc395f50944d5cf3b3f62b1bbc3e3aca20e6d259e931d3398d08cb6fcdf1, 0x99acfb05a106a389b7ad644ccd275396d76b046e9992e573dcead5c6c7da96ff),
(0x9b5c0e8b22a62110bca2770b778f0a2d6d67e908c57f806d7470f5c6abbb27f6, 0xda52c77fea3056fadae674e6daff8b21100d007d8bdefb12fd56efe813c15a02),
(0xee7b7f5ce79eac13d9b500edee0b65d8e7c93203aaad71a69a935e3120722361, 0xe77ccd78bf6380e05e5e8de220448a00cabe7d6c6b7ac31856c09e2a9a390778),
(0xb4774237d36a59f00e39a133756bebf74df433652a4505c8b0b84833dd5b3a1d, 0x5a5a03a9e3463ce2fa8bbfc9afde9c25763f48743cf0b2ca7dc42c3f9bf3accb),
(0x05827142c69944cba066a98579acdc0283e1df828935ba825aa550475a52271e, 0xc05c58056bcb6cceed5e8c8abeac78b969c3b4827ef5b402c94fe1faf7fc81a7),
(0xba06eb6ca54fe6979be9e9c0f8c77be5ada7bd7f43894d1d1705cc1809c9b0ed, 0x00176be0b5d3db287f235e2fa9531fba65f5ff8d55b784dcbf7271bf0864e3d5),
(0xed84c2b611c1208f2f059d37a3d2ddc9c3a0196c9b9dee3a5f2cbb0d9383625b, 0x6dff970eb08bb4c54dd6ad6edf25bbb4621a5ea93869de762524dd2caf1c6f6b),
(0x0158b13686fbdcb6ad8ea00109005405b5cfc0d8f614592bd9e76b1d8cdd568a, 0x8c576136634af4e79034b4501bae33e09b5712f80642cbeb2b7c8910cb28fab2),
(0x687d52da10df80137232821a990adf74c54711de110027f068464c9d162c2410, 0xdad3819f8071b3cd0dd84fde550d24e631785e1ce137e1158b5cc6878cd09f10),
(0x32e8617dde77c33ca1d317db0d35029850dc7fb7148913cf0413e04b384dc81c, 0x9cb2fdd515231e8321a3feef804d62e92b8b9c0fdfb73dd9c3323017b29f2ff7),
(0xa53a659f7cc9042121d96a903801753cea43b36300405af616d50b4efff054df, 0x96734742ecb3c201742f8f64df22569c92212928ca0d5453d706f90533c345cf),
(0x8a9e4990b9b1a2b132ca950716170713bcbf57192dca9d717fc9c4fda3993fe5, 0x9542de81f66098dcc0bb0f8944ea56bb0bb7e86f9c63222c80620c7d02fac20d),
(0x5966c5b0f92c59060b9bda0a7b3f10f8e4c29796f953db1d35976175dcb431d4, 0x539665b990bc38104b7938f347ac94dd7b9228cf07270284a825a202ac62d135),
(0x2170d9c704ca5e85305d159e0697fd1dd32d6f6ca2806992f082ce009139c34f, 0xb5cbf52966f71e558015c90bea2b95fb4a0fed8def1f9af4518789e739076c64),
(0x86e9b03c2497519d615f83f9d0f9bf9b101b75cc50059e194d7b58a29b6fdf76, 0x215d042d7976ea35a3dd586cf5b286ba0a30e013966fbb4599845111db8b56ed),
(0x02cc7d91ba630172ae56cf609a5d3c05e27c2e687d607c85ffcbf6c9a467028a, 0x9404f86932385290dff3f8fa1a0856615855aa6de9742d8f9e2777f9472ab5c5),
(0x84a89b0b304ed760c3a3d9725a65764a11d59ebc25249f691d3b871110d3cc73, 0xb7200408fb1ab86653b6132110b6bc53c8a0805e568f8a0a80a65678c54c5829),
(0x04e9c88ed10be9eaa34bae158ba3093b42ad9cb7356f34dd33eada3b1937b4a7, 0xb92050dc95423a8c759222eac09593c1342c2dde5fe382d56838df0a877dbd9b),
(0xfe2883e66db454d531f2aaec96f4f3f2868ef393d09c76850a65d476c6c97a99, 0x1ac280151bc7c0a10cc4be80c6eff3a2b8ae70b1180c6a157c89dd3e3e78568d),
(0xc74df902ba66c205e49f25c562d1eb18f4f4f6973cf491351600092480f3f68f, 0x17f7bbc959dd7e6d9043ad3807c0097b403c8d1fe676b8db0d7f2c631fa1ecd9),
(0xe7e7a72a41f95b512ea42d1c76da24bf0067059ec27d531355c30e6069a72c16, 0xa20c2f516e9ba9b1fd3a84738309ace7da6006bfbc42d4ed657da6eb6efedb8c),
(0x5a93859edc4ee6329d36536e1bf1008b0603d6a8859ac6c3a098748bd6e18bce, 0x489326a01e05c331d97db6cb68f098c46712d7d2994e6c8dbe892138e2106220),
(0x6161b29371353343a46d09174f6467ea25a0f77ffe6141337fd3bf7771062de8, 0x57c439d9a1682d4f773c82606ee65e88473544ae64194ab23fafc2dd7612b385),
(0xc35b16b5a3808dd9553c7644400d6fe8ca48c8ae49c780184a71eff6b94ce4ee, 0x6c3baede4925766f3a7c59e6d6c1c966c3348b1f5883498e9956f3e66d8fe13f),
(0x0fbdae4932baf9041d2953782d227dce4e2af60a86796a6986b777cebd2cd134, 0x9ed9b5fbdf42e755a9cd761acbb928776c66d29935dc526cf6950ba3d63d0c95),
(0x6c5bdede17ce2007a3a1c18faf8a846ace67b7513d8bd60223610ae4b01b720b, 0x6492873c26a22bc639d4614a202cbb2f2a08b78a753592f410c855d812f8d39b),
(0xeba4e62abf52b3799305bfc0eecc63c05221a0b8b554432c15e460d421dddeb1, 0xe378e6c8d6ddc7a672d83c3c9d863c5332b1cdc821ed458cb817c49b6dbdc519),
(0x5a79ee4a1aab780323ced132f9c67d5ac740900ecf71a0b0ddb1d6c9794cd90e, 0x9f60871347b3a231548909fc812624ef26eb26fa986305122b1466f2665176cd),
(0x78b702ed6d816c15eb31dc27619d5bf06ad646b2e39750f073c31d03e50d9385, 0x9f1cc22491befaa4fbe9721f86bebcb011024a084380e46dbf11ce99f157fd24)]

/-- secp256k1_pre_g[6144..6655] in pieces of 64 entries -/
def g12 : List (List (Nat × Nat)) := [g12_0, g12_1, g12_2, g12_3, g12_4, g12_5, g12_6, g12_7]

end Secp.Model.PreG
