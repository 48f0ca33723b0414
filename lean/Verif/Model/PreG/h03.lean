/-!
Generated from /repo/src/precomputed_ecmult.c:9794-10305: entries 1536 to 2047 of
`secp256k1_pre_g_128`, as pairs (x, y).
-/

namespace Secp.Model.PreG

/-- secp256k1_pre_g_128[1536..1599], /repo/src/precomputed_ecmult.c:9794-9857 -/
def h03_0 : List (Nat × Nat) := [
(0xbd6dd2a6bfcf688b84fe2d550e56025d3556757420edfcb13cd144830e08cb53, 0xc86a45e184c8380638ea1501c28515980c467d2cd1c51a1a1b037324d9ab0fca),
(0x94a417fdfbf188e41334fbb6906731e870dbca18672bece7936a4c7c235ec737, 0xe03c6607343ec14b81eaf124bcfb7d97564e9f93546f97650299a443d9be8e34),
(0x2a57dac33fa13b26a96d9b73317a23c02ac597d303968fa8ebd88d9466aba51e, 0x1754a6bf1db7b3b8b0a7996e545f34fd3b05bfd9805b50c442db2937e8c13b61),
(0xba2e4a7106142a3967c613e993083c32d1c66da12c3f9742eae90b7fec7e7df7, 0xc262f8c1a704e83bed7fc60c5adec65eccc6de358247cc971da7acfe834cb07e),
(0x4ae19743b3132512d28a12b11fbbd82408bb0b9a0730d5a80a862ea8ecc01ca9, 0x67b7267d48fa3ea1d1c1ec7c0a6a8ba0cb27883c3f9d419320b4c8f7a017eece),
(0x04cfb26c81823667f18e6ff9d77493f00778b9bf411b63ad61850ea77706ddcb, 0x10df8a3e3a8c93df04d7af16407c3211aa6c6079c397a0c778e1e27724e4028e),
(0x9f9e4566a014b66f00fbc3efb3c0506215f061026f7d6561934d3db95d130349, 0x492b8ba276d526bb98fd0c17c5a0aa7aab6e5c9cccfc95fb0a417d259396c592),
(0xe36c05133641b560b0f9f4c101159e2fecf2a194b55f3bd222ecf1f6ac239301, 0xc7fd74ba48e7fc406322aea8e9f83a8220e9a113ac2b0c7faa05a5bdbb43736c),
(0x91b013b3b94d456878737580bf1da11aa0bbe0a4e3ec65e033e9f824d8480bbf, 0x15e3707ec13a252922a6f8247e33d172948790ac3d367f006472f22be8cfc5b4),
(0x254d17888c676d52236782de2d539f2c041f667ad75d01077d43f723ea324f56, 0xf7042d2e93511e5d13f4aa03bb2dbf2709bec3df979742755fd25133c814094a),
(0x452d6b7ece7d0f712afabe442a22f16e34fce66299697f0b0613567856f4079a, 0x21ea8ba128cffe763400d69fce13204a9a39ee5914132d23db3315a47f776998),
(0x1580b9d007888f4181b86b855b1982d2817831855f28c1631f151479cc4c508b, 0x4d9d1e9c78b3d9dd73bcbbe8778c1b7f65b69faaf6576dc3ecdd00f5c1d689ff),
(0x79dda23fc31694c916d1470c2cf25a0245a5aa7ed084af450c43960aa2fc2700, 0x7c7bc169a58b8d8cc4b74e0f377031ced7158c21a156fc03c34f25a3a95bc978),
(0x866da7a9bf80cdc213e500afb5f4aa0e419b4905044653b5fe2daee14149dbe6, 0x626d38b3b45d57aa6867e8adc8abc49a081a282c6bc6524b239819ab766bd3d7),
(0x432bc912bed271e9321624cfc6062b96cdb502caf990522e1024b80b9411d374, 0xe645449edd7c4d4141e0cc5acc5d45df4cb341c2baebb605bcdce6a3e411cf01),
(0xac3d3b2883ec385a15297086525d937b0717f5ad083a5be477b3ec9f6410518e, 0xd126eefcc9ed7e75c10d01b2c0e790e73dde58f954185a125fcc726884b9b8db),
(0x4570834b2a82385d6db696d956ae2667fa18b262960d064a5c13da43abd6aa37, 0x1e9d6083b249bf887ba2eb590a9597e7d9d15c64ad6404e121a486b061236f28),
(0x88e9a6a0ffaae05b7c29bf792163c0aab224b05136aeffd3341355d4b983ef15, 0xed382a2dfa2f63eadc4ef5e2579abafcfe457475d1ae841399969324718d1e5a),
(0x16810eb4de3327c6a505663dcad7f618b397033bd6c9748c04fd87482adff706, 0x0352ebd891326c9d2159e84c40dc29ae30693b7e5a9ed11901fbc2cfee60c81b),
(0xd7d03a92950649811cdc6503588d157c88c861d943fa9cabe2e3301c994adf7b, 0x8c820bfe933c2c051ca3042d5ce781e6ef419c8fd9aa83ef2a915e36382f9627),
(0x5b2c9504f645ac9024e25c4ae880ce7bf33aed77e45518d91c6f2652ddcf11b0, 0x500b37bcc7764f3211d681e5e8f2a407440e1da24eaec354fc289c7629296449),
(0xd18e26edd2c78bbc169826759d59eec3bab1a64df579dc2d6284add48cfbd761, 0x1a1e0172037a3e788fd8989aa5bb6944685915da1392e1a44a6c7ef57d0770c3),
(0x5f6b14169bbc47958ca21e88df252546dc9e46bf85d6477224f34ce28e58222d, 0x3a8e76164d5a0501947ca0bf163e64bb3a57918de383c600e02aadaf4b7fd6a6),
(0xd7a625e8dcc8b456698020238fe85691ec2e050a2542137339bdbc8a0f762bc7, 0x8f1f9935a8ce2607abd7bcbcfec1fd8c208683a71000080620d50b4d36ea3643),
(0xa56a541972aea4f715dc891b3a1b34ea7ffb42c95e02a7716bac663e8d5913f9, 0x47b3dfcdad785671180f7bbfa7f5d14459b44023640e38971e999a906bc3f994),
(0x1ebb89d7e574cbd137b1a3cd4a306b4430325db3361b7c3ad93116fabaade31e, 0x2039c52fbd30c84b4983d1185422a342ee020c3349357e6cb955007538da4dc7),
(0xb5728208931a65754b5cd1a4a798ec27e189effa3ee4f0c5ad493a88b49706fe, 0xaba785e72da3d301cb29a612562078bf358f680a317836c214ddf7d10bede9ee),
(0x56661670d67b7c77202a00deeffc1ef6f5162a9747afca8aa2457c8585a775c9, 0xadaf08e183bc510704c55122e549d3c14de8a89339f199b2ea044a254d8803f6),
(0x18ab56e1ecc86b697710424335737b51c18521d1b170a3e93fd068f0ddf2704d, 0xcc694c3f43bfba9b20c9572cacb30563df74f07ece1ff9ff46b8259e8119e94a),
(0xbc12a874482703601575b7540bf5f50f6e9451852e0f27c3c1aa0f1bce0ac357, 0x9c6ce76bac175ce1d667783c7204ace4abe12d5662ff36f95de017c6f1ada1e9),
(0xa4494c2699b2da0d6edbdd6c353eca75756667965ddbe4572c27ac4679054584, 0x589804d58360a9e7d3e2a91461d5b1bae8f0cf693b8add035545386d5082d621),
(0x1ff846f96d0e4e7ebe34de77d036a027f1baf9e2ea3dc9c78284ac9cce3aea6e, 0x8a0a336b9f0e356031f5d1a8d4c0b68f27ba3eefa52dc9748d03e12d653f2e6a),
(0x33181aae91573ddc728839e04173f7166862d72435744099ffa8f1f29510b374, 0x1252129a8cc8ce4c1ddaaa0a4c34c4a5f01ee26b3e1a9fedad0e7c9fbdc5223e),
(0xe687832dfb0e44aef7649b1577274a9464426406fe4c6ae57028c9e578012594, 0x5e5b389706b734b7b65caec8c77ffb7fc5de4f98eecab0028cac0c4aa513b7c0),
(0x354bbec3ed9371ac58174b5e2a18c76c00c22951df4c6aa5755c72f394b37def, 0x40d0c8769283416db3613ac737401e3f3c2f4defbbaba44b5c2a83fcc614c29a),
(0xfa46ac6c5205b81f3c9e8aa68b5ebef2a8bc68bffa2f4511ae36f7267439a485, 0x3853f9fab016d2a801cde37b13f911850f25657a765fbb35c1b4d52e3f67d180),
(0x426f86b733255f8e1e85263c923fb86e56a53d77945f66885627ed433024328c, 0x92ec01685301c89d5b13c4c457b22215658c63416aff91486a2efbcd4e8c4fdf),
(0x5c8d1c9bf9a72d5be15d3f4d17d48cf17685dfecb5ae1edeb47b6e5880bc64e3, 0x6205550e286c81506638a3c7c20f0decb6a26b53641d2dc4e18d0f7d29bda7e5),
(0x3a021dbc7bf7501fddc3135626a9cb01be673373fa663c80271be570e683422f, 0x64a89c540ddadf89784e508ad056492aa7a71b82485fcfff54c7b0de4c1bfa53),
(0x8d82aa491d719f00075d2dd911d642da7c0062c32296726fa504af2723ba47bb, 0x6e616f506d1478f6988ed10d6c6d3c507c2ae8fd4760e6991ff5c62c53e4e77a),
(0x6feee988fe488e1a6ed5d60efcac1b3d0bbe54516e7aad76f27f08e53c5e536f, 0x00ee9f95839fba96ba26d848425b68a073dcee6135e04eeff482998cb044c502),
(0x36240979bafd0d5772fcadc7314093c63063880ae895ce5d2df3e59cae16fa1b, 0x619d037658ef3d85a7afe32677d832cbeb20820c157836ca65f17c61c84afa48),
(0x4c2b88474da56053c2046fc326e817040b78494c91877407009984a3cf6a18f4, 0x459a9e6917a4d71161ca0b4385c5a823734286e3d0cab398dda1fe213b28142c),
(0xf921c9fdb33211baa7f4eb5b15044c34d6e54f50af7b85ad84e12fbab1478ac2, 0x38cda9b8c850483e48c6b16a5f7f624de31faec35cd594f93171490fae016973),
(0xa57769e66181d68f8f86c8a7da3fdb4e850ae07df41e78b8ca42c6b21b19b257, 0x212a987e644bc42bf757e00d54d50ba51dcd6698280f8eb38829dafc527cfc6c),
(0x95a7810437abecad888c919523c9b16b375a2714fed7463901ea949ac7c11d9f, 0xeae320aa227b056b242723df1f11a494ec64287691a2274809e1ecb2a2cfdf78),
(0x76a7e034f7ef3e142ada9a64ce9840089f034a5d8584a0e5d10d40f429cfa42a, 0x999dc0e49633eb3c2a4ec9319bc2eedc9f2e4996522a240479c9468b668effa2),
(0xeba893964756780501cddf929db7d82d427010cd5e94247df4e8cd1eeb5881d6, 0xb92ae1f1c08852143f37d8be616cc5d6aebe0f8a8da4a6a50d4a69b5dbbca552),
(0xa53a48d8059fe1566b14f872aaed4735dc0b7589713ce8addd3f3e1d6e23704f, 0x9e738da07e85a3a83d89403f3ee7d5644f463418676cea0d2528b51539387fb6),
(0x8326590bdba5f8a38e39b148105063a7c831cdf998288fb595b4fd5ea707d3bc, 0x0a02cf88a2a1dd252d00d62ecfa4130f061b7d4f297e6b06cb4661b2bf768982),
(0x6a492194ba8c10bfe31714a217a74b2fb0c35a2c095c54af7f5ac6df17916030, 0x3cf0bd658e0c937a92ee8b4fb4fc3289c531cd006febd45db6b6c522f8c77b87),
(0xb4ac71c6ff797eed61d80c4946ba221d3b34bf137e3d47474b6c306833c52a57, 0x46acb2e48fb6fefcef3d23434624e0d614ae3b60df81368390503506d52820f7),
(0x8b11711e65bc29e116bf05b4e557b21113b19b93a1c1ef9b49a19316c286e0bc, 0x79c4a0cfcf38353821ad695e5b4eae58faa6bcf5c722c4910aa9078c8aaf0dde),
(0xb8b00a76e86b257997603f82e80fde24727362c36d7a192d8974f6434408e098, 0x05db67188b0108dd7cc6fa1cfead7b2e9e0b9ffb78487d0a5851b6f8513e56c6),
(0x884c3a1b0fb6b96853427a8f69b713c6bebe8f690645fa52c50e2d2d61d89814, 0x3dacc0e5094b2eef3743f821df54dec0ff28aa4bd5b18fbf14d658ce07a3749b),
(0x3d0c1dcf51aabf63fe04100dcbf6fb4ec004dd1aaeb637d8496a47f974637596, 0x576ebd5bbf5de2cd06242a6f599fbb76883fe0133e2ef05d228432360a5df51c),
(0x56b3edaf61539adc25c57f79a277b77f1ae972b63d5328fa13f811e2dabca8c7, 0x40383900a2b2860271ab3d2b5dda95d096bdfbab79b3d347dbdac66d2d2e98eb),
(0x426e29bf50f34c9f434eacfa845485fe5fbb11d8319f9457a74905fb2bcfd3e2, 0xeac47ee8eeff40c620d10cd5c3b9df40eeb60b88df1f57a35d61319833cb117a),
(0x955737c9f4e24d7ec6d419baa2edadc7cf0a91fb5bfc3ea67ed50ca762929308, 0x97bbb89d18fd90402fa78314359bf645b69831b5bb82e60867baceed481675dd),
(0x5d72a813d46427a0f2fae639fd7e7ad0704e74a083a784a1cbb85017e8b3e514, 0xc92f410e851fc61e559d6839a99eb95a2e8c2636f51c45ac9bc1613cb8876c2f),
(0xc7da9359e9bc8890620876d9170495c2dda7849c0785240622551bb7e769b6ef, 0x1227816871508d0095d9078724a0c7d9cb41f6c5c82f01c6d3794c3f05c10653),
(0x67080a26da7af0fdc2fee080f20ae516d92697d7fe1adace9729064f569ac683, 0xad9a07acfbba708b30944107e510eac08e08c5ce79f77714aa522cfc2316d94d),
(0x210d5a39d61428f76f878ddc82e3afae3947f4045c155a4163a005705bfc0dbf, 0x617effe6b0a629c2ed14cc2967a9193c2efa804c93e997ac96eb18032e8c511c),
(0x5d0b9231ca1511b9c53242a937837d139b8e461c6ff655fc59021d04e334ed98, 0xc8070121f4794eda713ae1b4a9e7d6cd1a2f58e1f6f8d986bd13a66ebfe924ae)]

/-- secp256k1_pre_g_128[1600..1663], /repo/src/precomputed_ecmult.c:9858-9921 -/
def h03_1 : List (Nat × Nat) := [
(0x687bb82c42101161ed0c8bd544c719759013fe2afcd10ab63ce78a67e2907392, 0xeaf63d87758aa3a6f9fc721cf8b209cffafc8e8110397e356a25e966100d9eeb),
(0x51a44157b8048f681a2a3931ff2c3ff3c63527d1f4bccda40e66a6d1ce5f5d33, 0x6ffc8d16519c294014fdc8f420a638901a0c56672db96a1ec5127fe9e847dd31),
(0xb286257256f515a35624786a478c3bfc0a5dd7b22bd7c4f989f70bcb8de86775, 0x22ae96a80a5a5396b7a67e5b29292ffaf53b64de45f17692abcd932d4664f3a3),
(0xf76b721e201078caeebd89a5ca3962136ee129bcfb92ae584bb7c7fe0835bc30, 0x599c6ab1084198403d6b3d17161bafff223a0a381e96a4b7a062f4a3e6c0d561),
(0x12f24a8763adee06e82f20b7ff696911d9a3b88b36dedb9793b07c34c4178e9c, 0x59fd7b9f96f01fb7b265d939c2827beeb2427fdf08c2e1b735178d58e055b7f1),
(0x9e1b8a90de6c6bbe2a082d47758240ccbcfaf145c48f90cefa0221e31922260a, 0xfa5e86a5b54bd9e07c2a54f42097d0048a71eb06ea48c0a66cda59810b390f9f),
(0x63f0590320b73eb7b01b6a66e28e31f1ed4117f86c4d20a38c1090312fbaae9c, 0x24b8c9d2d34a81fe06e88967a263877f40bd68cabaf5d9c501abe8b19501d8eb),
(0x447c7409f5402a3da1f569a4ad9f2855e5c89b6e99c743a8e27992b463905999, 0xd44e8d9ab34a7a0947b37723be016c08716baa738b93f28db7790370ad49e154),
(0x74a4406a4c5340afab77db0c20f197e425eed4f4a3f986df1bbf10dff8793254, 0x162d678a0a4ba7128cd36907d1c46b16dc4c07bc052aa46dfc7987eb67742023),
(0xf703517131872637ab0e63cc841cc7b62bf5e076053a45ff3a23246e8f047c07, 0xc84b03914f470785721762a95972b59eb3c7eec966718936ccaee9c1da1097ef),
(0xec4fe07b57b235812c53bd706b0a41522194d168dca164f6ac999f6f72eaae11, 0xaf49529145deb29fec2b1dc4e9b76051b2f9df79bdd304d7b5528f5ca2fff789),
(0x17156de8fa96174f7a0b274ee168d0d4c655204711f3638878dbab4acdd2ac9d, 0x02ae3ec436c1460c984e37ed6decb88fc2de9f8479e28ca6abb6803f1461ac3d),
(0xe41b462b9c5a47facfa9be5600dd30cd549cb90c09506a6aabfca6439a1b2ede, 0x108fe2b208bda60ac68fb35338c6958fe1b3604c22215311d380bf11017507f4),
(0xba6c015920a67883d788005151a8038ff357ea78c53b95ad38a6f4377744aa38, 0xda49c0e7deb6b74683366aa5c0e8e710cda1441b6686f6804579b5b916002cf3),
(0x26f0186e883a4b6b87102ab7f7e526637e8a95538495729cee283568f8cbf1ae, 0x0eef8de4bb2197caccd51980995a18a0aad78823075702d398b245db4bd5f47a),
(0x010b93de80c0cebc351b5588c0140e63e00874e3da663cddc4501ca5b40c9d22, 0xed3189ddf79af36be7986b027ec495ec1dfef7f2143582842d05b4d01c903258),
(0xe79ec274337a82c1c97b32da8f5a8c557a15954076c942558bc9a3e777769dde, 0x9f23079f22dafce354a4c175d888f3eee527dad983d7502c3b651762628a06f6),
(0x0fda017544f0ad3fc8b9915e08e0caa42be265e392041b0c1b7d31a16fc101e1, 0x424e9a2785d59c6ebc7e42981a505733e4d49a76b84a030d0db2f5c1858902e7),
(0x681f01cb5380cdfe5031472588bc830c8327d8a3cbcfdb31577cf11ba099c6bd, 0xbf9d2117cdc3b05f9c06cef06fc9e75759c02fad8e0d98cd00794918f39002bc),
(0x70c25a6b2a2d2cc2dd251f4d9aca250bd6fe9f8db9eff9611de2095cdbd12f64, 0xc9eeaf68a386b2cfcd3f4dc4793ea5b7134dae04d991e1f46b299a4d1a966126),
(0x464ded2c404b42d4fefd5ea45f4086663b466e850fe8b30403b121b89fccbb9d, 0xac1139046ad3f61323ad2d3e0a568367610bb47be41a526079627122105d910b),
(0x0a32df7248e791985d455109a8c5dfc1b7ff89901b5ce3f02ad2f13413a103db, 0x6db4b4fb9d60906b9aea2d1d876296c8cf9ad8d33e65e1738212134a4b160e72),
(0xfe49ce9e7ee5d39c9702977464ec4fea3ccb74dc2a5c7fe9a76953150165179a, 0x653f553a35925dceeefb98662615572390bfc582b4c426e63f58f0fa3fe7dc8c),
(0x868b2e55c895a7c24da24750c126b10dec0f1a0a2add5a878aa7316e3354ad14, 0x5e288874cdea19fd71f035941a6291bc776bca8200804324efb61f247ac299ef),
(0xfe0790da90ae34c68ad3f1c080fc486bd267ff7efd32d1aec63d08b58c098461, 0xad331393de35b283471a0244422c6132cdbfccdb5680bef416f3beaf6cf7177e),
(0xfe7fca8d0f4f80dcff16b196167dfefa42a23bf5668379557f6d82796fe9a9d9, 0xbbc4dd8a0d7ee925dd80cb3d681476aeccc5729ce1815b1e71c8f1cbd8d4eb3b),
(0xa236c270aa4ce20beb51b11b511cf4c2ae797598e9f03fd23aa368589434cfc2, 0x593599c575a7bdeb41cc3ade608c210a8bc37040fbb69f4c4863a31f2088f29b),
(0x0d6a04a56bb8c27f3ea8a348538364e2800472ead9e1f644565546fc76519248, 0x4b95470d50b9762922b099aba5761243dbf6e466226e8e079b77069ab542deb9),
(0xd09cd377d64a045fe1a76f974d701a24677732283261aebd74e02ea9f8a30e7f, 0x9f0942b902b702b3d76ed2d01caf880d41a342eaee06ae57b90a924d6588ffea),
(0xd030c72c16d01a9d6c2e524561c7e3fdb9a469bfff0a7440b2ed0ea5e5d98b8b, 0x0c6b1308dba4f981016b60ffeaea843bfddeee67ca1406f473db0f11531f2c8e),
(0x56c456c6d2c04a7d441980ab80b39a5557d0c6f75706bba1100c6bb1e345a691, 0xc5b2f0dc2c735d0f8ef10ffc2753c2b2825ce525a0613189fae34e6426084819),
(0xaad5adf3b505d1f428dd1b98dd4fdde529d911c5e0e5837d75e51bac308400c9, 0xe94adf674f7994c1123aa411b790c68cf55569f21df4b6e46afab87e2777acc6),
(0xac8cd8b4dd76b8f74886b089f18b4cb2ca1d43c319ed034e6b1867a35e6a0ef0, 0x71d70894f9daab157413f8271cadcfc6ffb71db49bcc81f3c759d4f7137ba96d),
(0x3964006df110fa45409d7a4d05996b4493eb4150f421794841dc5357dc47ca1d, 0xe4a11c6d21dbd93af922a2bd23f057e5c2f2447436bfd7d6395a46df03ad7cdb),
(0x2be10b9227a312bb74ea37b19bf910b7723a1ff8fb43dd551a0e1fbf7bca56ec, 0x19aa8afbc886dc0d293ecca94290b24b755b2de8c1dbc0b459052edcc6df59ab),
(0x379c15562bd7f51a1d219a34dffc8babccc1e4171c38d342a4c6325ab5ad6ae5, 0x47a1f28fa6371df566dce22310d95535e7bc67347f20748db983fac42f185907),
(0x24054dc2e675459d2af584a7d78110e930a36290989dd4f9914cf7a81fce9809, 0x6572ae1d3e05d0a71c4e06d4820d16a53553dc81a6f02a7612b584a2e57ae592),
(0x9812e6a6f46ca979ab7cd87901023b32913199c8b850298fa3bb4c8ea02420a4, 0x468f6eeddfecd93301bbaf36986f93773afd963b5657715152a12b9c88f937f0),
(0x460586446a348e4ad84c928d62c9de2a9f6c14fb95c83c6b96203a5a7f13c700, 0x9dc55ee3ca3d701fe6759c203b18840f4c873f11057b21ad90401e77622d57ab),
(0xa8dbaf972d5b05f2a44d862fe4aed0fa1cb877ca639ac3228e909507bcbe006a, 0x3db54c03f082937c4f98d38c6141d0bf253e6729b83c990251ac4a97176fa4bc),
(0x9b8b39f4f4d9132913324bcd44f9846a008b30192267112874178009391149fe, 0x490a4f721c452e5a88ffc69390b0d1b34e4cae7f2e0ab0976b396a991c52c1d3),
(0x334681d5a7ef46db196404ea9e501f817406ce2427a6459773e358ad314615eb, 0x2b23603a1d80cd6a9f04775a52069de2e328fdc137fe6b6d6c16544253ad6c0d),
(0xfeb8e310c63c6ebd294639b40a4cce42bd5f8372b7aeaa882023f0e029c32529, 0xcb6e42ad6a0cd780aa57934b8668226068a45c63bdf7e617fbcbf86ddb43b213),
(0xf4a17bc2c7334e92dc9232523b910a55a8ca5cb62b3d93b3fcf0f2c48705cb67, 0x812b779501b247294b3d55a32f45260ae7f4a9e3d5cfa304bb0471b0da6e9dfe),
(0x8ec2ac7b855143495496d596bfcaaf4ec330a995f082324c7e0479ba4ccf181b, 0xea1588b67811d2637bcb3bcf05cf0bc470e9279727b1c258ce4ebba935250130),
(0xb1e6d61bd9aecdbc0c9c4b6d9e48c6f7e4aa9eb77da3c00153443c6c04d4f19a, 0x43af7b55b2e2c9768b1fdb3448d6f3391bc20aba0eccb1a35aef98afb28cbf4a),
(0x4d83d2e8210d47dc3904a3974db354331a95196302d4e2e4b69f20492f13b2be, 0x7ed96c833874fc97be45f1d88e5842b97a0e3bac954000367c8572f63d37a6b3),
(0x1448e92efd51fc21d6f5d51435527f6725f5c5eeb0b29c36b9eb6e8f2bb20b84, 0x248a338fc8be83e52f91c9a22868973c13336aa639e43f4cea8bbeb996e344ad),
(0xe23b03d69c2250ac2cdcc7d44e0a218e39d928b02585fe63dcf7093c924e4ead, 0x8c69c7d04a8a4b7c1997ef44fadb04d780b91cba13dee4542effb8ae71b9aea9),
(0x4cd1e35e21fb3fe6946a929b9aebfcb878663224da66af94e5a722b432b5d7cb, 0x6b1112dc5e865b10ba68878032978617eca892d7730ca984cba4ab077167e3bc),
(0xf3cebaf8092cb7b027cb92123596ece0bf25c6b0d8f1dbf5f2efb2040a0db647, 0xa615ddeb8418c01391923b887bba5d3ecf3c7172efbdaab7e12582bca968d8e0),
(0x4b8acd28500bf88d68337c8133181706dfe341de7b1d5736a3a85a2c6d655e7d, 0xbe93d7c3825a567584d6f76e052f3b067b7c5d87844f18ac624c96e0fd219bb8),
(0x8dc7ac81d04e008863fd2de62cc68de83e567d8185aebc53d47719507ceb9fe1, 0x62d4b64abe7b1931c47a7755e25c803f1eb14c892ee100e8214b94c411fa9198),
(0xaa63343f3078d48d0942bbbedf4f2c19a817c2579003e0337104e530c1b89a23, 0x277ef83423a6730f69c20f4d9de9475813befc6d0ce389bbfe7958e66ea7b524),
(0x37de50619f301e408e9096c01a37df3adadeba61bc2174955d04d7a105121d30, 0x07e7049c33e40b966a136516c005597ce3f6aa70d6db4c31f5732fbce538898a),
(0x6d18cf55506d59cea3e8cd44f347481c3ebc66822f91445e011f2c0c45eb83b4, 0xe930e9c1ca8b73f47fb9818e5d4db8a0220f7ba7ce807854c8ff2af7b8a30cdb),
(0x77d856606de7dac5dd4203c490152c9cf70243fdeb1d1c0a5b797b3916caa7d3, 0x3f57cfe39b37d550c9db0fc94b3c0e3b1a2722ecf920522e8c37d848f59c659c),
(0x5c2e69a6c44b5bb1c55dc8b56f9d4fb8ea56450bd69d9229670e635df381bf16, 0xf082049d0a69ca9ba2821a8c2fd0b46c9ec21af24c34b049f1af012675a3588d),
(0x329c01f5066d925b251944ed92beb06aaaacb98d89b2aaf1918ce400b5a393ee, 0x7e29b038427a0fff6ad50c80aa49252ee21c2c453d4c72a9c3cafedffaa57abf),
(0x4c2e631f18b2dfa437ebb401771d7b0eb670f4fc8546499df62b49bd629525da, 0x8a95ebfb87423fa74c1314326b7c204c050c6c2da3f853701f789ca3fe9a6f9c),
(0xfe121b930d254465c7f7cf02ce10a575d3808ce4c6133fd9392fbf1b63d03fdc, 0x33129b077bda431194fb997f9443a0ff0e59438af360b6352a80cbcea49e0ba6),
(0x323ac27b1cdbf3f774e20521f1e74b8b2cf8c5d44180316da532ae612f784c23, 0x21156108f6a64ac5888b15fe834ba9a5c8489e16f3d31197bb296b2d3fc3dc18),
(0x11478f62fdfcb1e03a5f0ed5ce0c2101eeccbca1e5934d3741b1a8d207afd533, 0xa9f796732fd3ecc8644cdb176d11527aaba8d0b20985366c70d96999ec5f9153),
(0x9f0909b6c9d3c1adeb88acf3aed5a6a6bc8d82b5767896e5e7343efc20b9d078, 0xa5161ca6c5c95d64dc663e30b8f6523461a579d7b99a57a33b0f3844e47db181)]

/-- secp256k1_pre_g_128[1664..1727], /repo/src/precomputed_ecmult.c:9922-9985 -/
def h03_2 : List (Nat × Nat) := [
(0x4960a87532a9ad42299d8cd1a1af80bb2807acb1b52f1711c55957d3a64a6b9f, 0x578e51f3f1b46628eb48f54a93f82f244bfc6202eef77dd8cd6b90b4de976625),
(0x675c29c20bdb265e5490951cbfc9f73dd142d5364b5ec66854b582f05d310354, 0x22d1f6693d82de84202d4f9a186bdfa68cb8ad5f9da33a4983229047e08bd6d1),
(0xc4096cbd6c75d0e26a922177916ab32da9053adfad849d36f65b7c9b107ce605, 0x5f236b472ae3c9792ff61efb9633ae05b2b97e510024a3c294f5be5395c2bb46),
(0x9ea0d341ddd05401f01205ec2c754155b1ddd46001fa3789dd80ed9b3b905c0b, 0x3bf4810197e7d0b76f3692cd53989764ba7ce059953f7b717e615c200da28e69),
(0xbdebbed784bffa3372a6edd2d9815b0d637367f2de3768c7b4dd75a432fb92e4, 0x5ff3437eb62a9b62dc16af105a20941d297a431fca2b00676734c4aecfd0b9c0),
(0xa486fa44b46e34f2d6aea82c8f5542100cbfe67477b560c7bccc7d6c9e910932, 0x1ab7e36d8a15e28408a3caa0f54ca555b8ad5baa7f47fca83231c822f897317a),
(0x4463a0a557a1a926aa204376a20aefab66e7abb118c7f769fbd1a7d129cbba08, 0x4a823aa5ab7b602a704f01de20b8ad137dc0815225ceace09a9dab69d034af0d),
(0xd6e08a4fc45e8dfbab7135840d91d1d88cbdc5c62eeb4b4c593a73df4d825ac4, 0x2cd85bb477c0d0ba5071ae8fc0fe2dbd08be98d9622fe506c59800cb5eb4c55f),
(0xb626e2992a69cad4e6076dca29bbfd34546d31d0a4f8b656a433fa87f96a10f1, 0x6df4b2ceba919268f156863255e2765562ac5e3b8cbbfd343c656f4343cb5bc6),
(0x3619e6eb74645070b2dd61965fe4d25e25a4dfeb619e3b057e31a566947139a5, 0x964b8989ba1561219d36c3bf29467c7b79940c3b450c14311aa0d7251282093f),
(0xb3529b5e6718843fc40a3a65d533096141e5c060e326aa847ccf7f48c8bda2e9, 0x49e6e0d37ce1bf45e9c595ac285becf531111e7b2a67b0579d4fc55259c1b935),
(0xe51f00675bd7145ffcf85527dd247ef14a19977894035598d42afdf12fa9e05b, 0xd59aaf3e8b4d72eb4523d5fc69b047e57d2e175f30eb6c8cec729cbfc1b32666),
(0x8a87f066f64bc468d225eb6aa0a7b54b91c930e4d45207201705f831cde79b28, 0xa92a5d95e0057c95b219062f5d0e4277249c34ac6255113bb5eebea566800227),
(0xd8a81015aa878ee5a69c771ebf88daad3a926afbb8aef632cd7d987bfd310b06, 0xaf77f7e8f276ed4e963e3a262f3942c7ec9f31da0199ead3d5e5f53fe20acbdd),
(0x88c3fa194f3f4d93dbe5b8a3865d28d6051c9abd519af4d2c3b743d4ce0cc5c1, 0x104caf7a0f9ff8227b3671a7e7745bee26b5deda9982b9d9a9d648e0760d8f8d),
(0xf87387253434b0eaf05e9c763c729a8a220701116c5a64845532c3d941ce648e, 0xa8b5eed1d4ee7913b69f662700d3e1be4c286e157816720146fc9e21786f7bd7),
(0x05fca5385afb021f94cca8265689605c7b35c8f8dc8fef606b18420f909acc33, 0x01d7fa51f5c28bfdeb1f9a52723eb2bfc5b4d078d5d4b6392b791af5d5b2b3a8),
(0x47484548d4b2acd9bb2cef9dbed4bd0ff1fddf4fe1561a51891464facf5007db, 0xea61e154f011cfe046fa25397fb444fdb93e223bed882bce3ddaa3c8328f44a8),
(0x331f17ff0b14d43fec69a6feb41a8021dd8ef56d2540234ab466ac85e6c5b8f1, 0xba20bca18d774731b6b64a0f8a19311f37d8c06102c4699b68d569b09eec144b),
(0x06aba62d200bd2c64ab88ce980530e5605b8971cf9c427f15e9b146ddbdc68ce, 0xe4c936d7d7d98919acd26ef0cf071f2dfcf65fd778dd8c5b000ab026e9f832c8),
(0xc76b6c35e72fa19c621022b4d9ec6ecec0cfee8dc73254fcf52cbc6923ca19c5, 0x5b0ffa7a48ee85999b74d0a1d7fa0289b49dba857b21bfb1ee7ba831fa13efc9),
(0xc056ea3d43f33df9b01590fa429c14a6aaa438ed415254a404a93854ce1bb77a, 0xd5b194e32337a9f12c479e7f576a571e58355a028ba0231cc337b8c7eb3dca7b),
(0x3d688ccc8ddf0ef1137bb897e6b8f3b77df652c493cac3a147e88b3dbdac938a, 0xbca947884d7ae1f2960daead111558f738b6bc9a7af3bb4a691af22d4d5879fc),
(0x4faffaf669ce1180a9145f0cdf6fd834c59d7a9f5f2e49cf3924b33d08d2a179, 0x9e015cac2dca2ec25580c16d8c910abbdcbad87279bcc485b71f5561060159d2),
(0x047578e37cd7eb786b5a44eb3decc7c40e8ba0c76699ef614ac30579a24aecad, 0x948ac817a6bee00bc68eab83fb628ed807fd00669ebc856945eef8c967171651),
(0x9aade2753eaa646a24ad1a35f74887db8c72fda777b59dfe103e1a95dc618836, 0xb651c3848f4625f31e6e7a050c94483fceef2feddc7f425687e0373dd02bca96),
(0xb1b0c3e0b1c6ee7555a81852447b2bcf321c9b9f629caf9a276133af63aed711, 0x493accfd624e6ff3dfc1d0dcaff17113c2c7416758cbd571759bab24300ac827),
(0xc557758fb192a058eaec5762ff391a9b2a0ce46207bae01c156dcf3ebf2a8ff6, 0x1d4e9b53d209e1959f10f671b1bfdbf398921284a7719766399479696d1bd3b3),
(0x73522ded5120ed4fb49b5ca60df5a1b60edcc08248df4d07cc9ad9232b7b5e0e, 0x47569d94cdf0270ed1d299ced5bcfdc77f87db4ec9725a96e4388cf8dee08d74),
(0x16571c0d663289632a3ae46dfc2bee50fd6fbc0cf0ec73ad72bb9c2fe8323506, 0x65de9d869e001c60ced57911e7ce6150a936d684d759f143d22244484bec68d2),
(0xf5fe55642eb630a5c860cc8d7c9ef86db1810d2e82dcb343dbe2f95898e5f090, 0x5cee7a1fbea9dac8ca340dcdfc2c097aeec2dabdd7ed7504e20c913e9fadfa87),
(0xef09db3270d0904343da67a0b87cedaf7aece01758d785918814e3ca396e3592, 0x5934f805ba246e9f965c6161cefdf4e37df142712ae076ea80ca239ac7b675e2),
(0x886cdbd727d2f0999852b102bf201ed25e174622f974b0c13edfe523373a54e8, 0xdacb328a7fca6e5ae5351825564e4f895166f68738d461426eea7b09dca73b2b),
(0xb7d86bcd04f7bf2e8529ff8488d9f3e9620713089bbd91f96e4ef82ace237cff, 0xc6b0aff1375a547ea8546dc41757484303acf2a4ed0d002ee32fd88f3b702f0e),
(0xd7d171b28132ab8530791059395d94ecc24f5e9967bc6c4d22bfc7baeb388c67, 0x983770e02421e2b655d3c1351bb39bf77be3968297088744bfe6543ddc1a8f8f),
(0xffe712fd881e30e7229f1cfa833dad90f01a1896c1493502a429080a9794b1be, 0xf4299e03075d084a10b11ae58f2fa2bef18b037a53165586cdac18ce54505da8),
(0x563c92b303226951cd7cd10b3f7b35c7dff3f0de06f03d669f66465557d13f7c, 0xdca1eef4085bef4180b0ccfb2416f9489bb21094854f5f430769cb3733ec10c1),
(0xb8e76ef33a2cebce614056d7efa47c15dd52c22866a7d3dd9a0d4d6468f32437, 0x4454e79d652ae799a3a539ba42619a1c3076ccc2109dc4a22aa41a28918651c2),
(0x36db2304f60703a2df2e429fb8a9984107b4a4f3e08642d2c5675460aaf1c971, 0xa0536e8f5cc30aa3d9b859eee26b1abbecf7f9b408c8fef00f842fc9a684b5cc),
(0xc5d4e51d1521637dd6055e529e9ae2a4d537c1a1b7c6a314f9d558a188d9a5ab, 0xc841eeed6a13782cfbf65b08c6570994aaf7093c4b48ad0de04db33a6feb3f6d),
(0x50c03dc2985859f6ffb79ed3f635e17ab0561533600af2207cd98f9f71c4bffd, 0xc68c8797a7ed229af59a2bd7451c748a5c4255288b7f6b0a68b64a77d7137720),
(0x2806d84b3e7e6f9a2e10ae5dcf5bb0ef9856069171d31ff33645346df08333ef, 0x72f2344338e34ccb4ccb5ddbf3a6b58ebf8cac264243785e54a9b503c87b429d),
(0x40d70ddd1ef58dd1c43e33c629840fee82bb9c1be222b53f4c58952f388790a4, 0x9b1a9d57b6dd9932338d170eaf4d5516e654685b3946930d96b2a1d7f70770d5),
(0x8850ec3204e71213bd77b193ee21da82ac73380417983905d01566088b87c835, 0xaafff7a0a9160b9192df58eaa65c0716961480b2b0cb4d3a7d637f77ddc160e2),
(0x54951509bd7c29f477f9d4a62be485d70de291b06a308bd2c240cf7150ad6e8b, 0x2fdb347cf2a23b9fa3a45c7644cc1fa9b1d8f79f77c02f27f136c732c7ef2722),
(0x9f5ec355cdf8eb4fbe5af1ab70a3e7cf1c3d3e8be643621facf8f69faf7e5d44, 0xb203dd5fb38b355006fda94bada1c4bb12b8be5e92bf8a584886f2ca19d3c06e),
(0x812e4a9c1bba9e528cb5e606c8b326fe8b72f0e23062837bbdf371a22ec0b3da, 0x2ba7b5b714a9ae39c62bd36a1ed001355d98d2489ef90f24d10d1c58f8e222a1),
(0xe6035ddbcf85616b540ff16ecd5d7fd1af52c6f62a26ec36c5c1ca862a3d924a, 0xa945389ef687fcac6f918718a1f29f19173d310469c5954ad6cfb5dff01eec86),
(0xd788a5e8d771d471b716969386b2339b2643f129a6b50bc60321e7526a033446, 0x34b856225095783efa57fe32a7d91b65c0c9a42f79fe30e0b2598967e97d3990),
(0x663733dd29374f9f01db5f116fa32b560c8ef42f706bd8025615d4a477c6f41c, 0x03585d453ae0fc591614e916a1400b7985b59f666e2553c1394ec26dd078676d),
(0x5ec6e72805ae14133dbad4d119e2e3d56affda33356146f0a5ab023db323ad9c, 0x3dd241bfcfc6301e29cd609db1a0fca3d35a56e4668de9f645c23d69c0884579),
(0xf18fc4421fbb66a27c3366471459717c87532be5d4416ceee4a674a32cf8f3c5, 0xd38a08813bb33df100fb4e836686c0fa026847e5f7580de9b4f229cd1359d560),
(0x818f549ed9bcfe1f14b8d336213424657dec0dfeeea1d7192062244239f5345a, 0x37ce611fcca2f44845c1a8e9d7f4b3f848b24c5c2b9f53688cc2c8df846602ee),
(0x75e2c791f98e3fc82a74ee3a532e87964f4fa8eb6421aa6417a5b00b1edce942, 0x51f2373ba495136268aa17c71160855c7c4d37be222a8b26f2d54cd537e5f6b4),
(0x711f8db64c0c6d31daff4ec1f99377309b44de599f4b91199ca6836e1e3954d3, 0x485955e3432ac82df3170fcf7b3519cd6e4dfbba170bbeb5b75e3e7d70caa4b0),
(0x63502c266f755a1e4be2104ee8ca9c2c5216f50fe21e003a16071bc8df3ba6a5, 0xa5c829eac8fc3f4af55075bdafe779773954b88af1f3a8dd90f28aa149bea942),
(0x2a677459ccfee0701b5bb82fd2ee57e613f5c3d63927938c92d10954c2850872, 0xff6e97985c5db0b29bb1cbf5db03e0c4401bbf28eb39e053714d5c5eef7cbe71),
(0x68f85f8778fb69a709db4a223d7faf955b359bd05f230d99f051b00832b52cbe, 0x0dc2e949f4fc3189c4f7b771f8b56b85ef9c65c0b3bdf89e405d5f3cffc92210),
(0x7ee9d5b73b542036509fd8b9de590b249e9883c86f4bb90e1c2904f3d2b74ade, 0x98122413241cf205f91c6977b925ddd74920636a9dd67828002c30ee07343e62),
(0x8447b090cdb19271db3680230d40e520102b5d0479eaf3913817553e24aa33c8, 0x25b43fe655a27481c02eacd39025a523121d02a578896a78c14a8c21f7c0bdb0),
(0x316073b93f1550e6b7951f5690c5ef3be45e622e77a2f268c89a8b6f2816a645, 0x557ca5ac2fc70ce8c3e54a4db31d5c77a1a6f38a18646caf6a52db31947624be),
(0xfae2312da2ef21ac358fe9495c011b18cdaa8ef1c99284ae5fc1eb774836d6ac, 0x6f3bf6612d99e865b0cee7cb3fccbf08aa948ad9b29b4b8b54eee8d63f0b76c7),
(0x280a2bef5588dfdf0b1e1691d3162aec7d4c72c6b76f23e12f8ce78354f839f0, 0xf00ded1bc31a9774a87be1bc7e440585b2b4ba63cc0d9c73ca7b487393683f72),
(0x3f43e77a9b7b92c992b7e5d28c75444f4d0609b28aa65ddb86bf6ac0bf7ccdcd, 0xb3117903bb3c0a54bc6bd6b992b8d85cac267855500755366cf70a844c72a2d6)]

/-- secp256k1_pre_g_128[1728..1791], /repo/src/precomputed_ecmult.c:9986-10049 -/
def h03_3 : List (Nat × Nat) := [
(0x3a0afdc8387bfa3487e539290051e10e9535500df650629646df162dd469f2de, 0x75697cc8f0f690b6e1f86dff3f2ca53d907d4cf7c8ff324e8b4187acc9bb29c7),
(0x3f972b64209f723e99a6e7c4a72072a02789d0aa8a23d660949ea4177970809d, 0x7a4824287a6bfd9cafc26e769a02c5ff9a7c053ee63f2342b32a4f8442e47d15),
(0x0938ac0ffa73364d11df1ecc4b84e3d1c21ff85d71f404df0e8daf4ae889b0b4, 0xa1c09ed3d526b3810dee8820eda06a104e96899564cb604a63fba74a45be0312),
(0x5355ed752993e74c275eb9ed3bd34575631c9b5a64e990718311ec8af4e28bcc, 0xbbb1007d680aaaafac10279f600f1851c818854703091a40ddf7253cfc6ad088),
(0x880e32ed70ba76c6d83bda46a4340646b033696fab62e4574e989311fbf277b7, 0x76feb2cb8d10d5e2406763d5f696686b08dcdaaf330e4e7c623cc7a86e0410bc),
(0xdaf778aaa2755b682b8beec114b74e9c857ac503daad6beebd6d11f108f11aa8, 0x1ed85c62710d30179f0f3024d6ed6976e38325f092981c88fd4982ee98a5f428),
(0xe5c3e9dd75633d27d19c0a4ff3533f809a60b95a42c8c4641cf7abda8fb474dd, 0xf1e56af65c5c087eab3036990f20bc9f71b7b7fe16332afb2517b2418dfb0dfc),
(0x5d403f34ecdfd870977f3bf2ffb274c96859c20c08cd7afdd116837dc0096973, 0x6b5be47c70246cc59781ba7071764d722335c334443e5e4a5ba12939d8f6aeb1),
(0x50ba053c25511f71b35b4caac990ab27993bf034f3e55f813896458b5e246b12, 0xd2f12a455c7a3170676903993063dab09f8a22a2bccbe5b88a7fa2bbf2291f63),
(0x385a80eaee4aa9eda07898f0b36587939f290622399c3a00b38bf02f066629cf, 0xa543320bd72ac6e5d750806d6a90b8fb8cfe490246991eb16e6a69740befcd50),
(0x098610b9904ede386e69de6c3d40518eeaa669a523620a9b276e19960bdedbef, 0x907755a2eb6aa100d0cd0c8925b5ff8fb88f72d361d83315c4ad0d948a06b581),
(0x83f10807d9640d3bdfc7b0d3dcbbf6a219ae215b4754f29ed4579999191b7fe8, 0xf62d231b5095d6d2860e69c6509de2c6fe719e4afbc2b5e2489a6f9a07293364),
(0x51d22293927335c62f82b02852759fd1e3f287fc67b6059e74dca17d4fb1c246, 0xb9b803a3b5145b4d188b909e23c8b126f7184bdd3128587be05219df6c63745d),
(0xbe6a6342e5783d43d2691945826c37c53e8cc24c5a09fc703689def14f465006, 0x81c718fc3fc15279da9efc1413ddcfd881bc7e4b1c36004c2008dba27c7ef000),
(0xf21334d9c36f1284a4bb043b58b27070448681d90a82ae81a4e8f226bc790036, 0x000448513a87fd30453dcc1eb21e293bf5f143b82cf2708e428f47538816eff2),
(0x1558c4e5af34463f810cb1f1b73bd27e0932a8329253e2cb419eafaec9730508, 0xcb8cc65025e141323663f3f41a75085c6921bb37428a149e2dd1fe4df4c917f8),
(0x1853a32c8f6020d81b4d3596a88e3825b575a4ed99072e642e090a1a665d71e2, 0x8da2a31cb170aea0e364aedbb1861fffeaf26888b29405e89e3ed982a03a8367),
(0xef585cbcf0f03bec21df60dbcfafa9dc2da679b43bdd590b8cc35388cccd323d, 0x2bc5e203aff91f6d38592e0782813905f02ccdba1daa7acdd93f6d8078c2f296),
(0x3f4c2e37e1ea68ebbefd9971424b3c7b1fa45864e0d13471a1476808b2fd5c14, 0x678990ab3d283b3faaa665b04f329b51051b9c17b54385e330de36a47e0eeaa5),
(0x2b001b8ad557ac4a181cb20ab3abf2ac59fc9b1020b5533b621b4119e421693a, 0xfe4f3007f8d19db173e6f8c3048b2525310a328d2ca0c6758fa2972382c6b94a),
(0x6589d1dd7d5a08ff8deb5b1081fb0ca379c90d2758ba0bb98d05bc93452cd229, 0x82409480ed8429934bc8dca23e000fd5fdc5475b192bc7faa11791659a8149a9),
(0xc233fd0df5d3835b8e855316276a6a90ab4377e5a3a3a8a83b89f0f527950a6f, 0x8fe8e0a8775a9a4312cfbac085aefe063146803186b8b84f49422392b4f6f3e5),
(0x82731a852a848eeed6ee3f57f75a2bfaa388670f89f6f6e7b65b13d0764cc14a, 0xc00c509a307c5e87f1b0968838e34a211ffacc9b8a7504c12080e4cd39117583),
(0xe21387a0e5d8b1b05aab5150122942ecc9dde3b553eac97707eea6d006d2a50d, 0xc74de509f90d93df0343c92074ac5dfc0fc81c9593354349bb2810dc8db0ff83),
(0x180871fd2fa443d9c5b5c3414d635b8e92780fc16d04236a00bc9a495b9fdc25, 0xd66c71506008f37a422014a8bbe025c61f25e636e277814659985003ab14d120),
(0xb5a9de7eed112a8c1ef29a9a31156b90d64dff934d83fab4b44d30e0bccb2c42, 0x5675a679a81c3faf3b0afe660ef8572130315ccfb0ff3d91130a71f43539db38),
(0x9acce47261f1e50df42baf78c05a5cf98ce5697b006d3b4d40d011fd00aee7d6, 0xfb7c413c40464c69e57568304325a79e6cb8c831add29e0a95f88feb9507a05c),
(0xf80ab79b7bef77122fc7bc4b2193deed916796e367d85100a02cc0eb8b574e5c, 0xc6d4d03f842d8b25d9b5834ed6cdcacc3a1ac5850b5d22aac77019dd1d5c8f6d),
(0xb431e355cdb4230c3005845ef60b24d925d81448ec161aeefaea1f98bc9366a1, 0xebcdadd4ae230a14382ddb98552b6e697aebace55cc7390ef69d176dda41c1cd),
(0x7aa60b9e08c93a6351eb686f46dca4e6efe56edf6c2089c593f6a8006e75f1fb, 0x004c81e217700bf1e053e3892e33e694cb424800b4068c98328f00ef5fa0347e),
(0x1a88250b3aa4243b7441d1a4da37b4ddd304fbef272f696ba72e76101286b30b, 0x625b9d0557d3815be06d8cb0f056a9beb33b7658f459b3fe3fd5f4ab69b7a473),
(0x5b524eeb49fd558a2d34db23cb5dcee106c4ca471eba996682dedbc3aa2b57c7, 0x2d5c2c9756b7ce1d735b163d56e02bdc25c8b2272bca2d5dbf252906bb8ae50c),
(0xae60e7776d9fbe79d24cb8b10f756098191550d8433bc7d18920584e7676d2c5, 0x430fe98673772472ca11be83eefc8678b76c36d4346a311ffff926fb158d7784),
(0x323a5e3d9e29f668d460b081a5dce6fb53e8d7309c42f105ab4f812a62efb9d4, 0x02b457b369483f4216656d1d3b5ea9afda6216a447661830c2fa56be804776ba),
(0xacd1b5b6591e552c864e612ed69429b2b3db86497a5962a2a8b365117a7c1c9d, 0xe6131fff056f6900926ba7729252634867544d251ebc4fa3265621908e6e88b8),
(0x6b4e2c70817852e02a26286b155248cef2e61e6084742cf114ebf74f785b36f4, 0x8400951c7a529bdc2007130d01cd52977398f7fcd66e5a1a1e4e8644e5b893df),
(0xc2b2c727d67b0a461f44cb9148c347444e6a375f80a817c71517969f8084ab31, 0xfed64359ebf37b0f998aa2519c281fd3a52c47d48905171882481faec36d5f59),
(0x3385eedab5b2bd94f794609d978a0f862ec56422bda0ef712207ca1b904f202e, 0x2808d2af1db8a8ee1c5975aa31a9f441b12a2186746a474b4907bb71603d7443),
(0x800f6cd7f2cb437b8470c2923fab4786edce15f0d4c52a8233519c0714c803f2, 0x981f2e3e0ad11aa0cde06ca59b26028c23e0a88cec397734ad0152f4d4a37056),
(0x73aa0bff3a9f286fd3c103c6d7bb6caaebfaf4b7614f1f324741c600eeaa2f3b, 0x030bc52981a9b983cb89fe73dd8bce7ca54a2e3c4fde6846701f1da518c6f7b1),
(0x9280fce6ab5c13f680bfdfa9c3e7612f863804989bcf29ca789169fba178f2c5, 0x4b96ecdbc5bc2e3b2fd397b18f7f5bb7aeb6a7bddb0a3b233e74f7cdccae36bb),
(0x72055c4bbb50b9efb589be16270d12ea9f438780e5eccb8107dbf69da66e03ca, 0xaeaa257fc30a77dd5857469351a8623d985ad705aa1fe3f98915a6c60f6bc7cb),
(0xf0f3cfd0c771e3db0ba687c73fa827cc0eb8e88712abc8e03085d047e7c1879f, 0x2c612e7d8b744c54f8f0c4b324fe10a31bf8aa5ccf6e2e20eff98153a4936b33),
(0x97c78b6570b0f2706fac8fe8ea4376acd8b61177e5e7b3ec67a7af9be6f5dcfa, 0x1aeb950cfea95858a97da765c3cb59411334609b347c4daa1279d58f3be14c3d),
(0xb39ffa1e967e6fc3d493a9de48b077fa4b7908f533a73eeb9b5c9efe9e509e69, 0xf55f395181ac72cc0d618c0071c817e3f76c302f11219e16f3b40e75ea65dc05),
(0x159b9f7a5ff27c4d1bc3fcc4d91b160a01b2a9728b1e7fd17351c663f8e7baaa, 0xb0aaef6d86c54ffaeba1c7f0d789fd415e60127d578c2697a8380b7ca4c4360a),
(0x25810fd18d4a4b16c7d07a62b626fc456dff76ab3c1361aaf729f7f3cb85e44c, 0xf40523257794bd70ad295526ab4b8b009252dd5f33578f442fcd22192f6a2d9b),
(0x27e20a4d5860a328c499864c09075881eab3629102da641d6e1934df473352b2, 0xc1598cf2888cb50fe270b490503c11a7d3822a2b00e86a7b65cb949903b45203),
(0x483f454e517a94e66708f465ba217b606d684a684d9472dd685f3bd1341448a2, 0xc13b3144d93b9a3645d23346c5dcb70dd338d06ff0c22aa82ba68a617f9ad11f),
(0x4f47b2f631734aa65ae4c9a30c1532f267ef068f83a4f266e2e0a59ebe04e6e5, 0x58f1f34cf11b9cb45d33ebcf3edab72d6824392edd547a27c0134d6658d99d2b),
(0xaa78eb7e0835ce84b4f1774b8e810cc0d6f42a2b11c4457424fb63417797db07, 0x39640139d957d47c59cc7541d3f72e33ee9ffc632171311b0cf493ea185e743b),
(0xd259898583c0056011dc0655c37580b031a3f1f6aa5f594417eb0ce8cc033d49, 0x3641c9739de8818ba294622a2dabe172b6a830064d04ed8bc841d11a5af24b08),
(0x4f023ba0ecccb74f56f38f877435907bf2d2b85d59f7ffaf48712a4855e26634, 0xf80efc33b15d5125b8fc35ea393b6c3fa2ae094b86a6ee95bc48295fb1a6a456),
(0x9c86f08b48abd0977bfe13cfa15ac8be8eda4128f7c143c670bf7e2d763a1589, 0x11511f870e9ecb8839eff453d29d4db217d4eedac8468a171a152f15c1c2df45),
(0x3808718b72e95cc8fffaffcecd57e269c5e6ac7769d8120e9130d8b8ee137576, 0xf40ebdebcf5eb7224dae59cf8ed8b58cc614a61a09e3cceedb789fd331ea728f),
(0x8defd15e399492fc071c80a13eda0244eb349f475c7dfb4255dfa752fcdda3df, 0xd3dfa7784353d0c3b4fb0d19ffc39631a01786cee3b0cc7ff9e4c5f67bf7a771),
(0x8dac8d425ac1d07e3a805248798fade7ed99f9d0c324bd466eaa8aa7dc24bf8a, 0xf232fdb7923234fcd8b2f097d354dd6e62e9d92620d28087d6410b72aaef8009),
(0x87ce6443f3bce6de287178b4f243c3d1e45d26fc6f811d35329cac047fa90e1b, 0x0a89701962414ab4c582799d77edf3b00f0af0d48f70e875fac33e9539724138),
(0xbfee6bfabf2fb77e9eb60a3f8b7775ba124a21c80741af3bd22966c6a8fdf08d, 0x29a1c399541e4bf17f26f21552fc83eecd2e8be840b83fa69c9ce5d5fbba76f7),
(0x0c30fda5b553a8002341a5537aff72b8044873af8381b41daef9af2b5cc2bec1, 0x5ce3eab587d88d64fa44aafc0ce340468a96f76e65dd562e7d14153b439fea6d),
(0x5e7151fd594119d70c5cadbfe1b419f54d922607728d70a00f1dd4d83400ed97, 0x6a8ceea5a51d4a7d62d36816ecbdd75e4c64ec966257820d73bd9531ea108917),
(0xa9c8eb0a66cdd5f0f33d06208525225be974af7ab50d47c04bf690dbec86100b, 0xf209cb9d898731f3b02a24bcff290cd4a4371e88f3aeebf329c9e1b28b8e0a2f),
(0x955e79d793669150471b165952ee6121cb8043735faf653b9468511ae3a2e439, 0x68daafe32a9b67a010ea3bcc1a56c7a02e82cddf120e68261de0700bcf930d06),
(0x22d27293d3c1cc6a5b3bc70b3bb7e1d6bef248053c8685fac192b409dfa34a71, 0xc74b44e34fc855b753c4e42e740dbb594d5d76dfb39de389e6c837e9639b3357)]

/-- secp256k1_pre_g_128[1792..1855], /repo/src/precomputed_ecmult.c:10050-10113 -/
def h03_4 : List (Nat × Nat) := [
(0xd19fcecef74b17674e9d91f71487aebf70d46e8b3a037835b2f4e8c42137abc0, 0x5b904bf63dca09813ce224f7494ccba334ca9fe5f365ca83fe9adb6c4adb7580),
(0x6aa1722aadc74800d66091136bc6a6a81723c36c524a873f2a437c91c2336899, 0x8e97004cdf495b4c63164058321549ce3d9709d9ed667c369a4f1ee2d6319d07),
(0x79bd36239ee4d22012d07262e96ad186b16e3b6b0720d052f736f851b0ea6efc, 0x0a4b43dbf568cda41dc972c71c7c92c36a31166fad6b80fe42df4dbef418729e),
(0xb5e02b2c146337b567583c5d3690c0cfa1c7d820014028c9e401182fa4f16ce9, 0x4b9646be3facaa70e793516fa0e8a1421a819ba6718d26fb938e27959069e0b2),
(0x8e33e271de2deb4d06444d64387f790d14a2b6854b38857dd05af74307a7403a, 0xd82d53a2c7a4a1dceaa011bd03e0ceb0e08d73ff0fe9d71fc913d6e289ecc429),
(0x4ffef44277dba780e5769b73feda37da0abd6ef62f5ec36b074593ca4c19c2f5, 0xa8a30857378aa0ab9ef6162cfbb09f9b796755bd67bf9d694a186813d392f854),
(0x878b652a633805c8b58b033411b9246ff7e42ed6ecba6bdefb737126e9f57368, 0x2cfbeb3ed691158cd3ae71f0b4a41d42148c9711d274820ad541efc156e85836),
(0xef9a6a15aee2aed146b99ee6a79acbc1a0aa0b2f1b082783dd40b1069deb415e, 0x9909e2ba7fd53514a1bc44802b49c7aacffd9cda19c54d826d9bd08e49e97240),
(0xd5c248d41551d230608358855db0ce8ec7814e18c2d548fcdcfac2070645bf37, 0xf9c5e89e7bf01f828cb78c88c14d50a83cbeb45f82daa9cb3c3804c115a36f05),
(0xedbf25cca526157d9676e614814556826dad0c0f096ec289f2c5919f57227d1a, 0x06845488be0564564a833c1370d37257d0ca701ef6e574c7409dae02ee99554d),
(0x5c12026fb8e2e3762521f5cf0cf9286b14be80b0dfcf378b26fe6ea54ccf09bb, 0x3d98d5ef4e2c65287950154d581c9a4494b81a5040ba90471bfa675866daa596),
(0xc27e62435056055d614dcef7f67338c7ae728bd4af3970a0b434d2b2e48e2d6d, 0x76b586fc703cf946f78839eebcd28c569e372d97856333ced82137aa7d8525c9),
(0xa298c7045140186b4d424e8af98ee6047f67603fab14a7e7b96daede51abaf8a, 0x4dc701582a1b19354a5b430db4a0c21c463b779eba72f1085d7d638d68108fda),
(0xe1fce95782dae8b0ac204fb19496a332fdf4001488ebaf073a62f33e192013c4, 0x40517ee5d5786ff96aa2b50aa77a10d5e8ca643944f308a4a264e3671dd02f4c),
(0x0e719bfc5f06b8008e4e49bb623615441a2b0c42f673f3a21e139bfc0b097d6d, 0xf0c83c1d83f5df68a1e3929ee18c4945d14e2c334f9165e1a0a462c2aefd7822),
(0x77766a4ba9d8cd62840b11277e697dba0dc27c50d9c8e35a17f4c38b50ad0a4e, 0x5b3a2ad9448327ba022265ac86c190bc60b7586e6f6e4554b26b69ce231b6431),
(0xf237721f6215a855f8660cda410636904f2c9dd76260c292597f28e4348514b4, 0x109daa1c187b9f9cecae8c6d33cb987446f5ade9d57b3651bccb93381acfef79),
(0x9408f5d5e8891a1a3cc4e7a8a50dbc8397517b3b6c5af3b9f1953f09a67b3e08, 0x1b82f212c32f1ae9c95f87b905ced2bfca33e95432d9eb90ed879ec959691555),
(0xb283765511707926c9f214f13e90675f883649c88f1660f4c4f9f6c1552a7064, 0x8955373915be8962e6f03ca45bd5516fbe6ee041519c4131829b0bd76d1abfcf),
(0xce42ba0036b5f54a4ed2a9dcb6c0d29f986413313f92f9c143767bfe4b78f4a9, 0x6e547292cf35baf4768c91792f706bfb39b757d82452a8024a7bd37fe3a048d4),
(0xbb3da2a01a063a97bec9325e8d4af420d3942bbc42f0807d8e9edce2eccbcc59, 0x7c28e7aabc39907fef58a19ecd6e7b2e25d6eb008da14d9d5c559d27fad70b32),
(0x25d84c3c97f3a074ea76f620d6fb2691dd3e95926de8eacf5392c0de36c490ee, 0x5e0e7745088c8a9b07b91ffb1ad6fd274153096c9e75954016f73a4316d5651a),
(0x8baa3bfdca256f182e55a01de7c076177649942be743b4a7faf3944684d5765b, 0x6147e8978bbe15cd171c28164730b211587bfe7d07e718117f308b80d30506f1),
(0x507d6a0a5b7d038511c65dea8024c7064d3b6b9b287c719274c69797021f5170, 0x139f164770ea83ae47ea8141c3ae32bbc12793d0ce30fb372dc3adad7f7bf5d3),
(0x7c6992f7a059c5be99b7354b10fc217ce45620f3b4ff30d6d640fd3a26bbd846, 0x0964474efa63641c2aa7062d7139fbec1f64e6a050e1ad032741a0e3b5e0bee6),
(0xf62832b01bf65b23148507509ea6f1573d5e3317bfb0a38fcfcc66925a698bf2, 0xd73148107b8fdfd73f6ce6f884f375bd1546cc3b8c75840d3668c2a654c1ec95),
(0xaed21cabd8e4ec362b4e20913be3c7c4594f628acccca657deff8b9c6bd1ebad, 0x0f800ef3833c7ffaa8ade1ac2f41d456b880a20560251dfdf9cdd672bb7100f8),
(0x46de78a9343a9a416b91b877aca942529e0ba8cab6c01f66e06cdfdb714bf405, 0xc14412524f3ea73ee12809c6f19184d981f30b8708df8bf66c89d98bed4d2bcf),
(0x2832b5b8ab82e9325356ae193043b99bba4b6591a750a174a6303b4254bd41bc, 0xc0363e033f59f14923ece5340cb86695a8275224f490849e249e63f734aba440),
(0x5b57c5024b5c162177cabe39b0f36bda0d85bd042736c7ff9395f0c4cbe43f9a, 0x00842407dc0c0473f1bf57b9b35d84edb282ed4c7adccc068530c8c1bd20766c),
(0xb384da708063758e825bf821196b4a9c814c45d8a9edbaf3dac4cbb1c1c2f103, 0xe6e661df6400cc4074f92596590757fbaa237515af30ed13df30befd230fa325),
(0x36ffd991563e448a9b0a5da961a5466a82a5b672015ec8f8e7300c5a5c9a5e1c, 0x97067835fc17d47e9418732084d722a5d1a742d604b513b632aed89700bb961c),
(0x8367e45257c20367e4e60ecc33adcd875b9d142cc6c362e7f5aab34aed89d81c, 0xfc7ff0903ffab26ed38a9e74df43819eb77ce2d5bbdcf27af1f3bf19948be121),
(0xf6ce47e48cc9296fb40539e24123865804719fb9d4b1ad179c98969bdcb0564b, 0x368d2b6afe5edc0b6f1590175cd192aeb524a6067800aa600930d60a87950e1c),
(0x438c23e4bedaa6f0527d20c2a725645f194ccb588ff9eac65091da7bf9fae013, 0x54620a30c7218257dbdc93b53722a213e28dc6bff8e48b456d6131a692ff15f8),
(0x1cf672f8cc9434bf7ace872285db5017a1fa1dab2eec7fbc84e8492d86bee7bd, 0xd6d23d258bb4dda5957cccedb767cefd8932b511e247901816734bc5b5cafdcc),
(0x47464e12b0fa29b66e9cd1574f7155fd943052638af28bf44325a23f3e1a2861, 0x209a41d53bcdf5665e966e8084869a83a2468db0a1b19e5681da864da2b05141),
(0xa9adfba1c884c904e6877a0a9bbf73ae0c4ee223e0b02ff8717c075a6aa964a2, 0xab16101da7bbc35c73f371d4afeb527eb2d809a08487a36c6cfae40483f79dc8),
(0x2932fede106003125ac983dd659ecf95824421ae5f417f97d3101c6fc58edcbe, 0x8601a743e666156bf2e34fe06f4cb11d2df54fe17c842176e1075423dd76d727),
(0x5abf55282f87ad04202b62c58ff7440c64f9ba39e6989df3e31d665a73a50216, 0x71dc4e16f2705c0202ca1b370edc5ce0610b6f57282d69c5d326929505a1fabf),
(0x0419495d9a121cad41887fc282c2c7e60f359cbcd24093ec57399c3da801843a, 0x9152e1974029509411afefc783990732d5e6617cd8e389d2956536aaf73e0c31),
(0xfca38482ea2be49c3c27979a5acbb158a902bc4e226f7eae4165ab7a29fbc3af, 0x1260735e5fe6266490a35f0f7296c441bad50a757b00e34f28856a6dcf46f5f4),
(0xbcf051233d703688aca1353055bc3ab2d499ec408c912de14b7af45655065d06, 0xf32657f10645690b35484e63a3456885c16d49917670e71d5f5cb65fa5fb8bf9),
(0x4e70b42f6391b424b159cf74f5fc96b268bf6cc4a26658e479dd8a4b8e9a92e1, 0x8ba788111af31c0677b24fa44b6ce35666c595b23fe4fd36591b33f7e53b3688),
(0x3fe853d7331c60eac213703ca7628dc13cdb83f38a25ce6e1be84f0de921742f, 0xfb7dbb77c2c6dc136f59615400f24dd3f27b51259b60476d0b230e545ddca5d6),
(0xd803377fc3cadd400a2aa81004e97641ca42f5823ccf65f5ee726349f648b9be, 0x6357b84f281a808054ab7fbfecc113acaeed21185ad12900d824719e8fd6fe99),
(0x5ddfdc7b6f9e716202b7128e77fa5ed290a05114d6d8b84594106c9e070bebe1, 0x023eacedfa1efb7bfae74c81a1d03066714b6dd91198e1e9d5911ee455cd76ad),
(0x5f150243c964948fe91353e6b12d167b7913b46ed72144115bc4cd4a3b6f7dd5, 0x36abc9497a2fd102014991e2ba360c4fb18147cd955754e571cdd4d9b8af903f),
(0x24b4fc975b0c44297a4cc89c2b127eff0539f02261544e1497969bac50942647, 0xbd3e3fdf54ad07d85faf88819014a77b11d96f2ca43cb8f9a823a2579eb5c207),
(0xa020eb355556b5fc9de5ba2b28644187f11b18eaae61e76e1dcce55ce42202e0, 0x9a71ea1f1ad2f45716b667c00a982e2b9765ac6ebeb7188027e9059d56639f66),
(0x60b79064f7173eac60531de5961c47e38a224c78ccd58a0f86f6afdae1f37a68, 0x3ad04a4cf6a47d6d6b9fcbaed8b54a7d3437e4e3627256decfc5f38c490786b7),
(0x835cf1f2b57d1e544ac2d9159c8e3fdfd2e233b5d11096851777b7e3a1f7d60b, 0x7d23dd35136edb13bbbf77339e1c6e01a7112f957c929b161665ca07f6a84b31),
(0xfaf743501f1edad502e1d8ade4b319bb606cd7de3188cdcab1d39527837f77ed, 0xdbbeb0bdbffb580e4b9a0fa039b7acff0fbcd11b8575147616d48bdffe21bcc9),
(0x396c6fc3e072bae23e7f74edf121271d044091a5d3b2a7620a39dd770d2de938, 0x5de522f8a143544d4cc4994096b8f54e9fb0e076f46aa4799e99d162de6fa667),
(0x0f8ab940ad8df2ca1c2622f8008ef20cae8e605c1e43b684881147ee0d44ab88, 0x99fe5281fa7427cec9857163f804c429630d28f533e451e04063e70dddbff796),
(0xa6202868af6dfffc1e122219a829c3748197af4c95901e7875841b46bd772367, 0x2607a20bc82a49c14fa54eb6f8d68d8ffe9c4fc4d83b0e4d145f7bab05e9af45),
(0xb12d199349a986169076448423a4fdbccfbced5fb76a2bda4d7c49847067e41e, 0xa66dd4e0ac6c8ab129045eb3f701444973fdd5557001b7ec0099c33dc2d75e31),
(0x08dc8f55b4990f5fc6cd3b97b19383049ae0a7345cdc9c64fd67bdc215eb3b3c, 0x1be7457d62cc8fd8cbb54cc388722f4ac00ce438c847c2f5fa641119e5435d83),
(0x2c0b7337d1db9e4b7d521c4b36351f65f128643dadd0c53b1b6d619c658feeec, 0xe8a27b9ceb7c1219f7bdae62c07cee15ef765b953b082d9ad8b99005b39bad53),
(0x891fb4a250100689a48a0d1d22414ab2b17ad692bb5f0d0e66d06c93da3bab35, 0x41685166cdf43c13be93c03bc347f3c852d06c0e661a4c7c0cb53e240e7260f6),
(0x4a3379b1511c440fe7213729de668ef039fbccb61f5bbb02ed99ed3b69ca1738, 0xb12a3dc239e9191da89d75eedb44ce8817b3bf03d4172b0039d1464ca3ac0f6f),
(0xb8b2a7c854936bfa62da360f83bf8d657dc58e3c1c8780d22c57061a5f815521, 0x8f922c0b7719362c25ac7001252a89ba1cd4412c17c2b021c065a3d5f6a2d15b),
(0x9066fe19d1dc52e507a9341d77cf73a82fb56ab622c97a7ff0191247db9624fb, 0x23d19b436ec3c575d81d4929eb6789a4c281f5bc0abbc8962153e7d4711baf50),
(0xbf9ab14c19c9e9b1ca1a18df2b5b73ee9f32c8de6e6757c2b0534d757cced8ec, 0xec9699233c3863de0aa72418837a3af785e79375d5bc91dd0481f1740e9759c0)]

/-- secp256k1_pre_g_128[1856..1919], /repo/src/precomputed_ecmult.c:10114-10177 -/
def h03_5 : List (Nat × Nat) := [
(0x68b2686f9c654a02225b7e69e8eb7aaf78c65686e885b1af10265e35316f9d03, 0x1d3d7504846826bd8554d407739272abb6b407d6f4f7419af284b81bf14da9c3),
(0x20dc83855251a21a94c989d392c9f36a4d3bf669bf7bda7de0427003710bf2fa, 0x0217e6ff713d329ff9080c4b3608c877975d67945623e24a974760f095aa749f),
(0xf0beb49b555d998ca39859bf8c59184a5c822e469a8755681689a1cab5fd0368, 0xe0e05ae7a23ddf94ba33b3b30a75d3f42e8ff7f0160c32f53bd08b4072664aac),
(0x8f1aa973270ff9eba41ad8abf2cf4c4416ddc1cadc8a62cfaab5a3b5c4a0ee57, 0x90aa3660e3409b17a86a441f12f6eba02bd6bbb02b9a0a87071e30a6595920ec),
(0xc71eb135278dc14760cca847a934b880fecd43a80aac9dfb41382283928a9957, 0x41667f77485281b889307ad5decc7f6f51d23ac47e71b299a9d8715eb6003804),
(0xe900726e50d66a9f37d09df5d4965c5cfa904d3dbba1d180b0fed651bec41c81, 0xd520aa30db036f40b34e64f2cdc7d7b3117f7725786e9d5a921c5f0971028e39),
(0x940ab0afa15952a9ba3a6d6b720efde658d72dd74f87cc3bedae63b60123fa38, 0xfec6d7476f788a19b85e443aa49116e16e5061f053c40702f8765d28f3bfcbcd),
(0x9a13de6d643e98664df3ce9d412c5ce6a03ba46a0640c6be8b62e70ca8c76949, 0x423882966c2d8d878b4c914d4bc6cbc9a46016302eb6a499061039536926dd5e),
(0x438429b2b31129d94a86b1497d7f62e9b76d6a5dbde09d6f256f83ba76c577c3, 0xe4360186a7229be1b33cb600be833bdbb2398e987c46c6cd2e44f9325cbc1c7d),
(0x3f63b25d66d472e5fac7b524e4300e97c8bb59be6a3a8f018c1677c696d02605, 0x04587042158e19cd2bd19bbe5cff2c69d9971aa2fbdf649d44c95f3b50ca39dd),
(0x0661fdf717c7a520a384f90b98dedef047afe5ed6cfbd3d1e1735c5abb8cc0c5, 0xbd9a243ab43c0e192592f00ea52f820fb83b7433b1d96549d99702937da80abd),
(0xb9c1bb26daac6af7d0c27c367ea2d4c80c999d7c75bc58cc279c5f895ab951ce, 0xa4d3bf34a42b86bb7c66c5b2eed5d7f1b872d17bb58c938a767b87eb1b140f4e),
(0xcf5ac4a0fc6cd9d850aaf4733efd2bb97d9b23ecbab5d0999b11bfa0b127e8fa, 0x44926316c37f171807fa94fe3a62caf5ad465d77fd4842872caf1605f91070ec),
(0xaa52b2afab8da32e3b882c57ff0a34fb749caaa1b3c29b7413c86471beb3b422, 0x4b5627284a7be5951b68df35e320252f7332608416c60244ac4e3ecc0c0859ce),
(0x0610f22eb3aa08d0a9f2909c546896bc7926b0567987217ad347f1834868211c, 0xa52e190df35fc4b3019571e6166eda3d2dbf637bc27746eac1bc35524819e6bb),
(0x013f24c3a485a58ce045433079512796db65f15a4265fb44acc3cc34c51a6d80, 0xfaccbfb618e069ff3cdc4327cf8073660f07976db24fae611a44984c07f3bc3b),
(0x15cebea849279b29cb0112e6922c5a85caeb18fb415cebdf92285d9da0eb0f24, 0x23e5ccfe158ff9bd539af7ed4a77b1c1c36de4528d0c0d05821e89f8e075d833),
(0x2605a18efb7d5367dc41b1d60024d61acf92e0c8096f29a55f2dc872004d97f6, 0x8d6a6774f111b7ecdc58ae5180ad6fd2fd6d674c9402e2f4f944bd505e66d375),
(0xe588e272a78756f37fa36d6cd35b362a25cd05133694b56c33d0b05cbe7f9995, 0x15beb98320b842969b8715c6ad23e53e115425c00d07191766e56ffd5472fbb7),
(0x80032522f264edc5b6b205cb0f79ca7e3a02cc3993458b6ccb98750dbd6b46a5, 0x479c92f4fb4e1eba98f8b93b5aa9725efd2c1de8d4c3d043bca7183b851a44a8),
(0x950c040ee1a581b570501308a21287e794b525b7f916d3f3c166a2fa1641bfaa, 0xe43db20e911d70a69f171725f760237a52441a88dc385a751e4ef1dbb738ea71),
(0xe899ff36423fee572e70aecadb8bc0f5a634b9be282dd8759db5500a86c391fa, 0x07ed97b0dfe6b68e267100340f87a91188611790cb18a790a0248c7cb43a9bd1),
(0xd236688f0c206b7a8f8ce5c766e19fb86a7415d29c57845e8332a5cbd8a1a51b, 0x72f2359fe3d54a60fe6d65085183b525d509888755219113adb05c2c656ec9e9),
(0x8d3d7c71da4b2f2483e458c585c628f5430eab5fddc2686ae94e2fa2119dcccf, 0x33c408e47948f20cbd79c22ad647ff1e1f435c031f594aad82778f581f61178f),
(0x320f137ae891819951a542ba5d1063fbfee4b750c56168a587d7fd9bb72651a9, 0xb840546ae2a4e1ef32275a02153bf00308603698a8c5e2326795bcf3d3c402c5),
(0x9e8affce3fe6b259f45686072d46401a7546c87f9a46e0de8ce577c61881352c, 0xd0ea3701d83b7f7c260ebaf097236525af8639f6c53ecf9273e77bd4c29d02f1),
(0x5df465b81d353987293c915ea24121efdaf70ff49ad2bf539bec72b3c61eef64, 0x3206c5ff5ae4c841058c193d40f460838b38047cf33c3e5438541a7ad5e690af),
(0x999cd326a18c350bf4861d48826ba3c51312bb39886a064d6e1465d48ef28f58, 0x2cd8ab2ad6dccdf67998e66299551608a9fceab0be884b0dd418911dc8b1ef12),
(0x81d8fcee574d9c16fa2ba6f4255460cb479a66674761b4cdc0ab026b6bce163b, 0x594e7f34f5897a6a3b79a996f5a698143cf771fcfd7c8ca638cb4ac598673143),
(0x9e83d724b9ac73bef932b42d56f8518385839c9ec953a0dd4da6d843d096d278, 0xf8b18cabfed05acb89efda95ac496ec500d3a000a4a1d689a1afa5e230c88869),
(0x98ba38b13b443c08aecb1f6473b2d901908ec33b35baa31764f911443e320c3e, 0x343f61d7fc2232fbf5d2f972e6f42f490d8ece7a3434a0a44df1d6023f99b84f),
(0x2092ea5a9adf5eec5a7a94886e9706715822447be6c35285de70480652a875ec, 0xddfb72eb52382722a94facc8e261666195a7e9c26594228f304adc7bea4e7f35),
(0xf9ee909a8f45a05eac77bce4ebc97410c044c63995a1de765b9304c202eeb75a, 0x861031ba93f5b0e8473e50fd2aeaf13e3a39c0d37e2e9d51a41ee4ee1301705e),
(0xa13878e23bc55a7cb342dfc02eea9bf95c676e27c63e8603c75ce53535df101c, 0x35c0ced03d4bb091092a2f833d3e81a6233f058535c72ed001bfff827b108427),
(0xe8ec81d2cd32dfd87284cfce09d80c03b863a7f83a71865d34f7b1b6104ae3e4, 0x60be9b77ee12dd7ff532b01af517bfc91d24c4e8b0865e4ec6e272270417648b),
(0xf07cb2551529dc433470b18fe4e06390d48e989869b9a97a6642b8981cf35b60, 0xbd46eb776d74633d59b4b9412e2355a9c6e8542159513d2b0a3297a6c223b550),
(0x39bce423dcfda9f0a97189ae0a60b83642becd3f2f2cbdd82fe884dabaaf7f51, 0xc1599caa4b71219e744903127303ec91f3430be814979a2b2db78bb1ea2c8e4d),
(0x6da611cbd51db81418b3de2113c9e4ff58142f67cf2d8ec80e0fd1051e9ad3cf, 0x6bc2f0483250f654fdbd494ebb03480ef7fe55682e19cd704d178ff3041e4b7f),
(0xcedb9c038d2e0eb98a4a5e8efa7e95c5f4e13a4779470c709a3c9fbb8b1aed8a, 0x79a2fd31de42d8bc820d5d56ed084f4046804fa5f7f5e8feeca6ad4d859a0d40),
(0x7d8954986d1106d032f40458f6c41fe625393f84d00ded8a3a07a10705ae3d82, 0x5d4fb6cfff1c594b61aa117c7e0ade0eedd110c2b2109866ee7d586a1a6d0d61),
(0xa4f29162737043afeb1e260693ecec60851aaf50c6e9daa175a00c43d7dc3df7, 0xbeebfce8fb764b1538fabb20145aaed392265d7bc4628846b2726821c79c4439),
(0xb6389dacde4ccb08ec0ce964e689bbcce0ba81656680c0a29cb162f0f91cab70, 0xe440c7dbd2d0247417b2826d28e31fe79ee836a7eefdacdd679040ca50303529),
(0x72ce6dacf752c36f978ac2d6aeef37f5ae4ee016999ccb4927b8aefbf6fcc9e1, 0xce6ac297bbd84403d60c6d4d5e01027e8ad38acde796bbc67c45f10ed79bbca6),
(0xefad336fcfd7425a560931faa6bc50c14fb3e5ad0f8ad17531b138466c255f06, 0x3fb784f4eeee9a11ec7ab559718171639eab6b094419203b2b422e8fe15a82c0),
(0xf98d4a2d04bb21667c74bd1f0393ca5722002c6cf382b49c2895deb2034eaae3, 0x9875e31f7e3778a834750763c6147cba97a26f8ad669e69e9a36cc45b56fd148),
(0x768cf74d2bc242332c5eea342ac13ed12b0d161e65876eafb0b89460c934183f, 0x42337607e55b4d7af86e9f72dd06a550af083b32e72e62654ba00fa7a2fdc34e),
(0xac26f3b01d05c625915ec27aaa916d0bd34cfb6e22525c599791274da5beff7b, 0xe36760ac89b61681d1913bcb1ebeb199a3005576b8bde54a42fcecdfe94f4045),
(0xdadd4181741a0be2e665045e1b042a3afcd9050da08d128521298f341f74fbac, 0x6cf46fe0da78dd04261e4e2c863574e7f6a4dfbca902802b8056e00ce4a84f60),
(0xe5651598ce9e6a862fb139ed143f1b732c4e1eea91a88f82a6fd0ab91a86a3e8, 0xbb42133669ab6c10109723d8ff4d5f6c0770fd8ad569a21a9e9efdb2f1f1ac98),
(0xf26f791eb4f0f59639b69b45401ee3ab2d47a2b70dcc3d65de9e48ae270f5b02, 0x22e34b251fe5bbf25183c799ea45757c2693c591633a84fbe1a9bc0b470ff699),
(0xa50cf10b95612f487a9da048a84dd8a32d2bec229db798ac19fde68e623da9da, 0x50107d3c0a76a2641db9f9f47cd60598ce345ecdcc3de888e4c815530bdcc576),
(0xc74883b902736c1bd5f86a5c1817cb9be917e5ab5ec5cc10a1197f1b0a45c13c, 0xe03c43bce7393cff0d53e73b60ea2759d1c2bd55c2b7a32e847f4bd12c8beedc),
(0x0a3437d01741ed88bb05c00f629e2c8dbe7cada4dd002e9c98dfe80009e1c0a9, 0xa627e05a257fcabd1fda00afa4d3eef8fc268e670bb41c9ed2160713847bca1c),
(0xa6cc4988f179bab4de98ba89530686fc90c00c7704a3f0938329ffa399c8312d, 0xf4eba4737db25a7929bcad7c11346471bbba86ef4f611643712ff4759d70b6df),
(0x0efb34a8f5778d57b33330776ca1abe39e68018313936f2400da1aca70b84dbe, 0xa94a216efc53fa98320878e7167536ba7e5845ca149b25952f0298787f428d3f),
(0x139846d81385e6bbb23914ef487fb9ab019ec3b83fa45a94a2c5fbd6fcdfa07a, 0x4fb7cc4e599b10cda99f6aff28dfda0b62d837b2e8c96aa09c34cbc6acfce099),
(0x660923af98ba567a83df6eeaab53ea6249c2090a13299bb7a538cdabadf2a101, 0xb28b58cab1a29722699890ee8462f440ee2a56869715478d4460f0d88c94bd29),
(0xf18092b58c7517de3f389d31f1a6345ad2f86bd0c1dc9a98d3e03890f52be3c6, 0xa83e7a0491484ed77dc2769733b0321c440ca7632a36c6d07e8a9afd68f9c906),
(0xe8d0aa0d1b2c540f38a6a6e25b5fb2957b700467648cff74bfee113881d0ab75, 0xa324cbbe52055c1bd0cc3f2988a809821abfc0cbfeaa56e9f19bb8abd314409a),
(0x2586a0c0230a07430f9613df51f7463e1d8ee72d503025f3c7d2dfc46f526c1a, 0xa29735a1eb2b470d43c7b4694850f5c3ce9b1da247406653ede03ac09816c735),
(0x217cfa888d826d46c31bb2d27dd7c8f58be68254e42c0e48a12cab42677dffd8, 0x4d5d9c309ff0fb15035f99017af91ded34179c57f48131a006d96b6ac01ac4ce),
(0x4ea6593471aa3b8f9e6791eb037cfd67943af3bf100d7ccb8203a3531aedf4c0, 0xfeed9ac419a302c4580474035c95e997ded8a534c88beca506c1298484b7b4c5),
(0x974b828b51026aa4ea522150c497eebc7d7759f2c9645f7d4faac24d18c7a1ae, 0xc0369da0c30873362566f344ca81f26165cd3a03fcb0509396d18fed4faa9d26),
(0xd9815b79d572d7a594dc8ae93cf45b3699bb4544ed1d5755529c70969c978186, 0x9fcebacbf5181954ac4ea24f508fa67f5b6c20d864ed53ecd67e358ae75241fa)]

/-- secp256k1_pre_g_128[1920..1983], /repo/src/precomputed_ecmult.c:10178-10241 -/
def h03_6 : List (Nat × Nat) := [
(0x527125970d9bd4e7cbd506f1bd65aac1478208bdf9f6ad38efd2b30eb8368837, 0x52eca996ba2cecad9a0911d16536801068bbf0c112d6dd79aef232628b3df18e),
(0xd94231afd890f5f9ef70e1fee8a8f4e8ed2fc89e2b8ad8186af55de8449abf6d, 0x26592b6ef0789218273475fc32d865cb84278ff48cd0de27e0646549219e2867),
(0x648512317a69d9563b3a99d4b763eb9ab661f7b0714d34bfe5328a4da99a7d90, 0xeb20ba33515040e36fa020885a3e92161e06d3b378122fb4af4920a351d46bc6),
(0xd0a4b11bef662f1798f413a5fc06256770df9edf0ee0021779c3811cef68a8c2, 0xd4bb992018e16945c38ef5c99ab39eeb748b7a63ff4d4dbe8b329f74dd70b9cd),
(0x1d89b886c4b248681fbe103ddcbd76b1dcf546373bd5249b3dc07f06985802b6, 0xa339cccaaacd10577e36056ba3a70c6aa7885a4542bcdf3030d0939f6369535d),
(0xb6cecdd5936343e4f136682fa38ba0b79dbab223beb0b6c010a75cb2e4dbb256, 0x2935c05387dd87a25bda5d1fed8136665f77d12e8242dd583ba8db03319f7be8),
(0x84b244e0a0cad84735ca6c5fbf58196840f1b491098682c4028aea50bf2f8e24, 0x62e28e8c7df80b11f5713087ee3a5d8b148c8e62da0de1bad8289ac8861f7a71),
(0xf95eccff2a908028394366102e377c416643315943feb6d1638df6c1cc114d1a, 0xbd0da83f1a0306cdb8d1b9ea189856ee56d16e8161b4f9ca7de38d2be558eba2),
(0x7c4cedfd3e613de4af2ccd2559a2dd232a1e6335e410d32727fef321d10f55e3, 0x331f2109d9d00536c697f73c672a660d11d4827d413066960cdc224ee7d7b1d8),
(0x235c2e381bf2d829e4b918de0435e276f88af866ed31a1c34b9f7203a0269713, 0x50dcdf0d2671092ee7c4861444eaa87a815a13044600fd0ff26104efa0dbf929),
(0x2a961cd09ab50975517ca488d1c4a3880cdf2686c5dde92376128683ea07cd73, 0x85c91076b2ee46d23cc0f7fde765472384f84c2eedd7552dd7f93be92398abe5),
(0x958bc491f0afb8cb8713f591cbf183f7e00c4775093d1b51a628f40e4cfd65e3, 0xbf5be339fa21dfe49113e026af0761a1b2a09a7aae8f6eef92d50c6a089a65b3),
(0x6e960ca37b5b7abf99f5a2e246b7e9530adb5ccc6424e73ddc865bd83d5f78fd, 0x53ad4bd1d5e9643f5f2df612ea16fcc8dcc4b0b29ccd5a81bd659b356a5e0e15),
(0xd7ac920e9272bbaddd9615257d91d6a8e747e4a7a48ddb5a8b2ece8ff0d05871, 0x6381b9fcc37bac5e38c0b96d00c098c39d4c762061b66dc4adf66e24f0c87ed8),
(0x09b0803b1de95706ec123844ebe941ae4481c12ff2d9c078b6c1d5315d730609, 0x160cf3d6b12afdfceac2ed01fe4b801c5a5ff0bb13cc3ef2f5f0962a6b3fb1b0),
(0x5d50746e5b74e0069dce0153aba04216991bd509f022f3ea689553bca4c5fd88, 0xb0fb205fd2a14b1bbdba2e48429c92b699cb336fb6ed0e589276118b6b259ff8),
(0xe1bc2669fa27629c9270874836008c2def4483abc686ecf0bbd01a85fcbe04ff, 0x6fb7af71083c09216173fd435b3a1b2b15e8b1493bed8e783d409f840cd95ecf),
(0xcfc9081cb5a893db40c519797dfa1cf2f36ac620cf7017a2fe90dccbd8bfbf78, 0x26a88d2350772fc32f377c15a9bf817cdb321d1a55c4d659b5f29ae696a69ac2),
(0x054d9c9d12bd68c53961246db98ed78ccd8ad1588458d4b05fad9df42229bb9b, 0xb5e97c311dec2259630c961fed33d7d4f8de7005849225eba4549d76de1cbff6),
(0x8a914ee67e9d6619d00f19248735c7b2bfb11eaa61fe42e8d64b5a5343057dff, 0x1b91e1da3374da498bc2f018c2a6fa5199c51846a2f59b05a6311ac31bc040c8),
(0xd4b811773e641dfabc704fbae9ab0ab8aa2f4c42fbd23b030a0b0595d0240522, 0xac30ce3b1ea4a14f4a5bd36420f40df1cf2e6835017107b8ce6fbe05665cc726),
(0xb810a787c232357cbb82c35179249f646f3c8e2e72e0e0043622667014780ba9, 0x543640341078dd7f216bac769abc84674a422c30f1b7aef76a2dbbb0158319e2),
(0xd71f88cedc738ef71ad691eac3a7eed0d29c762d8ec7ce0d14e72d3ff534a833, 0xa47cce831aaaadaea2d9d0d97b4c512597c1b51495c3aad9d2a4e7160cfbcd99),
(0x170cf31d4cac628e139d9d89662ce5e11ad7092ccc6c617496c99d716d147ffc, 0x4fb3b894e741f585015e8baaaddf3119adf6c4ee695253a46f9a5deccc6d77a5),
(0x8e7692a3b1275e8038ccbf66ecb9a55bbfd48d494085b4d31729a644ecc316af, 0xf339c1d3af07525e26500665ce66a91a4fc0bfa6b8a4641134cab54068c504b1),
(0x5d1ff3383dda5e8132c47002ee2b77cea07ca869e7684d40a27cbefa4aca891a, 0xa1adb3acb0decbdb6772e62e074c4516fe8438338d2979cf5b091801bf5fbb8b),
(0xd566cfdda9dec66bddf2605da37ad558375e1c5c5f5403ebd75ff6ec3c2b8af7, 0x13e2232c78586da9741598bb25a90a4cb6007bd7bfb75ed8427ade0e619c78bd),
(0xcbd708f9cc713af1999ae74b2b9ee3db3cb85bce249c5e33764997d02fd96493, 0xf01a1d6c4ca9b0b89337a5af889d8dd9c264f4bf6b8066d655cf9267684cb2cb),
(0xfee1ece4e8ac73c88220bea2153800f3e8d049b8f89053f4ad4b5ba3f0ed0fe2, 0x9b5208ea17c80640a353354a7cf42f6af9763db0bdb0954f53d56a2eea26aad6),
(0xc6aafa66de4448538d7a6c3afcb35a8ddb916f3314c15dbb79c48bc946ee843f, 0x8a61c6b67fc590f7bc81a7617a6e24fa34c49d5b30b11bfa7cdaf3bfd1505b1b),
(0xac35156083d91f7e4898551e7666bbcedcbe21fff005ef1e0a866781d9aac415, 0xd709d99777109afb28c318fbeeec8a275577410b8da6d4945ac7d6601334483d),
(0xa89c261607c024b481455d1993ac04f57a212e3495066ef921968f723d914e18, 0x551d36626127866c77df092f5ed8dab13569ce68433de199ac8219ee13a3c1ab),
(0x9951831db58499eae94018d8cfb9162eb045b95afd246a3a72e8808d1ca3f06b, 0xfe39aeecb9d5f867d5827146fb38480881696ea15b0d1188fd487b16d9e4d773),
(0xb71e17e014564447955be26c61ecebc68615e2e937cd2e8c78d26922681fba96, 0xebcfddf1d21fb8cb95e3cb224efe95531a6c5ba9cc92bdc43011c50b63b9e3bf),
(0xe170f81edbdd9ff6d460ef6a1c3d4bcb2fe89fed4e6742c22d683ffc15914074, 0x93f110ee0f971cac8ce206e3df6f9caf801fa7ebc7df14d2d6f67e72ab96e67f),
(0x431a5547318d05c55ecf04eda1fabbb14ac8dd8a47dccc73acf5d5c81ec104f2, 0x3e3188ad7b141a364afa1f0457ca827a7a6f1f7075ca8dea6fd08bf2bfa779e7),
(0x299e6a6ee15875232be26ce4a1f80cb13c1932917f0b5eec383ffec262203394, 0x5dbb70ed3ad4a211bfc8e8bf4c00a05523c9b3e4ed3790c93bb2a77e05301575),
(0x66db488ff2b58869b2fb5f7861e7f825bc99ac9bea02b59fb0978c9cc38934ee, 0xab76e112b51c83f80b10e9972f6866c46040e7efeb14817fc316b730e8ae6a5f),
(0x1259856b66980d52bb3912fa78ad5b7054c812b5fed402a1c3c8247d26274932, 0xead7cd3fc67895c7edfe0557d5681bc2d70dfcbb870c7c2245d458c7f2150383),
(0x502c8614cbb0f3dccaa5272fdd252c7c4269968cefebecf9102745dffdf1cf00, 0x711bc68807e4e356fd9d069516af0a381b2f45006487154c10b909953bc53c3c),
(0xe051193c323c6403f69c107347b6b7fdf43acdec17c00c422249bcc70aa8d6fd, 0x2102c271ce428ee616d1d2bcf25c2630c574d9b187f8b9f1c85117e38a560455),
(0xc9187bae0d768d3229fd90c15c3b37e70abe7c58b538acb800ae0741adf1dc46, 0xc130d443f9ebba4a197d0252615ac29d5714f6dcf27fc0f8d754733589c92c0f),
(0x5b08567eb9f3b3ee2b03ae701c6b064123dba4d44e8297a16eaec8d9e90fe897, 0xad071c159079c91acdee9c726e8f4cbb914d4b4b750fed92aa81a987a90c27c9),
(0xae5b648ac5817a86cfb06a26d62691ab8a9cc554d0eaa86f839f4a51b43ba7cc, 0x1ea8ab0db665c22aab0a48c3da17c62966e75212a6fe99830d5e925d432db311),
(0x3b9bacd0a092856d98eea5c5ccc9abb404f2e0d327e578f042102148890178d2, 0xb681e88e9603ba1c57b628d7ea929ae0b79be447f181a4911fdc65df21bd5052),
(0x524df580a74066dad522f82795e415abf6dfbf7a1c1f6d7ee8d05a864659fef4, 0x3facc7285f3bc1e1a6fc210cad302ef19c72c5f9e358b9c1ed2aba722652f35f),
(0x2e0637f2ade775c487d09a383480b875599a34ea7fc70cdff6ed309d450e4363, 0xe3c6eb087e2f4e49cc78e903e4ad55f31aafb7eeada723696da8a0a0f764738e),
(0xf7fec6adbeafbd3be413fb33587b94273f785728226f764bbda6130baa0cc483, 0xf646a9748eb457c7fc8fefd8e63b976bdd42093ae59fc544c66531d19e08c68d),
(0x75f94ce06af64c432b6c95b12d892dc8cd6eb4974d82629929ad8bc48a3608be, 0xbf8716d0a2b7906a69316b3221ec00766e32c8922c7be6c622e8877bb1958a29),
(0x410296de5e0df3cb0c4f039fcc869090f62e07e9d301104331bdc1ccf3fb4d85, 0xe963579ca314dd96ab8a82ff86265b82da74267fc861f96c383f72ed3ffecfa0),
(0xcc824eac05f5e16b2f7c1703d97da67b69b4e69816cfbb23cbdffe00d73ffa05, 0x17c30da69f414ef95dc5821827c7880fd18c6f1a92afaaa8b8cf10a3353e8abb),
(0xacc1b0ef4d26ed8cd78f0b3fd3177077d2074b64fa5d8d03a83ff1137e6e5820, 0x6cce44c68519ae91019d2a804f8fbeed4fcd24d0169e800011150c8d9c3ce6c3),
(0x1cb3076eccce1d9b0774bccf4318b921583c2b8e318778257c2fc71bc90da922, 0x2a2f276c0058605d82a17dfd3ecdc5a2a6372df2cf25bb04c628748e4ce373cc),
(0x6efda4512a22f49b587ea97509e5a4008cb3a5217a38b9783d5825aa84fe13f2, 0x11d44ed56dfe2fb31ff2a54ade5a2a5b60673cfdbcbd503954a94758878e2424),
(0x47f69619aef4378b5cc931ecda8fd996e2fcf1cd17de9cdd51b30c3b9dbf0858, 0x149556a19776e3d6da457af2a4d70d660d2fa28ac33abee9bf8908947cb5e274),
(0xdd3d8e1e97f5dd5d539032c513a19e268b2eaebc1a47cd4f8ff48335794d28e4, 0x7968bc0020f6a83aa973d7c6382ebf330c2233bb034be9c2e0ff9eaa4c467e83),
(0x2bd454eea19d3a6cbe55737cd3cb4b327de2a2b750535f9197aad2b665e16d78, 0x0a70b0f0d6a1278f34271c667ad40feb9f7c624887e3f7549c1f1fd7129f7f99),
(0x8cfe75bb2a7e74b44da035b29a26784e915462df13ac2d91047331840f5a5ee0, 0x648ffc56bdc87c864f6226d1c9245540b65c2da27fdadca1eeff2e246607cd1e),
(0x5eff34ae19c462cbc2fdab8324b57bc85e046a684f112f6e665b325565724d36, 0x198fb5bb9db347ffc2289629d2e01051d551e78347c6a6b0ccfcde15a04d68a4),
(0x9aa54554f3673b08e36db62447631774a2c51bb81f18aa610426639f78f92b91, 0x8744a3ad4a6e7404d2e22faf272b50bd1d167b465f25c6fa75c8d78461384806),
(0x4b8375758cfb5970dfc7463c5df06ebbac88a2a8b9d7565a955cb53a5ff259e0, 0x87591d42bda1a53f6e474396a1233df6ed70766aab7aaaa99171a5e4fa8df208),
(0x5d4b74b49134f90e673f5a57959c7cefc49dc72585734428226cc5ef76428bb1, 0x1b2a8910f466ee15abe6bf3f100d8da0cdc2f6bbf19c3cfcb1f07a0fbed89425),
(0xd50be2c0c55244ce5d93bafaf62ee6802d4754417ab9c2b25702a30957cad2d8, 0xfe207e4c6ee89ab4c01854617eaa5de45a4dc0f20bc4544ef241cd5c0162f583),
(0xbb0f61ce8e0eb38464e489155bf985aaf93bbff1416db2e9a1da034e1075bff1, 0x0013a7152ddeb0df30ea1032cbcb08ef4e6b056131474412631f6fbfb77b7d0e)]

/-- secp256k1_pre_g_128[1984..2047], /repo/src/precomputed_ecmult.c:10242-10305 -/
def h03_7 : List (Nat × Nat) := [
(0x3ce6bddb473f01b2170e41fb22fc5efa63e22b9e14d9bd2288632bf84ddcb2f5, 0x43086057f4b3d298426b7308110dc52e9a84268f1bac1edf8d47a25aace0922e),
(0xffdfb14aef1680bfc90b5490c7cdb75ebbcbbff1a56c3c85bd37460bb38f81aa, 0xf3045def02f1f19e232880d0e948b5a524f228c73bbcca547c216ee1eaf4af0d),
(0x1ac1f2e19ab4264d8126eb60a2330aeec828d102507ac0fed59fa4c08223172c, 0x7636a4bc339486afb215e3a8f80d8f02d8fae06381b4e7f5133f1936d8e18bf8),
(0x52534c0a0740e89a6142957aa20f2339b1a1a6b607e6c9a22d6661ecadec228e, 0xcf6fe6bafe41c899c1ec2fa5d884fafae1a31835ae8022f1365a97cf3261b669),
(0x409202857cd22c2c78cdccd6137d32b104f36f2c964a278d5b9f6462651b09eb, 0x40c94f73a5fa3e3f66dfef1bf4f16091f6b7738eb8a865fb3bde12c42d031d0d),
(0x8b1d3c334b9ccdb214aac6e4e840db1625a5b3c24069d9e70c81bc519b029289, 0x114fd4642acf95991fd65898578222778020769f145f86e5630d6db55e23e853),
(0xae14de60b7c7f13a59c6bbd2064162dc8a6055e63d3460fd7e473979f4a242bd, 0x8b960489cdb5a333a14463e2376f2113afccfee7afa00ef16cac6a3e4c65a412),
(0xf37f1c4099c95e6c3e8d4e395dfddbafb8153948137de4200788386e2ed3e3d7, 0x1f29008082f6ad34b2283d769cf765770a56441104f51af50310c0a3b3fb3606),
(0x1fb07fae9636889c34441c1d3c2496bca13f8933666d05dfaa53ecb21b017a84, 0x128189c93931576ac4b68934b7ff551b58e6da46fa97fcb7b8df8c9c637753c0),
(0x44d1eb54e112eced480ea2b51ba22ba72afb0721d0d6b71552bd97284815f3cc, 0xa6e13b28574c526f12673e02ed7938faea1855b7d5b6e88e3c3a9b2af2ed7043),
(0x6980972e5732b8757fe311cff76f7bd0ec94918a759a7cbfd8795645a103238e, 0x7b9fe8324ffb914321776b24a92fa09aac4a0fce17c5bc262d2eb06363d26a5e),
(0x6a3a8c9d405bb1e4de59639c4f6406a1a8566a629d85b79bf703025550efcfa3, 0x3e8abae87b22d04a8fdb408e196b47a42e0f59eb9d51924d0ce8de66cac038ba),
(0xff3108d41598464abf5844c4dbcfa027bfb6804c946c36831da390b64412ed0b, 0x805565e33ee1d0895c6abe857705464811f5d4d0219cb515dc072d47cbd0a317),
(0x0ee4f76a2f8549ab3e134e53335dcb5b49972750180491bb2139324e95517d73, 0x6bd9016722402b1168989e899c9427678307367d8a29075c8fe810497071a838),
(0xc21175cb01ca958f36a3b7205cbaba0c230c63058cd09966ac78f51a4c53e0a4, 0x6a2183a67a7ca0af256a0ecd2c085d81585a02eb2ffe6a44ea923688cc72bf51),
(0x2d5e4c08a9a0b39834e46e39e7cab91b953141c0c5f2d292c409cbf39a37d6fc, 0x7569b9c531a331fa09234f37e9005ed04b512721dc4ef054d616404675c6e15e),
(0x6302c041bfbbeb09cc012408631765f15d573b676b799c26ef7c2a4cbb15dbc3, 0x32a8f20f67ce42a0ac4ddfedd0932e91a1e51488049e463f915af0827e491025),
(0x3e61516c198de08ef7dc9cfb89ef9b945b6c67cc2deab08ca3b3661205934e2d, 0x1effbbf74d5f7104f778494470f627845692f3ed048e4dbee956e063037520d9),
(0xa008bab2d7d134d24ab35a378f330521b8989219108b05a7d8aab0aee542fe30, 0x77a377ec903c06e5463ec2fde9c05e43f5454aea82b99de6be09fe3151b475a1),
(0x7782ff48b928962a950f42b802e4301728711467016f22f8c389917ea624005f, 0x78f23e4938a03e0cad1b766db9bafe308ad2c9cf5b22bc18c78c8898fb608c15),
(0x233b4a78c26ab44fd1019d648c896eeaf6ffbe718cfefc20d20676f827ddcfc2, 0xde508436d976df90487ddc1a48284cddf553d3422e0977b518f3ed9e773b655c),
(0x8014aa2906eed493d83d7aed2d8c33423f7a4623295f2a0792c5de0c71b8bb0e, 0xdc58729df2a5bc9b1170caba4856a9e1695f39af81a1e444f3e6dd550f583d92),
(0x8a01e90b233dae711bb050ce7bc61c8c60882aeaebead2c1b284ab59dbbbdfce, 0x580ed75dc9e3693e92c06cc412c95a77b34b72ef20a51cf4ca4ddbad7691fdb0),
(0x050a234924a2915870e6372d582ba07fa569881a096bd1a44cbb92321ae733b4, 0x6943c220a97701d4a79d8e2fa446fce3aa21d00e2f7cfcde3edabcda678cc751),
(0xcbf493578c96744f7ab07bd6182640eeb51b8f6da8a655cecbd2087aeeaa6d83, 0x4d1b36f45711db99404bdb1c9484a04d29e79fa587d051d5e75f07c4ee8d4bf0),
(0x737b3d75e4edd2968d164c2e828b31d87c63d11ffa4ebd89ad59ba718a8efe38, 0xec7f7ba18aa8e5154527002eedc8327aff1ebf6dd3877439e7c822b535f31586),
(0x29cb2864251939ae6c7f46d69d7b44168812e0c59aaa8b8bb7e22ffcac38813a, 0xc3ec280a7c98b2c5c96d77c8b410ff1bb5f1eb51debd38f0528bb73aeca2e6e9),
(0x1858aa5924282fbde44dffa25197954ff366895424741d352c9594fc5e28fe9d, 0xa0e891d6b0a69fab9fbd7879a7e4ab4cbe50b1d44be7648596fec281d2d4bd46),
(0x72ce7c581a420eaf67bae314d4f092e926c1378dd346c4fc2a9e9174862eb75c, 0x2329177a5a9c3e0cf6e236ae30858bbb8bec121ff7462ff36284bde07425ae1c),
(0x34c1ca5e5dfab6d24abdcb8309ddf9bca3f9dcbd00ecc31517bd6f46af112903, 0x93f6feadc931cc97037c4aeb6a589a0880088a24eb49a1a27aca807b22a1f803),
(0x07c5ac4a80af5867f803100ccee3d6768d348b479ce26243284ba0dd24392c36, 0xa4468964903be64731fdb23d1ea7ab84a3201cfeab585b863370ea4066fc5828),
(0xbe2ddd13244c77281a98851c8683ff7d0b57bf3da746cb35e594b7ec4c363caa, 0xadb759390af8a2cf1cf3e5b92bc7ba658c45ea8547959f257dfe45923e580fa2),
(0x6dee1f6a3b3befdca4a44471d62dfd9f7f7b222b819979b7901a17648ec13806, 0x5d9e85014fa5f6fff8c0356ceb0131221a9a24310f641ab6af3b99995c2e5651),
(0x15f264e68e2c8ed7490355b3a7b11512c764386bf6bafc3180ee6fe79de68c19, 0x90574d26302bf408ef9053fd371cf29bc41291aba76ab74eddf3f8c570326aba),
(0x3d7cfbe904cc890cea592b785a984c8d6d4c5e7b183f36660df9805ebe9c91a3, 0xd55cddd44ea7065af8f51694f6a84b5442b30b48e7630d126827dfe5e7f62808),
(0x54388bf90d7951dc7ab5dd3e749712011ec637b07febee1445b1dcd99c3a1e10, 0x17b3678825dc2a5f9bc8738b3f560d23725f99c2a9d6fdcf6fbeff54aae5a547),
(0x3c229fdd9a0080a5948a0d2cc9281794425327c552063c94be5f01976a088313, 0x34975795a84f83b4af883d12c373c505192f0a71fed21d8d3a8dbb8d2a926a1c),
(0xb612bb6ee14659a6e1691f368fa8d7ad1974e74e36f1ab261570527127c63210, 0x05948c5dd623cdf1f9477733dd5e8eaa05240817e8e08dc223b6072ca4df5bb4),
(0xec56e58554470dd428341ed3e900e33bae381e422efb3d64d2edefe07b05f613, 0xecd7f151acf6e308dfff2bd6578bce7686effe0cd3b156d9df8f66cf295e9c45),
(0x01bef3ca85ff9f8fbd80c8baf9b15b26a565eeafe4d4f08f25ee748ffc11f80d, 0xfe0260bb96be497ba194b89271bc8989125f0a0ade88b135272c5683f92914f9),
(0x1bdbac4a522b68e2a90e42653d2bf4ad0c4b27e5a2ebb25168a083e99107c20a, 0x4d60e3263ede7fa0010467b9d2e8b2065b09e1270e3fba9e3d22843950d63ea1),
(0xe9032f9a567ab8da551e0f8b1b2c2c226e601b7fe894b8373bd9eaad3662fc84, 0x0ac563e647d21af3a0cb0a49dafde0f121d609948dcb400064e3196d74eb70e9),
(0x7ce746ec044af748a5508044f56e3467a9608debc8a051a9fda907c308f79c75, 0x8f0879c13166bd23be7bbb8046f3c0192c6b8fa052fad7d540640fd5f2aa426a),
(0xe0d5278919de6d1ca092985646cd320068862dcbef369fc906c6de4cbb59eecd, 0x98f4679db4ebdd90a4f5479129740bd5f46680f1d3ebfce88cda2946ca886b20),
(0xc6a245cdcf1f4b584400a4d482f2088ae28c8b85641c1f1800a13aea7e5ca397, 0xd306dbb9f8f2cb09958ff944ab5e6cd1cb11eca833021bf3605e6768961ac628),
(0xff956c8d9710f082a1f34acec99987fe4ade09194a0deb06a1b286e73695c910, 0xfabec52b866afd461fe8c832fd8a9375a8086aecb0e2e39fb7823d0c13bcc306),
(0x549dda4a0d1a604cd0f44fe45c4dc2765cef12166f4accc73ff1215226c23af0, 0x71e3afc0e05ba826036eede71abb15e1166fec97562c4381a33f765e100631ef),
(0x66d3df09021573cce69896e82dd91f9d6070dd12edc217232077e6449e776416, 0x9398161359a2ee3ed9429dd3eaf058bc09ccf1c9ea931ebc25ff279d5bb46d5d),
(0x61bd3dbc094263869c53ede5a5c4f1868a4d7a820fae1be737b702f579e4f8d9, 0x8c056a47e27d4f492c9ddf5400efa48c502aee81e2336caac1b572b4e082e780),
(0x8a6d8b464a31daa92702f7849148db1c4ef20c76fa67c00647d6f3b980178f4e, 0xd1f406eee408760196c82f9e38205147c31309a193bf4d8ccfe67cbaae8f7407),
(0xe2b60e9399eb8441700aa90e1edd981d37893b425acf6b1b809fd1e4922e573e, 0x68a0c65fe394829a8ae09dc0ab35d789bd8a38ad0800e9ed63513eea4e19f7af),
(0x4c76030fe85cfc9264f16cad99dfa541fc23b8c72b558574ac6f26cdd4f55e85, 0x44b352d89a31b4ecc8f9a57451855f7de98c63aa98aec0902d959be8a12b7bb6),
(0xdcba96a359103c350aa2c9ef538c13a02f0e89973663d580fe4547625fbaed2e, 0xaf9e205f0727698ade9f91bd75bfb73cb13053d2db2d83deb4d14c22176544b4),
(0xfd0497d8f75fff9acbfd3e036c9edc73e682427fe9b66a433b5b2b31f2dc7883, 0xd23014b69c8d1077ab3fb2fcc0bde4a944576289896de13509c0badffcd62d79),
(0x5bb401bb0b38e41343d1b77954e83f9ee705009aeb8a1077542cc6ededf48040, 0x431fccb5acec1391f68ea628378e3ca8ca94457300ecfa5ee7a82bf882599c14),
(0x1fa96a4ff9cc6ad8b2741c38b35c377e3acac70467bc5d20a262db5b48bb283b, 0xc3448c92ffc65afcf1eaf7f1f9e149eb6404dcc71b222ac8bfca8febeeb963eb),
(0x09534aef1ae551d27a638453171d0a63697ea4202fec8f1161432291642f86ea, 0xcd0c943c38837dd033d48a4eca13e96f46fd7f212cbff8496432aac0ef729591),
(0xea72afed43300390bc98d08f3aa4ff4a138440bf01a8f8b7b57032a0d01b8ceb, 0xe174dd8c03692cc29ca856a44eae7e94af4fb0448517280925ea66d2d858663e),
(0x395935343ca2523a603801f2abf3a1d31656986235d79fa9a01f86d45c122327, 0xacd3e3e92cd76dc8551cbf0e9447512542a5b887ac6c975b45d2e0009953dd96),
(0xd57b2a2a375e5a0f6967d4b53dfbb51b4f74eff872742a3f246e3e09ec2d4721, 0x12d6f8484d107ec310ec20913482781dc0aeeb9471ae7b036a0d25510d3ed306),
(0x09f2dfc51b99eef60e6c781afe0135d5fc5def8fd520119c59bbaaf6442f1082, 0x08f20962fd273048fa3ca6e4ea96fe0d7ad1d75899e25a77e0f8b56e5b20dd0d),
(0xb1c30bc6f030c91349b36c1f9c0deda1afa5877658c5a16a9352c1bd0229884b, 0xf8a459d16e77888dcd5c63d18a2e28cb5563e727f53b59f1939390c61eecdfc3),
(0x08a663e740cad23712dad6f91bb5d26630542933853e02eb665e198da5c6e53b, 0xe206b39951175d15daccf71163b0918c0786a8fe02077812c0c1eee6bb5c1e99),
(0x2b0956cbe0ca91eef44fac0a76cc0b005f4a5ae827e63696fe1aa8b4a92941a1, 0xa31e6fa8dd454eaf90ee1e11062627e33f84b8feda29f423ddf2a962386cffd2)]

/-- secp256k1_pre_g_128[1536..2047] in pieces of 64 entries -/
def h03 : List (List (Nat × Nat)) := [h03_0, h03_1, h03_2, h03_3, h03_4, h03_5, h03_6, h03_7]

end Secp.Model.PreG
