/-!
Generated from /repo/src/precomputed_ecmult.c:15942-16453: entries 7680 to 8191 of
`secp256k1_pre_g_128`, as pairs (x, y).
-/

namespace Secp.Model.PreG

/-- secp256k1_pre_g_128[7680..7743], /repo/src/precomputed_ecmult.c:15942-16005 -/
def h15_0 : List (Nat × Nat) := [
(0xaa79f0aa767db1c03893c9c9c75a1f8f457f3f3672c1d2ae31e586580a916fe5, 0x4da2c69c8033860c14f8438b8edf290c5d02f2e5153b68edfb945043a6e6a1f0),
(0x48f2a720df9701272385a9615a215d8a3d41e0b4ad439c9a9d0453af4699e527, 0x11669dc926f70e96e76178c57d698d05b6e7da96eef4e986c4f6e6be216f22ac),
(0x561d8010a81a11913bb2436bbbe0ce2a6f1af6c6fc064d5759edaf45c7f9781a, 0x0bfb2561bc311bdd707aee1faf3d5c9dfaa9d564a5121bae09989665b074f026),
(0x64d0fc686369a225a15cefec431fe4341a424c780085bdf251cccf539e266fed, 0x694fdfa812f6bffdb1c75baa3b843d0201b69cc820f2a8b869908a000ac7050c),
(0x2b80d86d341d05f6218eb96cfb22783444bdcdf365cc38091bcba0fffa8b3d09, 0x152eb5162794fd0fabf030cb1968faa4100e803ce5b8046dc36e30759317a8a5),
(0x62652ecc0daf7ff53aa255deecbcd6537840a657dd53e58a514ec1bb98c9b5b9, 0x2a05c8cdbcc4a5121d2cafd06289fa14178e91b5b1fa1190e4c7c13ff50cef6c),
(0xf23fe7d769cd7bd85e0d97c54163e596a0e7dce9488e8f674ca6f3ca81726ce0, 0xeb1355f6ecac2b79dd299fcec0f273fc3767a3f33ac4777dcb871a1a99077e1c),
(0x91d4028d1ea8e3205718f427b427c21f4780a94455ec46c42fb2a1cf4772af1e, 0x7a529f923756a21224dcd316bf9a3f6bf5bfbc543b015c1054ae51be05c2e6b2),
(0x7a8fdf03175969a780475dadc43e5c66fa75846f63cfd62ce82d2153d185670a, 0xb7b58ebbfa0b2d3eec2a2638accd965ec7db6cf1c847c1b79f0714b0c1cf7dde),
(0x9d72d9af05e9d7b27fb2b8674aa35438946c4ca9eb9ea4bee20b2eb50e7cdb89, 0x324214ced556acd23ac00175f120d59e050dc95e96e6fda6ff348bde5ff7e701),
(0x33556ab7bbf601ba44dcb33eaa5efc823c70f507550f3d7c22f4ba62cf2d6bcb, 0xa21d830f233a657f7857560fc030f053656aada8f7812424f38a24097505dcb7),
(0xe002b33d9302286860b39e1c2820ad062063c344bef98dec3a9a042820e2c507, 0x3133f8291c81d970f879d1eb2128f21d7540e13531189576191ac4bbd83d99b7),
(0x9eeb1972ffd49c0c7982671c59071b20422a053e394db9938ef7b3d898795c5d, 0xae48763e5ad789887a7568274a17708f8afdd8bebc9c031673dd9485319763c0),
(0x60f821e8ad12907fe445f049141c7718a495d1ea3e39edbff0a73018a5cb6854, 0x6dc1b29162b025ae2a285e59a5b406dd927a743b483454d120426fa750adb95d),
(0x5b8bcdc640f4a2176d0661eff2ca5d6cb1aa2069557274c8287fba59dfd65a41, 0x42ab52dccad0499863e634dbebaae018c999eee4c3cf05b94f18d21823f21256),
(0xe764e7484ec2a2ac6843df3b5316f29b701b5191778bda16a23a20c169ed0cff, 0xe1007e104ae52971875bf7ea9e9d943194c2e9b5bc7b28447b7acdedde7d633c),
(0x37f0d94848742a8be73ef1ad0495b88fea95f7eeb343152d85f9e442771a22b4, 0xbf960e800467cf81bc22380baf2f57f0d5938ccc55f3f6910784be727fa68bb2),
(0x7ff13c437f2189a118b2095fbe268dfee1375a3df71e88b84cf5b94d63b04612, 0x10295e491f0a882eaba663f8f020222321c422d5f3b453f48ab8bf4b4319930a),
(0x74f6853ef4a2d0184cf113d762fe2a1c33ff27295414a5bf3f381989551ceaa4, 0x629f116d037c1809f4e2ecfd019c26276deff6c5b89249fcd4f6e82e58eeea79),
(0xd54d88bd0abdcc56c1bb8cbfcdaea6ac16949256f78d70f67a1416bab4cf51ce, 0x996afb9c5b36f5880812bad495c368daf9e9603504bb7dd13f457a6eda159b59),
(0xa860ca663ecd7482c862fac6f6a7b0e5f5f6bb26ee950db92942fc894b6fbacf, 0x3445137d2047c17d65b3cb888e1b0ba3619db023bd989a0dc585a59d14da7b9f),
(0x0d794dc24e0e36fc6f38fc8e7a68cdac8d547d42b96672412dd7e6d2c40f9aab, 0x22a9a90c010f1b80e277be343c49212524ebc4771f838070f2be48bfcec3a7f5),
(0x7e28db652115f5a4575293c3d792fc979ea1adf9dac468e460e5526f6847657f, 0x8025944c16a12ac925e67f133835bcbd33c338d6824b1fbaf0ee001bd79d66e3),
(0xd3f13a27524f0c87266f3d4614d965a13865df675d20c5aa99a4411cdc6322c4, 0x9a1025a3845a4bc19f7cc17509377c7fe46ecaf753263433baed836f77e2e841),
(0xd845636cdb18d5571759f6e6bad6a60d3a67141cb0bfbbf933e628bf8344c053, 0x040de706ef83342780e5120bec6e61e40a8a372632818317729e60e603ab7e37),
(0xf40f53fbc672573bc020338b71589d533709ac32b38cb943ed0ca0ffe592e552, 0x0502145c5f542a77652a4ab7d79791cde92f3e72d9d0190a2724e11449b64e0b),
(0x2065a8bba0d61dde921a074121ae56788766f712bdb3c4c5776af9e3774120be, 0xfd12cac4a85d5b101aec6ee14b1301a9950df94886427be555f527363ca29847),
(0xa9b1e8dc410466c2df97cc8ebbcb3af5f981726c2daf8803ef06ef2fa23e038f, 0xb09dd4e277b1d10dbfdd06e1a42baf37a5157017ba026d98fee135124a1c5419),
(0x0c54ce1cbbfa3808f24b2661793c3574a58aeb0d128d7e5bddcd98a6d8c9bdbb, 0xc1a2291fd20e8a23f4012b5437a7be7d5af5f776bdbb2c53193e07dabc1a3212),
(0x41ad2d0331f577246476d0c1f2c462166156296d8bfd3783eec40892835ec421, 0x62777bb0f8b6ba08128f17279c237286abc5d2a6492b9c6703edc9037b0e3008),
(0xa8eddde5eb761183ef5cce4da7958b92db28bab82f695fbb597f653550048a3c, 0x7f60d3aa95ee5ae5f4cf10accb5729e20bf89ba76b1070c7ba385f41a5912685),
(0xf1db8d402cee572f6eb250bded3d978b1346ce96d65291da977b42cd036bd073, 0x9bdd0bdba546ce4d774f79fc3561c0fbca11f4fdb46ab1c2a7520913f254f42c),
(0x55cee66c7ebecc0c7f22d03f8f166b99ec7b5e6a776bcf60b5f4d452c861bfc7, 0x772832cd055b13c5890c7ba996731ced5a2e1c056ac89469320c08f443159d36),
(0x614278687710db98d4347d4caae4c70a9efbfc7ebfeffe5d6f33bddc4aeddedf, 0xfe8b32bbd0c7a7d3b93dcb7a99a5cc8fe386bf897dcdcd86ffaac6416550dd85),
(0x9f3ac763c117bd99658f5379119aa025cd422ed3b1ed2cc8545d6f9339baf4e4, 0x41b2409dcec0065e4026e87984b99d354eed93f4015e8981256e8734a4eebb74),
(0x8510bf748f5255a18f40856530f909d52bed111d6347da9d8da2a97e751d4a98, 0x02ed99b66af7cc01373297301b0b63c9f8732547fc632eb77357e67edf5549b4),
(0xd81fc0cf09646ae07dad1a3f0e06adaf1d3508fb13af2309c200c2e12228807d, 0xcac833d6c94e674ca7aec18642e4a501ffbfed92dfa1015ec95740e657978cd5),
(0x32aa5e70972a899ee25e6c6de43c32eedf07ebcf0e5ed13e5095f7c33bb55622, 0x38e82901990a1e4238639a4266a93fb54368df0e0befe19a7f234424a8b68c0d),
(0x68f7b02aea38424fdecbbfc3498c619362c732a3b048800c085d042db284f7d4, 0x0bef680d90660176f3d3d0099f6cf818a277dc5b3d765a300b7a4ee9cf3bd46e),
(0x9437ace96b566bb387d9946c02c32c06f62f1158dead214f2b721c6fb6e8888d, 0xf8dee3bb331e1e339963b7e2316a1352c8748f4244463ffa5bf2265a243941d5),
(0xaf40e90985e5ce8ddfb6d6d4222d3c572ffae40f53de2c06055a74cc70cd8dc5, 0x2f08f2373fc922c3f0ed9d6cb9538f4bc661ccacea2f497550f47ec217d8e626),
(0x382e5a07f1f236d5ca1a68b8f0fdb81329e0393cc375df880f87914dcef93c64, 0xe24ee731c0a88fa408ed3dba87e97096e0ec2224dd657411a9f1a9e82b0a6657),
(0x99fce288c6ef1d18ad6300978ba82dd91c779a60b266109a288d51c3978fe565, 0x294c9e533cd42a54c071d5c8acb7edc9897db8acd25b5f109eaf8dac42a9c1a4),
(0x748326fac8dc93942de0a000933dc18c6ef92cfebac46939f4405d89627e6727, 0xadf2d56145581b4fe706ccd18dc82bcc14d76fa694ac8a61a51d06d289e36d2d),
(0x43fef68967074a2b7e944b7608f8b1ca15aac3adc8f5590c0f1f02c3afa82e90, 0x5313cf6e8cac44d9fd548032dbef3ab226e93880644468bc799c87d4c0bc3f99),
(0x404341da829f537ac425050c5ba93ca7baa8a8b7dfe51c23e2ce7c7243d57659, 0xf91a0d59bc35db64b250adca3cfbbaa22a82cfb4d684e8dbe17484eeaf009f9b),
(0x3af33cb6b4d553e550fd35f1a0b569e3eae057377b7d735b545f7f00d9acae67, 0x42aa2ceadeab8cb3b1ee9c3f4b1b06dfe157cbfa3912035b585980bbcf85279c),
(0x2e96133a1da8a378c138583e86ba1de23450b2853559a431654ec9aa1f64229f, 0x3bfa5a754dbd936d7a41266c974720206cac86b4d684bc1a59dd1f27fed8e76b),
(0xadc4b67269fbb71992bd6e223cf9ecb3c9388b5c45ffadd694c72e2fb355984a, 0xed177eeaac8cbd882a368fcc4908ba4c8a4054ae3411d75db06939cc72522a7c),
(0x68ac324449eac1e3df997282065a0176bf6c611564daf79a135bc6c205578b6e, 0x407a75bdb1e5e6bea9b815ce833c0be5f5c462c5c71a086e59fbe0d25e7b1fca),
(0x5176afccb4235cc5ea41eaa70b657a770bb383bfaa71ef8dd33990b99c2acab9, 0xcb3637929d249fc601c0931c8a27dbfac837157452c40306c3291814ceb57095),
(0x4938cd76e1aa6b282a89e8838671e4e382d7bc76dc4653c846323cd251d18542, 0x2bfe67eb6da39ea8c8160621158eac48550c3730664590a2731247a1399bc42f),
(0x9364dddddadbaa52efc8197175041c81e7ebb48af20b82a8125d85fba7fea192, 0x0ee568f753513b9100cf67202c45c4f40181e855ac0300bfd7de30e7317a6ea2),
(0xbdbc09370243e563df29781d3b14d4aca664fe5e70f3d9c139ef1b6957839156, 0x2a84b153549c6d1b27dd9ac21ab86f349ace06196f814d0892a1958ed137bb1f),
(0xb616b635adf7b64c43c4e24232ffb330bf28ee8e489180939584c26c28c82f2c, 0x27fddaabe5d479576344022b68744822eec7b937d29b063193c7f6c56385cc89),
(0x55a3849a50606886abf6f0a65a3e657f46031cd74c1173658f27aa14326f3cac, 0x4a522c0c17fcd11661b11d9b0f88e0adc7a5761ee01db8ffa7bc3dcaa7976b00),
(0xd53e472b439dc5dd0c8ff479ff678dae95b2e207c92df108728c3783f8818542, 0x3f3f7ecfdf3d9f891c72316175a579314ebeadab03c4dccf0bf2b834c762d30f),
(0x001e27ddf618628541f5d8a16587e2a4ed38c34d8393a6c9fc0a7c07cef36053, 0x0280b223da8d01c212315c1cba7dd8d996d3202b91c4eb4b26c802e59494378c),
(0xb6d9d97c64ba01fbe8a9d29b0806d8a642413bfbfbb4ae0c10d8fe527ae6415d, 0x894875dcd912f8fa845614dea2b09796d402c738ca1f3c9ec0796681d715b8e4),
(0x2c97985a5fd96164e4c4d9d59a9fb52eb2e6df0c77ed47453dca6eac7550756a, 0xb3526bbdde58e408a4f45dd661f5c6fe2f82d2ca3e2172e1c99d1fee93d44c98),
(0x405deafb528991e2ef924f55b7e4dfd8185de449cd6f71d6530259994caae657, 0x0e959b7e59cecac7f813dc1ba15bb71b4a4832ca54026e18479d71d90191c3ad),
(0x4276ecaea14c0556b4573b26dba352264fff2c3d12a3e4a84937ae9a3f687bfa, 0x7611836b0d3b335b66f929146df0de13d6ecd47e88369ffb6c9aa493e67dfc71),
(0x6fd734de6d2fadcbd7b19f56ae7153d91ddb396fe0c1e51fae31fe808a35556f, 0xaaa647c692865772f31fdc1a3b430ffbe1647e103cd5d62919bcc905ff7ae633),
(0x04f0a22cad6ebf6ce6b444dd35a54e3870017baeeecc14cc3f7ca88a6d4e27c9, 0x1386d40e680060cabb46d678d2be7209418d6f72d3917e207b83312429b43ea1)]

/-- secp256k1_pre_g_128[7744..7807], /repo/src/precomputed_ecmult.c:16006-16069 -/
def h15_1 : List (Nat × Nat) := [
(0x873ccb3905c10f576e50093d044879f2687d9321441d8a7c993c1083ae7b0570, 0xb261d0290dbe15f4ff70ee4236f558de8984db4a0608d45f4e28d001e564c5e2),
(0x75d418575be3709c5c73207324f36089b87532b8e91db4e670a891179d25e039, 0x47e29f54fa62ef44139db7634b1c8f5ce027b0d7e1ec35011e8c6dfcdcd1a105),
(0xb325bb90cea81ac1c79df75be7615ace9b2a9d4cfa1f45041a47e0d430b64b67, 0x3024fffc2005699d5351615fbaee8c498a319a1945ac813271c609b423e14a07),
(0x436c92bda6c7e1245aaffb2262036329ddb8984e624f2469b30fab181269ee2b, 0x02a9f90d88c0188062a152d7e7ed5acd33f12e924e36fab0bc0602f802c1d3e3),
(0xc0105c644e51d333c7ed28b3c94292d86d9c04f189b3827df1f22fe299bc51cc, 0xd73bc0121233ba52ef9727b31249babebf63cacfece0192b5cbd618cc48a9d35),
(0x9f2a01b046109d49d11ee1095e94c2811cb6f76f7773141f0632b3a92e5f3f7e, 0x1e260290fda1caa9ea315380781f633f21c907652815251afa70b169e4b0da58),
(0x4d80549923dc19057fd35a86feefb9370f2b621e48946e53b83906203aef584a, 0x2cd9c060d66be81312a3fd9febb9cbdd4fc23431c3e0531f4a026f50a40dbd30),
(0x76779423b5e5acad55137380276c4033a865ae5f9ada0f30dee6986c444a1526, 0x9a6fc30b4f4c5093b343c8d1aa204ef37c2a6d5c712ad8d639ef545d1eaa9a57),
(0x1ccc199833f8b12118227adc2f27c3fe8d328b26684b271e85f8368f40378881, 0xda21e91794851bd5a8859173830ddd0e988ffdd7f7dcb263f6755eabe2d73f75),
(0x0afeea14e8306fb8e69689a3d12efe72949b6b038c4cdc70c95bc3511f999030, 0xcafbd04e7937803247c71954d8c2a11f0d60e53b350455078f6701ed621e7d53),
(0xcefa268be551b02f8fe5048144920abc03d03d973f2e9368d2d2cb42341c11b3, 0x77440b0264eb1972091d2d69ebdc1de766915a090aa01615e4001d627219d491),
(0x8625c16358bfd43d888ef97be33d9938c62f7f2a9e7b973526dd14ca7c76abda, 0xe1351920590852723ea7b55f49c4045e2dda5cebc1a318411b6cf38bb97bc1c4),
(0x43b8caf5d4f725191963004413bd459cf5913edcff303fa6dceb34120f8e39c2, 0x7d1df17913186dc0d7957f61a323218021a6b50f61a86f3372623f5fd3dc1a11),
(0x163fff8bcece557b6fd77b4de22e5b55a6ed51a776dfe2b1362040bc9e7e4fe0, 0x29204f7305bc64283c510e0e2192299a7f6ed56d1a0cc569aa37f895c0c4646a),
(0xfdbfcee169aa6724b5839a55e1c5485686503b51d1320b37dcd9af732bfc4497, 0xd7f75ba37af2f96931bfa612446c6807a207af9a1726919977b0d71b16b11a0e),
(0x0f1981a9aa585d6d102b3a7de3509e0fed002866b379b4e2ba9d175e4e5879ee, 0xbad6366b71a7cd67163b63133dcd442d24f9362e5d0b97912a8dbfb574517e1a),
(0xdd3de17f1cffd240424096cfeffcaeee87bf4d304a41d5db6953102e4b91853d, 0xd136d3631b9b968b7c7d1a16b2302e7a7770e5ceafae92a38f6e12996fb04718),
(0xb1d95fc14e35f77f7e64f62a36b262188639722835ccadb839fa7d7b834bdae3, 0x75611c0a920e0251345b3213422959c5ac66c49514d50c35de7aa7ff2a330a6d),
(0x1eeb92e675f25a359ed16c8b51a5c130d2210c35ce954430ea2cb3a30af69187, 0xcdefc1ac40fac4dee42ba496eae80bc70680e2144117e6dac2b3bc12ce9eec45),
(0xaeef491afabae1689d58c2f3808b22fd760e8607c043c10b591ed2116fbb5ce9, 0x0b0db9163081015907e79aa782d8b643d739bda2c45ee36c4f3281084e55a33c),
(0xc56793cf822c3da5300c6c2dcf06b5ef413d51af633ec77bb9b68b1dd3079e43, 0xa423e25e1eb466daf521c5d16395805f0a2da609fcfcffc12728add561eb2c0c),
(0x2aa824c3c8c648eb8bd0c151b30452aac097bc38a9f53db5a837563125887e06, 0x20aa4bfa3bb2c5c2a113299f6c61102c7586deaa938a33f804a517dc4ba78ada),
(0x4a0bb8dc1833942d09ae3428ed493cb95716b50ec96db120c18ccac40f6c3dd9, 0xd0526d5dc8be139f53427e5017cedc516b4960acbb98d4a4f07fdf260640b78b),
(0x2808616a309b64c15d061adfae65711aa561f8b8345132e15b18fdb00e476240, 0xd2190f227320a55ead2dc736671db6319b18d6ccb4d2bffccb4b692f74eeaa0c),
(0x3dc4b01513a9522132ef431d033435ba8cf9e6d77e4ac75e54848916c23e7959, 0xeaa2516b9b13bc9901f4b8bafa90a6dca007fea4e26fbe0ba2c5d1da326d5420),
(0x473f6157050af1d8839ee0d0eb5dfb8ac14ce65ae04e5f0399fe8666bd6efe6a, 0x18d204d91b27527c050823d5222c4e4ce3e193e5a282daf275d2b43cffba8412),
(0x3b87175adb1a5e491cf7565a28250c519fff906b0ef0eecbe8e50a7da190aaaf, 0xfc58f2dd16f1a5cf1a728117dcac3dbf03a3963f3859a5182616b65b59e96403),
(0x12f1b5771410d1be0d0c4863360e37d9d36643d8e0cf6fe78770478f504174fa, 0xbe29140e6b5a40a1405599727e0727f8ca904c3b813897d2bea089d9dc2f17bf),
(0x8658f35b902afb85408280f23b4d98db9526b57a1e6cd0e937d8c629ae174a3c, 0x4060349d47a6972007d29e83d8c82197d32bb9ae08c838791e09a7b71c3e7c28),
(0x530545eb526d96572ce6cfc022e1c0a7b9965c7c3c2db355cb5d414a6c1ac8c7, 0x99243b26017f8ae2898b96b41c3c65f996a9f8f583ff341c671a2d5f2d04637a),
(0x2e808732bbab8507e65936f3fd1d166291ada8c4c0d865ff849e0a1a5f08d265, 0x96dbf7c953fd2f617e149f0689b6643188b091d51227a1a6a0ebb14018a79fdb),
(0x4272e028b4b9c90c44526fe6b25f5e844b8baba634ceb2e233447413cd5bb35a, 0x6b4a4076fc3706a750b0c82493f5e363f9fcdb649d683a1ffc3bc2affc8470cc),
(0x078712f3449d07ac7f8171d542ee8b404761e054eb0362c83b30cd5206f9ac60, 0xc7ff5ae138ca3c1379457619dd76061b07b5977879db2ca15b07ea477aa41bf7),
(0xbe40166a60ad9af2d1bdfc7d9b0660c1640d4f1b640ce4858fb22eda65d15a21, 0x78c49afc1d992bdcb70bab6dd3619305a32fe90a2f2b1b4338d77c80b208cf90),
(0x2fd5831e6bd5a79b035bc75f92e83e4c9acff5cf61eaad7edacb149f46d5e6ba, 0x82f382224b6be0f2f52318eb7fe44a4c4c0c1b058eae3f99dbdea80fa70ca3d0),
(0x032fc3fb4574a651472e0328c15a71e3bf9a12ca15d341f1c5102dab2ee6de37, 0x7e9398a6760df809e5eb57df8fdc32340eff1aa8bef57008c36e7953c07f25a9),
(0xb9018d983452e9527944f2fb3354487da82f8b90e52689d4edb2a91aa8faa6bf, 0xe9cd0e4e5c5efcbf9ca25cf90f271f9ca2c46b4a322cc966e7789607324348f8),
(0xa74ba66232afb3e7d5c22ad1c792da33f1bc88dc244a8ce5d4d582bbb16ced23, 0x444c5512b49c2c634cc0328d020f7321a88db1ee6d525be35d2de8dfcc381377),
(0x40f6df836d5e8c94332174e22fa43556d06f48a8f52cfd69820c2c462185dbfa, 0x852c5b9815ba4ef018f5d231195fb62dafafc08dfbf9159aeb5f6063ca353424),
(0xe05800f5f7890a146bbbabb127924cc2e33e3c81eb88606c6bca020f1aa71747, 0xab905ec63af1bc110897a44e89c2c2a803fb7255c0e7f76e8378e59f1289158f),
(0x7b75dff9a1afde87be8528f79df63d70e4df925ba15f01c58e8162f089ee735e, 0xbc057ff8bdc9e37f554a6ad23ebfeb2e5d64adb769fa00822b2d4902ca82712e),
(0x2fb814233b01e3127ceabacda9ca518eb1ab993cbff855a520a96f52afa9a0cf, 0xa7e4bc57b53affba9e2cd87509665cd900215fcc35dfc4024d1db86b9605c4b7),
(0xf346a33aec17d0e6a10262f2fd8185ebf80a1fbbf6b06bdd1c04f18d75dbaaeb, 0xc09caf81120586fc33a6a0bc97ef5cc756d208061340a1ccba9955ff4a059e10),
(0xd128544fa5f5dd3862a759b85d538baa63d112e2f8c343a11bb3b8bbebf548d8, 0x7893faeeb73f0530bb67e8e09c2806d7e303dd5e116bc9e593e4dcdbeac031f8),
(0x69046ec411c0682259de20b1a2a8f84c58c56765002ddcaea26f533a9c706f43, 0xc17a9640adc07d614a264ffe272cd68699b9af9f6890cdc9ac02c761637dda8a),
(0x7b50f61a9dd7b9ef7af49c176ca5555feadf3b679099836529379dd2a3c85b5b, 0xc08e18ccbea8a9707bc34d986b36475ee2e246952304df65bbe0347b06052416),
(0x794a97289db4743ec91a85600e430b140a7d83121fbacfbdec37a9bd0c749d3f, 0xc57a5b9af0cb23a35e9b092f386cda86bf2f82421f74dfa1837047c3ae0d2235),
(0xfd8d14853d2fa064c4682ee11c319a8a49fa9b232cde9d1a9a44b2dc93b2f251, 0x8cc4001df0121ce0ad2119d17aaba3630ec4534587fa10b0c94a5043f641b91c),
(0x07b5fbad8105fe066962a72e39a9a4fbfac27794e39a6660133b9ef4a6877557, 0x0b9b4c9c1200d8796013de67958176c6dc04ef69b1021057de8d3b40564fbcd3),
(0x2c7ffc8b40eda03e20e6467868959141c66f01e8b7cb050dc60e8a486f6e41f9, 0xcd0f351039aed3c156ae2b0d1a117f78c14a704c992db29760d227002f71ff7a),
(0x79533078d81a6fe8446dd750b59ecdc38904f13b48ca89a65644aa8c9233de64, 0xd7c95bff77fa989474634aab3b8f86e0ee0bf92a3a338fb7f89881e60e1fd746),
(0xbe96c5e5d3fb03a1801a776016bf3824aa16010e0884359bd5e306585f13b214, 0xd156346f158d0c1a2ef96a9586cd8d3420be21de0699790408299744b40a5d9f),
(0x165c53d19ac89139c063d934511478aabc296cb97201dbcafea4cac216a4fa02, 0x4b0026441e6f1369d3603780f33f74e842a812d8b4e7ff7a4aeea46835f67348),
(0x508fb72edbd27f3c76569185a18af8bc6242462ececffffb3352ce3ada5ccb5e, 0xe1698f3e1d53607b4911423af2167466a473a8f1e2226849f4dfe551dfd14652),
(0xe9be0fb78e95dc1c7b79f4eb07976367a85034ceea8642cb19106dad1d10ab92, 0xb7867a7f51f89779a32a7b8e273f9659fb84367b90ca3ff6afc2cdac7f596c45),
(0xe6ea5e6f971165542de16c661f15d6e124aa449e960b393ae5337de1d4c94800, 0xbbd62bdd1c235fea60be143a9155ffa8204a1b1103f19f4e6e683c7de234ca7e),
(0x0ab3f8a05b8f5ff4149a390ba858092c9653d1596d84bbc56e4a7a8bfd54d7e8, 0x41008916311de07b016c1b49c6aa65ed08baaebf7a4e75b15aa1bc3437483e53),
(0x515e02e952a347e75e0c5eeda266242b48bf33d070048562c20feb3faecea1e3, 0x797b3ef8f6c3544058517c56ef5c6464fcb633532bd6d2e283487a1d8a403b36),
(0x520cf598b3552fe0a42438f855aefb813a3e10d3f4985998492e06a242ef46e1, 0xc69de50e2bf9658a4056706603cac0e48c8d292095ac1df99535b7e9209324ed),
(0x26a8e6554a2cf33833bd27fbd96880bcbcc1d3602a76920c370757901c50bb1a, 0xba5a45605ddc52362a0d09df3247a5079c87e652c4ad35f2e19ecc9eec1ae4af),
(0xbd06a5a2362ac91a759dc578dff3a3f8102a67ae0a86ac115ddb2e14bc1bba44, 0xe8751dd7153537caeec1798898337cd2abdfa55452c597c861c364dd78f49de7),
(0xddbccf92da0ab07ae99fda1f4a03927d66b0bd21f1e54fc5afd4f32935a0cae7, 0x26fc18c152755bc5d68dc3f2461d60eeb4dfc02ea04b47796e7725b123acf8dd),
(0x650e16162a30c776b54130c99fbbf56732e2bddef667b09b9b7f25ed93c0737c, 0x14972f76429eb04c1ebb05838c54fa0d309fee09a55d7eb3700be0df5801d56b),
(0x2920d28041ad7365cc0e33c87a3d6f3cf9fec9c3b00e569855ae3b838cf08973, 0x3821fdd1fe36668e16f2cbd0b2704fbc24354f088ba19a1f67d1b11ab70c2d68)]

/-- secp256k1_pre_g_128[7808..7871], /repo/src/precomputed_ecmult.c:16070-16133 -/
def h15_2 : List (Nat × Nat) := [
(0x3842fb0f1b26bfe7535c9f5bcee85ba56cd491dc346829a2a178ce65c5294302, 0x8e02342acb0e12339e638018a125622c5f66ab5286a74a6c28982c25aa3a0fe2),
(0x9c21d89ff1142d241e62c1dfe0481268c2273d01f153af5cd31b35145b9b41ac, 0xf5a924a1d60e1eb3728375354e252740593c96f487328e9e02a80cae015fabdb),
(0x59320ba5c9088701f354a3a1933918802829ce91be9b4c14c9018fe64fcd387a, 0x610e48aa705e2e7f86a6a12a817984a17bc60f9babc0ba9f775f34468e3f3815),
(0xd800691f83c2903b1add209b35d796e715b805a09bbe61203bf68a08a13c46e5, 0x21d194edbcb8bea0cc35a9f2328f1689cdacc58a73f65a2856811e54d96e5576),
(0x865588f866c219867b9643d87f1215fb90fe186f046478e8522a5da6724f6e8f, 0x91a6b315a7ddca8db4ecfbc39b55eb81393f4c51f573fef6e7ca0c9fcc551e7d),
(0x9dfe808fcf7f574addb251c04b053d008915f8fa5a975479d43c719ab67aa4ad, 0x4d40cc00ea6720dbff1f13397bb26c0b281686a8726fa430bce0e4e4ff01b01d),
(0x835f1c87cf8d442072728601ab6aef63cd0d73a180f81f07f5d57cc6bab5ef7d, 0xbac2d1d4c8541f65be0644c940a18f7fd2c303602083a4554d70a1111c5bf07c),
(0x9562dc71033c48e4b46d73acd42db4c0b0222c4ddcd0e76eb4f849690348fa46, 0x7cfe096596f691ded358c00ea292975d465ef064e943755640bc1d4a33c3a0ba),
(0x21afe3b94237473cdc032588c4c1b7ec853987a60dcd1fce2c48bbb68d0f3b45, 0x1751c5ef674cf88dd5385943b40a20a46d20cbd39876adc4a4a4bba8477e78a7),
(0x89809c4d572cc5c12241ae09fe1cee6f71aaa292c9ff8d6ec3eb8a928e144ebe, 0x462c023e1710ed77bd47d22ee222598c68cd7c560b004369a9356a470ed6809d),
(0xb7c6164fb9e175c15724c596988b496ab9f5b0d9dd45d0e64a0f08cb9000e3e9, 0x1a13e8e5a23b40a0aba44bad5cb4d37da6061157aeab7a0d0d327242ab2ad11f),
(0x6208845024eef2d54fabe8f80fabf51972908ac323596378c377c4589719bba8, 0x026216b3a353295ea1877547b826c240351f227e293abcd2e3967fed30391f5a),
(0xdcfe82df04049089f3f8b275120ca438998fb22fe11d40e09d09c4cec12ad036, 0x388f975439b1c41210014136c3b58fe330ab524dd7d3524b37ce91335cb3bf3f),
(0x324ec5b012de79192f27f5ed166344e1934b35272b197d289a6340445dd4bce1, 0x99944794579e12e8c5c0c11fa8eae5f188cb8cdb3ce7814cf89e3f1ba3d3de0f),
(0xb3a70b0faf96cb5607dc424513ab7c6cbbc38634faa0c286b81b9754454a363f, 0xb507745b97843c90170f8ffbf731fee84532c1d06b2a077c2aba5d94189545ed),
(0xc4a6ff4ecdf1ac8329a1cdb7b5165d882a1f1823d1c380061b53144f56187fce, 0x6f7d0fc0c08a7ba7386f9a59330996efb13d9d21eb6d39154c8fb91966159919),
(0x61d9ee961ef586345c4a73e3a8c3df82eac28aa26d740cbe1833dcf6d5a38811, 0xc9e4a48201700107f2d4af3dfcc74e688123b5894da1c2bb1fd926e711330892),
(0x67ecbd0f4f4fe300493906555289c9a5cb6ac090dff38502075f7751a84c6172, 0xe422b1dd10467cfe921028f671cc75cd2be5d8a675e644e5d3c40b3a2836726d),
(0x47f6c66970898fa816dcd4d74553c6442ce5bbe9cda91324ee3bba7a868ff0f7, 0xe56b9590838bdfaa1c2be1c3095f775e4a0b3982d0eee53126ec7ddc9e3f77a6),
(0xe39ec9afc8dccd354b155dd31d1750cbab096807f89c8afcfe61e6d2e348cfa3, 0xdf3fca0899158319b93bac6288c302f8a59e175acda9fbf706f0ad5908358088),
(0x2d1aae84500037f908e08b64341eab030e0f1cdf5a079b46738746c20018b3a0, 0x747c23ac8173adccde767d2eac156384ddf40797131a6167c32486aa012c89e5),
(0xed1bbf04d4570df58f5841581fc47665481ebf59cb88322e497d128a678c2b4a, 0xa40765c4772da2d0b3c8f10722ec3931ab3fc8ccc28b003cbea1a0da279c8fba),
(0xbcbc3e1f007bd26893f377b2eee4b76d49a8a603738de3095353fde3deff55f3, 0xfb697a082f2570bd1e9e4ec3fc7f6c812a27a7e6f7b8a53e30da80eff59ef2cc),
(0x4f98b2d92f0b5d5751ed378494cf4de565cf632e982a270b2746a5a63da9333d, 0x43857e7e437bdc026dcdbe68d056784fa2cc606d7ce09a0e12978a745b67e529),
(0x9dbb995dd06673711731bf05c80290352b41341145318de82236df5c87728582, 0xc0a90e4c6fbc0665f8cd9fb6fd59ea3ef6ae9a169bfb71fc5fe73e3a4d665f86),
(0x836922081d0993443d979c5190940e445465624d3a945c057885cd0005ce6b9e, 0x49be5e402e1d05e067b16279855bc1de6f0d8aad35d8bc0e142dbe8733a14e13),
(0xf713e9207a699b6812d7ee9d1475ba85a6c56af28b73ace7cf67ed6b55650e97, 0xa5a2c2a24501281229fc71c8103db71748a51f8861765d314b9ec2783d0aab45),
(0x919f2d21256ae682fe5143209c6551ccd165de1b8213fdbc9c06578def705725, 0x9780da96eeaac4e8c96f3d6a89c222cc9b16b4c2e8faad4d96cc0136a06021d3),
(0x1738093d197a5ce3cedd1fa7e2a8ff03959a6c236aedf9e89dbd74c4d82b6e48, 0x743631120d16b8290d371a0cf1b3bcd12000254e196ea80ca9d465701ee4a1d8),
(0x41242a8135811b36d4ffc40dbbdeaa7ccce361353c4fc9f2d23191a4b9c46379, 0x7b894326789f3071374983c7cd2a5ad7e0ee49c5e740dd33817a31ed97c388ba),
(0x894a6ec996eaa8e09e077b3407b4f1e1a387c930a526c469aaefc0c50402d41a, 0xa080fb430c8e6bc6388fa7662398e096b65032e826c5a9a8477939244dcf5e41),
(0xa71f21313599cb7e8c1058c952a5712e661d01d579bc7ee51fbadd3534ca5d5f, 0xafe5b47b663ebd7c0d788e0fd3f963c9ac63ee24b7495e614a5d65539ab5f859),
(0x8f330e7782eb62e44ea389f57f1c58b3458c5d39127d97836ddef8c1027fa390, 0x894e6142bc359171999489e11ed0822404a46100136fba840e2b8732e9bb626b),
(0xd2f0700d6124c46fa64cb7091181cea934fe0406212673340c85ace2cf05fc6f, 0x8dc30ae983a95b742d800490fbd8c290bda64daff82d8fa5e69243cb43556cb4),
(0xc2478e898c075873ba6cd5e96a730e1cb6ade2f27fc9e7ec93da920163f88c32, 0xc64120639921d8c577dced537690741082b1b4ff004434bd09a55b6c8591ed5c),
(0xc5bc11a34e701898d22e29202806c880b24efa7ac6d4ee36cd440386e4463a10, 0x2c2b89fc48feefc88bcb4ef568d16b440cd7d8c7485c970391c1c243bf91003e),
(0x4b3930e821827b058c487bd2fefa34586d0d3f205a2236fe1b735d63ac8c62b9, 0xc38a29adc9b9941ddc92a0db4ce5f312252c1f668a3189c50595a37119321c6c),
(0xfc646e3ceab5a96a1785da2b1b50f7dbf051509176ade1f5b057d05f3aa3b8fe, 0xb2014537dbf2637d6f683fb16af00d5c63d4ed59cdbdd673f3bfbd48e9574dd5),
(0xc0ada793e2d9ed248ce307daa6bebffd3df2fc27d2001dd45dbfc7bec5f97a0c, 0x6f3a787ed40f073b4965d52c40700f66da93f6799efceafb4894788f5c9c7fd7),
(0xb1a45f3d00f2d45ae21e43af31ec3159e8877d913efea814b66f6fa4a227b157, 0xd988122aeab167b9f89db9e2dd82405b404f8a9ca9acfd2981c8bfa4273ed248),
(0x4e19b9e2ad3e421f1b85a17489d8841f65672fad9a17ad70ca4fcd12716d7a68, 0x51412d3959b158c13905c267f5cf66e20364aeb8b66a11fdea6f547135db6dcd),
(0x533ee2b1379a6ddd6e5b3a2a3a197e7deece722d5c5b9c665e1be9dcf3c09adc, 0xb91b7477fd0eabddbdc4047a9bcad0cd9da8496ebd328fa3a3ab20a63508a6d9),
(0xccdb933a816ac55ec8fb97e1504fa51267408fd377aeeaf9565ab66ca2033b94, 0x2029920299b57beb5d3817f526aae569b490b24cd5834dbe8b05e8bc89110de4),
(0x770d7c722e9964d684dead28328b1925287184b46e3abbdc534eb87ae0ea5873, 0x363c73a7bbb9b2af03c0cc916f8ffe74837a99c858b5464c9f253764e4a78285),
(0xd440dafdb1d0609f7c2354d574e711cf0852b3648827fd4188228ca598f71eeb, 0x57d438dec1aa78b7c872cae5c6803a2c9844809c7bca1a541be6f779893aae1c),
(0x1602ca7635ee07954fed3cead3e54470410338872f060e19990f3cd3501b951e, 0x1ea7f8574b72d3e2bd45fe36c828f18a5810812fab6e0936a7854ed7c7e32bd6),
(0x9c4d2a24e4ad8226bccab8ee96960b1b4722d2a188a429adf9d194ca06687f7e, 0xe3a4b46fbf6080180ada238305c70fbecabbd44678c9e5c135e911387d66b01b),
(0xfdf84be75be40fa8db537848e2fc8ba2b7c5882474fea4f46e8fcf15f33d3bb1, 0x2af57dd860ba0e6cdc3606a9a902420f9283f72170ce32d839c336735da1ff77),
(0x6083a785fc5aedbf34615139e2f97964ef65d254a38251ba203f8ea026eea81c, 0xbb4d48bb894fb65622cd752f6e3bc6e7670a4bd2646750358481561a2c18439c),
(0xe03ad08e5b4b9e015103e028668f09a27d2f525425c6a9856dfee6676afffb82, 0xf53acd571ab23ddbd6b104b871d957c7f254bc40c37017adf7350e187a24865b),
(0x5a382a4c88656b6c4a5c8dcf4052b1c0a0bbc0a986289ab0e212fd24b852d9bc, 0x912caa9a32a10900eadd0eec423f710a3e0aaba793f7b675912223a26ba14f31),
(0x37dd526ab5392b033bd05ff93952a31c7bb0cfe1f02f4f573b8d0ef0c05d5ec0, 0x7e32922836595c8214c8a776154829319896622504d4315cc236c156254e3249),
(0xed4460f9cd4bc957aca653a05b6f09359dd7e19a06d65c60ca585ea3ee2e1263, 0x733af30e6edd2b2b317bba97d24abd7e41af6256e7353f9758357ff41a701829),
(0xeb01d9cd50ff4778b29e509693388ee112cfbc352c1b13827b3195e744a3bc3a, 0x024877b799b7a2c9db23047a3194e9cb91e5dd50d0f1e252b6f3bfcaf5b4d110),
(0x9fcfa274b180ce821462454522bb92891e0a8fc971949bfe7aa25cde88dc284e, 0x6787be0a12a76a239de455962a11f7f44051fbbe3ba7dfb3996c60ee097be2b9),
(0xc8a0d86987a7a85499bd566330a07d6770265d8ecd3286cec9be4d0206145bff, 0xa65c64e4af865e6a893e902bb06c43d610bb8181134a4b71d136b5fdf42982a8),
(0x374294c5932d3f74a6e747316c6a84cadfda6d355edd914b70b2616150628735, 0xac47d0488433754e3deb79c67056d82814d73bdd703b299aca910180e518672f),
(0xbaa9e3a62b4bf0991fde27ad4b043b5076a184cb4f9a6da99b56ecd8a2ab99e5, 0x1e8e836ff76043c2c187ee457138cf3a270e2d3f5bc96979c12c34cf9205c63d),
(0x072f85ea784a5ef171516c2213abca1e8017db344e00b3974cb509dea124654d, 0xc78ec6276cbc5072fd75b28c8d395f130e84731f7767448de06c0ba7372968bf),
(0xc9173d63bf5a1301f0750b1de3cb7061bb9cdd36296b422ed23513d110b61903, 0xd26a6a0aceef78eb73c6b031a5455d2c2a9c4ab2d916b7cc7b8e627d6d581c56),
(0x865ff86a58fb98538bcfe49626c0bb89e419083df21dbf6a7b13e041d5cd3f18, 0xf0bdbabb8118de57bce9a90c83529ec8abfc2812ab0088d28ade4bdefe2fa383),
(0x3f14eb28fd9852c9bf4d44974d794ef1c30f77485c7bb7666f32fcb55ad910ad, 0xe982971bec014b05a9b5657ca0bf45b70adfe19d2272607580b42eebf4dc5217),
(0x61dfae27c7bb68a10ede331c6499a7ede242457a77e5a606cea82e9f0f450d01, 0x973739f2c1e4ff77cae3cf59b481e7305ebe8196c5b62b9da96ae2249b83efa7),
(0xe319690be944c297f7c1bc1f462ac3b5a74fb9139b963384ac11046f4343883a, 0x3dadda66538ea9c88fa0c02f208ede8ab6ef348082af4a322ddb5fa796d2efeb)]

/-- secp256k1_pre_g_128[7872..7935], /repo/src/precomputed_ecmult.c:16134-16197 -/
def h15_3 : List (Nat × Nat) := [
(0xf3db5e84a9015b391617fea658143553baa1975aab01701238dc42437d9eaf9b, 0xdf55628bc50cb2b1be2ef193a7f90e6a3bfef4ac63aaeee739907906547d8b62),
(0x083a7dcd587427258d17657cec64b5ed4807db49911296e710cf349dc4fc709f, 0xe5201a27c37cca5f2f7bf74afe000c0f56643a5bbafe9f91de181e741d327183),
(0xb95b236328f51c80b376dd90a0f92d081e395132deaa8f42c142f6423d3611ee, 0xc111a08ca6dbccad2e78449822816422f2200f6bbb24842af96c950213479f55),
(0xc3ff0645921f2b9b2fe590dedfbac0948475bdfca64461776422cca56fb549e6, 0xe07ecccb4b972834e2711423c0fba72feb0bb7c071a9e206bf7715f262f03e04),
(0x96a37acc527ee16351c462411df94da3eb0229b86a6e34d0234bdcb05313c10a, 0x46014617fdd3f8b3a67269d520a496809e5fa57e76da4ef359ef862a0c58380c),
(0xb135c091ec98a07db624fe484d336b8562facf8150346e2dd0be2cfd618d1e0e, 0x24456a71e8f2cc2919f535946d7aaa79e3d7dcfb4af2feb5ea0a2ad3a23ec070),
(0x71d2621981730b69b0411b1c0f553c8106f35a34e09d086c004500ba94812017, 0x0c25357f8915a2c498fe0d60ca979ecd8bd7ded3ad6bc9ad262db1d2c3d3e7be),
(0x0363cae8ab2259ee802830840d98dc16060c093468e3e854dd86d9a0d5e97884, 0x756c60f7c5e113d86e92df388fc9a1a2a4889d86f74404297661365accfd8ce8),
(0xaef32d8381ba38046e5b33056764ce3a726c4e5a0ea61a17ac11459963f36247, 0xdea5fc8bd4ceba1989640462a957a8a744ca42d60901716a734e6f879aadb81e),
(0x65980f89e4d0e342d4b4fcf5228692c09ebfed1152d951c780963e6f8c81313e, 0x2d594cdda1f0b9db7b3d8815f7402a06acba8e31b9b0c5978d2118a25dffa75d),
(0xf979280d7e35cce48b9372cdf73cebe36ee08388e98e6069fbeeb16852329433, 0x9181e8aabf7d47234cb851d506b3ca088c5f31eb06b1b8c72879cfbabd3ecaac),
(0x3b9f877e286a13c8a8463db3b306ad62c152065c6708bbd568931e8a2deb537f, 0x12436d2a5269a3194f605dc14a34fcb0445be9f45cc2bdc1b96d86e8b9465631),
(0xf2c70f821f86e94d426e3e3ce31ee519f5a95b6f38b663ae9a6aba4ef7bdc4e5, 0xdc5346554ba850bcfef2485d051e08c3ab54611949fee2ee4dfc4e09ff203b44),
(0x0e2fb481da8a356aab82098af622db2d6f0a43492428dbac922c135065801f15, 0x5f735bb5bb805980d85ae2424855bb2d5de0c1f55018e1a8e65bc2f486b7742d),
(0xd99e200133cf632af66c382ed8ef862a170927642c8f1f400bd3d7bbf0070324, 0xd00f12dbcdb6e1edd190a754fcbefdecee459be4d5a46d69afd6cbf84a4d30f2),
(0xdd765b6bcb2dd356f5965a8d381086100688fedceb3ce48d352b095b00aa0daa, 0x636258b358171669f0dc68bd3dff2a6dbea6e5ef2006091366b120820e2d7fa0),
(0x0f549c14f099a9576267ad6c3adc985b9d0626b73f1f5849d64ceb1e266a9965, 0x45a17dc830118c3d28e73a3c3d026afc29ecf50d198afdabdff3d1308f32f3d3),
(0x20d8086090a192a851eddb84f79b2882ad7ce8a09374b36561e6da34427e8226, 0xb48b69479febc104880aa8b417344206b19dd720e5392bac7e1954d4a341eec1),
(0xb9f383ff2545078ac22cf9cb83fc9e00e9d37f300e03ae035694437dc1de2d7f, 0x14f8b209d1128a4420dfb93d3dc9ccb67ed22dd8ecf5a1812cd687dd64a2996b),
(0x02ba0e5bcec7a4f0c6edd1c82d2f59272d97f4dc03ecf3538d3854aa8d6f9739, 0x8b10b2176e56e5e65b99a617eb71da003bee99afb80e5ef73ca8c3325ca7a75f),
(0x28b45a0f3c308ecdc0f7beca0c62d42b500b704a9af39931b8debae808cef27e, 0x09a3f95da17888ac19eb4e421279c400a60a0c1f70a1169604cf69439fc858d8),
(0xd8993bb90e73af1026ab41f09ec5adf7437ce08a4295cccb283657f07a9ca3a5, 0xad8930d7817534b1e8407db9bb8a608f538b2bc69827a2340743382b4381ddbd),
(0x77cd88a176bfed38d7dd715232e2554a0a644b7964a85f86dbd6ffc669714e82, 0x4394630a424368021d0a068187fcc6a4dfee0fe36db3bf2fdac6fc5834faccf5),
(0xd25571859c0fd15f1f3666d3aba99e3889419099ce7be94a81ca10450158f2da, 0x90e94d6eac00b9d9198325050075bb2f3242e7fbfb429dc2a90e3231d1316cf0),
(0xf4e26c7d4ccd80e27620917a0fdc72ca94178f54547eb33077baa95cd92a981e, 0xc8ff014da388dcc4c634304b5973b274785927e6190c5557773b9a0bef7d7005),
(0xda3a12a950dcd18dc9e531e986f85a53e7ce5bb88f2b58699830c44d8c14cba2, 0x7380a5b8c01209e9a1face4d798f63ad519a67fe6bc90511c763ca197e8c6b41),
(0x3565fae0daf5d9ef609bede36e19417a45d8c0d259163f710b4d9f5443756fcc, 0x7b1ef713a88f9965be7e67994a936960c44f67aed5fa798d8c0286afe9da257c),
(0x6683fb20d435a139bd08c35fadcc8aa58fbb8f487f9576d16f41d0863a4e3de6, 0x6a969f080566afbcdc98abfc9d0d4d545076ebafefc9b966957f1dd0af52209f),
(0x900de92ccbd4528f57a7201377dc1b517af674161013a20b30d356bfe011f508, 0xcb55db4c8799575d9dea64f69fdf081d959210eb32b26beeb903bf0b80264c60),
(0x9d84bcf81be8a9f5df2c6e80d1b5679e476e39c5c30351efdc6b0b4161c17613, 0x8aa0cee8cbc22e60b71d90663533c2cca02b8d7f7df93ce9897154c62fae046d),
(0x06280fbaa3c3c8e44fcf0f55a783eea52ebda748501730de071781beabadd211, 0x45b74c18f0c18d3b76cc10898741246b202fd272cdd0e8665e1f4d86ee527f5a),
(0xa4237add7a5ea66e8a1b48cd7d5ef195d90f25e56f2f148c6d4eeff1805b9024, 0xd512d16e632bd9ce6cb1b2d4c9a41e36f9a2b83e73fc86311e4dfa1bb3bf71af),
(0x51effda30e84027a47afb48edc5c19379a685a24ded2998cc2b74422b1e83fe0, 0x346a9d82cc07ed91d785c6f00dc32b62e3e7877a892007cfc015444e46001f19),
(0x87ac6bee837ce15529c005a16eca4540de1480b691bc0ed890fed51cde923cf4, 0x9a9aa52f1be1a33b7280d0a73c19f5c5b6baf99d3c9c2d544a8d9bf3a25ceb71),
(0xc8fd7df6a3b0c0e25a93114672a0af1a1f995f1a109e6e8310b0d4335dc2666a, 0x3a8531499b28c2eeb5baf17d0dba8f573cf6e269f4f21b1e72bf38c779d239c4),
(0x890f9eed47126c8a355658f9296b1845b142eb174c2270d246293ba2997e5a54, 0xf294c38a1c929ba42a9234d30249690d10a990cc137bda3c00ada4b36d4e4b79),
(0x9329dbcf45adc29865c8defbee2ce008a347485539826516b417b9d3bd47c86a, 0x469a6cdee1b0c094f536fa91f76178901be77c00896efc5d94cdd7873886959f),
(0x6fa5326e7b161c7c742188d1c47263a82f1f78e1df83c6642546c9ac70660332, 0x86cfd63611879179016d51a4eac577095b8abab21024ce5d35d64b4c78559375),
(0xece2e23b8915d7fddab9e58e8489b05324eb1485d18eff66ee5013ac3e0556aa, 0x6a94e4cb8fdf0549a01621b4438c2757fe9753f513dcbb355655f9b2ebaaea58),
(0x891b613f413c155bc2dedaf996d75e1b54a5b5b03705808c0f575cdf1f697ced, 0x11904787c1fb6f8f8856aeb9f7e05bae0f599b78d7450bf913288e95ff3f871f),
(0xb7bd8742d1af6cb29b55a307dd3c03186923be5578ba2797e38a715408d6231c, 0x269e9a337a9421b40cf459381961b0a43e4a0f6d0f6a0f102d7a831ad7d4cd3f),
(0x7c6f5db31620a83fb4388d4575d244ca1f38a0d8611300b5d4fdc9c434a16432, 0xd5c0c35be4a371b03b85214ef5e472dee6c8175ab140f05f6e52b766aa313f7a),
(0x18d303bbd2bd6f9b7f9418796a23fbea5ece2078982064a5e040c95fc534ad3b, 0x76eaa3ddb73af5467b1862c57b4385a028b03b7c66729fce948853731ed2dccc),
(0x31c0daf331aa6248de302243a768aac0c8e27da2c2b8e0a87fd74214b49bb78b, 0xe8e1f975b77550bcd404631b12c72d3855d3bf5e5477a588b11d57e0e71e1ebe),
(0x940aa62ee3bff7980327e806b644a972fae9eb09dffb839461b080b4708f715d, 0x2853e12d56898ea68e9224973660a29b37ec41c7339b805902075c7a2836c1b5),
(0x66db37fe3bcfd7bb25ca4a1fb2ee09df5c7480611c3a6fb5d0f079dccdbf9b7a, 0xa6d37fd55d58ee3373898711697944219cd7a2f33becc8fe761bcf83ce603b9a),
(0x0fb04bfaa93a8ed93d75535198895c8fe90d545f8eb1d08d5d7282bc66026e3f, 0xe77f3c9e0afa2791b4db2f693438d05147edc983a8541296a8cae9a2174e03b5),
(0x5792afeb7766365de6b36bebaafde8a18e556ac4207965d79e18c1ca63465c78, 0x95fa5ad44b93db962c26d740d2aa582dda19b761480ecadc212452efcd885b40),
(0x186c0feb6298e341a2440465547ad137c56593dded82b6086824097f3f83f8eb, 0xb3b58cce8375d9a10e63500d141feec138778c464be1ad437c63256f33ac3b6c),
(0xd39114b7c22beefe6796b6ae3f740a399e3c98bb58b647b35cb23ead76eae678, 0x01df690f383db8a386284ff8f914925dc688aa2a8ec01a2a243eb309e79aa071),
(0x6195550f8ce49ce2f762011b2e8feaca509a0628eaa931514c779616721b39b3, 0xee8208f16d86fdbbc75c265e88090c85aec112bea1d803e1211151d6cfbeee2c),
(0xa8429368037b33a82d41a26de11a0fd87af231bf30d3eb6473aa064eacfd8740, 0x18524c63c0cf7a0ab4e0eddd61717f6c3221a8f63522d35d4eccee30b6ed82c9),
(0xbf42ae9ea64351a6eb1d2c6457d23481f913de5ad3c003595eb8cb5b228fb202, 0x2d74804a34413cef8d2cb488ea780cf515faabd236a9db6791549577070a09d3),
(0xf1bdfcaaba133809f915e0af1a08fcbbdd9cb3d8b62f545d6b71b44bb130daa2, 0x51fba8b22c7935ed04241a87f19c2b76bc1a288e3e53855dc532f0b81ee382c9),
(0x7bf326374c6adf01c7796f59a11e5c3d103e3339a0cfbdc2dec57f5e69429bcd, 0x8926e57ca1fe7442072d2e89d037feffdf263831e40e9ac48473336a269f6b44),
(0x95b652a77f58b0d34c6d25e1c294907fa22a3ee0f8e8478a4e8458ef37791c2f, 0xe7dc4cafb5bfdaa47185f0f30a98876db50bfb35a77a8b110b5221969f255845),
(0xd9f8c6ab693f805808c73e2a9221b0c4c8f1d1bb5e1e58e18468a48bc74f50e1, 0xcb38d48a89c1ecc023e0e248e1991ac43fbddf5a9beeb53b4cd9c49d41f42a9e),
(0x43f6252800287e505cbf1a68018bd99c9f307e9584e0d73af9fefeb5b6dff92b, 0x85fbb4eab81a0409ce43ca0503dfd5a109756fb5f4b964bddc409efe696c2ace),
(0x425a68ad6d20661c0ca7d68806bb9c66f37dbf2930ccc6dadc34025a5ea7a92b, 0x7853cbead7816579fa98ab94875ebd2e7ceebf7320b50b2f7e67f0f6dfd2eeee),
(0x929ea74f9b75c327a7b261278828feca821e4d8fc5e308da0f3169a20bf84bc2, 0xf19e6cfed8c966dabb070d423c62289a5193146e4297fa355908663aa36b0578),
(0x83da36beb1bedbd94a4ee417f9faae5cc20a97632c1ab2c8b997f23cf6d35c31, 0xa91def1d7871aa84eed0bce612bf6a8298d0ebb7536d8e49f6757a48aa7a86ea),
(0xa2e1da8b4318fad352c8c28546f0a8d78fd6cf6ab506f8ac2d6746c675f2d5b3, 0x584489cc58b0866301cdd1b73e61cac352c16814493b611effb94a712cd85699),
(0x5d7c1af44b25744022b82ca29923a180bb7fc2091990b11112061b6e9eec4d2b, 0xb40ca0f60a9742233a7b02539f0dbefa1bf23dfccd59c747c290f5252e960b02),
(0xe28319336cce89c9993bf230ae4311ed48fb0913b5f35da2b7531418b512a75b, 0x660aa9d98bfea898810107e1711abff088881efa4d9d586d91381b1167cc2a21)]

/-- secp256k1_pre_g_128[7936..7999], /repo/src/precomputed_ecmult.c:16198-16261 -/
def h15_4 : List (Nat × Nat) := [
(0x722c1e28498d3c2166fb0f1bf44e3ba60181a96275efeed6ac83b36c12426031, 0x27a135d23b70006b480c3aa3bd057bfa200da08ff9eff7416bff78854a1795be),
(0xf3cd71bdf93f2100c534d788ba607845cf6049e3b94f527484e8608d7adb9c99, 0xb8e86285db09b729dd78929307cf5fdc989e00f45dcd4916a6860bf8d77cecfe),
(0x36341496d986b0965e5ad59300de6f8867aa6130889714a3dc0d58b719647318, 0x8cbeb984a3f4bb5d75cf77ce14368b9b77dfeeeb7313f16a8a573953c7b898a2),
(0xa48443b43783c58d4b7b2f2717efafc5e5ffe24ca7c26bbc00dcbf93538fbdea, 0x33bd2bf69a64a742c461fc0bb0ae87709ed47a9a26e7d05cb71e4e2d20c894a5),
(0xd4364d9671f2876e843dede59991ac5acf92268a73212ab054b1c196197dddfa, 0xb30038a0fd9f7387fb37754e9b050e80e0f28596d251d6275149149e880f6d43),
(0xce277a6019ac0b4116b9d8635a2555cf30ef3408f1a1576991e48d0f9465d250, 0x5260ee90065c89bc7ef55fa3d5f5d7ed594fe592322b7e97965a9a3a5654e710),
(0x587ecb1e7c08da9d75ed0249b1281762e9c714755c3ae35af7d66b53c83117be, 0xc6dda3410cb7d88bb4a1b13e313dcca61ec58063376d38f2cf142b5687bafcb6),
(0xd87f96bc69510c4f19b84e93cd8dd0b2eee4fbb6c5c5074fea76a209e059f41d, 0xa9b83947b557c4b64195211745ddff77b595279866fb40956b5361a1b463d326),
(0xaf9f0d3a0078454c0eb8ca65c9d7a324312c01e9dd8a00ade923f2f641fb0ead, 0x2d3003ef29a5ad1020262c54936411f0f80826308506fcb1e1848a7d5d16482b),
(0xefd0467ef4791ec99380be87394225ac637f906f800abf9b1ad5b3cdcf9f017f, 0xa14308d6b0d16772f36da4fdd77945f71d82276cec4dddc0de24f760965c5725),
(0xe892235e39ac312cf30dfb9797e884460dc1f9a3ef5cb8ebd540c64fd6b6129a, 0x5b291ebe7c055f52b9fae6ffcdcc6dbff84cad1e4d35f4954dc19b3d064eb992),
(0x3158351a542ff38b12f82b5adaa6ea3e6e75caae600b76a116ebe3f8c9bcd66b, 0x2006c258a327481cd324acdab8ddc3316a6aca8144dba340527babd64de975e2),
(0xf17bbac8c0a7d2dabbc5a5cd04b28e964ab88639546b2b22d40c519d25dd448d, 0x14f9f488e76663bc278961f4a33e11f698d6f5fc1eaac638079ccfae1ab40991),
(0x9aa24eb344e010c2d6fd3efdfa03cfe6aff67d252f08dda93d00332d3065defb, 0x494cc5bfe60fff11f42190dce607f06707e355a952ccc68206845111322ac050),
(0x3f36168d77711926deb0f7eab6dad80b8c755db8e6705fa561285f9684f1ccc5, 0x486d57cdb46d998a5d064f9c68511657e53e544aee8c552187a1cd164121c6c2),
(0xfad18e890219c449875515256150e4a81fa2b23ab6c1d90c2e2f9152ee8cd054, 0xb285a7de4eeff44b751b4e51f252f3a0be7c2223a715e30123e9bcea495ea7d4),
(0x1cb1cf559c56951f58147d849482dba78dc6050e2897f389e30aa87c519dadb6, 0xb9e54a7193a8e255b2cf1fe180fe54e403e1747060e9128dbd527abdc7ef1f97),
(0x74e68afc9c8d9e0c92675d9e2fc128034ce7d22fe31f5332d18817a3bd05efda, 0x1d8442dbd55e8abdaa1de803f4fb1295e9a8710a3f25a2427af9a5d0b5dd786a),
(0x10336317ec82d4e8543dea2eb8cb597d3aec0e70fb2971f87c5699aae4576de2, 0xf2ccc0665eae864554816dfec82e1162226ab207a17c608562925f5affa3e021),
(0xb06a55cf57668bef6c51bb66ac8ba7fc6714c864ca7882792c8b759d290342b3, 0x7311f47e5b526dbce4bc7833e4c5b45a190e35178f0f81372857e7b0fb1f0528),
(0xaf83a35781306453e576c819d1cdacd2689b01984f108d2b6d9b814850df5523, 0x14f52176909c7e1beda13d207567f31e161a80ac112e4016ad7c0bd620ec0ce7),
(0xf8f56d5454faf5363ea98913827d57f2a8983112aa8809dc594af9193ae5c4a5, 0xcc9d4182bcb00a0dcb73bfcfda46ced0ecee167dfd7bbfc8899063e8d659dd7d),
(0x61aa26b7415001aed6b3afd01c690177879cac3193a2e4104148df74733c4ea1, 0x972510d3697b93ad60711b39f3b3c237771bfbc0b7238e785a786707dd179f23),
(0x781f196cdde0f8e510ad45ad6be062aa1315c24685d0ca9721533c65627ad492, 0x6f3248fbe7e61cad1b01ec2cfdb4dc4ab1f4dc253666d4ae27a88d50c566d18b),
(0x0c422d617f84ddc64483d55e19228dcb395f16fce85b5c932778f62fce8917bd, 0x2f3cef48deefbbe99477389bbe898cb390499b2a615899bf1e910e21ed337652),
(0xc325955eb56fe9a666555a3272f637d703351b65da5059f217748e684da4a4a8, 0x3fa277212364140b5b71526fad963d0116889555bdd42fda0c2b451cfb70a3b4),
(0xe393cca149142f019be9a4a6e8597354e34f8d55b400fa4e8ac6b4c57e50b7a7, 0xe40b69bb44d6d1e522cc30f726b7a26203e5b76e7b190f0710325a08a99fb2ac),
(0x33e3686ae4e69510e939e53d62fd669ff1a39af5c6179364a190ae11a600cbf1, 0xcfe60b761306222e7052b0f10f799380ed564d471f6418acdfb13d98047f9154),
(0x1c35b5c83072f4d9b3b294b769ff1b8aed2954cda013c7b334b53fecc783b251, 0x1c691a2e782ff393b0ac6c31094f4cb0f8dbd5f5b51654a43914a4586b855318),
(0x147255dd3af5eb26119e3d86b2bed20643579099742c4ccd974f7fb983e47fa6, 0x5e0a0a017497235b4766b44e2fbe89020aa0e2c269e7ceb1d65c0f347a97f7f9),
(0x09524d7157304a13071d46aabc43986a5ece70cbea008aa2b8c970706436b237, 0xa343af97db30b94b3d8d366f1cd27b1183c9f44a75f0aa938c4932aa52f6ea55),
(0x8502e7c6e498d86803816188a99d0f3579058887dbeb3c03676b3b91be7481a0, 0x28bda608a9e18df9c304896f94efa7d246ee528a6061afd0322e052be7cfb68e),
(0xb89a0d8da21903a7200b196e46714aa5ad49c5b08fc84de78e72ca762a3ad3b9, 0x953bac1f85e4f63138464a99e6e3be5c328b3c1007523701c60aad8fd57e6bee),
(0x49bf791d67125d38496d8ae6ffcc25f897114f6f9fcd554109876dca04bdd7d7, 0x6c2976ec1b9078a9a90f55eb510b1a8917efca39d2fda494b9013d077f4e05d8),
(0xc63bdf201ff5b07c14273727ff174322422b64979ca8427f5f868eb3a1fcf05e, 0xc4135e1f1b5a09b5d628674c21ead97a42957d3192a44de9b785986b3269a782),
(0x58c8c84b0e9f85bdb26f99b3cde715b44b057d56d5411c3ea300082927ebe551, 0x15de85b21467bee0d4e0b0c5114fdafd410cf7203ab35f1c1eb2577efc2ec620),
(0x5fc5177fe0b59e31e4abef8531f3fbaae3399bb4126b6119c7acac83777cf9b8, 0xadf27f69b613fa623cff72eb4dd10b4c4009b73f2cb885d957ab8c78ca705fe9),
(0x1017a9b85116ce3a498888e57a408f36012a6e8bb18f6961d6e1d2e438902928, 0x24f7a9395e0d3c0a579ae611b733248a640db7da929edb24b11bd6173e573658),
(0xd9ea68f46af94d9d232a5debc485fed0d719cdf32afe4617524958ed751a2c47, 0xe59f2193db2fe578642a774fc4fc8515f638d1c00ae8081fe9d3c0a0fe20410e),
(0x61d975c7e4d7e2625b067179667325c9a32ef6dea0bcbcb4a825d89fde6f7aea, 0xb7a00d175a2d827d037de6c8667bebd9da92ba424efeb70654092342e644db9f),
(0x2ff5cd3afefe0c25bbb8245fc939940983194bf80f4599f3101e9d79b7f8d9bf, 0x03c154b711964aee5fe9175ddeacabe2400350e53ea1ba2320d9e6755aac8fa9),
(0xcb438486954c4a00effd88db29e0e61c0f9fef945b42bbca8939e0a5dad9e8a9, 0x920ab096417899576c3a8ab7249ae2cc73d1443f5c650ad34da9d473221de71e),
(0x9aaeefc2889948cdf59fa4ac352204ab46aa399ac848041f446be421e0e4758d, 0x8e4d28992ef8d6d73e1e118c70729e7b04e0bc2869d7b5da72df7b4638fb3365),
(0xace47cbf846e95f29387dab76ed4e272e32f62151e74573869f2bfbc720c78f0, 0xa35997f837b8e86c3b4377d971098d8895d6a008b9d65552b1385a4b49c53d3d),
(0x66610f691558942f8285a9df3081e4315c946a5fdf958f03b2ffde5bc591850f, 0xbe93a2f653a8630aef037f8a0624e6238f2ad9d73ff4624ef4240cd8d3495a98),
(0xdb4bc8b37a12e950706e148e4f07df0d0a24d1de615f22012dc1befef1ad95ca, 0xfd55628cc260a1a2e56b95eeebd6b854f548dfcf2c4a6b997c4e95a0a52c4894),
(0xa2a7aebf058a9a5824d5a996da18958a05fc23d8452d13b2b254d4fa0bcba959, 0xd64407641642f25c8b31a117cd7ed90bdcdc54f9e652a818bfa032cd018bf085),
(0x2d8846f3fa8a7a0d0408f8adbd76366f4bf7badec255e2fe595e4e22cfe86684, 0x2c0a7297228185cd3b21c10b5c7f490cb01bfe729513eb63f2716d270f0fbe19),
(0x027ba20c0a44821fd6ebd41c8c29e5846237d8bd13b3eedba82b5aaf10a6fc59, 0x68d65fe7b511bde2f922f1194bb411a0c000b4fd268c2c86e14279ae09a63e42),
(0xc2f0b6113a6bebe922ec3e97a3962280ab0b671376a6778e5ceb73a7e2894b13, 0x27b908636598991768a9635a7f6c674e71a433face4f1ec4cd77527789d290e8),
(0x8420787ca0df74fc5c81d19e64f7ed568bc54a2cce1c57141706888dbdf377f8, 0x4a94b5e6ad4028770dc4c0df38c7fe41d9e6e085e70431e999c2b7240e35ae74),
(0x29d08c36c45715f41eb5138fa5c2f002b4021f2bbdc49592e42424431f4d5f0a, 0x903d61f72e81352f582ce3b3ead7b6f9e0340c236925882acdb412856181bcab),
(0x0ccabdbef68b65492158d4c891dd1d23efa7a84aa985252a3a1e895d757e5f10, 0x94a0e9152addabd3d5adad5ecbcb38ece1a045bb09d7295a92aee49ca6f0bb4b),
(0x05bd30e409e2ba9a745c6ebe434b8d4f1d8c34c76d478ffb2871466fa3ff23e4, 0x1067b3c85980ea3add1a4cba8bb0b96fad988cc64dd8e20651eee853915226ae),
(0xeb2338988f12eb2b5369d9f156d754dc8733745b30967e17697e69c44fa80493, 0xc258bfa5e993ff4a4a9eb82fce1530ce25fe74ec2bbc2639683464f8a26b5667),
(0x4b44ca53f01e1c648ff41a970721e7c3b0d62b4db15c5bd50d84621c4dee2ace, 0xd8999254b359a15599e59761f42639ad27caf87fed4ddc57203fef6c9abbd922),
(0xce5ef1f76cef6b6535631e65d4f47924df370ac8ce059a195455fb1eb156f7a1, 0x74c9b95aa4dc212c3e127bdd266aa89ca4773f275607dff14438647cf0e50a60),
(0x563d7e9940325aeee66557d0b14b7e8e14f86643de2b33001bcfa7f1ef788bc4, 0xceebeb999878a3051a8bd9dfbd6cb2f73ac18776ea78df4130fd22d1bcdf37da),
(0xff929868fb5a1b536acca702f5dc1e83efe8cb96f96a3303d107c6aeab5dbee3, 0x82828150fe8fbb3cf2bfe03a3c79fa5e67c33d97b12faaaf572b14556ae11969),
(0x1004e4ad487212a58af57ea149e0edae06aac8842f488bc71b75a5bd4a20204c, 0x0088d9a6164cbc2152d60ee27c8003b60b39e418b10c72d00504a6a7d7b8b2db),
(0x28dca143206abca71c48137f8bebd26e6c79666dce164fddef1ca7ac8e141a25, 0xec1dea42575e5cc0804f6da321ee739b0ff244cb2b2994134b8539e388f7ccf7),
(0xcbb81690a7e511bf056a5190b93663457b4fe8f964b8fb5736df206728e1ca48, 0xc2d2686a5405dc79d6a2deef95a978134a434309c5303985f173015c06571e5e),
(0x3e1e663e378c44b9b61d04cabfaf65fcdf6b59a20ae8371911b11582978f008f, 0xbbf4b3b82010fd7670d23b076018708e8f78d70ab2da1efdbe668c9bd5125d51),
(0x7f742a3b9edf6aafcfbbf3685a6223181a6c3b5d588b74dec2d2c04991d97784, 0x238a4f6b5cd254891b8aa5bb41f253e66a59a020bce98966ed4c75f6b7939e32)]

/-- secp256k1_pre_g_128[8000..8063], /repo/src/precomputed_ecmult.c:16262-16325 -/
def h15_5 : List (Nat × Nat) := [
(0xf073f95ff6c809d09271eb48abf35b2db760caa654b0969c0e327cfff806f43b, 0x6a7eb8ce9e297e07170e92877fc737cfbf923cc1e72efdbe5b3b49206602746f),
(0x855f645105b98ef167d3a11afec74625cf3801ab75df42d21b33b1bcc36d074b, 0x6e8cb7949990748bf54a9291e7ec374fa31bef56ed1812a707b2ef00149938fd),
(0x0f0164c70f204384d3235b4ccc1bb9edbb10cabcd69c02b5aed1dfa956c74d49, 0x872fc54778580a6f38792974a64399b8cd674622659ec31a91fea06e77e27118),
(0x16e83238e95e29f3ebc297e7fbbc77eb053431f3cc90f8091e540457aced09bf, 0x3f3c0ff5754630bf88ec765ca5c04da3f6ca4ad50e72d9c0715cddeb69c4f8b0),
(0x70d371c808b2e47a47982dfcbc98ffd8324b6bcf2f1aa2a8f4815f66dd4949bc, 0x34cc039d3c69b4d1833375dbe7315340bab2452b2a82163bdec73702f4c8da46),
(0xdb250b656848570b5a59a2f2d45e99d2de1b381346fa6ce08bca0b3457c27d10, 0x2859a0e8fde87061d7ea8786f5667aa8b2633e8cc52926ccc5427d64a7ae6494),
(0xd6ecb3fdb1ef3350a2a831e2321cfe9b6b22b38d06a8fa0fb256f2cdac73f949, 0xad83f35bc1b5c56849436cfe6ff17f5e8abc6891e24f4a0c524d88e06c3f1028),
(0xee2059ffa2c5bef0646bf76dae2f3bfa193b8a28bc74cfbf00a96b48921ac0d0, 0x3a8f469315d6a6e22e57edb7e5897039153e02838d66b1ce1814ac74195379e7),
(0x6dd7fa4dbc12da891669cf7fb1024a8a551d728183fd221a7a0ca9a08c2aa725, 0x67fe6a0dfca0fc021fc89584d2a5f19ece890708490c79e3cdbd43adad24493e),
(0x15102e09b966ca251a9b460916ca12297ab64d60980582e5e8bf0e4d80fd6c35, 0x7ebf61f9956109c43cfb52ad4e60078c93ea653f17c7328f9120545c48988be7),
(0xa06978164a0511f93a48efe1de74992b54679aaaa99e328d06771386945e9039, 0x92d24154971add65c40e6f32a5b5fd01765effb6c8d64676c9d97e8bf857d630),
(0xac925df13a9ce7db18b9071ff81880f7c8ec97be4b78a31b27917d71da0defce, 0x6347aee9abe9b2bb1f1e3ab22792009eee009011337fb184d3f637f3186acba6),
(0x74f3c7b4e237db779229cb2f1fdba8be9ba990ed6dd84976ff92646e55e21091, 0x44e9a71ea07e4254c4dae6209c4378737c56187f23f4222403167e45932055f2),
(0x78f0a024f6a5bbaaf3eaf55092a55bae73348e8237dc095c11ee34fc3194eb00, 0x54e9b6e72f758d5423d5b9bdb329262d6745eb32c93c2571f86f40cd1cfeeef9),
(0x83d3e53892d722a48c006910a22f32ad2ff7bdecd9bd2ea3a2f315cb550a1bc3, 0xa4f3c8e1732b23ae9f21c03e7c3711ff687683c313455107682783328d9a25d0),
(0x15deb2e30f0f0b655edbb7d18d86cedd7242a693a271d853b468d57a52cbd647, 0x7cb1ea7008e12acb6bbec5ac26f513cf514604939db6cccbba7125610a6f4a80),
(0x6fc5c841eca2637b67fcd5f13c3dbf403b00e4e5270bccad617c58af0ac54195, 0xafc3fc7d92f0f77c5147ae418aae93d3b5cb7785d65e623a391d6a061f82d4c4),
(0x154dad0940e83686d0942998e220f8b6bd106af7beb9bc661f1a4c2e29300f20, 0x9a47095db2a357c716d8773f18c953ffdc0ed27001cd881ff3088176e61bd7ed),
(0xa498ef6b89b882d681ea0647f83d53aad1fb39e66bba74bf8008a43f197b301a, 0xcf4d289ef723ad4627edc96f5315bc2c9ad39c044e8e6785222ca1423f5c2881),
(0x5c01e4d2465c33261828c45dbbb2cf6979cdb746fb659a6b44f0f2f1f388fa3f, 0x315dab9e5e53f939610e97293e686d33e46f82625ddfb45d46728b03927a6837),
(0xd058f58b255164fee6d604722b32624b02eb523b6c7f1e6a7ce1c248fb3fe505, 0x21761abe01bcb844396453107a3dd2ee28bb4dc993dcd0e9a09d51761a7c6536),
(0xeb89dbf167c1352e5ea2a7fb206663b18c95d962cec354123b9be6b351799ca1, 0x9566074f0ec54174a49a5f84e4965174408425f222d485ecb020740c74b08ef1),
(0x19ddc30084dda580db5b1230b0fe95085575eb10680181ffee0d521b17b39cb8, 0x6af18172bfb03b77db456836b9617f05bbcbcccff6ed2dd9a9c6e734c01d188f),
(0x66240aec7e72f70769560e0cf31f2c419a8efab532f17f5919bd56e293c41e13, 0x16fad6613600a79d41eba5b2d0721dcaafe94372fe83b20f7178e29ae6f3949a),
(0x3c75905b9e7c77519f4617ff6010c39f92b852fe89dca73dcb3f15b023f7a286, 0x0799ffb894fd4f3e61dd489fda746fdbae955eb13c8dd9ebe4f73d412feccec1),
(0x09719a34e765cca468ab34533c6dedd16247af51b73295f68b9369140c03f10a, 0x4d4e7f2dee3aec6f71fa8978f532e995c0e1533c5cf0b51d0f35d8f829cc10ec),
(0xe32f292ee5c41e2dbd262c45eda0b729713207c017fa5c4700c8bce6ca550814, 0x105716c55995ffa6998f2209b9d0b37ef2bd78be527f6c12b707faf1ef73a82c),
(0x76aa4115595e7656c76300d0a60e3316fd9c1b60d41920a6128e59f074a9dde5, 0xf3ca0754b6daef99acd6e1e6fb36d93de068c0d226b843a6e7e111e99df8efda),
(0x215186c7ba018fee747c2030f57d1105945b021b0be053daefb1136bf0d6f0a9, 0x62994ba362d9a8a007432690689a859eef4988603d52352be27e0f8fd02e4de7),
(0x62e16f474d3ce3d8a21f0c8c875eea7c111ca0f521c03f546bcee790ab0d48bd, 0xe9a8c8ab99f916e04141972cf60843be072088d1e044b27c6a84b21f0c787abb),
(0x372b59668b00faaaa714e7a82462107a3d1226e4988faafe988d06a7dfb27bd0, 0xc6d349aa6a53d0bb185e0f590a4c137c8622be1c5df205f34b090080bf4e4035),
(0x0b11cb8ccd6302bde6005ed09a1ce2eaa81fbd9c748a17e8fe1c139ed2d1d725, 0x29ec84f8e8d627a60b81a63c04b13abb88d7e5d49e56e2b9a3f15f4060efa38d),
(0x652b5427f45d07c18cd9afb67d5743e2836d78f3528917fe2a5c6162c4a06d81, 0x3e93d9e425ce53a4915bd12d4327e89b64a7112c05ebae5335c631c964b2e5f9),
(0xc0812ee989fa053156847bb4edd517a607d6d7d090ab5955a59326daf3833afa, 0x2450338acf923109d67b05013557f310f3b0550a8f1cd5fc6eef8a5c14b46c27),
(0x627c169efb0d99378ddd0fd5a73afa162a317e567d95769541e52a41d9344ca1, 0x11dfbcf775bafe74eec503cc22c8b48590a17079580acdd9c51158f5efd0cd7b),
(0x699162995b83ba3a06bf16e297e8031e74dc9054c05ab59a335a8296d876a66d, 0x39e45d50aeceb8888a1d64ab9cb3b12771269b7ea14ca4eb2179d7624ee6d953),
(0x6693adae579636f32332a4187e49ffc6921aa51d852b51369a96c8e1cc268574, 0xae73a660580a400550865060dbe9ab432f304ca5506b9f4e7e17f6021456bfa2),
(0x0ccc178c7168ac1ee7bf7579f75f96455ca2b558e1e709eede86df5e5ebe0789, 0x81c63b04eddbf33b432e00c59e76d319fd1ef2f7d6f313491f7a3c10431a2130),
(0xd80687f689f7c28bd6ef1531c4e4b283c6e5dabcad7fe5d96dc20d30e1feeea2, 0x71e24cd59d2c33ac2b298946bc90e0fed229720d0539a6f5e128973a9bd6c5fb),
(0xc53a691188f785f3efc1fe1ad142a259cbda5f76f3e9de36895a8963ffefcb74, 0x7a225bd6a348728d951d55bf257de9e9d88df32cff2c4391f4ddae8ece357cc0),
(0xd512c64d01932fd15636740e2bbd302c3d8674e652a30d40ce879145bed9b7c1, 0x52e336dd3c7eca6a469bc97ea330fa031cda3c57a4354ba20acffcaaa1e6b424),
(0x384aed3b531098a199312d6574b1b1bbe79a8bf0ea4f7a86c5114fdab32061d6, 0xf2290bbb2bbe7b53eb64f87b0017a9e149356d9ede3c0be428a4dc7d709ef731),
(0x6db6c2c11fbd5b9231a4e34fca2f9315dde00dee909b8d530d7149c66e3cecb7, 0xcb2f0b26e1bcd4646e6ee0748efcd499f535a8baf61a38e7aaae35113c781649),
(0x6bc2f0f2c0118efd4fbab4c490c56da9d66c0b1bec88e8b1c8da967a95d1ae60, 0xa568f40f24e51e2ad01c13de4490f34d5a5bff13e005ce7794a59128f6d871ae),
(0x12e4e92aaa40ad9d281316d2358bb0d6c69fac2824114a9ba96091d164ee29cb, 0xf717cba6b07eac9c34b8821c218519c3886d5cc7a22be95954b3eefa8819bb51),
(0x6dee0e1cb887e155e67996de927168217874f9f0a14c86731eaba91d272705b3, 0x28d9f2fc238078749dd40ac18ace2dce18ac39807c7a592243260eb80ededbc3),
(0xf9d667acec2120aa50c2b6f0810b54eb4928bef4779e23117d12eebfd093f139, 0x29c9458a52d4cde7e32a265bfb537b3e5a5fdbe6ece9be95b645b960c160166d),
(0x0e026f66af79f4ea52955b52bca16e2fb2cb05f438568c06ebf1ca25e6f5be17, 0x6319ae603e733681c8caa501d7715b986244c1df1c42d391d8d47e15a681df15),
(0x1ddd29c9bbb378231185f63123d5e1fd39c6b03e44e2a542318a6f3e8325ffb8, 0x22d80158cee2f5968da360e5093a2a86ce1ed25b077a4d66a2e7592d26c2c715),
(0x138f88f5f9f46b81022463736034958ad5476a0f348ca538f789e9809c799f30, 0xadac63933e2de6806fc38d7b23ec521443ab505dcedde2166accf786bd4e4aa5),
(0xb516a9a94630ba5e7469d5e5ee0f03c2051bfdf5a198350679baca9a0e6de6f6, 0x9c1849567ad6885989a2013a5a902fea66d398e46c85203eb7a143b190b42587),
(0xbb1a5499548ee5a679500a49a1466b119d56918a735c3e0731939ed02d47abe7, 0xb946e9662df43be86478e809ac690d4db25398e8de13731e89867f8063f8021e),
(0x394ee0328be13bc3ffa069f392b7207036ad018b503ed70b9bbf9f7b458faf36, 0x03a494b00dd538dcfa3a10e970b83c4a2169b4ea255c642350f7ee7240a6910d),
(0x0a0218890ce4c941606c02262b423afdf44d6a75483dc4cf797b35128131e2ed, 0xd8ae98ca572b5a38cd10a7636638c47f02867710373af6a1bfab6cc964b26547),
(0x99e2cf77a0f389ada6c21457d3e94ee595fded1989c326da3cef2e49670f2572, 0x8144a88ca90a7685ea3155ea8fa5cc0cc282fc25532aa5da84494b9794810a1c),
(0x23c4b50e80278869b77c62de8232a70e52a4a3c34d0d61147898974654e57aca, 0xafba6a63e35b15f31a24e5b5844b0f3cb247deeea764b3c11075c3b8c65bb0b5),
(0xae0ea24091b096486bd06ec7ab6dd488fd6669be58c2e91de848656047493d5a, 0x063e13a3aed0b2f5a11e914a3617b1eaabf62d4d731eda0562251d76939aea63),
(0xd9e9ec51cea0b15028199afd70fa86efdfa90e86b96138319cbbeb86c6573bf2, 0x561519eef8dd5ebbdf47d4bbc24eed765ff4342d6ec6e5378a2952e7db51354a),
(0xe674a6287472d6028c0b888e1dc864290207e38aaf61d3e760708721c1a44613, 0xc145e723eabf1dc70f09fcef1ae241161bc0d24e9c96c83a3c4e76e4cdbb9e7f),
(0x19a43fb6ad57114242644af6a3ce367d329f44e5bbbd89489368620d944f413f, 0x29a616f25f2bf4df0e516574cbe840de9ab9ee1dabc86ca96413bfb7a79a4095),
(0xcf1e1a8732eb52e1660186f96aaa4cac9248d8ef2738a6e75e600f3b0658825d, 0x379dd9a18355ac8a94a9614be3f51540c17a76dd3e3f853f252f0e75164dd346),
(0x342147b58a1ac1d0baba5b2de924e7a3b804e385466f5ae829138bc95c5b386b, 0x9d8792c58917aabb6a3cbc4c7f18d2b0768dc9b91871bf488ebabc00f51e2bf0),
(0x1c24e35d35fda6b1f6ae6b437599ec91dff1fbb3b3d26976783c0539a8b9af32, 0x58591ff168290b12d729c621f5da504ce697ef007d9221529a76ed612dbe8608),
(0xd0fa4d47a29e1101baa08cca073e00d6660e25886e1b5cceee1c2a5a9fb806da, 0x918cb1f1608f9e4037a59bb728c25708db898d76a8b2e2b9d4450c6403606212)]

/-- secp256k1_pre_g_128[8064..8127], /repo/src/precomputed_ecmult.c:16326-16389 -/
def h15_6 : List (Nat × Nat) := [
(0xf3307ffb7e72413e2207918d8a93f183d5cc93e6ae07d196a6d22f1d253b2499, 0x8a44b83bfeffd6d278442d7251929c0d42b690a2d91d99bcc5dff056d37e1f27),
(0x77e612a69931080c7d910573fe55582b30eb4ca4c7b7fe1c9c4eeda9b296097f, 0xcc85c0f36f020bb09705f56015268e36bf61db2b814b51b7c958f1a8656c26b8),
(0xfe3b3fdbb8d768aa8248087b70e6d0de592c95e9b9816996a3b4c88b21bb9605, 0x23b44ffb20e8fc95ad3c035e3f52fb535129196595fbda638a192cf943630e0d),
(0xe664460b253050fd008814a2b2bc0f56fd8d2f5394673a679a76eee3f7ae6e80, 0xbf0a7515a0a6351e62bdf5276974f06dbe87345b438eea33ddb980fc788eec9c),
(0xb8ab32666cb96b06a363d87aa7ee820c695b737200b9341b292dd0f1d5fc35af, 0x720da14439ac9d53c480dc255eb45ffa0b9e406c8eb5bae51c1450588120f900),
(0x38242b07d1904c726da9ca1cf1acced296c1c4a9b37671c2e529917d0a651b99, 0x3d47a7930688603ad6ddfc871c85a19fe21ac51bd292ff7c69e219e57a0dea85),
(0xae9a9354e451abb4454766fb07eaac215982008e6cd47d7ddf5a628927131913, 0x46d291c07f99fbb82eea4c66525602f96af5c16bf4c31ca8c26a831e0a39985f),
(0x59e59fd66a89a538f5277950816bf2dc7070f70e98d04b9501b83a80dab205a9, 0xcec6b5194d1122d6dd3e39a6fb3e80a32d8291583ddf0bb03dc3086e9f247f4d),
(0x059aade5c117e92a97ba17852e1ef3f6d000620da8f82e2c1d4272d534a8e22a, 0x6a6b6ab1bd9a69cb181538fdeb4a9e8beda7581196ef31aedeaf516ce68c1cc3),
(0xf29d02a45b464774fbc1bcd77caaf22f12efcc9b2a5699660b9adbe818a9f075, 0x0ba879565e0a1c56fd03175b0a78111003f34542ded103676d44f7067b8ab418),
(0xdb630bf6e9ff0092eebeebb8a5bc72e80774c083cafa05192e6d913d112181a8, 0x06b764e82213a7de79b9abe7edabf502d9ac04c8eb5a4b269d22b666f657685f),
(0x45b9f06471b848c748ff3fc334d425d257a71abc27c4d002dda26c771b09d2b8, 0xc2119389e4cecaa9c0c72e4e20c95cf91acb1698c0bcfd42f8620a9ed781de57),
(0x0d4919e23a278aa425bb55cd02fdcde2eac630584cd57f50390c6a9a1015ffb4, 0xf8e9f461950f17fd8c46f04a3a6f3c525318cb93a0aa3f3bbf90c02e80e1c288),
(0xea0006772a76378f3faa3c1fc7227cc14b11764a3c9a14c04f18f9d0b55acc46, 0xeafaf0b59a3081828e6d07d72e16509fbbf76fbde1473e3518b795c887ff84c6),
(0x70b539a44750f763be1145b50b433e98847545a28fc729862c17045bf0d6fded, 0xd5438ebf18eb5febfcf6edae4fcca2afe0208adb02f826482af428cfbc761464),
(0x10b4a23599ce2be7fdc31f8ead91523a47b8162f8ed9387b4c20865725fa88d3, 0x773ef1b3a3943b86729661bb6ce6f4aee8c7165f97a88fe95df9e0273ccf9e7c),
(0x067d7633499323f7cc378c5e2e62cc6a5f34ff83e11e60619ec4a404d63b91b7, 0xcd7616ed60f0f4fc1006dcf1850807d7e873095430db6761cb7cbbf1a9c2958b),
(0x5744c77f0837105761b1c7821c9d9c5314219e1c5df80ea0f772f9feff157aa7, 0x578459ee13ec92b8b685acda0a153f24f6c844bbe195ad5877364ead7a9e5fa4),
(0x7c6b254d39ab709ccd63c2c256c43483183b1b2725ca49a319753f686486ad02, 0x5669fcbad8662be62d12cde6030102f370f7ef0b5b347fa86000ae6f497fad6a),
(0x8ec715c5bda8f9ef3b197ea8a182a3dd6cbc3b8a88227e0053a2eefbb2006676, 0xe59ecc81aea7f2a54f659bdfa317bada3f8ccb7b134ae21d733b9710335e73c9),
(0xfc7eb1e0095d0b18058d22b5ad36fbac1b513d862bb3c9ef61b55a5e0985e642, 0x7206dfc310056bcc4071e9f813495744dd903d722aa0d6b73fb353944b66c85d),
(0x4954bd00308e205b90c191ab6262daf281939084668c43dd1ae998d7e143f1dc, 0x8efa802fe67f72c25b4fc27904e236087b343d89255272d63c3968c807f26237),
(0xf27e6c84f60858e82eb53d39a68601899172da9ce0d1ea709225effe23de6969, 0x90533e33321f1f5ace37ff79b4dd3109a1efd6ebde502aae4dbdf58b1e697c74),
(0x166f3aebcd040509085df120edf55c1bf6eed0b5fb24173dc7d9125dd0b2b29a, 0x54b8de8bc24b1cd78f89820fd4b3ac6a1588ebce6de99b9c081773ba5fd32e20),
(0xc07975228dabaaf2b46108c488ebd104b0bfafdbb344b5e072f6cb6af58f3cdb, 0xbae0280c704e0d0d2d421b20828cd00d9b388f32fcadb511ad5ed4de281a4a29),
(0x813667392085f96c6a39c9f5ff60b51c4991a2897106619d1ab0de9b34de87bc, 0x0d7b85992464c1e19f575cfdde5bec08987230b620d911d5d6dd3d2a8a75e079),
(0x335f446af3964e778f4985a5c19e371b876494b4467ed7000482558a9cab3c65, 0x06e8fa4224cd52c4b78af9deb7efa7260c26a94d085bfeb6fdb1b97f674cbe6f),
(0xb6a34b42bf5e4781df14fe991a14b414fa488da2293143661ba83ecf1e80d60c, 0xb633c9f3cd359dc92ce47287670fe80e131315c16fc17811f319f1e982f88e8b),
(0x95f99013a9e937e6ff784b072328796005eb4532e16b388125a1801217ee3ed9, 0x2d0fa2ee1aed211d5b90915ff3b2116a28528f1935b6b534333b102d177c08a2),
(0x9c0923b00d681933bc8bca36a6af4058682c566195d3a211a1ef602f933f6a45, 0x0a72df8da9a951e5a63f04244974d74ffb809cf5fe7c24da9c1715a72419c7d5),
(0x931cd34de32188a8802b6a73204eadf2cae8d8de52423dafdaf042cb946657f1, 0xd84b7406d58c53e289ca15bb4ba78db306bd294734d0ee9d6939c15a9f28b856),
(0x24be4b41f845c43b5fc594ac90e3e4aab49cc79c4b0a84081803c27b0ce62fe4, 0xc6651cb00be54ab0789401796dca24483d9349eee45e78d4b786a63683861bb9),
(0xf19a51c2ebff1d7781b0e7f0a29947fc3ed9dd269f0b9cb90c27c3f7500c81eb, 0x8e1cfe926128173f556b3ec44c394ba0201a4f93e2db054f063934b2479a301e),
(0xf6e7e4cb88ecad49a1653a6c5510571acec770242f490774a8dd62a7d6e16363, 0x60842dbbb8ae082e9538e7251a3dd7f98edabff35444719d97134a3c236c97b3),
(0xe7b7bb26af8cc2ba6e54e9236af55e407ff704c61264cacc74d96b5281f2ca00, 0x3abaca16e20f74d76d11a942415987c78da5ed503d781f2faba6d534cbc3908c),
(0xc8acf1d389a29f6de0d0383580a0a562aefcaa99b184f910f2c8370bbedc4c16, 0x924e9b2e2c6463ace8eda0b3feee2f82730505591071bbcd72f6e32331617359),
(0x1453b2dcefe09d16373ffc2d42e7980564ff194c6b9944dcb12d3cdb1d84ae27, 0x2d7faeab7ca112120a1aa9d4a462c04b8dacd2ec1f7ee3b828fcdfb7a26c6e17),
(0xae92e090b3c6ae1568a12c6c0882d1b4345f0a460b9ad364bc869243dd533f4d, 0x3f50449ba3865900ff63d94427a0b96756c001795b5f51cd5996ca2b19ad7abf),
(0x3086b503ad8afe4dfe2795f7c972e0c08d6f040a1be88309606fee4db977fd06, 0xb8631fad80689ce27f62db6cd6a56f3cd3dc110e610f3732fa3f2c10a4d588d9),
(0x7a17def1e9c2b1759944eb35262908e7c988f6022440e151928dfb44462e2856, 0x042171a1f71ae8ead437a1d7e1ec3394b713044d6c8959302535787fb93fcec3),
(0x97975e9eb0698b70995411da37ce2a8791198b90e104476eb86c4a77dc5ce9c4, 0x0b8999b769b36de213cfc81c0c2fffc365e5dbc2db1906a0ec88e931cd05bd41),
(0x839fa603a2ec722d1253328e15f7d18755ee80fdb6bc7b09bbca59eb316d1b22, 0x4e43cdca01b33fa9cf397ef391d40b46fdcfa770b2be8e9d9ee22d616e12dfa9),
(0xccfb8b977baefebdeaf49c7c1ddada20861e1c0dacba4caf4e30f21bca3a05a7, 0x7d9bced6625792370a3480713ea1af91256e9d621265fa27cc80b5fccf75f99f),
(0x8f9f369b3f325823e8c9b16ff2142ebc3c6f7bfddd28c4df63d1c92b581cb6a4, 0x114c7d9b3f54f549c10d93d4258434779c297e2f3f07b20812335fe25771b12c),
(0xf0deaa5c324c5ead6f6f1cb0cf1dac32ef3426060353343565ac164aac8f0f2f, 0xef6dd597e2203c03f0ce0780bcc1e963621c14607a4ce6169ee6624d11c2eee9),
(0x638362c218c9e0e872dafa8efed86fcfda5641eb7cd0172509a85103f04fa408, 0x3c224389bff1fd09338ea28c7c9a93cb32be874904a6c6295c1c3dff2b582877),
(0x49acbef264708117a53f52e684bc15e9d004baa2fb3a756a72d35efb49871759, 0xb678efb3fa09158fd1f9c74a87a56883b0a8316cd4848ef51f35dfc008c4b5bb),
(0xa79d63c7b718cd66b393e70af032bc50a90209b25f5b07c0303eb8d11db618ee, 0xecf7f89d2f6f987709b5e390ce5837ba049bc2b3a7c1047b7a7c852e89f1551a),
(0xc922d543f192f6543445d3f9c36a05b82ee043e092afcae5a21b9b17a06d0257, 0xcf77d5eb9e555f9034ce1c1463f7c4b6a0202d81deb02ddfa26113ba292554e7),
(0xdbb8f077b411a4ddfaf0d89c3dc203751bb20e162052ee46915528e51f461387, 0xa6c0d5df91cc4ba1cbba0588774d47e17ef9728163ca89507ff6b779da12b7e6),
(0xdea21a21eccb173314d76fcfdc6109c888a633d9645f86e4e59ee237cb18110c, 0xa1390d1d69a304f1a2792ecc675f2dae1ddef9082f2e392906b9a0683933264b),
(0xf088ed85750dd58acd03b3a993d8876034f50780985f7552114f957ace8904a1, 0xb810e652f596cb800c369f61f632bc3cfcfb1fc2b906acafc1f39d025e3ae4dd),
(0xb85da43116b898e856fe3c18b60a48b7c2ba9f65ad67c31df45ac3b6608b774c, 0x357d324b474ae7d897398506c550a1fc5353a00c7e6f1245c0f5768380ac9e1f),
(0xeaac0d2c276000ff899dcb3c61b416637012327614585bea7704de95d164514b, 0xaad696cb01af2f121ba915ec64afc13da689719d8f18842425d6068e9bb06a69),
(0x7a3cfc7e51fbf61fffed34300eb9ac40c84164b02122083729f20ed8eacac977, 0x9015b896e034d2b6684f7352185e959b5c45406f6187930f82f622690d3ba70a),
(0x5a9def12e06f0ac435b9f85353db864c77288050c349ed7da8d8b109b001a856, 0xb63b74ba868df8169dfc30a91efbae1e1617a2303ed202399ecf57985ec4bf99),
(0xb937b3d4287a0f845323cc7295b4a201ba9d97d32d9685337caccbdcce8623ed, 0x6f2ad251a66e5ff0773847469208db132a396dc217e781ce9aa8d55683fc0adf),
(0xd44f7fc297e079f4ba0689de0dc743d40964c6ab8c34bbfff95bf22eb7d3c209, 0xb5afe3b6f6b02542e6ce811bf4bb0fce79e7916ffed8845cdd83de079320a2d1),
(0x5980fbb16be7acd7b090a2b1c83dbf809148cc9975fd6834edf564c550fdf2f2, 0x723402698d22b946ae51c9c833d5b44dee884a02e12a6d4a23957483032abac9),
(0x94733aebdce57a8916961f413eb04b5e71f0a05529baf93fc9ff178a12b70511, 0xe591b62e5cf92ea4306e16b5acc5958da5516bf57a7dab17db38cef744302c47),
(0x1172b0063d5ae4918699e75675ddfc59fb5cc8d4f332ce72f99fb99ec9799d96, 0x2845be1bb97830d3f9d04a3b36ae381c5654bef3f3fa85163a7b9738ed867ef4),
(0x29afd0935ca567f7eb4cc1c2ebbbe8c3bc405691b41a2812b7c7131281bbe691, 0x77e9a59dc0aebd2809cf2960ebe7fc19236c18597882df0fa8e6e0c26d92b821),
(0x191c7ed672c36def576f645c6b475eff793119e3ebc3a29b71eee3c9cb52a635, 0x642bdce790d0f10454ebe4d6282be83a443f8f44faba4c765b1491d8c7c83210),
(0x237eff1389c20d309902a738fa4543d4c2a4a2b506731603500997bb40d28eda, 0x973d696cba9eb05d73ce74915c1cf3d15a9986087ce85854f7bdd1573d5c7394)]

/-- secp256k1_pre_g_128[8128..8191], /repo/src/precomputed_ecmult.c:16390-16453 -/
def h15_7 : List (Nat × Nat) := [
(0xd4985b528067307453ec0edbf02b9d4cb1ce9a0c0af7c67577789b8df3b5ab33, 0xad8fa14594c510a7830f33534ac94a98cdf2fa30b6a1b5729222969ce27eb1ea),
(0x3baed9b625f5d0b26e0132c6020a9015f79bd8d18e5ce17020fed78fa2238914, 0x6ef88df13c7a90231180edfdd041b9503ad89f224ec557b72e900bc8fa820c19),
(0x6e2298a6102268b1af97bf67c0aba7835463165b1df8a824530ee5d786d354f6, 0xc3864e523bb5cfe0a64adc7a9e8926e9876516a4c83767d85ebfc39ae125c19c),
(0xf9e87f152412598d775131deabbd02724d658849cb60aac692280e6308e835e9, 0xe843a3dda30f968570fcf86e86206c22af40ce3a3beb620caa167e63271d95ac),
(0xf9925b7e80b8b8b1b5c56f8074bd5ee19e4196782c5a33d2c59f801656cfbb0e, 0x3e2fda0b50aa76715810a8d22d4778d866bd2515acf87b797b2f4875dee19719),
(0x6fc34efd5d11ae352cca3254c5f8a04052b81357556d4d67dd02d22b91f4e49b, 0x0f14c656ec946492a6af3f2f56fd735571e41b2cdfeda7bded567658202f6e61),
(0xab5044584b38c8460e2820381f02f55dfc6a56481b1830c1e4ee94e3d11af8d9, 0x4ad3821e03f5219caab317872a8fbccff0f445d70da30f05d9523f5513eee3cc),
(0x02378d11716b6d3485bd5a575c5b2c961b817abee21b7d45382449335ce7e7a5, 0x33682ec08c59a158c4ef12bdd2a46d316abc6dd4f81a1fef5be4057704e03fab),
(0xcfa9542508608d9b9c568a1cfd4b078aff49150fa4681324ac56b6e9df569016, 0xe200a3ae2d82ddc2a71767e5842ef30c86cd9b177c5e52ffac316e500001e7e2),
(0x585542d9a3a582a3bde74fef112924c4e00cafcb61518d87f524211dbdb98993, 0x2035bc197a0ea2b68d1d1333b5aadc61c9dff2c1e4dea0341539ff159a3d18ae),
(0x0fab2433905e5b46e47103f2e353d503cb141e612167cb4d34946a5c0cd2c06b, 0x7097d7353f17734f8eff6993077916c9884f67db42f7a96c62a3e1d99e341547),
(0xb10db548be55521cde5edc260fa39716154e365da1b8b7fd2265d78b7edee8cd, 0x389efe1c7fd8b4a54a42e651b5c06a2a7c153664e52ef30d90eda2d59e9690c8),
(0x218a8a36273fce1485c0c9f71910aff864910b006254af75e78a6b5b3d5c7bad, 0x4a1984e8e90d4695b8dcf34a55eaf568b0fd34cc528a147cbebb052a8e6e8604),
(0xe120bc22fe6dc81fdc3ead1ba2ca966f0c5702ec479793b15f0ebae30b6c5ff3, 0x9f92f1d5e8aa56f61ef20685c8085782be180658c7d2b9e1c020c98ecd425835),
(0xe83373faf80d45605ac4da9ac9cfa220b2a2c65626857035a228c93b495be15f, 0x8b9156523c53265707945021d6c1b1a63b1fd090ea93cf0190fdb791a2397a91),
(0xb7d8a393a10590ea91d2a495eec07262f2f43e2974f7b2e56ba6ee9217e3e74b, 0x4ad6671f58b2c7ba7a9406135986b3f35a6e13ec8243b0fac8bec1302afbad0f),
(0x75a5ed46b2103f5fee808803bf419bbc232cf5d384955e8b1d4fbaee5194ca35, 0x51b9670c4c65e969a5a56e1525f33dc9458c317b6faf484a186d52d1757e4857),
(0x6d8d67cbc309ecc63c1e04d4aa42683c775d5f32511115009166c574b0dd66e4, 0x0e127b8cf431cf095939712ec96d299eefbdeeeceeca3d2a9f6b3d29fb8f72fd),
(0x51a6d684463065c87d3e0feeac72e4f31e5187a4dd14d59eef71ee93085fb229, 0x7fe1069cb384178cae2241fa6886e1fd286347f0d2488dbbf4d6eaf9e722a90a),
(0x5140ba9e81a272eb30ac5c96a8b054bf870b17859519cdbe4f2e65732a56e6bc, 0x3b6a2c0e7421eab3147b61e6d82523261819bd949e3c805fca2a12b2e13599a9),
(0xb94c78126c60a3b048b28f470f9d461e27ffdf7f93a3ee70ae38962c8060166b, 0xbab7aa94385d224ff20e7c607f7f11db4ec3526ac226cc9616af6a3e356208f2),
(0x4504667876689fbca94ebd79ddb5d6553e97b7880c91cee0b62ee75c1fd12ff3, 0x635b3d75a0621530d7ff26cff1878d522864a6eae82b220fd35ae5a5edea1895),
(0x45f4025d7b88ddafe39566e427060b7cac59ae7a526ac3d6a489424bd677a54d, 0xd732c32218307ace354ade1421d134380ac4c7c35b5021a6cea9137fb47465ac),
(0xc6e8912ea197f39b817b743ddeb3320b558af332096e0ebb58c258c4f1c0d5cc, 0x6e0c8ecc0fd97ccddeb08f4a73ca13cfb48d3633afb7413936550e0ac23f04ea),
(0x06fd13fdc7d3809d6a3bf6b15208d0ab5f476e9957a7fc7129824154a05a7dd7, 0x9592264132be31b4c34ea614df6b8c1ac386dbc21318868db40869a717b862e6),
(0x54fc0732968b0207ea2c115fd11bfb57b9b281644644d82f45af11006b63d0b3, 0x318ef9f3b2173c45bba5ffdd8345a08b66c8e18380ef9dbbb5d80c1f15f95bfb),
(0x9e6ac7186e09f6981f384cdcb9c48703a8ee37260d6d8ee3a10499f5e17731e1, 0x95b4c37fec98facab41c628e012f606e79829b1796ef3dcec4aba99e3882bc0a),
(0x85732ae2eb7944a26609aea5607604c4c30f25ca0c365fb2e01c760040542ce6, 0x928a62fbb082f38b528905407b20f9ac1f4841a7bde217ab828780ee94749fcb),
(0x03ea5ace80e47aa19bf1406d3559fd5085d3850493752563de66393e37a652a1, 0xdb5fa5430142d36f0fcc1cc836b1f4c4e82d4980f2b277c7bec53324fbdc8e9c),
(0x7d40f7aef1866d878e42f9c8d5afff762a427567f6130f73439d67fed14be54d, 0x5bee61f531e4ebb5679c964500d565cff93b391bf48c5504a5054e2347859d2a),
(0x3dc80cd7478ea38e1d6e1e41aca892c44e4d8339acd72fb4c27861ae3e7d8664, 0x98412c6868af56ab19876499fa30c8b78bfa5d19b4aea0ec5278769049b7e3b5),
(0x2dd9215581bbbcdba1900b909018ea302e40ec35cf2b74ca6065e8d1f3bcc057, 0xcdb59ee3b5d42deb5a4ffe5646f5dec0218d0e9d569cdd3fb96610ab2a382fe5),
(0xa245a185ed85c5473b78a56176a32e45b35efe7536a1fef4569f4f70ba510ae5, 0x93b66fc46fde95541363bdbd117073cdf3f5e40675fc571034bef6bc47a2519c),
(0x5136c2e45004c1fd615fe81ae44631532753c67086d1bba0b3a35bdc47bbec08, 0x1743f5c5d0a58608a66fab5569f7134d7fe49fad2dbee1a6d01c581d18f97d85),
(0xb65423af618b242b71e258e8c22f975b621a89009e0a3f12f9f8314d7fc6ca54, 0xe3c39b1ce4159306e730c2ad4ecec430720355a2815b63a9720ef623b91e4230),
(0xd6db49c64e68f6b059cb5a003c826a59bea1e9fe07622a2e6eca605efe9a7858, 0xcff0a39d83e246f1efad5dad72c5df0d62e9cf8f4da81a5a685861873dfd758f),
(0x0ff2f7398e5aaae1a589a82fe8e3631534ff1081cb083933d08473b40bd16f03, 0x1559e2e849dc5aeb50f3de131478fa990e110627aa0c4c5d43ab03cadde04cdf),
(0xa7c9398c5938a3cae32d29470d8e3a58e42a669f5cd9b219d8acf6f52cef9bf5, 0x43e2a5a3dae4bd5e64a308617056fce6cf86d0b741c3b46e3a3ed90e98d2d51c),
(0xfaa9724a357b68067be30aa64fb858791969191e346d5d738a85b27cc6608d72, 0xea1f8a668f4881fc4ecfc556f0ca4e12b93ee6ca054a0fceb2fe51ca174d9713),
(0x28301cf8328171c074cd585f6e5870ac815de8d09c9f15c55540de9ab29a86df, 0x31910e6f1558571074e87f41e5cc9c734ddd15bd4436ec8f59806afe7901c2e4),
(0xfbde2380ae0cccc4e044ca5992be8e115fc782ebc1d49bc2cbdfd1f5d7908a09, 0xc1a1d67c74777fbb68919bf411de555a6485436f7e34062b480b75168a03dba3),
(0x59d8ba7b6c71ba1d191d4cce662483cb9784ede7d1908e81815d0a484b84bf7d, 0x8a32e9681ecf963b3c23a9d2f382490b1f229b27a663f4a69819c33bf9f6149f),
(0x6c3a61d71c999ae0604511ad23f620addfc7891b925eeed16a5ca37fb41b47e4, 0xf7115905c696c2b3e2b82a309728923eb8eba53c363f145673676b599b50b9c0),
(0x8e53027f8e137bfa73eb5167035382baab3468f4d4227b19a45c51c2ef3d8339, 0x2b5ea7b9542a83aba1c402babe13437b0c62106796e83b7a2cdedc522bcff513),
(0x113aa35e6a5f794ba56b04a3d639b1e164a790b508ff310cfbeab588f93be16a, 0x227c17e7d95583e7fdcc3ab7b24182b51bb11e919f28fd7b3a2e4a404f333962),
(0x16c4c83f5a06b2de9d3f39e71f0a9de7af6e8fc7b0fecaf32c82f1aafe9a5343, 0xb4cbf71ec3ad463587f8e3550cffe1eaa19f1dc6d233d617776a69a9ab8dec03),
(0x4d97594c613de84ae685199aac639a56e5c15a0ec00282bd197cc2ea90f8fbb0, 0xb9f39a4424cbb1e2f77afa90ec7266ee64ea987e80a32b34483c1f2eb0c5844a),
(0xb679693ab3fecff0819e0598654065211f9aee9c1ea44417eba86ebe32414ac3, 0x7bfe1ba0ae17291d71aac3f366e5a92756b53312a6818d1a78b7d9efa5d01b2f),
(0xa97c2730a78cf5b7538b518a87d8fc55f95a367d4e021d2379f163eb98b6eb9a, 0xaed1e51c3ce7e35eff69e7d93fd3a96859f0f23a7bbab9d83b60cabd0cebd34f),
(0x7dd4e84f6547d66b5e0b204ced1d02584fe92ed86b504ae4eb1b3d66d43b8ca4, 0x7956148fde9755105e3b51260f82e77b89a77b68ffc9364cbfb596e8187ea99b),
(0x5e856d1d25acc306e8c1a2b70a9ccea1beb3008dc224b38fe2f3137665d07c3f, 0x7dccf6b155c12be2f3da02c912fdb666816558b111a2a5459d88aa289d855e6c),
(0xc85ee8687f507429e5c26af67ef1fe45e782661c1fa03aa3ee9dd9c9302e5dd6, 0x732de6add071a0b0b77e47bc14e176d4c85b39d00ac5b4ea55f0d367dba5ab5d),
(0xa97ba3a5cc2d51483f65c65b483b3e4f3c68e46b87bcfea1042aeed84c42e42b, 0xf4eb1271003024d1b7612c3b7dc3dff8ca336f235db7daf93ca6f7d81bdb4a21),
(0x3c0396cf6ff0150c5b6bd5284a05d0a53b735c85125bd49cf62db5b64eaf54a7, 0x6ec02c02f8d9a61e6bb38d64daaf3c7d5324462e37e2df8d4ad12bfa37fd2cb2),
(0xe36fcebce406d2a4ad42f7ddcc00e9f3cf385eeb58cee0045aab817482d84f94, 0x7c98182f6edd358e76d66de0b45ae9f65eb750921a25194c1911bd9f7e6a1a6b),
(0x171ea2ecb964174607d7edcf0ecd6d858577322e6ebac1305ab57f3362eb4e37, 0x9f219970753a7b9ce4f0c6ce5745596aaca8df7ba73660c910add5a9d4c533d6),
(0xa81d720abf8047e80ef67bf271a13f47636a5f9eec4256491cbdad6539652f9e, 0x92b37c88275c022b0635df6b9246edf55dbd8284eaa4cd7e3d3ce6d1c0ca3794),
(0xfa3b69734bd9939c4b6ecd3bf0a063272dc113451bddd717f17b745fbc3f99b3, 0xf38a4e1abcb350977acc8f2ed7f73f75d406e7f2022fdeea2c12d8b9e5d2dfa3),
(0xc117681eb55bff67feda80a1ae88b4bec806860d91916619288a7ce0b31aef86, 0xd94ae124dca678bcb69c9421f295405fd6dc1facde96a2b458ba5fd272faa032),
(0x5ccc061992744a57683de5e37b956fa10fd7287db4516fc9f8635be3a0db42a9, 0xaf1f73ea4d2168e107550ffcdcbba2888397931be457ce6f3f8082f80cfc5f03),
(0x858b019c8a93524f6c86738dcb10b534d8caaf865c0ce75cfc9b83b07c661a0a, 0x07c59d301ffc8ce1b0767ed791f84bc5060bb8caed3464ba0698a53c160ec570),
(0xe1e217b869da0c77599dcc3840fa1d8ca8d08b1a4ac9a882da1476cccc76fa56, 0x83f0ef77905f08014bd86e1763b8c2cfab2018a89586620a00b49a159fc314ca),
(0x15a1ae40b4fc51dc554b75d4db0c2bfd62dfbbfcdede18e14edbb68991525cff, 0x4f0453b7e4e0e99d9663e5c6bb018007b52c8e140d78a28dc4a888e48c4326c2),
(0x1b9a142ffc4d03ea4b079f2db05fad988ddb2d32b359967fc173801f63320825, 0x59bda7ed5b691c204fc8f8acf53be298ae628954a8134d0fdd097e67be9ff9b6)]

/-- secp256k1_pre_g_128[7680..8191] in pieces of 64 entries -/
def h15 : List (List (Nat × Nat)) := [h15_0, h15_1, h15_2, h15_3, h15_4, h15_5, h15_6, h15_7]

end Secp.Model.PreG
