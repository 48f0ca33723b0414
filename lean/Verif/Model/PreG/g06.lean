/-!
Generated from /repo/src/precomputed_ecmult.c:3112-3623: entries 3072 to 3583 of
`secp256k1_pre_g`, as pairs (x, y).
-/

namespace Secp.Model.PreG

/-- secp256k1_pre_g[3072..3135], /repo/src/precomputed_ecmult.c:3112-3175 -/
def g06_0 : List (Nat × Nat) := [
(0x3e7c7fce3a56ef01cabad50f02003a5a77292742be80b5dec537b50f95a9320c, 0x98cd94b7926e7111f3778904599fa9d9d5dc342cc495b914a32d272293dbfaf1),
(0x131eb45714cecf84abf1aaf5ec4c62ab2ac91a0f6af575522eb07274b7cda208, 0xa93aed4ff051260446c61393faec55aa9b017a1360d1303127bfd897e320839e),
(0x371bc601e46963d70388bff69c4b5f42a98e68e02db3e6f1637dd24ea2a11ec8, 0xe2fbeef1932fa241a9785238c1b8926921bbc7f13aa6bdd37b39d94a49f84622),
(0x4770db0492ca73e8a0136bc202c45185b4d45934e44302371bcf5045cae47d6d, 0xe1af748c25b1d906ab77e080d21df4bf99a92f7b4b1d790af1aeef362d41ec22),
(0xb31a86435af5db57759dbae167ce3af5e8e2ae3420786fe0da82812c9594bfff, 0x3793425e860dc99aa96a85a2585b06a4f5aaabd0551fe0cf3c743be3c09aa4a2),
(0xe05eec52084a2501fddfe6dd1619c374a94121bd7d1c99bf09b2e665bd3631f4, 0xc0115f172122f80699a24ea4bd7424254d883d776d269ed4f6cc5626ffb8e622),
(0xe55ddc840ee407d345b84305d97d3f57e57810efbff3b35ce4d8a3252973d5c8, 0x71f77bb5b0fa61417e43e42578ebb13cabb87a6afa0cd1a1026e8936427ee677),
(0xed7b6ab1a5c8a9aa284bf3ea5501d33e1aabbe76f26a9f0ed46dd23edecd788f, 0x2280bb5419d1a62018454a4bcdfd82fb824027d8c51770d377233e011d0db63e),
(0xd4e331fc3da4d8aee13a3329acd4ee69ce5cb71e224f2001f96067148090e79a, 0x895141aa2f63cd309f4a6b42d6a8811277821e5106d08c521ae8e158655e10d6),
(0x4f0ada0ea8ec1ffe6682545abd8152c72654718e120d3d54d648b487896d4417, 0xa603b9ac6026ab4647f5acf55a9fbaf720aaff5456c88cd4dc5ec7f5935aa591),
(0xa2d13541b08eeee24f086a9d20df7528a884cc054106b1b7543eae3e00fdca84, 0x5ac0b166294d6b91527a52497fd605ca4bb67c3585e002d174503b7f5c803a45),
(0x04c1d520014a04592b8887fdafa945ffcbfc472202ce008f64fe8123b5b6c8a4, 0x243c428017b7918e57d06597f348efd4ebcebff43950a6083bb3e33450ed738d),
(0x05f9e5a67d13e9b4cc35b8e6b2305cb0fc2f5b7dff32ac551a5970a92bc54390, 0x7480863796965f7dbc45833ce8bedf0085eb0cb726f3276b30d9543b7395ff6f),
(0xd76c6f8095381b1780ad28a880e29ab44447c29734a4d28698534bca08954575, 0x44b6c3f86b30e01a6120517890e429deaa8273f1277bc49859c87300a561b27b),
(0x7577729ff78775af703a9eaeb5864a186ad19f1d00dac658e7a8a05bd9df3344, 0x6b519916cceaaa5392d2f82298e7ecf33fa7c5b12e70534532ec3f992f0afec9),
(0x50378f2b457f04bad0b1942586ada99278700c8b036bba67fca916c58edc17db, 0xcbd1451c26bdcd491adbf40bac5338cf26957364f82fcad05fea3c2f76273fc1),
(0x3748dc686436516026384ba0ec078ff27606eb44e3d62b50b9138be8cc9ba86c, 0x6c04e414f624ae9cddd005a04e01828d6e7bfb81d350d27196583c996611d709),
(0xb23a59be8ea8d561fbdeaea449eac7293402f342d05fd4047f9c5d1c57eea53b, 0xbea47c68f2d35b82ce3c359c83f5fa1a95d40eff702ed9c42fef0e84406dfb9b),
(0xe4b451e87b42a5be05c5f4435701d2bb9538fc06925ccb49ebfd71c116a64770, 0x2af846699a79074948efa86b2b79b9854cb261a68a9081e9e1467b772f156da4),
(0x864ac6ec65b8b086346e671e8651ddf9de74a21564f3da1242ff754896dff165, 0xf35738a77ab4855591ca5103c8d2bebdb2cbf902dfa93188d68eb600271a8730),
(0xb7d04a3da6a863d9b780902256643864fd36c5d79a056ac4ecb27257f02ecab0, 0xcc40634c6ba5dc23e59e4e3bfe6a07c01519abbe7530f1a15ec7ef706f83b0c1),
(0xddfc1af9b51eddd82020de0c4a8377cfbd6e25310ebc844c7ca8fca2714c1a0e, 0x0cf77c8c1742c4e8b22d9f54a25daab9c30f23f4da3e1ad957b9660e3ffe3951),
(0x78fcfe69d5bb91e3a13de26a614d8479e00c828f8868fc30ea75b47cd51fcbe3, 0x9ec679636b7053bab0cb231aac28143a98021b484340f06066da6e7247f2d47d),
(0xdcd918de16961d718222b4f819e76ecb138c98847833a8fcd4204dda1115863f, 0xabc3d8bac8d808cfca12318dd13c29323ff7fb0d813a5ed2f5e52abacb23bb04),
(0x39ce2ef05de0810693294eef537bc212e6f64fa296ccd2b294a0806cc6c3177e, 0x25eaf4cb0b7697a397a0ca926f3a266a0bbb5dda7894349239fd29db78730556),
(0x495e4db643d4e89edf50e937e97ac4ba1464514fd3a46b5abae6a53d03157a04, 0x7d327e18b2960d69ebe4251cf8c416b4f84bb81ba20ce6d46e6b1c57e6ec1701),
(0x91c17e8cb6357c0c1c36dde529f9e6f7a6cb6e97f5b67dbefcaf5b96637c33c1, 0x2fe52097fedb8ac2efde269220f586aff07b76e0f685ce85c965ec1ba54c39ba),
(0xe3c4f4803dffed446291f11ecc5c95901c28749bd6ae18d4c0371221d5ecfdbc, 0x5a2e7102571e27ce974ad71dacef8b284e7fb8275453e40c65b2be92cbdc62d8),
(0xb3ee17f5a0e81e7b48814377af9dcbb859ae7bea5680f33acc15d8ed75c25073, 0x135a3c0c9a6d2825a6035afe139ede23b46332d505739ecb6d092e7d6cbfe86d),
(0xe4cca8442bc91bed342628e1f64923357ca6e8d95e5b573229866066eae76b75, 0xdd55a55539b5670ff70b42b0f319ac72409f74e2031d9cececc8d90e516f76b9),
(0xab39cfc181c96089998c02a464eae7aee517e4ea962b6359b5ebfbf7da223b2c, 0xdef6dc57b4dcbbe2e6dcfec18281a18972ba3b500f996096a22e4ea9077d2fc4),
(0x22a326639e6e0469fe4cad40964f081a677572d194b3ae01f8e45c84dfab402a, 0x1c9c9d95bd4e0ef05acf614844c98fccdb44cf505d42af261b855f9840d2b437),
(0x2bc788cceff94bf0307c5ead4fbc4deadb269da17790a9037c2fcc2421f9cae9, 0x172f3461648c552044081c43a8c78c3cccecb2489d60d384aa703e4e24bc4b41),
(0xb930dbd2a672060135a75bb88bbe69e83872c63609fbcfe4c622a30002052729, 0x09983f03a872e8b82830e7f9a7438b39ff3f68363334debd83940ff5ae06f366),
(0xb435738a2aa9ea40702db448da6f186f29bcd03e872a3466f33b2e397514e3d3, 0x5828d2462d3c671f85617e55bcc349051678cb8e0f61c74e92c544739098636b),
(0xc91f2e813acc9baf2c52df27d4180dd6ee1fe67f9db6223b532dffb93072bd25, 0x1c9c57d696c12f1313afa0c2b377e1e2b027350fbd24f45569c15f0785b73c0c),
(0xbb0946c28099ba938f28068f416d90030bad0d06f8c7d31d2b995f005c8d36c8, 0x8e3878d93b575fe978fe1a621e978f281560421f7782c1648673906bed76da4a),
(0x485e3aa12e823374cd506521a707f3675298dbf7cb44f398c31a06a48f085c8d, 0xa12c8af57079b2b15a339d4c302fc262af0153e0dfb4f878a4b6001786ca9a61),
(0x850f9448d3282256940da03fe8a96eaa0f21d02a78867db3e8a9fb9a713e844d, 0x4551e4fe3201ba2c0a74df3af58a820d03a678360a5a8d8259ab24423bfccb7b),
(0xa74816b3f66c1fe49f8e51b18eaf51d9449cd4c054b6dc43682c853b0be39884, 0x4e7d5fb247ed7ea145af0cfdc4cc1059396626e480ec804f15ecef7eb372f7fc),
(0x2af5c56fc71da217079abcc173412016e1eb702d6b98af7785ead6b77b20136d, 0x7f3110a2c6a82623b2c49e95a31a6b8e783911d90b5329321b65154186b706bd),
(0x9291ec91a61adf1e90d63135fae60edb1a313714972609039684fee4339b5834, 0xd530506be8b0dbb3fc09649f1832de93feef42bcade2de09bac1dd17bdd03884),
(0x160ad3c3659a781604e9cb474e18ff6ba8581fd1823ce8e114444292cc605b54, 0x1618464d5f28d719a61f939eb1eb91d90a59f2c1818dbb58b6e1f426a4d141fe),
(0x352599bb8640920c2d85a5d7673dad8dea4280f86358a572b407193460ba9d58, 0xa78a591be8064f2b22d7707ad3c95cacaa2ac3d8638d564a50f7d1c28b538d0c),
(0xec20efbd9a8c634d92f7a7281e9e15d5adb37ce12236bf334d12c4fb7b6ba527, 0xacdb29bc2a5a31153919315e27af9d8ae8c54792fd5421e2a9a57b3b0d51b70d),
(0x40d1e4da8bdac6ec55ee847dc59781e9bbd387851863c64c5cfad460e2dbebc3, 0xc630581cb7c92e68a67c7d5bdba3ec184e3755ff27fb53acd3a2655a316e9ab0),
(0xfbe127402faadf2e2b1ac1c398b66df481674c2df0ffb5127dbba4440e7d08c7, 0xd00edcd7f97914d03ac8718214491698f3dfee34e6e8587c52f2f7b8b7f412d6),
(0xd781b5a747d191fb8850fbd80fb1e1234070d9d62643008bb0cd930dc191eb03, 0xa4aa95a25c74ab55f95f2924519b29119762ef30248db792d906b18f346afa11),
(0x6472fc42d926bc7c115045d00395b5e922790c39ee52052944a446f09ccf02cd, 0x00512014a92593dee2264e37633c842b045d1ab50e2ad06863db78944605a99d),
(0xeee180c2e09601e86a517a9354607a2c5fa6cf264c80ffd2c5715ed6395e0c21, 0xc8cba798221d6fc5b4fdaff70f785ca349490af1ae655711e06496697483e7ea),
(0x900b262da172ad4115bec071c57630779103bed4db500ab4fad4b75045ada2d6, 0x316457f2bbadfe913f418e7fb3fa34d482c4c1d8516755aa371423e051e2cbaf),
(0x7e93db874e1e5070772d3371b9ef29d15d5e03b1e66bce20420801a213a34c9e, 0xcdeaa624750032a6f5faa0fee00cdc1063f3ec47b5bfb56abc2c2339e38465a8),
(0x461fb42465f3a55de66761b844abfe3ad172877a03edb1f5da98c82f89a379ca, 0x768261fdba032718f5501dadc05e41c11f584aa66b8e732b7f15285b18e815d9),
(0x1d9f581af0f61a0fe5d0f0cc91ba4f936de28aa65f35059e997de7789419e09f, 0x7fe9c98c7d59dc56160302e189676f543f02db1d622251f8adf369b4891bf6cd),
(0x8cd70b52904b2aa7240f7a70e4efe37966386dff3ccdf62be2343821767542c6, 0xb3c3d03f4c7e0b1f00f08bb2f72bc6ba0e9e293d886541f1ff86bec9b5ddc2f2),
(0xa0b547ea9c08865b99a5b8b3800daefd99097b234e442a2e819aa628eb4a5261, 0x607ef115e585100dc003cb4e1a27eb60fd9d1e18f2d23a2280cddd89f2ca2952),
(0xea8a60f6547038e3683a649c27e81ab4192406f55fdbd77578dd63604344d289, 0x98afcac0b05ad5ea8fcb9f3e3bc22f16881b5fcf5060c691ac10f74679822fb0),
(0xe6051a9d0882f9ef77d488fe55bb782948bce5069135075501a8cd4a14b0a711, 0x1c9cdabe9d9eb555cb9257b8a60af75cc1ec0c824d933498ffaa14f62e920fce),
(0x600876c9c50fd33706ce5efbc07e0e5b165338c54f8eaa4b39a525e988765674, 0x401a671ef52b21f383df5da0aa0b215bb044202e606a746a213796e4dbea4189),
(0x3b045b9c5ef6fdd09b3efe12169e04143c0eca565b7e0185274f1e97f6b2ff40, 0xaa5773acb21107c42a8085d05d6914c3a135a47bcb136dfad20e681362780a28),
(0xdce98d32ee0b55e04d67807fded9cef5f9504b1de552a2dc643ee7f4b1f0f1b6, 0xd03ac27c9e992497cbb746d67acf5427aba058e2801df1b8d435a1de1f3fb086),
(0x365b11486e8a60fe8a91c07a93686787dd5aea7f22fa144958be984ce378fd76, 0x2c7f5217319e5d504c5ecbbcbdbb8ec1b36e276754f405c3f852b761ef01c9c0),
(0x2e37935a4dc465edee8dc3cad4ede3563c3720e857c986cbb9c73b2eab6b5806, 0xbd0873f15278f46d802dc7f9d7f81a4a839cb69010c6d522c0e3945d4bce346b),
(0x049b68e193745ad7b60ddf9270d7195881cd85856e47b0bb00fbae94f1647568, 0xca1d4bf0013e43ef53bcb2d05f4b85be1dc82d310f4a7795755693c072819dc1)]

/-- secp256k1_pre_g[3136..3199], /repo/src/precomputed_ecmult.c:3176-3239 -/
def g06_1 : List (Nat × Nat) := [
(0x6df53d6cc79c5a882c2b6f66e9ede0756c8cc6ba3e60620cb8130fccfa744564, 0x48c3d6ed3b2b7c592472f29141a614954597f77cafb576e1729804d126431344),
(0xd99f8f069104e3b926163672767145a22f9467c1c8e32b8bd28e170dbf4865a1, 0xccfc46b055aa5d9364e67c4e2c06cb18c2b43333e4111479fd1bfe5052543d7f),
(0x77727c17ebbf8338ba8075728558a059e23af7fdc68c342a538ead93e59930d1, 0xa037dc7e2cde18020fe3bc6575f50ca4ede75194133e708366de033840c629ea),
(0x1d40ead8563a4ff7c14c84cfad1339ac36ae378999ec266377e0ca2f6be22604, 0x8497b443b093917fee65a5ac1c4dfb873a6b0c2da968d713a711ec1220d1face),
(0x02a39f41adf5ab3371a27c2051840d37e322699917a3d0ef40590710406bfae0, 0x0cdaf7a858e99fb823a36b048e844c188dd1a49ec70488ed155f2ac6905c27c5),
(0x0aaae4b1d8b08cc48971cc92fd974a2166f5ea92b6ce215e2813708819c684e0, 0x09237995c10a348a84fd5cd505151e33c63739d13a425bdea34d78e9e3cd8f0c),
(0xa5b0c042591a53b6334939d29ac2c9e211315a54831ef440965fdafce6477d40, 0xac3e7cfd5d1f0248b362b206b3c7dd60bc9904c8d2a416d7e117a5cc04a62ca6),
(0x0c1b7164e6166a96a8f643b47f094be43c16e3b503ebf5a12782e41f27c63f0b, 0x8469161a4ffaf1ff5b50ba811de3ac79e34810bf73ed1207fcc0f01e75663a98),
(0x098fd8254b7963f04d8e0f2c8eb26dd0342e605d8fdf28b457b98e14adca63bc, 0xe297a80d213f666477f9dba65cbcb99d2dc14325be12098f22061115b1a192d6),
(0xf1f0864971b6ed492d34127d8c2e6f1948c464cd816acdc163eb3aad594c3281, 0x026ae2a0f9e04fa913b8954d85602e6f506a0de52fdec31a346338ab00f31f5c),
(0x0ff470cdc324d2aca63441eac0506fb5b63af83a61a23a9117240e23930dd197, 0xe601f66bb18e77e84607a772a1efa73b30734b4b8fd31eba5a5260d25627788f),
(0x90eabc6d968aa196b5808127baabbaa8ad0f82b9332ed6dcd04442dfbc6c63a6, 0xd6df0f67ffb23cd72dffc4be44476b2b2faed3e3dcdc30f94c1fa4eebb5038f1),
(0xe217b126acc507a1b41e0826b300363ebc0a43b6feaf3866ecd4b8bbcc7e11af, 0x7eb28def83db33d58b8eb7332b27a386921e3a5fb0321ecda8d1fc6e49e98f30),
(0x2a196fd582b85d5e1772bc2184d8aad2b5d008eec795628d20de68a9fce1d184, 0x994b4657ee9ee3d4fdf8dc8ccad2ff1f68526c6789d822300c3399f662201303),
(0xbc9e3bc83a6eca7e8a9897c81118f7beca770cbd7e66c2e61321d0267ade4342, 0x9d7ef7e2d544a561ab89929175f35d24e2b076612f84b0a3f346542d714f3f4b),
(0xff2813f3842a9f84fea9e3676f12f2097e76b8ede691ccdf6f6512aab2f198b3, 0x206e3bd666d0c161ac6de4380809f485b8b6682af402bf7618a484a2c3fe1949),
(0x6e7599df2d38d63ebe1423210769d7ca34a50bbe4e0adbaf6c7479b8d1af05f7, 0x233dcf1d4b0e4d884a9ed56eb6b4946b25614345ecd182cd5556faa5e3654c8d),
(0x1edd9cd56c82eb2814d844d1a9e5c1678397662eb576f9f9ba25071933666146, 0xa00f4a850b2ee83e949b5cb04d16820e39d48ddc95dd965fe24251be3df43f4c),
(0x2723de061f794cd776a4a090738a81ea818a2f7392d7ab0718d79fb6407324af, 0x35c7a9bef9810c503c53429e344ab88838daad7277cd0e783db1c1fec6bbf41f),
(0x4c4fb2444cb54def6d9659eeb43c13c23874ec2ba7c6b53af469ca26ab9a213d, 0xbbd2eafe56447a9ffeb9ad15349b338fd4a1aed85a356472082751e55b8efa3d),
(0x736359f7347995a88e3069771fb3fbcd12847ed28e4e612f25095720667593e3, 0x23bb37ed4bce051235a215ca6b8f9868e303fda480d655f972c95bf912bd3741),
(0x15cb9594ee936bd14b98139460879bee6f33b0f7c0ccb293825794d985f595be, 0xaaad772a2ec81ab6013775e9edb274efe2e133e65e58949ac7f25429fb1bb152),
(0x3b5489ab97e5cf1e84a90eb820b8772adf574777a61f0a9b41e6c5676be78fa4, 0x145d13c8e9674a17ccecad63f113d64a0d59a1ebbbb10cf9e7134cf6562219be),
(0x78d1b99aa6f9d385b09bec7bb59ce26b23323e4c3a259c5668417597a29dd2f5, 0x1c8d11f8e883b210cf54369ce9f6a280a6b890ce15b4a0ef3cd8837b7e16a122),
(0x385e4e8c5ceffbbd3a813e3f0938912ed2fd2d182be8121070cd15fb39661e85, 0xf4a1c4149f5cfbc5213ceb21c1cc08cac9b168e258cdec7036e2dacbab68069c),
(0x310f8c70d8e46c6e48930df3c53e9292a7c87230292d6b1fc28d9711951aec6a, 0x6fe319d3c92c07b256715154d5d7046f59d92d5f6dcedefdb0386f5c3417146f),
(0x764f3c3023d1d50ae170b80d48d58923c1f91a964221091294066585d7c70bbb, 0xbd92fb1abecdb4a0ed941146878c99cfc3ee9eb8c8f2b8e4b547cb40e3dca724),
(0x3d5d23bab357a37f1bd3c86f84010b8ab37a80753c47b1ab36f7ef72a3e68126, 0x2bbd1841bdcf0265838893c5f5f9c0dd7ccbb461093068e08211595d6b34255b),
(0xa70431adcdfc7b8bfebd2affd6759e946d4ddd7d50f50dc087e256b82a7f8a1e, 0x3ca4362b9362b2eac33d77e8befeccb82316392186ff5f20384247f59147f593),
(0x2a3882122c1b2ecf3c8004327c5dd4032263e9da245dc697bf7d63e6300e8a7d, 0xac96d18853b87bf03dc5f2fafa9b73a9a339c0d9a7245175fd72c82212f6ff78),
(0xe99c59a40ae3022eb50bc545f57e301356b49bff33069a9ab4d17c0a424b5451, 0x29b24b79fe55fab76c3737b561505916b4fe1a9820837349baf445d62e9bada0),
(0xa0a42ed1bd5ac5edf63f1a3c3c3fe2d3c0be26d6b0da384bf19c034e083306d4, 0xc39ff3d2d44423747a293e288c320ee88aad0879672679e4e5bcf6115ca0bbc3),
(0xb952e5d69ba9f063f1d1670e1419730f5cc17e870b6f0b01c0b86ebbc09e0053, 0xc1e8099fa230b8da6e71c9b5bbf250ae273a4f9af53cd0ca0fe8f0c72dc46ae0),
(0x3aee273a130f5f4e463892b4512621c9be83c18c655d5a2e620f83fe95a4e904, 0xedf475c6921fb6dcf2c3c6a0b93f94709237b0359e8c9131eb7eeb0fbf0af7e7),
(0x096ddcdcdc65af06acb10d91b87827fcaa2f9e65d28d044965ce255dba66ceac, 0x2e6d036817fd4024c830d4fe310bbc239e2bf37e60203584215f852ed100ab39),
(0xfd50f406c757ec9db10e111c32941fa1e0d07ae79e3584d5af45fae4d30334a3, 0x71b77494d49c068fc7db1d364f8db288ed9ccb0ec6137348324f4bcfd53fde6f),
(0x6f2d8268119545230614915c9568ab9bbd061112bca3ba77d3c64f916ba097d1, 0xabe41199849ca7c4d317fe722a5647a297261d68d025f5afe880ef7834787a87),
(0xd88c0db76dffb62a27683d2ce832a3129c5099dbe2623c9d3f06424721cc1400, 0x5134f15adf6d7e925d81726df08732b6ba5aa289431bb4ea542e63528dcec51f),
(0xa8de9ae4ddde3f28ead013632202fe4cb6c0fd4aa71d5562d95f557e747105fe, 0x179e946b5a71b61490bc39a517dc752a536820436efa907e0383e3daa3be8803),
(0x626c6827f7dc3d409daa481180e65b0d799c94efe48077ae6eb250aa8fcd45ac, 0x03d659db87cf7b2832e4a2db8db88e5eb30b7ea107819c00fcec5d6331bf2f32),
(0x028a3a2cf00efa47db4b2ef69f56cf021666ebefb52204955b5484f42ca77d02, 0x08dd00edfc9870ed99ce90fb927086c70fc168379794db01f7799b168393c82b),
(0xdf0b029f27c46405245d0dc2f178a48ec3b672757fb92bd5dbb29370c1545786, 0xf133ed05c7e159a8810a5ad4e1019f15757b474bfea1679c6ccd18a402a1099a),
(0xdc6f57af9c1e0be52d2162a4e8a6b63a0c5497834c7c2c8b421bbc5fdc1a49ef, 0x6f586aafe610fe5c962ee20d9b389bab66fca44a1c19379e9e97e10410f1a0c4),
(0xdb796ea2e0d2c69019adcc0fa81c1d938162472ea0e3eac4bf13b398b255cd15, 0x2e60c6a732e1fb44641e07662191e28e7937542043bdb3e29474313c7d05ac88),
(0x569b669e72ea98fda5ba3efce74f88ce881fe26930b063ca059fe36935633a2d, 0xbadd8eaf2551f8725db3f7406eb5e376220b6a6fff4f8ca2f76b7755f8ca0c8c),
(0x361324201f9a33bbd4b6b6f0e2d175c6ec79511185fd2451421ac33378468ae4, 0xf47b56cef7bc73666eeba1351475648662a58e170d955dee2821618ffb3c4314),
(0xcdeb20371e4d2014918fa243182db0ff855a0783c92fd5b1b604ed33494a469c, 0x7d3c77186829381d2fd0098bc84ee506970a7ed55518b393a83c6f79d8dfa7d8),
(0x6035cfa9d750c5ec00d3b721ade88fffff6c4d74f8db7755c8717cfc171598ef, 0xfe1798da160b2436412dcde65482d2029bb129d7d58c9cb749f9fdb607dd675a),
(0xb1f52e97e49998e4e0e75b0c047178f4bb250b5d97d92ac18dc9e41a3b79c0f7, 0xd83f3d654e4cfd8c5f24370ca2651c5fde484cf81024f33d8087a50ad3df795f),
(0xaa799b5304c73da09f011395dd5f709bf1a5e05642536477d7862b216df1b641, 0x3a327047b5e95b64593f68879f38aa86dd592007cbbe7338a003d2d333248646),
(0xda4a196445bdf4fc479e56b66d339a45262d629bdd8c63c18d35e9bba445aa03, 0x7b3a5eda25cc63a4066cff29634d5eca353376e726c2c6d563f3f92cb69cb70d),
(0xc300b4adc2346d0d433eba80f0eef0717e620d46a07b384c231e733fa1b8d656, 0x32083bb948d27ac7f36aa439a100b95af73448da454de3566f4a8771e3cdba42),
(0xc559a52867937244d639bf7b090df2b2ed64a907e20cebe76a358b2b94359f04, 0x9fcac1aa5c08c98320d671b563f4434a806d78da159644740d2470cd49bf5977),
(0x39b101470a46dbf4f074bca9a83c10b1b0911cebd3e795fa9b96333bdfe83540, 0xad35dcc8c3b227434daaa313cd6334e0168da417d162855e642941962d308278),
(0x39c9cab7d2dec6017f840597019994c94129ab2ea2779d6b34774a042f7d6d42, 0xc73ebd6b835a8a13354cdd4537ddfb3e72ca72b4c80493623afdce9e43781845),
(0x1a6259988a30b462adec60972e218ec3f8f81c4d44131466fc7b5eeeeec679ed, 0x739beabb01a97c9bbf6776e62e213bd73651a39dba042037bf5f8cdd334114ab),
(0x396ed910cd35c308d412761ebf283a9885f33ecc3ef643bf3f422dfaea4c4308, 0x721cdda6a08a614a4dc48cf8442a46b13945e15883671b7f556d19e1144dfe57),
(0xa50e06e8a2e8ccfd94aee96ab0bd831c83e1534025e3abecaf7b7af39b299a47, 0x593205b259a18063fe5a4575e8e085e14521fc1a3ab5e14f3fcd64fe2bbeba52),
(0x4a9f802317b0d1c0e62c8bcf7393fa34dbe15cd646e8f4a3dc3f26b711c3e1de, 0x040eff6d00915fffcdb30c24434e8928239867c3962655ac2894bea9f7c6bb71),
(0x8ce5e20d9decb7e610b18562e2ffbb887f32326255ed9f055d2da2fc8d608b73, 0x0eb69b6cf363e16400e92371b592727a63f024b2aa7011b54f1f698e1ac720de),
(0xf32695d79b53e9e51f2525e28a5540ed84143ed63700be0a36726f9bb483f24b, 0xe8d36488eea2055f6592ca1f6fe234931d81bd161c61523ef1ee1907c08471c8),
(0x3826fd863bf6592e5b51ad1406e02089d927488125d259594856de1dd6c34d07, 0xea86f1e6a29035c743e82058a7ff9f82020da001a8901e9726583b1cffe4cc83),
(0x7b1afcd32e32b0f51ba098684ec72762ae8611a898e87ddd0dc6410a40ccd551, 0xdeba6ef779e1093108036ee39bb6d0a8a3ce0eb0bc5620efc70828d3d2e37884),
(0x3eb1fdfed2c27587540d39b1b66a36d18dedddcc7f7f7b63348460c135a91bd4, 0xb8aeaaca536ae794619506cca812a67a642c53458cfcf7b9eb898f96d26b36cb)]

/-- secp256k1_pre_g[3200..3263], /repo/src/precomputed_ecmult.c:3240-3303 -/
def g06_2 : List (Nat × Nat) := [
(0x9d61dac8aae9fc5f532290cb683eea2eb71b4d9e901b7c45c214beb59b56da8f, 0x2e7caca42ea1b22e7024fc3ee267ce99280a8f1e78a2a2717938762b3a446036),
(0x2db372dc3167faa8e8e1e37a85ed5546e91a43effddba39be38d0eae3e11c7d8, 0x16ab6f61bc1abd6a16e79697fb59f0e884f00534b71963809b06e10b59707ffe),
(0x98f7cef9f7a2b538538e83cc9ad3132a5b03dd67f7fc40302ff023d28805dc80, 0x3b40f8232813e6c6bd56df891e96a175468bedd3f9518dd8d658105faeb98943),
(0xeeab2e6cc8ab0d24d5df58528a89db42c48f08614d488c7a363cd195edb62548, 0x607c41ed65d3328d72be25030f5edf14523a7f74402822cc01709927c82649da),
(0x955feeffb2161c703469a9d6c5fb31b7b7cb5ed1ada6b5376d935705b3db942a, 0xa9195a48a561c3420779c9846a710059283fcd0a682cb5a3fdf48ee415c0864b),
(0x219a4d2d70d2ee9ed3c8f5411cdac36f4db23bdda981a5c9d44ce5acdccd85a7, 0x6744196843008ec171284aef2c64f7dd3dbfdda905c6c8e470a564f5c4ef53b4),
(0x4976290d7794b1612e2f5cbd282c10360d594571722e28a5ed542972f91ddb23, 0x4cfd95f160fc56552fc8354b446dc51023571c2456f57aec79004616ce17ebc4),
(0x472d53e0268ead1dbbbb99ed599f56761866e0b3c14d4a4b5c44d722b072b1c1, 0xe9b9c0096115d4d4a8ed42e31d967b89e4dfe82bec642db8e31693ecc2831232),
(0x2a6f5b7e7a4db95caf875d6175a6e1b03f3462fbc0dd5d50da3327b470ab18ef, 0x91b247a392aadc197d9f5b78f0b013cec9f3724ea2f373479ade7e038659d506),
(0xdc1815a3bf48d81bb5e5e654fe0c8c3c7431a62b9d1065ba17df9c4523146c19, 0xfe20729a311550f0e47e2af74747effad837c5f7b08c8f36d0fbdf2fd594be8f),
(0x8e7953ecad8feeb897a95db4f03ffb98a8b47ecf3e68bc4f1df0b6e698397776, 0x5dadf2ef81b21cc426c40a3951f3146212f7c6fcdabb5157893b1637c141ac5d),
(0xa4d91e6b49d5724b9e899fe1c6686c89faf96a056e666a7472ee44cc119b41a5, 0xabd686150e296498f5abb820cbdcfc26fef10b2aba72e47414ae9de1960a4893),
(0xb97081a4f3e426b9d3a66dd608e0e442754c4922acae141dd02948436b00eee9, 0x558f6c8399214bb4baa9cb6411550b122c8c2f778e28a4f1ea61ed6cb8f153da),
(0x6882b6ed82279bce70a73c6ef6412c54b873a5a6b634a25ea8c34210fb825848, 0xc6fdeee9c8233e392ea79c616689e8a31e3a3b0921f2b5aed6b9e14b9ff21b3b),
(0x9c5427311c715709cabbf11fa4fdeb3d1a0dba80ad50d1a462c7ee1a44717fe8, 0xaa041b1078163458c446bd40ca77f760ef4b6471c4f2058d7ea42975d1f2b045),
(0x73a14da6776b5c12e838779de3be58de4a5ed91703b195d93577330c780cd32c, 0xc4068ffde98ec4d5a7467bb7e8bf2c89ceb58574cccb3a78b0ce4a707ad2c49c),
(0x6488a28627d26c4dbade9d261e6ddb7e8748d835d9def8ebfdc6c576b6af91b5, 0x27f8b1f0b05011918af0916a945bb07f3c7f069505ada697b5c601bd3d6d8ff3),
(0x96546e7a5b544c98db9ee2ef47dcfbcecca1d38e1978f71bd8c9d4d05151046c, 0xd04fe32f8fe9ecff220f07d22095c9823b10f772b261189e84160ca705f4309d),
(0xba046f564598b143a02cdb90972022ede769986c82d28066761463ed8cfecdf8, 0xfc6e23abd42457c15407d37c0d3d9daa3e57bc0d0778dd68536032323e27250f),
(0x39554751e633ca7ddf6d82ed086a82045e76557fb13ca7df310b80af5ad0e4ec, 0xa456ba84f040f20e977df5e95faa3f67cdb2ba3c2fb9bb4f89486b02a06d3b1c),
(0xc5f550e75fef9fd70d96c92411046c3dba56b8d700e1b17cd46a68a4989c22aa, 0x548582e03aeab617556a987acee7d0fb8d65ea42dc8f2cc2173c363627ac3fa9),
(0x2ccc1610a48d8db39a80b2a0ee063a4326d4ba7579b2727eb999aacd6e5fa050, 0xde6dd7db2114002c08dcb17b179e5843fa205d694928eb70a073f97ff8348c84),
(0x93b07ce73e941c841e4089ff2d8e64643ae59cf8fe6e92c5add89e10f7084b3f, 0x0a6c0476c5a7267e54ec362d3629a1ae533efcfee18d3634cb5a80e44018fa63),
(0x453c01f055c146795e3aeec826859b16b0ec270761cbba3e438c05665a91e7e9, 0xf28eaec9b9d3c8a22ef738436088425b0e14ac99e52e73d98745bc49a56766b2),
(0x3c6df1fdac078c28a0a148fad15595b8c1d09a4c04a967946f8d6465e80f12f1, 0x4619a84d4eaa134ba06a68212e7ed292d443db5c0150b54f6dfcf26782a5b58d),
(0x1b7f6968399597853054298959020dbff12054f92705efd600dcc58311b98630, 0x279dc63ee3e8fa8cfbd731c9b88ec6f067ee9e15d0c14a37372d9c200c645c25),
(0xe1b7b9539d49d0b99b90a64274d2276c6256f2f69cd0300697ad842fbffccc19, 0x2b23b96f51dc65698504628b19e81534f2acfedb27f93316fd0dd8d0d5f9500f),
(0x404cf0c56fbf42334bd5f79bba97464f9ce5525fa56212bf4bc817c8af54f911, 0xb5920609883005885c61a6e075e3657a023c04b579897c0f2e22ca641f1ef662),
(0x43f1d986da626bd8efee817fa09a3440e7819aec17ea971f43fe2ec90caae0c1, 0xc5fa5ace0ce891aad2811f518175179f3e93f4382b3ab583e51a200b2a74f9ad),
(0xa18845c6b320995116a183b81b7621127bbcaae8b67ee8fcd23ecaf60c5b9c1f, 0x980ed5d9d7e07e6b2cfc5350e818671b8f54e7f15cebbb02dfcc2951bbef1f44),
(0x04d9c7eb0af99824605cc17be03c929c254c38adc026d5aa2a304920e7ac01ed, 0xc64c5b35bb0dce532273cf00f3360f7497065bb99fa9b1c970d41c1953e781d3),
(0xe18d22f2fbc3db09bcd317833e8aa60555953ef704c64814edaeadc897e7c25d, 0xcc258a817115207224f7989dfcaa87000f15b8b285700b5953ef2a22efc7e07e),
(0x160575f9f220904f8d2ec9a60c1417e835083aa79bc37d5a3c8bdbe52a47879d, 0x1e56b4a6127e978d41191c60ad439fed2c38704b309d34ce0d655f935279a5e5),
(0x3b651bc757b1d6264d6b7ebdd3c5355b4c3c9f6aa1437e53f9aa03725192d514, 0x977a8774959903120ff1d8ec5dc8a49e5feb285a08a1e2e419e5618680231c3f),
(0x9085bdef56facc0276025015498ab286a9660e961fd6bb0cd9579a8f16ba532a, 0xfd05d108a557559c5e7f791d90e80e7b68364c168f6b93b8c55510f17ae9fe89),
(0x4224306df64a3862fd33aab8c1f0ace867cf1b2576e1cc21fef45448e40569ec, 0x8740b6675279bc1dce887c2dc59e42e463e72395ff9672498bd13d58f60661bc),
(0xb73766974a512e31a6f806b35bc55ee6e0e2b2c0ff5a09182f83ca35dc22935c, 0xd350c8202676fadeee4152a248fd5cbd890b3e039d68846251c2a08285420103),
(0x73ba4f8ed3b5d4d0a7c505ab1c1a7486bb82e068cba81574557424da4d0eb97a, 0x93af3914552dc360549b4a2d0863d3f93a58ba9b72541215adca4bfe26188271),
(0x285a014e174724d98f0576c45694b0520ae935406bce1bef0524be036fd3d8ea, 0x6fdad1d8d2ce7757e6ff5213f91d4db79d406765968ce8cab393e7c86a9af7dc),
(0xb0934dd727bfb54ba2a5cea7c6f8c0ab84c2fd78eca0d180963869dec28e768f, 0xdcaf0d1156029f314bebbb26edb09913484c94f7d14d71bf2bc709d8f0b982c6),
(0x3b627add8b69a9dcb751c8bccef15d0affcb49cf357bb65ec45c8c0f5b681561, 0x0bda198009e380b72da133649d27cff7693cd2bba77215e1536296fcdc46d19d),
(0x7e48fdec1f2289dfa052e3f9a4766daae45938765c8aa7c90a62a36952cb5ac2, 0xe87af87aac11688566e1e10c5bedb49d68449b8e612939ac61e384b9bd8cb5f2),
(0x4031f08a5de33bbab6a2c267feec2e40d094d890caa1008b181ce43e263ffd9d, 0xcfdc4fd99737a5f09a789beb91dfef45a8f23be311b946b58a79b7f051b0be07),
(0xba652b7c61dddbb5bf6e656f4d441cc0ec00a22c7b900b1dd5407ebf931ed764, 0x87fcb392d1228156a330b5d8d3c67e001d2070959a590088a3b44d0700029556),
(0xfb936572d1017653ac7dd95d2d8c30f362c967b9ba0d3b1bffdc1ed06590e72d, 0xadfa37afdb6b6a310a7799659958be2e940382466b4a4587b08798824836d8ed),
(0x294473cb5e7c0852f7c6fdb78861129db97ff3281968514899198870b03bae7b, 0xbd905536f991867a78a09f951bd5b4a078463e5a6c767617246eec387d90c86a),
(0x2fc0f44f73a633fd91737ced1683b74c7687dc8c6d3a4c0944a6c873c5bc574e, 0x29917ceeffa063f94e9499912ae373ebac572f509a45118415e073541d22ad1f),
(0x811fb251882c5a7ef59d34f2c8ed8a318da210dc83bb8c40b9ac0251116d569e, 0x74df65472cb55afa4ee04ad3f940de6ad480e40705c3cc00ad291918d8a0c55d),
(0x45a9e17cc1d6cf091f451894ad4e7e53c47996c582fdc57ba9e7e614b7fc5d07, 0x5169dc4f002661f5fb2d1920089832b74e19196dc37fdbbb16d1caad7b069be1),
(0xd577f7fc45cda7ad4743d96aab5c7bd4abd06538b78c0102645d09aeb5588e67, 0x55172b717ea257dfced1db6188c78cea765e2c2c30bfd25e52107128303be07a),
(0xa6429a958098aa6e39b71e08d4b0cefe4fb22d8b777a59c0650e11b19b06e44f, 0xaf494e625587055dcac440f5786240ab36ab1825f2c3a7dcf6aa64b1947dd2ed),
(0x0f77c304b89314b4258b1c80cf478ee850bca37a63e2067907396967a39a743d, 0xc487a17629d914be6084521360f40f191c32f414558e2c727e78637f8dc1c7ee),
(0x41c6f2f61598124771ff0a82e1ededeacd76ea2ffb2f9f5def76616596d1c988, 0x58a0f544146c1a075ff9ed4ff9b687c63642770e45dbf1d3407b52a905accb68),
(0xc8724ec8c13d37af09eaaacb35765e3f7ac2d2d71fdb5916cdf66ed32eb968d0, 0x70ecf72142103e6de7d4bbf242bd9a6e6ade66eda78629895ecd255e44d81221),
(0xe2888c460dd58e36be2204a2b75fab663b139e4ae070c650653ba9f3ff1fbbf2, 0x715910dae1393b8ab7d88879720bd601bc1584989522108c3312b3532342509e),
(0xf1f4c384d72d80b86b5999c9aaa66f99f56cf73611ea9ec1c14ac36f66d834dd, 0xb5543bc2480142c8ebb8527a3c9aa7862198388a696b3c44835e737524cc7e3f),
(0x487477f5832fb7db0768d4126edd7f5a17aec3a63419de73f61812b431940a5b, 0x90322dde4203fa98bc44e3dc32a6d56a0284f55636db7c54c5f78d5e1b2608a7),
(0xa726963a583167e24b8f957e0b3ee9f50c55df029fe1229bff8af03714ca75af, 0x8fd7a984d68929c081154d156b6541ff4a63692553a5a32d99f6516dc08f7449),
(0xd4c20db4cf80eb1c9d93a231e699a68cbaa763c2e20130338762ac5b8b99e97c, 0xba1c77ba2555a50c84aa207139190a35f5abc50e0589287a426c6f9f6ceca01f),
(0x07cf9c5389ae702bbedb5a55ad8d0f365159ba1dac56fafafa59efe23a748168, 0xece3b324338c7bbca2cec347c31348ef489bee0a6ea4296f6ec38502b72336b8),
(0x920108e3c1ebd4af3979f9c30326806feec92833b4dbaf496992541b44b73e55, 0x3e22b133d8adc4834f03f348eba48e656cf8f478524f5395ba92e20095f466fc),
(0x1566af8a98c487629b3613372ad32a53fc76053849566a8a4feb69c426479e90, 0x2848c5664bd72be4c797db9862fe1c7b0da5d3baeb3f7926daba8516da997796),
(0xa4db5e7102eb8cebc7d7a70412b0a8b1d2f6d9be271ef044c0f76abcaf61723c, 0x663e16e075a73dddf604bc0a27a9407b272f5f2af2b9f6a56958c8cac42e8ca4),
(0xd0c9cf538bbdb8f90625d1106c79cf1b33d90e7760778c138493bca78d53e5fb, 0xb6ecce0e8b9fd407cc0a21250b8bd30c9975ad8807dc1bd9683790638a1d9a60)]

/-- secp256k1_pre_g[3264..3327], /repo/src/precomputed_ecmult.c:3304-3367 -/
def g06_3 : List (Nat × Nat) := [
(0x765fba92480f57bd70596d67bcf3a3894a58d51454e3a04ce657ce78ffd8391f, 0x5cb1dbba1035350e5a3b552e3f41ab4c50879bbd5f3ae3dbaf6ec9021e18302f),
(0x9f9da9e8e846702b4aaa7b9b68b652f89bd3f88e5af4a5032c51ee6f8bfb4a5e, 0x5dbd499d7ecf17b0eb17320ca0688aca1d8da08dd2c0684dedfa2d7f5696a0f6),
(0xaf86c83bdb95894b72fb1a1661aef5f0ad949c9cb465a5bfb119202213fdd3f4, 0xec06827d55410119603d2b25cc41c26f004a7bb9b1b88e55123f3c12d799e117),
(0xfbb489932fccbc8d0772b3fcc80be33b64c8e3b22ccbb09cd94fa350fd587e77, 0x0f9cdd24279333dab3451abd634075a658598ad4257bbe0481111b6cd8c0b858),
(0x40ecb1a3ad97c2af62b15ecae2adc9c0621f36f890a9269bae6edc1e7ed60684, 0xff9ec194fa3a617d920e3e2b32301fb99a41f4b3ed9845f288daa0053558b32e),
(0x31f892f10c762b42fcbd9014bfe0238f39873c30c7d3b6919736009c18878f52, 0xd9bd5005f31f734553131066ef6b92c15cd610b8f7d4fff7be53673495718c95),
(0xba122529e9f6051e2d94d150c5d7739f921f81938cab68f31c696fc824886c5c, 0xc33c071f7e9bd5391b0577d337ac9c207c02859cc396bc20d9c7249a856b1ed1),
(0x353164129a26d311c993ecbc5b9a0263ef45d993d58158c5030c215f2924cf03, 0x86a620d9521623bb9ce3e2d9c5b6385bf92ef06f91834e3f6a9c6d357a3a9742),
(0x3024770be4134aa635ece92ca4ec7f9c4a4aa7ac7851b3ebf9718a2152c8e462, 0x1fcfafbd72147afe16dc1579ce7384e4ab3f8faaf818d225bbceb050ffc8c8ee),
(0xf5ba313da40ee86c5b6dbf169941d8e2533c1ba64dd0871a672d01c86bda6564, 0x010a910db9697907c96e95ec155576498f965282437f58c72944bbadb800647d),
(0x685e17e2972ccd0534f7f426b18c9518e485a23e132c18ebb33b59c57264e2f1, 0x96545b38be84aac1a77a3f4751156daf470fd42ddea0fa0cb930144eb9f291c6),
(0xe01285fdfacc9822a59e1bca7e91c07dfdd481dc61d268e0504f65d19bf119eb, 0xae82153a2479dabaef83615ba7202b9940bf5b5e41c650630f77d6e59dc39909),
(0xc61e4586327710ec784d6720093201e493798a937635f220b5421cb055839601, 0xe461fbf5aa5b64e7a1e3e0163ba555ca5d42fcf17433c26dcdeb8cb2746c04ea),
(0x1c427acb4e5890b6e24d8ca2513b61d93106fc3490029af3be87d65f1fd192d4, 0x1d96e0251518528b9bb04fa6ec3430a184935ad5ee8ae3e9c9cec0c436cf29d0),
(0x5e577bfd6d51897b4b6ddb3ba7d470b85a932619b5982f54431df6f1f12fd8e7, 0xc1a172929734c19d3a836e908a5a7fd0123cb044c7ad1ff9203d4d79211c6eb4),
(0xcc78b3331f968a40bafaefc8dfbcadf2adc6ae766d3ea8a68173b40a28237b30, 0x5b7691b20a5bc068ff1ef04b41238cb4dfc2ce7c9436f8aa14eb0a4045857d42),
(0x3855c437487b44f29e5dc288faf3eceac445372a95adc16a0b1830a4ec919fb6, 0xdf2e1e9a48cbfa2854fbcd5b308bdbd5ed1949f5e1a3951911c287c8289359d2),
(0xc05233b40a83356fc5ffcf6b97db3d6cdc62cb21b7de7c928f158466b9d16b19, 0x0b1bda390ce788473fa0eac651e8de54956616f51623327525ee3bf79e54f500),
(0x6c064d3cf34226a7d9a000245901f3550b736c1e6561810b455e7dec099dfffb, 0x160d9442d25ec1a1f80f8fd2a1c5c42eaa54447728d242e9925824cd609eb9a7),
(0x9658eb8970bb1aa51b61a93a00de6a7db3e207724789d009bf37ba9d8b714cf2, 0xcd4ba4aff7da8f8b7821a903f40d89e096be8949997d5ff7a58301ea92c51cc2),
(0x6e023910a5546f7091f2b0c4c3f996f75cf1f969a71c31b87a3e7ea64bb4f0c8, 0xf6ed65d790ec734dd9ed8cfc7d8921b87faa9b36651c358999b9addb34c459c5),
(0x3a35ac98e9700499f903528e0330537f9262901bd60c7a141e68f89954c7ff6e, 0x913d9516da631c305394ac0c9eda38241f247ff8a7644eb6c4d38da1972069ed),
(0xd089fa5115dfaa45a8b6def30b1948be2317c66f249763db07350e57076af212, 0x4e6ae973f326fac477a5120cf3ffa113a18e5dac4a190f6ab12fdc8318a6da9c),
(0xe733c52f2aa62ab4748ea0f233d9531c5b9cd9d5f790b6ab045bb2c20d8cf2ef, 0x701155c93c677293acb23ab28d7ff75336ac488570c52d89fb80ddf1d582a291),
(0x4b6f7b7dc006684fe64aa6f242babf861eb4770bb8195b9be8caf763e7f14c7a, 0x6c58b780ac757b330c1805d8a53a04c97bfaea05d8f21d5a2b0645eb2194e00d),
(0x1b520402cd1fac0a0c4d7aeb8c552e7344ff51c23b4778b481126e5fe267f79d, 0x08ee0d0056649304a0c4ee9439add4d830b252f1093d93c19e8ec37537db1a39),
(0x8936e6d5d7f1ed85fc2da4c638a885e63400cc3f43d864f5bf9af2beb97139b1, 0x29812a20b4b932a3770cdc8a6fd326258879f217a5bd7c4778d2b041829b402b),
(0x6808ae7f4813554daa36c043a55d9171aebd396f5ba1a1eec4f11045c96b518f, 0x6afcae6e88728ddc578e85fd5f41575cf581b9837c749c2231b993a59c425810),
(0x586c669444c73f661211bba7601d800993e2329355a9b10f2367924a35a2cd1c, 0x74b0901ff6eba3cb408f5507d37cb7c7873537ddef0671c8862012acfe5416c7),
(0x789c825ddeadf1e04c788453e918541e0b183aa599ccc66b07897be81ff89e11, 0x8106aa6f641bb13c6be7480b89f98a9be40cc357ffe9903cb8f78938e46cb5ab),
(0xd7ab80bbfd26faa6620d0ddf97f64bcae520426ee1d8e076acd7cfbea9419797, 0x26af9f72a6d1b103aef4a85f5139d14e6e50a58b9f32eefbc718453790c5a823),
(0x18f712d44daf1ab84612b311b1ebc418bddf0f33ca02b3154c256d2f36f67f7f, 0xc40b1950f92fd4ceedb3c3f434ff7bf86b06d8d3215d3ee9f2d9bda6077d25bc),
(0x8873276d9f6d188f78e2a7cbf998bcc6fc399d3221de85b3eb9e6ea6c7e5a06e, 0x297e81378ee9b9e8ee820a3a7e566178dac97743c04b6b4e054a7081e7c9e1a6),
(0x101b81015bd217ebc08f57cdfdf431cc30fadd664df791571452ca66c688e0ad, 0xfa6c1b2fad203831185816d40a8f8dc94c7542b46c94dab339b737185d179e6a),
(0x77b3c15776c3146011e520a8cb2071fbabe3b3ca2984bb6cd81d4c537f42dd57, 0x8d0bceb1dab601b71c084c9b443ef5ac040cce5d14f0c24492589905fc4a645a),
(0x151f2d5256ac60b6ff7aca338ba66f12fbe2c18933c805d3ecf6a6a0fddaec7a, 0xd2aacd7710cd4bf9917038d649e94235c4833c889cd57ea674ece9f0764f62d6),
(0xdd75cf27f41e417b46338dbe24b46df89508811c111bd1a2029a3809171d32c7, 0xe328b855a3389b804ab03c33cc91d86cee22170cd8fb53dd46c3222419b67be5),
(0x0faa1febbdd1d9c49de366ab3f661b1e6a3f6b76335b428a494d7eee791d7a83, 0xdf361d4f8fce02ab8c248ee561e46555948bb29d81a569c413b5713db825d572),
(0x3cc10dbe5bc2bb31fddee65b66789594a4cadadf8c6a7545671dafed4d8f8be5, 0x802d45ef8c66ad6f0e692a3a9d42c9747101120aea42510dbc08e6577039c2df),
(0x9544e725325dec1c914dee7f752802e1856cc485035e3a1eaf576beca7b93ba2, 0xcec7dba681513c04ebf39b03717338ccaaf137dde5087686aad83115deeeeb49),
(0x94a0fbdcd5d062367b17ff8b4dcdf6c154eec66e2779deac038be37c9f83a964, 0xf25f34fd5ef06c81b7223e169a42e2e3fea742135a2a30e576f29ef4cfefe82a),
(0x989e29b2c3fc7e2f695fbd4bf217ba4314f67c3b09f77633100e84b3c6b579c7, 0x608a6d280cd0029702b4f3e9917daaf9ed003a4301c2277117250efdb621c888),
(0xc38c5fc44295a59d3b0e979b05934ac249b4bd5ce94097f1c81064bf073494a5, 0x16240bf6d354b36a648e471ae0ebc1671d1dbc717cbeeecb7600462d61d1e2fb),
(0xde9cf66735c4046c58b41d8c5c658efa07dc656b7ad877e1546c138f0fa7a63b, 0x2fc2824fba9162e3e23729275448010becc19de7d9b94cb757586de3506639ac),
(0x024cfd37e56708b5079d84b388c33c9ff1dd9e084675a3c4c8c440c0f6c06522, 0x1cbcc8ea09820157b4b4d28955ac86721aee676acdb7df007383ac79c42af897),
(0x9d6e31086ad8b9b62f4414a95e091e9d2b275d8f62641ed726421639e87cc121, 0xb924700a6792a67d4dab59ad5a743cf043c46ab4de751bca757979b6ead3abe0),
(0x052a89ae28b28395739c21e538ed38df74aea22dd2765d38673be0808609354d, 0xc183ed579b65830bd37cccd2076b2f61469b06d5987b5708089c5b1ed8334e51),
(0x2ffd3272491d1807243f5d31d727caf5cda3bf8c2c17255046bd3420da27571d, 0x812e8fbd6f38b334a31e48be6deaef58599934b5d3419d52131cc9a6535b6ad5),
(0x5d60c6094269a43a35e51b66db193b1665df689c270662f2eba959c59c973fca, 0xf591324fd1afd6192b31bb7e3f40cd406d3b9285969c448a3aff1f48850efadc),
(0x23e0c40abfe53353f4426340e1c1b5604c86daf985784d0ae6da6b4b3d12ff75, 0xe90844b5fc86092a091baf68280ca144f19d5a799bacf827f992151128191d9d),
(0x945818ab5d4a1c12ca6f20d77f37da8050e67d7930bd2bb1155885ce7c6094f6, 0xb5f2c1d0e2f9ae6daa669c969ededb6032ca8163fafcbb6f9a11cd564a695e03),
(0xd1f4db7d2586bf6a187a469ca0cd7bcd5043be5d6206d24bc41ecd8fd8724c8c, 0x64054f8277c4774bbd480ce9b2929c66b1525eab01c6f365a1ca5ace12206839),
(0x4f5c4d4f24586e9c1a85f2d5b42a3d11158b4f2a5cf75e1860f7f4ecec14a18d, 0x57576e716d5479606953be2be7ffbec21e48bb9e970fb350986b4a31b0efdbe5),
(0xc13b605bdcb31443d8a3cf5c5e4f903d3f8edfc501e9a118c3840cb94998150a, 0x8dce2eaf99f1fbf52e62a8ea948b01c06c368e49f41922b52f603cb216cb8435),
(0x1937b32ab66f254e4964a5b5a1ceeb5ba3df2466e266975339174cd02429cbb6, 0x9712b0a06f1b075cbbceabb053fffb1b0181e079813e022bb57017380ef2e385),
(0xe4a5333f2f1772f3084ef386c3be1f58d757bbdb7ad2c4d747e61b07419ba2e4, 0xe84f7da72ec2e4b90389b7178bc15642132571cc9bc14c7c5af14a7acb6b6f56),
(0x2f8a38b0a3f42a8c5080a0cf5cc1085dd57a8341ae154dcffc7fdb4b5606cca6, 0x8764c6a52c301db656408d9c4eed62942fa2a72e1b1264f1134f38c68e4681c1),
(0x03d2bdc2c51c2d77b6c585b63ceab5feacd14599b841870b8735712a81a55ff7, 0x33f749adbbe263dfa99a808ff0476e4492246036a3e8b5e9496b8dcdb6d3e9e0),
(0xfc87f808d6764ce3376b9acf62bfa3e21ecec21522dbdb3e6e5f3cc1efab7d3a, 0xce75eb03c1f4f93770815dd8750a4ac1c0343024ce1bc581717cb9712835176a),
(0x7f81b85c62dee11ebe8885dc0cc98485323549521c7e6cb4374270bf5b1e68d5, 0xb7adef7d6a84db61c15ba062d96cf7391750aa4aed5c97f3ad70d2a76a9c4558),
(0xd618d43f7afd3ae5e8dd8f47f62ef91e33cc8f893c21688c8268b903e1fd5557, 0x6180817b0c8ab9b082b212679900c7e442ce9e8dfc8c3fb4fc5bcaa6e0cd34b8),
(0xba5a4c4ff2379b06daff540fc8383b9b694430bcdf76c9310ccf94cb896e4940, 0x3a221d1a0b138e6f4ed309b24f2e933325299de5534a528db91075a8fd07b1f2),
(0xc69189b60bee3746883591415b35bac380136395c83098abcec29fa318cfdf56, 0xa185dbc2b862da3acdc232fa7e3407b19795e61e29b7a79c5828bd49d739268c),
(0x51f67d44032fb401ab863423b99d403a70dffd8687e5ad71bcd3732c1cefae12, 0x88b17485a2c404a32bcae68a3cbf21660403e23f8a64df5ca8eb2d9461e10e59)]

/-- secp256k1_pre_g[3328..3391], /repo/src/precomputed_ecmult.c:3368-3431 -/
def g06_4 : List (Nat × Nat) := [
(0xcdacfe09e5585f8d4346fb69a94b8b656001e117ed3cca36fa8bee6deb7c4bd5, 0xddf1bc5a993131d015812176206699d7af5fc40359455ecefdb844926e028542),
(0x8129e771e1fce4769c701d70cce90888481eaaa1d1661be319f33c938bf0e769, 0x3eb5713da864bc5639ed8b6f974966af8a4db189b5446d700d40a816f045c6e2),
(0xb97062ef6d415bc0f302fc0f8aa730d4f39c14aaf82889ada68132bf5abce3ab, 0x8ad70688cd76c93cfd8dfdd38522247c6644c9e5511168290490f313d53db3a6),
(0x19c3c98b4e811b5fea5d6af8c4e86be650de67ec5154bca422a6a14f4f0bd913, 0xbc523f9648bdc99330e1b5c7385097cbc18b9d5e924767bdd5d746faa190a109),
(0xb9ef34c73616ee74b1ebe43f889118e20ad7697befe6355967a9b3c2b5b42b9c, 0x12f1cdddd55b1ac1b89be2715e623952e8dc05aa3570e2543b70ea685b661bea),
(0x7718e34f58e2cdb580f9c39a96d84dc759dd2a3ebdebaca86e8edb97f503c34a, 0xa6d105fbdc0841b812dcd8f96c4bd17dcf5e37288e0e309313567b1003e96df7),
(0xdab3884b8e6de73763bba89b8d35a369e259c1b18afb6ed621fcc871c77e8dba, 0xf44b6f29c59a2d422babd4b5edb4a009c9316e092aef953ee503a27814a11577),
(0xcb3d0e101139782de5e6a8978b5be6dfa6736751e847ca1876aedab1e67f4366, 0x27fe888dd227943e67969b33be48f1d9572aff6769c150cf189f9709bd57d3ea),
(0xeb1b1ff855619d4108d193dbbf62b4b7656ea5646ea2e79fcca7fb3be8c3c6a0, 0xc27fa0c75b73d5c1d711374140384565d36ae93a49b327a5cedd03c962282ea4),
(0x5d5079e60bc40f11f75a111703ab6bdcbee8f9f3d2e57aeb587097861c39c5dd, 0x14ae112ba40db9d5dd65829b4be7bdf94d8435de01872bab80581221446e46d0),
(0x01060ef76beb6af06d28acd26b214bb1b708098de0300502384fcc0aa1a7b38e, 0xce40f39ff6c6c6429585464daa2183d734252c055207e2e275d0ec48c3bdf9a3),
(0x9651c463c001f7318947c271ac274529e7bcc89470d63e1afd723873aa170695, 0x4e362e7fe8ff06da73d6d17fe8b63c993b16ba7a5a9b154d21837fb0e654eaf7),
(0x5c422b76592821b42f6822cdcb428b19895cda4cd224400ee0928f271f363dcc, 0x2fdb4f4f9e4c77ca3448258f0f6c07f54cb6b4d81528148444e5fcf6492b9400),
(0xdb147d2b5d98250d73a3ce519452cc4aab3868a6cd4f43d2b7224d93a9faba2c, 0x73254380ad3c6acdfa343227a72996849fdebffe064c49258a391a7a050ed0de),
(0x9a6763a0f97abfd1652237678881e899e1beca26ed84d384a41d16cbe5454b4c, 0xbb51407db6aa581732f1a3d551082908e7952f7592c8bcb2737a01d33890306a),
(0x36fe7933e9108af4f4e5c889ef94f58407b45a9e8c52000007db6a000e5daea8, 0xd024a5baecdd5a21c8c3a0f4a71e15c31943c7bb66b459e27fc85bb425227ee5),
(0x40dae663f04f7e680ce782fb8752968144c749ea5b7386afc445568a3bc784e7, 0x49a463fdac6bcdd002458c85423cf252cea2ab4744b16bb9478111765755050b),
(0x0ba1616dc8fff3b08e8c6d10b15afd9dda55faba79fa8a7542c5c9cbadc5b8d1, 0xef096c42a6233c661965a3aceca095b27710455e5f0e10197641ab25b0a786ff),
(0x30486f6723a549524d68c948dbc71273d69b4a0505fb9e7da702d027619c4a66, 0x38ca4d4d279ec9c085ea63695470a4b9fd6acc6d9a049ab65743ecbac2444c76),
(0x1b83ee9495ead1d580f67174dec2a026d6accd939a89d97090f25bc8d9e6932a, 0x0196d448fb5e4851e1b73d6da2e7d0eb3d2630349c2b3e0e34584bc1d6e20196),
(0x4ea9dc2eedfa5a112fa766715c1579d9328b6132014ee64f2e30f10cb7517396, 0x7414efc96ef83e295883f0b14019b41cd4a192d9d06cac9c21e8f0f5b06e50c2),
(0x4166c19dbee9ad0883b217aa3b65743687677792d5cb9b311a097fcd2eb033da, 0x62c5065c5fae6aa6932b4d29ab375ac6b80e113fd38d81f8abc236eb7eed541c),
(0xb17567ebb112f54a69c511a87d3d2f96bbbc6686af8e3f310a2bbe0a85a74899, 0xf66763413788be54ae3fc6934b8936dfa6936721c671cbb1bdbfd72d4c9f52c2),
(0xcd2b65152ab97f34089d81fdf3513131a6df06850502210212c2b8a9be8095a5, 0xcfe7952f9ca4193515ee40c72d44d02322afff84b8700bb45f492e31e78f6a53),
(0x375603c49f33140a03241a72907ac0c72086c9793aeaf74a447320973618229f, 0x7bb740f66322a773e11ddb46300975dbde08ba13844806996681637beb85e837),
(0x102067d4390a3dd96d83c176f341dde97e10955d2e001632978f202eefbb7432, 0x7cf6cfd54d28ccc3a7019f11b6ba9df61d8b7eef7e70722dafa81a2f839ba83e),
(0x47617e73e3fbc53ba703042cf8b48fad374ef42fe8c2dd544fb7625cde63081d, 0x1fa4f4230c92a95bb2c40f07f43caaff50cbae6787c3e2a0e4782f39c1d439e8),
(0x2c431baf57f750629f57aac08e28a06046b814bd318d74ca82e1174e0f880f84, 0xddb9e7bc68574b32c10041089853f41e62755a52ac58badbb8ee58c6f209de50),
(0x919636438143b6e419b86b1f79b708ab3f4df44b0d774b41338570dd8343d599, 0x9034ee177171a0d29fb91d6826b87bbc021be33490f4404969622a8b76312f0d),
(0xbf28c201af656c7b838d42db95683b06028718592b016ddda4a4f7f7c4b7754e, 0x0bbd4f04dda510d2a8a66c2f46ab0681ce6ffb5aac320e20c50b6df3a345d109),
(0xfcac7386021825f44e1d531bf598e40b1aa4262ca5aeb5a1babb4f359518b137, 0x3b196b7a957bbea1f3f2d1e41ba37eef7dcca7fe87e7c5936ffff68552e67b64),
(0x9cfea1dfcaaee192141f0278e467f8098ad89cc9b47ed9823029c1dd726e9331, 0x72d81e4e7f30ee058fd0b64695086e3096a071c15b75df470b10146b18db211d),
(0x548d3f42123553c7965c7f21f2802c30455c515199b98e201e966f346a1334da, 0x0612ea25cebb03d289538eeb15b9468608c0afb10311278a42694a0e956418ae),
(0xe5be619accf84c2609b5c545e8c4990eebd46756c628de22a6c8bdd674295bc0, 0x640864a57d841af7ad83aa74fa858b9189e246cf9b361837a742e2a071b08bf3),
(0xb560933e3400ed4aeea8f733d2368c8fa260460df734e209e194e9aea1ac668f, 0x5438f93d313378539feab1826cf17bbcac0975f4de29a8861b1c0c022c5f9da3),
(0x21dd9a97baca3e79077ecf7dd74433fddedf2d968c3153c02c652aa21ccf60b1, 0xde6e60e0e048b0b7b699bbd7cda0c0c9b851c4cd34f4b8d917c07cd02684797e),
(0x5cfa560c6d39439b4c9b0a52f9bda3012f14787448c9ff37bcaf2900fd934bbd, 0xc7927a630cc1959bf3556998ce936f2929d5a5d33f0dda3235affab9a5b11b06),
(0x4a3b95bb05adcd415036204b394fcc956377afe7b4902f490461c4b6866d4fc6, 0xd59e3ee2f1bd1e4cc089179a4db9387d8d6be47bdf7080232a0d00afa8e84f2f),
(0xcc49a3130b4c69c913c06b7badd06f17404edb0adcdb3d4a81c4b76535f4671f, 0x4bd722ecc35e525eaf36c1943d375592ba4837152c7a91b24dd57a89687bc278),
(0x9d75085a7426a69d9ccf4f900d8b4ee0e07fdac018df3d3740b264ccd4146d98, 0x05991253de04b32d04772f44de49467dce174ae93f941ae6a4f6e3c22cc4b0a9),
(0xdfd064df737bdadd2eb12cf5d9f1e192caa87c0efad20d18b95b0d0683210fb8, 0x519f883da5bf8d33050b1d2b89012fd59f3172993eae122613d81b929103805a),
(0x2b50a35cd2356c35d609013ea66318bc1cf20582685c12e3bf618102807eaf9a, 0x07d0b51d303aeefeb81f5a77d9b5829efdf4241e435380f6ce74abab1dc76335),
(0xe26e8f4b2cf175e7c76e2a59459cd45e0f3202f33027f0c370481fa8685abbc7, 0x4c82e7baaa0d516153076702997c34dd716e5fe2460eac0f194f72fc3ac2013a),
(0x5903db7d54f4d8576a584057ce78dc071fd90e51f825c959b46d34835d0f87fb, 0xc55e2fd3e9ce119e47c003329d18d6f7febf9440a18de0f3816080111e9e99c8),
(0x4bbb0ecd0342a82dc8b881e9635241b61040e6ee28b98204fde953d44d25e9c1, 0x012eb0900f3445b752abee8d604e8784082e97e9b44d23358211a8c82cb0ef04),
(0x04a2455aae87bf97c6e6eb38fd3279e27029967d41b9575b647550f94bc4e8d2, 0x5a340ac4ffe3bee62d52bea1e276178f09af3422f9c61c474a59555073936074),
(0xf086d68dc8ca19aa54c329c4c07b530f94470abddce244ad1decaf8753477623, 0x911c49d384a16af165be4161cc4869ab4d9e8ba2808afd8020d30971b4bdbd08),
(0x4f1b177e83b76c4e24a53f912095f1b5d4b7cdf729788cb4c989f921b7ba856c, 0xa5568c4eb060909afc3dc2ff5bb9534b99debb690dc0b811e10447057d80eaf2),
(0xeba8789929a7e45a23d2fcbc0884778dc4fb5ae7fa67954c7653430397db5823, 0xe6f8c729b357091709fc46b47f03af9e801b26a61724aafee730217a2dcbf68f),
(0xdf117b1334c9a5a792d580844444559f130ee53989cc6e7d87723b63a82282c2, 0xdd87ca578eea3c512aec5492ea55111c1a2fc55d4e2335a8c9be5641516f7120),
(0xd775543b3e68ab88036eaa1bdf5f6a061f5768e4baa01a68621321c6e6ee82c5, 0x70221b0547c973983cee7a26c4197f9c27a2bf4610506e180493a9ee1881436e),
(0xa7f10dd55a231ae5abc5c61168cd58ca5e006f7ffdf064c71482febf4578515d, 0x492a33a7b66b9694e225eb38d1d99399b2c24af20d69c31eb4797a9e703c13b0),
(0xc79545ef3119abd911336c86c6b748460801c6b3812da05b05d36e9c620120ec, 0x24c8fcdb95b6eae451473f8ef7dea06c738a33c4f1214382bd7204ddd3c28718),
(0x098bab5e744f888f5f843ba29e2104a3afa14dd66a2206ec8e783e0c52c2cb11, 0x83b5699fe5e87ed8c51d929b8146bcd6a7abaed4636afcbe0b2c30d2bcb94df6),
(0x6dce28287b6fa44ac8213053d39dfff560d84a84ac264110547752efdcac586e, 0x1e1eb62ab9d60cc45ab2fa8dd065d1a4c79be39953578a5cadcfc629e237ed66),
(0x0e386a59287a73c9306b091b5b24ad8fdb06a9dd08f6f0c1b7fb0ace623dfa83, 0x4a7e73da663b64a5e624ce899e16fcd5c0d3b22142284ed6852960a9d05b34e6),
(0x8fdff782e62fbe3198c283fc9b9543accea0a3182626d18004beaa27ea4fe4d5, 0xfef8f4719fe0d95b673ed6508107e887a4f5301f4317c708c5222d2aac086675),
(0x4c9093ae7842b14801bbb8b84ea564e936ed1cc435c89089a10e0442292eaa37, 0x2d68333493d245fae5ac0903fe9356f78642362bf85a7426ea2950a0a65298dd),
(0xcc0634c55c5c52a9d92b80f9be072a35056318c6fd76cf2fe866d5ba33103a1b, 0x750b7d41b13cb69e6d236eb087fc86004004aa771b699e887e8f0b08d07f0b32),
(0x9749a67341fa7ac58bd33f5f9cca4ad91d53c7eccff766569a56f71e3b918255, 0xb685f1c1009dc7d67692a2aafe37d9da5e68fd69cfa58d870ec6ced868916068),
(0xb04abcefb57862f205a57fdcb7da0b1ba25bd25372bd91bc9e0377b4697d8e75, 0x50479a6466ad4be3489b58690d8b9bbe62dcb8afda8e7d4278b5014a19e168f6),
(0xd11f7de85481fbedf1a3b395785f00d6295059b7c804976822624e8545c78902, 0x1d163368be0c12901a7369d811266982b48928cb448039c3173336586f5c3416),
(0xa21c65f465c4c7a4093225af73b63cb2fd615160b29b2b90970b880b5756fd4b, 0x69a26b89394de60e7dde34767048a29557f1e3e25f7a586c7666aa309345ecfe),
(0x53c626fbb080360e9243d3999a58ced036ccda8b186c76a4fdeefee16a497a1f, 0xad92600862a7ff1e519106fb933616a808264d7ac40476bbeda7e1b7742ac9b7)]

/-- secp256k1_pre_g[3392..3455], /repo/src/precomputed_ecmult.c:3432-3495 -/
def g06_5 : List (Nat × Nat) := [
(0xcf67b5871b2a3ad8d0364fcc8741f10a11d9693311b7287060116c4e74e6ff0e, 0x2c963b7c10ccd74ef68ac068cce1e30a7be6537f259abcae6d36d29d22b68422),
(0x050216d808cc870029da89a4b34cde0d36428829de9f58d731ecd6a6c90b4bc7, 0x920c1df096bc48918defce322a512d5a36f65d7e65525e0c123d9fa749e38b21),
(0x1d845594f4686fbb7b0cc62daf790aff3d6000bde26ec1a267766c3d93d1aef3, 0xeae11ba6bd9dda02ef1340351847dc6c92450b36cd6a973425c09f9f3134d260),
(0x11ad4f50b6c5b97d0767d590859e2ab52e7750a56f7e70c3d5c52bb79e4785e1, 0x2c2bba368725d9c502152496f14cfa711826e846fbf7e7ac4e263db5a8023b94),
(0x3568d27cd72373e129a4a51986082a1ff76ee425969d6e3d12b242b0bd49388c, 0x0e36dfa96d09404716e35668010a8e578eff108d839cf3daf04c76d58754fdb3),
(0x3772ab3545e09d0c5d2abb919700774246310f72bdc0b8abafaa2c17f17801d7, 0x25229a8ceae0c7462d7a50cda8b012e0775693af8edb7260053400420a78884e),
(0x8151b24f72c4701ae4624779c8b93ad244f3b299d1ee131fa13054e5c29274f2, 0x5893830725ffd619de73fca050c28d77734207244d2e4c9986ed5512b8bb6429),
(0x46a4855ad4101f8c60c597050e5370801b57a81d9227f4c8692349465d539c9a, 0x8fa66dcf21117195e2c117ae0e2f20bb9517ad245fea8864beed3e6889e36b59),
(0x0b81bd543e654f3deec15001c38bd2a4efa7c45f4ece2d4f0fd893c615803d16, 0x15c3f7aa31299a76344316228f93b6a32b3947fe5a894c4a75d2ba014e9d3e75),
(0x3e169a1cf2a0324d2478c05494d58801423f10f24cfc9faba5cd5cad012e7706, 0x20405bddd814ac7c53469075a700b4bf004d454bfca920f98692356219389135),
(0x74283e4ab161b33f0f67a1b8cde619bf557f39b85443efdf534bdd2d4da65956, 0x22296be289785c046773ad2bc881744d380c17171c77b159bfee3689d0b3df3a),
(0x62715786cb76bc9fb65da0a23b7954e61a617fb4de828092bde3da39ea6b756e, 0x3c27bbe38829a1503b563337bf995110eec54d5821e1f17d34a5fd9052c2db32),
(0x96200105db23b89384336bc9d55967402c93aee2ca35df739c55a0006f7c8aae, 0x3192968d400a2604c80307c5d9865f49ea41cdd8e3fd3b19a2bdfa1784a6ba26),
(0xbd477798bd2691b08cc52fb5cbf8b2c531787535541b5c313aad9696b71d13fb, 0xbe2b51c9a4ab0033c21dae500c4e7b2b51978b394a66d50b6be7e140abddfc3b),
(0xfa149388e46ff849bb5490e83aac678870da101af52dab059039c305475289e7, 0x8455577fa8d856743b32080adcd26a1ec75af3d1c184d5e37f22030b8867b2a7),
(0x4228db830af1ffb1d4bbfae73781a70a8ab50d3c47200e86ff436ae03391ba90, 0x45db1d0ab0e6f0a1801560b6419bd2e32413ddc94b4ad637d4071d8cb7a270a7),
(0xa97ab279fe0df5a03d494c02eb69c6861dc3a39afca2bd49f4161ff30817c85c, 0x5006c8bff128de173d72f99f7cd6deec5d4b74416b1ca2900e535c8dc59bec7d),
(0xc0d46c576bdcc6614e1a3a1cc19fba379f27dc455135eb63f8d44666904c668f, 0x396b60a30b28b2502c97d7ccf93c76093d19172f47fffa71f190936dcb215f58),
(0x73c5d7e04599fa7de09b8c2c25c5bca20b7ae4c6e1b88e636de3363fb1a8dbbd, 0x1d9ed08d558bd64209e986b00c431d6709229adf6fa8dea3faf17da2747bc617),
(0x0370481da2ef48438d897c6ef1a01750b4788c6562ad3ab7bbf3c89ee24827a7, 0xa88b3876c20519011d84acc33000f0f1ccf794b45385aaaa190e435c760fa7b1),
(0x2dcbe3033006f0a499dbb7d8d34790bef2b68cbf649b9d54eda8819d637807ec, 0xb82b46e3c7ab329eb915de2df3fa28d6092cf43d584f9bda5d6f58f71a90c1e1),
(0xf45f3ca916db45c5de35d957c24f7a5944052b64f8f423c908a442f6017bb4b7, 0x79ddf02fb3154d6cda1d6a795c64de615b4a0ff7810bbfc1dad68e60229b5a96),
(0x500caa8bcad0567a465c99bcc4802553ee17346be3a9ae934fe7e95de787605e, 0x40847ed075dfc8d6ae19dccf73ddd2564e1beea47f822a58f0570c62f238370a),
(0x30562986a23962c55b746191e23b893b7bcd8b876fa85557c525eec4d64c3aff, 0x002d5abe41c453831b60c0347bb55464e19d8d988a5d5fe93733750780577a53),
(0xf687d51a32526b729ed3f690be1e6205ec72382b6a30478f63a18e0eb48e422e, 0xefce1b3519c94f7afc54da2ed36b15bcf197e2cea0c2d680211e12ab7d515704),
(0x104a63f0d385351cc9ce207e500ae7eb22199ea7dea65018472884cfa1ca505d, 0x69c2188750b20b3c5af1600a0a2a2edca6de0be933d2e67ce05ac4a830239cc5),
(0x509660994b7b8ca1abf963e2ff4d295aeb3d59bd43029c035e6ac9a3ea80fc6e, 0xd48589cd40d019b181211674854aea3e56be56a7bc8ae51972963adf327287b1),
(0x3106d6e794e5e1351d788e85eb0f2c7c7ac22e9fd1c86a0dd22cf88f54513c95, 0xc05e593c04568cc2992849d84006ae184ad2888c82ce8dfadbf984bd2fa2bca0),
(0x4c967d1c9977bdce84f76ac713b9e5cfd1081b43de681235e7914f6e2059fdce, 0x866470b2a3e99b7415c2cb0983a5c7dcfcc10d02a28e90ee206be515e88968cd),
(0x96319099ae8d77411d8bbb7fbf58f62db4027b02ff5e32b2e4aff9103a781a52, 0x6c1100740daf2849a3b148f8dbba2f0bd776eb4db787ced422edc5f567947389),
(0x7c93bb2387a36cea9dd7406d95af56f2b972242b759728b3bdf30fa358247ee7, 0x21e4de9833487c866da01e16895a0e2417cb34f6e3d64e018f7c4d999e989942),
(0xc65e4a0388de16186d9db143387a3229c764dabb7c6ddcddc3ba919507f1e074, 0xd586d14308005b28cea25a457c45c1fa02137bc2fd78417bdaa499bbcfca658b),
(0xd895a92490c28692bcda380c71d8d1b8381b1fb1a8108f354d9a17d864d674d5, 0xd30bda250a63013f79ef5728dbbcd259c7cf2ba2b00af73d9804f7587fde17f5),
(0x90467c3a5b36b9bbfaffa164063d1f70c892e23a3c7f113227bff1e15fdef988, 0x4ec7019140247d9b3cfccb41ba22ad76205225771e33d568946c8081ea9b15a7),
(0x5cd03d630d0e025a7af268f78f53efc7b4d38e5d58da59810abcad743e294c7e, 0xc3729f6e5517d41cab1510cfee4e0e48f168e04334dd87811a10b70fb42dfb3e),
(0x5130c49c652bc5cea3dd7629bf3622948bf69c02f9806988fc700a250c7e964b, 0x7e46e2194bc9dbd3099f98c7b7a44313a027ef231abe336b7381c2156f2cf563),
(0x95899c2a33b8d4e9139473066b924812261a3155e5a7ddbcc54477968edd34da, 0x8967be99842402929ea7277b5be0d045bac79fb493a08a41d4dc5991da6b7cb3),
(0x039280138cb3e93f7c4650c88184dfcf6e55d2382e75e6049dd6e40ef489745f, 0x70b25e98b897f3a1c89bd6d472f2555a056bdf046fb4379958709471f8006a52),
(0xa47e1331b5fdbedce490497cbff1088dba72070d3cfc7997fa388fc32f80b451, 0xca54b8befff004654086c75bda3ccb9c06244746522124ecec22666ea9576b19),
(0xcc1a608e16c575283cbbb1344083cfd3f1b325cbb48df6c82d50bed1e0cfb96a, 0x5b8aca4467d9b224413b0c9878e09213591b8f87b024bab555120a8338cc6734),
(0xd8354bc7591ebaeb7ae4d1df2db3bde3b7438d1d69b5991a5d70f6c2c3fc3cea, 0xefc896936765f03f2942270397591bed7d95afc729807a31fe266f089eab5ad3),
(0x6ac1c963ceb2740b212ef42e6da07647481ee21c4e3fdd6ff2ae3da28ddef8aa, 0x04fc88171b6d5ae245453c94f5f2031cc52140d70a110d9fb1bbf3e8e5164281),
(0xbe130f59b52e4148f9c47469778fb36e74d4da3d0a00f5c4dddd2e476f18b42d, 0x16dcd9e2f739a58a022a7d761c1cdf61c5b9f8b94644951609398dc1fbc47069),
(0x685db8cc39864a5568b56e5996265bb124ee71f91f9f4f3ffc3c79e6c063bd2f, 0x730a71418e5b2f7c2d333b8e05be302122b396bf9a75f493037bae5c86b50f29),
(0x39f41ff389f74c1a0e25e564b9bc189b0f31f9afcf0ee4eaaad66ee655d743ae, 0xfbea0f6de25d4fee53f0aad09338f73926fdaeb2edf9d8d88e1e520dd66c8622),
(0xd7a6957441bc9639994737b3d483bc0fc29b1b62cbf59f28b12b208c4c20ed1f, 0xce44e2dacdf8158e9c07ca251b9a3d0691eea29f41f824ceef2d631b065ba8cb),
(0x85bad1609139cbb72be8679342b3788422f5981c5fdf30ba4914395ec1eaec9a, 0x99fcd46129e576b2b25c57e88e3fe3ea362055c7843838db4196a485cf14dfec),
(0x2380bac4d428a15923c2ffbe8f17da0974d986fe4210b72d51a1eb8023ea49e5, 0xf4af7313fde4c7f5e45e38bfc4d44bbb3ca1015bd209065e5a6ab0745ed6f54b),
(0xc0561359b7d61dd0e359108df221202b97c1acfb894f4e9e46fc29fd364f9cf2, 0x3c377d801c72a9f62cfea5ff350ceb3275b16103cecf492e02901327d27d83dd),
(0x72c499c10b8f4f2aeb9181d309bba5b276481c040a588fc64ed438c4920c2a06, 0x6c994c8e608253142a34867b1f82bc1af05ff8ffb3045e7a72d01243b2b1ce53),
(0x8de84cbe02b66209f8f8e2f3f06feb4566e02c9cb5df26f884e20454ffcf477d, 0xc7f2f680c4d07d8869348e986a3b7ac2ac9e8542a019f3796410b993742a34a6),
(0xdbfec9d86581d762e5ac8048886b9d2e9a2d02ee63c5f4427d02d12e401710f2, 0x6e611ff9827bb1aca885acb5906648d9b46496a898a13c900048868dc0daafea),
(0x9dd651f86099edd1b3d0ade782aae6b39588dc2a291577f9f2456f23d1d0453d, 0x4f6db617f0d7860e018be81adfb6d773cd3f905f986118455f5a0b05ee715ebd),
(0x2fd8161ac869de35e777a885ee608f96356445f2fa2f33d1926260bf9bd66a15, 0x1d2c21e9674c2d92b64163eb12de634798c6e7a209787daa7c6b4c80fd307f25),
(0x3f25bf8924f505b23f1538ce4940edf48b6d8765f88778a8495e8a84a29dc391, 0x702535830e7e078218ab025252c613b8344382549dc57c30afd472972c8164f2),
(0x3c0f0359d5f72344f8f3d2fe28458f30467dc770b55eab47ff2e1ee26c773f0b, 0x49583a39459f19c45ac50d7874626524b9c25030e45f2c7b12729ca81edb33c7),
(0x56380666ec1b5df236045855fa0dd93c87e38d70fb170dd73be5c30836b73a15, 0x700690f0b210ac6a9aa91252c8af8f60b5cbbf938291fb117bce1f0a759921a7),
(0x71ca710b0b9a5f7fec6b228aaf3fc47e25f90201fbe3c6738bc6d2fa9c9298bd, 0x7dd2528dc0750899b1891287170159aec759bca351e243f8fcc9efe32f9abc89),
(0x78ddec3cc938850e7c2ec20f98e1be3c6ed87fae827c91025112d0b35d264575, 0x19072951766a4050c8585048d6f19e6022b9c163f1799ddfd486dedb3d680321),
(0x9aaebafd8852857e8c67095093dac29a05813249ed03e67f3226ab3c7b4ed70b, 0x8c6a2accb541bd51065e13bca3c4d2f32457bdcc406ba71c7b9cecd34705fffb),
(0x586eca74941180fdda16c7b28b9bf139a3096a6a20ab9bcc6d12be5bdb2f79e2, 0x0b3b1d12361609e5afc5a7f8026a21ea0ac4bfde56016ad5bfde6f93a3488d71),
(0x1857bc3edbe4de2c86fed7d40cc3ee63c0e0b6b136acf97ee36381838d50ddf8, 0xea5e807be7a588cdec759c673584675a8a7fbdb7cc5a1835119a4f648c275363),
(0xaa4cc74407572c620022a6cdbcb8813b6420679627f5f7ba863d856678e5b01a, 0xba969ac9d259244a9a3b7f9bb3821a61a4a97b8daf7e08bff39f099f8fa2f836),
(0x4588ec09591743676885fad0a43d85cf0d6f736bcb276179e794da35204f36aa, 0xfb835e7ecdc681c6ee1c89d10dcbae3ba9511692a54c9c3702f86f4b0cc7c62e)]

/-- secp256k1_pre_g[3456..3519], /repo/src/precomputed_ecmult.c:3496-3559 -/
def g06_6 : List (Nat × Nat) := [
(0x867acd037a3e5f8699e33f2272f7b1fc25ce662205020a4eca3b3111e880653c, 0xe9112ac757d3f9053249ba3cff64640e639cd94e5d6cf946d8d7f3ad25764646),
(0x5e0a4169e4f81dc228ae466309ae3bd4b527814f4616fc13318fd5db26df370b, 0x5bd335a8fc23934ebee2e32c3bacad4cc38cd6248cb34ca9e58f8add3140d001),
(0x9005346939df24181b5b2e5782a82f15542a55a3adfe8263663b4fffb101c0f6, 0x4ff0d589973985f6858f383789c3a5e1744607783a1b1476e3f1ea5137e3d991),
(0xa99439a553df33ba06a32f33d90b15004e2db07722a735618f4c3b0d63cec63f, 0x198e0929f11fc777ea9cd8a2e4e6987e6f9c1fc5f703ce7e7e6423db39656cd4),
(0x51f2a1361381ba14c8fab71df82aa2e71c7789b10b78c355a0e2fdf15f085282, 0xfd5f129fca15fea4d6f23bbe43197a3e6e2b7b2684934ea5a97197cfeb2d16a2),
(0x3a91f81c8b064b2c99509777864c5b4fbed208b8f541f68e820531582ea91d3a, 0x9d59003ad4ae39e195077329e585a8e8a542b594b601040408573a0123a513c9),
(0x71e99d50aa22fa173f026deee728c1145e491e84e140b4621056af199736c5c8, 0xff3e4f77685888467c6627291d947e77699806e39bb0bb2653f67ec4176a4995),
(0xad149e933a0344f73fb53286ace2f3cc46f7450ee859980e6d3920017c8aaa39, 0x7dbf479885a4f354b4f1406039a8378965a5ab3ff1157e3f2a4f6fae909e81bd),
(0x44f0a37f5ad78f6c4a40ca207969105e86e79ed77ebbcc321a247f91751ccb01, 0xf404d867911eb3fbefb1e559066b512870836d9a12891905af649555c353044a),
(0x4f77dcc3de8de08c4c0a4a8b2971786850f5c0e3b271ec1dc0d38a610b30ad5d, 0x73c7424f8ae80ee92118aa5ab0aa65b358dc7300806ef2fa55836a394df57c69),
(0x794a108b102a09236366efd38ef658c16d6d5c24e5e2dc0d38d71371e6005555, 0x871965efefd7905069acf0fdc1f847987c9e304b5fdcbf751a6f6737ce46ba2c),
(0xf1988561234b863adf5bd49f5a0b1252a72e297cea3083a822da48d714e8e594, 0x7adba507d0ab51a18c036612dfda3f8fabd2f573d31aa03fca6eb361a83fc418),
(0x48bed556c07c99e071249b8f7790aaeef3fd27dbf82d1c75491a18bdcc3f4a80, 0x9dae528021be418d1b4dd08cbe5dbca846cf0122d49435438561e55566316e94),
(0xbbfef3fbe53779d38f376fef974bac74ec8449bfc2dc8a1f3bfcb33f943ab9c1, 0xbea5b772ee798affc610e8495be0ea8ced462563848030b08006c6cde312551b),
(0x42af341527b3cd523806b04becc175c4156839afeebc212e00b74bd6095b7f06, 0x686e5fe5ebf16ff62376d096188de980f91a551825bfa1370e7b46df59dcef4f),
(0x3c56d78b74ae87c46efea376d58b7d5e3074972640c24d6938ade12771ce10e6, 0xce97deccf9d1e215d363b36b6ca2bc6c39fed00b511bf8835073275248d54a41),
(0x4b1225991944ef0aae6404a9e48f69ce67b52a1cda4f291d33afdb09b789b61a, 0x5c8be35027a3f9925377932cb6d92bc062b1bc8078e4611bf3ebbe66b6089571),
(0x09e42867c02c9314a3658f1814d8c59d716749552b00be9acd37350d18d49db5, 0x5d26d0351ff90d73d783155dafe20cf039f65b1e6d8d5d0d831977c717a8c761),
(0x9643390c05a953452a027d0d47bf6fa8306ab31e5dbd8b94402db973275359ae, 0xb354d7f71019e9c1d23560d050fbd4bbabbf492df595c0cea699721ab27a3933),
(0x8b4916fb86f77deb505374f901f157821b6f7884feae9f77bacf56207e126b69, 0x009a83c06d86db13055c3d59cbc87faece6d2af364f9c213816cb32628be1fd4),
(0x0d29df4b109782c41f5ee9abb8488f7c11de8efe9552eff37ba3cf0cd0054b9f, 0x1bf06237ea242c4f0bbe08f6a79b6808d1a5a4441989fd1c98a6098140ca07a8),
(0x2aaf397ba5405044539167d055113acbd4a20265206ddede203b8ea721dbd41d, 0x374e32c71132bbac91e4b4a8aa32f308013a81c24f7b3c6663d8821e9ef73081),
(0x2239b3d223eace6b8ebd287c8b6a398c1ca58a945d8b7b817b1133f9cf57ef48, 0xfda880b74b54a8b208af4b2678e03f28f01d70fb3e4ebbda94ccbd43e2b4cd46),
(0x8b3287bcf47e72df7edc917851edb145b88ee2339f254f62e86ec624a7c7e365, 0x54a06bc09f60d54e5f900868c0c3d37cdb6d99691eb605be321f0f2009fecabb),
(0xd9accea33e3cfee910d7e1ff3e87539dace742c724d6d36dd8d981ca984f7993, 0x6adc974aa901e5d2d8cf5a05a20bd02d62947f815425e690565638a8427dc88b),
(0xd7fc57f834c348bde6692b50474ee0384af245da40b8f6b308df2ae5a8b3206d, 0x0b253e4b41fd9fea9b28e04ba6db03240231edb11f9af406e38d2b30244e2d19),
(0x25808fe0ec4a140936b34e16595021e2b815f6607a23d5059ad5b5c314d9588a, 0xd0664ad5b1d46ef88c8a1eefbb9df1ffa75bc16ce8bbcec66f4798f7c58e7b96),
(0xe4474780113955d672152fa570da35a759e67a7629a39ecc3226ea1399927914, 0x493cc170aa2f0486da6834d33566c78ead4eb3d2837ef5eac1adf3f943793bee),
(0xc5040dbe2af9d70676ddd900d00f104644e2b98582d46f1147602b91126311ad, 0x840aab11a2316171cc9b6466778a9ce5a7cabc1b1077586b91a8d280324ddb15),
(0x23391baa316d33eb3a7ca1236c47d4e48116cd4f93bda3a812a228eb437d9f14, 0x1d81341d9e6d76fc01ca69aff6d8d1190bc97c79c7cb8b7f1ebb54f5cb7efd4d),
(0x132117563de3ba722fc6682cbeb394948aeb8fd8c0b95eb945eab34fbc39ac38, 0x9b7727218a4b08237c961431e26cbfb9aa52790541b753df89eb9ad88d74f006),
(0x3b8bb898b27a2fc7a1cf896bbb5cd7e1708b943bafee896d2ff77a95ba789708, 0xd81e541c668003e55a1e13e96a1635de7fdcbf79c34068c9248100c89d36c1cb),
(0xe1d70a2c9af5c4bac505e4f55c0040ffd94f162c815a2e21c7ce899fe0217b4d, 0xb25630d6d20e0e4b3686d66de2b1e53deb063b99e79c212c2fd3cfec97a4532e),
(0x1b1e3823a51778fad38f0c56e2b36dffa7e681c830fb41b5ff1aaa7bd912de1c, 0xf2e99a90a951201dce7258556bf7fd27bebe16268328116cd593ff322584d4c1),
(0x1e31d83894f561912c13481755e467e18745a91c0d903102e48f728221bda7a1, 0x11dcef8835dae18f3c02c6d97f80896e477a7b2741203aee5048c94c7cd610ce),
(0x0cb9ac34795cbc99bf67a7ff2bc3b497311f687a51b5028c422b03018ab7100e, 0x5e5f0621c804b35ce01e95e9a8dc13f7e5ff32dd8a44f32074e448363cd0db1d),
(0xafc34ac4067dad38a0e326fa1a656c4824dcb884f00a20ce56c73835b4e11c1b, 0xc8b1c4043f6d647a382ef031a02c10cb77a033aebfc6dde1d750813628bdcb96),
(0x3a6fc160ca85aba1619430bc0ba14e123330f6367a78273e603f85fbe270aa81, 0x594a2b7286dbb390945a7a483707bc32cb72cfc919c241bb61774dba0222bc0a),
(0xa840f695657c9c3a3f64f56eaf18debdbdc1e4a8e3eaee4346b19601433ce7d4, 0x8a8a7ac0ca41e2df461eae96bc00131b1a77b8247273269d7a41f49fea126fbc),
(0x0c044e0170ec6914c39d08c34a29326865cd7762d6e0f3e55f69d80ae80a39d6, 0x7bd630827ae5151625ee0b5ec2f97b376dd5fd7b9205852a92dbf9223a0b4657),
(0xcb90135b352b969b045eb5c67cfdd2882bf9271a41da4b2aa89dde94eaa00b3a, 0x14cbeca0762d9b11fe4b6d267277a8f7b4dac82c52634b492a84b6162d79be93),
(0xfa7bc437a24dab0f21c7c0633aa4a8ffc821667675ea6963c58c84d00b182a0e, 0xe24267c6d7300c6b6dd09326c49359e0fdf72114401f244b383eee54d1a5aa35),
(0xe6354cdd3f503d2537b2bef991533ad835e956573bc8afcdd0c1c05e57b3299a, 0xd6c17b706291c8a1989955b9ae9ef9c7cdc2b6f3f5cada0a3c4d0b86859ead7f),
(0x9da3653007e815e3df0dce9d50d7d812132ec23d2bf0453b0483af1fbb45cce8, 0xbb37456698a28acea86a1b102909ae913bbc4b2322f4d09ebd298e51d067a8dc),
(0xdc457a1e1a19cdc706ed1c3ba416a88613b2578822d691ba76319b8a38c9d4db, 0x39f93f66de5a650dd49919fa294638a785e25bd8f8285776dfce813fbbdc3b58),
(0xb2377b1f1b1a0e985ff57bc664ca456fec216c6eb7b389a962b9d82accf0374d, 0x383a5580d723509cbf114e74b3eb97467a040fc06232adb5dac199ac77578c1a),
(0x8b1a6446755d3a853851fabeb95c24d82a5a86ce05e5df6578051124acfc7e50, 0x42b885d4cb632a6751a88aef192a5bfded1cd461438cb6231caf33469655cf75),
(0x9408819cbacf1a0c9e5f141623a907a7c3a7efa230a15b3e7d5a6ff25103f5b1, 0xa9758ec9d6f84f73fd107451f0ab79a21df08c30cbb2456b0d6c68cb0c506f98),
(0x8bfef04707b3f8cb99d7c933a884da4e9ce6d473c243d3ee9c319870b06ce25c, 0x8bbcbd870d06af17550d17ee83017c58627f1d84e8a07e37ca73c12cf7e5c498),
(0x02a857f0c12202e11dcb84b8adf582f98eff647fc3803cc0dc1d294b414bdb61, 0x9bac456da7fd9318244af8c648ea23aa62c8ae1daf7fa9afe430efec46db6548),
(0x937b8c5a90485ed30d06b2242ff53e6bb94b1ee6a493c83525e3acb65d5cb5ec, 0xd37b136ff9fb374a50f5a311ae366ca6c9c3d867e9b7e788da3b2766a7ccd808),
(0x5f544d53e2bfd6bed9150ff306a1e5c522b24933489201a065a0e0a03a43c77a, 0xba9c20e28c47cd981752c413070ced328f4c847e20165562c3137e0b12990f51),
(0x67b6338890bf8bafa5b64fa7eb9fa4c9e3249cfa81a55cbd9c297e7aa7c807b9, 0xdc1856752d94b81142b54577edf808a50d871ec16c8ba56762061dbeae7625e6),
(0x587a9dd599cb448f9f92ffa3d6328032b76604d8386a2e2fbd32462898439442, 0x496998e9a893faa7a49e73ca2dbbf533488aa68751ffbdee6b6d6dcddbae9870),
(0x36fb7b1ec576ff9f8107731235d1861218dfe51a58642a568f80294a63c29b38, 0x34a45ac9b82cb1bf2c96fc1a67de8a635c1a158961baf8e8a2f015721566c4aa),
(0x87b71c8ca0afecd2dd8f49c5109ff434ab8a273d4e4efcaef775624c71f4ba95, 0x8519151f5112258876527c56e1e6d9c85b3626a1bd6ad0b81bc382cc525676f9),
(0xacf65cf2805c370ba3bed962c3ba3b0c00056c98b81a696cf433a0e7a463e040, 0xf093929bf45be16af962762b52f57ef2dc7b0e23cd68e3d663b3b40215692d5b),
(0xe092bfed8b010c85b91f167401cdfb1de3e045ba81297f448990475f2147acf1, 0xe0bb9842ecc8683de401607286070da98c4d18af8bdda91b65770a9877902c37),
(0x9bdfd7b98260bcbf17812735c70501dbba386b7f28ece69197c871ca610a52ae, 0x9bc653983f8c4cce731e01baa5f509f4887d9a7840620d9affbcfdeb5e371eeb),
(0x3db22321d93115895c85587a9095421cafc8a80d86a4240e9a4a2f828643545f, 0x42af30b82c57868de0f23c9afb19947efdd6bb454efc68bfddbf73498fb78eae),
(0x0e9d3f14a6a77ffcf86decbdc5e43fa3c3757a6422d37da625627961622b3e5f, 0x83ac0bed1e2a714cc6ed0764da92cc17fd18ee8436d667f02f90f81830e67de7),
(0x412486e4f29b48870e1448af0ad59599b31b90858682580f0891d51e9842f2a4, 0xc31c59318c0d6790c2fbbb039c2e761c0bc5577b53161a8f080d397f0de7ee3d),
(0xe9deec7141ed506fe2dafbe0c9ab75f9609f8422a4b2da267c529d9236b4ddaa, 0x08728544d8463bc2d846029e5d2a0a408dfb767f9adb79eb2209478f6d94a21d),
(0x5a0a2292553c46a0823a17612b8925e1bbf01c2c5bcb71735f0fd6ffb264218a, 0x3097cdf0adda0f10a261f8976447ff9c012de6968f05009ce90d1575e55dbae2)]

/-- secp256k1_pre_g[3520..3583], /repo/src/precomputed_ecmult.c:3560-3623 -/
def g06_7 : List (Nat × Nat) := [
(0x49cb2a378b681ad1ba1dc23d8d12f186563a40f9ce0ffd005bade11a04928d1f, 0xf235e2afc0f65fa0ff15a938ad804a3cfbecc5b6e276bbd632a069593d6732d6),
(0xd4d71cb636881177b05ad510a621cd443dd1afd484d177ccf99abdb91615feb3, 0x3ad65378de3eb9b1606f385fa950d5335316c363fb076c02ac7f12f07562645b),
(0x0591b2e14bdd6e0064f798c314e86cc5529c99b83f47d148b7e3e64235bfab2f, 0x4f686266fd2a4c664d6bbaf12a368d5912a517895d783aeca986a568a8fa59b0),
(0xee503c85c984bc493d7b63c292eac9debe253400f4988086970be23647356876, 0xbd828abb6f9e89cc741704e9614d671139449bb3a7ebdccb976c573c4bdaa47e),
(0x2f9b4fa702e5a1fcca36a3f98987c3af756e78c977fd5697758c95b314b3f89e, 0x9668615b3d5b3c744ea2e1cee909d9c3956657f21a65fcf33f0ea1501ca4a15d),
(0x18b6d06aa34124f85f92b204e2a010aaa1f4aebc06e13a6234eb1c927afd46c3, 0x66cc31b9bdf600b007e624bfa3e079f3258b0ba55437264fb460481d1f4bef4e),
(0x3bc07963bf758dd8fff37d0f030db6eb67662a4d653956881cc30340ddb44ba0, 0x60e11ef268209a1c2df9a3c2276db6f88e6dc1ecb74548a357d770c1ad057e5d),
(0x0bf585d65b325423afd49af30c9fa68a91498b5af0ee9e3dd089b288053a46a8, 0x2f8944e9ea484b9a51256e2cfa9e539604c000c13451cc0594bcf6ade38e66a6),
(0x887c0a2ebe7a02575d5b59a911f40ef8f0cf1438d7f05a7f64e9c133cfb69294, 0x45f334c84f9bc66f50fde594941754919c37c30dd20f6a5840271e7160aec5c9),
(0x9dad7af90a73325c59a17700fc3dc6bc3718e79f804a211601bf9a36622f7d4f, 0x2b7c225e099c6a94c7e326ecb89eb8dd40644bad018931366442985ae6159525),
(0x847e4f9572bd29f74f3e9a2ed73cdfcf63bcb61c9caf86947cb84594a7dd551b, 0xba6ed282e0a92c62fa86286d370cb3440f6f1182a101c4b81ea89a15b393ee16),
(0x25213205df1c36004673c4b449256c70b5d8c62ccdd3d5802684af47f047a593, 0x36dc81de05af4709fae2a47a8a20564795aabfec42a79f3c54763d67ef096837),
(0x75228cd84866df7a4713a25ef2fb29fc95ebfd705d73229ab170cbce1058e87a, 0xfba4879bcc02d3f4fd25f056c085441568a47355929bb812a7dbb30bc012fe6d),
(0x7494553922867c086d02fb07c0424890981a133742c63fe4b6adadbb59b68568, 0x7d7749178df8b19c8af0bf0b5247e7513e3b8d0446465180341ebb541d1af3e2),
(0x69db7f532899e39cfa0cbadfc29946f271d28ce357f47f7a609e0fcbffc9b04f, 0xcb0243bb103255daad423ffee1d50f9f26da7cdd764a11f0a6694b63199feabc),
(0x727ecdc1fb4a0dbe0fd2fc378902f922ec4aedf553dae2251d173c292929f8c7, 0xae5bb2ed13778d6066446ee5e5754db2bfc4f7c164bc035c224d495e651f453b),
(0x903ced8f0ec2544be207f5c9e2c7f2bd912138735eebc382b129e3347ef25b72, 0x2117ca290ee13d315e89bf33afa8b7dbff75c7956be40c8bb2e41cd5943190a6),
(0xc4d467ef5149e1173638a5ad6fd363731c8906f080336ca33a6bbb991a03f33b, 0xea5b5b244c536bcfce3d437eabf2fcec431ad80cff975b63bf3981630629b5c7),
(0x16b577a65f6d09f7b23b2b7add80a2f1cff7a8a6c36bfcf9d325e37cea37326f, 0x066ba8e214674e5e228a65760a52a79184d98be1db1a2dcbe9073934d09f15c1),
(0xad4bcaf2e480adfce1e453846bd7ddf767fceedbd2bf1f5a6768531d9b63412f, 0x51fa036047810f5911b1b3a4525ee72cc4c891b756737f4a0a61a380e9e741ac),
(0xb249eb3852d2e7874a52d776d1bcb39951ca65dedd9e9dd587d73362c33b571a, 0x3e26082414e4ece8083cd84eb177096c62dd7706a79c31d9b110323253a66258),
(0x634192c7696a01ae81310d3a59d2c53b74dd05607e3be9dbccfd1ec4bde14a65, 0x455b4850e366e077d86dcd709c787b184fd4cce44b92954adcbe522257b0e00f),
(0xffbecbf50d433f8049e159ccc14b198aacc3c5edfbb1ace6fd295dcc4a2f5099, 0x422e7aba1ec66cf436489acf9c03ba33dd68d3688a48685caaa1de52440be3c0),
(0x65b4c4dc1067e8239cf4f1a90d0632dab6a8c83b509a75ad8c133dd15c1868af, 0xf7cf5d9dd76546185183f8ae07f42a0320c678179d5226d840dac1e5f94d260e),
(0xd380ecce9d603502d518dbed405b8d0c8de48dbb35d5b55924c1a5609bf9c67e, 0x1ae84480fd18ab109eb0ac15265c609f8b241b4da80b13ae50c35f8fdb64c128),
(0x17189d28b5ce1bbed78a1d9615dd1a503fce43f719d042df63484ff4ce44511c, 0xfbca28f47c7b3e394121b948ba56128985c532988db2fbb57596a473a782350d),
(0xfbe332c2e2a8b07da85ae4e61925bf3d0be685e4fafcdee73f55838280c2e84d, 0xaa9173425e187da0e3f8c6d779b42cbeb11c43e06b594eb30e1a5797ea4e29ca),
(0x8b9e8a878b5e725f8b4bd51822e9cd212100d1f5cdaaf21002d7963ba0bc834f, 0x331fb31cc28f56bd5ff1d6ad80b65702b2e873dc4552c563bed77a08cc3ed659),
(0x97e92411a3c0bcad17a798aceca61ac234e1a68ab668aa3bd730cc8e8de111ca, 0xb0f170a4bac15e172e75fb7593c21a41047949760bafc7eb7cdc4bf16947f48f),
(0x2035881333a13c6ecc8c76f82c27957749aa3c1fd4d516919cd23b25d044eea8, 0x480afaa48c86af0aece2f9517df0f344259fc4f104d9a5c0ee73c891780c7f29),
(0xcaa1eccb1575740a901551039849befe617579e622b7c343a665beb7a67dbcff, 0xaa695bf9f1c972ffb6fd34511bf042d91aee51139c1ea577e0bd52e0a4e0a20b),
(0x8e7c2ba2036f7a8efdaa212a7fd6b883f331049e6e8f2bbd138a3adbc2620719, 0xbd03702f1434fb3f5846c4e2e779f8c0d9b6e0311feced0220a618f82eec105c),
(0xe07dc0336dcd04c1fcfebf0940c0778388fbad118e4eb3b24dd637c7baace975, 0xb13bd0a00e5eecb0762ccf311bd53156ef6f92685004419510d6616ab32a2c2c),
(0x6606c8252679af0109d8a9044db0b28c95aba791d1c3307297afa2dfbb8ce0cb, 0x7505e59ca98079935710de77747868fb10fe6c5736ba20546477cac808e1d3cc),
(0x9fbf4cdcec48226c0b45450fb0de5dae2b31f9352b99e0b522ab99351de6f061, 0xf2e4d0a23da020e860a0d58a2362b7dce9c5b6467034ec91a7dfa6011ef850dd),
(0x0e06d6975195ffc2988b0403e977d32cb7cc8167e800db1b976f6186286916bc, 0x8015370a27d3d2217af80e04a49003ea068302bb0c1a5c8363244c0bc30bb8bb),
(0xadcd67ab021d2aac65112fd4e6e16cd7ff792577e9785a6bcf4a3f0a9293a6e2, 0x6527b62029062aaa05058608f5cc3bad8e4f40d49b5be93d0faa5c2b57fd7fb8),
(0x1d9069eab43a64cb1187e963d96809b35a44731768910e133e0bf7a2e1f2bd38, 0xab03dede854b8fe94ad2f9a68ef5415cfc78c28fa4ec33bbf15df31a91e29108),
(0xf1f6b776b8ec892f148168ae8ce83f4b603206f72a38140e3a422e670a20a768, 0x892ba0363413da2117d9b11a7bb25cd9e7136a7d82a7f45d14abfcb2b9bff25a),
(0xa884f94ace79f4cd0f3a8d1bf8a2dc3bc21d1c23433a7fb00401c5df1efab379, 0x5f53356c6e45248cec282fbeef03ddf7c611affa5d0d3082dd630f80dea05c96),
(0xb1988430197a8800e10165640b48d4f71fb2be0835e9efe981a80f10e61da9ff, 0xd5c7864dea7d12d25be7ace586e141a00e515a415ec70bdf44a68d8e4dd849b9),
(0x15b73aa7529d5b84bd5c1db82b6c93aa46985aae942f6d4d1094434e0d27fedb, 0x297e32a2bc8ad13c42011259b1ca3d40632ac6def2fca262075dabc8ee721f89),
(0x339a76e0443c1fb165992630116e523f8e35cc7a16cd0f3f57f7782c7d97d40f, 0x8990652efecd784c33e7562013b52e6f914f0f6bc413aa229e5bd773cdfe9659),
(0xbef26cfffb80ddab9458312e9b09044bb1c535e184f4e51bf64b5183b67adfef, 0x3818929aef076a8358f20518c5b310f52c6943f21675bbb5ba1bde459d37490b),
(0xcdc56c818dafc2734f4dae1084f91b083dd40d8623125894c71d924308b2427e, 0x0f4b309de9c828b54454256945579f91b43769353f586c71f07107f01f503cca),
(0x3ddefe81b1f38479ec9be80a1961c5fba09312a62a775911cd65200e7d75bc6d, 0x75d83edd1eb9b4794effae4eba8007d27c7e2d510a9e95d3a1e5835856df055d),
(0xda7c677699032cbc4c2bae1259212cf2a18879d263aaf99e7633904110576826, 0x2e7a6d88360ac45b9871f7799e80698e4314cc3c3f1cb1d0c07ae9f338553f08),
(0x2611b435e0bc20c588cfaa8017f4555ab8aba4c4ae1c03859dfaa911aa80d927, 0xeb58f81ae51dc504465ff8c1c0529face47549d2429e5b417ce0cad37d4508d4),
(0xb0fbe54836f07c4aa715aa08806b71d60b8f4c096945a7bc3defec7b67962961, 0xcc60a22466e7744d0c58668fede30ca21c1749b045ee50de2a881a5383e5abe0),
(0x1a03336fdc51ee75facb7688b4603c8677d371eb5ededa9eb50bb49ec9020581, 0x3fcf1b0309c0edf899855fc36acfdbc7bd5071459be7e18ce9f715e498daa7d7),
(0x763a1215c8349155aa849b20f2f68a360cf7289249e4d3c3810ee72f78c159ed, 0x37826a1ccf30e1eda1795fbad1f2f2277b68d5c69ffd390bd7dde5e658482684),
(0x7fc7b4c230183e37dce0a586a6f0188cf7e664d85fa05eff63f2c27dcada4edd, 0xfd7a780e6ea89a06f06493430abe7bcf6338d2fafe457f50ac415c912bed6a8f),
(0x222807c9b0686f550d9eb7d70412588fdc543bfcf016c8d774726135dc65ddd8, 0xb9670902456c22efcb36d155319393da9a34b2b4301c898b43d957b0a56cc2ab),
(0x79d8eb3698d8d06e6ca33f69ca04d3c6db6363460abfd603ed0189f0fc5fda77, 0xbffc97e11b0234a98dd1d460e19db522931fd49e26d7ab28f132651723d955f1),
(0xa23666188e72e1b6d5ab77130decf6e31f801a6aac88ddc5d464d127ebadd34b, 0xef23da36f3e719132774cd1cd150ffb070e99ac85193faebb1736abe77d60ed1),
(0xb6bad04ddde6816d9123e8e743fa46a5b1fcbdb3fa1f13be480fc1bb49dd9612, 0x585fae09a290b273a68b7f34645b80b1850c6507d959b5467f1b0100b6a4e511),
(0x2bf21c253353e715283113db8bb5018d33fcbd58f3d6faceb491e1d2f4c3dfbd, 0xe3a033a74e8a4d5bc8c4912143a47b07b9fec4d8a0d5b3ef569c44c9cf8d896e),
(0x64c27a41e978e35d063f3a90e71091f441e9ad266a05edda358dddd25d842744, 0xfcbb625e08fda695988aac9ecfe67c16bed768023b527d27521c13393dae32d1),
(0x620a1ef6fdfe5b5e9a4ef435063cd7c8af62acada02fb399b7542d2b6481a58d, 0xb0b79e3c550393a6fa07f105c547e203a45fa7c5ec825ae57bec305addb8054f),
(0x1523f1317cef7154347ef68b424ee0c615e71251a06bf8a1ecd74675307b95cd, 0xc72554cc1d8ad664dc1fe67a3f11e5b4a55806c553dc2612bf5516fff0743b1d),
(0xd765303c0a9c8794c00d4d8c2cd73fcdb43f763c0b753700f66d72944eea0cfd, 0xbafcaca5204dd77aa3a17b73da3064dc35b4cd22ae01a623781603d257bc267b),
(0xa75eb61afafce96565198759c25cbc41ffbbf87b61839a8ea17f04ad64c468b6, 0x99802893240f48aa53c49b181a6d50e7a8eba32164d587b8041497d965869873),
(0x7fa41b4cd0bb91b6c25813c71241e691e7053f7dbeb0bcfa4084e06bbce59f2a, 0xa0941779755a695f8317e7e20f6a2c579431e22c004aa09f7e583b1ce184aec7),
(0x816c0db72240f12ad8deb4408ae2276f3bfa1bfbd820bd6fcc5ccff616e4dbf5, 0x2a52c93dd91ee6589449dd4bbf70255ee57acbd0a981ac9f67c166043f7e52d0)]

/-- secp256k1_pre_g[3072..3583] in pieces of 64 entries -/
def g06 : List (List (Nat × Nat)) := [g06_0, g06_1, g06_2, g06_3, g06_4, g06_5, g06_6, g06_7]

end Secp.Model.PreG
