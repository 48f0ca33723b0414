/-!
Generated from /repo/src/precomputed_ecmult.c:14918-15429: entries 6656 to 7167 of
`secp256k1_pre_g_128`, as pairs (x, y).
-/

namespace Secp.Model.PreG

/-- secp256k1_pre_g_128[6656..6719], /repo/src/precomputed_ecmult.c:14918-14981 -/
def h13_0 : List (Nat × Nat) := [
(0x98f0e4b09e72ec0fd80ce3adeab29913fe84fa491786bd797f6832cd7ed4dc6a, 0x58c42bdd7ca435790b45df8fb2a6db3d41f75a3f89dfab0e0e000383c9e04a54),
(0x31cf38d3dec1162ee75eeac606827aad22fa3ee9abfda002b69566006fe596ec, 0xceeb4b04fc6c31e77a6260cabdf9256992841221d60ca74e813094728fff4442),
(0x60766d5b50cc4d46a1234c921baeec1d29900e234493f1742f06ada3ed9dfbea, 0x13debdc89795f4216f796a5374b87aaabca4f73e0fda2ecf7d151870179c44a4),
(0x1b0ebbaa35e8ecb5a76d9c30ab88fa100b211ce3e7c2b428117645b6881c7895, 0xa312adefe1c4a34cd9f75d10bb2ceb2979184181bb955439e317cde4202b2f83),
(0xb3129f71c3438602c9c24ee32f99734126dbd76c60cf7713200ffb68e486fc94, 0xbd4beeb5709662856a15002ea25046cf996a1cc79a570549467ac179b4f145f9),
(0x2925ca17662f09053927d40ff2fdee1f66cc5c13c3587e78fe48effc40cc075f, 0x6d37757e64f0438d7bfb36585df58dbea8ab8cdd89871670dbe221b74c416185),
(0x8d55b85efce6bd0fff8906d16497d35e4b69e701da7845f2aec1a04939c9ec45, 0x435416dd9fd01388b717ba9adf574456785cc0fac115dc048a2422704a3c77dd),
(0xa660a9bdb419e19b16823b5edc3fcddef1021b714debd17a9a0619a3aabc23c9, 0xef6d4bbce963bb1c2edffa5cef70e330bddccb4b3b23cc52d5b4a689e0c76c32),
(0x8896427fc92bdbfd59699ec2222b4bbf2198e16094945c771f207bbe4cdd6b0b, 0xbc6081faabd2df26b087acbda2c67c632eb1a8dd6fae24546f3fa747be421ff1),
(0x47e5d9b23f42948461ee9f382f14babbf93e318f32d67063ed20e9179894e993, 0xbd17f8b56084d3f6062facae24e93e3e29205f2168903ade4f7476a5ba70e8b1),
(0xff35287069bf11316f530ef3b32a487b03f11e6ef8518c15b1202a184e6d5487, 0x08920338ccf36f984afde38e1a74528e86fddfc78d7a6964cad4286f231462b6),
(0x2a713d8feca88defb5fda7f88de9c6cf09b97bf04c070173aa47dad9197bae2d, 0x5ba64900f7d18ec68887bd260d2769b026d22e961007b58cb27b8983a6e7adb1),
(0x853d813d3133ed7da85065a5755ca0c53f32f156154853b4b018668cb165ace1, 0x0fda8017e00d20db06ee4c0a5790b504afc376ad170d74bc1261abcd241ea020),
(0xd5c4dc1537b048d86631fd147d896d6ff403ceda7de8883e1ccc006b6d9ccd99, 0x9ea2829e642134340eaaaadc43ed10b8028e706a5001d7df471460588bffa8ed),
(0xf649da82d50fa2988c598d5ccaf1e7f72bde2cc88073b55a2e43b6e75d44905e, 0x4438f4cbd3e1938ab461b1e7b94d8f6ac6e287e250d06da667aacb1c609bb6cb),
(0xadc3515d4fb7776cb1592a69013254d7afcb20bb8a4d75297ddba70ac35a7193, 0x49b7bd8b3f280916c6024e46afb45e6bda5bb15f3d3497fc85e9a46facec3d80),
(0xd78c46f2603a00dfb45d0495c1e2b346963dc82b84512cacc2227acb383f75ed, 0x76b028702e7a3da8792727591e2f81ef054ed02fdebde8b538f9ff1e4335a21f),
(0x1390446759e0fc27c2a499ec384e0906bf293dcfc13ca16fd3bedfdad320e466, 0x5320c884b74bcdc86e0c21f540c16f65dc61f19e9ec5e8ef385fb637ee7a3701),
(0x93700603543ec5583fe481410310b184aa8faa046058467c389c10f3b98c42f0, 0x8e0acf55bfc585df4f8cae06131753ee23a7bcca6835418261450e1de1a136ce),
(0xbdcb94344c556618a247c93529c5ba74c68f25eaa55071481431c00d6926884a, 0xc29b7b1bad6ec5a8e7046cf7cdf99c6d15f6a3e43c6ce7189ae2acbd531bb17a),
(0x839ac85a9337818ab07b56110f67eb166342c1a68aadefc46842c023336afb08, 0x88b30690e79fb1573e424c8075bc810afb9d57de5464a25379d06222ea656b69),
(0x2959c32e0bcf92899882e003c8a28e713d4914024d24d878ba8bed88047b949c, 0xba2643c395fac0276b7c55e4d2d2f530318665f1ec2065d6eaf32c05123e04c0),
(0x71116eb05def3abfbff3e235a0306605b18aa465b47167b44eb3486cc442f3aa, 0x2652a72635be8336f9b5160776b3af8426a23716871fa64c898520eb822d6630),
(0x400c1bcbdd3e39783ca06e8c2abe8b0b09b45034a1655cdefb748ef4e2a477af, 0x1471c86cc8b27b4801d4c45d1533a5c8d46fc3cbea4788d6c48dbdad6f7670e3),
(0x2a4abe285cf94456aa92216add635abe71a7e825712d775fd61fdc98a4c9288f, 0x3c0d24833d6ffcadb471d23404ee8d0715c09719b18cb58108ede73035d89c15),
(0x0cb0113a1832843f7e32ce2515b0b23b8a803ea750b500b63fb89f6ce7bb1884, 0x816d7056b775f13a0cfd94a6f88f442e519495a36e74d8f8359a8a0316583bda),
(0x4d7be7ae5c4271f6c1adeb7f4dac8467beae22bfae00a71b1e353be95ef172fd, 0xcd7e64155708d20a9fc3b0e985517642f677281b4949043914845a36afe6ca56),
(0xbc285658fd724cfee6ec8c7e35f9197fe9083bf5439fd4d8d9b262bb7a3c38f3, 0x080c10d759f76b4b8330c96f38a1af241d1b0db74e6befc44f085180c1c33729),
(0xa829ee43221d995538ce8aefe80c49ac0dc6e71f4293750c0c0585c169963f04, 0x144f6b56d996a18e627d4c8b8115b2c1c369f410ec8924c1733823023758ba33),
(0xf5450bd7efc9227be7d28ad675ee14df1b2378fd308e6c5e68945ac9a47d82d1, 0x20201fb5cba463afcc46e6dacaac841763356e645cdcfa5d9d810c48272cf8e0),
(0x7dcbdb6946dcf79d454095f0b61341e445243bc7c22628170374fea537a1a380, 0xbd2cee4dc7ebc71b46fb3becbd6787ebd2be3128703a884d98359c5a43875977),
(0xf1d6c1dbcc8d33d4fbff821c8c788d062d9060632f44a786585a652620ce776a, 0x03696a3c8473bd0776e772268cd09f963dbcd143e631c32d05d83254ada29340),
(0xf1688e1ad5df4e43067caec6f2234534f65aac3b079a94ca32a786bb9fee4b49, 0xefb620b8e2164685c9a3837b5c6eb70d0075982496541aedeb80aebe4193e34e),
(0xb639e2843ecffb0f66c2819c73787e10527086e25d3da074e037a915e06a5813, 0x61fde1dd63ff304c08ec99d467ffbabee8000637b9856bec344b825a4f198407),
(0x11a4ff89d5e63ec806a0ce1853dde8a8875c9a9bf563526bcd25b8306e3314dd, 0x9f7ec77c9a3f88cb7f64b1caf2b5c7cbd70d65d6dbdba9f268832f3ca2e117a4),
(0x323db78326abfd992b13d67f3ae0141577162203c50322c57a7933e87d687d3a, 0x92c8a67cec834653d0f1a50ea7834b38631d83ec0ee38e5033ed927f7e14253b),
(0x2907fe12c8433ab62e6283ec85b93342ecf14d166d90cfdbb4061968aa35170f, 0x160f979066291ed7d51962d4be02d85f8a92ff8f258a9a0755b8a5ca2d57c2c2),
(0x67cef7bfa58519cb6c5cd8c4f69d5cc884cc77a7854a4b6ea40b6dcd57e43e17, 0xe8071d35e590dfa74d4f4da282033f1b590b938370b571acebb3bc11b9b48482),
(0x81e405223d4ccb143952867bb8398cd4e5ab92c5d91066b0d1fdeaed55c71165, 0x55357564af12b507b2e24e6a425697b9e6356b82da36f1112b5c3394183c0d10),
(0x4880abe147bcc598a37433041afabe99fc525daa564c4b052aa60c275c814628, 0xb6d944f1ec69e7bf2cdcf6210864ba76a1df44a7ed15ae15290ddbe5b91f585e),
(0xfa2bc50719131dc7d5f23fe69e60377e2d2f11c7f8a9a45182aa69e624eef53e, 0x9b0f20175f287d8041f589306cd022e59b63bab51b26abfe1a295ac346a2e9fc),
(0xaaa18fe125e781a8901ac35138d2bffa83cf7c3c99a4c7d854b30c700c9483e8, 0x6a8f9e1ea40f63836008a0c3596f7644c044bf539700a142ec5e3c97c075b03c),
(0xd473950a8465711f71a6f1f022f4bfcc1c16ba814bf73c2c1eca244ada4999f1, 0x6eccf9c8aafb09df46ca0d36ee9028dd1df62bdc6ade77b8a5d410d1a69bc775),
(0xd7e2b17cf8e1895ccf9fb163b56f4be8ad99133ff00f2ce88ce911d33b8e36cc, 0xb6557693ed9371ce69bf397b56c0b56621d38958ebdc0b96ca4885701561e6bc),
(0x3f1e73f2a2192809acaecea171d175af0683e796e1337db2011b6b348ba924f0, 0xa593bd9496308bb776b63703bc11e30ac5f01c17c8b9748f3b4c801556f52c3f),
(0x4cbb68b427899c921c0d969c94341d8d161f3b8b3fe4cfca2b583a63eb383dd2, 0x6b3c29d497728ac7b45cf7ceea61878995935bea0bd146e16c756f614698b6cb),
(0xe41b826b52ff9bea354af41e3004b7b9edd01e138cbd466cba4cbab8d63bb4e0, 0x75d5b64247388aa151d4d8d52568a804fcf66ba242b3f56bdee0350decc527ed),
(0xd508dd5bec38f79588bf2d9b06bcc9f8aa96689e91c1381b9f8db31194588028, 0x9b1445471a2ee5596584c9272d779fa3123a760d9faeabfa1e39d3b5ddac2595),
(0x5276f1273bad7149ee5ff0222769dd6e973018e2a9948070fdc82148ac637de0, 0x73f778c2caca737facd3d87714e24d83964dd47cf22915e6212bfb098e804e21),
(0x2e9ebbb59d108d2171d28c2732af659db534cd10c5457cea3fcef01804d7761a, 0x229d20bacbf0104fb385621fdfe386df4f40c2877d95604660eb392346937bff),
(0xad8195395b94bb1f4e60ab85932b24cf2c79c20b79a972bddb1e4201c49f1d1f, 0x9226c45f4d161a1ac5c3c0baa0536def3c6052a4ec22dd24cc803a37b5d791a1),
(0xf5d4baf393ee5acd944b205778cae1708a622f3068d3147b62bef05a88fee96f, 0x9a1873969eeba5289f5fca3206bbb9222eeff5f66d205a0c78b77deaee17d1db),
(0x1a0f5e1cb2fb5d01fbcbfddcda83693e9619ea601669c7287710733ae6ca778c, 0x3074e8d161da2d3438be57ccfc437742533e415e5f0c888b834a2fe55d4fd6bf),
(0xa78f6f7a110cd16f99fbe16e9be52782248518d8e621f47802167887f81cdae4, 0xe3f78e8d507f9af811653ab85f2286dcdb34d9dc8106e9f057610267411f02a0),
(0xc53e4243b26ebe40a1abffdf3c42129c47e92cb732bd66c03d4a4290c68b1c25, 0xbd4f96b5b5801b82300b21322c39fd2c65b2d084e657ba2d7db5df15ab960e34),
(0xa3a1ddc8569574682e9b8a5750bbc738f72dc60a1c09c95ea6559b2a736535e4, 0x94887a0fa4381d9edcc4faf51525ce98fc43116d29f68c99236e49406842a741),
(0x8160ee7f738f54a0698806b835ed4bca113bb568b23fd331ef5f1cc280b6230b, 0x382ff30bf13f1e2895a38af313fcd099249b195c96ac42a66a929fc7a907b17b),
(0x68552ddc6b219554dbabd276e0f2a5d933610bcc776bc40d7efdc1c61b992e35, 0xeee09352c82dec92b0ae8d8cd6918ac6df620dec86a0e4acabfe802552a0ab5e),
(0x919fef57f308255e1fa802cb5acab880c1810c62c79a4ecfc2251a2ccc02ef51, 0xcb38c1638f7890f2d61a980fed712ca89729636607927ff739de824d207ab566),
(0xd7e493e2e2c33635ee8d22f376fa8de931ed4eb009771746f48ba201307e04d1, 0xff7e6d72f712f2be2bfffb432764f677629175093cf6bfe5eb5cb7ce85c1a8b4),
(0x6b642a8df4131ddf7f31dc9fc26b96c9286e1f80de2af96d52e383d1ffa73a41, 0x1e55e6675f0ee13e76818c02ce424d8f48cbc930b25dbb85363019c5fc29979c),
(0x7ade4aa81df8c53d1e64655fbfe0ad884057e0b21c88bb2b4c8d5f1934794191, 0xcb0e9802fbf1027fdd8d2167f4f4680cf9e18f4c3bc3310ac4014745530a06fa),
(0x6d578cb301ed19dc812fd360a367996b91a7ba427d2f74c3e2a1721d72e1c017, 0x4ac9ad2eaab987eddc994b74733fc710019301e1f691999a5161cb15ba11e9b4),
(0xdf95b5f77bb7981421892d72743abe4e828a7544f9f0e774b1f5ada7a054978c, 0x4ccd011fa966604b32f70bd61a3c1515c6d1b261a3ce5c597078cc9d0f723b32)]

/-- secp256k1_pre_g_128[6720..6783], /repo/src/precomputed_ecmult.c:14982-15045 -/
def h13_1 : List (Nat × Nat) := [
(0xd7392d171cf72e1e0ddea0bea242edf2c418e9eb7dcbe1b3aa07ae7fa11ef08c, 0x4b696f7820a9ac8da5f52c8e09d1a39cbbb3d3d9fb5b38c81b46bcfc90e869ef),
(0xf01f2aa98284231598f414aef87c9d7b6eaf21bec4dddea13967677f5d2a1032, 0x7c3be753da5485bf13a4cd72a9e3fbe228fc6a22c502b19d1b6f7d18149e2b3e),
(0xcee8f8114b1829aba47e9b5a54de7cba01f6edfe624f30e2ec4979f803145242, 0x4b01f7b4cebb112520bb0ab27013af9d011d19c414b0c29f0d142c7d5b903a09),
(0x0f4215bb973b5586ec051388203b1c99cf69b5556b1591d2fc711842759e9832, 0x5d8a5ce3ece7c011df3d414d0e62ecd42d716c73cab02e29621307e0658e6fe5),
(0xe39ecc2390c9464c32b087599a44586ada09af95ba8a3b302cb015d64a49b18a, 0xbd7957c6e1feb061f55352314f5c5e5ec8245f284638f390d079cffebd2eea7a),
(0x9e6bbe6c402e4cbfe298e789458fa9a668cfd4073efb3d250469927800760589, 0x0989bf3f9912b242419c848cf82c3fb68690ab05bc23372feb9a850fb4dd44ba),
(0x67504bbf57824cd98a3bd82d034fcb593d20590ca90b5652c4ea46951f48905d, 0x93ebbf6d3678478f56ae5a54cde812f7d8d40928021b5e8271669dd3f0b263d3),
(0x4e5bee50503a28c09252b9bcdd28af66cecae1272128e88efc4313737324657d, 0xd6891df53a4cdf2ad7ab610b817b0f60c250244202e40269a7da80dd2672e0f3),
(0x7481d5a5bef3d397533e01b3640b0809fd6ff946a1e5481fb90f0b3d0dd05c21, 0x21ee72759c217d193999df2be3cddff6fe59f26ae570e0ae58868441f37e342b),
(0x778dff4fdd32f2516defcd94188f244026b9f789ff4eefd584b2c15e2bc61d62, 0x996a2edcf43e10d693cc2d00c6f4506f45be1dc5c762fe203dce124e34e320e0),
(0xcf5312713d65d471929f610812db63acb1c52203eb879ca4a8ee9f6200774580, 0x38e28f4c881391e055fa71482c92c09700c842dd74a58d6b5753d6e12f773b19),
(0x99702d019420286e723625b562c8152a02dd5f1aeff844378a182cf425582031, 0x8c4af2b2654f163182d08bd6e7f8b6cad5365b9ed869fd23e5a3c4d407e5990c),
(0x68614c886b59c198c49245c1e1232cb0b4bcce31e0a2aa159fb2331dff1dce66, 0x49c870bc7ac78e22b635c2b96f29e6413b29c6ec8ec8b3b78fa6597c90180c7c),
(0xf497a9bd3c0e923d5d622ab6afeb9e8bd9b4525fd1f30cae2a44d0b30e13256b, 0xaf4d0273e088adb0b7de7724b387e109d49d20a6eceb369c12e07eb4f28c9e32),
(0x50a764f7f5e29cbaed7ababb97d2ace222c06c659ce87d7783b5bd0dd165bbbe, 0x4abc57c54c9f1d54e73cead6d77a85a08be25ba0ce96b8a51b4fb4605eca949c),
(0xfccfe1e1e312e6a3092e83cb9727457656415255b127ad54432c93cf4ae29bc0, 0xe681795fd8340902da0018a0dbb8a424870e4bcf7de95f0eb2c7e98f47a46c58),
(0x66de61ba48c1fd4480d5c78c3f06c3e245ecaf25e4c235d508408c90e1b62ed1, 0xbf3bf086a90221ba711819d00d80194cc45177e257b1408e7e649f15a92aa6a0),
(0x4373e7ffe3995503097bdee9c9d3d70b39f47446045fd3c163b2012d58e148d6, 0x440a13761609612442c7bff35f9a8aa23ac64e8bbd5ca839bd3c5a390b84e6fe),
(0xc8774ea87d83fc06c36ab357b1fa76b6c647cc9cebf2e1253f3ab3039306ef1d, 0xccbde78d2e4d2c0dace4e660efdc4d1f0a1dbb444cabb0dfbfe29de3191f7249),
(0x748cb6cdc57d89d78842fae7731b1e283b59ed18cb761c88a4d2e4c10c3359fc, 0x62f5b6c411c72d4da412148b8b038b328f98aecfece537a7237b9f87646b9a3b),
(0x35a8361030fc10f353d2fdbfcf67655a91b86555cd3d9ebaf962996fecf55cbf, 0x6fd79f5cdf8093db5c7f3a9452dbe6aebd1ca410199deb04761ffffc77ec9fec),
(0xcd05bbaed0a8d78a2e05e9d41c33cbd28d59d38475d4238943f9cc353a8a30c7, 0x9f7336dc8e77fd55bd0b9e8f23eedf1fd0c16f69921994dbdc2588ddff72a8f8),
(0xda3fe7602547c8312d4f515a5ce530be2937932541c6de36364c4b5dead43c58, 0xdf60bf1ad2fca43f6d482df461fc180e5e3cf692995bf8c17d32a263730b3ddd),
(0xbbd7996c25ba5c24a14742a900745dd28c18a5988279581bf8b5958a08092051, 0x896a39f1310be1c59de4b86c7c9bde108035ba39864a45a369573d1604afbc2d),
(0xbf7c20dd64ba5f5102a996bd428fdbaadf1853fbf814e6c7a415fb64a3e16070, 0xafaec0ea02b18c8993a1a565f3db58dc748df9eb4d9f8a04a18cdc234710d5c6),
(0x919d0aa810928129cad99b0985bea5ba7d4ea1149f9d5d652b6c0e0f20464903, 0x60d9352bd053b01c83caa12163e8c9a3e2153cbf0b3359437a2a788b7aa02dfb),
(0x5e7c2a9c6ab8251e8f8749abe0ef107caee593e1a8632a6e1e0e0c4ed3cace9c, 0x74186f426f03f80636d79258e9edf5936e21e0b2d882d933c0241ae97d761582),
(0x2815184daf1e838d86d63a32db5339df24731743aee62add21e3a6c2c2b0b1c0, 0x2a4951e83ec61221b1035c6ba7d2cbedf6ef93e8cff69e01295e09d920e05919),
(0xe3086e3691432a208602458a87d82955c8920ca90fe1c0793eed878b282ec3b0, 0x13db421950388269cd591c5cd8e07ba1b532f01b485829e20aae4f55f05e4362),
(0x8264d5342db3261cd7e294c6eba040f5461fb9e7e3fa13fbdfcec29c20f2fa7c, 0x4dc311ff10b92db6b67f47ad86fd74be24e3dbe0d6a7484292f35d9f6e95eac1),
(0x09edbed63c4b66cea8c2ac6d89622d616838e1fd9b93c363c2bde5280a629b2b, 0xc1706a025b1f94192dde89fc63ae2a81ea015ab2964beb58d5ca7ffe84266644),
(0x68006753672e9ae079fcdee79814a90480c170a7f644302de5de79827684e12e, 0xfc1209de88ca7c3a614252e3153df13a6d0e8db04c82d83afcbe65a45c084398),
(0xacdfba809e519114a11b16341835d7e45b93a6d47094846ae1ecec0018bc4531, 0xa4e57d0251511f2e5b7293094c50ebef4f8d3cb0d930ff4820d0623bd636d664),
(0x978304cbe99eb8995ef43f94c67c471d6d42ec19f83f93233a44b9f2e2d13896, 0xab26782d2c1dbf160a90f90c8e49d2501e1172f13e1bd20a3deba97985fcb110),
(0x8c8b561f9c85751088478c03866b347f46e0680182482343923d7e27c67f49e8, 0xe7908d2779cc5b19dd00f2f04ab524745c35cd6d4b85932c99614fdc64048cc4),
(0xd4a7ebc1987b1abb5d02e5980190f73a036d1176d7f0f7a8cb9491c1b86a3c55, 0x4f321dec9c1832e3b0d0c974798834ab6a410bfb398ebf58177f39a222ba4e50),
(0x14bbfb6e7910f52269e544f2ad3175d23a36b7aa8209c24d1fbb42779508c261, 0xd16147c72a1df442d8e831e5aecd54c68bc3f2254d0f51e49a375053073e8d08),
(0xd24ad71e81de43d57096e1016bd4d99a46e52e56782d99ee838217a0dfea0f5b, 0xae574f68e07cead90f21497667a18c2ffbbcbddf2bfb6c953b7ba6737d08903b),
(0xac96889a0f0b46b76896b7638e1a13f3dd24459e8601f892c3367c7d8b52931a, 0xb68a86318672c378d99b0b2044b06190876ab100eadb12e6c16c2ba7c1ee2381),
(0x36b4da524f4ad5dad73964451e79bd5c20973df0efa82bb2da4bf68c55afeeb7, 0x5cb7598b576f0db4db1093c5e6c9723cf493bb91450a00179f79c8e992dd6136),
(0x98c7bc3a7054f928d062ae65b4140dd6293f2fb6cd16fbbae00d39d0b11befd2, 0x82d134ac3e614e4e62b1b475bbb5fd80a5e6d3e4e4572dc57cb666c9a06131da),
(0x95bb18cd991cdf721c627d62aee4655eaaed0b6ab1e64537fa89a0acf60b4a52, 0xc37e37ee5b87a5a5e61824a3ea519f03dc3b0a770f755485d337ac79f1f9e8c9),
(0x41e45ca2b88a46796df9106bc8b5318081674c3409646545e5ad9b6de5f6cdc6, 0x151ba666b0fdb7a718110f6283e3cb8f8e40fb8bfa1a185475958a3bec10d197),
(0x32d15f16dda923d5c2f1bf5c9c003b33b77d245095e5ad312ec62956ae092805, 0x58d64c7296ba69760d61774f0f37a0d16316cd193ac0d930bdcf4924cd904095),
(0x41c4e029817de5168dc04b2a9bde38507ae48602dab08db03272c6946cf099eb, 0x303738a87b8886012f9e20535bb8b61092f6222e96968afb98940d8598181458),
(0x028b8ccfb14a86a184fc3c3ca6a7dbd80076341591a67d8b4109f0261dd964c5, 0x899f98fd5e0c59be69150d8c5a917d6e864fa15c63072769f75f63538cb276e6),
(0xf2776367762d6468c9cc0e38d392181316dd394ceaeea519786b4353a5044586, 0x1a8734211b170183a117e420c41d272584acf219a415778a4eb0c34bbee9a68c),
(0x7a1a5f536e96ee57e10b13376bb1e8950d0703c65adfa4bdf24937da98bd7144, 0x860921d567fbdd1f11aa3ced103453af8c3f5037b92ff10b0ee70ddce4323206),
(0xd82e79dc5d6de6ff8863e03960401bd1610500f157fd2b41f20689d8889c3f76, 0xf1947dc2ca625df3af5ec97d32e62c092139d108948795ba5cb164b9351bbf34),
(0x6a2e184c23ee235f93f036c43875db0122416a6d26ef54bd85a2b465defd0351, 0x6c44297d724eb2d32f58a1972f52a7adee49d30fc8f8424d7f26c6e173dc6868),
(0xea0d5281bd1417c72dbedbd4dff37c49bf143417d2a40dc2573b4b3b2ccddcde, 0xc7a35ef7685faf18c5a4cfcb2eca27b746b21d65ed71aae915185cc26d2b54ee),
(0xd5432c9f8ed0b4a4c3e42dd828098f1311d2cdf39467233151fddbf2a6030974, 0x1e047ebb8cc01a432ee6ea04578513aa17ad2bef7fc7653e936b2d220bf8f6c3),
(0xc99ee053655c9d531fdd22983cc03756299f47bb05e1d0a4d7b861fac3b5e332, 0x61c5187e4e12f8fc617a5fd8746f28c3368b6b191189172d8c56e2f4679f6b7a),
(0xf41ee431170be2d7fd488c3f5f21f3f3aae5e5011a3c4ebed0f6db8f63e11e55, 0xf767b289118391c44d27c1e076b7c70d110cb938e9c5c62f1af200ad7e9976cc),
(0x505a65a429388bcd55561f5efb3090b22d553bac2f8cee976c0685da40006e41, 0xc72c9e866b4de92503d463d7e7bcf7d3d6e7c3511fe6c4b47fc436f6d793e0ae),
(0xca34be0d48bc2931cabe71d79cd2bc230ffa928a5d532d67f3665acd375dc01e, 0x263008ca4dcf002f8fdd580a65701694bf4530e8baa0438db77ec24675b4db4c),
(0x0d52c25e09a76600b16dfa93cf9c2df338c806a7d8cff18a1d26266205fed6d7, 0x803098106055c3a4d5d1e5ac945aa815bb8ca3ed10b5d54f156e433639c4ac77),
(0x83e43bbe62e39426a0a74ef3831cb4d2776d7ea3d5a2d57a8280bae6ae0bd8d7, 0xa1c2c1b4ea1140c8cb4ec2a698a3f727666eaf811ae9b89a9e09db39d1a257d2),
(0x12326a97ad8dbe893181d76c6d7507e274d62cca1f0a351730e9ddd7198de84f, 0x79e7823e7cfa4df0bb31e9dcac415297edc6e0614fca2f181ac7fd46d27fff48),
(0x1ad3375ec82aa91788bd787c37fef8a02071509eaef62e8add5c5e4cb096cea4, 0xf9f9f10eefc1fa79454c6d55b894d65bff5c445bf4e9e46b8c82a4c2a94d5a71),
(0x8e8bf9c3a752258c278bcf197aeebae6fcc198f92310b13dd114c1a7d10fd2c9, 0x0e2f41d5b7d943785f61f572763e6e88df7b321e9baf0445482d9f22f1160195),
(0xc44cd33a144e2926b7ebfb93d7d9ab563888f6d2694efbbfa5665e100f6e0ff7, 0xc2d4afedf77c22d288f9cf38a057df90baae8ca31e074d11bb8f89f4e9e1bf4b),
(0xb960f0ccbd7d34314138accdaadc2efad5b600717c69f1c592900a40ea68b24a, 0xe0cbda14801794eb194019353f8ab80af525b8eb2b64e5ee62afaa5ada4680b1),
(0xf71045608fe120fe5d0362605bc3de58076e24b620684413a440cf566520559b, 0x2e208f0ffea3f78a9a283f9a06b601ce0db4df4bb2fda7b6306dc8b73d514f35)]

/-- secp256k1_pre_g_128[6784..6847], /repo/src/precomputed_ecmult.c:15046-15109 -/
def h13_2 : List (Nat × Nat) := [
(0x83a31aa2cb10fc14ca8cb2cdb21cc16341cc986267a5f1cb75f3f90e1a92c59c, 0x0be18918400a6e32b4fa3469ea6e3613251ceabb29cbbfaf2c16af07fc5413ac),
(0x3d7b800f8802e521341f83a5efdb355ab60669d0adc1553172c620978106f6ab, 0xf9b179a3aae98427e02d4f0089b3cee7250e30e5ed72d59c198d5ae71d639e72),
(0x7bef4e279064400c48d4f27aa754deaf8af74b10d5dfc49798c38216803f50e8, 0xbab0d71fd02c67e6b274693f6a4f402f831aa4a35fd83014fb07c5c2e62d561d),
(0xe6b2c83f2a6ea201f56a024c482a80762f2053b42e4d29014a5178d203361bcc, 0x75d1f7b5209cafe4f98e63ac53052a40487b3390e4ab73ebac63acb5cc3dc88c),
(0xeb4f3b95f12c16a8e5e13446d9b8ca7e92c56bdf565aa4f9bc1c47af914fd145, 0xe3776908e3f3228bba0c05237eaf19631835797bffd7eff561b30fb39fcd6307),
(0xe2926c0a858b973282c1b34b4c4ba4b03099797dd29c5fb74447f28dff962e54, 0x02730f3be59e862b0037ac50e5375d080920cb62b87ee8d2f5ec9975886359e2),
(0x8bf4efd6c11d7251b06a5e0899ff2e80349f8022387f32006d9de060bfbf3f68, 0x055143950457848ea79ba6c439a7c151b497751aa4a1784f0114686e0e351afb),
(0x4ea97c1b920d2ec53c2182ced6f7e1f3df49e6731a14ecd7d67aba0ffd077c78, 0x5e958afcd3894757e0aa89edba26e035f06e4b11da13675e29d382c70b21fa9e),
(0x01b12e813c7c19be18576f9369d938f4bc81bbfd7e9eb443cf2b9ef2b8e2b3ee, 0x47220a1f718c36af8eb8a9e7ecee3899ddc49127914214388760d6d1699a5ad1),
(0x7c6c144d4f839904ba40fba80b73991354f40bf0f5810329c4e3b961ee6a101d, 0x6eebb9763ceae5f4f1ef2473a50b795ba6375c720df67d15f310b5ca9706b5eb),
(0xec637ec6bea718032bae76319227ae589581d3a7131323ec35f0d9fa27a3e285, 0xc12b830ff273fe724f3bfdef4279ce4a8ae6d0a6de5cbad2b0a7b4ab643c79db),
(0x33c8d6fcd2b37103024269106b9adb766c76f788009627a906807572e0af0f84, 0xb3f01db07ed82f45252d494caf735e6d3934ff78c89c57e66c42a663e5d6a792),
(0x35ee32e5f7204f0dd48b1a80cea0a4181d71205ec373827b2afc25ebe3ab7e20, 0xd57bc815684adacc756291c687d0eab163067976a7c3a2a198ef1d8ebad12935),
(0x97362395200d807e623826e83bdfa37be98793fd6d7057f6370720b75089a6b0, 0xc908e9de0cd1d54a172973b91706fc6cc3367d752216c2d81085dffa5627f06b),
(0x0bd37e01eb944b32b379b19516256ad74061760e4eb443615e8e5fd4034eae9a, 0xdadb545e2a613e546067cb6c179fbdf6d94b7b8bc799adef391b295702b93f57),
(0xb332b57a4f070d2035986e860d82cc6f0718029353bd360fd3f883fd68e9c5ef, 0xeebd3a05933526abba9e63f8cb24ffa8550e50d68cc7a4bf0215c551ab89832b),
(0xfe5bf27f9459e6407489bb322012d1d169d4063574dc05bd6bdd6c38cffb61a3, 0x72c6318a3775b8fc5c790d6e31bbfddc7ee07a7193e5f137e3c3e098bae25da9),
(0xf27cbe27ed93086b517c58599929310cad0e05fd482f1fc3af041852c63a2a23, 0xcce74e614e14bd098f11674f23e30be6b3276f4cf85dedeab3cbfa4905a716e4),
(0x0b3285351a1b22cc51b7a5903582dc27518bbfa7410dc36ce63da663daa8693a, 0x1b2604877d3ad6e3db75a0b50d6b89dfdf507809c203b4c4cb0712ceae2e3d2f),
(0xbb47bb0970dae4b54f4c3aa40ad4c966ae42691eae39f1eaa6711d6b5f04b81e, 0x2edfe19b0b52b7b02b4cf349aeeeab0f675243757f35b6e7b920d343e71561d2),
(0xfb6c9735d43331425bf6ad8350c7241db82e35a29cbafa37d822304ac1b3dd02, 0x946a7ec701e0e6dda4d4c3152a6e74898671dcb68a2197813e2491a76a9e3357),
(0xc711f22440cb6e74a60509ec23daa2d9fbca44aa9a093475524e31e543575a3b, 0xe4259800352d0d79c5e22d3e2bf59f4de4b4248468d15c47ab5a9cbf854294b2),
(0x9c748d45a07e141c639ef97e8887ccc30aa84bdcca0618ff4f43b1bc7496c83f, 0x3dab775ec3001657e71a9d46bf8cc1209a74b9d51025f97c4dbb9457e932b5b4),
(0x9d5e6479081a92786db609384a46262123070938d50e1bed8df9474dbee12513, 0x30f2517c6ff04eb809a6ef21e4ff33b8e14567efe38871bdb9dba6d5584c8b0e),
(0x4d24d6e891644ed6ac1aa619f9eb2b58a9932c5b3e8c82cb589694d014b1d472, 0x6ef1a21a9dcba4d6850e65933ee1a259912032782f478faecda13d6e5abdab22),
(0x0fa226c436b389c450143041da93c90670258092a8de85cbd20a0dcd284bc808, 0x524d2992655c77bb592582575db3d663a7a345f285572ff6e9dd1dd321bebf6a),
(0xd4e659a8e9af75432d9ec7695dda03717bd79ff19ba73f07ad0bf13a45ad3b77, 0x5f4a2de8db9814f99b73ec636c77f8471aa48356ff67c8f83f0b6aaf1ac7ba9e),
(0x157b6da01556b23fb6c46b06145727c021d6e573782bcdedd594ae460598df23, 0x737d45d52c247718e720fed056352768ce111425727308905a84a545c53c560b),
(0xd97a608719c8572a78b739385479e4bc9a2b249ea4f064a4550ce127fc4bd45e, 0xf11e233a75ba1651144368b955bd4dd0f4ba1f2d2d0bce2e82315e5b78e0d76e),
(0xd2fdeec29b5f4ef6374c2b8757e4867bd2e036d80964a2ae15632ca46f79a294, 0x2d2c1502a935f5b5960abbda9db42aeac9f58f0abfaccdddf8d59881e2953872),
(0xfbc6a2b1b3c0b0399abc55fa835bbeba0b0461db41f3d9f3160d015472861b3d, 0x54421d5ea5ed3abef22df1a726a2b5daa298b41dacc69bd5a72952a213f928c4),
(0x07ac224bcf7efd8d0b214db6a6601d51829d57d728c4c3cc398ba57f5079bf99, 0xedf12fdb9e2813675e7df40b1cc3c57255213edd0c0fa07b4e3f750d36d6935c),
(0xf2bc44524af39f04afb480c2f7addb57a04db86c3691b26a922b6ce5a1724d9a, 0x63c372e24a659127ace8f54d339696351d890dbf7e2a31c4251352ed53c3a0bf),
(0x5ac48ffdbf27b452ca37dbdf83f2fe6d8f704040f3a56180ab991228a74ad88c, 0xc7ccab4ae859e7bd982310ff2b7eb408678b6f21f52ebea841021f3dfab6f091),
(0xdaa3d659a4defb4d3291a16ad669a43eb6891e90dbe0147f568b650d1213750a, 0xaf36d8119ce1ff855dd637a3bd475b1050216093aedf5f242c98da6229bdcdbf),
(0x381d379130d4beafaed138d14072bbcc0b8d71d6dbb13226ff168f643bf55d37, 0xfbfd7b6203ce32a44335682cd5ccd4b4aa4430ced8fe3d3409582bba0fedaf9c),
(0x757c7b23ff6b6ecc51ac84e626ed70ce4e6e5c74e4b65f3cfd17c304e19b1ccf, 0x56848ab7f814a0472bd286f6b386af5d34b27c4e0a3ece71f153dcc77e4027b8),
(0xea498d11ca35804cd6103185ae468bec6c2f4f6dab025173b1de40270551b913, 0xee939bff08d30bf59e3341e358acab9017de8fb6e2977847f4322cebca8829c6),
(0x9d11904659ea5dff30105d1b5ee3f8dcc9291bef1584405766e07d4472ee1418, 0x4535504104d4715de8c087d4f05b5f8b0a424ac349b3cebabf806b9ce657e139),
(0x97bce77690f8790fe7d82b68b7dc1b38f3baded3f7c676551894fc4fcd1b834c, 0xfcc18c2b4f743ca0e00f4b34509fc237c030b68983451d5fe7407b81ed04f7b4),
(0x5339f056abeb49260f46dce73b8d735ec6e9c4a32057c22a49c86400f15d7ed9, 0x5be6a0b937e26dd9f6db74a774fa10d2cbae30f600bdfafbdfa2922c58a8e37e),
(0x27f22d01004dc5d3162f39c97de3ef62f2275b5ecc6d5e326ab064adf762a446, 0x6aebbb580d671179d712926ed56cd2808393fd85dee45558300a0f8aa2986f09),
(0x94af2fff61741cf25f158308e7333e3f678bf1ee56adfd56629312e22435f9d5, 0x033a726979df6672b13198f70e674330806f2dd9050d8e821774f381d9ec24d6),
(0xae8a0e18486273a536d526ee3974031ff3ed095ba6835a682e943dc7e19b37e4, 0x23c2a51f69df18269b21413e505c0785576fbc84acbb2812fda146c70f5e8c8c),
(0x623fb527d3d990239f720cbc64478e0ea0b84b285c0c3f3f107b3e3d7dc430aa, 0x03ea48a8d1eb543eade4a55a0f909e6214e47d2609471dbf4d98a3e039c72849),
(0x1ff42295d85e98bef7aa84c4047ec85429f01b4ec87371f2b2025ba71e31a768, 0x0d9500f906e8c6977ecc51d57bb7dfd13cc9701758bb4196b0b11d1b03c24937),
(0xbc808b0b67bedaeb2e7a4bc0d328efbb1ff35dc3b51716ca3e501a3f956aed3f, 0x6af0de4b26a6378e6d86378dd1f54243929c37eed5c10bbd086b80c3ead8e545),
(0xe8ab92e017a9e956354203b55d7b15fbacc666a27915801633a91865b5bb46af, 0x3e87cbd366926e66003f5faa426a9db9811a9db4de3a4bd879073b7fc1e3197e),
(0xa7bf0061c383040b6e89ba95b57102ae2c291ad672bb502703c27fcdf90613ec, 0x79ac8ff24bbc79cf431f41594852ad4e2f0a9f86ca72ac119d4e3fdf8746539f),
(0x6841bcc722b705e2759ba4e683d6b83a19ee6b4a375b38f45722474cca41894c, 0xdac480215c168519d147a9660451dd637838d2365667803e80658faa01029a7e),
(0xd67e6d5ea1606817512f1db39033829f69089a41902189c520f0202b8511479f, 0x9cb4a7477224f93a8447152a9fdf4c9236a1b6982e9196b5a4355715b9fd6ee9),
(0x61b3a7a053c477b9e03d0a968ba38de0b02e42df162a13fe8ad538c2840eed06, 0x94c07520fa19457e8d98fdbdd9a9bf9357642cd81b48fa58b4b14a89cb6142ce),
(0xcbd26d0e0a00f7dd4b0b26ba7358b2c7587e233c3a13c86ad5022ecfc865e4ba, 0x50e832c9d84ff55b7ba79035559bc8895370062259dec3cd8b3eda3f1f2b6e67),
(0x17a6f57e0d3d729dc5ec018e1b69394b1ed78e596c7a5e31bfe5dc43f9c67e56, 0x34f16cdbc23e46e60bda5db27538d7e1f66751de3eb0554396c66a5436bdfe9b),
(0x0eaeb62d93fa13e10ff9d9a49eda40cedd6006e5ced0e8b8c02f7ab998f06f31, 0x7e225365b4b39204b01c88904476c1411c166f75017267188ad917c49a719ad3),
(0xd09999b6c35d5d7155605a17e7f82d3cdd8d68ce9be252e699493031a39c7487, 0x9165e7618dfec3d7cf733fcce548f672362637aa8687f47cb1eb5c18a780b061),
(0x02b4cf8d7fb166d8a6931bce0e67f580870c61c7635632a071166fc74a11c693, 0x7974e2d5164771d52e7a121e2b0155650b3a874dd6313721ec69d3aab44d473e),
(0xd5c0045fa411cdea470d85a666aafa4449ed682fa1903c5bc9594d195cbebea6, 0xffeebc775b24e7368a8b46a36483746685df5c8cb40bf2b2291f370e94c6eca4),
(0x1eed08ddd95697126c0a4039c6aa5ae5ab4aabe2a88142c3b9aa763c632b5e38, 0xd180547ec4640035ca86d92510a70a645dcbf2b5d3add4b03f6d0fba5f4c2f8a),
(0x9591b04e3de431043a6982e129a2e79f0f525888846689f044e50b18ce14413e, 0xcc4cc69673279c514aa4fd63474050b1930e627ea1bd9d55867d700efccf8155),
(0x690a17c10b2dc7ff520aecaa380b19d6d4a2866983dc5df58ab2bfb76c7b0600, 0xbdd8a858e2d989ca79fbfd4660ffdc0be0231562711b13d347cfd37b07a53d4d),
(0x800a632aaca6b505f9fddc2214efe53e4e7ad2a1a6c07d9027d8109d893851ab, 0xbf242683e0c1a24c9220c6abdeae8baa12c6203ca0080856bc5e5ac64c3f3261),
(0x6dceb824c48159d857a923344c72b4e5cf2005c56fadedaf5a8b780d3ceeeab7, 0xe6b961f76162ab6ad44f3fb45aefc843bf0d714a1a50d13c68036f4230a1ad10),
(0x3ef5eff12b76432c4bdfd1f823bdfdeef60b5d0f5d0b40512a3e22bb0665f2b0, 0x8741e43e9f78066ed57d317bd50252fb11d8d2353c2c9d5776191c218798b0a9)]

/-- secp256k1_pre_g_128[6848..6911], /repo/src/precomputed_ecmult.c:15110-15173 -/
def h13_3 : List (Nat × Nat) := [
(0x4ce8d33fa53f2e1daa696e9a2de694df2192db5f8e6fe88eb5d5134083791c17, 0xa023ff4069587bb949ebb15ad047f1419985b521ae915f54bebc6dbf5320558f),
(0xda030efd0a3f6363926abcd1182f183c43c4a6d88bcb05193d1378276dcd3fbe, 0xc14f27d32251248e3c4b8613481e7c48f1493b6e5c0716c78d5e3b97876ccf3a),
(0x65c1203487b729bc3709759dbeabdd79ee7f50d7ed2cedfef2c2b7e997192f40, 0xf440d69ed59adfbee087ef709b75b95d13ac0e0620683d3c06d49762ddf68a01),
(0x82c052fddbd6aceb1f429f21eed34d44f915e9497190aa6ad487bd6e68d91c20, 0x90dfd944c7c20ec44ce35d2d4036eb97894f5b936bef62a0f2f65082b0f7678d),
(0x43e2f20ecab47065e71abd8baa511163e17e3efd3e17d790ba924de5ab402255, 0x6b1ff657e37b65e0bf2c5e6047e36c8a2b7ba96579bdc711c3ae5935d2c47bed),
(0x27f177cc6722e5a770200e2ea9198bb9f227251f8efa1988ac7342b0985a3853, 0xa76767a53743db5a01062ccb64452ad1606d50659df8c0a564f049f7764d6a99),
(0x6b1ce20dd15cf54e59aec7fac1919791c40c926c5580180175c09ac0dcce0147, 0xc90a76f2627d25108b89df2523f069a36b102201c2fb7e9c932ae6784a28906e),
(0xf9df610927b5ff70d55d2a46ebc6a734df165bab3bd2739824a607275410f62b, 0x4da454cf7a381056581fb115d36161a44beeef740026724dd4f5500e3a6c1612),
(0x16bd87e82f87778f6b3f1da1a04bc0483b14de01420b007481aab07dad806cbd, 0x13a50b5d886047b76898c85d0cd1bfb487642f958304d54d12c03b259429170b),
(0xf35175c62244f0c3ddb104fa3ae57557424c2d0ef6a20246e2fa48d32908dae7, 0xdfc1ef3608ffb4e82076ae277788444b33880ee5b6d5bd0a9a2ba79f30c4d1ff),
(0x6a9ec43ab8a6cb70465ba6685e15fe2f9e714c0e31f1f227186d95ad2faeccd9, 0xee752bfe4da4feb5e4c0266a57929e56624837046e927e739edec5938d538708),
(0x92e3b0b13df6dea4371601ba3d92f5072388a23e302edf746da973b4613d2292, 0x9442966adff82878f6e0b8d99e56f99c68eea31079b365cc5f057eedec38496a),
(0x35427db7f03afb34d13ba232420e5d9c4a8d16c7924a20430a217fbd4287230b, 0x5cfc1908108fa47c95ff8e02634351d2523dd990aee1700c7cda57c1b106a734),
(0xa61be939d3a33b8f65b8fb5b897598a70ee25e715797014cfdb087f190895825, 0xfa6b7a9cf2a4a71a857bb12644fdcf27c9f4ccf27bf6a0d0dcf8179eaf1a3396),
(0x659868b82a9422d71da877f859956376b999dc3a657278f00089e1b7a3014222, 0x9ecb6c01fb97f69192402a76013f7932d8a82252e6b97c665c727d9de6b2ac62),
(0x12667366d27bbe3ad75f00c7b28fcf2086e9caf6e8b5615eeee0f180526602ec, 0xdbac0f9c32895bf121c90190d5bfea8184289a4fa0cf498c3a3084db1d4a833f),
(0x74af3ac260461898c502229a8eb4e7e0962c8f380897e43f6e421ca33240b7db, 0x72f03ec27c24abdcdbc9af2541e10f515e470c7b19ab968024eecce0954c84cb),
(0x09aefb23d88c5745da9606e7ce81d4f45a39c8d04f5d5f0762653594d3a34732, 0xf797796e5c1c0a569886af6bfd8a829929ae1897ca43314bcb6ed78c6c0b0572),
(0x93a3da8b1f6860781849ca0624c2cec1796f64f84f46da9d34766eb9dfc1f018, 0x0e5c50d0fe7d2f53fe1053a2985d2b152512598130de3cce2ebf300b04b944c0),
(0xed8d18c3f526a062bd6095cc249b7d10ee09d072435218bef2ab6c90c5ed66a6, 0x42084909f4bfb7515ec6da472cba76787870a9fdbfc86fba669e31ff233a72a2),
(0xdba838aeb57fad4a6ecfae8aacb50123decb0f60b702a9cf7af7d78d814845df, 0xc3213cec8f225c2bfc02519f0dce1f675ad59b2091381f0efeef93b03c6536b8),
(0xf1a033b864caff5721857094e1038fec7879765a3b977a4ac661616268c1d8fe, 0x9592b8b90e4cc6a7ce173980e68fc40588a83788a08c60278623ef61ba81b652),
(0x53967cf97058ad4301222e9a46caeba2d8fa447a6b0295abf40b8aa1af1f0097, 0xe8e86c76cef5299a9a15a6d34985411f2a71b8fc99f7a76e230052fdd5309017),
(0x2477d3a20bc3fd886daba3198c6fa6c95206bc1e955e9d4ac6e5916e5883eae3, 0xbaddd174ce70e2851e7ed788cb81cb7a3402276ed94e6e72f20789bcec4f5257),
(0xb483c05e2282445452f44e9e287bc21a634018f7babd1252d7a6bc7024d9cdc7, 0x05d7cd9d23ad04b33a7ccdb0386763425b2338bf48d4f910853e9100e1f3aadb),
(0x6ae41ce96c8f0a33674f74a4587db25f7c368fa883abe414a3f6bf13840d46f8, 0xd52f2dc7d4fd791b36e6448f05c8f746759e68ba994de0d648c6b1b358476871),
(0xbd1a4d61e19ce013d06740bec3ad88febc3b239145563be441768f0145f4c450, 0x88c18e77c5313848bd19bf27374deffb1f40e4799687791e675af2251141fda3),
(0x1d2fccee47b4553b215dd2c7f26412d6733195074313645435426bc129b358d9, 0x93e52147c13791f6aceab8dc95df163783d985d83a4426d2f825d126e7b8c564),
(0x322cdebe05aef9ab957b355ce8e4fa7c23f23f83bf311785f0fc40bece0f7453, 0x2eb8c80e561e419ef898f77212eccab6e6c4ffc25daf67b847853a6e8475d19e),
(0xc7474f425491fe9d51a9e00aa42bc18850d4fa36c19d98696939962e61e207b9, 0x8dd394ad799a69c8da5507417352e7a792a941d2010b3f65f634cdc31f42a875),
(0xac33b3391bddf66a6d04c62cda618bc41ad217c97d37526a38d12e289fa9dd30, 0x0602267b59fe438fac57d14a8dd3451facde0be6c8984b587cfc1b2434ed9688),
(0x158e2a3036f717012020f476dd86997466f157a227548e65688ae79c3bf8141b, 0xfac16be006033e6100d34d1d1e2c95ca6109dfa364232edc8f8f62d719ce6303),
(0x088384c642d1bdcbaf5b472c2f7a54b211ae4947433d5d35add2137433ec4b78, 0x3c3a484d5b8793ae203f90bb476b4d25773b268a8e89dfb5dcb17576166b3e7c),
(0x21e3c1d632299e3b5da75f6e7ffa2958e5d686c26322491a2597dd440f6973d2, 0x9866fc697b9399b74307b1eae27eda12590bb138b22485b9de6e3cfd8d23bba6),
(0xabc484c206d06ec8bba4170f727055de2611145c8e4a33ea56507b603477d319, 0x4f92a63817f6b635d2d944a6b9194d40c4ab70412a8ccf05e2fee03858d87592),
(0x7a98d6d0202f4230a12fe9d2e321bc55a3a3b35c92443731cc8112f0579b08fa, 0xbad00e1b578de9d373f0ea7785502035c5a04c988904923bf0059a3aa8ec6285),
(0x282e401f57ef51d9f9a10959d272e0dae9898f32d2a3e0594a65c901cb1ae10f, 0x6bb8b543e9461164a66d55a0adc51ada4ac311bec66252765b2c1639c803037b),
(0x5259a2f83dacac1c018a9a64d9834c82e862169c7a1b9d242b521c4ad7ec4274, 0x196fac52458c7d1c3dfae8b82ca130ba99d43a408bf41da7d2e9d040291f165b),
(0xcbc4fdda9ed1707b59db217138e9bc1deda499c078f22c284309e184cf906081, 0x2929df0b24074d4275e8a8618f0644669ca0dd45752c7d5c8cf32661f8a1ebe8),
(0x96b294a7ed8d491621f10b043c2a5ad888b92c763c93f375f6d31d9964b9cef8, 0xf5502e330f1416c877cf06f25752998da30ed434365b8239617ab3e165948a96),
(0x287e1f0aa510c8f6273362d4ff8d96f0dd27113ab45d0bf0001af5d5d24f5038, 0x4b5ddc1d6c9c44231f27ebdebf4afa29df337f182a2559b033de6830cd7b9e14),
(0xeed0e3233475ee145160d4b749210f47c58d7b2695dc8036eae0e6aa91a545bf, 0x22407aa5430aa08903f7218f2ca23ea016eb04b33c967e6cd4c68ad716e4378d),
(0x1417cc8772c932b2b1116b4dab4e86a6e7d80fc7b082a6a4c148c50d177299a8, 0x66e0624556f09207ab2d944d167590d644afa2b7b598b92b65706271d7b50e30),
(0xaf6029b893c549c73544e849b01ff2d7b991fb982b8a3baab9f1b8ed2b24bc89, 0x0dea2973a97bcb6d3257121e9233956d43ea91558105559dae17db09fbc14f2c),
(0xdbb5544dd28d25108a91dfa59a3c75381b4173c5eecc8e18b5065fd8fa4fa570, 0x4f84feee755215e9015abfbb0ff46eb69148efbf39f69261a9d2a3453aaf1bd2),
(0x50ee1b42be9598e63fcb04671878663318b550ec16645f70869b231b674a1878, 0x8f4fafc5fb1e714df52c0a1055016f9f3ca57c9e48fca13868464b8d70c6b2fe),
(0x77b886134bcf9ab7a1a6e0bc82137906d5c24607a6d4812ba6d1c8d955a5669f, 0x02ffe0dec5426e8c92fc247fa024f1e286668e7ed7a24c332c8879464cbfdfcf),
(0x2bf8383774a9b9d47acfa6cb6010fd44620f51c4e076d5b7e798edba21d7fb8c, 0x5f3365335203a820a9f75f5861bf2d0bfcad07ae9e29743379d22b3ea75f40f7),
(0x207b12189a6c265369f66738b2e61d3ac43cfedcbd9f94fa2b883991ae69e350, 0xc43b15c8c08b459270c887ddd15cbe95d627a3e14a1c7afeda2b0c69549649c2),
(0x5ec76ba963dbe3e1d054ad897a00c7af0f60f0430d2472f6d3369e8745637cbc, 0xb66d383ac4ec579b8350a1b0b2751fdbf2ab329f6ad63cdbd6d46e35944009ae),
(0xd010ddeb3959bd8a7a7ac178ca573326b578e940b46f58081239872242e13c94, 0x2343d4e2a380fc9f617ed8b0903b722ba707c53da2140021403ac6170d71fe37),
(0x49157637c5c474985590bdd0e4a8cdb9f9bfd422998129509ed25a497dad0da4, 0x2564d49e5c53c818770c8a366e92532b59fb90efe7ff4dbac6baedc6b792eefa),
(0x7e39cef28285f9ad1b5ea71278720954f49335460bcd7f9ab4c7bcc754147a9f, 0x6bbe4096c4c107d1c361befc75916c876a2a0da5dde637bf1f125a215408e78c),
(0x4545731184171f1daa931d3c016b99265935787784a4655c54822c9c1685761a, 0xa13710ad597e7da8f4b12c179afdc5e05fc4f05b0e204567093141499c73b421),
(0xc0bbe69323e256fcf69f042774c59091287bc0be82f0b5a56ea8f9576d647d8b, 0xc22981fc6a015c20525a0bf7a9ba8ac6dab6256dd763614eea250c5ffb433231),
(0xbb224b39ff7d27f81ba86e92a689777685074fa5048b5515987df332015dca58, 0x73bbcc60c3adbb94651cb73bb311f6906995d6118b8238c04519de941e6bd47a),
(0x944896178b4bb6419cdce3125d8633957ea540027f759e39a8846551ad3a0866, 0x4a16c1107730cd8055fb7ddf93c6deabe3282da38a35d79b3238e8eec8917935),
(0x9ae267aea964e8de68398609d63516194019778b2341696c7e44f446dc8fac38, 0x6d175dce0e589920851c02cc3fe3dfeee9398e537742249ce2745713fee236c3),
(0x9e237d91a6ce503a65dafb47a9fc5f7f6dbcf3cbb026ea7368403187d95afd67, 0x64d491e6df79eadc74c198f6fbdc481a330d030f851c7fc963974047ddf2d12f),
(0xa5c5e0d4920f0e3e6973b71b90ae2b322fa16960b850eefa1e516b4c37252d6c, 0x1aae183c52ba9f14f06c57dcb483ba6f740d6bfa7ebb72e80266895ce6f6551a),
(0xa6d0cd839a198c9f62bbefc4b91b696b57a4f8766a16fac81131a9b101b36bc1, 0x97981c969f7585432c810b09460c07f808520e783e68529d7a1d3bbbe0a86e85),
(0x4a75be6416d6a87d49e393c8a26467b94b43887fa90a25bb139626e858b122b6, 0xace3e92ac693f8d4210932c389d4275d75a46c6fa9a7635839c262881b8f83ba),
(0x1559a3397f1e119551d8b4c0fa53b5afc693ab8f843e6b001a6fc4355967d7ee, 0x8e450f2878b2e9ea829e965fae4484be7e98f39ba7b0ecaab777914b848f324c),
(0x33565a4844d9b25c109eb9f29546fd5a3f30d4a6157a4e696029420a21f74deb, 0xc8141513c4e370e2400b8df6208e867d09bcacddd87cd97508f919133ba97557)]

/-- secp256k1_pre_g_128[6912..6975], /repo/src/precomputed_ecmult.c:15174-15237 -/
def h13_4 : List (Nat × Nat) := [
(0xb49c881423db909fc68c73ee3995a7db89e919f2dc697855357053a57ce26988, 0x65878108879801bbae412aff72e83051bb13c41560499b948e0831d3c2e11fb7),
(0x3a9635b0b82585d237068f7276291c4fcd3d211f80fa725658e28dfe920e3e93, 0xa1711c74ba4e1a1ff0a9b6d212c8b9957b6c8c0ff71da246154f13f4719f0713),
(0xce6dc56e06f5c49671a900c1ae531e3aa824687798044497fc5430132572bff8, 0x1af98ef73703f8a76fc88e9ec9134aa8a9e24326314bf4d82a0c85ed0af291f8),
(0xa945a79f1627e79c9ce1cc5b79ad02b7c07263a911f8f78aad31404992bea11f, 0xf41aa3154049b7c80c9bef95f3462336ccfadf0e16c1f12926a5c9e37a443bf5),
(0x3debe447a5f793d4210e1607642abdc3c3a8d4465a553a45d73ede0f20819dae, 0xc0463782dc5383b4f7f81557efddb90d30138670858c41975a47e6a5565e339e),
(0xdba32245a37b56369d7120fba99880a5aa590299601c6cffd33238a0395f8d2f, 0xd589ab1fff44255112aa12833deb9b43947059bc09cb1b324d8a29e11da82b2e),
(0x9c52bd5d1fd61e1f8e75f23ff6e8baeaa8b7b5e15e780870ea9f8dea2b75cd56, 0xe6d0a620c116a7d22b2f797cda7119be556cd834caab1007e9a8ac02f8945859),
(0x1ec28a0f24e8910a85f3c583415afad6dc5e10becc6007498cbb40eab80fd383, 0xc616ac82bc6aa8b71a3cf89cb82d7e9dddb95761dd64da13290f6bd4a4ff907c),
(0x4fcefc4f134d223b994c12740bd39655878a35fc2f50e4050ce11c761a6833c6, 0x50c62036fa49f62fab1781daec17a13c4ec82c577993fd20c5c56d70145c2a54),
(0x85481ce290bb32a6eb0fcfb69cb9fdda580d88085b09611d2d8747f6ca657e20, 0xad2f936185aea05b6a0d20db9b6620eeee718c2b02ae181042f6bf1a2b3a2453),
(0x11aa14247760f6823c11cf4f12c013f97b1c9eaa5ff0a504334d2e41f5daebfe, 0xdda53fb7b09620c8fbcdf9b6605710aaf807dad5c7ee4e9fc7dc9c3423302646),
(0x908c4f4a15c58b2ca0512eb6b07c67d65b08b99c13d22358a52bbe24b3823dc0, 0x5e708db1d4b37459e33db06e21a45fa65dd5c95922ee7b6007162a77d89fc674),
(0xd192c334656301642edf01aad974fb7daf13ce8b2c8975c6ddde145c1a2784c9, 0x96bf7877ced69d6aa71f090886e2dc9cf6529297a2f8500dd683b6a7ebe4504b),
(0x8fa0f7a19713815275f6c886245902efb6e57515c28732fed49b7f57c19c6b9b, 0xc09b428ae54fe6d2effdb3324b1fc1e111aaf4dc965b72c5f97a8a9718fdb68b),
(0xe53249d504d80b5931d407794c550ff5d6cfc71513e0f4194d7b42e062e74681, 0xface5c4ef404cf9a0275846b11339448d9133e1b470489ba64c190e0b73735d0),
(0x9a1c943e7f7178dcc4453de2d578c4e6ab80d53870c03001a7a4d5d6fabca0de, 0x6ae6fb2a1a7d87c099f6eef5dea6a53ba296824bd8ab0848b44d1216c2c0789c),
(0xf0d4f862dd60a74be06c94781b14b9dbaf5847f0baa00a9772b61857bb3d192c, 0x6f48f41390f9cdb90edffe12859b82fff8f7b32bb655f3aff28175c008f1efd8),
(0x1f474fc9f6ee16997a7f37b5f10f1d02f2445e12ae17324e0cd31d2e0c6fb8e1, 0xcbb396e04b754b243dd587a7d71eb673c41b0fb6329013a68ba95dffc6d0d9c4),
(0xdd871b681cf7870661bd7b4d1ab259a21636cedf39ac276d5d36f086fc9ad4d3, 0x89456fa8cce6295e56cd18f59d9b83a64e4983cab55d425d730726ef12958dc7),
(0x5223e3b83809df928db9f4fcd2b8140896ed1b890e6480fe8a6b815bbc7a33a5, 0x95b640ed128da08ea10148d96f53b9cee53077e464eac3ca1f60422575b12182),
(0x65f26a8c88fed56212f116760e2f237db4c500e4a4ee0715ae2e332d74c48815, 0x78df921c545b864d7ebe6c36bedd987c51ac9d73795b3c8a2a125d2f2fb8cbd2),
(0xb62376f4bd858d69dc5d2757b67dfdf71d3f770fe96a0dce3c61fcaded0e2586, 0xc58d5af0d669832f4ff38f98298e9240c62023434e829b0d145093ac9ef023f0),
(0xa32971026001a6ab0ac0e84cbfc4c82904c607d6c214783300b1f726752ddf07, 0xb2c820e935502858eea3b657c15173fbd1d454543c4fa17a591a20d1802d5c65),
(0x03b6e2149477384946056d4adec9e5c686f9873d76accfa4b4a377ec84081339, 0xd7e8ac79e03d1cd17c83ad606a140b26dfe67ed1254a46e29c527cfdc6afdf96),
(0xff6aaeab11cd4c800ea69c3ca10f09a4040b3e51abf56ee72c337414f3220264, 0x71d8a65d7a605e01852f0fcb1bccfef9147007f57c6b83d00ef127b0fe90bdf9),
(0xa08000620064942eb9bc70b9f40bcc7b52c0d43ab4d608b4ff65d73d75fd4a87, 0xde22912280c1d66b364fc2505b3020dd1482e43ec4e67ad2f2e49ca7df9659b7),
(0x7c2b8b507e2256da15afa16684dcb7e7c437b9256c0424506025a551cafadd5c, 0x747b5b360e2479397dd719aa6ce55c0a218312b726adf84deb7e382057a0b375),
(0x631c89e9ee8a3192c593ef08baf3fc1ed30a47e46a4ee9b7e1c6cf5fd6a0a5e5, 0x8d49bbec85a5245decf6b084fc65c697190f8220cbb84525a344263cae10e2af),
(0x7ee8cbf4a0b12cb90d598835bcf13fed72e441e30bc4b5154182cf7bf2818b3c, 0xea3b208e70542467a1e092488f34b44c3821f0dc169c6037a7299ecb25111774),
(0x69c085e586fad3f97b94d5b463b937be5a95905feb33b25e11ef9e8d6b5ab3c4, 0x5badd881779a04f13a7333f2dfcd0fb36167d1680b86b6a8276405596e5510c2),
(0x951c09f5563288a4e25284a5a694aebc1e4b3d45db0f0ef586ce87ed237aa05f, 0xa0c2704afddd2f24462ac715cca728947de034a92c9581113f55c58d83911c24),
(0xba30b6326ad18aae6d87a1c46af749e46d63910676f25f8a673d02495e813e42, 0x6c174bd603def5d002ce342b1d0f895cef792f42a97768b0d091a92b14f5192e),
(0x53a1d69b77ee7d09f953086031e9303842daf062c1ec9f191328b346559fea0a, 0xbaea6eedb33605f704bdac4e749650a7256bf215737d10812c805ed5298de5b6),
(0x23635f56f8122da091d7e3a001125b99a0f87e98a717dbe1f6d9528e82f9b4ae, 0x1a326517904ad59143f0f7338c98f11c2ea0fc9b54e9eeb8c41e469def0ed297),
(0xc574946f79574d9a32c588bb5cd8fee5dc60403e81b11fadcafc69be67c0eb67, 0xd2598c1a8568e4bda477d9d9909b083df55a71169ccddf5b666a8b6196e2f73c),
(0x966bbcbb4d397eb191ea2ecc0871fb24b0c4746933df7b03124408fe583db143, 0x11741ab60a38217ce55bba9f1c7f41cb2e69e54a8a78cf0260bd3d2b22789b8f),
(0x6ebbecdf69e6e137ad70cfd1741ed4044b3620ff15a07f8a769edc8fc1aa1667, 0x2ac87d70baa106f3a3490b56a5960f640fd80160d0c14d64ca1d40c50f244c57),
(0x815f7f4708609fee733b7239b272afdd89c2f9845da8186f4ee8be2e2e3e73ce, 0xa972e06b388be90886c1e324e1d2b95318e99ef3c0120906f1508732f839b930),
(0x2479935853364be74675e3e3c141e64afebf3a04386fa41ef19696bc5d3253bb, 0xd6233c69ec254367673bedc71319641bf9c029a72523f8ba39dc375adf245804),
(0xdb32eded0dc803ffd5a1f3e78437efbe8c098fd8e05f2aaac03e0daf50ba5622, 0x30ceea3522ba7bbf2ffe9c1fbb817fb0748efb4565d01eda9f9cff5cb5afdad9),
(0xc5fb9cd88408cd0033592de0e602ad3574e873be4442d0bffe3bf83751601689, 0xa604a6eb85233ccfef57fe7f8a73c43010e94b8c4189225bfe97637fe7b97935),
(0x7b74932c71dc26be429f53ebefc29905bdf088a30f2cf4bb9828b70111798163, 0xe07d2133c628a82e4a22f58d710b7d88892cb9992f921c2803772310c72909ff),
(0x0308a0254f659ac07c4e0850738a2f16df89ca15fd64b35f8f968413b00b2819, 0x4b4758f41eab6491a8b50fc517f7767badd40ea17b1272d41b1adf095d33c990),
(0x26a78f16095b595f63ff1b4ccd52accaae650319e67554b3a77f85a3637fa8ec, 0x3db38db3ca1e5decc73f21920c4af6ff66842a38c76d62c7c5958fcb67f38097),
(0xbc440e62f8524e7b0aef0af738e60a61b213ab6e713fa9c766d28785891f15ec, 0x175add648d472b3f1547970c6de2a57bd2d3833d2e847810253b3712f4d740aa),
(0xf2300d54ebe04aeb7a9409c43f2bce4672d9937fcf7e2a86c4e8d55aef2a4e26, 0x59e0e44b9e090bfa5291f4366a3a5336a56dbc9665ae1aebe71e8c7de2fe77af),
(0x4d34ac85c64d7d4d97d403313fc19118ddf31d1918196594d2f7a08cdb951c1a, 0x551b6581e6a1949a4bbc211f30fea21505da8389a69f668196f947e5f7c8f7f4),
(0x53c3e6f00fa2795aadab1a45a0f30f0005f0310e2f989d7fd1f4504ed03f2c04, 0x12b382e9b867a8c855461627b7996676880784b019690280e709e91d93048a32),
(0x259b0a6579eced6b2dcaa804ff86122a24e0d338165a30139ab59f30343f9ed3, 0x27195af85217e10933e2e1ba57ebe33309910c849b4e8f6caf5700bf93395635),
(0xfe07b39cf9bd07e7980b45c2bd791e14450eadebf6c41206e73c101d51093908, 0xa8e47a5e7a7cd98f4f5e0afbb5cccf0356491271c85fe0e49ae12558721c66fe),
(0x7f38bd5a87e2ebd4526bfa355ced4f4787c404c774e7f48185d40d10894210a1, 0x04073ed4cc499ca9e7f8ff5cf91f9c4b0782b6e6f6225eddd6f69fa8b0b7fdd2),
(0x8796a4249a251eccc0b3b44a37edd05be34efda1209263433a099e7b8ae40a82, 0xc02ec6802860ecd8f6ac62e2845e8470ff60cc5510bf017949f95517c1dd25d5),
(0xcadcc04b09d4d8e522c153bb0def50fc941cf94f0bb3b254061422a47e6891b0, 0x4ea1718a53d64935ff01f0c337ed2b7ea31f9a15edbbb60dbceef3628a454259),
(0xf2e614fb346faa61ec752d79f9518b1fe8f535bf75496cca513fa961077f571a, 0x1831227ab5a3586782b30fe4720d246768f8c3588472100efea7652604581fa0),
(0xcb10686bd361e64ed82d6aab5373f62db165d3a130bc7022cb3f37abd61adff1, 0xd969d37d9c3db8d42c60a24f44abdf65b19fc6f756a452d67ef1b099613019d2),
(0x6e90385515042422cc16d104962352f02e86847cf816468d05754c70fbc6d3cd, 0x0cc4905880b7c15f6f718ff0ec2d854462e636c43e20dbdcee318a872d52d9fa),
(0x2c0a40ca38f70b73ef4da636185c8260e50643ff9b5a83a0fc0d410f5526ac12, 0x3f1eda928c32cf5764d768ef7a6afeb389dba8b7e5bbe5d529b504105136ab15),
(0x1da8924004f7ac31136097f3ed3055ead700aac5a87ad4c5492462110f0ab0d0, 0xe20f1baa6ca3514eed4ceba59afe1875c717597ab7dd3c37006d638e287bd49b),
(0x5113fec4172e4cf44eb27c6e932e1d93f16b3ec58c791b3ce22c9bb3634f76cb, 0x7b129baeb450023bebf81c01bcd486a9b494884fb005b2e948eceeaea6911760),
(0xa8d236b7bff53a1afe23dd5d63433dd0a267e05f31bce172f80c5d65c24373c9, 0x698101e433e8a6cc45b075527aa4ffae3714324fd5da0ff64fbc7123773dde9a),
(0x79b2cfbcb5a0c79bd2ba680fa1b594ef4b2869da3baba7b281cbf3739d6f89b6, 0xdf45bb38a21f48389e9eec46f34eb6a978967e6c5d181a92e989e27545756aaf),
(0xba0eca954ec161331245f4fed70b725b9739305384fb962bd1a0a014cc403bdd, 0x7bb5626d2ee7d5fbad9cb6237ba4844026cbc27d651811f3926826222df76258),
(0x69609368c01a1920d3f62310311cb7d9cfca46591f53fc311f0af2511f99fcc7, 0x73ee24fd32b08beff4254bf451614b2bc0269e59c6caf25bbedb491976186894),
(0xc0b4d69bd2344ab6df9d8427d480296f5e0333a64a4473025eac698be916f676, 0x817dd44c49b24aaf0627620cff7bb843a84c7eb3cc7e77c4f65ba06a14abd07a)]

/-- secp256k1_pre_g_128[6976..7039], /repo/src/precomputed_ecmult.c:15238-15301 -/
def h13_5 : List (Nat × Nat) := [
(0x80fd0f21435d42a35ba377d4e2401afcdec30b21db770277fbab98413c5d9f9c, 0x502f305aa3350f4f50d418d49b19768e4976020d8e158f2a6cada628e79953fe),
(0x7e18fb260a881189e3862fe09006e1a50e07aa6b39a5ef664f52547e1cd7ebcb, 0x0dac9006d99e8a47d3c5539a508f3f41c649d4754a53fc432dace1071112ca84),
(0xa5b8503e3f7c067e628e5f5ae65a089174385de969049aaa26df1906ed85af56, 0xe9cc7458fda4c95b6b50249895f4bdfa0ad9ed7d346609ee6549fa166e98dd1d),
(0x0d93f866450f7693689bc9a4644b52a93d006ced0d2843324dac7fc0bc6ff548, 0x94c7526a14b30b8cb5a2b33fc6508dcefa141bbeb6aba116cf3cc169ca094b08),
(0x424ec330e4f5dff431ce33ed1ef8293bb8cdd07012b5b18a67b3f4c4d766bae3, 0x94f29933fc5ee8a927295c4d8d28b3a367c60d6b13247616a4dcab96b58e2dd0),
(0x58805d5b10cf81e5b114c37269dd5dffcdf7e153370a8305bcba9d3b7ebfe952, 0x15e7b2cc3ab0ab9ea36df4bdce66bf728c45e295d4a6c94be366f86aab39df5d),
(0xdab0c80ca05aa70ae626f81d7b85c06fb418ca698067b9fd83cc6e0d6a3949e8, 0x4c728c4c527f9839498aff2b91e8a344aedb11cf7ab9486cab3c701403dde8e3),
(0x55b54261cd493b2d7dd46f1c78ad3983787a37e7ad8092d85cd6a55ab870e09b, 0xbee36be01168a67c13faf1476a614b6cbf7b149b4600c93e4ec199e09f7fc63a),
(0xea4f2da7a5cec770d986ba06b1f18ec2b3907a4447fa2bef4c9fbc10d92afd4e, 0x18f9565a41583c3bf7015986ca7c94c74222b81a9ac26eece7954bafcb470072),
(0x5d835d2654e489c30d726f54bc06ee3f1139002300fb8d1661f76b2c29cfb78e, 0x83091f399d1bfaf5216add5fdd4d60a3469aaf82ca6bf5e41070c03f792dcb2e),
(0xf5efa7d1484fe717428e9f5488c12db1c775073e27d028bf7def8c3f4f558774, 0x01139d67793faccc70c7f48fc892c314988d4767b9d6fa2a2f2b632f367453a4),
(0x132950c16f24a24fa907cc59704692edb6a5d25479dea8d838cd71a20a5d6542, 0xb1e87d14db8725f4e2c2522ec2f3f29011d664f0e6e8536806c142c3bfefd736),
(0xe479b0c5478e49b2c9e211c08e610b4c1f1917fe5960ba359af83c9b04640d05, 0x66ab2af503ffbfcafdceb064452c8ab4b112ed688bafed441b66ef8092144364),
(0x41b8288c19cfecba562b30e493a4c796dc3adc21f0c7a9d16adf4459375edc5a, 0x3ae93bec6f438174b3956d57d9dcf29ad673f6ca74c96120c22018dcfea42398),
(0x56696d316d3cb87aa3eb312e1cd417682d0183f3b91f605bc4389d59d86052e4, 0x5e96c041e495e90e2812c09e81d431c4eca7274a002204cba3a00a0e650c6b21),
(0x0ea36425bc35c1f2f0d96a49ce4f444672848c5bec47d7df6ac5cc30d3968ebe, 0xb00381cda5c19740a266e63dd59fea3bd3d3d3ebc899bf9bda8090f81eea766b),
(0x84463c57b01dd5c90b98e0e438e221af58c0e077020540b7da0b4d89b3c36502, 0xdeb3a24f9a0305e8812fbaa2f81e5feafd24c3756a529c3cc2bf4aa38d87b30b),
(0x13a22d5bd23428f9912df3be0eb82f4b411fb39b1604fa7d4db63862293c2310, 0x99a19b77c69129001047d70b7e84ed80a842770967384cbcda11a1586ddfb1db),
(0xde01723152bdadcd021b028b4cee806b89e98728f91784d3a418d7b122aaeb57, 0x7ac0a9cf15ff4a0cf7d8a0e9d2fe14691a08d5267e3475a9381be3bc64771e65),
(0x1fc635499d462327afc13d0ceecddb5ee99bb08555076d887c064e8ee40396dc, 0x0841f309e47fb335d2691c43248a151b426f1205ccba170c7c64461554258a55),
(0x323e5acbf821f1317ff1dddc822cba0ab3b2380cea2f1b76903c906d83491dda, 0xafc25ce3b13cad246f6d9a2f71e97d1ee31bd2b50967a5cc7ebb1caa00adc7ee),
(0x57b1ec405c187317ff9e70dd2fd0eca8cf2b94f03d7737acdd1468ab61f56384, 0x247e6f6d7e2e70aba8d5079436b1f6a0b27865ac791d1f08c334013a4ed93386),
(0xd6f5f80f80586e875cd322f57836327e225aceb56d8a83b16cf3bd124b581074, 0x0e925199b597c7a0a179cf340519ca3af35b6d9b24d76118ace70f99f1932979),
(0x2fef6c2feaa8c4e71cd31179e0bfaa8595d26471fc36be601df75cd994e73c02, 0xeedc95755bbca1592271bcdfd9ec8bc3466e4b7736d28abde6d68ff9b9820f06),
(0xe488b041358bf98b11cd31a777a7d93de9cb3a61c49fbafc4bdabcdd7b895964, 0x755147d5ba8f1d444ed0eeb3d072c11df448c132b9e06f4d66f92ab37114a1b5),
(0xba2591b635e7747f2055358911e7165e618b6150222a70abafa66bc9a931cf35, 0x03c60585b16b1d077bd578f185e76bf677ff788ea9b2caee6c64ef9b143ef487),
(0xff4b12b3cb0ec8d1750c648d6ed2695ea41f8e8258ba8b16bf4727ba6120ccf4, 0xe2cbc52bf0031efa74c1fc8d2546688841c695d2393e19e7287bb34fafb689ec),
(0x9e42cb1caaac0c6247e4028d501c84ba06279b390dd1742473c2cd109bd36063, 0xc9d0d646381ca19d528d2ff2b04aaefd9f8095a68811f8e3e85b5ff105a5da5f),
(0x610e8f14eb180ac5ee435530812941e3ed7dad5fc7bc792410f296e2449fe005, 0x67632a19b1567d77b0b5f01377c6a05e9261ca50d010340a968d8507877fd4d4),
(0x0f4c4230443f33247be7bd5e05cc12a027f0ff23ede41c44beacedd064789752, 0x55d7b7c6866f6bfd29a410e98d5d5e2198719d6093e2bafa697a8b5f734d8bb8),
(0x066221ff1d3447971f308b89a26e993e0c4d1c052c2fa4363729c9aa8c9dad0d, 0xc0c78a0fbe8ba04a932a7d6d604f0fac4ee014520fef801d36d3ca93c4b7a965),
(0xc3ea4e8df8ac15b21dd251f97ebd19ca2d91e97eb13085fa982949156aecfcf3, 0xa7286bd03bc8f0bba3d28b6fc513c4d0472225b7aab70f6218c1a735b31f1547),
(0x762ea6168b3056b9da318ef753ae0cb4ff57eb158fff58ec7e4fca2cb605a49b, 0x195d761e9caa7603ff1b5ab985d4bdb9d128ba9333d6cd94f00c62f29452c8e1),
(0x50cbfa1cf9a07c2b427830778cae738c03c3a0d5617b8c6b8191472025712a6a, 0x40a37fbf97da5646a653ec25eeef583e015cc1db5bee9ebfaddf9706cb14e689),
(0xbb8b806c6798d001f0d6b31d1b17cf317a5422d43a906a79294e5243e22ae3ba, 0x46b763dfb7a7a96775b6b3acd21cfa37a187ab3999506c9931623acb841d4dd3),
(0x5491fa1d88f0c9f36d87e074331a9a6dc17a5f630b1e3326500a5bba1f0081d2, 0x6c206f157dfb29d03b0e587857d1abb35f18b260045c58da87e8c1287f699a83),
(0xc9d2726f5ce823a3ce02ee66262d0673f04ee272dbc16cc027068850cf472435, 0xff62f77e60de3ae152c7f943c3eed295fe6a7aaf8e6ba0dfbb60a8a2b6081aef),
(0xa0d934b468151a34cea5ff0bd002dfb0ec51df7dca5afd3556acd53e39515256, 0x2f27f413ac43711dfc69e5af785546f58e0da1d0c9e89271c8933b215998a999),
(0x342b7a8da36648841d8198dc5e17b669f4e602bd5dfb28f095b7751e4ce8602e, 0xcf36fd4b24cc36a2806f8926db6951a44c54507670ee674e8e2fefb7e33f65f0),
(0x1f0993db1084fdf26b2fbcfccf0c8a24124c247492acbcb96221b78818542b87, 0xfbf92437f6feeffa4e04267ac8dc57d0c6d521b02631c20f876fd9f8b00793a8),
(0xf8f4034bd7fcc9b4256433c0c2b40f9b2f45a1173a371707f6ebec47e456d9aa, 0xcd895dbed97ab95cb3c98512c46a538f385b9b265438f7f98caa245cc680f54c),
(0xc80f3bbed409d5a8cc0502ecd7d95d8b69067e61fd2e8f7d45f06ba67db89a33, 0xdc803aae6b936dc727773f6e017c5d2daf87a1f9464320c54fd0cdd6d7ef5c1a),
(0xb19fd3c78ee32a3edba4d6dbbb1464b85b3a58657f0c06f831af5b39de2b436e, 0x242c72a191f176148ee25c12e0f8d4ad52837a489b94b16c027c805343c8e523),
(0xc88c52f8a658160cb10614bfc744f668ac46b77494592a1b99562a6ee6482099, 0x5a2f3a43bfa6873e7a198ad54fc0e3cb2047f2686396231aa158a5ebf4aa3170),
(0xb5f02d998f8f1c5a8c8995b06879c8041dca6f173666613c0efdbb82820164e0, 0x08e39ef2207f5d312e36ce553569d2d72204a9f2500ccff850bb67d0a0802585),
(0x4d4e728b5da0713c18fdde5b290d24aef7150d42f9e5625ef05bd17b124f8302, 0xbe413caab7c77064911102430a20545f8f9e535749ce98d5cdb413845471bb5c),
(0x92832d0332f7ebaeb67701caa0a2bfc2b36b6403742f4ff5ff2ae46c242dd226, 0xcacf895592bc2fd290dc5b5fb418515903e4a6a0709a51f732e8c5547cdc4114),
(0x2807a982b4fc3fc08908fc5eb3734a83b2e2035d8c6e3036b16f9ac2f4bba58a, 0x0ddbb9f83a9a6ae09945ebfa9cb7e7a84979803208545379df582f9372cea69e),
(0xe755ddd9139cc4fcb266477d645b4efbb02088da752d10afaee5ff8a45df9659, 0xfa7daf3d605846c635e2534d746873abcd502ee427e62c45ef66401bc816beae),
(0x93c33dc5152a9bf831c3cf7eea833ca0485f852d52a255f355d7e67ac1964f63, 0x4a3a36df13c8cde548feb589dc56eb169a874272c7a0becdd40554dbcf4d8f63),
(0x70d66e2c8f934356d6720d9b4809b9846c7ab1c4f86049900d2e559b0a59c24c, 0x24e8b6684ee0062d7bd79b3ac96e0316dcbffe2c973ff6bfe99590fa192603e8),
(0xc165111efc2d7105f6bde2aa7f6822872d803fa2ec904380027195cc147904d2, 0xc71184def408b79f32086d4b2b0e5d95aed6e0e0eb99bfb27e917abb8d3a5e74),
(0x12144a6367cc355e00e75486357b0c79ff4fe70357a2f89f3e3f7e20ef860204, 0xf2bb05e60e55171cc839fdb12b49ba11dfd53af17a5a960204327f93940b8491),
(0x3179dfa8bd1347253988033e70f806defde9c6c7aa4a6d43a5cf110d6fda7828, 0x3133a35affd1f24f579fb3142e72590e475e931e8766d462842972cd70e49344),
(0x51fe3e70e5f21b211cae97a9d0fa49bd166dac1705087ac3a93219bfd17ee77f, 0xf33093965677c6912a987cc15b3f016a4efc22c76f89f56204830f09a9fc9bd1),
(0x02d7c98ca224ebd2a516701788018bf21f29444b6eeead79dfd9e5037fe1680e, 0xabae552bbbeb09d9dc82af6aeea16d50613c9314be23eb79d254a16cdecdc02a),
(0xc356823a37dc335a918a5553bb0dfb9c704ba647d6cef22c1e71bc9bdedaa333, 0xd8715c0ca0ebf8bed79ea3d085a70d2bb40efecf7dded60e013d0577cc235e3d),
(0x91af0d4a56a75616e9cb13514ca27ef1b7411d9e5991be14c1658450071a2b3f, 0xf6c845a876657a63ed37bd3346ca60efa8fd151c24a9e35c5893f96902580e26),
(0x6a32ae3693ee1e7b77fe84187266e6c5cb41c7a737351cea987a4f80a26cbe00, 0x02816504dc3efca267e4bba25d4c9dbbe8622e994a71250337320925ed5f64db),
(0x5851d3275e18fb4d79292e6e2bd6bf29b6301e087b418ac143afdf707d880901, 0x1e17a9c3dfa8c3e6c1e9c34a785321a6e58d8024c61cd02a8b83ad41a2366211),
(0x233a98a89fec3399f74d99cd7d5d48941be8274d8f7ecfa1f4f3693afb26a654, 0xe9d5a9eefa5e6cbf09ffe590bd7db1fbb9e0812593f42238065298e9eb42d7fd),
(0x8751bf4a9676e2f95036c3ea97749d8f0f452f67cd1259c84c39e8de9cf796c9, 0x4f883d63bfb0a01b0e26b31b53ed875549ed6c1e4b67a1607fb68be17b845711),
(0xa21126cf7330697d714be16f27986c9dcca4a0f003a12b6ad54ef31ed7a3dc23, 0x3b0e984f565d98252c523913d2d90a26b47973a48d8669f68dcb4c62399b9777),
(0x8123c44196d17ce1c6c1a9d62aaecfb4cdde74b9317599ea450e62f15639c3e4, 0x406c585bc9aee3eadedc117ed58b1c3fdb5846cb6eb11592469bf9586872b068)]

/-- secp256k1_pre_g_128[7040..7103], /repo/src/precomputed_ecmult.c:15302-15365 -/
def h13_6 : List (Nat × Nat) := [
(0x6f8e1a45c18ebfce02e2f710efbd7ffb4f107a32fa6a46a4caaf8ee237a22805, 0xb36a7c4d712315f9a89b5ac28d1a5d55005ead810d7c43b88155eee2b3ba8d3b),
(0x51db2e947e75c9d54ea07ea3359420715987090db81c3b9940b856842b0f0bcf, 0x70967acd454e6ce8ad015f45e0578940c95dd81870268d0b9782a5959a1462d4),
(0x84e0b0fdb16e03c2cae536754eb3452c86ef07a1ba278abcd5aeed37f71a3151, 0x5a8e435b53a4b51e2ea659b71f3371eadfb285798b062eda300664b6d3b204ed),
(0xced68408c2b01401fc0390595140ab6814142b7ed69a64bbe6ec5d85be833367, 0x76ce247828d2581f6779f723327fa83c8cb10451fc34625b0d0698853cfad07c),
(0x8d860f70a32921af6376c310bf5093e00572e9b344e9204df5487554c4f5484c, 0x6dd24078cb9f8ea00eeaa4f43f3cf99c0890966c5da8fe0f9cd7012888907cfa),
(0x6223ee774e56b9e3da6e008aeb3ba06a40bafa1e84383ff565f98286d9095d37, 0xebcec7ec0f750cde9ff7972d172340c3c324d843f31db269c3f35a62c5f15f36),
(0x326943a55e7b7ca6951a78ddafd00e10c8ca7f6f3c01a038ffc4fc7a20fe2c63, 0xb3bc5a8bc87ba023ee22bb4d3f92cd81787f2af24ecaebe267fe0a8621c5d201),
(0xf69b5d4aeb0b550f851f601c92698789f9f9482147a0ade8c8a19fe05742731f, 0x2a74e8bd94469645c8a328b424975dc493adc83e04baddba06c41e103b58e90c),
(0xf69a5a88b8f13befa987194d6b00a79b7e5767493d180fe032a1868a26d853ba, 0x6eb589cc9c51900ea6d99110206f60ddcbdc368f5ae8dd48cea052183415cbfa),
(0xc00ffc9d8a57cfcf9624a812dd2181f7195f459c3b858a19864393bb1d1a269e, 0x3097e10ad6abfc0a3fa039fe952034e76bda4fc5c5614092b124ee3bbf55f87a),
(0x9c021c49d6671103cfddcc3d8e54848aaddfefa1d6de5455e5bda021126dd183, 0x4fa1ad1881362f4ff0587b52a7a1b48302d141270434ffc4c5bb90e4fce50834),
(0x59aae0a2923bc36a1a5bc8cbea5bbbc8b34f15044671a046eb3090ed3f4b2345, 0x659f89e0faa1577e3617524002cf1736a18b070e4d4b0fae9ed08297362cb246),
(0x7ba1ee89479254b1f32e9e53517f096179d17d813ab3666a75d4bf7a7113f252, 0x6530b40b7e66a0849716877861cffd965eb71e62e8b0ad7a7d2851aa15a26dd8),
(0x4b0e5728cef356a5c6d0861647c268b4c8a12d8e89c2da7b78e9db877b606719, 0x235ec0850a1f365111b5f03d7237dcf3d70e851a6dab8446010e45fa2996e70b),
(0x54285c70315d9a43a040bd0570c3571368504efbfd10309879067d6e765d4499, 0xde233654e7c05b5ef144d25c6d539157051e83ce7f88dedb7fbef11fd6acadb6),
(0xae15f764d20e4ebab95c3463402a2159fcd21daffa831b3ce47bec089bd43da8, 0x474c4cb8afeba9e93f1d0a2d289112980939328e5e364d4468c64cf4fec2eb78),
(0x6de8743a68c42b81ad069f2bfc1482c0204640f774515924441ebd9c917e3974, 0x7ed602bc1630064886ed0369021936eeaa5e9764ffc294e0bcded12bbcc86f55),
(0x007e4951dfae38e6f9869fd96d0588472a38b0f8827052f846195e2144213a47, 0x06fa2e60a38833830f8efebcf39329a30b7aec312958510adbdd5a72728035be),
(0x1f7eb5f447d535373d29770d5d7ed36ca2d2a4a5550d8bc1849382fe3847df55, 0x5a351374da5a804e3b995d4349560f7baa417dab936860c5baa252cd1753f25f),
(0xdcc1272eb31560ec64a4b53d24727bdeda576493b571b5b0aa7bb3ade8b2dfb6, 0x567e08e7bde60e6da614f3210a9cdba41b860f41387b3854603a8740f93039b2),
(0x3f4e219f5014414a03c757cd2812004303cc199bfa843c40b344b32b87dc7e7d, 0xdba2099d839e9c1e7d7d4c0c9444e9560168e2bc4df1dc52bb5b4da63a8283f3),
(0xdac6f26474fee94e0dfbe9decb2fb88e272ff6224d7f8b863076337d6d37acec, 0x1bfc68555af0f07ac9329ed75549560e8d3e0c67753d2673eb6706b527a0de10),
(0x82ac1fb65a975de14bbd57099e2574d5ebf883c77f38a7c61408dd3d5e49b33f, 0xa6d9dde8b43656b79ab5d880f3af2ca8b70da7dc251a7299cb236b1d75276c56),
(0x19a59adea0da134036a533b8ff202a5855b9182fb19e8b79caea80b09e263706, 0x58030bb40b17da5b1879a67a12c1d92988cee2a5d8915528264567629a99f256),
(0x27e8a699eca192b67a66b1be5b290e371ff8e9125afef253134af2c6ae709ead, 0x54ae605958d036ec959d789a05316c70a09db19b179e5d4feffbb057abd87eeb),
(0x25e6cdbe5d7e37eafe2b51f195cac7070a2aaa7057fd5e788fc926cf76e65466, 0x576b2c22cb6ba6bd6acf0eae79b52ee401fdebde25293347d624973fe9b66be1),
(0xa0114d87cc03bfbf97e968212b69c53f12910c87e87e7a79109f83c17042dbb0, 0x869c33a4cec89d65633bbe60a3cf7b701e5c83ebe7c229eaa4c279a04203a9f9),
(0xe8017e4e806557e4061ea997f5f46e729fb668d1e8faacc35804c35b6d5cbad3, 0xeca21b4c294ed18dd0df0dbb771b8bd1659c2eae2c843f8b0bfd3aadf44a4070),
(0x948209cc528dc6d6a406c99607d7c19119ab5142679ac9baafc5098d04d7c83e, 0x3cc37cf51aecaa1def14a2bdcb6a1084f3e60da09fdc4fb09d9f9fa584f14b25),
(0x10f4d6e1c141dc53fecfbdb0b39e3e8ac7f5279bdc231fdb55b25551df90fca0, 0x4f5e59b09c6daad580adde671583af4dfae40d526017d5b29e798bca6917e735),
(0x663618885d081bf39e9fc4bfa0922dbfdbbe8eae451c199f9aa844f071a327e4, 0xf31b98f64894070613a086df12416779a5c16ad307cf885d5f1fdb371be94cce),
(0x6afc24bbae6cbfcab34fd467f23a31a44a0a35f60203dd7ba881ee5f0f340db5, 0x7ab76f2f6bada7ac1e01c93090c741fd90c41fa6943aa804ff960b173ab28cf8),
(0x3551d5722eff7d0b0275e310d1466a702b828d8cfec039aace629aa12a9c23a6, 0xb58af71e1f9a6ccec48d1fd118902a217f1e7f353ee9d7948133d41e2d2d61eb),
(0xe6e8ccebf6096fcb8f21cd9ed428260dc3867e0d9c4cacc8b8900fff7bd4c1aa, 0xd1b120680f85e64f7c9de5caf1490bd86dabf18b4b78b5ef531d9bd4f64f13a8),
(0x5cd74a22d46e776915b3c84a492fad118790534edd8d9bb1e117a6a478f566cf, 0x397b2429f978404fec96a4b50028db5a1b0cf9ef61f2fc7d470f0554eed5ee08),
(0xabeeb656151fc7a0fdfca1ae0fef91a7ae156db7c433178fbe6fd700991e8b86, 0xe2a102163a8bdd0e8254f459b573d182eb55f2b4969a3f800267b0609f208a8c),
(0x3f9702ac03b96bd4ac9412cc08f40d5c99f4d7b9d211bd2b18c6f96aebd2f958, 0xe077e28d8f1716269488fa5b67a54800b0d5a5194384ca56f9836b8768e9821a),
(0x3c8e54a0d094d63d60aecab8675349e90f229995587cefde0eaa1f50cf3032ac, 0xe77aa94afd2528603bff0189f11d5f93fb26fe86dec719b2f8bbeda13cf38ba8),
(0x8e88168f41689167ead8ca795ef784c98e3cdc4143a0ff8f2891d47698387bee, 0xfb4bf21f343fc6ebca6fe337ccb7a7a6899bb29fd2f60480ffb0a187e875b00e),
(0xd5c7df6f31001177f2e88aa5432766177a598335cf6ad98ae55a6d661b75c1ec, 0x2edb20b547b7c23323d5c4e3295921d909d98854e780f4c1e756021d79f1b035),
(0x262b9c5875087b02490291f30963160cc1f5a3a0fd6a905c25c98bb9f7268514, 0xc7e4ec06b4cc77a4ee551a5f6c90ea974a0b21930f1b828c305a0fc1b22e5b81),
(0xcc94ea5ba4fdaa0693976b76893dbd92f602bcce822ff2717a13bc2d6b31e7b1, 0xc81c01ad0f2ff92f05c2cc42f3c3009111e6901d36c9af9f9b408df5c7460932),
(0xb21abb234c4351975b73471e3b2eebe2f537b95d1b19361d31ca4e63336b0066, 0xdb02da3673e62e9de96e1bc7b79ef4ed49449c297f4f0330227dabdd5b4c3d9e),
(0xed1305125af211bb28118dc70fc22b8e8bc2554a0a19a8c716f69f11a03df1dc, 0xfa146b3c02e0eab2bba694079ee3b6f42f64dab39c19a1a4256283f5bc0886ec),
(0x042b829a96989e8237e4820020eca1d9061e487da9c6f9ee60586dad8fcd0e83, 0xc2e164f029b6cab014fe76ad82ee737278124cf65f251c9cc260e23950ec4014),
(0x15f09133fe57a223e2c9ad79dadbbc7dec85df2c6af39fd4a156eb0b1602a13c, 0x563206acb190bc2fc7b24d2eff376cb864102efa12f7be7384898cc876a12b4f),
(0xb84463874262c03e312eb0cbe562f4608cd4f65a75b099d0b45e0de78398f5bd, 0xda730acf79fa0282a3a29b9907a0ea45ba0896e7598be8fb8298aaa69b94640d),
(0x6a926c00ef4c32f252d9f33629fc708be21f571f1f320ae86e6c46b89511fb95, 0x9106e0c82eb9fa364a84a2e88eadc9aa9113927d99adeb61a2ac55275de9a9ba),
(0xfd6cbc219ec03dff8f3d00e69de0c64d30ca5a041556d0d587339b0a0925d064, 0x742ce8eda4b47eeb29883606211c453ffc15ae40174e1c74656a78eef3a85e8e),
(0x6fd7f1b76111621868e1038f00d5f341c43b61bcb6ec53c28d84b321ac664274, 0xf681256b947a94925b8402e426ef8d5320c65a293a7758de6b7e3f450a9d635d),
(0xc28c2cff1e418550f73fb83958c1ca6d04c616c374a67978d4dd71c199902ac5, 0x0537d774083b1ca9050174ee381023decc210f913a66615cb242829ee3285285),
(0x89458f8b7db2cd74346b8b7400759088fbf815915fa1e97a3f34ff90908cb183, 0x9b5b21fa0378f50fdff2e2760353179ac0a6e43b13373940c2e73e20106742bd),
(0xe66ed94e0793b894552b389388a657d855ccbb2df9ae00612cc07244bfd434a3, 0x8a6a17f5da95e9077b03192beba324a35595b6d0660851a47f9e22592f093275),
(0x08c7e4cef5dca16e620d6690ce3b93378000ca08e73eac21deb5deae83359160, 0x29a44639f9a6b8ef990b72c15ca6f53931000a2f394b59c9365429927959c505),
(0xa0d1611a807750a245c681322f7adab109b81de3809a9a82ac0382940b732bdb, 0xc6e35357246fec0bed0c549124f13f9aa01fe39de7630357110a587890d9bf95),
(0xc1cc130c474f5ebfe4b4e26e0a444d5d7542609a2bc65a689c6453f79dcf6ab5, 0xdeaba85cf0f7f9facac2415d9f82c62e9caf457efc9149fb55bd8f2c32f74ea7),
(0xd6dd2a36763b77e6259f130543c8262b784a268e45adcd26efbd6d54afeabd68, 0x2987d0489549cdd4c27222a19562b00556dac5211e67d052e76266bffbab179e),
(0x885cf8e40ee0498f29a7f3b6a24206294a941f56f3d852e14641a6049415c49d, 0xb1002bf3e34ce44d54a18be53737d98b28ad0f7f31d9bc37ce31279cfc039b2e),
(0x8f0c57d03d85979d5bec73461f0a3b7d540fd0c38d8a6775fde2ca35ec8a0d91, 0x86a3f4a2cc4f934a8b833cfbdbb96eaf159e00eecaa0871b235e4f8f97bf542f),
(0x53456583d2f4d9fe1a13883b7775b3633993c9ce6bca547fd05021a2d36cd366, 0x92cec0bdcd83312c455690fdd715e41ec29cc70df5eb2e177f0b2caaf3b5214b),
(0xa5ac3a28fad5cda9200bef2c454b73eebbc853a3e8b2ff77111ea25e5f3b5359, 0x4951843f6e23b9ba60f326b5d6b13f1ff49e8b3db399be4e46cb3ab57ef10bec),
(0x2ec53b3e6d91835ed236898f8857a64c4d8980989af6ba600392b77406eb99ad, 0xe21f4abb0cc05952eec3fe34f02d64c7e7a91658b0b11b14118c34897bb2a2ee),
(0x5863f940a45c8f5ea236150084c588b8a7f99d2684121d599073d38a69494c38, 0xdb422c3841a2bb3298390c98e9f4c23cda27c64ea54818700b33a2bc866852d4),
(0x3492772ed177b4a25f9eed037094c52baa72dee71c5b315b70948dcfa1975a64, 0xc5a2684426418929b5bd148849b3241bd0eb5243611069111fc32cdb29087562)]

/-- secp256k1_pre_g_128[7104..7167], /repo/src/precomputed_ecmult.c:15366-15429 -/
def h13_7 : List (Nat × Nat) := [
(0x4405762cba4f63b42401ce63120c3599af37ac13d2de044d0026d8309e664a4b, 0x3143da5a8319bf4d32941d58e9bda80774c58380ad8c3a33460bfd8536d9baa2),
(0x4894f4570132469108f32111e1bd94e8a43f717d74e8c465550e864b9ae2a16e, 0x9c89818e6f09fdc5b36c65f712f26be640598712fefda7994b20096707de01ea),
(0x620abc9d04efdc1a55edc41f29834528ca87b333a8678e8c205d6817cb7ec3cc, 0xf524cc999e911d67dd0e8bd43e003ec164af288f3135a6024e93856f8110f867),
(0xd69800fb9fe61ca897f772260d42749b1274176e29bb85a6226f91e1e8c62a7b, 0x43baaafae10649d3ff2bb0cf10c58f8af01fd3f41a06c245a4e9c4838bc9e3f9),
(0x87a12e5ed002cacff55901c0d374f81cab9da24b80e1fa9b25f038c938344721, 0x036586bc17aaf4d25d02ae3ee9f98235f9d605fc1954be4adbbcb9171f736d72),
(0xa0af0d5cbfdf4fa898a3ea89867721d63178341bba30f091946c72afbb876624, 0x100f795b18dd85c09af012b25d7d5d1d5118d02d3837fabcceab0b2399f98e43),
(0x0ac94b417becf8571248a94ba853f4f90dd47284157e0b9b1756c4cafb692086, 0xcf94bf3dd0c7f89facf8f6785508e510faf27a3310915d9980b9fcd962f75c92),
(0x649654d2966fb2df0b917367e2ea4034fe8867253711bc4008520d5d579a3481, 0xbf8ac886a7550c4029279fe1c4d330d089935427d696741266d79ec1f1a2780a),
(0x5f7776ade73826a7fd2969a61511141fcbf6fb1123c8d7e43ff93835ee1860c1, 0x09faebe02140468d4564f7c8bfe4f097dd0ba4938656fb43ea9f0f8d22089e5b),
(0xf5dfe7bef4c42f3ce91fea1810402c5a9072b001286a737135a00fd5c71e2f17, 0x9787d33f821a0633ab1982a4f9240b5338a5644a4d203b1c6b5cb2123c837b4e),
(0xd343281703f33fa7e517d6f0408bfcb46a882c0a6d78feb744f731e74e1bed23, 0xbc1e6ff7cbdaca91edd419f2e80e617c0506bf8d8acd45488267938b0813a281),
(0xa442084695528dde2c52d5eccd67266e3024865ac6e812e51ef4f780505f9d2c, 0x4a721caa63d62b9ac23ac7177a27e27dd54e5ff8aa204bf73e6b31313ccc31ac),
(0xb3818c70ea29c1bfdb63ba441e42c842011f9d2e4d6b07cc79938d3bb294b820, 0x01b2c711a98418b8015abf7944fa75b7db8965c31779d4e61967f0098c005d2a),
(0x3854b55bdef18a477e87f62ed7607c6daa2e737de0e5015dde7e90e4570d43b0, 0x2865de79552c68ce4841ad3a69376a369d74d55a98c35d25f97656a2fa22785b),
(0xe2e805af078bf5926a37fac87429f6ad88c455220e58e5c92bd2ddcbe893ff33, 0xc2206185254ef80dfcc7365f1dee9a3acdac0ebcd0ce6a5d4c9a6875f07a46f6),
(0x37510b86df2d8e6010d40e3477af6c2447f2a41afa35ed49224bee62eb0b77c1, 0x1f30b8026a3288d9714b33b37a09cf20cb754f09730888d2a09869ac1e905ff9),
(0x14b2bcadc5272c568930c574d745fac7d190558c121df6e0c2c9cc1af9662fcf, 0xbaaf56edf70fc0b6520bea130a8794d2d397e935658410286dafdc1696caaf3b),
(0x2984937ce3d6a1557a1856099e44bfb728dc6d0cbd8c628a23a383ca3f38082a, 0x0637c5e49b0943d8e09960fd2375770c5d4dc4b13ea460dfd5ba49abfd6339c0),
(0xe64f46dad9b9e7ee3d2878b2f604728b8203a591d02e7d23721fc436165918c0, 0xf7ec0e4c9f66adf998b8e41ad43fe3e47cb9be2306356ef3ef5b9a23711e1140),
(0x3f587c9f1b88ca37d32af584e510609eae113e548d07fbb9a34f6916908f686e, 0x37712f5341485518241835aad31c45b6f5370c6b238380a4ddbd075517b2b49e),
(0x8218250db1ee7484b8892bdd53be130b4b5d3db47c3c9e365a17baac5d8654a1, 0xf19955f2a7f954b92050c8158e8012228e77405fc9f0676e76ec2e4a0f3b93bf),
(0x5ad1a4a255a22c56e8d17acf786356f17ffd6453262980f7188879be9e1eaac5, 0xfec5d2b7ac26e4f2d4d7af01b49295c33a969fd528e3aeb390e86bf985093dc4),
(0x1c92ee58c5226166c313b4915c731d34739068b8f0241dde6f0d7151243304c6, 0x5dff29a61197aab4c1ac8a25625c4dc11172968015f03488b8a4baaad541bcdc),
(0xfe622f9bfd9c4ba88c80c82dd1a07bacc1c9da11996240cd050b6a41f6f8fdc3, 0x666e59ffe9efb9a9b7c36539ac948438f1de235bfbed8fe73a08407639f6b901),
(0xb2e8301dee34bbc1d95de73fb947bbd0325bb3a5555738a208fbe4e30601a40d, 0x6953963d3496413c053ef5006def0fda607d9a9a319cb93e022d9bfda0c3b807),
(0x1505e1404644537b56da71145efd34d1566ee38fdd4b549a34ff312d5cb9bb96, 0xd6440284c1ba972b413f8c127fc4000139954fd25ee4993b4dcd5e3da2b843a6),
(0x7a52440967918e4753b451e5243c6996c053fce61f49299508d2bb849fd1088d, 0xe089d97319788a2e853a3067c4a98c594fce75cca9ba908f37780e1e567b7284),
(0x69eff8da8efa75c2ab052d71e898a975c58a074fc46fc6b32b385e4193ff5a30, 0x30e873ca0f0e7d1de58713db0cf7c5c96c9f068fe0e3d1d6c3863d448da1cca4),
(0x64a5649f2da4eb151be3fb68b1210cca61b3249260225ef55342699295e6d6ec, 0x8c53c12e008fbd7c811d4a85957871054719c5fc368845a16b8babba1d92f56f),
(0xca23d56f46ce3458d95a5b24d998188c3ed76a222034b337933c42988c804fdb, 0xefcbc7c7d0d11fd3ef1c0ac138d1a2bfd0e94a85a0700cb30630dcaa426a4c43),
(0x630b2d2e62bf28a2ebf80f2c02bb10cc82014ee0c48e15a64cd691db0dfe8a55, 0x908eba92e889f1324da0f9279c1bfb74dcf16786c9c8a96479757a79d4443e9e),
(0x29b5c3d257674ebb1cab5fd0565342615a059eaec8002aacc000a857a7b7c840, 0xe7724381f3f1cd4d198a06aa33b7fb9ad6acdd5745f900d7be34fd6d04f6dd41),
(0xf4b9c47a2454985fe732c1513216f7aa0f5de76989344c0a4b8b46fac15508db, 0x9c51095ac45d901a75229288fe5d49c11dbab43b9a030cc7c6d71bf89d097378),
(0xaf0dbf55079f3f1f9184714399a09fff75c8922b48213c421cb17d112ab7ac71, 0x56e7f5fee96e464d50cf98b290a04917430bc2c672a411a0008421498fe23d66),
(0x7ddbb2fb00f5d68e6acf574f1fba12e8323e06d00b6b80cb1b9e93685543a8e9, 0x888670aaf057a0511738d69d162ac2f49074e5aed28cd6a3a30edf9ee874d7ed),
(0x436122572c25dce04a0273a8a83890da3a27848b103d5ee91f0bb33fddf131c8, 0x62cf1a807bdfeaf77b9d90bbec403b7ab4261e0462a16c585c9e1435afb177d3),
(0x8691a20c6df3b947e173735bd764ce9a4a7773b404b4276a873786a88e5b0932, 0x0974ca0c6644983fe4288afaa80c03defa8d9215c148a63f1a1d4aef365d9e81),
(0x7376518a528c11900b95cfdbef241485c84f34d93690041ae4d8b0db0295fe87, 0xfcd56fa13d5cbebcea1976360ad3e7bbf9faf47256d44489e7cbad3b0ca9e01e),
(0x9c5e491d838b7471087eeff8f44ebd70d6087ba70fa2b9578302e46a3e5113ed, 0x3e312d47a32d61eef88dcb4daa38b0247327ba59cd37779875bcd10c2aa13278),
(0x884a97109e6e95f99a52d8a307b91480d33a95e24f385ecbd9666bc7ddad4c63, 0xf39408bf4f27f2f4ef65b195b231edc6c50aca8360d23ff332b1c3e7149e8d6a),
(0xf99760ec771c8f39d349fa7d19b0ff65bfd2ebbb0f2d4707eff2d6464beca7fd, 0xd71a5750a9737ff1bdd2fbbb096749055508c2ebad22aee36aff09f01fc9d996),
(0xf2cbe2799821450277f79ae522da1671452c8e9427562e3e5d78fc179e758e2f, 0x8334d5929b50b714a50ead976fcd8b12f9806edc5da45d8aa226e029282ab52d),
(0xdf67bf7b861d063630784bd7f9a472df6c2db3a47af8d06b00ea3665cceb76fb, 0xe939458e513e55b87e4b90d43f073e47620dbdecd7ceb4251353f4cfa8d20624),
(0xe3f173654bb1e860d1812852c67c009550f82b34434c5326d5864884bf64fcb3, 0x9f07baf6ae6b8c28e8a9d80722a97f51bae7c98bdaa095785a2d1fae3f359139),
(0x1cc073f8ac4fe62fe311eb3142bd357e0045ea17a844528c7261bfb824642103, 0x52303125ef059a48142036a1ab6353cf90a021d830a936ee9cc4ffc491f514b3),
(0xf6b037a49394a0777483c0ef326e694cbe4b01a03accec75629f722407fce7f0, 0x0f92265925e4434c4054ea7dd4bdebc4d3801c39be53b037715c6ec288b34db3),
(0x74966556eb8c4cbfcd364f06b2bac1165b914c76d394dbf6b5f2f7ca14e54207, 0x8ef7ffba85b9eb27f444de3686ce67f775c8eb305bae0c6d1962c839a88202df),
(0x44d3ad0a0bd1f2ad30957e00594f7738187778969b4237ccd61931fba564ff35, 0xaf69cb3628168fbcf194f55ee7691ca188178a442e6bb25084c6ea77a3d41748),
(0x7914f9110b6956f5cb0fa063bff4ee000cb670583dd4eebadaa4e44597f816a1, 0xa61b333ae72fef24a47f48df90b5384bb25b5f8d5530a5e5117a4f4543948fc6),
(0x65a31bd410c97121dcf656fb55a71c94ac34ba43c3219b1c86f19f56bda94c38, 0xa2e1909235d8b549b1926524132a52200e26beb5f9d87ddff46aae23dd8834c7),
(0xeb092b735b789bfe9a466b703801b511aaa33260407b8750cad24563abaafb49, 0x0ee2970518088ea60132314c999ee9245f50346fc7a9d114169fc20a2e6b6a42),
(0x38574e2e8ff7d4273870b6aed859322bdeac3824bdc1ec6c0e34d88a8d92196f, 0xa0a6691b4d770ffee5503d61bba954d2f418586019aa60f9303f3e899fbbc7d6),
(0x5e555cf3adf0d5fb530f87cb6fa753bde2c09d9bd703a899f27d2a15a051a64e, 0x41bba138c76d1e9890ce88be1053bd3d559e71184b900affc048a49424e1768a),
(0x4e8518ed92b06242b0f28b2ce02582dbe5f908eefc660c63964f5e8895b509c9, 0x9e4fa860cd07c071fea0ccdbf1b9284e393d9f6145dc4ddd5ded2dadb8897e5d),
(0x507d72bedc881de78610331777afe20869619a4cf6cd3012e04c8cfd2029b562, 0x2f2ec47a963f7c86de8497cffa70846f22dad84329643444706487c7d9999da6),
(0xc87295fb299c6f1b410f1128a1c88eb34467d0b3df7dfcd218fa381958df06f6, 0x2977ab135abd0c43ef791c185cdd6b59443ad0765f190cd477620227dc38c479),
(0x5f9fcb3e2d7f842e22ae0d4148d74b9b66b8d98ffb66e4d01f279be7931731ef, 0x523a9ed2a911ec3687619cd3f7ffde07e11a2b19e90771b18ff861700a747193),
(0x42d833f2b97178321b9174ee75127d0f5a850a635245294256fc4257f90f74e7, 0xfcb299b0ed234bb54f0c9ad3e9a87bd3f4a83bd9916c90506952df68f39dbda8),
(0xcb173f92400cf47747ec4ce9f98527786636247d55279b5281388daf99b77f68, 0xf9d999601e669f8ad8283ced317eb2bd5aebe201ab97a62c025573a065b28e0e),
(0x0a73a52da2ed0dade9943a258e6a1f0b06b2b772b010d81fa6eb3bb161877d65, 0x71f7bd197e9d575e25a4c592920617432cf69ecdf33705d03429966d956a2e58),
(0x209411b0398bdbaa7412b2b149162c31da88d9c15dd4db6708ab3e19c90a8415, 0x1392e77daf6bcf593162c8b22e8ff0b54ecf8e014fbdc743dda8f061ba8a24dd),
(0x74590b3fa03daf8d537d9eaf410b6c61780f414644e7360f7d6e271003c8a6d9, 0xd40fb53a1f6768aeb491820154dc85bb62c5ee680614f1e3b6cbbdb8e182d9f4),
(0xcd77abfc78148f0e1acc919de3afeee42cb6fae75f68ce7ecd31e3a5adb54544, 0xa46dc809f9b1d0ee4ba8872f95166de3087b08a0b68b3622492841d3f4c8ee1e),
(0xad1d5f2fef4890e35d1916e52dc6bac2612d3b0a3511ce9294262b7efe2da353, 0x6aff87fe3778f197ca8b1a679b8f89f969fcaaa54ef0a629c0dd311eae83e568)]

/-- secp256k1_pre_g_128[6656..7167] in pieces of 64 entries -/
def h13 : List (List (Nat × Nat)) := [h13_0, h13_1, h13_2, h13_3, h13_4, h13_5, h13_6, h13_7]

end Secp.Model.PreG
