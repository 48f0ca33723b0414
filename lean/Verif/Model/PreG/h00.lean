/-!
Generated from /repo/src/precomputed_ecmult.c:8237-8765: entries 0 to 511 of
`secp256k1_pre_g_128`, as pairs (x, y).
-/

namespace Secp.Model.PreG

/-- secp256k1_pre_g_128[0..63], /repo/src/precomputed_ecmult.c:8237-8311 -/
def h00_0 : List (Nat × Nat) := [
(0x8f68b9d2f63b5f339239c1ad981f162ee88c5678723ea3351b7b444c9ec4c0da, 0x662a9f2dba063986de1d90c2b6be215dbbea2cfe95510bfdf23cbf79501fff82),
(0x38381dbe2e509f228ba93363f2451f08fd845cb351d954be18e2b8edd23809fa, 0xe4a32d0a0fb917dcb09405a5520eb1cc3681fccb32d8f24dbd707518331fed52),
(0x49262724e4372ae6f6921b82aa4699a1f186aea5401226303ea4264897c2a310, 0x1337e773bca7abf95a2cfa569714303b6d163612a75ff8ce0c41b6815e27ded0),
(0xe306568c1a240c90d5e253b3e477e2f84dcc1a56ff06db8d1384b079cebd2d31, 0x0eac6fe378934260888f2b107f7d0db6ffbc8042be373826692b408392546e44),
(0x3b9e100e2428cefc271b0e7623fbd63374ebf8d9aab41dd9c530c39e363136b0, 0xfafb98152d16bb71df1533eb8f475b26a2ae28a33ad31f81953ec16f6cdbbc8a),
(0xbb0aad49712ac9a92b76ca80f5dedef717ca07688107beee9608f0472f485d3f, 0xea699c53c58354798ecd201f7297da34895a5afa31670bffe79392503ca2f975),
(0x79090ac8e4eefcc0d4e8eb197afe0113e1e58b4db01123de4aeed33a36718dc9, 0xeaab722b91905b8f13d816cbcd9aaa56dd36afb70ba9008b963322b11cfae7c5),
(0xe77c81ade9f97b551c03dbbce549ba668dd71de7cd775ad2a269694c7f60c7d1, 0x3acf1478eef81321c5fc3b323ea81543631470f71c2986d34ec581f282d72449),
(0xde2b5ce9dbce511cf2d8878e3ded87cc3d633daea2d45341501fb3a455ccf6b0, 0xf10576f3d3c3e0e1bbf717e98b1a374465b8c45ac66318bb34829eb711100666),
(0xd07bddffd491a2fe1ea59fbd7c12121729659ca5de46658b26b1460b13c03c56, 0xb2ad4708cd3c97dd0f9c40e2a1de04d561d963ff8cc2eea76be3f60c2b405ce7),
(0x82403e7c5d3016af3765ec4c396ce8e10f8da45c434b825710edab41bb6a4d51, 0x0d09661be27cb7674456baddb3e8405199ab6ccc4ec67c1b11e92ead7b463b19),
(0xeadc3131fbd626f5263faa58c4caf4d9930f933d9541c23f438cb486750680cf, 0xd3c977b1c9b4a8975c64b36c972d5d01a388fb9dc3791a7436094ff12c87a914),
(0x3903ee5f6758ff24c518a4b386748f4f36bdd65cb77e78ac609f2909fc7987d9, 0x0e92194ea15241d640915934bd2347498d222a184927a8dab0cfe2ae182be83b),
(0xd0803b7839ab48a38475bdccf9a9f2195759c343dbbf8e9323e1f8825be6a5d9, 0x2cc3b180ff29c97ea12ec15fb38bafa404ecf06ce51d1d242894a92664582f0b),
(0x1f56f096b18a7499a153a5aeacf8be058496dd23da8e6c19215628fbc0567ed0, 0xfef22b8a3b52f490830044360b65cd69c94189f41a93c0d51fc13cb4379dff58),
(0x1d9f69b1a4a47432e386f5250234aa3079e947cfcf2032974e0fc05b638e213b, 0xd898ec17949c0761b38500c3a2b1da245438d5b3d3f6f72041f15d6ee4d4ccbb),
(0x0128c9134d9dcb7812fc436105c67ad055213354dc8008b1aeb5a9dcfb629efd, 0xfee3e54add152610d97259360099d662c160c8e4ec6f76e45ff418180be67c96),
(0x21ec012f5a95b94d244b8d519756075c301f28548e2c51fc49c0e3d90d1a9685, 0x2def210577af497f4c7fef716949f28e7418eda6fd5fc162d128de193cde08ae),
(0x688f5202fb9d8bc09e480e894c7cfc74761c3be77dafb11c584228363e331cc5, 0x96ba7d5963b541a72ec7cabd924034341a393eaf89eebd9462d9c218c7302cd3),
(0xfb5c9eea1cb9a8f5b3314c3000a50d350744d0ef0e8bbf682e4d3ab4f7f02baf, 0x29fb8844e18fc551fb28bd2695c5e95c6868e0cc7e526af091157e9dfb630418),
(0xf1479fe22eedae3f2f5f6a5d84a9de1d593168ec7b52380de0b3625ccac03421, 0x1a642d5d2fd88b8213b50d1a3fbd3419c0b4630c48352131cb856b2e22764606),
(0x2273edc5e819977493c5b0e09fe0effa00f60f7b2898565a69f5c7b2bf1a7950, 0xb3aea2388fd978d929f1a1df98495358b64691fc4f50b530906ae39efe7bda12),
(0x99f8480c30504378b47d10b32b39da2f496d59f4b146285656f05ad79bef5214, 0xe001d55d8e2242868d8bd397cb5aa99ed930e437e4e6215171da7ae66264b2cd),
(0x0382257fe4751280d74fdfc6993c864209c000d587f57635bc9656ba996a6f1f, 0xc2dc733dfe52cb06265a4f1da6b5f1f930dbfa39e36599731c672aad8b51d474),
(0x23a136329125386be45f4e1b2acc847a62e5eaf9f6d5f4526e145e7fecefb24b, 0x9129777e0643ba222bf817a1af7155f1413cc3703734ba6f49f15f55996854c0),
(0x6659ea6058a664dea35791a18c5cded48cf5593dc440b9d48a30ac3579149f0b, 0x2adcc705a85d836fb347b69e742fc6c35300d1d8e534f1ffc820c6d6b2f2199d),
(0x52dc3bc6e1acd3b47ece6f6c89fd2a3e2899b48741421033037a67dd1ba939fc, 0x5daeb34632ad107fbd83d9da15a3c4ff1e8f6ba3ee5193e2709e89c343d05746),
(0x524b2a9793cd5745bd9189ba9c947bc1693fbceb75f074f617376b10d5573551, 0x9e8099d6cb23fb1a9deb92cc3e8a2fb5a6865ac63dececa02d146e1bbcc80b71),
(0x732181a8e2bc5953923e6c3dd960e9b7525b7b95e59069976fe791561782756e, 0x2516c6b35592eb0a42ba193c0bae98abe3c42d96148f1d84edac621a722e4823),
(0xb8e8942d926e38fdf338496ac2ef6fca49a7ae3df76eb15d8d570111e502664b, 0x7990d56e7dea588e4d670ba22031e6c79724864169e51d77f792f5edbefaf8eb),
(0x144e88f63e73abff72cac11e7ddccf7919e744e6278941ae18d1b797e098e4e5, 0x063cdbf35df3c6550c58197fea54633d158705cf7dc2eb3b4e09f83c3021837c),
(0x9436e3dc489ecd8e2d16a739c9c73e3d60e5bc936815703975b8efbd5c3a9081, 0x1460531f50cb6ebfd1aa7806ea84e7f78e8d76b2b3a66d5e03a0bf6039a7e59c),
(0x9d3c25617a56d10b46d9b01a1710d193e840e005df669e761936c27520890db9, 0x6bbdc0bc4c4ae9bcc2dfee9b82da9b941f89ffcde8af2aca04467ce378521ea3),
(0x29f98e50f51b7f8be18c6ae0b453c4f2d0aca5a8b0e61d2d0dda85063fdb76c8, 0xdaf3bcdcae8e031c73eb8b211405806358a6ec30ad379186df80e3c7f0e5d28f),
(0xd67d30c2c71daa3601805e311dd6046e17a8975294d76e1a538af0744dc22c94, 0x48b9b0e712c807b0b92e690aa2e068cce87ebbbeaaf4bd969c1114bba54f670c),
(0xf22c2ba88ce9c2e4b772c9b76d03a017059aa7b997a78334835660272fc81649, 0x6aa9e710f190be16243a4e0f1570270a2d92dca908cf99a3cbc06fddf9b7028f),
(0x0c5e718d06b94c83e52533c90ef3234f36b722edcfc074a5eff309699ac5f894, 0x24961051ccfc6619dd64e810fa9c504bf7f8ce9ecc445d7e642b31660eeef436),
(0x26a8bcaac836eb7d57618999ef87ee4ec291dc8b333554a2c1f66f737944d611, 0xc20051ba07236663ace2da29c1e0763ce57192d0e199e7a6c69cc65dbbbcecc9),
(0x388e3570fb7b15459bf01ba17a6496d56bcf65e10764e7aa2c0833462dfa098c, 0x2d4e0d22a2eb0ff0545561e5ae344be699120d1245db6bdea9500f5fa07be798),
(0x68189babb5a0783e23227efa4eab2c6e00da2d1c2ea57fca7a7f8f7215250709, 0xbd30bd833694d3faa14954f6251445f83e42d51730d30855a0eb834d3c7ae856),
(0x642e0823bb347795967b7aa900418a25ea6ff683fd7b3d42b88d90d1292190ab, 0xdb73dea786ec052fe3674892639daf39286b469063b68903210639c7f3b4000f),
(0x9ab6ea81e5bf5505751addea5896afab7f4eff2fd3986027f916835c64924afa, 0x38c06aa74870a5e72ff29efcbce4b3e7dd951c9b29966f2b47d007ac7629bb6c),
(0xb09805aee567f69c71a98248e89e64f9e059e015bde01a62dd18158ee94a8ee7, 0x62aea16a7ec912efcc5382eb6d220ac3dea885a80e3da12c8147b28e1983d221),
(0x3d632a5b636ed5a34a58bfbc9831691a91d6b5f0975bfb5a82b4c1bc0107e6e5, 0x577a449e75bf16d92eb6ba0f9cb4d4967a7ee09cf1605aef682cfa31cf395a1c),
(0x6b821bf0f70d5ff2ceedb69dd96ac8bbb51e36353a36d50ab1c1a69740cef707, 0x5212ce11993fc120880286745cddea94006371b4dfa2f47a6d83b789c6d12e5d),
(0xbf2949514496fe0b8527740b5cd9394edc33b330c91d996c789db85445728b23, 0x790aede5da35ce7a343f745c410de38f4c53bc2abb41bbaec13272b1e912782c),
(0xa55354c382bf968a16668267c44989464906f69b114f6f06742b60351d75ec80, 0x2809bddc45661a5f28b319676cdfb5b19dd6d296d1828c88179a630cca5962e8),
(0xfc015036abcd8311bbfa1574ffb4980fb893f8af84f519f45a6fa3442649a693, 0xd0f6a2781946e04b385cd00429acd3f6f5542aca03e7c789657f676bf19db819),
(0x6164410d9f81f352272a799fb4afbe2459caea6c511fa4eab75789800d9a7aae, 0x92bc14800ba19fcd3cbee69c95b9396f4982fff5d4e7dac0abec7153ee5a7966),
(0xef8165358de9d737728f9a9b3182b4f56e25917d1ec05fc6faa0fc85170b5f2d, 0xdc372426403ca9c450649df88b6fd32d0f1721dccb1c7d7e155c83ea747ec595),
(0x428c34b989a436dddc704e68170d2c40178c5646841eb2e2642c0a488987a8ed, 0xb1f24158251c4646ca04dc3e643696343836f97e71945f4f51237abd3aeebe06),
(0x6eb61782f909157b415e62437bebbd6a5f19da737eda64a55acfe20665417a9e, 0x4fe7c546baedf2b16c92f168f99c42f6af03edee290ecc3904c4efffe8577b72),
(0x992e0af1466d4fec5ef8300998ce31dfcb6f9573d14c1646e4371c62a376fa4b, 0xd0e3da691e4396b2eb01e3a90096436550d000e631d79ae3871690d529f9e825),
(0xfedb564badc70078f20f31d112496934513e99038cf5b9c30108438305721d11, 0x1a8e2a4957e8420cf2d5d97d657f1602ba26ae87d5408b2fa9448def38157a39),
(0xf3f2068a4dd89d181247088d3c4249163e6832266274b575e54430d0073b24bd, 0xf2aabd1900a7f4621426ab1ee0aa7e3312381c5fe1f1cf0e75c1a7f77ba2bfa8),
(0x32b9225e4217a3598de4e7c1476a85815b6aa458d93dae02b3d307723ca13680, 0x7466e8042685634012985683dd071e9753246214733808a396f35d0e5a133802),
(0x85008a87385ed6b04ff899792eb592f9ee6c6b93fa24dc7fc6299b9fdae64a8a, 0x1f279e2b8a5b0576fb9569f6c082587684b5b38fa250e3622ae6e284a504a2df),
(0x4dac7833ebbeab0bec8edac7cfc49bfd0b8353620f0130e9e44452f6a82effd4, 0xfc9d1970f230aa686114ada57b4237dd133dc3b5db8ec1f00ccd09aa023c740a),
(0x9b75588145a65d5419b40226e535df5b4b44de4101b93d71031f3102d56dbeeb, 0xd03241710d6937b7c9b382907dbba3b5c151606159e7ce1fa1ed9d11e089a02d),
(0x1bd6ceb92592a7d7a66e6e8b1b645db598b525ca461dc4bdb583ed9acbbc8bdd, 0x9a59de8784a98bea48b7abb10a5b70555a1c4ce5551cde4e7b790ac49a29944c),
(0x25a8b2b93b3609416525b08a7fe786e96b3a3c7d8b444637268f5355bd5b56ee, 0x3c58ccf75734687fdbd027e63ec6c55045f131aedf71a40ac45e4e8b965f22ec),
(0x244b283327c33efb221a576715225d6abf5a1caa8da543c0d88b21e517ed9f5f, 0x220036ace48d89535aecec92a29f501237f83ce6044380dbc229f0bfc1f53d7d),
(0x6f97ac0f27b879056b442d13e566978e91f0cc1dd6ac1e64e9764a35325dd1b7, 0x83c6e70cfac6c707226ce1cc691b38a07e937f5a5f2d9c814dd0d3ff9f433d32),
(0x72c5d60feb014e2dba8265cad454f2612d6abcd4b2236badc94c4801561dce1f, 0xe3119a197ef91963b3b282163c5d3acb97b281b6d246cbf0690b40da63978fe2)]

/-- secp256k1_pre_g_128[64..127], /repo/src/precomputed_ecmult.c:8314-8377 -/
def h00_1 : List (Nat × Nat) := [
(0xa96d2da001b101866998659df441a1b02af32b94aae8c6ea707d9ed0d5f33825, 0x660d7d8305da52359f7cfd4128c370aa5659ea7116a916906c0e81080a513f9f),
(0x2cce6f634d815ecc1981d20087616677d906aa27990c487517314dc55be3c4fa, 0x615210ddbd599e911b6f997a0fd05475b33cb274c9ecb6e5d3c23323beba4b50),
(0x992b0084525dd399d98602d98b8d53b24558fafc758a2f4660e89bd6a645f0c4, 0x83ca98d226545a298c45f40b11420602f5a5c70e595eea572da64d61a4e2f98d),
(0x434efb453089619fcc761ee43fd4b77dc6b0c69eb45eb88e44ef766e9beb7357, 0x3dbb0d6d01c0b92e5965586d236c0be926967ac8830b9bd001e9efc22a9291ea),
(0x0a2179ad2c6833060a2e473593efe304f0dbf589c4dc2b884bddc5c7e3fbc156, 0xee4539f8ab980176a18e6dfabdb609d288a2d223086dcb2019207afaf6033c1f),
(0x3934081ed3e1e147aa52bb4009221ef6a445f22a66718f146d63907aef05a2e1, 0xbc37065631391b7a209e79d49f1e959bd3a9fefe752c606214fab290a7b5b3c7),
(0x35bc24e159a2b939004383546cc4255ff1f3f7e2105293db39688e07df95d8ef, 0xdee1fc700a9698daf7abeb5c056724f8e87e0cd38849edfa246ed0a89223ae15),
(0xf5d1e75c251fb4738552a0eef05d8e6563aa14e1bcae5b48bc7e5258b948127d, 0xe260c1bc7044f0588f409134d298528be7d586f40bf7b6fe92d212a86f7170fe),
(0xee0a76d36fed282f0a1170dd6acb7743f9617bb360350f54d12da1cc07eb121c, 0xf8cfc2dbeba6960f0e6135efff9e10ca4e56c4584b42b5166dbf7af1420ba5b1),
(0x9e3b87cf7892766415cab377f1774d144d1879f616da5676f94790d19ca689d8, 0xf8f34522da3ca2acb273b0c2b1b1f26a7a9c2d96b4547482266a8e6dbab3b577),
(0xe26f256fd08942c03c85b89ee66b8b5012f409c74f62515286e5b310eb4868f0, 0xbab3c4d96fea49fa6d08c65623c9b1273552c23f3c4f12f21bbe8bfb56f210f9),
(0x8ac74046a5d38398d14b67634f07abc5a3f5c852ea8c421cf0858980011da6c2, 0xd20ca793f56e3198854f5916035402c24a71af950c84288e1495d3247229b3dc),
(0x5b00e095634694cc93d531a86e81d29e753928bfb2c83a83ac677a9255932bd0, 0x8d2f267a8071c48c616daf18000d587e42882b33748032d64bc3efd660a99656),
(0x162190c4080c5d7bab1ae4ba7b2a6611546ffb9ab4e9ea872c0357f89e11f0b1, 0xdb5e210412448a9ce586d7a313bdcc6dbb84192e98c5d9d87969303092423525),
(0xf6a84421b4b383e8087f8520e06017db476774dc9aff636cf26a676c85b145b1, 0x504c71a9596770ed007a2da82e8fe1ee93717215bf88e0a80ed74a804037a3b3),
(0x1f02d142f0b5d3d8b3f8937da49f908d83e5919e55c9c13455a759a9932dd6e5, 0xe6a5cb338ed36df750ec2eae5db7c9fffbc9035f48ae0348fb3882da39863e65),
(0x61f4d96bc326a1fea2ae38c373484a5668e29bf512d77a0434a622781d78899f, 0x651ef73862005ac764f970216180c25e2172724b375e6b38b3a37ad2d7b4aab8),
(0xba7d5c0d623c5e798088a71f8d2916e07c7ebe2b1afa19c19c917cae31c11616, 0xda409f400d7e3f6c786551530fb35595a1ec37e7e66c8958ce45b07dbd5f5a51),
(0x8b90a590eacb977c6e6a68ee6dbc3e19fe5a92a69abc43c3bb16f9d1925bdb09, 0xa5cf5f42ef655d590ae734e1f746a7524d01ef75d829b9a92a035180fb5df718),
(0x87f3522721914cfdce8294a3cb5ae171f0d994fff55b25b71c9e9aacdff4fe4c, 0xcc71d1af530bc5e1eae7c1efb9a91335f26b283f222a3552dda24c2864babb2f),
(0xaeea4d36ba405159bf0ffe8a5530f1f383d5509f187ef58b6c1eee4acb77a15d, 0xdb563deae7403df87d3031c248aaa28d96958f7dce36b3f78d55607a60d3ac1a),
(0x300fe98d3996eb9d57c6f1ef08058d4cd8dda4365774edb62a338a59afcc7111, 0xd148a0178fdda40cf937913c143b76fdd2e6e226d27225e3a49658b238c40e77),
(0xc700af5e22cd146e839095a1f6743e4fd01e9c1b76d4c73aa5005f4299c19fdb, 0x3fe00181b1f01c2727ab1fc6bb6ea5690d4a3092c2d511d28b5546aa194b32c0),
(0xd03d08e117b941381aa147af3844853994228f75f96bb4a5941c3748cf50bc60, 0x5b119ffd2785bcc52e0bfbfdc541da8df47dd076e91440fa10e071b3a896e31d),
(0x6c6710fa17a520b856d7fadb6af81a5fea9c983ec94cf832b395da5fc22bd361, 0xdb4efd2636e281ea419964f3c0897b05b036a40825ed4ad64fba393cf2804941),
(0xd7b5c2399df47a166b6cb900d08a5d9a5ea3bfe994f861d9b46f3fbda3d91bbb, 0xed791f4e4ab1c25e9c83494d794ffe1fa3c8a06529c0b710cffd597d64efe8ba),
(0x90f699ab8f728152e2deb8dcceaaa3ee53ff2f232341a9524aba9e8e50f66c06, 0x8bd0c3a77f5312bb9d46d80ec36921f8561558ce6e63c08e641c82c9fefce91d),
(0x4d0eae3e3d7adc34c91eaead6a16f56937557dce2b68744abb9ae71a8dfb65cc, 0x816b0806a9508731ba99a685142aa52e6e874c9905096a5352c6e2f21fa3de5a),
(0x46cd9eddec318498dfb4f8153315185d689a23998e06b1d02438f7c9b2f7de62, 0x3b5bc1a3d5fd78748c964a8bb813388be0d5d1681247d00810a846fa561f29bc),
(0x04aac80e3f6eaab71c576297b4552e40653748fe21a580aebce4eb8302ff730b, 0x3d42a00d8014f46a80fe2dd5bac6a04640d331a94f1de0509e4353986c8c7954),
(0x59bea661b73d9c09131e45730199937ae03e96f62ecbc6374bb681a5582a4114, 0x31a20be8ee8a2c2e81d062e78e891504d9f2639abd5db5c130be3d2cb1afa47d),
(0x07fe906588b2ee922b19acd3fec7a4de9ee089a4a4e1c3385e29356790ca6037, 0xdfb45d90c5f43eeb1f5eb32620763ff42659b763e7ec72a7c69e936935e5c128),
(0xdb390f9132277889784b5e4acf8f2fd1f3a5fc47f2c8262f19dc951895322157, 0x4364955b241c831f094fd7d4da63db192aaeb5c0ade82dc8d5d61cacd690bbad),
(0x34dd0266e5fc19ac7daa9e615ae8f78c985732a601c53c29e6e5d4077391ebc8, 0xc2d6b6d80e73fe00e6013b1d2c2b48bc77a5db6b45232ddb6611ea1fc5dd797b),
(0xeea7f72b7e31608dd3dfcfbe16e2ef955e6c7ec5328f84db336e3df19d1772ab, 0x9662c8f1ccdea4c348ea6d94739aa747172195560c6be9b88af0d30d514004bb),
(0xc6af087af1b10eb393de412dde8561299376d26436d907fc10d3e7a388c391f2, 0xba99d62e318564578ad8847a9cfeaba5e5ff98242c614959eeeb4ae750825144),
(0xeae347356c715740ab73d034bcb43f5aaff37fbf50d355181364c999feccefc7, 0xb9386c75da8bf645cd6f15d84944f74b9685256db61fda9879fe663992fe4703),
(0x4a548c250f4d8f5404f9a27e64e4962641b68ae301d9046165c24ff7fb40438f, 0xae9f2c85bd608cf6ef5e40c67e29a63d4c274215c2a0d57838252f28196f6d10),
(0x61925679dd6545a8ea19743d7cb3c0bf453318d9e180da53f43af2b0ecf744af, 0xa0682d84d7215372e9ec062ca3e4aa1f47fc551d44e3d1a17260a44f2bcb184d),
(0xe1db5e869574ab76d4fa260d2425ef6250267ab852ff04fe025f01509137ea2a, 0xc8eaf4219fd5f7a36c1a99a1d0c61250836e204bfb49677483f43c81511905a8),
(0x3062cbca739238422a0ab862a1fd84f038e63691cfc204a7d2f9d263d248c7f1, 0x8f112e570e3f2970dce89eee1e184310721a85f1cc9feb2cf55c047fdd9670cb),
(0x67c393ccaa9736fceec7a861eb53f9539da74ff297764f4e4e8140044da4f739, 0x93d329d09a165fe22f8009d5ad59b52433ac24d546c7d3942d147c4d49853203),
(0xc67471f236cf2187ee5a5619d581cc7dac5bc5b10e8bb728f943084fe899bf5e, 0x75c90c9c787b318d943c324774cbbcc83a533f37fb684aea62fe68488de2c513),
(0xd5015fefd5938dd92133d7a4025aaac512143acc065470701827e98ae4ed1b52, 0x44305616a02236f15c37c0d651d845dce9966860b798f79f4006c25d7cf03d6b),
(0xaebcbf65aaa89615cb48ed564002ed9a243ca3091cf503b73c1929ce8164f2d2, 0x4fc1f25d1a30ee2b4220305ba9c88e86a6ee7f5555399ee535e7d37fe4b3f019),
(0x15cb16171727deef49ad6821932a39d1bb8f980bb5370d8105ef00ffebb30e43, 0x64ad8c8287fc053fee35c1b99734b34d2dfff86b490ead93b1fe7d2bf80ebd7a),
(0xd404209e8530d67409bb88a5525211a119fb2523063e26986bd030804c49c123, 0x3763fd68fdb85d19e85062753b5a327c46ef87be8a3432c562bcc62240a7a128),
(0xf3abf8cf0c23284958e330c2fc327ac4d40b4497f422aa4ed42e93819bffdd96, 0x50861f05d831327c3e9076432d7a7621d1dfe9ec7ccf2061cc720e9a7d5b0d5d),
(0x78a328932ee9dbfb3f84755a651b9d235cf92b46c3e4bb4e57b7ff6f7c874dea, 0x925b783a966721f46eaccd87495eab7db3c36eb292c1a473b4617f6b9ac85895),
(0x8165210f5d146f8a1ac1ed91a7bb678d1b7d15e43ed55e8df6503209a750cd4a, 0xfe390d3a19e22bdccbd45875e396c71385954166a1edb63a384b8587915d260d),
(0x75269de86c2f3d34cdf17dd6f3efa198ba73431fcf0072f3633ca57f7dfe3f09, 0xb162a65fd19927ec4446e3dbd5ee8850f463f39f1df1a0b1f5ed153e704805bd),
(0x5e36ce8fb393949e5b9c4e1044fb2ff7c520a7b7a9016b389544e512427145b0, 0x7c40e718292f96a41d9822ced54aea9022074c5c0c82ba4e7d39a4e07811614c),
(0xc8cc7129fdebbfc6c0576edc6ac983e5c249d36076da7d25b05c0b6b16632746, 0x48a8cce3a77e449876d1a332c539feba2653fbafd4f75e68e4674d784c716fb1),
(0x9fe1db36f1ee3e6d3924d2a9ae3ddcaffa85798b7383a1dd2d6c0c14ea46973f, 0x1d35b6a8607045c095ed965880212b6343dc55ecbeb3223e7c2e76ce2c74f6d2),
(0x4ca8ab8a3d45748e6e19e02ddc351279e23648dbd26d24657c9713f5bc8ecda2, 0x8a5866ad9bb7db92273c9f23c0876c9513b8a68dbb20c5cf164a9a394e3e73da),
(0x0c8d0150e4a989ec5cdbc72421b1e29ff1f308181d8117b13d376f58b72060c0, 0x5c5880a4c5a73a4a1ae42a9df0b200327ac4a732cb26e71749e633655082ebd1),
(0x3d61557bb4b9fde649fe1b7c981c98839e368444f130bfeafc1e1a0c12f2aa31, 0x933167ff62cd840b3a960c90e6b1c37e1e233695318ea28671c87992de5b56f9),
(0x67569f9ffd44ca095b478dbb85c3ed1ffeaadaedcb624552ccfaf16924e69e2a, 0x62bb2948230fbd2caa9412887adfb24bd16619deaf0fc102feb1b26d67eb7fcc),
(0x6313d13edebf14010eb7d2792c66daa86e3075d03cf0daf70f3b753e7372fbc2, 0x4462123050eb12458697545563e06e2f2839f874beaff9c2f65e26add3573ef3),
(0x6f8ec9e7fbbe6e8cd0e3085b47c6cb2b088529f215f131955e2fde244dd23968, 0x1fb61e14523b3faeb543b215dc46eeeb23e1950a8301c78dc510c76fed36cd79),
(0x56613dac3c5aa1acbd9a0ec2f839b4c336f0ae58e0e022447bec0546710b7f6c, 0x247263ab86c398f903b233194434af8b530908bddd7f716cf7b73aa98eca79e8),
(0xc9de15e7b4147219137e6e57c5a7ddd617e91ab06859dda041eb3c2187aee08c, 0xc7178ea5cfa056d0dfd11c87715591cc40cc5db1f5e4b70fd8ffbfc43f8b0009),
(0x07590a4a627d5e90e42a4b0f6be6497af906182dd2dddc48a8b6bbfdf56c0504, 0xd611e21ab54987605c97e878baa464bccc5bd875353b69f81f93ce2aa6c38587),
(0x94b1da0fb310e056db0dff7281db33621fcc555dbf3c973b760979087fe19d6a, 0x8318893dd5b41a56033a2ab4ae4b953c45c42e9c8f2fd15985286de3fd4fc217)]

/-- secp256k1_pre_g_128[128..191], /repo/src/precomputed_ecmult.c:8380-8443 -/
def h00_2 : List (Nat × Nat) := [
(0xb5af4299bcdacef10e07d081daec2cfad6f8f82138e151a5f20e6d5284c9a6cb, 0xc09844078a7db82df572987eb137dc09c8cf65fd0aedcb2043b2479bab95448d),
(0x5f49ad43707445873980a153c851829bf8ef61419889bb0c3c4768476939c3e3, 0x5c40d38520f56c3d0ba08ae1b40fc24a2ae25c9445cae0f7d01d1800747e04eb),
(0xf6bb067f88ccc11c64e30d1ae689394216bea3bf26ec9c645cde1b9e487da385, 0x315a476d7268978cd89d4ec8adde4a8328dbfdd9f2bf44fead4ed72178288f55),
(0x7b47cedec02b19e094daea0eec00045552690b49044b3f10beeed2bff9df6950, 0x1bcda5f49beedec96ebac5a7957918af53b7ccd80c211330280ed93be0efe9a6),
(0xba69d7f3082d56d9eb65e1ab2d70f52d18223621c0029035a78fd6609940876d, 0x5f44a2fd56d5289c0f36bdb950ee25381d1cf935ae1aec7684b6d11f975d393d),
(0xa3b70894d226c195223713bf0330ba39fe7ec35f9743347d1d3dfdb97bd929ff, 0x05d0cbdf42755aa0355ad2e10ab39479495edf2c20bb0aa593cc04cd56ae6135),
(0xc756e23ebb2d81fd91fe73b520eb3bfe5ae602b3448cf84f0e8da37dd1c804e5, 0x89f4b6faedf86b9bca9f52b29864a9825a4faba9d4fb35f89851121034df49ff),
(0x36327c356fab94abf791c2341c39049c65410e9c6cdfaa00d172ee843671822c, 0xfe3588a4698c8d35f0e01f04e94f7039eb7456318c25927abe7d061fd3ed4c6d),
(0x3b75bfbe8e372311f46ecf6fc5eb2af4b66051b1874b0c321189e10637dd21bb, 0xb9144a33e3c3339a4595e24887940b4e2e42a095d7d1bc2aea50aa295a879908),
(0x44a61f1057b4e88a0c55ed721f8f44775f0272bd379a97b4d92a7f75f0d3c5e2, 0xe870ea65803404649716ec1f05b79392181623066dc14086111de14482d80141),
(0x11ae02f700663c0a024c6fe5ce9206ed1ebed2e6ca294acb74c9a2270097fefd, 0x635a1b87a262fb305008737ae70422cda4e35766940e424bd697d28cdfd6a36f),
(0xc751310adfb25d142e6ab1b0ab31b37c8e987af2105d5981069085ca3e142f5c, 0xa4630dd8ed2717a9f10485a4be685c5accca851d4bcc18864df943baee821014),
(0xfff4d7c64009f39c41757b173eb2536ca639b72b0e15af7f790bddb7efefe46a, 0x694a798e0ffe22d11030697a292a4bb14c110d6bdad7edc6e8976450ce5080e5),
(0x7d76ea39c13c9f46e931e8bc1cd4370700932b1a31254d18c06c8ce9c3f90534, 0xbc14b2ba8f0a3d8f34c7cf7c3458c9164cee438b39a5a6d4d2a1c9fe8be415bb),
(0xb6efcad2ca6ae4f36f080707530aaaad625fda5e825f77e8a6730e955e07ad39, 0x4868d8ef8a56d32703f6f4a323ea6ad64694301a1f6405f00a421939bdb1c765),
(0x1a04b12aa889c4a6d37f9050e75406d348e38faac0d2ab4ae30caa6e3633a32e, 0xf43a0c8ffad38d906c817dca3e7ea09e21e1c8017af86966c246ebc8dc75911d),
(0xadaeb0fe9b3451904e878b126c8edddfb70e25005a4d6a6c531aad5183209b7e, 0x2b26b16ddd4d29a708cc6b4e198e6edeb1c59defc6793173f33cb039d37522ad),
(0x04e4ca023931f3fcb512121d2d632764d97fa1258460d0d19a94eb882c6e0679, 0xef90eecd3704a6c9454c6860928eb332cc917b17f2594348515822d184537467),
(0xa1f3c279df69c13a711b5ee4139f603b5654ecacadc02a220a7c2087c11e2971, 0x5724979454cb78dd7ef699165efe2326e8aafad7a8a923b2252523adb6a16b2d),
(0xaac76f81488668e6f4b0c911bc9675ffc19424c86a6903c4f4b13e0ce798c7a5, 0x24ae16dfdd6c7d6c1391df3f73609bc2c3759536eb277189588a72d184dd2978),
(0x70e94171e59622f0de3601666498e6c90ddce496a15e30a2a5bdb701d0034769, 0xd6d7c0a775a9cbef2b84d4e80200f92a446111bbcf46a57d5e244f1a1103b757),
(0xca17e5e711d44492496fa849c6ab1c473426706b5b8282b6f288e0968ec78890, 0xb3ddd6322ce577b8ddb9f501e17d32cce6c58fee4e2834105e32f3e88bce2c2e),
(0x1a16a58d8d70fde86ac0700f3a43ab9c255ec0018d5fe5717ec6324a2faa62e8, 0xf2cb2eba65aff0a3dd7bc137257c1d30dc2eb6f37a3897e116c0eb1d1a710c27),
(0x8f2dde650b4ddf10c29c6bbf5ab2ac112dd3357ae3e5f01e98190e3294b9d4f2, 0xe06b8cf7e5a736d504e954bd8591f7cd79df335bd3279f5d80493fe4df4c6afb),
(0x3314b553f8213e7c80d4562e0cdb3564ba1d72856c88d8c5a3adda9004950162, 0x33e83c5ee3f7c550f94a7434e3cad51eb4dab462013acc24fc4aa1f9fc43532d),
(0x7c107ef465ac0c2ffc5b11a3348a7cc3fa589554ee2b66062af3c5ba25304000, 0x6b5bcf122e8a0705d067fe78e56d365e89b5a979c23f124b508e63ee975702c5),
(0xe918a829325adf67511e257ee5596d0819be460536b20cb97b76a54a5be4f8b3, 0x1a92f0a0b46152c3e1ba8f0d12119c15b70af0ef03ff0ebfa9dc9207cf2fa8ae),
(0x8770da03d4f3a4b9e92dd2e3be309c81c346c97d2cea15d1e3fc94cf41b9b079, 0xd025430fdc633d5718d372fe64f57fac53f964611fb5005a10ce842dab123c03),
(0xc6b4ad3fae2b2557b126a57f6bbc039da6589f70c6283ea17314aad5acd8b22b, 0xe8523dcd2c1c341235df278de49c38df85f2888ecf3c76fb46e1affad8d29bfe),
(0x9aced9486ffbf984373b1e91ff8716194622741b1e1ab9689c88cb7037a86e14, 0xd7a7eb1f1b4c31dfff43cc321949c1d316e1e7eca6a852cde8e7f59208b352d9),
(0xaf51536ffccbdab4c4f4015b1e8aca69b08bf055e038b22b87c54f5f1b9007f3, 0xb6bb0b4c95c07ecf49ffa85babb1d308cbe813b7703a27ef00cf849e47130f7b),
(0xec5306df3ea0abb56fc45a0925c1c92556e02ffa18238c3e5bb2ee5311823ce2, 0xc950cdb6720f65f41806535243c90bd89457f4bfd941c9f6898128402dee8b99),
(0x293b1ca5be127bc61a397ecd59164363587f468c81de4d876c5d9baee72d90a0, 0x4821030f238e9f05e93d81d91764863d0443a5243d18e61bae26f74dba35d821),
(0xebe54b7d99876ab6b2951f0ee68bfc101687714222ef83c12561f486b4865488, 0x2a1d651ccaf8802ffa699d91b8242f5158d84fa0d481bc479246eeb86d381c07),
(0x88f775233ab0d69bed220109b29d0d9933ac8325445d19dfd38d9c693464acdc, 0x8f915122fbd95ef531ea2cb1aec6bebf8e059059459c0d5b79a282cbcb276702),
(0x1d84753de7210dd89db6cfa08ebe9797c7fa40b96e94439fb8117359a2b3bb01, 0xf7360b5aba53a4d87440b6d6f540c4852e889c339f34260dabfa7861f1f41ad6),
(0x19e69df5176f82c1cf1ae032cb388ce336f82a3e5e741e1c27fcefb5311d4b2f, 0xc401f4fec9ba53bebe175dc8cc1d17b309d9f7af5bb496e00b95bba6cbd5c143),
(0x73189e02c1f125ffdf1a939957f29aa519b04f5e42adf72953d354ccaee3f2c9, 0x52b8e88f1c6e7cf8621d21b01e406038d901de1c4101d42401009c01a537f704),
(0xc5ebe0828ff1a8bf52f8956cb747f1d3278fd2b0a5ae766901c256e92887a74f, 0x0ce58cb962e74b981ab97dc92d736b5ec506e51d6c09b3823eff1cdbcd259860),
(0x783c1621f7990e014296feed3bc883d51a780867c83b9166435a05624982da76, 0x0370b3e2c9a189c69c565c3e8eb8019df5224574bd5ffbc622f563e18a36da30),
(0x555e7e800ccc6a461724cbd64a53721dfad66fcb2c71d5794d799f6ffa2b3305, 0x67bbf165d39d704218f5ed3128fe6dd6db9b48090b3270eb63bda603f44e9e41),
(0x40c49a26ab1cd46cf1e8467e242c6b1b0faa40a4cacdd50a4b0213a540243471, 0x16950b005002622fe0b9fdb4c34224c3ad55bf3067f4e96bdc2813f62fdadf86),
(0xeb6b3be5db098d189c810b9f5593c746473062260d77e1627c8b62f6d7935298, 0x3d2955843f356f5c1f990231701cedc8c84e967144be22fb9bd74f0e015c5bc8),
(0x177218a42b55c1691ca0a0734d061b53a06835369a04fca903f670ce5eb26091, 0x9611661aa8a3bc737717f243e5e8b97a057e0e72759f0f4ecedb690cb3a5fa42),
(0x841a8fa2f3bc5f8a7d028c00127c267aea0c37628b07ebe37f883a678fd2a680, 0x579bf37db2fd1f77a005771288dbbdcc0526938c4f9ba89d9a42d4f3452cf1b0),
(0xb01ef5543a377f1ec801421da399c53c3585789cd7e5169132250a616edea82d, 0x28f30ce97e29b2f13af626a007a37f1482e119d1e66389eb9620200b25a90265),
(0xb93e014e8e3cc64317ee70d6ef8c9918ba344e7c0b38a9a62591b0ac04f38904, 0x0129c1855bdfd10c6bf152e102ff89b4d0b368edc0ae01f72b29fc95240ac3d3),
(0xe0f426f243c50d9aff80a1dd26d63189a00601c68ac8137305fbf54807acd522, 0x96d883e0951adc5e304bd848ccf39c2a1c19382aeb24ad1e1430d705deb749fc),
(0xe11e9c7440e897ad2870adda63b9ec04d5379f14b3bbbdf2147ea9b79c73233c, 0x49d6e54b291975323f5a9df03e22e359e125e34dd9f3d6c5cb9f0a206dc1f019),
(0x91ad584b0c5ef1453b796eca20027cc2ae38ee709ac4591c79cf67a7a96b2c2b, 0xd815a213a620c53111f79e5db5d9c3c5565dfd97ece841e23e9c1ca7530bac2a),
(0x3e725392f4fa34f207413785cb322f351032971c2303f3dabfe404614299f8d2, 0x8e323a515addeed5f35482176907efa54e0c1d577895839e042223e57708ae85),
(0x5e87bec201a589ab483c00acfa863f3591d9119b9a0239bced4f579045a98160, 0xa88a3b8433c75c1f9eaf3c159fc39a6e33625f1cd0cd72633a825023f2e7d47b),
(0xc2e086132cb93b35749cb65244e99909da18260ed252cf32489fa1c8d268a0ed, 0xd3f2e3ad1f16365dd47038d6854e077328e02e64d05a47644ed0d82a8c8a5761),
(0x99304c5eccf098697b2193c231dd94323b9053d0e4b9025c74517ba70f1978af, 0xee77fa7b638b13966f7e77e343dd04a0ba1324f31e0da111338019aa209dc789),
(0x40e108c559adfb37651f04f709ef895b25a79f03650d6b1d1c21322ab4c5c6bc, 0x8980ab385733e64884aff3f8c47fef44210eb2aba094eb2cfc5e464b679db653),
(0x98c882572d19072120c315287f508df46d6276ddc9711aca5bbeacdc88c6a78a, 0x5d1aa9761f5c5ffbd12ea7f48d0510e8b57f270ee08c3256f3ee676b41a61c92),
(0x389aba7a25e92306b84eeab7a16c37aed7b4cf09806ff740c05dab2060af6fed, 0x673ab0c9ec48e2e8d372ed60812b299049c3263735f61c13d6f0ecf6d065707e),
(0x9dc64fba832c956e93efda62e5f11b3a6619eaaae539b73261453eeaca53df17, 0x180b38a93c56ab10a4267ad8d8a358ef8f60a9c99483889f956bafdaf45990ac),
(0x71118e18e758c2c36203528b8b6707abb3439b0cd3d508a96759c155fe4921f7, 0xc2f61af12c1b4e9c64908719f11b52d176bf22f7e1cc800b5ec79e28aa104ee0),
(0x33bcedee11b9f3c4924e09909adc5fd146218b236531a24245cbb2a83ec3d096, 0x15f4bd1a6c22c673941a71f6f4694fdbf83b3e8d5e317e9d655057d5acfbad0a),
(0x4b599b3a4ab5e9f1f161e5cb62fdba55fbd97740759871d0e66b20dc4e13ccb4, 0x635039da9035272b8b7064119b3421446c96019a2c6df4232b18299d4a3fb523),
(0x19f6bf4cdae54ca941b8f64295136026decb8dda35e976275694365b21269d10, 0xa24c3fdc090b06dc264bca48db27502f6cb31a6b609d3f3da1c92c64cf3c95d7),
(0xbc3df1a98027d14df6629adf7ad073ae8a270875b177a67a058dd46f1b01314c, 0x99dd3a9154f51d072ee33e898d91518993445065770745e7b6bb30ab808d1f76),
(0x977a4264521a70e84d25f5b5ac1ae5f6c34ef31e4dda285e1ea4a9e57dd72c3c, 0xf1bfc8197aab2fe4d0425b61cd403fc9dbf44f6832e1c41b4fce9b2a2b9f5a0c)]

/-- secp256k1_pre_g_128[192..255], /repo/src/precomputed_ecmult.c:8444-8507 -/
def h00_3 : List (Nat × Nat) := [
(0x5fdfde4a85fc5a533ed4a7f58adc7b1c098b26113e271b47a1c12c690dc9b339, 0x3edf2bafbd6a94e60951bad526fb24b9731c2588b2f6eb1ce9744f4916c6555a),
(0xb8bcd72cdcd28afceeac1ac50fb7db8cafc17abf822687476ce01423e9e9c50d, 0x082633c52e6dc0579bbd9f2f3771a53f9cb6d0e36a7566dbf2c4512503c55e9d),
(0x6c20b999133bc37bc65d01eb6e946565721bc2e9da735c728be8a41c01f75c77, 0x20caf674d8ad036e25f42aa47a5ae4755e36f44a79c5ff20cf6df11540b71e53),
(0xbbe4914169655f1539ce4bf2f2e919dff877b5fa163b7a7022bc91ad315adb07, 0x8cd3e0256618d23c8c6b5ff6db8fc0a5a77b847f0ec876ac40f76e9ccbf93a1e),
(0x748b3078e38374bf07f39bbbc5641737bf6dfeaed3980c752fe14c6865e73786, 0x7f7cae0a61a7dfa2471f2c80217fc847ea86b6b06297aeb28f3c94cf2a811ac8),
(0xfa63c7c5b89a25594615728b2272cf685d39d592d052c0bcd23d48bec764e4b4, 0xc4c32ba277519d60e1e38a506d67d041804724d65cb4dd31fbe7d6928ca47c8a),
(0xc2ed7197d014e380a365ea13d948314b86978eb070e3e4446c953871cc56c91c, 0x5c73c293e7c1cd18f7854a09d8b9b0fb3404bdb7737dc07009bdc01e466a595e),
(0x2514c1efcb1e0bd6c2f34e846f3e80066c2b3a04c0d9fab5f22fe8726fc266be, 0xc5a0ac6c07bbb2d9ff84434665f66ec6507c35dd8ccf9ad069a1ec94c64e3eb3),
(0x5bc07f05011647f258dd2e289a3843c8e2318bffc96a081df6b6ef944e286350, 0x213ce0931217ef048d87d059f2584db57a91c4651e112c66a41f85abebbcbea4),
(0xedb56e4297375b038a573f7067ae464fdb9c1335f6a03dd8862a17319a3cad8a, 0xd3e61a7016f8d54661b8414a426f3be4358620531d981f2e5314447f15ef5fa7),
(0x2925276e782664813bf609982e0286466849088ed0d77d55817c8d9d73d5d732, 0xf53157a6a97c989dceb2d755dbb0cee184b3321320dd6d2262213fe49a87296f),
(0x2c4579d5bda0f4a537209882937019e991286379c3afb37fa69e409e9bc0a034, 0xe150bf4dd889c3c4655acd23f3107bcaa319d467b1b9b15c336ca9345ef7d99c),
(0x5f260a0011f9f876bbe295870af31832025f21b842698b3d05688545a8808904, 0x6ad33a32164caa1f7a4d2ce0006eac3d736fe64ed83a3a9b53473a898ee02350),
(0x3bbbbcc612095ec9052fd430f3fb3d6a9d1f2c69e88851000d65a4d7b6ac4b8b, 0x0328e8283846a6e7db5b090f8c9581da40d244cbaa3b59487e4f9faa550b0c97),
(0x4985027bdd0fd8effec9af44bc222f4a343e80ca662d917daffb9d81956acff0, 0x58befd2e37a36e41305561b5f2716a23460b1014fe81465468c16c223b8affda),
(0x214638e8d2e308919b5eb2d8803b3dcc6e826ecc00e1b59b92e263d567959de7, 0x09dd89216f131e2935ae0454ff5fc9c2dc22c0f1c8de7dd8ad9d41e4f632342a),
(0x6ced87055ced2d6af3e3532b965e0a316876c11069155f35444004f6e6f3cfdd, 0xf51b1aabc86f556f8b7ba4e2a1e6aee755b17c01997fcac0a83eb56f7e546ec6),
(0x95016e67876c936ce32634987859d1ad7fc3ade40421972730a1c886c9dcfacb, 0x299e78c4e6e266eeffbd284b81005bab4df7232f2e43f160742bb3926af4f660),
(0x4bec66c830401c39c42a8019fc398cf0c513d20f9db3076351315319ee6f23f2, 0xf1dffe923b7d4609871aa91628929c634fcdeda1543fc3d58e8b2735938514fc),
(0xb50513d140513b976ac0015a60e53ae59088c4ef5ab27bb27f3eda78848a59c7, 0x9c41cae51182e6c23fb254c51b786ccddc9282c9a667484129a5894b99c36399),
(0x597926533989a0396a69bda38a920ac9d1df384526f30c003e415593b690708d, 0x7f2c14b7274887db5e65619219ee67374c750cb397ae4bab3a3ed02f1aba648f),
(0x7ba2b766cf012a93478fe2b3e916d665251cc7f93ec16dd34db3705605eacf6f, 0x14fd8938f950798c371212865e8bdd143dcc7e8c2c84aa6903fb311f856404bb),
(0x3062f2fef69c90d9fc947af8a9e839cd7f9e9d22566bd3a71c43df9beab5d6bb, 0xdb84a83349916d417fde7b719d92a716064047d421a36bbaad9972bc06f5ee58),
(0xed5f949d69dbec8a77f4d695cb446700f6fae687e327cce3db38c2fd54b06e74, 0x4724e060057b3d5065104ff929950bcb2a690723f15999fdee62febf2d8930e3),
(0x4d655e03300282760e9312fea6acc01030e129509ebd68d3d7170e46061b7cdc, 0x90efc1226c27549b2f5e046b69e97f044399579e278ccd0b7bcee52310ea99bb),
(0xf6b60756b888efecd0a9edf4a483f95b68e05e80c351a60dbf166faaeaf1b35d, 0x27bedebdaa7815846a896b241afaf9b0cb57e98f0bce5df6bfd22a3d38a5fb8c),
(0xcc592caa942ba23772c4db9458d6ea2c8c81c5388fc7cb516ca30188a3c55748, 0x36e2f7cd358e560836e77d100361c3f1bb6bd2b1d640307c63d512d1db288158),
(0x4acba9dca5bb469821a3acb8cedf4304f9372161976d0edf6a7a032ff6c1a456, 0xb36e983ab2ab47f33e72287e9bbd02cdd6fb302a972f21669cae4e8552262437),
(0xc8a5185e042279d32b50e0c61b9ce9617be3633d84a9472d97446ddbeb061f91, 0xcfaa50b7445e189bd64c1df74668eeb1cdb7cbd1ff65c0ff3c38d22d9bd4b5cb),
(0xc1c9556707f4f611365168a889de10ad535faf0865f8d20e052b1041d35f18f9, 0x34f7bc3b3d956b6309afc1eb956f4472543919e13708e7eb537ab94148033749),
(0x8df4fbb736f6736eb4a0937033f7d2568bb68d68f3e1f8fa8df1ae51d236a8f3, 0x3d7185fe8e9a2d003987af2671bb3850cef6b0f770770c81229777645d02122c),
(0x00d635f0e35c7cb8f2aa1ec0c475011dc2c8bbb6d1ebc297c2baa5e6aa5af3dd, 0x00926ebdc588e8b31a990a5b5907ae5f441e5a991853c6435e36803c7ba51a2f),
(0x0b58d12d5f8653757514ea3830e38e053678b525e8b51923d64607200b46a4bc, 0xf7b591835b0ebab3935d587ce995c0b4d77c9e40ea4837f648e4484107438d3e),
(0xbb7c6a8cb4013640ecfad075578e89ae12cb42536461d78011ba76dbda9a7f36, 0x7dda02583774d61868995b835708295a3c2f5c40306dcba7d1c20da14836581c),
(0x14f6f0f792cc8cef9dca990a7fa5b7aaf116b819722cfb919683b2983514a9e6, 0x88c35f927a07598c90ce5aac4b3fecb52261045ff23800b97b96f2103a4d7055),
(0x4b95e5f4eb9fa1185ddad896457f4aa2fb60f4d0496ad4fa76bbbce777448541, 0x1e100787513acb31ba087f51201201ed502d1f08f7e2b8f4d27706d145e71d21),
(0xe9a17fc067f75b2c6384aa31223355a3a7af53664d85dc16dcecbd2a364b63ae, 0x420a2388ad67452362f8fcf012b601ab0a40e06a01b4dac19560c085de7fb8c7),
(0x039d8536f320ec814ee3d066c083413096d4ff438331a81cf10ad54443ff9169, 0x70ee89e91478e89860d66a556054abd0c743453513a7a3be7a76e367c28ca248),
(0x9779a0c808624d6cbeb1dc72f371ce269f95b993c49ff20e001daa3c2fb636e8, 0x9d9e27cc67296c5009da4b0e6037920b369684d8a64cb907d230a4aba0c2712e),
(0xcd4c584a1dabb48f6a5c09de9caf36ff4a97471fd1565586bd78b4fb66f0b401, 0x95902ab10eff06e2b3e104b0cad2c28e6fd60eedc47657f0bc433411273446f1),
(0x46ca11f4142362cb513164f7c72b776edbeb3f655d52719688eabeea2561aba4, 0x8060431a2a2ad442dfb6d3cbd6263c61bcfd09466204e2f5e832c4d5a434c9ff),
(0xdfebd1791ffb63f576f5c75350031a21eb712de57e8f83b475ac39d88a94a513, 0xcfed6c7e39b2b54c206aa0e22f7c610c6576af2decb28f0aa71cb1adc7be75de),
(0xc71c653282fd063b44633d9d7a3b94f943daf1a17967ffcfe12380875d2c2469, 0x62fcd7cd0e006a1038df8aed33abe940f18a473652adeba8620d1b54a9d376d0),
(0x63ebbb4ddc8ba09a4e2640fbf48fb75a6864ec41fc1647b1e9f8aef734c0ff37, 0xe59d034b0fe16f4b41d090e197360a85dbf1ae4f719c62df77261205da4ae28e),
(0x650498c8cb51bf1658eeac6161b5892dce6e5c1c271d40bceea14db9dd12814a, 0xe7e667855d8e019324457769bbd5d14a7a61458570ad5e6ee3058af964a65279),
(0x14a1e03f14c0086381599c07b816df44090815a840c1032ac41225a847c43fd5, 0x35244a59bc6ba88f46f66bac9bb8ef5e4926da3850532ddb6d6d606f35fe98de),
(0x1c9f6eb2f6a8a1e80ecf9a1671154fffa4f14c15bbd50f084d6f5315b6903c5c, 0xe6bde1f52ca4ff639b66fc51150eee995386383e402f987dd266065d2a03a033),
(0x1de71eed0bade7b107c809664b00d56cb43ea61ac0e069d97cff0218f970f8bf, 0x08d4b2de77edeeaed78d42e16b7bc94dea99d65d985769bb5c67da6618ee1434),
(0xf4432a80ce954d2ebaa2f0628bbab706479f7a390838d8c35a96eaab5f5cb4b1, 0x96fe6eadac34a40c03cabf476fc0938291f3d07729c6302cc67a189cbed579bf),
(0x8f71e74d17964af45623d3f968424119cb37e1cac15247374828b5e92519fb21, 0x6990f0dfd7f0ca4ba77678e4ebf6946e5b6b17200869c91cec07854d604865ab),
(0x222931575e3dc25e665546e2096a83a05a09d052cef701a120019c49c6a6745e, 0xaad8f88742585607c792bfae8a941caa83d05082defea85986a6ead8e5c423b0),
(0x6585fe632ef3a69a816bf5f29e627650cc57d0693ac217c63b73aa2af248a096, 0x820aa3bb20281afeedd9ca5776ecc55fdc8a893fde11f7cc12f37a836cfd9f8b),
(0x22232479e55c51cab2963ce5abf06281aaec472fe610d3391951e41f93f67bf8, 0x0e192fab2cf22d7fe67f0514bc1329a2888a8f18a8d6504bb7c5a9bbebf927d2),
(0xda8d02fde4ba069ebccaba082b396c944460148b70e98f608267db025ddf16fc, 0x1a30213de337084a47d67e7c17a2e64d579756d08b66f4d059a76021e63fa2bb),
(0xa6f72c62854e82def1b8a00664c4e8b9ad49e09278ee6501708a9f1892202ebf, 0x8355972db08c81040b7c56abc2318ef42e2709891a83837edaa3553701d03ba4),
(0x2074fd3a309e85a05c6f8c35937dcc56a15077ce99f5a8ee8d55ae2a3bc7db68, 0xe11c02eacb783c942e58fc0e806a98163061a4e9aea9582e53ae1f08322cff97),
(0x49ed5666fae9aa2b70cd316f62a4b62e29aa59f31826106c8611c50c79a1a5e3, 0x5ca7e49aae144e2bdcc0b19ef986967a1477c2092a8368b6324bac6c807643f7),
(0x2289ec7ea1f7e4e985f472a713722335b582c4e98e1914683ed136225d6c1b1f, 0x011e2b18689a08670517bff677fe40f7b03f898bd70e890261a512cad9cbbeb1),
(0xea852ebe23f1efbed8ac64a558ba2ba3fbed0e52ffc70635bc49cebf85859164, 0xbde2ef41fe97a63973266583c7a4e41525ef13515b25cfafc97aa63541cbb824),
(0x5718f0e67cc07d3f1ac1a9548fef08a4290b257da41798553fe9be1bd302f0ea, 0x98ec4d5bfca65d7ee72d8bd53645a6afa6ffcaa0a2eb894fd4e40ecf69acbe90),
(0xdf62a2abd77afd7dee8f0650b75458e310269c3f780cdad550bebd924b810a4c, 0x6a6606cce384d27b80bea2e9588663e08d39fe8e9fc8a8cd54c4829b08e4c034),
(0x1010fc454b0c268bc339bd19809508e79ea7dc0eefd779aa4974cdae805e6668, 0x686a3adb0681b5972b30a323c6b6bd2ad51194f19d3d801c3fa65fabe96410e1),
(0x8ac798527567381869fe93c96141493e072ca3440790487bd5425ed69f5c5c18, 0xbb314248fcbfc867d1972e04b9ef1f90775375f99d25bcec684c72c9bdd1c08e),
(0x560e971188cbc7cec61f3bf445f0ade36f3f174d0219a1605f9c86923f848b9d, 0x9e92dace6775cc67bfbbf21fc64e6e9d4d133f8ac18ee277bc80ef6dd1b9cd2f)]

/-- secp256k1_pre_g_128[256..319], /repo/src/precomputed_ecmult.c:8510-8573 -/
def h00_4 : List (Nat × Nat) := [
(0x8c4642044b95eb66cc95ca088469a1c028eea52f07f709fee6d90700f5fb943a, 0xbf10fc5d7bc25181301b3a615ebea597a3492025953c3aa51a11271e689d0223),
(0xd293f74cf3578b7135377247cd8b03677f2245daf87453cb4d8d1cc2871eb5aa, 0x86c2013a61dfea1463e45931eb09050ff080e3d4ae357423ba7afbeda64a6f26),
(0x35997241ae757b1fc767611ec76eb935fefbf7a733666aff4c6bd744d7687d35, 0xbcbea61f246bcd4cc3c7fd357bd393da2f36e0efcca0df9c5994f96fc44b2aa0),
(0x0d0960977467197d3c1a0ef844ee35dc285a17c5bd9e06de15f360257f6464eb, 0x342af6a51e06db96692954bfc79cde9e3dd448699e88b03cd144b70bbd3e8783),
(0x8e875c992aeaead67033a375521b0f856212579723a25470bfdf898cae41a777, 0x24aa273d2d2f19bb04e0ba1013127ad2a5ee66861ec6d0c653f7a98973c0bbd8),
(0xbf51d1f302703a4cd1ef47d8172c5bb8d622f44408569aee0d2de1b9ae541855, 0x8f81e352b6c60acfbbde6e4099353d845918d9314433c30f3c60a710cf9aa484),
(0x6fb6b4620972685622b2d1415083ef562ebb115b6cdcbaee696a8d4c8341c26f, 0x9c08f7bff9cfcd9ecca923b3e578ba45468f2530baca2032a899f060b83c9c73),
(0x75583ac18b5cf78d7de6a21faff045fb1db56f686b2cf89d0678df6293617438, 0x8259a22cb08546ff0e237c7d9c669c96071fe0149840082df67903409b69f900),
(0x42611933a5d759ac7ec51c8931b76e954aabc2e361010f36cdd8ff9cb4c0ef92, 0x88a644ce6b8acbcea378e2bd54eb84c558cde4030f99cbf87830151d21ed4261),
(0x243a6dbf6128f964bdae776ca716bdc56dff9c9524baf8458a43ade30af520d2, 0x262a2e8a5ce4db48d0401850e92bdfa83dda744da3d9025d6091f1a5201b7e50),
(0x212bd1751548c6d2041e9307a7df15bc46e57e2c5a76bd58082b1291d8c2ac76, 0x82461bc76cc97273267cc788a8b2408257f04ef4719a9aaae33cbd77079391bc),
(0xda6d030b21f96d2aaa0b3e5628ae0ec88ca8a54610bd61fbc1a7c16b4d61177b, 0x5b5bc6358fab02874a2b85961b49ec292c2aad1e1eabbd0a1cebdbe72e3f9fde),
(0xdc230af055a243b0a581e1012eea48fc4a43137ecfe8010886a9f4e3f6c1f01f, 0xd0f98e1be70a458d7030120da3d7feed2eb5a9ab601718bb950fa03e568180ca),
(0x82c2de3ac815c68698ce73b56f232684ee9c5972f0a44797dc16d04ba9089df1, 0x1c847065c6c2cc18fa253b8ec1fe178d0c8598442c1fa43254462d9793b8573d),
(0x6ca2de8874e4916ee1965dfa200af89acc439f206a4077f667076149e20494a3, 0x6ef0b34497aa85dda43cc1aa57dc7ce6cd51119dae96ae0699b5119a9a662043),
(0xba2687c41728fb65206448f828400efbcf1149a490bd31f88d33af537851d97f, 0x96ad25f11f2ce7aae8b803bb3c62cd3203345500243b1de5d61f20b186b4c0c4),
(0xac3620401947f30116032d5a4b303323d311f533e46a1aa5f1ea2f080d553e0d, 0x53839f95fef328845a75881fa17db91c1d5b981b7b20937fdf171c3f2cb30a22),
(0x6780ecee5b1b720568d4241ec3b35c9e4158c7c22dbba46bac76947679049e13, 0x9ac115f031e0888d2dc90b9f3562e73246520d57ecc7ae4ee0fbf4013057d9a8),
(0x95377a47e7a2d5d530510d622bbd3439c0f7653aab294254cbb10390d2a63732, 0x57ac91109dafb62cfe1abe4dfc64557bbb01f76a36649d7b091be523f8195fc0),
(0x04f195bf98fd83bf07ee97c59bd42af5486a85073327415e85f17a172add8921, 0xa56acf2501c823236327cae306b1cadd1a057bbcf1ef3b59a865c7b8691cf3dc),
(0xeccd1fd1efe8299fd2208240adbaabcecc0510d2d7b6f6bad9e291b14cbcb53f, 0xec2ff3216da50fa5c57d6f2d3198e0192d9b6f8bffc26b2913580447a42c667c),
(0xc757444af2c3425c728ff41cf7cb7475502e76010c1edf2b1eec84e1b058f438, 0xe1d481b6169f143e29701105bc8b66579cd267fc685014b8fd0702836362e53a),
(0x3562837ebff5077658d996627a11a367aef3255c1c470ac636f1b57c645250b8, 0xcdcf4a0d97aa58fcccd374bb0bcafc00fa1d0d35ca7fab9cf4d72d66299234d8),
(0xce9dc245f62e97abd2d339e97fac18b7b1f2f07dfb654a82b113317c86d4a3a1, 0xf6e1e325342afb8e64fe8520ec37abdefcaf1b30be6ecb7927ba5615f0d184d5),
(0xac022f3b48ee44ba9d271a8c1a01fa8aaab4818ce5383dd542d9d6e32c858a12, 0x1e0563a891f8d11f1989e091739611de191e497e66055aaf45db9ba972ca76fa),
(0xd1d4f682cb12cfaae46e57e6db6f227755a8378288cca4ff3a999c0ba651d9f9, 0x1b19bfe5870e19314c23b4b07167223301607264acb8e960488598e785e71a36),
(0x79962171bbddaf9445fbacd4f9bdd1a8892e754b2d0052ee2435303aff1c8a37, 0xb8ac27de2a952beb45472f77b34c1354fe47b6a9daf0720ab8515be37bb98a7d),
(0x445a17c42390b604bb3c3573b061a2f120ecb3b183a0f8d8cf032e3c509d3b90, 0xb75f40887c07fe5ca0c057c87eff49664ea76941e409a6aae34ad4b1693f97b1),
(0x6166b5f963a9f47f5fac49a78d1757638c39cd4911d16ccfb0e83bc30f402051, 0xba3376618302aeb2213e46204ec57492933d6df55a045d7e05317ddfe92430b3),
(0xcd666e7428901afe8e67d0e4048de7e330b6dbdba34db4a929315d3f8b251531, 0xaf72d8b943cba540e42398e749fc89ed44095951f11b24f9e54518103802304b),
(0xc833be8cfd2f6fe046d837a11d9903555a6285bcd7b8814ee839cbad0523ac72, 0x7ea8f90b44112363a8d75153150c3b4eb6c07dbefe8c8ed603a24984c9a6af03),
(0xcc185f363036d385d890ac1f5e95b162e40e4a4fe842761398200369f25ea477, 0xe0768836146d9c9898aaabe5a9ce12eff66d07754055eb42832eeb9f26338236),
(0x148e086324bbc2bab67c9be70407b80977ccd910e92c977047943c298c9c4a5a, 0x89e83c859cddfc809de733ae6138e97db706a331fb7176ee55dfe3bac2408797),
(0x9b1539c1aba5b5835c88d9b192a3761d0cf8b64954f53a7e460e0122bec95c76, 0x391cde1945be59dad4c895f13aa1ce24d8472e42a232795b967f21d5acefdc18),
(0x68a2e6c175fb01d376a9e575ff427cc7a6032774a974bdd3e93b8a730e4495cd, 0x153e6484c8c30dde5f269b741c5996470666cab7e273d4f25573dc4e78e00752),
(0x58fe904935a5a40c3b633440533cccac7669e9a2e7c2f0b66c36c22861dfb04e, 0xb36905c592450e2d71d06e2a2d599a7771ac1e2715a79555b39fbb605536e1bb),
(0x823c0f96dcbdd9b0bfdaff2a19b6027d03e9bca60e2983783375a7835eac7080, 0xd91546ccf34d9a58babeb6d543bf3c368831a2b0d9043db8895cd208f2ad0a7f),
(0x4a56aeaee908f90855fe7b7103013ee7d68121524f7decaf533cde2002d14537, 0x7e60c80133b718d2119995b33790eb9a3129a7fb2e030d8d021af90ac622b7a2),
(0x6c0f3855e6c4f5f2c4594e2b8881319b82a64bf49fe0968a71f6ca3bf9240334, 0x5c8e7b6da9efbba84b5ade85305aead3e1478ad1b4d56fc83acfe34d23b5203c),
(0xd9cf8f2cd170490715dde21cf172e6480496e40b5248f3313aeba2a335ac9632, 0x92a7c251b440f9300bd98299c35d57f715867e90b6c3e8e6b073815c3c934344),
(0x4bfcb4928b91dc7bafa7ed43d9af303977592728fcf1b9e27c6767f7b993d898, 0x276a06f1ecd9d410b34c9a4ae3aa33b81854a4e9e4703dda7bfca949a45d14f7),
(0xabde5893ac4032f44ed93dee8156596e7cdcc575e5928792944019ac23c434e8, 0x5e03a8092b9e6044e942af7a7cef02fb46162cb24c19916ed774b00d8195c40a),
(0x205d63077a98a8e1178814b49281da204482f1ae31be20a803b3b0fd526e1cc5, 0x4bbe295c943e35606b95cb19d6e64bfcb9cab7d2556576147a79ff506fe4d780),
(0xcb4c4c83e6673a1c6c228a4236e6031db59653bc45bf4b7c3b98cdd2441c43bd, 0x142e027639267ea0f7c2ff3975afe71462f3340c1fea5149cfe4e8eae31a2769),
(0x25a1f4b27ff5bdfb3af54a4b493356ef92ccf0b2dec7c4f2b5abb2252cca77a7, 0x1b25dd93153f83417df3b3afc991f2d936c32e8b288a7fe93e9ff97b335c3c38),
(0x222f76a77eeca0d6a511c863a657cb895a1b7154957b66dc89ca77aa2a54237b, 0xa8f2bee064eff88d087a598a8665d295a205c8842f6a34927945a02f2cb0b289),
(0x32d4328d1ad2651b41bf10156936b406379f5c2699f1c2daec3cbd8f3b4dfa8d, 0x9f6de6e23294a33b5f4d40623e478096df5de0a1d069290d204ce9307988261d),
(0xcde9ecbe6948cd703b19379006662b7d187d0830cf991b14e826569181f1d3f0, 0x84887b320e1218d29b77794ce8ad56c5f5abe8fff95515e24bce81b15b029720),
(0xbc89f45c3baaef4ca83435826506a006509f4e7e265e4b80011d53d3a748947d, 0xeff5bca2714db1467a272fce534f79be09fa15af7226ba4951129f5e6fe68475),
(0x62678cc0eea2bbfe2bd4ba655434a9ad39b409b9b57efdf09940f748ddb51d4f, 0x8d384f4fd234d31d1c161245ef6dd54ea5cc8ab9e7bcc8836735051c37a74acf),
(0x15e01d39c63ae22563dc89cf3dfa2736df7c0ac34fe86f8af219f93386bc93d0, 0x1f563532314fcb81c172513349769861e7efb999fa317ef42bc7558810cfb13b),
(0x4f8d2b493493258dff98e813e428ae9c52c6010301bdbeb97b8f364b2bac10e3, 0x8c7d117b67955db6c00580283f919f571e8c58e4216ca1bcd66b264e0169b73f),
(0xd14ce31a2bf16b60983e397cddd3588c3b0d77b4f449136f1a789276b56f1d61, 0x9a15f620b227d83a3722ca6e4dd7bbf5833f24c72584f35611ef3734ad3f0910),
(0x35221b4eb8c275f5c10d656c9bfea000024c1aa2c41308419c3e8e3b66f780f1, 0x3d1c5a025274afcbbd78382bb277865706888d461b5dffa0f8ec5dd93bf8e808),
(0x82ed9c3b1c76c1b8f44ff6f29f443b2083f686177270843c49eac0aa34a8ddc8, 0x262e9e6bc2ab2b867342081d90002690e81f5a58aefd6fc48a91dc5de95f1340),
(0x919e960eacf2aa36e86342f7742e97c49c49b64aff5c6118d181e34910717b85, 0x4b51a94ea3ea1679cd9ce9d5ac329f13ef530d42c78216505a082fe4d945b861),
(0xcdacae3e20ce551abeeabcafa643ce62edca3de1acf06c3065ffd3665bc3ec7d, 0xaaacbb13872b076ae28c326dfa54f4ee235df4a4b341c9b13d3220716eb95bb6),
(0x1a4508e21bd05c09f3d80f8290726f08de3a62ffb663d5a8f949ce2692a5f2ab, 0x52780ff0976eb033760459bf4bf02994c6e672c56d25d3e602b320f52cca97ba),
(0x8e46eeed5686f25ca94f73d13f26c98ae9129f77f3aa18ddd5214262803a0b45, 0xee56d38d7041eea7c87f2ed1e7f0aeb67253d556610e8200782c9af61dedcf4d),
(0x782910fa3bd6b309dad797c15b61846968d6171e7a0a0532a92e5bb3697e4031, 0xff178365c44c2a28e84c31b8946b0a80717914ff6d3f22ddee40975344e4b3f4),
(0x02ab9e8cc5a710ca6cc2d0a294f1d7d265c50aa8f9069041ae93c91ae5f64e8a, 0x0aabcd0fa2254bad067cf23da593494718536602a13d81c9db23afc9a7f89b9b),
(0xd04667c44fb25b228320cc5335252937a094ddc24610f7a5fcb1bd1d6382c9e5, 0x7c93613f8bf048e786af436ecac4fa866e5a91d803064f5ce31d4794b2b0f74e),
(0xb9c476f9799cdda4a51b0476c5838994f157bd29c9361252def4af836e86b0f7, 0x2ec7619bc77948b3f25cefbc46845527d1a9b0daa90529eff13aab4aca97932e),
(0x90bdedabf13f99404b9d8c565d64739c4ef765ffdee2ae0d64fda841286eee85, 0xa9f47882d9a848ab4be812a48187d26c7f8bb8ddb94f77255c628104e0cf21f5)]

/-- secp256k1_pre_g_128[320..383], /repo/src/precomputed_ecmult.c:8574-8637 -/
def h00_5 : List (Nat × Nat) := [
(0xa0c394a802177734c02b831074ebf0ffff4208cddcd59e7ba680737afc485c84, 0xc4f08932b4c62f34fc82434fe9b7b164e835cab62f34ee3fd640e5d70d09364b),
(0x1b0319bd3896e8c6284f949c72e7694ebd3c2923ebeac273b9aab50d30294c3e, 0x15dbfe9b17c3aae7e5f8233d703b7b1a1401b6721da32080053ed52fa2ee339d),
(0x9914ef0fe92f16bea27a93540518dcc01210eb3b3a90f2ab6992e3d9bfdc719d, 0x7a0bd0650cea0b11e8df3629faf65a305e671d2c86332b8398ddc2b1b3c4086b),
(0x3a68fa195599f6387dafa176395c96155798ad6d7ace7810daaedd13ddf60d3e, 0x74575ae6a3f569db394faef1e0641ca4de158eee9a8ac54f5cd96bf7d4e71a89),
(0xb7361d41e2b67e310f1872b1b1bffc8e41193dec7f0123859da69c605e88b2e5, 0xfa9d6b9566d49bca73cf5890f6e7acd0315347bdf10be9c29b0907e180668344),
(0x341e998742d84640f6fd13543fb7ff9eaa93a4d312e99bc637b85b8325174e81, 0xc49608dc91b46187611cbcff762e5fc1e95b4e9a6ed747ac8612b6b98bfcfc95),
(0x83d6a445de34f55740084909402c97181f6420bfaf87426e2a0f75dac483e6f6, 0x7a86db4458c8fb535edcf48a14a94dd8e9fbed09277db0fd787c121ba1dddfc1),
(0x4f11235a014bcae989082bf1c6a499d832d176862fcffbdda40b84b926ac351b, 0xb50624f15f31269d168021c837739cb708678dedbe59e2886e963339e94a2acf),
(0x8fbb572721cfe12cea685907ab6e3d7eeafb3892c082115b998e9a9cd3ee2b89, 0xda7fe685c8148e1a5cd8de8e2a5b5aa4ef1bb1a5af8bfab791c923a366906680),
(0x804ca63cb9243f5f76605b1f53f5989d286023f2fc672bd63f52c59f5496c3de, 0x00372912eedb1156a1b8300eeaeb44f8865fab6d49c89fd843170b05d75233c6),
(0xb2795c6ab83ca8246b18de8705660d0460b48ed71de9bbf58cc1769c2d2a5365, 0x66e8c2b588530b6b4d351044186a8a01db6841579bdc041f90d0935b2a49d820),
(0xdeb5304db61bd914c0939d07c0464eb4caf3903b1903a588208c5e0536d9dad3, 0x18d54f43e7e45e766a4b62491e48073c40507dd83f7b3b27762a06a94d5777ca),
(0x111bf502d177ec34b6c61d6963366901eb79d5e85749f5cf7743cebb9b7714c4, 0xbe80d52abc38bbccf036bad45e47a0f107d8ba20fe6780f0bf8c38d7696a4e54),
(0x94b10f43c15c5393e8d4e71fdb863865daceeb50674d0f8b0161bd38dcbe92a5, 0xec55af2ea34e8c365b3f7729110586cf8d087dd7f1a0ae9bd25b9b77f5be6dc7),
(0x4627abf22d447784c53e529d62d3036bfb4a422d10146248d3b1f1880e895593, 0x8b341d8d6110b59b738172d56651e948cbea9ef4c7e8dc483a560503eb7b3e4a),
(0x19ce15cfdfeadcc37375727b5ddc5327585dcabec172aa80757ba468297c355f, 0x0506555ece829141736ca9ec886cef2683853e7e05b3ba6625cccfd84de60f81),
(0x75a406818293fcae8c3e97d80e1f916d2950682e16d3def0fe6dcfd0ab9a3e55, 0x5292d5c0e02ee24d8139f2af495298b74526780bf39f5f22a047d155dc8c7930),
(0xa7eb8b8def4b7686b47a341d4f4a733388cb82ce8f3226f1cbbf79bc1f3bf578, 0x85d98b6fe238577cb3b52bf394a7258924407ca286865cc880cfc93fbd8199a1),
(0xa5b9a2b5dcc91d670b352d143c19f6b96c9f834450e16c00e8a938deb3da647a, 0xf12d4fa83985047164335aba1260cff126fc4e13fd16cc2963472f287b9571c1),
(0x7999c6ed48d589a65df7c20ee9b0fdf5df58d83178ad617157c09cc844015cca, 0x156f45053706c3a1c54b3fecbd3f12c8aaacaf0d227550145bcb731d418f5756),
(0x88fe81f3b708edd1b85baade6c05c7ad422020586dc2e8e20fead379c49829b1, 0xcd62e24fb04b7d2bb1434150260a052c8972a8cddaa1db10d99d40d7df727c01),
(0x18fb0eb0cfcc61fe423192beb694a77d912165375087a64e89557d5f4fe86763, 0x3cf72b1fdfe8b56538e88e230ed871d780f4a6e355229922b1f28c5d38169785),
(0xdadb32312be4f2cccff171d5baf18e76004719faeb5fcb660d919c86efd38aac, 0x8d67945d752de8bcb0740e423a15444950e0b330c6a739813d9f4b30f98bc0d7),
(0xf0b9a0867cdd9f646b3aa0cb0e3105ba7b17e09c6c1c39c2d8057f06a39e5c8e, 0x2b534e5625e6d18040dcf4319821cbbc3ff91303c14bdc81370c9e0b5ef4e9de),
(0xdc0e0b052e49c3a7e5d0e253672e8d431cd60166648b932d406fbe8ac2fcb7e0, 0xff9197868e1c651a4cd39cb56921e24a223e7af3821fdbea086547e1c7b791d9),
(0xe71cae98fb6ddd4735ec365b515c6ca56bea748f11811038b74aa5a232eb91ee, 0x804ae818396c20f6e2fc5bc75dbd1f419ed731a72801d06ce6682bcf1d600266),
(0x50d1b5b2f7b2e4ff3b594d486bd2ca6c6b5d53682079bb9f88d792b4d4ddfd8c, 0x556cf4c518fa066086b9b03f0aba18fd5c554fe74020df5b6e34bc884d5cc744),
(0xc087403e2bd5d954df8c5e86f23f6cb496634886b4709747325321d1bc2701aa, 0x9db44987d851730006e3a549eed87e06258bc14be2b00679003a2252a3507712),
(0xdd1037f7f3843422de8988fd3f68a2994d45f8f51e9242b37980f517bd6d6894, 0xca8e6d615cfbbcdd8b1ab8b7673093a61a9c08ce56b065f254fc191b25cccce1),
(0xde229a1967ca589bf4a840c3d18f764c424dfda56c099d1473a9cc7d34b5ceb4, 0x958fc9ca84ca63a94323f4b2ae46ff44a1d352c11b8e8be702d5115b54122b22),
(0x015e33c9cc9d84fa16225f4870a35a42f8a3a3dd67a8dcb1143c7ee204cdfd9c, 0x413c0206ed48cd5d3620583645e4ad6aa59a1e15c7f362562f89b9b30660e920),
(0x53422561ca3c4d872d23e3173b21ae38dc010b99b7ab0fc4394e408ca3d6bee0, 0x6ee906e5e505909f6507c7ab779ce1c820f2c50ba71bb8b78debb3fb6103048e),
(0x829dcf4f9b2c4f3732800bbff5cb71ca0308bf0a09176a74a031d9729a82b2fc, 0x47378200429e538a4e249d3c9f58873dabe3f8c40615c5d33525f6ae5f8483c4),
(0xed6f6eb73769b1b14923b989acff97f1c05594ba1d5f4ebe450e65c38ae911e5, 0xdfee6f2f3fe584db8b98cd0b69ff6219d52e2d9da372ffbe18e500e1a2c38eb4),
(0x47e523981fbe720e8fcd1982df2b184b70616ebecb4913da30327205c0455503, 0xafd2dcebf360c30f6820cfbd1de0de70179f4cb86c4612515eae2f4abaf3e900),
(0xb02937d58f48e1f86f3f1170f5e880e4ba10e2a8c13dd0df49fde04ba9037312, 0x0dcb0a4f3e4c8456316de5805355e17f8a6c7924f68cbcf5347d3c7a28c18c4f),
(0x9f993cf53578c1c325c10c2dc3c066eb878486ebdfdc65d44ee57fd0ec1989f8, 0xc6b8d40b16b8811cd666ea432e61baf9e83eda6f0d38275d9143b38631c8bb52),
(0x943b6cc25913ec1df12730edbdfd1d0dce431784f36fe84e599f9b89dd3240e6, 0xe58102bacac2ff3fd42d7ca3254ef55a9604d3fffab5b16d09f774824fed3fd0),
(0x09b0e67e69b3f9ec51843da4f7b5a7c859511dcf47f58a6481fbf2f019acfe0a, 0x6a4ddc2817a4ecb4ce2defc7d7333ca62e074c36f7e49c674a009d30edc54dd8),
(0x97dcee339cd8d18f8c3b0fd4048ca6e60c8246b40136bacc72ae8673a4571651, 0x6163a205cc20bf398aae36cfc8933dc629b9524648823d510d82d2d274e693e4),
(0xa1e5e6f926961eda7cea9c26f4a1ba02798c940f2b7dc2672999ff7ad2292ced, 0x50274b7a6a710f74ed13840136d97657cfc07af93b9e8fbeca18d31b08d5f19d),
(0x473d5fcf7cdfddfc52fc9bdc6fc771801c21bdb1840821a61a9842965b4884a9, 0x348836a70ad7f550feb2d7036c82d95b89ff95ebe8be6250eba7c5b18fd856af),
(0x9c1874427384b2d04fcc33b270544c98db8c1e132bb149d454c51ea14796f613, 0x2d6dec43970f00793da12e47595cefbac1825d360c71342b7913f7f5fcae0a19),
(0x11ce1c469150e2bfb742d826be740e4aed63c7295f5bf51e0c7a6aa60562b154, 0x6e86514fea38280fabdf8b93be8b7d9267f3b28caf2a4271aa3b6a621f4fa33d),
(0x1e037904e4e2de6f2893c35418d1cc6fdde2fd714bacf1cd4d9a5c5679656042, 0x1bb759c934c268212a28aa38a0af035e3c81ac853c01e21b462e81a58c960755),
(0x52fc946723f899aaf1a94f240f9e36203f8d505e31cc68009951d9a7c0071d82, 0x04632ae07543082020cdfb99270b47ba39c909b34b3a39db92419697d0bd6dbb),
(0xcb585905997519cb214f9e39496f538635069eb4d78dea4ff9e9d8030642b20d, 0x1b9f42e7a5b475a1e42a0f51ce2d5e507131b2f35990ed45064e3913ec93ac7d),
(0x382c285729f14558757275845d37bcd3e7ab180da11c7a12cecae00fb4a69c46, 0xcb27e91220a70fb36e2586843f128693495907a3e0b248e4a25c1e7e54039440),
(0x16f086c6c2850e498f8456dceb33a692a4dd613fb2f9564b6dcecb884f4e5024, 0x2e152a0888eb11883448ca6825a6503473cb5ecec9ad5df312deefed279339a9),
(0x7589bd1b1f0a35775530f0ae446ea2754439a51f667309506eed617765a02492, 0x2d840e12d37581531e5771bb014d363404076fc3630c389c00ad976598462d49),
(0x18b9ae40cce63a513dedbd2b0c3beee9a80cc5f5a26b44469a0326f4d4930890, 0x24b86a4dd5ed3c4471b571382b270d0b9e0032d78e0ad18acf6a4eb92a2690e4),
(0x8c1f74a4acc71ef64030db5d14be862794e9ba6e102c89a4ccfe8a8ad3ebb48a, 0xa79f011998aea5291e3ba735c8b26c861af1c11992d5dc9416eb16739245677a),
(0x8d80592d36bfaab75b557ba0d03825b42c0fca088ec7d0465cd2c203c2bfb080, 0x3e47948791f274534d0a1bd4a533fd2a7671a65410cd7a51859b466f0151d3f6),
(0xeab0bb19f477e158ec85046cf2c56777f36782e9e0452770f7125765670ca248, 0xa27d708123093af4daf55e5632ba071f37f0bd643f189ebd70074cca7cc04640),
(0xff0d0dc9ebbb2fa26d3b249fd5260ce909647e1ddb48799bdb532c6a2a0a039c, 0x12b0f6ae7f161f8bce1c35055d9b760afad5b0f5662110233c43942efab31fa9),
(0xd89a323571dbbd1b923403468b08b7bebe22b3203ee6b0ad42a2aa963837d526, 0x25da35b99988f1673108124d9e6f6f1fdb4a04905546fb62146b742136e3cf27),
(0xf150023bf01cab2c433cdafa86751f7f13ffb31555d34a229ec4c012925b43fd, 0x31f70e21026ac8966dc966b717a9e4838ac37a6a2072bf341a9c3d333ac7a9cc),
(0xd98ebd3b2d58097872ae9d5e2c2cd0da76f442c8e0b4470d9b3ee019c83af2a8, 0x9ed5b6a95a06197034bf9873da6c7224930fb358a514c823e0017c9275dba3f5),
(0x55b62d85833a94eedfc2e313df3ca8168173533bfa77d827583fb01bcbc3c746, 0x9f8487730cb95af7b79eb92119a7a1391f4dbbbf44c8189715bad111364a835c),
(0xdfaf4d76fef73f9344c69de8f6c1c3fcec759c49a2a7a1ca2860fecfbd718de6, 0xac4af69344e2c287f6409f94c36d93ed7fba1f15195bd971357d3142725a0671),
(0x84a444a34510922c37420f29a16ee22ba7839f3c5810cbf838b7f3e6c5fe29da, 0xef733d802215c12e143f420a673069fe6e89af700cbf975fa18985501114f06a),
(0xd7c84e1146c870083ddd24d1296811a32c337749838925486291aa53a72212af, 0xb187dd58a3be40bdc3d357e5480aec619579b2d104d79745f84cd40610844ac4),
(0xfdedc27fa70b08bef3a9f616575072ccc7fca4b571a2ea069ffea7885598051d, 0xfe9b7b1a1c575a9e0354d279ba7f4de253f6f54de7245fbb3ec462a407b9bf9a),
(0xcfa7478ad3f2cc6a92022b35058437b3f950c2504d96b9a5c2d5c795ef122e77, 0xf3e48dcae9592835354f8eedffdd4c2e2ad7800a3da863bb158945b2261409c4)]

/-- secp256k1_pre_g_128[384..447], /repo/src/precomputed_ecmult.c:8638-8701 -/
def h00_6 : List (Nat × Nat) := [
(0x8e9157f83fd6209770fb7493d7678fceaa1584bcd8dde3f80337dce8ee0eefe2, 0x6079ba898c05dfb6ba4f91df4b4b229c3322fb5a44fa988ac8d9f3a53a05351b),
(0x7bf5efb6103eac30ec4eb80a9bddff229d422ffc6a7f9dfdbea8b92803116f75, 0xefadb65964791edfe5935554257961412cba4b4c3553fe67ba1389313ba71a3b),
(0xf5ba02b7b7b2c2d268c7b1b537697079690a13fc89d1d53e85f27820d0e8df0b, 0x66316d26b2640e41bfc329d19d2d4430a9266b64c3c793a3af7f15159e465485),
(0x5eaacdf3dceca4c96d2bc3dbf22951fb87c10da5f12508284a1498bfff004475, 0xcb3db3ed9721ce0916985d404831cd04b38f5810977ea106c8c25194ad1f122d),
(0x1cfe5c17b8d6113453552ba6ad513371d1320abf4fa2de4177c5a768a64a5554, 0x53837cf64846b8871e64a2f7e319f74099bcabe6007a08945edea46bfd1dcd5d),
(0x92a83f478a2ccc861cc91dd2a1210fbe286f47bb44e468805e21f0a37a5dbc10, 0xfee35c65fcd45b02f8270b8bc198132c0cb69ff90ec35043684f54f5c999de94),
(0x172285bad5d539b0f4d86ea1035bdb7973c07ad324bf5dd14f74ab69cad277d3, 0x45abf940cf356364e0bafa15cee3e20ecfc29040288b4897314c22f9aaada654),
(0xad17bd5392e19bab8554ae08bf9158dd3126ce813a05c32c7646eb73cb164762, 0x0a1298191c833987775d4f47d9d70d4f8139c651896f9b94e164574c8d065586),
(0x10421b3e91a4a89c1f6ce9e913e511c3c23fd307c4064a125267cb312ebdeb1c, 0x539bb5d09e49f0fd186b8a51073118cb98569700dac77cc1923592863aa53319),
(0xc43adcfa78152a3ddcb9eba606632aa52e8476de1e0e30ff39735b0621de5bfd, 0x6ddd09ca2122580b847d04f05dacbb7b1e81c6e26057d8801a911a559cabdebf),
(0xf7a99ccb603a58d04c6b9e50d9e7d98814434f1d92aae27b5c8d900698bf9a73, 0xccdfc24476f4393ae96d68091cb741305e62934ccafc9b0878a3a77da71a7ccb),
(0x9abc95bf70174ea35038f44f4a2ca9bef602d5169d249aacb3175be70e09c826, 0x6cfbceed3e71f8a3d427d2c9f8cedaca22a9fedb4cab7763617198e0d7adfe0c),
(0x8a7ca89335c84873ecb4af06b493c9cfd7bd08fc0d0535c5546bb9ed5c5d8d82, 0x2518b372090d3c0872f1ee4e54144799209ae3fed2f285ba07b0019321e31bc1),
(0x70c8e3798649628d969182fd862f8d4ab39fdbdcc246fb79ff1c9227a64d1c3e, 0xc7931ad527ec0a4aec297d9efd56208f936c95174efdb86f7f50e32126ea3cbb),
(0xd783f6b406121ee071ddcf61b4808fdc934a82e7c185876b9572d62831002121, 0xaa92bd84142269499e107c82b9a6489828b3ed15694ba62ca031d98b5e9c7fbb),
(0xc1f06a1c29abb43acadffbb87ea8e4c6b75927959c7787581a17e4e77b654c18, 0x1dae0de2f1db42cfab9b0e7d9e5a098fbc102470aa4185476cd1925efbecdbf0),
(0x2ad74e113205b587866633ea32172662d1498a274869872487b7e62e52cc5105, 0xc70c7507de1fa1fd625aa7d30755c83ab5c851594b8bee105de45da0d0ff779e),
(0xf490e9ad72246a466eb74e23371c4f57a9e32b5774ac9ac03d800978d77408b6, 0x546f367f8fdd1687ba6ef15e4c25850777e49a1a8b449fb963a0f01aa9dc3d6a),
(0x205028918357b697e05788b055f8bb3280c431c50de070553f123373981d6149, 0x39d040e544110e2258da67712852fd099489ee5b5c77a7777966abd0468e3b0d),
(0x6e91bb8ec169a3a3eef59915d4de9296e4b78299e038c5d1bb001eb2f86eae95, 0xd2c2129788f8c9f116434063a89fac4845305dd5d208c8872ae94ba280877dfd),
(0xcf2947c839fc40b0610d0d2fe1e5ad5339e7d0ba9e7dea0190678bb16ba34905, 0x6145a70f7f0cd53f0d758d7b172e875d8db00f6a131ec7baaec140b23f37c63d),
(0xb48f8387ea93a6c8561c9b010ad32a281c8db1c1ac3c6864ad161874fa2366f1, 0x02cab333cbe07d3e26fd971b3609cfc89f46bd81df84276b375315d27a2d253c),
(0x7c4b5f660c572d34e4cae58c696fd43c30f6054e8145715ef391eda142a1f827, 0x3cbe264fbe125af03907c5fcc61232c2d0adc2ad5f94f3b008ed32ad99843d97),
(0xe5796368d4649e196227f989078758d98fe24e51f5d5a567378a85e0850d86e8, 0x074bb343c9a691289ae880bf67a7e4be1fa111b8d660889646ec354ef6c9d4a7),
(0xdfa1065efe83e9efc19b88416e3ca5d967c1ab2653c7d6509f02ba58fc4d637f, 0x022d2567eb0237ba2f270e04685e5352e23fdf19a2aa0a231ec83eed0ca5042d),
(0x2ea1d8aad436c3328fda3ce98e710b808f463844cf131f2f2347b37a928af132, 0x33fa7e0fb8c2ad10580a243cccf2a4b213ff96207a0344328fc61f310e98dc4c),
(0x12ae14518122af3fa788298b5e59df37ab6a976cf8a931b4c0a51de5d567253f, 0x85ff1dd2b3271d2ede2fa7329e3f0a5a1c3ff9aeb55555a7926d31a01d24877d),
(0xfd46e1efb588af1aa72b84fedec75a3b125579ef55ef82708564593095bf6619, 0xd06adc6eceb6292f60c7d477c73a2aff342e6b7ae81c5ea40f57cb7b27a51b17),
(0x0ed7d93eb8c0d1ef1c49e1bf0be22acdc7a17946b172de614a290d0b7f32b52b, 0x4d0ec30a39a81c3af8f6668a742abeb2b5552284a68ce246f368ce9fb2303ada),
(0xfccfdfa5cd0e79a69febda81475c06dd585179133624f4dc9d808b6d0e9619ef, 0x79b9040d11d09bedf89959c6992a9636ec62324ad60e15139bd2441add0adf49),
(0x831762b86a9b9afed2a044b27bc714cb16823ea722b44010a57a55644b4ac477, 0x147ae0628ef3bfdcb48b3f77f84dfd772754c1dca626aff69c3169e49956c708),
(0x33448c01a84d5303c8f70adbbfe0ccf9f92cc461f2656fb34903b99d4ef26b01, 0xe57273490ae8ba61c8ca82840ee7f906208ad03c6fd7c95f736ea541ffb8f2ff),
(0x920a12616ddf1304157ccb8c50ebaf6d60df85dab19b24a248254cc207d215a6, 0x19e4d4f9cc91e8903d2f7a11ca8c0b97e2cb671ce0c4ee369f1a3ca0f28d0f4e),
(0x1df8ce1d3e370b9c3f60ac00cbac25c5458385a5c4b926b7fcafe62e536b1ba4, 0x344df46ee363507952af61602729094e3fcbabf5bc701083533e7e605099a92b),
(0x7227847dabfe26b813c18175c37a05262e2243c8d80d93b6286b2881d38b7b72, 0xbede79eb33da3cdd95289c9346165cf928b5aa410c46b364622988b8a7973d24),
(0x6defba59e1218bfab02571f8ccc841043caff74f26d8d9959729f292eff7fb8d, 0x4d7baa8e21f2fbc596f770d1bd34e77c2c188c055921c1a695696a8d4c340a04),
(0xc667f4eff5127d246b31ae022adf53be08302e1ab631a0f990b16051e02d6bd3, 0x3d7bce76ce11bdf6fd4d822c37d746a2f8de283d527af2373e80c4a4dad34cf5),
(0xed9e8674441620f5990dcc2423a2ab006fbca1b8e6bb3d2355c2c72fce29d866, 0x64d5ed9bb4289a2bb81a12f330930dee7c03dd711ec361a58297c22a5806ad30),
(0x86a36c57e6b0cee033c00b2566344ef3219e57eeac452ea0b0eeb98c3176fb24, 0xb4f4bdda9e9b58df4e10387489592b5db147b43e79a1af25135e8db3eafff739),
(0x2e23778445396ff3a0e105acba151e3dfd02bf821de70e0433792280bccca913, 0xf736539ce77983f0610464c43bbcc904f43726dca336304fc0b716c367148551),
(0xccd3c14c7790d9365226dbcf11a0bc009db88a87ac2d68c16899f98020a1390f, 0xb240b35fbd6d5dd9f33bac2af1899320f8a9cba807df0a6781cdfdd71c3af907),
(0x7713be7f0988d7b1c6c6566d0558978deba4efadb82761b217bccd873637b018, 0x8fb91a6fa9d62baa2eeef7c515fab341c75f31e664ee7d9470db34c274475781),
(0x5485ad60035dcb3b9520acf56b0855cd34c739ff1c59798b1ab667baa4982b02, 0x1dec6c7b1e7c14ca743df62e589311bf57cbd455e7dcbf9fcd43996296a90f0f),
(0xa597503ad3be484d01d2d1cfc4e8540c411bd201f2b05ed189c9a3dcb0ee0f19, 0x35113e7d380011991e2cee664dbcf490becbd6f0765c94dce2855ee3b01113cd),
(0xba91b251abb130b157dd07a3dbd2fd911ae2493780c8046cb94de57cdd91ce4a, 0xcfcc2080500aedfba69f33f54f642fbb8377420fe1799dcfe1dc35930d3e1f6c),
(0xadfb5a5883cc7bd3c6fd338695c864145c6d2f4a603fb2e2fb045bff86d324a4, 0x16574ed745d82dfdc50415a18c30da913a525753cc97572222a5553f7b0cdc5c),
(0x1084914ddd710a5cac854b1410a4be35ba1f13a4e0fba3e29d94edcfa3561ae8, 0x653ca1353240ef60412ac6cdadf8e6642f2b74a35908c3babe6dcf8549c25e99),
(0x704aa2719af38b1417a8abe50b881efe81876a6af807833f133cdcd16e6c6f7b, 0xa6fee2b348c1180bc48726c9be2a1a4111395af442ba7b9263f4f66ea3769e54),
(0x46048cc17f5d2a865c1f5734893c6683fe68b0e8942c908051d7b836a8aec289, 0xd85cec3089a8f77d075bf9c6bb4f8a332e7668343841b277a461a0798b288efd),
(0x50f1e6be315d3b21636781ba8598d2f907d04ccf5ba1fc763d54765777fce9e9, 0xf7dcb7d62057b9f28cc249759dc9621f25dd0ce147e00db7d095fb0eee6b0b00),
(0x7ed0a244676655ad010efa037748d49e944df1f305bd46d03b7ffcd00a63501c, 0xa8377a65593f227b446eb266936ae475e9b3ae65a60768d82690d0f005c18c21),
(0x0d039ca1ee66c2cf611c431dcff1bd2e19b29d3bb1f37342c29f46324febccc7, 0xdb0d0d8214f4c661629ff5e24cfdcc846e652ee115a6476e7813104e696d736f),
(0x0c27973acc55fe2f4531768d94cd4a0e8e36729caad615797beed810a7b092b7, 0xcdc310eab36ab246c56d54029b9e33140878e1f1ff7520db43917a1401f41c99),
(0x36842942cce3c68325472e48de202d15ac14a18003a2dd846de0c33c6446e945, 0x5000b3f819ab82fa3589db9aeed5609b208d95fa0ddaebcb57403b9607b8f2f7),
(0xd1aa195c338621b519ff3a8c55abb45474865ef785e0fd7b0c4554ae6d62d0e9, 0xe7e1dd33dc293859b4634576d8840630832ce773a9a8bc88c2e67251a7b737a8),
(0x4f423d32607439ec366bd6ff5766ec13a59b2c2a8cd008b0489f267f5c0f00f0, 0x5e3c7e9d7ee94c15c048e6aa272c888cb6c3e05804b4f4eef5e1d787a4e7a9f4),
(0x6bb1c680ff8991ef17c0859a9b5fa9b8ebcb9afaaf7398c59101bb9907f06c4a, 0x318da7750d912ae5d17c242c97615c5f217005fd535b839f189ff3c98669a253),
(0x014095d44713a46a5fcb251c9fbee2e6bc39342330303b8bd0f2d09ac0096f68, 0x647e000b3660b374959e632f6867c7fc1c7aa4fb0b7f559322dcb2bae604a2b1),
(0x12112bf0346e9c6e4a8f831f6c0878768943191a38e9fb838b2613b04b5e5323, 0xe4149ac2cb4533d94c3abf62aee4dab9faf6406589cfe10e30a429869657a3d0),
(0xf99360ccc2ed4810d80974ebeaeb59fd4f2197a78459729b4f75c3708bca5738, 0xb92a2f5e86d77a8ac2c1b9f86e1971dba06e4414935020dbc0c83a92ee6f1cb3),
(0x2dee5a4ec81a3ecc4872112bbe53f51e64ae779c49488567a654e806ea809ca4, 0x1e2ea8a1df6d47c1c0aa1bcfffcf260ebdea4d63934ff3b1bcb1e1a4c73d4954),
(0x05baa6a2139eeb78f49638f7b0dc5010b73688d1bbd746a5f2382c7b0d461229, 0x7267738310a352f19f2a75cd9e42509fb08a0ca960154693cc01d59525dca81d),
(0xa3f77eb9321d44d6b774a6f3b1319e46f60d102cd96e983c8f8568ba82913d70, 0xf93d75df8271e70f1aa3863026bec1d0f6db176577470077d3fceb8e5c613a05),
(0x46ba66b5fa1f9274378fd62d68ae9f388588d766ebbe97db72f9084dc7f2cf08, 0x05473e243078b8df92df9b5552ad5055f44bf7e2ecf0785b72db5dd9238897f9)]

/-- secp256k1_pre_g_128[448..511], /repo/src/precomputed_ecmult.c:8702-8765 -/
def h00_7 : List (Nat × Nat) := [
(0xdb6a0246ddcf0260b2b415b6f551fad00bccb15cca196af4291d21cece80dbf2, 0x396cd446f93e1c97a56c6f6f63cd09665f88856fe75e1c7ea985917f28591d3c),
(0xb82f8d1ca7a298da3992c4e58dba1b0b38187eb866992e8c5cc1c8346e6c8fa1, 0x4b0ae76af9b0413c8d4fdbdddb767c6ab1b80589533e3ee028eb603601483461),
(0x446e96a4dc9264afe9cc6348aa612861d106fdd7b7ff94a182e0f018c485f000, 0x32dfe3d921593a581fe23b7eccf677bd2771c40ca612a507c8e33df099568440),
(0x00c86f107bfa6dccb9f00ca3465049de5c8a3e6cd85bdfb81ada1d39303a2eb9, 0xe64f70667e9108140ae18c6a7323474d9dcb277e4aaa7ed888bae4ae7c34219d),
(0xbed8eb6ecda14299e4cd94cc202be7b89201c2ab302a5cdb83e5f5badb6cd710, 0x15736cfab375a40c5d367b9f6692746d16a1f03c20941256708489a55d411aac),
(0xb3efa7f2c5f6ad1041f171b5ad759480665e0a52de82a881da1926e08f64d38f, 0x3df63c8432761a2400eb0dfaae98e034b6dbd36103fb53ffc535fac8ff1677e6),
(0xb0460da0cd869b5f235213a849e143e18fa9afc1651ee921ebdc525d2715cbd2, 0xc11a3eadf3541877ce73b4c02b57b29946b4725ecf630eee865bb121b86fd7ee),
(0x28b09517a17452beb2c1918712d600d4b4969253a7d0d52a49cec3ced73bc071, 0x36696708073c759111163518040af59440ffd6d0690ddae7fce7a43de920a326),
(0x521becd8192acb5807ae76b7c0bf17fa0ad86afc471577536b1a51b0fbb5f136, 0x648a54c6d7aff13ecccf399e15451682ee06710eedf326691dc7fe8375ac858d),
(0xb7bc19d0b7fd9d6526c9bca1b587d84ea2a200a776d39082368b761f79f6cf67, 0x5adefabee0d0c8cf4252c29a773163b64a1e9ffeffbfe3ad2f796e8d1f70acae),
(0xe48e3be51b6ca8d541f0c24121558cec66db7b6dc13e7114dc931f0d397aea8b, 0xdbcf63575b16e2f130f064bfff12b465f6cb3a3ef9f744314bf41e7e0e0f28ac),
(0x0395c6de71c692a6a32475968e28f2a54ec795b59759e8909b2f42909f455751, 0xee5e011803c7dda2c1eed4e15aca155fb5b097e4499bc3c3fcfc2c85a669a13d),
(0x28938ac3b1184399227412919c0fec36663da3aa8a4e89a81a66052bca808d99, 0x4ae8de7ab1ebc1bea2beadb180cb9a10da168295ba1ea5f80310b9864f174603),
(0x05c0f61895e88cf6205472f23e27e853be3af64fd0a376f58523ee6b5248f5a4, 0xbe5c3c55cd09ebb3b73634569fdb50fb8473e3d83441e624b41b1c3de44be51b),
(0xabe1f7bf22d0f733ed28e125f7ed05baae2e8f131eba2ec001554dac5e3ca1d7, 0x2a5a48db3de31f6a9708ffe4b996cb33e553e6b595aeaffc918aa2c41ab0ab4e),
(0xc304242757d370b379124907ea6091295f1dbeec442a6349bccfd29ce08d8be7, 0x67a64eb33e0fda75535b35e2f8c9811d528959c129e8f1448bb75ce9b1868934),
(0x65a59946356f219d77af0b6a9e1a43f7031527466af41c21c81532fe3140f5b8, 0x64e7128d5d3e4fa0518cf27fc070da201692b0593d84641f2463a61c74f35918),
(0x6c7d2e3b48428c8746b066f2bb99da1060311cb7d4dae19ede2eb53f141413e2, 0x04ba47bfc2e7c6704de2864d1ed7b383286292fe28f7c7ab2a664bcb6cb7e3a1),
(0x0dd257bdb99c89c2b47798a9bc93ff575655797fa45399cf44acf58e93fdcdd9, 0xf8d670f2a9207f2552e7e0d714289103e8194f816390e0cc1af2ae36c1b3e4af),
(0x2516034eb8ddc42442952b8facd47c626827b87cb08f263eb2aab5e6ecc23d7b, 0xad8e8879f5feea07ad3545bca731dd30bd2ab5344b486826433c75a16216ac9e),
(0x7e72305427b591e3b19834b38211edc17f0752156591980b907dce0ad934246d, 0x5c91fcbbd8c184a6f21671df1098760b2506bee8e32474e33b0801474e63a71f),
(0x1b1f9d16ac3c0d2a04b8769145a6f6bb8d4fb57fef9df33e72b5d3996dd1898b, 0x6442bf1e05ffe450b14a399e16241a5a15e9445394519bd1024d0a67f35b4b1b),
(0xe0f1fa4e57cdea43a3b9f671596631c665b5144d93c51a23e9006c63fc872f2b, 0xc83851fb54890d142f6056170151dd4774f9a3decd27d8640a49c176af32e564),
(0x0ae95bbb697c820a251a3667b2a0a07840efa02799d7bd0b3e9a12eb32728c3a, 0xe0dbba970280096d86ea4da945ae509d1140e0dc7b803f10e685b1486baebb41),
(0xfc8ff885d52ef42c1fe529ea853ff8c30afad1ae6e7f1b3069e34076682aed31, 0x525eced4b26e8f627b904f1b3356d01a09cced71432ac850433e0a64b1e3dd14),
(0x6613136a459d625a0d5b57533a965a0ced68d63c13652546c629cab332c8e810, 0x10f29ff824d30a94b3d732b43b168bd228b4cb014012469b93a9853b655b65cb),
(0x450859157b683327c76309b396ef3b6319dda841f6be1b91f24f5a37ddea56f0, 0xb9a71446584a88e46a155e34f08d5a6b2b6ebbbfb4b1aa12bbc7654f91956821),
(0x168ee3bd8f10ba0ddeb82576cd5e1711be58af4c2274464f0e32f3f77c8a4325, 0x6eef1e6343ff409fa916891c982f8700465fb1845820b88668b742026678b34c),
(0xb3191d97763c23414eb4db8deb2003e4fdd86b4c6077931b71802714ef048c04, 0xb4ac308559f975cabe7d53d83ebdd5c3ce6860d637710a04f885a83cc2152edd),
(0xda9d5c5b4e73dc933c72acca1e93f4bb3ec477fcf201096a51ea02263a2f8738, 0x7fb6a2da65f966c3689b93b0d6366511400c05d08b0a15b50b4b3209a812f8aa),
(0x140e55d2a7e756781791730f0c5264708d1cfaa0954e215c01e65bcce4b0dd66, 0x4bfba0d863ea259791e470d81ef3631887e2d5e5c897918bce8059410953d5b3),
(0x15a9ccf64b95cc87cee9bd01bfe3d8bfb438f7f866344a1cf3f399eb16b173d8, 0x4f5472cdbdebed25605e51fbf0b31a935d0ba59a6e51bf90e0363c8d9bb33f3b),
(0xe86e364b6776701db7b3d3d8fad181bcc7ed5e912d0a888f814caa3d88af6e06, 0x022fd4600afc040d3e995518c628698924a466d14a624915f834c3574dea7b92),
(0x3c261a98cd25f0db2321134c723ebce7b1f81d3aa6d5bddbfc282fae5a500eb6, 0x2b8d21455e4982118a4b6ed7ec96a66c4027a506deaeecbc45535fc577abd9c1),
(0x49b6a8114d55b5176cbb1f6c177aacfc368c3b5d0238300bd66546edf4c955c8, 0xd1b124a409f0e7c106b8e0017f1b0b2a0ab94411391d5bca5b535838a3815b94),
(0x6ec8e861f0d3e5a53f9deab620cc4b816cee801ff7a43f71f34a8dacc525f6b9, 0x42e0545b68ccafbd3309c4f7eb6b5eb11e01a871c63fae27782001aba6dcfd6a),
(0x7342b34159aca5cfd305a2e2a8f14da44b527e574640fe1ac08898aa4595b9ac, 0xb5261302d2442ee2363969a84ea6128127f64f40ac86dac121b5d23453160124),
(0x842b30bd54ef350b65dcfc43df26967cb2747757a609c54b687d30b95a686fa9, 0x4ffa9e922caa36b9ecf31f63f5c8de577d594f7c71e7e77b9cc5ac83f336ead6),
(0x2dba435dd589a7c7bc3fb60d495757ef7c13bb0a3e91a1539998e04c19f94862, 0xc440720ea4b23cb9d238eca16775e500931d3e5c7df853ed55cd48895e8cc0a1),
(0x9d1e85248f84ce5b2a75a457819390bebb284fbd3d035c07998d3c45c73bec02, 0x8e40ee4cc935ccac2338bbc84a8063f36d62e8cf849bff401298074c94eb9ead),
(0xd2735ac5d1fba75bd4f63912115497559a7f862362e25cf4e76562d2d8b441af, 0x0bd2ac3619f9f33977b7cb0e5b52f3e5b4ade86d1c9fb31da1d8fb367dafc081),
(0xb0130e38f46cff13ad1a68d315729395b27c2b96e0a957cdca63adfeb0a3e11a, 0x3d9f697f4a61401c87eff8443b11776a610f15164366c1b5535599a00c6aa3c4),
(0xe0aa062f15306af8b662d8f33b89de8bf59faa7829942caaed82e66835ec76a7, 0xc5f5f0b56ea77304a5dffb8acac9838734305b5425fc618179a4457ec15e6f2e),
(0xed1626c1a8e6d1c9187e15c4ae9875ec2156d685997ac4139f44bd0b019432d5, 0x3c0d895b9dcb4a3f4235e531ee7373f77f0fad46c5938d7e69d5042971f0c35d),
(0xa2cccc314e18fdaf8cc25aa674c974f8664744db86e04be8431d2ed04dc92833, 0xb6410e49d6d471eed20e55368672f5e42e1b9c88c06438a846c3a74fc759d71c),
(0x5bfc192fdb15f62c4af19119b2d96a88b3b24e063d54b31fa35f675bf668bf27, 0x46774374acb4e14090431bb39f62a38adbe0dc624021e23b6099e19847d99051),
(0x66842a89da73c40432a2e55397efb00961eb2155886ac90e97dab5f009227028, 0x3a8e83c3511ea04888d2dc9df1016cd9da171bc689c9af4e90b1809121941de9),
(0xec8231973ba95f98d45f89913ee8b92be3a4a84dd59342f71810766bcdc516e8, 0x532d3c79f5113f4e1973bc882a953b5d77d5476dac9972aef1d25e19ab7206fe),
(0x3b65fe78bc516176aed5e5b65f3ed39fe8e8e26c32ab07ad1ac2519f72fc140b, 0x856d36de5190eb9c13f7f976466f95de566a1fd7314cec1b9c9f7adf98208d98),
(0x03ac0eca51c43525e9e545ce83fdd009f9f31eb32722b94518262036d18cc346, 0xdc72018bc3b2a4cf3244ef31340e0944325bebc8b134de509ab3024aa213a7e6),
(0x4929658d6c50ece6edd2db7c217d9be0bcdac8b9bb50972ffbe53a042ee23508, 0xe5aca42c61aabbd4b8555980a23287416dfc8df8d7a10c3a7284bd90aacec38a),
(0x9d16e76f4bc96492f0e9e7488c6d22977830e2ab491a62781d60ab5b153a6291, 0xe6590f00e4ac6922054363189770aef55eaa988a044e9711da7266ec895ac7ab),
(0xb0649c4a1327e7faf52a9bbe7ff97add4e13b36a27c0676d5e09b2b81f5df94d, 0x991c8316a6f36848e072a08077f75a8ad79fdd081a606d120b355c3c3891acdd),
(0x8f194a21f6303ded2c9ce51c44a4a16beb39a8f605fe13c96b7c12bdb052235d, 0xbd1df3d0c9af82e2545afb23e9a2dc85c635172cedfe70f1bd755d269730739e),
(0x1da71a97cc7a4cd94777f6c3dd5e665b3872b721c6c2262a60e87f1defe21ff0, 0x78d17a4139036e1a7af2b9af1273afeb0a4d30e866a3e6e87f0d046804be6a06),
(0x09fed363e493f262d3efabb1c52291c7e04e401bb181290f7a37af3cdf86aa45, 0x130cc33ee164adffbedb18276a5c965f53a54f3690dfcd6cb3fff836703de729),
(0xd166eccd221c3568199ebc38fcbb61407a601a3ac1e7a98febb75a87a7a1e49f, 0x262222b7e7c200bd5dcec56285485434b0628c7cce5483c993795f76a072f06e),
(0xe7853cbd3e3770c1cc307839294a2e8eb998a56e393435cc2930920a8ddbe0fd, 0x7977e6ca67147cc4965d29181023c3bccff1e7b18fa4850b80a140f6980e5a8e),
(0xa8b0feb1cb1402012bea3cd56b1a1f0251036ce70423f511480f49c56227a17f, 0xccd7c3db9d3ab6db6cceedd6d3801c8f67afe7920c8977b527c9dcfa75ba8a9f),
(0x57ce5dd9e181575531e9057974f58b986d02e406a846ab26c9059f6c56d617d7, 0xcc34c0904399f316269598f8aa8f9aed829f61f25efc9bc4e851ac63fe142d14),
(0x479790b64f60fc6dbefbbc1d365ab3e48077b6c6cbf02f2d6c8b986fd0f9c858, 0x157f4982e3581925dd25382ae3e48fa65cff911a95e9bf435df8b356087f2f9b),
(0x055abc7b1ffe0a412181b622813be76c8ee0a0ca3cb37b1ccb265087fff17c68, 0xbd13424923e94c534cf9e6030a1dd259606272bf8283f2d669bedd4ca971d99f),
(0x6ca7e0328bf5d67ab804d4310e5f709ebd3156e01d4511da1dc6739424d2e659, 0xc428b133f36839096551c2ff2f870d80d80aaaf46d2b1a69077220575eca2647),
(0x60df19a983e9086c4cbd20bafbafa8b2346ae4ee9c1ad4dd99959e912df530d3, 0xdae7b85429f817a0421c2f1e0e4e8e4da09d60f884701e31d7a8b7b03b79cc48)]

/-- secp256k1_pre_g_128[0..511] in pieces of 64 entries -/
def h00 : List (List (Nat × Nat)) := [h00_0, h00_1, h00_2, h00_3, h00_4, h00_5, h00_6, h00_7]

end Secp.Model.PreG
