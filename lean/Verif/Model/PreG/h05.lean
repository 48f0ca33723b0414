/-!
Generated from /repo/src/precomputed_ecmult.c:10820-11331: entries 2560 to 3071 of
`secp256k1_pre_g_128`, as pairs (x, y).
-/

namespace Secp.Model.PreG

/-- secp256k1_pre_g_128[2560..2623], /repo/src/precomputed_ecmult.c:10820-10883 -/
def h05_0 : List (Nat × Nat) := [
(0x043cd60d83bfcbb30cc1994334552eae857593aae8158adfca850b9d1aaf4c2b, 0xff64bab10f721e6b9e23d659224998cd0996230c4fccd30247e9e110607e8f62),
(0x41925ce0c01a49dd7be0c3a3b27f13b702168dfba5ec1315f9209709f38ea93c, 0x5346b95ecb6a0ac01a2f49c19b02d9a9a725a676f144ac26c48f0d8b94f77110),
(0xfd2312106c762d82a851bb478d0ee0d80fa1c2327e26feee3e6ece5b323877e5, 0x39763316f5a6ece8baf748d6234eedc14bf334621db3e66e7eb2fab4f96fa162),
(0xfe3e8a98cb7abe1f36a54a0a0a3d1c9fd5ad684b00d05cb26ea683d8f4556ef7, 0x7d22067734d80663a1ff05f9bad5a648837b4475abe0746c3fa940e04f1223bf),
(0xe602a764ae0d1bdc4c3f9b1d271717db38232e9484181ab69ba8eb734f5ec5dd, 0xad1038aa26268b1002c1f9516b77b4828bc9bef57b483450d513e6f4cc916fdb),
(0x871895cfadb772d9719cd96205dd391b3218142d0364764eeb0bc6ff8d81e086, 0x49a09064f79164219d51ef5653861350dda2c9ca4e6269cb555c89963f37722e),
(0xe229d56e77755805c814ec278fbcc56e8ed4ec4f4c14907f4ab3a0e00fa7e4b4, 0xcdb07ebd66d68055bed7a46b63ceaea86d42659aae6ebce5795ab90814e48af2),
(0x05535f856b0cc86888ca31189d20d68f471066afa70addd6ca4a953768bbf8ed, 0x8655c844245e2a678427822fac3206a1f6f529534f7a6c296ab4825b770ac5e8),
(0x106579054b37ce9ae240d78e03d1066cb8c48d210fb7130c0dd35ee524767ad6, 0x52836b7a508a6190028eb013c0355f704393a5afe133abe2e8b81dd483e125f5),
(0x3366b2072521d02399e9e311e3447778e796db0c87428e4be6cb0ff3a0868c1c, 0xec6022a422a8dd2ca7f2f15d39998394ac908c6474a34ae30255a28d4311638c),
(0x4a789396339be46c73608a1f59fdb41e91bd016466417332f26303160b5953ca, 0xd45b657f615aad45809c0af84eb8618d6e6e0346ae1ba1013a123ef9e5b4c442),
(0xee4f2484fa0a9c7fdc0c64ad4df60628d75d70b57ab9f0fcae9947e389f1302e, 0x52b77894d8ecdfaedf7dbd0d8dab74a34092073f47a543cbf81ebf4209f80170),
(0x04095b5c163f226f7937fbb83035f6a39aa9b760c5086c0eaf9959fe25f30a1f, 0x1ce180ac65554d4ee9b145955c059f646a15d032930465aad5547c5805dff7ab),
(0x6a225d3b067d9d42412ecd9fd018bfbb7a36a59cd2f534943d6cc62fb0436a24, 0x29b3d63d9352e0ccaa23c91ee300592fcc698abcc73c48da6a384f99ea7c2701),
(0x23efaa41e5f9bbbfc6953a89e3f4b9e21724925494f2057cf46d0c8d71d36e93, 0xcc89a7b17f2671a205bd70755c26921988cea3a11315b86ef218e4937cdb789d),
(0xe30c1e97f7f9995758d591bd6a398ae2f972176bf637c66a258ad0814f3ae55f, 0x1a70cb6c3e66e925fc1edb4d4d29bd893e8e47556825adf311e64b01866509e1),
(0xbe64d782acd416d52b612f534601876bf05aac9113c8d265b57ca32bdf08e278, 0x7a41844a43e837c9293b81c873cb504fbff8f15f5a21e61f9466acd587ad7e4a),
(0xcaac02bee009a61c0672b4c282fdf2f073ada0b8d4a4545076d24c38f23822ac, 0x7d93e4bba040f4e223acc30475c455e572a9a64fc66108ea500ca62f9216d06f),
(0xda2539b03a9cea949209321e0e1719b3c1ef94c386d0e860fc0ec1e70684ccb3, 0xe85e1387bef1cea2f67f601f8067e9a4b1b1306f6a33df157795cbf0ce3cf9f5),
(0xbf2ee5525c96524864bc1bd8ad9cfba64ce4fe7bbe9b41980700e936799cc0ed, 0x889dea1db1298a24a11529bc303390235df42398e760304f6343030f6058f18e),
(0xb3e4b141cb0c36629fe4c9ff7a42c6351130602a720a626430b967c147abde36, 0xf66f7118c38a828d8c4ff83e5d6affebeff979bb2e419f56a7d7c8aa52865657),
(0x451eb24ffad7211a111818265a22364924a2559363c33e014967ba58889475a0, 0x889ff94049f6c3b79a5bd3211c1f33e34cb2f8c5bfb141a21fe5419e44565bb6),
(0x29ab658a6a7547782127a0b0c4b8af33ea4c77bf4bc0fc53b5d65d0738f5984c, 0xaab1bda9c77d6c3b0a619f9ad72da6be947b8baab80b16d215ee01a22bf0f2c1),
(0x9b59c407d815c22405bbb9c0d1da59fa09d9e79ac654f8ac2879b341297b24db, 0xa4ef058ee6300114c2827811abacc0a917bb35b609b1b76cc761ab8da676d190),
(0x87d27b6582aeb9758b9b970e76c3ac7778e69a7a52ac620fc0564e74a66c9fd0, 0x3ff3b3ccdec2933741c83e087f07f41c04d03d5c93268b1acd9098e137511e03),
(0xfbb3684d38958163bd85a0ab36bcb93b7fe7d383b70d8bf4d9bba6f6989701dc, 0x7b07cdc6c9c5b3bd10dc2af7b2606d09759e734268a5d4c0301be26487b94504),
(0x82022ae4ccc42b9d223cc1adc66e58a5a3ef1494f95274eacc7cf79f4314a453, 0xc24242509ddf2da106f0481a9b4db4503a81805e9a8eaa3bb5cd0e4915d2b695),
(0xba5cd45b3b51cb37bbe475fae91f8975ab4e657c57d0801a1dbec958be20f901, 0x2e0d4fc0f8b4f58e3407eddd298e53247f9eb718b58e416478e3a01ecf41b0a5),
(0x1293c841b316d1be76ab444453e72e22cfadaf3adf5b6d277cd065d88a6703fc, 0x98f58f3740fb4988b844ab523420709c2488f1448804974928670aad5133c2fa),
(0xec9fb3c854bf1bdadbb972dea8ae36c7987d77e48d8437c2c69aa988df5015c6, 0xd5f35bfdea59e974961d6b364832560cfe425d54bfceccb2a00411cca5486d3f),
(0x2ecce03f4cd55b696cbd44662e7d58f69950eaec6adaed627694dcb72544d244, 0xe14f30a97f1cf747ead403cae07cc4ccd1bc793fde79082f0f6615e643f68879),
(0xed8faf7fa63ee5207825e7fa56f6ef8a4c6ad5afac507c3d77c025cf566fb3b2, 0x0df120b8ab21273ca5af10407fa3e54dcb0636c48ebf88f2c9b046d883684a9d),
(0x47cb8f7b8780dabec1eb456af30fd9170bf3fd9f3c28e3a5bc078c5f14c32e4f, 0xf8607a021f16aa6c68afc948f21ee2dec5889d198978e9af66931bd2b4aa3203),
(0x76365ac1fdebab2f3b9a3ee38afe70ead49620471e38e5cacf215a243d762009, 0x2cacaf728b4bb600ff37d3a697d45fa65d7783340dcddc3211fc51b54e53aa28),
(0xc9dd5de099b8e552e1375055063edc839f09311e11868ea8a233309ecc27b424, 0x4bd4d2384e615eb7c68f134aeafe7d2b38163a8bb117f9e4b382236bb8f8c1a5),
(0x22b6a7adcc406ebc7c1c2f96bdbcb6f89a1e08b7822e2a3183e5932dad0a8961, 0x52b86095bab24f4fd2ebe9a9534af2d687b553e277536d5e22c1eddfae0ac794),
(0x3ee808a749fa7df0c37017fecab7f6be96f06c04b2de4d24a331a9b69f81a158, 0x3e954cef5f1f9ecd887dc174064cffe56c4b1356d841ed0c01e23c1c2439cb4a),
(0x2938bc588a7a48960de69ae44d5b6240aa97d3027043048f3e49c222b8fa4803, 0xf26bbe619fad1d90de74826cba6ea02a9ea59a1c59cb481865b054d039ada03e),
(0x682558ecda97c9de4cbea34f5df4327494962e5cdf72b0b12c3977d7e1a15451, 0xc4c2e76522c7013f19253c4cc8ec6cc68b543f335aeb620f112824afb9fedc6c),
(0x720d8c68fc520da579f6811de1f3d0450cbfad090f7f7d8c08ba68b406493620, 0xb867e8a84f7a6d0604d6fd4b8bbb31a907ac26c3b485fa2950d545e2644c9cb5),
(0x967fb3e71bdf658d356153ec6c0463a9994d5d2fb3aca9e02a17f5ebf4b84831, 0xb84a65f8861724b32f5d0926ec9a84d7e3cddfc9c7887a094cf602eb547cc83f),
(0x1d9fd25c77ecc3de8e5fc1131ef13b9a73f6ebd4f8673d88db2a418e8bcedc85, 0x54a06301d9720fb4bfbff58e23fa4233033012c9d62bf0e4aa6adc4eae8035d7),
(0x80138158a1137af3114dff5ff346e3397d04029f9050d44a0b4cea89f1311c0a, 0x16f49876e6d6ac18c25cc712da3afe70bc5e94897c55dc36bdd234aa6a5a6b31),
(0x0aab402177fa5844e3a0906b3107df2233aa3418222a8c55c6c37933c3ef632f, 0x9b83208f3ad0dced382d58767a0897119a0620399a7fbd2f7034e5e03201b092),
(0x8f3fd14c7670f464d9ef1e3b3014be603c52323714bbcfe1d3612f130fa72f10, 0x84cb70947901b81fbbfa593a5c8606e6862ef6f5d71c30a4b546c08b4205c68e),
(0x3ba9c91caba3c06feaf4578a33979ec8df69a90330cb8d88e49953ed4a1f4933, 0x7048a74c3eb66231e84107990591bbeffdcff65bb492072f582ee47b7a6f99cc),
(0x2f8c37d289dab0e0d515246829f6cb617344c21c298606455f29a9cadcf36a7c, 0x37f0b64e9d02710ebfaf145e69c799654223d0937a834201d2f74d40eb508396),
(0x45e6eba2c9209d27b87f60500a656fca73fc6128cedbd2d300ec40ca76dce846, 0xa3e28d44ba1882bbd1c91a635ee22582813867574e66ad908a062c93bf5f16ec),
(0xa5ecd3d380a0cd234467143ffe842d9d82ea7d9b98ad23cc605fb8b1fd767ee9, 0x22f128238ea842693fb31fe5b5015cf2c9ab6c330d167b959bea6e294f11353f),
(0xf7f45a71c4663b0d44369821318374e851eb66a9ff6034a2c943ff900174be83, 0x3a1633cd4ec197f540d3d6e3e6a3281d7fbdf46cf52fa1498acc0a435b46fce5),
(0x925822866b314e175af03b7de5717d4252bf6c82a55ec832a94b274b487cb59c, 0xfc8e9584736809dc652346700495bbc7d6c2f52cddfac4a0369f05274a811f68),
(0xc15fe8d32303d00a2f57fa966ae6fa751d7849f14dd527b5a7f76cc10e556da4, 0x36242bd04685dff1a67c445c50cd348be017c06ae2e9cd067b5fb10981c10951),
(0x049ef826152aa60e310372df270bf0d404dd71367d72be5ca464f60cc62b5355, 0x7cad4ba20dc4480b9a1c572c77a93e164e369d2eb565e165d9c7d2cb20c4c645),
(0xc8de09e7538ff94fe12c876e163133e3629b2f1ded6686a3be4ae1229c91a18f, 0xb5a7f31fe58088a105f1e872d60965629cecb10f1a76fe885eab6247697c2635),
(0xd86b9fa4616f43af1d7a6cd3d9af24a96b3d5119ef7645769461ffeb96abb344, 0x2388ce8e8f931b499481b660669cb8e856df6f72e392e539fb570e19f003bcab),
(0xa2cd7618f351e2b13fa7b71930fe304187c4969e4f3ec55a7433ae6f00cbbf88, 0x3e0b5c62436a363b1455711ab310c36229870cd3a096324aa8dd36b85d19d685),
(0xb7283cd4e33e4a3d7836e4f6b39b5576ad6c213bed2fab87ab442ccf2100b2ca, 0x918006fb111c23071821e7e3025eab3f09083367004248fc2733173e8eabc9ea),
(0xb1fd2d2e9707ba8d355b123b9ca31365d12e18546efccd9a0cda40f648b9a769, 0x8c37cc168e8f55def604d22262818bfe1a40cf3d62dae94b58c9ef4b475e674e),
(0x1b0997e74242e85e0cb4be32885b5a6ecf6077c7395d262e7c0d2b82cb39f90f, 0x55b4d8d427cd1d8aed8c2d2ef3bcf8cef30fae124c14b183fa36923b6b7760b3),
(0x56ffbbbc094ac925dea362588ee1bbb34f1dc9b81bfd7e698e055065d98d78d6, 0xaa73208f46d72bdb20af3d235bf1c5baa517fcb7b80362089f8a7198d8edc65f),
(0xc125fab07ddb7f9c3426cd36812611e8e3908191672286853533e0d93ad7045e, 0x2806703f622f654af6c3f11892c1dd8f1f235ef44df464b68ccd30f19b77e5ae),
(0xe7ede9dbe4e0c7428b1fa6fee81e80aedbab85fbf259d30148a51423fe7f4a17, 0x93ab277a9fbc5cfac80d32e65e7f50d2e236925bc2dba1d9e635a56cd33fc066),
(0x74701763f1bd6bcc470c3da9d853f967a47c1628c48b1cc8aa395159a3df93f3, 0xab2c011c7c5510f337393dd5f05547babd22237b28ed69d8a4b6ed555d8ac8ee),
(0x08d27f9755baf71fe6dffb8d83784e320a65541c5c65657689c900d5e79081b8, 0xa7176e68f3c896014ae1f837bd52227ff308f90cb7f31386e55861251ac250ad)]

/-- secp256k1_pre_g_128[2624..2687], /repo/src/precomputed_ecmult.c:10884-10947 -/
def h05_1 : List (Nat × Nat) := [
(0x63e06afe9040b531eac0a0ff1ac25db871b0db018e9828c10f5798ceaccc7ea9, 0xaaa11884a9dbe08b6b28fcf99049aed50c911244b2a6a13e9300c007f4910aa5),
(0xdc7ea1ae27d60ab342d617d023e4b1ab6bf8bac2882084b5dde95894744ed50f, 0x93c7d76e2b95c5ffbbfe97fc0754a5a3b63efba6e111540e48a0291c142f3dfa),
(0xf3aeef6df69cef4a3d7dfb691b5aea9936e40239bb9762532213bd1bf6e842d7, 0x57d37dda339c7002f87bde031cb1e8ae72e5628ef493c1151fbd0f462208de5d),
(0x825bd84c316e64ea0dc5d08123d7272eae87dafb28f69b67816a1aca76bec3ce, 0x61e3a7fdba8370a86a3e3f69d62f87f0849a256497658f1dc28ca11b40a52251),
(0x310a2cd74dec53709d2988cd8e9426a10edb63b950ec3ba7f5aeeb933856a75d, 0x5d6d86aedfa5e57f7f2b4ab3aaec250fe3ff1eee3e18c228ffa3b81f17122c97),
(0x3471d47562a512d0f82355aef9bb6c3f69f04db8977ee4d85af582c01b425217, 0x272dde702fe0b69ebf86d68c5037b425ccd444a945040358aed399ebdb9cba31),
(0xbf6d2563bfafaf2420a2b3df6829aec8aaeee4eb0ea3538d8086807e4c257a2f, 0xe8077a007e7b496b64f847ef755746b83a2738c44c1e7ff1a920ee2b040b496d),
(0xeb33cfc4a883f71852fce42a3cd876e6d6f4d465327223fbbdbed4252b9cddc4, 0x9bd400f2ef608bd9904f03ad27de86fbeaab9137e25de8d2a7dada4a1ee5453f),
(0x1317e0d03e5df319fb383edf7de956456b123d3da0d8d08f082091d6ecc2279f, 0x3bf6424d5c6f9d56b0d22b60706a5471dcae4297eacbbb252a9d229233675afd),
(0x81b09f2e99dc43ebeb22cf5dc5406f307e00f8e4267bb456c99bce34309aeb56, 0x9d4856a4b300eeac42f5b1df92e331c91dbc5f6febf17d7c49580180a3361932),
(0x0deea5670a32ff19722626baef4ea337ed436d320d23df7e98b86644855a62f2, 0x5c912697c61a17fe08557ab340c1792d4a8310ef69e785a6dfe66d439d032414),
(0xce4ad0835746d173e68e02ffa7a91b9e96ae44b1cee86755ef3dc4e8e43444e5, 0xbe86cb8905238d4cb553e2891545fe84df7cc81aff1c2a20d3406f627f03aa7d),
(0x9a993e3d407f1af6e4d19a3248a0715f2e36384c7d8184f6fbbce7ff530b077e, 0xe4a1a52d80a267ee99a7bd6fe6d96ffa3f87001dc543f4e2481eebc1301a7a7e),
(0x1f10df2d7c7f05c81717ae6a1267aa639247c7ef45aafccc06b36112fb9bd0d8, 0x670b265b71e2db7932683b0ec967e9afe45ad64327cc29affdc783b058760410),
(0x70ceb25729c9208e7db17633dca775ded57d1dff9d914a5a0bad571186621b53, 0x6e016e91b3f3455fcde11c0ec6d1d75a00ee982507e9d64ace7c1ec349df0c62),
(0xba46e5e64dc882fb0dfb79210a106060043fb6c4ace9f2fd46693f7e74694e3e, 0xeaeb4eb9079381ff8a208e0609d8c4365868d0b3dea049cb0f342c887d789acc),
(0xbba3badfd233ad20e4179beaf3d7579ea631d154e048f7a9e320d38803c30d81, 0xf2a7c70d69dd44c7317a0af4e765693e02bdfce68c8a51e8ed3f90035e1b961d),
(0x6df6a769d300ba6817e58f1bf41e0af2057d491f38e59283d93750a636d3f8a5, 0x63a083b3aa51c772eced1f31ccdfb4d9ebf0f49299f12819dad9a36da73a4a6f),
(0xaffd131a4b8c9a98294c7ea8793a51734fab19531d2fe2361ada5c14a7174f2c, 0x4c3de4d9ec4a36983feed32258a9788f3426891cb3205708734296713411be6d),
(0x2da310499e54b18a19dba5464c7c708dd42ccac6bc2196ee2f0a24533b0abc7e, 0xf354ac9120ad9f8b56d09d4451c4d052426981a3f7b47e7c0bb0549f232db974),
(0x3882ec53cbe3f82ae8d381acedb4c31f23cdd201eec93f2b2dc7d0cf92e57b61, 0x1d34315de5a7bfcc492b0046b274064671a43d532fb0bc786cd80ca2ef7e6e3a),
(0xfcab86356a08ab2639bc8e4e8e9eb5e3468259752a65cb28d559bb487387f9f1, 0xaf4080c0d08f07ce57566753ad3570aebef2b38d04ef7f540d7b2054c8fceb94),
(0xfd34b8bb8a897e12a29dcd5a57540caa847bf011a1548ebe5dd89d759d36bb58, 0x51a66aac6a56f97357927eaa723106e4d19b603bd0d5a55b762351977910b2f3),
(0x1e89bd20c0d85bf076c7a16787c7d8171d3b466099dd82fa808d98e587d4b469, 0x4f53a9d0e57687603dedae47574f3123dcf11590fbc4d353eafc86293cfe882a),
(0x8a1ea7ba66909acec8d7d93eaefbaba9ddca459e548c448f5fb3a9577baa05ed, 0xd58059e9064f37a439f7655b25018031ea1f1fcf8ae94f99e09c04cf8b7be091),
(0xe0c3780d80d5992696886549af2961b0e4451f0c0b5572cbd7ff76d61d1331a1, 0x99d9d2e6a13c3b1fc2fe6f1e5230e7b3d827ddaebbeda5511144f68e4945491d),
(0x964354e6ed23ac1216fed36c5daade188e7e1bdcff20e60ef7cc8c0e83996035, 0xf748a09a8563c6e8722531984e6f06227e6a408d3c633529aa8bd3263428998a),
(0x9809e7295125c862fc6eab86969861c78bd09415585414a1ab1dbc3c1afe3f9b, 0xd8536228bbf55568833909f86fc84a58ab0fc089432fc05efd46bf63987b9fd7),
(0x195f4d02305e4c4228d83bf94025fc7d1d8d7173da14bb34abbecc4c0f01ed17, 0x957db8b497aeb9cd068152e023cb4467ce13845d3a88e21a726b87667c9d637f),
(0x562eaaba3eb17e34efa3f726d02490eab0203fe681b836c0f2c44a1a854e0b37, 0xb4e658ed9e6648042d3a35a770ef425397093ba4d7b32da59db56a6f8552b1e8),
(0x84a2c5eb1efa901480c579693302f34fde3a602c0a4b1a288d79f28e0dec8282, 0x700d51c788cfeed8587261dbadcac440c703313f5f0da023bdf62b3646207cf1),
(0x83d12fcf0dbd9168b14e73406c6d4b84b93e2bad77d4c7fb8ba009733672f913, 0xe4856e26bf2532cfbafc78b3682ce9cd3c0dd6fd861218ee523b5131e7279a7b),
(0x9988a6f2bbd9320e0fbe73bf9f4643f8ce64d5229ed4b701dfb0068edd5451cf, 0xbbb352fcbd3b2650d0a44e4d892f89a40d2f431c2abe9910ed5a1dd18a882d5b),
(0x3e92183dcfa615c733721d1e2a2116b183017d4c2aa70b5160f80a10afff0724, 0xc7888251f4bcbe62f0dfe5453a73f3d276a2f30a74e57d7f22680b39142dc945),
(0xd9175300fa1efe3a4cb130fafb36275de5f85b985ea5844de7763d6c8239492f, 0x59138c65e9592a0cd9a36220d165abfcfbad38d885eeb521c55667029b678b4b),
(0x6ff5825f7c12bee65d17f7b47766e677ed74c5b87a95d068b474112936d933dc, 0x661ae9de0cb7974b2304be0a4d2b8d802ea9aca840cd038131f80248378c0edf),
(0xed6cbeb1a87610643067d580ac024f7b9560366bbae875ab15ceb11650b1c31d, 0x9140687ed1e889c16564d60f702e81011269c476f19d7f4519a7d66a8617dede),
(0x5f8ccceb32d75aa31096b56eeb1322300853bf6e38643ca443abe04a8bd69164, 0x35f72a3dd0c81dcd4b6ac0fac4f5834a4f6576f021cd2d456bde5b7e7995da3a),
(0x81e020859bb23977522896c67ed6675186580d62f015af7c479a6e23982d0b7b, 0x8791fa9e4159f26fb42ddc0885d562b2fce84a38e2af99601ebdbc64cffbb669),
(0xde226b16dd1e5c269b7aba7ad63badc83eb435e87aca85f141d4271295d8f721, 0x62e1e399fa2ce72c3f87dc03de33d9133428416a434dd20d841564701ac8423a),
(0x60a46f423fcd3295fd058be59f7ff164fa76299527cbd2b1d13a0bdd97d140f3, 0x9571d2de7b789e17e46bc31e1a03cab5912cb854ccbfec8e0f4d370edf7f1219),
(0x6fef445ce1b4bd91fbd3a77aba0c636480d7e7593f42a7f5ce089fcbc32249c0, 0x115fbcfbaf46db839ae0cae2e581796ff82e73d87d4c9a919a92c5e9f4fa347d),
(0x6d37f51ca8d2f953a3e5f7c26edebe57a9892b5c14482a309145c4fe4293522f, 0x78e511f36718ad4b0de6897cd3b90e08cbefae5ba884bdda0a967eee9d5309af),
(0x0c0ac8275bd0701f5c9cb035eddbe996738aa155fe74aceaa76b035103d46098, 0xe7f32a2a188fa7086a96849060ce26a431d762316a65a6b7c3e83201f8e3cd97),
(0x9000dba86f8950231fc507df85faf4a5822a648d4b256b935d01206050cde108, 0x9b7ae83694b2e9e8bbd8383c2f4cb03c323319022f58cff1779d83cb654ef3fd),
(0xf1109bf4b490bc8f3660925326c2a2e1ad58dea7463e1d9a28aae8d6969098a1, 0x87431a279fd72c10802305141c8c17ec6e3382c2c325b0224a8005095d2f24c5),
(0x4de871e54e9cc6f08c4aac8b36d61f83929adc8d4f6e18b00d1dc8556e8c0003, 0x025d1fcfca98e8a6c75d7fce19de16bc805f4b70e9a3e9c7f0187f0770d3bba6),
(0xa23cb67592972bbf3a6e89ff94e100108f47b467fd8cdc80b66013d862766ece, 0x8dc70b84ed05c23da168112677d23aafcbca18cdfd7e9dc7cae5aeb947cf548c),
(0x0295d0cce96d8f8b91ba9dd3be703cc579d3c938a5b7c32bbb40e149584244e5, 0xa6d45a06a16bd4bf6af0fe376538ae5e745e078c12b3ac952653f7ee2b03c926),
(0x7c683b919d5376a6d40b13d51fbd17696cb40bcdefd248af9e102545eebabbce, 0x3da0c9d03608856f5b7ed30b8d9f1562197d4e5a7c23ae39332b1adaadfd3f73),
(0x30f7512ed27e249a95e0e21ffe22ec238505f39eca9f41ecdf5e7ef81c0c3189, 0x2f5fd85e25ea3a3a159286514b4731979e4e7f7f56e88164fad41e42e4875169),
(0x9377bf8c96584f27324a41c778d6314b1c7f842fb4910835431f5a762f514961, 0xd599cc55e2eddb2ae7d7fe92aed830d03cfa892d3a89cad4335fd6d369f3df42),
(0x3589ffe867f20495ba3530b85f83c54f28a66e786bff4ca240ac1d556d31e9be, 0x98822eaa983089e1209c22a89f133dc4d75b3a678fdd385b581a92746d224c89),
(0x39c1b1f4b2dadc4ce58e0f841fcc64152c79e77a11d53f85999db8b8ea3f8935, 0xe785271ad9df33896436991deff9da8350bb8a42616cd31e6289aa84d4256721),
(0xdcf11459d3d62c2d998799188b6118e4b103f9da2453b72cad5eeded8b25be33, 0xdc038c1aaf3270e6345a92fe7c7dddc6a190f6c8fae7d7b330a3cc72f3a1c074),
(0x614929dd1de9b0c13f4d82e55bd8050ca32ff05e6eb238f0eed635b306623d1d, 0x0afe8517c9e7f17ba1918e3be8180ff6afafdc431acbea6ae0eaa75ec4d8a24b),
(0xf4a72228cff6da940a45da355ec8adbfef81609fb59a8296a7c1b0ba9cce743c, 0x545200fbde095aae09de90f10569c6bf2fbcd0253cca1e50a25a81a6e19cdacb),
(0x63cc42736caa559746e62fbf5371b94357aa164cfc8fda650b5fe5240e2c93f7, 0x1fa4ef5bc5a6413ad6ad2bd304b08289e7d8224e450f04fe09b47c450ace5665),
(0xac175228118438a60d2cf761f345cb04aa7f9d899678c2016b84be2b8eab8889, 0xdd7df8ae29643dac27ab01b68f7765f0832f298999a133963435a982aa4af2b1),
(0x9dbb5eb9637c41b60c4a5a2f72efab5b823e8622f3786c03dd6788169e4a0e48, 0x0772d6ba13f4d61f42dcde34b8519aa205aa010789c625cd1ba38d4eb7d924d7),
(0x717095ddd2fcc1351015b58665a0d8884e88f599b8c32fb173d5731c3ef7dddc, 0x1de0f10952b470bcfb23da3f3c7b640b4727326dd18e020e581fdfb47e4fa5af),
(0x5ac230d3f829b1ea401e3964c14d6e9da32c4a682ccdbb2a3319a964265872ca, 0xfac3c3a627dbf66bc5e06a16e319ca43423484d83217ae8151bdcfaec9c026ea),
(0xd27ecaaf0a39f415e1457537b2e74e1d382496a1511181008577cf761f8752ef, 0xfc480b6746cbaf310e3d8eb604121b68d5938e84face3ae35dcdfa4b71c6c037),
(0xe08777ddf92d99b7c4f87d539fada8c5703af6193a088d6477f1e20bf2ac6cda, 0x25a4f88ac6cb18b24e96ecc53ce10d5c1202c4e7edbdc070db05a50129ccfee9)]

/-- secp256k1_pre_g_128[2688..2751], /repo/src/precomputed_ecmult.c:10948-11011 -/
def h05_2 : List (Nat × Nat) := [
(0x45ae7ab7afe9580fbdaa6a138896ab9763bbe3e688054776753a1180699ba6ed, 0xdc1af7ed127fe06e4d0d440e3d96f43e502f797e0fefcff16c46e6a8a156f322),
(0xfd28cb3b71c50453b3cf509a768b4c2e6ae265145801c045327e1de4f4d00590, 0xb0684f954867cf44aa5081f08174ce213298a22b257f6159c26665185ce5a7b6),
(0xf226f00dac6f49f0a195e4e223b9fba7956816607671dd7a158b32601c1d850d, 0xd05d5c4f6925a38ab4630e53a1986fe9d823a08a3691550f10f71b65a109ef86),
(0x3cc61613a80d848087ce23a72b3038f8a994e1ec8c9c740ff0e44e90760337a3, 0x8474f96a24093af694221f09f95ab01090377f1e52a173f5a11dbbdacd3c3956),
(0x721ecd898cd99712bd3be2331f57d686633e7ed5c95e6223e5cdace0ce60e736, 0x31d294d86fc07cae4a09450bfec633c621dc34a12f7668ad532ac192a0ffd69f),
(0xdcbaca581144d9b1b25862715e58fa8cd5b1062c0ffabaa2db0fcffa2b2eff38, 0x9cf7621d339f6cff90efbdca5e2c6174708b53e61af38689e6d3b25721ec7d34),
(0xed314e93e649ec2bce4919382c7a256eb9300b99528e78783421f33715db8b92, 0x70a81aaf0229fef2e2922355e1f1546553ea0348e3dfb18bc837ddcb60744a11),
(0x6bd19bcc7a59bc8d19a9776895f65ae85f5c7eb600429c0985436b8c29c036ee, 0x51346de3f4f65681bdbea28f843545c531803ce778b5732c0bc4273504999090),
(0x99ed1e156ac8dfb3604228bb5be088bfebe9d6407ad8be155777c6b1d43d9acf, 0x75b159a4478b4cca80ea0ac0472436ad69f57e9a0f447c61e19910c309d2c922),
(0x3e166f8c793addf084add90fb03039700f00c3c38c36171cc7fe0877b2452045, 0x91659a63b0cd2a65ec330f6fb9a6cc6d9f07e3827b94b8da01921aa81d5bbd59),
(0xfc1baad9a3a95f38bf8d1b168409d09da1b1a4320841f656cf8559cd176df936, 0x31f7a7bdb013b89d5045f248982b5b4ee0b4d79121b6e63884a563f1a08af43d),
(0x80b3ad3d4b371ecac903c879533868843bd318434e9c925a5a5a819cff7ff340, 0xfb1ca8bdaac96d84c67ed7d3b65fac690108ae287347abfdf20e4cdb712af178),
(0xbad065ab2901f727d76c6c3648ef7aac02a87d494d727422073cc2e468616af2, 0xae9d790216b5eead4d9d69a2eaba2972fa925a3413f15d92236329c7470a37ed),
(0xd1f046d90d700ca6995beb99cc8781e5a2fb758f7e81bca9bce435f9129b8fe7, 0x274ede5d7eb815af34716718844331433090fc0a46575017fca345a06111a4df),
(0xdb535f55e3dca80a58dea798d29aa0f699df1761473a7ea1751a047a33f0a22f, 0xe7d8015d931a3bca1193df837e7a8f10e61b86d6477a37cced3528ad5b53ff6b),
(0xda1dba06a56ef0faf98b1a5db9a4f1848635b7e5164cdd5082ae691c0ca42a80, 0x86a8383ca69531bcae80662105cb41608807e265b2179508d928e312a210c9ff),
(0x267c26b4d980066c7dd4f29ff7b542773b176b779b3588aeff5ec28a09aa42e7, 0x3390c03ff4e5eb255d2300531d93daa9d584658c7fa3034142ff20b50827161d),
(0x8024af524e6ff955070c7915208491aa5561fd29fee5c27d4f3483ffc1cbea0a, 0xc9de78d0498f726b08078fc0609e76ffdf7a8a717345ca16dff1d7cbb2dd86b0),
(0x11ff6a68c7beb42007f0d7dd371cf000dc3dc195406882d2779534456208f661, 0xb53ddc25254781b51e7cac25c1f7e3bb916b75ba97a7fdbd658c1bc0a7b4092c),
(0x562a1083f9a6820339a32d7a65a9982ab70d6596b00751f6aa88c27f36e3c929, 0xa380ec7f0908808b950e7d25510ad74166ec20615092336455744acbb1e05b51),
(0x4efe70fd327c0d693b6a75987ef645730e097fa54cf077af68d082e2d341c413, 0x10d47b9b92e0b62dd9a8befc3ed1db10b110a34608cec98a4a1abef2c8ce3dc7),
(0x4d64bf0cd7f128b0bde8576c91e01c27354abd982cd3034ff9ac09c023a51f20, 0x159e741af57fdffade7bf38e14dbc2e7da3c524f3d4c8d6eb9dc32e5e8a5e28f),
(0x9a41634aff3278d6b3ef0064ceecefa3466de2ac372ae43bc48f30b300a187bf, 0x0eefee0faebb77cf8447a1936564498af409e530f4053c3cad27eaa006aeae2a),
(0x0e1804fb9a6bde0808efec2d2e5c67742c85cffce78254cf4fc4ded29102418b, 0xe9cab1eb9c1664b9c2fe81c9b3a665ae447e93c3183cde7bfa56ab347efcdda7),
(0x0a603744c0247b0af821705adff44d2c717611f025f9fb411eb62f1b64593212, 0x820fd32b706a76384335c0a2f8713b9a6dcdb015a96b9d9ce5c19bb8ca603b61),
(0xa6f1d9b6895b129834972a2fec96064da1108ab3aae276cb66a620a0495f20b0, 0x9a95dcd0df03839463ff5ea818679c3f7f55d7ef83a0688029c9d5436dc8273c),
(0x4ac5143207822b63e00f920ab6e22142f09f30f3bd74c41893baf126cdac5c48, 0xabf5d14877e94a4645fda161f9455bbe7ff037c7720f6a6ad7e4bc31a0f43885),
(0x5a2cf55ba16eeae58cec588e1b33942248af6e37336044752dabbf7af7fb7a9b, 0x8f27be2d32ff72cd4fc5aeca5de55a21a45f8c1f7163dc4fe0c00040e69322e2),
(0xe16f23e8ef48c1f604012b27f6ffc4eaa876053e30cb388f0232b3d8db011c99, 0x195ffd52b0afa5c0da95bb977bda614e47ffe3ea134297990e8c390fb8c56000),
(0x65367cd7ac109f7150de4263cdd86e9228923a3aff96945ac1bbd1638524fb84, 0x0cf0b9bafbe67dd64d09b170beb4fe8ca7687c95068086b68a7834a51747d731),
(0x10a8840b39443b8d7a44228bd6dd664789da489c8e954d54a5cef3666bd6eac2, 0x7ff6f76ee4aa58de185163acef7fad13d8cc4055c4e10a607987e034c661eff2),
(0x3fefe8a6c01b82026bb9d0380c577f167b1db5ea91ae80e1528b13275245d6a0, 0xa96df5a937e6144a454a0b5439d68effa959757a7c9fe350ecd58c3a3b637b5e),
(0xef93d77c0e4162e96bffb908f5d654d058595fd5d6184c626c3ada21c4052b61, 0x40088b85c18d97c7f59a23a8645d169de535261f6cd7466b953fbf40f3cd0bf5),
(0xf1789f5eb0fa903d485edbd84971b7c49224a2cd519bdd40d627bd82b0ca4872, 0x4c845cb65456457ea2f570f477b1f4a19e36a905adaaa8d05830161fa71a9da8),
(0xd0bb1788ebc75ed020c0d15bad4e41f0641938908a8704bfff3cc4d4cc9b3274, 0x3a120ca895a327f48e6877963066664943ac552444df62fd8f7abbff222a7641),
(0x164ac10cf7807ae64d6aab3172110d422f05e461aeb9805a3facdf7cdce8963a, 0x8dcf43d440f1dd90bb1d6f85849f98fc9b6dca26301f32093f9dc59bea549b69),
(0xf122d965a8e40e3ab857dcf892949f0ccd3aca29739a2e409876c782941fbe5f, 0x4d994b9dd9e6898378a192d0bb670bec71504372d218e257f50d0268da447371),
(0xac97154775e5a92a1aee2cdbf5781f09b975fc21816e7829662143a4e48870a8, 0x249fb603795b174296767945278dc97a53fff7dcf8bbfedef8943c7143c9aa71),
(0x959ec91edfd5fdcc90d3da811e9c870efb0add6e144b3fbdd48c485d2d330906, 0x1e5ec128b707c761b61b5ebc653585fe29f489752a4724b9aed90a226257ebdc),
(0x590795d8ed7d8232457b2d1576de09f03c6abd8d23b5e8b7c59ba93e1e982859, 0x5edd2a861a3c884160e16490a47ab42da09cb123a9d803c06835292d34576708),
(0xc5372b987439245beda178535cad150748fdb4b5bf1ba55589714dcea3e0ba9e, 0xf82d0b617159db8c035536a546b69c4c767afc438b64b5a022e899b160bca987),
(0xf3d959fcae39cbd3ec8d2016630f26c4101611287dcbdee16534f96ce35bd38a, 0xe1e55c1f876027832ffe2f97fe460147da586a03ed0ad6ce1603cf17ac9b3562),
(0x922bc76ebe3ce3782be3d960489b064d03a28043f8a92cf8dd5cec2e537fad9e, 0xb3199f572508efda230b9ea751a95218116fbf5bd1032b54352c0995f5122109),
(0x45c7dd407a6d2c9579ab1df08070acca2c461d88dbafca1299a38734d9f0360d, 0x3a17855b5f2469ed6c3c4e044dd96f4ad076eba6a60e8e732644d25e67e85ac4),
(0x6422d998dfd4b00a3dd89a5b74411c14f1af5c9e1f090d5b33ee2d26b959bacb, 0xe2358f34491218a193d8cea2276f5b3f376f597c703bba09cdbf7d89037a3bb7),
(0x8e04821433196d151a4640f192bf6c1e95b1a3cf05365a6f535cc82cc4b0535c, 0xd6d2d73a1f652c559f282ee535f55aa0200121958ba94e65b638ef50e97c34ce),
(0x5a2b3da8b5eb2f0f8a25a9e17124613eb8a7080f015d42c4a1c0709fe64a79bb, 0x607c791deb54aafe6dc95f8e6ef9d8a5a6435a826b824cd44227f188bf86e6b7),
(0x143587a35cf614a6750f3d91220abf49c5296e003cdde13e1a0d2d5cf6cd7ccf, 0x49bc85fade6cc58b49a1af49046c340b15f14c7c2e83201b6622f2df86a653d7),
(0xf0080c428737c74cc3b2c4bc8c9d8505ba357b7cff25f1a3ac81be19dca93193, 0xbdd0119f57bf674a7d7cfe3207027d1c1c6a5ad92ca24f0b5cf25c394a3951f1),
(0x877ae373e547fef436cb26b685d7c4263e162daeac0749cef7748d505d130034, 0x1f0af495b750341aed956b798f268ca3e1275e1532e5ca8e6f9f6df0d4dfcf5f),
(0xa418df6f0635ca188c96a071469a272fe55f07060b73aca0d1df2ab9e8e619d4, 0x2b06cdbb5bbb24e0fe499a6daa5b59182e755818694b8856525ffcd602f754e3),
(0x4c213d74bb6fbad225edce4f44c7b0b4114dc2094eb529671d907637a2aedeab, 0x741bef9fccc65c158752c7d548afa9cd402fb5fb206c5be0e480df739f970b51),
(0xa37906fd3f94e51b1a94073a4890011b2cf93bc3bb4cdbff0ecb705620deb13a, 0x60a3b0b1c14a9b1d184d5e5523314b708a8a16dd894aa332f01a2d6730e6030a),
(0x2c677eed639eaf5164b8ae3d26bb4652d6d6528e5b85225c5e84ec4d4de72301, 0xdf0e4c06d3bb7cba17f89240cac07c245fe639313b2d278eaca1b9ff07ee832a),
(0xb551f814eaf86be50335fc3c5b01c001684473b0cfac89395d61df4b7d7e77b4, 0xa979cb35469715f83033f923b4ae1e7f8818b6e611a4cbb1bd399ce30646664b),
(0x98d5c7185c8c04eaf1f61ad740df0c712cd47ba874141984fba82146ddf45c39, 0xaca525915c737ec20eaf88f5f1ecea899d4a8e2c428f5bc5b36d2ba4a0050804),
(0x5148e2f7260fb65268c104854fbccc62ed1e1386ef8fbbc9a0b23e2b94cefc7c, 0x65b4dd2d35dea4985ba4a8ccb1a08dbb9e9b271607ca96e129672452a7ca2500),
(0x12c699c18c9d6410b8a40cccbbeb4514a08a227c982df1daf91e91318e0e753c, 0x7d953c4289b557243469a19750516e884889e96804ed28e120b022d8932fcc99),
(0x4d0d3ff8a7734011b36ecac37ebb2312134e44795039ac639dc69d48120a8d20, 0xedff17a0e0984c603c4f1026197f2173960b3d29f0b0ea573979605b0144ec64),
(0xce90b70b3e7b7a71a91b0985a668336fccb069d981a9fbe4481250615536e42d, 0x8cde9d5612e0ead7524640ca2875606cd3af73e6457f1e672e63a47805569000),
(0x28c793276bb1879d99fbf9851d2fa908d197f5b1c83be97e360c49310563b2d8, 0xc8944e40e2f3b5465b6b10f6ae1cfbe3bc0f3e3e33d910857c18496cec643868),
(0x6e2dad062413cf01804c2b6b55b707f3864d4c8087d306659a1fea53e7442443, 0x9da67c64e05d691430a1fba739c0fe36497bc02843441f7dc4c035df129430e0),
(0xbef94ac803763946c434d03dfdf437f919f26188923ee54f8715b7248c4d20fe, 0xd2324534e5fc1dc66fb83032e95e140638648473ce7e38aaee7ced54031e25db),
(0x53548c57f1b45c1dca166a24c0f2653c9b7d86643d45d125918cedaf818e433d, 0xcc138946f0c207f9c01307e2130b13a9c36aec5c3cad640db6a93804f10c3b44)]

/-- secp256k1_pre_g_128[2752..2815], /repo/src/precomputed_ecmult.c:11012-11075 -/
def h05_3 : List (Nat × Nat) := [
(0x7fd4f7847f25c9014e8b0e09b8b723ed2aee71abfd47988f90f6ff4004b5867e, 0xffc3debc901f12ad96605805a6e402db58eec18d375fa97641b5d22674a1bd9d),
(0x444a8a7e499789b449c62424cd9046efd4251bf69cb883ccd3dc79fa5397dd9d, 0x4cc5f03b3356b0200ae8c775708d56c2abbe8e41bf393f828f7c45e4dbb30282),
(0xff05c87784d8625d20694bd0a4201c7a04af8c678e62abc1acb0cea85726bd8b, 0x7cf0e8ce6ac26253cfa5a0b5cbe984eea55f6aa090bd12d906ec2de7a996eeb3),
(0x80fdf7ae6aa31b6bce894ea083fd9274e29f470488f0a7c679b8339ade7e4ab2, 0x77d7317b169627456344a8b4bd4575c649e066bf0bde58fe3f46e60a3952fb75),
(0xac38a4c810a307cad5020a74f0d772d7ef20227b7eb495896854aead41879214, 0xf49c4cbb3c675858416f77ca92e229ecd75ecfab3415d213c7cd2cea1f5016ac),
(0xb3736eddf1e10262fd562f408f502f193a90a435de9ab6fea2691155a5f75514, 0x818cefaff190353cf01cb0682a15ae0c0eafa2de657ee7514e483057ad5a78c8),
(0x66d67e12d100c116b57f6d5eac6a85abe698d4f5cfb6722f12738b33310dc295, 0x9cd4fa1f3a0c9a54d3608ea709bbd7ea685faec632d7318fd4e25fea14a05dd3),
(0xb856d75f756ae484daaeb65146ecdf0a9fa10c6ba7b9b33eb87471353eb59043, 0x5c8542b12f2496494b3a177d8df246f26566da1c727284c4b041a7db89cb0a38),
(0x0683bfd703202393458142cd661a6543c736b15fb8595548afc52951f9c47d27, 0x90f52a40f5dbdf2651429f84ac68cd96420387a28d94d746b4163411762de166),
(0x2feaa1f0811e1e6513895934533a094141ee1ca7f89758963d00f8a91b2923c2, 0x9dd80976b884d4015d7701c35e6ee1ef690d18207d06e02b07e3a10fe8499c1a),
(0xce652937da9ebaf3a9765e9b144d20cd847070aa1a96809780e07b582287cda4, 0xc1c46ffb5f152dbe5a9db37829e7ae84454e1736eb7a1b6801b321f3041ba572),
(0x9a695bd9170163fbab3f9738a750bdc7556087b6b04dc8a84fd5fe6878976211, 0xf40ba1f375accd859a42b133294868d90dce262d64d6bc27d0c9cf123eaeda70),
(0xe5baaf68bd3083ecbfabd6d09e4da4c35908b0a175578ec718cd3223bd34ba44, 0xab8651f0365cc3c150476d0eda3e86a45feb7f46a9afbdbce4defb990ba27fb0),
(0x2c26cea2b507fe77d8f3530bb7ee1fdbdd0c4dc8bf63d04ce06376d8ffe59cc7, 0xb344e3af54d03eb9b0b67151b5845297c30a1cc2aefc004a5000b69ce630d62e),
(0x7c67539f52af2e6188deadaf0a07e2f64d53339c07fca7a3c2a149f5c8bbd0e4, 0x3f9872fdc21c913604ecc97ec6642ec7df7a2cbe61b6303896ee73e9309067c9),
(0x4b5ddd2dec8b0bc93b6e1d17e1da71c83345614f74201aab8f9adc1caa249574, 0xcfada2dcaa3eefdb434d18b3d2a85a6b6e16e7556e55fd695dfb36a8aac5460b),
(0xd775c2f2ccfc083586a66edb873a84f8f9bb66802eb0be59216bc35b88d80e4b, 0xc8a5d9b7988a2231cf6aa0b519640a86ff56ca5791135ea765bb3a4cfc53ddbb),
(0x71a3cf0978810f9dfb01d98443dc3da4b005b07b036ad4dcd3c803a9bcd9bb4a, 0x8aab8e217db0301b9640c5b39617ad55bd4a3c4d8989df5a1ad310400bcaaa55),
(0xbc71a05492b696e6200596ae3d778ef6a82f7d05825c0d3fddee8bb1991f53b7, 0x157891259785b8d8b13744600630a908d1125536e400fb52b07aaf61729a2a15),
(0x9d220919ee62bfdcfb81ec81a0f60e58e8d94a0bc6b79f7e6f891c64fc847abc, 0x8149379b1a073c2b8dffe88659f4e94c75f3a7c8a7bfaa16e530bc7e6ed0c675),
(0x8369766ad30bbd19a330c6c91e3ad594d25bff1b4e3696e5c6c8c33eeff33425, 0xa27f7682b3f4575c858970d9c21f7daf8ed5d28d8617c8a4e4b958b972e79e4a),
(0x4e2778750e4aeaab1a8d36b5487fb427e91f51ad1cd68ab457db2e8b20542451, 0x9faeff655bbc4b81f96bf1d2a152a546d138fd0da8f8523e7635020ea26566e0),
(0x27f907b51b9dfff30e68d20272605a91825046c1b21336b108b9102339a0d2fa, 0x115225c36cb13600fb84bf3ddd5c49d80105f459ffc4068acbfd7b0c052d4a15),
(0x6d9feb20650674c4437ff42d41f70f16ef0900a8f3cd681864b42eed56b1fab3, 0x82cd97ecd82b3c1c2e55f857653afa3b5f7f7b0039aa2444f60574d20fa02065),
(0x8981d2b43360669d361c3b363284e729ecb9cdbd3bd17558857f2cf78187bfac, 0x1b9aeb27d5a45d1d8791bf73614ecd5c0216b2636c27645a3e86d78170d48498),
(0x84a67518e47ad1fe25540d5577e92ce2816916856d3c10ce9c5985a772e1d72e, 0xd3cb93af85072ea2e6c11777dc4b73fc16ca04e2699ef356dc8a5341c5631658),
(0xd3e6675672a6cf7750c111e2e65a66747e666cddb9dfb418d50c28d1aca8c683, 0x7776ecaa20e5c6c3ab5aca5d8233f83f4e2e815bdd1063f07359fae3a6556dd9),
(0xede97def71d45688804e76b5ee52563e522a7684a68efc4af7b2db3865b87bba, 0x92e6d20f0c9c127660a279f95758a80e85bafb8fb77eb5137587b692fdae702f),
(0x3359e142e000484ecf7db3ae2312e7036ff84f84247ac6ed025a0b9ceae8c871, 0x67b039f23c845fa1f38c98bf739dbf28d00ada0936e4377f87166f9dd21cdf66),
(0xe0d0a9720c0502fd2654a3dc40914a5596f675aecf0d958f8fd62c7e122b44a1, 0x0cbeb1bc34575a7ebbfd916edda119033ee29e2d1b11e1718db7bd47576b0312),
(0x50b893675df7770464031ac7a1f5d5ed4f332019d8da26059397df8421a4c987, 0xc4765d81063ec9eba089c3f256d6ff0c45c382533d9ed204cb04f335d292f293),
(0x5dc62d8e66775ff6f21e84e99f8e81237f80cbbe41ce911391ce432dcd6d446a, 0x4b456b7de27045a576e1cdabd163fd5cb020cabf125f5de99ad6eb141773a9c2),
(0x8ba1778fc7921845d2632e18790710c04e56ba7e22efdb03fdcd4f9622c10971, 0x1f31fcffa8359658b39d7d435970726848ffebe88f418c53f48c7af63e3e3854),
(0xa3a146147d1ea7bbe6bad055fbf9810a999a102bba8b694be7ada06c08db9fc7, 0xc9827731d432128423ccd6eb3531ffccb3bdb87b1a727d57a697eac3886ac294),
(0x9620a847bd2034aac81671c4436682c5f6ce1af64d8df28621ad1c2fe0af78f5, 0xe1cc6d08a7e3dffecb47e32f4156bcdd6168a205e8959f0d099e15554d826e1c),
(0xa40d86a0aa7d6a793f0b6a52c48d8fff95b2c57c584996eebc9d98e20796016b, 0xec54d4e2d453466dad94c15cb25617d8062911b445f4487396ecd9500a351ea2),
(0x71ef35a6f60f268a57573b979745986f7e5f40e9ba64efbd5ed90779b3484c80, 0xeabffa1e9ff3590ac577df7f6f5a6ad702f3693cbe4756698751637b4f8a1ba3),
(0xbbd1a408c742a3b2e49ffa52c5f709585308abbef103e67486fc76d7a4f68de2, 0x4941cbec9d07e13e1b0fbe96c7328459ee6e1e08050a079a2ac0b61b5d246124),
(0x169ebf3892116df53e09c92ff2c89b5f805d60ff9584d2ab433f1f9e84ba9009, 0x914f5516e7667ee1581b5adebf1de48ec997d1491e932a083450359907c6228d),
(0x8f157abc4c5ec7fbeac11545890d8e45d71c8d9e04c4e0c39777502cf8666acc, 0xd41576ba1e78a9fb9899883e602bca3e014dc7098982e1bc635181383ff25908),
(0x8cd338d5694b26dc004ebcd839a006da84f71f9394fb810091ed8cb5b4ec9a8d, 0x40318c10dd88d9b9c080eccf45464ab303fd9d34c2027d952a6ecd21d0002578),
(0x20e47e2f7ba5ba2a0d36171af4ad760fa64748c294892e28cbf0ee3e293272f2, 0xb96ad22056b898215c052089789e4267162ddaf876c720a771b1525467be00bd),
(0x582ed8a5a0d38f9cdb6942d11f411deef9c31ec6ffbf15793f3cb5e65f2bb880, 0x14928c0e4f9d9d3dec4a8db564baf4be948ea89234a6e352a4cf479603ce8486),
(0xf4a6f59a6e76c11d3f7daf30b8c046ebb0bcab8b6d1f5e7b877eb1b4601896d6, 0x2d39c6e9e5d84156559a05d4a9b148e5ccde4641e4bd9abeedc8a648b070f0c5),
(0x2a820c600f71cf5c76e66bf015623f06fc8564b8c763a52d2c329af730957b24, 0xb38c0703d7429599e6c9a1d7250078d236f77f7db9956d370fd9264677ff3ca2),
(0x8c2d9c4e9fccbf64871d48026077a3a933634d3bc1d7f8726231848a06e2799e, 0xad50136cae43bb6d8c49c534e80985a7cf032d77604c2db8d5954858a9351a7d),
(0xb18e90530744b3ed0d0b991e23927593db00d25fadfc44906eb0d19b74061ba9, 0x90f5ca44c829b2c6771edd73998034d343a8aab8442302a702ffea92b33877b6),
(0x0cf1d157b03d435b905d2f58cc53bfa1d124827cf4ac410933078dcd1ce835be, 0xee37a9a15547c7d6a0f03cf21451cd643ea656df61eeb1ab1196d959ca71b459),
(0x8d8b9d8ad91a840fb2e1ac36a6f4bce592fc13d1f22f84c1562d63f7e54a6007, 0x9528be4393ca8f2ddae0ec3b439abdedee9227e147ce6ee1ce61b46b0b842dba),
(0x604b5544bbc5b0d5716c936fb0d9a4cb7ae04a8e1d5a506f2561b463fc87fc9d, 0x33fe2f9c4fb9a6e741c1e5fe7d3d9edbee3cde6f106a1d8a3e319254a16ac8eb),
(0x3e7ed4141058ee446057aab749e14ca2cbd16d647959fe5309ec0916fbaed8f6, 0xfc15b24186dec6e0c91aa69710a015d1f66bd36182f186481ba24568952e79fc),
(0xd0ae743586c17b8ac952424316cf42c126e46f694c69cf26736d05277943f326, 0xbfa02de8b983588ad4398865abf6b69cfbaca03e8bb5f04b1971ce1bf74e0757),
(0xef5c05ced4f343e37e6ce2f945380ade3627bc659de0597f5f851eb988be1441, 0xd9267c1b0379f19e3bd0e40b74ae8e21b681e7c2ad49f6350d60c61974103281),
(0x176b8febd7998ad97c73015c3b09d9afd7cf4265c7bf38ca8dc648645c8f49ae, 0xb4bcbe4c8267c9a369cda1905676c7817f989f5ea014f4c5fc821bf38522f1b4),
(0x88f683db0cffc14eebb58d69fb6da62fb20771dd3542fa0097b3a766bd16c3dd, 0x0bbef3de812103c5266797ca0252b74e0cf80096b2972219f52ff7181d1cb601),
(0xa65d438f1247ec44fd8c4121c3d678918488b08231fb8854dd1fe238f637abaa, 0x5f65c84e551e433fdfdcf3c0b4c771af4bb50095dd0fc986d4d4a82f9a3f36a3),
(0xbd6a7e51c5028bb7f7e08148af1597c6d5cddab902883d2ff6a5a6a06398cc27, 0x3f2280c4247cdd22e8b97979b9a98e930c1ed14da76eef662ddb70f67859d885),
(0xa672436c2896a0dc54b1814ec510145158f7a3ac74d3620234411a09909d274b, 0xdee80293468178d95baacea6badade56c81f3d9d95642654a7afcecebfc2ec3f),
(0xca0f55fed3a1d0cf1adb0993d7d2daa657891ba9321104bc8d9e0379f03a24b0, 0xdc01b8e463462dcd91588baaebca8d8f520166839671399db5843e6f5a3cfa6f),
(0x610ff08d9bff021e0544961ccb2fe206211843a7ea0c74ccb91f0b5c4b6429a1, 0x4be3b18aee965fa7dabdaee68fcd3e12d889bc3635f160dd9b0760bed1d46b28),
(0x2d6f8215a70aeccb78cf006cddf8f0a26b695dc9622dd62238fcc638a9ff42ae, 0x03fc0964e2a3c969e61e4e5bed50f3377a988715246c50fd3ff4548795a3927b),
(0x8c0e99b4868e39c5b610b132de1a09ae99846826a42fc4ea70b0c63088a1bbbb, 0x32b8ca42f0a240cb2876a41de61b8c176ead992e08785a95c384c536141cfe52),
(0x1528ba8f9000ae75e3062af774ef6d77658c6d1d65af87e4dbac9eb08fc96ed7, 0xa8dd278d54df6bcd1d4e64665753a8bd2d39f0d5c731a53a5faeca64513b5651),
(0xc1466ea5d9256a7af13a040e29515858104394bfac5af7d2fa09ef7a6ff1d7a4, 0xcab6fec6fb36d879f0684b5406003df0d8bab3b6e1050a7bc05457b275be5128)]

/-- secp256k1_pre_g_128[2816..2879], /repo/src/precomputed_ecmult.c:11076-11139 -/
def h05_4 : List (Nat × Nat) := [
(0xce8bb093e051089d2a297a87cf90c3f22ea946ba87a76b56c6f11812d3e98cb4, 0xa8dbba51b90684fe6dff556fbd13baac679cbcad90b0e8884c252e95e03a0470),
(0x076f3a737c9d9e158d30ddd9b092a94e7c426763a17a96ea9186582e06d6c86d, 0x5b1ca07c4f345e6c778ad27ec6ce3f05b29c530207e40443b202a022e5d16c8a),
(0xf757dfc323390b213bb988725dd7d43b2ed997feaf7681adee1572d50a74017f, 0xd0b4e4ea67879726700b63d988eb395774ec4f67ca1a56be461d244ba5b83cf8),
(0x59bf6198a2deaefdf080ec6d3dbe3c67f27a57690d91c65c1492a87b9ed5f5d0, 0xbf5eb7399011a2823110834c4d4678556e02f2ed601529b3a2f3d70f8410f8b2),
(0xb1d02f0ac86d8757486857900918c15aa7b0e85cf12cc52d53f8082e0549ba16, 0x07925e0399926b768a80878d63f3852b9729772596d3d06b85437fc2571a19d0),
(0xcd27372f41d8e07d01bd2ec127c418427e5267ef14f3a908882e4e40381d1905, 0xcce36e03661b9f33ccf810f3b411693ac3329617520983522acaf0c95dc77297),
(0x112644fc26ca35993b68940f5cbaab4fad2258cfbbc81695b01db49bdd9d3ace, 0x8685f7907b5ab95f2f7a49b3bedf09d37ff1362b3be9db904e74d04915c0bf60),
(0x918df72a99ce4a1620e84575935a24d992fb51eaeb8498bb3a606e2c0d97d3ce, 0x88b339ec9ebbff98f1b8b0d3c90794cdbb6b79182749b065602ccfebbb8a8461),
(0x9b8f18f265c4ffc809425b510d48a770436e6424f34a1af2a7dacfabfcdcb83b, 0x0bfb95e86a34c1b92c2e8c78fc628139476c4af93f63d2475e454a9ad585ba55),
(0x0ad02f2ac396626a42abe52a1ea1d8e43821740ad8b3340c9b9c78ffbc24ce30, 0xfcc738e6cf8a7872ff827cfe1b7bb7a7ad8c97e5e254db13255c2d071a2885fb),
(0x0359afbd5e60dac908ee34f3f5acf1269b5c19288f54476c84bfb9adda6d85a3, 0x2e2aa1e79cd3fed6712721553932ce1744358636a18230f6b501579fb3088955),
(0x5639aa3e230f2f1ce10c34a31cd6c78f0c3c15c02061f3ca55e0911668b279de, 0xe0b6e95c15de7f0b3fa3bc263a9e83e2e3a7d51b0462709c8ed6c2ecb511bef1),
(0x309cffcc7b2f959d85cef3d0c25efc2b693d3b6cad42ce4ad8657652d669ec44, 0x03abb62fd917b1be798095205521d52232f949a67999274bcf7965b7a950077d),
(0x51f3d5d2dac1d7c005d8eab6375c9130534a026a48abf3cace91af6e533b86b2, 0x050b1e7f4bdc48ed9f3fbfe0ca05bdda34f9cf2aad04235aba998a8fa3e99f74),
(0x8f563d1833aa41004540e0c6f501d3274158b0f48b3e4e1fa3fe25ee29c2a244, 0x4d4c71d85ea9337157f5248da012898f3d031d93c18035890287592867432193),
(0x36ca2909d68fdab9cbc45b39fb096ac03c4853c0ee19d108ee7c72c8a77177a9, 0x64f511dfc825296085f3d09531467a5e69cbf36330e12ed690516208d24301b0),
(0xf628b8d51f3ffd7cc201ca9c2db26f0f58dd918eb4d70cf3807347028ea306e0, 0x0bd6bce30ea82e9b2e8d6eb27f557defb7c2d77de6329c1ea2d360bbd8adc2e8),
(0xfb7a6bf500a82c0bb2a6922c9d0350d4b44fa7d761002f2586e41152c0e67c1b, 0xc12a1c37f1c9c703001f1406efe8f3e98419fc3323a1acfb0345ebc94a702da1),
(0xc20919195c3e2af2df14080f400c8c75bf8ec01da5a5b03375391fbcfe78d092, 0xb307b56fcbebdab3ef87b1fa3b66c3277aec3818e880de6c3826b6320f1adeb9),
(0x7627df893d1727faa06d7c4c93774a4873c3bef8d19bc03e8d1bfe28bd3192d1, 0x35d2676c36f455f7aa29a865f0776c521326dacff6d366f4bcf726b1b68451e1),
(0x266665187c9f33a96d25df658dbfe035a3df6f73cb059639ed54b296002c62b9, 0xbb30bbc7d34a5e26a51fe7578356a876c4e7fcaef4a977ba468025a4c686630d),
(0x3bda9185fa9802e77dc6a02e8f2a6f71ef8b125f735837bbc7abf3a4c62ac683, 0x202edf2bc11d1784d7875a76a0ae387622b3475cbb0ca1189362e54c00a05b85),
(0x2f90bcde4486b64d81313c7148570d223be1978b7f524097bc033d6b983a5c4d, 0x63864e502028d475365b2e300cca99ddf4aa759ecf579705270fda71bc384f89),
(0x8893f5d4e9b00e6fdc992e654c9fcd717083edc26c71dcb6562bcfbcc8becda7, 0x1faf30558e631074fbf566a1fe0c6996a80fa29d6cdb83130fe313b4b238ab50),
(0xacfc4ae686be5de3eda4fac54da73510f482fc25309ce37d855c34958555abba, 0x387f4597d1878a6ad37a5b998ec291fd76423f7cf9bd037cb90716852ac52d87),
(0x2ac4d090a4c5e9882f3a892dd28a5229d5fe35e7d74660d95422a55e2017a469, 0x6058f5162aa3ec4547a79f2d7d8e6869927d172bf75a1914a3bc2571df086c09),
(0x0137ed3ffc13c572e5bc235cd13c7e62c9b1a3ec250c024e9c9f584e7ebadef6, 0x0c1e95cc3a464f510b43ff023c8758f10319e7c2f37acbf54fb8536a8ec6fdba),
(0x028a037a72148a3d2c89f60681152b946cfb16f758f0a002cfe4d857ef3ecfe4, 0xb2f4b650135cde9b8d3788cf5c6e7a3aec595124fa903aa8a1bb3984fb973d10),
(0x303ecd518fd433fbce9d426e8761a76f78ad6d5b5f34c0ae3bbaddcf1a7a9eeb, 0x6a7fca443b73b19e967a5945a275cb1acbd8dc3e89d85385ea95633999abb602),
(0xcf63042e5680f71c2641defd9d6569bac69cf079f8b3140a5092338151533202, 0x39f3376dfb17fdc5719a20525e1aa4280176643af50dc9b6b8ff3401eceb4ee8),
(0xcfafbbefb4a49fb696923b6f2e56c49334a229a8e2dd968c44f485aa1b1fe4b7, 0xdc0ed34d4a9c17e1ddfafbc701d76f71f3950698018faa160b5d25c6c69f9007),
(0xec0e3de10fd527ea6a493ff7b3c6aa404a7ffd769a08953d785d2f31390d363e, 0x94bddbce300234c1082f3c6a717f53cd723129c0ff353528fc5c285f8e7a35dd),
(0xf07d3cd1914422cfd4b9c0c3501916bd13e9cd84eeb02f7f84be2a404b2bcde0, 0xcf0c96facb39321837c48de516d1f705dfe912068ae2d8103aa1f77b39637320),
(0x4a4254b66f2e204ea3264ac0a00c7a638a6fab7de67643e28217099f3648db10, 0xb5510e29be93fc35efbef98915f7df95b187ab08bacb157ac26ab2bc2ee5023a),
(0x056f3bcfb38eaf1d35e625829f671945910285b03805c1d9b5d813e8e87774a8, 0xa9b964e79e6b7f9a9abf3e5ca147f7738a1e82708677e6bac57a7a75d1ed9dc6),
(0xf89d8f4e07d32efc0c2d95bffeaa4c9daf6b988651fe7561ace561be6b081295, 0xca632f1156a3386763a656911718699475e48f5148d770d1449ec7198dbacc69),
(0x5c3791a0d3e716eb50ae4a0751f0e92b2890b933c6d9aaf9758e520527c5530b, 0x44ef13c62de52d11179e30dae913493ac4ed861c336ae1c3ca1f8baba7b34616),
(0x2748765ae6baa4ae62cd715616ceeadb8ab94ef0d3a3e33115fa0132aba38d27, 0x71d4d19dde63770d60905bbe6c7ae92a0f36b333a93b33590cd4f1f277f69e48),
(0x964f1fa2f8ecd77802ce4ee187ee3e780d2c41a045a9545322e363bebb27e254, 0xc744bbcade64a883e9481a5fa2cce6215137ae003b9822e677556610d4138a2e),
(0x8bf607758709c9fa8503594fe6c379ffee758a074f7d275458985e2579b8ca3b, 0x3e638992b3fbdd72ff51cfb8fb118d0eccc193ee718a7715a5ae618887dd51a4),
(0xfa1071239189239c2bfc5a95ddbee798fbff70d80ee0d5f5a10238dd02e06612, 0x0a60cd5e1a4eb0a599133ea971d5ec1e315a6be12d773936c624c468f968e7f1),
(0x5b48c6d09f6f97fec03d145ef797cb8b3fe2503ca894459383c34e5144975588, 0x44d86689352611bcc1291762d965f136173d6c4528077d83c6410a3a906e30a0),
(0x80e153e823aa7e3f2865d1ea1e5e88c85d4e854d54bca5b1ae8f1bcaeeb94fd0, 0xedd3fe29e435c11b013a92d8ef4f6413c888a12c071823f73ed7acbaa06b9728),
(0x16e225d977bf7526c2590dd154c6e29bcd25de9f07b1fe3dae7ed6d079ccf2c4, 0xe0702d23b9b575546d2db82afcdc22b740088c52e0fa274dd85188ac09710768),
(0xa3440a0915a16c748221b65e7825ebcbbb064aa2de3593ce7a691efcd9456938, 0xff7c7aa03a582a8f5641323a7f437a6726fa5d3de7c3e26bbe970904d4dbf40c),
(0x8154334cd116446802320401f2d593858d60720393eb37c80a030e9ecdaa2b5f, 0xbba4094e5f97e4e7b0f0676f4a09148817126ad87d573d54150139c65b3d5142),
(0xc91348ca27b5baca3a092b2574e09976fe7f23613e1b5efa329e6a5b7d4d93c7, 0xce241d0de9d49a2c5060e62dc01bfb59e7c372954095f6399d61e73c5976b44a),
(0x9408b5a879fead4c67635e9959ca9649cf362940737e64363ba2590d7e6e8a88, 0xe10b410a26c710c1bf2858d521f46094e02155d284b80fdfcbf176457f994fc0),
(0xb851d158eefe48b879e0a159f8582aaef80ddf90d9021b92e7d3e7e5d6bdd2ce, 0x290ae2e100792421c1cc53f069c7d58060facfd8e537693f06abdaa2c6d85469),
(0x9d320b4d4a7c2007658053875e53609387e7a5b854da05eb1b971e6ae53d10fc, 0x4f6acb7b6a1f190d6822acd0ae783b0c9b44be61ca68306e79603f4725d7c456),
(0x6d7798107b29ec654ff86799d13a4d89eaa49114d00744c22f30a9e8358ac7b5, 0x8f7993cc105c4f09ba060a2ace265cc577b2a33403ba38804b0a3e79db823950),
(0xbdb2d2ce77e14fb69a17d62db8056d28680c96072c82772d73c91da9e57f6489, 0x09c1ef71d43c3b19dcf8ecedea6f564808a3bc0003c2b0c184c9e42e5baa590d),
(0x49a8ccff1ab70a94a4db4787f73bb0581f7897a8d0a1adea741ffda3f055b3fa, 0xf298d2772049ebd1ee2414ed6e053ad515b41914fd6de43d8bd9282a6c6ba426),
(0xca3f7d6eb466b7b056267992d317a02d3b3d5652b51040d77f1a173a769d2236, 0xa26d62259dcf384ef78e6f2bf96a42c090e538adf6f1a1b7126dbb128e145c37),
(0xb672ce14f1c427d1b478469cb0d08b99902e9cada66bc65bc00ea630737176e4, 0x176c09790001517627a0f1aff3c5a56c83f4f550b8c4beddb818bf7668865efa),
(0xbdcbab57d4ad621bd6db6866f43778aa2c26dd788f2e968bda3c913aee9c199b, 0x798688729bb213fd7dc75a338d6168da1cee9f0ee93c7c112405523288df5603),
(0xf5f25f1e382f7df574c64aa96c5f423e0d5beed082d801961cb384b255fbf9f5, 0xea388f0b5ad84aae58393a829a50a4d0f54bc0680e12724c98a9dffaf2210221),
(0xd2a10464f9f8ab9e1ca6e280b2747c436037204985a2650aa730b89416ae09c3, 0xd19719ed8dc46533028d8dcaf2c902eb2c9ffaebab3c1b454fdcf68b229c5962),
(0x89255afee6724c4bc55221058e5e6aa519058c3ff3ff691cc5f81a0020410038, 0x08d626dd9560c93411b52ffb4fbab500c833c3b4671713e69147d8afda3fd7bd),
(0x5e468c42c5eceeee2a67d73f578190195165e3f206c93f94beb12fbd556e3952, 0xaf83e24a467f97e2ab8b6a8c330e400fce1fdeb43a4ae1edc38665058cf240de),
(0x70c2bfac9eca198bf606850e8f54ab03552caf8e9385036d7fc85007e99c4e2c, 0x60322365f5ffae578a8f993920cf75963b45d9400d2c4591544feb6cd6ea37b3),
(0x16143d3afe5f6b420500f86d7c79630fbbb0db1a64e901eeab641c0cb9c2f318, 0x7078e8140bdf81d781109561d4d1cd379fd749244cad1e68ecb8b247d76a8a94),
(0x8ac33eada9341644db25b03460ff60abe1326eb773a0bed029f6e96616b62bce, 0x06d077566f0d18b4bd055d0ed99bda50ea9e614fda46005dc6d9dbfd18945cc6),
(0x476b98b89e7feafdef5f01166e0c8eb670cb3325a10fbce771ea9e062566e22a, 0x38dbf04183252b867e138483c012f220fd98bd5db80fbf4730c5d0e1d6a91050)]

/-- secp256k1_pre_g_128[2880..2943], /repo/src/precomputed_ecmult.c:11140-11203 -/
def h05_5 : List (Nat × Nat) := [
(0xe4d262eff0de9c3bd3302bcb321adfa12e383a7f19297058a19c453eed497f11, 0xa1f830fc2fd6120c8f2070c49ea49001953d0c0e7c02050bfec7cf7bce2781d3),
(0x67bc850f48f0be1bf18c4f7cb9f33e67e2e092794196d9871bec0fcff0b5cbf8, 0xe2560470334aa4b24693e9271d2f20cdb7e6fabc92e0f355526dceb85f52d32f),
(0x50dcb2c5c0dd49422564be0202ab274eb543a6a5a2712b8d58f51e1272ef2797, 0x2cbc036fb69c44c99c7854b49705dccb8d2ea16a2f77fca890d89f8d4ab04ea0),
(0x6c9bc577784948f41e8a57f1bddf5665f860804e8991287644ba7b768758bd6e, 0x84a671f35998ac847329ca3d1224901ba0401915c9280260cd40ff44ebb3ff20),
(0x5dac93c6d27cdbb99f3ceb3618c6ead128b44146467390e7a337c4948382a868, 0x865720651805082e7434578aa97704f88a91c2b8e315ed8bac2a4bf8342df508),
(0x207903c65e1c57e17a6e9484d3073c0ff6b2a40ab46b996f2ed2be7c85780c86, 0x4b56842029564d4f6c4fd31073e17a3a0bbdcb83115a6c14854633c147f6a442),
(0xda025f639be593e93ab351132282830f6ffbc94c829111dd295462212edc2f90, 0x9b4acdeba315e576f0edea9a21acf5c8714defa65ef4ae68eb694383916d2723),
(0x327faacd01b489c82126ffa6b87cf1912a0f61f5ee47eea56030a50fb2823cb1, 0x0634ab426010009b144c5ac2903e5f8b14c00c675fe177e96b7f9ecfb8c33b9b),
(0x44cffbee1619f462a853478ba9d1bfd86c9cab17f5bf50cc79a245587b7e8084, 0xb08983db62079e287eaf8c2881079a4576442a1c0fe35f64563c714d748e7da4),
(0xc5d945ca13730ce2c21ad679734d1debbeb197850480f93a43a2170e06a6fe3a, 0xa3aad11b4d8b7140f67f72878e4a9c1f74102ffb0ca3ef0446e7bf1bae3cc3fb),
(0xf4d8cf1984dfe93511b2694b8f1db0edd4bf22f6435359e677fa42e1cec0de31, 0x83d02d223aae1880d7ad76bfc7e3bfde5b48a55d4fb0ff020c0ba5c2e9a30845),
(0x13d721dc8e7b0bc890c6380afd0f0ee7a2dce0e1e153ae707e50ae7c1837c4cd, 0xc620c1e3e15754117eb9e82370af7e4c9309c412d5f14d28e976112e88841116),
(0xe5f9efa666fc6728207eb55d94c1daf25164824ce27b178392862e116265ce1a, 0x500a9fe618302bb522ff9fbe163d79b601f0f3cf53e0956c7712f23d5c0d9975),
(0x73ee3cbd0a1ba13765a7abb9827b1b32a48ea0e0a43e96988da603c3c319c9ec, 0xd96832b44093689cbeb30bd5a2e825f3bbc909d020e18744b0a5ec5a1ab38f58),
(0x11b92fc594046bba813285e7122750a43e028501f027a55df101d2cfc5990d91, 0xe08b24aae20fcfe040dcfcd080949b2c23b324cd1d957b639fe91716a4315417),
(0x3043669c22be0dc5fb14442a022a625db1bf4952362f06a0623ca1cf9160935b, 0xdc4834b04bf47d6bfad52c044d26e21b41eeadb25c92ca2206dd2c8624d0eb34),
(0x490c39aac290d1442b87622b407dec4a3f92aa616a9c8495132b5c7d3d5f9a0c, 0x5c76c0fd57844aa6fe81361f73cb314f110f87de6773e1eab3d68dae2926b986),
(0xfdd5cd5867d73347ca1fb212772b0c423a4caf94a3e0bf2d2bbb24339002d03a, 0xefe5f407d1d26bc76fb5bcc06bc94da5bd69f84c85d8917210bce90977411995),
(0xbc8a108eb0830fce443db2722655ac40e2d35989cad192d80e9c501714435ea9, 0x924c0258cbc3da74a708a384b93196c076bd3af62907cd6022069b93e3c979f9),
(0xed809b6e41f4b6cb86ae431a718989cd2c706ea410152e3b3395df8eae924b44, 0x135d805c03295589c8d42ffe0947aa88bede66990b119f8a324c9bfc64315da8),
(0x26b50ac75d871e074147d2f1ee42d6a80439821279e9f2767978517b6cda52d8, 0x26599c6386426e9f0b14b4c803494f0e1fe37ea0521e45180e346bad545dd7a0),
(0xcced88de27d0ccd47f6746ff98907cf1679f6b1067785dd725ab94d49fe8efd5, 0x5b0ede2b4dc584acb4b6adc2c52b4268e2beba67ce2bc825fe4df43d73f5729a),
(0xd8edf7cb31526332308429c1178886cebf3fe51618f472bb52da883dd83c6249, 0xa56abc3ec155eef6d43427e130ba691d08c71b806b4873437f3daf0717984be3),
(0xed82c3c9f8db3a7550949aa5cd6c8fce5264891053f66515c2fb71c47564b4ef, 0x5ee5994906d9d3c76fa9a26d444a8a4541ddccc815fccf39b06e8fe520b2f0b4),
(0x6e277baee89aeb5405e6249d56d508485853b3ad8588365e7771ae443d8ca937, 0x84871bd81e6f94a7c31a3fe663a1170c8f9623dc4e24a5b403f7d02339f40b8e),
(0xaeb67ac867271210565b12293e1aff94f2f8b64276768967f702afb948a03c5c, 0xfcd3c58894259c03cde7898d66ff5ac6747100bf3707e89b6980d21d78bde197),
(0x9f07ff4baa20c75694c967d1e38633e845753193a3d13af23ba7ce075283da79, 0xae8b7f0d49d06168ff3c5f363aca3f1c14308cf7d95bae363975fb7fdff2136b),
(0x24046d14a026daba1644b3ef7bc5501bbaafc3c976acfdf7243395d5713e1520, 0x265485e96dc40a31ba93cd0e915534b437fd5380bad0d6cd321867ccaa029ae6),
(0x01376926bf8fd1c680344f48c574e6b91806afab7d9f90c913bbc2332b3de519, 0xa34100e7c4b44c26f86b2198e7d3696d8aed9051a1755ced56ebe795d5a61fa5),
(0x943c6d4e816cc66887f7c85fb116ae825e4c38a6581cd5f11efc9a3eef5a7d6e, 0xd93d4724f618da6d29e351657883ee3674112f703169eb24eca31a60969de8dd),
(0xadf8041f159260fdcafc9e61d5f4f867a0f46e94af60bf53d4d0808e885432d9, 0xc4eaba1f99d2516f3d731bcbbe90b36ec055ff5de6c3ed952b95a0371be57958),
(0x15c17f13a404ae0811ddefb6707a9fa9dc0d94618325dbb8d96537c06e2dcc44, 0x8740d352021f95e836842b482512d79da799fb6260d65dc679df383ae9b6898e),
(0x87bbbb35623659949c5bd57586b813dc966ec9ed1ac3143580e4b7cdcacb8ca0, 0x0159992c1bfc3c2495e14ccbe24a3e9b6a28f4e91cad4a36f83624a8d22a48c4),
(0x39bd144a096454c19e082b5feae9c433564da73cd5d44daf95b5c1769f1fa105, 0xffe8a11c30b5d4d6f8abe12ebc3ca8f9dadf1527330319bcfa277b13256fb207),
(0xc4e4eb4f9bcec0c66bb99bfe265b2f4ca1c69676ee970a9ab78bbd64a83bca7a, 0x1bb9a83d316cb9c4bce4be2bd05e63812ecb493b44fc3cb7c2248a0e96bfc286),
(0xc183e7831c80d334f0ddd2f448ca035e8b53f034f53c1801488e4aeccf244e69, 0xf998feaac7711d483db389268ddc080c08ff2f95494e60b159330d8bd9a8b820),
(0x99d1d7ac22a2e108f093b630f374d9d27ac812d95753bb6be39c2401fed47d92, 0x0a67d33488dfe341e8dca3d9b36a897b52080a3dc366c8b039cc4de352d0e1f0),
(0xe0700a5d16cd89bbdf3d6f1876909082985a3339e7f5d2bc5c3ccc92ad61cea5, 0x26f6abe038953fa840bec97bc9d59c201fd08b294a7ac7e3bd994e0770a0b0f0),
(0xb19bf6e8cf36d83951b813b567aa62ee5415e95cd3fa668b55487a3e61a7e721, 0x630e78a5ca2cdb2ecd59f59e4c10e71246c1055ba7709041fc03f8b91970153d),
(0x25009156e90dd0ec88027adfa970147439abaf721c333943c6fe6e19ff71fd44, 0x324047dc864776320214ed74cb933859b78255002d19ddec9c466e1f573afc11),
(0x45ce7fe8bbe45d1c9bb0c98d9d4c500aaca5011f96238681771b853861a3e4ae, 0x8cbc22afd1adb8f0a5c725702b6c7f659e41b176013588327ca062e42392f8b1),
(0x73255507d3a27fc67df392120a286ef6b939e95343b126834e38148b619ec059, 0x3174d6e6e941020ddb0f3dedaed6c8cceeba10ed1344ce28a354e93f25c35b63),
(0x96b2cef401c6c39e1ec9a9458c8bad3f6025962da120788597800ac1c811df58, 0xed85ed2141b4ad263adab5b7c0c0035c2fbf9e2d983dda997d1249c68a7fa8cd),
(0x5764181cd941b28aa307bebb0912ae8757f23cc937025cdbb983eef642b9c772, 0xe8173b4fc23908fddb5f64375457a43d2495764cf3ce1b8ef2c8d2bee0ac7089),
(0x38ec78397e96505602b1e3145d5b2782ea16d2a382bb6c60efd29edc93ec1b61, 0xacf04ea4c7b6de2cd8acaa3ba4bf2656f522e6311cd51089744d4c96318ec96e),
(0x6ec4ef8013d01c79758439fa108f738979c9f7dd4b285eb8b7aed57976c0b572, 0x2328e642e618ecdf03a6560e3eb6af157a6d266af5f3c4df13c1ba2fc898be7e),
(0xd8da1f6b30c27b1a5000fc149a7686834c40a581c4ed67ba88492449ef77141b, 0xccb532d6876d92cf02b8c310839387d7d92464e1727287dc49a3b3482d519758),
(0x84f25402734970ec966aa9f0eca84a1e6894d36c338722b4e5fed1628f7ccb90, 0xf2d7fd09f07e6302cc97d283d9f0631909bee137d3946944983c2192335cd8b1),
(0xef6752b558874372859190e391d86ff73adabfd4cf008038136b2ddcce9503e3, 0x23d9ca50013cb4797cbaa67598dcf98e73f949e4614390f91e6159f83f131c56),
(0xf88d85903b3fe67cf641cb52c77c776cfe198f74fe116a46602bc2c01085ba6d, 0x58af2abd2178ad68a3695714cddf14e421da61a28e6cfa3240507fb7ba08742d),
(0x93b739bdd366b95c675daaa8c5ded7d218cde6d50d15d354645de0172db9c01c, 0x024ec5356c2f8eaa633af5b96ae0fcad7afea5f1c7c8bfb4748b886e25cf3627),
(0x732cf404da7ae5a2dbf82f80180c11546d313b9258980f95d413f22300443394, 0x858e83261758b90a902eae580a777b56e8820084153c9e431b7d789a4d596953),
(0xefde07192c40002d3f82e024a1b838b765fc252b5be4af7528ea5994a9d36e32, 0x89c1d35c3a15357691a63585183a9c6fb8dd69b569d45483f0c2f80d3dd9107b),
(0x9eedaaf28069339276420c1cda950bdaf114e65b9b1a74a6b42dd90c1ec90a15, 0x1399dc247fa540cd3249728da4d28c5226f427e10ac3b5337de8ba07d3164de2),
(0x23f0ea8d342aa21469deaafebfdb487f775805c7d4ba17dd877d3d4219433195, 0xdc1c6e31d2a481c55d32ca8d1d4e93c163444dc39e7c306e4fcbfd460b699b03),
(0x00d8527058c29e6058916e8276a305d2edd47c0d4e33052c074cb76eabe060b8, 0x9a0e4904e4db5bb95ec9e51059ea499384d497b68a9a12583a2fda6ebd0cfac8),
(0x1b34c95cccf912045922d2d190cf3860f7d36b377ab3763ad4d9046b309f28b8, 0x70c2320c3f5f663ab6478c3d2607cb4df7080de891bb408f6f14a11e2951e948),
(0x32558fdcae5e596bb756d4e20f10707a89569d361498e8c28fca14734b84b228, 0x7759a8b75ed5755bb23978c43d5aacd9fe63f6e074b6fcfb501906f916038d86),
(0x64818b7737d2bc57391a38202040afbd6028d7ecfa3d6bf8577cb1e8dd984acd, 0x4202b9346ae9554d9227b8914a6304bd2cf895eca7267e1f0570748971ca2300),
(0xc6af6ac6ec2d7cb542aa237324288551bcd3370572e1b1aae572d87d8d77b333, 0xfffe55594ae5a2df18e393bcdd0407ed5d5af18b85f223529fcc7cdadec78cbf),
(0x91f8fc4494ea12f80fa2a0317f32fd442e7a9e3428eeaf13a8b0de3ea4f1cef0, 0x06a0a47ad81b1dd0ac6765f420cc26afe76c2225eaea2a42481ff6d9a554dbcf),
(0xe159a9fa6a26f57c879b081fdc015b46dc610a612335d6c8e353fc4211c1c017, 0xc209c643445ae009a75656f9b4c1df2cf1c181c7ca81d0b6bd749afaa93e8851),
(0xe8e9fc5e135f3a971211eda9c06d283f1a705169b89e5813556beba5a4f9330b, 0xe8b968993b73e8f6da7b55fa6f1e44b5c88423b9f3fc5553fe0b10d4e9af0abb),
(0xf3f5d529d5ae4c0c36c27ec6e13384b411aa9818aeefb5b164243536bc0edead, 0x3f7406431e40c133345abbc4ffc5e0aa1dd1e30643e52ae533f5be61db3d34b9)]

/-- secp256k1_pre_g_128[2944..3007], /repo/src/precomputed_ecmult.c:11204-11267 -/
def h05_6 : List (Nat × Nat) := [
(0xc5b76430f5d8bb9ae1b9acffe141760209eae65c9ca1606a02e4f6d76cc81159, 0x80689f0970089098240875916915380a29b139339a000fad0d2e86d8cf2429c1),
(0x954aa4b434f5907445ed30c9ffb6db50ff27556472894261e935109c0cfc09b0, 0x8023ca861bad2c256cd76be8b3b0fcf3a808b76e80a70ec583265d3d0c72e4ad),
(0x055da8bb4803f3393020c9b930a583361b96ee544bbb4249d6df13356e3d528b, 0xdcc44b88ca06e9f586cbb209da01785c2387b14d355a2575799ef7ce32e5b64c),
(0x8084e800d810b286b0ad48d3d262b4e1db59eabca176e36877a7f8bba3a1de03, 0xd8beea9c59f865fc09f09c129bc5f980070d60aceb348f85e0888fc463dc1480),
(0x1b2bb6c236c87f88748f49a15094949bd15e0217b00c0bd7f85efa415718b39b, 0x2164b1956aadf36ef1bdd01806bea9a4c3c3f42c0b0e81dc8101ad1451029c74),
(0xfba687e80125c372e5dc65ce3d2febedde9139d99f91ad84830da38a54377872, 0x8944eadf03b89501ca4a7a82105a961355aabbf257f4bf830923ec1273e001c9),
(0xb58e4b80a5f1c16ff9c699c975a2d797d21e155ef091ba948aae2dfefd560cbd, 0xfff9caba1429bfa6e571b7f412d6aa9704606f7d9025efec937a512852cec3ec),
(0x8ebcd526da5d6c2155222551e05c6be4114fdb7c9d43a900fcef17ce3426edec, 0x73a0fb986b3301b63eaaafb1a52f5467de11f034aeedc21eae97df86513aa97e),
(0xfba4540b924b29e895dc68f0e971549b7354e03264040d2dbb9566911bee325e, 0x529088c33b9857ae342ba0d07e52843a290f3c2716f5321b6c9e6f519105ebd4),
(0x8b7a2c97a1a7d3246d86301a66f3f36ece014c97651b25b0ab46f4e8bf9c44de, 0xb82854ab699c35b36786c1f471ea75367c88a68443fc17b94cb328fda4b247c7),
(0x9df117435adb7154e7003bbba1ba909b931796774bd4896f40c39a58ead2279c, 0xa7922f4ea216cc36c36913d6e7ab8641d4566865dd7a2f8377ef219b41b884eb),
(0x5beb7b84749b444c82efd9e737314892c54b6215c1f9be9e414adae456931cd8, 0x099e425f32cd0a7c28e753fbff308effd32b7cfceb51df7b64f60e9b2fabb95c),
(0x2a830c430ff204ba78c5114f4a3b7b09c9f8ed5d17066f43cd512af64c788879, 0x012523a4e8882652eba827fed207eb009ba148099ee4286561e9623062666c84),
(0xf71a46a14c1f2a18e68ab408bcd32d94985a7714019c14191b69221e1c57486a, 0xadf19b3e0ea79a534fcce36a4cc0da0f4fac443fb281cf0aef675b6d20534875),
(0x2b80e5dcaa9c2b31678ae2d9f7d63c0cbbad2bab36c412fdcb6436a7c69d193b, 0xbc83e04d71d60062b681ce04c506247b8f3c9019c2084ffa27621d62022119c3),
(0x49cbdf3be521c69c68375b58d444934175424a0c03c45d5bb975235ce63beece, 0xc5615eeaf0f0e7cec3756abad3a136ae91d260f1563997a8ae46c49a5c62de7f),
(0xce4d4714b643b1159215e2f31dd070f7f7aa663b9ca8773979c5ba31ce9ee1b2, 0xb1f35e12a2fc3aa34db59ef5e62101b0479745b4200c10aad6f8fddb1efeac38),
(0x6827b6bbaa905ac38d93bb1b5d5881c5a8bef479ed7c56562992d4dd61e10054, 0x8524a87baf65020d9184842795801f5430fc37277ef2064d1aff8ecf296bb869),
(0x0e71e4d548f4d7f1c7b7879aa03a49a0ab947218b16dd12519af4ad18056535f, 0x495d04617098b3d56f7e3bedab5c981383aeed683ded1c09f0d1bb380e32f574),
(0xef6839797429fb30d436aa32a3feda6865652816873ce5426320667c6e00e032, 0xb4b18e4ade1197e80fded846f188a6ac02f17506f014d404fbba36350534613f),
(0x00c729c1ac8f7effe908007d0e2eed85dd557e36c1ec645b0a258b03e52deaf4, 0x2e83edc218584f6ac5ebade6a335a08712365b890ac38f27bde7ebf4561305fe),
(0xcf1d39199a716d53b2bc4f2c3ae2ded1290d54c22124a88cc1cc7fb1115735ab, 0x6b44f5a57ec3402ce8980970dab8538bc276c8eead5429089b7b70d6dd00e6e6),
(0x6cf3d7a0266dee28f3f1f772ee90da75a9c28a7ff82d8f55cf9d609a5becdeae, 0x3bd18fb31e11cce2895b9cf94d9a99bcede5c9b4c44ede14034dfaeb49bc58d4),
(0xda4b5832ae63eecacdee4274f00ae93256393caecf830be7f28749c07d395542, 0x9aabb23bd2d940f1815610c9d1684b92106374e31b694ec4dfec8818cdb2210b),
(0xf91ae35023210e16f9c63270cea2c6bf407d1a10e95842d4b8ad5f7a4330bbfa, 0x01f161acd19625735969290efd3d1af153c9154333651e161b51086b913aa1c2),
(0x7e1bef52cc3e2a2e45847c8627328526c72e3f73fa1c825556c874b2f2f1ac02, 0xbe4b0f7ea706e4d3db7048fee0fc4f5008ff0523ee8d97f44c4c1787e6f6e6fe),
(0x0dd2695d30dc2ee3748e256ccdc92eb7706567f14be720ecb27fc814d3d5998f, 0x9af32c44f10280139ee7cf99845472b5bba67740f0f0b96ed1a02a19a32dc74f),
(0x78fae650714763c8d12602ba033b76da125fe39543fb37c94d20b337649dbb9d, 0x78dc4c0f0726cce6f65826e5eaf1fea4c3b9253206624ce121de2351bfce3aa6),
(0x1edf521e510e5dd2aa1d3e00d016b45a1b6fb6b8591d98dfee6926368dc98bd5, 0x9a0d016d9b2e9b8dd0f4d81771ab0f20aeafd8d363beca597518da4155311f86),
(0x8607bb0c5e53b60b9153272cd3cc69e47ce2869437562b4d4166aa18d0101d39, 0x015ca31ec83c6541c35a294aa648af8e3887075727924e988ef566d596eb519a),
(0x65fd300d9a0503f780a0dbb7c42b9bb7037f9607912f2df7166b65f796d02eab, 0xfcd1535084fba85211f945401f6b43f2904caf3cd44ecaa5335b928b4ea3b5d9),
(0xc918b3a76c847ce1c01845f034ccbeb336d031a933093f99f47f1458cc02d148, 0xf256f403dbbb2e20320632700faa6e620596329dca85ceb53ed3adfd7f728568),
(0x6ac2dcfd02f0b8790becb429140ade0d532e54d4dbe0bbb5c1352ace05661817, 0xf2c26310abf9396c5af23074e72251c3784c3de3060466dcccaaae164a9e2af3),
(0x8d71c4ee54acf389cee39b94b5feb2b2cf8e95a945f6a95f5b0bff2fcb3f3d19, 0x98442bd95a02c1c47dba3881e3306103f0bc885789b44cb6548758470f1ce52d),
(0xe8bd24d3fd557118f2c0abbb0511e8742e5d7368a909b072b3dee12444f583c3, 0xe1d2c3a6e28622db65b7992a6716459e2380285acd60f43a4d4b1bf08bce6538),
(0x62dc29755cf8cf89e52c8c516311e3b4483fd024ab2ad1d032d7255a3c075217, 0x0799e132d80d22d8e0f01e9cd09542518b3fc8a948f3cd1e09391f8f5c0e2a97),
(0x37db13aacf727e60cb1027099c7d3c074d43234f66a95451a6050496d44c0e13, 0x0c383bbe8f8ceff4196e9d07e013a1f6d3402a6dd09eafb06292433489b1066b),
(0x37bfb765eab7719ec858e17c472f1df1be9dc4392699ec3937875b30fb2aa1ab, 0x72718bfd865dc4c22f935f4a98af8ca65cf44b5d066f0eea23b53563d1721364),
(0x433ede1287fcbf355fdba6e1f62148a7b5d5c3fe1200d45606dba452a85d1b94, 0xb27c5613ad6e513b28f0c95913e30781137a4c7c7aee6e605715d9494757c20e),
(0x0e582d9fc5ed0de692a1917f6ab7df46d23295d0b8b27b323af9a57d3e671861, 0x33ee8785e2770dbd7e79faa5386cb1d1d1c9e0731b78dfd65571deffd4073154),
(0x60b07b40634bf15aee2d4e5da0f06adead8fae014a6a189e4e4286004c9442c2, 0xfee087cd00d243ba62b4a2cd68d8aac51557f29ca57b0f37ff2119b1bc4b283d),
(0x4b16727601e5f7ca0a245e35b6e88fba643e6da7ce37c9b210265ad32de03100, 0x28aacf02476887e090d26c1dcd51f15ccacda02bb6314a6473b90c938ed8dde7),
(0x5d56113d6d797e74c4803e6389a88ae2fab97de14ed4e7b2a17d2f9bfe2a3170, 0x094ef2a8534eb2ffa62462a27eb2b34ec6545992e2d973abee42b1e7d9cd524f),
(0xa9d03fae75111ad8d11572878e8c4473f4a06cd8f28dfa7ee38b3d063a34f828, 0xa0733c0cc73198792ca665bf968f6bab480c94b4c7de262e4d9d1f9533517881),
(0x741995712b1abce9ed4db3b77b3f7e7058fd37161666c52250855f25660e1ad5, 0x710caea8097f7589cfd3b8a322726000ea3ef2c18aac385f22b67bd900da44db),
(0x9f16990dbf81a5b1eeba1e5f84673e16ba0106f2acc68be7cabab96f25918dc8, 0x0d60d47b6232104234c49d39c03806ab135d46f1ea6587b0f0b6588c50ebc4f5),
(0x3b5069bc4f12b9a7ad91c888fabd15a7c99143f4c8b24619b6a70c0b2301d57d, 0xdbb87cd1ae59a9449fb4ddfd4b311d66da18544ea86b75a8979828c7fddd1a79),
(0x9dea63a967b5a36e0bbbf9afbbfabb31f90cdcd709b75c681159b946dabaee90, 0xb14bb99b11bab958e31a605ce9180d2305c7d2eb94d4de57b8a66627c6bc4464),
(0xd0b233921da36a842565cb534411e63b09fe6b2cc33c3a188e0ddf4855e31e79, 0x80ed93ea1a6e5492dcaf1cfcc350b3b29911727643fb6a7515c435e50f74f8e9),
(0x8adc9655966ae44bf98ca7a49f441e3facfe85c8f7111da552c817b390b03d20, 0xce72054c6a717312180c80eac93374305dd1d566db1b93b4eed1a6e573c0021e),
(0xf6f76bf8cf6d3dea700800b6d018a4a6141ac610e2e13fe3ec9167261e0c1670, 0xb2c478afe1ea987698e5e2a106b3a4ee63e4fef76644da54e241c3953f9a302c),
(0x0d58287d38b7da30174fcaa1873b39132176388d6da5f9fef873d86f14b898e5, 0x785fc93469ed085e8318f91d114ad0cfda2b8ff561e545ee3502e9ec6afc8402),
(0x7772ca2350c5ee559ffe810c6d8702c1538e3d11f4b8354a02fbf67439a3661c, 0x5a2312de853fda145b48aefb23e98e4ffe3dd3a8ae1fcd6c931d9a43686edddb),
(0xa2f9f976c50f36877ad0ac95efc3fb2c46ce903e76ade308069705df72433ad5, 0xec56531124c289f335e11b22bf8d7445f201dd4b68afa38a22af056fc8c285f3),
(0xe20d976585f8c56724d0ec165ad2711026fce166b52ce11bcb221a804f8b15f7, 0x63b61933c7f6386298b48b6bc6abb54b21d08220166ac31bfc85d4dd998f33fb),
(0x8868b59d00ca1de2cbe98d94506db1df659ba688b2bf093e42dcec03acecc18f, 0xf02e9b0796b98fb0051dbfe84524ebf6dea56251afb53076e2215d83fcf2fd0e),
(0x1099f82fe32a1361a785f86b9a6bf0e899c832267826d6a43f8581b889fb677c, 0x13fb83f29aa7f2712cf20cd3592eac46cd2d3e619afe9aac7fcf37d89c44445b),
(0x4af9c69677ece7b35f7329698ca61b27deae65caee2d5d31ef2051f435cbeea3, 0x73004596429da976f96e3f80a24408a4ebfe51968130c6985b210826664e5ef0),
(0x9680cbca5aceb8b0322d4bbe8713cab9300d1f8bd16ee045edb3b54357dab473, 0x2f293940e36ba1d2ecd4697c209b33e06904ee3c2798aaec0e9131d9bd0df58a),
(0x7eefcc3afd6347f05f9c372031480c923eb7fdfad6e9c0ee4e2db9ae27fae7c2, 0xb8e9fa754f745c147c753e4217bb1e287bb93d9daceb357e9738f10bfb5cac06),
(0x0b823156d63612b93461fbf36894955d065e7805b025c2fe98fd46fb2f9fddb4, 0xf23c517a826fe91e45f453ebfe9eadd4d0b537c6a2a8f60cdab9dc5810bd465a),
(0xe801d35e2035fd5492178706e2e765a9bfb9de22e89182b44d5144d385bdadd9, 0x1e64823427dee6f0818868e0419e37a91c2162003faa74784816180976956a26),
(0xe9d4610e56b70969284369e507e890fc29fd775008489a1c2f348f52cdc67f3a, 0x8e5f6aac357d82e1a29bfca22ee4516b1df0e622257c2c1f7d9a84feb48e4a0e),
(0x71c3ef0f51d6ddee340d7aa094680084b94bae8a0e3528ff4a481af6d3b7609b, 0x4d1674dc2f8087a3138adc4daa615a43db6886d44992fca4544f57e3315f6b96)]

/-- secp256k1_pre_g_128[3008..3071], /repo/src/precomputed_ecmult.c:11268-11331 -/
def h05_7 : List (Nat × Nat) := [
(0x9567ce43b6f5c41fbdf8b44d938abac521aadb83c157b947ce999c0e4a7d6f20, 0xc9d86317031ea3180a647ca8945cc35d1fd0fdd9b2de4fe35e2a002133a35538),
(0x34523d4f8116673910b3de85011a19214f8fc7530fd8963eb9db22b78edcc141, 0x900fb9fe268b88eb9b80a0660277d8ba877bca84f277dce77d6e90c48422ac90),
(0x69fd1f7e5f1c43dfa2f4350bf20e5cf1f2993dfcb61cd2781590ad79e3c1bd98, 0x633726cf8b74940aedb15665a927797302d1c9232bcdd615043c9f3a6c51d7f3),
(0xe4c2c424c28cb8f73146dd39bb4fc6ba411b2a75e317faa2a9f878afe94a3de7, 0xfb8d17e8468e5ef48da60739820515cdc861378e9b3bd158fcc8a949eb21ae89),
(0x5710459aada916d09c1feb590c49486398e44513226119ea5ded7b1e34e32773, 0x89deedbdd2d83a584e56b40930a8355e905bf12af33f49f07383eca4e63871bc),
(0xd56faed4171806e15ac17f9137101b2759a3a8a990b85bc189b217a06fd48e64, 0xfa871ec33408b2d6b62f513f5368f549ebe43977a48878c76d73144734a6652c),
(0xe7416eebda0b805b68b47be8eedf87dccb5cf012804d03f7604525dbaa599bcb, 0x8610c716f11c567e313eb4c777e4314b533d4f3713b11185bbcf5442b9a56c19),
(0x8ca59862ebdd354191c6060813ce32c6a4fbfca46e60175f2d5f1607d5fa997d, 0xaaf3480fb132feac6adfa19502b14d0d113dd6eefaad71c6980d5691e37698f4),
(0x6496dc451fd43b451915867a846c52036eb8e4c528c2a18172fba6f153243413, 0x044fdc410f85c99ee00a281b9292cf1b153fe2bc5c8b3e87cb14d624e44da1f2),
(0x3a424463aa82416aa38bc248dcaccd2067d20721d4e8f5d6c9cb2fc191925a5d, 0x71a56463fd242591434775cb37c81bf0d4857abfaa527ca9c31784648afa9fb2),
(0x6a945b0551d55194adbf7985aa85fe638811781e6b7874181574d109d178c2e6, 0x186d343a1ca3a83632421fc0d267ca2780df9af132625d31924e99ff9b57ac44),
(0x13f1f692682d04b7b7e7381b8c5c13b132baac0eb7f8c8aac9ffd77d3aadd47f, 0x572a05e49622ff889eb3685285d1400f4337253338c47ce2282aa4ae26e99f0e),
(0x79fa13c14f0de8f1ed98e7b33edb77f5a2700707e54ce522a516634bd2804330, 0xa094bd88e1969ee73f41e40e060f7198cf2484ab5a2efaa096e891eed5987c65),
(0xdf1ff6dbd2c61bf7c273f7350a6dab3dfb08377dbb3dd1019dda03dbe533130a, 0x02fdc7ad68c5868992e5c969d8d14a94cd0061b75ab0e824fd19611d923f886e),
(0xa82232805f5939ad180f877600810cc72bff651bdf7972ec51d86d2a1acbdb34, 0x9681590f982e3632b2aea9b440043751e7f2ef2ad4b125b52784ffb517c2dfba),
(0x406b0cc049f3bf586990ada163c73932b3780fadba3fd8c479e6a688484c7c44, 0xaab0e4eff2508e5479074fe0218aee7e8b217932859192d31bb20817df6503dd),
(0x4e7043fd5783479c3dcf103dbc4d9bc8523c81eadbac94604b73300cf516bcc8, 0x196287b73ed01bd1e8033ead66c9262577c859b673a4c7fa98f53d69e82d1133),
(0xa9a2a671b945a5f590575c0eff24c070a7d55b00e9d2f44e43cf400f0f3e9997, 0x6cd45e20cb972715167f957caf7f2f3f9ae22ce43b46d4ca5b2a58db6e0c6285),
(0x692a139475ffae88fba47ae49315a6ef12b2dec76807608b22ba3ff2883d3c01, 0x74dd5b4a03c14a54c0a867321a77d160c834773f0806340685a65c166ee46131),
(0x36f915fd156638bb88928e75d00fcd49063b44acf5d016e77ddaa8c8d62cfad8, 0x03f11eb616edd1835ee17d02722cf6de991dc8b0e37fce3c0cf7f5dbe842e8b9),
(0x3f0f6f5a7e010c0b5442fd6ca3643144a5202a7e0bb3ac8f99aa38d64aa53b31, 0x2574d7cf5b33e29a950099acdb0ffb3fab1f9ed7f13cdf9ab869fd070c35c649),
(0x8c58faff071f661db21d4258a92aacf3508a9dfabfc00cfd26b9567334b7b067, 0x38d1e894ea1d4ee2843d08a880b11325e9a8a17159de273f694a14d673944893),
(0xd806731a205c1a3c64b918642d940b12dbc6f580866b7a9c0f287fb7c5da78de, 0x870a84302ff57abb735da831863525fb70402006d241eba8d43c2ebecdd0e05e),
(0x7dbda37e195db041a4dde1515a7cdd97416bde0912b9a7413354204e2b848648, 0x83c89c7a649d0070fde84ff132f60a9fe1c0261a87a8ccf3885fb00310715e71),
(0x8afc23c0c803b0e2df78ee093b776cfb410a1b527d4be45e58d8cee803ec54a1, 0xb041eece4f4ae4a0b3a52957386394bebf7b11a2b97eb5b401bee89c352ed76b),
(0x4e4424c22c50fab04b803b4b2562114b1b2531cde578611236fb90213652207b, 0x22bf6181511871180fb421e4fb0cf243889d5ca5c14b6ab57e7b9d0dd9796e6f),
(0x607177885a230af8a0816e396e39b34af394b1eec93ba3828fd92941e6e97453, 0xa84df29f2b9da41b14f247620df6db87fc0a18fa89e356f49f8f401700dc4b26),
(0xc9f73d20384e56ec37bbbf8dfacf70e4a271f16902dc22ac6022ca248caf3213, 0x7622e7f4c77f9581b73c9bfa8bf5b57889070e8b97616cb069ea25f88dfb5437),
(0x19ea5dfbdab5a1d8c3c2bfea48d90f6da8b9959c630bfc4a81ea5edaee45282a, 0x0c21295d0014bd817c3a4d62af307b1c870a959d7d6e4c653b8e1db8fdf1d56c),
(0x564bdb1e30b2c292cdf0e1491bfaf85204780669717de5cb290cbe6dc1617b58, 0x9a8da0e86fc0b95f99e84198877f5ddf32508c1c0ebb99847004f74e7e2b1c0d),
(0x5bc938424f3ee6cc926e21237bee073950b39d1de0dda3b54bf469537d0bf06b, 0xd4e9c3a9662778be0b7f4bd4cd753a5032bb003b694b5e00c119dea420fd5d16),
(0x19432e94829e8b573eef4fc3181c7d7f5b2a5f2da2e8c3a5980db9bc5cb7f99e, 0xf75c999e5c5b8567bb69316e36e01acf2e8607815c5703f7a4be72bb9abcbcf6),
(0xd399281e6196ce19a2ec28bfa0b1b5598d0235d1beef1672ea230cda20080b8d, 0x01ca7e9520ffce3a33e9493195eba433d5483cf0d5edbea96384d1a35168aa19),
(0x6c84e35ab220fa9fe55f5556302f665639372e9774ae26bae21ca8ea10e73c88, 0x98a11b2abd442c0ad49711e7b0e8b23401d1546571efe9b89a7b4c021101b2b3),
(0x7814cd8ab1b045eda1797f14c83bd807ec4205b6e9df48581180a80ca0f8f64b, 0xef917e40edc8b8fff53e8b704de63adf6bf1773041af22841b0e38d3b515f33b),
(0x7a01ee831c8e22a8bfdaccfccd280532444e710d7138b993fb6e06c70996235f, 0xfe512d0919895c2ab62f2e08090dc3bcdcb0619818160b4104527e7c281a5519),
(0x655ee6bcdf86c9ef918b56605d4a5e79512e856f3f3e40ce72e8217c1f9bd908, 0xcbeba5a691fcb085f3996ea9d081e69b7dfdefba123df5c3cae94f6312f87721),
(0xebd68009fb0372e8eb0be25fe78117bc3d4d4814440f1d9e1cf87ee1de5219bb, 0x8efb7e386f96df55bf0aed2d6bdb75f36da8cdb6ff65868bd8ce79b4ba58814b),
(0x873408189ac05bbb4e95cf0517d5abd68b7834cf1168f9149f1d63b619a3865b, 0x9f1fbd2772ce0f15c91d4deedfae0a3e7d24c0fade2bf30cdf63f93c14480838),
(0x61b6b213b02a7bb64de62e92515690cb5dda3a4daa96f68ba12f2c6330513df3, 0xcc71b8f24eff819436ad29628c003a1bc42c6ce653997d56e0162508c2b6144e),
(0x4ba7ee4d77171ae2e39c9e663849841aed5e02e20182d87298f0a0643925fe37, 0x5cdbd5b4fe344f16cb72158eb80a726f5a9da4f7751bc4f1f1fdc7348e96dbd6),
(0xd5827a7fc4d5dcd432e5bd7a46892e9a6f9a3971fe9e1de2ee247e6f208badb7, 0xf790fadc9d0e0c0f61efb5349b23c60c2fb667a63b52cf18ca0f0a1a6098e1fa),
(0x81ec51597f950cf7c0d44d4a89efe691e9086dfdca25098d411cb9b293237633, 0x885b27ddc9eff80c94653f28ef92fb600741d3a2aa8280655fa60b73eb9a1e7f),
(0x28fc41f4a0d4f68076a3e06daf0aff1e6e723779d8ac9e684cdba2fd6ab6dec7, 0xb1e4af1e7affabc73eab9415c15b235d482c6a8db1085f54d80ca2aa49657225),
(0xd5e753d6c5bf75c7cb0f5b8577fa2f9f6341a88ccf59b5d1328b18a8f7ae4f47, 0xd1aa54b98eb01a322518a10c8ecd66eafc2f380dd97953cffaf0c540c4a1bff9),
(0x1682355d89094297e6008fac44c1a5a9257d413d7589286d8bad48731476e836, 0x4f69c762e29f90c9e8459b11d53ed84c2ec9c2d9ded4ea0278d04546eb09cf4a),
(0x9ef7a85fb64cae732eb511a78cc46e2273425d1ad02272e79030240b23e781db, 0xc720356f6f6a5a473f35e2f20f5e92e278a50c9f3a77604b03eb3987d09ce73c),
(0x4f6aebb36f429a524cb1be48ace0eaaa02174468c13cf612dd7ec70a02e915ec, 0x406ad94da8b6d79002ad3609252b6d7d0b28f96e8780f6c639620b11cf8e761f),
(0x4cac3e0e5ac02e6666710dae5c0d7e8b7a3cc7f1a42b1f8e088561bb223f8232, 0x9396ec8eaa96f3c804ffcb9cd8c29d27dca65556c2fe59318ba05a08cb263142),
(0x086f34633aa2ac572c4a9dd1064c7606f61fbd786061993738ea0a60f79367b8, 0xc802fd2b556179db5f776c9fdb4c38afcfb2aa61b5ae712a03f23e5825824f05),
(0x5323f1457685e123e7a5ab4cd1d39fa80bcd6f23ba3d74da318dc7ff347103a9, 0x3092fb79ecccb29e12dec977cbbf38fb94cab4f1fee1e8e34610037888691cb1),
(0xd3d70d46402711c7e680c45f3a0e1c5ff85cf106983ff0e71a7f117833ea74fd, 0x91982773d9b90f3116893b9e0eea7fb9e4f722f3e1577c90fdf6f625a8d07bad),
(0xdf63b93728a8761302db5d7143654f1df8cb89fa1ab1efdd6fd864bbdb6d4359, 0x7c3b79ca191a3ecb6c793034832fa5b2a2c7bed484b792a791bacb7b62ce5510),
(0xf1fe92228cc334d95f303169a4e2262b28a99494c7decec39746be8571b70c74, 0x5588f3b84e65fa72a2b35f60f99af1e3b67a24358c28eb6469de5136e751a10e),
(0x9030e75d918ca330edfec14cb7cb28d0fb0adbb5fa29fc7dcb3c9085ba74fd95, 0x7df2012861698984c0928821c38aded75a452dc13bbdc4cd71ad99da38b427f7),
(0x1cd3c13935bedb87134f628c576411ebdfa0b5862c3cc7d5ddd7cf5c77ad641a, 0x2154edf25488bb08be93a25e0c847b2688264cf1030fabcf5924bde14b9a324d),
(0xe56e0737a19fec7c78b9f4621ec0d5bbbd6e91ffac995f42202f127d2446ad96, 0x8830d827368c760e40a8d9bbb693e9751e69b42f4b2ed77698f889aa3ead70d7),
(0x1b0a6ac458abe5e363e6dfeb24ad8a6556fd088678086657587e63f15fb6b101, 0xd2df6fdae64263a2b133e5aabdddee5e9a35e86b2e1f59265212cc49335178dc),
(0x10a141468fd4618e4ed390a6246d62a250bb167645cfc679d80cc08123ea22b2, 0x3383b868dd7fdd1aecd13dbaf4ebb151f9a09b25bc30d5620b033800fd40185f),
(0x9dc4ab515378a3516db8837e568afa72e357f7d795d546ac8a73e419a43f5e35, 0x08ddaa2d9bcecfbfe2a422be1ea591eebfe05ce190439a06cc68d66a6305903f),
(0xaa93175de7a4e1fbc538eb19e89b20ae13539e99362035de1aaac76e3ced7196, 0xedcedb04c13445689f3e133ad8b48004c18d146bece3da05effb864ac2afb9ad),
(0x8171f3e4da02d9a08bb6fcbc6d06cc6a94f3cefa35d4ce27536ef6fb222edf7b, 0xe91be5fcaae62aba1c02b55f73c1a64fc32038b7a658f1897499ca59e9e6dd6b),
(0x51f6c983c89128e6635888c93c79cf79893fe627437464b111b080581aa19ab6, 0x5d2ef1494bb164f520c1dbf41a8dc650b8cee400d5e37252a3d0f0593881a067),
(0xc0a1f184766b30dc6a5016b19db0dda7ec34dfac74dae5809500ab8f6fd7d38a, 0xbdcad3e2c7b6daf129d41051624d26a9b27f361ec695d49052893597eac6f01e)]

/-- secp256k1_pre_g_128[2560..3071] in pieces of 64 entries -/
def h05 : List (List (Nat × Nat)) := [h05_0, h05_1, h05_2, h05_3, h05_4, h05_5, h05_6, h05_7]

end Secp.Model.PreG
