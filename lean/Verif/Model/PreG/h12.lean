/-!
Generated from /repo/src/precomputed_ecmult.c:14406-14917: entries 6144 to 6655 of
`secp256k1_pre_g_128`, as pairs (x, y).
-/

namespace Secp.Model.PreG

/-- secp256k1_pre_g_128[6144..6207], /repo/src/precomputed_ecmult.c:14406-14469 -/
def h12_0 : List (Nat × Nat) := [
(0x49784426fb036d23a289f4f5b3b9253576da111fffcefdb6a4163e55002c56bc, 0x76de5ca216ce703c6a62ea4ca0f7ae073744a22d6db673899b0e93ffa69e2a9d),
(0x5b213b9d3f84b248a98fe326929b94a97bf78521106a83fcadba632c8ed4892f, 0x8eec203ed015749ff01402b1722214d2b58af86a95384ae1c39a77805623a204),
(0x6bb55cfb9e3f5468966711b86343e4af6e372d04ee7f570c6a12005d628959ef, 0x753595629d633c9fc2432ad50f4c9f00c6f54005cdffaf82438e3e5870d14154),
(0xd760efaa3a9e5c7a967174a4705baafed230dadb4c957cf0c025ab554b2eeb43, 0xc019790ab1b8498b58daa784ba02b7b5672ba2b613d312cbb4563f6fe26675ce),
(0xf8be7bdc6a361b6b2844c60baf7fec1a216d75f696418734337f9ccbae9117c0, 0xdf66b66521e3dccf0639a3235d773c214364062fc52603233007e2cc457d783a),
(0x6bbd255884348c88c75a81556529be50093b06a4885c5d32f1047357a11434a2, 0x842f9093fd41b2a2153727aeca2cbf00a494ab7beef1a2cd8696e9721b1491d1),
(0xe692623dcda3bde3d32c1c01f480d21f9ccf8f1c416a7dd5017f1aab12d3f3c6, 0x30dab6f871f4c6d4c768e086fd6287ad3fd000bc3b04aa7035cf441d44764b89),
(0x86dbfe135db905ef9ec7483c6f51b75a71726a1a027e51318d6c0b2cb0b933c2, 0x371f23bd45c46d3c18056f2310ab6afa1259c88a3a55f8cececaea71aea083a0),
(0x7ee329d59c625a920594e6204cb48559458514f8da94c7bafd2a4835a4f10239, 0x80a58a2be17f32dadc80038c7ed57de4c7c561c669bf678657ee72aedd2bef04),
(0xe16a922b8255d2c906ef776bcda14285b1cad5f762f75465f8c82695cf1065c2, 0x44bc0e38df9ce403a927cb01849e166e6838468dc7a8bd4e6ec3fbbe1f3465bd),
(0x5311e06423145aa310737d3841adf49b988c1ca8e8a705ca3ca67f98f756fe87, 0x21c3f6ef73bcca3ac376e20fdec775afe22e708e7e500c2423114b4c84ea8678),
(0xc09eda1ddad1ca36a9aaefdcd16c5f50a6ae499f2cdefa2ee5b61ab669f7fdf3, 0x2220cbe5bc279362c55064040e1df07652624966e3222b7a62a1f7f9faf00500),
(0x8888e10418fb5c16fc3c2b7eb9ea06c1da2df71fc647b989e71662a1731628b4, 0x7444a776fa8f5bbe959c71e2c919b761a2f8fdcb05e66e5b65e561e0928e2d73),
(0x5c70258cc1030231d897c9a9199df5b58b920f5918141eced84bbcb8b9b6c243, 0xd627669ae3dbb6d857d65a42ec53bdf10c688492d189b1b8067b75c3f003ff90),
(0xeb58739b878ea9f674b16f8a406e71351ef06377d9be32e81f65764860e35ae0, 0x752ae84c8db0c7f4e956d2b45750a5ef024ea45408f275f052b59eade3405ab5),
(0x996af698ef26245e35e4845adbf9c45d6fec5564c1fab0b48ac78f069840e0e7, 0xa86b564cee7880080bbb04eee3d66c423c6910e77988aa54420f3a4d3137a1b5),
(0xbd03f2ea0a505bdd07f3991523f3e3b77532335a6b5a11a14e303542c00b8f4b, 0x345f765fcad902c456211eb0bbe520adaacf55d9e9c67787aa02f18d0ccd88ea),
(0x8480c77f03dd59c6329c221bed8473e08cb0446dc4e9bc6bf2dba8d107ddf0f1, 0xb055a135a224f1e20965cff1a4f0d764fed265bbc644c6962f3570d19af6e360),
(0xf46b6845fa45e8c4576b7c74cd1a308ef1adeedc1d539d211158318cebd4c584, 0xe1ed266534a14e05c1ecf1368cf8d6bffd9f0258a5f0a53c8abb00a3e953c425),
(0x596db19c38d91452ad238f05453bb7739883df63a0b545e247e5947cd9f52a2e, 0xbcb35b45b172aeff9e4fc5d1714d674346bb40736f571291e6575d34f8b0d929),
(0x4cfbd998f9544921e5f1658de3ee95c6df85b3f9309f7a85f6e4d08b7e535497, 0xccd54e2e437e4aff7fc2ef173bed5ce6b7d6e34b4b386f3672140d72ceba71e9),
(0xc3f056d2357ffe1304403cee6dd5ba3a0a7d2d0d91d83f25cb2cee4434e57f94, 0x1c31cee1595b3682fd85840e312a61e440cbbf6855418b30bd6b24ab0c3bbf7b),
(0xe272370b82ffc48653274eb8898409c59338e024202be5e7e18b5ec57f824680, 0x0d2f4e6c00619f0d71e38990f4e52881de27ee31ff7ad9cb11a7f73580a546cb),
(0x81537bc46a5fe897827aeba46e66d5766cd05a35cd3fe1cd9c06a2d7194be59f, 0x6706c254125be3c5092ad55f06fa62894298f23f2f4f397f3bc84f5079bcb8ae),
(0x50e161e26bc89d2c816030ad45559a3b49c8606cb28b63076ac6a0519226d2b2, 0x98478bc63f8d6be92db0291067e5e359e865d046a5dd853afccb759272985c67),
(0x76ce7272fcff02f9bfc355eb24286fab88ba08ad0b15e09922724b840315be56, 0x88f98fe762e37fdbb72c152659528cdcfc4c4203c465e77238dc861878a5a14d),
(0x077935c13a7f5f47130981016e10ec54d5ca10eb492d4025365d5265ef7e6ebb, 0x3c15e7c9cf230340444441265e74456a4f3b72dd7aff0ac1aa76c67bce77dd0a),
(0xb37c3ecf5813b5a502f52fc442049653991d9241e8677d2af9779fda43c7a255, 0x4361c742c070b356387fef421a9cdf7958dd47a0b7c9add557fa425d626a1786),
(0x90c64aa328d43534271e2f373460d8afd17f9585516b909a6a7bea2f1b12d2c6, 0x79394191a37a451fe439e5385e876c2dac397f0edfe29114d14b9363b76823c4),
(0xa314f6372362ef7cc4bec6a79396c318568d9f059b6ca38ac5f56090c33e5e5e, 0xb3a401e4f77411309517950702ce3b0e053d2f510f2dcaa9d289e25a8de01519),
(0x15c25f4e80a7de908c49fc7b649afd244c5a4be4dfc15b2f70099f736ad003dd, 0x4aa9fb9839855fcac9f8bb26b6322c95e5d7adae5aca9bf6de073949eb364b86),
(0x445e6d3490f4ce7622b6713f584065a5e0998d4701b7603a2527ed855d67d7a0, 0xecf994bd7ba618b7006eaca0b852e0ebbe7b7f8670d028e30f52d1b2846ce8ea),
(0xdef695be1ded66c3650e99180e942e4cbd420fab3a4708c243ab4e3f1bf2101b, 0x63569e13532bf299a0cf8d0ea4addffc1e782a1e98a2f7c0e0b64f508dd0afc5),
(0xeb364f1b89938b4802d32271551f95295013185e3ee2b534bf01a2889a534a88, 0x9e6091fa00b439d0d96f6a9dcb468573881234c16bbf4c5032a6c95099e6e6c1),
(0x7efe80e65c0134b849b6c58c7d4c54ac873e43fd1b47f9d21d33f9c8ee26646b, 0x5411262d63357cc8d828024341d1767fc25a09724c8c7a7f3ddf6701d12478e7),
(0x5f4128763774e9de6f2f25d8a1d98de9edf959a8884643a4fa18ac7a026d6308, 0xd3f6eff0e336d4f5abe35a124c47ed4e5dbbe6d87d563fb18ea89242aa454411),
(0xc63e3b34bafd384b2b60328b4aee3a28c7b3ed308a7cde4587aa6c756c49c2dd, 0x724fbbfc11d05623a5cb449ea2f9f65fa3de167aa811bfcb6ab9c3d03b123ad7),
(0xcc92795ea0be5e79757a86b5147429eb0ca7a7c7d51a8d3c936501784f6ba5b5, 0x92053ab3db369d613af1093f50829c734618c1d3610ebc57420d2824935ae2ff),
(0xba73d310b5170cd1057bbe1463bfe944ce7cea801b1aedb2da3db11df1c7ea5c, 0x04114e5515806ca6323edc6bf0b75a92834c72ff9579d1f227fdadd6d773c577),
(0x06047bc6fd3a1c7b9a36036a941395427d9432c0f652259e1d52d709e5088b22, 0xbb119bf45d8ac9bb1a918e6b95cdf23e6e2ccbf0171579f7ecfc91266d236b8a),
(0xa0600a7c484559cf3da255c4935d2d971628fe8ae75b88bb1f3c4ecae68f78d5, 0xa439ac5842bc6ee8be096973d87598da349929c692e37852e57ac941eedef402),
(0xbfdef77e1efac235c1c49f04290f89aac2e4632c85f40481dfdf5c590d479e2a, 0xe6e451cfd76433ab1de855119abaa5c78e4499a5fa48ad77f098c825206dc7fc),
(0x81ff778c00373975fb041cf8ce4bc337e2c977f2d6bb2c619122240b08e21234, 0x3fc02adde92c9928e94e0ad0218d6204d71ef2954c32227d96b30b5b9a61f640),
(0x84c4653cd1af54f3fc59dab45bbaa47048f8eb134afc8f5b60a8974acbf03933, 0x98ff808ba468213968b73ecb67fe0a3285dace7a19d300ddbd517e3db04ddba9),
(0x9d7ed86a69f39ecdc448de0755197029f81ee8867c9a61b962d13eb3abce35ae, 0xd9b27e3941c6bd1d87dab6e932e8ba571dcd2c5867177ce8e7ef0fdc668fccd5),
(0x540b7fe1ee263e6b3610bb961071d817b9cdd162077aaf2887e7e5fddf72f5b5, 0x6638015d591305c17a598a44ba6871cb8d1d36283ea25c5c846bab2bcd910340),
(0x4799c5ecf1fb2112f479abab217ed0dce936c6bd14215eee6bbbb34fd811cbe0, 0xabfdeb734ac738cff607cd93de58c0a3237201ebda47a8083bccaee6da5c5515),
(0x70a58362b360c280626a86987e4f2aa10abdc9f8f0b8c216bb88b0cc133c2312, 0x5e37daac0d2835f31d924659e51858ab68e3a874947360ebc520767fce4d46d0),
(0xf345a0ca857102b6e225dfc57ae1cbbbdd5c2737116adbd80b3d1f747d132b01, 0x16fcaf2df7cae2ecef25da7b3d51afd28f5e99205c0d74f0c1e7b36017eb2fb8),
(0xc3f4282b29f253d4fae8deb7941484e39d2555d3f96889b4551e7d8aeb2a209d, 0xfc5622488a6e83f16bb1530d2a35629db25c82802eea7057d22d109d4263ac1d),
(0x5542218f606e7cf39cf646a13677b0ed4ff61aac1dcea3f5da5dd4a7d4727632, 0xf1bce63ea11d5176f47e576f66817f454b51840ba79695e63a1a1cd6fb6c07db),
(0x65e81ed27d6b839e5c3829f924beda6398264de8b2223479438815824d124b35, 0x2a17e09ce4dd6e6a32d85d71e6cc2378b53b9356ee5790f68fc3040ce6b6179f),
(0x5066b022e43a5f83c42900649e2b611e750a5ded7c89b8f5892126f1e112edf3, 0x381e92b3e407c6c5d1c0ab406fbe1a9957643da9a2118cb13b8c62439328d9e8),
(0x8df78ac5c5ff1cc6df1e1dfb58ef889b1788643361bea73ba805c3aea83e2373, 0xdc668ddf5b39eebb7b692997f22140c18347e14bedb6d34396017e09d37ca4d3),
(0x426c17677d7b00eeaf8d7d301bb11cea1cebfa58fc54bf0fde719937fb484434, 0x4fcfa5b9ab7b71fd560ecbfa985db2f2418465f7cbf8acd8fdd71af57f9519d8),
(0x4f7f0061bb90e39663f6aadf70dd3312f781b2a23867df3c566e18f9b4a511e1, 0x1308473fd8956b3597d904c6cf73c05cfd7c075dc83848b8571e666ddc44b3df),
(0x7393002dd2e859253b23db696c1402588272a847d834982c5b22b25693685107, 0xb61532fc6706f7ad78548e76b334a836c899a49c46afa1f44579b5cd27641528),
(0xc41dff65e88e5c6ffca3b0ab6ae69bdec4215194cd7c57cafd9b38befeab4e05, 0x9a9ba27ba0b7e217d31340cb0acd85067f052d8bf92a4be1cf59fbe96241f0c9),
(0xf619dc9d6dcc39d29155082c2ed9bc6099296a8a982327f060fd62085765c518, 0x87961d3e2b850ffdf080d5aacceb1912120ddbc34e0ad8d796e74afcaa4871fd),
(0x6becdd5df02a7bbcd1cc811cfb83901c46aa820735e81c29a8d4d4ea3f5cf99a, 0xa45f7dd18949f8422905c7ee836004a65bb106d2fb623d68c2690c14f181e39d),
(0x00cd2390db1e7c53f424a893c252966069a8f1516f60722a524578e3e5427196, 0xb817ed1b457633aba34394546ed410cd8140b9d2e7e679b63322eae5f3466e90),
(0x96cd96087f1cbcc9b017ad2bc78242854047dc3df98e79512fc09fbce3cd33ab, 0xdfdb9090c8a5ae7013b8faa7855554d73df381d788fd5569d3a7ef7df729d625),
(0x99cd75085e9abb745fe03e3db100f2c52a43acc94127bd8f83314baf70d72b4a, 0x19c98b682ded269a57e50e3a28b9cd65344000eddac3d3e9d8ac8370662ee1c5),
(0xf53c2afa647496ac6c1220e14627c138186286ef0b776449055f9238b39fdb20, 0x1598c4950106a20058fe1fd9b29140e6a93996d4fe4cfdd674ec10f075badbd7)]

/-- secp256k1_pre_g_128[6208..6271], /repo/src/precomputed_ecmult.c:14470-14533 -/
def h12_1 : List (Nat × Nat) := [
(0xc127dad53b9457b951192c795793734ad0a84671ff6ba236f53cc40f769585f8, 0x688e6264da4e9d1efe66f5abdb078c5698696ef353b3bd42c344b3f13d3ad744),
(0x882bc4c70651634c930384d13daf5a9141508df32d34818a0e61bb6540e92bd7, 0x5c456414430eece2fc6e95b37700f6089815f5cb12a09ebe8a87e37085bcf255),
(0x4cbc141f55c0b001cfd934e4dbbc2c2e04b5dc6872e3388f2388e54ce2a91bdc, 0x1749d8e530d21894221b2aa596541f1de700bbc1e3427140024f0a9b9c0766b0),
(0xbff117776bb9bfd6bbf872a13b9b6a6232465ceff16c3c75441c39ea2975528e, 0x9e7412e4ae49266958dbdc9ab7b1f4c5d2edefc1d4f0a48327f2fd69f992eb34),
(0x251416e5887b294fc752a1e23e991f1190b8798b11c97033e470bfb5b7bb6328, 0xe6981dcf15fb4b98ac8a37da267f1bb6a2a38b863919d20f72b5bc34cb5e329c),
(0x0bfe2490569255d1a62318c8416e911466dec59abcca5df4e64c2f4846d050d4, 0xf78bf673577508c83846bd5a312b92842283c47ed4df765179d33bdaba6eea54),
(0xe50d0a7840779b75fa121def456865d93d7bb9c5d566d79058b1b56c3fdc7b15, 0x2f2688ee4abcfa529424d4cdeb40a8a6a6de26b1be8946f1e4ba429b5b32a6c8),
(0xb3a9d7ef235df6ef262e177d19bd1121167a056a3957ffd2a3d22d009a199bab, 0x006a7adf40ab538621fc344777c974166653746044113c5ba73455bd9658753b),
(0xec7277c420af5d483a6247d3a1da724331c0e35a85d6057d55a3e526bb7962bf, 0x2dcd3e8c5abc47d40056bfcfa808688989354e108188fb0bc9ab45787b91d69d),
(0x91ed86a2330ef91d0e085df2a947c9def1284b8c76d9b4328dee9342bd297242, 0xfcc226b0c46a36f3ac56ec31bf2973608375f0f7d248c669f8b31ca99d056713),
(0xe2a09eb66e76b28736c5824f829afff20439d9730e5be5b4f3c55ceae83bbda4, 0x6b217b22123bf3db0f35845f315264c04a67ba18a49abd086b2acc76ca0b016c),
(0x78501449bd76ff1f58cdf2e9203de4d83325ce4501bf106d2f474e91bb0545c1, 0xd0bbcc92acbad044218a830d5f461332cf4880034b6f89fa2f58b70863aaa585),
(0xc3626c4895df6e932c79d5d7eac22ef1d7679f1b1df1259d2be08aaf7217d978, 0xa594df74250bcb50dd9f294de7322b25f72cf935700856e30c31fc5f35e61b67),
(0x5c6e0358ec09945ac4240f223304f74463269e16c4f87dbb99bbb744bb4afaae, 0xe6168dcbd719ad058020dbc5b03ec4c061b1fd87d530913e6df5d49869e340d7),
(0x4a3fb364d55fca644cc03c405a5956b8a794718a5b43cdf0795e5d5d5f79e7c0, 0x4c4e0c115f88ef66545280deaf9e3d593ff7d1ecd8f2077970ed84a78d660d28),
(0xfdc828e6e305427dc925de616f57e13f5d0c8777b538e51149cdd3041b022d05, 0xde9e1037db0dab0cfedd85443b926a3688e8bc5407420b27c65e2c6dbbcb1662),
(0x6d70ad6c375119a0f4b2b65f51257d7be73a8d69ab944dcb232b8fd8e7021583, 0x31de3a22c8e8034a0d812a7d234cad97978aba7a1c2996b7aee623f5858770e2),
(0x0faa9dff68f63fc57ca8c39d8d950c2f78a90317c5d7f78706ffa035fcce8dc6, 0x419b6c29a7c02ea6c8b7ed5bc9b6fe891b3c705d2ed2707f3ef7995c81a17de0),
(0x53d9472b0eb9a020e84e10f01d5ed8c26219d24aeab4cd67dd30f0848fa47a12, 0x624f4c9c64c028329b6ad395dd51f96041eeffc3b323876457d21f85d8c674ce),
(0x598daff5aac2831e21d5eff6319e563e3208ea18e3ffe13f2bf1944473292f02, 0x3db6686902538e2fe3689a41dbb05504bc86dabd0e033fc1dbd7f84ddd4e18c2),
(0xeefd321d41fe6468a77662765932449ad3956209c4c6a548c4392db9b4e39a97, 0x6a372971d5515d4ec691b3cfe73ccf6aa491df97570c9f523f29b108c626c319),
(0x5a3a822549ecb78a9c5aa12a49e02c5e10c168ace053f85f3092172496177ee4, 0x482a65fbf57726d9d4ad61c675cdd5c3025b6e59899366a53ddbf23996016448),
(0xe21f7d4db2343eb001d23d1c5ec76db989e1e6242fabc41ab204ca64838eee55, 0xfb64c87dba7c54d6f1d68d7fa49d50b1bd79d699a75227e84363ed30430b2605),
(0xfd688c92f80983b8496689aefcc0820aa3d91fb2aa4d599af48de5b098ed491e, 0x7f946da99169612bdd6ad8b5d686052e3ff2561021432c92f872818729e860e7),
(0x65594f340947f182bcd1703cdbb1ddbc4bf59b2c2fff23f41d363631cd54af0f, 0xe8d98a21a603eabecc1a1b839ccd553efa5eb2585dc94e10d134f40a63b5bb1b),
(0x4f47f3b98bcf3917464c07cdbe99d2eaadf311668199324ed120d087e14789e7, 0x279da4fbd718e578b10d316b9994dd05ffa05431f85db2d66d4327d368aac28a),
(0x32cd8b52c027e4e17991ccf56460f3dc1d2ea6be6434067dbd4880e8a09196dc, 0x1d3066d3769617161882da20e467e0354ad84041f391a0429e94d8a005d89807),
(0xc454b400c7946f9bb35003a7c51e8037dd03fcdaf0a19b14f8daba3f310d8bec, 0xdffa765286aecb652744c9e0212296871c305d916279b4140001ca1aacc021b9),
(0x151b71594fce74382ac830256d98abbb6ca309b664ef02355349534234f7b4f6, 0xfc61aa0d722156b5dd7ffd24381005891bf236bea41aff71c3f1964f15978a28),
(0x59716aa96b60ebde848783d1a686e9abe337b87d104aa3f94cc7af46ea8b8710, 0x2e3062d4a7d290eb0f53ee3831dd8e80354fd67162a01a4c73c57fb34582d345),
(0x818385427622429e832e7a50b1a670e12a626c3b97cc69f7abaadd5a44a92395, 0x18a88d63d42e3ba2af4b6c369971b0b935363e5d774171160b58de2d8b6afb42),
(0xc95cf1fcaf7dd741479a54ca40a0e264a989f0da99b3a1b3c4f67284c8ae2a75, 0x14b32e2699662bee51ad8534fca1925aa835cd009807c5e6915b828363872f76),
(0x9362c939ea51a6492ae2dc2bc01e4bfeccdf4612979326682435bf44e9c6ea1f, 0x944684c52cb534b104871f4841e889ad933299bb474b392da1e85ffc5763c2e0),
(0x8852fd511e5f5e93c6c3c7b84b0544afcdb7d0b8497d4bfc90cb732228a77040, 0xb0ea5bb9c338a6de7333b4cfac29f9970036c248405facd26ce438f9cb997a13),
(0x59105318491ab2662fb94506532ed81b74c8f82ea13581aeef6c0c7780696ad9, 0x3417191fbdcc1dd143323ff86e6051ee921dcf699eda369aafec66ffa06097ec),
(0xc78bb7018e96901d3f13681eecc24df965b124b643f72904ddf00ce8bd28a127, 0x0ef07ce81b9c1cf126108dd5f96ff86be0d49bdfad3d518b1004b3c94c79bea0),
(0x9eb55ba52b5d11ae3d419ede5a5480b6c2aee9216f9aeb4a96e51934e8e4c11d, 0x5009496325b940222642ca891fb4697a5e643e5019670934999374320f020eaf),
(0x79ca2986d40c7786dc4d3e6f71c33233ad0b65fd96822383c11949f1ab42f5e1, 0x275db48afab1f0db188e129804b391ce6872e21685c04c0f03e62d42d1e6d310),
(0xa2cf65b8fe2a7abcb78bcdf3f25db18f432ada891ce7d99ffaccefe8e9673463, 0x418e9be4f6a1dce9200823f05a6a0e317924a0f944c18b2f1602a2fd1ef13a72),
(0x7f6881f39f4684d13bf35c4bc350b64b28eb3c442adf05fbc5e2c1e0307fef19, 0x20ac47a9b954e805db6fa20a4e1a04f336c058f21946aff4d4c24f636bd608eb),
(0xabf40dcf72704e6c65502d17aa384bca5834a80262ec0de2fd46ca2d0d9316ef, 0xf605192ba8c56b66f3bdb35d9c1df4d994662b4185e8e6c29fde9d2745039564),
(0x4fbb0d5dada948f62877c6659cfe5f57c6d5be5c8cbb7bee71cc575af4c92989, 0xd229091145c718d50243e1ef92b8f7bc2c77af95f8666ce81590046235d1c3dc),
(0x6c62710dd0ce5eb95196e2027c3c1d125a25f329878b1f38fa883146b8ccffa4, 0xc70ee1dc174a6a4b0908b54d069c94ec5829bc8df6513c82b0fc02cef566dde7),
(0x83ac175ee220c800a40adc87df8450a3963015a52c9e9497602f930c37af6c12, 0x0b7dd93295601178f6db7b5f98046d7ce42371ab034e5f1131f7cb3159d37994),
(0xc823727a348e275bf52c18b143653c3f8f0a5c0ae8f48432a8016486ec3674b5, 0x760237f62222cf21fe1813da4cfe9437edca8286cf3be63b5bb05560fa71235f),
(0x388b02ce506784cf2ec7e315e765f126023f764a7d1ef836fe360355cb3f0517, 0xed0998cc9069f336c938b639d6a74e8c672a7d2a2fe1dd1ad7e18969e7e57b20),
(0x517d4da9e25f9eaf7ab6efcdcc00e6eb7bfb975de8287b2bd7d159144b7a981a, 0x2ea7196ba14b60c078444a202b67fedf8fd119a37a39738b17694cd4c0dd712d),
(0xeac8927554b0f71c4ee802604945c5e5578fdd50ad68c4782295670a80432bee, 0xdfe1ac53dc9e18b71a930e73cea36af28c8326eb3615f858fa1d3884446f59a7),
(0xf77a0877e7ffd2e2cba9f0b2c419e886737111257cee4480f65298516013ce29, 0xfb245db729acfa2c145011f442c9d4805fcb0be8b7f27dd909d532f6aee2d57c),
(0x747d96af094b3ae34cbcec25fe8f4b74e8d2077e31ca25206d0d56133a49bd7e, 0xb13d780b8d322848de5463af3dc9c6fb4cee70e0da4731db149162524b6d8d4f),
(0x9bf6ae066db68c504ef9b1cd6d123efe1d8608c53a1a2276f1f44493f8b5bf72, 0x5b0080f70694a7560f306714aa9d8b3e617b7c5e84d862be470df13de79c8994),
(0x91d0275de99c876b0d6de2cd0481fd7213d9f6f0e41c34444790dd80cbc72e72, 0xb12126c08b03b04060183216d1468246d32d834c57e687a89ce42ae4d4eba7bf),
(0xe3cd44806585252c8eb09442742220165ed4cb90462310acddc769b1b9a111e2, 0xd8821a94f1bd3def434557ed4739d625c74548d144bd370b180fc4d9ee04afa0),
(0x3502269de8a68ef1a0d74a0e1423de9499b84d3a1fbef636d9f38801ed00d64a, 0x9c4b62598c1bb627449800bad9e93c7a265114eb0099f9b57bca5b6a72e3b302),
(0x244e51daa54a3c4d69f7a53e6ef82bf47907bb407713f5e8846946411daa2ec3, 0x61f00ad5f30928caa20cd38e5af6b3faafd4def2f84336094f08e82ed46a0320),
(0x4f00186b5d6f042088ac1221a13e3aa460190cc22bd8fc264df81f441e508032, 0xfcf581490b8ab94c67b30d734a3a5835c7f89e446aa8d2d9291c5f6cb17b2e3c),
(0x10a96b692f522f4d58d1c9af463ae37173e6f72d93aaf7566267b3d2f62a579c, 0xfcc7a656c9d72dcc1540a6385132813585d3a0f40ba5242ff5aa35f188ee3070),
(0x0ee66c2c2b19242f4d7a22bddf36fe3bb5c151f701dd8a8193fbae5223064f9d, 0x9d4f46db7639d9a695d51d1e44b08d6b4791e443744042e5cc9e3933cc27aefc),
(0x872337c4e34a3dbbf4b274a0a47c1398f78ce842fb11b994b550e9e2e21934c2, 0xaa8a7840d6dbf62ed91577c88b8c6baa69e01f945294e3fe4ccbadc4c1d64221),
(0xe2eeb213bfeb413a9093be1a7f75820e5f48dc348515ef1c7026c1169be224a6, 0xa49c846e9132e0399d66da3957cebf1d2e6738313a89f682c28d22301792d36b),
(0xfe264a9d63932bdd5cd4629adda37c9a8d2bbb1f5809d33380a561a966af74c5, 0x543b7920c6c27b7a515b5adcb8d144ae64118447dee2163801d6cfd25627fc53),
(0x13806a302d32152fa1ee806067b07cc8fce1e67f16f21859e7b60de137debf51, 0xffcb11507be5c2a8902379235335b5754cd83460423ece53018be988c7e5e978),
(0xdb67e361f9d91cff1d8b99dbb7bd2584f1b91cfd77473802f603ee9ddebf4dfe, 0x6407a1337604fbb9035fbdfb9fd6e2a4ea6d8f28a63e7524172cebfbd3331e2b),
(0x606d4f47d1d4cc583e30f214e1ee57cd98e68b6c91c852adcad6c32c989d8bd8, 0x819118918a074dd6ebfb95b1c97b4fd85ef0887c15ae5e88ec6e97b9cba46701)]

/-- secp256k1_pre_g_128[6272..6335], /repo/src/precomputed_ecmult.c:14534-14597 -/
def h12_2 : List (Nat × Nat) := [
(0x51d60942e93fbcf7e230c11677528c0d3b63f7ee64c1da65692aa91caf482ecc, 0xb82db22e3f1048076338369f0d77dc11d982296de630af6636cedecc108ae433),
(0x2553006bb847447329108ffdcfd9c91d22b7ad2b06a0e7bb72f98a0b770da376, 0x6173583ee6b238beff3cd6cc9bba1b48d89dcf6f481868dc773eea9859ffa871),
(0x52e35836fb0a1c1fefb092fe3c95bb3226bf9aaf50fd1ddf29ef0ba4b100d794, 0x639078d1cd1cd22d135ca950d754d3f2bcd11a9591abb6c7c4a5177c53adc86f),
(0x332e02e55c089c8482ee9863a4dff4eab01a7a834747ff83512fb56707a8ee3d, 0xb1edbfc79c1f926410c4cc3b8919b4f4e89bad8f34135af5f16b1c669a28b87c),
(0xd9113a617d5a4a752080931a84bad37bce2f907bcc05adf416750e8b8951435a, 0xab1f66e58d3a58872f664b566c2468dff9d4d76ca73111bf57e10d1af7df7aab),
(0x71999a85799030fab0575523fab4111cf4b60351e03f87031f5a852af22131d4, 0xeb171070d612425509adbd82565c8dd3fba6b8c0df9395014223b2e6148668f4),
(0xa9436d74a39c7193368ccbf0d24098be4130966887ebb8d84213e0b3436c23cd, 0x7b93ba5de2ad9b42ac45ac8543f7ae597300e7458fed1359bc392015540e7a19),
(0xf6288f2557359179cd3659c61cceef6dc5a69631174f63ac115633ef83530b2a, 0xd54f0f2d51a365dc7ba8b63067ae663cb4102e2c59cfa616b88784836ca85722),
(0xbf685c41863c9feedff2fdd4ba47d7261f0fcb6fb0432a8a3b7c4f6d6f52700a, 0x336b1d5743ca6d2852e20cd6ab27644161b2ed82ea4e0051d88ea92ca66828c7),
(0x672eaa181009f3da3fe74eb74b479e244b73b54f206f7342eaa865eef945b00f, 0x3f056594a113cd63810adf1db76efaadbabcd42d347282c2ce66ad5437cb89d0),
(0x299deede3b6722e44c5e7600214f85aa4dd70ac9df75cfe6c020ec58c8c859f7, 0x92ecac9e4a6326a78b01c0e36466723a3d00593b06597b6ee16924cd60105137),
(0xe4268a687e6c26b92cec18b68581bf038b25544e2040d5057b9823b8b01c07d5, 0x35d1c37095a9cc03f91db5d4250a904fb9f9daed9388b5cfd6a3699eb03c30c0),
(0x007164e90bfa6adea42bcc27db38cf5bfe908499eda21bf227063fb6369b1ae1, 0xa2367f94fe683e071cb7ffb4287cce88b11336ca98e6769e178262a6b9103d9b),
(0x084d8d32a4be74021c94d3b6c0913724b2db26fd862fee1bc467a37fb98b299a, 0x46b9214546603cb91cd5ff05a237079ae290b49619d868f28143d66094e61cf5),
(0x60372ba5d0eaaacbc144597974a0553a06e63c4d15001b7639f5d05b84f626dc, 0x8fab368bc4d011aaedf7d98c2e6a03595737b1bdbf701060d30c9f0ea8e8c847),
(0x453c17f55364f812a7da0f75d7c074b181cc0901a938447cdf55ba92a7decfbc, 0x53d465f206d3d86ba76ad1e6f147d208474989a464ceb6ce79972cc93e2e2c3a),
(0xcf1f79b4b765a8942b96727185d0c2c4dfab4c4dd679693a4b35b343c411cdc4, 0xb89916ea4ea34abc63b9292f591b5c8d5ce802df09d4f2be275ef244007e1ece),
(0x74b07994b7fe3a27eff2f9aa72f8746a299f9eb781f09b15f3ae595fa0c4ac37, 0x05464345f4873a6e9f4cb569acc8e551a9acff9e5e0a92cae2c3f8001888f905),
(0xf9de154489b7a06e40115de1fcb7897af6bb2b915a1e89718d5d5ee868bab74f, 0x789b5c552b352db34345ca30328f542bad22e5cfd98e5b8be85646e8d47a0e6e),
(0xc011f3d1897cfe72827d2cc7c04a6aa7496273ac11f0df1027ab4d69aa745c5d, 0x8e31fcd83842ffbba600e771feb0cc2b1fb257ab7c19fe6167802313cdec95ad),
(0x16567ed24ea1cb2a15418d66c70c0587386201f304dde86b082f687f95229648, 0xfc4aa80545366f8c3ee336f4051397e37f78188eb6dff3ced80c7e7b6d9f7cf2),
(0x8cd33d569acd3607979b3c17bf5c2175ef6f34287a25c18e89a1b38c0979d50e, 0xf4312cbff301e94261b7da0ecadda424336b120182ad73c3c907be8d840f8614),
(0x646e22ba399271764e1df1b31676771879d7a16d587b9e475232a33142ea2a5b, 0x55378afe5f29feb32a3152ba4d83305ef77b102579154aeb7bb8b8efc5958576),
(0x2699d984462e1fa6208a833b8af2e32f58cf2d027707b4fe2e3f888d82e8e2fc, 0xed6c46a5c51217555f236a6221399a405fd87fcaf4cc6603fffb440d54b888c4),
(0xbe4b66313fd3e2fb163530c72fa4a41be36d04b2638315a91d07de72c4ced54c, 0xa7a7107783a27b724e8aa644a88ea181c770cf6f489829c66660c44d45fd2ddd),
(0x1f2ad69da1438b510fe02a479cf865e218bdbe01259b08181b6e7e6b762a72a6, 0xd4da99d57aa328df3c587a452d756baefc09c626fa5516bbc8781b9eb1ecd29b),
(0xb1adb241721a162235540622f8e84291e1c2702d70cad33a89aa3806f7acda43, 0xe6cd932412542fc425b8f16cc0820f3f26f33e111ba0ca5cb5aeaa541fa3d9c6),
(0x00b604e2f06df2661163604f2a1941ff4d6991fb84796c40ccbe74e4cf68e207, 0x306936eee887427e6005b265038af5ca53b3cab9a3aebaaa96556c467db96e88),
(0xafb935fa1e30617a9b4f26b2e7b150b3f33566b47b5b4a7d06223fe39c0dced3, 0x83624f4366dd82d68e4cd94c464b6322db0b17749fa1125ba0944503b0c63b0d),
(0x05cc7252a08ff89293022eca0b56a5e9cd2eb4c471161d155d7a51138b12d235, 0xc272b6cc42461529b31943fdfcb51a597a0eaec3ae8c2754827fe1cea182bcc4),
(0x6c17c2067c72a1ba410f2446e4ae20126eccaf88aa4fea14522a7607143c1122, 0x7172af082adea4282f6a3cbc7946db2fc017097550ad8ee7f4c514e5dcd693eb),
(0xfd82afcfc55d226b274cd62f385e882f0716210f9a14be15baf7e17f0b98eac8, 0x4aeac666a11538516d66390e6c7818d33de26fa93d234eb85e4d5b42853eb3c1),
(0x3d0121e6c758dc918ce3bbca1884788b207170751e80742c49b202d30c2f8012, 0x0ca6b47b306cef6c662bf21f77bae3c42500956172dfc630e2b1a6dae733413d),
(0x488306dd3bf3bb5f24160f1d67b8c053bceb8da3cb1b05ae7ae9fa72e3f7b0c2, 0x2356a8e677ae2f066135bd881fab5b4c6aa577693e2d476a1b2a4db7fc6c27be),
(0xd7e914886786009eeaf12d14a23ec6e7fe41e406aca5a5b747010ee88441d6b2, 0xc98389a9143a8fdbdf4a67d87c05cd4dfff75fae845e7e6226c61aff3dc4dde6),
(0x873a28779c45280e3d1967255da756d0ee5ac567cbb7c52dc8e654a7ed78a1f1, 0x9bb9672ee76feae0d52be301983c182dec99b228defb21665310a4abcae7eccd),
(0x410a7c9885f531ab46d99b26b6fc2576097723e4bd9b9c576544542e2cad2ff3, 0x8bc9e6864f139032cd4431484f43abd43234e3eb3825a0a7db8176becb5207cb),
(0x39269060b38b4abb107c22306f541353d86279013399b3688b650ad4cbf99144, 0x780c29490aad303fef8fff3fb9734551b45639cd9437935fd93f7d95bc9d1aa4),
(0xbbc52d2636e861e13e593d4ac6ad573ae4698edef101b3e4f4aaca540325b9f9, 0x4a311f449f16bfb604c5c5545ba373e9fc41b7ecbeadb4a6a929cf0d79f37922),
(0xbb74e6595ed6d9319716b8e6120f0cb057dcce87150cb26acbdf5b1cf86ccbcd, 0x9f2385a3bb460cdb8ec74db8fc5e6014f4310665c5b69e1b0cf9620301afe085),
(0x67e64d65badbd97abb204cb4f9009f5a973700d834f6b6a5395fbaa2c6eb0672, 0xa122f76f67490b289977d7300df544f7d725dfd093135ba44bb348c9e4dd3303),
(0xdbd294bae0775f43f58ee6776240eacab9b29ceb92fc3354de4d4b2095548050, 0x1987ba2e03ce8ef05b71acbf4c69f706e2cb4d6f354f0fc653a7a9b95dd1c115),
(0x45c946f393658d3e589fdcbb6895c97d603523423a3676df680b6bad0de6cee1, 0x629c7238db2cd3e529e5b30fa8ba5629dcbb1ccdada1eb22294f98f04cae2d00),
(0x33ad0e1444be77753fe478752688e3842be7ae067d38e47306b7dbe0c106e14f, 0xd89eed786518775e1ef441d5fe51c4d4b2a1e377eb1a4cf7804c2e1a5175f1ef),
(0xf9f781614cd463fb6e3582740e47812b4b0113d83f426aa785756c6fb9e7853e, 0x5eab09ab51247c76f87f592d077e0870238877dca47cf6b45fe72940ff4469a2),
(0xed3015a67a1fec82f0f7a59c45cb69ae8aa0d8830039a05ff6959c9db7d761c5, 0xb7c94a9c28389f1d17bdf197307411fe1c395483da8a097afb3b5fcfe392e16d),
(0x301af330de741ec561b71fc3c5048a426b55d58f800934f5c59aa8f5914092b0, 0x3d3137d8262d196d872fe1f98acba295fec02ee130aa4c198c888765357b67e4),
(0x21e197a785953a90226c1ab0441e35a0fd8444b192c0e5ad65588063f40c1246, 0x6811f94f18a9569d4df2ffa7fd8d75ff5f66ad1e62da2a60c00843814437a2c4),
(0x325fcc8c27804b7ce73d668770db7f5d3ed4b6acfeb04003c61d62628fd41385, 0x2110e8d724e3a03f46183536b208b5958586202c2e69b954d3ee1500021ae7d8),
(0x48597aadec69eb0d90f60e6aabf831291de759f5eff24d818677248bea87d945, 0xc3fd850acddc2597499be90c024e249b328728ff5443fbd56515a6f04111775d),
(0x586485998ac44bd20e937796d8dfa60dc56d94c4d53cfb77ee0e380a53ab8f76, 0x2f47f2786a2854540475d3c9ffe9ee44a93e15cbb17772ec67a30943d3191110),
(0xbd2761c5722288b1409aa7a5db7690d273dba76a3847d94e3e3d3a7f2dd35597, 0x425907136ab6745d5e573412663d4d9329c4a2844430899d68e5ca64197ad58c),
(0xfac9260f1d4203717e4687691af8c270dada5d975ceda9f264deffe91990b52a, 0x09ce17c1ebe94ab4e092d1d5850194d17e6a87e67b283ba4ba68640a94193314),
(0x82e65b52e4585ec14bc03591249cf4bce5391f697b813175b3b4b403a64d6877, 0x627e196b42d327be485263182dafb37e222578a0ccbcc4437941eca4a82ac893),
(0xb9473eb4dd002597464965e5b6d958420543cd14e18c95d5b45bb654eedbd6da, 0x1b6e80a5377ba31fb5b6fcac633321e7f6e5b2ad4a54e143e963effd6805c3a9),
(0x31113d994caaea4040182db017a880ac64b183af1746b8202f29fbd0d1bcc524, 0x3f476b72eeeb7c27f9d04cba71ac54aaa25ec4ab15d77e178544a651653e83ad),
(0xd04adc5e73e21fc108c3b0474d34f8cd1cdcebdc05dabf14e258af57860157d2, 0xb21150d6ad94a07cd11a81c7b741a2f05cd6a5aeaba194ceb874bd19bfb6c326),
(0x4e59356bf280f51ac492751b3b3c7c2e3fd1fb58679b4fb55abeeb65bce6ac2b, 0x33a1ed9a1d9c34c842b95e4a108c7985021c1f0691f3716a68fa5c5f089dc73f),
(0x53d766859ddc778cb4f719ad55f74fa785d5230065c06b1e4aafc56039ba3547, 0x168b545129170fe2c53abea968a25dcc2719090be0814635a1dc726709d83a01),
(0x7e9107a0d28303627e53e06d6e82efa80b1a037a328df546a6d04c303037a63f, 0x222d8b812a99860e87fa24e0aaab4ddbb903cbe639c46cb63f2144d7f8856489),
(0x6775b2d7b23dc08abeb65049db8552f5565a092ffad86865c17347e2a744106b, 0xa6f23c87fb639e669830ed3334c6dd426bab0e23aadcff441d4c73d1a61efda4),
(0x559885b6a54fd0dcb275662ef66566e287a17219e9c02f688c1cc8f56f814673, 0x2ec87df5917d1d7bf217621e82c31844d2bb138bbc35f8735b52309abaf800c1),
(0x6fb774c12971b620b40a17ec74dccc9a8c711844a44a3e4de8310d47bda53428, 0x068ab0f657b823e335df55d1ed9632a8f0825f678a05d5eb9e115ea3e43ff4e7),
(0x623c155c2787396e815ecfdb5f03bdb7282aeda17c9298f5306ec10e21dd0b90, 0x69382be3a4bae92647252910ad1ec62ff4bbcde56259cb5210ff21586b111f66)]

/-- secp256k1_pre_g_128[6336..6399], /repo/src/precomputed_ecmult.c:14598-14661 -/
def h12_3 : List (Nat × Nat) := [
(0xc42c41e063db66dc9b32c21caf94a15814fd5b620aaa975d3ca06925f6d6ecc2, 0xe93159a3ad6fbcb638f7b09d40601189cafbe5c590c70103b56fbd47d36ccfba),
(0x1103e98e7a1659ac4242ad9d6fb012d921696e58413f71aae19fff6f1c334fbf, 0x9f2d4667ce5a1285524d91d9265d7a5dda9f5ea6cd508cf590076d57a975bc62),
(0x9e113cd59e7177b919859144598263cd630f72f34da00ad9849640439d82878a, 0x6a09bef76e13f2f68e70ee9005dd5af4495f5965859a1d83ef149f672643c9f7),
(0xc03c5ebcd04bf8a2bdec182b32d8c7261913652fe45478923e0dba7a1fe275ed, 0xf567e3c74b9313c411ac941111f1b62f74a16f79e7d90817b54d4d89958cda21),
(0x205c4c447b84661bcc8ab2f0221343f4140c9efafb107c59b5095b4825f54b24, 0x94a10344ac5f48a3600309ef8ef94242a80508653c018e57a7734d9eda18a55c),
(0xe393821a58c9e9c56e45cda0334bebc4359c4b3c1a60bab3f1dce2dec1da81b6, 0x5469cb0f4edf5f47080df6163a6b70747b26291e8830d11379d84aa215814e6d),
(0x38fc36b7a866b165a424f0ae74ca34bbb05922d501bdb4475df797ad4d042e2f, 0xa9279b504b3edff3aa8fe0393415c21a556609bd8089383ff5dbdd34291c2b1b),
(0x1c4a1aac3c3247d999a75a00305a4092c5f34321d3a33b66b110331c85be2b27, 0xa10e4138a835e3b116d7b6c946c752e8dc92c39b21677968147a3cab0fa5a0f1),
(0x41d70c82207c3b7b716a2d4f784302e7e1034555a79965b7d951ebacb7d62c00, 0x7311a36fcf3de54637013e84b2162c353eba03873d296427220e5942af398bac),
(0xbada1cce0dcf3dfc9834c49d200fb82ab13cf2d3d5da9ee5c9c35448352e660a, 0x42e0d3db511cbbe7942ff10da7d49805972d9373a75545b7206e490b6c5dc651),
(0x233c0c684b9fe726baf2b7d700a0503e7aba8b1b3c4f28d94d0951072b429bc2, 0xa7bc02a602b81154c3bce0f16a0b4f77d412d1621c71337211ac1c61a8f6fa28),
(0xa675f208a0d4807893525e1fb6c5be3b0ef24ade8d3ab14aafac550afa6362cd, 0x3f8edef03e0600fd1fdf10e7c5562ddbaf4266a152bfca590e1235d7c9e8223b),
(0x4adffdf7a8a92b656f747fe292e6bfd2cd3deb68ccfd7f015639d7797d21e48c, 0x4d4079afa6e8972003a5001592e43c6e97fa1e5711f21befc9df4274441f7d81),
(0xc786e96dfa658a6fa9f1fbfba15d7021835ebbb43e8ed3a20c7ea573c2944dba, 0x811304707a10b1e874f5b856b7223346eef3c5628959454bd536494af075393f),
(0x10df82c464b758952c54f3356fc24acecda4578fd34ae82a8a1eb2e3d0830349, 0xdae5c27186031dd92eff2db96af916892a131cb244534495c3562cb8dbc5e1b0),
(0x55532c4cc4483aac26b049d7df1da7e1ef281c7dbd99d21b72626443f2c748c4, 0x58160e32da446337d0642596c17500f7b0e640811017bc1f4452c4a68d2c2789),
(0x0fe994c5d63149e0d31f6cdbfce5b941239c4adf8d5e686637990411d88ead47, 0x200532b84ee2fb18b2c27cd59c3940f358c6a2c1d96ad0434d826c8c2a457dce),
(0xc7690e5b3148cd96592e654f2eed33eca69d2684545cbadc6f6a7e8b4d3cfbdd, 0x98e0018c364238546dede771b78bc4b80c52d956d26eb22ae447ab3a144cd394),
(0x8f1f0986d273476fb31d4ddcde94958497ec74c9acc6b0eb0900e4cc2c98cac3, 0x31f420f4b92096571656b663a06804fb785970716c138106119ef21443aa765b),
(0xbee7ab1cc23f6101be01ed600574ffca70fbd4dbae73e5c7128da0659f78c042, 0x9187835b66b2b634a87d1baa7666bda3057dd5ed268719768e0ea9a6ed102dfc),
(0x8093581b3205e5c190e9d38b5b5ac422b48fb5a39176bf7a00e1d377c764f74b, 0x3a3e06f34c00cf7f6216e67f2d55236ddb54640f192897e9fd68820cbf22ce39),
(0xfc018da270dfe007871e0be7f5edfb7c30fc30bdbed5052c78a7701b50954702, 0x9483d20daf9fb123723e0c177905e94f462831c7dceb02386f0942e5188f3a90),
(0xf4ca4cab7f06af060d0a8bd797d6eed17354420d65d80e0932f6eaf1ca12a39c, 0x7677055369f930943f368b0f2ef6e412f3d5a45d1c7edc3d9550fdd40ebb1950),
(0xfb03fae287265749787de27684bfdab04993112df384113f1dd41e6ab438bdf3, 0xae8829f680f60534501139302aba238b1dc295bc6598c060af8393b51153b479),
(0xb76268c26b873f549438a5695e2d5e24a92da29aca26f18e143e329069638a45, 0x0bb4543e23abdeadc3377320dd8ffb6ad38967acea90afd323c69373eeb2407a),
(0x87db80649a5a31a60487893df487c00b143c09c8fe878621b592b25a6c3d8646, 0x872a4547520d307ba537d42affbc8e9ce04d1c80e3d4f506b001b0f479e92972),
(0xfb9295d5a7c2cda9c08b0f391fcdea4db768b086dd170d8a966516fabd476acf, 0x62496929a85c828ccda71d2aae70c4297bc12f035a99ff757d66cedd5fb5135c),
(0x96f749ed0a1fc3066d133829774293e0b179a598327c3bdea2e94200770d12ba, 0xc16915b8af011de70614fda00ce1c4a3ffeabc2e2e891e4ca2d9c277247fc8c1),
(0x1564d7b977b4eb29e7b23ba7a3cf453a8eaadc5087448fb0fd9310ec653ec66d, 0x6d8935efa7d41cb75c5dad07c3ca864d089e49f0f74d4474af85bf05c408009f),
(0x93db7b689ed6ad1dbb61223cdcca72809cf4a49a14d94f3c7cae77c8f1298340, 0x090881657b4979f726b156c9d34430db4a0af9930eeb996cd091ad5c4f7bbaff),
(0x2656af7ed8a2e718009849cd793baf931c23374a0a3b5596d8c888412b6a5ad9, 0xdca0f4b27c7f154797346dfc589374d61224048bead5442c9f8950f163689045),
(0xa7dc8558c0adf996b7f57c081b509e347819131d42647498ba819c126d26cbf7, 0x9fc494c92bbf611614527eaa1de4708af0c198473ee9164b6b9de909f6a4497d),
(0x1f6d4701effe09fa17ecc014a7a0033c143fbfacba4861cdd7ee2fe85bcb2cda, 0x84c5b01781ce481ae610bd8d96ffa58bb7a158e9d1cccd797e6436ddb1308de6),
(0xeefe37c5d547b779d905849e0dd1038bf054233bf2d1af471684e5c2a1e69960, 0xb5f00dee8b1f7960aa068db678b6b41af8c3e14b27c1f43e10f9b34cfe8eefef),
(0x8d4e846260602ee0948ba5c9f0506046d0bf3fd5e1b93073bcc8a6b330af96d0, 0x62d0e36bbdffa309f1257b23063275065a5e7999b314dbededc75800b35534ba),
(0xda22079d352d35275a80b95f80b7b8b13eb6d178310b6889a94cbf2b09a9a898, 0xe8b06b6537aae4280cd25faed0c1af8b0827b296886de122c6690a19fe94df72),
(0xbeb411ff67cdbb5e58da6353172813fe00e386c7955503951ddc23e5d4e579a4, 0x919f8f3041f530204d3620bcb0bc80e59d87ab73355c046dcf2986d3c9995866),
(0xb0a5732b76b4a526e8e742e3528891c73a1febb5c7657a904bc1f95b96d462b6, 0xa5e4f134093f9e2475ac7dab479092cdfb59a931dd042add3d875e2276965a9e),
(0x5a87a782131301934ce6180b714e99c730fc8bd4fd4e8c59f5b6aae2f3622561, 0xa929d12068a6495390c559f1ed8ff0d9bef9243166117208d0e8a08ade9a3d0b),
(0x777ba7aa6c50e92764ed93acdaf562859909b0317c3c5ab938ebba26d62a1748, 0x27a32172d7ff61eab6a26d00c252f99dbcf614af1434641d0cdbd5f410e6657e),
(0xad0f9f5c8fa07d5d3c18d4a57dc16bc63be0dac59166fb426bfca8f065b76720, 0xd2c9c7783caf2c93f6c3980e60ec0fcc1f1d5ffc08aff6afa912b5b4245fff6e),
(0x8904706f17aad8507a71f0c094f981e05e5a42d97f5cc3ed99b4f635660e227b, 0x371d5f58a63ec71b3cd8b601ee6225862822a2c399ac70f4ce29384623ad8198),
(0xce32a22002e276dd3f5b0a1038a70f2103c29ba758934c4e27ee3bc3c9dadf00, 0x00e43d2880486b3465e545d76618d80c56874afd29ea4ee1e79dbe5bb1ec1f42),
(0x03d031c0c717447e19266420cef08d590ac2aed47e84c84f8980e8edee59c7c1, 0x86eabd82d6a5f57ecdb52825a8c726d54a9faba36272441b022627c4a321d970),
(0x9dc08947fa3983dd44730aeed8e94f2c78eefc44df1268040281f74053330b43, 0x588382463fc02261c0e771b93d4a90cc0c2c19f702893ffb22fe6d5c6c5e7318),
(0xf9fb51c729646acf94ecadf730989d5e669ca4fb3b4dfe66dad9838af239057e, 0xd4a04a8ff44b86c317ce43501a2325cd46b5decf5f4e14e717ef0c301241f8e7),
(0xd4a1c33e816419c1884c28380abc7148c61f05d371fe3de89f06b580cc5e1006, 0x28d8f049a1daec885d186da266e2b8a2893d90c85e720d03a53cf8bbf8a10208),
(0x01b1c6ab74436126203ffd8d8e9c58b3e18f27673a72bfb4ae4c9e25ce17c570, 0xad28aaa50eaf7128fc8788e5b9c1c13ba4cf16e9f651da6b6c43fd1ccf2903dd),
(0x3d791154b2c062fb0e1f6ad1dcc17bd6b648aadfcd573cb7d29f9e47e089e1c3, 0x0a578f2d0a568b0be95e11897bad83113098787d62756c997dc3d7958e0d3745),
(0x6daac2f7ee7b01f7277b3a5a44785b4bc6b6adf9b112dd6a227b2b469f27940a, 0xfe9504e575c1e3499267624f02b2e60355befd7ed66d7fe680c521b5e0d1aaab),
(0xea6343d773a5966c2ea66806ed59079e8b216a9f4fcbe8f6744808b32478c26f, 0x15ab94e5cc1f4a5a033955f6b30571e25104c615c0aef2bb6a8f669364639f6f),
(0xffc78cf24b436203dcc1b892c77fb336463a8070332783c61824acb30f5cc55c, 0x7bfe0b6d666b28c23259c4f92c0dd94bfcf5392191d617dfda1c651a1fcb81a3),
(0xdb38103d5156c309671896779317879af31dcfa6b8d0f5d91f2bc6916090e6b0, 0xb5b3e45d9bd41082cd3115ff824ff02778f47a0bd0ae71fb32c48d72cd540c84),
(0x4c08de87abf898852791b455126e7e540d660903f407b8427b4fcd7053e0b000, 0xa9f83c6fdcea99fbfcb301ddc31146c825c029786e5019e87b1b6db0731b9189),
(0x53b6a23b8f93200c41bf45b2bd0d20a5e6fa5db9a3686a7cc669815b993604c5, 0x31bbf5d221023fc2fef75f0a0f7bc33eb4d38323cbdaa511c40ed497ef42a850),
(0xb39ebc0e53b74f356f573a401df6f8d6fe1e4fedf7d976e9949da398a45b464e, 0x9d58ae16a633ea0e86bad1de39f0b203c1ef0b24b5f1d82448fc606ca97fdff1),
(0x182e4920f4a60741a0b94fc3e3ff0bef39f1d459cd6c18fb16b072b8de0bd416, 0x6d048d0effdf4e608097cde546955541491721a3d6e051ef9279c5c022a32fb6),
(0x7a39e7e0a2da209d8cbb97975f12acce840dddfc5acf7c5ffe778a11829e1003, 0xc24aa08320e6a7861c161e14f37b1c7a65117e552c25244520b47b67066fb410),
(0x62e6173f2273d3ffd9fb640b87d5cb15e5df841e3462bc5f6b94575da110914e, 0x7c4240104ba37e5748404997689a01cb851343f1ea8259fc938483ddd70ac5d4),
(0x3960d4cd96de012605c2cc8868e94d6640e9ac8af2abfcd52108848c0ad62467, 0xfb24aaf285a54405f75db03a464bbc293bcaaa44344c763f0dd44656fa7faeed),
(0x463437ab42694ce998ac17cbfd4d9034ab7a1be035f911e2864441a3eff8e3e3, 0x370056b124b894d63631087b194dc5cafcd2475ca95402b8418f1954d47599e8),
(0x65774018fd428788e4234b3642c8a354770ddafac38040e949f194c0ff7ad3a4, 0x00462ec7cb17abb65200a88a9874c7f940469a51c48c1fdd6c0938ad67741467),
(0x738feb40e7f16fc319ed66492507406e6501308e5112dff4db9d12d3bc0f138a, 0x4923678b84470212cc5472de2163ac3c51ed5419dc1b1b1e78dc0946f730b940),
(0x546841d97985d80ba0eb34483dc5d17c441b7eb5d24b6216ab98b14ad320cf36, 0x719434a4952ee43ab1006ce6f7785734c6a5c018383eed750e3660f794eb6829)]

/-- secp256k1_pre_g_128[6400..6463], /repo/src/precomputed_ecmult.c:14662-14725 -/
def h12_4 : List (Nat × Nat) := [
(0x31143de91a4b96ebbe7efe31056b66885d39ce66fa8ce20257626dc28557ece4, 0xd8d8bd1836e5c3882273143e721bef10b0c3005a5e2fd3a7e471ae33ebfae7be),
(0xad8076d929feddae0a52c009f3967726a0a94301dfc12d59da63c47bdf6566fe, 0x39eedd6613fb7141796c035309f560ace23f844fd0d3d4225b36e41cb6707602),
(0xb01a4f7b9362be2e78f5cdbfd9e35f214d296a3f3e233d932cf33c7195b3f613, 0x245b535fc58254a2157caa8738e855acfa9b071c1b6182f35260da9d18e385cb),
(0x50f3458fa781d513a944ebd96f6b791a1b0cedec1421f9a016a7f3502d5f429a, 0x4972c646c1ad595818766bab5bf54ea90e9c4fe319810f1e27f46cc941594045),
(0xd7b606ede8fc3a20925e0a595c9462d94e04b5c2b64d13cc019a47d1ccf10b0a, 0xdc39a8dd0d5447a0f07b5e7a6ea35286ec01679dffb6eaea6222711ad57cc63f),
(0x7629836b73691a1ff3ae6c997e06f59734fb96252d1ec88f2af15cacf89c199d, 0x296e40348eacfd717f64beb576736398621142965fc818a3ea89ba521b1a410e),
(0x88f6a16207baea313a2a5d5daeda2f4b4becca6b0812a60d4b5b4e2206c822a1, 0xd3acfe53d6189ab831106ca82388fc285b567e5a051720505be56bf0187534eb),
(0x8e93c72fcfeae58dfecd373edd3f31ab3e4fa28cf53681ddebf37d40c376283a, 0xe9c825712d0cfc0de6f35e77acf0597a7e2437e280f13420cbe93acc52901d71),
(0xb2264df00eaead63111d7b058767cc7f36d386c7edf21792e8aef1359958b2bd, 0x242eccda5e4324a540e8d098cad23ecb88955bb1126314fc5da973eeb1d83313),
(0x9f1c9e907a6813a80da520f684553a4caab650a67eaf4f0ef2ec212b95a885ce, 0x416dae6bf47aeb47453fd0f47da6375d136b6ee2450bfe75504f361984a0f355),
(0x0dcc7585132b95e6a4a24450d557a0fc3ec93506fd1f5f0217bd0f7a6943fa1a, 0xc62ca95ed976d1e72bcad48d9bc3a316a35e8496952a7a070760ecbc8903b001),
(0xe3c674b1eeb380f3f08b1d6432f4dddd077cb602915ac4784f3c769bdc2a30fd, 0xfa8b08f98bb4a1b7568c9d3e0754292b1a35cede1b377c99fcee16ffa16bbe5e),
(0x1152da702b7341ff069e8d3e6f5ce8d3bdcd3a0327df54bb846ac8e918e747e4, 0x7c139d201e2ea5db984cc8d204b66c648adbd0c948c0b085d59c73ceb4d7a91c),
(0x3449cac4abbd3ae50e09dbc5c89258a3df93ead91f62fad3a5add3f987a2f83b, 0x197ecb645dc998feeb9b0df86267c7c3f7af964796fea60d88d4de8933171e2a),
(0xad5cc46811c5a39dffa313f6578acb000cdda9ceb375747909f2afd6a8df7a19, 0x4fdf6093c8fa8a927702982e7e638948b982d84fae6658bcfa8393546d6e76f4),
(0xacad447c0b57e8f5f528a113347e5c5a2097766ab4664c703f496635759a7799, 0x88e1b4ff3bf3e967d2c6c9484bb727a1d13231cdacc45463d421431ab6fc46ad),
(0xb74286a7e2699aee9802563a4da514ccd74fd001485348229214395b36158246, 0x8df2b491ea018b23b1c7fb540b7a05dbb79b0ebe1117e2d9ce73e70dd097bf90),
(0x86bc560b19d583b362c1634a139bbd16db30e82375913cd60fb688e438ceca4d, 0x0212616875c3adc6c2aa16ee2e02805209e6612bfe4b1aeee4961febf530423c),
(0xdd79faa2e97dd4685f3ff8b8d5e5559873736de39493a3f44e679516f51e495a, 0x2cb89020efaae7855376d9014d1bc37421e0ee6029ac70c465bdcdd1e240e57d),
(0xcaf6318f825ca3d86d45c68160d897d176875e26bcd36d0082b4e1eae6d8c142, 0xd7abc30455a5fab268c6d17c3763e5865b9e266bbc6211b948b5ff3d19f5df72),
(0xc49dbf1570c3f0ce1afd166f884af5501f26905d2f7261857c026405efe9a2bd, 0x54eaad708bdb7b2a59f5d69b5be6ed795fbc4137945be17cb47366496e8cd3c0),
(0xa87447c283c88db215630cb76029132f47dadd575ea6f9bc10d1b36d8317a91a, 0x8489d3c306334d65fdf6089bdf19c3e87eecd697516e17565fc8b977be82c363),
(0x7467b3577d21b028dab4100bebfa734d363450240adc60b110b8f96bc7860889, 0xb2978a5ddea9765f7877d8fffba66c0df7c8e0f46854deab21908da28572b1a2),
(0x6af133d9bf2d6b57ef69e0e7005eef6deeb82d31af490320bd26f4eb38ffd42d, 0x7f4a4d1ece23c530a4d64c2300cf0bf8a46c59aa74dce4ac2854c6bcd11b056f),
(0xfaff26625a41c80f0c0889d483eaf50c596aa5716807b1181e94ce5b581b0a7d, 0x32f3d0574afc487b43b129aff83bc7dcd495402b90fdc30f736e87a5469e8aa7),
(0x8c6983d28047ab24ddb292cf1c8836af7e75d7ad6ce23149e022cb642439ba2f, 0x70a10314447eaa73924fdf58fc607dc1c69a69aa29b84dcb156fec4e568a5bb9),
(0xbfdda2aab23a37b2bc129bb4280a2c45926360c32719872cae1e81b31b3d3d02, 0xe8319769b7d211999e5de1ae76021c9c2bf75ed04c9a6c2ac52da4f488cf78a5),
(0x080e24bf3559d05ec0cf63af21dd7adf237c23e7ed930c7b04124ad446871de8, 0xc8f37f914e78e037602ae9bfea3511fd02c95ad36665117d64f9fbbdecd10063),
(0x7f56d9402d6fb0eddc6ce1872ee8e55f45db30f98defa84df7fb76caaef5e800, 0xf43b9e6cb60ce85f44682fae0d8a48e53d9599d4f19b475774f7d6fe2fb2554f),
(0x437e7a08900216be72f14ef733127d499130309a73369d2e58fd4187a0d428bd, 0x3f0a4c4c63dc779d69dea37f786a515743b3560c016d4e564a1d7802f40dec83),
(0x3bb8db7e8cb3534ed7f70f8deeb1cb813ab21dd0552c311ff98f38e363321626, 0x9ffd98a4b3c271e783ec8c7298ba83b3f4f0a5bb61ce1edd5c1095eeeb16a569),
(0x21de8ce46aaebc6b4ac51620e2c789040f9300b62930fa79699e27825dc2310f, 0x12a2185550ceab27aeb2e7cf14710b7cb3dc837a67a1e4d26950e2b81942b9c1),
(0x6c24ddcae42459725268369c545bc910ffddd8c349d83feceb27af78cfc0c965, 0x6263abc6ed17a124c8b2c5e5c91b157a13512939b9d60e48929fe6d84d032338),
(0xddc0dfb049f7b6b1cd1d03c6f8ed2470ae320f04bc6f13f50a88ba897bd1f91b, 0x57c5f0df8fd22e02da44cd05074fbcc1c8b4a903a909f906aef9208a89eeddd0),
(0x6fc5fdee78c61421a3ec2284583a56d8f18e66eb58c54ddee5209a1f3e3761eb, 0xbaeac9056101b8258b08a80772c977bf60956b2ed98d1b25e71b2b7e10e3d25e),
(0x1b6735d6ac2f1db01c3781d0cf42e2cc3ccbf0302e3837f13f6655ebba0dfddc, 0x621e8c0ecedfd28e608c3da5135d63fb93dc69192a6154dbbf63e3152f7db68e),
(0x1a875a0cecae66004bbdab3c4fa5a57f925079dd671bd9aae8ac5c51b21a5e83, 0x2317a0c081c17beda15e1148f44beb72d4e65fa4964087788216f85b3924d9fa),
(0x51635c0cce51684d9631c8adf6c9c4a93f66dc04a372c891294c42ae2be5a84a, 0x5c6cf3f1bbc9c21b124e78cfba05b2f9ffb9c9023895d58448622259635d3517),
(0xc548df8cb685f45771c564eda3e9a77ea4734faf7cef877cb0bd70ffd85afe0d, 0x2675d6b824f99a198825f1ee195104929eb633d0367c01f70c922bfbc2cd6dc2),
(0x121592eeaa39a3103c02502d072e360ff500853a7d2e449b16c5e443f42e700c, 0xb5cfa2c6689d973de0578a39bc687720acc0305d6ad3b6781d36941b7f0cb435),
(0xc2a8b66dcce99233b3d83699b20f0c6021a83ee146a491e6d7e69ebc92a3e046, 0xe0f3aff264228803d8c1d729088780d2ae8c344df9571b8670254b39b4243705),
(0xb2b703c256ab219e528886a44d6b77725cfc1b5b17865ecc0c46e2d22420514d, 0xb6aff027b44081778c6cfaa0123590a74615394caa83891d15013d35ba28a9cf),
(0xd249c36dfbf43f5dc6ddb196d78d4cbe898d64cb3b239f891e8c4245ab647afb, 0x4e58c9e94199e0b78a0179c2c82b644217eb3fe780c687e5166f56ecf812d092),
(0xac3519a1092c13ebb37cd5601a141d80817226ec7c86a053042655c10997b476, 0x3522765aafc2fe6b2af9b4892780918974c2bc57058ce50213777ce1a569083a),
(0xe9b695968983ee86340b96ceefd9a289e86e6d493f05796277b99067af83c70f, 0x0983a83ae1b08fee392e51e1c12a8e12731d592a517e240eea508f7db34059d5),
(0xe11e982f10e65120ca357106f273c5b29900454f8145678136f5287165444dd6, 0xe961b15581ee9ec51e6a3616b7182da1bd2e5db4d08dad5b46bee55844c21850),
(0xf63f4434bb0c17dd3a17c75d2d179e4110a7810a847bd4eb3782799794e57b14, 0x480bff2469c2e268a51b21473d6cf7ca23a3c61b513267f70c25b0927dcc8549),
(0x0cd8ea46d65bb2da7234508efb48a82827678525d102fa8506d26475eadc1a69, 0xba231ab9513f90be9cc8260afc63b05a5aaa02803502532c916d99c720b7b2d0),
(0xaf9a2285ec491b5609cf53c86ec188e05bf18d1cd7e898c3c881a5de481bbe13, 0xa0cca7f3714f8d0092af7bc9062abbe54d106dd0a608960735a6d9b473d9ed58),
(0x5d90a03955f4199862e5cef1af05ddd9114632ebabf27d6b9b92c6c8cfed8640, 0xa0025e540482aa4911d8a5562205c2ae2a0f75c46f3faa557463b9b9cce1281d),
(0xaa1f071c555417533a47b490c5603aed2d2e528271acd0de6ea7c5bcba66a348, 0x195d8b00fd90b1ad15e4662022d78bb247c1e9a78ab3b018f341a0056267a167),
(0x4225728fee2495d673f64d5acee2e3722713a3b4dbd2f098d20415c93ab513e6, 0x76c17939461504e6e1420d53c5b07449ce7f976ae4de178e6955275575e92412),
(0x669c2815b3357084bf7bab8963753b0bebbea33e5b731ba75f9698903a281eb6, 0x23fcf486e2839e2d91fb08a911ed736181de740654c13306575c576cd0459c28),
(0x7b29749b393869b0d7f0977b340b9e0776a20cebff6d8f8ef465034811773665, 0x0a0d68cdb6033ab6a4c92113c8f07110aa5cf6002335d2d52ca9b9562874832b),
(0x6f096ed856f38c262520077477ef7ade19fb616e30ed560aee5b49875f43a7db, 0x54453b3d1ffce3dcb5e72ec93f15b57c6725b271d3fe8b7d8f30ed0035845b6d),
(0x1354de01ef040d5c681318c5a6dfe7af5c8eba0eab581674acd5335ce33c4bec, 0x4002513fed215b53c65686ad8366cd7e38711fd998d27750bfce7e240dda317b),
(0x5f8afb0b3800c53547cdf93d61ae5c67233c252517f99c388e97e7a91a90b561, 0x7dad53b7a64b7068967fc0dce7178a43a06e56f77aab1a577910d69c23540671),
(0x901d50d9b88abad784e7513585a81d9fa1d167f2c9f377b8e2598cc7b249f3d8, 0x7242b5913c80db3e748c63ae47ee62292c1bc29be9f9088dfb882259405c3dd0),
(0x2f5e27e74c7e00dfc0bf64017d1a888d1bb7a3e13ff66874f7c306e3806a48d3, 0x87c3836c07fb767f4b5ac58562c48a1821dede2a7d63fe40da75d967cf9191d0),
(0x8b2277a1704645891d8b54cc43bd5fc354fa6f1be7a062e66349ac2c40eef8ba, 0xac3a007d6b3278de1c04347613b254b769c9e14ac2f50f9d5f0250462e06081f),
(0x4a6273a4e9f28e9a82c3532be7d3e56466e87273ad1fcfad7ecace6c54890de4, 0x6d8b0fb21cb99844610a325c9592cc1d0e7c8b32d70e19b7ab7df4728fd1aa51),
(0x0f07330e2ab0150e435fe3a68c7030914e7fb52c307d58d5d5120bfb891f84d5, 0x25b6ebc54c1d920633891a8e39aadebd988bd98ba29b04bf6ce4c283a4438b08),
(0x3a30b22d6f1fd6179fff2c21d66358288c21fc8a94a274b8993ecb91eaab54eb, 0x94035c566ea179acd58eb0f9d12cb41d67b94fbe6580511061cd98060890946b),
(0x8c4f39cb87d7f65e0591fa10fd46d08ffc5de3e167d8c9e7718bff950b112a5a, 0x0726c4bbc64373f109399db518b5f8233faef3613e363b84ad76052ebdc8f2e6)]

/-- secp256k1_pre_g_128[6464..6527], /repo/src/precomputed_ecmult.c:14726-14789 -/
def h12_5 : List (Nat × Nat) := [
(0x38118e5963a1929e74f6d98bc80e44e4d9b322546a0f1eb0690d08f4f3bd4bfb, 0x23167e00c29513e8e82d1140bef5bf02b806a652fee592fb1dad0811604a4b50),
(0x75d4246bdb065274550e9784f3c9437f3aec0fde3af54a0d61430cdf2626bf5c, 0x8392f5703896cc62d66f848509f7f2694ff40a819505447b7d79bb9877f8f621),
(0xab3bb0aec1f390fc8d1bd3fb4ecdad663db868c7c4fbe0ba6cf4f0597068ed87, 0x091382a22dcfe0c1b51148ce0bad214024cf099ce3e5e3ee867db7eed070c7e4),
(0xd1453e12383386e11976cae08a448b631a977dd847c19d2fd7a212ad5090011c, 0x7044d595fa8f68c24a972658590d7ab6dfc06aceb9d8c320205b858eba0402c5),
(0x894afc53b0d1bb6ac948d11707e83c42b4ff4084e593fd75d06606802ec0a4eb, 0x5c5eb49373e74fc739ca4fba1940ebe46912d8967cfc036c7402e8ff8d071d7c),
(0xf1dbde6043133dc68699e89a3dcaddc1fbcb5ea50e815eb58e7a6b87dea2e6e9, 0x96a7b1a5b36e549268168c91775d61070a3f87f9fb5c8b3bacb75dad5dc544fa),
(0xad9126ba6d35d780dd2841cb2ba817d3f0267446ee99abd0ee2b49100a4450b8, 0xf77eaa1e66c0f3f688268d929c9ee53d6dbbc20bb74e864fd7831cc93d47280b),
(0x70d5638fd3fc43c76f321157f97159943b797d8b1d366f5aa5a7f1e4ff1ff7a6, 0xba6f2d417af1c5afdac8c83ddcc289e94d6f29b42631ab7b19414bdf4a9ece36),
(0xe43bb23e1f82bcd2708730b93d3ed915e3b4ad8461904f68bd91a06580a4ebad, 0x03b528db117cfb4999941b0b63f51ef3926a6230dadbfcdc028fd1d62bd44147),
(0x9daf3516a015bd59b648fd9d09143e7646b2e3fadf5e446ac57f2e229c9dad2b, 0x5ec57ad40808a9f2ed297f7da7794e2e3f1bb14cbef58047e0bddfb18ff11149),
(0x13970b213115c4995eac245b33633c531f2be101a541f1297403a72767df16f8, 0x3444e05a7e49ecfd633c96dc99a0fc81cc3c359c440ffcd45df61c5d1c027e97),
(0x12aef79366978a2d3fab43777debd5c74315b002829b49dfc80fbb4e1eaa94c1, 0xe3f5c1d6ea42b7418bb3446dc23679f8e7a96d02a8f33d1d3404126f71f9e37b),
(0x62a2ef7b887de5a619c753f5e0bc45c17c47b8b1ffbb0ce48b93caf1d1ab4b02, 0x7d00482c20c25e01ad6ae35e89c263a35d0fc816952a96b09f2c2fa4b8fc9bef),
(0xe6b03f1792df5b1eec324ea0898c031bd745221e791d24062aa917fcde6f8a87, 0xb4ee4b1841153d221ec0ffe0ec05b1c30408d71c5d2ca29ea01ef9c2e669b205),
(0xdbc02e03e03e2f1453ff6410afded1f4f0d514615ee00f75d041ee33c4f35783, 0x6a3a332d99ffedd3d442b44b0aaa9d129d93e37236dad0349c47bd837c7674c4),
(0xf11be23d6884890f78ccbcaac1759ceb5e7f98dc19073abab85d85be5fd23ef0, 0x9afda170dc1270d20e43989a4ffac7d5c848ee6a51e03b58c308a4fa39e2cfe9),
(0x16ec4f951db5c83ac2c26209f2577650e9c48c44224b221cc09b0b191c1c5552, 0xe3959034d259e9f5163a44daf87ffd637a35b220eea5ec6c0301cba9eb09dc54),
(0x3cf701ab8991e981e9cbfe307b3aced5c2147c47f76bc2a0733ee5443fef3f99, 0x1e6a3069d4d0bb8cdef98d49cd303b51c45617ed833be051ca2836bc13b8e1ac),
(0x96d093fd01a8efbe4f93c544d0d7e397cc83e1144574f804570fa3ec58d5669c, 0x02a29438a05fe50db980db60b343b06d1796ddff7e7fe39a356cb60869c05ccb),
(0xa6457eee210257325094d3eb06f6ea0521e83184adeabfa7b6cd12069a9dc9ee, 0x83e436a8b234778d9c7be0db886391771d7a48df19c29c47682fa2cc30b5e7f2),
(0x1b3665051c858ac35890e7ddb4aa7984dbacbbe1f4d2b62d5337b530da9bb0a5, 0x039d3c2d42c5d29240b474e72e94a64b04612f5a68f5b6bc586db5fca41025d6),
(0xe09325f468328cc4d69a71d48ffe0380bc118cb3b8f390d34c1e56fd27f4589a, 0x16cbf18378946fb803ff976341c6cc3c9b2f451d7661bc3f3811f7e6ea89a01d),
(0x6a8ea7a9ddfa0f9a8473c47ef5667e443e64e03c5c33a9a1f0f1257b40e1ce62, 0x9280647156238c849c0aadaa2e9efdcde5a56a2a78803f7b6621033388f525db),
(0x480b30cadc57c6239ede2763f113b46e599076aeec687c4933343178c620f2ea, 0xb5aa1b8affe1e5edde587df3341dd34b57180cd4752a1bfdd06e4c2c273b4433),
(0x134be6f0b03ea43e098e236446a45253ea5822df46227aecb24b09d5b25a34b2, 0xd4841d54b7fc1736b293d314bf6352f2c7b08ece4de652d402c1b985d1fd78a2),
(0x7c84e23fc54de6a1a4ff6c9ac7c88ac6732d019fa53b1a9aa6eb2ab8a3101f31, 0x4ca88baca8d52f443703fa274fddde3dae5924bd26b062fc06f7fd0d43ddf5ad),
(0x07c6a349911f02ef2aebdc3bce77f63994c4dd2aa842b567141c023f4f2d92d5, 0x09b4f2f96215aad9c7e0edf6efcd8aa874dbbcd54a0c4cd0fb7e01e8ba6884af),
(0x9e1dffc6a919c9b84e3d818a5ec60f7d5a2baba77d2dd65e137d2ba28a1aed3c, 0xcf26f543bb7ef705e2d3c42900f0ea2784e3daae1a71c55638d281fdaa3b1738),
(0xe24f6abec751958833ecc7657446ae36937e310bd5754c5c343eecf36e140079, 0xc38a0399774ff24d90f8e599183bf011aa3c911b9a66bbe6920522a67510e62d),
(0x517505bd1fe28c212fa85f1899823b010bcc3bd1748169ea54f35ab70870f0e1, 0xda94c34a5de418811184fe928b3f08fc362aadf75e7abf875d5f4798fa712f3f),
(0xa02217de4ec87155b877b7c9dd7425b979627f0debe127ce27d4f3effb988a8b, 0xcdbd866d7b69e8eb9321d07b2a5c9d8f6eec8be2f19a6d244c987a1a12752bd5),
(0x2e595023c8ba084c1cbb2d0596ec35b207c366bfcde2766635d7e8208fcb0ae9, 0xac08f27eb8fd5ac4deb1f46b23ac1c5caa02b9189761e6bad7c1ebb0f412d8cf),
(0xce384358fba557d3b76df62ed2264cf1e0bc7b43bab30be9fd6f65e1a82b6c2f, 0xa3cbf24ae067ad85ae0fc86a6e8490b61e44980b52f29a754a3f7e4ba79ad119),
(0x09715da879cb1c5c04291e00fd2822c17f067d63664170fe463e86c200d25e46, 0xc5179ad3a4846fb8d6f290b92f957e14cee99f6e12fc8066ec4dfaafa82edb99),
(0x19f61bb04cedc19e5054eeff8d0bc3846cf62a351af3ab95e03e45d0786e1aef, 0xaaacadc8db84d7c3f869931bbd33d29545fb37cb7e474fa17a69a683117c05b8),
(0x2a69afa7581777ad38882f6c659ff4da33fcdc17a5355583d1f8ae377dcbd718, 0x878eb429d42dfbd6435df1fac5e0ed4de7b2fe4b6f7dd6f26a3150a2213fa619),
(0xc3da1980cdf257dbf2a5eda994267691a5e1e67979d4908cc06f7f5071002381, 0x2cdf4de190ef2995a984d882598c24cc35cfc47e5cbd2d5353d880cfa944bfb6),
(0x19294eba9d19c03b497551cb7cc8d8ad3e3b2130942ca8ddc8bc55791c424d2d, 0x5523ac45e676daaf2d8da00f5e9240e3d904a53663e6b704735889c884b680ba),
(0xd8b3b30741ee7ff82306615f2d2ef3616e3f7cd7fed9d56e69300fb85eab6bd3, 0x7d57c12de65bf3c46dde736c373ea374d090b2406e1d97fc8049e21eaa10a74c),
(0xe2fa1bd1164528f087c72a18e9843e3343b376d9b5616b745e0c3d00eca95fd1, 0x72dcfc4115b354068bd3057d0506d592771eb3fd60a2c2c3dfc2645f86b249e5),
(0xac587775bee32b7e90031ad89786df148e4d966255a06399e43c0441883fd6b4, 0x0b6d3eaa6f6a50efef84c578b241591e4a718eeffb40ac3499a57079b74c45b5),
(0x74976cb077d481f50e6bf7006db57a13f362fabbe6aaf25b6e9564529d093bbc, 0xbb40be317cfde25c075ea85902b622e49d42a0a730602241219bcc84a5f4bfe1),
(0xe71e6967f32647fc2c13a94d4bc1410a0cf9728d1f543522681d750b2620a668, 0x33c4fc82720210d9afb9f1fd51671f3ffc1df5f4e61a5ff8c59f06c791f996de),
(0xbc36cf57161e9b17828e455774204c59805b35e3abdf4ba4daa9a5c3fafad6d2, 0xdf34c4923018e879bf459cb4528d2983340444f5a85efc2971e260df29cd8a20),
(0x925251b39c8761c6317c2066717a2e8d89e43acf89527ddd6078fa492d040f95, 0x0aa7a0848b2633acce551f1c63312895f4ece4205e2246652c486bebb8131f10),
(0x4ec27df3d9e755ceb93e1ca0e0e43f44595b529f6460e3f4e6cc37653a2bbb21, 0xeee3fa06257b4be9387ac7b66cc1ff6aaae4358337d6ed7127ff753f1fb179ac),
(0x6f733e9cb86c3a175bce6c08347577eb69cceb173c19abefc94b664692859812, 0x2a895d6fc4a7a4f50610e8b89e7361bbdb728625ee31e6de927c74f5b10ad0fe),
(0xc631f4ecf205b1b46bc0fce53680e6a727f9e64d5ee3fe24c37291a0d3a69b53, 0x0f0de9e0e4bea2a90cc01a5d02f9aad2f5af7ab27c2ff98b983dd2b638dced4c),
(0x9326d4494fcb30498badc2216d3a90c0131d31eacbca74f72cf7da2cbb6aa2b8, 0xc3f268ba4c9a9ab53f9edb8874f2786c4e4c065eab58487e0cd8101b7132511a),
(0x538c52d48fa6c492cf546349675d6a2cba10b4428827dfeb69f0303b1b7ac774, 0xc1b1db4fd6d50f3ec7533ee80cea0d47883b57e6dd4137c82132f8463b81ebf9),
(0x5e58a25d8bdb4576d178fdb723158d26508f8486ad553727907901d56e99a680, 0x97c1f8148880cd8551c9f1e49ae58eb3d1a012850bfa824844bc794b7d83ec62),
(0x1e9830eeb75d6c6dc70989d4ccb85e6234a1cf94ef81b65a49b25753cb6c13c4, 0xd0780a7f9607e530d80dc06868b1cf8b82d3047a2977d20465187ed313c94c6c),
(0xc5b441c2f7e97a03dd690cbcac6057721524dce7fb5068f3f73d78ce50fe0183, 0x9bdd2242e35008dd4f90760064eb3b29427ee9b2bbeeb54862878688a916e410),
(0xa5f56816e9448d0aaaa7593ee31456783be745210b129f13f11a276e0d419492, 0x0840666265c275da76ef289ed36f8af66ead9be148cec0817c21987e9e8af9fc),
(0xc5e8595544004f792260d55325628858ce50c95b9362d86890fdfd208d1184c4, 0x6a5f02f1c0f381f207fd21eb0928f03ac8524dc59bfc1bcad025a2907cf939d1),
(0x0d5dd81009e691f58694c87b59907ed5ec18d37b8554799c1481ac78825d2ac9, 0xffbaef54fd35a5aba49f9946a11e5ad92f29590c20e281809f4be3e4b156dbe0),
(0xee5d42a2c705bae5a11d9d090af3217d2ec1658864a60a56d8e4a1cd4313c61a, 0xf08f0e0889c015f53a2a74c33dd625dab329181d1d0f4fa014ec01e95d113d88),
(0x90409eee78af819e249f62ea3b4d70a9026557f8731e50ed532c0b304616d615, 0x17aa7a7f8af635c9c4ea353c56c89da970df599afaec8916ec9a6d82cdf957f2),
(0x5f19aa1ba6d6e3d69445e8cd71c95e3fa3ddad6cff0dcb4b9e09aee565ba9e46, 0xf82b3170c2953397a6cd29fc9c87bcd976cbc7a35f9539485a57a94063c2e570),
(0x5081942d1039bfcd96a759c927583c458dd4c01359fea30740c65fadd020606b, 0xf6f204b097cecd15b2619aefc25328fb0226598bfc9384bdde99a4d6567e9b8e),
(0x43eea7b1acbb14500c9a49b00262639f702612b1b184ac15675d6496a5df1a54, 0xa31636f9ceecfbd60060f78ff6cee471d4366d7fff863db49a5a652c71b94797),
(0xf2860e98a30a6c14ac43dc9c61bbae1fb8ecb29436c8f0a87dd43c01486706a1, 0xbc83bfae9a4effeb4beb025e962108e54a5d7979cb9ae2a07cc44295b95a2e9c),
(0x6b4a8c2807d5c7af63ad8d349751116b60a613f57cac229d7ef0d9c8166d69c9, 0x48333ada0f4810cf94c78d4388f8842dfdc9fd7cd391e456a592d8b2200bd6c6),
(0xd1efc808393d4498508373239b791d0da814e8882958da8a87136d93bf1b7d74, 0x13247e743c3236319e5574764ad4dcf2b91dbc972d38244afabe4c0cd08a9924)]

/-- secp256k1_pre_g_128[6528..6591], /repo/src/precomputed_ecmult.c:14790-14853 -/
def h12_6 : List (Nat × Nat) := [
(0xd3fd7a6afdc7332df2e6683ba05ab787e3c48262ce837f9ed8ebae1c1f6f7ab2, 0x3d25bfd33ddd4f748ff395a6b4f36d19cdb28ce6b56aaa55e783e9f63d74e70b),
(0x816f76c4c5ea87335f220c5428b31cc689fd8267e498a6754d6a2620a60d9aac, 0xd3b61647f6624bb39fbb672f51b666138a441a3b660bb2231f255488806e79c4),
(0x1e344f9798f11372aef5c6c76b32a56816198e188e6110261dc783382522cc93, 0x474e02189bb4f69815e304d48166e3cd0717a1bca9cf4e4b1f5c5d23a36e392c),
(0x4d3bcef1d6cff8a0e0582d1122eb7f6728aae077e9ef79600ec519ab3c6d6087, 0x29f1b01fa70e68123dade19e0d5d26896c49138927a2da1d3c628965bccf38e2),
(0x6d5d596e467ce203297cdfe6ce4807a61686a8c9f06062835e0fa194894d027b, 0xef58ab411d6a002c12f469e2e9f8ded44291b2704b7490c54c70c94acb7b24ce),
(0x86f6ebc9c25f6866f14af01888486b226c89b1fb64bd9ac6e523e503e2cc6819, 0xb072564704d9f3b408d4055de15b72cace599bfc247ce9a84b0d5e7216b30425),
(0x520115e9a47c3df7023f81df8422c03aea0084dfb122759a8d6a5b75540cb339, 0x93b1287844f22aec9d5ed7273d204d85d3bddaad73e3545e5725b1712b8417bb),
(0x19c9ff30e5e500387e9be1f8efddca9807a72de0d5cad8ce7569d4e72b381009, 0xb43b0c98402748ee16b362c8b68ae79f8493a7ef293b149e3faf724783ee3661),
(0xbdf0f8e0928affd0875668203c95b3b40e6baf9ff1da25c973814c27551ee4cf, 0x5f701bb68f8a6795cb4ad675e00b5ca5761a0eff32a1d3f09b29d5b63885163b),
(0x5c60959137a48dfbf778dc2680de17ce390ec33cea5cace2a969ee9d1e413e1a, 0x670078d859a2c138093946d1e052552dfd92c3805fdf2ed78aad77952ddf2f51),
(0x98f22ef1b9a629280c5ddbdf70e71c08eb910ff10fa6a6a156de82bf0bed8fae, 0xf87be19a9433d2798088c8825d122e31bec9102f0c580fa224d40f322a2db1e8),
(0xd1842bec2bfc5fc0d5208d7b40e04b7688f26add9b5a6845751147e4b4524615, 0xf0405ace6dc9bc8848d18586b713ca3d67b76ad94f2f794c55fbe9d2f72ffa56),
(0x732cdad8e0aaee77473c01409702cb39555ee048357fa44833ce8e3f5f50bea5, 0x24666502448268a5bc2c693a85a1fea9dc5f010ba9b0cce76bf36124bca1cb0c),
(0x6c86ebd95200b1ffdbb6ce6de9fff6b71b6100e31144239d77e7201cdb2e8af5, 0x39c687d5abff0ec7c7ccc4b2a4a16ba97324430ea1ef209d5ea126d2cef24539),
(0x655d63c147441ab0e65f9893dd38f3ca022d2d8aa7b2c87d0a2e2293b24ffe0f, 0xd19ede94b25ca13894ab8fe9842cae2992cb58da592c19eb57c4184a45121281),
(0x8efc14d2d5845886ec264438449ff49dddab756769999bd36191cb39efa41b72, 0x9f1052fc416db1a1d9797e66a816b403475ac091ded4dfdce262d5273c535293),
(0x31a7f0b91686e695d1fae6e38fcdbeb4246fde30f2ca80d52d9fde31c728eef2, 0x9661bf7d46248da38ae1ff52a8aba654351a1f584f3bbfed1875d4393612190d),
(0x9dd959a98c86227593dcc957e369b2fe5cc1d411d4162ad7d8e22b64633adb85, 0x78ccfeefd95ede7132a7011dbd39b9ddf77e38bc47f7432cf90d65835a6e665e),
(0x51beca99fe3cedfd1ba44caf058c0fe48b926e7250e5ca7f8a187cb4909b1892, 0x12f38feaaa9de1487c14eff696cccf6bc7cb23a86f2b7e0f10fa971f3545a0b2),
(0x01a84e213ef9b9a59f9a4fe9d21dc1cd1ec7a102fd91557c1129921b781e6b51, 0xaefbd93117a42a7513db0e04782aa0b69cd79d36b074f0260bfb7682983cb78c),
(0x9eb148472d02a287cd19745078d819633943183dc76c209009f68b9412eeeaf0, 0x6fe4b5a2d18ac52f9a129a911db00993ca5053802054b5c548f353800c6d467d),
(0x9ecb3cc8da5475cf1a66ef5403286f07f5be11962c1fd420b394bae6c4256441, 0xb4160952e37018956f25c5d298ce90c791797571267902a0bba53d2c2fe2cde0),
(0x541e567cb2160fe275e9d4791beb8ad04c07d6b512b43d49888963f60d6696ce, 0x2444e18466cc09d6aec704c6ea8ef6704ed1488cdd8107c0c625b7836534d6f4),
(0x8c061b6bb6b55fc37c6d805c808fb3e16fab1cb3a05853bc4933eb39ca7b3580, 0x20430304c3780c29a977f8d35442453967924c2e9a1353da40716ef5a0a0d37d),
(0xb9b674ab361aacecbbb69f7f7c2b136144e55da61566ed97cd58152e4d391033, 0x7841975a4cf0b5b73bad8433108662758a8eb93c3b5db58a15346083f3d10386),
(0x3453c3d227e1dfc53e22487dcce25ab618a3d25a48f6fd1f8e9158ecdd6bfa1c, 0xaeef1768b754d998fcbc75db7a750396930d169dbf933c1c15dfe04117ff63a6),
(0xf36f7b9f28463b22d2c43e296b96846c1b3401ec53490c5c35ec197dda2c440c, 0x9876476de2cfb7ebb1cdef500a39d20c4ba5000f9edef22eab7b96c6f0cb5585),
(0x77c6419033ef6119ac3edefeed519632ef5dccf3f46066bf6d5204e066788b5d, 0x980cc59ea103486a9c8cfccd213cf7043e6aacb6abbf3293c833de88e5b2716a),
(0x818911ee6051c4d519fb7785d52c6f27a82e2d79a4a55623909f3d6db549e851, 0x5d031307a2d66fce4b6079670f662bc0af85511211cc209d8457ff41968fa325),
(0xbf5900a77c211a75231ebe5817f91748c957f5aeb98377b19554fe90d11ff226, 0xd910b2e31760f0de838cc1597da6915de6c3fb2980bc0e65e87a36f7749cf1f1),
(0x654b425711f03dbe75b7d60d0b578d7520e7cb6f4923f7748799b4a1df06fa16, 0x12c9e75e26d3ab4d645a7a64d97eb6c9356a3951fb715bbe9e42f500a0c3f44c),
(0x33a425f4f178af6d48b78873cf70da66aabbaae0397e66737a9c607415ab3d2f, 0x1e5aaddfd76b1b9114016f021812d7ea18decd14ca3e39258989415192178cb0),
(0xcb088930f0ba3995d7542d4892ce47e55d8fdd5d7adf60d93651240b12fe7636, 0xaad156edf0b25c30e4bc3784a1b7857a4cabbe5d2ceffb72ca2cb7d245ddb024),
(0x0ffa9e81afb11dee83a54b47fe9b41e4de4191af7279d19e90e1c5287c205c0a, 0x0405233eb20a484880210b4018c098ffa0a17203c5a13b125ec0fe921d1c3567),
(0x92ce3be28fd6c9dbbe1cd4d1f58005b20af0c13689181c52a67c25032649a6af, 0xcdb840c77e0fc2c3d4b959c66fc47142622c8a16b30168a6c62ef3688bd23932),
(0x46079065b64bd3d33e3efc91374e1443069adc4abcd2bcfd91ebed0d88f78cff, 0xb09653a11c0710bdb737611de5d80e67a516dcc62ee3f63f00e2d6a7f3794ae4),
(0x5cf961ffde982138958471b4b316cae36246ae74e1309400a3acd118e4736c93, 0xab8e425cab39325bb94925d7795d879918efc449e44c9f03cf7bf487fc32b185),
(0xd8fa100927c1aad96ba97005f8a24013bc29082bada0e0aef6f72ec98abc4240, 0x38d88e5e183b2c09d53adeb58d0525f083a512c41dd64cfba7024602f39e484c),
(0xcdabe8c67d0d462754cdd3d53e70bcbae2ec925ca46a4536ce3be9aee0b37d8a, 0xc2032dac527cd15aa1d812ce1c658cc2a0a379a52a30613c2737812a6e683830),
(0x394fbdd607069d838fdf87f7b1c179d91a491ca3680f010346de329937e92374, 0x5ceac741828ac8627fcd587c69844243d17ba038901cdb4236e96685d589a693),
(0x84eb6d44103f56df096617c711c79dc7a6161189157a0782074fec78fc5f6c37, 0x57a166604d1fa3d9cb358e7a47984a006926df574e06a3137b3c75242e882320),
(0x295dca03657995e5d432a606da12bec9fec8f4f0582d75dc5657c9737cf1051d, 0xc4df0ad7b1e3a29dcca4120f478a2d63f18fc67fbd201be4e2fe05fa66ba2d6c),
(0xb42d81ca1bdfb038d7888194deda7307eb846bf1738d8b7d89663bf28097fa7e, 0x2d913cc993ed51181082c85a42495133ace8bc6c65530309c6e15794aceff5cb),
(0x484841864f6d8f3e094977a345bc0db31330910d4c555032da8da876912df644, 0x7a78a8c768c9d9efb5242fcdb7a5946c5fbedaa32914339f8b0c0ac0eb8a3146),
(0x7376d6009a7a76b9dfb7e225c0da3186b683fb13daed9fdd25ac66067e7d2316, 0xfc733036dabd7c4a719b699cda1155478a52d69f387b8a9428744144c0502901),
(0x9be9c65f5fd6cbcf522eb9ca91427f680152caa2a152051e3919307c9f67ab8f, 0x14da6642fa3b7c3741c9f953d1e01c09267b78858414fe5f024f47c4b44c413e),
(0x7d0ae5e418d6c6df45f6d26a7e9623354ea1a3388f183eac85b1eac91962e2f5, 0x551eedf8264763b0913307a514fd9e09479f43a887983e69509a3688d09308be),
(0x0d91d965d3b85441acec7257d444cba006243b34014e96659cc62cbd89aea7db, 0x054e26ec9c82bf54f06cce1602cfb9242a354c83fe53093709bbe7336010f44f),
(0x44c8fe95aa48f8bb6c0a32daa6263918fc2df7b86a68f2776bf405cd01bf0566, 0x87fc1fa83fea76e552f5361245e5405309d70377cd865915b6b78acbf73a6e03),
(0xc7f8e8255f2ddcfdf21c5c20ea84a5272c5f6c5999843c963bce9e0aaa7ef398, 0x5c1cf08609c1f790b1e59dddec9729dc2b73c6a1be333dd7e423a0bebee50243),
(0x3a8ebd85a2bd4b1e6c0373d063e9cc4ea91e6e1af4bd7af7501e01608fb7f4d9, 0x4d9351b73c3f6f361b86ae94ccecd211ee3b13a9522d799fe78c87df4473f23c),
(0xbb01a4cfad90f3e05355f0b6d1b28420786c09dd9db0ed5b38a565064da77e9e, 0x1742b51143bc276f0273afb98473ee3d3d9620507462cdf4a8c641efcc2eccde),
(0xeee455941a04bdeca02e7e851d86987e798c27dfadcfd5d82979960a3983f4b9, 0x3cc7502509b5d215375709281abca8a929f5609d56c8dca43d1b23d3cba3fedc),
(0xd2290ec5120d591d2e4e27963d10c0ebe73d8b9b600587ca84173ce6796123ba, 0xc47600114c68baf7b4053666d8bd494bb4ef1786c1d7a5228a656f101c837304),
(0x21e359ca9b7326bcb3380282b9017df03cdfb7f0af95f326701bd8bc25dc047a, 0x68b866e8555206e97cc4346134c3a61dce2a50ab2b514935a05f8e040ad95c70),
(0xb4acba2094b350335095b2089126367f3203efc335caa43a51857181f4987e42, 0xfa0f72af77db4913af6d906e54eb33f0a3e9d20ed366c8783b7c513cc5165c16),
(0x5ac6b2da18754c309ae46ac83592d673ac5d61e0035ef1b4512aa9b67551862a, 0xe93b1d74105974cdb6bd3043c0dedb8c0b4eaa81c949999e068d52fa4a3941a8),
(0x4a53cad72a894cab9b76115738ae78b00c36c293c60ba8d4b87300aa0792c51d, 0x4b0dcfdab890ffddcf8a6a7115f2a3510d883ad8fe3d15a9118f3e0443f840c8),
(0x5edec48f7d8c9b4caf3371c26e054392755fa0731e6609714e089b042a07bc36, 0xb18b8d1e407f934fe526fa5d38b3a40876bab92a2bc192b5b7c206ed6ad040e0),
(0x0986b120618abe6ad965f9d96f50fd7b29f1b8978276ff8c562519ab8aa92890, 0x2c98156923ff18091cb47459bafc0d510699740bca59dd7a014e07b90432f681),
(0x8c61517b397d36a6b30f089498d525ffbbda959a126e9be6f67b9831e5e7372d, 0xf7608f24130ce8cf56a7b762c1563519a4be88d179e90f1db432ac05d472d771),
(0xd6abe67b0e30fa40b642483ea6ae7ecb4217a07f35546f97469aae99a286b8f6, 0xb5e5675c91aa08d2a5a773495f1ad2bf8b6b9dbf4b35dc6c262ff1c98eaa70ed),
(0x26be12b4ae01300945c8ec0558edb030e19a75ad872104f68642bf5bc30f7934, 0x1086891b3ce97d8aa568fe5428164f254fc15953c97d40c8f32c0ec66ed49fcd),
(0x3f0281e91dfdf1de69d5112b1b86ea89d737d09f1cbbb71d2400d0e7719987fb, 0x27451e9a2cb336a2998d55caac12e16cfffbbd5a3703897d5f566ab45f4aba92)]

/-- secp256k1_pre_g_128[6592..6655], /repo/src/precomputed_ecmult.c:14854-14917 -/
def h12_7 : List (Nat × Nat) := [
(0xb84b81157b1782f1e4b641c2a001daacac7d53f5b3f1fa5ad0a5ddc2732af3b0, 0xa0c8f7f48fa498157a6c590d4ea18dc2c586b3322a303061c19edf44ebba25ae),
(0x790ab328fd86da4c066f0989296229fb609de28ecc8cc6d3d315eb89fdf31e38, 0xcdcf83d344d103c6736bb5c6375bc2e43fcc46f5777d6e5dcc40770015d29aa0),
(0xd5fee68af9b7f18220ea65256a591f24da79a6424ea0fe3188a0b6589006fb51, 0x87b8608b1b3d0d71c9ab2c9b84654408af6551c71e8ec6d4a8f26cb320577532),
(0x410f98014622b22d62eef39a3c5350c9e80ecef848c4295e2ae279ca9623e777, 0x53dbc7375766d9f8ac0b8b7ce4b852b03214fe702438691584856c8306376821),
(0x06cbfa6ffc7a6009075edf0bc260bd2d258bec55382e650dc464b16be5f34eeb, 0xde72cf4e33028bb918ed3a41d885faf7e1d5901aad7a325f801f1a362ed730c5),
(0x2a75c02b3325ec0bffa42250e224a4dee0c4c12b69b710394bc3040d80e5c504, 0xed666a2d8ac26964f0445d21f1719adafbaea1289edd69bc94ae6123a2e6b8bd),
(0xea2bbd576c0b20a56790ad8729f2547524ef97e386663aba2473994efab39134, 0xd98d55fcdaedbd5c3aab619e1288634df526f87319743f81149ba85d535172cc),
(0x893e9899fe1b8a92439c1594634ff44d1d0a60cd08a0183ab810bb8ef80d0400, 0xc680717baa2ff02907baa807d729019037c73d0fa5a1878c9fa2a6dd0d17cbb2),
(0xd75b0a2d1e9a20c5398fc3b7cacc79bafd53a14eebe23196e4bdf4a8f8546422, 0x37a8efdd618bcff33dd0c0c9f8bf31922e131764305b610c88a2b74e44672981),
(0x96c84a8d5dd2ec9b44a5b2d7af3b65e409c07786969452c25e8e64f5a264c14e, 0x292ed1a0dafdf3f483a2a4196e1b6b284d7daf8888c7268d70e556fcff55341e),
(0x458895f077782a6243abb7757daec5af264a71e06eccaf8a3b23baaffbd7343f, 0x809eb05687bb618ca0f4e1e7c8d05e4895f183932e949b22b9ddab0c55d32b93),
(0x59dba4a8d79565157f63931675fecc7b58a0e91a6c9c3d507dae6d402e67a9df, 0x718094a283e472651ef52d4edb25b0b9009e069f391ddfb0d9987596d2f4ee2f),
(0xa5f92445b7cd75c39a4b319996baf00b0f855ebfab3e19bb71d4346c0878b4bb, 0x9bb1bdb50baa4d565b9c5077c86b96ec953ce38117cc8d537b0f3957a582ddd1),
(0x0f146eff2a9ee1eca3f26d6a17c89639a1f3505d2776e340ae89449b99c8b198, 0x1674daf7a66f1a897b5378e4add6a196fd27795d88969a07a210d33d646a64af),
(0xe67f5967d98c1d3c3a4d087212d3b65f6f8df2165dc1463392c23ecfffc17e1a, 0xc3dbbcabd1971eb7a8b088c8c71d65a80328bf4358f0e6859025db87e5391380),
(0x32e8d775ed37cc2e6f69c85b71c95d65d40f033cb5eef36286d4499b0fb6071f, 0x2fbb1d8da636479195ecaf526f63eb86e4604973edebbf82b796d88bade44334),
(0xb98c7cac475ee4a3c1815a17e460f76ee5334b27e1ea319fbe8924b5819a473b, 0xd7f1bb1ba653f20dc7145420d8c8c339d789ee609b9ff0ce73910b943deeb88f),
(0xd9830fd5545dcca0ee37a4029f406cd750bbaf59e60a80feda976bbeff9027d0, 0xcffab795e45a283375e7b861728421d5f9e22d0344f835a4c55207bc6479b947),
(0x399fbb5e4f4e27ab3e737a32d065fdd8c003ecaa84a2430b4a7b4d40eb6f9721, 0x93f7b541121d13bc480f7868ac9d83026706d2f1a46955dea39127350c5f02e0),
(0x64e067fe171271286ef0fbdbb2adb4c3395a1dddf2ea76e6261e6cf0112c6227, 0x08ef6afa4bac7536a23f08edeb8656a347a13f252dfacd37c215cc3f473687ab),
(0x57eb5e464072126397f0d12a532aa1ffabef78224ba9b10e8fc95e1c6075a071, 0x8a700d2c80df0b4d7e2c92919a51e5658dd6ba5e59bf150307bf7a0a935545a1),
(0xb83adb94ba1874ccc61ade9e43093cae5bd86ff5e86615c1abca14cb6eb81877, 0x93417bf21fe01c855c6f77820a5cdb01a5d13b29d719f0fba2373ba28bada7f1),
(0x7a90bb4971537bc93d1bed23891e43c6e350fa37ef8e73a23fd46ea05ed879bf, 0x0ee0fa593a51af1970a6d8b722d42bf7ca2535722324a59fc041b3e7305fa3d4),
(0x195e4afc6c95d6d08273cb0dfda2da3b4696b569650d423004d396fb3e653831, 0x440751999dce9d6cf10ef7367888dbb3a713423cf2881cd576a681ce6fee2c8a),
(0x28ec566a29bd09e2f8b228b9ff2ec49d56660734f2ea864e856be0fffd6f60ee, 0x5b4f5e34298b5a56a68261438ba59d254922078df36dfdfed4e8972c647fe031),
(0x1e005b72be1bb77c8051258158e940e3544cc133a76ddf49b681422c1815cd22, 0x9c523adf4ba5d753093e432f491f8e1a435165b2f40f79d70889d82f8951a25a),
(0xf54ae39ad074c399636f0dca682b940504e87e873132d7f9cf79ad85fa82586d, 0xdb2e9b901c2dac2ff4851f4eb0ffae7a4c0cdf34ae9f964b841c539d84040667),
(0xbc8dafb8d385cfca3643fc750c8a93f9792d2b9a715269b9ec40d5815936e6c6, 0xdda791ce186ff28cdb7636ad4073996c4a2e287580da17e890d038861c14aec9),
(0x60b6ea82627f541416978e7d3c9d911d9d9de92f3baa0975a8de4e3a8ed3ab2d, 0x064693abfd095109ef89cdb20204f2f389dae035f451fe2858fcb4f1dbff0999),
(0x9c8d1352bf291803227307185ee65aa8b14211de6d73dace2937cc6a1ee79134, 0x3c6e0d6648f3fb6b23e6e4a95df3911d797afb509c12e90d7eac557c7b1a9505),
(0xbb2a83442997babd6cefa2a61c9d2fc7a42db3d5bfb19334c7535bd5630be896, 0x20de4f2769596e65edcd695f0061a0d83c8925a0c87074709e84bd41615ac75f),
(0xba8bca72496a60467b250a38cbb536e3b9fb9ab1438006558ef5d1862b66d50a, 0x81abbb33e835f8643d0758587ce596717e08c1c675af4c5beb80429b9dc46aec),
(0x529fde52c4d1c978405107bad862f7b1995ffef5cba4a59ed71b366c28e17b46, 0xed7c2521d39ca13060d5f509d0a8b0b340eb78c0d4e4fc4a83318a65226d0a05),
(0x6e0e10c94445acc3593efdd54b8ea1f9db4a45a14c2d0a27edbe3fc07a90e91d, 0x43537a25d2091290f753460d8816ff1041308e6dfb04b7e7d5a108d50c9fd83a),
(0xb2f907146fe2e01c5cbd73a0c0a358c7a05aa73097a060ff491f362c75c20e90, 0xd0e680d8f7d27eff12b332e8a92b846b4242a74609b317406c6af4995ab51948),
(0x0bf631a7933e3ab5f7b8707e55a9498e31ec3f36970bb9b3f5efa0cd1a3f28a0, 0x1030146a387d4fd9c12544dda448133a49b5a6e0d4b96933cd47e89c608dd5b9),
(0xcd7ec470e9d5e3fca4c344f29edcd4df4b7033ef05e7ee99de0db6a843926034, 0x3aae77b3bb008cb6e982d6737f78e920f3a587dbbc106c0a25c65d45df8a4f6e),
(0xb3ac95ff8365813ee71199eb946b58887dd34b1ba214482f0dd3b7fa3b8ce6b6, 0xe3d9bbddaaba78878e763360abd370d59d941ba5cf758d333b480f00ec5e7672),
(0x7fdc21a86962fcede6f9fbdd77e60a004dfb858b5b149362dae4b4f4a4ab84fa, 0x2ec0f21c3d1c6d60f22817a2954d02b1ce6e8b91d826c11ef8e542c4245a55f3),
(0x6f019691def39afb103e524a598bca923c99e44d7dff4866f76fb6c447e6b40b, 0xa225b484cda916f3559e57823b5198278bd7300ac31dace17a7975822a2e2a31),
(0xcb9a979fc4e8d887f03956da9ac89637579813b0c3b2787482961a54e54c16a5, 0xff42bdc31a837d98b7d37a38db3c74ee6109e868d06b7c33d5562ddeb11ddbf2),
(0x2ccee51c9d63f3e899314da1656cbb15635928bd309cde4b69699860c0e28736, 0xdff9a128adb8b4fb7bcaa1eb6bfb390f226b2ae0b72443a45982d55991d379eb),
(0xa239538cc5e0b53e879f484f7202a52bd52d1cdbca7ae7d0639850cdb2c4f57c, 0x6cc1f9c58998e3472c6db0b86b1d9092d3cd0c84267bea8e75a172f9f4879dd5),
(0xe77796acc619974a634766357bb3bf336ad1e87e8496bac3378db9567beaee90, 0x3eaa4b63c967905059d8cf6707b7095c040645341c592ccdddb7626c10586f0c),
(0x52c332cf37646a2cc1bf25cd26a6131c3b2436889c44d804d2762fae618250c6, 0x2279bab0a19f78a943e695d453a0dc3cf03129876ccbb70b1d61eae1e92729bb),
(0xd68826da36e5f78cbf72846888bbe6eff6e55d34f8b47a9c8296e6624ad9bbb3, 0x88ffeb155f70c6ab9b83f9e830e2f4497e661dac889803a6d30a2ddb11bfca5f),
(0xaf92bd8a2a5b0034ea074d69a1d7a517808d3b6158f5f7c2d3fb08e4eb825cf3, 0x2fef9245a4a3c837d4b57ded52009294c077a8018f633313b6db2d4c92c724b7),
(0xdf86fa3f63d95d7398872011c7545b3cf5f27fc6a821bff45d09afd1bf76d895, 0xa891e76612953c4f37a463c5ce449574b1906c63c192ba4c67f4f78ed1e93a35),
(0xa049a35e119e27f6e272774ef470ca5009a1da9ba4e5d7816e64a13a23383c24, 0x4cb8e2ebccc82ca4a2f8284134eb3a05f85a2335a3b1b1179288602996fb3fd6),
(0xb3193cbbf3c8f3b0b47b1a0e5689461a8da801c24c8d51ab0fc2e67b01d9f331, 0x2032a2903f0cf0ad21b63de1565170a30edee470a4dbbabe5f3d459a3827c7ff),
(0xff3cd3870554fb3a89142ff73e97fdd8884964bb2f457283e45b79aeef1d692d, 0x24475b62c1ade1b0ba36ad9327916e190637071c22fb59c1f2108fb8d38ec5b2),
(0xc095d24c042b058dc2f77e2b463a2c7f1ddd1daedd6f611111ba78db26763204, 0xd264851961974d6ccf66de221028943dceccb181ae03cd38fb5aec22fae54326),
(0x5365a446389f54dd8279826ce1e7df5db4a9699db8208efe080d1eff02d883ee, 0x74625a49b7856c1fb157776ccd79270a2957862ca437bfc875986264401e714e),
(0x4c073085e96134b775248412c36b3b3377afa27524c83369a2477b8c9851f15e, 0xfed40d9fa44f64b159c290e163d1add692bd278251de71dbe302cbfa67e508aa),
(0x71edf152ab95a0662b7e51908af75f38d03d27b03a3b660704f472b7706a3114, 0xc3e6f145dad44a3d5cf056d62c608b4c840608bbaa15a101c9bd3ccae511741d),
(0x1b7d41a93cba67adc145962e7b2c6353bfbc8eed34eb4c27bfc181d31ac0a802, 0xb165e7e423c5d88001bc3bd1ee0c677850986b359dbad06eaabb2f57dbe553bf),
(0xce997626cb41ab9858f591cac89f7a73bc1df836716ee74c45c4c781eef4ccc9, 0xbe76f81fa8e4b053f63be23a5e72ad6b7aa359aae9407b6098bdcadfe367b167),
(0x5b0cfa70aeccd544cd634d10a2bcccdc33e4525a54259ba992c40100698bbf2f, 0xec50e655163994b64881369fb3aab55065df1a5bdc6037a707c01e56904660d2),
(0xa03873b9695ee82a42b72a90f0cdfc68dbedbd2ea50d5ff6e120d811ce8d5097, 0x5947c8e356e64f71b36fc1f707ecfc7fa31c0f0bcbb05102775648bcf2435758),
(0xd6b91cc66dd31e59f04c6e58bd7448a3fac627536857921411a8b42c66084ed1, 0xfec7fa6d778c0b63e7dfd72fef044da0903ccfc71786f0b185edd004f691a0f2),
(0x896a1313e0a96d359fd428417790baefa40647cc0f56264aac3b72df687b5692, 0x831d4b4752f5fcd34942ca2695dc86d84fe49c737c2bd46af892eef7304117e6),
(0x779e74008e56416756795a4f9d2021b794aa9689eaa377808e3a6061b5bdc04d, 0x739ea3a94f38be31df57c052362d1872333d27770c6704c2e69271d29f78b123),
(0xf20988a93a3273a5a015866ac4de930e507b5b48cc5ba52fa2a71e9c185e72a5, 0x6c8619078fadd612c0535163dfa4cf39648b59d64b056bb04e06695b3b51213a),
(0x7e8520e23151c78f9f48bd105aff4087dd90f9c42ac33e2419499ab68e5b21aa, 0x0995827b43c276dd6140338827b2fb9d9fbb46ecaf10b65aa8025971608f38c9)]

/-- secp256k1_pre_g_128[6144..6655] in pieces of 64 entries -/
def h12 : List (List (Nat × Nat)) := [h12_0, h12_1, h12_2, h12_3, h12_4, h12_5, h12_6, h12_7]

end Secp.Model.PreG
