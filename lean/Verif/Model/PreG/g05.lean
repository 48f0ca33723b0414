/-!
Generated from /repo/src/precomputed_ecmult.c:2600-3111: entries 2560 to 3071 of
`secp256k1_pre_g`, as pairs (x, y).
-/

namespace Secp.Model.PreG

/-- secp256k1_pre_g[2560..2623], /repo/src/precomputed_ecmult.c:2600-2663 -/
def g05_0 : List (Nat × Nat) := [
(0x560a00da2f57d821b6a0144d45898af0aefbbdeda1e08a499cc727c4b27a3c0b, 0x64874e4e39db13773bcb79ff983b152e5db86d634dbbeeaaa8b0112ae795e208),
(0x9f33fba77ec8de2ac1b16424856e28141afe9b1dbd0cd1dce5cbb2f2f379094d, 0x97cb8cd81838e2a726034f19b5decd61d972abd9bffe384892fb0a9c26fe94b0),
(0x98822fa82405751248f9da042a0cfb15e46ee253e06a1226da75047e72d7a1b9, 0x3e9eea3507bc54acda5475611f9590f3db975d4cce7c4cc2a553df14feb19285),
(0xb814d1ac4b7572686ad8832732f0f84bbc72875e7e21707cc4086a06ac1dbd88, 0xb63644883749a122401b8ab3c4a7b8a8c03462ff18d69c36cf14529900f18a98),
(0x246484c41e42113ccd39f7b7eed9dfcfb39cf84285c28cd86233c1a2bd043e97, 0xf35025b02e31bdd8041d36f79d0b75e680f431eb44a505023877f5d0eb9552d3),
(0x9f3303657b41b2ecd87fff0e4284e4c3bbe8c524091d358e847afb98ff51db91, 0x4b9a7bcb221c8870de176a43d4f7cce5adf519c175613dad317f433772d5e70d),
(0xc2e78e9b3c75433c05f5623a8f5a4dc2b0e719514b16161c225b9bca9d529d25, 0x1e75c8f1938376cac6387b209b24a2e3e794362ad62441b950588a3cab9079bb),
(0x89340ec4b6e81b7c855c9636b548aeae2125c40d02907f867ce5e6baa7695391, 0xf739a94e263e796ddf1cc2c103e2bc102b2a9c9d55248671575c3ea3792c72c6),
(0x9204ff15f1443cc2078facd48d38a6c35d66a93d8fd8e2daa7e2bbe2d6629d22, 0x2b9de875456b50e96205020ec293ff3c1312055582727253be10263a7559c019),
(0xf156da1041122fd7ce6b518dc325f5de61fad9e4a7bd684d7abc495eebff04d6, 0xc73294abf4f2adfedcbaa78d2031a5d97f2c404d739f570376e46a0e01b631d4),
(0x771a2d7837d6413a130998616050c3622c379a55265062659fa7da023280fa75, 0x8b6bc39f5cfe1f5b82bef0b0f6c8dd1be4270304d5bc70f66b600b265d4c9aca),
(0x14cd58e036bb2c59f63b52b1f40e51cdaec29f0eb1cc04018e51236685a18f69, 0x79c254fded354641744c726239ea4e8fea15b19e746b372ef270c8d99c5e2006),
(0xe5f54077010600725800bff1390a67decd539cc952b6b43c22bff27b1a8633f1, 0xd6e1c6c39baa86c75838e691f9af8a0680274da9b0f54b5f4c3b20288d666367),
(0xb0eaaf429c072037fbfd14ba79693d936791344b3d37c3d75b8eaf8ae7429197, 0x0d72661e4a171b654f124d9bd0201710bc2373826a2f0341510517169b7af26d),
(0xe022d70b044edaed35957383284e4ea05380f92ecf62ce883c2e11e6604d67c2, 0x423c55d43ba0ed0d1455228a3153e9c207aed89b2c3ddc7152d2b11c91ab4143),
(0x92a2d73eb2eaaaf265a70f07b949511baf1a3eda9e5d8651349a665a4bc5ab5f, 0x4492d4194794d2549a089fff53a3263105f1703c5ac3404992d68121e00fa973),
(0x434096860de50a9ccf35ac4447a9ceebb12f102e3ee6003ec96235a98db9cb30, 0x2f781040952e10178e4e38adbd9c6c8bc8e1e8987f316cb037d2cddc4e10bba9),
(0xd349dd1b0643f8d41b83aa5ad735dc4e945426433888a4e1aaaa0ade2394cd12, 0x67f2f0571da2b6ac295c71c9ea00efe9cf082257ece35bc6072adece433249a5),
(0x9a909a957fb87ebb35f6834d272d8ce7babad39d8f8323d9c681378166dd10e6, 0xce3ead1a32771a287f6248352a2f6001c12f16d9f7093cec86386572a2ddbca1),
(0xf38b1e18df2a2a649a3be25d3686b5fb1d77f9711214d452a67bccf0ac07fa0b, 0x005c9e9a7f71b201ba11ced59c0a4623419a20d8c488f9d4591671ef71e65ea6),
(0x42360fca26b8d095df52738bc2762ed27b909784c12b79a6a86e06c831535a67, 0x6b6f4ce5e43ec003be88bc432bddc453db93aec1657f6f665dec1912468345e4),
(0xe3d7198da7c5e3b9997993eaa32377b1b87325c05a002a9453404c36303f4a1e, 0x72437218ece6148cdf742be835fabfe4a05f19cf3205e65f5c8137812053ef4d),
(0x39412945a83011106b54f6258191529e02f93db5bd68db480d6bc6d9687cb59b, 0xb8db822c60f5c31918b0578440a958b4e08b0a80a1015d9fd2826506f250f08d),
(0x04d275f77e0ee98e76b857c7ed9368ced93dc914d54ad4f421d2c097cd241fc2, 0xecb803d49b502911f619d361f952ab13935448e890cc2f05277e48aba39d7473),
(0x29364876c1db9cbda3efcd5b6599ed590160b1453c8a9e03c013f807869556ce, 0x2bdb4af4cc44950c84f5623795941f7e43ffb56a77df186c2dc31910f23f6ede),
(0x7531f4a963dccdf7ab83ef10d3ba13336febcf41f4b21e55d380ee6de4878034, 0x4753da9f91d56bc21e9628ca2d6269b1e1dcb1bb0087c55e9c44034a1ba36ae8),
(0x8266d6263d12feca440dce7a4bdf8ac16050ca285bc16777a3d9450c5c286e08, 0x2500f2bffb8a4eb66a5e7e36399f633c96d908e25cda48775455df2cafe2328b),
(0x664800014f339f158c39b26e84389f876d5e62aa59cb63d69eaa86d14bc589e9, 0xa0699b3fe3eb5a379f078526375ac319f145ffc1da8a42f596c7016c4ad92e2a),
(0xf8efcc858b9c0fba605921b5e6c89343f641e2b8e1f4513486b77ab64cc70d49, 0xba97202f7086f0d9af5a0ae3035d9a3c5f4de2e279278834f8b1d87550a9d607),
(0xa5c1227d254324a3b1ec627c93abfb3d6f2485b01d8e2e736c542e099c992540, 0xc9189db48a163bb56d99bed7f38a7f7a64cfef45cf977da5a1d16dbc86ecc7cc),
(0x271b2619a5b253df0fbb655d7702dec56c85bb009260d8938e0506060b8bbaf3, 0x58ccf3fc22cb8f27dcdbd1746abe559172bca7e5d5af3bd8d86c9a493ecd2ce5),
(0xc9e1382b20c797410d81800ce721d4f21202ba3092cac36ad90c1dfd0570ae16, 0x7eb1fcab2a47cea03a92f7070d7997496f7a0dfb0f9a43f690d213b81231e5b2),
(0x00574b2565232a041d58cb7512b4894545897e6a8bd47decb1e0941e000309f2, 0xbbfb86a9567d74bf93fbf2cc6a9c9dd3474db8fac2b5fb72038b3af8fe4615a9),
(0x9efe86aca6305eda4b520e004dff6c561135e7ec6953d2b4a988d50863046c38, 0x4f92a29132cb0818af7cbe67ec3b4d8a7afa4f7991a9ae42551ad831aae9af70),
(0x82ea48a0ff76fa17374bf4c3d0918e6adf26cafa33d8728413aa2dcbd813f254, 0x6a0295399bb555aa39de1ca1417a895049b4c2d626ddf8e4a7086b1dbf2ac9f2),
(0xc289483e817bb06c31352a24ba60adfbe3af2febde329f4f5fbde755bdd2baaa, 0x3b7ee90d8b4aecef62b6854a1feb595f9c49945ec19685c04b13a1ce1c780a53),
(0x6bde46cbb5580d58ea68deb31b0587b601698660d78a830001c740b496e12cc4, 0x3188a6a7c1cd166a4894ce750c79d0760a41cc5cd142ed91e096eb32e9293292),
(0xd1d2a3ae2844615e57f0a11d66fd75710176738fa066cbdf4519ac1f65827cf4, 0x7c0cfff70c01c1968b7697d7c51562eb8271f9365c7daee70f96312267f603db),
(0xb74c0c874d1955573b551c852abf9a5ce276b088cfaa0be8f6515ed7ba27370a, 0x00f0cb0e380c571efe5e307bec4ed8c26f0c325e114d71b551e0f1f745a662ab),
(0xa9a71b9a9f126c3fa17c30412317e11884950077baee298f47d42609f9015874, 0xc05f3ffdb31bf0cb7fa4be1df634cecff1b1137f551220f08f34c2a6a42e0586),
(0xd6de11530a161f27ddb514162b3f823b2b1b99fa3fa21c259b02274a80dbc68c, 0x6c620863659785a5eec15d259acbdefc714fab614e766215348c80bdbc59764a),
(0xdcaa1dbc3acdca5c51f8c22f359487fa73a7dc3602a796df11292a74776b73f1, 0xdc4131fcc22c607b4833719b01715179b4b4d49a958c75147c8c4a8f0cc85159),
(0x135537a000c4be131c3aa93c677094d55f3a130095499d212206a2440005ab6c, 0x7ef69f1fd2d3df67335f0d1ddd52370b08f3ebcfe348333048c2f04564fb0f69),
(0x28f1d817c23262e64cd572bbe3fd99ae751dd6e55e9e804afb3fe9d839de93ac, 0x024f5861987e3da42dae0e8967c835ac8f5dfe8bd41e5cb097029b4839e2cb7e),
(0xf7c4ef836e8fb7fb8eb31155c08102dfe0779b879ad641e25f8ce13544294289, 0x07f9a781db339621d6150f0916eb968216470d236957a0d13629964f1f6bce2c),
(0xf1f5ae5e1ddc9b3518b66f7e25a735d4ddc8d0185112faeda8da8f661a28b3e6, 0x9dbff12c97924d8050a4a8df24fe7a8f5c5c34863edb7cb41c6d9ddfb9ad4288),
(0x95f83173d170ce9c1ca0dbc74578b639257c10a1eb65827dc2afbd73008b654f, 0x63a83ebc08294a88413c3c91c6918a317d5ab83b7bee35b8b75d1cbc03412487),
(0xf4ada65c9f095e11eb88c8e377d605539647493591be3a7df8c83c096a3ff750, 0xe7683f28a38545b2e6cbc87c3dbcc4a52ede16761b0dd78d3ac51a5cad861ed3),
(0x41afac96f714db3b1b7bcd591dc7bc2440b82756d9394fd03afe7ae4299e5fd2, 0x9c2e9c6a3292ff12426e98aeac654a4461c52d005da7af20474e9a470499fedc),
(0x37f30b1b2cb81c9b61941fe9cca35f0de1b8dffdc42f3ffd0ccaa16ee8487405, 0x92bf7a85e3401d51d9fdd08e1086b6498086bb3ca4c9a2bb61b1d54d8cb88a0f),
(0x2f577166646e7eaa215312022ce0c8eb605a2199454c205b9d760716584fb3ce, 0xf0d7326fe43dcead5ae0dc684d04b969af32e8daed624ee098567dff03d5f446),
(0x8abbc78092c5512b5eba0af94affdbf83c2e24ff0bf9fe7dfd57e5ba64b5150a, 0x58f5998f0c2ec19aa495b974ffeccf6d0bb87dec4915232791a167d7f6896b75),
(0xe41ace8fa01376b327c73fe407e57cfcf6da7cf5c2810aed219dd065c147571c, 0xb590aada3c2a714c322d0459272f98e5715d4545196127a37d8a94bf776844a2),
(0x300c98778b6355eeddd80f7f4124789d7c0c84fc9d9ebb5abe714cd9890f1d88, 0xdac2ba62c57187310c8f5c7a4e1a7b8068c5076c834dd38520f5e93be39c9002),
(0x69e339d219d40f8425a072c1f7876c3fdcdb662326ca1b5c8768170712e24c61, 0x8d43915059a447002157e8499b5359214cd47280937405a1bad0b86d38babc50),
(0xe56493df8e47a99f8ab3ccf641fab7b4cddd779f51fc746da2fdd484cbbdb909, 0x68dba20a559e14fed0806036d41c18b59745319d758c1145b6e49ca3e3f5ee59),
(0x37a91c578998511cd39c11e586e00eb0f76532de574d9c611a34d38de7f50587, 0xe3a188af0d2d8a24735975dc009da895feac2710ab9d381ee5d1dc43b3145f18),
(0xc5f059fb5cc262e112c629c7194d783a6224016f65e4d24a86c52742dee88c1f, 0x1c85bf521a96a95a5177792d590b46d58c0907051efa0623ab15578fb38c890a),
(0x566edeccd605ceb1a298c59d78401acfc6323c63f2845827626789249b8716a1, 0xee0d13735adf6f20789f85b932d332ff8c40b3afc02010a15ad062d45a44cc90),
(0x327e7033c6ef4f870052e33dbccb46423e6cf4e2c3ebb4c8db69ccdedb2c7c7b, 0xfc49092b2be0f29b4aa3e266709aeb1c12266239f7bd92634aae16e953e8db36),
(0x989a7f693ac0ac8655f29704ea6caff684ef5ae28c5f5e1a1eae700997778024, 0x573d127b3396458e74bb5bd44acfea64e8eb1fd73b0b292bd1b7b64280dadfd0),
(0x9ca7672f14f27f54ed1cec4b74f49a577ce313fa4a6659769c22cc610b30fc94, 0xf920c4d731d52a4a30803f8182df8d306ab14104eeec11dcd2d6ca0f3904e4a1),
(0xdb100645654fe8e19583168717e2721a06097850ed2ef0cde1d5555e7847f5f5, 0x2b2c3ecea9c90ecf34fcdf895f76c8b6619287cee745014c9628192831056567),
(0x4e2a0c9e82743b425e6110a8f3bff14e418a34fa65269c07bb94d00cd53295a9, 0x512ac2e3e00bb04b6b4b90590a3ac69c8a34e5ec8dfa14b3d98b2c4e3cccca7a)]

/-- secp256k1_pre_g[2624..2687], /repo/src/precomputed_ecmult.c:2664-2727 -/
def g05_1 : List (Nat × Nat) := [
(0xc12b3f7024ea8acb05136f98185fb1cc60c71a772943b68d7334352f66ac77f6, 0xb799f99b6f4b76f01f09f5a7bfbe25260d67a195833273239c07bddf02544803),
(0x064e5a2edaf34e1debd7c0cf616413ffd6c09b82bfa783feaa7554648ffd7e58, 0x0e020e0966f032e2e905d611adf0926e7509a2a4b51844ff72651f343c2f4a50),
(0x2b0b8b55fa734380f6ad1857e03f02dd3d66ec572cfb3b9fef0408953f0a838a, 0xac897251a91465978e0b45bae1c880a4147ce01c3408e4765bd9013d9e73a61a),
(0xae0e3d30a2026133d3a54529965a96796523e8b41efd4c5bd67789302a88525e, 0xfb6918ff85632d24250be67b339ab260c80c087dda1efee97ec5dfb538f80552),
(0x2ff9c7114dfea166ffae46cb001f44c33bfa1530edf23454a83de8628fe00dd9, 0x053f667a04441817a3e3835178195c5dacb0d707bd20e7599b5e82c46f318783),
(0xcc02701488b959c6c043f60cc42b14499e2614e4c19f57263edb116a4e7bf695, 0xeab3f5909b22f677666ce655149a5f0707b5325c2036dfe2e572e64a5bb6007a),
(0x1801efd13c8035a65efe3b4768495d27f9dbf45af019d45584d68be828a945d5, 0xdff2d19efcb5968ef4ef49d509a82f8bf44a5abce0b685681acbda1bfa59c4fe),
(0x6da2a9d507b60962357c09de4c7ababd5b698fe36e747f8be6ab78fc3cdd7cbf, 0x1e274e704aeb8ae2295ac9f9b37c0af171310b8299acc378d505bdcce275060c),
(0x7e8fc96f6a9215dd3bf9e8a6ea944ff0c7dfe23a1a99f44c832a11adbafc82e4, 0xe9a4fbe1e0c26ca7f739ed00c63f388657d09503a808ed51ddc872e3b1342bff),
(0xa6362f3a77d6d6f7fe266ab3787076419f53e133718ccf27559bb4487e0caf64, 0xc01622da3fc2385c60a5cd86066f751be29d8539f473cd7008784d61d2cc787e),
(0x5186522228b47493a3da19b47076c1a98582bd5537c25557449700759b37d2b3, 0xf0f0b97968638d9d93fca65bf40cb8ce826558b852451ad17d0afbd044287be1),
(0xa2a0909ba9f1b9c38c714ff4f71995ab04d802129e8ee8e67e8bc3d181d472ce, 0x4123900bd45ec7bf71bfdf98ec4533928b364d1ecd925a6a1e8f5c5eec40068d),
(0xda518122454e7f36a63f5ac2a1bf979ef1357beaf9f0c9212b031f87b83aef2d, 0xbf877efd0d415e800c828c5e1b9dd8b96cb7f3f8b9a0cb32b6bd8f37686da722),
(0x41c40c541a983125e59aa572910c5aa48a698306d483f82e6cbd75063947a87d, 0x76dabb656b89910abba9f129ffbdf5e7ef840033c30f4c814e86f101a3bfc57f),
(0xc49fde8387f2e4646847c980acc50d8828745e4c88a41318709099cc9aaddbfd, 0xa65bc512dfd07bd379cbaf9e628be7f8c7ddb4ee6611fa94bbb48c7eae7227e1),
(0x85b17d61b6ee743d4df219406d7b74263a6c6b88e8c510717a1f01830e0fceae, 0x22b9e8a274c71feb5046ce022f4bffbbebddc53e704f6be892d3092e55868fef),
(0xc8e1d37fe6d677f13e752189505639ee3914afc2c8d4e43e883f5c54f117964f, 0xb0cacd18d08f5a91af46ba5591f99497ee4a7ab436ab48e4f88ad5ab39bfc21e),
(0xdfec00307d25888c5a7d6f83331129951a30baa00b97add9866078a7e483836b, 0x4e5a8a06bf2e9447ef46641682af8e44f407ca0b6fb9780956e13a90bafaa00d),
(0xeac6c4387c18d8c6eed7618dc9d3076ec842ff6e5f4d4b2092594d7f7f0be9d6, 0x19d69bbffc0c1b82ba71802ac0feebbd77a86a67d734a1634e823a6b2265b8d1),
(0x9ff38c4e04dcddeca4824db797f6ac8069432c159cbc99b74d642011b3424cde, 0xf72fa660b7c1bbfedf45b0c93cc84b81266bd041b94f54f91d26221b51619ebc),
(0x5e78593f3a5a32935f9e4f8c4fe285559153f69dd44b2c1c146fc644a5313f36, 0x9d9d5844dc63bdd1b2d95b7005d63c9758cbc5a61b2d114b89da9b9a8afd9c47),
(0xa107c7a489284b6fb01ba38b03e221c20ad31a4877af9b32d22c854471009ae4, 0x066072d46be46591ee386cd5bc0f9f2b653b580bc515d4c4a0fc369a27d9f6b5),
(0x0241f1d0308d9845fe2445ba67929976ff98e88ecc23a8f4190ce5fa41b02af1, 0x886697ecd413a88dfa15723adaf91d3209c881eec5ac9c74366b7ea8a7e194a9),
(0x319ee8d2627f906e83d5c6d26eac3b42341860168b9a9283c8790c6be48a72fa, 0x59e496eda67816e03409f8491cb458c576034453065fb2819d0cc4273e9eaa57),
(0x1866811a00fdf9bd937f4f7e96985759e0100866192878e1a2614625bfca4822, 0x215e0465e85f9c882783a1316b65fa7c585f03191a64250172e51269d5b7ae19),
(0x7effbed70b9490005db429fb8cf640993989675af7394ce69ff2f76953992f26, 0x6efbb5ba28f26d4b5256affacbf2dc0b616d8b6ac6cd2aa7a1d09ac840c7c749),
(0xd8c72bd0e59315f21fee45c1937952b2665c8d6670f14bf0957a4d252b168867, 0x64c02d62fdd40a6fd11e2cc3a73fc60a8a2da31b2c99ae6e5a946c61be56fbcd),
(0x710ec622ce64f38143b96bbcb0b0d69187bbfd51fab4d47abcf1830818d0db4b, 0xedfd1086526c3af0c2e9b961890f531d3d275c36beabb0c54963314e4534d994),
(0x9427964b9aeaedd49c168e7638086ddb70574f279e4c334868e4c59530d51ca6, 0x110b41cf2a6b0067eb3b312e928583d9e0026bea684c57af7300a6115c4e2dd8),
(0xaef79435a8b3ed9c9eb515c06db62165c5a2e8165eaa4a5c46a59b398f55565f, 0x6616e8f21274c425c50cb93d8942aab3036535113c3552a0118b17a45584b91d),
(0x3ebdd8323546063a68f4019359d72f260f49f0ce4a5af994a4ac67f33074b5a3, 0x012367d4b29549eed0eba318f395d712db7962f2c8e2d9beed89500678460238),
(0xa38d9e5ec52b0871d0bc6bc3b673c84819af86e2534d60dd729b405e426aeff2, 0xebe46771d9ae6c5d138955383c8de4d5f6d134288ac36a1cb01c75e9f32cad02),
(0xe7d29f82619cbb1990c407f7b452cb8e334369a116901b0f9f4ec34248a7d624, 0x7595ced4618b51606b8ce23045d7616f15b6ce14aa8eee0742bec5b59fc4e614),
(0xec869eb0279227b94ae333e26018f00c7523de5ce3e8c4edf81cefcf4043ceae, 0xa421aa552c89c841a48bdd264e67d82bca3fe57764101556ec6ba7dc711ac92b),
(0x4549d908e44a8c8b6fc5c057144a352a6f07523ce026fae7c070ff35c6ec5e71, 0x71d8e32007707e0410208c19e2c8dc7964b486001a6d640f44c1138b7ab5dd7a),
(0x51bb6e9efef7b8c9b0a4f3813e1406b32cc7a53d165b385ff98144b0a5b070b2, 0x65282be9dd794fd08a31de11d46df7cd5268eedcaadf3befde5956b5a467044e),
(0x7cdc32974c7caa8244203afcd48e625eaa2027d4d91613e45a83eba0696d001f, 0xb92b99433b1a55b3b78027a7a289e5a26060a4116c2cca361925349083519565),
(0x3ca9c6beb8e989b6a67722f6d817a6beaa478fba10146fc903099575609c9314, 0x5502ed7ff4b81bc38386bba34124ca3074c6e0dabd148e4d6bb7f096ceca2c0f),
(0xaa2abe6c45edcadaf01bc1c838ed5e6390e1a229cc920436864111e8ad354d0c, 0x1b8229c66f91304a24c61251f1ba2b2695bb3da887154d47c44dc9f2f824f6cd),
(0xb52cae3df28c9d59319f226def73b60f75466aadfbe6f75a2ab6936d8e3bc7ee, 0xebee735e022c091dcc8738488a7c958a421e07592e17fa3a4462db888bcfe220),
(0xc108570362a6dcb613da628323496169635469c347b65661838d90533821ef54, 0xfe6442c8c1e6a8eb2dc2cac140ad4c7c44511cdd82b79cdec38cf9b34ceaf517),
(0xf09e9d1cfcaf127f59d454765642290783477fcd2fa6c768d5a3965daf08c11d, 0x0f01a7221f44fb15bf428fc9c5d7efd9a5b2e663cfecc9a27e8f964e8bc15d10),
(0x602462ef1e473ebed88b3b179d71b597fd3e805fe03d341a036c277f495c4527, 0xf91db46171411dceaaad9f2353f2159efed2a9b1eb9d2ce2844e1f6d63a079c3),
(0x273a881e8e0d99fa104ae3558126a20d6b828d13096bbc70720197fe09bb582d, 0x5bb26c5814a7b914cd3b2f727f76b6c0d1b4077579a2c3da29534a1a684b0d5d),
(0x7c1df3460616cb72b42f417236fc98f9e8cd05041da47d9f566c8df2e80cd54d, 0xad3e7e0dd602b9be45ba8d456bc1255873153c2ec16773b9390ad6304fc41dd7),
(0x796e2634657ff1147394551f3ce800b79ad644b0539786d3c62c65513d942f94, 0xb65bbe38ed5871110c480eb9c30081a41e8ec66a8400db11bb1cc7c2a14f1c60),
(0x5e2761fa9985f68aa469953a2a6642c862b0565b602fc206193bded61a302bd1, 0x5ba09b709db24f5d02f47c07051367d03715c9dab7d430b4713dbac57253e274),
(0x46458c92fd341a0feb1ab0385a246b405c004c2298db90e6164126c54fabe794, 0x0859d68b345341b858afc324263f1ca69d018faeeecf33eaf02a3dd8d7446725),
(0xfc481830bf817c1cffc9ddc3d6f4e624a410e134cbfb952c5c7379a581153265, 0xa188b228bd3d7da144a48e89fd9db4ab8dfe385face8e169a43a278759322551),
(0x42d9767d9771a5503c702742ce2aedbf3a780466804ad9017792610d5eed03e6, 0xdf69432e9764f3373a2c782be02d2433d2e0f568d0dd83ece89ea1c25ad50417),
(0x37122c49993ab29772e60222615ed912462deefdd28e04dcdc72f4e1b9477148, 0x627ff4f0924cfbc3aa0422cc36402b8e410b3edea552408ef1d3820c5996e39d),
(0x9c54818294bafcbe743e52cca76e1ead3619a557a5cb8bb73140ea1a5c6896c3, 0x5fcc472eb88e8528ec71dafbf70504c2ec0478b3209494c50b53bf05b38f7fcc),
(0x7b9d7ad7aa5b1f6975c4e025171236080a59277fd63f2a077ae69b80f65a2db9, 0x6cde1ee8714aa229d01c14d6f514ecaec4a7f15ca756812fabfd61fd0d7d1bf8),
(0xaf5ddaf2c985560ad656d948e41e082e6990e9506c77d53e0171cdea58a9a102, 0xe348451b72896ff3c4839ff76ce16b591f685348eff943f5fd4581f9eca5b505),
(0x42667f18e957bd1905fab3662e0d1565d26394b414e2a9a395becb692111293d, 0x288dd2b269e9bb634e7fb16c1fe257973c0076b1aecaa2a2e57020d566bbc7a5),
(0x5e9c7a1d50ab832674c2a5a6f32665ce9be971615e59b618587541b740b276d7, 0x922834611f39af4234292c612c70744aec466418ee08b5b1a298456d5fa11f17),
(0x98c60ffaf486b5822b4d9ac97b320b978b52b5068b46bc489a2a4f28dfed8b2a, 0xa1c26113c2534955812f42fa306edbe570416d84aedc132b5807b29b745280f9),
(0x92bfa9821ed52cd93c286e71f350e5a7f309481fd866516cf0a7599dc385babc, 0xa3fc9796c71ab4b1b7a54e738dfe24f76f5276929516bcb802fae9edb2c1ddb4),
(0x9be27408bd8eb59face413e8402b0c377b7798b903bb18c4ec197382fa5b865f, 0x1108558019646a3968eed2c81bb92ddedef3ec295024c027f54e8bfda67a2f61),
(0x27cd6a6cb7bab0596b791ce38c0918bf7751bc59db9e58275b1b9c46976350bc, 0x890d51678fce2ac5f13761df068651e72f41d04d4feb4011a16f80ee83faeda8),
(0xe896e14daaf961394c8f6597a0c664635f22be3c96f30e1f5d8881cef468f2eb, 0xbeb004b0512c1ab1dc4d971afd88bacaefea7e84dadd27260bb9f2b3b196030b),
(0x24e2d269ac485401634b3779efab2c0fa9dd2389850bb3da54ec0d67e53f8ec0, 0xde702ec2642bd4c203bca2ca663a05a3f5beda5be41fa4608929aa580219e525),
(0x97a627c948c1c9e45d50159b4b121a509b5c4d01de0a7db95a9d9c09681d1676, 0x19bd095b55399c29fcad43037f5d5c218d5f3cf9a7c90b9ffef7ee926f3203d9),
(0xa70d8251e604ec5f777234c7f9d3c85033ed67601fa0814b40bd53707195b08f, 0xdf28d90774e23de3f152c016ac710d4385325a896a859f4e0e126d50acbccc4f)]

/-- secp256k1_pre_g[2688..2751], /repo/src/precomputed_ecmult.c:2728-2791 -/
def g05_2 : List (Nat × Nat) := [
(0x2d676c434b276472ce01a00713d78b1727743a9736f3412ea7c8c15afa42f42b, 0xbe28cde406ef5d32403b8f941082b68452fa703c339498ea024c08ffc9fa7312),
(0xf66c25e1751672755db857cfcf27c03646c89d29b4a0d72928fd42b400b29cf5, 0x3ee23ad422c4a8844c049150cd9c18ca8d2a0231bad69b6e05926de9c7193201),
(0xdba47c4b9d39d87eef44f81d24e8e005ce6e77ad8e4fdc6c29393d7d02427060, 0x2d5c6492e53d000f0977eedd4dc3b5c55240f28b9fcfb597338edbbb3d8d7622),
(0xa17601d94f627dc55895aedae91da3b694788f65f083b01bbfdf881527e10f0f, 0x74089fc8cfea1b15afb025bd99905b3a0baded5b45e30890fa3d8403360a1183),
(0xdd70309fb84afe907e261a125fb7ac8d1c24c6c354eb83d5188f3a134d80e141, 0x32014ac0ac93a77f9d35b7862c88ddde4bdfd566f65558682a83653544bed563),
(0x79fd503de746baf9701253f004c6a2f3cadefb93920c83f783b5776887037afd, 0x3c5cb658631809313fa20c26647a523e86a4e60008e8b17f1e0d690deca61b93),
(0xd1aaf37d77c7d63b1f4eb89616a29a4a1e72658a935609566b92c122ba0ff6a0, 0xe535b7ae5cfbba072bdf0e0bbf435bdcc7cac39d9d9ae32ecfd139453ca93bec),
(0x68ff1b82b351d94b9b6b74fc2cda4345fe525d58d65996445c752757aad93c4f, 0xabbb0ef1c422ac08d06194aac5d93bdd9186e3748518192b79818f3ab465a13c),
(0x22785c9718063e5d05db73bcf4ca648714393ea262ece24a5c41c0599610552d, 0x9c08026ad7a7a80c24c5e75c8a75cd6e1933e64a25cb98c4157181aaae1d8774),
(0x626cb5e7563fb7575f0662583fc21762e2678063a77d85808891f2444f5ffebf, 0x08369ff672c3c3f2435161845a9851c1953a6da25662e11cce170cbc668498b4),
(0xa99f0ef4d6f4610580ffa430b88a4f2861c8c4e4b6fadac55e668f5a80d12d2a, 0x972adf2939db008377802c406ae2aef64e2f064af8304d3e28fff33eb1053d06),
(0xb243ce272ff0b2dbcb80a3fbdfbe94ab784afe3ccab3fe6101931de9c7f02645, 0xdb2ead19fbb8c820c7233df8fea518363e85b8584622be9f41a0448e360b7559),
(0xc74e3c9d685cb62c6a71b21a00a1dff543efb264543222f3f8bdf5704363deb3, 0x987d8261fbf23d05a38358efc4efb61a5cd550b61e833ed438734486edc4b2ec),
(0xff2f64a7fc984d4bd1c885f34c096e9dd34710c243dc30478886ef0dddf71c47, 0x14c06258fd5e2fdf1eec91257690c0d709eac60d785f249765e1a85aa06e906d),
(0x7d92c4e13f4cab24d36e8a8b140f743a6819b514f6a19badec162141bb712085, 0x606b57622ec7d7d2a9b193309da686b83e0dc920e6be33d1b726f41681b698c8),
(0x03a43d4d9ef4528989c9487c779516024ce0cc20ffbcd518a0bd25460fe13b6c, 0x5f24d3255768905e6ba28d61e6b126a8eedad2a153499912dfba3fc0d9deb36e),
(0x08e72f0280105e4d15cc67e7371d0c5e6e59fd05b3c6630867342a6ceea25f8f, 0x094ddc5158fdb86df09870da47b79b031eada5ad9bbdd5099ea1d9de096b368e),
(0xb89cfc236dc02762ca77f9d18343f12eab8789b0e5872d6bfd9d013cccef54dd, 0x9c9a728545a5996b4a6ce6f9df860d11c3ad135cf1f7437d2ba7b904411141cd),
(0xe85ee008979868b4bb190b535624b3b56744a43e2c473ebbc64e491041ccb59b, 0xd3afe70f9edec50c227e3b3d07eddd1d0e1c9a8bf842d723a8075a5212cbd6a2),
(0xd8dd6bf2774d6d1593cc8e16d5134066f7f9065139915b3bfb0d5d93b6cb97b5, 0x5a2030945f734f3f11431862b85e9f8b25f7e6d191512b2c6d256f4a535e26f4),
(0x77e081c5328fbdeb45fbd5545d133d84033968ef98d36aec3e6385a276aa94e8, 0x2ce853f7ca25f2f845a6291a3e080504ba597fb791a21669c0cb6be114c2959a),
(0x510786eae8a496826820b82f549f07a2b5b9203db1ad18c4fb9c479f67c904ab, 0xdc1303854e4dc69ff63e21ae71dc8674b39382c1eab1d8a8fbd96867af9cd96b),
(0x2fbafeb3fbdad5b64c121056e080d0c21169e4333abc0ddabb642789a242639d, 0x0a85d82fd9e6a14de599ef0a11d3eb395ff199c95ea5f1c92f3f8a7c14405cd3),
(0x200dbfeb6e6e463c1f3fbbc26b5f00c6aec808091e28eae673b2b5e47b12ae0a, 0x4852a219bdaa3d9783e1f0711549182783212776fcd1b44ac59dc01cbba95ecf),
(0x27b140f60259f7dc093d46b6e52cdb853ec2257254218ab41acff2be24b8a3d9, 0x3ceed09f70cbadbad40054c4f130e31228bb5d6371a74f7bc85aa7ffc0583387),
(0xfe4941ee535c53118222ec3514c2b02c0e175ccad728ca0fcd1d64abe95b7e71, 0xe9cdc9ae286d651bd89cb4422a64ada3748e0ade585cb70ed357004ee51f56f6),
(0x317d209b4cae94bd36f443d765be2f170ce47ced59935d885a03925e75ff1cdf, 0x0c19149568fe571c0ff945af4b6a801ec942a5df78a628645434a5eb8a262d72),
(0xf951a777764e30e47705f8ab0150e9abdf32e80b593cecead9f9a143cc93f9ea, 0xefb951d625f2223ee6ccc6b8b12cddde6ac2613b11ae305265570f1523afd925),
(0x71adf0ebf5fd8e8bf0f229a9ffe496aa4f251af66e5a284d3091f3443389c8ef, 0x13f47463293a5536674dfdf72dc73add98ed5672e767642539ce655f6b6969f4),
(0x02ea040658c0e80d499cff39ad463412c3fbab1e81f6eea500911c450236be75, 0x0be52c7406073721f09743d209a0a4e3d82c08edfeee223429163bc8954f923f),
(0x423523904b3e80c2750c422233f0b1f3a373442d962789350d9b7e51b6182aea, 0x7f582349b27b516630c8e48ba96032240fe09e8f814fa966395fed67d9221d91),
(0x524d3c82a92b285b96064bf8e9abe0b57702a29edc08ce53771fab9efa7dda91, 0xa47a0217fdc6b2dcd4b68e05331bfd5c366a84770d3ed894ec747240f0f29c3a),
(0xf6ee1e085ce04de66aaeb5f5f232329c0fc83cafd16bcc48776bae16c056f7e8, 0x3328b26a7e2bd49aaa1939774947d7b4ccbc955d18b27c75c2f6ac6dbccea4d9),
(0x9c2f7d2bb88f1417722b5d1195077d202ea84e6f9bd93dae3134d16b17273978, 0x1089f00366c8b435ce73c5927c5e56bdd338a4caee5307daa571be3c2dab2a3a),
(0x593a1eb6730fb6e51fd24f15253ae1e705897b7b48efe28f9b9813c6ca99cc3c, 0xfcfb7820fbd22d91bc03a6300f74e51909e35c1aa3b1cace404330017744f079),
(0x62ba10c383a7baccbcc4bc6037f87a5e8ec0eaffde5a39f40ef352b151f957e3, 0xc267a1b0dc84a161a565fa19aa0a25019fd01e0ed7a660bec2a7e9fccc7bdd45),
(0x1de2ac10deae62a163f641fe03a4a9da39e1239014a77c6a6d73c6195f731f64, 0x60f43c95b6d7969d0427b5ad782214fca512b75fa6f50006d7141a89dbc8d2b2),
(0xf11a5552709083c883d0861231772f18c48e92716acbaa6da43416c20fd4e1d3, 0xa6d0ad647cf48c41b6ce397b38d5b3b02be51554da2f3f4cdf593514a2d742f4),
(0xf4454640d75697e521d5cc01fca5c7f53dbad43f116c243d2aeae96d7cdc33fc, 0x42972cef46fe77045d6d70531a74ec876b25996bc4cf66cfb3784f7966549102),
(0x2bfaf07397be067c1b7c20fa3b319fad10905b8d08ecdad4cad2ec8da1b8780a, 0xed526499ea97c9673d28bdee9970f4fb9077deb15f823cd5775cc5264e590285),
(0xfc1abc812b5fed90bde3ca163422f73a6df6e0588ed69222cfec54f74cf5f73b, 0xdb1c6edb471cfcbe468481dc4b1cd1c47ac68f6f4fe9dd8faf0d1136972b975f),
(0xd838c2ac82e02f9ba376f92d293c02adb717d65fbe31cc7612476e6f4c506a8d, 0xd87a30670388f8e03c176f6ca7eab123532dd1cb3e0f6ae251d7b31a35189377),
(0x4b3a82ff07295749a259d54ca9a5e53932c53ff133a1c4b92f697e06b13ee38c, 0x44372b41a788456d3f66a0c46c815210bf60734be570a29032db3075ba8d6265),
(0xd77cbbf36731ad4e325eaf6a9bd52f708e79d290e379c2f20b8d6ad3fce411aa, 0xee466d25f07813c791a81237748bda9a051f42664a385b505259bf84ff8372f0),
(0x3867f6b258920b826eca75dc953ac307bed1872cc0f1c6ec84efc6d2eeea1483, 0xcc6a6adce6078097a013ff18dca9c5c9254d70f468ac1cf4b8267135af88aee3),
(0x7b008875e85fc84f618ea7dff20f7f172123fe98c07b5279930b52efcc1b0a9a, 0x3f3b30bb8dbc9169a5c55a1c4150772e331f7834b50bb904a8c56600bf075f90),
(0xba5b44d916304a498757956004d4b796907e9b7a04da49a5ba7a1d778e34ef3a, 0x16b49baa48219e3b9bae124f00dcd4de4d47ea763ed39e13f874c75bcf333661),
(0x691eafe27fe4120d852b3a23b5bfa646910fe521355a3594342d629ce2b8d9df, 0x43a0609742184dca7c294fd6a5227dbdbd71ea1dc4bca8781887f9f8b6c71d85),
(0x013a6cbbc9f5a86f35173e38a45dca65551377d7c37542d844006e4854a54123, 0xecf3809c9a964d9effdcc2e62e8faf9e8a43d38f3023c4b884d1894808488620),
(0x33fd2af3fb595cd293d731e91b4f0e5ada6654202dcc36ceb712e8d5e6f10e45, 0xe26a307a0a8bdda44b981bf9808cfa3a80ca5331b3a94c31f6331e60098ed2cf),
(0x7595403359e47f7876b3ba575a758493b003329822f4e44c15cbe58b34b774f6, 0x7ee9a04070b8568db0a998553442c000b6e6651ca7ad1253f8e703de5e0458a9),
(0x79199fb0c3b17e684e815e7e8414bef4b3dd366510d032f36505da596f5b9480, 0x95bca973f358c9cfef3aacba54a055b8abaab3834191a1b5054ac3ee53d9a0ab),
(0x9705f4e7962ece0b2e7ed64e0a33fd406edd0bc1ac8997b5d6d70000a51aa352, 0x4d4ce757ad4547a8a126193d8921d6d858f40855f71ab99db2bdd728499ff347),
(0x881af067b841ab5f30560b983376674dcadeeb75b8b16e12df7da3ce312fd777, 0xccc13fd4512ef05d7c10f62d8b144b1d7588be3d1a3a37019accdec93483b84f),
(0xfe8f7a4433c2c9d8f42e14cd97ad079441bfc3b72fd412fb1f6d5f5c10e99621, 0xe5b576ee0cf3437496dc4ee3a846c79b4c8babf3cc46a6572a93fdd4b6b3b2a9),
(0xff43c8da18e08b383f92f83203c34e8384f400649e0506cb91893abc5c4d798f, 0xa575a05923a9da02c0c9dde1981dbd86f5a75433a4bb2fd52427db017ddf2e7f),
(0x04715056b97f4e211348524274bb1b33d8f9d84173678a42ed3c6fd528db276b, 0xb4c0d1463521f1d9fe8cd71efb98aa2873a18bee66fae12fcabfa201854302b2),
(0x85c9d808c5f51d5ac2a51394cb83e7eeacd85eeb31a888149744871c271fff51, 0x02a7c3bf23829b8866991454d6ec7f5e0185050d1982deb8b4992bbe5b666a7d),
(0xc02b94ef8b1e368e03cb4b25903445cff46b60c76d6d2f24529997f97d70dac9, 0xbbb97d29bcff81e48d417825ade1d28b10fadba2acf961d680a343c1e725f3a0),
(0x4b1593bd28e26f7e431ac4393d353a1e0fcb8b63fee7adb3e29472a838241df6, 0x8a67a728f496685526225b113ac9d8583f184f8b3ccc8ef0d6e4e34ef2fdcc56),
(0xf640755bba51dee3ad6505559d52869b7a8e7f6e4b9dcdd231d1cd4f26a64dd4, 0x7387f800a53e290bd4c29f6eec24ac0791e0e3c855d14882a48d05396e87e1c8),
(0x949346a9436836c63df6f42cd708cef816d0a522914a606e022769797789515b, 0xa903932d952a0201ef65c847b875417431dd41d3ede5c073031383b9a8e2b356),
(0x1824099ec769edfc2390b1f6698c22f2cdcc9783c5cbe45cde46008a67f91a60, 0x0f8405fa81e04dd56ce051f3bfa088e2804a878037892ae0adf42767311bd1e2),
(0xe6b46fd8e4633d928805f34cce95f3dc683aa792139c62f92ec8acd1d601d341, 0x533db813f3fea63a528faf4a7cbf58d8d6c0bea4c28391d16391d300cc1d824a)]

/-- secp256k1_pre_g[2752..2815], /repo/src/precomputed_ecmult.c:2792-2855 -/
def g05_3 : List (Nat × Nat) := [
(0x63799b30dc19b18dd48d150d3d4139d3a04c6252f176015d60a436cfff992b93, 0x262051125ebf4deed00e72f5ff06417807f485cb2ba355073c3cdb0d16dcc41b),
(0x8cd02f5ab1d5a02de85b88d3ae370b0f7fac53249f1fd676670a29f12ead7338, 0x358b42acceb689d6612cb70f0bc9bba7511d56eec43906278e2f0961bcc0d8e4),
(0xd5e167e6d48bd1dde95aba41bf33b065f76127664a0a8991d3ea1a9eddf82fab, 0x6cc23982d653cdf4fc4ec9cb3cd86ae2aaf45f6238257d70849c2686ae71d1f7),
(0xc40735006987f2df1334f09d97f00c19d72b19425864b0cf4ff19dcf7c9bfdba, 0xf65668466b461326a9b366bf30378f82b760ff0aca568ca82bf0c9d3ff7ff262),
(0x09df1e719c501bfb08a21db2a838318e29a7c2c0fb2deb911840c7aaf0c4fde2, 0xcd628cae6d0e0c02b0315ae54901e703e977c75b43defea580a5325cfad00fc0),
(0x95176429df73c309023108ee6922c5971c91c2490ad7165b7d08b84d2a4c696c, 0x3ecffc493b62dbcc822084700375c9291994fbb7240740cbdd8086cbe9c0fbe4),
(0x708c48e8692b0d35e13a7e0e94be8fb6f57fe18734f5556da318f600c5628c6e, 0x9534e302deee1d1f27e0432e9f6a2f005af7e6013f7da9bfe1cde320a105a664),
(0x2775e17ab82dc739b5d620794b26be1546275ec09d32622b2991cca14e5b4c09, 0x3aa6ee7c80e8359fdeeb52c28da1328f338ab2288744d52e8a9b79081b1ccddc),
(0x47c1aac2039c4f31cf334959b8fb48a044da6b343c383270be19229c030192da, 0x5dad651c5ba6c21d845cd40259a051c4e5813f5a212283551fde158b600d7cc0),
(0xf80f445a4b864c9601bb2bf59cfa25f1eef459d4fa28ac70d77daa1bb8bad15e, 0xa383de046b8c69966d0b9da6ce9f88e583cd57f4a5f12c8863f7ff70b374ff16),
(0x2924e7b91ad33619a8df436d578b7172b22081259f2d5bf6f9cb903ebd4d2f66, 0xb8642169e2319f54348e4f3fe15d1f06afa41255ad62ceffa768bdb848841875),
(0x37d6087b91a64ed28341854e3a2b9ac44310785e77e32e2af13405f376dc4d83, 0x35a23917e068bccba823092f32e6fcdda3ac9f092c251b1f9bdb99713df25003),
(0xd748a96dc79f1be06b43691cbcf84b4fe000d2ce8294cfd8391dcb9210f4fab2, 0x75b4ade065da902ece57e5c04b817228975c0927aafb76c8223c4da6f05bf51c),
(0xd05d2a25eb5084ff262361ea33b6fb979492414ec255fa8fa0233d06e42cc30c, 0x14bbbeeececdc8f385b5142908aa03d9ba57a1985ba98f4e75efab6069a6f2d2),
(0x69ba995bd137edbe5aff3906764eca9cb4684bf5e8a8c30278c89d97483ff793, 0x2b1cf451b62265969833e86491c5db95a79ad96c701580b246de19365bb63e32),
(0x7f01e9a15d0ecf28fde0342ff506104b3a50aff2f1ec997d9a82ff7154419461, 0x1c3c9594a6b8d375361e25d1fedcab63d2704065a83470e5e03dcc43ad12dc68),
(0x719232fd193b9041fd201bc47184e4ccf2413d03f0f8619d813a409e56e48cc6, 0x161fc7187dccb0535337ff609eae05ab12fb55a065f82d1e68b19d3cae29a953),
(0x15b84120155f73103386009a57bd28bf9a63bcfa46c8bd082f53dc8676e78c27, 0x47dd637ec9017e2fe9804e0c840aca4f188171a0ea9fb6051402c50331737816),
(0xff429d97bd3800477db52ed4eba6991404a95ce27414da2c0074c074bbfec567, 0x7b3a6fbd6e635bab34973f624df77c036708c00acbcb8f2569a5aa01d57b3048),
(0x0ccd705b016be74ccf1f476d12c77e8137917404b2611ed8858b1e55d50a6ee3, 0x8741ade75cc7b2524dd55e17897f78d60946cb4c31ad9f1f737affc340e87c01),
(0x65b61a5e24b3c57f91678e818300ecaa94e4b4068d499534d54c37d50bb65b27, 0x90d75e28aab97b82f1b86fda2ae0851ef65ac4c7a5c664fd79c16a7675ed0c40),
(0x671529df8f4073d943f82bdd758fb8e54ffe0487c1a38cf173c1419f7ba06ef0, 0xc46d9f2d1f23349add1121e10d51ebe4454fd141c70769504d854cfd14fede59),
(0x02af8a760e7a169707af8e7030bbd2c073da3fdd4c6735b68e823cff901b0440, 0x55565be79ada7153c716597691ee33cd7c34f5add65f543f72ffd02626c3c1cb),
(0xacd81d6fc5ffbb874fcb3b1fb7cc730a4def3fd50ef59fc42fb9472a6f575707, 0x8e319a8ec8b8ea9e11ef47eb5071b696b87c0ec963e851cce092964601d181a3),
(0xab77e7d53ab9e8bc2052d0bb360aa7f2ae062ca99b91441bd60ce8db80ffb912, 0x5f92b6d9cb0ab95b9eb992e5e1d70412aca90998b5d6ed8fdfa4c7522df96b5a),
(0x798b81951a6a8c7ef8beda09b06a23031d7efaf37b663265e0188ab378124046, 0x9592da1b0baea4303644a7e54e67476fd91382b5f1181de7a1bf9d44e02b1bf6),
(0xf2486aae0c3be77d8dddea22488aeb4c9dbff93a24ff6f29ed6d528b9777b096, 0x8e2b2d50fe75c8477c50327fe36afb0bd8409b628d83a8cc41325aa84829126b),
(0x222e3d093b8aea8be0f64ee33aeeee72d16ca088264f4333f9397488146d2d54, 0x0eff500fbfe6bbc41c2dd16e8a0ebd7937ba1f78ccb098a4351b539dcacdcaa9),
(0x6768d3fe7ca93476245a18eeab53e0024f99241d9c321bd0165b7d04c121c1c9, 0x402c9d73c9b997222319ff1d09e1c7780c4dc8250d030a43823aee8b90272877),
(0x6eb6740fb2f0880ceff25697bfd7815db0b62884cf8c8ef25137f098f22dda79, 0xcf7e8531c12f5713c302061c1f42e6ac79c4b695e458db685209f03f1485c86f),
(0x7101f3484eb05a7eaa0f385f367b6a7e5ede895971729ac2950006aa965fe51b, 0x8d1fb913a040fb75778fff9fc71afc2c2605595a1e44944be264f89310d5c3f3),
(0x75a9e45cacc6a25e3fe4b25f12030362a0de03eacefba87a11c8e6d30e886579, 0x52a85995e91986d926a02cf31001fd82854c49f955683f7adbe7c02bcff69c6e),
(0x31194d92bad7657298bffc5427f99adeceac14f7830ac1b2954d67303737dcbc, 0x99e81c45f5318eee9d2449fa33cc5bc68c556ebcdac2ef19a2d1ff3f5fdd2832),
(0x904fa3fe76fd6f4386ac613870b4cce3c1d743c38457d23c522958ac0bd505af, 0x942732621adf463379e929e454c705958dae9bfb3957a3045c8aae41a7c1763b),
(0x1d1861f31a828b323699aedef3fa265b040de14278a7df26b5fa93ffa4a8e0fd, 0xb9657781f13ffeb28e1306e3b84bb9653ffc30c263a65f611995f44dd899f7dc),
(0x3bd33def6de1a5d5e5ef0289e8565dceaac959228443c09b73ce545e6819ad64, 0x993f0109eb560bd4974366279a70e9bf8bc9851df52441c297535ed5d4f9c810),
(0xca1b7d452a39aed2a7f27b248e5a07c7e4c257eb7150e61c7bec7f6c58958634, 0xab11fe1bc0357c37b7da980439fb54810179c0f7442af2c7298facda3c4afcff),
(0x273a95cadee8386b53ff29a36ce7d9acdf145f7d5f928f61da6d57d18671aa58, 0x88a6359dbb06537d1a6c6d8324065284315a031c73c53ac2adb14f951a5bbe2b),
(0x7ea4c0fca139bbac553ad79cd3921c01c06923f529446279d0f910f9ac5561e6, 0xbd049d47045830e2f31e79822639f1982eb71c3771aed93a54dfa0bb296dec96),
(0x71f1801c0a2babe5d479324015ccc684d3823f68fcd12ce80bc496079607d336, 0x41ed07d008384e54209b7de37e8fe7a614430c0e439dca6cf5ae6ddb1ff1b4b1),
(0xb2838873652ba1eeae8aec5155541a3d7000ffd96279cf2a1c90582d21cd8828, 0x047ff15573f5e3a5245faf6586afcc31ee4d19f2a1efc79d2a0b4811d27dce5e),
(0x34ca8da722634bc16873fbdcc089224bd9f8164a6bf0acb5b68d898eb55a3e21, 0xd8afb76036a9c91c07769055d85a3ff71f041a905192df4b73f9100ce5c5d986),
(0x212cb397d97341afca0cf5b2ef6d796b4b76eb8789c3915aa0e723374b19cc8f, 0xf06e2cec5f29f06f97685f501126c50dff17e2732f78de64875c35d642f170a1),
(0xbc0367f643bd13dc32582dfde7893f69d5f29d2fce4b42e9ffa8091c6ca6228a, 0x9bec6c89d1251f064aff3e44ab59ac32c17641797b96f73f527ff42974556e78),
(0x8fcb14235d8e88945ab169bb4d198e4a5e489e33cdeb69d8dec100f1a9bd5672, 0xfa1cb396bab390b260302a46b4408427c45ae3205b1d1f5fe52db790e7fc057c),
(0x70ad85056675ec20cbc43e8011df60f4d4917e84cca250440e15c2fae51e64ae, 0xf4a51356af9fa7c9a5e62475df5b713ab63d68e0cbef44e8c004fa611d5a800d),
(0xada7af474807416886e6df81f9718c06bcf6e6d9846fa8803ede1f6cb9695842, 0x0f66d51f50f427d4dc748bbe0771d95298369c91000c41dd575b76db988a582f),
(0xf1b87d8d7323ebb11bb8108f9d34f8e9bf1e977ba527c52c7f045d8b1102eeee, 0x0bd9570351ebe7a09ede584247b755b37e2aa0e707e380b79bddf768b4346556),
(0x93659d5ad55264eac900c301cfed7b831fbf7c51766cc833cc591356492a0553, 0xb69389e9646d0165afa137df1c1d02a3519ff65d8856c89ccf46de05c0154beb),
(0xe9d2bc492a9b4ffdc482f54a415beeec409a62e5d1781f48b1738f7d8ed4ffe2, 0x893e46522dccbf800ddde313f4f253838d639208361506316083040844305df5),
(0x1424160a7bf1ad9118103eea372da6a5825e0bc1a8760744229e2af7906cb210, 0xc94da22696a75d711e6f1d0e10b23e964f1519e91f63743f209ef8a13996af23),
(0x7f902712402e4bd4aabe434aeb5fa7e98686d058e6f26300c458cee89c9efd87, 0xbc00460b2aefb418b16cdcddc88446a71b8b018c15261602669188ac62f95fb5),
(0xd327ce7c66cb0f53e86e5f16c8dc29362a133f6a38147c01255c61f56f72745c, 0x4dc1498ac3cb39c106908b85b8c52dca618cc6d41c6f95f8353758a386bea436),
(0xf044eb19c9d811060013803be8bbfc31137dffce547bfd1a0d5396ade32db3b3, 0x5ad4428d9c4c3e667f8551ceab282cfe8128a8deffccfaf7c102b9df7e526f2a),
(0x7a6c5237b95d19beaf46a81ebdd54403d135bbb7f3c03d55f67c5cbc0e18daf4, 0x62a2e8b847fceb5c484fc6e74ff68fedbd492c668a70c1d70cce2922a204385b),
(0x59c7fcdcb069c0b7bb772afaf5c20846ffae949b47589bb580495bc1b59f82f0, 0x82ec588c6657566b71ba4d79ac8e2c7ac09b3652f24d46ec3358eeba126c38ad),
(0xf8cf3c211ed4558cc40d3dc6dbb85e5481d99fdbcdf27ae00ea01bd46b6543d7, 0xbd8049d01c3df6308951f5dbdcce30435506a5c3e0a8bb20054de9dc87a9778b),
(0x3855d764b2389d4f1ff4718933aca82a4d2dd23fcfd137642782ce71524504bc, 0x82c4ea254af2abd02724ec346aae3aa3b14a71eedf13df959446c0bc759ef72d),
(0x77644b311de4f0d8d30b1d7335553dab6d3e0e6daf7e6ffa48cddd1a52de5431, 0x645e17ce0c0a0735737730f992bb74317581c930695829b4cdbf5214f45916b4),
(0xa4d4af43afd6afbcb2a511daa6537abd56bfc0cf76659d3456530663d9ca138d, 0xbe6c9fd0dd2df31bb907f0737d63df3488b5db5f3d5ff747a25a2beb73bb09dd),
(0x417ffa3fe673a081f72c3d645e64bc612da352cafb66d1aaaa8fc06074a75be5, 0x9ab8be2f90849474809472afd5a7490ecfd9ca4a7f738be10de093e068c50151),
(0x78175154931150416cbd772cc74212c44f19eb0495e88622f75ee838caef73cd, 0x37d4d5c8ffec365026381b91d7cb18defdaf2cb0a5d94ac2dd7bf7fd34d0d3e6),
(0x365c560c3acc28eaf560c66c7e76625a3c2ee7a48f62ef0f736253fa0b1b5121, 0x25cbc6fa96c0f15e38b03f88338f8dd16990aa15dcec58d64517d37c5b74868f),
(0xc945ad251010023e9126b6cb3a19a9256c6757fdd88cf808a94fa1828f5bac7c, 0xc9a8e90cb4ac43bcef08ae3dfc66f6db99df4abb2679de5b174df92ad654e2bb)]

/-- secp256k1_pre_g[2816..2879], /repo/src/precomputed_ecmult.c:2856-2919 -/
def g05_4 : List (Nat × Nat) := [
(0x4aad85ac45e6d57d73822387632863deac8c3fb7b7d3beec629c0e1e2c2e0213, 0x38eee8e19e81bf649641c192de53a07129c03689376f65952130b63cfd6a2708),
(0x2bc102480b0f6596adcf9f663f624461907e37ea7d35367f24b9f69a26a291df, 0xe0ac3ed33016b37a91a780f6b90b774324ad0c3050812b2f4f35426f04311c79),
(0xcdc05991abd28f930e81a2c09a04e1faeca8940081fcfcffeb91c8d393ddfde2, 0xdfda4ac44458e2b03feb9852d1a8822f8bf90a4ebc79ab32afc9a1b7580193a5),
(0x5a24eff0af2dc429ff4ea8570f8aab1031d285ae9c8beb7d0793bf9ddb46a047, 0x179db91459739160897f40dd0b7af0b8a98b6f616aef7327b53b60059c4c8f9a),
(0x16c1e53f51603ca9374aae6b57d15fdbe7c1d2b0b0545467636fe2ac7838183a, 0xbf858ef056e09bbf5d8af50c7e0fdc908d1f6c1a0570594ba536897663a183e3),
(0x792f1eea71b92f9ad893a116ac177801a2f2405b1c6846eb0c3a6559eb01ccf4, 0xbc062f0cc610ef39311ecf87a7866b9c52c0df0bbe1e01293ccd0b7a2832a79d),
(0x1b399c40f057719cf544dc5151137fe3917dabacf0804dd7335ba65da57378e1, 0x4d6794d3b6e8a08541de872c1dd333a2bfdd0712aa846f6d380a775c600b425f),
(0x138b313eb9c45cede0cd8219b888c51f9f8cd278abe16edec210bffaba238e4f, 0xa199a357cbc8042f4b6d49512f0acd2613f0f76dcd6dbf7fd9e8723ce6ac56d6),
(0x3e06c3119c765664d0068b24cf4ae1a48f40181117c9312284ffc24deb542338, 0x63a65596e5607f1b6a9c459639a90d0693b08ab32807b696498e75570673624f),
(0x03f32f9b49c88932574e5455c179e9de80f0f6deed1ed25f8a3de8b4bbf8bd2e, 0xa2d2bb1a5fc96f89ef490257bf42a9dc091f49cee2b864728551fa6b6a589f17),
(0x89adc417ffccc50fa129602bf5b1b82a2c4f5efbe3382b041fe7729946414ec5, 0x4ce7e75c291b751d0155c2915aa619ef6c3daa2825da8bc8e2c7ef548c253215),
(0xf33fbd626bec8c9f6597d48602f54f65e9f208fa07c1d619a13feaae5ce4e9b5, 0xc8f0602bebb9f15287fe2eda3050b032a6f43c8b7726825edf02b42451593774),
(0x0eccc8ab7b90e2f7e45f7703a0e97406117fa04f4512071d568e3e64a4a7d6b8, 0x8456f705a9c4a0d8f2f3c2333c8bb367fcc8a6450f1fc56048e1699a58a1b6f4),
(0xf6962b33a7ad862e58181c7542743ed00e6e31d54df1fdfca4e3e95a157de915, 0xaf3d47fb48515cebf9f7e8ad2a0159aa055c155a83359cf209ee3202ea9e6605),
(0x03f1f3c67996fb1065ed5df02095926a5c45d2f238ff59e842b9d234daace24d, 0xd585c9e4f0a29f0a28e3c30b22228dab737507065690811f1104bd4a6d0ea28e),
(0x0fcae01936290e43d8bf93c16ad2cd5edc33592d4081b0e34aedd4516e6e589c, 0x8e98579ecc42a4442dc710d88cd09996c8acb958b9702c243a207ba1471165cc),
(0x548f27ba0355229d23b7922b5fc8efadabc4247dbaa312c6d89570ab151f522c, 0x0e5597d8bbb47cd7c8cba774ff37c81eb7b63c6339b9600acb77f1b886ab6fa9),
(0xe2f64914e8bf347ed465cf1ef086b7be49797db8611803ab6e439bbd5c146fa0, 0x8e69e76f7c641e4f15248257077aef9b88b27a9472d565d1d2ed7463fc6ae76e),
(0x08c532a02d970c0f1d8f97622298b40dc7d362c8f38cd1222cdbeaba2c13db1d, 0x90f8a2e90428d66d9e8ffc9fbcb7606f568251b62dec276801b6ffa87062bd0e),
(0x64646efee3c51972f6af7e0c8052aec46fc0ed97af566f6d3c32321862291a23, 0x9e29e150f6ca370b36a76ee7171f2ddba10eb88a986ffc50d6c8f4f7287a69fe),
(0x6e8ba4da1df8dff70cbff69a06ef65c9329199bf9a67d1b51eb1e1f3473be659, 0xae7562c8959441a735ff21883e537bd7eb5a34a27e144a060f674679815d852a),
(0x8c21abc8f7812c0f6de0d7e1cadbf1f6c94c871cd5b8e9cae76c1f332b6bcaef, 0x5a7c9cc313be03e25410ed037e0cefe95a36d6fe68ff46b2663a0ca9747ed53e),
(0xce0e383a7c487e1426636ff7657a28f010ce51021eb89fea3426b2692f9f6353, 0x3f95a465d43f78042804e9da4c73c8ec97fcb9f6fdace280532c0c0d6232e03a),
(0x7e33097f51477c4ff445984834673fc28078b6c7c01cb700080a37ee1d698eb8, 0xc1275bc07317c679d881d274e49065a2e282b7e6970065ad141c1ca5ca2d75a7),
(0xef4d9cd6b1487e61fb31cf429eff2731d686eb66cfb3f8679317b0e4116837a6, 0xc4f6beb4280ddd5a24f6461a6ea1eba23bd2ff587ff612ecd118b76a3d63be1f),
(0xf3edc1452ee49324f7890bcb9a5f8ba3ce53f4a2df0c94b992c573b2f3716290, 0x995446abfbc9b27a8db301f087c2ae935c390565491c0dbf552a9820d3fb2f2d),
(0xc1f622517398e914d6134160318d20c687d174272bc62c92bd170ca82bcaa975, 0x1c85ae2736735b76d5328d593292f718f6d6da5201c75cabfcb0672087769e99),
(0xa7e81df9605f0881d48561533e310715b206c6019a55b8897141321e463dea8e, 0x3ae220fd1f361be0f0b70dbba7df796a0eb23deb5c5440adaa16fef97cae8a4f),
(0x1b69bf298f5df2967a3ac02887d4ae5ef46af5ac5a8cf3262fe7282be46a536b, 0xc9c624aa02d99a71ea375c68419b38a2d7e9d7fd8880dc6028c24f2ea846a91f),
(0xcddfef74031763b98df15cb96b3b3127b31c9987fd17251db56122eddbbb44bb, 0x0972fef42e935aa34c679ce26a32a38c225f08678f780b65854459e7f24869f5),
(0x32fe1cef2c8a516366b47d309ef01e20ee07f235e7c0129cfcb70fff60e957ff, 0x9e861731bd3761248b33babe00c354ea3d13b2c7c45b436fe754edf24fb4588e),
(0xa382fbe9f4914119d31d0ccf6afb61fe4a75965726556908505225b879c24b0d, 0xaa30036039a1bfdc273e0287c7c222fecdde6318c9838a555136cda8d2111857),
(0xb53b54399ae330eae13e246707c0344d59e305a796a228bc6d6914ec1a80ef88, 0x998090538dfc6c5d748f43cc8ba8a8e2969d8d1c47551a368f30ee30d5fadc7a),
(0x621b5253f11cfec3fb4bbfed98b0ad9c710fe2af06aedb8df521d0dafb64169a, 0x2a234dc48b716af622dd025b63e05c5f3b93005c13614bb3abe0dbe9260378aa),
(0x83332b6ccc9c3c7f3163f44280f5758c1e5979fab9a500bed5b315e0f9435b04, 0x85360612258c1f1cbda41025c402dd8460c77df68762d2d416aa16afdcd30ea0),
(0x27c8d8e3912026222f72d926da01b10efd54e21a7a4746b668aa868fdbf6538a, 0x88768e3fb8f2484d56c9fe83fde0fff74d0c0a81213ac090e90d2b4222d6eb91),
(0xf349c70bbcd820052fd2e05ac42556ef6ee768d4f08b7a9155d1ebfe060067e5, 0x6d595c194011d050c7c3c4e9e7aea90a93fdc5b071d6c9fb9f621a4e750c6604),
(0x4966567ab202996662b1368bac3f89e1a0183b20173a7156edb827a713b24f90, 0x6ef89436c2bb3bb094910ee76c083e35a097b8591665894701f59c33037e21ab),
(0x4909501b491da13f78645b849bc63fea75611b7605ff6eb69a7414bf913e0886, 0x2c20c6b6f2ee070dc1dd4c956822ac5c38b1acf75e093f17c54b65aa81014df8),
(0x1ed2e667f5a2d14018cd3ee40f4163f7bd5f898eee3dda72bf84e35610cddb76, 0xbb4970c564fa4ceae204babdd869e36e934810ef68a227940f9919e326db8e7d),
(0xc47bab410a0bc37faddf9c8c7de86d68c15d1a0d85257d5702a1d60d4612f17b, 0x0e52acb136f47de11128091a1a3cc3e0e84ce767cf8395cbb09eea81a2db09e3),
(0xe21068c14993cfc435490b525ece7657f70825f3dd2138c18f5ec6a0c67a7394, 0xcd610137d48f8d9b2bf9975535fab6fb065360fc9db04a124302708300c732da),
(0x635f547d47a72f5eb069e14406508a4600bd6a6f11eefb87da07e4f43ffaf917, 0x8ea0a9f23da273b4f324c8ed81cb0bf021fecb5754eaa642217369232be64128),
(0x24632c0a8648b4b1fff2f79ab3f8e64d3837b6ae9329eaa848565f0245bdb47b, 0x9c6d0788c9e155d33c260360862ab236177ff875a38231798146e442f66e0426),
(0x43748dc3cfb229d48549cc56ecbcb01b146541e15d2c3b5ed59fbf7a6b7bf503, 0x9975a1ed23a099063b87ea7f2ccd88fc0b20607e1aded9a9265f34c145fb9c5c),
(0x8f848323b8c41d6831603b4069be1ddabb8750d011527a5804bffdcac3ae3ac0, 0x77a8ac87128260c286f5805ab17e5a45be81f83a2a575c6e2c88288ac2d1b37f),
(0x29ebc368b54d846dbb5e8be481c19c802d8907dbc54412cc6e2952ba2948422c, 0xe6b793a281d59d9053aeb2d6f79cbd1a426f79a16860310aec72fe2637c7e845),
(0x9414cbc4ccf4012c8c0cbe21eb714953d84bc6029f8e48105ba79967023ed345, 0xad1eeb9289e4a1092d132790ece35cbdda45bb64bb6ae72b39b9eb80d57fdeee),
(0x1bd8565b769d0024613ab81490f214c80bea90a5db1e75d411ec3dc7288f756e, 0xc050a46cfc781e91b79cfcb02abdae50b69c2cd7dcc56b131df2175dc1d375d8),
(0x04f7584c35ad66be3d409154eb8ded6714ed0ae3288593f276cec90b0629cb01, 0xf4be9248232a120e11ccf1b3e9c5a17e1520fee18f1da048fb01eb3c17712bb0),
(0x5b0009de7e85b317ab127401fd2f3cedcffd1684c4772b352b9c783e1dd9f13b, 0xf4585704f531c34e3377cb7ce672c78dcb8839beecfe048dbb412328b973ba64),
(0xc66f31c379396f012ea5fdbc4222df3837f853533f3ed9c3ad13bcac63b32815, 0x07d7b8084ae5e9cbc123ca861b5052424113ee84bbac5ca3ea1cd3da6eb22668),
(0x33097f5dc8b0993426ba51b3ee99e6963d7ba455e91a7af1a57c85e65e63abd6, 0xfbd26b3b200c189dc8b9e12061869766987401ed66e4ed8063835922c270d7c4),
(0x1ace5245a3b7ec60b9a922d5ffbbe43daa71cf0b84e395f8c37dd2a9c85ffff4, 0x72c0ed6794708f9bf29c51cbb6cbb69c06ad3f4d10d629871c444da1bb25084f),
(0xbc197b9e4cce4c2cbfb2252493f9202c6ed54e32cd52f512692a5af36b0c4471, 0xd51376635182065da4d6be56cec508893cad9b954d5d17dfadb084fbdd673f70),
(0x66997931334bdbed174cfa733ecad89613c6f500b79a7fab76ad0bc8dcc7df70, 0xfdbd3301948e198eee3e7d3a504ac560ab00afdf269403310d49bd2c6599435a),
(0x3ba86cdfb38d82f97c20b9620103f79a5637422f370b08b389083cc31a6eb4bf, 0xacec981176debb139bd7f9819b476e1b5377e32abdecafee33dd6ad23258dfc8),
(0x0f62432f9db971d84c3acdbdc2d915d66395199f76e81243fed930dbef1603cd, 0xee89cf3d177b4cc6e5856acd5de8757e82269f4eeb11a444c2e0c7974a7b5f28),
(0x84b41bdc6a6dea460ad6e65005b280a1b6d81250794e0b1d688aeea9c067bbaf, 0x9f78703cb535b4bb2b88cdf7b5f0f0cbe452fe6e5cd0f2b2ab8c24399fc00e7c),
(0x8e2dfea93ea64a14e28f488398b8d455048c52aca5399f8828a42c1ac89d4c67, 0xfec01549cda53605335df10dd8ed04ebe09d7474f69deff75935a499f2781271),
(0xc3bc6dae5401ac1d3fd75e364cbc2fa1dbd2f6a240e912f118b277599b105e0b, 0x170fdcf55b739326fd234506303700b19c5dba48b6f0cc340a650c3f3b63d6b4),
(0x33093e931b1e52e7ac5a289e027ff810c2defcede935795da10ecc89a3c14691, 0x7fbba5845bd55ebda67dc8421ae10fb902114f0bd68bc47a7ee87a7f70deec38),
(0x21b35438b6d1a3ce006c765edc78dd893f121132ecbcc208a36fe734d8141ef9, 0x0f6115a5ed237dc8f61a82b366fb508de2d516be3b166a7f2566bf06eae300d0),
(0xced66583aa1bed1730248edf28e9e4fbade708211c2e48de03782fc6d3892df3, 0x4f43ad36f29da03bf0fe634e3c441c42c3a818352407f1b6cb38e73818fdec96)]

/-- secp256k1_pre_g[2880..2943], /repo/src/precomputed_ecmult.c:2920-2983 -/
def g05_5 : List (Nat × Nat) := [
(0xc5a74420f541a8aeb067312229fbccaf37f6eb7cccf2bec023a8573bee6f71f8, 0xae634c0244263d36c00a6e25d25fa5921612a5354934d7096c86486560adb259),
(0x304a048bf30f6b4b2a72552115b15ea48311c51fc4cd212ef0a4bac148b9de9e, 0x8f9359003d6ebf0d129cb5dc8a953fab11ceeb85b2123fec154b065e063bb3cd),
(0xff96b5ae7eba0af50ac9875e97811e916ecb66f13bb0651972ebfbcd5b9c2048, 0x24af2186bca71ceae58a0b1db56aed1b3de89cc870fd4e3c31919e2f6352a887),
(0x5909ce1cdf732eed0414724376fdb3ce8b6d38b94a0b35d050bdce27b1b701a3, 0x02e449440665e761825cf22390383a3f7d3731bbbf7792b037fc05e0b224dfdf),
(0xff6b771f86d666106fa032b79284454808ef9974caf05ad7cfb6b30eabd1d527, 0x6abd2a9c9393e91cff77e0557e9f6a869fcd0bae3544bf50b25f0427908ba4b3),
(0x943ccf0494dd1fad1efda48a12d9ace7be9196857e7fc5f4befd7d233a1aa8d9, 0x4f08b4cc2dd93f8b3751a23fca7e4f106014e01c58791c523d01134c1a0a7bd6),
(0x0a79a7a7a89e1cdc908e0968bf26c34147a4638b1d9cb5b3ee6c49f7405f172c, 0xcb53d96714b5be3ae5497f34ec0325b3ebadcb76b9838cd1b3cee90ff3bb8ceb),
(0x28ff2efc71176efaa861667cd173f78a4f548b36aa33db2fa50c05151c7b89dd, 0x475b3707db4ba15f1485e16568d7dbdf8e67cdb337d79988dc6e2249d6fe4941),
(0x85b2c33216a86885c0704fa255b4ca00223e897af0ae7557f8687eb3b1012968, 0xa1f58d45ba664056efbcbe7af0ef479e1f2bcbe798d055c57045d735d657ea11),
(0xe9fc2d09eefb32de4068e2add7bd36927a02b3e0d354dd47c2a70c9a5cbb8778, 0xee009aa51216d06803ee219bbf53ccf4f249d7ecbd8c9cdf80d0ec5a5b65c312),
(0xda2dcb50afd510d326e38af95a22850aa1cc88d0620fed65763042f9a0005d9e, 0x1eef47b1c37009635e16af23f1308de9ae0eab9ab16c94436d501ebe133eaeab),
(0x20daa29cc6b166ebce71740270873566327891d3ff7b6f08b9b7da3c1eb352e0, 0x2ff6982cecd6fa4dec1d669292c3a326a30cb52604dc27a4299dd3f77ae8a3fb),
(0xe16b08dd2ae5be1367547a53496f9f4e3aab84406cc34bdd71b2ebf753674d9b, 0xb70f724bd9522b1c8e43d60d6357b5ba48a1afc8b7136c1d9317a1d91ba06846),
(0x888a2daf2d69db340ff9485e00b06d44c59670ec03c6847580753567e56b93d3, 0xddbe4fa7792e0b82ac4753f05b271aba8e804384b7949a9e9ba79fb631d4e3f5),
(0x747768e29090fdd52c22e308131f97b2ee6d8e0cbf43d704d50d60c7616abd12, 0xeaa75f408d1ce0b4bb52879e5ee7ff3627b26645c8ce384099dbac609cb61058),
(0x8569f2ac1c7d131a8d337cc887c00c1f80897a58f91311435a17d79cfd8d6eda, 0x504f0b44252d06e82f8e700a746a339385e43baaa4e5da8edda7ed6d83eacf71),
(0x4f15f3f9a67221dc4fca1d680429b874c4418df8be480591e57d6841e11860c9, 0x982c0d561783a9c1a16bda1087d290613f1154bc4cc62a820b795c54a496b7ed),
(0x21e51a201f226e1e3ebd56ce6f7258d604e4f9dbaa4259439e1bf7c0144a92ce, 0x4c47a801b6a5a4ad25c1486fec9bd0aa428f31674513635918d4707975aac869),
(0xfac7e42e8865ec0cd0b4c4f9dff6bf8be0f28336395bdf2ed5e2a1189c0211a0, 0x36812d9c8337199efb1fece11997307ace656fb73bad65c641e6bba2c4dd695e),
(0xa147839ec91bc77ecc568671442d29ee57f0f42d7b9cb469910645491a26d225, 0xf404350ebf7267f186120257fa29fc1afc0d064e2f14eedab730770ac85bc5a4),
(0xd1212cf9e508680444883c1f4158f3e344a7900f716ade2bdf19e41c18636b8c, 0x0720b85107b91665128183a0f3235c6a2f9c21c80e8c6ec05553acb027fc0964),
(0x13d5f334a7ab25780977c12501a07d7a2e4852ca08927ce72dd9fe908b948975, 0x973869e2d1d0abb51ce31db1ae8c3816ff998753479fe82a7d87b6eb798773ca),
(0x1f0669616dae9e8e76a9bec326bc21365ec754a534c787e6b9abdfb0e463507d, 0xda48070eb4ea111f881f9fc12993a9bfc6f999740b3353ceb5bd1cd1c75b262d),
(0x0729e18738681dc3c4ad9a4959f975f5907b15d00114e0298d4aad5f69150269, 0xdbf2ed8ec60ea01b6de0022c8b035a7ec1901c829e8d83f24560659f8d455442),
(0xe92fcbe9613534774d42435fde190c268e3692eec2042fa02ee216871dfda12a, 0xa75b5c0e3f5280d641e369575e6ec5cf585b14511f01da84fb852cc82d64f2ff),
(0x85c2e61ac69f8d39e9c4dfbf93f6b9041ad35bcd7f2b5c1c789812d4c8da36df, 0xca6d9187694429e1a5ca50b3332ab11a575264dbbf297752f38fabb3c0b53f45),
(0x10d17632c33cc6b40f5c2791b5ae4f003adf99580879c24f10f147e1bd1bc05c, 0xe15ee734f1ddec6f45dbae0088e4c5c00be8464f31205718a8b2c929939a687d),
(0xa694234525938972f39820bd27ea0bbc92511dd6827476f028fec86be25d609a, 0xe06b3616870f73f493f6d1b66256cb48af49ee6c0b5296bd0ea730834f11d6e9),
(0xb4a7d8ed2b3dae3f43eba05245b6c4c7c401a6756bb0d90604f66d88df94d8ac, 0xffc81c631a2cdb5afd7def119d07af35074dcb04e10a5ecfd2b0a46d90963456),
(0x5aebe21daebd3c57285cb660d9aa55d3f84fb2ff584f12663031e2abdda6fd17, 0x022ea5136a51b5320d178c40cd5c84538f5994ef7b35cff6d9dcd999daf1abe8),
(0xac684664194388d5b796d64cb4563aa669388d0d83861c51278316e72c8c7f87, 0xcb9426d82dc90b01097bf1143f693e934d71098826586e5ff8913ab39ef41ac1),
(0x6f94bd490f89e621874c58c2f27ce8a976ad27641627e8356b82157c24955250, 0xd24330ce4a54dc7c5c7d9cf68f8622f5e3633a858ec0d2ec0d8df3f9bc7c5614),
(0x03f96c8ce149947a06d9ec5c9ac5ff44775e068a785a2fa9d0940905a008f137, 0xa91dcfaf7111a5063cf613d4e360c9fc9b7d9e4030e00ce2b120eacc805f3f40),
(0xd805b05cdfd675d3b862a4c174909974405a5b619b2a73c8f3470959779c707d, 0xa68b544cc7279f2de3a2abdbfbb7fcb184366ef103cc3a66b6d8cec83c3b6865),
(0xd2293c0bd4189cb66be0efa7874abe9b591422336f2f71d4808be34e079df0e4, 0x5fbc324887c54960b9bfe70a5cea38717f24f79a3fe0d31318cc068f212682b1),
(0x931f090be22623fe7ad49d26e76b3c5de3f107fb556f96570facad9c5b209d5f, 0xcc255e79d2a89899865daf7481aea395848f57c01850c144d5ad1a174b1cc087),
(0x118a62836707ff6bc8ea72f6285403a46e4e690adb340987a035973239e5ddc9, 0x91f00fe5e65a905836f9d4470d96af84b6f5a18d85c127ad72221980f7ff818b),
(0x81096ceb5b6cb49ad014ba420d1d49e1b811ca2d2e6614be1891c6a41f6a985a, 0x0da051c5f8f9f3e578050a3c1354b6743f4948606b04b8f5b4dfe970b7607e5d),
(0x9a80a4385ff45ed62dd3559e783eb47c351b7e436ddc468b9f410989300cae06, 0x845d1f9921b69c5b4628aee8b0c55398bee65659e3e41cad30e57bf8b804b6d0),
(0x6a3168f3b89955b97fac1d5961e95fea2143954dfbbb609081c2408f46747906, 0x5b5f1f886778f1083ae44a3f82c901b6012c741e811d5403c483c5728cccc005),
(0x9a03ab1178d165ba23bd429858bc8ed7797710fef4f8d8a73db0a90fe1214af8, 0x70888ce7e61e4bf491512f2bfa556f5159a5550a1d50a65ca652b5bc89e85665),
(0x8c90c18d78b8d9e159a6157548c14971296c8c41991dce25e7878ef6f4ea2f5d, 0x2a5428cfde628e51a1644a5e5dbb72272b97c0f9b6909a6802814882cb1ca074),
(0x2e9bab7f3062024d84f7a5daa02c9ed093327923339fdd43b68d6dd3508a8957, 0xc9af80b73f3803c9f21e21f19523b2dfea7e4f8c9a376aca4a147530d2a43345),
(0x2734bf2e718ecfef64a95e7c1fbe6a37e2129898343af84db5c176719a466322, 0xf530098a9f115f0ce36a0ce34697312c7d0a1e4bdf8a3ca8f0a63631e684216e),
(0xab9ecaf9500e4a4e6e81b997579b52144af3257b8c8f40d5e21c2a51d56aab58, 0xf7d387468e0818449bd5e9d1938a8859d0aaede75743dbc3ff30d51c3de0f047),
(0xae25f546a4c09ef2e5a9cd3e85baa880292b4d4d4e8440c01696435acb1af368, 0x46a2b3b37373840fb739a9f22953c6c480bd59f211013d59e051055ef7f3da84),
(0x54285da64ef21cdaf597efaa884fc00f4e35abb2bec04ace54a83dc1c12e6142, 0x0483beb2144d7b5ba47c2dc29225dd5cb962a8490d46ff6e5220b6c320cdbc3d),
(0xbece843404bc231f60ad542ed6a7857c35a627eea2914874c8deb66137dca65e, 0xa229fb8002f9e72f8e477fb8de081254fe1c93ada4d3b4f8e9c2f4eb3e2f6a95),
(0x03d55747b148b857472fe5af1e820bbf89994a2dae6c326b26fd9cb4fb5e81d1, 0xdedeca5ae86728a4f635bc4f1b2b162fc9ea7dfbefd5852db90001cfbde465df),
(0x13c68219d1633c7359f6361a88bf6a721846b52033475715fbc97dcf75cde5d4, 0xce8a3cc239fc7f2096abfe7c52d79e9fbddf0ce2ab2b6e55935413f937f83af4),
(0xe9e40ae1a8041a47274c481adab52f1836690a29be83743343650126d5b0a6ac, 0xc19958b79c9839b81371f314749147cd9a22fa22a55da9a9577646f238c6bb7f),
(0x2e3b45537460a1a5f7353a5378db61c913af43719a268eea6321b4c8a1493068, 0xf7ba5e56104966c84959d3e2290e55015ccf5cf2b6fb5bb6e0452c5dcba54dcf),
(0x9855bc82b9214b0067eaa40ebf670dce6a59f3dc4cca491edb1f0f480b4c62b8, 0xa7d93f6e3be6c73ce9e37d6b5b07160387184e21384780098d4c1c80ccfcf435),
(0x37f820a9b93429136d44bee269cf27df67486bc5233b8866982f847615253979, 0xfdcaea9daa629d377f345a5a37c566a550dd893b9d7ba88b2a568a287870ca15),
(0xe82d2c98a92a3b0c690f6ba28070c59e3e0cd0a2a384d3b03cba9d1fded41a98, 0x31e73a3232d85b3614833d344c7d502dd09d7ecd0614b06095c86be0c8501460),
(0xbd492fc36dd4c9066a0711827eaece3bad46901eb400bf3a24b937999a923419, 0xcaada3c51e1fd5a46676dbd0a7fd40498b93da93bcd25af5fdc6a0c901dd7798),
(0x6c8b46da42d1ec4f3ca2c4dc15a69c80cd8f0d997bdf39641cded32b8629577a, 0xd3ad4f62729e42e0f72ef5965bcbc239cbeb988ee62b30a97f124004c718c956),
(0x78b1e9e6799bd3dd854a25d34d356b4feffee71aad0c8f05ea9ebcc0f8f5dd62, 0x31503ed6a26788dcc07d70057a300665d726ce2b702e65c1dd25f8923931145d),
(0xf2ed02a663c5523e3c68cda6bfa4ab6bcb53fa5c015f0375c8974eea5aebdccf, 0x03bde5c3afdc0320e3b922413220ad32937720a8d1477b67773e725a3cf36382),
(0x7e43f643a45800bf07e54d835ff6ba20f67ab1015d1aaa60cde0967d42caffd3, 0x1f456eda0f473399b57fbb37807b526958600d12b556879a76e214595798d68a),
(0xdf15e1775eb73697aa4c0a624b4d2ce97ccde2ca66555d076430b65661319be8, 0x00496cdcf1543818c2173dfb8a60ee2d08397ccab16e4e53b35079cfb27311ad),
(0xedf1d7060295bb2012dc16487940e84b6707a3fb91a14fceef37f669c782e2ae, 0xe3a0f2f6fcd76c97b20b2dd68e888eaf9ed8f598f08e4d7d239a8964fe019a2e),
(0xc15022b26b15821f3be3c31373d0464dfd92cecd6ba87c2d9b18fb5c16f8f6c0, 0x78cd2370d94e2842e07961e692e9fa0465d57f25a80feda9327581bdce136c2e),
(0x0bd4df6bb6ae15e0109886a28a8f8c90c6cc2bcbb52dd105e277da7ec76001d9, 0x499659b2b0b4cb965b8e502996ced2e3a6f6fadcda01b87572f8727d8ef1446f)]

/-- secp256k1_pre_g[2944..3007], /repo/src/precomputed_ecmult.c:2984-3047 -/
def g05_6 : List (Nat × Nat) := [
(0xdfcec232873894ce525f9b4f162f180e1e2d6eb4c846bed4b21097008fbc0b76, 0xafbc761bf4c88e719c318f059a10ab3c5a477ec533243b953f8ef00669b4f92e),
(0xb0076c4de3c94fae23659b005b8b41fcb8473935764e48e1a9eb1feff5c94e54, 0xe1eb32553c55a6876f42ee5e44830a09fe17fda1b84e8551f3ea23080f9c7d4f),
(0x09a1fe9c17c4255cc11e9fe33d66787a0fe9ebb099be88be94b4c3f0da2d0c11, 0xe6aef70999a8e7396e23e1aac7ad1cab25f6fd6e62df02b096af568de88e8379),
(0x1d89a934126bbc15d9b99b88b6c65106e1d8b16e799630f22576e9e415212899, 0xb7e3225692db07220e9a79ef7d95c50937d64644ed36cfd756780d59a6f8f4eb),
(0xc60f5c68b67b37963c462d4f7530edfa3454695621bc80a6ac2be433700c7fa4, 0x88f8b07197fff0e3a19b5a6760dc92d3b5507b535cec02c653f75a60bf8a7e08),
(0x52cd2b6f0d9b26991b76499ad301be436205761cf768eec9e6b7d6c252d9d949, 0xd127cc661fa33508a0d11a3eac782b2626356382f547e4aa13802138030ec835),
(0x1e44499ea639835ff384f107fd16bb19c21fbea5cf4e3be920a340246d05dda9, 0x41c6a8e90a9042f9950d12db74fd0f218f8adf23e961488d027412c20f2d1f53),
(0x139144f0a56394bad1e53bae360136eb984ecc5656a05cb1c6727543fc6861de, 0x70394737ff37e9b21bf174ab6c042bb8964f3d016ea1edc1025ed3b42ed0742a),
(0x934ca02a2454df1861fcb9546634e68534fe75c8b6db6eb75a2a74f8654a2280, 0x779e9784266cfca00b83caee74fd24f16865ce3a6be78be4375fa15cdb195761),
(0xa64f047d9e1c245977da8c329d35ecd4af913baa2d4b679a7acd326d886a3be6, 0xe11e830ff3b4ed6d102145e3b24759de3210f3098ec57581e601481879112b2b),
(0xe1c688bdcd6290888d8820ccdf15fe8fcfcf45c4b8bd434e2a15428e818757e1, 0xbc10c6e171e7c8e0013b8e00e77bb745a34e7d1a15267600d130f6f218c77f7d),
(0xb1a30c95123170f2d9456de6827afcc90ba2bded0d955354c6deeaac68137358, 0x9c76a0abc16c1cafd38443469040373ea678797edfa1b2985a17d410b04071f5),
(0x24cc27b5fbb0291c3468ba2358f5e2534c7cf99f699af4d0d6892beae6166e85, 0xeaf369af2516ba42673c52e3ff0768fed51aabce2312b8ddd7aa1ed8cf9f71d5),
(0x8bb4017a6166d1e2f7fe8921cbd31ceebacab57784da8a92217aab2d948f6a57, 0xc899740e6c476986356e34fc7182996da09cad7293d78c8a5c30d56b088dc331),
(0x55d8b7ddd82fdd96e0ec17dc20b303fde6dafef5a527368b0ec99a3360497f6f, 0xfd624511078bd66f4361709e44e72e9ff4f29230d1fff657bbf84762b7b8beca),
(0x82aa2def5a5531af519cbfe6105dbde3109d4626ec47a8455dbe285234c94df3, 0x61160bea9f83a2e508c2df91925fbb258d1e60fa06a147c4ebc0ee38cd811511),
(0x36c1277cc6df7ff847c2cfbf3cfa9198804b03b0c28e1636ad3438cf2cf6f7f4, 0x2304fba274f81c745455d821ea58e047a7bb3b600e32f020aee5a2a516fe4833),
(0xf376fdcc5b44cad7e16c9e860c00b366d57b8925fa49b18c0eb8856ae0cd9119, 0x2d6acd32e4dee81f0489e3ef11acfc8dc3d0e7acbdf5c6ac74fe7aa050a028cb),
(0xea4e10dc5372e9f5d96e8ecb907d3a8997150b6c39ecfd1cc7aaacca5dc5030b, 0xb0896ea393b626bfc2f486d29fdeb89736d6be60144fc3f95206666c36d96ff5),
(0x74f392b4b2664a179d3f0a2c71b144b8a376ea19f1a9d91a0d181ca3a6fdeb08, 0x9bd4db21428d588f64ecef6799b46735c9523036406d2636c6eee083e09e1fc0),
(0x3a36c84259ba7774a41a17daf0e4c82111c13a6b58b82774ca6962efcd4855eb, 0x6ddad1ad9ede928cd65720c715ef39e5f35e46ba45d8ff482f095d2be0fa5e3c),
(0x9d77b2ad5636a44f16e7398146b17ea97635ef188f32764deae50d2a5c98c019, 0x532dd027a775861ab9392b8acb2db097eb5936cd9d2f7234f30c371a22ee3eef),
(0x2e7402e9450e2f80e05168a0f0c5f1bc0deb6117ee46ac1b39aae7e7bea3c4ab, 0x41e8f36b5606fe2b8ed6b3fef8821013cf85721cf242eb6034b82afacd82fc3b),
(0xaeb2cb254ed0b5bd81b33d35e8f00a5c6a6806f15314b320de0c376e533ebe6f, 0x6b8116f52d7bfa2cb3028249fc83f3175d761c0f76833d0b142c4d6a29b9d59c),
(0xc86224bd55d62c97a00adabe3a7979294cca663aba3a3655fbbcc3f45cca7895, 0xa319a3b7104f793536693adfa6009db41d857353fa950c21844323bbcd1cc214),
(0x1d1164cc2c576a0dd7b5a28bcfdce6f4d53ddde0534b3a66aaccfbba3eefe561, 0xb85890deaa25d897fccba6947c470e45ec600989243ea91c0004670ab44995a7),
(0x2b54fab413b915b5ce76620a5c493ccf5e7f0f418bcd793b92f26118a440e3c8, 0x8aff8d2556fead8d7e9bdfefbddddf377a61ce4b02effcdb30ad00164f9bf5d1),
(0x1f1f2a24a4e72a1f609428ac853e46d7a9718c25f2df988709a3aa605729b340, 0x0450dca4f4920bbabcf94f39268710320b6311204b217170991df2162c421cbd),
(0x412f658ee6777e4d24e5682c5007e05783fbc559f22f3200f185ee52c8ebd4e5, 0xc2e0b64a9d9394feb930b3d7afa64cb10c8399e327690e32887b789b6571c8f4),
(0x8495dcb5567791de976fec9a367e250d95102ef9f92c11fbf561f8544cf4912b, 0x65f809c57d3d824ef5e63f19153bda4f542e511f464e11c5e2a9c32a2a152443),
(0xf8e7bdc0d841c95e3a945b8bc85ca4c70b4a18a97a5646ee1bb4ff085956cfde, 0x0cd0ac83f93a367937c9d28c24b9fc086d6660d615df50111b4edd5df0ed6d42),
(0x8324625a4e4c1071248767517df28ad48c8c564876e4a13164f2f73062854c94, 0x761b196049922825609c7ec370626025de65e2cb240b83561f5cc2301f9bfaeb),
(0x8b1c49ff99f87e22af4b6befd353df1e16a8e1603023f2cf213ed85913ca04d4, 0xcd4513d10e1788652d1cff72822de2506abbf9757e2774c02ca1bde323ad6c23),
(0xe2ad61a120d24d808c830e89d630b46659deacf287aeb790bcaacb8296f4f138, 0x51cd19dcfc1c4867daad29405acdc7ca918497696003321abf5dbc6fb2186291),
(0x0e8dcd7ea9a9a6f316a6aa9153105601e10356ce7f4793ba9eae3ad034c197a4, 0xc835bad791f3aaf5d32e2a99e71c4add95f698926a68695c2e61ca8538ea6b5e),
(0xf0b748e35875b8ef361bba690cfb05c4d8643f959b207556e46908e9bcf81233, 0x6a264e515d163a7b678765f60c29ca61c1c0aeaba9ff423e91e9401b2dd6e908),
(0x900de96f09975a16766dd305bffe2423e6eef8ae93ebd7962ce97d5339af3a87, 0x894ab2ecd9c058a3a331bf65dbe69a49f33f8e9b12121439650aa7004d164478),
(0x8cbe7930d2ea23420730e3067e9ecf95ce7fbda1e6d34645a6e214a0ed88aa53, 0x867b156bf875a67dae27f2c8e232c93485092c70ec071ac9919ddd8570186b83),
(0xa0cbb1c95b35d243945a65c0fc5706d4e79237dfc13583e69a292fec9a25e68d, 0xb6d7e9d13cd61a45f81c8a5540dc06e13c6d70245e850a4055ba4eb182047e4f),
(0x148aac72a3fa8cb5aa6d3bbe05e987fcd8050c3d63b47f4c832a4488262463cf, 0x7f29de49a6e244855aa45f6d36f2e2bb72749f918258c0b292a33322677e4a61),
(0x3b9fed073a1afd6de6ecaf7efa20e2e6c28616fa25a218cefb07cf3366f3977f, 0xf0a85b3c5084c964a1f0c936e96ad3e34fa9e7a1348ed0fe0ac7003c12c65fc9),
(0x7de45ced5228bfd9557b443c30fa431a7c9cbceadfbfe0fecc565ac7ce3537aa, 0x515ddd3769107033bcb794f3ac55062d78e0118a60c98fc11999cddefa2686f0),
(0x9cc1a35a0534f5629801027474f3a857c17cf99ceba1d5aa251e61b255913dd2, 0xc092cda8f30fa4f996115da37bf8e12fc653e243af2bc7ccc691684c3e433ae5),
(0xd82f1968759b3b9cc76ad729828a728310fc71fb222585620920b6907ab52ec6, 0x54cd0a0526983b0c73808f8cae1c9d811b372082dcac3306c470af508818c607),
(0x16e6a94703d95a950c31bffcc291b60d01f9c54885e5a49824195eadb87b7586, 0x19e29938581b6b8c2e50d3655a957c0480ff4c8e4ed73276f882c558dbd8aafd),
(0xd07e7af300ee4f24e46b4670477c3463ad57a74e57a17197ff098e523b5cd237, 0xfff34e0f43c9165669b1019bef618888d4d175deb6f20b1bc696f24c135d0e20),
(0x2bf644e56dc027fc63a118a343faa4e98ffe42b90c98301450a1f4d9e5665380, 0xbef5c17577be1fc5f8f66fb7a06b55f7eb84ca5f66ea4477c924f9255a262ec5),
(0x518f0d370db1db9348c80101442597c67a88107e5e25fa3ab97ed524fc5cb045, 0xdca8750ea4e9ed0166f113a1449742506eb9f3f4df8ab7418dba0397694d7294),
(0x0bd48eb6c50774a12be9893f8c21f62457bf54ba8799928e9a9c725d6f0554c7, 0x200a6da8cd8f03006774bad90769f738dd58f350632742d2e2cfa787f570f6e1),
(0xccc8d93a871169e369336622b64fa1c0800c5b45e3c0b1302aa99e34db1517e2, 0x040ee7e4d45e6478efa11f1bc4548668888373094809f05611efd6c36d01d845),
(0x86f6392c75877992311d2e9a27be9ea727e8d01c0fc27dab8f4527f1dbf6bd1a, 0x7ee29611b647aa2a3d2b1304c49ee69057150518fd46add3e7caf34d010f7922),
(0xe034f4e5927b0fa6c3794105338751f99bb5a3816da1dc1bbfc41d83b7d7fdfd, 0xdc9f02cb838242e413282b05cbedcab9e902567bb279fb6ff2248e7541a5f89d),
(0x8fc36a160a9dbf005ee3a66a0b82551075eadfefb86e1062837b49cc6ab51045, 0xc7ee2c409605981d217d9957a004a4be66a885279ec9f74a7059499923d200a6),
(0xd7bb40bc54077d96d6489b71e65dcfe3997130deb517d12d9c10adc8e73278e0, 0xe20963662f64bae45aa0706bd96b5cb65897c0be3a8a9b468ce9074aa68b0a4b),
(0xd73576858054c7141147d2d6c265ce403c882681157b07e0b8be0a8863bd2ac5, 0x94f8754b2fc94239c254099e9cd5804dd2ce03a5380c59c24f42ebe585a9932b),
(0x5b6f8aaed9353ffa71da7e99bd3fe1653e720ffd657dc2b6669ae0da858f8392, 0x4eeafd05369c6eedfa6f85ec34e245f3e496684030253c106e74f473418f9089),
(0x39444d1267cc29e40384b4f49c4f4886ab4076a019a0fb39f7b72c4e42222000, 0x65c2502aaf90ee2d8de48adf35388eb9329f30571b77d0ba50ea01a1ca83d771),
(0x53de00dbf1efb0a3c159c4a7dbc9888e16ebad95cec2d0030a18488b1b0752c7, 0x328ecbd999475dfa752d62285e7bc51a87dc61664d14a6d33a55632205e2fbda),
(0x048a3baf9b4f7213e280eef0d5fb6033194d1bceeb48d9e3d4814a4cbd5ead39, 0x3b4ac9c9e04a3852bbc6f7fbcc94b20f7e749eed44a9a9ce7099a8bb28334186),
(0xf00d7630503c1ced3c418237027e22d7acccf406fa16eb6eb524707e5b3ac541, 0x9a1ddd3fec177626b1254605df8ed593c9e2bcffdb7d0404f47571b731ca95b5),
(0xe1ff19943ce7eb590e5708582e8c21a0c4f8eec840815ee89a4826588941eaac, 0x528e5572746e72e6ce61b53d78aa57e9dbf27e3ebc36c3dd003b4972d7353b7e),
(0xe4f13c20c48e750e0e15a665275c27be23b3aa045915ac552562bef07459bd49, 0xbebc7ecec6e51f99a2e6b9d6a7b1bbb363901053362a9ebca2d21cc76e87ca30),
(0xe36e8cf3824b66e87083d37160cf2719598c6c04ac693ea4d2dd5c83886f5f20, 0x4ea0e1938afe57df3db74910481a54dcf5be9fe864f249f6c88d0cbda086c60b),
(0x51e1f3193286d2fb29cb4a0684d7c547797ff5dcfde9572a63dd1e0d2646365f, 0xac470e3c6f30ecc631a90d7e6c4c3d43b8640cedb9465cb2ace2cc8752370e3a)]

/-- secp256k1_pre_g[3008..3071], /repo/src/precomputed_ecmult.c:3048-3111 -/
def g05_7 : List (Nat × Nat) := [
(0x8e82daa9c40d4e72605dadd645bc26dc22277f4156d2a24829bcf79cd5a5fae0, 0x7f8155fdbe9057b22b191dd7233e291bb01b961e32a124d733ad99b8167c53ee),
(0x79e56744273c7aa434ffd5e9525fa78838bea67464e2a5959881b3593e2c41e3, 0x625089a3c50defb9f00ec764b47122d7eb786a20f278bc33e806e7cbf385ecab),
(0xa97e00e2d19c195751deb89184e24a22af7fe156f2f1e06879ded3f662743f79, 0x881d7ebd8bcb2c49354726bbc44ff91ef3f5835dea73b282944a5097cd8284a0),
(0x3bf1054607bbf5c314e1c3fb405423789bc52fbe8fb38aa8f4a707270b338542, 0xe789586cfad5b7ff6dc68e5fef840e059a87ba51e58462b639042c64024f6367),
(0x80296c7758791dff39b4ee87ecf3406a49cce0cf8437fb2e01f4880b55d9cc5d, 0x3b06be113c7f781fce28753b708bc514902e4834bdb09284846c4ddb90152dcb),
(0x48e2cb7aa3eedbfdf6a9cc12359c4ff1b7b0fe4e87e570235989650620ba52fe, 0xdc78417afa909bbc594411ba87f72ee0a0a456313cff4aac7ad564b09ee8ed1b),
(0xdc91351fcb775488286b482aa187d79c31a3db2e99730b6b7b4805a973403d46, 0xed720e0d2d13192e8c180ecd5e09fa5ffc52e35c4e509b2ffa93ff96f7adb1a3),
(0x5d37c13948ceb4fa9cd05b151fb344e93a2b26535b052b9f01797319e990a670, 0xf790933c2590ba4807a832ad6b940634b62e16d27c9e748a1856d53a1974cb01),
(0x98bcbab0f8d69b226fd7eece0a848ff415c8e325ad9e8157708eca1777070aa2, 0x7671e3b3db715487e6affd615218a7efa08aa9499bb102060e2de58dea150212),
(0x60e2c1cb3de9486efa594384d590334012ce308d02247a188fa5c1123f35b1c5, 0x6de7031b9767c66f5c3c11a3853bf7224d58d086b68e08fa63942f2f9369d1bb),
(0x814716c5aa8256b750bf2f702e2f9bcdaaf513bb329eb467d873ea72304885c7, 0xeca644ee8fa9618913fba31e23533de9eb7efac90a0fcb586300a42dc7d297ee),
(0x25789f3f1db412ef0af60f7b636686d59fb71586200e8e3be6d934fb72f8de77, 0xe522279899d1e21b5734a6f77881a686863bc03b8c58cce9633c83022c7de0ac),
(0x5382f40c98bff8e5646a87fdf3fcb6a627f2a91e780a1527ef18cdf2a0f1bdcd, 0x231d01dee41ca3a1da068ce139d97a1639c027d838c7879d9a1e85c64a32b502),
(0x448cfd209db2fadffcaab14d8f57dd0167d9ecb3f18e9dc6e573238ba11d1f2b, 0xbad8e2e55a4f56c2435e8d1814d2824b2ba1bb67095205875a11c3159166fea6),
(0xd917ca4b0fe6335f5012b69d5444bbf9f6c4893deb612ab5667afbe802e5653d, 0x3fde9a4be6a4975627950f1ff17ce5f0aeabc0553102c33a4bb85baef32bad17),
(0x0c7ee9f517a883ad733de053be3ef5831dd974e60a4e8570db35f24e91ba8f72, 0x8db7738d26d367bf657d2a31c6a08ce2e06a7e4d2df39f3a2bffd062079bba44),
(0x83f0a19d983ed6de07a2b17377c843bc819a77b8a32acaed0b7085e094d9a30b, 0xd2ab3e9667be4473d8748b636113be60880acd476d574e00c37f48752cafe6a7),
(0xf3f8aa6a61687c4098fb56bde74d83dd5967407907c52f2e2b2992772313989d, 0x3a690c9d098503a32d201ff9a896365ccaa1b54c36857a21ad63994f41a109fb),
(0x4c1a11caa30bd6c7d95d6e8b3ebcb4e7914fdd404384716a283ee1ff5032249e, 0xe7e718c94653ef40d214c604e65339d06598f17c37f828809b7e5215b9424da0),
(0x2941b9523419a01853f3bdb0420f3182529ebbc85a1c8f6c1d922c193ee5477d, 0x377f226c29ca66a0aaa05baa7f6c1ede80482b5108982763864392dd3e628413),
(0x09d04d07aad49af865bb3eb18c7078ac4b5f25efe18572c33842161d8591a6a1, 0xf572968dec2ca89fb45ae02d119644b6779eb0ca1d48f724f8512ba22c83cd34),
(0x4401f767c3c3a101b99a983c9a6228240d660c50177bfef4a2646b0643d26e20, 0x7952faf78e1b114e164293091d0669e6999f8bdeee980c0bb7d669de86d4e342),
(0x94b6f427fc4017d3b328665bacc863a80ab8a1c47b283fa68d7b7f0c1bbba31f, 0x1336067d35f0d2d46ec8199e99dd07a99cbe7725a9981868e09a0217df40d85a),
(0x41621ba292c79bbd463b87cdde75574bf2fba59f920254457389b4a24de7288f, 0x355337d5b6f30b7881389951fe67b9433bc70a07b294d11b717ca2e1a2cd3188),
(0xb08384156256c1d355900dde6126818b8a9b27baab14d73fc33c399efda3594e, 0x2aaf919055b162e291cc5371b6a4285f843ef8d15069ec7dc5d68475c5a954a5),
(0xcc99a14fef418fea5de9f4377ccc14267d910f130e8448fb8ba927466c0dc9bd, 0x02e30b647c01c12dd42f164bac0c9bf222f7b3d92cffd7f5c77aebb718536f28),
(0x8d2bb24adbec1858d565d59c1d805d8e7b21d6b5b967dd50a2f420dd05764e37, 0xcdc6d730e78daeba712537c708a09322fc371d0d6a5645efe7014bf8999f712f),
(0x63cee6de0f18cf4ae6ca18717750e328dbb94c6f2742219203b233a3e50f7c9b, 0x81230dadad2d233a1b631b8f7a885828ce005031e13654367ca341731efdfeb8),
(0x62084e9c1dc6dd039a68d5cbfba19ddab2e4d07fb8f46114926a59e692755a0c, 0x6dbeb4f462fb1af000dc273aaa827e0acc9c7f1afbcdf02cc4bd98b705061a26),
(0x110c0ebaf65b628014e368ec17072acc3f34a9377df79238c27736255d8dd827, 0x1a4ba7166f236258961d5865b020b83b0c3c3e742dafaba9649ff85b2ae75c6d),
(0xd848a51e50fb234ba807306cfab97405baa50a5d23cd12b68927c9e6f1c87e00, 0x9db9be6288fb00c84cae4b1cc99449ed51fdb49f3cb7aadc16a72b6fa96a4fd8),
(0x42311893a2706ab452547f3b3901b9eea8cf2660581b002396bc9a7ce14c2b5a, 0x750f86db9ba6222c199c2a9f77609a47d6129a1ce9ef4d70daad3d2cae4165bc),
(0x4439c4ee471adc4132f4549677ca1e326b252f1e5f17f7419fdaec0e3834d37f, 0xbd75c32c22c5c3de62f16ab66f86f93b617c9565b385919581a00ee575897e87),
(0x4dfce3dab19231da648b0bbd8c52fdb6e02e9e799806fbbf36bacafec113b053, 0xde8c5f1f4b727fba440a1c3e147cc1a29d647c5942feb42f69d45a2a13042c3a),
(0x3bba2b2ee8e72736f54f9158281f6c149d0ba6f3ec6d89efcddeff9b8117dc9d, 0xff08727477897e56e5e93f947af6ca0f6f9a2186a6a60d2baf690a30da16ab24),
(0xa2fede43037bc6b2482d92ff0f55ab0ce239a00f4fbb059527f7d67d8317deae, 0x2a79150843beffd7ef08e195d0ce022c0f7801162f1852da98c3638d45869ed4),
(0x221c4e2ff503eb4c4a1aa8e677370085b3d64d098430a1852cb1cc3e304bc0a3, 0xc3c37b1b0f954e79c124fd70ad3f8765a70a79294a262de199e11dd195b7ae41),
(0xa0c32f80f7e4ba050caf945b49b91306f909c8bd559e4bfca58ef3c514740ed0, 0xd3eb8f0146ab470041de4cfbdced45c9966aa1c638a42c9041ba189136f9562a),
(0x762e7a18b4fe627f001e1ca7577408110bf33395cc962aa1dff79be418da85c6, 0xa0df0f4650461c0f4f8a743c3455b8425875f7954af56b93dce93234c4f51ec5),
(0x2f02d935cd95caf3d56cfbe404337b1f78389f341146f561b8d632c4b93a29f0, 0x173470d823f190b4f8008872b23f1a3209c45441c12fe87b0e74e92718f44569),
(0xc9f877d72eb816df1c5adbd59fc98a39c5877d6e24ef1612314e6392e7eab212, 0x14ce991788cf7eec5a5a52b58fcaa9f588bb0052754b3ad10b0858e46a067c4c),
(0xcc4dff6918a05cb7a6f296df6cbf5d0ed6dd1c23ae76c5df239d2179a0baa172, 0x1cd438b1b8471750261b0650663b4a56e4dda0bab5390cd5b7869448654a4dc6),
(0xfaaac74b3ed2713a29c10219a78acd51ca015a8a65646a5bcccec828efcbfaa1, 0xadcad43bdcc2ec0dbd65c46b7fe79549b2e74cc913fbcecbf8bf661a7d30d934),
(0x171356c930fa9bd0da1444b735be6c0e8a0025f23d1a2480dd0aefc444fdbf46, 0x770e9edc991efb9dab44361ed2398e5462e2464d2ee2a14eb2e149bb9c9bce3f),
(0x0933f56ae0473763d2d491af55f9fb19c055017a07a81b43b641007be5680214, 0x66059c47481cdb63481ea647f494e541ad1d70ff93b1eba9f85a9caba0ea76ad),
(0x0a300f22b182ad37d7e446910bc9c9c98a397f761ec1acf664ac1fe05bbb6b34, 0xbd6f2ffca90974b9460de2694722f215684abe446228b5007b42bab45433593d),
(0xfc5e57ed6e901355f97c1d62dee4d630878b79b5528e3fd685d6e3ecaf8fe1ea, 0x1122127a6c21cbb9e598b1b568507beebc7c8549345c9d498c4a9b2b2f5bab01),
(0x5a2f40e27a64811fbd4721c1990195230899e956ea340bfff3f452fb5231ef3d, 0x6b2bf95d12578c7974a06d2639d71c31d8c4a53a6279886c20a122d32093d547),
(0x59783333df0b99c5be76610d67d7ef62fb15757d8dd1f3106f9179b564f2084f, 0xf2a9ea80dd3d170c813f4623ba7583eb7d309d97c34f4c4fa76766947e5b7f5a),
(0x0cf611246b513fc873f72bb387a29c2da1c8bed74ca7ca081546db1f37672d95, 0xd23c3c76697f04439ed1d1a5661fb0fe1e182cf42e07c7873eff7abc2f8c70ee),
(0xedd14f05133a1480e26eb7eb8063f8eb1cb871c9606957baac14b1732ffe7d52, 0xd682f280d295d5284c1b3aa8445c274eee6033080ca4792a61b5f8d634b1b70a),
(0xf9b0fce90cdc8af38b26e7902c95926c33cb8d30a5de80d175fd95c7fc1a1713, 0xec7e8df6f3d163d7181083cdc8cf4a89df958b8bd6fce2b5d4752240f2a3e6ac),
(0xae90659954187f57893069817417c566d9ea4315f07094e4e46bfd241746a3b7, 0x2241bdadc09d3313e9d006ff2a04709d1733557305be5b106775457f231a129b),
(0x55f0f80076492f7bf5e134cde581ae3bf68fe9f344107540c54b350e47d956e9, 0x22a0891de68488a1dfbb4b8a35fe9835e258dcb5c70ccb982c8a48cbc33956ff),
(0x90c8ab0686fb40e231923bb1df86647c6cb7e3c4c451d0c1b871994c19663bbb, 0xdc748cd9570eeb2dc6fbb2c50c417979cb30d71894c8e463e3b7be3ffcc80ab4),
(0xcbf47c2d6b21ebb9fb268e7356ea849d3e476d6bac09eb604bb2e27c84a4c694, 0xf0288fe68042894a39abf8bbe5962421416ed9dfdab081cf16e86fba7abb2873),
(0x7c30885fc18b68b208fff7582148d738d8f1bfb246543b1637e9fce97d11fe80, 0x3e2d1cb931a11c15b26c6d378c886e1052c06718a63e621c7ea51c763c013f2f),
(0xad6149190d1bcba0dd2a9da9de9207dbe137c77237f333e64f11433bf66d7753, 0xfcaea18b3512a1889d6046192ba759b4190b72d70ec53d0baad9e01ed239753d),
(0x8df7041baf8c9c1570ab50a81ed335b4a7bc4171a3939715a295ca7c4e5e29a2, 0x0e892e4382677bddf3566b24c7ddc6dce12eabc384a19a1399b64ba4bdce02e7),
(0x9f4c1e5761c8520e9a751891ac1bb5f6217f4e777dd88fbf2a1278042cfdadd6, 0xfda210adc6cee8890c35831eb3e12c7aed4b69639f3d48609d9b960f4e7d0f50),
(0xa436f4dd23ac70a2c093bacf91de3093174de6187525947c2ee8ccaba515acbf, 0xc0e9d9d92a615b9a9439a450927bc1285879e8b307d460ec9fe57eff7e19afb9),
(0xa38eed16699743d916d8627c5039695c37497c67c59547d567bdfa20b86f1930, 0x6e3e3ed6effc3b5ac9b5b5fe3f26c91d3be89bb148414c18bb0e545449d9d7fd),
(0x5f4590d20d4043a1faf659e336b0f24c0b6f1de588e9258683361ebae2fbf3d6, 0x250c0a73042ceec03ec1af11764e7ff6ccc833b70024046615890be0055197db),
(0x7565860dc6ebb90068ed16ff8f7282a3d52beac773cebc551be51f4434cf56c0, 0x4b56ecbe526ed4585428ad7de9d7f3eb9b84687fe01e1346c32461f0bae24c26)]

/-- secp256k1_pre_g[2560..3071] in pieces of 64 entries -/
def g05 : List (List (Nat × Nat)) := [g05_0, g05_1, g05_2, g05_3, g05_4, g05_5, g05_6, g05_7]

end Secp.Model.PreG
