/-!
Generated from /repo/src/precomputed_ecmult.c:17-545: entries 0 to 511 of
`secp256k1_pre_g`, as pairs (x, y).
-/

namespace Secp.Model.PreG

/-- secp256k1_pre_g[0..63], /repo/src/precomputed_ecmult.c:17-91 -/
def g00_0 : List (Nat × Nat) := [
(0x79be667ef9dcbbac55a06295ce870b07029bfcdb2dce28d959f2815b16f81798, 0x483ada7726a3c4655da4fbfc0e1108a8fd17b448a68554199c47d08ffb10d4b8),
(0xf9308a019258c31049344f85f89d5229b531c845836f99b08601f113bce036f9, 0x388f7b0f632de8140fe337e62a37f3566500a99934c2231b6cb9fd7584b8e672),
(0x2f8bde4d1a07209355b4a7250a5c5128e88b84bddc619ab7cba8d569b240efe4, 0xd8ac222636e5e3d6d4dba9dda6c9c426f788271bab0d6840dca87d3aa6ac62d6),
(0x5cbdf0646e5db4eaa398f365f2ea7a0e3d419b7e0330e39ce92bddedcac4f9bc, 0x6aebca40ba255960a3178d6d861a54dba813d0b813fde7b5a5082628087264da),
(0xacd484e2f0c7f65309ad178a9f559abde09796974c57e714c35f110dfc27ccbe, 0xcc338921b0a7d9fd64380971763b61e9add888a4375f8e0f05cc262ac64f9c37),
(0x774ae7f858a9411e5ef4246b70c65aac5649980be5c17891bbec17895da008cb, 0xd984a032eb6b5e190243dd56d7b7b365372db1e2dff9d6a8301d74c9c953c61b),
(0xf28773c2d975288bc7d1d205c3748651b075fbc6610e58cddeeddf8f19405aa8, 0x0ab0902e8d880a89758212eb65cdaf473a1a06da521fa91f29b5cb52db03ed81),
(0xd7924d4f7d43ea965a465ae3095ff41131e5946f3c85f79e44adbcf8e27e080e, 0x581e2872a86c72a683842ec228cc6defea40af2bd896d3a5c504dc9ff6a26b58),
(0xdefdea4cdb677750a420fee807eacf21eb9898ae79b9768766e4faa04a2d4a34, 0x4211ab0694635168e997b0ead2a93daeced1f4a04a95c0f6cfb199f69e56eb77),
(0x2b4ea0a797a443d293ef5cff444f4979f06acfebd7e86d277475656138385b6c, 0x85e89bc037945d93b343083b5a1c86131a01f60c50269763b570c854e5c09b7a),
(0x352bbf4a4cdd12564f93fa332ce333301d9ad40271f8107181340aef25be59d5, 0x321eb4075348f534d59c18259dda3e1f4a1b3b2e71b1039c67bd3d8bcf81998c),
(0x2fa2104d6b38d11b0230010559879124e42ab8dfeff5ff29dc9cdadd4ecacc3f, 0x02de1068295dd865b64569335bd5dd80181d70ecfc882648423ba76b532b7d67),
(0x9248279b09b4d68dab21a9b066edda83263c3d84e09572e269ca0cd7f5453714, 0x73016f7bf234aade5d1aa71bdea2b1ff3fc0de2a887912ffe54a32ce97cb3402),
(0xdaed4f2be3a8bf278e70132fb0beb7522f570e144bf615c07e996d443dee8729, 0xa69dce4a7d6c98e8d4a1aca87ef8d7003f83c230f3afa726ab40e52290be1c55),
(0xc44d12c7065d812e8acf28d7cbb19f9011ecd9e9fdf281b0e6a3b5e87d22e7db, 0x2119a460ce326cdc76c45926c982fdac0e106e861edf61c5a039063f0e0e6482),
(0x6a245bf6dc698504c89a20cfded60853152b695336c28063b61c65cbd269e6b4, 0xe022cf42c2bd4a708b3f5126f16a24ad8b33ba48d0423b6efd5e6348100d8a82),
(0x1697ffa6fd9de627c077e3d2fe541084ce13300b0bec1146f95ae57f0d0bd6a5, 0xb9c398f186806f5d27561506e4557433a2cf15009e498ae7adee9d63d01b2396),
(0x605bdb019981718b986d0f07e834cb0d9deb8360ffb7f61df982345ef27a7479, 0x02972d2de4f8d20681a78d93ec96fe23c26bfae84fb14db43b01e1e9056b8c49),
(0x62d14dab4150bf497402fdc45a215e10dcb01c354959b10cfe31c7e9d87ff33d, 0x80fc06bd8cc5b01098088a1950eed0db01aa132967ab472235f5642483b25eaf),
(0x80c60ad0040f27dade5b4b06c408e56b2c50e9f56b9b8b425e555c2f86308b6f, 0x1c38303f1cc5c30f26e66bad7fe72f70a65eed4cbe7024eb1aa01f56430bd57a),
(0x7a9375ad6167ad54aa74c6348cc54d344cc5dc9487d847049d5eabb0fa03c8fb, 0x0d0e3fa9eca8726909559e0d79269046bdc59ea10c70ce2b02d499ec224dc7f7),
(0xd528ecd9b696b54c907a9ed045447a79bb408ec39b68df504bb51f459bc3ffc9, 0xeecf41253136e5f99966f21881fd656ebc4345405c520dbc063465b521409933),
(0x049370a4b5f43412ea25f514e8ecdad05266115e4a7ecb1387231808f8b45963, 0x758f3f41afd6ed428b3081b0512fd62a54c3f3afbb5b6764b653052a12949c9a),
(0x77f230936ee88cbbd73df930d64702ef881d811e0e1498e2f1c13eb1fc345d74, 0x958ef42a7886b6400a08266e9ba1b37896c95330d97077cbbe8eb3c7671c60d6),
(0xf2dac991cc4ce4b9ea44887e5c7c0bce58c80074ab9d4dbaeb28531b7739f530, 0xe0dedc9b3b2f8dad4da1f32dec2531df9eb5fbeb0598e4fd1a117dba703a3c37),
(0x463b3d9f662621fb1b4be8fbbe2520125a216cdfc9dae3debcba4850c690d45b, 0x5ed430d78c296c3543114306dd8622d7c622e27c970a1de31cb377b01af7307e),
(0xf16f804244e46e2a09232d4aff3b59976b98fac14328a2d1a32496b49998f247, 0xcedabd9b82203f7e13d206fcdf4e33d92a6c53c26e5cce26d6579962c4e31df6),
(0xcaf754272dc84563b0352b7a14311af55d245315ace27c65369e15f7151d41d1, 0xcb474660ef35f5f2a41b643fa5e460575f4fa9b7962232a5c32f908318a04476),
(0x2600ca4b282cb986f85d0f1709979d8b44a09c07cb86d7c124497bc86f082120, 0x4119b88753c15bd6a693b03fcddbb45d5ac6be74ab5f0ef44b0be9475a7e4b40),
(0x7635ca72d7e8432c338ec53cd12220bc01c48685e24f7dc8c602a7746998e435, 0x091b649609489d613d1d5e590f78e6d74ecfc061d57048bad9e76f302c5b9c61),
(0x754e3239f325570cdbbf4a87deee8a66b7f2b33479d468fbc1a50743bf56cc18, 0x0673fb86e5bda30fb3cd0ed304ea49a023ee33d0197a695d0c5d98093c536683),
(0xe3e6bd1071a1e96aff57859c82d570f0330800661d1c952f9fe2694691d9b9e8, 0x59c9e0bba394e76f40c0aa58379a3cb6a5a2283993e90c4167002af4920e37f5),
(0x186b483d056a033826ae73d88f732985c4ccb1f32ba35f4b4cc47fdcf04aa6eb, 0x3b952d32c67cf77e2e17446e204180ab21fb8090895138b4a4a797f86e80888b),
(0xdf9d70a6b9876ce544c98561f4be4f725442e6d2b737d9c91a8321724ce0963f, 0x55eb2dafd84d6ccd5f862b785dc39d4ab157222720ef9da217b8c45cf2ba2417),
(0x5edd5cc23c51e87a497ca815d5dce0f8ab52554f849ed8995de64c5f34ce7143, 0xefae9c8dbc14130661e8cec030c89ad0c13c66c0d17a2905cdc706ab7399a868),
(0x290798c2b6476830da12fe02287e9e777aa3fba1c355b17a722d362f84614fba, 0xe38da76dcd440621988d00bcf79af25d5b29c094db2a23146d003afd41943e7a),
(0xaf3c423a95d9f5b3054754efa150ac39cd29552fe360257362dfdecef4053b45, 0xf98a3fd831eb2b749a93b0e6f35cfb40c8cd5aa667a15581bc2feded498fd9c6),
(0x766dbb24d134e745cccaa28c99bf274906bb66b26dcf98df8d2fed50d884249a, 0x744b1152eacbe5e38dcc887980da38b897584a65fa06cedd2c924f97cbac5996),
(0x59dbf46f8c94759ba21277c33784f41645f7b44f6c596a58ce92e666191abe3e, 0xc534ad44175fbc300f4ea6ce648309a042ce739a7919798cd85e216c4a307f6e),
(0xf13ada95103c4537305e691e74e9a4a8dd647e711a95e73cb62dc6018cfd87b8, 0xe13817b44ee14de663bf4bc808341f326949e21a6a75c2570778419bdaf5733d),
(0x7754b4fa0e8aced06d4167a2c59cca4cda1869c06ebadfb6488550015a88522c, 0x30e93e864e669d82224b967c3020b8fa8d1e4e350b6cbcc537a48b57841163a2),
(0x948dcadf5990e048aa3874d46abef9d701858f95de8041d2a6828c99e2262519, 0xe491a42537f6e597d5d28a3224b1bc25df9154efbd2ef1d2cbba2cae5347d57e),
(0x7962414450c76c1689c7b48f8202ec37fb224cf5ac0bfa1570328a8a3d7c77ab, 0x100b610ec4ffb4760d5c1fc133ef6f6b12507a051f04ac5760afa5b29db83437),
(0x3514087834964b54b15b160644d915485a16977225b8847bb0dd085137ec47ca, 0xef0afbb2056205448e1652c48e8127fc6039e77c15c2378b7e7d15a0de293311),
(0xd3cc30ad6b483e4bc79ce2c9dd8bc54993e947eb8df787b442943d3f7b527eaf, 0x8b378a22d827278d89c5e9be8f9508ae3c2ad46290358630afb34db04eede0a4),
(0x1624d84780732860ce1c78fcbfefe08b2b29823db913f6493975ba0ff4847610, 0x68651cf9b6da903e0914448c6cd9d4ca896878f5282be4c8cc06e2a404078575),
(0x733ce80da955a8a26902c95633e62a985192474b5af207da6df7b4fd5fc61cd4, 0xf5435a2bd2badf7d485a4d8b8db9fcce3e1ef8e0201e4578c54673bc1dc5ea1d),
(0x15d9441254945064cf1a1c33bbd3b49f8966c5092171e699ef258dfab81c045c, 0xd56eb30b69463e7234f5137b73b84177434800bacebfc685fc37bbe9efe4070d),
(0xa1d0fcf2ec9de675b612136e5ce70d271c21417c9d2b8aaaac138599d0717940, 0xedd77f50bcb5a3cab2e90737309667f2641462a54070f3d519212d39c197a629),
(0xe22fbe15c0af8ccc5780c0735f84dbe9a790badee8245c06c7ca37331cb36980, 0x0a855babad5cd60c88b430a69f53a1a7a38289154964799be43d06d77d31da06),
(0x311091dd9860e8e20ee13473c1155f5f69635e394704eaa74009452246cfa9b3, 0x66db656f87d1f04fffd1f04788c06830871ec5a64feee685bd80f0b1286d8374),
(0x34c1fd04d301be89b31c0442d3e6ac24883928b45a9340781867d4232ec2dbdf, 0x09414685e97b1b5954bd46f730174136d57f1ceeb487443dc5321857ba73abee),
(0xf219ea5d6b54701c1c14de5b557eb42a8d13f3abbcd08affcc2a5e6b049b8d63, 0x4cb95957e83d40b0f73af4544cccf6b1f4b08d3c07b27fb8d8c2962a400766d1),
(0xd7b8740f74a8fbaab1f683db8f45de26543a5490bca627087236912469a0b448, 0xfa77968128d9c92ee1010f337ad4717eff15db5ed3c049b3411e0315eaa4593b),
(0x32d31c222f8f6f0ef86f7c98d3a3335ead5bcd32abdd94289fe4d3091aa824bf, 0x5f3032f5892156e39ccd3d7915b9e1da2e6dac9e6f26e961118d14b8462e1661),
(0x7461f371914ab32671045a155d9831ea8793d77cd59592c4340f86cbc18347b5, 0x8ec0ba238b96bec0cbdddcae0aa442542eee1ff50c986ea6b39847b3cc092ff6),
(0xee079adb1df1860074356a25aa38206a6d716b2c3e67453d287698bad7b2b2d6, 0x8dc2412aafe3be5c4c5f37e0ecc5f9f6a446989af04c4e25ebaac479ec1c8c1e),
(0x16ec93e447ec83f0467b18302ee620f7e65de331874c9dc72bfd8616ba9da6b5, 0x5e4631150e62fb40d0e8c2a7ca5804a39d58186a50e497139626778e25b0674d),
(0xeaa5f980c245f6f038978290afa70b6bd8855897f98b6aa485b96065d537bd99, 0xf65f5d3e292c2e0819a528391c994624d784869d7e6ea67fb18041024edc07dc),
(0x078c9407544ac132692ee1910a02439958ae04877151342ea96c4b6b35a49f51, 0xf3e0319169eb9b85d5404795539a5e68fa1fbd583c064d2462b675f194a3ddb4),
(0x494f4be219a1a77016dcd838431aea0001cdc8ae7a6fc688726578d9702857a5, 0x42242a969283a5f339ba7f075e36ba2af925ce30d767ed6e55f4b031880d562c),
(0xa598a8030da6d86c6bc7f2f5144ea549d28211ea58faa70ebf4c1e665c1fe9b5, 0x204b5d6f84822c307e4b4a7140737aec23fc63b65b35f86a10026dbd2d864e6b),
(0xc41916365abb2b5d09192f5f2dbeafec208f020f12570a184dbadc3e58595997, 0x04f14351d0087efa49d245b328984989d5caf9450f34bfc0ed16e96b58fa9913),
(0x841d6063a586fa475a724604da03bc5b92a2e0d2e0a36acfe4c73a5514742881, 0x073867f59c0659e81904f9a1c7543698e62562d6744c169ce7a36de01a8d6154)]

/-- secp256k1_pre_g[64..127], /repo/src/precomputed_ecmult.c:94-157 -/
def g00_1 : List (Nat × Nat) := [
(0x5e95bb399a6971d376026947f89bde2f282b33810928be4ded112ac4d70e20d5, 0x39f23f366809085beebfc71181313775a99c9aed7d8ba38b161384c746012865),
(0x36e4641a53948fd476c39f8a99fd974e5ec07564b5315d8bf99471bca0ef2f66, 0xd2424b1b1abe4eb8164227b085c9aa9456ea13493fd563e06fd51cf5694c78fc),
(0x0336581ea7bfbbb290c191a2f507a41cf5643842170e914faeab27c2c579f726, 0xead12168595fe1be99252129b6e56b3391f7ab1410cd1e0ef3dcdcabd2fda224),
(0x8ab89816dadfd6b6a1f2634fcf00ec8403781025ed6890c4849742706bd43ede, 0x6fdcef09f2f6d0a044e654aef624136f503d459c3e89845858a47a9129cdd24e),
(0x1e33f1a746c9c5778133344d9299fcaa20b0938e8acff2544bb40284b8c5fb94, 0x060660257dd11b3aa9c8ed618d24edff2306d320f1d03010e33a7d2057f3b3b6),
(0x85b7c1dcb3cec1b7ee7f30ded79dd20a0ed1f4cc18cbcfcfa410361fd8f08f31, 0x3d98a9cdd026dd43f39048f25a8847f4fcafad1895d7a633c6fed3c35e999511),
(0x29df9fbd8d9e46509275f4b125d6d45d7fbe9a3b878a7af872a2800661ac5f51, 0x0b4c4fe99c775a606e2d8862179139ffda61dc861c019e55cd2876eb2a27d84b),
(0xa0b1cae06b0a847a3fea6e671aaf8adfdfe58ca2f768105c8082b2e449fce252, 0xae434102edde0958ec4b19d917a6a28e6b72da1834aff0e650f049503a296cf2),
(0x04e8ceafb9b3e9a136dc7ff67e840295b499dfb3b2133e4ba113f2e4c0e121e5, 0xcf2174118c8b6d7a4b48f6d534ce5c79422c086a63460502b827ce62a326683c),
(0xd24a44e047e19b6f5afb81c7ca2f69080a5076689a010919f42725c2b789a33b, 0x6fb8d5591b466f8fc63db50f1c0f1c69013f996887b8244d2cdec417afea8fa3),
(0xea01606a7a6c9cdd249fdfcfacb99584001edd28abbab77b5104e98e8e3b35d4, 0x322af4908c7312b0cfbfe369f7a7b3cdb7d4494bc2823700cfd652188a3ea98d),
(0xaf8addbf2b661c8a6c6328655eb96651252007d8c5ea31be4ad196de8ce2131f, 0x6749e67c029b85f52a034eafd096836b2520818680e26ac8f3dfbcdb71749700),
(0x00e3ae1974566ca06cc516d47e0fb165a674a3dabcfca15e722f0e3450f45889, 0x2aeabe7e4531510116217f07bf4d07300de97e4874f81f533420a72eeb0bd6a4),
(0x591ee355313d99721cf6993ffed1e3e301993ff3ed258802075ea8ced397e246, 0xb0ea558a113c30bea60fc4775460c7901ff0b053d25ca2bdeee98f1a4be5d196),
(0x11396d55fda54c49f19aa97318d8da61fa8584e47b084945077cf03255b52984, 0x998c74a8cd45ac01289d5833a7beb4744ff536b01b257be4c5767bea93ea57a4),
(0x3c5d2a1ba39c5a1790000738c9e0c40b8dcdfd5468754b6405540157e017aa7a, 0xb2284279995a34e2f9d4de7396fc18b80f9b8b9fdd270f6661f79ca4c81bd257),
(0xcc8704b8a60a0defa3a99a7299f2e9c3fbc395afb04ac078425ef8a1793cc030, 0xbdd46039feed17881d1e0862db347f8cf395b74fc4bcdc4e940b74e3ac1f1b13),
(0xc533e4f7ea8555aacd9777ac5cad29b97dd4defccc53ee7ea204119b2889b197, 0x6f0a256bc5efdf429a2fb6242f1a43a2d9b925bb4a4b3a26bb8e0f45eb596096),
(0x0c14f8f2ccb27d6f109f6d08d03cc96a69ba8c34eec07bbcf566d48e33da6593, 0xc359d6923bb398f7fd4473e16fe1c28475b740dd098075e6c0e8649113dc3a38),
(0xa6cbc3046bc6a450bac24789fa17115a4c9739ed75f8f21ce441f72e0b90e6ef, 0x021ae7f4680e889bb130619e2c0f95a360ceb573c70603139862afd617fa9b9f),
(0x347d6d9a02c48927ebfb86c1359b1caf130a3c0267d11ce6344b39f99d43cc38, 0x60ea7f61a353524d1c987f6ecec92f086d565ab687870cb12689ff1e31c74448),
(0xda6545d2181db8d983f7dcb375ef5866d47c67b1bf31c8cf855ef7437b72656a, 0x49b96715ab6878a79e78f07ce5680c5d6673051b4935bd897fea824b77dc208a),
(0xc40747cc9d012cb1a13b8148309c6de7ec25d6945d657146b9d5994b8feb1111, 0x5ca560753be2a12fc6de6caf2cb489565db936156b9514e1bb5e83037e0fa2d4),
(0x4e42c8ec82c99798ccf3a610be870e78338c7f713348bd34c8203ef4037f3502, 0x7571d74ee5e0fb92a7a8b33a07783341a5492144cc54bcc40a94473693606437),
(0x3775ab7089bc6af823aba2e1af70b236d251cadb0c86743287522a1b3b0dedea, 0xbe52d107bcfa09d8bcb9736a828cfa7fac8db17bf7a76a2c42ad961409018cf7),
(0xcee31cbf7e34ec379d94fb814d3d775ad954595d1314ba8846959e3e82f74e26, 0x8fd64a14c06b589c26b947ae2bcf6bfa0149ef0be14ed4d80f448a01c43b1c6d),
(0xb4f9eaea09b6917619f6ea6a4eb5464efddb58fd45b1ebefcdc1a01d08b47986, 0x39e5c9925b5a54b07433a4f18c61726f8bb131c012ca542eb24a8ac07200682a),
(0xd4263dfc3d2df923a0179a48966d30ce84e2515afc3dccc1b77907792ebcc60e, 0x62dfaf07a0f78feb30e30d6295853ce189e127760ad6cf7fae164e122a208d54),
(0x48457524820fa65a4f8d35eb6930857c0032acc0a4a2de422233eeda897612c4, 0x25a748ab367979d98733c38a1fa1c2e7dc6cc07db2d60a9ae7a76aaa49bd0f77),
(0xdfeeef1881101f2cb11644f3a2afdfc2045e19919152923f367a1767c11cceda, 0xecfb7056cf1de042f9420bab396793c0c390bde74b4bbdff16a83ae09a9a7517),
(0x6d7ef6b17543f8373c573f44e1f389835d89bcbc6062ced36c82df83b8fae859, 0xcd450ec335438986dfefa10c57fea9bcc521a0959b2d80bbf74b190dca712d10),
(0xe75605d59102a5a2684500d3b991f2e3f3c88b93225547035af25af66e04541f, 0xf5c54754a8f71ee540b9b48728473e314f729ac5308b06938360990e2bfad125),
(0xeb98660f4c4dfaa06a2be453d5020bc99a0c2e60abe388457dd43fefb1ed620c, 0x6cb9a8876d9cb8520609af3add26cd20a0a7cd8a9411131ce85f44100099223e),
(0x13e87b027d8514d35939f2e6892b19922154596941888336dc3563e3b8dba942, 0xfef5a3c68059a6dec5d624114bf1e91aac2b9da568d6abeb2570d55646b8adf1),
(0xee163026e9fd6fe017c38f06a5be6fc125424b371ce2708e7bf4491691e5764a, 0x1acb250f255dd61c43d94ccc670d0f58f49ae3fa15b96623e5430da0ad6c62b2),
(0xb268f5ef9ad51e4d78de3a750c2dc89b1e626d43505867999932e5db33af3d80, 0x5f310d4b3c99b9ebb19f77d41c1dee018cf0d34fd4191614003e945a1216e423),
(0xff07f3118a9df035e9fad85eb6c7bfe42b02f01ca99ceea3bf7ffdba93c4750d, 0x438136d603e858a3a5c440c38eccbaddc1d2942114e2eddd4740d098ced1f0d8),
(0x8d8b9855c7c052a34146fd20ffb658bea4b9f69e0d825ebec16e8c3ce2b526a1, 0xcdb559eedc2d79f926baf44fb84ea4d44bcf50fee51d7ceb30e2e7f463036758),
(0x52db0b5384dfbf05bfa9d472d7ae26dfe4b851ceca91b1eba54263180da32b63, 0x0c3b997d050ee5d423ebaf66a6db9f57b3180c902875679de924b69d84a7b375),
(0xe62f9490d3d51da6395efd24e80919cc7d0f29c3f3fa48c6fff543becbd43352, 0x6d89ad7ba4876b0b22c2ca280c682862f342c8591f1daf5170e07bfd9ccafa7d),
(0x7f30ea2476b399b4957509c88f77d0191afa2ff5cb7b14fd6d8e7d65aaab1193, 0xca5ef7d4b231c94c3b15389a5f6311e9daff7bb67b103e9880ef4bff637acaec),
(0x5098ff1e1d9f14fb46a210fada6c903fef0fb7b4a1dd1d9ac60a0361800b7a00, 0x09731141d81fc8f8084d37c6e7542006b3ee1b40d60dfe5362a5b132fd17ddc0),
(0x32b78c7de9ee512a72895be6b9cbefa6e2f3c4ccce445c96b9f2c81e2778ad58, 0xee1849f513df71e32efc3896ee28260c73bb80547ae2275ba497237794c8753c),
(0xe2cb74fddc8e9fbcd076eef2a7c72b0ce37d50f08269dfc074b581550547a4f7, 0xd3aa2ed71c9dd2247a62df062736eb0baddea9e36122d2be8641abcb005cc4a4),
(0x8438447566d4d7bedadc299496ab357426009a35f235cb141be0d99cd10ae3a8, 0xc4e1020916980a4da5d01ac5e6ad330734ef0d7906631c4f2390426b2edd791f),
(0x4162d488b89402039b584c6fc6c308870587d9c46f660b878ab65c82c711d67e, 0x67163e903236289f776f22c25fb8a3afc1732f2b84b4e95dbda47ae5a0852649),
(0x3fad3fa84caf0f34f0f89bfd2dcf54fc175d767aec3e50684f3ba4a4bf5f683d, 0x0cd1bc7cb6cc407bb2f0ca647c718a730cf71872e7d0d2a53fa20efcdfe61826),
(0x674f2600a3007a00568c1a7ce05d0816c1fb84bf1370798f1c69532faeb1a86b, 0x299d21f9413f33b3edf43b257004580b70db57da0b182259e09eecc69e0d38a5),
(0xd32f4da54ade74abb81b815ad1fb3b263d82d6c692714bcff87d29bd5ee9f08f, 0xf9429e738b8e53b968e99016c059707782e14f4535359d582fc416910b3eea87),
(0x30e4e670435385556e593657135845d36fbb6931f72b08cb1ed954f1e3ce3ff6, 0x462f9bce619898638499350113bbc9b10a878d35da70740dc695a559eb88db7b),
(0xbe2062003c51cc3004682904330e4dee7f3dcd10b01e580bf1971b04d4cad297, 0x62188bc49d61e5428573d48a74e1c655b1c61090905682a0d5558ed72dccb9bc),
(0x93144423ace3451ed29e0fb9ac2af211cb6e84a601df5993c419859fff5df04a, 0x7c10dfb164c3425f5c71a3f9d7992038f1065224f72bb9d1d902a6d13037b47c),
(0xb015f8044f5fcbdcf21ca26d6c34fb8197829205c7b7d2a7cb66418c157b112c, 0xab8c1e086d04e813744a655b2df8d5f83b3cdc6faa3088c1d3aea1454e3a1d5f),
(0xd5e9e1da649d97d89e4868117a465a3a4f8a18de57a140d36b3f2af341a21b52, 0x4cb04437f391ed73111a13cc1d4dd0db1693465c2240480d8955e8592f27447a),
(0xd3ae41047dd7ca065dbf8ed77b992439983005cd72e16d6f996a5316d36966bb, 0xbd1aeb21ad22ebb22a10f0303417c6d964f8cdd7df0aca614b10dc14d125ac46),
(0x463e2763d885f958fc66cdd22800f0a487197d0a82e377b49f80af87c897b065, 0xbfefacdb0e5d0fd7df3a311a94de062b26b80c61fbc97508b79992671ef7ca7f),
(0x7985fdfd127c0567c6f53ec1bb63ec3158e597c40bfe747c83cddfc910641917, 0x603c12daf3d9862ef2b25fe1de289aed24ed291e0ec6708703a5bd567f32ed03),
(0x74a1ad6b5f76e39db2dd249410eac7f99e74c59cb83d2d0ed5ff1543da7703e9, 0xcc6157ef18c9c63cd6193d83631bbea0093e0968942e8c33d5737fd790e0db08),
(0x30682a50703375f602d416664ba19b7fc9bab42c72747463a71d0896b22f6da3, 0x553e04f6b018b4fa6c8f39e7f311d3176290d0e0f19ca73f17714d9977a22ff8),
(0x9e2158f0d7c0d5f26c3791efefa79597654e7a2b2464f52b1ee6c1347769ef57, 0x0712fcdd1b9053f09003a3481fa7762e9ffd7c8ef35a38509e2fbf2629008373),
(0x176e26989a43c9cfeba4029c202538c28172e566e3c4fce7322857f3be327d66, 0xed8cc9d04b29eb877d270b4878dc43c19aefd31f4eee09ee7b47834c1fa4b1c3),
(0x75d46efea3771e6e68abb89a13ad747ecf1892393dfc4f1b7004788c50374da8, 0x9852390a99507679fd0b86fd2b39a868d7efc22151346e1a3ca4726586a6bed8),
(0x809a20c67d64900ffb698c4c825f6d5f2310fb0451c869345b7319f645605721, 0x9e994980d9917e22b76b061927fa04143d096ccc54963e6a5ebfa5f3f8e286c1),
(0x1b38903a43f7f114ed4500b4eac7083fdefece1cf29c63528d563446f972c180, 0x4036edc931a60ae889353f77fd53de4a2708b26b6f5da72ad3394119daf408f9)]

/-- secp256k1_pre_g[128..191], /repo/src/precomputed_ecmult.c:160-223 -/
def g00_2 : List (Nat × Nat) := [
(0x90a80db6eb294b9eab0b4e8ddfa3efe7263458ce2d07566df4e6c58868feef23, 0x753c8b9f9754f18d87f21145d9e2936b5ee050b27bbd9681442c76e92fcf91e6),
(0xc2c80f844b70599812d625460f60340e3e6f36054a14546e6dc25d47376bea9b, 0x86ca160d68f4d4e718b495b891d3b1b573b871a702b4cf6123abd4483aa79c64),
(0x9cf606744cf4b5f3fdf989d3f19fb2652d00cfe1d5fcd692a323ce11a28e7553, 0x8147cbf7b973fcc15b57b6a3cfad6863edd0f30e3c45b85dc300c513c247759d),
(0x57488fa28742c6b25a493fd6060d936ea6280b0c742005abce98f5855ad82208, 0x31b3ca455073bea558adbe56c27b470baf949ae650213921dc287844f1a29574),
(0xf1133cbe6be8bbc8dc8df2b8d75963c2d40ed616c758cdc84edbc5eb4899447d, 0x57fc24472225b23f5714626d8d67d56110bd3a60dd7a16870cbbb893f652f50f),
(0x95083e753301bd787f8989c79065bb813f3d69bff3e425050f4e04175bbe89c0, 0x844adb5ce7d10de94617c73ca77040e4ee4e92e0156b3c70cc593fa494b33482),
(0x1a908355cbb756755e576ed29c99af638668c7b363c8d97362100443bc5c75c6, 0xd765466c6e556e352f77872225627d80a73538074b44ff27057ad22e2f2454a2),
(0xc5922f740bd343d5aa867308fad97f9f8a2d1f63c5f31db4f04df3bef349b648, 0x77b1f0687cfcdbe8812605e50d8b752cda811844236a4c4377f53c946e7bd648),
(0x64e1b1969f9102977691a40431b0b672055dcf31163897d996434420e6c95dc9, 0xc16f60c7c11fc3c9eb27fa26a9035b669bfb77d21cef371ddce94e329222550c),
(0x033b2e76687744ed6c521bad3333dd37c602f8a7549e9ce7808fb7ea07ce08de, 0xe1bcfe7fc8ed8ae95cf6c2437fdd94bfd742e8caa6de78114c25112a86988efd),
(0x20f18f4c866d8a1cc2a3103317b4ac3189fbf30ff294a75c951473be45e4f294, 0x8d6857c9d08ef7b4fd8883363d37bee70fe8529f7173f58943fcae81d2d0ea0e),
(0x4d1623c944c9c716a0eb4c685e2a8b9d2df3465354643befd1444176d7b69a8b, 0xddf1b9fe8744ad03f996bf6b96ec34962b601bd5ed952f7854f583888917be80),
(0xa901b0dbe8ab292d280d6b36858947854faad0a4dd0da7e2d4ad0ff53db079e0, 0x3f27e7e1834f1a61af6f04dc61e7ae64716bc5e0a6b063b301d0e60e47298a9d),
(0x7e0af07130218ffd50bd66f4484645b12f42a24f7c80889b3031c9a6ebfc9a70, 0x50bc23f3926cd0c49f53fbb235eb1e890d579517f5bdc3ab2416db785aaedb3f),
(0x7ba8187e1a7b25a2c185d335440a9038b47f0528546e9da4ef82aab05aebf20d, 0x6e6aee6c9625370af866c25c7ca5dd780527efbce7d8b3a39ab249309a185187),
(0x8c050fc34d83b279b6000816e18fca389767b7960e92677255b84a39d93a6807, 0x986314ef75b68fb2827c2965041981395d699fcd81cf23ce7019bc4135174870),
(0x53b7849a78e4df8625860583a52499489d7201a2cbf506202a7b8b1bc99c2ec9, 0x4e31ea12ac607d075de4b22de1be2c52e0a44d254728d2c544d2ddf9e3e469c0),
(0x9bdf9e67a5d0c9956a075a010fe762beb633500431dee78efebc527e53313b33, 0x94264621a5960e0ee24c27926f16cad2907f2636762e8d5a17e94afd8e9d2bb0),
(0x7caa72b37a8ab3bd0bac031a47606f8917d9f42c6ec2d2fb429fd9904a381f34, 0x5b5853ab7ee5de8d34e3d6beb201094fff8fbd1e0682f7f1ef87ddd65d7303c9),
(0x2ef29b9f0982797579c0295fc3f48db7925d62c75532493dde16b97e3993d81a, 0x496c944dd9875ba60a537ef96bf4c714a0afff24387d95e89b42337a33110753),
(0xdf157cad95b07875573c1860ae5d02c64029e952ec354e6a9e5c34be97317ff8, 0xf2eccac775922b50899c979a02b3cc30b629e62e85693ba470f6ee381284c162),
(0xdd55c150a29ca526b6182e643b9eb544e651d236b71920e7b15a987016454b1d, 0x44c757a542f4ea2eb39605d4268c2510ac685aabd77a8f5c4d95e23f4c2e9368),
(0x16886cf46ed42c7919147763063d3256c4d5d39387f0172325b9e4b898227f27, 0x7421a2207ee73299d46192fc93ca03dec824ed8de2f48367ec5383170a17fffb),
(0x6ff180fcdaa3061808e8b306d6f0acff27968c22484ff45e56aeaa7b2b60732f, 0x7d16d654f0c2aff0fc254dad063761a26c8d4022ea85b8cc22f3ea1ef69961a9),
(0x03ea4511a00dc2a03eb4f51f40ee677caa912b5539f685c4f8bcc8eadc395e36, 0x6c9ed1f1528b021593a39839340ddb530a2f2e365290c49824b035c673c9259d),
(0x0b82cd70dc3de9eab38742d8f32dfb8d53e4150a835e54b63c7cca20f253081d, 0x0e8bcbfe1f7f6e75d32e20499329765f02effc56a922f26860d4bc0aadd0e24d),
(0xfe2fc3e00074874584ee23bf105a69a606d056f017327d49b7b38b57a196c77f, 0x3e18941cc3c6d297cc9a32f695807b1c7da8561de4fde71d4f9bbdb6e9bf3916),
(0x04b90176cdaa369347e8778b12db9d6ee8b0011446ea35ec845dbf574bb7858b, 0xf60547ab6e9c5fd3eca6e349b85880c61fdad0fc2f7ab155295caaecb973c154),
(0x35f382511d34600b4b8c86a9f0dbc9eddefc4272f59528a0cd3ec10a5944c6d2, 0x29a835f6ef7fa1e5f6f37a80cf96ca9843762bb1b12a0daeae83234bd0b5ccd5),
(0x1d74b2970311b7ffa1027e26587d3f5be1d0e9ac3f0111cdf3cc2371722cb94a, 0x5c7bcf8b57f114e0b73bcfb810f5c60d35dc99ae9dc7f0e2606cc1f728c2071e),
(0x50a094f309c6f9560b020737b9ec722e4f75d1b7c41593e6f934a68a98450428, 0xa286e222dfe10cfd9689eaba6a81f04489c86db6869aa1b554a90f1e83778eee),
(0x9b65bb812129157cdfecf12e275ec38c282dbcd914b4810599b0a6d627c63db7, 0xc582db1a3f0f22421913b2e951e98a78660b4c40ad08fd65528593bc18223188),
(0x8b4544fc1fdfa06e456c1115a1dc831c85e7f1c5e620eca51c20802d36a4bc6b, 0xe3e77c41288f2602e722af7f4b70e64de4116fb9955b03b06ea8b19f7a20350d),
(0x6c709880b959eb7c5179b29cc5578fdc6cb2ae13ddcede29d5f81d95de0ab4aa, 0xc9e33faebd8eba426736c0c76f3deabaee2b59c50953fb43c2dcc5139e7c4bdc),
(0x77760b5137ba6a7195d891f794a087a076fc9d67802b81e7085b56773d537806, 0xf5202cf5aaeea58bf4f58c7edf4417be1b87ffdee68e77f0d7e81abe158e3a25),
(0x1a8bd7836a0b0c82e9a904a8a8c91a67e23cd4f8efd625d0df4c426e7e163102, 0x61fe64cab0952cae3c574f282f74a87dc2a96316b7009f2e4e9c5fcc12285844),
(0xfe217db659079913fb1e453ed24d91d6a3fb3099e69471d753db5390864abc30, 0x5dcf9abba9625ed680b0f20fb1f047d593a0c61c539692538cdf6b034d730b58),
(0x2504d63754afd5ebc38f58b65ead696d07e3abd748cb6c5f212aed49f5b33b91, 0x79a6bf4375f1469c4f5321c6c72fbbf4ba7cec105675f437b5e013ad7b5d75d4),
(0x0b06f702f47b22d789a9bd3f687105c36160abbf5cc8976b7fbddcafdb197b5c, 0x7669bbd419a4d491f592a35b6aa3dfe45bd2fe7fd179c7781cd5f918d732f63d),
(0x803b203bb31f9cf94034eeb931b54480a6f3f99ebd23d0acbc2128a60d044e23, 0x308abc8df271f75959b20c5c7fa62bafbfc9ccbf49b946a954e5381c1728d1c7),
(0x266a9cb4c5f5ceadbb50e5bda03a7312e52de1de8e95a8dcd57289fe0302749a, 0x9eea970ba856b2faa3e82877cc84ed4f3dc0efba1e7c3baa8b386ffc46e0ae7e),
(0xfd8a9d95d80c7ad52599a7ab98163df364c4c141e9abea355d7360bcf84eba94, 0xa9fb1702100953b359b2e2688ae7fd33a30377da47bfda713e2d7d73dfb1030c),
(0xa7322df309f28f2359fc339a8b2c80be6e84acc5b7b0b8f8f2cb6f26f9db0a7d, 0x22f6fe9d217495017fdb7f5b2f12fa57095f40e131714885c12a2ea16edb6be6),
(0x82a8c10f336a664963a104ddbf7f0f18bd4c461aea569ffc82c3c7e4cb052d36, 0x737ceca2c0ef72278b90501ccb71b6715e5c31d4cd0478c118fe128795f1dd0c),
(0x9b50d1b68e3bf795007cd12f05a60c266c4ef2b75ba5c516c54784a94f15d6df, 0x2afc8d09b79176d8d003fd2a4f18d526403fff272d47e7787376feb7cbddd8fd),
(0x3f9083ddc8b423fe7de3a82281d3056ab8dcb9d7ee82cb806718595fbae08d32, 0xcb13c152fd511d91a9e0ed90afa021a081f77f6d20cc1376e2195ffcf28fa758),
(0xc75c85c1ee17c1a256eff6bd592666cbc923170659d50bfadbd1074ef2167faf, 0x1ab4eabe5e09409d75cca8922647f48dbd698a16d4f7cc8596daf16940023a52),
(0xc5341feaf8a0f5d3b4d0cf0d2f7aad7c60ea8e2b3d4b7fb95c68d57698656045, 0x95f9f4e9007e5b9fa48fa422a26ab982dc48a4d54d7123986e6d3ab974e88915),
(0x83acda3e2a8997e0d52bd4c68705dd22220852b7752d67fd8967a03260c2d89b, 0xdce1bae1d655ba517f5b5580997117570a77cd3bdd4b8e8e330e97791bc31df0),
(0x5b8191468b2990745b9c4164e29d594cf1c0d5716c5d39625bd279b30025237b, 0xcc3636a03fddddfabed88daab081f3591c48d2ca71ba34fcf6989f4af7625d8e),
(0x64778122214e38eff8041796166104e732f5f664d38d77219b89045e2c3b0e6c, 0x329cf0497e15eec7b8eafc4a0b8a7d1cd8b632038d4aef81974cf9844611a32d),
(0xed4d826afe5762f4795099099aee86642b475a9d6da1017c43d0cb9f1af12323, 0x8c6f81be3fafa5eec8296f928ac7919dc4d88c9a59442274d0531b7bf7e48e78),
(0x38b42924419aecc3acd6f551346fd61a4d82ac2b55f7afe97a06eb40cd109c4a, 0x7f42c0962feb2f73b2b0965a1f359a6ade49d768a2ce6b07b5acb92b73e05583),
(0xc3cad4a8d8bb94a7b434cf70183e8615bb2a8f6224f216e3446ac2e982138911, 0xf649be278cad976420742ce382dce3a1420e372ef1b25b2759a8ed387282765e),
(0x2d408ff4d3d236fd54fae40dce3ea9ecd9212e5736591a9e55588e4a54bd6538, 0xd596adf0e8692a06bc6284bf0299bef685e2a171585aa1324b9a05b50ce815b7),
(0xee7adf6d247f25fb76e90cf813f888ebd67423a3a3c6fdaebafb7eaa7a33c854, 0xe077184b4ae8f7056c10dd9ef541689d143f6871789e1801deaefc1d527a8fb4),
(0x2f9457c8a9ffaca13d91151dc4c5e89ddd5d37a37c9a864b7c811f3e01144b34, 0xeb4c98489093d573a295407e1d6fc48a787120ceb3d3dcfbb40634e0e75e221d),
(0xd3f332b8a0f115821ce3478cefe18de360120483ef531c277b30c46eb7fec294, 0xea75b9b25d717861d1af1c019c372941c8968b90ef134f9f323215e1bb0b2155),
(0x183408d338b05aad3521fcd86ef36dd75f3ddb8666b52f7e9a4cdf1f8e152b91, 0x669985206edf4ac6f39be21f20c98824210e204ce44998095de355371641218c),
(0x283fec5db1145e53ba8f1f0ff9cf89a721faffd6c25346863d3956095f40374e, 0x70b0123774af550e68e68e5f65ca6e9808846e03cf39af778511be82bc32fefe),
(0x0ce7570a4f943cfa413bd249d8e7dbfcebc73579770fd6daf54a0dfbdd52fa62, 0xe115b14bef4695cffb85bdf98ba3985cbd5e5b8983e053907c36f9ce8b75d41d),
(0x7e9c4f19c8f4ec3f1269f648cd919525df79031574cbeb1537794a4c838fd470, 0xe9d9dbfe8cf5f5cca855d6ccbd11f48060fafa8dad6bd3e9c86df5ceb0fa5270),
(0xe2a9bbe60d5d5bfea7c7f919df2309f90ba04f4c722a3ec23bf451b464cb001b, 0xe4177ce1c3cd6ac778925bd67e72cb77d1925b91d06a7f1698411a4786393fb0),
(0x504512a43e17ef50e43bf37d42a94990f55e641b1558c265e709900275271012, 0x954a5fd857ba3acf2d4b1f41e8e1f2cd1f21c4b96899781b742a49d2e61ed18b)]

/-- secp256k1_pre_g[192..255], /repo/src/precomputed_ecmult.c:224-287 -/
def g00_3 : List (Nat × Nat) := [
(0x81d1f013a6bb325f4b2d1d51ba72c721859945d8a17b3411cd5cbe87285f850d, 0x2d5d2fb1f0c308553b1fe249298b2059259d3d49d4d7071adce4bcc5dc937193),
(0x5b66c2dfc1d2826618a872767e66c33dd90dd51414a3b87ca733383d1d895022, 0x9bd0178e381895692217267b7407e98727fcaeda12d8cf5449eb5472d554e0ff),
(0xaeb5f70e98ec5e38dbd2d544bdbff8ab99b583d9af58c597afaf868820381186, 0x618bd6b0d25ca70df08b76929336e421691b09730f2f5a052e7adc173584427b),
(0x0b289effe841943b84761e3c67a9c02a557679ca76ad753a707a98212505052e, 0x07a981f0c21862a853b4f895dc62482c530ed7385e5d1e330cfb9d0fe879992c),
(0xabae39458b12199e6b0c8360cfd282883f585917e44e1200f81bd356f619291c, 0xadb23bcdb3d069c5e83be30b2469b0680b2a81b7b667e934233b75efb5753f28),
(0x4a9583a6485b5a5a81ac224a518eb29d1e0f658c8d91b0139419c80955fbacaa, 0xd8003c9ee3c842f5ede375a8a7768db4803ecf119b7b37decea15631b4e8dbca),
(0xd52f630edba6f7cb65fcf46544ab0d9eea236ac1460f17ae3a21010210ebc169, 0x211557489fa93b883e5bea50da005c5368e21a0c41bc83d9145c13e1370d26d0),
(0x0bdc523782c75858f5c50fc052e4c1e9c74a2a6335bca9bf8d10e1209add6a4d, 0xabb1d9f874637668e214efbafbf529d312ff023bc1d5723e585404366834f189),
(0x44770a338bf0aab83bb64e476eb6167a88156d168f13ce8626ee0912e59ad087, 0x5b5930f12e9c40bcb3393a895c2d64576a3abd23b7291b99c965c33def60a55c),
(0xb15e7b322e404aee319ac20323e366726503108d8ee8e1c83e32d924515e1679, 0x5246a8190bbfb2915f82ed5650796f505ced5c2587347d57a873ceaf3d997e7a),
(0xa1ed755705225cd0f2c50f758a1c1df9665ae108d5e0419027bbd9aeddb00f22, 0x3c83145dad9f87487b97e7464850ed02d71dbd04093281a13d2127766a791ee2),
(0xe8aaf3616a1bc60fd9bfc43c2c60580f479e9ec9c23a37a23cf8afb31d918af5, 0x6ce693b64a37c6727e141041ab9a0d589ab9c303a5ac3d3ec89b6f279e79827c),
(0x5dc6f8cd2c855e6352a4a4ef6187a6d60759c04338a3db76c5a3aa37054c20a3, 0xf602c3428593a9a8d671d1bc7c1d88340fe9f5f52e6a7f0fbb8701464e6f4838),
(0x6332731167bed8af68a063ef22aa489cf6563620461af26a5f1a07cb6b42f3a6, 0xb8f7c3b220701320f20ca036761d3e56bf94a7009a919f1a3ea0cb81b74424a6),
(0x8a40d9259a393b382305c2017e8654dbad66e50ad798a0d3535230f948080263, 0xafb6a74d9849454edd7f703a5c6616d143f9cbcc9a9a5d6f6a7b5d1f9d9fcaff),
(0xe714710727c7420af517fd3f9a05b7dea6a02c8bcc20b17dcdfdeaf82078645a, 0xda7d67cbc1ede9d4fedd5dcdc96b04f9a3561ba02581b055eaa144eb4217daca),
(0x6131291cd95fb87801e42a68553952c29922bce891c026c0cae1f69c9661c82d, 0x160e1c1c13342fd459d4f9898ae632b842b8947913733b89384fc1042d30bf01),
(0x4bc4f845b6764692d0a9bfa81788809efc5e2aa9da5003bfb782bcf1d1ca4951, 0x87092dcbb9c3d254e3b055ff3a76ec0564c4a7c57fb1783cefdc40fc10b751f0),
(0x45a880a27bbee9df29f9bff5c985f36452865b5d582a201f698e6ecaa2be67df, 0xfe49a6a8b5e46bf1ef679714dabd590ea831d46b8ee94eb613132ba37855fabb),
(0x6a826a38317c0c8664d6847a220145d1877e5495b21500d3f21f1a0d4af4f2a4, 0x4521954efcc98263df2f14e0e6e6b47af6b83f0bbc20722c15445f87e05f4513),
(0x15356506f255f7e96cc8aa1b09dce5728bd860de7c6cc75f613e8a34366a23a9, 0xcd15abbcd744d4850d5e401f1f89a5df122f37b4e362b4cee3e53b1c00110bf3),
(0xf3bc12aef53d9f5f6b86517802dac2eccacff3a5cca6443a2b5e1ca0f2b89b91, 0xcfd4d36beb2e11f241fd0f367a0737ad303e915ff247f131368ca50918e00957),
(0x7e3c8c6dfa04a536f7a26ef18b38764922320bef584533736f728297335c0fd4, 0x72ea16b532a7336d3332400b303c0236b6a1294d88ce7fe915571284d1f7c189),
(0x198cbfcfa0575fc2c161c696d85155fe6943ab9bd6e17223d8844608ad0369d8, 0xd5e6268b30952422be59fe0efe7ba2e703215994827a46c2f2972b26153cf7ae),
(0x1e056e89b68cf35a22183c089089b90d5a147caa780b1fd63aeb1350afb0e5e8, 0xb8241453abc44c57ddad6ff386d416f43e258a390c6f88379f80472b943f32b9),
(0xdc7ff9748d827e7ea6173b2f1a646d47d8108144ce7f98fb3fac729e72faaa21, 0xc1fdac5aef4c6f0ffcb8e1c5c4417c713e3d5f07146daa1aaaf2e7fee70c4914),
(0x71b95efcc4981e0705354bc11cdfbc4836b2eff0bf8f8ec29a99da1b2fd28e79, 0xfd5a31976fad6aeec304752cc3ebbc511f3695b09a737fa30af42cc6efd684cc),
(0x43854caf29dc2bd6c9f3e8ffa25bba83f6b96121897044ae6876883ade542b3a, 0x563651760897632f8dde31677a24f55834c5c9a55c1cbf36fd8b44803c9c6c81),
(0x02adfe17090e9f9c708c9b730d5fd084b6eff990fb87796145c2ecf2d427b222, 0xb5ce31605d6dd9c622cae425ccd28912c4439820c06950cd4c86d9b453abd7ed),
(0xa123452c2b7eaf3115b3a5343b3ff31a09f70c54ae33c620471e3e8227a9d6f9, 0x933d348378a71f443788194aafc545e7f53e37a6f779f96e8fa14ccdede3b4eb),
(0x9b89a3c2ca995a8186c1521761348737aab166ae7decca603d06e32ccec0a6ab, 0x2a7d3701a8724b12bd7c4830224ac083cbea83d0543b541480ba8c8ae7731232),
(0x64dd7457e7d9d73908e2b9a0dc45272b384b04339ed8b2edc907964611e9e9b2, 0xea90f8aae214ee16ed608a72366998994e311dc7780ef885b29290c3823c470e),
(0x59227431be607c6bd327fd714eb71c8720abba421c7f550a6b35767d6fa2176c, 0xcb7571c4071c552765bd289ea3cf3f38796da2b12c953d0b8705125c4861d598),
(0x53d765cdadb26e9e1c80ddf199374363843b7d08a7237bdc8c5106ef795fe2c2, 0x7bbbb198eb39973b76d87f8194d45150a66d4f3b128a40bec989a405ad7c287b),
(0xe507de9ec16b3bf3523a989c0f5ff6c10452ee909b66ffc16d7b519a57bb66af, 0xa2f2f02a8272de6e3dc8b39508959ad251b6d3d004c8195259a501e28ff7892a),
(0x016f48c60eb84fb281903b8cb9f60b7a65601d76e2a579835569c98339b4a6f2, 0x8613bb848398681d66f1e75d5b6ef44fd827b6290f4956a441d8f503dd32b289),
(0x650471ae774265e3270b513233d12d850bb98e382a3b3af90cab6339e1446056, 0x838e779334aa6fe6cae90a62d359c339187b403215d97cda4e62724aa5a50306),
(0x15dea416fa34584fcc90e19d69825fae348d1ba1fd7ac821559aac2abc21dda8, 0x01fcabf21e19ce68ee12a3d284bd1304010fa5f5d45f9c15d4070243a8433047),
(0xb42b24954f1f70ed3db900878357ba46ee9d6a07b4f7c751dc5cba07b05b46e2, 0xe15723eb0e0bdbe6d6f28d6da0443c634851f5b4c551bec69f9196a00969ed71),
(0x08e9e4f5c6aeac311dab1125dec9b4606ab10b7e8e250960a17fc57fc0230f83, 0xffb0e211c79fbb7978bd4e53a05a267ff1e32c34d6287dee64576d31ab959ab2),
(0x87be732373bd4b738627fb63bd4d50bfd6f2bb81f804b52829549fe93fe1ac2e, 0xf6a9186ff147b9b5ffc844b2ec0e255a1ae5537d75624288ce8421f87e94e1a4),
(0x43601d61c836387485e9514ab5c8924dd2cfd466af34ac95002727e1659d60f7, 0x8791c0007c09c94db328034b88c5bbbc113335366679eb099a5e75b583bc2c2a),
(0x341b1580f83071c5365f0bcbba66af966902e3942a2560aca0daafa32ab49d0d, 0x4b985b13c54990267ff564d2d4649c6f7e8fdbe1ba101d941c034e1464877b20),
(0x175e7cb3ce4a3a437c7181e2c79fb15433ac1aa8e56492eb57627171f14dad95, 0x31ce61a87834f52efcf8703f93696f425813015563ca5d9ce92d8fc281135b0d),
(0x5ad430cc64e61c61e3b3c8482ca3ecac89c1e4954c80ba98249e45c1307165ad, 0xbea2a060505c13bc317ca083c5a8b85c9ead5f6e1ac23fbeac7cecea9251c791),
(0x41dce0d96dace318988602df07fa84c1080f0ce3dd7d09f28aefefa60db8b837, 0x74962c3fed9a6e9c896635ea855323b608850091f84dee333cdff8d0d2827928),
(0xa5ef449887104dda103c1dc2520676439aed2d5e0432fe5ba23cc14239961bcc, 0x1cbcf83ea363e0d93e6ecc328653ba7aa165c526765b09f0696b0d61f122db3a),
(0x4da26ece9ad4600338bdf68b852a2cbe18225f2e2d6d5e626db57235fb3a9d45, 0xd10b5a637ab546bfcc610e2d1c3d61f461b0a806e7ba29c73d3de909e9fae659),
(0x6e621e6f53d2408e488d8eb16a19a4f7e9d9558511e6911129dedc69f98f4763, 0x7b148ef273e1b131341ad4779342c7bc7b945a2cb52c448e4bb5fd503cea1a19),
(0xebaf57645bed74699b57ea758a395a9066bae20a8f082ab6da4554d5278be83b, 0x5847f4e06c6530335e29ea94389ee3e6d916314a60126028650ab9e0bfcfbba7),
(0xc0f88a71711b632d24b55dbf052b15d2faa38ca11438c17a6a6ff6353310182f, 0x2cbfad4d16c0702186611eec408082fbfb2e9898141a52481c59e44ecd0676ff),
(0x5d9b6c1884b79498c6244fbf262922c6dc1cddb73cf70ae01b5287b05b5c6350, 0x328e831d2f2b162c4abe1644bb54cc8518db178c5b6ae97e5e85110c7d7fdf1d),
(0xd1d1360f37ed6e69d4f214c6323a53b7e57d759555904016654c49f04e02e21c, 0x627eea93c6c9b53f9455941440a8b1006eba68d46c922b6a1521f3946dd15e4e),
(0xefc987cbf1023af558acfa1897b1b2b2ace29a8365674703e4969ccbee411731, 0x195a6a65d3790bec716429863bcef432e38242fc9f565dbbe159bc42f5740c69),
(0xf3026b97163df3bd61b88b7873864480968d1d7b83ef6b0131090faa18284ff0, 0x177c3a61682363abbf281615d59f06ff5f87644c84d670e9a6c56ac1b611509b),
(0x5d34ff5f123b5b6992ac92c68c9cff460deeecf968ff830b5622090d682c5873, 0x2d1a0b9c8eaba06543204df148eb161825443efa80f8aff3d49b6626c5955ac8),
(0xcbf9ba1794a95247c39da06584308cc8e0ee591d31a9b0bbdac67280468447f4, 0x549b18c310feaea10225fade934112d34058101d74f005381b82796ad0461736),
(0x920975ba09e2261bbf5982a6b57a73448e7747b8368d7a5379acacd4c7dcd31f, 0xe95e050881af550d09221f5ae95410316367d24bd545bdcb434e7638acb46dbd),
(0x815b2ae46fdcb55d926cdce82b4f25d0391323123bc180ff33fcf13207eeca64, 0x62f637c67d8863748f1e2e26865118b999285b8755f25512c968b4fe49b8c971),
(0x1bb9a6c28e28d4ba30ea86397a4d387e27ca8025da2319260de3c454f7e0b16e, 0xa0cbc0165e32171c8184265eac7e0147206349d541035a94f56efc49dcd7ab93),
(0x6f0153fedffd83eab099d29ddde278f19c05a4ba78eb4c3d34d337c6da68bc22, 0xa532d00d35013f859f4041d3aa231f2b9fc499670e0e2f824d5051f9e7f0c626),
(0x3454f73b3bee77a40d00d38471bf555aed23e5e6c6dae8552e9cb7a91b20258a, 0x92c20846cfdf1e8f3fe5bcaa06bdedc39926833a3f40d28f23a8f952d8d18dde),
(0x367807c9a3606b4e1b8c2616ad5280301dfcf68640eddf02fc59317c230e9a86, 0x1f023f2fa2bbece703dba14c124095cbfdc4f92f00281a148304a412c16ecae6),
(0x8ec4fdc39891f6af1374e06f0c44b81501b8254175fc4909acba5941201af62b, 0x2dc6cae5cac2d88783dca0e503c798f8fe067bcf5fc2975113756cf7ef4e5f1b)]

/-- secp256k1_pre_g[256..319], /repo/src/precomputed_ecmult.c:290-353 -/
def g00_4 : List (Nat × Nat) := [
(0x5cc24a6d4c5b24f914542f91e5fa937fffa0855151b8b8428729b06a9178a263, 0xb1da863581531a1fbfb38a4e419fa1feca8d55a83ddbcb98da19d5cffb7da472),
(0x83905926c03905c3a9644a6cda810dd292602a5050c52a219134fc4de3599e9f, 0x4293260fe8af6792a20b115eaa8376389094298b21d9de16cf20e0c57a46089a),
(0x944b097e4721e9ddf8204ac30d3878fae8fa6c1434ae4822481b29856589b6c7, 0x5fc4756530e9b095f8b796431e745b991525bd4c04764e8ee8af4b969bd6ddf6),
(0xab0b4a3fcfb7c134e1caaf04a63a733117327a1e5fa9030107b5ebbf3423b73d, 0xe1e79263a5bbba8acd78c92cfaeccd3ab84944d3785c07813763bf1ace96c9da),
(0x57a344b5220f2b0ef7bf7fbf05a2e4e71aa2c3d87bf090bcf803dfee0fe8b85f, 0xf82b7d0e08ef9620e48c9f1353a72a95a9e11a3c1678cf10576e639bb1a7d04e),
(0x6e053e1a800b7c4c51f8c4c95cf0f4ff3608e396ec46188da1a9263fc8d81ac5, 0x86389e98e3c823c9e1b5384ffce428c362e365797202fdbadc3d8c49395e7473),
(0x62d764061804717fb30d4a7c7567b54548a289ec7f083f1c59deae25ce485cb7, 0xf1d6314b661d1f8d8531d57b9470fb53d1509b2da626a0fc4cafc941b668be84),
(0xe5db28f2219fb2aa830cf1080bd2449a5c4d080082d346589e347f31dd29250f, 0xc296e64632f97dd5ba3b7012ead44b6f324fcfd2f35f8b248e58fe68888bd453),
(0x4725b3e9a3d00de48a53177c9fff831f733ec89bc2994ab23fe815f109b32729, 0xac3b7747de38c00f145fdb741482bb52324127cd2979ee12d4a9e689b9f8e778),
(0xd0d3afb6492c72e7394ed9187013e347b036b65ea76e0569bbe9e34641d72b3e, 0x2dd3a45b94aafe0753061caa00a28560bd952b0b02f63f1396f42fb78e02fef3),
(0x7853e735d717c85797b85654a24acff3104143edcf4b4b4c7869068fc304632c, 0x00a873d9e70fd14ac2777a8fb5a02922bae3a31a14938e69cb535355de1efadd),
(0x06db26b37d4fdc5913a1a01a14c92356ee44e2c97f9d72ca7789de338ee904a4, 0x14fe2225bf2ba0cc28c1c409e9849c4ad8adf79263869b6854a28ae9631941fb),
(0xb52f0869bb98af3c0b2f7f5c669fa43e538e400f63a9cce699aa2ef8eb2848df, 0x24566b2455bc454ae7b378cca0e57b6a8b821c8ca76fb858bb616e178907be5a),
(0x8614dde11ee6af03eb34a9e9970fa7c3234152c01384f7e4c1e1f93a0197b448, 0x2a1125a2ac9968702ba22b5ad230c40e4e5c7e55d8ba6ba15e54d3cc7b72f3cc),
(0x982a37ae625f6e5b78e71c180f20bdd08b3308eb59d0cab2dbc20937938c1cfa, 0x671fe16f00a65128591249e20b5070bf2a689e2bdd6c57dc18e5309ab6a40d0c),
(0x6bea930526b4829cec99742fc9231c00627a09af22ca9d9b4081a2fd4c3e703a, 0xaec5402a54517b4c1f344d14b1943e69d7541f10c45bd4832b02b059499a6cc1),
(0xb57247818694487e7cc188b336d116b054016a99207319200ba7bd2996583edb, 0x5cbbd1861f80a4bd3d58262debc58ffd1d278fb3b4d7fec6208f628677845cdc),
(0xde1ade627ba00e91786f4f5318ac53924df5a534704edbb62e0e9e2d997c5412, 0x7ef486c50bf23bfbfc6dc15a41c0673fa9d003e6e1d09a8e4bffee9dae2021e0),
(0x3738a57cb1721c419f9e465dfb80e1d733720398bc01166dd476d36f3398c0a0, 0xe1f25bb21662b16d6d28a629ad84385a43df566c52924bfd11854a78b70c22f5),
(0x4cae21c16b2a1239a85575f12ddf6daa1955feb8b7502e376940006e7a81885d, 0x2affe855388660d827671e89c82832b225fa2c9b29d559e237af565cb4dc99c3),
(0x4c511a1fba8a0be36e37cf5585bcc3a797bfa7ee1baa60395732faf8dcc2bd7b, 0xea69f7945c6babff23400fd4a95d6833abb27269887c372d8a6a45cab25651af),
(0xd811d8c4323b43702607c25ade936c0ac2e4a44b2ba51f8320c5179e745a7e29, 0x6ff970a217bf47f80da0aeabcb490e3b46c6df3f69f9e93c3c4dd94ae7c05345),
(0x101eb5d3b5e5aaffe39bbafdf13b5ffa33db68ae1fb09b0b1cae25e616c43eee, 0x9d6a55149867725a607a1c96eb03120ca497093934e0cf4a1631a63abac5ddb3),
(0x89eb1152b8dde45fe141f21f062fead1ecdc7f70eff8f968de21cf8b72480519, 0xf8a337c43181e3d569ec99d7f2bc4770cb6703a863fbd95b41fdb07cb697b447),
(0x53d633f3f48ea44d273d8f1e455019a949d95eeb68de70cdbd1e964d9ad0dc16, 0x1b26ed76964dcf1b3f7fe6f32e6db7e68e8ff4ee48fe63af48ffd33bcd1645fe),
(0xde1069104989110659a94d26b9cedb646ce3db4b8398ad1a92f8f95fd8d9be6a, 0x87640b41dbd99d16578a3d06d23d40888768a4e6dcf83e7b5b9d91335eb43d32),
(0x40ed1e6f0b9ee245ac189a9a7809da10cc6daa7b41a163caf761773c6af5bea2, 0xffed15017298fb9a78eb7bdf1430ac0482bae82ea7197adb50bcc1e1fc217b2e),
(0x55faaaee59a20b9a3784d1719ea529cc1b7ab3a329f26dfaa3b11bd667ba15c1, 0xa9f8939b52ac53e35ed4771d8e47065c0d7f2805a7e5475c37353ddf182f4a65),
(0xb51de64e21cf88af2180ca1724956d10a95ac607f034fccba53bd02bfa8af3fb, 0x175d9b701c652ebf46b99f1f6e66c4a69b840019a48b1ac4878b386c03b7f81e),
(0x5156b0dcbcd91e824bb235be9367cf407b8927e8cd874171556f997b7b07b143, 0x1d457c0fa29d4c3fe65ded191127016dd40ada90cbb0d8dec2af4bf820cc91dc),
(0x3bf51d72060b4973161fac5588e441a7f1993c06791b6bcd00e11d8e096dd63d, 0x7bc6b47090a7afdbfc63905ddf69849973e1e4e2af74f12663eae8a4f4722d49),
(0xd2971091200881021154f4d3ba6f2da122fa74c64faae05ad76db7b09ad61fe5, 0x7350ebaaf2ccf3c8f940cc14151c23c2bc33cb736552815692648f6b628e3fc8),
(0xc2ee47ca8e17112fa255a52021ffd30b6d7a3b7e2341526c559b60a9c768013d, 0x2e6e8b6bd83b7f5b1dc8e83bedb3b23a80d9ff082029831a453050162bece448),
(0x559998d69ddcce0d9e0da39e96cc4c00c5ef444b561dbaaae475adbd3e70b6cf, 0xc49c2a0095aeee5b8deb5e8cdb4d21e4cf0f31731af2fac525c534c234ffb328),
(0x4b4b02c3e4c8badde45305c39721a98d7c1955dd90dcb2f9e9d549016bbaf363, 0xa0b67b7ebe8f59b3c25d546e03dc304dd22a6a64615bcfb925b685e318d43468),
(0xfbafe7fd7836b42751cf897c5d42897c7650ade8ee1ed01fe0d7dd2caac549c5, 0x2f51194352d07e517b7841f58eda5225229a7e289a453aeb5e70110e12668436),
(0xccd306f90c65b8a07884e620b73ac4e681b21bd02a4b219f954de1b67076c06c, 0x823fa47fa7b0b50c907056dc73e04574003f68a75a4c85668ab5f5b15657510b),
(0xbafbd838995a691d3b5a870a7847452d9124155dd89a9980820b8d5618195a3b, 0x8df4c9fac94829eefb0e7f521020b5b04f05f4d5839c86874e893e7d08ad92a3),
(0xd125cc3a8073156e0a166af8ff940a64713d8f37b86919fb157cc380224f458f, 0xa030e8b6ac4e37a7df01054aea23a78e1bb7a22ef26052a3a034ecbcbc35abde),
(0x7d491f281b5ddabaef2c6433be22e42df2d1bbfd8a7e88668cbf278ecb8187c2, 0xca18161d70360966ca381ea3f760b2fe28b040c7ebc82af9bea27ba6f4dfe8ed),
(0x31ccda339f29123a86c2995c6a9f49796d70a5955079b9616015f07bcdf8c39e, 0xaeb27d0bedf61fac99528a9ff060d1f2376626b0bc807a19561c2e4fe8b49f65),
(0x079e64c7f45f91896c92073e71b76fb1e5ec912f0de11ba7d7439f4a297807ba, 0x57d93436b354963c5891abe3825d89b4d17685bcc9632e7efe85ded75823c921),
(0xd6232edffccb386871ef057b60bda43f69f422d2debce06c78a31f6a8c42274e, 0x13daefa0b2e2e09d36f472f229b5f7d158a18f63ac3dc4d6d62cc7d7ec0ef826),
(0x21c0f298b2d6e3a53738fc00c8289458722d78d248a33ea6a7ebb667446e368e, 0x867553ec17d2fd95b895eede15da569ecbb3f25ae5f334a2b20660dfdf062383),
(0x1d1a3d010dcbf799d551621c54f74720eaa2311c3fd9b1d0f4f2caee4c3196c8, 0xd5a7a1159900f90c879b1a3013945d8c5453bf1c07e5e33d6f8faeae439734eb),
(0x574886808fa99ede00ca97d18582a15162e26d5c7753a5614f4bb1dc28e76735, 0xdebda8597117ede0dcc0ecc54ec1a494b3bbee3495db2b1eebaa1db92fc17c6f),
(0xb6dd34d34ce1dffa4e1e820c4c8bde9f607194d31c1ce07c9f6fadc89791715a, 0x8bf48868e405d5332adc0ec9049bc7cf1487e5543a043200717865218a39cc9d),
(0x90f9ded569088772ca2bc8871522df9b5821df6c9e20b1600f3504bd4a91d0de, 0x0d17e64add534a6efdd0af26b4494339f76b3c1b126397f9a2beba76eaf902ac),
(0xc55f34e858d193539106e4a0c3002873db07b2399b10299d260acc656b2cfa59, 0x7d9f38d474b5a22e72949f7fe2cefb349a8fe1fbc16b8dda11f162de30e50f5b),
(0x6ae44192d38981c59b3f8452c4a2b627f39c16d2b6f525750c5f172256b8ecad, 0x9bbba8dd7c49204a9edc4b91e38e4973fa61de1ceda6ad61603d97157f0b099d),
(0x33a7d639423e1b366a93ad99eab6444cbd0c251f6cd8b79ae0344eef6fdcffbc, 0xc26112cc006dca2afa52684fc9ed22d32f067891d5bac2c02bb86e3b9411c61e),
(0x48471331eac4867028fa6642a76ca6c53380c1d90f52a4b2ea640d47f159af0a, 0xb4ea854693fde01cfb903a3118bb61f5c5047b94705a714d5b586d47a0142704),
(0x0565ac399ae731c04cffaab743d24b7172defd79beb8ce86d46012a5c2587917, 0xdeb56aa5d45031eafc411fece09a964614664989fd4f40d779c0298198bbab48),
(0x964838b53b6c2b7d6a8d017d0c5a32fc995490946dcbf773eaa7085c98314c0b, 0x2daf9f3cec44034fc8a71ee0ee76bd77ac6fdc9efa042a2f6caf9c5efd130b97),
(0xbc00da907b8d078b9d83522dae548b146f9bff0d02ef887c4aae2f1ec4eb88d5, 0x6bd0fd11f9e2db7365f21dd134cb29f60fef4d7fb419abefeafe15a420ddb152),
(0x1a59f85500f89f0cf13dd8ae9f5e550ca2082bb327fb111d075455abdba7bea4, 0x7ea2fb40d460adffc9e25c530a65c508e77e6e76e2e435c2150c870a7600c823),
(0x7a3b611bd3bffc6ad450816245695024452706a3279a6fdad88598a54eccc764, 0x16e0958968066e52c873d6efe549d3aa83d30bd6a1d730d368aa1ad232233145),
(0x2fed55779cbe0a5a786fa95b5c56e27aa0a1cc2851112bef4cd5e1b7015d6d91, 0x7eeacc27b2297fb563d691fa36dc650af66fd3e66fe5e6379959d46e2d4bddfa),
(0x267ad217952edf65673efaea6bebb44b018326ddf1b36d02f0154a0d774a9558, 0x77593cc07e9d5e5e688a7b330bf54a01703cc9b7a0485e6d907515bb11a13fef),
(0xeb6ed62c239b99c86978cceca5f321450e0d341bca7eab106fa05ee17f6687e8, 0xad899e2250f6a8e8ce29b22583ad87552a6e6ab89061d33b6629fbfc52c0a241),
(0xca5cf17ce03d214f0b4ef33c41686c4f5087a59bf88ca7b10891094d430a9e5b, 0x17e44eeb473f75bacffae683c8ea0299e19351807257803ef9963ad3d0989ce9),
(0x4c7bc29cacf0642e63f035eca93e6b6cc82f21cf46623a2fe4c7215e51e82f7c, 0x7c55e76e8756796c143f64e7e40a402beb537be40f1f5322e59d2be282776875),
(0x57cab8e9b42289f0503e50130acf4dd7797831842389fd2080b61bc3671058e3, 0x782253186671273da7b0b884e72e9bee2b048c459430d2ca7c398aaa9fd9e2bc),
(0x3c2bf23df1120c34de813a82a56843f5abf3d272ed2e6c2753ff63109bc4823e, 0x1759db6388aed233ce0c5b47ec9dcb8876740928e12fe9d0d08eb7592d3f1990)]

/-- secp256k1_pre_g[320..383], /repo/src/precomputed_ecmult.c:354-417 -/
def g00_5 : List (Nat × Nat) := [
(0xc010a9ac83e0742a0d3348dc3dcfddd234170aa228d36856d8581b1a0eab38d2, 0x634c97ed0644a68fe1f1da1f190cf9202b2dc810446b78ea9cd276843c76aafd),
(0xa4abd9ee548ba4680e4cb632b3d9c8a94f1b773fba3a96605504593a92071994, 0x3a14266aba263297fc6ab00a8403565dc9390b48ebffcb6111b5e8efc8f87182),
(0xdc02c852efc115f1c5c08540deceffe5d68b82e599b787115a7a333de8dda172, 0xe4e6593a8e1ae842ca7f4eaed8cccaa28a35f8dccb8549ba2367faf55f6c29c6),
(0xee4769e8223822ffc28a5a4b5f29fd7c0a54fc8172175cac1b6db5a291ec57c8, 0xfca2c6bc4076c8eba0978b9a2b0158c4338905142809461938413fe6c020385f),
(0xf3006c1d34910c0fd435a6decf088c382cf990cf3124f2abb11d2727d93ef066, 0x007629f5aa367f51a29ebaf1235cf267f8016a6c88dfcd9b82d36904c949eae2),
(0x7cfb203d07bf5669129f0a3e325c3fd6b1b9c8044932f0f3794b93571e7313b7, 0x4f76b9fd24339c38c88c4217387b016de4ae08fe67182d3982a45bb4e82bc60f),
(0x0cca3ce036e0099309d30be8e70455adefeabe7183aeb206a324d0eb32312c0a, 0x9674ae58fe947c6d34c637252058c88c91b437dd98da58b20efd7e8d1615b9e5),
(0x9fb6414881cd5c2782da071c01f98d71d9815fd22389d212c66ace660ab0d9c8, 0x04c254541a5137425f75e515c04f1c73d11d50479c76b09bce23c13ed1813251),
(0x01dbbebf03e3d45910d39de232560b4deb5d2ad806aa1542c2c070b651558b25, 0xec68e71c2e94e4904194753fd7484ca1940eae5169831876877b9ce72d0b9db1),
(0x7751d21992f474217742856b04c84d415a890ee924185e215a210a3fa46bb5f7, 0x2915a9c5b770c86cedd327493f698c176371f6a14cac5a2273a3c6481b237fef),
(0x39a849a05b189c3e20782983ecf664b1e7b89c964e11d73770797fcaecf36a2d, 0xd3e6f8f16191db06be2274d15668589548e6925354f41114f43b5ed1013690c5),
(0x67e56125b29ced20f9f95522d412d67c80e3d628b8bfddea768117cbe79b25bb, 0x608dfc157e3c23f44aa0fd883d02d2933c83edcf066ea57f9167b7128d03da21),
(0x0a51aeda02f7d59dd31eec20e95839f6ecdd01ef529327bb5cb229b7b78f1525, 0x704967df93fb862b3d38b18f4c6818ab6621c7d080d92cdd1f0092c0d7847903),
(0xc980693e73a1cb46f5eb71b773b00389f8bcb36ffb489e7aaae64c236ac1745d, 0xbf3b808efe6b7efb771853e56fbba6e8b3b21fef00706bd4274cc058b6fae474),
(0xc78df930bcf54c1c28e27aab2975e9f394167bd2948d47136b17a3740a1391a9, 0x9a424f366d3a79be55bb5e9a283be1e0163bfe221bc65e5e0318f0de304d9ae7),
(0x9a75f7bcc6d2f3a9e6168ebc8f7f1e50a998b1e4e67316e5fb242fc46d284089, 0x0cb478e6dff8b9aa3ad06c6e8fc7e35a39bf6ec3787977bfd40f3159bf169e01),
(0x76b2131adb0bb3e7db48277d95ce73e47eba1e7cb6f801c0d20b71a38b6e6224, 0x032e3cdaef60e55b0a9e36e6cd287737196c5af8120c47b2f79d24929979263a),
(0x218983614ec5971df55f96c93da89483cdcc4c46deb8de68f32a42b35c1384e1, 0x2c396c5044a4953ab22a2d2247769741c5eda54ad9c9ac97d6486b5f126dac3e),
(0xac0b0a494e9d180d101dbe1ca528fecba08449a6cf5d82a9aa14f875e3db8adc, 0x26d1d41225a1b5832dd53b9c56a6a8e8371dd19f31462dd9b2aefe3e70412554),
(0xf869b58c0851a65fbd6d332975f596a29d1a78cdbbf04a1b6dca6c2730e04625, 0x40dee344fc6f5c72c18b1603e149949ca0cfb31bb8b91b09c3cbabb0c6a5bff0),
(0xf74f02db2406250f8984a5f2273c63eda640a43a8e7d72aaecf78d6eb9544c3a, 0x882e3a6dcacc1e928a3c1a6185f2bcf15e364f7a1eeeaaea1c0af593cf86185b),
(0xc0613eb61d6755eb2ebc9284a0aa69d288c390504b7e869ff3d943aa067ea65d, 0x72f61ae527b5c82e4afa896655d9289d29931c1bf0d36c09fe4213c527848cba),
(0xeb66ff9860ba08a63c0fd8c47117aeb0ae0dbf63524307a7eb739f08f31285db, 0x0c3142ca54bcf2ae8b05dfb94e40f4ba7d3662f30774e61655c7515a87ddc5d5),
(0x3a7108e6a1256061fc25d58bca534602e41c6b15156c15b871a516f0ec4a861d, 0xdaae2d02041cabb20191b5bec17e7e88957bfcd766df1226a183064e3c4393a6),
(0xd17e3a58c83169d133ee73717b205f2cea1a2ff34e744958949e9403b8f89d5f, 0x98c35f7d69e5d98b920ffafa6d15d3492d75fcb981ca50225ac7ff32618b1a20),
(0xd6e32892cefbb8ed14350cbf2618e2fe98caf6d4f7679385fff36bab0bf6541c, 0x7175462ebe0f5ec007872b55356f2498976196bcedbe021e08081ebdb2636298),
(0x318d49ff60e900ae6e8e2182f38ec00682ddc8ae93aa629186d5ddf80affef75, 0x6e97ec27dd7d614dc1ed4fd8fdf6aa7008dcc3ebbe288831a9888166066333b2),
(0xfd6f9e301772db8ba68ea5aeb585abbdc075e72b68d6f67c5a2f814498cf6346, 0xdadd16e764775bd5ca5c5f5135843556d7608230aaff41254d4eab381d28d2c0),
(0x8fe25b38a2c74761a90ed08d4bce768cf074282ae9560d31566ae43a182ddd36, 0x6ee1e84a77c6ab78a2cda1b32fbdfe2e51d66843271d15c73f8e1a821e4c23a2),
(0x37cf0ed288ed8fef4ae17bcff6bfb8153e12bab2a46d7e5d2e6feb999793bef8, 0x092e7a5718eb0751c99254f4ddb5c278e17a417b21793339119a146dbbe3e0d3),
(0x688c206106b9d0c876deb812b60000e8eca0e04f531ed1e00915844207bf403c, 0xbab4b2ba41ba4d53df512e7632200bdc011d8583f2ceb5bda8b7eb145ccc01fe),
(0x4b4caaaaf5399535d822371d63965216d1b53584d89a84e9d868395a70b3d804, 0x3ddd27afcd18049a3b01d0437761e4ea652fbd91115c470ae4c7bd4051ee73d2),
(0x6f5acbc44135da60758ed9a518b39b5f47cca39824e20e561444dd52e2fa1d2e, 0x05dc9d46e5f6d94d48af2efc02f197a2f729f1d7335fa5690524d37c4acd58c4),
(0x79d2d4493dffcb916fda527bf8b6b622661d6f23738288c6ce94313dc267fc42, 0xb2683bf13fa8f7fcbe302823dfbc91538d902791d5d6dde1d2805f370a0c08db),
(0x33a8e87e246b7b9c9c77a6b07cc67d41f3915dbc02180118c0800b33f9f95524, 0xbaa8244c584fd05f2655e36be2e5c459207d30efdcdb229470b343339d16ff8f),
(0x9a169132f3887df820561a7ae4bd54613235ddb20fba7a193f4daaba79868e95, 0x686fc317995446c4429452161a96595aa233b100e5f8bbc07199022944630bcd),
(0x790b74f48405ce3f9abdc7e90439f2f5c859989e2ca5e6fc290461048783ac42, 0x8961c913562385ca990593a377111a5d1dc6762bb1a928a66ebb304b8a24a701),
(0xe2a3d0cfae1fc2d987caaeb69f32fcd695471785f524e438b5487aa372f9e49c, 0x9cc24205ecf2708c357edb54308ce45211f7dc0398fb48db4982d33714c93046),
(0x0cb30c435992c19576d372b196f2ae68cfd2653e63e3ba7a2b3c21ec960bcbea, 0xf65735b9708338c9acc9cba14b491b8afb683058266a483d4987cdd389ccd0b4),
(0x1faedc95d6310bee6298ffb16fb3e6a3296ca66b7c995d2dfe92438110e8b46a, 0x35039e3f8201e904e5378d032bd8b76626d9f0ce4425d2cee7bbd24fb8725089),
(0xa646cf5a2be8c1d13f05410ced51b3f58e93ea531e28bf318f6c750b52b3e8f9, 0x58c58ecb7727a920b47a7e78e1e51d11e427d7e4465429bda01f4650a4c102bb),
(0x3273472718537d38e9b8c397a5cc322d1c77c0c615eded39dcebc020debe2205, 0xc2debc8958c3f60bd4c7b072d475a7d5c1ea784bc3e532bb72c0249009a42d65),
(0x16a1a7180855a212c068c095d930a2709906dd22e7db3f4d4ce2f393d572827e, 0xd389d64bb30ba9eb6ce80335cbe8f7ddb1ef3016a8b746602196b724d115605c),
(0xb4bf4d145de2557133694b8676166e90eeb1ebf84a7402e9a61af4cf23687596, 0x49db20a4d82397e56318640a6b605e9637d38961a58ae3dbfac2fc11bbd11242),
(0xd4ed67a9ccf4665e418a0de08d9380cbfc311413e90a964bbf367b9b0b892630, 0x8ff7e57ce79a08831fe8a9729249376407472b7761b055fa37105d18b51df131),
(0x8ad256f19f413ef20eae906f0c1c2ca444d5dfdcf916d366b32f1f47f54fe70d, 0xbdeeeb418d2c4dc582547f6591c9721934778f5e0d25eff494e243eda6d34da7),
(0x8dd3e2fafe55b5f1f13723e01a5587b9c67d22ee21f1f62f07f62a1531f17f8e, 0xaa23d2a47d6b717e55d7c6b65d9c46c68f2db41cba66960b4b4bf93f5fc88cb0),
(0x44fd9e282a8e30afac34db01a7b0e93903c13917554d9a678e577a5d04b3d0f6, 0xcb079061353319b3a1669d59295bdbe218927d06ccb1290e4840cc16911a61d0),
(0x5d249a024464ed65831d2aa9c9645f462db7c9f4e5a46477746b1a7188b7aa42, 0x2bff7386527d6b5c2c595f80e08b4d2023bb8dfbf294da12b54f8b14077281d0),
(0xd98eb4581edcd51d465e123cd891c481ddd18b540b9408ca85ac47c80e10fb23, 0x15bfd3bed3756ac6f2f1f9e60f254c9b2b1537171b2650816a2cc21b78b4dcf2),
(0x2f12c36919a2aeb62132134d2e85150f6edb486e9d672eb5876804d644db6082, 0xc0111edd3b4d28c4edd264b8dc2bd0e320834dc7bda82dd0827133c57f8cf73b),
(0x4d9496847099c9f8421d35dfebce57aa713260348f07e3e6f03017c3144b4624, 0x9afb5a57d71369c728db308fb8b07da0b91f954db182eadb126b1fffddb673da),
(0xcf1db9105e95f1c8e360b39a752ab17e0fca8f24d9ddc8b2a9768700e2af2466, 0xe7c99f66c49c8674a6c1b94b4b9640195e645ca7b3d2e0040ad8dc73f647ca5f),
(0xe71eb4257d2ffa8ab79d63a242c67585d4b1747f05b27f22a9ee42846aa62b85, 0xa906aeecf901a3767d721f45da53e3423bc0a779870e33c3d10f64266a2c8865),
(0xbcd987d30b2575f43bc5c3e1b4a299bf21c58b6ca27ebb218f9882ab30559887, 0x403804c94339ae272bafd894e63a4eb4690c1b4c9289db00761e9b3a1d483f65),
(0xb74d5cf748af7162395d2d5e8a69f7407a2bebba69564042ea9c7e34b1f8cab0, 0xb5c5fddb332bfb59835e9a234afa45435728dfaa7dcfca3ea3c57debe849b336),
(0x46f3def59835c9ae1a7b3b13a920bea9e9bc12ee633b3edc57251b723560837d, 0x587b2e1f2e8eb9cb37aa6977870214ec818fb71c1035eeca91d53e68150ce67b),
(0x8d3418fdeb3f0968de51f4d7cbb60299a50ceba41915d8b65774cfb77667d572, 0xcee7991016a28462aa9da7c00f67b4c7e8b3dd380f4b22039d05115aac661db8),
(0x98cb0f094510695d78a0a672eb67253a30f4327b7864fbcf529cf212ad6f7c10, 0x25952dac4e1b50359b47e9b552852d1f300fde75a6bd532f09fd56af2a0ab333),
(0x96045e4c0ca075fc4a5383f3f03de105a34c7c4cb030ceffb58b98e12b39a3cf, 0xf527b8fd92234151ba11f24f7bd5dfed6ebd03e3a5048c6e8f2d52317201bafe),
(0xf262e89142addef8cba26a9cad779761c3f4b3e55990a93e703bf56a99cc6030, 0x275cc76486c86a900f597dd67092ecff5382c7b733939ca1d1f3218d6f0b594b),
(0x0cd79c02ee1753365f9f7900be51bb2bad75ef813c6c56347cc717db156d17fe, 0xb5ebe8ffb30de5bda532604416abbae14ff9198eb491794ac4500031947a985d),
(0x28b4bf225b1d40dde0122e03e630830ad9ba4629cc51c9d280a225f948f858f4, 0x2475618998bb414d4a534c6be300297baadf4ffcb10e67954ea36e252cf3cac0),
(0xf018f2067dd55df39c53344bc6128a5fcc765c36c7b0bea016c8465cc6ed2ff7, 0xd9fc5ab2cd619d4ac66c1cd2251504cccda34a7686c5661a960a00f8e4aa7e66)]

/-- secp256k1_pre_g[384..447], /repo/src/precomputed_ecmult.c:418-481 -/
def g00_6 : List (Nat × Nat) := [
(0x496968cf08086d029a5dd5c74f47cbda7f661ef1488b394218ed886c424a7a13, 0xd7d8df98442060e00f17a363579c6600360b51242774e2dfc8d4b7871e1874e7),
(0x242d4c59e9113b7768e4857493600da7b984355ca1d079498921016b22efedab, 0x470dcfd7b0c8c2ed63a28074a505573b42f509206b0ae57727a8b7967a0f42b1),
(0xb6b804cc1a1a59d384c4afacc5e5050f466280bcd5ab15861d20f4dd1385e8c7, 0x2f78934602a636a99ba2a1d232829f4139b579670bb26d0c898798bb6521d439),
(0xdc30a3d07ecc5fdd38b8048af281024b46904b2d2a4c51ca0d1b49b71d918a4e, 0x326409b070550e9758f536987936a54ab701f7b678a7d10febb511a6c18cc917),
(0xe1fe434d345bf33083abb6280f4f44ac5fb22934977813c20c015f2b43d3fab8, 0x1b251ca52af897ac4c08df48ce3d1607d3b31b2c2dcd7f7a59a95b07774c4d83),
(0xa8ed88dae08ac5e2afbe4a40ee77564582c2f513cfd72060bd1fd5d176fb8d08, 0xf4fb60b074419630fbaf5b53717b2a6f5cc2d98f1d29481b77b1f9f384175729),
(0xb52cf828de1e9cd7c95c083eec50d2288e770713a0e2543f76fa57902c7c6481, 0x635a39530046fbbf903dc729d3e3b52b43eebdc53748ed833c95eaf71b75790f),
(0x702079aef76d9bfdccb957a94aad93fcb1297c54d634978e4dc78292161d5e83, 0x4983c08bf2d81c52d3b3a202e0c6ddb932a43a45c4b95f82c8c106425a783b52),
(0x4638d4d18e9de1ceef4fe8cbdb4378e23ed3dcb9513cc9a0dd73ee2ebe57bbf5, 0x561ee03245cc3066968853f751fa36be0cb50740a5951e87cf77ef20cb27e110),
(0xeeb34eb75facadded561dc5ee3d0a039d98e4880910439cbecfb22d93b386bfc, 0xf2b23cff05ebdc8c0558db8c1c311a94e9d8f63ad1cf4af4c21c2349a6e57c4c),
(0x07f2c6e5becf3213c1d07df0cfbe8e39f70a8c643df7575e5c56859ec52c45ca, 0x950499c019719dae0fda04248d851e52cf9d66eeb211d89a77be40de22b6c89d),
(0x6ec767221ec5d27cf7e11064d4f8b0163cea090f6a950f818562330323e53647, 0x9b03c7579704e839c8eec7d0f063c4fdd0aa7ba05ad75254984b1703ae69a3d6),
(0x98f6f69d320d5eca01f184b0378f67cdb44a707ac5b2af5499e9f8a4524dea7e, 0x26ef6b3d7b037663979333fe056bc33aca54a3dd78c9244d79ef5426f2b69a02),
(0xcf1ef44558b82c765d77ac998c0170c92d3086682d9ed7af2961cf055b47e390, 0x8bcc1d05fb880ec78762d8f3f5afefe8f4345bd836397d23befdf446498511c3),
(0x10e01651efa26f2ef88cc5c10594f3789ab62b825a0875aa37c280a18c6f07e8, 0x2e6a15e11f77633530fb2cdb788aaa9883105da307e28c0a8fad503eb9779df2),
(0xb94e2fe041ce209b6efd77d7449831300af90945120b9a5805427966e93eee4a, 0x08f7abf1103e92f55dcb1dde746df10da86bfb8d2776a0f01d07142dc9bca443),
(0xcf9e7d02c671a9ea145d233e244d8af66d71cc34e17f2ccc1225d2b316d41154, 0x82eeb8a10f0b966fbbc3858a3878f969a853e2bbe1b60c4ee13eff850d2d2ca7),
(0xda3a3c2994ad3b91319d18ebdcf4b934df8e4f2be052f4366d539aff4bd48bb2, 0x28f9d653c4042478831ccfe7bec866635e0d32edf6db4f5425669a91d1dc0193),
(0xab8128182b80378bd914c9fcd2831f30a0a095c9d0e52450d4ba27b0f1eec101, 0x05abc582274876d63dce366afbb1d80a2286dc2adc0c078f1424d45e026666b3),
(0xea5b82a2bf02caa5d5d64391c0965c53f0edd967f8df94ab831408f7e5c4977a, 0x81fe82990f320837acddd50407b888e62518d53e897dacac5d28bce8ff3d9339),
(0x50605c0bab201d7d03dd618be3da2d29318aeac17df58d2ca95b8fbcfbe70fa2, 0x00e50b1e007b5693c4ecc160d928cd6ed4c978fc6c2a68afc03f397d72a60383),
(0xf76c50b66d7dcacef45409d8854f79b651356661108b716831b58b25ea1191dd, 0x7d055b74b0195140bc0e2e93a97f07b3a30401487720df86d3bd18106df3cc72),
(0xde5053bad716047ccc2367db272e4e11413126902bd79b32f6d3d95993260e7d, 0x1c54a2d39c34b0db0deb61b5b5f46033b1e4c58105113bf3d3f38de1c97cc7e2),
(0xad3e719f180e946b1b98a332bde18e54437f1a240949d7121aff7c8dfa06499d, 0xb458d7f1390fa4d7d2473863abedc063ef310adf7ca2f2c882bcad3e02f1b554),
(0x270a02345560af6b6310c867332f8b79839a3ae76e2666ecb46c840cc36bae4b, 0x8daab84b92157d160ca0f160099877a1ef7ef0721bdb5bc689d16a194ebedeaf),
(0xeb5ed17e3027c9c4c87ffdb294a84ff725ba2b5b2bf72d30f98334ee68624621, 0x39fffcb38f74d4719be8d1a214c61ad3df4a91bfd599c3ae3b54b4ec0860a942),
(0xb9c11df28a0b98cc623f4e8075acd469fb1f6621a7572d6a7bac135c2ce0a5dd, 0x5bfa8a78d42b95ef327eb0c3692b3ba95eb506a24e2fca1e391ec54540a76278),
(0xeed1704380abe259fe6611066eda0408f60f13993c49a21ca8a6310cebe74b5c, 0x6dcb6276cbe37b91162a243f57afcd9a8cc2c661652c324a567d5db722a0d750),
(0x8e4b0f6f5f5b9cf468e5524a4adf62b68c68e3105ee374c25265000c53aa97a7, 0xd1f880aec18d0191b74578c16d0418f6c7e59f2d157c0d56e25137ecc1b7f74a),
(0x77ae21bdfc6596b9ae85ce9c93112b1da7f393da1238d76e90cf59c8caa5ebbe, 0xf44845811e3266cdf4625390e729154f516947173206ef9b9106c547ff4a21d1),
(0x1d379ca871c02ef459a8bd35f506626592922533f0503999e16d6b07dbd2346f, 0xc0550b9a72899a7b42197cfed195c704a6333d5e178d91c10d50b7724140cad0),
(0x625017f328fc16ae993671995f02772a5c7ea7217d47c296cbad670c3fef1ccc, 0x1b44e253af3b214fedbeb4ac50110df6d7056d06617c2bf36189a74d64450603),
(0xc7a4fe496bdc35093ae3f508d43877e8d1019d16740a5eb78eaa72b80638412d, 0x1b5b12a895fb7130e879240674b8f7356730938b675996fba30a9744960febef),
(0xcff9f83ce8f9c4ef3e80102cbc48c409b65c6166b74f052fa5628348b2441d3f, 0x4cc418f82180207efc846a41ed6973f2814ceb07a8bd252e338e32cde352ee6f),
(0x8402771045b8c295c938ae98a9ea11dc2fd23ae57ade6ef82c60472166700541, 0x72946592d3c11404881b972ceba81d4ff3f80dcd40b15da5f56e0723841e4f99),
(0xf7ab1330e00cb9ec061a346bd8f5522d5e304a4ea94f84afb5c706140d2e0d2c, 0x5d4ac85189350a54af58def46f3f3d692ef0f6a39dd4ef866bb1101bdf5e6144),
(0xa7c84e192303b7788c1a4d5b786c9829d0da4ddcc13f692c7851884c6fd4e618, 0x56e32e5b8fc2db2f21d64bad35e3f11565928533a829d744939ba456bb1774fe),
(0xb8b0c884a680dac0363bc55afa677a72c65f413907f5cdccf199d80dac98c43a, 0x43e4188ac92606c1cd6bec5ba4edb0456569f87a625db932d0f8e71e516b8127),
(0x816ec443d05761355a3bc33c1db4a179c5bef98e943af8ddac250482a65e0df6, 0x89a7b2c9e9f3588d990f6fa196e366b6054f9a301218a2a9c9b87c4855f0b360),
(0x8ded2103823d07d533fba24f7fccc47cb101960f3b717fd2af39d49aa91e28a0, 0x3f03ed1fbe1a661ef43ef9f7d753eaade3e1a3912a682ad4fb19526cc0011728),
(0xb1c4b39ce874d478bfbdf9e3ce8c31650ff4f7c4bee20c874849aeaad0d6260b, 0x38af8b6130701881fbbfe7245396adc932c25b84dfbc4dbda54bd236c04b4fde),
(0x7d5bce3be5953eb3a17f657cfabc8209f011bcf27e10b90d0e75dad9fab2c971, 0x7380d6865f5fd782b0708b3b62c39e49864b2ba74066167cbbcede2ab0f84787),
(0x2af5111a422af2cd14e7717fbc7171c4096af1788b229497a54d2b874c00f285, 0x4468bf1bee43f1007e800b68b7b3b2432f3445c5c8aca59f7534beaebb771f41),
(0xb46e29c06dc8ddeff8bdfb65f4043b61fe010daea2d0955dc81a7b49637af766, 0x62777495ae16314fd7d0cef824a27a9f748c5c9b09c516459c1ec9dd9d7b59f5),
(0x105786d3f44ea40f71eb3bd5339cd514aef6d8fa5923b4a5089b219cfba6b1ea, 0x2a4ea7dac87522cb7d92c4508e86d0b939fad0249fc2cf151ba005cdb743d0bc),
(0x1f3c0c81be856e3018934573892ceb22d2d2d8eff08b78575c624f4816adb23f, 0x07321690de24499cf52f484089c4d7b411158d52d32731c9faaea5678bf6072b),
(0x16dcbae3a95a95fa0912484ff833ba0ee437876bf16f9c9f5abf46aa468bd2b3, 0x56727c07247b12d6c1ade4733c69170030e5582acde140343449f24159ffa44d),
(0x114be56cd6723c8f924ff3c0f5edabc6e42314a649edbfff1c794438dae70726, 0x0984dd72855cdeae7c580046b32cfa7a45b61b75944735e1d5fd9065268ac521),
(0x8d0cb2e601f98472e169dbac7f5babff51766b3a8d74e17d747b7eacd903fdaf, 0xd1593bf5b9e793f725cea3682ceabb11f06b36ab899e160a0f1f736a80bc9b92),
(0x5b420754188c82e4db72f3a2c804969134e3b43e484b45caab4727f531714db3, 0x4a89307d27d7f3607acd1643719be1481c7eed5c775988838bf6cc13a4723d9f),
(0x91e3761d95761d968d856a72800fe0b59f01c62e1cc446ed18c1b58f88cbf74b, 0xb5ab61e396f8837628f3389e9999ef55b73a58c0d33debc7258125302b96c772),
(0x31380b83dc77e5f29c2f55480abe052a016e0f1f02d8aad35b05d29c5c1a4655, 0x23ccafaecc84ea723c434342b839cd0ab42173bc1aa1db201073fe266593403d),
(0xae40198cbcd54264904b44c7c90195538f3f3727a0c9639a764cda80b21edd27, 0x03a57f08ffecccfccd9a0e7c827d98a2ffceea9a6c39d2005cfae62334eeba8f),
(0xf4729787abeac0f1249b1d3ac19bb0255764a854727b415f73e24c88a8a981c8, 0xe31161a568d81328c7f9783fde146d07b51aae150bfe719d00ab4e9eae65d172),
(0xf92f02b834148934f7059b617e84d0a6f52d3b8c0a7d7b69ce4c81757ed5884a, 0xfaed7ef882733020888eb5305c6dea4bcacd208f0fbb66b706f3cf41a8864080),
(0xa2bed8aae93bd6820be8cc4dd1f84fc29efe4022b2b0dec49ed3ce177cc93363, 0x287ab9c962126fb7e0340f299edeb89e7bf235b3b3f08213d630c9df198ada1d),
(0x5a42cfcd3d1811d199b09dc809308134cf6219e2e029598e899418f9b7af4724, 0x95ce721c39929d76b0ea83b180bf25c2e301413d60fb87172e0ee8f0593f8423),
(0x1d27ab0567e8bf19323f1eca441750852e768a6ba143678940ba2b945b0e530f, 0x18439939496d29a158a532be76b04932a23e3dddd51a1b07c6c33e6a11e1afa8),
(0x592bf85922c05bf44b42fcf6e4cdf3fdbbbf8088b7263d319bc749146eab4326, 0x84cbd8c38dccf0efde3946f3ba2eac253aaab9768f7f601e7d95bc74004c7f65),
(0x66730a705ae3dab8bfc01f4adeeadc410d4df156d03c4fcf1dd9e16f009359d5, 0xc04c7cc44ea1d8b2273b917019b9efb36e8f422c4863f718582f57a0778273ee),
(0x3d002600532420ac09fb246d84e485601ce6897b979491ae07c5914edbb7fe83, 0x5bd732642f16d4e77bcc485572494523c221fa1d321c552a53241dd794c7d98e),
(0x0d42ae362b5dd22fd2089d37d22e2c2a750395ad710aa1c061ed427543a24487, 0x84439e001571e1ea53bcc24ba11b6f7cded0a649b2a12fc9c2a618fecb39ada7),
(0x37c761ca486fabfd000b306dc18e9074409e101e5bdd1670edef1253aa253743, 0xe53840e301110db189ec241ae7b2cb8929669da95c07f3d06277f667b90cad12),
(0x4e672ef8bbafbc8eeb819f3715ac0d6c2afa9781a197345b2889ed0af3b0e788, 0x9c10f0dbbb16d8074680133fe62e0eab130cb0b95193785204afcf4c38814061)]

/-- secp256k1_pre_g[448..511], /repo/src/precomputed_ecmult.c:482-545 -/
def g00_7 : List (Nat × Nat) := [
(0xc1f2943b23c07929e9c635ae66f6294908e1df12f35aba68ed8791d68fd51fec, 0x3376b6c893ad5ec5991f7ef96a6b11052f2262c6680045fdfc4d4bfeea64ae75),
(0x3df2461e739cd98472cf10cdf663e651351e826d7afdcffce17602aec0370be6, 0x5e48fcb33ed9c0ec3594eeb0081adaaabd5ec5a57eeaf01fc9f00d02c692cb06),
(0xd4d3d528f98b92d5f4c4ecfbab60fd8550f123275b63b3fd5518c1f3d62a82b7, 0x64496d5085435de6991a838ed984bc092554053b54b05a2e0490d2ceda7d5b76),
(0xecd8399b4aa3368f1a7a411363ff03a7ad6448470e225108b3ee7d021209236b, 0x2e1209fba7921c290e351e6173c02cb5c629d88f04ca51af30f3712375355213),
(0xd5990be57e6a0da90333354afb344d59416d1a70785cdae38c332e09cdf78722, 0xb2a2cd8b73f76f3d1079198d34441008278f73c893979eceeefc59117ba17814),
(0x7598ab651d8ced00af3d5978661d801eb57e9089287bd74f85ef042a90374b1b, 0x589fc4269466b1ffb9c0cbd4b022e9ee7edaae878f4cc240b60db60d6c28f04f),
(0xfd071417b12d2d31852048b761c5301bbe088cfd98ebce7d7e0922cf41f694e7, 0x2d9c53f10ee63b932adf679d96b548d8d47d8f7458ef8b459664da23be32c363),
(0x5a5b4990e290868ad1d571ac8e9347f2b1e513bfcbc2b8d15e56ce012b72ca0e, 0xc76852f507159524541569f63c4c9c7d424285e7e83145d5e5161998efebf968),
(0x93deec243cd4f14642f5a415f6ea6f3625c900815f3d20f59728c056fde7f2bd, 0x88f919beb9993a1661f78145f54149f46abfa8591907736dd5e85f25bf2dc7cb),
(0x9224d17ba65ad967969104c93068d4399c9bec7e7613a602f5c9917e46df82b6, 0x346c98e32bc2a4e8c7689e54eeb1064c1b5691fbcf5a471055cefbcf18a32f65),
(0x851acc9124ddff9c14cf054b87347a71cfc916376e5591890f0551433b79c38e, 0xd959bdf058d21cc3430527e8cc49dc562dd20bf130f0e13a55cc69cc1e116f35),
(0xff6c1303b7c111c5087e01ef44829510eff0a612931f92122b71075f2cea4d96, 0x24f09bbf7bcf50aa0ca239beb925505e7e99d0ff5a9595745370eea17b4841f6),
(0xf23bd9f055e7bd1d433fb51ec8b6ecb60fd5014f4f4ca9d06a4bc636435fdac0, 0x9652b4589d269ad968ee7012aee4744725ba917df120bda69d2194eea56d7b60),
(0x9d622c56ea6d5d197b823e601bbd4af01fe070f9391bb5642a05527a49f46ff7, 0x8061bb940d6485fed9fbd55766db3dcac648c7c42e025494e6c3a91cfd5c609e),
(0x9494efe4cff5d5e76394b67c407b99612915afde56933b80370d0adf2f020c13, 0xab0c7e38c85ee1cc027964b2de42372ffd86ecb8fd3f0a8184f5af3858a7e4ea),
(0xa8e4d7baffbc52fc00a8cb6c2938a01ce028c25997403268dbe1600a952e1a86, 0x08d5b83d0dc3022c04f79723c6f16722cc7eeeb9c964496fc9f67c29351a0bed),
(0x83841f64938e460feff191ad4d72d7a5203c01af1519cdf1f17c3bb5e4927ac5, 0x0f5868f2c2e872492137339740415c4aecb1f30db204fe4180e01d79eb536800),
(0xee8974d95ef03f8a860dcba67b597fb2af2a2df6950aeacbd623c883020612f6, 0x5cf10d7403085dd7cc6951453f9f763d6596abfaeb7cf21634ee07f8a4f141ac),
(0x68e88d8c23616ca3b136e5fa3427628da92dde6b2691d857b2d01a60b6579606, 0x005a90903766d6ebc58c5d609b6a5675e5ec7b7386a17c412574d179a0fd5450),
(0xfe34dd8ac62ec8b620dbea7944ccca40cfe6ab5ace3b2e7c50ac589a9522345b, 0x88cf0055adf1e122535611d7bd3e00a730c9edd5898d25bff0abb9bf6bd6c8c0),
(0x423a7a9cc0f81489aaa62479c131736809989366fd18bff7f6a5f2358251bc1f, 0xc926b3dd0519241d02e776ea16112e41259ce896472ce71fde4261bd29c678ee),
(0x7fa60bf97cbf54ffe61bb840b2e08d910ffb0eb4727c0e730ed4f157ad0b98f4, 0xd5b1aadf84d387b8fddc7b26a7f736a67e296fed7978e81f6e7b3b090e94d733),
(0x9e53cb0ef1eddebc77edf8a66917f9158294815d0eef898cf1e7743360153a66, 0x5358daf260fea2a1b9a4c6f1b8bebe094983499cfe5577a2ed8f817f46b41ccf),
(0xadf93641c616c67799b44ad5354332c01404718e8ec91e9631e695523ad6f119, 0xda3c66afe4cfb3dff55f67615c6ac42a8dc172415ad38619dfe2a13b7e42ff9e),
(0x0701e3ec485db367b0687ddb2be15f4b5b6242c4396f6f0c9726ecb6474e4ca8, 0x1098fa7613dce1c5029f7fea30740377691aa3cf3d13cf946f2d81912d3b9e83),
(0xd8fc5ba5d3ecaa059e9a7e042c52500ad513645e06149e84aac0d910f8ccfefc, 0x72724b4d0eec94da7494b4d983a2df06df96ee83e578d920c25970897b4b3d8a),
(0x7bc88f9a8279ffb70658a186faaa5f0cc900cb9d4a33b8dcc9eea83eff71398e, 0xcdcd21dfe5ed81511a2d8c77e08b76f74939d39f1f5581b0aa9560660fa14a7c),
(0x8578d5310bc79e1f6e219bc77f2172a3e5fb92a5efbf99190f46ea116f5ef0e5, 0xfcd1b2ac39c262c694eef5e052338f9ccac2d04ded17c290768759cd13b7d550),
(0x98bc22d73ea2661b545eb5f437e1cc0ad412402044bb90935cdde758a8020a62, 0x143c7dde0d33ba5bc2ac8d83cc462f942607bff2a1aa32d9f32e14c282232226),
(0x7fcf821e95d2176dd088106ca5bf08559980f265ea3c401aaca44b0ad5e8ee10, 0x27c341ae87e7afeef8af4598e8e27cabc127b0541b389cfb266ec9d2fe400284),
(0x898a39b9d440ef05f87e195b6a334f9367acd67a1fc76ca8316292ea0216a5f1, 0xeb642fbbfe3274e52fd1cae9744fabfac0db80e62bd4f7c3fc2ca43b18ce52ef),
(0x3ee974a28918c2160a9624801f18bf9a87d6a62783323e3cbf138bf43f2192a4, 0xf5b386dfac71eb35499d5b2a960fd20e0fde39fc10dd5c63dc50b55bcd660d9c),
(0xbdd10d2fde76df349ab753eed06c12519766bbf42fb610a57ddc3f364047c14a, 0x504532ed34f97eb9b8b27664ab4400322b8b47f69c403bbd6bc7433016923dec),
(0x2c179437397841244ff9a4a0eb9ff292477a5148c4176b23c000a1ce3bedd63d, 0xa367b5844f9b7b2ba82fcccab9a12a8c2c1ca5f73e630173e37e600f0f2fcfb6),
(0x282ef30ef2d61d136f71e6df6ee97ebda83036a32d3cd84136289798b3e71580, 0x90b0cd33c350ea2e54c252647a3fc91f5b4f9dc31f58e86fc47825dce3d0f43a),
(0xa42b4d5542acfa7cb54ab3d50ee0bebd085bf6eadb138ef71ea38c73899eff23, 0x17e38880f10b9927764c4997326b0b9f63d0e03a0fd2f0bdb1ff3cca1f566bb7),
(0xb23acc64c5b00c8f4b580d4749589559a06fcea575f3d38b1a02251eff7ef00e, 0x66bb180a7eaa64d84bfe6a17d457f5e7073964acff9087293bc540aa1cb6464f),
(0x0942dce696aeb0634681ce7a407516e989df029cecc77023411a628f75885ea7, 0xe208be8a88be7b3f6b6b06cea3aafb45c439f0bad517a784ba13f80b707caf14),
(0xb8a6a2b952194ec08238e4dbe71eb94823e64a94e10ea0e1610465ab88392d16, 0xf8029f31b8e5ee3f77a758ae343be25834c7bef4c1b555c74cb63d51cba5fec1),
(0xa36d3369a1ee05f7b1fdb083ea614cb6f15feac417a416d90cc83fc20868fc20, 0xe4abd7f9fe40f27d5b7b76516a9fd714aacd2ae05f0a1f10e94327e376f0af52),
(0x4ea301083d711ae6ffccc89b9d6fd4d56f03bd68f4508cc0ebef5e43088dda1d, 0x81e9997a8b1c594906554bcf154166d340f9ea5fce55ec83eed793d55ca3e513),
(0x202287161c1c89c764742e62e427b7120fee118f406a175ece2f424e2affdc55, 0x7837965ecf26a7f3428d286441e1d09a91eaff0c5ecd2c28bc81776667fa35b1),
(0xd3c072fc8e4bf1605790d4296120612395be9092f166784cf5adb7e86070d20c, 0x72688262594c75bbbb55c0faaf7991c8f412e0eb0afd1c0cf5bcab82d8daf31a),
(0x294dac7ce307fa7ccf0e8f3428a354d294003dbdca763dad3e6df60e0530ec82, 0x479fc222a7bcaa62aee807c4ba6309e6cfbcc783afd49ecc0fb9b45fcf84673d),
(0x3956ca5cc09fe8d9e4042a8d67b276fe225de609ea24575c7075d9ac4e732fae, 0x1c965fe7a82190529d25ee0ce1fd62f37196431d7bd78302e287a26a2eeaa23e),
(0x24d2e396da144b48e736eb06849401754f4109d66d87a9e697ee82bf91fb3def, 0xbb79e77224b02fcfdd1e3c9cedbad212ea875c751fe7c81e76d7d0d9a372236e),
(0x638d4042f16e5c07fcbf9619dd9c2f91188528893e12cd3ab49e2b9b99a2aa5e, 0xd0d978424f0010a40df9eb8b8e5d8147f618da4374b8a4db222e4ab2b32b3d92),
(0x0f91ad5ba99972babb323a1fd3032e1d94202d8863680c5cd7d678288f0d866c, 0x60b66d45a693175a3a38bb4fefb32dac1cb558e1b0d13571e24a14d59452bdc0),
(0x3154137d779c25f14ff1fb88a6d0370b9e6af48d88e7fc39c6417272eaa69b7c, 0xeb3bd91e9c09178a398e112a9264484ec1980c19b1993b13560d39fb92295f7a),
(0xf8821e1fdfdf9fc81e3acb3c1d1d7a65f710be2d94a193550721cb9361549597, 0xbb507868c1e0528251b635b9dcf28e5ac5770c05c7afc2a3f4b4c45b7d8993ec),
(0x8409463a521404a5a2d8aa90050e3ad8ec5d6faf870333b06dd4f63e8354a655, 0xcc99452b85092ca539cc1b6683b7ab371b8a6525269a1ecf91b857bee1db3bd4),
(0x9680241112d370b56da22eb535745d9e314380e568229e09f7241066003bc471, 0xddac2d377f03c201ffa0419d6596d10327d6c70313bb492ff495f946285d8f38),
(0x9d1abaec9f5715a15c7628244170951e0f85e87f68ca5393d3f9fc3fa23a69c8, 0xf21ee70050dbb61c238c89e62942353871b010e798867bdd149ad28b3f28cadf),
(0x1fb966918db3af46c37234b6a4b043719886d6a05859ba32f72742d6141f7ae6, 0x8bc13ecc207efd91f7f4c4426e9a425aa17b557820404ecab09d5582d41f7379),
(0x22d9e364b9274dab098bcb23e0428e8a416d54f05a781281ee221db69e1ec7b8, 0x5dc23258f93d7db5e5799195b74e95194c300a9128f924c1c1e4865e02d8407d),
(0x625fa450aed083fb30166766d5874131adb168c0247cbff83987297bf873e45d, 0x720a8104473dc90465585ed21a0244f0fbb5a2865b8e51175a21f6448776bb7b),
(0x24acb1c19b6dfc25defb01c2e2681ae82deacc0ff21ae8ff01f82f37a6a2147f, 0xf729d335210e80618a8abdcdb71aabe193f50adadfaf7d52783991ddd3ca5d4b),
(0xd2856803a99d30d4f3a328e3bbf7db3b6c6d1896ba5b339f33c1302cf75ab555, 0x9649994d64705b8762c98bbf1b41b7252b814a893e780fdf5689c9da0692d6ff),
(0x80529e659d196884b15e95ef871e5fd88fb5298f3bc7831b50a0bc984cb5fe0a, 0x868b3e4f9ae4bea8efde50bfc5a5b2680b74b4a874e86de6e9ae476f10b3b778),
(0x7f9199aa3b8201ed5d288e4949c432770e0bb316953f1dded0674d7e8728e183, 0x01aba673d0372029546c174a3a72268cee9d7e41dd97de2ffcbe1f9f1a5288b9),
(0x7d32c88508e959f648c4674cdcccb19129b4566d644d2fb76d0c89662c29ecbc, 0xd90e94ecb50bfee8c951afb8e65c7386875ea99e31f553e866e0034206d39698),
(0xf2b961c09291ecc8576ce67ebbd1bf011f1727ffad9eb74cbf8819e32d1abfbf, 0xebfe58495a1e6a3646c382208656f638ed0aec0ad40c0524017071023126f795),
(0xd9a0c68995283291972d6a72897181b26b4ae3174e98a676f75bbfbf81be876e, 0xd36ae886a0acbc9ad1564d974d3f0309e9039b93bb350d922b7f8c7ac6bfa042),
(0xc7a363246aeb7c8c991b2aa710abdf5cfff2991230b3a69fbe2dd4817c7c3e0a, 0x1298fdd70e448d2d799863026b4b2d4902b32148d6d1e5f815f5b0c005c9e21f)]

/-- secp256k1_pre_g[0..511] in pieces of 64 entries -/
def g00 : List (List (Nat × Nat)) := [g00_0, g00_1, g00_2, g00_3, g00_4, g00_5, g00_6, g00_7]

end Secp.Model.PreG
