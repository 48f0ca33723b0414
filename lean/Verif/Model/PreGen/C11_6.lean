/-!
Generated from /repo/src/precomputed_ecmult_gen.c:46-397: the table `secp256k1_ecmult_gen_prec_table` for
COMB_BLOCKS = 11, COMB_TEETH = 6, COMB_SPACING = 4, as pairs (x, y).
-/

namespace Secp.Model.PreGen

/-- block 0, /repo/src/precomputed_ecmult_gen.c:46-77 -/
def c11_6_00 : List (Nat × Nat) := [
(0x629bee58a391595feb20c5344933937acdb2eba186d49f8b845c1b5f4ca87182, 0x8dae416273c6c0682e2aede476efa86b7612c07ef72070d0dc4486f147e95085),
(0x6fd5e13ca94b874b28cd574b726efdbf143ab1081089b8467b5b2ebe6c6a3c8f, 0x4a4db30652c9772a868b285957c5a005d83f6afa6e65d87c700da998ce651396),
(0x609b6576191514f483f5b428500cfbaf96871b8b3348fe5c1a131768bb266b6f, 0x90abb9c11bf184d28dbc424abbf74eb8de4e05822ea5dd937d1e8b30e5f695e7),
(0xb5ec026327cfd92223a46abfa755e6fc547806ea333666cfa43865a30f4ae647, 0x0143353ccc733d02617f77647dc29c6567a2e245aed27120e5fc11b395ffb9c9),
(0x0ac1fff6cd869ed5ca9205441ceb990cce30499810e275876536dcd801d4cd15, 0x67a7a0123e5ea29285dedf0a9f138b8058a1d23c2a233c5d783bec39b6482126),
(0xc1807552644130a3f9b8aea029fdccdd59e03e27ff2cb1f99d13cf0d42da7b13, 0x85e99587f77a25b0bc64b882bd279fa35be0262ec2f5253c70a43261bd1fe361),
(0x429191872b3c6877c3b9126679266e499fa37a8d74d094a88c4a363889c2717c, 0x1e4bd2dfa9757d42285cca1d856b49b00ad481ad828d826e8921f7447e04d6ad),
(0xd4b10124283afe034b278e5a91daf61bbe608417fc845e1f9b9f52a5043659f2, 0xfd07085975e2bad6b34e039647b81a8700cab9fbfdba802f6ae3cc8b67cc98cb),
(0xec4c2c4c722a54aeedc37acdcb6ac4903077bdf63f2c145c7eb25e7487c046aa, 0x327bfe37d745283ba385dfd08e30b61e2b4e54994432be41fd3f0d31c00e9ed7),
(0x559e40a7e151eeeb46442b86aaf4922c12030adf07279bb22bca24c667566a05, 0x5483756f60d26b9782033592cec21681c5b5496a0c47f6002013e5e5f2ea82df),
(0x0c1d2e9219c0138a9f0a34fd0acc92f4eafe13cf1c004b6a3175133d6cc7bf12, 0x8fa653f2a20c1262be59c7db20f12579b2adb1ff54d84ebce5ad41163d2ebc23),
(0x1becc6c0e4861825576624e4fa622c01139d9cb050c120629b87ae6b09622245, 0xd8516472656ea10f5b23839d0043f64e85fc727bfaafcb6cfc9c6e89bf9c038d),
(0xc483c2b38ceefd35a9fa9e7a00da242cd618cd6c8b3bcb620e39d68ec1effab2, 0x71964aca9101863ad7c865f241e814ef3c20facef46246b64a742026471b2495),
(0x3487162e40c7efa692bc827f9af9121eaf5ac549b4ab65856353d699a94a3783, 0xf5b2904228833bd6e3ce0debdc0396ca42701752f930f437d042cab28f135c1a),
(0xeb3b21faf733f15ab94ee0e43378e9b647571affd69292ada1b107c8ad511d5f, 0xcd95b4adb8768858cb750cbb4fa645236b6fde59ceb71dd473a7fe489e5a2304),
(0x21c8dd7c34d3f333758d1d1b72748fe08695af463d0bd9ade4a6498d1d01e9df, 0x634d86717b885f36a54b669135c3c026667f3cb6f2577701beb0d3bb84f07940),
(0x608e33b8149981775d78e286d5c6436f996234174e887da0a95274a0d120b57d, 0x5d094ca1181f8dca87d1e043f798bfaaf1004edfa470fce07ff8b124328397a5),
(0xf77710b4dbc5f7fbac6b015e956ed26a6bbfb5406a931a30d4215aed0de610c7, 0x7508a762a7333ca80ac244d647e476470c62c82d387d8df6175fb5631de83d54),
(0xf37040aa0b0347fe976d5980cbd83db54d8cb90e7f2d211885159911af769d61, 0xdf228dd767fa0d5cd44c3f6db09e662b99faa5c6688b088d949ddab106f11e42),
(0x7bf929f325374a1ba0cbaa50db47fea2a5d1e3f93c34bddcea5c2250d8252071, 0x8fe2d2bfb23a675550f16760a6511ae84e4d316c45d7cd624411ad3f0c72805c),
(0x261bc0f3a69d636a00b822486132bf912ab7ca950e9a4925b3f68bb4745ee63a, 0x068f52f7df1ec34977856c747b280907cb3d456f988ff7a7225c4ace8457a804),
(0x60ef138de7086d09711defff68dad21188d7f878d616efb6dbd3d4985b730243, 0xca7c32973c56b1780b0cfb8ada98748ac3d06cc07fe050d73a6a969552500f8e),
(0x8bfef3d64be90cac8b83bf20906b427775a6d98223d5141fb74e385150bc5eec, 0xea8b6b4cc7c8d9ba809ca8113621c72cb82006d781ff5f2532010fc957858324),
(0x9ca85f3d4ba47ab0e9fc0a2874cd10a4a8ba9aebff3194056140fea96e395ff3, 0x41182ce896554f4593768fc3a656981e69719f055469f9e4ba79de22bcfe8a8e),
(0x38cd0c79437b12999567999af54d4f8e82a6354c8a93a5ef56ca2ff58a1ce180, 0x0c96f5ed00d78de59f56071682b60b13f06de5f94920625880544bfc73dfa76a),
(0xbe37e05b9369b1596b3902903eb8fa0ff221f5991270c5f047edf62ea1d0e6e2, 0x4fc860a71fa69a27fbefd8c0906fc68f4713fa2ab37aaa2a7edd3c8cd100963c),
(0xaa640e99b091512f85faed73a3ac8edeee120513b661f8129a046a74d624aaaf, 0xdfb48ad1a01fd508e5652406b681cc9e13d0d60068411dae72d680616f6b94ff),
(0xd08bb931f008a1a738a162009fbf1ab3d3d455dd47f45cd600617e818b8e0245, 0x18d9221821c9a2edbcaa5d262b7aba18001f7f1e7f2007a9ec6f7d18f038d723),
(0x4e6ed1f6c39c894feaa53e1c0e115fda75fecf8a55794628d9a2202a9dd5c719, 0x1bb97d732e0e137ce9c94d4c763f9a6de14965480904460ddf1c3a2f73b66c1e),
(0x867e83ae610a24bf0401119d8e1af6dd414a716152b2ffdc50f71f772fa8409c, 0xd5d21ad5ef365994b3ad053392df82a56f677cb38500781ba769dd5001f6d235),
(0x6031361c6dffc505dc7e1887bc75c1d95a9db0238b7240e4c254f855b35686fa, 0xb9a9a979c6b8c57611eeb7838b4ac2ae66506bb0a203fdf63efa9b5998c7643d),
(0x08502d0f3468450368784822f4510c5c562ad30fbe29a792f0667e83b6f95773, 0xcd0e6511763674b557fac9f1bb62f9e23163a0a4cf08cd52a6d10064d8b02ade)]

/-- block 1, /repo/src/precomputed_ecmult_gen.c:78-109 -/
def c11_6_01 : List (Nat × Nat) := [
(0x840e41bf13203a96f41ea0411ec034fddb0dac3d53b6bbc94f8a3a78d0371235, 0x71b51550a79af31956c9b3defcb167d0c3e318eba852eedc78490dc5fdaaca85),
(0x5678a034a24a1607d78036b223eaa3c3845c9f9e7293f656073903542f714d5f, 0x57f624beff5d1774c6962dd4d14cc565acae170c7aaf8c6db0552dafe3bdf48c),
(0x722012a557ed9c9f9d737a8739954469ca12ab299dedbaca507c12597a27c6f1, 0x6c28881ea0e6245380d73a7f499f05a4d9a9c04fc2ba11e609fdd0b67c5d5ee4),
(0x70c638d93eeab8928bccf1e482368eaca03ca8f1b30f7b2d342585398c95c014, 0xf86350823dc2a20067dfb293891929cf18a810f25c85c169159a4b44b190a029),
(0x2ce4a530b5f6c77dc0c4d8916e89b24bc25c04c2723842d429300f825e260458, 0x6f3061544d1195ea098b972e91a962e295a2a4eb9be03949a789b01cf61dd705),
(0x89e71182851bb441c0af4e31cad89dc73947369bfef12eb6b1dfa71a72498c51, 0x20b7ffd5878718c202b5bfdcac42279463aac0da4bcdec2a8f3b538e3a9f574d),
(0xf01f06b8da0ba34ce1045e83adb95fbeb76f134b352355396b07f8de9dd25869, 0xafa0fb5b45ad1f2473460f175ff4bfd80f16226265c423fdebd92bc172f3aa7b),
(0xf0c217c81dda22011f46648ae096906d71fba0061b4dfdb985dfe59c9d8f1894, 0xd5ddd6b7bdf2a6f6cba166ae04c01c60b012c9eead954a466f631f9f0928b3fc),
(0xbd9acff287cc2a2b396aef61b0937a49c43a2366a2c3c461c12839870a7b6f53, 0x828de0adb9067b2d8f8fefe6ce3a5c94e7d63ea17c891d2c5f266e8ca5fac116),
(0xee314d972b9c10a40fec9f8dccab0015d4923e52d915eae8b319911c7a8fe379, 0x82057aefff05c496ba8b4753c4e57832aba9a724adf70a9f1b3765ef0952ab52),
(0x0d39fa7b9b87ee2aaa32454a13470406c8024c39cf3871433364de62cb94c103, 0x05cf1309530f9e09c9b38ad93a778ec5533f60f604a42e311cd97c2fc984b9cc),
(0x5ab1a07e5f6aff6816780e5a23c9faffb29cd7d75bfb89844834fb6bc6b34a14, 0xdeac47fd6567023eb5ec7a94a0133bbf158c0425c0a6d28823558986314d54bd),
(0xb1a4ecc694bb521298e80464cffacd32331ebc7c4d545141a129b522a4818830, 0x9772044f3722ec57d76a049b2afce2b6319f0bbcb17c7f06175a288f3ce3534d),
(0x56015e4281aed744a0859e29eb913a7cb44ebd392ed8c0b71eb42f9c9c93c8ba, 0x8f97365045f7d8a924a276ac20056895fb2b0aaa4b35468a0a51f41f722b9d33),
(0x7d99a5c5215432290c8f9c7b50dbaa64b200bf8647c71b35a0105dde2b3a8e0c, 0x0eae09ef3ffdec8b9a30291c244c0a726466c26dfe2c8d30174f57fdec6aba60),
(0xab7d21f91e7dac68afd6e4e4794551d5055a9f42598251095b25652e946ebdae, 0x8805a806710ed7b0fb99ff30130c074c6a0be3d2abe6e155f9c07496f8b92454),
(0xb31a5f85d65e52008f5261cdfd6d36f64b2a1f3a6f08d7b8defc7e8421d0f7db, 0x2e6d46c33733b3b5597a133f7459ee2b570ba3334d1e764801980dda1aa8d2d3),
(0x30af789e850c8ef89eeb226b27786679442a9a0c35cb73379834540029220fc5, 0xf6651170c83e24e10eb6e8daffa0b0bba6c5367672558d44c5b771763d9b5d7f),
(0x8d87f80898fb8007ffd5093abc6bad2d23e09e90e6967031048d54184c60e0ae, 0x3d14332c21df527fa2e98243d3ed4bd06634d79909f62efde8d6c9198ed716a3),
(0xa961c219eb9ea127205af30d909ef73208cc599ab2080966f615796e1126dd98, 0x3e235ae037b1007432e5cee5567788561d552e3ebf40bb825b527cac8e1e5b9c),
(0xb9c2de2140cea7282aec5293bb77dc7b550a72c884389c05310651bc7570f2ea, 0x74171cd94a5683b75bc7c5d9b4c8fc101fecc3b10b7349ce840b6ca4877fed21),
(0xcd041ff2e819194608fd7ef0c33021d29533cd7564772252c686f7187e33166b, 0x3f54a9af0e8597bbfaccbbd209280e6093d31bc5b366aff22c95e21bfbca6041),
(0xadfce0b58a9cef85e690b84a00c7ccc68f5aa4deada5e2653720412b0e1f19ae, 0x8ae2dcdbc6ce83be825593d687f9afbea88af079564c60d5c9b88898897515ea),
(0x833a50c2cb5507c660bd450ecde341c964f2809a0e400215c52dfaa09825df96, 0xde85e216493cdb4c4541f720201f4c6701472b6ad61cf8ea3cf54ccda4584b77),
(0x3475027a628ea4232d689d70d45e975d39d623030282b16b1f94a4273d7ea746, 0x97c3052d9270df786efbd2e7beaa58cd0f864e28905e3ab5507cb9aae3c69160),
(0xcbda2707e61d9e40124668ef7ed83973dd293dfd221396a8d27e7aa1392edcb3, 0xfd5023a8af8eff08f0e3c8b9b6a22a99b3ec3aeb7e0104dc1f8409ccd83d8a02),
(0x963722ecaced21052bf447fe619a8532dc78816e2e17a1113ffc601d9bec0381, 0x0f31feba259f7d0e3c326c6953aae60c1e0479da5ca839ea77c6f1a49419172c),
(0xfc531e1d49d2a98483c861b2b299b8fdb26831e03bced6da5c4449b018363be7, 0x9f9cc9b08d72ced1998c6329a17695d9c94cfc76ba9f69431c5dab83060f2942),
(0xdab255f5b47d96d80ec5272b5cde4ca43307092084aa4866d53b674a0330aea2, 0xfeeda13ba544f090b790514a42064cea509bb3f39dbd45676bd7541437579d7c),
(0xac5b161cfcc4299871b49d1f8cf35bd4dd6bf98e5f84f2f6420bc363b9cac257, 0x4511d4d31fa26d7fe56f671d7467bbd041358b36b60775f865f7d4913d17b685),
(0xb62fbfcc2aca0706b0fe67f40ed5d96b4a65b048f73e8f4c9782e1ee36189e31, 0x6549e8c2f77bc8244e1a90b4e42ca64a5ade1768a0996d6908d7b0477bfbf862),
(0x569384435e5090005cf3dd18ea629078e15097e9da7bb5c5737cfa0aa40e8818, 0xf86a18154f379054110169949b2eba6b477c32b8b68091a44b14990a5e8eaf92)]

/-- block 2, /repo/src/precomputed_ecmult_gen.c:110-141 -/
def c11_6_02 : List (Nat × Nat) := [
(0x7c028bd17536793974871a6bcc957d953813331c87ae606c17aecbdfa704ebb4, 0x4fea040ba0ef031991ff9b8b7829c0c393895439d506c5c31a1a3fd9e32e7e59),
(0x24e966d0bf1227ca11eb8fd78dc5369d2bb9b681927990b6dd02b948fc18a169, 0x72b7fa7cf929a6b1c556a3724149a2798d57f5044b50a1a7922cfddc17308ca7),
(0xa2b7db3a265b30aa948235776d5ea839c4fe564b97a5e3da313f7fc45de617c5, 0x5e895546a27781624a91ea4ec104c91185f3e954f8378fc20bea41a3f1cc9e15),
(0xe365c695449c9976cb67ede3325d9229ee526349e6b255f7f4e721846722580b, 0xeff99cdfa09205050ac37e46b812d47b31a291130e491208a19e3edb0557ac2e),
(0xc3d90905297c3a652c6c3d5d915cd9c2d741f4724a47c8cf035e5cf3cac9dd11, 0x08e9ebbd34a7dd0224fa6e33193cdd724906dc81a5aa41ee4a34d3d04b2ee5b3),
(0x6e4e23cdee4388d6e8b61f8aaf7678d1a62b3e1a3385d2780895a02ade4c9f00, 0xf69b843bae39cf4111fe9b99a02870575695421ee1ea690e2e76d937e7e32c01),
(0x92eb38a63743088a39b58cad4eb4a27ea8b08c270444d7046d2aa5f489713217, 0x22af8d6cd3567a6dcf7403efe0afea0248ea42661577005a9afb5f2a19611864),
(0xb3c84323e2d022fdd2a80d07203f4a26f5d32dae628420729663a9943a829d08, 0x09a899de82329d9483b88e1e1bce53ed8714cad4c68cd4911b71bc0ae3839821),
(0xdaae5199057a60028958b22e6dbbee20c4bbd8e107ed589eb8528f357a4dbb40, 0xafec8a03321586ecac38e9417fa8e342f054219359decf5e56479a39c32f92af),
(0x7afb9a5689fd1344cdbc5c72062dff7b718c2e470a6e19ec665af79586ed0161, 0xd1c2c9cb60a191a9a3db7e202ebc2eff444bbaa8d81ba0866f8825f38c765f53),
(0x8d0c4a2ae72b54c6236d997d61a2a24fddbd39c7ee16f1e7d7c45b22b4bfdac8, 0x15a58f4ffdad9e3fb4d33c7e170747cc6a5abfddbfbe5814ef0c36116a0a9e91),
(0x24d8c0ca53400126347e67f372f19298595b6d3376ba2f192fba6dd17b57bda1, 0x7c01404fbd316814f10734a1559049cad6f20e90d6b13ed5f9542630db77f9ec),
(0x4c2b7a5887a49df4f98cfc7222fdd832362b8cc4c5f4fff4d0a20674c9749bde, 0xc2a1cfcde863628831a5c450fb5cf552c76e581f9274e5d9888a3a68c37ca349),
(0x2028e381f42cc2f7a8829308bb72881e94e5b54e3331d848898ccabc0bf971cb, 0x16debea0203f0709d9b55b0d2b8651b5cb085d8c8f56708dc1fe4d33a616dfab),
(0xd11e0753f72b7c4e641ed50f84dfa24da0baea7798fcf0628b2696baa7ec2529, 0x55af37fe88324646777387e5a9b180590ace20e9becd74885e43fee5fa6809e2),
(0x72309865b8a1a6f39d6d561f43ddf5b7f2d022ed95df130b2563eaff09008a95, 0xf3fca0be3ce7d9ebe164896458eba87e934d000ba535f223868dae110dd5230e),
(0xadca4785cbf38a0f28de7b36daccc76189b8b918f3fafa7babbbd9b14ed5485f, 0x880d76a6fbcce864657edb9b349f124d1b22c7af2b0ff83340d7a0c484b49de0),
(0xbb43e0c093d58c6f3946e58e4727d7e2d223c84d0513c4e2222406bcaafb03c2, 0xc00f7dc8fcbd55b36a95f2f4a3a07b7f9599736faf099a69e2fc2630a2aef1d5),
(0x179eb588d1c7aa5a24e51f5e6d86e4ed2e6f0f98bf956b71ec1caca1b7f775cf, 0x42f461c8a784f643d5a8682a6ec9b470455f0ab90f269140b1ad237695f64afd),
(0x9144fc75b00f86080714f02716b30575be19dc01d3689e8d2665d9676a077d11, 0xb168c3247dc6c31e8302b6dfa2e7c053dd849538f9d45b8714d889eccc789704),
(0xd6cd2a7ab7253b8634231eb32793f062bdf103b24fade9126206e745a3b429a7, 0x9903e507dc5e3a61d73fc83c5c4ba4766ae926559b208369bee559484bfe444a),
(0x264845ed623bd3f3808ca51e517def451fbc237be47e3ded70c3769b391a9f83, 0xcb5022fe3d535f4d192e73d85d9ede2378e0824c0e560a97d53aabddf8717377),
(0x2df9621ccf3e67da54c47ddf81e3ba7e7b50e713cc7d08acd64f47e985c4f334, 0x8058f6e8139d8e87cce4a389c470e3d845da3537ccead4f3abbccf42a5fcc49f),
(0x0ccfd6c4c596614432d2efc41ccfa0eb3e0b44eda4558128c3e4d68d949a5cac, 0xbc77b87b5f50d3a96b28d5cffb371b4a36cc136015c548b3f98d661abeda8acf),
(0x4e2e6052cd35d5856531fcf173bf124d3c569bf66cc54ed69a520d42cb836296, 0x6381d100e5d9ae50f1821122b8e91a5ef365edee556fee1c2fdb6d173fd29c65),
(0x6603d715ed0f87257d9c3f29cf86ad4caa0500cafa16a7083168e265b87d0255, 0x9d2eda4a6195e2c4a4576e4d05d02383a3a01b2cf94ab8fdfef2f33815807d31),
(0xf09ef30dfade81df2fcafe310387ed345a8029cbe93fec3beaaeb8ac8adc9803, 0xf9f3039e5b73c7cccf841eb81c15203f00ba192e9eb39aeb36f56c2944b286bb),
(0xebf4611fcb3a44a9f9d5b00ac559dbb5394840c841a06496bbd2011a2508cc34, 0x1e1833249a6105845d62ef4b685152e5c75c75250c703f8151bdd87c6fda0d43),
(0x31fc3226c19aea7b4845ff2addeca6a936505a4992102cb3499d66f8a6e1a3b5, 0x49babd410b1e8a6ca728f971d8d8cb7647cdb94b89767a67fd975ac693f144d1),
(0xbe1e37d9dadc4b4b7a5ba74dfb7eb55c2b0a4fdd81564f8d51038afef716e3d2, 0xde6f0c3db6efc974975a7d6d3c6e9d44a712879e4e95c612164273bc05de1f4b),
(0xf8034e142425cdce31e82b49cde33ba83630d1ae283b8b4773960539c67f1652, 0xa302e3b1860252a5e7114568748746ad1e02c2e4280bc913dd4b4d2f92a561af),
(0x21e709bf369cdb2db7f51b10f0ff56c12c1938d618419d0034e57d947b83d5e2, 0xd7e09ab12e7d04f5aab3a75f8cf75876ddc3cf0dcb4b9526ea7f755adfe1e495)]

/-- block 3, /repo/src/precomputed_ecmult_gen.c:142-173 -/
def c11_6_03 : List (Nat × Nat) := [
(0x638b6618c149894675a1a94308755a6830d7dd3c9d8a9f20d65a71619c8b477f, 0xe4e66035e947c73a0c34a48bb43a37620d1038e6893dee23cf658a12190d2a56),
(0x4b6ce93aacd4954ecf0febd1fc9a965eae7fbc1ee24a12d3a4b8657362eb255d, 0x8cea48381bdf4e5d79e25ed01aab94b35f00267b3ec7eeb663833507583407b3),
(0xe2a421103e8e2a80a6451f71b348434d7d508023beeed16ad87417b85c7b7913, 0x5fc15b62124014e7fa8f95cf78ce8415d46a1f97d88be55a764317868de3d605),
(0x0694995691582c2c2e14576f5ec0dd3765133237a4e43369633edf69933d1f75, 0x5ca8c2a6329882f52daf48e2e291c48dfebbbd2909ccc9ff03ad54ed33ccef43),
(0x55d836af2dd4b8a57f20eb576886790ea3ccfcf92a2940b3646f263d685f62cd, 0x7cc1ffe637781c72d3cc26dd9d4147c2183c8e0a95b8774252ac47ac019db266),
(0x442a309046bbf3ef0503a138b60ddfa0ea4a5901ae801003f3f18ad99703a44e, 0x129d9913eff78c4916e67c4ccb658784fa47da3592ea1c984054b371a275639b),
(0x76981efa29944c2d9463fc9467a92e1f9403c287dd5952924860aee4b78626ca, 0xc87cb5c9ce93ff3c23189404cabf8e09996c4cdee67935d5874c705d6a7f95ae),
(0x42ad08fc2a1eafc3d793f04e0304831e0c1bae89c7d00b247785d870904bef5c, 0xc3913fd36b8c08c2553b9c485b90221eecdc8d026d558bc25fdd6ba3df78ed63),
(0x4d70ffbeefc6254dcee74a8970244bd3384b3af58510ca61258fcbf8f0c82575, 0x0ba3e19db022a75bc75cbaea84ff912b0867124da20e0d28a007fb749a9d1c7b),
(0x4ec8dca87079487c0adfd516da2df1395477b524df4aa6d64db5e206cfb14b9f, 0xe88e5badc8654d60fe1f8f6a7332820963bb10cd31aae381ea1b4d9ceaf9cb27),
(0x2e5a47c9a47cbbb5ef70178434798a6c48244df9dab1e5d883c7f732b89c7d79, 0x7c8202ddcf7fb6ec471856d5830d59e699c04377c553d835f64cb333cc405c35),
(0x3ca98150bc5f116ae7034a07628d698f67cbb8d374869ab1534464f55e8ed24f, 0xfad702ecc6b738de5b653f78f51c98d21e4bad574db9773058324d1e012b89f9),
(0xf414495d9093ad2211e001f8b07b38bdf5430a1172899bcc2c553b55a9d4a225, 0xbc130e93998db2296aef128a05b8e5b99cf67eb7713aa7d99fc4c902af660f4b),
(0x44e794c95a28ee80f9b641939c626a784a851a4f84f288879eaec5081b60e508, 0xb219e0001b07a275f63dfb3be977a40af505be1ed3eb8194b919b9ea70d7198a),
(0x35024622bc17bec19c352280297ddf7f41654c0861c3744b13c74ed506673b98, 0x64aece4c3ec0b19ccdbc06b74eb1570450ff689e6c5bafb76ae9939612f4cca0),
(0x45c4f36cac4c4738ab216363e12b247550b8ef097a986ce160b0462ff8725a58, 0xfb944806dee598347d25688503761e3a09ae666b9b0ee095fea33ec7bbce9a5f),
(0x20a0b4f7cfb58bd8d09d008d70e7f807b4fa61ff065f2e15f00bddeb55df1124, 0x7961d1dee98ca40f4d09e5fc52ae49160cafdd6e2bdb9f9d2776239ca3480157),
(0xfa10af8ceb2de4c93c0c2cb095f95911755b19d990f17e33069930d66002fcd3, 0x68a3bfb4533bb5f054fbf91cb771b08ee388a61a9727bb7fa3a1f67e60b2eba7),
(0xd417d7dd30ebe9f17d52edd6c82d91f925d5987fa6f53b0ed769a34fe557c11e, 0xea89c810619e32f2369258ae8ad8a456cc36d87eb45a42d38395603962e437c8),
(0x349b002d0ecee0e41788a3c0cabb9ff7c17848e278ef890563924c5552d59853, 0x47583a2e07ff61b96fa168b51191b363efa3e0a1ce825a3c5bb04e5be403b4b0),
(0x4b8efc8d7eeb3554b5128e8d0ce20c29697f79cb29f61b4ea2f7ac28057910bb, 0xe3cef6577b5c0d2fdee52c96b6353073b099fc9c6568896924cd744b981c5ff0),
(0xf356e8cf5785b05e0e99a2b40d202b642b1e98c257741e607241fb9fd3f5ea2f, 0x9079fd6559d5a93f91370d1620ba487aa8c6ad3de67f2c8300a1c335fb5398a2),
(0xbfb74aa215e5ce3697cb6156c2666ef71b579a5056ff60bad3d5e10a7eb2d31f, 0x3def8a80ddc3f407e30d11fb232f0e310191bba1d51a7eafb86d7f9745d78dce),
(0x658748bc0bbc75ba30c969fa371fc1d776c32a5c7e632201264deb36b296ad2a, 0xc173fe4b14ead07c02c6574c8887500b53f6c02edbd4048be69aab419267ef9f),
(0xf51a5ca6fd6dde25447fa46fc0984d2666004c028d4026248886d0d4604f6ad8, 0xfd4290e17b2928aaf2e03b9897252b82d481c4c5ad4edda616dc1cd8e7ee83b2),
(0x20ef1ab3491b8d0d0a1565e28dd92dff0efcb88fe88c6c2f6b100b30b58249b6, 0x06814d327b5b94c412fb770e2fc4077ffa9a336c9e7db2a4bc7dffa40286eee0),
(0x0d98785a82dfe5de0343bea0d91cd8c493344b867fffe1e6efd7758a90cdd899, 0x37ad7f7c5783d2625204bac34405c207972b7fb4cccc3585ee152f0a48ee16c4),
(0x3885e91018a66e642d3f0c76bca6dc820a6916cb1e46a8587aff5ea2d9390689, 0x2076559083ba89c214be917846e40553ea195c490de203c9d175296ea4430819),
(0xc88cf6503b50f5eb7bac15fe2097ff769c57b9831b5d05c9fbd8dc58d4a9a746, 0xb6443b7664984192e7056478e9f372cb21a0c7c0cfcb0e84850443a025ff42b6),
(0x2831fddb2ba2d30102dedd58a3f474343450985e80e4e4c1646745cb1abc69d4, 0x1b04e1b7db84b6c4882f264c7bba91d52256dc97fdd22e58483dec325020a257),
(0x05e492bfc9d19dcbc3bcb9a8b7bec84c23c359dea78aa0a1e0522232df037abc, 0x614fe5b7cffedd7635d371b52d89baf055af687de6c12d80b221d0b39d03d0ac),
(0xbbc64d06681957e9685c9864c5f9bfda34b4dd026b749399a12bd8de87f311e7, 0x3c525096dd6b7d1126c6ca505064da63f7f6a20387594f4fe4ae0403fb4d66b6)]

/-- block 4, /repo/src/precomputed_ecmult_gen.c:174-205 -/
def c11_6_04 : List (Nat × Nat) := [
(0x2b00c7db16887372753ab219170925638c603992f501b07c9d8442b3721addf9, 0x8e7c5f664c2493ec77cc74efd9221235f26bd3bd6f50534739f0fe19c41b9fad),
(0x56b9a3ebd936022456267f5221ade9f9674863ee4bacb7c9ef0155cab36b336e, 0x2e2b1a4df6c150c86dcfe9d2e2836579f82ac4d42f8fa4d5d814b952e92da69e),
(0xff52bbc283bd15ad523e6d08873a88969449a1c1c5ec8570ed5320005a92aa3f, 0xdd9c534be59d3845a19434351a20513d1a829424e65ed8ad60342b3806578b21),
(0x84f7935686b0d45a13a1ce227e7c925ed80be5d99fd7e671270c4c357254e9ce, 0x3dfe20581e91dc2512c16951c667fbe683192bf33fc0bdecc760dff6730f82be),
(0xdb14da0a86bcd27571cb9348036268bb85c306c89ee1b78b83c247a171c7355d, 0x66ba535e81e877b471b0b75a6545970d6e33cbe0ff011e3fd653d026f4fff395),
(0x28bfbd9e4455437174a4c24acc65ef455fd4d39e0b466e94358cef4b0b0eeaa5, 0x5f5ce6de2925acc9e503d731d46601aa7e668001669819cffa54b3e3dbb98f32),
(0xa7b21a3fa07b40497f9f5087c763b431d5f04cd0e7b7e0dcf9c6c664df7c6ac7, 0xdaf23f350b903eccaf4f50cf459deac985d0d0083b5afa737131a61d8591bf9c),
(0x12fac42a040935aae881894d245b9691cd1f6ad0e0481e1f444e0ccb6ee88781, 0xc519e0b9e3c19fc8f67c07e4f357f43d589ec23c7714f7a04347be964ca572fb),
(0x5c2e28bc94f8639e50133dba9b6c8a35348eefdd2fdbc18f02abb792eb8807dd, 0xc546b3c25f2809e27977a8e23a1c3ddf36229f31434c90e91386ee84b64e8fdb),
(0xe8e73382fbe8b94e58bef90baeb28305d27ea48d9c5f6e08ef47e4dd5fad6b78, 0xd3529a2e86240f06a63ba03bce419c0524d22622fab9107daaf3016c6ff7fe3e),
(0x26b93629ebe68d1e878e94b75babd6636fe1f6f8659b155ae10801ebc2cc51d9, 0xf4630056b3e532f732238911555c0ffdf4951c9ab2f45119cb12e7740aaa2666),
(0x57b3b642431f793f24862328dbd271ae19d343ebc3b0ca7caffe4fcb319d8d94, 0x1d7ed35a5abc7e391858a9fdb90f907e6a065648c00f94a775f06d2b1cacef1a),
(0xc2123794d98f0311c13275221767236a6f45cb148fcd65d7e0be8d132a650953, 0x0d5a382ffcc2ffba3917763debe0549d066f358bd727c281288551f84ecd193b),
(0x167896629208b5107528efd136036980994d6c3e5b34c69fef3b86a43db9e8f2, 0x217105f839b0ae0e932b5207e8e7c1903ea463c540c043aae4f8b10697ccc84b),
(0x3a0b8ffc83a1702e214adfc379bec5a9753274ef9e3271ca8ec5b067a5f3b6cf, 0x2c3de01bf27dd5744496c2a475a07e6071ee60ef7eaf1c94c257418b744d1338),
(0x482e5ac26477feb76c848d5840173d871687c5b73b2970ecb8dd69e93393f923, 0xdfb3995aca5b54a30b48e1dc107023d4dbd7a9186adf2af061f9216076e7f78c),
(0x3869373d638a30cb63177204bfb194f02c6ff5033cb4ef1fb146741af3b495ed, 0xf2ac9f3a0ca159c7c2ce9f48e895c543d3f1906674f335b9efdc4b474ccc23c3),
(0x98c16ec854b34ea2f08aa4fd3ce1877d4a36f2a64e67319117f74e5d86e57f4e, 0x3448646fc9aaab0f4d9ec2988f7c07ef448888e76318e0ac0552d7ccb59820a3),
(0x1b3a4ebc8ad1c2002847e182de7c9ebaf0f7a408e2aa172d484bb9d3ab897b73, 0xb93decef69cf2da45c3a2373ac2abd77311fc1f9021e7df85f5b3504a5ecbdb4),
(0x57b5b2d287bec103e4aa7b961612971864780441fb5ef8470019f16da1c909fe, 0x2c2d983cd8c37a7d653716e6157561219e5ad5ab2566496767a0fbd8e8180c71),
(0xcd7e277bae1498a18e7bc00c2c299a4969f6862bbf96e6d9f5143db87b582115, 0xf9548ddfc27108bb38f800256ffdc25e28621c17c370a40e5009b968d40660bc),
(0x80615f1282ed7a8fbdd7089077c24f18c03fa3953cbea7bd32a26c7c260102e7, 0x8d54a3a283383d6ca633d17de2f4f7563bcc382610cc10123f2f192be654c2cb),
(0x9b16f5dd0c8c8c8d53786b49e2d025a6838f6322700fe1057de6d78e92281a9e, 0xa36aa3c2f203428576f5c57063bb1bd70e6e04102e1cd2ddf100a54e431ca08f),
(0xf1d0407535ffd40f2a0b59f914ecf368067700c5b33e15c5153fa9b1c724d36c, 0x22a8b48e4db1d3d128cc735f99db74d9ba7457cc67b8fb397b38fcbb153f7c0a),
(0xc252ae6bcb711704659c37a6f425b2151ac8a4c663420eba899127e81d8df3b7, 0x8e9a75abc5a2cd8cd44331eab07e5d97a30c66198e382261642c0e108f6d46b3),
(0x59f6fadb4a8a3389999b93d4cdf1f8f04735b3979fa5397e64df420b85876ed5, 0xc6e8baaefdeb701923a68b719c88596f60742a38db04d7e576bd1b8d1ae25a6b),
(0x3c2e03c93f610ffd0db519c780c201ceb58ffed8ee10e21fd1610e9933fd08c7, 0xd339d97938e1c5de7492e7d2d64fe34ded889d48546703451c51432f0ec6c829),
(0x59d16070f9147ce55bac599eaaace0ef24c02ea685249cc6ccfbeecba4bba83f, 0x8105bf4147f22f7b18c739413a85ef0640bf680551c68a10e16be9200193977f),
(0x3aca118203f31b2ba12e628b604b101062c45fce22e15dd08b9b5ef90a53dc02, 0xbdca8ab2d2dcab6e3a98e7f87e192c19cae60952fc6f54bbd46acb4960d51c0a),
(0x261e9b933648c7d8d5255219fd0634eb112e1dd3fcce0a04135b2784e67b5e32, 0xe0eb5ec430b1f9ef2bd10916b21f4fe104cfc80c2bc179e0fceb8678ff933068),
(0x75918e0ca0f03b3440cd6239c108bb72f293a8810a1f2e9a73c604b88c451c39, 0x7f02a92580e50aa25b786d10422f1d802c42cb3727f09ff11f5e0dd9bf6a6c1c),
(0x42025e763c05c64c311a275dd6f1fb3f2da2108a39ed24be3de83123b1c1d1e9, 0x0dba2eec7405b67ca1915b13457020627bfeebb86b90dbd487849e5a756921c6)]

/-- block 5, /repo/src/precomputed_ecmult_gen.c:206-237 -/
def c11_6_05 : List (Nat × Nat) := [
(0xef2c5fa8b23285e350d7f05dbd8c96bc6e6628245b10e1cb4b659bc5ded5836f, 0x1b37679e1177b6538975790a4d5d2abe3626d6361d863e0e1db5881e8e0c54a8),
(0xa1d5a92c93df3c75a06f9c2ba604789dfd48751362d957be68c033e83e202fe7, 0x64c1c00a03964fd50b35fb52b423b28577c8d269bb1ffd16325c5e0f7be08bdb),
(0xef13ec66d46813ce68038fcd0541e5e8bdbc970d337d7b5b9099d0e403fa4288, 0x7ad7f4f0c834522996341248b1455ebb89aaeb6e1ae9db251b86930c9f779fd9),
(0xaea7cf4cafc1079ee61396b62df9bac3bf33474554af46788621e3374c7486c7, 0xc05386055911c893459b98b04be449f12e9f98cfef4cc2929975d42a0f460d65),
(0x8f082b3b6476b4e9ffb317e61fec0cbe8e3890411fdc87d68d4d26f544c2e6e3, 0xeafc2bd0d6570a7acf8bb5d16cdc1020456473c9e7fec1b7fc6217cd89d0a2a1),
(0xe0d6310de5e664b3164faddf39c936764ddd3f0df5e007ef5293ee35980ae0cc, 0xde093cfaca1033bf47e887234978758a74b93cc52cef48a3daf4dda9adc79ccb),
(0x2518110d5d0644225ead0e2a5ac8b8b6b1fb7fe155e351c51d39673ddab0f6a7, 0x84f0d6e4b497043a95b6af9de72cd502a7b6a68decaa01b09e0d8ff99d8a16c9),
(0x6dc820b85db42353c97453ebd7d768ccaf9732d7c261bc6f8399caab34cf5b93, 0x30b168c02509e2f702035f608be8b89d577b6e720540f521934fe9807412459c),
(0xbddc1c755bca99113c9ae05d0c14441e2c707fe58a329f8dfeaa36ff12771376, 0x8c0087cab7688dcf5a3cf1a33c27c7b9cee360073aeb9b9fd7088623af20f62a),
(0xb6e5ef5aa84c6d2ca209d50e8fa8e1d793c61ed9bfbc22d52ecf293c9489ac13, 0xf76e3adca89cb983b6b670f95a7e774a0c015de51ba5641740ac1f68e3df377a),
(0x26699dfe93788eb8d91cb601cae628e575e8468e73f6cefe588755b8c396071c, 0xe5f9e00fbcf6f1cccd39ab1341cd06b0ef2e789a17d761f66a7a83b1c036791f),
(0x72f7e16f77f0a4f792db2cd0354382af34282dc07b8cb290a89a5d60894e8090, 0x54d32ecc2cd022c6c03f1379657450b0db9f08e96e2be5ab5233dd84062733cf),
(0xf84ae7f800a03b60af9cc35936f0ae7896935b2c0534f8528ad159bb6c0b44e7, 0x68f4dfc620a354d9d6904bae67792622337e3180ab34082880bf04fdf47cc23b),
(0x5dea33b1b52078806debbcbf83ca17db4617488cac5c6997ad4092a98a7bff7b, 0x99976fe5ae88d36f597e16bc6dbbd4b4547f4dcd7e85786cd10af30e1d81bbaa),
(0x31be76bd4f946e417de73037ceaa0dd7c6eccedd74399e142ae6fb2fd2b59def, 0x54ad8748ef129085dc3172aa904cc376e203fa69387830072af3388952cc6549),
(0xb6124d0bf603a00a226628978dd0da87fcaca5c4fb04ebaa81a7d13b39f2e307, 0x34ce08c74463b06cafb03c02583288eb7bfa6f2d3eedfed491e31781dcff10da),
(0x6aa4bd6090bee70a295c451cc8af72bd3665680f545f46c0bf5af990aab5f43d, 0x9c2364d825406b76094ec9dba0ea2f9dbb36fb2c5bda62a2bec941c6874e68f7),
(0xf72faef0e268a7b0a9b00a573674d846c1f0dcabc9a586dabe318b1cd2874d8b, 0x16b3cfda65db0f3d1b5274cd20b1329e61ea04041f702e71cd98708e028c9307),
(0x1d26df1598a6b9a87c0a6171767539e186d51d1dcef130da1001226f87872c5c, 0xf227cd82becf5493e2fc76356a37bb483e681a19ab4d9dc792edb1143a7b072e),
(0x28690cb1db69784013e9eec4d93887234c28451ccf9dd51a746d1274b13b4610, 0xd9bc39ef19228981a1ead1f894deb254162fed5dcbb58a766d361e043d8f62ea),
(0x4b0b525822dbc31b1966b0044d39c5de0f2e16d51e032045f9973b1efe83ca12, 0x2db33ff43631fdc3b3608b407dd494f6ae7302129619ae35f6ea08eb51aded12),
(0xa5b4e205462ae4198fffc1e7393d366fc5a9eea4e98c67ee1684d63fcc09aa64, 0xd3c11017de4ad17517cd076fcf6c0ce04d3108ed60eabdf0935499f94226078b),
(0xd4f1af692a3e9fee1f92d892b14eef6aa0ec1f4ed4d455f3c70bcb1952fa9837, 0x0115c7ee73b90adff142191beca0be017d5a651f093e2e905a36646e21790294),
(0xc275c7159d6e9757d2adef472ee53856dcf067dbbd4f380e892c9832708d46b6, 0x70da1cdd853a0dc80a6a90433c319371025590c95807284cae168f6562e4465e),
(0xd2e38b2783156e2aa8e4eac0149bf2bdbc2918af1cfa2a23d1c7136e015dca7b, 0x0738a0fe751ecfa3459e005f72b7461fa4b5e1ed736420d222c5428e2ec1348c),
(0x0f8f5b3db3659174e0149fc6fa747c229607c4348f9eab60900bfe92b23f9a4d, 0xd89eff3394a093fb549fece14e11028a614cdce221d5ac261bc25f32dca3919c),
(0x5e266403e49fb860e6ed092845bc08110a214a0edcd6174b290ecca93539d862, 0xab300acf5d8b8a142fc9e93fea995d2cd7a2bdb86a146f652b8bd49c4e8dac1e),
(0x8ff869a760230ba6aa5adf911ba61702017cbfdc5ffa4018b8a09b9e4088d634, 0xdb5a5aaebdb946db80e4c20722ce38c94921bf4147eea51070e5aac5c592f32a),
(0xf3d39b6595bd5ab9aeedc43ff49bdb2073a211f45ec2c1b772226a97a31c059b, 0x0ea41abf9322d733bb5971ac194da6a0a6d41c6ca0d0acafa53e17bddabcdc68),
(0x18ba0c34101699147f7589f9179b94f9daed92c9287f3468d283bdccd71cc637, 0xb3512d25c199d2a4c115bd11eb53d6a16ef16c3d97be62915ff76b76890ba675),
(0x2cf3354d7f96c58f3c6336a06fa30c838da767af48f89fc55ced5b40e0b86cee, 0x403ac306f6c3ad55be1ee5bc29cdd46e2e3d83ac710509095f117d217ef015cf),
(0x5d31d1400f754d6c5943deb76aa4d867cac81abd9911618b82327795da8d085f, 0xc25f99d05bc5d583a3a72b414e5eac5fc14ced0198247ded79ba482c882bec49)]

/-- block 6, /repo/src/precomputed_ecmult_gen.c:238-269 -/
def c11_6_06 : List (Nat × Nat) := [
(0xe0ad91c66ca953260d440f44df91c1cdcd3ec344e906d0ef51fd4a4831ce293d, 0x03559f3ce349f7b3cf66c17b2c3fe7e68ba3804e438c0816b68ecfe2030da18d),
(0xd8b8c50cae9f285fd6d9282c373607d85fda59dc71ba0066148b378b37440076, 0xef83dd08ddc115cc24948009f9eb4afedcd65c64b6ef2194bb4ddd0fece180e6),
(0x881fbbf10a9627bd369abbc2edda80260a61b10f4161e442530a5e36447a0290, 0x6a63cb8f7e5094d3c8beba5a2a1d7b54bc33005cefdd5a1b20d51f74d00c2fcc),
(0x036bc0dffd1441be1a4efd6a43ab9d83243d44bca6e108dcfa9a79fe23106f0e, 0xeeec58b7dc37eedb4432dcff4de7f88b2a0e0721da2c0a72eadac4dd71037ed9),
(0x7652c155c2ca8a237680f015a62c7c3131682752a99c432977ccfb9dcb58b03e, 0x5339a51b36ad4548197d30184bde4428b38ed983d624bd18a5f8c4e7021871c5),
(0x904774bbfb8b0c12e2b3f91ae5a2a0c1a92971f986e29fda9edc609ee85b222d, 0x0ee843f18039e2519c7b23b3725ca0990114b4f02697011135ded92b94445e2d),
(0x1c7c82cbfc14b9b2cdb3c12c32df33b6a08e7af9df62f31079fa0710f28f5f95, 0x93471b5a17c84eeaa45948df080c0f56d8684f351aa2ce730ab84b3c1b8250a4),
(0xbb060f5d971ce062427a56308f11453240ec54fe6479d5e79ce8144427f07927, 0xfcbeaa698278eff3d4dad904836c023340a866b2d8f6677470d1159e201501dd),
(0x287c5b8b8dc168ea197200ea97c4f63ddb0b620c7f30d6237934f856a558438a, 0x260630e6ce310eb0366acd78bb58f4ef27fe4836edc8ff0f5d5ff987b659bd20),
(0x7d4c5c6ad6bb0f0a47b45a351264f4e6a81ee0b165a7e6654b226c95feb59dbb, 0xe89691f3ceb4c57f5aabc1b74acd9aef41531851b41ec1c6608f16a22243ab5e),
(0xff806f2b9eaea4f647d85077d8aa50529d4b96d21e0b31e07c86b14b73b7ab4f, 0x9acc2f77a994997c7a2b1aa079c0b5d4c84f6715e4a50e33628b871f08885ef9),
(0x3ce795ba1d91a9bcb02606543450ced8c94184dc08a41ac5e1b84856e88927de, 0x3492e696cd1ab2dd587d4707ae34fd673ab7902cd0c0972fef41979501ad88a1),
(0x299ad528afa3f36bc80a757f0f081a8dc4a6ddc2d2b57fbe1e3d361bee5a5d8c, 0x9fe823da074eda2f266a8e9b331d511b623dcd32ef9ab7a7f1d1cb4a7e6fa65c),
(0xbc4b054916177aa9b52b29b7cb91673c09ffce4c07d0066be42493834467e3b9, 0x55bc64367db68687e699cf6cf2db9dd8c2b9a4388202fef511acdce0ab06f969),
(0xa8e8b02cff5de02a9e6652cc6fbe41cf6e87ae0aabb14ac5a178b3d9e697d0a1, 0x285d4af9405b03dac57c993e4b40df8e082c6979f8de57ce4543b7ef3381e0a8),
(0xe50aa8b6d7dcc0554f406959b056dac521a7842cffaf09a1ac24a3d98aef5228, 0x46656395ee84d061a9f5788acb05975d5ffa5faeedced5641f81b5cd2491c23f),
(0xcb51689998a214c30c31e4f20692cd7dfad6f1aaeb8afd1fb29c23ce429c224b, 0x2292b8a45a89eb80167238ef2027f97598a2aea90a4460c53646d08882403c63),
(0xded04c0674c6eb16557b5bed4b6703d2cc37c6aa0bae466eee7b56656693c3c9, 0x4f3ea70f8e75b02b76934cc30645d2afeee8e9d08d10011740e8a16cdbf01113),
(0xf3d0a253edb74436897e6cc6621c74e130457b41e0690b6f7b2a203e8ccf8ac8, 0x89cb07e097495bdf403490fad58eefe3e79ffa331deb5cfd2c548ec08771be67),
(0xd4c66267aa73ed55bd68fee32a166a4a4ec660fc4cb13e18fb6ab0fb19a5f330, 0x7c2efa2e4509b2219758948340b6c74a8ee2b5b605fbb7947f838c47ee03e2f0),
(0xdbe9a638f262f9a4b3a8955f22293feb50ef4b3220df0184f363a373d7110981, 0x4c563e835e9577565e6a899697510c679561972e5601c1cb2f2f789ac1e0b5dc),
(0x070c7c071b1e6fd0a97b55cc5ee34297166f4d02417a796beadcfd4396e1b338, 0xb5c49a6e2ab03e55f4755f37e5211d4be23339d9d464fd286781bb2956db23bb),
(0xaabc501c6d52961aa613fe6696f0bacffad74fcf8386cbf8b18704bca1392ffc, 0xcb72ba8670bc3f7c85a00d3d76b115966cfa0fc744b31e0109129da9a5b04b77),
(0x47f72ec6e7820788f0f7814faefd6e2eaf5d90f3f877677dae72569fc6a2e8f5, 0x6709731bef2dd880004696a6a0661d13fe5797045e0a9bc0e5fdc0af789c5830),
(0x20026251d9413e4247a5884c209b144c98e36f7d8ef3f56a68efd4758a2ba8c6, 0x9c5531b694ba0d24a943d0c0094bb62375c798cac9716181a9d659af2acb978c),
(0x8dfc62939b300c9bfb617d236885f652424b4f12d04f8bf1151d1ccf935e445d, 0x9a51943318e941075472aa9d06ec339059bd3bcbbbbf6937c9290e489da25f8f),
(0xafef35203b5584956fde0eff5cfab48d8fb088063c1d7cbed7e352c29d49176f, 0xa764e6e7bd0c8fa08a6f7f30aa38d7de0fe71773fb7ea48468b3fd9a8adfd650),
(0x354c0a981628dfff08be8edeed809db4bc39c68639a26828ff28dd4790801c46, 0x8ff40299d607036bacd7c0ab66a102ab38f8d3a8a271e2a520b43cbb687cce6e),
(0xda2e7eb11a1e66d905001ec4f7b66c1ed9f7d0baea3bb326672b90695cf4bebb, 0xcbc1c7dab9bf7e0cdea9297c5f45ad0b9c4fb093318b55f61e4a8951726c4021),
(0x6f780994d06626678fa741564232bafbb3a7f54ba5b665079df32545c192c3fb, 0x5f11f0f3af1a763e4c9fdcb11e5e57a56dfe0d0ff27535b44343a31290e375e3),
(0x8e28948c729c14385bd0931631ed3eb87acfc5f42a9eb4f8afa5036233591cec, 0x2c09fa1cbf0044eba78ae81fbdbd42712a89ffdcf7d476af881d29fa2627f250),
(0x4011cf05a85ef14f1875cf3f04f78a51a52a89bda8930a4b8e13802db85f319f, 0x35045b1045c4f71cc762fa785b8d4dafaa2a1c07ba37d82dee0592aead807810)]

/-- block 7, /repo/src/precomputed_ecmult_gen.c:270-301 -/
def c11_6_07 : List (Nat × Nat) := [
(0x9089bcb71c1559bfe17f6c0b091fc098c63785fa18a42d69798b063fa0930175, 0xde2291755e4ebf171047f79a37d81b9f9004a7cfdf7475897365e174ae367969),
(0x4d1caeb341f254593b06f7159e9418dfe29ee07676c26e6a51d8add25c70a5d1, 0xbf773e4e04151d17650aa7ed1d6a55052d62226475c50f313261aea2cf68dc37),
(0xb0760330517c0d662571cfae830da7fca7e0d86c1ca7f75f5150f6250db50ad2, 0xd8d10ef39c84bc1332c2cc014d4df0fb45e5c5461849fb1b81b7fdd07484d35b),
(0x3db731e4273e5b202de984c974b4112ad0feebe37bb0d2c70db38c7a21bd8c67, 0xb425c1d346b6a61f2893a3aaa243d60f5563cba240018cca3f80925f71f4f1b1),
(0x3a74a50dcfbf2ff25c99c4d01a13a9179f510c2d0eca1d5a7ac8fb6907eb9795, 0xd2b468b6714681f457bc586f40585c01e1dc14a1a42ce8879ce044d9ddb92d82),
(0xb9139ad54f44fed84917ad55c49c23c78d62aadce83c9ebd9efde865cb1eb298, 0x18068856c80abc3e2a02a441bb7a7609aae8d2d78abf4e2e378fa3d0a27aa900),
(0xbcf5cf945887f183e58a01284ed9a4f9fcf918dd4e68d70c5a54eeff166cb44c, 0x8235f63bbb06a1a6d9ad2ae847aeb2b34838c9629608943a93294c6de21a3ab9),
(0x4b598ce3a77680c4c5f66e901b76627a27f353019641520f53ea3894dcbbd187, 0x357af043f77cb9fec04ce1f4dd9b610f9151d15b3b7383e4ecc5384a8ff7c5cd),
(0xb588aec92dc045e9a95abd7eda92983728b5a7dc0d637001ce7f09171283b16e, 0xe682f53b5e94fd84914b7bed05afc28a30ae6f53e12d948b3c0d88fdadc5d0e6),
(0xeb8f5080218ac5c3cd792042b59e80ede3857a75a81d67e07c2221ded3b7a677, 0xc5f272cc3734e0f406a5cf40626973ae1aa768391953f211eb52693d254a7fc3),
(0x87d119ee65a60dd9aac3e78422049cfb4123d262ac9e74734c9cc418fb7ce4f0, 0x005185ac7bcaee8ff1334eebcdf2c39e83b8b6651ef9d8f548a029c6464242da),
(0xcfd0438b0186d0f5c64b5f38a190baf735b67512a439f486fb79d50190294683, 0x985edeea243e9c6bd9c57cb5c73722027492156fe10bd2e5067edd148603daf6),
(0x52abfb675fa8b12f01b0cf0d8e85f4024769666264c7252f69562590839ce4f8, 0x8483ab432d4851d74f432c0a8e3863b9783cff583d4c390a9865d7f7d1aed67f),
(0x052926dfcf12eebd3008459d03c91dc173532f1dce3c5d0a0874ea4c67331787, 0x18b48fe61bd74ac64b34f2d0e7de89202c875625bcad84bdcb3c81dccc86dd87),
(0x695e09db8c4479cf4c305005b5737ca063f89d02aced20105600d65f58e26401, 0x32123a918bb23fd879715cc7488184b753e0eb006dbbc95aef9d815f3833c08d),
(0x97c35716e5aac70c45dcdd45a5ca01555962f09acc22c16bc79ec272ce1c12d3, 0x938694646470f8e3c0db18b62e4378e65caa7203c4d6a079a10c8182b8eaec3a),
(0x35197cbb8da9188afc60faf971cf08fe73372e15f857b93b6afd77e6bf4db7ed, 0x4e0efeb52db601dca539c77714f4aedec5ff121d77dbdeee7f16fb0c4cfc19af),
(0xafb2f842e081823746c294b59ae8afd2279e834f100f7d1a58a9551a98408d49, 0x5bf5ac43a3609b4ff058d6dc6ae09fec19a198646d12096b6bd3e06d95d15ae8),
(0xa37f611300882459b1dc633526253a8d287c9285b7862721f9bee74ad2c4c09b, 0x9ed3252a00303c6de01c9985c5b3edce1074d478db56b961d91fdaf51b1d07cd),
(0x4579a503cb12a345182b28f69a3fb98c4a80579b2ff592d1ab18b32d212098d8, 0x8c61c503df79dcf26083f15bc3ee1f999e1e09608bf6af9fb3175699cb0e32d5),
(0x545031f7883a2c8ebd56a405527190964aa1d40db22a1730242f3064530ce326, 0xecb024e8e762b4560f62072e5f471180bbc817e754e830ee7757ed7bdf5c9300),
(0xb127fb32bb3e193c099d232ed50dcad03b45c072e0d521ddde72daa9e20e97b4, 0x0b19842812a344b92e8a8d26f7964c6682cb365266ab3e282ba561970a159f1a),
(0x28cb3582d312cfcc75ab637d66c646f75157dc747a464e9b933c08202326b6cd, 0xa87042b8510ef9b30ecf918d916128e50f946f436f18fd5fad62c46c5882a23c),
(0x08a46cb327efbeb6850e3861c4845ab121414f129fb273874560826dc9116886, 0xab09eda19156f1f7194b7b17fce15268ba041c96024765cefd964eded1f05b3e),
(0xb73af91410ad56f7d490dc371a2584bb633de0f53f00cd0f6b8a601953c7ef16, 0x3dbf4e52753e5d333fd23cc1c839f27838eacb3d5980cba5bf1be426b27641a4),
(0xb38c1896427a01083f24a9172a64314cd9dc1759609711351b2db6f7d66ab745, 0xd3a71a74f80d6919b65629f980c7757acc49c2aa78dc67d3d6f76d0691a90d85),
(0x6f6ac108aa819a276dae862e276b3ebd8ed5a3ad9b0296e04f8b65a7f6a5ac1a, 0xe30485837aa2140ede381363788d6d9525a7ee339e3a3ed12518619b030d9f71),
(0x72f5809c7c282ab34dd8185133070d8553999a6f14fd753f2ed8deeced7adc5b, 0x112bf5fc8cfd71e184ca1967d05da765801f12b4c852768f60afa7f1e9576534),
(0x4c34883310f7dd6fb385ce25e2d6eef98556a59b5e79a084ec83425b37150085, 0x9c4c97e1be47b0735209ecf15f05cd8a58ece74c1b35a92d96a7028711d95add),
(0xf16e45132291b577ab360b42c1babcddac61e6230da85819e9c4c73d463204b2, 0x5556d7d3a2d4595528781d1516b59aad941ea3561b5c88ec94d09314555ea64b),
(0x3580d3f7896fb70ed48d40f81b31a72b514055742c2b43690e3e7dcbaca4ca22, 0xe38da3aff409e4598209830587aa0eb3b233995975af2e33501115ce648360ee),
(0x407e63d2c0cd6d3784c27734f7e517fb4bdf78470296dc7ca8714fab16199828, 0x2dbe5da704b29bccfe9adabb69157830987ac51f389c60012577f298710025f1)]

/-- block 8, /repo/src/precomputed_ecmult_gen.c:302-333 -/
def c11_6_08 : List (Nat × Nat) := [
(0xf61f644be2414c0766c6caf75d32683defafb133cb4d341d7eb565e89f6e4158, 0x2848548f15a6e7d72b2eefc11b76e31815ebb4b21e3bb938e0c2e9d45ad4f7d1),
(0x05b891f8ec902550429a5ea833fc29c0bfdddf6ba6f62c1987a14050a9689a9e, 0x779015391ef929856d3e3b354e4ba2db3bad967cdedf331ac0bff08ef25f2e99),
(0xd8c5a61762655ffac943ba353b595b4688012282af068e52d918bbec46bec87b, 0x9263db7f006f74aadf0dbdaa7e7ccd76cb3a498b44de2bd5f9b230292ebc6009),
(0x2e940645cd189edd2d6cc2f4f9b49e4d305cfe8a46f2a596fbb5520089fa5b21, 0x4c197028e89ef8a5b5b6cbb103733e90408877fe07425d581f4bd063ce286fb2),
(0x396c3bd09c6af07d123a8441c9f79ab3a783b8f3fdd69dbaba61c7ecf65e3098, 0x534c8657aeb8cdc6ea34b372068f1c707088179746b8e335477c8525cd17aa8b),
(0x0c34e6beb079f3e8d13557544246d2b7a82d551b740b4b59b9220bbb768796fe, 0x057806a7653ff7f9003d7cb6b3acf68eaed049c575988fa5f03b1ab51103aee8),
(0x5d2d6aa5252fc9b255d89773e920891e7021f2335f7d0ff8c6bde5ebb65c5149, 0x1fdbd2c56b8bd0952d16c3048d9c588b2a26379a017f748df13456951c5959c4),
(0xdec812f5745fcbedfc36c63576874bc596dde8ef68a8724c201b6af3be7c6e2c, 0x1715328af75f9661d58c667e5c5514d4c99dc8818cfbe702e0c3c8cf662e6906),
(0x3249906183487250f65684b99434489d3a83ec9361531dfe48086b2eb2bd18fa, 0x53217af12a25fc6f45555d9398fe46df4247d38d7b162e34945f8928bfe148ba),
(0xd3e9381d83f31116ee161490c9b5d1e57e086c6c015521602c913315af033ddb, 0x97ae863d34271b26a4d6577a32028c120f092a548a18ae1ba83de38403b8fb84),
(0x1347dca6d097faa57c6583c1c292c6b3ed87b31e9f7afe8fd0d151ee50ebdeb0, 0x0570a9bee4806ee3e30696c971b5d90565d09ee68b4fa8e28acc54c07fabb492),
(0x691f9995af2bccbbf556f624b28a1da067854c154f014e92a56a8cdd9a43c25c, 0x081babe0ae44984cbfdfa9584dc5c677881d1b0f63993075a3fc462de986866a),
(0xcbfb62c0b91cedb205a9d4b3ada43cac7839dd183317471124688ca505f162cb, 0x77c12161e8199410b040dd574d90c39c2f1b499e6b7c17c7fb21438daff4e674),
(0x5362751608de62d62c792f64f87996af3ed8ec88653532a8ad60942ecae4a339, 0xd8449a0cc6ae32ff45a1165297b3d3a057e67c6442d3bdb1ea2cbcbccf0655cc),
(0x02a816797505601c763e6f6df7ed5c0c14ee7fbfd75b87557bd57f3b0e2d3c7c, 0x99f26af210540397b8423da2c480994263734d99f0d642d896b5f216767b759e),
(0x54b2c03b7a7ea964220a255bbb68876799ff1b83f0934e4ffd03c2bb51490e22, 0xb3cc56a9ada9240aa373082826733090ace3d7e391200d082cbfacfcbcdb9c08),
(0xaac88c8b7c96e6296f023e5e8f26032409f4e645bd7017058f38e9f3a034eb57, 0xda03ca87b98ab6fbe48697567c2db04b7f9948d9ea65d93fd222d52f6d48c552),
(0xbfdd8394fb49f93d630f6b8d469da38b105529d670b9a1abe3196816d2a13978, 0x39a979194249f78ec336b00e475722e87ca734d43d1e97d4d2aed074abfacbe9),
(0x5b5dc3d866ba3647d2aab2ac3338abbe4d1ca08c6cc6fb264335f40d4dfb2331, 0x3432ba3146a0f15abeca45e41ded8729e6a0a49e70315745bfcb33884e1b9e64),
(0x77057b28a1d139a1091e05ada8d72f3ac7bbd1987647070ab6a213557bc0c73c, 0x46f323214519afd2f830cf7d567aacc947ae6b8f8c841adf988e39ade7b9757b),
(0xf6c8d1dae28a3d232a3889981b638b23f381618f18dc81ed67bfa6964cf1626f, 0x2ad8c92d433789418d298dc82cbf288e86d21467ac73c0e3383ef3e0a03142fe),
(0xb75b5cc377a55310a3b97067034f1929fc0db7323265e6da71405f37729d5a90, 0xbe0779404dc94ea33cff505ce1aef457bc120359521eae051de1963db1948053),
(0xa66d54d44b4d06eaf141307e27e1c22541274eef5c0b1743e6398b22fbaa4068, 0x51b6b8a848e1c27f107f82cdd0554643b9e16611fa93b789a2199b3e3bdce296),
(0x0056b2f9ab707dde3479d0eabaeb62a76cb9bf0366278eed559e027ea1ea6b3b, 0x27c47e9d646684dd2a54db0fc245fcdd721416f722ed568b736e3e1bf195b379),
(0xa9642a4983b19c3ff5f63ea29e76afbfa25dd0c0221b32b706e6737336e7f5db, 0x8ada37669207c6b6a6b6006b5240a4d6cdb8b807c0c16a5691289b7d62b3a051),
(0x018eef8df9e64c1c0548db40ad77d92b11f3ac4360c637925f7d598d7d8d5155, 0x0806db24eefc3a64c84da338937811e120c6d0e69cde79ee9957a4fec53d0e12),
(0xd11359fe61861a368b3809ccc727320e42905036774d0e8398453ac068d404b9, 0xd4182ce72500637c8e14b97734fcad09f061838d57c555fa420fbd509abf6b81),
(0x7ea072e8f60ff2739cad1d8fc560f208b54149a25748900b50830e3f738b2db2, 0xaf09e54bd44feb44b39956affdca689491c7c6fdf029e71be780f8f677a48a0f),
(0xf53406ab09fb1317b038dc28f0165abc115b37fa77d23bc9e51993a78a15ba00, 0xa293f4290f7fb2819cb60b530b2e6f07afb6537a039a18bea5ad4cfa55aea13a),
(0xb1674e5f9f194a1694fd12d104b64ac8bba69432241aefd909a1c49d23287635, 0x83cb00601f5c33be9436d94622c3b3ce68d20733ee1e23928c3d6c14a7cde085),
(0x22b72e0866b96344ee53b898ea725f7ab5832c127c0881ce862ea9455eafee85, 0xb886e8e9cba29b15be5c22d6ada99b021098be69d1c500fe6fd2ef8bf1ecae25),
(0x9b7151af0698a85d2246c88e8ffb14a0c762c2e264ab70b7e30e24349b8370b7, 0xfd9c3d8946ee9d90e7fb6d26796062eb4cb6c16076df4834eecd2748c8a7bb4b)]

/-- block 9, /repo/src/precomputed_ecmult_gen.c:334-365 -/
def c11_6_09 : List (Nat × Nat) := [
(0x5ba26c2d53b04b63d260c6cf392786d9041a1a7cb88331c1149cd3b99c207f5c, 0x9c7f6303bd72850e0d4da6183427e7f300eee07806f67cf985d483ef79c2eab7),
(0xf7d269446d29f81e39a44a8849f12184b9f42eef16c5d88f60c96a28cf0c3e48, 0xe7ec965ed0a966a745087e09a058421b852c8a7c3790a3ef7abc6ccce17c6084),
(0x98590b7d36bd2ef937ce788b22cab951d921724b87c3ad838263416fb5a67dc9, 0xb711c21e5af72a365cc1b2207ed09ebebe91855555e9239ae9b03d75c0261d5c),
(0x92e1cc4e5f57514e9ed135355f3e2cda0b0b22f88f56a972a657dba47263463d, 0x14d296bd452f2faa7d6f42e1550fe35b3c47eb2efe7636c62eef90b2e7822da8),
(0x33de9b1be153bdd6efaf9d1a30aa9b3dfaf26a324486b6aaecb1f958f11c4673, 0x7ef292234d3a565bc0f0e295deffa3c9a86a6bf1933a084f9334b79051eb0270),
(0xf9fad0b7e1dfd4b247cd2cbe0bd863e195b3be256cf7a7075d422b9bf5631ca6, 0xfd5262f9e6ca0ceee1c7e53183d9f3c007ac518bc024681b56c06a1d1826f5ef),
(0x455ec5eaf34c02c6961469ed27bc7883c07c9a18663e22ca83830a66569b2b36, 0x4dbf1b57a7de2fdd7c0380c2b38fa5d3697a59958ca0c0f76405244d00bff4c9),
(0x0940fa05d96fb400bac8fa39e696c53671a490d7c98b3851ef76ed35c62bac19, 0xb6de17b41a0459785755497f1c2a953f017554b420f2ccaa9fcfedf35afb9b46),
(0x160124024ded647872374af46daf9c2da90008419a7d467298b627c20420981b, 0x7c2607e0a4b86f7ad5df737160987d2135d2ce2dbc422ab9b643d08026f84323),
(0xcaf887e3339046ff42c629ff0c9548732c629ecf319c44be6701a9f7c81bf842, 0xd253a6883b3d51c5a914ffb746e7ab6870c2b1ab5b7e46c17a5119e84ab6c878),
(0x41a5b720595bfc6618406547d59ec09b4efba0ec5bbd31919e9256cef40a7afb, 0x87ee1be52233ba8c82dc06a306fd0a1b4ee8d7d3ce89cb561dc96c19dad79613),
(0x8bdcbe800fe8533a174045a83cf9d89aca438ef08f6393cf6e24d923edb02586, 0x8d21379fc053e8dcc628f0cb83a7782cb4e946e3ca88d46736232762fc6f8fdf),
(0x409a44826b6f0ff636178d65aedd64cd2d28b39f3e9cd93da0afe712b75fcd19, 0x25a3bec474216daed686825b0bee6aac487a6d07606e5aed7c3032dff4911eba),
(0xb7f414a84c0af92764ed5b52e96dad386995771c2cd90af11986bdc3cbeb61c0, 0x702b0a684e93f0a626b807d88049db6a3e65001ad75a476c0e4be23089574e8e),
(0x58b0cdd7bed4f327bcecd493d835c0f0e45f6fa43687d1d2f19de2855bcb5c11, 0x21b0a4782c1d14db9c67817d7b23db21a96e456e62a85c3f2a02c76d78dcad10),
(0xc75cbf00893447ba5b3f84629d6897ff64be841a9a6bb71454adb8498df03900, 0x15f68903ae20ae4b9b3fc7c4f81359360c09de1518317ddebcf661902db79f72),
(0xe6258fd4b63be23f38361a16cf3f81cff2d7343e515b2d0cea0bfe386d4400a9, 0xaedca2129b73e49b9757cd7da39a1e92f885b267a188521b32089ae76d351eb0),
(0x7c61b66dd76f759f0be927088b0751472ba10db2eee4f0a42eac1ad0d2dac3a6, 0x0c2b79de70372e1a6c9449af2612e34a8e101cc281ef378b97cd77aabff004af),
(0x29c71194bbe41f4eb2f58bf5799616c37b247283c993bce4630929d755f7c8c4, 0xc0fb083fd68f63d30599c2da9d0c1f03b6903545a47581ff3caecbf4359e0235),
(0x0f1cd9835bd3eb61f820749548da075bff4191ffd5b1521aa1f4413f2173a68e, 0xbeac810213b643a94658cdbc7171389439b72abcf86446972fe6310b4ff0233f),
(0x94f2137aae1708553af3dd458f8fc9d3c1bf07e435a6279825d5b93a37380144, 0xe952d6afb27f9b2b80ccbe8959fb8b155fe1b2dbf3ffbf14cf9c1fe9b8e8209d),
(0x0f4f0cd2e28cb8a19b469b18900339124a40a39e67ae1642a3a677b9fa1a9a3c, 0x75412f045c41770d73d7cd77bce0da9601e6fc690cfc6cb98f691d43dce1e548),
(0x015ba2fdb652ea98f2b326eee5e1629bec8f8e7a036078d7cb8a80c8c943e98a, 0xdb416844cf757376cfcd5a9a9a318b51184f8c89fcda3d97e735c12043d47c35),
(0x5754903cffa8cb6a3ffe3488e484c49869163b777c07183e8d2da03778b8da34, 0x0508312e6c2fd0080fac12bdafdf8e501940a81bd05efd385277a85cccf125da),
(0x3bc76f6b8abc155adbba76a19c0fef85373bb1bc9775f4311b3ccb129c7fb29c, 0x48036702aea467ecdaa8b80997c41c079e38c414f798bdc3a531b08bfb4ae303),
(0x2992c410306d3d40313ef69c0a2e338388f592d4a9c2bd36ebd9f51e0883aa33, 0xcdecc5df41cd193aecb26700baa42486a0506372d56de3e22fa091567b525519),
(0xbaa7d83d6d70a528e6392adbb2af797c72772b92ace96a2590d65c370b0ff1bc, 0x9943b5554e44b48028815d8be50189d36617e9b6c8f073938309e04c9978fad7),
(0x935488ea4c88c2e3cda6c0ab5b42d519e7fabe09fdd3e36a7c78c9bd730612fe, 0x705c8f8b228be0c5539eae131f4f4bdc2fecf6ce6cc567c4dc692af97c1d506d),
(0x8edeb68de63c35e205e36bc861445a638b0637abd14557bcf0b0648bdb43f86a, 0xd20bd0ec14ef4f35689541306577ef85baeeeed1c100413080687a5a94a9e9a3),
(0x9a39617a27c2ff2d9869acffb22fad1ea7d04271be15454743234f547f21924b, 0x917bf9f3fe0563a98daacf90dfdcd8ebe657f0233fb1571179bc5ce6e6f5dd56),
(0x41dcb02d21137ea3a179b469199f9ed79b83192368719a4e5c727ce00d42e95d, 0x04669d53821472668327cd6b31c21b80d3394bf7fa29a43c02ed7441d866f5e1),
(0xd4e3e3cc387e03646688a62d9390d585a69ff43e010608110431dea8d868355e, 0x3309af2c0b3d7ca655334f2ec53de6aadebf5d571618ecc29dc9830fec46144a)]

/-- block 10, /repo/src/precomputed_ecmult_gen.c:366-397 -/
def c11_6_10 : List (Nat × Nat) := [
(0x090edfd061871350b7f1f029c4114190b050065b2030a4009a8a7a6f4b92aae8, 0x872d4f075f60ae2ddcec2f1298a22da253d54de4fde85560690dde891628db56),
(0x27e3ce53b4258f97a499f408ecab24f060aabae1dafe992e5a34952d05e6e486, 0xd393fad29be684f47ecec306332ad96975b79d29b5863d985f959c4cb8ffb442),
(0x420f107827c75c95d5bc657ba46cbe2b415a7d42ad62cdf16c84ee8922215379, 0x8b257a28e0b15fccae0b555a0cdadf4abe93bbb3a208ee4577710a9ed58da7fa),
(0x28859abcb60a95e6b26c0996566bf79860c1a1942d3342f79655f28632f9d5df, 0x2a7704265eeca5d887840cab3923d868aa7b7b18f9d19941738ca00654ccba6b),
(0xc33c317b490e22662649a021e87f65963897633c90be208a193f1d5228614059, 0xaf850be0d18708bfd0e1f523c1a4fda89a6c156a55f825182bd99bb9b999a358),
(0x2333793db961d3d6740fc7256cf9d83381b5dc9285b6d83c5c343aa85baea83b, 0xaccc199aced3012fb6db99c47a36c30af88e7eeeb62c2ed41352b488ba0167bd),
(0x4834aa890caa9c25a99ee4dae4a64c1525a5d74f9ce573abff44b63fc3a578aa, 0xfb189539448a265beb87a268b71a18dbf12fe8ac0e502720c83ca156c1cc7a39),
(0x432cc05fc78b0d56e605391fe4708bdaa1ff3edc96a729ca0aad3cb0300c4d4d, 0x6675d8eeece8c078e1bad373247ce383d4c655194a6aed20a7ca5eca34a89c30),
(0x874fda6cb284ca2da216bbda2824938888da396807f615ab52c8e61f0b72a1fd, 0x2d7199e2b0b88f4518e6eeb1240b2ffda9bfcee46f754a4a03db7959dfe857e6),
(0x7fe21a0f3ef67d601de05f672b163285a5577948ee78274b19fc35cf2d2f6801, 0x62fb2ade5e2fffe12854203891a6ea73aabfa35b1f7fb00095190adcde6663f6),
(0xcd0540e9efe497b62beb22270a2da819a1ac3bed8eae24c26e2991c0a707dd69, 0x446c32187d0c92290d65dad21392e4a1664453864a5c1620bf768fad20a45c06),
(0xa533c29574e780245221857366c300016159d772f5bedcff28d7f7cc03051457, 0xb61a106ee0166d545e1b945af3e4e28531a34cb856a34dd0cd21184a9555eeee),
(0x5e144f44ed88845ac089331ceb58811e4c164e025d1758ee51a7a522c66deb30, 0xff95cab7597cf62fe1aa8df8a2cd3844d71ab4dd4eb02a9e6175077d261e2540),
(0x97487a4009562ee27620fc2bc5bd55ac6509d4878ab4125753884b977c5a84be, 0x0e52a2821430c5405f1143d062b69faa16592f02cb9b8602d52c9fc370769091),
(0x906f9ac1d3db4690d74771b7f1940679b0de7731a68d7d3589caae34c3760eea, 0x006f2be702275dd51e77a066b8d3c303f565cb97b8fb0dd314445d18876665a6),
(0x4c355a31d17617f35d4066c7a125b2bf1d6f77e627b585ba2d271a29a88c81b1, 0x6a686e69237b75a1a1ecb86fb715e85835aa0686e2ef10bb38b762ca5646e9db),
(0x15aac1a89b6b762957375d4eaad87c9de1fc261789e57d29731fe96c1380140c, 0x2968c0b22c3dd83f3286d37a639bcc143d89e75fcac1da567e07799a62af1008),
(0x4642f29b37b8711865767998d00b41b9fca6718dbfc557851c459efc2ea15037, 0xa1ded31c0be33cc1425df851998ddd111518ed13f84756c1c7cc46cf3f5e9a72),
(0x09554abe9e092bd2c4ff46a0abd0b7c7fb73d85f1c01fd9683146559306ea727, 0x89e2c07ddb1fe6b09872ce9166ce9ca81124986cc7e48e09f80aa3cd70987711),
(0x01c0977a0a773c562e36dd1558b95fffd35b4deaac464011ad7b79cd26227238, 0xe04ce4c5b0b165e987dfef97d32094ea3e86e6dc33a4c96fc947033634b0db68),
(0x71d4417160361c396295e5cfb1540ef21ca046b598645a230e8c9772ac21be4f, 0x07122d5b32a654a01476a47fd3317a250ed5153604a21253f4068dc814660c55),
(0xd906f59b4d56bc12f26d60e66fc31733e545070789025ea38a6193c8520ddbc7, 0xcd7f414bc6cc79aa4c65b943ff914234a9d85cf19853be592a71fe1ddbb20163),
(0x11b7dfb317dd5c236b8084d4f3cc157fc25c0e708248b472240963dd9a3fbca7, 0xdd2c8caa2a2d14d7fbec267c9fe87ab28b1ddd92dd100449f75ef1da097d4e5e),
(0x3ef8274afca8fbb31894d7a2d1ad59a904951b21328b1e84ecaa6df9cc1ef473, 0x2e4f0c04f5da671d04a2b641046ae74927bc35b598a541903883469b3e7874de),
(0xa861fc27f5e6300dec0fbf6c3315d05398f90b8402422992bdfba11b1c1c7e34, 0x075a74585d98bca4e35178970afef8488e524168a586d8da188341714b51846b),
(0x9537019f057d78692a35875847e885bd1594a4264412c59562eea9ba4ab34de8, 0x21bfd84ea66650dd79cc8c137217a35157b9c046938f20b7246362c86637d5f4),
(0x71c80c38b1889d4f507132a187af0c9179994b841b816c8a006d130adf1b500f, 0x8de1f76c100e75b501572da6d08c76b210cdc447cf903e0e2b00e0025dee0ce2),
(0x2fa9ce2f59865d1017880d74d31cd4465c28ff5650f29e6b0d74a810977ef9ec, 0x6c5a207355c0dd3ab994778a6bd02b8780ba8e1a899330eecd8781b76e15cddc),
(0x96ca6bb4bf74c74875703386ae02dc2913329d9ea5395892df1c6f574a84fa4a, 0xfcb510b6dcfe8da5690f8fc94dea8ac0e42af20935c33347b088cc7952e98b1d),
(0x36a066ae694f264525cba884956ebd46ae568acf1166496563cee00da32f2199, 0x5d1e975a856ebd1acb1fe254101e89abea089e8ab38bbd0f1100e914709fd965),
(0x4922879f800234c963f4b5720d2368434c4da5c8ff741982c3d1e341841d1309, 0x9b25947024b5f4cb97c68d18f7f8dfca1e57f7de632087652ce1577098f35494),
(0x0ee27e2bacf95f6ddbb5ebaebbf181bb43322a3d6db87e7814e57a3d41b581e0, 0x03d6a18adaf69ae488ecc9d87d6b1bf2c8d655443f4b45b4c5a0ac517b1dc3ca)]

/-- All blocks, /repo/src/precomputed_ecmult_gen.c:46-397 -/
def c11_6 : List (List (Nat × Nat)) := [
  c11_6_00, c11_6_01, c11_6_02, c11_6_03, c11_6_04, c11_6_05, c11_6_06, c11_6_07, c11_6_08, c11_6_09, c11_6_10]

end Secp.Model.PreGen
