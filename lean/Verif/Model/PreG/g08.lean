/-!
Generated from /repo/src/precomputed_ecmult.c:4138-4649: entries 4096 to 4607 of
`secp256k1_pre_g`, as pairs (x, y).
-/

namespace Secp.Model.PreG

/-- secp256k1_pre_g[4096..4159], /repo/src/precomputed_ecmult.c:4138-4201 -/
def g08_0 : List (Nat × Nat) := [
(0x21456873b58e368752c7580008d3bcae9efaf1f5c572784225e3d8548fd421cb, 0x0a2f2d10c85e8a0f4a136ad05df991ce7d3c5585a263d5cfda50a4f43db76cb0),
(0xc10de5c051ae2d7328ac06cacca840b4ed7ab20421c6122f1d68fe7f7893d38d, 0xee30e0860a89148402ad4041f9ab9c57cff1a315f0642d31b31c2914faac99e0),
(0xbe778032f12c1b779bba3d9ed290ca9030ac70500bdd77a27eac09beeea65c0b, 0x8657348ba1e27a631dd2a54be2d5270f4cca817a219c53784d4f73ba2c932e63),
(0xa05e7551f8f090c1bfc8ffcffbf7fd579d03316367d5ee64b85c4f6933d0ff6b, 0x8eba561af42d43c499e1fafd43b49698a8f3babcc9c94c4c4822cbeda741b309),
(0x6e4d47f6b17501b8f3b220d383cf5f110a395c0af0023988c4e7b8b0ef66ed23, 0xe01c433016e3e6a9535f1d40905e9b3f8be9f05cb53e6143e81091f54b76b57d),
(0xf626750eb7eacac17cf24afd43345019c6c32292c72503add4125d4067b7e66e, 0xd669f90367f407d45307578cee91fa01f030bb9cb66c711134b917571c993f4d),
(0x437acc60c555f7c4778595afdb4676a21fc8b3cf02c8538fcecbae12811511f1, 0x985fd2c07385fba84cf25a1f46cd2c3ede8dd3591c6d20ac584b4a8d8a65dd67),
(0x8d50555c6245e43ca619fb76ce45441edc585c7c4fb2f33e1c07965ed4e35f5c, 0xea828c37331ad0aa44d168cec328a9f1c7deaa3547ee4757c776fc46439ea5d2),
(0x87f5f6ae580ebfe71b2c19c8cfe770cecf8d422362718914eb853f1b7f4cbaec, 0xeb61df0912e06f58ed6d85da7240dd72aad00c3c6a3a9c111f378664cf359386),
(0xc1cfcaccb95e65774e2a7d123cb0071b3325c27c5d58beb60781a30dff6306d3, 0x0fa9ba55cd95e72112d98a198e3769ef8cebb355dde5b62ee6f3b8e852a3e81d),
(0xd68bf50c89f25969a765af90854bdb89d67acdf8f1e16bff648683388b88e311, 0xb62d186655835dcf8064e13daca1e89602157576a02e178c78d27c999cce81a9),
(0xb8d7c25b8c20438e702197cda3bfc05dc6577717c9b6a52715ef84a02c0df867, 0x316b527d4be0e62a2015f15a17a412fb72ebbffdb02e53ab6e5e9791b771b45c),
(0xd98b3403a299106c9c6fd52a8abd9ee5cea9ab0f017a15b47eafc809c34e356f, 0xbebcd24a9300c7399bb3af8c12fa813c078c6838dbfa00a74ab096694df9700c),
(0xdcd15a1a7cccd53edb08c2b2c6367126de55cc46a4eaf5d3335ccff21238bbdc, 0x7de57d26bf74764dbcc7e15b72ec272c58061f47cc0715ec48bcc03260e63a81),
(0x2f6a844ee758e3cc8f299e01ba5753a9d35e6c516a87a6838f5ce28afca17c62, 0x5c29172ff907c0ef95e787682625c8ff27e26eb2cd86df92b93712038b332e73),
(0xe63add7ae511eed693f6249817f89221c7a3a909253faef923f37a649e2a2f67, 0xc392df225ffa1438c3d10c6f813c39564f94367d6fa26c631d56204999a77e0a),
(0xf9955ec920fc68b6cfcd163f34bd033f4ed7dc8c30da7f1600e41adb908c9b7b, 0x4dfc49e4ab58397590bdfae856ce97af91c92f60a17df9fe9ee923b99fe2cf14),
(0xd974d713bce1db76c5ea1143b63ace025a2362aefe6b84b0ebb0c49f22341d7c, 0x991181fa3ae5f18838a940479ea9e4dce8ff936678583189bc340d2b40481577),
(0x4f0af691424d441c698dfa3ec3e56beae2c52fa3bfd9ca45763d780533a3037e, 0xcaac248681590630b0c6716089db929d26a4e15eb06aa9a52e19c92fa9f9817e),
(0xef6300a070060df23f9818c16ff4d315fb1c7d4dfef41e85c96760d13cea49e7, 0xa06223602def9738d87803e86405bc0088afa82e3966624610f5d935993334fd),
(0xfef309541cd2a90e1d473ae3699ea7ccef69fe7554f7d710033b1f23c9e96886, 0xc2479c4859423c875d76f6b15c671ed5c9489af7792663414ca68675cab64fec),
(0x457cdf17b1230409c3d35a88390f1bef859994df3ba21d2eba5f826b6dcb4fc6, 0x5aff71af708863df3074c236446ddd335695c0c1a45bc482e0787788a0e4ede3),
(0x0a66e86ffe0e9cfc686ab0fa11b641f4028499f3450d69a0dbce18956181ea39, 0xde0cb1e5ca7205567c6756ce0868df6b5174887a61afd354653e759db3e3ec64),
(0xddad5a09c37f0de667eab59bfa2cb47fb79bf6f5b8b0403bf689acfa627f1014, 0x8aed1b91c9e567b19806082c79ec433e1a15227969df00bd239fd8f3f8e8d385),
(0x45c5156bf1439eaf16a43b395c0a393fa674e17f76f96d539aa6c99b49042c42, 0xc9bcc2edc5b5c8c4b17d633c90d45b9e1583898e41bb9d901d1b509757f5f516),
(0xc83b3c9b564906dd60049c3e9f6ed0fab848366c3b93650b7923e9ab8172a8d7, 0x5709dd741326ab978853304ca02315f11f0bed5e0bffab6f467816b44c60a332),
(0x0a857354dd08dc83ce7b03247594e4c699692c959a4887e5344cd0a87970174e, 0xbecb7001ddafd72f1f845579ca8d56d72145c8a9be816924957ba3243c396691),
(0x8bba6b4788259a19578adb4b6f7f51f80d09eb70ea790d62abb2ed4584f94f33, 0xafa42da38526a48560919f12d30549e71d19608a81f4cf6e8e49cb002492b143),
(0xbb4d27eb412e73cad2697d6c46a143cae4420ec93044002547aefb71c99a53d0, 0x9ec07a19842a1e5c9cf9f76b55ad98d19485e683b6b6700bc905e1900bd9da19),
(0xaf6f68270d197688f00dd3f5ded1849c11fc2abdf90fc7f218b33776e5753277, 0xf9227693c9405a2b10e9b725aac7ed35eef4281b000ca04ebd75b14389323646),
(0x40453814445cc67be7a4b71a55e0b9932b8b3477f093df6bf27f55a28bad2e1b, 0xec71d7d54e823687d01d75586de9a1a37edc927fe221941f46051747a69baab4),
(0xf35a6c29bd596f0d93cabc3dc07b5f680300f6ab8ecde5d50da8299d112c7bcf, 0x73fe2c46e1b13112718526f97a39f1f03d47ced184a2e4cf1e32c1681c470121),
(0xecc7ce7ebbe5da1a596bf41c04d19b51b77f7019bc431abae5ecea57b095fa93, 0x1ab89d039e7c6ddc7751c9bc4eb84ed1b077cc8edc828ffa37426609e089c8aa),
(0x559820d60bb3e47ef68f48fe1259da060cd0b3801f6bedb7970c079b7e373bd9, 0x2373137aa4d88574151540cdab8cbdbc5831fb7c4b901c2708c9a593172a64e0),
(0x9c9b7e184e76bd16856addae9352590e310d653d809ec800415f3c64149be4a0, 0x182cd16755eedfc321d711997543b26bd08047d7c9363e2320bb9516da37a146),
(0x88e4e3d22cc3e6f619e62ffa0c7a4aff63b16733202e541052cedde69cda2733, 0xec6e32aa498a7a30e1c471365671d356bf174630d1b984ecd9453e24d275e067),
(0x7f2f80438e7d7fcf0593e337a91b06ad3ad1c461fcee7bd582df516dcb1c198f, 0x2cb484f75a4472b3230369f079f5e6548dfdce6098c4e561a131022413dc1d80),
(0xfe0c5945c5e67d74ed498120dae194cf33a3fe5b0ef0f1ac2c64c29259827d7c, 0x4ebff1a107d59c8c469fad0c79ef819a8a897ce4c0fa1121741c03f6cab0f659),
(0xac0662e01be37c28be457bc94af19e7234a9d3e08667c009ec58ee797e539642, 0xb3adc375bdc81a768385c9e72ecec61e9b2b21d255f65450c5956187837f3767),
(0x15e0f7bc0d74e77aaf933c136cdc5b1a1622de61251090a8f8509b05d7dd527e, 0x4d51a06301fb81f2fa1ef5345fa306c1a0c64f9466961cc8b574b06e646767ea),
(0xe4119d0f0b79bd8ce1687abd4ad63790814f997250fac9a4f1b52d7193ce282c, 0xcabde0978f9a566e32ab229e63bdfbd389f01378c7d27b0bf101cc3b36bf3fe6),
(0x27a5b03002005a215d89c0b34e4ee3235e94742c262a89b929e286c0ab8e3c24, 0x4548d58c3792f7fb18238cfc993fdb26f755379c0e0ed1b04df261328f987a02),
(0xa18ec59f7621c8a059bcad5a12d3f536142d5c944c7a54d8b92061320d993e08, 0xabd8204e867035ac8cde70ccf7daa29bd47b888e1faa9be9b20744e60ec5a43a),
(0x9bcc19a671b787cb9da72c918d7b2264b9497ab6313de85dc3efbeaa2f492219, 0x4bea790f67b8100b9ad9a30161e3bd9e583daec8b77f4628568ed55470894bbc),
(0x7ccb2731cc3eb3a336d36af7f44a0a64e23aa0b112ba0e6a11280c5e1ab36205, 0x08d605521813ede4dcfcbe46c75c5aef7ec40c6999cf301b28b0e8753031c6af),
(0x94107245fa13427a7d21f7c7cfe0c4e32943821fda0f77b423fde091ba596939, 0x89846c627868b1c74c546492dd4821d0cfe15fae36896af4547deea9295ccf84),
(0x959bf7d3989d34605f4b8f3ccd12ed86cd0a2a93a8d4e1faaeb5d6bf24f1115d, 0x7cc703f35417d7b2b7229626558be68c66a915fd7cc52829dc98c81ec0162b7f),
(0x08e92173ff2de4bdf468e2cbfbf6264c5fff8f232fb57e1d2a07ee753b45e7ac, 0x2655133c8833040e4ef4c98ce5c75818be781f42cc0b73147baa3ef799cc017d),
(0x4acbd2e698f349cc42998c5c053de7b603dc29b1c2b8a56948cd3489190f0255, 0x8837f8d4015b35514544878e1a71922aba4a079022c74b60325c6f49a411b978),
(0xf79cfd2eb63f6be3bf0f12d1fea3524b1188959a425f5e38fa569648df433fce, 0x9e412cf1698805e2a92114de5694a92517c31f49ddca7e0db2d83d8074d92b2b),
(0x41910c8178f7a61d7957c0655d7e2596a0e6d5e9a0a9cf2328f235695d818c76, 0x26b318c7e8a880ec94c59a6b0d6f1cad084031d0e62ded951e265ba8c3603367),
(0x5a8644669fd276acad8782d351bc27b49445835b75f70a802ef42a0b4885cfe3, 0xb2510d9860be4e66edb8c93503c8ff8d2e008c376dd271b01f77276bf3a5a48b),
(0x5e3974b81b87348ee3ae5c8302dc56d185004b1690445b741b8e262becfe0e01, 0x63f644bc397a1809a4d57ba8f18f0372cd4fd0831c3d34491ef2a65446275568),
(0x154e9c88589ff3426fe2eb5e0dd6e1dbe253498b02c0b3e052e84211caf9cc4e, 0x3a897093df7d31c3754f84c268b0594e85cfd4a7c2731fcee01cc3bc2bbc383e),
(0xb95aa134e48967f1bd3a7a48d89d550e3c3c3c6b3c73de48f2e6fba181c93faa, 0xb6f2d3b88d0821b06b1134d7ddc898fce84898fc4719f8aae3570daf168b03e8),
(0x316564c4ff00502cf159db79629845164d6d24c91f20ba736666980895e58b92, 0x6110a6d500039ddcd4185b72cc576b7da4577e803dd47a92d4bf346dec5905f5),
(0x222b179c29ff89eed6f2a0d2d38c624633237c5f7803d8c5e4315f936a9bd225, 0x8bddc3336eeb3ceea0c3ac01e7caf4f2f44a50f2587e3e317046c85ba57cb6f4),
(0x10347fab33fb4ee56cbf75ac6cb768ddf51f9b0c5498466a6679439a32048904, 0xa351f45e30f32cafe10d99f609e9e4bec3f4aa2205388984bc45bb78c0c5148e),
(0x7048c0f31e6000424544e9f6e26783d7baeb411ba2c29c7a5aed8953bf831629, 0x4683ad691d9f14a3f67131bc55d28c611b78b2aa329668fa8fc41736c95840f7),
(0xa65f7371b35de05a78b7117140ea9e027b77778513fdcc3b484ad9a04bcfa1a3, 0x41d1268a77b317445a270f73956bbcfa3f291770d248d1e3364b4aba72b961c6),
(0xdfa355528518d1daee31f04a2673d05311db4eeecdc81f15bce79c643267a315, 0x19ed047b4fa5243018863cd1d8ade0d7dad60ecf10b767ab52f5cef59eea9a8a),
(0x663ec2a080564f1f943a25b72f60d3a417b621303015e17c85782460c601a48d, 0xfce258525a4dbb524057f8fba4393116ebcffea55ae3459d3d8b19b6a0387232),
(0xcc714eaf26f9960ab2cb139bd2fa09287a309c9bea852537e10b63332912431a, 0x0c1c5c0c48c98ea9b57eb13cfa64146e67a95569b45b86437752b0379269d070),
(0xa6ceed6abb8f1ac61379952738a19b35ece44537e74e9185a4ce3939c14f8e77, 0xc0090ebed410f2e02e56b4b6adfd5495488c29302c5e7a613926880a88beedae)]

/-- secp256k1_pre_g[4160..4223], /repo/src/precomputed_ecmult.c:4202-4265 -/
def g08_1 : List (Nat × Nat) := [
(0xe0b0c34c8d4f77f1dd09ea348b0ec683cb5ca7776720546e27ffcf55a5e5bded, 0xed4adb20ab5da65c2d1d5d689ad63ebd9017090465f7ad031bf3d811f407d09f),
(0x2362ff0b9a2d0f7f0d779a838b26da9365730d32bc4411effc4fd182d9e486a6, 0xd3eb4ee442bd6157557e4e9adcc9c103892ca05f5c5af804f736eceed8a6fc3e),
(0x2f1636aba1516634a00a464baa30c5070af25e833f7f6fddccf0706ed5fb57a0, 0xa664c955c24a54eed56f1aaffc853c2f6a81c53f1ee36c4846b26452fcbcc054),
(0x243a8fff6230829c73368eedfb4d62f5bf478b4f1752400a91ac177f70c303ac, 0x29318b219f371dfe4048c4b12f5317ccb2e9c44fed72b537a2f56d0665229235),
(0xb17182a85f442a65839230ca5cc8f67e0835e54be0296c6de2b6229874ae804e, 0x11a4fbcb9f6f87759d131a81939e01257f7b4fcae36ea6444da3cc16a161e5aa),
(0x5c9abfd19cae1a47bebdd324d11cf758a122447106e83795e42ff5f5a8142a6f, 0x38a38db6f64d9d074a08a90928768bddadbdd85879ec847d28c94dd30a122e0d),
(0x44a8a4f2ec3dd02c226ae0afd73a12b9726e03c32a41099eb70cdce2767e390c, 0xb7e18dd1e6adcd881d1dbeade1c83ed01f1d7b2e50246539b6bc2811d63233b7),
(0x8e477766c4de01c25cc172187f3cb6f0dbc8eb54fa88891133131b7c219e6e13, 0xba8f447f10286c86d1330c822647a999b4b60e5604131986a6c051280a480d83),
(0xc5f862cedd2538798100eea292e860fa321d7709596a4dfd6faf634582fcd3ae, 0x81ab1260684fd3d81b47c5d4d5f0c31993ae7db4fed1a78161d9d9d450ff831e),
(0xa674db01836fe3288566d977753ebc2ed55f01165ebf034951caecd6ebf899db, 0x12ae8327737f7db356e26fb41ab306e02294136d71206f4378300b95060f580f),
(0xb0cf999ef11dea143e6b6254aedf30aaba1e8e9296c500f5481eee45a0e15adb, 0xe4970d00e02adc6abe5e24337e017dab17a61de1d977ee990096959191a5563a),
(0xb3615f0929f9b2a06a4c68ef0c844ae554959ffdf03f9266f918f16ab517380b, 0x31a7675b83677cc6ca87c52527fbba60d06ea317fefb17a47d7a42423595f1d4),
(0x7be97bdeb271f80796930353b82c3cd2c6cce373198572c7d289511d7cf262a1, 0x1af89a8bcfa4a399bce5bc21e26c97d05126f8c3211d8051626c4f2ec6f128b6),
(0x692e447ddf9c77f002db1d34101bc355519d40b13fff2cbcaafeb55529473d4d, 0xd21950ecfb7bb7234e4e48c198b93a108a85bb5d5228116eda6f5cfd08968fda),
(0x61b6fe3a21b0bbd2dfccad115123db4a98058bbd4f8a61b5e416b03db1414243, 0x75d3dabef3e2266d65d408efaf6b32da7591f08c007fe7deff20b9d67a3a8a8c),
(0x00fe0f9f0aa4955502afe97f8462869ee8a584ac3c3fba4b886208f9fe260ec2, 0xa9c0fd7bcfa239a0299afa47e2861197f382a3317607e129967bb22d03ae3077),
(0x07f7c9a0a240180dc645e77ec628bff8fff90d48c85d2fdbfaaf76d9b93e26a2, 0x1b12ec74f801fbe3ddeeb37bc940c60584b0ef1485e9d888f3f81c05607d1222),
(0x3e444ef3b77b49c275aa052477da59d5a68dc6ee6288e2ce0014051292e54c60, 0xe211ba3c6860a8989e1ee04cea9ddf5225ed88a2c6ecd9fe3c2fd500088367b7),
(0x4844747dd33f7e4d39aee79f138b5fd9223b4e51c86e4894c917a3d40746d824, 0x068cd1472560b5d16b9bf538b7f1e193d2f220f9ed9f742bd36a003c28e2357c),
(0xf0211c1c8f87fb96bd5912556a7998657382380d6b5b020d9095f4824e8f531d, 0x649112c59cf7a8cf7f9d920a6b6d1102d92441f11bde75619cda8eb4a26d7493),
(0x918118dc15520a31c715adcb3e02ca4a4d77c92e310ef0573f9c7a4bd5d2d54d, 0x37d2c580337de379925506ab00c6b7d94a61584f4cb2179d560d3a7b406873af),
(0x78734d5d833a5d245546e5bf9d3e5ce561f818c4a4c90fabc8ae4630a2c307f4, 0x4b150c27e054fdad7350631080eb5308b39c686123b851baaa2349f2c26b5981),
(0xee98807534a02de29fda41b1c821c41d3ddd5d859c5a4ce0d14ad74325943f13, 0xba7fda654389494b40a9fbbb4b72739b6f85effe245b895cb8c7e4238d6b7973),
(0x4a821b26bd1326a826be6fecb90229f7d7a37a2ac49e97a25bddabefe854e509, 0x8a64589237ea07bd929aee466fad63bb5612de36cb951200b9faaec8b11bfdd8),
(0x23658500fe8b5ddb93dd3b50a46f9914d04af9d22a786be59c0fa7be7c3eb2bf, 0x840e5ccaf9f3e8bffe51c1d0a84de234d7122ceffa1f0ed89f1701ffd17c40d3),
(0x71dccb977f8e77f5a03c8e8d0e4b2a3011d01e13549949ff42af13cfd7ecf208, 0xb70ad10a5f03ad94dc8d91dce7797eca6ace74cb4715bf6d2b628bd5f767f34f),
(0x6174a230e15b25847a25217b9d95f07ae183f2e474d0503e108994cd69d20e6b, 0x18cda952ccd68c2a5d78060c6849fb21e2379b48425003c06f148a34bf876efb),
(0x57cfc1ee38d905d2897dee9d105fd4b6909676182a2a5d3d070781cc9134bb97, 0xbf6b5fa64de9110e7d26e67f65cd2765fcedc1821627243da85bc9552bdcac33),
(0x26605be2e03705ea7f199cadd4d6e7119805453d6d4feea5ec2ae3f80cdba59c, 0xced5f7750b62bddf05935acd9786847ce7825da15807b1177459f51b72fe5774),
(0x6d89e2a69ff96c49a3110a5e7e17421c4ca2d07e6e807a3a98d799547fde2457, 0x4835767c8f96da1e078f1788d9764deae4e4a0cd238ff35d851ee7d09c915df3),
(0xe3607608338f4229d77c51facef2697ef6010c8d5138e0c62b724ad56ae79a74, 0xda6a0617a42d6ccb44155f277c56c58d042d6037d234f1eeffd720d92ae23373),
(0xc8cf20c0c12de1ba1ad4dd4446f765337cfefc3e213c426ae0cd25ee2e8bea9a, 0xef7285a5ea7393a0cd78ea31ef74f6053d3312baf17bf6a077b919b233227ed2),
(0x0f3d2870fe782b7e026a1a4f9c7c3ba930e0ee0ddf6593f19bf115091fa63477, 0xe470c266ae26fadcb27809859b9d60cafcbd9de35dfdfb679f4fd4504ed6f3fc),
(0x702a6778bdf2f3bc4ee954d81e7acda31df7127ea7920e59a70282539019c6c9, 0x2ce19ef910d773d0cc32a50383f9e968ca3e407cc1dfb652377d08dd1dca5b96),
(0xea85cddf4f79d7d2a5db06fff1c1e3b087b0242e1d7de71353d8f73e1bc83888, 0x3806d40dccd867c22d16605677d2d64fd7433dd4b1e83e25918605992e66fb83),
(0xd0631e8b30ef6467de6af60e61b991121949b324786ff1c2fe633249a832aec5, 0xdeaf31e3703df166b0f92ee4eff1cc02684911dd40054bed4b21d4da17f4c05c),
(0xb56cb88b617a7104c205e089b83320c05dce438a50411e5a00d342e98b258a3b, 0x757edc7252d76fbc24a5515e417625ae11db007224c02fe11e249064b5127800),
(0xe91ffec8bc3fa3bfb0a600b689db92ea7c3ad4110d025a4295570596f44702a8, 0x38fd56ef1f7b476b2e36aff773e190b861ec63700f6ae524d5dea16dcc4833c1),
(0x4cd9e6c48bf7b1ea9f855b14fc904ad45e3bb71a5745b449e1ab31653bdf53b1, 0xb5a075d5ca9060b77d3a00c36fbc640488df6846c712afdb01115798f382b4e9),
(0xabb07ce9c4b711abd01a12ba45f0040d0e3ff5a4e59140d7cf4ff28942b5cde0, 0x0a8a0e68350a88b2397a162ffc969d28ed937f604704dcf52faf755bd21f503b),
(0x95fac51ac9deb5d20b794423a71cd282b0604afabb3160ec557a8b74c578f18b, 0xda99fcf2abf21ccac6f4e89bde2a6e9ead199cb4b97f41224f68bb47b7caead8),
(0x2ecd3e62b79b4f690609f33f02042b56bad2a9a418e2852e9e8f0d411fba8ab9, 0xef96427595061068478e11ec942b6a2d99e5b557830ed0c2c429130541104046),
(0x437d446ad139d88ab5437f066fdf8acf7b5387986baf9551a414fd4f101a6440, 0x6c532bb338a34a0728d3273f0e9d9c70aa79c4846cb337edb41f60291e2caa13),
(0x63149b0194b4955c1b7e9d5124e7e7d04bb5d9027e86e63df3add9c48ab2a44c, 0xc867234bb4ed27d00dcdf544be060a1204c460c57a9312b146d2bb61fdfa6c1a),
(0x78e509ae99e6469c41c44dd6868ee4028fda1cf82c83be019fdf912c1e638bfa, 0xff3b584c5ffcb1af4980e2b3ace00f123be630becd91d0454e031120245e92be),
(0xcb1d5bf3f97b2bc4bb33babc72de78ea34cd0a0ce841cb557b3dbc9861e1544d, 0x0e619e8adac79a61eb46add096bbcbe131d33a6eb6c99220123dc9ac3f27df60),
(0x3247eaa39ed5b604d30381279661f35053ddad8b8e29d0fa5c27ed6f551cf374, 0x1d29a713d7dd351d87175b49afab518bf268ce817fa39ccbf08b3c58de1e5378),
(0xd493ab528d6c627eaa3dbd3c8d809ba98a9fe920307a0c662917f8cff68b3941, 0x30e4336de1621a2ffe7247ff157a37c1edc4f83be9fbd84c0af4f96b8997c7ad),
(0x8dfac8d8b65eec8aa65f96b5571830d92246945042fb2baaf76a4db2ea5258c6, 0xc204e9c072f643a41f53d8fadc66e3f0fdf0d000c27a54926323b2bfb376af16),
(0x331ca8671098b5301b1e6f12d231793cde67de5c640f0a1bfbfe485e5d2adff9, 0x0b52fb893a466c80ae61d534cb03fde5950785921da21e0aa8103d7cc2e3d8f3),
(0xf34a338bbb05db6d55beb49e526c9d49fd515792f407397d3b520fda3ffcf26d, 0x06a6921c4831df6d91e7cafe869c4274faada27d9d09175ee86a0b9edd70910a),
(0x56d97dfb284c74172e08fb733a2d0305ff7744952f229bedcd36e7ff6058e75f, 0x3775df48aeaafe14a8005434dfc195382d10ca90d05bcba8edddb2ce4a4ed7d1),
(0x70e668b0e854cd8dd3469cc8ffab17092d9341c44831196d72d9673b43dfbf7a, 0x60567ba35546cd93f2c356e3927dc89ac43fdf505e33ca9b52552587c905e311),
(0x675af6159fb5010056ebed3f4c9784d117538d58afc5ec75fa93ee0029d32390, 0xc501aa904f9dfa9d78107844983e17b434872e3aa94e37fb6677186cfa1abdc1),
(0x99f8e5cc86ac558781a672700305944288b19703551474a99d433d6f37672d90, 0x30148ff09fa33b4ff4410d579afcb705c1146663bdbd0fbc8434f4f8eacb09dd),
(0x8dcec2073d74b9bbbd47f52c394b263be71881af363bcd809adc345cb9ce9892, 0xd8bc1ef179ac54e268a685a4db35e3cb5b6774d8e8d6b738f4d65b6686782a5d),
(0xd83f7e8dadf27d5a0f8502d83ab81001a2219805d942cbfc76db2764c4235773, 0x48472e1b2609f81a8b12326b1b19b422763b0ed900d6fd6751751c2f08aa46c2),
(0xe6f8bcf5d9ea8209cb46ab60643555e0d0569f3adc62ac76edc09a43e02fea2a, 0x7974cbc95a9dde1f345600437b628eac3641498e612c19d99a79ae4ccbde2d82),
(0xd2f30716e4c1a665a37d06063987d0c5c19c072bf1cca8ae0cd0e4d86a9e8c1a, 0x0e26e6d99fbd198aab83d0aaea53228b539efd37ee7ee791365cabd38850eb29),
(0xd7a891eb551ae5acbaf366b865755a56edc7bbce7304a8062729655cf7f61cf8, 0x8a7d915c3a9a1500616205eb798915fd9b33d7b06671e9abcf02b5f4667173ab),
(0x5bb03484f02ef87afa07f852e3ec066467ffdc3839fa28db0de0da072fc31246, 0xe0515751c377266eff95f755f9c9373d226ccb663678e8ef0176af5f2fea3504),
(0x58716b3148a0cac10202476060d3734dab066ad8c0f8d8edcf5824ea83e111ce, 0x071ae487701d16a9c1d2ab681ec7c8b58367a4f0179dfc186778579c553cf608),
(0x4a344869db8d561d096944c894a3c1968d649fccbd430c7d4a66ef0cdc2ca550, 0x285433f1ff0e7dba5bae081c1b33c7626f30224edcacfe6646787818da0f810a),
(0x3ecc369be7789b92cf1448ee28c0448eebc5d277a8bdb5bca22d31515e246f7c, 0x0a5532e147848951cf11e0653f0627c46530436a5f3773f2b02c9beac1b60e78)]

/-- secp256k1_pre_g[4224..4287], /repo/src/precomputed_ecmult.c:4266-4329 -/
def g08_2 : List (Nat × Nat) := [
(0x28a5d79421db38dc8d7c8cf9d120a3c997eea170f0f6ed437222bf4e27f170be, 0x88cb09e5ea40b56639cce9ee1245384d2f02f9833b3116b731ae5576daed7cf9),
(0x4f54f9450b3afc07c38e1aae16dafcbbb7c5097e4895a789e70e09930cbc905f, 0x6ba6930324adb3b12fc1f8c78ea587295115adad52bb11387281b9b2997fa597),
(0xf490bc4a20f1ecbeac2dbbd056f2bb77d258a91409b0732af29aef2f7ec25f47, 0xaec6fa8974c124a60576475a60931a6b533d0da64e621fe9c298f03c0a894336),
(0x73b2f8d0e91e2516d2ebe348085b973d4a0c79191ac857b474f713d7348d343d, 0x9dd7a951efdaa060019ec71b0e41b294d047ab97d0cef4ce25a607f2f11bbc26),
(0xd911f5e9977489d2847aeb668c3cdc6affbc7b5f4a5aff621761ee01567c5647, 0x3ee4afd02ef6d3afa2b16d34b59444a402c70b3d4db17788ad3aac57184e02da),
(0x87b695f15c5d78528821858696bca8c19c5a6f3ef23786d10fe010fdd063b0c3, 0x0021b54a46ee82fa0bb5ffe0e3137892316235029a8e0505645a9ec929984895),
(0x39de5a904ba6989e05d16ddaa7ff67b215e08f3fb593d7a84b6babe2ca25c658, 0xeaf5e6c41e1e2fc80c1581f6211bc8cb34dcc08d58f570a6e67196267124c019),
(0x18c1f673ca19f805c426162f11e7eaeac675974b6b4cf0f59eb0328883bb0af1, 0xad1690ae6578309127f602fb93652b59d7507414e76d9b3a82fef16668b7aecc),
(0x8d70ebda893e8d03d15fbd6867528b7d308ddee7b262069815e7f3c7332d42a1, 0x254be26ed9e9009fe4aceb8ab97020a99196a9be60777fb3a9d1243c66df1707),
(0xc32fa0afab39b1c0c96852cf8e2382e393e5b59d2e83ed500d5307a0014ea330, 0x381e8afb85d47c3ddc5da037d6bd82aaff2324efab0e48d55da3fccabf0ee3da),
(0xc350235fe5ad084a1aaaee80d156b3020d34ec03360a7c0d3a883cb5019f4b27, 0xe5ea7c5d003184e9b62fc3a96c8bb9ae72535fc0497f1b5867bbae06672a1f79),
(0x8ef5e1f408d905dfdbbba4b2d4b22162db839ba5b28c755d46bc2f00e25e20d5, 0x6300d9e311971dd8a3e8819284f3a2280998627045b901a180f831b24153103b),
(0x9b3783f9c638a6fc166aa2a33a40d95f35a4e7a6c8cb5fb51e596b9af285279c, 0x041b2dd9c3abce77fcf798a9159f36c894b55ac67c917de875b18cd4e70dcaf0),
(0xc262215d720180ac669f0bb6885dceb12c94173093e561c2660a4a1ecdf0a244, 0x7fea7ed7f654741cc67b12b9f115aa40ce427cb38c6498f38bd291a9d73e9f2d),
(0xbb72f723f0a16f097716272bb905a111c290c22994f400dcc6a24814f41816f9, 0x52a83ee6053214a53ed2b13ba367324ee5606fc2e3dc05ae7ce0cf05ccd6c36a),
(0xd896a5a90a833d6651b1763270b03d36eb423236bf3b2b7b6b2ba97af9282a03, 0x0e8a823fecec375e280e0d5049625dc21f48e26977ab5eb1b467d3e8a0fccb37),
(0x198cb33d9a2b790a2d6fa35558733bc7f64cad76e3921dbd008d7a1f8db52b64, 0xc7e93702ad7df0a494fba3448a8157bceba10ee28f66f0007e7f76558e6b4a74),
(0x4354e47581d63d84df19bd08d98b231567a55550477e1c53cd425854e67cd81a, 0xa612c26274d79c46897348845b87ef5029d0f87b4a06e4a28ab36beeae6a6ce3),
(0xd956c71c1c8b110e19f96ffe5709f2b283a095ad977878fe287de35f283b2606, 0x7c029c979a807375bb589c12a20ce37c75178be25d5af713f4fd40700429c8d0),
(0x2c04b2991775ae36ed7d5b1bd9b0e65e0fb2bff8ab99dc972cd860fe19b1789d, 0x8b3f3b006d63c81a086f225abd8e658dc9c4c1d66787678b6fa4a692bc7f78e6),
(0xc7897c17debd6456a81f8d96c0ea580bdb5daffb5fc8e8e89c8612b307b229f7, 0xf7334550d20a1a21c422f73ed23fb1592fb3d9b70ca61d7b6e124fa4147ea63c),
(0x3b37b93eff554f0c7e7f36b1864ecb737b33a93f06ff31d69ea18aaba9487505, 0x50ccac12e071f4693f5e5339462a0cb866bde5395842ff44620f7accaff09a71),
(0x4584ea498a2785e0b12c86d52b839212f21b2e333b64bb0a9713674e66216547, 0x2851de5ab67354cd6610dd4c91aaf4ceb75c4c9726d524d769ae0ba7997ad79c),
(0xc0c971d9f5644eac851ae8a1d87b4f09a802ae0732d9b5a2d9589051f139963c, 0x83e07a5a02b7614c0c064b4f815b8a766df7eeb6449fdd505c43faafb0bd075f),
(0x370e8fd0858c6fbcf479deedf35fef5e80cd233890d4b2271867ea906cd15b5f, 0xef382477fd2dec6afce439ba9b341a2117d6ecf4c8c8d63fb57750946cedcaab),
(0xad402a3099c5d5ddc7ad9631b592d5a5862e8d3b5ed47dfac288193d69366625, 0xb8c0d4685d0eadfb9f7e4ce6011c61f57098da29aaed61f76a50961b0b45b7c5),
(0xec16de3f32ea8f58c1dc93dad1cabecb5ca33ce2e3fa3bfebf0ee989f3ebf5f9, 0xaeec3532c5391ce61e23bea45b7b58472c36cb8a6c5f1363e457c003b18824fd),
(0x5a51f9d5f5c48520dbd826b949f62f67c299a228259e09cbb3bd6fe2f4b0e60b, 0x3c498d86225a83a1f506eb62a2e530f9511c56a2eeed77a418ddec4f4404b9f5),
(0x9696865f64523eaa456ea65c40ca6e0b12c6e6a0211cf8dc20963f037980b684, 0x8f879d8b491f11a41f0025f7b35dc8e7c71e420d7d7d9001bf5da1119ad6c2c7),
(0x80c43c8f6325cc308065d4c86e3d7bec6ed85f74412f61274fc3ae49b1e185a5, 0x31dfbe69a48f1f39a0cca355f3d68f28cbf3e14f7d47cfc7d9e82e2519bdc292),
(0x54940550ec4a6ca7561946c065769b4dd4683f1d11dfda664aa2f8cb8f1ab2d7, 0xf41aef26064466faecc076edcd383d3f132b4fe75a17f16cc394b6ece4079378),
(0x0a9787f842b3549a9a3bea8e0418255599addeb6416118bd901afd9d0ad4c134, 0x4efc4f67065c7cf5ccc2336ae9eb14c5a13610677632ce8968033d574bc686b0),
(0xfa83e81d63b8549192e800e97a422ca835c03bb15579bc050bdb4367198a24da, 0x779940b2ad301a1e205c0504fe3ea104cef6a459e047984990fc94a6871954eb),
(0xae9a8d1ca8a560e48a373666544a7b9c84bf04759de1a63e4a20b55a2f25c132, 0xb9b0bd664c46edfbca2a0bb3a94ff043c00c14419f1df8862aaadc02e25017dc),
(0xa2f47145296dd22b3a6f518547ab09574d3487b608786f876758cbe35f4c0ae7, 0x2ec4171c15e7a82af6ace24a60176f7b6239561f3c369a9eefc80d523fd216e8),
(0x1bdcf82fa7dd441d91332a1135f50be84d275358f95df30025187f2f9828f219, 0x99f1298092a3ecf3dbeb290a67d72aae6acd9cfcc21918e89ff7ad4e548d3510),
(0xb73c91e1ae33767b011bd329361fdae636642d926c2792b6e19b6e3f947a5be7, 0xb650235711ffe955be5798d1467eafdc94df591129d2aaa9b747a2ec0befa9d7),
(0xb23b4ad2e983e556e941a35bb84846a440cd25b682487f37a3a30eef0eef15d1, 0x07010f1088749d1cf95e52dceae1a379b87762fb55593d32a65ef0fedcba2485),
(0xe3aad2b896fe34ef9d7757436e70a70cb3bb0c6b8436e616a23174ca985fd8f7, 0x5d6edc3889beb099dd191564eaa83c143ef0b74d7789590cd608370461c6676f),
(0x2f22a14af69e6257b909e3a950aab3eadc09c2810ec52e478c578f4968910244, 0x4ab723e243c71bafd2aead8a479a1a2efd2aba74800b5eff56ca46d0532e81d7),
(0x93806026554bae5e9b91f534f864b79c81e581f7bdf3b2efdd007e32dd6872f0, 0x800f8162a6836801d052871f6892ba33b2f60f8289a658eaa8af25fbf9d9c444),
(0x8895d121ad1f2be23c578faa1e33656ae9403ddba1f1aea61cc7bd03817a46d9, 0x4f7577d2420d0d0d7cc9ed68ba3645b8f9466f59570ddf16ba168de28cfec881),
(0x1838c15c3bcf1189546a9e3d69fb8a73de39c862f5faa4bf423e1dbd29046ccf, 0x494847891b67ea0e2e7f7eba4a596d66b3ed98423ffc54b0e9292a4ebd6f5487),
(0x111e8eab0d9cb3ec5eb63cd414ecf59e3a3f0d5670959226ec8f203d947204b0, 0x4ab9b3bfdc8535712c0db9e15fc2832e4560e420af96b043e587d1ded996e38a),
(0x080369d1ec5ab7c6492db1f9aa2fa368ec083d860075d6c1e7262e73a612e493, 0xcbb28c30db7f7d036b8dda937e0c4e186a09f1ee02407e557f6dc54b0a8c0553),
(0x903c9034dbd3f982413519790c9306a842b8889248cace15c3e3a8bdaafe1ffe, 0xd55adb43d014274071499c92e9b851d8e6ece26ff82ceaffba63a00314960f38),
(0xd6490ce474bd1e8082c99e87a0510a2ac2c2772b1921cda7dcdcd5e806ecaacc, 0x85a1fcc6de4b93b8b2314da631d7abdcf96b22e4b44a5545f274f941454e98f4),
(0x12f2342faa8b19a8bb0e080b2ed3487a14ddd1b483e0bfa49ea08484157d5306, 0xeee0b9e430a51a3a49da893e50360ba121660b4debd3ad8f8280541610f4b7fd),
(0x3bf1ef6657bdcbba0a9d9a2336c75429c4df4a861d71a7672d7e956adeff234f, 0xfa98467e83dd1ca22a85cd8f0f12be1f53d5a939352f4046a626a208601ef6b5),
(0xd0d0f8b79a04ac8eb6e010fa3608926f3b5bd886f84c361a8e1d9dd4b01ff717, 0x9bb32b9006d7de56c75bd202b93531280b6440fb42dae8e674ade0c8fc96386d),
(0x1950773880caa9c1f042f8b5d1594a12161635b5a83e467535ffe51afcf631fc, 0x9280d033f7a8efc3ff22f5016a6ddfd2f78159bf1f13be4cf758b150021126ba),
(0xf4f50c3ceb750a0495973b4753b96ec722cef833f4ee7459a51f884af9a251cd, 0x41f554fad3d521e965fb076866caeac7d9f5c6ebba7ba7b1d1d38c9dc06d85ce),
(0x8b669c9e2245252857e206922726f045e97b8cf21154fb74e199f49d11951b84, 0x550c47fac46060df4d893afa9f08713fcc8e719fa369e90bfa8846df7938c65b),
(0x941cb4b031edf346064dd5e792ca135a01d6cc6f5534132266644493aee5fe32, 0xcfa91a79029b3b47d73b8ae677cf64ebcacf94083cdc76f179e25631d574ff68),
(0x557e36b127307c5672232c6f6e92e4f6f5da9d221567b4648e79d97bbf589023, 0xab741e35109a0313e7adee7a2cec2c1079d18d726c27f1c65a808b988e99b523),
(0x0d8081ed9e7cf1cbe1ff07c0b8ef3f9cc7eac02f1cf1c6ff833f4b74b2a33269, 0xefa297d710fb71c843e358f3e04ac30853027f00eea43d039b87c3ca2b0fdd2e),
(0xb5e4fdf07a443146263f6539f6c8d9917486da78095b4ba7fb4c9f1478324d44, 0xa3ef979f93ec1a0d602950d2ddc400c84f018643229cfba8007cd9e3f2fe657b),
(0x1a573259a5100c21d75efcc441d5a8340a81d96bf4149731eed4ae67508bffcc, 0x8a993dcf49f94f6b0bc717669d37ebfc614a45f41d70a1caf4da88345711223d),
(0x33d9f9f6c9ba653bf9c52166c29e9c062cb7700dea2f40cd028520bf237b4558, 0xdc80f57cfc0e73abbdfc4a8ff7e8f4c03353e889bd54cf846361c1a9af5a0a79),
(0xe4ca84fe307c92374d39b2bbb017b5b9e478b26b95236b8d5bdfb2200f44419d, 0xc0cfc7d892271c957ef235f72f310c7c7d0ac29797d42ffcba37061c83775507),
(0x8f1f2d2dcccb07a2a8716b778c74f3fe22990d36b951e6dd92f5896f51bc23aa, 0x9eaa792b426d340031a862cab805d0daed9a4c73591c204fc5179b1722aef870),
(0x20f7f6da86eb5ae66a1b781843fd7fe4c458e3e7bfb590c876afb601257b2ee0, 0x6dfcd6c393e7e9dd32c7e82642f90d69ff1e1ffe18988de2bc1cb9badb246fbc),
(0x3a3df3658d65d7182dc057978bc48fe15c5eb6d86bb241e59e178ca39cf9a010, 0xffb897917435e8c54865bc7952fb7bd41578af516f611c5401f7cfd50651b293),
(0x007aa4357dbbc5b9a01b5f946b0240a136daa9421ae1a1c9b50f66c1c7f15e48, 0x4640c8d10ace8f696b08ba1f9a46d04cf75c591403339d5a181a7dfdbfc92c0f)]

/-- secp256k1_pre_g[4288..4351], /repo/src/precomputed_ecmult.c:4330-4393 -/
def g08_3 : List (Nat × Nat) := [
(0x198e48488176664d40fc14c7acca9eb9aa22599bb23709595856d78b5e932e94, 0xfb9dcfdfb27d062e08ea5246275d80e56fc7cb09e81bf066dfca888a8df1de6e),
(0x25da8876d321505175694915c25056e12c1329b77795b7ec1d4b66f93c911cc9, 0xb8cf4a83db78787a6d80a157c7c205f13664a71da6e78db5b52b012b930c4583),
(0x893d2e9c3b6fa8e2136994e614121842bb82e57789826ccbeef51fab0de32c0b, 0xd7cb9b4a1d49b34bf3f743f210c32a25cf8df45d8552a7f21268e270ee6fed67),
(0xdde2e8a2988fd7774959457a5c14384fc8248d1ba32c7ce1a727af277b217688, 0x01fe0272137e4c9b1c6df61841a240a7be3b5de17b93fa24ccc055f00e7972b1),
(0x52a73b515326198c81bd988a3033e1dbabd9ee279a91a434e7a76813453e27c1, 0x0c23130fc4b8990fee3084431cbeff2562963b1a4a5acb4ba1319b4ed77c745b),
(0x1b5afdc64598bfee4ef31904f0d0679617b0149dac19e7efa1d4f19bc5385490, 0x0fcc0c6247d96d4e430ae0e9c19dfa2a3719e66cce25a2cf0d7428d44c91e96e),
(0x76da558bd533e7614d97b7bc5a1a98d2af043ce101f2b323185377dac0e0abf0, 0xf8dfecd794b3d069ec22f01d8418bd9027c3dfc062beb597e352bb70271d3cee),
(0x17f01b77d2417d97e3c14f1018af67bec12c31a358521f6d203f101b227cdbc0, 0xfe16d66fa194c800e3c14bb3f1df0a2e3ec319a866c69d9b3b492d96327bba04),
(0x6010e0a12cacb7456e3a8f73d5219a87cc14dae654be7265ffbf70c80c4d5433, 0x7d5f0faa579afe502541a2de4d525bd4e7b950fe2b2dcdb8d67d3d9a7b11da54),
(0x91e938c83f319320baa876fa23773a7bd0fb81f9bf9d99bd13180560bfdfad6f, 0xb662f4017a4fa2ff6603864d77a6b930181372f25fd6a67e12a1df6bf75509ee),
(0xde2ef2ee633355c33d259357efca96a05b669f13b515e64ac0bc467f2abd665e, 0xd3d6254c5c30daf4648431907c2a8c1a51baeb2313605a58b88c9a78a6147c73),
(0x186151f0dc37e48b3178bdaf900e7bab49cf251f7a2a1b8a76da87502dee93a6, 0x02a240dcacbbfc19876c3680fdbd7ee5d1085b7996317e4fdb73d5a19f097f8b),
(0x6f19619face0c63c4dda566a09a1e78fa9568db11c46f3e9771756b27d8a5c1e, 0x4716efed07166e06722a744aaf89d14504ddd2f0f7652862cc38eb3a2beb1925),
(0xa0e450d6fb8a6da7e8f6e62f7a08c2c7277a832b4e5c6dd18cbed37c37db23a2, 0x775223c63f81b2be1bdf08319ed65ab8d3e11c5638830851d55a8893730979d0),
(0x6337ffcc64f5d358d90fad1b0646d8d746e2fb7a2a6cc3789b55ec5203824de5, 0x98286287578bfd974c161a0155f9a2ef707858e2a32c3fc7319416f85a6e5427),
(0x914a8565cc1bcf8019e1eef287c9467cbc42faaf726d43996485efe46f99e32f, 0x846c42d3b1dd8c2003a744f5560396e9b9a923802fccffbac6ee22c765bffde8),
(0xdd79a02e2460ef86cb4e9ba83ee7e231e99b33031d4a6d7d6dee8b1fb0050daf, 0xd6a75b67ba13f76b172ae0e7d63b20bedb3e54f9e54a96d2aebc326a131ea271),
(0xb2776e233e759f8e38c52394d50fe177c6842acbf238eb56c76385490174c1b2, 0xe18c89b2dbb6453f7b61051808bf090cf0410e5197885d52b50b2507ffe4dc81),
(0xe0716c4cc5e84f7c282adc42f294a36b56bb26a258cef4bcc36a7f531d5283e1, 0x1442ddf157491db51692c7ea5c92976b8a2488b66aa6f38f7a62946ba24fc5bf),
(0x2b10c9f1bfdd659d9d1e073bfaaa4b132a08b678f757ef39a137e53cb291df70, 0x7d22ac48f4e0aa718cf7882a57a4674694e0f456f2cc3aca30a3f8d42b240dab),
(0xfa76218126a4813ee97f2718c6eed96dda9f6912ac463af6a52f3afff80f07e4, 0x08c8a04bf38e25994cfd890527ace017e57e3f8dd378b2052e76795480dd5701),
(0x6b893eefbea81e307ece156ae79abc26d9f0ca5ab2dbde11bb0d8192f138e58e, 0x510a308b9fc471670f72bbc4f92eebb988a6512ab1679102f9016b0bd82c559d),
(0x6cd9b970332f421d1aba33e475f26a4c5c5fec374a549ac6d8c10fa6cbc40032, 0xb57dbee668bef69367188a5452e3b4d2cf1c8c258e36bc09432b4f4adcc24086),
(0xba4847ad40530fc5f77ea79eef7a1c0b821b52855ec4ab8ed238ce4648a09fa6, 0x627ba4378e0f204420e614315f3d110f2da9cbe62025bbdc5bc1cedec36030c9),
(0x928373294f59a142ba84f8977acf2e7d9df06a2774ad88d8986899003750c513, 0x4e938012b6e55d6b6f7871aec34511c8040912a11a32012f3bdd27b790f86c37),
(0x470c19f79aeb9a7a142ba01010ea49293de57e2568658d4542b5a626864600b9, 0x2e99dcc4b93d9a367544b842ef4a30852e24bc41e98ff2a2d9aede05da703225),
(0x2496996dc38e4bbc0851f9bdf9a21b425fc7ce2f2b06993e97604a0edb555c34, 0xb6e02a63f0e2e54e1cfb9d287607bae58a68ae6ea8300ee1c1170f0a9e567323),
(0x92366ed323ded4dff4029e42685c51fba8a916d1999c42c0a90feb444112a78c, 0x88dc8af5f6d1d14c5c09d2168af0e7523fad76a15b3110217ead491c12b63191),
(0xff9760e1ce161564022c49624962d89c37e66e64cd7f8e944125fd00c05974a8, 0x8ca4457ca5e52e230d70639c0a9a26f3123124518f0de07086d385b6777a63a8),
(0x50d1d5ad79f919b3d23c16b10428d9715deb186f2b92b64e7a1ea1fadfca4981, 0x0ddb07ded4ad81b3cfefe72633521be1c7418c5eaa75944020dfe92eb4653ce4),
(0x4934f75329844b2380183df0254d1c7d342d7d279fa5e80468dbee164e9c2c6e, 0xa4f8aba67a488a3340e8e943014f7eed5cc254875acbaedbafecfc2d5405609a),
(0xd7b991429cbdf7555cadf0307b2c4a91c0d25710a0553511eac6afb4c544ff81, 0x17bf03a683b1a0f2366b944caabe57d4eac4d86fbfabd00666693983e0241420),
(0x834b036c145d690558199bc1e7a7bfc24831417b530b0b978cc1fc16af00b966, 0x4a45a9eb299f24a01c5207512cbee44cbfb75d0d14a7eb08b1668b58ae58c47d),
(0xd7a8c30bfd7b8aaa78dd23bb86ef26245a3638576ed69739025ea9d9194bfb3a, 0x7b5f9ce6380abb916e04138813baaf24229ece273541f4ca2883ad779e501fa6),
(0xea4c7ed27ced8b134a2ccb2d3828d29ff80c4825e56075973faace04d2fb7763, 0xa8454c9cbe19ec448a3234ea097b8fbbb256a14811ba0edebecd864142684d14),
(0x0a2cb70bf80d9f6d696ceaf8fe8052bde59215a999d4b92cce806a19071d555c, 0x997bd94ce5cb12ff886c1cac0bd21c3ce2f144f03af644a2c2aaba2c825f75b5),
(0x089a91f50c7c8700175ab0178c4104f4a927af060f26964536cb78d019f8b8f2, 0x6a2f8ebfe1258b4e31bf9a5c31c51a3f1cb58aea06e185823e87920c3df8e7e9),
(0x27d7191a71ecb0eb71b43dfd5840079c0bd368c05ce62fdf2967dcca78f5a6d6, 0x11120002d0d0fa9c8db515064e1fcc2d92d8fa9c8b454294bfd01c640889d5e6),
(0xcefb996ad36deffdc3c7ddbb11a5013b70baa98c1057adfb0185b4c962f3384a, 0xc93cab467523b0d2baef4425c9ff048ec586d4c869c69cff3ab9d72ee3d80f83),
(0x5a8ff76584746f424e06b55777986825e91312c44f79003dc1b381cd4fe5ce8f, 0x3946177c3c7414587bdb950685ad0c73b422a8b25cc3ad3acd486e7699a42f08),
(0xb179dac7d2f400bcbb039f3291e813e60f9a733180a1a5d0db51aafbaf582fb6, 0x89a70304d70cbb61ffb3a4991815cb17458404fee43f09bfd630d4805978b1dc),
(0x6e14a53fab32be844eb14242a3b6a86e0e178cd751dbb7a2b14cb763ab2fe6de, 0xa22ed4a6d98c59d8ca85e111cce0efcc60e20df96b06615d69aa3cfb206494b9),
(0x12ac42bfd8f919d8c79a81381aae69efb789a573f58332b579694dfd27e7ff20, 0x4ebc3b7e4b0136f519a8df5fbaa7ff5917f4f632f85ab1f2ce502feebb3a3a87),
(0x87bf22af5e9dc061eabb01c4eaa867c34656599eda744da7774fa8d9aad68630, 0xd34f530dfbea0d529d2d64d1323fa44ad80cbe01fa2806e5ff069e6bfc0ce729),
(0x33fe6bd7ebe2b197762514158bf866cfb6d3ad5e1f68519bedb513fe6076c96f, 0xc5970ccef44aa84ef95a56eb588b7a8ed9164f5f5a2eed831f70d3082320e9e1),
(0x5fc2f44cfc0f7ab99f03b67ad7b6ee99d73fa9cbd74eb5ba6d931d9e26ba51af, 0x8b1fbfe9de2014006c07da024bbcf53e13bb9f2bff3dd6d95135a6fd5842f0f0),
(0x38fb5cfbe4f348cc1fa7f9b2ea600daae8330aca53308f09b6a7d8b85ca8a88b, 0xac1bf91b7f53e824d845c0f69534291fcec2808f95acf58e4afba07cfc735be9),
(0x3ec2457ffc8485046f74912b5c58b2701be6eeb6f88da0b3c5cc445448750875, 0xb63209d2641c65bb7105af1061d7513e409f153e5d1b5073232eacc6f76dde22),
(0x032fe812e67ef62c687d248fe75ef39948fe8ae4a01ae10ded65264bfb5050fb, 0xd9c85369db22ddebbaf7682f53642962cfec2afd3a20de77588e747318044f6f),
(0x97d7c69b2aa0277d2b20e9c7bb1066a2be6f443fd0a428b6d78c5fc96ff71b57, 0xf84ba78170837aa1f75936cbfc50c444c40c9fa322d90088ac6889f7e7c0f861),
(0x3621a4af4d698e4b60e7f4976e0c10e9ca32834fff917aa06aff912b02ad80cd, 0x22cfd2480a17886aae5d0e1153621e9b46289acc0ecd8155a1bd6372120c4da7),
(0xae79a6e5848b1dc6cb64958e87b737c1858442b30063d4a2e9f045617d73f8c7, 0xc147238c59885f2ddc5dec63de421eb1c5a19438ed0600b34c77f4e0e7aa557a),
(0x36eec623700e51e7723a632a55370dddd6b1f9176ea39a2e54a2a1ac52598c35, 0x29698c0e56b4e2b55389dd9c3d8b509ae0b87f994872d8653fc7426907f5bb7c),
(0x50f70061804dbeabcf2ab4a9087ebde21f5496c90a4cd28a4dd9da7b310e876f, 0x77e27710edf831db6ba9e64c545f03a7eb39084208d9cfa33d0e1c8761371706),
(0xc2ad6b2d0e84bf607fe77b8fa9fe26ffbb5e19061494e4698da44a3325843844, 0x17b92ad9d3938fef7a17f543a169a7ad8ee65dce36eeedfb5e3c0c8ea1b24fc3),
(0x0a53504fe2286269427fd2fcfcb64827bdefdfd9feb89d5012651d2dc60ae99e, 0x6b9d73e7e046d11dce78b1148aea837f770d82676642dac8f3b3c035c10eab45),
(0x5410db6140a77b319f19c96934a8364a4881ab60ad76a6c934f317c11b658dec, 0xac45bb6e2e5fe23d57297370cd04ffdd00dd89a915a1e9ad15d7f9e76d8b3aeb),
(0x882cbd69fbd3e2625093385eab82fc9e7597c38e45fa5df7f98c94a93bf25467, 0x02083f00b25b28b7f92b040da4294dc08a3d97e3d951e724da0e692a5737a87a),
(0x3141e0d122b4c136f7793c739c48f308c5ec804319db116d64eb14f5aee83942, 0x9c2d06ccd765c6c3cee09b70247f8806227d017813becbb696c5a344b68b33b1),
(0x1b2f36865a63df4165caea4e305d8d661de6ccc1c2a28cf52373527e027cecfc, 0x1239d8c8d60fdcb9fcf3f5d4633050376d47fd974cd6bc6499e0e9512d2209a9),
(0x725168cd9fd59e4114918b776ea96fc96315b4f086672dac1eaf59a5e61ed25f, 0x946f03a984a6735de72acb38dfd21905fa2358a5e66e7b0a2f8836a18f5d73c3),
(0x4207faa5c9dc96229644df1ba099a84d654ec6d2aa69efcda4a31a3c61f2e1d4, 0x0ea72a92836d15975275c18a900c0e7dd0502610d97b6f791f6a28c21b3ddfd7),
(0x53900d38a4740830a6129a119dc90f6d30f32847708d48d420b77764ff5b9cc7, 0x66822ed6ed941eb220aefe944325daa7a619dfed5c76bf751fc253428178d3fa),
(0xd0204932a3fb8d339779851cd69f6adfbe1a995759fcfce1b8d4f0470e4e4dd2, 0x8ded18ffbbfc663a9c658ae9286f82e09ee9381b3291f5c9efabf0d50fae318f)]

/-- secp256k1_pre_g[4352..4415], /repo/src/precomputed_ecmult.c:4394-4457 -/
def g08_4 : List (Nat × Nat) := [
(0x3ed8ce152d34e62194b8b16d5560576641fb267314a08c91d916fa14f21abde5, 0x48490fe39769c60e3899637027b57df70230060c2505f41405a1c7f14ba16660),
(0xb7d576149b5e2ce5edef3c30b8cce79e6f122c70351d04fced2b67c7f5cb2aed, 0x7c8fc1c6bd42b25dd45e37c25cb06f0abd2f70514a50e6e12a67c0b5b199eda1),
(0x2489e06cc8f0bfed9d5ea722c07ca795e9ab40e545b036e0f0c11f2853c0d35c, 0xdff65f5c207660789737f1fd5af05ce83b8edf9137002b19f5e1599ae76c48bd),
(0x9b2140e5509817c4465e6689a3bdadcfb79c1803883d493d4e4e99cd55f30a29, 0x86374501705fabc662e8c869a22d2813f7106006ee09b6bdb582b69050186688),
(0x48d6fff7d5c37c3011c9e63bb3342f92776060a6dd179e3ae2c6bb69d2f88b3e, 0x0783353eadb6daec536d37dc076ae3ff8dce14d965d21d3b7a17515d7d3341aa),
(0x35d46a17b6951355a055e25342b4244d8ce65459c630f2fd4708687be6a49e7d, 0x13bc21d507cc295462927cf8bc31ef3b5407021a62c5253a5950e8ebb9c735d7),
(0x017ba43824168f06274b2f5ad080fda23c0dc34bf77e81c3c4413cd2f594575d, 0x0e8b34f91ef09f927b5d9e51662216a130ef8f8702e0febe3f5cce8b318fc77a),
(0x2a09e4bb4f6d6b40f59d029993eeea7c755eb00a5eba04773fc0c796aee68a07, 0xcbe72772e5d8b76115ed6f92f20028b7cd06aea674e10667899e78a3df403f0e),
(0xf3838250e9a03da6871395832bc6b35c2d427b604cb7d25b149b6816235b0e4c, 0x164b211a60562190d415bcc387d1a14766e45f14dfbeda44833ce45fb815598e),
(0xb307de8500c4c2e84e076d19647bd2058c1a3c96a0261481322e73f9f4a2e94f, 0x5af7f6f5ae7f65cb0b62f021608473e6b68d032b4835540af265049ae506b2d8),
(0xff92c7ba5f89d3d405273688907ab9bb794e5622f8f300fc804934d3b5820e00, 0x3b2e2d1c420fafaae53c9da4957e22b2bc76ccbd099f323d763fa1eff92ea71a),
(0x49630ee0a8ddf91dea678a3e1dcb623c688b7c3b9e39196cb578d30e196e63b0, 0x4c1aa073d137547511d81776e2e59404aa08db5f95b80e56c39613befc2bfcdb),
(0xd41ead31f2fac884e762ccac85825cbc6ab2f8dfa069b2f3fce3c6f3d5c95a33, 0xf15e3e23e19baea5677390cbacf9718086876f9650fac7409b6e62f8b6d40652),
(0x5e62e95d27ba07d0781ad68575a7a11ddf9f277648cb5cb0869ba5866ff02869, 0x0291717d1a1ff532e92f0311881fe2d106c8844a6f5ad7f30b1ced51e5088302),
(0xdbdd4f571f6d01cc8a1025ce3b92ce3d56d396d9635e456afd85623927b53bd5, 0xb929d5dd816bcdd778abd34bc15f2fb9deff3f9aaa44de0b9f7b46d8b8d70373),
(0x63a8349e1a89103709a74a60babb68a14c8cda6fc2cbc0e21a5aca7afff7a19f, 0x38858c429cfb1e495fc90633ce07abf5b7c4a4fa22b955efe2c137df143ec70b),
(0x1805ec702cbb1e4a5da4841e9e24afcfb84a3e45dd6c39a6cdb6a661d5c6b1af, 0x193be01dd3f28479e352f164de99d21d1b3fe8c4b0af85878f21c8580cdadc27),
(0x2d6ff24dfcfeddcaab3b19ecb6a797937f5c5d3d373b9df06ec685496d075423, 0xb8bbca01551b2b3ef6ec3a37ff020f3b6b1f545669bd8b90f8a552163fb48fb6),
(0x3aa2109952cf04644bfe5de869cb2d4a19d3c4c4661d6782967dad8dcc353a24, 0x6825257469dd7940fbdd26a2483149f0f71a4b12fd25b06373765c52d45985af),
(0xd6422a71443b0e37cbc06f904ba1f62dc2351b7fe4e0b9095fc227a17f8f551c, 0xca92a69d2c9aa758046c2518f1ae03c0d7138170447b55d937108604f71b9feb),
(0x51e297bc46529246a36f8460f285d713b1e9ed672027eb3537806d5c7e756177, 0x5d56e44763bde166b456531d0094be0d7057081bedbbb89cbe8c473213eb0ad9),
(0x378a552fc061e796c9ddd10163851ea0663f09f13fdf852bddbafd7bbf6c258a, 0x6396c9f2a26b62c6f33b73fd988249588cbc7c10e679bd4eea0f4ab1dbf38f72),
(0xbd85fb001db4f2fe95c61f1e825e65c38076183237be8a86a20f6fc07a586daa, 0x52c21cd89bf874ab7d7e0f4c0d0095d76e8c737b0e2ba9d1a21fb795d968f61f),
(0xfe68e6ec3c8e681ce7230a920e8762f0af3e206ff3b0afe8be61ab342ca076b3, 0xf8683d06af0c88f693a0a6b31200cd25ea2c7e9d2b8048f8b983474bb1dc20fc),
(0x83e55d38bbe2daa9f8147b1e674be115d919445f70d2b3a6cb917a4a9ff284d1, 0x92d6c7f6dbbcdee58b11a244034cbe7c9f9fc0ddc93f6fa8b6354a065bf90ab7),
(0xfc9cbacaed0e1df50e9d81206bb55f2667e114e7303470308b333554d0735ad0, 0xd41fc02f2d4b3f74f4e9ec007a87954054d12fc93d53242c0a45bd38c75deb9e),
(0x7adf7a3d12268d0fc2568d5bee296d61fafcd739f081e5a107b39fe740132b05, 0x51aeb855a84f377b899392c8a7daa18b70ec2a947929c93c67ed821741adaa21),
(0xe9631ea37da9e68feb61f9c56eb91bb02fdb4d58d99874c52c4af40f9716aa0c, 0x51d5a6ea1a5fffae39c598f0158272ecbdb48c4dfaa93da389af20a7d2a1b8d3),
(0xe892f70d15639bddab70739e83ab9f04963e1dffe2bd81ebe075173e06bdd116, 0x2e78cfa830b68c5568f635f1b260d82355f38ed3f5f43c33b178be12dc006b4b),
(0x6f3ef2e1e8d4fd022533f4d7410778c6ccd9a7beaaeb3c8dd9f0169989598def, 0xc4388130c278f8f27a9947ed4948f8e4febe81bb88bf873d2d565b4e03481b86),
(0xcf24cd6484b07e1237640f0eda7e776e3d4db1926da8e92919b3638315de412e, 0xa353cd6fa796c46c49f34c7264d36df86d53f556a36f430f7f3f6ac93527ca7f),
(0x0a2e98e536d517d6528d63538bc2be934eeae1c1cd8dcec7a60080d3fed33749, 0x205e752c49a09b0c8804cba062b28ec46d9e8f379cbcacd4a7cc904947bfb296),
(0x0e5ef194498445cb718f7c776aecd0f1949a4a4973e32ce9a4915867dc27139c, 0xfc774f2e1e51f03e71e637a4158a00135aef5a18b15ef0b1e569633882bb513b),
(0x311b36a71a1d13b829c788136a989c0e1b7039d4d75110b6ba97f000749a8d06, 0x2f441c1506b80f4d51dce0d9bceca5662f3fdd9b965a0d8455f6d1543a661f7f),
(0x324420fba50762149be852e5ffb88d20d1120e1d2eb9c13232bdb13f403a5f6c, 0x0378f5d41dc1011d01fd338db6073df8903fb4c1e17b2122bdad5eaa0496965b),
(0x7cf4998f5095c102a0db72bf9935ca91eac814c54120eb0a262f246eede142d4, 0x73e6db13d6db9486fc8706987be096f77440dd3567064888e61dfeeae98c1fb3),
(0xd6fe26dfd501241bf8c5e74fe30714da7d690be091cfbe1468ed6bbe23598f7a, 0x102c490760fed9b7239c0443d01f2742fed0a0f0fd7ab9f69fb1c58dc5752fe7),
(0x805ee58e66ab8020c9c32afd4c7fe30e0960f4c3ae51e94eda9e52420af09c6f, 0x19154d8659fb183703d0adf6daedcfc83937af0bef9a7d15f990f60ac5457617),
(0x491717b1f22f93bad0a3cce4fac571608ad7a746ba73d3751713e6058bcd8450, 0x9c38b3e54c89d38a2307546ff46bbd68d4e4ad08cc45bcc1575fd120acdacaff),
(0xa8e23e3827c54d4fae2589ba0cf3c4e193f97e59b11506f202016fbea9fc2522, 0xffaa8b7422b50822dadd781fd31b5a31eb384c5002fa0bc2892526651c602f3e),
(0x9fee31c688b0f7f778a39786a84567e834da7ffb350cfdc895d65c4aafdf69c4, 0x2116e31c2a0d25f648a3ab471c897484d71dd9e5c678af4a292a6388d9e45e94),
(0x6256ced3f08f1812ca7ad618383f1542baa2bb06332d4c1f72d862c2318854e9, 0x9ae0bbd9d2fd51d29347aa6212b6c0cabe530b55bfd8cf186732be1ec66ced06),
(0xca1cf364a5e1f47ecd0ab0e752e785fd935b8c37964c56542cfb3249a136d669, 0x17412d752f35079530db27a17394c36245fa376ed20583feb9f7a7a12c3b67f3),
(0x19004a4b28e5352c07c74defcf129ca1cb5c7dc15099b37fdfdb0d5d1e694400, 0x68ed1edb9ac650b2965a40342812a69223b3cf6f24ab0a052e1b8ebaf7335020),
(0xc605e97f27199d8618fca17654e44c9c8dd20994aeae0466dbdbbf0effd1b3c0, 0x606955ce33ff7b6acc6de4bc4ef80b34bdf6ea170b29dada4ee54f06f61e9d22),
(0x3e89970f15e79b51fba90202a16da6ec3d3d5d5372218d72bbed062631affdfe, 0x5d9e27d0bdefa8cbb02ca682a062ccb061a8fc47b2cc72a39b687b455f83182e),
(0xc077c861575ab0d2944f8e658a9dbe549fc1172c6b7b7428476af472e625d5cc, 0xc01e7abf06a3abe2d2aa245776068afd9ba78fb4fa39e5318155597a90fededc),
(0x8567c87dc12f14795f351d1c807604c6636c670e11edb286092552ab382ddaa5, 0x71f0be2a12ebee638a63e848fc4d8116e2dcbf99ecdb15ae01f4ec6c84f359ff),
(0x9f1b77857421626f87978ee1000780d01e9d0b28df34c2ad15332b8ad94d8dfd, 0x6df504cf66144d9ded530e2a1436a4df634a84c69de752d842e076c91f129b8e),
(0xf45c2c6a2754fc31c5770e3d38b19e7247b0dd1e5ade8ed10f2f3219ea7accce, 0xee07ec188190ce54e736ffd2912075a1128d24d9b178a7ee72aeb6e49b593f4f),
(0x51a5441af3446fb4cc63ece6c9650a872fa5567c4918f5b4ec8668c4ddba6e0d, 0x413186bbadad49436abc46e9280a1571a97ed7f2a839cad2935675b9d167a54a),
(0xadee3e1ae9a2ab1bda34fd5fafd3b3e4f51255f35dbd94c68efb994dafdeeade, 0xf330f0cb973fd732eda39ebb82dcc5894c148165428adfa30b4ff8651ea83e24),
(0xa8946504eb084214d0153ac9c3437fe703ff569616e01672413a62ee27c97db5, 0x3dd63d46f74a56c72cd5d45b5bd6f2a8d913300fb4ce536ae504d4b1b2e311dd),
(0xe34ce586990e48c5febc2fd470770cf04c81c7823702cb5f00289be0f4a97205, 0xd1774a35cdd7cc54dc68827ef7c723d75c167982c314dc62bba17478611f5854),
(0x7a8a5d9cedbc4c761fdf295808289bead524edd4f7cad978deaeca8a0de47435, 0x559d473f3a9a7ee34ee0a1d04acdffc56766db3694fbf08a5ccef8cf031e25b6),
(0x848cd57c62c67249d84710a15c7abc2793fcba46497a6b0e0b23c2adf8acaac8, 0xa48424a95992213131a763ed30369b72b331d9f0cf46f8a2a15515ed6726f735),
(0x6afbce141f2d2c4ac52e7e055ba6ea607612a590d74a2a5c1344cd5bc49f2f03, 0x910d69d1cce10acabb1593be2d4d4d289745f97a29fb78a2a1eb6f0ca58e4b61),
(0x61f3727d718644a92e08ab04814c4446c5dfae82c26540cb44fbd310a5315a11, 0x056665e3ee6edadda154563b11fdc203fe4365d1ac36879fa30778c2badab836),
(0x582962dee00668e791741dda8e86ddb7b8ff7773ac1ea51d1aac139ea810f3d1, 0x6bd353b20e004d66f1e90cc07c68a0a5b532e70975a7bc587a6b1c6771022f6c),
(0x5c4426f9f6071fdea9304e6a4a2374a2e259122528b62d2005fc3016c471b636, 0xff6e8c71fccddb0b5cff9e2a10c606e7c571245e8f5bb5f777e0a7d9733560a1),
(0xee02633fc6b41f01c3c24c33719db7fda9e04b1f7070395f0e8898a0efbf6af3, 0xecdab00c83cb34651d48a6966a8e4f03ebecfba6f73a66ec4d62a66848f14798),
(0xfab36b80e5bba46563c9078bb727e0afc9bb0af02e394f9f02c90e0efe9fb816, 0x75173a7ff5599da00ab84519c7c25be41f10172ffea397628e7dab7a3ecbcfa0),
(0x068a89a262015a575f88221548c6d3a7b4ad1f92f5665980367107a90f4cc37a, 0x43ea7b7a79397deac8354436d53e7731c94773d15b067063b108c559c05bc46f),
(0xfa6e297287a0e97c354543784a76fb0b56106727136474d8a3edf8b4e03f95f4, 0x1e80751f9c127fff00ce28ae8ce5afe2eea1c566fb0a9f208030cc96e1197725)]

/-- secp256k1_pre_g[4416..4479], /repo/src/precomputed_ecmult.c:4458-4521 -/
def g08_5 : List (Nat × Nat) := [
(0x25474cb7805d22f87a64111634628321f086d1a040404c47ebee913c0e9e02a6, 0x2b3aac5c85ce967261757c610d6a72dd4ff81e0087f0b8a4999b927c7b069609),
(0x6f7051ef10fc1485a9c80ae08683397dc0af15b5f78fec70fe4c456ff33b6689, 0x625086ceab7a9173d9c370c4c336c63d2aa85ac7b83919937ffe4118f6a7b849),
(0xf47204622f579de0701f1e90558c74b4ab634664197c03eda85b0fe450df4951, 0xc66a490ff9b588c92d17b80f7f66e5fca65187b6d965e81bc16039f4477fdb54),
(0x3b7187647e722fa3de42fca9e3ba181ede9827285b8b006bd51a58e50ed898c8, 0xbf8720470f3cd3ea0d7a439b9d4f77767175f940d6cae8fc930aece7e1b92202),
(0x5255ba090df1e1994c99bf21709849a1cd7c4f58a283e3446b98872da416c40f, 0xa1099eeee3ad10d96bce7a58839fcaee1b43e0fb29ac03004e0eb15c63d1f604),
(0xf4b64a0816dfe224595d3a158173df8a7d941a4e968ac02cbf87d9d893954805, 0xe55852092d0cf600b8b2342a08371894f422e3b668ec40782379a60e944228ee),
(0x236d83adb789d7df5fde69cd86d45d5cf20c5867b7f2b398b9373960b22b29ab, 0x09758044d3e06295e33bebaabefc57765db45475b3aab9635fea8dd677a478cc),
(0x4207165965af2fdac9e873196dd0c723e7d61bf9b71e5e70667c98586371f3f2, 0xfddfce02588c1d4ab744301c6117e5048f9c26365ccafafc8a6e19a1ea7b1b37),
(0x7d0c2917aaa71cf2e79f104105e5e583ff01b24b65f1f409240f794bd346a452, 0x1e857dbcc86c1032e748d8e7c8f5839d5729522322e6bdb6187b00f1f489576e),
(0xf0609605d6e39141e5e4f0e06bb6d55b9ea2ced06a58d4e17c46a3df18257255, 0xe6d54c0b10826de6e95553ace4689fa4cb03b95965472e65a085988bd045374c),
(0x86e66299819b08070af30c89228447f371fad56b75f238b530bef3e0b1123204, 0xde635715b1997f4ec367bcf208f8def47a7a206903a555b5396dbe4d19b1e8ff),
(0x7710dc40f72bb934f5f9328a1284efbffad3518a70c2a0a455028bb3a8b87e9f, 0xd2ebdd397dd91ec37ffcd8d1a9b412c178f6d2285e09916276f9e8f4a6a28e02),
(0x3d377c8025607e9afd512e8e7c37a2f28d316701dff7f318eb24cc34348d935f, 0x20d2d95ae8503a11de19db365bb622136cd55735966c25cb2a56f07f19cb2664),
(0x812a4ad0d004003efb190ea9336659d97b7d6df029f29f97bc9c8d68f284a696, 0x6303a024b2d95d18f04fa94cdf3d074960ed45df584e16cad60a0843551f94e7),
(0x51cb80b19c0dc55a888421e2411baddf6c0eb167ed9bd04d294623ed1bb61dad, 0xd14f756bf905da5b6466bc6b266855011fc9089293633c74479afacbc34559f5),
(0x837afe7282af09de108711a7998dd45c36654f3da3cb392dc46bee0ab43cfc8d, 0x88b0ae505c30a2b5072c0f698e7ecfea87ea1253ec133fe7fb2aff9f6adc2e15),
(0xab967cb8463da438ad360a8b3e06666900231fbdcd590904fe827ecddff3cca7, 0xd82043efc614db538d06f6d99fae98e1ee6f506531b05822ed2141f325ebe544),
(0x5a0b617750d828abfbf4fbca576ff8ff5bd19330bd357eaaa5564e39c718eb49, 0xf6e8d743e528429c2cacc478368d7226823a45bf358d91289da334b85a1b4426),
(0x351b433483fae045ce964f04f63af62a6964e0b35c1444ca68d09edc9a43c9ea, 0xf571f4427b308ac483bfdb4e87987455a2a49f7773220511dfedc616020bc18a),
(0xfe64fb54727ce446c00dc3cd5de496e802d5a0e9b13a9a7b99a96a492d0d288d, 0x0452c4c9aee3567533ce8cbbe444590ef5756f1433865ba0efd00c4d26db7d8d),
(0x9403ea3c773544f44eae3cb8091457ac89b11f1b66c3c397aea8d816ccab1d49, 0x46ec1e05d13b40a5f21ce743b2ac975608ba98b28fe1443b3b0c9cc8f8a49deb),
(0xe81a55122af7093bb361ab58534df80f0dac734d7a863ad1b080d691c4396dde, 0xfb33ea540fbc0c05f9854f1c049cfabe90e259ce09aafae3353e8f51594d49f8),
(0xb7511df8fccf50c8192dc3ccbd79985b15eaa52889c4d01ae21767e396bec9ee, 0xc937db57ddcf0997aec742e9cd522c10d4a52b27b50104e7b59c441e3d0fad4a),
(0x5625f1224406dbff0a818d981e88b5d480039f5b415acc20ae69ae7a704dead4, 0xaed9f73d5265c976760d094ce9ced8dd722122cd0e0b1b34a8296fb1dccacfe7),
(0x01b89696dca5436927bcf0a5de32ff1ee79f6ea56f6ffeaabce6190ebc7e2c8a, 0x52bdf0c752cc3e5b1cb9b5dfadccaca70929046bbb67daf310ba793d9369b358),
(0x4ef2516d796d1c0d9baa84917c2db149e7b89f61a8f8fb95e14116bd473d730d, 0x9a0063bd6e25255a70479159d3089a75834e54a0a28c5c61ea3c33a87ab20969),
(0xb36c8db551fabcb0c3fa59e59faefed001a53b4d5470ce15937c889aa93faecc, 0x1be63f1e7f85bfe72e782cd822776567e3b587945f37e2d6b137da7d42c8cc10),
(0x7db8ebbb88c7c04bfed18b7e1830df41490028a22918098a9b34b8ebc110457b, 0x73fe3f91f0f8a43c490f4cbb0f8bab5b9a6569b9022a69e993ab910c520fa9c2),
(0x47bb0b5cc207ef1adb28a3897606661de5d4c7403b2858f3209b7dc0cac3021f, 0x150e2ce444f541ff7883cf3179befa4f5df9c3e19da098f21d73c37d1ca48b16),
(0x07803d64d7622ab870a8b92774e012c6ab97fad84bedfc7b0ac4ce6a74dad4e6, 0x2662e4c61a60a1ff5485bb34c1d41d293a09a69f7fe8a04995245e2a7770cbe0),
(0x61a64d4a9a8015494fa670f885988b677d317b9f9b75e3ebfc6d734efe3d3aa4, 0xff25af6516e639b2b6b0dd56c0e12610b1b00c3fd8c59cf13fbb1b746282d91d),
(0xf2de8cdcce609b80af8b34ca1c1166c43ae0ab9be742b51002ecdd5d02e94307, 0xd624709e79346b3e81b98871084bf252949c7f21861fe6f6666ef5e718ec5be8),
(0x8c740f9f386f5a0a0228ea5218a43461142f744f087511e967080dd0f3c65d2a, 0xa641bdc8ae1d4051a15b108327581bf022e92b26a5bbd18686fb4e5979f7cd06),
(0xb15a4b1917448b75df9274162795eb5f60cdb4f0e657afa9989e5133646ae240, 0xe09f731a226189fb429c76cf1ed9fe622c14847592f26b50c2c45344ddc73370),
(0x44a65d9026bbdbc989b0dbfbaa645860d7a156525286a9e8c67b5a3ce2dde08b, 0xf2f23e44bb6cd570f58ec2b7b90eb66c3077510981279b502fc907623f12b52b),
(0x60bc812392f1e7a24eafd5f8ca0d8fe9c5880133209f17d86b95cdb2c9df479a, 0x4d39ae61cf4368ef279231cab72be100cfee501ada7c873c3db1874282076a98),
(0xad5b90793639169761edf9bb6ed7ae2bf7e852d4bae22afd655a5ed5754f3618, 0xbdb404490723089bad8221c08a46824ecefe4899d5e073fd8606524ea81a35e3),
(0xc8166cf697edc9866f824df3082a515f68ef5d130dba7e0d43e85727c6e15911, 0x86804e478118c0923ab97ef1ab9dac342bc48c7e3fe24e6cfbaa74a22390f4d6),
(0x03e0a96a94dcdcb29f0df535970146d97f0fd71d7a4196edcd626903aafbff06, 0x5f6eda994651016b86d28c9b39efdb4ab8ad08a85c87b230eaf7ba706062a8ce),
(0xe72351dbdcab669af1df27670f5e5f05ca80608e29ac5f09b1ff76ad43178a5a, 0x552249f77a8b3462c9a268f0fee207135cc14ccb15914be92cd16d99b2520af1),
(0xa08e127871ec784c4f80099b5d83c5f091978e387b0b37e1f4622c1580fea335, 0x48e6aef5349f25d740ffc9c25de543c87e0553f054990aeffec51f0a09b3585a),
(0xffb6f3d792596141f7d15157d1a42bb9e9b51e2161a8e2975aa05688ba67617d, 0xaea9ba568aa7cd30b9940c7529cc1e7add60a5b68911498b09fff470bc4453df),
(0x9c644072318933ab4d1459b1d684c066d3df3371d7659a82fd396bdc00a9fc9e, 0xa115ce285a7d9beda2a962db5041cace9d3b2a3a12149b05ddbae7de30cf52c3),
(0x5cd3475d8a6fee1fa6e3800e911de939a75687624f0a6e6926ea616004ddec04, 0x200637021d1d525af250876cc4b495909ca8b39d746039798c8b4b39fa07c17f),
(0x28519616c035ec814e851ef5191e05455f0bbb5712fcacf32b36de771c351f88, 0x42ed56f55c51953a6a367398815963e264363681f9a0723e7b6227845cc939c1),
(0xa4e11f70b3554f05d06342098654900153d2ed501f09f78799b8330804dc894b, 0x331b9d594260e0fe381176a71873a66da7a3b9f62a930e0f696f68c86939755d),
(0xc5d7c22d7a8cc5537ed85a8546adde7eebddff6af7e8a6c996f50df4248a4ddc, 0xdd4749ecbc0295031106812acee59bb7acf4145145883a713256912fbe9ee03b),
(0xb56ad6a500c6fab0934257f29e266052cdba0bc78c8aded9f0e0849071770c7e, 0x6aaa84a899a4f8f63ca8dee16df7c0900264e644de1e58e049f99fb5fd5f4c34),
(0x16c4dbde37e8df54aff88810678f4707310f29b6e9e5fba0384220b84f0dec11, 0x4fbdd92d056a3f7656b4dcfd8be6b589eb02c6458a247c9d264fb65ec84a3a3b),
(0x15e63d71f02f6bd81899f95bd305187184b68d936a2ac10ad29c39c8d5ba9748, 0x20204657ae0e10786df04a710938055cae208105ef1beeff663d8cc1df478ed8),
(0x3c07006b8a1e1fe6fcbc3a6ffbb7a7800a0008ed513c9967853a8cd25827dcc9, 0x0b2fe428d4c8d97472066ca5ddf32e9918b5e79ae81fd6c5e00b8142566ce904),
(0xc7f2ddf3b3dcfa0491846f0f2341b1c781ce2cd6ec20acf9a304fa5a7dbe73ab, 0x595d0b02faae2b6cf6e84bfe1183ab9edcfd6c9f411d7125dafbf9d660ec5d01),
(0x4c239c01c05d9c113d25dad33d14ab28f94742d68c9c748f1773b739445bb643, 0xdab0d447de6a8c796809563be77c89e7956f6c9bed930d18f25696a2e436ebf4),
(0x9e1a100ac44c33ca543ae407f98fef3128bd17556a16e5a7c13907920187fac5, 0x540a4e2e9864a32e3eedd96abb08fe11b499a551497e0c830cdba1403b303821),
(0xc3b4d7e1bf3485e4d028e42481608ab39fe37649de75733d78f725f363255d18, 0x8f8b00c02210cd63c04f07a1e10b1a50f05ad863b8cbbbff9b73c84ec59b5ab6),
(0xdc2262338dadc96e5feebb65b290cecaf8f5bcf3e1794f9f6ade4eaab89f3372, 0x025bebe7cae8b7e8d755862fdbb929cb872e1c886b7d03cdb32303a3b8b5ab9d),
(0x184b11c0a52865a45f530101024cb353dfbc2d26bdb3af350d5f029e6bfe53c9, 0x0237a79db53bcadaf0a96804d80728324f59f03e1dc7a76dac5fcd013838b110),
(0x4ab97ea3943e81573cfaa8ca680252f60577ff2aa93178e1e1a3dcee242b460c, 0xb8a6293df316c9f15fb8850a087bce4727d2a38ad1f5f63a39d08c92e9d6d242),
(0x0a531936799791f3cfc8bc584a2967ea66328c6698ebad8b5e5fe8ad08cd025b, 0xc24d6ae08fac8028a3e0e079426b94ee2ca7c84508efffe158f6cb2b0c9046c3),
(0x37cc3686a6e75e4c8d7375a9f291ccaa0937c833f9e16d772591e74c787b1f7f, 0x557c1bb0a7c7ed5293e44cd375b04a477788181bb20dc1f1f6704c105a8e399c),
(0x94fab00a9418e31a9a229706112f93860d537bfff5f0c4f1b241c4754d7336ed, 0x14bced661c6eb1347684cf296a303e0ffa5abc38ad569011c09cbfb78316540d),
(0x14b851dcc6b4382fca64791c74a3faf5adbefe65b36de8f374e12e6fe3c20e1a, 0x06353d0bceff99b853557d0fa893df50598e0335249f96c904e7a46a3c02ce1f),
(0xd08e30275e05da0c229913408317ec6ce4362dfc45b946aa41e6b54192c7589a, 0x09553748222287872ae61975d09693738cb346dc15d07e2368800ab4deb5d463),
(0x365ab0ab6d51bff8d4bb479ea666e1109a8388632a5f8cbcb3241bcd5ba88ed8, 0x0bca2f90ef0d414590cf9add2a9d6793d678f98101ad851bb2f54b6e6bd093d3)]

/-- secp256k1_pre_g[4480..4543], /repo/src/precomputed_ecmult.c:4522-4585 -/
def g08_6 : List (Nat × Nat) := [
(0x879e8da9e1363822b113e70ab8072081f0e34a9949d698ed0a0f55b46704089c, 0xd5091dc9d33861e3daec55501f52378b65b25a7427a04483c862e0a2dc1038da),
(0x170065158ceda656b23941e6033ab3abebb527f952ea9876a834160024dc10e7, 0x39a7ce82b0afdbb633e745175fef5165cd44c8c9d81be0c456ee02516410b0f2),
(0x574a4f4f67e294f82055793de94bf7f8aa7106a7f7ef0f2c3bcbf2a7352f017e, 0xeac4aaa8f4b4cf2ded8c328a99b2462316ee6e088805f1ce783c4cc9eff7baf3),
(0x4ab8120532603ea29f88ba75f2f0c4ae330bb5e87f371806de04f87e69d5e6b2, 0x1f1967ffcd42f9fd1f892f43f8ea945cc0135544acb8010b8285403d5e621456),
(0x09a4e96882b11f0b5e43186780dd208aba25b3fd1350ed84f34f2b43f03c4378, 0x15653ab8375c04c3d74880061acf13d9c5d669f7bbf7049044dba189372f611b),
(0x267b8cc83ed6ef1247a93f070b4f11952fb1de836c3e3fa6782b5e8280cbd8b8, 0x19bc57521a41c7a2a9dc29b50cafc66d7e2016a3334b4be0e2811ee24ab8599c),
(0x69a8b170876bb1aa2faca2d0a4ed8c0244d2cfeea849293f5ffb4243256a1017, 0xf77d7a375315381d97ce835c296593b280c395dba5311a6cc7fc2c98d314b4fe),
(0x88aad5703a4365c2969465105a3a7fdb6e1f3e66618c3fbbee4c4e13f333b1ca, 0x10ded35ec15df656fabfc4dfa1140b09196d10afe1e99b3d7e1113eff7fb8670),
(0x50709e9b8620f7f77b8b6c691360062bcfbea4ef6448917b471c348555691440, 0x3946b3643cb1bd81818b828c77c771d3833a1d4ddc5097052e5db99d6cde2137),
(0x1ac1d5307cf465b98f1140eabbe7a939df8155a1bd65616855ae128ebd3959e1, 0xeb02a759082bfa301f9fe87c75b9dd8b0fe2d64d7ea898361aafe22d448b418a),
(0x126a8f88e7f59ac73226f2c88851773e873f1ea7a87342feda5d97953a1dc956, 0x1ce623ababb29b2bb9fcbde6a6a6f12bec68bfd7aa98733df2452860bf9349f5),
(0x592fe60892c0924320fb32dc39e7a42b1f5125ad1e7d67909978ac1005471427, 0xc4d6ed824d33f52cd975d34fb9df5698968a0c579b44bd1908a67fee9935d310),
(0xbabab912e526a92ed903a942ae8ad2a8930ea5c617cbf9137c0740606462f0bf, 0x76c7ced24318c1b6c7295d9b52bbd4b6707a4170d020e7dc1c7b5e92aee7a4c8),
(0x6554e9c9bdb1757b408164ad1cafdaff4642a3bbcf64e78542c324c75be1a903, 0x439d023ef6c63252311cf4944c46a8cca3d684a1d66556e5dc488d40e5ddd500),
(0x79ad3f8f4c429721281a9b17d9c05463f26bdfd9c856451a1050b3f7805304f2, 0x3be5cb37da8683334f9a4defaa8711a0adb6721fd4b2bd385ad7298e940dbb87),
(0xfe559c8be982e8017427d308e50e4d94d7094aa0635e553cc591181bc9593015, 0x09186fd9c9fbecaff474759722b34b7249fb72f9f02a67a7627c1562ae80485f),
(0xd2b4bcca38d1b07305248b4a7f43f2778e03f46c8d7f3a33ad2dd9f170ce0af0, 0xfe0bfaed846a3f8010fca999d0c3b0d0b54e2fd87a0bf751ba40f5609eb952e6),
(0xf6b9ecb9631c784c8b33a7f63fd0903dbaec116b3dfd24144865b2975c290faa, 0x95fa4ed7e67b828b4c6858504b0039288ad9e27cda175b4c81730fc45b063355),
(0x3e70eafc653ef528aa12ce4659c90ee432979f0e9df260fa0b9063f3d30de2ee, 0xe240ec33b224a5db3761796d2c1285d89cff64b07c36a184996cdca4839a0a65),
(0xdcc76f6146d05c0d67bdb161dc395c83663ebd486bbc6e62f3576335a8ee0c59, 0xe451ed85a9ae624d4617f11d67552eef0727981106767a290059708e3c21208d),
(0x3bb03660430c43f7e3b68acf00fe692b5ed6703cc808d7a7503b3536381180fe, 0xc84c669b2822cee3627d4ff77c01c9c257c57e80f35e4fddeab84a6fb96fa1ba),
(0x5e266477dd1060056a59fc2fdf36b540e051bd56c9120b9a41471c46b1c5c60f, 0xd6a7ff4a0ee4abbe00cee6171ad01373d79168995370031f66f622291057e6d9),
(0xc1c1315756ce83c793ca3a0e12dfc0f7270a0bf5381775228850863d37e5e537, 0x750dae349090f275054877785a126ea00f3c2c0be3cb9241326a863d3179af7e),
(0xc03ae6f7966922874cd10b76d06ac08b578511cdc502762acf14eac64f1a913a, 0xb3ba2ed06cd40752dc97e45010699cba90f38f65cc4623b544d7a57f250640e1),
(0x5938d2494edde81e6fd50332d81342eb6cd0d9380f1f02ae562d1305cc665bf7, 0xb585c1841e17e6fa9924361f8d06b172897824331d65b3c17f2a109c8be27b13),
(0xe3457146bf3f5667e0621ccb500854b7a08836b1e4315d4e6479b3afe5c2bcac, 0x3de9142a5c495249014d3619a92dc5e9f20e46035cbe2c8a95a8e683bb287fc3),
(0x04187afe4918d05b74a969cb14f54b7095387e68c043a5817dcd1d804ca917a3, 0x4e1c19ebb38f0a1536afd31dbda30d093c776545f2d8d823bc3eae6135585569),
(0x60cabe6effbc3735dcc19c151abfdf4bcf082768e62a1176f056c4beff04640c, 0x7b0fbd840ee9d7872896b9c719448412c68a1ef4e5c6cff251ea823f76d6c4df),
(0xfc6883a1231355da115af6294f06eef783447185edc19e62b53f3156e0f540a9, 0x73805d95d8b2e4f9d0fb36c79f09780f0c315c1b724c5de698d96861c521a6c3),
(0x90f37677e738ee2b3abc9d42540853499cd02836474624c39513950bc325b66b, 0x90884e24a4171613da7fc192f1bc913b31bda92538fc05016a55af21e08bb960),
(0x55e68c72f76925a8052d38e8172e63403966f1482a212131cfca24970ca40db3, 0xebd22c3a1388485ae4b48b4a8b69b98b755084f709f9018e036769d5d78cb7e7),
(0xc74f257ee1bd81f4fcf512a1f866b9a219586a3c62e7abc1112b5946d5b90e8e, 0xaebcdd145555164abfa127ab9f352034f31a19a1d36cda02f51a88ed9662f44a),
(0xbc63fc6ed1963da37fa064bef7a371a1fb471ded05bf084d946a6eacfdbb8d36, 0xa26a6ee7e178a31c4ca535e8e3d1dfc4dadee69e140a37cca306546c26a75a2c),
(0x9d11ff445e331ca6fa99f29a78f5e76944fbebc3e3b45a6c0d46ad1774a1f29d, 0x2f0070880110e9ec66e5f134b6d61ae870b14741e9b6259bff06753bfcbfbccb),
(0x5aa472050f01abec79b52b1a2625b773659166f81e300d9f46bbcdd8532599e2, 0xf56747f5c74310315b630fe9b162fa4926757780c6ba59e36e91c29ec82fd357),
(0x14dafde6c88187442059563d1e2cc095f4bf18e0f7e41b9e97a74089f678ce60, 0x6f6a348aa4f72e609a44b01cb688ea96cdc7c3f5e559ed8ed9a1c7bfcf1747b9),
(0xad8cb71f01a3739cafc8a4e10ea77bd9f5703d4a55812381c5a04847e85e9950, 0x238d1945cd5d6094dee8c6f941a19b4800d1eb885c986dc4b8f3908a508d46d1),
(0xe88df4e28b7cb050aa81792ead108c4a0d95e7356443dc11f77d70b05968de2d, 0x9541f907f29d79ef83c25f29fdfbf81949f21604adb5a5dfe939afe7511cdcd9),
(0xd6b6549e1ef4feccab56860fc7a8a549a354d9d563b9d4599bbfcd717631c879, 0xdf7a0e0418a86774ba87bbe6132028e2927985e3b1319c834e1a400c7b0ae231),
(0xd919b999faaa7cba99c79a2cfebbdc686d94e07b3edf83506e9a729bf0f834d0, 0x4b19faba9b6041f39d33a21d285fbf7d638f3a0763e2b15fdf10213149b94ed4),
(0xb89d011c57cfd4990fffd2d18734f60483df00a56efd43a835d5983d0573d902, 0x977f7c06ed8cb0d4980c3160b152a7c90294d4892c90fb881da40f39adfe2825),
(0x264873d1cf9f6f350d6bbff5a2405f40a5568a802fa35069ce422c61d9f2146f, 0x36b8e9c6e73044ddb9b9753ec682db1b550d83107e3ea3cee8ecf031500b3c31),
(0xd4c388e0950d24ad6cc1dfef0a3735bfbd9e729d99fafc8fe4fb52668816dde1, 0x3d583de627789a58fd4afbe1af3f931f5d12df617f5adfaf95830cb54b13743f),
(0x80a2e2fa40aed900a7a55f840d4965f02c5632b61317e801b83ec6590cc06e35, 0x9e61e86369c8a36772d6a4b4c2b7bd89405fad384f99514b485974d302342f47),
(0xe36eb1d772d5d4983cdbeed90b64fa041da7f1bd0e324f1ba734323e9f5331ea, 0x6c879df54a96d33e6a66895bf4d12fef46d5fe488d62f073238fdbbf0d94126d),
(0x7852402ca08ff96644a4c1a93f7186c143f0e1fa203b5991d3fda0091e0a4e76, 0xa9b15d953ce9b219a53da27ee1b03aee5431e26cf035fa1aa067f1d2d36d5402),
(0x5d33032ff7bf399614a08ee3a5b67ff4850f37b5eed88e4a675b020b090cc4ac, 0xff5c96f05ba73287f32799070ebd0fb79e0b4866c32f6fbc2541d8c5cbe12112),
(0x138d370198eb656917b3fc46c2a3a1c23f7c95d9d355d51ec85b60624675030d, 0x94314f226581dec403518cd761150f3151ccd59f3ecf79af482c4dde8a24e28e),
(0x3f6ddeb34756ed690de839460b48281bc2b60882d0cd721c5d76c5d90ff898c2, 0xbe8b884112fbfe099af67a968f4bdcdbdb4469d234d64d9699c6a575518c48d2),
(0x74676fc7cf3bce8fc0c4a77489b320c4736b9ed6171d0b42017a1433eeee384e, 0xfce3cf3f630452a81cf3fb720063c1b5b66df4fb864d4b397e66c69f2913c54b),
(0xe0d1a049cd49ee87d71ebd9a95eef0a0b1d7450f0617841b590eab0f3e883eca, 0x99e0011842e6a78ad4c3ec3ff7a61beaa1a5f8ec2f4e9066978e96d0cbaef51c),
(0x531b455cc6051fc5f0f3190e9523aa5d2d0485d43901600aaaf207dc7d2b1fdd, 0xb95f8c0ab0e63acc542df9484b112b2ee49f53fa7f3e1dd0307d91617c0f313d),
(0xb86ba09a2b05e91cc23db1079b34807a778749c0ed72543769ff6c17316e7db7, 0xa91c815ff8a3b2b7e5d4435720e3a51332cf405f7501ca3fb1aa1f59a01c10ab),
(0xb63b43c5af63f2ac3f6e004bc790404fa146ea9794b1bcfbc4d0544f02ca3f33, 0x31654108481b7dac0cbd48e80c20de9511406381ef38fe6f950b43214b145093),
(0x63a09087e237e0c9686f2a79af977ba726d7711829c8ed914f99dc4390c64d08, 0x07771ce4a5e7d43fe12b5e8bc819506d3b85f52cfdb0f9c292c22bad790d3b93),
(0x77640a424ebd84f7717340507ba400cb9e8462a6a91fd0a0b8f152a5f5f7868b, 0x516688ccf422e660015afa46b58893313cf2d622d6c829b5f1d11386bce41640),
(0x963ae02d62739bbfe75965f3d1b7786d0c3dc6fc5667aebb05544db3157f8a17, 0xb3a109d1b56570cf2a5e5056fd9feb052e8f53c4f2ced1a527c3311d87ba9dfb),
(0x81324144454cb30436f365d1c78ea5f809a73706acc49d5f125fa282c28ebad5, 0x77a71aa554c0da4531ed307cc7fdad32ab82a4b72f2a5154cc405a2afddd3cc3),
(0x0eadb105e80bf2d7cba9b4686f6b88ad34008c85a7ac4d53d3fff09ddcd566b4, 0x199ebce5872f9dd706c14821622fd3432b7b64373484fe84714b137efa782bee),
(0xa030450b52b387b335cfe8ec683fe625884ad73e2fc1c728c8d9629edd2024ed, 0x895545bea9009f2cdcb2044133f2fad7ac704ab49435fffeb92836f557a114fd),
(0x57e8022d816255a5f4d577dd867d65bc7d7fdfe9ed8f993ed9b30531fa36888b, 0x9b0b79293cef66bec21b6fca140e6fe79b9f2e8d48555338868b6c78d300233b),
(0x74c14e1ad52761b17206b61f0fdff526f7008f94b3707a5de5c2a60097b0dd29, 0x1877882289711679c5e41fb041b1a8069b12b709b526ca1c44839d5e3b51e72f),
(0x5a9ce7b66368077a73c0986938656705c017faa92d9cd40c69d8e57e63f8e229, 0xf716b144cebe2907928f4618821af2fc9de249c95ac61bd599a550d5e97363d0),
(0xf0fe4fd999c666873ab4c904b9b7c0d27f033a0c7e6c1b6b4488097bcdb49fdd, 0x1f4643f06f70065790aa51b5911b4866c286128ede489dc28e2d6b64972738e9)]

/-- secp256k1_pre_g[4544..4607], /repo/src/precomputed_ecmult.c:4586-4649 -/
def g08_7 : List (Nat × Nat) := [
(0xe86c729d19347238a9e97433355530c87b701aa7d710d26e6b15ebe74796857c, 0xd6260d35466dbe3f58d2aab21c8d76df182712479715bacb2a76bb955b75730d),
(0xb4e3a39c08fcb0dc5a23610bbbb564a6765c01351a8b666ed680291fc97df351, 0x3f1eef0a7a235130b5236a2ff8c9d2a5fe5f1cbe22326ba05455751382ec651d),
(0xa9c8482da54adc984db2d7ac8fac659b051c1237eaf1d5249bcfcf1c4ae601b5, 0x446ec925fc1489008ef10348ee167a63a10686f07a01772c10f7592a02a544a9),
(0x17adc7b2c36b1ff9ea40b39853246d71bb973bd8b469f7ddfce49aa5e77b8c06, 0xfc3111a38dfc52197f41ea7701682bd8618f9825bb2f842fc7de15bb224bf573),
(0x328e9a6ce7397c45617aefee130cb6a1dd26e727efcfc30c3d8f415c187d23b5, 0x6320e80fe4a575741fed0624c0f956f1d5b30914b5da88d5f63e17e564f8b927),
(0x22188680f765065c360c52d2851f30810b2d3eb54201dad060b536bba45a1a41, 0xb1107c8d430df2463b3e91fd904883b500cb877b00c10b6f397a0cf1c4b6eb35),
(0x620f57725919db4d53b8f89c5669fc6a5a3f3846c31faee11e93e53fb1d20bc7, 0x7d739bc74becbd292784be81294185fedb047d4cc16c764b678f9d006d27feb7),
(0x49b1228bb624c71b2c23e334b098e84ed3d8fca05630305749dd39bf5296666c, 0x3f316e5eca9c1aa1fd5d23a2613e756f8ac5e8198ac16650a9dff05a1c8d76d7),
(0x97ca98cbfedaedddb13b86cc4b6bd7d2140fde57dae7b847c51b118ee3d6b8c5, 0x01b95c9f1d6c808f397c3ec2a2a2b2206fdf546e8c70ac2a78086ad5ebe28142),
(0xa679e7e73df904aae80270b4d5d57dfe0f5ae8190f240369b773fa3c609a1ed0, 0x93201a4b17286928be5fdfef473565be879cad7324124c6d6e1614b54e6e5124),
(0xfe17af2f7088795801b9b1764d45d76aafac0afcff50ac8d9179e53ac5e3777f, 0xf59728d867c3ab636d387352a029b5d2e9f2d5317a5088949a0f6515f5c4d61f),
(0xf7601ed6fd64cf2257cc15e8e554dc8ae19e4f4dad3fb3eaa7e819f198b3946b, 0xa3292ed3ff088c22e9a62b854ec87dbf394cd681501184c0b841656b0def0fa3),
(0x3dec302fcad72c1154c6b588ad7f77b29368557e77a723ba6dcf935782d9d917, 0x6484365f537611ff49f157f86c4bbf0725094f7fd8db9a2cb318ab4e632cbfce),
(0xa847783e46ccf334d7b15f1ed3aa7dd8c5b3ef4a7ced2501c26d1dd94358adbd, 0x7c56f1f3323a500aa3496729ace84a916bc6dddf90435a098ca51f6f5fe5fa99),
(0xdac6ee373c655763b01c50120fe01518c3ac1b52543cfd7e9ca24d6f42e4bcfd, 0x6b861af20f2a82f0d4c458f22d264d8254f16f4687e31cce7199f061bdbc941f),
(0x27dc725390de6a8f6cd9918ae3b2f33a8ca4307dca4acf6bf9c5d0ad0f01b4dd, 0x2a0798f67e583426cca8ab26e6742692ee790f21cb3560af271b0a09eb9f8b31),
(0x1c6a5d3d109836735e27dd2eff04adfc7bae277a870eb4c6d6379467de2dea5b, 0x92658db08b6b85d85c20ad21f3ad33c38de023194bc54d0e4d758093b4e8695a),
(0xcab35e2cb731cb9a402f77ee044565fad6623951be9deb9788da09cdd5abb56e, 0x37bdbec3638594e2059018bb9145c4e7dfb55b13bda50c6ac33e975e6c5d96a6),
(0x097e4cfd9e1ec85ecc49cb90ada87b99bcaf81609b04417a70fa66e978bf54b6, 0x7423ded2bc56ddb811db577df1863fe7dc75899955989e4ad344ed4d5faa9ecf),
(0xf2a9b1936f63e9f18333cc3b745fb2ab7b3749a6c59e7d6c42e387b11e9d86fe, 0x3c6b6bf9001c2c4a859538c9db95a2c7abbf8c37b6e172b3cc2be8f0f18b5484),
(0x49024a2511bdedd96c84aeb0707b5b70f027afb58b4053e5234a9312771160c0, 0x22ab8282914e69ad8d573e7b841e9eec2fdfb939c76ff330fb2fa5b414a4523d),
(0x781c98864bf29760c44e1f989a5266e04d25c6c5f941e2b5cf92b95899ecaebb, 0x994a771deac92f9158ecbeae6227d2b04c09df72c5ee4439509f0b2f6e361509),
(0x8f7e703aae008b13590ccda8b70d2cfc4c98480e2a5032bddbd5edebaefb7f8b, 0x54226771863fa87fec1013039238da1c74f9f44626b50f07f35d6b59bb7ff81c),
(0xecb2e955ed7966953eb1ee21564125e6e860935b20fb99da91556cd4e5e57bbc, 0x751034699b958e18638f4e00654d6eaef56314834c890ebb7e2d93e69f4d8bf7),
(0x971cd7f29ce90bff4c46eef19df001f7afa6af09b553e8c7792f4ae4d3f82cf9, 0xd4180c197a579e31f27874df0f29cd1798e5740a363803496f7dd21159bda50c),
(0x7ad3b2863952489d42cc8394413545bd90fc63d98558323cfeb8e7e250ececf5, 0x5c566bdb5efc36832b22aac3c0b81f6fbf656c115514ac9d8a223071168f139d),
(0xc905b52cad0e0281a90eead33939c836ebd591b9026787a42983804de658aae8, 0xdf2a40caf95aa72a181f342498024f72f1b9e46a3816cf3fba5ac6995b996fc1),
(0xe2517e6c848564978ac945855c80bdf57c074b6efdb01ceae93c17dcae4b3ff3, 0x373ede932f36980756afd100e2f657946924769061a597da80d10fb6bbadd3a8),
(0x4d52a8e702f3cd95002e25c8175e82b2726a8d95b735c8d8a0f1805b6d94ad78, 0x248b71746128761108000136dc92b841de63ef18a7c9ff710a10a662af76ff17),
(0x58e5b42be614cca8e131cbea24b3debc9d9390af469df70035a01957003307ac, 0xbe4a397e7809c9eb2113246e7812c4034d42d8d0c353d8413001280fdb6bc220),
(0x3f177142a6e6eb65ca5e1609cc89df403e3c74c9e5b291cc49fb0d8feff86ecc, 0x2a445bb0b648487d3b962bfedc74e4dad1d98845cea5f4c8d2f0c4a82bc4c514),
(0x3389c7009b2b0c6da25a96104660a164172a4c21d0ddaadac6902bd1c9f04b38, 0x413344db77b8380680647da0d6086ea4d1b8394aa0047a9d4c21c667ade67a90),
(0xecf3f9334b2b656e24ea0b147528c490c3a566eac4c51885d3ee94f57370b218, 0x3c07fab9b6404f2477e4605c345d3a93adf9a06b649206a4b369712f07388af0),
(0xa090739b583108675e460a267e29f228effc954a137f358c12be2fb58011b2bf, 0xa3563d1b7f242a1f7ff5e505280c389813251c4ad9392d82d3b12a07e22271f3),
(0xa251cd29357e53005a8600e5bb9d56f4c8251f6b46b4d99d5dca7b2a31f8201f, 0x51764fe4596059a3b1eb06de56c6e21bd58e71948e1b6e6551e533335f9721b9),
(0x1f9aafb3eb39814d7173b85eb027ad41be210c3ee5c857d356288b3f3b05c5a6, 0xd34526cd16e7d3fb76ecdfc8c11b1bc638762bdab03c1c0794565cbcdf41febb),
(0xdbd4b7241fa4769bdb1614721179fdf26df4372cd3b0c4d51e37fce5317e7e42, 0x7e9bca3bbda0e2115f2e69cb8fcfc333fc1b8b8570123816802b22c49634219a),
(0x9ce40b757a257205fdf515457d6f96917e54a5dd32b762304ec50c2d3b89b06b, 0x9b128748851dbe81255f60f81e5e9de46b20a545afec40f038beb9a3f7402e88),
(0x12f6c70f46efbb732150f7755f597fd92a527a337039def605533cfb18df3406, 0x7d9f18a2004988eaa41a13642a1555c2bc9bfce0dd62ba87fa628b84850e92b5),
(0x3132e5309b169a3b7401651a351f7fce43471b197ded3d1dcb0b768c5620fc5d, 0x3e377f5492c99dab84f4e45a07cba38e9b589fa777dfb334849310ce53294287),
(0x871601258a8a69edd52986a925a54ed951f561cb8ee9e1ca6c58b826495b9977, 0xc54845968ebfc8c95f31768178379b882e9c2548b3c579ebf6da51865d51f36d),
(0x82674b33ef5003912dfd5f2c26722df819fd265b3b6e4cbe239bea50298653f6, 0xbb6d04572adf23db86b07019f2f59fa7ebb4fd2aac36ff166b22e92c03952245),
(0x2efc10112843293356af99baea2628dea518fe02c5b0eddb3688c8ea39d4b07f, 0xd54a087ebef0923b6244b21bf260eccfe7d590b5cf98be51856347daea48779a),
(0xf21641945de0542c0de90f1c4be955cd98f6bb14ff30ab4492691985882fad46, 0xa87f6725e89afd3d6f24db1339fafd455f578c9a104f6509c83d0694ef795dda),
(0x72d2c60c6f9bf0e55de8293288c298b14d851deb6ba7421ead22f3d42b47ee88, 0x29626eaa712e6d76d85b9f7a7a17461e132c9bb7a2943379c5eee30b1ffeb1d8),
(0x9bc6dedeebdbd843a5534fc4712124800ecfba4d96acfbf725e980bb8a509773, 0x24ef23cfe1580173797ffe5ebaff2fc43cbd3161e87e32bf463333db5ca904ef),
(0x20ea6c3f51565fc2bd5b8eb81ccd20fcf3aafee09ccc9de0733df6ed8caa9c81, 0x78328fb1ff260b0fcea69e1b77b35679d66635138f136c59127ec2c7d9668dd4),
(0xaaa2ee28a4724d91f37044a13b264ea69dd9123ab3b7b300999564d173057339, 0x250b61642ade568b8a56ae824488e740b9a65f7ea2b95f3b4b11b6a31b49fddd),
(0xa1e545354a8976a933c04366f0361775824383e52c3aff3a0357788b38014ab1, 0xa6a306b9b0a7d3c3d65300949efb038fa0a2cd1d79bd495a487a95f60ef2b7a7),
(0x0f2b0c7618fc3ca9f9ec5d652f39b6e0158598b3cb90b20a53fdaf97ac58f7d7, 0x1d63cacc7e8e46ab47ce7e4ae5a3336b8d3d9bf0f05bc428f6f769fc7ec6cd15),
(0x91843b8a90a435714d7500defff102a2fdb539142bab12bdd3f2357675a9d62e, 0x3cc6365c7dc3813ad51cb2a3d86491c2c4e38f2b10a33181374bb0c7ac90237e),
(0xf73b22268122a4e1a440f89114fd8d7219cad2c29798cd0e3631eeaf6b125a92, 0xbc14e84fed149aa8ac261f966b19216826f5a2b7cfb997c83f293101e758aae5),
(0xe87cfcb71f2b1c9e8506b0e5c56b14a6522013971bb4c53c0855f1de45644ff3, 0x7e3399afb4a9f70e63907a29c02e4d58b2e76517e4f2f2cfa3d2fdff808d5b08),
(0xb9657f0a6de5cebe47151293de1fc3fab2745a18bd5c4b8c62282f2684404f21, 0x89590e9fa787f41f79a0b8b7682bc3531ad60107771233d9ec303830e8e8dad4),
(0xb62d02b9de395843eb69e8bb4d9745907c8d3b26cd4b13a56b4a0e2744f449d5, 0x173cb5ee60d3999c7e795607bdadf8b9acf9282ad7a68ee56a204effce5fe751),
(0xb6998e3c31e9cca5251a9d891aeb53840fa86c9274a0f02708f2dc6734b5f8fe, 0x7658a71afe032a5bccb80a1b1516faf15a3e86386f74b2b9b6d17cea61c3ac5a),
(0x864d4c664db88b566471852beacce0b352b5540446444cbcafad4f17204a0170, 0x7001969afb35a3adfc553e00b6faeb21c8fb1af6135e86c7f7e91397a826346a),
(0x22a0ec9decf7a2d46f550ff15a8f1c8f6efeff9d3ff65d4797512980216c025e, 0x9d60fca897662f4e947c962b48522cdac7ba956c5a23c3b967f46073af0980cd),
(0xf1be1f63769f74f2947eb25a194171a39f9096afcd454ad335809b17d7e69fb4, 0xb78b3a16b734c528c1911d95895bf873fcab14400b62211c25aa247c161af243),
(0x7b196c231a7650a59db8faa739b7ffea488b3623a0bd7a2c48b51c97f5726c76, 0x56e846422c430157bfab88219112124d6bb968e93ddd6b777ee082289a7e1241),
(0x6ad31b055a1f1a65f4e554eb31e3e0488570032f8af2891f4436c6409420849a, 0xedeafdaed10bf1735de8ffe84187190979f6377b4cb566f63386534d89bde755),
(0xfb0f3da3a44c092185d90b801e7f5aad6c85d5d0b9cc4575ad95ab344fa6aa7f, 0x7857f22d6f9356b796020384919e26deb9abd7074dc6db0d768f630db3589b18),
(0xc39b4ddbedb892fb2394e8757c7815e2f487f81b45c607491c3143500c929d96, 0x530f0c0768e66ddee10f0d95bd66c07cba10f165dade7bb377f8b7adac4a673f),
(0xc50b3ae6d14b11b9a74dffeba5bfb9cb73652cdfa2bee6dd6cc3c912c312e537, 0x85ac82f8e3aad88f9af29cb7ba66f8a58c340d03a1f326542071ba6e99705377)]

/-- secp256k1_pre_g[4096..4607] in pieces of 64 entries -/
def g08 : List (List (Nat × Nat)) := [g08_0, g08_1, g08_2, g08_3, g08_4, g08_5, g08_6, g08_7]

end Secp.Model.PreG
