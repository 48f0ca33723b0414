/-!
Generated from /repo/src/precomputed_ecmult.c:548-1059: entries 512 to 1023 of
`secp256k1_pre_g`, as pairs (x, y).
-/

namespace Secp.Model.PreG

/-- secp256k1_pre_g[512..575], /repo/src/precomputed_ecmult.c:548-611 -/
def g01_0 : List (Nat × Nat) := [
(0x635cd7a05064d3bc066535a04dbf563a640d2464c7fe0ac48304214fe4985a86, 0x00e40265913e77f646735cfcaf9e2f30e8d5f047f3281a4ce0453e27e9e3ae1f),
(0x05da624f38edea2537f5b632695b481aeca54bb72169cadcc5b91e10989ee5f5, 0xd3ea6dbaa1080300fffaeeb243a5256e48c2882237b16505a220d771ca721779),
(0xaa4f64a2b19775ec92c1f6871fe4b6d5ce05278c2976c80efe19284fe87d4d5e, 0xf39f117e95fce0fb6976e9499583a66c224ea0288396518e293793dc3ed4f240),
(0x9b6518ea99ff1b4222a93f2662e05551d60969ecebe378c1477b5c36427e0641, 0x2e9f16558650fb3b43aea9dd30532ff9bebdf7c51d42165627b7487d8f93165a),
(0x6c9b9aa2b5972e0fa1e011381ddcbeb86547f47ffb1011594b193d00ae97b562, 0xaf09d91c8d4c71d2be523d0f9d205bdaa6e78eb267476d3b1624a0386275e27d),
(0xa2a1c8803cdc95c55e6365410c7112a0cf80aec6a37e5f71f5366612db467cbe, 0xc4cf570f3638f040ffe5410d50d4b175802e2e1a0c422fc273eb9b2d4e23fc09),
(0x063d3750c961ccd634a5af104889736613102bae20f2c8a9ca8437e5ab650427, 0x8741533274b39a7672de90dc698742a1f21125f071393fa06d6700458e339248),
(0x8d070e66e44282550a53e8fb5845d14cbcc97dbf19b6930e1f5160b252bdd04a, 0x4bc98c824f2b4f04c9884099f173cd2248cdef90ceef4bb2497da8dd99487ecd),
(0xf1fe56a72e5f008bb50143950cc1658fe3f3d4df7b361456175bfd2b4a91c8bd, 0xbe5ffebee57a7da5d01e302ad3688567a19caa5ffe8a57b2be2c866ef5f275f2),
(0x802c9adbd2eb969e9ba71a950675bcc7b412399d5aecd6357476a1fe73554b21, 0x42132026f547ce6966e6527d370f9c0ecc3344c9be1047efb7422e136772bc5e),
(0x95b1b6c09d6ced2200f0a5cdabc7a5949d24cda4f178a745c718204b1493db56, 0xbc14368153033d16ac8ce5e9a6cf240d27b2331d36cb23ddf69009d4b6adb01d),
(0x0eaed52901f94eae183b2aa4e17022f17b79a06ed76b169d2d6483a6a6ede35d, 0x53d5b27691c5899cddac1efa3ad6baf0bc6e377c99ac7f8f9cb27fb95dd559b3),
(0x77c44fe59f6f448c72eb485b6ef3f7f3906d690e367beabeac7b73599c27d770, 0xbcd750226c440f802ccf03604e3d6b38e6629c9ffacc49d383322eebfb1102fd),
(0xe863b2e2f00f0a46b6752002cd936a88011b62795411944efadae5fbe40a0306, 0xb5c79ba36da29f1705b9caff631e8eadc2ed937d66008358b36fe04467243a5f),
(0x226f5bef93df71d0b2feedda4ada30983883adb4f3dcedec2721e72eeef8f191, 0xa09204b52bcebc148a0a08fbe8458618f966078bd75ccfbcc13233ce741707c3),
(0xaa222fb08c1e7c539f3a82b39c6f08dec33beda4aff7c46e3a4e903683467184, 0x041105cf21cafd39821a7c3aa6dff931c1653d29906b5d4ac5dd64317c1c3765),
(0x1879c2cd26ef4ed3dc5220bb397b1501f94482cc1236da82239754f1e1fec96a, 0x912d5f3575eade1491fb160921d630424fc68951cb73d351464725b771f0d67d),
(0xbe39e4a4e7eed88bf4a4cfc5970d4b7e6df6211ebdc2bb767657ecb1ac9902e0, 0xd8b1e4f113fca7b76306d9a2b4cf5a4932ae54a45615c899f94cc4767e27cb4e),
(0x1ea72fce33378c3dd030283686c3f8a81c2912e47cf44631d3fbdc2f752d5786, 0xe20f4558fe1cdd14ccff261afe506b780cb6e2b0807fc7c9aed0b8883748906e),
(0x056e33dd67bff57de8c638e6f32bc3962d0ca011b74db2423ac662fada036806, 0x4039c0cc165e713009317d4e41de57bf50d78ecf3e14ee2efbb3b93fc393f461),
(0x51981691a5f1d8df1cafb95a738b9e3ed036ce54f10a74470c470cc2e80f37ad, 0x09fb904767cf2a990766e3c26e97f045d03fabdc471ef664d31aa662c5972261),
(0xef3a568577a597836b0be7f95f927996b90db9b9bcd57f3016ec597998869dbd, 0x51cfe457ff22749e949782c6ae1f4783fabe11364bb524d372ac3d8c1b7c5e07),
(0xefc652a18c3a85ba7ee9e0b16e3c643379a6688205304a22523c060daf196415, 0x8a656c14cef91af301db2498f59870838fcee71c98c09d49737447b354f7b2a5),
(0xcdda1feff4d5ce2cd9802198389880f18adc7962c04a95def07370a1884bbf82, 0x8bc26ffcb0c9dc05d799174b4a4781624417f9ab8536235a0e55c9b049e31d6c),
(0x6f3f39853454aa13134b76d777dedd40d46bb6acdc3a3a3f93886847b96cf0d4, 0xa8ba499c4f7ca1b5ae7e5192ea408344b6e32491e5649637e4eec5c92cadba81),
(0xe52d11af91abfb83ea842065ed8d804fa2a3627d85149ee8061cd5dfe54b13e4, 0x59f3106d619e5672cb21f6ed4e73285d2e132a3d0e3ed06946838e12a9cfff97),
(0x89fec736f0de1cb645654d13b32b3cab8fb91869c30e2ac066c0cfa39e7256ff, 0xf9417ae84d3e1a6db6ab938d9dfde62d73e708dbb58f5ded46b455ae07e44274),
(0x05140f5691b10553ce86ce733028749f52261520a8903f7531bdac0922b70b29, 0x91a1962b9e02c23d0061f4ce21c0ce90ad0acf0bfa250afd0dd67d72aa2dc024),
(0x03c16130931099171075e199ed32f94b0579d0eb85520d09c0f90fc87d267b5c, 0xd50d04dfe4040db903aa00107693ac01e9f156ca5e800e51a5f7d36b78ac64c3),
(0xfd87690e63a50237258b8a58f0240552a2d0b952911d1fa8be13eeb89be8bac9, 0x406dc1acccb968f56fa3ee35247fc66bb40f04e3ac51247458e4fea48a1b9225),
(0x08e4d1de017e78f32ce8ad59973b328e99005ce06a8d9347ebc7434bd5a12a81, 0xc6348f3e744ca65d744c843b4bbf0d8a992bafa88c31b6da42919401b1a2a8ae),
(0x382c7bcfea62c678173b6eebba58caaaf49881041677bff6ea739a0c6c7743c2, 0x0190a5da77e6424353df7f27e01c0f6a67e9addcafcd35237cf5539a69c5eb7d),
(0xf56a8b4e74b84807539fa471bea5079525b0dac953bf5d29e87d90d5f914ed0f, 0x5456d908da57e6123ab881c656a6ea248f9f201c13915a48c50151fbc096db8b),
(0x908e9ffb6a5e557a1fef8ea2b16b80c43af3652c55f12a044ecfdb0617965b80, 0xbeae28c9d1b14cf0f8182ca07ebc3137b9c01094ed6b6043562de75a878bc2ce),
(0xa6c30718433381fd16b22533052934eb3fad254b99d41e787ef2e6e9bec86ef4, 0x47a9a286a60d510204d129e4e0309c729e266f8205ee26f44bf90057623fb818),
(0x948bad866c3e2c2602d4616352be20ae30a652e34a29936104766eb798b3e903, 0x30d30622ad478a2b99c43b0f0915de0c4321da4a76a18d3395b4c484d9c35164),
(0xd6c92b9dcb8a17ae7778812518782d369d536edcf96d2c9f0c9e84d21cf6a3f2, 0xdd9367a09351837797b0ae881aec5d4b0ed686248ec2207b9e0104af2ade09b9),
(0xf9ff3d7b7d8b13d646c641ca64df802f7b082209a75ae32854cef0fd65566abd, 0xac58619e1f192095f722302243d811d1b9269d28a18711c8c84e596032deec98),
(0x3dae1dba3a70e0f70209a92042837ed57f4e767f834d14e1c3528f6e92c8d5e0, 0x7ae2468d6ea1f2cfe1fcdfad3ffe87c95c7816d9ea99332e08b4d055280f797f),
(0x270451056fcc937c9cbffe130f2aaeb08ffd227e0dbbc7cad0b4b01d19b49937, 0x11766a546c24fdfe220d3724661d6c75bbd801f5c4286ad4d08a698f1ffa4397),
(0xf9d95ff96c3260eecd434075262fba812024c556649c4865bb90d65e20defd22, 0x37cbf7fd8f74141180a632ba8304730b0a89d54a1a5b1dda24b026bc17a13c2d),
(0x04e8df18f90f67e9fed8c6d5b66cfbe6ff0a86bbdb99021448ab57c5c5a7021f, 0x7e69f8c5ccf56413453a2b1b3b34843c0e9badfd3a83729ea2293fdaf2a621f5),
(0x8c2a4d2a710a7fb21ba7838363c66458ab3d32bd3be35821c8a5b779d2ffef9f, 0xd532447d27e425834617151571bd6577f82d8f91ff39d205caa5aac6365511d6),
(0x28b7f3a019749cce6fc677afa8fae72ec10e811ed4b04e1963143cef87654b75, 0x030471eb3245ab391597c881e71f4a1de241ba31a678fe392ced5a63845ec782),
(0xcb474d0ffcb8e72c257b5acb0999ec8ed89f64940cf4b00808f6d7db59be416b, 0xff7cd0cefc293cbb8ab9a9508759f8569a0e59b3effc00c7e3a3051aa16622fd),
(0xc33e69825dbebc40265567fbede2a4a51a1800342e9963f5bd57b35f4055b36c, 0x22ff3ff57ce265ce253b5061599ab066082c0cb591a51e0db798ec2cc546be18),
(0x84bfc10644d3712371a441a84444a9ab257e0745b3d0ca0eee34183819bd2237, 0x7cbe56d57b7af706c33d13ffb3e4197bafd7f4211ece235ae1c2187b289ef6f1),
(0x09c312ecd53b244efd40f003f7e0835f6063028a5b0488dc73599653f97b713a, 0x11bcbd0f58fc77ef854d0b160188b4e859698ba5fee41fe6165449b14eb76d14),
(0x5c06af59a22d6f2d0cd83bf4e3bbcf21d474f61ae01d04332d0a82dcaf15cefc, 0x476b4be9f1c265fda8c6d70d6c669aaf41fbefb1425e2be29048165a4322aae8),
(0x777259c681a3ed43b4c0eb547af39ebbf44f0d71c84602bf2d6d45b3f1b6bdcf, 0x8a9d37535481858aeec448514c834667d6742b9cf563ebba22fde187fb3bf754),
(0xb370601eae1fc1d314e4328b4d0244de0174b8c40766283ce3820c5041266842, 0x8ef050792174c3b0752a9abc8d980ee3eda7b5aa4042a9323e136834bc125ac0),
(0x5af94ac07f8d6492a472ad406709720678086856b01528bf8248ac8edafe6584, 0x8a54c7ce57eade511d5f32efcef5f56cb40dffd78cfe56552a9c3966e62daf1a),
(0x8fe3c19ce2e87055385d4f23c5832f374f84b41f3f94594581acb8e75b0586c6, 0xf923099fd16f44c3a4314d491af193c92f5e20170156f8600674f5ac91728c28),
(0xd580961d2642bd1e5f9211b309b65eb5e531d17fa37bafc3b5f288fc13ac9a71, 0x500c0554337e8b4336e50a6e0b12fa86d9678cdc5b38f650e4f897e91b4185cb),
(0x0255dced529fa62349e4603386790c32234e79675a9c5405256cfbf14295e82b, 0x7eeda9c47f3e1c7bfc3253d3faa463175dfba7cd94f6cb100c8f4b4a7d799815),
(0x4b7ebfa79240451fab8476a4ae48e55f1a27c338a8dd84580bdbe422ec891557, 0xdfb260e9f89135f60fca23cfad7ed812c12622d7e42852848c63d83e85b59085),
(0x919d07809e6092a9a3b5819e0c67719d3119569d3bd14c7d8f47f5551f2fbf28, 0xca0b6af876d70f2cecbb2fa5098d6118c204d3d4a30e24fdcbcaf283843d8094),
(0x466867a9de89a9445bed73bd5ae342a49b8c896b59eebf42393dd5368c70ee78, 0x2a5d9707b3e15823079bd6cae8b7ed099cbb9f934ee96029385d5678aae042e1),
(0x71274d08c87845178921526fcf71258dfc740d5bbe655f3cd985cba2c1db3f7b, 0xe0af0130a5be1434f8d652bc4406177b3cdd2ca66abe7f560d848deffb4b25e0),
(0xa46e90482d25241d13c693c1f4e6068fb6e8256d1fb3111fa0ae0e377ebe2bcd, 0x7567700cf22aab698126e7ac961726adfdd708bfd5ae511140f921be94474eda),
(0xf7590b91f243112685873b0f77be685110ea918ba26d3b5baec02bfaa5e84abd, 0x481848f8594c94d0c9b5d6cc858dcbc82d25128d5ea28e2eded935a462708999),
(0x2d7aa8e51282e1dadad39d64398f07904f966edfaff5e3bc9a22edde428c2edf, 0x12b2133c42032099eb33ea24f1755f9da30b4da1708cdfb57635b61a335d9d79),
(0x91313f403302c47fd9f113a5581f135c822809275f65860799550fa97236d0e3, 0xf8b6ec075e7804bf461daee91f21285baa9e96c22e0cff27c323f62790838a77),
(0xda24811909d385a78468e86e1b146fbde0be031c3a19d0de2f44a1d56c6743cb, 0xc07c897b5f76f6eef2c6251119b37c4705d418b61d2cda666d39ef6740348cbf)]

/-- secp256k1_pre_g[576..639], /repo/src/precomputed_ecmult.c:612-675 -/
def g01_1 : List (Nat × Nat) := [
(0x95e36a240b1bc2e3fb5e6082de9ed432760ec3f96f01dbd62e820268dde82220, 0xbe6990d73abc4a3a8f03b209dcb4202b52a74a871e1e3d017665e9d11ce1cb63),
(0x8b05b0603abd75b0c57489e451f811e1afe54a8715045cdf4888333f3ebc6e8b, 0x1d10f88145db40fb889e2ddce81bda7c27f5b615acd6179dbb30f4fe7f40fb39),
(0xffabca3b764a327a750bbb2ba1cb8329d43ec0b7dcd8f72855a9d30cf3020f54, 0x93970a65c90ba2605b2fb393a4e994b4c791965cb60a1302cf5854436dd0f05a),
(0xb3a85aefef35e4a98f0f05fa9752998ad3514868b133e7c0a18fb0530b866c72, 0x30115ee1c21e5b9e03d6b36c54e700e809ee78c7e88a275238f46d1f5b6005e2),
(0xa4f1fd5f4c233cf20b9c56590f666d515b78fc32ebcb52d5d155250cc95b7ab5, 0x91d19f85726a1258444419fe0c5219c73375432589d92d52c363d61c81faa0da),
(0x97b84b4b7baecf1394bf39232b58b5ed9eb14637d29b3c98bec3e624015bbb0a, 0x497db4afbe8e7b3a13493d73ca92b4b65eac7f30d86dbbf48b86f4952d162435),
(0x2ceba0d9203e366675e78e9651b5b57ba9de5f823cc8569a1c274d19946312b3, 0xd4c2fe86f042cfde41f0a88a6d77c188b7805db6c6ab440a488a75c38ed2b437),
(0xab8b19306cddaca28be57b78b4836998912391cbc6a41e10e91b86a23f2b7009, 0xfdbbabdc79fba1ae9d8472a17a6482067abed65136892a0335128650374172cf),
(0x027630291ff140b157eac2b59938f26bc149705d0aa2dacd6bb0d3051a15b394, 0xc2b6b32a38dcb9e2f4640838c52f5ca05535947986ecd875a91504ac49374ee6),
(0x22d1edbd1cc1514c7f91d7933e9dd1249e703fd08c65ed8e6cc79eb5cafc78c5, 0x7453e7eea53ae74113024fca208a3816a93942c12378ff7a05e65678c0a85efe),
(0x70d869c0c5729e94270fa5590bdb3fb8b61465275ecedb7cc8e7c9bdacffe222, 0x4bfcad328ce78fb4617baec848c2c3a8f8d414749c131657115dcbb8f6ec30c5),
(0xa25b45deda8d578264f60dccda97bd28ed9039c06bb7c97dd4a24eb8791b1647, 0x8fd84983fd2ad956323765554c43a664f306f11e2f030c7dfe1c68d8aa43db8f),
(0x823fcd6c9b237c0d5aa383366737066f3e77fa14b975a5cf39ca8a743b1024b8, 0xe691a44d29a4f2dde99c2ba3bb6d4345d1433e4bd1c65d72198f16b54424dde0),
(0x039a5a638244aef6432b1247d394d305ee594bd26ed2433a3a96c4ce5a158d0c, 0x147ced39dd8b8494d57ff37ea24cb108ee4b9f4350c556cd32df8b27626a8023),
(0x8f9febb5b85bb2dc074aaf7b81b277962a18f6bb4879f5f8de94aa56b3206487, 0x48daebd6d4175a000e37dbdec2b57b3ddc7474f2ab6a093c32a86acbf610c2a2),
(0xfc16fb142f5008564509158a5f6b4e356a08db5336e9d3f804f7a03d9143f60c, 0x8e9326f27e02b73a10f4ada59db85fe74027584e6b32aeaf58bcf804dc1f7a36),
(0x7db09ea717446f6e9115d8f0987eba83eaecae01f4201d788e29248685c5a281, 0xb4469cee426d455df736b2adc12fd17e79fd2167c5a6f8642733e327c215742b),
(0xd45d1bf528baef1c3ea56fdab1f8d3c63df7caf5c7ecb0b8564fbc94a4d9a57e, 0x91e2698464830e891cd21d3d81ad7000ad0c84d13c05a191c1a172e116aeccc1),
(0x3faf0b751b6f85d8550a9ffaa7a26bb16a4d9c99ae97678ad43a1a9175f03901, 0x8a5d062aa4e43cf65caaa39f6386311cbe775d143b8d9368b555c4361844328f),
(0x54608cbe8e08a47279cc5e39c65e1ec01eefdba33b1271074926b06c76efd121, 0x0a7695bc40def81e48ec5f91cc98fc2b9bdc277671d05afdcb789e20c540f038),
(0x559a0d89050dfcd4364e695523b56972e8a201da4e196d4664dd580d909823ec, 0x7bf8e1add6528b90cedb8d5c087f59535641e32b06a6a7b4c46e8052e8dc71c3),
(0x166e8858b5e2b9f2b1648c3441e5fc28bb305ea90b0679c31a996b94acf467a8, 0x9c9b306dff82fb42acd8a6b9108f9994dc1b7c37dd0c9d2af64205a392e5bdb2),
(0x40e29e8ce66e83baa94ec5fc3ae438eee5284f94c5efe5a8d41da73838fe1941, 0x7c71f71cc01e78681cf154e273a23d0b84ae684fb0e709c39551884d39acb2dc),
(0x6829c8f9eb659ce67f87fc764661b4006aeb8b3dbf6744081a84438072d4ee7e, 0x1d35530a8332dc0554e825225e9ff30b6647fcb3304fd908ea506945ca22913b),
(0x4a3fe05a322e9fd393393b136e2af237e25a254042d10e7adbb35d4113658196, 0x859a41f8d4527641a93c40d9ef0ab17578dbdc457edeaea1f147018c7901574c),
(0xde5817c9a675eb2ec1567ad5a6467cc29e9ddec20177f38225a5e1019aa44f94, 0x4050ebd05413311cdf17e6256d4bf10271b45e174c8fcaf5ec36567accf723a4),
(0xfde292454f07f4110abdf1a26f3d8f38daa7b9b31b51fe7a155da5eb5662a108, 0xf2a4e6d37b39e929ccf347a3ac6c719ff09d1756e407371ed98dfdc8b727808a),
(0xf28d3cfb6eb98ba176fc536d6a772861b0917415d08c22e8a43a90edeff42436, 0x4508be2bb328250de043dc82d8894aa41971fe8c42e6cb61e9d027351279d1bf),
(0xc7655c304d1cb5b7d0992afb119a6df77bb65496420f78c70117b9517f16e3ee, 0x898162c2cdb730dc4b986b1cb0de79c1a348b0be51b9070d2e427e2de71dfdfd),
(0xe57d97c72fa3ee6671d67936eb62f4d853ffba74f2158d0d7ae3eca007b4b147, 0xb1e3012ca3d9297591ab80b9a668ca131ed4266047c34958c07c720fe1fecd64),
(0xeada8642155025bfc0644f92fe014ccb6cd3d37b76686a44bccdf8c1e22b0c01, 0x89035d7d71d71bb0117c37c5540f82a507152aacaf79fe9106aed7d209dfeeed),
(0x3e76267e3f1721989f9d7e8e011fa3ff62dbf8f977503e275567ec84e60d0e25, 0xa18357909631c6dba453001ec7e3973a416f8bc7e2fe087182d8a2366e1160b6),
(0xa11d97d89c262f3502279e692d66be7e05de723518e6750c6972d25091a3df70, 0xd18df8a3dd6fb016df2e48feab88916544768d77e9488b71fd31c6dbd52a69dd),
(0xb16e3f75cefec06eedd54bf8dae7cc29a5ab5208fd58d787922f4221f5f20651, 0x57fbfeb45a6e32ed74fc1989169098910233ae90c539b81da758761aa6d0eb2d),
(0x37de800a3f73ea6e9eb564c2faf147a4837339b344a33d9fbeb25784c74628b2, 0x593392599da558030196b7e53596aad7e33fc96cfa2ae0a02f41ec13e6254050),
(0x6f68412d65b3abaf6fcb781d8b6e6baa4ae57fb09325a1f19beec438cbd68055, 0x884fd59d406171bc00b31042021abb5d27dc1433ef49af08ec0315432f8d3bcc),
(0x91479a9e6bc5e26124cf0ce2b52f070f980f1f9af60bca79572902d6cb6e4366, 0x2304f70a22de443599f6025d4b13be27479325240112f64aef935d1a9c2f5288),
(0x8ba6b0df36ac87088c1e7c1e4177dcc94cceabc74a6c77018358c1944d19bd8a, 0xe96b720ee9d515e2922abe8a177ac755989dff1b789a85baad17f85962ab9ed4),
(0xab152195871f3fcc58f59a8ca35514f0f11b8a6954e4ec9ef4aacb7b29d567cc, 0xc1ddad48623ebda142899ad175f88ff1965ec1ca651b419c3c8ea0370f267fb4),
(0x7eb23f485eb92bd01c0e6448e19adc226ca45c46d4d5c756e552ce7d551600c5, 0x953e9b124278b93907b3de0763e30c55a300ef97a8587328b3dc27b1a7c57ac5),
(0xb23f4c2ba4b2700dc7520a9225890491e0212fb70eeb1f0a2f6249054e21ee17, 0xa38b67729e95b3af2cc7d5a5c10386c28a2c287e6349f811457ae0dd8b598530),
(0x85d2e723387e55b6a2c1a02b96cfad6467a6c12eb75424a90a10ab772769c2a4, 0x727abdac223898af01b077fb7d481434ded380cf21a131d0db845150c8e4d303),
(0x27c1715e08dba4cc41383d59e669f66a54ae690188a794be9fd8da6c9b09273d, 0x2767ca54306e6ca23517d8841e7f30f3e16e22c5cf2bbf9d998d5cd4b5b1a266),
(0xe70b8cd37f9a5e8e9e0c4fb56f85a6ab42cf40424080350f4465cf8b095eed89, 0x2e3d8c5894788d1b9734e93c07508cadfaacdf06319854fe5ec4b0fe6b0cb31a),
(0xe23dd4552405839698c81a39f3f076ae93932c61d0e7f65ee2c2013cdde956b9, 0x6c53cbd000cd8ab8bf5cef85a8aa0b6452b57e79cb53315b1dcdb68b78cf77c9),
(0x5e923f81ccc4981311a09f2c47677cbb9aaf083210c683b7d7a073994d919c9f, 0x604d7112e64cad06fe0e64a8af7054fe7059667cfb5159f7738b97f438306873),
(0x23d9f2531a9fa278e02b71d7113fde6b1380e543633286a560037ab770142507, 0x55dc8247b6eb6119a6ef49f6bb4e85e30a9fd2014f69656442d3372bfe44a9ac),
(0xeeb23095ad2551ef15dbb2815ef6d252886c79ef12c7318a050f5d89d73b8f24, 0xd1a71b94b9810ce8eb0c38963e7cfb9056a80f829d384eac67d9859b11ba1ddb),
(0x64a6de7b57bdf7e254beee536efeea9b899a8436e421e3c0e7a2682b54b7c21b, 0x6427936e2e344fca0c402e2d2902fc6f181ad190e3f0d537cf40c96f27b4755b),
(0x9e4676ced76daf3f1c1aad5e51e700b88207fd453cec846d779f02c2cc270073, 0x5685c7811d7610ad046550195d8a844b6ffc4acceb458c38d9d74f4bcbdc9e42),
(0x95ee122880616ba176e0ee2314428c7b1d83c6356ec843e5d134b3598d645473, 0x7be34c6441914c07580812789b254c7149a60d130c6ee3a37d12e29ea3bf4054),
(0xe53ffeefd92081a2f91df5066453cbdfd0b1089a0c598da994fe4c03fc6516ad, 0x560f02c14a600d02a2e70b285164618f5dcd1b67ac071929ecc1d891e4c59c2f),
(0x9c3327447c75488c5a14f1adfa3d997490d4eb1063afba83fafcc3ea062a7b68, 0x9cc759fb09a7fc3b4d0ff7d224d0cc54cacfb78f5590eb8ad689b6ee19791c63),
(0xe826d5002f4315ff77eb22b0c8b74142f1d1037e81e3c58e4ea39430973d3c45, 0x3a466e5882f971f43ab9316dfc7d53a4e8ab16e02ae750455d8d1999bc8b65de),
(0xced4df0eaf93b5c48dcf196c6e9b16bcdd38a87b3fd67512d387b388115e13c7, 0xfe08a63bdd149dcab4f2c93099cd11e18c754271cedd597e910462c6d68b74cc),
(0xb056ed2788ea50df2b220182df38f54f8065e36de0218b27ee8c5416db7eb33d, 0x97338375cef457f9ebe43aa828e9a1e98d514d9ffc300a6b0a1a83dbdacf6409),
(0x035dec7402fef94a7fe60b667341f6a3eba030c04061d1561c9ee2885b7830df, 0x0259912139c810fde7f02fe6eb6e92213eb8be6e4d8f045caba1f058789b933e),
(0x03f23cc87733213fd2e15cb9942af44fd7981e9737c5af1f081addfb324e020b, 0x24e8ccc0d43ccde34e392455dcdec1007ffc0c613b5f865ac8afc051756e8f83),
(0x9ba96c76c0805cead7ecfa43dba0d86fc8471dcc8bce9bc1e06537ef2bbabbdb, 0xc1a3c4331c2ae04dbe2f8e3a8f4f07b1622d9820607ee3ae0e93bc37f943def3),
(0x83c1479a314753958d5103965decc9ce1d414f41610e2ac5c2e887d7d16a3815, 0x84d4d0181354cd46e5f39bbff9fffbbac123d470d07c292c7f085740289b5b7a),
(0xbacf627a2db11d8876e6714a02857db8a8d7010d7b349ab1fcb5ebc7efe0a32d, 0xa287dc0da44c448e68b777b736ace20a14b3e586bab7ef5ed57ae303e8c83129),
(0x73063c5530129f7910bfd2d3a01471674ca888d1d64d24d4619c5cff2776ebd7, 0xd57941d944ccf8c82fab0362b14986c59d71906cd28584ea368c4bb22c159489),
(0x04ee8632df55ad1512ba4ce34ddb403ea3f51a12d445a0114d08a00b3b5d6637, 0xc29f7199dc30275a39ff01a319723d19916879019616fd8188ae6c4592b14820),
(0xfc46e66d68bbd41f98b18a16a23efaca8f5345efb567786ccd42afe7d7e7ef28, 0x8b42a2dfabf8849d53daf38a4a4c28b9a0238231ec8f69d50d702715a643c18a)]

/-- secp256k1_pre_g[640..703], /repo/src/precomputed_ecmult.c:676-739 -/
def g01_2 : List (Nat × Nat) := [
(0xa71ad1b0158d797807eece5e2a3907b13f9b6b98aefc79638a9de618b3a7dc13, 0x6fd7e86da956c464e538a86441b9b7d2ccfc5c44e80a66ea4375e6a1ef08bf90),
(0x602185f36075a67fd7bb995760c6af5961a7c553d51d828d0ed37768f1860a3a, 0x90d312db706b835e647a027ce7a89d3902265cd4dd52e802165c32bd4d10b2e7),
(0xdb0fca8376729191b9d9976d37dc62c336b4437f943706b598e7b7df607a77ca, 0x23dedd6e8eba7ebfe0c9f0b32a1802fa78699a6899507dd9c4f4841d82efc29d),
(0x6919b861598d4f092a159909fff8de82237d0aec0339d8847618f257a4a54939, 0xab9f82fe1fa53aa3b85c078459a4e19127a1a214392c3ff2f3e1cbdb6f34b90c),
(0xf4a7d2e9f1f51ba7c3cf0a5d5d53a00e877ec118f7e39e39299efb2e8074bd59, 0x9f0509006aa6ace2da4e6380cbce79830c9bea9d99741be0ef17e1902c5bd257),
(0x8a5d7210d4f1de131091ae232fffbd963927317e54197656366b2e35cd453da3, 0x9aff8a1b5b71da0ea6558a05a9306adb4cae1004e532aa98abcd1644b0580a54),
(0x99eb23dce40d7159b0a0406bea04b87a2c9195c22afd79f3f938018eb8e86f16, 0x2ef21938a66efdec7ff6cddaa79fcabfb1f17fde9e80db3782b47d4164ecff66),
(0x3bf16e841a874418ac7f0d0b9abbe781611ad0e47acbe904a99ba65ab4d37472, 0x1d3cb9f4e1948cb2fc88c0f19277437c7d1138b28aef43551fb35121a3e714ad),
(0xa3ef83ff19eb394e0b87c13336388a86561811ce5449895af459fe4fe7f01f3e, 0x1955dd398bdcaccbcdc7ddb4711d08e19d687ccdd335a4a1045d13a48178cbab),
(0x26816f51da9b4e813edc024c223dd6b45a344d11f5ade552063ef17e70b1af90, 0x46278e1d1d6b67a3572809676604e89765611b7fbbccfd3022007a60294aabd6),
(0x5e1653c0d640f148ecbb14f697940b0f1d47dcc948e7525a909e8444afdea823, 0x9b8b81ede7cb8350ecfaef2292bdc5288e499cc96feedc86cd45cccf4cb092c7),
(0x1bd88e450b0d369456348c23125b12b6b7725d6faddc08f247fe9dbde828de9e, 0x182939e32d8bddda577dae7ca1d401649f6faf6869808fe2098dba2fb8a95db0),
(0x4b03fe063adc4e40315e754fbebb7802b80ab716d4201fbd31b12c5fd9b73c02, 0xa864d0a8e2c5e51900ced537e03f98e3a5623c31ea4a430e73e8cf541c80fb06),
(0x0e20a51507818f331ed927f13c46f3b52146860fd085e68c5884f1e845d35f61, 0xa1c120021a79d6c589e466c43fd48f66a924e9a0a3d20db0484875e696bcf328),
(0xe3d11a4e74a1e1cd8be24d874885e1eb4aaecea1c802ba732db925c7f81e37be, 0x8f1ec01e0a1ef01f63806787b8831d4b022b0a9c7b44bc7f73d2a3b6861645f5),
(0x8a23321557fe0dbee8e92b584729b163da71fa320f400617d1e2a0813e37f6e5, 0xaf5e471abb8c7505aea1ed74bd7798cb267dbd2961c35f5e93889056aecce950),
(0x3bbc0a2cb43f4683151070e007015cd6997e8dfa99685cbe99f9a76d6851d20d, 0x9a1dfb8ea5f14c40b9968e88b6083111fd14084396fa8278bb0e351b7cb4f97d),
(0x8c04d781082d83abe8c59dac9407b4b965380f3839431184811e133c911d1deb, 0x4d74e493fdb22316fcf2134088039534c0a3e0987198ceab4a65260b4c0a3db4),
(0x467d4d0e72312cdedf0aa7c462e036441ed9f915c9e7e8c85770a4d6d6a0291f, 0x83db40a9d7c2954a30c624ddf11d565af117e240183a81fc0d4dda1d70a1ce32),
(0xb62f60cd8e55a101ab060186941cbd52ce73ae2de19ac195d55f498c45a3dc8c, 0x59da48b07c6d2562eeb0ed09158cd20b4a5108b8fbf6fcef428cc301b314ef41),
(0x6b5d6210f98aee61df36d7f19546efe9166e88cc06492183379dd1b5cb9e681f, 0xdbfb174859c88a6b72c8afca830045c27c6de87ac47228e77f246e6f698a0d76),
(0x88744d04e8c7842b68d2cc9ef58977cc548768db48d3c286049ecd0a22300c97, 0x84573aa51ea3c51e5a0b0e425c7c90b6149d299391085bc0393f58a28fb9c38c),
(0xfdf2c82440f2ac5819b06571216ad938d0218ba5be4d3d4bada80e32c32e37c8, 0xc2abc4b59e961ffbe48c6f2058602dfd9172031a740668b55876d5aa5d538f74),
(0x4d2fdf641f5a883b322273bd2475540515178ce09b4ce8a936648957ef777559, 0x22ba1d01210bf31c6421b89b9b3217aeb2837f01c344a9fabed0b3854aa41b11),
(0xec7cbca1e743bfdf81af3faea5c64a8f5a54dccc2afca2699c46159234ddc633, 0x9f193da9ea76a0507b528c05e5a10107dc5263e498fcee295f57816e4eab0917),
(0xff2fa113771998b8b801e77903cb804cda9cd6df9d371943c7fabbc044b44fdf, 0x962127f21ac57670c79d966db8cd6f0a2aec6824022cac5423746bcb2df6093c),
(0x6d1b406b2dfb02d234ec21bec436d6af4fd418c929f175ee6475e77a08a57580, 0xb89456689dba8e2f8f0693d6d3e7b602f157efe538b9ef07b2dea23dbce895eb),
(0x4abb9dfb449e00ce4647672700dc6b960317bff774c21df587bef539644d7963, 0x6086f2b7c016c69b2ad8078689af1c984d6dbba87545d8e49c2c58bdf86e6407),
(0xdb0c51cc634a4096374b0b895584a3ca2fb3bea4fd0ee2361f8db63a650fcee6, 0x7ec0bd2baea1ae184bd16fd397b0e64d5d28257f85836486367fe33cc5b6e6a0),
(0xae6f6dbcd0664919a65e02ed646de7046996a38221aa8e744954d22c37fdb287, 0xabe70eaef8ae74041193137919f9102ec5bbb2f5f5fefd1bb76fb6a1c3f2f201),
(0xaea3eb97cb321f30bd0771a917fc9770f4079a62fac51fda63dd3ac8d35f6227, 0xb6a53416398515c5e9133704a287dfdf878145a14416b52506f1ae466abf39b6),
(0x90c9f8cf711d50de81f7234ef6c13af839355c063e891ded051bca1c852233be, 0x08d9577818f19649f2d3d4528135878317d2c32eaa01551ed7fe21c83421bff5),
(0x5ad7ece5ab1d03445528dcde34b48efefd954aab920260e21495ed8c86d976e0, 0x2df2163b2c3c63abbef274e93c46b6e062ac9444b17843d870014b03f78569b0),
(0xb6ba2e2c8e942ef016e6d3ee13ab0cac1d80ae7d588a831cb7844e8e3bd28d9a, 0x41180a35f923dfdf501b6b067d241160a2ebf453d00b501d0855ddb71bef7fb4),
(0x7e409bc9bba26c7dfabdd450bc84589c799555a9c6809cc413a4c6747ff5f37d, 0x0c5189619cc5afe2e41c4260481d8fdf6066b03419fe030ce423dee779c9e6b1),
(0x9486cd1470b2f2ee28d010606c7c4c222c72636aa50b64e03008516ede4f602c, 0x886ccb8cfc5b006fdf931785f732367ec062e9a349f452ceaacfb74bdeb467af),
(0xe7c11d7bc8b072051e1af6d8745ba05e94b1ee9c5482d83b1af9ed8b21338d2a, 0xfdc4d293828cab1efc9062aa192f35a96ad4683d797fcf79c74852ded75c8e50),
(0x0dfe627bff315cb01b1b67b2776ded3519b1a85d8e802217c98000f093d50bcd, 0x993c55ebbb65087b6fdd2480c9d68e6bea0f69d1b95efc285f32a8ee55f9e773),
(0xa0f0cc17fd00a2cb5fc7c981860f02f3eb31c26d54841dde189eac65a446f516, 0xbfae884c31d58a3bf11077a7d3edd37e14bbe4eabd30fa74ff5c295e4b3b8969),
(0xc1dbb6bcbc14286ed6eef926c946b52bd37e7f5391fe1dd9dd7b72baa3e37338, 0x67b02d87bd336882f4b6fdc81a3a88d7aa5e2735139e1bd0e793e6a612df7bf0),
(0x20b9065bc7d495c4c92cb1f06eedf5ef0702551110343eebe82505bcbb4bebb2, 0xa69873165c231d92bd21a4f9060242d94fec71a704b24fbd55d5124610756835),
(0x7bedfdd00c4d8c38dda9544d38fc878655ab9a664f8dbf2e03c54810eda69190, 0x9994f0b00d4f52de6ead0049172fee05365556e53c9d4591690715a6f8af77a1),
(0x26762eaf997983f6ac63815b720e97cb5adcadd20419d368df4d385e6b5918e0, 0x81f5448ce11b4dbc024be2e9be5620fd25f0c0d676aae5492792188d5a27e6be),
(0x7148cae7ee18e152c3354ff5dda86e13ea14f17592d0d3d9a944f4cdf387bb79, 0x0bdb35faf6f86e9041465efedac6bc0effd42a0beee8336593dcb4de2310b18d),
(0x27e45dd933ae2c33a69ae00b156845b5bb4d8f06593c27235038ce1787bdbc90, 0xa2bce33fa93579a3f8d9c75c9271a2b17dfe36a0590f2db1f7cabfd651801ac9),
(0xaf0c72155b28ae8c2a2d79c7d81e603cd0539c11fed2aa98fa2bf2b2d7d6b7d7, 0xae6bdfcfa25109c000b80bfc71cfac3e3b5b26e1e4f2c85640d2c69aa7ac41f9),
(0x7b63c408d4f8d34f314e609b21e8e372de0f5a191accabec7ecfe02a63cbabf4, 0xaa08009a78fa96bd8ceb6f65e88859b6236925d00bccba7ce0db29be94f16327),
(0xab76885314f3e88bd63cffb68f4f32324f4b480141aeff9394d58f9b85c6890c, 0x1a71c833d6d96bc10c33610ed7ff1481c9ff9841157c59e05d3a036fcf7f192c),
(0x641437f07ad75112f8375487cc0ed859ccd308da4b25e5a9953e351c9e3bd32e, 0x3c58f7e6b255346af50f1ba83f0086627d2ec95084c326b0ccc3a38881a9b131),
(0xf532fd2d600ed478c1dcceaffd01ae8760f7ecc87739580b9b4a764967a082cb, 0x7393514c71117d7f7cdbb4d6c803c9f3221847ad697c945e440bcfa11285fa96),
(0x336799592c4bab44d89e6f608f882938db73dbd475f0dc3ee1fbd0750b1c7631, 0x4c1f80046fe89cf36d0782515ff57cde17125d625cf675aa1fd7016349694fbc),
(0xe184c16d2a34ca57b06b539628cac2856f18b7e032970a5be2221a07be56c9cb, 0x7dffc17b51ef9c4df16ab0688c66df57d646cd3446b509c77f85e03de2c5bf73),
(0xf8a97d162fb49d55bb8de9909a20c1e34f6ce6d6efb8c68f0e26c8846415d419, 0x3cd3cc534dbfca019492e16161f2e86c5f20a83a866874a7ded4c2e442061146),
(0x9eb6aa2f6c6ad821d46dd61238d3dc5328cfc406ad71964eb32de0ea12475781, 0x14501a8379d32e093664ce341a419b2853dfe3e8fbc204afcb33e3476c45c299),
(0xebc2566a68e68955e1e42740323fd4017c40315fceba76425f887a3c3602668a, 0x075e810996ff56e2655f9f85ae9ec9a5fab3bdc142ef063aa06931e4d4c7ea39),
(0x55646438a966ce5c2fa5b29dba4840cbab9c5e4b4074a9fd674b7eb2f52bc392, 0x34631a8676034a89cfc3f68a45cd52e62987d80ce9a8e28f0a37020f981c8d66),
(0xb87f8309befb81f3313257b8c7dd914c082eff5d6729f2e7eceb03377b16575e, 0xbea6683259e4002d6fbdf03fb80bec1beda5e1c2cc55c630deedb7fda96ea298),
(0x45957585b440d63eacf598b2016e435e24b6cf152892c8d7953471df70a0a93e, 0xf4cb6260776a4f4f23ac366a565067fbb29739fc233493a00b3eaaeac4b71427),
(0x2c90f64c8d9c42bb1824c8218f9cc0573fe8d648b960ee111487bbe49648ca87, 0x829bcd57ac643cb609f000a9f22fcf5769bebf7d6b1d8ab4da21be41d3c25a8a),
(0xeb327ac7779c9abd9546a3fcc77317292e7539122ba9f7be36db0548144b5efe, 0x21ac2c858d2fcd388c32c594d6e748032cbbf365238565a08c439190518c9435),
(0x095ec7e2272ccca7aa2b07fdd37d0f08daa354181ae30e6adba0cb1d2c6d007d, 0x733786ef59df6050552ac913c10b88902d589e7e4f740f3375f78fc52ba12b5f),
(0x4b7a66988b4fa080f27c845d7ff1737191104a292c6195f5fc367c69fc0cbbd1, 0x8b043bd0a360561287b38fd4d99b29e48e52494d8241207c9284581b63a85b8f),
(0x89b2c58b6df581df352ab28a619027c0a9233792fc6525e747dabd31a342e6b2, 0x300b1b34d459e65be265edea203b74bc9b053feb888e81f410045a10d7f53a2b),
(0x41099b5d9f6a28d0e4a7ff0db75ec4871c92632789f0c8007ada81149bc43cf1, 0x2a0aba962e2b92b6e949253be06588d13e07919a03594b26995c15b77a62cae5)]

/-- secp256k1_pre_g[704..767], /repo/src/precomputed_ecmult.c:740-803 -/
def g01_3 : List (Nat × Nat) := [
(0xbcb0fc649ec508c3507396b29a6635558825ea9c1389c817af7fd61607229be4, 0x168c7992cf3bf5ab6c3a12ae0922e64713664db92d7bfe5c2c7469333a07d606),
(0x7a3fc9585a6256af9e314ca7055a80969cd3b3d6f70349a50ec719cded8b762e, 0xfe8b280c29cd071635288526b7179d90dadecd7839128f2217d445cbd3df1346),
(0x377093e1b968a35ee0f229e1e656da9a7583c1e600d06fe1c89e3f0661a8176a, 0xe7c0860df6c9f4617e6a4dd0b8c0d8006aba8e88020aeb82e6e0f8a0c2c601d9),
(0xc5eff3daf4a5ccccf1f27a93361301a1919b1dd25a98ea375ba63f144aafecd8, 0x34e1163426f983dc18c8a02c2222c2fd0a94129f4e3f1d67f424964cdcb97a1c),
(0x00fc7919eb560d3344230f728368afcb3c0fa6f152ec54e984ea9ccbe63ffb27, 0x1c7d3782af766ff9bc1cb8388e4a7dd0a04bc4ceadad3fa94132842a9859a6b3),
(0x2783d7fb49386d7254434cd6edc6f46fb311832243d381c6287d8b24861ca5bd, 0xa3aaf2710b806ac0e3c4502628f89c79e4c6857481710111a9316e38c7fa5c70),
(0x7407a47868d4e0d0f77f89495e5bbf9588f54a6ffd35d2298ad4b30f2d8a02f3, 0x1250d56296e18cb0aa5b393ea933297edebf3d94059ac1ce24cc11b587fdec9c),
(0xc2d2cce32940ecda77ac108e71544079c5899fa4f8461df6cc54dd21a861a321, 0xf0beb1fa40bb8071928b05e3ecc8545b0a919eaae830db729e6de85bf05a1909),
(0x8cf6b189c50519566a94e1f5ab5e9530d459a93504cb13eb349fac3eade8a56f, 0xbf6a9d7032e52886ce6d06d3b22d47a8327aa7881621338c1606054bcfcf9c96),
(0xd6b07586ed9f84710f96ac5f53277d1e2deeaa2b7fd09d51ece6766d29a94968, 0xdab4d4b4ce5655cf4aef0d0d5e3fa2922f79041ed2e23c9c75be83f5f09c5326),
(0xa720b73360a03edff33a0921907958349e661d3344da800fb857227b0ef4d647, 0x1f213c6a721c2d826037e3a5a0f4867f13d79dffbd44f5b11bb5c0b54884ea63),
(0x558a56983b03c6c6717db862e59dd075b39f9ba2ca01b0ac95a69cec1f3a5ff7, 0x7e07c752db21b68b21738458a045fc60fe3ae869887fd55792ecc6c7d4ffb1a4),
(0xb927dfc3278668a8c5329941f11d0e0aa7c2d9d7f8d6c2639cab555010e14ca4, 0x3ce837259954227bb420e35f7770522572f4d854999af5524b8795c2b723388c),
(0x2b70d4991085aff588e23ed5ab55a3743c35f71c651c016513f98ecc4f0e6da8, 0xdf413b4daa1e5c9ca23984697d82762f0a7014131cae25cd1a94f02a506a8b06),
(0xb8836cdcf72f6e0099a9181d94ba77e9e1368e54a62e11441421f2ef2daefe56, 0x09ad452f0e31f26dcad7014b68ceaeb601beecaa5394c359afa52209e50427ce),
(0x252b297b65f0e23a09788b480f33809aec66b445cd90db004dcb6a80c4af93a7, 0x8cc4e0c43c346211736a3bcfc24a58bf9f77c7d0c53350e806cb0de260916838),
(0x9f3d30ca1c15cc668efd5fa03d6b7bdbd34f2704cd729892aad9171cdebe6330, 0x448b64340f95ee7abc056974f1476171353d9b984e22057b38662327b23211b0),
(0x8225e16e5bc9add9ff8a771b5bc7bce1653b545e4e54b9e66e2d29852fd35e49, 0x6254c5e3aaefa2c16ca4e1de87f09d94df836b9dd100612c7174aa757d0570fa),
(0xa7dcee484d6e99b1b72a80b74de255b1074f47674d3c579904669ca6aad02ebe, 0x1d6f0cfa76a2901f4861f541bef7a948785861788c7c42a42db583ba01c170a7),
(0xa91445a85d4ce90e98d3372fd2c664b89a6baa2ba396fd1e210e315e809976b4, 0xadc4c68b99b072b1b51d1512cd94007c72deacf94e7c5449f1d8387678b1d100),
(0x7462c9ce907c965575c410963510e00f6f6ea6ad886cdc79ed685ee22a7ce1f1, 0x4ffa41c5f02c2299c42df5ac79cc414047a854e8332f8f2ae67ffa20bb71c7df),
(0xd42895f3dea495bdaf8e36bb6a79f234dfd85544965a85065d38ca8628cd4f40, 0x2fedeb1813a11c42e7869b207bb8486c9821710fa80d9bbd59c92ae0b50d9cf5),
(0xef9b6b62ce85588af13434b27ef53d12e8291e6d76a65669c29d99a14d388adc, 0x159f5fcf9af0c962ed907955e91407ca8026125545b6938adb18aee09bbf912f),
(0x4003f1a0bc659dafdf5fb7bdbc96afff92877c7e2a693f392afb06c8fdbc9f32, 0xebffcaa17458f0b028ff1dcb74be865d7faeafa6c2707cc9ea685eb57961fef9),
(0x4390488b6b03d851648786f07486f5cdaa9ae1d9004867debed7036a6ac09a8b, 0x78329de5a10db56b1c35b88a21ddf393452001c129a0bd6e5dd76a638682f07a),
(0xae6da0d29ea3fb66b6006c565dff8b416074ee16f9ff86b960574067abfadea1, 0x74caaa63dd012a63e76f0916f370614e29e3f01eb88b49c05ca33234c11cdac7),
(0x78f879df98614721b7c6565204e806f6035942e0950514fb2fad8a86bbcfc72a, 0x4194e58c478ae80bfab661b7ffb85cc72318aad388d61c68a755296d38281ac6),
(0x806843654f41b0c6d6cd51cc838355dc0352e0287b1c1d1dedd2f96e5fc97e01, 0x8b0c223f13c61b4e1e141a0d035f29a77546bc7e3b1e5c45262033eb92b62461),
(0x29509d9f4fd975f46efd11691d97d0aaf83b59349c79701005cb39084b87466c, 0x1477eb7569a0af96c9cfccbe135e3c86a33de5852ead38da8a0eba6a06d0da81),
(0x191d14433d9c722f0c1532fe33c63a9c4e3d57416ebf799c2d8ffeaedf1dfa4a, 0x5bd00409b6b571ad745ecf8391884eeda5e3c7b665ec9706eae4b4dd703a2cd8),
(0x2843d42ed27381685eed65afeea82bf2a50f0e1e3db201e1ebf8b1591b0155a8, 0x807cea66c0fa9f53b47e6e2c232cb22577edafb8099a6f98ff87d091bbc63ee8),
(0x5568b7b09656d36f5347514b8e8212f8e96ed02d4516c0184d653bd12bc8f644, 0x5b44eba654836dc43fbda30d7ea364064960459ba41289118b2d863850e60d87),
(0x5b84e0e0809e44a69e8d81ab595b32f84a7dd421c073fd6e5f38ec5eb145e803, 0x1a65a2d0fa791ced72fa1522ae4311557e6109c0fe934243cb43d3efad13d398),
(0xef42c56bdd24107147e1519a18d32910675ba84292cc8ede900a64eabedfa672, 0x7015174733359977611e0c254addbf6b26a618a231474e3cc9e7bcd38bff75ac),
(0x48dff2dcb50d4a564be6ed003b1415b4adc653ec87eae94c92b7c1295656eb63, 0xa9be97fb53afecf6f0bc59e98bfad542fa29e63df701f6b5f0f660818d643928),
(0x672e90f5246ad17410c9a2dfc22b098cd1923bd419fdc337f881e4fb4ae938d4, 0x73fd33801fda6db6883e678b31e5f09ef331b6245617ec9e97aa28b9a1781f19),
(0x59cdb9b171fb819c909e094a95dc15dedbfe55214a7cb723ee7cb7614b315cde, 0x055ac212670b4a63ecf3f8e73082009d7f2d38d9e490ca187a6db01be88351a2),
(0x5ce38d0a357a58ab134db879b99994c46b827f828e1ce8f0043108dead2ddb18, 0x5e816202d9c1d86ec2f84b33ddbcc51b94748c671089c9c1745a14d93b97f716),
(0xc982196a7466fbbbb0e27a940b6af926c1a74d5ad07128c82824a11b5398afda, 0x7a91f9eae64438afb9ce6448a1c133db2d8fb9254e4546b6f001637d50901f55),
(0x383cb08479e61becdca81d297796d00f60bfbcc283c83d31725f5329839ec818, 0x26e26fa2490089338bde0498015f34d90bbc3426ad8644ffdb1a190f79dec91e),
(0xe69457312ad4f14a71917b52448011df28b88c9b6ac84550248ca4fd102f612b, 0x30ed208251fc701e5ebedddac9eb0b44c81cc86f9706889c1b1c33864d76f53d),
(0x2d0071ba8f799352212168d21262a729250809f224fa58a7f283c4c6bb9976f7, 0xcdca69014e4873f1169455440800079dccc118f1a5709b03c872b0175f1dfd8b),
(0xc82b945765b74fbf91cf35f0679877b9da35c2b08437d7898d748f22001e927e, 0x2e504dd10bb06bfc7e057dae9aac8f07b57a0f2a39b1533d9313d9f2045fd6a2),
(0x9c1a4c2e7eac21a9fed135ede737dd192654eda2fb3a422763cb632875bbf0a6, 0xf3134b6c12f71c58226c91289b7b5a0680eb6646e9da2e6020008efe10e9197f),
(0x971d3d9bbc693222ed8bd645e80b7cf99b170a362d57753b6a2ac27e8d6c9b28, 0x0d63d49ae296dc2c6c4a73af7fc5e86de2039433f385898080a36f7f91d22e2e),
(0xf5493a7386bc115123f29f2ae0619e05660a317abf5ac23fa67802fa8b917d2b, 0xe6adbccb8b7805302b305157b427b8b538455e0280133e239642306e65e0f1d7),
(0x831f123e500e0a0ae497a3215ebde2ad763244fd40b386dadde0553799b6e014, 0x356168622ff588ac552fa508ceef5ef9ac04af0a9db6b950f44719c8cb221d6c),
(0x9b8ce06d0018474c3394c3342ef385d67a338c2298e92975f1728c87897cfb35, 0x76940220b8dc3e047cda50c4c1f5374707ce8757a4a3731d712cea0542a40d72),
(0xf70a916ba98d2bc96017241042bf3e1414f06cad0dffa7cb1e8137a73fc5b855, 0xf1b8c1f470d7896ff39a3fbe997a88f3b5426d8443c4023fff98fffb280275a2),
(0x2d2ab7bbc44e7fe4ab2836612f621d05a64d6909fd94e59992d52afac0763d56, 0x53450e002a6991c868fe044e8b61c2d3c5fec8af3605728ae57d32ccc55328e8),
(0x8178deb8c516978cea25423f3a913157321ff7c55d8058f3dc9b9d46f4d10005, 0x16a71b2b46c9d303f4ae6a28235249bdf9c00146a26b6bfb5983bfb68d6ff4bc),
(0xb470bb76d012ba7e67ef9c32add5994001f700ca1600301126e6a69236b56a64, 0xf7d093e07d179861871f36f158d269871775f082a2fbfa6927cc2272614fd95c),
(0x164f2aba837cac1219b48eb330f02141d3a899211cdb3f78fe17133fe2de29ce, 0x3bc0560895f7d0344a9ec79e0b821c06c2837c50669251972c076374871d28dc),
(0xc77a3a0402a86d2ef512268b35cbb89de6a210ea883e2283ec59fec512e725f4, 0x2ebcd56bedf1a07fe587e5928ed602b36d1db4e25b49e9148dc9eedc131cfba2),
(0x0e2defa1f714cf71557a3f1d71c6abe811df55040da38e9f060ad33503b11349, 0x5ed643037a53bbc72f41912ea657d9440c5107da3b9ab54bd88b545ae045f229),
(0xee2d12cbb4cd9e4c163fca1e5a4330af35280ce9cc1d57b2d2112443b6313e3c, 0xe28b1dc1a4377c65838ecafabfffb6964057fb6fdd4baf0849f9223aee153262),
(0x04392c9673e6decaf3c39c34f5be7c3da2109b452271467c78f256d67d9e28bd, 0x7fe4c183ae352533b049edd5343a6bb4747d63d7d0f406fd5902a88600110c50),
(0x5972e2ee167374ad93a655f16008f49a0f5586b2f81197a6712ff31c0a0d6960, 0x6d70fc55d0a57c748a2e485ad903bd72779343fc7c090847bc3dec1a6f7c71d6),
(0xa85d800afc2c0315889f1faa29e5766aa180f31a400e3c1985589af0302c78aa, 0x7429d7f4903c76a0a4437b4192865b7aff5aca7a52dd32a508f8b00db97ec85e),
(0xc9836b0f0d594fcc9a89e85d7d506386ccee3f3872759cdc9548569fa5f1c245, 0x9f0b192693b7fed62f1a7d06fd716727bed1c2c59bb431ed943b7082d094fac0),
(0xca2184fdb2b84654d0348e5f6d96319375f2c441ae64622b588cae7fd202bd3b, 0xd12228203d657aac0493dbb2fe9729b9e2563cc81f67162683c4f0fd726a4de9),
(0x9e0515c63c9b96640876270480605d56b5dea0ccc7a4c66b44a2e60536941fd8, 0x29de3224a2eb2d86afef789e2dba061e95f0b762117ede506d4b21c954be831a),
(0x42042c2533203a7f0c22cf7afa5f3d798a3447da51d66f6053a8f000af5dc1cc, 0xf075a67a6d6c3872315420d50bc13d13c54f3c1d61f73d9dff688da7f5e6c05a),
(0x6645a1bd4eab02be45884ffd288955fe3f5a68ca9ae431bccd3967c712295b96, 0x231f79f91d264ed428ed4b30f0e92c4cbf90286524050b6730cccd12bb84cfad)]

/-- secp256k1_pre_g[768..831], /repo/src/precomputed_ecmult.c:804-867 -/
def g01_4 : List (Nat × Nat) := [
(0x4e281e6d2c316e88231482ab1587de376898f3a8870f475f30bd1ee8d4b32f9f, 0xf48cadc81c119edde5f78062cddc3416c3f708d5f37e491011ef7581c065602c),
(0x7723641496e41e9ff13c7ffbc7a662034fbaf7d3e432ce02fcd54ef04aaf5136, 0x222e01740d6cc01efb4b4bf29000f69798bec7a0657f328c80083074242dd218),
(0x3f2b704c8d467859ada6070cb122184018ab009ff7b5ebddaf31d9770dd45860, 0xa47167a5146aeb5e8c38dd215d61a2dfe2b6ab8bfd05ea9fb59faea83b4dd88a),
(0x794ec130d243d8112ebb70f035f983db84b3acd0ae4c5b51640b9e92ecad4146, 0x49edecbe95c25c7ceeca537f937aef5c658f2dd5d8c0de71c80777aad07be84d),
(0x750ff9ece363e12b79b04cf4a7b1c0b149c554cd6e9fe3ba808c961495a96aa3, 0x5a28269dd1c5a3edf4e70f149a060b422d4474bf1e4c6dfb2de1502f7a1d59a9),
(0xd65c05d7df6668ecb96c9ec1fd129462263b082c9b7f41696335fb2ab66272cf, 0x0d7728c51c10d42d242cc5b7fc77fdad7e48be066b2f7c37891ba4f0de188839),
(0xd3804cb68cb2e9e9b5b9d2700db9a172aecffe3972a3d2f61225bef5595190c3, 0x11fb350c9568648b30af4131460534282879023e6ff0d613482c2471b5e30d5e),
(0xf762de2635c6349f6cc95c619ecf8d376a9382411106db3db34e9e8470351bf6, 0xdc67f9e0c8a50f9ee753352da99112e40ccfe22d3e88410b1cadc0babc9fd814),
(0xab18b4bfa827ff4b17ee163ed17e3927d7dceceeba87ce7dac5e576753b87a71, 0x6db83bd573e40926c882bc09c4d07f7229706d1cd2b1ded5b57ea9b92b0da919),
(0xf754c248fec21ae8da343a870459622ab12478ad8f63ad8bf5c666950198c95e, 0x2cfb76a25f9c8776b848d8e67f544774e056ca7a32bbae5293b279926052b1bd),
(0xf8d9473e3c3f0798f893ecdb716bca16103516c31341c8e2c2462d4f9a46c51c, 0x55f0065fa422fe3a26b314dac75478355c53bd3be11b46869e05be92d7924e02),
(0x08639942d294cbc89a75fa225b29fda92f7c5ab4bfbc4395352d050d754eb741, 0x3913ea2a445de35a36d79abddb3ed7cf741da8834cb81c296779d8a9e7d11e4d),
(0x2a588c6c706a388bf1719230b5a71b4a06857282083aec61794d1a78bb95d5c2, 0xaf25ed771a56f6d96407f07ea7e11f9761f458aebfbb1b0096842c4b6cc47592),
(0x137bd1ee8931b9a8b26dba4ad9a5edb0a5459717022e1fe337ee8d54020a0cb6, 0xcde9fb7b8197c77d273e9f0ee87d76a1eaea105e21154b7ff5848a3017ceea62),
(0x46580345c686313c9715237113af2c2a0f9b5feaa1e0bb48d21bbe32d2de2bbf, 0x75bc5d7bb6329ffb2bfbc79db66f4c2a7edade8ea16bb0510a3a8ee9ec92ef64),
(0x4a149252afaf5acd982fc491c26af54502ef93d61b282a8556d5ef64391bd233, 0xfbc100bc10b55b6096656ea3863f5d4bbb9e83fc5a25e59a3b53d78f60cfe285),
(0x894ebda6fc0bcf8f0e0251313475d64b95bdf0897d9753faad0f92f215a01f18, 0xb25f3150155772cfc69d025197d37ae01e4ede02e29943779fae26cf5f5ec056),
(0xe70d8a930a91b89130def1b2bfd720ac2deedca6f9e5a85a3c2a6eae45eb032e, 0xbd3aee53a3b0ff6b45fb96ea4911cb02fe102681878a1b0a693fdf114cd9f9cc),
(0x7cb1fdc3e5ccb1dd4a16765bf9546b6a1189883f135d447eeb245fbb4eb36852, 0x090ee0d6becf5ff7b80edbe175dbf258d1889008a8fed4e01968e2ca8fca582d),
(0x51278ad80331da178fc90a21432b9058b39f57d031210685bf9bfbc287b9bfc1, 0x05aaf547f39ce6788c3ad759b25db3e57bc1f9e1f75bc040536ddce9d3a66b6f),
(0xf0eeaa1fc52b306848b5630822fcf0f30fee500854e276cee9fe990454f59cdd, 0x090ff89b944d70bdeb5e5e016afbeb30d51cf7fa81182e63ab3bb2c9f2124f02),
(0x36fc9bf28bf90fd2613670c227b51c00df5b4caf252b5df6648ddb6b03aeea71, 0x887c3876f1ac6c28606c81614ddbbbe7d975ecc69fd9075e13d0e3a3e7836683),
(0x6e31e26b0cf9436ce14d2d041c29f62e135c549d5e65bacdba4df2a89b91b68b, 0x023896849e63bdaab5f7d9f77a778b3194c1af87d09a9a8585896188acd0e7ae),
(0xc5044649a4b1c2bfac6a8a1cead33aa03da9fad84f742eac357926721d98e864, 0x6d2602d283e696bb717d13270cc1143b45fdc84db8d400af537b201da7a1027b),
(0x0a933e71f13c44d5bda8e963b5a007bbb9b2e84cc45211e6eca804ec6a99ca28, 0x931bf3bcec45e2f6e657120731d42fdcc3ce0279542114f5c1c0f659f6200faa),
(0x9003f61d840c2d621ba98884e117038b0b8559d0b132a1aa83adf65df8e4a58b, 0x50c75124f72b39529feb7ececba268541388a1ac73631532b67f56dce8d30895),
(0xfc807c183cb370cc8638abdfc17281a6914e21a9e9f3e2c533fb7c37caa0a886, 0x3ac79d3e75ac1d5ba9af72639d5642561ccf6fd06b8d2cdee9d24a1be8af00ba),
(0x3d072ae4aca4ac23b43b608f150bcd4bcd780dae7e4073c186293ccedfee9cbd, 0x06d9e443f721c9f8a98fc563008d7627f9c6041467da385792fd55d27e65d9b6),
(0xd0cb85947061b4a7d2bc5eed522faf8bba6e26bc7acb1d3d106aabd9a7f80dc0, 0xfbfd0f26e9d0dcc1a0107b82d1a9876b8d7562f141f0892c9b739e477b012e0a),
(0xe4edc0ab6416c6441e59f46cc7221cc0267aadac242cee3241a6d25b635bc9fd, 0xf41c3ae9cea7b4c404834482980807d1c496fd4e0bb06964b84c1fc34fcdc71e),
(0x6233b50b2d3d91018f5a83c884be0f5effb806411b0b5271557d32abdd7eb4b2, 0x8dfaad24ffdd2ac25770f21e328588b1034a3a2bdda403997911ef19855dbcc5),
(0x6ca00162e27265e227b4e5447e981f6bc427e65ebde295df9434b7dc52a19ab5, 0xd33f5f63a8f227e0a43fe297babb3a07223e89160e153a5ce0f57e651154cce1),
(0xc01205aa5d2a8d5dc0d328ae7ce7cb16d6c9d9928b6105b3cd68666e36fefcfc, 0xb65e5f99c4f48095e1bd6f6f6af8ba7ecf2988abffa9bb453ad018590e831d3e),
(0xe39653930e6268cb61d6fb1958050f3907b8a5974a6c4abb4e0b78d2dae0e155, 0x1f78ad462ed6e1d91800489285383b2c3f971fa5cda0c828a2f289bf80731737),
(0x27bfd0f3702a9d430050c1a69fd990fd3dc03af850bd84f8012482226cb099ce, 0x22e16b60e8caaebd19b0c0bce40be7c0c49fd3f0d9094f390fec1b1cbc643de8),
(0x8210fbc0233195659eec177712997a892a37172c6f75e3c6cbf080a06f96a2f0, 0x1ddd7792101166cbbb11d55285e1eeb3bfacbb256d1a509716dea91e46afee8d),
(0x15cc66b65fcbbd80df15298a25e2ff80ae4d5065f8befab089cd21a74e347b5e, 0x944b47e935748296deb324c9f5616d287b225b34488fb34b6ddacd3207937c97),
(0xeb7b7aa2459601691ea1a482a9e6c35ec7bb08fc726c2c4bff801ae094c97976, 0x4d2e9570cc187791fcbd20e903f0656af5596f4e0104c3f227c23f822ed1b1f6),
(0x4598fafced29e844c22436e0996a846918e7c106b40a5ea15fb0e7df5e9ba12c, 0xe73d96b6d292ea2c39779dfe7f716609978a8555e5b096297dce228ff35e6093),
(0x49835a863612e594572a259176f90e18e57d4dfc1910c7058e37eeb31a8600f7, 0x03b7613a0fbd2cc1cc23b147e0e80d36464c08a2e488d7b98250ed37dfcfa531),
(0x3a6d6fed1fcc806732a3177b04dbdc333cbfe0b7d19305b9965916f7ce335351, 0xcc3f3d8a314d617f148a6706d7f1064111eb2b561bd1dd0df29869255a6624ea),
(0x212085866860fe30ce92d2efb2035b74f672a024ee7baa78fb0d6c7b3ad7a9f5, 0xaaf145be0051b1ec3fee8be11f6e9d7396ff0ce341f25d7ce1074a0978bebbb7),
(0xf819132ac9bb2f09663d609c51cb11b9833ac0826ceffcc867cda04d266e4e06, 0xb1fde638ec6a305caaffd1a06404aeecc52f48ef7646abb37e2272394c891de5),
(0x536c05d88786640c43734d720aed62d9168385a1213c4428423a9437c2ec009d, 0x7f4be100d827de1868bc2b43c83a08c5fd84ddee1fa9ef134b489325db6df0d5),
(0x4328123ec4c6db7637ee3ed342c8a85909de2fb1a39a24bd650b73baa1df722b, 0x81c002ea01277753e6a22fa71b4f86f54ee11f100f5d5b1594c9d7e963a40857),
(0xf3e156fef852995186a9e53600f985c16a85fc32d50e9a081550da68112a5f17, 0x91ffd66b56ff0e6f65d67e83c362b853a2f441ce7418d0915d5dd09ab48892d2),
(0x32ba735984e13f42d2e8a716a54c40ac6645a1afeaf030e68242a8d88b456cc9, 0x67ffcf1e1c32b150a82ab3178ef24c93f055765c9e7e6200f868b183bcb4c6f5),
(0xcb9c2b3a043d105e518674cf64d8b4aa9c868b9318abbdddccabc0ac59829311, 0x1fc67ef2233f076bded3ac4799c859d1834bea5fbd2bd5db242607ee842b691f),
(0xe14f2858b7bf707032349695e09bcd3b5effa957abc19e856efa31bd2e9234f0, 0x3e04e49dd3f3fd39883cbc2580d5ff06cf8cbf0d4a895761f3cd15e4dce08bdb),
(0x156beb7b1c27b8e30cc78113c97ff02674810dec58409e010d7b738887550d82, 0xc711730a80216ec8352adf2fd59399913a8e92c60c16c17b16e27a9190bc5371),
(0xde5ea7e6b9b468644b80e4959a2ddaa1a24a3399f80393557b798b5b2c55d600, 0x8901a027e6a823d2dc0a9d24e182cd52b9b1de6722b7f7d53a03c6158cd48ee8),
(0x8eddd3688bfaed4625b7312e7b2bf0ecaea07414a1281adeb79b9e3fec17c3c7, 0x2db43af926171d34d5ca48a89223e57b59b885b15c4f72316d8edb6c7955da7b),
(0x5c971b6a665ad1de8fa489ae22237ed987872e0fef95eb85fb2ad3d7f0b1d4e3, 0x4d71f59837c2af6f0af32ff742ba01d9aa8d4d7b302d39a6c4fc693a5f8b1f66),
(0xedfb253c28212b6ad5b66589a2a8f1cdbd3586ef3425476885cfb70a46b9e228, 0x3e5b6608b7e81f69b8cb26b84f306292594e42e025134c1d7f7b2a24b2616c00),
(0x4395f24ae127772cdb163dd4e22574bbd2373cc6b2c67384737c56b7dd525c13, 0xbac6e7254c800c2c64896913df739574676581dc01b4447a819be64c10103526),
(0x81100ad573a766b7f8913b64b5f5a87f8c7823535f62a3eb182f0ff1946866f5, 0x52cac16e325b08999d068f7d051dd9d5c6afb8ba9870a9c9d28b4170e9a00c73),
(0xfd3a0551411681466ae358c3aa14216ddee3a05ee5ddee407f72347beb95120f, 0x2af2f30d45ceb12ab89b7b88b7e04b2011a3c60758ce7250e4c7bcd3da8ee5b7),
(0x17a55b58a7eceefa3ff05b6dfa17d6c276d1a032abd198fa4e3fc3efe6435ff9, 0xd7273958a3ad67c10fdcee72e71f0536418f35a457e06240bc99bf71b9574d4f),
(0x870cb7b8e2ca5ea08c5c73aee15e8b22793fd0055ed7003bc49b40893b789b6d, 0xc33c8b407b701caf26d7a9bce22644a904badbecad509cc6a7b0ee041be67aa3),
(0xf951c5fcdc46ef00adc53c89a50ca0a7ffbf7c36d80e48975452cc1b4e71f8a7, 0x6ae2f8217849cc2430864d7d24df9e59c1705b925792e64875120738c792c95f),
(0xaeb8077f3b92c676ae11bb06a18ada3f6cbd832a1637ed6131e4902c96a0caf1, 0x29f41d1df5d4a43094e75fb98bf317ff6c8a6d7d0b37ccfde0232e1eafcc1e35),
(0xd46f4d975d2f2e5806d18a7e5d8587c38482b78b595de60cb9d2035f313b78f9, 0x95d781aa3bdc1176396154ef031fee42f704e1994316e33c1053491ae86392f0),
(0x006afb444b4bd89f2e21b54ac49b9ec3af810b9773c76eaf4f3a5f1c7a29b201, 0x3502901fd7d3b4ce134ed90d1388ab3764db460d0bed334eaf0618226ebf932f),
(0x5f02e582a38b1703a7bf60869587af5de6634954cfaf83940932f7edebd86976, 0xa0487cde92f3a796b24b06bf740b8fe2ccfa5d0ca2b68a7def46a0052d7afec2)]

/-- secp256k1_pre_g[832..895], /repo/src/precomputed_ecmult.c:868-931 -/
def g01_5 : List (Nat × Nat) := [
(0x2642748260432ced5a07b885f354667fad70eb759c556e33c6652d3a0a0599fe, 0x119238fe2560382fd76ea7379340453ba63867cf6e044c62949f858eb828ce85),
(0x6b2a3e5ad327adda52b19a7dd5e837ed4f03a5a7e1e5b7ff2cd66660469f91dc, 0x2f9f452606b482fa0f3365601da9e945354ed265e8d7e57a22f04bce8a54c6d9),
(0x2588b88b7e214fbaab10934ddef13e8ae5fbaf77d7497dc4fcc0345c435daa79, 0x3e5cf90bd3ba6d4c8d7f142cef1a51da61ca644facba35e151ebc114c5435bbf),
(0xd948414692852eeffa8178b40a01404ae4e3d846c20c3fcbcff5cff9de551a93, 0xd5b0fd7fe628c427434a12196ad9986213ea0abd969864ccdbb8258b96a6d5a4),
(0x5cf81fdc3a2f20870cb64b1c9b6f47545ccc1e7867cee5eb9fe9c4ea3b0de2ff, 0xe0b0ab1cf6bb8e5df7ddc7005ec73471e7ff312500daf1131b78fb8c15bc0d7d),
(0x41b4ef7eb719fdb5704b3f174132c694f8ed24711677a3203b866660dbe879a7, 0xa6fe65b1cbae2235cda8b459eeac19a49f44c2aa1c8a881ae12093b83621c85f),
(0x43ed572c41f691e2a8dd169186404ec87a4c0a3f406f3bdc5c2709a9bb117af7, 0xb7b9e1b890b403346bacbbab7be4d47790a2b0930dafbac3fd4d2073fa481da3),
(0x4e010a19223086a6314bb52602f1955e81722b41e85fae421c338e461b397de3, 0xf0d3f11c03475ed844876e7b3bd0bb8c283b44e370c46ec4a6159a27eba65fa2),
(0xb3609cbb7fc86bcc4dbc385e81edcd8445e15d2a7d355e2241dd442fee11f36b, 0x8607e5aca3df34ff804017dc977bba88c308911aaa1698e20e6190c8dc9c5f68),
(0x445e60b20543fbd37bd68cdf6db1125ed1bdd6b6b27249d1df96e43edf965b4e, 0xa5fa458a8c4ab47abebfdc7cf922e713c65f8b52287a65b00b5dcf0bc7715fd1),
(0x709f82279264c99f86b59a7bef14c189be875b49e00cb64cf9dbb64310f50fc9, 0x168027f0cd28d2be8a69064b468e4de53d4903fffaaaf62883f1503158960d10),
(0x62aa200dcbd1240ba252e725a333f21c8a2e9d5efbf18cdbe1567ff929fb4ba3, 0x19aafd6c7017bdbc4b906b46843e41ac1ec3282b12dee1b7b18e3f289e0a1347),
(0x2ba739588ed54646fa9f2389802e2ab9e123987fc881ae11f38f10acb882c09e, 0xf37daa1c9c0a98aef86cc45d34801353d8f8a19377518423721f3e12375a25a6),
(0x8672b9cce8fbb69aae5c0f549b59dfe1e266e9e03592a39707314e6f79005de8, 0x20d8476aefb61c79adcaac680fbf9eaec411e875a66b5aa399a97a869b05af65),
(0x334cb0028420299979fdbac105ee5c171f32bee6133300eda26571e8bdab6ab5, 0x8827d99f3da7878f46b45bfd579c5cb8e4e972b649d6438d96e5a1885aa574d4),
(0x32b30e07d260ec07354cad6a2f64f81ce9f25f4e47bf1afe602f229a35ac6d4d, 0x71ffcf0d64ee90786f2904181126c44e5c5e3688f3063941856608743c3c0427),
(0xe50996587a4b4e6343e401ff299e9bfb3b5ce4025c38fa050761e600a39a8451, 0x7b0382a865429a8694eacccf5c6b3380683a391670fc7241f132c465b3bb2ece),
(0xb3872c4c2bf539bce0aea0353b3d786dca68412129db66abd316e930e5d6477d, 0x07ce04afe4c8c86f3b37ed1fa9dd416159391c7122d0f4f92424d0900901e285),
(0xd2b56fdf9156e3ab2e414d9649f4c41806095e74a2df8908f3b406de9935d07b, 0x443c2c1b67668c56a84b4925946a8e5fb06a33af371552aaadc3b500efe3b23f),
(0x0f69867e1074c765923f32e1ec9f41b34e8288fd62b0a08115db15a9f37fbacb, 0xfd6c6e252a11a5169ce04c6ed719c22b68709be76fdd0e58cd0505c6413fca16),
(0xbc1830b4a9ab11c1ad8778c8688fcceccae23898555b657962670d8ab9e64988, 0xb6244089f3c461331979a0faf3d0c8f28e95cdcb12db9ea5b6d95ac4c22e3c81),
(0xfabaae21dc729fda98c4bbe83cd5fb92126cfa1ea21f43b7445e4b47f38dbafc, 0x1b56977564465832c73513b3ed6aed9f177ce1bab2c09fbcc4c33600582d8cdc),
(0x933861014d5d4c3df912497ea248d8e3bcd3fc03216dd57b5473d96d791f8bd4, 0x3d8fc96ac141163c4ff3add544a6ad719e57f22b8e806d951d630fa36c936725),
(0xc5312d5f85c4282059546b8eec6b186eda0a4324d30147f2094a83fea6fd07f8, 0xf8ae6e2a79ba0756523be12c8d544734332898e8b35b651bedaf806c45d2992f),
(0xa08f249652c52f406db75c4dda022f41b73b112811aa7388558480b5f203b057, 0xa396c7de9ab5e1d95e9aa9251ecfe3ca191d7a2537c4cccc845dc7452f3eb2e5),
(0x93d5330fe8df6fa60a74b34f00a251a6a036e0b589b8a05bc525e4bd40f634df, 0xca15faea10f424e55d6774f77c87da280c4df5677d153a08f5ac560b71838756),
(0x04622bccdfcab72be850a9941f6521105c35b8130f05a4f617055f92aab51fa2, 0xd960702d31eeb256d25cd245695b53c8e883d2a460965a8cd29b41e9d7ca2d4f),
(0xa326036c7dd885d994ba58728138c30d0fb6c83ed17c8d8807aee086e0ef9fe5, 0xb465ce693719a15531caafcde7689a17456a6ce1c75e5a534893cd6732cb9bf7),
(0x2354417e19637e7971b0c887bfa5c553f3d5e7a984a6c946b1d20b5a7eef77a5, 0x815a9721b6ead3cbb254fbf99f34f409ea7400533cf4ed4d2169f48b29f4bd4b),
(0x9d346d6dfc53174f5cda746b023810d73a407819ddd5df9f2b07cc8bb7ce6fca, 0x9b6cc06b64293e5ca55a8ff9f1e905514a199b03df08e9b98512b3579776c806),
(0x73c82b8ec643a7b7f95f000adebe210fbba638b405508564bb5a3330fd48dd01, 0xfff15699a0885c61fe35f61b84cb2bda7d2acf5cdf0d6f075fff13690805b614),
(0x902469d5a0b2d5d1cf93167288506b950f2d29bf6ca291afc9b39cbffc798ac8, 0x0356d011d71c769d342378bffcafe4ffcd78addbabe8b0d4fa63de891fc3ade4),
(0xe670a0fb3a0c86f053523afb819b8944dc4013e9fd500371b1efe23e1f110637, 0x0869136bcd13dcb2157db5a3d07e59ef272557e09dcb250a9bf659df260b31b8),
(0xf3fef06d526581e6b0f68e270cfb9cc9b57f11e5849545fcb9ad3d5b8a05c395, 0x32b2e997144420ecc4c45176efa5fbbd570752d104b092f4ff37554419b8f553),
(0x72a376633958d844560fc28a8cc19d88f942c09c471d2cac70ca5d39396a05bd, 0xde9b1b0e6e121070f684b3b8402e8d8d729ce8460d2f7ba8503f4548735ee1ad),
(0x38b78ad9c43b7def4119c3a8190cde684172894fa84cdae22b637bd8805300b0, 0x0a1815676c4f5f5187204f175bff32e90de7cc69dc851c8423de74a8b3d01e6f),
(0xdb968ac81d2e7c536c66fac9e194fb23540e2e8908cbd3af68e158ff2b34752e, 0x4d5c57ab79d9972bac6b4af0a634727104179e8efd14c769a24e5a73aab48a0a),
(0x2ace16792d3a4d8371114f28c1ed35b2505dd4f997c72435a145d367a8aad318, 0x5314312a246874e4cec63b87f685f6d10405b0efa1ae3539cc88e73f3626f625),
(0x32d80e690c390deddb8a4600862727c4bb1fda182563277e852f93af3dbae108, 0x03c7d96fea89d06a6d3cb3f8181f7cdbbc1c3e123d9f1d08cbd557a960dc7c07),
(0x3ef49e8ae7fe6b40628e61a2945db3cbf1bf050de525d521d8e8a40876ee3908, 0x4381c75c62f45fb24d431b54d63115af3ff72d2758c3c92bd3d1de0801a123f2),
(0x853808d5cdb82cd039b517d41c88d7b00e280ee659e5c6405aa275423c9722da, 0xc1677c449b2a9626698a652f817222423ed18d0392d4200fb4dc229f5f7e8f5e),
(0x572fd483490c05fe857520bd8861fccb306ee4f329adef4958c1db781fc8584f, 0x82acc90610392302cf0107c06b3b6194d38e9155b31ebca0be3000363413f4a5),
(0xb1cbabb29aa8ca3175aa9a2dd4d956e4fa771344d459248138c93583376e1386, 0x888cc0f17f9afdf06ba1de03041409c1265cb2f600c015fcbc58d2dd66292ec9),
(0xf856cb92423931347580a65a149a6e812c5c960d670701a16ddbbb982f6bab20, 0xc33511ba192c00e9991f580f65c111df77d9d6c2d5d63869c559501148536674),
(0xe1601cd4773e129e2c042887b56bbb3b9eed92fb6c128e230fffc3a7ee73920e, 0x180748c8a38c7796ee247c7149ba1fcc0a78648ca0508ec96f4a016f301054ca),
(0x98ee20d45ffb61775ca206a5b0cbf1d8e8b37cab97489534a98928e3367c7e72, 0x2df4ace1ea42db5168ab5e6e88fc405d854b70e04521bc306978e4656273c610),
(0x4796ca57acde905a31dcfe95bedd1e135417bc41f5acc246ec0ad4eeddfe179f, 0x7413f522395a3802b37637e59564c2395bc565a3463f815f8ff962a1f0a367a8),
(0xb367c86438adb0b8d5b627fd56c7df9fcfd555369abbdd4006c68bdd1a341200, 0xc03647440b99e8167982f36572268702b4986cf5c9c5749dfd22499e2e8fba51),
(0xdb36884b723ddecf7e2244c0020de844e740760a4f27d386a747f4a788914d29, 0x8ae487cc2a743a3c2a1e07507def0f2bfef90e24fda0e3b40e5f33337d79e023),
(0x65971818f71c212ba8e4582131eef4f976b4732e6c6c3123ccf5c6a099a316c4, 0x415f6791353350d33b087f3913761119526a2831c70375db4cd07754e13604db),
(0xf2f4eb3a13a8f4b242182a6397eb6cd99053903f961a1338fcbccac760ebd65a, 0xa575d67b667e94d720adc8b74eab8ebc18811b3f3a3bcb6e7950cafe08ef9ca8),
(0xa24e7a0da058f0c63328fa51fd3c927f884b3f77cc068a47e8c6b4d31d113a49, 0xbe8db83079aca5699eb2fe3f829719d50bcee615645e4c81a9a7212f450ef78b),
(0xe59a3ccb77e117977db6cc325ebd598142212da748f0a4b80981db7241efad5a, 0xa8e07545fdda2668cc0a10a22389a2d8d6903416a4a052999d4c2d4e04a800d9),
(0x3191b263a3c70be5bec721f93dabe9c9fc6c1a75aaa94e9f0daf6060fe4b8f32, 0x339192cc1c7a9bc72a9a87c4ea3cbab0c7af7b2753e74491717b1f995df38a96),
(0x63dd5fc604f9ddb08fd47e275e839b2012f408e53c1394638b97874f9187023a, 0x1af048b402e8b7e6d456cccfd12ef7ef067e09104162239b84f35cbc8504bd9a),
(0x0a92e457cd8312eccb87229b7f751c4b2e1d8640c2b8e5c12d3dbf4b671bcf13, 0xd7aedb565447eb5d184492413a07d672be46ab4f3d5b4b3f551f292e5ffba768),
(0x1ee6b970b9e09d2202b20f0214f00bb44789f55e585f35ba6c0dd6f839b10495, 0x7c910feceff9eef5d1a3c8a0462528859dcf73bbd4a0b2be3f8d10e0dc9e9462),
(0xb19c23b9c2ac195705328d7c43d048701abe9e9730285cebe4fd16598f06a76a, 0x79a811bec07c8b706f380f8cfe369e45c605607cd08c8a492745b28337a38398),
(0x3c20db9f9ed35fc27c0888f5e266a4554f3fbf98b8b2a016b1e9aef3014f49a5, 0xbb3ac2943f29e63af610815a4a1e5a129327c1b5ccf489ea7d8950e35bfbc4d5),
(0xfd1ccdbab4746e9e44eb59040d338244efa29ffc08ce8014f6b922c52eea4389, 0xe106554652146f90fa52439fc43ce4eb73961a5210f6c04097a820329a8df06e),
(0xe30fd18eabdeb8a6ef252dc73c2b0d7583641a298db37ab51e2da0999b64020c, 0x496636721824f481962bcab86716eb418e195d296afe9704cfbc24c128dce88b),
(0x4bc1f78926ddf930e1aea78483a9dc095cd7230005540548e6e217e7515bda37, 0x966b32b695dc1b008dcbfa2e734bd9ab36d8a26c2a52c47163a4cfcdd200ca69),
(0x23d3e27b9c864b8b40f0f7d26ece9bc49004f98ed46b539aaffffea154f036d4, 0xbe4617ebf680a27ccc4143d6ac150d51b3dfefbb2892a6c71b36c7948ac0b05d),
(0x28adcbd014cd3b70f46e0a89477b5cc04a513091cb6c1aab56de48943e6009c0, 0x7c49a83875204cca38f250b4608cfe4c25040dc73ded4fdaf4a92ccefce31601)]

/-- secp256k1_pre_g[896..959], /repo/src/precomputed_ecmult.c:932-995 -/
def g01_6 : List (Nat × Nat) := [
(0x776084b8a86f0823a5044ab870d84f60ea52ec7ba545ea0cc86f219f1ca29d08, 0x60bbbecb1048d250b410bc3849e567dbdef1727258570b2cd0834532581c60db),
(0x45df2e0ffd32ef4895d9667bc6044951e3db94b9ed6af5fbd4fe1e7d228f2350, 0xa732464b1a8cfe0669e4076ed4164b984de155cb68bb399473fd791863eaf095),
(0x6904976b46a5fd1fa74bff80c493a2fc8ae9bbe8783cfebe7f69f0e1be7dd7ea, 0x19d071b8df9d143606241a221a00b34030f1df455e66fcfd5ad621aeca2c3e64),
(0x849d8728f977d075a8de805c8e80980fe01def351ee80f0bef528e8529aef659, 0xd84955c46c886283b9d7adadbc069d0d8042dd9aec7246ffedf31594ae5bf428),
(0xe3d64b4c234506e60e7facec8d7534ac54588dc7ea685281e27c6746472d58eb, 0x4a32ad3ccf822a8474447baf68aea59811a9c8394c9970efbc61f363ae5a36eb),
(0xf41c792857d15a3119b6f1323b67639a889877aae9213ece0c787d535463bbaa, 0x73cfcd0e00c84c554d007594152d9ddc630c458e7ea456d07cc60503794d9328),
(0xe1d21747047ab84ce47a4a02caed939f0e0cba1c41e7b21d67f52fd779186079, 0x17b0b628aa4bc0a3ed9728a3e24a8101fb26da669ac92f63af81aafe7db2b668),
(0xa8a0018af8f867953189da2dd52b4db05d7ddb4b8d290c8095a8e7dcd86ef1d8, 0x8bb9606c84b88a1edf980c7e9360823e25b927d79cab4c17fc8aba7d6826518b),
(0x7383c6716ee05e44daba57c050ebda60e4e0c0e13df338f4cd8d627f736fffed, 0x3bdcb9465f164a74638cb973fc77daaf38eafd489521cba004ad896c8e89f0e0),
(0x61fa7e1c8bc8ac9796be6431208580631ca36af40520cc1e0858f90bad372dfd, 0x3f0d676836c3e69432287909c8841de0a5f646b094b0c2078d634486c3eba33d),
(0x86029e2bca0ac60199092defcf4882a8b4f1434943bf116d3cb310a3b2c4a740, 0xb8be906ecd9056f0f3261cffd12216c8ef5f1553dd70848015463b7d241c2f7c),
(0xe172f7e5912aa487589d6c4cd0d6b9ab48c4a6b05fc5f90e2f6474c04fad95cc, 0xedbd23c12b0a0ed3b899920ce8b64d7d0d7bfd795009c290ea0673dc08acc401),
(0x7986ba8d322efc248b7b22abf838de932d931c78cd6a8616d1f37dbe32873494, 0x693eab224c750592319b75440d29fe0c2420a5d3d3b7e01ee6ebc96812a13634),
(0xba5941384a7276737600a6d88d36b133400bb5d36a8a9d4603e8c65ce1e00383, 0x746f4e28bc1b812b227fc953531058bfd9c685452f6219bd86799dbf3c2ce557),
(0x45ff41c992d6b117c86eeb77bb17789f6bf96cd72cf0c6b9802af86920476c8f, 0x9324f5bf6422e3ae2010c9e1027167d84f522e8687fc95cbec3d69722002b59f),
(0xbad79e35487a4da07171c282e8666ed4d00bada4d9576a7d9a93ecc3c16ed68f, 0x19397a2eefb184a431a02e1291db0cd45b1535179038a9207a6d50dc787b57d2),
(0xddfe21072d8875ec60c4d58359755bfc22cf890dd3665b79cfa403bc9e3c8a41, 0xc62bd917491d0a8a9215674c28c288728dbe0d3f87c10d90ce22b608473f62e7),
(0x925f6a53c07f923f968ccadfbef9d95cd7594269a3d9fa64b1180edb667eb299, 0x1080e8ff01f918e66f08b26b7f9cee4858f00038b8ca50b7b2939960b1e7809c),
(0xc28e49dda75f028338e5d2c7d1f03af012768bd06b0e0d0d87878ba82720dd80, 0x670f8989c941a49bcc512c5b4987e167ec5ae6b4d7f68a98331845ab5d0db12b),
(0x07a9053e95035be88188c196d5e8e05ab21dae48d59406f37b9f86ca2c837cbb, 0x40ee088e8e7694b7994774e79d097d766de026f6f7fbe352e7f2bd0f443a7e1c),
(0x33af78eabfbb00c54d88ef81e9661b16e0b32c85a1b61b956c6a79fd0e036aa2, 0x713e7aaf0537a796c4d796440c855d0b1533198805ef4629d8048c69d3cfd3c0),
(0xc588d0145a3f3d332969557396d674c31326dfa40797d63df9a0c72049583bd0, 0xb5c0cfd16c67cdadababaa8fcfd2cd767f7470248caf60d737531c66ac53cdfa),
(0x96b3d5edb93742c67c48ef12c649341b97223f221f0edd5a2f2ab5238038d29e, 0xdb475caa38a3a05d3719a2e64ce7b4edbf25fe574b28d6aa9961ec0cb0e44c4e),
(0x412f4b6e3d894ee6fb0cb00b14662a9c1eea3a425a286782a62da77f5644f0c7, 0xa84ef636ab9bc805bffde81393874429a8503e898c03f1d6f139af86f6a676fe),
(0x25f0a785c7b4302852f1421da32c418d32fdfdc489c390493794e1fae4563252, 0xefeb090d457190b589c953a3aebef406da716af51dc6e334a02268836004e4bc),
(0x50fd4ab7f367faf4acb4403a49ea3e7ff02fed584327acfde0bd58a4ed741c6f, 0x78abc1a73c9dcd486520cb520adb1c3a2d08abcfa079607ea56307c63d46dd5f),
(0x157583d4cfaf7f7933b8fa66430f107ec357621f4b94f313bbcfbed1046a477a, 0x9aa6b235ce8cd1fe60cd4355c46d4859fe35ed8d659d2aaffc09cdea297e8db5),
(0x3c44bb625d262603e44affc165b35976f2edcedf8be6b494f4b3bc4a5b3300be, 0x88b1c56167973ab85ecd4594905981521ef0e8c71ff707b9079ec2bf3cbc2535),
(0x31d4264de1606b97f2f71d1933f23cc48fc5d9c6e087dd935ee25b8fba298958, 0x460609c0a3aa1d262865180c98555b98c8e41db62e62b2c44ae01190718251cb),
(0x1f551f0a8ff1472460ab206d3dc1834b352d1d1d80a8fb78a87247ae5d03ad2f, 0x24253c06a4c8b148db944f81802bee34fcb97ab650957b32eccea33ec116a6e3),
(0xde2c4e1d27f08407313343119ff5a8c4206a1f732aaec3a87aab6bb5c1cf333e, 0xdc813ba140fecd3a31ff4a8e41fa498d9226ca2acb2d5a71c5a5cfe28195170d),
(0x6fdc5db2adf54ac8132c4a22c382c2f0c1f54bd18aed5620a54bc4c118a95612, 0xdb3fa4e5f318e94dc0c1105361d21643cf60b0caa6dc4d26944e8915970e221e),
(0xc7eb76c6ea0e1c51a3aea6f4dd7eba10bb76650d085df0fc7fd77b7353680603, 0x5ae1c1d7b788092a03c41c3d7bc32ef20a4f4a39a82b53e0e6f47712df5bf655),
(0xc81505a2b7e78b5b64ce048e6312bfba1a52c7b78219d857b4813a98c8aa89ed, 0x46db28426d6ce2115e1e49be459f033dc222be7f96b247fa87d5dfc0df096806),
(0xcad7525515f9c3d58705ff0d83ac3508f7dec3120bdc71c90a17eb9e78503bf8, 0x32b36a0276cfdb97ecd2ddc7638e4d6106231be525b6b4c52d19c12c6e6bd719),
(0x94d22144e22b7e3056eca8a47d6b15d8f17f3c6582533fabc70e900dbe4cdd25, 0x12c0760d5fef2f85d89dfbbdbd0124cb828bf72d79b4ae5f6121a84d47d93bf9),
(0x325c5c23ef00601fddf520407721bde213cba19fc0f2e2253b112b8b916731a3, 0x59d3cb98c09c1643993f3dd3064c7d295cb38cb245d8f70e9628e5eed62498e0),
(0x9c907089544b83164a25151681bdfda67d1874383e7f4a7cda96d86191ee2318, 0xf639dee7e7010630364539eb5c225059547117de9fbe4911d9718e6f8372d20d),
(0x34f14807ede9c06c4cb2a1d897a4fb81ec5544dceac1bfc0f32f9835302b7a82, 0x78437a8cec6aa228f5f18813a68bde683c54c3675d6be4828d01f2a4096d9c57),
(0x9498d30b3f080828e03d459afcb81fdd490b47ff0c344d753887b6001639788b, 0x7a5c8305b97abe3eb241627dc5187a9c677865b3567cfd2ece136852e42522f7),
(0xeba08f6fefd36e37aa53ec32d3cef88e5d4f36ffebb978c876d452f57754f226, 0xfe0e66b543aa54ca7afeade9b38cbe0b39e171784d029470608c7e38bd2015c1),
(0x555d4bc20bd21729f6119b77ae8c9bcec8ef49bd992cde504c7944847240091b, 0xcccebdb869521e332ca86941593eb4a76c9052ffa54f8315d30119cc7f437b54),
(0x33729b9c19da347442f33833d1723d453f3060ecc692d823679f087b0ffe8872, 0xa94b6a4f283af604eb8854056bfb8044fac2f007d7ebc800b4abd64c5c34fc30),
(0x2a1a889fafe64678647b060a73ab92cf78124ee0d44c7c32d8ae15e00df1dc11, 0x626f963d3bf11f8e686ba46be6dbbf0e75aba0d07ef9121898605ff3fc8b75d8),
(0x4702854ca303e6fcffc62f70258bb2f5639148b34e3927fff2dbcb0b7c197d6f, 0x7da261b28513257cd1475c2de059372e2da76eb30f3b2c5195c44447d71e1156),
(0x7002edc5a0cc23a065015cae06e49e7b51d90cfd7da04e034857c596cd319c5b, 0x6f2845bd06b7aa587ad2d2ae19fd611578c47b5684fc6975db63e230c3db73bb),
(0x273294d4483d610db2169f0571d5450ff4cc5bc8725d8ae67c1adf0b6f48d485, 0x99b241a20ffec9e0a039a00318239aa2a71e3cc11cfbb6d37268874b67d942b1),
(0x1beccf823055b440fad26a535a852a5d0710c72ac4d28e83b0335e8fe98c9a69, 0x0f3ab566ac0eee207c8ce0a40d471eac2c5db7165e24b489e2fde03f7b8aecfc),
(0xdbe4eecf4f033d535d949caec8fe672ca190232377892197fae8e19253128160, 0xb3f50bc7927f0e5b56241c7224960fc5896fc8061c0a8a1f5fd3d47cd5aa566f),
(0x6643fc75bed80c694591887a5dc573ffcaf7f484b0ae2631133ecf4a39bd1e20, 0x04701285f7ac7c93bac1875fdc4a26e38ec1e69c293c3b7a1f8b5c5f878d58e5),
(0x99f90bdecf1dcd5e0715828053f820e7ef19d936bca63f14516342fe05422a21, 0xa04dfd306dfc615b05390a868bebead65cfd771933f91e2a180d2d79b99cd4fd),
(0x54e7ce483184b7fe45fb4e35192b5678bcf71f7e049c033eaad1dd3286e33433, 0xcac2833b65ba9cb783a8b85cb7f4e4e24d4f85463c6a2c3c4decec8814c0e8ef),
(0xcf864a4ffb60993e444f4e7b8f4a99734705aa16295627d31f7686b84bf02e08, 0x7a98d20fb736eb4d465db874ce98bdf16b8a19517744aa51af276c7cdb6f1bde),
(0x6ff160d6516fff915ae2cd457a98afe2a2569345060a7f26c9e072126d59d1ae, 0x5d1f1355bf1410ace4f8b415350f9c757db5d5ed001f34deaff5c197b4eedc4a),
(0x09adba62aefd26901d77f2a2c6287da9a56fe35b3702da46f231fe4c9f5dfcc9, 0xba58ec45cb4a359b007126affd2c4bdd2e708d4341d96e7e4825f153abb04161),
(0x204ea41ebbdcdc48cd4ea94572c10dfeb5d90060e9dcf5d652c0e2aa14a2402d, 0x7b2889aca1952f3cb2c5db8a9924a6fafb0b9e323ec09809789f780bac36ae38),
(0xf7d6c669364d3114225a6826c20d26baa4b4f190e842696a82aace975fc8ba22, 0x15abb177b42538c50067d160cb3c761b1ff47cf44b0cbd1636f67a5c879d3470),
(0x7bc4d30a87dd28c78b066e00c02bd221e50a7e6445b57f0dcb466f277d352587, 0xf4ed48542e7e0164da66e0c9fcb04a1e6efbc9c1206b552ec68cab96d0c294d4),
(0x55442584b046bee6c245dfb959f20629c200eb21b42509d78564943b1e316ef1, 0x2e2aa971c8111ed96666353a103f2e4ea29c4162d19da280905031a948580d82),
(0x8e7df8c0de88903e71224c973a8ca65a0923f872841f2dccbcd69e64b1dce1eb, 0xe41530839ae86d51e7147873f1fba8dbc31205e234c9466252ae43c125d2a0cc),
(0x672321dc69d8aa1825569d0665fae079b84a9bc935bda4915d546f51c651de8f, 0x8ad6430b8708897dbe809ab1803a6eeef977b1f16b34c188d333d6f6e7ef005f),
(0xf4e2bbc143e99b0052032718285d76981b8beb9af693dbfc2d20f47289ac3abc, 0xe54990f5dc330eab2e722b7f70cd426f6d80e93e205eba897eabf0b15d651a2a),
(0x5aa3aa5fc6d2258c907c7275805c160a72694f466b5fdad8009134f10d39ffff, 0x22d72170617eafa5b843e82b5f670cc23146aa98cb07644a7f4c060048ea9531),
(0x34752ff9d2bf499ac6b3acbd1b78633c9e9a31ea45c34383be3eb0087be2e7ef, 0xb53ea3742cf3d88651f7d0763f67c8bb39d73ca98306bedd91a6db472c1104f8)]

/-- secp256k1_pre_g[960..1023], /repo/src/precomputed_ecmult.c:996-1059 -/
def g01_7 : List (Nat × Nat) := [
(0xd650262402ea44f70d9b4c9b5069e1c588977062db2bad6b5173536627047327, 0x52f5c99af2f2a8bec034db3fb573757ed801432186db2c288c7151fc4ab16f2d),
(0x52b3aec6553d025fd164a0e0b1f39abd0915d4a9ed5db2acb4593c30011f4cc9, 0x515474021c17b2bb9d401683931b25d777af18bce0e7bba2432a7717f4e2f8c9),
(0x8cbb677ef79792241272841868b79c12eaa0ec6eba4f9b174d99547e827ef9ca, 0xa32809b8b07e1312b6a40ec6411b60be92974f98bfedce19ae590f98040183f2),
(0xd8f55de0e2eef17de94b1564d74734b93f89f2d6c317a2487f1724e3d531d47b, 0xe9fd46f5da576370e0416f71f271e64cfa7dc64c5e0869300523e92c9ab7d770),
(0xfa6fc9bbfaa2b31ff9d573014777169fa4ddb8eded4bab79d0f4cf62356b6fdb, 0xb6ff57cddfdd790c7aefd1e4d4b111d843a2adcf9f781b331b4420e00f57d494),
(0x239f028ce748edd969f752d9abad0498f9359017653e6ae6bb93f09d61b58e9a, 0x17dffeb78831f6ba7ba463b7bb7b142dd55c8aa291bdaf7c0644e8ec14f8b516),
(0x2ef6cbfb728d976f99c71db05389bba4ecad3c148f2597bd99af8f74965e4f3b, 0x19a27ba7a382078c3f1ebe8c1d93a37bdeeef542cf174273b411b60f79b0fd00),
(0x972d732b9af8315e88f042f13377871e1a429247d853743698b975d933064a0e, 0x308153baba4c3b8740a380fee4bcbba2a5c2ae3f25fde1d4f40af4dbaa4fd28b),
(0x3d378b34ba4998f1833aa295185414bee788bcedaf422ed33c4f27476e062a4c, 0x46a4559c9217f91980887b5029f75c013c3d5238d375817093eda1a8f2c4c8a3),
(0xfbb2003b1fc1b3aafd32b289abe3b362b13d70f27d6451e376bf882d395c3087, 0x97c866a5c462362a4ceb96bb9c17db03f28e5b1d4e418a81653a315c04dfdabd),
(0x028fa94e8eeab1fa00bd27a9258e26c4295efdb7afb5a47e6e14de8f877a0471, 0xf7619d0af2eee8f3c0c7b5e208ce9d0f622219194d1762a55145a90909d23276),
(0x4708a2857eb9c11571627ede6fa8fe294be2723308798f25c12cca0ef9308ae9, 0xf35f99642e773990b2e0ab601a92cf5685403466087a8c3550e36b91ca4fa449),
(0x934080976ff4b874d88903dcb3ceed6ea82427cb36b62c6a6364f2f89848a62f, 0xe25a6962d4e267649ab2d4fe0a0babf7daf64d4898bc60aeff3cfb63e95f3c6f),
(0xf4a42ba0818201cae3195da93a5666239e0d24dd256cbcac03959dbc720ddf9a, 0x8fd26fcc0be3eff075d194afe739128510bd4c8e7230f96a60fd27e00a000f86),
(0xc5ada616e65bcd400cf39ef6197e0a97791cacefb41b09919c51b166e3a6240c, 0xe4c65d68fe41c62dc85b0b3239106ae9cc26787a60d351a04a7008a7f96eb8c3),
(0x7c193ec3d3f1d91bcbd7c62e5061a5a5e8b1fa48561102baca2ae10080c640e7, 0xcc7cf895511408f3e400ff3108a5368503b8e0681d4b333a26b59cad97873ccd),
(0x775425438e7cf128321656293e6a1c1922b763551ec716f1d96002b0ad1bd3c3, 0x3747169d212c37be1906eec208860af9edf7d93200c187c4debbf8008bd2137f),
(0x92dd5399fa75e786fa5c0f7f90abd1a8bb48ff43e54dac5a3b9990f627d90992, 0x5cb1be8ef93783e0c2e5c824ac6c5348ee4932319932e9a406e549213f11b7ba),
(0xc1770828468eeb9010b550532a532fe04f66e7a7b7a1cb376eb6ddefd693157d, 0x0da5643da0147d47fd29e262f61ae4a2070e5e9a77a76bc2d2e7d24a819a2e11),
(0x1372e116e90ae5224649a534111392fda8baabe5be8a8ad533cfddccaf6378c8, 0x5efbd4a2695775bbdc38c2aaf8da6f451d0a1cf32bc584d6e9b2b6e5c8346af9),
(0x2bbdf21e9fa1a2b2bcd520097f30929d05e2b7fae1038c008f32d86a65dda936, 0x51b789986008bddc616c0dcd2a8833611806ebcc5843b64cb0ba02c9339d45ec),
(0x36694ca4d0495ed778230d49e6f212179b63cc7c26ee3f7f6a7438bd753005e1, 0x2e49e3f3bbdcb1333ff1e17db18d5267a87f48b695b5f9075f5aa0d170bc0af8),
(0x243d84b1dc9ce143a6913bf8d13c4aaf6fbc13736bb8a7e85e648958032013b8, 0x039317adb6bec71dffe3c2dc6dec5e1021a3dd832dffeb91108abd5b6e7f28bf),
(0x1d8883875255f3f6838eab821a12a8fe0ba6dfdef190585de039542b2d91ec92, 0xa9d38be2e919f8155d633538d2f0aef39ccabdaddbd912bc46c2037f3324b489),
(0x39a21f754c0d3376f7560e2aa743751d5512d6287a4809556456f9acb1be3765, 0x3cf324a52a7fd79e3bc188c4d55bb449ef4950b13a4531bde0b2ea9d4035e005),
(0xa10ff60cd8e25df2a1d394a952c67f6d18ab0a1fa56569e948d9278eb42e21c8, 0xb45f2d633ce82ef81dc0c0bd4f89147389fd2b35f02cb237bfd4f5020df9e991),
(0xbc2697920d5042f71051f7a646b971f9bb801acddc24a2b25bbc459eb7bcbcb1, 0xb70445fc1c03206161b01530c9205d7ec7fab6de1d83f1f478b35bd771235665),
(0x3d7279fefd5a3682a82a7f95d1db44425f0ef448f6bccda99a61c2409037cb95, 0xdf5226cae6365b7e22b42cca2ba2494d9a2ea1930cd921622de6602f70159740),
(0xe0c56d30ef92af00b936c2bd951b3d51bc439ad0e4216e2fd552c2d5e8dbe588, 0xc2bd177d02a75c4440dbd18627669a0ff35189c7a4873e0f06484b3b68555fee),
(0x9bf960e52b7bbf52fd839830634baf1cf0d6e3324272bc15d9999ae27873315b, 0x0b28719d20e01dccb0016cb16a453739551862f7d9cc81c9066623871d8d0405),
(0x20df196be60ba71ae617a6b144757e0e87fffb45d447d9dc0d5480a034351198, 0x9c722d430c0d071ba07d49539ad0abaaf12ba35842fee0ae9960ce1f26eb07d8),
(0x0843c1360208b40b9459693d08154980455a5f7123b5f6330a26661dca9bac17, 0xd5b5bd8d9095fc40d2d1820d31dba542d0c74f2386770edec9b4df46f2f12078),
(0x9109b4df702c1ea0dea4ee0cab46d6ef708a3fcb72f9dc03e05bc722408d11a0, 0x75baa2c18be5801cb53151954c2c30247348e9c7913bb242cf4ecc8b96dc507a),
(0xf10cd1f5c960a9bb12adff03c203c59d8e51552e3727edb2329eef3c5991113c, 0xa84ac8e16f65daa6165746898fee662c9d2e03c64796151b8f3f0bf15e8c465a),
(0x9f07713cffd3602fad077b69a8a5f5390ae0d6d0df58ba071eafe6ad10e747a8, 0xadfcc87342b59083cdc3d735782f8ec1cbb4ea3a57970afe58cd5e5c8fee867b),
(0x6d1d9d0e3290573413b2b870fff8978c5ce9ec6cb120d9f364063342cd95801a, 0x650be4a895d3b6024d745f7c23bbdce325a3f597922e50efba154f8c6831018f),
(0x497185a56b3acc947a27791c7e1fb1495c649f99dc767fa712820cc66cdcbd82, 0x7d511b7c11dae1b17e4078b2fe7565a0f33ce5bf74181c3df5b6a9510fe6568c),
(0xfff738f9848eeb9c4ddb8bc752cd87c19a35f7be14a470a2c3154ff3100a743f, 0x106b8a55cd913c9776837cdcf45c58a0211b979a17085df57bdff3732f2c38ec),
(0x320391a48d3546cb4466876a37d6001541899ef45dfc8e38ccb9021b981b4830, 0x46f63030b4559411e742f30325707b4b23fa2d7de633800f09c712056651b102),
(0xbe44ce40a925e88d26937f7fb7631f1855879106122813f9adf16e005d85fe9e, 0x1755ade7d22e6dc67e6806d4bf44b6e2ca6948ca9a41889324db02662b6e1dc4),
(0x8d3f06b158ddd609f83b0531466fc2a3da6aa80b433a92ddeeb20435cf33ddae, 0x2d554a99efde513bb8b6e5f4dbd2e942f1d0a64198c3df2c4c74705d4b37af63),
(0xf814a79cf258f553255c1cb3a054fcc0d0c71d74742b6627210ea84691596729, 0x0119fc95be48b4b223c80c42fd1f3d450271ce8aedeb82dc31813f75a32d867d),
(0x95e8fd461c37f1db5da62bfbee2ad305d77e57fbef917ec8109e6425e942fb60, 0xddc28b1edfdbcda1aa5ace3160b458b9d3d5b1fe306b4d09a030302a08e2db93),
(0xc06543fc47e18816bc720604cfc208266f4e5cc0f436e149e2dab0e8a7981e77, 0x22070465f3a4a7c21134819ac194cc9d2818543117ec634ee663483197021441),
(0x4983d95b3716aefa4a14d116bded84e10fd5b050bd6001caa2b97086b4d5c68e, 0x1373426da2efcd14333d47bcebd3befcf5e609a66fac1b0280cdae2c07f0a279),
(0xa2bd5cc692e84b973ba2cd0925e0850fad8054ede6b73ef61fdcc9583eafe6ab, 0xcca6e78af9141b1e6159011b99f8024d33d8d7979795aa4e4f0b2767e6a5ce2b),
(0x61c99231a18f4e7395076281b367d084b8f852263117ab60bf698d4f6b6d741a, 0x82314b979e7f1d30648616090a08c019af886db067d499299d3408146e6cbfe5),
(0x4a5acfef32c552993a7114fc7913321ad4072a2f6c6bcdb73ed60bfd6ab34304, 0x07295a29c06859b269bf9f2964b26dbf01323e894affa4da9f61b0569a0c03c9),
(0xe0467755866f494c2b36dcb6c65ecac6604e50134216ad487d4f5b68bb7f4023, 0xdead03c5974dfa1bf532f955826189adae94597528ece029d9e5a42c30b336b3),
(0x686fdf05c9265fdf5b54ca74b5b1e231c4e8be602084459640dc0d2bbb215ea7, 0xf4d43e1cedf9b9740aef950ebff3677bc93723f2c5901710b6561e53d57ea7da),
(0x1247698500f9b20cea62b7d7b0d96d2fe2bcd924d1f15cb9fce5ecbb8bd21253, 0xd3437cb39e904fc643a7b356b4389c0b3f1950f243dd7842e32de16d2b522004),
(0x656bdcec9a87c9b2e5b32291009f657bb5eb1e1ed2fa724e453880262ad17b1b, 0xc7748d0c47b6e4f7f63f704b3fdc08ff0cdfc830d17c1d116aa3dce2f92fa64d),
(0x5b7f710e0f7216120ca79b24483ced127a3d403e60ebc04c3aebeb96b483e4b5, 0x1b5157a7f0688aee634196e8de5a9eec11db4b72bd96b86b698f7284bfb08080),
(0xbfca66d0552ba6f55795bf1840f90d852545213d81d2cdeabc8d3d04a1e6b4da, 0x4910b0cc290d4257c04c463830cb3a10223043a0bddd869084b6dd1af1754e75),
(0x663fa68fb79dcbbe4798f8ef2057bd141447c11bcec709247f56603288496f16, 0x3ace2efa1f3bbd23d885598a91d1f420a42597a2ab30f951f2b27aa683c41786),
(0x27cce3338a3db8f21fef2f86ede68a257c1675ae080cf0046085f1de495c4321, 0x7156bd8c8babe472eb144a00263d4fdf7aefa69fda2a9c294b16a82b24d373ae),
(0xd49c06c452ec5c09be27940e13c575efb727be4b1c0e8ce35aa5bc4d64bd9560, 0x2c653518b298100a72a66469f9a036355d7ad789546df3c2f5175238e78d18b0),
(0x6960807ebd028026d3cecd25140d3bd63d7bf4fd10afd129cfa017f7544ad08a, 0xa785044f28befae72b7cb5465bda6bdf6f9a6383aa9abf4cf7baeac0920e7c7c),
(0x8382bf3654b63a71a3b75abeba57dbaefc9263c55a54faa1edeb53253df8faa1, 0xe05eb9dcc319cb534461da269627661edc9bef3d945766dcb6d0fcf10849b011),
(0x803b937930ec876e78c8cca9fa932f22b7e7059af605379acc45a3d14ab0bffb, 0x7db2341c5202d1c2c6fec7d0b7869471cb90d1dd17cd1152b52af04655e5790f),
(0xcb4db1290ab6ae9f11165ff4f73fab02cb78fb0e89647e08f998ba11d2c5292c, 0x0ccaef9a1776384bb5a80ad65bb366fe745c2408d754ee9ef6154188d7d1c9c2),
(0xfab2875750e9f6723838be8afc070fc78fd6af7b84c9579aa8152acdecd115a2, 0xd59fe02889cd562d5397d3b83ae85303764ee931d9c6e4956c311490c0b3f065),
(0xdd879ebaf870ee3d0f6e3f0360833e12fbdf844cd6a5b76c198024856649bbc1, 0xe7bb04c3a99a5c11dd7a324c1d5696c8b041a12ac6a538f73094716c9943c55a),
(0x7aa4afbe29b06a1eda9319d572572b131df68f741b5f8d8ed00ccc0480f8016e, 0x15f79a9fb77b85877f02e3c13202b972423fd00d937c0d2dc9d94b1753fe7130)]

/-- secp256k1_pre_g[512..1023] in pieces of 64 entries -/
def g01 : List (List (Nat × Nat)) := [g01_0, g01_1, g01_2, g01_3, g01_4, g01_5, g01_6, g01_7]

end Secp.Model.PreG
