/-!
Generated from /repo/src/precomputed_ecmult.c:1574-2085: entries 1536 to 2047 of
`secp256k1_pre_g`, as pairs (x, y).
-/

namespace Secp.Model.PreG

/-- secp256k1_pre_g[1536..1599], /repo/src/precomputed_ecmult.c:1574-1637 -/
def g03_0 : List (Nat × Nat) := [
(0x06576cd058850cbbaaf53b67bdf3c19d9b4d38e519c993383204cd356ce38193, 0xa329993e92d1e56e31c1fbeb27648fe3d984960e30bf3420658f74c65710eaca),
(0x957788e5f675c0c64649a8081c4549ff20ccb1773d26e4d8bb94844ebc35efce, 0x7ea4431cdc4bee37d95c3948615e17cf01d329069bc10a8c0515aa0e521d9b5b),
(0x8af7ca805053b537ec501abd78c13ff0da5549f3b045096b01452c05e39e4a2e, 0x25e86225aac042e4cfb235e60da405436a436206e9d67fb8e1b5836a2d7e8402),
(0x49bf0393e16e634e202ff642ad79c179e6eb7456637b2ba2623937d0e215236c, 0x8590613f401de0d41cc0ce1ee9a1344141e5f80c179ac722d603e697a431a85d),
(0xc82e2a2502572863527b685818c9b6dddf3653eda264b5afdc5ebd19d4192063, 0x3b86f800cd87c1bd3d70af0447f9e939c2717ff7376f91c7b2675e3e39a6de8c),
(0x9ce439202b9a8f7c3aefc9c3fe4d227d42ec1355158b2041a3712dfdd8eedbf3, 0xdbbb5b05859aedd3faef15d59a939ff953a54bb3dc2ee6e26d5a20c9ff5b52f6),
(0x0e07009e49de05ca52d202213ecab4b8baa707ad096ef24a168bdb6b16fe6227, 0x6a35b0bfe752ba2681b865b0ade8d4eb2583833ca1523b2e4178f9ce6cbc33c9),
(0xeb4dcdb47e09af61e469481479612715d588615ff4c23fab065015bd821da888, 0x63e38168584602fa1e06536ad4c8115c0086305c410400834a55d153e9661b8f),
(0xbe5f86812bf201131d257015dd29dacfa2c6590726078f7bf864f33910e49db6, 0xd0f420e456174aff5995a92da73fa51143c4f1b8c40e9f308f04011d956d9da7),
(0x3b32dc3910e75f9d98fa1318edd7e8efdb214a5cb31d5ed74a61f881355b99a8, 0x1a12de8619c2e9e59fddf756e752e54b6e4e0aac572fbc4218baf1a2a3a18bc5),
(0x95ac5dce5c06e88565d2922ea3f386b7dde10735169729d0a3c3e7a486e04db1, 0x1a22cd87ab1b1821e3c49e85616b7b49680edb77251969fde77b5b273ef39838),
(0x6e4ed0fba4b0f13e335d1b74a5ed295e7dad591e0a8dc5ccd301836d7ce708eb, 0x9056166ac61c4e09ed988e6e59cd9ab016a2ef99e99c1a54ac37f1520a34b931),
(0x8b7c3394208e0ee1374925e17827d849ea8d9a7991d2d859898eba2c23a42e10, 0xb6ab923796720bcc910e6440075ef3ff2c8bebf62f21ad0d003abeb27043d193),
(0x0fda7b47f6690d73884965b98b6f5dcadd48ab4d8f96edcc8e20584bb0f871c6, 0x9b402435a272cc6d28b487e8b54b473c3092922255e47560e18b8e6bca926c5d),
(0xf15da0f5395a5a1aef8beb534c0e9aa36e63018bcc91a55dad6106a33dbcb217, 0x28cf69eabb3b0151917571ac4860972380be252fbcf98f6ddb6ebf76578a8f1c),
(0xc6e266dd2c7817e0c92378e638709a97d9a208b87fa832f4abfd881bbcaf9253, 0x2af100c1fa9bb3a30c8e95e35d0bef585ffa7adc9323208284291ee7cb769626),
(0x4bf8aa020fdd201e488c21a8339256877f5a727a4fdab13f0d133d08b6e28753, 0x58812658ad9c4d59a15c6bd709e6c622d8fe5f0595cbdd88f39be9d3cd5fc8b8),
(0xaa985f2806dd485a5589fc39da77fb9505cda673db61e48b972fc1297cd0a6d3, 0xabb0f8972f1163b329a5a92da1ff02e07c27771010e24a04e1e5f60d1e4b75b2),
(0x8174d101ec13a1cf4eb9f88d88c141216c2fa04b0ced197c8e1732ec61c41c9d, 0xc6765dc231b02e7feaf7a6625a639b00c6e5d94b1a791bbb46f6a7588fd79aa7),
(0xf9f64ea9d6039297b728fe0985a9a3a292573aacfdbe6cbb8702f04f6df3d876, 0x4146c7c1406067d0160950f21172e879188069fbd87eef9b1a67d2c99a4ca01a),
(0x3e643a705a6885eb3d34454a2a5de925f8067cbc1ca92951d8865ecca8f1b3b4, 0x2deca7045525534ede9d54d1d777a9968b5e58827162ef11b0fe08b7e2fb0355),
(0x444df411fcc3ac077e95d200d6f76d03caae45d2b87a882e4c0966f3376c63c5, 0xb4566598643d964aa7cd1a4df2decf3dec520c93ac6e32bc64350aa55416cc23),
(0x12a2f61f58be35fe314a7beb1a6810a419cdaa6a8424d465bbb7a87a646946a0, 0x9a7bdf4494c2cc8ff19539461a69fbca48410b3195d790698dfd535d290ba47d),
(0xbdd72692462573c73d48af94b687bd22511b2b7a93f487933d52b2b7e264cb9f, 0x056e6c4eb794fab0bd5ac9923f7469aa858e6df7dc40f4ed955c0df7a2123874),
(0xe1bd555877c3f55d12b4f156ea4da9efc974bd29d7d043d60ec7fe56a4066bdd, 0x8dcd9b99fbe7436a2382bea56c5a32f7789cbf1b1c44433ff5a95075c3233170),
(0xa7c68de4781c8294bea46609f4a1f550fc064eb8b071985d804351d260132ad9, 0xa08278b63d9efeb51062b240d45989ba6f6bbf9bebfa07668428862badb42c32),
(0x4f3a8769b4c6e369cbdeb90f5137d07a05fa0d663d8ca79a56b3c70d2a9aa855, 0x0f6c051c5f701e15348ed9f2c4707584b9d6db2cb62bf93e35b6486eea6ea169),
(0xdeaabc1c8089ebfd841cac66d8a6bb5836fd047fcb435a8d74463ddef444f232, 0xfb7cc4ba49c26e7aa826e6547c8a6d64ccd14a4962a6d4f90f50c293c228e8a1),
(0xc411af61547b1b3812551e1f4ef2b32efd7f33ab7cfce3788b5b8f93319c0695, 0xd2bee7d73d50f82ae9266d212fcfbb76294ace4ef6222ab4797bbf88558cb66b),
(0xd0ff6a94485bdda8d0c284945b9dddc44a35f101d0a896378210bdea909ec5e7, 0xab3f60fd2923a8f2d02b7e83d8f953c4cb1910ff83a92a65e2121f22364f620f),
(0x0a0d05cc9555ed922851baea35ad6cb1006f27440b3fe42498235aa71f08c0f1, 0x843b1105237158a70bd7e67ca20b270550afe2ad318077dc4714c7c9d6339948),
(0xbea08445eb295fba05c83ef67d9099787d599642893fb9d0568e59201e3f5d32, 0x2a81a7ffb3f7f453d78bb2bb41d12ed1e26594d6bd4f5cc7908f322a6cce10e3),
(0xe8ebcc4c431be6899eb5aea6f6ab9700551c3098c5acece3e822c7dee6f0d5f0, 0xef99a461760ae4f58fbd511f59a2ae796d65db64eaa0d61e097d0a3b31fa902e),
(0x4948606cdd73dc44ecf1db77c796d8b60806bab585877cd1d9630bce966e8fd2, 0x3c67333f786c8c67841630aa639446a8cb8c13edf3db9123bc64b925beb95f80),
(0x4f259b3240d9efba4e3e40cca66cd494fb5a19a65b5c8a165c18792e9ea778c2, 0xfdd8808778c26999c4a0060549f4ea2cb1590f7f4748cefb1b68eaae4d17446d),
(0xf303a493e14d7f52f276e2b43e118eeb1e7e918de7aa7f337e350fa47adfcc29, 0xc49fa46d0befe53f5f5bc49daa6ad265453f7977c5fe4163cfa1bd4b69141b57),
(0xe00c4b17f4c0800ec1b11859c40a560d58b9fdfc29df5a41ea4b2f53c1df595d, 0x62441a66c3ec4d29d18d0d957b4ccd18a72a1003d34832fb8c81fb759763b99d),
(0x484b84861af6af52a47603bd2b754be7ca16bef2215811714cfb2301db72ce70, 0x36f84ff5a0ac79a3fe6968652a0a6759cf72e5c508c76359d477e72c4d32fbc7),
(0x88be58ead8b51f44a1be6a8a7cbc149bca07fece11a7adab210467b84cd93f14, 0x94c10caf7037fbc171cd6cd6a0697b198ebbebf49f00c67d4d46ebca92687fdc),
(0xabf6ceaf9fddd7ef44a75e11b10119b77372a3d47c163b77384de94447da781b, 0x5cadb30c6320c67ae9dfe2f3b9bb4ef54171839281c4a59a7960eccc6795d290),
(0xe8c265229ef665b267fcf10a17c6c3cd4e221e0d95663deb74f8384eb89d173a, 0x9a69fbadf9b050efd231965b30d91646bec7ba269fcd0934035ae11fca2aeeb3),
(0x66652bd8bf72ecb95e670a24e8683155e031f3ea91fff58df60fa4ffd9c6c23e, 0x4844ec083f182b7322c2fbb66f6630a605fa690152dcfb3b4b65a3a930be994e),
(0x207880c2d8421040dc8202c445bf6d5875cac841532aaf0badf252dd4c2c0964, 0x2b1819d73eb24de1ae4ef3167c92a7b10a562d93080fdc54e916d1f0c1860cfd),
(0x46b9bde453d0692eec933485ed0dff687e8f262c7d9270cc763fd9592013f581, 0x58af9be63ae599c0f499b0d63085b7d5394cc7869f2fe2256ecabd2ca14f9bf7),
(0x5d9b2574dbebe5d009756e2f029af3aaa2fa2555d629a78b82b1d67975ea3e11, 0xed9f40acaa6ac68fcee3dd507629758ff3a641901658f0f02b87b6450ee59263),
(0xecb5ad828b9864259a76a6491774338bdc598fd777cfec52d086c1726e590e4f, 0x02b7893673c6d87ea954b5bf52f8212f65d33ea7ccc4b4e301d98df2c9887886),
(0xb32b64c15e711b8a1d174725000de55cddd62e99fc90e96e8f3ca5323924ea67, 0xaf5d61d36dceadf234a7a94de7e4be1a4d81b84de0fe16a5403b0c24a6ac2083),
(0x5137f71b71582334a6d57aa15cf6ab3c8b7f6842a800b4ab1c308fc5820cd364, 0xf7ea5fecc9b17dab0c6a248d497577110e4a3b3895658381efa652a44df1eab4),
(0xb9bb0e1a390b58893e113a89801c3f5c25f94e6563161539e7c56297ce9ea866, 0xd8db3c903c3d35fbae4e14ece81e4e31247f60a82539880e6b66951f08324a11),
(0x3f0919676da40ec204691c211c42f47b88cc1192ec1827d317beb468924fe9af, 0xf1b448263e882c1f18ae6a81238d0724ba4c04bdd3fcd3958775df5c16bb8de9),
(0xb5fa25f1dad4600e8d55e7afc70a1b2c3767da47d625ced80d55ac88d893b4fe, 0x7575f661f2ba296c7ed3a1908a49d09983e49503ba17a70e1d6939b28ad22347),
(0xa0371ce2dc6a025b78db797e90373069e4ca06ea6b1cc0183d4c6f7d680d17b0, 0x92b5a8a89a5005cee851c5214599b77424f0ff745c4af6bc6937c432e859919d),
(0x5aae6e9000a4910778863967d7d42020cd0a9828da25ac8c7b19942a1ee2f210, 0x0ed9cc2082a54f3ffd7218f7b79ec3997e82fdc4cd7839575760e4f7b7ee8fd7),
(0x54e7daecf4a9b6f4b100f964850deb6564efddb2e6ce7b053fed2a281a0841a0, 0xd9ada32a54773a81d5a857ad08b34d9670d4678570943daecc83deca97c9c63d),
(0xe9b29910d8bcef46b48d8be0c7649b84383ed752391ecd7abdb454c88fbf44e8, 0xeb268094f669e91fa517396550e4c40bd7a267929a8df3deb84c703c261d6b69),
(0x43f95222f254a5131977c589577d1d9d3f537a1c9fe14ef6384e1779da546a97, 0xd7d3c65343345c47f245b305b662a2df0eef80b397b3f5e14b0eceb571cb18cc),
(0x9fb45fd53999fb92830bc090216ae4856723385c07224b1dcc91294ba6c3b103, 0x5b47081bdbfd82d390d7bf7f39a494bb6731b506b827213a277f7ac9febdf451),
(0xdd92282b835529cd3295919b2eb466f509ca840e20ad87f23cbc824bb71dcce9, 0xec45f6e7bc59d668b1ef4a29d1e23bcdf37962683b58fb7ad58a9e1c5f726371),
(0x7482f012009fbdd7bf99def4f3de23c5fe29036fc1ad5c38686c05dadc16348d, 0xa43c4a0d5497f6f0bf2b2a20b65bad1173fc0dbac24e65f8db1663a6b840abd1),
(0xfa4cfd9597fd62781dd2f587a5b03195537fca30f7a9a377a69a686970ebd9a5, 0x4568b6c99ddbf778bd31d269be18a8fde2a350310a30505c1b8ebe1dc7ae823a),
(0x51e0d3dae7763e8e81905e1b4f1ffebe2f1078d327944c53d9b7d1103fa60b9e, 0x118da0c4ab572faccf9f20b902108ed01da673a52395f3f7bfa2ff2a36da6740),
(0x7d8e567cc055233538c3b857289e96f4502fc674f40ebf86c482a6680dbc9530, 0x76c3fc4600c6446a4b9fe552ba8b26147484581c585c8ad7600c2ea68eb37571),
(0xd924c6d3b400196fdd1f216fdfa18c791c316d679ef4c0ed8d12b94acd1dfb1f, 0x0ec33cee881c04b8b11eb3f288dd9b9290b9d11926c692e59d82aa804febcea8),
(0x8dcb330b06f629c8d18d28b97a99d82b3965cb1abf953b8f330744575e93c0db, 0x3d8a2d198323902d1b129b57313f81a8b58b7340f6f7c97ab6d74f37a46857a3)]

/-- secp256k1_pre_g[1600..1663], /repo/src/precomputed_ecmult.c:1638-1701 -/
def g03_1 : List (Nat × Nat) := [
(0xdd1c4a3b94b063788cf86797ddaeb67157910f1d35a32e80d3f749f6bea5d2b5, 0xefbec0c75a69583d643e5be9ab78cb783d2afebc73d7c64c0869bedeb3230777),
(0x2b03de341dfad7f7395f6ec484d292c1ec0275f2bc762dab7658a88537f5e772, 0x3235e8fb3818582c55bd48bb49f78e5e0803d7d1ae49bbdf97166a76c3c0d0e3),
(0x3a795b0fba145bc97e7a80efa6b77132677f06bd4c3e7f3947978c831428dde2, 0xf4125b9ddf038a2637cbc9e1eed40aec81af644ea3f1352b526df57944914691),
(0x0ecf813ba133d6cb9c46c081b0a851db121f5c21788d1e59ef8c0588684fcbbf, 0x69e0daf2a7b7b4737f2becd0789529c2597e3915ebe120930ecd773813e53560),
(0x637c4982c14163e41037191dd4e09d3f743832455368cc3357669186d6217d5a, 0xda5a2ab8fd83d2e325baaa5c0a378318f6fb37475ac64b77a74da573deecb410),
(0x19fe73a2d8875b57dcff5fac20530da0542556581251f7c6b198b3e371b90e87, 0x3b03ac182ccc2518c367a77a1fe5e8b9a326468128fc1ad35a39f7a0d8151ca0),
(0x016ea62a0d4cdc0009d151b30b6680b0c68b4cbdf144c23471d55b7f3bb7ebb2, 0x8cac4a1c53672e59338612a8995980c135f020602e3b9f6a8fffce9de53fa629),
(0x6b9d68b5454c6d21678e5413279f9a28e1eed485fbf512e849f3539422a40970, 0xb63f504498ebe37daf9e6969da888eb7907f85654b05d472fa4b1b27ae365482),
(0x1fa20c8c08f0812c2e7dc948afb7ec9232c3c27d23165d05868dd1270b5ed3e6, 0xc5257f4d821336427df686062c229fea6cd16857280a60cfed84deb629838076),
(0x73a83c927daeb4de1cf1df6b31d8f536af15bb38be506263e8e8a6a1bf6acc86, 0xa08acbe40cd6c30b82b4e24de8c9b89126a21dabe4df40ab2fb7ad6a82eb8adc),
(0x3a995664924e2deeca278cf93ce265e285ba90cefd2a55a48e1761ee7588bdbe, 0xf3221adc99eb33d352465d9391caf18ed011a1bd03b7cf39dd48d45c44cbbb0e),
(0x7c65ee19b032f5cc1d45cd9b9c160e865ca516fab4f885965e07f2693d429c26, 0x47c7faf90e3df277d31076ae4be2224d8cc54a5e3743e287ff9572a4023704c5),
(0xc010694c6750dbbdbd953118dccb8d032f05e6d965db8fb03dc00b22e4d397dc, 0x3b4914c6dd6c544159dfde10a196f1325a5e610152d41be239583b806c8e730c),
(0xe255848ed28d8b6d6f95a12b92136131a33dcb2ca723fae75e317cf662519d57, 0x62f7d5aa1757dad798207dcd18183b24377c9ac01e106fe4d36d92643fcfb7b6),
(0xf31418e5732329923a878dfbf1de30d1a9669da776effc45bd1a56d02c236ed9, 0xe62ab884dce0d94655e34c8a630b5aef16a1eff61f889552af7234b8ae56b84c),
(0x09adb945b876313bac9c290d47c1e6aa1f3f3c9ae8c6777061512c2bbd703181, 0xb21fc142b46326164820b82bedddf2b251531d0edf0f0f8650f74d1e9f0908fd),
(0xc4682b2b9d4a63a1855132e9b35b390bca04b8460b83bf361726c3c5808da322, 0xf25a906a7100ba321b65976223e36f0414e9075a835ce5a26eeb5d03d35f6972),
(0xebb0fd6d60f49c478167c405597c765e559159f3ae04003da99a1066ea80d63a, 0xeb37d160667ac8621da2ffcf28b431c8c4202f67706f4350afdc868e6aa0b0f7),
(0x78f12d2070d8bcb400267cbbbff637f165ffb09895f5734e3551bcbc09a5597a, 0x42976ab3366217561bb574d2c87d99cb7419a3e3399737407de170902bbb78f8),
(0x03dffc4af6214b639839fbc2b949621a35ae41bbe7679eee5798afbe85919f69, 0x58174b6b1b4021ae22dd15a429d97502a13480fe902860e9036fead857f2c456),
(0x410c9393a4ed42ca2115198f4db76eb8bd16bf0d324528bf55d5d745b55a15cc, 0x404ff4b1df71b89bc14c2cf9bca2517683c2981a731fc3d7059faa0a5ed58306),
(0x6b4d515687d6b0793df366326fe6977cb93e6569667971966c16c495be4e3649, 0x647a4894bbac207f5d2a03152db1760c1a25560a95511c815d6c11a5e969f4e3),
(0x58ffad7ae87d5986f0bccfd85005d9c16f0d87246be4dfd94a771c5ba5f34247, 0xad8b7ad8f9ab15faf50d6f93ec8629c3b33fba6bee36ace5e505cf00f0069817),
(0xe6d3e41d1835fade0af2773823e883b4adb9566972892c72b310eacfa6a757fd, 0xa136c88cb580ece7cef03e425dbdb8efd6395cabb427ae61045a0ef021359c15),
(0xfc47c62b43aaa030ac10447921bc10263b561b420a2d32a5573ae9470d953b35, 0x5d318d1d65fc7806732b581040a1f511627236260b393b2950230600246224f0),
(0xceae2867cbcb37bb08e78da903553866d0a1b8a2933cb1ca36bacb7c6fdb251b, 0x48bf2c7ec163aa9579417b37343727b7956cc6293a188c16d4c2d1dd0abb3dfd),
(0xabb12378c84735b5c23408d82516d8879195fb74c8972d78daa8243e1befeab0, 0x5a0bf64b0da5a465d9d0be913c8a56d9ce901c3667041a02abb591b33f66698e),
(0xd7781e398330c7c92185302b0e1163161a576ce943a4824f274ea7003159eeaf, 0x6341a4324e07c5c73ee7398dd1be3d7d261aed9996f6f310fbb464af0d06651a),
(0xa6918dcd46ec204572d71646d2a21df16f3ad133dfd41a6dbe5b76847e4c760c, 0xc0e51aba378d498d9a70e4b53521397c1d6c7cfb2f6634e51f056e7d0932fa9c),
(0x413a4ee4fbb5de60392b340a65fd97067785e2e0248d27706ef044ca83d1a204, 0xa0362506c18a8f343bebc668d1b08fd16595a67451db27c343af172f8a3dd197),
(0xe1a7bc24de8b0920f6c4aa082fbd112687fd8766237311a89681581c5e04001c, 0x3e3ba9fdd0a2873d149aeea261a55c653a3d90b1efa8e49b29bab1001a6bed16),
(0xff9292a0a147ccc4b5ae077f8a337e05ab1dde9b1795942d8a9a0fc3dd333a75, 0xe50f027c5f7a34637654b41225ad5dfeb555ea2b8305c7a43b6f5b787a23a166),
(0xeae56623437c9dd39dc7a36b0045c2d3afe849c61980140d900039d44ccb9c0c, 0xf1b8c9e992847436dcab5a9b22fe7e7855e62e40372d77be39f68974dd32e043),
(0x7dd20cbe3467a3dfe1eda0f3048c39e57f9c6004bcc892273d002cb554bd5282, 0xec4d2f23f035d2d54cf4c3f831772a46ee9225828ddfd4c64eb6a6897c1485d0),
(0x359811cc5acf1291547b887033bda3c3e4e245ebdb0dbfc73a02da3f12a877eb, 0xed2f50878b97a3de06ff916f511c3a277702d1be2b683a59bb6acd98e908a792),
(0xfb33e89cf2bcca4e4ead57ea01a24d1b5a6c76ca0bc605a2c031102e49a71c24, 0xc75e02f5ca6027057ab5b95842a9272fd7fca940c26e980e0192861d2f1c9f45),
(0x0a1cd33e5eed74a01534f836b05a5129b7b2970ef293b6069d1ebb56e5f687aa, 0xf90d1ab90ccfc3453b2b60cc1e4380e9bdefc37a896a1abcc9978d081ec4a6b0),
(0x461696b903643b7abfb383cfced8ac925d9f169e1db30999b8553504c4213614, 0x674f5c775f300fa0c8f40a859aebffd3ee91c4ce695998d60de0d59a3033bc72),
(0x6c6aaa221b589f6bccc885ae93f7e8aa1fd5cdf227471727f390d5bde14ab025, 0xa77c5e0340e1b90d1ad64483fb50fa76aeb8441788ca415c9f8d2cbbaa077538),
(0xc918d391927f3310d032c7ee6e729e6d792eff1a72acc2683874fcd74e61c38b, 0x58fd746c346048f8eda1bed0e5b6cb58fce24a726e27f96574243c80780dfb5b),
(0x48679e161ca0a3f5e4ac2654213c494d9240c3f033fbe2c2142ec5896dea5918, 0x556f93fe300cafe3e93a2966767840e3b2a19fe79cf204a9a30d1f1e3e1d1a41),
(0xc68c05a9e46b6440a72d6eedeaac085a5e945659ac46a58469968a30c6e7b858, 0xb8b4b5dc35d4ff80be3d64a1d036a117c768746a4d2bf2b61b12646015de450d),
(0xd133ef106358489f8f976dc4b6c5469921e3dfe36f326dc9f05387579d444e6a, 0x2c66abc4db690d2c272b0f57afd66a6e327ec3ebe32b45becbf3c502baf968cb),
(0x53544f598d759deab10766dc48a7e2da61ca0a60a201d19392dad05b3df976ae, 0x449a205e61cb7aef0204e3f03a199ad70993d711537e17e879a42bfe2869cd47),
(0x3108a0740fda513339e2638514b6b7c09254c65dee374a622fe34acb83b8b331, 0x42edc90d54263fea8b1a473dac2f2244d6fc05d1f59e115b5d930132268b6243),
(0x1666c40d052c1c04d9e95099aeb558612ee58ac06b22f962154cd8ca7cb4b23c, 0x5065bb41ae046638aab55923e0752954abafc247d201e84fb6c444b193a82fb9),
(0xc96d07ebd3eee6a8f001290df76b2d82ed80fa90bbd5ead53a572457ee47722e, 0xd3d69c04447fb7e9a3416af1798b749d13ba06e478a432c8d00dc2cc7e20baf3),
(0x0a9ffc39b11b5b0578769a9e8ce7542c647fa7bd7b2c3479fce84d911d81b49d, 0xbec2124882e928f7e98894dc2584071280a6444938e53747375d212268bcbee7),
(0x52ca128ccd4c93808e55d3f529320fd3e825787f1a600f2737fc5fbbf7af0632, 0x846e8a8095a98cb7b4ebab014d9dbfb937ffa49383676ec370f42cde3135f7c4),
(0xff92aac177fd99277b8abc41e49f7c94006985252329b9ae8e0fa34ea9407c20, 0xaf0d8cdd5aaf5273ebbbf2a9b7230373dafd9a9342a47331a3379f458ffdcfb5),
(0xa692a73ed3c10a3c38163c97314d02fa5fb653b1d729ff09a541d01b27991e0c, 0x0722f55a3e5bd3e80d863d006b82415aaa05c9499a537809cff9be69e468b905),
(0xd9e59c3f7a629a93e32fc4cd2c98d4806b813ba6315ce4e2e2fc7fed4120aefd, 0x24ce2594230731194f5bf658909a47fd3234be3913aa8d30eb08e14faf0214bb),
(0x74e5270f7771b10964991ef79abcf05b4dde8d5a605ab58714b8e53404a0f6ff, 0x2ad861a3a4a83f09687a285f1356b1e371ced0666915488714bb0461b3b1670f),
(0xb91692301c43f7e761a856157957c3a2744668a48587ff587a201f5931d4420c, 0xbd36065bc12682804cd818e0c6515a5b659ea423f5b23e5bebe1f74e5819536f),
(0x37faf253864568da972d7211505b7fb2cd01fdc95953bcd879239d90364d51ee, 0xb69ae2ce749db3e7e6aea7360a3bc961d8c125236f7be82365749ead3bc15f85),
(0xe194114c4a1c138b34882477f0dcd0651c379f98c198614b43b087bba20cf8d2, 0x7a3afb4bb90ae22e3b182cf06514a998889f2ad3d71d4d6789e3758ae898a93b),
(0x2ce2db010d3fb4517388e4b3c81588d11c8b13ef0917333cca054379fa17ddaa, 0x9232da9daf0e76a985e1529aed1a556874285cb38010c922e2c30d77367bbbc0),
(0xc292ec484bdb70453dce2e821fea76880bd66c6e59635f4998618f9f3d6f051f, 0x210a74f06b81e69c4d0af49bfd15324712b77736126f48872b119ec897b57d6d),
(0x15bcc9c097618aef697b423ccd83ad3e0933db83d77b42ad3e132036a5acfeee, 0xe9fc7ef11bb996fdbfb3c49014912ca1a1bb98a900e9611c1a83a806b88a7a33),
(0x46119caf50f13bd797be45fe55f2d298848639c699d5b113fd24cb246e1e7785, 0x6a203f91f4c56eb97762cf8f9ef932b4ba3015015aeb1215b1327a930842ea3b),
(0xf3a177943e4df182a9549a3d2da1f9fdcf1410945e6b3a649d9df885b6f9ecf4, 0xb34eb7cc5e82ad39fc2b6619859f8328444a1dffc82ee115c80cec106ecf7e8f),
(0xcef90a7484a7f468db9cbd45f5b9a0c5fa98bdfa50297d67536075c6b7913fe4, 0xd090eead2a43fbc28670294652507875fb79a555e5c5573730fa40a26a301815),
(0x21d8a214987aa938ec4b88b24bfa566126c528b6b9060b06833c6ed2a35702ce, 0xc354340d5b65a23bc628167c008a2830f736dfe9a501fc8e94b66f26d84579e4),
(0x6b18ff279049be4a62a04f6cf82dbd24e19196fa46e0761d5d1395183a1ca53e, 0xef806f0c52c013678f81e9b26698fa326343f0d72522f8d86cacfdb2c5ffa3b7)]

/-- secp256k1_pre_g[1664..1727], /repo/src/precomputed_ecmult.c:1702-1765 -/
def g03_2 : List (Nat × Nat) := [
(0x7d8ef4f20452cc04d5332afbea3e673cbab07c36c081a0ee850ae31dcb466e6f, 0x3246166755a2ceef273367d0df10f6c9d224da47f19117bc137a62442cfa0c0d),
(0xc7de182155d15649f5bb632765ac74a203413560b1d31afd6994b48820d12cab, 0xd9965856c5fb2c0fc93b86595c3240d87fbe013611d7e84448252ce796eaa23a),
(0x4cecb33a915e2c3b189eb6ee45fa4eb3eddeff09729945c600f893bd4381b294, 0xcf17f112b5e61cb8446250357b700cd73534d6e13310b6ffd1bbbd8e1ea3aeb1),
(0x826cf464bfce606bb4c3ab5d4cf00fe41c9bc72b285c8c10204aa65866255749, 0x6ba3b431527d285b5156fabfb150aa2f6d7ca564b18011cbb878e2357b6849c4),
(0xc812dac6f497d2455192ba922d6fc10dde51d608d82e828e0b2187e7648f8f62, 0x0d02e8c7736306808126ee1aefaf53fc2be94dd87773e8f61ba6b4abb08b317e),
(0x5269550ebd967f47e45eaa8bc9f14ebbaa45926b6e38cd1e3c6d5d3fe0ff8851, 0xa1597d2026e3eced443422ffcd1b3fd1b45963d03086a95a38b8661f99a7455b),
(0x7fcfcb2980e652cfbc42721fcdc40ba8c7c2ae6d54a51e9baf1afee7e84d7676, 0xabf72d904a408e34ec6bcbaaac8f19d6a4d044f566a9cce9f95debf8882cfcdd),
(0x85f01aa04597e104848e18a2132a6a073d5f25eb8baa857c079dc4b664a9f451, 0xf7463ceb8a0581877bbb71ab35bcf4565398cec1cb4e013204b4ec47e5f081af),
(0x095b4a1a7dcd860fac3fee1d10febeecdc1a5fbc224035fda01f8dff92885628, 0x2a0cdf9c5bd94467efa9dfa694c6ee3e1f80bced23738d97f70406ecbef7f772),
(0x04f624a624dddd0bb254b38ce37753d88cd95cacec4709f049b90ecd7f6c51c5, 0x874a9a8302efecd902a20dcd8ccfd454668de4eb1b976bd070ce584bc77a4fa5),
(0x39e06912e18b537bce440f58545e9c6ea2914d85698d4043437dd66d7506b48d, 0xeff20e0a16e93096abc80153c128aa1200f06c6d4695bef18db7a16706f352e0),
(0x52edc13266d6783174ff4f590cadb9794c1d41b65efb93107a717b4678f1ace9, 0xe569e202c6781e3fe32c0bf49684d7d3cb07cf558f46927c3af6bbc1c4d402d1),
(0xe3764b48964b81073e287f07c915fc8de4e9458d6f2a8d3a1dfa43f34328465f, 0xbde2a64bfb13e0ba351b460f6d0d75745b7261aa53a79b6c3ad5c8f34cfdb023),
(0x80efe5077c77698e3ec38768ef81732be1c81aad9c42cebe75627effbcf513e6, 0x690c671bc54391e9695e6059953d3d9ea9df2e175aed4bc3483f104a0388b709),
(0x484ac7d50ebcc497a2f2bcac87cd23ef19b0bf7e93f8e7285173f70fc908b641, 0x1d9570e6f3b172369f2b8551653f32715bc8c99514c2aeb61b44ea5e90ef371e),
(0x9c989e3fbf1fbdd84dfca53e4415cdfaadf26c263801ff6536b8fb5f77e3d124, 0xa34ae61f5755163b964b3b8028fee3ac2993c442d7f16dd4c79aab0c88212a38),
(0x08b8fb0f601afe7f6456570f19e37f8032846dd297b0d8e09308c57d75a5066b, 0x07858afeffc4e6c9b2e32f1000fd67a1d6166c7226f03b3c240b29e0e848c9e7),
(0xe37d0e740ee1d79a981baa79e0a5d807bce0953a211c00ef451d9d607ee78177, 0xd28a128502ad25f4df1b5625bfe59875a07d0593aab4ee6f4bd23ebfb09f8f9c),
(0x80c8577e9a003683ad658e7547657b1f281052d554cd0e194b2a9e701325c147, 0x0b3fd0cd7ca3a2eaec7ba8a0d7297347fe2baf99bcfbbfe432a6346f564d945c),
(0xe7045d6d034121e5536f790267ae01a950f6ba8d2d05349addeb38333ea8c6a1, 0x7306a8db326994dfe15571d9c2a5dd2460b37c2fe97559e4e7d88ab88a181fba),
(0x55d2da4b850a47fb6b3af0b13c03889ad87554f7cb3469804f2978c8652e0d71, 0x6ac0f982c861d0f6cd20b7b4f22eee5d0189a56d5cc4678072361e79dfe16e7c),
(0xce562e0955a22f7fc83a5ff211500c03a1e86d1c404019f55bd1cdb0b1a38d2f, 0x91de004db4aac47bc6b0a165edc5f82e474070326f1ced314bd6d96b521bb865),
(0x74e00e1f0596af057f91bd6453107f1d00cd0eb86b93b6fecc7592e37854773b, 0x11ca88a338e52a53eb311867b10a146d6fa9f01511791374e13fb749d8e1d217),
(0xae8f0b6bc194f6c91d83e400ac92ed9768214d3995868530a2e99f9e2104eb48, 0xe973fc420dc0a93036127de9eb57cbf8d4aa8f7314646362c855ceecd7ce4cf2),
(0x40a8c06c8df83675e108e0c0565f33d37854e7226f76b6741582fdcdef891ae7, 0x16ba7850b5116afd3d29e0b040faabedb8ff9c0983af624ea100555d887bf7ed),
(0x61ea9e545c57f6faa2ab410f861f1fff926795b04d240e487f6df1bc6df83b33, 0xc69ec12ae0b217c372e1791f7d4529f2b9063e6738a8c03c49071581da79ed15),
(0x1c889cd4440caaa4fcdf55f72145fc17d73e25ec264831cc30a0cb5ec1d37632, 0x041b5246131fa67c7314a2237db5e4b0574f5b8611560166ee55bc9422d72fdf),
(0xff295890791d87e7982a99d3ab50bfa5c58e0d0625392abb4ab166a18e49525d, 0xa09664de1995136419649baf88806fbec370879fefbe4a58e619a01a19454570),
(0x5eb2eabfcfca1fd007c939e5b8f890cd74e399aed9bdf7857bca876784e95f99, 0x4c42e9701c9a783c201aff12016265d801f46f25fe110f63031fb8fbf72c9871),
(0x43e5508cdbccc93b5b3f8ce17a071c1b3b17bf4d8153f61fcfc7b6b4f6cbaf91, 0xb5ed8f78438ba71e509ec388d09a5307c853bb73db24063815a073439bdfdcfc),
(0xf5d1693023cb20dfc8607261cafe533ceb513f877f6e2c995b0c0f75fdb56f53, 0xe539b16801528332f7fc4bf873e2965c2557dd406eb2c8f492ce0dc2126ece68),
(0xdb9d66d15dc5a91846180a62d662a2eb72313c6fba511eb6c7fe0c0f78aba2a1, 0xc96de8a361f0dc5a9e2762d92257857c3cfb46b581c3f0b1f89a20f2a1517227),
(0xe760d3d846fd63bc4f565bfe7bf5133b56ffce0827b99ab6833a64b8868ecdf2, 0x60ee668508be2eb41821cc8254062e012c1c1e12285c83810e60e5d412f102ce),
(0x2bdb22990caca7abd22533e712e37004e3a956b031da4d991351d7905c33e026, 0x64675cdfc2738105dac3e877e27d00e78019328624cbbf82a784713fb6e44731),
(0x1cce0bfd05992134b78137739fd6c8447be48d20e001bbbfc3c87b9a8166bee4, 0x2d4a8ee51ed7fe30c3a1253c4cd9e83eb5eeb73ec166f4cc42788bbdcad37057),
(0x6d6be3c37f5dae7bff5b5bd8ec6b8c65ec8405c5bb6575bd6ebf89a577641075, 0x4fd3cc1f5c6fd3bc6011507f7c4eaf4b24d1938d35159b8039246ccfac9c2c7f),
(0x0d82c180d96e781d783fb1ca8758fa1db3c67f2f143e836cc6007d8bbdb22351, 0x3802f669952aada893b3e9a974a4321837415af67964b1e151a7b8e27ad0c7d9),
(0x4ec61edd7e03fd34f91dfed1b546f1b8fbf9fcee8c73e343b228ce183db3cd71, 0xe1199709b5b2e2ec8af90340de9ec3c6db7d948faa941cffb1984856b03ba9a9),
(0x31aad46973aea11ba54744d7bead13eea8df7a8f8e735643add781e9e17a034b, 0x64676f413e49f6063f68bdf57ced7486a94680f8e60e2913f13b674f84b37adb),
(0xa98421892fccdb8ef6515903b589ea6201f946bd97e2931a5eb1ce4d4d173e02, 0x50be76ac3b2dd7a3a3370e133cd6fb3707ea266d0a566049abe488a489a3908b),
(0x822b54f33ec004337a6cfa09277540cefee79b08a50695e3f8fe0eceb7bef099, 0x393623c620d3f6047343ddced8805bf07405d336fda8c7128d044851236bf7f6),
(0x100f6b55fe3d7000c5f8de14ebfc5d7e15793d10e99dea3d33adf25c15065e0b, 0xd1bb44f758c4dde27c9282676d6c1114a352ffd0dcec8e519b2cd74a4eecb4c2),
(0xca5d83186a09c227481aa6ecd195d0946a54257c5adb71bb2d4e8836d6142f7f, 0xd890847fb9747a0af3ba0c3884ae057f878d8d31fc73933de014f4d92677b42d),
(0xe91c25f42234d20e2931a352f98ff610e8ffe53f101b56cafa5da12e24bfbf14, 0xb1ec15e5441ec52bc71740f6d60e99a77a26bcf5143ceb41872b4a22964dbb86),
(0x57a8c8dc310902d88569b29022e99ae7acb545472ccf706509e9d42c1ae34445, 0x852245410442e09df4e92db564866aee50e7cc3fb8c20accb9c6161e30ab1fb7),
(0x232b8c672502d16dbadd0d4128c02b6f55a8531da6fe87d9581045b07104500f, 0x38110a0e9e7d8587227c476f6549492f4f5255d9e618cf399a7a40f585f93fb9),
(0x7d0be68ad71f69b34f5d4876319f7e7a0750d5c70e3dc876187627fe77004fec, 0x3e72a0507d0af3e61d6f54028a5b971ea12b1d182ca45e67ca09efcd45124633),
(0x4dd85f0b77c2a271c95fa43690c43485b70b02c49a46cd836ba7a2d27af93292, 0x843642e5c9554d9848ab6ff85dada7a0f139e64d2081978e8c9e3bf51c11d597),
(0x537a93f588f0200470b531a174ba9a7a3eb2e5c1eb7672149e264e2f712e52f8, 0xb0d9b3a0dc00926608e25f0671895af394efa1f978257ebb3f839b61340e161f),
(0x13faf471325b1e5798ce60a46f82bfd1ab34659082588ae8b972b3319ee48684, 0xa6720384e84eb529e22f258579b2201adce7ba18845b8bfa49a21ade7634f743),
(0x691e24ed5861b344e015dbea809dede7ca17c48222d9e06be1be4405cfe8acb8, 0xe3564adc0c197b0fcc520d909d9c63475ad002943d0f3f966f49b76b91c529ab),
(0x36543b91aaaea85015aa394ffb334923b754b3f89047f73f423c15dc7d3d7ea2, 0x073b4693b79b800e8e48c8389218094b9dff44fe5a1fafd52d68a2f1bbbe5799),
(0xff25abe0394180cb1e0450455320ea800e007bb0fe3bc8a224f20b078433f05b, 0xa512b10926dfe650e6dbd678ad9db412938f69e008aee6c2f903631e530b7e51),
(0x01dec07b5faafdaf51051f57cd0247accc607bc170c5322272d389a17d87e443, 0x7e77e937382b2bc05a2207a92598dad4d870ce67d0e138d3bb35094b9fa9a325),
(0x2f10f776f62f8632ea20147ed14e0919485ab78dfc636236029c29949f413c32, 0x3b2c5fc6e760462e0b9d8c8b5aa6b1f635c2366833e7ef5ad25269ec68d2184a),
(0x7974f394e61c2cdbacf096814bcafb4aade31943cc18018831160022dabd73ca, 0xe1b34da03bc1aa6687df854e813ba4512be4cde8310e405673c8360089e98309),
(0x054c5f393c5cc4165657746984aa369532af1ede03a51b14436748cf1701c332, 0x3dc67b4949769cc522b0626a0eeab6baddbde8acef78a0cd800c1b6a05043e4e),
(0x199aa296f047c7eb1d8a972a318585ae8092e905e555915d081c1a3b425f3783, 0xf582367964d17a96b4ca7946dfd3a266585154e10cee02e2b87e8fc7eb46c262),
(0xd15d39d6fb616dfa6c292a3ba1fc58e7cbcdf0be7976be879a7f088a9bb7f299, 0x4c8ae97c4e37f837bdbd4912f43bfc79679dd4180b57d061f705ba602bd7a900),
(0x76d65134880e7dfc81a332c6a04b82bdbff26eca9a5aedf5a6f6683f364ef58b, 0xb71ae708bbd22d83a1ec90486975b9a27b4aa5bc5bf1246a6464406b401507e7),
(0x1eb4d2a5d4dffe3630ae9ead792ffa9b452ef0e194c06a02a0308143dcae51b7, 0x88d978c1e6ab8e799a286af458cb3eda7cc94b67589b144c9a55cdbd6ff47b0b),
(0xdee0325135708790361c34516710623de474bdd24513562f95512f0cdddf571d, 0xd22dbcfdcbf6d8092c68a28dc118ffec496d9623b20667c307fc487a1690f565),
(0x2eb0272dc98ac6bdff68f0d55f13f509bf1dbd9df36385aeef02356e56d4760a, 0xf80d43554aaf4eba27aa1832905736875c69ad447211f746111ca02b26a04277),
(0xeaf62e697509672d8ff6ff7fc7788822b75853ea027636b5c39b0321ab0eabf3, 0x442e56aa1c8fe22d71b88b9690733f1c8614e160350700956effdedb2e0a3b7c)]

/-- secp256k1_pre_g[1728..1791], /repo/src/precomputed_ecmult.c:1766-1829 -/
def g03_3 : List (Nat × Nat) := [
(0x2059070a13d96fd96bdc442c236ef463cbc70185b8799d3b15ef72ae04592858, 0xbc9042e83f259ae8f6221d7f46ae56d8f426fbfe901b94a280da34bd14961ec8),
(0xff2ef7fd9e7f3e7e6f7b4ceea44ec2814b8b4a44208c462a0f925d27ad2f52fe, 0x6ace74fbfa6f72b48156cb52a67f51370956a4476b69fe3b233ce4f3df0a5e24),
(0xe3e5cef6fc4553fbd337a7b04357ff1dd8fd0de64df17bf620f7f9d809d14d83, 0xacddfda1baa7b60fd0d1863f769a475fe667b6fe8a0473651b84f44d238f0460),
(0x97a8726a41c02880e9942341a66b9c21a0c64577bde3c54ec11119cdbf57a6c3, 0xb5f37cae27023d07078cc5c726d845e1fe160aff3459d164681cc38d8b67b4e8),
(0xab01e6e94862f9438639484a119eadb412fd90021d7781c41b0204509dcc81e6, 0x6ae50c32101b5c3a051fab0502ed79e548853cf415a300436b11ee057483b14b),
(0x0c464410da2dcf6b02e6ba5ac8d8479e58ed9a4c0a8c2b0d5a2ea15f7673668f, 0x3698c59062392c7de597f333cd3ce45beadee9445209d361adbbc3860b499945),
(0x17eacc685f721f3e2013b0e676c10795ee49d52426edbd8648f098f417867534, 0xcc3116e90cb19f49bbf7214bb3ab76fbfec0f856e994a01bd6b63ece189ef300),
(0xc040dd402908ef17539b77bd5befd53d3ed2e8bcd7d3608f2b114dead4c00d73, 0x7a6384ae55ec25804d1403d845113dceb2053ecb6ce0d3d7427835b415279c00),
(0xa59634983658f70c2ec25fed6659a29041bf2ba2ba92db9341b03e392ebddb42, 0xdc114caf260ec4a70a8e8bf41695785d1ce7c2d282359600a950ade4d79f4872),
(0x44fe22d451dcf63fc7e33d09533836c766382372339de2799897cea11b29aa0d, 0x1718c4e73d4bd434929e9ffae2496f794f3bf80fae805a9e53b577cc4c4279b3),
(0x8bd718aa1358c15efa3b246de244bfd84fc6b5f3ed5ec91cff466a112c71647b, 0x172f1a88ba6c11f01b7deb8de400279365a0a3c8443b2fa5f406dfe84bd737fa),
(0x8ebdcc25bbe6aa23809aa53c3ff3a7a5d7ad4cd55dcf3cfcd9ff8ce1738680d1, 0x5c563b26af86adfa00c3728cf886d83c5be6476678ac5872cd79887545e5641a),
(0x5cf54e1f688faabc99742fb8be896cfab469e5d2feb72f4e9dbc67e0e91713d2, 0xd82d6590d06330d82f86393e190155b34920e8a886324b185694786be4fd09c5),
(0x6c0d96e43f01a1a72ec16ff4e04571ed387185c14c8a2f8cdb4c187a85845f1a, 0xf399a14b763ec2ecf3415c1bb9bb6f70abcf013a3117ddd6e55a96a6b0798c08),
(0xeae928fefb6a2fdcd05f15155726a1339a15ef0bea716ad690d32dc392b74046, 0xbdf87ad9f086339dcbfda7978d6ed40ef6fd462660d6db0984ecc577014c76bc),
(0xe5e5e30cbbe72fded9f0dbbd00e08ddab61d5cb31aa688f0d572008e447b3a21, 0x9fb4adb8f80b6e6747c6ec03d5171ce85de65682a105435c5610065a85b248ae),
(0x711212acc9e26bb7c5ace17626b300bc78df6b0ca79a0b79007dbcca138223ee, 0x0dc688584ef44ddd9e6b343bc4c73fe36b87323918e11cbbdc3aa72aef027757),
(0x3b52ebb3531aa4f6ddbb9ea3fb5e5784c4cf11b2a4c67d506b6340f021c5e22c, 0x3da3eebddc0046a13facf02e46818640b698c8a63c5fb9de55a9996bb190938a),
(0x30f28481110345e27dee7292fe1c7a5645294a17e96cadf91eb76bdccf56b78b, 0x70c610fc26ece34bf047864d25116fac3c1491640a1deb088e6d702b77abb049),
(0x04a844a8012c55b64e4d37b61ca4a1f15cfef527699d5ab5edf1564de930ff58, 0x49874548508de6e4dbbe6bd38d0a9ff65826f9c063274cd3f3189d59683dfa3c),
(0xa5ca561ea7c8484a642e0fd9a999e14c05ce2b5dedc510264519e6c67868b06f, 0xcc917942a5e2eeeaac09b00eaffa7f6b7abe386a241de5a47a7c43a385afa7ed),
(0xf61b7ed31e16c456c3851a68e10f614a1fa547c6456e57ef3c1f8ee4dfd6e72c, 0xcb26d0b7fc40186591f5fbdb4d17bfa6a0c5a8114d099a54734a32805f622f2b),
(0xf8e4d462889700c4b52859f9e766fbe655976866a22207fcaee5618515f678b2, 0x30bb039fc1b16fb0aa09c271bfbb76b106791e9509dd51ae6f01aa4ebac77554),
(0x89cafc1a05d259150b2f6f7171814a2fd5d97a06a717a91ca392909d332ab653, 0x1a24a0ab0b4e4858d29c0055714f34e15eac02da60e87ce16fe2f144257ab76e),
(0xd285370bd04f5dcfcaa01dca7a2ad51033c5b5556aea60bb4a48d97d477c4f20, 0xd4b427b732e885d013a2adf8ec705145c61386b2c6981b416c44d2024693b9d4),
(0x03c532f2d9bdbfb3219dc90d17aba269fd335066e1fd49749026f66a4df217c0, 0x86fd5e7ca6c97fd02c33c7b4284139772791a6f9f8c8057675b3e30666ac5d59),
(0x24d1950bfc35706a21b17a16530372262984453e37e26924b730314ccc8ac1ee, 0x4d22a45d06a31a90bb247c6859ae9a75b05bb9e08b57ded84b9c1ea9c9f918ac),
(0xcc6ab0f36227b1ab149f8aceea036fc2d85053410ab67d4459582b364e7615a9, 0xf9ad93cc040b125867c806b120fa6f21bac918af54a0f7d7107680a383761cb8),
(0xde24a954f36e94b6ca816bcff730b99d6320f20d9b141cdef08ff71b025318cf, 0x3e34b1d91ac24a49b982d23544afd62f8475c35ea48394d967904a41db899933),
(0x77ab04c34900aba90d83a12c7953cfbd5f8243db48fab618f83ff2525a1ffec7, 0x6265ac273bcd77ff496265af75a8db31231c871a030a32bdae873efebcac2f00),
(0xa47af7065f4699e5e0079885d19580a251ff8dee1dab741ece84ad5116e78209, 0x393cbbfdf1b1f78ba563f7cb3465ab975b7860883daffabfbb8f34b97a257440),
(0xa9f5f9fd0c55c7b74dd170fbd032202693d709e1d52a37ea8a545e9e9cd7016d, 0x987179254badf22e8fd847b2e9e80ab254f0d327f6b6162b8734b105f1d5e0e1),
(0xd57e9ebc96b938a28fa200c4e586e7e1ba8668640a947b716cc7cd634e18ec38, 0x9aa0d2ef682391105b4c8b7cb412df8725de16eaf28596a3062a6aacd1b6bd36),
(0x7463a8d8fb4dc14d5618e66caa85d73ae27ccc1cab8206119f5068290faa58e9, 0x82fd6ab2275af504aa0645a28438db86ae7990c40b4c389f0569aad068d4829f),
(0x2e7a708a29c448319a02d03e4eb331b13927ae64534db2fca3c6e7cfd53bf412, 0x84f3f19973500cdcaeae0073f39b3b2bebdf6824ec018160fd2e3b3d4b1e11d1),
(0x8707b0bf540bc058faf2f3c2e8ba304e180d094bb7fa8dda414d30c4d9dd5e03, 0x70b61175fb79103350c6bd25aa0594d718db5ee99667c25dfbb49c20f100b915),
(0x3fdb370c3ce6cd02886070a728e6674922f67dce1b6c08b9613aa2d653ca842d, 0x163518f2474a0344a5c4c5ec10b1efef5d3a5ef99401006317a486b0c8e0dafc),
(0xc37da302412cd549a01411e706f58d4b33077960094b31af2a283d8948472f62, 0xaa08f28716c642f48702d1daaa0a82bdca849000b8ad1d26801c6fe13a21f92a),
(0x3eba0550381ab0f9251f923b05c7a33960ade9ec2b0b47cf25726fc7a5e08a1c, 0x1427b0ebb681dd3a886396525afc4e00492a1ad9a0c5a39655741a5fcf0fa7d9),
(0x96723ea18ce5d5d4bf64628f7754fa0ee43f20a785356e0194eaf8e6bb50cee8, 0x5ad09fbbb9bbbf10e86eef512d448aed6cf51b5bb28c8e8a713066a581f49bdd),
(0xd76452117ecfb6cd3a09d346055d5c58ab82289267910f1329f8d604a3663748, 0xab7cc104d20fde082c889dbe2baaa9cfbf2c9b10c225da46eebb8031c28540f7),
(0x1f6b23dc7e0ab13620d907afad4bc9448c866065b4ac7e434dca8906d0ada5e6, 0x8c37b25d6bc639daad0920405daa9eb156041440e48f6602398ec256763e247c),
(0x46ff04bbaa06a16879479e64bc0e8ed76abb5a128afd1f9d9bd80d5075459945, 0xb1104ec26af2ba0e39133bb9e47a61abe7e9d22941d7176491ef9da4f51bcd4a),
(0xca1b3c25388880693b076e5458bb04513bcdffb3d824af86f3f4a8832a597ce2, 0xf02916fbdd1b6dc476109d11bd9e81eddfc9d6f5798476220051bfe2a1e0285a),
(0x0c961e9aadb69ec48efec7fedcdbdfb05fad12772b801763ee747a1099ece6b4, 0x469a6c33e0b253e5270bb70ad16c4b7056bb9b3c35f0a2a984e2f2699d8fb6e4),
(0x3a2ea2791418cc94d3f817089d44e7777b3132f5b9b67393ea4f28bf939d99dc, 0x15805143c035d921be217dc718d13e2eb981bf8e06525f8831a96c656bf164be),
(0x0416dcdfb3a1f0be1a3fd6ad52fb1c034e24d48ccf34d189e7dedea6b65a7a4a, 0x76909ec2bbc93359ac1777812132db3147e90a0a3c6ca35bebadd11360c204c3),
(0xb397c2459aefc17508ba51772d4b3ed32ed9d1c485d2a2b17318545b93c63eb3, 0xa106a36030763676ab418ffc692043ee22813574e3117a7e4471ccb6f5e71748),
(0x75c5589befd61646329dbb755e809b2ac1bdb8c0d29a306532ef3909d40637df, 0x26f3e1e51492105c90ea19dd81fce6bb95e60295a1fe347dcba27adfa3e6f631),
(0x2eeecd12a351743217d5158c439a9046e4b0dc80119e58b6620e6f08969135a5, 0xe1deebd048c58ed31b53d7539c4c57911360646714147707806f491d2daaba4c),
(0xa981f0915d39d65066b1d52e5addda678cab860ac75ac124aa1005939cbe65d1, 0x4cb09fcb7ab602932d98b23c096e510988d4f1494f334e7b66c600407d3ed069),
(0x1a19fae3a7e81d020a1260c9a759e79e545cd8692666b31a9aa4c0a09bd4ef62, 0x2807d6578af25c69e29bf7bfd877dc7b79714df068ae070789c5b72ab0937902),
(0xcff8696c1ee7d1960d76f1392662e7769b0f431499d305671952813d2420c61a, 0x8497e0138a39969025c04b1a136bb8163581f122b62b70c147fc52c5e6d16df8),
(0x6817a4204a8b3479caaa95824d48eb049669115a9e5a5cd66cc905e21e27ce8c, 0x9585468bc3377a5c9872546535c8385e8182a0c2763226fd95e729377b3052ad),
(0x9ceffc846e0ecc26af13eb99579478f37d114b1959253233bcd33d6c8dd9d58e, 0xe01aca1a5cf8fa1b067c4d4afef1c7ec510602343ea64426856d0aa8fa5d2582),
(0x6a6e1dc6f203f7fdd97965892301e5fb995a37318c410543835f0edcd3456c49, 0x2a072b9898b93e9eb05f9ad86a97546d83b579bf6efd3482f93baca13784496b),
(0x7e7bae1a588d761b5158b4f0fb9186e88ba3a52189ac36d24dd31d7cd2a9129b, 0x5198f63b37995cc7289e60e57d0f873817e6bbbc0d40d29dcc4856faab3dbdd6),
(0x013fc3a863deab2bed54966ffa85e553ffa15863ee12f9f805dc5b35006bd253, 0xe31c324591275056ffca59e76e76a957a8b77c82702e5d58b3b5b57773821459),
(0xffe28deb3f39d917f6b6dbedae89ea4be56503260d148ccbbecbc6d116e9c167, 0x8d8a52b3b878444de53857604e02b3fd383c4be1128c5b2c262aaed69dbb988a),
(0x028ed4239bf26de7d0379a8830fa0ecc481c43541dcbc3cd44483b0f05cc57be, 0x192122e2ea018e674520d860b4b8d8592d56087219bd0ac37bc0405b10ce126e),
(0x7bf3827c7be8c484052acc00eee769da5aa4ca382f806d7276c72c8b0bf8a708, 0x925f3eeee505529b45c601fa1d71d70624a75d071ad291726bb243e8a559eebe),
(0xcf1a7e99021a01c3f8ede86271f7b6bd2acb5aab330a17a4a7be13806fce7000, 0x21365a837b3ba61116a3e740033a34635f1e70a3f38a878a7c3a155d59d3d673),
(0xe779ea37d1517cc40e36c8121bd0a986af3bdd6752626944afcbcae911bb29c7, 0x32c635ac4b19775aa04e2c6c029c6f426472bb6d45c1bf81e8ac8015d78a8a2f),
(0x10309d2b76b542101599785d6c381d52f96977288e0182a1638b7f68f26c2a92, 0x021edf834c8598700efb9b377f931316f3abceacc19b6a1a0438d020658265a9)]

/-- secp256k1_pre_g[1792..1855], /repo/src/precomputed_ecmult.c:1830-1893 -/
def g03_4 : List (Nat × Nat) := [
(0x79927b09701e46d42eb2240de9132036f2b6b311a7140701813e721a533a27f9, 0xfb7c6513a81886c1a4c75640361361048a0f47eeb8d2b9053b3d84ed3b58920f),
(0x743b4e3377da34299f593e683ce24e3f085b1de04a3dd37e0fdd8c731528849e, 0x37900069b5ee63ec7b3f178caae73281fbba7de6849e14f18164d6b6742f3216),
(0xd73cd2e10ce1bb7f1aacd9b49951fe6ae46064fb0a73acbf498686050c4f04da, 0xe6a762e44cc6e71ff5887fcd6a33ff1ccae7f84e2f22a09614b7f4adb253dde8),
(0x3e1c00d3f563246b3ff318a177b3ebf1ba63248147c073e8ed32d69795f6fa68, 0xdf2b60cf87d5c1291036aecb080e381d18ce2e00c23fcef6b4a72f0d2d0776d3),
(0x96e07f9092da1653e5cf10e687526db4ed90c2e4c629b221a32fdc6cd968053c, 0xd65c1c3bb8a2ea6b9ee20ea5bfad3b9a1f8517fe2e5e36164ab207874dc2bd66),
(0x6d23044026b1ee02531cc124b2e0796ad27a765233862854d8e177aaafe1debb, 0xf3a8f995faa1468950fbde471e4ec008e3dc6228a8cfd2c25983bc09ed79bbd3),
(0x8dda9f5c1f949dc0314e43c49e716138ad7d4511a4b06d9dc76fcef1e5707781, 0xd0563faa7585b0a512b674f5db737435ad9d9bef0ae5ba775c78a5826801310d),
(0x5070613f98667363f5eda369fffda417b4bf17fab4c276c4e5aa357bbbde97cd, 0x00b20eff4fe77ea34185751f9b16db86eb40e47e486a48178a0cf09bdc34ebc2),
(0x3a4a70f0bfab1456b9b8838eac1aa18804986d746a9b3a8efc792eb0af16bce7, 0xe4524a9319168edaa1832980c04e8423843b3e8982381e248bdf5a3cadc4f3e5),
(0x2cdcf892183159a9da9a82f54630773edb5fba993bcdda38b5291230aab33532, 0xc88ea6eac9113f3285e299e742abce8d0fd9569232292044e0a35870757677b9),
(0x1a85928df8f15f61012e0cd6f33199ea2b7fed02098c203d781a2dde28955c99, 0x1b3986b2821c76a3fe13a6b030725c290534a12451ebe9455682ce3974db4299),
(0x86d14da1d6b03065a152066341b9f010dde019663e622c1a6b66b84f1da1d388, 0x679514ec764f5cc9e884a6f9f38042cdcfe5683e1f6e5055fd1380c28399b2de),
(0xe41f754f0bdfc879433343415a5078e3300459997c245441565d035716201cc2, 0xdd059641c21d191edfef119f492ee9b40743f5e0bb3cee47dcbb0fdd790e8e8e),
(0xb7ec926845b5bec479668d8f4e4446432946e17a8338e2fc756996d34475cae4, 0x0ab4a18bb7539e9010e210f5779476b4d945e350978ec2cb7cc62e714fdda53b),
(0x240fd9dcf1eade191662554a0a25850bbf3ecfbc083249d456b769d4b7518912, 0xaf03fa5ee0ba3908853a3a62eaa6a8045318a8973135220776a06b08d104515b),
(0x0353c4ecee7d3114979e39d288cc3faa2b88aadf8f1cc129a5c57237875bb769, 0x9fa7ec4090af4e12e940118bad70ab8e28e607b85ae33cf02a0da4fcd12d147e),
(0xf4eed58aa855668811606ae11628fd1b89340988cbe0482d39e803762bd933de, 0x4278cf64fe74e070d071969ca8ceb40d18b40bfa52d7feb91606f0f8df3b3d44),
(0x698ffae2e2d02660434c17d50b5552d40b284f0a736bc0fa01a1290e266ef1ce, 0x1966cc8d07845b741da7e53a496fc12f8bd50cffb0bd143fab608198e1ffc970),
(0xb53b596d5c88c140d6e0587d417c894522d884a004fb596b5957121a65314098, 0xddff60b909befe76c87de48576c32eec25deeb704cc19a5677197ae88f2c745a),
(0x97604b21d4393bf9d6e4cba67e9f2768791518659f626d6552712fb71a13066a, 0xe7aef384e1cf7f7c65c5b0d17357f2667d871c54fa027616360626234a8d17f8),
(0x7a35c9ba6edaee60312b234c1062f7bd3b38760eda1d47edb63484e951bb8623, 0x33897a7ba45467616ae92b586ef704a0769f3a5786ef82457ebd6a424d84a5b1),
(0x86d40c75f989115dca26e0cc9263010ec9638b1786707e01b6a20d950d1e2804, 0x759bd7624ffd8c1e0e71dcc8a846b5c9dddf2842c4170410c0f38742ec315ca3),
(0x603bff479a4bb79f663ddea493b90e5dfc77f6e9b2a401ce3e8deb31609badb7, 0x062879fc65281aaa6aeeefffcd33a02f358c86dddc03720ee1e239989da4f4b4),
(0x05c8b8f3c7dc7a7d721e0bbf8a75a36cfa13ebdc14987d7b5dee68b1032203ed, 0x6b601f382bc4c6bd7d9d304d88fcd6e53faa43ca141bd90ce7749340ce08e7d3),
(0x313c1ec5a91694c241e7a55ff83b737825a6f27e90090505a7963ce87544fb05, 0x9c3153ff9a4365fafb644699bc4462c501ed858e24752e5982566037103c6384),
(0x051aca514616aefb30268cb2968e0fa0150b4bd5a79746bf98b01543a9d923bd, 0x7c51f9b4073a7747bfd63ca4f4e2b361a0a66ec431df41cc203457a74ee028b4),
(0x4ae8d39927ea06484936d3f92bbe97a9353071d67743ca122ab7b6c32619677d, 0xf9dc519bc251bce838ea332b091105380f350f5e4352e7c919e677d43c8a47a3),
(0x6bd1c95d3f9cb5a08c1a054a884d4bbfb100c289c4af257baa0784dea256dcca, 0x7936283bde39b12f6f71fc401b07de7880192357a8887e7139654ef86b803b5b),
(0xe2278a294642caadae370a62e07fbbcb5737f7009ef9e8ce19bdd283aa49480e, 0x43122fcdf3943ce735b570b7ed82f61d087bc8b583d64f77b36f143b4837dd01),
(0x68537cd59f9469fdd104bb01933358308d24fb2c0b22471ffeef4ac4fe96c644, 0x765360ef41107a51dbf99ff326e3b19c4003ab45979de4a732063c818400050e),
(0x5ec9ffc669c99f9f8f8a0735fc08882470be08ef3f81bb54b1290a07765af330, 0xabb54008e76f8716078c3229056b47c01f4f1cdcdd1cbb381a4213971163b222),
(0x4e00188e5d4930fba9471aba465154a101a330f615cae31db2399874704dfae9, 0x07e76f30282436aa73f656dd35b402095ed3fe29d2086bba57fbb81d4d317868),
(0x4ae347a4d480152effd39edeb4c2f3fba2659ce4bd3b6e3c8aaddfd5f15ed984, 0x383e2f460d44cfdf4fab8ba7ba72c63565bb6ac1f35c73070ca2c5c362d4e523),
(0x32cade24a8d3ac0ef96d90fc86509a5e35fd09c4d8f7719c603ce1b89c6665ef, 0x872738735c63b1375b63c5aa6ca89f9a266939f2e0c936af55c10d0afb8bea36),
(0x8e4ef195601475766ace68910f87c22f20c703c3d4f7204f5f42244451cfcbee, 0x02fa72e389d97c1b79eda0afc00fbcfecd5b9d0cc949c6660459706e06ed47af),
(0x35fd575c4adc03f6c4d5499118607a01559d73169efc2509aae7e7ffa4a2c30a, 0xf9a5779d274881e7cb700926dcd10ac7dbf3eecd9c948aa13474add1ca48e000),
(0x932e4c507fd02595148929a52c4126c7efc12f5f5f5db2873c635fedc90a9cf6, 0xce6bca21bbaca19c29f6b1b24d1982c09e84effbcdbf1f2875f61ef9ba8ba783),
(0xcad8de4422a051c1be36a37f2f45970755d3e2ad35debfb211a45d7349fbea11, 0x48b0df1d4f6669f280a41c9034f86f11308eebd78a9fd3e053323a66f01c347a),
(0x9fc7d304c847fae7d016aa646cb363831919ffc8fceb757b462fbe906c9594d6, 0xdd17c0e13bc6a187cda9dd38a7afdca41963676ce4d4bc9e516e3a450d9860ff),
(0x41ba6cdf10d4a05dc6865453894debb88300e4f74c17c0b4c8935761988b5849, 0x7eb62b158c3f0965e571e278b2833321ece57e84cf153ac59309841fe47ad4c5),
(0x1ff9fe5aaef36ae6a2d74248cefb8693d5bbf30df057e884b227ba4411c7377b, 0x6ba24b6c585c003849c9cf41fcb55f09506908505be6469216520575f1e74278),
(0x299d7c440d706d29e6d9d0704856c2726d1348141f8f7ebd893f38c6cbf5d660, 0x0e4a74f34d0374e0ca9b488776de9acc62f7d1ff9b4940400fc85eea2d03ff32),
(0xa0333ed90ec1c9876e318ceb83d6e93a0b607c2dcea512d69f7b2bfd72e3a67d, 0xda7dd3655f51769d35b3739321fe7b5019f83e3bb6b8941e0d685919fba0539e),
(0x5a4412a22e52a330534093d0ba96865f2821cf01564ea0d2e75b84fa404251e0, 0x6a4788e07e6c570e8390bc0ab06d293b3675ab2754eb700c7cd4078d8f0e4313),
(0xd772ec4c3b141dc60e534ea6a69f9b650783351dc2fe7cdc3e823cf632b7b0b5, 0xbd93400d1036487e7090979dddab3821c9ccd92fdb89bcfdda929be6689ac0df),
(0x949782d2c7694c3bffb3e1cd6e40f807d4452fa4eca1321cd04a23676df89336, 0xe7c5e67fb8ba22b54372e5dbbcd63c559f4e2c14c97bc930b68d459cbad436dc),
(0x7ee7d5f575e6f59f3e0a9e4d4c49c71f6d9ca0c86177470e2334f616a457e6de, 0x4462da9c76123e66c9074add76fa310a9cbbbe02d6a07d0197e732eed7d9f3ee),
(0x7a4b630ae08d47b5b785ba7c154179518a5548470bb8320b50faebb7b13f843e, 0xca24e44fb86801e97163a524db4980de69a3b21907f9e5dc6b5d70769d937c00),
(0xd2d90a42428ac40a40aa55032bb623c13a18eef32994f7939c31c6cb1aa82b96, 0x75852e332367d59f30039e0640b1e0e1394a3b6e582dfb667464d5a3f234972a),
(0xd92499ab6206dfb3da1b560662ed4f2fa4809b5c48349b91340e0b16e95d13e0, 0x423544ed26a4fe1a8f940074993aba60fa4dfc64be00294111f29b2ab271be38),
(0xec0c1ec258875e66d24e2d315b7ff87abba6f2be6c6bf4dc8d5830f5c5d09a23, 0xe526a7f1648abd181c49a237e608bf798b798c9875804d7aee8ba41628591421),
(0x69380968835b5989885b4805290ea0503a6ae50817798c2ef30e10096bba8863, 0x71bea39d80f0ba6345297137a14d07c77522df758192f345a6170f5e2f11e5f4),
(0xd66b1da19fd1637e44cfe8d2e1ff2fed15a40a5df596c62bebbadc8dfca9ab23, 0x68cf64ebbd2b4bb71ca17c4e607b33155cc5d91d26583b6878a69476586b9946),
(0x9dd98ca2c6fa62cb92750d70c99316415036475ca6b59695a510dc883298c95f, 0x55a88bb853b99cd6f8d278b7e63b31db40750905d98ffc8187a0e07dacfbe821),
(0x1b66bc2c842cf1bbea4ecccd0c1e2d714efd848cdb7a9b925b9a9aded141bfa2, 0xfe0b470155fe82b8af43d88b68423cb6402b35018831ca890ddb9a7083673bea),
(0x0b280dc48a9231ded396a61c2922e003c7d2d5c90f0e8312c1c075cac8eb688a, 0x81b745a6a2f8be66b32cb3ad62babaf0498c8261531cfff7da9ce306d2738a74),
(0x7bc5951c9eb3ba1c828125ad510e2e92413e906cf015680f8cf1cdc5f18a6b5d, 0x41b905d8480ba8bdb8a6fc7f49adc6d40fbda2f0ee229a1cd43af5a698352a07),
(0x69ff74d12318548d76a5309525ca869511647908dc4f2ea34ed2c53bf6eabfc1, 0xf3a3e6288eb99f7812eaca1eb3adf5fd1d617397dcc95bde0d4be775afde2419),
(0x5fe6dd3f01f6d3a59fa8f8cdde7f689affa46098aa0f03b92c552e1ac84af209, 0x9eeae901acb8d0224ed197a915510eaff356cc16274a1aacd6dbc74f60dbfb55),
(0x469e9122cb0475db7469fafe9c53f911d3b52bc78cce23b121d22e59c505f5f0, 0xfe7487a838b2ba6bf5a5825fa4d22c2680d8a58009db637ecb84e2fc1058d812),
(0x1f4a3ebf06b62923b2df816e8b30f8e472a5e71870c1cc1c06d63b4d9160e6ab, 0x98da12957602ae1989938bd40298a67d1ebeebde88706d39b77c6a614dc89e2f),
(0xd8ea95fe1c12ff0ccec226ac26f510a04117222dd0fa4773c2f78ebd53b86b0f, 0x155bef9edde6f293b88bebb3ce92c249f154b59ba01d7f5b25fef4728c6288d9),
(0x1ad8a3c797b380712214b2cf870453002bb36f5ddc7f25271797bd4f1227cac6, 0x680a77aa3755237f154189576fcf51ed58398c5d04d56a1ccfa3c05f4857814c),
(0xffea710405d1d26e0d9426469f0b0f88355540b2c32aa92a3fdec31824fa7d66, 0xeca244e22d8da06c44ec8db75702edd4081f67af2ca64ed4cb5d04c22434eac8)]

/-- secp256k1_pre_g[1856..1919], /repo/src/precomputed_ecmult.c:1894-1957 -/
def g03_5 : List (Nat × Nat) := [
(0x4ac55ba3f7fc889854a141c8cfd6f675d3abe9ba55d90f3fc1764ac8b959d8ab, 0x9c7b2b91f135fb7bfd252d14118b104b714821b41bd879ce15bbc93bf8be2bd2),
(0x5f8144677aa9a4cef29de0eb865b8a02bc7061a9ca525536fe27af50bb718ac4, 0xbda965dc4062b26fe64340716301fb022b8cb89473e39b3669acf10190d9c042),
(0xf372cb04379174984b29f21305981f32da5f96a4d1acb90388beb15475dd88bb, 0x82d68f5c1e62d5001a0a0ea07694194c7ceda2ece32c4efcb2a0ab461a367d89),
(0x0fb12bc545760478363133753fbfa4b2878ec6f2243e26927a3c5320bb59b128, 0x3f82011867dae1b5bb5ac0cba24ca68196193077fd7bfe17a926be5c4953aef5),
(0x3d9759ac918a4a34f430756017a9747f4adafea1b0a92447316ff81960c0ea07, 0x0cd9dbcf6d6a330ab671d5ddaa96497ccaa317a677bebecc6fca559a56018aaa),
(0xeae0aab3699c521c3fb49be4669bc7dd9f476fdf58e4290984455c82fe3e00ce, 0xbadce8dd450ee7c299b77b5625e808a362c7ef1e11e30bdd9777fae14f17259e),
(0xfed252eec2c0ceaa57625d0e925ee5d343718a7d24ca338455e0abed451eb851, 0x66bbb6ae56ceefcc21d66b2770756f64dd07211c5cf0bb4c457a5a8ae82c648f),
(0xda639ebd022ac3c1417fb04d3bab0b222362af2f9d3013c9bc08793a2d7f9dbd, 0x83f2762055f1e9f2fa74ed0d536bbe543627aaea3e7a031c10aa7b4e822466d5),
(0x524d24ded77345af4d4d3ac67c71df9132ced2a6acae682ce097cfc27eab90dd, 0xe4cf5cf7c6927c5c31b6f55c90fe7cff2d010a00887b3b01b2f7a074fab7f5c2),
(0x7dac2ed5fb52b60c35c7cde0c28617b428672da45fbc21c4b24c526854ae4f94, 0xcc6acc7ae916886670b5c4a2bd2466c2f6cc11b6d282b09ea578ee0fe7794038),
(0x5f46b64dda61f59f6b99d10d00e9291a887e5d9ca3893ea6f7c51cbee56083ae, 0x6043d055da252655506dcfb9c557292909bfa6ba7e1b582e5ee1f3d9e283a8ae),
(0x8863ec33b6a25f216e641ec2b8c5df0f48ef0fc238a7f635175961a17de14aa3, 0x9d6618f31e52581c2f8292777490655b45b2a583da0ff7a117dcb12b0eb42541),
(0x854034463ac459ce6d8184c7ef26f91fb377f3f73e92ea03a1bd6a6833a2f9f4, 0x2d1f12968ac56499b252a5b18313fe358f7719f23b0c9430438f7278c5b399cb),
(0x0bf6b3f6217e412bfe651dbc362266b46a325d275eb7f201379cadd65e223c7f, 0xa1160954c14aa455fb041e7dceee3dedebfad90d6af1beaf0a9b1aef97ba748b),
(0x4b20202d3c1861354aa079ea409aa4cf860ca2198ba1bffc77124e5abed9e59d, 0x9f684503c107c0b0ba5d858f2f11d9047703eb45510602bab555e8a90f5b8873),
(0x4087f8806d679a4b3a24f533127b593199c050f2627cbe282686a5aa06421dd2, 0x4838ad84b3d9d48833c8c883698f5a5969880041589f921b5a5707d2bd88e8b9),
(0x15a79287cb2e7406a2db91e005a4fc3453877504c790eac766d9131afe97b79c, 0x9f4ef322076572e3d3fce497c2c6160f1bd597cfb96a83fadf2a41a6b94a238a),
(0x1c4fa063c0524bc4ff233d61bcb3d40a404fb10a7e2228122739b343e3bcecbe, 0x2a8561eca2d82eeb97209e9ebd730b2bd39c90b2bf4d03533aa8c73d62d48bd6),
(0xa0708ba743c1b2c5267936c185312f2abb50b8a6d4886c2656d163b5adf2a636, 0x958f45f1916988cc6c9b8155012e1d2c7dc66a62359a43245845e94d371a20ea),
(0xd7960b4df01a42e6e109d71f02e33ffd09b79754b129a858c213793ce8acad7d, 0x8caf19aa5a841d2b61c3d0e1dc65730a3356619363118707d81c1e19dbdeb920),
(0x7a03dc6bf8ba70d596e25ba38fca1b32a7c4506e6e8a3789daac3240bf8ba611, 0x70f19e22292d68565a63e378b773e170048a3681d096b881fcb84a4f7f7d9028),
(0x53a9a662a8fa3411c3989850c6c83aa5da516ca0726fddbac2f38f25c7443b97, 0x5deac2506179c31bf313279e844d1e5e2adcfdc5b803036e140ff59e03945e25),
(0x86b946b63dbb0d86ffe69af63c1bbaa9b7ee99b2876836f20a450d9cfeb2cdf7, 0x44407783d3d0e2a6cb18ea1ba1e4f1337cbc39c019997a62ed74b5980f74b1fa),
(0x0ce81cf5cb884b46f695672620d2423f6b28c8ffba71d9babef152e6ef752d8e, 0x75afd9738120644c349bf924c04c1aaa979177ff2890c9262d0b54045ea9248c),
(0x41106e413a464d2d9f86cb9e47d57d477b791d43133a2b8fbc6ce92de1172ed9, 0xe2ca44c230e920b8005601a2773a0f882ce4e42a7379b374d2ec6fa1f76741c6),
(0xe9c1f2a04e830a12e546541ec7ac6f6bbca3f1ca2052c1524e141b4a20b49777, 0x51df384308dd12c229973fcd516712c85ca73721f5d5030886b91f9b32a58124),
(0x8bb9e12dc5e8ff3e4ba25775f1552e3b9be21f274250d511fce5cf15e73bbf2c, 0x8a822b7a273c37301c24fcf50c19c4deb4d0968abc23962f91ef11a8d00d1152),
(0xb0058ef1da227791e4694c3eef66e031697f3f3e0297d1399ad597a7acb6bd0f, 0x7f5bab4a05793814d8c0bee68ffe8025e5deb6447d2ba978c805b2f0be205a2a),
(0x1dedd42d8df5fdd652e02b7804dfcab06dfc35574b8725c8db95368cac2522a5, 0x3055a44923730d2518ff4a8f983b61b824b918def357654f5b46559eb6bca540),
(0x761a5248c6794ba93f45b0b512bc39dbe471813d9d5c5f7da46f2ef4380ea544, 0x185ded30c4f5ceac5e18d0a395ba8ed69f7034085fad1fc5c60d10b0832c1292),
(0x0f1d5b60e515d0cc8dc20982a13c1b5ba1749687501a4f2ffefab898e3aa5caf, 0x55fd766c395fd8c20173a9e48eb63f07ee6f9ab754994708e42ed9cf78a0d91d),
(0x569cb44c9b7900aa576ba0bf61c4455afb09ff4bc30242d7fba993fdbb37425f, 0xdfdeb8d2ff1ae3d41e78f646ac7dda3dc1131de80e2566d0d33402720cc350b1),
(0x3e59b69ad99839e851947a787d8f850b9c2dda117dcd0776d22c787cba1851eb, 0x732cd2a48bfeb0306bdd935837ec4f277050745eb2c9f6d434cd8834592e20b3),
(0xa46d662107b45682982502403fc0886d81acec5732c3087b0e6ea4c495296967, 0x140cccf429a5b06224097a73f9a8208d46147884e61274640051acefb9763d33),
(0xb920e59cf25c53ba7c00c427d1575c9c4ad70efedaeb792774d16c465079ab1c, 0x606160f1d4ba888d1d5435a61656b9379201ec5f37f585c9d43197c1f045b67f),
(0x12cf1ae1e7d837b9eafda1efdb270db63b88b6d98d05c713896e06b7f8bfa8c5, 0xe0d66613181b934b09f23d7be9cfd8b3c4c1d66d485075d91e8cca6939c99c0f),
(0x6aad27ae0a4eaca2e60620e5a328154eeb93a900be13a30287ff39d38dc0ec1f, 0x932155c5caa21539e27e8cd2dc57fd7ad4681474342c08112fe626bb94a1f46a),
(0x134cd94e7cb166be82b489166c06c1b88d168bf921f75c36ce9343ecacf870a0, 0x42a673c5e956fd45e82a51cfff09a3992f7c8fe7e73d14c0fab88c3b09453236),
(0xd5dcd58c7b7cc7868c42971fa1c85cee429b1d18dca68e2c56d9f5b55a3989ee, 0xe0ca4130ef1bcae4ecda05297a338bc745bedd0af0bb75c5e316624e21208100),
(0x951d6534c344908b905fa4cdb691f33b3e3567bd1538a861f66ac9d00e0d8c8e, 0xeef35922eb8479286681a990345255f695a5f6919a7d79f9d575f306ed7046f1),
(0xcedba44b25f7964d76d84c9c9b521156690af0ba966ede27b33665cfc1cdd0fc, 0x806a9049cb8e9af1d187b6b6493316b6187e712491a8f7d94c21b79a87c79e7e),
(0x4ff03660d1306bee29abd39d32beca15d1c7d2d114492a2049c6f4aad8a10b54, 0xc2c75e698fd89951e36e8bc8be71f6894990f25dd2ff1893d99e277306d1e574),
(0xc08bd5088dbd6465e87b77020dfb7200c78061a2683b9824389042cece2e0ca7, 0x562019d61343497ab164088423a9f1711db329b608c63e7841793255f88d7307),
(0x48dfdcaa6fd2ceb23b85cdd228bac318955bdda8274a1e3a07afd5db4bf9857d, 0x2a46622e896167ba5154e76fce429554af60f4b51431d1710d55ffa2ea0287ce),
(0x40420900d81af883cbf76b4717025382802c1479a33a3ceebbfacff316a1f236, 0x866044e0dbbcb53b308f50fa2b54255c7831e96ef19e1b4be4168d1b7b85e3f7),
(0x96a3747b23b667c770ec20184e99208eec1e314203b1156f8b12f37e322bdc42, 0x67b0b3c8df8c46473310b04bad325d6fdc7545f4a4a07af798c7cd863cf22ab2),
(0xcf07017de403796924361f0cb151484bf1db3e91a8d167845039132bc8460182, 0xb7a1b10762f29e30d0f6e762f6940638e2eb60c9e65ad06799b1bb393797939d),
(0x12b5b8b25b0bb6f7ad1b90ded75fdd5b93507aa3dd7276dc0805cf5a218beb15, 0x5d3d47678cefa19b80ed6368d40ca1995a5bc1650b3609aee89b56edb78933da),
(0x879b449ce866e6d93998b9ace18b6f1977ecd299bd9b727dcd99c37a13a46765, 0xb0c480eb758cfb12acf50c4e91a8d9e5f0c45215f03e6baec6c13a8363781c63),
(0x2ec48783e9d3a01dd1fa401dd3fef249e502280ccb36d21dd2b7b90a0cc7dead, 0xfb02912478f9e2ca1a5e61505eb469a283fd8f8106798703ca2f0c7e85a67fce),
(0x79cca25827bedb0739fe8fcd2145956a5b7878fbbd873a83aee22093437c3ce7, 0xff488a93d82e875014cb7c483eb74b30bee990b22c1915a8d3381cea9cac467e),
(0xc444a4ca3d2b8b7a826b9eed40616aa68e146a80d49a9cd93e93cdd55adbd207, 0x4d1368a963d504c2541ae3381ded0684ac00ad0fb8fc32319d1fc273092d0f18),
(0x3ee47c50cc0e44b25864e2050835e8d6dbed328a60493c267ee5529bcff3e7a8, 0xfa555339056ea87bc3249640145e243cb6229a3003d1b91f84e1ca9e90a5f095),
(0xe963c9873036bb7f422251a29f9b0f478e69e2d92d1920a81c012d7dc809980c, 0x0ff95bb0779bbf2f1242bfa4880b173e140f92d6c7f8e5e618027a3c55c52fd6),
(0xaaf6075bb6a1b8b9afe4b747a46fa39423738e50e686c8bd3f711cc6548fc07d, 0x4cdb0aec6d11ca1c1e85bd162eb411ea53ab326ebbdf898b1bbd5219aaf2b0cb),
(0x691e4817d8e9756d8e174a18d5d708aa842b44d5ea9212986e4c75854157ac0f, 0x9eaeba0b3bfa7ad780d0eb1572f928734bb9a8df29f508c2d1ff4076a0c0c222),
(0xc3e6fdbb45af4a48941c9d4c583dad8cc77dbfb31caf3fd81d9e087fe744996a, 0xca998d1e65ab29b8fee07bfd1ac4e9790b869474b5498a730e642bc9608366f2),
(0xedbd6320a55d25cf21f2630be7c5c996923eadf80333d3868cec00b30940701f, 0xd65192e7afcef5e4c88cd12bfe28f94a5e3d3d50f6b2c3e3f7a142434de4889e),
(0xc959ed83a80ae0b8ac2fd24943c37412b29684ed9d4d85dad7cb4c34ea95d336, 0x80c1dabb8dccf252ad8b0e97025970c14de5f58e012f7e5f8b59a2e1a72b168b),
(0x778cc574471004e9d88c90224d2d5cfa2c5bc6edda64a31274e3df833eed9237, 0xeea23d316b2a1c027b92e502db921d9d675720fe51cc360946b2dc9392916c17),
(0xa1f874388c3656af43f299f81d98d2c0173e7e46d3fbed9a5c2afc9663b42055, 0x10bc84430820d6c5b3150e79b99367855d874afedc72a84eabb987a7d56f4afc),
(0xc8ad7f0b2d5f8b8acd9a1839c3d043ee8f7fa5837540f6a3d002091f68224a5d, 0x3018b580eebe5b9a2d1507cf18a7fe4a2a1cd4b51157dec38e65f191c7aebf8b),
(0xc25d52640b93fd7bb7e4e4261ae767f71ecf3840a2a7ad20bea810db4820055f, 0xfa15c8c76e3f2b0fa29fffbceb48ed32bf331aec3a147524c349e8e2465ad684),
(0xd0b972eb7e4cbfadbaf224dccb2d873b2831687788b5f2f2ccc62bf5e978f92b, 0xef5d3ca1606a5852aafbcb4cf23e787a75610b318420bf56e94e420df7ab8e3b)]

/-- secp256k1_pre_g[1920..1983], /repo/src/precomputed_ecmult.c:1958-2021 -/
def g03_6 : List (Nat × Nat) := [
(0xf8b44c83585644796448791ab98132b6d393e851bbc294ab56c8042b1b0a2d07, 0xc28242bf042040bee9851362fc8e764e2dbe0c01d5bb0ed0b8e1edfee870a27c),
(0xe7cb89016f72aade39410adc12fd12345d942419051a6d368acb7c83da5666b7, 0xde36752246b6d9d7efd4ee6c53a1656ff0c87e80cb0f8f6395341c35d6b21697),
(0x08b2128f14e3f4aa92e8947864c5eaf5f40f93e495cce167fb2c7424c279d87f, 0xe7ed384af469b4b101812068a830303e699926d5b8304c11cbeb0e490cf5d246),
(0xf34db5db3cbcd58638b6a5f3ab5b31f41f3f631d785e8317658408f5093b4afb, 0xdfce7372bb2c8466fa31a1c74ffc1ac45bf112634c98ef2d56e30fd50c3dd3d9),
(0xc3689e09a445d685daca48eabca533b910b4fee4dd251c86a965d5c2ecaabdb8, 0x7804d05a6a263fbbc33efbe4f4075d1fd62e187e3a5917a155c1f22f1679e3f4),
(0x7ff995ecf776a10d07a66d626095892ff1e47d4a2b47ca78d708a0cb3f005cbc, 0xedcdc7745f17e430cdca4d1156d082880e3911d0e92999f5cd5c5eacca6ea90d),
(0x3662a26262234bf969b183512423ebb50db78bd61cfca8e41c0253ec427d4d27, 0x88a620420f07e69c0f40f671ccaca36bd550ef9b79b4999fc41cabac1c2e1b09),
(0x2c127c2e06d9c42e970e66ee24a07388b6b4ebe91614b9511763b4143f54e8d1, 0xa4773eb8dacbadfaafa26c8ff4adae30856be0236022d93aaae59c9d0fdd6629),
(0xc420ffa6116f161ffd94863a9fe30b7eb7dfcb0b8cf9acb37f6d65154ac17802, 0xe6cc469c25c68f6c8499e9cf95eda8c17fd76d972ee8fbc0079b143be50a028c),
(0x77896743220343dd58c2f06fd321746834d386a7e7fc969b50c77847eae3de0d, 0x4350d59e4408dcd9710bcd7d629e92a8cd906759627921f857054a4d21fd9369),
(0xcf7ea42c1a14dcb403334f9b636ff0f77147688f19133c83dc127139349f5827, 0xb9c02c80166bf9dd139c2846895e4aa60ad1a68966460a29f8e951ddd99e6d9d),
(0xd1793439ab1fabddada8ab1b33c9f96e417b1c847f7536309d815fa5a673a91f, 0xac13d6593b5941b23b19f6f7f9a67d0fb429add25a40d05f9bc0d1cfced3b3e0),
(0xbb1568d6727dde70c52f58630133dc9e547225774a74026be9864f029e92b420, 0xb5654756268d74c6cc6adf80ceee29c09e137d2be15aafe70b170c9522af3992),
(0x732912d783e8a5a3a7468177231ba93fce07c42d778dc20535cdea7adb877dcc, 0xd34b83881b128d23e68ffd7c29c7a9451664f5d3fed3dbab06f78c8e77df80a2),
(0xc74f0f71fb8532e82c3e18651684d3b74927b6dd22504afa9084688c7297074c, 0x9da5ea61c0bd178e8bfe5a92dd040c6e35984bd41102806a53a9f1a7bd006ac1),
(0xbd4fa9398bda5a0c5a4e9e4943060d9b1785a6133c970aac91fcbc689e3283b0, 0x631d4fedb6614b49459be1caccbac0d6e79cfdbbf14de95c5d2a5cda030e433a),
(0x9fa65462733f13d32483e0c815cb6bd3e9bc2d797b89ba72f2465c64a341cc8f, 0x7051fc5bafc5b18d748ada32c4a27151443505fc2f14f13010fa02e26a12db04),
(0xeaea6f7dab3dbf1e816434a9ddbe53bf715168fe2c1ebd4a6cd40744c35e31aa, 0xb96962c24f202b96c2080619ff4ba905a594b9b01f709e6a76a1a7ab9784d61d),
(0xb3df7ab63b947504f33e6d5b7b8e25539a117c8a497f87516b97bfc53b17a2fc, 0x72df7500a35ae6ced6fa626501a759ddf11f00ea9152a5b5ec51bbc49d758b9b),
(0xef875ecc46da48ae45619be9950e294f4341df09726417fa3a8d1ac6c3281bbf, 0x7ab9e204af4c05b6d6d0eb6e8306c98751ced2c2b9e8dbc28a642bb37f1c72f5),
(0x74c3c446576a8a3a5082f234afca508b3d7487574cbf14e7fc26f36c70024fdc, 0x73d579164ddb6fa872dd2afbf9d8a307b6ccac9c94a4eae88c4fe8e1dc136506),
(0x959c4b2c409f2e3e6c02049333ba2f18c06b71825a664e1acf33846d0cf39274, 0x17cab35c7401629fb73cd3980dc5beddd319919f1a3995d945f42f682c9aad47),
(0x404f0dd6941953131953b53c67fdfab7f67c24bc92fb4d69a9479a9b6c9175fb, 0x857c75e7f40a48d3ab1560851d42b0377e7d3e7986efd570147917bdf24d87b3),
(0x3e040511233b0f5a53df4d5ab08541372db4ecef0170b566807c49236ce82075, 0xf9337271dd44384377a35ebf56753b221fda08e01b790e02b9603827600df3d3),
(0x942ea85310dfdc3e1f7993e747bdac04ecc8692b94847bd3e044cdf22cd77e6e, 0xbbf2f7c8e688b6e9b4510bbe58c41b1df33e9afa5428ce51e02e624b9ea155e5),
(0x1e577a749883a5fb855938097d0180a1dce21791e10b2c0a3fe6cea1cd03b532, 0xa147662f856f5e15dba530007278e8787b575612d5dcd79019417ec3ac41c003),
(0xebc9d95a8a237b64212e9dfa607fe4a37a05fbfe7c5594c8ae472c4f6ffeaa5a, 0x39406dc0e311a47ccf15fb458f8b48d38fec2fd86b4afc05b1747957e7f1162a),
(0xc78eaf601afdfc202123d22808496189b90816371fb2c4752773faf063cac063, 0x095325b1e0c22dc5df6e84c516d396f9bacb42cf6c1fe9c76df83b3f3eb42de7),
(0xb5918719a1d504d2b44a3d0e117c27984f2e536a03571db8752685cfdf6d34a0, 0x9b01e8cb585cb7c8fa29828aac89905016beacb25e62ea356d54e9a618184abe),
(0x8706a73eb59fc9d192907dfdcc6f75b6454f10454a5e9584bdac978e8e0042cd, 0x8b1b5f566f1f78d6f528405a2b6a87e84265e2dd1e34c1ce7109286d5bdc3a49),
(0x93e9256e4ddb4bfb6f4a928906e2ad04793e56423a22230ae645529d0712d6ca, 0x83b242dbd9b3dfec3640ea62f0e3989bd874f24790a75cd69756a8ed6eafdcea),
(0x2dad49af8702f39bcb353956a1d5601ba24fffbf58ab527fe9ac6ff9ea2ac295, 0xb5af68b8e604076255c0704e2cace8c0ed40361140dc02fe2773a62527e4675b),
(0x5ffc18994da42fa4549627195ebe332c86a2c364f43b14f759710c544f6950a0, 0x22eac0a879815faa220e61419db053cd4542ad2f9ba9f63f04331ad5c2c9bb88),
(0x71be09bb1832a799c4e21bb8a2bb5ad0324c639ce6e62b6e69fa60bfd41c51ba, 0xc5227fc5719a5b8f28c40767b54eb249950588dcc15e1656e4ff238d54dda472),
(0x04f94305f92799f0a64a3cb37df2bac456d661d6445682770bac0ed66a587212, 0x4c48691fbd8683d6b94ddc7cad8d1d7e6baf796d6d00f3440511fc1313c054ab),
(0x55ef868b6fc2923ee624fc0965f61852b3aeb38ce2c6b3bc54b86b3a60f0ab81, 0xec198aeaab16b4cc5354d0adc66051fb76cff6df22dc1a0e72ce6e791622efab),
(0x26ad559046e19dbf0e60953ed40a3958a357f6bc236422790cbcc35574fdab68, 0xaf6fc5ef906721c0553c6a7460bc6894e5bb77e74dbc25e2184fb3f0fa795508),
(0x739fb43ab1b0715539c0b0ae43901bf2bc051a698ee8d50384fcc1f0ec37312a, 0xc12237043c8822262d4abe331de6ab4dff90d6b84c0b59e7a193e7636c6b7e28),
(0x2144649d508cf5daa7b422f822e9125fd5a10965a9d32c6cc299bad46616771d, 0x1153178c0e33c445f03ef96b35067ceb76ddeacad9ddba1a74acd229d01ca76e),
(0x62cc463c16ee8e8f16ea85175508278d4d5577e3556d3580ec8d90e3bbb97072, 0xcd294843e299c500846a6c91c913395b56b48efa2f9ab3fcb81863fe8a6a891e),
(0x0119630133edf190d14fdb00640f74cc4317e1ddb9dff1c9707eac3353ef9c21, 0xf16ab4e5e3a3ee6d743851876da07034caa4f5196106a0c803136d215420494c),
(0xb250bf863fdaf93f28f15baed9555287777d4e3402673c162b4a63192289adcd, 0x295c05bede343d2887d3543f6b40d5f9da1e06ef39fad6f828ad5ac139b3d2c1),
(0x93a40bbcae5847399f10945a72c199b1027ef00814e87e696f4f46f6483e7c6c, 0x81ed70c029809674f5f289a45926864bf088e2e00af6617389fe8cbcaa858a09),
(0xb9e6761b4e909d75b17e76b34e9825e019ff7ddd4faa9f90eff8c0c0f60978cc, 0x640c15035fb912708881b70fbf2c857565c75e3bc98d211b762790907b5aa117),
(0x4dc22812fe3d9ba4687e260cf5b2dc08ae454751b022b9beebf4360d10cfec24, 0x9c35ef4a56858135552e986da4d6805627f0822e43031c4305b2df5f7f9a90d1),
(0x431276b31127f9c2406b94ba683d2d3be198e225236635409348286c4c9deadf, 0x2265ed84c7f1df864b46280dddc8cbeec26d39c8ddd5b74313938c4ae01efb3e),
(0x75c5b6c3c99058f42b4b81d76cfaa917328f1736b8788360aa810acb3683632a, 0x549f009fdef17b7f70a309ef49a890f14a5aaa1ba80f0464affdb5c50a8f719d),
(0x3c900027205af742976b1a377a4801df26d4d4e912ea757c815ef99dcea827d7, 0x0e28cff337eca7de2387fa7c0339dab2007a24460fe7184c83c578b108649cc0),
(0x5660f31a3676b95f09fa8ab0d5c23f30c89637bd3a8ea97f3a87aeab3310d9ff, 0xd6069cd66bc4ca0a7d892ff3e4d9aff3955bb76c2ba3f839efbd786cb11c568b),
(0x2b8b68a41b45dc867f7979ce5b71d778e6733cd479af6f618cd786ff5f3babe9, 0x7c831244d5441b33c20923f63ad9a093840f89c46c1421ab40ac52c58de4097a),
(0x8635004db817bcdc4b35788696b3fca01d369d4b303e929044229cea89c18610, 0x2472da402bd46e6be2f84cc05158da1c7e9f35121fc4b00c4c3ec3296eb909e2),
(0x6c991a6b6eeb4f979b7afbde46e1eccdb0d39d03dc64fb693a56a23488cb28d0, 0x1e5df74fc2cd635050277188d3eb44730e0b753e4cd413722bc119ef65c95620),
(0xacdac19d4283cc91b9698ed7e92288b8554569a4962ffa0ca52a197e9f41570c, 0xfa536d87523c8541f530c6bfe71742ba451d41a6f97d9afeea03a520c6d7b66e),
(0xb1496ba3f696cbb9548b107c3d28a7cb85bba7f0aeb50abba3e2a596465fc6c0, 0x77fb6cd5727a4a6ee0fc8f8eae807827487740bbff5cc57a8572ef3dc86318ad),
(0x3fd97db56098e9ca0fccab31d6d128e6c2c9f878adb07ec94d854034d9b09126, 0x1bd77c361494e3740fc4512738b246f724e37d4b027e14a22c0401f3222b4578),
(0x5e8df855f2a468ed5476d5c4409c7cfaeb174cffad7933388982ae2ec2aefce9, 0x52e73a823bb8ca88a097718438701841d50da8ecc46f357a17eb8cb136a6845f),
(0x99f106eb1417cb69e95e6fb0a0fb932c62021a1db940c6613f814086c64672bd, 0x9e7fb038e1e7001106a926e6a1c27fe5e484d843d184d5337e9825fff7a6501d),
(0x686fc4985526d87ffd11d6864ff0e20868bb14fd4a5c71f7ac43063a7e51ef8c, 0x1d28f532d793af85bc96dd6b2e0f23fe4137dc5f5b3d624422f6091944588e5b),
(0xcfa5df56cc450bca914f3a85b370f864e4c83600560bfb2093df96bcbff6b83d, 0xcefb9a46bab7ffc91b1d96c748f8170661cf56f0264e203f78b05f3b8d37604b),
(0x991b6b4c3fbb9693f7641eed534e7cbe8937606a962a83e8b39089e4713e404e, 0x3ffeba6bbe556688d3b8a0a2f4b92b8a098dab79d5847c7113bb60eebe3f8d3e),
(0xd104c5d3b9b0121c58a1fa14f226c5132955c4e356938bcd6891bb9213c8c0d7, 0x08c8399a814d7cfd032cea2185c77738091ddb00a091196a3d90d056b0caa6e9),
(0x76192853a45c3648749c9a40719424eb415a06f7c74b31bcad93194be355dfce, 0x311392873cbb5012d7ebc93452613c62b5517b3791475ecf84ef3745324ad2fc),
(0x173304a80509c1f4c05b1de5c51093b210c7f9b981a7d6c88059fb1ae5070725, 0x43bfbd98c8e08394543db2e9c692297a800cdc8b398c13d5f9e21f89341d353e),
(0xaca057e1d28c5514107f5b6a9e46fc959eaccaa80b14d4c46b7ae5150bda104a, 0xe17f171770bd76ff18095be9a4b72b8ccb00e6cd23f6d7024dcba433e6bf6ce8)]

/-- secp256k1_pre_g[1984..2047], /repo/src/precomputed_ecmult.c:2022-2085 -/
def g03_7 : List (Nat × Nat) := [
(0xfb202550e0098fb1c30a7385900a7dc385b2945f60e6eb04b7e8489d3476dbaa, 0x1aaf84203f72c68dbd3bc98c77f473cfcedda922dfc3c99645e4f565ef9a0f28),
(0xe95b710ca0227ab8e5b66c66c2958be3af1aa298422c501c08f879bce11ae7ac, 0xe645f4e1ab5cf4b7da909022cedd01f8c745a968d9ca30a2c5525d509f97cf19),
(0x6db4525c3589bff9605cf203cced45ffab136c6cce77ea1514766f3de844770a, 0xe6b7f403f5f7584b2331d29582c0698b799cd7bb3c59c903eb5d684872658c81),
(0x8893aa9e49daeae715fc2959e4db9c451690438a6964a2c8fbe7313335085eb3, 0x70fbd83eae803f3b6377a4b0265f62c9bd15cec5baec8c10d01c7094e5987cdd),
(0xbe57f6cfac6e8cda871e3ece8aa78bc92cd9e2c48f3adfd56e39414d8e0207a0, 0x7817087299abf89cfdcd141d899aa7ba8893eedd36bb3aa158120f2bee93d5f2),
(0x077fa6d285a01129c5e05ddd8d02b5d4a2f69bf45a9e75626718cb5420b34925, 0x315bb23c13a3d218ce886288ec0edfeb37a2da990e017b97ce04db45326455cc),
(0x2fed7bfe8414dc3362c834ca767ffb0e061094ad978ddd00b2ea09b8d1f4dc03, 0x14e5e8f7aa0b3d31565e434f0011c61b63332a60b6c4cff20a6de2c598117e01),
(0x9f4c2cd05a871ba1fcb43df2bf03ee3f7f8af242ce8ee6a101aeac890b4d66c6, 0xeb421f52f24278878ff8a2abdc384e23d0fd7df5fc341acf83bc5940be922920),
(0x53c0e0b6824a04ccb7203ef6e37383f015f0a48bbbc1d3ce7c8fa7ca5dbea647, 0x6a9b598d9246ca1a539729f9be80939713c59d5e105a8e91836fd3a14d618cf9),
(0xdbc0cc82d7906b84b6b7bba5433d68ebbb20fdbf7b4eefd5c0a3ad8aad17d714, 0x5ebc1f8623ff2c3a6f81b0904e5e63388aee42e285306e37a4fc76762dcd7211),
(0x7862af32a3c08e047b1a8cbb8131d55eca93a47840c52165af20aa6d248f5f0b, 0xbb5f66076b10353c8a367a64587b3bf97e8c272e8da92684f1efdc338bfc15d8),
(0x0d3571fc800158b76ed2bad8015c93b1f8238fc9b87537524e44c0ca931049ee, 0x162dc9e83e6630aa9d0872fa915af44970a9e6f9526bf15f4d26bc7482a44bc3),
(0xa851c894cebbc758642b98e55df3584fb9f531da88faea26e908b0b788589d9b, 0x74702d5cadfac1ef71df38983ae433ad1e1af1f9b5fae0e1151258e3b375b422),
(0xa92e43f4012effaae0978a08cdb2e8852d9af1f901f0931e972016ceda58012d, 0xd8f5a09d5560170eb35d7bd128252096535c687b23bc13c6bb903b95d02fb668),
(0x75cafe448b4369c842e658c64760ecdabb29e129d283c24c09007fb5f3cff6bb, 0xca0e12e243c735531e2affab51d4738adb1ea5a2fba215f53c9477b10b55dc39),
(0x00ab00664db959ec2f17a23378023b5ac48c41777b6e6b56a21484538c41d006, 0x8cf9e2fc35545169f46762fb940758ade3d3387deb72e9b7b5d371759f5d8b31),
(0x27510ef82e4b2134180855bf0469d1f0f89b9afd573f27814a1bea509db7ecb7, 0x20fe00e886b54c061fe073555be99fd3b0a1b20cdec68aeb90055c34acfb87e1),
(0x773ff5a8d388277b7921405c99c9c207f4a6c2ee3b59ac1d7452c8ca4db16d3a, 0xcf45e631f51cc65bafc806bd87318e3a00f75caf3e7342848d7435bef8a52f8e),
(0x2f8f2c98e69ebfc3b7277e359da1a8ef4293fc372e24386fe14cc4551ef45746, 0xf85d23ecc4dcaba023c3e406604aaae88150a6c8feea2c3642ccad409968ec06),
(0x1878acdaab8dd0e2a088495226356ce57457567864da41c061a83de96277f67f, 0x412c868d064e092cade96f05bfa48af3ecbcc1280e6d09bb9684565ad5477020),
(0x08cf281aeac4e4e27ec4f3cdd1373f62c5a17b0f49cf69c4cad8c4bc4f5618c1, 0x2f17f99529c9ea27cda3911ede33029a7dbf09db64ffa625cd9fd86f29ed5973),
(0x3a597c9ff165369e5d90d1913dc2aefea0957936717f1ec39ea20698d08939f9, 0x8c2203b290c9a2de05b464b000988e07a7b48c86f5891926da462b4eb00a14d4),
(0x0cbe3205096f10ff5de9c86155290393b9ceec90bbac68ac5054facb950ca15e, 0x446cb06ab76aba12c32b4855716001cb9bf7c72cade16bd05472b9474fee27f4),
(0x4313c9cf08224e7018413b09e65447311cde71005ee60bd53a8db04156fed594, 0xdfaf359dd3045a8cb181021f9a0252080e80bbd4abc4a3317ab9d7351b329a96),
(0xcead2b51f8d8adec2d89651b2da5ffa51f5cbfab19fb76882bdf0faabf73c60e, 0xab2a24806992f0e8c73e79322bf144ae6dd3bda7ed2d221bf8451ca456a25897),
(0x9ce75c8d0848762f645164b845ee6eee98e34dad9f8be0e52d8f27ae4a7b79a0, 0xe0556d4fe11ba9066b97c04c8b742a269f627559b9163571d0a29dbc9aa30a05),
(0x6024489c621de255f92106bf8c23847b10214b8301d653a96ba00889326741d7, 0x0950eb2480a90200ec93262106b82e5eabf63e086626faa9b1fd8e2e104ea858),
(0xd3c746f0108f6bcd406c2638c07255fd1f55e1a3c6845e11546d22ed5f08e51d, 0xd124dbe5d349c739e641a776c57ef3db35ed4e1a6ffc165e25d0bcce438dfab6),
(0xa1eb5f5cd85dc222f97b9e11e08594dda69c69f9bcfa4c6352cf2717136514b8, 0x46ed3d35a393e01776247ddd7dda3ba0ff5e3f7630253b6800750a7cf8a15fff),
(0x2b24a357fa3ac2cbfaa5f1c61c14147ce4406556b82c7639721f7561485a8736, 0xd67219bd707aad551a8fd7aed5721d45ad192a5f5d0b643c018330cd1bd73ade),
(0x9901a1ab9dc6015963cc9cfb42ecb41aab6a623e62e9f306126a4f6cfd87b2ec, 0x8f766594017cd7f2fff7a3df6cb414e7eb5950c1ee265730633ccd8ff0339317),
(0x311e84455890e2f1e1d8e60037d58c8328a2a4e1b21c37634aeb99658477e8da, 0xcf593f676cc75762a1b0dd00f6703bc1e017e9271e61c829a0459056ecce030c),
(0x905f72e397140f6e298ad8b8c8faf66f122d27e46fee88b367a8ecc79e83bb77, 0xc03f155dbde9c265d90b94fc1b5b253a2d98528aa12e19b4698714a6f1b65257),
(0x61df77a5d59400012fcc2f02199cbb4c39eafd33027dc85e04a3f55ba339350c, 0x27c88b7d00de9b3f73b0603f2d6e40f5f36640208d6dc05f684626a2d9049161),
(0xe1f8e199886d4b1d5dd6af906eec06c70de36dd4ef0261295bc42bac5df18c28, 0x502c12e9b956eaf12865bc4bae7e634856a98db54c65a5e29ecf8ab751ca45a8),
(0xade2f5b83804a21c07dfe6a77044cf969180e15479a4aac19b686076fbb8565a, 0xd0d65e1d07c8168c308985d6f5d267e598a9e6f645715eee3751bc26ef066aca),
(0xc55820bb0154f972ac345dd5c62880b89f7f6b85a1755b88ea5821de6f268187, 0x911b0fea1e6ca659263b698c8a17488d4dc35f5ad817e7a21241e56bcc613086),
(0xea20966e321020f453964352b8ccc2d21285888c152ddd089f7039c66c7778b5, 0xc942f591cdc81e526abdc9bd643429c166f5476cdde18d3959e29f269f4fc18c),
(0x3c57552d9c2dfe5a67301bbd3e1ef84a220c908a8e80c7079f9f4df4607e2bf5, 0xd49fa0ffbc4a63973e71a0a17265ff656fd34754ed508522b9f0200be71f39e3),
(0xf188ccc6e1043ec059e8e13394ada165a3fd5c0bcf7f071feb5a09519bd4e1c3, 0x5f1f371fe53e79d02d6fb1908207649bdb045c410a2fe1cf9448605307bfdbe4),
(0xa0145fd27e72232e8055a146aa7bfb49447112a2d1ca53cad4835e42c11c8c6a, 0x7bc018a0e5e70ccc0c4bb675f0709cb0ceb874bf22c7ecc50243e49c3de679cc),
(0x53400de80c2211531fb857060b558185c17b7bd8b17416bd9c93df80f16ff48e, 0xe1228e473ba565f1e50840b6a36ea9702df873208a66a44c89cd33da41a6cc6f),
(0x82115d2d009d37e350ce34821d59af85cc8960b452b999048c6c6674ce64b1ac, 0x98deaa09659a0c2404aadab03b9d1881bffc1b3de9226f05e75fb9efb61eb048),
(0x273d8c1853d86f1cc49e6e9d450dce268669cb7c030839681fc1789459fe7c3c, 0x6c5531aa8ad026c8174c25a251efbadb14974e1f7f7f88af2e16d10100c2ea00),
(0x00616e16a7e3819170e33f4fbf428fcc41e68ccb5b059bfe4036751bba5ee319, 0x7dbcad21182a3efdb99173f5cca993747c7dc3c73e8af2eaba84b0e4f506748a),
(0x6761896a76a398121f773402d033f210dc566610275f677452c37c0160b82812, 0x7fdd01cf1b40939f8091184c8e2c8ce511848df1a23607ebe760782e67302c9b),
(0x77f7abaae97605da12535bd9e177b6b0bd6eb02092345fe6dd4a6d4f89e508b9, 0xfb04996ccc7b830dfcf5fd19bb7c93320dbf20fa10d61231889e4b65cc7f0b9e),
(0xc12f67173a2e2bba3da97378501f9cf1bc4b4a8a67b0c5a4a0d8caa398bce311, 0xde93098644d31401510012aa3b6cb541097cd1336e583853a330319f779a47a8),
(0x6553a2de19c7552c8db9d268ddf3a0344afe8ffaa76bb304ee77ef95c18e66aa, 0x91a720107c180bb72af4dbb7752d374d69f95bcec9bbb7f53737706070edb93c),
(0x0f54b4be353f418522e2e9363400caa9bba98023e6a3d3eec1fc5046b7b834e3, 0x96be786cbdd5f1f0a835afde219745abab6f78b40577d3a51246437c8e96f17e),
(0xc2d317c2a0fa65220bbc806e45b4dc8bf86be37c4b677c64c0d5b4b40eadbb2a, 0xc5710969bd68cabb718cb16dfc9994a7100f078d4a3aeaf58e8eb35ed313ab6a),
(0x52a567c6a5b8a64fdc74b9c957f5d472cc43e1434136fccefe1ff3131b89f384, 0x332631bfa314298add45f7d6b8192956d7de27e97d835d485c16f7a29c9e8f53),
(0xf7dc086c891a441288543527831247bd3530f0f199b4c5e98d24a2071dba4e20, 0x734ed712452e59aeb0ef5f7510485860da055003ff1067e7b82de345b74444aa),
(0x954f9fa97bb6dbc0cbed8d8cde6f8f75b3f2ae51e512cd3e90520d8b22ec06c6, 0xb65b43bb8bd9660f4bdb3017bb4f82145426f6148f04378bf65c39db185dd9bb),
(0x20e69b984141658820b66947f775cd966def2dbe416b545e8188db142604e87e, 0xe65146590bd12b9b35ae45a3d43f60230dcce04d87df1f51caa67f8928632539),
(0x5cde5b822dc42f0444187fb53302957771bed4842ab39dc3709e7c570c72ed1c, 0xa0f7bad864e405b5094416e753fd6137cea3dcbe7625fe41b4929299a9a0ea9f),
(0xb586cb4c6ba6b0dc2aafd03f49d4d6e845b204605de71c346e73b131fb26421f, 0xced613e7c26ea3b2a31de623506afb866767b46998bb116d2b4ac9ab58948744),
(0x7d3f617035803a82c8e13dbfa8d601c54e192a54377e4a8b2a2a5de690ba6ede, 0x138e810e62f413c20fb5647780c0bcbd77eaf84be78e900f1969f4d52ec6cb15),
(0xe7a314befc4af863e7fe67135304ab81c9fa32dd80fa9b41d8577ec28f7eb925, 0xcd978600f0e04acffa99b6d07da970c113ec94cec50808fb091a44f480f3eb1f),
(0x179c3be49f41902ee21cd8e810f0dfc8ba5fc0ad9e454231ec090263d3c6a577, 0x75f9f60efb9b9aa029eb03f5a50b7e4e64021689a4e889dc5b9ff0cb4c9cf184),
(0x10a55871464bc182b957808e25754fa508d7626905cf8c6fe50610b091e6401f, 0xd36493b96d2bda2ce305c679f906ba9e99a787f2aa8cb8b3029516a341b56ff4),
(0x4a9037225e858c8415508d45b31ec7f6585827a2f3a9c99f96af3e9ae88e555e, 0xda4d45a7fb9e44d0cc52463f20fcde1431c9a477d02c464c70c7d1323247d145),
(0x6d109d8c2505808f7b4052d6b170ec80c68373bbe02f2b621cd29773a96acb3e, 0xc8dea0de511f6e405141088ecb023bff200c870b9cb952adc5038b28eadc9a57),
(0x9c2198986d202467c055c7347355750506105b3e2874dbf28f7f0c3966e1af88, 0x8637496c8eddff12f9dd414636565e0fefddf5cd52d484550ec9fb2d8dd0914a)]

/-- secp256k1_pre_g[1536..2047] in pieces of 64 entries -/
def g03 : List (List (Nat × Nat)) := [g03_0, g03_1, g03_2, g03_3, g03_4, g03_5, g03_6, g03_7]

end Secp.Model.PreG
