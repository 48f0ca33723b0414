/-!
Generated from /repo/src/precomputed_ecmult.c:11844-12355: entries 3584 to 4095 of
`secp256k1_pre_g_128`, as pairs (x, y).
-/

namespace Secp.Model.PreG

/-- secp256k1_pre_g_128[3584..3647], /repo/src/precomputed_ecmult.c:11844-11907 -/
def h07_0 : List (Nat × Nat) := [
(0x5ed10fbe048679372ed2765af7f5b4bd52ef9a4b0096515e37944d9fee1a3838, 0x8c4eb9b49fbe3924ed8ac641025dce66a4bffd7b5fbc68af2a8c8633b4080573),
(0xfe348a21f04c85ed69fe7345f73420e1b8f6b8597082152a15a1d535d01378d2, 0xd595d446c9f5abf45ceabd103e38e4235069473d7d9f99117fa9cfd2081f2b7b),
(0x07140369b7b64ba00861e1c0b5ba3973b573679cc091623dbda88745fb2436e9, 0xf0770350f979960728c3bc2130c6672e40dfa362072c50ad1f376a5483a12b2d),
(0x6d14c4e48e981e3ae7ec6b88b12300960a7465dba8381bd40aa8215799dad15d, 0x25e4d2aaa5f2d12aa4e635f6db58b2d5f9c6de8fb5bea99a50e5b050e7e0f841),
(0x7931b9c6a6837d7e3620558e55504e884dffe07105bb628daeadb0af1a4383da, 0x586caa73320925c6ddd12128bf3bd38d96b7a9048422c2ff9d5cfedefbe80c0b),
(0x149e9d6a35b83d435d0e1f32a1518b8888dca14527aabd95b0ecd0bde5cec834, 0x45807aa0fd84cc65e91d49b38d012fb4f87b11cc01906e1fcbc74c5ace5606f5),
(0x656b276eb4b351a8222f2b59d79490101bf6e696c284bff7b809bd270d297394, 0x8746f3095f8643a2928ebfa9a0e35893905eb6d3faa8e5d9b64732817b763291),
(0x60f399e368086989ee62370ff7852e1f3656a720539880a69884b60a0f1eb02e, 0x55dca05a8347be1485251676d20b779f9e5976fe4def267d4f1b2b6fd444ad59),
(0x4dbda3030a67a41c0a46f41754f9bdc1034a305a9018ce0d4cadbe41886eaa13, 0xe062cc86fec33458d65f9fe64433b745909a3b95d23d7970c22585b83fa48fc4),
(0x816ae1ca04d64cd95a7c10c8fd819c6bf8c8b1c4f495b111d07f2a00dd0363d1, 0xc09f6bffc331d6fd56ea55208e9d13bbb12187f20d49366b2dfd1c1866526009),
(0x45839f9c983fe0a7c3b2b8fae5e288ad87202944c16d60a000f18daf8081b52b, 0xf9368e074de74eb4081f7beb30835af9aff40c6bcda104db2a785a6a65dd8649),
(0x50ae4a483a49203b1e04c482ec2454f244b7157db23bcd5063c5b6e8d4223465, 0xe1b8cfd7e7bd2e1f65f2031ec583bda50a6190285c36465836dba37e7d5f3008),
(0xdf77b2316039508919edde15b21ace77c5d8bb4bed26f9dba694195f616b72d6, 0x8a4b75b89ecebfbcb88cff822673665cc99e270cb33f303717dc95008b4344a4),
(0xec6c0e19978e2f18b74419d6702740756d2d238d63b2d345437b0b8ef233277d, 0xf90dab9a02dfc4cc62571dc135bfe4c696bd3968173ced8a4a363f0b2636e553),
(0x2874416f90e7fce6a6d4eacb1a7222185af2a8854852be4ba4619011617b3329, 0x1f323675f6ced6488ba4c9af7912ad7fb8628e495b4da82d448dd265eaeb4466),
(0x872367ec586d3a80f8c87f3e83b6dd3e529de5cb897c9d2be7dacf3f70ff4247, 0xe5bb60e0fae0843b788768b5e427e0097dc571c9e4b62eeceef68512a6a3ac05),
(0xc10f20040baffd30ae430ce940c4af344339a0b213bf1f4891b8da3e424713cc, 0x37be9055f0c39b36c546d456b3f82edfbf6dbf796343ee59c3537fbd8631c7ee),
(0x14e12ee191c830056bdf0f1503353e80733b8bb3b93bc59da356dd9470d847c5, 0xe9707b8ee00c178112b32ba7c66d7245d487f032018d20dab1550e3a9befcfb2),
(0xdac3ba1e2583379dd2cdd89f6ad053e43687eab4ae8043057b57823c489fdf36, 0x45e3da4d8821151955c20ab1c2d1ec4ed13a6942fd37bfa47614745c6fe2c041),
(0xd9bfc67a05c086aee879fad0b03a5a2ca2507dbbfdd2cb092644dcfebf800bf4, 0xe015dd4b5a39f5bd1536c8b1e93490f6e5bb4e8eb23e6ca42fc1463402be6730),
(0xde6f34522f04ca0f170d7e581d9659828a9a981c12f6cb34007618737996c61e, 0x1ec16f3b28d74fa943b9c251f34e15f12fc6d814ff024e3b826054eef72a0cc7),
(0x432ab355338e17ae884a15ef2365283eb35c873a4fa8cd93f54bf828a0e30eaf, 0xf56066a10a130dbf08a3e076720c10a5caa9af0a7d86ab9e8703dcff95447807),
(0x3d2e3507cfa127c3a350f546d95431d48d96990db5beaafa35a408d67f7c4d99, 0xda60885f4711c373145655cab0f8a2357f4a05082bbd2ac51b255593a35f74f2),
(0x7f3f431cb96dd4be37c29d0a55f3b71bf781c7c60191983f4576e51824ba87ef, 0xf4df43457649d24c2b8259f6f7177b96cfdb08c24e9161c1695c802760b8bfec),
(0x4270bf59f2c8700044b6cdd8b558e6ae6f7b67d5f128d7163d604a7f2f687143, 0x00358cef2e8ff9196865da0a15a255246c4a180ded25174e0d08eabd4da99315),
(0xc663722b9930fc9c4113af50d51c6539b7931cab0ebe2ebd46f95b8c7f603852, 0x3443e7b32cdf23d8eb532a3103ca4b320b94768c78f8f13f719708de925ecfab),
(0xb0014864e396ff02cebd7b65c66e57f90168e8f395ae614f21f8f162c86c4e14, 0x3f6c99d7e2ec94deee65007dab5012304a80b69ea0e0672cb7dbe4ba182eb876),
(0x64c9cd9398fe9da35d3329f0ccb82e43c2d735f4d2467b2e1250c410da84f41a, 0xd24b50ab71bf6033d1206fc6dcedf049c223ef78ff50905ec8d95115564372e9),
(0xffe0841d51e058624f759706b27db960ecccfad4cf326736ab4fd9dbcd29b766, 0x6bd1f1c9f6956c104fec159524d8064feb5d839130b34a0177c0749179cf2562),
(0x0d1dd0c0c053c597bad38d630c40d1e74b451861cf0f20fa47fd3f9b77ca7432, 0x34aa97fdb59495f03e7b5628daaaf66b5c9dc5adde92903280ba23bd6c55976f),
(0x87a436e8c76bd7f7a3e49cd3af996f1d9153f7041b185d8df99eca45ae8e5779, 0x8d2cf3f912553844ff905d5b2a1fc36c369ea4ff6a89a027b6dbe797f11006f3),
(0xa54500a74899c440384f707da8fd62ec1801070dcd5396e4b59e9ecbdf27c379, 0xe216444a6d26bb0605f5b5e572c927f85315df3f11da2cae2f33457233cb2668),
(0x937ea4f799a319f4fa5aea85b48d632328417b7208690a9c88fbd51a57d8187b, 0x2931a7fc9eb4aec8b7dce4afd14438acfce77bdaa7d3e7bbb24c8554cfdc9d9d),
(0x50793c76bb914aa3204dbc96cb04ff26c70608638d497f07a1eb05d9b7fa6f36, 0xafaafc78b5e30762b68940df41de9ef3d963b6036bb1ffbdeb13fd6704bdab21),
(0x8b600630fadae564dcd1c5709bfe1ad5f8da528261d55bf13a29766f06d8bb5a, 0xfbf1b64a3bd0439aec45a7c3859374c17885389b9c201f4dc11421206b2916c0),
(0x14e88bdde32a15eda37c96500ffc18ba1fc6164322b167bd635f3d02e78c8458, 0x082c1ec3dc240faa5fa355be475afe0b5cc2cd13760249d735b1efe9976f02c9),
(0xc201e4a324b68472d453dc028c78b1c9975a3d92efc70a30a912fcf4991c6c06, 0x0263a95441d6e6d08ebf3e503c786a12a82f5f8cd38dccee62469e9cf0e2dc08),
(0x4097665d319a8b3f71861b1e11828cdd4094182e611b35a70c5d10ee099db4fb, 0xca0d7cebb1aa2b1f576cd1ef56ffee03322a6b95505727a85dcb70d5027a506a),
(0x173d287aeff9293edd2021a04be052d93713341f37a537a445deab49b427fa92, 0x9626e204f03a1886c27c37b58572546572e5302cd3f9ce541fb9a46c16432548),
(0xc923c74d001b114f30d4b03c92629bed227fb8c68f1f39e78f121a44694d4256, 0x58edbe6bdd5e1382108d1e08ef022788c9f91803d8ad42731f4134405b5b3d29),
(0x92fa7906b1f25c2d3df104c5196cf31f93e5a8be6cb91a57c88c4ab70cb92d46, 0xa12162bd79341fc1e8f74db62bcd0d9cae99a75ece58824079a61751c887f307),
(0x37477df6f51f78c2a9c8e17eed30d5dc976a9c9104aea94c691aa3c408639140, 0x6a6a26ed1955656c64c6e15de50b045325c3da66f50677305c2d5fc2a8089872),
(0xb5b2ee591195f38df834e78cabf00fb0be9bc72436c5f59667ada098dd0521bf, 0x10f36f859523300846dd276d951abe90cc8baeb00fd8fe44314706e215ddd5e4),
(0x0b05d1b8443f1bfe36a415e90d307ef25603933576ecb63094845b03d2a137bb, 0x99fece4bddc90b2c3102a4156f0d63f854098f4803e1ef6465f7f0627d066cbc),
(0xe5d711bd4778b3bdcefd703ae9525b5bd69dcd866cd0b179de76ae8a05d918fd, 0x8af014ae5aa05b29a0c88e218fef56909685d524af3893275421c35c6db64248),
(0x7703cab8377a482fbff1c6fc4d1379981e217d11c424beb9f4f1f78686fa4f30, 0x3323edd13c80b8dbc7e247fd5568c92c8dd329ed420aff0a8e903571e884e8b3),
(0xf834af29c18bb488366cf72252a443572c87da2cc14b30855405f626154f3cc8, 0x2e8a0ac0ca5441a29e27dc094fd5bcc66bd8f7c4717615c282001fedbd5ab248),
(0x783b093d13f33c601db8ee8451d852ae13bbcd7d01d03a794c7743364bbbaee0, 0x3aa90b01cfde6abffa0dbfb20ec2cefb6b5fb1c7041701ab66ec9b8274ae5b4b),
(0xbe3cc435a7770b99014a243b48ef2c773ae42e821c18a2666f92da59e01c3391, 0xf0d3bd3609118c58159fc64de61ebc58a560f70525dd5c51e6aa92765ce4a701),
(0x3e980bd7adac00eefe3624545fee1ae197f89e0684576a08fc909285783b606d, 0xc64f0e41204c946c744734347e09114767455e3053fd488a34d333fee9c5c228),
(0xa6b04140aa621e6a34959bf129790d7291d7b1545dd5e7c335bbcfb2d582b442, 0x9cb2c9e29cc05d975e61d151542af6e7a997f8d8ee42d37f8041c169abcce830),
(0x7ea7a83fc133cb8fa109a6a1b29b2c3a29ba432d222382e51f280e2a47fa721b, 0xcbe384e88a1f7731831c5562ad1430a66aabab75e38571b45bb7dd8ea699d7e8),
(0x8525e87ef0fc9ebe2f82b5fca14ba6d48189f9ee146aa6c8d842aca6090fa042, 0xdcf06a78f311a3cf182a393f2a34a570192873e47dfe22a686c70e756b32c86f),
(0x7555a77dfa050d0c9ed29c33765fe96716dafff36cd04fc0952a7b41bbd56dce, 0x9854c0a7bdc3dc1fd8bd0a3cd0af311118dc0392830699cfd0bd6f1f17152177),
(0x9ed142a07a0adac114e6f026133e00c4972bb3bbbee62f710beee17d9aac296b, 0xc1eaea416c80e3b8d24d4006f699af509f4dca8511c27f6a39150a202b7a9d08),
(0xa3fd2cb3784d8ccd092aa67c8118fd80c9d761c42e0169d5fb13b1a8dfc56b79, 0x75cd9b4155db55f2d50fcdd48c90d58ab0d13df27a09df6d659bfd5bf87ea755),
(0x2ab4be05217e7ee8799ad598b9c0e211554338e28bb6d42fc9952203605ad251, 0x2c2a1a58da066d4a7fc8c8eb83e1e47bb788afc83c8c5dc7bd8f5e315476d853),
(0x4afc2888af8c1aaeaf6268af566ecceb08c95d09d9f8f3592cea567b8648c383, 0xb1e26b825e69e92e989025797e99c7ebcf3f284be1de005458b59336a84f5eed),
(0xdd800faa92319d2e48038600aac1c2b2f63f5fc8dafd988b548021b52d8e3d4a, 0x59fe80926e0468d760e522ac91881bc68fdbc19214fee60ce8e1a9771039ed7d),
(0x84aaf3d1daa3a5f889b9bc886afb07f807bb51826df9d7e2af5a74f3c6378c91, 0xf4164ab845eadd6fa6331218ecce096ba04fd586b744f0e8011c2a483835afbb),
(0xb770f2c39e2e9db8a92823a3adffb690d2ffc180b88cefcc8adad3a827c40b2b, 0x0f7c6e37098949825d1b90a916ea564f7e319c97ca6cd22e79f599e8dc0d53e6),
(0xa60608a8a0d7e55670145c5fbb107cc97cb1db872493f36236a21e7ebabb2b29, 0x3423527c4e41454896406f906d4a3819a289c91fb580ce1906f25c577b54de5f),
(0x80f470f97b7f393a5e6b4e5fcc911a7320f6b0f7fcabf2d921eb649b53414597, 0x57d8f2f96e1bbe0c1328faea013c3f3b770fa14e4b5b7e4afa1ce9f12bd9adc3),
(0x4e111bf21f5248cc3fff0096c64a7b5872e4a3db1f0397fe261cb33a995abb6f, 0x249cf172102733bf5fd829c1d60bd930c03af61431faab0f6d5acbb696eb2b9f)]

/-- secp256k1_pre_g_128[3648..3711], /repo/src/precomputed_ecmult.c:11908-11971 -/
def h07_1 : List (Nat × Nat) := [
(0x7d8c0cb547fa1d8c10254660a20e85ec960cb70df38174f018416c68c62844c9, 0x2d79ba3c17ec4d79a157335bf358cfd372b0f1ae1f6bc743404005715f35a271),
(0xbc0d4cbd95896fa57f23d48fa5a9f2f014b132b89b5953aaf612aaf9670a0034, 0xf5d066707b3165817a64109155773bcb83d7563f28ea5412480a0f482fa0639d),
(0xb154a2aead08d11595eddbe1c9321e155cceb0a6a7e646a42dfe70fab6d37a40, 0x9abade21674dd12bd01e586f695c896e17120d8d09e3c756c8b5e53f3216592a),
(0xef603c34a6ce06f27053bc31841fe2e6314be7567e4773255315ca585772e1e4, 0xf9ebbe2896f3b0b9923a7e57d819a23115fced8f3bd08f5164aae597c49ad65d),
(0xa601176c2d901ebbad5a05d91adc0041014f7bda1ac496e2c04e23fe82aa9376, 0xf781ddb7ce0c36493772fb849e914377d59abcf9d3eade68f8c8a3031ae88ab8),
(0xabc41547b6b3104efab968b9bc9a9027b1c7f0ef3a9007eb273315395c31e6a7, 0xcd2858a228f21d6fbd8a1821dd78399b594c5bd352628dce879b8a37d97e0ec9),
(0x9289010500c9c721b2e4c430026e413a941d1da6d31b48a92f2e3a17d87f5a81, 0xc1cad87b1bdcc6171e432e17c13b47c415c22399a7cbfe2bb3097f28da60a5da),
(0xe520dea69f4b35ca46a468319947690c500a7a806bd64228ad144a7dc37ca563, 0x6c00d766ac3f8fbe90355dda6ad4e2d9e2330b0adb673356638b0d3c8a2a82de),
(0xc0337a23e2b3f1c1a57d18a79d6ef25eac2e931518f0ffb37502d701c57fadc4, 0xfcea5873be22df354729c3d5b07a570d7ac7e938f6e061eccdd2146f50808b65),
(0x276c62bb6a8e2c076b5fb6a762d1d6241b796a960f53593cfa51279b2981ac04, 0x5c53a65abb6b01d23f9284d7d696236c773c4578088f692b73e2ea176e1afc1a),
(0x604e1e87e5051dc2b837ccdd43c8ede4c4a2de6f67a9ded4fad1ddbe8d663a5f, 0xf70fe23ce351197393d4d6759444d862ace4c47399c3434902d06b278b429bee),
(0xf2fc151f470d9106d58b05be5e9039ba4aba16aef7e4ceec3b6e38875c41f6fa, 0xf49bd2c7f1aa5c63d8e7f2d6e0769060d41887739c16b7b85d2a9216e1e98de0),
(0x8e0313460e9f34ef3b81d9cd7e46eaf87ee0b294d66b0315eb0902e1340ac560, 0xff00c8bda5e21e1e5127441c0ee0504e006b028c00ec0dca450145f92c394296),
(0xa8680f1ad75b7a8f27a1cbe16b2954ebd4e26eb3a85d1a0a96b9f40fe5a9970b, 0x60c6bf41a55bdac6397281f2a3f52896757401bec42964c69501973be6070c01),
(0x4d68a1e7f4d82ea1e03407c05085c79409ca8c00d4dcb066128e6c6f504f4658, 0x85c5de11e5dd36912aa95d2d2c36dd6d26a9550a3a672af4d36265e7a3d1ce76),
(0x3708f41c2a6d86496983cdc1bd02eb39758c0bc1ae78a4835c6a20aee6c2a7a9, 0x310b799e79b7f5dd5c9ae0f87aab193e3c2b7145c70af9e7f4553fafabec4152),
(0x8c88396745028c5ff1b9618143f5b7322d1a18cd3abb1a92f6ce3780a115f059, 0x24563ad4e4ae484a0c344180066dd87c40128e425c8dce10b008a7e7620725d8),
(0xc445e76a7b377ad3bdd0fd1a94a7263b652e83c26342305d0a0e1ff4d58f8fb0, 0x4bf5a41adc8ddb613afbd3c13aae7dc6f60ae2e723065b8cc94cea61cbacc89d),
(0x4ad9613ac8a635fe60d9f1d4da4b9fd636949d5eedaaee8deb2f65da8e419f16, 0x5a9b5b068f67a0fb3ad31c83ef1a81b938745877b4b0731642ab495168b0d7c4),
(0xbeb3eae1958bfe6c9ab49d77648aa6622e397fbc58e90b0c20d1d29fd760c943, 0x0d5a46bef43a67ab225dc6fb5aa68dafec76f27b6a822678dbaeff880382c9b8),
(0xaaa9aab0bc0e21b3be3f1daead4a076b4623fc143e4018ab9df9a19fd134f397, 0x09c7d7fe19642c65a6c0347e8fa2dad2d3f094f8bab6790ed3c703ba2742e40b),
(0x553c1e8999d6f4462fd7ae86f1cf9d24d40116619fd5d356604d6a55ad99dc52, 0x26b40d3b8410ac5a6d2ba776f7c5f0dd3f6fe494379344ed6460bd6ff550cebc),
(0x859885ea36378fc4398dae9c4725d604c3d56509559ed28ab47ebf825aa1abc8, 0xfae5aef9fc74b963bb2fd9305b2d16360e6e84aa3c40b0669e531fcff00687f5),
(0x5fb0a118679c5d48554bf7c163b8234589e51032a70c654b0bb7bdeef0368f93, 0x0e8d55f04a6816d3bfb02111eb95d8685b9966ad39d94c70a4cf18266bc2a2d0),
(0x0a42434786f3e153c9bd737c1e70ddaebbed445d77ce4302194be82f94f91dfa, 0x27d1cad6abd9fda9c1012f4df25b69fda54239a58ec1249697116548e7beed46),
(0x5d007508063fc1f3a0a8213cc729310c3946594572b083eef571b921a0c821e7, 0xe538fbc45d055a07b2cc260561238486d99bfa816b0407f939f1d12bfeb2df3a),
(0xa3eb25b897b10286934605a0e4aab7f9e80393aa71cdea525f82f5e8282e3db9, 0xe2b354c21430c45e4236baaf128967c76beec58be6890c6f0303d83f71e7f77d),
(0x73f632208a13320296f3f51cd10fc8161e309e514ea35f0fff72e09ce897981b, 0x43412959cc78f32ed6df7ded0349a92e3095257a8a1b5dc4015ed0730a420179),
(0x5f0825d1c21bb5f38f0d9628f60466487760512df1bb9bb4ccfec4e748da41af, 0xdebac60e1d95de1284f1abd5b65928245becd4b8c2496323b374239ffe5c0cab),
(0xcc42a6f2b4a8e9f2fae3f624cd12294eefc26dffc66a676da10259fef7d84294, 0x91b26600f92cbd05f13f2adb2b5fb17f118a7ae16a0116901bae0e143b230519),
(0x7d56e0e76eebe13fa81aad7a8efbcd1f4de0c5d6bd1362618f0002ec6f635a17, 0x95462707fe55e3ee46dca813eea5de7c051122ec55a91754f7d13ac243fa1ad8),
(0x7972b61b4fe85ec4acb605b3aadb56b6fba8cafc3c764dc6add54c06f7a5be61, 0xba1866702642fa6ea7cf5141c46a8e924764c4ce5d45b7dd9f4926c932b8c7d8),
(0xedc8a440347b1500899f63609674f90f4344c87f361fae0bbbe08235d5025626, 0x2f8127409a14bf599bcc7cefad140b2e7bf841229a51e4864d01ecc41b2cd77b),
(0xbd9b65c97a8cf4d52f727b5719f99986d4ea1bbf25560d18d54877cd3db16899, 0x59cf71274e878e5cbf0d9e02dbe4f861ee9c8e3f5dfe99af7db98e2bc2fe432d),
(0x27635e381191e8ccd375657144c5d8d872d918025950a106f3be2acc4cf35782, 0xc359fe47a019870d007fa3ab8f51bad4eb5251f37e6b8ce9db1992f70cd1ab7d),
(0x4492dcc316c05300a96abad147a00e98359950f495dfb261839ddf213b21d85c, 0x0edf1371a4e81e42dbfb8c6d2229dc5afafed4bfa58c243318934ed7dc9ad35b),
(0xf8124c40409e01e58de8a3869bd88f8f25887fc6cee37c01279aa606edf9c67b, 0x0e0071d1d31fee0a8a26269c3d7f36622b0f008c61e749d365560c21a26fa6bc),
(0xcc597b67066eccdfa2c0716add5e51c2ce3aed338f55f0b1b5784bc39a05a2b5, 0x12e031fc394a43d9d1e12ec4028e8d5bdf52dae7f3ef22da74e3a41874682865),
(0x142cb2c6bc1283fbd21642707d525dd3d4a45f71a63222ee6fdd31e2805aeda2, 0xbde93d12c72c422ae4d5b7180bec6458ed082bfb7c686f2e1815edc65ed66ec0),
(0xfbf4d602dd765941e696704a1a8977a9c3327375e3f0d47968fd9148c01d2d3c, 0x65b46df799e895cba6d4cae8e68f6160c7b96fb29af7d18d08ef1396c06afa8d),
(0xefdb5d57bb5fe8cce3300ea5ec14c50df09436dbcc58ebc7c6d123e18dbfffb8, 0x39083803d9a90c626219ce93167bd89dd444e47eddd60deb8137b8a40203fe01),
(0x5bca4334faa305570b4b36c7b6bf2d4e921f59f1eadebd74976907422c3f35ad, 0x3c97baf5e2a663f722bf2fe1cd646db579d27f2a353fb45b520d227bc21206e3),
(0x9aa1dbbce90cf0655ad8a0f054aa6641ff921e971a73cd4c49ff1f3f51156632, 0xcbf6e81d8bf1e85db802f0f0b9cc11256e0b337ab90112dc6513bf402b1a4200),
(0x2fc7fc5586ed76764d5d4d23ddec28275386e56feff09b86abaa956273c2d408, 0x5bff69e4773c34aee477b0c3e0310b5d6019a5585d4c7f3f54f9c81069d6285f),
(0x8e5fb941c3ac6f2c4319548780df91166ef3b2100f2fff34764cccbbd34190b2, 0xdbe2c1b15f6668e2c63ae154ce7b32fb8d29b59edcf1ac4b1df9baebfd10d2ce),
(0x7a5bbb594748d6dd05d3389eaa95b8dadcfbaa07266936904801bd610b3d49c6, 0xc2d28043a42d33fe8d8b755c61235c68ca13861ceffe3fa7fd4edeac634187c0),
(0x95beb8bdf0d33531ae73ee1b1b631ce0917c2fe222534745f87faf21bfb76753, 0xc6cf8600d9c55975527e269fb4a0e4cbb9bd77837e230adaa43c2f0b0c64f45b),
(0xf44ecb0c6d896dc0304fa48090ab9793576dbbd976b8fa320540d223e2968d25, 0x545064f62964432976a03c629ea46a09e20e470f5e76f8106d19f353c321086a),
(0x8dd32cd33dbd936e6173ef501f7ae265d56d68c277061e074fb49d26538109de, 0x6b110e5c80daac205392bca8a47d6d90ad158c25a10c0851ae985f707c3f1e76),
(0x3d4afd30b0f0f578d4fbc77eb71d044d0fea5e3f891cda8c77075dda6237997b, 0x2816e0e8664df57ec793d44249c23ada0ae286abe748493ed83b1efc058bb9ce),
(0xa9b739fbbeaa3b22b295ccac86a07ba2b83913812d2be0200a5ffd1785d95ff1, 0xa1d0823021d6a6aef696d7323c43fdecd3c5d42b8ed7ad401a55b2aebfb84f1b),
(0xe9009747e51251ebfc2cc754c8b55966a37e5d67acf9b632bb77f46b9203715a, 0x342589679ea8f99771b476f25571a588756f277a17ce3907d9cdab4fcef9df72),
(0x7e348ced55aad74cc24d09b96b3320842108fe413ac4c6c1a8376439f21a3f2e, 0x39874f8e3b722795d8465706e439e4f5c884c22f365920f91edcf83eb4389e5f),
(0xa7dd66765ec2d70156f2cdabf0fcc0d38e340fb68a0d1220aaaa74a6fbb1f55a, 0xb7091bf2ab00a63d292ded9b0b00bbe963710dad445e8e73760a50e72f41d447),
(0x0b8579e9a8cccbf6dc033a4816d8934c51c0852a4693fa96a308d51e03f57025, 0xe696ecdf4d79151b2f164a3e0bc11bda42c888336f694feca8bcdcc57158268b),
(0x07b29c459de0080cbf8c8c72e7b59a7f184f1c1d46787cdabb42c2c2bff57af8, 0x40de8367a6d8d13d41901ca560376ede817578b725f4e6145dc46de95f801799),
(0x1ceffa6f89b65be7ac20e34ef0b7e5030d1c4e9db31fe14e0179afdd96f00f9f, 0x6fdee8b1f05930bded98feb781790e108e293bf5bcaa6da979a744b51a76f179),
(0x556e2d6d11d301c56d5d01e9a01e2ec680ba4efea004de47ca2d97d915e58d74, 0x9588349bb633d7b6b55ba7eefeecbc993d66e6c72f4d896108a2c5d75249d711),
(0xb3506e8873b93dc8ed04518a42b62ea2b97f7bf4e9ee66ba6a7ab917a1e51586, 0x474f81001230fb7bfe693eaa7acba9fe5917a39f1f8fe3fd5823ae4c1b0b3b38),
(0x0d186af389cb4908db01a886f90ee67c1ba7ff3a19994504e9774b96bd2628f3, 0x3b39782bc6567cdcb4778c75a862ef36d01d746ff411821d5d08f7eef2a2db7d),
(0xf951d921e1065ac23fa45900062c639d19e8c9802a810d55d6788572ef987bb7, 0xdcf7ddc187f8e975027db2397f553b5d051abc66bb76a07055d098c7f9d7d950),
(0x8dce8e167bac6fc61161b75e8f340e0b8bcbf874fc82a42ebb53e0fac4d915ec, 0x11ce53a14a9eb9eb9b4b410b34d26ed79c0287f49032f674e3212617e0ae940c),
(0xce2d3cdda0a7a43cd7d2ed15ec12a7aa755dfc5aed5a85dc4f439eea99e26e2b, 0x6a96aebbe7ca2740ea75c2853c5822076a8eed647e21809a36b97c6007a5a145),
(0x239466fcdcc2d4c5cef367b5c8339248f712c40a558c80f05ea390a8dcd92092, 0xf2ce223c9b49f08bca63ee8e98e0173665d176ab3b7d718ed0e855e127ac28cd)]

/-- secp256k1_pre_g_128[3712..3775], /repo/src/precomputed_ecmult.c:11972-12035 -/
def h07_2 : List (Nat × Nat) := [
(0x220ab764341d3c08d9c5bcd8331e09734a2f3c644766395e0f6a5fee3563e033, 0xec1e4460d03013ef467dc7a42b520c03aa51a9a357817f4cf9dcd83756df5011),
(0xd5455dfe16406a6c70fffd81f3c4d10e845f0b1264fa3db4ee2ffe80904b469f, 0xa0f93b8d257e1e62265d99e49158497c28a20af02af959b808810a10060aaf9a),
(0x52367377a1f6f05ddf054665f1eec0d2f5039cf9cfc1d37e1a9d89f288e60c72, 0x78d89f55430fc352cd58d0477e2497a0d05e7016d98f9ce6a039fc5d9ec7bb41),
(0x5b9961133ecc942226a3dc8867364125a8e569f1912e6c9f4c1ddea55fa56395, 0xbb9d776412076caf5d8ac902c5e2fd5ff7a0bcaa10898f1910142af64e436d0a),
(0xf36cdb5cbfbed1e658c7fa4a5b0a6773eecd1a43db96cf0c07c24f32b84c13fb, 0xcfc6d2f05ee9eda29156aee181b62659993744e7479379b93156c919018c394c),
(0x3208c58e25107af2b38bf7545531266f0842ce3310ec7e440595fb917079a6f9, 0x831c6dcb5346b6c9605d9ab5895ec2cb653599a2c88801c645a4758a32c785d7),
(0xa6073a071f8510e2aa021b80b44d7356472535836501a5a8c52539188c9927a7, 0xe93a9fc54c8a761216718baadcfc9bba6fefa30d858032462a9f191a6364fec9),
(0x3350b462f79eaf7f260f21476aa7ffe8f7ec1a7e356247139e335758b9f0d913, 0x1f0c9db30fce12220fbd2341ba8d2e93020f33bc482a4d4e8057171121152959),
(0xa54d5b170bc82a749207c89b5a1650cc1773913e66f6744c11de24ce03073caa, 0x3c243b5f5309dd1183c7fe5d49222c9efe62dc26f92b73afcdb7b7b132cd3ab8),
(0x6590a2bf676a7a34a1424f7b01c7863e8a7d346d563905cae5b2572904a04cf8, 0x11cd58030490419a1382d972eea2f7344f8d0cec42466f0939650645a3e781e7),
(0xb3c09c029fc7f48bd2f461a20a3670118840393dfb5b959289e96ec9c7cba9a5, 0xe7b5aa6cbce54ad0197bb1bdac030e2bc6a3e6d6af2db60ab97cc92b08f5cfa9),
(0xd7968ea8044a137a7db3614398b29972cdc693ef8fdd464426a9293918fa8bc0, 0x824025892901434ecbd5dd29410ce2e556dd3174d74da2e528326ec8ad57a75c),
(0x8a57bc6c2f98f9ccd1eca172b2501adb3bf6edc84b50365c6d959f00838e8304, 0x2ebf5462a0f85985438b5d67cbfa68c1bf64341011a478b992cbfe0d87e7d14e),
(0x51886841684750a8c3cb8d18f8c863cd1a555dd37f0efb4e551d0d506073fd22, 0xeb05f09b9e983ad0a6ce0f15c2f5983c6a28ce506c52f691f30517da36f3f192),
(0xfea8c35f27e4794fa9eab856615d55d2d3a026169b9eb7b0ab7493e2f67c85f3, 0xc325de97cf0a6e3a985123378e2ba2e7b24158f54aa97c889b54a5028c148864),
(0x6612ccccd7bc25e4f8dab955d5c1c9cdd79d5f697ef4c51077b5027ed1f94b63, 0x615512c17a378d0ae7aabab50253df9be9bd6a8015c3b20073d0499a3457860b),
(0xc998b07a499859db04c9d69833199956f8a7ae679f6d3533cbdbd7e4a86f8746, 0xd9e01371919e775ea259d81b0ea206e937d6b5e9113838a66af11bf08dd17138),
(0x5c0e4669c5cf965f854fcd0d23ddc908c32e3915460d44bb0520fb0c3a4cc1e1, 0xcfebbbaf7e0f9a4dd2f35ffacd0f7cb989f5ededc8b3c55464fb909c675adea1),
(0xd0fdda4830385167f06f6433c6a9d3fb7ab3195b64f9750bcb2dbfb87158c0fd, 0x4cde55776a34f61fc82e13598618336bf5c6e315d10abc358f0020e3ef1283db),
(0xd925570fd78bf65a05d482656222ce7407cab15319b7cfd37bc70185fa4a3e81, 0x003c399ac448ba901a21a5c7b9c6575cff52bee0cdd00ed1673d837087c1924c),
(0x45d2b56d81f84bac2077d607484b0802a023cc4fd7818f9a1d0c2187098374c8, 0x14ca18d192a9cb37ad50506ea25663cc9829411f848bbf05030640419c19d7f4),
(0x6ad3ac118588c5bbf793404ddf9a10f8ea8c197865a93fba5b7170b79e157400, 0xfa25741f1e242c3fedf20e80fd76292e382eb5ad1731ec97a8762fe9811686d7),
(0x5da24445b6dc960b793ea9e3912b21d826d5402802ddcbf5028e1ebf4a595f52, 0xbc18ff8cad1dca698995063bff8a2fd2fabfa0d98c8885fd01b401f365f16026),
(0xddff646811ce86d293b9b89f865d7133d7b5f189d527cf445ed15efcad32b346, 0x7260e994cb22016be121ae08012b01c34d236b6713ea510db1aeda36567f5737),
(0xa8b9ff3b9120fa93d0f2f50bc8509846c1030d98dc9d52436ad9e69bf897f029, 0x5cbfa29a4e516872ea9a4c2ca3b07efcc866aaf6a2b1d7b23597e3328466c591),
(0x943077fb177b9d6a723c18edac8deeb262875264868eceb7a2fc1a0151dbcafd, 0x0219a9fc41ad01c9d3f8248dac7df93fccb6e312fa5fd442e48f4a9518e7eb4e),
(0x75cb61ac09c9817afdf60f524245ebbf82b33f9fa564d74e9e810f366458b8e3, 0xaa8135bdf66f0843460986f5f9df6b9e66441477cd58cfb85b3adfdeec03c367),
(0x1bb7e17727cb8e854bc922b228e7f0aec34fdcf3b9bad0c50750e7c8e31fccc8, 0xbbf728861e855e70bd9e322c2425cdea855ea00c3e6263d52380da38c0221ca3),
(0x9443384b39e9dbf345b4b41cf05d0f3087f02471c98e2a2eafda94da8bee8dbb, 0xe3661173ccb211f638cac6e227e3939fe7b5da57f6f7a504abae01c8fa4544ee),
(0x49bd15d5a68caab28d51638aec1a9668b4c27d54d669183961ccea76ef740d25, 0x648fc8688760e47dfbfb9f0bd995cc0f77563b60eacf3e579db7439f3f18c6e4),
(0xd0c7b78e92809e8584d3684fd078907ec151aa78a5832f9073f945fd7acfed85, 0xa80d95abbe494a40b5529046bc305203be91e47522ad9d5707ab95b38e970c89),
(0xdebddd463ab222325e98f9c75cdc875a7c4c28d879748bf0cd96bd7d92eb9275, 0x0d103c8dc3fffcb05ffb3dd7a73af25950d02064b12bc754ab594c710ab9799c),
(0x1d79b17c192a6a158ea2d6bf9da073129f9ebcc854b02dc33f64012f1bf33998, 0x6ec818b3dbc1c8a8050d986fbcf647020c787682bc408a12b78e6bbd4cf60a5e),
(0x2feb76ebff5d47e97289c38d7d1535ff74bd3b57264c58449edfd36e6e81ca1b, 0x45bd4e4a7ba3a823dfae18cd1f9cabc7bb462e747899c899378c33bb89f93b74),
(0x014d0d90faef5a77f5372ab62e4f5efd3eef1b39498653c06372fe0bb0682573, 0x517f169a80c2b9304f530f51d7196831601a4f9772ba131236ba92f636081453),
(0x7306a7a5728f91c3384bd9adb10b39b2ad09413746d2e476fd522abfff313321, 0x215e22aba5b9e87b35bbd4e4f492f1b1574c85ed25b86a85a8e17b81b7a915a2),
(0x85d8454f870cdb8cb32873a0698fad20fd24067a737e971976d4d3626a55aaba, 0x36d63c0a36eb9e8e522a0715cb9c833d539fe7ee111af3bb951434b13117e4a2),
(0xc68f6782993067aa259b21cb9e19122a02f7da2896d8cdffc1f0a0e4b34384c3, 0x74e6e96a331c33877ea484fb0995d6a308dcd4936b2994ffb7dc36813079e94a),
(0x814481115dbe5550846d5c9c3351c89ce29cd8506870a17fe18e318404214dd3, 0x75dd78b3d4cdc29c697740e92478689d540ea33e5edd6785210abcb1670d19a8),
(0x310b5b19de24d478f5f25993a706f21f24214e1bcf614ebe3e20481560c945f5, 0x8b42c6ca0f01d205e09d017e2e840d69bf04cc53f02a21a147e33327104318c3),
(0xcf8a47c74bafe2b9dfde4bcab2e6d451b0a90f11c684f420a025974c0bc4bc3e, 0xf0b7b264a9a78699786331e62c8762be614d8a69c0a65c3d1cc201bbe34c97d1),
(0xa0fc62267352a904e70100ec63d3b60bab55338869b982d33d747af98b8650fc, 0xba3ae54c16b24eb464b88c39521c399fcd162eb3f9966497e2b96f2b3b85865f),
(0xaae5dbe2535edd47584d0339100453332e1eaf70a4e1bfb07dce3c236cff8bdb, 0x7cfaa5f6e55806b7bb2784392473732ea51d85c5a355832191195533b7a7449b),
(0x8a4e93115b897550cbc0792fb2705a185c31722686da5bd50b0a17bb0503ae39, 0x1623adc8d85f08c71751b976daa175722442aed8a9dc16922dde923fd17cef2c),
(0xcbcef535eca90b095295cd61290102598627e1a0ccbaff26a51cdac687066463, 0x651c2ffac2a2c99c3fcafb9d8c50e156498fee173462fc259d87fb8d6b212653),
(0x259715594d6a2bd0baa90e3362b9c8410bf12c4d2ead66099902eac1ed0f8c99, 0x49e01b6cc97404cb8144002bc33e8bb1d974dd22d0a26a8294bad2bf2875245e),
(0xb754d68b2b049f6bac389044c80f0364a707da5e3e9b2a891672cd29b6f1445f, 0x1b29b7c1625e23d167092e3eddfc2f4ebea555425f4ddda1af2aec5e4de37740),
(0x20aea5a850e68f39cc7ca2fe2f38b5a2ab0bde8bd294c40aafa898ff4f084037, 0x6ed576b3f17666ec6aafd6a56fe7e1b2ab1e883c31230fc20b4e1df003f59444),
(0x26844e02919de9233288cba9a97eb85ac6939fd07cd01e7bf0d5e1dbe31979a6, 0x03df9a8e06a5fad10266f11e518fb60ccc08a6c2832c45a16c7c55205c9ebfb7),
(0x11afca6133a69aaf27cfd413becdf9b4efbe0a6b1a38b3fd485dca95dc28414c, 0x8d4b8790c0677fe622847bbf8e47b4009e4678fbb9c9377b2121f5acdb737b1c),
(0xc46e14d52fe25d6537bbe09fce7e95e04986337b23e7160df3d78deee8d2a63d, 0xa200fdab4211e9ff2d008dd77ddf67a51f04b9ef43fa17589b175d58f5d2b723),
(0x0570aa12578afe09245f598a210a76052412283c8f58e142d31d9cd8d455e4d7, 0xc28fdb61f8e90de1d43439e08512a0719a2beda95d0a5601b932c0f12cc50ac8),
(0xd312db5e88a1cea028570b84e3854e16224236accfb14d1f3a33108dfbc3fa64, 0xca5e50891843383c845fa0aae031c93064b8aa4aea72e6cf36b617f6cf97e1de),
(0x1ee228769981670e14da9ad99279f001c9be5eb876224a6d1fe4ec08aa398087, 0x62101114e303e37adfe42c65054460d4b68603a2580c74526ff31c9f02176dcc),
(0x1fb9cacde2b84ff4ae85511d1c964c011700b9d72d4c04a94afa9aa557bb81a0, 0x430b73c1295c5f2ad6d9f59f7420143515b1306b2cfa038ee04567525f737fcb),
(0xd04cc82dd3cf0b4769f2934a9807e7434a998bb9fa44d145f191a176611c085b, 0x7a4a19afb551d151c42cf1cace123dd58f4c13acc865b92d1552016901be5fa9),
(0x1e4cb2088bd4d17eba8b97f1f27df5df8a544f8a548dde15712e8704cfe7e9aa, 0xd805c61eb72933ece799930a53fda3f3db0663965c71be515e8466cda59b828d),
(0x520aa398707a85a0d672bbadcbcfdab88f769f69df3de8c717d6dc48de51590d, 0x98d344e4a9047a22c09095e2f1176aad3b54724d998e052a39a525544ee9ada8),
(0x3a9fe3de165bef7c2e0d45a060693fc8e7080ac9783245d7a79cac6e7b614ef2, 0x05189446fd3fdeefc7a895f52934c8887607ff49aa6d798e151061ef73038d4a),
(0x9c929dccc26c0805e4289a3a2b6d68c98e3c68064373005665fd8e73da149938, 0x6dfbf940b4c292093f39f6bab102762ac81edf2daabe6dd956aa140d396ba2fa),
(0x355b60cef4e006518baf1e42e5e7a08bee22ababc69aca660d11774889be419e, 0x7f478a3bb277fb105fe0eaaacb53fb734fc01daebb44f1b1ed146f43fc2604e2),
(0x76bff14f21ad4442e1389bb1c11e1019ea96609197439705dfce7bf3d7f7f37f, 0x3855a291376aab12b5f4da79bc22e02ea29a34f89223f07b93f6a5498289d763),
(0x91bb9cdf10577a3b7e23aadd35883396becbb4bffa22e1dbfa08f8b66156b454, 0xec6cbb9e4f149b02edc53e93d1611b5ca3edea42c2ca9a1ef2cccf2594edbb91),
(0x9e56b10f1ba86c6136481204f0c45b090a7dde7d4eb32537f8c310a5a8865562, 0xcdf3453d8552c16c48bca1a379ee8c6a8b523eaf0d1862d516f4361d5a8aa67c)]

/-- secp256k1_pre_g_128[3776..3839], /repo/src/precomputed_ecmult.c:12036-12099 -/
def h07_3 : List (Nat × Nat) := [
(0x4e73594daf286bde4e6e28a423930571a11dcb754e9a4af500f4972d988e09f9, 0xa59f23d070c042cee03d812cea274035af0d8e530828a418cd1b51f1458a36e7),
(0x156fdff7e92d89fa691d3c557cb2c614393d597304b11bb1d9fac9533923d860, 0x4e929637c448760cef6d68f64665023cbff653cd023132ee620eb013a13b360b),
(0xf2c8b650eb3723365d57a90523d34db970d23d521f89356998b0a7e7ae8ea03b, 0xbd9ac31484a99bf6973422a560bde9ec204488c76739583d72f42a87181a7881),
(0x27dd3657a4a374305f5bb92ba7b816ba88d526a201ae316cd4a4e67ac751e3e3, 0x880cfdd3c0faa4016afaf3d51fe975e48a756b01f7d84e8c0226424b83be3304),
(0xf6c25e0c19f7357c03cc5d981cc4b7f37a390182c26737081c64f163ebb3d1bc, 0x8c80b3ea7c05a0fa39944d66643b358929534152adf37c2f183e7c228e89e43d),
(0xc678800c71305ea1ea2847d3d9d37612ae280305716fdf45087ac7f4a7fad4f2, 0xbe5ffbf4d2fb2b8cddb49a42ebeaf5d855d41d39f106e2d92d549e886c0b63c6),
(0xf35db221e66b7786fc9e2d3a68f0d1eef98177dfa05bfd30931912e813f6d560, 0x4899a8080e6b204089974ca5afe5b1ee09eccb1536a7c7c7bb67cc00e43f29fa),
(0x2b93e37da915633edb9843d6c33888c35d944f04c4074debd021c63993e69de9, 0xeb3d1095c6ffa1cc93f72a58f1320efc366a4a5fc72501676f2d3c884b0522f0),
(0x818023b390454716f51913ab0fdb406fe4875b948b14a331060901d166091b69, 0xb3f5718a6224e4470c5af3e1f38e4f2e6fe57389fa7d8990f98e44c2a227e7b1),
(0x01676e6a244ca69db2ae565b65b141846645ce7b213dc1fbdb33f0603c662bb6, 0x88e1cba5deef5dc126b208300d2c7c0daeb9689b16ecc1fdcf4a31fb822e0298),
(0x02f931a1a92537de38629d73323e2f21d965745430e32e4c3912cb21dc298d54, 0x93292d086fbc0faeeef6fe43f562671195a5b2d10bdbbccc52e1dfaea30ef904),
(0x7ba4d612f0dd8c918bff20d9b4f45486be8a32c1122601af2d1730c8a1fd0279, 0x8aad7aa1f5b06431b2e20af14cd049a93018e3c5bc4c4310d0234e78d2401179),
(0x0e8dfab085fe7a916a79b2be723799ebd6974d08ccc8e3d85286aa61c81d5e78, 0x2121686e519db556e6595d47a5487bb8fbaec53bb18dd81c37dbab406e3f926c),
(0x7d5623bcb1597ef46f90710617eb2e6aea751da15535a64c94c90c9a0d84ab5e, 0xdc639f318004c4de31514b70ebe2e8b8701b3cd45d66b7e4204dcbc2a0ce7575),
(0x08e81e2d8074bec748986194b3b822001e4ac91681de2ad57b9c84fb88a7ffa3, 0x4085ec1df4a34480ca56f6cf762d03f7fa94e99a8df93e6cdc781499059fa890),
(0xa9d5a3e78290ee625e18affd169c682973e68ac92b5cc52b53ed3a85a68da71e, 0x1cdaad6bf9eb58895189ed298793388a8d6e8b20ce47a536ee89be4ab4805fd6),
(0x4f7c17cabcda7c0e03b7b3134312f848984985f0e46ac497d64b123c57dba2cd, 0x860bedd95f470c3bf3cbe7c1d5070cd0c877010a9baa8f5e888b5ca8a34a25d7),
(0x478f3d7a9234a7b9a91bd016f55734e9034b8c3c535725b5b4fbb0ab9fa64921, 0xdb97a394f0253f18ebabca05c21e9a7c3f253054d83f21018ffb4d93b8051a1f),
(0xace7e57b73d96e7d69f7cc01b1da179f3ea09aab61fba329f2552eb1fe7963d5, 0xfa0251f22b8dbd04ec90f824be0259657e213e4c1030611b796efb8926908918),
(0xcd56e867f51707718253757cdcdf69ef4401f2f8a1d09f24374040e7a908d1fd, 0x878f721652cf0ba48a2b29a22f620c7d83e4bd84277b7b90a454bba27f338fe1),
(0x3042ea5cd9d2f89a64b1dd2497b25da567a2c672ba067e33e923e513ee4d5329, 0x0b84c144d5516a14a0a8568cd6d227a2d3fa1d868e05e61281ce41b35a68b1fb),
(0x055e088da094ed260082b042bafa034530a2e29157af3f1bce351ec99e712ec0, 0xc6f8297f6439832496091933514c544900cacadf82d51db2082c9d2ec66b33e9),
(0xbd2db13a69dd93bca37f91817a57a0e9e0e0da83eed71875e63b46913b408966, 0x46e12660f9489b2f123c25d50f65b3f8187ee6e4405b8cf8078a742a09b0da2d),
(0x7d7a5110cdbb84555fe678e624ed1a14ef7c5219986a7ecb6095624e7fd3d210, 0xc9578dc3c0a54524f819d640abaa4a04626a46da015c086772774a596ac6c37c),
(0x1ef12317513b13542a96698134edabc6fd4e6d2901bd77825bdb30f4937a3fa7, 0xe0e4b688a391bcef3451cee336a8c9f9123198994684c039909489db590e1ade),
(0xeffa0403766fb976dbec6b2e332d2f129f463b868b9a1d1949d30cea1606baaf, 0x8c5b1c83bf3efa64f38de1b7da03de17b0cbfdc45b4a03c238221defbc1cb082),
(0xdc9271e976a9a0425565f022273af5bf20bf780d9d0ea069df5da661a087d65c, 0xdc8679e7b27bd30c986f11bb1c73b76c55ce7c7c621490c1944cd8a6b63d6063),
(0x0ae1ddc21e1ca02c218f6946275501d6a1336b9300ddb1b2384ab414b8264619, 0x21c6b39d300b6125ec8e5c8e19aa76d732466bc9a887c76a01ff42207db26b48),
(0xaea2c00ffe5835c92b89248083164635033dd989bf2bca1285cce3ab4e82cf5b, 0x615598cf935a611242a20e84e670b1939aad65d4053ba9673e8193b293dfa97f),
(0x913d0e1634b43a86f55b30b65914767db45e723e636c866b6348c8be8aebf696, 0xe14c660751affda4d02574af4317202439c0c10e148d43051487a5c439971a9f),
(0x4f0b3354775cac805e0d61916bb0f9c840fc163d8878c05a301252d23bc26fc0, 0xb0b754863aedfdf83a6eb2eb5f3e25f16c0e10776e855ac3fa8fc3f3bd8da1e3),
(0x5da2194073cc978f7673b2f75c65ead2f469df960f80883b181a3da4f316129d, 0x8516d080743d2670570d5e63e19eb5430237b1db6285b1eaf3bc14598ef311d1),
(0x76e1b330ca7af91accb92fb463404d36a8fbc132269d163dd4beeed16be74a23, 0x10b39253c5908ef3ec96f2e52ffa0dec02ce28000031a791bcaae0de1e7f5326),
(0xc4be488b2f210ee182f9126378b233598fe8ef57671ddbe1d76975d0ee393e64, 0xbec1392fa1a09a54480beadcb98ca024b910cd70f807eaee10d4e270bb79f449),
(0x0546918da141fd77b1f13848d3d608c025f5be004d36a54256d0ca5c9333ff37, 0x03d1d4c79684be1a5cf00d716cf9a1bfb0b82ba4833704dcc2d23e8f39914ac7),
(0xcdfc6fc42c51ebd12df368b098ff0f402e6df8b19c67e10a320c1960266078de, 0x5985e930023e5264547bef456b3774f3c2689411b6f7463c0febe068fd89cb0d),
(0x7730fccc593b14a06f21eec62408e146036f0e4b4718ce99c99bbcd47cf03034, 0xf17d0fe20736e4129c30151b492aa7dd52beacb76f97001ccc28f9913e016b72),
(0x8aa4c3de474308f4674c7b559f895bc5d855a7a95fadf0905726b3547941b3ea, 0xf275c44a0eac26231bf4ae9adf403ed278d9da42150c98be7dbd5f715cb8594d),
(0x15926da497a4e9258976f87ff8940491f32d33dd7855b13c5cb54d10d325bb79, 0x15ac60b65b1ebfa8e871bf67ec9f71b81aa03c7882880d40d35f16d867ce8e51),
(0x55f4f4feaa74157479462b48f001688efc99f545d4566dbb35faeebdf5b1710d, 0x80ecea0563f24c84e767b89457dfec3fd015a4adb6e3fe0f662521b4bb02d15f),
(0x95a56acf402f7f33fa357c4ae4db337ef04a60d74cd73e0d0b137f68e0e93cee, 0xe72405bfb7c9ba8416f4e72ca30c9ae5d21c89e3ce5b61a4bd521b4eef6501fd),
(0x28a9fd90b50d7bb513034b7bc36a9783c2a697ff0499bcd64b0881ab8e7a2aac, 0x76b151b05c7e7ea49a26359681508781a37cfaf514fa1720b583faa39794a788),
(0x6406dd136d6462c4a4116b93eac38eb0b571e2d399cdb93cb36fa5efe734b672, 0x3974c77b92b8e61452d9c9d062a911f9b4c5eb1a977da74fdefea3585dd7fd1e),
(0x8fd8f23fcb62e1c094fef9039933747e9d40c37e376703c2e3c8b666f1066529, 0x8b0b2f9bde10175b24a9099d759262965ba1901320912baf3100e0570d4ab5c8),
(0x51780a2bd44573689c0679bdc8c94e43cc525bab2d2723cc3e0eec1563a1a24b, 0x5026cd9b0e178d1ec746e5db29391c4d4b6b08a33530fdfc64603fa2f0e01109),
(0xaa01493ae7c7f9bf3d2fe0e5cd939dca5b8c85346848d065beeb42a98c283561, 0xa08f0b454a42b5e36463af145199e3d21783e908b3e130f0e9e881102cda82d9),
(0xcd8ab749d4bbe6d4ac81c4fad6a27e810e4456d4196cdafb97fa605318ceab70, 0xfc6c7739bd68a20de01c92493cd7ad3dca862183b0529231da32f1b85df59beb),
(0xe69cdef2e824501e7a17bc54e0bb4886379f56e1c59a27eae00bec5c55fe3e32, 0x0e80ed104037539810125338f62917913fe735e66c4bbc80f41d858d8ac41cd4),
(0x5a4e72d9182b1f7eefb08af19e3181ccf6b6ec69790184a2f30188e0dbff8a8d, 0x2d1cf7f2d5a857d83b31c5885ac33a5d7b62ea627b5b0bee2d9125022df9da19),
(0x9e00085948bd6211410416b03920a79e0d78f1545dd0330a8f23d1b5f8984a2b, 0x36ae04920412fd3cc230680cedb0dfc8151ab85a0d8d3338db611674c88e3f62),
(0x7e0b97aeb12f8734ecad35d4aea425c799f88485f0bc8d18ac82f213258bc6ff, 0xe76f4e24a4be1b6a3fc3b0b8ab0b6e5cab95fb404692f7bccc7640b569f3946e),
(0x62285cfb1bdfc495dca81ff2867878fab3064be581be0c860b9336c661038ee2, 0xf2c91be45f60e9f340e85ea08f159dd4a65ca8d821a6e4f771f4dc17849b5161),
(0x70234e812de1b5cd699870ef36d5c19ccd3765baeef3cac8006f126aa6c82623, 0xe2dbf98a0f92a777263f3c92004738ba3140f7690fd5b6ec07139bb841330736),
(0xae7704618f31d5cdede40ef57434b0a77dc1b4e67f4be5e6136978a7cd5db07d, 0xa4e25164655844873f520e420074037c5cc43e1295167b01d46d3e93d93d16e6),
(0xcec7ac8fe4db698b48ab78fb768e60945b7f4ce7d643e6049e349b6f246f2b53, 0x491bb54599330685433bfd2a7a4fc8317f5d3cf480d6bc325ca6d001b65fadfb),
(0x80276e96b051e49f276f62e8356229790852e4cfc2ff86658db4d5c77c5eee36, 0xf510d696882589f0870d526e5f7513a42c4d4ce53733f30cf06d7dc4f42f6d9d),
(0xb19027d49d85faaee6163934ef8f8508e9e351c982bda741b8944317da85b27d, 0xc12461cbdec0e69cb378443af2eb042e8439f812205742d6dbabb372ea47a824),
(0x57599d4acf07c001d3d3fc78aae147f1989c656ffbc4308129e05b2e570c792c, 0x5cf8ea0fd215ba16e18e181b1b4b4f0238b57af39010ba23f13bbdc4018514b0),
(0x5ab76283fa110b82c53cda2b653e763c306e6f8c2b07d490bad6e418eae6e4b7, 0xff365643cc2a78e317a7de95b37b3f83aebe82724162a884f7437abab55e8ea0),
(0x7b93d9e48602d7b7ea52dd45fa0031de66ea88e44250c89864903e7f959d4a85, 0x99ccb2015ab91fe90a0f50a0fefad6c30f6dd0601f2ad099a4851d33162b52f0),
(0x2d5878b6af64277641101be72b37b4b91de26a21b9610a9307ee2ce2fb96ebb6, 0x138ee05ddf4b004e820815d946716f2ca887066bb7d218f547d4bd7c2cfc585a),
(0x1d637068eebc32da024a0fce2e41cb57cf1ccff538cfbee7ac13269ce560af3b, 0x6a932df1a28964456685ce542ddca0aed589a494b7ee89ed1b4ccfd2c276eadb),
(0x82babb6b460e1235f3187a680912b05726a478ef0fe929a39479cf04467de64c, 0x3a9f4e33603d039601f3c11c94d583695de43a1a327d0faff51089e11345647f),
(0xae86e71d4e715bfdb63d899a9daae610a01c51340c1b9262c276dcaa0b48090a, 0x3564b48bfcae8f7bfeac4df93b4586786f2f9e839c9c6126a301de294cfd7b5e)]

/-- secp256k1_pre_g_128[3840..3903], /repo/src/precomputed_ecmult.c:12100-12163 -/
def h07_4 : List (Nat × Nat) := [
(0x35a5c2fbfc661cc3f4ad6ad7f1eb32b6664c50bc91f4000ef57743642aa413e8, 0x4a5029a2887f66483e07278268a81c85b901d6924ccae7527111bccecad6cde5),
(0x386bf07f4dd508a761e7c29add251d9a763244966c6d760ecbc6b0695858e2dc, 0xd4f148049c1fa0381d903e1968fb14b20f07c62115a81f41e811ad87de407696),
(0xdfec381c9bd6f4cc50ac445ec9104d87f9c46c7ccbd70909fabde6aa12346f96, 0x5e7344f825b6649bdf97ef3cad96945bd1ce0f76a48b7f2e56ccff02797553f1),
(0x3606dcc604db04cc5493e0b70ea0bfc2f8a24302d2358aaa007c1ea8842abbb2, 0xa5c8743bbc4d9b74b8b569a1feca366787eea8b1be2025edbb547e785687301d),
(0x3441e737e19096e29a3025a471d192a0db0860388e76d2b666052825e52b0016, 0x06d10f7ed5cac98e73c3ad47bb233a395eb9bd4a37861b9e7dbb60f781eef0da),
(0xb2c97c2e460d8c34b5ea7a5c456a9cf5b1d902bf5cdff0300025410a26636e99, 0x67133081a8c8ef30753417b3cf6973e21f151e1f27216bfa23289ea3e2057b7c),
(0x2740bd8b59a43ddcf8ffdabed59027b59b7932b73db45a973b6c150157e045fd, 0x8106f2b1f69f1ad42c0787a63c137753987aabe4b0ebd82e1ea7807e93b02a85),
(0xa1acffd9bdbd94c0cd8b4f4003f9400caaa8e269d8cc49a69ee565e189b6c21b, 0x62ec7d7e0733f518974acfbd4f4e4f44bcc4fdc0cc194a66df7c16bf0ef0235b),
(0x50bb2ad68d524acc3278c0f1538d3aad9a5357bd332d8cff6301f41757349847, 0xd8fc33d5d03526bdb97d4c6e1ef018baba4b33e59677f139b8535287fbacfb32),
(0xebdfb2626031b4fad675e86012288101948e2ca08fd0d32ec9fd08385f4fdbd9, 0xb078066cc470113ddb3964e4466e319b4f853a428951aa0a9c4629a7a40dbf2e),
(0x5daf4c2365482a2fbdef73e8208fd5add57b35f8171541f63a48b742e98bd48f, 0x9015bfcb5a248607f5ffc83c4fa3dfec9cbd11f2c230327db2cc75ca2e87f967),
(0x22db9c205d84081467a19517f353f825238c905f2b12a77d08551cc9ee8533c7, 0x680a1bc823432a28a32192642b9acf0e7ad19e29b604631c85f7038b386dcdf8),
(0x404435d102e8be5192625213f86e6e559fb4465844694d4f4db72861d4c100ae, 0x9ebce682b321eefae8e047768f82491add734e5a941e0f4cb6284f786d1586d1),
(0xdcc36eff6831a6def8600d1a3d52da1cfe59df9ccc69c9f260c26532e837530f, 0x8609b5e67360b7e85ea98c13578566cbb6b385ff6990d4d65b795acc1f77a893),
(0xef0dfb941a1c383e4a44cd04c633cb48e991d14045e2d9a8b4353e799c1a1514, 0x02685d60f2a75f9ab733afabf693ed059c3599bc3e3346d461e5c86af76f6f42),
(0x24884cfdc6c3efd6b4d2e18f2ca66b06410b0fbad9d61b3086abc5371d766b8a, 0x7c1cdc8566f3daa7d395c6bf8a23c13086a78619aa68519e4657b17dace2267d),
(0x541b6691c7004a812c607756f81b6f05485b0708678d9a450de746324acd8b20, 0xddccf3018a3c429ac749f0d502383784cefff3dfae98517fc7f5e764c5c609d7),
(0x0546296967262e3fa905eea4ff1f8296f792cfc8bb9dbb9a138242c1a1fa822d, 0x630122898e4295274fad8e7f9865659fda2d737010f6e18570dadbfe21e6880e),
(0x94070912ad2c129dcd122bb9704616fc3ddfd94906ce9f6d6e18020cec848e83, 0x9c3b38e56bfac9f14c901080b5a732a4b5d261f82b571536d1fba6d9b714017b),
(0x2a6330e48ddc661eafa8071cc1417b92ea73b0603653a0173edb92a56e3ca6c9, 0xb38c51cd4754c350ba2d56a3fbf4fbab5802bc386b5516f3d8b761e3c3fc7d79),
(0x9142e4935f95da175ae4078c5ff5a7d48c418c1c7efc4c39dacb047ad3f7424d, 0x15165a74c47133a9e8684ea55a4f9b0537d0ab7f58a7eac0e698adccb885cd05),
(0x2e198b295cac4deedba63ef3888d47e80bb8d3727fcbd69ad1eea656ca85804d, 0x31dd5db3e700ffbe152b0c2b1b1c830ceb3824681c522e630676b9ec6780fd52),
(0xb44e35e9b2efcafaf123e52a7bd9bc5832a671e2fbf0264e5a3f536cb272f72d, 0x8d489fe3beb39fd42632b80a1243e64bf80c81c13934ab0871c16a5a5aa43423),
(0xdc99ad01e1324b6db5ecf365c22463dcf609f0b590e6d3beefddf641b83a3cd7, 0xb4b422ca2feabeaf32c0ad6a4393c087a4c1e79447a043decf0fe486ed11b682),
(0xe174838eeb991c2dcfaaf89bb868f4d13029ebfcea28637648fc51baf962a359, 0xf80dcc8727cbddc94bb1b60a4da5cc740238dc62821a9ec70c05ad2aa0e7570b),
(0x6240358b15bd16d442cd79a48b739eb54ca21d18b568b49765d10dfaa2583d33, 0x6acb054d724e7550ed6d8caa8a436d51fc546116df33413fa613c0dd6cec2d00),
(0xa757fceb560aac0f543a29b4bfd3af7aaa61c0772c1c07b2e6268342e63f8d70, 0x5864ceeff80855d0fb4713e27bc6a202b4c074506749457b39d0c40cf40352da),
(0xf36e107357c3149d902e94162e509d19d4b1f4980bc748143a1bd4112f777bba, 0xd4d7da2d139a2693e40d939676c3fe4845f74b4378f0c25a14aa96983bd1993e),
(0x84ef2d4b55a40ff713934949b6277ef04a8e0e4fcc49420b17269d59224af99a, 0x57affcb701d3508f65ff2b7a0b1d675260465e76754efe3e80a8308585ea73a6),
(0x138ef64b274ff66d7defdca34ff28bae96b046df408b3f4784f787843fce7576, 0xebdd04e51d517c43412010cbd03252eddfe97912ee4a7d4ced98551bfee1ecf1),
(0xe82f03fe2ba05692212a1145550d30572d454728e2d9989b435cb6083d1f318c, 0x191a6fb9cf29588192aaaf1fea34e123613b2937602650f2eb25f63f5812dcda),
(0x56a68400676b6fac7eb5fb3e7f345ec011117098c0d1a96be44bd2c85aafb317, 0x3a41827a5ae1b7cc5b9dcb5f4c41819ef49ff2fcce1d194903f5b0ce9f1dfb4e),
(0x82f5747f1b353db4f3afe255e1f2660a8f735b1ae40a50084efa3c32dc1309f5, 0x42e8b903f4ccc01f7e87e4c671572bbfd05f9ea2a4cf7bd7dd5a9906264a0144),
(0x89136941c47b1964a4b89e0c376b313680ef76c1019e02bb0bfad59476e0cf13, 0xb3a2a785fb6a564ff4871bc50177c635d722e659077f621af6f7537a2c2d3f3b),
(0xc62509690c98f58000f0cb51eef5d8a10b9954bb97671df1c7360a5f42238909, 0x83d0324c915eab224dd3f935e197e0e9552d5bd96b1ed240219731a3058ec724),
(0xe2399ad9639132004664a481dea99d85ad12938ddd0e418427411fd48fc7e3b4, 0x60fffd62beae28e22ea836ed389c37805d8b1fa1fb10f298f9b54df893c69d47),
(0x04d00b1c186d29929a6383d6cc8d17960a59c5d7c27cc7b85a1f821c3003d959, 0x8752ead127eb19fd49dc8ce7a0b7c7e6dd4aa3dd6f8d5cb4687327e8ce487640),
(0x344663ef8b8b52c91aa548e98b7e1c48933cbfa3596443185ea973ae9264121e, 0x73d099c89dfe8eecb957e6240bea56736fe3885ce2f72b06dfeae760514d9efd),
(0x37ff484ddbd22a98333038d47949b4f3f411d3d57ca319e35c788bbda0de6648, 0x55a5394b51618d81d2fb14554ec1f5c3a45cf08683980bfba9aae6a920547c67),
(0xcf3bcddb0ad5066b909339d14cc6d3d8d2881f700d6f12e14d795b0617556ca5, 0xe12686bc99e20f206220e40232760224b61b90f708b7c0b13c197a4711678a6f),
(0x961d02e7db8fd1aca38f911013d74a5bd35e47a149818d4149f02edf5da73402, 0x9462eaacd698677c16515ca3bff217e9765dc8adfe2fa82a1db0515871fed240),
(0x43e62f90574a8e6525d22ca6074814ac3648b724045a535c5e1af97eb46ec3ba, 0x6def0a5617c1cf179369e20ed18d0503e141dc859edc73a318f6a35b3d939734),
(0x9e682b799d79018c352113cf98de93b20457e4b4a962d16033b8005257dfdbb7, 0x9db9cb16bfe9634389c468a06405d2c9b2983354ee9a81e93f23ec5d5049041b),
(0x790187a78079b59db2a22d13085201925f9682e42002c8f9436876e4d5a1a8b4, 0x025c8b46f6b431803654381e56a8e6aaade0ad1d6a6044de17e9592caffa456e),
(0x928a4b8a6c744b3399e22d6535a21ffd662a0dc30d5bab1d683ce555f0169583, 0x251fee84c064954be1daf7e45fec87a9323d55f6687fdeaa75d4dcc99a6fcf84),
(0x684e88da81182f2cac5872de8c98b86fa6ffb73e9bbfbfde6c16c3f4be084c88, 0xc451b59dfc9d62d5921ae45ff7557ab3ad179eb06afb8bb60bff0645cf6383fe),
(0x8bdd2e83a403b0cd7a8ebfa86949bceb8e8166cea8596f6cad7b7bfa4d174343, 0x7220c14797f682f87d707b2feec937c3643bb359e9effbad08ccbc8fa8177172),
(0xc3fa3b216e3c495285258ef50f921f6bb7195869e46948b4b69e80b0be399543, 0xeb2044ed21f6661b770880503026c2c55a519ca1748bb10fc8eed9530aec1796),
(0x1c063c13eb2d2959379fb0df50d355e0195a8bd2e642ab483d6a38a7af7e63a2, 0x20538f92d14c9ff675c5005c8c40e26ab00428747f446ed7cfcf5737870f2abb),
(0x60c067977b54c18f4b82dc6c227cb5396c6086de107e399981f1b5e00f31d452, 0x3f4546c4e3eb11b2e6fd2617b57afafece0e8bf70aacc13b73755f18dc98429a),
(0xfc15cf9992256abbcf263e90a231ed8b421cdc2baf185722c0af008bfea36856, 0xabe346a4d9c4085370dd46e469a3bf24c01dbd97f5c9997e27634dd7c635d798),
(0xf614398518173bb7428da262bc8b07b81a92b06a65926ee5c6f8fe4427249454, 0xb1d832ef3a2558c20d41f06d4be8e5e811fcede99cc784aab9f3ce18d701cf84),
(0x579458a96221844241e6854276a116ab01f1fd43109d4bc7ad5216dcee61b5f5, 0x33e5647468c157c615cc8d46135bed7021274a4d97aebe237bdd4b612c53e2d8),
(0x637553dcb0804132b5562678fe355e8fabab2001fe17e3bd8c051e7a41fe62e7, 0x28bd6dc2ad586e1ff1a6a951167ba14f6989b296874e0d3c319179209b572dce),
(0xeebbd70f6f64855be21ddb923e54f58389e99ddb577fa8ea66c3722eb580e2a3, 0x3d1b697915b503454a55606ead3ac4ec7c9866983df60e1dedc8682732fd4d68),
(0x4ec8931f2bf4b1da6891135f377912363a6e888b6e5c5ddb2e350e42686c56fb, 0xd5f6c6794c2b306abd71977048dc3e283cbab910556919f535d9df2356a09bc7),
(0x6b5a7f76fc5b7e7a7d84deabffd5c7718f49375ccc4dc1a735bc253abee9730e, 0x1e935dc48fbf5f6ab12562df118557579eafb8abf6ad8b7af8f9df6443b58af8),
(0x2a3129ebf620958a4264c75917e298075f5b73f321d4cf27683e47889e013af7, 0xe940f5e4c1fc28b3fa346edefdb8ac7d4066732fa6c276c689a1921fd1020da4),
(0x08bfe81ce99443f378307f345bf2c82694a8723bc4836d124c6f5163bb28b5ab, 0x58b16e27857e5faf9768edc268d177a487de984852e6534836464ac3f0433c71),
(0x47820cd9449c566d2d39daf3ee4d356d05423692a050cf831c1337bd8ad61be3, 0x48dfae032988a810006d069d22f274451200d38ca9aea6655e5f28cc9952c2e4),
(0x2d7f03ce8e45360589d221d884c3ef28f9e8dc5241d7d131cd6e992155a934e2, 0x8414b3c05a39f38e1f14d55fe28604f916a7b2726d6c843a57a2b8e8b7ee9c72),
(0x83887cec919d8c86c2150d4ee842505bf5a5b06cb3b1e67f1dc2005e99d8e37b, 0xfee0e7cdf5c9eae278d34fe12e58845ffcea9de7f9883e327a2ee94192b4c009),
(0x0519f9e1138bbab20da8c03f565c3fe0a9d0b7091a7b50f3f37df191d1ca1e24, 0x64d6bafe2bffce423f631ec0781e96f5ef6cd6a9ade6b9eb367c036a1a61ba9e),
(0x8091f78f84bc74ea69ade208729361523946ffe663edee6c3cd13ad94a8fba61, 0x1aaaa58baf84688c1cba5d90d700aaac6765faec39e7a212fe13a9cc0b0bda1a)]

/-- secp256k1_pre_g_128[3904..3967], /repo/src/precomputed_ecmult.c:12164-12227 -/
def h07_5 : List (Nat × Nat) := [
(0x50abc00dd3fe57487c2a53434a36f10d8388cf2056cd5bb49ed8e97e7adb3afc, 0xab8bad9514b6040fb1c64f01d9b9db01670fe0d903add5d68a80e41d8ded25ea),
(0xa9a428bb4da01f44a9e4f2533436ae7520e5722e6d12931faa20772b36a2f110, 0xba05121a1830a26c440f05822fa53e20f8c226b685b437a0557c8450774c0c5f),
(0xd7afdbd46314d677727fa11b211e99a1d6948be5b7753ecf64e9b1d0ac7a83ce, 0xb5f8b97d748a4abba390ed9d79cb42abee9b2afa517288f480aba1cd34e21d04),
(0x2b6b834cd2b54466a3d41694b672ac5513f19b1ad518ba99d622abfd9b6de265, 0xc1922593ddc0b3d2ad1d52dd3cbeb2e574ec849b892d9df187ccec507ab9b0d6),
(0xf393cf4ad7f93fa31596ef7ea9c11c6bf29c344b1a3ee5a251360c9ba96ac8ea, 0x4e811ca9de67ceeb90e4801630d06125fbfa56b335e3a7ec41bedbaa7a8133e1),
(0xbc3b92504e14b254813050120a248a94bbc546bd052fbc0e0848d75e9c8f418a, 0x9a52afc6f8b487c17653a911f11d78c58f5eca38c761a2d9af0ef2ada6a58223),
(0x2f5a0e73c601fb8a7321e1704abdb1f7e71edc3bbf6f9cec01467eef5f6055c0, 0xd8bb1d0d142d2cb13b9d97f80f807212b79a5ecf13d942ebc5a3f4426553e393),
(0xb83e51e3b4fc69ac84d099b96916c11d8d8d8d7bf5cbe15bfa13ed3473a54ae8, 0x232e0f8869c5392322018084a7cfc251daeb7a846e1daa78f3f365c2ca3dda5b),
(0x1097199350b07a321532b3722ee89058e90e9b305908cc0ea249a40be7516377, 0x69a0b67c7bd55a049be3a3a5e308799d0dc735f9ce56ff672c796b6e5a0a1055),
(0xdbeef75cc95d5018f3d71711a0299dd262250814c1469647dcb27a23e85c4477, 0xdd4712cd16334f8e2baa68556c5237f8676311e31cbf975335e76a9088d66413),
(0x28cb11992bdee938f3405f18537b410f02723888e4ca0d29d96806d56baf114f, 0x0e6c63febbe5dd81e3a9fc1e83a5ce89c3e2ef6cc2a57fea695ebf4be81e5aa3),
(0xf0a2df0b64efe99e65f9f17689cec5d4caef385ae4676da3790ba2e24e9f60ba, 0xa7ca7e08b900f66414498c12aaa77da6006a25207bcf1a85713b6d14807a4519),
(0xd1bb46eb38e543960dc7ad4f0f55310654fe9b069abb1410799dffe5482b0f00, 0x14b0619fe08830b60d0a546396826b6cd03bbd2caf930b14a031f922eace4214),
(0x27bd2e567705126a5f5adb31ac1d09a185d740020c548a8415c0cce01f69517a, 0x12203dd7cba21cd29f9ce428a8e302d7202690ad8734c08f65578192a5468d32),
(0x6b2cc7901c72e201693835efab2b676f55441addb8dbc3bd61d43201bfd21d9c, 0x59973406deea0493daff90d4b62ff38c6690bb0518e755601bd5b3a34add7456),
(0x75e85c3f32f953c5632a8bcc6bfcd6bdc63c3b93e607d2675df09fb594840f27, 0x22f5a3768714c73d96b24f89d426e668bc59aca0cbf6dc47723f01ed6cb6bb30),
(0xd37a3071969e152f41c0eed57e28f1e6f26e175268c5268315e200b9f86d56a7, 0x53d5272698751d1d0dc4b1fbd962172370e296c3b47436d3abe2035676ff6181),
(0x715bb3047f5e6973365466408e183bb26769319894e341d237d5101ea7414976, 0x28440f5f9e82d5e87a5ea6722e95c3d6a89dd1fb03d81acadb7609eea1a968d4),
(0xf72d142a4f5b1595a7b4a52cc6812ec28e4924a4b087c13968d8adf7dac642e8, 0x501b644bb5d8042cf16ab9bbbc594c14585486ccfbaf47a65378f97a761087dd),
(0x7b3eff8fb4ca8a3a5fc3cf020a469f343840846cd8fbff280243b962c1284c26, 0xbe2588fd15396124a50bc5555e1610223bbf636efd510522811902b5b1748579),
(0x2441a8d771fbeca4cd3652257974e4cfec2a7035ff2b58a59cc5fc378a113dd8, 0x054b0776053167134bbf4c6a7ac23360fe035d2d9316cfccae12989382447981),
(0xc20fca4ed05467ca45b916b12f4ab386512d097cb64b824de78e9a2a14cf7591, 0x8851acc796ee4072ca87e69c9dad10e7931fc48b238cf46d02b2355ae4eecc02),
(0x2f6b0e8d01375263b74e415aad758130a34c6c6d690ddd6763492eb2049ec8e7, 0xd0c791f8438cf6a7976cb614eb4c9f67adc72275f6236868e384d538daf25dbe),
(0xbfafc1be426f056d6f8b3ed11374db21fc00373c3dd8c762c5ab91eab2b665dd, 0x9c41f297a4cf003a7fa7b0710a106da46dc40050a759278168436115150e2a2e),
(0xcf711dca905602736d776f860759d74f895980f71728dbe91df93076cdcb4e8c, 0x52a379bfcf25216fe3556defe889b23e2f91f6a647ece0124e140aa7734f1cd5),
(0xb9be95de27aaf198c3001ec363690f2ff516fd751864794e1c3516c9abd1384b, 0x68875f97dca1dc4303e9b614488cb8f81ff85d582ba853cd27fc12271ecb6df9),
(0xf5f257e6c4d06a8c53442b377519ae037bec31b3c257f331fff5377328e9638e, 0xb6a1e60a48d03213bb52e3ed0d20d0cac80beaecbb40169e35ff216543e986dd),
(0xfc35c74c17e38aa11580360330af7d92a5281b3fcb6cebf9df09155e64099ce7, 0x6e2f984d41e8693b5a4c1c589814d1318421fbbb2ec8e45ac6239227db79dae9),
(0xac135e0149d973637405e5a989ffaca6c1bc18a1cce34aa74732fcced54384dd, 0x3e38bacdff954a6b6bccbf6309f8d709d8e545536113dcb1c471a1620af021d0),
(0x60a013fbefb3c5d7802400c4e791a019bfd8f657cf4c1055f3674f929f5f345d, 0x7e763c483582fe3e2a0a5138ca3200139907e3645468b5b2711205f338a1bd97),
(0xa099a1065d907a8a43a3d0273a789992ceb3a6590bef93a906ed04ea19a7acb7, 0x137f9ffbfe3c22ffc034bb579f0c9b46d5cca4a0db1407db06fe3d7b5bc5a50d),
(0x9ba1da86d02763d6187ea5a8c11c9da4c6ed7017049f107b09ef4fc394a792ab, 0xf19e22d8ab5459c55bf87908901751848716aea65c2d9650c472199d6663f741),
(0x3642701ad30d143017be93633f28d90db5e022389350934f63a514c9a677ada0, 0x2fdf9ab9c76bbbc6c4e79f487a8bbd866432fa984f52ac223440de3bf1aba970),
(0x29f79c58100b7098d8d53012e2c9871906188c0d54712c31c2ea3a52d6941a5b, 0xbe9edd99eaa6c1bb0d0ec42f586a2806919d5bb702d59bf37216890b9a2d524b),
(0xe011aadfbc35284f816d5030c3feb35004b470d0ac5ff061e5ed2c4789ba1bbc, 0xe0a98f934f2b591a36e6ee97f293be77021ec1a93f4b270055a0c01a3cc979e3),
(0xa5c8816b00fe535637eb54b688b9221e0ee06a5177ffedfb3ed96ee04fd78585, 0x3f86637b9d63b11a448977929a6aed537d65951daed6476fe03be5a8c9ff8e5f),
(0x3b952c237e44350b95207798e708fce62e6d49e0912a2509abef16c9c7194707, 0xf784972a419e6c8ac9d41a3857912e66e6ebb6316bcdeedaff49b59dbdd68936),
(0x8d9796bcd9d8152f80c7982a187a4aaab75dd61199f8663272502f24dd57af04, 0xfb9b147994a31e3a28d5695f2d6899510317c2d298e9892c89c98202b7e611bd),
(0x96b2bc5b2f4e64451536f689d78896694fde4d7b6ef67f51845177046a02de40, 0xe0b76d26f91982db5039bbf5afbfce51914eee9b352c178b2145c4a1088e89cc),
(0x9bf7cf109f129500e2a8f54d8658ef974e3ab2b9a1d0d03625bef5d2432e2d79, 0x2113d7adf77e1c6851b8bb52188ebd25dd6373a719bcc20be32d0f19496e8582),
(0x10d3ffa720375b5eafc8c7414d9aa184c91f853d61d58dab11a04f2af3d4f1b7, 0xc1f84b2a8a96f43cb215c7046f8c3f02c98d750ad416f21beeb10ea30f298c90),
(0x56d64e2b6adf1cd0b8d6369201b687330e92577e88430e92c0e679e80c3a5eb6, 0x0001370efbe98423488427c257d5e6965d4b687e25e4b82451b1a6eb7ef71cc0),
(0xfec4a03e1c83cf2075deddbd20c247926dbfa352a56821c1420adc34731528bf, 0xa152b2af8670e42d3bba0d98f387e9bf1bab788efd7bcb2aa787e6a8bda95509),
(0x580a75177ccea9ac63ae6d53e8959e5aa45d11db29a87001779c260f2fee92eb, 0x793be69c3263c64c2048c411115375a486733a90d8c12a06862f4f9c669e8edd),
(0x9286bfe578931cebcf97431b1137a19a991b46d2d0dec2f535edb9766af636f6, 0x7e774d30e962db4283cb38fb2053b780c55fce8051edd5f28cb1b5a5d329f516),
(0x606d55a99b7026525382cf2eefeec65a803e3851da60a041e5422c1c28f4890d, 0xdc895a6e3c2a64114a04a1e031b8aa1779ae2c051f4eee5407f8a54c50eda1a7),
(0xa16a0d40833ec1cddcfef2f1bcfc8ed811387dc6004e4df66e807f6975f917f5, 0x548d7d3713de4a53151f32a82880d0877fd281d963011388ba991bd8822d6527),
(0x005949d2be574e239a3e3e7aae20726c4a687a15edf5a62d9b79d0c34f9f0329, 0x71dcb25a167ab25c311d94275480f78ef7f4e7779723e55f337a9121445288a9),
(0x841f4e4ae67b0d8a49d7b295e9c1ff4fcd1e233382101536cef7c4e57968b240, 0x1f561c9c265fa4ed0eb979f4a8dbe679ccae80378cd73d5cb56671d0571f4161),
(0x22623df8c748e9f288bd4b83142788fffaf680ae00a2640ddd43ec1e46cb7442, 0x380ef00adfcdb592f964381d0ce9f78717d5827b494c3aaad5e0e01387a55da3),
(0x816067c36438301eea07a21e5a60a17e670083deb3b66e2dc88c6548f45185e4, 0x5afa391b9a95e9f1f04f4e8e236fc39e2eeedcec45026647f5982aee4dc4cbf7),
(0xf8f235614745c53124cf6431ba8e04257d28af9c2c1964853546924dce085c1f, 0x0a165067e3b41b55a548c1b93fe76b5ebd101275acd29e7507f667536734750f),
(0x21325584e25b8a15c25537d4c70853b228bb933dde04be237753b93357f2f57a, 0x3708c8f2078ef57a0f0b00d517f21a6ff627b5f159ba1f53d20b727e86e873e2),
(0xb2f4f7fcf48519b2c00c24b37ffac14188b0baacbc915c77845cd6a63fdfbda3, 0xb206b59e6f52ee433e7196bb5f4cf3c7de49723acd5b3e171c94e28c7d57702c),
(0xb4e65d4f5f420006b7c70fd39564f9c3fd9c5c53dacae06462212fecee7f7265, 0x307b6ef2e3993bf4f321723ea83ec2c403c75b8d684665bffc073506816bee0e),
(0x4f1045939ac609ad25f3968e9798ee93aa58b61d043f4bab8f2352b1de3a7240, 0xed8d87bb988395fa581698f5c55a5093ed9d0a893f4aa4bd186221ee7f8179ae),
(0x9b5e74ffe515c1259fa6b2157ad7529f90018e8523888738d097c016494672fa, 0x1d55866d4c4e30f17bdbf70c43fb3b9dfe2df3d841e18bc43db3e3af21fece15),
(0x077bf442ac8cf718102968f949387b1b30f8a2c2c76a2cf510d817c87e17e302, 0xbb0f9e611d90046b1d3b1103e6c5beede4daaa85f6eee1f26a6e756fd32af0e9),
(0x27de125cd49f20496b028f34b16a9988d2f5d46930834fe64bcd388b78c266a9, 0xf43d86a8483dd92a2ad9dac24039ad2b84cdfc2d323979b81a43de255cb54bfe),
(0x21bf7178ae1d75e194bb60ae4efb5a8d7f026cf07f845b132250989c4be9c116, 0x6caa82adbc21df15d17444664d3b58f876b522915696481d434f689aedb8d967),
(0x0024925493ee016a41b65b7f08289da2dc9100f99c0b956a66d245b05632e234, 0xbca301941cb51f981504c53674f6f904d883ff467aec96f82ed5ce3107c45b3d),
(0xd3f644c1e3472b4cd46d89b96b937108ea8e94259b9316fe230e75387d867f76, 0x91822603fd629732a3b37ed9d522794202e536ae316bfb7c597b2da50d8cade5),
(0xc8461f4b0e2bd14ca88e52c8147f656d915c267546252e89d0337f7ae325b261, 0x1897118197ac799b3f632868e46efdf5fa3b615aa8a92b07e38ceeda9cdcae06),
(0xb6e5f590be20a938c1b57e1da7bd6ca1a8c2406aaaa5860d9133342ac395a380, 0xa6728cf1a2f2eade72d86569ab5a6305cf01eec96a6de026ff146d5e7d8a04b6)]

/-- secp256k1_pre_g_128[3968..4031], /repo/src/precomputed_ecmult.c:12228-12291 -/
def h07_6 : List (Nat × Nat) := [
(0x3d25179d465701d056d4eee4b5efc10d8b70138df14908c03124ec9559eb5d6c, 0x158b7bfe1d61d7ec633e88e2b3c5897a3b56f7a2ac557c8c3e032a718b95980f),
(0x0abb5d54c717149995893425bda27f10d851551191af69279849a59746f94d99, 0x4cdfebcc3be28dea36d06e89ff4209c37012ff0ad93d7ad04e454422c4b9a161),
(0x989d0125115ef9c2900dedaa4e31cbb2f124338673ec624c52352907b325c73e, 0xd3699ee9945de070fc1f28ee14279750d553df632951c0c8d166820694c6c8df),
(0xc4c5c5d429c3d1ff0628bbe4e0edf70d5e05db13c82a2af82d0e42325e013884, 0xc2c76cb8825188a9fc29da6770ade97fccee860dd13323ee0f2ba7e7efa97eea),
(0x8662d850c623b65c8db5080a900a0e83be947111ec0b9edc3601549e26c0807b, 0x0a71d677b0c9e7a4f66a72b32918083bf91e724ccf8c9526b3df0f6e35da840b),
(0xd26fef497e7359bf33309b3893abbd44543b73c7c0eaa626cbdedb171d083898, 0xad8bb209bb090b396b501ea9a5070f9004d60c20d48dbad956d381f879851395),
(0x569be8e8c584b6827d742ff85b4021125b4560f5f173c9838f8785d2229d8d0f, 0xb09381a4a8267d89a8d5581bf9a49d5247c74a335e26e35422edafc7d41b8559),
(0xde34acc34d1787b3ad967bc6c5960d8f842f82bbc95aa255d4a9e794d30116d4, 0x2fddb41cb2b6b52a57cf4d3e0883d3f0e322c40bef098505b6cb3d77a21816d3),
(0x47430b4876dbb7626d549b861742a5b3ece8524070dd83d55446fa99c5c50b1a, 0xd75592ba0700457358c6a0eadc8ec772b53dd0488ddc73e85af357a4af200df1),
(0xf1d1e0b5e6687266ba17339b76bbab6d8c2d8ffef6c68fd79140b097d6e9fe13, 0x00a56226fc233385349c548372300f97a1d8494da67db50bb96543d5bf24e580),
(0x22a6f73576140de13dbd0426e968c3746e8132ff383f44c3c0515b85f8cdbcd0, 0x9dcd89a890270e3e358dc00440f95a43430a399da8405e48e69e3455fbd18d1b),
(0x2ddc53280afd8ca09bb0c6ea57442e8efc307b30c29e2867b46654e3e1a9ada2, 0x7b9ab90edb84e6e87bedaa6e31ff90e107d0779319977393b5fedb73c087dee4),
(0x60b6f839a60af52fd30a116c058b9c651fb1c854546dfa9e1a01e2c195da0fca, 0x5e77f69f28cfb414be39b07b2469d8ebb0e743061d856bcdca54d83e20d26c40),
(0x2790c19b9b9092e50cb06bfdf95ea43a2a1f1f2857c96776dcd26a7d0ddee53c, 0xfdeea120d04e6e78b2387afaa0217098de0677598b2bc5b62715d9f3714e7f64),
(0xe544320f9ee8bc8b127576b16fad9782db181ea34514f7c00d7f9046f5113803, 0xb93762fb02397444e69b63dd9dce7c323c73680ae26b5e0f95211972c0510741),
(0x6c7f25ae73e428d5860a236cbbd4d74f8e2706cd69bb4cee39f9aafadb55313d, 0xd8cb8fc9e33f9b18e9a0864be58ea9218db30c4bd5dff0916a44b581c8dc9121),
(0x289d1b28ff710d474d1e9c3ef3952f27dd9eaa3a030ef499121ea53b9b93d4e8, 0xf36af80aaebc2dd584cd5cb7245b3cba6428593277f4be38cf2b394aee880667),
(0xf02ab597ac01d67325e87b5d29130c182a6f4a8ad4ef7476b9fa1da75910b5aa, 0xae88c02aecf28b13ecec53795c34633dd3262d1f65ecaaaffe89640acce38adb),
(0x0a9a974f71a7310657732c82d6d4c6d3c625bb704ec29a8d2d8f8418dca0413a, 0xc20df433eed4e96fd5ef222d860ed1e5af1497accfd1dc2126e8925b91b372cd),
(0x7866190d728e089919a0e9c78634b55e4cc392fc1650471f4a21cf408d77496a, 0x1bb5fcd9540422efcaa8e265c35a1e6429d79de3a9369b2303512913ac0cfd22),
(0xc8a7ffe344b3b8ebf00e4e2de63d954025cc115a9110c773ce0130a48333b9ac, 0xca1ffbe5010c63b5674141aa5ca87246ca91280fda97e806dbb523fe5ee67b6e),
(0x06cbba6a13ff6ad383419e84e4da68719cc1e633d4cf33472f9966e64f9208ba, 0x351225820c7893f44fb92c34e9c4661b0585988962a7d1fcfac8a2a61e214a88),
(0xe07f8dbd691a8611eb5450c82c765dacffe9aa8149ba3e1287b23fdafd9de719, 0x932e35f08e39cfeea25937994e118c7f0acb0c6e5b526bc6894b061d8cfbc509),
(0x6213689832fd9416cde720d71d3f32a551f3e238fccc69b84b633a2c86d2c5d4, 0x137e9a4d62247e418596d9684f1e5997791f3b6d69cbcf68206f715dbe784e9c),
(0x8b01058862de6706253eb2faf710c08640a318ba1ea684f23254e8c0dba7b9eb, 0x54a48862dcc56c60cccbf43cf7a33f9fdbd7e41956f0f48e2ce2371a19bfd264),
(0x12d3908c14af8346fefbbbace56bcbae3fb2ed87dc30b1cfeaf480ea84f213d8, 0xfc4615fbdf7ddac984676421002c4d99fef41e5d98e5824ecb181a989a67fdfc),
(0x219d05e2a7b8cc69bbce368f62922992b474286edf7c13dc8da62d1601784cd2, 0x8aee4f739a7eb1e78ee9407de8fbabefdd28203b2161ede20761e178a34c7f5c),
(0xd7d0cd599a76fa91f691fa23ad265f3849bbe213c38cb074852005b6d85de204, 0xf349572c60750dae5ea1330ea725a0efed1a2d60c0b1d9d1e938f37c911ce2fa),
(0xa3fa69f5a04c902383d8b73f6fa8fc3c9f65cfbb2c77042d635f4978eabb6c6d, 0xc798a1a89994aab14af95b18f389a2f10accb2d759997e8372c1ca5ac3cbdea2),
(0x902e881a825c457d79872e71e5d941708540734c1d050e92cc5c8afb13b2d1cd, 0xff07513263bf6fb911163cccf62f8246de099f07ccfc9e338ac82c30bda62d43),
(0x325f19f24c470556d361aa2b3f1932bb6923ea5a4f8cb505d34cc60e0729c144, 0xf4a9aeb829a6a0cdf981bf3581bf8f9d73e3e9c1619961782a57c46b9e94bec4),
(0x6994f3b441a6cf6153e5f8602cfffaccbcdf7245eb07824763bb07c6fa1edd4b, 0xec2fc5ea892da89729c479d8d3f05152198ee4ab87f73bd927db11601874c174),
(0x218558324e8f796ffd51bd2f08c1f6a85663c5a2b5bad37f3b7a10526acb2d8c, 0xe77ceecb33cec03c99690d44b0343bf73b93c4955d67ccf4b15d1d76a1897c2d),
(0x905daa3b32f2a801a567c312ae4772b53196933f487aa1b0a5674cef9d91b099, 0xbf6285c36d27171913691d5d767fdc1782b648435b2ca1d6b695871c41cf369f),
(0xdf7cfb8434b6052475fe51613dbe0e7f1b685376315397f5b39951eeb65339f1, 0xe725cd7e1419e4552d953393dd9651d50d1beb3c6fa44d2ee580ccf4df558243),
(0xe7fb9efc88842b9ea3c96b821ca5eb80385cb27628cf64a5d8c5bcb4e5732491, 0xc8e676bca6f9e037263b83900675a97d1353c128eddabd5f5e92815378f22331),
(0xd1a35f0c272ba2161e6ac0a3fa440f59bad79715d71e12fecc12369dcd24285b, 0x1f5b70f7d475716db9ef2f21bb15640049dc41a896102ec1806b949ac99edb3c),
(0x066ba6e85f2ddd4ce17da74ac7ae629e4f420429045932e555110da52a7b079f, 0xd8ebac5beb8eefbcf4da4f3579bdffbe2196790436487733263089e707a80402),
(0x06f7f69a26881052b4bcf806575f9c50c36e7c221d7b9e487b1f39a0b4f3a749, 0x11d06b840d89b88bab4352b9cc160e50bc18355825bb602b89235aa67331a4c4),
(0x4be16d6f571d503b2616990675c01ac541c23afe84cadb90eda0c21c926c0abd, 0x01041edeffa1f2dd61a116c5dd33fed5d9ede78fcb2311bd9a04fe329ec1d06d),
(0x8af88c5db55eacb6760abbc791698c57191603350ee569bd33bf050b01e75886, 0x4f5b850b6bf2b4b129aeeb24596007c0ca203eb5d2be6beaf61bf596bdd9a12c),
(0xad33e77a3316eb8e1a76484913915e81edb6951808ce75072e2b60884cef8672, 0xfa0161e24bc88bd9da5157fd7950c75d6c4f4f89f158f13f16ca5e4caf7ccd90),
(0x444a81ef7620afe791d96ee9b1c34485cdb51e1f6022dba069ededb3d9d8c2bc, 0xa88017d9a49d4ebc2ee811c7fbfcd9babd2683291efafb52e641af119751e2fd),
(0x5b1e07a39530f8b660787e9d26503a2f77af3ad124ac8aa51d10b663ceaa5c51, 0xfcf4c0d38d55e0fb2731e59b686a806ae87cb5107bbd013b4500c470f77810b9),
(0x003e8c170e986a8657b4c4033317e67db1d42e7d9625e844ba533ed173174309, 0xdeebe49ff4f5a35d0ea0f39663c7ee0e9db702f5c296fe5e696f552194cd6caa),
(0xa1096eee5e9bcb199d24c078b46b528b6432af907f1d57e5746e83d804d112c1, 0xbd13e4fe699436cd656b3019acd54f3c97eace0fe1e92fc13f08a76dd2e7c6d4),
(0x547585794218de75db40a6d899a75ee8368610934ded093898c071b76665f2f0, 0x3bd5564213e1c68970cdcd94fddaa6566bcde4bf29c761b5c6f613f619174548),
(0x4eb32992fcb4bc44bff56604f4f74586a44002905ee9adf7f7bbc69445456057, 0x8576a8f268349f01ada77c6730510030e0cc9d8c66db760921661540ba45c3d4),
(0x350b2defd2eb4933c6d428e75990a7c00f291723f92e5ea269c5b4c8b661a22d, 0x61acdb00add9f34bf36126d8380ef5bf70f807a81320d59e3540fb2590de6943),
(0x914ea8bece7f88195337341eeaca129b2da3c96b0306b017d7afd98475f360ff, 0xf2aa5548ebef80a7483b563ce8b242db582948a49fc89213d3272a6385ac7b53),
(0x0f656e1738da25f4baabaa6bd70e3f5fad6d44f9c53e1a334596246b83dc0fef, 0x40a8b4fc346392870a65f53cf373c2c4c742ce4b2040fef54c31dac959fd83e5),
(0xa47c8af0334e3ce5464310bbc0daa66ed77e1023a2124182ce3e6771933b618f, 0x6dbccb54056d7c755e71694ffa1713eb41ec5b2e8715ec4b522952940c0c7f08),
(0x0a8a28625e1d04a65e87947f82178d5c3b5fde311eace6886766ee9d30753ca9, 0xf82ad6f7483aa04d0a79e672efa109be1feb3f75d73923ba94df2f1e2efc2169),
(0xa01ff54e5f8eb855e26903cb3fd407ef4fe06208a0f448371e83f7a231c017d0, 0x2247c6f9c52f1a6884c18ec077d925149fd59b0027663ee2f0e5b2ee0f2edf92),
(0xe7b09c3a626ac89b6caadbd6099a320c61ef4fe311f6072ff2d7c8758d42aed1, 0x8ed996d36a7b50e98e5c64ace03cf5a337c3c5a16d99c5e2c0faefcd38609fdc),
(0x3bba9e53336c2a06ca89fb522605904196307c97373cb7173f35a45b863ff2fd, 0xf2fe91093faffc16f58ccaeae54e9b8c419d51236e8c960d52ae834127d24799),
(0xf61d22b6dc660174221224000432f53311950c21b6240acdaf905f9c2c0630a3, 0x06068f5a1a662cf393eb7e865cdfab18692bb25015de27961421a457049ffb05),
(0xa5b608556b1aa22d8bc38dcb8f3e4721891c45dc02702d137189be70e8a80962, 0xf77f97d2d5e305ca1fe20b99e6c182ae3a9b3a697cd5e34a07199032fcb1ddb6),
(0x70c3aaf900eb2562e1cae950be6f592ef030301b28022ac1be3aa5cc85e1a259, 0x3f2cb7cd31a8d319ce4626f7213aaef73f91f2bea17addeb61f217b94c587583),
(0x1dd70dd1a8755e3728dfcc4d443e7911a67952afc33e7d93b975d1368d06e530, 0x4684f9741f5894ef470400742ecc73dd240e677db6bee0c40141dfcd7190d084),
(0xd44d698d7aacfd4bd8d6bb7f2d0dca82f5d37c3d465735462b180cc69083fcf9, 0xa18d803d0423296590c67b0f4c415bd7c0c940413740be472819bebf087dc407),
(0x84589ae13045574285522ae74b1bc3bb62730a106154d9f94109c01051b34ca5, 0xb979fa08f2a9af49bf6ffce9b2fa707fde14fcba3de3b90349bf623537b3606c),
(0x3dec8fdf89118996bed31c1efff15c1dbc84e73ffd04c6f5469d2f048b724627, 0xb143f3c1e20b5bcfdbd1a555f4ff88dfdacccaa2bfd4310c16ae27101beb2c8c),
(0x367a5fc5519dd9c6039bfcc470ce465e023a8dde417b412a2f0f437408cac160, 0x5b8fbddf2c6bfc90e291b136a3e0f8f3faa6482097a87cc2dbafac5ca7f021a6)]

/-- secp256k1_pre_g_128[4032..4095], /repo/src/precomputed_ecmult.c:12292-12355 -/
def h07_7 : List (Nat × Nat) := [
(0x8aa5587e7777606f60bab6b320d88e931e7c2efd487bacce5fa3256c9463efc1, 0xac5ba76c98bfa132c16921ecaad5228950beeb34449e0c1888a39fd1d3f091dc),
(0x79c001910ea632ea030fd9e60b0d11c6af3aa441eca678c6a5d6bf3c0c84cae0, 0x3f9540703b19a9413ac0b659bf401c2dae9c8bdf2bd19e85472d2d8239dfb899),
(0xc84de72221a59e95cdd951a066483255e858aaa4ada498b3d4ef8bf803a04fc8, 0x73cde958915abf28df811109a62204490548fcd20f639102158bc4514af0a0b9),
(0x8b1b8c50c6327d61e063822b2a3c5935fedf74dcfe694c218cb6b892b5a9d6d5, 0x57bd89529f156435f47dfc479ff4314cc036766b5b6437f841f60cb000fe168b),
(0xb45eec8a3ae82f9852117c4a341f818433a31ce7719d7650e783fd5248702c52, 0xcd556b5cc7086b4f0905d0fcea01497b254117859ee9046dc988c6e19e0a1c90),
(0xa2d5dcddd93096c767b4871eac58cbdc31ab7013865a9cd2c570778080757319, 0x7aa406b4b130b23e9e6b5978b1e0b537227ae8a8af62c1a60a6d46ae4b064547),
(0x712036b4e5d35950a7564ea83509bec1e97f6e19121ae5db3d314c19b9ed2b2d, 0x25862ff38d0560ea04698d2f425342c8e3a32232f9c9572a21d7414e68a93616),
(0x5bcef0f7d70fc8ba942e58c879afc973dca402e30795adf07562b552f0bfb392, 0x7cc85a4cecb45bfd3efb0e12c3fc56f91a444ce47325647454ccb0890baf1919),
(0xdcd5702f9d508a1b0afab9f0af5c4e9bb9e5f2146767ab0eb5c1d85939741ada, 0xf7eaead7ea13e3a7dccd40a4a25265013369d5586f0c735f9eb2518eddcc1fa1),
(0x2cea30d0004f629d091c3ade1b8b7176363bfcb925d3eec9784b91bbe6cb3d9f, 0xa83f4bada42ab171cfc9a76aa3dde34bc48ba454b39b36e344446096a1c42624),
(0x858b41f2767b191edf15fcb13a41934d150e54d6e95035d009c6dfc7a1c32f8d, 0x8180b97d76dc95f5478a217204802a28b34d6e9df65d5358e5cecf829fde8dd7),
(0xd5c98002bee359b86d1234e5ff4180133eb9a6680d2f1294245fd020c30e81e6, 0x4e522da4cd2bc795065a2e4ee2fc87b7a0b6bce91d90376d921aeb495b3781de),
(0x0ebf91622f9cea9f71a4ddf582de4b7d34002d76da8acfb7d4d6c3a19520c1ed, 0xeee753223e1881cd8e3fb483318c75aa7e43d0498e53536ecd481d185ad4e251),
(0x0387f6a9d08756f308c2e111af74be680acc4504f3669ff6b406f6c80a61db4d, 0x288595e3ea1d5f9126df96d5dcf5cf4ded0bbba237224c4a59db552e87cdd28a),
(0x897ff1c0989bd52e383a2d70e59201449aa409ee9fef20df25574956dfe46714, 0x3cfbc0c9308c6529f4e95a00644a873ade09406936dfd6c6bcaecfa509adc9d1),
(0x3255a8a68e0484c78b6bbf21e2d8b24fbbcbb3376f84feefb577ef1ab5a395af, 0x17b3c002f9204b84e6d4a426d2d7489379ef3fd5441e881fd81225992912aeb3),
(0x2ca4a952d4d9e3b03943eeafb1eda2251fbca101e7071b7e2778ef9fddc55599, 0xbfacbaccdf02c18df81a2c044748c7ebe98631cb63ca16a09892e16323891e00),
(0xc3e8289c478c334ad47b0410e1b6ecb6046ee5f88a4dbd7310505f6ade4383b2, 0x5792c2ceb0431238647f4309cb4ed22000229bee2727b91fde4004b3d6f0f55f),
(0x2bbdef60a86292f9867ad63c67f9842086fb968ddb92d9d5f87bd27c15119049, 0xf4a4b7623536c47929099d193d40d4d0e75dac6254f035388028675660a85362),
(0x77a6e0909e7dacb318014ef0714a4be1fe3ee47be22afd2ce0333cb9ff2496a9, 0x54f0e475b1a9906cd1d915d18196149234461e27e163c3843815d1885251065f),
(0xd195b96b78719254deb4f413979f64d6ea94d5e479350b1145c39e4504f40ff0, 0x238a4440613c846e9472d4b2b0a4db88b8245cada5af469bd997f729c0e0636c),
(0xc39aa336208aa65d75bb0f3c6084f414ad024d1548da5bd8113a619b04815b1f, 0x7aab1ed632741dd414883b226e573ee6455a00536d8492004b2331531126fe5a),
(0xe80ca23d0baf82dbcbe0bd27024cbb31d6661c7044d8a8d22967764cfde31f30, 0xa153d1d473187878bcbc583a5eb83e5df67e8142468617138c484744a597451b),
(0x395b7a65a5a9c23a0f96723a4d595a7df3e8505fe0aec120711cb7b02e72ef80, 0x59020dd547476e3936ad37b19a2565434f88cf032992f4b62229a5e7e49bf990),
(0x67a7e8dbb83e23d27b57e2cd9512a5dae8b49545ffef2577644fda22910b495c, 0x7c01499d3791b9f4100a89f78e80b41041fd34ee68ce1f15a8753032e8965735),
(0xc4038e7d76d2e7b0869863952cbe2ce3ecfb4b0861423892ac9b3b3f6dc0c7e7, 0x61bb3b0d9efc9b7d326a27babc34fc8c0129460b6642629e72f2035165e92f3b),
(0x7705a5e226a4d3aeee69c52f5fc3f575b9bdda08070a19a88a525698c3a25e5a, 0x458e096cf01906f8c2426973d1c6a98244be9e02224062073a883e4b53c7a1b7),
(0xf3ce8bc35958b5e616a994fa01fe039668a5f1f1b464a8759e4a347534ff48d0, 0x9c1a1d97be3ad78b67c8c441f7aec63f8dc92aa087500d6b222a2473e10058fe),
(0x905ec120de69cebdb9a9d764e01d6f883ebb94adaf5685d76649e7f33ca4e0d0, 0x92617e993974aa3a774a75d0e51c00ca4d42ce12d79ab0e93a8e449e9ca9d554),
(0xb1b74a4da35785928bad0edc3664c1e127d48447fdb246b4f15ada689b21eeed, 0xc43539c7b84e9e8fbcce38231322c4d0c14e4d9033c4e1328f5b26ea9d3206d9),
(0x0d440165c72f2d46b2fa2a471c42dab78dcf814d12d3e025bd5fb96303d8bcf1, 0xe0864950261f5face97ad9cffc7683dffabab7491d80422aca30721f5343ae3e),
(0xff524c4f722c19a7f7b910be6d573a57fe08d5af6580aed1de03f9395053b303, 0x0fd4ad4e5b25aa8bb3a62deab320335b5b9f136862f5f91398fbaa61b753bf0d),
(0xeffde0bd331c1083e4b76a53c9c1ba438fafa2b04a3ada4463a5fef18d8d091e, 0xfd7a869ca75c2105e6ae542086ccef0ec563bddf2b41ab9aee0e14c31d947dde),
(0xa5e746c099c8d99e88b4a304b583adb21115ba64e409d278f40c45712f3875e8, 0x7f832112c2af38302c4baba4f073f7fe84170939dd9e8c07fd2c1eef2e934a68),
(0x6accb9e3af5ee9439d8daa722fe455137df5e274486fa46a1ba1909332ccb431, 0xf0de1658842d6580507c26a9b68f92e5a3faf1081fcf5dc443ec9dc99f28dcae),
(0xc813d055e40d32bf6e8e782b3ef85698b86f3d31ed0123ba1ec8978af72b6d4e, 0xbaf6d7572f924631c4da4191684c628047d37ef42bb9528d288790118d068ca6),
(0x8b8820122cadfc6244fbaeb58be4d587599dfae62fdf1177038a844d97c7aaf9, 0xf5e6c293ac900da4f716e131fa5a42a87867c8a476808b2d4093c78206f7a6a3),
(0x8f075050f49ee582b54a5acc4ffaa443bc02ff344d0717ee09619d832d7310ce, 0x13b901bb7ab3d3257cc555c4a4799a3df1f9f9a86b7021c9b99a1315b5f7fd3f),
(0xbbc852f8cf643e543c65fb1df2f72c9789a456db21c81f66921d411fb0374c58, 0xad08eabbe7971e24b2bf604cfb248b3fa27e1c2f84f032cd4c14bba2b30a590b),
(0x2d77dc4b662b55bb878edddc9dcc2dcb009278ccb1e549fcffa025031a80bc1f, 0x288bb0d84fa7f2a1ad1a62f4e76ef6eec07707a089caffffa8e60870ecd058eb),
(0xbc83f71ff3b4a86eb9bdf7d994bba6c8c90945ab9c858b4ffea7914ad7ccbdf9, 0x18e91fa3e5067d23809ed4553d119541fa3c2563a3a88b30020d3e494b232292),
(0x7d5b96578d9b88e6b0e11b7e847d052445f83dc0e2bbb7b3205db4352c200919, 0x1e689f7b8830c10dc28e7230c569af4cb1c9e672aafd4d352faf557090515ba9),
(0x85e9f3648d75868831dbab4c7460c4a151614887cacc3cdc1baf928a200cdc80, 0x7f4ce5180d5045c05865224cc07f7fc35ba5e4f4c03ffa9dd5f8e5a131369e27),
(0x425390dfc1c094bd34855816dbbdb71a9c1d107745b1c65da101d9744acd0810, 0x81f14cdd20ef4d7069026d94f09de176707547c308c0f27d1e277d4f1f49bc00),
(0x3cc7cf0b66dc93ac250d00bb60a0f75adbb59409bf8e44194cedaff6413549d7, 0x331a632fc3dbd899f688bcf99df70e66ae17b719a2beb23a0664c1d61c204a58),
(0xfd72088db8a1bce808fc923bcff789d89d6a0b2a2be3b5f017e2b3ebce70853d, 0xd3912b23a38819baeb3296383a0bedd993db4aa8df647494b710dec909eaf599),
(0x3e558f8d5e0096da4d8940af9a0baa25c7318541c7dd37a6b72b35acefe65060, 0x2a403d7f069d805c3ebbdb3efba95b87f78f64317fec0dde7695053de660e90a),
(0x70708223f525f22216c00149fe1b745f721ec32a90fd0b01e82f2049d8694a7e, 0xef4ad787f0b4d53f19d86ac907d943b5fce17d886366354b410dabebefd12569),
(0xeca29625eabffaf64b9eddb711e4cf76440b4a94def9d2fc6e5e9114aa414f72, 0xf1f8387575afa3fcb23bb2274c5890cff798b628283989dcd3538b8e237618cf),
(0x5b7c4750542df0c4c4606db46861925ada7423a566d6c10877838f655f297695, 0x428113661ae1889fd6ccb1a24cd9a6a5de04db2d5e8050795f922b9e791f784d),
(0xaf1a5fe6040cb2eed36982dd1e7882febd5da1688005838cb379b986bc012042, 0x71570549305fa634a63d12ed1fcfc8a25768778e863d4778b7e41215ad3e6224),
(0x727443a246787e70f83cd1be1189c4cbe1e8b18b1d57746a9a3196769366b1d2, 0x863578269bba3e89a12565cc1770e5b44df56ac0d202fdead68928d06d16d540),
(0x00967979db34e62a149e6835213991f7ae2c9a2babf3d2556c5e198a12640b8d, 0x99dc1d4f524456513cee44ac3bf3d1ed8547b827251b3b014d4c07c1fd9edcc4),
(0x794009db08f3491e27ef9d73905b06b2be56937dbe57b8b159dfb883af203601, 0x5a6ad64d7ee5e1cd15a6a087289d86b45db60d24243917e750eca61e2ada40b6),
(0x87cbda396f90b090dba9470b1fb0dd1fd2f4212f507915110cf6297ea9851d10, 0x9ca095f3a2a4f997501fb4c9c5585dc7fb8f7952e11cd3e773a92005a41b63f0),
(0x9ed57b03475d175258c2077201be7e12cd1f3ada05b95fa84b245b01b910acb0, 0xd58c905443bd81af85c58a7bd0cb3e8b253106448e1ef50d324eea36a3bbd5eb),
(0xef8d0a2292ca44982dac77e38611336335fd9521fd266be7d5d354e6028b0402, 0xe55c4b4a556881daa4a23e5b677c1a9af2f547d2e2b4037ff9758a743cb58b6b),
(0x6dba21f5a274f29d502d369f4fa4ed082299f6e1b12f5c75abd01597d127e3d9, 0x7685f72f0a0ce41e8c4302de3e6e9c81c951f69dd2df0f3c930da77a51a39d94),
(0x8cdc3ebf857ac2357dc1b0f426ed2a527841969b7fb332aa6ba44693c8399a3d, 0x234dd3c1915ac71406cd87249b68a19bdf250dab2748abeca5876fa4b7f910ca),
(0xa00829c8caa665b47e3391b6f4706898a9c790fa29344de1e88fd882b5eca2da, 0xb7c8fcc71e834cce5884b12998318254234862976068eaa8184b5316fd424110),
(0x5872f762446cbeb14a12e54a1d4f22d6a4ed5b2eeff7c5f5640801dd2149ce6a, 0x8aacd3e8862757fa1a70c29e24364ef44c37d5d8bbacde2ac75a0c1c28ee198f),
(0xb70ed5c05dba7150f22677d2e5b532cf53e7ceac919d3b2fec4cc6b902fd34f2, 0x7e43f528cc74171ca2fcee0b018d8fcb76c3d69b0856083126bd4482a4d28cf8),
(0x4beaa2133c6161d0c7da6d7c8eb09cba2e8ca505a790a7d309d0c16b8053bb52, 0xda4c083c9cbdda2ec6626d8fe4b2ee130703496cc298bffadb1acdca99d4f6d5),
(0xa8d31ec653ce1834a78de363c5f9abd108594b344d34f5fc8a10e81f05804831, 0xb4d6a9cd7cbbe3709edb5601cb7c8ba48c462c18594a4bce64f4c286dac5cff9)]

/-- secp256k1_pre_g_128[3584..4095] in pieces of 64 entries -/
def h07 : List (List (Nat × Nat)) := [h07_0, h07_1, h07_2, h07_3, h07_4, h07_5, h07_6, h07_7]

end Secp.Model.PreG
