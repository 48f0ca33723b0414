/-!
Generated from /repo/src/precomputed_ecmult.c:3624-4135: entries 3584 to 4095 of
`secp256k1_pre_g`, as pairs (x, y).
-/

namespace Secp.Model.PreG

/-- secp256k1_pre_g[3584..3647], /repo/src/precomputed_ecmult.c:3624-3687 -/
def g07_0 : List (Nat × Nat) := [
(0x33f635f1317f142551390ac7346905e0ddbb3d87b0c1780fbb7dc950c23414f8, 0x7435a15584eb1988b974d570bbc2b2c11512358002bf93bdb626a543e54bfbcb),
(0xd2943ad704b0bb0335307185fbc438a70bdfe11e7b5e0eb3e94bec46a251999c, 0x2dca8fcf19aaa314ebde41defff6e9fcb6097d6b3bfec06f19aa4941676d577e),
(0x26aa1fbfc54375a6fec54390b5e44a0cfb524b65c10d1516b01125259dfb1da6, 0x49eceaa604c575ce0337d0b6ee7e819883973c6f00abfa2fd4b24e0399a91b02),
(0x780aec1af866a0305ca6d7da1948f2f6ab18717de82300cd65eb58cfa7d28d20, 0xda650041e45a0e1ea9075b6d107b6f7a414b3a0218aaf92992cf2978bc08b91a),
(0x1dcff2598e59dd4a3e515853b3cc41e5ef98113f29ff7b3d5eed6d502cb88b67, 0xd79786307c6871e45654307ae3836e07aed86cbea9ab92f28c6801721ab77271),
(0xb19af4a27732193793e367eb5ece1c638f336f3a9cdb4b01e2488ee4373ff70d, 0xa3ea8839a5105a2d4277f27a26a8ee73b9e73fcdd54f641dc214d5f79c821dec),
(0x1c8c1f29548a9df6f28b6126b932497235f24e2da488e066acf782f6b4f6755e, 0x1a79ab526a1e1aec5ccc7e2a3196a07e78108b23a86630c91795ef9611ff432d),
(0xb6ff8dda1ad6c3c23c8a10b7b4313968e4d7007512c421d4f0b1153ebd5716ce, 0x4d3869c6b7b74167ca0d21e4edb3e01caf8dbec2aa87a32d7c9306f9a5ce61b8),
(0xdceff4acf61ba84a818219329fa0ad60ec08cf9d830e6ccb375488ced0f47b5c, 0x949aece192bc61b4883d5508aa4a4aa8fb1b8db0385613b1736a6eb5c137d6f9),
(0x5561e7a7b709689c97c4aa189a3ce841843ccf98be851c8b131eeb37dca5ebef, 0x4b108c17f298be36430e6b7f26b414a233b924a6e65dd5a709a1f15ba99a14da),
(0x4d98957789b0159508e5d5bb2e064e9d9c56a2545b3c88027ca0c997a395a257, 0xaaebaf33ac950756c5b200c9f5b009c4506964ce5b7066757951f22140b6e0d0),
(0x82b58e6e06373c4b30ad55a9d66cc804e9da512fbf4af6681246a12fe33bfc8e, 0x8378122d98dc1e372c33b5c21ff4c429d6d7577d2ff353d387cc04781a5ffb38),
(0xf49fa88aa773784bfe57d8809efac44f714c3d753669463ad1199be802c6cdf3, 0x41aff6c02164a411c8be7281493483beaa9855b049820772b96aa39f9a18b3f4),
(0x67d485dbac8445a18c1b97a78c1852a50ce910f00d78b073969c58cec0efd78c, 0x71dda92a24ff2b315fcaa5a828bf07d9596f49b9cf19f4be44e6f32084981e97),
(0x9145f6f2c19038c3cff99883b5a7176030a46f7e8b5d350adb2a96104704d4cd, 0x9d9179e7852ac5fe1d4664d54d778b3b6c8e422bb6e78add56700dbe6a22b0bc),
(0x492d5247efc2f5f11cf3848ce0719abd53674089808de4b35503e23f46b2631b, 0x374b07627812c8987ed68877c995a4d49f021d0b29270863d50b8c40808fd750),
(0x5b8ddfb8bb8116789298d23172bdb9c525c6610b461875490a381ca617dd1dec, 0xb47d3764fce3218d17d0dee0133d4f3bc7ae170c3e8831cea92a35317b1f7568),
(0x88db73ba25a61641af5e603ccd54c6d4063c6febda11ec5c6a35d30f0e406c65, 0x39b06f7b1c1dd7b70884c67ae295f8c09b8b5be10c14456b4027bf1b4800a753),
(0x3495cc9aa23c1eb42cd85070bb0955632a7037bde330f721fb38091a9c382451, 0x7feabb216f3982df744299573c7557bf0b82ff4f462fc64dd9b3e10fb69799ef),
(0xe8a5cea6970e10c793f756669d2309b10a4f7b52c19db4f1cd69a652c445d7a2, 0xdaacdabfbd5259bb96d2dbf3668e8c16fab47624294d9982b961f0ea32402b96),
(0x06e8c78ae81a7ade3989c4837d9efe5051af33f2b2b2ee32b5700b4367931f9a, 0xe5664504751b41a145b5412cbe10a7827d1d519330dd69ca47be29752c291d35),
(0xb8f520a3010c5b2f8291722b1e3a92ecb9551db7744dd208ab4d1709310a539e, 0x65901c3ab6712ded8f66451e1915113fa96d3d1ed90747909e291d00970f3d75),
(0xa053845864459815888bd9173a2c16fcae0deaa7cb804adfe49dec0bb2d8005a, 0x27882f0023dcc9fb890dab73f98925d3e712608b3d6069c8ca58ca6dde0d7a67),
(0x41280416aa7f09241ed8b631fc2959be2117cf039c12f6001faf8a0515222144, 0xc2fef80dfd8e8433ee55c363c43f7e06613f354e32aef8e1808817b1af7f58e4),
(0xc4b8ff36cbf83d1051d130b7e3d613b28b536f0eb050a41a7dd8f8aa18c7a1ee, 0x87d3c44c8867337b466ba76b47512399f6cf6c14ad4977fc276d67ec5e7b4d47),
(0x40eb693a7cb938e3a6b850106b7cd2571de630b986da02a93b7a7f5aa0a51ac1, 0x27b875e014d3417dcbc3b770c4cb8805c7ede7a4efa9f89fa51e36c3af6d8d18),
(0xf749190254e3018075365d675f2ddf24ac0c9d84df371fb86e94a9bd7f81dad4, 0x6a271b36c549080fdc9bf1b5ad275d6268af0cc72ec68c7c17ac24cd5c5a6e46),
(0xcf13261de4ce19da14e6996c97a23f8ef16388acc364f2e36a053254849f287e, 0x5568858dbe1a7447f7e4ab51bb872a788218c483c771ab7c04a0a96873adac10),
(0x9c6bda629dd087dfd55166066222684794cfd51772c72a817263c761ad3e8cb3, 0x2c77dc7b9c7fca7ebb35628ed62ffc799e5fbcc5e25bb0be05b1b67a010c0eb3),
(0xd8d1035f64439dec20ecc9a55b314959c1526d7bd15b1922bb7ab7e5b9d26bf3, 0xab7e34d6ccfdfea3f607f697b941bbf7b922a436b9cb43143eb1b948ccdbbe30),
(0xc6f40a23b8227a60de32e1047080f0877d53aea5b00a22a939cbc228d1c1d424, 0xe16bc58fcf4b8c5c9106f1f4b8b2374a63a3136be5a8c64d7fe6bd0bc1d80345),
(0x3a69da229477d3a57147c2decce22de1d1e007cd61d2250949400b8f63a43536, 0xc79c4fd5c4ba6062c7cc95e1c9b79cfa46b98cd7389cbc3925cc2fbe49a0e284),
(0x1b5fb8e5492fc48a46b7f6fca658f218814c3d8290aa339b7bc7b7940325fc9d, 0xa6290b124c9e08192b6f49f4c4935b01d2ca42358efea9821646fbe7dc7fff39),
(0xfdba0f02b004b4eadc9e1c37d1a7fa7e8a75592231f054c747bbe8ec349a3845, 0x42da61c9e96471c26fedefd7e30c43c906c3c09dd72d662ae2b82022391646fe),
(0xc39391bfcb7b9662be7279f7063389887c1663432faf1760f38f0cb3a35140df, 0xea14e03453dc82cc484b8b3fff79d81b449f9f81d7a52d664c5b563c9af556e1),
(0x254ff13dc716cb2a1ac0e36cc6cb20c419aedd0a02219321675e17440859cbcb, 0x02644cf3916d26af9e36bfe3247f5be8896e02cf83eb3701c400ad2b92e35921),
(0x24e4aa60e9b464ada2c8974e985680261769d35daa7c8c5b071c9f5728930474, 0x9df7c2d182a94fe080a2244bccc9406f6ed37c38d9cbaaf78d973538e8479f8e),
(0x7ad9bbadf906685c3efd81b38599fc02fb19a4c18bff1ef80702c4f6d17543a6, 0x9878b9709c4018a4f713ac8fd8a533dcda45e24344926df0133aad64c5246f95),
(0x97d8fcd9383a8717e0c9eb2df7dfbaa8c6e08339be5fa2b501d1256562d8ae53, 0x1879ca4cf5784f867f8363e15d85afa7b1f114ca7f8f474c4a2c028f07c6a777),
(0x3e0fc7855a08c32e1e14d1a92c56ffac2af1acef505ed72cb8771ddd8afe7572, 0x6d79b7fcfd1e8894f0844fc9da30b555bb1768f3df15a0b5884e5b096e149390),
(0xd9da17dbb132d8641da3a9b5389d6f5efda483e7fc7577ec55b7ecfb65602562, 0x80e471e45feb0d702ee7f9e63f8f23b033a4f35e8a0841a7b67f8c63c623b70b),
(0x1848f766afcd1e3482935daa7b71212bf38e28539d6fb9eca3d9809b6fca18f3, 0xca9a7882645d54f249d35df63748ed945f9196f4a93d4b7dee70f44d0b6f5884),
(0xed3744ae9a7dac765ad65b2d4fc2d15f1a9d0047f72c6be0a849ca04497a9f2f, 0x3cf76d2ed4e5c6f7e4b23d0323c477ef2fdc52487066ef36b763444f6ab5fb5b),
(0xc4607b73edf3545ab10a3a65e031270791212acca86226b7b1ccfefe5f3676d7, 0x31ad465b8595f783d5c0cd036230e3dd2628ac9c45dc6d7728c420933d7eb3ec),
(0x1c0962ed2aaf69d78b20af0493a3fa50bfb9ad1b64eb0699641e4b0abc0e96f0, 0x49f11af6e088e3a2a429c5b0a87a7f6a591b5a60a397c12302d56a4aadaede44),
(0x06a0476c9a41959e098dc6cafb7b438182250e1aae62445b1f09a098ddc19454, 0x56842c978ae3c4c92c266cd37c8e3514ab4288b9ccc7e33fbe552ec6f511c7e1),
(0x024da0f653a30aa0a6b14999329f03c6cdb59a80e9ca68f6b9367830a0191f1c, 0x83e79080aa78bcf5b810683af061c614cdbd3b699e200b53d1a2c7572c138235),
(0x006c348322479d07f587190103264402a078728f0227c75f6f33743f9a1a7764, 0xa377af744a1254086bf128d845bda458be779210f0d85bffeb192c0ba0dcc4c6),
(0x212aabbb4d14cb26b26cf249882b36e11cdc26f4a149490515478f99d5c43baf, 0xe9140a0a81d1582b98eed57d7ba8e58411c22ea3fc265148ca1d60503847e281),
(0xa27478f12afca20a8d46824e5b0ba272f26ee0c424a951edf371425ab343b10e, 0x51e74b86a7fc97aa5a3bdecb67818d7a70ad0ba37c7cd7598ec80a4bbc4036a3),
(0xe1c1269a7171f9eba2e2fa7e8f55e0e2b9b8a507e8cdbfe5716f711a0572e293, 0x41cfa17008953242f98d8e242e8276845562c4a76d034848e639335c32afba46),
(0x204d544c19418e190bb328e1ecc0fbd862f0f78b242087804d5827c0f5e09efb, 0xc66098e31f5d158710a3799cb4f980c018cf4ed4534e49f06d05705993d52fb7),
(0x16eddf0a11a6f2f2df230de2f78b4cf0980138b23ab196ee361486c57a5172ad, 0xe3db358fed8ab3c19204a7926102c4201327bdb4fb81718bb39a0ce2b5992684),
(0x7c9f78312298d96b65e6b7c1023153793df7001a79cb080eaf6829d32b8995f1, 0x2037cc3c90e3a0f1b242018fc53cb32eb2481dd1bbb700e4a6019546edf51e5c),
(0x129c2d461dbeb8f6c1b913a5b2d6960263aee7e9530c6dee21168b166198fb1c, 0x29ffeeb961c027f9a2a14b72a287d5667bbd80bf7cea0dc1747ac25f55137964),
(0x8be2e56530d4932ef6d1f9daa3225b52de204927e0633b12570a049c1f6175aa, 0x364b4e871a130cd140007056e3c0951ffabfe4bd6a68740423cc1800505510c8),
(0x40b43f0842ae9c67ab0ceb62453b4c4142a6e12e5f880c5e27c909976252fa6c, 0x6d1ac6c5de1b2e5bb225e46f2c5a2d2c248f11fed123ecca4432a04bcea2068f),
(0x47e2238a02f34df3cf1caa5593c49db54c2cba9be3724f17087473a05ac669df, 0x4d04cfa203ee255feca104a360a52f7cacfc6127608dd9089399be829cf31f3a),
(0x17286c553a45c6dab484332384c565d7b3de474b5df8ed607c7a5c9ee1cfc35a, 0x6172d34775a4515160b104b2795431075b194d24793340cf6d8723c96320007f),
(0x3451af9d3c1492cad090bd3445632ac50a3e96c94d9ed258b7fb20428dd7bb31, 0xdd49338321236e06e7284fd784c1a3b07687c513927cc79acc5f8b41b14974d6),
(0xb00aa481eccc5e7fcb5bee2da6e0ac44ed9afa3a5b2a9619d23d0252014e5ce2, 0x0687b4861f0032ce0f42ceb7441f81fa10d732a9e7e762424a2ca8fbe88866a1),
(0x53ec8e9cc75bc91ff248a23934d735b20ef706d4c0761e2fa8a55c7ea0b23311, 0x1b11dfc063c4b1ed1b5104e015d5c5a8c352f54b9fd827688b5104f645d45919),
(0x1ecde1b39c072c9a3b3eddd8d71e33832fc80d787abb70a4cdc9186ca5efab66, 0x04f5aec75a799762b70cecb182049cd0239f0c30948a25f30daae0bcae6dd626),
(0x01fe2fc3702b558c7ab9b479fa08efa51e90239d677052e65afc87549bb1394e, 0xf6b586ae3a395d3ac216df2b66d48fe611a64c0c8a7db26d30fbd720c6845c2c)]

/-- secp256k1_pre_g[3648..3711], /repo/src/precomputed_ecmult.c:3688-3751 -/
def g07_1 : List (Nat × Nat) := [
(0xb53d0b2fb8ac2ad5582ba0c20f031c7b76e64cc528a5b9ba872718b1e06d5dec, 0x8984e58951ab87aa64bb034c17d23252041015779476887b351f034e92e3a289),
(0x0054e51603bc2366673fe5d81f335d81a06ca310a2116ea7bc0ade128f37cf95, 0xf471c8269deb2c2bf1b7206d6e8173559236607a4b9930b4c5b3a7817312bd4a),
(0xe7efb772a1d423a2d39e22244c8bab913b8087ac65d51f598c4db28367b29a7b, 0xf2dfb586031d08b0bf2b47f417f6a18f704a39a0a152e3bd587e45c793a9b6e7),
(0x5ec59daae8a263a82afb430979ef03210b163f2adc083e6703446b98d0b519fe, 0x2eab4cc36a3deae530dc6aab94e5584fa8a5316f5c05b04e84215ea879ef82b9),
(0x427b5cd920589dfbdae975c8efc1f09801119f69c40d121658ccb903d4bb62f5, 0xd055e6e3b87948424162803c35fca8786500b5a306871b18d984686656d1213d),
(0x54954b15fc594f3d08f422c79dd42cb82cc30dd8c0d10736554844ef9d05bcad, 0x86a7cc6573569c202aff8e0421a00e4a9c6b88f5ebcc397564b4734cf735373a),
(0xff6f8f8d23670fbf2a1aa7b339568653573eb48067a2a1f01b55a1e6b1f32559, 0x7a53f1a6c7cabc57d731552f09fd944736cd33f43f8f57cd2d4ac1dc1ac7e218),
(0x74d725e99021c210e82d852f41e0cb8a3bba8efb8a01552b8420c265958a2381, 0x4ee69646aa9f70bb883d6ca4e1016dd992f18de6026ca27c0aeb5854f5bb2bb0),
(0xe9439f7efc0342c9c2d68fbbc58d85d9feca0570d77448d76d3c3251e49c845b, 0x27da0d981b7e257aeee90b459d0d7065566667e7a92875922031be023e233916),
(0x9684a48d81a608566dd26622b3ffd13305facb329f2c4f1e2c055cb0a5c0b911, 0x92038ad250adfbaa5d587c31f5e7b4e7294bbd25e7af18161be3532bf24e68b2),
(0x1d003af90469e26ec7f0f1214dc587289e4cf8375f9d19b416277c971a0e7609, 0x99c7c3a530822c720b31dad8146d2604ed795f1a7c37e139c84afe9ef71e5123),
(0xf96468f873cfaab776c32fa589f72c090d680abfc601642d01c649cae197a149, 0x1ffb4bc408495d31b24a7ff3353857e3b6708186c18936e99793e4d4fa083b1d),
(0xb6ad4106e30294d2bcac86a2131150bfd93c14f651ec65f532904412b3f89d32, 0x19a366a674279641d055201cc4c42b434fa4079290c1c3ee5db2a4e638d228ce),
(0x875472f7190bf3059120fec3ebb69fb202d478286cb1c108a977e7cfe45b9b9a, 0x1adeffc5f5dc59ade15d163a95f8049f0a172d8e30544562050a789855a97c21),
(0x5445a9faf4245414e64f7ae2a1cb1b1f54bb6fd5af4a74074d9eeb059a27a670, 0x496c52077da2e0823e48978ca3fb7a1d3bdf07ea61fde94ce87741c4e9418018),
(0xdae18625704bac8851f350267856830f74d3a8f97c1f662bf4c4cc3d7814d138, 0xabc059fd7ba9061983988ee635ec835fc20f62fbc68e2bff373bda9103be6f87),
(0x8a088f12e8523de5c7ce659c107e19293d009b811fe94d02deeca8939d9845c9, 0x4251212afb8ebb765d2d703cbc18b20841f8df47fc5e44baef7b0f767e29114a),
(0xd78f46a88f3b08d1334ed25c78f57910716755cf2bceaf6ec25b52e4d7af6d01, 0xeb1855f229cb2010f20b3f019cbf1b2d929046d3242446ee5c9526ef5b06f44d),
(0x1e0b431278ae0e275e55c4cacfefcdd6f589809c6faaefa83ec0d5c5f99b034b, 0xf38c53c5544d3ab42ebd74edb8348503fb523fae09d736578bba2881904918a7),
(0xf03155b29edb119c0f411f144a588f34ab02d7f70c415638cd534465ed7cbbd1, 0x72d153e3ff4fff14b41d07cd31960565317367497f9c6495599d3f06b8e85813),
(0x0f61fd683edc7fb4d14c84fe3416654b8df665786d0bab4153a96e39e5de4c8e, 0x952db567cf0913b1885d6884d260fe4ee11fc139f58da12fd38472e3d42e5f92),
(0x78310e7a29e437b25cb00e3b13a4d86e01ede6d84b1f344d7ee9c7f7e017dd77, 0x26ff358a4d5629e04c20f70097c202d47030bd3f43134a51a7d101b6e182f2d2),
(0x63ae8c4d6b7329cba61509c2d0b61ebf4e6ac94bc8a096b97a4027e11f781a3a, 0xa8e954cfbf407857d19629cb338a93a1af16c929ef8b96ce2e483e95dcd14f88),
(0x948d592a594b354ee2d039616338574cae662f26ff79afa91657972507cca739, 0x37ff98e25ea0396e89d3992f773bd6d5ce02758a4ee255570edc867b02f1876c),
(0x653cf16fa314036850b04de18bfee880660a41614dc67a55398e2d3446100f45, 0xacaaaede5ff1e5526766741aee43105bea4d34193e615c3649c1db35125a9202),
(0x46fb68828a5edc8bf24fd1ee0e6a7789141e188864508d2af3c511ff8e8cc782, 0x9d4ae53fd52ce9bd6ac9ff4ae82c2e36f4d2669847ec90cfef383e0137fd8887),
(0x5f11a0c723ea2a717c1face2b4b0f28a4ca442087a2ae0eae24c20057138c0ed, 0x5ecaec84ad97612fba7925ddf126e4e63906eacf06f991d5bb273316b80c8452),
(0xb9f49e1c929bef7a6d6b6b3bdeb10890dbf2ba3b3eba62c0320bdc84c2a9039f, 0x98729e767e4f8b7bbd0ecc1c534aa0306e1b684c6f42d15c2bf6820cb501e558),
(0x0ec8a102e7d2905ff273eea76c9a4608965dc2b03631d2dc63c38e7215ade2c3, 0xd8c899e7242d96cb493836868f671612706ffe5c368ccb6dbe5a3edcf74371c0),
(0x107f02b3c351805a6c92a3c7742a52590582c5b039cf6dafcdace6042be236c6, 0x517236bf1ab4760157d746858dc724a7c5c2d55e082c4a3e685f389ca99bfb9f),
(0xf0fb14a1a5c1c016d7b8c1fea8317872b10d637adaf6f6cfb986065356298971, 0xe1d9ed140d33e65d4258e87c7280001cc40b89ffb316433792fbc547964540d1),
(0xa5371adbea784edef6cce83c0ebde06878a1c80aff83b47a333f9b3544489459, 0xf5780572127f5d74773acbe7b2a22cbc7e3d09bcccd13edd48ece3f2c8129224),
(0x3c031e5e1b0ba57613c109715fa7d92e2bbbb8179603d3b999e4fadfbe17300d, 0xd275a3fb392036dd474e65a2cd7b6cc479cb40d71c363e6bbf9c272eae9c83f3),
(0x87b5899e685db530a0969a689392080df8a1b9ae523ce18b2171c69c05a5318f, 0x06ae3204e3f0afa5a2d40b01a42e84d11b1166faf99cec081f5af48ffda775d4),
(0xd9f077ddc002c16df9d8eedb56b7e7b1ea00d04e3fe838dd2ae4050109b8bf74, 0x6518d51e503118e253cfc486f70cb9ee11c27302ee5512f278f21265af3ffeaf),
(0x9c09ab638d15acc9609ce30532277f637558a4920aefb98ec9bc721cf8921af7, 0xb2cac58d535abc108bed6ab3165225f10bf2f84a9fbdf3d91caa4b7900e0f6fc),
(0x6ed1ef8b4c2d92325cf8948a5c369a2452ab250ded0e48ae1676dc739a8a7fc0, 0xc1b7a08c2cfe5154fca74136863da75a5c6423bc1c904585f54ac87ef6742008),
(0x882e8d70154b7f6c279f71c1e2ba6087cfc458a93079d8f13fbd3be2506928d1, 0x8949b22e97c418729094ac62e67ac1f208b31565edbb3d1d9b23a73a6fe64131),
(0x708472a024c86ea07119d0afb2509814516840e9fc23246aa6da139fb37aba52, 0x9809b7a51d551532a5b378d6594a36653a8b057b80cd530db7a53fbb128fe5ac),
(0x3a44fad509a8b7084ada1250d8d08353769d573d71a225ebd87a8cc3af9fac3e, 0xf29f45511250d0d0a1974bf846124813f9186e452d3c5c85cb0c69fb4b7f20cd),
(0xa3519dd8e09e1bd4160564c041c2336236ba4c845899f90afcc370b3cdfb9f30, 0x64cff1597c910711d0199faa6c74d08e7150088e34fce67472dd3ec61b881d7e),
(0x5af16ce3765f5c964eb3513f19d99ff2bea1affa0d68f8291c4f07675cfcf1dc, 0x00864eb53bd711ed4a842db6b0164a78511ff7b8a87aa3dc1f2402eba3815daa),
(0x1ff9a52219cae5c25de1ec080264104018848bd137a5949b4021c2d0563d54a8, 0x546d634c122276e1b5cfb919a53743098f85d7dc149b14d4791c83b01718e031),
(0xd7a6dcad72a51ed8f84926ebcfab368c7f02fcdcaa66482ac6b6dd6f43d3e938, 0x9a273cd63ea6ac865a68f378e4466ae98598a05806c97278bde63b2214e41c96),
(0x154f63e55bdccc7da696dfb52b6cd4c63c874b931f2212823f4a8d191f32d797, 0xe98f972217bca1c8ea7269b0d2aa6bc6f0f29d7db340c67a2df5913577f76fae),
(0xf6ade08b8513615cccd29095c21bbdeadbdbb7da87ce9991c27ec7584c399bf1, 0x98c81be019fccaba131af074b28a63113fc1c5ca1318e96af037ad338f234ad1),
(0x9661cec03b2715f6c6d2904865fec2bcb786b3f6943a883a3e51cb2cc747637e, 0xeaa1f7d99b34104b74a8056a09ec739fcb9c373595f0b2547fe756204f5358bf),
(0xe0a5323a27d608c734c03465f03705c3480520ccf5ac777f53d498b4655d19a1, 0x1f727d78a8b8c562ebc606798462975f63d88eb58e7cbaee836bd629260cc606),
(0xbab82efd004646f2f281980d5250c6af08206e95dece4118c24ce31d282f6409, 0x2a60b1dc26a201268df8375a5656c55fcafbdbbb46b7977d137cd5848d1fb82a),
(0x389e1399ebbe958b1806e9b3ee51baef2d7edd2079e6a2c221e814ade1eb2631, 0x6c1586331f3cfe459e71fb4d112a624ce48adabd435e6fd52c9459f6ce9ae2be),
(0xb78179cac0dc553d19f081747fa4511d087d89611ba440458c307727729d4515, 0x7020be980c496a506e4caa5a94577d71ce0a80c9bb974c97a6892351e83e0de2),
(0x867ecd3dd170f9a7123d13fcfd90058ebaa6a6f412ecadc9f1e14d55ff104306, 0x3c0db3e1bb91ee238fb2768979f2b543d698c5e2fde48dc9e2535e4a946759bb),
(0xbe71654c26a1025d41fd4d08384b2ccbdb25bb2bc15704e5697be2f6d4eecd38, 0x316ed20fc37a2dc7a0af8d18e4da0efd2dcdaee444b2c1dfcdfaf6af49406afa),
(0x5a8e1cb024d62685e755b9a2ad1e0165416905447963dfda6b6deba976e9079c, 0x4c793173743330de7a8f435168dde95e3889db2a91de0a27d088a222f11ebba7),
(0x3bfad00b2347bd0cf13a761ad0630453bb884d0fae3d31f857216412b82e6131, 0xef33c56094157fec3f7fe8e636d4818371e3cbab6f5b051896ebdb42aa545f61),
(0x02447ede684dce09c896c2d2b5c68cb760e026353b4f2dc7428191ef5d2c1961, 0xad38a82fe80f860b62b39e55444382425ad6cb54d6e7f37762427f301ef7bfcb),
(0xa5eae321eeb4b9f8e8807e49ba8de764e7685f07417c523909d857d48bcf985d, 0x2acf8aa9f5c1b7d32ad5f52339e655950017881d48a7696eed3b1023ab4def1d),
(0x97de995c5337d9383cca5b973ab05e8fdc035e115c435251007e575ae890b13c, 0x4fb2d9692e308a2934c3fb4dc4dcef509202505bcd891f79e8f91210e069e6dd),
(0xb8caf25fa864918af803dad8d0abdf9525b70f44546b1f3cc6b1726c4438f479, 0x7c51b5fac0f56eb36ffa8c5a076c074ac30e2f36b069ed79023663da0c9c05c9),
(0xb5bc868c1b96e2a1b24f3001af140107b2cade8a5b1f344344521764ad07b2e6, 0x8d6cfe294e929f33d5aaa456f545c33b672a8c07b214a6f238bba3674938d639),
(0x5f51587c242a3b2210db666bf2414c2832ea26621f13f6e90784a8a1373ff602, 0x2c3b260febf20a4eb853950f99ccbb9f1b39418a66adb427f58869448b46c858),
(0x1d0be0f95009a2b512a52e17e044f3f74f08e69560d0dfeb822b46747a2bcfde, 0xc3a82bc3dbd818773783181cf7b81ddba742c3b24f8665389335ce4d8f3a159b),
(0x3ef0ec28b8003331a6621bcd6ce30ed29e0e62d5b492592ccecaf4bc8d22fb8a, 0xfe2c84ad77d40e86c92a03dae43cc7f7512fd36398db01337d929ba7a144b16d),
(0x84c29a24a4ec04dac76bef42732a3648f62f12b0e7f0ead302ef9649b7555fc5, 0xe7620ebb283a54a710eb454cf22e49fb929ec45338e457ecb18a7f0a794f970e)]

/-- secp256k1_pre_g[3712..3775], /repo/src/precomputed_ecmult.c:3752-3815 -/
def g07_2 : List (Nat × Nat) := [
(0x6bba6634e75d5fe921f40f4e5f1c177ba309cd730107f1e928331573eacf43a8, 0x33ffe08c421682431f086b4412209c565b47fdea54671a979d86be36fb421582),
(0x13b67af051b0c01bc49a6046d9e5b6ea488f62989559dbfa47cf16746def0150, 0xd0e8914b01c1bf0b5337cc35d84acacba54add592321509ee29f1d93a0237608),
(0x161221bfb5dcb62aebeabc946ccc4a26fdf779cb636407202c5cf13e93af9300, 0xd3fde2c5dd9d6df870a66bd302b5213cd1a212db61aec7b72a49b7e92cf83b2c),
(0x30c5360cc62f58463af6027702b522017eda1fbf866dc3d39a590bf8e2eb508b, 0xc8e91af5009b9a2b8837dbe8edeac6156c30e8c01b7679f01aab4a81cac44efe),
(0xc0659a7fdd9151f5ea67f38b7249727e640364f087371007a38b800b00ec3576, 0xa6f648cb6fa131c35458b5a7774403618c57faae1ca33ded648f1601a5cf47e3),
(0x3215224db795a8920446472a8e1ab1cb7d50fe950a6844be43e2787f02679386, 0x2575066297f28d86690c7eb592cffc5ffaba831befc3e38cc5e501f9358a9bf0),
(0x257654e2a87a70483bd15445da5c554ffe776264998975b3b19a68a1a1871145, 0xfcb9319d0c67f14f9d7fc4eefca05b189efe2430966910439c28c88d32636ec5),
(0xa4786a01e504f154f3d7926e6e6908a817c8a66d6db33e800ce98b17082f1b49, 0x576e4d42fc2e4f9fe81a29678b7cfa7a7f86e8e2662afbfd0b028612d323a2fc),
(0x5140f7a9260c98564493ae62a8af369c90b484f7e82e1e383c5a59a662db1e71, 0x4e5172c2b0879dfb63a6aa92cebf915394ddcdc0985261fe2f64714d350bae86),
(0xf559d60c0f0f50b79c7d6d9018a579d7b781fe135210d34231e6cf324ca66dfc, 0x12d9ceae8e5852a5ca95fb56abda8e425f1f05dcca29e08e2052bab08d4eed15),
(0x88907ff50fa2d01bc970e0be53a05354a4fb73df9a3378570cc869a1b0547e7c, 0xf5853b56cc1211b6427145f26fca6aaa5b26401bc00db73dab9157b97fa3d2f5),
(0xcc1e4bf64541506d8e91fba31e1d8ffbc8ac82f24def27ecfe4b3ea6e58c45ca, 0x7617497da875183c684585a60306956d1efcf1db2753fb775902a63f38d27592),
(0x7ee2c437ef7442105b6a6f9ef1edde016c39557c93454dd4eca10daacbca99d5, 0x217547345eeff5d9f30503f69515da573e6d7b70dbdee5b18274968f6f3772d6),
(0x072feea239f9b4a9a3f3af3ef6bf420c3605ba4bb42da90f6539e05e33e2465c, 0x00a036ffdf7adeddc8c2ad9ad029428c85482cd16b0cd20a36d2aed9e9f553cc),
(0x363da33e94a0dd00669b627c4d7a3a6fc8a0cbae2641707c938c8f5e0099914a, 0x9bda9a77ef1307a40e236099c1506f47a2f936dcd478b59c3d0e98c07af58bd9),
(0x76540864c83942909af4a48bbbe05fdf93af0f8d1ec9b6e1a7e91860f2c133fe, 0xf06923d7738ceb022213a236daf3d6f1b3cc98f5a5ed484583ce5c3e54a3ecc2),
(0x573f08217a318a9f8bd945c162e9a4a251e3818934709606c94cb401f2b239c4, 0x7e78e4f27de69e4b948b105fec3ebd14496cc128d7c73fbe7ca1d53ab746bef5),
(0x0853798189234b93b5009656f57e5ed6f90d2184819a5467213a934e22b01f5f, 0xc94a79e8cc990998e1c69bbe89ccefa29281fc0ec99fa820ed26f01f62e475f8),
(0x53388512298903363b1ccd4c1cf0ed856f00a30c7800451257f6132cedeb6041, 0xd56e2a52f856d1b9a4f8feacdbc9a8440dd22f55469bf722fd78b44b6983334e),
(0x41ede48a750ef7b65c49f913afb98961c5cb478c039c4c852f33aaaeb0e4796d, 0xd74c7bf94b6c468018892ea7f04b53c904bdfe9cd1a4c65b8de2409c32559de4),
(0x97e931f36596f736992eece4eed6a9dffe7621393acffeefb6dd3b53e5f08148, 0x3da8993353b9c52a09e76ce77404fba439a24614b62d42c09b660e2a14dd5f1b),
(0x4caf4eea3ca8b104398476335252b37b5c55b664cc4979a54db00937b222579d, 0x0c2667320a93bdc07cf88580771d58a345a191004c0d146462171cd6291607bb),
(0x857c1e905b3483c33ab24ee4e51e3839b52960f821a8706bb7ea7c849e7b1ca4, 0x8d6e9d0c7a578771b358380c4a2e6bc51c6b09fde9b40c01be5915bafe69dd80),
(0x410ef70be0dbf7ada68fc1248dcba3cb10ec39a49686b22c1e7ed2c1bcb5a182, 0xd26e9ea3331a56f5cef074aee0b4a5c0e6925d79808ffdb3b7cb9423247f9e94),
(0x8caf87a8c831eb10817e5ec307aa431a89dff6f9a7e63f7a307104195751029f, 0x3f0bd6e1c8dda6c3c8e65ba07c3a464913aad2073c5da058bfe9087267c8890a),
(0xeedee2cfe92d248354a6a8a39d314fb1b35ca18bffb9b7798c16d5fafef10e8e, 0xcb515ab021f0befe4b31181f3f9ce1dc9fcd12c96793d624c1eb35aae514c4c3),
(0x8cbf7ac71e77b7f77bad6a4e9116db5248bb2a75744d4312f02eecaf2aebcee1, 0x765c4b31f67b26b53d17f97c30d09636b6f6697f0db6b799169a2c05779b7320),
(0x70cd45b4cd449aaf34ff0627f0e01122715dc6cb98642dfcc19fc67254995db2, 0x82e59456761497b184320eac3ada16c6ee184ad910b60c4120f0c5382f535c8e),
(0xcfe217f9783fcfd91e79d558e37bec3f050e5146e0f442ea0702fdfb6c7c45d5, 0x537cbd0e86453fbfc57d70d878c7c3acda22518617bb4dfc7b6f707995c419d5),
(0x9826c0df6486bb8e2bf3d4f74cfafa71ccabd2cb12bf317e0651790f48579d52, 0x3dbf3586f86d6253d3749c052fc36d16ae3bb4578d4eeda734f172ddb9c57342),
(0xea18fcef381b4bc2c6b3fa3e3744e9c4a13e13df576c8e74d0f4f596e28a02c4, 0xc3e6bf9d2bc445d787103c7fe595a30a041c9aa4c41d1874d7ffe69fee09f397),
(0x6de2c465c09d5a5461c618bec9c16ffa21b82e5d673033a0e88cf90cfe6d8f4a, 0x367acbd28950882b428a8199d3b21f5be1c4ccb03280bf5d28b65cf2bc4ee2ba),
(0xd6286e13ee10c7d45ae50f803d1a5417cecc9c689efd284706ffa73f1a183f4e, 0x7ab92bb755204e89c7e3ca411c829e41e965ab9357db88ad37f13e936aa56f56),
(0x7526e6faea67460a25525962fdb6f20973f0c861ef3c364dfce83df723c3bf58, 0x2c76a8e0d5a8611bd3274411cb32375125a21fac12e35ae8f008f48c18e3a674),
(0xfccaaada56d64a3d6d1d5d89719f51f6e737c803893e8b2ab785070f8879308d, 0x8262c5663facf792efd750efa969fab9a2ee95d3fe6e7d7d8685c6a8479362d1),
(0xb60d13b8eb8a5f43cc4483797a397847bd6d91a8b3a6888afef4b11559b57fe3, 0xabf73ebe5d2b858576104acbec885f1f8405b0533755b8ae94ecf83860ebaa54),
(0x332d4b0f4a0dd872ffd6d2c14379f9254250fd66dfaa2d90127e6ce8c377f8be, 0x037f314347c2350bf4333d7d9e0b17eb110dfacdd87ce354b7887cf31bc6232b),
(0xe99b2ee62ce6d63301e0e88037bd138e5d021620b555b94e52def87b4cc5788f, 0xc9ea06fedabcca9f6df1df268bb3e550e2858dc2b91a7c6d2c0484164e5546bc),
(0x89ead4382a977aee7fe692a1d7199bdc5af24191e80573b1dfb056dc49c54353, 0xb572ddcedb2d776c2a967f706b7010ad07fec43bebe5f19c2de0f9afd9994ece),
(0x0cdad98e529b413f0b46f6fa98c740584777baffb090d48859587b4ed598268f, 0xd405a95e0543e639470f10db821f8786ceabc281788b0cac3efee830bfed034e),
(0x5096ef411cc1332be67f69ad3cc3140ac269849d5e0f4f5be41290e486ee2cc3, 0x7f33869fccd4b06bed61f31230a7b3f149ef34a6f2d46bb418c4534373f8268a),
(0xbc0bea70a09667348607253a2c8be9878c4d59ed638ecdbb8b9f60e2a4a5be61, 0xe19111ac3c2b4e0b04a86129e6c4c275054d1ff029ddf320873e20cd16873b78),
(0x2d166569ac8f5a080e0674d38aa7d747b024bb8a5c8407a7dc45140387223ec1, 0x48af1b3862216a5f12a7d92d4eec4e59445c1587e22238f73dd1bd77e19a597a),
(0xb8cbcfaebb8b1150ddce37b326ec77b52947cddfe3cf1d40f27e8b7f8145ba30, 0xd5234cab8b2ad2dc8630ec022868a1e8ffc2c3fbcd5f5a0562b6fddb34823ca4),
(0xfb396092563f12f4ddddb9c0f1ac19d9fb2e3ebe608eea227a9aaec6dc960ee7, 0x65e565dffda1a3943d27f661c2eb01e9646e88bb0694395358c9e62ec9823c45),
(0x1c6e9d760b8dcdfa90625150db2274b2f8da06ee2100022580affa54a414b297, 0x706b450d009ab0b05466edcbbbed8b1085679fb978d74057607bc2efa5666255),
(0x2e043dc146ecff0e6e566b13d985cecb77f55a0d555e0277dc660351b9fca1c3, 0x01c4f1caf75ceaf0a051103b090a7abf665da5002aac4e1428a71e45726d8398),
(0x5ae17b0ca1bf8e90e663ee12d97d78559549f9ee2d89592cb4b0bc9a585f482f, 0xbb0df734931700bc73c6966c1e8e5a77a71806ad88d731c716f236bcb4fc8111),
(0xfa8bf3426a24c3e5d3c11c46e75eda94fca910dfc906a71c1b08f468a7caafc4, 0xca69817cdb07fbd9e35e6c8465b3cf054e2884f9e57c00435dcada4c2f5954e2),
(0x2cdff1c1846dd7f7b9df67aea3f4394d1e1031b5de7083cb0f905afb991a88a4, 0x4bbd724f3827e42b7d0530fede3047116ea0d88f8e564d3b507ff3e2ef76f39e),
(0x6fadbc0055ca49ecafdf82b296504f89c5bb8291ca942df95f5b33229d3b6905, 0xf7671184033a8326a56f94728c411917911a3053f593e868c06f57ef54b7df62),
(0xc514695a2f26aa40dceb15f55d5ea8d26f4a1e0612591fca2f5a00e4b8dd0841, 0x5056ba082e78b06a9093756773fc4ef1652905b116d8fa6e8005283ab113266c),
(0x83dcb8d493474f8554c368dd3e188c11aad758eefdd1f06466c11e16cb7ff933, 0x104e5b3d04e571927c67a029e119e79f0d6ed6fb0e61e288e9f8bd84630a53c7),
(0xbc65cf8acf9a0b2643b690890565f9a95f9ae8822e2b1127a8bcabb1fcc8a93f, 0xfdf9716ba31ddd06a080ac90f6699b7823ff28c1155a79c3ae9c292a14fb2143),
(0x48778fa9520b12a412d74b4765ad37a2695e37d64070d53c1e09cbd24c9f140b, 0xcdc64805bec15940387b4c02bc51b469446dd3c5b2e35b39fbeca21d769c373e),
(0x9db2c42c6a7358868edc88312ed6873f28077bb532d186e841f67ddfa301dc25, 0xe01cb235ec9db45ee1193e0646a325b0aa0ac5d4786d0ac856990262bfb3a0dc),
(0xcbcff58f62bf025a43a1ef44256b27ff037c6c8f2496d2aefb2807349cf8da6b, 0x4fd99ed52da3275303a9251fe1e136bd28f5331bc1101da2818de6e53bb1896d),
(0x9d520b9787e68c45817a12a293b1df96070cbcf391788270933672536f4f3639, 0x615e115d2b539895d91885ca0a325625041fec079d8fb6bb22d9ecefb6bc0f14),
(0xc648ddc40057c2bcbc23d18208cc6d6e4b0bfd3df83b2e7b3ef6a3419225dbbd, 0x0ac9a86338dd19669bb47e99e67a3d9dec16fe61dc17ecaf209a7fbc518ab3d8),
(0xae11f835ea96f767afde3f1e79221deeb80ead297b45e29a7e596461e82137dc, 0x20453becb65a62f28996e1b5f1953acb4c5dfee54e5f9a15c2a2178e4c452596),
(0xa35549ad56f8a64dd23b9293d8ef51280699f6fe365c0fec029280d0a364d46f, 0xc84041cba38c99813015ffce17ffece08f55a29203c64868f11cd6e10bfbbe75),
(0x75877029af5575e108dbfaef37dac89a2aad83080d473a649c347097e35f8077, 0x843b0497d19851bbed2437620177cc69603cd674216cd65b2e5a85cf5fc2b8b6),
(0x44ee3168ca7ffd50c467b1f683e532c1ae00b9e90f2eb1ca917607fb32d4ea99, 0x10a20ea8120b5a13beda9f9a09110eef022564e39b96c1411e73eb7fc92c3270),
(0x9a013c898dafaf0b90678f92f3bb98c9461e459542cb07d6477b6f667a5337d4, 0x11f8485ac96623a4e6c9b773f5cd9fcbfec396f1ff53205e8774ba1fda3c2a73)]

/-- secp256k1_pre_g[3776..3839], /repo/src/precomputed_ecmult.c:3816-3879 -/
def g07_3 : List (Nat × Nat) := [
(0xb45e28a144d5418220819a615f50b3493fa12d172b8b5bea83e73d69b6b47d5c, 0xd987db83ccdacd21dfff1dec43997253fb1c2092095bcae45b76c30692c29f4b),
(0x9e7d6a5349845888a8865d07310192f89a65920501d2a603cdc03d35a641a0c9, 0xca1774edace29fa7f57e5690b4d1c0b2ce5f1fbcb21fb3233c00149854f462d9),
(0x113a1429be1b613c567b306d5805c163e433a9408ef14b01b9afea4354991f47, 0x225ee5fa6d26cbb849191ec1a51e385c0321e8019152a3c7500145677b928697),
(0x32ec8dd102cf85df931e2597f6b005e96d6eb0a6d0dd796477655d71418d9181, 0xfd718dd078b3e4a59bef7f4d9c4307643423bc05e1aa22ab00dd7bbbaff9d8b9),
(0xada43267f2cedae405e1a5f146151f89b145db70ef477865b1218e9172e9246e, 0xd148bee04d1f4d29f9f15c578b04746916e39686c2b2ca541f3e0d4b247cf82c),
(0x818a0abedebd74a691fe662bedba1a5265f5ca072017c6bbbf7b984795bf0cbe, 0xe7b2d06a01872c736988da9bce273b7b0ac0f03b90903bc8da719ce3089c0a53),
(0x2f49eb55ef77da10804c1a1bf596f09eae76026df2d12f14d80be8107d0b3c94, 0x6a225810002f1118eb689aa1e6d4ced11a79036b802caffa5694e3833e038b83),
(0x7fe54d7054cb025f6bef8029bedbd15ebf66d5c7986c678ba5cc53537afaf74a, 0xfdc617ec72ac66326d16afb669188554a47a82fddb75769502296c10b4ad89b0),
(0x84f593662b8284a0c9db8675db9c55d7411ec9badeec131956aa3f758eed2689, 0x836e65d96bef6ed7825119c4c4511c8948042592f41eddfe4de98e830acd0d88),
(0xc90aa8301a84820de06eb6b71ccc9bfca46b16125e2b5f52da0a6fb54185ee1b, 0xea86d7c00b285d829331e05cd99c58a1cc213449d9226efb16135237f90dc8df),
(0xffb4d576abae49be69f047ef636142a98669b2ad9cfdcaddc057d96e192ef100, 0x3740cd14b2d5e01833a700e4c80f6a8d3d95966da523812080a9101bb7ec6c7a),
(0x408a8d8967ad6bcceb7ebb6189afefff12c24b5d2c33ca3c08b78fcacd403de0, 0x3b761fa6378cc42ea28fb66ff1d8171d4acd3557fd6313a2cdcbce47e1caecf3),
(0x580a33f6153109dbfdde27e3f1b0ab046c80c04f183267123e3482e87c53b787, 0xbb8073c3fddc81e0e99ac5ae69702ff6f70a33a35639add801d353c0e428431a),
(0x2d310a947054cccac46b110088349ad14c7860db38c698c2505e789f8344130f, 0x1ea2069c3c6ec90e9c11be0a0913d90e2df1875a2e26aa9a5d28dc813e3db697),
(0x2874282be7b11cad3f22f2e3ab835aed5d82b42424697b32985231f86a7aa450, 0x0286332db2e1b922222e3860e41d90bacf39ce0321f26b74cfa23171f0415c42),
(0xaf9e779ff77bf3a010af5e4182b779816940f85b9530eea48b36e401eb6231cf, 0x9d3d4350dbaf15c9269d958b86d6b88f4deb7083ab1ff389c13f754198e84c67),
(0x445edb8d515ca73526fd275773b2778cbc93ad8c0a661b354471d035688c1ef3, 0x94917a3cfde762f83b7743611f36a13ee94b759a455382f555d64f257090dc49),
(0xe010c20a370d53060f89993cf7ec34d13e76feba2b6612aa0dc75012701811b4, 0xcb45172d280d9be052d57a214cb3cc47798a6426f215e3cee3af64ff106fd8af),
(0xd34277ca4625c7e5b1134080cfb44cd2ef548b3b67bb73f9eed42352ae5af8f9, 0xa35f57797a628f7ebb37bd609e3f44eec391909ace27ab441ece58c8d7e4a4df),
(0xbe0b93993bd54241b684977fea4733e3d96182c3c9fb1c5dd665eecacb1d628d, 0x37904353744ed26a0df762728ec4189813218b0f05fb09dadbf5be840fb7fdb8),
(0x308295f1ed4a21e91ed9f48fd6b42829edd9bd34e812f09dc3b2c319fd8f3980, 0x6835c34d5c360e1a49a14c314ee4cca30797d434897c4181a8ba5d7eaeac0230),
(0x66cfeb5161aa879dfd791604e10f5fa5c2e07a5e66a37b412b88db32dc495b1a, 0xa0e07a9bf8a2fc013e229602b483bc265ffba9c5fb6ebfe3f9ff9c9b3252a1e1),
(0x0f42b8fb849cea704cfb3d9d334a4a11bf7b3aef9b55f648ec885a2d6fe39ba4, 0xb60621e2a36d4aff9f75db65dd381ae1f5b0fb4abc9f19a7036d160a61e8b22f),
(0x429c1785229063232ecfdc462666f8f4c57b7fda608cc8e385a31254bfab034f, 0xe190ba591a868f5740bbfcb0481aa04e50b3969eabc941f18e69816b2962af35),
(0xc8939d7c94789a0cb95e4237fb378ee49895b9856fc67d7dfafdf7b80debf611, 0x143aff6206e94617c36d05e23062d2d447feb77e9b15e2b04370f81f1cad3682),
(0x5e4155bf5630324324e15ae4142ad81e2b82aeb78dc3ccfb1d36f3cc4398ef94, 0x6801f5272325a3b9a9f3807f216d7425b9083364203f3b75ed6f4ff5eb5da55a),
(0x1196b19853f093be7bbfa851a7114e23eb01c5306078965b5e9dbd3f08d1b573, 0x00794cf054bfee20d80dea44d183db44fe79dcedfef0a97e5c557fd2bc628795),
(0xd818d92074bb737b7db8fcd0168030e339803e5f6b76ba1dea836ed2c73a6094, 0x6ac7dbb51f63118a80cd2aacfb5f086eff15d51bfb4ccafe9d96f1790176e504),
(0xc0276b4bf5ccabe9ed9a433eeae5c9897039042db273ed8851db464fb06c6204, 0x489270ae6349ac81d481a582a8581520972593d49b3facc5fd52efca24f4756b),
(0x094b2a1cca23cd30eb9b300b43d0b24a0b8989061c4d8a7a0d3343d7cdd83307, 0x47c5ed56b709bdca5b96080158338b9ee6e7468399a506406075302f9e481df1),
(0xf2aee379df2bf54ee4a1c3850c28fb649f157d2bd345995a66868876ae7d5108, 0xae766bae9c90a1f9c9079d351676eefb19a7bf8fbd56a31113f2dd5635c8ef08),
(0xfc8fe44f3dbdc4b2afa9cd043601c6a9e81e4da0456ce2228306bb85ba9833ad, 0x6a321b78a98f52d764330a52ea5082b92b07655ece8c5094ce3075386d56fe15),
(0xd38cdd7919a4f3cbfbdaa3ebe2ddc10d7444d04b5830eb7c5b8b464e4c255c14, 0x6a0f1ef1823a2fdb94a311fe0cdaebe7e19040951ddaae6f1a5655512c8c15fa),
(0xac02e6f6013d8690d0c71943a26b5e9f916ea119d7773f4c1424753809a4b41f, 0xeadc499e436b4eabbed9c5e768fd2f6772659819437708f399531ba6c05ea2b1),
(0x03948b1ac36bd462ac7b5cd07076f9cedc6d1a751ff65177d7d9b701d06419c8, 0xca91fceba01c03c7ab141ea71cceb61f72d5d18e77964bd2732bb95d191765ba),
(0x4c7dbc8d21d600da6dd4c0c2cffd8842ea9e73d05dbcb55435e319717e706e9a, 0x86a77f44b87b7abd29c2f41297f7e8596db46ebd8cdb442d35dc17f5278230fe),
(0x75228daab3825e2d09f8c2f7a0743b0db7dec731d9df5e0698ee11e48244f623, 0x963c2987e122f107dba37bdfed282ea475e33665260a5aa451021a88780a1676),
(0xaa3a86b32ed2161f8f6ea92c71b7a47ab584a73f102c0147632d2c2b0e80a579, 0xb8fe249d2b4ec64f0dd345d3210244d7f7e517ff7722c2abbc4601adae4e6cb7),
(0x702b912d9828039da58b992f7d6f3af94c03227d3d3c368abcfd3164193f22f7, 0x25892c493a32cd78130a4e14c714cc7eb576ccba396ad36f71de5c42c6bac387),
(0x4ca10c886d44bfa62a221dfc10c57011269f703b8f6f3567829d3b5c9c90ba75, 0x3323eab29282e358d4de6f2772d77db395b04a227f0374b9dac3ecfb4ffde3e7),
(0x1619ea3630da697202caa4362c174efcf3601c352e946d342da5673892b9c325, 0x22ad140e13b8679ea6d88dd6148ded7ba1c1269791c7ede4b98a72f90f0e881e),
(0x21dfdc3818debfb49cd409a8a302f8ac64d589bab65074c6365bd398d34d3032, 0xbbbe7ec20e835204a786ddcdbb6026e6106d193e21725c4579eb17ce784099a9),
(0x60fbe5dd802f1ab2cbae99aa12cce0ef036a472e0bbb1bd1c0ddbd4085069fe1, 0x0ea83b592dd304d682fd07a685408f0b99feb1b2b78b13167f9be524a7349dc3),
(0xc804b465fdcdc5bba848ee97559405d3dd7c24794dc4866ae29676cc1e147f96, 0xaa4a2eb71fd82b70ebebf43a9b828e4ffb10cca2cf9bb5223a7eeef25badc5a2),
(0x77a6e3e551373b55dc51b3383c32f6c05c74cfbb3192fb7bd96d9d3dd50336d9, 0x21d2326e86efac7148e075c10ffcd5735de35d6e3856f2b67d358b6b0c6f047f),
(0x86ddc1874a72eed2666706ff26a4ec65a89d82cf64e3d8c94731d62d0d5f7a5a, 0x51f7cc40ce45a123a9217816ba3e6dcb40507b5e04cde95c443ce5ab4f0cc29c),
(0xcf49d0f8db8eeac46c108675a155e3278c80d5ef84ea28ce4a596f3fc7d3beca, 0x6ffdc741ebae75c3ed82dcd6a6191d687cdd64a5c3146d41235b96df420086fc),
(0x1d75ef8957eb67222d60e8721e126cecc9f5c8515fe183810518cb54b75875f4, 0x82c5dfdd9288561ddbe4ae2f5fa1d429c20766257765b3e37b99dc66b78dbdb4),
(0xbea4b735f62e61229d8d9466695033485bb5b7e3c6ddb6dca292ca89e7ad0689, 0x90e3278a08ea9e10e7d9a4517b7c01f27cda5836f52a011cd8e20ad307a08901),
(0xe85b0adea90e517018d0aaa275d5989e577f5cf0b3acb7281af396a96169f2bb, 0xd42970cd3ca175c63916fec5757b7f5a30ef1269d40833580667f599e650aaa8),
(0xd97592dd24050526e41ed550fcf7cc2c82ca5584c0228f5e3ffe42d8a3928934, 0xeac6c1696bf01c3b759a3852a0236f4e4de0db4526f2d26a2174dc4efe2d102e),
(0x0e023ea450b620e2378e60a9a8c65778fd7725755aeb53ebedd35ee1666e00e7, 0x4e4ed8506dbdcf89b060f0e78915f5066bdd544ce37e1e306a9663536894797e),
(0x615b5c955cd4fd6ea581b9f7e6a857bea7c0ec2dc302dc9cc8304ec20d935e5a, 0xc221c7662602325bbcd845bff5d754d946fc8074f36a78d36e421b14fd5f4d46),
(0xb1dfa43402e12021b9ce34d601391bdbfa2a0d85a004985bc2cc735896ec13a7, 0xfa3d115a8162f8281dbb7e9b06f818b413c2a5cc58993eadd103ef599748438e),
(0xb64b601fafbe47fdac675b835e4ecdc868c7e1ab3259897436ba3c9cbbeada7c, 0xaf78c039d2315746feb60662462dbc9a652ae90d573487d85ea52374e9dbe68d),
(0x5429d346fda1d9c86c5027d4e94d7565b0981f23527153364a0f32646bb579cf, 0x5b8ce197dfecd92e390754dd2d74636e162d665951464f37ac696a32995b1880),
(0x890694f2056d6718b040bb781041749c20e21669f3787f94ff954b162a6f005b, 0xd966934a890dbbfcbb90d7b226afd0f87bf505b731b94df35df1c1412d753341),
(0x3ae75292cd0526b7fa6987a05fe060c8269b5d1e44a2867ccb92c2b6743cc117, 0x10959cc15a74a82d8f7d5416a33256bcf004eee987b82871d22a2dd5f2416a94),
(0x9d745a9bff717d555a353fd5f1b9fa1d347bbade8a4abce93bb5dc7f299b0707, 0xcef338aed513c60c7304f615ae734de610461cffade0f69b0bac28e67ede8134),
(0x699e9c2c8130c939105ce7f4f922c060abf1b896648509f0aaab9519d144f166, 0x882b490e1fb9f94495d1458383809d69bfb7da2997d244a438da39ed7c3a19cd),
(0xe3a01cc1dc520509a91ea704bcbfe298ae79b4a54f4335503884a1a785591f87, 0xf3c641f368d19d57fca87e546ddaf4952480a89137490b9606617fd41edcc64e),
(0x5d150dc3d9df375d46dd236234498514cc7ccee6fd8ff5f1ee5ee38d6ac433d1, 0x2c091250d2e2ea0e7d80263f18401092399a83febfadc061a32316eb52ab0316),
(0x49fb9761bb12ba3f644aea5b5e011f80ec47788058a6eb16c100c5c2e0996a66, 0x7134220fb720891458499caf21654c5cd9086b1b92978370089cfd06d655e23c),
(0x34c55eb3a4512dfbde7990211adcddc0bdea055a1f4f7b13d530c9452a44738e, 0x258cc688beff401f9a910e26d0c979e50fdbb695323321f2ba39a4c54f98fd16)]

/-- secp256k1_pre_g[3840..3903], /repo/src/precomputed_ecmult.c:3880-3943 -/
def g07_4 : List (Nat × Nat) := [
(0x7068fcf07c3efe004ff7b82c2af0c9cb9b1c39f230dc602ab2508d4230a3a98c, 0xe48730d8844578c52e7657bf202b5df52fe506797e2e1d77aaab197ae37ef1fc),
(0x0e1d8910a987aaa112ba1f95ae8e346ef49e5254a2b01909f73b874f6b355a1e, 0x8ad0311bcc4947d8999c2c149fd5c59dd4a56a20a0b90235d7bab9070fe3cdb8),
(0x92509b880ba8631b016c6b2dc60df45c6bdf06d8ed4dbd57c10ac3cb72d2caf2, 0x3ea47a31633b6299a9f95651b95f1411ee6f0f3335ddb8c33978af58746a3ccf),
(0x90fd402ae8d505e996aec994db7d29a56446471e34dc751206a356ac1a66a519, 0x068c0ff7bcdc36e0ada31816ec4f0e679a6dc65846aaaa62e1958ba5bada3b6b),
(0x0b380ecb7d9bca8e1e35b0ddd412b12804cbc77f0c66c5f5eb390d9fa9400704, 0xfd2a209277d9b78309df69a7229d55cd18fa71dbe1f5f8a7d78f450c846a01a4),
(0x40e2e041aecbb6cf6f866140b6149257f3d029efccf2a7520d3ef7b032b83f0c, 0x122710a53c83888f54e26679417f2329e1eda6418e525326704744c6bc2291f0),
(0x8e609fc43f4e30c93893a38e9aeacceb7d254eb9f77b49c8c99c20a8aaa03583, 0x947c4c6e9a8215047f259a86b1d70378837fb57b0e0d696d066a3dc37ac1a3e8),
(0xb871c5b22bfe9fd106898d001af89a8f8d9c932452fce0bb2ecc0835f435f5ce, 0xe302e5a3ecbd0ee99f87226b6f038003507fe8ee00060b64cd656f268f1d3078),
(0x526daa7e039e891abb52417096fff4d5c6f80f57cce87f832ac07cd550841682, 0x69f044994fb7130e758fd3975ad40f68c477bc9ccc5c5f43c5f5a554b3d210df),
(0xc15c244a514e3057ce67cc073fb66fa15c031f518add9ba2edc12f94861ad25a, 0xdb1021acecc3c8978de34780bbc9a8fc16449ddf5cb05b901ba3959872846c50),
(0x37e20b19466a038db3b6387350dd3dc5d3494876cdb7f3443e234173eac1d388, 0x00b80a24546541e2ecabcfa27db57aba5ea5bb79f69ecf252d68ef63fc3b89f0),
(0x6d091f28feae0142b311cd81f57958a56a0da5c907ff5eabc598e4fb564ea528, 0x48bc97f04d7ea6c1381897196c85dd226e9d9f7c5a8ba74c27c29063fdd07906),
(0x3bdbd416a76efb56ed01664fb819dbfed3e545cd3edd48d35ca635e0bb54fd71, 0xa6954d723ed7253fef30162191fbad8f9a63a89382b98d26a6bf36f52ceb0639),
(0xcd4e36a9f111b55f8c05d41a4bc33ef0c4109540d98712374018b2e47e9d61ce, 0x478dfa1652632e6906ef95ec452df807abded9bc264e6ddadf0c6215454e3e57),
(0x0f23cc4a09c59c0e3bf21413170ac67e248457712e77f1c6272a9f112df24efd, 0xe933bc7299b6effd5cf58fc072f7a466dc71cdce74a3d3da9ed5e7dc577fa4b2),
(0xd98c65858c97eb35b6846840cb6db62300d7a349435d498931a695aded3c33e0, 0x443fea24ffe8825deb6c953c70627395ba13781a164f2eb2a85b862de3114990),
(0x2269daa6c055dae1b6d2b9d16c74a9bd65325ddca249085fa946e66b6c744225, 0x159d01f9a61f0456b08f0fe6a42efdcd30e14ff3bb47fdee2352dc9bf5bfb3dd),
(0x335044fd8eea87928de3880a546b01adeb4d75b423ae7ba487740c03167c48d5, 0x69e503f526266bbc63b0f2bb757b3be80cfe1d9ce63d82268187a309ceda1cc1),
(0xee7a263d86f9a83e54cee87b07bcae75a601da9b637aba5046bc5f9a3ff6c512, 0x9fdd3192203268e92388ac1c840e763522271483161f8f6042d8290941373d56),
(0x529b33b336f1631b6c7b6111ef44a888bf95f344766a2d976c5e5d5a53f44245, 0x1285610693da6f4a2fabc1a03280249f6f29f9ee9ccd70004cf0a857ea061099),
(0xf2b3346da6cee9f51a9337182d655a886a2513538ebd243dd3e3cd65abdf1849, 0xd41df628be7703fe9e8665262f6278d355aaefcb324df2e1f483b0f777b77da3),
(0x535e9dbcf03d98c670d03d045d638c7d1db7a12a22f3837b3f559b704582befa, 0x2c233228bad897c5bd4fa98d67f8384a62ea47614f64e4e740bc1f659e358392),
(0xc131688b70da6ac65ee3172ddff34624b019bf78850339708253b4a0b299a7f1, 0xfef187b6e0e748d969a11d82e9f996f80d6e1aff08b84d207dd78519dce5f3cc),
(0x75dc84d3f7ab798510ceddf3da6bf832a984d00c98726a645dc71b21754d3ba9, 0xf5d9edf35e1104912cc5e4d282eeaa5384f62deb1dc2a183af5b232ae3841c50),
(0x591dc7bc9136c38eae72731025c5fd5282c6dad76f98c64878847ed4f32a36c5, 0xfccfa4c4f81cd382e003aabb4cb6c5e88d4875b721d4423395397268d7a421a0),
(0x83a59c892a8392bae7548fadb87acf7ad2c78db64c588f0fb14753ce12712596, 0x7d00ac1a33b120650d67c5988822ff3c46f090e315cf919be3e5030ce7c5873b),
(0xe9b0dfa58c52b2f4a9c1b8c376391eff6608f968ec45bfc76ca93e2cba6f6f83, 0x6449b28d5846de0d27489124feb3f3fb5c1f0839a7809be2e5cb5def2e0a7c8d),
(0x016cd2f967b090c3d151c002d3a3d25cc76adf50d55a6f81b1b9a650b72bc03b, 0xc592601e2fe7709039ccc091bd78458ba23db74f848ee06f50ffe4c68ad63a7b),
(0xf347d3fd1bcde36369e3d9e244d6e5f5d80b8dba7b1866b6f584a38a3aff1cbe, 0x1c435ab90ae38a1398dcfc6d064125e8c7349f811584fa9766dc4d247e87977a),
(0x5b190d87d644854c90c49f1134921545f349edd2b4e9926d534374cfda428b1b, 0x8a4eacc363efd6bb5c93ab2565d2c1579c1d3176b2713ea856bc97befa5401f3),
(0xa7786cb2d7314ce8f21e96650bccacadc49e78f37772c3ab105f67d61c30834f, 0x4fc7acd418982e3f2fb1f911cb70bfc06c4ea71ba05f637146e96bd4a9441953),
(0xd3654f53e9071a188c5faeddc0ef3616abf74d26f073ddcf545a01fb2fbf33cb, 0xa56f20c7213c03945978502fc4a716f377c7a3d926c3cde1880f103b432f4383),
(0xe1138a87400acbda069d8ac3bb6db4cd27d031760ee8899402039a937822399c, 0xf29a8fbfdd3f6d465c640de6b6853e401803cd950f5e012c9ce967d513a162c1),
(0xd29eb63c91c0f4e50b3c49c69c9ca9525714730e76bb87e7374ac99586317708, 0x4ad937024e9180a59d22ab4ac856de6ad9d38c9f1cb3fdd9d73aff61fea5f1a1),
(0xa9d403baa6717fd706577da1d8b8ecb3d2124b30d18df147ca48b48226ee49f8, 0x1eedfe7a8c5ee1ee50937bcad959114456f1e49edb74133ff45176b726d5323b),
(0xff7b58e8dbb6055aeeac6bfd112d89c98d8f376398e41e39ca076bd09ef57528, 0x4e4e39d1ad7a51e70d6cb57c836c06858e39f1f5bd41aee6cf5d250afc381121),
(0x43c50a9df7839f61e1b6db234e2f146e1672ea1d566f56131e7bafd1bd362979, 0xf20fda9881541a8ba83e908f69e052181e215885f60cfbd61ada74ea83f449ae),
(0xf608a9b701c9129875662ae16be6d0435803a9d529d3be539843f227174ac30c, 0x5ef364fae919dd421bad3243413bb565d788d266d7b508f2083c486a327ad5bf),
(0xc913e029dd1ef043f9bc48d00c2676573cc1172205cdad568d013327445a117e, 0x97573f0b9c31cbb37bdcf07c13526a0432a38f1843e26d8bace85a5019a83049),
(0xaae0c49db17e7bc166c0c58a0cca847f61318bb13482f63cce7dc55c82a7d728, 0x41170bf3f68c3dac22051aae658cdc0e810396ff9d5d92516a7e63775c6be0b8),
(0xf2805f1f45a0b62259b9b15e3de4a05de306c8b5ebc5ac96d35aa388ebc846c8, 0xf5d727396ba3724457725cdd0912fa38b36e201c26409dc99789d0876b8d1267),
(0x6969e4e6e150d12e4a230e5937d865a0f7d2323a781270d87b0a7a9000fa4f39, 0xc71c33d6d323ed0c3e77ebe08595dc9fe030a0dbaae16f888dab71875e14de3a),
(0x0aec2bf07a0e257abe4fbdb8e872dfbe2aa0643a411943e3e4cef0398d988f3e, 0xd8e9f557e686c380c84bc528fff0a830bcc3b6a2724d9df6ef21d545c8c931d0),
(0x9c6ff99a13dfc35ca502890b69d91dd5198f561c790bf3226bb243bd4926f710, 0x2aef920c84a4f5ad9d88f5411ff468392f7f4e633422b11e9b683403f7ef849d),
(0xfa43745b37a5e238df0246d67eede652ade75aecb5dd8aefafb8e6e096d7f1c2, 0xdf9d5aa42a3c65403793c8f3fef939ee48aba7f859fe9eaddc44e82da98689b1),
(0x694a32886c4e26c7eb3b84d09e777f960ce3b74e5865874127643ddaa78d46b9, 0xa54d6c6d007645e56e8909be0922cc5aa700d932cb1318b01446a9e18bdfe67a),
(0x654995975be06b28b4c339a2b126210d930fe9207cc72be43d4ad17ac08f38a0, 0xbdee23bb467fdce32d2cd92ce81e3f5bd29fe8b08b35abe1c684443f72f7900c),
(0x3791c8f675bb14e4b7d4f084483aec440ea38eb29b108137400099b00799f0bd, 0x2dc8f74ada5e5eb6f3b96ddbcbee5ee58b2a3f45c31cb16d15a4e918eef7bc76),
(0xd5e41065eaf890e9e90469360acf6a4359795c7a1939d8ed42941a8c6ef31364, 0x191ec4c8a559fd4e7abbb6b8f2e4c32cbd2f30cb0d06ff6d21f156cbf65bbcad),
(0x16ce2280fa0b404d28a29acb62058b99e504e6f2eaaa3ae8b77ad6502c970dec, 0x3d4683f4486addb9e54bc252074e590cb6eaec5e7f96e9b88174b81d56efb09b),
(0xa6b0ab306cdfb1f390e5b447816841b7e08f997ed7d470160bf3b501c6107d07, 0x2a62842fb67e279492ed337fd72abc9b094e96e4a10f658d9cb9a4b6a80abf7a),
(0xd7ca6d38760b320b21cb779cd709f37652b9d08a8ff6ad9021e0062856033583, 0xd6c05f72866d59b96b91b6cbb14016195e2d1cfa9982db046d672fff849e7bb5),
(0x78ab05632d3f707e738cb1347121c73fe162405d61a0bef375f6cb45f5609d33, 0xfe1a390c10c7cb4f297a4b424baa5c50350eba4955fb74f21094ec5fee75a6b0),
(0xc053553a5b9fe803065fc5a960e48fd9218e212828935879bd1072c5180d6f04, 0xe02da774214dab04e11c45cf57be28027d0d28dc51cc08a47528869a3e719192),
(0xbf85d713e2a995c3ef98d40330fc1fb35faf8e9581385b4eb65d5ebd23f02d03, 0xa5d4594758d7b0e1a8542a6f21ddd207dcb68e9688284bbd6b940748b3e59b18),
(0xfb73b6c92be578b80fe2ee0deb0aeec0138169059e55031d69a4d0f101bd280a, 0x72ce78939bf5a55fd4430bd255bde818e15bbc9837e3dcf3e31d22c59614cd16),
(0x56496e5aed338dc9201b04f78f4b6c2cd992813583360dfc1e2f370c1628aa79, 0x81dbf48a824fca7012315d3fa56d5150092ffa54d130072586c8a476be8c2db1),
(0xd698e3959e81f098485edcc62f2a421aaecc0a7958c9f6df7905c931b7a2130c, 0x5903debce61eaa39dac01a8e3e970a3979408bbe1d0ffba45ce78c9c79563d27),
(0x84b32e4086709450b32ade00d3404b347fad8d7b9387d931780764e4c566ff80, 0x4c80d07856cc42962b7941e3195c53509bb5b0e400325c244aa3a581bb1cfdc8),
(0x7129c7992a3689b4c1873a45f1ed33276528e24328f30cf05ac38a6108db2ed6, 0x362b4fe8482125a5d4d1545679009aa844f86619cf3fca68ce38995a660810e4),
(0x93164c87fa48b6ea6b6cac088c991c345f8cad7ef68c5b9878139d28d180d824, 0xa3ac0d5cc91cf0f90cb97771d16396abbd183221c8d36a872785e847b5d9e26b),
(0x4f90e8e237c4937ca384c7b1f929f32994744d5e8b89ad94808ed9b09f305a68, 0xcde776e02b6b484b083f417cfceed07ace725e00343c4e7014748f08992430b8),
(0x4d9603bc9f40716ae6913fae253eccd34442f6a13c058ed6a10f91b675f716a1, 0x92b679fc278ce35597165827aa6fb4509c52a412284aa493c6654ee43924add6),
(0x8b6f651f91c5414312c94f3bc1632e13f90cd71867f906a5aed13c4c4ab17203, 0x88c159a4b80f2556bb4e2b78c126c40d09ded995bac6ac130bf83655210c7066)]

/-- secp256k1_pre_g[3904..3967], /repo/src/precomputed_ecmult.c:3944-4007 -/
def g07_5 : List (Nat × Nat) := [
(0x6f58b852cab98347e86448f078d499161909e1eb60556ee98cdc20bdb25ec256, 0x03a4c05f233d9305e6abd30dda0cebea1681dab2ad805cd32fa7023c98239885),
(0x6be7f6a84021411cacb710da3ffafa328bb6ca9159a910086cb98071100c44bd, 0xbf64a6f9d461dfb4581c8d59b5fc119186f339ff320e968bb58101454836bee9),
(0x0b2fcd0bb8ea9e66f2cfdbe13ecff9aa99661f0f2ac1844ab3983d2cae102d39, 0x0a046989bb3b8fa30eb2cbbad3a7e81027c38cb0ea33ec741444e8ce7182bb86),
(0xa1d6ed0eab559b29edf7770b50cc59133916826b6d99ef1291bf744a79a6fd96, 0xbb91657e0c9255ae173bf93b518480942f17df300ac6b391df2237b4c04ab69b),
(0x28f6570ded7130d735366201e9ab639d440da5e7e1c9701bd08a811e912a9575, 0x39191f60119c59b23e91a7c70fbf4c2ce2216e5e955db62edece6adcf2d2884a),
(0x014c8ceddbb83de4218b089d101d7b6c31cfce22496378530b9c804f90271fa3, 0x048052d2a5d02e71135cba3d24c7894b0de1293d44a2f84d7a8fece4ea9a41fc),
(0xeaff9f05fec737d3d2a28fa1bc8450a7a75f563b9221bca9eda2f8fae12d489b, 0xd6d4419b05c9873d7d3349fa520f463a2ad9f3481a111c3dd3fb70a923b8c139),
(0xe8ee4c6eb42a371285b5245752e7fc3cce0757e096932a43d92bed1514b35e95, 0x0d86bd4c27ef1831f107ff4e6246cb7cee55abfccbc5de2d5f230a2b6a3b748a),
(0x98c6190908213b0606b707591c88a51ad5e9092206778386a0776e6aee41e7e4, 0xeb3d2e2cf98bb90442e90e2d38ce4c530fd72da81a37fefbfc241aeff65d4c8c),
(0xd4f66b81f5d62986c57a0dbbc38bcb5d893198064e28e17d946cf7f3f946dd29, 0xc1930f8deedf1a00cb7c5579d814b5b82a12298e0530bb32867821fb7b7a5fc2),
(0x14d73ce705f8919b55d5436969866f0da13dd4c2ad447c4eb98790601411087f, 0x69b94622b9cb0d3c5d106df2caf4208bb71c48f2629d467d16ee06c693ededf8),
(0x57efc935059c7a0c6ac511058a50a8d55646ab408a7117115bc34c2023da3aec, 0xfca9329a60b855c174bfba0d92ae552927f959f05332cc4b26272c02b5c5dfd1),
(0x91f13a86063da80da90b945855a9f3e4171213f53683873dcb6372fd95b3677f, 0x7405e0d86734f110c329a7ae92055639e0332ece134156d03cab4efb419a90ea),
(0xdcc84d0b46145e25a83dfd64b40dc5c2c3322716d13377675f9d6affa1607592, 0xe46a4cf48e4dfeac08df15260f53246a51b95161a7030adc8bba8ba81d2d6c66),
(0x28ab06acd5a6f4320116011e6bf3c6a0df0bfa1fdf16adb0542501743348676c, 0x51272a1c967f49dae9d1d6b7a4ffcfefcc31f42be0da52d427e56b6397b0cb9a),
(0x07c01b21f8d1dfdfd3f2adb45915c6360d9c2a92320c2d00beff0f4521d8b240, 0xb4a48fcc99906d81fc6f78fdaaa96b3d6e7ffd62d36d1aedf76fa25c542c8b48),
(0xf94eeb7830f8e95f2a36242309c0e8fba0d3279be0cb5f5b428a99acd14d98f1, 0xc96d5b6469676b9ca5dc91be8bb4a93f7157221d9513cd2305cfe3ca43649527),
(0xea4674e47788cda40bde0dd85f5e32d39a6d647730e9045bd406f5f811ec35ca, 0x0769bf790a9b91223070032ba18bd769fb622a61424e9a0fe1a46230a75a235a),
(0xda5a74197f8f868501317260682bfe2819b7b38d376745d17283c2501fb40112, 0xa60b5eec05871e181325ef5f5d6373bcb5a19f412107290ceb663e3b95c37a39),
(0xc1017fa552560fda018c6820ded7b76da75ebcec23b8fb6c22ff72f226e9d41d, 0xe947b19daf2647f9167da3b8dff058979b5dc1da6782929b1b078114349fed39),
(0x0be7c0e14e81447678a15238b5809a751b96465819bf0b164b3e914b29216a7f, 0xa30ebe97f64219a6f0b072b15d648e810880840b8a36204e4f1627a00feb392e),
(0x6758eec1a4d6c0fdcc11840562fff82c59e0fff2cf80414fcb53b13997007cea, 0x4653bc6620fcd852422c8898862631e8a0149bbad0b9cedcb4fe3eaf7cb316b3),
(0x9cbb51d3f88f4d999d80cf059e8735b3011014de69acddae70d850dc405b6116, 0xdfa2e748cad75b52800e0ed517efc4d2047c63819190a3d60e2510bb25902360),
(0x63a5aae7b170792f17350229eaa5ad1865328bd53421cdea3d6e1510d8bf0bc3, 0x1125afd0f25d5f49f7e6250aed3634c212a261d78ce58ea195afb88352da1010),
(0xadf962493e5f0328ebae11fb0243da214e036d241da62430b0fe2c89b2f10657, 0x509834bafcd8ddb32d018b16d17d4b5f219a29de8a03f7f784f34b5709b1ea1e),
(0x0a0d8f5b7fb44a1593583364e04d7225bfdfa549c2b25f32f00765d9e34d472f, 0x061eab66f84c2687949da99f3d97fe3d630b6c22f9f7c48dd539b122ef998ab2),
(0xb98308ea9596a2dbadcdbf8156d8025e7a3ee0d25b27c33ef686690b0ae61fc1, 0xcdb4e3177566a4ceb4cc582a03cfd259445bae6e586786f51250cd0527ddbd37),
(0xe1a64f1d37e3d6cc119eefe3793ba303cf3969c8db4abf637f0232af70b98134, 0x588d7ad8885dd2f5ec4d2084b3f581b5ddbd35678f4ecfc2f955ced41c3231da),
(0xfbd5dfede8543aa6e72253a1bd711911318929ee7af14eca49c2276a65fdaaed, 0x317cef0a432c35163c405d5165b8c310f234891adbd0d6f2f76cfbf0193b78bc),
(0xfac4b7f3b0a3951084f1a8822f7b6f2030b87c4dc0178a2ae3077ce684da6bc2, 0x7029b9209e9522fc160a5c54a628fdd4386ce0d155f19fae390b2995bc867d75),
(0xca8643de834fcf50802c029641b5fc7d3c29fc515c75c53ee64a818543ef7c2b, 0x907a6c27111e296e2436fd4d0ad9d9faf8ecea31cee714c3b26fa964afcf17f9),
(0x718736490d700ea17ea26b19efe4b48ba4a73b22bc54066b1202c96cf3315f1f, 0xf6cd84474bb374b7753fc614de5cf429515127482042215abd82c11d87ded2fd),
(0x67e738ff21c3c73226e57482677c63f0175b768f776cbe6f15ac3c5348c5e3d7, 0x14e5140f2343dd72577a506447cf60930ebd28545d1326bfac79350eeaf2bdb2),
(0x514b3f31f875253f205339f6434ee17f6c5a5c42662ce934280f55f19a198893, 0x4eb33993a2fbec704cd1c538ce7cde4da61c0fc2dca9669fe469807e4ae9a090),
(0x426acfa6eab03e756ab30a41418a0392ca53c216f84b3586f98585018bc2dab3, 0xc3d63eab21cc10c5c0a06682d0573bb6d34944d10749da74acb59aadf1083926),
(0xb946bb4668c057370ffdcbee94597c85b8ad4a72c58205cad420e8f7a2d7a09c, 0xcc700ed412633826567e63a5e65bc603969ea13a49feeb2cdc723bad1e3401b9),
(0xe6a844b3f6c8b45f511d7d3cccd75df41d1e38f8fb28adcd80335b95d98e33ac, 0x07f247893939890c74a3268ee1f717ab6c4aa109cc9257e2c0b176c2ec58cce2),
(0x43e62bbfd9e052e8c1636b415524b98c493e903f02313dcd117d140f96458001, 0xf481853d0a90d528309993000dcff31debee23bb49ecbcec8e147799a63b352d),
(0xc44ef40e3427476d42e23e1c41ddb9bde555a8449125aad9e94f44b88047f817, 0xbedd4313e43ee593f2818e14776f4ae238f664b2db84c9d2498b9ea38e236fac),
(0xa1b35313dcc11895c096f93f5f8e49977f58f2faafd9b7e8d408bde053212385, 0xbd7eb25abf0d50c37309f9cf5093d817135a9ec020262c55bdc8e8a70a3079f5),
(0x48a6f3f9fd6201c9a37f2f0c735bd98e1382229ad1589c91b6748a921b5e964e, 0x1b5451553d41a8a064862c81fa9d59662c73e03953a5dc919712c50c5b4481b4),
(0x8e01f574651db06e8a19181dc8eecf1b75f050cdc5b2354db06285d9a4061e9f, 0x9d156ea09800e7d5b6c6e90a02eecada7d7ba964ba1f0cae256fbfb2275e108b),
(0x4bc0f8db9e6db5763eb68b195a79f8e628e375f31694a58f43da4dcafa05345d, 0xc6a70789a1e6b164bba380e8126a4a696338053b6a32d9d98d0f215c43a5b555),
(0x966fd0cb5f5edeadd6230a6650b7dab8f4c7ee8db00ce55f32d54a23ba97a768, 0x9d644e43bb4f9b65f5819a1dee0a16b801e8929ca9e544e16546cf79811a994b),
(0x6ab519ad49522ea6592dc7c74438e33720d50eb8862467f82962c510857b0d8a, 0xc5ba3a342b7250a262b67ec3554c21eee82653a0378ee0da8a8091510a3ae44d),
(0xf8b0b8e43e5060f539bd0a0cd076e163e55f18a425327856d526d6efaa76c62f, 0x743de052a65853fa58cf29c862839aa17d5c95ba43673ad1fe1ecf6fd4d48ba4),
(0xc4509ef8579d8ff0ab585c0e5223d5fa967e97639d15b0e16587a1253ed18bad, 0x7b91f7e8ee979a585a36d8d3574b8ae781199dc086f11cf97fe58e4f1db08362),
(0x9a00135a6ff450f8e2207c53894c0e4c04cef732cfab43c3aacb00fdab42379f, 0x393ec7483684c5b14760902a28cabb90b481596e8b847d594dfb8ff81fa9975d),
(0x3d775bdf173f8d7cde90c17c25d3dee2a484d3314e525e3eaa4a405b6f488601, 0x7e6b08bc0a560f6a5bf287f559d74e2538a4025b89972046b3de98c7b30e51d4),
(0xcebafd3ea60118b4513380a80d10a29aa95e5002d703d7b8f5d0e9837b03b529, 0x19477ab646f59f61ff603594e33ba0465f6d8b1bf55290c0fd61534a87b74b4e),
(0xae8a3cac1ff3e3e1ef01ac162e49b2377ecbc963f58adde158cb1987cfa731b2, 0x5a4b06752052b749733f6af9e8dc773aee26fd2b114a7ac2baca1e9e51531efe),
(0xd74d38bb8bd471235c118edee477ac4dfd39b635d0fbeb2830843753ade3b38e, 0xf3e505b6f17a28397a98508431ba6de21ec0a0fd3936dc325d66bb377cb54451),
(0xf42876757780785cd14dc1befe075d1d4d4f0b33b0ce9db249595b14f6beb2a8, 0xa3df2231eefc62ddc658bf6da361ad6f950f34d53ff255364eb1e1d860514b38),
(0xe91d576bda19ad6276bcaaa869cb2099e62776883ca1d45450dc940146378e94, 0xb57e2038c8da2cb99ac313db83265d8c020e791837e75db87acca9713840779c),
(0x269944e87d77e1763791b53daf2aaa43e035e1ddf3c7daec7e830cfe38c66ea2, 0xcb01176434bdc7fb0528ca4309b323c9567641457b7eeea739ace76c193707f6),
(0xed41e68a8f0b36811aa61c6857bb1765fb0993172ff6ea5ee94e01fb0644a3d1, 0xf2cc907b880cbe0426ba1e4483d9580071c918e08cc085dc1dd0deb8c508231c),
(0x6947664a96cfcba5e2e36e4f53a33d69538192f13322113ab0b796420dfec0de, 0x6481d1bc5b65b6fba91b76c4d6ade33325610195decf5dc77f95dc2fa38fb6cd),
(0xaa3e187ce22b63df6a80a42bba9265b04379012c70e8ef668ea85c571e27fb03, 0xa638dd6b98109fd196ffcab703010543e8732f48e5cdb29c38fa91ff08d011be),
(0x005de4e1a4bef94db4a9fbab6543fd6ebfd5ea379124e1c5eff9be18f84a944b, 0x21c4a282693be2940b699513f774476158f8aed1a7ec74429679ba9e7957e2d6),
(0x6533dcc72c87b47781c96c793af0af22fdd18feea33a30a09646c2b4287a7ce5, 0x7f03e5f23d82f9bbce9589fc23442174482748cfa3aeccd3f8c37058837ccc51),
(0x139e5f3c129e584abda008ab85343531c5109f23a70b9871a5ebb00a64fdf354, 0x497b7e5741fb8eafa53182ee98352b626bf011e4826ac9de6190a2f7773f0a98),
(0x493fe9ccf7e1e95083cea9918d8f25613ce57b8181915f0c7c779aee8161f7c3, 0xe69763fd62fce1d0454aff6a6a3bb448639ab6158bcc2f4088cbe4c167020cd5),
(0xed675fdbd8dd70b8641ac2fb4903ca77900e3c15766ec8a7446e6b3652a064a9, 0xa61bb37985cef5b46e0669b40b0188ae23ccffb25ce777fd1f26f31368416de9),
(0x173670a89a769e3a797c14e315393d52b6d484443861cb83136b0ca99a260a4d, 0x4dd43921c1ba4d2e95ea1b28e4908410d140b3f77dd82bc6d683da27c7bd4904)]

/-- secp256k1_pre_g[3968..4031], /repo/src/precomputed_ecmult.c:4008-4071 -/
def g07_6 : List (Nat × Nat) := [
(0xd5a5e3a08f87e1546f11e05a0c106e80a1da933d2cca528cdf9e1f09635d1610, 0x7c6c55e0daf3c0928d0a9c6f2c1ffb0daa20df7420a351672552914e5d175352),
(0x54f5e9a004ab321c692f2e2b94d6697da0a9993274ee4ebe4175a338daf6fa2a, 0x58cf13d175fa6e4734aeb7614f828dda58a7d9ca855ff42b5cbd66d889f2de21),
(0xd6682898154de99562e5544a442622b2fd9a632d94445d4c9e8725bc7febe6da, 0x98091e3b9ba3b85750e02c50a7971aa30b2d5045f760c1ebd1371dc63190f206),
(0x253019b92af2c4c48d9f6e1a82decd36610becff18c908cafef49bf6cdc2da08, 0x617d335ad9509d74e5eebdce810872e23ffbdd3bda53aa5a495b86ba397c680a),
(0x056f64ca461bebde560d2bcfac08f292ced7257450e44f16bab67cd5104da6cb, 0x5b2085cfdc278328a992bca8f2ee8142757cb553b903a3eebd83bf3d593aee44),
(0xf39c95711e153a9af0e5c19287e3ee385a31a1e9bef312f64dded2458f553420, 0x4cc94ac11c206b9f7879df908498c132e742ef6248bdfa974b882930e3b0b1cc),
(0x0437eaa8cbdf873c032d3dad95c5aae5b2f3034a5de0c5368c8ddd62c13128b5, 0x27d8ea0eb00310bb594245993d60da592f8d1b2ddf0c1fcc721e3080993c59c6),
(0xade1a5893f5d67984490ae6211c575343f13e7a6014ef71f0a79eb4ba880e9b2, 0xbd49c17c537e6a3bac7404d8c3c1b429e801882b7f2413049022e2623791c715),
(0x936275d5c3091a5ab9f57d977a4e1b6ca87ef978c7ad198fd16e2d933ac1224e, 0x6852690ad8bd84c5eab75d96c6e224d0ed598851b17b857e5aa01207df6b9f32),
(0x029e55fd3e8fd5cde046db205c80b9d3e294971d076b5e8cc33fb5a76b9b786e, 0x0769e57a7eb934b94578312f0720ce442bbf3e2ad61a6f57af6cde498c010a0d),
(0xdf8362a7350185ff198b527545e16f783ae378047647c584168b159b809051ef, 0xafcb3446fbd4a3bde826b60484b16c3b735ece80ee48da263a6cae0b62af6bab),
(0x5f44312309a35fe0f956603796cc619db9a01e8396cf433c25415ece058a427e, 0x385c2812fc0aabc529272b6056aa9c1737d81c7248fafc906fd7d4c2b0901ac0),
(0xc19c421553c6037c525b77a31693fc4c8c5323ff5d3dd63f4b7e344815dd2de5, 0x9f76ea8a879177e1271161896d9e6b20a19d225592c99822159c8ec1a93900a4),
(0x8abf3a1dd1e02332ead62fdb3639424614d19d92a82113f1d62a1423af2d45ac, 0x325a967fdcf5ec3f75e7a984ecc2d9f2defc29416dd507ec7de1b598a7e36dde),
(0xc8bfdf90b93161e6c4d4a58fa71ea84a57c1dd76c0607b9433fa3cddf759ae7a, 0x23dc38a3d172fb63ed47efd3c3e5aa3cfd7990cf01535ce5b51944f3270b20f9),
(0x0976666c35c55997a759e7ab85f90d7aa26ccc405b77b8b443c7e86e02d2c78d, 0x6d342c3e44facf25bf2db2e4e20cceef92c52cfeb4370f8960551614381ed0ff),
(0xe7790ba77737e4e1c7bb8e8a5bd89c3a1fd65b6cfeb2273a1c12a8cdf963252b, 0x02635e201534b58f70e754eadb28998df7138ff2a9e92e1a810259dcffbdba42),
(0x42cb817f6bfcec83f60e3ecd5b986ac3b471cec9975f3efe37577d814576fb0d, 0xed35e128b2f9bd90f2162050a5737909144a85965075fcce2708a4dec45cf49a),
(0xa08868701a239333ffc60397ae11f14531902428a4fd58f002450e0f412f3cbb, 0xc8486f371ad6e03408e51995b4887ebbfc6002c99cc00ad6d8a81f991883af52),
(0xa40cca419f101b8b040fd8e8b364a52ee6a9642c22661aab03486f25732c4bb3, 0x0f421b693ec096f02d1e611df0701cc3b0655b9b95009285babb150a9445a910),
(0x90aef978bbb0472c5a75b70bc9f5755ec532940f141a350fefe604a435beb721, 0xf9f05c70737cf6e4ca88cde92e478ea593f585109479d187a5f87e11e14bbf0d),
(0xffc23a81a0f61f39600292f68db9acb6d73ae433bb827f1a07bc6997ac3407c3, 0xb76a0612bce5e139277c74630d47cce04f313b37a07468036865f284574d4b66),
(0xd3ca7b9440bdf9904262bc16298425a6742c852e0df99ded2ab0ff5020a112a5, 0x9daecbacca7e825c4f44281f9813ce2c5ef191b7341fa2cb1f9780ffde4d637a),
(0x2a53a2bb720ab31c2a6b7589ce0e1ac7469b21acd55eeb41b23b3cca51bb9f06, 0x11aff933ffde96467a4d0f52220d06ec27f7810dba44b256c21a57e3d451f84e),
(0x487e535680c40287a6fd2f77bb8f5cbf22b2fc717fb7487d05a08474ada1ac96, 0x53bd7fd546070d6377b65326d5130445029c9625520c3a731e990d0d5aa849c8),
(0x3e5a5fcf291da0c1fc332cfd62f4b629cf23c0b48209fa2963de5b99667b3e16, 0x86987f2c43389a1f04b028df773bb1308b33d7ef7f55dc97b060ded0fab86825),
(0x4f90afc515a847c22c42493d22dd5704601840fb57086b8ed5f7d7790e3e256f, 0x46e31958ac2e6892335f6b089ac0d3c24ef939942b585e33226ded0faab831be),
(0xbe07392b40be3ea7a6a73807121be982c2ff4b38a4585a1782c585c1e23601fc, 0x3a158457657c9e8e7bd775b81dbe210943172771e66ec38da57a8216f1f258db),
(0x86c274e52140375f222f9e6d47c24e06ecc2f74151b5a603e0563412fa1108ed, 0x4a02fab94065d59032eb90b64c98987d2703f276f92c03a2aa00969240a96ef8),
(0x04fd3a6be7923898127b30561dac13fe287277aa211276262678e04f3573cf97, 0x6498a1a163cfecb6c6cf4b4b43bc7e96f07ebea23b4380d238c0342df11173e4),
(0xcfa435ca5423bdd78aafe78d1fccfd07cd2a5f86ba81918cb68c7695dd117c94, 0xbf4c891c02dff79e35b7785466845389c399b53b4a9f4cefd7d6835710ce1fe8),
(0xaa5acb1b79533cc59b29e92777469afd414119e61f3c90c1cdf93e2c3e1d446c, 0xb0df29b78713c001fb6d3854e183767e8b11bf109c75dbc26bb408f422a498ab),
(0x1b93c2ecc21bf558ddbfa1c441bca52f435c09f54d06d1756353e0a1545c3d15, 0x56c455ff718190e65ace8a5fd5c6d263f72e67b1a20dcc4aeb53fb4a33195ed2),
(0x1744cbf02566d20bf639438b55f72b0dc8480092246410acd85514982fb91760, 0x7e77a7a232b0b5c59d1d5da57a7d2570068dc0f84bda1f6c683f5229df4c66f5),
(0xa0be98a5ed448c028c2f8ffc0607b3161b9cb9a7a2291bedd24a8407ff02582b, 0xe7cc2c6a02393525b4d444620cf6ac8f76b86981ddd369a2274c1971011da6ea),
(0xe0e593f5dab5f7a9562b2591d8d75ea38b2f2b19cdc8fe71148910067b845882, 0x9088c76215e35db5b3bc26141a42ce2cb5464dc649f469c7e785f5c2cad67334),
(0x7824d895a4982eabd6f1b928de7b0d65ffe5796c5e492b408b9fc879c29290f5, 0xae175c688e42852838a2d8bbfc232c60d6bcf11757cdad448a4af01abcc7ee88),
(0x49d2e57ee0b611dc214e4a2cd019ae2d2aa51393e976cb5c4211cf10f9d96e66, 0xffa0c4ca88011f72779b7919829bb9fb11c81e4fa78154d25cfa3cb2bd5b770a),
(0xda605f6b8f701a8586012e8f83898aeaeeb3de32e9c7bee8be2139cfc75ead00, 0x5ba0c12ce98a1c1a89f0ca5ea93f50fa5a24307c6751f633d699e5ce9411d246),
(0xaeeaabebcde94e6d5a1de2bd1d9c380a9307be3c1c32e785652ffd9cbac16ff2, 0x300947558510ecde0500a52bf107093fb62e491ac25964606641abafd50bf840),
(0x62f1892b35f3fe64b1ad1e1f4305f9e866ca0a0be5cb778cb0e1feb1a10c40b7, 0x1a44205ee600bf4a2e287f090c5bedbff1f890522d14a8838e1813a703f5780d),
(0xc2091ec546772d6928ebe9f550a680833a567b33dae25e944ac4d58996979382, 0x599a765bd2e89d31735fa722a1fe1946eb610c692d5a82b23828502dcad4b31e),
(0xbfd7c15b19519235700e1b2379fe7c22e50a24555f83dba597d00fdf1b242367, 0xac6de7de545ec735ea1272130fafd287f4cddac48d6fe6940372bd46bc66b17b),
(0xd4d4e7843cabfdf7903d85073831da819581629f74f3cfd116b5f635132ddc7f, 0x1e49611d582cbacbfce65a2844755cb1d1cd6d4e2b8f082d219742d4061758a6),
(0x1e575009c378b34df3b434a495dd8c314945b4f8df617d02cddc11c88f908fdc, 0x5ce37fa2810c95a12697458cb8f209cc10bf21233ffa85655bd8587f0cf6cdb7),
(0xb5a66a2eac237eb8a1f5e690ffdf65e5c9268c6d37104ee1108f95c3b9408fd0, 0x99005ac0aaa4f6ea60842ba868668c6ff8cc3280307630de3c43ef28cbf72798),
(0x1da39d352599593c66c90b063baeaf8d66bc3a3021e3f6e60cfc3ee67f26fe0d, 0x9272a05eb6b0151b5470d076c01c3000f7e58aa78fc7fe489f285b85c941311f),
(0x7f3b10b6b10000a7652862d721f428fe4e900c5af38445002b374434b5a971b2, 0xb94a2fe07907ee33113bd4c90256fa088c4a4f74df3c3a9e1f5d205ca2ecd385),
(0x426107c661850f9bf6beb61ae200c2dae5dc368a3f5d18cbbaf84cbd7a4eb2e0, 0xe1fa7c78a9e6ed0f8d713488bd3afea40857cece8e8e54f540f8c70c67e511af),
(0x555e2656708fc4c4312093c21489cfa9d6c94099680f53e2fa374a4345be9697, 0x00f5efb71e3bb76a22566e06c674ba11a7822422c6f44cb002f2e2be284db6e7),
(0x7170b17b5736e07c262a927e725b709d033606254642a8b3af8fdb12917dd290, 0xef437ea3f8998813b5ad86e69a77ce0b98b2c6a6b6df5608627ae735030973b1),
(0x1ca8ab3e66fefd1349e329d0072a44f1eb4de646c8930172aaaec3115a5c2180, 0x6fc641c92a87d77681dda2a0f4984ed2c70103a15531b274fd20efa63b0a3c49),
(0x8352546af6d42e82bf150c1e41c1a72b85f057d3487b47977d5e4f8dc05366b8, 0x76be5ab27ca25b12a888d7e721c2b1c9ac92b0e6ea0c484b1383a83586c5fdb1),
(0x2f112f7b1730b9d563f988ea765c48ef353123a14d92e44c3e9884599c904cd7, 0xeb348e97f6487d5a32f70b16d2ad174027d7a8bd41a031bb743a68252e34a44f),
(0x0e84023c164dc6c71d72494ad410a5e42eb6fd0916a70f1d5192508f3ea5648a, 0x634f358529be032889b2f510622816bd225aa031ab145b8a48a6fc801ef4462d),
(0x951c4d1745daf5270b803929114d57f44da4034231c669afd6e401278e28fc6b, 0xf9083b11a8b30fbb2c696f608ae82627b9592ef1c72fc921bb2ae4ad5a27f0a7),
(0xadaa9457f60b9f3ee0a5548c51f945b97884584151ae87fd689b892f8ccb19f4, 0x834657f92145fefb8df9b04755674997f899b95140ce58302e4685881761caa6),
(0x649296b309800a3b516ef3d852d7fba4597f3e351d3033977495fdee619e6ef7, 0x44ce9c9010215167fdc5f078e2edfebc5c8b441dd88cf8535c78533ed61df105),
(0x2c1d7e97908575bf38afe2ba7875f1d69f1e9db6b11f92ce4bc94d3f6006266f, 0x9eb250bc030abd08bbbb4e4bbc09cb038c6c8ec1fd1a6ff50ba237260da2cf7f),
(0xb130ff8bed4ebc3278293b10052fa197b44adaa7d1bbd74f0f6d56f9744647ec, 0x4a0a45e9b785c7f676fd0a95066e42280136f60b0dcc1806212590ffeea5eb33),
(0x4f2a599762ecb2d931ae9c740ccd71cc29bf684ad68f011732a0cd50cb0e6231, 0xdebf8db45cfc7083fa700dde7309edc00fc44216cf7bc237377c0bf57ccf17de),
(0x97f9e9a17fbe6e25e41419a18a5a24da0a178c0ba99e30d1cab0d2de07a23c0b, 0x1ab1226b0cceb4800fb4fdc870fb53866cb622bbe71d3c0a4ddda23257559128),
(0xe17f3fe5e9f5d17e401820673b710940bfd486f10ad3ef4cbb93b47d09d9d8cb, 0xf1126a52615d3a8a6b360b26305124af44ad7d62e03ed96b59c2903bb5272f58),
(0x1a39f8467d638182900c3e94538a0fe33ae66853aac366887a5a8bb67b2fa2de, 0xae7c13995a625a4e42b4dc019d7c750118492f3fbb4567bf28ddef5b82903aa5)]

/-- secp256k1_pre_g[4032..4095], /repo/src/precomputed_ecmult.c:4072-4135 -/
def g07_7 : List (Nat × Nat) := [
(0x8a5ddc6127f6fa4490a93e52f4faffb8baa605815142be68cd18692eb42f5320, 0x5eb62325853dddf1a42559ebbd5dfcc0328e69a5fc78738974c80d1a896b0d8e),
(0x117dbfb574b7d6fcd47dc17d56f5b5dab864906ff08d190f7afe1f9cfe38c299, 0x4acd215130b7144e437bc923302640a8c504712f6b903b26bd5db8dd5d90196b),
(0xb0c31228431c7eb57310706d950a2a60eec84ec7418199f3f2985a398a70a537, 0xa7de9b34792876ffe98c3237260d82370085e47c438fe419a1048b00b064ff78),
(0x7c210cb9f493275ae17e6d5b517606be736cbc865a5897e08d1d1f03f243946f, 0x17b07523a8bd185cea4a92d87af1f1dc920a7fac30faedb1c38e35291759c63a),
(0x172e5167578bed446397b5192b0eca17177b14b2f4570aa1387716106ed6e650, 0x9c15752e4776b805d63de80383c73ad39d3ba817c1f88cee1737cd8533830ba7),
(0x161afc40df25fda1036373173dad8046c95a6ef3aa9c19ca47e9ce2a20030686, 0x5e6fd083c1265f76b4b9c8193a45e0e89926f160b6257759ab90d6f0126089ce),
(0xb991f2a8e18aed334d769cf8b6e391442d194e90ee1518d9459d3ec38a16a85f, 0x1d2ba9a6b89f71c8ea169d3e0923d2c17e6e590e21b28e8b1a0d0cd61bcab7b0),
(0xdae0689f5a6cee77f796f4881fb3647c7d6233487d5ab5026f1ca30d44ca8afc, 0xee67b670f730bae2a15e696433be5b9543ccc1b0314cdfa8c6cc8873c39c329c),
(0x47a58ccd75f89c1546a17ba14629fb5bd72805a416a12e61aeafd8ec8a7e4e41, 0xc15e7fed1bbb810eb4be60bb61fc1f0aa4bc43b973d947679b954f3c29fdd889),
(0xf7ae2fd02e3b6ee330c0697c94ef65b6d7582f695c509698cef09b446b040e3c, 0xade9f8aac527139bc54d8e6dddd41ac95eb4956579934ea36a9dd8add419ca03),
(0x155f9ea89be2ae208d7e9c214c244a58ae61cf245d5f8dc8b6c448d97c12989d, 0x1204f5f3840cd19afda04abe6cbf4490cf5ea60f4cd176808c1ce9d365b009ff),
(0xa83cc9c3933b5f14fa5348a0e0d3ee39e35057b9013c5a5189a616631e9d74f6, 0x40aa66d7fad684761e2a9c78e1fbe47852b91d11a283e1dbe30d4baff072a74a),
(0xca4951cfc07b5c23298a20e0fa44b554d7acefbdbf2a6cce11fc3ea567b5f5df, 0x186a8bd76700cafac79791a6b28c799a35aac54578586050b8012c4f09f4afc2),
(0xcf92dde61bad101f5e71f2a0dbc2438dd6760ba5b84791a9ae0ce7129eb6787c, 0xa7d351b7f3e31e6bcbcc1f05329458e26c9d8a9d1137d59528f53e235c3bcbd8),
(0xb1ab0b3ecfd8283a3b79df9be83e8b37b06154a96e2a687d08f51985129c1179, 0xcdb7f2f34bab534a41f4cd97b812900c99e973953837f05812d5d0d6e9506bbf),
(0xa17433299cd4c9e84fb99295f3febad9197296a298b3035424e9524a0e1789ce, 0x40994ef44cf535776f078088adcfa6d75bee11a44f2f3fc44282f5d7f77e1afe),
(0x0241b4864efcac7c3c7b946a61a5531738b31846607f1e0b0d0a1a2bd9c0573b, 0x5cce8848eec61cd3325f3ba8fbca403c2f980159bad3997c832f5c981fa0d574),
(0x81f8820964997984699559adf799ab0be3efd354d258137ed753e3e4de91b387, 0x8f9fedb85bfd70611b9e5caa5f3cc8da43bda599afa29967a32c71e6aa26d15c),
(0x49d64231bd2c2145200793d64a2ec254c22da96b655706fe8fbf5d49464e5a5b, 0xfaec8edab0d72cad81df8121671c6dd9bf9864403f1a702b548d4333c751e825),
(0x74c14c324fad3a411c7e1f159b7409806daea24d9476e9387e77db6d066e0ae4, 0xaf7952031fbee5cbf031a2cb946e6b653ee0165dabdb89fd5aa73880e0641a41),
(0x88bc209c7342d94cbe3f421581383c6c930f9c19d09d91b2a984b6d712a1e7c3, 0xacb7d74576dd872389a88866e287610db817ebe61581aa2346ac994c4c5b3e08),
(0x486c8c68c81ca88cdf7b93c85a1525f409bee242676aae77c1bd85ce2a6eb3f8, 0xe0fec94b035fa97cd5e648706f5e6849d6249004fb33e34ec1add26f4fe52d54),
(0x4a1efa116c588e237b5e30fb5d0ddf37ba39043d6e5faf14e28ceb9004a681a3, 0xbb1967373c907165a8937dd31bce476f65f2acc141bd8d538fcfbf1a997b64f4),
(0xd7745c06c69609ed0db17f308efe7bb42632e85b7f7f792f8da4429478eb28d2, 0x07575a754d1b2bd55fc46e11b1addb1a5371f007f702a97cad13f08239b96a73),
(0xbd752f2ea3db27c6a6a08ceddf74a87cdc333d50fd9995f49ca7afa42be68def, 0x378f8aaf67478d20ba4725ed26d50c62ef5c576dda9c24d791dec38ba5e9491a),
(0xef58833315a3c7ebc6602bfface00d5c55eb304c7f3301f94be457b01f224d21, 0x56eb3aab6253dfbe3d9a95f7e843751deb52e054cb5a523ff46a0c120b517abd),
(0x2c1de3747355825da09beea4f42df24106b495ce7edf1f1fc1dc60435253727a, 0x985936609082f5d88f9986bdf77672a85ff92cd028d2c58873a3b1d387a150c2),
(0x49f8d71b23e60140f50c90016f39b2e8b78e2a22a88f2535324ff50f280daf99, 0xf66bb6654807e7dc330ec3393f6fde20308111c81fe4254622b93a86b58b04ec),
(0x365c9f85754b61ca2b2a30f9954f3a52d18fdf78db593ceb6df617ab189f37be, 0xc43fefe6aca56bcbffa6aced60a327947681b60122369a3af1405a415132825e),
(0x1cf2cfe9e89668edc1a446c4da311cf27e2cb53e1984a3108e24e8bf21f1b5af, 0x71e56dac43c530947b78f1041a685f23aebc7b12e2caf8036731ef5a20c966b7),
(0xf330347962660226f391c26fa7e87796219694f8e01cbd5225dce636b48ca3ec, 0x7dea0bf4c110e945dbb59ab874f83a42afa585c856a930026f48f8fa62762827),
(0xb689244c4bc16c88398664f902297ea08756a9691ae7adf0587c3253e4b27154, 0x9b4887481357368cc97f89a90b4a75a0bd7483ae5c700364c27d19a8e450c856),
(0xbf34fcd2d6b4371cfef2f8745e4be021a78b4302240d4517f3eb1140638cbe41, 0xce6888d27e326eae8e772914e1b43bc01ef6a23827f675465464e1955f97ac02),
(0xc2097a6d231bc796ce85a59444c00250d51ffe63c45b9cd110ed4821118d74fe, 0x58b06413fc4ac173e1e3a85aca674885d1f92b3e5b99f72b1350b6a0bfe4ac87),
(0x874a62223d8804f30a11b1de3c647aeae3e8179840db26184d46a330417afa81, 0x4132a5f67986e622976b181d5c98f356b31668e00ef70f8f6b13a0edaf80b429),
(0xac7c6e8a1a05d5928142227ab0c3ed461f28463cccaa3b85b9784e0af5bc605c, 0x1a59a195581e3397eba60a0a963f5c71c107a9db68794da4a08b14b3118a2186),
(0x3f13e2d8d825a3f608875c01a1715a5f44bc12b82f254a65575b163a3333342c, 0xbaff6882fb2c2611ffef76a68b5e22936a2e6ecfd7ba67243393fa1c5825e3b7),
(0x1ebeb354515e7f39dc3e263151d0630daa7e400f4c9f7cec4d5f95ecbfa8fe2d, 0xa2e35cef00c2cdcf384a2473c185f3a4c70724b984c72daca6ca11f7ae5c85cf),
(0xc2dcdb65b211e765e6c59218d12b45d8b47d8f9ce22b99a0d2d19a1dde02b2ab, 0xe0aa5b9ca960117a7289326e9259f8868722e032c96b5237b146f50e24f3be50),
(0x495d69f7e2a9d1448e2ed8a9c038f6c607f360b8270c9b85841e879164bc0d45, 0x5fb3fe2a1dabce7b83b4465d74fac6f7c48584be134283e70bdf59e0957088d2),
(0xceac45692139e4f9701be43d8da3f515270a9477bad5969d2037ac873453bab2, 0xbd1fd9d815f4e872b602f2bd9604b6b2f385ea40d5520b3bca32c16044908070),
(0x7ed1d0b93196b8c01cd284cbc0a206af4e6dba1a0d6cd40682f5589709407e0d, 0xe95a3ac96ba60be622f4ee732d75a9c511018ec0d840ce0af1bca18a1d2801c5),
(0x072fb3664f42cec8940fd4365ba7cc97ac5fe4b2131250fba24b7178a1040b04, 0x0c182b1a93a211f5f5de5c9b4b52ce9063d551dca21ee9bcdbba2653c47dce41),
(0xdd06cd8c9ca91e45d6720043d3e6d8574690192d5915430902160f046008beea, 0xcdc173276eebea3bf9fa8a7ee83ebd814189705b900b3ce272b85dc6c41e7ecd),
(0x080f6129e90a7f0f1e6504398bfedb103c708c4302e2c743da8a9a993978cd13, 0x74d97812145feff4a3ef594f85b644a6d95a30823828c00fe7226d4f39deb82a),
(0x56af34daf56b508aeee970afbafb9dd20b48f83c4c051b24f5bc27e7105995b6, 0xd41dfe529e788e1989105a4cc219dcd3decca65adcc5f34d8a3ab0ded1ae68bf),
(0x820225ba795565b40c45e29c4689d91c148cf693a1a1c1f6ca33c44e4e3f91ee, 0x3622ae5bc89b9c2e066bf5a31782692811a0f4f14b387334b24028beba4b7db4),
(0x7925fdbfcfcc202a895a1b7ca8c7f09fad388db15652b7033bf232bea2ea57d2, 0x46f7ef01c9cb7dc91559cf5ec6d3f5f21ebcc21ca8414d0a9dc373094e90525c),
(0x4b224b6af38ae73105b316eb8dbd2b1e6638794a9bff79f61027f60d05d81808, 0x3143ea08b1633002bbb2ad2e11ffe5b4b6dc68881fc669d423ff9cb1595c3dac),
(0x2c0767fa4135f4eb602a1a36e6ce488e2c1bdd64aa4113cd28daf20c687380ee, 0xddc3effce78d30617cc2da7101373de006a65d2b1050b89a5f71be3b0fbc16a7),
(0x83837d3ee7179a84ef6ed2d941a9f83537b5a2c25d511ef1982d9bba50a7ae7c, 0x62201e1660957b4ca86f1a495a6027b5fe2294f27946c8d8556024b6e3b66dbe),
(0xcf075b34e560f05753a8e011835bf1da25e50d9e1d70dd9bda4271095895387a, 0xc73209d0330ff4d238e19f6f33df38d72b11d8dd180d6a1404b07184a2127018),
(0xd583f8ff9b1875d1ef46803000e3ebb79d06ba2c1008329dcb01b8837c8931a4, 0xf8cfcf1c03f092ba6bfcfcc69596b508aaac7c9c333ba58cd55be53c6fae3292),
(0x551fe9b621d2389bfc185372342edb1b27568bb2da1fe2203431b79243eaefaa, 0x6c76904ae48563ccc6aff5057f31119fff48e5fe971223d8c3badd02563c24e0),
(0x1bb778fc74062f24b0962be7bce7c99051f06394bc8e6da9a9d63f6ed16a80b2, 0x2754f53d2f4ed1673d2700b68ff036fa60e9352f1dd7bbdb14be174061d88318),
(0x0a150af71261582f8949f1a93ff8d539aa0744c4e97cfbe6e4a3fe10e7e364aa, 0xe22a1afea68671c2f9e1247156e1bf47100737ed5f96fab99e0df721eaea4773),
(0xc94ec3df727fdf91d7963a0308e93d68835ed2bc2578780b7242e15ae72e2a9e, 0xa476a0e97bda53c546312b35f0fad09e011b2810b3f570d50a934d217152009c),
(0x3366b9dbebe132317c5427394235a72af186bda1784c7f255f8b65f7f146875a, 0x05ea247895f52889423213835439195e6b62061920171862eea327261345d3cf),
(0x616c8e6ce52265eccb85ef365092b2bb58bec6be444c2373974c38e5e0e8ba25, 0x4d3d55433d6e258cd8b286f45f41249a724a98902f1ef3caba049bf1cdaa0970),
(0x74df21772e38e84e8b81d86ef45dc4a72617b3a632094b1d0432291f6a651827, 0x04c32baf30f09527fc4abc6f9c9b9a572a9ccf1c6a1b360c48746d8c22e01334),
(0x1814a1bf76b74532979966d15ef42faa532f8dd9bee0cce5d68fc50021accbd1, 0x5f5df5ff0da9d439b2205ad25fa93b9b7af1746e09b2eef3154bfbadacd46bdc),
(0x28911e9498ff7526badf22878e85fbdb5f444d66c422a975c7476c02b98625cc, 0x5a341cf35cf260069d869542fb221ba6eac150bbe3809ada5e4c903c1e638537),
(0xd5acff71e82a455c3a1ce292689e8686f441ce1be644e79abd6d0efe29270865, 0xaac6d48f1b46e970a044971aad13f033ca8cde96958d870e00dc7d801d26d5e8),
(0x5cf51c1b02210d859d765e17321095148f03fc5751004b6a91f098e2e2711596, 0x1eeb19e0610df4592c31e58eaa2a2148017fe9eea3995838f395bdcf26d5c3b3)]

/-- secp256k1_pre_g[3584..4095] in pieces of 64 entries -/
def g07 : List (List (Nat × Nat)) := [g07_0, g07_1, g07_2, g07_3, g07_4, g07_5, g07_6, g07_7]

end Secp.Model.PreG
