/-!
Generated from /repo/src/precomputed_ecmult.c:1062-1573: entries 1024 to 1535 of
`secp256k1_pre_g`, as pairs (x, y).
-/

namespace Secp.Model.PreG

/-- secp256k1_pre_g[1024..1087], /repo/src/precomputed_ecmult.c:1062-1125 -/
def g02_0 : List (Nat × Nat) := [
(0x9145f3f5876a32655d7fee64f2d6e660c34354e91571d68ba19e4cc58c39f890, 0x45e0a95dcf369fd05bc9ba7fda108d6f37650c1d5766b6c998ecda28b285d8ff),
(0x5450b75236fb010d1ef37afa2077f3dca5a7f6c891a2131713df740f4511ac9e, 0xa7c7ed5762bef86d4de1084d3ded2d7b13ff563a67109ef08b6f0180fe6ba175),
(0xba6c0d725e48de2ccb8256d67417d075bbf2766fd13501b84c32cf88c0666a0f, 0xcd2a91327137299f50eda6693a599032bdecd64b91bcc6405ed186f3e525e442),
(0xb94821ff1feeebb46fd1006b798fbdf5d25a649daad58b0553adb7b39605c921, 0x21589ba079bb92a2c7c3d950c574afcdf45ccfaeeec4365a72dc58abf9077c05),
(0x46436446497f7c76b70e0d7a5a963cc8432f14de93d61f8198f8879f0da0681d, 0x29344a4e90c4d81010da8aab5ea25e5f48c367e5b3ec92398a3e608d49c83a5f),
(0xbd8e5ac6a2e210be4959185b7bcb0cf1bd3be9175baa0d0802bb0b38e4c1ae1d, 0x6b381be46dcc9755da7773a5eec888a669c6f71a7c3ec0a94edf08aa2db1fa19),
(0xc27c1e1ac428a7a50f4c340558ace76d7fb64593b394231974cd18ff99f22493, 0xfc95d661c12f7b3a1cb1884cfa9f599425108af3c05e04a49544f919c59cf57c),
(0xa1765561837e4ca55268168eed90466c44c17c014040fc029e53af2277eb30d5, 0x8a2dede2b8d488bfcd655d0b30e6e2f73032c775d0fa15aecfc8b66cb6c28eb5),
(0x2bf6930d35cacc9187e9279f678ba368e9eea7378300ef93b03e98c181ddbea9, 0x8a2d4d433aaa8bb03ffee53838ca8e16d0f3f930c35d0db46e2fa069e625209d),
(0x766a77259cc5aefd90f005f4d6755924a36d085a03a5856a6a066a706877c8d7, 0xdb3fac974fd9e2e7f05bfad15e938ef090b46d04bf40bdc4171c1e3348049190),
(0xd25a60cd953f21d45fcc333c097329da134196e39a91324288792ff918461268, 0x89bf2be8bd04835fdbb874e712352980a07ad5989035270f397f24ce790c7863),
(0xc7b28e9e8b7125b26721f467b665eafd9bf569868ca180b360dfe429cad95d68, 0x0ac28d58b3a7b61a71f947ed8bca47689ec7bf347646a167b37c3aa79e95c398),
(0xe2a5208ac61f8c29ada2d7a74cfce98520c291600f1f7a97ce8b34dd7c59bc24, 0x0de8ba1449708a04ccb4483b4e90e383a152ce27777fce4a880d9f5b3dc70830),
(0xe1e8e4cd02e8df95d3b2b152a540967d6976e00188287ca53e844adf12e205b1, 0xa5dbc6f9cdc7547bcb3f00918233723e0d34aa97f546a491a77d8cef43bfc9e2),
(0xb20f0a514a684e552b2284803f3b1c2a3c3143b3b895f75bea454bf09d2b6512, 0xbc3db380676d0d1409c0b0c31941a07cf7c95585cd44ec31e0edda96e80d02c9),
(0xb71a6923b1adbf7794cd9d8d407ac96f9582cbc9b97489499cfa696a0c29d3ec, 0x751823899d59558fb93113c8d38c72d27b6d75ee7679fb1c89bfce1a64b4f151),
(0xca47adac68ba38d18ccef76c07565788a82f415f0d9dda652004d5c6a7d3bb3f, 0x0bd598ab1b78338244035385e165fd5accd8454c3969d37842fad0504a8701df),
(0x5fade148aceee9ee9fb4eeecedd5e4c94fb989c4d99f65eea45f99d02d40e441, 0xba6fca3ae82e5581ac5104cac8dd2c0015afd1cb3943f1cb5e61dd4cd73831f0),
(0x767dc9d214fccf000900ba01a1cf30fae834c851e633849e8adada63fe5f84e9, 0x8c650911aca30e562d6b97a52fd7cbfd01a5bcd19ae197d69ee3215e64404639),
(0x27f8f961445e2a205daa7648fc3c06d9523544d7477e686b91d7178b7e4f06d9, 0x39110b2782cd7be975596bce6b79e5de3793324221be81720427cdfd82a73a60),
(0x8de0485b343b5e4bada4070bf79dde488a1b2889839735bc6a4031653f3de668, 0x903057676f43e0f7d7d1c1a44c59124a12fbba728302e1431c2cfae20ed5729d),
(0x5e43db6c8770e8ae8ab8d3188e700c285b6af8a1eec95fe1b68e5cc5952df0ff, 0x6882628dd85fbcfe3a2a109115e59c789aeebb3d37075f90ae02a439506c7aa6),
(0x7db2baab4bf4300de7caf4e352df14236102863cedfeb7a089311f4259a4ed54, 0x387561a2fbbb44be303fbbcd685909cde553a84ca3d4c0cbd33026fe178e8a84),
(0x96da852539106887d1fdf9e8232db3e4cdbefdccabb90bbefc04d10db996c6f1, 0x65271a31491273419fb5d6513dc3328745948c92b7fcc5094023d3009bf9edcc),
(0x84eff1cb14eb1284f5ba51fa838b485e64cd4c0facb97b0081ba7848add50613, 0x0926c9c8a6540a8d7b1e602b6ce818c7609f451132f284fc7f578c52a6febd9e),
(0x1eb963718e2a2a0ff5ee60007bf94a00416e6a9225d597057fe19941e2adfbbe, 0x4870aad89635ddfadc3d4011500639aad3cf0523cff0dbb009c9f6a13005b855),
(0x2994a36a6ea3f3071bda8696baf193dfc75fd4a1f7683fd8d454dcb877bdc098, 0xe465e8eea7273d4cd786bd0be96fd3e89969bf031b76aeb3fc82c4c4bf856766),
(0x25e7fb70f3d357a2c29b115b5e2d97d9d2b68fcbb7f2fc00237758d59d26c414, 0x4959a370a3bb895ebf530fa013a86ab8206b7330efaca631fed26773f356c4f2),
(0xfc387f9880bf6bbe19f0481a2d66bc5bc3945c52588860ea0dfd5893347c0623, 0x89d7b80e83caf0329c9d07af734604aa7ba332740c1081ff16e663ebb49d67c4),
(0xc50af368c25fc9fe10220fa82f177720ef5c00b40085fa99e2f03294fe01e1d4, 0xc3777b26419830940912b80d9e94af7b27d9f10f978c931ba4294cb6b97579fb),
(0xa0f9d109d524d9baa2e00362941a5f20d7015c48554f5bea7c97617e10041f94, 0x28c51c02daa5e10803e77ff2c64560e12eae923a03a699f1daf3c62a710e9ad0),
(0x41d126270058b70858727138908004b32138bc23cbcdfa285da862a348316de1, 0x06277029153bcec95c95f4513d515d90341d90a490eb2999d29df4f07c1b9673),
(0x944c58cefe6cf543d93afb77e33adb3a5774448cd61d621cfb80f8566e99ca87, 0xc071ec1c9b7fc717ca91c55766bcb2223294958ab7d7b056e7473170284d66b5),
(0x3307ab12e06d71ce9c029bf188eebb589a27be5917290635f2babebfbe437145, 0x889c3cb928cf90914748dd9bf89e98094a6966d097d854c3c6b6a949c861d213),
(0x42baf0111eb2224e4ca03abd024307b672b745722db6a8acdee1b7f345cb9ae6, 0xbf32e128d608dea24b564bec38d22c5e879515d27379cb1125695faa2e12ee06),
(0x856baabbbe7b4bd049fbe898110d1175166c69c0a2bc86bfe734c854c402c621, 0x24a323c9b6d31fd3cd424161be229e891f8251979ed4721b943d74184912ac0c),
(0x38dbc18ed998143d874c224ede83834d95aeeadc805cac1c3216d830d24a9cd4, 0x273ec126f7e85778ea38e2eaa90ab5c5271c6eee7f934a03570891e5167eae4a),
(0x359dc85bffcd23293166bb20c8374af15e24c065a5f48d92c981eb814988dc59, 0xde5dedf7deef588b90237d06e437bdfec4a05703f77b584ae58162fabfbf39c6),
(0xe1068065e2e91c883de2f73a6a5f3da71d872a749d7f283bb1ca35b7c63666ea, 0x810c3a52b5df085187928afaa7685035a7e155fac8dd4523c5ed1f0173752cd9),
(0x50767f7137e7c9a66e3171830cddfdfcb564956dcbd5f3c70fd8506ddbb19d83, 0xe1c2dd5f5e9d5fed807d24dd3f2e0ae2393b6167563db9fa5e338664a0d4fff8),
(0x44cecbf0cdf88355f1216d0defcea1375e01275ff53d8a725a0b5980e6e65864, 0x0469568e5094e9b9ee290550e67bc636e8e3f022f15c8d2e025c3ad6f51cd40e),
(0x1830c8ea43cbb07efa2fe5976afca2bb87ed8a92602e05e886ce344796aa18b3, 0xdf551328e064aee767f562037fa31c113c8ce2fab5445d658bf1dd842f1da49d),
(0x58d54b7a473a7ab251c33417a41f4ee4708245eac4f8eb799bf90aa4bd9326c6, 0xa191f33815e2e07cca4c331bfb1cb2caa1692093faf5e7891ce45a2ec49b2a85),
(0xf0dce6049507812e603af10442fc986170a18b6e44e81af7ba192b5512c6792c, 0xc221a221b5e86ed623e48df55cf0f5604cc60eb4c54d95ce3ada7b09bbb966e4),
(0x42fb09e572c0302b286aaa04644b26aee4b958cfae5293d40d7ba50559dd2ab5, 0x79c10573a00e6888fbc7ec76983e7d17f46e1ba82749409943781bd519f2299f),
(0x7adf1551ddae0c9a8628db25e0dad10c935465bc88b005deea2d0412f3502ecb, 0x657c0ba2143cea920c9ef5c369d110a12e031e679d945a9bb3c5886f29acfd20),
(0xdd5a48b956fdf6a6d6271310afc2f5bd3a7bfdc9281253454dffd91c282c7a5a, 0x7390d0372e067f36fab52107295904642ac6b0cd91a161e385df7cc17ca52657),
(0x631850b515374594be1c783b104d2ce013ac763b1d36301d2936c2d88a1466fe, 0x2490ce1ea9b67e44a9241416c5729ace2016d202b77efa8578bf3228c590882e),
(0x332e39e4d6732229aed85cd583a3ccc424466869bdc6a8e0741b0e06f3a0bca5, 0x90840f0360db52ae0a58b1b4074ad65cb66ac30df4d465aa60244d485d7578e7),
(0xde019556f0c7e1c16567224e826532f1d72c0eb291e70980de7513a4362f0c97, 0x39a3d79d1cc988404162227a66382529d75fa5bd64977e479af0aed868411ea3),
(0x4c44c0c8e675da800c6ffbf261b82e464f81b76ca3f902a68094a2cb24ed859f, 0x59e1ee881ecc45ded8ff2800243ab8acc54978971a3a224663b2b5930e45ac34),
(0xe60339b80481e19e5c1f4d1a85ddcec6a4e0dcbe113e7d282793654f309286a2, 0x9a1eeacca607941fb51c7998ed2a5a98bc58e3f94737f72d1b08a706a49d9d59),
(0x10f42ee30e7292f39f4bc472708ffec50c6ad955c5285be0d44d02c3d8a25e66, 0x06f365f053ebe28fdb9d5f2bc967cf14183e130df01a5106034a975cec916a25),
(0x7e0931cad12866877d2fb0f31c58d74b703af3ae593a9548b6d53d866729c445, 0x05e4b9fc75eab41d663caf7e8056f4c8a9c34af922773ffbf5a121741f6b0b0b),
(0x36313f7ef9613c6cff14cd1a78362f7db7f1acc0db278f1c6a01143557963f22, 0x1e6946ab02a942314ac6627f5494205c33960a91ba663a698641bab443d7edc2),
(0x223eeed88eedc265b2e18a63ceaa2e9e83f9ba592fc8f3bb55cec5742869fe01, 0x721221734ae29bfcf3632cc892d72d105593f7b8d687e5ffeff21095c1bbd71c),
(0xb6bd5ec933302c5e03fb9b3218795a1160dbb2bcf9a9b5fc31b7a5a628b3ec20, 0xfb9f87f298a8e5feb15f051d63b48bac34f373f39b42a42cd0f1d2d9c99dd495),
(0xa365a7603b1c24fb157f69ce08fd57ae5a802dbf3b8f92c98f0a8b014ce24668, 0x73e6422b7746abda02a38cc7298180e6578005b41b0d37606f2bec3f5c0a89f9),
(0xe86f8fac43e436f6f4adba309d446a07e24bac1ed379e13aa235ca1ed7cebe6e, 0x1e7bb4efaa75a9bd713a592c42a01134930b740277cc1cd4a913d6dbf4a166af),
(0xf5a57dfad2b25571dad09304cfde1da205cab3e2e85895cc9933e868eb9bd5ac, 0xd265de5e8fc90e41d518dad268997a248eb90906becba9b0c768c5e9877c1ff6),
(0xe1dcd17a072593747e6fd8cab2464a9d6656607ca2bf10f145c4594775f76c7b, 0xefa2c310023f86d26489feb61232bd44dff819ce6b95678a130de6404af9a20e),
(0x83f8abdd084996ad1be74b80a05da9abcb3774fdcca40c3bafd386cdcfa801ff, 0x267ebd64329fb10e56ee792d966868d81c85ff376aa242873d37c63a4bc3f63d),
(0x54cc9d796ca85a9027487c716511485bca324b1af34fe454ea9ba54b4f259fae, 0x18c39071ef0b861d7d016e9edeb6e83a3c6ce8c1517ce0f2e201da0bfab2da2a),
(0x9d12a52ae0091654e2875ac1b11f87441c3f65ac940e6a516351c21931402ba4, 0x5ffbb334276219af418d17f39f5fad63c6d7e42dd53f6e52bbee2f0138e81d2e)]

/-- secp256k1_pre_g[1088..1151], /repo/src/precomputed_ecmult.c:1126-1189 -/
def g02_1 : List (Nat × Nat) := [
(0x659bfdb766821a91cd030917ff21aea4488007f0b7ef38244f23b665e6496998, 0x2ad708bc4506e85a341ef96b78bc247fd7321a8ebc21f9db8444e7ca254784e0),
(0xe2cc4e33d4a083744866a25381549a6a76ba1b4f57312413d601296e5eb4670b, 0x528b2b25347e7f347b79780ea64c371880497f0ba3b28e1879714089a4672476),
(0x529c0b9c9e21c36c9b2164c0fa505601e8dbbac4cfcac131e248e103e6edec68, 0x7fa4482172a0ca0133669e6abd2e03866cb74f5f09cbb7e496770129567125f4),
(0x289d6bafbe6a7d1c154d6532a80fb65b3d89e57beb2f1dda654d3553683b63a1, 0x801f4863d3ce8d6160e2c62c55267877db149ff0c3cdbb53388931687d005400),
(0xd16a84c9e3b366607c005bb3425ab4322eab9b5858d1899e51f2ecf0790f14a1, 0x2c6f5dab10715328f9ffc5ea4ad6e0f146ec79cf19cb231379bb51985156dd07),
(0xd03cac394fdabfbf440a6893e410dab2a7062df3ecbe1affd30703b16b6348f1, 0x152313cef530b31770d85c087de95b1b5dc4a86d38e4040ae5d1ba34449d19f9),
(0xb66b3c6ca673c4a977ca7d851f969858d4c4b604bc497101c89207b5a863379b, 0x54ba2563771c6aac482c63cb7156961c4b00faff187f05609a470b0631624da4),
(0xbe68464411c47cd7dfd3127f4e7d73082a43fb68079c5e86236e4516a98c8c45, 0x79290f83c61d368c2e395aaeb9cc50e97d78ddc2fdee9f19a15fae85826733da),
(0x478ac3a09f34f4634d61de709ee0187804ca421f91d20e0c5c62bfb7afcbde9b, 0xf752f3b2ccbc10961ae7526f5574b5f6e4bc7d4bf77edc34f6e376557b0988bf),
(0x745f355af2ed71a99d4d7de9c9bd4a137271a2a0c077c796e70641798f3dcfc8, 0x18ea61f46b0c87f09ed05816c31e1992d4fe8826630c5f6e6724206386e288b9),
(0x54e7bd6f9878a8b0909aede59286427ca3157a8e38ab94b218db520e86760ce0, 0xd7b7d80dc1eab448d1f3c638675dc0b4e04bdba5340d3f2ddc1d24f30dfb8e49),
(0xff56afb655eb431ef3c6f5c7fcc6febf99b018ae3dc9520827e4a01fa07d510e, 0x9bfabdb842d7b1c79f4388b4049a28d6ec7232100ea27509655e9b442591e371),
(0xc2bcc099ed298fc8679d02506d8ea790ea511b415ff3ebe382d39d21fe9cda72, 0x6c7bf2c435ecf7735b6c31a582fd38c4825de4f058efb070aa1ecb58530f971f),
(0x2383f1449811331e6c54b9a119c681fec8549e36890b80f599a8018708e2ec4e, 0x13ab411fd846b6b5938a999a704470f0d8fff03e9dd35cb144860a0e3533a1f9),
(0x2f2271c0d4fa1d8bf8a44584ba4f526609953f7289de16b817d6bf0c6e096048, 0x646ef05db40e50e8b6f32c2263ef553fa957173da6f14ab57cd60b602fb42fc4),
(0xb7b49b1b0f067a27eedbe55cbb011eeb809e7ada0ada5d089bf1f26a25e951c7, 0xfec760aca8160525ad6ec95c07cb03294a9b7f20459073315b2dee2c7f7c33ed),
(0x36c8e1cad9933e5c971866eb12daf81e7765d4cb9f0af55794181aa5e5409223, 0x895eb6d0a0252282d71cc7309116ea9522f2e35f52498853e291932adc8b8fdf),
(0x3cbe91276328359213173e018cc2b0e0fa5b8a115684cd6a6ee7bde3bc1ed523, 0x7b2d3dc922f96c9b9970aa9dc75f1e15c5149ab3d0993055e4df30cfce44dc81),
(0x76e94d41c463941923448d3808b239e6fe0aec990314ed164e67e97b6247213c, 0x8ee4a6c32f010749103460bfd75fa38ff9efe4e4bf283cb5a3bc186b21fa1278),
(0x493925cb12c0e7e7a15749e007fe9dba5b265d278eec0c08506f34334b1851ec, 0x70900c6b3960a4656cab318f9f730a66e4a2400ed819da9a1f5b16bc4c62b193),
(0xb37fdabad1a1393d79820eb4a4823d383873306aa9f5e6b751173aedc43cdcbf, 0x8506f0de57fad139e20df67be30a75a7dfd325f29e35652f28fec6080f27030a),
(0x4451960c48e95c4932b0c90e09f907248f2b702309c6c7033c29f4a5b0a5e8c1, 0x83553a18d9ce9f66961c9e1a47766a4e28bc404fbef524de53b1b687d4d7490c),
(0x9b0ac1a8697c69b980cab20eb3f987187857721bc869c704caf63b80dfea3449, 0x210e4c53bf1bbf3f71e32a582280985361b61723072e845d65b5661dfa7e60e9),
(0xe6697355ccae4f7e122d62de1c00dcc532eca4fa7dbd1cebe92684b4781e0851, 0x1f122cffdbe5ef3c944353f718806a829d3ded91427bdda1736ba236e9bdc3cb),
(0xffa890f11a1aa4ca01f26f861288bac7ad480a4e1cc47f2afe39f260f167201e, 0x1688dfc41716fc3d473c414977d0ee8cac569cda0b01ab5d69d449ca85439cb4),
(0x9088d4f26ce238cf63eb09b15c04a04cc41fcc57946c6c14cd3b1b4f54b6bf47, 0x9e380417bc61004e3d5c9943b3d359db2ae4ec812b70e909bfe265d5e4d2c2b9),
(0xa3395ddac1e760e0fe7f7e5fe3296bc299949ca22c03470767c08ffcd9576a91, 0x4f8a879a54036d1716f0701623dfcfba3141850cde0038706ee940e7452393d3),
(0x11e54d6454aac1e058cef23451f686a91a77300d75330ecbd208678b2b8ad651, 0x749b29605a8419f9c5521dfef552a24daaa53f45908d26796e08b396c9c020f2),
(0xc8f13cdf7b41e822ab6d5a707c701d2998f5f0da8e4c974675e808fc64327f30, 0x489a69df17c09c1cdec329d6a1f34f60445d7aadd609d94d44168947c3199404),
(0x9175e6dccf674838a94c628c3e1a9dc29487f3948a25e50cd463cf6e92d84442, 0x8705713fed37712551e37e51078ca7a7c13e193b1b83c7298cb081868fde1c22),
(0x8eed492fb6d5f0e9ee78f6b8953ac0a05df8b9ecdb17a09d22863bf43620099b, 0x23a4574217672e98d9cf8b9462439ec882e1acfd040db9d99ece889d1e0ff1bf),
(0xcb95ce23dbac06ef79793f543105f5d75cde90bc651b7756bebfa3670d5c2dd9, 0x9612a6bac023b0c073b5ed99271ddeb457d22d74f7ecea4fc618be5e164a9a48),
(0x667218c8bbd3ff37d42a8ebf8b5a7791d8fdd4939ce447c915dac90667a3c980, 0xdd4011799e19afdd46b44aab1055b554452a21e706750f2ace98083c8cec26c0),
(0x884799c60ded4851ce53e855dc4296980c7627b5a0ed385219b59af832f76e5f, 0x238d75ed84e6408c79cd2d37152cde7822e34377fccf05ac3afda662c21c4a6b),
(0x8d98f36b5fc0082c597a05bae24ea6d22cc8bb903a6bf96a256eeead6911d143, 0x26e8ad1afc902a6d505b2fcf80168177de7df931b1dc1516f2ad7b38e0ab3cd3),
(0xba9062cac0ddc6d327f2cbc28d2efb1fd1db2388c86741ae7403f4b83fd70ad2, 0x473b335b3036e754d9d71ccd53814455674539fd7b73d9f78f24bb0a668b38c2),
(0x4a2d36d73bf0e6097a69be67556210517453ca5311e288f01ff1dc030acdca29, 0x0ff691e7a90331cd44e83ac6c298f5fa9d694a8148db01d8595a4386b2ca8f83),
(0xe868f28fd99c4b16b64fb0d932c325c86b365136e0055c4fcd362e1dcf37d0c4, 0xad3346c1834010348e8e0440e889109a40e5fa1137d94bca2742adec4cd4a9eb),
(0x6c5e8689830a6ca512d77e5662239833ea77e696da40feea99da35192babbf3b, 0xc29e05f15fd00b607bdc333dd753647f56b9830d46a597c12bee9465ad779540),
(0xb3a172a56ebf2dffaeb91cc86b9d5a91c317adc6250ae210e1a25bec1c046344, 0x28f6dd799ae40d6dbd31fff909a4c2faf06401c0de7a5d119fc5faf83b4ac3d5),
(0x198f05d2e2f9d779a50aed6739468a8cac4a22ec71a3ab80091a94e2100d8f47, 0xcc6a183fc9813173caee3baaf3fcb22339708968360c02b3cbf899e0b7cd0414),
(0x78b2178fa943a7914bc7703ae850b07b41ae77db79fc39d89f0f50aab077f48e, 0x85fd3e34f2cbb0928bb89004e1801be1d78fceecc29eabeb11b9cb15625274e7),
(0x6f70df001d4c5175f997a795170e28a423828ef9d5f72dcccec43fb8d9943f3e, 0x26315213b77183e45979c34be730e2a6956a66c2a8dfbee5f0f1eedcce8315ce),
(0xab8131443c946d29d05509e3b45b5926e3964b2d1cd0fbd09cfc359db5a9dccc, 0xaebdf3150c1273afa0c5e5876c6c613216b7710b3f50506206336ca904f5c5ac),
(0xe72b3791dd75112723723e6277e5e6ed6b94569eba3321a20a3e883e05473ad3, 0x131b30742dbcaaa0fd3109ab5e3a28479c2091ac8830b19fd4df4c829b28a3d8),
(0xca5a3296ecdd5e5038fdf77afcc507dabb525d7c56b50c7461928432ce3ded63, 0x8bdb6794b7e177ba9027258e42b365bc5a14209d2bdce54b3f865fc6ffc4ab9e),
(0xeaa3be9f26ae8cffcedbe59dcc03b202e7d2e815a7269819c881a700e31a9222, 0x1b5a2cd7a367d34c60ef802651df2d3b36ac28167cd7eacc735e45c19524ec1c),
(0xebba882d3ab4ff6ae162076d5679155435a011e674872206582b03dee8e97728, 0x94222a053d8dd2cdcdaf2ac769ed8c658a004c587bdfd0ed355be47465be16ac),
(0xca0d97ea537a5dd1147cb784eda20601ba88e0d168e8df446d8923c8353aba86, 0x874ac85889eb86f188ebb979a4490e6596c97892874b5b680167ca99f68fba1f),
(0x51de2965348074547e798f98c5fc19c584a90a0b0e1dda247718cfb3ebb797e1, 0x81374e3aad04e6b955c1952b0fcdf9a7ace0ee4b99e487bf87ceff5803f7c54d),
(0x069d611f03136be20cce39bda1d48fb687b52135365b8df5151c6ec8c1387509, 0x75e2d820563b64cac4d127e1a5c29720fb84c0aa6b271fa7e9da2c223195bde0),
(0x311630830558660f232204561dcde2186fa4a4c0de450a9cb2f57de13a8aa135, 0x25d6d496b13416883008c636ae1d8b7629e14207e5fbb817539ddbf6ff46eae2),
(0x84e342aaefa9cd4d4d82e5b44d0ad9a911f4623d8684c274cc3cd5612c7ac334, 0xfb90dbff260f9997c84f0a324fe5d2f6f552affb50aed6540fb8f6602a92a70e),
(0x95efc402969db115224468143d4e3aa0fa812aac8867a5bc64d6669267bf6562, 0x315bcc316149252c56f3f00d445255fae4567d9fd77ab4b3e82c13599f371883),
(0x5223623cf87e9da0bd289993a55bb9be55b40149bb501507e3d5c9e8d78d07fe, 0x6bfd0a21dd2df437009b1c16b0076f880832e921db3cbdeffa5808fcac613b56),
(0xf212d1990a6b707e61d87ab3109e1178ea180f1966b0a55df5f4cb97c0cb0a4f, 0x3280446c7edbb64ee47c31427c0ea1137f51142219ec382412f6b069a0f7c84b),
(0x6b55063ff25d76f82154431b20058f96e1e19ce2210e1b50835cf58c31cfe8c9, 0x5427dd623645076246e997076f60ffed558a82a3dd7e31c6492088da9069f8bf),
(0x2539e5cfa09690c012ae0c129e6f8b27c9388d41a82e1e9647219d5709b23045, 0x94cb83f61e26a4dcd1b93000e511334731d804b4a259e24a77c457add9021ac3),
(0xaa9b6ad34aaf1c3071aed31e8f28c3f79106421ef0e53fb6297fae540a47d51d, 0xdc0958e49fe4ae0098b4e7db10ab4d9958cbd87eca443d3ed1c9de7783544c47),
(0xa850a313aad224fbf5ed6e635a3f6b0fe08964e5e9ca262f780532f6013487ad, 0x7e476ad54cbc55c23b9708ca0eef3479d9a5e57026f15a4c43b83363ed4ccbe7),
(0x314fec33f4fd0c96d04889fab18e29d25da441326477b28c7418d4ae5fa09c1a, 0x0a2c95130a98ffb79b5dd4f549534fdcd9b4b8d31aa6a4a976b7b94febd25f42),
(0x6e7dc3c89ec57e79ae1581ae1afbdcef183998b8cf52dc85329afa354f3d0963, 0x6b6368056d5a8e9f9651e3a82598ab1b8f057830fccac964a83515f89d9f87d8),
(0x596df693fc4ba2d520497a507d1841c438b6cfc058c274ad9557d400573337c5, 0x6609ede91c97b09b3a171723e9ec5cfe74b75c33d5ccb3c6bd03fd04b37f4ff5),
(0x235f8dd410de780058550e8e77bd42d4ee3ba25997bcb4ee13cf0a1214e8afb7, 0xbf6e0ccdb8e8e136800f8d59510a445553b72c33824b71bd189e158b6cfa6712)]

/-- secp256k1_pre_g[1152..1215], /repo/src/precomputed_ecmult.c:1190-1253 -/
def g02_2 : List (Nat × Nat) := [
(0xa9d8ba97b259e91f125fbb28c80e81f03f03906aef69227904c9cc2313db8b47, 0xe668b95419b580f267472afe221f58955e6ce6f645ba737bf14754acec048656),
(0x53b44dc64f74c170142bc62951349b88c4e2cc35b7d9a7f4827b07e84a288e5c, 0x4aff13e1404562c4d8f006eadfee7b5a32216187d8c96c7e5896e157097075d4),
(0x76e6e038a6baf9f71acb56ca1494486aa91872790486f62f947b5a02580af1a0, 0x51a5d1106688407644c18348be0459103b57e0d72266ffd4465e6b4de1f0f0fa),
(0x7761ff192fc7012910eda284dde864bc1c45b4c71bec78702bcf53bf9bc1e6b5, 0x80980f70a82f719661f7e1fdfc3e7d37e0bb75cbb1ab47c1d947dac4296e11b2),
(0x8199c9d61224f51fe6dcdc333869d86095c0bd8e210d2d7f8fed2804a89aadf9, 0xbe89724f5cbd2384ae9bbd73f030dc74a158ee7d2a9d292ddaae30574b1ec89b),
(0x15c279fc760a2556bbd626803bd779d808bd4dcbe508b3b799d2740591c55c0e, 0xfd5038bfed80c9634915d352bca040fd0ea0b9b067215dee3373e4d353390c39),
(0xfb3f8d06b28040476f7b46a3ecc2e7ed9724ace4014831a83c111615f8a39b46, 0xf9250cb6ff851b613b3fd70c63c1bd723177ed50ac9911854fbfb3cf6bd2154e),
(0x39b2b5473c964125da2723e3097c3fdef9faf415db0b389b5eac9a6eba012edb, 0x8ac1c2a5a586f413bd68aedf1f65f2316bce7bae0ddf9564002882f21bfb7547),
(0x42d5dffae476151a1d3f6d0bbb24e8cdbf72d73eac87e84820cff44a47f1552b, 0x631d9645d941c001627ebe3af403bcf6663f6e4617d86ee2922fadb4b8847ee4),
(0x84dc96c624ecabf0a5edd0711e922d9a630a0bd26d9c6158e311fb7ae6e0bd8f, 0x40af318a16b7324d2acff10a8bd2fc25c795cc710c0aa5a82cc8eae3ef8703c6),
(0x636e760a797bceee11b812af37bf7cbb4663ba02c36d93bf018739834bbf505e, 0xed5c5e4b6cc8cf76436dab98104b945869924f40057d92ffd74f703a65f724d2),
(0x137fd0254bb5ee78669ca6f4ae2780647d32bc0ff6175090d4ff758098d06ae4, 0x282d6aa225eaaaa0e9b186a3036e92e7e07ec23de9ce4bc808fb7f09328d0fd4),
(0x218ab84839e49256b55bc7a5cb250fc0df781f6017abcb611b6734d212459e92, 0x7eb14f56b53fb0dc430c49c8d32f39f01a7212fc701ca444c994b3ce4d0e1599),
(0x6b3f7ba0106f22f8df69e3a78f1376051b2f0a99ebb4f4fb619154955f8eda65, 0x0c5788c44c946bef86d9a4ab481e88736c8310005d36d3b7aaafb7b72330d299),
(0x9b414ecba2de1195196fdf1962eb5b86131ad1caf7fefd08c5de31fdd9e8ceca, 0x38e6f31f9550df4080db06269da9f4e651e94e8595e747970639225ea725a637),
(0x436b07a1857425e186933af0d1d444d6156a4a8ef3f2df8ecbaf661b26940653, 0x94a52f35f124ebdeca642713724fcc63c6822dd1bce4c53ace155b31443f2d44),
(0xcc0a933809b25f8233419bd187b5e290b8d76f282099b4d1fff32cd5128fbc6b, 0x0cc7e86dec7ac7a9448cb627875500e0e713ad7a430ee9ec220bfe876e3f458e),
(0x5a1b316eaaf877afcc7b1907eaf8dcab7ea684ea72fbf8888f21fe83c3a19858, 0x4af0339ada08846a6b6b3466da69412e7441109422dbc450cf7424cecd81e7e1),
(0xfaf8916574444bb21fe1e41140398b25ac4a57252f9ff27400e7d4096d6c53ee, 0xcfa7795faf75547f5dcb64263b16c9c5d87984ac81083cb399714f6c99a43100),
(0x39e5fd8aca1416231840c68c6c6cb028c94cd22d49619e33aa9e4dead174f248, 0xf8121f657083da6574013e7888f662760a8d3686528aa10561d10a6f8c3c1ff1),
(0x20a135ec147d0cf2ccd3cddf6fbe1356a64b8ed4219bc0e9257430980325cbc1, 0xb17514abea1a37254c101fd2675d30a9fa1d170a811f06a715622ae6ee82c013),
(0xa181a1b8af48f73fa13d69e2ac75b13b9903ca118a8851fab461c2b42c72320a, 0xc96c84673f487e623d72c432ad5887a0a66fbd3a0c43aa5a219c84b297a6df20),
(0x395fc031720a5da2faf5d76a9516de8deb4626955eb87fc2752462c77db3ee4f, 0x4aebc86b53783895ab4e14e7c3ec449c962ac8699b3405231288bf41c759ad6a),
(0xa36de9ecf6df2b9687d632a61bb6337d03fffce571b9fd174246b33d1b64fa6f, 0x784e4c4fa133d1401b212e1477deb40d620fe29fd0f05ea9cdbdc862651999f4),
(0x8cb5a899ecee4430f738182004535f57e55a3ab83dbdc359d04746e29840ba8c, 0x12a7282ae9c3a3c12c1df0ecc3d28b4d731dedb1ef02cb2cb92da5de017ff59a),
(0x0de441e14d9c9ba190e3720122fd1fbc4cee72d8b26b1f299c450b6660b60985, 0xadd1a30ed12ddd33d4f740d4427fbeb62927b3c675032110508e21140271b63e),
(0x88e38b56b5e5544a0f2f3c1b7128d118520646c3972950674078207a9b9fbab7, 0x8833208ed44e9656e5bac529cbdaf184dc8ea020a2d8f4b78101d8e61000e5e3),
(0xa4f0f992f5616420b9ffa3d158d2d7293ee217c960f5266c6c5f33740f4640a7, 0xda6741a8437a86bc40ec9188a1af42fd0b131a8e81289e713d80e201f82e6ddb),
(0x5f00a8cff2d1aaae604a40bee451d8d286899fbf37f96ad7efe524071c5c945b, 0x135fc8b69ea76d6e39d1549fb4692d5b0b48ead3ae6c662a424b63d2b59deb12),
(0x59351a0ebfd6fca2ee04c799838ddb8f9d168967a9e6cda0b416ce3188f99218, 0x6e01a2673184f4a828e27b6d4291e7c80fc4159d73a465b64fe3d4e9d50fdb34),
(0x0175ee35f5c533b3de87387a5f263d0c6705ef73e77f39f72c796f912cb1aecf, 0xa37927154540e4261e0d40fc4c5fbd605fca3b633cd7b506a80d0280b9d9513f),
(0x75189b41597b18ac9ab6362fa7905ad45655951dfad033b02047dfbbf347b8fe, 0xf536fd210ffa10ea57c023de256a59edaa246842845afed5b0177b7721b2527e),
(0x91af9ec32522d65c70bd2a3157efd23a438855736b5a1c720049a414a19bd4ae, 0x312007c38462b8586b44898ed0b4419b31c9cc19a2ca6d6e6436bb08741a32de),
(0xddb2fc8d41fad5d05d1094432f283c5c732273a41a14db04712a1d84a4565c27, 0x4f7e30c502cec6f4201673a09893d0928f6ac9b6d7f2da38d63ba2fad69c1d0a),
(0x9ce65d22d7240dc350144936ea412539ad40a907f2b04f96f7ddc1dff63641a6, 0xaf93e5877f25bc642460b42576062f54c3037e4380542340cf92760979d97c8c),
(0x7dc0d0d41fedec5891c3932eb0bf492d5489f1b01e7f95f54936d76f776e9a2b, 0xd55a279e760c3c13bfa1c7a493831a141e9bbcf5a535934fa5269995b107c47a),
(0x0d01215cb6b4d7289dd8d351f3e4aa7ef190d40f3281c8c163d03a954c0e5ead, 0xef98344bccbd7eee723ce7fe0641854dc68be6c6099eea2548b2c881b0fdc662),
(0x0d4d1c31a9faef8f5991b0d29bdff3d4bb6498c62933eaf3e1d067678d7cb92f, 0x98f3a848ac6b91fa85bccd42f2185e46715faedba4f6590a4df5f862ae6a4831),
(0xcc659ecf42abf24c3da2d83c084b1e323d718f0c41a1b5a49fad2f24c6080839, 0x7bbdfd554d843399b6edf249ae795758c7aef0943f84ccbbf0f2761ac81f963c),
(0x19ba1567d5cff3859d074e94478bef34f0eb47756708d04e594d164171ea4b04, 0x34ea281bd536b02eda8583114e59c11030555c91c8b90ed5d4f534854a820f9a),
(0x3f0f02e31a6e5907631960e5fd52d2dae825d8e7529586a5437798f5d7bbc30f, 0xb93e27c33aecd4da59079ddcbe2cd6a562a3bf297b40519a03509061e3e63c3b),
(0x9884c48f35f63fd95a9dd895b0f382b48d0fb096e5fab23e0df079240149ab12, 0x5688c2667070437c3d5e321f58b6f41be011545e989feaa013f241fb4180eb44),
(0x940f2a9379bc9c553082e85ac2f83e5abb4a6fe02b23cb474489bb7cc46c7b4d, 0xb4b8238077ba9d8f51e7c735cbc6a7842aa7429d2cae2284700c0e2c7f21fd9d),
(0xa9a7699ce5353d9f41afeccbb5343ea45f4beb0342f9001c0e0742eb58b782f0, 0x3c759eaab3e18cf1a4341f778a601ac9b0536fbc5fb498b4c7ca95979587c994),
(0xa21e348a009cdb0056e36cc282d0112a93f4da1d23f274afb15222630b218913, 0x141543fa652f95066ecb8e28a701e663c70b1873b1e778da588c1f4c7ebe89ed),
(0xd6d54d951121e11852b298d6018ce738e8142906306a5ca41f048fb35a5fd383, 0x897dccb8de891fe2304fe9d038d8eed28f76c8f3535a291241253445828a7a83),
(0x7e0a635dc937eafb488c7f7b5efb12fa6232b464a3a47ebe21cc0f1dc31e6cda, 0x0d2d1d4a75525e1d2ce5b34e3adcbf3674489c86ced61e822d63ac638de921e2),
(0x4ce2080f66a21c68428870e836b3fae955bafa14fac200d3afea00b8d451a659, 0x29e1fa26565b02fd318d0f3ef0df93aef0ca1b9273e31b1d891f055f6c7da4c4),
(0xdab86b87b633bf6559cd5caf1b89e815e6d4b7b4d8f58f7fc091f542712bad2e, 0x8e49b109d79a55f38d8159d7f55bd9304506a6347e57bbdf8fd15eb353c85b5e),
(0xc6a14ac290fa32e4e8b5386ea7672d39ba16224a152897a56ae29001b365aca9, 0x42aadcd6dcc588fe2421967a42ff615e45cd5f2dfa258164b2c0eac7735dbc67),
(0x2599fa40880b108f28f244004f3458f663510bacc8a1041de694e214ea450a27, 0x054792ad4ae1cdf46a7a973a1a02bfd2a424c46e548c13e6951d94c87ba57a01),
(0xf6ab0cb4a6afa8f7aaed8fe9e79ec43d312655336fa4553bbf3d74768ed9f9ff, 0x4ea12589c4ba009048c1a4761907fcd682e913bc57af13f973fd9746845026ef),
(0xf51bd48bab8f020e2d97ecdbd3ff4da772738ff2bc71dbebdfdd48b2707f1dfc, 0x6b168ba0947f47fa8a7fe7bce7ef90f9b361c752248bde4308c93f3f4a697c40),
(0xb601f1146c9ca90caf798f2b1d0bf7d20a50b286535213625c898f0a4a2a3443, 0xa6ca304136b6b6755f317a1159f0f1106877fed0fcc167edf0cf2391c61f87dd),
(0x792dd67ae5957c0476f0511f0c5b71915be6a158f2871ccb37e90651f85f974b, 0x9b7f5cb9bec59f693a44774dd2f463e11a4c1c5c84ac3bcb941758094b1dd44b),
(0x7d88466933b6f4adb3700eb4f02514ac4c29c42033c34377931013028bb093f9, 0x2fc8c35e674500db5287ead35e46c3062ebeb5f8a5134885a2f9461fb5e2cb3b),
(0x9c76eb916d0f860b21b8203877089435ead4bc41df82c249010edb80692a5351, 0x72badbf3388001561e235a6da8c7769f0e51d1e0d6de06b0d9998290f5c88b62),
(0xa49b56383d8a93e155e52a2aa1e47c338fef18d82dafc24ecf5bb0f31fd807f9, 0x1bc271b39bf34c4cee4b0760bc9346469dc392e61fce976dbee58e8d901d3ae0),
(0x04d3135a675bb0b0ca9d5cc968f1c72ea704c9fe77aea9e0a4d6247cdc634460, 0xae5d7cbe72f5f4bcf2f1ffeacf02b13acb74bcef68cced38395a76ee280cfc4e),
(0x59572fbe17dd6e38fc0421b9b42f192ceff95583a9204e3711f330899e53f588, 0x57134640a8cb3f9e6a1ab8051d60a047a01c8f2f9b72782a39c45421de1c7c24),
(0x73cccc6d49b4780ecaaa1c61228d2e9a0a5fff080f5605a5cb5ea1e6712d9511, 0x463a8d74f986c8f11c12ea8b59b158d36a52c06d6a85b08edbb2cd4fe3752cf4),
(0xb6c8ebfddb620aa9476f7280e8fdcf6eae3885f187683d1ee503c2a38c4c1e46, 0x9a6faed9f0210048be575c2ac8194a5e76a25d55f3215ddeb4091060e7d39802),
(0xb4162e0f92de5493da996c5393067de3b9cc4a8d4c21df7eb507fc9c4c5e392e, 0xccce10d0c9211d36463978733060d982eecf22177b8ed120a40525616a3b385b),
(0x46bf2566ca4235d7abe919552a0b8d40a581008d6544d9b7a2a469d78d2b33a2, 0x6f66fd6bb827884192d82e39cd0bc9d5285b5cf002171ef10b77c87fc6785040)]

/-- secp256k1_pre_g[1216..1279], /repo/src/precomputed_ecmult.c:1254-1317 -/
def g02_3 : List (Nat × Nat) := [
(0x78446da4e869a9cf8badfcd1b89c135db5422a682a9ef6b7419a914e3d59ab2f, 0x4215b131db7e46c19e03c051f33bebde3f5f31bf2d42898327d2b5865a8c9ce3),
(0x86886a05511080cd42bdc76295eb8edbfa2b01ca5cbd1d1f4bebf0015605f3b7, 0xc71b69f35579c0dc7078854a83add404f9b753ed597a77d767507e77f7914466),
(0xa02e675e37f8fc43fd38675a744406e036d5fafcb28a7371e16d94bc83713388, 0xd6f9a541835c80d4eae16251277e9eac4ee66bd5a1899c36de3173defc41239e),
(0xa16b6aa8432c6cedcd110096697bc04c9b299777ee287f14ea4cc8898492bf26, 0x05c11a70ef9e42ac0d0ed6446ea7e14e1e734da189ef1aced2fd72414e0db298),
(0x66a3f2fe775fe5e5d0ba1205f7b81fca12d7fc2bf8685c5c97114b98e0f45b5a, 0x5059bd14a49ad49d550daad030b4eb2100e626e295ed01c8c18230505e5e3eaf),
(0x9a47a3cebf9a04c6755c6321061150baa1f09460ea855785962137845314b3a1, 0x22da5ece8f387e6af37c7045b9296927efd3a3f22b95eacbc6cefc0eec40a80a),
(0x1c0140149027b9a1e3ce3c288f18fa8712b25a5349f9ac6f97af62735b6628c5, 0x672190fcd048d3d6b78bc34ff160f97887b499345753bd353a456c960e448a4f),
(0xc2d9670a1de5e8765ac965cd497e07658d1374009e4ea31d057effe52e8d84cc, 0xff818647a6ddfbb13ab56b5852956d08b97a2e8c0f852379cc7a7271f13ccdf1),
(0x1a9fec4716fd6a6970ce094c4141d68fd21339e55396a6910e01b1e5c996ec1d, 0xe38eb2eb6c8373fe94f7639b595de291d29b873811f5d40c24006d8b93f8557e),
(0xb7df52ed15e91a6d40e9e5006b1ab26c53a5146698d63bae77856afb01d8c464, 0xea60f1bfd915fd8f99d0706fff180d51705c360d0a5fdac1162ec530b6e21254),
(0x02f95ccabd092e2fbdc86a5340353350918ba7f88488b9d1295f9959d7db6b5f, 0x31456814fe6ced8659ea9c3df09bf38dd5b0f8938db1ea7b5234648da1693ad2),
(0x763926c864dfe4db6a1a432ca37e40223b6ae1a37def3fea883a6612bd8a7c1c, 0xf34d5b724378d10ebb4b3e63d80f1f98a3e741e5b9e4fa410bd3f0a5c361bd1f),
(0x2e43be7a12916cf6f312a513fcb6c98b708ce2dd18dc4ebf72a807c9c8a31b0d, 0xdb919224ce1b7e5716e57b6ced514cd0a3a9dc0908cb59c5971e99d0dc24acfa),
(0x7d65e48f1a867d2876731984afc6873c2d1acdfb13a5adf9a56960c1cd4a5561, 0x9c73b955f0957ad2ff0e2d4bcaf795d8bc992436be7e69da7b97ccbed983ebfc),
(0x1c6becc03131b772cae166f04d7153906b132c87c5c76b7c10b94a717819d725, 0x2c3c64ff94998533097dd26cdafdf60841b84a22cfb4906e318c4d24b23280ad),
(0xf5042a5d5d11810232ac83c7d7edf079aff339b07e9d20f8198b2a6413347675, 0x19c10fbce644fc6d2f2388020a045052b2723f575a8bdd20b597dffd79a3e4c8),
(0x7c387866c2c0353e6e00c887240e084f0e0ee9f02de12539b4833588bd4be300, 0xccc66f94587fc58d42fc49c6d074800f56f088556caf4ab400c37b43ef2b8f79),
(0xece8ad23d33adc2b6ce3819458ba2ede104b35d11691f4e0b7b206e4eab3c140, 0xeec976c07fa1d3f5f3c245a12c9b728f1c7e672f53665e7c5c6a408f7c0c0a88),
(0x822b0926a274dc38c9eefecc7d021774b951cf193e2cbc56a1baf58f19d12b9d, 0x48bcb10af9cac3758314d2c49fcf05123638f008510fe63f1be0c2de44118313),
(0xd26a3a036ef5f428fa058d257ce62fe3401dfe4780c468a85cd2e77b0f85b8c3, 0x98c397623a6443297d5c6759a308c2db62f1bbcf9bae4ba010fb1175126a6fa7),
(0x7febb81d8aa0cbbd03002ab6ca247d1d24c8fcdfbb1664beb5b3c34693019090, 0xee625bcb12ca6da7544ca6c02a84b9bf966dc923d8b23b446cfa4604a6c3ec26),
(0x839e44e72d43b6bbe6f63a75cc3644bab7aa002a6de2c08733df2b0e51d3473c, 0x8368f63526f414220a563806d775bf682d876d98542b3da43e591e31340fb9a9),
(0x52e947da1c96e07c9e2c84f323f2eed97e049b9786d21135ea958eacdb0d7afe, 0x6bcfdec9e0c70d3d39de19a909fa72babdbbe50edc44897d9fa670e6d473a831),
(0x72ec542605e4a7431d7f6dd71c8e9e4cc8b22074cfcb00cedb18c6b4c67f3603, 0xddb9360b7f9def94f5ea6d7151eed4ba49455cf815bc90236156d4fa786b5ee5),
(0x370a3f1559a55689016bf9baf2863d112ac051e9d6a90f36af39add31406c849, 0x854cbda68517cee6095ab5d320b1067bee80d993235d1ddaba3a0ec61f005840),
(0x12e5788860d2fbdbcb3af527577ef6a141d1cf0cf719ac6a714f9a399bef5dc2, 0xf5af7aca5dd8126f7dbb79ead5a4b475a094969c64adc821ab46c5c186bd9ea2),
(0xb494abcd0b2fa5de17b1abad757bf9d28b7905c8aca0a5bdfe2ad8c330a2b722, 0xc397ffd6dad8619d9ff8d8aee401a4f8cbacf710c6409adfbf991d729294cb87),
(0x2957692d900d0b94b208245c0f71bdcb118ea6e4499dea831064605e8ab9d89c, 0xa3c554479284afea00037e940fc24d50f129342b7ebbaa91857d655a40444a7b),
(0x61101879f325e072bca13642dc14a5e71969aed32e49ccda39cbf723a1bd20eb, 0x4e199c824816e4bbd5b67269e9d8eb0be5c2483ed66757a9c1d5984700e443b3),
(0x9eea48b299f3474f8aa8c648c2721fbec65f6ad4990ab4e429a9c41aba55ab18, 0x1395469735ced1bc7e8570497f2b5a1fb6802892fbee0654c1d7d89c1f234443),
(0xdbb054d78ba7b707ca4759826a36808d3fff42b631f1bc5cc9df403b518bd97a, 0x396ef6c096343a55dd404885427e781f0a55a1f81ab95d4a89d87975611b923a),
(0xdba95bd57fdd2ef49dbcc0ea35c14dc9b2f625415b08e75cd70f3caab61bbcf1, 0x2af0965eb7a17e4618b6dba8415159ba0b8f76acae9384cc64a90e3200d20a3d),
(0x06c312c97979bb0fe72d8febc3c755db0bf1a132722f6ef5297beafb8ad0e5be, 0x36366388db74739ddf78d5ea3d8fab546c43596171f786438be007188202c6ea),
(0x65eb7057a494bc8f549b8638e18cd717ad987030aa3161e5b9fe31b6dc8825cd, 0x458202a167f285e09196b4acf87068e2160b7b422095bc927656694c2fa80312),
(0xa0696917b0e868daed5db7cbd2aebd1ec1117426d842c0d6b567e2b94effa7f6, 0xc874d20da1bb4dc8f01cb828be8bda8bc797ec3e37feb0f5ba55675c41ecba78),
(0x4191bb8219372a132dd378301086b64d108744791d3b787903b27c65782cced2, 0xc74907c98ce4d218d1ee52bf82e130bc4933527902497b4a34892fca67dc3f2c),
(0x75f37d33721293ee5923b9b2b95c958f0945e3f20909c38f3c3e7f5c79b218c3, 0xac041f8ec6b222a7a2f28e181cf11aa2a7d2fda11f402a339afdeacea5928be7),
(0xcbc3173ab58b2f29020b3bef6f18a84a6004d1f701dd6c6578571afb96fb154e, 0xc413a0b76f2644142d3c166de9577ee1b8f36ec9618e889226de4de0f9fd5c37),
(0x64e56b09a139fa5969688832419cd1bd64f212f45bf4cdd92a5e4370dae226cc, 0xa9194eeef24290164b41eb3d0b429415d10915a862a02fa7671bc19e050fbbbe),
(0xe33795c5e2886cf29a22c2fb8e02f91334e1335009cfc14f73bcfb49355285a6, 0x7890fd21f33d48c724e580cb7b4bb065f7c575d0c6cdf5e15c2d642301afb304),
(0x07975e6b7a73d0a0d1543d2c76c792336e6a099435eb76998f25ce75a6b0b6dc, 0x10b160aec68993edd5e48d5f7562bc248f16eb10a27f71150121ce2ff63eb06f),
(0x6d0d13cbf9c1396792e093d0801f441bc1ca448492ce3ce02ad71cddd1580f6f, 0x17ae423884caf022bbddcfe337a443094bdb25d471da56f1bae4bf2cebb45746),
(0x2195f14a23af2b59c9fd3f904260803760d398673fbd08560a974a201bdf0154, 0xfc05b38c9a44ef01f4db3a10b500a3725ff1aa5886ff6111da53ee14f8136a8d),
(0x47679c7360acf8b9d1b54e167d1dd1a21f5582883844fc4dac2a7fdf8b713628, 0x82a02225f3b8e81de4d4bbde94f7cd977ca0180aff3a47510a93f6ca17803ea7),
(0xb0bd02f51636a69b23ffe514cc2166bf8cb4ff2e2f7c8655ac9aa7c9de30831a, 0x073fad6248bacbc52a7ffc51fbeba3d8f4843b3fba6c881448add0d08fd5f518),
(0xdfaeffd6bfe9f81fed3f81afadbec5b80aab5f1523cb74520c689b01a3660158, 0x3f54d105c3ef4814e6ca4bf9ccb5b54f30c4bf8010d7b24df3b5f3dac9240583),
(0xeb016abbda661e498f53d2e796fd6be480dffae3eb7e4ba7046ae06bf40d42ed, 0x310d6dbbaa7659a96cd4d50adc2e5e8510f005ed6d29d1f518bf83a27af895be),
(0x989e1bc43c0880b36d35b5eb137f8e617263784cd2f35173e517afb0c99fb2ed, 0x4c4ceb5f110cccc53a35963d11df77d8999b3bb4c2cd92feb53b74769dfaa1d8),
(0x0beb0170be4a7bbf1f65bd40776d5efcdd801d6f909250bbfbee1198c2033811, 0x1356b98a1d329a3857a9982026d3ce6c0f52349dfcc59644ff4dcc138486461f),
(0x02d90bc1986f9a4d6f75e59696c4296aea9bc55d5b60d12e337cb42affc0b145, 0x7d57cf64734d1997bf84b721e67eafb6b377ccbed2ef3b5b48dc9f06f71a0c4c),
(0x6b7a6a54c9608062de196848dc3673bd59fd53f3fee72481e829ca77789f51bf, 0x6a9ee208157b8a69f0879f30c58afbe3dd4dc42b43cbf21a5795224e6c09af23),
(0xc99244c732cbdfe768df8fa87b7e7eeb16faf0e88870fa8bf4abcb68368e8393, 0x20ad1b5553ba2ad240563453b2dae2e858cc9b8cc6a49951bc0c0fc2875620ae),
(0x553fc07b402a8dc55f1cf4fc609a01fd350fef269c1f93f6d2871f9470f01b6b, 0x3b518c7539616deffa7cd0dc7d7d53ab9b3102177e4702909c19913734e5a824),
(0xc593037806ed8a7cb3cdfc80a34c85bb721fa9279492e369a4e4bec0c0fe2f69, 0x3699e4698a3e91293796dea6213fd702d7580e679f4463001e1c7a533717c149),
(0xcb6f1118f4d59964b8f4613d8c349d748cda0e7ff1d11c6a79dbecc8911e7eb5, 0x62b0ae8898b0d5cf723cc88f48257c470ca0fe3d7de676f4cf4835c8fdde20ee),
(0xda2cab8f8c26668dd9722ae61decb99c78b5d48c966889a946fc522a31a26db9, 0x6a03377e0234f9494a614cb70c93b1311808496b12485ad8fc21e1a76d0c7e98),
(0xfc6a4d423f9be3c7fe33741100f03eeffa595b839a6eca82b228d5e6b43b7d86, 0x6c089544eb8fbe1a3dc78fddac253fa827dfbd6e269196f5bb476865a298beff),
(0x73c9a91ab9c6e0d0773258e83ca9460c3d09fb499426fe09db73756de3dee882, 0x8b314327efc0508ad5a90259c9ed876b52040a1045d0622478cd635fe571d2b3),
(0x0a69f06145b8cd1c343e612714b809962bc02848ae976762933744ca3b4516d3, 0x87518d90b4503741ec16caf018615e2796b6d91b47f649aea86da209d70ebe3d),
(0x1cbe4a2570df40b71cddfb2ac15ba441376a430f446a2572fc95235f28ed9691, 0x12554eccf262e1aacf2a2d10ab3953eec8ac69f399c5380b6ef5d2025613de85),
(0x8dea49c7406dccfb4305ac85ba08b1914ee2f11a8827852fd13c837db788e27d, 0xc73d61a83b517c3ebab8b15ab7a0506c2b6071e5697b4056d902957bcfe9d9b0),
(0xde926377b175cc3b1ecab5af81d38d6a5e4b717d055bc94f6e4c43a486d0ade5, 0x29d5f3e79169d974d4289115d8d4b8b16be387ace60d1cb973c387d517d0e11f),
(0x6e76eaa7aeb37ab4ab455a2f3d525140f6e8a9cc5eb18fa38a9a25b0d3b41497, 0x07e3cc5a78909d15bbffb936a47aabd944c40a3cd690908a89f193e495e066fa),
(0x37131ecf22d57f0da662b03fc9891f994678539d37f5ff8f09eed0f8bc607574, 0xc03b2d2169d42968f611d596e173d4b9281323aa6abae6acc177a1c91249f3b3)]

/-- secp256k1_pre_g[1280..1343], /repo/src/precomputed_ecmult.c:1318-1381 -/
def g02_4 : List (Nat × Nat) := [
(0x7208881482c8995728e76633bcdf0ebb65155c8f4979a4e766713f374a5d8152, 0x6783c59f8c0adc8bda8e26f81990a00c588a7974b48aee92d2a762e5c974eedc),
(0x1b8263dfbaca44b2a7fa7a7adbf9d3ced4567fcd144d9e8adb712365d3241864, 0x01fc7e3e24f011431944b98db2dac036edf3668080196785783a41bed788606d),
(0x07a372de27ca7f2b8199714dbd583edfea41bae05a1313dff1a8c260cef5fd43, 0xa0e3216bb32c5785b5c60f220f5e4ed5a5d3ab64ba0eb2e20916f1b9b6281142),
(0x71815daa55254491c8bb9432755ac1f0c30f22fd79d4232a72bec0ea8cd02300, 0x8b3413928de15c165fafcc6884ebe3c03ade09184c463804876f1600c76471b4),
(0x01a54b7ad3cfcc64b62d866a09f2056e05535d4c12c89c785d1c5c53ff654d2b, 0xb7c77ae39f4b87bd22c77395a91ec307e9f5aef9dd2892e841d8390b47a12f19),
(0x85cb44571fc973e5dcb0b6953d75a2ec22cd2820740399877262b7ed999c44a6, 0xefdd1df3bd13fe66c0d4ef028e14209358037a7abd06ed53280d33189d0f6aa5),
(0x98e8649c64a010c9424b305a2407a36acd72df8e138df962c35bdf75fcfd4e4e, 0xa804c56934395d7c549f77704c3faed1624a8cf6fcce08efcd3aa486d5a6c60b),
(0x1eac47e6a297e5a88f433895874fac8b5019a16469c6a8817e500b9474a5a72b, 0x8b7daa6b784ddeaef380bb1ffe64b9ed043a10a295c30325f519e4ae0da11105),
(0xf079ac6591f2736317e9e0ab6a723e25e29950c7a02a66bc96c4ae68044f42f5, 0xea87d1bfc99f43744acc3ca0214a1ef7490186d03d92456224981469c432dfc5),
(0xd6d09d79bf1f30e0f011c3ada077b1d8fa0d94e88683186eba471caa32539643, 0x8770bc64fac8f541f730494dcdad2d48ef510037466bc049876f5cc97caa8adf),
(0x376e4bd9f89633680705956568313f89d6416ca6b1e4e91e3aff3ba0b8351f65, 0xba436de567248f1d5e99e8b96447cb280497deea47fae95b78a5378de65f13f1),
(0x270f3a184b42c799a2193daec96f834c0b17cb53bba1610c6578c7410b9f20d7, 0xccceb12b9ab98bbb0a0fb0d01673377e3a7054a9f4a3b00021b6732857e7e5bc),
(0xae271b641a1e534829e47a8a93b496d0b055d2b7fa98ade20f505a5d0ec1a599, 0x14e9552f39b481f2522a9a23f87afa9d5847908a53c1581e45dfb2447fc2bdd3),
(0x569eacfb177d8a74a9288ad64ee5390edb36a93a943fd6a25ec869b5a7f28c8c, 0x1cf62c329127642b99a7508aa6f4f136bfda9af545f528440cb9c71b5f732f7c),
(0x77c7f27ffdc4e7baa326a24689790f8c41bfb5ed6d365e46f277cf815f15b558, 0x4d3440dc138be5d9566a6828852c2ec0e0f970eb04501a4325af933b821c3007),
(0xd66292dbf1730306a87f67e9b044fef97d46761e7b8301ed132ed7d894adbb25, 0xceef77558ceca4ed92145f238bfcb32b3d36db146fc50209cb0e58f62c8b83c5),
(0x1c42832e12ea6f44b77927ef07ebb1f38769e3bbf5507a4925e8565ea77ed0d6, 0x8b9383a4b31b4f5da717917d9e1e41da786a62a3327be11e280e538a9c29d5ee),
(0x63e57eff942262a8cc362911fb98cf30608324353cd394cc5d6abf77b21f7968, 0x9e3c1e2dfb9083f24c344e7d322ea530146062e2a25fb6b04502ea3559b009be),
(0xbe233fa186f38a5c72c88e5919094ea8cf3ed3a9b4ea3f9b02a5148997b83c90, 0x402eb2b3362fadb26e389ef9edc537bd40bd48ea6296956fefd19d0deddba564),
(0x636ddb804e7c74fa9c5f4d065a730fcef2cc69564a24b579aaa0c3f161844b78, 0x6a4a3569583212c6022feb59897eac8a6aa31ffb916262e7deef47ebe6a2496c),
(0xd251c1d17250d87ff7b5af1eee2f2566215ae7c2b6e69e605bdd6c2cdee1c5e7, 0x245accf57df52fa8cab5c9862b96658c5de60d06c84584cbf554b5187fb4ae78),
(0x405d4cb8c62f133b7051cbe054b06f429055f9173ba8248cc3bdc744198ed407, 0x8463df10a8963cb4298e8031bd2bc3ed523553fc607467201a9abba7305deb54),
(0x97f05aee9ab33a07e14a03144fda5be4ab3293941ce8f003546ed8e39be983b8, 0x59e62a267fd9138bc4c70b15533782cbd321f1201e3d1a7c3be4ad5beb849261),
(0x0338816118e125c06a9060f26b9ad691c99fdf8d4309553dea1607490eb91ac8, 0x583e918b5b8e1a68c053af0d245a9902a571788fdbdc0c887281767d9404384b),
(0xddd20c466bbe6a259f706b1addc3b6078cf653663369fc31dc8f7fd33d17a9f9, 0xb2df7b29b4ea9868bbaadcf46621ccf17833e159acb43daa7cf78e89c1de5a99),
(0x923c6d2f71ae0ee5596c26bc31389cbceecd0712e8df91cfdfe001723bdfc9f7, 0x6fdb28ad27c412436a41ae9699a03d405ff2ed873207f082414a4370034be948),
(0x6d42a6bd28d57e8766a12461b8a7d111a448876c149071a7fde9df18dca09e65, 0x4df07ab801dbe97c3585554df0226234dcdd2826747f2775640bed6b95fd28bf),
(0x7fd4296159f9f259d3c3610d8539ece170efe10431c9a3f04b9630ec21d761ae, 0xfd695441b8ce2bf51037d00c4d50e640e85b60016d5d26dc787f1df125d7e280),
(0x48c1050b128d97dfe7900a0170559990944045ddf408d8a75b59bb25ea6770b5, 0x8f7ceda04b6e319c1cc61b3153538a09d450e49f8863061ef9b017c16cf66559),
(0x54462d9da12d62dc96abaa1b4883c67cb3214c40de5a4a09689658f7dee2a686, 0x7673ad6f916011d70fd33bb50eee819e6a3f00160d51ae370bcfec2e59ccd957),
(0x698534c4e4e11d8982a5a46e44b771f095c5fe4754d7a261443739821e6435e8, 0x36d602acb2720c718d619a8a5e7d68739faba099f71c11376a8f41d4e1cbba18),
(0x4493f75951c681c3bb376b0d7c88ecd9d0bc2a2126fd341ad8c4832a0be77ecc, 0xe553e21dd4d99aad97f158574bfd54bedf7143f4e829c12a39109892c120351e),
(0xb054daa9330080e189784cf5f917c0246c06325e687e6ec8cf8be248ccf8313b, 0x51f047155c9ce55ac755f2a40602420d4ed52a5a1dee9a83b0688b1db767d866),
(0x4b4272a4fa996b1f9ffe6796e6519db2c1f8cfc9606fbc571fe03713c029583e, 0x9526f2d0dce7c53d5cb36f8cfcbc517bcecde8334384d10cf5fc80a6ff0edb83),
(0xd61eb681c69de82ecaed8e647d1a39486cf63f83f1f04bff46a04aa363e29604, 0x9b5a92fb156d7b8f37c6d9a430ae28ebf62fdf5d5bf441dfaa386259721f08b8),
(0x0bf8f00257f979c09f973c8f3dc15eb88349e340efd8d57d5763e4e0c2bf507f, 0x561d862f1041e670fdc265a836d363a343346739f4f177d9f66414a0820614fe),
(0x63b254e2a7a6fad64d9ca03f7293a86fb471fd4551ec72d5eb03e289774cb498, 0xf41451113a4ce922dc7b3819a2de49cdf5be7d536befd8800837bbe751948c8b),
(0xbae6facde1da6ed863491f33c4c9efe750fdd9086b93c09ae0418a29d3968725, 0x7c7dc9550e483176f6bdf74c6654e6a2e4ca46c52526349bb4d660906ea30533),
(0xf56285f8ea15aa08f3ed813959c660b0d30a63175380429b59584623aceb34af, 0x110033c1a202194a40703c9dea2dcb9ad9a0f6da7b99b8ee31eb1ce9055a9eb9),
(0x876c7c953de3d451edb9191c60e8e36a0eafbad2198ec6a540d726338151d87a, 0x95efff7472ce0c6c04010d177e52a859cf55011d1005bd27df54e25e972279b8),
(0xe956c7ed077c7bd5680969024ab1c758a024d86dba3f30e3fbfd83ac940a6d30, 0x1b5dfca6f0d19ab77a57a9da259a564a05aa57590ce6826b45c7177107aad9da),
(0xf53fde61abdb45431456e9c065048cd7ab743b5a81a468bd8fe2ffaa99dd3f16, 0x1d28b53947ea22b50178e86bab3561bda65ac78ee0e2a6bc1a26b64ed790222f),
(0xb91a868152eb435d475b9103936a7c625e49b0b4f7bcc3b5f5d36449c8043ad9, 0x0c758d1756939bc061696f3d11dd1bd5722dc90d1e8be88bb3430062a13aaa75),
(0x5a87bc7023e32927db4c55d0abc9753661f5adcbb24c2897b16f08cf8d8f8cc7, 0x9ceaae4baa6a0d5c046d2120fbff74b49d1ac32d88a89b2c3d2aa6e06f731e54),
(0xac0b1b43e54eb3543bca80b9efc5cdb1215622a866b66e80de979f7971ceb034, 0xa891575e5731e15217bc2b87197da9b5439477fbd2bf07f609bd13f3f4638d8d),
(0xd3c41ebc2017cd8276f4d6f3f6ba2370e84f1949df3abdc145073467e85ca915, 0x52ab1d528be559451f6b1e91610fcf35bc1e95763ba3ece609da5e4d8cdcf7b7),
(0x68cffc57f4c82cc6f7900d00fe1b0f36ab842e4f49ee90634d1ebe9547923b02, 0x729955bfaac10741c3fda281c18a306b367ba904baed26b26fe6a4859ab1d8e2),
(0x7e0f58e1246299eee08566b335324a66579dc765343f874cd30f25538c177d9c, 0x39652583587293f00809af7b5d366740086b90156a05928dcd3401968821447c),
(0xc72abbdbd1816498eb53d4bf1b325fd65dc4508673257bbb97a15eb8e4c9b542, 0x3c8fafa55df5f3d288441ed3e46cd318841a068cb681b78288e77afb2b25a7b9),
(0x74747f5d3eb091441f64d76cef690378943654ca73fe15a1b720abb5d2363d0d, 0x012c67240bc7e8f7321f993a5caf0547bf54c1a641f959b9746fad7c1c443649),
(0xf2a702d1ab1de7c434cb5d71dad689a929db862cd1fb06e1212ffc8f91b67067, 0x05b91e2cc730ac9acb7452bc7fb4dcfb1d5ec11abd14642962c7bd1637afd854),
(0xa92d4f0814e76b465fda87b6201c46e8c2535b3d4be91e1b530b5634d00d9340, 0x4d829a8f3c02fb40569fd9bfe754dad838d96dbc2350f0be6f4ba06505cd0277),
(0x79e30cb1ac06c3b3f90ea32060a80fbadf5ea14284a157462aaf917a26f205a1, 0xad220a0a814594955ac8a79ed0cba9747f17364a9f6168d53521f276c8d5c82f),
(0x6d55dc53d412577f0463252be240fa3288c8d6a3babd6ff3020231b68c9401d1, 0x83a41c96aa3b32c0591553452679f056c98e17c8a0a5e1540d732fd37b006eb3),
(0xcf9c9f1f604eb909b37ea5eb4cb8a0c211ef14e20d3e2f487c83b56a49b3f20a, 0x2b90b9f64e64998877260b5becb441deda24eaf9df56ff93dd3d1c8ba247dff8),
(0x60d4299f29ed994ab33677809ef6fcace30f435bba9a8346a2fd925e186b35dd, 0x0df69b88b8aab4c58ff86ddd2d8e424b040d51a49d18943737b236954760331e),
(0xd93a6edd1b674a606b6bbb854114a3bf7de3be5982cd2122887c5376d9493540, 0x87da37d7dc79197bc01590064f921ae7acfdb08c447ed230423c51bff9e5f7ff),
(0xcf8c3d377e108d98b72bb6b31cb7b5f5fd5869da1a06fc6025d9191abd652962, 0x06f5cd02bb96ad02db42b034321b3caefc54271a879edc93afc9c8b134128fbb),
(0x6ca992474637ecf9827ab65ac7b9ca0c715b9048f24c42a690847e688cdf29eb, 0x51378da5fefa454ed96a446edab57c3e8bb6160dd015c1f6d93983e4feb55439),
(0x6f7d2c043cb813d5dea67758cacf2e3f3cc3064d7b9f08c558ed686d28d17afd, 0x4794e27813ecec4833f9106c17c5e161b590a5f20ac293c8c65a6cc65233bc6f),
(0xf8aee0d00bc9883fab6a82b0184e9199e818d01a7d99f475d2ca8a24e924f3e1, 0xacf9cb2b69135df009426bfac6b1b3de44f1055e5cd21b8ab526f34a839442b5),
(0x8b00fcbfc1a203f44bf123fc7f4c91c10a85c8eae9187f9d22242b4600ce781c, 0x61e9e58a3e81e690ec0264280ee5442a0a8de699dadfbcac478985cc89d35bc9),
(0xfbacbb078e84a2b2c201ebbc1cc3212ca7278523e984bc1ab0eb7fa139d6dd4d, 0x2c6c9dd6f5eb0899797df675ccbbaa254e557d5fd16c60833aa84a7e4c3a0f52),
(0x1556875c2f32f0538d28f99353ba28045ba601bb3df8a175bfa33dacac5c0611, 0x53623050c3da94648e9fb5405888e387d2eb783a10e45cf8ebaafe84a4e240b7)]

/-- secp256k1_pre_g[1344..1407], /repo/src/precomputed_ecmult.c:1382-1445 -/
def g02_5 : List (Nat × Nat) := [
(0xb602b0957f5b5e98ce3e690ec683f80349a8ced05985f79e2e972bb002d93d77, 0x78868390ddd6b821e30046acb1bb7b31ff358838af5b89d960d39b4e85435227),
(0x2a11016523a5244e089d66f8a06f05537a84621675fe437724f51501da2dd17a, 0x24d3b525e1ca62e9b02de49830737f3ab881d0787d2c2bff938c53a1b8825159),
(0x073147591148f9a9ce326a8e4f43d2d9a13edb9256fc9d3835a35da6457efce0, 0xb195cc9480d0aa04d3ac7cfa457664721ad5adf03060b790c7fb0ff777b2d8b3),
(0xa36e4fe40c7e23d716362979c5a9d8e00525d86437d96e3db2f45eddb36206fc, 0x56ace7850a428db4a8a70de8708339a40346699f697a6707c745635e66844751),
(0x97864be7a2c541185d61b61d5a2494f485b877d7e88644023444d778f43cac9a, 0x43332a78a85b8391551dcd900e93e71c3a6c542871b980ab0138eda2b9f2ff69),
(0x34a52dbf2449eea6da2c92c845dcd47fdaa7ca415ff02458b74eb9968519893e, 0xadd41829900f26c9f7ba8d5521f3bb23b3545a35699d41b94270547fe303ece4),
(0xe250aba994eea6175fb7b2b48631f5bb0d8bdbbb799f6fcf5afde8a62ff3d629, 0x803f34f59db0fa860bcb6fae689530fa2e92c4ec0bff1757409bd8368143b0ea),
(0x18356a6d0b5946e21149347a4558e1167953042ee3b2a3720869ae29b871ae00, 0x56ef09716b176f81e1f98ec8dca127c40ba6de23ba8c1f08f19e9abb995385cb),
(0x35a8ebf5e53060840365ef3f30c29e56ca5932d6f73d688eed3cf2a910205533, 0x9eae5d95042954de23d410325ada759e20d30fd5c2d058c453a185207f259958),
(0x037e06f525ea8fe9ea862b92053a965f7b3dbe909ca487bda705041fe6a4e1b9, 0x83919fd35e489bea23f13b6041a199403f2f6568fdcf60d703f57fb61fceb97c),
(0xabbbe697ac6c002f110629476e4a6ffd48316646718d87131a4dec195e131c27, 0xb2c926cb9d5122ff7f8d8a24a20eaf4efd7049449aa4830092971572b12f9dcb),
(0x4df36acb1484dcc3f7c29c8b789153155a1a3636aeaca04368a585a469b05878, 0xfe16fe6fc08af0263fc417fb19564534aa059f4bb7fced09d4fc20de6a41c41d),
(0x5ff14ee310256a0a889570e5ebdaf6afc8f49c60dc7c473123a7d29be799d0d7, 0x96ff153855eb2fac8f2a923eead9851a95382d6c56cfd0d89891d2bcf7e65d7b),
(0x16a12c52c1d422f4791281a1b7ab7186a24dbac836af68104f62dea2855d119a, 0x7a6ef272f67356de46996cb38bbaaba9d36a4bf4060e3b2ab3a8172324c17478),
(0x8f4c9c3383688920a48b3d154fd567e405fcdbacbea44eda60600ffaa1489ef5, 0x2bb5bc4de06444c7b2bc0082d629e2e5a4b0abd48cbb9b4e37d564cadb885717),
(0x498bf39b07547010854ca399e50399ca19236d2fd05f57776abd6d2aaab83310, 0x8e2debff0cb58e36bcc7beb58a45d4bab5edcd462c355d0c4dde51a66afd691c),
(0x78147e0a2978d396b22247d1749583362ba51d9011e89c1171e6e136eefb5996, 0xa66b7b0ca73b661be71bf0fb2eb4410c4c75bff5b8b05fd41d830d270ff85989),
(0x351298d9fb236c7e5477aea1d2df004847e112a2e16adf663f4d77dd828d4927, 0x6c9c91af8b6f23a9d15c3884e618ae51241094d45878ff2067f2ac81dcfe00f9),
(0xfb5ffc0c88fb609c24cffc14848549adc18146689e5f8a67a342bcbe16399d10, 0xa995e13f9ced94cb90feff328e92e97888cf5791c885ca0946f46e5fb8229ab3),
(0x8352b7c44cc09c5d717bd19740dcaaa089565e9477cd76b36c7a4fa04832097b, 0x9507c99800fa25d90758ca786774ae68f91c8fab694c5e236f8af6c77d0fe6bc),
(0x1be65c0f273a2746d6d014d76bb1c5955d5ed1db62ad940bd820411585919f4a, 0xdac98f302a38f839a3d470a83ef83ae8f044e93c80b23552da3da3595c09a3f2),
(0x7107f3a52f4be227eeb65037ae800f648de14d89ebf743a7ed65f98c0b58418e, 0xbfcf1c09bd1af327d14e429d18eeae45927b2df2aa15ce6069f6a74a69fca7a4),
(0x0117284be8edae5b1ce54a133b1f9d98983389cc00a4ccff9dd0497397312e3e, 0x91e48c1e724fed498bf519994c84d0b884e3af7786e61539638b45c38212b03d),
(0xa08d86deb1ff9ab4651f1cd0d89b671441c243b6c7e655ded31b44a7b00de54e, 0x4d0fe7f6344d39d157764feef74cc949a72ed8d4c2dbc12c0ec2629c830f0d2f),
(0x9c44c1cedf67418aeef2cbf368d48a0898cfc633de7115503f78ecb5a4e8c25f, 0x3cda202086d3f09631da959b9f9870c3de3d3c6de4c1b35f81f64dbe31e743fa),
(0xd933e4755215c065bab118da6f24d714f8597949a52ae319250338b22339f149, 0x5fb0f28e313af04dde3abfa6049812870e277e39d2f19dcb0547d6fc88baec45),
(0x7fe1f197ddd0532ca20105289f243bc64c2f9e5365aad5ff63c0f1d3188a42cb, 0x813b133fa1869218ee3618286561e75da9ec6bac6ba2ac7cd3f5678ffe472af7),
(0xe3568521896121027ad0789c72dc6d577ba412aeb3d7551a96aab952c507f79c, 0x7645c5058e2ca8acae5fe225eddf4d457d820114cd5e69a84966465a423e3a30),
(0xc56afd468a5644a2abebcefc3b6a9da0c667a183b822780d146ecf82b6ebece4, 0x9e41c655a80e284489fc587cb686549a2915ba141c691e750cc635f954f1a8d4),
(0xb242eb3960e6a8f073b6042e1095f0e1440f9f8fd1abed5600ad1f26a1589345, 0x944da76df063f0a03602decb696f2a34378579ade8469ca4bb5041e5876dfde0),
(0x3a52fd666d2e2e2e888a43f2fce6870378f835a6b5c3bd42af57b107323bb827, 0x12e51177a7b37a462755cea018f4f29e0096c7d6d0e434cc4874da99a7af91c7),
(0xb77d5615c8831ad1147072d2598a8c6b4a71c0fe0967a6cf70877aea24d28f53, 0x25d5b7cfa068a665deadf83d5f793605f5cff2c336a8d1760d18c6349ebf3132),
(0xe4420c3b61e435a8537847288426aa27f23d224f4ff7a14d79898369c08530dc, 0x422b04b4857984b99bebd74e1588ad969b3c67a989b119a7f7cd2c84ecca8572),
(0x888bfdbfc6ab299e3ba0fadda614fb01236e3c4498ad07cecae08105630aaaea, 0x86e7253d58cfe580628fb94aa1a8f40b7ada97c9d8713453f06f47733770eb3c),
(0xf74d258bf7d78b30ddbde398a13981640d850f2d48616cce8ef4c43610ef419c, 0xd13d49af1e6dadfc94332213cbb12d3205d60eb6d48cec9dfcaa7ff253029204),
(0xa8b33e9098d60483a700978611b9225765cea0d4b7ac0ae0679141105cda6df0, 0x58cc238cc08d957b1172598e96ff47621182b6c0652c9ddc650f3b513521c553),
(0x5af8b1547477fad98e5dbbe3d4a1a15e7a4a6cb65ae13cb89699470a1a3ef1ff, 0x525ed201d0c6183236c8fac1366e81733c0a8c15b6ef7672cc84b1a37d6f25bf),
(0x0155c4546d4c5c4a21d143833df8662afa71e665ab7ff0bc8119f29e03bec21c, 0x20e99f672f641185cdceaefe8fd7247f63842282edeff6d0378966bf50411aae),
(0x53918586ee182d66e7c22aea5a663770c8fd7f0c6738d4731010660c7425a56e, 0xc7fea0923052ec1d7e2564a1e70b8924cdbf727a7212052fabc58d9d1856152e),
(0xf7964dd9a0fab71674804abba7740f4dcc52d7f28d5acd4f67998bba3bad6414, 0x6a989f64aba0f60ce7bdc5c2aec11de6d469a122f1bbfccb31cac83489f62c59),
(0x741c8c8af514f2de7880a909b327c6eeffd72ee2b5b1658e72059edbcd663183, 0xf35d276de5de1460dc53532d48afe736e40b6b31fb6fdb4901224544a487b2ae),
(0xde8c69bf6cc2a28afc6ea9f126ef4f22606e55f1312177e9b2ef88358b47945a, 0x8de628536900d614780e2fecb4ff706670d847423b1c852c8b85ca4b40a48a02),
(0x81e16f39619bb41cd8a523b2d3dd0135d6a8d5fd9a8446afcd058ea36f57c537, 0x6786fc737cd2eccad146de9b951deec4375c434d7dbac32f2395c265bbf4b31e),
(0x459e9589d079b22e8c5625b8a725b30ae70f7f048ab21a20f0123aae7a6f988d, 0xa56ede935b71a292c4ad26accc3506cc915de21a4557512ee767e8c433f38e08),
(0xb079d7554faba7ff20818806a70b4eadf2e5bb51d1abb7582284f385868ebddd, 0x495ddc2d552f174b210f65773e434fa920b6c0c4574601dcfcf5b701fe74dffe),
(0x75391bbb5983fb2141580de1dd5b10b4bb30af173f05c100569abd2c674f288b, 0x57c7a6bac9154ab9eb66032f2135a52ab319f534d1f1c80db58a4af7de958d67),
(0x71436957f2848f75fc461069e4fc691f5bda94f732fcbe7d5a89e13641524db4, 0x1287f852ef4fadd565a2813c51b93c8195658a5a5cef224fe92511dbdf3f0007),
(0xb9038b33fa75d0970dcc74c9e25970ec94ad076b7279f7853b7c98f141543f9c, 0xa28c316969295ed03fbc1bf48e39c8d6af59cef3d6f6666073470ab0dbcf838e),
(0xb2c63c28a9fbd900fbc664e636dbe0cbf259bdb9d67c34b083b8af17a5f86196, 0xa8f050fc069c63c46730842189510ca5b79207236f5c12b0ee7103eecd49ebdd),
(0xcdd2a5bea32b2195f4a7edfadfb7c785d06bf346f38e928a5c92cc7a2417f39c, 0x0ab66e78ac421c3603203ee722b380ae2133864c83829f04d2daddd6b7fa621b),
(0x825d0864b079a737acef03a828838ec5a27d740c724f9c39780cfa619f3db80f, 0xbf3ee8b7749e44a67f27e427fe05eba5c2154fadbc2e2b43a877219b461071d3),
(0x37b79e3cbf6bf402c96930a879f4ce3dd0c36477f0b0e218608b890fbf5e24c7, 0xd97142c7cec5630ba090ff4c9213c2f0c32a5bb2f7b0ee292045ad0310f66f1d),
(0xfba64ad0678ea75d409105bf5b452ebf89560b0efbb079d8aed22c33552b6135, 0xe665362de4e637a8a85dd8441a806ad75c628f197d6dbe3bdf63c0b20d1f938c),
(0x76787b8e077ed36f9d84897de84c476fd3bd490d184327a859ea3f97ecd9cf72, 0x0cf79f141a3f38c3cc126011d1d78dfce3ba228b33d64158210cd9423980a9b3),
(0x26babdd0ffb3a33485e6ba1c5661a551f16a129e42f9fe8a3691a50d00157b31, 0x1b3a4ae2b1cf1a46fb666e33a20370b2e66a6c7127edc8eee4c4072d8c2c530d),
(0x15aedbb77a2fa1e97a6aa86407729f287ca4d3f236046008c1b031d69f76307a, 0x3342a142bf8b23606a5746439c05f36bf94088785354c788a6dcfd96ff073649),
(0x98ece0a39bb7cd4fdf4d5767c6ef4cc1c2b072a0dfde5fb3de100f57466fe467, 0xc4e924a8218c93e7eb829d0f839556c61e679d296a0a6bba6f4f463eab227e28),
(0x7d867505fc213eed4cdffafab067bb718a48cda2fb3233041989b6a83ff373a9, 0x5df51ff03c212078197c417ef4a4014c96e167f88cea0c1b9199ef757c97d47c),
(0xf24f19d743578e1fbe3ece8b7b00d5e2bf269a489d76d17f410b73a295b3001f, 0x644a43ff55448b667b048bbbb34f4c7916d2b5475148020d53e536270623631f),
(0x938533045c22296e1e911281ed4bea221fd1061d2039a27b923dd3bc800efd59, 0x22988cf600cd2d150f799bbfe4cc905e2607da21e9fad1628c2fe6998beb7040),
(0xf090c70539834f16253b14ee8e4d2685b91ff4ec9897df0daf1531c946319743, 0xc11718851d30271da8a08391f53a02b628c59c8c9af3ad2abf158341280bd522),
(0x0e8fc8ecab5bf3b74a0234aeb2a8eafc0df9bb08a90078e67fb6cd3efea78c6e, 0x00b0816534ce9bb746efcd71362e0a75a8397c0b490e75c29b007b2826ddabe5),
(0x46258cd187cb43e73003cef694af37e3c7426dbac8033aa09b0a0d719f126785, 0x846141a75f060822764dd82e2c36982175576ebf7082c6d4601ad23755ad4fc4),
(0xe7f38b3bdb3887ef529d27c3f433410b94109bf345f9b7a1e65bee6acca3e430, 0xf52440f15eaec70290adec0c0b07e8acab1fafb7adbc8f8109fac3492acd589f)]

/-- secp256k1_pre_g[1408..1471], /repo/src/precomputed_ecmult.c:1446-1509 -/
def g02_6 : List (Nat × Nat) := [
(0x2d29e8331472798d75fd5b7501f569dafa9a0167f73fc62eda5b03a52f537aec, 0x52d3dd1ab117b9faa17c58cfc0593603d9e2f55f5a230001d18976e9792d2be6),
(0xa3b2ec9cabf7a7b777fb44c9c7552dd8f47609a46f943c7c8ac97d1c3891ffb6, 0x6ce38c70f091381f5309338522a5ad664d5280615b01b417d559cbbf3cfc19de),
(0xafcb3c1e7582a56c0e6504ddab3d1a8e6cefe76258543015a21f65d33100f473, 0x6baf1f9dfbeb84998a6afc618e19310367edbd8757b2c4a38e5a76c68b171af8),
(0x88b2f212dc899567bf62bbea9466a8c26650f74a490b86eccdd35625d90e2ac8, 0x73fd757bdef6153fd7f6d4f5da1723e26ecd6c42d994a08e7e458a64d18c30a5),
(0x0bfdea9f4ca32916651c971d7da6a2a7395c59455c4940d493d991be1dadef3c, 0x827470447ef3f6844200adea5b8077cc4166bc651f6d4a17578b64d821bc20d8),
(0x5d45cb81aa765d69ca52e3869491ecf0e8fdf6a63d64e65b5213647ee4973ae5, 0xa4a4a32b51a76d77773517e7c103a7dcfdab36fe3cafa2bdb17f82b12fd019db),
(0xf3a503cee14e9994aa34fa531c43e5db6d6fe09245d2f3ae87d067537ae7109d, 0x2b1714c0a24d50b420722daad1951b63568aa5ba07325785ac555e55f3ec49e8),
(0x94c3a76d6f812ed2454c225eab8e6b8a0426195337d1d2d9b666ade388cbeeb5, 0xbb89cee6aa406746dd4893b95bf1818a3d1351fad66e104cbc8d63a1efa953e3),
(0x23dbfe810523240339d5a66251fda5bdb9a2d3d1181dea3cc0c908c8f0f4c050, 0xcaef3a71229f10ef488f8385c79ed0e4b5c16899d40ab6794e45b84b4deae6b2),
(0x3907e3d120ef8619c11dc69dc57935f5d2dcbeca1b4bbb88e4629ec6acbbf1d2, 0x438f96b7d74e2b9dcc17b0a60c936844e6aad1bc58a20055ba2984461415e853),
(0x0c140b193eeb04fd80aa6a373407f591651c944b33788b710e6f05e1672b7d9c, 0x949bfd1559e245439d5fef6b70763b63899450ef430d2e641f7077b929e44072),
(0x977cf05bc96a39c81dd2fe26930f75e42563c3b6b06e28d1740a547e0f2ea56c, 0x03802e3a8508164c36e95e2346ca468b07e1587836a9edc0e70c0e6b9aa10d52),
(0x1069c0d63995e0d4cad51e5a9e4e57f6795a7bb39ee3c3761e827b20d8a034e3, 0xe1aa14879c0e4c65581d89c47abb5e4847963aac788fe8041d2c194c5a7fe33b),
(0xff78c680c3414181ff3ab10c74e2a75542419af53527a45bba3825b3c93e3682, 0xeeb70adbf05390f376b2382e20b2dbed86c8c574df2f256e1fc4a37624d3615e),
(0x5ec9eb033acd3d6a9c04c3ff5838a6a02b0cb26bd5c37d059056afd986bcddc7, 0x92a287f60eed0df017c0bed1ed9445c3e39d92b48c3a9c8b9ae26749732aff03),
(0xeaa206ba792dd34b7ee67e14d8dbc7e8bef0a54da7dc7ee9339d8ec8471b37d1, 0x5577e65ebe719ca07fef2530c40c161755e00d211d78e5e2695107c68d1ee92e),
(0x26d062f56034012a3d76789d455cefa2689ef08ed3d87f54af952afd0ceb3ed7, 0x5eff1dacef6f587799c340c5f0d1f6dddbe6faa25ace91094e7b5836d1323424),
(0x800d415ae50db62a4f49e449d11eda8e1a2413f9c341bbd1492f22711e602d48, 0x569cad6d05d19b5d2299ec5cfd12d9f3d5c8cb0e756036fbdc5957f57c02eb50),
(0x6c01a352bc16dc19973aaca5f1a21676e1531fbe0f8586bb9853c6279c9a1c90, 0x833dd742c9596a0f2767226ab2548139a39a17d2d64d67654c073b18f8cc04e7),
(0x3accc922f1b3ff0c504e7c4d4738d1adf0b914b8d08ef8e80a54e43137742c26, 0xaa9cd48327d60b34304dee26c52b297952a2d11882e10b1786a09acb03cb0ad7),
(0xa0df5c72828b73f20a380f753f8e6352f8d978c1ee6ebedf2ec70ff1d0f8ec72, 0xb230adbef1e0bd131e622689379e7232b1327db6eb0ee30680d7a89fa4ac6670),
(0x9d5f0d949776ec98607a8dbbd54865c6d4bbc970d3ff85a449d57b9733b52c73, 0xff08efbaf4893add54b8a056ff60d345ad7faf157d11acf202cea0f200afc1a8),
(0xdef5d92d9ea1822edea5b29358a51ec8228f54b5a6738917fb7f21086dd3d84e, 0x0b6c740db94aebc3138d3ad0202bff379d5bc20ad7c0307a479599ee008b3129),
(0xfa90b105cdc8d74e3f87136c0f4d075f643fb0f1ba6eb83273642e6584df33de, 0x3e6b28c373f58eba49e9e852f0f0e2443a180d9252624c273c079dea50bba36d),
(0x8212e821ff2f7b90c01c84613d4d9df9ce077cb29706a349575b8cd1a3d0eb52, 0xd59c05db2fa3e756fda56e8f33540639d24bb5ed2c8aeb5b8f8e43ff703185f0),
(0xee340cc81d1f71d74b1a641e101d15e524f155b72afb4e49f9cd8b20ec61220d, 0x915d833f25355fd7f1efa7964a8e8b0486f8141ef5811438f0083382ae286f37),
(0x2c535525dd2e3d83740b257fbb7223e2302b50097f8366b50aa26f65442afee1, 0x1cd4514ef945b6684f38f9662f3b540292d43a797f73f94767272713b61cf765),
(0xdf7763cf8b57a288cf4a9083a2a5f977404b9e1d6e814f2baae9ad45fa67d94d, 0x4f7dc33631fdb48c612276bdd388ee9dbf05295c1a92709cb4fc33acb1580ce2),
(0x3514c240d6d0f21811374b928cd6d0638ff99b8f4d5e4da18fd126a0ecdcee60, 0x2a0d1f4a1a1baf803c98421c7777ed1aac17abb2720975cee530a5c64197fca2),
(0x03de75d9e58bcb8194dde551ab541d54237a1b58d935f60a0b54bd3c6ae40a27, 0x9ada14dbbe2db058c6bad8c486f250373ec422dafdd5bddc455b2b8d25d97c75),
(0xa728ce0b1804355bc5c144f81d5eb1c290ad3d52f502c5ddae28a08a6de0420f, 0x4387cca8f72b51a0cfb4893fa85491fd42cce3b9ec3344f7ac93d00147ddad3d),
(0xec3c9a8a05b844c0947b22e02503a8151d8234abaa94032e16c1d8745551c39b, 0x7b08bcef45f0fa93660845ca44edfae8c8ac51cee836b0433825e4108ebd7fa6),
(0xb0173d5624945acb3bab7e6c617532cfe619e7cce9872e9326a8ec55a24761db, 0x78d27b5f3e9a0761d0feff12198dcb1172a81df31320f10d44591ae305f1b381),
(0xd9eb3bf3cd43dc8b977c3890ed3a4b8f4e04bd11f95963a7970d960040cd73f6, 0x98196b5cc42e808a3f1db71898c500480510b9e4c9b69c41e7f5b2fd63b23044),
(0xfbda51af8a40230ac760260621f92b3829bbf1b01c027f107ca54c0865a84e74, 0x64833994aa453bd54c8729e4e9010fcb8fd427ba3bbe7c71e812513bfcd6ccf5),
(0x0ae4b9a751be19660f56466161262faf472b14c5f0532cf808af872fba583f9d, 0x8b2c248baa9d7e5a6f0c6eed9ad3ab5fe2bd4078da4fa281f4b672e49695ee5e),
(0x58040152060880261668c6a2e462845cf29764e031edf6dda40b6e0c4ccf6ff5, 0xd2f96ae64a83c04da072f9a4e39976d8a2e5f88ffed070cd5fb1a701db329485),
(0x4c28d68657380f81639abbd9fafcf47fcf477e261c46a03b57ca73264c7e029e, 0x694b8a9c4fa75e14056a67e80acfac163122a941150da02259fb024e0ced8a70),
(0xde205ab39e005587f23b51a73d806f816984fc777179a6b90465a92cff25c9a4, 0xed84325e12efc1c2db42cf1f0eacc12c48f68e429aec91355af5c327c5273d83),
(0x5ea828680c2cb0a74b658dd5721e6571b968f5896d22a5f1b3ec6b69594273f4, 0x88d10eb08db264f813adecce636f6c58e182853901e538ad6e2237d2384a9499),
(0x189cf7c864497416420bd98a3e3db4e7c3b0dd46d7b9bc9c37f2d036324998ba, 0xbb3409ced46dff2836601b1cf7dd606d7422118d723f7da204d258021edaa083),
(0x70a1718738f50d4308868026581002453c3c41d78ee5e14d3cf536f9bc82789f, 0x15c95120e112537e41f3387018f09d1e101dc445a9f362962b9462d7bc27c1d6),
(0x578ac0ff622adb6e08c20eedf30110858e4271aa46833865cff46b9b0fb3a368, 0xf711a1ddf5f3172d2b9b2f7d9d50818a6b0ceaf51d67e15f1f01ca5bbbd7f851),
(0xdc9fbc03476aa747d64738baddce8a5b5887f177fa6cdaea3e3b05e28d840071, 0xc0f6752c8087dd25f8d94a19d294e5508bd26774cf4e7ab9515f0a4e89eee1b4),
(0x9749acffa348cd5f2e84dec0b3d731514bb817dc4596d78fe029521547b0294d, 0xdf667dea35e54810daeec20be0e7d203d89856c99450116723de84e05781a1c6),
(0xe39fbdcf2fd2730dc3359f21fa815478ae8e7a98d6b132e8e92d343e32657d85, 0xbafe988170a7859676a6ae3e364885a2624415788c31c28320a06b0be5b5e01c),
(0x6009014e27f137120c00bda4dc913516e04b692a0ea32b89e0fab8bf91402c09, 0x34910894f6bd1cd2cb796f588ddba661eb4006a86cec32e57086099d42359f6b),
(0xbf04f247d02e46d82fb9bec4f76b3eefb644c92d43622162d419488e87f2f773, 0xd646f4e8bb3c2e4c0f19ab004674e354302e125bc1ed684d32b1cebc7c2172f6),
(0x9609f7ecb122b35385871efd915c6d993e5468abc30e9acff5b4dfaa31e5e3c3, 0x106bc52eb933f0b871578ac774e2ad89ebb4d9f9eeb955925d6b50dd988f9a27),
(0xb690cc3a0e1ebe25a07440fb5cbdf56ff5ae581d4dec73668da2ad620bab9abe, 0x83cd0023fd3a3ddb2cda96032b6c165735e5f9f6249a535fb9666a97e049dbd1),
(0x72da508ced5077441aa2bc114a9098d82c947948395bf38d6cd0097791d326d4, 0x165baa933433ea2b0e9780364fec922ee5d743dbb8117e095eafb4673f668457),
(0xe0fd116e540a30092954322f5125a72d1133201b985d101729b1c9b7a9851c37, 0xc6bc727648aa707e549e899d630d3155a516a06b777997ac8509045ee5b88a92),
(0x9d4b8bea85d4e412ee0d6389e883f9db0297f01cd0695c13abe2b68294c10af1, 0x5e2280d73f7c0832d9ae62fd6a8849735bb66ebbe68a38d38a95258a97556181),
(0xeef84395aa4b6e04ddc56123cd5eb31d069f12551c216d255057a2d4388e08ff, 0x45098aa434e1436440d8b26c73179c4887797e6d599639280b1d6b61d62d2376),
(0x66fe5c7d56e38e486134371e076ef427b4652daf6e60cde739aa1165c90d7654, 0x2d72926bb6edc93b7e40ad433cbb6c4d96d4c384966ca582a108a84dc11a2fba),
(0x5135f9cc1818caeccc55a304aa983c9882f9e1c2939f27afdc2c6df2c08ea2ed, 0x5a526dd27dfe17504f8baf4e115ae1b42619b5e14798695427ca3621e03f22d6),
(0x1a37c089af7f4a9c02ffa2bcc22a3e2982e3318ace1ae29c3fdf9b623e6487ca, 0xd389c0338522230ba96b33d2373672cf509b031235d2ec183c955ff03d2464a5),
(0x49f7a5ff15daaf40913c68dfc9016f95ed1edb2222fb1576e4a1184847a248a0, 0xf9b55b013d637bc9e9794246fa6bbef4d5ebec821a5d7f611a18c7a7b9abd8fd),
(0x8247845e5d9ef839207f0f1e26eb04703b87f835ac3af130253aaf881e641ed7, 0x577d790c1a23984e7f1b19474cb42ad7b4409c8f23f391de3e2440a9e53c5f1e),
(0x8295984ecd160241ace92ef610853e8e57b7823e25eea4fb8f118593d90e0749, 0x635321a66798d5f739a450e767b1c38a2c5dac96780c83c14c38dbc8c0ac8353),
(0xd4c32bf6d8fcf5ffbe0ba34e770c68b5fb5db412b13415377b2e9c803dd75461, 0xb3c73602e23845b32c44272b4eda70b9a1a71e5166d1335374153f664485f93d),
(0x1a08e32d04a968e6a44703af6b526a323babe7ca6882cd849fd3f7696cc897ff, 0x46ed98bdb77bed4a25c2e19be2b14a8d3fdc820970344b399a6b2a8eafad4141),
(0x8559be0e96723f0404b05965da8c97776b40e1eece49de82e7cfdc34354f4af7, 0x63e24b88854e20d12c3f049b2dd0906aba4db6deaba42dc05af03dd491333ef6),
(0xe0e0b223fc7a478a849c0ee30f2ef2a6edd0f08de8ccc8c55e28bdc605e211e8, 0xca38832c3aaffac1206d38e125b8847a06609a5ed1288d1a511d60379fca60fc)]

/-- secp256k1_pre_g[1472..1535], /repo/src/precomputed_ecmult.c:1510-1573 -/
def g02_7 : List (Nat × Nat) := [
(0xa237be982d8ed25075801eaa5917582c265c34245679b4e2034539ce68e40a19, 0x0f4cd227976a3780454d5de47026d668dc1bfc329003c87cf48982a55a231318),
(0x28a848821eb08d07f03fe7705a16f2bc5edbd0d6b4367ef2474f9b601205ccf2, 0x9067d3e9e7d77628ba0526b171d23da9162551bdf00fa301eecb5fc3f856a17c),
(0x142fe8d542bd6b5d325b8fdc3820de5bcc83e2ee13d59d16f4c69adc98c1d5e8, 0x2973f278032533b9559d142138d7fa601b66d1061bf9c4539c8310a1dc75b150),
(0x5b3b611c5d20649d019bb00a11b4b9288f3d5ffb700fb6b99c97b01298ad87d2, 0x849059c80cde0e12cdfa76219ed70bb4192ead875a22c58f8ebcb58af2519182),
(0x248a22495d4905a3f61f74c35f35f6f52edbdc639454cf6b0192c7ce50beb8af, 0xb5a6f3ffb707c1081cd97b2438867a1d61eaf73e9b89b5c3b1136ac7bbfd4c83),
(0x8a474a2a292b50e9d4d1fa99a229023e31ea209302d3a5d2875384d3dbff075c, 0x7745285c7d5341b1e5c3928916cf8fd245b5f045d30d5dc8721d6b65ef804dd9),
(0x3fa012557fc042ea67cbe4ea86637313826d10d248d5bb228ca8d1135015ffec, 0x10b9d325f59b4b8eecbdca5a58c48e18162d436ca3228b25e3f75f2726a937b3),
(0xb77b5c0e7b94f1a4dd88f0071af049b36b778d5fc8a828c046ac21959fd65648, 0x31246bc06722bbea8c9d572226edd609e2b65d2e9df6c21ad54cb157faaeccc5),
(0x2635f48267e82b976c2ccad789bd4bb45671846ed5d1d8e08f2c41ff8535b44a, 0x7edc804e956091fb667f9e4d47b7353d0d2ce39c0b53234dafb6d5a7a72b8def),
(0x2306b52dae0952c9c6b6f39b6d1ea36bed0012da18d772384a4e0866361b474d, 0x438250b88d7b8f6b9a63688bb2cefcf4bd767472bcd21221582b56cf325486c0),
(0xcaa866b80dde82848f586f9eed5a1d1faa5604eea8c0016e248d897ba9f74b4c, 0x2818f140349f78c4572834ceb805a424e33746a7d58fb8f29954a55fdc09c341),
(0x818def5aa0793d505f5e9cc429c01ed3fb5e577bb25277cbb74c70fe88bb1641, 0xda9eee80f762103180e2d54d796367d1f48ea2b493a1445fbddb3ee2ee4f276d),
(0x2c62cdfa568d412fcd764ed01bcac5bbc36e11c35a295bf08b12df92447bf736, 0xe8b8e02558117062705ef9859aba6418ee73eabf195325a8f82c051a3ec31979),
(0x28ab54d99db06e8cd4a2f7cd0517d0494e477f1ab6eb341659bce807e1f04adb, 0x993b5319a5cb9602be656276bf3e7d844fb003041ecbfb0872aa29e67494541c),
(0x493e7c162254a40c54b4eca4223a8241d6c2abf5f15ebbb63ea4814c512b6061, 0x56387f7b588d9d4cfee36b597ae8f21e5fcf817bf097ec897def80ba3ceed628),
(0x672e11bee74391654fe118dda2c5d3898922a68e222c9bce902d2062b9c51d4f, 0x3555134a02382a9db4bcfbca45e9d62b0db6bbfabfce7c5fc5102dc323dc36e1),
(0x8f8d0f6ee3b868898de86c06b59f8e5c27524b2c2959e7010038b2c38eda550a, 0xe7def2819e27abc59940fed6687bcb3bf364296c26bf1fd45d41710349212f34),
(0xda8c57834a11f0a5797cf4c79179f30b118f28021205d495e8213fb578b293e3, 0x6ecfe35c6f663975086bb1c3ab5dc5187c7a0ce1b6338d28a2c01df389c35f91),
(0x4953e0f53b1965ff3efec2d6fa99ba0cfbce09b383e20ef42657faa149681955, 0xc210c78d9d1635b23e468324079807663c28fa9718d0ca39fc09b541975541c6),
(0x5491fdaf48a0e1e1be21f7fdbe910bd65cd3e0c816da38db6c7420423775f293, 0x652736885d1c5338a3be9b299b51f4f39c82de960318643e3d34ecd2fc7ffae7),
(0xb9c4afa8042363b9fb5838858f17d1b60b0a852943c907f0af3ec9b5abc168d1, 0xebd3106b1b75ebed5d013aa1eca7d8d5e24d511b06d4178e514fe1564b550d9a),
(0x918da36c444847a1b5f9826deab809d5d6802e733abca3862423768392d2bd62, 0x6e6237afd7cc87e615e14113ab38989e889d5e6e6166eeca0abf1ddc8a53e218),
(0x777d2994da1f514a0800240e59b743cc748eb42f4572ac93a2e42e3701d3392a, 0x006193d7e9eb31952cab96f414e1d24f9d92505a9d21f8645e6dd3a38a9680c6),
(0x108e6ea09a08c5c5e27b8b3eaf24ef553988c65034ef954c4d17f2325723bf3d, 0x1a8b974b86db6bb47c314ebff811937ab8a0dd76e824dbe288fde1bffc13b2eb),
(0x36d9dadb65a54d491198a4868deae1fd3c2dcef44a682839b5dac54a456bf185, 0x25e84356d93b5d8625eec306565bef191edd9bf8347dcd8d0785024b2147bbf7),
(0x3e0ebab143ece776729d8a9e302726ceaab8965423292fe3ab2e71d366531fa7, 0x6e7b2608556d62368948f32b2fb04b348e38eae13d9abd5c691383d9958d41cd),
(0x923dc76af315f31aa1de9521a13ee9abab08ab420157f4832babdb5c18fa3728, 0x7a8f17b67439857b3141bfca6d89e6497facf6856331003ef6bee07c0ed3ae47),
(0xf87fff3202dfeae34ce9cb8151ce2e176bee02a937baac6de85c4ea03d6a6618, 0x74e49037aa726e0a357ace25603cdbfe7c14a4cc2e1e4e13c7176121585a03e0),
(0x1388065ddd7f69a011dec106b539f7e9e00b5aff075688200e33f9c1018881ed, 0xacab1d8f140661dd422f72a55ab4242c65d1a93223fe732c92b323174d13408e),
(0xe5476b1ea99b6a08837315427a3751b83d685b34acc5201e59e9b623ac4b6941, 0x57d5b2f1c4dd795a323c794caa8fa754bc86dd673cc8577bb418b2e95f3b4e21),
(0xf938ff60f1e8ebea4c229d894c98418e90c149814ed7909c3dd47cb015cd1f15, 0xd71722121a0cc646a0576e29372bfbd6037fe2c5b6ed68214da50318eebb13e1),
(0xb31bd4107c4a51081795544d5854f9bd180b494fa08878ad8ad5a3bd98a30aa3, 0x942610976bd589625e941affa007eab3d33828f0e12b31c18fb6f5c050519e82),
(0xb3ed87ba83210d011a2df141b9a6c6d333abd69255da3af7b4447d03f4c1cb2f, 0x949dd37929c757e1a970273cb6341e66b90be71b347e747abe0914aa4dd632b3),
(0x60e6c2401ea790d84bb95e78731bca0889a57c0e38b87f46668ee16d31221e17, 0xf247bf35c722098f2a5c800a0571eaf0367387044050d98cc03bd146ca9465c2),
(0x2ae806b04cc8d047e7dd8d370713cd71eaf3e16af74c3b87994afaf1c3750a80, 0xa8d978acb29771b51a87fafe605ca0ee6facf6a241aa135ae38de4ebb2e2e954),
(0x9af178a4bbba2d29e7a0bb1551f6f3a9d23843863779f43958a424c229bb5c47, 0xc1031fbaa0238857a487ac8572fbb3d14052a4baadcdf25978101a21ae79abd3),
(0x9dd6a721e9cb27af2e7da097c9e8a250fd78a531330ecb2c3a116d996008f523, 0xe6837b7d647309c94712adb14bc65787fc4e975df4e8217357dc9d3fe7f36080),
(0xcf5f16bed7a1a1e53b3e3f1de44efbb7fcb717b69a28bf0f0e31a1daa5e91c52, 0x9549ebd54d87207bc63912c999920cf4b0c80a0d8a69d4b14852834ac4487497),
(0xc6794890810954d0782466a3c52a0149de577cfb3a2001afd45e905edfa64722, 0x4a4fdf51deb64031bfca5fbd5c8278298621b6251be69187fcc2460df75ca468),
(0xa25fffcbbee9e0ff1659c1ea041406aab03b4920fe1a63e4442d524130599713, 0x176b9e065a821189ac3fc28afb72a1ba40fab7914de987e21236f244bf41486a),
(0x6079a722fd5d923b16acfafc7248e329128cab6acae9e5ecdca49774e0c5bf71, 0xc09972de99ca5a45c4f6f1d910337efe023f5292bd5ecc45df0f7aebd18c4bcc),
(0x188cb43d9d4078e718fffc428b16723ef64b950fcab7582c8139dcb92b66b403, 0xa038fa37ec9ea240009a28799556916dfcc8c2f3358ab14c140f7f1a23af5404),
(0xe310fc40cb575c68f579250665567ec8c445ca3468cfd02cd781b27ef819bb30, 0x31328a655ba312ee5e901def66e7b946e0c18336a0f1784ddf66b89e2abe625e),
(0xdd86485d1c8245ddd940bdeb1f462cc8f15693df246c3c8e52b574bf77dea4ac, 0xcd6bb7c256c9a2704c690175ba298a098963a8b47e743b4833fc09c609966ce2),
(0x1b7ed20cf81567b86f7dc67cab69e197dba773999b36097bde85d02a07019aef, 0xf814e92ad1cb4386550d89b59a4bc378df428d54d314d531be6fc35ef0e3d1bb),
(0x0a15587b2d528338ed146a03670b3f1d9b41cd0ca0645897a0f719a7b5ded284, 0x2aefe34b5aba1a4ee30d225cc4023ee712fc1522ad6b452bfe6ea727122e925d),
(0x057bb9f9c99da69198cfcf209a0940ce08d194639e4d10540484953e936a5484, 0x63d0fba8d90226e82c7be5e41d77bf0f700dc57bd8d3079e9a6a47c8331660e4),
(0x224295b37fa1b4a0d7d7f7a102113b21291f84fb8fa4b746bab925d593bd262c, 0x0d60ac40b1e4b0da7563eb74c222660a46ed388ec4517ddcea2962b938195796),
(0x2434eae6a34ec53e07c031b29e74354ed6101ca0f228055e53b39a6b5453b0e3, 0x2ff5ed61d57a04bb138f395633a20e608b04f7756476d0ed6ce7a382743ce23d),
(0x448de592907c1113bdb04c649fb22b05ef2e6ab636d0a03b700a587189885ce9, 0xd7aacffd6ab35068debe6dea25b0293063af8b10d45928803d0421cca879eabc),
(0x8405cf735aef76747feb92e701aa3ba0defc0a1cc1da698f7c2a37186393dd76, 0x5795d00649cd10a04a661c783f4a871189c9ef2fba86853fc7955258e6c407f2),
(0x698974c1e5c1487dfe9349aa0371eb869318accd072c66d5581211cd6e08efc9, 0x37c2238cdc8f4bf51f76536c2ab9af61bcec872abb84ce1590bc1c0fef84509c),
(0x8a37857abe3cabc67197781df315f78be6548c611b846d8dce2e5732643fee05, 0x29882f6809154cd07e455e4d9e3866d45e28e99b21dde0b78b87698b4cf674ed),
(0xa871b34f5cdd39fe13104c9687a8a71725ec8cdf0fa60846793bce032397eaef, 0x84f964179de103c09f7e2dc686c9213c642312de8de6cc5df3ffd7a2c387cb28),
(0x49bcafb89f78a7f5a8857905e99e74ac9ec66ec7aeab8fb4fd964ce68286f44a, 0xe7db8ccb5641ab74a791d2ca7bd193ea71124a612716d94f4eae407ced9eff6f),
(0xd5c7d92f2f05c9e58f586289dffe849940d9b84b79feb686c3f71300f68b6df6, 0xa68b2a5c219ea38ea04b272ce1cf42bb6fcb2b2bfce360434f1802af1d51c08e),
(0x2ac2fe3cfea4cd7b9c74a249cb0c8ed06a825cbe2826c56cfe4a8db53b286696, 0x7d90a659b008a51eca2f6031c6ca6078505bb46cf00a3834a67e78040b60f43f),
(0x7c09acbc62827ecf4f63a85f5a0eda7a5b0069efb03b51d92f61c5aa10a39234, 0xe07d2539c29128c5685f864145fdc318854b56f20962b0015a96c68869624836),
(0xe886dd567e1b42e769941ae713b2fad33bb4ff0234a27a7f2c496bbf6ffbf9f0, 0xd4b2277babeef80f371c097f0df4e5de5a4666f3c630b01081d1172dc667a877),
(0xedf65cc800e83983c5a178f0ff60bb1b8ca8a6e585344464073a199d0059c2dc, 0xa2426713f0c5309f84a4710a2de1cdfb0118a4db1070d23a92c7624489ab2d5e),
(0x29c12f04b78a6ebb9356dbbe5b152323435ad7bba3d2d036a746af6ed26d17f8, 0x08399275bf6211aa78ea211f39ec451ab3336d27fa0599358b7fcece216eae4a),
(0xd5db8b8c280e9914f0a034ac3e0f9fcf169f20464a618789994f8a796663c3e2, 0x41163c3a085a0039f5e5635a819941f798f27078aa65ecbbeb60d577c263412b),
(0x990a4fa5630eb00d958e57ac8bb4f7fe10e1055ac547d1657000a17cd9135f8d, 0xf25ee025491fa289446a036468c71217eb252414f8fcf2912ecb23d74bc9653b),
(0xd784ecf01c7849dcec901c3b3315cf534e3049ecc68d71b741637b579e9c0935, 0x5de98d22cc382aedd8c82a841ec6fd463067200808567dde6b2d64fb6b4205ce)]

/-- secp256k1_pre_g[1024..1535] in pieces of 64 entries -/
def g02 : List (List (Nat × Nat)) := [g02_0, g02_1, g02_2, g02_3, g02_4, g02_5, g02_6, g02_7]

end Secp.Model.PreG
