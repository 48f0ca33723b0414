/-!
Generated from /repo/src/precomputed_ecmult.c:11332-11843: entries 3072 to 3583 of
`secp256k1_pre_g_128`, as pairs (x, y).
-/

namespace Secp.Model.PreG

/-- secp256k1_pre_g_128[3072..3135], /repo/src/precomputed_ecmult.c:11332-11395 -/
def h06_0 : List (Nat × Nat) := [
(0xb1bb1ecc9543516904ab6fe07341efbafde9279b1eb78a222bd3947233a0eb02, 0xdf523f5b525342e2c0cdbf0a671e0c954b149084de4c61d55a7bfab4c81689a8),
(0xb5cc30dc86d04ed588539ea7e437391e3b0891e76818c4701803de7d640b5dce, 0xf1cc0d9e45c7312d0fb1acc862e03f289f55561dfffe4b65ca41e62f42d4ec14),
(0xde2b49e705f0ff5328155b3ea7d5941c8cacee2351fe16b0da8e940f9263ccb6, 0x34d7a42bb12dbf67b0d7c680178154ae4690d5b5703572ab74b4d93f6d8de99f),
(0x8b18f4e7c129e1170e89840465870cfcea5c0db0ef2ef11ad515f3ce57cc8f51, 0x6b1e1086c8674a593c5e9d6cdc8edcb372281c27e6b2caff8842e00899111f37),
(0x727162c027cec888918e46f1762a830d822ce424b6a5f442f9e582a917c86889, 0xde3482961452a369e6fde5af693e524724865623cc516e7e8416f38a2f223cca),
(0x4ae4fc1f4dd17483f18eb9b81c2494be946a75fca3f616056d0856b73505058c, 0xd87e7812e901fc17da034a05bd87847059999b36e2c617a39ae469210f2563e7),
(0xe90bc9ace9e873fe91826f0166affd0272007bba4ef690bf58b152065ff43cd1, 0x4bc820e89acdfd6851c9b0c0065b9bfd47f0762cd2e56d58905e63604564fa87),
(0xba0ae6a1db432fb6f7a1af7dbe9ef74608340ba57f0510209af4076df51450ba, 0x7d3839b7040994201729894c51a2c30b51019a18c32ea908c58876af912be720),
(0x70661b81f77c65311d98b403ed7b97d74f9682bf2981fa5def882022d3accfeb, 0x9022b97318959f4d9ae4bd7cfb06fe667b4eeb925f46677e4e5bc4e4a6d06387),
(0xfe1b7b4728153a0711f81b817d9efa3829451c158d1f11d80e5e0922fc471a47, 0x95a075cc68cfb7c6fb115dc05e4c31aa85725bdf2344dfae19c8a034d2b0f847),
(0x8acf3bd2bbaea90728013d04f27e3a5c4325bc37ec5c5e867ab70f7e9acc3fc0, 0xf679e3fb36da27d4f29c06a25951f80db3e2e0efdbe2c785ee1486573e16174e),
(0x1d855d3725fc7d5ab87fc6a47f62ba7cd2db01d10ca0f14f1d6ea8d84af395e3, 0xceb263ac2d41654ed4655183f6268c5d9b0a9ad0da8912a5815dc8d3020b1b90),
(0x1abb456630c24ce3c84ec6f6d70d19b7099344980451f02e03926d70592a8cba, 0x4627706f6be87fd72ad886ef732454521778d29341229863f4b1954874525885),
(0x1b4790fa672c12ff965d07e244a3f30b620e5c664b098a5fb86f2bea93eac036, 0xeed050fca758e2d1f2a2a9a06b8391fd7c19fd709c9e12831b018d24e7edd60e),
(0x61878b2cfc9cc88e30ddcfc12561367b44c106a021e3dc98a433732a68de3dd3, 0xfa2454a0037c279d1b54cb77498a9efbafc6f50b6b13e29d436000df1eaed78e),
(0x84048df02767feb17bcc21ecf4502238abc7271a931730b53354010a8544308a, 0xd4712e4a39d608e5d47f9814f7763c6e605accaa438ccb7c838c88ece993c32f),
(0xeb7ac4e56c96175ec3f1e1e037e89f958ba37d0ca88055cf889bac33ca683a94, 0x4941e2672ccc274b6d8bfe07513dfc6fcc07de332f5170112bc3814f5e85da8a),
(0x48a36ac9877d4bdab62b452ba0288dc14cbce4553809feaf1a4195af22142e91, 0xe24d6d8a012562886c6d884804e950d827eec39c21ff6e2530b50ebaab69659c),
(0x9c3125d05a62a25d7869af3b1b23a00ee817b664c82d2a912522ce16bccca1b5, 0xc6ecda10f6707168184172774e18f5f5385663615506b450a189b6bd39e5afe3),
(0x33e81e21dcc7670dc7f3843e04dc8be310160bed49af116bc2ca91e690f80d68, 0xe694c1d3a0a386d2e6df11678efe38ae9ce417e89ec05bb8fa59290655757b6f),
(0x9543769e6899e0fcbfeb1071509598275c1d0d4b8a68f056d8e1c0331b6a1ad2, 0x0700cffdafc584107635f14872ed1ceb01c4be867f668b163f579534ec9b0d7e),
(0x4f41ccd173e62c397d481e6e5b50807e6ca9b163e21dc203a0d508267439efdd, 0xfbf98ed6aa8c1972d88b309bab74b2548fea56bfe158d1eed95ce77d0c69f79d),
(0x4cfb6a45584b00dfbe3fd9c338eebc28a667fe6a4651bbd9064ecf20645f12e5, 0x2ddfd6dafe080e87470fac21d1255900219638a25e72b12f5501921af614652b),
(0x9efb8becd9bba33ca5e217fd8fae533b8e536bc91817f9821f21775775eca626, 0x661300ed0529c15e918bcf9c1a7dc3e18e3573b8875e2f8e9440f8cab0658fb4),
(0xc2a809525be7e4c0b85ab953ebe6dc5cf5d3c0f9e850e470da9e61dae430e441, 0x1d2ded36bf72697c7da6fa221c09fbc36be06363d50d277b4839c4ef809d9d2d),
(0x42b7ff6b49ae822bf5a162764c620b132501a1b401bf830c0a242e023bbaa707, 0xe41fe05883f0e400712de994dcbb5a38fb2c75950c5ea8b0eb90a23682b71d6d),
(0xee0bb129d420b6412afe151855f78f39e00cc3b47ee3b86df781f0e2abb0c28c, 0xf71d0e7a5a4fa24767c6204b60edbadd54b1745554ae9099258343eb5c0aec61),
(0x1f1d8a079cdb3bf52671a716026c503c77546ce42a252e789ca487c078ef5b9a, 0xc611130dae55512dea8e8e6f9fbc3064180ee4aa63d1dcfc5c39e98d97571c20),
(0x5bda9c06ecdc9fb15926ebe55418f0167cf3136e5f9317b8b2912fecd2a31310, 0x358ffb70dce1260c80fe59d5b72eadb389076168a17b63feb728dc28045ecad7),
(0xc32f6503fa50c72766652dec8e0efd71edc7897348061be91f847544df866ea6, 0x67234a267a13ecc407b09443cb13f0b06a34af2a20b808566deb9c7101fca304),
(0x5483d511b71feb0670e6c83f29612640849bb673896bb069941cdea89489caed, 0xa09a6a62d323343740adf0f38d8e4ddf494d53507944becfbfed3927d88c1148),
(0x3d2d8f5ff0b86ab91ecb93425a6cc246d5e3c6fd9c43d0472d5189580ea322ef, 0x4188348b4c23ce051879cf4ab71d7608fb45d7eca184c509c739f364d955b830),
(0x3a5c393929ed67805fdffa9df936bc10735ddf03aab89e9e40b4757421af1dc0, 0x760b1919767529162ac2a7de22975c8344dcd52ba945c81e0dd8224e90a7011d),
(0xa3d522ac7c1cc06e3ef9272efe24a0c4648869483373df900e5dd484d4590a83, 0x6f53ba2cb739dd61219684a95000169728c377c6930547955661f2c4ee1b6be2),
(0xef0b0931139920184407858362e02aa2c1437d87ddb95d4236751445d8e8180f, 0x73bf44078d1847727d0408cdf92f8c742173520a419719801b9c842b9486c634),
(0x8140effd1498ceb9c2211899161185a6a770c15cd1ca3e070f26f40c6d15da20, 0x4c74f3df6d2db7f1be68b7eb2162f03b051c11020a02dc3e45fc49fd0022a474),
(0x3445d7208e089f1f93d32f4d3fd6fd657603c7f000378b74215a59bcebe122f0, 0x6d41035dfdb54ef33a3c8626f036e1a238da0637e82953d4b63e23a4890b6d5b),
(0xe14b2a5a6235369a1d1933f97124cde1789a366d5fe6ab9c72c23d43f7a58cd7, 0x216f06c52f63c1026cafe6ce58a9e589d67a9f19625513be44744d0bf9fc8f8f),
(0x6d9640bc8389bc44fcd0b2b33c088170eec9310667348deaf8f3e92e2d891e0b, 0x4b4c14856e42db649fe04759a42887fc68b5d4b08161b31a1852bc417d04227d),
(0x272f14045c461f213f67cc60d7c03b1afd028a05b9e0632462a0afcefd9b2916, 0x98635ec0c0b235380a63f78d800eb0dffd6b758331544b1e825cd433ab348416),
(0xa8c99928eaae745a631250becde1ce3a4152334ede916257681329ee1f3a07e3, 0x4ccc2686abdf3f7e8e1149aa5162fed124ae51b7e61e46209f5cd611e7351621),
(0xfb024b337f93d565899be6869b1e4c811c660d500fd31ceffac38600d8975409, 0x339686b78bff3c957e8730c39457966fee562ca289d95e127b072f47c4c7fdb0),
(0xe0e48547aa613549773ecfe3691b84d8a6cb14f9ce4494f23518705728562f9c, 0x60b6dd8b56407580527488389396004b778609f869f47676a6d76eefdca7b307),
(0xbd6c402d378b8b5309f74d29605e1b0bed9e383ddfec21698076ef59125d16e4, 0xcc3aac9cbb761c7b3776a8f8c8c6d2c2a276924b79510f1075521b229def2c24),
(0xe6919231eefa4f44144e2c554f695235d5886cbde150aef552c217ac05e451c0, 0xe74ee1d4d34d2612b4d56133c2a11cfd73a888fc6927f46bc2aba9ac63b1cfa7),
(0x1a9acc6a2a4878744d92ac5a328bdb3a037c481e8c145463f9cba4a1a03d03a9, 0x0ba6069a960e3628fae2242247fe1f5edf71fc81b49b5ca126a7c588fdf0fb10),
(0x5b52bba92e5fe301f2c4e93952db99b8abfde6423d6da8d536ccef4cf6070910, 0x108ddbdd901e227d118c68f0a71aed0acc1ab1b02fe74341f546ede5b747ae29),
(0x92c137601ebe82a9b11a096a73be28280652b0a4d7f9a2860f1338a6b1e05242, 0x2e3e93fc2dc6d0fa5d43dd5785f6c79a51a588bdd14e027559fac06c0a449d7c),
(0x3cb6f8da79964c1773a1c749e89542bd94b4f279f6061d69a12ffe5f1d4318b8, 0x42e4c1a8b4f45ad8dc23bd02faee295672a777716e6b1d54d05ba4136bb11956),
(0x5fed6351d34518dd111a5110050de0e53c60a14d9a80183f664151450bdbf5db, 0x6b79a590de07a4d0b74140b649bd8375da77e01e295e76cd056a65887746c3f6),
(0x2b88f0a781c384f2b7c245d37c061128a14132b1fd0fb56e7d3193e3d95d3840, 0xf787e7a211446e57655b6453c2244974c1632bb94838a981bd4873f889a0e10e),
(0xc7b247b15a3f55fb35b0ac3e1da3671918507f94e988efd2047bb02d83293443, 0x4ab4043734c65f11236b6ac8bc27c548c3c8e5f664f3cb6799e7b8d06db85f4f),
(0xddfda9338dcb948105c08a2012c137e045df69d2121d45344c6aa375e03647dd, 0xe95f79fd02a116bd5972e93ac58712d095f91255a46fa091bbcbfe5b57795c1b),
(0xdc8da6455084b1056c7e3233b247e87e9d15a6b6677f8c29da04fefa371da7db, 0xc2a345a3fde3ec03f6a07fea08bd76858fc66d286637cc8093132048441449c3),
(0xf53f3b26c5fcbfa8f1263bc7a6439056a31547cd3a8c795b8e355482d1ff5333, 0x0113ed45e664b9ca98d88f1da17c4fb35249e8ec7998b1d1bb68be3ae6716ac1),
(0x648d23fd0c6d4b5e4ee1d6477d969df67d7546869313ba391d89dc90b646cae9, 0xd035e045239375d34e6ffbd4bae0697c9b3364540326120615edbe2803e18962),
(0x92e6dd0e5dbe580f82473f3edd70b343bd51bde2b1ca91cb1c483fe13c2839b1, 0xcd90dffea5447bd2592d1a465a09b391a61ab01ea10c92015ddf4614b39577a5),
(0x1315e58a7616ef8cfa223ec549415a54eaec05836be6fb782ef4ee60f49f687b, 0x729e0100802d60cbc54e1fa45dac72aa2fe189a1737da80f1ac58426d7e1431c),
(0x3c8a97999857fd850e26b284a3554e5186b001d5e6d075e6c9402148ab3e2a3b, 0x464f0492acc720a559487b3d60502067a722e915a10412f6d6c69dbd28b25977),
(0xea417230cc94c5f4436b37cae6f9ace10bf3c7f8ff03c879f862ea76127591c8, 0x961238cb8d95d50bbaccff1eb9cd40406f4ec4757026b3ace916067d85a4faa6),
(0x8eccf9c2f271079e329a8c8162c98af748496ca0b0c5840bceb19a15361a6ceb, 0x3e259a19165bf1aa630c6a7c52f37b29c8ac5239a132fa5b0b53d687b17e56af),
(0x32f0fc83b3503a596873c34ab54eb6aa7bf3d913842cd55677f398b54f0f296d, 0xd4736d6d906f78b762eda3459cb5f7b0311e50adcc9a1e26655d8ca2fb81a811),
(0xb7d6311077c83a8fa43c171da5ff7cbfe4fa4cc0b2614a9f63831836e0d7accb, 0x6095f64056441552a8ac27ef9c1eba648b84a5b4c19237e35e285ebd796be9de),
(0xef6c904a22df4fb0a54cd74e6563e56d0588b4f8d6926cf06c32694bbe536954, 0x308910b144cd37a4e5bc3d3c43715e22aa7a0492e0e9cc9fb1095a22065dbaa4)]

/-- secp256k1_pre_g_128[3136..3199], /repo/src/precomputed_ecmult.c:11396-11459 -/
def h06_1 : List (Nat × Nat) := [
(0x19e13bd1e62825bcacceebf0b48e17fab375241e6eaaae270672d7ab22941a6a, 0x6f22c32907005bc1155308bbdbf8ccc2855ea666e4af3bbad3e3c90c28b613f7),
(0x57d9bcdf10f2f79079349ae45f2980b09a98a7abd792a5df967b7b111c8e9420, 0xbf665de1d9b7854de34f8fcb1cc027b142ebfdf5bfe4e65eb5068a729a65db68),
(0x37bc66857c3d5e8b0878874e3d1ed324bb530a21f13d057e4e3f87ae03df06b2, 0x15419bdc764db12ef12abbeac1ca7bbf77764abd72f5eec83a81c4524c998539),
(0x1b30c5d99ca5915133c012a596512c2cb572e11ca74121387f3658a9f9c2cec2, 0xdc42320b2a0dcd0c5404d84217af8c9c2344f75116a5d69101db05905ef39697),
(0x96831db3050c55acdd329f4f85ad4a5de6e89f2185b93e65b8db4e1fc1efd0bf, 0x86f43820fd03739ad0e75ef617072f2c82bd8bd5a1f8cef455e49ed9cfd47837),
(0xcd2f500faa1f04a558309f28f7acd542bce7999ea17cb79266b93cd544e3d8ad, 0x1f977080ddfceaee97c743c24815f79527dd1b0563ef009e92994046c8dd8c29),
(0x60392a7d237c9e27a3318ff9d3552928802f519e60a783e8ff32be174ad01c08, 0xeb7f3147df91d1f8d8994afbdf297c4488ae9e1c539fe065663d856f22893fdc),
(0xf6cf77ad0df6ab73020d68fb9f3c1d7fd8abb679179b3c90d22574f9fa37ee9a, 0x8ffa29c33587f7166b5d513b7df7631177e81eba1cf9b523280c778e2442ebd1),
(0x57c8015af542c514595b6f4ff11be2fc944a0ea2d26a4abd01807142da7cdf7a, 0xb67c779e80153cc67b6b32d33a3754dcffb692bfd16e3e3d2c9c673ea8b05da9),
(0x7fe08558ac184922ffbd5c51cae999312f58a17fbb643b4bfa1e419e6b4fe462, 0x7600477d8bbf58b536e7e9e4cd5958587268cb5d1599079e5a88fbe779ec7a11),
(0x2e16f56e73b39befd729b87a0d8e7c4e3d81095f58be177d87bd9f3edd517b75, 0x4ce271ef57323a0dbaac950e668f098177aa59f07a0211aa69b4e417375fcb7a),
(0xa4d4700d456d7802be781f666ca24a6849200de6d2dd97ad9c2eba6218ffdedb, 0xc099f86d0e7ba0f0e8f0e7628864a4d89124aae5af12f6d5efed434fc66e4532),
(0xb4764d5050119e3ea316c92191e57ae5a2327e74187f145dc048c199db3fc059, 0xe39be8facc2721293ec831ea9016a1884f1270704fa4f092c2f3d56a4798653c),
(0x3e686ba7d291abf0ced5b352e84fc696c29fe123aeb822355031931b0e7e2d0e, 0x7b35c0ab07cc3c81f84caf9a9321b9b85a889b0798c9eed88c7dc4c1a985d266),
(0xd7886f2d1d4c70efc5961e563312231758400105288d3346db49407cd24a46c5, 0xda645ee617c46024b2e25903d4d7dbabc5ef503f814f23e868d9404054b9efc8),
(0x7cbd23cc14654d405aa57ba71e375466cea867f2325db475d3a7990f0ba17a40, 0xeddce5af96e66db4b985541ee638ecea088d327fedd3703954ce5a1dd2dcbc51),
(0x54626185c279e1daeecea0a9233c219018f877bb58614a5c5d2b989417eb9795, 0x6507ed85dc8f84540bf967305cfc79198cfb07f0dc64b09d928d0b86e0e9b6f8),
(0xedcef1551cbec2ce2bedb20aaddabefa59e68cf9e220068189285c080563c32e, 0xade6714375592853c296ab45bcba4db4bed59efd9df68b33b03d7a3dbe753179),
(0xe027a953ff6ef9d3f27db47fbc91db7f6a30bc5cc834add99cf8d086023380cd, 0x1e6b244de18ad0208e52d174ac452a8162eafc80975872e4c7e362dacba2bbf5),
(0xa5006d68db98024254ea251f3787d52766dbf92caaa20960e17ac6f672e2b2d6, 0xa1938d7ee854dd5b94d98766c0f7472372d1e6df5cd6dbabfa63faa56a0b2b9c),
(0x327075f201a1fd9eda69adf732995919dbb020250ee504e03d5e50668427be11, 0x41a57eb1c32e94be948ee3356d855fa2611a4ec24519adf32deab3816bc4debb),
(0x97e1a5c666694bca6b10cdcd7e95f74b9c87ac04c623799ac1c7959f1a3363bd, 0x3cc9a48d1ec7561f7b72bb6c4d671c2556689498042546a948c9b927c8ab5e88),
(0x450fa640a7374dcfd11bce28f4eeb4abd0a2d8689f6fda047f790ed3b0c07a21, 0xeae88298dc17cfa1d482a1f170d1dd36aa35a56c7eba231fc4c3ca16efa77f4c),
(0xf5aa7340fc0a66a12da09ce1f4094240d81fad9187e944a8a7a1ef4b9e0a6559, 0x1255b3da9ef992f1c62e7738f84dba74899d98109db522e349ad9fc72aeb5017),
(0x0690096555197836a7b2384197fbd75a8857ac8a8b14ec8c90cc94a78a42f1b4, 0x1dc181d2038c976db46271072be05f32952b5bb4e9ef47100f1bad8c171b027b),
(0x2b1aa05a8ed841367e99f377bc3760c3bc3bc0f933555e878ff2d212c3f290aa, 0x47b25af41eb8bc31915f589657f368bc35e9000acbdd0a417b267e58cc13e280),
(0xa4e6b69ca18caff0d993540d3005e5db454b1e39d4c81a7ab5315d25d052d81d, 0x7cff21039c587904a42d78edc2e7a6ecdf4fcb2117c8982236fadc01a15d70c5),
(0xab44bb96c74fca4b3e39cb0fd9dd7795f728e1b280a7cfa17a36916fb39d2582, 0x59d91ba4519fd8cc9e773febb19159677edc0dd81e794ab7cb76a2c99026f5c1),
(0x83b0c85b3fb9c3e48c96a31ae5442288934729755d42fcc7715dbc239de332a2, 0xe99f5640fb620582fd833b342f0868009652d7392d6494b1e36d301f35a6da6e),
(0xea45313e624ecf81676911ee0500bc0fe5bd10f440e0478841eb215aef954537, 0x4ab8b00ce2359cce203bde53b9e8a454d5afb1014d0b644e81ad13136c0c7445),
(0x936c10e4af823d969f7f7a2698c927cbae6d609e37cf7412ac4cea1f51a3cd4e, 0x46f72bbb10dd850b8e3e5bdcf0359f6cbdb9067b013d2b60bf68e8dfb17b7213),
(0x436a5d5b61aac3db392cf8e136a89b31847bb1165d1e296b36c90d60f2e9bfd6, 0xf81e688dae67cacc1978559c84a90f9e5e342bda0e73647e336556862f36d68d),
(0x9eb954273fe789a13a24b929e54f6262d931a4422e61867aabd84d8004b315d7, 0x38bfc1927dc0e64000820fba8effa82ad29f204afec11c60768f95a34d2ef59c),
(0x3826b6f587ecbc0acb6b4328a00f63e6ecb77a0d0bda277a0e6e4ba5fa280d8a, 0x0d9435fedcefe69b213e6eb9eda63f89db35e2938ba3d6e657232f043a4ef271),
(0xa348cd11ae0ea1be3f993bcf84364b9f4dbdceb8db3cca21cd0f8ca204a1dde2, 0x1fc851d3db7cfaf26a1c202f212b68a007078ebd6d6441e91d1d48841c83ac75),
(0xbfe15639237fdf3c4e67646d0724264e5d70d1e73cb702053c4e9a062bdf7329, 0x902b37e61ec5e59d9c3c09d1d7767483345488dce492e3adf12d04f92b5f88e4),
(0xe2fdb14d81a1b6f4d40dc346c82058212642ae102707e94414413cc9c03dfa5e, 0x3011b4ed846e85516c66925ae7676062131e37b29b00c4086c60a3e23488fceb),
(0xbbc659c68f47674817663659db4ac222cf1119eaac27c38a535ddec6913c7416, 0x1f8b6ee19fdb512afadd13a40d3fe13b48250120975b8c7a477982677954b954),
(0x65bd2a029866789bdbd6f743af85a789ce9141b6fd9ee056cef4de8da2505521, 0x32dbe0301cedb7bc5d5644a46c3e6c56990b184d710a770c6b65f39d3378f5a5),
(0x1ec0e6eb8382cf7c24d75a49fc0f3724e9318d909e05d406a3a5916b2278e981, 0xe50e129cf486bcafeac8ade3c697debefa56ac06337cd9fc240cfc2b3415715a),
(0x7390af1c203da2599e1aceb1ea101628c0399c9233658d9e10dcb10f63a9eb8c, 0x7d21549660647b09d7bcad451debe7d82c3adaa339bce418320e0df0977c3126),
(0x99a514697b913764783ff7f37099cc45127baf1ed8931eb2b4b71e816a1a533b, 0x49c0d00f7503770b0fcbd57dbae748fc809d21f08ea38d4c8a288063a7e2e8e4),
(0xe4d6e0b13b4804cc0cfb7dbfef1b7026320ba2e0c4fc98cbf12fad658a0394d9, 0xaeb0eaac73a006fe6a75ad203e0ce2fbaf5fc3dd81865b6c75075d363b761a41),
(0x488a4141507ce5eacb3e1c460ad23fb31a9aa0582b553459d885116e19fe1a04, 0x6bd6a066043ef8c74cdeaf25ead63b04e82f8073a5fd904f0d7235f4cf12bd12),
(0xc0ffe24ded0ca54d1ad1c2ffd2dfbac32cb65b47ca42e8c55d2c15d967babaa1, 0xd15cc63e29c54df219dbbba88df7011fa0a330e16756567dbbd7c6bd7e7e9289),
(0x336d9b0206c74e259dedd36dd8fc5ef131b05d0ff20bffb28305b923767780b1, 0x4aedacfc9886a707aebe6510e1bdb89f2b1b646101471fd1b055e7f5414e647b),
(0x98353eb98973a7be3bbd3711dc7b86e59a2a175ace8464a706aece2d02dcf04f, 0xa877fac227894a438f610887305e1c128e45b4a43d6c596d9807461faaee767e),
(0xcdc35e1c17fff9df63639cecb54fcb0a71c9fb77c38eb9053f37c36136da1e61, 0xa8ccb6bafe917260df64f0ccdc14a31c87ae559d7d6297782bb9b6689494eace),
(0x912cb1c15e62a0b27145840939c06f155d7407ec526ccb5b5159a93480111941, 0x584c14d51723c447cd0cecc86c70dda66fa710b98348f5adbf4bd58737049bf6),
(0x2145e17c7c1e8acd99eec6e2cff40341ffd195689800d02b5ddce693c3bff3bc, 0x3b8a71a240c0b37395b0e9b899da7baca5c43088afafeb68957bff4f7636356f),
(0xe4a093367e8772722224f7e1d03cdc8543e0910a20bfc4ab3aa2ea948d0b1692, 0x24b1ec3133146f038eeb8315afa6e34e898f48dcaf7d0f80328155f7c2cf846e),
(0xfdf526dd464d459bb7f387ed464028752b1390d84006ebb0f579b36cd328db40, 0x4396e6c5679216d1dd2cf77661264ec59373269aa745c96314147c0de53a3987),
(0x06c85c16b3e37273509933ebcaddf3f652ca4c494e751da4fab5bfb4ec729f86, 0x9b530fc8520b807e5e649040c5de9929e592ce991b9f9cf121766f16eb648d6f),
(0x4fbfae3c596ee2c010c98ce4bde00cfb004e7da225583203feb0c7912ce28e58, 0xfecf0504ed0e364b95edcfdcff50fd62396b8a6583bc17993e73557eda6ff099),
(0x9bcc3b7b801711793b683c2b90e9c81197c1d7bbd3c281fa1503513e0778bab8, 0xda2eac92878289d1a77825ab9859baa3a887f009d7d8be9f3b70b91741bc0b43),
(0x4415a0400e70a3b3f5a95695672d1314855b0a263b5e3c8a024e02f96b635150, 0xd8a53b8fcf55a9f881e9216039afd5c56843ac5639f3223ec58a5869da3986be),
(0x55e759c9cdafbcf6a38988fcbe203839b617b5362d5370924d2084b7045b2341, 0x4a6933eaca8a3405899524834a2315853c1191b742eb95d6cf7f82aff931bb95),
(0x21021f25bee23c2f0a57e072bdc83e098d115358adbde4b95ed634885540e9c8, 0x9aef5691a7700eff7c42c98f8dc822a34ed8dc1c7f8648d4ba5bfe3cf9a8c9f0),
(0x2b4e311ddded1affedff3c6410d40b8ac70771ef6904e4a7a28c7982cdb376d1, 0x145c30f56b255b070fe43d02b57f5b9648b25dd36c792575d20ac730d709b05c),
(0x5190b21c7e166100c90dbf5be05d25b65ed91caf904b091e8b98b5f45d5378b3, 0xb83cce471fbdc5f8b50e3f268be0d5401826d26c216c116604040b4a66650073),
(0x2b211ee454c65c0b3647c7b28760818988b1b00977d016ae1f2f4030545b56f7, 0x7574395917d8fc1d571a256347a61288fff74669b863f506f9b70ddd76854f5c),
(0xcb30b792b41e0aee3478ec37ff6ba66fa3caad4f9418e1b6d4af94aee64134d4, 0x45571adecb3a9f4b922b8b4ec0d1c7289142300ddaeb08e771b1aab6228358c5),
(0xf4e437a8d2fcaa16e9749d07089be67be46879527eea12e065c3cd3204e4bc6c, 0xfb52d28b7e81ae8a30de51f8bdd0ee288e7647fc392249c43449e62a77ba97c4),
(0xa0a676a76a2a19b3bc6a726c193d9df8ce85a94bcb678080545c53cddf50d518, 0x647fe8c6b1b7bd210b9816e5aae4070041198d68a3c9bfe8e437fc888f190a71)]

/-- secp256k1_pre_g_128[3200..3263], /repo/src/precomputed_ecmult.c:11460-11523 -/
def h06_2 : List (Nat × Nat) := [
(0x15dd4fead7f39428b10544ab1eaeeee675a2ba5d15d8971c7860a5bbb7ff7b7e, 0x89955ddd5fab21547d2313427b7322d253924d1f1b1fa9618442c4719c38445c),
(0xa806b80040294b476377a188ed74dd9f01bdea3ff72cd2b8850f6321930ca522, 0x4b6d736547d8b1af697f1fa88ab3bb8653e49aac618910db9c6bedc8deb97213),
(0x41e3723dca0864877a36ff9f6e431ee858a983acf3c0406df31ba3f55b9f148b, 0x8ab166caf27c58d01a80b136dcda9fd22753c52cdffca0079139481d3b8392e4),
(0x63b8a0f278558c89d9ba3e5870946615690e0447f8d4c953ea00bca865bba3c4, 0x321fad4185eb8b4953a95da00f004c808c09b297728b3a0c2d300b3243cf787f),
(0x062beb7faa8b0d3a505cae5f82229a61c1ca21dad2ff856c8942a9a9b14c5963, 0xe3d9ccbd7120c27f5cd8865503efdc43a36f4c022f5b70451ac9d7bf56bffd4b),
(0xb75a180af524b89ebe5d79a9092f0313bc133fcf3cb2d99ac65f2c481bd20427, 0xe7855056b11cc054d37094b41e62dfb36a636964633eed48c39b82254a1d2747),
(0x4e5bbf6d5298fc7697ddf9cbe4d063a26b51f93ceef032f2f03eed04fe4949e9, 0x6670268640cd9dc654514a19ecd809301871fbbe99254119476e44e316a12188),
(0xa9778c3df509f0693baedb836d5fc1aab78e86e6dcb61200074bf6df0c173237, 0x33a9c99186a0f91395fa0e50d0a85d659230a41c8c0be5d690ee013f29d0cab7),
(0xf1b3aaad16664be7c49790bc1a4936ac757fb3e726ccbc95cdb7bb63cf570449, 0xd1dfe1cbea3fdc103f218398146267820064342624d3aa3a52b0fb4a7460cc06),
(0xd66cfd3ab015d5856a436ad6a4cf019d9563a05caf4ce2d06988a4c59349f598, 0x5ea179b6d097d9e5663b73056db940f8d8e91bbefb951756d07cf6fa111efc4d),
(0xa532a4f0924b5d13bef0f30aa982edfd5d87a16f2c0d8470ea8fe3bcda0ac7aa, 0xc2e62c19ca4e34813cc3de70df50386f74fd1efaac6217ad5532a9271f8d5c1c),
(0xa9ab25125df78835ffbd08c09e07b63281ebb3ef3fe2fb3e1a3e5ff628439b70, 0x58ff55db56e015aa9aa43698acc35df1f2eaadb54e950c7e3501a5b585877514),
(0xce058f8490813decc184dc830915c6d553df174a41ed6521f2cff46c460466eb, 0x414d38c45881741405a815a784f4f71a2823774197b37d47c7646b2f8af3e745),
(0x991fab6530a2b36aab385c7f31644de90afe92539db603d4737beaa96e406299, 0x2a29b57677c544bdf156dc9d44da01f45d373cfb7ada94df4f82af9fe48eed57),
(0xee6cc81fbd034eefcc84192105ab4817ddfdd2fea13f1e140e91c3f2af715d8e, 0xb8f79ffe48c3e96521c7358dea5cbc04df8fd847a97bca3f6893af3be386d8be),
(0x66a2d372d64266575544d5cc5141e00316ff2dfe813357a3c5daccda159c5ef2, 0xb57d2d6b91c6f48d389423b9af265e04780000d0598229a05bada3f74dbc8929),
(0x20a02dd9f697de3a15043e73fc7f36a37a5798e5acb4cac6adf5c6923a421da9, 0x1e6cf100d162361eaa6ab61e711e3dcaab4ab5382fcc6b9733836c30cdcf34f7),
(0xa0b8ca437818e81f6be98b154da253319f92b79a1ceda11092e3a303cb7bf552, 0x4541bcebf447d99050663ca110fce2da218508e648b630baa1abfe5a3d543be6),
(0x51714ead73dce4887e15c25fb5cba9cde0d5018ddb5b8ffb9e4174eb1cc52c63, 0x47b794a082ef561ebee272c7d66dd201a5c248319997709773b9141f9bdafebf),
(0x18ea27631fe4de073e7c41f6a9921e917da195a413417a2fba74ac2cd6451c59, 0x398a0b37fff6bba9b33e0428e8d7c93cd31b3b832e955e6b106aed50d64df316),
(0xe1d58b4fc39e1834a61ec341acfa985fc3d1f0a59d75b0cd0e8b905717c5a87e, 0x1b62ee0215fdfdec08fe2ab3bb7f99e5af82153a0dd9c7f2cf2992259c6b3c47),
(0x3979391730d3c1257dff5ba8eb253dc32c19c54111caf9a3bbdec3e7716c5a84, 0xd6a1fb50189f36d9912cded5c851da8cbe7b4ebd41c2a1e3f78aa4a7f5f18015),
(0x49b49e4b601b406d381dbf888b02519e1d57360b24f2aef15520f17a5b9ede88, 0xfcf3ccca02f2d7b359be7be1009e45a3a0a76e9cd0e42fadbff7e772f969a38d),
(0x2cd8190d0b42f36d20d88548f0ff17a1d64e38a12241e4c32bfdaa4528bdc871, 0xf729c369221414905aa84f45e5abfeae2fff780d2b16aa67077ef59b68259187),
(0x1fd0fb11173854662da0cb2cf1f9d19ab5b642ea45d1c6f2308086265e41025a, 0x3136a688fec60820abc7825d1c7012da94e928d6dbb6c08f5579181e469ce0e9),
(0xf08e5f3bd7f8b5be18648a0f5bd844e53f93d5bb120d387107de44407af3a141, 0x03dd87259067eae1cab61bdfcc94ea0dbf7ea1bcdf1d289fa526e15fd9902fac),
(0xa0033c06b997fa96373a046bb5c6bdd7a0584cf01feec5a5d3f5cab11c5ee207, 0xeed61931aacbe48d708c2cda2208d40c39a577b63d4ffa17d140a8dbc3e268b4),
(0x77deec0868bea671df01e29b117791a783ff8f704426bb1e1ea91b6e62c16f70, 0xb908a228ba8f73f63271ae7ef19f5e9cfcc1fe27c0a224b5dc426b005664861d),
(0x2fcded5ffe2f10ed1a1bd1fc63506b3d994a03c1c188d9605fd5aa1ba9aa72b1, 0x155bebf6f09a86f1d20d7c12e12a0c66b4df66284ff9d45d3fab7d7606bbefc6),
(0x1f0c0b2dfdf5e733abcadd0c9ba47c098667f8ff77c2a904c8310e20995db3ad, 0xbd711bcb84cef55f5139b7613326848970f6318285ccbe448efd7566577bc566),
(0x0b4a8544e7162c4460dbdf3c5edf654fd603fded4aa885ef465ea8f90a37dcf8, 0x53c04391b3f2e8b20032e27b2292cb3899f8ee6edbe1934c13938a3d203c62b2),
(0xdf0ebe82dcdeb73538f31cdfad307397d00a900c6d94221a9d85b0b72c5bd68c, 0xc3299639e7fe2e55447b869e3a4acf8b4a1d07e2d70701c68a2f473388decfb2),
(0xeb04b9b6d1c38c33e1eed101fd28f89ef9fd460e5b379576ec7c926703c101c0, 0x4f26d8497f47f80b2b13cab5782d6e9cf5ee75483974a4eb008d8f28f5e0ee9e),
(0x7bc9efe2197cc6ceac94b37a0cab98657db4ee0eea7b9cface9f71d0d3294334, 0xd931bcad52347906a941d9404b5b3a51ad8fb4931c15c9a37ff782da5da72013),
(0x8922d1e8f4bd52c64bd0c10c66a3e8b51321dc50cc964844e0a41ad3b73e0b9b, 0x2b643cf17d23e21e890e6abd3337dc5261c9eec6d5edc3182a02a7a34a41c431),
(0x42f2ede33a9312ed22f6a842ac46801f0139a7da77ca0e9acdc19d1af2ddcc72, 0x50d45bcc715c985cb9260edffdc8e342ab95360a6bf4776ac70e34978f26f99b),
(0x7bdc97201862feb2588792550726b5e4627549f292936ea2f3b270514d6761c6, 0x700eb72b7f77adf576e6f0bff840666065372ee40cad6269f1ca85412da4fa8c),
(0xb9b527a64bf549bf5e42e0d85228e1a1f79d1647d21023066b6d98e1746314cf, 0x8e1b34642a721f5b93a2a2b6802f30eae35b1539c6d84eb7499299aaaa0cd93f),
(0xb65de52934d4776501c2919293ce1177d187c431590d2d74978ac25875e3dda9, 0x3d6fcbe74ab9b5ceb3dc553513036457f0755509ecbd94ef324e36d63b9fa529),
(0x18eab6320608751eaf3604f6a3f05611a036edea3405aca5c2e66366ce7c6b9b, 0x89eb07bc9467111936e11f0579f91e6eccd4260524bd7dd99d12b365095074c5),
(0xa26110664a479643909a1606596d39dbc7502ee4a31b40a14eb1c60eead360d5, 0x4b45d74d880255763262d9fe3819821885721a81f323cac03e87f37275814901),
(0x789454b12c108537a019dc5835cf25c9c77ac0faf60019595da9435d3c08a8a7, 0x6bee870fed2859facbef43378a0bd7608841da03252687a2591ae0bfa5829041),
(0x1977c206fb4f65f011b683b9c2e0df95f81570f99f6625ed7cfe25d462791569, 0xde76dda3c22244aa95ff435e5a9ebe059dcc79b275d91de467de435ebf698479),
(0x891f0df7d259d53640fe60861ac34d7dec3b5ad4c3f56585189ac98665f4222f, 0xcc5e0bf70f538a2a1ee7a6011a8d6b0e5c3293ab0404257dba90ace91b2de219),
(0x8534bbf69262f81e5926c282f412b4d350169de03c5c5e55c80a937ffe99530b, 0xfbeee581e0bb07374cc764c0be5451e8f70cfc234d415cf9fb08e7eb557423b5),
(0xe5b6f56404e7dfd37474eafa354598d558fc897c0f0101989e44b07ea86f63fb, 0x4368bbfa68a83a8b76de7d98388807808e153cc90b380ad0b2c6ce266118da79),
(0xf9591a8b11c3e514983dc5e5507247a846e184f3b4e38e29f7c90d4e06c2b850, 0x423b64362361f587cca4e288a366a1fa957de393f29ff2a51fe97a0ad90ff6b5),
(0x3d3239d3252f5e9eef9eb617c96463797c99505957bc78212f2920b1ff72384c, 0x1c3e37b6fc9baface52798bf695eb4dfef860ee1a9b67df78f73ca9f22a2e57a),
(0xf40897234b574d7686a8e855408612a2a0a6ce61c1f14055201d5c67bcc5dfb8, 0x6b8283b73e72fc9154aaac242565a79fc3a62fa7602ffaf3c74532090c0a56a4),
(0xace076e7aea9c745f6be65f8498b8b4795058ed2b0413c64bc4b462a2e267ccf, 0x0b62c617377fa9e5eb72ed6dcaf353e2dc58f362a994520a31f1dac1168b97aa),
(0x70ccbba7408c60693230b848eadb1d1db4e63f33b4fdf6af29d6fc2d086ec161, 0xfc1cd9a046d30e60e4128677654a80ca5a4ff33871fbeec4d7782c7ba14d6959),
(0xe6e7a8b27c0c5b0c5ea58d3a4af5abc59e33fcb39970aede7a8de629e758d372, 0xd40d11c4c8c8b5a5d511fee2793e2c80b40df3a5c98bd7049a8db3e5c98d4a66),
(0xcdc495c7e0a02e68329495b719e2c4247910e9a50cff6739117b1d3223216346, 0x63664f6e9306c0acf29ddcd87f1df6ecd51fc68c6ce422f0559205b1681583d4),
(0x2784e89c2fd721e00022ba333b824dc1d0142f196f35ae4f825975d07a2fc5cc, 0x0ba58a66bdfa661d354232b9b25628f45a391e44f00841db4a335ef5dc3b8cf4),
(0xab699b62ebcb73802141dd83184ba3cf0c9118bff6af4d0b9b98ecdeb01a2390, 0x5e548210b71420f6c5d42547da0a7ccd2be0117b79847e71a609044a34766905),
(0x781ea7a567ffe37fb9fad6d396dd1eaa2209552a9835ae08dda3d4f0b75756ec, 0x3c76d87b46f63b97e4d481744ba664cc0403a507dacdf4b2af9505a0f2637256),
(0x75ab2d30dd5c0a82a5c04fe7b8fee5a3a0e1ce3be20b33fd39d0bd3ee374029c, 0xaaf46147fdb1393acb9f6f8e694c1cf730536efab5ef921a72215fcd61914b9f),
(0x294b669837303da96d23caea684ad56d08712433d11c7ced85a10cf808ddaff0, 0xaf4d7ef7feb73e9ea9407fa8b38bf1f1e5861bfc82f9cb4222fa64f79b46f7c1),
(0xd8676aea7433639fc9683b06bd97011cf290f6e91257ee55ea3c6e34b824c8d6, 0x710c887635d45545090f3e5cd6aac13309017b2ade71e30fd71a5b7197a7456d),
(0x5e4eca030d90f5ac2ac4771c6d86a458cee71427a93b7544fd8bee74161270d0, 0x44fe0143b970f8bfaffa6d6033628894a93bb4a4f48cbb9ff0caf0b740c97351),
(0x90152daa244fba85fe708f2129b55485265c3a3ddbc761dc157f125b8580097e, 0x1694d2c9200b8690b59fa3b28fc2f6138a6d392c48357939b943573983ef2cf7),
(0x67dd54f096f171c453fa953facbf2b9cdaf3a199732ee0f191fb3c908c5637b5, 0x5327db432d33676db65022365a338c625fd6c4a4536645dfb36279bc4ede74b1),
(0xc6496a838f95ff5765a0f144774cf5432e77045755efc790142df95fbb6c51ef, 0xcc0041d6604d1d7392d86f01d8b05b531177b51e3a38b8caca8267fcbcd752a2),
(0xe799d70a0b163bfd475e5e728810d9d2425bf4b69461e9ad933fdb6f68c11c74, 0xfc34745fe29bee3f9b0adcf7618c6d13e504449d1a272b215ef9fc1814ba8600)]

/-- secp256k1_pre_g_128[3264..3327], /repo/src/precomputed_ecmult.c:11524-11587 -/
def h06_3 : List (Nat × Nat) := [
(0x6d3c97b0151a90115032aa221183d82e820c8774c3dcd75acb6f45ac5d489d3b, 0x5aa8bd013d15d77b8f695d438cedd9ee64b57df9ee6723231c2cd5b14ad4749f),
(0x86e53e001c1e7de7419cf2d9a4c6a39bb96d8ec3a82f816545658eff0a517539, 0x0f8b1b70f2efecc0cedda52540663114c24491ac266df520ce475f01ab44ad86),
(0xa641c339ac877ccea9a3267a78edb33f075feb901f3c874347c5084352a9880a, 0xd88a6d4f2b275ac53c7dc101b7d69ca5407559c6afdc9009c34a72560f982163),
(0x3a0153a94d7782664581de436de31754b925aad54090cceb9e0135689d82511a, 0x00f6ca4894935c5a7a252df38ff06cf911154b0d9f0ac55e35a33d7a58802035),
(0xe78024e8a131c9ad40526b31d26e96f42c2e51d7c63f458c5bec2a61472b170f, 0xc540a14b1ad7b18f23493d9cedab65dd3a309204976408eaf197f6589f4e0c53),
(0x7858c85e8351f0ec740380fab19246687f05a161e2dd87cc7df13338a86a5162, 0xcad943445313a06fc382897e7c444d537e658e065a76fa60928d7e5b36a6de1c),
(0x06643e281c5bddd435a68c170965f334ddb9da8ad599a4b82f37147acb0263e6, 0x9f9f9e368ee1aa0b9bc8f928284968d56f2dc8fa6944ff36d728b588a72cf79b),
(0x5f36d937a286f14c96fe8f9e3ea05d56b3132523e9a135e7106592d6b9b2254b, 0x09d6377cc8265ff2dcebf753ef2fd39e9adb0e1c3c86acfc2e54648b9056310a),
(0x212eb1ae93d3a0aa5f626f26628503c2310f9172461ea12fb17677ebc63e2224, 0x51e57e33347f2016c738d9fdcf5282690bbc5afef5fd6fa51dfcfd474b6d1b67),
(0x526952c8940b9f9332848145203ce261dedb3b938e6f277e9a085d7735e9eab4, 0x8657cfa356df2aaf9a5fe2fd81804ff81d9aa58f143fa10952e4f4cd85a42918),
(0x20f1750def762812e4ba8778c953a2d10419e03cb97ab6ef8f98be074c1c099f, 0xd2fee9f53e7ad2a7fb20bf8816a1ec2dd9d97b4e5abc060ebd8e8b31bacd485e),
(0xe231a3b7ea011665c223cfb27f13c691dbc7f5e5efb66496da2936dcd67ee910, 0xaa645c2e18e80131f3e7316c7cdf13c345e4f602fb17011e96eb5fc0bf65d53f),
(0x7a4e4d523fd026dd3daeac35552e7299d01aa962687a02cbed7174b625c702ad, 0x351c12b6a7398e5aae4612044cd7c9a47d2bdfc11f941b8471eb3304fdb965d2),
(0xfd2f707e7696567067ca5a5ca0010c6f9a85896719a23eaa5574d1c6cbf137b3, 0xc45a430c1d5ae47331f9b1613ce55f41df00e2879e3bf8aa1ae75306f8315408),
(0xc506cc1e8cf2f4fce1011d676d3048776c2ac2a4f8265373f3f918d3f02bb89d, 0x8de6dfb374029b332fa47f6d1f7ba609bea33d6e2f58ef0c058641e2a5d3118a),
(0x2ea7ad02d9ccf99986ab901c3c9cde3cad1bb4d7d8f86eebb8204b75ab5c0369, 0x11222bd86d750302763648dddaf769472b213562494ebd9ce40031950eb0ed43),
(0xab8cc1923555e4e52f84b421ba2ac134f8a6023addfd279c4c338cd19e159c5c, 0x2c48e3bdcc268dbc23e9fbda6c4490795a5b54eb54ca8ff514d1f23f8751ee1a),
(0x88fec2e1cc7c41fa91b48e1c2a71089ac3778427f2cfce04c54af407f5dad430, 0xccb45e884f6966535fac7a049b035c26dce30666fb1fecf3c4b89deb8b3ed80b),
(0x404587ae1accf5d1b42c31272ea0cdce940522a1c64c757c011d3768774b0d41, 0xe8dcf25b25ae61f4f7368c369b351b3563401deb5ce55325f96a393fef0e787b),
(0x8a701eb9cadea8c08d0cf20ab275091528a377cfbc4d909751424d1a7eb9ab8a, 0x4f04598282a9ac70c3c76154ca98b5a1265e8b266f02d43a4549cdeacaba5a45),
(0xc2812978194009c29da141fdb108a4c366e15e06c6d6438929b2aa7889ad3d56, 0x85409efb6670e969a2834255dcb1e5469c9db5e76e549afa974936c8b75db5c1),
(0x9ffd36b1c810c84392bb04d190b82be00f8ea4b42baa61298adfb810071d72fe, 0x11e27a4ba11f0df81a42955ebfa9fe1a6f25fda46a65fd871caa3d6a01b38404),
(0xac4a0044bc92b017cad07210750eec6239e431475e3feb25f1c6f879a5a48b96, 0x41c7c3ba731002ff1e749853344c1f53f526bbbf457b4de2d5f88ce41eb8dfe1),
(0xc78b101c157ca920b3fc83bf9d19fc5f57d8086cd764e14224ae4e867b06eb5a, 0x1a8d2c6eb9d660fffaf5f533b4f3b8f6b7a9d7cd5c29c1d2deb37f19d38126c8),
(0xd08f3b05572348b95f3c1c2dbaedd921c24b0db8e6d17d13578e5ae877147cd2, 0x27b5fcde0a067cbb69ae3e5c90a385234987dfaf5dfe069691461e26762713cb),
(0x40ea043d5060f61eb81db0f1c7c5c1fc1091cf51c58084893d08c4b2a5e312f5, 0x2ef11ec42836302fe02719be259f1536043de03efb659f3084816a001d66b27c),
(0xf9d104bdfb53b4b2de8827b28242eba517db73f9dbb1eec39f184ad0358362e7, 0xd7644a0b6c3719482ba707b6d7d43f0a68f4e3c14af6f167296ccfcf4d771877),
(0xdd276aee14c348294e6132b409a05dacfea5f8a241712b6e5703778deff9ddc9, 0x09be617d5d92eec97fede65539690d0f4803f7602b74066b7bc98353a5ceb7ef),
(0x8522f839d5f17bd0c67d11f67f0db8db2104c7d7785252f4c8be84f061155d49, 0xb779195180311f8f6cb9b59cddca495ae01f3edd599f87773163a9595a3ea117),
(0x732802bdb4f3be8e0fc02a624614672a510491664bfce64eeb2030d8b6b5b225, 0x7bd4cdec590eee1d6a505f92cc0b25ced9022d62d1155f8e35a6ab7246a3c6f3),
(0x1b3641a12c4f835221e73276b8bdea15f5ffcbafc4496fc68fbdb5735967af62, 0x03d50ef5e5d12b7b2ede2e153b4cd01c0b824c3207a8e1cef0fd866d99664048),
(0xd3034e184e9284ffed6cbe60cb66d3910c897255dbbe8c852c79525d3f01a7ce, 0xb366630416ce50e72a094b0585f1ba1e11172ac4eeb353b48c4f8f99f9d09e25),
(0x8e7a8200bd22f5ef18fa446108f4f85a61c6db2aa3ad176d65c3270a69e9db17, 0x841fe3b51cce979bf87536edc71f4cd44a48247519b35ceadee4b3b1f3530568),
(0xfcccb4de29ab8671d1aaee2761421ae1c4af5f3d839009e85dab0b6560a4027e, 0xa0229f96203b89afd5b6ac069e977e71a6e269d4bea29c47fa6bd22e0f7f993b),
(0xe68cfd7f4435818084c681f0aead705b9e74a4761f99e5769252c007e44c8a26, 0xadd9c0a7b027e2ae42378d50cf0d0eb5712291618e9f13c1672121d2c428f82e),
(0x8b6f0fad4b81ac164866de7ac8bb325263bfe008b726e9a8072e04612c6891d8, 0x9bad6508a8d604b78088d328ca27fe1391493e8fa6291288092ecaedba4bc9ca),
(0x108a0caa37ac1949263178cf20674616470f894357a921ba8cfd499bd64b78b1, 0x68150d22be05956f5ffe302e1ff517c79b7c04526112b2a75a819f64a265bf55),
(0xfed183330844c5791d32daa83370a5c6ab8e13a52654a08b42940284c757edb6, 0x67bddf378395ab84eba29a976952ea34b1b52c2ed3f89e56f839c1ff36457fe5),
(0xbebfb39decd56cf350bed6f10a4cde24848b2d8423518da501fb2ee090170a2f, 0x1302b4b3bb86f88722925fbde146d94805acb2db0a61e75197dd40ca2ba11573),
(0x67135aed2a58d3b6c4470d3cb4da7b56af8d50579d28a86c9c67bf28181e716c, 0x97c40aab2786e3efdc8f3e778f37444630fa2f3f053eb0400194809c8efd6664),
(0xb00eb5bb09566e5acdb09dd414d6df03c3dea75e090db8b9c37928e54354f90e, 0x6d120e411cb6e674e9973aa63999af3accc3a670112c964d8aef93eee69b1258),
(0x721b1a6cbe8d2022f09db6d3ba39b2d923337592de9efbb8ecdf3384f3bb73a2, 0xcdb41b62631a0f47075ae1f2e94f80754acbb2e7950be0885b458c8e4a05310f),
(0xcb8d78ac015b12ca8dd47cde190c420e42f60b839489bf71d10a3e44df8a0837, 0x80be31a6a3073675e8cd3846cfb2e127abdc448b1081a2d5d177ccffea96dbc2),
(0x491cfbcc4919d884d23f3ae66d143e5537e5c52be2ee017a0afec7856c781920, 0x76321b5026283088d344d29cc4d9f2ec3ba714d4edc1bee62b17ecc456874189),
(0x06ca33ee4899226323aed33ff822303b8145d146c5ebc27cfb3700b36ab507b4, 0x96b73ab3f189d0641e0a20cfd09522bf8c376a0a9c9dbec644e3e8d2c0b11f4e),
(0x6d1fdfcb3c48971b6cbb33d3822cfa681bf602ef98160f8997ccaba819d842c7, 0x082bc7c4660882625e57c06296f04600fa555ac45596b76909c6d29ccfb1713f),
(0xa3e816991cf92f41a69ac3ca36b23796daeb533c3e1e9b55c88e3fa9fea43554, 0x87a6fa9be802467afa206b0b4540530965887df5786d20fa25e94832312855f1),
(0xfc84abd7cbfbc3294eac7438d50b2ac47f570e4f3f2ffab571f8c3e87dd49c70, 0x7447b269071356b0e59b3f1cd99b6416589f6c3ba566c75b6915377da7f73dd9),
(0xbeb232408fc515ba180d31252eca15a1af4e02a873a69769539824080355d1b1, 0x12fa480d6fa8a9aae5edeba931b765b0e2bbe6a105eb9e95b3bc343f519c1459),
(0x68891679cffad7f319a373d71bc025290a50e63b60434f13df7603641a99eb8e, 0x40b78db76db28aa2d2ea7c1e86d015037736ce962e6ec524da07b5b768772fb8),
(0x0ec435ad1ae7b040fde2f736e8fb5d53b42e2fcd428e9d96ed401ee2bb068817, 0x13bf6eaa1283436f4a828a8566c4f79526860c45d650fac244bbec8efc96f9f2),
(0x679f5afa661f688b7dfb7ce7f77e490460a755766216a49f374594d06bde3033, 0xff3fffd96c254fda558f14bfc8f05cb6c8fddd32a487d7094e0fb35c6f617ca1),
(0x9febd8ea05dc26e5fbf48aeb64307b211aa2fc02eceb6d68ba89a652f633be60, 0xc0867bc8ea6238a4ad36e785cbbc5e0f3fc5dc962c77899272be43648e630bee),
(0xd886b154c534b48edb6bed696dd8f9f10347b3811b593acfe2137c93600b1601, 0xa4cbc118aa07daa9c4e246c8efeaa3f7d74028c193b77964f10ab5d60f75d077),
(0xaf8ccbefc187a3a6083f6ab68ff217a1096a8e27dcec349ab7ee4a74446e9d47, 0x03ee327c998803927da5b625be554e6f1662a73325a8fdc4990716cf6be941f0),
(0x1e9800e7891c261ca3451d2244a54a8442d33458a997b3654a6198bc7dd3d26a, 0x322f8986bd6ffc0dd5f1a321e82e6b37978120c966f753bd5669a77365a215d4),
(0x115c62f29f0080095840dc97f3a90f30aae4ffa6a2d255e415d64c5677150044, 0x4d944c127e37ce5efd7660e01e4fdf0acceef95e8bc2da14a8fd7e32ead8af95),
(0x01cb9f9dacbf79ddb34d78e8e51225bf3f53135ff4282ba2598559682ae0178c, 0x8fd3a4e37a189bc9421595e20bcf234ed7b602d0855de84a50c68cb4bd1a4bf5),
(0x62a15bc463e4c1674bab2a5bdc991e39af86d258f9de770b66a79ee52fbfe357, 0xb78fca9fd9467e4d256da69fe6f45522d376fe41e8ebde9f9f7bde4b8ef52749),
(0x574a6ce05bf3194831570914a73bed4e6bd2c82a5a19dec454b11e935edf505e, 0xe7b2e2cccbd6f338f0ea60b8c1a9a50ed02dbaba8bb5cb789b281a975c001318),
(0x64c6e37ca3a361a4baf9cedad9ed24fdc5ae50ab560e63194adad1d5264084e6, 0xe6e42f5656b6b40409c54a07f35ae0044b7a480e8271c8d3f7996ed668116067),
(0x49065a97fe4a8de555646af8475607a771b27746ade7fb11553081074900fd84, 0x985d689f67a030909ab8eb43c7b2767c94e7217bfbb4334283485f1ad70ae7f9),
(0x6fd32ff9185790bd876a683b7e889f328500c91e7e5889aa44394caa330999cb, 0x12fe80841be1f25d7a93784e9c6bf01fefbd64938f1a678c64497a8c85d2de3b),
(0x4a67d4da48189c8e6ff34812f70948512d6d12c426fdc98b4ebb92b662d3b185, 0x58ea83f2f6e5b777737c668eefa71b8f3e50095d389a5540684cea517f8150f5)]

/-- secp256k1_pre_g_128[3328..3391], /repo/src/precomputed_ecmult.c:11588-11651 -/
def h06_4 : List (Nat × Nat) := [
(0xea1ac931d3a927705d20752db9adb464edecf4c595c20c85987e1beba79f4db2, 0xcf689b0e25aa960158316597b06fd91b426b575368a488309c3f6f346722b83e),
(0x8cb35a6e248a0527d572663f7abc99c961414af3f196c6c12de4dbf4dd545c5a, 0x4b32e4e047dacdb666edfc3fa08d500dc43292abf36bea7c4a3952e6680cfcfa),
(0x247c800cf150c2eacfef8dfbf458156084318684430788e3c8d99ccdd27f21c8, 0xcc82d8dc914fd1a0e626462f5829eb7ea708395ddb3e70a757942e851f1d0db6),
(0x6543d7c407fb927cfb0f35666103708e5e0c4a4ced202482c9f4864733426673, 0xe252b29a69b4ad75814ae0d1631ea75020bbc7303fdc819c88d8f3d47907ebab),
(0xc4f11255d81c33a3a09da4acaf5c9c16d5e759db2e1026c29b3556b4c388e6d0, 0xe2e636a81af48ab5814e5530e48f518d95379eab186e94f24fcd551d1ca8fd49),
(0xcf186a9d85da39b77383d92a14af5a05b082848fc9e605981bad8ef95e019eec, 0xcabde21bc860fe0853f672a1640109686b49f37e061cc64248f455bcb079e3fc),
(0xe6c3e353ad69dc13e595c2c7a88b8fd8fe9d1d473d45f7f6be9ae90386ea8f32, 0x7d3becc94f455c1d21610800a4985f3396b5a920d5ed2b5702107c28ac690be1),
(0x3827b3a39bcb554d54695dc6bcf22911d1ba01f7730d1c118d6a7b2ec1060988, 0x32413047b7c9ee831b818c5ecb8f4c10c800a362419227bfd9f50affca25a211),
(0xff37cd38a4b149a2a8dae898c40b0ef44b55ed8511b5413e48f5608dcc6d24fa, 0x5e6159198f4c66657c3a489b86853a95f3ffded520433ceca6832cacb9c49048),
(0xbdff4fc85b492fae1ef343229e83b751d9e53c7c455141def68d3e8a320ce509, 0xe8fd98649dcc5d666155088a29959e12531f8a4e44d70b8a43b4fde08bde3d20),
(0xfd6ba29c313ff2d57fb2719d9018f11ee59d100724146aef625a9b3c3bbcd0af, 0x187daf5e913310c3039f584b3196b8775018dbe81e38abf6de73e97df5c1079d),
(0xea3c422d48606929ef72ae1c3ac301784f4b5f781405fb621d0b710b1b29ff28, 0xe458b41ec6c3e06fc37637eefa316e25d10b377cef99aaf2564fef9233bf208c),
(0x465371334982d6008d228924f0b459b802ba8aedaf1b3c390f87053f487b3978, 0xfd96654c13189deff243bb29e2143dca3b2444da3b8957006bbff65a4dadf3f0),
(0xfda493f11226069aac76227f9f9e1051b5b29b4aa2d0f9dd996371768578d8f5, 0x5a33593df63d136df43a69d7f9803a62e04e55b525633a06d8eb86c7e1d46fa3),
(0x74fc42e95f09018a5468e2835ea36fee7ab5e757c57200cd0966174f39f3e4c1, 0xccaa0b403802c914da86204d45f8f5d73760e0754bfd10b32a8b2521218751f0),
(0x098cec4a997b79a00cb818da58e414770d98f8c28140fbafe118bb1aec483d53, 0x2fce605814945cd5367b82fa182c19d5ac422d9e0840eae4d81689ac7eaaec08),
(0xc742ddb789a5cbdc2055119f697fd575e4fa154096cc5fc13c2374b113cba60f, 0x9b0af12834a990e1d402474b0e6dbaa1b32248f4f2b1d68013fa0dea46f3532d),
(0xdba2e04f9a78066ab58979136c4c72245b5973d83b13819b77409fd1e791eb89, 0x347479223adb5f74168240e7a178f077aa0e90e0870456a889dfca5e633baf43),
(0x6d4cae436e5985867b984dcb6c2472b36cc47f860eb69fbf1069c69c42f6538d, 0xc7fb58c9f0c4f7cedd7c53c923efef52125c2b67d67f1cedb98bb1f3d5e0a84f),
(0x4c457f6ed5b67b055b664ed43bae291a9ec5b5396fd9410f9cc16a03b8523982, 0x492e5bcf20aae19f5462ed682a72827aa435f47fec218e988e91fed520f344eb),
(0x4d7e692234778a41f58033bfd74ae29551fd8ac3064cd8179cdd441fcb46eb3f, 0x756ec0b2ff5c9d3c3a45387917ada4bb6d7bbd07bd10d2ad0c092f46c62750c4),
(0x0ac5be5069bad479bdbc565eab74ef944a48399ca4af915cfefc47e307d464b2, 0x3246e3febc5810b637722c5469ce45d88bad5daa529b4381928b7cfade874345),
(0x7da88d4121350139bfe6a4812534b25a24f91e0b60d882d15d69e840da3995b2, 0x9888ad8d62a7a4f8700bb03cf97724326a2d092c98adbeb5cbc20348f0b9c587),
(0x389ff31a63239cd20c9aa3eb4d3ceb495d3b922b05d137d4e8b52be3b1abf149, 0xb0ec2a2fbc840bf28a22ab22b76c1485042f54ed5515ad49dc3c003738fe7c93),
(0xc1cc1acf5fb128b2ea65afaad3d5736ea94b2e498dfcf6f8f3c27a5d596c4370, 0x8903584d1986ad316cc6bf2daa2a88ccecfec6a9c1bb153b27c409e6934fd38e),
(0x399ace52b92768a2a4740be831c96c0402a34957e91b3cf98b3518b487c9aa3a, 0x908314b3abdb3a47a117ae095d609fa3fd9af1c3ca04a869786eb13448800005),
(0x069543fd8c9d01a5702d9859305a52b9470cc6060cadbc76d8283ba9ba06d0a2, 0xe998e7d9a0c372ed2e348f17b3298088404eb1c38a901d1b6f4e8a19731057df),
(0x2172d54fdf9b46ef5a1289a5872b1c28911e553cf703ad6d400b6af7e8200100, 0x2121b47d3b790e5e0c820df5772b226f34a8fbebf642b5d9edc189711b687a8c),
(0xf606f7e937a324e5d0e6847d24923965cc27133a10e43f286d45f7ce9d5e8b56, 0x70013fb8622a21e2d133794489324a13f5b8058091ca08d1a30e75713e86e007),
(0x9f1520c2dfceb64f1f432013b342af352f95bb2dd49aa14edfcd8e717c40fc99, 0xfe8fca26feb1f0048fa4fe3b764a907ed53dc0a4103081996cad54d3898e863d),
(0x6670af6e7587676eeb0674eb75c93d3853afe418cb28660518a9370a231eaa08, 0x2993ff5edfc071ee097fcee90bb12fd8fb59fccc524d853734ba4cee4beb09f3),
(0x15c6d58b345cc4bce4ca4e2fee954c2d40650a4ead6c952465f59a94b3898350, 0x0894c53b4727619665a0f3adf528d2c0221b12aa73df2cf3a6b0e778a363cf7f),
(0xbc4ab6bf60dbde42c9293ef175f85a48adfffd20960ea4548a91997775389621, 0xfe28a0ba24a4e2a745d6bb68ecd7193100791a7461549a4437a3476119040e42),
(0x5dab1c6323fbf2f6e495e87f1c703ba864f20e504007dc8054ef2e110d3e6ee1, 0x1fd0c200cf4460bdae6db4153e68bffbe7f01ac16b30e3059c134a8652695d93),
(0x2df1cd57d7357c447be28dbb0c339ceb5cea0bd8e702fbb2dd67c1896a8acaf2, 0x3319201120cbc8ddc3b9c03194db76f586eefa67995dd741492f425ae2f1b9e8),
(0x2d81ac175a02daf083100585ed2bac763d9f976415356fea0584ddef60d9ab8d, 0xf9908cd13b1785f578297fd49e6c26e421052e2cce9f51c9cd58183c2df9a0b7),
(0x1fac1762fb732e732440d40a5356eb1767b1e7f4f11e8db59ef90702437dc097, 0xedd5784ca58d51132b5a08ace75cb30d5ae7ce270129f1584df5d95a7b9b8729),
(0xd06a0b5b4694b90b80c93e884aa9086e45cabaf099b15a9cc2b1967838c8c98e, 0x4cad46ba2777b24fcd1b391b222ff3b114fcc8145f78ada498620cfb0747def3),
(0x4928df27590240f99907928acb6f0695870059b8cf9b1d6929b152b17de53445, 0xb773e60b655b3b0e7b0c400f37dc336b240b83cc286a8ac53dba751a3300d505),
(0xa61bcdf9cd5418114ba992617322827ff945d450c331ddda1b8639ff87a28390, 0x3e771d6ed6fdbb2854601b2b301fe24d8e61b370ebe644eeb40fe807b8d93a68),
(0x535a35b93e2fb7abb3b1228c000a79770fb8e34c107f093f9f641b1511db93c3, 0x2471ff355657cc8c38283fba27c2e3c292475fb5e8d52e96f0c9fec9b2ff786f),
(0xe68a652ce0140f29376888bbc6be70b0f23ad42ad10b8acfa5f790b4c465d4d0, 0x49d7390cc368060b3134ecb6dad52120ea6e0c7e0b80c94c06cf9c1d3c1a7385),
(0xe8939e7a74dfccd3ef17855c3ea20e99f5f05f6f08bc47576b4f0e9937e25fde, 0x6b48a73eff0a55b7c90c0fdf449e4c2b3773f454da2c388b3e0829fed661b173),
(0x496013ea31451874800fa2930a6e70ac7fe1648367c31dafbfd00faf48751543, 0xb57151118790556f8a4001cb282b3312581e1508b8537f656142e2f1ab8c4332),
(0x444735b0b1efc3a956957a0722604d09bb0f6c29e7cc520189ddc3c1804b1e1f, 0xb1ad60a3461abab3a9732a857050e55a3e9a439f32a5b21f9aebe4007e59d6e4),
(0x05805ac84acd7d5cf85a40e74b9c98c3e8882189e77aa475da3b41143ed9511c, 0xc952923bfbba533f7bd70dcf0d8d69b701ad00220aeae363bb48134d6a3c07c0),
(0x8ac1151830fdc7855e1c53a12b690202c12619bdc46c8898dcab77ef279a9501, 0x29fb7cc77867fa0e1d015493abfb2000d5deb3b8ddb3053ad59d6bd4a9ca4fa4),
(0xaa47add3e42998cb68fc8a7ccc7beff54d70226f22f41ec67bd7b4440aab542d, 0xcfa5ac81ebefd98c3af4f9e39f67459a4f8e8c4fc1959816f771e75cc43683e9),
(0xf3504127a27a14ee92133f75364922b7d3984898e433d3e419e88db9e599889a, 0xf1af9f7e9f9868a884ecdae547bcb88656c6d423a066b313c09cdf08601b45df),
(0x33730f44edcbe6883588707669a989a6272d3ce59261b98c7c6eeeed7e4bf08d, 0x3f833928d87716d04b2a32d81bd2d789b6fd057ecc70a7948605cbe6e1775a6b),
(0x3169d6dc8c06f584880bdf0729249cc0a33d417fbe1374786e5b4a143edfb0d6, 0x2a91422dec563839ba782f5968f428c8a311600c2fde77fcea163e86aa74ce5f),
(0xd8c64582013aae81cf07a64d5a8dc3ebc8c43a450d57f8e980cfccc6f02a4429, 0xc4873051968863ae8c92f195c9fee3b2c4773d47849e2a7be7f48c4a93822aea),
(0xae67101f307e246f7a7cb0395631b8847e59c8d814da3fe17891f69f402b6f11, 0xf5f2dbb4a90b09e8b96767afa9f9a3571d3900f97d8222aee411e1c711ed44cb),
(0xa9e8723183ba83381c0a7dc9c81a2c5eb4e2ff4382574f0c1a9d7f1481dbd8ee, 0x9681059990d90e33d69fb59bee68344f333153ac3d73a3354b7ddd6f96468901),
(0x616bf21c0ae7d40b2694f43aa33e6848694ef879fb5bc48dad141e34e43376f2, 0xbec18f832aa8a0ba832451153b5a4faa4a27725aa3d9e799bf05dc949880fc77),
(0x121e8335601f33d478a882b11e9be5bb39be47cf701a695f8d351098af3f5c2d, 0x2e99293318faa04b7d85fdfdcbff81df010dd0704485b659f682a2984d03b3e8),
(0xbf8847973025ca9c09413948fef1bc483a83cc284a90993325c8c97bb89f1141, 0x1953a3263d26d1d786d5ae3a7838d1256de247606abbb63f0e2713f66ead5386),
(0x7c28e9a65a3800f985c94d4bddc75cd0dd1b06e0faeda124e86600a56af811f0, 0xa3756db70e339f038914cedb707427b42d396fd6f2e43863134148638ab5c277),
(0xe5ec6dad45e62cf41ccb5bf6bb92387b46be079131bc2b9cb8b9317290a66077, 0xd0045ecc775703caf854bea4be3c4d212bacd0927a210eda67c33abae44f0e19),
(0x6fc96e1f92039545fb31c352544a59747036263e34d8e04358336169118c2fed, 0xd032de871571de8d96b0457f84397e366ca7c20dd90d089d9aababad8b8a9a51),
(0x89e3d3511c219c4742e7909147c131461db684dce1a1149acf49115a746e4133, 0xaabd970b672e8468d84b53d2303d57eb52fde5bbbb224b036892f918630c5c90),
(0x2b7a60f0b2136453878eb44eaadb8da8c043e9470fea1de84ff8e18a390d5890, 0x0c829b161ba032a0593407091b38b365b806686d19026f41ae8bbab7d04a5244),
(0x464b9f1ac2c2aeb7e6f7c3dfa8782f25bfeb98799263a9d42f8720506c9627e7, 0x7c260bf459e1bcc2df7761dbe503875e9a23a1076cb4e8aadac5b5b5b6f7502c),
(0x79253e30435722950e331519e774b6700b25141a986eb5ab268b63a2759b616f, 0xda609d7a55b62353b20f5bae969665caed6467d8f2577f6910003586e27f88e1)]

/-- secp256k1_pre_g_128[3392..3455], /repo/src/precomputed_ecmult.c:11652-11715 -/
def h06_5 : List (Nat × Nat) := [
(0x0634287ce900c0cb5c2b1967f55190f9019acb094359677387642d16dd399556, 0xa23509098cf0160130c042db253334ac223c473e312bf7581fcb461ac3debead),
(0x761121c38bd8fd5ba3418557f6a75b42d7ef2f4b916202233587f183421bee98, 0x4014715ff9c1743510e6eeb01bb2922676070e34afaed0405c897bdb52dd530f),
(0x2618c8c1bfbbdf1a59da30784e50a2b077990fe1c2f074b3e63dd6066d453413, 0xae539a3720f5b6ab18ce584b4ea3cb464bdaf35b326fdab058169ddd32a48da0),
(0xd429fccc10c6f025fc7a57e1949308b4d91699b5c099820dab31f1db90f685be, 0xda2b15c1ee155918de414ae91be51688a8df043d6fb6c9640689bd4e5a648edf),
(0x6a18e3c7c04b8cab36e07625ba2daef5bf1e0cf636650b6d56dda8d8e4e8b705, 0x66291330f56c96dbebf9c9dabc52541d20e7544025fcc49ed6215d8bc0e94eec),
(0x985b6846d1c9f3fe5482fa4ad6a21c65d7ca3effa41b32201a37a122f8f97756, 0x3e2b23dd98e18f6b76a2f2c32c543f8bbb9dc6c08d391592d56f5440aaa3a92e),
(0x948a0ddb4ba838a463eee3395c7bcca296fba8e39654ff3355c9296c9e6e8c64, 0xc5b34c25da19d83eb67b69b52e527d61c7b705ed2f794d2e12c4325c3cf5c1d8),
(0x4332d02c1332b03fb7a46b47e82617b20a437fcc694868c4256aa40fa8a3de2e, 0xe6e5196f5f9c555da94327c039411780393985ab73765de1e1bbe0dd8aaa5289),
(0x5dc977b92ac1c895f3150b68a8d69f5af7e12dc56b211d96a67cc3fb722a5aa3, 0x45888ca74bf1ec9e1cbd29123cc696d283260c343410217d10fd0b959d07844d),
(0x5b9cf534ca94f124a9b0cb6df0003924605e3bd7d063a2b0c6e1a81e3fd15764, 0x44e98dc3b0516ffebda48790fa0b2d67f9ba4b48ce88bd1d0d81bcbc00897458),
(0x843530073a63714c7d26baf9c895e2dee2feb4b09746ca6697fd7ff6d5372f59, 0xd7373a9e37689d444cb7361c0f2f34523f9fea7c826c62d23ca3f368b0c7a175),
(0x9cf0000e3eef9b5c89c8485fc3826e788f1a28dff8746619804030fac21e6a61, 0x2b3dab3ad8684b2d94e1fcb9d2005c202764cd76aa91e0a1ac2612f7fe91543c),
(0xbb292fdc5897188e20888b25b491a7578ee0285383aff5e999671a244ce1235c, 0xd3b6d9c350ba7863bcb8399095893348d5e9b8f727e1a3a09e02f59a412507e5),
(0x95d6d1d89835ed576a88a21a9239b623efd2bc6bf27c5ced2d770c900fb7d680, 0xc91535ad39db65cefab4ac720f3ce692b39e7d38c72ce468e40bfe066cbaf048),
(0xcbe3f20fa164ec209c2c3fb900ca0c9515ea3787df2c8fd89ee50a3a85d09a46, 0xcd589754faea165b48e222804186e6ed734a2251a6588e8b8252eff90afb9a28),
(0x3e01dab99bab9e2059b1c215ba67835d002942f4487d60949f39e293b39f604a, 0xb41ddc3233365044ee3509798679f3e8d0a556f9e8b6a2670bd5cb5e8523d481),
(0x298974c05543dc9615f1cfd2e4b6331dc798918e15e3f35097213a6476afef7a, 0x6801835555f2d8bea74e02e8747f60b222354ea362cb657de5cd80607a99da2f),
(0x1d70674d54763c96ea3764b4641d14f62aabdec8a093c3dfd936793f511fdc61, 0x9674adac697e44bc6324378e59753f4280774101623dc10e8a4eb4be38dfe632),
(0x75220107b43ab9706261875ec8f8b63473c47aaf91ab8fbacc0b1c4f040fece1, 0x29094e7cc3bf07d012aebf2bfb56efb841bc9ad59c350b7b0885602ea3aeaffb),
(0xcfadb9ffb3474ec327db31aab0bac83bfc7f4c8c9d0efdf92e7e79220f779720, 0xffb7657f6f7b8cc578f22ee02a99fa8297d41806cd2b8b06ab00b9930d9a09b2),
(0x24ee919dbe3c5603adee46e139d84aa734a7b4f4d7b826f464ce8b6bc1cb828f, 0x44039756794b547b9360b63c539b8f11ca651476ed57fe29364a5ea617ff1506),
(0x5995e2462f755256f4d6b8f10a5cbeecc50ddb53fe4391dd1b530eff7cb100f4, 0x77ddda7c7da05165c46d7ba2040127fffe78ac6b13dd018ce08161d6d81dc64a),
(0xa723347197dd478ce129fa2059193c08364f8c3701cf19c29dbd51c3234d54dd, 0x2c4e695eec2b2ccb384a5fa001a966649cfdd7111a1d19ad92f2eef131796e68),
(0x6466ab69d5bc21cbd7e75fcc5de9fcc9a57cfed63ad41c234ed56cd0132251a5, 0x76e7ef896dbb16e276622f5e5f6894da2e0c1ecfc4af05d20990dfa425294dc9),
(0xa5eccf90a29388abde6fca2abf2161457fab8bb51e33d4f11e0acda0f5c28e60, 0xafd75916468a11f373e8864356690adf110e74e2c81123f794805b26620e3ac3),
(0x4251bac7493678d9f26e52a1e3ed9e586a15d0604d1c9cdf89ed5871ee9c2779, 0xfa1df27d92e6716d76990c60e6603bcc4bb023c90dff938d3a15ad8b72987aa5),
(0x77a9e6a204c3cc21d8cf6b973181e2830f40c9d026a81903f042c2a4fa7db30e, 0xa1ef4fef23f25ccdbddb757faaa10ccfe78d931072b2f180b6e3de5d18155aa0),
(0x33fe7961c40d4e1bd6ade73c4577fa2ae9c0d20e999f639de751ff7e6fdbea6b, 0x91b7d5cd4eeb306ce316e7c1464c30cf9a5919947232b03705840b8cd5f54849),
(0x43f66b2e5ee52211a48a9d8cb485be2f395357015249c3115b682170f9179564, 0x5370b55ffec0ebbf0c30cf7fe63f5f883555e699728e68921dbf78742da46a45),
(0x4ad3661497ef1074d74c7f6b446ea87bad2f0b4373f5970e1a745b6c38b19bfc, 0x8f5dc1aa769a5bfd5eada00d436f850f6f9eea82329ebcfc0cd4cd60ef5cfd39),
(0x9799aaef95204d54f3734dc975b797aa593368669b2f12f9155d5953c012754d, 0x4b6b34a3d31fe17343a5b476bc492d5444c256ecea236f3a9845a875e83e6353),
(0xc86249f0c6e4635c2d03f25250e35d67c1c22f516f9a8dca0fbc9d4115d828a1, 0x0e21770b37dc4d0df4d260b394bc76b246523893469f102586d99467ee95ec73),
(0xb48dfcc5de5687efc7282c840cfd406061a08fe6092fb08e3accdc2e6656038d, 0x087e3e1fec73707471f69c7bc7147665c0b52a9537ad1566277b6d19fce8927c),
(0x77dceb6c62d65535c625c828fd3836a30146fa4d36732da858503fcd4e357fca, 0xd90b26005a139713525b85213d370ed24304d08c87fbb67e9091d1ea18228bd4),
(0x5b588cbf4cda01844df1cd633cc70ac869cfb43e332f5c17473647503175e49a, 0x1424ef1df9e69e4a84eb823b2f95fce5a52e1978474697c0d47890cafad55cda),
(0xc087bbba8393420808c702518c9ddd932c50cea511c443b7da1076859320b20c, 0x77f26a69717555f3b030e3455cbe4b30f637c23c7ebc2b5f6ec2207b9209d996),
(0x8d16057b68f8082f208b3e7cfc2c558c247d7d60f117ea3835e474c13031ed94, 0x3d305db662ffd13d100f6e0d19c439e16ffb8ca7eec6b14fed551091d6ba3eca),
(0x75fee0a603d32bc86dbb8cd2af7371ffd17daa965e1e19d9242fdcc1edc184b7, 0xc2b1e4ffabc30975fe7c992ff8091795061ee89e9a04040910bfdc6493efa2f8),
(0x65da3959b147093d7d0925990a87710adda7fb75460e47a110d5c1e26f368abb, 0x3599e1f52f92c1e1c3f2b463d9a30230a6f53028cbae3ce95e345c5c21862844),
(0x6561fc1094632125d76b787ca75398705dda1a5bf4407f4df8140b6f967933d3, 0x4c06c7cea88e28283eae8aecab6e8802cd083f376d3a1ad629fa9b55920e6337),
(0xc9a53f8070493701523041a6a9d23343c8a3fc306664d6a35ca5e7a480c4410e, 0x9af470a9b2e30d45ebef0dd06e3b2736369d4dadf2366d4218344a220b6e4bf9),
(0x5c1525f3443e56ddb009f45a1b9a1540c203f8145f577bf03c73459733b89158, 0x967892f7cb3ed91ad74f4c803625707b58574afacb99fc02f5b3493beb4f4f18),
(0x3565ccdad87c171d714add6d472fee0e69bb6ea975f61454d69939cb541648ed, 0x9f7d87bfec2b63585dbd09bbd008b1974f02d3a76a8d54edd486a2d93462aef8),
(0x4003ef34c0f5e1a8afcf29df42a14a5c4527d3dd138b5edabd8de6611d0e3614, 0x6720315244894cefcc3d0a7635839c2f3d3ead0f36174e2cd3c4c6824c3048c4),
(0xf5c4df5b379650793ebb7de39b495a2613886422009293931cf55d1d912ea57f, 0xb0b93c3e12a98cc45a3672c74a3610d3aca34da57d31a968f30047e031eb3482),
(0x0bc9f680e21186cdba63533e56580289cbe8698e69ced0b397a96793569e213a, 0x6adffb788105518d50fb94ff87d204dd7bf54ef5b91e1d7200713fa9b32e06a3),
(0x4dce8797f1fe8811453e15d37a3e2621549e83474e7046b055f99d2ac9a16516, 0xea5e6b77cca7825a95cfd9f37d70d7b2fc8a8aa8749a9d4337ce0754abe668ea),
(0xf49b5aba1ef29570bd72a0c040009382af2a4f8526511eee81869d3e9759b16b, 0x2e496c20b996e8d2696125d0f60abc661d2fb343b41812028658e459d57c7f7d),
(0x26917d4a7573e1d27b4ff76572bf2948a2d02f077d7d7fa054a1bee4092125ec, 0xb8e47f7eae9b66a02a6fd2d5cf8c88c97eb125300a6186780ad5ce8307cd8f97),
(0x1b4948d6285a2fe498cb71daf213e6d87ead776ecf8bbcb1cd7faad4fb29d290, 0x1ab4081fef87d9259b736c7a92d28618d5698499b2f5e27bdd30c1b424d3bfd8),
(0x14d712ec8179baf79dd9676fea99653cf8b20ff4a69636c77258bd5799ae64ca, 0x2e1db8a6424650ec32b0df37d72ce3f006f3853853bafad6d366e04e380c6ef0),
(0x07675220417476849e1967e154445913a11119888b5bf8134d9694f71d952453, 0x3f1fb0636457b6033a155a906a722de4de1a5c3d6094dc2737776843ed82fd31),
(0x5ac8e534a8828b6740016d0280bb1e260a53b16f96b24937fc84ba34dd49fc63, 0x193d020f68f5fb7b02c5a4296909ce7018568f87115e987a8e5e206eb8a1fc73),
(0x87cddeb28d16562a531135b60193449ed618d0dd6acf6c433372202dab4a14b8, 0x5c1de4e67c958ad99411cecbde2e9129cd7094250135c84be5b68cba9f846e2e),
(0xc431ca25a39ed09f48e1dfe7afa866304d4f8b7eeb0d6d52f8c778a0424c84cb, 0x450607d65b2dbe6d35cf2d11d3129330489eded6e35ff4292aeae0a67100d825),
(0x8c5021e8985c1a114bfaf3d440edc4a3aaa930025c2f2c1d9bff368388a3dd5a, 0x4cb960aa8077d81c071d74ba6096fd4ab6d31faed4315db13c2b60aaa12fb108),
(0x338e54bb38a474858c17c07a0177dbbf06e7a14b26781bb770b9d7176e513d4f, 0x7876ae4e84cacfa4c22951def67763bac44a6ad552ee66fb92f80cf8c4420548),
(0x87f3bca9efbb3a21917683abccd268ad3c7b0fe17eff461bcb06ee8d2f1f3c5a, 0xa7a1d2a1ecccfc544881f258bf5fbbc8e5cc11f1a117c7f8361a33ed55229b61),
(0x0f4023df8ed858568e56a0375a6a78d8de27d6dc467c9aad52407bbb413a3e40, 0xb2499142fc4e3a116aa30e566d59f373d5e2c5453e2741615cff9f6a1fe178cc),
(0xcfb51fc6d55a8a2289d3d282fe63b2fb453b512f374e01a8927085649c6f2d3a, 0x8d4a3223283811ed28ec120e761e61d3e4ea53121cb2525eb567fe9c9070635d),
(0x59a44a0b970501470bf219db22249635c45f77b11721c4868937ce96ae43c539, 0x031e1ca66a910f3f1de1d0cd55eb8a76400ff95913774efd158d931e07039afa),
(0xb99cee56ec277a376ab4462814bb3a8ed8e26d7319fd786f8ab570e828a8ee7e, 0x46e0f398dda05d4d7253b16ab4d80c14b6be5d31d1dce23062ab1135c23494ad),
(0xa39e136ad96b1a226d0398725da75b381c6b922b52947cb025207ad00d172bd2, 0x7a5c0758074de08e3d10fa7179639fa87dbfc9778af1a3a2d910a1b9b6abb532),
(0x6e8b41253b2eb74e626dd59aeb7512b72c23c85535f479c45b48d97457001976, 0xcc0b88e1e4e8c0455e804068acb85aa20715bc82ec21ab47873999e8cd2bc88e)]

/-- secp256k1_pre_g_128[3456..3519], /repo/src/precomputed_ecmult.c:11716-11779 -/
def h06_6 : List (Nat × Nat) := [
(0x9942b6f5681e4189f7fb6ec98efd1343cd1fb66f1c98e4189c44478a51abb019, 0x200d0ebbb0cc2d5290a11e6ff7c989e2d2fe986bed266430569516798d0e7a9a),
(0x7fdce1ec3c57b94944166918b48af352759636f72eafd744642e0f7e5078506d, 0xd7785aefc19a76e373b786ed1e2d2ce753cfb97965d3d46b2e313a2ad7baabd2),
(0x6f13205c958c83f0f170906bd77c79ab5f51654d88195b04a70d4e0693989c57, 0x8ac9a15bb386e483b268d4f1c950da35033deb9955116c99e848f13f73b55ee0),
(0xf955a35d833c69be040a0665f4dffbfbcd405f4f5b4247e6e50cd4b63697654e, 0x89f4fbce22468389a4af2407f40eb37cf56e80b27da1983e4e2fa4f58bc9ee44),
(0xdbcd152d619646a342a257431df9798d0b58b8d189238132e65fb6a826248007, 0x66fa717ec1948fd3e4425e9e2e6830f7e57d23e3d0219dcec02b4d3632d8ba13),
(0xf1aebce8e57b909fac7cfb1da2e7953f99f713b28b35b5cc71eea1535e6e8ebe, 0x8755fa143e77e5aa60dc24d092e4f59688b0bfd9585fd57e1b7f610be5d9d516),
(0xa202164d941f84bff89ceab650430905c002bc5a91d505f5fef6e48a04b55187, 0x0e0cd42b2bc268b51e572e978b9bce4db6d4b095ade884c1bee3b3efc2f057ff),
(0x572e165746fde7de9480eccb287f8b9ab1344da508026861e784047dca8ad68a, 0xc174ade7c066abb48d2461eb405dad7639eda86b0a0fd1704756961731eb5d9f),
(0xf4e2c907fee4d753c08b1052b76e49e8b67047ca59e64dac58acce9a5beba31d, 0xb243aa2d3a92d2d8e48b8317ca8fe8972b76d134248070f8f41bf8712c11c42c),
(0xa6fc6aec84455716f5e9e436d68809b226698781f24d0463e06963a5fdf06dd5, 0xdc16a615548efd186ae135fdf748d9f0a96b7f4e918513d5073900aa1818ca8d),
(0xbd8068175fde96529ccd8eec937f2cbcc4ffb3ceb04cc9bcc00cde2d5a05f026, 0xb2791ae78e014328e0fe6a0d8b6bddc6db0482745152bf76bce228b364a26216),
(0xf888a6676f8c3d20b9d5e810ecae6b8f2d8614b23a5da51e16386dd35c0165ef, 0xfb4ee20fe429f3eff6f4bfe39c7b1ebb57978853de24223942a3dadc909a0dea),
(0x7c8d1e055adbaa71ec9023a48d160fcdc3182ee6bda76fd23ba8877c409ae200, 0x8a3b820bec595523d96936f4fce83779c489b9a4f2c8c524f16e17642f907ceb),
(0x18886ea4ee257120610ccd71593baf726dfd9bb75229959e75c14e7626fabf43, 0x266c6695f57068b00d33ad3f07d02b7a898a318439889d31ffa98d86e091531d),
(0xfea70f1e38c8adbd3339a44ecac036b91242a099506789a3184fdcfa6be52cba, 0x9dff6df50ba8c1b9ddc58093a36670b6076c0e2fd745c46883e26ece3b9e7915),
(0x4de3038945aa3c9076d99142e79451b896dcbf7bfe420c8fb1dc4b4a37d1365a, 0xcee74e9e9093de642401eb2e201b3377992ac0a213b0b16d35664ed8d287cba4),
(0x67d09dd1eafebe79c63b8c401c1029828c2d8e6b6b5bfda3739888301a104fb2, 0x10eb550892660d968e99049e818f89bcd4f03558d9f2c98461ffaa5bbd360a5f),
(0x2b5d70fe186834f8d3b96d4d87031cd5325e55f4ffa31b5af5ffdd7740e6010f, 0x646e7e5324d2a37378b1f54afb2081b438439890c9f53b1f7bda4d47a895ed02),
(0xcb4262998700a76c193f7b446aed0ad05d600b23ca24c752527f62dfe17be248, 0x92843e13f3eb60c90e5f74eb8cce7723bcfd02504c2186e65ace939e5819a8b6),
(0x3ee6ab7e75b3bc57135ce4d01e6de88b22d0b853fd8e0d25f9b04ded418e4e41, 0x69c83f984e52519b931b6afc933f52006ee1ab4f680ee7689ad553681b4bcc87),
(0x583774b0a95a514317232df6f17d78296918acc72a385724e904085fc887e7be, 0x33bb1e660ee8cf1730c160730665c353f8f047fe150b442418c736aa807c3e7b),
(0xaf32e1ef3982278779082b772a643ea3eb3341009a7a3fcb0a8838e07079dc1a, 0x6985e28dc660123e73aee7e8b1a3669716938331e4b4b7f8b3a9ecb74e95fd4c),
(0x6edf7fdd326675519b60c740efbfc3f550f7249cdeabbf9c948adc16e034d0c4, 0xf08c5f185def7da75fb0de819b09269164534f14bb7d96d40bb4513d0ef46026),
(0x3b9a66455d268f946c504120a81821e086257a60b3fd9f0072a0a4f001f16b42, 0xed583a15aedf6c0895f60109061901063dfa4848645b0117e2e1bddd2cfe7c7b),
(0xbd035b082b5cfdb0d17cbdf07a012b0f27b5294382e8bae2d683ad0a747a1039, 0x6494cbaded4ad7e8aa135ccd572be8ace94a23c38b62bf61ac90f9a39bb2ef54),
(0xe25fbf19fe9b180bae3316ef089e03824dda59b141022ff7a8c45b44f15338c3, 0x45ec47f658a3dd52342412581852e6947c2c8f119f4fbbe6f6388363174c7cf2),
(0x2e231dcd8ffd7356052ebea750165405f30f595c3871ee6c7c072e64ecffc9b8, 0x0c664452db15961a8458f3d3ea24ade27610d4cbee51927d29cf31646f59317a),
(0x7c0f29c93932626f1b1ae1260316e065fd2a4174a66a60483b458660f5338fc8, 0x27ef533ddf6f1272c0255d7a587f56a9b76e2c4f98c98162350233ba75cd037f),
(0xe702d61cea6f9feffb43e0144794fb327bd857e170b299ba31bb6a207cd5bb48, 0xc4779881c924ee3e7f228a712de07794ee5e28afca63af2112ec0eb31a3f79c9),
(0xf1780044eadec1b5bee75c117c1647edc362c5a4035a66d8cc2ae45f66c852a8, 0x5f8de9f0f31b3977f08f63ac1380310de8b7a30485c9f0f89a677572329e1c18),
(0x7a41b37f22ec5b18d4952c53326665a51582ccb71660b69f8d00701f1f12dd9e, 0x8440be132c57259c080cd74d2a2f1e013448865e2429c2b9db750951607fc443),
(0x094fff7d8111d69e198f4e1657c3551aa5ce6316d520a779ca4ccd0b282db6d3, 0x482c9270026c0c05578a75d38b1d8ed742541d303a933b909c3249bc505c6fc0),
(0xd6a6d44e8a3ffaa956cac76b1b05a4a9d37759892f70e560a54c944017f4e9d1, 0x48c3bb22cd839de99163bbe783a8a057c7b93e87de388b6cdc57ba5790863e1a),
(0xcc0e25c08e24edab1e5dbc4771543b92c47c099395b93d53699204f950cdf80c, 0x20c52cb37170cf3b43b76ab2cb4a6d3b1a977c552431b8c8220282bd051fb70b),
(0xcf953f684cb7d1afa125d0eacfb83cb5efddb6a441079be3db72573b62f8d827, 0x70cfe366a45d11b10a847a7b8e3e50a3b302fa501afc89ac0b89eddb30909c0c),
(0x1ac226942b34ab06ff16b7112fd5fe1ef8ce6975143ab19fbff99d6b6815d5dc, 0xa43d457e02bd09754e9b7fddd9e166811bd823d2244766154d9e3fa5ab6539fc),
(0xd02bbbff1153804af0f800bcf959406c496349fda412e9e9bb9f72327a4d65c2, 0x05de80de3c7832f71d744f9b9ef08b560d41e6821c20f2f2876fffc1b802a384),
(0x3ccad3478d464ee342e1cc2b2c4b299ed8a603264837a04025a8525b4f1831a7, 0x35ea2a4ca59b55b60ac79fdd6ceb340147492f3e49b5035af3036b26d02691c0),
(0xeac4d5543e69c3ce0d762e90fff84b3db3a758b30419d06b80f7ba4336033688, 0xaa64fadac54374bbfe8449aaddaa1846ee00fb6dc9435dbf17f6a12fd1deacbe),
(0x3d2879b173d937133326d0c6133be2815df62465d3dbb7a9a028e0cc63fca753, 0x576ce64d9b95b5e8a9e3eecb34cdb8d1fd38a08c2a6a8c9d8f0a729668d6e0f0),
(0x3f58ab8d56a9682e25137087ca8c766a72358a5699ebbce4cf74e3046976ca14, 0x3c9053d101a2a8a81f30f45f1b480dadf6bce20a015e6315447405a7b321f29d),
(0x4f5f1289b48dcd1941a9df0fa8aeae422a4ed91358845b973145ddb113fd12d7, 0xb5c3e32cc40c657703e286ed0a233ddf42ac0d6a5a3c3e86077f8256e0dc1428),
(0xa64a29e2a52dc6fae74e70ddda2bacd7e4a9dcdff9a0bbc5ad0392dc93376a76, 0xade2f8a6faa9b1b77baefe8733ddc365c776f2ccb0e5730b4ebb0166418a9590),
(0xdee0aa12c4d6f88ad1d86f94e1c6d3e0b8694b5de234af04994cc7dbc8480e70, 0xcbd9acd4cbda37cfa9d368df332d30d6413ae1c800d342193d4651f862f93389),
(0x8677a99dc8af6ae1b653e29480eb66fd772b958c882fdf74f9c0f188d5796936, 0x31c668c8348c048e4b7a24f3a0861f446621151d4dc3e9ed783eaf81ff97232e),
(0x51117d3acb73a7cc2b229bc79bd6d676f44aedc198cedd80ed6178c1f6997fee, 0x5c638c04123f85c1170651d30096343e78f20770321c1a4d174e568c39110cd6),
(0x48d8af6469670828e87585d452ea12420a83c9f83423e4689c3ca3839f141b12, 0x558a8f42f07f49a7c6a9843b9055ed051998dd359406c40fdc4d64e35265e9de),
(0x62ba9ac1b0fdeee5a143d45741c164e9d4060c7df5bbb17aecbe80f5f6966d2c, 0x65a0653f2290416c5fc96494b70b3b999329fe673b034aedb586c118a5d9450e),
(0xbe4df7cb679da56b50ef205803c79310508d8d0543f3004a486297d249febf0d, 0xc1b56550dd5f3e7fa898cb8baca88694ca6973060fa3fa0995f6c43cd5f3ba9b),
(0xe49c036ccca2e06805acdf3408473316424eac2cce1550c3a0c435b028c9979d, 0x456bc25f0457fde55bd0d273d27afd7d21186b1e3b42bbcab168992e61609a1b),
(0xae6845eda81d5d90b3fddfc9cb774c2a976e701aad5c13027057a6f897fd58e3, 0x529bdc55322ae3609926194e7539a5344501126ce69b3e11e5b4a6757ed755bc),
(0x52a1d8f8bcc2b772cc8717e02d7138644c2744994a19ed183fbeae31bea25e1b, 0xda2a0b2ce7f17894848e77f953b7528bdbb80673c70341dc9f869e604189011b),
(0xffbbaf01d89a7804d5d19f50dd5a4abd0cc5529c90d26918425f380596a2250a, 0x88b5f7b7eba662bd05aa47a6c2fe13222d514410f6b1a14538c37ed99a9880e2),
(0x06ffa438aab51ab7afb840eed4f857254473fbc8ff6051f9fe5a59e0ff8c942e, 0x5b0226dd3b88a04033860dc669613bcb50a0e95a2ac7df8e66884c7ee602d775),
(0x9c895658f92ac47e318f5ee591d26a10c2c1b77ac8bc8cb5a45ec94308a2fc79, 0x708071e2665ebd58f1655e286de258ecef4b0115ff74f38e516acfa9c01045f9),
(0x532e6e0defba35b13fdbffd18ebece3ca59bb3ce054fbbb5df1df6f0c1861ba9, 0x1af465dad326bbc3eb732ed2464b459336f04b0fa50ba7fff61b4754aebc5b8a),
(0x99043321e3f270920cdadd8eb50cb4a38a8a9f8083da6ea138d48e00e5fff425, 0x11be8597325c250fd9e5b1be8e52c336404ecb24df29b786ef9d1f048f77ea6f),
(0x967990803a0934a99a0a6e94120c22bd7d79085cc331e17287daf46e7c4084f9, 0xea90012d18450bfe6a520b5c9b2812ee574903aad75cad047dc46c2398005e03),
(0x74f5d157915ffe10cf6d99819eff76161f36f71b4fc386ab729dac373aa0afb9, 0x54a0011e4922bc7412ae225cdcc8c4474e4ce4a4941a409a2c49d42119b29eb5),
(0x1269275381c639555700ddebe8d7a75176e5f3d72aa0631e3e7cd6a8c1927855, 0xb92e5076811002d544c554fa1e1d10b53eefeffd513357b72c5e0cc1c39ae553),
(0x084ef81b1d143d7305b6ae35af18d810d7cdcfbcdd1c68e11aae007b80230d9f, 0xcae39a2ba5b4ce8c21ebcf2c638a2e5ab0dda645aa6e01bb33ca2edcb575d42a),
(0x1c22ada3326e6ac76647af5e0ed62a85c8d89dd2a733ea62dd71512dec9037ad, 0xf5a598c61562a6af99e46283cb9e6fd4bc4142dc99600b644930498116aab458),
(0x6b91ca4ff08eabd5aa8dd35fe9e04153c00f1f4850bbff4e73671cc1fa4aff1b, 0xc6cdaada85adf99d4fb68c8b6104f585b3c9551a7dd879778cb250fe11b31852),
(0x57bb49996d2e2157613f0321983736e4b99063b5e8f7188e23f7895cedf85bc2, 0x93b46dc672eea90e9274b9b2073a82dad0a1ad14055b550e94fdb765ab47cc3a)]

/-- secp256k1_pre_g_128[3520..3583], /repo/src/precomputed_ecmult.c:11780-11843 -/
def h06_7 : List (Nat × Nat) := [
(0x75790b27ebf7566e1056d9f2463df8f0067c38a278af81ccb40f52604a33ba6e, 0xca0c8ca3d99b0a5db065decf346eadd43af8dc719ae06dac6be99c5cb89d2045),
(0xca7a75ada90b590bf7f2b6fde3004a1e8dd7b4f4db8c4a08f32bcbb50474ebe9, 0xb3278d9c5c9351e7bf4e8a08e0f1dc0051273259acdcba1efd3ded6983fc69e3),
(0xa6dc68b93bf46294392a8d6ce52bb36547b65a5af318765c07a4f5d52f90b2d1, 0x41ba6d67fc575561a0f3c76a0931dc6237f53348819224de8f925c33c90ad45b),
(0xda2139f3f8afc90ac7f5a02520c361102fafed4c3f525b56fe0dae1f6bb6bba5, 0x95adcb88fa9ed816dc097522de5a394e71e92c1d0f5bac369ad060671b6349db),
(0xa32b24752f0e0063acb4194bfaba9ccb2159357b23f102cdf5a8e24f413da4de, 0x57df4143bd8b27fcc7716ffd8c35036fe09f8ab834f053dbddfd3161ebe576cc),
(0xaaea491d33824ff3c7319d8ba233c73a741718f22c921392b893894cade9bedc, 0x0c8fb29184d8dc6593a6a3a1a5aed86da7ad0d32d5f8ef4eb24b61544c1a63a7),
(0x2935e0e27a8409bd224f3eb3d68fb639ccf75d5c2b0315e7ed388acd887f2c75, 0x0c4ff02462c9ae40983d00680180d4c3977e900d0fdfc1640c89a938c568aad4),
(0x7fca80769e2e72535834259aabeafecbfdebbd960506618163d244ce770fe577, 0xa3ddc3abf04ded22cac3b8f6ffd14ffb69cfecba7dbaeed99a5e13cd55bc3542),
(0xc5b5f1c601caa4a7fa5e665f57b45134bc129ec7131642a96a7b41915e8b483e, 0x26cb3816da5098cda3f58fd0c26011e973dabb66d8cc92576d37bfbb9cb538e4),
(0x410da274df43677264decf4bf790035bd7d5b174cffdb4f456bfb6a079a50d88, 0x71c81968188eb3496dc2ef1e841979fa254a19395bbf00f88e1d2bbeef9a6abf),
(0x3d9928ca334dc800abb6c5a243a2681b6f7976ac50abf38754058d05cf67769a, 0xcfcc01dc766127b53e183cdd80a0a1e462bf01abc4df115b2e4f4e9f95d2beb7),
(0x65a8f57bc523e4a64777ce312000a322d858eae1f39fc9192e4f436cc8040cec, 0x820698b99e953745b1ff7b0ea22bff63c9df69fcc2055b323f07fdc061192432),
(0x84e553ccbaa606c2ffd3ef5ca62725a455f4e53924a721531ac3e66a5d92fb79, 0x34d6af324aaa9465fd9f77311c01221d4c0b5f751902dd674dcfd0f39cc5f8d2),
(0x3b4a755828851226f391578d5d146da8dda3d4b4f79a36ac5f8c166a00773783, 0xe37c96fc4de83cc2eb4b3cc144d4d35a1a4249bc4cd7c7877d0084c1b1a59e53),
(0x6dbbd12c06164e8dea48981937fcd12e743395786482ddb89226d9ef50cee6b0, 0x89e48f49b3f5d15452e47c17e1a68ace0eed3bc608002a7033316116ade02b90),
(0xb64180db3b92648174a0b7431f84af72f1118e9d6cc1fe02f0bfb72a97c441f6, 0xb394f99783d00816267a4f0f8c95a05c33cc19dbeac704d99e1f0c2c4fb25fd2),
(0x2173f38cf47377c6d977fc08ebb67f2937e96fbee46b2115b260f03a216b5c56, 0xbda02a7803c4a684fd88c6df06becf563bd1c61a4e79d36f27e22fb3212e2abf),
(0x9dd9ecd3f3732f0d864df0b48cf35e06ea2b89a6a8a2756a222e266dfc5c5214, 0xe42ea7202ba682420ed9256a57db94addcf00b1a50ded06fa70d712e17e921fe),
(0x705f9fed5cebb62edd549526af7290929d398232604d136b02a121cfe7af71a9, 0xbb2cb17daa4472eb12e69a4a57a7863c2b32c100a1601d2c44d2cc29750d30a8),
(0xf1a908d1807169bd7fb7fcd8cfc125e33fbcdaa28d8df1a217b84c2b2cef4410, 0x0e86cc08804c6c56f81cfa759851e67ad792bbe487812cc14e7aa468b8911512),
(0xdb0c5d7935693c81c752a4756852260c5625e4345247cd5fd40cdc24e1355f57, 0x120c5ea9fb00d29537721f1e2539ebe5d0de9bd5354ce629fe8c2e8dc683daea),
(0x5e4d593556007e921b158f683411da86e979d4707b53caf59a2ed94bca423ec6, 0x71588b001a0e9ed327862fb37ce6aefdc309b5a0928766dcb947773e6272d935),
(0x1a79ee083c46e5f88e97fd1122410164a264d1067ecfabcd4872af404fec7f28, 0xf928dbfc49bf75530356289f18a5c8fe54f94bd4d9406aacc4df7a3232349111),
(0xe693f88be3be0c46cb40a2d7f3a0a4351c3a18124abdf46e86ca3af36cac5468, 0x55f0b7bd24ab2a2baef2db89d8aec5affb4f354d66538efb78f094a6dd649cc4),
(0x6d15e8b1f3c73c76f73b12d4f5e96e2843bb61575d0d7e581bcc551a329ca25e, 0xf21f3ee18438642732a0d05e419f8a59173f8cbe6e3b765db74c35882d7f069d),
(0x48b8f127b2614af495303f2cf6593d1620dd98e4ff536dc48a5aaade3bddb682, 0x8ed1b9baec137c625127e23b55d786d6a50d191d6803ae99c7ce57ec2f546e3f),
(0x2ec32631ee1e451094719f291a32e0a08c29fca48ff7e3d4170a7c0f5aeb3028, 0xeb861d9fe21b536e58d0ee359d07d09a491572f813eaac916105785c697aa945),
(0xf7960ecb3b35d4d45ed2c13fb55cc9447ab72f66ea1857b6776b8ca0afafce3a, 0x90245cf8d40f6b40a7140334da02eea7d8f7cf7f8f87c510cd6d9ae78410f08a),
(0xa94ccc3e4b22f7e6ef385780d58f3aa1139b29b8c7dcb5af7a247125ba613ef2, 0xef7050fadd6afa0da89ba357cbc6a66e782471cb8cfa4c45e94d445da2845409),
(0xe48a7ff86d80f4300d3d6f576c56f0268c42b3ed1708639956d62f54f5485c38, 0xb1695229b4997b0b229e3c65c7ffb42be429b70247b98231a7bd9c5a5e9a6255),
(0xdf99488c7d46c83acda5b422b2a633d6cccb09bbf6488d9eac79e9bb7f22d2ae, 0x89490280a958f45c4501a8785bd3c72baaf83a45d91a38c3e0477562f345fd4b),
(0xa150c6c04db9f9f46f64368ebba348ef2bb4e43e29b27770553ef41aef22fd84, 0x61dfaa74e1525a0ec3922ab020e3ed1ce7b5397eb4485ccae1f64f2919c5c201),
(0x9b7dedfa452ec6f91d7aa167bc984a28937392ffd856a4e1204aa541f3aa0edd, 0xa37f49122f5168debca0ef6e7c9b31abb4262c09ccadbe7910a4a844ffd2c74a),
(0xc7d77a516d0cea71b20f75c5579a5906ad1aa83cf9209a23d38ed35828e51904, 0x399a7c7d9e1a366037b0a7a149b0dae908e5a288cb5ece7f56de4d8d74a44bd6),
(0xd313a8298e4de5b9a166c2b0f73d9812fc1d1decb3b86e8d8062794b42fe73fd, 0x6524463a7eb26e2f34f062c5dbbdb4dbb8514c9c60af6a16fc9a88301f708fe4),
(0x4bbf363b4d66c69306469b8e83c4f18e2e6c2a3c498f38b9787607fe97211e5f, 0x9e42ca4b243872c58c7b64061181774382bb0d59c0de25629f26e8c07d1c60c3),
(0x03be10ed23a0ce86d4a7ef1da667cf19d471bd377467403e3f84535f861e9cf2, 0xbb9593780cb317c06534748a49bb9fa8edfd2090cb95cead0a7b04334066d885),
(0xfcd1f880d723963c829074ec8d29eec4946da1980cba5d96b169cdb35dca2076, 0x9489bce3a31362e1c4cec2755fa5fc86d3b105ae25bed3467c0919d3b2a87b01),
(0x0b5fb358993d3662b2e7114cd8ea0681f39f42a852cd217cf0ec0271fab317c4, 0x89d88eb8ee622cbcf0dbfa828b04ac2780a653c514df734a791b3bbbf3a71b43),
(0xa86bbad17fca460a4740f39bd2ccab3f30fc137f604e77c9556248158fe274e7, 0xc26dc259ba969ac78d294742e4962c071394ede1263f5a0bd03b7a29030753fb),
(0x0ed321f6348cbc967e34bc7ba935d1299dd3fc94c27d1467887921801330d29a, 0xb4078360832b5de1c77b44d6cf07bdc8fc5ac402150021351be0d251a3f7c3b5),
(0xc8179275e4ddb936f55e827ede094c4a2c425b8f701fc97996ed71941ad17dea, 0xd99f1c5be241d165eb49b0b9266486af8ce5e963c52b2622e16fe99dd82553a7),
(0x6f08f13f23b9b383492743283f8dfcfd0eeaf82e1d91e512df1d0d7dde84985b, 0x96b6a829f99f433a6ee58ed050370ac50665d61e22cc7a76a4a3fe08d8bd602e),
(0x9443a7e3410f9d4fef9f8b609eac3e5fe6ab5d6ca11855e4b35c7e679f8f9d5a, 0xd8c507b578188c3f31bc93e6d07abc22ac9b2add5a11db538fa0f9363beded57),
(0x432ea8ca3ed53681ad3afcfa570056edd38c88480de293d2e37703f5133c502b, 0x9e19228b70b52bb008e66a49826c6a610965dddc64270118faa3389b6bedff71),
(0x1d17589a42f82fd8c5a584a3d3c7fed85e22ffeae2b732c130f903fe1982403b, 0x9f7bcfb48f18d20826564ed0245f0c6b511e965fbe5e0e9454e0f55278c39ceb),
(0x743399b5cd84846f65e778ea790412ce1ab8c6ffff7c098b55436a1fe18e6b2d, 0xdc6cc81a82801be4e6566d3fc01b6fd1e84ff49ce5ccf145fb1f49b2d8b784bc),
(0xe43785583b2848c162e3e80e3b5f92425330d232e05f871fa279a0da7910b2a7, 0xc39b4171aa4978e407d3f99f8179a189d5e2421bd076d1f080cdacf055624b68),
(0xeef768a31b1639a8f1755ac7d00a64638f8a99cef5f42a10664026b36718d63e, 0x2a9005f4cbf4e6861af0043afe97b065878efcb88be29ef5ee6484731e24a991),
(0x15db46872504612cf40dce1bd601d848fc2afa9fb2de929a1800caa1bfc91fe9, 0xa8b6e64e7d508d9a504678a9d90b82ca1e72360b95a2f515f17710cc4e7eded8),
(0xad45facf2529a84b9d28d2a0456a1fd9d2b3303efc78e2a0c7757bad0d4a4191, 0x1a78e571473f303516ef58678f77d5adbf8d810960f9925aa6b4a88d3654f069),
(0x41a037446e027b4ceb775050a892bac21c19b66d5fa4bd8958c949b5b9151824, 0xed7c44ddfa96d38fa721cb2e60e07a8427c53acd6435ce74bb45437d95140317),
(0x2020b86958f4c7ff2cf6458900f1043d5a70d5d60dac074056011f1d27217ae0, 0x111959e22757f431a1994617124eb1c6b37f596129d52aa0490b94f7e1c4e9e0),
(0x2f99a946859f74a950f3bf27d85a169e99c5f75571000180283383a9eabd4ba1, 0x3e622182d3caeaa247a4ed246e60859236ecba9d4e8d79fa12854f74df89fc53),
(0xddcf398957f653900167688c2e227f290e7c5675d4a83a3c177ebdd19e369baa, 0xa700c63f3fa6833a239a3ceea90dd021c3c3428cf2b11b873da1dc012f4b2431),
(0x9863a7b80425236019e2fa9e09319c5b92df1eaac0b7917b73bd1042191ace4f, 0x49a499a9281dab214bf09f8c724a30ea3a1fa7ae4f1b2b6a3bf63562e03b69e6),
(0x6c5465f9ea2c591734f3734a64b8e92e19cb4def3c6d5d2e467a8f58dd733886, 0x057e22bb179df35d15aa2616a319ab3f768f655fa1c07c8d3dafc4431e0e733c),
(0xab375513360b3beb0d0ca387fb0a069025acb654fe703a530d979f1450f3fcdd, 0x3e9c1149309a2de59b7842f43c37a6ed57f0f776503ee7c546445c2f6c41be4a),
(0x6acbe3ea4a72eeb0b23aee37905b22d0ff0878a9e91431114821207a4c2603d2, 0x1ecefcbe9f934d96a163dad76c9e6806ac2ca23ce495a5330aecb19ddf0d32b9),
(0x7955d14458fd0c425e4ac9f9c766e253b4ddd10507f1c8c3653f95cf3a955d89, 0x8fa9c5f7304387f094a8922553a2028740c6723b00d25245847350249650aaca),
(0xb5972d0c0090433f702b25a227bd3da2d488ebbfe578213228c20cd835ace377, 0x235470bf7fbc3de5279ef70ed174b2fce3e78f845c0bf212cf3d64cb42b008fa),
(0xa266a81033a5fa68a204f3bc53cc79f2cc500d7e4495f8e4d9cb48bd04bcf886, 0x31a8b1a1958d15b7664390e6a46f3e37d52b78245b0b91ecb568b7bdf55949f8),
(0x1c6412ec21191b635bbbf47e1e9f7c21ae7f4f3f7de0f123451e421d44b9cc15, 0x833f8a2c1111c4f3f5973851d02563096e7fec1b22ff969d82a62284c42c685a),
(0xee3532ab17575b579c19ccbefee04ff38172677c5e625f68a74621073e0b7fda, 0xf12e10c8b2fd987b83dff04dcc48ee6b04b704b492b2cf53a9af45106e7e8718)]

/-- secp256k1_pre_g_128[3072..3583] in pieces of 64 entries -/
def h06 : List (List (Nat × Nat)) := [h06_0, h06_1, h06_2, h06_3, h06_4, h06_5, h06_6, h06_7]

end Secp.Model.PreG
