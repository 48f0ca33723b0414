/-!
Generated from /repo/src/precomputed_ecmult_gen.c:399-1774: the table `secp256k1_ecmult_gen_prec_table` for
COMB_BLOCKS = 43, COMB_TEETH = 6, COMB_SPACING = 1, as pairs (x, y).
-/

namespace Secp.Model.PreGen

/-- block 0, /repo/src/precomputed_ecmult_gen.c:399-430 -/
def c43_6_00 : List (Nat × Nat) := [
(0xe3adcb1afe947e6e7cc4f5a2df78310ab235e2c3bcd75eba1904de80c8814c50, 0xe0b27eadc4bbb9d237dad5806e3666744a9f9c3de024f2bd1edb11d2fafc0a22),
(0x612c2ec6f0e9c4ecc2200d23ddca77ebd003be35061e52b1890bf8463bb53ea5, 0x9e944d7bdfc7a952c1c5ee15485d7199dda195512d729628c215a9e0285f656a),
(0x42053dc09f90a7f786feca60d68a5c3c789e44d23479aa132d1a427c621373a3, 0xb338f891f3930ec7738669bb3a29ae2d637be08a954f2a8cacb661afa660bd22),
(0x4d227ea15194ed5710f8ea4da639be04fa68ecb4f3d2d9c943ec32f280f74051, 0x28a94075bda4c19540c20493b5391df7166b1264b957fef9683cfbec4c6e6875),
(0x8ec4abf40d4db3b02b0712dcef54a40554b6cac93f88fa9dd8cad4c09b94eb1e, 0x4e37e159517346ee17e948c4a17912b0b29c303e497cfb381679675299aaf9e8),
(0xab186398117fb83ddb8b9392cc888fe250d2f6045a0c3f8992d8a82c382175c0, 0x79437224b3b1604cfae64902e303044851ef17b89af02d7c54a92c347fa2abda),
(0x2bd09ae71e8d85a2ba550bf29c1787a23d2c8985e2ed07bd1d39e7b908ef8135, 0xddaebb19195bfd6ca44ce82fb7f3c65a8af935ae52e2d2fb33cc231dc4b16082),
(0xe6da6560c8265e7c8f62edca78dc739b74bd654344a939cdbac0f48912b920af, 0x147f5ce4a98377cb981dfaf01a1e4740238f1c5dee69cfffa54f3aebe53980eb),
(0x7df5abfad6b46a3730bd589269edb6fab70a0d31936c07870407d5d696506263, 0xbc5cbafd1f5fee671aa449ffbacefc67cf7c529f86100d7ca8160e4c376c76d4),
(0xad672823cfe3ac0150038d3081a1a109d8629b4aa4e26779373ee0db44a466d9, 0xc288397cf91157e6770c401edc84b32887b225340d11e11cc8415a4b743fef9b),
(0x72032cac3177c280ceb3076d7f5104052413706c956ecf38acf410ada12473a6, 0x8bbaf50b957978242994e6d0a4bf6d07149792bff2a748471095f845bb332036),
(0x36a1f78c3bebf8c71fae5e29cf08485dd9debdae00348a20ad84ba5d4308fec9, 0x842f57e2e900d07beefda7e59dc40139c5deefcf11c07c424629c59d593e01af),
(0x5f41845472e80d511c1b8bc2b6b892249119ed435b915809f7b26d018427f579, 0xdfc29fdcf3c65221a6615262cebd9a14acba91bacca22ec5d84303cc1fe0085e),
(0x5577ced2f6bf41f9503aa4a7c0060fae6d33cda6e3c8ec551eaec315bb91fedb, 0x858ded646c3d623187c0967a84ee52532b21c4e5b329bdbb76f6a6d493cdcb4b),
(0xbc74b56ac94ef36f2b356bc5dfd11d2e7a371087653ad607dbfcfeb827abc502, 0xd57d74e739e758ee96a422e2f1fa61f74f6308f571e6dca63b0b0103e83cf1f3),
(0x727ed91fbe4c508650a0d365b28ae4aa0c9434c0735fce3c7b3ebb42f4be911a, 0x8c5955475e627c226bfa855a22ebbc56d3d0b3319120d8e913bed8687d3bf331),
(0x6286bb9071f8887bc4fbb3f0a9ecb19efcdd2cf15e286da71bb60c9b5ff5e644, 0x73731ec5ea3e537cc6060ac5dde716b72aef4117ba747b1201c26fc9eddbda74),
(0x3905682b72282a782b8d8dba72cf147ade0025dca21521e1ea989040c248852b, 0x5da3bf52dceaa14aa3534068c05bb0152cf9c7220cc80c56cf828aced96fc390),
(0x561a2ccdca12b67fdad28ee2c3cee78acf8117669e4a2543c81b1ca6eb4bd16e, 0x3b386a9d553c2746893477f517a05e99bbc8ddf0896249e385e406d6a57b9ed9),
(0x75bdfa066a1a42a750f283e83ec91cc0a5b688296e6aa24a28a61e3365f378e5, 0xc73224ec797d6736c1a541ab34523d91e1ec3754fe7fed44474f9cba29f305e5),
(0xe881a840847aa2e22417cd3d3e798c561e6302905dff6bf7754d941998d401e3, 0x8816d775f15554520f624e45710a240e90fc5e237536d217cf555349b5e31bac),
(0x1fb527e94e9c70e8657de7458b81ef9ee3c2b4e0128a675bf7e28980e18b201e, 0xbab00a091145407e693d53537818bd3049e1f3640757d22858b8aac5416e3e78),
(0x1c2bd878b94169da722a9de0c4e317cea8802aa96045830111a89d1d9de4270c, 0x095b7d99bc3df31ef0dbf17aa09ef14871ae6c5d870ebe751f52aaada48dfcc5),
(0x41f7fa0a9a59513ae221e3b84b91995fc9d40eb5d120a6d8e663452ad92099c8, 0x0813dbbe92ec4b6225d1cc5e5820ebb7dbdc2964d5dd1ab3deabceb95e793d32),
(0xe5cbd62789c6a84325a2440789b88dbb1dc55afb9e8296e6bb8af7de57a50e60, 0x2cf01ceaae4f4fed46c4efd786ca5e4def5af524e9393d74e9dd224c604b9408),
(0xeb3bc68c623b1f46ab905412c7f2d588fa25abb77a7bd782ba9bb3aac05a70ae, 0xdf9f46e05dc1d1262f72ef3e8db01fbc11915af64aee0c5100da1cfab4d15ef0),
(0x5702fb8a2602f41f52699f688d4b005a128762e11dfd13fd22ea751ccbedb2ef, 0xa77105b37af534e6046f58c3b02543fd9e0666c158051952a61f8389073f5847),
(0x66954eca0543426304036fc70fc0fe3381f5195e88433bc32c5a8a60341e2859, 0x0d8b1b1440e9f123f39c8658f9d64e7dfe4071f0ada879ea42eebad64d37f4fc),
(0x592152c398d6c719636a03a6dad64246a5a6814aa62c156b0ce5332f6759b031, 0x8d22d1e2d93dcccc889f3b6edd5e20982f5586d4bac06842d689a37b4b845c12),
(0x5699b93fc6e1bd29e09a328d657a607b4155b61a6b5fcbedd7c12df7c67df8f5, 0xc147ee87143254976b2e534ce69027482a5c33dc867732a508338f0573368388),
(0xc62c910e502cb615a27c58512b6cc2c94f5742f76cb3d12ec993400a3695d413, 0xe80c2522898d8a222c4dc0b98dc9ce88740fe2525144656ac30f978ddba83c1f),
(0x00000000000000000000003b78ce563f89a0ed9414f5aa28ad0d96d6795f9c63, 0x3f3979bf72ae8202983dc989aec7f2ff2ed91bdd69ce02fc0700ca100e59ddf3)]

/-- block 1, /repo/src/precomputed_ecmult_gen.c:431-462 -/
def c43_6_01 : List (Nat × Nat) := [
(0xefbbec14ff6d7e18a8015d68ba3ceb19d4cbfbb8a1bbc09cce755a23e9d4b3f4, 0xa76faa082b02b8a4405573c95ac067f3ab93612724bfc14ea27f923d3adf0133),
(0xf02f6744a0ee7b0c7bf0abb3c7ec0a5a3275d10992be28937e9ef64923fa932d, 0x955f3630c5621787013e6d8f39efee26d91a09478da36db94ab4a89faaf9019a),
(0x1c6f9f0fd6ecbca1fbcfbe9d1f3d2476dbd3b6caac8e18a5949b993d8c0063e5, 0xe3e3770e33081dc95125d69dc631450e5494d21b2ddf48f1fbc3169f3cc1eb91),
(0x2062725b739b793dc9798397dfc7b1a724ebe8f75e5654df536adff125970841, 0x22f3e3e5c02012655e6d8e58b8ba633d9a9216b5445a7f78a26056884a5b6092),
(0x57ffda66e0c294487a1570f7e2f5dc58ecf9b9065f37404605bd1734841785df, 0x22ae8728a88004361264c3803beddb65a9dee5756f0cfa97c01dc0473c806def),
(0x4b49fa7d463cbb43b14928c67b3a85a68132ad9c427d3cc3bba76d1a7c9a69dc, 0x7e7e313303782b305c7c3bd694e3c306b3f9829f86f76f08d44b1a76a207f2c5),
(0x411a3b18c9b638fa38a0e811ee370f345c9476db61df1843863d6d7f4e803ccf, 0xbb306f97e97e492de74afcd0a771570a08210b519e61df784e6e97e0ac23e109),
(0xc822751049de157237afdf55d175196d5d3150013670b478a0255a4cebe95075, 0x16be5950a3f12be95905fb5208d5bd9323eb5908211d2e8c26204b32556c5c45),
(0xe46bdb748692d0fae6fc9f500668548731d61f8a5717fb884e1f7a4170e4997e, 0x35398e06048bea42cc48fa4f2805efbe6bead663c054eb082c15ad46c0611052),
(0xd18293cbd0902dabe4c014e12296960184aedbbfa01526a86978e14488ca794f, 0x3a5b423e32c1d2f4bf754f429da3c9b684bb798cea73f6371777ba771aae6086),
(0x7b9cbbfaa53923fde9f50845031301013b17548a0809743379d3a526d1c90c31, 0x03fd7b715b6801cf30fe22a98b7895d81b483f6e9fdefe7e6c59fec8fb9786b4),
(0xab6e185cbe9ee3935ad6278c167396fa0aa4d93680524d1627ca8e9348fce67c, 0x7154007d3f96ce60d09499a51262c7bc3ab5e9aa929e0594994a96718f912987),
(0x56ffb4188b9c9c134a110c038df8636a71141ff98448cb79eb6dece8a28b65b4, 0x1d728ed5023ab821ac0c40e2b9348e27191536c679a7383508bd9b3cb43dcafe),
(0xbdba1effbf6af786dca1da26cc2261021f95d56f245298c0b87a40e1fa9a0cbc, 0xfa18673b41f765b825d13f2d7963f1c6b3308a14b033fecde1d0d597583440b2),
(0xd9a4a7f55b3af93b1c49ffa74f8154e823aa147716b1644139fbc86b2d9346ef, 0x19ca90e7538ac3d8a28e1aad5d8b1dcc756f8a84240e57690a0f561d0f53289b),
(0xee5c17b274c78b879eda9341256b15062558283560a0bdccc8eba32032d58638, 0xd7d02f4ab81215b17843e3c6abb63755c7e05d206c61a4f6bb08d1b0256409ee),
(0x6953ae817ec599fa5f739bef0dc4cd8b4670eac6912bd03aa3fbe91a5122ba0b, 0x61bca3fe36245ced31cae918fab6d463508569470f64a3bed0eb62d6f9f16059),
(0x3bd721f759f7c3a9934744724ffd3e34503cbe45fa7fa5ef40a5a173b8bebcea, 0xbd7cbfbb797034c2d293aa641bf175dc74a44dba84b8d99b8182d2be06512ef2),
(0xab6e36aef5b7ff2ffd2f42f58c408b7f3ac84253e1d8a43a55cac222678dd38e, 0xff0dc59e51e504b29a0ba8243ef26eb12446f62878293da2d924028c21f57342),
(0xbf1a1f6d7f73b09d03efbd73eb9ea2c623e179119063489b42fb13037b53fce4, 0x236566ae5371fc97b5449b9c2db3217590e02412b44539d3bda7a8143cd4a634),
(0xfa0c6aa34c4825de304cfece37a20bbbf72044e394cad202c9e1edc3b288ed57, 0xdf8e64ba5f5e83814b6891b614dd4753fed5f5660956a6dd95540bdd25c73995),
(0xd2ea634dab56961f52e39ba8ebc5c150ba9eeb1c6178aef964fa97d5e80581c6, 0x2928f71ea09a35b96fc1976cf6cd3c1c7d1fcea02142eb809666917dc9a0621b),
(0x827d6a36697cb2f1cf19e27aac30c06d20d818c9fe8693096435f1f2171c9b75, 0x53237d413781a1dfd0d977c29690d488b051dc2a841ba226c552cc2812ae7caf),
(0x59dafec54df05695e123004d38d9aa126a06c399e52152455392e5e3f1a47dd6, 0xff7d173dceda39ecca8d2c95ab1658a86ad99618e3fdb7cbb07b03c52f96a86b),
(0x05c4f5b92acb30ee8c7ec4b0ec577f41a9502af9a5a384dd3386f2303e62a830, 0x08aea5f7145de3a3679c86ce072e8b36f3d6ac81bb1d20439d719c32ca2f8b30),
(0x38add3d6209080c8efb655513d9420aa457f06acd3ec84e8db84e208a0664ba9, 0xad95a891c60f01a15fcddf2c923790e2d55963344d83a21cdfe5f6bc4c2b32b3),
(0x9038876f21c3bc14111d5f6a04749d0734e40a537d398c680809355f764cf1ba, 0xda0302165e661aff533675784a4d3447707f14afcf0d771a53e8e687b9dc29e5),
(0x0b07d3e8dbbe686e5e1637258402cac30e1e4f29fdf154f7bf008c5f9969da10, 0xc8b668e056bf81732d9778e2eaa069d0cdfbf82647f615c36d0b311ab2e14922),
(0x08bc89c2f919ed158885c35600844d49890905c79b357322609c45706ce6b514, 0x2cec0c32283233e921889013c4a76d3ee8d2cfa9eed8890f909c0b305736aad8),
(0x308913a27a52d9222bc776838f73f576a4d047122a9b184b05ec32ad51b03f6c, 0x0b5a4f6abc0141a06e1cace0993fc8a257ccc0157d42e0ed9f54a1021701afc8),
(0x3f0e80e574456d8f8fa64e044b2eb72ea22eb53fe1efe3a443933aca7f8cb0e3, 0x34992828d693436e16f463f7b7a2fe4c6afedac559a4ac5b34fd761c15a0bbe0),
(0xd30199d74fb5a22d47b6e054e2f378cedacffcb89904a61d75d0dbd407143e65, 0x6afc7262f51c2a3c4c292136167c7f9ae089f33c9b127e69fa4c00dfdbef9176)]

/-- block 2, /repo/src/precomputed_ecmult_gen.c:463-494 -/
def c43_6_02 : List (Nat × Nat) := [
(0x983e1ca05dd64afe8d39e15e43c1cf9f6badf55012cdea895fd85021b49f173b, 0x18200e810d75a745c1ecfe5a3ead988e4327693b7e3c0e04329b0c803d9934ba),
(0x4e1200fed3e5048ff6c9fe53cdff8ef75d78e6014df471fe369f3d1e80e46674, 0xa62aca584ecf32bdcc297b38c1951c710a66966fb9ceb2adde411da7d175df94),
(0x82f5f27b83d4904263e69f48b676c9a902446955cbc18ec7fd4346fe37e0b0a1, 0xe523d039d0b8ccae737bfc119b83dfd3d6878403862618bd40ddfc899a688557),
(0xa8c0fd4eab1f0e3acab37da658fbab3d949ad9a4031d6461b264830835762d19, 0x950200a963c3dc2e6d2771e2eff401d1f9ce037e757829433fd3c560a169713a),
(0x25c1b464330689000bff89a4ee9739370b03c11a5b33d16c4f672fd4bfaa11f9, 0x471f1f8cdf18e73ae12cae3543506cf2c57894a8f633ad4ce1c5330feae42b43),
(0x497e56ce8793bfec4dc6f972dbaf4a72aa5d84123bcac5d42aa9baf8ccfd6723, 0x1d3d028eb70105b6eae667855dfe7e0b7c0a6b3ab069a475bd913aa9c29cf426),
(0x68a285b0d30c2dbbb543e480f66824b169aa339f7e2282c15dc60f508e3f2fa6, 0x87529a0e1d53588d2106444799a8fee8ffc791a7cacc9e26f7a7d94b25e74cdf),
(0x721c92ae931712f6015f4d7c498dda23e1029dbc944cea169442b22ed755a100, 0x7ef052e6a0d2646ca5dff39f3b2a1019de43e3b25e51913fd636281dcee74a85),
(0xaae8418f1b124d79ad15f7731bdcea1b453493ad4cb0cd6bee5c9a8e34335ba3, 0xc2558bb14a7addab62d1f3081a9e6fd592a069763be877d2af9ae1e8b510d98c),
(0xb6a060520b492d74c68640de8bd3251d0fbaaeb0ce1eb997f2127ead04bd0b81, 0x7bb4269c4a9ece8be8ea2f0fd663a1932a5712492814eb734ae1493a6a97b39a),
(0x42fbe0483876120311e431786af555edd7bea551d4d5aa18afaa4c052c6d0c19, 0x9ba562c0a4cdc66487caf55c291d824665c29f322a56360e90138b06f109d83b),
(0x9d6dcb88b378e7bd233464e025e97bf997768e296e4aac31301fa1c8bfbcc27b, 0xf434ea543f7269cb1ae1279d4178dd25bbc337ad2f0d5141610dc06180daa8c0),
(0xfa6fa5c81e6713d890cd6f29cc8b7d03c5f8f2d5889636527c199f6e8f98e060, 0x0726194a2a5da1b585eba1a55e06ce365aebb89dba5f7971db3c1571c848c5f9),
(0x809167d685e432c7372dc1118573e620d9ce7e9bc3ebc15bea7e866a3a8addf4, 0xbf0cb694f00fd1b4b62119b39dd6c88a22ef1feda94ac0a09cf332259298b968),
(0x99d28ee0962c1bd2fa63109df5485653964059dfbd51420624117eb4e582ad46, 0x8cbdbb664ee209b3419c0b8036affa2485cdfbc6e664442933908490f6f6353e),
(0x559d0617e0860cd1087f1c68e9a9951b0fef7dba3a67594aeade6e25e2df593f, 0x194595af721e3b26786fc25acf5b2d771fe00649b0cc49387168a9ea1fd2947e),
(0xab9a7228f0d533a34a95af3a51021b55bb3242298d101a66eb362c97eac48b02, 0x80a6d111e451eb090cbebdd5a3ce4fdb042b3665f8974df8912221b0fc7db6af),
(0x42c6680d18b0f528274c2eb5422e4731560ea862adcc441968bb5f3a5bbfcf16, 0xc8961934e5bd6e7dd64d4b1df7867c7b978d182e48315ae43fe2e082a9455792),
(0xe8bc0f9a0c3687bb69627de1df71fb3421e0252ae33d15da3039a20043ec3374, 0x15de9e9e2ac748395116ef761267300d78c2e5839286e6b6366c8a6a540036cf),
(0x604ee9284ea1c8a9a0a75bf7be3a5c0208f52d71b5fb634053401e8d08f5d3d6, 0x43bc16af5875b25d8e2427b33913f6e0bda886a752a3b812f8f191cff7bee54b),
(0x7f58906705b771ceac754412a99843524f2a4a6ba5cecae85106bb81f7e4d9dd, 0xa74f2eee584696c688157a3ffc27085c6445c7ebe363c6ed7a1f590263de2024),
(0x80aa63b31fdd0d2def602bab0dd88a1571abd052270988a463abe269fc489fcb, 0x9a145d0f6dcf0edba4873287a2f221dc4be613dff70f77550f28879a6e7d9978),
(0xca9793bd796ae0c100d778f36445bb8baa50d8594be28fe0ea1e2d1630972503, 0x07304af44c56106ef0064436c09b411b926c4c56cd82577ff8c01ab909f7c4c6),
(0x4cca305cbaf6615e8cdc8a58f3a9e52e97ee20f3ef080793ce105a03a1f1d3d2, 0x637ea84c9578321bb5dcc2397f6206bdabdfff2a128d364547d474f48a8ae493),
(0xcb7813b1a7227a24cc53b4581985592aa907711328fb2a051d4972a23127a913, 0x208b7263f8f8193b76dbfb1a6c4f9264dd12f63fe852aa8f8375fd00eef83482),
(0xd61676bea11dd1a579164cfbb2488e54555d7d5523ddc8a50454c49e4a86d8ea, 0x1875b5d56db950bc60b1eeb817a94af65a19f690d48aacb0e483ad5261995cd9),
(0x071428726f59c2c8b398b22f2ab5c3cae803a34cab5809479b7b4d831f8e8c0d, 0x3702510e324c0911b3154c61e064ba2368eff5fe6f05353a34980ec1087ab9ad),
(0x72a73d159cf7f79b950971b71c66f36254d13783c5ef67b84da61dcd4cf432aa, 0x77d711e5c1793c36eabf9b86bf3a692d234f02dbe4d5854f5deef926b9818d2f),
(0x0ab3b2dec0a8f23aa7d3b9d2888709692e45ef4737a792a5d65af92be58f6347, 0xac4e4ac91bbb57cc1437e612e4d4ce373d4f02865905b62156826d80895cb48f),
(0xfe5efdb432715fedf9bbb16f0d65ddf64ce9bb1314a491c33bfedebacb4704ef, 0xe5dc36f55fac6974eaf9d8e4232a22c38aacc6b91225a97c2e695940ec795c21),
(0x5f94851ca4149e750e44a0d817e81c75132eb242c96ae41f53f30ab90c8c828a, 0xd9473c47505e01171a0f8682777d0ca17399208ab03974fb4014f5bfc8cbaeaf),
(0x5d1bdb4ea172fa79fce4cc2983d8f8d9fc318b85f423de0dedcb63069b920471, 0xd7bc7d9886c861d186b4466bc75dd9a98614e166693a91848fccf9980847cb2c)]

/-- block 3, /repo/src/precomputed_ecmult_gen.c:495-526 -/
def c43_6_03 : List (Nat × Nat) := [
(0x8cf1437bd87e7faf550fcbe881b0741cae0b48e6e0b3c3d99b1b19242a925a26, 0x17b40146c313b1c53bdf52e0efebda4580d86783910996fb8b2d0acf9bd253a8),
(0xfedc65f0d622743c53fa6172e68d983c2c9b8fbc58943f48ad06a852c98403e1, 0xca5dcf281a2f20d15fed06db89dfd29008c9d32a0cf40fe6817e861f7f168ea9),
(0x846c6a480e771b904ae1e8d9d3daf1ffd1cb4c88bbd1de98454bc817954654f0, 0x5a4947a58a0ab99403cd0a906c1d1f0c3fb73d2a49b9c0d1a9bd35b299475dd7),
(0x4998795ea7d80937e4abee136c14585b40b2dbbb3fd3c80fc8c61b45cd1d59e8, 0x8c817eabe210398b59b316600267c099baf29e4c894e09d9a50894b4ebbe97f6),
(0x76c29921eb3f3d125c11b9063d1ac276a205804bb3e7484b72ae0483e4b3c517, 0x48d8a8a5fe658e1a4d736bd18f07b5ad28cbb775d9388e7c4fecd837c8eb964e),
(0x78de8fb2b15ff39a487135a2636bdcea57bb3a14efc329f5a06bcefa7ffeaf09, 0xa55c9e985e1f529bba7ccb6d3a5c00ce28cb14f3e9012d5f9f66d8cd5e45113d),
(0x71fb3464b0600c087fe709062792a67627830e50a0bfb473ec90953030799282, 0xfe036726cb928a8a8affed30389773772a016e7b1dbde8f36db810d7cd423f36),
(0xf1f23de6bf779cfcd864dbc7b46009cdd2306b1dcd0de2c365f3006e565d9e21, 0x84f5a01174ff8e7cc9a98f523f2980eb4b013695f62390169cc5a1d20acd8193),
(0xf18909a5a5db0daaece22ac712ae04ee534847936fd8355f9ff5ffccab6ca78d, 0x6306f08d13ce2b0cb60b3b8ab0bd5f46b3ef2a837edce51f2cb5ce4179f46344),
(0x7598d96b189f476cbcb1992d9a38adcf9d1b6ce96c87058e24584514a0df4770, 0x7f288be1b82da02ca37f655bd23643babf3d5cff3b6c27269ece7409ed78bcd6),
(0x1e44193e8223b57d8fc68641924cded83a04d806cf9dc18b7af060104e6216eb, 0x45ea3adafd726fbe2b1d6fd1858ccc2d57b237bbbc2965caebcd1b6353c2f2e1),
(0x80954b78048722868fe388912d76dfbad676b4e77901e559dd5983e4e908f13b, 0x6fe564cda0966639e0237f2946e92d294aee124fcb33da53974e8882b0acf22f),
(0x6dd8a9a9ad7196c13c36464a5cb9fb41aad8b0cc423b99faa281c5d5a6ce6ead, 0x79a514698767adcfed287aa4914eedc58382af715485c2aa0c3a77c4efe2aafe),
(0x1895cc13f99534a1187a3d65d1480669f0d0c0bfb42b2a9f1a6392d87e1d2c6e, 0xb7905afac0eb9b6651de35832cfb9ac7ae8d23551e334d5932909de9ed400a0c),
(0xf1efcb8a86f9499765b38fa58edced687737b8e949dc05f2190b359d9ed2c0a9, 0x79b2c87422de216b904572b7a39f320d0f53e3928dd8e533a1a28d93fdd4945e),
(0x2944af80c207d107ce89fb90ea6daa2ac65c1360503c36c5ad79833390432ce4, 0x44b53d27fd6730f2033b8c29f12561360c63774086e001a760bc1ff0f8b6211a),
(0x938a1dff117540c8f6ee7df62d3c2cf331b38593131527c39804c6d9874752fb, 0x4683d049f096bc2102e0dc20a8600b8aa02133d5d0ae8d6cb26e4694ed6f2aa9),
(0xb1b3b2c954d1fb6e98fcf939efc188032f69398981f19c32f5e55b301f59eb16, 0x423a67541a29bb0195adfe15c1df1c9d81394e962bd1926ccc789f5beef9ec29),
(0x52e23f2b19048d43b1725695e3bdfc7af4ebd2bf594f013bb80d6d0cec10632f, 0x258a623667090b8a73881e39746906f8eabb66834bc3473e1c6fa8b654641cdc),
(0x5799a463cc817bfa26bcc543efe0e00bca9d23201989e854620fc9b1ffc14afe, 0x645238d18c69338f9c9395fa5ef7c9b0f62b7dc90c4c6b9ec545c85095b6b7ad),
(0x1c493b523f5a44676268220a58246228608a603df6edb1c91a90b06070b16069, 0x8d311a455af92640e9fe08f02981db5703b22bf48fd5e76f31c175be23e24fd4),
(0x84f5a9c9cda291c071aa9f8dd7af5a8bf2ee0ddafb9139edfee08f0f03f9cec2, 0xdf38132716527be1d86991a9bc28966ac3c6c0814fc0def885e5d160f59f4458),
(0x712c18a00ae87e7e87856c8bff6e3f6d996ae157970e754fbba80bee421fcde7, 0x0b2788bae69d34baeb5dfd62830396df3b8934a9551c60700ae8203cccc50ac9),
(0xa5104184ee996a347122a460cd2eba5a11d04aaaa47d2ede25ea13fa41ee01f4, 0xf4b5f2b3f7ec90617ab5f3cb763233d0afc8d4bffc5350765dc5fd41cc547ffc),
(0x793830750a46a8eb559ac95e7dbeb9ee51b6e90627e55b9b922473fd5f2eb63a, 0x243f56e984fd267358754a672bac56a79ae71a5d681507408eaf8c2db55ef1a0),
(0x2b22635fb83ab0d49b82edfaa54d62348d3bee6fedbe33159470b18a96f97821, 0x41d9f3a952f17182ccf02725b58ebd7a01f372351fbb8f2c15403890e8b25b82),
(0x272fdefe148ef7e6957fb8a14a07f0adb17c27ea495325475114c1f4076170a0, 0x0789b8eb5846e50bd489bf66cebd873f7cf056193674e7d7147ea6916a9b8451),
(0x2c2da4c08a6e73c02efd6e7d13006135f09990a14c0a0eac1f286108f4a2a0e0, 0x8011a521d7fa0ab275765bcf50dba163009e89c9300e8a2531942cc3fdade63d),
(0x019a9e5f1c4cae30797a98dba24051a438ea755c7b062094a34ed6e88a8ff2cf, 0xe199e398157a50a1056f9d6dafed48cff318141177b792cac588189824f1b8dd),
(0xf7a4be3dfc6579fb43c5a9600890893af4026165ed9e3ab2e6929378b63968b6, 0x2922109317dc39eade2d6fcfc735ad2d668fd0472eefefa1b6b225cc2f3cb3ad),
(0xe5380fe8575f26adb7924ae0d58138d268112776b11bd34b3eb5e19633f0e9aa, 0x4680278c6f784be2a496ec9c6db371fe9046b1a20b97ce713b45bec8bf7d8a20),
(0x4c1b9866ed9a7e9b553973c6c93b02bf0b62fb012edfb59dd2712a5caf92c541, 0x3e086d2cdf4175f0804348ac31a9196339ad15281bc14e528d3b0c0139701c0f)]

/-- block 4, /repo/src/precomputed_ecmult_gen.c:527-558 -/
def c43_6_04 : List (Nat × Nat) := [
(0x5a13b9b205aa69441b0b5fb7f7665dda095aff48e3250b4e34cf8e2887406c1c, 0x245f250d78fd66ef24745e09f067f16dd400c38766d2a1a9af51e84f733d0ba2),
(0x617b41c68534072f2302290a4956171e902634bb4356bd27ab83a377013d8ef6, 0xc867779b97383817dfd0971f64c09c717c468a5de1bb8ed0feb98f5a305d8e6a),
(0x0ac118aeed46b08b488202f696d9469ae9af3cc7ddc8eb7144903a3cee43c654, 0xf992fcea8268ca6b79f5ce69c87dcfa842ea0345d7c85a5ea1b89f1c9d0217aa),
(0x741dc47d2e0d14243f2bd96d9033d8c29008c1e366bfb5a11434f1cb3d85310f, 0xc3135d44e86f574c266f97d0f0279dc752aee0ab8e3ed78bee0fc646c133000e),
(0x2e973138f6cea9c05adfbb5f49a7b9285ae0c15d120a8b1f2d0c76ea01fdcc7e, 0xa05bc93e68bc82da7a7c7e3895a647d87f724f200c5b312b738c6dee90de771a),
(0x9d938d6acf56104b5522351a3c424e01e4d21c33771ca94cf55357fcfe51f91e, 0x881d05fd4658b08bedf87396be3fbb95ec9f371d79ff45866ddc803b65ae763f),
(0x37a8ed2b4085961b84645ad98f2c901dfe9a9a8b4de8fc8902cfbca5c8909835, 0xb1bdacde94fdc3a878cd0eacf8865d6477e2cff50efef83497b938355b7b401a),
(0xda1ba9540899cb05dae6fea2dc8ddd7c5ef9e91c3455838ca49d2858ec217d66, 0x14051c3a12332d70f8ad8ffa567765fbdef696404291b81ed3978bf451f788a0),
(0x92d2ef445a10dbc673f8c1e6af093596013bd1e3c1b24705bad2b3dee8f11b81, 0xadfed916800d3e9491a42c59dd72e3ea57d47081b9afe668f853cec2c72cbab7),
(0xe62208bd52620df891b3ddbfe6cf06416059ce50be3b00ce014e7a536d1acb07, 0x1fb71455053b2f4c431fd86fc72d51af5e2edb41dd3f69a19a971371d9679dc5),
(0x191fec47a48ee26835ed37ff6758a80a532f7011ab099048b024efbfcde1d0ab, 0x047b6389b3f5534da632924d5b65918df65c9c2a2904ee954f24aeb8c6a02557),
(0x60c822fea74d52b7d5203720b2c2a361b7628aead2a683bd80655636bed15714, 0x05d9a9c0120211b2e8285b778f8d4bc0b06240d922944248e1cfce73826bb67d),
(0xf602da1c788ea65bcc339a38c353bc081c43c2f26e05ea6dab52648f890c9101, 0x2146892989348f8c67cfdeda31ef342923b5a4509fbe9a49f011d42e57f998e6),
(0x756240c05274101b3059d23c76d9ecdf33e1312b007a36afea21e6a6c52cdbb5, 0xab24e853900c7ff13e4f813da2acdd5f53ce1710b785ffbde74494ab43e583ee),
(0x8e815b457adf482ee30e475a4949e5aec7ff494aa918f07fc39441e2360d112c, 0x0a966f042dd9edb9436b00057473aa66dd19b4d2cbb3bd95932ba98ef1a1f406),
(0x216d597036c661f2cf6122c0a136cc339660306f1c190ee55f3bf438e7189261, 0x5bd23797c6753eee6fb934bfdc897ec125b31c9b9e797ef156d8cdda2ec1d128),
(0xa30ed06e0ce34d29a92fdeef6954b5ed4065d5923af09be4f0ad4a73e7c24346, 0xf6aea4186b38c188b84fb6f42b6559bef52dc13eb7ddeccb6e85a76a8d4efeaa),
(0xaa42d20d8acf7c47fe40ac153fcaf1ac6c4ecc37dfa39c39fe5c7657c78444d5, 0xbc3becdf464ce930e42a05b2c52d3589fd45ff37c7d1767ef846281189634059),
(0x7585f8cb4812e306de02393cc06e98711953133cbcb67ec5c6a7922869124ff5, 0xc242853d01a2c1c9a1cd1b5b364888fd28bb23c102b0e169067961b3e7c8b95b),
(0xb096a1aafb969483185ba1fba5fa3f3ad1da87dca10344a4d74ef47145cc45ce, 0xedbc94902380186144ee39a507bdec0a230df57a72649e04c4c998830a147f0f),
(0x7034d8cfdf226df16b31062835dc02c9f3e3f91a635ad93c46be292d56c0ec2d, 0xf783b6e829447cf232769a137ff33f82f9fb166aaec8c3ad01679c48c1a913a0),
(0x9f88b01bb936defd0f61156ab55ca290cf282a2f3718b0cc2d32dd3c49248b4f, 0xc24ebc3527052f7741087cb0e772ce121035042e603f1301e19cee0d30029230),
(0x1444319051f05d23343367e96add133dfcb632092f21884759ad81bac65e7445, 0x745216d2d11f25567e3b224b6dce478cbb988b96a1240093964e4ba6f3b15554),
(0x54aa2e023038fd83f17a633fd9ab441fe039dd0c057f93683da013f1751c6813, 0xf4d163aca9af3e08c009b44cb358ebaf31aacc5ee0bdb9170d1b4df5420d2d34),
(0xfd44e742b04ca4df693e31093ec52ad61f67264e100618e588d638d6d96efa41, 0x7ac09cb12134a246b17ce054b38f3bb77d794f9b2fca3786a0ba665d3eb0f14e),
(0xf662f21410cf6e6b7f79fca807ea392506760d8317478419ff4671f02bd2ab6c, 0xbe4ad0b7a56c87a48fbc166bda8473ba6518385dbd004b5dc85126bf7b9309bb),
(0x520e27551cd804d267f9b4cab3986952612bb099cbd3f3bea54f505ebba4db64, 0xe3c75cd2c831c539b095ac183bb13a72ba7cb1525b9c214c288509a398a9cc3b),
(0x04d16fa32d74de13111b3f22c4133ea5377921ba0e54af1d666d6e9fb01e117d, 0xa63bdf7578d73f0375aed6570fbb867567230c3f868f2cf7b7275ec8b02ac46f),
(0xab928c61ad1c2f68905b9e953c2629ad9bb7c8cfad9f5a4b35b35fad69a92568, 0xbf39ec2f6c1ae222ff3833756bd83882c05be6ae692539a45124b972e72159ee),
(0x8731aaa49358073266b965777bc24a4617fb836351c5ad8fc8bc053e802dd07d, 0x36957f161020430f69a3b1c31a6df993d9ca8e2a8f487b7fb2ccd44c7f528ce9),
(0x3514d41e8b9388e433d1155cc777c39822ab36c63c2aaad7ce67483121231d11, 0x7657cdafe9fe814710bb2ee1a97c61006c7b0ce2f5086141ac2904be1c7a9e3a),
(0x09bb8a132dcad2f2c8731a0b37cbcafdb3b2dd824f23cd3e07f64eae9ad1b1f7, 0x6ba44d4d50111c46490622d7b079c17af0ab57bf0b8ad2ac9becf9d73c7edfaf)]

/-- block 5, /repo/src/precomputed_ecmult_gen.c:559-590 -/
def c43_6_05 : List (Nat × Nat) := [
(0xe60e88f1dc24f079f835b687778307af0083446e71809086e6dac0db9f191de4, 0x25a0b86eff05c8490d79a1761a634d8229d2a7590fbd003cb6ca414785726362),
(0x55a5e6cdc9e111030749d469dae84a889e744dd5d930976215050a830fef66fe, 0x31278ace0a971a41e2f9fb168e80ec0337009cd5b0a49938c28c902ca7c71fd2),
(0x5f25326de99a7c5ad81bf2ea61a9195d48832bfa8caa977753e483f2b5a62580, 0x40b69a1bbaa2d0d15cb78a3d3d184c085b4c16d290751ec9bf3eb3c1d3ec2ab5),
(0x1a32cc7af88976b6cbc8986589e685ac49381a291579bd2a013f9488c0333d19, 0x4667a3e22048f78111f009ae5d7b1b97850a3a5b86f77880b128c8c6a9720acc),
(0x1d78e74c66247be9352c97975fbc1299743f9c74068c64d1f2d8affd1b098769, 0x37adf553fa2a11e26913ab02e59c4f2a48133fe7d9aa3c24a76e9af948a29d8f),
(0x8bb6f83f6be5c2e2b2bb265a9bb3c931bd5cce6a48efccdfdaa040da535dbc86, 0xeb96a98223278b816284fee7b5b8a1217350cdbad56b607889602bbabc003481),
(0xa9f19ca81d2ebafc4bb5d88176bce19ad2d2564e185f905b8f9eeca5d6b12d6b, 0xab23a4683279a9f8e2e8f880e0accbba844bd4e94d3e4b4374db2b55d998771e),
(0x19680305c887467ac3bfe44adbe654317323d8e562271e251a794b78618befcc, 0x48e9303a3d6371f7cf0a904ccf16f606b000758387ae0952c6119521dde25532),
(0x18b3bd03ed4696c47c3f896e5df7481d6f19a5ef53d62ff82948f1b20154175c, 0x85fb04fd6573a19f2c136753a1ca2585d39dd64e6e6e3fa5fba362b4ae9dad36),
(0x38e3bee103cc3e18a57aef974ffee58aa392c31114ac8baa1376b56df8ac017e, 0x8596c7f98abf3e444ab5491bfe659619f6defb58f48e2b7b57842193cd48fb5c),
(0xdba5da088cd17c333e892bcc46261694d2ff3a222a26f92c17c5e1e2797b235f, 0xebc15bfc5729e98685a19afbd7f9a219e60d2784e9b283cd3697f782630fe222),
(0x60456426caea7fc448970eeafab9c6323e66fcee50f926307b13093725b85ee8, 0xdd22df89c5dae339494595931433f2f65f71937968e56f92a38d129017881924),
(0xf1ceac82156702120279f36ef0c8ce283a192f66460e4875d90b2f51a38f5712, 0xec11f026c76c271efabd7d55c8488d993298f6ffc05ad4a126be94477d878b9e),
(0x2c2fb5de5dea249a7bf6b1968bdec8d61838da2c12147045018d64940f09e50e, 0x6c0d020ad6bfd7305ee73634e939ac89ca2b7d4fdcbe760c2d14ade2659a5b8c),
(0x2858ea8cd40ce26403c9a305c0e2c758af5b0b4d5c57ed2160cf7ec4154ffdc2, 0x033586bfa61a3cde4f402bea123c69e202410c0e590a71d89a1e813085cbb579),
(0x2749a2504e7cefa3a36470886bec22fa339fec0d0ec63c0219e6af397fdec3e0, 0xd3415104a9070af8b61acdf077954d3757fcf742a006129a5c0d35293aa95407),
(0x8edf3ad839e661b5f7f16a85dce3caf5d571acf4d0c6195c053b618e5311ac65, 0xfca0efba35a14d3a9944367edb4ac9827dcb7aa012438c5baa5627c4c4a15ed1),
(0xdbb923588b0832945d6d3b629cced57d7085d3e2d0890bde95d8040098c22745, 0x428166615515429aaa0237375fb77804624546f21f0a34ac1ed4e4eedceddccd),
(0xaaca989606196ce2e13df3c7d058a5e510566df05fefc04e0051f9dd85a4349d, 0xbe389d02789548e0aaf67c573b91b389c7e6ed80ca3e637a2a14726280cd5620),
(0x104804abe621b09861fc540ff4d6be9a750e3cfb706170dbe34c06ede0a431ea, 0x14b700eda465915aeff84ab9fa568535f63e4f441387ab4bd841072d97739071),
(0xb2215070a8ea71f9b71f1a730d6ce366c322b8ac4d135b3dccea68e5a51f1c0f, 0x9e415cce3bcc4e626f3c8caffd632eea862a046ebb45e8bc84fc05a7a4b87e00),
(0x600c6e28be5ebd28d83e6c86bbbd9b0baca22006422346346124133f3348e6f7, 0x822b181679e253dba47ddd76c00239915c0c02068f42241594ac38b8ff7994fc),
(0xf8b9b45fc6298dc713355bf13ee33ca9c4c1aacec09776e256b3746d0ccae0dc, 0xbf4b7f961844aa2c6ed8c8a56626386d174e77fb98c0c23ee2b6de903f1f79cd),
(0x63987b1867fe5a17333eef285385a0a60576163e2c74cd00ba87b6fc96a57faa, 0x23ce665551d48ca3c702a5be87a05d98b5aa1097dd5877e811e32d764873e6cc),
(0x2eb06c4f5ea9ad2b124a1202cb13c1aeaec4394f04af7c96d6a9ecba540ee04d, 0xb96173dc77b46ef06f4141ec096ce8d14adfcfdef0bd7ea2479ba6d7522d037f),
(0x5db39904153002b31498bb0116efd0b5838e349562d9428c912987f103aae5ae, 0x2115b896479d0d0f75ffcb54ff9e3f73d1356ff14b14292c6bfe8d54e9e08861),
(0xc0f141107f324ffc0f3d3e6c78d5a6286000d57d7e85bc7cfda15f7579cef3ed, 0x6eb03650c8142b12b330b96b81214a4dd01b068a7482761153d2c52ee1315ce5),
(0x7e3d1510ed767345bbb3515b6f9819bf33ed9deafab35d01a7284cc2371b0e66, 0x4c6b3aca5159023bd43ec0b257e77e87e5a6b745178bb01709960c890361fd97),
(0xf98b5dbc3e54c227b002f45894850ff43b15b2d61607851c50d1e4d18b20907d, 0x1d2af742b0b5ec05bd6c648f94563361be03261fda56f1ca7caece63a336d580),
(0x188ef3bfab10378437e1859a7d53e8996124c395ca422c05d6b21b3cefc76ac1, 0x19036685fad045662ffa04e730c671c71b299217c389c78acae9fcd4ad70fb73),
(0xb89070ae96ead4dc49be16f6a1a30bc241b4e98bc18d02274c9d9d87dcbf00eb, 0x90db373d375d2770b8dd6b1b3e3b589934f274f949469598e480e431e4f195e1),
(0x381c4ad7a7a97bfda61c6031c118495fc4ea4bc08f6766d676bee90847d297fd, 0x6c950ac4dc71111b70c1a058f66ea1330fbaefcd246c63ff6c531ce682b6bc6a)]

/-- block 6, /repo/src/precomputed_ecmult_gen.c:591-622 -/
def c43_6_06 : List (Nat × Nat) := [
(0x704a26e519071bb024eb2a1648b66a6e157b07a552fc4258381f7d02e8fd9b9e, 0xd169ea558650aa3bce52c645278422a369326e7446039381920f5857fa3492fa),
(0x705063f50e48173560afe9dd5b2beedad6e4639175ad7fb6f73350df51edf53c, 0x3229095661cacec9472dd014bda523643399d7cd9ce2bb31a5b2359022c6ee5c),
(0x972e7585f8b1725f4a7d18e777939aa603600a7ba07c4d945da9511e889473f5, 0xaae4382a49b4c97abc3edb7d26ba7bad16752047dc99b434f306c6732851310b),
(0x260530bbe338f4a971930b124f18c82de33f22d732de937581e2b0d515e59d97, 0x77c66c36d6b092058ade9c0c0a311b60a705c8c8073fd2d48e6327cb71eefd4a),
(0x15464351d21d2513f792ee32aca3eca7a52cdaaf9862172ae7224a03804581dd, 0xd9ee19f4502f1c44f656ad4eadd6adbbd8a04f5e5344b554894721eb8e3e2285),
(0x4fcc68a3caf3ff91dcce977011ad51576c844132321791caa652593f6cafcd04, 0xe8db3aeaa35371bf9700a9bfb85e90b3093cc0889cd655e3fb18635b49fb59eb),
(0x301c65ad567952dc6b39134ec361030b3f5203edda89784b225548ec45c75eee, 0x95e2c0bc7b4a7cde8ce3dacea691bafbf78fb03f3170b347ee807f426b947560),
(0x96ca5edd8047ec6fb5f8c37ca734533d13f0e6e700f55d280b8b10b5121f4abe, 0x1a21f1baf6a2e336247f6ee088cca9ff816b06673badc241d9ed00fcd2070f1f),
(0xc94633f5783c4e6812143fc46e67097808e8a526819afea9404dfa00df1bd839, 0x874f87600033dba9de463f86b597219ac1ea37f3970bdadf97c96c48feec4ec5),
(0x963146d45bdaa05ab5115ac23ee862a02305ba9c75003f4e0ab838f7e9adcdfa, 0xd75766de299e5cf3c87962345db9866ccf011c5cf108a7945642a6b9dd33eb0f),
(0xdde8c870ec4e98902a820a7bc578403419ac261ede5afd0b82b8c5a07c2863df, 0xe7833936050d4af7427158e46c753ac1a5143c9bc09de97b03b270656f622b82),
(0x546c6b00c5e34a8c4cc7255c02edea33d9f77e7ac67ee629bbdf18794622265e, 0x5ae149daf65aba8de214fa63be9bbf113dd3c22012d206bdd56026e74a019897),
(0x4340c850d91b63fdbdaf41bcf8d8c010d3f30eb579eeefc9e67c127a33324071, 0xdd66033eeb5ae8b33c47a9402482bcdd04db5c8edda3b42235627434dc3bad1f),
(0xf796431f679d9cb577bce62d236d1fe9b5042a83fdd1cf941a2e00c05a261d11, 0x718fffe768aa2591d3fb1fd601a005373b529f9df9c27f7931ad0df99aa74859),
(0xf3d17ae9d5b4cf4127423894916318bcadfb5a9a6c2ca2191b918e43eb5ed129, 0x9da6d03349c64d797ad09a33bf71cf878e0ae6a79fa7bc3f0145112618415960),
(0x23899a73a4b52d2729ab52a8370ceef804c7684ccd535f4aec360eabcfa5a787, 0xf1bcde3c5c4740c737b066b38a1a88fac43357f7f3fa23a7b00815a385336320),
(0x5805914f5418971b106305cfc397dc12f63a3b2d8b451e5dc1b60c2e3d9e9208, 0x616e276467a5f1b646279ee96e8645f376a80192031e17a5c92e26ec1b76e62b),
(0x85ffc3261991848b5e918c4a53f291a831796b52d56a5c388bebe625d78cd07e, 0x95fd6f127b155e6f806c089f3f5abe95344e9014e2c72fdbe720bb8a93d864a6),
(0x6f1a57d06566bf81f4b1632919f477efaab4f829e29dda4b27627b961cbfe3eb, 0xde1e83597ff20c633d28b909caef273aa57898f1a797fd910e00e2e7da1872f4),
(0x3d28eba04d0ae2f6208adc71cd6af3b0e208860c722903abe106feb0af3185e9, 0xcf8bad1840d3d2b4abfb5b28b50702dc512527d95bcd403d9713ec7bef1dda13),
(0x465119792b8451131b32663e0baa14c420a5408c1f53afb243cd496ec4b18118, 0x40bd602bd740096e842b40fd8304ee73842b074e0415d5ac0c5e224328b241f9),
(0x393a8bb87ffe4265516785248ac940c64aa70e71512ebbc23485596c0a6d9da5, 0x25773032d2c1f80b3954715a6e4132a174b4468e0658f6cc4d5f5d63d458980b),
(0xaeb37eed352746962b85a21c86b9fe34604336069ae4ce6e3a8235a5e43c48ad, 0xd94165e15372330a7b5507f0377a966a541b6fcb949398c8dd6d6f522411d86d),
(0xb0bbb4d3100ce417dec58f4695ed8b304306f21fee11f899585fb37ea9905c59, 0x89141fcc9344e6177742e31c42c565d045c7ccb86f88df7c5c36d23e45e51d75),
(0x49694de70330b4c31431d452f3e9e562eddfe02901cce58c73b69cdcb89e0f49, 0x04715ea3b6fdccf8e224b93affdfd1acad8baf44c5bce735e7c9b4ef3faa2656),
(0x9a7720b3ff0363dd7263e1ad83c3252667b67d3b72c2c14c95f0804add20f7a8, 0x815a769c0494824a00a819ea54b560ede1df9bcad7df2d630aae69c4a02f9f20),
(0xb89c399fcdb3aacf99796fd095c17cc9786d79b49a1a255d5c9ee51038d3620e, 0xee3c4936d4f9d1f9d2642043d25b21a1aa32fa3eef44f409073db47a96965cdc),
(0xadd68bacd7180ac14e9bbc5d1e0c3911f2202d901f9ba64946b06507b86ed5e9, 0xfcffc13ea9be67be8d090a779fd9107bf62bc7853f98e97ac0358b3b7719944d),
(0x9bf62cdccdabe928c1ab44ce38cd0611135971ed81ce6c6fdfc5eb5bd9c3996f, 0x885b2381e0e785d3cc3f78c70f9fd54becdd9d9fc2979e23f97e9bd2a4f10d3c),
(0xbb223ceef11450d5c5e0b75d20eb44be9d44dcff2857411712fc58753b839339, 0x8bb2998587eb6f5c0c8cb615285d9e6971db8e318d81fd5d6318909b8311a00b),
(0x9ed73f092263e84cd022388eda82361b445f573db646cc62fa0bf5c51d33fd27, 0x49ce7698144e1115118a4b0cbdb98dab6b57dc1a4d1bb6cba68d4d20d8e937d7),
(0xe747333fd75d51755a0cc9f0a728708465a02c587737a7b8b8fa1b8b4bb2629a, 0x0d5001febaf8f3eeb33bc9fc7fb3da7e377c895591e56965607269e496b90559)]

/-- block 7, /repo/src/precomputed_ecmult_gen.c:623-654 -/
def c43_6_07 : List (Nat × Nat) := [
(0x516ea7423f9567650a15f856182f1e7c18d3e548b9fdca94ea46024a1a8fcbc0, 0xcfddd98fbe50060428beb90192c01282aaf9ed9376f0e26be912ac42a378d542),
(0x8ed072cb13eb90c9e5c107f6ba576a87ac75a43153025e6a86addb95bba7862f, 0xeece8a5af28d356bf1a84c142549ae7f894f7c07305194f318e30e0c873fb5b0),
(0x3e0e488b1c8acc24f81bfa1af6761afdb4fa5f5e6317ba72bfba2f076c2ff593, 0x2c4ec39b2f37b948fdbc9e3ba3fa82c0dcfde2e257830a044c178759ef5bbc8b),
(0xf6b3f19fcd7eac5a13630ad1bbf331b95608b7a0ceaa67e24a1e830b5eed9825, 0xa2a6407819ba0f7e7a890df9523c673650ad08d5c2557cd153c6ee65ef493ce5),
(0xe2de599a879285ad398b10318e1a838721a5c4f71105469eaffc8e370189548a, 0xdd977e623dc05cd63155a71dd87d91d1d74d6e315f73434b679b605d9db264df),
(0x0bc52359683840a859fc2c8e22d72ec5da2493a4bb5073a7f658517ade83f867, 0x76a13651712ff42ea0c10f0945c4ce412cc8c4f2ac3ae4467cb383c8656d3186),
(0xd87e2b08154e38c013847a5a2f84c276dc088b6fc19a9bf390a8a433fa937fda, 0x0d91447f7c9042e46f64a9c640a5c2941a6f08f5d3eed4640b09b2a11c402c0c),
(0x4359ac5c5dd70bf1d4f24f001301b9f617d9c69b63350dad9a8cd192655ea801, 0xc9e14f94d8ec39aa460926575d770426350794a4b1ef2410a9b0118cac5d55c1),
(0x3ab3f50329e22bf68fe9882b3b4dc98936dfd840be6af588ab6d61de48094b9e, 0x4a40c4359f4dd21b116640954b55e6b9f0308786eec32fca6bcdd5d58d055ac6),
(0xa0f1ac27d046d987b9a98bf30f770205931fce9359b759446494d221dc2752b2, 0xbf1bfdc647a1599797b5b6cf2d8a2a44e9c36b9a20b53abe58ce9e0a395fab70),
(0xa9aa63ed3b0260d2b35b030c7a5511c8679b6170b8a4f386fae0bfa892735905, 0x2f6546204dba9b3199bd648ccb1605f762f312d167123d98ed66f02e4d794e90),
(0xe51da1575e566ef3bad3fa66e55432e129be6c3632e390c0f4d76719bae34b7b, 0x55930b792ffc91de674820b1eec290d774ecd79d1ca07d6f5ea2f8174759984e),
(0x8b69a891b417ea657ba52bae58920eb7f101bb92e150dc1bc961c37e73cd18b7, 0x5b824edbf4a6898839de0d70ec16ee1ca01a4692f29263e11069aec86b149214),
(0xee5c11867746264906d37fba0e48e797dc69f31cd6ad22cc937c7224ef7ce8db, 0x13f7987cf2cc4551e058d4103d5c24d513c2d602ddccadaefddcab82d14d5310),
(0xb961cb455de8b5b6c4c5c2d575303c8135b5d278503a15d2371b0551005b236b, 0x3ed184865ca969ba031c734a190551291cd664be576925a32a1427694fc40df2),
(0x083effa4c127b5ad7a0c53df5be5596bd4a429872eafd8f15498a6d247b87314, 0xefa99759c9360b147643de2d64ad07ea39cfabe02bc94e00dc9b2e70c2e2c217),
(0xf253fc524fb0254ee772f50e5d6c16d848692455c855d4be15ea9f9e9a5411dc, 0x059bd1f82cece6098a63fa1d48e4166ad79174ec5f8216c316c48c1fe5c9a0d7),
(0x6b61024ee6451d9701446b551476c3eceb6b19ec16155acd317bc2be11086411, 0x08de5c6e37b562daca5a203eea028b76e6befaffe54b49d26605f169592242cd),
(0x1691a90b9cf726213680a72daf59ef24985448ff5f35372aab6e2aefdf8b33e5, 0x83d2032b6ca761d1286c1348312500545a230558cba391e6f0db9c9f97c2d618),
(0x42a078ddcf749f25aec7a1f28e976f790e268c36a7b5b0cd6aaee3e0925746ea, 0xc60f18466f025987e0ea6ca03eb98df699389753b57abbf4f5739509bfd09d1e),
(0x21bfc1a716b095435142c31e5038d4ea4643d9c32fd4728d1374dba81ca1f07a, 0xa991d4912601ca238e289e71e9d743da4385aed6c732f8086dc2140674540acb),
(0xe75223e8fe247a985220cbfe52151978c98d1460746f8de28696d23571f3336b, 0xdbbb8075ab48958252472982c7b0c3bbd82a076236c07c0544417ff3883f6f18),
(0x007a756a72fee88c7a2758a53294da856b06129c1978e2172bc7952c92b05265, 0xc4ad3a0dbe72fd27bfa475d0fbd16a925e9393620bc0748cc39ba9f03ad84133),
(0x2bc697fad947fd6263bb28411a274520f5d582f67f039114293438fc9aad7c82, 0x543109b982097efccb44d85411fc52306c7a219f2f58b37e3dd354a82ffb28ad),
(0x3862db951ed8994ba8cc0178f6dc97efdb6e1380c18719abcd24a88c87039744, 0xaf1e8ac902b195d36fe1b1bea68e9215a453e63867e65d8864a8baf3ff5c1267),
(0x7b648cfa40ce727459a6fae22836ea1d0b18ada49b18a61d748127f77ceee771, 0xf2a30c564288713530124a69da2c03558688bac3dae6d95f0a252855a85a9b4f),
(0xf803d7c61820f980ebe0b29787aa688cddadefca229b99b3a6bde5e9922f94d2, 0xa5f8b45034dc7de1461dfb74e7ed9c4980407bf04b0d9159af703a9e1e0f9c61),
(0x2247f6309be2f3aae30c5907c29095d4b9198d251a17bb347cf5cb35a2ecb1f1, 0x8268596420d87b071c5a4044b79b069f7fa6ecf2cfc0f839b21614755728c2f1),
(0x1d770ace0ceb2183fea7c924a8fba197579df37a908992bed42c8e808bd98ee1, 0xd87077fa0b910a218769cfc749aad579c809e35bf1c2a81306047e85e2c6fc65),
(0x5d134e5c5da47f7ba495f216b4994d904a79057a3d0076be34f0901399f1f366, 0xfc4e10b2c1f7bafbd241d5b51c57d48c30fd29e9df5774c61d4f2c153b66ed03),
(0xa49ed10eaaab93233a5f485d4bd18c0628ab2629f0b8c3db4d05956d6c953fa9, 0x338d476b99f0ac671fcb893f5f202204a5178acb6971e7e4984d42dcb904afbd),
(0x4d000b621adb87e1c53261af9db2e179141ecae0b331a1870aa4040aee752b08, 0x95f2a470e71f2daa34927daa7d268d3334820a0ee638d6c5c18d7adfb7cfcf45)]

/-- block 8, /repo/src/precomputed_ecmult_gen.c:655-686 -/
def c43_6_08 : List (Nat × Nat) := [
(0x44d42980eb92b3e3b16816f556858355e031b88c99117385def6599ef274e56f, 0x6e3de5ba4f693fdc747caacdb2cf01070f29fa7c9c6a1a09a527cd164c2c1484),
(0x9812d5080d6da3036f08fa7b54cae319232f925d6af91d71fe6c2fb30bc86be5, 0x735081a035fc17f67547b9b8f0f91ac7f0ddb96519f6f398dea745a981441e2c),
(0x05a022baa90ddc87422467834f692ecfdd2c2dcfb054308f4afeb17a7ff6ddcf, 0x6fc2a9a54c7a130dfd26ca4882406fb9f67db0ab7e6a6d9501675fef2e2d4256),
(0xc181ffeba8ea7d69c524cd4218af30301cac8e9769eaf6f6ba73027d30fb7bd6, 0xe88959e5b07b7d3e0693756af94590bf0997763bafa7d850a80dd9fb88e6e904),
(0xe29375b8021c056c30954b814f9ce795c1493dfbebf06f6ff32c92c8c74839f1, 0xa9040ad095c9d45b1527c624bac868410a1f28b7ccf8dd37b7e950b4858e6e18),
(0x69445948ebec5ae39fcb505d7efb79026bc1e8fd5d3024ac2b77243972142d80, 0x5b6c2694abac3938db89939662635c21e64fe2aa40d1867809c246e9fe3f4be6),
(0xa86f3aad85d0bbb38270956f58c2fd65f542542827d7a658da1b111f64c02c36, 0xdec740b0ee35208cdbec5b7f69bb94f07fccd07507868a376ecec7b6dcbe20e0),
(0xba2bf65faac92da56c252b508dd74e3e99ace1bc42b9d2db9d0ead3db6820306, 0x37bcd01a75027b42eb0d7b85564bedf9671539306fc97106ab6623e990b031ba),
(0x78419e614e8b5eb9d09e0c0979ce4eaa26271696fcc682694cddf1d906a4c7fa, 0xa32dbb3b46f9b6b49adf4ddef1986af9072662a62ed6b6a2f8b920b682b32363),
(0x71163271204207c8a84b599388beb505640898abb24c4c1042195dd815d77985, 0xaab436099370f2467035ddc2e71d73f3c0f1aa13148303bd840459daae307e8d),
(0x473f52a1fb7c3920f09ba6e0a3c891c33f4a13cd9dbf51f0f3d39ef2d6bc07d0, 0xb2c403d24aef71eb1b834df28bc08b675130897fa6d9855aeb21ccf2780444cc),
(0x581e93b299b8c50ee6338c0ff426502ad8699563f17935ddabe08a736932b71f, 0x46e7c7c51e076fd89b8aa98cf0b3933b8ca82cc4d21783a4d74ae1b6ca9896e6),
(0xe65d9e24e7340122875a9d86d6071a48691ed5e5a94b315c76f169f7f3d69c48, 0x73575103a70b7a5990d9b8808698b651271c8c0cac93122a66873bf1fa3c6fab),
(0xcceab216041d0597f9c7ab647f99154cb22d482770395d6fddd6db5adc752825, 0x4084c57d5aafc328e7a250d0a7c3c0a9627ddd70c77c2be7e5a1af34359b9b86),
(0x4222ee665baff42117f47df5c1c1df5adbafb790d5c75bb72646cf857ae85923, 0x43088d6ca029903ff5a789f8167303455a5cd0afcab57e1512781396fcc9b6da),
(0x391c5d0b017a8c113440cd3083434841969b083371758b3027e38a25e778da6a, 0x69f3d295be55f8594bbb2fb4116de5d0b24b5a80ed62c1e208fca9b83f6d7439),
(0x803b7149f87e86c013599898b0c9050cd4a6e030e07e8d7ca49c46a38a6ea6a1, 0x6b367fcc06d5916e72f670a65ada9c3954800e90a8830fadc9ea17c0494cd9aa),
(0xf7aa1c64f8f92f201319f316353d89bbeaa4d65ae148b01fab66aff6c9deb179, 0xe9b407d94c2b385a74f22eba93dc35e9bebca7d517401b7b576b7d2be13ff0c0),
(0xf1c34d522b7493eccefd49da99732e0085ace2c9fd14e9b069b67dcd5acd5e23, 0x29460fc7dd77494ea5a7764c7ca6db5d5d7a5e3f65e865b9e5f85d58e77713e9),
(0xdb19a1f638ef70345340e3df8d3849447500640dcdbc3be4df3b191cedb9db87, 0x0baac873a76e0b91c48477709dbe88e96195e9c4ac4d774971ca204d4a5e748b),
(0x4ad12e00f384c7f6ea669c7103649da655e0abec67551a58224b9f9dde6bdaf9, 0x02e0314a8e3f32da33a22ecfccac496501f1f6f520baeddf39a02bd8423cd40c),
(0xc9130b88cd451d4f6eafffc8357ba391ae920c2769e7c48b49881070fd088ad5, 0x0aac7c2f4f2f8b900bea9267897e00797d6515e1937fa4fb0104311106b5e1de),
(0x088260cadf81b391be79bde7b54f8a98428aeacf970cd843d683e6e950686db9, 0x3b9b187ab998a22b56b2933cfcd093339c23889d1180e365010dc0869869cf2c),
(0x3984fce2ab73c70fa5538206c2a61e602f160b1d2eb61980fe174cbefe464dac, 0xb7e65c1a46b50c72621e3fc84f4c7cf36860567fabf007435fd1b13f7400326a),
(0xe6b48495c827759823b73f35762c55fd8cd20420fe5be6adf27f12b068bdd63c, 0xccbb71243b0300fd993dc9d34b55534a12515243e07ab78a8d8fd52846e5a69b),
(0x6af5144f342f492f3f506ee7fc515d3dd3c93d0227ba841d74bc654897d4830e, 0xb195d9e08113eeaf0fab92a281ddeaa095356053a51cf84ab5d60fec05368f98),
(0x14439b7fe40ca407374da12e217edd9a86c84397e2fcf6fc00965023ba984a1f, 0x112ad65647c47c300f19ae62e0c06b35effd49bf0d5e604d6d6214719f088fee),
(0xd4a7e4b3863fece9660baefcee57d09f6f60cd25f4aa178ccb6f8a175fda9d4f, 0x4985a973ab0e8627f6de7ef4470de4c71adecaf9f3766197a86f4e4014ea474c),
(0xfacc2a9b9d3ad0e89fa479e0ba777a0c90a0c22959d4b719a9304df5f1e96ff0, 0x6e12c91470c787333e5a65b98c01d342827810aabe3e4e33cba0b7bfeb283b91),
(0x3d1b3f542809a7d779ca2416a7b7d0074a728599e4f30cc914bbbba83daa091f, 0xdccd0d01e56c7e6b90829ec1f0fc733c8f1cbcb8799169823b466448cc21674e),
(0xa8c1ec5603cf9596d761e41abd6bc960562eeaf5b54eb83e3d7e7259f69671d5, 0xa03c9faee160ba538aaf38cd96ebe3a6db59a04cce7074e7dc3757f1ccc244e9),
(0x219b4f9cef6c60007659c79c45b0533b3cc9d916ce29dbff133b40caa2e96db8, 0xdb2639fa26a610150a5bbe7f3fc8d591c6b0753ac16fa89ad820fe5772c49068)]

/-- block 9, /repo/src/precomputed_ecmult_gen.c:687-718 -/
def c43_6_09 : List (Nat × Nat) := [
(0xb445babc55be50eebedb8c27dfc6c37b492649ef8a65de02111b9f7429b8c3af, 0x6f74c5b9f9a022b18d3a706c5c608b319f7ce25d8424d8934cbd2f9084b78bcb),
(0xdbed76fb7e46e1d41b507edd8994fefcf94bd651a9720d9f8d62dc3e9f329104, 0xc047fc1a41689ba69855f063c563bfe849bd8b5d37b3836bd8bc57cafd02ef64),
(0x844426e0860ff2dbf012ed29ad2919d6f46eb10268073862c1792e99f1b2b33c, 0x243512c9c6ca739ffb181482a901ecc6a41893f1371d6b1231d5427bfb486394),
(0x1df697b59a2f9c91b2c5d4a78035ea2a351dc0004e1c3bd55973020c24836aa1, 0xe89f949cf6af652ed7e7975874a994ff46475df54f7b17f2a5c29cd97f722831),
(0xcf4ffa86087d9a397b4727baa033cd027d8a537746903db334c35f1d855999a1, 0xd1316b65e027ed02b4be11bc4c21c1a8585bb24745cdfa675fb9ccccfaf0c546),
(0xe3eed1d61813e3ecd1b9fcfe3e8bd700bf3412ff78a0a9b9724d4dde0ddfd98b, 0xdcb09803b70d4c34ee2bd7ae6444724e9ab27c205c3c736b172af37fcc673105),
(0x3a202c1d94a94eef18fa396e5cb8a8678c3ae45ae4ee64b0822d207e6c814fe7, 0x147992e5ab565bc2ad1b135560f37dc6b5cbee74fef8e5ca4e4f418f811a0482),
(0x6ce8f558a853dacf205db4a580c4cbab8ef477a647bca6cc9e676cb65f3f696a, 0xe88e39340b2857ec6edb911facd132faf00789712805aa599afb3d80942dc23c),
(0x7fef9aa5b2df37ac99ca488aba598b4deb22214955e1cb4dc3ef1e7e7bd38945, 0xd4b7cb4a8f9edfd203a0efd109882baf98312b6f7b5775ca65e9dbf1f2c32870),
(0x6ec1ce91d1eff7ed9beba2b82f4a526f736e717d6442dd29b55ae2e53371e0a2, 0x028240ee12e2b1ed0b40698eba6f087a145eb772caece880b3e94b97700dbd58),
(0x645b9fba2cb739ee9b148b298fbe9884f284893d968c21d950696d2fefbbf0bd, 0xb06977a12d19836f0add50b7b73399bc698729fbfd182026d918a267eab4b7c6),
(0x7b9305613a4a7cc5ce1e7f5f29314e1b40bc8b9340604f8176578c1869abf6c5, 0x55a7e3e33f19805eb5056d15deaaa4f7aea07a46f9dc6a096ce15392e146fb3c),
(0xbbcc74ca3697ef46e7415ec6b31a08081e6ade01c7e2264cf9d4d94dd849ccaf, 0x027bf64ee1005f13989639a08772c42cb4249ba609d90cae3f542ee178929f26),
(0x4a45fd82af96af679e640bbf561cb3852585a8e61b57df7ae028ed33a017c680, 0x4ba76ea119a0267af019b3b989cde9ce7b1c0b6eda3c773d0ca31e4461e048ed),
(0xc3efb1ceddc6a749a5db9daf48032a6f3f1a848baef9e44cebd76127a9c90d0e, 0x3de258cfe593b4898f92e8ac50be894c3636019ba9f31f7028468eac687b8f89),
(0xec71a2a46f24acb28fda6bbdab9326e96590a96fb9b9a4ef405949a5e3d2858d, 0x31a91fa171207da31b0acc25cace1e7c5126ca2b4c8d97334c50a7f529bc61d2),
(0x65dc268ecfd191faf07421f0dcb16701f979ad2481ac5ddb1f77d3ab41a773e0, 0xf8c9ac90255d646015ddd1d357b9252253bb55c7e2f5d843d7d9a0252766d2c0),
(0x62152eafdf564900043798914b53ddd73b91fb60f16f2d18941caa9618d8ffd3, 0x3a185ef0a8d8a35d112f678a6a04a654df565a8f87e99abd95fb49771b278ce1),
(0xf68e6fcdb2c49661ae59bff1f24e97e6fffe7cfdf185d0b8133d58e3bec1c89b, 0x223dee275e9cc518af12be21ee7ef3a9ab39c7d44f950fdd9ce5c78eb50514a2),
(0x5d02e9c4108860e82b1ae04a4afbe1e29e0a8444898767767e5b60d93fe5c753, 0x25fdcc355f1970c143dae96ca1ef0a7cf95853e4102548f3d869d3d58bcf962d),
(0xf6217e4d4e6d06d127668a018225f88fa1e0fcd80e8654fdab26c8a54c6d4751, 0x65a6acbc19bb283513eea5d25fae521daeed63ca50f9aed8edb74dd9c43d066b),
(0xc18bb768bae7707735b4d3d0e82cac24fe3d7ee8dcba20b6a320ba6b4695a406, 0xb7a7ded3a589153f8ee504cffb5b45ebb2d8e12140f2f475186153df1fcf84d6),
(0x36fc443c1350b40b881e41c4d3c1595231f8da9fcdcac4bef1d0c5daceb9844b, 0x9843bb7bfd0ebca1762785cd5566923316c36aa2d2c37b3f2b196f78bfa5830a),
(0xba7b8c09d5293e6ba2548e6fff3c939b80d2ac5434903039dfb8b66129e19cfc, 0x0054fe2a9353fc1da0d34e07b6d34d1ff3a1f67df4aafa7e5791914295c2a5e3),
(0x50a8ddf117a91c9237a48fe8f1a00e72a5dff6827398a4c5d2f78b4dd49ee339, 0xf91d9b20da28e51b99fa102f13f5e451ab22e139800523846b9c66bfb7da1578),
(0x642ece53832d1859c654314756b618f9520a58882549277f06b27f16e08e3d1f, 0xd9963beb2c6da204339a49c5f253498c48cc3e99b715ea8fa5eb00cb1d6cffbb),
(0xa68c0d3c13d764d07b513390005842c9a7171e4f755a9737609db06e1a44e5e0, 0xa2c3fdd7b7938a8786f3756ddbc66b2972469e79839a1448b367db5a2bc52c15),
(0x5b33d730288fde53b123fdee177758b1ec113adf74e79eac513eadd4cef377ac, 0x01bbc10e9d45cb00db58fceb0bc4bcf4a0e2bcd2a7d3ec127d87beb7a134a20b),
(0xaa6dc4d3ce531af3e68590fcacbe7816c8293af0d77914a3c7119e23e50ce56e, 0x143866705dbe1ad691e09123a19a199c3ee67b250708ef574620c5ca821224f6),
(0x180a4eced74ceaabe0f7db3bb038034e5e659c613c66a5348d962d14efa32402, 0xb675b2a8b845281d524403d0db01417a59fd3a6c80232e74cdfc87f13b76b0e1),
(0x3a55690dabb5e00dc2d0d8a496d16c4476ee767ca9d0d1d3694c856ee5b7ad0d, 0x3c1d71e68a5f9a8404de04536810660cfe353475353cede72936786e4d173828),
(0x33b35baa195e729dc350f319996950df3bc15b8d3d0389e777d2808bf13f0351, 0x5a75fe7a9bf5407806b9bfc9db72ad43559a9f104377648fd43afc3234728817)]

/-- block 10, /repo/src/precomputed_ecmult_gen.c:719-750 -/
def c43_6_10 : List (Nat × Nat) := [
(0x52f79560fdfadd456165a2046bf61bbb726cd7263a3ed2d245f076315b0b6ae8, 0xe6c46e555b4a0410bf38965e5a7ba381fd2594822280482f877a7ec584d14012),
(0x29eeb07c7b27f82a1b03188111d324a94df77713a8cadb362ce4012f52cafb19, 0xb753857428faf258f240d4a9f464797cdffd0a68f9f978fc476f9bf01a0a2df5),
(0x2191ebbda95c29f8e7062f21a70cb368ac67ed59dc44b16766e52120cfe8e742, 0x2812f1fe557496f8f21b1f112df7bd19db6aad9059494ad4eaed4d7749f66a4c),
(0x3c29d849e25364d7576779ec78755ff18aa64e2a065140a2bbcf22e3da33a4f3, 0x3658d9ff0e2e283cf8973cc0ede5af6b69ac49703c6b1370f6a2ba4a78a28a97),
(0x37230e16e11db299f54ca0f9f5423ac65f05840ae166175aff0732bec72ba88d, 0x2a26ac2ce8f9ebdd20f1f5f00f628d3dd0e027456132cbf878b614b451db28f2),
(0x8fbb3be798e16bfdb738a512ceeea92c1be8eeb85374702be927c614ab1f1baa, 0x8280f38764a4806126392be0c95f0c583607343fd0b24b98afe3605b8f7e79f4),
(0xfb639ee629dd1f038e12330cbf40ec7e129d7da7655c1c2186452fe49589c89e, 0x171adbae2efe213c8d01e273ed9c5d47c4e85503de3849b4d909823abb1da898),
(0x2399064b876b75848c977bf8e35d6b322e45d1a0c4243fe12a31a581d1d5d826, 0x79c1ef29c1af9497f3b3db1317432d4286fa014e17e5d7800a0d39dfb61369c1),
(0xdd5663da63acee49eb7fde296ac1215a772512ee6a080f3b1266c7ef51da5dd2, 0xd19c73483754112e9cb3a4ce8986f7483eba26abc415abdc5effc95627efb7dc),
(0x30862c5843b161bac127bea67b23d3cc46b6c42f8faaa2816ae470928ae47993, 0x44ea110126a7c448dfed499546a0fc8a3658e540d7d0c2b418f8cba0accf9537),
(0xdf7ebbdd4e416e4d6b1e67aa34915da2cc15bf8ff6d79ebf273b63a832d6610a, 0xd05fddd7e961875321f473b1bfb5ff4865b3c4f75cf4ae26549989a9e13056d8),
(0x13adba8d2485bda51ac7994bc45a7e4a1b21aa9e8188e631059b217a29d4237c, 0x6256a7953f24b25ac1f59384aac3eabb4458e504af3b99c199ae614f8def4ff4),
(0xc160f7ac9a453a1f8811d0319849be4322d8bbe489cad7a9cb815927d4b54720, 0x7958b41c751ef3a1fb985ea9c7cc85f6c16282a40c374fed5999d8d63227b720),
(0xc66af93182a7a9d6588e9c7b3eda3b4940fdcb99346aa55ee6549d4ff9382228, 0xffe4d0df43f00af4fe885b1092ae38fb97d21a8d26aa5f699751d52ca9ccea4b),
(0xd3a4f4d7d208b43ec4c2fd00798d882d922f302da199b70776a70f365ff404aa, 0x8df220d963faa8271c4ee36067a536ab2581323982252483311616d001458e1b),
(0x47bdd428d57ed451cd8754ea817c5f5f9658274cef6757b870527b4e96f372f9, 0x0fbcf0ee9fb14de63c288dbdb1888fcf72f0265d3fe2209e12c858412c375b53),
(0x6e6deb957f2eea305d6252883cb311c7f0365a42480fb80736315c4c62495438, 0xba0fdd639b8678f2ab0fe3e90a16512effd9ec23e691cd4f86146969534978aa),
(0x0dcd27757cd691e828e21987d6eb6b54e8def24d27238cd5dfb36a3dd0f05caf, 0x40bf37e7bd776a62ab420209c71df7df074d185cf0d6b038dea9c8e0c1dad163),
(0xeda569f99bccdc21580da94f92d89312cef87d13f08d8ad5f1574e1230a64ce6, 0x4e1da1ac0dd274e3f9d7def7746f06520678e549ad5476d1410adbbfaa3c1e42),
(0x5d3d4a29734fb7ad2846ae124c803364ea3d57bfe8d77d9e6a3b3f8c9cff26b6, 0xd3e598a71a469323a357df08319dcd1ad7337a32c9894b806a30c575b19756b0),
(0x10161fa461e87595f269da7aae3ccf0140e910fa891276c2df1bd91a95e4d046, 0xb36eb5f4b8291a0118691f1e50235d8bf66e14a7f0641dd618ad7dddea150196),
(0x7ba1b2763df207f3cfd1d58d5190eb9199cf82f49d2d0927f5f260f72ea0f178, 0x0cb9fcac4be96ef53134f5135509c17899af24c64eabd650afc599d83927969d),
(0x4bd6edd3aaa1802ab0f46e05418ada37e75728e86ea4b2936619c92f57674dc3, 0xc9e962d3de71eafc7fc9a3293bfd721f305e876ea2a4755af9567dca21aa3c0b),
(0x95fa0b32040b24ba29a484d7f8f022ebb3f3034909d8abc19a69b6903e885b68, 0xdfe6b88e56d7b923dcf8bac62241d6633ac2ae55c3a01fcb9f966d628f3acadd),
(0xd0fd4d1018c371142d5f8a86617c250e00b6c3d5210ca4656ec84e87d0ae42b3, 0x4e3bf443290404a93af38e72a54fa06c3b2d6a81161fc8de554edd9bf3399587),
(0x992e1183d4e7afde166c45e137c71c88d4039709042621630b4ae38e538293f1, 0xc29534fb55e47a08ecee311c8f0ba4c039096edfb2d7ed63021a281032e85900),
(0x9c124ecd4e6ce167f60dcf3825976f3364cc30ff061f7dde966f8c234c13a4d9, 0x7ad73bdbe0afe3c2c89d9135d445ba4c796066eb019093499e6ec14af74f664c),
(0xb09cdc9bd102f89fbcca0ed50888519b7c5c02b164ccbfa003d0fe42b1b113e4, 0xf409865f6ab4371df52790eb088df67d084b3b74f17edbc129b802cbd5e49a59),
(0x6b4f628ebeb6d6191d616e873233ae37ca4cc3f2ac881e599c2c8e3d295ccdc0, 0x1140b98860f4ac7b659eb0126fdfb796c0baa6522202cce0bf54b3a4865f171b),
(0xa728c830101694393af3f780b1ceae3a06ca08ea4bdc75542ae84564f542c28b, 0x7b68fde98c97db32eb3cdbd715816e519aa58458259dc74f05d722dcf48f1933),
(0x21ce44014ce959def16b3912e88ff48bd44ef79f5fed2d35bdd2dc78de8f7605, 0xcdc598fdc5d30508a2690299e0e25b910b1ccb6997b99fd3eca1baed76aae6d0),
(0x8991225911b9132d28f5c6bc763ceab7d18c37060e8bd1d7ed44db7560788c1e, 0x2574b26783365364d84789caa64ec905c969637b021061ee9ca3bddc7170ed3e)]

/-- block 11, /repo/src/precomputed_ecmult_gen.c:751-782 -/
def c43_6_11 : List (Nat × Nat) := [
(0x5914f66e28c1a0a347f461d81d7f2c55845e35eb3dc39945584b5efa8d71a215, 0xcd2ac8853f681e4d884e308eed3ca185b47e2d633fdfff6eefb6dc674d7de056),
(0x519834c0d16c807a7867b8fec99dc93c3b9ed21887a9ca179343729d3ba9e294, 0xb867d57efe2dd7c708586303152f02fdf67b564878a7727a190d304e64f97203),
(0x959eda70cbabcb05fa8fae967227b6be876db942ae38bfeaa9c3d359977e1c52, 0x863733969338053bb00d206c05d67abdf95d35e6992ad69d8d8a332207370fdc),
(0xa40279c848dc042ba3ee929c2910e326eded60519d9eb1a498fdd7e1fc88a6bd, 0xf2c962a9f2950d2cacbfcf2935bad39e2709c0e736378968fa04d9571dadc4ee),
(0x650b8181edcfe46ceea03ec9f8ee5af2c288e6187d6349616c95554e25957334, 0xce140ddc0c2e2b07a57e562762da3eb5ca1acba500463e97fff7eae355b954c0),
(0xeb04688d5f4c8d2e4ccd509a3d003b308c5539b2dd160a45cbe71efe36fd9005, 0x37d806902062bde0b96fc8ba7a7f751f9461f774a1d6f3e88999c6760a2ae76b),
(0xf79206b67813cd649f9463133bac4aca3762975e954e0ef5a876b78e4b5a5d24, 0x6033d4ee936e956aaf117dca6086eb1f6466ab18d503503d4b011315365242d8),
(0x539c99d7728cf66213e024c09f1226f5ca5d09cf67bac12d47814b2bb1e7d611, 0x87efd14e0e58fbff5491bf85aafd48ae06680f37e0d928f013fb6cec6f417f76),
(0x2308281de761f60266fb822845eec88be32f8fdd4a06b8b93dfad9c375d64a8e, 0x933f4071e4f2a9ae95f4a299f426709894b661dec96443c50f03f6cbf3be87ed),
(0xa93d05aefa31c0c154c02f689184c1ff344c670be13eb3042de517f21f6124ed, 0x0b7549c54651fa6061f4103e27d316a5db531e3ed7396a46e360341ef53ed274),
(0x35717dcb4feada90b039aa7910cf064ac8c998b5fcbb037c22bf9e92eba560d8, 0xb6ff9371d98bf532f82d7fdb24fffa692afeb0e659ba30da602b339902bbe5a5),
(0x941d37ef1671d5f5675be9d0d5cb1f0aab6dffdd2bd342c5c5b62be988d5a0aa, 0x4834d5eea8f9ae8e0ba5cc8b2fb5226033e35767d55b6aa6d204e0e1a38b42ed),
(0x0c22cecbaff78c61f6e34c9d9367c4f41acc9c3529e9d8947989a8741d70bccf, 0x38a37fb05fd9036e762e2f0cfef8fcbdc04a92a54cb72ee2ba08213c4b58f1e1),
(0x7863ac2f001704fd5015f0ed30edf5d433c5ea2ce150833ba15c1db8a5e4d2f4, 0x7468fa15eeab5653c9f982b4ad9e4c992f44083fa7a93e9a25ff70e5b8742b4d),
(0xf702cfa6f0cfd275a2c7af50b53d0c94bb965063c433f4f2cfd13d99800da48d, 0x3da4a4e1bc5f2c6d2f8daec4599a97047c1b930ab37d6b2cf8a586cd0ef7dce1),
(0xc3a1da3c6e6b8f2c2a8eb81a1875f2b91e9cd286414862d657626b47a413d7dd, 0x983d08925983d42ebdbce2d8df116bc2f5cf8c87aeb833dae5e7e9caf9699798),
(0xdf0a4106d61fc3c6b2a14ecfebea3dcf7e38069b8faac5760a0b8a1b7c8e7b5e, 0xdd97a06b840d64db1798cee49334b0330e8d3f4a79da565d0c6130daf0bea75b),
(0xee9901fd9312a21c879d4e1b24d5a299b8200a156e65e1474a2055c8a2363423, 0x1bb2933c8b10f8e8ab93ecee16f861ffa86781ea59b891b7740fdc2d0f6c206d),
(0x52890b99c8dc48c4b6b1e4ae5b823fcaad9495b98217fa4ab4f8e960077cdaf9, 0x6ca2ba7372606e829c3395fbdd2e4b748c7712310e86fade5e2d728fe5e7391e),
(0xa372b5450bf56b58b7c4628daca9bc14e8bc634dd79d139d8eb7a2d413465c3e, 0xafde23dffad41c68df94abdf090a642b31d62f84c6254c4b4cad2934376372f2),
(0x89d02f41f88b1f7c90b01078d7599a70a1eb9c231059e8564237b0a32c18010a, 0x7e8e810bb063d75b0c224f41a842972d6fe065c2aa6b16e57bf224fee44b2275),
(0x7ef367d723fedacf86425861f67c5ba202deaf0469e319887a3a3a122f39576a, 0x4b81e7430e00bfbc1d98cbc25c98c5160055e574fc7fa1f586f15d9b1b5b7ac1),
(0x2eec37a15fdd1cafb4c0855fe86c553401a78cdcb3944798311b1cf47df768ac, 0x1c18cf5c01a98fe970d1e635ab1336684e0d964b4df0b16d7c51ea01000c9a63),
(0x72208b8c0fd9840d76dfa6e0f36cf57e502f285b422f0ba19b1195006b2ddd11, 0xfa09196e0a89ce6a888415eca8eb92f4149bb39a50174a858a29bf6365b4e577),
(0x9f46479a69411d57c3c7ea6adfa833f91fb2109afd30c7902ce323ae4b14be0c, 0x6cd6d7e08494cb959e67c2581be426f64eee451483e9a9a1278b073d758487c3),
(0xa9aaf56b5016db585b8116ddcbad11694b16de8d9db5ea5a279ccf4d091b1d7a, 0x218fed41389a4abc44fb2a837016eb5099c40e86bb4192657f57714e194a5900),
(0x5f950f20b610c06b76949dab52fc614997d254be0a1330a0493f1ea21d608864, 0xd9098481823b3ff9d1c0b7d0bce90856186b45ec6f20da269b1582838a4c96df),
(0xed621f7798add722b0dc5e529c6fec6bdff60827b0b12c8518d798dc761f1075, 0xa8973e79a9caf1fce3165145df08b7db6b7187a528b127126c62bb5d4f0c46d7),
(0x15b8390d652d7338e18ee09197e0e17674f8c4bafa2e7b858f5badc99c89240f, 0x87930df3710172f7c5422833385a60664cfc9854a3e5cccad1d061061cd90be5),
(0xac2acb9b21999a70540708ab68338266aef650eed81c5b30da1e87d8a8a923b7, 0x897bbd7aee3e8db2e36505f20ec2614c9f4f2f40ed2d85b05d23edb42832db89),
(0x17c072d56bdd1382a782481b8aa4d2232db794385870bcadc3063330a5cd5379, 0x26fe420bd7c25f9b1883edb850e2fcb076a65389d9a452f208351fad4ef72f0a),
(0x8d26200250cebdae120ef31b04c80cd50d4cddc8eadbcf29fc696d32c0ade462, 0x1412c44b8ea40bc82ce090d23c11c945e2b504b18d9874c5271f5745f0d9b523)]

/-- block 12, /repo/src/precomputed_ecmult_gen.c:783-814 -/
def c43_6_12 : List (Nat × Nat) := [
(0xad9144f1bdcc367326d51685a047ea9c3c4feb3cda4b9b8380e1ada6300ba487, 0x68003744ab5b2c8acca5bcfde1c4262e88ffbc0fb0ad42062d57dcf862c93c47),
(0xf3b90a0d7a8cbf1d9b994b197ce215f9b8ed861d0d52622859fe181168727bab, 0x95f48e8bc05a7bf1e47fdc86087513ae5a56472a44f384f61153a9542db68b81),
(0x24af6d7a9912246645b07a1d029b4bb1a68b5b0ef9422065b5bb005061d43cdb, 0xf9dc7725f628cc4ed4e5554ef0166b22566d59e004d55c28a4d0e9758306c31a),
(0xf704aa4c2bf19c9b128311c71bab5f8af2a3865b728f4838b8ccc7d782574cdf, 0xae7c46cec44d54a72e3f758a0e855710dee6b1891223d1209e05962038d12453),
(0xf701adf5a1bd988dd7e1fadd9903c453e6798760252579c8b90cdce2a046d9a7, 0xdb39a98748aa20d05d8b8538fc4b7d7795e2810b160198c70ad9830596407c31),
(0xbfe36081c492ed7e3b91059dbb1af37647dca50969be666550f94903d948ca7c, 0xa1fc94682c3dc954764ee858822b8c1a5d0184e093f12bbe021e993118911f03),
(0xe707057a297a3d7d904a615dac1b8e8178f5248132fa166eafb621e3af3f4f34, 0x9161a930bfd583c0bfd3b121acf574a36eb534ab5198aa84ef38253d9ca19bc1),
(0x27a6c7a7970a9e3a7cd42b6b4478be6231f53ff80481791c4394e78a968fdddb, 0xe4bf1b166bd562699e2c341bb1a51c8ac2ac7d28807899e13ab1f72690f44108),
(0xe65f799a08fb3b6cad088351614db5c3d64660ef8c977ec12bbe58faa53314d6, 0x5897f680253a948efc260fa28ac393774e6a445dd2bde00e4e01ff030b4398e2),
(0x8406a84ce9e63204761dd4069651f20d6fc3efe3f98951d0d0a2db9bcf86e0a4, 0xef81aeb30eac17e5676f4455b4372ccce405b786f11a871bd781e54c6307d1f2),
(0xc012cad94742fd498daaedfe5b847f347a45c79253c8a6452192e905e256c7a1, 0xc4866f9848f316608a81da9fda112a7134232f9c0075e3887ff987b68404cd42),
(0x73795313e9de1efe03d91ae515c620c44f9c6bb3a21e3097c8794710b2032683, 0x548ce75493817f22cb96c6745d67708dc7b9b133c71cba5ffede1316c55245f7),
(0x352b89f478a47e86b5575fbeee1373bce93ca3161f5945649efaf048a60bfebe, 0xd784e6cd88d7862ad82747d9b23340cdb50235c765f30be2ab5d313bedb0624d),
(0x8a0b3d0a80d41abc4b8a028c6c5239237b040445525dc345d2d8a319c4708316, 0x7b7a427af0e1f902dd1b9bb465b6b376ee68b9a3f495cffac52fcb9c705443e9),
(0xb4bf67566146282953f9a44aee3b542702485b45951013a28d59346d62f65894, 0x85d0c26d2987dbd9e26c967371ca86af3b8cfb4fcbf97404c99ef9005379a1c6),
(0xbff697443ac23a6e574bd1acd0fea3052f05ea6514814f1c65e86e9d5b46a2a5, 0x369614625b99856509324f5fc8714d9d57ff314b5d5c2cc699a4ab3969add4f4),
(0xecb09f5d122adf91e68e98ead39e579027e7c4ca405bcaf2e086d4a3e68242ed, 0xaa214cca8a601fa0a92633cda353ca027a7dee71cf335af8fc75de56a3405f60),
(0x310d957f10fb34efca3a2a0b35c901f535c0862c6831013410982d7de74af8ae, 0x289cda3f29a489a886121f4b4e75a90d2bc4ff20e95aa1034044ea80cff56378),
(0x3a5f1ad7c59ee6cfe090f2107040b4194ca15fa7dc8e9f6920825fc4e012ac2e, 0x8ac8986b48d7bd1f5ae995352505b0ad078f855ed8411b0315725571dc99c920),
(0x725f136d1b426894c24f878243fdc1d379636a23d682f389dbaf71ded4672067, 0xdb0ffaacec5ffaddf32396be3f01fe2f45bb0cbeeb0d98bc2390f3cac3dfec84),
(0xb28e523e6fc68192445180d95da3e4112fe0db1a5b3bd5e8e00a109039c69d53, 0x7c172a4b31339fb347db74a6beedf59dc24e6aeac71e2a0c434714b4d61a2f70),
(0xb808db0ce34b56078166b3081dd4b2cacf9d2d513079648ffc3c617b8e45ba09, 0xd69c4ab2fc7e490f6887f2c249e0b71a746e3e2b97a7415f34475bd60f6dee79),
(0x5e0b091f3144d7bdc7e40dbc98c716cfd7e64edaee9c1fa46838bcd9e0c6878f, 0x1586cf7cda66b0058b2d0d49f588d44465eecf421d94c0040a078dbd47e0bd20),
(0x1c3e88b3ba46410d8e08f9fd5db8b53f8dff33c64f5314f5e005442d10cef1f8, 0xba3650205f85aa9f071a42c0392345b74a17a5ab9ff911094d81252cd8c8f72f),
(0xb492601800fb0e9ce80c561437c3f22ccc223412384321e36f408e4cec0d81ac, 0x55544f6ecea3575de81649b84950f2258a94e78f13325ffb16debe1a8387173d),
(0xf4bfac1cb0834e1ae332b7b71ab84500b1c8460dc8c2efad6a5efbb8ae78cd1d, 0x5faab69159ce9d3f6bdb1818676684b1cc2309af1401b5d5137e1c6105fbe287),
(0x220ed3d1fe028d87b96e8ad937ede03e0ed8f262ce877c0a42718ab9cb2ddfb6, 0x5ee2d60df96a1b8be11c91397abf9b4fa067196634bf37a208d2686431933fb6),
(0xdca5fad20d045526b6a4c309de1d95b523f9a7dbe669b558edd75ca940c85878, 0xf350337e877c9c6198fc912b5d53876c78ea94cbbbf3744b62a52fa5f5ae4399),
(0x486ba5093272eb1d16ece443861eae7b2d8604f337014bc51126748509872642, 0x688d45859fa732c4f582d65c459305678c27dc6e5525d47c3908dafff0a534fe),
(0x96bc1bd3b484035414aa92eb06db81f5403e2858c0552d5a6b21d33ec468f31a, 0x83027873f4066b5eba6f413d6a7d4d18d57f4a6225cc9289b514f15391ede3b9),
(0x9f131ffab53e20b4e9cd9e33793f4614922c03df7d11222c7fffec3342fddec6, 0xc4deffeb3f4cd90b0102cb6b3f7137282c5cdcabbc6e715391ea890d76207bdd),
(0xc15c8c23d90c8e35c1a214dde2d4383c0735ae45bef61f10aa1a1c255984cf74, 0xd456ab27d7adddca372390ba1da02845b84088d2af4fea5d3b5b7326c6334c2f)]

/-- block 13, /repo/src/precomputed_ecmult_gen.c:815-846 -/
def c43_6_13 : List (Nat × Nat) := [
(0xe24b71ae8fdea24b2d42a2c65cb022a82aa9e03a3067a889e778caf8034903fa, 0xf87d5757cae832631233b840296d606652cd1ddce833462925c992db7e0ee14a),
(0x886a76266203c559807acbf67e1631ae1f6bcacf3fde277bddcd795b292c38f6, 0xb1f590a152d3ecc32b699c23a89b2601de78be2dfa11b20a1ef1235d93ed9e99),
(0x3079f7093d5270f295fee75ea6c5cd3a5638ee37aef535b6523604d2eed0d57e, 0x492dd2cfd76705d742187f38f38982d185efa30afd1639cb984a87723e912a91),
(0x7773469ec557e3e94097bd5533a87583a79e3eb42e421cd6592363c276641966, 0xf827b0dd46f4b5fb4a656731d827cf21df1ec610f36dc2d1215f33fa20a08020),
(0xebeec367eb032a6f7c421ae6f8fb56f93fcdaa68f6741e461992d0197567336d, 0x6e78af43e10c742c354671493323f8c4a6cff91e7b1f1c2c65b21fa1e63f3a6f),
(0x0b41658a3683b512c751d817f5d92f8e5d1586321f2eb836b446aebf0d276030, 0x9396ba60ca61b35e4e52e879a457ce5bfee9121ab2673c1915e78236483e069a),
(0x2e2ed965a926700a1428af7b68b7dbf761d1bf536eb9f75ed56afa0b63852cd6, 0x8d77656ed5f112243a94e4623dcfbbdc61749930dfcca6cdc4303cc4617e9133),
(0x4b54bd22e56043849ff2268e88c695d64766e0c84f598f5b634e1dacd03063ba, 0x176c68e4a1f2568337c14feedcf9a64b17cba4f70283428c1514990c98d29d71),
(0xb6cf7c382d4c63cf7855711655b5de991fd32da68b8d2dd4cfcd6f5c59c45251, 0xc4c190ac2870142f2a13d7bd5d6768b8fb5ccdfab99d0e3f6bda805f7741ff52),
(0x857b6db479177eca82a6c801bd763647c1a49021e5b4f405ad02e6ec7ccc3629, 0x586cde8ecbf7907f704a6610f7a8a91016599e9a93bc6a6b1b70d59e39c0db4b),
(0xa18a23b76643d92a9e1bd2c77bfee61dc5171b3312f64d7f821fbe056a771ee2, 0x321f460bb9525303c159fe3a6762dd9760432307919a2f1d6120c94647cd8568),
(0x19b91028cc2e5434b162cee8c77351d9d38d9eb68ff9b09bf26cb25f4b88510e, 0xcbcf2e523335ee5c56ee2a067c565627a5c60f16808ea8e994250c15e427c883),
(0x657e2f300b1e024182c0e57d996cccf47bdf8eec5a4da8751638b3f49bcdbd2e, 0x8e0a311712da36b22d0cd048a9a99b265faadec2141620835210f1bc0bb79fe3),
(0x576879e4f4a8e69745014bee36ba4267cf72038af5997d38cf512f08f0ccf6b0, 0x003f313f388c011c18ba0938051b0e7e846272772e9da9990b839b5892ede5c0),
(0xed72d6816516c2f27a9e97c71a7c99f2faeb8e31a5f29260faa0bbf86475117f, 0x331fb25be71c24fef4d2133bf1591f3fe5f8830b1561513436fc47fc0522ad4b),
(0xe4ed422d9152f00b96bce64bbc3ddaee6089e1a41ffbb58a109c688eba44699f, 0x6dae64202dc6cec2e4a492036b16c9f59c517436bf3b9d9b7e8f458f7fcba8e9),
(0xfc3b8afcfe39404c29622db5b06c989a8d7a0c4d85018796d006bd5e43dec087, 0x7b77feef2211c1a5724af5e9a841e09cd7940bc543d70c7e516766897682ef15),
(0x9c2421eee2e7e66bdecbd152a8839f1e4cf03808649399bdba55cfbd9dda6360, 0x8d9477c1c66a532b967895ae66c7585e608e96534f870bd2c97d739874a84700),
(0x22040517334bb5cd2252d1b98a9da91fa0bd32b5562c82184d991e01d94e8f13, 0x167d3dd5738a467ef8e03064d6482c2d64503892b4f5b9d3c4b04684fe2f15c0),
(0xb648a6173c728243f3c0c7ec2aadcb13dfab92fd77da9aca1602d47a80022dd4, 0x7199a3cf89c596e0d607d05ede95c8dbad763ac076fa7ee8ba7ae6e14c14308a),
(0x0a7d7ab36722b9d7940b2a15c94bb9fb41a139d426215286bfff84ec57386dae, 0x25ea853ac3e772b6f400d850a7cf5760ed568adda145ea756f20b77ac32d9f28),
(0x9787a21dea3dab74366214b4933a702c7a07c4ab696eddb73a84cb5f80f2ba41, 0x8663b9592214a018e373e360a9e035bef68d9e01f6fff1abf8ad9b8d03f6f324),
(0x1d2ebbd065bd4f508dd697db9c8bafffb548edef0856fa4e39f893cd349ff205, 0x85d0716b109ab208a96367e3bd0a2314ad2c8586169096ef9521d78061df01a4),
(0xd0a506ce14e8841446c08a6198ea0aaf75b9dfc2c4d2cc581238a597154981b4, 0xdc8c863c7c4611a18574497534c8c02d7cb7504bdffa91f596765a2598d1f506),
(0xb6c4d1030a57d0af27e93627f55a34b775b2ef4847d7612a5fac0748b41afee9, 0xdc9440a1596cbfd9ff87fade8b4260914799dad1ce0f7b60d032e94bbbaf53f9),
(0x5b5d965cf2f3746286f088e8b58887ab2182f874484686dd43a245e3dcbc55c7, 0x6718ba28cf43ba30eeba6e49a7234ec807f01762e915ff1241fb461b6d87a875),
(0xbc85aec955e6e99ac5fa7738c797235457b3935bbb69e8e1ddc69d01d34a47f5, 0x59dd49e8cb3100a09c48ceaa20cbde825072e13a7af0a44e0601044a361dd971),
(0x66b7ffeba34d8cbce00b4d1ba05587415123d8b289ebdba047587d66b260bc99, 0x43bafb96c88a5917c6333dd9b4a546b51c37ab483f3873a36932ab97efd79712),
(0x3cf9208ab230b73d68470411bf3d4899e0f19675f829e32f00cd148d3c07d7c8, 0x21fc39b3ea5079a2ae1319359a3e98df62b97b372a473a63f3b56e2425b30e27),
(0x66e3fcefb7b24cf7af0f8de28e53c2df2bd1dfb2c0289b1031239da0948e129e, 0xdf4074b0488f3f09a674a40cb3207f34a02826612e5ac4ae8d443c9ed1184045),
(0x28df781d4ec05680590f4658713c8a91fef2376387ddb6dd674a35c8b0e74459, 0x0eb6615995ecf0e834f24e876f0dd86b5c86a45afe5190f5721f833e10a196c0),
(0x85d8da4748ad1a73dec8409be84f1a1316e65c5196aad27e0766746f3d477c2d, 0xa76b74ac99a3996fa794ac9ace1038436b4f5fdfcc3b2a59df867e8f382e1ebf)]

/-- block 14, /repo/src/precomputed_ecmult_gen.c:847-878 -/
def c43_6_14 : List (Nat × Nat) := [
(0x39ca1e6b9fd848fbac24c4445a9f398b8639fa6fc0c2f2b08058d84e6c0caf1a, 0x8797227cf956ba7e5228a45291cdd51f8958ab7f43f6c8b5e06176b0dc9048e4),
(0x4c87e538c9eac9bad5a2a81e43a6f1e5f8403c0168ad50204adef77d5e3aecde, 0x6ee8b74ddd0b9bb7c8b7ed7a728dd99da9fab941f0132d0e998e65b90ffbcb9a),
(0x012266179f5dabe406d963b7e96247e1e29f2440f831c8be578d628a78561987, 0x2d3552bfddb5ec6ea77588309badce7b41d71926857962d3c3bb28cd5d68ce7f),
(0x866c0a90893b6b3d807a96fe3c67b928067c1d95e05146fb4003847626981201, 0x8d8f3188da86e510b7a7642a977782013926dae64ce80663335bc448d204413d),
(0x8eeb2e9409a6682426a6f4749e7578d31b356aa8d1b420495fb83e5f5d08f723, 0xe439d710c45063c6d23aad9eac0cae8e036552abca6f2c026eeb03ff6162a052),
(0xffc93fcd85fd950278369b3d291f1ffd5da44964888d5eba03c3f60c95082bfa, 0x9aa66635a4b0defcb2514e97515aa0ec03f65ce86f6962f772eaca41d5ea7983),
(0x605ccd664f18c83dedf36f62e5089f1404ed23f4f88635faab161567fd20c8d5, 0xcfccf020363a805c1d614aa5b9a912ec99cfea615c088789275ef531dddf2418),
(0xd1e4f37e7d3902aadfdd7254fc727a4498eb9303a12fe71b4d193be48dba6913, 0xbdd29d534881cbc6c2e301fb7d757bc99224f12f4296e8349badb88f84fcc289),
(0xf30b6d53f330e6b6b23d21df7b4350a0c42ad2024a92751a5dfed94c47bbe60f, 0xb5ca6c03b31d06cb183b0b184432a06d8143d5118af4bc01c364f024b46e0c38),
(0x540944cd42101851c2cdb0ad61264e18cbf948cf2090df685448262874271ecf, 0xcd16820b4ccf9131476b877800ba3e83f59705077110686c653be5722e99db3f),
(0x846e54785d9cad5b5109c7e46fd62b04f686c7231fc3c0af66bea20ad9d60dd0, 0x4b1a28c178bd097faeee951ffd4f46a94658a76c268ee7b79aea4bcde75fc8ff),
(0x16e732f443b4c61624a495d54497a23cc95612d058df9f8111d1340c4b2b8b5f, 0x61ee476f30ac2be7e3ff09f30ebf0b3e2d76177a30573465101f4cc4ec0585be),
(0x4f30ef3702c730baa6a40ff194b6b58f436111d6848b4e6010be9b9fabef17b7, 0xb579a1337f3247f28c6afc05644778f23668e73aa7c6d14b649bf948ef126142),
(0x595a0d2f1668c0b49ba0994f3b681c426e3a67bee957bf5247acd9c47cb7d009, 0xfb10684b3ef1b0ee37684ba7053858b33586b837aba6d82a958eb9472eca319e),
(0x85dfb59ed7ef6e0e355e0ce1304fe5dc8bc6a3ad74de33522089f2248894e0c4, 0x7a9b9ad110099903d0d84a336838d4225f98abde32d82ab1a383969c1fb98bb2),
(0xc8e13980cf58416d8719bc9496e21774c29f2e1c5a36e7602ce7783e2c810fd5, 0x5bdcded7bb484d4648bc40e3ee6a3761cf995e3602af21f010048a916fbd4717),
(0x80b98fb80e48f44edb69fd8b018eec952404fb5945c8a35cbf3616e8c746aecd, 0xd44010a720622d146af5319e155fe4ff591bb829f5086c7b1fc1ed6a32ccbaa5),
(0x017629b1cf015e580eccdc7ade049215fca806e7805e0e35951df2ed5cb87d38, 0xafd5669844f6aefb528dcea429438e0cd10c4b2123f024440a95083497a61f17),
(0x592677f8695479dcb215af2dbbc90621e7f3cba8650563fe1b2a87656c44107b, 0x3741e4e1b39b0e2a58373166854a1d31ed062a25c4e3e1febc82e941eeaaf50d),
(0x98d5f85aa93c9d87e34e3bb3597d9380f0a7e5c5b03ec2194025c89e42126453, 0xdbe42a8366753aec61f7f01de5dfde1eb4b989cf95bd36bca66ddc0effeea196),
(0x9187b54670d2b9a6b711c88d353bee6072a1f5d9ce75288d4e6c911180dd4126, 0x80e73529d211ea24d4bccff2b9de3e31c6307ee23cd9267eb2d372ef78f8d2c0),
(0xe38c81ad8ddfd8ca4e01f38078eafecb0f8edba68e33e565309a3ad9f0abe0eb, 0x09f0ace1f05f0a85a148864488cce81a2cf55eb3a91fc10ae6b82f4760dbe618),
(0x7ee9955f99e218e7dadfed94dad7054e3e0b97ba932338db69ed056b6f8adf55, 0x5244e198524a105e02b5de1181d7bfe90ad56aa0128a3d878cbcc5c0025b41ca),
(0xeb9e5ae8cdf64b2876349aabc3f75c9c9d95a3353214d0cd0d43123c0265b08d, 0x858611eef67a32b97b8a90906639e998a05d9bbf8ccb7c1b9e5eb7114216b877),
(0x2aa74ebd7e8b6b2d952effafe5545eb9e99b9678a2515698975247acc83ff081, 0x1ec12cbe6877aafcf353f6411a5edf9fe4bcc09f031422dfd076932d8f0defbf),
(0x1b7b8feea3ed4af1cf9b07feb435ef761d081b1df1007697f78fe5d989076aec, 0xb4aa0d8aefbc71d9d338e998197054f020c5a2df7a9504b1ca7cb6036641f85d),
(0x3f293b759f152a4cb92e319de5d02b820f5dcfbc2ee7a53dfdf7ef6ce2595c32, 0xb67babb80d1d1963fd742c225ad5bbe427e57d6eb9e17bbbf91d2c1ea455c1d0),
(0x3eb9968ac9b01fd0882ec65a8f9f5a5ab0fbec2de2dcbf88cc9a70b7887ca59a, 0x1a4de1304a46fcc76719c254dad5e88e9d6a08399a9a28ac7f171aa59624ee2d),
(0xa559381af41b944fe2bab9d962ec7c53efb25ce41ff1a45654a99f46d97ce20c, 0xebc6f66f75ad73224c1319c64268c9970000414211ca65b458c5f79abe0ba0cd),
(0xa8bc942fc60ff2e1140f9a973d7e0b8b7769825457098005f9186e979e430593, 0x2a82070f25480267c4fca7733173b354fcd5cc1bae497af858b7d4518f048c73),
(0x2f456ca2c4f8806bce4caf1232446b073405dcab7b3cdcc0247dd079adc7a626, 0x07308e585b9bafabb2dee0499bbf60acfdb372423e91515615314ffe5ad866fd),
(0xb56f4e9f9e4fd1fc7d8edde098f935f84c750d705f0c132bd8c465b66a540f17, 0xcd171acbd63357a92c23ee520fa7d2e2de2bd69c343357abb95d0350fdffec02)]

/-- block 15, /repo/src/precomputed_ecmult_gen.c:879-910 -/
def c43_6_15 : List (Nat × Nat) := [
(0xec47405543c52e685c9e6c7597616fbeedb70df4fe3c375dd7d247292b120851, 0x22c1c1a7300663755ef8c2fc8645266790347223f11a32d79f1c0169a467530c),
(0x3f50e502c45fd92294fcc46cb3118a8643af00d1634bd694dfc0eeb8be2dd4d5, 0x7cb992e0f29fbc5f2887161e6d1e266df11fb7233b6c020f26eee393fe96b526),
(0x443007f243c3f6f976914031c41e0d49613373409bd4a681f20e4c79934fc2de, 0xdf67adecc9ce5f6a0e6c8312699e035368ee87e31e96790ff0bd340894af74e2),
(0x1e15b9e9c28f77df075837a0cc9504aba3a49aef26a88d99543fa7d2a875620b, 0x2a0810936afbc0253808ba31f5597287e32898ac77fd00219e6fc29826b0370c),
(0xcfff0258ff6c0d9799823447775b75b91881e06ebbd72ba428f8248c5cf2144e, 0x61e635695c4a8fb40f68f974219bbf4ee0c277dd4b74b84388f99041f97809e8),
(0x02824f4bf72f92292aa040587a0c53954c87e7ddbc5dd1990af6918e6db62f1e, 0x16ab14733bf8382c521af6fd27f8b2b3b421dbddbcf06c623bcd86b64bf33274),
(0x5dc7571e27d6b9556c789b4a80d49fd317416fa4e04a7eb23cdbb88c9c253a44, 0xb7261e2e39327d68a5456abc9d4600c7fb6d6e51a732c7f6c64cbd0d56de4a17),
(0xe93f3aaa5d9edc536029d3329ac0bffeaf27d4dd40f550e53df879a2a5c1d993, 0x25b442d7f2e2e03e0c7f158816a1af43b5d2870fe0cdf429babb19e8951c0982),
(0x8f91f5a57aa40d620ba407d86ea5678b65c84ea8f241e2aadd6df24252635a86, 0xe9333d7bd6c319be3ff4f5b6f286a8eb27d5a1bd29646cdf77441c40f716a6f0),
(0x77d398e0228add30e9e120eab16436be30c254ae650166728bea1198de1fb17f, 0x749a20c8ad6f43120fb6e6fac390a4a8209704be3355362f31db9b45f3876963),
(0x96976a85b6dfc4b613dde357c21c3518a5f55c7ba2d22976592d76323b5a8546, 0x96dc660f8ef3b0b6adbe77b569024fb5dd713566617cfc510c8013f25b424e9a),
(0x49093c4d26194278623c2ff96c8e2f110f9edf3b13c33099057b57f19db451c6, 0x5d53ff5650b82edc9dee9f43ed6db93bf6a262332dbcd699130aa9ce5130384f),
(0x49187f03d5f5f628b9210b888ac4f1b52f754015541e9f38162e969d6a99f4f8, 0x276aacafd38d0bbb416bcd0b8ea590d97735a3f28de72aaa076bed0d6644bd80),
(0x7d64e44665c0391787fe0b1416ab10483a6025afb20e8c193bbba4442864c587, 0x2c0da1816507f8b64c9e5684a4d53d98d6b88215772def9ffa5a7a1bf2b2ccee),
(0x2223484b9ee12b262a21a18d2682ab01c291ee1cfe3b4b9e2e93fb67aa08535d, 0x4cd26418bf0d62fdb266a7685f7aaffed7bc95e1be41c6bc7a0c90761ace3974),
(0xaac923307d6a55d8552ce6f39c531d5eafdd5313f801242c21df07b3a656c618, 0x93d9be6c590901a91413cc2394cb426ee6a615930093511ce67e1ffe68b8f3c4),
(0x6ec1a0c7fe40c40af3515ff660f0b53b8fb6be3dd912f8b2c7a473d23e49d201, 0xb10f000c191e942360fe6b5b2b6b7b8573c0c2ee384dedd6e3dc04a97834f93b),
(0xbd982a5da4d0291c38568faeebc76df3f2b0e5b91cd0d3b6d2f3207706c35c43, 0x48566068d5142f6a90b13105e7841d3238d869d40fcc73193e3cc9ea76739c5b),
(0x25d54513b9084ddca3f20e1894382290115ad5f2dc72c267ba845b3c6ade39f9, 0x0e9085087fc5efaba6f62c41ea8fe856226c8e2f95dc31fd2b49a7c36aa53b39),
(0x29ab6cd5add595d0cb64ead9c3d275a6ce383f159340faf5118ec2d29bb9a62d, 0x54584613dc27c249d5d1210e9e121aa47d606fad1c4621e167f67b90d8f3434c),
(0x04cfd960086f86d5bd80566755979c32d5419dbc946d63a3040dcc6f6d6dcd48, 0xf032b7b59d85d0a9fdc290bd0a1fc70355b5404c0f70d45cd15fa9e133ee9319),
(0x9c786066b6642e11139aa303800314b06afd4d970e8314a1de9d70025b7bbbf4, 0x463a2dede2185c8d944f29f0140f6b669ad6e3aa8ab6e292a2af551e685e58ca),
(0x04e98485f15c506d6cd29d7c3f9a59ea4bfab06578d86b63f25e74e30e7aea96, 0x2baf3fb1c26f2b0b1a0725b15d1ceeaa07ccece90a1dd8f27f80d825d8cf1d71),
(0x8412c389bc88e9bcb157d83585af0dfd48689532e38044b9117b8acdce3b62cb, 0x17eaa404ffc1f62a38f7ce9906216b1f40bb62e906d1f7a508bca370c0d30b44),
(0x31b9b8dd7d37b38e892e94c7a5e817c8ffaa1c1cf56979ff7f25815b758b6d09, 0x0cdb680aae795ef1f94e7e8750ad90777a55eec6c6f0795aef951e3cab45d186),
(0x2be45d05e89c58b18212890bb6eaf9356f03e37afd9572914ab71a977af8350d, 0xc3b05f04c9f7a1dbb6689fe06ecf7a803ecaa1478d09a1ec9a7d71dda75406da),
(0x5185cfa50fe6302cb557359461f375ddc483a66bc615b5f930abbd4a05c7ae0c, 0x83cc447e53c91e076f44d265389bef06549b8d789776000b5c35ce365fcff98d),
(0xcd42328de4a16323c51ef8880b7e67baf9ee1c5382161b9065e1db15bddcffd9, 0xcaed06b17e86b470b665de9374725fdc94792c575509ebfdf012133e122302f3),
(0x07a1ffea8fe5114b8a6383063b7811c325a40c1942451557679e75e2b304ab91, 0x1ef3fbde4f0283ab96efbc83bcbb5a6ad781a215e6ff6262ca50b9c3986816db),
(0xcf0bdf47a3f15b245c7136c23a3e38f2661fa8a94df29fbd8b41ef22c291dc6e, 0xc73d1fe3919e0aee5b3adc4b1a86e7094b039302d44a0d56638c3eba24857a99),
(0x3a571630935c1f02d6fd87442c082060cd5e792a1c6f92bd0c4eed01686df50d, 0x7a1ec78c4a660cd0ae90c00d1a8f5f221f5507e14487e5ee2dea74d617a69494),
(0x1c5e548132b49a7f66ae9fed8323480e0d1ab974622e7cf08993895e0ec87fac, 0xb00309f07c80b970d446a605e2b3d52c5c215314d901cdb3aaa284c1a03d2740)]

/-- block 16, /repo/src/precomputed_ecmult_gen.c:911-942 -/
def c43_6_16 : List (Nat × Nat) := [
(0x02b081f0268d6ff41090561d79144bb9554b1f3f1f0f2cfb0c9344e2b692157a, 0x597920fbc528543c26499af18b5e7d7b5ebf5ada5df4a46cedef52f21e2fda5e),
(0x2ce45dc7d84d3143884d669673738e55e30f60458bac95ccc30e86f871779827, 0xdeb7910880a1b675a628fb09725c9307d1629b078027f56629f8560c2ea80458),
(0x9dfa0cb62a63244a35ce3a0cf102e7c793a4530e21c6c03f15a4fb91e116c480, 0xb01c1aff902f0831bc8cd268663f0ce36d8e22be86026460a8950636ce44626b),
(0x61a32d1dcbd7e887def51ffc9c1dfd55d06d72f6a73ee2dff83cfa0f52d47bb4, 0x69a3b17cfa91e3d6faf28d832695aa66c87b14ee7b2d987c080242fcce2cc42e),
(0x8cbbac635414c0acb6d7f6595c6eca39886c3ceb82549f72d07a4019e3076eb8, 0xc838dc49fd5af1b5e503a43071901bcc90e1ea389f735e31236491ec43e7b621),
(0xd3f77c5f663c6efa670b46bfdfa96af4fc4720d8e1df6e8c1ffc56960f37cb55, 0xaeea0c3e50eee6a916462a1390ce5d47c060efff01fd31081db7751334300332),
(0x6f7741184a0210a079695d20f93f861b0658137c3a0720767d80e5fb8b1ebdff, 0xc12aecc9b55bff04bd6b6e73870deadc666973b8ec498bfdbcc4c33d23f5d674),
(0xfecfabd4897a948e5fab7200969f99559eb1c9dd2a31325f34dc4f8013da72c9, 0xba70c9bcc8048aee6fdaf5f18ef638bace739c0c76ec4c13fd4dd6c11663d02d),
(0xd1a1a1d424fb5ab13e985c869bd7c02ff81b4633dcd22e96c3f334892e80d543, 0xcd5b79aeaf62769fdce995308b921b5e39a60fd6f989dd7e1d0d7219e9ee8865),
(0x7099682ac3c083a880467746fb924d4a56f23d16a3b57f101a824b9e00653d45, 0x6a9c296bcdd72c93df84000324ce78b91f9df6b2bfa339220ef32733fe49cb31),
(0x1035866a4e9ff0fe6b0066c63f0a2392c0b8cd6136e13ada21f6dae9f22c39eb, 0x6390f9aeec1989de2146cd00a5eee99e76ea4536423e9bf2c778ff2985538fa8),
(0xe18351cf163e4df7d31851c0409b5705a5ffd472dbda5dd3bf05e66bfae50fec, 0x264c1d2641f185e272b908d477222484c651e8e19a9e1fb01ec5ed4a8a4b6c08),
(0xdfbee7780ae4bc8924f32c18bc0a740fd01922b128e1a595283bfb4afd8f2f76, 0xd11f9b3c25ae361999ec2c9c2f1a5903d80eae590e096c5dc5e3720181756acb),
(0x842cdb54414fa97758ae3fb19316ef32af9c4f0d649f0abdcb94267a124b59fe, 0xa016f899288f4cafdcc6edcc3cbcb561fdb4047af789e1a851ad21b3be62f5c8),
(0x3deb5d22a81540efcff29ac5585a056a204e4d672fb858f35c23e939790c744f, 0x20d739115b24b1a0a4b3130273321dc5d8b74398d65164394e1423f8b4022d6f),
(0x3108e61a01e0f079f76e3ab0d69cf068779674e649768aab718a09b0640251bc, 0x245a9f2d141f390cf1a17bcca06c5a665cf3a87c1096f5e9b04c4fd6737d9a56),
(0x063b9eaace6b32cbe4cf4a696599f8fb3797bff509103ba0c1351e78b16cb0fa, 0x938ac414ef911df6bda32b5f1f69cd7a87a25d82177763de0568ca95e846fa5a),
(0xf37a5a41cc96a04cc882c27ee362d0547d6267f1c91c54032daa5c121700abda, 0x108bd6ad27aa72de48406693758a74df53a3ff98d490e30354c45ffac64638bc),
(0x52afb7fd6a16dc6b98f9d7d9555068d2c2317035b7492e8afbf28aea3b1fcaf3, 0x548d8ca12cf7a11ab0100455c72402906cb2e92b101d1e2e32ab263a3f3de413),
(0xf644fce7874e91548f3fb284b7d1ba17fad6eb6ec581f57d5aa1180486de9889, 0xb2acbd8f5bed42700ec131ea1891c99dddb4664860acaf39d68d2a54a58b92bc),
(0x863cdfdc066065a450c2b7c31d694c58e63ccc09fccfacdb4fdf0b1ab150e937, 0x14d168dcc84d859b55a3d5af9d17ce4e83bd90ed55e099f250932dadb5d2693a),
(0x9f5569e050a262885d91f82e9cacdf9ef4487676730f4da146ce87693d8807ba, 0xcba008af0547e01f6a9c6c458f9d71e18ad062c44b305b523f3a66553979a2b9),
(0xa0f14b6b99f0bd74cf9864bb17b1c43d51ade5136cd72a1589312dee706d50c1, 0xe2bd2d82c549b4dacebfb888c1a7c5d2f0757fe853e07fb4747eb7a1542137cc),
(0x9e7bd727fbab45a9db36d17d5e5437ebf028a10b392ea470d5cff0d32e9bb0fc, 0xfb52eb32e43133db28125280e3cc55a676877c58b4051f709c031f8424f12d9f),
(0x7d8b1a304c0c89312d5d712dab396efc7a1174837f62bb38062a81a3660b1068, 0x472a2dbfee99c39894d14c1ece87cf17c8aee10a4720357cc5ce79a619aafe2b),
(0xd5eb073ca5afa12670602de8417fe50dbd8f0768d615ef2f565e421b4e7842f9, 0x52571e4ce4f0c424fd288f3e8b6c54b707481c3a43230fc704c6f48bd4041089),
(0x3c41cd8a77728b07ea5922545ac454622c7927fb6a7aeefd61635cc4217acc90, 0xeab0f00e84099fccc2f4d33977ff7d684c035b3f34c6c4e6aa812c9f43af366c),
(0x1eeeca5ecadfae31188218ae07beda4557f85c255c99dd641d00d8ce2e6f7809, 0xd7e5c2ff4ddf421fcf09b655113b8cf1a4c25e900d02b87191dbac55d6606ef1),
(0x54c13737454414e176bfaf1eb4402bf8678daab1555412d0c6d3fd44653510ae, 0x00753f6af382d0bef1dab47c1b9368f957d586c4acef0d190dc241cef008ea3a),
(0x4d608c371fd6f6359ffc57c19f1aa5b35b0f570255851cec34278d2f465fc8f4, 0x12d1592dc2cbccc37e5c9fae4b864e9a0ca6967e09d4852e9adc9e311000670f),
(0x71157d648c0a1a3319b713aff806cf9bc91a446e2ba48ca2fdd1ed4e8c43da59, 0xc2ac2aeba298fcfac0d5eefc6eae54ec0330f5c05b34952a9821ded39b72d383),
(0x327f876c93652555fa80a054968b4712930dc93012ee6b8dc10263ed3b89a762, 0x4d2bfb154cadbfd94f6696daa1e668468aacaf8f01428201636026a546dfc92e)]

/-- block 17, /repo/src/precomputed_ecmult_gen.c:943-974 -/
def c43_6_17 : List (Nat × Nat) := [
(0x4d3b98d0b5926a8b3e5622d610b30e88caa6e7baeb10bc3c38aec3c9c1267578, 0xe84056d84726291de6880a2f2d3b0b01371dfa275b8c9cff4805d18ea5bdc788),
(0x6e463689111d1a5dd10b09e15d0f438b1cebdb677a6cd230bf6349c370667db9, 0xde10eb3f5d2f43207265952fb33fc23f154972fdd3394cc021b6627601b51db3),
(0x48235e7b76c94c32b0d21bf17fc215eddf0363660a9ef4941972348578db8943, 0x4f5ac8ce36c77403b2fa83ba1fd0e88a3da4c8cd03c10ddb0aafe2d05da40a2d),
(0x668af7c14063dfba1a4187f3f69cb457cae4edbfa3bf96694080b6debc3e2f0e, 0xec95f37c7bac26a0df23275a283828a805a102d8f33eef1e87cb56c1850740cf),
(0xd4426fcdcbdfd904725fb501656b9f2e2a9f9ee3c6522064f078165f61c31d97, 0xe73f2a38c56838a7174ee704948d28fa5b5fdc347774df9f72f278340a85eb4d),
(0xd0f49ec342076b684cd91172f15584fcea38aaf0a3201063f854ff1df68d4600, 0x28d95ef282dd7d6d72be7854e8858b1da142002bad7b7b4dbd1e582e94341e16),
(0x8a36f3c350bc0f1a1b1687ed4ff83a681578d74cc28fa875f6969e524887bbb1, 0x15ab9e05c3ff823dba090e211033c34cfa713d39feec434688e3ecba4b431e10),
(0x4d1ef23bb316e8217d2cc409a1baa2730cc06f798fdd4d165d5b68053718e238, 0xfc37e62bdb18154a2add98b0ec221e8bbd1a2096ac2dd1fbcf8e2e64821301fe),
(0xeec1f8e576e87803bac48bb465ed923aa68b296564365d45bd1c24c4cf7041b0, 0x2c6985e47cccbc383b85be66ab34a166c98a8000aad08f730616e4d22a15a009),
(0x9fbc20e4de372a3890443786bd7cfc40c6195b294cf518746ccd9ecbcee223e9, 0xf734bfc8a6973209903edaf852f63bcab23fc1a4879906b91c5df1699d24683a),
(0x7984c8eca2b02dd4e8b9c69c6f80341848f108fcb63d7038de58e5670e64a894, 0x49adeb1113c705a09eb01e50dea5be4886e5d424689282ba6d64f74574f45e8c),
(0x29a7400b16f5712a2324becc29fc4b9857fbb926f8741dcb324c26d96cd178a3, 0x90770be55c0a94a816bcfa38aeab11aa5ec3b7d9eb4e7d291bee1c0269e87267),
(0x8299d2fc84770bffa4e630b98f2e674499b1c7f5719e907ad70515f5140a00c0, 0xc790968fa3c3d4ee3e25a1ee8e1d49233c22f0340ba7c172b5d7d91c99eabfa8),
(0x5cfbd4985b608db35d1a2872b9cd03fdd775e49804629f4161a2bde4fb2582f1, 0x8288fa8981056333acd1720bbde757b4e83d0a499c5f2220521a0bc8dbe827f8),
(0x281f1fb8e144e39d9ec2104a96bf0f1d494eaff3057fe08463825228ecd286e1, 0xae40e075d19ee5f11dd7e22bf1c277ed9a02abe90975609ca7c811f97c54e493),
(0x51698bc673d3289d6b4882b0cab14e6797d31221e5bc6e53af061aa19f546daf, 0x7b850099fe977f6cf50abe00bb3a0b6890f47c4524e9ae0294304b6b20bd986c),
(0xdb701e929b696c86d7fb459c97af90dfef847bf51d2353372a2a47925fa8ae53, 0xedc7e98f1a108bc48fdbe65c2904058f7da5e188e71d194c4e9dbfe608a55d18),
(0xc900f57fe9a31d4c9715a8225a906e9022d81c12714006d581be0c7baeb5a490, 0x8493eb0090517d9c0b70a4bc39043ffbe08634750017cde2a9bd0d95f616bb66),
(0xd74e842afe2da0dfdf6342bb582fc223717e0641f1ce0e14584c5c63f379ad72, 0xcefdbd7bb4ecbdaf409a0fa309a0a3050b1bd9864913f977bec6c47d5d525c10),
(0x0b00a5f4f033d12664366147a1bbb9b6ea60a38b863c5f3ae323e8e51aee200c, 0x11e9f1f7b7701a4c26a881ce30fac1e092e157d7b9c2e4cecffeb38a172ead87),
(0x5772b13468bf9f09d26074c516dd7472d3a8362492306cc5c7544ec0d73de280, 0x2e2a7931aefe2a3106dbad1ce7f9d42b7f38197f43024f1609e27fbc7af31d0b),
(0x8bf8af02ccdafb15598f67255f172fb4ba8960e06c81ffa5b4c1c3136f95f29b, 0x096041af01efd128ef133e5eb0aa3d9a6ac3a65192598b09ed649847385a9b2c),
(0x292889a2d83291393410385fcf5bf4897e1ee23ce0e3b5ed82ceb340d89f87a5, 0x41099fb2bcec7e07d4d4ad143cf605d1b0a324871736063be49b06f6d648aa69),
(0xad227b2b737dfd02665c15d59b28c7e876413dfa25c9068b090efa79ce83142b, 0x82f1eef17e2f6b8687137302741f848626fad6799c6a22fb3a49e341c7e51e9a),
(0xb4245dc55df028394cff26104a4255ef89f3e70821541c3a4631ee4c0145bf85, 0x5a40f72b7a67540b06858e5eb15005c13fee862f3cc54a527643204fd0b8be2f),
(0x15aaef61568537a4695c19900c05ecb92c605232f705c3e3729720de7e9c2400, 0xe6efd1fbb74e9e43ec1244e00bb4cff22a5ede8c848a4f5f5eec6f8c77b6f5af),
(0xade2e63d4a828328b4c5376330790331734d7f9037c1a584059570c8f31e72d1, 0xc42898ab3633dc7bf3a454f9d5475c4efcf1f786d1f609fa23616f26b23a1a97),
(0xd8a9043d297681eac5ed63a5de3065006b66e4fb167aa5ecc76a8e2edf426e7a, 0xcd3de058a0a93d7d7122d7771446b2b4d4cf53a71759fea378adcf035093f4f6),
(0x030651cb592d282b5348f1925be3f04dda5033bc39e2fc7b1e61500d9769b57c, 0xdadf77cc44853f6753b1dbdc17a97d3ce6d5b2e78c6087fa800c5af90ccdc54c),
(0xaa21c60d6f7d62539d42bafe95c58f3033c0396cfa0ceef96d2f91edd6569044, 0x4d51977903b1951592e2d9522be520b111a5453eec6d7ccb3e6db3bd3d0c84c9),
(0x5335cea5e99eeb23765b3444d9bc7be601da67d691bcc42fd43ae5430e9c22bc, 0xc4072fdf8963addb5f980f7f0f314795373cf3dc935e0e64c3d3d98c342530cf),
(0x708a530e9e52c73bee87c9d88161c810005d57622c29ae691cf999a83a1187a5, 0x6477b7ee1e0657680569a9234492c7d7c13258c392cac175a75b0e63b8c2426f)]

/-- block 18, /repo/src/precomputed_ecmult_gen.c:975-1006 -/
def c43_6_18 : List (Nat × Nat) := [
(0x3fbd5a4debbeff548c2271e533dbaed3fb8ccc23e3fa25794c8f7fd447ae186e, 0xfdee462545bf75f55c29a7246496d97004616c54ba01d0bafeb9155bcafdb555),
(0xc1483ec178ba8414c371b57c49c687fa069669e20e3e1067cc6d2a93b1a9d24e, 0xedf94395962adfedc2ebb3bb29346136e4dc870c5c76299e3b07da356bb26bed),
(0x26df4b09693a39052cb7a1be5bc2cc97222b70e33d297a5443741228beb77017, 0xa3d6b908cc6d5f800aecda93099e17a8ce33c4230f00cfc40dea8354af502760),
(0xb6c265d590475506e15b2388b894718bbe67aee5ba40ceca51876946e336d903, 0xb451d3f12c666c85bf9486cb296c39f949f9f98e96d50a1980f86f85a1efb999),
(0xda6cf69cfeec7b1fc848639a7e27932af49cd695a2e56a50693fa8626e257c66, 0x4506f44ee6e0d8227e67dc4a9f8e2ec2d3ec0c3ac2a70c7d0d25fa9c34cbe3ae),
(0xd57648dbadf18b77db185ffe3f86f8596adeec05ffb8621504b894a075776eac, 0xa3f2fec77186d81e4228cb1f691e00e482a125a5bbe9e6ec45a536044932491e),
(0x04de6cc4d64d52c849c0e8d245409ba0882483991916df3c238be4deee2504d2, 0xb389e7f10ca72e9e1cec2ed770f21441590f0bab1b963f1c411f9bffd3df03f0),
(0x15f1bb1178b0143900f264121d36a44db8333fbceabeb4710da2e6c11b8b3ee3, 0xbf13711735e1085495acf3ad97fe510b33d6628fe67d0067499169e66c12274c),
(0xbadc76d500481e779df71d6e223c69659e9ecba58415a95beb7118ccb1f931a4, 0x475e47ee0115d2583f0607f17542ccde626e6d576ea884f961b41354aef37247),
(0x13015ae5d770f4a975825baea6cbbece78536dcb78d7116ed304aaca199add2b, 0xf5e285857a99ff0d0a4fd15e08ac650a98421629aa102bca25df39307e5cfcbb),
(0x7734d2ac707b9b53afbd2a6450c9b6091905c391958d7215f92353eefd3c7be5, 0x0751d38fef48bfea8fa5de068188a658ae6c9c75a359a4eaefaac5e0b5e859aa),
(0x918143847fe2ed34e9cc9c613fc2c67f2b76a208561d0e06271b812f6c678856, 0x9a97f6e09888e07693c9ebecb8773485c3c5d208c793a77c6984fb09cdfd67b2),
(0x98c516fa2a2c807370ca9d7cb4187108ea345652c8f814b8b4a9405fb48c2469, 0x7b3446f32e8c4764a8eb08464be3bc6df42b8d14b7da65a2ac96a018d0831c7a),
(0x5691d1e3713302c7048bf633189ce03210832e4a9af1dbc2abc3e99bcb4faa01, 0xd802e21afab84c545d665ed354130d9df7f1828330b3a1fee30c22988b71654b),
(0x1f8cb6246440b640aadba62dc02f4ce7a0ba9be70d53598764072fed95c0d1a1, 0x647a9deaabf8247ef46b60c653cdcd5ecff0d1c688b7519ba778f9ffc894e1f6),
(0x1489af5394878f075cfb2e20931fa3a4e585d494078818e4f47f05e12be54d14, 0xcd5bd7214e53582243270bc2dc692ba4c57e494ceba92d4cdd2e13c8e24d8550),
(0x6615924802b2229dea70ff76d2a5e70fad1905c09211e3d62d1d652fccd709a7, 0x08f5ab8557948aec67e7b538fa9c704bae939c224041e6e165f6045ba6fd0fdf),
(0xbc894efcd0fb7497ba70d654961aa79b6ac5a79595537c80082c525c2c44c3a1, 0xd5254292ef0fb6fcdb5873933b17adfd87d13320858ff78375e356fbb0d3415e),
(0xf117d7f6854576019b559bf5f5bc150c13363e7b72123435b441d98bd169dd27, 0xa8f4a23edd0d8f2f8950c1241abac43ee629b0e18505c3bf780ea37820c8623f),
(0x2a8d99c265a66a5156b60556775c61bcb2a81a6234896a3116238c2ab7716ec3, 0x5e842306efe11f665a049c0bfe3ac74dd72c50336dbd04bf2a77b0d24d7ea651),
(0xea7475971a6b6d942e368bcd9979876eafa4622d313d819d5e8291c82da95830, 0x41d4a478e0950bb9e6595bef03c197e50d0f77ae6340ca8f2947fec470465193),
(0x114150c3fe8853ed9f3e26f7bc9f3d6faa50ba0e6ae2d8ff97924b04dd9678b4, 0x5530c22f4ac307162b272015460426ba9602256cab7351741a2fbbfdcd71d134),
(0x65d96017c91a746a656eb595d39dc9bb3476dc0b1a1036f2df7a4ea801846631, 0xde46bfad6999b1081f358edd7809919e4de768f1fb21dc094b248bbd56b3dc76),
(0xf2aec21461c040c0ebd18204bc2773120732b452266bfd55aa071853e458bea7, 0x52a1b71aeefe2c4805ae2918e236f1d201622d3713b4bc0436124567d48cc453),
(0x370ef89dc39e637e8bf6be31063a4f767cebb202c868647edb18f991977681de, 0xe6d402ba9769363a0b963729822bd6aa9794592f36e54461579ae53d4c8bc4cd),
(0x8db6356c4f31f46f961e4342a1ff50a18240629ca0decc36e1bb24aff6742e57, 0x8ee033bb9695846615626ad6736e9025fb76320bc2d0ceb8ce3400cd743f934f),
(0x014a1a08502510e71060f2911316ee01b1fc2bd3c88eaa1b656cba0e8e3515e4, 0x5a4dc536b62c349bc9bfc6d7fb6772311368655efcb9c89e572aa58da57f08c6),
(0xd530fc7c4d5b4fd105f44ba0c0f08f24889b278a93ee30ab935fc1125e244a58, 0x39c0ea885984c2d1d5119a287cd842cad3cb54c8ab6aa222c01e715298aad10f),
(0x50f3c13ca474f604ca992658bca6820776acff7dd507d63ab5e18b2805c5be81, 0x685e151c7d8fddee6c9d8513dbf167e2c32dd70fb693239738eb63fb3e4f7afe),
(0xc0a72dda13174682726ede1f7ecbaa68b4b137f6d44298d34e17b7fc10e19d4a, 0x1e45ff3e4a4239ba4a897489a265a60d9a91f3f283fe2e759e770156c9ebb3ca),
(0x7121e14e7e2a2c5776b5702ec83a845c28785c799099a00754b50fcab4d9279c, 0x0e6b3ff5ce62fa35adf45e692ccafb91b805d7ccb6eff2e138dfd680d0684401),
(0xc0c01f34ae41b8cfe466b4c9c6a5d5f614f570d6fcbef768a81a6c8f05ff4adb, 0xf47b0a411bca80a3836c85f4bf8a47313243bc2e8f2ea47a03b1008b53caebca)]

/-- block 19, /repo/src/precomputed_ecmult_gen.c:1007-1038 -/
def c43_6_19 : List (Nat × Nat) := [
(0x4f20ce5184fb2949443286cd8ea201eb152487496e15aab6f3ea2597d4cbf47c, 0x0bf3777062691c5ad6c6cb8dc30fd3b1073578a3bcac43c2c8404b6ec085c97c),
(0x17ceec367fad4365520599d762c66c125abeff81ce7242dcbde4e799402759c0, 0x91e024e1e2147fe973091001984dd3c09f88725773bbbedf47f00c7bc5c9f626),
(0x0dcffc4a5557f2a6ac7a35275a8228ec325ea0bdd9bf52c308a78217006bd716, 0x87658163dcfc39e2ad08a499898a1505988d9b8672b6d1e964e6845bcb41129e),
(0x625fff4345337aa21efa088473a6662ed5340470a79576a4362e30dcbcf762d4, 0x92ad0a66d0bea2a6d7eedfe0e33295b93a656e459220026a5ff3be8f83184187),
(0x410b96fe7db23faa7d123e970c1a82a97b24a26a80143e50dcc6d9a91a6e81d2, 0xca0da356dce887995f8cc79064d197aa6532dcf120fe93c37e2ff4e2f14394a7),
(0x8136e51dca68170b136d40fe76980b4dd4f435fde38f301799de734cb2491551, 0x823dd1ed0de1d326676649a39d5ba0837c48e180ecd0a648eaffe7c82894e819),
(0x64a67d9aa7a313903ed9e348e73009176c1d52d0be63f54baa3ee8f3f1227a52, 0xef770581df4aa0136d191e990cde7f42a14fdfbb11e1b709bb5401001dcda1ed),
(0x5fcf0465a905aa8aa1da5073d524e8a330af663ef4307359c03a4c6cc423dd9a, 0x58641e67fa821fc12307a66efe0129e64ace7c36c3f5395cdb87667e5e742a42),
(0xaae6747fac3d8c9a148009eac2d2557439a8b546455fb3a45016891af9372dbc, 0x66084f19b1d97f2c022e182cd5450d43d56636e492651cf622772a7c005b46d9),
(0x377dc2c813e36bb4642d1e02cafce7542ac6d9fdc2212edb5432674f38e242c7, 0x8395dc2a39d3b1cdae9d7d37d0c4597a11f931d875c8bcf58eab03d3674d5841),
(0x35c598c007ac5dc37afe689529d815e9406e2608292ffa0e7b24df653278d8ce, 0xe793aaf145f538f6c133309e53cb5343dc1dcc740985c57f027361c6aae23e7b),
(0xe96663366bb286d6c86f425a2d5658cc1d7332239ec2e9dec8ab72954b329845, 0x908dc533b6098e9e09b737e4b96e7345e635f59160bb3df275e165bdd1cc5998),
(0x46fab0d47fc6586a31cf861dff5e0bb8cc12b60a53103007c8974ab8204af703, 0x845ab7de7654fb36618dbfb1287534a92d43db6f2a2cdfe45365b4b1893fbe9d),
(0x4d80486ffe748d1ef88aabff76bb82c6a45db73676ee0ff7d77cdffa2c69d07c, 0x2a52044bd4fc6a59fd16dabb0df35bb68057ad4c292e87b5528a3847c8784638),
(0x2c1d108bf4945c0edf62cc156bf0830f007a45ca1baa636e9f759bb8bf078a55, 0x81e34495d269afbc1be39ce75417ebf7d45decb6eaddb6354480a7f78d7dd34d),
(0x320a08afeac009eb7f254b8d395d836fca6ea5274e2f309ddfb7f1202f1b3cdb, 0x075269a241199c0e5f1cd9e2d102a2942324a3eacfae231f99ccc5f3e0af00c2),
(0x8b893fcb9a524af26de5aa38008ac3dc2159817c7062e5c9d5c9e7f7dd889ad8, 0xcec6a5ba0481f7e3088c1cabc11505f239afa14368977ed652ea2d6a19d2cbfd),
(0xea89b95b36cd520322c8e5af7461f9e1a054f23d02720469fa74cd673a52aab5, 0x5325d16c4b8668652437b6b8598b31c4059e61012cc1b147e04735275935ada5),
(0xcdfea79a8c16ce7875a9fa1c5b7647fbad641ffc5b73fb31d9354a1c3c1cabfc, 0x184c309bb0f529992a3f6b9377b9e6a76da6b943d8031408b71223cfb3ba9100),
(0x3daaaf0f785a63970c652331630931eea975c522358997361b7e5fcb409880fa, 0x952efec1ebd4c107b26a98f3c6683903a498c840ff4a36c7ade569e4c899919b),
(0x7cea5226a56d21cd45bfdbb07fea667040247c70ef43da28d1f8bbf06e4ef2a6, 0xb03edff96a5f32c56f8f63f6ba9feb68f43cca62391ea587081396c75d963b67),
(0x1f5f4c27847ba921c63cef528b57fef55bdb53440ea67a23c173828dc59199e1, 0xd37f6918e0b774ad317dbcac75c82188c8a421f0ff5756bd853a05b0c95ef089),
(0x36cd4da92a77613b6417deac1d9a0dad1bf0e506de26b5297fffbd034a4663f3, 0xec1dd8f66226bf5ffedb071f7027f9d8d931e6afe378396cd0d296eba63737e3),
(0x9835c1561be21ce50db788f13c0aea13fde6861e97cb2cc7a67fbd3717eefadc, 0x7fad454b7372d969a6e754efc73415d7fcd4d589c8e255c51adf5a9a82228f42),
(0x5e218414d9c9f0ad35ded20e76a484a1d41b3894ba9d3be4bcb4546b371d0e4d, 0x76966ecf9c8f1c9a452cf97110ca65552ca59d3121092e93333bbd616eb9cfcb),
(0xb105f4f440e7ea66e3272da9d6b2b76ed00e96a506f9522434ca0df15340c585, 0x9e8fea7f35bc9eecf82ae118bcb6dc33acae587b0f37b1491f8312e24ffc86d8),
(0x81d5713e0a732b4d98d085a975cac9b53fa65171e5cf49f4684a78567c24fea9, 0x32480cf7a0bc0c50a4de82009343b5244a0f2aa8ce67b11f4a5482cc6fa00bf2),
(0x0d47b4f188f5e7eda9eab2e58ad2c140c6278d63517bfaca8cfb64aacfbcc7ec, 0x524f65809d3ee034afb1e64b1a0f8ae11e4649153722e345bfda9671001b94a5),
(0x16e85ad86a95356439b979577bedd0e96e2eed7276ba269a626fbd58447996c0, 0x8bf74f514bdbb6c104de81a31ff12aa5de49bd5263a962abb777439a47eadee7),
(0xc299c6b06e6c78ae852bd55cdea35f99d264cb5ae836b77dab209ac9c05201e1, 0xa558c66dc9ee7fa4c777b0db0288b328428b230a7c53d516522ccec4af0ae08c),
(0x063c462435ef974b393b05b37d1c89d70b0d8958ebd541d7584e2bbc7235c795, 0x1d806446ecfc7bfbbce099f26ce37a4961b5345305b65642c0cd23f5a4eef9d7),
(0x6d36d105ed8cc5ce53f2cb698ab620f9469a3e5cb25bf6e6d413f414c5af726a, 0x1b45a3cb1c8899618d2739936a3affd6233a66c94bef75ca3a8fb6e4ec05ffb2)]

/-- block 20, /repo/src/precomputed_ecmult_gen.c:1039-1070 -/
def c43_6_20 : List (Nat × Nat) := [
(0xabdd85c7a2f8bc31343382d40e4059783874c8d01405ef1485047cf7f0f71d50, 0xd5a03157798fe828a03ab63e084bb007b53a53151db7af14e4ab612a736232d4),
(0x31297c6cf567267b3c8d65a972afc752e8525eb3de2958aa76f72e145ad903d7, 0xf4735877a6c6d89bd1beb50bedd1235b5f5e5d0a878e4610e7d756c534813389),
(0x64706e6911a7d0a12e587c8691117a27cbfa64ad1d5617fc81e55b8f64e0da86, 0x59d9af3a419957d2b3de757015fd8531a5d074305cfd74445e7e70b357e62772),
(0xa4988ed289d8397cf1b897d3b81d80fa092658ce2b935f4ee2e3f0f9b193af51, 0x00813fb873270570050f23c3f8082bcb563ee3661f6b2af30f631f5f916c8478),
(0x3c2769bfaf401993595a01d99c72a6f2699591fe4b8690778c6b5ee0f172a866, 0xf3e0d8b60cff168c95873f440871d27bdf1e79a2d9e0bd4f6f90f682538c1f24),
(0x49d93e09df655edd19548fbeaffce2014c6822a7e196eb98b9ddfad73cb70125, 0x26e6957f84ced17bc64f710f0b37656d31ba088a983503378f7323cfc57f0eee),
(0x53c0684249997cb206e5b4cc5f166fe7db0ec0bd52639a27d8fedea7214a78bb, 0x8a8dd3f1b3081dd4948255eddd178089a0fa73421ea616a51f63905734a489c6),
(0x7a8e7d183f2aa640d0e2ea024cdca5fa01767d9f9ae388055d38e8e4a81d33b7, 0xc2fb92e35556fd144a894be23d97c6d430872ccb25e239c0d959a24faaa77397),
(0xa5221a2d29cf3ef2f066897e4ee74ac295b34cd754390814297537aeabdf603f, 0xec0ff3958c3a1d1b5a3794175a61cd97782c9683aa2c7c075d147db02b134278),
(0x3f49da9c1d62ecccafc4b88c814e44dc8440341d0f347de1fb60126d59578dbd, 0xc3cf8e962fa9478af1be08dc961734ca5021a65db1b45f8078fa8e8fd2813a79),
(0x47b16636f5a64b07534be14d6ae37af19da79b42666b201dd0afda9a2daeb6b6, 0xf121811131ebd87ee1fd7c9bd24a0a11a12e842c6c00f4456a3423099b171f12),
(0xa7b5a8ea1f23ff1ec1768eaa2fef0d66b75744c6dc925d3f9068beffd69b32f4, 0xfe01a23cb0e5acace60058a2889f943409ffce6cb24f4a3a662e007999bcb690),
(0x03e14e2ce7044716d42e9b6e54cb0500a1e4374e18917336e3205e314a878b47, 0x18af982d2c78ac23818644f1ec657da80ad66bdb3d5a9b843f8bb9884ef8dc3f),
(0x071393e6746d3072830299c6c1244303750742be361c5f086eb314a476f1736a, 0xdc30a7ea9b644339ce8f1fe40eeeba075bb089348135e819cb061559aa14e42f),
(0x37721b73e6861f157993696daded49d378994f3de2b573a7defc907ed6f301f2, 0xee0e1755d8efb25a5cf4d783ec847425746fa442d460cead56e73a6942561de1),
(0x7803c663509fc9cc55b372e1dc0fa76f149a0ca63db4516c4abc0ad75961e4ac, 0x356c72f7794a70e4db3463beeaa847cb256c58cdb6a7d862fde4feefd896a46f),
(0x32976d3da3d033cd0c073b0fc7d2f44525646893fbded1c81a0a1761a8703206, 0x5e6b7900a069ce4c65cd84cdf290f0922b936bdaaf6ea40d9c36a321a7c9dcfc),
(0xc52c7b18b5fae5fda4e3597f39c96b8c6d6c856a80f1210da1ebfc1534850763, 0xb87e50f620b66865307d0747a02ba22ab310712bcb0bab6b963c589cc5a208b1),
(0x7de59c8c3922fd5168f4151ecb7837750cd0bc0b1185ecd36ee075e114e66cf7, 0x688e2cade4d49da7fe691497412c9372c67288e8ca4b64de308eabeb723fda15),
(0xac49d6f332cda691c345f099667ace08f6496126830c39ed877223a8cedc8be7, 0x267e6a525ddae4f67e05f0e8052b9dfe5101c49164d791c982249937c3a7b031),
(0x5a92401b698cc394c9b714c8bdcd92d120fa72e9b13118391c383024f469ed22, 0xe29f292684c255a9a739ef0e5d13cc55987f5b3a5c6ed6232943103370edb4a2),
(0x3609dfba51616095ab060e77d67790256456eddbf4b651c6442cd673f893878b, 0xf85fa9b9442050d8ad9d93149ede869891dfc99ec05a2a485854cbeb55a6c380),
(0x332bb85e92c90a1503bf602f45dc33ab3dea5ef87034af81944113a74edc94d9, 0x59b6c87905f2a82496d631b5ceff8708507db41a375c72577533d8f1461fbaf1),
(0x16e9e054916b894e730d712627b1bc81e7689efc23cfeacb0a423362df49d87f, 0x303d0428b701f1e5fe8ae460e54adeb2d4b5aa93a9c7d7ec7b903cdb20e440f3),
(0x4e62ab891d4c4cf02c44915a4e2fd52288d75aa8e22b746330dbfbca97ed9515, 0xa7c21be33b5cd5224de0bd25faa9c2de5d6b2f50b50a69010b7167b3c4def4fc),
(0x649eedbd5612c4292aedbaccb846e7594a2b5870f21452f31ac9e697fc055db9, 0xca694303ee206a4aacfc4cb31aa9f1178fcbe37fd6bd11a4669289cc07c37b0a),
(0xe858f72a05fe2314951ca0968ba59760e3d2a667e76dcae8c3ae2d7a4721afbc, 0xf1c7131d3e2d0468ebb89bce700e0ecaae83afee7562093860e1fc70cfc7810a),
(0xcd35149829ccb1e69b18e35a72a24b30e074793daab4028b1c5eefe2b7b3163d, 0x6bbd52b293b43cb3a19f629169ba5b2a597850991684209301e58dc1a040c57b),
(0x19ffe34469ba3e437d9018633be7c298ad8b65a049c30dc1bae30ca597ab38fb, 0xc33ca345efeec66296802e9569f0f34d12ceb64f30fc704bb77261f0ce5c98eb),
(0x8a2f772aa38a5b55a7081d0a61bc27d589f9832b1326a230d81b9f584d634293, 0xa4707a0ea7bf528cac62e3616f09287c182aa3b606862430dcfef3c2069d1567),
(0xe583bee31dbc8f0e572eb18f366f88e93a7a0484b4299b9d335f78360a222636, 0x8a4fae1bbe122228be9d8afebe223c53dac161aeca77ff4fe14d9c78894fdfec),
(0x8b6e862a3556684850b6d4f439a2595047abf695c08b6414f95a13358dd553fd, 0x15a1f76ef12ee34bf2ef43d20b14605edb53c3a5e7cc7c2f27fc252bc1641642)]

/-- block 21, /repo/src/precomputed_ecmult_gen.c:1071-1102 -/
def c43_6_21 : List (Nat × Nat) := [
(0x1c185b5de988ae93eebe0aa4a98396aafff2671d8246ce2a4394db967a541ad4, 0xdddf42443532024fd225f86d133b81563ea8c92bf0ddc35488e6a04ad41da5fc),
(0xaddee173b29de51058dc107a47fad47ec48bf3322f7c138d51060322571faacd, 0x3890624ec6920ca86a9aadb990a15156799dd771901823e49f3bfcb68bf05d5c),
(0x9e20bbedccdd5c05d683b2ef852760b8e246e5d96a8900ea999ac8bf5e8f12e3, 0x09f28e5ab4257f6bb826d076ffff259e1caeda5b7d34f658ddfa04017cd4768e),
(0x0dc825d15f707c174692001409d7be56acf2d1d3c444fa27cefe50196f5b317f, 0x226d49602f349d4e9cd10a576bf01681e4981cb64235d34772a1e5ce7694a20c),
(0x812e2cda3f4739191f2ac0877d70d0e02ca0551f10c96d9551ba419922780f90, 0xc8d058556b6364bcd9aff1195b9ef26b85cffa721e880b83eed73cbdd23b91e1),
(0xaebb087076f5918e68194fce42d0b925cfd2a5060359af62146c8ceb8502231a, 0xc1c19605e0456cb13e57229b45c83ff7c3695a2a31908bc031b081409c2040fb),
(0xaf7332f33ec274c8d34f47acfcbacf8f7980cca57220012b8fd5ff940cbf3d8b, 0xd439f1a289799dc892b7e53da84a9e8207bf7bdb7240c34a0caef59a777188a8),
(0x0baf71cf7851a75812d7e09b192741f21b5d2a366e31892ee54c282c81163a6b, 0x1ef3bf2ca81acdfe17cd6b45266241a022caf299ed4d87cd68d3d4d4526b4d38),
(0x615991c5d250cebf8c7bd1b2969213f0403c7da10a3ba91344fd049088c2474d, 0x4f01417712142cca163f29a1f57900043272671293c2e87ef46d2138c14040b6),
(0xb1574b3926ff27c70b2dace66108b93f3fc75d48478567cc66bba29e750c0c86, 0x2759967d8d05be253f88a66f830dfb835139e32d6f42cf3a43b199ceab85b55c),
(0x5fe92a7fd1c407fc967dbb1900e9fd4d8361aefca3d5a9a42f8237a3458e5e90, 0x9b89ce3557d469b69b9034d6cee93609c291d023d1d9349ad9bcf47aaed8b2a9),
(0xd65b0a5c41b2dc6be5aa87e4adfef952621f9d99550e424d176ee180065f666e, 0xa76fad913b80b0cc3d3ceac39a465cb94d8c79de92adf9cd7a4efae7c85c30a4),
(0x61d7de65fe34ec4cf82f67b17588726311683263145cbeae18ed192d14ced48d, 0xeffac049d7e5412c5052160a6d1b22307157669b0856af0ee3e46a2502d2ee19),
(0x9a77de665165a9be3dd2758c39aa7a141f0523580fbac6345ea701c8c93bc4a9, 0x1044e428bb38102470108d56b8b3e3bc7512300c5a6ae44b93b2098fa13fc023),
(0x4ccb2426b6eed0f9651f80d572b23e78d84d6928576480773663216abc8a418f, 0x0001840cbf5ccdd719f7fa8a033e715100aa351d2f6209726ec67d1ffdada8c6),
(0x53f96bb786516e0f2ac7611a1aac61d3cfbca76a009609fee4cae03652f68271, 0x97e3acbc468b777bbd1c82635332dcc4b08b9fb19608fb35cd51e49bf09d9087),
(0x395253a1b6a349a6dfdb0d6e656955722a597411fdea92946e48d107596d8ac8, 0xc57110d4dd0d35a7663fb3aa0e15d8c4dce5cb67d3173d91a6ff7ea21bd28107),
(0xd7becbebc47d0de0899ffdff8620124db29c8e5afd71a0ed76e0df76bd4e26e6, 0xd8b52fa3e16e7f19e925e7693b5a731e18f3163b1ad4db347f878381da75fc15),
(0xfa3afae04f8c1fa2778446af88e29150256b0413d9bfeb4445288e4129be15a5, 0x9dc76b39574453ab2d46cf23ce8cdb06cbe7df15d03fd3904470a86a822028df),
(0xda56da00dfdd788f90a12219db03cac1403efef3ae706031e153aa16b3a52eb3, 0x1012ca8eae20efdf41c77128093fce97fc66b187caec55db7aaa81efcc12838f),
(0xf07866f0cca3474c40e7fa5926df41c0e46fbfcefaab92e89ccd11703ccf79bf, 0x37ed66d505e891f4e644fa04182f34b61f1aedbcd2a71aacdd1523bff579dace),
(0x853f72d1edc4d953348528b83656894d6703233328a1680164a8451115c5e968, 0x197737d0de83e73b0247d861510ac76c3ca214d8ebbb958a74ce1c315e715e87),
(0x7c7eae74dce7ef769ef0ce86cf6ac861ffc3d4a96313f379fb2c0325daa91aba, 0x131e1689fb017e15e869d8582dcfc4f9153d1e8d246fd613b39223025b5c3767),
(0x56028652bce9dc6cc8b4ad5cf9f222c3412e5bb78d5562252c06c2e425a6e31a, 0x2aa8e0930d8653f62153972ce54806ba666d49ba3787934aa37bd65e79374ac0),
(0x2eb98b01550a00dc59d280b071e472b5a65eea89298fe4b09f6f0e079315ad7b, 0x74e22fc53daecdee6a0b50bee17f1d7dd9481e7728778957274c8d29a0d89fdc),
(0x7268b61bf65d73aa37766a999960d99818aa4ef2ae8a97b1db8476fb32f891a4, 0x824e99db3157b70638573513618f6901ce1fcff8f25019d7c5c45bb2f3bb4d47),
(0xcdea87714a764e3fa94e7356879b7d9eda7c5b6f28c172a61c0ab0129b9ddd7b, 0xdaf49b1234ce20aa263b4349f9f88cc51334db2659b7c587212f407fcbb2644b),
(0x38831af3193c8860690a9d74cc0079c09e3ae0faebe0da0267ad6e2399059d19, 0xbe1885005193f11fe34e70a7e470cedc902bee92e7041403c2f1ae537a8bb077),
(0xdf3acf55bc6d97ce34ebeb4634fe10100ed3d6d6383c11a753a93123e9c8381f, 0x94c22735ae6f858a59f663e212532e144efe6a81981c7619e5002968dcb81df5),
(0xa8b08b864946ac6da101eb85ee7bdf5524282ca1a9956e4aeeb1afe987a43ddc, 0x80ff0174375c95fe0cea6e0020f171235cda4bbad4ef893c78ffe37c205d5577),
(0xfd9941cee1c26864248f7035352787d1aba9e93ef5edd333d08c89b84bb9dc8f, 0x85be138a42bf190b921681fa8777a619878d4d0211016c728bc151ab1a687b5a),
(0x7e2cd40ef8c94077f44b1d1548425e3d7e125be646707bad2818b0eda7dc0151, 0x6fa48af7d523054c7d59e574cde106a2776411bf5111f7d365c43ac5df8ddd68)]

/-- block 22, /repo/src/precomputed_ecmult_gen.c:1103-1134 -/
def c43_6_22 : List (Nat × Nat) := [
(0x282c5bc75b9c3f7673e244af29f22b80c171bcacd7e39b4fac7ba6cc656d9010, 0xe8db2eb0a56699f173d5b5f799d39e14dde34648f159ad0dc1c7767a19ae72aa),
(0x0d5a3eb7cad9c548839ceb7f67145e0e96c60d8d68415f7673b7370005ce3a8b, 0x34ae4e12355d1df125149efb1a9050fd490e251c4404fb3731b6dcc9e233b9f1),
(0x68718b29861979893c5f7b1b48abc25413bd23c8096c88287000ebe66db742a2, 0xbef9d2a1bb596fdb3caeef3b4d9505688a94b4364fd85f37030b20deb9e9a4fe),
(0xa5ed17097932011f9a597511a526e61df22d0bd8ae3e15ce655820e6b1ff1238, 0xdd6dc7d081e70b574f235c10c7c3dbeda57743c115e6fe01a20ac751034cdace),
(0xec37904d9662a4871a471d9f778bdef3430df9e226fc42e47fc4bf5f80e3a9c4, 0x08413f2f1ed55d8b8448e336ac9d1418c48846e2acb43509f1a3d9358cd18ed6),
(0xb09f9c761cbbb6850f69532861c459a4d2b169893cbbad2f0dd49c871d860db4, 0xdbbf904931b1845421c41f2d2185e3d6c8f55dadf1514ab0655c856e3391278e),
(0x0ed1a33548864e9db41abcad3344f4e7ebe578419371095a6b95fe4eae59edd7, 0xd1146be983adc77dbd9c107f3092a9c29c271248d78ce9137831127cc403f44c),
(0xd39507d26ba377f5c7116aca78df331da795cdfb54e5c91208558c0e997b74f3, 0xfa7971d432cb5a44589dc7050de28ad0382206f16e11229f086ff82aefef3131),
(0x641dc311baa77b1435f408e1528445df53c5ac5c32803a3d84e8fb660060d71d, 0x2b355a4776980bfc8a4e0ac6a3bd7b02a6b20ffbf8650b16890104566953e49c),
(0xc3dd73bccfb744bc57bc95f93c260df77f3b7e749e4a5237f3865f8ff0c89489, 0x15d58dfb8365475480e53bb2a1ba430ace213c38ea71c7b751b4143afe2bd124),
(0x3f883fa2e834df1a6e9b5c46b663880e9a0b42f10891b92ceb30600d5641813e, 0x7acff194a5fb76e5bd3d8fd42c7f07a83a991ba67f0e4eddc55e1d8d3025d590),
(0x70c8d4f521d808e7221bd5c631f171a95e7aa3584477068c2549c59e228688bf, 0x52badf206106d5a8d7bff921580eb5f53a53aeffe0369f9a1bcb282d7b4cc26c),
(0xae08db34874d39ffbfb9c92c5e4253ca7ed508fdd12841e963600461b2b3a0e1, 0xdc0504efd209be71381eefd2915081200fb6ec1edf62d24acb1d77a94eebf1be),
(0x627027ad4aa88477c624051787a25b8807d5b98fb968221e8e45d5843db6e0bc, 0x34b553a7c6ac700469367afd17c5eaf87605ca186a57667b650fd8c718ab76aa),
(0x573ef2ae72ae8fd5eeb0b720f8967b44f7d9d96dc8a4825c23a3dbedfd2bb442, 0x264f508eefe5e0a255e55a54bbf739b5757d0a15994ea9b84e1397387c484786),
(0x28907848cf84eec60773a384ce5f4a5a24c8afc8606488a2ccdeff256f896dab, 0x0ea87d4f41df87272fe84537d11126d562618beea51008ca895a83754f05ec5e),
(0x163db4c4536114f075521627c61f62d914214d64ac9e66b0d85b999162c54c5b, 0x7ffc24e111c0c8451c574e9be4b56610696d3667a6e6abbe9d1a5ea94122aa1f),
(0x2ec11f2b71ffc28cfb5e779e7739098ec969bc783cca5a2277d2bf53e6574d1c, 0xc5e9fdf289a3090de24d13a1bc8377d90de0bcf463482ebd9620cbdf8b238fb0),
(0x30549ae09a46820ff49423b89c6fdd48703132fdac166dc990609a3249039f0a, 0xb8c94b4b36d392470732976efc16d500ccdc07f0d7b97db57a1d9fbf0d8cb5d2),
(0x98685f94a043399c89e74674240322ac5a595bf541aaa44ed781781a10fe9225, 0x4506b1ef7561b81153f44e8f325f92220e99901330523885d8c59864db13a3ef),
(0x9acba19603014ea91baba28ce273c6e5b9a2e1a098216c3b194a0b56dbda7db6, 0xf0a3358eeec737af2e3132620b29ddf62adb9e979f56def2651022726b976290),
(0xe81e91a17aeec75c19df0ef7fd07ce2be477c031179e3f994ca13857e2b5ff93, 0x65236424aaa8b6cbfdb2fb2046ae3c3d839d97ed217edc6cc774f889d2ce8b45),
(0x61e60aeb821c3f800b53ca782c3b4d21960eb0d2c90202f0a5fba6511725ddba, 0xb029275f690d10bcb52e8bb2acceb071f07834fe64175088a97e26f98ff34432),
(0xa931c4108fcb43466802dd4a8ec2cf62cf4c55588129299cb3a87e956fba2a34, 0xc21a8dd143d4a639339fec49f56d717c658a55af0ad72da1c754fb9a117cf6e7),
(0xfb5c106fda32fcfeffe9b5a27ac8cfd8d9a73da15fa6340fe09d187a7a83cb88, 0xa3f4c60f9000337511c39100ba4c4721c6c138c1cbae09dc46d1a1d25baa95fb),
(0xdc25e18a18f0035c2a05e80dd6b388307fb3b176a66ae4518c5640db7540dd24, 0x3ba83beb3e6b29c297a0ead6148f9b93711556e2e5fd513eee649228c62d8f3c),
(0xecf7b689ca03b840739283e9c3003a010065ea3f3bd17e069260c0e9ad403273, 0x5e0dbad647997fcac0d7ba2a170a795467036ae8e61dc532b5fe184adeb8a7ea),
(0x263e593b10c982d51bf89ec971f6a3f460e53bf4cb2f6af32381214b2e981bbc, 0xe255bc1111470eb8894ead67c618d7caa6b76ae1a230ef053830d0284a7faf37),
(0xf79781e7a4137ac47a9a9d009d239b376cd0fa3cb9f5de468cba5a110ffcdd69, 0x0d10ba78896e086d05e25444165e79d907b3d4851a448e0326d8906b2f27745b),
(0xa4d2802411f577c1c5d08fbc457a46bd428f4d2ab29475eaef622876593e49f0, 0xe4855491ac0342b1dc804bc27ae2387782eeaf2252874a004d4e0d66b07b434f),
(0x87195a80dc83be4ecfc9d4b829725cbe11101c26013c98f2641753af1ee840f8, 0xf9fce23366931c514ea09224b565dec722763d8f6f572057fdd7d96e9811289a),
(0x210a917ad9df27796746ff301ad9ccc878f61a5f1ff4082b5364dacd57b4a278, 0x98f1e4abaf4a1a8485c6417e07298c82c87619e5500df40380d8ec01f384d9fe)]

/-- block 23, /repo/src/precomputed_ecmult_gen.c:1135-1166 -/
def c43_6_23 : List (Nat × Nat) := [
(0x6c16768c433a000badc47b10ba4e132cf5480e65ae83d1a68aec34d2c00c76dd, 0xca1a47dd66c2d74addb692832ea289a6ae679669edd80bdd4ffdab2adefbb542),
(0xf757e860ed04db61594bd6475ae81b7ed6d2fa5880cad10a7756fa26810b8543, 0xf2aad5994e491e029b1ae2562c90912a1c9aa6cddfc2331da0069a790861208a),
(0xd9f269d29aa777c69989d70691403dfd9025b491ba03ddf200dab8c9af7dc764, 0x1b39b85ccb4749fb7f47086ace63924f3ebb4213af5dfc95fda796e6c6b0b8b0),
(0xd05e14f60fe6ca50a23e9339e449f77198e842d480a72d5f8f5e4c0643547cb9, 0x869e3bea6b19e0f2de83fa8ae932086dd66e838b637ea6035f0fa0815912c8f1),
(0x9f723d811818046fb7512abbfaeb46d352d8da9b3abe819f3861f9c9963c583b, 0x37df06573f2bb4286c8b3efef6941e2c4e48d90b931cd0a578a4b52c6581ee7a),
(0xe65f0b4254ad9df90681c0db3428ccaa11194df39e837aab4564e1fa254e6f97, 0x43e59d1054aa35b580373e08cfc02aaa4f58140658341e677e50977e5bd893dc),
(0x605d61db0589fd9178a65cb59969700173afca8123f663ac5fffd0b98f5e7a64, 0x0a976a9d0a47745f447ad4dd7eb63875c228b979a7dda50ad994df7b545d0ede),
(0x43298aaafaf20e9dc2240256493ef19f5630db6bf6376e4a356bd03498f1be7e, 0x737551c3653af1cb4f8c1e8a347f50ca142c03e029007f29c76bb763b52ed053),
(0x8afba782d6373f0c54734f1b4b854e63bf2a3b4f23f57a3e6c2eae8625c691c6, 0xda3054aa228b9757b7321da064516249652fd814150175842c7683ce1a3638a2),
(0x3156d359e01d64fa9c8fd8b2c47c349282dd459afe89d94f35906da20c6d0208, 0x85a23f48f0a7448fc57ee5453978e2cb6f2bbe54864477d8a63775f77ff7289f),
(0x88e1a44b1e206eab49fe97af30be5e4725e1011f312a5222e9e80819b3f26357, 0x63dfe52e10317c4e227b2a5ad61b713e2d93aba70f0a51e0b562119140c58ded),
(0xd10de96bf2e4a6f878e0f37e15569f3cb9717a387fb989286d65d1714b81b301, 0x2c0a46c96a2e3884e7f3b146acc170d26d12b9594b75a901dd535016f0355ae2),
(0xeb36b865812ae4bd07893e505aef6f14bfc90c1b42e75ea5091615aaa2101784, 0x1523537b790b2a61fb6696d0a622ff31efea1255e1dceb86763985e26c5ca8df),
(0xd54be697e41396c63d63f96fbde9bba236ab16493c1561593df81d69c906fe60, 0x89de1769433b56781f7a22060ca9825820d0c7dda6d5b672f77029c26bb59f33),
(0xd5aa72fc9063c2f8bd0fec97da30dcd2a5b36aee7894463af70427951998c979, 0xed90095dbf2d3a672d2f1a0f09737c4de8f3e773c04b77d3a2345ddaab662199),
(0xee8cd53e8ab64281b5cad323f03fd06d7aa166ebdf9185b48d0eb0e61bd0bc61, 0x4781263d0fc518e4809e5ea77f9df2381ee7b6eeab25c1d95cbf3fce72fdd615),
(0xddc5e95e2a46736d9bbeee7474364bf9e1d2724f0c43522ccffa05a87d078be9, 0x060908fb809ae96498a26cd967532df2409491aa73c468030eb588617ad86745),
(0xae503a2bb6250ff66ee615d8041cae4e751160feaef7f33bdd1feaadab236b58, 0x6e53d2a88f09f78f096d49a62f98773ba282b575ab6e24f84d604c3c8583a66c),
(0x8a502d08bb3cc1da438c5780e2120c5012c1a9728aaab6bc5d908b6e2a83dbdb, 0xfa02e62b85d7de788cf11d9eab406523bba1f91253006a89f3a491ccdd99575c),
(0xb52891bf5acb0019a8d10b9487fa47c422f83a00ef539e9144bd9f7ad5075716, 0xae58653ab167a9e4b71eecd74f4a878619c1902629c0018d9f082e7d05920b2f),
(0x176170afb40a3e798a88b98ffb6c578cd1ab56b5b7f4142eb2d84a591b009f97, 0x6e1d568236176d58ce5fcac64d4d28855db107dd5215c71fb4076aafd31c5d24),
(0x27359f7e8d3e3dcdea35f603d8fb15c0bd63c08c3ae4d2fe8cb6434aae2e716d, 0xa0d642078fba00dd4683d59727f3c67f3c25075d802a4ea8eb08c20b47a941f9),
(0x1e9d955a02f684785227e866491990a562c802ed1b106bb542d02d2993542067, 0xfbf5f466057707b33f116a23fe5991a890a9583ffd06394337a19aa7e125ccab),
(0xb5c4c10b1b0e081337deef6fc089d2e1ee14da2d0cbb48e674b7dbd4429e22eb, 0x0fdac2450b1099478f6a53a28a1ec4feda43b4a92ef49e258f9296c288c48378),
(0xbd2f651cff6e614b1d6535cfc3a2c5d2da5307b01cbd3f48655623c255503916, 0x3715b0bdbcf29d9763d7fb35f9c5b54c0769a8633517a2d68dde74e4c4277779),
(0xc4c2a8e8f1e257a8fcd0b11b30635c5e782fedcff99b0b95828e13693ee0af73, 0x3a08abb4777a066b49ec4c01aa5b0868f100a473e555def17c5a9d840b1fd9ae),
(0x04aa77ce15dd97ff47c1125a77bcf0e9d302b79ae8a919c6a875e5edeab8c2ec, 0x31a09dc489a90240334836f6302d7e8157f19762a9b5f7276c276e63560a9d10),
(0x3731162e66a8d2d80ff4df3e95950103f5a03f9a86bf37e500605746cf4be846, 0xe19d783510af5daf724be4b1932dfac623899ccf7e3e58ab5bf3265c667cbf28),
(0x6e2114ed297ba44fc3926603bc03a87caf3e9f2c8bd84e64afcd9846bd9c8f0a, 0xfaa6e5f33d90f91d82592af07f3a26e2f6f4138a2f06a6a14286eb712e95cf94),
(0x50d775b5f72d186b266a14e5254cb5aa49fd863381c36b09842632d7ff004130, 0xcbfe11c4f0b15aa83ae8dbcb9feff9c0d68a26ba11095b3cba94739a2091bbc2),
(0x8f3ccf31f8b74b9b624a5d1b7cb1096e202fe5e7233777aa859864d3775732c0, 0x980e32c1d2c61ace7610b9266831ac2756f19788ab7a77da18c421a09a46bad4),
(0x24cfc0176da2b46fa8bb5bf9636be1effd7e297f29122fb3e84c9ab0c18ada5f, 0x14007044f8639e5967978eb2a21256d8126a635e5b07eb0d97059ec56875a3c4)]

/-- block 24, /repo/src/precomputed_ecmult_gen.c:1167-1198 -/
def c43_6_24 : List (Nat × Nat) := [
(0x6efcde8be99d9ee8ee0d6b8fa76584bd5deb67b1415e729b48f3d41af1cc1386, 0x4ddcef4aa6ad5be2d1e834499eca4a8c73219f80464a4a9eebb7f3f1b70c9fd2),
(0x24fdd052a1e535e24eb79ffdf03093f85778241ab845b548031b9a820730ee3e, 0xc6ff8ebc7edfd9df09b7410a7f54c93dff0c682b152bf4db1b79c0a69889797d),
(0xaaaf86ed31dbf3950687c9596c445b6cdcd1fe7eba2aa13d1bf41867dc87b30b, 0x582b96830729be5c085fa83e2ba2abace30372622a24aa35c77533121de2fb93),
(0x23930d0d2400db1d56525bb467172fe5e930bf8621124fa46c5a421e10b059ea, 0x5e11f202beca3d5edc9b282c2e86d5d9030f8f5d027a5c4dd2cd6dde6d1497ef),
(0x76ad10d0bc92ad8f55b665a18ee84e012e92dcc937e0c60459bd6fd4ded2d9d2, 0xd4ca73860ce0c4c5fd37da9beb8fb04097d9889135a5ecc0320dfffc95ed3c10),
(0x010b324be959f0c8c8a821424a8f87c1fdeb7f88258e1021c9cfaa66b131f3a4, 0x590e672adaa8d547161f635f0153fa12b3500694677af3f890dd4ca69620bb56),
(0xafdb2acbebfdc11b3577177cd8bcde006515149579c6ad2bf7386275a9314317, 0x87d7786f5ba775c0ea47b141cd0d4274c7e58634b64e4c58f7f0c5955a307250),
(0x574cddbd59b34df5030f5dc461884ebd1c867ed56cb608324a11b1f529ebf733, 0x1bfea852342568071fdb4f5c485caa737136e3c3b4b8a39a389d7dc8724f16fa),
(0x97ffea2b5de34e1d495ce082d0097b72e7daddb801cb622c2c14e814bb0ae278, 0x45fd3d2a9d1e653061b4a35665aa9e7043766950622e1c252baab2656d4ed95f),
(0xde627f6aa7b56d850535c39880d0276bb910ce4a6066435b0512e5e021ef55ef, 0x753033a6ef89f053c0e662c81557e6ccd8b4c8d405204f5de1c8c74272b96277),
(0xb126c35ad7993bd00164867c58c88421d2cddb6fd16a59667d9683bb1b428eb5, 0xa9ed1bb9e9eacf9ee712bcdabe629143ad0e765282cbfab8e586cb07131e5b1d),
(0x847b90cb8837f488ef027a0571b2be6c620cf86fead235ade76e3408d0dd1073, 0x9a2667be6ce36e7bd76117a9fdb8f1b87c7cb45e1a03f53e7b32bc636f274b4e),
(0x8ea214576f1bc2c8fbee9065c2cf5c3e7a3b9fe5403fb98096040c2ec6fe1488, 0xdd75b454acef4d3b1b355a63f0cd17a666aa9e65f1262629f0c7d1e033571b58),
(0x9e11bb60ba4b2d5dfe53bb9c598edb16f3926bea1cc90eb43e05ca34e83f1896, 0x0263d7ea050d83b8791fc911a4f73cac4d42a09a85f5ae6886cb268afd562dd0),
(0xf741856ef353a7c717db9a134ab4aaf913c1f7dacef08bfd6f81dce5b1130e20, 0xee63dd2f48e15f68d1acbf49705fe010231e26b514146c471a689960d568eca4),
(0x671ef05a410b41d93b092b04e523468d44837d2d26dba67027400715eeefa2b5, 0x686d318bb49eccbf40dc18aff1938fa9b16d4d2cc19dd2ac47c7830f89b8d55c),
(0x59ea10a10e5bffd6a34593f4b986e37b5294ddbc60d9290652c6e9d575f88c55, 0x0c0a2eb56d04ab99abb5b76f7b2b55c9c09d44f33785e3d464554c3edc7a334c),
(0x37f2c7c569c6fd159b721d8b8d40138ea8873b6b452af0a789a50551e9703c1e, 0xd114109ff9e6d7c0c51a542fb2e3ef5b74654bef5eb84aefc87f50962a30c078),
(0x1d2806379d77e509126a440eb1e56f1a8723728e97c924205ed1308198c868b9, 0x8500398993a4a600dfd0f092b13a1186c1c52dd88fc8eace9bd4f1c1b47741d8),
(0x39aed6e6a123061c228d3d1f857e0c9b29b70cdc549b4ea19fb6802a8d8beacf, 0x6bf8696798e3dbf675865a1ab86d5bbb010f16e84f9104a00087602ce6946aec),
(0xaa7708044a996b1d5bda074c941b30c1d1474da647d7c4ed248d3a9fc3c3c525, 0x10ba56520b20482ffc2434ceac185d8daf6cc6e361e77d3f258abc0b55610879),
(0x07626a969f9ef1883ea8273783e5571e4054fb736190977a299c2a05d29f60c7, 0x172d4618e5f88055ebfcdf9f55267ee5cdf183961d5a2a2255b87ba3c7d7d2b9),
(0x1a550684d1195da7c4b09349f149eae205a1ef23c9a81109115d93e4c98cdbda, 0xc31d7dc1b7efd019c491010e30f90ed87503c4bb1b37fbce03dae1996609e3b1),
(0x8d2306d2dd8c753f2b093e62086fc282ba3e1dbd7b4ba10183d1070ed2d06e67, 0x97dd14c2d2c1d147486a3dfcd608ba280d63fc03251a106c9811b088978e3a5e),
(0xf31a69ab97039589940851f3cdc98bc5d400ff9363794f8104d882154f00db99, 0x56e510be7f41b009897924011364159040f5f305f27fe1e2db1cd7ae887ff5e2),
(0xce96b3e96eb94b7c8bdc7b57efd2186f62e23e72f11337abbe7405d343b4d762, 0xcc0dc89833e7a632d0fed52d487f2c6096c69664f698a71c3f7f8a294f181add),
(0xbed97e257d31b5fd36b41227462d9122706da670d432ceff5d37d83efefda56c, 0xc0cfe30a2c3b30741af492b6e3797c4f3b00593c6806e2e2f2cff4016e877ff6),
(0x923bc6c9960f6e4dca2a70706d160e1983a16b6c8535783f12c5ac694aad226a, 0x0c47f08b6b2056d208e9f1199ec6d5ceb48801b87ee56280d6a483520b2b42b1),
(0xb3cb28fb7465cdda85823dcf0819400b357bce1123d9229aeddb826253b246c3, 0xcf035ed0b624dd688a31eb5f3b28e83ec0bf9453649dfe4f44078eac9345f2a6),
(0xc69aa2b9ab3c5e458713a9120e7f95bb4e5498a6d40903235cfed1c9c2a60709, 0x2e95e19885637d55744e32a798c02c7eb29f3bf57cf7c8707cafdf41f6710f0c),
(0x045996af5795ea6e43e0fd29671e119b8b8d6ad24eac90ecd27d5db1b4fb6a39, 0x2c0651f31c7d93cc98d79d7df21110fc8c1dd74bf1ffefaca3d52484f8da40cd),
(0x264559d87829256bed116900d82d0c379f0e4d1253c68e6fcf2d41ae7cddab8b, 0x861a42e6d92caed3108439c8fcbf8d288579ce50c6350e193609b4b9ffe217bc)]

/-- block 25, /repo/src/precomputed_ecmult_gen.c:1199-1230 -/
def c43_6_25 : List (Nat × Nat) := [
(0xac13e0db846df25900fc38d63b0248ec9fcfa8d4bcee368b1f4a66c6d41f9163, 0x6721b0df2ed06fda9b485cc2aa56f1f33a913e99f6809577952804519ddc96ec),
(0xb6b7227f228da269a0e5640b8a2cfa34555ccdec2243dd0d4b2da0a90b4cb5e4, 0x6afe41f9dc129d284786bb7617786c8d42597435240f998a0f97062090d32059),
(0x460672e44f2768b9842a98a5ca8b90df7d9f52bc3fa2665c4272d7ad5f48b992, 0x6d7f8b3613b38fa580ed1d4a21d196bfbe491b4649c96da8342441d3f4af4ca2),
(0x1d3d4ab8b7c061368dfd612a25f040162bd3f6cdcd9cf58dc11647a0d28b629f, 0x434dca0817bbf964eb0a316cb2b0df20eb2e965dc4d8d7951d4a6e665ed23d38),
(0x9c5d63420303bc7c73763cb92e3d70697d913f6c1a6e2f4739470da3022b7c1b, 0x825c1a54395b9b41ccc2e3b503fe1092f04c382fb2ee3a29fd59e2555f22fc15),
(0x5c751285a4b55535fe24fe27568868f30afb43cfaad1d2b1c6367daaac9493b2, 0xe2388ab4414c4e4fe34a4c78c869dd937094ce2d4f4666a82eef80473b681fb6),
(0x8c1592f38d73e2770d3c18d4ee3eabce32e86f922b27c2f01f50509e74dbc211, 0x399c950743cd9e7b200c255bbd25670ecc1114622d5dfacf09dbebdb53ee59ab),
(0x85320e365f40235e621171d5c8008845890f521bd7e2cccb88c7fb7f0a08200c, 0x96bbe8ec74b5f1b12a6ecbee2aea6f0c0b6d0657aac3556cddc4e46f17cd31f1),
(0x5fc21f2013403705687b8ad3387a725af2e6300e13d28403569d4cb65dda7f34, 0xbb709fbfbe95aeefc00846b6a4645b72dbb4e1ed866edb577bc5d9a82b774b0b),
(0xfa40e658588f8a5e29d380e9c1a6482c888f53e5e331f8ed09b1273a56d094e5, 0x5486cff53b7baaaade8a51a61d1a925595ecbea339955c0e172de4c34762eca1),
(0x9f87d04c05fcc48f375c40af3197c28fc62cf3c510fcdbde5aec79a74e6a6bc0, 0x9a6cc17223a770c7a03b53336922170de9409f3b9846b9f441832ae1f70f5c57),
(0xbb66dd5b2f88786e00736b50e536a0f003d59b86511e95ca1bab2cb8875bb187, 0xf82155270c76a5afe5e76a330eb2622d5f822ad1d284c68bc840f65d4f731c63),
(0x74d223e4bce2d6b9b2fa948246327e04018eda6ccfdd76c7cda8be623f6dd3a9, 0xb7276bb3817c0e72e1ab002d50531065e1c4ca309c6d6f18bb5796ee457b4270),
(0x80298b62eb4d3ff2e10607dddbcacda43bb30e57f3c8c7e76f9f3968bf391316, 0xfc72362b48c8b6064e428e6d1ef2ac87931caf75e936a33c228a5caac460c5f0),
(0x8519f27d9560acdc509fddee9b4a4a7a8b13496f14760a0822609f3b2ae07963, 0x193aa9dbb98293f8e70d7253051d3893a9f5fc736f3c8e6528a2dfd65dedc220),
(0x49d734f9c8eff915fd66757bd6484bc90548f20ad8c05959f651eb360e45cb88, 0x4c594f797651b49e929932a459e3bf213e74c0b8acb20907697a25a7ed21057b),
(0x6a528c6d19b1e28db4d9ec9e19c4f7be184ef8451f41b322e5932f05575bcc4a, 0x7350b90bc22ab41f40c13a8018749e8c275d3e5e5d687df0ddd47133c092eadc),
(0x6f3df40f5647143f0cb93b234795d9a7708db6b82e2df53cf214de4b61eebaa9, 0xdee1066454b625ba34ce4b54f72857147874b5d06b38b1dc37b7471f9208dcbe),
(0x5abfd7ebc4c5dc14cbf0e335f2e87e7a7db96a2cb78000aa64fa8aca517ee1e5, 0xd65a98d420d872e404c4399755cca5c0bb94ccc0b25e30fe8b5a4fcc7006364f),
(0x1bf3714bda04d769782e37cbc4a4b347f9fc769da18e4940d19a205abdd22a23, 0xd0852b2133b04274183f4de49a20769e4a08ea16ca8782bd84a4da7c64c928a2),
(0x773ab884a4e90454ea467caff18c3b64e316468cb5789fa64958f73eec3204f1, 0x62213b85b4838d8afa3a14f932db7d79dec538c7d872d9d2be1640a24e367caa),
(0x33a283d99b7564ed6ed10d8800ba26bafbf3a375e00e10d1577fce272c204324, 0xbf84dac340736625cf0e6be698072c6c5fb8bf9d2850be84ded3f652569370d2),
(0x62bdb467596ffefa22b735fdd3dfd959d4a6e187a19d4c1f4d647b4edb380c3b, 0x210a8e93d1a184d0a3548be76283d1808e4f32d90052834c515953f04ecf9acf),
(0xef16d3a3233f03da5864801ac246756bd1356137971bc164b5512067b369dad2, 0x480e3d327f1df8b0646c3b58a51126a3e91522deab77d6d2f2bedadf1219b877),
(0xa6834869c006d0440a9dcfb98a5a14df86469fd1fd0cba06a4e8ec1e1fba89d6, 0xc1a3e0ff07abeb1e8cac11a68c1b4c1cf663e6159f508c35f4747f5084b247e9),
(0x203d13c653a3c36e55a836deb38c74430681d7b7c681d71a38fb0fde986ce9c3, 0x5d7dba97573ffd85b3fd4417f09192e192461c4c125a9947ced9c737ecac65b2),
(0x00c48819b8f32966bd50f16230f5c0a145cb3570d9c4b1044c3066962f4d6667, 0xfeb08ff901f543c135b6e0f0b21d762491ac096a181bf093fcf8f4b7bf6559a2),
(0x31441031ceabfbf859bcdd8b6e177f91df7bfe08f90151721ead3acdab64acff, 0xe36315bf6f087118328947048d2fd2596b8beae2e19173410d690a1f786db5f9),
(0xe3e4750a00310c4838920654b6afa03279589d5274e481396e22d9cd3c05fbdd, 0xf05868fe5452da6ffadcafb669e5edfb4b9a78403a305004345ddce1eaca43ac),
(0x3659ba7060d8200c9512facb5c7301114cdc2b9baa5bde148ad9bf9dd8f8fb8c, 0xb1185617f91fe5e8ec68da07138b6780e1ebd12b1bb44eca8a1b94728337585e),
(0x1a46b7e9fe99a4ea492fbc903281b9246831fe599360af53bde4ce8b43ed5996, 0x97c317e15c0e23a8f1c11f7b5f9c140aaf786b5610ad8ba3d11b12ed17379f81),
(0xf16a409c677a40be402f8efb3752373caced053c6f702b828bda222ca412b6fd, 0xd5becee8ebacd866285958a58b1cf1b1e9abf9a6db61435bd9725187135fa955)]

/-- block 26, /repo/src/precomputed_ecmult_gen.c:1231-1262 -/
def c43_6_26 : List (Nat × Nat) := [
(0x32c932eb6fa3597490a408a6ce962d7a0ef2bd220072cdaacb80f7989836abc3, 0x3e145848c2f8197ef0264d7c370d17847d21a09c77fd9f7a73245ce72ce5f3f6),
(0x49d837bb63890b4e8a4a63ea6d88599ac9961c2080dcc955aca6a101bc935f16, 0x358a7f6db540ac03078d83bc304cabf184c7580c46c258ec58f222540e3e03aa),
(0x23516ddd40dab9d863dcad6ccd3255030b783379d870ace09a0b238cd7b6b2bf, 0xb1fb8268a7814efc54f3d63788956b67a3997a3110a738a494786d95a5fa1c59),
(0x6b4e215edf56e6ce6378fa985d604f68e3561275788283d6c40cb2496d16310e, 0xcdf9537e0e6f43040dbcb9dff8b97a71a12f014e029867e56b09b38878c9ce8d),
(0xf4f30433c933dddb949ad868cc0d52e50247149a7ec98f123e7f63b4acf6b7b9, 0x949123eb9fb848fcd7b94401a64b21a353fde44cd93dae3eb7a2d3d478055af2),
(0xdc3523f4cd24be1b30787dd705140fffb66e448755e9a3c96124fe59c07faa28, 0x47b945d76d37b8558ede59fee297a8e781d3ea96f0a81588b68db7679b9641f5),
(0xb92cace4e31dc7243b3530b1f90de1c347cc39e55b247455a12969124e3c2a09, 0x78f89163c735cb13b1d8fe7e0547027f68d8f8640a1f093b22c0d9cb95fe28c2),
(0x8f7ed1f177238a68bbe32e4dae6d67fdbe07c9a29fc6b9406ef81a7765a8fb75, 0x98e627d8d32095bd5913daa5920c5c60334691be537b08d6da5b8c197bf81c8f),
(0x47fa27ace035176f34c595818d3dca2ca2b40e5329756c557cf81f754f99316a, 0xddee5921f381ce263634a34d1b4f95134d9f0e505e96bb79b87d98b5282aee7c),
(0x7584cb6860ae81f2e0df701c97d7aa298132cb96fee4ad5915424bec2e280dcd, 0x4b76458be3926b5bbf59ad77da4a96c91f9147bd88a234c074b0e09ca6993228),
(0x2cd4c11e70d432ff38550aca481667f4d09ad11f9aed62d4968492d75de28dae, 0x8251470803e5bf46341177e89ad2cfb3a215578c052f9436d3952432e9acd430),
(0x2b524c992b18a6e030863716362d236de385a10c03679eec2774edb7a1a89be9, 0x1abb3b283477769a5c7b458093efb22ef2e61296da90d4d31d6b2ff91766f89d),
(0xd642c2589d0e47eff5b2b60d9321db58727315ad522daf583bdf35d3336f1081, 0x1019505a994030be484e5340abea0b7a51276c9929cd1f1b9d19798daaacf3d9),
(0x03e5e09b451bcf5d549f1d66b96da0ea25e63270dae59606bfc3165bf89f29fd, 0x2ce591f532d57be64fc48aa4ba40231d9c104615b76ed6bf1195769416d2f0e9),
(0x4756965b82fc23bf64041d23a23cba32cb71d3e7ef3e6c0351b20f3fdec049b6, 0x75f3a2930eae07f4362c47e944a78561323244acbcecef0c6ba2f5fed1933679),
(0xf296e9c141694ce2c197ba850bb9f17254fc0bc700f893470a0e92b858491a39, 0x73c7fbdd91c88ce2bbcadaaedf8880f6aff07e8d03a1ce05a468e3c23008d98d),
(0xb437d387ddae39cfe26edc85b0e600bc2a199b6db521f9c988d921dd7e6fc761, 0xce2111f4d937905e2af7f2dc559f9eb8bef286dd909a596553c7f61cf51aed18),
(0xbacd4a38f3e1b7b1b601fa5a2a579e87459fd1890a6073145a0dcfb61ad3c21b, 0x8be8d6b39553648f2a94754f004c6c14c4917296aa9987f0deeb7e66d81c3777),
(0xd816474808ac6bca945fce70e8f6a25690512c8cdd4c8fbfb553c13196f7f607, 0x16b7547465a80a6786b5246fe086d32c4db03b835827193841877c382b5bebed),
(0x9c2b0749cef57b4e36b31328e01503ddddbd28345cd86ca25224b9671b7897d5, 0xf020f9784eed44cfcc4aa33fb2eb4b71f24b5f3aa8dc1d72569bdefb5f6276fc),
(0xea2778149f0ab42863b05bb1c113ea7b91afb8150e8f079112c11573eb044e4d, 0x8199dc4f4e72b6911c562ded1220aec3ab967029139d30ac58c753d2f4548030),
(0x4be6fcf8406736595a9e4f2e877ad7bf28e2517763d742386e43e6da1c1c43fd, 0xeb5456f3d1c405922eec37ab3e0d08dab7cd257d9babab0244e5b2d6a827a7cb),
(0x3f1e9ab5160733e29e7aeb6a378d169f9be5c266a6462e2de736be07f88c1da1, 0x907fa0b9814da0579bb11309aab51902a0699aad09422e1fb8f1a8c4aa9d4399),
(0xeb730dbb01ba9b2f5045383735ec6da2ac4b501986cf03f03f5061e2a28285f9, 0x41dc3a0ff42fb1b5d3b464a56e305fe5c60c4561d6e5a6a78cba87ce15c392fa),
(0xaeac891df703205954d0bab7419277021a595a4c37bfc34c5d3158763e85f3ce, 0x168f82601331b5c5edf941d99f1cfe0b72fd2a1c3e4bbc2cc62d47e66399105d),
(0x667e04e6daca63154888ac26a268876af4b754fb87687ca73c4cff77d6dac204, 0x1826a26a0cdca8288e2ac81b855a4d4086f3009b162fba8283cb1d17b9f7aa4c),
(0x240ec75424e463268e2e4ce0240f335c78c461501e18cedcb32e3c5177ade3e5, 0xbe09c744cf6e9c6a75976c03530329af5e11e5ed3fb13e8caf40bc5f95872645),
(0x7b83e4b770e7a4423efbb501c23881c52bbde4b9d5aacc387071decf79690025, 0xd242ed74441d1ae661b97c8370be2f52dcbc28311e8707e01b44c827420dcd45),
(0x63589c41fa8975f4c8738f57579cc0d80447218c69da1a34ee06af0c215f6c27, 0xc34f2ede7589760b80dbae4894a3c13c7351bf5c33a353519988ba67c2a56d48),
(0xdb092b0f4638ee45190473c7cb60cfec45c94d9699aaf289082d28af16ba1c66, 0x8a96ecdf29ad2fd63a85a7fcb73ab6d7719bbd6b98d052b303a0cd91ab924f46),
(0x11c4dd8d3eddc0cd9a832dd2dc91c8bd491fdb51f5da21c5732dfb7a362b8df9, 0xba4c2789740b53d551bc9fbc776f049be848182d9d13abb70e7cd86096911eff),
(0xa65a3a01df3b5ef2e620d4310049fbe14d71457f19d1ed35aea39d5789303fdd, 0x86715f6bf300a390470bc2726f12d3897979e2fdb0512c35252bb571fd19752c)]

/-- block 27, /repo/src/precomputed_ecmult_gen.c:1263-1294 -/
def c43_6_27 : List (Nat × Nat) := [
(0xd8558716b7033a9b29afb346fd71663a079b6e862719bf126e532dc30f581b7d, 0xa790d4601e5b26301ad6ec4362f791200d75449d8a500e2e6f17c0218037a405),
(0x842c01b354353026c43dedc78829ead1db35b63d8c4d0d368cd7b66102eb5e11, 0xf173cab1a37ee0d068e097af17bf859c13bb4823255abddbf0dbeffc573e06e7),
(0xacac5cae414c355638e293fae7cda05118924e9dabb81bdd29123768c7f21443, 0x5d17b9095b9972545f56770cdcb8af40e37e1a8b6e01a98934ec22fbf7d04537),
(0xc8e73810c024c6ebd5398bda3784261e542279e53438d49e83b2639f80889aea, 0x7a2183e700be4f81b0337993935657c4c55d20df729d2e8db25af238f3d85f4b),
(0xf78c5f535e7ccb53555a6f2cb1de1c5fda379360f6a7fc52eaf86ecbdbb3bf90, 0xcf2d33f5eab2ee1d5a32eea318f9927bcc982fedcc9add2e2461ba149def0292),
(0x4cd40c43bdb8a0422babc95deb00a405595190745906a8b7b5ea00dab7f995f5, 0xa0bd1c7479125d2f5baec52021fb7c62415817f7002afb80b2315dda40cf4c4b),
(0x647c59500f8a7fe9e6945b3d6da91932b486a4fbed9038369fbc20f9a849ac08, 0xd331cf320d72e148b47af5476794a33d55f49ffbbe47db027d2de73c542bbbc5),
(0x97664e78980a49f08269ff19649e86cd7da88a76eb1441d8a5f3fd2a6ea335d2, 0xb28982689a8cd91bb1b16be8ee46b4bc252f7016f72432c0431f12648d7450a7),
(0x0523f68bb39c2ded81d22a4e575483eed8748c9f52c06081391c27d77afe3805, 0x5c3316724464dc47cc9cfe32864b6095ee8bd6a842c1af98b3e33183a46e2471),
(0xcad866de5cbf4938989b835d05aed958cd7c316b980b7c762109d688d7ef5b25, 0x3ae79c30e77d6d4efe404b8f324179c2f677f4348a1c43672a0fb5ebb706607a),
(0xba065cef0b47170ad6796033d157fd1cf22052d07b7f99926cd58e03316f95a5, 0x26177c08bc5357027f5d03a49d982637d74a6b20696be76e742243beb9ecddca),
(0x27ca8178be756f1222cebe6cd05310d85a6c4f59eec716137777b625e6d44c97, 0xde547a17ddee9fc51fecee0145f9cda10b65f0975d1b9544aa2317f5102537cb),
(0xbfab1d94d04f4909dee0099878f77cc7d9de94a796b5b7705f3c759d2ae97ec1, 0x6ec39a8d9e900a79b8b88098d1e5d79d0b75ef91e442cb2f27ea531a2db21bb9),
(0xb48a4f2509d8224259f08a0829b05ac8ae6b97b556cccb8420a479f5df92701e, 0xbeef137f09f9acdc8d31a7802290fe799d9470a703c8a01a35abcbee9730d17a),
(0xe3f5d307ed2f2f13d23ae5b59dd567f008161996776d506fb53e14f270a52370, 0x40ecc6977da3771f32a66438cf70ea9e550194be1af85a08c8a4515d32365803),
(0x818b0462d5a815b157216ab24d79588617cc99bb7a7abd91655cacb7ba99335e, 0xc6ad05a607d2a391a15b66007716e02c9fe40db2f82283efc9c0a7d5ebe854f4),
(0x7e3c52ed23220b73ba47613abf39a9fbb3a6bb6e22c972a93ef21a6150cdf830, 0xb3e4a95b875719b3bec1b1139e29670d4ba8f39a2fb76700f69961fcbd01fa2c),
(0x594e41299c1a117ece8564bfba88ce04297f2e147ecda07c5f12913c14d9a5cc, 0x60bd54c87395fee27fedccfbca9524a9b5750b2dd712621de73e069246c2e347),
(0x3686bf4cf387e34006fc314e0f02c637ee6f5062ee9bb567235b00e64d516648, 0x915e5904b106e05700a0db43151ac9f84871e843126d5285337dc3b452c67165),
(0x338dbd1f42480753516d3cb2c535492b72849870a7828b48643dc143b966ea61, 0xe51f11ec861043349e9dae1778116032949c66c53c4d441d03c88cf4c7ad61c9),
(0x56f935aef58bb4037649198d1a5da70426fd944ec5694c1838c942872130215e, 0xa9c48fd03b059474e528016f9c998e02cac7c40b8c859852b58b9082b638222b),
(0x1faadcd3da472591cc72375482546c81c4f53c14d0d8dc5eab95a58f379e6899, 0x5bdcc45f42d0ba3f783a0806a5d08c74a1b1b9f5a559248a8681b15374e74958),
(0x532d8cd8fdf838c770b87ca14703a884116dd92874acc6606ddddd618eb053e8, 0x67a313250853db4d3e5877b1c76e7e39468d2d7737cb8a6daf4f16b817cd8ad8),
(0x8a8cbfd6d45e5740aa9f0a21f40e36710ef897febf2bf753ee2d2f75844ab648, 0x0d00eed60efefa2646c368953a54045d96da4cce8ffc554b9bc989ac2f62acaf),
(0x38ae095a3c70534338e542ff6789902b0cc1b0b57763cc432f50cd9ad26d0f1f, 0x100de23987026f09e483839cfe9e1f1011bcfafa662a933195a8e4ece4fc804c),
(0x82d9e5a8385de1f4fa541796a00533d9a3aa465674583d07c4b3c344b6ff8cb6, 0x70bf2bd35765165ba466171ef26439e8f790e17800f67ef5d2e15e98435b4261),
(0x1843988b42ddec86dcc6c9ab36b381ada0ca745eaba36bf0237e2830579aaafb, 0xf1bdc95c0d76337ecb3cfd65d9c30b7ae7c7d66765c9db5a6130edf5e240cec4),
(0xa32f74159c2743c72ef192bf4a68e83897a86a0a3997d1cefda3c581b4fbe683, 0x8862903bdb791be1dbab5031ca57f161b6449bccdb061438f45e610d50ff3bef),
(0xb09dcc04d9c30c352bd638800a766da1f6314287dc201bbf0960551603db2a09, 0x7580cf9b7e30dbf208f72e9ca5152ff1956ae42b3e952b18512824c47f4e5b9c),
(0xca07cbfbb24ad1a5edd9a12a8ac541576f3f2ba14b878d82ab7dc996bd7e2c95, 0x5123ceefcd20f120b575dd9843ef9936c53cf90cc481f340fa16645272af1c8d),
(0xf8058324c6b9c2e7e62147e9a41ad78d60e3ecf417524c0580832addf11349e2, 0x6a39f1a5f577a9323217e559f15eeddcaf6b674a9d921772a053b960a4dfd633),
(0x2e3c05326255d80f0a42fc69d5c92aa40cd326a53e8535f0435efb7b694a09ec, 0xffe0076e9a93904a42251dbf47d03e541fb75ac38f8499aedacb797d7738c9b1)]

/-- block 28, /repo/src/precomputed_ecmult_gen.c:1295-1326 -/
def c43_6_28 : List (Nat × Nat) := [
(0x7bd8469f80f009fab4960cdcbbfbd4ad0d8e37bba4b2a34ed5c95d177a94c207, 0xf3062154c3bcc1600b2aee99aac98446516a277d85b37fe934be93594af905c6),
(0x139b7c10ce844844f5d0a9dbbd7e167917b37e939bb6fd2b04f19643f22a6af1, 0x32d4e92927f5951bffa4ddde4b091ec8531a6f23f1772c9dada292db2b88c1da),
(0xf49cdd1414b38e5a2dd34bff3d01e1cfddefb9542a641edbdf698d830774ee70, 0x5c10a6d9200253e4a932a42d2e770f1869d0336f3c44f480ce4a330583050c31),
(0xee1453044771c8620745f03b4776ade3104ea0cfeda8710a5fa108eb1e946826, 0x00b91f14b6127808f1175b722c09e02c66eae622109f4156261d65ff506b88bd),
(0xc9ebbdda867f333d391424832e4150a8c98090ecd8ba9c093673330a8777d790, 0xc46d72c66028477ce4754960d40bd10bb2defc1a17dbf018538b71b2d208372b),
(0x707bf0e39f2c8c6c73a5d0d33edb32e346e73ac50dbeef6c60fb5ebeb95ece24, 0xadc6edbe151bcb7c02ed5fab1cb9b2de3ba2f3c5ca762082902582cde9e27f54),
(0x4a0027229fda7d33320fc53327b6c9cb88a09c2de95aad0165f68f451c82e2a9, 0x233416cf1cc1ee3890816a0917c5fd0dda0bb8f5d33c709f6f1b07b9916282e0),
(0x8efefe27b45a4cc03088b6e22a0baeb03e77276358af3217f39c72221e20b59a, 0xb9f3fcdf65771acfcc7b74869b10bc3f0b0e8fb2960cad8224ea2430fdad1634),
(0x7bd3815d6779f321195047a5b1772b19ab29a99fcc082e93c442e927b1ddb235, 0xeeeb4bb7480f3dd0092e627aa042533da9eb598a06cd1ed92d75aa89a592ae8f),
(0x883f939b6bc9169a03860d369894c4b52863b5d8d0348c4c62368a94737fc3cb, 0x96e37629c05b72318800ad968e922f7e5b8a2c3962a252109b3e49494b24934f),
(0x4ad8cfb8e8ba32654d32a6567682217695c40b92e97c6d3baf26449e149f4b3c, 0x491d3eda89930ffee401b994549199477ef33a8d06cfdfb9eb28295ac5ce94fa),
(0xff15cd1a4b185632c6f11ee719319bd3abce516765539608b1ee3a4e01671369, 0x24df322bab15729640aeb03900c00ab891c968334142f87a1e00d105b08c63a2),
(0x3fc8e63e995fda971d09d96d4c84e18c3e0f4d6a9f8bca4120c7c832c4e9d49b, 0xe17b239d8e6f7fe703c4e46d3aef90406bd631f2da1677c8db69848485922ae0),
(0x0d88b3d36bfe995e45812e9f63e8b6e7d5a875621c4a23b7ab46f6ad2f7d1e81, 0x630796947c97b00e311bfdb6198c2c4eeda57d09b17fd74f7140b40ed2842d06),
(0xda6971d14c0e9c37e5b1379b9cedd83e0218ba4795e4af5607956922c64750cc, 0xa14a0bd1ebd0727a258c12463aaff478fcb490f053d08a4044cedc9761be43fa),
(0x0d098ccfe2fee44274377e1c57d0b92445f0954f7af643d8b7ed5d9e956fba23, 0x85c9975417df24ef2786621bc0be5069a9c59da161e14759ee26b524e9587d18),
(0x633f9b189dd98f3d0008c4de528f71701c9d5972cabe3219cc4e5f0ee7e094e0, 0x3d69c87728c859e5d9e8ea273c04ec98ca084df5d7c9cb349fa537adf7da0b5e),
(0x02e14be9af0dda468d59df199ac9edb0c875f8295715cdda5ba3bed5d54fcab2, 0x0a04688b64c5d34c752396d7f864a9e159eea9aadb8c93c15b4d7cd20539bfa0),
(0xadc925677678b1971e45ed3138a991dda4cd3586a1ce14983ea30be0642a2dbf, 0x70f2c69b7e47aa55cab6ab22e6482571e8e1ea52a52df934d5ab99d9acce2770),
(0xab89aaffb04be186183e807646c64111476c552d10df84ba10a1efdb32c01162, 0xfccc1e2017ac63a4b9f78ca5af245a744174c952cfe2949111ce1d71e4be8f87),
(0x1195576cca3a49b94db3f8271ff2308e66b66739a30d73cd0e8acda4a382002c, 0x6a2be3a1c6ae9f0db314a7d4728977f217e7c7d0199868fbc7f79d3106cd7d32),
(0x8a15bed9bfa215f542c62c890da0adb8c68cbc33d9c879d70a2f2803b7068556, 0xef437bc11786cd736dc321d0a33605173e7572f5bce04b7a3c8cdb85cb56e697),
(0xb4521d6df9b200804d3799ca4cdc87bcea970d60a3005071e910210f5654da88, 0xc4ddf3482a23e98fb86ab9e84decc6b6ad18d879e96435d74b944d8cf7cc1587),
(0x4074523eb75634f76442c3bfed9a52d45f6636f077a10e845e6ed950b673a9ea, 0xd8889a02ec95b511aa74db1a10c9154745b89b57981011a09d4ce57be4e1f032),
(0xb2e71794e6ac98d1ce532974df79215ebed8c668561dc391505e9e268444a858, 0x94d8ff19b8a74599fbe5f471e7f3e1ffe0238cc92504f99a9c4f5fbc2e482854),
(0x2e6722098a6b4ca3905a89106d23daf5aeee63e434e7bade70395df0e5a1af87, 0x708e9fd2a3c0a3b1b0e03f96c3d477d2abf6dc0cbb8a7181ca4b18dbed12e3f7),
(0x7ec0fbda63fe740400438e36d567d9b0bdf18b09d929329b24a8bc91816fd433, 0xf80ab84a99d214fa5d288e3bc2b5560fa17914129c3d16ff0cabed23736e4f85),
(0xf166252a345721468bf3a3d7bdd2c67cb0d36b02d7a70033add26f97128b1637, 0x134eea4a42b482c7ad625407bb89a615656e3a2d232f4bbba33660b2403d6f63),
(0x7af860e027d3b1dfaa0244e251f9459e488afbce6a3aa610e5e223b781ba2d93, 0x6ad221160415c6687dd3f4f7b5a005990bd35705951e10933f85f8154d0c8af7),
(0xe4ad03b7e01c5d047030fe596e7e796077d9847ae604d2c1d801a5ebe21c0731, 0xc7757ea8f57af58fb64f3eb9c7762bc90544f28da80d760f0c46b0c9589019e8),
(0xffb2f941f27aa8ad6a59ed01024e83bbd49f2588a560238915329f6df77220dc, 0x06812c007dd44185fc3f06876f7a62d0d31adc40c0a1a060c67df13be4cd4873),
(0x42ca15ab9f245041ce991e193d696f4f4c277df908cad6038ad0772c02da6e03, 0x972d10d937e3a8369b831b2e0347ff1129917a597ef941587c97760473cb849c)]

/-- block 29, /repo/src/precomputed_ecmult_gen.c:1327-1358 -/
def c43_6_29 : List (Nat × Nat) := [
(0x576abbcb8b7684800882aefc81380709831625a4b9de63a7b9c3390b9cb4c7fe, 0xb49453e46e17bbae2f1f8f9b91c3ed0480d5f19433917cbb0d28b878bc6e6c4e),
(0xf9d8a1570c1511813e085c1def2958fbdf2a17b26b330a0b2d512c87069e5c14, 0x7eacca2926aa402ff8b78d57f5e02add91087da9d607bb41b56a40f8f7b19b78),
(0xd31dff737d2d34227fe39deeb2eb4bcfdc84bd39d6cfc4ea0ff0981223400a80, 0x4af55e8afe8e8ab12e2c4463d41824df7b53e44defd946adb61282144244055d),
(0x9ff2bce8a9fe6c7ee68a8292f0d2f4c48d963c4763018a5589a2c130667bc861, 0xeb13892394aadfc906eca7c5078c0fccbb31a40f98d02e93a140abd3cdf041b3),
(0x1397cd8baed3c601b6eee616243a61dcfead22fada50db4c1f9e27766e5bc9da, 0x534a8e2359316503cae233f03b6ef0bf1c7e0105119d1a49ee688f0440695c66),
(0x4ee38986511024ab5385f71042bc37787cbedd0aad13ba24b77f42c82ae935d6, 0x0cf8746824a384040f313965a64c927e4ba0b7e0140f6b3647e2049e35a74e4f),
(0x7614cd7f9b5f145574d0d38a370f69caf305029710af5242e5ccf19b187dd189, 0xb946edede4b72db16dad876e396e836a875d7c9a28a9c739f665c74129ab7648),
(0x67fd23725bfb445e5254bc42f7dbc1a165bd4017cd1019b08a3f96cb7b3c7cec, 0xb556e950a144febda81dd3f20f729ecbfe43fc788658bb7d2b9735d7b06a920a),
(0x57572b1f1f17070ee9b30b6bc7168cb24741ec5ab3496b1ac06ec0f25f910fce, 0x8cfe29403dc970847ab28da7167e78fef2310c83ca476a9791ca35a9610bc560),
(0x1f1113321e31a294cab4df735a0ef3330e753c2f7c83705c09a5bf271321c4f8, 0x8fed26de202c92dc5b51b13b6e9bae413c7c88d7b858dd72a11f073be2945f9b),
(0x23c9e313b04eebff15fb062543de6975d19decf66416f4d1855083bbd738f882, 0x90673370f380ca49e876d5f4b6649de0024f445429cf9d9196f4f1968a49ed99),
(0xb92514076ef7f01e379aafe88f22c15665a85eadf671d8c989602c5f804725e7, 0xb3a9409f7bf973b4aebe08e15ac6556256983f8923415e0deeda4f4ac0d7c5f2),
(0x1bf9deee948b3fe1b434580051c672668fdb7af299275a83706f97167e38e38a, 0x688fc563771b7d27f9c09953c40cf009a55d73295fae0b7d8fc37710729a3911),
(0x34e20de59d00dd4519a70b3f02994fc4588ca9b2beaf6afe4a1daae210692f33, 0x7804aff0a43f1ba0438c05ff8d013e3be5180bb73a969825fc97ef526da1b6a8),
(0x80fc119e85e88b0c8c84d23f09e44e961c7722d851d4c9bff1824fb3365823ef, 0xefee941a0a60743a028b6ffd39762f9e437d2b000206e7187fc423bf4eff0caa),
(0x89ab0f45e3860393f24b18457578fe79b812926a6bff3788c8baf28389fdbf0e, 0x57d4fc2142bf446f8e4d9331659e767390391fe662e77ee7f7a4886c8f440c8d),
(0x1f092931664bb98b79d8fb4cefb287a0f72641fb1cebe711820c92e042f26437, 0x59f63ca0b8e2e959a97b1c1d1cfa4c02380dc42fdb7cb5b0995ceba1d7e45d94),
(0x95ac9f36f447928f344eb4e1009ea806717600e5148ad222fdd52a8386bc3537, 0xcdef5355e928b1e8225b5a53bb9768226fb50d1f6c6cde20758d5ab0e9f28543),
(0xa9ce5ddd9941ea691343ea71c85fcd736269826d6eda500844cdd1b94a66044d, 0x295045631fcb759027d904c504ffc3252ce3c8a2169f4649907db7512ef3ce43),
(0x002edf8145c4bcf962425707ccb36a3e7fa1fadb4062d14df78771ebf3ec15d9, 0xdcfc961c547548f273206d9e0aa0d829a235f66c5afbba9268fdf9e6abc8260b),
(0xfcf5b985c935e20792907b93e9976cebed320a143cf286adb38540adb4077dee, 0x8a0e0b4d1ab114b10caf7d0df749f219b75acea56a71b3f6aa18557b1da85262),
(0x2bd4391f42b708032baf481654569f4895f1434ebe6f146d41447f45f14581b3, 0xdbc9937a61f43af7426358105cdfa02c049a5186ce67bbbd7ced284219a37506),
(0xeb00deae6cf69ccbabe6b93ee5493e05d22e53c10b069a6c4660330a4e3bc069, 0x18002f2f61b08dbb60c784b84c6d71d46b004e6a3089a0d5f853d65983242d9b),
(0xc7c62a5fce15326f25b2fc5b697cc7f726d231e9e7e9f15f5998b8b010605524, 0x8ad4b370ea0506f6f25eb16a78f87ef2f408cd17fa4ec63d4ee214481d5286b7),
(0xaa1c2baf632673de6f6704aa5a76c077be0c24b5223de65488d1386f15a1a002, 0xde4648e4fda7db7941efc5e86fec516bc6aef16462d6dc08fe93ebc7a85261f5),
(0x1187116113c3c6700e7f5366edd222821f76ec98d1a3500df0e483d1e53f2666, 0xd0042c9e8dc1d72cf53836f32c76b5b652fd5ec19e8fde42aed1a7e09d242745),
(0xe232a92c9ffdabcf24422182340785346b6b79f5983ddd572580c3dfe4ee4118, 0x6c1144c7471342d87a784fe1587ef576483f8980bbab12f935aa0d8483c1d76d),
(0x01ab623703998dede50aec458043f8308a7b45642dd3c9bb4804f98ea7c2e0c9, 0x5528e1586a23aec981f04b51b90576a9a9e7feb553200e51e604898fe55996f3),
(0x3bc24bc9cbc58de346644de90b17ffa739a0f7d883eb9f52af19eaf4d8d52891, 0x0f71cf5b7587c2758014127bf404b70bb257bad7f5b78d2ec792e1d6b2fa4493),
(0xa2bf9afee6eec1820ef5866ab4bdfe2e9d045323343aa4228c1a13aefee515dd, 0xa5ee438e3aa35484c5f5a1d543fa15d7ff0d1c556571678ba3c5694ef93cfa1d),
(0x0a0b2b4fed0ddd238812806c0fccdfa97fb3b42a748721ae6477dc9b18953133, 0x325ee7d304a540d0fc3e393579ba7372905c7b174f12b456b43db5c7cb50ec66),
(0xe7b9796b5ca006d1632f482d7f0fe3932cf16a5ae104eea7a7ea1c251073e879, 0xed476773e6e961d020bdefd58c833e35634a40da1256750cc718ef7545575e97)]

/-- block 30, /repo/src/precomputed_ecmult_gen.c:1359-1390 -/
def c43_6_30 : List (Nat × Nat) := [
(0xa8565dfb75f8eea8ca9ca6e70c7d18a50bf3e4375d1f4e8768d5f51a57199ac5, 0xdaa7d7c6cb86b215a682141f02308d9b4c204196eb779f32fcddf0a2da194921),
(0x974619cb8601619920f507ee62d1029544abdd66456952a054e945bd7890250f, 0x6c8d8bc821da82341ffd0cf0548be1dca1bb7e1f47354dc83e5d96c82c9676f3),
(0x24bbdc241396b6e1075f23a64bfb41fef8329b80d306586aecb69e412a2014b8, 0xaa6448ecf00a071027b46f09d696642b9274ce3a11a3e986e84536e37fd7b2f8),
(0xeed9a6b468004486e3bd388d591d3b652f35a3f19401e5de81a86f5eb7cd972c, 0xc81f9aaad7300671b3dbdd73a095c79ad73ffbd59f845eed9fe3a57fa41e9468),
(0x5260e0f6fdc6858a8d519d3f6c71929e36979b65431a6f3aa7507797e54654e2, 0x5af860e5fbcf9676bb00c329d3e2e058efc860e5cb9006ad224caa329fd49f07),
(0x11e53f67d844c511b8118f28de6ed9b8066b70bf0214d4d1ed79adfc18f7d6bb, 0x20dd984d7b9eb62677e411da2e823045685a4bc52a3f4e5a3aedea951060b330),
(0x98c9f3f681e220e6d4bba711fa8b212adcc21bc48219b813eabdfac570e6fffe, 0xbd0890bed9cf4ec944f6abb156250329a37d2cc464c931ba8606c2ce55127aa2),
(0xf644f4f0043d7713ba4380d826ad0f3f44106352142fef137c6e05ce5e9f1571, 0x3192280bf3971223c00ed33694779866536020b679ba8cb5c4f9c51569d2f97d),
(0x334ab86932c4097c8d8d8a23d529b0796a759d47a907b0470548e7355b3b766b, 0x18f11736d54c9d0089149b0735f5a9de00b15d9ccde4ee06155a4f3fde98a7bb),
(0x983542dc61b43ee5c4a7f36f22da008e832d4eac6791d8381a095d0e6d8a14b5, 0xcd225f2c334d1ba994b0a681d6be769616bfb2a2426e9939d2238cd443bebd02),
(0xdbbac0081b6782704a0fcef0736838220a3d4107d7f1a71b41497da29cc942a0, 0xcd25ef6636f21a8b532371ae0b91b67adeea5797983dc36f54aed202d9845515),
(0x477949e69ed28a74879bc8cc660696cb115e63925a63817b60e5187f1f77f3be, 0xdd8ca490fb8e3bc144f5fe9faa41ce7356a1dce1cc8e11c30ca5725ed1b764ae),
(0x7616b9e8b451d4e2e48265869bfad6c8ddbf5fd22342c6c842d6bbe0398f94a2, 0x4e3bb1a976efd3453c4474ade6a494f64f97c6dc0c98cf6872bca24bdd9e946f),
(0xb87fb86f6ec4ad7d5bec3beee8d68618c8e4906d1c584368ec819f2f871ca8c3, 0xc64723c0aa5879114dda9c75493f739be8c2221bb2e75ee5b25def54a1d40c2f),
(0x56ea457261a6ccfb46fced991258b31e8573a488aa53b7ad65333452b06d41c4, 0xd85296014145e12ea72ae4d15ae6e5f69cc88ba14d79467a3df3bfef33d84290),
(0xe4c6540a19682e0de1f1258a103037a0af4df5adf27cbb7c9e3ce67de23e13d8, 0xa31e1b084bdb572836e53d93001de035c90b1efeb5343b23cac0e7a2bf5b3868),
(0x1902cf3b090fae931855d75824995b03e1604861199853c6ece84903c8bd67de, 0x3b3d41e3a2dd4c2816d492c3e6c53c83e5203c7ca8100d4124cbdcd0e12fe222),
(0x6519f4d3b5d731feeada6806727623a4daf924d9b6337a5156096ec416ab42d4, 0x62e2c1eaafa990bd6dd91675e3b2d1e2acb2fee8e56ec30beb25bdce2d3ad30e),
(0xe1128682519b965ea933f197eb0997a0161144594c0915cc09c55ea4a30c1ad1, 0xcb1370baf8707c7884817ee28227da3b7b7c97c8266af491e0d52bc4ea0f9614),
(0x4366960c6ff595d4143d4cd4f0f0df2d3bf864d573790abc23419c7d6ed9201b, 0x623faab82caebb5ab4c42bf6b2a686cd4640cde1a95a65a1f8d328369e5ee0cb),
(0x5acdf69103c1e283c12203556efd99c5d347ef69bda1d04044cbf0d1ae41b16a, 0x1bca567a71698c35e35e031c0e8a98dde34270d14e2e24399276a7c36a1f35df),
(0x807ecc0481aae3741efec46c8c6c194bfaa0607ccf5b7cdafc270fb5f5b416bd, 0xcc60be6a6736dd94848fbb05375f6459d556866d165a2c1641984411dda33fc3),
(0x29c470bd97737284765adcaa68a98af75e6c275ffa4fcd5d6c71d428bd3bfd79, 0xb19ab40f33c1520141fed31f0681f1764a46437323283677a40b401899a6eec0),
(0x41a6d6f940bb8abd009e8748dcfd23f05333eafc4ce311a3161440a6619efabb, 0xb2a3702e900788cd0bf3520427e0facd0b09080462f6541889a3c34fae2cc008),
(0xd5f5096d0776ffdbf694b9c50c9a9ae0ab5897ffc5ca332082cb2a2b8afcfe89, 0x6461e24e28560d11336244da02038e1300c69ed5a7a435a6d07a1d72be43daa0),
(0xf65a00d95707ce6c6bd55e8b4b0ef3811eca65b2098454330d7b307e518ea724, 0x07ae079e9aecabf04ec5210ab85328f7e60c8ff73deb037bc8e6e1d334774734),
(0x346cff4223c9ed2da1082d46eeaff341f7866e72d95561b9678def2d9f7cd187, 0xf97f85d89200275011efcc9ef8ff58e4894f105fb94e73907e185806575698b3),
(0xd0e3cdffa47417f3086f64a24029e3fd9bc7a4646e839bf9232a0d50349ecaac, 0x5bdbecfa2a2b35d3ce2e9837222535c157ec5bda5fd701861920803da279989e),
(0xf6bbbd77b8dba8fd704a3f021bc418c0f8524c49ccfcd14dfcbf7f0400c9a18d, 0x38184001f39b257b6755a13286bdfd921a8ff771fdd5530d48eb82270ea70be1),
(0x6717bbd0f019990ac01a2996e34f09129bf60a3a71d8124efd86c7779cfad879, 0x9581f790a16825d8f44f316fdb3f0bde108643ccb390bdc075f3dccb6520029f),
(0x0417c765ca91a1202b07459e3713d5e1bbcdfa82bbc26cc9279fa2d259251fa2, 0x8d281a2aed38a80acb6979899839d7c5265b4e788a9e117666cfb6fc4143a935),
(0xe2f349b0f89c69bd3c8cf2a410730dc58e0beed47048c58c15f9ffc2508d2cc2, 0xe014d0d7f07d8dc87e79f51389fdea45bdcbb4171f63424c81cb84261f2b3be0)]

/-- block 31, /repo/src/precomputed_ecmult_gen.c:1391-1422 -/
def c43_6_31 : List (Nat × Nat) := [
(0xaceb57c9187a5202118c4dbe573906e1646b0325781c13520574ed150e02b87b, 0x68ece7f44037ff05d4b89120d90f08c6f0499feed4e9e02aa2e68bcc02d7b70a),
(0x365e555ede9130af99f996b20106229cc36c1ea58b065cb538af3a5d2cec1145, 0x81fc523cb4b97bd3cccce1e1d1980769fbc25a9fa403adba8e7e807413c87f9c),
(0xd0a3812cb9244d7bc1f5b6520adbb0df22d15d41b1724071fd297d00bc8cbb01, 0xf8d7650efda2be3024ded196eb3baf7f351d201302479640016ee4c60b469951),
(0x8f4ce1e2a51c0ebff5e34cb1c6aedd8785e415dce7307119143bbe9a3e7fc632, 0x0617009aee7d4d811ba2bf14d1647911bf1a3bbecba8dfda9030ead3803fc217),
(0xea23d83754cb2e9f09b884eff4d1a708bc1826c659fea53bf52c51b49fe0e21b, 0x7e8c691b0cfc3b7e56a7699c4f56a11afca5710d963d602bb102e1c5b36dc3f7),
(0xe3c970b2c764c9f4ad8bdc15cf995690807f5d094a8497879d278d18eed6ceea, 0xaad8c7d713ce5439b9125d9ec14b5d8a1c694cfcf84e6922b7e58df104ab8a34),
(0x08ade30a94b236b99597be14bd421130b6843895a85f3613efcfa0ce9781a96e, 0x78e4bf57974cfc0fc310330e6aa47de82b0f500905a703fa50093d5ba8e8f0ef),
(0xfa5f1cd34427d71ade7e79b2b0a17ba966d0532401f9996ebe8143c19186d24a, 0x3481bd182319ddf8f344e4b0196b3ddb010deef4d8d75c0e49fc5fe4cbd6e1fc),
(0x8b88b79e8cd28dc858e3f1a6155146b9af1e3697d57b7435c649f6c3bf8574ca, 0xe736106c8ffb9bf4d83d79f24faf8fe2ba5dc258e4ae1b1bb58a1a7e4922c95b),
(0x012078a55c46d72196a148d2fdf6505bd059e423c5d5295efacc2b82aec51f5d, 0x66a4332dcd265085add9a1412fae2562017441d7dd9596ad46309a0dbfb4e55e),
(0x841523ef29f5bffab31a526dbf74b16bfac3a3aa391f74046675cba87808c171, 0x7a3fc3f5bac300b57ef843dfe334c995cf66de112283fdfc767cb57ee7e7329c),
(0xc8831ecef4545c2b387378b4f88173d3f1cc7db9d064774d60394f0aecaf5af6, 0xf32f1a48bb80275734e66cbe58a3ed3fadf28dd90374a42aa824a0956701322a),
(0x30001ff37b1b16919a135a31287e3a3d383ef3ca94748e330a52c146586dc4b9, 0x9d71b25d6fc35db726b58d1f0642dabb46dfa64de0ec2a12c53c414a9dd2574b),
(0xa17d362174d3c789c4e00888fd4b0f4eea3929cfafea9e9f7439901ed6b0fe44, 0x2bcf09ef2d374194510fc057dc973fe1bb68742891e9056da5b4df7a00de79bf),
(0x4725e2cb19f953592da72565d8405e0992a642999ad74ed5b41f5d2444cb6b0f, 0xbe23fa827aec31217b90028db61d1092764b28249f3fa0ef91929db9b2e0246b),
(0x67c560dd74c276c4df3efbe3b95dca4ea56c4563cc7ae225ebea90e0f5e212fa, 0x2c9e3120d52ef31d7e9e36d6eafbcdbfed8a28c67edefb941df7f38bcb05c160),
(0x8468da987b33b79be08da5fd57cee298ef86f6243bb975da2f4261e8f7531d92, 0x455d8a8eb4f456932e8b6f77ddefe070591dd37fd6ad3a275774055b8a63e650),
(0x3416d4bb78de7570b1e9e91283a3e8fcbe6524d74463dee682e84e5272c0953c, 0x94e554582c17fffd321364c91665809300986b56f88b4818129e19c8ce685dcc),
(0x5c66928ca39a6e22672c1dba8bb6331b41a7f43ca72276a6afd3e2096416a9c5, 0x181cdfc415e7d6a3c24be94b7fe328ccab624c0ddfabb1b8f9a73b56cdfe1b28),
(0x971f7a13210680a3ff6a12ad17481a63ef624d0ce41211667e63aaf7009cafce, 0x5de2fd1b3149e32102980c7d88a4901826f83f187438061e9bdb8d336a4b08f6),
(0x650277a79ae7682dc5f3526b8411342eb48277a49876caa761ec68159a1f13c3, 0x0a903255fcf09808cd97d92a26dbd2e47a29571fae91107a7cb6f0cc3aea1985),
(0x76a79cc97fb80ab3e8d31e5ad11f5ce474696d23f1ee7aab3928848b556f483e, 0x1779bc5dc763d1ef7611b4024583f07dc7dc9c967afcf83fe6b6ee42da75972e),
(0x6e0b4015474fe250d372400f013efa0b70c4e8df816c0e8b008d27a7a8168d54, 0xf01dafc88178dcf715f8fcc2e71631379e1dd4cb6c88cfbd0e9a051fad204c3f),
(0xee5dd472b5efeba9d0e354dc21228d2240a69088842d00dd6b6358e4309d1f5b, 0x0bce93ac3fd4a0989e74448f5832643aa2a172f2eff1e2c60c61ea99cc6e7cdc),
(0xdf99a925ef2e9f9e57208fe65373ff94876b1448368dd453436c59d0f2a857e2, 0x88dcfe814397f99056f92a27143c902a2a6a66f7f7e9652ee0b16f1333252a1e),
(0x9186f09543dc64dbad582561cab96a3889be54ade1cdb27d674af83622b5d284, 0x71ae31d50a73b29f54af1aa32d8e541b14f7cebc9279ac26c846d466aa975e20),
(0x645da45463357bfb61b5b9321897a73b87af607781487bc8af1a66ba49bc5e37, 0x4b925aabaa7bbc195963025ef1896cb5b6463242cd8a35f3b1b404b07faf8e94),
(0x5cd9a6c4e9d372db90a65f1101f1a1b5f28bc3b83d05f59939979c915277eab1, 0xc147420f7dfc4ef4d7d1f08c1c52377186a8d7a710cd701782b97c5563287aa8),
(0x4fd699b12c720ccd7b977e5bdc62267118ac3028bd635b26fce648cf335cacbb, 0x3936f10c0aee5f5126b862403249e1d35566714d17ddc19ecc4d105671e523f6),
(0xb3fa054583510d6b9122671104bac7f4ba4ae5fbbaad72303003efcc4c3c18e1, 0x57a3db8a6cbf0a94845e7d67f9b0190255aa5b660ef31abd34ee0410ed55d0e0),
(0xfd73c052b194c6c6dd46aca9d640981aec79600917a565ebe77fd534649a2115, 0x9df8973e37e877bbfdf5454fd9082926fb09fea9d162bde0fb63548359458f55),
(0x2982dbbc5f366c9f78e29ebbecb1bb223deb5c4ee638b4583bd3a9af3149f8ef, 0x59e4a4165099ddf54605acc6384a4362f6a2466bed1c127ba918d94ee93859e7)]

/-- block 32, /repo/src/precomputed_ecmult_gen.c:1423-1454 -/
def c43_6_32 : List (Nat × Nat) := [
(0x8aff982afbe09f676d6e0f49e2b68f888f20dd2e6387b4208157ab24d19027ed, 0xf2350ea9d00fd86141259f03b51b53266ce05a3474508bd431ca74e1366eaf92),
(0x27ff285b1e14961da042bd3156aa44af5e73717dfa413a47b300f358e1960dd0, 0x8b578851264a8fea2e29bbcbcb9c90e493e8c731983f4bba65381e88bc83a8a7),
(0xfc6acf614a2148591418ab5ee0f0274a309a82482cf01f73db8a9790825486df, 0x190b9c0d46953d99c9de2bdcbcc15d23ee90485cc4c152d8e28322e54c927d54),
(0x0743bcc6ac86b0bea25cce811fdcfc1373f23926e3116fc89415b8c04c1983ac, 0xf3df10fd4afbd3b2dc0678c9102150e63d0056806a5e45fec95ea4959f2b8555),
(0xbb1654282c13362bb1e017e66402613ef82bbe229429f29c6a1a522e4956d67c, 0xec542c4f7fbf3c6c32e71aaa86e3e4e7e52b0d4398589e151f17417a40b31b07),
(0xb3f74ed25a7fd4745820a2f6221349aae41af76225c2b706160a463d1d59e7bc, 0xa9af9d2d89dcdfe021ca46e85f09bdb5197c8f23bc56d705851974da1608dad2),
(0x20c0914ef88902a86af0ff68a08f96ea25f15ea6b1128900120028a11049a77a, 0x339567f271a1f1c716eb1d562f00953768ff4cd39a81c6d96359d2f55d04db9c),
(0xa3555aea02e96f05d25a145e4ad0d2f7fb4539748c4a3097a703c0f5404a0e7a, 0xee236b768fa04380b0448bebd2589665e43299eeb9fc78fe5a64db69ac92b7df),
(0x37191a6601d2a7bdc96a0767ce47d97d7acfb8c0ce251e9a1421e2d629230c2b, 0x570933934783afd72df6524e871c8e67ff2f48c9c73e20540fb219cfd3c2a68c),
(0x1a2f5b6c05fbe3008b01407ab0b28c3dc823cca9b4c71a1e4fc814f1e186e062, 0xb2f1c632a9d92a4c82d31a55f4fd50bdd53ee99a2e1452a4e43e5ac4b8cbb7c6),
(0x2976575cc5e70e47cd9c10e132a593dd12b6521538613cb72239002273fb41d0, 0xc3f0b08da2a3a046d87dcb1338c358241a8b9959e2567543852dcf73c4f5cba2),
(0xbca28e755cd6ab7485884b3000ef399f44188695fe9c41436016bdec25d502f7, 0xb67538d4a571e935cbefe237c5a01f774ade337cfec9f95f3e9cf042f0dbab6c),
(0x3dfe1718beafee83b858048d25d46ee67741d3bcbec1e52d3ce308cf0738b715, 0x8499a8b3a0c7c599f62f056aa8364494ec6e01982c47bbf87e2df591de0ff537),
(0xbde6252ea9e4823f36bd1737ce188fae0be4a2719984c9e676f9f4ffd070c1c1, 0x2e5db82de02a1fe10039d9037e7adeef12d40366de0eb164c04b2ef4b1e849b6),
(0x2c74b766eebac93c479fc0bd078a3805de50be2da6ad70c69048e43ec91343af, 0xab7a929d588ff99355094f836e7b3b58c6381bfbb284f9bf7dc44cc267cc741c),
(0xf0e084a7af9abfafb6ebf3c5b526d545b8b1cf5e8e09a06c3670aa376af83a3d, 0x6bb279dbabdb2b2dfcc975102b075dfeb42d9e6a5a8af760f4b63788c315f8dc),
(0x715aa28f4e52fc260a2f4b9f391894b06adc3b69b508827b4732396f5eb7edb5, 0xc5d0d68b3a8c65322f6303ab99b6c48a88572c4c56c780d1d51d244186ba110c),
(0x8f980e6903511ec3cca89b2c362835bd24d9c8a697deff865540f7c2b0bacf8b, 0x2d5e8470f2041ca6f158ac83e92a23454059492faf27ada292bbe51ad67ee5aa),
(0x6823a4e9d80838b2750dada3cc31f59f3cc9d6c803f33aa538d949aac4d6d657, 0xe087127a3ddc19cbe4088a2a6df61863e8e81cf5c5cea4a88cd2ab51bfbcba8d),
(0x8c9af14b11add28a818f85f3276d1d7a1e3478f423e74b72caaf244024558538, 0xa7c171740da1eed207eeb7b6c1d93e4e9e4515c53cd888d5e4527cdb94a64fb1),
(0x5fadb7c474b13592a1a27f76b7c2011a102b66a0c6ffbc02a7306e1ba9ccf49c, 0x7bf61c4f0134f8b47a5f90a1938918a14d151f2c7f1c4beacb8c4773cf11609d),
(0x79a21b829325fbe5c01ac9798b89cc47379eac4b682fd74747e0c04b879b404d, 0xabfa4d5c7ff916c49f489c125235bd9da0395b6b84d6699fc96f9c0a5a4cab2b),
(0xb213d11de4b5601a5f10827ed39a7825adc36bc01130a055cf8b3e8efc96d10b, 0x27c0e5b7a739fcd05eb733213fd1bbb7873de0a102b92cbc21de57c62bc812b1),
(0x0299ef8ee131f52372949d7efc2f0f7f9965e69b56725b554d513435ac8b0b3e, 0x8ba93fa02a4d97b354d47c10d5d791c50f724b684f501eda1931e5632c6faf06),
(0x5143ab7643a21de77ffd0f3bc4746fb0589be22d9d9ca2fb89403a3986d1cd37, 0x20991000a7c01e4b26d9236a45568bbd91c968d6c87dbe05015063afd8db5a03),
(0x738ce78749783066923ceec9a841d60b56855e0993e67cb99d52a0ca7a64b5b2, 0x0aba44aa272945fc5eee0330976b659aa6455ddefeb5c894cd27441471610384),
(0x6bb9bbe004c3dbaf6c60adcf5ec5fa5929cdb04b14633c1005dfca2c183e1d97, 0xb7dac59b5c35c3cc15521da589c0d3339dac05c6614acaf1d8b9e8348e02c3c9),
(0xf325eeb849a32b2afb19491d8c3c112fa7ca3443438c8c1999bdf7916981472a, 0x0169df94a26f26b1e5aaf8107a148faa017742c310cac320006daa69f8aad67b),
(0xd279bc0cf7f58a85b5abbe25936d50884d8ae8a4b415ea302c0f1133de98603c, 0x1e69875e2e38f9af222e03b16c833bd112bc10f81724da7ebc780e6f5228fd17),
(0x224d079c750eb1b42d70aa255fa0c3fdc2d07c1dae4d6cb117c1e61c5ec1c6b3, 0xe54dc4fab0e0536260d27fa7ba53c37ca37ce30e617365dd1c58a59d2c93ed00),
(0xf4741ca2b3de541449426531d546272dab8fc55d8f65eb3d05ea780ad25cb53b, 0x3b7290bf0dda0d0fe3704f27d8537063f2fe95714a0791a3e1a2586596a5b0b1),
(0xe931258e8eb5559c6d6972728a704c170b775a265b4527d4a4d4d742bbfd71fa, 0x04e1ccc9b3c0211f17a14be9636ab4bf4c6b931e44a1ca0cc2642f2be8b2c928)]

/-- block 33, /repo/src/precomputed_ecmult_gen.c:1455-1486 -/
def c43_6_33 : List (Nat × Nat) := [
(0xfa01dd32fada2843c51845e63cdc1b7679dee47bd2f4b7675133aa5e62029057, 0x6ea6596ab0ea0201b6c8bbbce9d07fd08040e1fa198c876767ab605500034a33),
(0x97ec9d33a9d88115471619b53fc58a08e69976627a28afc0b75b2f4955eba300, 0x92ad1d6af8a0a10027d9ba904f7fea6a571f3c3253393a7c79abb0cf9a558390),
(0xef364ba7626d72a687bc97763f2c083350640bec06ff4d8009dabcf29ea9145c, 0x7f8d7c481bd80ff48eccfa9d2de5eeb90800cb98c02da5393b3d6c838fe4a2ff),
(0x45961303a778b47a891092310324230430a178597d940e9ffc2f25bd1be61c00, 0x5fa356b6daad2b1d7bb19cceb9148d3158d2651ab4b436c0b99193f661cb037d),
(0x8aa677f4d73c0725e2163e5ded3dc3127ad5ee29f9bad8b85ab8f50dec6d77e9, 0x1fcb9da0d3fb9bc33a45bcdc50aa2ba116c2b05e836b539c863163c72436c334),
(0x8c6b287333082bf5a3597a267cc146962b689f2059caf1d935972c989b14c86b, 0xaa86d282a1107f8e021307e02ad1420aa4061fea3e3dd6f59b5d69006bf4827c),
(0x46c963f03bdbf433cbd608585a4d659e9815c2869f684eaacd879d66ceed05ed, 0xbe2a8d60636c5b80e443b13a9e21c91e90a9e7811c35101adfd61a4988193e86),
(0xcdbe43bc582f3936314a88f9fa21b29df4b5acf5096cdac34667e9c4b02b926b, 0x8f2a5b624f20b20dcce97348d73d56538651dd41dfedd4768792fa611bac16fa),
(0x6f9c5a841ffededcec45dc637ad15aea207116aa0a3036eaddfb06561dfd074d, 0xddf1c22f9168232dcf9c36a5dfb7835e62d28405bd32ec155e3ddb3edf834088),
(0x4200066303223b99e15a2a65bd95b229820abee95ba5be396f8879b73f421e7b, 0x9f3f3d6640de91bfc687261987487226057e60a43ac633cc48f684c0cf42696b),
(0xf02335b99cb524b745fa916741da4259f70279d8efe851abf5b0b8a532a087ff, 0xe1bc6767ba068b22cb7389e136805da5c30ca62ae59b92f548e4dd1d5327cfbc),
(0x5bbda2dccf8154e828ed49b12fdabc3e0eb8c3f9d0da587877611ff449d72e7c, 0x312377c36277addb0d5b044efe136626d5f7e7e7a73cfc4b9751e8ece4f77084),
(0x5cd5cb83ba2f225d1ef4faf622e226e1eaa85a5e099721d382aae23af9dff565, 0x254f58ba9c49244a4178a067b0e4bf6fdd7f3e1565e21637bc41f9f355045908),
(0x3b20ebc6b453aa16e5b6138101d81ca1f87dce6db54ba85bd8578ee323bff228, 0x8c9d30540056627a7313505b4aa5140d9fc40d83bcc298a643842f0470a335f4),
(0xcd531999cf33db75df4430c6bbcf32d00642be185736d79bf2947989e52c8da8, 0xc7e99c342a5c1112400edc69f58246e3d3cebbef2c43ff477520b027e2aa7d78),
(0x40b3856b273bd2a50145b70fd16a2972e488b33af3719143db7bc56726ff23c4, 0xd8bf895f71d96e6e20d523dd1256bd5644e11442c4757d74f116ae4469dc9b21),
(0x1a0cf0292d7cce7532b74baeacec68649e6827883cef4bbdc8b24fdb53e885a5, 0x32c87d926f969f697989837dd8ec8ef1c284d9db2a86ecd35bbb6772dea06692),
(0x7fd5d25193dd6c178d0be92c342f94a30c92c06127998f4d54f7dfb61326fefa, 0xea7d0755e0a804bb8b7ac8f2dbe1dd7f9ccd36ca2fa94365631ae4555d080075),
(0x518201456c07fa3e70d7b24a07754b11e42828e9c1b96b0ffd79bead2f44050e, 0x126f55261a55b7247d08c868366d697fa6898c66d14094f344b0a6b3613d043c),
(0x86f2c87d460387703be5ddc6c2ba1ccc7dfdd56ca9986663882f85da345886da, 0xed34fc5904b66f7ef06f54de84f3c7f6ea1d877bbbfc41853df800f2fa805027),
(0x7f7d8a695b86ca13d6a0ba0799e60cbef5c4e1f4c74a62bb93d94d4f8c1f296e, 0x44a14061b2c741c46a52639e9bf087765db5d49692bb6d1be97f9ceda89953e7),
(0xec61e95683714c551b72ed5fc5b096636dbdea9a64d13ef8c9cf0c5589da5ae4, 0x39a6e38f9f7927cfffcd0847df91e8564188bf58276bb4df3721335a5357c77a),
(0xe5906c854a75bee9322d70bea5d31c7631a5938902f479bf8dc11bef9ad5101c, 0x125b3a588c6c1c5f288402f43ce74ec5fe9c2dd33f3605df9ab4121032641524),
(0x6c9faca8b1b435b9213fde17ce967f0546e6f27a0cf0e1318496bcfdd856b092, 0xa04ac67d4bb076246b59df972fbe2c1fbb04be99e269d33fccc81f763f567577),
(0x61031a0c730cf2790d929b4f5608f16e6b1b14400c04e5a9fa300ff827303def, 0xacc4d732afb4730e39a10c0f5ae2cee95099be03bf5612ac391900fdb51238c2),
(0xe58fa07febc3aa4c61ff4fe3bfc8d04d48a1e3c9935317e183d537f97f35826b, 0xd24028447e63c3e0be6301908139a75e2e1a2b22b05ce52be453ccf77c35f1fa),
(0x4d4d29820b45a339001720afcf6b92df2c201d385b9b6c3a8fc53b4ffd3bfdd1, 0xd72650fbd130482d116524fae2b3dd71c68b4bbd54fc55a8f9824578cff67503),
(0x9adeb6f96ffcbb56f171919ca8a64c709b8ae835828bd573b7a1bbc13efb0360, 0x6d920a2ed2e3f41b4820d838ca342b669af35a7f7b6d09fdb1ba42989abe027c),
(0x64ba9514d8680f6cdd66895d9c5ad45f00006e2933506f8ed7be9770822aa9b8, 0x7ed8c0dd59bce424481f88d73e641b61a010e49097cf84ca16c2e04549e9c6ca),
(0x9e4ac64d9ca58a0446ca18bfc1700f2c16937ef9c82e8b559ccbd7512a0c0222, 0x315ba2e2601b18b2cf7f17209c4cff2fe39dfcf0c2546fb1e930898b5b023274),
(0xf13a99e58dc72fcb0c62a492d2850704621ddf48f1f433e69a9814c417d4b84a, 0xcc3d3732f0f4166a55946e32e1c01f91491c82b8ef0d269d7a66f039ac02dfae),
(0xfd6451fb84cfb18d3ef0acf856c4ef4d0553c562f7ae4d2a303f2ea33e8f62bb, 0x18ba314d4e78ea87490185a3e43cbb3305d54b6d2dff17c02f526f78ecd3f31e)]

/-- block 34, /repo/src/precomputed_ecmult_gen.c:1487-1518 -/
def c43_6_34 : List (Nat × Nat) := [
(0x0f1a749e6cab100e2aeef8ee6a654551c0ff906ee7d11d77f390955e9d29d783, 0xa60f72953c8c3bf7f1dc1358e39baf763dba22a01ce7917eaeabd996e21e845b),
(0xe8c4502004c9d9adf7878aa4184a1576d4c65d5ac1c4d494ff427e868b42ec1e, 0xaabff02d8a715c2c34414b27808882c3f656389c71c26d6bd7ac801383f4c57c),
(0xc1febd791784fea9bf378237a05522de1081df6c27d22ea2aad805dc7c2f1c4c, 0xc38782e9fcc1004eaa677f79536aa0697dd9002dac16936a1f0b87368734174e),
(0x919255644d9bdf2d4522825b5758b3f04d32da7303a4e772bfe3eb2c9909f4ef, 0x2568e18c1a0448abd038ae62a652d1524bdec1c1a02936959772bb65d78450af),
(0x25bb420209880c39f5bde432c1fa357c07f4867f6fee48b924ecc8245e1a5253, 0x05d43db264c23715b4b0eeae63127cf69b4bc79ef96ea8ccd17cb53cc3ac0fc5),
(0x2597e080e772d36fdf5007825f92f797c61c72c78d801dd13deb1bfb9e91b12a, 0xfd5918b8938ded17a458d0ae559c552fbd45feb25b4f59a8f5b735cbbdab92c1),
(0x70231b28f578dc129f8ac54dfd4e357773d0fcbf65be0dcd511328825a36e7e1, 0xd12aaf894dff3e42405a414058524e30b7c6c4a1837632686852acff83d2b7cb),
(0xf8ddfd5e5f3b46a1ab36316912b74c97b0bd654d87824040bf6d2cadb4fcbf95, 0x931fc58f5b4296365e080d5a8fb35ba0f92104d3891d65848d24c0f7fc95bda3),
(0xa033f432670a382c57e2408d3bdcd2a66758e63d7757459806b123e4d927bf10, 0x83b52f69d79e7445b6e33545c23f16fd5269115196ee60d62ecf6de5b2961a0c),
(0x8e77f9ed9a643f3cbf197b0980f92860f37d8b83936332306c902c383bb7f96d, 0x71b4da9ff736f9f1f8c3c099c34c1bc430bb5d263c861e2c726fe891cdf7d1ce),
(0xf34153e229934c715d895102778425f5e92f4ee5b96d1333df207e626761b328, 0x954584f164c8f35f2c4e018876186ceb3e91523a05e8ac03d599825349b7b8ac),
(0xe133aa94c0252f05379b5bd775ba3f1f92de2876686136132894690411b3ed52, 0x40363801613423b7cc6c0cc5af3641f4dc2a7ac448b178aed1393605103bd6dc),
(0x28119c6fa57d02ac856edb00f594c7be22772b0d0700ad14713affe57e385b5c, 0x969b6cb28ef483a0db4a96bb92e2d3326e6d86a1073bc3d5831bcbf25efc437d),
(0x8c728d6508b78d96440037080dadb48b065dcf6f6d9412c0e31cce3db5384d00, 0xbb3cf6609908467d285f1c7f040f4f18ca61809392633bebb4ce30c472680662),
(0x477321b61fd5b4ef3acd1e8d8432ef5de70576ee6b8490e6839f1985dec96490, 0x880084662244e3f97d2ded5d2193c70e2d72c67b9b7cd70e9f14cb0570306bee),
(0xebedd345ccdd0e044bd3d4d7e1f1cb6bec06ad105ec2cec8821580f5d08a63d4, 0x4278bfb088e4ff81a3fe15bb0e01be3640450f85885da0aee15c6b9fe78ad14a),
(0xf4795df941b315e224a98dacd9149ff208b9a7bfe758a1f35cb6336e8e1f9814, 0x6982bc20285c27d812c5c6480d0635c7fdab85e6fc6905d865da387e596da791),
(0x65a5964eea76e30c74c472bd3ddd516911dcfb3e1f2d7ff29661e2544a38ea30, 0xa7c394af80ebbd32e442271fb061bb42a7b1758f44d7d95289152fa2a88fe3f9),
(0xf3d10725da6b6c766da6fb5b969ba7c63e33b4f2d062a4464ffb20bcdea2d376, 0x4d65ff6964518942bc3142a6021481377bb609dd6545bc269678ea1962812ddb),
(0xf5fe0f35cde00589301584a2f4f5b1e93977082e9c9bd50d7c2c672bef05cc9f, 0x1b49ac82486e6344dea32ca3c96cd5c1446ac2fb2a658a4250425f32e8d72e94),
(0xfce17cd4d9519a530f0a100fca54d1f9fa87eded98a12654769c95be151e33c3, 0x40d342ef83a4d7150bd13df0f21197c6e189681befa0d9250248733f05ee07b8),
(0xfd5d90d4a97c1d1c4fe18a1006808f46f6ea4422c4408860c2256b66618af8e0, 0x7ffc76c3539bdec8f59a9a7bb36fd53499306cf32dd1fe43a2db5b59af2f7e3b),
(0x1c71f8241b147abd9e3c1ca3fad5146be531dae7c9c0d5864f2d8bd87a6457aa, 0x23e7e7582cfc92dde498c0afb942182a92e02bb07e95bc1b763d80309ddc9137),
(0xdfb018bd009bc352f36889b802a465128850a158872554cb3a3dad28a0496f20, 0x2daa780bd615d7783de8f5e825cbd9345c021df19ef80a6d39ff87db67a1e5ca),
(0xbbd320eedacc1282d3fd2109c26f6bcd46205ec10d96b806dca35dc14baa823d, 0x0ae7beed3b5f72bcba66c79489c05666efa8596614bacc459a99d8828edbdbfe),
(0xc9cd8f21a068f78bce5129c09084be52e48d688bf474e690b7720360e362dfce, 0xa10b9fe278c7814e37851b5a36aa424654c6279e89df8fc2ed189ad811518f22),
(0xddcf39dbaba5218172c36a535088324539ccddd846ec4258e72dcd7140041491, 0x85cadc4aa569265d412c8fa94872bce151a750f7b43385e22db405e354428a5b),
(0x391562c3f19436b1a6e41d067435fbe827de66b5555540c53ca7a0ccc7876457, 0xc3a5d9175b56f67c66ff269f72c0a1ac745031069059aaadf3e66dad45a80ee0),
(0x63d4b2247b2d441d680a0437604533cf01dc48c9bdcb9e10e0249960f966b2d4, 0xe25cb8960ba165d446f7334461e6856d4c186736402dc6a0d866f97ebd5cdfff),
(0x5fe057df5d2508c7611dc21d412739fe3e7cf9e9670812dfcbb002554d44cb22, 0x33b88e839f22a7bd17c149bb65bd4a4929b2a29eb975776ce82189de80c7d45c),
(0x05ac83bf498f7eb0079507acd5fbc587f758afa9b6a1ee514c857f8d608a7b1f, 0x1c86639308a91904f0530bddba15390a4c10fc4cef8a2f07d799c89f69a33097),
(0xb0f9e4b9b29790b633bcc04fd860cb0f823d8d1a4cc1a1c1413c1606cc9a8e2c, 0xb617d40e7bc52192be344f46f9021c0fccaf33fd3e8e311893df993a20c2ee7b)]

/-- block 35, /repo/src/precomputed_ecmult_gen.c:1519-1550 -/
def c43_6_35 : List (Nat × Nat) := [
(0xeccf169c9514a8548f7e1131a743846904df7dc2fab9646220e5799d6d3f672d, 0x452e53a2aaf1761737055bb724b64f4a8fef29edf8571ff9a3a6d2c46acdb91e),
(0xa77bcddda0fecd39a99c638757bda1bf302572486a3fa08ae2d6ff17e6e4b6ea, 0xdebf4c03b4bb5c7a8a386a7b1e4594266c78eec655f01cd9f137ff18c5fbdb1d),
(0xa77b91ec6db6a66ea48de42465079a2ece220fbada221601840546ec2295c2a2, 0x3c721fea81f5fe05163562a9849bdb1590bc818e86674ea257fe8d0f4050086c),
(0x99a28a1a3bf2af79ef2bf1340d31880a71c2aad3824fb7df23fc4fb7d54b2910, 0x620e2918df14e3c5dbfceada1905941d32d7759289ec607af9851a6c5592803d),
(0x7eb5261671402db8905c70972af96b72002bd77df124bbcc5418f217f6d8c7be, 0xce1e663c8276bf429991959211feb13b66aefa375d6dca158b7b66a3ffc6d7ec),
(0xc88b1815f183e6ea3ce8469fada5b88b805288d6828473ba0368d52f2145e7a4, 0x55e78f2d3784952ecb47f6b0113eb4718cc58225085f9d1e2198dc60af3f90c9),
(0xdd893c5ea2e4e70afcc161ac47232d3b77f16c9554c987709a7a6f64c0cf7ab1, 0xa1a58b41c7d4d0c56d6c908b32d97467b8b6ed2073e6a677549356656a92a480),
(0x591b8422eddbfaf9d2c27c28dd84dd30712a15a0deb752dddee682cc34722ea7, 0x877b0c996a248082fd442509b0ce4cc1b181d4f88ff755dd5f0dba66ebf95d1f),
(0x75f9e3a10ffdd902be5d1d2b3ed18b3762e42e958b024ce8f892ee13ab35c674, 0x57fabc847c68cfdf272effeee7a6ee2c5fecdeb408e4877cccf2a8de2e2264cc),
(0x0c8a53d5e1895cdfdb61c1a2395a866bad80377323ea43ca775408f7a4141cc6, 0xddeff9c997a11e4dd0afab30f63229f8001b52acc25749ae2749ddb42b201196),
(0x08827d23668f3006b966cb19698a066daea556b74108739d0d6414d8e8dd78c9, 0x3d009ac72baabb532e3658e18941d4b1efe512b8fd7696d514b12216215f10e0),
(0xdde6b7135cf165c653c7f5db542501bcb0a41e3cc6779aa6194ac1d18a830b01, 0x25c04b4a937e16b6e72616e2d64a413b6a7c29ac71dfcbf6826261dc02507c16),
(0x8cf6210c5426b3a5ed594699da6cb8b98069a3d7b926cae9fedb2e9625d20010, 0x78017fc17915e3c862557896acd002fc7263bd7faed38fcad63ccaa357391f30),
(0x3577290491661db6340e7d1ca98db8bc2f50f557283ccf118e446f71925ade9b, 0xfd8a4a56b82dff95a59e29eabd5d8e8ba876bf954abf053760832d1bd7edc31c),
(0x60e4201c4dbd9c99c5eda030f041f51df648f77b13ec20724d89b6bef249d793, 0xebd96057d60b7cae71349c511a3ca99e847419ffcdcaa0c854d75d408263d81b),
(0x0f39d686b17ad5183a7d300f1bfd015c57541f08a96b594343d2ef82bf20bb6e, 0xf1298c9c633a958aa0d12b878c95836df9f93b5f5e3a6bbd93a75ba11b96d4d0),
(0x37ea7dc72a3a0b4e72412814bc1e123317ea3e1cc4ede35fcab5d31c93cc330b, 0xaebaca938b14b3150708360e5662e6a1af25069bcc07f581225dd131c656c607),
(0xff1f61edba3cfc6f2fdf304337205bab301c965b501e4f2ffcacde00dd127b25, 0xfb1edca590e00f87eeb56ef994e9bb12b64ad1eaf5ef0afe6f0125b4e100a483),
(0x3376e0a5b93f15b6c46b92eae313ea2dc5d0b961a26234878919cf5e25e9ae38, 0xa4cfc1befd24647a20ae014b2041ab3f6cb7585d48a607f8299e0c1096bcfdf1),
(0xbe575f990842187b30bcb312987ea2183d61344208878804b5e7d92012e58d9c, 0x154e02b0b573c81bd2079a4f4a6efe5f5f37502b332250644eb38b2c3f0a1767),
(0x5a215836f1f2997d9b09d4d06473c55c46cd300670d85d6f6b5531aac8da043f, 0xef5fba1eb6e1deafbd83e480fcd4984dcf60f91f4799e8b43f4edd15f94b6d33),
(0x0d73fee216a503e3a7d6b0a2675adb1d197c3fae4d43835cb6b043f5d44909f5, 0x6f2cc9eefbc36b4da5b3e704c13daee9cb81ce9d470f12908b32f047ae231053),
(0x26fda2e4d07ec613ded58e14ee84e421ea58e5b95beed698d847f6a60db185f6, 0x683c0002bcd6d8b71d06e592db4b961df2518fbb47cb4ad996020d84ed8a5909),
(0xcd3d4e87e433f2b505dc55c6a3f280fc57f899e1f8f0777f032705f3eb24551c, 0x2315d85b7521e4e38e69f29ba49a3203abc7f280ad49365a4c78f21c3ee12542),
(0x652476ac2c9b871ce108fa136a739766879a76ec60d787aca1b7447a67f8afd8, 0xb66bf6dbcd3a1393f70ac7b6d53069d25f084dd7f05c97a876f7f646c7b67fa8),
(0x61ab4f9761c96446ea7a75de7ed362247b5ce8b9e7b442c3432f9fa0ec74355e, 0xf391652b017a910f6d476c2989e854f7d31a5f31fead5fbd5013ea56e44985db),
(0x36e4bb36e62f78a6a615535136a7363713fe8be81c8c3460a94bb6424f7c80de, 0x12b38983c10079f9b0016df7fba0685d5eb87518234c65c007dff006dbb6a563),
(0xf5e4cb89101e90d4b2f50097aa0b22fadf076932f4045e9b7a9ce8d6ba178780, 0xc12ec4ae56db797103a1bb0f2559e3a1de3f82000650c80974101940181eb52b),
(0x1138ad12333790f920e979f6a64712742a9bb56702356e3c80ffff890a9de533, 0x4caada48a78ae26b790f23c1606a5820098642f4bab5bfff95748f6a02ccd6bc),
(0xe0346d21121ff741fe4eaa23938a4347a71df4429e55359eaa20d691c9f40840, 0xc1197c8ec36676a928a92b56811845d5d9632c659142cc123c65e54f0c282dbd),
(0xd42011d6010613880fec6b7f3f332b2024ab318f2a9ba7ed237312073e32478e, 0x451a2b165c82b1f3e4d2a0a0bb407b84904db4d0caaf733ce31fa97d2fb1735b),
(0x63964eee619074e0780140fe02e90836e72328d2448386d459c5be23187f5048, 0xc49304c5947630be5c60064e3cb40436c2a7f46cb221937bc7c5d7b176cf5e37)]

/-- block 36, /repo/src/precomputed_ecmult_gen.c:1551-1582 -/
def c43_6_36 : List (Nat × Nat) := [
(0x8f74186843906722ab9f5c6ec796573b622fa2ae6d985bfeea4d51a18f141792, 0x61ecd858d6992c4abdc22472fb8fd242929dc5b536ea8e35d1c8c513bcb9e31e),
(0xf2dd67e56f75c39776b29366149ba4ff6938565153afb3853853acb79fc2bd59, 0x3a24641cd48ca39ffe992bf15029160479066af4a0cf364c09e52a9f9b51eb66),
(0x9386aa5ec3452728a8f65141e2f43a140c2501739349c96de1968a4e0048cd30, 0xa3a38a8504f68048d8f810023eef9966780262cbaacbe859a8fc66fc27c37f32),
(0x6c9901ea920c0f4cce51fde7ab283f98eebc30ddc76a32191df4c4c9db467aac, 0x6773f8aee601201a84dd4485fa560e2281d5eabb25a3b3d8525f4a5665f79d05),
(0xed1eafec876154e058597caa8250b0ef7262ff70b719ec9b63c0b2ff9d167fe3, 0x735050732b563f9389078cc393ff9837227ab8a60c7d789c6d2bc8352018f77b),
(0x515806b513d4d4bf83533b563b39bf9c4e808426f2e4cf160562e759cf2d56ab, 0x0083c2fb673a08a6b8a86b1fe1ba23d93347903ad6855059130d8d39737ddead),
(0x30a726d4d8db1cfad59331a08f4b537636848547914dcd7537a80e40109b8e35, 0x8f628b926a11ddc0dfb1cebb934aeaa43840d442a61145d1803f771f7bf65d7d),
(0x116867a8d72fb00e80a6f267e816377034affeff36d667cd38219f0ae3c9038d, 0x270f15beb2a3d50a4088720ae9a2c3dddf00817e31e1a5b1d850fe23dfe51657),
(0xabea2899e4575c6a201c96fba60a24ee1f1fe0c9b718b54d189819384f33a1f4, 0xd43d54e39e8d433ace66ad94e52662fa8013e778f8bc2e3f31938a6d5681c660),
(0x01fa796d9f658aa86ccd0fb46a735651102e3181302e371b8c965dd45f078b30, 0x69815d1843c3b4d9f7fa4af73d2e5dda390e53722860891279826a53a437031b),
(0xf5022faac8caa29f304ab6c3d00931c5e09085e273beab04c1d18f871c0fde73, 0xc6abd14373213fe8ffa5ec648a22ddddfdf2cb25e32afd584f92dca7838e8249),
(0x8190b10b97bc72b90301b1dccc60e69e460e389ece7d5d114e2284de853ea02f, 0xf1ffb850dbff0f06561b75f65d2ae823cb13881fd1150eff274db4cf112d2253),
(0xea230fbec58d7e2f1a3cea60f9018562d2fefb498efa312f4beafcd3139da094, 0x6045d69db27bee6f3357180ce92d3866b480faf42debc033cfa118fbb89c3bd2),
(0x0333d063ccef6aa1f78c81b34a84975c82bc2cc2bb897608f0bed49d0cd08829, 0x90ad105ef72b7e4fa927240d9c69729ba0aae3a203a453423be2c385488840a1),
(0x4d95cb4858d808a3be82f42cda4f64a8c64ae1763b50257f2e4ae6550fcc4802, 0x5f6efffc99bdde546d8ffde5e9a551d0121a39c386db540d1caf74b4894c5559),
(0xb87b5eca6e0111bc5b756816fa82acf977f81376af796cdd1e8fcb0904d363d1, 0x442fa8459c2a77992c09015adb80f26a28428851624326605602600905f2f9d8),
(0x34baf43aa82cce1b19945590ef3cb5822ab031426538ea5f74571582ee14cf00, 0x9a76705bc0141e2975d11543215377b53c051c31156697cbe8f56721da386e2b),
(0xf07c5d98a2579c1753b3fb5822a139a153e7deeb0ae9304b114bb188d61cdd0a, 0xec18ce0c1e51b8bce12f3d85023739f8bc25708f32deb81da780cc4a1010692d),
(0x9a146c805ee261ad3e708885aa41041a53bd3758b3d1ab7a1a44aa7e029acca7, 0xfc553e714ad8a19290f94ed77c171f9d9ad9a0476791f0454a3ab7d3f8834f02),
(0xc8088409650feb7409f9fe2161772279128db1d758610a9a08b9fc4bef9683b7, 0x692a6be3132a08d382295ee71c469465ae7d63d6c20c73573693500328799639),
(0x53bdc8b23edd83b60b149b79c88130c6b207f999e70452857e828f81b325b9d8, 0xa9a039d1794861678fda727b1706e9ec7ec3eba326e6a4a7e27db3f08a6ee238),
(0xfd08fb474af982073d8b4ef6d39012f478225f1abde3c8416fe3881b4fd276c6, 0xd38b53a9100da1fd1d2a987e6907370e7bca492e98a22e5d74a10c9b93a197e1),
(0x5c42ad932306363ea0edf86d31d14b04c3f7bc09c9fe1326d1ad085dc84fb7ca, 0x1bdbf812e9ad6486ff572d4ede5be4c959de7be3f21e0dd876534091f13ca3d3),
(0x66257876115e7eeffc0e61329f177d3a437c81c41150f86b45904f8630bae971, 0xdf830e1e033aeded721a0a6a62a3a4021d2b7ab7438b7b3c0d834d673a857aed),
(0x4feea8d802cc6601c847deff35581c1dbf1f4070402bb948ce9a41ee16661627, 0xc09a7686ad6bcec4ea9ab0f78316adc07c7a28999332cee75d70c50d249a0007),
(0x2d3bb18073f5345ecff0c9019a6f2fb4e0a237a39315fc11fd53c7d5aec43670, 0x58a9459c2710ac75ff2510ce4c9c5fb8b4f739c9c6611494daf896db0e43b080),
(0xbd539f5f47b2511607159153f402e0af8650c17ade7c5dde2d9d9cc2d0a3103d, 0x407cab4fca581f10eb386e209158541b8649951eb2f5e4542a7032b6053f0caa),
(0xc7a7293587ba51140744c3d09030be199ccea57c7f80be87bfb5b79a08f8e200, 0x7c2a98f8b4526422b211bea0875a81f10d379012486db005e31b9682404e14a3),
(0xcdf20316f4b63ca4c472e1cdb3a938be291d98b93ad8f3f24f3e1a4df1a6cc80, 0xab993e8a68988d4d2749760f241399c8136ee9d23d4ae7d1e6d26df46056587b),
(0x01d341e62eca1f48165bb2f386207da1f2c7fc860dff7a75cb63976ef21bb074, 0x923b53edfe2f5bb556aa7cae2a08ff86160e3344c4adc09ae7aeadfdf31e2b9c),
(0x8704f69d9d335975f0e3bb835aa3024a60103d89e5578253fbb3d5371983ce4e, 0x94f4adfa31dbd13d95c738b28a569453cba45efd1cfd20b678f6a724e9a8d025),
(0x7175407f1b58f010d4cda4c62511e59db7edcf28f5476d995cf39944b26b64f1, 0xbc4baabcbb1c2aaf0c92cbfeecb337914fe017488bb8e2d5bd9181044dbdc75a)]

/-- block 37, /repo/src/precomputed_ecmult_gen.c:1583-1614 -/
def c43_6_37 : List (Nat × Nat) := [
(0xa16a47349afd167fd5e79d2409784d875121fa2402c3a54a88f9b17672669aa1, 0x4df3fb817021efdce52967353a177b5c51cc77624755ba281084db5c4809e02c),
(0x91d1abe38d3f967154337e03d27fa6f8c3007f32323d15c831306b3a30900328, 0xb1b8c71db388009b98000f9f291b66e3f890d42ca5812f3405c070f6e73b89f6),
(0x61b64b1cf2a0e720e9bb4853537b9f3866baff87388df7f9f14c06c712080b96, 0x44444011b6ddadc57ee00eedb6af3772e4116711c3853f137f9c7b002bf2a1dc),
(0x3b96b2eed9cf1ed63aaed8e9aca3a464d6a6fbf5e6fd48f05aacc3180dfdbc87, 0x51c41c26506cac9ebd0c5dbc8ce8788a3469e42dde7947079e0cd0d9826e9c58),
(0x7bbd147f77b293ac0ff797b9a52778de5874b754c08df39772ed8ef753242efc, 0x3e843df675abef2be4d32c83205322cb0f53bde02563eb8eb5dfbe6f27d4cada),
(0xbecb7fc5de84f9949f97e55dbdb6981ef38c0c4501e0e454519c941105bae3d7, 0x754145ecee6f9c7cf91963fb5b0a683aef24313f1125570cc9b9c7d2afab99a8),
(0x87936626aa88346d6d4330d93a188ed6992bdbb8387b395ed21dab9363d833eb, 0xa28c868a18dbe0e712ca523753f6a50b9313e68785f3b31fec778fac87aa9327),
(0xe79d4b2de33de1e2e7eeeb44d197aec1f5883ad61394dd79de274ef976e3b022, 0x9c73ade77c661527ec2ec6cdb370c130380bdd9a4bcb668a86e8259aca85f293),
(0x863f0d6534de1222237a07bdebb066b52c1cdd83d7a6d3df278e57c8bb59b8c7, 0xc546940b99d04ae25cf7c88128a985cc9b6223a6ffc06fe98a3e0f68439b9db6),
(0x71e9b0d13972d9e02225bbda5a1024e90c373eebf6514eb1c113ef880dffdc3a, 0x4436c52e0c58a34c562638c78d76e3fa29e3586dfa6675772fe0b932c4a1ade2),
(0xef4a500dc936912578fcfcbe3c313bbff0323caa75750b6ba317e1e3dd8054e3, 0xe807e9cf7911c919fef82e40a3ae1b9bed8ded38e74126ed863199dec031f2a1),
(0x806dd4e0fbf72904c7b0080b4e7526bcc71fc52df143da800e571041dd964915, 0x2f4e2e673348c32d6bcc07412e76f4fe944f96bbd73382c8c6880cf6629eac8a),
(0x9ea889e8acf0441d6e299687c532ea8f8b9453ed5fea0d47f735056b1eb3bfa1, 0xe43f79a84d302f3c886988965fa7b8f10a92c620dfcb3462c4befe3f4afbff5e),
(0x9a990a221d27d8f340e7948958cff3ca2720dd3dac71688d9c3c9e2fafeee215, 0x4957ac76db37091807992b0b633706567e0f4a0a9e5f1d9abe8f7d5e8a950eef),
(0xd329100398ad3d921d6cbc6eb37ac3f39360cea623edd79464d34a51fa7adc60, 0x0657c1105bd8df6bfe52addb2fdfc41b810a1ff78662021c7c220b0db3509d14),
(0x65eac5760e149d973cbd772c60570870e437e92c2e5138ac9c0534dfb7a45582, 0x0ebecb6aedb87cc1417e066efef8e52ec61eb00cdfd9820591d63c089dfd5347),
(0xb6976b99c2515be22bc901fd8671255bf8fd76ca1f3474cd5eebe39e98f6f14f, 0x084ab17dda67b61cfd01881eb1087e69845aecc9ce1535fe1c7245fa8df98181),
(0xc7f5967ff9910e1054c93e1ed02901029bf3178715f53758f5c53cd3c79a52bf, 0xbfb012105c1ec69c847ceffcd1105ac0528129fe3b4d30862b6e9562836f5eb2),
(0xffa0da7a0e8984e4d02a0fe3acfb4e812a63d6b1682dcd78fd2635bf88cfdf1d, 0x49459ee53fad10972da786fe45a2d201e4a522607779b1d423defafe29e70098),
(0x5a53d6833bc1740fd02f278b2ac15a8700f137f2c798f157725a4aac63f1798d, 0xac5e7ec586d5960fe25f9e257cf9ee05110d9595e440d032c416d44406242d10),
(0x70f674879b030a4d9ccc0bf2090d5b78c455f8bda1fa2b52efaf02006b70a6cb, 0x10f5b1c5dc46c0c06875780493805aa75a259dbd95b4bd14d031daefa81bf7bb),
(0xa4baf0d7d3a53c29e78ff81a052d634ae009391b30a9aa91df8f7bb6013e3c16, 0xc9f9d0017f388f09b6802c45e1fa036e99443467c384793708b384a9dada35cc),
(0x351b8e4add336c285d140c579f2b089d3c656a05000b1ed64cdbaf7ee5bc671b, 0xb996e61ccb14553cb7b79803c82332b60704ce97fb4e19a51f70b13df8e2732f),
(0x0d248350092898c05dbb446518695efae59ac007d58b5df5bb3b703882f18e61, 0x23455e7f5104051a44600be52e242a9095213d25b4fd65a762c3f9fc9234c2a5),
(0xd3fc6d7510cb0b2077b52b0093e84d4754dd1a284f3928f2a9e3cc02f1869588, 0x26e86b02c16171d44238aecf666146f49386e0eb52dfed877ac0b40951ced10b),
(0x1c6113353d115906182b0e4a7eb3d39f552c49f0c5928aa115ae00ddc23a3b70, 0x1c3e3c4eed65ce47ea82a33fdf8fa6b5532977d953aed38af0f4dab398477c6b),
(0x6487c5c6abb6e6730821c4b02c485f833e149af183b3f02571a81fbe660e98e3, 0x63c4f6b47eb37ed607668b411e83d9c89ea323f32d9e891820b65276a8a7b7d6),
(0x1b0baf636daaf2c428a62bcebdd41de2a4d7cf6993f0b931222a40cb9f5f9a2f, 0xaf9a62cdf91e2c6b47f308afe2de8f16def4972f24bf4c5b2b1f92acf63a21d2),
(0x95bbd97478e1b8a41622e4608aa82fe9e77d43e7492a0d211146d987f9b8f255, 0x412bc52ed61c3880210d3df70f0d2f270d458d510388803efef1c016d7c9e7f6),
(0xa34667155b6ea5982d3945fb743a1510c671b96fa3494a57e0349010055ae087, 0xde35a05a1a943a427210165e55d5cfae3ac15490dc6b0f4334c0c99bdd778608),
(0x2ed76c1152ac36007aa17c85a5f902f17c845a05a4e0aaa07b05e8360cbcad59, 0x9c60b2bfbc47a0ddd325915137e89812a08d39fecf5806beeb5385753b159531),
(0x20e6e2e796946bb630c7071ef1b92ea3d53d280e0e4501115f5da36f840dd273, 0x2c528501b0eaa61bb5f45e526878b9aa7ee13686c25796c33f8302e944b9469c)]

/-- block 38, /repo/src/precomputed_ecmult_gen.c:1615-1646 -/
def c43_6_38 : List (Nat × Nat) := [
(0xf040a2fab839c7534e2164256c2e8dd857c52dace75cab3d512a7b1d562075d2, 0x9e211cf4bab24e0ef745e2a09b59565bbe7b24498123f6b2ba383b2529554b36),
(0x0c66813b904831cc12f89e3fbde93eb311ade6ddf6cfdf7221cc61a2ff46bf26, 0x3b60c8c99da35a587b9650aff85ca785ece41146e7ed8d6def8d26d1f3d055ce),
(0xcd38ece87c7a9cbbe23b58ef59925633734de285f93b3ac4eb01e03aadab904b, 0xa5f48fcdafe414f41a44917a5dcb80b930373af970e9f22d0c1af80fa8b06320),
(0x72d6f7db199564a26e823a49eb0171cbebb76a2aadd56c7c06d3102a9c3ee18c, 0xbd2039ecc390839fe2d4451c9437fef63e98dc623ab0eea4c56376f2e270f626),
(0x2ea6c3131e1018672454e15cd34d5fad013829d54ca86062f074e512a274167e, 0x67e3d34a56f12e1b43687f51c2d5639514355d7d9cc5272622f62ab891c8d5de),
(0xd66bdd788b20da57b2485804a2f6e2ef78c7ca87ae1c5c66fc5335335b624162, 0x1a8688a1300e6d39e130037d3f074ccc57addd1b88977e642ab296acd6e054c9),
(0x6d6458d5d1683d85008f9e4015e5a94a73868bda54f6139c446b52836d211542, 0xe44c7ca833761e13ca5458ffdc682f223819411ca3c5feb624f06412471b9f5a),
(0x049f80630b3d98f6f159f2e6065b0e078ef8c7df44da06c355b592ac13402b9d, 0xb0b2d8384b24ab11de895013e897e82545c3e8dd6cdb0990555cd8715841f8cd),
(0x8b2fb6bde60449da2684f8e36267fff7254051acfaea37cb102c9bfa91abb2ca, 0xc82cb9abc33c181710d3fb1960f2850b5072eb47404266f70c7964fbf98027d3),
(0xcf90331d7364447647c8f86eeaa6e67bf3fb4b3c4c895b8230ab2f3880df1e42, 0x9c493d943471efd5ea90f723db576a3508cd1ee61a119b5606c65b16112eb2b4),
(0xe70667cd08d2759e43f99417ecc505a7953d80dde7ce2cba3c8c948bd43a912a, 0x92a534b351449a66082395a3b75877ae851923a2e791acc37293d728777a2247),
(0x4cc07d114a715e9f4b4d0811f0337c7ef4bdff742fb008d21ce8a9ea50520d47, 0x0478b279613d92d3dd24ae312658eda828a7d628f0346e045d5d9dff7178f093),
(0x2a1cee604cdd3b2c1f859bfaaf63d7e39aaad91092c2a38fa93627989753c30d, 0x325c248ed409e8f3b96dccab6fdb62a683b7eaf336d2864eb821663ded31a6f5),
(0x7c18d0bb9a01969d302616cbbad8722ed00103fa9985a50b765f0e2b9a2ea14c, 0xf6365a6cb06e4749c48c212c63fff5718f46e0cf6fdc8c4234d4db64ceb72080),
(0x0a70675465cde407e853e8828fb7a2fe98638d7e64b8df0fb0a7a0b4e629d0ee, 0xfd694b2c1354a5e9415926d01590eaacdbd1b36b5ecc46b572467c3fe2cc5393),
(0x7ff57a6336ec73dacc1dc527928cc6ff4ec063b156b3629223b8bbb0a8ba2c7d, 0x4d6dfc43da0fe33a1e75dbf55e5d669e0be6471deb8a41026db1a41e9d5da637),
(0xd4b1f7bc87558c277e0fdf9122bfe488b3182555599dd3845cc039b593218e9f, 0x992f79ddc8f466825c44a54d626b352f7f59139bd545f78b44bd0b1055c3c1fa),
(0x0897773fa9de63a746ebf58e248d0c2110f90230a792f0b6ea5a25a09d1940d2, 0xb7c7dd27d561dde60ca7588b8e3a09c716297ba39d501744f9639a25b16b4f64),
(0x2f9cb312b071a600e5d24cfc79b0fdbbf6da152710ec395d530784531a3b07e7, 0x49260f95757b9b66feeb5c20016aa051b444bfc8836fd8a2ab913e98731fa97e),
(0x5c53b27c4c0ae2418569c8068dd43a5c6fa23ac674d001b4eee6a748d86c9e6d, 0x4e0e720af430972fb0ab89b879a56eb4f0af5161cae83ca1964a8099f9d497c1),
(0x2671ef505a3213879560f0d9e85887071c2b87b50d06bb9ddec3d1796275b098, 0x750ea18bdbdcbd58be994eb5cb3539f58c3dc6307d50bbf1f69050d6235826be),
(0x59baa5ce9d6e707bb0738f4fd37c9890801ed796a82afb2aecd2c5ba195be65b, 0xe6b6635620a8a106b58dc20210cccdd1e0e8c579c92f3fbf8b335765b30d8291),
(0x0bb422d088abedcae4686479295aa1a177d7e68b293bcd314097ddc1af764b90, 0xa96d33f646d4861da471f853e0c6ae32b1eea619a7441504a773f5e6fc548805),
(0x8d7df8a5f08ba2b0923662fce594f1115295cf6ec5aec9cadf0f7236fe51b362, 0x264522157d8572d00f057ec96f572f11ebad3fd05603224026b54df2991f9046),
(0x9e2b1637352d89881e76fdecc2dc85336a71b18b3c98e59d397602f58b9087d7, 0xb997404f1c0b1e6490cff078fdc47c42aedf245ae69d844c18a146fa6d8c3d13),
(0x972c7bc46362bca6b58f1d0b87c0b8dcfe91a2177f0cd7af404f6f0647e09358, 0x0cfda778a59d944b4ec08bcb3aabd70acd6f29c5204c9161fe2e5bd571d03f6c),
(0xf7dd32ed89ceaace52e7f26b202ea6a5c7e8ff426c7ebc1612106f7c6fe51a54, 0x7349c17dd8ea6ad1cb346e3d269899503de00c114205b3b550d27ff767efe75d),
(0xc9f96f8803e34aed97351928fa77b07af4b01bb40e4515f059745ee5decc9fbc, 0x6fd62453dd6c9dab10fb7d79c15b4822178eba31258800e4519e627e91ef20c9),
(0x9c28cc93809b35b396a4c9cdd697639117402ffb5588cd767c41a92f0e971a9a, 0xca3b26342851351686a661c4747aece4c8130d93ff4108a63365e7252bbb80ce),
(0x263a3fca437c4dbf48ca36e6aa892d61abf58f6ad3c82b1f0fe945dcc45a15f8, 0x604c5bec69e0f1a73e8f8a804f762cda96ba219835268887910c8df0e83d3044),
(0x7fe42dfbb3466ed4d7cb82425e66b5e114a70516b118911f9170656a3dbb04fa, 0xd11385f4b0a3a0bccf09374f868cb30f55175d772d3e463aa298b6ed1e6f6fa6),
(0x53f2432ba81717143fa9df3dff41ced24a29b314bc5a8c96f5f6400a0d7c0979, 0x42ad10043e0f8648332b1c1f6ee4f821b42a5b0a361747ba060816f2ac84c58d)]

/-- block 39, /repo/src/precomputed_ecmult_gen.c:1647-1678 -/
def c43_6_39 : List (Nat × Nat) := [
(0xb8b52efdbc367a5ca1534bb2f339a04850fc494101668780dcdb8b512daa7526, 0x306a2236856070ea1e0fd846cd571889e20968cfcd490bc9facfc4e5a5970b2a),
(0x27e226b60ed59c895bd20232bc677c35495d96015f37493f5075718c2017e42c, 0xa130a5c854ed8ab3ed657e0fee4a04cc1b59a2916e96465a74b361447cc621f0),
(0x1733f1c0da38fa79a7b379881822ef512392d8cb59d1ad1eafaf535ae151fb64, 0xa93ddb00af779565eeb230af815f9434958ad39b387d90690a03cfcb8563a920),
(0xe3f4b777d06c8839c63dfb417328178772debac0ed45b991724c19bd85ab3c58, 0x2d6a84ea745decd9e6444b7adbb59fa321957b7c3f8141e6fd633d3f7539dcdb),
(0xa2b42fb89ac10df9ebe804b6c105e85525cb05eb7407d3833031e21664491ff5, 0xd0973dbd346a87b4f4ddfddd12be3131e6c6a3978e17be2cbda2368362f80765),
(0x66d441a26b28378bcf23d33bffac11637c23bbb77ad352e7ff5cc09f41bf6e91, 0x982aa46e5fa0b19a28ecfdee0539c0ecb5f06e2a217f76876c3cbf1de92a6068),
(0x3721fccc20338f8a779aceb8eae3fc7fbb0e40401de2c8e527941ad7f789d0f7, 0xd9516c548f457b6ed44f6bbb23f36c7ce6fdc54860e5042ab3dd4f67ad5ae3ea),
(0x0959e9804618bed273b5cc485565df270b8e09c9a128a9e5ea92e34766e02015, 0xcee3a2271bddee013582d65dc3e26c8af80a4601abcff432b173712791ca15a4),
(0xf2e81d16c19466a601b56931935d03e2aad6b8d07f193d97bacdc29e13cdcf38, 0xafb8e9738d563dc41e7688f6c6b43b71f366b5769479f09388fd09e5faa1063f),
(0x98305a48800f92e0bd8151927b8658fc60a97c64c9f97383688126143563910e, 0xd32db8e26699b9695b644c08039f2399f8ef45ada0d857c52d0c7c3f96a62993),
(0x8dbd4fba113c50baff3f251c96aba9c0440d8e698a1e4ec184fba97ae497c443, 0xf642b1d9b012eef240c6ad38fe441d11cfb42ec2a3c1554045e64c76c15be491),
(0xdeea5bb6c7eac0a293e90817836a3e552a7f1354395296c897964c2a4527a727, 0x4cbe143cc9fde617c61423354323b9d8bba13dd7fbd46db5cbf4ce2a011c9c00),
(0x349f46a5086210349f207a074558787d336cb0cfa56c1e678dd3b04a4d717f4b, 0x0a6479d8f7f017a632c369c08679fecd985b3c16ff444ba03fe435758b96455a),
(0xa6d818c9dc182fd7081343bcb737811f611c8499e44a6cdb33a36beb7e44b545, 0x1a8ee36ed6e9b191b9cbf8403924e6b8ac3c3f8acbc9a0b5ff965d6c734d741d),
(0xf9cad3337b82ea41b00f3ef1bba37b8bfcb24e8a175fe3808e399b67d21837e7, 0xcb2068544e7f2cda28c035f1b8b50009319797dabb498b99d31e24e24fa27ca9),
(0x25042b59f9b29a9c83d04515c78f1c255b72f97f7b387113e88c36b99da3ebdc, 0xd966ba9ea7eb9734e1481cb72df632527492e1c4043f1fc9c0efe0af442b5a13),
(0xe19c4319b5c9a01eb588c6298a7c6b761b80bf4be39424e0666ddc45fd57e0f6, 0x1b0a2c304a1bb1b19dd0b50d029df625bf958a7346cc6b1d81a213a3b6636285),
(0x59c26fc16d151c0c7da0edf6c474463c587c45cb7e407589d15aad89de223fa0, 0xf7b227b54855c1c41e5764318a7106ebea214686ef815b42db8c18aed5c940a5),
(0xd967d546e07ac1c231fd50dfa1d25a5160594d883e816f6abd62c15c446aeff6, 0x8eee6c036e22a0145d9cf3af9b44e005cd1d36ced7c420f5e2db918be4fbf83a),
(0x424b149d9104254e3f5772b37d973cf2a46bd11089d8f8507666f04d382c972b, 0x7272ad0754c18fbd66e2abb30952c526d8113d5b166283a39ac8ecb62b7a3e46),
(0x40b4b2acbd299270e64bc4708607c5863bb5091345e573f3a5e2461b47dbc053, 0xd094311efd81bb1f4622d17e68044107a2a8ed543cd5ff8cb531b28b9b8ec99e),
(0x79e79ded6bc0d851fa769b5e8d65857cf3c1c18e6c990cb6116fc45b63e9f924, 0x4fa89e89ae4214fcba2aecdb419847888154eaa6bcbbe29ff04a62627299f469),
(0xa11ad5ea59c644b28dd7402a5f96a97068d96e2eeb77d59a0fe0c2fccc6b252f, 0x38e379d5150109df36ed7ad3a2daa41b4fb9c731718cf5e38f8f8cf7d1f3d770),
(0xb3002b00ec5be154cd8e52264b97f5c9f444b30508f59c4cbcda5edf9d10dc88, 0xf7e9ae656ad2c8238e8e0436e007d821b17d9405984eccc4617e39772f25d636),
(0x8d1267b194da1334fd20cb8f77fa01cf9e9ced9043107e41d1ec4057eb6115a2, 0xa7ba1b9e2c6f0f195ff1f50a7a8da22fda3003fa44b818b9953b44d3e6d6a0df),
(0xdde6a3a087ef41db2359e4e7ca7cb064424301e7c5cbb5bc4b6e504af3af4837, 0x24175b1cb4b39b7e23718e26be4a22bb8bf543021f156234e7f180100d538aeb),
(0x79efa5842fb89f4e085f556ec4be170d5c1ef88a3f3f75cf6b20fc1a096984ad, 0xb0704aafe4d8f30f4f29fa856d55da1391f5f3ce36cdef6f251339990cc8541a),
(0x3aa09dc05546977f7369fa0a7b60c94b0eab86a110d85af77b8264757d67eaf5, 0x343b4cf3aa6c5ebced041d7f2381be57f7fd32d0029a2f420a7c882104f425d8),
(0x53fe8af98f9419fb1445bb6a94750d4646be9f37b715576388b11064df2e6ffa, 0x6cd77e8184aeab9de9bf3093bb9b21a3a04a0719fc428f3dd5e14c8c9b16cd7a),
(0xfc395dc4a5114dc8bcb0f7f003a4d3e938a87a3d78d33864d1dc4cba9e41e20e, 0xc7991f6ef72f82f6b3147e5674224929fddeb8a597a1b1d48852733c1830b941),
(0xb1d25d51b4558f5fd0ccb8683af9a9cf62a169c691627fa592d80b1836695f94, 0x8f92258dfcf16f4e08415f53e65457e89f090e725479c1235a481464a11cd4f9),
(0xb866d6b142df940f2cf28b54c92f0c1294e0b6a22a91f2ef44bcd88c4384480d, 0xe6eb4f4cbd95148f765d872815652853db1add7fb4e27929f19a64b7f3b34c87)]

/-- block 40, /repo/src/precomputed_ecmult_gen.c:1679-1710 -/
def c43_6_40 : List (Nat × Nat) := [
(0xd4aaf32edd897f485ab1646676d747cdfec5b7a0a05c917b60c0731145d16f89, 0x4857e649beff40892470f700cadb73aed4866a84c3f0b9756fd8570edf9d29d8),
(0x4ebe5b8af3b1583c9f41bd98afaba549f45c381ec93ec9d14a543d879cefbaf3, 0x63ed1d179b215f34f1f580be4b3f671f2fa1468974cd03d119fadae3c92935ff),
(0x20df6160556dd3c5a26620a870ff53230cbbab94be3e3bddad8b936c554f28f1, 0x7168e7ab0cdbafad26fbb5bea09daddeed36c20fc8deafaf75a480b5f980e981),
(0x86c663f2cc6f7ee250be25fdfb35fd8e5873481bc477bf5bc0f1bc1e03f1320f, 0xc13c5795cce0ad92e31240da90a823d0d2352314f2852e67cb62e0c28570994a),
(0x3fd8085e057f6870b25e41d97df00126150f6022a7ede22fd27da581d234ccaa, 0xc665774698d6ac03ed1ea2d7bd3f70be86351c5d407a4d7c227fd7d0c330ef04),
(0x1510fcf0b0fb5a230c15e0412a7f6d899fac42448ce316bfd88fb58b10e23118, 0x1879dc07b34d0a62f0b9517f3629ae0fe8aa6d305a783f37069bdf653b40408e),
(0x67e9982b0c40f42798df055c2d8bdcc02ea97bad68d3402485498e27d99e19e4, 0x4f087caaefc5fd7fb099c134a273635cd1d5ace326e3103f9b2fe22ce95f288e),
(0xe8eeab216c3395d6d16338eade4108da1c25e47167fb13d599e8daaf93e7345f, 0x7fd2ba877c7266a565a3154899950ea1e5e3d73f612addea318ad5bca965228d),
(0xab20c7c89dd74c20447bc762e374c548e7a8ac31eec111231a040cd136e9a546, 0xfacacfb252eb95329106a26a60128a0fae1d7e5cfd39483caeb54dd9231b55ee),
(0xa9004211b7cf54941c530a0ed658fb6e3b5d2ee137b7d7de45fef6b5efddbf0f, 0x58cbaf675cc5a13154eef7a1462b5d1c408d5d563553ca5545388d77c6391d4f),
(0x8db64274422ae0f56474b83a089912fae3a39b6cb3fb8370308a572eb6b3c020, 0x9b71a72d0431fd44aa8632ee023bc67861d96eddb7ec72ab4b1679b8a4ba73e4),
(0x0301b330c478189ddce4314f380cb2d838bbd4165dfad8c490f2443f2a56148b, 0x00737da01c05cf73db36a1a45005f5621327167fd3b60ece3da3705d131903fe),
(0xb9cbc7a34a1cbdd1300e789db7ffec1cdfe1f738fbe1fe1967dd7c1492ee3ba7, 0x05a816a09d08c4be2b8d062f200fde4c534fbdbf854c7e5364532c0860c97c01),
(0x06a15e516f9f0a7c25f2eac7649285ead86a1e0105a386dcc7f94ba84782b45b, 0x63eafaf4660642ef988aeee7642e7c4b71124a1c2ca2f5c3d4f2eec9ea72d70e),
(0xf4c696f334c56e082ab2e6274d450f340fa7fbce29f3e14d332bcadf87d5fe0d, 0x6ee44edff574d9a8363f98b6b863a648027d30201e652935be12041c1bbcc7c3),
(0xd2f3d5ad237ba177ed312bbb1d02fb2ae4bda20f41f5c2178b70dd9ac26ee9b0, 0xcc5912d42ea1af01aa914b988c42cef846a5a059664c8545fc00b662e0327920),
(0x5588b0a4757beb33e668af5fadf87fb32aed8e16e6ceabf11576ae17c6a2b843, 0x70d8961bac203e89c437b88bce331309c4f7eca8d614299c74aef9b217c741de),
(0xf993cd07f6eb75add41426d5cc65388618dde1f088aaf3cdb2631eea158373e0, 0x1e74f8045f60349ea85b90e1206f0ea4b0cd3740861186be648063e858c2b395),
(0x2cd0417078291a50750218b944a11a641cb75e7dcd5cc4f964f53c8da1ef08f4, 0x1f54a70ff66ce343c7ed300178d7b99e49129e2390b5a0267ba25af53467b6d3),
(0x52fc09a1d4f0cc2ec7ba6cba1b30e1f0b9e37f313bf59c3360fc02e33b0c15e8, 0x9bd14bcda7c7b6abdd7e17ddab81a1cf846be336a76858a18e8a0194776f0a80),
(0x90d29aba764a9b491e2878c29b964bf600e510af3dd5aeb93fe29e13b8f03b23, 0x396b1f6de9b8fd1f463ca06411b0982326cb6ab74bbbcaef43031497f149a620),
(0xce1d6e8eddd063f4316cb006b4a4213d9e0952c843e6e1e70570a35eaad7fa53, 0x0a1abcd7e2c23ad0895c5aa882a805cd1d7d434c72f0c5282ceec0b7a7016f7c),
(0x4df6e1d393a4be666fd88c75e1e686a1e2cb1844f5f1303ef7b0a75199b42bf5, 0x0262d8b9f7e202a378a5192891ee3fc9f269ef5de14dd0fff1fec9f44cdb9058),
(0xf71b9bfabcc353a411a055eba7d6f48f47c4e43796382bccd5b882cda9059638, 0xbfc1c3f8fea7df8bd1cd088cb1f02e47377d66569b3bd8a28b457ba5e6453468),
(0xad5e92120d3ef76d8319fd9872ee753fec99fab06244f4e2a9567068a635eb53, 0x65fb538fcb5700927b0f775a73ffb0c14e6c2274e253f3a62dba9caa27a3e5e4),
(0x81a7dfa07659fdbd57e1c8ae20c14a80ee8bfc5146caa8dbb077b653023bad4a, 0xac9d24383ef0d99f26744be477e69d5149d44ab9084801bb759d3a5b7fed1e2e),
(0x3bf8c1d0a613316be90eab626788c8c3b1641d65d0e502459e5b19c1ab1eb617, 0xe1edb59a08594d73669e6f93ca10e2101254946b8c9e8eac3fa84a49e4e2944f),
(0x30f9283a767c551ce9fe87d95730eff6fc302a4a1810e4de11ba62affa17eaae, 0x1f383ac5e714240d67980617d96b0c0576008599f8e3fa04d57454e9927e729b),
(0x1c5d4ac691d37d0c9db5e071c809a59e99056263fbd83028ee9530e9c2b3f3c9, 0xb98c7be97a2fb1963d3d4a754f7fecce2fbeb8fdcf23c229073b687586bd276a),
(0x3dfe48e52f055be11db79fa4501b44d8f5ae8447c5a1293aa79f683f01e1e9bf, 0x2d7e8303b988fc1718c9b64c1c03373d27fd0c3213c26e6cb684ca9449f79d5e),
(0xadc4251bc3ef6d5aa4d6eb2246ab2787bc835b651d17ceae489f181d57d37248, 0x4f0c489d1c3a1814a2f9c1c9d6fe908f4623aa44ebaf414379fb835215234014),
(0xedfe16b2db40180311f9892007a2fef7d05b2a3bb676899f9c6e2192d38f93e0, 0x1196fd0e035a24c96b28b055b4fa2f2da4c2aeff3b91dd81c2fe86c11d6bf682)]

/-- block 41, /repo/src/precomputed_ecmult_gen.c:1711-1742 -/
def c43_6_41 : List (Nat × Nat) := [
(0xb4b57b3406e1b41b7394e655e059cc9344c5d83ef0ef17db2789db5d13777b78, 0x6fa187a74d983b7ecea6a2686103943063e599e7cba731440fe3eb23677c6265),
(0x099372387300054a1a8713b76942f00399818b286c6fba5dca60b9da01aa7767, 0x06c003e1848ce30a065601ebe7b76acfb2e122b6882d7439f463c0420ef1b31a),
(0xebd177f8b575766558851c7fa7ada38be3596080f2679181f994efd382714784, 0xd0fe8eb097c852f70b284d5fbd81f77f79c35af7cc30338f4e63211e9e20a244),
(0x367ef258b279f923a18215b767d396e4c6bc874d2be6b369b01afffa2e041741, 0xbd9612422452eddb33831dcffb3a027330ef141f6db77d915bec2ecb553b6e6c),
(0xd89f40c4f752cff45bae576237f5096ef27d46d0d934d4dec3011a2859464e8e, 0x9d32661e0e2319d60f6427ea0a3014b5cf98306c666c4a9e970dba2e65e04886),
(0xef6ff8621d84c5d522e490f4db21181fa17bafea3e0978684f1f0215759772b9, 0xae006f11aa85db2d3624cf51ae319ad28b4970e7eac033011eb15db8dc59d62b),
(0x8b0a1b1bd476bbfb6da1d07168d3a9883b49802f8ffa04a3bbba131317c67a00, 0xd8c74ae565c385978d9fda2edff6b9321512e40bec5b62e259d4d81c9b657b55),
(0x9aa9250f12ffde3821384434849d7eb7bcafbae59a3b861f68a3addbd75d3715, 0x19b4b1a88d8bfeee38b5456430d5f73eed0365fe49092d4a2f52fa12b65e3ac7),
(0xaaccc00f55e96f0ce66d9b4312f9abd26772d8b4030a6c62edd2aab497acbc22, 0x5af203cf97d1114782374056f012f5f92825476a820dce2e6e1c4b33cef5337c),
(0x43c345462836b544ddd6e4326aa19b4a9de7fdfb86f43caece98ce7c32b1ccaf, 0xdd518249f1fbc1c71f90586017a6f60b15be97d418c66d42f4f9adcdd722c096),
(0x9a38eb25935441ab8983097ad58c821fd784f0915f85dc263f0c020bb80c39a0, 0xd8e6dc5741e4ba5c576179e89a6dcb4abd7178c613a1100be2bd731bf3e819e2),
(0x06b10527204a4f7ce8afcaccfe771634376f18da0f12774e50f23a909efe0223, 0xb443a451529b4208c8c989040f5eb2ee2e2ede2d80ca50c5aa29b95a0714181a),
(0x1a88fecc71d7550aabf7faf08e884e95835f6dc81815d2d77dab66eab238d6b2, 0x82cf671101dd38ffd0daebbcea2c064b17b6b21d34804f934a0379369edec692),
(0x0a6b1751f30507fe5927b6d4a92ebbbd77358c029b750d05a56e4d41efb99144, 0xccf7c048a2a0983d0fdcccfd0a071b80e8035866c479ea3a3bbe7c8012dfd618),
(0xe186601e8b545292f23ae7fa4cadc80f1fcaa1a3430ddec6cfd2af47c835cdf9, 0xfd471f167c3683c92e5fc0c289b646a5c8ebda6d5b6da213d862c3f62c292e9c),
(0x091b3935d8ce2b80c179ee0b878501404c418c7f7cf94e4a64b9fc9ce396a093, 0x45a5043b8184546c9083982f550807d7d61fe677ce73ef219b3aa57397c4eca1),
(0x3fbe61fd2a387654dfc428e7dac09e915e1ae7d6d3794288743f253520858ef5, 0x206fd9a0e3265118e0a6475c4df87e43cc7c889859d8aa0823b6dfffb68b34d7),
(0x31a35020697d9d5255476289ce4fcbdc4e1e0690c2c36d1ba4f4640fe4c5ba18, 0x91f660f9159d463a857f08adfc3c5ddd804507c592f73de42ee44555da538553),
(0x7dc6b83a10f26e710e12c0bd7ebcccc661b4394a68f576febfca1c23256e8aa2, 0xb4796977bd386b98f3e2fa8e798b6548fae52a8040bb12ea7e6ad67564fc8736),
(0x67a9c3ff9c7b99b25318ff9e2b85ee23ec2446558042ea8bd880e23e7d3ce221, 0xa7bcbbbb895ca7b1847a43fa98809ce498016123bbb3c0997d34debdcb023f8d),
(0x36602997eba2c6c5aab4cb658d4efd4665ab3965f643ff66831646dcf6443bf3, 0xc82d0e80ef775f9c7ec7862ae31585560a57038de6850dd1e349629c02546239),
(0x9eb9244b299bfd76f63bb140ae2f42a14af1e07283f8259f6478ac03d411df24, 0xe43f91da13c2ba21a9d17d2f7a8a629d0905134693a6552a0538d5909d2bdd38),
(0xba4450fa27d579933d949a1a660139067d1a97166794993de45d9426b4bfc5ed, 0x8e3f3b9bd8cb82107a5ae2af92b962590b73633f6528ac0420c3e1016bb6d8a8),
(0xe6d5335fb67abd362712c7fe575ee769053d488b236e85895664fb047f385248, 0x9e255154e070a5bbe98e97f6281fb999a75e68ea7681fdf6fea093bd919aa5a4),
(0x63c099a9300a331a3bc4348aa373e514c84a810e1ea8a8d14ac8d7cb818eb534, 0xed7d40293cc4a086b1d40c2406086109a02dbcb50a864777279390246fd6bf91),
(0x7088617f066cd93f8130eaeb874c3f773bcb0daa78923b70a65512a2992554dc, 0x5a3ff9953c712066291ac4a2dfc2573e1d0aed5675ef526bb15f61b0d20f8156),
(0xcc354aaf746d756b9387730f2f12b9994fcd815c6d25cdab2e1185aa4aa639b3, 0xfb1dead94fd768591aac8d795c337924dc155fbe5cd5c9534d55ee31f6d284a6),
(0xe7e47c3ae2bf43077f33ec3dac1ae2a75c669e61e248f588590cfe073e2186e0, 0x46e9c4d54429fdcf5efb375e18f46cc83fa7a4036013777fe450e228aebd4cd0),
(0xc6ed5e6328ec31b13704110842d4ac23fbb883bb349d88db1d747cf7325fe9cc, 0x21b8bfa4b62807cfd6cd11eda38084d57bb068d49f0dd30ef3f431e2b57022e4),
(0x331924c750b3417e48e279ff6ed7f3dcba2e121e9f69f8fbe64093b6c38a8cc6, 0x357086bee4cc0fe7d45a49fe41d004ce80466165316164ab3b171f03b9a7841f),
(0xb4319cc90f3e0d3b313626ae5385796bc49b300c88ba4553dec0aa4a77829372, 0xb8f82bb66590afd40048501f63de3a5d8f84edea35c1ee4488d6333ef522a808),
(0xda433d5e11ceccc0abc5c7626ce7bab42e89b221f785c409282de545f3fceb19, 0x1b67242cde57efcfe214423b506a1ade718803d26dd84d8897b18ede590a2fcb)]

/-- block 42, /repo/src/precomputed_ecmult_gen.c:1743-1774 -/
def c43_6_42 : List (Nat × Nat) := [
(0xebae7464ece277b8309d056ccf3775e2011a77aa81c316a4b6b7b9536f90f539, 0x62a4d6a295fdd811f2051715322f17e51753c9d0835ef9a03e8dc9f5c69bda31),
(0x5b20700c1af63394a3e4cadbb0ea682e19cf495ab908418ad41f4c6cea4477f0, 0x8435d15e34b03a22ca89c73d326c2f88142d2e238964ef6d9928712579738f78),
(0xb2f25f91138b974b561328c092f50fdf8a694004fd4879d012a4a6ccc8059d1d, 0xd9ec0b2d0b8e81b2f6feaf559776ff78cda3401b47826de0ca06e5799d866c09),
(0x64e797907783d6fb321eb785acdeb2ff04628270fec3342c527c8db0a34c516e, 0xc0c4da5dabf3da9ca8613f820ca28e84a1a18376c9967c08aaf70bea7a2f34c2),
(0xa50cae84a08f4f324984853ad4c6bdaf77eaa7889cb8fe95072fd56e9078ee73, 0x0120ecbf76e47b38503067c83685300360ed261a40fdf440161ef2cd19786b93),
(0x76ff3ac880a451a96741fc7082bc4c827bd51c0895eea8c8b422b8a996ba4794, 0x25555d71d4313a60b189a154058e0a40c643c2040277334e966e2abd3a23f6c3),
(0x307e5caa8b7087603d9f845bb78f4f1072c49c109747f91d192f8d6e70c0f4be, 0xf5992f7637167e1d55cd31a61cdb475685eb150334fb6009e0240a18fa8302b8),
(0xd8e62e47b28fd1654d420137884dcf21c10cb159d9885843da34b0d9d09b2758, 0x675c75b4b903ad282055a71b2c470e2b1dce69bfecf160cf3a027de255b723a9),
(0xec5639c773dac23d3008dabf732dc0053154703d26ee3bbc7689286e4a73e39f, 0xaaa5ea4a2cf5c23d57cdd0d88accbbf99fd2c21397bb45f8835478763aab1248),
(0x3d928ee32065557a27722f085202f48f40917ed6c7ac19632a1222268b0cb9df, 0xece112a4e7a05ad617c2fd8376f891029eb94eb0930fb23ca342d7f1f021a0c7),
(0x616228a5cc6c3a92cd694cec4b2b85745dfffa90b2a36d8f32eaa6cc2530de51, 0x50d8d1404d506a78700f8e82967b36a51b4de644a8e22271d509c8d24adf3148),
(0x6f85f308e847b145c13a07bebebdd4ba6c1389396afd8670733f44a8969406d0, 0x864bcde1be36c9c7b7e04ef8cd2366e2b3c229025ee7efced005ef5bff7dae2b),
(0xf3d1ecc353a826211bd78f0faa0290760c6ca7799bdc54b2128fa3d2aec00c6d, 0x75aa0cf9fd0b7bed19183e3458142f66c94a5aa93915435eae51c1fe96625ccd),
(0xa5918de3f18cd8d12a234f9f3a19fcaa2d83671dad566f168aea2b1fb9de41b0, 0xc515dda643c0f6c80d8fea165d59591716b7f52143d3b941f28585ed8a49c06c),
(0x3c49e2ef1d2d346481e05fa0333666091615ebcf00535f68be257f357bd91592, 0x57901e0ac8af3a31aa40498772c903fd175c9b005c7458eeed667f1157754132),
(0x06c45ff2c0c3032083c343e6dc80b4f7bb64502a52f412ffada521d4a544a9f0, 0xe9936037f1e641eb1cd6f801a25271d30cffe67dc9bd7162babf98559628a9a8),
(0x66df5d95acdf4260ee0e465ce3916d79395df522aa086aeb6c283bb718296d46, 0xcb1f3deb8aea0337625f46dd903416d15647be911633c4c0cf0e629a413476fc),
(0x428bbba5ef3517629eee4059a333921340c7fee25ccb051c88d75e53ba618858, 0xef18809c28227ccc115876dfb3f378cd374c06702c6585017990e767922c3999),
(0xe89938200d782657ed8badc2d515e360df336730860ef49e65ca58dd1a385815, 0xfeb4118916c7e8f653c7f5a65fd7b6be7a029814149c4645847073be770959de),
(0x2b77e42a63502244d6c7d1be054b78579e2742d27143d689fa3f70a35986ccf1, 0x721e9da8bee88ad42155dc9a028be505866483781d6af5b1382cd47d771e6428),
(0xacffce3aed6beea32ad7163321e1ca536f69ce76fb5cd3949d9dcc140bbcee96, 0x5384c97deac946c0afc85b54f3a56b79fe263bff63e1894c6d52ef1b9b456602),
(0xe13d8d4b25bece8d90a008e4c004824e0223b06b7cf65ebd1215e9102e67b639, 0x03e92b1f14cbee579640b3776ed5938f9aee0e11b139a6783f207cf46dd7e20b),
(0xd8f356d9d2498eaa0b3fa12acb64562bdff3e270c7809a3125a9ae659cb1f3c5, 0xa5403cda2d499a7c7402b57c0c9f99e364f5085a91fd8cfd8a67c7a8dbce04fb),
(0x350062b522fb5d0a8c79a5db29e9221679b9fbc63e1f95cae7d087f3fedffc49, 0x74cacf575e79c85bd7e77a40796e8750a3ca57f2a47cce8f3d2de02db014df0b),
(0xc159e6309ab2313558ebfb6b22edaf930eac8e1677cd9f3b01cd949220bf8e54, 0x9924426353f32608831c6d740da51d61c344defef4c1e4016a3db44b4c57f4ae),
(0x9e568b7036a2daa2fe7a3a5249c56eb83fe4afa2decebd60c6c3245f17bc6a13, 0xb6643644274eab9f5e83c5981497868117c5a078765156ae3cb65fd3830e06ae),
(0x9bee74716b6c1ff562c1bc3657a65de399a91d72115703f44c3819a187828478, 0xbb23a3daed34028a7d39a7ed0fe2e23b73e085a2d6c2e51aef2a2076a7c902ad),
(0xc430c04491228a7aea835698ecf0f5529aeef469a36305cb52902ccd1c897473, 0x40d0ee56061cca82080d11dabffe97c4f10c93aa5e07224c154b666ebcd58c74),
(0x2be073f6b294a01beda0b0db6832e4bc23ef38897a8598535ee726efae0f15b1, 0x6153f846349c2a98260080658be2a7d8311a5e70cc310ff87935a9018d575813),
(0x2934de46a6d921f8720567e6b46e636236a7ed53483b13ed209584523225accd, 0x0597969826927cd7abfe4c57c53fc72a48b71679174c749daecdb057e6a2d961),
(0x04e9991b92fa8c4e4e8efe4566966073319e80d3a54d4b7ab61cfcc47ddaa5d5, 0x9d03ea2221d4d80e261952e273f6a8cfc31f6091e5aa0a8f2281ffbf1345df9e),
(0xff3d6136ffac5b0cbfc6c5c0c30dc01a7ea3d56c20bd3103b178e3d3ae180068, 0xeccdc6417b1bfff1bf2fc8d32269523eab89890dbffe0a198f594490e7739bb8)]

/-- All blocks, /repo/src/precomputed_ecmult_gen.c:399-1774 -/
def c43_6 : List (List (Nat × Nat)) := [
  c43_6_00, c43_6_01, c43_6_02, c43_6_03, c43_6_04, c43_6_05, c43_6_06, c43_6_07, c43_6_08, c43_6_09, c43_6_10, c43_6_11, c43_6_12, c43_6_13, c43_6_14, c43_6_15, c43_6_16, c43_6_17, c43_6_18, c43_6_19, c43_6_20, c43_6_21, c43_6_22, c43_6_23, c43_6_24, c43_6_25, c43_6_26, c43_6_27, c43_6_28, c43_6_29, c43_6_30, c43_6_31, c43_6_32, c43_6_33, c43_6_34, c43_6_35, c43_6_36, c43_6_37, c43_6_38, c43_6_39, c43_6_40, c43_6_41, c43_6_42]

end Secp.Model.PreGen
