/-!
Generated from /repo/src/precomputed_ecmult.c:4650-5161: entries 4608 to 5119 of
`secp256k1_pre_g`, as pairs (x, y).
-/

namespace Secp.Model.PreG

/-- secp256k1_pre_g[4608..4671], /repo/src/precomputed_ecmult.c:4650-4713 -/
def g09_0 : List (Nat × Nat) := [
(0xa763e6364e4959d8009d3047bff6fbb1912d99f0c092fe62947d43852427ec02, 0xbd799a82a3cea8e1db94946dc7d32236013b008b0da8eca4921c985cc022622f),
(0x2abdc9920b2ba8381da0c2c62b35d3c4ec1a1e39516b6afe81fdc7c9cf3715cd, 0x8115c8260d214c3636a8fcca37e89dcf4be7f34a2cce73573a6c42ea9e084a66),
(0x2cb83bfaef83ab3e53216500944b2db0e8cdb6a2caad1eecc9e14c33a16a07ec, 0x5b1b11996e84c17c13c070a799dc09753d3740186f9ce89abced753907121ec7),
(0x2687de95b368b07a07808ebfe45fde24d66fdc81a02744cb3e96e847f0a3ca41, 0x5728b8faaec73963236ca282d1a8946ab2a26f28a239590f9d38bddad05a846b),
(0xb143029e7f32bd1ba381fe828da797130b53550e0f3cf8674ef1e9520d4dff9d, 0xa44a622fff5fb46683b69803c6ea5c168d86c6733ed94058081aff0a2a8edfd2),
(0x4c54d53fcefac5836fcf3b877202afc4ccd68695567c7fe76068546f0aa9070d, 0x7f42728d78193fd5946f37876ab124f9b1045ae745df58bccab6f59fa27c6f18),
(0x6b625111556e3ff5db9cd8f37f610b3d0718220be459f54647314b04b2ba9d6e, 0xb3ae66ca0fc58bb75a0577678bf806b2c204b90afd114ae84ed5137853b30a78),
(0xb3fb12d6e16e42795fcdc1ee23d42f9c198debdd056217af5b76989a271b473f, 0xd38adb774ce1d0b50e41b65c7c973a2710c5621f594e6f700d235f5ea4a89386),
(0x09c7c9086976b590ba9c80a5fe12c5f5ce6bbdb305a4058a3cc5989982073ae4, 0x399687af4d3e221f6168ded631644c350e41606e94583429346932219322da67),
(0x28cdf6d0f0374a354dd169a901c3beeffc88dea04922f841401ffe918bfbddb2, 0x2b8f1d3a6f001d6095aab0d9d6248cefcf3b97a4850d1a43ad2bbb3ed2ea4518),
(0x1974b196a25b64462ceda38dd99662b97dcd0d7d15299c009b8d14b7f139e7af, 0xc685622d96fd63796bfc3f2b6eacd54f83281ef350d2fed02507a1579fcdb74d),
(0x3beafb9f4cfa35703d3346f1afa48acc25909889a60b76c06e7774c2acfe4367, 0x6c8c09ea7233ce1fcacc82fc9c1dd35751021b92fb86d6ca3749bd586dfa369f),
(0xb5cf157c4586fdda16a111c39a500dafb1aefb07e32f78ac0a23664bcef3be73, 0x1d273f4558e7c2ed6f46ed71e297dac359489934b10afdc2cf0f4270ad6fd53e),
(0x9bd52bafcde378959439aba4b1fd4080844416570c2b1b36c45446a67b661d6c, 0x87f637616dba07e596d71dbaf86df28dc506a123c6f082ff47886a93da068ebc),
(0x20cfa2f5b391d687b89cad8aa4c5ac8d8624d4c1ebc94cd5d47999fd3278febc, 0x1bd4a8964641d8ccf69263238b1be2c0491417360ee780bad2110f27a674239f),
(0xe54db30ee18cff40564734782c61d437c79adc2351739315ba845adfc7e8b6cc, 0xef631e429529a407cb3f832f06aee6fba26b125c0fd28f43b9f07e4ead8b0632),
(0x588f13bc3dd3b9277508ca9a82ffe280fabd5cb31413e8482a2aa4d178a290b0, 0x95c81a4a044e6af95d8f6fbcba3884d6d6a540571835184e50f5db88d08517b6),
(0x1927e8dcddc7ed4e62a32a82bd4a0977fe24a57110b1acf378826484de7e757c, 0xe0a9674f76122a18dc6004a7ebd1da860f98e8965585518fbc5f91d04699719b),
(0x7b82c663aa2201cd71dd7c2fb83032648639f9a79de52706e2deb38b85dfcc36, 0x90dd6e59e98c611fa7162fdf8fc503ce071b0ad1dd150698e4c21916d5ded962),
(0xa15fa4f5970860369e9c39465f16a458c7b36ec66ad384db7803ce19555a2bbf, 0xbd40628343e40d1825a0255706bbf75235e34400dfabf0226cf2bd3d8fe80901),
(0x2b6199ea7c42b7b42230da51a895ba8683950dd9d4d5ecef80512976a0df55af, 0x26ecea0516faa49703fb986516415ebd93ce4a6be4b5cf113507d3e66a70b692),
(0x35ad2f4bb5ba61de364e8198f5404ecd4cdbf26d7072dbedd9892804364b43f4, 0x5481372f07d1af5e9e60cb020ae8512a06bcee9ceab1344c6ac5898baeca2e94),
(0xf4eeca4e2ab388398a459df5b94cf98c68017522353aaa98bc606bf75008c6a3, 0xe016b7f9aba6e9106a64766201e7a5b712ab97f6498f451c21902e0b09b6c2c2),
(0x6c488180aeb6c44478ef24de21a47431b2e26d9cbbf059a584631829a75ec053, 0xccf084c938491cfb8cf0349ffe80a31571bbe0cd0dad9a7da4434cbc9160baae),
(0xa52e5bcd2214d4055736082810ebe384a94f79a6579a89666f1ef7cb0bc80f4e, 0xc28bb594e15c47df09bf4ef22666fe4bd916dd9be62b60d349c2ba11506fb79d),
(0xc55414db3374563e5c79d9b11103ad017b7c04b23afb543108c469cb49ea9754, 0xf54a43357bbaf0884d18bd706f3d69a244f4d527a6dccf5e52f468e3752a998a),
(0xb7771609335ac0ee01e825393fd3cfad5cb4b06c98a05bb995966e4b6fc1f24e, 0xf305d87833f95e99ff6a3b4a2b77ffa24cddd5afd253ebcd0d60abb1438e0745),
(0xda220e1cc66af35010736e75483e257391f6d2e1d355d05b8471cbcd4b64832d, 0x0bd028d55db1c54b86f6f123bbabe6b0f3e52e02ca48d92d0464311aaaad3cea),
(0x1a680b36991edb40ada892dc6c102b0b186bce17280f9850ca50eae46951ac7a, 0xf03d7958b0789cc143d61fc511b70f9f1ef17239dd6a057fca394f62225ed9f6),
(0xaf8ca10db1975668b8071ea95d474b5e424d461ae98b5ab7bc240cc644da9c57, 0xe74ea4ca59f926fd89bb2bac61790ee050d746af5e30019c5b53130b09cb9786),
(0xe60145702ad63dd05d98c576c3d5158d0162857f7b83045ed91865acbb347922, 0x529318364a9fe32340f13c0e15c955fef718ec644b45b14133fa2edbc65baa18),
(0x56eedaf10fec96aec2f1e0519a1c4a76dc0ccd671781cfbf7804d215626dd5de, 0xadb8a791b73aebc9c6406e2f83e611b6286761d1a6c759c1de85658ca4788923),
(0x43c5272da3dc8c2fedb0f5bca5bd5f40fea4bd489f367675cb578690636fe0ad, 0x52c62fe51cc2dbbc57de501b839cad13b94c9e1212b1cf30d8463605f7871c43),
(0x66e765287cd0ebb19d9e0d76aaab42301aa87367c3a3f96a101c612584f816da, 0x39a4d3ef8d2632173a3a8c3ed9c1b460e240cdc69c9cbaf989535604a2f28edf),
(0x1a27450231f1b5c49df7564bf311a7bcd5123e752471c24365c0e142d3b292d4, 0x5eb550b4ffcb5e1ec695f22cdafada321e967ac37e1fc20be0e695c4324c1131),
(0x36f1c3b2ab6a692b5d3b1e10f53b43c77d5c4e7690e089dd9e70eac2773c3620, 0x5553cea38e56a7dc0384458b84c419cf2d4932461f75f16f2d1a547a6fdf0289),
(0x1ff0f8e78318fcb02b23a1d361015c676b1a446e784bbdcbc088b2413da40369, 0x39db7b2c6923a1a2379b58ee0cb91ad5554ed5c560d5ddba225c0074e9fa4415),
(0xc5d7b7f5d6dddac52a2021e8437f771c216bfb4324c57ba2e8b43a0bdfd17e8a, 0x78fc37a39586cdd2f1145cd6f9beda8343e8ee5c854c256d0419fdb41c9d2bc0),
(0x4af5a3c8cf107e16fdf3522c47fff7c7b2fcff70c6c8b36b7d66a3e04b107250, 0xb1b6e5cfde86993745ae8632c5e2860c76a5f481ac24ac86ad135136e9ff4e04),
(0x37b59d4586fff48f67ff3ea3f31f721c3daee8f1a2ff960e3f77b79303e35b50, 0x73a7d0482c93b9eb4c2f63593ce61497ed4559709b2ad7af2d0f834d6f070d98),
(0x6e9dd180d5b7c41c5f529439e46534aeb80bd802b8b12e0cccf532ada99e663d, 0xe981b043e936da7fecef09e7cd1186465bdeaa6445a00a591139eb9e5628004e),
(0xfde9062a9f7e13dd39117543be4aa5a8fa10b810a2285661720b458668acc236, 0xfa39cd20a5eee1cf3727df9932c5289a96b1409a5721b9bf01ad8f42ee35069b),
(0xd7ef4012ecc7453816c392d04d1ffdac76a309924c1489e5159149bd84847835, 0xb2f5e6999883a21bedda98ccccc1ee2f258fe291c508cee739619659e18c9720),
(0x8355ef2cf0e3795656b77adb5f700f7547e2c14ab5f6a0ef8716c99ba919612d, 0xd75dc6c2fdf0260c6682b16b42d022f2f03bdd1b1e6ef520da295465a1988eee),
(0xcd49e79563655bfc87bbba18b72a0c5052568a2653bc05433661f3e22ff159ba, 0xab28dd46696b74141365316ac8cd8dc32c2f5e016ae34302d103cac74e37d25c),
(0x8f93b20f28f89a461afdf08d7550964adfa8df2eba2c00e99d351b842d6e0b78, 0x092ffb09812b69707746493cc833bdde6849a2b6ee7778b82b41adcd62b5620e),
(0xa7b3fa744621cc50f6719d0d5fd3f2d96acd31634dad11143ece3db50d114ab2, 0x948a37169394841d68e5b64d2f86798bd78c8530bb8d4d61f82b5f51ed0f56c6),
(0x0e16b540d62e3237361ba514a11f2ccdff72ae57b37e58c5d4c3c49d2cc8fb7a, 0x67efad5ff02c36aca0c0ab0fee5e5135fa7bb3c451472d37abd0711c6618a7ff),
(0x589645ff05c3dc069d2ff5425278a51cc4fff14c3de96036b773497f8940d240, 0x1ea7ba1a95f65259c30ce21ca95b3b9583d11b103c8e633f6dacbd2afbe44116),
(0xd551239e3448ccc89a83b8dc41396df7d3db0c3df79490be9d44636ef5f0d0d6, 0x779118aea8db8a05f2231b5d923e9d975e69a4625c2ad5515a8e7777b1b25899),
(0xc45a22f29f611893d8577d7c9c1cd46d82f41b48a7c18628ddb609e5abc434f7, 0x515624f85776268b5a5c74fd8d87f8e33e47648e2eb8c2e827e9b57f7fee5a1e),
(0xfb8e4546639d957190f2840a2f72ba12a72063fd85f160e718477d0126132b85, 0x3cead630f8bf75c931d19cd96f4f37181efc4854b937ac31c3e0dc6e363db575),
(0xec51e7e16cbc70cf1f053860fd21e12098b652f8df9eb31c74eb787e87e5ca5d, 0xbd5afa9506996b7b0357b475fa7a326cd6c2505d1ebf6fa6feaa27c2c2685867),
(0x52c497f6f8b9189d30fc42cd9c2a44d42d4f70ad815ccf054f50571b2570bea5, 0x35f54d97a45e2712b0f9a72038adbb27a31cfefec065ba9f883d36c5c070e9fa),
(0x02fd360f1680b7b65f49f64d5a648e8c97e4a756fe88e10791fce9b6295cfc85, 0x7a88eccfc4d82e86072780c6e1c34bb751a6029edea0cb7703d29a850b0689f5),
(0x7b32854625307c85f9ad0c31ce2c31dce746931a57ec42ac1623116574f63d78, 0x6862d3634360e4049693dc03772f48404a30f167993c8f1b56244c0baf6e29ec),
(0xaf76b4734cf5f64125124792fb558b97df60d67e41c2b104ba27ff35e3be96c9, 0x21e6d4c6c1e0d3a069520227c4cf2ef28204d85e26f4ebc45d6f81cf10defdb2),
(0x5b1237e054c98238df2ccb28a5b42b64cabac24d1126c8ea5520ed69ac449521, 0xde7ac1bd4994cce18800ac0d5499c33dbdde30961a0c902858de0325b91ffc36),
(0xb81bcaa225743a4936fec95e13c8c20ff818ee5a6bda3850870492bbb3380d5b, 0x6ea959d5483ea6f35b3a4a5c01987673a8196c98d8efe8d03aed5884dcb391ce),
(0x5f6ca7cd1054051d3d8a2a8373be30f3516b305cfeffe073ea2773fd77eeab3c, 0x089287d822775f5361c931abbbc43d38380488fe5e35124c2daa54413b36c126),
(0xffb3a36a8345f9ca30369f21f04dc9f9d5f0282cd0e1d68bf5ca1cc0c05ca91e, 0x21ddcc3e0f5a94fd8046295fc0629b61b1e8fea9364fe659d298e0b1be5a6c17),
(0x51902e3d8801dff4e6bfe7e88f600d7542eef0f6e186df293a8c691cd57b36f6, 0x48a27fbb0cf9dd38a1ab966bf635fbeb35bc3fcc52f0cae0d9a3ad5b2654eaf1),
(0xf1a68a758f0f8937e14a48d715c4cda00679d9b912682182493cd9dfc3ccb345, 0xdb85d3bbb8431e56d21e8c1f4eb1c750225bb22238da0bc030e5da0bd4f4a985),
(0x81d88ea84969d53efd0aaaf4248a3558f37059da0a4b3d320da538bfca1a4d15, 0x840fe96111756d9605c8cea132067ccf31ac66bfe1086f16afccdbedf16a2d33)]

/-- secp256k1_pre_g[4672..4735], /repo/src/precomputed_ecmult.c:4714-4777 -/
def g09_1 : List (Nat × Nat) := [
(0xb5830ab62e236cbe345044f3af94002939b00b52e779ce10b02c446c84163e95, 0xd8720333b210a3910499f38e134a0989254faef5126750c0ec2a5850e1d4a821),
(0xb50caed0a4e9e41ff03d16ee1848d92dd4e6b76e4e2332f3793e865020bc4d11, 0x39195ffa13745502eed8801c40f36e2bd9b636bd11d623888ebab8a641d3ab54),
(0x6190402a3750824a149945fadf942c0b03622accb2ee13040f2605938de5c333, 0x290f4d4a73a1c72dc5ff422841e2949d966da1125278d082ab779e8ed4cb179d),
(0x8966488f4e991a1ee34552bec6246b2db948644247fda545f8083b7ab0435060, 0x7daa3ab787283446a7900c83b726b849f7dad6846326148aaeeb6233738c6c4f),
(0xedfa388cfd246c1c6bb7bd9e6d9d335f9cbd7018ff2a750b4ba976d90dd922b5, 0xc74e1113f10e69546848e4f411a5afe4bbf7dfd50d252e665789627bb81ce714),
(0x304740e51b99d9ae97de2a558dc1abc860bb8b5da52f6208af8e28f889904951, 0x8ab409b23606089e4a111377c8a94e5e75ecf0984f62aa63faaf7e18f93a37d0),
(0xd4ca8aa5e31028a937d7729596b011aac26f58cf3a7ff67199aa7f303e00bc30, 0x5ecc09b3bcd9afcd309280d2617cbfb70e4a9350b4ef79ee1e46a8c956d46fb1),
(0x4110ec3bae03a06159910aac4f2e4bd777d5e0554eb6920daac4b8352d7cfb4b, 0xc1237e1bd6f1cf1b6fb0f2489e3712ae5557e4b2f72ea7a22c482e6cd84eba92),
(0xf7c55f973e9df72cc9da8e04b19266881d53f810fef5e66499b81f440e4f9800, 0x4b45e93fe02c399395238c80b65533d5ebd01cbf1b3dbf444d550cbc4652fa89),
(0x2de3290f56fbee3e15def5a05d65436b9d722e3ba435f269a5ee0231857cbd29, 0xf80d2ac20356ac72f3106b475cbf37010bf924e348e93c9bf3327b55bc203828),
(0xc8e3d2b8219221461862d5d3319c2abc7dfd568c59df4367eb975a956e22fda8, 0xd6ec1b9ce758a8c647e718a3ee8ae232c416d763d2887e1954ae4c3030404f20),
(0x50c1a147c117d907fc831f729be19b3ee93733e3aa3bf402e64760e2edc82065, 0xacebcfda80706b53116e4cc80cdede6d5aa1b7ec62ffc942572f729d47396289),
(0x7bab893055114c0be4f7637dad165491c21d6970c80363751387012a7b785528, 0x6e31589e02ecb13eb7bca5ee039e3bcafd2e56456574a642131d6178901c0d97),
(0x0dc94ff444a12ca95180904e58802ed3d1be43d908396360e9e932e5622d257f, 0xee2a426e4da3dbf98a6d5ad79a5437ce6fdbede125e836fa697685b5989c86e2),
(0xefb2b411e66f8e8e186b0fd0c572381be9edc68a903e95f3759a11b6b6a9dc40, 0x4a7af79ca1383f2055bd080bf410f55424a21ae57b57b63cbea364866c30dbd1),
(0x2f37ff2226a0c4b877a36da67a423f59497a26ca8066a651c13573c44954599f, 0x0f9d1c912b74f663567986379de41a46683a7cb761ac6e3a86d65094d1e07a8e),
(0x63aa61b2e24fa17895688d95442844cd7e68edcd98eb34960ea071c405b46abd, 0x9423daf8b6c241f8785b76aba40803b097da461dcf6579d44308c9a5e63ac4e5),
(0x58618e2293c5237504db818734e355ae27b73f7c4469d7d9115623f4e8e20900, 0x8531be3422616853c2c095aa138819b0bccd7c511380c64c65ba2500ae18794f),
(0x61418bdd2619e7c8f32c8cc534097cc74a9a0c57a38db50bad828a60f658fc0b, 0xacec4e21774d283bdb9a8a11115d20be20cbfcd82d67b10a3d57dba774537c48),
(0x79ed2dcc0dd4bd2567dad04ab32c927339a9c59295a69b09be7965a8c779b2fd, 0x64860dc5d17e409b4feef8ea8a7d735003eec1861fa15f8bf5576a9a39f65283),
(0xa20434a4c51da2a40c7a669984f41ef467bd4de8a628fbe1385693ee6b6d8a52, 0x0e2a00a0d00aa33bb49743ae06f9c824d2fe1f7af51f7720cfb0d80094279dd1),
(0xd8c0bf47530ff603c140503e84fdf6d1ed908b98cd27136decb2c4ceda9f8c61, 0x19e02399bd898b4cb9987fb34262df3509b32cca430e7cd3aea9d20f530610aa),
(0x29f06c46a20b5387aeb6e490ef9a7bdace16fc2c8e8eb202b75973ea8dc4f3c0, 0x2220f678daae0cd68514c091a1dd7060b21c2630138b5e32e0d57d79b7b06d7c),
(0xb18aa504d9cda828e67d4f55ac51c961e9603d0cff737c1642f1c8b3fe81aeb9, 0x1f6d7e83480a9290789c016bb62e6e8cadb4b500fac710a57969bff289578ba8),
(0xe7591f42e649f9f40477c9cbbc8559e1f01eeec5e9f3a0b48d9bf51506d2044c, 0x24c8777d5e7c3f7b2c6fe0e1cd0e384545bef898aff192abc4e719d8ae466385),
(0x65992fef50a1983e0bca478b419ae25877ce7a52339ecbe92394dba38ba72081, 0x32491cbf0baa7f8a9cf21a4e57ffa85beaba7653d46d9f95b4e252127bf76781),
(0x771b52ade47d035cddbb1012bb89aa9eb774e0bcaded499886e1e358ccabf9be, 0x1a897dc8420a076c5a723f30206db0bce9760b091f6989521c4edc17f2dcb202),
(0xa7d5c532bcaa8ed66846046fd1570837111281c0795d3e5016cd81085721d644, 0x13ccc5ee4bab0d342f740ae9e538d50e900aa30cbfe99e540c69ceccf18f6aff),
(0xfb504652a55d01c800b45ed70006c71d9067026b27e9ceedc38bf6fcaee16d50, 0xa150b6faf37b0c6ece4ebbef22277b3744933fd7a135a25e5ba8f7b61a6b7d0c),
(0x6242a221115863a373bea0fd39974dea3c33b79468e040878ebd8bf30ca09f1d, 0xb806de29fe9eddde1556c09e973fa20dc4ff916a3d22504e19e33169f6f903e2),
(0x30382a2afefc711077af1a7ad8a4a4bd622635bb73e50babc58116afd1e8f3cd, 0xd7ff3c809845a620d53299ee98cf3c6c499ade9384791af5d66188663b6b74c7),
(0xb69ab57613d1527e990d747abab1582caf995b346b25ed1f0df3490c5549f36c, 0xcf896a0e4878bc0bffa3a750f83dd329ade24fa376acdba60dfdc294768e3f41),
(0x36f6c3314071ed0db2be8f45fe19be0f9b37a675a56679e80bb499259339257c, 0xd593ff7ea32103e49cbf299521ad3da15b1b44f9d6c954189c794291b1e6769e),
(0xfc3124287a9ab1b83efce7f817f707ae320dbe77e5937cd1513bbbbb90ed9995, 0x11bce5f091dd9ef842a46aee006f3a1d7cc23da7381a5f244b5a263845b2bb0e),
(0xb0de872058e1165fae1207ec05ec08885f14bab935a2fe6b1f7212f97b4913b4, 0x5bab24ac2589b8a800c5e10226a907ac391289ed023fba10b2acdb74a142b395),
(0x699828ecdb84587e31ad233dc27ce5dea8f4e03e2c450706d625e38712c0af3d, 0xdb1d9e5b9a74caf5855aef9b6b8d0c18c98c27b8ce0d8a67c6bd8467261f726b),
(0x8d133509d51edc4897830f8b3f8a66887a16834a5ea316021649e219cf899cac, 0x9d188e672940f23a39ac6ae4fa5324789c5df2d657f8b4e4eca17e025560f08e),
(0x9cd47f8ca9d3ebaad94dab3604412ac4a74a4b18bb51653810da1df39efc7582, 0xde1e5cb0fd5e7a20322636d1883b1ce971bd0565a0eb60fa559b552b34b42e1e),
(0x1fef4107648ca126d5c4fe591f190f2157274d0dd9c57fdbffe2c34835d36ddd, 0xabf8fe2087ca3febd8150e5ec66c5d07457311219b7594304465bb1455f992ab),
(0xe372b12e8d3fed929e01babb1a6517c9ecb54d3e6d0524ec42ce57f85351d32f, 0x043e910a32447627e2d9d5ef053cb9c0ab60333cb07e72d1c2c6644c83e7d8a2),
(0x37c346cdae9d76e57ba2f30fd05c33fa3e6058af642fb1c11810b4a0b97e2dd5, 0x9939c619e1e49ec2bf7167141c23e135157c7e4e949e4fccb7dac7b97d4932d0),
(0x14e337ac039f0c1d98333716a6e596ebad0d0688b815c7a0c182b54688e5c3bf, 0xfe45e34ebfb94cffa72b6312a422562c8ba782e216d5ee316425651ee67d3d22),
(0x25517b3f79da61aedd50cd1b69b1ee36fce0a44bfeb572e2e6eb4aefd751146d, 0x7d2a017db9089d139a072803dba874f0f169ea3695786e137fcd36d88b28a213),
(0x7d5957a6092fd532b9991383cae895f28554e6c783ae3bcfe72e36783475cb46, 0xfa4b9b072bc725f8e35b01b9590ec1d8f205f6c13203e91dd9d39954922d7f65),
(0x77eaf8920c4f9e0df63e33a51c088e0b323ddff56f854475b143b4583e0e2f81, 0x93d0f67d051abf50ea260593096effe67f985caaa9d68250224e7193414105f5),
(0x812c11a82851f474e5a0a175fb5275397f1c73e76a766cd87147c9c44c970ec4, 0xf9e22a19a35179de30379c37a616d226666311d94ad62b6d59fcc579cd024af8),
(0xb633f07157c5a0a37ff5f62617de24dc14b3bcd84eb43385e5a59be51c371fab, 0x93e70e4868ab5a3be29dab878a50e2c30a09edb5bf5b47d9a09ccf5953b67673),
(0x5e78caf19a2031a2d92e1ba21f43f91b10a986725d23ef951bdc1f83cbb16343, 0xb438317e9446b88e92206d81883d5f3f6497ec330d144cfc3a7dba41db53cbc1),
(0xdd082ebf88d49fed050b76df8e64d3a4a1d4bbb40fcdee50c3ad6d0da91e4ec3, 0x9efe99d2f15d46bd26d67bc5ccc122edbf5034d928bcc946e47147845edb6244),
(0x1ba1e135062c06b563db5c497ed46ee573399a56015fbfb14e080815874e6a2e, 0xf298d5df043111fb2f050cfe002a06b3c9a1fa02d409dbe80a225a3ebec2d8be),
(0x49477847a590a536e737034105380459843da9c178a1d176f2f0133d6ca214f3, 0x3d1b8f64a1d9416902baeef386b4740c4eaa84a9015e4d032bd7bfd9f5d5bad7),
(0xc4336d6a4fbc288a2c69fcc9691fc8e0e277fb98e34b7a66bf29d2d432c1339d, 0x64ca0adc72f0ff2a0f150f01ea243a51e91da8e7480e0553c7bb268a22fbd383),
(0xa510cb679970c11749e4e9d9acdb97c6d8712ca27961ca45ddc9669d09e02207, 0xafa065b146b75ee2ff7ada4fac7b863cf4937cfd15ca2ff9c0901c7dfaac88b7),
(0x7cd6334759eec80b666237b2abdd6c6fe5e24a6009305165b5bb1a042898cc7d, 0x0abf7dabf9e12893a8040b13afe165241d749660093cf2da157e2a78e89cc758),
(0xe0786f8d6f339bdc9ff474164070bc08c864d0d26d50776219c2ee8761cb7959, 0x892cfd2e62f4c352b296a508455a1dee8dcec943f5109add9d38437e87ec58c9),
(0xd81f740b0123cfd59c5ceb7347668148995ca21ca3ca1b8cb48e20db32f6b55d, 0x3af34294c83c41df7d5f821c68e71e344656be14f09d18587a2042446f74f4ff),
(0xf4ba05036ffc1812efbf3fe381423d910038eca2a67a0f4c2d0474e65db9efc0, 0xb2b3c3b44af46f2de53b1e8aadb83d594c32b6caa7113207b7993bef0dcdf78b),
(0xaa6f03ed50640e0d72fa4de7ec3964ab82e7758f5e6c16d778c18296e3b1a527, 0x322223f7ecf473a836bcfd41e50f871d715f972993df13598079458759d9767f),
(0xf2d48f6823984bd9e8e87772028da0954ca134a06b43e0d11a8843d701fd0232, 0xf0b7d9e5982d0f6f5ef74bc678ee504b6202f52e8db7c069e179d175c6f760e4),
(0x70e9ec907db146019741a4d5ba604187a7313b7b500864b5383b3763be303979, 0x63f9ef9deea1d1bfa84e0d19c8f1566560b4f1dc839aef5db6fbef7ed6dc6a4a),
(0x23cfe5f97198efd3f34f657d158f092a29748586299839279c58944b146cdf1f, 0x3b8fdd8dcd82a7574415255235de0caec39e20e5f82c7b6a2afde8f41c6afab6),
(0xb1e2b9d64c14d6674de9a6a705499cfb12b30a92b9bf7578f8fdbb55b6d414de, 0x1e91c32124341a58e2c6d65f18f3f735f9f98d2d76d124a2c694db8437cd0483),
(0x5092db9e5bde4eddf385c67f357e43a7c8fc8e09f5c07c1425bb405b7e52d1fb, 0xcbad30f3f96767f9553c9be32adbae2e1f27f9d53fbb2f99a361056cddf52858),
(0x59d39b902143ace33a1a1e54a5cd83e96cf56f654a91f524af8c8e19e25496a5, 0xbe21c89cbaaffe094f2114be72ff26a822db9a1b818d96a2bafa797a3af056a5)]

/-- secp256k1_pre_g[4736..4799], /repo/src/precomputed_ecmult.c:4778-4841 -/
def g09_2 : List (Nat × Nat) := [
(0x89cc95d8cf45bab69b3f86f79e1fa71a34fa83cd3d4dfd161c9df1b5817edc16, 0x5eff0aef63fc853a0f8b65e88a45740e6c78aade4bcfeca4c7413ad6714eef84),
(0x6c2b880979398e60087c756c443fb032f2adf5f017bf9ac644d164b7d2aeed3f, 0xbc46cb71c9ed9f46b34a22cce1332cbd4431816585407951580e4b26270f3eca),
(0x767ca583c950f7bbe3aaa6dbb6aa9867792e0b8a6930ab975c46d09c30e14a6e, 0xbb90634f871331041c7eeaa04a09887ae5946daf0e88828a68761cb621412d49),
(0xcf742ea035c4d9a640fd0686a460ab960e2015d02c15fc8f333ecb7b8af4b08d, 0x2bb94f28bd69b51ede993065fd61fbad0c65fc6290059a8bd29948da20b704e5),
(0x84d5d76aa5a6ec8452f024eab365290d9c3b6be8f33a93eab0a0ac4ee6271059, 0xf5565742f1a47a888d0bb802b002ea6e0f5acea8864e2f64fbfb1565dda51952),
(0x08f5752a8fbdc1a6201b6e0b07bd5db3cda2eafe0f18cd6d559724b956767d32, 0xd63c0fadde72b7536d0c860688e0a82b9f9e35d4b1db7be7efa9040b82298008),
(0x20578deff94e359750ee95bc61ca76dbf8fc059fe25e42c5bf887d49665d1871, 0x5fc52a36c95c6edf46bd5c3860e151b39f123e9bc58b2079cd165c1de6f33d3c),
(0x30f2b825739fdf4c5af0ca0847f50323d3ad6eb0413b052e525f837c38f97a4e, 0xd698b0764417357ca49b43067d73206fd3d9703626ab15d4f11c56bf4bc820ff),
(0x2350eca0b4d0c460012024be6d458444b37b20cb50042830182b5e41d564e26b, 0x5909eee2e3999d604cbe08325801200130a344c5f72ff12735e66cdd904623d7),
(0xea660cfc45971e57852d382a0ae8cc6b1887fe68dc1b84bf031f440989f89b2d, 0x52297e86dfec0730081a280f9451623f9e69c3206f3c205af07e56a254cd5837),
(0x9cded4502a7da3bb77e06ae3ef3989547687d21edf522f3acb6b4fd9d3d49beb, 0x7b13f45535a49049277abc3403cc6f0a336242e87b69815ae27122e10d7838a8),
(0xac8705f2cf8dcd77d409a962f98a6abf198dd2383a5eb2586b0d2def81daa172, 0x892fa835a0af6cf9dd5bf15844b22cf82af258c0519955dcee4966c7bd5e995c),
(0xfa026b1bd5e5fe3cd6b144bc6b22f7e75512ca6c09525f62fc7fb4eabcd2282c, 0x4ec40de57ffc1768edb20caed3a11380fcc32f45f410ad9b8b674d956614aad0),
(0xa928eb7328285c795717dc0bccb5280f92f9a4be5a0b0ed767e58eaa8b9097db, 0xaf57cb6661a9d08f4d4e9e25aeeea2dde4c887670c4e177b37a87ba4c2bb772e),
(0xbfc9197f080fded30c601a0f1c8c1d770cbccaab1c8357ee4fb67875cbbc8261, 0x06a721e0241ef43669cd386bd07fa2e8900527ebec3c002524bb457e1bc7aa28),
(0xae0de043b332bb4f9139587004f3a41f65e0f3d9ff77c1d5ec3add496087d5db, 0x34d697f5dbef1bdbf581127d0bcd2755a5a6b32d73164665ef84f6bc145c2afd),
(0x4433db7329d75b3f7df0e229538b7a33e41183ad7a7a5e3eccf5863d6bbb692c, 0x03a666300a03ab859f23ae3ca0a38717d82ac240d271b3a6ccde1407d0dfdfa1),
(0xbc7380bb128a6f8a5cdb971c31ad12e2ba593acf718f5468285b7f1469ca2b90, 0xa17af5189a7b0445cb37e797a281c84f8cf8ecafc661e6014ecc246718f1d8e4),
(0xbb53297b18d2d785a475643770b387d30ab0fe628b78c09fbb6cc22679bc92ab, 0x5c34b9b70cfb3737bb515ee8fcff85921fe8f30ce97d21b747a4b08422b0c811),
(0x1accc1c3f46945d57b46b1fa15291ae42f0a616fdf23f1c33f0dcf9753851fb6, 0xbb434ef5e30fb9fc15e99b15b5f9d7669681be30d2b0a6f5a4946268158d5369),
(0x2fd61a9ab99c588dfbe74fdee8ce95cd1c0ee9a60da7ae59910485bb9a3ed9c6, 0x2c214840e2bd764f74f9db8143ddd5493d322dd2b25790a8a681c97e2fda07c3),
(0x4bfd09f14cb492a57b9ef3cad245a0abc4bd97ef12bf72048ecfee47660f7161, 0x57102f3aecc42742657032bdaa36526ce67f25892775fdb7e8b029d81cc7ec9c),
(0xf60eb13a8e6485eafe653e74de1c13762df7ba0d4ff0c65f24bb1c0d74cea3fe, 0xc58300785b74cc8280128896f275fca49be94edc744f8535128ba7a05c1d9552),
(0x2b4c78649f568eb1ce1be63daaaba4e97c31349faa3533716e9123f64c57b041, 0xb5dc9c1ab39325f93ead6f3566c304795f817ca1b3c37258554c4fb251a0ca39),
(0x7fb057e85f559f11b5d415386a25a77aaeb904c5d1be33ccbece20ad57715ac4, 0x2352db616fad3f10a2decdef5a7fc3695c8462b37d2d5ae8bde17311ac6b4ad3),
(0xa49bc870bfd62cf11dd1bd239499157d247ac61aa9b3421065d4d02956f71a0a, 0x0b63970988ffd1aeed1b62b183ba629ef5f0c0880f8a9016d7fa915746642e3b),
(0x030b1f21f8dd3f40697878a9fa0b9fbed51c1ddd0165bd5fed9d1fd649ae913f, 0xd5a551644628de3625895fa10471e0f577326d14132d8ffa37e0277d0a928532),
(0x8a0157688aefcd7d13cb3b98373a8823aad11a4e718a6ea85fdb8a9a6edfd879, 0xe7d929094d198910044c00be69f267f384aca1db642648d834a5b9fe518e1363),
(0x810ee87e45d8a5eec0e3fd0acb771d2a5a3116bef4dd7d5fbfac0dd9fe072778, 0x92abfc249500ba0a9cfa1725da4c37b6cf081f5cc6cb6a8a3af889abddd2b7f1),
(0xa0eaaed7687f6a94398656fb3fb15f496522c3dcc19e04b4598ac4a56408d1d9, 0x792a67cd677ae878eae040e16378cc369583b513bca68fa1cca3cbdc37aa61d5),
(0xca438737ffa6f30d9aa695fb3d29db01f805f480ddf1b2273a0515b95f8eba97, 0x56238731ff5314f4af6a3835b30ae83d0feaf0dbdd4449e05736efba8a8cd51b),
(0xb252f5e54b67554cba3d481d66a2f223a633b5e7f335e35729928264e744279c, 0xc62967305007e2c93fbdb25da33a9fa7411218c287b937c5dfcf8f45472533a0),
(0xf61b57a2237befe82f1545cb131acb033015a5eef0cb77d8c73add0dec0083f7, 0x9b1e0c93b326a265eabf096ff8eedfd59f765b515007c5ccd0d3b5690838f381),
(0x30df434c1051cc434ca356713957f964af40683038ce82a95cdf2c7b55c50f7c, 0x883bc89bf54c490b3be0d43400fffb6b7e829be155280401eaf44bee7c445424),
(0xfd0ab148727eb712adee1fe34e3d0fe499bf8307fbe18e4ed20d5236f7ac25e7, 0xf5f38f32df094903b3219b028413cfc0e56b8ed56ad80e5baaa00f4e3877377c),
(0xb4a8fcf2b406becb6111c030ae375f12079de1757f2f3b9013e7ac5512de747f, 0xd163403959a6600afa05b1cc3c459fa4f1a5fd4c27ee5382c5f01e4da0259889),
(0xa6c10f0b33d1518c8f8b7055b139aa84c96e99988e8a256c5883bb4410687c72, 0x8f0dfa52ccaec6c6789941f3cab90b554d4f587fbb6f3354b5f7158c758e4f9b),
(0x7188fb46e244a5a26e38cf13bf2e3c4aff5bdcdf8d9f78ae88213692d866f5c9, 0x8cb07d12ec7435403be09b194cfb2f1fc4a85d27d940cad115ab53ea4b8e0d88),
(0xfe4f9f00308670fc48e452084063fa94a6cf7141d75a6ef74f92b4745bf692ea, 0x5dc45ab477f805944355698be95bc582efea563a970217e52bd28eded7e8cbdd),
(0x93f3b5df4300618347c7bc143eb046a3842614ad78d3cfc90a6b665e3327b7cd, 0xffe5f3787ac36947d635d1567a28fa5d45c0b5e170508cc27fd621b447b63b53),
(0xdd350a89e0c3128b54a3955cbf802ff73a56576039e1e068e783ad0036c13604, 0x45cdb50803c33c35fcdbb29aefddcc63c4cf3fe70c08a15d8b2cd4aedec2c3e9),
(0x4f16480117c1d3387738b72896442b9d66f44eece3eeb7ffffa87d244226e44f, 0x750e6348490d0ecd3be073035a8e653c1b1f7c30d89e27dd4efedc9d755b89ee),
(0xb7c62749aaf79754de281314acb4b2f0271f2a35fd18730720349a3ca4b577a3, 0xf100956eddc307db056542c1d2c8f1760e0636bab04877cf3dad451dedcb0df4),
(0xfa5c12781dd929a02ae4755c70531cd60c30926136ef51ed7d57c117c1c8a885, 0x57c5280a5f08f0c9393aab6feba0ae81a32f8c6e2a76c780a871170ae37856f4),
(0xe16d6dee07830b0d0e6cc5e49b1cfb7b050b7d8957fa4e6c42ce99252e6a29b6, 0xcd5955da4c1ba8400a3c98d17dea8d8cf4a3d2c01e0cf1642cdc35ee87fea835),
(0xa2c659f0a0ef6147ba84ff26ca81443cac8ba9bef6fb32f950653384a5db0213, 0x5176a4b188b5bbef3680e875437e4209d2fd2462077c5f8404a0eaf5e9d8c129),
(0x7d50717906a7c03777fcf84e62e6eac5456f88fe76e7130176fe458c8f301a68, 0x14018264059d3f626788fba31505c83a0416167421dbc2a90dc14e1af45a50a8),
(0x642721c920d9b3e672db8d8234ad60f4bc74684f11f2ef1a8171d02eb9eb1f12, 0xfdde8b988aac7393be2366b506e853c7b72034fb2cb176ee770063dc42b63d48),
(0x65fc35bd2f604eae48a1b68e1d66cac3627b1498247d8376470827020293c97d, 0xd01018e485dba40217ac631a9b88d240de32ac7479c7d47a9f5d9188f8ac01d7),
(0x65c8b2302e51129ab81de5f522217f06f5d5360faf191c568f395a332b04375a, 0x3201b7ec117fceb2b225f137877ef4812be4d6b452d1c855f73adb0fe99b2943),
(0xb82aa6a2086fb19ad2eeaac89019782bd0d6009a8fa07a020a0d6295ea8637f0, 0x426f8d72ec1b08d2726715661f77f470f334e4fd3370d96fb0acca8f2df99398),
(0xa3222e7a0c6c27f28b24b33dac78d8731ce060dcbe055100862e71dce6671a18, 0x6f2c2a1c4b80534f8ea5377771760fb65148d47eca097fd2b7bb2f53bb07ce22),
(0x281ffed748a4022bc663d08b5681733df1343818d68c8b639f4405dbad7020e2, 0xb5f18609d8e5c6e7990808ecb4fa7d2d7d4cd106b7ad2c6ae356f2399a535eea),
(0xc520ea8ba481c220bab0f21872ccfcd5d7014d8cfe55d1ef743af305c0277d5e, 0xe23eaf3433e4369f30d371d6e396b0dca065506ac4159967fec4475c8f6bf78b),
(0x54d39ed1114ec02d8005d7a08217817578f827c21b55a95f330a7af934727958, 0x4aecf190229c49c931862a579131aeed5518cda94695e8ac7ebf7667d9afb23e),
(0x756b9bf01da8d7f61627cb2c0b3ce3ba0a9b6450c2d24596feae8bd12ef67a23, 0x51c47b15b2ac96c35d7b7dc2d8c57ee969b347ffdadb04e9cbfd6889a0ef70b7),
(0xeef2214506ff200fddced960f422588e333a437ed68c04ca9758d77ea938ac54, 0x21587cf58b8ffb726d29aed23c984a4f25df40b0abc9b7cf02c07436ab7e09e2),
(0xb841b5600c0af44a35bc93203c05cb32250fcca30f83dafe30d1dbe6061aa3d1, 0xe79565253d07a89b2335e2ce9e11fb8996e2c146271189b3461cf9442ceee2d7),
(0x14b98f625849b79848f32547efccc33c3ead6cd1a290f03e618acc2c1ce065e1, 0x4e7a2415805a4486476221f1ce8234e65b81ee60e1ce5eb6b6a2e041ac885e00),
(0xfb0aafb768c19f6417e417b6f1c22dfc0737bc74fe8b23e74dc1c1c9aad7ae44, 0x88b83e230631c58dc3729cf554343721e9ec7dc4a889b85e31cb302ff2a6ab3b),
(0x885497abe34d1745a3e2ff8b0bdea904eeacf100324540c686de137a9756468f, 0x63f3f160bd266c3a7c49b13fc5b06403d0614b7917c49824bf5072572ac0b948),
(0x52dc7bd7017e4d8e8b634439f6f06b8f7121a0e0cfebe7a83031668b9832b8b3, 0x906793739bbce1e35c48f41e942d9f159161e9ab273a2217d9e857c43bdd0a5c),
(0xe6ed2c69a8bd7af335591f4e4dfba7acd82e87eee2b3bd28f0f87f023abaa7c0, 0xdfec611807396bd5e32ba2e7a8fc912f1e54e0786f2ee22235adcd2208feca28),
(0x9e2171a2c10251291757e26fba979e5d6b68c2b4975c72892afe7898cafc46eb, 0x3dd062bd210bfc4dd30cf01c51d810b5cf1b8ee3d3baf4906bf5d381b87c9a56)]

/-- secp256k1_pre_g[4800..4863], /repo/src/precomputed_ecmult.c:4842-4905 -/
def g09_3 : List (Nat × Nat) := [
(0xef4b86483bf209f3b1c2e166a32cda3944b21282db8acb946ef6212263bc44cb, 0x903d1088ccc0ba47b5ac325233ef9b55924e61ba7ca80bd81925b2693998920b),
(0x64ec6d147ecb6e446331907bb9006b2bfa4fb85420ab9abaf1026bc34ccdc4b5, 0x0583cad3b41bbfecd0817207dd312cdc026c0411b888ce5c0c6ee025baafac63),
(0x128cb9de125429dde5b9b33cef9f34a30e7b38baf22dbcdf8e1698943f7ae5a9, 0xa10a01dd33f5a4eb66091348c4dbd90d62879ff67559229ae53c28968fb4584b),
(0xa7d2e7dbca0890eee07c4bbb399a0120e71fc284c5b7c96b4889fbb6db95dbbe, 0xb8caef70404a19dc15670caeb19d5b74e70b749250390b125f559b11feda83de),
(0x298b17c0b8beadff5e6eafb80ad7d7568e961468d8e12c9478ff3870dc722450, 0xa0542f35c7b95774b1c10f753e9da029ec7a54a697bcd9fb46c98d2691ac1a43),
(0x31a39bcda3d10e9f06b46e1ec30b41aa557ba6649b12db64a13557d75c592d1d, 0x0814f1a6015382d4e57b8d41351fd782ce7dd9d786aa9bbbc5b1ca7c207ab12a),
(0x3317f1a81afa54f6ffa6df13bd3f818de9a29bed7c119b6dfa31560d31d81cfd, 0xaa8eb7464e9acaea19a42509a23a281ce99177886d3de97704398c578867e095),
(0x8551185780eab56a274cad22966ca54703027d3c3cdd7e257d8ed8cda5c6ef30, 0xb13de0f445d71bd7db0327eb15438e9e84fefc1a464d8a2bbcb8c6b9f59f93dd),
(0x0fdbffe57e378262c32bc4b1e84ae01ea2d6dd7628e10b049adf6a3eef106e83, 0xf19d0c4f1411ba5035d3ef23153f306fd40b22c669e92ea922bd7d5f083a98ad),
(0x7562779e6aae0c5152acc7ee43bed76c831ba00882d89c9ce29a5f3b8855b3c8, 0xc83c16627cb9e1d9126e07b3354b82a8a0cd49eb3936c14a8d8d64ed2a4e217e),
(0x130b292c10d5b3364635d43afb6d6e020d5acec2c2033525ed72c030e82a4a08, 0xd534b710e12012766f6fce50ed6efec73e0c3e7550e0bf36d5d625b54855fed5),
(0x19fecb77bcfc0db3e595fe22e96f1212b3ed032d183be5e0ed4c1b8bd0501bb3, 0x6b0fafde2f0636e72b4ea946a0e5c27e4e5dfb5fe8b8a1d1b36bdee575d02e81),
(0xffc668c79c6f9fd2f5c56104aac1286fcd4a390dca586af2c348458fb4130f77, 0x0fd7b748d15f10b64eaf494634fb4ddc439919a11155e40f24f3eb2f482445f4),
(0xb9797c7bd4112aa48abbc827fae12fd96d19f3c781626e215c26ddcd0b2d4552, 0xddb0aa813113288f1fd2505bd23f2a9ba1ba0a38dcbbfbcb46da78bc5c705327),
(0x9388c9f65bda9c8162ec04ec5345ff80da4afe347281f7684d8daa1ccc3d7869, 0x23ef51403f926d0ad2ebbe6e48858850aa98149c89490e9965dafeb3c82644fb),
(0x044cf8646c2d2f30e62f63fd8e14578680c1d5b8a27fd496a8e34bab05f88270, 0x9784e329a434b442fef9af66b23ea917edc0f6ca8d28a992bf6944ff26c5cd25),
(0xebe08589930001bdecb83ca445c4a9fbfd61b22960ba98482e0fd5201af5a0a9, 0xce2d31fe3c27104824ed891a910e2cd22b99b39b480ad812a5d6860f71ec817d),
(0x176d14f25491c2f1c1d4fc87a8f59aeff560bbd941872f6f2a1a6adc7620f1d7, 0x42c1e0f38a3379b0c5de8a0111b846b435db77830caa9b848084a985f0e123a4),
(0x74e96d3a972baa6f8ad6876c9494f451a12adecb681c4d5557eb58a6de920fc0, 0xc2cd92a900994ad5f4700561e8b5720196e61a5eb4cb4a5566959bf135a07f83),
(0x6751dff85079fa457f5df468624c4a85db970586889cd80fd4514bbe8de42d60, 0x7cc20505deeb3f913d78a265cb301c6849cd5a53dc029af5c0db1876762ba3b0),
(0xf9c6305624d8cffdabce64ac65dd3a09ebd344a55404d08fb4140a4d8489628d, 0x49ad5449bf1b6def74283afd2f315f773de82cdad4c9de217995a2ffc44e934e),
(0x69e8c4f73f757235d0e4f39af2595cdef7ff4d20dd2d45c978f32d19921b6672, 0x8ffc35fd8a6d541b3f7135f5643efb0014f275ba0d929671df6107486f763f55),
(0x3d03e571ed2aa88a3309f014caddfd6426ae84a2a526fe35f30ceb8a4e645e22, 0xdb95c7446bf115d94af9074a6b274725adbcbfa677f9ce48535003addd37bc6a),
(0xe5b764c3dc73619e051a2afafb2292addb2b7b0de12b46b7f14b66cef8aea7bc, 0x41fbe1bf41838b6e9a57fcbcb3e2e3c86017012229a5ffe17394139f5e8edf2c),
(0xadabcca6b42528497659646236b17b0f9d1b4e9d279af84ac02f556ce0f4c385, 0x07d129599b411665dd23b67657229f84ae46773ae13284ab1cb608d2ccedafd5),
(0x963094f77ea2a7d03115e20145dc6f6a7318f8b9a55ab0158096db5448e341e7, 0x36bb26ce3852ba30dcb1a8eeec834f4dd5342ab9f7bbe85d7addce0762cb22aa),
(0x30ca6324b4f34e1a4c3dbe4fd6dc6b13a8ebcb352f632fc15725bff5f260c508, 0x5c04aa158dae72053bb608db1b9245cffc57c10fd015e80f7afc7532632eaaea),
(0x8356d1c455479df3adbca347fdb73f896027471be528da9ad9e6a9688dfba744, 0xc325c86ccd6039538f610b0321b6147a371314cd2c41df91745e579d8564a177),
(0x996ca7b04ae2dde7b5ee87d8c077bf979a63ce83cfb84349c7d231b31e15bfd7, 0xcd1d1b48d75f973668b911018ade913c19a1d78565adcf716c805863fa6c1f17),
(0x8a15dbd35cc16f77b22a87b44f93e5e5810f050356e47d5395769128a2047738, 0x0cf96df19ecb6da43895641e4fbd4f27f00f58cecd34d38de258fa78410a1f7f),
(0x23c1e11cbe9f6a936c5f8abb6cc501a1ca38b03e0f00b31a79057156f382ad7c, 0x1d9967829f7099512c9728ac068c16db1889bcbb7df432b7f430ebe656b1e050),
(0xd937ad8770737b1fd52bfb7f86e207f19e4bed5a43b165fc981685e624b8e84c, 0x202913d61eb467fcb488fffe5914f85373aaac2001acde09ef975cc8a05fd181),
(0x6457f59b2c744ca789537c596485abe97835368b47de36674740ecff72e5596d, 0x30b6ffac65e34e8843681e64f041870bc85b3b5c86c032b1e290848dad2f7a5f),
(0x7101d56d813abe1fc50aa99abc7b23639532d79dfacc17c9f2a5b4ff50edf82e, 0x62a0b9d2bcab5b189075f6f0e648a4f6fa66741c389a4196a4c5ead7cbef14d8),
(0x2dd4cb3e5cb59cbeb961af3fd1154fbfc21916f1d5331ce4c8a32ad68f7ad818, 0x397dde687b1f6b5d38e457ae2f5fb33274917949801151e503d4fe199a34289a),
(0x509c6fccae22b09db8f3d191434e584c9d17dc76c268560f2290d81d53ed66dc, 0xcbf69e20c3f9ada341e32dfc0581f0baf015413d735d33a6260e0cfa7a4e4d05),
(0x71babe5a9458bf5e112b23a53f87007b66ddd72132a45a342a9c521ac2029aae, 0x055ac872a0275be64f569901d84dca32ea13e2c6cbe608acde22818534e031a3),
(0xf5f2144a46fe975f82b91da30a98ebcb6d5769a34e5fc50f3ca640fa152fa7fd, 0x2fc05c222b20b8955503f23e627558b0e023988df02993f8f495750ddb6344fe),
(0xd6f274fa0fdfcf6425972a56640e53b815c4d2138e4a72a0b8ab33942955e416, 0x738e267b002fe0d95774afdc7c4f559b7bfe2824ea6b7a49d3220eb0460ca733),
(0x81a12fcfcc6acf7b089f30fc8f61e2cd7882f664559239932b8d3f9b1d6e11e7, 0xa8dbc6c1cdca67b064b285c4e2f69242cf55f06c5eb28868d9bab656eaf9116a),
(0x57019cc40941f6f59ed3430592f35a8339a495eefb3e311afcef9001cb8123be, 0xa3d632f254083f5d6f2857b69556205f595789089d8d8fd24d10bf1ae6d2e635),
(0x4205a71f504362cd576c4d84c8b652523d4227fbd6aa28a7e7fc3d70d1387c80, 0x781bfe557fecdfffc54d1c1fe147792c5ea7a1dd7224954ee110cc6e18ab452b),
(0x1c42ad3df90472e9e5c041da52476ea0896a2032ccff22a8fd7bbab14c3961f3, 0xa5072a70be702daef9f931484bdfaa001e2f2ad67d79f46b0571714717c5499c),
(0x6c9225cb668ecf251f7862ad999516c0145faa37b4fe92eb561104f8f1dc2997, 0x8c12c1a1e372baa14e9b1443d3530548d7d1d05b0fa354c7f47ecab323993a31),
(0x72a0fd2deced2a056885dc81fb61e881b09104f38650a87244e40471ed189992, 0xd9c6749043bb493d9aea4a1b3a50da8ae1c485239a48044232406d2a68487e6e),
(0xb1d531af8faa24b569945ec81448915ba46fd13af7fecb8e16cd5d0352c6c2ab, 0xb3ba6cf40bd36bee66deba0935bb85e0b9ff7e625b5c793b543a091bdc83292b),
(0xda79daead6ea65e14e8747b8b4546560a9e5a99eeb572f17f2ebcf3f9a307a86, 0xf5b3c430e0f2d4aa2f2780882d683c48d84f926f6feea88b10e069306567a290),
(0x1fe7fb5c99a69a75a2276ca892f67da4951bbb4fee4df8b4a54c9833d0d33869, 0xe2b2b4c60fe0f63fd97fa1790331e9bb55786006f0425e9871452aa8361f177a),
(0xfcdb7de94eacf36a9d662371edd2b535af33de371985ff496ce5293b9d2ac00a, 0xe332723c7a9708e85172e56ac4291760baa17e8372c98dbe83a186de77c2aa06),
(0xdaeaa6cb19bdb4b778077495a9cead0303be16d297e742c697ac18ede5b514c6, 0x4545ca53bde3c1ff6bf326040ef037da931342157057ab10cf6af451e7753f4c),
(0x83e4b4c91a923321196fffb9b45d089e7fa1f6b05ff45a6fd099f7ecfe283088, 0x926c28ccbf405fb117c5f168202162264c89cda2cf6699372739ea05279325d5),
(0xcd7f2b538363914b2e83f1e10c9bced932a682facd72b46aeda578c0640089bc, 0xddf6dc270a5281d3b4d66af68fc80f5b16cbb7b6ebfff06c6902d38d4632ed2e),
(0x6f3f5a27b19dbfc0238bccc8a9adcf95adef6480fd4ca405454509b297a40928, 0x36a56db2abf62faab2255d86d8a46aec361fd2a865740c310babb2e2c551a85e),
(0xf7aa5c92a523b86bc27cf71451f7dcecfa18ef3a9e839c41a8b20c4e30ba3b77, 0xfa7d3ce98009f23df5eae927acf1b28d5ce4a2f88a92da7dfcc1acb13c8cadc5),
(0x4adaaf955bfa6a94b518f7f5b0ebbdca493798f672293e4b36d5fdfd5f641b89, 0xce675ffacff579c061e63c2f36e77f3d5c2571b3aa99d3c274086b22a862577c),
(0x2d737aac3600371cf6b638e88a29884c0978b783cb843922bd449e95814db692, 0x205d944f13b2144176d8276d74da68e5142aac9fba63256879753c010e54cf4f),
(0x7cb5d36510ef241d0ac378fcebad8738e8f2e6ad6d838731e5c82bb9169d51d4, 0x33b088df5a572e8e1010886ad01b68f19f34577081a465ba8c5c784f225f6510),
(0x9872a376e530e25408b623b6b9dbd6d4d123f2f730579f474d9108317c714c0c, 0x3de01ddb3145d81e6ac002ec70086f746eb2bdee6295f5fd9d2cf8b61b222e58),
(0x8242fc8b2e848618ba0f26c26acac0908eb21b4f41a08b76beb35f853b8c2f33, 0x58b94d443379ea4f829fc809ce2632cd78d8675e45a29c58e29fda430785f2e9),
(0x88800a95cf1682df4e5bcde3a96de21c3353751c5300dfa0d0f802d67b60eeeb, 0x2a35b86a4e213e9ec53dfe04d91afb4825bc8794a1574ac4053e81ff4b6e453f),
(0x3c8e27559611937cb7e2b2cf8a87fa5ae5c696dffc6703b7e1e65ac9111ad87c, 0xc54d129abe0c774ddd415707bfabafdbdaedd1bb2ea9cff3bcfae0e4055c916e),
(0x281af73ea1f092c5535557f93b5a8c94054165f876650801856bf92619f06cb8, 0xdeaa849530951f12ea1577143caab5fdd30f0dceac9b80bcfcdb3477dc01ea1c),
(0x06b353e53202f63c069bce9630535f11001939fa0849dedb92ad21c489f5174d, 0xbd961eedc16f285f2eccfa69d37a6d63be5fad004858c80e6fc4dfb42717acc4),
(0x68c184f1a06685defd20f36c082b54467446d5d98fc9c3124852bb02f35ed91d, 0x486a3d167d94c66a31f9e1341652f65876d49379f3e3429fe9f2da3084f56532)]

/-- secp256k1_pre_g[4864..4927], /repo/src/precomputed_ecmult.c:4906-4969 -/
def g09_4 : List (Nat × Nat) := [
(0x5e884531fa0115763d36e1ad74b22e23f765db148b8e965c80f7c9bb7d561bf0, 0x034c4f03b137b6273fbdb6e48ac09ef9bc3c8ccce720853c61ae58daee3a0cca),
(0x10c13f0f313e5ad8ea61ba5fed509aef5ddd3016c3339eecffc8f9d86f131118, 0x28f6ad5b324e44ae64ee65c1b86710a2091a8e71c33adbcfa84f18fb144dd67c),
(0xaa99d8b31031d4e98c078a687254968a9141c710cd8e48425a384bf8414f5c5f, 0xee6eccfc01dbdd5ac9080cc1ffedbc6e64fcf8470ab9c0cefa91c4fed1de44bb),
(0xf087945da464e66c4c73b58c5034f057b96ebe34f5128397cfadd7be22ac6100, 0xc5485411d78fb3953f22910945aac3541a2b2acd1d95c38af51f36dcd3cd92b2),
(0x2e4d8752ac21c22f0e4d465e3d2f5ad8d9168080b2b44930e5de75a0d9bf91ad, 0x92f394c5963c0817500d5a982eccdeacaa55043e27a9a0351a6ce245a8d048bc),
(0x68b5975544feb60815a6ae709c2647b15c7fe073aa6af8e6202b978283daffac, 0xb3745e92fd86bfefab9d3d26cdaf57c12a329889cf646b6fd6cf869a0f727e0c),
(0x15f5f668e9576897a287f131bcbe121684f7a1083c28c09aafa7707463dba49b, 0x133e33fe9bf06bb03b8149387a099da477a3e75882fb19a4463ab360bfbc368f),
(0xf2bf3cc8ea752c11db2ff594d3f9b0851dc9dff57999aa39b5af2a2930d50491, 0x6e01a801c5b7e4a0a16af1ffb011bc12cb0483dc6127fe52c992b07a9fd77635),
(0x1b04817f46dae06c120f80880b3cd09e267d4ed2db14881bbc32b5d6345dc54e, 0x31634e2856f61b8056a414e394a34ced200bb172e9a9aa076a22432961f55ecb),
(0x693f066a0bca2046ffb860f65e769ca23d1f46a36c09273dafe5eb89d2da45c5, 0x719dd7495c1b1938a92af84deef309e6ff1978b79adadb96c58caf2b0625fff9),
(0x3fb25a02bb232d18c798f688b16193aecb2eb9f5e124c999225f072063417008, 0x90db4fbefdbf8a26ff9b4afd355e3771c7c9589168e2abea264aba44ad74707c),
(0x4c878f4e6ebfed8ee12a0a6d17298b7079d9de5c6a7b53595ddefe4cdb82a79c, 0x837592e6927938cfdc82252b2cbfd9f6cbff1950405b4511f2c21fdfa3f72715),
(0x5ccaf6f42b75e15249263cb95fdb34a8770e882898a1a0cf5407c48bb9ad4ba0, 0x70851419379e5e2fdca9613aa9f92fd38ad8904ee0ce0048b25109430ba8ee24),
(0x455907ae713d1ec93792d4887d9857bfa02bc2ceabd2c599cf576f09f7d09d11, 0x1fc9ee5b90a039f8eb3200e20ee580223f0cc69960221d6786f0debaf13ca6b9),
(0x6f7acd2b3683482fc2c2d55beb62a89a37578a34417bcabfba7c56b7bec14f0b, 0x6049db59b6210e55b06401d617247d9164e84e2cb8de91a4d4998c156f46d621),
(0x100f00d4eee4ccf5ea2558bf92bec83b223fa214ad692ae3b0a2ac93c546d558, 0xfe055fdc1ae025521557db5b96a62c92556f918cca90870846ffa1bc8192b65e),
(0x8650c359664c9f15935dd776bc6fbcc8d9cb02d4c22428e2aee3e3cc6e9d0c6f, 0x89dba800919866cc8c16895f785fc9cf2661f78a9e065472652b71ced5ec8732),
(0x22b6df12b3932756713e2ee82d296c645d10364ecca1ff949b477fa49a2ce5ac, 0xac58a22f42769cf1e2e23308b3b5f1394d3293234bbd60534817ab5c624e995b),
(0xce87a23a1554ae1b9579ae96863128cb926a0ccee51f17db75155607754b5992, 0x4bb953b89d590216e326f23e66768c0d176262626fecf80f97435b50d5dbd503),
(0xe3ae636529e3fe6bcd1c89dad72b17d48bf05c1bc487ad41d3b97838a2cbc19c, 0x4634e222316b6ee6c7616cfdcddaee077fb2cd0d26dd9f8109d0ba43313b3f4a),
(0x2825cc593a0678fbe0d37d42df72037b6be96e9818c52c49fd426d75324bd620, 0xea0079c92ef91a7cdc5873437b454763f2fd4adf561cd0238379c8cb1d281f6e),
(0xa6b2a170fb23ae2f943408ef60fcb1450106735c088762385d0fdd9b075a2c46, 0x1ab400910e00001260837529058e31345f260890d1bf6930ddccedb1dce20255),
(0x99a36f38759f0a70d719e3d5b741a40fdaef1ad2bcc652933992f13439ff339f, 0xa36d4b07a725805361430332006be79a61ce8eb697944c6d8bbf433ba565bb66),
(0x0e511e0ade5a9be101b8513ea57062586de09e2be2df739fd647fd337890d36e, 0xc6cc03ede9e50830bd5579c59d6db693dfa5c057b1c214dae40648049cd7ed70),
(0xbc9de66da406288ca8a94e965ca16dfd379608c263222a24e3fc111620a82125, 0xac471a7e579cfeaafdfdb5ff09cccd4edca4202b1b0149abba9f6c09aa219626),
(0xe98cd505bd593bc1496b1203436f6038ebe3fa4f361ce4a654315402a74c3a4c, 0x1350c1971c7979ca7464c4d239b24a55a1e50812aaf92479d566fffc9135d977),
(0x47c0c7882490ca5337cc668c5a549bdedac661ccf77534edd11f7ddc9e0f37ac, 0xece10949be12226326819032a2d952c3060b27e27e527673e8fcef08a8f27685),
(0xe8224d6535ea98a5e3fd88337bd167cc776f89ee7d0ccfdc46a15fed93bee5e3, 0x44b260e0e0b1e1e9383041cb1dd985e722edb214ae58f784f174ba84ef51c59e),
(0xc195ee355880dd7767e01659ecaf07b4571e324bb8a1a4fb75265af23ea74709, 0x95c39ceff781f53f31bde05bd02893134e478b2d1c55e741aef8035a2ecd4226),
(0x60d989b9c9cccc66139bbfede2902a95fb9ca9a86c2e863f21eceb4a7d73c4bb, 0x8295928aa48ec1fb775ea29d9da1ceab47e82f3f1e6ef7fbc7505e2692bb51d8),
(0xa33b33f69db29609008cfd34caefd3e8c3c0d863ab695b06b47d102ef827fe62, 0x669d9d96842ee8092cc31cfebaab0f1f4007c3e9e7e41be37a08d2211c6bc905),
(0xbd25afead9b8c833fe332a2aa9f3b627d83281528fe1422c5da901634b971584, 0x35bb66e735326f6763f4f38ac18f841226da97dac9e66902f28904eb0b49cd78),
(0x4d7e208a4264b565d8563cd780773012581e8688a62921f2d6a334c325625279, 0x6729dd4fb45ecd252c5cb033dcb2f520dc928ca571026fddb42943e8b5da9988),
(0x5dd46f97fc740db3ec56348ded73fbbbc440e3f3033c64a3a37b7a737f0e987d, 0x7e2d9ee69e1c07a40b764cacaef3d780e2d432882863f76e35ff4cc6832ede1a),
(0x4631992dd72c02d22073222ad35917f92770198bad13a8478d3c9ca06ac91a3f, 0xe28ce87b035a69d5c43b685ae59d5f9dccf187bb62517a9290992b3986d9e1eb),
(0x9153ad3232177422e03b6739d56542097fe04d2228b1e873f02e990f8936d1e3, 0x8eb9f3c6b54726b0b4e867e05ab2fbcae76d2e20ce07983d6edbd5feebd0cc8d),
(0x939a734928fd798b5036e2e960360387b9c080a8982d453078415667848c2eff, 0x30d2a2d95890d0237d117cde2eb3c532e419770a8783a7dcdfe40674709776f1),
(0x8e67bb2909f11e01b50be7fcbee1f73a5b335f5e5ece86199a514156dc243f3f, 0x7fd0cb92d6f9cd8fbee9d337090a4492b8a7fa02a0914c481f8becf5d9a9d7da),
(0xa2cab3c2537d8fecb2f891a81da2f523de4f869d3c8128060855013c73485ab2, 0x0765d058c681af5336ccbc8e088d2391b4894b18154413424c4e73ac1a8e0d71),
(0x9b39be40976c13c2faad320b9338f985b07181230d2fb543b65473a53bc2fce0, 0x10f8234d455fa7dfd09d76ee4103551509b560db7b92988ea42f9e9cf7baabeb),
(0x350115306f2975be073e76856456c94d700e9b1c4685639e4f60efd69e513692, 0x5992efac9dcc0a58ac6e00e354e445827e2d66c7248e4b86f8c216fea9e44270),
(0xdf5a5b75d96ddb939a341f5807e1f9973cb9e799b04ccdfb9907b57a7b005d1f, 0x3fd070b98d7590438a53c302b7ac0dbf594094ad7101d5001cd5d687e80066f0),
(0x91f14edaa0db844110fa531eeac54762d52ca420bb8723276b383587d40fa761, 0x86cbd213358d1f70c3f6ac7e913daf0a47a80f8cbd72445d0fcbef37d0d71e69),
(0x53ddba06468533119fe9571915a9efe0bc7fcf8059d638e0be6c1aa4c5f21ffb, 0xe59de2f605e583ab5ac86c77fc29830170a18b68a1979074c21c0d8e4a562567),
(0x565994624ad07c160607afcd76e86218b15b50b69df84695e60a15f03d7bcc49, 0xc6d36636ef58556f9b688db0eecb6bd405a7b30ea974873268be57d8542c966a),
(0x76fd5413fdee9cb97f92fefa5efa27e909aab744e1e15029241e35bc743307a3, 0xbb23f4259aeb64e308ae82c3b4691bf93b4a719ea8ce076bd0345a2fd02a6d05),
(0x511ff1592127502d7499b9887a3b3bd60124251858bb62e3dc1638be89204a0e, 0x21da5ba434b7819e53b51e4629f5fb770e739ae597af55faaa09500adbd502f6),
(0x8e948cec51635ab95a05740439ff17c5ae2e05e4523bf2a23df28fd986de6b15, 0xe16aa2ac06c3d34b9535b79529a82b6734bfa2604a74ebe886110d73ba564375),
(0xebda86709277fecf9b8507d940da6c74210c8c7eddcff0d6e3b52ded3bf57095, 0x3ca95e8e112c8137fe8c5088bf041674fb657260706258901fdc56267655d654),
(0xeb5ffc4f0559f7ad02469f481c7309251ebf3863357dbe7241a292055b667682, 0xb1f72d74a5a16ef1d55804ce76974f4661a492108a1a36f8a59484daa9bcbb96),
(0x2a93ae8ad15c82ed19fd21614a7a65a4cf562432623bf7f86c7655480b02fb57, 0x5a949ca6060a143009d4baa69be69b34848e987462471d7454c4817b336584e0),
(0x9ac4a3e9f1c8d115138bd299b6fb9132c5d64a921fd94adc082eb4aefa64704e, 0x47f0eecfa9eea8270ff339f348e67e8fda9f00e1a6b9086b6f5441c37ae1d335),
(0xadd254af39d99d6d355510d74f8985ad3d8ec1e01e8d021027e80049f555d65f, 0x05b147a1fc4bdeae6c2f1224b35e9e61ad0799db53597ef2a23a8f3a344dc526),
(0xd374d32652cd006e3b27b8d03ab47d44bfb1c5d448adc9925f63235bc34aa128, 0x3cc6ee09c04d4cb0aae8b1e66018640ed0964fb7148181abe9fd0374642ad9a3),
(0xfa7632b478e5389d0cbf380d8efbf6b1d4bef9a170aa3517e4c2005a071a283f, 0xef2bcbb004b20be5d4bda0f426dd0baa31037d2b7b530e2c24105c3dc817ce89),
(0x68ea197e76af69501633ff9ec825a81780c7405dba513f966106632fea73ede5, 0x633a5f90587d4ea1721298202ccefb30c14a052a6c0ca72365e2f91d053b3ff4),
(0x8874397e1813f0c76946a84fb05a0f44224bb1108aee722e736e807bb045b73a, 0xced2e2ec85ae00e02952f55d3626b613641d2a8e84b4c9ae36177bb69ef80d9e),
(0x2ffe42bd892560692e460701b94208d4859150438a85f71f032246b85dea7594, 0x6e7e4050a35f1570f8cc40c0862e9cb559e744bd8788646eb0dad9048b2777d8),
(0xc6d3a6f80c997cfe779a9a3079de4baec19c226a21f166d271ab4da2cbc6defe, 0xa8f8a6183f6c8b2b1486e60c337725c99a9adc077dbb6581e5b0119eca10f418),
(0x9b51cd75442203cac4b8aba6e9829b73abe29f9692b8dee8500e1a909ea9767f, 0xed0ee32d6042b6dcdc818dbb8cb006196bfeb2d788f35626789cabb65d159c51),
(0x952c518f775c8bc4dbd7629c8dcf88071b2080338aee2ffaeabad5d0be6eaa1d, 0x8a3b10a3d9343d39e7bef8c1193f5cbd717efa3bcd2491f02dc1aa172e5b629b),
(0x49a1837263eb11af77a2e33d2743393a7eb269aaf64589fc8f81507e55e8ee4d, 0x7feb4a5964b781b9640d60f94e7eb2916025d19095945aab7ac7771b6f96cff8),
(0xcf974d8f46aceb5ea8c04e55703b5a43ac577e84cb174abd88198e1c12708c9d, 0xc50cf6d20afd79d3ce275e9126bdaf0c0f46c1eb536d07539dcf6c2dd79afc35),
(0x461a831e8beb6da0df92dcdf2697d551cbf8f903138d13f20ec9b7fa4a7d4763, 0xe5fd85fac251705c27d4e87064af33b20ff99b1914496d966fa18916faf40e01)]

/-- secp256k1_pre_g[4928..4991], /repo/src/precomputed_ecmult.c:4970-5033 -/
def g09_5 : List (Nat × Nat) := [
(0xeef4eb8a9eba3f2eb27e3aca6cce733549f2656ac26f192160c05bb8fc3f1165, 0x58f74526a812ddc3713217f6fa4be02b7062d0422dbf5625abd1f42258b54c36),
(0xd674ace800a7e8aed4bd4b7f235b9f4c41ef43554d9e6e443b6a26a2d16f798f, 0x8a25a7f7896c0dd9b1639f995c4b3df1a3536104b7d59348c2c56c0bbb21c609),
(0xa8eb465a8a2869cd6419af81b3ad13551508727c2b2494a493b5ffe6002c1375, 0xf1a272190f59f29cbb93bdc06157618a454075abb95184e6a4601ef4eb2c8a1f),
(0x00ccbd9d6253fae3f7d2527b17854e2158581e9511a1f11b55e3e04e7326e6db, 0x51ddefc25d9083cee9999e91cde32f70344ec937d6aa52723dd62496c4b0485b),
(0x524bc1e15c75e8f06718d2c6da0f65990c8b5d837cb9b48d615e8e4649dc6659, 0xf6c91d1472a50c311bb202b23d76f224b55af957c7bf3c1969d175a10d36ed19),
(0x520e667ba0604a23dde663ea1a29971e7e7533019b2217af296b02f9de1df35d, 0x9c2a2c52290b6927ac566ea84caa31efcb19b65f29b4833f5f4eae8cf12b38bc),
(0x156282cc65317dc13323aae20d5d83e8b7113d59a50e54d8dc54c1a1ffc85d23, 0x840cca2367da3c5a015b642772f0cd7e675bb8b7fb5dd58e8cda9fcfcb21606c),
(0x15afddb05adcc8d8f1322a7df451fee9873d4b8b78b0c1e81d99f002084aca6a, 0x15465563a129272cb5e25bc3ac76c52eb4e115b7b216a40c145c4699175cec9b),
(0x9eec4feae95084454bd275e3f8d0d6d29040ae95c8268f55918d5f3f02f75865, 0xb7a873a75fb4ef703d62a72381df2ded102726ac81685725424a77338307ed7d),
(0x3aa7be96660652c4de1c82f5cce1a864c37725ba848180bd52e4dead1a33f60c, 0xf323d2663e5d14dd18fbab76271f6c8f32d7de0a42724fdef6ed3582c886c402),
(0xbae9e070a8e5a97608347368c32b4287c7a6a20cb491bebefc6acc71aeeecea7, 0xb5791703f98ae8481a9c66ab878f7c270d37a3e0133b4e3682ccb2afb518e8ef),
(0x7b12ed88be061d1f7dab874b17602bb0ef5ccefa54f9ff40e753312c335f5f86, 0x070930f8c465292b0b02ded559a235e6c4c834809eb944428440846c377498d6),
(0x9eb22b3c8faad620ba0029904a5d8d1e8cb4a054179e331073f4ae8cdef4e1f7, 0x6d58b972ee88dfd904e429a24f6961a7d085f00e8d6f8d14ff2066e7df68bc34),
(0xbb2aa6ccd8402cb80e7a9a6f0a755c66366c659ebd2e5c857fa486e8aa86b857, 0x443e7128674c040cb0316d9b3908bcd3298e727cc805bc8eca58894ad51f4130),
(0xc58704a9fc3bb18bc460c4e1f17a880ec0dce45be2caf75972f55061d59d30d9, 0x752164720aee1c9c280aef077208fe42136b495cf80d8a79e8309272c6c4d6a7),
(0xb7d7c72170af0b6a489c41a6e817da2bce59f30c88a82b1183a6af8b174c70eb, 0x59481a78052f37263a02ef48dfb366ce7bf170b0af3c20002c1053e65dae1ef8),
(0xb138683325f5450bf4f68dc993d72fa11e636a3e8b881ac2f237cc44042f3461, 0x64d18f1b087f946310627931cb003c09981c4a94969a0df17f7178304daa6cd6),
(0x7e27af99500cb8d4d812a82d029ca3695e5432318432c9f596f5b76dc6d1bd8c, 0x25a477c5a275daad1097382240961da75385a3676dff887c42bd904d8e885997),
(0x62e04f6fd953c744aeca984cbad13c91f4e09c1ad54416032bfbc2775ebbfdc1, 0x04f1f609db0befd5fe781afad21efe44846f9f789ed9f99df3291eec3cf3fc89),
(0xb08a1f84a3cbc3faf952247e6d8d8d9b1ba3ab01ba03ef8e836b94ecdfe2e2c4, 0x5027889de524fd0be6ada02f4f33d1a34d0c3822f0ca6651ecebaa373c54692b),
(0xd417933bc7a8f68a9e023d64498b5117850f8885b6254256f9a12a47538d5bd6, 0x7ad1467921349d1410e35750167282ee9a6f6044b6c9d71a633f44755b432ed7),
(0x575909cb46a36dc1c270267a10a62f31941fb7bf3699aa431a3bc770fa37d5de, 0xc12ef954c937d6a7bda47e2e67d9ebb409434cdae1571ec9f604c41eb49d6189),
(0x5298ad25cc5a6bf4d88b693ad32a61fdefd763f0e4008ca0eee177304365de57, 0x75f821d166b6018541cf765309a0cc41597b8b7810fd1fedf0da45423a26d5f1),
(0x5aab0fa40b0beb77d5d2a8fcc95d516f1dfdc4023e3d36b14ecb206e0ee8c5ff, 0x7a4659c77c062356c51ee28dfd0cea92a1f36d5a0b78a3ae8b48ac9c7fc63fca),
(0x482fc7917c73904141b69e5962b0b8158a9bfa00f203afa6469739809b250a23, 0x89b117bd485ac6ef4de8eae0a9e96edda3615285e33282b7bf0b6a6de11a9c8c),
(0xa576ceef40728a7bb63756f7f3095c750ff2ef84c7933d02b9dd8a0ba6046653, 0xb4c707dd9d880fd6d7a1ea1387dcb6a8e2433e218ef3a7f5e348d2b3f9a9796a),
(0x3c9d7c33f8c62b35fe9773590f290dbdc2b46fb0a2fe126cd06e042254d1527f, 0x0cf92e343ce9f62484c04c9fd97569d6670655989418d858aa7368d5bd6a2df1),
(0x56bdd1e7363c52b82198cbe862ed6d7c7b96d1847da440362401368eb2c83b89, 0x505d385b747c95456669809aa9da035c364e79717cd894173d1d5d58298a1869),
(0x99e0696ded30d242bff69e9fff4ec88deaa3de3534dc7f35c2bb7df59f8b440e, 0x2cd1fc773bd071b4c9695f25458be688f662f7eeae8f313d9c37317206185acc),
(0x7d5cb46c81f4a4ecf1e5d9131772277ed17de7ca7a4b277ad6b135e4dbe61916, 0xcc854503d73e80347a6ad7e7f5bab3210b130d7d3d9384239e0656d974971849),
(0x45cb6ec89dda9aed5242347ca20377bf0c93ebbd50e48ea8159530f44f4a250a, 0x411a2adeaaaf43e7240bb0f7cde77d8f846bc7004721f6c74d313fbe70ae38c2),
(0xa7e23331bf08ecce2dda8c2ea6c3c4ce9bbbe3a44d40068ce39e94fcedea42e1, 0xd1f12d24144bb258dcda706005348c1d85faf076fdd3611becf6c34e843788e6),
(0xd81aa0fcb0a8fafed4c67dcd6fddd41480cd5548cbd6aa5835e5896b18797f12, 0x92af7ad3893208140bbe53ab4cb5bd263df11ad18d2ef235ae9ba16374495d8a),
(0x8d379fd1fc0acf5b0c96d03e0b73b3405a7326ec82882235918a380b0c3e2669, 0xf8c6063aeefc0e2c0ef94d8d0ac4e5b5ccccdf25663d993f7f9a01726756564e),
(0x5e20f6006f533af18f3b6e6517aaa2a102876b79c99ca059c2791a1f1e466e8d, 0xb23fb12957640a9dd38bf2067649216f50b913b869d241c2baedd5e9dafac9d3),
(0x1a0a4f5480d37257c62d1b0c18dda7cef2b64754be9a3d77b3d80ca9215026df, 0x2f76696ff40019279ceb565244d4a60a9e35326642bc21381191a51d07661ca1),
(0xbe868184dc2e91fab11833b6f78577f78c190220a2b4655153cc8ea073a217e7, 0x6ffa3f781c64c11868abc331beb8c2842919d59312bad69953edd2222b98a31e),
(0xa4650db1917b10d91fffa809d9f9cdaff07faeb38f0ecda69c80e0e0fd27592a, 0xd5a6fdf5647e26c41d7b9c787880c76ab0cbc23fd4c1840b78717b342ade1422),
(0x944b17014a7c7eaa754c9e03d56516d9e21e254e9a8716837a14f19a9ebaa517, 0xee1983373822c7963ae7df8824687ddaeea01e83c82e66fdbaa746ac485a6dae),
(0xf9e76020cb9087d3a60ba7ef7ed5e5523e5a3645f61f9ee727d630b798d37ede, 0x28371db3433bcf49f6d77711d7ed9101f5e478de49c58103b021457b7a0b526f),
(0x7ac0c7bce17509a3e4dc004bd18c322e600aeb838fe2045f6da348ec6f178b41, 0x8b5cbafc334693344886f60dee7626e536e9a97760c0dd187bab7e456b264956),
(0x1d7ef98c0c8520f52310ad12107351f1966b651b4b2a39a17a47f658857e3bde, 0x2b78bf4b7be6f1ec061cb235a26e252c71d91f58697527190812571255d47664),
(0xfc57f5ea0b40add8f00c2da6c7d245401b24b6b1f102836b4041009e2fc6d5f0, 0x11d3e017bbc33913b7861dffbc11bca55aea26ddf956d21d2f333755ef823af1),
(0x340c47cd3b473c0180526815064e77f76ec29eb4b6603985d6ef7b6429e2f289, 0x994d98c9c1de0dadd27f3386eeb7da406144e060ef4db403ee8a76cb8e21bf89),
(0x81b13929f08e9a23069127ba3e6e839b08e9cd05b19a9bf52292148a26bc47f9, 0xb6c33861ae8fe20c7a6c78304dd03fc1a281ea5759661e7407f9e904e4261226),
(0x6f325fba15a463ba4a61e2e682655af27260364308a48075f76c98824d7e252a, 0x1f20597170f9f48d5421b73e97bb6260cd2235e46f611e9e99b7f8aecf435d45),
(0x4b388e91fadb26f9b23b015b398c866691521b8b484d4510b3c162d5834bc109, 0x0ade83659d59c36303191c3b20e395cd13ddabe71933045bcfd8e941f2096d25),
(0x2d1c0ab283c80dfbead3e08376024910c1d97acd6c8be069252bfd94ac1a0db6, 0xc4856c74e5ef2e6a17ebc35e3b310f6f8e7b043babfff733aa3ed9f85a391c98),
(0x4c77a1b5b88ffcce1f98fd89251c00859d4197f7d45bee5dedfded14a97e5b87, 0x48b8135cb067c2926c3164242392fb06f698b6d6e98b2ffbbcdb028f4d85e5bb),
(0xd39cd5fb11cabce0e31f6fac10cce3c1c0bdbcc7294119e02b433b0c20e3a4ee, 0x487695cc8a8ec5faaafdfe253aa7d6358d44e82f77328e8e4541f7bdf629bb5d),
(0x238a05a5519ff4e629b0f86f9d259eee4e620685a2f0509acc9fb1eb04e89f5f, 0x6772f6b7816018afec95717da6be2d053d740ec180241798117ed39f91f3beb1),
(0xc146bf1372816407b5f8532d91210d59a8a6db2e54fcfd3bfe91036599f7ed14, 0xe952ca9af88779c7eea671943df6fad972b717a219d1eca633106f972dfdf0b3),
(0x04cd9154861edfa7c29378aa01a7d6d083b134a7572383ef3010f34e19d40bea, 0x9ad99f1cb5841c575f7db959362542fc40b0cbec58d16ce154c5944b6ff2aabb),
(0xd35f29952478be06e86b342bfd2d2cc5ede30ee80509da11504bbffd5884765d, 0xa0f66db4a21462eee51e226e2d20d8962c4edb1cbabc45b2645968a9c7810fb4),
(0xcaf9c953ef1f57e6905bfec02fd64fca92ded9a19435ad1ca672cb7b0117c6fa, 0x23b017767662984f9c2f9e43756ed3a13a574960558db4ec8670122f472d0ccd),
(0x4bd40ba021d2beecec7317acdf3b719c179ec0121274a198d0ebd9d5165bbfaf, 0x9a5751dcd7885a7820d8ccfd01db3e3daaa2bd65b7b6fb2a2d7b2902c629d81f),
(0x560928ae07b15a6362eb4444d4c0e0691ae4332377a2de4083f056b270259814, 0xae97006efa5986b65da4ddbc2bcea172f12945d90b6f51844027085dbf644794),
(0x0787020938e53dac8e2508359e41e31325b09faf95b03a8dc25e83aef8255301, 0x49fd164a915e0af1a66af8ffd215d1d392e4996e5ef68f8f51a4b895145bbd90),
(0x7aa3742a6c82c90a7e6c1b04a41e46430047925d66f4e7c9ab2aff17e64932fb, 0x7317dd5cf2cb9b3d5cc0fd6ac433d1bed1dc8345b26e10b9a2b8cbffce2db0c6),
(0x7a400535be3b134d4572e0bf75c13098dccc0f041c10068d31e2b0b9149c2e08, 0xc00fd102309626e5a2f97ef4e0374a3ede0a7ed2e45aede1405210865d10466e),
(0xf4d71adb438460c79003e150c4143557ffe30efa0eed122fdd97c572e1dbbbb7, 0xe73588e0fbae054c140c0474348b7ce292a1976fe8c940e362c29ea431bb719a),
(0x34b68d32810bd1ae51d0c82eef99752e8206aa04008c5c307c3e9a25b2d68b94, 0x004d044a067818756aeb898261bff840a3ab951fbf60cd03e8befb2597203c7e),
(0xf83b78aff18f22b1f20817073dbb9c794f180b0d8871a1af94d16d295c71f1c2, 0x093ea5b8c7847ea02cd5b7835021d37cdbbd395efe6eff8d866e333e09d6083e),
(0xa4a0d5aaf521e1bc2e818063f4575f1c99bd244780eaf8482737b297b2deaffb, 0x3906373f2111a47b102b0294f9fe1a4a7ea9a9e9aa2d959568ff84199f1abd97)]

/-- secp256k1_pre_g[4992..5055], /repo/src/precomputed_ecmult.c:5034-5097 -/
def g09_6 : List (Nat × Nat) := [
(0xcc211da7286711821f0bca25b9703fddac9d02777e1829b44d9921d7998011ff, 0xc0cc46fd5519211f3a4cfa430d84e5b3bfb316de0039a5f49a50b1b18dcef321),
(0x8a07ed5be0397b5a008c33ef108df2704b385c45c82965931ed3e39117b2f531, 0x432023e38fc1a637fb5a92f59911932df5cd23f7eb16ef68c8c573fc86e8c1a9),
(0x8add784186b68399b08a0bf2a92a398736fca8033807b564f97af438ac70d49b, 0x758cdffcef477c3afb3028a32866d860c65aa2ef7b3d62619664ace3658add34),
(0xec6b9f2aa1cdedaf306b8a5ab021e430e9931126a1c505d4a10e71ec3cc60453, 0x8139b26240e2c1ca8ec898082a37d7a9b78a7e5f6330ed32f9786cb3c4ddb722),
(0x22ce2541dd8a47ae227dfec095ac361b88ae2cd2c9547344f551f6bbcada196a, 0x068ce4f4a677a0f960aaf4a4f8e83a24ebfbf46c6ce2a470255d2edec4431581),
(0xee7dd0d03e5b6d8cae78caaf27b902fe4136201c12a49551bf208c0bf88bd33b, 0xaff0eef0609bbf6807ce2aef9f48f87e67aedd82e53421593809cf5cda4ac004),
(0xf7f9a352ca18b2f43aa18c009ae0eb3117679db8d9fd7e5a41b77e85b54140cd, 0xafd30383ccd2a6f7ae76b9535bc803304419d38e73e12d1edc407ef2f3b50326),
(0x7793ef5f8e57e872ea9fbb18bd710ab96ea4f646134d3308930cbf62e73f0e1c, 0x8d5b3b793573090fa4a7e7e5c38fd987e889bc3e720e05b243e856f632ae7cc5),
(0xdb7432110ba814bfe6371ddfd03ba554b558548aa90e81b8e1421321656065a8, 0x8236f24d965a900384b382e8d772d7e92dee2ce6c3cb33883ea627d54a5170c4),
(0x48c228656e51199f6306a6f17dac1e6a13f82d4261de0f0a9158ba98715d3cf9, 0x19a2a4dc35d2bd035bc5daa25526598a8eac11c352e5fe70be726531747035ef),
(0x70a28bf4ce75b491582b48d509a5069b9dcc1e490c41702dee5d688e6e643a59, 0x7183750e2995f6551b58d5e721a5f33b6904593427f27f34f8ebf62e74e49de2),
(0xa90d8505596b3d01a5e8dad0fe652cb24a008a7a61ba3cc68401a7a55c2e3132, 0xf98af0476e925c87e13bb7dbf992b81b1be564b68589cf2db79e48003ff7b0d9),
(0x886475768e960c096aec9832448decac6574491cdf737dcadcc42b84d7e775bb, 0xad94bcbb7309f483190777242582f5cf0a39ead6a4050afd89a49ecd7a9090bd),
(0xc505d2ccef72aef58130f4722ab3b2c23a6864abbcfffd5a725a6df3fae02112, 0xdcb82329cc51dc7a054e71040462997c3d135d6d5c82463f45e875f58738652c),
(0x24a1d4bec709cf8c8b8927a808bcfb1143b0d57910e0900d68fbb682d4e14df9, 0x9ccab0578440f6a2edaa4f4128f427deadce55840692b79d624e8724572a043f),
(0x48c4458151df1654fa78370a6975e59e576eeb40e94f636e72aeb37e8fbdc4bb, 0xf48e8dfabb08583443a7b495ced76171348e92b041b9620d3cd5a84ad9ee4eb4),
(0x042a7838d33d0b15b440953418024a330e93ccad946b50cca543ea1f1bb457da, 0x0dc2f0e64f30e973cdf6289dd8f6455d51c2da02bc4e1d136668250ce4dd791f),
(0x80988f4fc2dfcb86f1f65196d93a6cfd5c664e1b5f8875d261e7c4f7b2ea31e4, 0x1e695c33b526d5826210e69449c4673a8697e1d4a197c9bca3ecafda2a7d5b93),
(0xa0ae003c65d7f1c7b65cf828124701b30876d0be587c25899a618c4e7b79d480, 0xd7f4ec520bccd57a9515e80f2c79be42a6b53ca6253ee13dca33c917ff2ddf02),
(0x392f57a0ebe08b06cb4946ff3c1df6c70c5cdd97b9cb21900dbd4678cdbab3bb, 0x1be9f9dbdfca7981b3dbbb1fdaf50e6bc5662fa81b8a58f99953eebcd1d0be1c),
(0xcd904f6a3d8c4ebf6ebc4e5ae536c5444a04e278389d771fd5e7566afc592d3d, 0xe3e10f61a15399c5f3f29626af323cd43d6572fabad4f02dcf76c0f49785919f),
(0x27a4480cdf5782bf52ddb140ea5a908b38dc1ec6a570580d2b72b922e7eb05d9, 0xbd96ddd81a6aca1f888476325a6d48c84d61e76eb4d0d95715d39f80faa42f3f),
(0x6673ae663511292ffa4dd8cdbc0f7b36613c56d2775602ffa8cf93024329f5a5, 0xd8b4ffd88ca2530b18d857620529d056e8048cdc517300822d24cf42e4053141),
(0x03dbae135c395043d5b881614dde355d5a66907698c36b23ac4c24bf80e34f2a, 0xb7d460593154fad7eaa37c3a291c6c6716df29444274b044a9f12ac0a34139db),
(0xf2db4c091c3c606c9784f6af7dbfb26c2b18bae3b22f13bf4188d7616cbc1371, 0x8c84e295f57a9722260d5816c5d57719c6fe2a123ba20a48189bee04ac252f32),
(0x918e415d92e768e9f5a875a8aafa7dd666109cd58fb6044dd2c8640bf6b966a7, 0xb53400ce9ee9f6c69cc35b5a3e04eec3dc89c931e545068eed4a818e42073e71),
(0x5eda3e22bbb8c36882d46c192068b3e9a65624ae31feba8bdf725d5e47bc3437, 0x1cc2c541ce3ad8fbac3cfabd0a492c03087099e1659cbf88bc8f27aaf9a2fe26),
(0x7df83e069cf09a925405e0d43cf0c7bf52a8e603d286e26ff273e218b455e61c, 0x9eba29757f61b05429c9e915a092a591ac1d60448a63a8f1313f40181650f4bd),
(0x0b778c25d78b0bc468dcdc805de938091c3c36c50b5f9569a9394b5dc7afb162, 0x901a4ecfb4821145c7d9e56b75e43ab9cb7ef8fb1d384a4e27033e9f090b80fc),
(0x0dd4965e0f6fb759104f7877307e2a6a0f837ab68c19aa406fbea75ee8a7adc3, 0x45e92312b5c775853c4b95ca6b4c1740a70b57c9971248832c53d2914b0fd4d8),
(0xac9713797dffd8d82e33f92748ca063ff1c8ccf205b88fb6bf80946f1dc9dede, 0x6ce10e3bee4db87d40e8de66fb5263db2a578d6dbe100fefd6e28bd67377bc26),
(0x6046fab537fb413b297973125a6049b55c0851944b058264c39926ed00fe85c6, 0xdcdf9ed1cbe469ca029763335a159e42af6f0d32664ffb5e173986d3a277180d),
(0xa0d94b058e3b4d307f3b3f090ba5ba28d0285a3a22cd577a01d949b8bd23f1ae, 0x37fcdfb2e3027e070ea77f280447ea1393971c67974304b50dbb76212ad2db10),
(0xda15b9711b974ef914433ca571175233693cab3adfd5f6e8cf03425406f73dcd, 0xe08c7f6290f87fc54e2f4ec5a5a93d19f44848683b5ae9d3810b0615c7e79402),
(0xb26ba5d272a744f5562cd745a3f3f1433298045860be4e97d737fbb9b3b0d544, 0x3d3083079830f28114de6c5af3876446507558e295353dcb738deabd80c0ff20),
(0xfa26c55bbac04fffccee0610ba9b60a24042aa087a564ffab891e0877a2185f5, 0x5b5a62eb1ff579b9ee4c5d6eceeb57ece9881b47dbfc24f43b9a18d14addf4ab),
(0x5ada4a594802163d4da685d900b7479f4b70b4895ddac7a3b06a1c4ea5f46dbe, 0x2ec25e70871b495881f6b0e5cf821b91febe83dba52fe2f81a2e4e82165c7e3f),
(0xa57751d8895282acbef2384bdb4817a3539899b1e7fe7a622596ad185dcf878f, 0x651eee9c12ecaf929eccf1090635680aa7499537f2054e2f69b0f0620c820784),
(0x3f17f0f26a540098d18f8d88ad323e9ee300b029b7b8101f6aac6ece8d375f3c, 0x009c071379e3531907f1e76d55616e5f8e573a54b6bfa56e5dacd2aae2e0deeb),
(0xeabdf476d2e9d76d0775388cda7599304e1ebd59b3a7e491e3c9c62a4d0968ba, 0xf4bfd5b5e0e8ab41a04c4cd7763b243fb82f56ae9f08a6efbc365f3dfa227c4a),
(0xc5b76ae8dabb664dfc1fd49936399e3fc2b7366ea21cba10dc7eec7c5c93e0d3, 0x0ef30249019bc03ac24c85449467728ac160edc57c901e64b947f29809bb1242),
(0x7161dbf86b1080bdbd6aa47edcdf8a7717b7e281c692e9d8739caf9a0f3f23d6, 0x3c30b786b095288a4522749a03d32a355a8bc694cc9cf7ea989675e9a1688e8c),
(0xed6a7b499b74e62e53183b1506867d413ce902a84b71fdc4fa414f8f0249c2ce, 0x793d03561bca65c6be127ce50a1034b986285fe1f52075e81a9b5bcf87348c4f),
(0xfe6e1abc3ee3be4e22456f4cbf93810f282f0fec96ab5cc802b35b0854492bad, 0x96c762823adc2cea1563c02bfdb25b55eb15e76990a7ed7a3fb8aabe47bb077c),
(0x979e7ab196e668180b67bf7931232826713648bbad956added594cdf8aec2937, 0x696a9505e3c473a72df68f9613c2e494406782a4f92a8fd65017a83ed7912491),
(0x9f947cb3f859f2af11a63400800c18deb8813c1ab396ebd6a1d5bf4a9689160a, 0x8efeced67f1e6fdc191ac9655002a02c386a20b3eb2aa1be7fc120080b8bead1),
(0x7179003058caecb5dcd2e281b42eb59e57de1e6eb77f6bad7d2d18976a512eb4, 0xabff54d0e20347bbc10a79c4127f5f7d868176a74e34077a8ede1d547e339483),
(0xd786ec15c140af46841b7eb7de5fc9a3c06368853950bab9ffdbad01d836b8b0, 0xfc90191b63616a4472efb2aca7d84da34892af1e25bca0e2d41268c8d381d062),
(0x2d553f0331eb83caedf2508e67054734d929367bffdd5b7cdd78dc6a2e724534, 0x9abcef4eee588e28fa1dee0ab8c426c167d37cdef8aae9e4248c036bbaa1af70),
(0x0326b36beab4d932c40182f0fde043ffd6b84b1672fe1dc73bc7e5186ef68062, 0x9d86868e2e871ce5c3488624bec901d147b91bf9a3154cab6445870ed51e8f1d),
(0xf7a6a26f4e3583bb9552556a5d2487357ea4af7dad1f7a92717d19ab034dfa11, 0x7ace27e1dab2dea9704c01ce050ea3de529d864d9a5fc11ffbc0e8c781778b2b),
(0x8ca708ea0c07233442eae4e9eb0c7b4583e153ba84ed7a0d3ece41f94df6cd15, 0x33f41d25e446c47b68ce1bc7d1dd1740fc7015383ac90e051dc89a9fdc97592b),
(0x4fca2ed9e1948697208a87f9a890cc964aa9e5e57c7274b1deea92bb586875da, 0x098a93034df7185adf9f557bb7def9a6041e7ad5a3f24051435673ff012f0580),
(0x466da0aa97c68c0521b8fda00fc70d74bb586eb3da7eab4b6c104404d9234d37, 0x05834296f94f5b540beddc0e3d7f6004659952b790a6341ade99ff265530e5e6),
(0xae22ae10d016b54cc0b5423b3f4c332e3180ff23c279078b864e8e0777e26a5e, 0xee21d64bd6043d56de3346dcf93e2c40b9a51498b4d7df61d476d3397a2d0c8d),
(0x58cd60ccea7e08962f65a3535d45ad060517fea5575c5511277103d9fabb5167, 0x175a68a9850b4026bc7b5684e859c80800edb5f37acebc479ba489d55aa9774b),
(0x4be8a0cf7ce2610149cd90a868f4049c43054aa568bfb2a1a5bfa38609b2b485, 0xa3bab0f3e3bec469f779404bd025ca1479e3f6ca9d496f8f8ce4aa6fb7e3b404),
(0x428599d9398a2c5958c5f74f1226605f3c5c8e74ad8f9bc2d62b8d9fd679d3c3, 0x12a1b04f0add5d70bdc5e15ed6347f7f6785c42561f14ae6275cf0503a1bd5a7),
(0x134ba4d9c35a66017e9d525a879700a9fb9209a3f43a651fdaf71f3a085a77d3, 0x21c112f76a9b9b21e2e3a7c28cf500bff48aaf1c48e0e13ef15618b9ca62287d),
(0xd53cf8f3cc5e5739bc9f9144a44e7b7bbb8f2c36b50844ca9b2d9cf0cd0616d2, 0x799c23b6c57aac4490d714504388cfa4689393ab6f30a3474503400ec568e03f),
(0xa1e22cfde8d12f17eea1eca4ea0b520b6598c036d1bf837ce23bc300a384e5a7, 0xcfbb52a6e1fb6a6577cd03778bc965b2a3df592ff73c34d2a91b800874ecc295),
(0x72bf047fa0da1391078b97ea7b317168ed0576fd71f4940939a8daa52a02ead8, 0xf8d930880cb3457e7828ba9cbd8492e49eb2bf0e2e23bfb04591e9bb5273f462),
(0xc53730384b951abb3bcd1f4f98d983bd0cb5b36a427195310c4d17972e9bce59, 0xd921f3530a9f73096dc16028f9e1b562f406bf4954d78bf9f2b4c8b92db26a82),
(0xab20d194e2a6c4a105705d3d1930081089342b15e9fc62247be58805a8682a5e, 0x44dc39d18342502dcafafe4033c4893a2dddddd8ad7b238aefca50cb5d5b3186)]

/-- secp256k1_pre_g[5056..5119], /repo/src/precomputed_ecmult.c:5098-5161 -/
def g09_7 : List (Nat × Nat) := [
(0x1432ddfb108ee6642eaa9c97585f47b7b92a5ae539a38093b8f3153ce971c8f9, 0x5362084b5482e3751662aa95dd3b9a6e65235acab0ce1eaef51539511391e269),
(0x0f199ede4a69d77861e107c9376bdee56430e27928c74d7566e65589be8c433c, 0x5e7f6fb71b68a535f407a9ee2e42f65e9835bcc72c34b8e7712e5332a65e9ac6),
(0xb24dbf5147452b5bad94bf4b493120ab61ce2ea437b3ad71062e568a1d595d1a, 0xb3af5a908d0636026b3869d0c9f3179361afd6c38db99cb977b14e0c46427518),
(0xd7fc29ebb681e025992d9ef7295db58b40f36c64d1be10e8c8e66858d4d0d9aa, 0x0c587764ca84b3c702f95ebaeb62494fce391202090c42b9e8b2105ded972595),
(0x05c71e90d5f00ee6e033f0c9c1ac495bd148a31d0143a8e359a99c7dfaa3cc9c, 0x04acc164ea3071b7a4830a2724135c49562ea6319dc4455f808f12824e3bbbb3),
(0x4c9904a9a33f7e339a3d85acc12b21ad11f7d7f276e46620768785939d11eaad, 0x2387a445b096740386ce463462dd101f95650365ac02ef1d2417321a3fac1df9),
(0x58f457ec12d224822a91b78e26f7d8f85fa39d9059fb833cbce4b1f25c9720f7, 0x90808a7079d4970c0b2b70ae0390844a2f0283eeeae05a5c7d2dcddebe656f2d),
(0x9867259c514148053be6a73cde522d91a8d8b3599f9bd39b9c9575a390405bdd, 0x9904fa4734973bc177a3d0ddf0edc0bdcbd77b36357734c0a0feff894895f3b4),
(0x663b4991913148b6631d16fc2747193820a7ace4ee85c33517b60ccab5e12b5b, 0x1b295a1816b92c5f15b88bbc177dc011f6ef076015b5ea4709bca876ae072070),
(0x5e3ff13fbed18235fe28dcc072f09cfd041394cda9a3aa525286cddce56acf05, 0xc1488c2c903bff6a411697f4044e6e726ed9c0bc5aa87cbced8f88026998fc7f),
(0x54c8aa072f1fc5a6ade56cefd7c6aae4846f685534912868b84b195f78bbe14b, 0xef11dea95cb01680e7205f1c62aa52422c0db9699b2a0202966873f31fdff34c),
(0xbc69e00d4118d8afbaef76476e4358832ae9864bf154368ce2ccdaddc58cfd9c, 0x148aea9b2babfe003a6592f4d37888935be42ac8a50f68d7ba2cd73847dd9c52),
(0x50ccf184c0213602af114924fe100f781f0d0cc5beafb6719dedea00c7c3ebe2, 0xb6559878d7c330824588dd3303054c4d02da86b8ff23fa9d6413920cd876e36b),
(0xc24ca0a48ff2cbb6235ef33b042ba032386d54753cdda799e9bc53c05c299aee, 0x8555bb16bf4d7bb75c0cbdc808594454bfc819de72c3954e76b657802be28fe4),
(0xcebc88533f6c3a0158dfab12ef52b4e0a7473d1d209b3585bc94a13fa83abf17, 0x42fe28d4136bf80a07149a0b7ddce53c45e23c0e7be85fcb073c0e662c4c0593),
(0x7d921a8465b11feb7a755a4c5d96b6b20f17e07a95db112d048c03bd18f61422, 0xf0ccffdf7f04e35013ae7f36411dea5aef69f220790c37d70354ce5e083925f4),
(0xb6909fe56824e868f4cbdd100d3d00ca0023e5b435c78aacc78a9a1e321d178c, 0x3d513c55136d61b073dec2530e1ed817782d9f76b536d3f70c3b0d1f0d06e6c1),
(0x5a3df3e80c78c0fc56971deaced3a6eae1ef668e2485bcb3d4e244087f53cb74, 0x960721cf316278bb56bcdd1d9f3385fe8feea6b0661bdf1d44771067661aaacf),
(0x0dc65c0650cc30e4d759fa93d4d0ab655cb16591289206d87a98829020c22f9e, 0xbe39ae0ea41a81d02175dfd55e004e19fa925a992166d8620296899e2532b6a6),
(0xf659d02ff2d4bc829f81652524019a886ad539da3f38b0835d8265ccbf3a67ed, 0xbc9c7a819036c702338c57ef261346472a22b8cc5543f4b44a4f7d4dd4339573),
(0xb89bbc05420a8a65aa03441eda1c54da9ca84f11e85a393d47cc54b978b8e5c0, 0x5f3a2fba4cef4457ca6befe27dd3f9afa5d8b6de86679eb4c877c7b4cf03c08f),
(0xb9bbb789690b53e6e42266bb853cfbbbf6788b580b325097a55470e3d4cbc3cb, 0x1f984f3878427212cbfc8a938c1f0d8759792ca717635c7571b2c4f129e35c2e),
(0xd8ae91cf8a99ef6d2ca0c15e0313297433cd46cc55a2c8f39f909e967d50006c, 0x4fe4696a79d2f2699fecfce808375cc181c2c2e54109f3803377a0205496d733),
(0x35dc2c70181aea7bccf6a15d1f708c87cc8bc5af93671c9735867367549357bf, 0x06f27dada9abbe5e5e59141b78a2e6dc5b5433efdc8c9cdea6269c2a68346f87),
(0xa4c042b7d54b67b5877442e72e81de4a7edbe667f00838f234f567a79e3791af, 0xa8c6f7b16b23a9cb64732852c973454769ef3e4b9165ebf0a1dc496736c73242),
(0xd6ab68a3353b6c653836b66a8c39f2d0892cf856090ebb56a5e8e4c9e669da34, 0x4847a9d5f39ea1e0ce392c8f9e63e88f8f3feb9d7b2a05c723a932d4b07e38e4),
(0xe161c34e644eb3f4fa217d33dd3129b9c2b85ad640b56e56e20982d1c5483d43, 0xceafd0afa8cf7a25be09230722c30e41b6ea151cd027326e5152aba8d9a50749),
(0x094959a2fdc2650cb4b0219b83ac99c70c477132eeab585c1fb262e706cca22f, 0x6243f3b6ba7d4f2624f7b7d58e070b2d64610aadb281b4a3b93b030cac0cdab9),
(0x491129ee003130c2f262c4d0a1bfede9e470c3cc8e80774f052ea02367e2e3de, 0x0c1e61e2a5310866762a0cf00ebbae0f738b952746001aeda991e0eed95f0db5),
(0xe2967539b0b29feea668eebeeb8e47c01ed84950a1f9fda86884a4215ab6f265, 0xc304cf3bb7faabe8cfeab6b1b88d3d417e950963745c247985211d50888346dd),
(0xd90a380f5283132e7d6760caf2b2857649445507b8e8872b0d0e1d5f56a15af5, 0x97fa07397a1357c5e24d0a3ece608332107e41f7c65d3c6b98ed66c3af30a4ed),
(0xcb917a08153599e3e531b1ac63fb8e71fcce572a029fde1b017de843a99ea2b5, 0x701c08a4a9da11c93b4be64a6832af1c900ad3c14b4dbe70c62e3e0855b41b6d),
(0xe6ee53e298efb026bce900e78d31f3c4539108bf0d4c513916417f8b49199a0a, 0xbedd41e4751f657e8cfc65c32a82f9814b223e6295ec36cdda5125ebda736429),
(0x5f777c41f4e3441e75c66f28852e781559d0f3feb8b05b59b6966fa0de84df2a, 0x7fcc66b8127d26d8e0ff69cbb80acf440bae5546edc9bc5290b73da3447a2731),
(0x16d312a81295ab9dc08f9fbd61e6445b5ef1dc5100fce19d89f04e7c66ba2e07, 0x6c555fca2a1d2f4a24ced2bbc3966f4e1bfc1912eca39067503df58641a4d4b7),
(0x660d3993fa887e1e8b05d80b96e2b70c341c3ba3351d25625792acaf3859de3e, 0x87b06f5d4c6f854a8714eb3a55454346f931c21cc77da23c2d069d3307dcf12c),
(0x9d45e6600879b6e80b8007a8ba7fe7f0c7090cf69c733bf943f4eef9965a1ae2, 0xc81a3fd39b6b83bad163c763f3010359ac050e64a47167ae2ca41345c7d95662),
(0xc95d92f8c81d15faa68f645ac1ebebd857c6942ee75ba13a3a4eb9b0c45c43ba, 0x2f55ceb6c1de78777b322a917f3e48d90480b80fd49e362c99f8104ba20f392d),
(0x95d445ffe8cf8240fc4e98569d41164f50e9ebcc1fd3bf19d4309de334b4c97d, 0x7c391704a75cffe2f8971ddb417e8158f97a36886841f02ac4b699b8df6c0d32),
(0x40f028ca907d6521df1f052fba5268f90a60e705bdf9432817881b441500170d, 0x4eae26bf37d04379126ce777b1fe11158c34d077bba66994078ede7e244cc8c6),
(0xdab90c34e7460068d80d2be22bd81f9e667bbd964e30c23d3eaa7a75a61e862d, 0xcafa28925128bf3a4821cd148503ca8a86f06388d21df6eeaf92d514e66c5f1b),
(0x6df2280e381ef8cf922505d67646c1af105f91c059e8e7a53ae2e7e60cb456be, 0xd94a020e7776b713b31aff5f0d72be6cf29bfe4616ea3d2995913db4698ae3ca),
(0xa13d83d13c60cf65cefc86920f5d339b2873582e938373cf3e4df54eae32ffd2, 0x8f511212a65d8963d7df7ed627d87fd90208f83a1a4dd14fab0593d638ac71d0),
(0xad4c1ec839950ae4a7fa551e5aa637a2e5d40bfb3fab696fea886a4f40bf2167, 0xfea9b599202841d0c3afbf08ef1da210cdd92a4e6cad485ca0d5275e8a5dacfb),
(0x64188be9af6572541314e661848970f635a0b6be7e5948246dcf36d866840610, 0x58880b5fc3df9b6a45b49ee6b90f6b5ff3fc440c37855167a30ac01303d48e53),
(0x9b71366da66b165c6495e4fb46ecdc1584a193cad65ad8b37a01a3b2cf2e43f6, 0xd7315165ecec296c4b71a860f3b2f0ddfb9447ed5c59a4588b81f67934321301),
(0x4a3c500674814f959e9c7726595658ff84e369af636f6affab579bb85583d395, 0x1b4957571a302c2ad1cbe53c2ba34a6d66bf1aa18bddad33679e48905f9a21e9),
(0xe4305e5f72c4355879a749b3d563d4d1dca704c9c8867d01ef503cf897c90034, 0xee563dca4d31945fc536a318e9297d2881954b37af99272209e4e0e91c16244d),
(0x3aea4eb8ee74c9d52259f37ada33ae1c078f5dd8d97511b02e0a020182840a8a, 0x8fc58135757b8c0aa8f2c2abec9d915220ad2046f429667cc458676510e93e87),
(0x58e8e94de9f850667cc4c61dacd212f47745494233deb015858e500e9530228d, 0x5a95aa24fb782a4ae64e155eeac2b644cd6143159b46db6c9bb4fe4d5e5fd690),
(0x6642c7827e1df912ff54dbf741fa15673e9c3aae5e7630c69cb74b60c070af1c, 0xff338a8634a404c0cb26af9f59df36a9e1a848e1ac178b25c37ac177db45e947),
(0xc5c69fa465c79a50a98996eecae5547405c544a3ea838a42e12a733e9181b30a, 0x6e8054615a424a9a1fc229b87e594211697386ef189d1ad6ac75eaa25727253b),
(0xf4faf099fb16a1e0e5f6442805317d91a31daeedfbb6a6ecb70a213fee95217d, 0xebfd844542fee87201f721f3011ef28e30618bd1bdd097c1ca5732855b079734),
(0x773b3e69fda8abedfa61ef37571017569d9d2a6aebb4fc5dd9049d569c66b76d, 0x1bc051c6302a383cdc0756b5114dfc691dd2180a88a4ea9b6acebccba59f27ca),
(0x0bcf80e7b2b54cf7971fae7bdb8b382685acc1b0f987f352d9b0b3c7ac78142a, 0x20620b008c010ad97a98f09308d9a381f9935d5d4bc9b060af2ee6ab151eedce),
(0x865dff3047f3156499337316ea20223c5967e03483d92d547486fddbfda959d2, 0x2b655c9e37697f105535b7360a31b2c67f5726eb602f1438f808ff624bac074f),
(0xe48e0e18101eef40f351067e63d2b34f04fce76cd204d6f885d2664dfbc92d3c, 0x0594061c8d3f4748bff85cdbf70a40355ad826f346d44aa67eca3196e433bb65),
(0x9807e3507a03e1349bca9101cacca5d1a564b6478c90661961ba503c5ee15bdb, 0x301e68f2d584b1fe3eeee7c585cb4d0a26621bda229589cc2704dfa11cb8d927),
(0x95f94e758602dcd460ded52ac9d7ab401fdf1405b271acb4133a86be0cfe5027, 0xf08d34ebe9cf1b1e78e1fbec452e1ab0412c642e1328b2dcf5e08b0838aa3c51),
(0x7ffa20ebebbad406deec68c69bdb7b0c7615a56f5c62a646a57535e168a82a31, 0x230241b23dde374f7a039eb55181e954f047205679edc6887c4ca6b8778333e4),
(0x1dc7e0b1487fbb33d1ecdf847bdbfef5f7df9f31d07ff024be063a5153eb5498, 0xebcf72da18a1a55a5aec4aa8efe09407263a7b360f09552e22cbceba7a3cf980),
(0xa8052e02e39d99812ac6c4e62cef526b9cb29843127f222750a8021f4ced5cd8, 0x9011f0b49dad7e5c11222b64c5d8c9fb297d9afdc683f545849d833df2697220),
(0x3edfc4d7f1f699c28e8ac2e75cd93e69fff31607d99a819530603437f9bfb20d, 0xf901260d68c6dfe8aef8879fea1ba009a1e1d931fa6ba39ace1e2673ba759311),
(0xfdf8ae7dc10d01f1c39bee753be3307b53307caa4af0e8dd9de7d69645ce527d, 0x2425a3f8c61470733a44d3ebeff3d8cd61e5fd55ffdac357d7906600153a8dd6)]

/-- secp256k1_pre_g[4608..5119] in pieces of 64 entries -/
def g09 : List (List (Nat × Nat)) := [g09_0, g09_1, g09_2, g09_3, g09_4, g09_5, g09_6, g09_7]

end Secp.Model.PreG
