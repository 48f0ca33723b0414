/-!
Generated from /repo/src/precomputed_ecmult.c:13894-14405: entries 5632 to 6143 of
`secp256k1_pre_g_128`, as pairs (x, y).
-/

namespace Secp.Model.PreG

/-- secp256k1_pre_g_128[5632..5695], /repo/src/precomputed_ecmult.c:13894-13957 -/
def h11_0 : List (Nat × Nat) := [
(0x343b03ebc285418fad522784f91707e4f268451a394e85d2824c837efa48900a, 0xe6595234643667c4bb885b8c1ced3a29a71212dff2904549ccb91de375787922),
(0x6094f67e41b23bbf4d594e97b53391aff10a978a1924418963814efaccd6488e, 0xea874289dd943f7ac109939b8fa545f758359804ad81ed0d26cef135cd138954),
(0xcd0c3700bba5677c8d0ff53df06bdbf5c5adce2964921c9fa1591c910ae0a375, 0x720b88ac9374709d1919854c237cc5fe0dc53b1403897e4f3502af17d7510c63),
(0xd37ef1ea95ae727e5166dd59bf5ee82a1f21572079d82e256369464ed9a87cc4, 0x59c5321ad700c559c92e500b1d3a458915a88575df9774e104bee7b2ccf9bad8),
(0x238158e3d58e761895f7a0b1cdad8a243e19bfb6d1c65929ff08e766e62c2b12, 0x01f65fb18969ccb727d50e4639c7551c5b3f25b490b7d70ccc5e4ae807293a0b),
(0x260a340a5245a0394a2f0908f2912f0f63ed68b6aba66fb1951128dc9d542512, 0xd30646c1e8aabbd5e758adbe980715d2b0b169c6fe09c5023beb7f5d0b5422be),
(0x7333eee5d111e1380f6e0b2d4b476ba36df4357db28c8e7df232c61a6c3067bb, 0xd427a423a4de1e60e8b73098b8582e0e18923637c44c52effa0b5f9008ccf786),
(0xc411f215dfb87aedbe2530c282a61e5b37a0df711ce61fd125624b44b7673eaf, 0xca3d89d7d136fd46161fdbd63f0b075aafe9085551e075d2391f3206382a0441),
(0x0275b0a19dd0949578298aa10c4b62ff11e715fb6c3740fd80d7ec0303f2635e, 0x30dcc412faf3f389c9919b6af96e7b286eb8abb4ada80525b9ca7eaaf3ce74cc),
(0x9f7740526818bbccb068c11cb400eecbda60c4dd022353a34145e3e091f81617, 0xa9e56fde8f38116fcafaea9335ee368850da5107a5a3e571092f2bfc01b55033),
(0x60fb35cef1098201353bd7e689b42fc89f86dbc63eb400e53b8d16f628ae4358, 0x1906ce1c6a6f41a52f45424e866339378ed56578ffd94174f4f85960ee0f5c2e),
(0x1390a6210f999c3d1737c72c3235e54299ce4796d65c1ec545f60b7119f4ae25, 0x8f1cb557b101a876296881fd5d30556f55d739da5122c0f143c04add3485dbad),
(0x15f372d69be09ee38d43c453dc488f1742f53a7a079234396694621060f1cfcf, 0xc6007ae8a836a1fcb5a4c0f5e584fb7f2c468d6809efaefa6303bd6abeecb05d),
(0xbc2b2a7617dd9fb9e6d60931ef2d5755d33c71747e8e28e4be151b4214537d80, 0x02582a69b6e9b9a8c5bb4b794ffeef1596f383cd670eb5242ac4e7ba375509e0),
(0x5f8e095761e307de26ffd39c924109375dac9c837a5a62f0b0864cd8a37f2686, 0xd342dc847657354dd524b32b62f5f69d5b2ecbfd71831b28565cae36777534c7),
(0x5451cd9109e849ecb8dc75c79f93995769a3923438159544dea98155cb001c5c, 0xe00d1d37f9ec02d10ae8222a0074438104f16220800f84d917cea9d59a9e2a60),
(0x737b89ae9d9951dad2b489bff2ff714bdcfb13fd829160c139875a467343adc7, 0xef9e2ab9f8246113726e5be35c1da48ca6b4fca053d35dfa8a3d826ee48c5ced),
(0x8b80e2279b0a91a76af4841371ae6fdc68f4f5c558de6efc1ec0034a36a26000, 0x909b49ed6ce8c55525441ab51046956fd25a3a735d979c0443ae5891fbd43df6),
(0x9db9379d346cd59eed0c0d44abc4baa03b7af1709f034c79151aaf5469296780, 0x1a8f9e50918a104db525c4390bb16b64179dc4d5452c86fae87ab75761e97031),
(0x3aa7c8c0293e5c9dfb50b63d340851a388b1641bb864cc08fe77650076f98d0d, 0x974dde957c958b70e0ff9399d2d03da34dfc3437c1ca557d2240fdfb3ae1d36d),
(0x026cfaf0d27825e16014e5c319bb907b7a3b777fb6bc69da5cdafec840d5b4b5, 0x02eabc1173729fdbd31fabb10722be99e5b4355e8c2b4bef53b21dd83cf81ba4),
(0xee495a13bd1ba28dcc26fc724cbfee953aa7285257c883f0cb09d6aa1bdf3b20, 0xb340a2f9978013ce8275b7cb3fad5c1e857bc6d7b43782f21e737681fb39b619),
(0x2e04dc81831bb46559d6c354c4c6105f41f61301769d6006adb290b1b75540c9, 0xd086cbba4d221cc37cc96b20adceff4a6157ab9e686d1fd505d56801dcf4b779),
(0x557b5b410b2b2e4c598460ef22888da0aa2ec3a47980247a0e8bd465a6e64c22, 0x6a3c62eff80832ab83a9d698f61f7903b7f64e419900950ec7d79369403d57b5),
(0xa0ea9ddce2797fbb0d384a1a2c26d7c0edf866f69addb763dc44b112dc1cdc5d, 0xa085725ed947778b40a2baee98dcf460b084aeb003f966584f990895b15e3378),
(0x1acb89f755a51f58d8ed16e699a2294ab2f4bff92fa2d1de098830614ed4b5fd, 0x05b243df31c3bc9579c47c5758eef875c18bb896424c029322d729a8b7a32a21),
(0xfbced690b601e4502f0ed32b8c2ac44831c4b327a4ad964897637b082f3d3912, 0x3235804b549210ae8cb5bdaee5b1b474e682cdfd8af4acd98c0c19a3cb5c017a),
(0x075339a082043d8554ff592c186a183e4597a0ff48f280acd760d1349dfc6b5a, 0xdbf1aaa68bd5db0d8cdcfee7de6635b4b7877ef36da384185688fefddc584b18),
(0xd83caf1b2994a76377a2bba03c644e4807f170d5845a7d17b8be8bb984b0ad1e, 0xe479d9306d2a405ef0be64183d4f8dfc0a7f58ff95df1e38c92a401f17745879),
(0x35fbbe0639d9fc5ed595a67f442d7adcae6f566f4641fb76149d6c7442af49b8, 0x5eaf204e6217ef531ab09a53e6cf4d1246d6c4e6b71ae8ca4e82147494d00680),
(0xd5563a62bd6fba1de252a5a59c03bdfa6c57014571cd1a31bba437002a7c1251, 0x2f83b6a32efa7b701b4d32629e7a87558b681d17cff0b9921e102b7bf851f543),
(0x8f2a2a14a834ec79107153f0ffaf8f465cbb46c75a72d07d5e2af498f3359b75, 0x30ac74565c946e2173bdbd9cdc999e79260445e0dad2467b97234789a4de1184),
(0x74482ce245605bdff7d586f3c2e343a68f9579f20543f7f722a4b352024361b4, 0xb2cae0409ae59ee9bff4fb5a34847ca3e4acd880e35e4d5a5ce47b703cc565c7),
(0xca0c158fcd362d9e3724bb2bf07305a95adc440d24270efa2a8f208d7f540295, 0x9e1daa265a5effd10029f62bbf0f5c60c0c2b73a58ddbd99c832125d3927e7ae),
(0x9c5403abb8b04f475eb4ac6b5d5267848d237d3dc36e8698d59172c8a9d9e268, 0x89cd0c879d02beebffb6dc2ffa8827112071cde4ee71a7cf669f64b7d463fbb5),
(0xe6bf29975eb883326416916962f4908029072e85797fb699df05526cc4ee0de9, 0xae9de06a1952c4726047bbb7b967e6acdb33a12324b07165d2caf7373fa40068),
(0xae4ec439e4392deb5e1b15652310d52e9cf5c0a98753a95dd7b51e1e5889a744, 0x1400b9000c3159d225ceac354e566d2f04e6f057f4664b8f465b0f532ba61852),
(0xc6351ec427d1d6c564c05959ccee21d9b086a8813f4d7406ba8d0ec86cd139dd, 0xb7173d5fbec7a8da89c4cfbc0a911687f39a455a9293640e7d473bd3ef2dba3f),
(0xfe44937da54556c2a50d953898abc3676da5d7226c6d337920092042d1219cbf, 0xc5c2e2a3174fffd574761486669b0cab5a5eb21e0be669bac5c5a4a8046e404b),
(0x760dd500b18aa06619a3977fddbb6947d092649e485f2b6ad26d01aa445588a8, 0xcac47a2206da282538126d6238751a4d93daf13a420be3533fc0f7ad0db68c20),
(0x8bdd111ce271b13645d00636f2d33c92df570cbf6bbdc15669fd898cce4ea8ff, 0x884f14308ab84796d61e557dabb4d15d15114c0bdc7703886ca3ff0c622df5ad),
(0x406c6d3e79fed3cd16d616e67fe004b54f589594ecb7ca6e24210224c5b4eeb5, 0xaeffee19f82cee83d47966688545f0b3b8e61877f34a0b23c6a3573cb98c9b7f),
(0xc645ea952580652e8e05df6a3d208df083e00eaf50cd7d4da7c51458324a41f5, 0x8b4b9cc9d3f00fce332d2ae82874787a6c6c8008a7577ad5d225f95182e8bd2d),
(0x813cd833dacd891676af5b485d1ff72bdf03f2cec7657e6d249e79f1f12d7476, 0xc364d1eef5f1d5f27438c58dee926c187162cc71383e95240b80cbae3cea17bb),
(0x0fef2337cf88e025d70e2a44e68c22bd95371f3614ad9009f2ba8286290495e5, 0xb622fc008b0a0f9a9a36ddebce10d871e5dcd7e965ed278421ab58916aaf7404),
(0x8505810f22888b4cc8bb708ec1e4df79a3a361d95ac2b259acc18d68e50b0952, 0xb80fd8aab7196e0003fe24edfc6742d30e7b2115967f838a2ef003453dbd4d34),
(0xb7aa2500c77effba3e93a4e0b09a0f5292240fef04282cae4c8036ab2e5e5561, 0x85823a061fcf232802dde3788802d211fb2cda3c0316dbbad30048be01295d7c),
(0x6dd2e626181f00076ed5376332493f5500a77cf53c26852402be805c7da06c95, 0x2a6a76bcb3f96c7078920303c5ed3208170fa9696c5264e0c3cb1d86ca322da6),
(0xff5181a70ab79b40a3afdd398ac729cfe49a6a232fa46f9e4ce0bdc4696e9f9a, 0x99c20ca8b11b6a0547e810748a34c606140eb3c7ce5c843f6020324962858aad),
(0xa5dfb75832aa580a790fce58b4c04a1c9de648f419ec33f092491275e8243ef7, 0x78a66f07e1466785edfd552399fd193501ccadfbe3b25bf9d5279ed41d0b9fd9),
(0xfc5e4688ea6e4553610946a70dd3497e0a5f698b82d6b4396a21e082a9aabfce, 0xd1b32a9d761df7cc3d69b5bed7aac28f976be2047b2aff0f2824fb00b70d697a),
(0x179fb126a3cd9931f135cbe72604d3bc83cd986ad9a7900a17436875d3507016, 0xdc2a57cbb0bd39d6c8daf32ffbe6b30052cff0d312e84b72c00a7d763578e749),
(0x0af37b7ecac168109c51fe45b2d6da7c3505c1e4bdc88b105a386fcfe30a6c1b, 0x4dc24b7961e9199a0f59497432c9352b4ca9d73584dde4f7a4c0127f21cc17f1),
(0x062d66f6b534cd8a66236ca85b7de9a1eeb49aa6e65e5298edd1a99f96fb1dd1, 0x83c05dc7e69dcb3c86dab3d1153d93f3e98612396e25d3f606a6d637248f237e),
(0x6a40f3961587f5ab89280eb0568ec9c806958b4dd8a379ec2ce2489b7e451ece, 0x074972d61100a0bf7751a4006093ec781fe16c82baaf0e6974142a17a405da36),
(0x2838f8f0c6e20e539ecba383c6e07a2c5022d436904e5da2b91b283e40bbd6bb, 0x6bbbf9622b7c41a46b72a30bd051551ee1227362b0664dc2509404c2819b4985),
(0x21e927c282cd4635c9c19c00f18ddfe87aa9b60f0f3000c32019871ea443333a, 0x6834c23de05bc59cf6fc64a3af61f0497c247d86f76a2ada7771dd16999febb1),
(0xd9817ec8f88f9cef092cf9df1fa9099f3f10ac61fa641ddc9f36e85498822571, 0x53c57b494d84c3e7679060b7c7c8d4adf2db0c4cc8cabbc75c29ad1580b963a9),
(0x6eaafe921994519c1c61bbccc1ad6ac6f7a2d0b4fd88354a6a458e7817503e30, 0xf29a7f85f3e91dbd9e011055f47a50797f55fa4f46a6b188ea4694d50a086b4e),
(0x002bd45f016257222352b5bda6d8e2b80e7d23c3f8497fe7348a8d5997b5cdbb, 0xb5f9d5a98ed6387a41397e546b3ff76c4c6bf4463093e9792d1f87487a6b725c),
(0x176d02aecf4f1313ff804e22326d6a138b641e2a3fd4d38f2c27a35df1f456de, 0x5ac13641d2f19a4f77097a4e8eaae4982afe94949188e411e03ed031fed9eb40),
(0x6d0bfca86296255c1fede5ef8d04dad12b6625fd7bc127f73f6b82d8b257ca8c, 0x3c5c434a81c17be88101b5d5ead55e609d9dfb10c5ce1b41484d5fb6f595fc10),
(0xb67d3fe4f6617324a4063fc1142ff4b82a605a268b8fa146697db96d570ecca8, 0x63ed93c7a95a0ea29ffd60905c096042b55629974957f47b2d5bca1421114bf5),
(0xc171bc24fd80dd054eb3e3a55f50c9a5322989c8a1213179be4503d002fb1f1a, 0x2ead84ac7528e7ba982fec814b68ff7f7aecf675281f126f9f41a7c45deb2e03)]

/-- secp256k1_pre_g_128[5696..5759], /repo/src/precomputed_ecmult.c:13958-14021 -/
def h11_1 : List (Nat × Nat) := [
(0xc4936f579626937321abb8d7df07e4ae48ae1f18ee1f8ea56682ced8ec911593, 0x52ea36641b44115481805582dcddf21680eaadf74fb324dc67439b03aaccb1b2),
(0xb0a38c84ecc73fce200658d3cb43cbe8e0df114b5d1ff7a933158b67b404dae0, 0x40c381ddfc600cfd0ff24d7c988cd4ce074c18fe130f42482ced320bb91f2ff3),
(0x1610da0b300d59dbd8746d5e17d71ab20e7e9c1d2b43b688656e570c60336b82, 0x8923b2e2fa3fd34feff4ad227f9f6638745167d8fb769b34b3bb7e12a25c892e),
(0xf672349510cb5b38da909d65333adb86d22ed85574d24d3583294cfeac88d999, 0x6f726bb3891187c63c74392fa1e3ffeaf55b9a9e76e3b5841d13dac2e888c740),
(0x3cda21c1d048a768d2863f4d1028459bc9a91c312626940cf762c07423d85796, 0xaf05c34b4a15e00bb6ce97cf501316a085ba33f2cb536f27324f550654a8f03a),
(0x24e1bc3c84c0ce3f52e1443c1ce82330b69bbdcaf09724d7e616135ad9f99c0c, 0x61385dc5e5c36e42275109b79c22940d3ee4c67999802e673163c114be7fb0eb),
(0xf951154894dc4fd6e29079907da4a5d8ffff1eba4fe12201a3ebadec2620a2fa, 0xd40669dc1eee21c8ee1110c2def5de0d4f08ca556758dd14b6f3ce6446b2fe4d),
(0xc6808c80061dd7e30f6fb5aed129d23bc2101af0130537d54bb99baa1b8ee268, 0x2fb3e2aa77870909993f9d91bf670cf9bcd5abfe26ea99906f9805dbc8707f84),
(0xca952b81f79a35bceffc9f2cc66c9928cda6330f42c44f9a3191ea5b5f473c3c, 0xaa53ac41f34fee5a2028f7fa8ffd510623cf2dfccfe5a1f099ef3649d7f846b2),
(0x679c1de6521c29f19b0d3c5bab481e53d01ec2cac719fbe416054bae593c0592, 0x61d4eff305daff1fa4bb875ebbb427229cc996d0405c74d06ef0c6f131ade7c7),
(0x6f7ac468d33618d78c59d8493571abb51d445a43af10fbedc5d25b1358170f76, 0x9187ac460f2076aa5cf4de9352e5437c4cbd2220d8070172807e84c810a05090),
(0xf4ce85c086a4fb782f081fe5379984c31a7aab89ef9ac386a6a8a11e596278dc, 0x89d6d9d675983a6ad1dc4c450a3dafc1cf951dde2a038261b414eb94f9899886),
(0x18b0b22519360c19739623b17850107c32ca6b61295a8161fc9d2e1f8d1e60d4, 0x04d8fd5898ba10a73aadae04a9ed18a78c48bd947825f0f3b42685e0d391dcc9),
(0x3f75a8660537d022f6b9b18a330ecdc0bdfa7aa75b213f4a876705ff0635d8eb, 0xfd0f335bb4f4161507ea27522b8aa40edcdcacbc1beaa05197ecc250f0782cc9),
(0x58310e74290245afc4acb91f20b29db0f519503924b9f76f16952141875d0124, 0xf79e457c364b374b43c8d6eeb408cbb294fe8eaec691442783a74757c8b27f98),
(0x90692ace4fd3c4cd3c808952d5ea07812192c8074619b8aa4274426efeb7f6d4, 0x3147db2e7b3b8506625c21bf8803c5f4e7250b0c4523a6bde25e874f76d1622e),
(0x154d18c96c441173ba7b8d2b5099d9d392ae7e0d57419144229697cf52384f73, 0x1c19651831ad8cc5ea72b3f00ed0d30f78b773a81f54fc3729043a356fde93a5),
(0x311ebd4f5f52bdca290dc97c73102ecc421a0b074c53c05211b0bfc703b6eb94, 0x69d17492eca55f5372b04c3406696454ab779ddd8c7eb07a34c8971cb5168019),
(0x0f62a7166976f82db62e48a51eb454640c845b716436d639a9aa0a06feb57d0c, 0xa0b93a323fc8c0473c4198e15ab5f499e3eaa4f14bf99a69b3ac303f34839448),
(0xc23e0cdd5e39eec0d3ad195b19294bc430c11eaa67c6e87ba4e2a88c60998ed4, 0xa521d1b88e409682bf7b7dafff45f6976254b8ce6c63985aad2d9cfa559208fe),
(0x742ca7faa8b4a98f28040f8c15db604570353954b862c223c7979eb23443ebfc, 0x251ef412e97a7e21292ad45e46c40774b97a78cc7826e45bcef481f4a64b838f),
(0x622a14f97bd0440763eb5d52c15c2f3aae185395e89dda703cc4c43960c5592f, 0xe5db52cbee60b30369da59eb87ce10c3c485c239ae1c849d32e0e239df4d4d46),
(0x3d6dbb7b04e28da6b731c67a6c038107c2ec325b6b10e31d9b7d5273fc81e20c, 0xf0b619ac0febe82f8c4caf5e6d4710b0caf89c2e1a20073d66ebe05d69fc2c9f),
(0xd450d441bc191b5f9c2556c5a56d20c448afec13c7e4b9be320ddb90b4c320e3, 0x0661be65b5eef8e8b357f521d360379c585c9e71c27bd038f2d63f726f6606af),
(0x82f9dd1eddb046b22b33bf192970e41fc5df0c45f1375133fe1b365ceed1ec7d, 0xcde9eef5554476e5e775e8291d38a5721d055c4a925c7eff35a389b1388e18d8),
(0x5227c547834a79e2d6fb0c3d720661ac7ec0e2ff5a1480bf3f31ac82cfb2650d, 0xdca309ff621c591daea1badabb1be76d2fa30a0e1c83b4b0d66cbd597612c0b2),
(0x3eac813d7e2c8034f1d58217c4372a96a1fcae27b29ed9c4e870034f7faa78ba, 0x94005cc87b8f7aba143573b179aef9420c1519b39c63b58ee420a8757c4c8b80),
(0x9373c48b50fb02430b42762e3b80994d61986116ba2c0677a38daeac7dcb21a0, 0x295f694d70f8295bcddc1c76141ed17ca1cd8e5b79909785dad43e929247b250),
(0x14019457db85104642b51ece50fb8d94201a80e0f29d52ad1af35e4b8d82c6a8, 0xc47d97c9df2816f9a6147dba7658b5daf9588dab8aa393c58f7217869c498b9a),
(0x1b01f484ce98064bf60333d365d926feee1cead3c1497c888409be912288890b, 0x6817b86a86c98512634bf90b564ce10913fad61fc807a25636a5d6aa7f2d6005),
(0x5bad5660f615f36f6bb9ff3b19c07b749519caabfffd98a04520802c88b6cb22, 0x4d23780ae6796a72324c369b1987465d905407888898751313dea0cd69f90dc0),
(0x7044bd7c29d2a7cdd662bf1690d5ee3593175691b62d68e3f8f66ef58304c509, 0xf263888d52d7413360ddfb1ed1c09b9c871d6eb1e583394913d249735721ce12),
(0x186411c2f90c54026445dc4a4764318af3acd81152c01dcfd11d13cba8c02afc, 0x462b95561bf18dff8a4211d889f420d2122c4ea97fda3d23558b6304d25b7aa3),
(0x62ea528c185fd551745c15126fbfd40e5f8933de4e1e3b9592a93b0eb762ec3f, 0x276da42e3c8a67556be49e002e42522be3b95e1539a4708b36429a944f6a86a3),
(0x5e2c7621efa587cebd3c2392a1b8dac850b15316c42570ed7270b521a65d6cc0, 0xc7faa23feafb70ce723338d819bebd10bae703d21e72b4960f2f95b6e83d7d22),
(0x7e27207ab80f124f9694f1439a0cd8952c67a7194075d9fd1bb7c9a5a22dfa3e, 0x322b729fe19d75f58974952780f3ae0448edf9e9d8c2426718812dc6bef5e602),
(0x3de40b439077ea268d94aaa193e9c7cb98e362a1551b9b10d5eb64ce15986582, 0x0ba36c2be0f9d3d0220eb47f4ea66d0159236411028981728582d3c519576943),
(0x81e948087e89846e6c7e5ad4feb8f0da4553e4600e3e4620d87a206c09d3232b, 0xe216962e04068a44920e6a9ef03efd5eafae7f963497ecaadc741c377e9943b3),
(0x3056eeb0d00a19ccbb5a2ac7f320ea3a4e931187498ec23cdaadc820a34f49da, 0xc6803559271b265c802575851f0a78e985abeaaccb570787f398766caa21fed3),
(0x9b1e1189752fb7637a61246a7134145f86b973b1e44a5e7cc59998a277ed64f2, 0xf6793c879b8c380e65296c8beaeb98c6b66e0be0d03865f404a091775dcfd332),
(0x807179baf1f9ce93bb1f7dc60e3c651499077419472b9d8a1a8cc4e20f35c0c5, 0x3680721909966eb70f18dfb7d3316eec54f1a9a77214d4fbce3f3ff2935e2ced),
(0x60dd7b7ccbcab93b8ecfa4618cfef03fa74bdd4709cb90a15e46ca7cc1bafcc8, 0x1d24d1479987f77990cde22822ea0cd44236875d943eda25fa25096fe16b8ce6),
(0x19daeb2623383b3dd15b007577a5e92fbcedee4c91996546a7c52200d243e4f8, 0x126765593d67fe33b1c01d4fcae44be15f5f5e310114996283ce8f920f6485e3),
(0xf42f8e1a0813dab89e4db5de27445215c0fb1cd891c9a96fca5ae1db14e84361, 0x3cd2ab355570599442070743d01fe63334819d2a0af95e976dbee1b40e3ba2ae),
(0x1a2b774cd5d0dd2826d7c4e5886d65b7a219952c6a413d2b9fa8f76573fe2bd8, 0x4e2d0ecb384a158ee57da809d065e39a27830625400c51abdffdf6155d88032b),
(0x0e9fa7d894c550751ad1731a0b322fab0fd3d17a889bccc373e44e37b4c2c880, 0x67528cade7987d1277c6168136abe0c95dfdce0933129f270ffa9d3653673bd2),
(0x5347f349e54c301babcfd8cc50f6fe6d8fcd0fcd861757d2bc36cbfe39f460b8, 0x16d08dcc2a837b6df9fe2ffab188a9669d39181aed2aeb409ed17c8b554e9d27),
(0xe20e8cea4450bf03149bdf60e95f7ed369fd79d0aff9fb8cef6e5287830c7ddc, 0xfa256932fcc569e2613bc0af5f90263e6db633f36cebfe464c70b0439b886058),
(0x69132e10b3a919a98a7188b3e9afcf6c2d53859a5955e114a41f131055ef8441, 0xe6c339cdddd26e0eac4a1c2b39e19cae2d67e7268518b75094cb5e6cb525d84e),
(0x11e10c959bd9f79dc2819a87e17c0de79105af6bfdbe3f6b88d198a7106c861a, 0x27c292274a3677c7381fe3858382ca38d4b98e91af4250fb40540828246d5c16),
(0x0785934de1b1827a471d7e592a4c34753054b00eb8aae372444b00efd9d894b1, 0x07b8dd2ea038d4e623f0f1f5a2f75dbcfe34e76f6d106ae333d88a0756dc4a60),
(0xf09c814e8e66b8e5930f1a4928b28e5d206f4108fe99f04fead930961cc17605, 0x469bf934b4059a4c4a942214e1d86fe6dc900426c7d0eddb8d89e86c76d60f24),
(0x732901c726982b9f0ff1229a3e8f7c832f47437b412d0b3e274a73e424ad6480, 0x6b82e2d3d4830086cf4165939b04ff7a89b835bd81cccd8a7a29d47cb70da3b7),
(0xb8369a11d23ff4ea99ce166a4708ab9d389cefedb1843d8d6fc11f747260faea, 0xf4346c3663ec0ab36ac12df7f61e9848c2d4cbd8c8e6e1732d104d0b0aecaef9),
(0x5499e4093df85dad411b86750c09d0c0c25bfefc2afb0228b94f834a34ff83bb, 0x7775c8778fc6e8d0519a67a807d2fe9cc8abd8c115ae1700ad1a94d7925a4c78),
(0xfa5bc8e6fa9b13e8ad787ba1497a6b975c34a64da0da5b5c836bd71b88c93740, 0x8c919cc119e45de154f6d0d8f22d3b51169b3f0d181bb40a56213cfaa4ad126a),
(0xa871c481a84f444789ecded1e2b1f5259b1d4ab2b16af331199f89f5730cdb0b, 0x0c47860930b85d691ae45d627aeca01c9f10a119500d5d4ac317fdd78de4a103),
(0x63d3be2766d33bf8f7a38577aadd5d9b234bb77fd206b056379e023becd25616, 0x9509d09a6dad6da0aa5151f8dd8e3800abd8a7992276ea0d3c958f76498ada87),
(0x413ab945c133d383d70e81d334bda75cbe7bacf5e49d71e37a884489adb28f8f, 0xc3d49f0d6c65f6d61c9c84dfa4138076f01689160393612b837c1df5df710a02),
(0xdf070f4dce208b390e2614db77c6aa322a50bb262ec7141ab1e26835911b85c2, 0xb0b1f45301815fa783609235da7bec0ef1bf2ad3b0e71f7f7c18de8f83f55a3b),
(0x1ae86e7f300efbe708cc933cf8cda3391f0f8f7e411e6c0e708a0d75a1ab1815, 0xd322b34ff07787827d2da5c14d6bf17ff8afc8a18051a724bbd719e0f5f31a2b),
(0x2a38dfd9ee86308be0c76ca18dbb9ec0fbaa86fb510758879283c070f31106a9, 0x0069cb4594832b55abd6b686f67d493a9d45e4a17d557723fbbbbb837ab30cc4),
(0x2c6d7ab3b1c3301d65c79d40583b566d3ee39014345a4553a77a8e4695b779e7, 0xeb392dde318bd27d446b814e73f9cbf10380e38dfed25022bd584585d671e470),
(0x758739e82aa2e25eb1d8e027b0e401b2c82db2ca549ebb9ce1560ec4531c5c77, 0xd3792987c3da2cc55760e52da19ea1b4d0c2cce53f612760bfc2841437090975)]

/-- secp256k1_pre_g_128[5760..5823], /repo/src/precomputed_ecmult.c:14022-14085 -/
def h11_2 : List (Nat × Nat) := [
(0x7ef11cac99fcb66b71de229bb34e82c6e3149f85ba1ffbf7f22db64c06a72588, 0x64d7c546288928641db41465a134cfabbc08ea6411f5b2d5b1de9f0f7ae41b70),
(0xa7d48b06c66ef847f17b4b3dec40eb97cb91bff10c06d4a65d6db8c35561e4c7, 0x2f22aae0d6eb7221d24f025dad1768a9a619d6d9db9d8e74948d926303d0676f),
(0xa14d73541bb936250d80f654af67febbd774e42b06430a14a907c52f084088ab, 0xadfe7f752b080bb689c031fec7c11d1a0bc303b70f1a0ec238a4dac4afbb2a5c),
(0x16076f95b067381c9d71cc9a928f10db43553332f747e33e367cc7caffaa5f88, 0x5c05040e43a29d4de16b5e42b672f6188f0496eff307c26913df7c79ed2b1502),
(0x973450b4a297ebf170630a71fa74ae2c8f3f8e3918ff73fe41bd1e655a5acd29, 0xba04c21fe92ea63999d5d87f77181c31ae8ed87cdca220542f746fad61f63039),
(0xaa29f7efd2f06187108ab23e16d9f3a774ab6459550048cfe1ddca0b45fb5942, 0x0431cbd5c77b31b4d8b8568db092e721a02d643a75621eb61016b3639728e2e8),
(0xbba61b3e52614d14358dc227e0c0ea6ce4dce364fb7e050072d0d78014642d9b, 0xf33e0e726e9ee19521fb4a802510156b0230a7ff6e4c6b38cd38b3cf65336d6e),
(0x911443a6979ede22f23df6af00e4b1ab73867dd7a47e92683e3cd83f241bfacc, 0xa0e5be1d31cf03757c2469a590f3493be43a99e2755af9d8b87aac67ee7a6488),
(0xff2126cc5698e6c12da7f441b031ea1130132b8623994f64b332a8f287616d41, 0xc616d5b379eeaae2b072a11ad2b316c1b2c851d6698b6d867fae1abd482e91d4),
(0x2fe68e9dde15173112e1653a2a6abce7615062fea5375ef6a2be1e9067f6d8ed, 0xc24e4b95718acdfccd9f39f5eca6f2fe74fe7f9bae6aa352e3651bbe5d81c9b8),
(0xdc08aedd90e96f6b892ee62b1f7196196af4497558d70f1e7294863e271ddb99, 0x7250d8461ac24a2ee74bc5a753d5361f8c0129864364d84b4afe22cfc94aad99),
(0xe9c21052f350d1ddcaa82594b6eefb5bf8f01ec41a423278fba3951bfcc7eaae, 0x6992071dbecaac44a5cd1537cd066f2fc432f198621b70ab360ea8d135757784),
(0x0110d5ac7838b9d2d33bdf5e8aed85295ceb9334d409074f3c26e3f9f0cb792c, 0x7879e339427d8425b597e76f56a7a6e79a8cb00b374ac98e9cbec66a047bceac),
(0x92982af9ab48532fcf2ece2c9ab346b87def47298ebcc03b91869aeb42f9bbda, 0xc6bf5a6e8639e2ca772e8c365f824b3d331c7be94c13e9a8ae6a779e208a157e),
(0xc3f07f475246bb78eac4e9cb263c774a3447acce993a970714c1b55379013162, 0xf1931fa5d6fd228aa5781b3545faba70df6bca90936acf17f81a11554897e136),
(0x37640e7aeef3f326a598d363df4f46dc8f0decb5ab6e368e62294c53ef3fdc7b, 0x54fe19ac83a074aa796feef68d39358c7be8848b433e1eaf9982701a3eca7a1d),
(0xe903363b006c90bd2bf1517683411d1daa9f0bb4a22b5f03ebbee32f8f0cdf4d, 0xfa44eae078b4b6fc63abac71ce0a6e0e16b42d8094179f1a657eabd87eea2480),
(0x3c5fdd9f7313d178312bc477849ce90ba22770df867a815b2bd1d1a0600afb6f, 0xd81524ea9e23ad00bd7197ee6345774575795d6a063b8b15a19cf60672159a05),
(0x40b540cf43713ef5c8b919af6c991632e60c198a677887be33b84c707c0ede8f, 0x545862567352c82449ebecbe6eaae2598e1cf694fbb296bdc14a4a59240798e9),
(0x67da332ff57adb728eb8b9265a650e23bfe5271e396d74f309878c226f912053, 0x91aec263d7b74e09b4fcffa487cee236356e4fddbfa257c8f3e3be0f3a3b16f6),
(0x40cea066fa0291785662c994db5b1153e59fa1210c9133c2fe1c6d2091d44d98, 0x61475cc7a5ff5251558f258baa8d69a152ed6497c8ffcd552b66baa5534df64c),
(0xc4eed050248cf186f8e2c0790870a139c0cb13ed2cec040ed98a18ca09b67ed0, 0x50e9997e263c74419e71405a4d342e7600c5548e1a7a3cc297e4e00e91fc476c),
(0x676b60d214e309a68c7a847070d5bf628b71b7fd322ae56856fd4a4809f3ee83, 0x016e0d8d371ad6bd04713e9f7c5f329c072215cf21a4852735a0df71205b733d),
(0xaf26899629117c69c3beb193c5cf7944d4d3cc1b7481d08e1a190b45c03e1fe7, 0x359e17dbbdbe179c8cb75ead8a0e3c862b1d7d2804aafd2ce45e7b9ac6d83ebf),
(0x62e15cc5a30d13882b3c38904e1d11db97b0a7b7c658175de438591ced1ed489, 0xfab66c6bab7b5ed5815c81ca065cf364f4cdf8fd7a6fe8e9ab5ceb663bb4e8f5),
(0x6c7af496df980977041f5068f34d04777da16397c853539c1b0c12632e43ccaa, 0x4eb0e4615c6fd9e43aa0520188bb264bd55b3a05fc2b6c8cd6f5f51a04314f6b),
(0x757a45d44c662311289be9144ccca5ae6ef89f5152d66a2a9be64096cfc8fba3, 0x732ddb9f62fdf21744d7daa635ca3e92c3b84061bae4c22013339e06fd4da7e0),
(0x14978c08f1eaa9ce4d878db329f0bc9443301fdb24b525e54f9f27d57fc114f9, 0x439d8e8b2b9fdc0d859146209c88373126e961f682407867b10bdbb53074e5b7),
(0x3f231c93760d91984a8d9adcabd83c1b3ae620c8f067d1036d1e5e022a72bcf9, 0x095eb3a0a928d3f7dff3426d763cf6ed20d6df2fc5dfb17fc53ce0b790412bc7),
(0xc90268ee75cc8e7d7fe84298b1db425580c3c45d3643a280e3d5d0f67337b616, 0xf566fecd1158d49cc12a1dded0b1fd7dd9cafbb6ed3fd09b48689f850b01cb59),
(0x06457f0e04d6cee87a2c0aee85306a0242c017d01e1c98075b46073205c1d82f, 0x67bf2f81262de4e2ba9d29aaaecc9315ff56c3ed2e73d4382a3dfa6dfaf9808a),
(0x0ddc591c1abcbb883de13bc4490a66d53d96c97cf1e21ae56a430c1c39b1b629, 0x80ae50f7b81f043be3db78c4da7b6078871d48131e076ad9de59fb27b942f72e),
(0x22b19bf05efeb28044b43bfd7a6b342702e8b3c1f6635ec800d6966a6667a252, 0x47f504fbef2cea6c8692d0a51f492560151429c30e522c232914e8809ffdeef0),
(0xd5883bd6c13d93ed50371ce6ed6c4263395c5d28f589c84ecb9fbfc72dca651e, 0xacde7b79969cde2b9a580387d8e3a99c45f15d38f2e2ed79688a3a95080aa9a8),
(0x9615736a4804dbbe439f2f82ca576623a1675aeb9ea9e40ef6b910b6c84af16b, 0xa096721667f9dce625ce533162d4547731be742774eeb1ec4e3fe578343c46be),
(0xea36bced959bc46195e730f2262246522472c2c570df6832befa40aa5c600e32, 0x0dd5209482eb08c4bc2330902aa5433387d06885a9357f40246348b44d97fbf9),
(0x44814860ddf61b7777cad44318c2168685c614b01c5830b30b178a52d85539bd, 0xf3e5fd15c71050b7280643ddbd2c55b9219e7fdacfbd2e9894fa9a4c9cc7ce75),
(0x0814454bcde8699656b44c3969bf0a8f31b6d03240098f9e43d52266cee66f49, 0x8baf21a6601db25f2e18f5fedecb9f3109a6378cadbff6ec99bfa2ff8d26b5c6),
(0x1ff790f111f7bbb5b6db5f83022ac696c1de09d8e50b9f4d641ef76f0d43fdad, 0x145d0aaec218d6c0219ce9c2313b4962f873c5c305424d3b536c154314fa9517),
(0x275cc6c06a8faf20c3c1e88b87e27d35661c6401d3a1bd9618cb016efdbc6d0c, 0x45cc522e97b61ff7696c5780638054cb5e97b6d4fc4a813c7000a6334e9f2a7c),
(0x9c78cd3f0874afab23874f0c8a84fbc8a6d032f67fef6c6f29c90513bb6926f5, 0x818a2406fedf958f7efafc4a584ff6b17bae1b65f67d1086c3e013a2cc318b1a),
(0x3c060395f2cfe9f9e3bb4afde5a71e03c5a92491323de27a0c9ebe1b170153eb, 0x344d08c38021fea26f55c0c585af3954afda21e714cdedc68ffa377143b2ca27),
(0xf4b61a9f7392b960752bafd0ce521e4e57bcb898cbb2dd9ab0f7db8a03ce5ff2, 0xe412589ef367802915813dfdacfe80562a59894a4c87640c6044656ce8998d5c),
(0x418698b76230acce495052750a0c01e94eb356a2e3c242ff470b64befa91ce85, 0xcb9dfaf54c64ed940f97e03d30e078769e5a3142d0fc09025e20ac2c21c4ceeb),
(0x809cbcd791c1f309864ca3433d9a11dd2db3d9c45350ac5b27f55e19b9941ce2, 0x8161347a92fdcb92263f1d852923a15c42d5012e30d7d9b8623cefa612b06bf2),
(0x6410c0071d1025c98ce115095359e96258c6a1155e7f34fd30fc8862f9569f23, 0xd76363d62661a55c6c211bc413b1dd7d63fa6964a03d9461e2870f2e54c87d29),
(0x8394abff22ef60517517e352012a4dca103a19ab4091c7e800fd417a98fcfd2e, 0x20d0ad3e0bc0fd15fd40541761bfbb408e37975d0a77321b67ad2ef835732c0b),
(0xdbec1fa7765386c1d7558cb1f19788bfce0e9fa47ca41edb2f2d9ef878a04308, 0x5d7c918e335ef23a934fc96348dfd8f6ce79885ef4c463c50b2645c848083ea0),
(0x9d6fe17f3f53f921893a422fc9f675d4652cbe09a870c81d8b2ab9ee9a591cc2, 0xfae9ccd0b22ce7e302e7faed2d47c36f25cac5b1e56ea936a6811f118d485a2f),
(0x622f8f9d65c4270b1479e4d66f82fbc4cf23e7a4d09a653722c20d9c54f85f55, 0xe87650ee4d9ac5d9c65666121b6e46797e52953ad7c3aedc2fecc22fd5b76591),
(0xcb1db853b615cb5ab92d03407ad7891f2e7b1d4d120ba3fda1ea3565ee1d1436, 0x8362a39d9d425eae2451d60127ac28243819da08856d0db218f339d6fcf20046),
(0x5cbc6a6359d9d6a52ceb093f00ca5caef32892f7c9d040918245d9aeebd594cc, 0xc4c18f887436575f39b9e7c327c4efdc6a3490b123c50743ef03b1bc034566bd),
(0x37a3cb083a9b756178ff2128e7a5b9a119577af661974869cf555dacee2d11d8, 0x1a8a62974d0b6c5a12155e9bcf895c95f6fd2b1a02776c328d6b56f832f114ca),
(0x8e0611d7ae0914d05d39e06b9b359400f21c3beb73ede92dbcaa6d968a995b95, 0xddd4f522d1c6a9649629727f5274066443e80ac97d9c68e1225e60c538129bd7),
(0x9ec34a918a4648f01c1d726b51b1874f364101808bee25acc159c251fc115510, 0xbc5ee2aab5e43b01b34ab9895f4cd71d1d3e62880915daa2e84ed5314b388b8b),
(0xdc19ec7dc901e215f6d0603ebb5494caaa9b540967a5a3398915c4cd84000654, 0xb55b9596a18e53c4b82c669b92defe5fbb5e58b03cd227b603b439b4ef13bf13),
(0x51bc38040bda51e9d0c4508713599f12b9a8599d6e8ce9495a3f595c7d38dc8f, 0xef0d6522fe3a3c4e64ee10920b9ae8f60e7847bf94044693a3ac7cf00f4aaa37),
(0x13463b32dff393d3dfddbe3fbd6ade13190e0bb583e3f126344b5e013105e234, 0xea3df1a8b8270f7024910f40a519cef49944fcf4d82a430063b2026f8f019ff4),
(0xc49b32612e286adb606686d967dbf4b957819dac9bb75f448f1416ecf900fa5f, 0xffe45b6d8c19de7ec08256e296667d89f290f5d225a9e380c106972d79551b1f),
(0x10fe7aff36a8f4ef79e2d8ac619ca92e2300878bcf21a27170f89e9b6294dd28, 0xf67da70f623fe6fd2c7113ebfe6458fe0d0d5471ab639050685a0fd933afd6a3),
(0xd56037f6efec78c6e31e633c570c5e4696f96276b86d0b89e993f01453592300, 0x02499b924fd99b5ea56f9649bd8e53c4b2f20dab9fc1de83dc1990221f606b37),
(0xa3c1d0c8939cd4b75cce8ce2f3be0226589fb32e55457fde8e700a77a60bf003, 0xb9054f66bf6450cb782533b933190084d6f5944f0cf4e06fde72d483144c941c),
(0x85d0c4cae1cfe42fb5f73f3142e97e6bc0855f7e0db19b1a8668e4134efcd249, 0x0d8372bc937fa754b81631aa33a8ecbca25f86d30d5e06270d6964ee5c08e68b),
(0x3092eae2d41d0ccc10af9d81fe8c80f69ae27c9b74b5f6967a69211c8d6ef98d, 0x153f0882f6b720bcc8ae5924923e0608d6163c3b32d36742068718d6e7f35e4e)]

/-- secp256k1_pre_g_128[5824..5887], /repo/src/precomputed_ecmult.c:14086-14149 -/
def h11_3 : List (Nat × Nat) := [
(0x4aeb6ac7fe874a0f1c24681d884d54973486f2939b01ebd974c34ea3429be71a, 0xd7077161c508a7d963006566f652afdddf87d0b28daf3fba21f206eca94a53e4),
(0x729bb0f7be975284a68363ef40003a6e0c770fa45d6e6b99ab0c5042da563f32, 0x1e0435d5ea85370a7293396b407da43fc540aa0424f21de6a002f555cccd4480),
(0x96164ac51074dce13b973689a39b67959bf5756c4de9482966bbdd239e665fdd, 0x5cf13b8f56c9271080c116266bce26c214a392379aa68ed1b7a05d657bbea247),
(0x6d45d79d9297bb8a0326b889391b18d731af609c67b31be29b4273cc405e3f80, 0x2d99909a7b6969fe148111fa1b9c9326097fb465494a8225a6c62626555ed02a),
(0x70091076b5b81f33042170f04881c941d2fe9b0eff15622166f0c92b4f9e8e71, 0x7c676c5a4fb434d658f635a820b454f34c9795e8b8860d274d0fecbcce7824a2),
(0xd04c0a77c8fcb3a9a02df253b881985363dd47cabc1f8881088d5e5687a7db74, 0x302d1b96c35a262622bbc6e2841b5cf8efb77374af428f9ed69b2b116993db09),
(0x3c93d2bb7ee61cb07a25ef65f3e22eda6e74d2ebf3ede111b4f2a28bb4f206d5, 0x65ed4db2b1647b397225741e241310e67a47f0ee4f459ab13d29689ecef70336),
(0x8efd5a54a4c7567fbd971cce7ce3006e3524dd81cb7a4ee1a5c61e1262961037, 0x6b9688d7d73db9a71410738c80430ea6ea329145718b417771e542a693b494cf),
(0xe7aa812134fa1f75efd2ff02273becca18bf1ea947d168e2cadd6e9a6c448425, 0x8af9da38e2471dad128e004ad7b039322976d84b7c91f91aaf471546dfa5acdd),
(0xe4335a32b3218d519c582689851385914b7cd8fd4e4eabc3b5f9e0b4c3212b84, 0xccfbfb0f50b5fe75c849510abac5870c3016573a53eda160b14602c242ca02c7),
(0xaeff696fe98cf587745adbee3fca1ae23f8f576856bbad5f04a26afe904a17c4, 0x55dfb880250b9a5b7eb971a10fbe0cd6ad2d375b88d98e526afcafeb07ac4617),
(0x72fdb2e1eb1202444b20bd6dafd6d49f46a56f2563e679c52de98cb5bc999a5d, 0x000e29f234ad36377b4a9cf6c307b8a3a779cc22ae472aaceb519c108137162d),
(0xeda9f183f89750bc8c12ce7afee5414542edd9ae9fefd508ab588bf16c7da0e3, 0x0a9328c581b0cb02fc09fcfd2a57d2c8fa313ef54e2059029bcf0846811be308),
(0x744683c12a0150be01d7655eb5a3fc974303387be53bcdeb41dfbabfff12f6be, 0xdf2e4b05a459aa272d3de8dd4c211dece35eb7986705028557dd53e35b9950f6),
(0x9f3cabfc106653e465daeb52e86d99ffe3ac6df45eef90f061226cc032592ef5, 0x9f20d1741b78c8ecd7425d19fc0a4c9b1f1cac8db97514b58585901c41862306),
(0x9dc157159f59c338d56a7d9dce63579e9e95424de6db6927418b024fed95936a, 0x278716bc3e131fa475b9ac006e868d88ce17e6bad7ecd202033fbba0fb34f0f9),
(0xb6c91d90b1bf3b464b52618669e1c118dcf8d6f9c8ca74735a361a28b53c823e, 0x15132dc769e59b7bfe5e99661b82e47b3ee4c3a31c0b8201517dc567ff90a4bd),
(0x056604a9ab972c4af18d5f8ad5cb6d9402d0c841a7defd1bb94b1b25c31df400, 0x3d2f2a27adc2eb70336b4b4405229e09a74a113af1b21bd91e3f235115f6a85b),
(0x0a5b57defcd3016a917ababf171c3c31ed62957bcd8d233d0c551fd96216561d, 0x3731d822155afc288bd7ed3930c3f6e358a46f5dd9fb3ed26d7c7da2a8dee233),
(0xda179b6181e27ecdd545af40ea5967ab7c0ea9ad68a8c0e74d4a5aa64aafa549, 0xc5c97c42e74f499155191cf33118f05e19633eacff5ea8d07ec866a07fbbef29),
(0x42a0e8641b594b9890357e4e8c32422a19f368e8190170bc6d8abca09cf12f1a, 0xbac7a5e5baf7ddf4934aaeb95078e0a9c449de0acb932b13a93f474f52312d85),
(0x74c85e38944e2003435bf3450124656a6a409bdffd1c16ddd1246d45cadcaaf7, 0xbc18315dcaf237d55f3ffc6541bf9ca9f39af9f0cdde6fabf602e888dc51bb7a),
(0x08ceda42698e599540091f6df50388e27c229b0e76e7def7f8986b6caf975e79, 0xa8915f5e7c524e555743c3922b31c42671fa938f84679389b3738af759e92430),
(0xf44e2dd3ffe43da2066fbaa1990d1f19e3e4e44fbb565ec874af57d5feeac498, 0xc307b3c1a90da318bf928a1aa889408029874639ece7700d4f4dddeed005f6f3),
(0x7e30bb38c9a603f9d5fe78f7453d1c8130c140b21ad7706b601d6b775c703984, 0x49c9de1d1d057fa6b135ebdcf0b5ad9cf9f51cef95a4cb7cebc11d4a03bbb6d7),
(0x8e1e53c74f7e1595b4a5f7b45b324f0e435473b0a61cdd8b1607c0efd11e3c56, 0x584781c3ae8a8bebf6cd1bb83938fb12359949772d1facc40240fa437bc241d2),
(0x63d0cd7554bf2c18bb1802692d19b4a504acd77cd2eccb7f360dfd5d4b9f22bf, 0xed79b7afeee5ec82e498ebeb467380b61369802c3dd995aec844d3d291ddd756),
(0xfeef5d30b382dd6da0ec0d81b18ae45a8dbe12c3dd695648cea27c147d075be4, 0x20ba81b60b48ebc6b185d6bb2fb7bea5c6a011a124f49550415eb8f3cde3aec7),
(0x21bb575fdb07a1525ff0a7a2d7d2c189742df2769306bc7a30c2c3dff2125b94, 0x8ea74299b7b40a933db6afb66577ce64dd10d24a89bc39071f656f5a71c56953),
(0xdee2dc5944cad7f2310afc94403067fc5c1c3d2adde88ae055ba8becd6e5cb08, 0x606542e45301a6ac86c5c7940444006dd77e2bda011c8af06d8836897a6b6dd7),
(0x4768a2e498ca047267cef4b418e6398c81289c73e617a2e8ca021155edc576d8, 0xf8c574bfbeea93d71a2a331bcee494f375c1bc3bea9181069f1665fd589dbc3a),
(0x53d75697160c2b90aaea7f95ad24bd66b5fd7681f2802befd2a7108074f66b40, 0x4b04d94b416a8098144dccabbcd8742b13e85b2eec8817c77b7e58212e8b56c0),
(0x832f268dad5f3bb2dafef9dcf94bacecb369d4a1ffbdfdaebd4fcd9d77404e99, 0xa6495805c9b439b326e32f788b06765e8d984a3786ccb4e388b36bfcc9cc582b),
(0x657acf2815b8cc1283265bcc9c826be2c6d5329b351fee502ed96f4fbb1a6333, 0x171a0a97b2809b24a89b337acbeab96e7d1d850ddc577a10ef3c757a9c2da9fe),
(0x7e3d0a00a3378c89741184cf36e41bb8758fd1310eccd970638f60d931b8348b, 0x6f2cc77731f945652a3b4c4229be627ebb70d5c167648d16df5470f890512517),
(0x649a30aa4fac6630c7bab76419f9a34c6676f17c2458fb1dac48317a734242cc, 0xfb3f07e25737d6b1a28b074b880db818c9623c1280268b02dad90da1c8d246d6),
(0x6b65264f537fa58009d21588fd86b2464d1818e1ec7fc43b94af9211c835c986, 0x537365ae4e61460dc2c1caf062ac870c9536d8b9436a0ef0dee6a39e2bf25611),
(0xdc1a5599d5cba6b02d692eac304b642bdb32afe259e2e8fc3bdc8f4072c66c51, 0xbd18d5f8f99c6070b7bc06af568e28b92b39dc31ad49a8424bff4a55d11ff42e),
(0x726d39f4864017949e7a54988e8fbb53b8b13ec1cd5fa3c288f0d933894e193d, 0xf23e9fc568c9e0ccb258dba258b3dd657aca0dd40d9cb7bf274e62d4f65543aa),
(0x78d76006857c2f36889c14ee90a8f99379c1e0f35344cafd592c961f75aa8ee5, 0x76dfacfc994f398570d98c754f5e6d00ae3ed42849cb75d1580e81f63d7427c5),
(0xd69c3e3088874c1971bf077c89247826b464d3d50292196f88ef0ad6892375a9, 0xcc7b98de86017934c472bc7be56f14c807494cf56f2791a5d3132c0726315cf5),
(0x09b4022c907c4aa687631f888d47bde4faeab1c923e125f9280dcf867920ae84, 0xc7468b6aa7b4db67a9b4a23e11fff52719e454ee65ed88eb3b89e231e504c284),
(0xe638a25384e985a35dca200a5e3786de526178247ed0c9f79c9d598b8bcf8447, 0x69211bb0be8fcd6fcdb0ebdda8782be8a47d88527bb74b3cd98c41d56aae614c),
(0xe46758abe2838a2842baafad123761377cf72960d6a931053270330a203134b4, 0x2c7ca1c473d0c3a58f5ca7546604ac758c460c8264f5ab4c832893c30fcbfc7c),
(0xc8c8083c03bd1b849b9402bb9472263e37e7d2bc53a77b4cb0ae9b3dbc70342a, 0x9085d2856ebd4446127ab4c2fe7e5c84d5c5c1148ee76a1c0da729339ca6578d),
(0xcf21f3d575f194a93133a382514ca64af998b099eb307655046e2959f71f838f, 0x657df357aa09b443c4763432045d3eae4fedfd1f7fa868962ffc5174d61fc4ba),
(0x0684aa68d4aabda965adbb291056db001c41b9000e11770cc77c687debcd702f, 0xc6f0c4bdf6f6193b928d81b2812c43037e6b90eb598a50b00742dd218d82bf3f),
(0xb9a4ef5c0acf4a8277b818036bcf2672945ec080e16e8c3b19f7b612c408c884, 0x1cca67ba9e98e737b4a551457f254d4f5d793d4e22b81b35f4ab48d092b9c745),
(0xff439f87d4784ca7490da489e2757106e59836baf3fe2e4df6700c08cdb2327e, 0x98f2147184659fa9a9cdb709f894236f18ecdac9f5834dfbb91a7bf58edb7461),
(0xe1750c629c35027ac1a5f1aac9fb4076badfd925f5915b11a267672b15945ed8, 0xe17610cea0b8d837d1038d7d9300edfb5832fa84c4e630f52b01ac64a79c0e17),
(0x2b7057dc1c59ed7ce64f187b86adbbb71d228e5d0eea347c75c73d2da73b3a28, 0x1b136a49713b433ff2c79de677b5a3228003e6142b8454705ce884ba329e20a1),
(0x711c07c9ae61ac68f1041b58c0f2ed071106c2b1bc47e104527d540f53690434, 0xe9199a452f5a3a399506473fbe6bb46a3105aa702c5170517b4c810a5a194c09),
(0x54dc765068c386274619d9a1faadc0d8c2ad8296dd0d00a5f2e53c5e1a1a0d4b, 0x2e9b71793af2f752c111fd71c00f4bd08fa646a0428b4813885d4e4bab7e3fd9),
(0x9c5aecba3f8b3507db7cc231c2c1674c3c3e27be084757fc4f1521f9c3d9323c, 0x413455e19e157ddd17f51c1e618dd726d300c023f0a0d24b518c93e3f2954630),
(0xc22c297205f67e23a369342d9a4e1f6ddc1bf6f588d63086fb54718c00f5183a, 0xa26ca30bd97ad6114ea4ece4cfdd392823c028389723d53f032c3b38320eb707),
(0x8f87ac94a29dd2c9d37aa130f8b4e67b0da595caa22803d10e2d8cd4eba4f2a9, 0x551fab101622776306d7ad2cbb05543921743078e02fe0e10b7dffd608749b04),
(0xbc48697676c0f638a116bcced7ee781b876ef486111fd6804dedb1768125dbd8, 0x16d7c6d019708ccb510ddcd8698c2fddbc6978b87b0639d7a1c8ec6eee3ea383),
(0x5a6ec844201d9b3992a46fe5ad4f05db6e8cf25124ecae843a28da7d46e75ae8, 0x9e1538eff27344ae8f9c1049c12b49d02d5341fe33652a8a9f2eb512c74ef224),
(0xdd6b2c56b13f0ab54e0a75ec526219e14d43ad787deae3791dfb387c541f4d6f, 0x7379c5ff1b793b97c8acba9997a3c079f1c147a0f63a2ec1a0a771fbfc3d432b),
(0x74e275344d7d8cabe4995d086d61d27e942e25143c6e30408402a5ff12a63ebb, 0x7b5914d7fefb7b3d02fdeb49359878b8355eecef65ac589bdd31ccb4c270d854),
(0xbea186e4b5e3663afb00230ed8ac166067b022b9b69b6e75aaecb88dd750d34d, 0x35807d835b75e3ae670bf35c0d415d376fbc86e74f99afbdc60a0b469153a0d7),
(0x17ef6838a07f65f7cc094d4f77743c6bfde12ae30b81625c23826228650f30f0, 0x9d696a8ea5356fa210626ce2cf312fb7198b0937493c9dde4711dba1333eba5c),
(0xb3e1bfcb38c89facaf3baf3980b21e47d6465473c9d6a29c8a08cb180141bcb7, 0xaa33ab832a9d4eaf2a50f9f80ba55d0bc5e3b12069a8330c23120928005f6b90),
(0x689d499dc754f099833726312f307f0d0807f4f6d67df40a318aadd55776202a, 0xdd4f90128a19dfbd8f5f96eddf2c7d79d451f84ffa63b1a59845f84b759377eb)]

/-- secp256k1_pre_g_128[5888..5951], /repo/src/precomputed_ecmult.c:14150-14213 -/
def h11_4 : List (Nat × Nat) := [
(0x4bfb2e589df2750591a73a4c6ce88397a2f68f6e8f866e1fd3af9df1f3c96bb4, 0xa9d94c07299485536433f0ecb4618d1daf309c6b73fa4749aa949e6fbdc24b7e),
(0x97a3004f26461f5fb6cbbca313eecbe75026d958a1804c346e6617220c67f91d, 0x8b8e9bfdb9b704d513bb5a50a725bae2c7ceb6a1ffcf8c498e87c6ffe47844f9),
(0xa07a76e248f8738448e607ee7f30aed1db657b9fb159ac9a3d38e8ad61050c28, 0x7d7749b7aa6dcd68931c3c0d87eb73d96bd5f43ab633e7b8f77406a923fdd47f),
(0x9bcff8ce3a280998fe077cb7a6e4854c4c834e21af1189379a133986320b8e25, 0xda3214eb5cfea248f1f8a1c1e8b0dfcd4171b2fa5e13385484a6c99b215c9ca1),
(0x08f1d2ddbab8242efad20574c0f28976d2e98df75e144d27e558b9c98d75a036, 0x8bd117cb294db5d6a39097e98976c7011042af41680637d1c8a1d56d30800bab),
(0x739104492a44d0fad27b97b8df75ca46caefe44c741848f536b789868d966991, 0xd31b7807e1db48a3380608e65f865cf4445c47f6c6094819da2450e46b78168b),
(0xe024cfa94fdae1e12895590f222b167d8a41a87bb1a6b72061ccac0c4caf9dc3, 0xd62f1129cd84f36fbd1b94396f5ce037fbdafe41fbebd066110549fd50b0ba05),
(0xa378ab39e3dce8266805bcecb8123eb3ffada53d883c752ee46ce4f85bf093fc, 0xdb9d124e4c0a8d1f14cfc4064498a7a6513261f30300ebe099a41f0e701c7dd3),
(0xbea5d211b808e4bc5aaa1a96a9b8842b5204b60e24d5e5184b4e92aa12d8968f, 0xcaf8b92f87c4b8fc04692efb889ccd64610fd604b9669dcae033ae9a453bbca9),
(0x7ec0629140b6bfd4cc4bd45a8a953fc2653d73c5d366b5e8b732dd8d05d30428, 0xe96c9515da8dfae3a2f4e01ff02ebad98499a3188905c0f0fcbcbb5887360a08),
(0x9f9698a76ccc8bc531dcd9a5b21f3f8c9d1431948902312cb5ab89cf554c3b26, 0xe08acb082ab0eb8ffc31f7a31ca8dfbcd4b1863e029d155f4abb8d546c59a221),
(0xad955b37a45f2bfa1779e8c8e6786af0dc49dc9dd692281cda10b25d7517214f, 0x0b2048feee71c1528c8f5dbbcedde340284af2c771ee86e18d5652855de918ef),
(0xe7e568159412123b7737b006f48b3f32513023a070c595af1749c5648222e21d, 0x3ff11313c2992218cb3a1c01e333f2fcffdd05a0c381f8e224de6add85aad0b0),
(0x4afab50b55c2a433488adadc00ca5d112e225f819ab817bb116109ce71dd3439, 0xd232e25ae5a8f6d568344997442bdc54de9cc597cc4745555f64cbfb6252808d),
(0x2f739ca46559727ccc2fdfa70c66da19b7d2660f0cc63b74155057bed55313bb, 0xc39350a6010a844f80730a2f27bbee8ba06d7ae4a279f490f975111feada018b),
(0xf359667179f9343bbc3238e7bab4686b5b7aaadc95848f2052adfc33d15a990e, 0x8b5759c8e0bfb8ffe298e824ef18c04265d7f8861af8252f8c9d9d92c1822849),
(0xb3feced58d79e1c4d0a210dcde416353404f533f5a1295bd4d888d59b43725c3, 0xb07089f0871f7c3e440ea905cebf66de52c68c04a6aae237e23c327226d99826),
(0x85c74622bb28186b5f1bffc974d51ea18bd7e6f91a02285d6d8818dfb87d2f9c, 0x8eb9510063263c67976fda8a18910459df0755b9307e414500cfdd1815b799ff),
(0x03823d015b240e83044c936ac9a5f7f0fbbe30591c20f39cca51be6398ea7a7d, 0x6e6539ac8f404753dda08dbef7ad4e4869a67a93f0efd0b7b53c14be130435fb),
(0xb73ae7aae97af1d1b6ae34b5f6188c6233ac811e1ce5818aa9f207037deaa539, 0xcf495bd72df163b10f6908b723042bf1137a325fbb8ebd78c0d12086e7b76005),
(0xf6724463faac988041dc49185e27b97e889e74a181f35b582601328b143688a2, 0xa290e04af10a477c7c0269ff42285277f1faced9eff8827245f2d06958897554),
(0x9eff80381d546c1ee1b5d562947f3a98427e17f484d0007feebd71c8261ff959, 0xbca422aad4748c666aa99f76eb8e75b8055f89b0917ec29f401caf83cec111c9),
(0x93384df733d0fece931587d3410f25206bbbd9925e6fce755432252d8bc1bcc5, 0x9e3beba1b9a92647c630cb4a069b9bbf80e301befb8eeafbfa0021c3ae27c38c),
(0xca85653f975882c371902d146f50b3ec1dfe1fa4b6e6d5a9e5068685632074bf, 0xa64fdea166808f60736f7d84850f841f588879e95d1adcf8ccbdc4bf4f743bba),
(0xb80a52f6951aa0631094a2e2866d3a29b95cf23948753ea5cf5c6f6e8e082f90, 0x61c95d57d6fc3ca705f92771061ca21101f20a6709a85f4f2b8b0fbd494d55dd),
(0x3d5d30373a97dd67fe45b2732ce21e19b29587dd301f3dd90b411432e642a3c8, 0x5c8e3a19896ef1a55cf1ad2841e47dd61f207f223388c6aa23d011d8fd95929a),
(0xb274f8ca29a87fe28a3a1269ddc35b5b44f9e4d981af118a187a7c36acb155c8, 0x410d9c55bc34c21a6368155bc282e449c5317dd1c4e5758e27493fa04f028ea8),
(0xf155779208cac51866f59814a70c14f7beeaefa533d3b535df19d31bce1cacf8, 0x113dbebd9fef9cfb93b5606ae4b48aca5b7e9c00a59832e96865282b80b70ecb),
(0xfbe3f26218fcb6577fe567534276592659ff099ef36252f4cb5af101622c40e6, 0x4c872d52f1202df30e905a0d03f9c89fb347723c99b1b2738f3dbb83df0fa2ff),
(0xef7d13fa25ef46c53663eddba677f6e3b24c7e7c6895e7312c6993da3d9384a2, 0xcda2cc35114e06d201f6f896666c16db78fef74d2ee46fb6a4a34e098546935f),
(0x8e34b93eafb7f027cdf8696fa640721391860119cae17b66d4f16175fd7118cc, 0x3198f5fa27ee190a0e56813e910d917e3bb8c85020b0376ee55e88eaeb56397b),
(0xa8291a3b8e544240a0f0dcaf6369b2cd98ab80bb4dcbc2fe0e023cea1fa52399, 0xf8305f7ab199356982b8f2a01fa0e80846a506ef5cf0ccf4fcba9211284e15a8),
(0xbd36854f90dcd6ac978c254507800489035c4cca79a0f9b6bf461da65522c88e, 0x631a3d757c05e2cf4a445b2273cf663a0332610a8461dff3846503fa12e65ae2),
(0xfad86e9aae78aaf2e55e93f4b8ee049c73b86524e942ab93f05f9dfe8b783116, 0x657988b720822c63dadaef15a5cb3d49be52946d53b62ed701814ef3b5aa4b7c),
(0xe1235938db5e1f30fa0b4d4ea9e1925c6308917c23efde5147fb818d0a39bcb2, 0x7641244a7384acbc3133fd6e9ed61af440e3b951751f9d0c384328f8b87bb2bb),
(0x40ec62d97c9bf05acd4bd50c137cb1438e3331ac0554098a057b6a92afb137da, 0x8b1468faf334dcfd5a43d405aacd3f317e868af2734983674d0e5a0667186a8e),
(0xf6f5c9e1c7d94d259abe1a8d745dabfe59e911cbc917fefce2da2a63cacb26a0, 0x7f2454a8550b385ef49c26febac89a9f33bd6c9c2eb05c9804303a166b21ca51),
(0xbe4dd8dbc703a8349e24773aacefd0d5070dd2ecef07bc70ea8156bfd5b516ab, 0x046a7dc25d56052edc64a0d1b414da49dbb218d85abe14e5c753eaa384b958ee),
(0x273f227d448ee2181e43f2a9089d594254eae85e54fe9f76fb67ce81169e1be1, 0x67cf461aa6c7ac601ccdd925b4b38e841998cbeccabf944129575438a855f35f),
(0x94ca507b96c063b5bfa9d74ac92e656edb1865709a017ce0e5270bfc8a8c4a31, 0x98daf40949c48c6b8c67436117aeb66936c761698d39eda89922490b4fa6a25d),
(0x91d6f747c1c7e012440cf7c134ba64f89ef67b543a57196bd2bd6ae8f5ef4356, 0xe2117eb04d4d29cb5b13f628f69e5eaf2befc0952fa361fdf757430a168c19d6),
(0x8e2c4d62c17835b0097ba07b37947515e710e825015bc61475a66ed2ac4cfb84, 0x7b7f7e5622bbca122863c2305271ad25b5e4195fcb96e5a5ca2be6d5273d6532),
(0x55738482d32c42481bb0d1a0666adab38bd2441b9436b69077925e152d8c948f, 0x93a6705bba5e5b36e73fe83e0e0ea81b3de393c91c209e89af90c5399af5ea2d),
(0x7faa0f4545fa7d68918396f619beb94143d93f86c5a265395016d386b3e85086, 0xcde251a83de1f2c711b884b533226bafcac367911ff30e1925f499ef27da9c06),
(0x61a766a77bf6f8f3a07ed7c66648606c69134c6f04ab49319033f9a5e8b7d191, 0x7dfa24d76bba181d7bd77606c73b163546f41751c05c34dcec54773b04abea4a),
(0x64317c724f1207dda60097366fd2d1898b702e718cf84fcc7c50427d07eee171, 0xd1d45f23b1c5fda90ee05652dd30f898c75923d8293d6eb418a0e892ae400895),
(0x4c328f825923e7c89cdba42192ad7a375a32832371242c4ae108c7710fc47356, 0x322421bd92c5142cefe89e594689a7a2e8e5507ebe8b505f9dc9ac8609d90ae6),
(0x0360aa32797804f1649c44aab38fa9a35d011301708ac7cda4135c13d86a6758, 0xce4b0fb66957f5a97e4ef923ebfbd8504f6d40985333db6601152f1cac6eef59),
(0x5b110b6bd9ec8ab6635f5016bc597f31ec22f7cecfeedd2a1e6f883f64d2379e, 0x9472fb7087ab6f912b10c6ff995af03c5086c034f0f69860ead562a6e409c8b2),
(0xbe27b39b5a657cf29ebb1b1645f5e1d6bb6e32bfe3a52b08a916e0919affa38c, 0x93fbf27b5d03ae3f471ad91b69e74fd5a8f2f9252bd1647362c4feacd26d1dbe),
(0x8ec65d75c599fe6abddf3cf46ddcb4d61e9b5324f5e7b7be5407cb5e28a9df4f, 0x3d52541d49ce4b077b5437473a219db8296807773cdcbf80e4b47786014ca082),
(0x6edaa1b9ea8c2c456c6a34c613ad60edaed18a0432e96030ac7305e32dbbf94c, 0xc64c827940cbabbffcdd4db51719c53ef8cdb65067af48cffd731618bd304b7f),
(0x3fb5f6f660847e2de04341e0026c410268d5a1fe880602dec07be98c22640a29, 0xddd43c3895e663fa5aee32274a16f532df3a180f0e0813ba3ba113d6f6fbd9cb),
(0x2d740009d7addda8a802b26335d41284b3b9a11900248a3b29b4a532654e84c2, 0xcbe1e2d81bffb79a06f9292f43ccbbade763a56d6d68cde3d946f310dba8f28b),
(0x15bf4abc1d74793f6ebf2fe4aa74e34db359ad763d5624d819c2438633517436, 0x5efdcb90259b5dca39054a98b6702fb0f2fd4b61235ed4c60cd1f3dcdab15f12),
(0xfeabbebf3c6ee0ab9b584162476c8e9bf7523c307874d7ccc4a6b88cb118d423, 0xc51d328d276502faf79168f73787d3acb4e7bb7e1f65b42164ad6e932d405460),
(0xe3664247929c3455e98de86860010f474258c6864d4a7c0e4bec28d1b9af3188, 0x7cb4bd55ba579fd4a3066f83710a36062fab9f8734311609902407a588454bc7),
(0xd570f391365aa2ee29b6db922a96e4dbf1820a6b94fbb8b4aec45ae2f97a21af, 0xc08419862b0adbae1cb192e7bf80dba1830520e2035e1e42569a31cdfc0c1543),
(0x9cfce5e35119ca9138629b08c75b77f0db3cb593b2bf8dbcb7d6fe3cd1eba55c, 0x33891655226885b4cd74d8cef29e978f60a71beabe99a2c1d2071f53239e4f12),
(0x186ecba5f9998439f6a3dca1a179608da15adf9ff4d2f3864268ec3ee62e4407, 0xec7eaeb9bec50709e8dd761f6253248b2fd064a9638953bf510a38ae0c7c6d24),
(0xad52f2f6fe0b72ed2a0fe4833745aebfacfae58bb40a0291217670583e0f6b83, 0xb0cae75485e3038e00c6dc8db4e95a5463e3e6f21b99d9912f5216633eea0c71),
(0xaa06c0be7d72350e06b094dff4dec4c1993588f85bd82a1c158f92cd0eaa7804, 0xed62816329369fdef0fac2f1a533fcb2a704637d6dfaa1f4a3b57f744efbeed0),
(0x5f7a102c4bdf0a0676e1bd4a4df17a3f124bfee6312b3972c49fc4a714b3e867, 0x85f153dbab40a9e6747aef3bcd30f59bfc9776c3932932228f534d599efb30e3),
(0x31a4309a064c225e69567574e05bb9943fe016796f09a0d9358b123796cd3fe0, 0x9b9862a2916ad0f41e5885675a1e357d19ec82c5b31f967daf058e1fda7cab16)]

/-- secp256k1_pre_g_128[5952..6015], /repo/src/precomputed_ecmult.c:14214-14277 -/
def h11_5 : List (Nat × Nat) := [
(0x8906bd2a505e84010cc89e32b9362c8403443b4fbafb7c0375bc883b11c3e59c, 0xca78e1d01c6fca33b39d690f5b85c764ee15dbfc48fa78dc5f7d7cc45323d187),
(0x41cc93eca27c4fc419fc1c8e4568744edab8917dd8936cd32723737ee36b4f9d, 0xc11d8299bdb95efb842ba828a6d891201fc6a28a9f208430c1e2f748bce6b7ae),
(0x6e1b0bc6199c3b84220020e11a698e742fa97a58c498254cd3af1e8b23ef34ed, 0x025e0ed203f047066b4134fab6252276b2205bd07a8ba64c636e0b0e1d6d0217),
(0xb55741a57b9c7270dd1e5115995ecc558729832d9f4e373a6824d9a283490eb5, 0x9adffc9152eca815465e533e0c82bab6ec6b37a0dbb3b6f8c3bce25f6e3d944b),
(0xfde1167e67f0e084251d50fbbafb538c9c375e4cfd6441bc59a4610446ff090f, 0x662451a2444d39f958593a02e9a94ec14a1b8d879dc80c5a73bb68fb067af754),
(0xbbc374da188df5c65a633621804d22e6f7474faa47a8af94a1cb78faaee68040, 0xc2c74abd17acf2726c03bbfe7dbe06ceeb1f4e0ab0001aef4d8f342caef50186),
(0xbde6680d0414ce86548504d555c83b18c9f94e45f55b6683166cc81f0583e0eb, 0x2b1ce8a26b5bbd8ea087eaa649f49a482891abda87c2037ba73409a269b5e2e8),
(0x8f9ba006faf50323b9637f0009aa29cb8e40221975d329ce157964286c84e5d3, 0x1bb33199e5c30e985f5eaa1d65879a3c703b7a50cb04c7eca6c7512c94180e16),
(0x19f03bc43b61d7a862bb81e0f4b84c027359a170de0108f0e9b9e9d395b63481, 0x8239d21cf31ae885ae10c62b8be0ee1a95db0368cf0488c94a110a767d22dd73),
(0x667c26472261828f2653a0ebe70de20429231fd8132961ddba3e48538e332941, 0x5758f0ef4362f75bc4356b3fcd8cb2fc3c77cb25b7d65c8fef7b4096e0d879e5),
(0x86558922618551b5c4c66c509b81a622ca3763187c558ca18a00a00dcf100ca8, 0x32cd16ef955deafee3fedb4e55fd20718e35c1e3736dba129f3c32874413739b),
(0x255bfbc30d0b0d6e385905b4af6ee2a018109db9737885092d5fb275f1b47b45, 0xb1b1078cafe453b9a35fbc30c5f605b84a1f61a31104b406ab5014db57e2b167),
(0xacdae8d2eeab48c19507f5756ba60b0ce9d5b6bee2ac15bad31e8932fe89e14e, 0x0b077540ab1379997e7dfb3f5e3fff4610c2a3692306ac0a418d5026caee0466),
(0x162b0c770da3bc13a62753f2b7b19c9f3fe864ca66fa2dc4226c5cd8ca8d7112, 0x377956e859c2f46502af51590bdfc86cdf0bd742ec7f9eca6e675b47d6eda222),
(0x9453c9efafb6a23e40ebf013eb1af363c28a6e14d235c7eb58d3d1429d1b498b, 0x65e3b737ede3c00b5f322b389b09a68c2ff44f30c77379324e9c94c9bdd78961),
(0x8409ed2938a5bec8669e24db88c1b6fbb397ba64d8a1826af011e2e832e85506, 0x573a005301be979e1ae3f2bc3d28ce2b7a3ec55abd00242e073523a2582500dd),
(0x3b55d457b18788989c486cf53d1ef1074161330c64fc225081096148f5ea2c45, 0x24780fa03e83919b9e3491a37e0b76d0f5d32f2fa4c3aaf0d2e7c95543476fc6),
(0xd3fa2c21f47048120a5b582f9096fc87422af3255c5d006c63e1e9ffd2d9ebb6, 0xa6aea6079ed334eb9355fbff27650096ab19a007191d57b94a8fc12ba59bbab9),
(0xa938a4a99dc4530729f3bac74fcd72411e56cff6f53fb048c727087a9a54b374, 0x3949a589388ef8cfaee8fe82fde39e0141ad91c52beaea97e74946591a27bebd),
(0x792220faaaf49862479a6de235be75f70e811d127420571fe46213a3e77aa93b, 0x5f27479131fc75858b82b02152057cc4f16865433eb6e22ade56bea58823131e),
(0xb1bcdf1d576994591bc11d27cb15d84e75eb3d5b2f9b4bd61c848c14e9b7f2d1, 0xa21157358c35ac77e116a0c777917e62e1d09897316e238941d8e17090adeb50),
(0x735b746f6f0d453ac45cf2886941cf13c63899e1a41ff3b4cc1a4c74a9b2ab33, 0xe4c2b67ac6bd79172478b52a994dccd4475cb24aed1eb77da39fbcda9c02771f),
(0x1640d0cdba4b4fc2f3670b352485027e2724ea4fdf918b723807870a39fbcb2e, 0xa0a71f4bba481eab999dfc3c15275eb60b06d12948000828be4754b2749bae30),
(0xbff651f6df72e476a097231eb496618f6e7d621ddfd453568b08c718e138caa7, 0x10dbc1882d0a17fad769f855bffe1a81141834455d9ae144e6eddb528e67f99d),
(0x1a3fa743cf429f3b49e122c45c6d6e8d18c633b3f9903c9a207f0405c2716b69, 0xb1b2c87e65faf1fddebc377abd9648cc24abeb8175efa4cb5f0a0b06aa2f1e28),
(0xbc2a9ae8e2940908ef5420f09ef4c2b2ae988e5cc0c0efbf62f8ea05b305ff21, 0xede884fe6b48627c84c968695944be60df3ed5c666f16b56188a9e1d6bb14e80),
(0x8cee080ce9204a62502ae88a15965abcb2a8f18c80f6c46124b073f7063990ec, 0x3adc08be7bea0bc2b2c5ca91963f4c40bdfdaaea318fe3c7866229e7e53c8fb5),
(0x2fc784ebf79f916f7f57dfc58fc62e8dbcdc7dc670d6a444c13f397ded528e2c, 0x56c58a3cbe51039390a8802812d036580020141cb1b24241241dba9174d6eb37),
(0xfcd83e1cec7a6db91aef0894cfb2e1e0d2b48fe488bcd28dc14e78246e62aa35, 0xa86c9321e2dd113bcb7ec78ad9d4db68b5ddbc0170aa0f675586b08d6694a853),
(0x4e4fc5b965584dc340cec4ed87ab0610d674e1c09d76d28fe28888df7f9be562, 0xd2344fc3de7e5372ebd87d0cea5431d32364249cf6c350b6d7aa235326e9ac7c),
(0x8df04fe6e93afc18b0508831320caa9db21fb74046bcc364aa80564f6f89270e, 0x0d7b37dd2463e50c583dde08ca2532154d52bd8ea4252c556749641b71ee7214),
(0xf662c9613102fc4fafd27352cc697de01f4a1406f99a06566597b96ecbc99305, 0x43783b26759a2eb78ba4a3cde865d1f60474b1ae26eeaa2a15220353f6bce384),
(0x02052f92b66998ca00f172ce15cde941484c5ee3d3ae329c87f339dfae944439, 0x03e9ef8c09f4257d0c5635096df8efa8ffd2312f60684baf00bb9e5d9cbd04ff),
(0x730aa6c89c8abb08855bc5511938bc46bad8f2264b1623869f2e1ef7c2d6702c, 0x7523fb97799e2bb20f13ba1d59510becee682f98f865aefacf3c6578bf46ff81),
(0x0c5773c07d65fcb97cefd396b07dfa581ab237a6be3c1739e6db944bc7991c59, 0x6afea6af44ea94f3ee67d0714b6654a2b1b335cbe914d3051a60b05d44cb81dc),
(0x3ef9a63a5bdce75148d7c5855e3e9aec90d34ca51a3b4829979d67bec38c83f9, 0x145e65ae635acb42e7949060fe44f3503535d417f3ce9e424c3b3d0fb02f2c73),
(0xa163226342b900e5887b1800196c5be51106574652cb88c14011aae46d14bdc8, 0xbeda5e2c40b5550631aae0d3fd9997c53f37169a2d810b5b402210c77c372cdc),
(0x8c1f564665449ca10f16015aa876bdb44d9659937ca6936d5bbb80cdc2da6d65, 0x7cbacf980f6f73638940358b60beec4d01cd1a1d900f84bb9db5f784d4565034),
(0x693ab562230c1ddd3493c64c6f7e2bb3a74cc5352b7efc3000630904e700d5a6, 0xdb890cb6d09d5be7ddaeec01299880a12e68acdbdd9501183c8f5f07739cf4e7),
(0xd761653ff7979336f833ca51b91b9e900b2bc04f7b7407ebbe3c846295d59df2, 0xf81a5d74446e97622391368aed154b2f4faefa60af93d7278357fd6d98537c5f),
(0x41de1c8ca13157113435ce37c2d2efef24a67cae59347d2344bebf0fa2cecc64, 0x77629b7f46cf1d57a03898fbcc9f4e37937daac812c4df74846d8c8960095559),
(0x21f892074e3a00c939862265c1762dd32662d182397c11274ef144b7f598b650, 0xe6e30e11566dce23b7a6a06a11e12bcc978a6b7a0fa9297b8c978f5640f8b4f1),
(0x6163f61c628b4800dc49f30ddff19310369012a8f31d4a2527c790b40c51f068, 0x4e87a17a12055cd004c4bc19e052a2197dc5847fec984f9caebb8f817a7065ec),
(0xa68ebde643ab3c1572f5ab0f85d683f26e6eaada550e2425f85596db8e2dd200, 0x487604ed38a6387a27e3cf1e9d4865fe7fc67e7cee26ab111f03e0a3316de778),
(0x9b9fd3424e065ff5b82e0c4ee5efa0b1d0991087684c46d57885adcfb352d06c, 0xb11a7a46570eb2516562ae8790eeb403823380c4aae99329de7136775b5b5e0d),
(0xd80c347e98db32bd57ba572820c7322bb295cc3aae326fd949e7557d27151fc2, 0x6d734eee40229d19465a0e2ba011af3962ff5c08f83a2e17e5c2783ca430cb42),
(0xc8aba9835f814895e5d051397b23988c7fefedd9aed9dd20a9bb002549e63ef9, 0x3811b18d08310a67532be77045461d82e40c0ff56af355a755ed4708f1ab0c7b),
(0x1bad15b0a186d418bb84a87dd2fb92559aa64547cf47a93f73d2395386b0e301, 0xe432c50f662da1aef7ee8f73f5d7ac4b4a4da6ee5a943d177557e64b5eeab1d2),
(0x720fcf05dcbb0609e5b45efae055811a66d8438416f7091d7ea66186922779e1, 0x9045fb1437d2086eae7d6a6449effaae17e3a559571ab01057f20fb580535906),
(0x96a540e708fb664763d3b1298a1100b088a2c3e66da3ebe14b6c39cbf01c4b2c, 0x4debf0e50c95b9a17bec7f141201819788a1c32512f609739d5b4909f087b5c2),
(0x2f068148d385bcd906fd6b60b7e331b5884190853942ed1618b464c509c3ca99, 0x596f3fb92fa7377fa9ecc8e5be8421cc77339f62c6f1572d7a28266eeb66ae52),
(0x466e9733ef167fb7233363de16d9d51074d8e5b635abaf3820a037d4f6b3e45c, 0x73548e1bd4d5b78b821fb1d994919baca9d4e12e13a2e8f2d4c5df512553410e),
(0x0f8a841ca8c7fb3c9a334f12cfed9dddd1dbd4ac764f3c6e87a42818a4a8e51d, 0x57ebf66972e9c4fc7c435cc60a85d3816a969d02ea85edc563c5718734f0f926),
(0xd8c7d6e96719e74b02eb7ae759d82ad26aa003ee58e3d9dfea97c7ae6d6b887f, 0xf1bec88e5e8df038b069692b9e44245da11feed4c89ff45f17bbb6b71b0e43ca),
(0xafd5e13c0cabf51c19c39c4c815618a614a4f4615fbaab69624d366d540ab638, 0x9ced3d425c36170616cdba99653c00aae5212c5e939c0bf03e5a1cb0a05cba0a),
(0xfb491696a4a1b9a10572b462f4628f660b8368f33ce957d006ec29a092ce994e, 0xb4fa234068741570a56182bf4f1c71eb2c80d6a0cffa42bfa3e9d9da59507de8),
(0x96e301b1efd5409180e3aa966652a25378ce4bd3cf587238f0367a58ec45b0a2, 0x1bcdfe495ed90efe7eb853f606fdc5b7365ca2aee1d9b787afd41b9fc00f308c),
(0x9cde8d2640d197a09ac001679b93092a6eb8b13a4d9fe2e56365a5f5fc38d809, 0xc86345d9cf95fe5040b2b2e602bf426772cdf10c988a4f27836d960dc98501ef),
(0xd33ba47310c3734243e2219cf3cf48812e843be3c7492d0180239bdd20a829f2, 0xac774707a5b0888eb2ffa131b71035d36af5be1d3a3605b5751b92c99e58a45a),
(0x6b364a321b5aecb3749093e01b5229d65576e65e1bea096c29065a87e26cf2aa, 0x668ba97ca01f659b3687cef8ac87dcd47a8a4f854a434f499592151cb8f96152),
(0xd0009cbf1d0d06735f66c16f5cd4747bd33b3347fd7f096ba026355e917b5015, 0x41c10a723e82bec0b92e560d3bf1e0d815a22e503afb4bf0e5caf771569a7dee),
(0xe618f641a5b443d0704102b540efb697c470955a08375e6ba845c299f377b701, 0x9d615e530edf646309b3b2d08684f8b615cf412233991a4b5b7c85bbf5698825),
(0x789c55f5d393228c07cc79209e705d29867a6e9e750d05da9bc6dbdd36c5c49f, 0x8f38e43a338058c939c64ff43f8f7bf02a7910bfdc2f9af9532049dfca236de3),
(0x8fa4f0a81bacc20c5d40247823401597bfbcc47b973abe3d71d33e2dfee792f7, 0x7dfac188c5d6c17d9e7430ed0d9038a60e6fcf47174347d87a68aa4ecdc46c38)]

/-- secp256k1_pre_g_128[6016..6079], /repo/src/precomputed_ecmult.c:14278-14341 -/
def h11_6 : List (Nat × Nat) := [
(0x4d5f8d879377b056afd4c8df54a48673c43fce03d05be56a56c42a23356c34a2, 0xb064c60fa3b75513577c171d68acbef6ac96f6656a899d5429e9427b533b8e36),
(0x7a409ee08299930eddfc1e4adb8475ca9a99bf4fa178a8b2540ae448ac87a3b1, 0x5c4873afc8a079cc38a385c72ca039d44363425e67de4cd415d0951450f28e17),
(0xac32727544973221dfb8b577e33bd93576407a8677a1a842bb04832f68304e88, 0x2b41b0de3e406560a57978e63359a9116f993a919dd1c2ca79c9a36a6a4c8815),
(0xf9168fd3973728c130dda9c6907912d32e6cf9fbb1c7a058cc948f4e44282720, 0xc7005217a6adf515d8d3a87a7e8a8b2eaeb470dbc014824c733e9a7b17111677),
(0x818b9a9a295d8f3bbfb69d3af4749e5eb0c1c04c838ac3b29e74f6e5dc73281a, 0x141d14ab64b3023c597e96c93fdf393ab53f45f456cd17a2bd917af5dca8daa5),
(0x90a416a90dba0e05bdd25dce2dd0b0d9200aef56a6c0e16c748e7d4c99cac1c7, 0xbc87139195a2f128af9c9c0d56bff6052fc276484e0a855d6472f0e9a779e0dc),
(0x678248e3d48fd8008e694890b442d3f84f8518819b152a6fda24a6ea88e1efb8, 0xfa5d302b51a36e66984776939ba9c095eb8b78c18f1bb11453cb1904a2185615),
(0xc2333e2e742bb244b7dac90a18c2e65c1dcb447b11f8596cbb3fcb8a1e85195d, 0xd15b8771a31ff36db46b9ca1b0ba345eb877b7ec48de20d471792a7817ee826f),
(0x7d5622919c72b694d81bd71ae78204af995a63bf3e8ecb3cd9b3f589c75ef8d8, 0xaa554f5267d9d3a58d35cf02191b533dffdebf32dde4cf07252ef949ec7df6bc),
(0xc5023f92698f955e4fcf7fda288673ba97b4d2757f26f25ac63ccfe9155232b4, 0x07d9dbcedef550c4ee4c881f69010859c7a09ea536a8f7d717c1573dc5db971f),
(0x37dc82b2ed0e9533e87867e8d1eb57ed0707f335b081d14dd57aa247645bb1d5, 0xff0c021ad28649f23f000ae1123f909f1c803a9d98ef2487bf5d44bda97068dc),
(0xceae1d302bf19dd3a952ac798426244d968b6ddf25e16357553f7636a15ba8ed, 0xc5a3a75204d05206039ecb8bbf4282dfa1f9c795ea74410aed9e064f09a37c70),
(0x8bd49da5fdb92648f321bfc42d8145c520b8dea146b2bbf27a0546983eb6574f, 0xf769854c5b5c905820ab07651a6d8104e9a9dd1c7aea64252b239ba97b0609f4),
(0x0d1553a89a5226bb3c5b62969f094b2c1b761aaf2605b0bab3793f6c6959e8ee, 0xd7b11159d289d42b08ca2889f3dd7d01e1cd0e5a745b9f12ab98b8233211b2fc),
(0xccf443ead8b17d4cec59ab8174f1b1b48b6c39346e64a955c617336eaa6abc89, 0x5cdbd39c64510cddb342cce262915966f8cef7cde10f4a7c41a0d495e5bdccd1),
(0xf95ad24e7accb2b4ce6afabf6c1a40a0172cf2b842871778881ad94e3f3d8d57, 0xf3142d40377543bb6dee8195743a6d73e60dc5ef4b0756eb68d09d6e326caf5b),
(0x464189d252726cd26f5ad4ca5184503fc546144ace7dfb325e4b4147da7bcaba, 0x910f8aaeacb046463c6a2a316174510d8ae8bac9fdce4c476c0dbd625196e2f9),
(0x637d373a7355334e70c78ae499429ce2a5d97257c0f407b81cb41704d1b36415, 0x0469fa815dba5bd8bb53a5fa0aff5b4c18e7c28efbf21f5214359d6c7114c818),
(0xb489330e2a4a4a6ea99091aa4e5aebafdcdba0162bbc38df5a49d4e47eee62b6, 0x0e1fed3d93333ae92198b85efd68582a35f6fb60ff268494720b387bb3a7543e),
(0x8f2fbd9270781f549d32ca01024794382ec9cad62151c89364c1cefbc2324b12, 0x02ae5c8a2e018e7402089a4b12082c73ba466dc9851e7226388e48aeb1270a1d),
(0xa1871963e9a65bd39e1b667c55fe1a1b87fe421508273c6cf338f8cd9119a828, 0xe6881210adb32d7910dfe9dac46c728b20bca3e1ad130240f0dac7b9fcc0cbc7),
(0x4a91a5060e8b32ca013cbad799c4e3d721fd64c97ac8a1b1e7f4bf2bcc0ffa1e, 0x66a0ee78cb63bdd01a7c4bed7bb565fe832eb2c2d32f2032c33935f3f16a40ca),
(0x61c960ef2a3a6244e8e7ee790d4f5e9888539c0ab8be739b314a100a375ab66f, 0x13b94913ac8f600ddbe9a82e8987a0613672629e45d7d887822faff260fb9e08),
(0x10325f87f797c48b2e6c7acbbc0aa0e0537fbf59e74ab9faa7630c9b86a04b72, 0x685c5ae726b5c9c031e1c8300d513db4b7fda14014f8b7237a9da11c7ce9403f),
(0x71bca019c15a3534e5bebab06e1e18211ab01e97dd24e1f91f89f834b2cfde74, 0x102387d90a8da4f7a483480b316f03032178e668f7a727192ae7e54d27314a8e),
(0x7d30b01c5c93abf89a50d14a535a88f67cbb535b01e58540661fd7ea91121fe6, 0xe3d7e70d01a9c0cb2d6c86df53709d18b1989a5e7642c1b7cb381338f6ed96d2),
(0x6f0322afc1617968b2550b3acafc8d0b9445fd7a4692f9333ae9146efa2d3a4e, 0xba402962d311b424d05f199d31b07d5c8534ccffcaf817e088712bb42e6496a1),
(0xa3719ef2c34bce90feb7668ca07d1a23e2e6fbbe1eef4b93d2995e842c74688a, 0x7164f77b67aadb5330b4127c2d71dc46f11e2d7225968163f4ea7358134e5d56),
(0x3cb0007ad2f1fb76aa9752f0218e2498b72174400a6a513668e95a784f71a72a, 0x2f49874912e8f469e511b7a25a5046c0f922a34324620b513f6f01606de6b308),
(0x26b62d6ef46929fd88f00ca5a699ac87e090ab0c8f02a078393fb3adae18c055, 0x4fb9e53d1b6435854f2c78ed1a818a801ff62c5dfb0f8f23d5e4d09629886fbc),
(0x55e9ad69068f490dbfc2e17b4e90dc5f58335c1f7bf30d4479679acc08cd7442, 0xd4df7806f74d9701378ea804be9a627085767e0fb816ddec4dbe34d9536fe892),
(0x74a87add723320eaf1f9c35ceddb613379835723c74bc043af36aeb35e1cbc45, 0x5c79ef91bccc2579eea907ac85ff8c0a57fb48a7c273f9af6113e177588fb14c),
(0xd4f1a9e02189ffcac1d9914c177fd66e9d9a41cfd1a38626aed6b82f70ba8020, 0x923bf6696ad7c71bbfd696f39d68373b09d0cbadf367363e02f70a934a0dea5c),
(0x593c7afd0c178edf9eae7fb085984992bc5ca48916a2a155a0314d8e31fed706, 0xef39bd4764f3b3b4cd505e3a628197df5aa7412630d8379375c85b2776a1073f),
(0x6622a6ea569856b423e9f68a78bab680759a00893f6f645b2e0eae60f5dc9d3d, 0xe84d491a1bfc31273cfecf5b65621213bdf1af302dd39d26d756e75c4f9bc86d),
(0xd7149e32fb34d9561f5b25d0650409f733a28fc1fa4ad822eabe98c674b3437d, 0x2c249dbda1a8256151b6eca8a44bad961b2d37c6d01c1d1a70ceaa389b3f5039),
(0x64058ff807cadb658efbf32fa68b7b3f19915f5fb434830fbd5ca208a4a09b6f, 0x71c6dc90f4d8082f72d5697e48fb380b8486d7e105f113cc28365ef7d3ee9999),
(0x6a6cbb7f5b571865d70ec29d425115a0082d1fc1f0209e8d047be5e5a9965dfc, 0xfbf10d18f3af0e94b2a6ed30c610f17f05bd571a41d073c42b2a4dcec98ced0c),
(0x3f9a9be29a72cf7f2086d9ff3701a35a94a7f81d4b34a364916a45e0d8652874, 0x25b127515ff033c170feaee1189a35d80ba0b8dad4c943bb4fdcebd21cffdf72),
(0x873be5e63cca17ca959801679568b4873d34c5ce68abd305169917a730dd206f, 0x6ea148c1280396a07ea5c5a417980f48d076bdab3df1628a89da4c4514bcbd4c),
(0x17865995f28d4c4f43e2e9f59b20edfd830a65cdd632cf9ee7024ec34da0834a, 0x6773c06d478f3822086c749c5ae09a10910b56665b6df74736d20adcaf58332c),
(0xefe91146fdfc4865bd784853ef79b8d4d2f020db3f901f4538c74c80bef49172, 0xa81a34a80dc3a2298348109c14d367c87abe675350d013e0b1b0372d2a6ee5ba),
(0x7ee6fb6336cc88be3b3c28211552031fd017aa4e192bc122973545bf924e8a8e, 0xa656fe25846e8173327ab11bd8ecd2ed9d1909fb21d1f789588b4fa9a8ceb0d8),
(0x449677d002a78e9ace374016e19e7fae46efd0d64839680a4d5cbc42173ee605, 0x47017ad33357db8bceca2513c64771570f3daa999cccb709bbe8834029312013),
(0xca9db08012b9fd4acef2255e083f35fbe20806f39839c2a1699c5d030d7b5762, 0x06a1a8113d82a60b677d61c0af995bd14c598f08f915e971d9f17e9f8398487b),
(0x0d040da208dd69fc67414651714d4e945a27c4a29fb44612d6d87f4f80e2ba45, 0xa1a72b85957a01ca8c8d5d3ed9ae6a2b31d2d192cd7afb9a4d1e4629aeb9f356),
(0x27eeb708fd2d52a947f698723706b67a01d6e29bcc0c86e8111057f1e3655608, 0x7f67db4c25b2e88e275e53c1c52eb47fc2dab66864b91236522229d31b001a94),
(0x3bc82484daab22ad6d887a01ea9f4b38bb70e272b15a7b4dab5e3dd2439d8a23, 0xb0ec952e6cfe3ed74e6246d146c9c354dacbc02445b1af9a6a668f0f6fd52ded),
(0xd0a00060135961988f070ff67ea731be7f97a51f68faf89995eb0ad7746aec69, 0xdde4a735d6dd08cc28e2588e9af0eed757017b38790d381f74748f309717a989),
(0x8efc4c5051c65e1056f5ccb6a4be2014a9dd043b641b7690cae2a8a91bbe8ecb, 0x26fd1112e1aa603c91eb458e3874d010db58efab5dd9ed20e156886a5f39fc13),
(0xe42271b8881306ce0f16613807d14f0dda0db64ab379368efa79969f432cb110, 0xd2b9999e7ce9f3c58a6c77cea97cb9f5f28602999bacdc7ab7d5487f8b5c9f5b),
(0xbb068f3f8e7fbd31f3aaf96fde53d134e3a88b639d8d43c64b3a2b452f8de740, 0x574410bf903c173e23d88fb13f7534fe566984c1aa10f0d0f54eea9e7883819b),
(0xa3d0bd11d728bee1b166dff181c3682d650fde7f285ed5efb2ac50335327cd66, 0x3e290c2a42afb4ed8b5a685f69bdd3794421510417a61d8dbd3dd2cd805c5f44),
(0x0988443478bfd51bd27d04dfb5282a724cf82c21487a87339347e560994debdc, 0x545574c4359fe553b694803c5a07339bb4e1a95ab9fc72c75d4c8f5dec6ce4df),
(0x8cc104b858b8fb94e0771dcea103a7aeadfc50ccdea4cf93a5f4ec9ad44acea3, 0xad73883f57c470cfd477f2288badab99938b6723516f97b122578f2bf893b506),
(0x1627b08da822d244ec8fe2e7d8f02094111fa362e7190cbc11229a4c2043c626, 0x41f6b02980fb1370c1e800de395077988b6f315cf910bb00423ff727e9e04c3c),
(0x459d4b1f2676fd9c2aac5937376dc18cfd4244d9dc937407d641e0d50491df69, 0x6f22ce37a6ea6a5dc982319722b0085ae61fe140d7558fcf7bb449765de7aae6),
(0xcdfc7b3ab755c18172882e37ff641e2a94fa4e5e0b1b29474cd6e94b0f4f9387, 0x76a11dae107bced70c2870dd62ef183ad45a02bece33e333dea061fb0d89e787),
(0x5e189861b1615f76ac416236e84b0961b2639845ecf6e6ee8dc33217b0952afd, 0x1cfc65b09194d1f971136626a2c3896f5a3de705ff1009c349a09c86ea1667e1),
(0x84749eb33d482c5981cc08bb08634badfe0572d142367cc857a3c399821d12c2, 0x146a4fa23fecc0def00299c019406b30dfbd9ad0975717c87630e7266e96022e),
(0xd73a1958e9aa29b3b1ab08072165c06fdaa38c906be7638401851fa35711bca3, 0x41f13f9020633dac3a5eca40229ad15b434c4f8d4ea570ff76d15d4f63ea882e),
(0x1d77616e1ccf1fdabd4f0beb6b60c1b31b94576ebf2b61b8c085cd79caf8c018, 0x7d3e5813cf18127155f3d084df1077eb2bfc9d6b8ab6ede955c0ba4e5095f23c),
(0xbac936d363887dabcf27ea0250bd550edb37cb71a2a8351f0fabcb1d6d6ca9c4, 0x7aa188198bd513e6b45d6633aa1af70db1a9c432ffd1be4f8a8fda79a38c47f6),
(0x4d18c5c751639d86b21712feb2333d525f4bd3f5e4208537e1e3bf7a9343475f, 0x2a60352a4d8fcb6ace01b4c763619f16156868c2d85e882ea2e7fb8016f6500d)]

/-- secp256k1_pre_g_128[6080..6143], /repo/src/precomputed_ecmult.c:14342-14405 -/
def h11_7 : List (Nat × Nat) := [
(0x8e473caf0d74fb06b483d955ba3e35ece99a44950cc86485a8b6fadac4c8eb4f, 0x41708d5dae2de832c7c38389d0ae46c446add0698e83990f52a545f16ef66942),
(0x91366f7648ed27a92ab639acf37aba5c44e8bea61402e075e307c4faea2cefa8, 0x868fe0f5565092ad677eb1c98959affe5af504a0c929bb582f5c3263114ea371),
(0x1eab20f651b63685a0a8489b4e3247ce1592c4db40cb2f907eff1c58c6609915, 0xc142e9f4b9522b0f1db909120c6f83c70add6d8a6bd1de4bc54503a84e873cce),
(0xa0652eda796ff72aeaf8cfef371594fbe15289291320230d2bc6a252f4b49484, 0x67e6d40e8aaca7cdf2a2047afc0a59c3b4eddc1fd3d5662f45bb57929e4dc9a3),
(0x83915afac936886a3deb895870e926e97ee4a6ab01a5c66ba1602c13c4f959f1, 0x86dad7b8e870dba7712ca9681ab635242ed55fe036a148fe25b1bdb11ac2da4c),
(0x293f0bc41145495986b19fb86f738d2c814523f80b75b280f8f9021f95db6061, 0x12d98ddc894669fa86b073e65855a0a1760733e7b7c5bf5e868dd97782a4fdbd),
(0xa829b1c0d6780732321871da2d28ecdf18d133114ddc33aa8ff4caf0058fb9ad, 0xc5375298501294a40dc38d1fa8c96f9b789ee9c56533643e1142bce68e1ef5ef),
(0x481339000866a34468309fc00cc18f79c0e01dfded6a7bb4e5a4697d4b9cd462, 0x335b7188ccea468750fcdfc9a6fa6034c239fe6b27cf6460182a1c0ec8c96707),
(0x7fe9d310bbdaa101b28c1e71137a7ab5181dca39aa8d1469bc06c8563c7a70ec, 0x18006c39538a51412371828a04d73e02f4699a347e88731857e394fe75c8143c),
(0x1bd5b65b0d79c3eb54ee1ce2541b43521b7d6c37d2a26f21b51d2c07103ebd8b, 0x66e81b90a120f04b340adb2c42143ef605d8a38346e71856673090ef291d7bf2),
(0x237374f9306e57145f37a1ce1418a23873938fa08bb971abfb5d97e8e5fa0206, 0xd84108150fd4049ef54abd51fe2053a9bde7f3acf40fe99221bdcf8d4b9808a5),
(0x33279bf738cee621c17f75eb0bf78af458c1a4efa7197456b57ee679f2c34bfd, 0xd63a21a45dc2946213750d88ea5e12c9900b110bce433c49e9b373827de327ac),
(0xee274c71b1f4325111d7e1005d7e9d97ed1590d895cc65043e8ed6e505a87a9b, 0x73f2bd1b1baec4f8ebbcf9ecf613869e8a262d997bdee49cc5b2fb22b652e9dd),
(0x2f49f0abc24536a33bb0857d57c358460f5dd0363851a87346f93d0e53ab8de2, 0x066b3dcdd367958ffd06121be42237a0a9edaf2179ded8530e8bf3c5b6a81531),
(0x2d122193ea92ca9b46eec10e2a23268e9b1f972e918214898cb125711e3094b0, 0xb54d4b85a02f77a157a48001c0a26c812c038d0fb91575cd835183ff3a0b7071),
(0x9047eae7841f346a374131eed4299fef970f59e1e4bb1fab819fecb73026ad44, 0xd59d3d2a2c03be1e0553a54d02dc61c9e13364bf3338a5f04e4466b686695061),
(0xf689480dc0ddd61cba5aefe317aaa497c2d051edd527cc2016877986012d7c8f, 0xdac41495a948d83e37a9f31018cd7abf6d5608f2213aa5cb7a2b8f9098d87398),
(0x4a01c418be4729585bae0c45cf6233b9ad0177efeb6e74caded59788a22d083a, 0x8a12550b83de095f22411b16937a85b5a079c7eab8137f80ffa661162a1c53f2),
(0xa6c715adcdc77020febc4ae7c6caf5a1107147ba8281d3f37945682e72a5da7c, 0x69b4ce462634da4ee9e4355972f87511a26718d1d232f7260577f0d56b49d165),
(0x68ecec4faa19ac3ddd8b928e8362ed533be2440615f5ddf84b8a376bcbff327d, 0xf725f978f6129f2849a1c9feb07bc2b278fcdf4a96a6ee3a70b9b94398a89f3d),
(0x5701d52e2cdb7b71a9ed91e6953964871b656bc70271299b62ce0a4a78dc69ee, 0xeb8e4539be99cbf0ad730fa5fcf785b735e1f5adf5c16c7285abfeee4058ea1b),
(0x8210f0c44b2f54b062de4761b7c62d8742424b13ca0448caba999eab73b26409, 0x01c79890e4149248b9dcd4961da563f1517275ec799499698c6b864fc03f8050),
(0x64cb27934ee576419d52cd816144543be4319d16fdde7a7e02bd824c113bc1b7, 0xc3144c3a518eaebb51a55bbad87aba0a12d3add55a5e00c094a2e22780f0f6b7),
(0x37eb101000acb889932d8536b86648e7c124a8f51005c0fdec40bdd36369c82a, 0x1da5703fb387312dd5a337c22d3f63b733dcc99438109c2c4807fc45c02a2717),
(0x84bbf980b54d60e10ccfacb7e861adedb4cd7bd1a3f7baa09a1898fa22144d2b, 0x3820c4d27b5451662515064c0dc9b4cf813c2435e84a4a67ba47068ae6e09045),
(0x29e74c026b43add6939ae05bdc0a5e0eb7d05bc0536e23f88fed55e06f93f1f7, 0xf0f6fd9c798732c21dd1c5503cfbd56a71b335d3aaa2235975fb0c899571186c),
(0x098f35301122a0d2629e5adc579acbf88c0aea34c3450ea6784c4ce5ee9672f1, 0x427b899e74e0c5ccc289304db9a874c51d40136955dc5b03e0713bb08c3ec3ac),
(0x16af2e5c4c37b50f5f2b6e94341e365c90548d682bd9af371d849126ad2c6c6b, 0x1dd1bef16077f6df32054335c81ff47433b7c1c7d6243dbf6a2564b0fb9d8502),
(0x056998d6bd5b2da6d452f9515343a9bc4ed64463adc6b8df6a3edd64e75e1cbc, 0xccd524629dbda3a310f3beac7b3d3bb2f1bf3c50bca242ba224861c81f26760f),
(0xf17320440ec59c52862731153c53aee0c7f1c4dfe6e55cb0e7e37d62c1e11ce9, 0x16a547b9a61a6c104df1d1a90de99f54b42e0ad1104a6a30e6e616c4dcadb2a2),
(0x6e5fcc4d2df77b2b8d2f95dc56ddb8856030f9afaa51d86e20d4772a854b8973, 0x11939a2426c1ad6f90db151ec5c9f0363f0b68982464fe92c33aeedc77347660),
(0x74a3ff0298c3cbdeba066554d6def8953954af05f0f723650680b7b84c5e9fc8, 0x23b5f011e50dd2b609c5ad6bb4dad5249c6a8abdf134c232f40de18c03c65206),
(0x12a40a59169e806c8e32deb67e64c6150077a3ca5c56723debc98ed311983bc1, 0x9d97709a9c644c8e3fcda745a70cf3bec405d230eedac78f96792bcea715c081),
(0xf25dcc0c5ae3f4427fc17accbf88855782673050c3594abfcea7eec47a4662af, 0x52a20297bb9213cdd1b4f1f34f6168aaec2d326ed9aef5eb5b497c39e0642e0b),
(0xfe31ac7bee45ffd799941eb18d65cb2d38618938c6278e454b87e41b3c7d0f90, 0xa5f1be4be0373ceac3137a8ac5b5cab3e1209c932d49b245eb99a0c6469c3e64),
(0xc0ff74032855c2c9ba06c2fc6c9a8fc529b4ebb8be082951475196b0ca4d6711, 0x2c53707e540e0c0327a10980025e356a81fa6a48b1e41d78b7fe5515b022173f),
(0x5b23e392b87bef43a3c08956e1930c100cae049eb6f041f91bf3de754a84f984, 0xc905adbc337b9e7d78781dd5deaa059018e20bc35114c842723438797a37987e),
(0x2100a6c5b6b96ad637e134308d92e2cd97902da47a016ccb63a20cefe72ac25c, 0xa1fdc3cf93560ea38418c470679c53897bcc12aadc87ee6c3429c68f690f7e11),
(0x0d57874e509198e9ee6ac826b101ab2dfe952895ab28818455f2d85aeb2c3387, 0x1c7bd36bcdb6debc0099228b341abac294dfd768c9e00e738aa58339d226f940),
(0xff91057ae46817beb387465642afecb2a290d31df18c6da3d631356599657c4d, 0xa2bb155996ca6cbe2a375c3e510df603069d0cd8f66d65719f9866f8c6e73675),
(0x7f20e461ee306c4d7db625b34990623514aca55121b7890f244de5e584d18b7f, 0x8cc69fd1eeb89a9f9e126be43983ed45d88c22fc89f47006ecd574314eb5d1c5),
(0x7ca3232075421226257670e45f277f4d32cc7b4d53588423317203ccb787696d, 0x1e9407998f25b7da8f1212bac1dceaaeca7b1952266555356a98769cb3da15fd),
(0xbcb7060ef26856239aac249bf603ce7db5c253a2c998e44c4ed60db6730d5450, 0xe03df58e6d279025955a4f52dfce586bf427e3760ca72e0936d80c3105047f57),
(0x3038799003157ac6fed71113a004284e82fdfc7a3e08c0ff1ff5dbc5dbdfc04c, 0x7132084a1230ecfb200ded609a1666a52f574014d29475e16a061330fbe19e7f),
(0xc5b3aa241147d664a0b80f335dfefed8a8f7c1a8c62586860cb16e3cc365a249, 0xfb5143c65f8907b9a44f10fd27064fef93ee588f9e77a65b1cf64e4f956f5748),
(0x11d8bdb2b750146dd78d8c556e6ac45f4d34f1ae35332673cbb46bdd3d76d9a9, 0x1ea28ad5c92761b87df969876e5b32439fe9766187b5978ad7515288f30a5970),
(0xd6db4c600742914ec9c7bfa07a716cc5f5492aa85381f31df76d089da773814d, 0xb0ca5fa3bc5d1fa2c62a657d77215b4982f72e89b138552dbdea8166359b6a3d),
(0xd28a612303b4e073f1242c4f5292bf709e1ae15ea654bae34239133c4a8a86e8, 0x089519c88c44b38ead5c2ace52d01de1d74ee0de05365567cf1b21b202ae8b95),
(0xff32042b6a943772d6f5794a434202182ed31ac2447167baec82d19b86751337, 0x16961368e20f2550383268c39fe62fe3b5d356b1da2e42318f9618e313655f0e),
(0x0f2c617730a9870f5999ed69d34efac3589baa969f660cf9ac839eeea10e374c, 0xfbb2480eb6f191c015ee3c58bd950aa67bee75691681250e502e1d76b6ec9069),
(0xdca14b70e5e33022eb559d901cf3a5334c40bd457a43df85e87acd4090342539, 0x7d038e5130f77ec7efe847484145594f87d613bb85a957159d0cd37791678d23),
(0x9cbb407dacc7c2df2d86a258d5ab2b4331a18bea9480f5e37727aef7644416cf, 0x7ab9fb64c5f54f6a4e5529b6eb7834ae80283bcdc3f6b24a8a014d02b3b80b57),
(0x4552c48f2d96ef41aaf27778a7ab4945e4f2a2fb7e1564eec375e50e3516f555, 0xe63da54e28b70a995f35a1ac3a25e3846efafcbe4e8f73fed84e095f126524ac),
(0xb4cfb90b168dc850365591813d2d084a0986651209396f76879280f238e4af3f, 0xcfca008037006c357fd89c5a1d444d1905fd72d417fee670e7b743dd57f71b00),
(0x8e264996e4e8a858a1e32c59b0df640ba096401ce77be6eeccd228d967dada3f, 0xc9f5a8bc89322e56838c6d8d859b60126d0a40f28377aca6b5b4dacd44931d0e),
(0x34ea02ae49a4dce25ec2dc07c71e3400390b305483b8f30a81021eef5761ed99, 0xb4b6f9eac41bf9d6c4bba1434639fd57b8735d276098e374d93243193def4c1b),
(0xbd391dfd8569db85b567c36c5e6c378cc152ad9bc23d1fd61af23e29543a56c3, 0x9bf167d277e6bca3a8d3cce761a36abe91fcad0d8d6ce398877d37480f2f13bf),
(0x67b295aa440c880795369b98c67d1d5c1b9265af585419947353c0bc47ea8483, 0xc94a0287f2983c4214f3bacaa8c5c791d4d88fb730eb5b3d4309f5cbc5706f23),
(0x755e0335284ad31b5afb5775fa19148632b29c84f38cafce1b0b3b4f2d073a42, 0xc4506c75c8cc96d28e31766e0a8ed1cf531f4f7c7388883165f825d22b74c47d),
(0xe4b0cb3a6149079b05e47ccdbfc4f35164e575c920cd9827a83f68e7e5ba0a97, 0x1604e71aafa83b1961bdd7aee4be5113f9e9ddc229957255cfe403419e45e5f4),
(0x3baca4903147531c905a2c73277e4f39c27ff6e5041f6f2b3ed4f73003af0c4a, 0xcf36fade87b988eea4ccec6b6b70ec01d057173f3aa7c79a6bf4d412d4bcafbc),
(0x229519e82a4dd2e7ae77d71321fbc8fff31191ee6604823ca6aefe0319d06d95, 0xa70e9af614ae7a1f76224b8ff5d1fc262e34707ea6bfd26c8cd7fba9b5627e15),
(0x59364b224a53ed1a7dbe97531b3a26002f700045b05767338ee87a9b2559dd54, 0xb08cc50770f5f3d8851908b7ed79ebc97f4f734261de0752e14237c2014eb5f6),
(0xd4b681cbf3467c9c649fd6407991b4ac3c66bf5026ae93f90e9b02389fb7c1f2, 0x6df1a03f4a5f00f48356bb9fb23f1621bb18a8e05afac4ce4edbb01f99a27000)]

/-- secp256k1_pre_g_128[5632..6143] in pieces of 64 entries -/
def h11 : List (List (Nat × Nat)) := [h11_0, h11_1, h11_2, h11_3, h11_4, h11_5, h11_6, h11_7]

end Secp.Model.PreG
