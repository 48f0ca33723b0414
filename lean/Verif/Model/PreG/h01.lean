/-!
Generated from /repo/src/precomputed_ecmult.c:8768-9279: entries 512 to 1023 of
`secp256k1_pre_g_128`, as pairs (x, y).
-/

namespace Secp.Model.PreG

/-- secp256k1_pre_g_128[512..575], /repo/src/precomputed_ecmult.c:8768-8831 -/
def h01_0 : List (Nat × Nat) := [
(0x6f18d50e5ef5f2adbad80ea1c59a38475c22ff0506ba52c7e1d26d6dd3686bce, 0xd1d7ea0fa166efd0facf5c83bc3786e0d3f3405d5b4578f513a336adf0d7d7a9),
(0xb634dc9d5ed513364ac9569a8ddee9d9fcdfe00e65e59233b3be8a072fd949e0, 0xd72e46e2c61b2575f25a505cbdc3456efdf189766562a1a70e86d036eb31db69),
(0x5a37fcf02dba24f3e664617143dbc5ab40d9198369f5cf0e4fc566fd97445910, 0xa960d1d813f8746c662a9582614c784733e6153d2975cb59c334246375c69d1e),
(0x8aaf16a737318032c60201b6b196d8fdeeeb8f8f1aab29e11b83ae1bf112661c, 0xc461ef5666a3a4a7563cc0c2845f2ae76d03a795987c615d611bab48ab9a8e44),
(0x456f0ba5a05f15efd93e7f49e0729c451d85a69342c2804d9cd4b8aeaf5e3434, 0xa680f4a999221a8b7f46da1313041e1613f616bd84b9135bb0f7ecb27311cad5),
(0xf89c36a1f190540975f146d931e12cb94bfdc90fa178970a9d0b34cb38f5c741, 0x3b562c8058e31b92a11866159c1ffa3b4b1df38ceb4a1646579d23759c44099b),
(0x7f6beb112e1d86000d8c49031d69cfb4e23876e632f304289d2c250341f3f76a, 0xa1937407c0925afcbe994b9b51627b9808d98ed6e8cf6fb90cddd0eca4ff4a9b),
(0x905ad0aab585c7c378b7130bad1d50011010f543194f40d3827dc60612d73511, 0xbfce0701c3ddcd38150130aee91d16d4a447821fa2e098aab83b80250b7177a9),
(0xf559c2d162122fca7201e7a30b6033d1e54187f47550b2aef1d51521f7408b6c, 0x3f10d622dfd0eb147f6f04dc431082737695ea4238ced7f25dc167ad34154481),
(0x19b328a4fa17149cccae5830a8bedf537c0d8a0cc36163456f4d91d0718ce8b4, 0x9a1ce80a2a4e6923699258838e786779fdff7f0925d6885512644d049e582f64),
(0xafab98a0e75619bcebcabc24c1a6a0bf2743d4f40921fe533a393648adad5d4a, 0xbf1b3a87759139a579741c0921f29a107c8e5be313d757157dfd39be923a32db),
(0xc2cabf7c1d86a34daddb36d9c83a8ec9b2dfe0ee8176d085cca91fd8ee4181c7, 0x5b32b72453f1335c724465bd6eceb8f5159ab150e9c972acf51d27aa4d91070f),
(0x928394248e84745229a8c5347c14355e4f6e9cfa2c1a2be4f5ad6cfc2a89f593, 0xbb9c585dfd41ee0699ca7b4a146faf6851983b15d652e996c888a1717c8c3a07),
(0xbca2853c389ef184208cba64617bd7ad55e55f12d0c9fb4aa8dc30d0c73c7dfa, 0x9f41289ef32aeded3d45952b16a62fbafe9a142e01e6534017588d79e1df63a2),
(0xa4ea7bda94b565a8ebf53aea5ce672c55745b7bd37ca77e4a0e4f28171bf56fd, 0xc95074851405ea909b9e1a2842c5953e629eef3137bb0fb0970cce6a893e96bc),
(0x71707d45af71139ed7327ced089a2403da57c18a8527bb1ff754e78c60d5e169, 0x24b36484fe4da6f3a3f4e4a855a477dd3eef0f39fd3c585f1b9de9d710223ef9),
(0x52c1de030296f5919d5cf4d236b8ff515b1f5ff6d73228c07dda706e4fdf9a05, 0xdb958d590d73d574384066e4fda3b785c950971490607c5135d1d34d5a344d0e),
(0x7b09c0b07852e84530691989cbccbb8774dc2007df827120d8b1ea622368912f, 0x4edf5717ffc52817d0eebeeb0782ba4d09545a5cda979f3be9c09e84f82bd263),
(0xe99870ceb29ad1a82bc088343e3b3c03f26e706266b32540681c689dffb8300a, 0x8080ad9278947d65bcc12dbc614d17a88ff75e3d91230fadc6f785a8cd597f9f),
(0xc7e2326de28b813985db4cb9c3d4c5ee2dd2c2bd2b912444adc3a434205c38e7, 0x5f2863f9cdc0cc951fb87000e177cf05d31adf8c543d899d195bf5e1c6ad940e),
(0x883596c84ca7bd783c586bfd28fba4894c6bb66b5ea522441199b55d3e3f7965, 0xfb114be859255f10c96d6d4a72945ac947a22f5b68ecfac69406bce258e9282e),
(0x7f73a648a19640f5b0f029dd37e56e7f5cf616595e532dcf7ffeb7e3f20b42cc, 0x4f76248af931aedfb4e2df3eba3b426d08ef191b9d59507f4a94ffa880ff4feb),
(0xc89ee34a3660d03ace3b560401196a6618c8739a8a4795bddb9c382a9741aa3d, 0xa4a3b88835fbac57f2f79ac9d0ef292f06838764b99de084684d1b9512923884),
(0x24be4c56d7dc0c4e50050cf431d81f19b5c46889430563fd566c4ed3d941d5bc, 0xe07236e24936315d5f0714a2af1ad7690f6a5fc7a56fc1cbac09a085f29e6213),
(0x6c31e71ecaa91c00798ee5c53237a9f22866a91d26936852c4eb9853e40b94f5, 0x65aff3232b5f2cd1c1117e0ac30b94e934543cd9480f79225723c3859ccf8cd7),
(0x506c373c8479693d3e03c0229b61839fe470a574d31fa28692601ed78e58b7e7, 0x4fd0bfd3a57c5035268bd4ae707fee83e24f8676e0ffe3ca1673faca01b7ab65),
(0x59d9a5f3ea1a6cc616e7b097871f731c57571a091dc01b45b48c5332c98349a4, 0x94ad373eee6496c3263c348f0a7ee53953aadf131aa6b63821c16e0d55fc8447),
(0xa524cfab65371648f641912fa6ce67d5c6f8929d366448d64de381b322d75c69, 0x14c26ff987fbd59917a6ae90bbe7c79aac1b6158c3f4614471aa36a945782823),
(0x126c986df83c630787c0d3ac6a6b23938aa3fdd4df26e76a92af2c657f48c550, 0x808539d3a56a6f8f3bcf04dd31ac72e03f74ab1d5e9afd397741656b3d4c5c5c),
(0x32cabbc01aebcfb27e1a9d5b4cd05550d8ff25d7b9a81db73188474a0ce39722, 0x7d30120ae08031c4012c070f6ee6b52abe191021faa9f5bb9576feb18fbccee9),
(0x3fde1cbaf7ded6f8a98975abad5a64aa8a9f086416dc25da359e1cf822f42c64, 0x0e50fcac61f0f174b0e93cae691212cc44ffeda160dcff919ee3c9602f5ac075),
(0x9cad22cad6c3dfbc01d3a08d6b10272736e9db371ee1f26b3ce932c711462e24, 0x5ae84f1d873dcd047f0781cb0aabbb53422bb1194e59d5a68824db9550461c6b),
(0x09859020aa8076263a8ca18e91c1afad0c20cf9f9249c24e1c652d197d5872ef, 0x454323fd21ab7d6e470976f72d85fa39a084e7ebb332edd6a3d054b8d3c73e69),
(0x821699a3e7cbcbd5a2b093b6c825281cac00bc53c44b33a9d8c31b9e464eb2b6, 0xf7d59c172400cb9b72b44cbcbbbd3e9fe62cf451bce6f84023b073ab66a9726a),
(0xbd06d4be36423862795fc7a55c48ceb8440b3cc3fc286dad74ea7f6d8cd370d9, 0x3b09193a0fdcec88ca4a56632cbb808f61bb1253fbcd17140accd5086183b90e),
(0x2c7112e79c8cc78df04a4ed0e043c6cabb4b734d9177f8225bc411234bbdf4d2, 0xc81ccfadd42e22487612884ad900f61ebae242ef65ff1afd6e03ec4238391243),
(0x51ae390fa65d772c833cbb8c9ddf9cebb7f5236ef1983905762b7aafe122131e, 0x3d7c9f8080406b06282f2a8887dbb7140f1e96e1e84eaec81256e1a8ed7ba06e),
(0xc59de112de237a432bcb8348e3b31356c74326726b9167a177d826e4dacc59ea, 0x36109f167c5eb66d9f09c1d9c5e1676caa33e403a8e052b02854c689d5903b25),
(0x8b99f23ab7509d9b151cb89a45753026077ca1e69219f0f757d01823f556d978, 0x86a31aadf53afe44f533cf0e4bcd573cd338e12f904c8e9adc8e0080f56a4164),
(0x4c670f657d6fa9bd9ee4135a1ef1882e61f5fb7c9deea71739fe0ab978369dd5, 0x531a82265d4b536312875dc107f891d1b54e04351b539dd3c100b797efe65417),
(0x8e967e359daa0f95fd7024e6e57f064036aed9dc9df0f33d9388cedde0f38548, 0x36f8055ba59afaa58c88b833ba11038145fa0ab1f0160d2f1f1a1765190d218f),
(0x3f6119159c45a37d05c7bfaacf0cc9595e2e097c08c7bc3ec82e9e333b2ac9e1, 0x0c80134ab7437dc523e087578eeada53b9d2f3ee25b754faf6c32e02d597d7d6),
(0x3f59e49d7c61412b53fb203ac7ebdedf66bba683870707459f85000cf47641d9, 0xbedd70884243dfe3d238f1010f5dcd4e64cd0978986d50f2ae3e2563a43ad5b0),
(0x5b7d84c9b64836a43bc44b5bfcf170e9ad46d4da197a2781bbbcaf875bf6d490, 0x9f55b29cc7d6b0fffacb8975507df04bf2164e5b9928156a7c73fec2b34d984f),
(0xe1ee74ae0ac3e83cf73bf1f9aafc3eab90decf0da071aa88962c29ea51744b1c, 0x9e86d2f8b34e85250568d6748839839deefbe15b80c6621650acc508f1277030),
(0xfa1ccd5b8d489448e3196c22e96ca7edeba721acbeee200e5ddc496b6beea871, 0xe2b7f59a326a66549d6479a8a7a56d7e8513504bfd2a9829d25e58552f9bc469),
(0xef1e1cd70f3860961f6199d1ab4a63acb292316bf7a5e7a04c9f0c3a7bfdc8bf, 0x4cef9c01a9de111d8395dadce411e5325783d377559dc687eeb510c2ba98ef05),
(0xdb714eb93e75d3badfa5cc4ed4813db20fe9c39595a1ee8e9b3e468ae1326120, 0x3dc49a86b81278f484d30311c8816840fa3cb701665c067f618295aa6a71a206),
(0x5997f38dbd57285843ccf936ee9d3febd70c79c79ad1c45229af32fee6ea5d5a, 0xadf7d862b716011bb9749e08965c1ddf1f44b678df548eec45a69a5697e4a224),
(0x97d6f6d90a9205777b08ae666fc1fc7a956654bd3bc6c039ea4eec3d3bbaeb92, 0xb450dc47ff219854dad5ab9713dfbbf7ce03fedf4e7ffc684bdf1b5cc20068b9),
(0x4f453fcd5ec8b72b69549ae3c4eef99c40232bca1d6b10abc4b00d005ad307c4, 0xaaded568c4a8bc87c7a442baf960d9e8bd61f15ed668f8160b94c0d209683f7f),
(0x05a604a350593035c71c0a6acaa7946cae4c4490c0db71e649972705949424d6, 0xe578fc126d8701a7a02b92b93fa89d09ae82779e2f78586a8937a6f4133be9c8),
(0x3f3071a2916832fa1b64cf0d5b5fe8ee2de601c934e084985d11869607c635b3, 0xe915b1990baeb233b22adb6f69df0e438712f25c1be4470d053851e4451ad3a3),
(0x745bc1cd643189acfcf02c5fbf99c222f7476a6c2ede6c4531849491901c06e5, 0x59a2bb4a8703775de9a519bd10e59db4be16cb41d0275d2187291d06d29933f0),
(0xbbd06e8cadb3959d853591a606387989ab3967368a6c1942175809112637238e, 0xae0d8296b484e5f3dc46cb88090b86a4d562b003a65a0c2a02b4eded38b8b690),
(0xfcda8db6128dbe66850b7e4363a3b35e9f3eb569b7af97a385e53fd4922cf07c, 0x4bf3ddfc37a0f9a85f758ee14c4d5c86cd11f1e82a05ff283a0f535ff9551974),
(0x6325dfdffc9c7ded2a65e11327210ccb4ed2da974eded5705ca1add99873cce2, 0x89fe4c99683e6fc7170ada7e26179fea7ce1930faf1a73584d7d56d34cf222e1),
(0x77594ca6934950963ab5797a5279d0a7513df59b41a3ad59245e3f2922ee0d7f, 0x195eb1122ccfbfc8fdeddf45ef2ef58f631df03bca66a4a95818dd83e5faabb2),
(0xf356ec67ea9b242f4f1348fdc6592772e2defd7e0308427bede15452baa67867, 0x3d2265b9e23f8ea49a2b71459c98b03fd75a21108f104121e4a2fb4cd633ba7a),
(0x3360ae129b0fa48ec78e30914f8ae6f986149f0b590a12ffcadfdd2ef8a205c9, 0x79b37bf2720d5a113ec0987222b0a6263d7a2051e337cb83dcb52df725d18a34),
(0x44e90f52c703c50db331a4c5fc47613fb29040ab9ff0f2823fc15ad3f9e8727b, 0x62dfb34192653e6f636d013a718932f695c2491e26d16feb4009ec05e2f55f17),
(0xe5d367a9b5c3ae22311958764b28fe35c9e04289518aa09ee7902b5e4ec84047, 0xea1b257f01abf0fa6fb37c06907052e7fbbc06b4c2382ace9c9a98bce6f8bcf0),
(0x8478e8fd7910e5ad3c061e6d422806a50559baabe083b8de1005413b59a63957, 0x4f7934180519349913fe38c4514bd4bf2f3f1ebdb492fd5cfd8c1bc31a2df1d6),
(0xc38327c80587731bf5b5e224079c927410c97dfff6855b6dc2ccf7612a84b42d, 0xeb03afaccb1b102e7e87d61f5012ce74a213fefab855db22bc657d524dabfcd6)]

/-- secp256k1_pre_g_128[576..639], /repo/src/precomputed_ecmult.c:8832-8895 -/
def h01_1 : List (Nat × Nat) := [
(0xb9e8a8125348a672558f48c9d17f28a24662b4b6604ee14cd622b521bc51f10a, 0x35c2780d65fcd07b51ea02241771b5233813e7bb97a1744ce3dad732ef1ccfee),
(0xa54aa2d595cfa32538d2e48370ba86afd3c3b53d2141b0fdcc68a729a5cc713e, 0xbf74dc6e63c02b2ee676b9c86a851a487e9552b9a32eabaf4e1faa068bb8a159),
(0xd45fec3ce2df54eb844ad145fb8884ac420ce2ad85cd55ea4cc19e1fda9fd956, 0xed8cfb0065aecb6a6901dbf9b8c208d4bf6be1e7ee74a08d205c48bf8cb81bd6),
(0xf4b44e98f728b318ca959829d4cd836c5c0136ab8e43310187be24ad53192172, 0xef5521b3960bce492c841fd88cf7b8dd2febdd8bf0aa64e84d3c2a0989ea9fa1),
(0xdec6d1bf0d349110faa0cd40e8533078dcec40c6e260b9e28412d424353d67e3, 0x73a16f813609c90171efe44f32ffc90f9451b0b324107b7254ca2fba65095895),
(0x1fbcdd5372e17c419310b9c02273534d265f1c24bc1a6039238b5b7ab3ff013e, 0x9cf4ff4a06a61c1120c4d14b97275547b2358f758a2a774f22bc77f24c6c27ca),
(0xd9cef0cb038c6ed77aed53f493a31daa50ea1ff9aa43b890357012fbe2ab593b, 0x32a416fe246872d5b68e66547f19dda5e161cd13ed04148604d0c2dd3653303f),
(0x1641b54988e22a1845e2135f088d23864e2f607cce33fccede174a601ff03da3, 0xedd3f0d9ed7187673664e1b9540f816d48e3ffd1cfad86fb5b68dfbd7d94922f),
(0x99ef6c163c5d9ffb1b638b211ef6016637938f83ac4ef76f96c5366c3a243cdd, 0x6b6eef62d819581de1dd7796df043e027f912bbe6ba1e499a311769ed6f66b48),
(0x49358d2dc24c2e8b80ff79b09c53645eb9c47fb28ea4ffe4e2f4679f5b5bc97c, 0x512a14a7f9df40ebef7c1cbff8e1caf7b8c807487bee386537837caedc1cf5b4),
(0xe31d3fcfb1dedfe92549c5e1a14cf383c8c122a5a430aee8a4eec8467ceb206b, 0x7bc3c26669db747b0a3ad1dde83464f9effc4dadb4de7687e6c3ae56a5b0449b),
(0xa82ec9d6ac86bcadfbb32e66a28d7483ad1fbb7f979a15d44e324ce186c64adf, 0xbac87d2bc28b1ae5f4ab46f1ac7799363a9efad00b1e1f816c4ec6d30cf74c89),
(0x216509942bffa2e2479ab82b18cd3aba0dc370c318c71c081bfb53d4c8ea113d, 0x97a8246a2f653450be513b6f62419f90f84511be9a5f3103feca77c9c81fcae3),
(0x735050d8208d96887fdf8070e448e905e4e666c63db5857f63ceb362c6dd4b84, 0x2e3fb438563661c9e6fe23f07c8219ac216887cbad30791890001f9e2ab9e2e9),
(0x1d021861e679dc08a34c3813bb9c3e9b65f8780079dc08ba197b3b6647afe506, 0x14b6d0b92303483d09e92cd0e295bf084a10e84cee0b7c50ceaa6ba7a6fd2f1f),
(0x7a7eee7486ca8973a858c15d54eff96ff91c55774985433c1bdc4f4e46d7810b, 0x5e83a07f5d9150e7a7f5057d87d19ccf448fed1bbc1e2297c7012cbb77b498cf),
(0x0811c3d4fe0a306147c05cce32a32ada4859380232f24b51f50e726da702beec, 0xa6fcc16c6c9cf4f92e84214e35ad8577b28e599d31ed74efc95eb2bc833d9f0a),
(0x2ca1443889ea9e8f024d5b1ee44b26d3ca25ed0830ae950b4357da4921ad606c, 0x7b48a6c692d8a29f0a82c6560f8e6213c5e90be37413d86f42e10e631026c551),
(0xa980ffe161041afc339566d2957e66245dd3e0a5deee9c80d57b1f1f390277bf, 0x3276f7a2a139343b877440797a174d99457d500571ce47fd10e4145607a1c64c),
(0xe570a3d9cbccb74fc582954a998d9371fde41d98e65de6bc9579d6ead9cd80bd, 0x5a7491776658398e099d303512c168bd9400bc6bc7dea2df2739abe416973a52),
(0xf5fbaab8952cf50e66d3d985d9280bad71bd25fb662358c972b954c37bce1110, 0x1aca21236179f821a4f097c9b48a744f8010818d003ac6cfb02f57f31fd77175),
(0x2e5942fbecbda8ac15408d2584ab7c756f9e525ec4dbf3755559dea1718d89be, 0x95106507d14199a78f123d6cf6b5926230e12a1a8c0ca01640c556fb14bc790b),
(0x92bd04a9891c99e96c9e7f64a9bab7050a9fc83fa739413ea2f33001b55dd296, 0xcf5e3733659bfd9ce5417ba6817b6a0f5cc71c3422165fbf13019fad822ba587),
(0x30ddfd9fa50feae1e3cc542693ddcd624d0e52b0867248ffed7d3041a7b11083, 0xff15d0fe2bb183efa18389e3df4269ca21bdfa0f87ac641b14bdaf6626eb42ed),
(0x8cf5150bdf8ac68aaf319688245719e4067ddddb72fa7f1cbaf39de7252a9f4f, 0x4c28497ba299bb1983b18bc2508c98d82a9963ab4145807a2130fc054186cfd5),
(0x1f4b4efd50974efb3caed9f74f6dd9794a8e3c098decc1b869032885265e46c7, 0x6c4b04c7f7c6b00dc38adeb8a47c7c0a6853522926500a76ee1c6feb179fd399),
(0x9d524900979afa338d5883bad13d038c3f915cb90f2e29a22a028b18d091af81, 0x409a113c037c732d1104453d6b161d33db3257c70b9a73e1e0f1679e6802be38),
(0x52e1e4e446eed9d0fd5c124c1c23403c5b03984cf3fb0734c627f34bdda2e3a1, 0x674a57317375ffa8c3c4104f12c1713ae2dbc63075a77e5b26243217088320a7),
(0x827b171a8eef4e31e6ca8b6e7c6e36fa0e0a6c93a77d7148fd22f7a816401c8b, 0x65cd85fdd9b801cf7de6d14cb78ba1141d58c7fa129f9f088275f364f7ca7540),
(0x124f45e961d896426a1abc32e582e2463db299541bea0383c83f917b6cdf2f9b, 0x734e2fe4110b65b12d60626fc6288f87e48e7a7d213a4f8358bb4d67978d6c62),
(0x03b7129818b2b32410e4f002899204c4fb4ac9d6c08d11695f5f56999a4d67e2, 0x28b6f78b0cee16b55c010c51ec46560954ba6368a18ae2185607c1fb42c27c3b),
(0xd271d87e063b53630e664485ea6ae70ee2b887a1c7f7e0a4290033b5512d8a00, 0x65d438047865e280273122ba8d8644d060ef592734971c9b510238eb9d6da847),
(0x1d1c6d852db3516067cd2d82e2ba552c0c5ca0c9ae7bd661e8494b250cdc03a7, 0xbc31f4c5673a0256ee9b68407aeea035e19f874cbdd7aebbae8b10054e691f62),
(0x8fee89b471e394c0ddad274c0ba07de4bf8d2ecc695647fb1d3756fd46efdd9d, 0x5d5ed0c38479578fd17ae1487198f9cf4ba5cf7146a9b4c434ca62f1bd2b8c6c),
(0x681fcf0955a0f3516026302cce3ee4758ef9385f908dace55d7fbd308810a6ec, 0x4307f75b9992762480187edbc4c6575caa54e8f4190f0885e6d358ca02a38faa),
(0x717fd6ddfcb5a71b6a584a28904cd3e26f6c1a897fc3291890792937b3a6971b, 0xb403f82971d4ad04dfc4055327f6da8e1b05e25d341d6511d7cd859f58b17992),
(0xf2b9572394eb9786dc1f49986ad8c340d2983279c7323a34227013e3754f2ff6, 0xb553d3813efdcd417189645dd9917b73bb69e705e7a6520ddbaa497e7766763b),
(0x58714be6d7d86c8965309b52414135c19ab6fed01d56d7b14237485d96730b1b, 0x0c011f343e38ce5bdeab84abf0e315374039845c5fa4fcf81c9a4d5e6fe3e533),
(0xd33ce5abc828f8c1b9700d49e9c6b4fab30819fbb2bea23b7f915bc07a6ff3c3, 0x739b62223913498822372ba63fbe22f1ef59394f37db956fcaca4c1175a23395),
(0x82202e32fc7d01284eba58ff42f7d94a24904808d6f920d59837b26d63b55479, 0xfde6395450aa55e4fcc4fb0a8ac2c88063aa32029a00004dedd033b62563b4c8),
(0x25e632185bfb4c88fa300e3700c8b64a941e6487a34262b70419fa7c2dea7781, 0xae696b074802ab994df2d84cc6731d7e09caa124548c2a1142ddcdbef716e640),
(0xe0336a05b9254e1af2468a36343a0dff9da8773a1efdc48753c1a95b605c114e, 0x41d75960377ada3879b97455346266c55ba059159ddad050d96d9d8bafb12a18),
(0x843363af7fd2b1bd1c9a9253e42489c134ee875adb57b75262d731aa9a996662, 0xe5c0a2d1dbfcf013ed4bda36f153a32812c4b3b166e484734d2d3562ffcde6ca),
(0xadb210b81cdb7f18f97955cffa7e5763abb9f2029d283c0526df6332951178de, 0x2c211f05d8182aa60d784721948afa11364db5ec2e1becf068eb91a574ea0e35),
(0xab0c5fa1a2fe2235ee93854f59a137922034604e5857b6e088b65142f24d7491, 0xe54725cbe36d6e1571ca738407383553b9dc48cdeca6932b8d92f785b80124d2),
(0x3e5de77a1d2163e43f3124b0af4f5473868a080b67acd835f9cbc88d7885deda, 0xa6ed34a42f9503b8b83e66b8377f514ae1927dc4c37ef6d2254e651d15746630),
(0x60c68b3d31d1d3265b71f0688f32f67132184815f83a9ceb050eaef64991ec05, 0x977acc619f7d24c8a95aecbe987737a589886729500ed32a9d760fca7c00d498),
(0x21b052e9b646e595b6c04a76a66b9b254a1267296bea065464fc5b3169c135e2, 0x1029e4cd2fb3d7176e87292c4b0dfd7f18db6ed459aa928538f0989c540779e7),
(0x0700caf37c664515ee501e6660be4ccaf58bb2ef5b11f79dc027dba37b523d68, 0x7df76b88f1c346f32e32487c199578308eac9b7e56edc948e1a934c76fa08be1),
(0xc5ab9bd21293844ace5f1c9f564583155d34aeaf565a56962996966449541e8d, 0x2d2081c6c61d6c8aa0df44678ec53a7e9b34d90c57db2f29c036130401c422d8),
(0x8afc3f2ed53f5dc1448d15af8c2151d85713fbdd5d46a3dfa4ad376a016d75a3, 0x011f63932627bed9e015a99d42193e6b6767c513f345789764db1a4e4b9b6c8f),
(0x414ad9c6bb55eadfcf4cf72927ae3682c0d69867ede9f4d86e173c503a5007a7, 0xc4bcd0f8f4de9b1d1102306b667a546ddafb6f82edbdffd6181dd3a08f603585),
(0x8211e240b84b7317a9c5ec88fdc426d1a163a2d3aaf088fdb2317247cb04a1e3, 0xca76a59bb268bf514f06c4f6d5961b33a74f10b170a9e9be4e7942ad26722bbb),
(0xa54dfd32363add3c75ec44523094b27a3f7cd29143ee52f429e59daf22ba700e, 0xf160822c595100983e38d13049b448653639ac746a93ebbb2798d92ebad4490b),
(0x77d64c5552b29b18a7aee1a81e1e9d3fe2921a43cfbd95e9a3ba7cb9498860f7, 0xe97bb8f95ea9c8f4440ad9d736d9a06a0fed03a90cc965978d06f2e78208ff10),
(0x485b3814b33e6bf11f47f0f5f0e5a1891b57c10360f13d61ba7947e16e309ca9, 0xe6bb7870ce607c62a6050dd0946c8653f998576f2c781b5f1528263204e38bdb),
(0xed2381eca90a78c2def618be1b6edc517ced2ac814aee9aab0a7068f0072739c, 0xcb0873e0ba326452380c291ec635381ed68599162ca10fbc3de45ffb134954c7),
(0xe444af79d36bc127c83c7369a4cba0fe955b6a668f2e7a684a65e57c44ed971d, 0xa7876f0327b6823aaaf55ca16a48998aec50e5de010d34e9dd7c554fd3785fff),
(0xaf8c34d77de75a2d5f64296c152fea4fb8677b8a96cb278c07ed7e5069fc1fca, 0x48ce5862ab6ec1a8ce55899f24632be2f3c451cb8b81ca8cf9ecc3b22984d673),
(0xe999d466243a44ed18e745a81da04a3108940c88760480cbe315436cf67efe13, 0xf41e8e7063a84661c22ac0e75cdedbd0ef55d3eb7fa813cb2f7d1fb00237fe36),
(0xc40ef8aa7d8964ffa3cc923a02fdebec072cafaa58b72d66e209b644604bcc72, 0x480e35b56549a1e6f112c3b6176f3378ff50ebc7b3efac2f696f0627b7238ce5),
(0x482ee41de3f9499c8992b546e209aa5d679e4b8a22a266151bd1b0f39a52982f, 0x510e6070d21318152d52eff0ee10ec6f563f92eca0e549f832efee81dcd3de3d),
(0x4660a46825a3c1d667003c694d36f8b76df7ca32c6029fd465dcf7265c58fae5, 0x3d982bf546b5c296988acc7202dade97791de8e0150397c0700bfa10ba23f618),
(0xb85e624c92ba6f0b3fb1dc0337589994d8a3aee176314d8703c8bef0eb5d8f8d, 0x88936b3320a55ba424bff93efb36ef77e2cdff26866cd48688c61868ad75679b)]

/-- secp256k1_pre_g_128[640..703], /repo/src/precomputed_ecmult.c:8896-8959 -/
def h01_2 : List (Nat × Nat) := [
(0xa41920b5361a26bfbd187ebab62fd5b3b3be282f94ef94c6b1698754902683e3, 0x7790a19629d93b4d3d27201b32053e02c95a8f9f260647d1491c7a4ae15ea98a),
(0x93882da979262a603252f01bbf101d89ed1abf8b15507937055979f4fbb7f86e, 0x0938884df0a716ef0137450bad5f022e23e570f13ed37e0215a40910189d7e44),
(0xa10509f83efeda60acf56b643709b197ebfa6a59e66efb0679c23225c8952e00, 0x759083d5559bde4d09a37df524cae4f85a06e7a47c0e15fe830f0677c24d1ddb),
(0x2b945a976ea7427873d7e587dfe75eafc55de7048aa26d294b3b1ef92beb3651, 0x423c07ed27ccbf6b9d1cbabce00b451bcb488d10e5daf7526980ef6506893c65),
(0x86f9d9bbc1a0bfe400e03da013f17017f695169128d51073b594457b0fcc37f0, 0xf370c6242e3037969339cd4bfbc19e8f62388f02649247eddf3c6c67464c32bb),
(0xf8995af9555e044e6238d8958bdb4e133aa9cc0f90a9206c016d0f83dd61ed91, 0xb2d4d2e31bee12c83b8bdab834fa2e631febdb934af194bcd08259214ea8a060),
(0xab55a27f69eb352d455eee7f0bbc1c74fdea262163d09dbe2f554417819394ce, 0x8ac5649360f585b572373bc174a930e24d54674a897893534a166200e31b801a),
(0x4fc106c9c428df98916a890695e98353ce84723ffadae522e8a89916a23b9fa6, 0x90d732e83d54341e4f4c88be3392687dfdebbc4a7c19afd1925316889eb92031),
(0xc9c859808831cccb77d87b2573a894e3874080db0ba076b24626bc8203149a91, 0x9fad4ccd8c0949f9be9a6355f0bdfa36c5f99268780566e6a6f302e3b2abf0b8),
(0xc0cb5b7e2293abba5ff78c46aa1422fda278eb5cddd58cb7aee771491c5209e7, 0x8101f42e366485865db6b572d0df4ca3cc72789eed8d27d51330d7334e10c47b),
(0xdbfc03c516d93f83472ab60c391bdd69af2f70ce0fbce15d140f1590d8ce0b63, 0xf838e14d7228ca2e9a33ecfec376aa4e4811fa24debc7b464658c153fed26564),
(0xde260685eea13ff11571d891035607b0435140b962e3baf37cc3f3d3484f59c8, 0x6bc23ec9a6025865e6363335bb66f1e6c1f5f54caa5f8accd7f8fae599cfbbcc),
(0x58d78d60b8cb8fdb01b62f79f6c17ebb1ed8129fc7819e5f6f73c58bfaa2e71e, 0x7cbbe4f2fd6bc6718c222f5e16391133b04d6d3dbb26353140aa4053b44bccc1),
(0xe72b9b1aeed54fe5ab0869aa90014e3bfde1af12f646d738211ebefe2c00a490, 0xcd92d14d8f595833842af020a2cc82a0d946596977d25d348cff327390af4fc2),
(0x06a86baed55a5be18b7cef97c9dff8a8b725f6142221485b3b9f348d570fd658, 0x138a26914c3b3015103121407709fa8760a14f14571a9d4081c06d67ef2c5724),
(0x1ca08cf67240f244d6cb0059564fc283b17c39e1b624716e0e100aeebb0a1fc5, 0x22e24fce655d09ec34a36317c66adf07deec27434e9c016ab3447b3fd9ef0a55),
(0xd95dc128feba49c473e1ee30bcddf76eb7cf628afd4956070f558201824a0b0f, 0xd5340ab8fea3e137d1061274c69b68e3633e98baae2fe1161612c4d6c7c7e8a1),
(0x2cccd22a7f4fd5016c3a14e4769a88bbae7e288bd9987afcf3c073f8ccd83857, 0xae82663caea89fdb4710f849ff8e4fb8c2a7b6144edb5f3b0f2564dd073b389e),
(0xec17b5f6c8e4de23937bc0037dd7b411ae4a9ac81f2801d1c5eebeb095628a43, 0xb3e0d51dfd5815b0631fa298968fe70f74319620f07987348e66e6e96658df83),
(0xa63aaf7e62907f4e1a613cddccf1cc98cee8e12c8bace3ca956858896c96b6f4, 0x2f953ebcdc5f9973e9d44ab123255a21f8bc1a7de800cdeeef754031aee8216e),
(0x8eb4ff30318d8d0d6b45636cb296d13790e345af19a14b2c550e016987ad32f3, 0x4b8e238bae7ffc7e7d600151c5ebb7760cc01d510827f1718f28af770ca4a3e3),
(0xab1420afbb5b4397f578a6e574a63aec2432fa8cb47123414374add98276b8d2, 0xfaf6328ea197e92765b9df900a79558b8f264acd7f75b57490ce657f64b94396),
(0xdaa1890e6b2ba1aadcc16f1cc1d5999d5102aa6b348ffb5e9630bd1a886f680a, 0x19facb695a63eb94cb6f6005cf2bbd238744f05c2c22051094bf6dfa352fa209),
(0xf199f52e5398d1b4899a1b0edf8ebb73cb08a642bd22ff2e0b1cf6477f2a28e3, 0x3619ababa5e2131d4ccf874767ef9b752d5278ac5549bd9e5c1b59859ec2f454),
(0x182a9e93a5f9ecf36bf20bc1497a4a35e75c86f59c9fc046e2752223f046ad6a, 0xc6095e88c39dee18ca867693d85617c7e0924dca34af07a5c731e488ffb8bcfd),
(0x08a4cb530636fe66b660a70164277fb25ac21eae0906327c3b509954b214abbb, 0x693e58514cc6a94123ee707fad25d6388efcb85c25500bbf63fd6926a1d0ed1c),
(0x4901335a3b40c33e115e310582c55972f495178c813bd8d42b2089165c8c1282, 0x47007176429d740ddcac70eb9e1f0e94f26a9a0e4dde016624d9d801c84214e3),
(0x8180e5a77c34362b461b49e14b9f2e05df64f55dcad82b8fcdf41232984e01dd, 0x34cf5621d4b9f100aa34b0fd005ac91dcb3fb49c130f3e650de742acaf05040b),
(0x8f71227efea9f4a89dcaeee358eaa5d5a90e1d7cb7d232a4b1085fe13651ee9f, 0xa4da15bcbb2b79a0a27c344f3b914c7fe272676abc045aaee90daf4e9655ad73),
(0xdbeb9b74cdc9bacb083592a2a3cc19a6d1ea8eaa5a086a3ccc68d423cfb58264, 0xbe66879283f07fb5830732eb79e16bbc18e86df9b659e2d45b1009a340576161),
(0xf328e93fa7f52cac3c7b09b6280528dd7d9ea4df8317a958ab0a617d71591933, 0x41ce8c59811f9e9061dc3f3a7d85d3942f780c17d7ebca60fc042311f2405547),
(0x56d4f403416b1bec49c5f44c2021c245d4ca41815131cb7d8fb0cf0830fea051, 0xcc5f6133948f77be934cb6373d5dce8c51ae1a92e3d802a8d35a3ad850bd39ce),
(0x8e22e04b8bb476b7ccebecf2a327fd41dd90c9fa067cfc49e9cf4ebc039022b8, 0x01f8fa603204696d34d03c0231d3ef58934e7992c2c81d6d3e4193b308286b8b),
(0x341b22e4b9a77c68f93624dc1cfefadeb396eb72bf9fce1a51867d7a0ef064f6, 0x95839f877bc3695759562bcf0dbcb2dbaf11ed727d329e27cfc8ff8b92d9441a),
(0x3ea42e939f234112879e868094fb8a8ce6af9799c000b05045eb20263b324763, 0x443241676f5aa6f04fe4d51ffecfa8fd60a5c0a338b16f591866bd512e01a623),
(0xafe7b44cef10514ef94faa1bb8cde91c23d8a660a71c317342f927bf535d625b, 0x7617a78851218772bcd51f1854b063ee6cfcdd777a38842751cacfc87c8b4b65),
(0xa360ca02abb40d4c6e0ac725f2c035d112f69ee3ff0e1dda37a3fbe6a2034d2b, 0x161e71783fec3ea0305d0f723a60846f9d8bbe79255a3814fab83269916b646d),
(0x10484e5ff7d9fe7d9b65d9899b2ecdf75984d18c1199f61ec914a85b78011b88, 0x12d1c0e21e1373579ede1086c2c1449fe7f4e03d78f7b1844f744d6f9576cdc9),
(0x76c2dce15dad9ddc24276c40eda7de6ab11245e65b051ba67eec39c6d256b138, 0xd9a601ce585b083992e3fca2a43739a361a8967d3eb0f605ed4cef15fc64ce82),
(0x671a31d4c3e6ed98b044fcb183dc60c7d1d839883a54735627b99b7511d4d2e1, 0x6fdd8d152005ef3f7ef3762fbf43a849281f185ea52c1b3b08ad371b0e053088),
(0x91d0f565a2da690312b7299857f71c18c2343a5ba6f172431bee12b66e898a37, 0x9d6a55b91956a288d56906a101f7cddde6393ad67249147a41eb209d7f32f681),
(0x7e59f0581953a2c3cbd4d0cd8f4df7b86b90d8de7240b2d4de9ee9ab628512ba, 0x33b0d1eb74cc7d60ef419b0af9f0371435a012fe328fbdbd9d9b69bb9a42a173),
(0xef78b65e0b791bed212652adab1f32fff43a285be040380dd3492afe1f788a26, 0x9f3e253896d5afc23ea7ab1b24ffac00f156cdef93957910abb1cd1b6508d306),
(0x78b978d0199833ee417ce2f5fc12cb01cb0c0e4cee752e1f50a8cdf9b56b7cd3, 0x9f9c7dd7372606bbe317014131591f5ddd631f9171460cd019709478c1560dd9),
(0x5f785b31f9945a20e992f5e880abab72906ffdfa7ba7cceff1b3d26d70bfe64a, 0xa3cc480eb3cb386affa1988d3227911d57522413e5d0846e0a6d0a172b881c1c),
(0x9fee79997cbb492fcf3aadfa44484d7102c3887d6375c887fcee9fe57806b3d1, 0x431143277e94c7601fbef25a60e7d448c0f0b8f0c6c64437a129d4acfe24c22e),
(0x12f2dd5db75d88857b7befd7cdbd7c76c0f46213f9a531020acd8b0c4ee3f30b, 0xce27598b0e85049e9ad3ecfad3864070f8510570742dd0216dcb4aa5334097d8),
(0xc694aeb43ee2b51c3f0e2befbc1b718efbb86f9f1d2a84d53178325dcf997bd7, 0x41481f3eb6a693112cac3e5cc85a6f836fc5190eae71f226bdc887a8ed050977),
(0xfe266a4614c5c05cbaf3493f5af3befa9bd161000860bab149ad78ca81047ae9, 0xe2e18ebec44694d4b7c614ada772a5c4f58ca0874957f20b0741b95418471e6b),
(0x7975e1dc0926b07c487abfa58c183f21daff04e7f67a7250d2152699356118dd, 0x0c984b9744e2b300ca54b779da94dae5f943468d9b9729d821cfc709351409e5),
(0x93573cdb50183589a0909e8e6186d7007022848eb7fd6951a137cf16a18a2b06, 0x7a957c663047f6aed9490039d136cacecaae2d8afc9f50f026590e6218bf47d5),
(0xc0bd2e1ea60f6feb8e0ac7dd485fc4fe6771d80ee29b4829fa37faf881d77660, 0x685b74fd9edde1c769076267d9f247e82effc83fe25af06556aff25b0335bacd),
(0x56bac0e193192207906e5f45d55d5919b676852bdaa432538c4c69849c24bf3e, 0xe3bf51d39856b812d2e480bbc8b118e50f5c0ae9f8d09096a5d207ec2fc18ebf),
(0x53b41b13fe7cddd2ebfec7c4a985fded5225fa0ab93dfc652314d1e59142c06c, 0x90fcba5744e4f5655d2e038dccd2bdffcb4ecf2048f2ba988f62fe9bc3b69c4b),
(0xbda05e31ccc0edb947ebaa269182ca2cb1136400674ce5f5d55fcf2ac2e765bb, 0x9727597931236982a74593567308ea972fff08daae8f707b447dc6ba7acf75e8),
(0x48dd1c6a8a9008201fe09f19a8f65f8291196e951c57189b21aede154b0413d8, 0x79a1f6fb1a943dca6517e28780e72f85c5a6150d9c50d7af78c8b63ac09b98f5),
(0x75406269e28c428c8eeff4e2ce9a2d482be8346f3446451c13c04380292f1f2c, 0x4743b097211c807e23cd13d7692efc44202c44cddde5a89f9e7cdc5a133e996a),
(0x1aa55d93bf3181338840ae4d24314ffc744200024ddab1654018604a2192ee5f, 0xbabac35492d59e8a656ac7e99b6cb2cd7a6a8e881361118f041e38f12cbc3bfc),
(0x75be4c50db7bc629e64fa8503d89f72234d214f49b176fbab937120c477dcf03, 0xb5520bba8c606db20833d9343c860c6bed2e5e2a41a6c3fb51154c8294b6f819),
(0xf3604822e4ed8b2d0d4b2486b611b95b6508e10a1c725c7d8d6382543cef6c8c, 0xf405ac797404bc6a25a1a412f2cbd69875d99d2cb23ac105f9839446222dc0f5),
(0x6c9216e66f9326befad5f727ae0326b1da54ee91f041d2bf2d87dff0e77cefe8, 0x64a021b9bc1947c8df546f922f5230df1ec2f37250651704557377fb39d16517),
(0xae479bbdce97732ddf31386176807678988346e25b12bb09e74d474d6905668a, 0xa3ce0355c59960878993633664d9bdd2b33a6f97ea3f28b3f4b7c0ac92612929),
(0xce92c17966f74db21c6abcf836cfd2f79ccc05a7aaaf74ff4807052d754898be, 0xf3e3d3f3530f38c4ca59cec9c8e3456b8adebf803f10927ce44e79ca601bb978),
(0x8a0bbeb6815275c177553d875988c4dda96f5ae2378a3b9f477cf1626e6ea68d, 0x958b795e46f45412acaa9f77085a4e34a7c74eac228476d64e9179835fe77f4e)]

/-- secp256k1_pre_g_128[704..767], /repo/src/precomputed_ecmult.c:8960-9023 -/
def h01_3 : List (Nat × Nat) := [
(0xc2a44ee9975400e2912a033c05ed1e7a7f0e97a71c86e8d00c2e51368dd9ccfe, 0x956435ef7d24a507dbfb69b293b5136970cd17b8ebf6bc60596a95453675668f),
(0xb615f625534ddf6147b7852085443bcd3d3bbe91c815dc293cc891c7199ea1e1, 0x4cabf4f199e2146862a908764f65c624fe3afd1c6b399e12267dc1e76ec3ea25),
(0xafccaf8dfdcf272acf56dde93980bee7b64a0c54f80830b55fd0b93be8a75a0e, 0x08d8ec5d6f6fc44f89f6d9ba735861afe7d6a66007d88e9554f2c1411042a63e),
(0x534176a8c5311b261f39395d0f78300b559d072acb3873ac32833c8a9b135f53, 0xab84f84b5eeea7b487ef66398fa756fa0b16155d683ef643b03c7e6c8ab2f436),
(0x5f7aa17397ef95cdf47651ac6220f3f28705abbc6531b93ea65fcd141b91f34c, 0x72f7d8983cddb34f2ed1b28f17a77d8e70cffcbbe0462ab8b75485619881da22),
(0xd4fb4a4cc1e2fb72b301db19335afd7ab6a952586903f4490aa287fcac8f3d3b, 0x76b572e84a9db28719d098cd5dee787ef213adf79ae9030608881894e14154f9),
(0x3dc67563843b2f3af793116c23db0dd0dad0975c5abbf5694c6d454c9f7a9ff4, 0xddf65b9e4db83b7f43d0ccf8049a80884894b2774fb39fbf78076a60356753ae),
(0x657912bd1edd014d1386c44950cd16679c3e415db36e36b13bb5c82ca2f897d6, 0x4e2fdfdb11bbe2408fc7fb3aacd06c6978205e48c9f5a1434300927efed505cf),
(0x05a453b35f82585cf64473e50f3fe9376f412b5fc4ade7b8f90817173fd69f99, 0xfc169e113448b5904e1dbf06f4aba1a3ec2fb4b57f2b4c4fa29b661758097ebe),
(0xc3adf45ac24b4bc869acfaf1f96a3043d01c68b20f4ff689093b37b3a4052679, 0x3d923207cd374b49d3a85bea972b8d094f0d4b83cedc97d7edc2ac6810ae19cc),
(0x1a32edc8905ddc842756420be1f25daf5bd84f0facb046b6e9040fe95e1e1d56, 0x7f467d9d113a77f8c1cb73ad16a62f4ff1612c80f8cf859c0ca4216468eb4c51),
(0x70957d9862e5977ac328b7da2e51024af925c142eb1a46b7b4a3bf20a74d6c98, 0x269b56c62e42cc34a0951348881d2c537d7ee231f2327ec1441fd273bef09381),
(0x07e694165a02b16c107ae4540b6cdf25bf6dd256d976ab44bd7edc84837537a7, 0xffb874db38360c11e2d0d2ce03e47363a6aac21d78a37b243e66826b445185f5),
(0x4f81a1597b42e9b524be7ac6ff4405d83b9d8a75e37b58b60eed55256ddf9678, 0xb253120718676065ad8ffbe16d27df4c3558eed7992538b377cb849786e0a78c),
(0xfa250368577065af0b60be8de93813349be6fdd61bdd02d93591a35d294fd547, 0xf0b991e396c77cbf5d642f0dcf5ee10b3b0a1fa77b696f06d4d61cd448e81625),
(0xf4df5ebd67162bfc3e3da51723fec6d86b61d6c4a5876c4d440f025a272ba3d4, 0xb23ba2798bc75fb2d590e384c9e375ce6380dc5b90970d44674e32a18052212b),
(0xab5b6b1db3725b65fae28e5c44460d6c51b8971a0655541c4a587076a1ac5015, 0x16d2c457ecdc17183a9d7876d785adf0424f72b8d08b6a9e286ea5cb26ee2ece),
(0xa8a4ec7e13db537040680dcc470d38a402e08d993c30f981ac877ce028869e55, 0x4a9ded9c2cdfee53897d0874965878a4754025d5babb07bb2d248151cb7f60a4),
(0x337f54f633bd60db00583d08165c10116f914dd9e2abcfaa5f1b1410b8245f48, 0x9453eb28696afc4a40b5452bd3abae4c679b58e5408b0a94ea4567718176dbfc),
(0xeee337abdc2baaf10544c76741a5054cf6db480d529d20e433b642b5fd901b53, 0x65ad5b8802cc00d4a4ba1d8ba6956f88825616cd5f6c983087264247869c27be),
(0x59f52e1857cb000aec1aaf0cb43f1274f56e477c50f010b84513fcef752f1548, 0xd8ca8f6e8db03b198047006ba6ec1e294f2254619978ce70a1ae0f539e1698be),
(0x6c200a0c25fadb2a8a9618d9d7d862878583ab10f2b4915e8f5a5f05406f3e12, 0x14d4984e374cf35c145af24da5c0d0f80504649db1793a617d6ed949ef8081f8),
(0x1654a2fd51dfb6f871aad878239b657af8144ff898a3c2a032cffbc38aac07fa, 0x8b6965c382d98569b6cdcc1d4c71705ce36d46c5fa5df7148d59043d161a839c),
(0xc48033c9ab473556c9982f33953f96d67b3ed1c07e98efae8de232f767556d77, 0xaf3f48a87bc43168107873828dcffaad0abe4a54828b02b6f897ab4bed968bac),
(0x5dd977faa9d228d51885aaea557f7a981a95771f0212c3baf1a4e4283c3c6032, 0x3bff9d4aba178f6cd2ce52043daa06f2abb06acd274beb4549e72a378f2eb656),
(0x2a76dc25dd9a96c4bcff1d8af3c9aaeb261e4c69a5d832abefefdf29ce42a564, 0x493452f23ad5cae7de8c972aaf5c388307ff82aadf616c5b2fcab4c6d5244806),
(0xcdbd35064c0e7923822bab4db4662b2afd3935a9a49e6d6ff2db8f4bd29a4b8d, 0xb2126f2eb61e274fa688a84c386fdb5f58b845151543f143a8ce0a3c557a90ce),
(0x983f249b2cb9d4f634d82d6ce713aff92bcfd525a4146a75bf6f725d2b54d978, 0x79cd2406850be02da6c4d25f5a02dabeaf302e77238833ef0cff04848a8abca2),
(0x88c765b4a5a0a9f3a257e21effb23e519e128489fade138396fdc18c38afd4f4, 0xf4d5fe64729995a3e505cc031d144682e3336ae345c286971cf89b7d595f46c2),
(0x197505ecd603cb0a199c7d08b88d0e631d147d07456036926b67a582b7d52c31, 0x947ec13bf2d75fc50af5a74615a75aec2f212adfa234e08f49a561e4f9057f15),
(0x98184232e10f605f58a700c30d6bc04d9a19790feb638fec668320b63b2eaaf8, 0xef3076edc0e2fa3930ea837e36c31f59dbbdf192ab18bd7f39578e1ceff9c85b),
(0x50f0db35cba0134b790f47a9e322670ef0c7d0816869a764892f8e236c0bc002, 0x1c1b1c13d98a84eae77260f658e265d89e466b44b8604edd83233fcb68396072),
(0xd9e340ea1a44bb50ae4bb19f3f4228f499ac8516cd6bfa8680c1dc31d5665502, 0x128a1688335a2193ff805251b83baee9341445ad25048f75355f4b355b4aaad8),
(0x15aa813301b84ddd8c7067020555dc19d42cb4a90a9474c91e33c0f8e87c539c, 0x7953072096586400ebdd2ba17762ccbb2a14bf4745f63b1de22c6a6d8942dbc1),
(0x6f70870453d19a4db910d169c7c7be23d489dd182360424255e182f87a5d34d2, 0xe05319567c1c2bf4a0a9beabd7c4dbb9c15246fd5a6de10135578aa999c7dde2),
(0x31e920dfcddca3a489ad97e9168854f7867f9a58fe2d3f1bf33f8dc3c7167674, 0x52712c3d0b0c6e58151576600ebe27dd244a9c5fb12cb8afdbe82900c3706f39),
(0x93300e11708ff01d96f81fbcf1888c968258dec286a315ab8d01f2da4c8d51d8, 0x153686473b6a208c08449b5366584e4c9e0b76361256df464c93d4a0e26c33ff),
(0x8f7ad50bf62d67020616cfdf3712c1ca30c94632720797dcecd54f65cfacb3db, 0x5ac10a3207dc52bc33290080a1a194c81eff0d71065f9d347e4f8b448443c637),
(0x6ed80b8276270d71c468f5d7350c608a7f5cf51dc8efbdd74458a4872989f4a9, 0xbcba2bf738f6e77b465e47b7c687c7e177fd3cf20163b5a2e00923d089826dc0),
(0xec6c1d7db94989e2962cb85f777eada27c2b11b286949e38eea2bb4b7ce3714c, 0xadd9f9af6042dfdb1d4089d0ebca57558ef2664d52fce516df3b030e9ed08fdd),
(0x8f77cb2c24dcc192593a82d3510859b9c59bca8e9546735c1fe260844a37f093, 0x51674986fbf499fa70b55bd4f0a70cb8423fdebd587e621383199b3c4fe07202),
(0xe2addf74dae831afaa4c4ed62f4a32dd1122f2d6243d049f1fd78c1d064b6aca, 0x7dbcb3941eadfb0b08a560224da66128a73a1aa020a5b23ccf58118fe28b2297),
(0xbf7af1bc614d31c99afb7c6db8cd45b33a22b15134ba872d3e845da302b1e3eb, 0x108d39e78cf88a22fba9e25523267bd52b850464f12772397542ec2c50125a21),
(0x088ffc7f0cec65805b92c5f6952d82cc35b4f068a7581987093ebc598efe50e4, 0x382dacca94b42c3eba1558c782394564d39193c98b9e8cf4a63dc4da4d378a4c),
(0xb114a3840ef4ae60b9c569ae636eab279070e20734cf83b7a28353d47d3a152b, 0x37c7673ce58ee20a6076438c9bbe5cbfbb8260766d8a7001b188c477cca3fa70),
(0xe411a42fe20d23b6fa768fa1e310192ccfb0cd2b1914c9da627db3a8c7e801b0, 0xfeb1b79b43ee79807252bbc1728af29a8f6828ae8aec480b91c85008959b1039),
(0x191f687e46432313c085182aede5e7c431057ad7f1f48fd7cb814fcd74ee1999, 0x5464b42b3f77ce2d59a39efb83808cd843e5c5403d5081e60e4f4b1e926dbc72),
(0x63ff497733b0a49ef618c4ff01aef5379837744c85a19bf0b2208eb9506bcd81, 0x6ccaef97ca835931f3a87b500a93f2a439535d8c87e260903ae49b2930593d3b),
(0xefe36425c37705ba69e7056c02e8c628f4ce72a468d855564c57e5adb7fc2c1c, 0x392b9b5f27ac49c5831a5f52c2e55bb28faa7f12521732d08dd910c051970ad5),
(0x06d2126bdd7cc08d1bd4191021704a1e841d47374e5a0a999880051df77e94a5, 0x2e9b823acda1be9752f72ce6ead42127efb4d4b08daf55f55da6f95684e6e806),
(0xcf7b9ff4297d9c5b91c6340dc1cca93c6d453ac986b4ef54b20df6a504933743, 0x8a57808a2c07002b111efec2bf751b54c20613c41e3612ca083baa3feb670c15),
(0xb160242b4cbe5ee1d1dba4e80e2d55a027f5a5bff7c023f2c1524fe605f7e83e, 0x0ac357956cf3126007ee9f540fb39d3e4f1faaf467d095676075b8c63c0fb5a0),
(0x7a86452c4f8918d986d3dce022619a721744d9c6dfd0e733c02cdaa56abb050e, 0x30d30b1cb558b0e0fbaa1fb3596cf454542370fa43d8a85a91eb6bc5c90de179),
(0xa279bc1a64d206ef0ea96d3ab97c6770af41ba409381d372408052ff582323b9, 0xaefc853d701ebc44679a7ab1fe033182e96199d34b58261da1b4a6bc6ce42046),
(0xe8e285705c16016b608c301aac59f868f7691886261eb01a0d4e6ec6a9e5cc76, 0x92350315f8e780510b703b7a49427272c988ea6627699eb8f2fb3eac9f0a983d),
(0x1fd9cef814f3fc818055f300a734f9cc46da1585b939be73459e0ce18a9f2bbd, 0xdcc4f73fa50fcc8e6ec3c71bc045f020c26d79a9794a25cd26488c0d9cabb55e),
(0x321b1afc70275fd60fd48942df364f6fc609d4b6cf4e574d39f1ad06927e5f11, 0x1368ecef808bb311ae9ad36f8a4c81fb725a80f8ed029680c5b5446380add33d),
(0x4dff29fb6518e393dad0cad9b0dec257f9ef1e9cc50cd7418108c42ef6d7bf72, 0x4159786e05aa4e824d7bfd06713ec8f6d92f8f8b48304efde4d0f4c230dfb70c),
(0x937a84a5eb63055c65b162e11a3f2e54c839b97295a8c1b9274373f75ced1e0b, 0xa03078bbbf11a351da7fb3b52e3e7a2d62c122b1a9cf995453294f377966afc6),
(0xbe3faa9b7cab73b84fb2a87d25db7fc556f07393b3177c7a56df0447e96cc3d2, 0xe7051ee01ad794af571dacc44e91f7f69276446a7e348ee1029989680afaf77f),
(0x58b39c6bcc36d506765d24da6058d7dd36928d13b0fbe1f8c680df15756c9b41, 0x449e9691aaa846d9a7412b7773f7ae6fb4ecd99e0c57863dad72d3f0423d74ff),
(0x9b18a971b1660b46720e21000865742c8c91282b1c72c7b28192bdc9c3765798, 0x2812e52298adf83d2cc07a934a0650162be28d37059cfd506c792e3132e0f49f),
(0xa6c44c03dbacd4bd7a35e20761778826c86740c5c92942d7f73a1b3edec0f59e, 0x73316b7cd1fa341076b737278aaf39c62258d29ec40c80e0797493cc7056077f),
(0x1ffb2755628ff8d5d837495b94ad78a05dde2043bbfa3aaa21a05a3a21682ee3, 0x4a0478f7006b8b6cffd9962df70e2a83a71243adc690efec5f95aff8dbb5943b)]

/-- secp256k1_pre_g_128[768..831], /repo/src/precomputed_ecmult.c:9024-9087 -/
def h01_4 : List (Nat × Nat) := [
(0xaea4c48e36051144482538a808ee5f72b67a21e708fb425c3d6f1e78419b8283, 0x4517cab8c28eb397bd89d216ce71133282c7b5306b64499b2216bba941a80b27),
(0xddc59bfa5f8c02708436fabb5003ca6f0b972f14382bf127f52979900b4ed3eb, 0xf6c3f19fb80e75b653c370b6742045e9ad7dbc803a99669699605345ebd995c1),
(0x22184fe7ed301b2d62bf83ed64742f6f94d204c9866a637d0d03c58b054c80a8, 0x9db275281073a3d5617a389dc56982553bc55d6a3b80cab4ace361408179b442),
(0xe58617f474e46f4a74b0ed2d6bafc3cb6488c51087136eeaf98aa37af201cef3, 0xcc6a737552dde05e71bf2047d49a41b0c6b141e2e4f519d436d4f8e4f2aa2220),
(0xc1aa40925addc5fede6c2c5aba73b3f2b7394a0f1d02846c5b2a0379824f8e41, 0x9713af07e30af5609516ce735083ab532475bf260571357028b586c1d28c687b),
(0x4aa5d88d8957645901ccd1c23064c71869e4d320b0b71b5ac08d291ac1df6168, 0x1d0ea41b915c288ec6b36cc3f78064810c048482dce586adf240d32ac913e6e6),
(0x93876d9173137834dca5e192fa869a02738d4171391df1e743296f93a2a8a977, 0x7948463d32bad45024e63d9dd5786a6973fc6c8f9d2a7c3de2d6fbad7a6457a4),
(0x0c80cd7d30268025b233dd13f2f2af375d18080a54c406ee50e4890fa91b7b28, 0x9f73b58b1f1d11f91648f904ac7ad2759e6260c927870292278fe521b718bc4b),
(0xd2bd24d97dd4a345a8c4e85797a9c30ce8e7e7c43ce79bb8fba4250ea0c8c5cb, 0x330f0cb815cb193190331055809eb028055ae895ee1a30f7665166b906494b9e),
(0xd4e4a3a290deea18fb15457df3ab98155d722589515a38b8dc3033075dd7e9f4, 0x4854493e77d0ecb1742bdc9ba5219e9a71c57a6cb914b8a56eec21dd3e7d1c21),
(0xf0fb6cf4810de399fcd1b246f0e76e2bd318f82e1601ebea2779be6d47236d19, 0xe3ad51606648023988b0b1973eb2a41e2cc9b4d37cf58d07ad0edde7ac595daf),
(0xdd4ec58e3f4c470c36991740d02b0fc79a4f9df198647ab0ebf73b1034858939, 0x3a6ecc86a3b058cef278c839541e92dc737a639094ffa46417e37da040a3bfe3),
(0x0ec569101d7ed954d4efe1b6c4f6ade12af12f3addc75a8b8fdaebb7ab904e51, 0x3497c67f5d594f714327111ae22f2621be7cbaadb2cc1d6dbe0b7e50d450c54a),
(0xca45def8051856a57ca5e1aa64edc3cbe25ef6b0e28abda5a85d9a19dbaa35c5, 0xdb8b2357268db9ebe013fcde111372c26eb4ed695a7a3df04d1d33db703521b2),
(0xb44c5388964521e24803c8b63dc8a49440f8ba15435ce2e65f6dc09215b49a47, 0x2e16435df30c4b80cf125e04b85166b9509890a9c1daf1f572462a83de198d00),
(0x95b735e235862f140e9291a54b46d97733a20ce1b59b4603666cfecae05dea26, 0xe12817055f38be1909bc9977b6e80c08f22ab5b1286ea55321145675264aabb9),
(0x83d9d8678fbb02636ce8d2313ee4716ca15c71b266c1a7cee56928ed73e5bdfc, 0xe0494c2fbe92f132effe7d78499f4a00c35027c237df85459918687b6b949246),
(0x098b7c85a04c546dbbf6bad16914e2471d3b478cf30dd6f02e84377049bbae03, 0x769c3b953733dfd9d9027da4a10b0a65ce4106f944364972e569c63d3b2ace57),
(0x3ce7b677852d34ec34358a8f4da66d5375019cb119a45dfe0864062aa3b12e45, 0x68d2790f01838b8696272c4bd5e418a902cf03d9de44f218e42562dd467e409a),
(0xa0bc28f4d4da710141d0dca751542b836b50bdc80997b291e074727ecad7836f, 0x6ed7e14940f2781cd685a58199f163d2177eecbcca7852242a8b485997e47c88),
(0x9a571ba352b1d62b4e5d290ac0d4198397750fc49a18cb6818fe11ab1e185c0b, 0x1a91cccdb2b1f58f9cfc0dfed34649170f6c28709bdd8128ff61e295ad1b4ad1),
(0xfba0544fcdd2de730d24eca555a8c4b04e135c1d8348cb93d53f647e2a21b9bf, 0x7a11a425a4ec6acf2eafe631ff83be6af71a6cc9f7dbe3f7aed57e042774568a),
(0xd96b253a1edbf6623902bdd701c3bad9ecad111545614b485f7abca1d4920a9b, 0x2bc88998f951b8312f27d09f2f3315361499f1c8b172f1f2408d06603b18c2e8),
(0x2b3c17ce1081b82594ae14da0f9723f99823382e947c135613a4b8a642267c2b, 0xa4cd589f2ebd245b88c7f1fa427a2ab6e77205c2dbbcc74fdbbdfa69336048ff),
(0x69698780fdac522c69313ea72e244d9d3f6bc5c94fd861252eb56369c96439f9, 0xe8eeb3c6460f475fc06b59439bb9994d8d6e4314fe20020ec1001f7725a03154),
(0x1e3446114cb4dc4c963e172c9bfc2f4ad1577efcae2ffc6d76395ef9a0848c68, 0xdebbb8dfe6f59a0e0b96d4643bbc6d51a2bb46216059de1da473436c404f5b19),
(0x6ccfae024c7f2a9aba12c191bd35e287d5c30284c4273a1fc558ae8d286aa61a, 0xc20141740c78a2fdd342ade251e4588d94c4cdf1ee83ade854e48388b6e7cb11),
(0x5b5fd48769b6a13335bf0a2e61a2128adb43153f9497c77ec32b16e2ca4c728e, 0x9954353fb23c9d44eadf2632168711b55a54c9da53c4108850fe77cd8cf00c77),
(0x6b74a25727af44dd61fbbbd27323b63fe6a41d9df541221565a6a9bc035d069e, 0x0a4e1214f17b8dffb5bd689c5f004c9839b87a461524575648099d33f432a34c),
(0x5171a1878ae9ed01837408b9fe08f3178688606c0aae04b263cbf143b8e372a2, 0xb5e7de6b964153ccfe64a4728a8f20a444da8e15c593b7e8681402760b172d06),
(0x0df9e86a4337ef323518568ce52958abdbce8a92840b756c279e96cd43c8e80d, 0x5442baeec72f460a110e8ff61e93813250b2ccdf061941df5f591bb473027da7),
(0xce070279eb6f1f71af876ab73903fbd0ac9e46937b6d33072ec801823887c850, 0xde83ddf988f9d345e1ff2a79e91f8ad96ea23097538dde84aea0ded4b6a155eb),
(0xa0255c6244afc84c58238936c9d08d3696e5789b0ed28c407667f3484c2f35fd, 0x93e2d407aef898d70c898293fb20f22206cd5017cd62669f17ee0d16773c6f7a),
(0xae82deadb76d5dd7140e1197a383ff62138e1840dc2f7ef0d5126dca86f0d86b, 0x239dbbaccaaa0779a9f6d8ec2e30b59072d36b58199a27c65f5815ca5720964a),
(0xcf0999cebee65e2ed596441ea894246197c597ac9c09088444c375d916332393, 0x6620cbd2f074edd501ff8cd545adcdbd1c664ad2069358808655ffb33a748ca4),
(0x5fb4af746404b01b63bff1b41bacbb369ec068019454622a762580339cd3965c, 0x464cb2e12cce697cd409529fa48e7448916a51b45954fe93d99ce392272abff5),
(0x15af3c0a46b5232e055e5687a2bc4acc2c7a350f8114e3a01993a0f31b3216b4, 0xae03739bbdce38b04735acd93a3ff7ba86c8189e56a5bb37ad83a574cdd45a83),
(0x5d0035d1d008ccc542cb8b5d32d973da32c88787640d046576d33e36540b4b10, 0x448ed8e5bffa9f286689061f73a74f1776db8a8cd5b4af396173e7be6e54c465),
(0x944c70f39cf749dfedb9d322ffc69e3aa40b0704fc4af915e027bad483c95527, 0xb0ac0c3bbf48933264a6e95ce49a669adf10acfd48e22fc21a18ecbdb86c6f0c),
(0xfa5219f082ec3c4a3f246754dad62f0452e262256cd28acc846bc5d6151e4402, 0x32ce81e9d6403132d7b64f26a0289031eb730d2bdcd0065a01b4e3f30a7afae9),
(0xc9f4aa30ddbee2630509455a858b851885c6a16b5d9bf0327044392838a30ede, 0x5ef717c6b438af319a89279946b73ba7add20334c2fa5baea15b763234ad7b7c),
(0x2f4cf3ca7454d5695b0dd2fdc72d4ffe0529b362deeea120162c178e7b770319, 0xdcda920e3566ebcbf47c1ce0fb767092fe7c87c5ff146042d5a0ceb7a2f7d487),
(0x2417f5762e0cd74af07a41a751f91b3ea1cb0a4202246af40a0a96b879969945, 0x6a96d755f8dc71bcadad0a3f61cb44ed741ef96d96baaceefcfba7ff1e7807d9),
(0x9ab22f84305a1c1f675ca5bacbb3dba4d43d060aee9148c66cfb61b85888852c, 0xaf0506faa2588e3a7aeac12a7acdda3bb51d996b2cca9c18e23b517aa428a03e),
(0xf7421ea224627926028ed8787e15472477a917265a162f5287501d1d24a72b6c, 0xdb0ae665e4484132f372ca6d8cd46115fe1c72cc885804dd8f5089005743fcf6),
(0x35756af3548d57e8dc0bb7918b9875b110a912bb7d971e354963bd7fdf5c6f75, 0x1ca46dba78a2b4fdd4ed69aebd4e196186d94b8e20b1660fc517098de077a1d2),
(0xa7e9f00c494cfaf216449d9ab0dae7ffde4041c2fe031bc0241c44db1bf01837, 0xf2aeb9ae480b406a9753d0093b5fbb745a7760de4ef508b7d10804c0161a0280),
(0x69451dba928728797737755b7655ce7064838aa29084fc1ac88f5e6fca62adb7, 0x26218fa8d40df09131d845d496c7b9501071537b51a3143c0c73f1a7b02b1cd9),
(0xc49c3b3015cca66fce986a37588205fc89a92d0f0c520ad35eb6cce3daabf06d, 0x7afde84a665b02b0e0cf9ca99d2ad0976242919c53e31b5e6216d67c580e354c),
(0xe9e181bfb68e6e38c5b6ee1df11c14f890c0c744085703871ab6b6246b9dae8f, 0xb0bcfedb3f3943170907e260c3651aa4d1af5ca5e1a34018fc6c26a2d5ef5e1b),
(0xa428586f0adf41cf5b5c9e52e0d6e1f92e7d8738ab99e8bc4062e302de392324, 0x77c3e18bfe71c93765b911e8b49cdee9a2a7413f4de831c83f967f0895b8d142),
(0xf5c92ed2de1d1a254b4a4830b656a67438077be75efed94d785dd0d9072712cf, 0x7ee98d3a497849cd5b5f6dcbc51c5119228fdf7e01a67f1ed7c670b9eb3958fb),
(0xa85707ca6c85f506311b6930767b5571e18c19c7ff2574bdf268f018b49c3f66, 0x1785fe71cde2e189aaf67d10337b8fb8536543354d5ba73d77518d9f5e8aa050),
(0x08866f5fa4c8d1c2f2de0cf819eca5c4d084ab6067a7d97c0f9942fec0a7468d, 0x3014226c3f33907a2f6c49adc762be6e2915288ba7ec009afe6930483588336e),
(0x425f6d7337eb2d68e17d07c8bda406cf92af22b56461bd66f40be14cae0688cc, 0xe865526f7c42e3911ab73290e80bd9fc096436595871bdbdef8d698fd04d4980),
(0x0f70fc3e1de3b3fd5541844143deb4be36bfe6af3bc9d9a2f8ac823d68323139, 0x8b47994b1febb309e3774a82d6b18d788ae5750b40aa944adae404b5da24ce03),
(0x1be960f3038d2a160703b10ceafa121cd59c66d9439e906758a0b3632a83116c, 0x7fa4ca2f8218ee04351549cc3b0100fb0647e0db19eea01062f1c0de3de29aef),
(0x01f2a2d3bc5c80a38af51e9f5694a80ee915eb894831ea7e48472d53320cf385, 0xa18cea39174b4c49f9bcb9455e6701f947053f076782ce9ff55653be6d3940e5),
(0x061d6b6070846b0bb779086117cafaa99aa67c37fe77140e88477f3e44d04766, 0xc7f4be9086849ae1632eb59a6c96de66b7c4b1eacaf724d25338c11ca8f2688f),
(0x02b370932d9a645179508daf04be7f266d5405389276fc4fe6ccf0d41ee6cc9c, 0xc002a3f42c8998b1ee16a1d8616ce0b791cdfc4461839d9f5ca0090e295beca7),
(0x48f5c3efaba8b7a34d7fd1360fe9b01f64af0e956a27663a87cd6629f2708858, 0x8cc38cb7fce467247c2f09cc52f973be90aefdbfb52895e2b88f03e8fe32b5ab),
(0xe609b5972e5ec2276f5cfc8767b6d534adfbe9e909e60b86e981dd9b3e62cfa0, 0x6be9c1eeff205fd3e3b85e3dbbf1b27a335ca61609ae189f0a433e65f2b43081),
(0xebe40b1a5b2c9cc846eb8ea81ef0c1cef19a767b2da6ab0b2ab66a01b16d205a, 0x2f7710e8e4fecbd1039899bd1964f5da967d69200d70b2f445d6f91497c67058),
(0x97cd4c399391b1ef653d32f39b062bcfdbc72d4583d81b3ff70df659358e3abd, 0xa05a6184a175b6def9bc35c56e9f5cae263acf2ba233bfe813dd98a7fbf37968)]

/-- secp256k1_pre_g_128[832..895], /repo/src/precomputed_ecmult.c:9088-9151 -/
def h01_5 : List (Nat × Nat) := [
(0x826928aa1d3fd0e853cd99fce6559ae7257343aa0378100ebf64a3c1bea7e6d9, 0xbc4a2db1a3bde90aff50fddfcf6f844afaad7f8a89bb399b020b07b22e1efc79),
(0x3e754097f3ac95dd176e9181410bae7a83bd14316772e398967ed39a5fa19121, 0x746cce99c6a2cff8a0907ea15cf9436c00ca7f947f3f1801135fe675a518df32),
(0xce539464b49b9947808a236c8a02706682991f463bb828fa44653266329365db, 0x3578fec2b8bc4763061f2fda29c2c38ba7bda79c11b2cd41a74d4c02762e5dd9),
(0xc933d9d9cda615ad7ac41d6ae64a77cb44a2b669215336692c90c3af53e349dd, 0x4a6da24f83baebbb8f2a8ede298babcea25b054aa1c4cc11f9f0b0db0572c610),
(0x459aa43b1aa9815fe9116f2e78ddddefa78e2def28027d51d081a3bc800b2ac4, 0x1acedbc3de995e30b16900d4cddcd1f25c6151560fc296454bd5fc7c63e993d5),
(0x5f2aa5d99862ad29eb4675640639abfcff4453349a30c4d43b27f9131e3b0a5e, 0x571eca2be61d0bf2d9def9ba445b39b25acfbbb7dd4e2cfbce7541c961ace144),
(0xec66ea1de6cc5d598c393e681a338549fc2c3d7f947b40f575681e6088f4fd1d, 0xd711ffdb3b3784355894dfa9d0a5497a5540739fa37065978ab7dbeaa9280f52),
(0x6ac53df5aa097f2d9983f018bd1cab3969ad0638c78547ab1a481682ad6105fe, 0x95f69a815127b9199488f224243079693cd51796bba08578abfc8e056618a598),
(0xa8a3e9e29e4ad0fdc466dcb8fdc02cf416fb5c850b3454fd3842f1299f96c0b0, 0xdf86eb3e3006dea50ed6d152f394d7c3169b8d090bde3685ce138a556716dc2b),
(0x50a764d2a0d8741b95ec84a2feda6df81dbe987c3186116632c40c3de6db251c, 0xb28203f0233917c14b67632ace9b512d76a8c7e2430a4a4085cfb4227fe41055),
(0xc2c314b15ef9df1d26856c9fa6e39cf91bd9c584582893a9423746ca1ab51ef9, 0xa27f9286ff7fdfaab949a9f5d59f08b7a22f1e31e7175d4493e219a4e92ab759),
(0xba655585da44c8d12b3ce375e220a4c364868b75370fdb75dbf6bb9276a9d3df, 0x3d64e16ba03a385bdef18f61432cc49cbdd9d04e6fc8873be51663bbca4fda50),
(0x3d45fa49d4d100a4b5a76a6501a5100e56bd0d13b9e141c2aca5cfefa46e600e, 0x0092953c38eeee42e1da93b13c75ba48da30390e731801eced5bdc2b58059176),
(0xe464c346e40dc3e240e5d96e1fb2c10c83e5ab7f451385964ca46b04bc8c3a8c, 0x63f14b46182950bd282205aa374cd67b0ca364a4f57cf90fc7ac90d65204cf4e),
(0x14a7e12fe235b30705b0d218bd3dc720d56f3fe4c73841e3fdf42dd5aea42688, 0xd79683cc40cef482ed6a22d48137a4f0eac312499ae138099eebf3a315e9ff2a),
(0x8e7afbb821af73b225b34ffabb2ff6f461d2ee2b85d5d936a99fb078963828be, 0x040e47765aa0768cf055bea0e20e1062bb528470dee61ec16cc9ce7dae6b1853),
(0x9d6411623227bd0f4bcf9f1f9e5ce8297d8440558a7ec2465b16069053297573, 0xed0d83a068001be570067ea470fec09e1f8630d5da5d1b2c126c35c39b07fc8d),
(0x6758c6d6d9e49d9f4125b52be3da74e752bb40f144af0f0b7bd805897fc83eaf, 0x749ae08ec2aa2c363a229b3de9577dbc5f7d22ccd46826e36a1cb434184fd292),
(0x0b3e11a045702d8b14d93df63a4c11f532632719b4a33fb80da11514bc61d73a, 0xc6e152b12b267ec201a238928cb970449660c6b634b22d189a86fbd9a9d562eb),
(0x50a325ea3b30991101371b0fe0b9e276137bf43c22108b98994ed5a0d66fa5f1, 0x946dad1fd39e0aa58a7585279b39efea8a99399c02750739dfeae1403745b70e),
(0xf7c8f2493befd5a2cf6802ce8ac508eea97341a6a46efe391214e322e95e9661, 0x3c072cc4eec1f370144b7ec0598e4d96573883e7fa3f3f5d4e33d88d1e34cb67),
(0x302d3b50c1543386f0b0b94e9c49ea6838c7e7bb86c28cc3c8965dc8038f85b6, 0x988047d0d891aa2f60b66e5a96c78c913588d128d4e7f7205672d25a88310744),
(0xcb8ee7282e7e5ba60d0e8ecb55ede89a1d3810fcb0d8f86afbf53b7d219f0eb7, 0x4b04ea2befad109908c9a4e3cf0491c2bc10bd60e06a118e75fe0163ab8094cd),
(0x645caa2b4a0cd8aa20cf6f04ac73a49d74f92035f90bd31b211572d4cfd5fd42, 0x793f299635f9d7c1de62b64eafe516dbb0aa13237f51d0a6b6fc8346fb7ef5b9),
(0x4d37342f6148b5e75434b8df6617d64cf00b1c733d85f4f3e69c4a27395f5a21, 0x6400092bd4c5c705464a7db2b1b6b6674eebd7dd38d05cded1577d8a53a708bd),
(0xe634bf17024e07b2b4ac6285ed28bd39747a213436e76d3dbd69317018c0e0d8, 0xcccbcade4b82a51ec31d9d8b6b1138765e9660fbe897ca53020db87313e9f021),
(0x80a00de62767c513d5bff535431d259a64c490063bbf992ba5111005360cef38, 0x7dceb589e8d73366c467e23e8fdc7e03b2620df79530b6b203fcdcdf628ef572),
(0x606d50e6d23d50ed9a5b8409f11d5c76baf5b765f719625d05b2e2dd9e8f8a0f, 0x19f5549245b1b4c2fcc1d2206c1712004cbb41e8bb7c8cc748c4366b3fb32788),
(0x9c8a0a14f7d44fb74a7ea835ae4a1932266c308338d66a247fdd60ee0e4f0420, 0x42c6c23731578dd231eda62181aedd298737fc7a3b2be8b4d0187459e5d9169a),
(0xd6ccfcf781a46f58ff9a01548a4179241a32d3ca043a8e59cebc33db1e35da1c, 0xa1caba1ace846b8d8b4824e61570f83287cbcfbc910256d568bdf223861d084f),
(0x8cfaf36a3e4c3ff24556f4464947c8d06eed5deda40ec0da4596bad9f5f2e3c4, 0x991b6eccede6cdfde33f81d1c1067f226b72373b96ca31fcc80e0692d8f3c4d7),
(0xd46c3d815b0f3a0bbcef39738c6a6cc7189849b04917fda0541c08ebb7e664a0, 0x35524bb6d053e5d7c8adc9b63a84ed8158cffe994041e6421fece58ad967c159),
(0x8ed7f0a52f1f8df7f82dce33e4637dcfe2ce9b75ca02ef0490c23fec2b7adfff, 0xf02460c7b418d10c96c272253dee3b664be1aa5d427759a55d90c223628d99ff),
(0x433ecadca8a351bd52ba4d6caeea3ff0825c46b28abd2c2b0cea85f66daaa2ca, 0x4d3b71bcc2d7d17745cd03c486f390e3f6d396fc83d0438f983a142f162977e5),
(0xc0771ef310377f837a9bbddd81f6642bba04493b15c054eb249b3f9cbba006e6, 0x3e53ddab1d816a027898c6b4778d4c48e1ea2b33a63955b0784df258ef4ccb1e),
(0xdc2e02264a6a87b953997383e35c6cd892072ba8a741fd238ff3a9c50f597ad7, 0x898ee746ecd5f723440ac0ff6f597e858ddbacc9cbc80e01d8a3c1f17c12c74d),
(0x16bace3459ad8cbf1fc5f78119cd9e31d043d7b2ed839f0311f0b7606adab771, 0x00f645326ec697e32ca2397972b2b83466e835b12bd49243e896c1dfc02fb1c4),
(0xafb94d8f3a271439146539a868f003469af55eda839c81a40725f3a57d69c736, 0xafdb294ea455031da70a4eff7563d764bdf37fa75594c9cb386e8bd1a35201d8),
(0xbb31d2364a98f7f41edb0ae76018e5eaecc337805f781dc706b15aa9d0e89b74, 0x1a064c031f47cc7ecd49f032f4dcd95e87cbc28a7b9d9c27a92a4c1fda031a9a),
(0xf73b1b6c4bbf5da816604ee30ef6e83b241e486ed727e70001c3c1153c4318b8, 0x9a28ad6e09d64cbab58ac2255c01b26125ba08ef3b7d5ffb476f9b8a6c8c9b17),
(0x063bd212d0ddc5a084f8ea7b69605b2b708c87660f0d3313b236e92191afa8a4, 0x0ee6f4f6048240320afbb0b3a9fd342d02fbca8eccecdb0fa3307698c56c3e67),
(0x6367d22b3606802230a416b78c689078967b955d875fd6299e007f861abc6465, 0xc3ee1f2d14e6793f17e444ad5595f9b3118d16479259e0bbec628897f69417eb),
(0x64e2e543fbb7f52e57901e3a448394c60c922d0f0b632c4f2df061a89485976e, 0x641a602e336a68b4fc447e5a5863a4e6895119424fce011b48f937dffcab2a4c),
(0x2e290afd18c835c8d1d79e869d9c1322e16e824a60e67f38d6bf3031e3fee1c6, 0x7f85628ed2fa6b6707686b0ec29a3626da18ccac5e3738749626645879390f21),
(0x859a208a0c475d3df5f22907988c7774c0ba2dccd80ba42b17ef10872cee401e, 0xa667c645778e743ad62ed1e3cfa12fcf84b982a5f1349e3133627ffa8b19f5d8),
(0xc9291908ccc50aaef19c0b86829fdc63b608d3dbd92b0939b92ac02a02bcaf21, 0xe5c52bb747111f58c71352c8b2fc89fb20cb7d4577c6231a17d8d01b06cd2599),
(0x5035949042b5b62078ab01411f1a1d4b64bc42c758da4459b04d41c461cefb26, 0xf61e823db68c064ff80d9bd8f272f817347c132af7bd2af1e5b451eabf4f04e0),
(0xf9bcfae7d6a3f1fb612787c353b535ec39f29a019f45f43e7b61f2dec4a4cbf3, 0xf4d86e6f273ad7e7902d5a9950fc846aa6565862aeddc67b28fc07a1232ff883),
(0x01c8fe8b901cf050e93c0004b0764715602ac4e97f8d5dbad7747039f14a9152, 0xb25ddb347c45294292143b6ecb19f87fb42a0f27f6f74c4c99d7b80c7d36769c),
(0x03c50be14cbe3a87d363947c6eb534e08ff676cf412bc4dd2c543131e786f552, 0x4434471c6e03f600d8a277754466cad0194f553dbb6532388a0ee4a39b05a74d),
(0x64cd71b2555472f8fa968b4b4f8c8b245b3e91ad6d9dd409fe72702ee70522f5, 0xf1b1cb3ae9fa485502d7fc2a819bd62940350a3c168782af5bff16d889ede304),
(0xc1c00444c584c346d1bdded87cc40b0efd8f69e7d2ec8bccc41e3414619af7a8, 0xd631b4943e3febb087bb391ad5810b61f78dbcccbc6de38eee09005d3d879436),
(0xfa509582dad5bb61c7450fd03b7e4ba02fbd0c28af971b96cbef59563fa2a7ed, 0x267c2764617c2f789ab890d756be21952acdff5b3490b816165e2b362f3df4e5),
(0x655dcee6864e926aa6e05f04b604c2da35175e0cf7d264d050920d46c1a2386c, 0xda2eaedabf062cb4ba2d36c467965baa5f1dc238b5e22df72bbe14f2cfee19c8),
(0x6ab5e1ac1b7be624097c8fbefec5c4d42cc1de06d15a1beb7606fc0adf3c213e, 0x26f983b204eb319c7443e0247fecdf58f833928d4e809d3cf36231e4d0a9e466),
(0xc7da869e039caa2de9f73a0d3f73ab736224e2a547ef5af35f5a9d5160c25f3b, 0xe99b110249a607d812af4cf676ae4c4acfdc0f899ec2175dc7942b6b40da579f),
(0x2a6d4ca15f1c3ceded68091faf4d149be20b6854bf015084a9cc0d214944ef99, 0xdfc27688ae9295e9ab8d92846a703ac55cb44bf313f179b4ced6b6380e661ae0),
(0x447260b3bba7224caa659f70b1e7716a92600a27181295752de62cda11c846c0, 0xf17e3e0f33ef2ede8980c922006139478331e2a640260996db8da1e0dc8999bf),
(0x8cdb1cadbaba70038d4b0f441b312aed5a8788a66e5356fd5b994f6fa7781969, 0xb3a5bd0e262e673aae7be06d8d56c203b88750e4ba06cfa17c177edd74536977),
(0x28be0f50fb60f90518323e6cdcf46c0cbc3e2c0f175d857685126a85d5caaefe, 0x5cc058f7fb188c4ce1140429568c31768d986fc3e96409de21bf9ba3862b7320),
(0x0b6dccbadd2dfad48b69218ad9cf839e837e22627f8f0eb6f23484a2994673a0, 0xe1c14ad7297f1626774aa2ab5dcc730a49623176ae81eeafb52cfd4cfa2de992),
(0xe45ebec88813f7e57a7ecec9dc5fcda6b9cbb0f9019bae1dbe770955e3766a87, 0x3a62a0bb4ccf37837c3848857acbaa9ff915cc7f13a468563ff135eb0dfbb07a),
(0xde926f7726f39d481e0b9e5522b7c87459bc9d07df65f0eb07b21feae8dccdbb, 0x9d190ea9263d424024b618ce1239f6e1115be2b1d721aba0f5f367f6304d8e05),
(0xf762138420669c046d794807569722b491e4272e1305f091b54a03f2ecf2caf0, 0xd0c7e8e5a227f2a95c5945284590caa33088c92bb4c7cf6d12d293d04b9e4914)]

/-- secp256k1_pre_g_128[896..959], /repo/src/precomputed_ecmult.c:9152-9215 -/
def h01_6 : List (Nat × Nat) := [
(0x4e795e8644ffee08f44d472e8ba0eb9da5cdb1d1619a437d4a8bbfe8565ce751, 0x5292d8e5478268f9bb9b4be3c751e58765038c5599cb3549749e83e21590a4e0),
(0x70e64689a944b03f32b33a97c8923531cdf75e8de8577559bf45d2d2ddb50b3d, 0xa675c6e5460b89a4a2dae263c71e6edf925a93bba916951a5364d2520c225586),
(0x21637c2e682b247e00cb8c1c8b4bff1f477ef3903b9da0fab08b5cf25b67056b, 0xe357165e3e761a557e4c2b6c727d8387c5716b58e24d0e048314979e4e92d882),
(0x7691a39908dad2e1741a41350018bdbbd8ae5bb17466a949a40560a39c1d1964, 0x225f1404b05b5bb6cdbf2296f76e7f270257280e28c68be4d8c81c470a422b74),
(0x748316a4f39508499af5a14b027eabf9b0d11e910d8752cb69899af879af9302, 0xcdcdd4d26bd709d8c3d87c126dd8a2c4f600fc1b9e84461f1793047b5bfd7ee2),
(0xaf588dab3839e85c6dc84aa6c1e05294a97089518006b390c2ffe0eff6ed9b8a, 0xa3d376401b06548f2794131f5e002aad616ca1358cf0c81d8701541637d9cff0),
(0xbd91dc6031706ffb19b61796995728b05f869d076f0b653735c46e10d9b42dc6, 0x3c963ed15a74f5c61a28db8ede070870cdce2cf7d6525a6d1617107644f153b2),
(0xe625c4a591460bbf5c3aa583c4cb1e1f0c202c827debb82d985732edede98f47, 0xd026c5f9a90353961de505348e4ac6000812a461c913299d7fddccc15970b72e),
(0x6bd227fed4b193af8b94553c718357e4122cd057d95980e8ebc8fe5c7fdaac1c, 0x5f3fe5400a98b0449ed835d3b0a2b4e7c66a0549e4b7b9f022fd5249c621a9f9),
(0x27707a25895e6f38523d3872c5b34e7c68a0f0f954c6ef495cff66641edb2609, 0xef6f4f8ec893d69769f34b38f7f677e9e5de5c9148cdf35e03a180223ea777ee),
(0x6052248e3359414ebb7770ea04284d7cc01770c0e75466db1f314e0fcff0ebde, 0x3d9820585cf0d5469fa62e020aa556fb1a1ac7d31cb9712c8b118e2ae3f7b7a2),
(0xf2cb5b534fa6124c16d825068b2298574d4fc6669b45550e6c75a114f370f6bc, 0x5cde570763a5cad213952def43cc779f8ec9dcbbc5fac8a0ad7a740b7241112e),
(0x77ad82159fe6b9f9e08030c7a75c601f04989b514ef6db20aa9d0b23e87a502e, 0x9268a1eeffc2493274856add2ba1ebb300c1367899af932a87fc680dea9b703d),
(0x4418748d171cf80fa7f80fd7c2d7891b5cc9aa0fba4ec1c8a114cbc94a8fd29d, 0x0513028579f01b7f72f18322b279fe7a9916c16aa67c6aeebabbb418fb1835c1),
(0x16af49606f89c87b7e5901b4d11a826d126e59ffdf7d08831d37d7e6367355e0, 0x1a138440537223c9e8e131ca8ea3b38c12c8e8ea50ee09f68ca4c2cd4cb04c2e),
(0x22d2043cab4431b8cf77ba0cad81848c0730a73035277e4aae6392f9de120f9d, 0xd7795dad5e5b46d09c36520ac7fccf9f4d71f9c98ed3d45a432f4f6b991b8acd),
(0x057e7a8b348265337e2033602f6244b641d92c8bb24197349fbb327157676302, 0x4d9238e8ba4bc8b2c3abd2eb6bb2e5455146afdd3d1ce2a09752803b4599b83a),
(0x45567f602755027e282b39ed05ddab1c7ea19a824c0609da9ab455b026acc359, 0xdb55ed5a77a354ede4229161141392dd82c1ccf7f726fd4c2fbba48d4134f5a7),
(0x968fb554910593479dc1933ca8453201798a0be71a284c383e8fa5a0f67fa80f, 0x063586b16853f550c36d83945671837601c14101dd03cbd0b164cca124e8920e),
(0xf366c6490f633cd7f1fef522b78f7b853d640acd11af2d1714c14251ad873107, 0x5fc396af38f4988d82c4cfab59d415ef25b260d5711ad546e56fb65c7482c6b9),
(0xaa0c4fd44a2e68b2edc16effd2b3c29c59b192891503e6e9ad068743fc201d06, 0x614e32242fba7977464b5c4db76270d02763aca254aa5b82b5ddf8b7ff3fee33),
(0x6c886cee19b2cec691c57abbda830e45da4cbdcf37484ad2b44449488f2cc876, 0x24cfcbbd9ab4df87087eb384fec64e5aa197e897bcf2dcf5def4b94e0afc16a1),
(0x4d600199c33f76eec81d1686f116d4e0fbe5e4cadf3bee439a81785bc6095554, 0xcb414cceb769f70e115d4321fdfed7432bf73dc49f1628e9dad15f325fae614a),
(0x377dd0a0196d59e0e71e84724b65bb1612c3cacad2f2230aa675a25a5d0a4fc2, 0x2c727e7d8c8e27dca5ff7c270b3497521159c7362b51f38fe0343c74acfeb560),
(0x9cc0cf8a23afdf351bb1826f9d900b8ae8aa50198cf365529ca928a59c820f46, 0xb572f15be2aac0a8c8142c53ea43a0a0693e54465d5531f8b068d347f7e67256),
(0xd55dfaa641492b1e981d154a2be0441e4cfb01eaa51c40ead4a4d8ed19fa3050, 0x2e795dcb408c74c2a9898f31523a1e72da0c4c770c2dd2eb45fb2e518f238ac1),
(0x46bf63d72d1131523075efb3fac6c07ee3d27e87279724e846306dee7d210fd5, 0x771bb1f230fa32537e3b433a2905c4a2dc4a2e3732e282fc94cb2c8833b0b199),
(0x4bcfe38803e77c178c6f1826f75e7c3b594ef8b8c1a9ba3a13f0059750ca3aad, 0xb5562e939dcf4672fa283cf56c05389cec5ea923b47d09b62ddaaf548a1b0129),
(0xc9681af4715e69eed7cce80234bb2a496255ba391df76c57df9747b8d8c241db, 0xc8b175cbb03d52065f2bb84681bdcb04da530e8131082e0828c21f7ecde038e6),
(0x09fa0a1b56bd6ac7f4a2671a3b4f6ae9bd5538bd4c6b4101790b16bcc2fbc33c, 0x27f9eabe785c7ccee4859959348b486416056f686d445fb5c08fd8b633129e63),
(0x15042df0ca178aac0723e7b98677964fa87203f2bc0e1feaa56ec6a473d0381e, 0x445db657dac86b0df8f9eb59a143e75fe271cbfd2420b3a1677ee3bd8d0183f2),
(0x354f6a630d4c1877e0e7da3e921db7676b7f9dd00eaf8b65eb08b0321f37e9b2, 0x1000503bd65b80beeb72f480a43efd652eb784d8650bffea5559aa2b104ea8fc),
(0x19c361617a448fc049cd8864d2707d6e9e4ba74e79ae3d8ac11430c599de065c, 0x2f9f9fd8fd38ee8194ef570c1b7299ee75742d181610a2fa4dd06f30989acff5),
(0x3739848ad2ab8a66b6a7a2d4add9fa8f5a50807b56ce5d395bd4c1467083f88e, 0x6fd71820611102bdf4dd205692e188cd068a54091036951e6f58162c65f0cbc9),
(0x9c22cb45261c23367dce66f1f84b84f52dd7e58f8ac6dba950062eac1c10aa35, 0xff84e3f58c25be72910bead6286dcb9f605b00171996d46ec8dbee64052a1116),
(0x572145c87f3117327ecc71e45e37c5555a4127857513fabbd0fbdd496db4538e, 0x163e63ac5e3908da2aed5166c121548d5338c6ac04ea7550242c79108a38871f),
(0xc9f07954d8413eb58ef213b751a966c74c641ed98db8685bd931e3212de940ef, 0x9e6844bc804f3d3ca065fe7cb09bcecc92cf5af3ede9041d792c184ccde17fd0),
(0xac297f46b07c8a29d664a24df05a8a51f7b0e4aa0e8800c3f9291a13787f25e3, 0x686e3b7f78e45ad7fd1bbca054a5d182b1556c77753c185875e98de829b66cbb),
(0x06c5913bb383a688390274df121eda235ad55dbc80bc198c2189793498b3e1b5, 0x54b9b83ae3649f4a2f11ebf461e24a5553e5b4b5d0f78dc91c35aade2cb9ccf1),
(0xb9926fa3f503356beca59ee92163cbf9846e3efdc793db45cf7ea8e5af2495df, 0x0d6dd7c533d4e7a1ed415c511fc15e05054fd00c100bf047bb8f905442e2a512),
(0x4325d1d2f2cabe77fe0ac758f6073057cb36adcc5357fd5a31473ad874e69556, 0xde4379682ff6315f8870562d560cc48f818c8fb5c45ad932ed5a7d4f534904a9),
(0xa183e95ffd84bfca4afc9059ce1c40f4eed924dcd1bfff110d38a8c114164917, 0x11c57610c7ffca410145046d4cdf95ecc38d695dbef057f0a0d01bb441d64b95),
(0xb340d0d9ad6528f0d9651414f48fdbc2ab7af5fd3baa809184d5e8816cd07114, 0x85ed726a9ecd70f7f964dfbd40e4b68eae2671a9b6c3d384919d040e120dd4e1),
(0xb52daa8835992fa41595f0a4c9e075d0b146fae36c0d640e8e6f34c216719377, 0x6088b1399fa83889a6cb5cbad478c7a04f42f08224b169df85ec90e47a4ad7ad),
(0x090bbd1542b0f88e9f7f82bf7c2b5fe5f269ba364523a18d5dc5709a2ab9d8ad, 0xc9df924a51af344ca71461d2bd3743dfc6958490caa68743e06e7348528fc4e5),
(0xf72ee5a81696194fed3d4603f2c9312eb31c54fb438b1fd22788ea6aa3aa8365, 0xe2963d82b6ca0f4b8ffc1078cd45a72d0e66f4cc7856707404fc1721e50fde8a),
(0x108aeb715bc7052542f5d6dddfd348f366a10f4dd99f9298c35a8397e6b9fb53, 0x8388b33975a58e04a0f6df472372898697b8d970ac6bd45b49b9cf1c3209f1ce),
(0xdc3daeed87345ebf824a5ff5c7f46268fe54c901493e2e86e2667fb6ff61d5b0, 0xb5a7e641238e0467196c1683bab47f66cf001079932a5d56da20f89dd93411e5),
(0x3f96a83c2be16120e81e1d26e3853ef3a82c5f32f8d6bef938179c064265c589, 0xeb8d370e797cf20fd5a0d7349fbd027d630ba1fabafffa0f2ea371316b5c64b3),
(0x27caf86ce1f423e31cca22780244fbe3b358357faf1b78661de13b96eff5c4f3, 0xe8f77718647acfb4633ddbc23dbdca0f2187e24a2f2d45a139bfa1b8a2b30f61),
(0x6681cfb9e24187861887f964848196452d301a1c7c08236167a24c620f74d04f, 0x9c89eb3a7849e9442f5f521cc08d11eff1ce486998d4d7608dcb4a37b815151d),
(0x6711b84948664639672747092fbbafa2fcac45dc1795e80e67fb0e65beba8da5, 0xca12c83f1c8f5ed9222d8cecbbcaa51d6b986a5f60d2c118b812b259294cfcc6),
(0x5ee9cfd0b1102cdba0fd22b0569875c5fdd73467227690118b7843e2b71dd94d, 0x1dd7a4e5bd7f9ee4e17c518f19b60332060d22948b5f463aed9021de087d7d86),
(0x586dad7b13390be6f3d95a466d0224ded7538f1d2d2d9785e38a3f2aedf4924c, 0xc777eda5a68a35821735bd337119e58cbc2fb101c995f9867bed9786cc2b64d0),
(0x05a752d20fa012c71924b6e690ddc7e8867f6ee0ad8eed9184f7250d665091ec, 0x57f2232b32b36429f15029fc5789042fec1ace975f2cad27d53ae81947b95db6),
(0xf93cbeff22bc577ea9cfef22378eb142426372e07be72e60002a8064a53e638e, 0xabc772bb401bdb4294b166702279e4f3eeadb75d57190a5996f3423783afe50f),
(0x8c272c9e961309722efc34c36a6e63ac76052cfb856eb8cc3dd014e90d2608a9, 0x9987d16813c571623ba7d22618b54003731e37163495edfde85e927e6e4607b3),
(0xbf78a0d61519542ba54226c4d386ddc038dfd84c9f9555e23e187c114d769bc5, 0x6094e1e4d84ec081e6014b59d42959efe160587d315bcfe55d26ec98b1910280),
(0x5b264b76cd092a1bffbab651f42485fd497aaa5ae311eb28ee1fdb9932e65caa, 0x944f93594b68d7c36610fdc885695b061dd84722d5d88c84c8c188e069d70d78),
(0xa2473cea8075a0d133bc14598d147705322f71510274e7974b7e042ac082b559, 0x64de830db6557b06d9b09d794f6c905b5168d32a708484b5d2c68a89a2575a18),
(0x3e18d5e63dd0c5144341535da7087bd5f14b07080a2923506528a803609efa45, 0x6e9c71b97d007382f82fd041be53470c26dc2f1626a9f0a6e1d9ff6754288c5b),
(0xd1acdbcdb91e6315bce96eb09c2290866a7674414285984b71af61568294dfa5, 0x5e3b0cd89872375c3f80720173e29d3caccb67e966b994522c9e9f88613da5a4),
(0x3aa999e29344e0f2b5ecc880a35ecf7525ddb028c40f64e1a210aeb7d850c90d, 0xcd2ce25cfbe3a1bedd2e6fcbe9e9a881028c454ec7ca19515673aabfa543d42b),
(0x98a2361d7c3815cbecd0aa4c8a3a6ca33e1b31e25a4b6398146d670961a5017d, 0x1f33df7803040c13be8213958d78e039516df25d4d9d0de6d397128a2c09f2bc)]

/-- secp256k1_pre_g_128[960..1023], /repo/src/precomputed_ecmult.c:9216-9279 -/
def h01_7 : List (Nat × Nat) := [
(0x528b9d8c907ab8706d7a556284cb69cbff348247be1b7cc461351674053d98d0, 0xf91eb836d66657787c6d67bb800a114129700d53194c5051aba7ead3ddeafabd),
(0xf1adec8d3d1b0d208bda6a866b8cf730f4be50e62c8d993a3556c1ce625029b6, 0x478324aac3bf618225bfb61b32d4795657e4a754e08a978f964741d41bcc7224),
(0xab2ef133b1b115ac41870cf8d75d4aa00e0181ca742a8f10f74d50a73924a099, 0xa2c47b74c584eeab57949ef538c0af692f2baace70a730a575629ab0566a91ea),
(0x9d4eb41af6da6f83b1d20e2bf9370868539a617d111b8c72348c9b27e0576f85, 0xc1c7b00db786c84fa8adfe904353305f73acc3c71c2580d7cc5d6b33c5f30eea),
(0x30edd57f7b1b2c81c886dff05d9e9062a553638f9e4311d018a422293fb916d9, 0x6bc4774b16d257a181e20b485acfce30f7449e64aa288502d44e7c4a44842ee7),
(0x28e3eb9d09a2b85565c58fc6a492014cf10969a71e81066a41d1c57431306583, 0xfc653b878073406700e5245c8c150ae359ad3c15df4a8e7ddc93c8fcdfbb6c2c),
(0xcb984735e3c842d0a2fbe578ff3e82635a3a8bb6749d8e08c91571a69aac75a3, 0xe935a0cc7181c3f53013f977ad714af44c3e257be9936268b481429b7bea8367),
(0x361866727e8307eaeea83b106850dfcd5e4d665b20aa37a3ed0051aba40fe170, 0xec626ed32ae6dc01f5d4c710ce2cb349ab27cbf2da5d924be32ef8d100707a6d),
(0xb1a40d5e69e9f365c2accd54dc8267bf4260abb23b50313602183b174c6b7d2e, 0x76619dab2a7b41f52401ff894ef632eb31eddea80bae27c3af04730a3dc186ec),
(0xabd488b3dff60a23e83f0ccb22620064b32a8f35d4c22be242eb142715660825, 0x6eff80f217dae3af96c7a463d1848babfa99490491a1105be1bf7f23840b3a89),
(0xac0cfb04d91ceb482f497974321bdb102a57211573fe4598c92510ca4dd6aa22, 0x6b5f6d874a90d0a90658ae4a64474d9a3950314a4662ade81c5e5605274582d5),
(0x1fa8be0f476c4b67697c75410dd1d8bea3a0bff3552948e6087baf11afc34432, 0xc6b250848038461e32961d20181c7187fe79df6b8f5c5e5496ddb5ab80788d33),
(0x281b43c0d3738989a817d313755c5f0ff336a4d57e8d0ec9b29fb425c1f90e56, 0x26b5070eba1059c9b73e3db31227a6a7686830447f823689921a9bbcbc9f4a9c),
(0xd64e69e954e81ec47446327f55e5a82d3b83eb462a92af120f0b2694c88f4052, 0xaa7ed55f284c3ca29be75565f66ea54a27a8f00dafaff0d58f3947973dc8622a),
(0xf4cdbaeed4b01db1f0b5b0c9d6178235483fb58c5421ba5417bbcd4fe4e7b028, 0x66d590eb29d69904deb9f48c5a250089b2b924478ea913021ddbab1906c63b47),
(0x8ff94c4a6c46e3340feca809079d21a0761fc1cd1de76f4c7243ff0a93c9dca5, 0x123ddc335f3c68e329f42d4f187fdcc577207134a8bb777c2ab08daef149abf7),
(0x0c7869b46e34186b7e87c0e623b64fb0efed70c4f2af5e705c33ecd127cf267a, 0x66295439366208982f17d95d7da2bbd7029aefa469005a59629720a75c11f48a),
(0xe0ea76c60ad5dc87bd26ba9e25b5041b09836f726eec0142351b243106cce1a4, 0x8bd724e6632049ab88aa620a78922b656a3a4417c8af7dbc5a03d4b8d4eff928),
(0x2fa63ac73e5f898236419f1f4883f52ce8e357d24b4aa7bfc6aa7eb129e30159, 0x57e1601cd6323fa8f5a5b3146b5e5c447251db2806f79d517d0b038eb8d8c3fd),
(0x74ed4038d4c5093022e783fc1bb7a67149d00877b202012f6aa6d32dc73026a1, 0x5b74f70e65d009e88cc618e49f7bfda658234f8038e9835e80e6fd426b28476f),
(0x71d6aca6e38713dc6ded1f934fdf20fa16ce75dcdc405148eaefd2d8f0025f97, 0xb43145337d48dfc8278c6c4fb19f69d2072ffd4da22dabae0dd3e60a7067e302),
(0x28fb47f16e91bc9f9a2d5720f40297aeee617ec6897044ac8a174acc5bed5292, 0xd04b6961d72472be4fcdb6059943c1b4ef8e7aed2ba7859e0bdb84a4f8b498f7),
(0x68fcd5f5c8655b5f5d2fca7959a7b32f828c5a5de262f6f894270ee21f47a37a, 0x5748065033627166c372bc4e7a7102757aa1ad4e5460dfb6d3d27f32778d74ab),
(0xc7617ad2f423abc47ed7f8a8a7a6002d17c9744d1ac6be974911068595aa36da, 0xd9904b67fba96cadcbe7a9db833c614a69e330fca06ca2e8d597f657b7121d9d),
(0xa7ef4e9d2396fe16c0e78b955259a9d1474fdc218b24e8c8df566192a6487cdd, 0xd678260491c6be0498c3f7e686f22f3723c1e4dd4f7655c1f40509ef5af67f28),
(0xf3be78467ff036764ace420f4091bb2e71856d1809e24890eab6b436771e2578, 0xf302765745cbf3e567a6966f6b27ffc10dc58f3a6811f309434662bb0636dbc5),
(0x5c947f955bd9ce2905214c303ebf4f356c8d9e2a4e17347094d3f75536f0259c, 0xb6b7b7753e7552a3d2dfdf498578a24d90a81d8d68ef39c468fb5ca7b75e76cc),
(0x236fd960c3b1735e279b87028c25a0742c54c189d1040c134e4cf40bbd8b2c68, 0x9ab59bf7c0bac18dd0d9360eb79a76cdb44bacbeb425d181873ac39059bbc279),
(0xc92c9f2617cce2f7659d02438b9d8932c1a9e9ffca8b0d99cd7613b3b1947b31, 0xabdea94c1a5e64eb65e7076951ace2b2e4804ddf1539d50b725fe09b52357a51),
(0x986087c9142c608c33783a124d22c316733c2ae80bc1fbd28bd1a1426da94fc0, 0x14925bf5fd76b51d6be82c6504562cdf8f5baddceb26c68d3fa6113fab42a1cd),
(0x465a1f74f4f6baad7c644e21f35650b622424e9383b421bf91478621a48a1d43, 0x26da71e4179430bdee6698d57db01553d41c147b832471579f2fe923c788cb48),
(0xdd7658cdf28117c44ff3c88bd0b46adbc7aa2ed91590ca00785cee6f5c9796b4, 0x32317c0d1e10e9970a74935a8e45d27f9a9b8ac0f77dcf37c1c7b340cfcc43be),
(0x55bd2abfa803c49eb4548b17725f52fc6222af8bdd9aed09715ceb8757c72033, 0x34ad33b39d7344b3abfc603b8dcf2a5496b991b841564e3553adfc853d3ebf43),
(0x77be5c06d10c226c8c9616d3015b1e1c440068764189fc36db0c88a5ec12fcde, 0xccf2cbca5c47494988f27ae1b0361b9c20e8b55ed965f7f6ec8fd9e0429ba01b),
(0xfab724863eb6f261f0460b19bea7dbdd80b890eed4bb561830db6af2f52ab21c, 0x0914f03a408a2e2eaa9174ed99d80e68b67f6afafa9da5c15d22f74c8876d0b0),
(0x232a2039fafe8b8650a671f8de78314a510db65d5cf105a109db80822a0b2f66, 0x14ca7082510bc1e3533b9f6ee216ec133be3a6e264d2e218d95f3ec2ad78576a),
(0xb3482839612a4ff7a058475268f13e69deee9fa2894a8cfc64e390541b7f58e7, 0x722d02eddf30025b0eb4e9faf7c58de1653b822466b1193a3f2fb71d5d26ae44),
(0xd3873a570b0a7587cab10871a9322712cf6fd84a226dd7b2858239965a353210, 0x3b7e498459c7e706cdff95b1c55e3351f1f45d0cc9fc11d660e5e27f5160f186),
(0x8828788ceeebb2b771d289a7147c0a7a26a049c326dcb281cc9b2dba162c20ad, 0xe428a19587425f223d798922b4971c265da2fa2dde4a364cc8c65f48c07b71a7),
(0x79fee53126d0c00d74986c18993fa17452f8dbb4ea75680a37f0b3f4ea7e537d, 0xfde500713143f994b4d7b4a143ab3abd525cebbe93d5b5a4560017a8802cb5b6),
(0xf44f39f05a9f5f795f0f3a8ce03ab50b3672429cbf699cbaac1e58a866814e91, 0xb95e45d1e4de1300950a27afbab28bbaff75a24646ac70e3fc09da30d59a1dd4),
(0x1138e209baf9c9b7b89d7d78832cf7beda45afbf3c2fa14850426ec280aa9abb, 0x15c28d6a3965b2af0ea285207e67f2ebac7d591709672f883727e499f06a0d6e),
(0x29d3e9421b98d78c60e4685aaa503130dcd3d3f15afc2620472b83f934912c1e, 0x90a514f849680969215d46b6db7c53b9411c8c67c88bace1a6d45ca7d2bf5825),
(0xa8a36a945fdd33e04f0c18d7cd2d4709d6efeb88a53fa0c7e90969c084ff3eb8, 0x1dd7f905edbfcd70026aedbe1cee1cae23db1fcd479f02a9bb596af5f56ab564),
(0x5a048eceb3fa944f90eab4f0c3e7a06c3c35f2ca81263fd53670c2126a981eff, 0x124f1baeb70fed65d53caf7b5e88077c8e330d05692199b24b3d6d4bb7c886ff),
(0x320702820c5ebc2f665ee579c645fac4fd1eb4ecd72971583dc81288e932b8ba, 0x8f69662d0d68407edafb11ee08842707c17eda9a803cbd55b86dadf285bdaa17),
(0x7c22865bfb04d3f1bb988a7b080a49fec781059327a19786db77a47e57afe787, 0xa02eb26e30f599d7d5599734439f19cbd0830b7260e70d53097f06e1d036bd3b),
(0xa0ba4c1330ad8252c06c8269a3dcc365fd842e5a0aaf33a422de13cb0b9385cc, 0x58ecab135cfdbbf7f3b6d2ce277b9e84940fdb1447568960c13290e5fe239bc8),
(0x42ae6042c8a2ba5dc8fe47a412e2c0cf007be44870e678194e31ec2344f76309, 0x72ad69ac7ba38bf22210a6e753c6446736ea3a23cbc96c3ce19f209bdea1542e),
(0x8f3ae8b645507a2e3ea5d82f47020739d8f35f0c8fc11e7c6e802d5b087b2a19, 0x61bb8e353028ed541b83420efb9b147360425927d3f9b6a50d1d2b80ee5b4cfe),
(0x3a84ba4b1e151920a0e4fb4f30953e6ca7ba1e1262ae44c00d91b437b05df32f, 0xb20f657943525f147b23abe9c90e1d0f32c44eebcddc6ce7d3cbad9e7d3e20c0),
(0x6481fe6c0b04a5033ecc102bde462e7d7b87d1812bc145b62d25fd88e7316210, 0xbcc1b4abf5f32ad09176538b808c9187d4e88b0eaef31075b26e5c278f64560d),
(0x05340174722c583faf9cd3651f73b33f8e4bd1cacac0af4d1ff13064d551a094, 0xe4902135448a616d0e435180f85d0a95d9e4655baebf8a41a3bbe22101a66a8e),
(0xc0693eaea5825c4d6c24e08bd57bc32d6c9ee2a790dcb49bb350f8524e2867cc, 0xda20fb4b7627411e05c6c601bcb8fb55f4f6178aefe0ca0462c85d8633b9a05e),
(0xc51d0f7372fd0502d17f9200ca189821e63e581a8356735ca91b6e933cfa0d9d, 0x8d10e6b207ed7edd2cfff13454eb979ba2797a7d3c6fb413b3bad4c22e352655),
(0x168118564d2d99ae2daf79f858b52ad33666008ed9d2c59dbe3160dfbec3290c, 0x2bebf1a145617848e81dbac34522cd0b3e9cc84a3c08602d1adf77ba292e7460),
(0x7ae94933e1438525b2ce16225654aa6f0b15999a57835a0920a497487c0afeb5, 0x91912e37830a645a138282a51e3331bda13b87b6f443f90195a2f4f5bd9b95f5),
(0xe7792d97d02b76ab2414c5f6c2d1bf0ac27709b055b2c36b179599a13019d4ac, 0x9f4d96895fceb179b98c75a0d5d56cc1dd274614a2816e8d16fb98e0ed3f2b52),
(0x02ffb9d4946fd63f24cff64f4ac794503d97d706eea6c4f769d9e34d3247bde1, 0x066b1c74348815312bd6907a6e3608eacff188325576fa9ff32257b7eb81014f),
(0x4544ba32f90ceeb11412aafab4ae7351aeb6f4ba12e00ea3c165c8b1ecbb2fbe, 0x62fbd7b4c2a5cee8bfb9ede9b02dbbfc2bba538b834797b3948887cb9f8f6736),
(0x250b01b925d9ffa275eb156dd8c67b5e5d981ce78824d37a1b09e3e67918980f, 0xba1d924a32f0da86e532bcbe6766259feb1851614042c0ff261eb81d3e09c481),
(0x9cf30e541f2a5fdc7304680732e962ee62e0b813901e30f5ecbe1fee0abeb4d2, 0x7cb246cd1281b77b19601d14baa8ff62848259eb6567c741c6bd54a3b5510723),
(0xedc9e8b13c61a1e08f93be12495084edb5a90eca4f11dc03cd217b1a56285a2c, 0x66c2fd2107e8fac74fd43b1b58c80661b0e8df85a2fddfda5e9f99fe621e1f3d),
(0xdd94295f8388a4982aaa4164927b81bacae9d002b3ddb6b697082c70f1e2c66e, 0x838c060cd409c1ea9bcd9e8cb1fac83f3b08c2b2482d8f4bfd3ebc1808d6706b)]

/-- secp256k1_pre_g_128[512..1023] in pieces of 64 entries -/
def h01 : List (List (Nat × Nat)) := [h01_0, h01_1, h01_2, h01_3, h01_4, h01_5, h01_6, h01_7]

end Secp.Model.PreG
