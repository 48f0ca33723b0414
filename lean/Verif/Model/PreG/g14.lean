/-!
Generated from /repo/src/precomputed_ecmult.c:7210-7721: entries 7168 to 7679 of
`secp256k1_pre_g`, as pairs (x, y).
-/

namespace Secp.Model.PreG

/-- secp256k1_pre_g[7168..7231], /repo/src/precomputed_ecmult.c:7210-7273 -/
def g14_0 : List (Nat × Nat) := [
(0x917335460dedbbc4c7c32af7760e0a4bc2bdf82a73e2a91c2d70afb1100b84ab, 0xe60a6ca6f2a5b12a307cab418793b7c8b7ecbaf518166c61acee16ea83071a3e),
(0x26bcacdbbd4cabe3e7adc5b927465ac9616725b7dce240e637117a5d080a9ffb, 0x172208e76603837e4a9cfeea22bc60020a5cb8f136d73dd7ce30d010acc05db5),
(0x18b520f3e997b5d5046a1d81ad95c52e7841f14e11e9d677de918fae7bd408d6, 0x51b0cc1d4c6ec5bae6c587d0d6489663dcf74bbcd93c48396e4203a9caae57e8),
(0xe25c2492b7b25c37cb88da91cd76021fde8511cd27188b0fd4bb4fe3dd845e8a, 0x244facfca7dfe65d6e1d1d849bec4e4d17af0d6d2611333db8b7498f96c88bd6),
(0x97e572bd300d9649b9de3c8ab02d4ce3bfbe4ba268844329859719515c34a535, 0x324a34a939004c24b2e55e668357725906c9cb2f84378bd7e77806eb75e77070),
(0x4d31f4b942526f1e769bcf7085f3952360475a0c3f8d0a4bc1fd6a07a4765fda, 0x27815d6f3b0839658fcbb540925986d2bc6d1fedd1c254e29580f41399afa899),
(0x7344c52123968b7f7ee12500e9efa4c3859a72fbcb1cc9d7af91e6b3b5bbe152, 0x4794848b1541a965b7527533a6d43398d619df3402608021a26bf9a876e0e4f7),
(0x1d0991818da474dc38e08fc6d97ac823be34f4a981adee58806f68cc0ffe1ce9, 0x0f5449d7c69816bb6f04b32e69e46771c7910f3d77cee6e2af75c293119f729d),
(0x84607e2fab2056374b70848651e849669c386eb7c6855a1a837c8fb85da8e7c3, 0x975b522726e4625dcc5c55ee22dc667f1fff7c4e417cb4b145bcb3a453180ac3),
(0x3d2ad8dc11a9103b2f03b3b624d9311483f4faeec4b9bc22f4f8f55916bae70c, 0xb4f79cd727d433f372735afd64ef4da7de9ac35f98b3b6fe5de956a5ba93f9c0),
(0x2ad5f6adc7fe85408b9bf547a564727f374e9194460f6037ee299f83e842c883, 0xf613f0b08e306fa9fbf39919e3040d16ede4dc6f9d45ce42e63f4b02070832f9),
(0xca92aa9be8893819e49fc29cdc98a42fe23084d1fcc37d193e9c638cdb0f2f93, 0x462a5ee32bcdca5ec6bf681932ded51112ca847f7e110405a893b011874a66a2),
(0x4e435dd7ce2783f15bbded750e832665e4b4cb00b50e2a69d986d2b6d3d893af, 0xcddec0e71615f7f50769cf2dee6497231218fd3491a07fa10fe619f226673042),
(0xb1d936c3fa1fea01e3e2833251f3790e1e0f0038058656e80af53a72118cbd6b, 0x183b67ca8039f372d04b685ec515466e8ca1fdc37b2ae8c1ebc5fb029c0ced9a),
(0x77282290d994b6db10b062471b86caabe452485022a1e63a682f92a1ae65019c, 0x0feff37f1fee0cb5569db439a76973271a2e4254a9125ce6cd94fbae110f6363),
(0xacd0184f18bb7c72f7b6ac5a7ba3f617c40e159ba3dea242ed8e6c23ad89dc82, 0x3ab71793fdf23305aaebfb52982a2603e56d7b3a5430585b557d340642fddfba),
(0x933e340191e41c3769b60410fc0ac56ae5bb44a2413921b3d25a52a714015cf4, 0xad3aa53c76c106db6187f4ab755d077dc6d878c76418156577bd5d3baffad12d),
(0x6e02abec969eb027bcea03036648fe60da6a7c67d1e4df3fa34c122536de6fa1, 0xc0283bd09fb2bc2b19bf5086f1eb5c6aa7dfa25864c736478a6cf0cfc5ed5c14),
(0x2b86559e82e5ea58423163f4448327f42429f1e314097621667cf1d4f0af1ab3, 0x35bcfa559e2a71aa4ea25edff9e1c59e2274ade59354e22a9cff37e931258107),
(0x1c02f45e5787587b9d68df0466df67c9552301d13b32f50b8c9a2d5b0c826606, 0x5f5de968b39e9263c1624aa8811a43910035150ef8167698c381388b18a232f7),
(0xd0a653747fdd0c5a68c55060dd4ed734349567301997d07ed333b5a879894eed, 0x272fe0bebb192ec89f2f64fb0043f3a3cceff7d2cf92cbf44ddd8fd7b104b85f),
(0xbb48b81ee0dffe050b6b8d0505e1d2e537481eb82ce2bb81cfdfbcefbca5c6de, 0x717b99e963d59e1d66c0737b9843231c9c5e1bfb2682021578e8e01f9e5a3fa8),
(0x23901c4c625d77bb1d3908916befda04522c698d3c4e82c5227c39753d7bc3fc, 0x2434bb8d98ebf9bc42459328464c4a7b0b26f2582d454209af66edb7e84effbf),
(0x2a150d7a961b5c28434cf4deab9bdd3cd019f66767437158c0f3fc3854de70ab, 0x0e0d47569cec0effb155d7e737ee49d9863374b204c6f4ac876a80f37fdf7461),
(0xd42bd53b1de9e41d6e5ada813b86370fec1cfe1ecc8ace39edeccdf4e16e7111, 0xe3d4de0e0e5cb0d3e3dcfed500a09dcc28c9f1ec969d70ccffbd34fdd0ceca5c),
(0x2a865f60413764f0d50adde64825eed1134c6875d1712396938cd8ff784b743d, 0x4b628cf48e2a56b02142bf678829a3880929a0c05784426ced114f21ca1dfade),
(0x2189b2e2e88054d9c71c23218cd229f8a0165a15650d15573eccc450671817fe, 0x6b9e0fbcf9b9c354644dd8df3ec1421766fb67835c698a1fd598d074aae79d19),
(0xe619a8d8d63ce9ec7f11cde41cfd33e962884fd7471a4e679b9fd1c68537fefd, 0xd819f3645438c8860915f46b40fb5c6d6932077d6f9726d886b9ddc4d5a552a0),
(0x80c0df21091bd2fa2fa21bc7ea86e54bee25d9ad438938691cee20a9b5792763, 0xb27d7eed198a695b0405cc3a9204242e045833ab3b9feaeaf81db33f938dde53),
(0xcb3926e1eaee7f446f2eb39064d4ced3cf8bfda79c54a25f6894be1561c2d02e, 0x35d9e0986612e1c6fbc2dcf354022f345b2220de139d1ca705dbaabe46c69160),
(0x82e822215dae0056917680baa3233d2923a2a0d068939d9d2e2fe0139aa2a8b8, 0xf28975c9b27352f3f6a2972eef33eaf85d0d0a4c673e3495afb71869e768bcfe),
(0x6b48f2d2d756c7f1077d5d33cf62e419b32fe0e7352e84d4d3056571fd837e52, 0xd47417173212dad1b476b8fb7ace774dfdd545fd6f99ba1eb701018df762ad14),
(0x6cc8e1cfca1a026dc1db0d9746029b6e0b9895d761f665494f29cafc01243b56, 0x429b0dfbca05d077d4d87022d5ab333fd90681705e246fbb6861bd077e85b500),
(0xfe3de5513fc157b6e5bfbe45d88f933971ff5ad3c436ca5f21794899033f01e9, 0xa50a9cfd8aee1546c422c5e1494dd42adb36bf4389bac50138211c21803be0db),
(0x25140d46a9453d6c9370c9016cb163a5a5faf37150152526b01c745456b995de, 0x6e00dcdd82ee197a3d5ca02886fd7fee56319f7a925a39b3becba6b4c806cc11),
(0x4b9c4d2fbbd879a7de69e578a2ffc7c808a0c700f27f2e7d0cb8e0c2ba3654f2, 0x4c876a6d7778cd81bb02c4505867d448c78e9884c72af03755a66d7b848e248e),
(0x2c11d3053eb4b59d8e8319bc2b62624db97244a447326f246b83e9595797c2f8, 0x41e096b6a1d2082bc852782c74a02cea055dc09c064b9d191265c1ed9c306340),
(0x9a515c26394d56b877c2b70eba1745df9322810e63c379ac1c2320bc48baa2f7, 0x5ccafbd5d1dc3d864a7ac805adab05bb5eb27f8fdfabfb1f708b2e8d42e097e6),
(0x791a6bbc91321ca36e0177981a611cc0db9d260034d2c26f5f6fa5c2ef7a5fcb, 0x4cc5b203db4459a1f396cb31acbaf9ca18446f1ccfded245a3b3210038417ba4),
(0xad40b691d3eb6ee0e22e6d7e1e0eafff7afffe6f2e0e3b75103001f23a9653ec, 0x0ff7b43647c2e09e84f909102b2abe7c2d38dc2b0151abd24f92d2145607cdb0),
(0x52eeb361405a56a1331e3fa4b854156e7c403961240f6003135df1fa8f3e475d, 0x128e88f91f089e6061d3df85fcb2c50ab0e67ec3a7e5b3c7ef1f53a45d5336c3),
(0xfe1a5ff5162731b907b4423dad1b51695401920a6b1a07c306ae9a25ec3fbd18, 0x22076aafee720a1d96e0987ac7bb8756b04a6b25ddf5823ee2f93ac9e54c85f9),
(0x4c64f48cfa628f72b2897c284411684fc079575360b8633a188a89ebe7fe1ea0, 0x2eeabfd71b976ac2acff49fbbd029ef1a42344c5489334fd393cc4a9c305b4d2),
(0x44cbb9b17ec26b5e3489c17d1da0776d539d2efed9317987b86225e877b4eef4, 0x0f5c58a86ef02531bcffcd80ce788f5ce43f5ad037e940bc70d8411d27c32673),
(0x2a5a456a99eeea58761c88027a86a31063cdc681b4ba0e2de5bce690db8f3e84, 0x7c3a47dece53833049e998b34415c46a2ac5c6331a074e8a8b4cdcc2c6d1770e),
(0x566c0ddfebb82debbc867f76e2fc5ce471249a9d1b6592372bfbf9ed4eb6bf04, 0x76989cd0e0ffe1fba5992e7150272abe8a483f5c6bff023f3e5e12653598bc80),
(0x6fe422886d5d82324b229084b1b2924cb6c450803aa095baaeb2dd147b6def9f, 0xb3b394b3fc2682be6e8c1e5aef2c87ceeebe8d9831aa60d9ead748960d7d9a38),
(0x35b45332b65703f04feeaccc039e04e172e58555db94f04b1899d8359abf996b, 0x6643809eae8976805e37891d3a24109427ad6dc548429a0764e2e12fe89c2d29),
(0x172880555c0c5643bd740b89bbe4794958ddb0e0786cbc8084d64ff7838930da, 0xf60cda8807f85da23fa719f129aab43b8b9a157853f918363fee5bd4fcd16a2d),
(0x76eb57a6c2d7bb45d6faee144ba7c7982d8ab2f005240862aaf32c2277dbc985, 0xef7cd7e4d10ab9ce4551c6ad18a3ac6abc85176818fe0805f1c6107a5c8c291e),
(0x1e5b38b581ad0859454370f52f6367265987e7b3981af60fa987c4c02440040b, 0xd9817e9989af200bda690446df5d868192808bee91ba077b400e8de2712c2ade),
(0xee17e98e12a9efb7c27aee7815da31e2af0d329440e7dbe19783caa02bef5709, 0xa78346df4d7dded69146931bf1ce1b6f01aae29550a877ad5f2dd0e6adb43e42),
(0xbd5746521eec6a767c2a14fb15c85590f7a19e12342d09ec67dd98e17739a81e, 0xf26894f20b8eca34493bf871dd6a133fefbf1ab7687a15fc336d885c6f5698a9),
(0x63852cb9391a1ee0239477180b27c51a8f9a5d0f02f707f2d0afd7286596aaed, 0x9d7c8c01102abe2843a7cff5a1b15fa8b56f50ed1a0349632e867007e946d639),
(0x6c3fb2c2d49c1c2904eff674158a3971f65010ce93f53614ac9e0497e31c296a, 0xffccd06b98cb8021589e833c9c8b3b38678505457e8dcf2e775bbc7147243707),
(0x03c29a60103f7f0d6f9a186e48ac242e46a525e2380c44300609f26d6c3559bd, 0x9381e8a87b4bdf9b361acf28cbe43e1f0a8fb073ae2d1d096df7813fbbdcfe22),
(0xbb76e94f6f9ceffc53ee4b3be27d99f2d02eac6908a4865f09cb0293a68c5eff, 0x9ae4850733f5984f21726a37c6ed7a790e832af683afa20cee5d117f63ab7472),
(0x422fcd5ed2774d456d5f6312c716582bc142fcd1342b71a3d729643ad022b492, 0xb6d75412aa9d6ff89be3a0b01738476435ad44080b544b53acb5ba63119b6bc1),
(0x328db4a79fff0037c79aedebe8895e3775b1e6b04d0a7a32e2fcabe329c60dcb, 0x40a2fab2622ca3f639711923812d86879d92b15eceaf5855a970cf32854b8970),
(0x4269bd58abcd5e92c62b08951c5ae948efa1c96f39ad36015e28d80974da818f, 0x1d1412ac57ae762ac3918ee533577c29a8e63afdc33b69d5e67584166ff87b65),
(0x6c08ab4097320e510f3c571d3beb7d7ecfb690b7af3d449b50bfd276290b8830, 0xaba73078edbed0822164c8505ca4bc586e53b17483675f9a26734cb0747320b8),
(0xf4929f5d99d0a5a73d20a223c84261c46a085af9fae2fa8c4a02548930174c22, 0xafc89b107a38c32ca24e947ad8efd761cad69f7fce0d595dd4cfa849201f6178),
(0x5cf5baf8726c125be1499cb503f33bc037c983e3b03f37af6b48f3c629827611, 0x17bd2e3c0d12adb05502a9a3aa418cb8c380986856d00c5f0319c34e66074a65),
(0xc4639023b41d90eb2b275a2db7ab632a592535ffb439491cf0e4e6928188904f, 0x738e1a935ace46a8fb4f6ee0b90263140d8c243a8fe08f37b23b9c1111763de2)]

/-- secp256k1_pre_g[7232..7295], /repo/src/precomputed_ecmult.c:7274-7337 -/
def g14_1 : List (Nat × Nat) := [
(0xa21b2fc02a60cae4e694f2061bd083be5ed681e653af9271a8ef99835807ce92, 0x7f80d5e55a684392939d6d1d537919c499e799e34bdbb27cb3d79587f08d5194),
(0x7841ddd580f9f3a6e702b0f93e1a41585e2c10c8fcf98add2a0f6286c5d285b9, 0x4dabb8e62aef6506392b0fa94e2005a5ad03c4fa5fb6de652e89b31f6e5ed166),
(0x5d5fccd1378e498308d8b05d41f8966001b3a7c058df493e2a74b55fd8210356, 0xa7e7b0adfba08a376fa3cbe275dcfbfabd0629ece8a5830dd6993ec515ccf447),
(0x7fbd50a7360c09fffe55369bfbf6be2f70cc5965340e048977e01b682ab6c9ea, 0x17ff93bf4fc9532526caac5489e22f4b265f63c2cf46ff6ea5b1d387098a9b72),
(0xd6c8bc1a479ea533e99afda595365a32cb1f3a2672b4b9602e0394945b379061, 0x0cbfadb4a6039cad67ded1e88513dbf4bb1dd3e3437c989a1df98b31d234975f),
(0x5753de48683d633c11103cc5b1bb04e15a935e99297c73f2fe851d915d5ea18a, 0x10ef5d7eca1580b7031ed4fc3cd606b9e6af8b1edea8bcc9b91d522aaf361376),
(0xfc0d0265b6cfdd0f6b755a8ac87f0ad5b5a198945348c719e9593566091a638f, 0xc5f314833c166c188c62415ce58297fe157fc6e4b8e36b16ce28cc75df9017a6),
(0x61570f725b030b63def84933d0d25039cabc8853e5185302d3f2d3ed2611eea3, 0xb3edb685379c00689e9f522ba5ad91639df723b6b5c3eb963b05e5e0a4b8fa15),
(0x5fa72a5436b2b7eb0c15b34afefbb908acbada632380915966785d12fbb3d6e1, 0x1c027ed3a34e892d4b3d56fa7a93ac180663e4750a16a3d2fac0ec90be6d9ce6),
(0x5296b2b39f179516d3cb85bd5b86a9fb274da608be6e95b6c44267af187e2371, 0x0728aa26e58697759c39255834d0099273eb69865db38b3edf87f39431c75dbb),
(0xb145c8b44c3f3c77658899f0a5b97c4bdc2b195caa56b328e053521788c80298, 0xc73d96b647c2e764e36caa268ebfe40e0c07b1e0947e392fbe2a90957dba2595),
(0xbb5855313cd05f8f7fc96d8b6e5194fd2a70ff55e7a7c067cfbf54bd129d87c1, 0x31ed03678d24c2318c4295a790d31094e54ca68e47b289c845b2f63864812607),
(0xc6ebab34ab48c0aa0aa5243fc82a90e19a2012ad74c925f2e4e22f6b013d6e5e, 0x8107a95f28e11f9bbcef4b220c4228c0b530cdac1c97764053828b8a015fc065),
(0x92e6ec9f83dd27e63be3b0bc8ebc521ed84219bc177f15cf1bc840d5be2b551b, 0x931aabb15b3479bf994f7eeb34871b0481efa404c40e063e59aabb772553ac79),
(0x280280ef424f01ec3fff321a61dde1c34e674a567142c8e6643ad1d7e2dc4d51, 0x84710eb45a88503fb1078d0626522501fc165ebcce3b90a2925ab1be3c9ebfc4),
(0x6326eb72abc4017ec3f55af76a50a4a8d0074ce12f5c9e08146682eae406d047, 0x53dcc3467b61d08a204a70b87658e4b3c4016c8db5f03004af6b545a60223871),
(0x6e59dc29408efda31bcd7b05276b9f8ebd9caffc7f22c207061f9fd0a281ecb8, 0x81c6099945a6a8348f2bc7e84ee002afec5729dcaeed818787060c68c2763887),
(0x100b0cdbed05ba0afcfbedde94ecb25a5cacfb8fbbb80fed1a9d87ab72e4b5d6, 0x1ac270878d6764fcce5f036e0ea50294cf38c4c91ca9c3c287718505491e11b5),
(0x95865771e313a1f8056295857ab9aafc068a124b6ae61f1aa7b6e9f5fb5de6b4, 0x1c5195a4338bfee59910935af5fa60917d06a2ff3908fecb0b3fbe30b0b52b41),
(0x6962774c9035ce5efbb8e7159d381004a1828d6738082e1f45307ea2d1d60eae, 0xe9c36d216a2acbe55f9f9535bea4b38e7b75a1493a281e4e11b19064e282c036),
(0x8e0fb8c0d2d7977a23f19efbaec886a75170cd086a035386ac784b159fec90eb, 0x1218a3d76306cd4ab3debd209bf9238dce00984f47b5fafc0b715e2a655ca9d9),
(0x6e9ea5e1127c4c60a01cd278ac1dc0910e768acd4156620047aaa32ae9cdf5e4, 0xbfad32149a299887c74bcb2033e01704ace7c646eb00dc71fd1e0461af05a6eb),
(0x0060fd559198e1ce86c401a1d31d04a8fec7da214efd01d7f208102701c49206, 0x4f234575cf4e615016ad551c2f8e76353718b62670ed30c4a4c15e9a488e0755),
(0xd413c7fd2c2bd34e2ab3e871384955433b5ceb32cba0e9e51e0ce198cd5ea806, 0xb585f8367ef44ee18e32dd1d95d6f8eb555d8e53451e5d8d1cfca993b23e344d),
(0xe26a95acc0855b56b702cba4abcf2004c7343cf472056bb6161ac077bfecf98b, 0x36a4834e4532fa30eb1caa21c1572c46efe4f7fae3c370b83f1fc221632f8c2f),
(0xf0541a0ad29e3806e2812aabac185a55687e058a0eb17157e00a1cae5a9e3d9a, 0x40e819174473fbbb58d40f1eccb2444eca4a616db0efc7108f887c09dd04b4b6),
(0xdb1112bb394f5e1ab315f5750e2cfb594b83b5996c82365cc2095bdbeb7c3cb9, 0xc53249ca30eb726e6dfdb7924db693daf9740213d87c410cafa3ade951f9f688),
(0x2ad804079fdb7722c96abd1d35e76a7d30948c7d7b1e62a5ab0994fd667103df, 0x5289aade9f71ef7bdce049cd3052f8f9653a9b693876b6077bb42d7709829bbe),
(0x7bcd5085eea0f429238c23bdbc14017af8dde4789d99b2de325503f1fcf7e738, 0x07338f8a7980de0f404764be7fb225780ee820c616044f18ad12d4bb4b35a2a7),
(0x85819e4b348ef2b6d141baaf032972487f34b5948d834249df465fc829a83188, 0x306e8693e7e718e639f48a1f7dd5d9779da12288ef3edc6b74afb1a2906f931d),
(0x8d035a4b5905b0ef7fd9b0500ac1c0062c0a8d841ab342bd9444d10192ed4a79, 0x1ede85efaa83c4664ac1cc71c2d4027f632f7ebe2a097d989278cda635e2e0a0),
(0xbdc84795289c3268628904fd5d8ef1f1a89587f6652aa8835e83c47dc008c282, 0x1d8342d9e330c1237e2320676fec10abb19c0d76744915da9980a9a56459a61b),
(0x75dab97bd9e6571cafbd8ce5ffef58b572b6d8ff838777f921834b611079c079, 0xd048e6d1fe2598db31adfa598a445f0f7f97ea3fdbf8fe920f2aa495ff033bdf),
(0xb2a4a8724a6ccfaa8b8bde8664fef1fdbf9d4edc215f9f71738885a9af19b42a, 0x9bec2c2e76be8104f2dc4ea13e1ec91623baf856a92863cb33b2781c35f9060d),
(0xcaeb3a7735824f9ab24e364c0789fe6604729fe9d6577ab3f9cc857ae1c2bdaa, 0xad96c92ee91cf44e8f0480cd106b115f23f0a30cfd6ab63886ee87cbba5ed885),
(0xa897e41a75e6bfb0078c272dec320e7013afb506478d984ab5532b046da0502f, 0x136cff6d896be55b5da484b615a09e9b1345397379fe415764ac5b5f35aab82c),
(0xa33679a2dc5080d4a77fee115de9eab6d32e6479bd4fa7953e4a03e503242412, 0x1840b7129ae52592d99ee262a56ae59737e2202d2871681c6625de827c57819e),
(0x3183fdb2b5ad14cf9e2ee00ce23b2c42dfbeab54acdbf7860622a83f4db62fd5, 0x7501e0032ba129c850c0f17d2a16b3c8602c52251bac72126d454cd5fc35a92c),
(0xaa6ac02042f80323ca77289c88dc702ee354fe1c0eedc7202b87601d07641b00, 0x3ef01b0f8b3962218c5118e32168a6aaac901e025610db0e8cf2ab21bb06995c),
(0xf952d843386eeef264b1078fd835308d514bc162559c8f3fc8ab5c18378b40c7, 0xfab32d0e850f4bac9a4af6d47d15976f2e6fcf3c958a72fab8db1817cbc5dedd),
(0x75b58bbea5a1d00b40f2fa2f9e2ca8c2eb568bc10fe5559c7e40ab8fa0148e67, 0x7fd6db817359736d26883e35727f4b212813be058d5d24771563696cfeaaf021),
(0x504e232434a12a8f0a96f64ed39a7c0d4168bd751e0b62496b24ab05eff49d46, 0x3bbb93f83d2ee95e2e2821bec3d98f4e1f2def75b5f8ed096947c4a91c933ea7),
(0x0563fe951482826b38f21deb207a30d0212712928b53c790c33080b5c4fc14d5, 0x9b875a5c70ee8bac9e6d72251981c9f6c3b5bb49c877224314c4b287e990bba3),
(0x91ed3211161cf1ee96499e837baa574d1f56b24456fc1589d61f4d40dea01443, 0xf1664cf2578f5ff58d81c281514c7f9556bce3d22150db9c06f4a4df0db73d14),
(0x27526d79f92c25190838e3e0a9ebfd02f66e857bd49cd8ec6deaca31d6064be2, 0x9e4b644c5bf8d50c96892f3d06843c94f9afb35955fb10b86a2f166a6fa17f00),
(0x3ad1833b00df1ab0effb0dd4d535285a900060e00f38555cffd3e7f3392b5c07, 0x5c37afe389bf6e88b88c9a346ab5a0f62128828a22b6f9078f9bc6ffed5c311a),
(0xeeda869c21a8911bcf713c68caf261d1e7fc58b43bdb0fb7e83e677aec3ff6d9, 0xf58e7eb23a62a9ecf7a13dd7b6b6809f5cf8bc2d022af477e002f2c29c44d444),
(0xc7a806e7bfc982b9342fd4fce8f347869509fb0cf0f5452298162dc80ec5a398, 0xba895fb4f90844633eac5226e91a08c9e83281dbc406ab37fa3ffc38421a3647),
(0xc59586d4ecde0cfc3a1f574445cea454aff18703720fb4b51cd7b0dede79c9b3, 0x1eefa71d5e67d9aa15231b20966951e193ebebf7ae54ea34e84b7c987cd853ff),
(0x3b2592875283a78c5aaebc135ba13c5d4e5a1e6ccfa196ed06eb7960e7eed0be, 0x274d37395757e4821ee56c6af56c8acdf58cb3376bb5096d2cff4e33ebb3c1c1),
(0xd062159ce511418fea6e9853b1e8d76996c686ddeef71443e994a3473b90e239, 0x95ca957ab37c702dc707a3e6388532cf26cd3db264e4e9cdfe0aec9e77ab27e3),
(0x12a2bd87c4ca23377915bd123f39e88afd7257e99587d70ca9d8fcd32aa7ce4b, 0x85562f37ac813598cf59e427106fe8860aa1a0781170f14d3968119a9ed65e61),
(0x9214dd982737e4b1585b3363c363ef83b40a322853d6c54af5b1bf1aa21e43a8, 0xdbc49c6d0abe985fd95202b6bb9250948b98bbcf714860659b77c447396e8eb1),
(0x34439200b0dd5b6c4fe8cb572e26de383311a479ee39ea47221a179ffbbc124e, 0xb8c151971ea4149cd2a77b4d14cea3166d70b971a7f9ef3d315ce7412ad43e1c),
(0x396b4410cb5a59ac15fa60347215ac8e04ce34904dd15b4146e90679ca3128d3, 0xad4eef7794f0c541e70fd5be45652364c43e91aa3468352536c8b1eec061cba8),
(0x8ee1b02e3ddb0913dc7812796316fde24489c98a4e4c3cfac84b435034d53d65, 0x009a4686a5241a7acd4295b4f1c9f0943f8991a2b7edeea8bc4e9c4e47956cfb),
(0x78f4da5126b42e211d69c6404e128c71cd08fb67efac01573bf128c673bbf6e2, 0xb3836f1ae397d7fdc88d20896731fe046a46b2e0b617117b161e1e7b3a2958e6),
(0xff5c1378c8a233e05edeed70e23bb9e5a5eb65a84b37c6c47c0a4952e00169b8, 0xa7275aabc73eaa152232811868de268f189d3adbda1135530e3f9d367664a0ea),
(0x18ff6e74087ebb21dc935fdc265616bdd3a4bc2b35037483c911f185596a93c0, 0x34209cf12710b007821ba024f0491e54bade44da5980f505037869b8b410d0dd),
(0x3ece6ecd1c52894d90043c6759d158e7143c9806658e8e655fa5386706609b0b, 0x4b1bbdb77ed6deaffba0d2415f2b799389cf7df07acfb8a7a22f42d77858c622),
(0xa5356c7806cdabe6a1c379a4ca18acb7b41fd691c32c31ac6cd0edcb9fdc5694, 0xab8f37e6d19af26458ec5b1c78f54a4b877c9416ad76b6467e91ca4b24f988f2),
(0xe5dffa5d961253d7f99445b8f8d8aadc5415c550da64a987ee60427812de570c, 0x401ebeb4afacec6ed41006e9c60e0ec7a4840c2bc64527ad80d640e970800186),
(0x12c461334aa32bb8465c1e9fafe68d9163a7a9dfe11940f4593697d5fd0c9140, 0xe4fdfe80be2fa1834c32598ca096a5d815386dc867588354300018ff5b2e0c2c),
(0xbd8d9bdcebfeaaae691a19ecc20cca22af76db4cee54f904ee5aa8cb2010ccd8, 0xcd5fca8704a6cc1779658266158066a2840e61d228bdd4cdf2697e197c6c994d)]

/-- secp256k1_pre_g[7296..7359], /repo/src/precomputed_ecmult.c:7338-7401 -/
def g14_2 : List (Nat × Nat) := [
(0x0597d8cababc10d55402f3a7489872707cd5d3b83356ea136c8c5135cefe3fc8, 0xbb21d384a48ed346eadc6ba02b1e22317b2014bc62d17fa0091962136e12ab88),
(0x3d91a09624fe1048dafae0e80c693226cb89157b980aa490a9a12598e77d7c19, 0x738fee86ab5a6e43753b22ccd6a2873265db5dcd38a6be5a6635e8f0136340e9),
(0x044addcb55d0870a196820750116c8fcd8f49b5c5ef767eaaec513fd8d71841e, 0x5e126cb78d13c0d0055c3363b236bba121cc561840e3cc3ce100722f1cdbdb63),
(0x5bc892974447eb3f54b7b4516da3d1a8f23d6d4254ec7268f3e9b2f478d88467, 0x6d7086556b679453253df54f68541560b5e542ea8f1a4a9da023d8bc6baf9559),
(0x8fe4f040553ba9ef47a0086fa8dbb75a2362af22a58e07397c62d2dd2ed2fc40, 0xb2d0c5615afbbe3a18fcd594a8e91e14ac714af9e34938f174a2c7d42028f65d),
(0x0e36702c2af024614d5f65a6b855848c6d72709bb3ffbb5df08206c09c481a27, 0xc5558c459cc186be0665a54f19ed5f67983bc004c1c196fe80c57310059f1505),
(0x045b0165d5eb9c2f22c6f2e63f2cfaf35d4a71e7460a41a39d3708c3111387d4, 0x8fcc8dcf09eba288f0183ba8345c4b081b44cf73b9df77cf3e94c0891e53cbae),
(0xad02f6e7378d62e887d651a4eaec6d759b15f4f3b7e999e52e9e493f7d765205, 0x25090d492164feca33270e1b3b08ead0fcbc7ee4aca4b4b77e06d8655259a63f),
(0x5684c664de3844ae90bc93ad426bbf695f349b976080193a710b61253d6fcb0a, 0xc51381724fb538129dffe0387029b209946a913acbc06370b3b58f1c759ac8f2),
(0xcb36c4a0f6d2beae282e97832148704faea7bea80af0abcaac670a7b3808a2d6, 0xd0aaf774d65b7eff589afcca746b02e1edbd10b30e2938d65a0bd17cf71de58d),
(0x143e17415da8c61a959643cdbcbd1eba001692572a935eda1d0e24956eeee4d3, 0xc12840f77a9fb64250d19be15f35199e1da83a3a54fda06399a6908f87c9beb2),
(0xb6292192d471ab52fee206cb64bb526e6b8519c43df9ae854e4aafcad53c1509, 0x3d6fb4ea45ae494ae2c4c77629047e33f73af1474fd217c90856d5d13b837c56),
(0xd490352c70551c789951a057cb02eb17fd710a0f27dceaa2ff224ec53c566a14, 0x15ef382597ee6d88ed8840f59d496c0e6685349af1c62c27a32eb7b2bb193fb3),
(0x4797be1f7ae122c92193fda380dac3a0fdc14361110a2a3f5beb9f26f3d85449, 0x9377f25c591ca3772ffcdd3765ef9a3d006fa7c279d18e45839017952e5fa3af),
(0xfcf5b79098cff1c3b02be52176e1c6c60ac10bcf0f083ae45d26ead982839614, 0x8d94f5965b075d45a8f732dc09fbe679dffaf0ead2c90d16b2c7ace11de05c45),
(0xd71532031e8cf246683ee5290b2dcf541a73139789e5c3543bffbf4df95f76f6, 0x0740af4a40e7849ba41c4dea4b7e0479ca377fc269db00f8b484c7a8c4c745bc),
(0x27946ccbdba75dc223663d142b56bd9f2e63cbfa73290de18fb7e98831b44330, 0x52c0ed5eabb069e084fd8363dcdb9134364dcd4d87b460259c3460ed63e04ad5),
(0xcf3ea523751eff3ca785884ab019199d2a0ccf3c1d90679e141d4e7574e41f61, 0xb38d0808936a2920ece323aca707e1e4914b51e5e54843c963abf29288ef17af),
(0xd06327e7917280c5d8a5c5167e0d0c1be5fd9e254c877e9b9ae6b2646d9a126f, 0xc3cc39139d0d7b8b6a6b0c7db48213baeade2202544dab7f9ae42e08fc7c781e),
(0xacfc233f28f986882ac5ea8e61478f62505b8b48388334991ccad1ed5ee2a871, 0x244a188a064a6aa79f74e9408681b45f88b5c65fd120650b01a25674eabb338a),
(0x87fb09cdb3b8a514f6a02da61d9b160b798fdf7f3f05d7ed25c1c4fb84b19253, 0x586effe8c4252dd8c225a6a28e515abce36568af107f8c75a941e936acbf6e38),
(0x77225acb8ae251d2be2f48a32eff0c6e4f55828713dc8a6d3c6b7bb5de9538de, 0xd6eb85012aa7fe12285e28dc3efe9cf5b0cc8e916fd63f710c28c3f560259a8d),
(0xb03074f3f2effb455caf88efe0eca7d56f901b18fd04c01af0425c581f13dd5a, 0xc8e8c915fe06d7748ceb2da178816b8a4db1d0826df3064e7a4b0f85ae99d461),
(0x992278e5229bad5082c8c34608542f91e276130562a34627b1d97aada5999908, 0x056ef7d8d360d7b85af0f210161ad17ddacebd13c45b9c8b34f1ac73bd6a1ac4),
(0xb73a2eca5e9d0e4aef4f6ac30e9610f31c72c67b6a152fb4826815958d44be12, 0xc621ee64b03b17e1a25f27c2aaea43d5eb2918d9e0949306d2ef720e8975c00c),
(0x7f6dba9439e3302be4f7e0b6f23636090eedb30edc0b135de4aef970cbcbc607, 0x61685e2aeb8e82440175deb00a006b5c4292bd73040b2fa13548262adb98a3d7),
(0x88f0e36d345aaeabe8af18a2d14191c38330c5e0d4e32c5fc562e549cfad763c, 0xbd062c8313e44ed1891b80482ee93ac995a0142ee0543a92a215735d1e94ac05),
(0xda3a270abc03e6e53f572a2794c8075c08ce4590b1b626e008a83fba45dab386, 0x884b46e23ab44b4bc3d09f5b97994e4b109f2db4ee04bc776752fdc26f0df055),
(0xdf34669977cd82a48e3e1b116311a5fa3bb0389c1c500fd515573af6da0b2cfd, 0x2ecf1fe5fcec27d635c28d585fdb01ec2192c8a3848a72dbf53b77597b8b3735),
(0x11a4dfcb3a443c3e259c9f27e24ca4266e08fbdfe4bbedb72e6cae42569b0116, 0x7fc6c4cd1e3a0e22d0ee0249d6940defbd776bac9da5a98e23cb602542b3de9e),
(0x2ffd148c132eba23e235bbd8f09be1afdcfd6e4e5f2f0b496e4fadecb931706e, 0x6a4def9352d875c831794fb36cf0448a8c9ab5ae804c6397cec41b0f24583acf),
(0x109e1f3b7043c5d6fb822b8a54c6949f117e829b4065c0fcc3ba5e05a79142f5, 0x0c9767936c034671e5aceabb9b08f5fbaf3cea75a7a4485e6c08f7fda63786fc),
(0xbfeea71a8bb8ebbdca6135c626b739bceb2ada119babf9466db9f4bec7406610, 0x44ff78f476074ac8fd7ef860cab01522750fec0e4b86f11d831eecb522d1f682),
(0x4d2b7cd46cb0184246e7846ed0572489e306b37081515cb18a7c6cd1dfb51665, 0x60ebb29044169e561d10a8e0a2971b6982276f1ce7d11f60ad7decdee1fe9c95),
(0x66f2068ce65a1a61ad95ff3ca2f15f55029e0ce3ad522dd3d6083d5f793e0e5c, 0xa95bef602bb89e0098723b4d7fb421a5b2cc751ce8862ed7439c1b36efba2f72),
(0x4908ff3a27aebeca008697ecdd7d5483c6e564279d78f013129e26ae2ff459df, 0x4c5def88b60cbb2ca3430911aa84e4fa1055fe1d921c8fb7bbb83b4562b0f5bf),
(0xf9a901753a0f4236dcb612cbfcbf3f31d97a8e6ccc4f9e74038874075d19ecb6, 0xed3c6f61259943d0310208e3dd8d5a40a5bfa64635fca871a6df79c0830e24d6),
(0xffed50c12434484c0ae866c186b88550b0bd02e9db04657faa81a6728e321850, 0xf16e95dbd44bc7c566fa0a23669827e99cdf43726fba5f4ea3e28d8633edaa77),
(0x8061e9b62dd9d027d43d13bd1361ef3dccb4e599c8d3d0151d3adccb6c762eb9, 0xd33a9196419b283e5579ac988c1b6e60378fc692069b18daa38f362d20ca6895),
(0xef8d0e44e8b6b5e4857d3d87c82b01d8f254c516fdd139ff7b8d034b45698162, 0x8325ccfb6da9438ce99dffa292afddbce1a101a120955945cfb1608cd35e7065),
(0xa31af5aacbc4f6acaebb9abfde1640461b631b2b8cc43eb3edb53185fc1822e4, 0xc3dbc990691987e60a8c318de381202ea0c2297cf06668c7a2f027dee5118a2c),
(0x81e47ea6b60a38192094e7f8f7bb3f48a839b26ed2aee7e3e159bb39798cac0f, 0x0186a8c497ba163eaa779f6da8cf88a29f5d79f043e6f1959c14bb1cb1a53967),
(0xe15af4c708c61227ffbf080ba3b1dc2a4966639b926aae67f2bec4805c1fd232, 0x76fd417f4fe9e7c096db39ea180d38ad2360eac42730186ab1da32c733fe9a63),
(0x3a185818fb47ffff640f265da2c712ebf7e022ff67a21a22a2e941b3f72639e0, 0x8d370a411f133f4334534b15655717f073293f593bd34c5afc5c933e120e76f1),
(0x018e05d92f227564b572069e18a271fe2fef9d8114eaee28adb0fd2f5f078e07, 0x75f390d46e8f464ad71067bfb0d6596da945ea44c7ede2f8a9082440d7e9a263),
(0x7bb788b24f4e5d492af81fdc2f3a02746eedc5a8cc74d1cfad17c2d54e80a107, 0x5b28450f01cd8c6102b73038ae889c39d33cd64fd452ab5d28810177dbb6a28f),
(0xa156cb3fe4425b793334e19d2b1208ce5e6e8fdd78748c0ba1116031912fb9d8, 0xb2571319c644e959ba4014153cba9b3fcd8ac2f0f8fa1f042d59ecce5de14d21),
(0xeba23049f52287941651a922f60bc406aa15acd159eaaf37d1f2cb31e7d20b25, 0x0ac8f8df155b2703d65b33a9af581a028afdbe06f4927a4c5546ab7fb5b2cada),
(0x8203a1da56c4fb7c96816507f99a9a2c950da51daf7d21bf123402eea95954a8, 0x913884dc10a53ab46b2be70f5e2d201b4c6bb23eb6644817b4257664ed2ece88),
(0xd46609e3ec19ef5797ef86b4ec51b8e57a854643f817e7a09be4bc7f291e7795, 0xe1b3a8fe3cda047911ab8c09ecbbabd3ce96974d8a309ba8c38c1d04ef730830),
(0x1ffa9ab58eea8682768491089e12ee5acb0ea4fce6f68436377e985ffabe919b, 0x302140c07d64e9eb6ea74636f9efff59e907a16f5c8766582f4a242cb52f1236),
(0x4032bf9932057d1c8b6a89231575d3bc6e2d6d0ee1c7aaebffa9ebe3bcd9a0e3, 0x13ae52170f9f70a45f626295b30eba49e9f7c697e3ed7cde95442a03b7916a54),
(0x8d32845a14575fa5ea0614255e48e37bf3a55bd39d924648209d26ecb94a20cd, 0xe04161698f1e162618ce160be8b502b020a5ab817853903dad7ea792b76266fd),
(0x403754d81a0dbcb71ff4893ca5551387b73d64b025bb612d5e2187e67acea8b4, 0x134dd3d68d6420700cb7778c7ecc8d785c1deeb72582e25f5c58b19f2f59256e),
(0x4fbe981860e5f281cb1afa628e8787d328afae7cfcb73637e2d64337bd6e08fc, 0x31a10b4d781559007cec409903b5c59f4bbb2328b00a7550572a604e08d55b6c),
(0xa5414064747b2ac1e88680743a0fb05e7ef510a2a48d4f444647663cb5c48b39, 0x4b3ba62656cbe6ce2f228f8e88d00ddf135d6b81979286d9ec41c81af74ef7e2),
(0x5af99ffd9f27830e6ba54e0563b3bd394bd8cdb5764f78eab103405adbf3a01d, 0xf625b35cf510f9c3db9483633b2951e4b2209b371397bdbf01d899a7400a4318),
(0x7fa7dbf01b2fd3f93ff4ee6e17115c191f663d95ff446dc9d53d3e31c98026af, 0xf8aa82d528f2ee611a71b4320d553effff1aafcd8bf18e3db6dfa38af33eff7c),
(0x04838c0ced78e7c1e3707d857311b2ca6c7a43965be4e363d4a374d336324640, 0x4404fc6f1a6c17513354d364ffd43bdd61b874f0714430be8a5571a1808b5150),
(0x309c59a9b42b374d5c88136b43310fbd0fccd6bae439e7ce3a9c5e7cccb8dda1, 0xfdded8d0661b8ccd834e4762db87640afb1e9636b894dd48e1b4fb54863863d0),
(0x1cc76e1d788111f8eeaed57543afecba0548785d03d66296223142a47be59190, 0x560e46856204121e402c977e76fac50c446560a49bd2be30c6dd2c5862ef357a),
(0x188e8999b9de6190a65cc0510f9365859e7a04984452402a3093b4cb24116589, 0xaca3c642dec398db81fab67cd05ffa2d948a430ae26eaa0bec3b2cd120b01666),
(0x2fca76efb917fadd88e30d06d6f398e76803307ab8ac98174baa29459e9517eb, 0x186c092d957550054292ee1b986b55c8ee3be8ad8adb63875e4dc582c1105078),
(0x41d690fdb5eb4f108aac4bff26eaf86686489227b6e59b892544078010e3eba3, 0x251f34b9d69611a431fe960507be2e106d058db434e0c814b0b8a0c5f2e50b63)]

/-- secp256k1_pre_g[7360..7423], /repo/src/precomputed_ecmult.c:7402-7465 -/
def g14_3 : List (Nat × Nat) := [
(0x282f850d344e63bdabc4542c066cf1f1a6807b1a19ed786482d06a6fa03b1e05, 0x0de8233348fc960eb22f56415265c1bcbe290ed94ee81fae248d4676d38a1a5c),
(0xbdba09b1c1810ad1ab2f5da1b628a44da8512221993c83ee4a9484fe6416bd2f, 0x07049aace507d6f8d77587ebb8759f511b7bb2c65de0481bd82a2f82246d229b),
(0xe7e238af4639d3f7e5ec429865aade7cc1127f41d04b3d11477456c2b155a79f, 0x0da29edf1e3c0ede5546ed8dcf8fa8010b5bf0dc720a02dcd9d706c9a9c6bdaa),
(0x53a635cc4e24790f3ec5c17ff854e2a1800b2529fa88294550a0d23758d622f7, 0xae6bf9872d3a31a74f97299d2fbae14658c32dfe418ee2422029fff8166656f8),
(0x10750fa7df634f7c7d8bd73de056e48a50c413fc282748d9f4d0b485d0ac5c1b, 0xfdc72a01883f0ed052d97ffa8e6935b23f684f585e6c29b3702f5147dc645e04),
(0x881e3e57ed8f639c5023e45c4e843bf8e7d13323289f92c7143faf66a65c3fcd, 0x12f991ee3390b45baf1aefa9dcd20da25891ac5d3507375047836a0d0e75b4dc),
(0x6be505014d72c612bc0d5df913beac50bafefaf0aac7d032824a102f25bb45f7, 0x4a0e0d0ff2477287ebd8c2215bbf3e33fff7194b4217f9c757efa3611b3abfb4),
(0x2ca955ef23ed34810615d1f0db0fe5b3f0fe5f1f1b7f96a4bdf814afc4a58987, 0x2dffc8f1ce4ceeaad09a76107ee08e48a591a1779de2c84a765a53e1808e3c78),
(0x250da25d5be3561a92b56f0aa7ab8fc2bf7398d7aca092373d4166156991a05a, 0xb0e62549ca492ef29ab753e262b9c3a010df946a99a982ab812aa48cdef60c81),
(0x576068394791a29fb66f231473b6bc6aff383623c889695a910c1894d9c060b3, 0xbac9ea057285d6b207911b19b32fec7c1b25db58ae39eedef4aedf0946c04ae1),
(0x46edba34d53e958cc3e4e74aba8bb4d7c6266aa89fe804fce27bb8ebcba98e2e, 0x2b85a88f136b201f9a1747a6dc55f59b41049a69f824e3e2f7f00787f687aa6e),
(0x5d4f6ce9ac52d6981a13e73c3156dff3918d5b725e42f415a503e573bd6611fa, 0x4c6337031de35eeddfc5e646e8b0f8122b951fa5343d7b59ceaa5c85e1ce5c08),
(0xc77db927f7e637fc24a38bd7f605383e91e4e2de8ba5b1cabaed43768ae120c7, 0x347f43e947b5d13cc7cb6fc90fc2caa52991a0e1bbd4bc96d98ff26f1a81bc5e),
(0xebe2ccfdce91b78c95cdd34d79fc9a28478c406a0224bfb40668dd5f197934f4, 0xd7866df2d346bd3084ad837aa0c65cb462cad5cf3d23b0e4bd260fbbf4666ec9),
(0xddc5f94ad4420ae48ece780e26940338294b8929549fb89782c06e09b7935549, 0x25802633a0127d7321ef0a12a2a6eb32692f2d305e7d3ceef137eac58896ff71),
(0xe400091846f79f2171b299ae6b93108a9377708ae7d3f5c3147a98d095e876b4, 0xc8d8c4db8fdecd8e0fda047fb92bd9b73c99949327c491cedf19718b6152c434),
(0x4add985090e16b5c525de57fa15a9c3897527b6d8683e4073a978cac53b29b66, 0x0dfa1601d36d20216efe432f8a335e2f42b6d6457fd6f0320d72715732a85dbf),
(0x8a5536ffff9c9dc7b2a678235d60ad10834c9029bc243f3af10d7e144ca0a78f, 0x72ee78e4e0a618ee191dc7fbc1143e4d70ffd570bd50ce8fd368ec29c22bc926),
(0x9f70879506233a0e59757e175a87e34bf7a7485c94f9aa6261854b4b3ac62c05, 0xff9902b96a6cd1cb6ea359653527decc0782731897b5c8dcc24e2399fb16ff15),
(0x0bfa5d3be3fd56dad8e70330dccb79f5bcc46cfc220f49214cb8e700e7cd0ae1, 0x2a4870ceaa2e001f567ac21a79eefe948763b5abc63fa6498a5cffa4126c6d0f),
(0x0a965e3447f072860b91df553e4211afe6b837ada9cc10a40905975f1983f2fe, 0x393bb45c03f6ededb6de1e705a706501cdd10ea02548279ec75e4dd915f0da2b),
(0xe5e38677c1e4a65951358301dbba1e3fc44f5c23af7011aa5ab93ad3c69b18c1, 0x07939d32de371524c3b14f5c745ea023034f922231f29d8fc8294802b334821d),
(0x473453e180511622cbe6df2846f479c3b8638efe9af11beb21dd093a024d243e, 0x0e2b897feec79c085afb9dafc9ead10757d21019c655d0a4e5254a69941962c7),
(0xfff734d0e5f24c63dfbc061bbac37c88ec5aeead4974cefd77f1eb5e86219772, 0xef8a22bbc29c975637c600eb82ee5873778d539ca289a50c5490b5cd8ee0bfe2),
(0xd0508f5385f92779809a189243a58f7147f643a20a8f5876510b191afa292dd2, 0x329eae7a2ee52766a5a2874c3912d777e23c4aee390aca18140ced230b8e82d8),
(0x9317060498fb43a841d09d5398807f9923405879be9f224d52d21971130fba89, 0xe84fe72acd89fd4ff7db18170edab4935f809b786d0c3448f19505e50a79e60a),
(0x63634cc3ce570dfd8bf90307f4543528e26f2637ce32d69075cecd2f063dd127, 0xbd12dd787ebe0ea6661dc3895bdb64787435e9da5812d06dd9188b47e1a31939),
(0x30c7e2a7925a47a15aa1e2a96f564e3161b7a5593af1a69691088dc89ee64431, 0x5ef4f2d9cfefe53f3dc76f961a04bd716aeca894073553a01faeed0f6bd2d506),
(0x0f7b7e1ed56b7caa74f6014598c18126d8bf10adc37cf1bb5e6c88aef9f6e6e4, 0xa019d45a7e091a6208b7125ed3720f95dcc091e42ff17050da596fdb58ebc508),
(0xc6e9b0e1177dedb12e19a0c0d1167a8d8095b2fa1f2dc402adef0cadd5d87d3a, 0x64440da502b3ec644565ad126f732ae3c81276df5ef156053318693c91c12b43),
(0x653d41dce6ae6cb945533e5463b50a4b72f6efa97884d87852c32eac0fa0f59e, 0x693da28a013a9cded1b7597ac199e00ffac2f6f06bb0dc58940b6734e5eb934a),
(0xb9830b38f0f8d466e363fe5738124fd18c9f60f8cdaf6fd1a10205b95c7212ce, 0xa3e319066ace61e4ad8610277a12d4985c35969f62e5573a5bf4ac35277cf444),
(0x94d9457beb2bf3dbcd38a667adda8750f449af926a92fc93f1dbaa85457182ec, 0xff1bd6478f00626d1b203da6992a23662ca2b39ef6c1528e956d7d817e2497c5),
(0x816f295f1648ccd4360b1807bfb9b05e4a84af7a140a1f2af40165271d4b5b80, 0x98217f9806ff6f381987db347c6d432bf24b664abb47124e641d0677aa4ec143),
(0x3b83063717254b0616c1a5e8999dcdc7cf3cac9167284981075c690992e2b2d8, 0xdc2d471c5323eeeb611495f9cb37840c905eaeaca85cca3376d24705d152acce),
(0x33282badf48bba9b3db3cab7c3b46c83867a63b0db393ed12a4bf49fcd2f7c5b, 0x78733604b1c94144ab9a488680bc53ec9d67c4cfdc77af8840bc3535f2c42309),
(0x58e15e9395c3abc52ea68f946e3f7943b1ddcc8ce258aca28cd9f5e314b257ca, 0xd7c15bc853dedf6bf7dfad87bcac6e37f90d32b8344d95a644879ba1e170070f),
(0xc9ee3e2754e8c8a1e99c39eecd3d0b50f8fcd03fccdab94be503a1efb66d900f, 0xa1ce86c407f7840051c876121b26922f2b4b2358e302c568da6310f514909db5),
(0x6e2621bfdcab88987d50b5ac0b27eb94b52cfd9d29e80d2ebefb5478a3c5a514, 0xec4c657febbe25bd09d6b17268ada77c5bc4f32f57f325db9556ae0b4d1adda2),
(0x6e3c35cb9c86216a250ae256f8ab076a76264ca997b1a6e741ee96da5cfb2c9a, 0xd45f008246489230268e5c9956dcff9cbf6a0621f8978be8f2183920eef3dd74),
(0xf3b5baab882e20aeb0f444e74768839237acdb60e7c878ff40ec0aab7896c278, 0x7d8d6b2f92addfcfa248aa96e8a87e924c821c1ccf7b343af588ce7e93e37260),
(0xb89b2380110087ce8c8bfded7dc98e403cada8dd77b2e68d120361dd6beeca0a, 0x616e00aa4aba84949835b0a1eb0ff9556268d2cc091b7672d0164693848389b8),
(0x6659b7201db6e16058854e12dd78b89d40d91a17b7eac836ab8453c9ee3cdbe5, 0x5ac9db660325b0001983df0b6693d93badf7e35aa18f76eae2053e34b1b8908d),
(0x6fc76d79bf3c34ceafe73e9d7a77af23bcc7e894dc555f638b9d53c6c15803e6, 0xc366b4111d6ee57d52d3938ef2c0c620746d636c92ab73f0bc812888ef0b5ac0),
(0xa06b2395238326ea20545cd7b021a5cc9e21e9e326c28b1cfb50f3d5e0f6e069, 0x8560335ba5c16aeca297f185ab09e9760dc5793461170b35b8a3b6b74ff622f1),
(0xbb8064ee177f375319e45c8c4dcdda70ddc4bfff1a866b7aae7922e313d1515a, 0xa3be84ad274704ffe7a76277d87687ff0572633b2fb46b4b40f601a1ccb98d7d),
(0x27f0878806a2c0ab8f26ef15a85d2d38f6fb8cba622acf2177ac20f2f05962be, 0xab2f292945163b83c9cda8e94f6d8f7f167bb58950d4226f827c5b5fa782f8d2),
(0x0f51d558dfd8f74b7c9c376865f8293265c1bbadd8aa64d1ebbc09df0b7f6de1, 0x101c88a8170355ecac23ac98ab5aac677a68a94b9343012f74cccfe9308c039b),
(0x60fed6650a3ba26deccd1ab6c956ed2fe33da384dc687f416c37b550123a5441, 0x4bc061b9b2d7c63aac042a7cefb2b5c6a43260f68bd0f843fa218cc23fc9b5bd),
(0xfdb04aaaf2958755ed65f968ce4fbb81ccd8c61632e9494d510a7b3ed2564256, 0xafbcece8c52725cec0ef2aafa094385a831afaa607c4cdc957712bf61073990a),
(0x7f45848ccac04d5ad9caa28c0e60628caea7f076262689e827fc7084d6b94dbb, 0x51e16503e044b101a0d12d733a57d8c1546c1f04386721d7a6f9fb15458e41c9),
(0xb40910184c556249030ec00695f02723b9cef74957996d5072642d8ab492c9be, 0x1b3c221c235e721e95bdd451f0f0fc8da6a18260d47b0c095f3e1b1ef6135e5d),
(0x4d5b1a50d00b83fa93ab47463f84dc21d0ff45592e697fa0bf8e8f685e1c9713, 0xda52a118024ed00e6a2434d1ab383f0f1e495dacd08c6a2d02425e25a9434af2),
(0x63fb80eacb68910f697005338a1769f069acdc85da71618a9cc035571d4bdca4, 0x7f2e51d0044467639cfdc2fb247c7cb95b8e01a5e27e6bda6713ba981936573e),
(0xf5035d5e12313eddb0c31851266f7e926f16c1f5a6031aaebd5e14fc18304faf, 0x7381fc4bcfb33c187bb59e22be95081c6f52cefedd84bf6c0799f419453f61fd),
(0xf62c9afc5a2cfec6afd54b78375a73b0eb5a73b6f53e24a06d1e9111ff20e835, 0x0a5d386e211845ce9ffeb91776a8b91e027f0773b2d53fb82ac44b8e83198350),
(0x7477749f3824c134c1a91bfdd1b646f6043f8109c2f4688722799f6d53e6280b, 0x0232b4592259cff599e4af771e03c94a11fc32bff2598beb2316d3aad9461c55),
(0x2e2c5f435fcf4fcf72f9629eef6ac5f431073f2e7034d6a764af194b1e84b6ca, 0xcb94ef61c794f44f2c7d1115b9dca6657fd1c184e30f6f60caf40e75142ee26a),
(0x8f7e4f940fd2a65186e4624a93272af82d36258762a0baaef65cf47abcd8214a, 0x9edada6ad23cf1c0dd98b1f9d9a838794c21654d239f1a9bdbace84ede6145a2),
(0xe184ae374704eed2b054b66733544ff56ce55a9fbcd7625f740b6a67621c75c3, 0xea7737442212bf1da26fd119248b0c51c413ebaf75e52de897b4383db397e144),
(0xfa47fd9b94cb72b260fe208bc022dfe3a2bce2f9ec776313a497cd914166850e, 0x9a12bbf8a6e0ff915176f71b016327c7ea5d928d816de31fc8de2be457b0c185),
(0x98d36e76a4caf051e848fa4964e09bfa815109f863cd5e99405e64ec0d526c67, 0x706b36aa06e673528fed83b608118ae71e043964f444c477590430aa8d80d19e),
(0xe7722849c00c587544751cf9a88fe9649efc05a34d810788f30a2057cc1d0c72, 0xd64ba14f978e176951951a4e8431af7857e6d97af5fc5ba02a1fd46b1c215e7e),
(0x93374edb0547efeae5f22d56acd80ce280e4d47abddd1d9c9d85afe40aa6fe6e, 0xe9c40824cdedb0389b42e2e72e15009b215d90807df6316e6e81ec9d40dbbee3)]

/-- secp256k1_pre_g[7424..7487], /repo/src/precomputed_ecmult.c:7466-7529 -/
def g14_4 : List (Nat × Nat) := [
(0x840eb546a076bf81e49541966eb8c4373a0552398dc4deb862a73b768b380e28, 0x97b69f930ac1009da3f47ff1b62ea845f2900d7c84e8a1d10048d96fdf6fdb98),
(0xfdc4ef1959ca06ae92587249e45d456fd74842786f4b3381676094ab446c3e8d, 0xc832aa3ff0ce9f791fbe89e15511e25c6a7a4230401471c37b9ab0111b304366),
(0x42abeb4983403d4b5f529eff16bb991cce7052505a61fd6b96467a51f661651e, 0xd815247af807af52b454e83c9d46327ed80d3ec360f84a3cdc88b9b259efb05e),
(0x176fc9a0b44a34fffd652cc8bf715a12a9d5f40badef6032245366605e0680af, 0xa47100b7e0fc557af5ca7dc10c220b5a770231ac0184f14f57e554d611daba35),
(0x11fa2a03aba7cdd31940923d37045c99ff531ba20a1266fc26ce7a26c6495e63, 0x360c9e1c54fbc8239878d72530254bfa70453c3b934915e95ea4542c1026b272),
(0xb2dda11edb5f668b8d90dc969d10f8dc6c95a16a0a3e2cbb3a1ccc03d9acec22, 0xf4d44dc48c2609954fc1316a2d5bfe6a018ea75443bd9a552b2f2f08aa0652c5),
(0xbaa1d433e2adc4265f87f4071c8c35ca423f3e765a835a702d8045930cfc3f7b, 0x3f55a49309e25a778a9d3ad54ccccebb8a45486e1aeb817cdc0a27996e70e996),
(0x0478f18c30470c65b578a6c5df9c71ac934e3439ee5d5d2321f8f5a17adfe55c, 0xc43dccf19a9e48c441ebdc12f2876cbe32852cbfd3bebc9b0a3708fe6cfa450e),
(0x18223de3d62283f6c440102aa1769ac6f5e1a0a2cf3fdb2dec62563f4e149ebb, 0x57fc95f7f8e3151b80fa4e68045349b7961fe72ad6ffe725e3a0a0f8907a4555),
(0x2c8c523e179bc8d21e3faa5f5db5dcf2cfcb04263f138cde428746d994a17276, 0xc3f00baa690615215d512c97aac1b85840842fa0d8bdc7734e11d3704f6330f3),
(0x0a001d77af44959ff1e83be7d6b164962aecd4283ae2c38df3ed3fb6a0f12460, 0xe68a305b6f60a1ae5a01eaa67675f0d98e6c5baf75d725bdd0e2a4991c323770),
(0xcd8a1d362ba4a2db255ebbabede7ab7d383b641c515250a5cf52a2b60a5b2ea9, 0x20716fe1e0857b5b55b836d9039d3175188a6f9dd3cc42ba8c61a7a8d9a7a1d1),
(0x7796adbb7949b2346df5147ec3d7e0c25b61a87443fea9f4b4e742fe6c1218a5, 0xfc338089c80c6415dbb32994cf5e2af6b5c3342dd291d7dadef80628a904edfb),
(0x3c34514627eb74dd88ecbb47aa9933bab7fc8cfcbd80654af96aad515c1a7017, 0xcf4318c41c021c065c100913dc84259d2b8d6ee8102e5c6dc3f809a57f8f2beb),
(0xcb4470d2d5715339acf391e65e3cc397eac932d55acb65cda94538fdeb684f67, 0x15e6e6f30383b8bd1b674497589ed7cbe0f41394e366ec61b7e1b927daa6434b),
(0x954a527fc4496d02915f0b114e95f104c500be4d0a61eca32fadde9dc1f118f2, 0x96acbc82d0dd62265652b61e226b7ef1c6f0049191bce5ccfecaebd2fdd28ed0),
(0xd3be92f5697a11cbb83749389fe8941897707ffb24fcce9016debabba4faa4ec, 0x23d04ff1e309abd2aeac3159ed9acffb9c5336f5517531c9f1cc2dc3a2d300bb),
(0x7490df7d5a7ca290fe029f3ed92f530a23a7c983654bf19d5c9ee21db4f57586, 0x3d7f28c881b259e9f5f735fbbe608154b80f38d9b5131bd9a6e2dabe7ab2bd54),
(0x992c4a821176a784ba2767aea3d396975f96ea50b7bc89472356fd9820aa666f, 0x519d97920458fd397050829b6ef7449dda4ebdcf0fecb2a38ca0f057f051c851),
(0xf070e211b384b4973d2dac233373a3cf6dc7b9a62529af9cb2fb1e84b40901e1, 0x175cb1d4f833952126d4b41d9fe2778192a2a1d47d5faa4801e96f51beaad506),
(0x108f6113c2795472244db9f23a1002b9349bd34ef9c9d70fe146df96be198ede, 0x2bb9d195d087015c253af145bdd6134a1845dd9245d7d8c7c12ad2ba2027ba2f),
(0xceea04f79b611056ed7043f9707bb3180e3ad3321da821049790b1d9d264349e, 0x05380e9f1c52e5ba6ce18afd289f49bbc358bb909db23d670a851dcf09ba5ec9),
(0x1c74297b14a4fbf12a6421f70561c549414147c32a683391c4cc5eb079948cd7, 0x581c964298232591bd5469ebc1a01be837bd5d43cb63e21e8540ee8452b12ab1),
(0x14bd0f2a0ebcbdc922fe86600c63bf12c6db85210f1f0acf7406e982a103bdc2, 0x46c3002b1e5f25e398c8d7afe340aab723ccb0d27e24bec455d547ff1df59c96),
(0x32c923a1526240dbb234ab72565d6880b260e7a433747aa2802da713c30ae9a3, 0xb79bdd746ce4ecd4a554d66eb787e312a1ed53e9c77cd6fc73b1bfee8b13d620),
(0xaf0ec2cf21ecdfc6a71c6edf6f73ab6c76600a8986b620068b24600807cdf168, 0xd229f3c27db8019aeeb8f25d84f3e341681de4ab2173f51051ef42497a9dbb0a),
(0x1d6480758273a9a9c970cb105ae7e537b017aadc8be5044ca1f6a3ef4d2cb275, 0x3faae8a687925e3c0e9c3482d34c76a5702c9beaa307aa450f2ee992efd86387),
(0x160ebccdb4d5561b488037ac25224afd91c66584660af970672d951487376568, 0xf510b49cb58b09f9460016272fe744cfe6e7abef8f54552b41b6158c02ce2db5),
(0x50867128704795c1a190077d49a87c998b10601bc37b7aa9908ce92f28969c30, 0x106fc462a115f2b3e83a54747a6921018c73853d83d8a1b22b0bb785bda8a896),
(0x3ff4aa267e8d344cac75a46f7b17af595d056078fe860a96573a8f0c164c54ee, 0x2632d1fef4b34a45ac38a80d236b51aede92fb7247b81f6daf1b95544d426d82),
(0x739f875cebe795f0cbb846c588c2b80921468ec64ae090346032a97dfda93c1c, 0x8393a2b0f3e68c9ea57d5c8bf8355d8e71f4699f201636da5451023c92a1b98f),
(0x717bbfa20b2c4818ae6204983506a4218cdff59f2e040521764b8013b688c7bf, 0x9229cafbe99cbcd53f73938e82723d2fe7187ca2013d9e0a57c12254dbc7f63d),
(0xcc0a808f2618d1f427f165df4412739a6ad9af38e8c25a2b14bc97aa1c5b0f7b, 0x3b83d5f23d94aa879769c3d05e92173117c345a103418ec32f92d4b2c1e275ad),
(0x4a0b31f88f82abc56867fffa6deb20d2d8e7613baff466dbb260734d1ef8b1c9, 0x375d7c6983784dbea5bfa8c58f8baead8e94b9b595c01d9b2747a06c5fb7272e),
(0x52149a1c53b2da97f39e9dd023443cd2b21e404eb6235014ce04c6169f5d05a8, 0xa9f9a4cbea6d202ac6b5aa9328f583c445db83e58ba7fc2503eb43e3df7f542a),
(0x6e294aff9e9fe4df9345bd931229a7b0955a3b63fd19d1ac57bbed7250262b8b, 0xabe6fad105fe423be1a55867137c485f856398230beb6ab281dd9e1eed447123),
(0x0e9a70c2c5e962c4dffe24f38930e095c2b0b540cca2d8912f6f5b4fe4592e9d, 0x8d115293950517500ccc936963b987f396bd05a1499151031e47baab358decf8),
(0x0e6c934a57ec54225d42dbca715e62fcae95759052849f8cb5f282a9b82d4adf, 0x6da738b240ff3070bf0c4ac550ca5a7731db8a0720312e2ff9de572dd7b67d4f),
(0x89b46ad7cbcf1b6e8741e422ef53beea49662d96bcebbffb57baf0d21441a0a2, 0xb72054311798624a3a1708a8986ca47e374d970422f7d3fc57ca7f22094913e8),
(0x5b949cc269f0b0a0c3b85fd9e45b737e7379a4bc70d926cdcad87ae304e7a686, 0x07e54863c1efbe6aa98d6466650573477291b068a43f17839d02b1909327bac9),
(0x787baad89882587a97b049cb9906db7d0b909239aa50e073d476081b4a73d7eb, 0x8e3bb416b57585f98b337b72b23c2b9ec790ef6cbd397b18ab78f8a8cb662425),
(0x58460ae15a204740c375cef9e447edc12fb6a0ae2f8d18b28e82ba60729c82be, 0x1bdf3641d16d89ee378e83ea302efb0e2a9471ac9bcbf1e1662885a081c7780d),
(0xc9bc29a21f7383a3a90ed3d3fc5f6d321697e354a77173fd77899d172012f63f, 0x1c850132db81d86ee866d9e575c4f7b60270599f2e48c0b494317dc397d1043b),
(0xd4c54b66a1ff77b763f8c520181e4ae26b82643d758f872dcddef93336cb84b7, 0x23e64d9bf7456086ce8b778a194f8b8df1f0bf38fbb8454fd271d062ddb9b9ce),
(0xa947a90bb27db3eb8b4ca4cff947e58754fe6a487b922ab19ef4b5c299eabe3f, 0xc83e7022f6e12dbbf95e95dd2bde8b943d72cbb65b222f5794d13251c9fb975c),
(0xd83f60404099d44808ec6785131524f73e58727e829b3d587d445197cb367746, 0x6d50285f831e1173cfd7de2d0d1c7c29532a391c03f450b7f25e758bf412a8a7),
(0x75d6044878902615467175b4bc16c93614bb10e7c9fae9f457d4a2102d506a0b, 0x885237bdb4277447fc7970c24e3e7240ca24a07ce46b8bac7a91272cad9c5854),
(0x1f96a5422ea4726bb639d27017eadf3343bfbb7ff1fe9307a20fb5c50f1c4fda, 0x5f80a9b3ec8b0fdeee914ae8e605210077701a73578298034cac5d4491ce0a22),
(0x3c0159ab4f27b61ec2599ad0a79b42289000fcb9ceadb44024e1527af5ebb9b1, 0x77df26bb0659283a37abc70f9f465794ef3fb178107ccaa7a5404c88a67a12ef),
(0x5b250c4a25293ab534f287a49f9f966b7ebc1c93e5a774f7c98980fa7980e07a, 0xdd6c9c365c0156859e1ec5fd3a740d1d7eaea301002311d1a9cf505e7e594613),
(0x20a6dfe371696c50c3a7abf93341c41d9d6d2111729fe45ef3ceb49e977151fb, 0xbfdd0224fff97fd7ac3eda1eec0e6f028bf7a3b823cb49d152d643e8fef3d820),
(0x915fe7ad5840d789b94d1bd32d5553403c9152f0340a5f876862ca4019825b79, 0x08d2f0ba3459615a02036a07ca57d0e0f3a4290bf5fa73272431e3e70bc44255),
(0xd6aefb63618e2fd034e4f17ceb766d5bc27c9a15d796b16b7cf8ba71031a2404, 0xf0abb6a6e862f6e5d71b062d0e9bb7b9dfb2e4be1c5a85a6dd3e0c253617e8cb),
(0x4c8048377d65a97ef65a342bc4549e165cb1c50ccd1549e4d2d2ec10c663882d, 0xe1ec6beed0bb7243a384e6ef100e51804de6ac00b06d7b673e445dc57b76dc8c),
(0x3a6df8020f372b561ebed30ba4740d03d257d2564931422dfd3c8c1c619847f4, 0xd168c60c9a86bea7e48e58dbd8e6bdcfb6ea7d31d57f899670f79e33241bc439),
(0x423eedec169fa4aa52588642a62ec6d38acf2ca1c8098c244a56a6b3169f9932, 0x4887b4757f27b4b8d288c05d3efc1d98c0428b5de4db1cb06dcc478210cc6f52),
(0x2864f3728f8c5ca75dc56dad8b968c71a008eaab80b8bf2816bba43678465be6, 0x14f5e2c30423f86364962871b786c84050cc07b9f537ddfecf81b95aa276b813),
(0xcb96234a985e2adad8130ec5472efca57ed7331dae7570c4dd42f4db9597ff08, 0x69722bbe05b367ce5868b30b31f67c8ca5f047baa7f652024804145866b88d5a),
(0x3be93dc299b7e701ddf0f239286ac598bea1ce42f1e21ae81cdf07a766c1123e, 0x8a9c69a66a475e40d81b5d0c7734cec340f528f74fa0073cee92161ecbb92d00),
(0x9022c43c7acf3552fed52d25d25dd3f29aa61fa6988a54996aa3626b88b7f497, 0x0c514a46f328c9a5dc2fd03f81ce3fda915f1e8f127348ff55e4b5ca2eba0e53),
(0xa24cade947a24abc0a050ef7f62d138b85c96d0d2edac403dad58ff78a2a9d3b, 0xa209613bc05a7b5241697e24073fa7fc412f8fc5b2fd0447a2e20e71949cbc0a),
(0xcb2010d394259307ee3491c558efbaaa203cef1f8a0a1e9967a4ff3e719495f7, 0x1bc5b6a5b5acd4470baec221141b601ba5a3a6407f84b8f4319a760a06226b0c),
(0xfda8c6d7c6302b2776172f015e59da8e4af1e96c3bd05f2ea393fb7e1dc1ecbd, 0x87ce1baaef24102e19c7a17eb267acee7681d40d705f7058c514c9c1f615e666),
(0xb459fb135b9902e10760286bb37ffa03ceabb618e684823c17ba97ddc95ebdf5, 0x6e35fbafb5175d3fac60f2db97447cc4a79c212d5496ab7e4b536ddd797a19d7)]

/-- secp256k1_pre_g[7488..7551], /repo/src/precomputed_ecmult.c:7530-7593 -/
def g14_5 : List (Nat × Nat) := [
(0xec137d8f23b119eba286af6c583ef0115d21f33508a1a2dfba6af216d03b4a36, 0x344fd1e4869d68a087a1974ad48b97045db2940cdec017fda0605c118e5c7bfa),
(0x8e0be4019f2d3cb89ab07348cae295c5eb7fd7aafa5a83e93d68d994af68e14f, 0x542fcba851510baf6f962401e8a607c534a3297122645ebe2dd51867b26c80d4),
(0xb1dc86113cc18708338542ac698a6981a61922617c1f71d43b72baeb1c0dab03, 0xf3e614235b683727f1cca8e841de04740e8c4da8d2bef4313cc2da5cc4ccf38d),
(0xd438b0277f6c70480c1eba2cc1d7e554888a70253f5132613bccad8fa5a0a9d5, 0xfc41985223f6ba14adda0abc389d2d164a910dab0b464232298c2a1c50ae64be),
(0x5484d6185cdf3f214223513062ddf2511f53a84ff0fada86602c4b133dea0f70, 0x6e697180338608026ff41ceccea79f48b695aa372a76d04647603a67ccf9615c),
(0x8c1856e76842f5ce82c09a824d343a6bac67ff27f6d32de67117dd7559df362c, 0x70f785150c4bd17c23f61049d6ccded4100234bab7e1b9be16925635a9aeea2a),
(0x48052022943500958c904f5754285e1a7a17ff810dde1f508586273e40bd531d, 0x7f1ad45138b44b1533327a0b15fba2a3f70989e901c271b1461750c15044294b),
(0x4adae42586b0b95cfc26159c6aa0b1eedbbc936c83fd6056f2b730ec14dc17e1, 0xe6d0f9d0bfec452e3f2f9b394d73c72b990f9683b6004fa38e8831b4f46f9d4a),
(0x0d296fd2926eab53db70b1d8d5c999c57eb36987625379542074ae12af5844f0, 0x0b4472b2c33661db050b4370e0ae7811b16646bd3f4771a3113d677c7f1c0cba),
(0x1dbf607f5d1ea26fee8e416a52c8475ea8363cde6bebcbb9bc04cf4dcd19cd54, 0x832c9d7860c8acc45d00a5682d28fe074952a897619f8b2342dee2b5e20482d3),
(0x12321adbc59978308689b103ec1552eb679a3ae970ccfc46f4adab54f8dcb2b2, 0x92dd316cbef2864cbd5002f5ba0527123f920db944992ccf1b2f967cb70d1f1f),
(0xfa2c024b76460eb7a64d1e1efe059496c28372c81d00cbec9ea76f62546642ee, 0x5a848904a654469bdc3eec26736d7677ceae5fd6d6f30adf8c3fb95abd8e5d8f),
(0xa77dcc2b218b5accd617293191e8ac19fa4d74ab04c88b84775d2f353f51e7c3, 0xde8722634e2ff3567d9e419f26ff51b60c41fbbf48124d018409a5169735a950),
(0x83d740a852a6139b53b6079650d649029f9fe35f8768997766246b2f091e038a, 0x1c630f32722468ea72bfa9708a27bd9a97b68e5312b7799f66ede01e09c75b57),
(0xd894b986d74580bd84b24a680eba87e832a9c34dbafc5717cdc03c228758c9a9, 0xf0d68c3d284574ea21a357e8cad5fecb90a57b5262f6ee061868d970458d502e),
(0x67b4473b3f1420f5a8fcb39c8671d583cc1b9f48e288f3112af6241c4190a786, 0x14fb410ee33f4a6a3fe5dd9dc30d581da350c7566b51329007f3ce9729310b55),
(0x2452296587039934a6927d0b782988ccb126b61edb154f0718d97d416dc8f0c6, 0x0538c4e2a7e180e214e367856dedb105f688f1c59bf81d30d92a8a930d3c5a82),
(0xb47bdb89b087a27a663f98847ab44a6443fc43dfbb61f4d2bc5b7ff9234644cc, 0xee508868402613fa1a200032afacf6729bb3f7f243b2f415383f4067d0212483),
(0x92eb31b579ac7b0fd32ac2784f3d2c6393c285c9567bf912584c00af3be97d8e, 0x518e379bea24a823e725a3a33608e62a7a40aaf500318c2c41afefe80ec9afe7),
(0xa5e06969cd69f1b60c30ab551028e1c61bef12b4b2c2d1a2572c3648fc739332, 0x378a3b333db8d289667bcd989a3cbe9ff20b08de4047164c7f4bf9fe5d1f93b5),
(0x604823c2f1ab2bf7eba63c65610fe0ebc958e8c47f509c8b42b799347fbd9bc6, 0x29f532aa3707e8722169a02c210fa9f6100c6b1f0926c73ea3bd0427a1844733),
(0x1b4bde22bfef0cb0ec9e84fce3af2e8dce7f381ce9766b1cc1d5fd909a1bc891, 0xab20347e3f4c7ba32bb773d15086875669865df1182976576c28370449451f49),
(0x10caa1162067d6685371a20d97313b544d79b61b3bb41a87980eac97e82f58ee, 0x7ee4f11832d9c2bb1f8497310d779d12571a084a4ecbf4d60128f33f6af477e4),
(0x071e7f07513d42fd5c0ad06cc96ce17d3542a4a1a101e581f7394c2fd89e2072, 0xe214ca421033650fe420e574e2266c233897de2590dc3999bee41181db0a81e4),
(0xfcbe392d82b4859a2424ececdd8cd47dbbb89d15ea2b9591f5ff1067e2cbadaf, 0x9b06334f6ae45d7444b5f09a995fd91ca2712ac8b159126c8cc0120c513f0bcf),
(0xa64d9e9b5c583eedaa7934ef0a7ad0368dc9adc19437f97a7a16b645cf46e262, 0x009357dd1aef4b07a376b468996927549ddfe9d67982a7fcd607f02b8a7158a2),
(0xe634938caaa4010ff4a1e760d87a253d5fd645a24f85a75f8eba78bdd876fcd7, 0x84be5fa9c11d8c3f54f757cad9ec4e1886e52db14b3cd0d397f666fbf347d24e),
(0x4640245e23e6eb756e0a44f7698c1faa33ea4f877a52f8503477ad4f8ae2f4bc, 0xca2a72a41348d3f26a7fb977d31067102494a982a96c65147fbfcca91ed2225b),
(0xc2a175c7badbfe95cf7db594626a42d01247ebe5160c58a02437fcd50eed8c59, 0x94814fe37692ad4fef0f4fd341c63f84b282324efaafbc5938d88f4f0eff210e),
(0xb1296159d0651519d76bffdd98013d1abb17de49111e30355f7a1d403d8d9148, 0xae3c442c2dac0847bd8d9052a5470b9c80536fd9feb5f820e4c54ac1078aa44e),
(0xd30b1976b0867b5784d5e619a5a63516139800935a9458ed59e4a3bcab69b7c8, 0x1b1eee49690de06d7a71c3344fc0a647133f2fc299a8f096a8a445bb27f5b96f),
(0x0fb1c3b45b0f6f0e35b93a5eea157e60134b00c538a6e429301962f838fe51ae, 0xcf79bafad7c3fb0849e1c2cd48a90ae4af507bba5a42f3febb1e101d7f5fb818),
(0x2bc4d2c1d34c6d419d97ddc0c758fac9ff6489fd786065a361ef442afe37199f, 0x5b932f159500ef4ea331be887022f42f5148c54b030957b0424a168cc6d76ceb),
(0x2744c1af3459c35f0d8e1b27668ac653eb25f0170e4fa15d6c1a6baee50f3a99, 0x12f95a25a87e482cc647b1a9f22286cf3297a3544c7b575eaa888dd56db2844a),
(0x6429f3ffd37b53d488024393d3a9dabff84e3974ef60f44661ec9da5efc736ee, 0xe8426421f15768f0caf020ec3999e8d3a1aafcb824339574fe119500a168016a),
(0x33c132ef437e9dd8ee9c028a2ad51c9e5a836eb54bd97e5b4b5b6bcf38d006af, 0xe2527602e5e74d675a5115cb9a89c579c760445cc70d95f19ac82a1e6ca16c6d),
(0x3ac856f37d53e19ff6ab49e394da6ed2c8645e65f4666bfb163778ce7cd910ab, 0xef40efa255d7a5bf99e390558993f7538fd203d67fdfb7d081cf8bc7947cafcc),
(0x5ec9648db58770e00314217ef090c776396f47e8ba27c30b98c35955aab03247, 0x3d3402e08fb714486ee97fd915293e53b095fe039cc3100f21240a24d70819b6),
(0x54955c8403c5dddd89f60de3828fe4f71666d807ff88006fb46c37bb8a822645, 0xc874595064b3c7219eda8253633deb6eac9a78258d1de2e6c2dee05cf167405d),
(0xe0e845f935054008fa44cc4f01f2e53833b58e73bc6a04fdc16faa76c1a92d3c, 0xedc48f462a41dc1bbc604e0c0082d993edc2990df59fa03411702d8646dd1c1d),
(0xbdb4323519acce9fb95f83fa485940c569108af1376cd09c884e6419718ed14e, 0x5669c5ac084bacd6eb6fa8e739da1196dde69170f5d4e5c6002ad52866b6d9a5),
(0xd208bcfdf9754dc67e099754983fb58de5679bda96d8404f266c0e659e4160ee, 0x0c602f6ff0f586f67ac771d1fbf9d807c2edf68ca2c10cc2314221fccd3007ee),
(0x3cce9096450e620f029b244639e8809a39000315a887d6e3da141ed332b1c30a, 0x0db0ee91b844786018289da111b3bb62289d21f52aa8f436562e982dbab44be1),
(0x6c351350d0fa9ae6e172384833e654a3f3f655de7530d9bb59d924621dcf8253, 0x2e5ea3747a3689040e4cc663feaf6f924060dd700095bab9ca2e07734c48df83),
(0xc64b42dad63cff5aec1eb16841fead6b3dbcbd97f6786efb5336da1635950d2f, 0x73706863cfee031e3fee4be19241cd9442c24f4cc57faf70f8ff8b81f094ccef),
(0xc4b99a417b2277a4159bf3b4859e36de399862ac70ffb482b92e1b1199c748d4, 0x6ae88f861ff14b38b545ec861a808c5ccc78c3e791b48f29350afe209efdc33f),
(0xeecf955af1ae50dc44b5771505ea67ae1ae39cf3fd306eeee943908ba7a42a56, 0x26c9e11422cd3db4b278adb08e4c16a21a4c0a9fb837a4936cbdb70c065fc5be),
(0x454ef33b402e3a59d437925ab62100d0974abf6908803c04436b4d2d5a5819c9, 0x4a38e3981e1d980972df7faab06bfa9620fe213a36ca0227c7c20ca92ef31563),
(0x50f11935c20dd4107a2cfb6502c94e398df7d985c183259a70f6a04c6ac5734a, 0xaed2745475f207b5dc1e9f4df8cf1108c9507b03d0e889d8d33ebfb73b10e670),
(0x43bfd36610b67773a254a077624c2b534d8ded30bf53e9184f10e597e2edd980, 0xfd0655e2e6b257eea249a5d4299146d0e08653cccef19a885ad6b33bae8f345c),
(0x7ad3c8d885cacf19ed6aca964607f34491448d7a651fda8f2446686ebd06a9f3, 0x9cb921c23e338436073fa1bd101dc4f8a9a714ad7fb91057dd5af779835000a0),
(0x874346d69cfbfc7a2e13c605baa69c5b0d39bd69368415941cc50cd318c17380, 0x35326549dcc29eba4d35a559e8f2f0bab4d94adaf2c18612a45c9c908d99ef4f),
(0x1001f64a23afdd92789390a2bfde9ae1d85737ce3e5087cbb1bf2d5cfd0e6943, 0x184b6a2debd086eb6e04db5402146059e6ee341d1c8854e6e57345fd5dd237dc),
(0x659607d268695906fe752434a229c30960b33825a41589d86e663230c1610fe3, 0x77005570df19186938a56d954643d991486c70cd3d5c336e11a9667ffd8f7862),
(0xeab041d967f89c37c04bc6f5a9059d69a53e5fbfef7c17e17cef48d7e346abbf, 0xa2c2fe6e63e38c06477d2821d22b4a0e4edb0b55cb1d9fdd6cd01ebbd8fa51c9),
(0x4ff2394f377db94fe96f51dad7364407ed6bc1d903822f2491630c3cabacda99, 0x4a77b936a42493f0d739afceb769c7eccc0d472093e839a4330054db22e93b31),
(0x7952c74de0576ddcc85f42e624937e981502b2c0105b69bd4e35f59f1c2847b2, 0xe7159304dbd9183f3abde60d05ad65ab5a4972ba19739b651d50c056ebdd5b81),
(0xb3149a8ef602b6a3c69a769d893d561dc7438a74bf47c2f8ba07941db0dd214c, 0x99e591f22f8da0b0c9d7024bc82d1031cc4336e6bf1436a6bf03bc113f041979),
(0xac3bf353ce672165a7e736dd632c70181e454200774713807b875d3ec81ead58, 0x78def0982f0f59365f5c65191857463f7376ec93f15c01c6980d352d17a40195),
(0x9edcef9ed26ac40861d3fdc666e090680a9b1e05cc23202e1d0b6e03faf546de, 0xb138728171de9aebb02b5290d3d56d63b6c98c00cecf8b0b540f70a379556f2b),
(0xfd48622e8dc919727ac21c30c0fb8d02d8cfdeaddfc39a2259853e175d8e6d26, 0x4bf26514204912d68bca0ce671a967d9921bb88233099b767a0569673fd42bcf),
(0x0e6dc2eac28def6778b0a35106ef0f4b104fc7c988a03a468cfbf207ca0ae0e8, 0xd1892329e77d5770d9a84e59c2d6f6e1db6de41987c5e3a0ea508ea4a11b3762),
(0xe8ff8f65559128fb3fc52650ba063717cd2d140eed3fc4a910dccaadbb0503db, 0xf35c361a8ea9b3a80139676c3ff31cdf055115357859e5f93590302dbd21e21d),
(0x2e18c597d4e4a4c70d54bee9215a1ee3d149dce325cdc4aff62a3da41922c2bd, 0x3e8595ae4b6cd57b7f685a7587ed61a3281b52ffd76e91264a0f0666701c5354)]

/-- secp256k1_pre_g[7552..7615], /repo/src/precomputed_ecmult.c:7594-7657 -/
def g14_6 : List (Nat × Nat) := [
(0x589924a12cc867c5b2289f812d93f324c2df420e3c948bbce74b6bb46d30f262, 0xf9bf3d02cd0001c0bb9558ff515ee86fe39d4357fd39cc3c8ce73c7572850466),
(0xef55eae64a07199f1a3f34635007a8c38d39db1748af39cb584d4471d3d32e18, 0x9d31abdf91bfedda03c1f02aaceea67221d347f35d35504275452c915f4b19b5),
(0x7a8f75a941182eee4988329556588c860302154870ecc05b31b83a1d74be05d0, 0xbda4d0acac72ccc0c07270fd1c2bba004cc9ce5a00fc927f6d4bc0a9b2fb4a64),
(0x330f8a4a582dad9c0159e0f9a47101b9223fed7f896679e4f764b02b3d1d9eeb, 0x50695f30f9dc9c756df20cd9aca3a06d7199c1384b3ede522dfa081631fea2f7),
(0x6dd34c6fb89722cd182cd5b6a0d83132056814bc7ff147ae668618e030bceab1, 0x8998216e8ccfeee278e5c0dd0e206d3b1fe058c30990159fbe3beb2a2a97cd60),
(0x66c2d4bc1e1ee63e75481e231e6df60b82c7375836d4c9e9fa99a5760304ceb8, 0xf6871e84fcb56780682bb226a8d2f46b89cf516a7aa0de012ccd981ab739244c),
(0x560ac5cbb9a55c0c8bd6a36e9dc909229297a452b83f8db0e0899577cdb8d04d, 0xb62555684574e609ab7dff47938008da5b11adaa480becaf287f2216cf1c7891),
(0xa2377a79e597dffe224988b163ca63c667827b81ccc645eacc23ddb22a1503e8, 0x7663e3014dcdbd71620ff660426581cb7e72360572b651a7103faf36480834bd),
(0x00fac987e1c77065bb1eeec0fdd92f055d10e738befbb155152bde0687c7fadb, 0xc6fd2faf683f4e8777a6166b059c4b93e7f5d803fec49ef329e1a4ee9981e803),
(0x81ee9f529b5c6b118fc6ec2388f3ecac4120f8ecd134d22cf809e2cb1e88a490, 0xe8bba9063a3ba8487bdf4a82c501449340da0e2bfda93fc2b6440b50d24536d8),
(0xe6439a0d545c7431cd8321ea420dd3d19932427d475df712529bfd1799dbc4aa, 0x6c86e739b6d0f23cd3570bc186fd9e1fe617fc418089f2a9d42d0b912b4c8d39),
(0xe08169e0f73629080a0d207fbf49a44f5839c76e7ad80a7444e7d24b573f0bfd, 0x948ce18f15ef6e2a23f2db47db402d382a4a3cc3a8a3756ac382cba4f608283f),
(0x5687e6f57b2bacdaeafe58b594bc322e70c7afe7884ab4fa4d46467a7a8ba729, 0x994d9091e432b4f672e7f711b5e0a7bcb07fae10b6e05ca05a088cc6e4d89d80),
(0x6edfc83082a178b0d9160f4cf0b0100465c29beae3c29d31e3826aad09fa1979, 0x5f4c66763df8ac3c04490ec9fcb0695be9c0532fdf526e83f27ad47b5bfff2d9),
(0x28128135a17d0e294871831d2542c2e680dcd79f6b4fafc2722b7db84ed449ef, 0x4f7e515eb5c7eb7e415d7b0283ff11c408f3f3cea724c476071d02d150835702),
(0xf55371f42d617023dd5542fadb9a91270c16ac041545db5aa18cdbb0cca4cacc, 0xd0c795cc54057d475bd080a1acbe68813263f593917e012cdc1bdafb920b3ec2),
(0x10fffd7da62de848c07b50b9064e3b31ee6a13ed996fe92d0565cc54fd0b7c1b, 0x92107e285319ce0761e5f2125724f2eb0fc61498f838717c6637c7af8f0fee23),
(0xa6a73f68bcb103c0523c8f28f14fafd75b8d399d617a68d46ad0a1c86f12a46c, 0xd18efb6037f40a9f6567c99324f3a7a7543fbc30feec025287dc862eb22fa279),
(0x2984cd0d5c4f1c063854d2336cdfdca650c94275975feb2d1b0b5bb1c7dda582, 0x041b0a868064dfd65c2653b027dfcc7550eb755d7c1f5c78b0c13493acbb4db0),
(0xa701d0757be9ff8967c67622dfa8ff9f82f7d5d7814f6c29c73045d0c5b16589, 0xada61af562851c606650101970953ba6fca0d99f42378b8a05059ceb02a0835f),
(0xf07463c9c37479e80259a32aa2e8f28327cc267b95aec8c11242a0920bf4c47b, 0x1ae9bb16e538ff691e9ecc98838e112aa2016657c7af104cee92471cdf6cc136),
(0xfdec5a7121a17f37b4c2e93f56d910a10788d2dab3cce509b3e2f3ccf141043b, 0xa62e32d9336fcfd14bab6cf326ee3f314d2ad023430768ae8f093408e3505d90),
(0xbe32f9cf9a13d4d2652d122c0c0ce07bda21fc8552c0808c23dd5a5a9ffb3599, 0xa4a73b262b5f82390e8c279b20f79c717ea47a641c084f52f1bd4f3ddbcf9c43),
(0x735a1f6e2575ee019ebee00fa4acbcc593bb6572c4db95050bf96a2f43b66f38, 0x020b1c7a99c6cfcd58b3f00a3f9d7739f9cb682d946b33c8879f041e15e198f8),
(0xa0b840b06d92eb954f0292041229b9f0f1838bdb4ead743204d8facd70f7447c, 0x383fa2d647d88c1bfc9b04a8a27b3a991a22b82f7c99fce55cf30855ed1c22f7),
(0x3e54abd436a9763e52b7f46f4955a3396db284cc77d0b351fee7a568e4774c83, 0x1c64ede4fb372325dd435f710e4dc914391da9f1ee08a21e2eb5ec182834b0ab),
(0x24675c9767f692424e1d43e301c46ecfb418fe9b3fcdb4950822362b2a8adcb8, 0x9e38e08a4359dd9aa9ddf4c08fd1147ec70ccf1f8855cdbd49f44dcf1edcc36d),
(0x016e01769f5a5c0df6db88e7fc95419a96f836f4f8255a9677ca27102330e317, 0x30641d0bfbf7a1de24c72692b70323556996bf3f1b541daed6ccfe8af847646e),
(0xa2e30015a53829d7c95d57043d6dac44bca932b7d4115826c602aae68e4ef847, 0x33ecf0cfe81236c4e8fb76e9645e482709bfa617f6d2760fdde2b11077da6ce3),
(0xcd9bcbcfb7338c753fe393d22e2e44f845a09b83fe4ce29e546f2a587d7422c5, 0x7683e5e7f990e09ae15902e6c57b8db9e2b1d29e8d3bf33af90291a4616c794d),
(0x77a00bb96abb918d774a2a4c3828fa5dc7d40bfeaee10091f5d92caecdfca277, 0xf3febab53310a2dd5dd7a5e133572b3a83950172be7e4cd6fec7575d10142e02),
(0xbe2f342c0ca1f161d15f98cbccac9f2c806c6d1bf34656b5c671c730bdae8efa, 0xc9c7a70a88ed250d6a7c0307d3dd907fca8b399d4affce18e988ce5ce0efb5f8),
(0x0538bc08c3c775bd33edee48c96c6fbc01435b0cf00aa42c6c15fc7c5540dd6e, 0x9d8b1293142833258d676a92d479ebb2c5ca171da43fefae74c7740c7e956eb9),
(0xd5e26827fc0d8283ee02037656e83ae13ee306db92d0bba16b3fd99c7af15578, 0xb41d4816b9643a410c4f8c5f4121cdddd7eceeea9f2156ff676d6d2b61b7d210),
(0x7d18f6e995f9077fc371fcce729835bfaa903ef6682404da0bff694904b7faac, 0x1423bd83089410b9a2cd8c3d3d13b495d856b103eeb96e648c258ecba77d581f),
(0xfcb3cd95fb0b4940bdf0bd4cff534d9426489c72953b19d0cedce3206e3eb556, 0x46043aaa3d1ce85a3009911f763f49bfdf3d7fa6347f55734c6c36cf97f15702),
(0xa0e8413ef66527ff12f6de1d2ed4eca46617064cafcc4e98495f269434492800, 0x0ac640fce3d5d09454ee681181f8bc5f3fb1bac684c8c572b24fe3a866234d13),
(0xfbf60da60aecd3cd9137b28cf7bfe541efe60e6552470f80e301884c1e9cf33f, 0xaab83f4c9d9e5ed9ee35be7d33a02becebca4f408f6fafaa6f385a898f7d846b),
(0x771c8d7f73bf2b9f4f032e7cdaf17c39c375ce1d2e180758fcffd82b26fe206c, 0x0af22f29ac2ec5a80ecb69e2aa954f4963d4a58c2d6769b25255e9ae2689f756),
(0xa30bea5b4a911ae8de11a310a9cd36165414333730aa182e0ba756013d12ab80, 0xaad0f1fba9a8d6a571301b1bdd11f4bb161c26e53d3d5143ad2678f89960029a),
(0x55d93940b0a762836aac5bb8c04f490de7ad8da04cee090ae1f381e85c13fd27, 0xf1c58d730b90819bbab9933d60f543707a625449d637f01dbfcd6b44bb467937),
(0xf6b03260ae0373f5b2ebaf151a74369c2253584413ec4356ea4a9a32f2132f81, 0x4fd750b37f377f977b62580b6ee7176ea720a4348df7aa86642cc6b3963cfdaa),
(0x80f7aad43deccf41cf4540db97150bd4f4665ef772bf6c4ee551c566d11d13c6, 0x20a9b83667cbb397aadb1211fbc9a78e2e9983546f26340301d844e7b95766aa),
(0x4f574d76130e2eac16bd6b6485bdd2fc88855c3c68a232b029560509463f0c90, 0x33dabadd62ec01929fc3ad15587150e80ead8518327207c87ad2a7ecc712d268),
(0x41b6872ff47a0d4a764ab086764e1844a8b4c775cb2bb06f643a7c135a633e6c, 0x301d54fdd55c92044d337b83ff17dec33faf0bf7ddf7b5c0afc8934f65d54e17),
(0x9f4c75f00cb44460ad14d41676c8b60a1ae979cb1ff6a506b5523cee8acb1bbd, 0x253d8a0e985fdeba1ced50c7aa3724ae79c75c6d7c82315e65f3b5795fcf70ec),
(0x25db3430667796c3b5f3ec0acf4f11e473518ce9aec199323f0c5adfe32f4a87, 0xcce88dd2ec02e348ba569fec15a3c527ba580e44c32f25cbfa6f99f2a1eb4250),
(0xfa71cf1c2312c228c706a7a02dc3b9e2f571b4680913b9cb3fc5ed1a0faf730d, 0x156df61d752533f7afee278130763eb945a6198ba78a8288f30e381ba809eb61),
(0xf5d3adb56d77855d8e0d0b71300e620cf96a45f15948d97baffc3ad17226294b, 0x95fea6425be2e987968f54f8f3fb30f1e9a1ba5f057b68b1101a5981a47f9f4c),
(0x0907eec96db952f0eb7d0436c47f5980dcae53faebabe57caaca00e010361460, 0x1cefe28619dfb7f1969c7618e0ed4775e23527df6a2147544cd066a465f92468),
(0x0abbcec436e06bc7bb92dd79bcc5d9d773189ef92546dfc454b5d6242c96e8cc, 0xd1546a381f335077ef40473dbaac9c3766aba23b8040c4c060778d138603be7d),
(0x42f1594fb1e088f72020b68f7fdd9027b9638619b0320410fc4bec4f4fbdda76, 0x9a417cab515a08fc9e7a7c647029a4579881caebdf8430bdc1712af13c6b02ba),
(0xa4aace90751aafa1fe3e14b9ead1d460e1cf029dcc82afb24d1692480e63f83f, 0x97ec83afdbf32c34df9cafe7de0b6ee067460d5a0607e1eafd13a96d51999d54),
(0xac7ef2c956b41a0d824999ca550ddce083f2aba408f2bce50644a579c0e248c4, 0xd97b0ee7f3a109bc0bd308b3e4d4ce2ec1a65878e7e5939a76c9d8f36959c5f1),
(0xe9cb9aa0ab09aa1c18daf08fbbdd045725d4ac958607a88e5bb14c1d61d826bf, 0xa1cc215a124e31c2e426e337897361010b739a56b6d4e139ce65272e2e4b9a5b),
(0x885de0dce9700b349e10dc1768f9fe122672ed3bff9d20cd93b98e38ebcc67a4, 0xf66a36d375272f66cad46fcccc5d3df68c023da01ebcf7660f4dfbb0060e1eae),
(0x8ad4ade1ff9a19a4fdc89e75e4cb61c91485ebceb1e4c063ccb8001ac5038e6b, 0xe02acfc219c22881d38a8232fae54d82e0b1fb77e6b8b741890357c5be261ff0),
(0x5b395388a62979a2b931f2437f3f65ab292ddad7728e67c0e753565e578fa354, 0x7e77c8a97c274030b22e802ff0fd69f4da65e54ab50953f8b9945b7920fb89f5),
(0x271982cfeb593e95017a8fa56f62fd23ddb6c7b38e5a87e3712793b6f10a2d14, 0x6661cb55543414dce02b36508660d54f48086cbe4b5170920564188d6815d2ad),
(0x458be91fa61f477e47d7b9970931c99286281efd21445349af82000058b2a93f, 0x48725c06e7dbe303f0c73d43a5a62b6e0131d0042bae9dd9ec12cf978df04c49),
(0x0763f00b348c1cb9e922c6dda7e72e228624fae0158af602457fffc4cb0bf3c1, 0x8119c3e5b190c6d87f3d706672136a3bd0f1b198d9f304b4cfb383ece075de74),
(0x4fd5e9e277fdf2608ece726810343542312773f32518b3637075fe98dcf7719b, 0xc234141cd3e83309539aa9062b17ee3599a3246d86ad20d62885cfaf5a88162f),
(0xc578afeea7e492e630ca55ff8923d9d09a6d05835553c61dfe871b6de1d956b0, 0xbc2d5e2fadd48f2a50e357cd4d4c120ee744fd96dca0a959c0bf482e2e081ce5),
(0xdf02c64e7a60b87f73b4add85ad93b40bb6a862c18e0fba43f722650c0439107, 0xd86dc018525efc690cc7b282cd1456503b9bddae607e14ef3e380d53c266fe29)]

/-- secp256k1_pre_g[7616..7679], /repo/src/precomputed_ecmult.c:7658-7721 -/
def g14_7 : List (Nat × Nat) := [
(0x9471f48884cff3a92a99dcb94cad96f9d4761570c0bda860bf1b0a9c32a27a4f, 0x23471d9f6b3905a26d9481ecdfa10a2e7c7a5405119dc8dbde8391402e063e13),
(0x6d1b5784f58e5393fec90c50a674278acb841f4697da9eda12013447a2e0b863, 0xd052c8062905ef3f6302892f48b20497e89cf7d43c345ba594233cf82586a17a),
(0x94eef4c8be62756017e1363453f733a7fd590dc1294cefb64d8965fb3d2ed1d7, 0x49a1e5e4d72e6a2114e7c4d0eb9c9240b3b988d321d2999b46a562e61a203c97),
(0x3206fc87582d126792c2a68a7400a29f61097fdd3ecf4cdafe49599387ec15f7, 0xc9a7af2b88df18f40fe453bffc4af355519fdf219251bf6f879f291c32a38eb2),
(0x00fcd21545f8a36aa5a81bd71fb1804db3fa112cc21542de27cd34e70f7309a1, 0x191c6b9a42b0addabacffaa989bbebea3424a3bf11345ff52af9c3fb06193ad0),
(0x4432309a40f6c71fcb7fbe26d63907780fe6f8163ee502642b2027c486fee04b, 0x550981ecb4d2f6dffd25f26e6d65f62e5e549c1d79639c4cd07b62822d075847),
(0x7cbff7487bed64ba7d6346f918e239920a3712ed1b7cb89da6c0540a335b582a, 0xddf155a2bfb25607ee6bca12f6df2a01985134459b353c609806fbbe2d9fbdef),
(0xf8cd164bad3e65e36336864576c49035a95f7928350c855c0fa534f680709789, 0x25412c8623bca2e98d5531eed57c80c3ab01abfc498cbef30deeff0e0ae6912a),
(0x6fad2644990a231fc27bd67836ff84c011fdec01120dcc0df114b0321d60648d, 0x6beaeb65ddd28481a23af85a5a417323350d057e1a574b0f5d994816844d9d98),
(0x1fbf086ed0adb5d19c49947fd019046b289c57031cf876d08cba81e307739dd6, 0x086e35113d4593f7a8142c458e915fcd685efd0bf8cca8a079ebded3f4453acc),
(0x30cc2cabfd0a22442c8a6e005b6220e54061dbb14f8ceabb06215bcef5f5b312, 0xb5a1f70d4a05fff99716ac4457a4342e7d4bdef26cd07feeb515c56b19fe72b2),
(0x156efdd1901ebad970eb167abb99ac5c676a09293feb0b378ba19ba36c2a3935, 0xb1d3945332f0e10715d06df2d784b1c3bac221a7f184bfe24824a3689ff33051),
(0x48682e296b8e8123c9fb62465e8480d554350734bc763757f319d40c87f2ddfe, 0xefa5e5e2be832508e71b15f53a7f1d77773129e2e57b2b869545cfc9a20360f8),
(0xd188747c968b67b188958f37b9990bb31a54e3d3e3fe9e067aa9b1a087f5e3d4, 0x6d60a04925660c2181efbbd56a4364096bbdfa39b37f70e64d13f3ca6bc76b92),
(0xd7cfeac27fdb5922a5f534c2b1d325a2903217f2ff41b6ea1e5d2264008095d3, 0x19618c6687bb0d9252133c8426fb8aa64fe1355c86aaea97b9ef49fbde063e75),
(0xdd79595127b0ff8694dd131ce85ca6ef9aa2022dd0c7f0534c83735c43096c02, 0xcaeb4cdc2633b01f1b51f7e6103ede8ca0ccef5de33a8ece5ddfba8f736e2adc),
(0x5b2bf2079a3197075249685168aad1e9055824087e5d361e87b77900d9c63939, 0x728df41e69c939fb598036686c44d0b6f102dc4dee146a3342e1c04c9b6e30cc),
(0xd2a26a5c313aef0d6ac190cb11c84771abf97d8e0c7e6e67bd3313fd15c2ba11, 0x84a1fb571507d0129d98ebf534fac8035de7a43e48868269d5e9656a773fe768),
(0x22c22c99860b2b6c630487f205263e7791b624500290e9df0379efa71edadb52, 0xd2b227b3dc85c1a1ed64a7e56dd6b1780ce0ab5e68647b501178ac784b7d1c93),
(0xb811b039d2cf5f3b95e38e2e14da67bc0417cfd8623593ee1f2e924fd9a064c4, 0xa860653dca39030e8c1ed7bfaeab73f2a68cb8a05263aaf2431b6f8d9c862a28),
(0x59ee23c926b38d6dd6c091a1d4adcdcab3a5a548a5cdaf92fee9fe2bc3cc2957, 0x6746231896e4f10767e39d47b03268af5b54edb09f9e8e0c3f3f89a3e9d204cb),
(0xcc79ede7ca5a9ba50a7c5114d2039d5ec6a54db8fee6c102577a20d918ba857a, 0x02cdc9803a06af30c19b262a12f54132933ec985afbd159845c40be32e24861a),
(0x1319c7a62f3959b4cfee1223b225c6e909070753a1ad33d88f3a8b78a886f7da, 0xd8a75f9db8266ea42b6502656b6c0ee97f3598d63d149ad69a5829e2f3c29085),
(0xe4ae90fd74e9b229b9100cef1da59b80753b4f0acd7790f634930a92b1eea356, 0x370f1c980f72e69873c8d0a4e76fb117d7e5a9a40d13521ff4902a1bed3688e5),
(0x286a98b7b0b0527c310afd37717b5061467be24f8a0b552852ff26eed658988b, 0xd10699bef79e800a519b964a163cffb9722c3ba5b56694a5c1a9b883b32965d8),
(0x9b8544b379746ba18524e0842d15b85346577b817084e02f7d0cb8207448f5d6, 0x8421c0f2ba15f648246f9cb73b10d6db1de7aefbfafd9b5216234dab8e70218e),
(0x81efaf7b50a18c8c02481299bbd2adbaf3510ac4f871c3c0f849ef6d4550681a, 0xea8567a29c871ba7fccea923fe07e8ba2071d7db25d33ce7a6125c0c2afacd17),
(0x6680fbdbdab850c9115d5765344f1466b88cc5dc08de9fab549f281e0974ed7b, 0xc7871b4b2690f4ad1e67ea81e2cefac2988082d8b1c70e674389c79abc880368),
(0x4c38ce7ba8e3d3176f615d6e27578edc746fb80e4701efaef7557469a1dce4bc, 0xf6e73d7361ff540710dc9f1a4bd5c1eba7d8c8d645f0427ea4fc3e453990b88c),
(0x767146d6bc1d5bb9c73321b54cf6bc61e8209703fe4dddf72b3d6089da60be69, 0x86df7dc36894f88efe24a4eefc78b1e0fbb5138d31666be797b8934f0d0b9a37),
(0xbffd4856360c02acee741a650486d5a744e2a0059db5ef5ff87b9e183adbed20, 0xc11246aa3bd4ec3f071f88d2cb3b96ba2c210f90d8234c2199bf7781f96ad781),
(0xad19b5f745556650eb496450968d056afbcb55b68852f510ac96df54cdc677c0, 0xf78295f859445c520d6ea2853fe9baa05e453bf09b3f4d286c99e85862a04bbe),
(0x5924f679bb94f6dbd8232b01ca8dfbcb37a83d24d0e7026fb526162dc82aaac7, 0xbaee65676a526460ec7563ad42482d37a42f2fcb0f4a5eb70b37b515a6c3f1b9),
(0xdee240eac90d539989d3b3f5764e06801e601a4df2c0922621eb0b7fbb53ccc6, 0x0012668b72cc139f5f9fff4cef24b5ecd0648e0364c17417f35bfca8b819316a),
(0xe288a00be18b09879765940ecaf8972b1a09f67bfdc455c88e3b4ed9dc0dad81, 0xfd81e0a5adf1df8f42c648256b107d44887d01daf4cf89c91152912416a1e4e0),
(0xe747d6c73f5366ed241501a0ca6dc04aaca7241d8effbd947d3e6a0d0bb6eadb, 0x9954822b15f4484009c9e73d977221941eb6a2180ef1ef4f269ab1188f9c773c),
(0x57b8865bac78b9a1c244452e8057be3b4fe2c6de9ca9a295ded043772b61aefa, 0xd0e461728828f0d3f1fa808b1dea8516b0c30d934acc8c906ca2bcad303f06b7),
(0xabda4b3847ed5cee7ace4e8ee652336f26a8f4bf4bd610f6e87e5936e4e8339b, 0x8860963b8f266c309c6a00c6cdb440480a9a1b76d0a5a652b4453f7d330bdd9f),
(0x7f05f2d95621d06ad344bf917fa8b9c42ceafa3dfabd0620bf7086fd9539e089, 0x0298ec6d8d5a95068d916678dc8e62b37b6fb9ef7967da8a8419433f79922f29),
(0x99e4f06bb8845bb21263857363f7cfbf03f1557044256dab21b5a8fbc43e2453, 0x5d76066a86d5c498323af9282c3bf419acb758c97883d2367d9d9e3feb8e1417),
(0xff994b1f6447ae818bbbf97b8b6d655d900b04adeec06fc1f57eab7095375094, 0x6a63980d3a9324a19339a073977130ded0fddc505b86ff73464dae04c3004a68),
(0x03e9af52f00d19938b6205dc7b6f8ef331d624dafdb2f09dfd701b78ed8b0471, 0xa674914cac86037bf0585de4d867424aab9841dc83c0ca8f347e16dc1407167f),
(0xeece935ae5cd4afebaca699863c5e8c2e0b338a3e2ae7dbfe34102f6f1c613f8, 0xbe70c210b925dc66c8546e65ae9600b421a9f668c3a09a018bc5b88b91cf4d74),
(0xbf10e6257d336eb4a962bd974cbd9f1076787b8b905752507f0cfc2e121d1276, 0x1d93f6298ddbce2f1f670326265c4ba0f7f5256b472412f7a24f999ef4e1c64c),
(0x73e43284c80d4ea5c992ffe3cdce4149d490843ebbac444bf47ed5a73d6e0bb4, 0x82cab83bc7d2d2bc8788161854034d7bdab132b06340b316964854b7f2ee3e6b),
(0x05410340b614b67663173725ecf0b8e167c2de61ce999639be2051dd2695f8b8, 0xf191ec959d6fd8f4eca243b78d844214976d97e0652184873366ca25f2e6a091),
(0x203d28e2694df7a56c9b9d42907c1e02192e803077ead7818198b2a969b127fe, 0xc06fb7ff2361ac16a884f0a79e4f5a19b0b5b2079901e634be237643ba93852c),
(0xf9a1e3ddf53e41b884f7c4e2c2b471318d14705a4e7362df3221222e6b2c1921, 0xcd150a1aabe8ea0d853245eb509c1d4fe26c54b698cf9aad26849a7de63b6264),
(0xe82e5e89db35aedd04d63b7e4d55d637cd2eafcff16ffbd5b0fd1444c7c783bb, 0x6701a95dccae22722a834957e0a4a3b83cf5ff19002f41e81619dc46b8238cda),
(0x9fb768b716032fd7f21315b779776882767d5d64c9141267a0ddedb155d4ae08, 0x13474a8f90fda6a343e3ea230e858327dc2f4c404a445f774b39b92da312574a),
(0xd0793463ca7cdb503622f1cf9003279452af3fa81866e536159fd23eba6082d7, 0x35301f6b66858d6a3e97480bec3d2a538dee8465ff5c15a901144edea208bd0c),
(0xcf8fc191273383dff1d703f7bb237ea6cb5d13078ce8ae6267fd20da4d845e05, 0x0efce6413bb676e55c0b64d7589ad77123900e0d60feb71f93270390ec66ecc1),
(0xf12aeec755a7138e4e91024a3006db3deff6ec84ffa73d96da21ef00452064fd, 0xf0f0660a22cd7cda25206f10e82ca0053a40d539472cf41cb86ed8ae3d29abd9),
(0x3c40f94dab460ccfc8e47a1ed015b074ebfb6142fbbf5b4de77aca70be67c57a, 0x998efa4e26df60a6f1a466f4c27b2dcece6367b2e05a5ad9dd71ed8b482ce55c),
(0xf2fc6db049861d3ca01a677822299264881849673802ed49503857d22860f00c, 0x79f0f2451cc6c5b8d36c330aef8c9c84956199111d4a01a3d93633828b609576),
(0x35d3e3c029fdc9e388da1cf3d52df6bd9ac0ec9ee591adde26d3e414f4fb92f5, 0x62ba23466d19ec1b64d2a6cc9822feb8e03df1783f526a9a13d10fa772de3219),
(0x5628da0bcc2c0583902a56ae711a2217455bba47c7222dfed60580c6461b4ae3, 0x1cee8f178ce4c7f98cf2a2c592bf39aa57616913bb66f232a813904e7b574ed9),
(0x7ec54044c3fe53ac8437a54000968e0bb725e794a8c240c65dac1f124ce21be3, 0xf6290891af9af62d05dfe10bd567af1d6b4b22f28177a14b44edcd0abe811c0d),
(0xeef7a7c2a0224a78aff7c61bd23792597b307a20bf1c253d6f03d57fa8a84203, 0x5c7d6875905e26dd002fa4e524f73b006f4bd0b6786639af5d222411bf69daf0),
(0x3f1e645938e4285ded30be981d149f6824b264c7df920f0cc5d776df83228cc3, 0xa6a5df53856be61925e42d582f70556739c3d7c7a6e222b86385b63ed1316916),
(0xc83ff186ae3f42d5a2c39b437712d60792b9006ad8bbcc8997bb9b35d1663cc6, 0x2380aa5244674eae03d96d65f484e7a762cbfa1096c5a3139eb4628e77b72d40),
(0x41d20761160125aec669b1cd395110bc0094e09affb52ef400e7e86e1f4a61a5, 0xc8509f712c20aeef7399d11e7c438d0e9b4dec7276c1013ea4c76d31ee5c7496),
(0xcd358f38d2cb11f29fb54431dc5adee6721c444a8fab57431149e5048ba0dab8, 0xe6ab91a879a51f40cf75e405e508cad8ec54dbd82dd4115cfda7b255b1a6fe1b),
(0xd1e1851dcc95a94ca8c77b425b4430a1ac10e526e3f4c6dcf20267dd7c5f2d2f, 0x889de78943c6674e6bf284703ef8867c8d827681d2df8bd775384ad715730ecb)]

/-- secp256k1_pre_g[7168..7679] in pieces of 64 entries -/
def g14 : List (List (Nat × Nat)) := [g14_0, g14_1, g14_2, g14_3, g14_4, g14_5, g14_6, g14_7]

end Secp.Model.PreG
