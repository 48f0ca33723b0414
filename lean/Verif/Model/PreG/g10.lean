/-!
Generated from /repo/src/precomputed_ecmult.c:5162-5673: entries 5120 to 5631 of
`secp256k1_pre_g`, as pairs (x, y).
-/

namespace Secp.Model.PreG

/-- secp256k1_pre_g[5120..5183], /repo/src/precomputed_ecmult.c:5162-5225 -/
def g10_0 : List (Nat × Nat) := [
(0x1cd5ba80fcfc77c3d06e230ee7ad8ff4f9ee6c60a71d37b83718d8b315d5a4e0, 0xf90ac11830b963abfc64492b415db7e347eba55ed2c5a64f578a13eab4435cbd),
(0x3cdb43eab7afc93624b8026918319fa0e75de21ac0587af3541e492f1510257b, 0x49b6411ac74a2eb3ac2ec784feface518d5a5bd60e76d694bf5ab8f5c146abfe),
(0x165b6f5b9b1e6d0814e44cc7c7969297bba7c65958dc32747e7c4148e30c09da, 0xe715e4112e6cb67d0cb8e1ad997691f3bd6119c13a5f03291ea3928e35c04551),
(0xd4c1190dda3c01cf6c75fa067b4dd1eee645a0cc8b034f4b245806618ced0bff, 0xc837ed81b6a0e5fc6a02d6d5f837db1a20eee55b41ff531b9bb642d052c42bfa),
(0xf7359bd0bf7db6b048f1a040a0163fba285780e7909ab6897963168aa7de9c29, 0x8c71bc3e95ac0f5254db61925c6f9112759635fa95846be46a28573e2b25562b),
(0x4d54a2f6dbebbee38950627e08cf2c656ca071e786687f3ba0a77178be14c55d, 0x6579dace073dd14c695fd781218786eebad84445ccd910d343aa2478f5576671),
(0xf70b532ce7203208d6440bf855e1293fcc6ebd7596a04b279fc056e12ee32dee, 0x0e9d18f7126ed56b4a6571042441bc081778736b91062c9fcac28cbfb8737be1),
(0xbbf3ff3e577aaf34157e32dbd977b907e62b16b51ae0abd4f14e71fccca11357, 0xcc1a78ff44af7c2ccdf174239b3aec17b660ff2e0fc079532d9f9d6e55d3abf7),
(0x53bb2321b36d1dad226ceb24f55d4292be245444b23496115a64956059729700, 0xa5db4fb946c4a2dbb1a634cc04032b7bcf23f7d1717a0ee96c02f13124f834b6),
(0x3b863ec55e4ff2cdd32cbc816e645009da4442559bf962672cd012e115372186, 0x914682bdd6a052bc25cb4d41e9bb28ed76e9aa553f5aaf2575140e04eca69fbd),
(0x4cc4a750d641c5745c68a48b953ee51a258239b2fda1f5e0808314177b837946, 0xcd6f665f6f32246a1cc8fa614da2783cf4c7b92c4f42749eb6bd4a8d8a84c54c),
(0x6f9b5d79efddf08d26183b4cd6001d6bfdad9e8b00dc5853f3a8c47e7e6f9e96, 0xb81148f21e50152a8cd7727cad14862a37fd186e2054d4c4a4cdbfbaa9076991),
(0x9e13d0e044cd3fc11c7596f29946313c918caa65bcb6387d361eec31ebaa6977, 0xc5f556507691bc2ab2c9e4b8512f728224276490257288c52387fee554bc9c0d),
(0xa44412920d0e0db32a4f33c48bbc5fbfd40650c8d9f5c4f488a1f69ad71571bb, 0xa23ef48d38abc24c608dd6880d524beda3709a5b3567ef3be43f0240796b7ad2),
(0xdef598a50c4828c516b7076b9682aa824e74ab42e4d4692d17c8f28967f3cbb4, 0xe6b4bf286dba0803e4a97a1ebe55a088106604663d7726e9300109eea1d62a49),
(0x8e991fb7372df8d77b09436d0c9424a85a14888b583b3c586d2a19e691e75b67, 0x1780f6e9b8379b0febb1328a69a968789f58b45d8e3ff21881d753f48ed6c43d),
(0xbae09288e10351fefa0b0971400ac3d1a7eed65ab11d1ba48a1c6240bb981114, 0xdfc2979edcc2de8cabd9abd227cf73514079d950aba60e3bf4c775ac72c30f4f),
(0x4d09ae3cb484fe27411d4142e41de52302c54c42b387c7c2cf42a23ee7611fc1, 0xb94fa11627eaf5ab8fb7fc251345eb288f5249e5ec65e056d60e129441481375),
(0x32f57ac403cb29fbf8a00d8bc95da8e83f0f541ded6c9e788af17a146a2704bd, 0x2a969b589a3f9a5c26b51ab61a5717bfc06eb438085e4f4a84b903b2da5bbf09),
(0x595503aee179f59ebfc581b87ac18e1d55b4c79487d90d62492d3ea11ec57579, 0x1f25d8bae38c0a6950a17836a842b418b0f7c3179486fb169ba11b23d315ada0),
(0x5555fae06f1563af238184c9304e26ef0f8b2121394e685679de679231a56842, 0x6840bd14faf202c6606505410048bb87df27b9794ec0da669ded6830b0623980),
(0x714321ed2f0432f8a05c33d184619de5f81fb8db95ab3121c24fc998ab9b9ca4, 0x4470cdaa7067de2ae6678cd06d613e1935b1edf3bf278205da69ee8d6086c2a7),
(0xd41b84d509a0085b86e88fc1499151dab0b9a57492b01df636cc2288313bb592, 0xc04c54d2057fe5ba691f6023bd72edaa20e71a971a760bf53c990a39f5ef7c23),
(0xae34a065b42f5158e6a5b91b9ff54b0e6d5bc906f6d18c3a0082865ee9038f34, 0xbf2c90fa306398112ca2ed02b7ad090d8bc990dbb6140a05afcdc80cbae8490f),
(0x9b3c268203050a5200a164abf4504ca47750c889b6465f95658ba7b1c279139f, 0xee36938d8a67582451ca289a55265606cb9ae4fc8cd274aa41db5ea99a5b4299),
(0x27dc9a57999ed109c3dff97858d44ab273987af70b617e9c766331d5c06e0dfe, 0x4e97536e67e363c8add0703000d5906133a726de038dec51e5a2000961ee0fe1),
(0xc3415e9f9c823521bad3090ff2c48e8c647e438d70397e5f07d7a6f2b7d7d4b4, 0x8c3bb607c746147c0d5efbef7e27d236c406311689794cc040c235b46af412d4),
(0xf47e44dc90c8bd2f150d9dd3e492239514990fa1f2fc361ba24f853ab37e33a0, 0xf4282a26bf5f358f2dac49568bcc15a0d7eddeeeb43e6fd18f35d5e54295ddb4),
(0x3cfa945e6044ec2a0da895f99dc245750deee57edf8b1a10a2d2ece19951a812, 0xd0ab59a746ac6edc69307a0dcaa00aa9e7b73897b89185fa09dc3899ae7e3664),
(0x29df81499d83bd0f8fe61eb808f0abe096a75e5a2cb0a0a976d8d27b6533a4ed, 0x7eefc80b63f927c20e905a5662d5ed34e9bde8ff4402491f19215c9d494e62d4),
(0xeea85a80566d13bdda65f553b20776070c8b91846a5a8096f57afe93ada9fff4, 0xb5389645fd772da01cf3b5356ec40279cf76d81211f20a1671d7ecfc441d71bb),
(0xe1a69e644434db7a54550d44adc43682c128c5603907615b9282cf1ee2b74f82, 0xbd434a85984a6e64441134e6d1f1a3a3adeab658c29af8b54bc42667634d20ee),
(0x2d99f69fa7e9f3f66a53eea4381a4c80ed17e8e104507d7f4a80ef25293c5fba, 0x25a6aff9a23a406e9e34ad6a21627acc96b6ceb07896382c833b8fe48e603e0a),
(0xd24821271554a14a07283dc81ca7017942a35cfac8659b2bdb78c42651807cb8, 0xa252027f3fac319fc767652e469421b8d34decd9c9042d580f8aa0ab70e5ceac),
(0xbd030cbc05f0de61ef194eac38f7443cd231f75aa0b568c5416c5b8b0917545d, 0xad0833b104f1e23a76c0626e7112945560fe62d74b3a1b9569e4887ec0661e78),
(0xafb44b49ef00b1e959c7a86419d2a4db71d9bb0c004e17469550d39c9a37a161, 0xeee390a9530a5baa5350019a0f7561858038c2ee7f78c365dd6f62f0f0589aa5),
(0x9e584f1be06ea4d65f8dd96f0206cf4b88aec6b9ccf0677953acf11099e2165c, 0x6994ce2746b0eab3d8608ef933b613390d3e589bc2acb7bdaba3af72b082fd24),
(0xd2265b51b4f7f4ce001d09660e7012f976433dfe444b23519505b29cd520c6df, 0x44414498df439478328b330b6f8c6876682b6a32b5d013552494286ea635bf65),
(0xfcd5686758c797c83aa1f1d8a9ba34a88e624aeb666507fe706b310f3342264b, 0x680e0b98455f0e6494622fa9e36f76d4863a9fdba3df93afc688c45dfdc5967b),
(0xbb9a0c0c74db0525370e82359d733aa3494afc030fb61a1b7c2536ed9903fd91, 0x239929a21c0ed586b9bc8f03af422994f81619c6b2fe637fa511c07cd9421603),
(0x2358b0781989d6b5666d91582fc640b113d52e61ea2147cfa0a103e15ae80db0, 0x73f84f47a78fe2c6e4d01d7e3dc10065e052401f64796358c784d59f742cc8f5),
(0x0ddb3409ce3184a6d9d7b4c2cbdf32efebea1be3595ba19c42933882237dae94, 0x592154233760cdf0513442bd2fbef84b9c8c0fb1ef16fa31783d4dcc50f24f24),
(0xf99aaa8d8d42ce5986ee8ffed4dc8a4881810a6fcdfa951946f008574ab1c3c7, 0xd0f29fd1032bd65d7f9820b6830a3e428664f9e39cb257291adc36db4e177187),
(0x8304209346ced0d5a33f491ac98aae7d51f17ea41e5722cd29c47f1549c183aa, 0x1f680d05ca015018664dc7674de0305cb09efffee7b164c8c733d2ed18c15d8f),
(0x339f95d55e293243ec10b3a9a8dba385dcaa23a1bb424bbe4c894debc61cc881, 0x3a4ec84d67831768e9ad1d9ddb82f78552883fd8b0b63bf838495a4c455d5865),
(0xf94de87d1123f6b697d4536f7bb6a995ff158060b7d72b9b3c9d74c71afb6009, 0xf123cea4bd4859b7a852270a17c76c06e6050a269c035bf36c505fc41fa81066),
(0x71341ad1bbebbb4a17a7701d30dcbf7e2a70b9015f6c5ff99fb614c3d3338fca, 0x06ab14a04b4956d4a687acaf30d7997ecf70df2cb49356fc5b86453c05ef6d55),
(0x79b8571cf52ee30a4d3632d4965cc6f4cc6ea06efe1cb7a6ca2c9c9f1e835bfd, 0x259c0c7cb8fa834557febdba2183042e78f8cfaf24a41dd82eb0ad3c426683fa),
(0xf3ce9dd9d879e70e21737426dbbb27c97af843076855bf4daf141d555006e402, 0x302a436cf8be3a4fdd70a9d18f63cc8b0ecd3ba1ddc9aa3df428523961e7553d),
(0x4a66f7b152a8cafa78d0e98c2f8361b9a0bbad470d23b24f5184477be90d6318, 0x7555fd5e876761548f7afd4a33511dafb3bc4a720c9f54d492327a2cc235c02f),
(0xcd3b40375cd6da61ff432898fc592175c90fbc31373489eec988f2803459bba7, 0xb0e86ab22f2d8d975f68a7ab03ffa3be511390df5b647608fb07f29d3155728d),
(0xe96f166b84d98bc541ea8885f7a48612227bc907795782c5d0e2325d96cb44a0, 0x18ac220b8def89a1e3bcc2f27a66c0ab3ee27c3b882dc16fe257196392b94310),
(0x87adb3fc7fe6b07f795bb7d7ab8383eba3f91564ce89d267599657b69d793838, 0x68677ceebc7b3d09efd0f1180d392d0fd2d5f2bff2b50230e127acb497f5c886),
(0xfdaa2f5cad1da3c63d241a7ab4365e638eede0f8229a81876cd76a3a7020c545, 0x5b04616aa1a84785c4315ddada6289bfe57cb9e280c42395a1b13d69dfb2ddfa),
(0x7eafa9861a94fc8fd263cd4a1e481e1e8bc1a3850c4ab7488715b0323bcdb52d, 0xd655b3950607bb0bc9092364803798d817a4bdc9a30e284494be832242af9949),
(0xa7fe465698538c32844337eabc90fb49feaf2fcb8b86da6cd173bf9a70e62a53, 0xcfb26d1d689a907555057ab0d4261e2cacbf30d6cdd09f959cf1830e5d635aad),
(0x8bcc3b82d543f365478fe32fdc9860f010d51f74b7b5344bca6b868d3c11264e, 0x006bcc32f7ff3e48fa1775da44b64848f52329d7d8bb0a09338b799d7452b4af),
(0xfaf9aa3ef1ccd6592feb2adda1b58ed827511b39bb981cee4fbe47db5cab2917, 0x854b88e350a6e9a1fc7e9e45f3fdb69c8111c654877cd620fd82ee18ba2d195b),
(0x77012901ea2690674d8b4397e8976f98e33b1709c81624a07916da35af75cb29, 0xb63695d7cc896358e119eb987dc0f67e22a70c5b5e6e2072e61ef62f09333bc4),
(0x127602edf5f1a04b813e2b6b2c27f50f803b70b7b9525b7d902f348ec03591a4, 0x1f791f7d02427532968f7a08f94df6bea95b7e6c5490fa9b5eb5a3f3207455ce),
(0x17e82c3a3731a73b36501eaafde3ee8dca9f2573dae1e4fc594cee8fe1d19179, 0x8af0409279792fe2273e3f0ce642f3feedf1ffed59c5826da7fb2716ed365a3e),
(0x3c34e27d5d5737b778e968a7fe8e4113f802bd301e0367ea41fc8b5c14b0dd84, 0x67bfc61fbbd062ce6224e8839092a962eb3105a3b6634dcdd59c61da906a4ce0),
(0xb7a35907c7b55a8f7173a5dac73e306d64ee0f6ccf4f5c763416bd4d4f5359f4, 0xd111c21ce5a8674e3a64adbd4f56b1c30061350b44a552fb19186b8f95ed534e),
(0x6c7d483662c288127b904cc8969ff9258d9fafaee88f6d3ae6e4d771bf8ee7b2, 0xb593dc473c29694f95b00169286e3981afeae4b3dd7a788df32a14fb6e6a8e7a)]

/-- secp256k1_pre_g[5184..5247], /repo/src/precomputed_ecmult.c:5226-5289 -/
def g10_1 : List (Nat × Nat) := [
(0xdfc406d7625719b94f709993c5d150624c725ef8eecb2308bfeec0b36050bf4b, 0x651c0d2afb29eab7d4740b5e1fc2c06954ced8657a6bb9802de8d873a451717e),
(0x1631fa0f4e9fdf51a2842994da94f83552b5bb40348c706b54079073665c6bfa, 0xde2028039a8d1ba5b133ff286df237d2a8d73343a08e7c2c4560954beda5ade7),
(0xfc52b3a88f7120532c7667f962146d40eaa3e924327d959ca49b74a7da11e5f6, 0x7bf890f3daf8f9d949e800de8a3f54585aa46e2f25535cdc18170391e2101daf),
(0x6b7036e50c5993c68a744776abb0b5b331a886b493e49d41bc7d93b228566fd8, 0x06ebe77142a56189f272b6e88f70f356ed1a3d37ea2d5e4c998e47c1319e2ec7),
(0xb13dc5ee07333e3a4b13628f7ef96ae94faee9d73a46297ff1e357f6e7a57a48, 0x4f30b47499c6645633f5b5219164a890d8cdb78f8c7ee2111bd37fc2d41bb2bc),
(0x1888e9446fe20426d4fd677c5cf1043b605e93a2c8532623b5951e2234de08ae, 0x9e1f4fedd5de001b378ad1a998e31f0030af9674c383f28750172e03ea0b0f81),
(0x2495b3349884d5f3166f8fdb07ff81f99042383ddef7cab63c2775ad226189f8, 0x846850e02a1cc051eea77bbfd5f44499673f40c1190e379a9b37201c51a06e9c),
(0xe4c0e483f21102eb7dd2a78b5a605b8c410bafcdf2ee4bddfcfe13740ab32d17, 0x0b53fd34568f5edda6a3abaa2d2c3a4abbeef0f6c37bec1bfcf012c3dac15b9f),
(0x8f9bfd7a2e798812eb927fc2b0ad5eaf81a0a30fa97efbeea1d6d9ef19348a5f, 0x1eec535d1bee520a13a8410b6f3824cf7c9d5a828208d2aedc89fa138bb7c2b3),
(0x1d95c760f3fc2effdf51cf0c4b708538efb56675eba3ff8d4f6abe65d3f167cd, 0xc2bb11225016ffe56859da474b77770349e4e6555da3d9a16dacbdd2d42ab0a0),
(0x9df72bbffbcdc42eadb71d691791f07307f945e8bfbf4e2c68c5e3f605f6955f, 0x24d47aa01626b0ac0ce778270fd7daff7424d4c71d76ad3eb66d22b26f7d1df9),
(0x2df6ef967c0e1a412bb48bdbf2cdf8f422829abb04b7a42e95bd9cbe8b7f860f, 0xbace2e707915069abdecd0979d133cadbcfedbaa7eb9891e0ad3380e9ca99401),
(0x82bf2a990624e4080188da1959599de0eb947438fcd457849a731a1c15796028, 0x3b6c668ae5b8f39403ee713ca8fbfde58ef0f9fd84054a9db626e27437e611aa),
(0x60260fff1f2139169261edeb5f1d2d0ca143ca69400b277621793c11fbc89d41, 0xbec4bfeb9d09f8d5cdb11e3cf65c6a7fd4aa87f40e41d7f469717a645dcf9945),
(0x6391ed6180cc46fc33481fafd21151f3cb678e3f4d6677481a24a01a0c5e9180, 0xc48495fb0fa5962b44bfbc4f491b89a60a8588fe91677b19b872dea88e34026c),
(0x20807816758361aad5f62d258e3951c6da51889026507a7bc0ceb7f6a96c141c, 0x8526d53b61c8427beb141d917a338fe9f7789a60cc1a4a6215dc754da73903a9),
(0x1ecceb4f8acc649adbff29c0fbc62c11498c7cb37d29ed15e0ebdf03e994b67d, 0x1c701af7a9f3d87081efb7982382bed65d56b8d3f050bfdf6da32b10a18fd4d4),
(0x0be82742dcafe3caf646cf0180202cb47086e0f8ccea3c11dcccd9deaeae688d, 0x236d1fd25e05d6ab8651d88e33d18a3bcaa66c06b2b68c50f6158717f23b4866),
(0x15252ce23f666836dfb47b601e642abf6e56ff2b5d58fc97ab09f29e1b4ec3a9, 0x9a6b2658f52dfc4532e6b482fe909e47ba7b44423be4d474a524df32d6149913),
(0xb042918621f94599f7032b4c1b53bc6a9259f14227922f42fe7747724b0ee9e7, 0xe73c32d9ede68eab0e77d681dd4cbd9ea356fdf3bf066f336ff2c36759bed08b),
(0x5fe0917c1bca66f6f34bdf1f0dad88a5b3dc5f5e2e0227e65f3a79c89e66c888, 0x885dfceec0947b0171dbaf6552c09ab4c0414f8c07373ec5e3080521401ed575),
(0x455985e644d9b67985980752a13a3f94094bf9cc8e6f10bafc7a70c227ce272c, 0x47eadad315e88a999d3f5ce7792ebc102fc68f180cdfa1df564601f63b26c22b),
(0x3562aca32291c1cced072a4a85fbf82f6b3299f5026261542b41840a01c868d4, 0xab4b265611db587510c482847f72c75ef822f46c2e7760e2a46070eb5db7100c),
(0x54225801f82406ae744163737408e94dd3990eb060581c47b453a859cf63042c, 0x43834935a6a7acb49c08639124e80fde72c0a8761c13a3401a4e48a5d96f6a2e),
(0x3c253039fc8278b208135e21700af1e4dad4263eddc867cfa3532499c2c1e48e, 0xee01ce7cf8c56c741b4b3593b0cb90a59c59cbe69a48235d1295c1d1ac657081),
(0x08adead1d898eca79e043f71aa735a32763f75f6f6ba7a70bc47a2844b580972, 0x7a370bda412df63d5590b3da80365c711267cf8ce3fdd1bb91ddb9810d213bcd),
(0x8361e52234c8d62b09051a958af3f0904f15ee354b69a5607155ea4f69548037, 0xca2c329f8cb65e8aeb6488f22131c52529df97bfc8847c87471457677f82c954),
(0x97d65162d96feb36e8f0022152c92c062e97087c703a9dd70724121602262807, 0x15a260bdbd591c7b91bdcbb4c26845454706f03908fef8de9173e7fca3f31f44),
(0x2609f0725ec8e5ed4ec86128dcee3baf9e62bc24aedbaaa1eed8dd31c9c07503, 0xd51fcfc2553985077e471397ece94d92e26375d22bddc0b0d1b780a965caf2c3),
(0x820e8f0105b4ec57b884dd3e6a740d9068fce86aa48336364b65ba6e9e272357, 0xbfc87d52eaf352bb91f071ab6e9863084f197671298eb61493152f54345ce5db),
(0x2116bb767a56312e71ac58f5ff2a70711be5b7111e9e56d9aa098af40b991db0, 0x2ebd4fc2abd618d7d17987397e9b8eaf8276086c2a5066e7e7525603fbb4c40d),
(0xe43f029f97f4370d658268703f29422e07b81112613649720e26892f77eed56f, 0x4e265fe840524def23b7ed3454c6618eec70d3b192ff30d201b9b6fcb1f7164c),
(0x9b4ca4455cada2692a77f7e89aa3082f0ace4de3898408eb6a7d1cb08ac15c14, 0x1446e397d1c3fd20283f43a84679e72864f05251b1d3bead58aca70c4c0fcc29),
(0x0e2abb09c0566f517947f99b2d6fc4a5637310b55f9d901484decbb6ca22cbfe, 0xf334bda6a1d9cfa82b18f8f7e90b8426ae13e20d8834e061ab1671fe4f4665f5),
(0x03579fd99cdf0be02d7e85872e213ed33a4246505608d66f8f936ae772511e28, 0xdd93278ece754f694b3f09d5a3c32c992c5f2e04cce0a517de750a38ccd88abf),
(0xf307f2fdd0f6c0b312841e5e1e17b96647d7ca934ba4970f4f9c0c0c3ccb071f, 0x4829a5bd40555e18bf80ae66b974224932679accd0e46003e079e2e3d20d248f),
(0xa462e7509e718317dbc72b9bfce5909abdd2fc360d56a52597d3adc1fe4b98a1, 0x2f9ee39013b70415d2e6de977aba55ab1f7c6f2aa5a7b541a7101a62f2799836),
(0x72ec447a245624d11e1270ea1c4c060dc6501f1170c69f4b229bb98ce7c47804, 0xcc32a87633bb7d620e660ba559cc180410a51cc9dc48a9aefc3d822535fb8ff2),
(0xb97345ad2a7eedfe071ae18511a3e2d6c431e628363e01a521622c17e92b32a3, 0x2ba1cb4aabe0aaa9619ea8194e5c02223bea32fae4ee3378ba79847219670e2f),
(0xf417f269de287f068a74a3301433105973ee691da7f5aa1c4e00a1001e2ccd56, 0x1bb297c95b3fb72a3263f126719a82a6b8bf415ce81f68382c8b3a9b42917584),
(0xcdf7b5d5f7632248be1bcc1b61f56491e81cfe761ee897c6fcebdf4d109b9b41, 0x0118f3f632f18892d37a2aba1c8d22f6587ad56e0eacef09b920200575ab7b11),
(0x3540c9dd992dc4e49aba8fbe8f28950a24921b05e1bae5682714aa6a95eebb81, 0x841d94997bd92dff53ee3c86eafc5f6c6ffac94d3161ae862182caab8d5a9268),
(0x070f4ef337a5519f466cfdc7ae77958874c9a9a19a5585508fafe6fbd61decfc, 0x413476f778f5d37731aa712b5c866100bcc2a33fae1a078ec5e5cbc84b7bac5e),
(0xd08990b7ad5c205ae5be270063bcf8a700e13c2a73dbf321b0d9cdcaa1648da6, 0xb0aa7acc0f47376c115b02261494162ed425b496a2392aa9254655f24db6cf48),
(0x53d6c5ecf59c49fad970611db8423bbbe2f5aecbd4575877d903d95eeb88e455, 0x6a954f77532c80c442f2bf6508e9d763617c802f369f1a6234927e55ac549f56),
(0xaf7216c1e51fbfb4a5ec1e93717f73759f15dbaa86706ca36636f499416ce194, 0x4ed49771f858a8c2bad65a31b5ea5a538841553baccdced48c41e2f6984470f0),
(0xc560d2be2f2fa6d703f5224e36acdead8d91eee30b99a219a762adfda5e79d07, 0x30d4b54da96fcda22187a2bc1562d59e24ab55cef9cbfbb80570cd894d436343),
(0x30b40200c728bdf7510db9f7a8a63792ff70a9f8c6262e894ef902b7eb30fb8e, 0x8c98fdbf29f8c5c1ce6d7d4d061a2907ab57b4eaa25888b9e8ce751d6a19a88c),
(0xd7239e30814ef2365193c19edc91fcbc955dab7845b4f3acbe9942642a434e1a, 0x454dc9414500f4a0f93f751e1e2d4c258c0f10e10b4f0c6f3be39b0de5170dc9),
(0x60e511c77c8d7496a3f262f6376d3958dfdc464573aa303ea6e6672db1c21b36, 0xbf86ea8bc8a37a4ec5ee1a60d6e1888aac90530deadf40c5b4f61a382ea1e340),
(0x55cd8f355a2422193b64633c27b1c1fb7ffeed51c815e1fbebaecfb23883d739, 0xb65086437e53ad241fdf4dac871e58f3b5abb87ad49200573c37a1c40b2bd4b3),
(0x73cdc2fd468a2d2172a9e0ea3d4a04c5ab5fb13e2e2ff2e08af5d70dac9bd41b, 0x682e525d1263abaff070bb476f754da900f6c74d27f319d85d9d28826d06fd04),
(0xe5f3067603c9f6201c5ada9f6d01201f97e36fc75bb10a124cf69cee619f07fd, 0x611f0f1639aaac355e311a18a5dd65ca70e1a52f452bed2b3382ac03dd50546b),
(0xc2c21323b156ca785e53c41d10bc235b8e32e4c8ee377fc242d089a0d2a27d84, 0x6b9f3faf64331ddad25d603cd8f334c85cefcf5d3bf640ac96fe3bf771ce9cf5),
(0x599ff1d4806aa8c8b1440a929e2383bcefd9b16d899289a4a335dd06007e63d9, 0x459cb3467c3874701b86aa34c47b82147f48a0d27b9098bd2b53d7d893e25316),
(0xf02ddd620a2456e7b4a90bca1cb01e9808b0a09e62c9015442db0f52b635b006, 0xa56665406cad4d01aab99686090a7ad30b1ce936957c317e57bdb763b8867583),
(0xf332b89d1977afdcaaf681a519bca58d59852f7478572346b688d55a0d55a34b, 0x988afdb1afa1041a51ed913d0d780b215dc90b8ab5ae857d73df288350ca78d4),
(0xd6fa46794fd4d05bd6b7bdae022a970f8c3c3628ea0d265655c0ebf52f1b3a73, 0xd9f4701886512ff99c4691a1060b62e2616f5c8afa2151cbfd6dcd80308ad947),
(0x2a13e09f5c00016bd974d62f2c7c7ce9e46fb142e7334f5d98fa2428e26b25f7, 0xf300cba426636d5f07f8fcb2bee6e5ddb9697cdc9f9c0636b02b3fa1820ca235),
(0xc6480cb1c1bd41ffe57cbf57ea85415836284048e79dbb5144a5902713d13ba0, 0xfee7ee1b1652e63d0ad497368505b302f135df7d4a2f872074631646244cd43b),
(0x0559613e8111c9e80025fa96aeaf4b2a4019ea614c67446d76305484c9a4d7f7, 0xcee9f4eb2680a7239187d407f39390c64fed596cb40f58a3aa6c96e5c8c9c2af),
(0x3a95b2b1e6d19b19084dcd59501c33c24ca50b59d410d99db9b6da4db1dc85ec, 0x7a802198a5c6154281669bc0640a8f4006815d2503bf80903ed894bea1b09c72),
(0x05ae541db816522a5d347339713e92f525a637dc75c9d9b15d834f2d00b265c2, 0xe98a115ef76b21027953f65fcbbfd29ba79b43ff8cd6813ab65174d2b03027f7),
(0x88b5506a72d681bcd34eb1183d6a7fc377e7f4966d4c65dabfa60a18210ec487, 0xc29638a6ad91272b3525ab401ebcd1ceecebab3eb506cfece7e9df0c6ee40501)]

/-- secp256k1_pre_g[5248..5311], /repo/src/precomputed_ecmult.c:5290-5353 -/
def g10_2 : List (Nat × Nat) := [
(0x2942de1693ce8b88e7e45657daf88b2a2118fb7c9d2296eda1725ec2f7d408a5, 0x00778f438b4f088e0fb99cb1819fe6e7055b06418d8679c9d684faa5016970f5),
(0x25c22037e5a46e154adfcc47480a088ffb53410cdea814f8a4f2c387df2afd0a, 0x45cfaef55c5d37423380be3cc38e6785c85a90be7cc92fa7a390bca6d3e7b3c1),
(0xb1f78a73d0b935c980cd8ab3b8237e3adf5a40bd5f875f7fbcb13bfbcc45839a, 0x466141e5d465c35e37f80e57c4923c84c3a3ba98549cc8f2db6e0dde915293b2),
(0x39405322a57a4846d8b42bb258f851cb5570295d71ded6cfb803852a8b4d8304, 0xc81047d592fab5a8c6139ffe6887d966e809d2bbee3a10b45adc5587ffb302b3),
(0x7faa835231e2c6d50b331ada5e1759546142b1315347196fbbc5759b0dd6add0, 0x8779b0c92c176b725355bfb5ccf5f7395fc82ae948896a381be85e58c48d154d),
(0xb786c14561fe467754e1476656d33daf0adddce8e86e09db0ea93f1a2ff0c3c0, 0x4c5c35f599bb963775b4d61cb30da8ada4e83a562cf7d2a1fc22f06afff92aa8),
(0xea4b9a9ab4b509dad1e70ebf6604d6248b6b63d1c905720a648e208a993ce4fb, 0xf5ab83560ce28ccbb6f1368b344e15dd372d732ad895386421ce415e06f0a92c),
(0xc986010d6339bf7d2ae3e9a60c977b9aa2033a4214a1e9b3e700abd5428e2491, 0x4156f13ba68ebc80ad12efe2d5a0469aa41adc0b1dceb765f651b4b6b652a85d),
(0x385b81d6e023164a3662209f5d69491022e84b5b7034e8ea346941b9c04df428, 0x9d12b15ec1868f27362662ebcb3c9bc31626ef2236c2d75c65e82c757ff81a2d),
(0x82196a55104624b706710b4b864b738d36ebcfec55226aca990474b258aa978a, 0x48dbd01c5af9b1fa21d88b0ff6b994a838d477555ad851711a4e3d0e14ab1914),
(0xdcfbdad834d74f6f9df6c143abd6dbd457f954ef6323ff773a19c36708d6616c, 0x698d30518f8d7ffdb45f0bde0c32c22e2cb97acca8aa0aa9c16d8789a128c3a2),
(0x343b04d9babecad65479cf60e43350d98c56f98969eeca5905a5e97d89c25489, 0x14d009782729ea38a79765afce78ff5f16ada59e9d275274e6e0778afacc25ee),
(0x25af2270088a6beb7c76a80c9e87a412ed166a71d65d5722a082e57f8ac7bb77, 0xd01d89c739508a845ea64e03697c286705b14bbcfb484f94a530e57acf19ead9),
(0x1292823c1759fa5e48d0724e67c93df2c8ce9fef9124c5b58a477aa4dd3f5e32, 0xc481025fece1bed926ecd3e03cd7eddc3cc31836a12855d1639a85df7c69650e),
(0xed92246a5a5cb2a21618deb0794ea01320560b42273638cfafc901d62ff0bb6e, 0x3675cd33825e611b8802c7469cd82b97b659e31ec31ceee6681a35d602d5097c),
(0x8174e89c9b3666aa69ed3bda6c73c572ff3384e960863f87b7d346bfafd553df, 0x154d75cecaff95ba4b5b7b7e9ea99dff499a522bf0252691cb6b92bd098182d0),
(0x54169816f0440f731f14de95e7ab32b6702c018362794ac9e55ad63295c4484d, 0x12e541c3ee64efd3b5b8781ebcc5e2733544653cd8b55d51fa3f887ed8f42465),
(0xc654d2a5e31ce452739f9cfdb2784d370eb974a4fda45fad13a2aea20f7fdee9, 0x47c9d2e524e7391af645ed92cb04a0e56aef03629b57d593edc85b1c686ca4b1),
(0x59724a3feb1a1cd307fd6a5c57c3d05528fbdf485102e7097ac359123f9c2ed0, 0x4df18ea4c0de40536bc5a6be2df794c32db2a9cc19367473d88829a508603010),
(0xd99168a13fbeee0b6aec4b7ba00606491c4ca1511cadddb92ab3478a325b1073, 0xc2b0876f528de53af2f695b9b8225fe04660a447c9e9bd9e4ba5e52f0beb0ce6),
(0x769c1b07c26b402a9a4b60f05bb0b318d20f65b4e941f52543a156975a8f876b, 0x07880299413ffe8694a76f269acde0076e64a75394701bf084324215debf3d69),
(0x6074f53cddf9467eb9fcc4f7ea4b18ff0777abd8895c9eb971195a9d57b1b1ac, 0xde1aa32de5488e69eae8a06c03c89422a26f819faf3cd9cc762d7fa61fda3094),
(0x1f9ea27f3e9e789b1cde3fff94bf8046f5399046867a2f372da592210e85c655, 0xc47b5ce13d399032894492607db3f7a252a7408420ab1846fa3786741e7bf7dc),
(0xc2551e265d3978ce49cee376ac86a0ec7ba10804bd894019e79f51ebec9830c3, 0x23dc441510635bfc2af8f85ec4cc59defed9e9e4198304f7e57a1f42736871b1),
(0x2ca9e4d83358ea8a40bc15b78c06169ded7a5abd4714797245078e9475264d20, 0xf33240299fe328b7ecd14a116fd82bf65d92553285a176a9b7ec892cebb2cd94),
(0xe0db40528e3eafca1f514b268b673afd277c5aa9e2dbe85a74478d6af2ec1f94, 0xf868c78240dd75ba3c6809d2d62f80f1ab7fead3c67a90d4ecc242c1687376a7),
(0xd34cd3a5764d99f3016a260c09659955fda3cd9ccb305f730d3aaa6127d422f3, 0x3f3b80ef74bec1022e442e698fd4e28e0514d3a95011ba181299793bb760da72),
(0x588dadd079d2280f37dbeb163e05a70f48ec61c7cf3e6455f3ea312d4ab2e075, 0x731a5c9df803c2fdb22de461d51af4935874b7454ab8417a940383b29404fa3d),
(0x1731c955931905d1ccad3bc6133f5d9c9fbb10c5e800be80643ed02d6d7477b1, 0x0d7e89b31f18ac076c7b738064d2449d02d9beac728ffa8f6d8a7498d43baf1d),
(0xe2f990d76818c0c6e73d066d5644e9e929f495ef507b18cc594871a588e45b46, 0x2ca123070fb565d07c60b6c3e92c9757457779701733c0ad2b299a2008f50925),
(0xb92872d8a146c0daec576be735a228965242cc61ba37313d31b0e5ff21a2273d, 0x8178dd340e552e97fff949e9b101b44d35d6b57e79c0e78d0f91ff3f2817daf1),
(0x0b980d2e9440c3c3be5cf3936eb9634e923cbde7bbf2a07ad7a972877d6caf11, 0x51b7d51a8685bf750c6d376d441dcd69cac67b77762f6ad697a9649bf3d3719a),
(0xdb2f9a643c3e3706e9b5aaa45ebf08f2ee9e967c205a49c17dc76b8fb20a3a52, 0xd05d486fab967e27b9e8c175e93df203004657dd750ad7881bcc4897b80f3d40),
(0x5d5985f8910be82c538d70d89614ec3fbc9e1f919a19950ba8fc99d9203d92b5, 0x3efd77d127e43849a710d1e57b18b681c1acb2932244fa7a30f360ea88565e35),
(0xfac2a758a063dd8b46b419339c70d2ed3807bdca69d3b36e6369f8b123200866, 0x8294340d6154afa2d7b730b10301f5ab322bdcf806fb567678fc47cfb15809e3),
(0xcb92092ad45ab0b8559846b0d02a0c67a13edc867d0cce5dfcc09e63d1b6cbde, 0xd2593de26371136e390bd52ac9811334e13fddd4e9b86b1d942cacf54615b287),
(0xd715f4a366a4a770bec8abea49ab6c7e99e9473b073e479c140118439470c844, 0x40aff69eec6da9bc038ec119df4482ff3bc2b67d31284db18c757990de6cd0d6),
(0x773126174a395a4ef7bad07df2f3884322293a17ebf09f204732e7f12c418417, 0x602cca39d6352365420c5ce29d2282cc5d8919b5e0669b0922384b697bd48a7f),
(0xa7c4b675f529ba17e9f1ef44c88a806666131845dd98da824cb04f24518a4071, 0xd88edc2a1eb0cd48057283e30f8658d82da27a7c7ec1612978fbb48441ef438a),
(0x6362f575d459b970db814a7f9a142605f26f577c4357be2d0dc1679364906f7b, 0xfbc9f007bd08b6efcd49c1f71e199fa5ede011235d9b015d515bf7a97192f8c2),
(0x6cfc45f8515813d5dacdcbd4c34c155dc66b02988b8a870273a5342a9249b623, 0xf85c980e394ea0b639bdc5a5ed185de17b1f44cfb7e51c7b0b9f56b30496b5ee),
(0xd76c0b83b8a8a8bc4e8985daf6f1535b9ff3b4fee13eed4b39d6426c87cec8f6, 0x15ddc103bc6c4f436f7e23a478e47166e3f4156b5ad2d5817f3a7ade7d80dcae),
(0xc4f9832457330d12e4e26735464f24a9a93dcf759194fcd8a2d12ce20bce0449, 0xe24a6f24f9a09aa6f58f29aaf4e24a0f864410cd80280432d82cd9a4ea2ac2b9),
(0xe86da865238fcc7ed8c2721f89c2619fa2caccd85e05a21d8d23a095634cc439, 0x85b3526831871eb43323caec13de6de794ddc6e75d44835b7443137d25ee2194),
(0xa63989186969469a0939e774eabbce54109b833eb3dfb566876cf50ebdc7613a, 0xc48430c3fa8c730b00dccb53451b5a38888f2e851f510ca764360c9cb72b6eb7),
(0x6986ef9e88c8dae7ecc8184ea4c5d13132a87ad2ff8367ee63fa0ecdb7a2972e, 0xe9acba9a896e1eb5bc1d2625983fd2c413f54b473056a8937197f94092eb4bf0),
(0x47bf849ae428bddeceb221abe0ea2fd8c0a5bd39175aab96c2fddc57e809527d, 0x401a7ba51999aead4dfa6ce0fbad17e8e7187e52806a58a67033f65367aa7c02),
(0xc0c02bb092af6a5b73582a14890679338b31318af2d5b142d58833b4cf07fbe4, 0xa19dff695ead3a33d8f9f7a676b8287f4bf6b23c6761b08412d86508830f8990),
(0xf2185913405156ab22baf16e644063dab3ba25abf191efee1ff028e2f7d175e0, 0x814c64f99a4250be2265cf8e47c8276b9e5245cf16ec98b6b789dd26be894f3d),
(0x40d840cdac4060f6de850df7c37462b9b4d5892fa1e74f3589ab3955a5d941f8, 0x9892b0dcff43a8726974705e3a3fd077c2b91a2c1c6ee1537b728359d3217833),
(0x6f6b79e79006fe485546c3e852a33dd10cfb63f396b44d1baf1fb11293271b35, 0xf5aa0beb50a628b7b53488178344527ed1ecf0ffa0766a78faea2361e8fde7eb),
(0x4edf60c8c048812829e7bac87b03ce49c8df0f1e6a3e02e2ea8ad097f66163d7, 0x9861393efcec430cc00ccd493d4e2d2aa45e1034fd9a81e4b015bd5d56f16dea),
(0x7ab0c44ff6a444c4e0feb1c5a6650c3726249caa38f53e62b6bf225d0bb1e008, 0xe7f9af86a2839ce080c6ee9bd86529eb7a7abaedaa6aa4e7207e67e1a500e5f0),
(0x6a90e50d3dd2f3821dde8714057012b35c1103b580ee4982f9bb78d42541f8b1, 0x5ccd34c18455aa764cfe6c9d61507ca3cb613bf14b9eae3f8391e1a09dec03f1),
(0x289d4d81cccf40afa61ef56c242ef8a2c9883267054139e1dbf018ad5d251df8, 0xf3fead19c49de6b4328692207e60408edcdfad2526e6e5559b022941592081cc),
(0xa1ee466b0c5619192e82a316ac3b7514b109f4421c93fbeb234f5862d37ade3c, 0xdb12d4b7246e8ee555dde2b49b5c42e7408eff9ca853af0005a6f6c773aff21c),
(0xab30a856403a162214be98372ebaa8cf8d946074abfddf2b8e65e2aa51554329, 0x7a6b7f22a6ea52be8c0c800229613020a247c02686eaf9607fc56cb7d696c56f),
(0x17c5f1b88e3e4e08dab8a5c92a679c05688a7437df6336e87b0d22d5ed56e5b1, 0x96068e6c72fa9b395993913b305caf703186404e17131b5a24e14273a83dccc9),
(0xa76fbdb4b99e31bac434462a064c05578e961a53dacb9bd768400b8a823190ec, 0x52e318835ac1a3fae269a4d317bab0657e890844c3fe96c6d04fa01589c89f14),
(0x17b8bb7610476261ebd75e4f299f18055c88f36dae65cc573c95982025bb794d, 0x1bd9a52e585a40d267db59c6b9b1bc594b8d534429b5d4b082bb1c9bb54e0392),
(0x65aa92ba8fa51cbb3954b93d68cfdfa4d64d97c09e099b1bd1ba853f18500b37, 0xa2b12d21b7a1ffd1af48e4fce80c6fc2e624783c7b0cdce79f01ae7a5fc96e14),
(0x3450bcca5d3b30b03743f0d26b61ea09de6ef7cfeed44b3ac58641ab93ad7867, 0x4fca33075328a298d310d4474806f2973b09d8859fa3b949011817d839be66ad),
(0x484bf072134849c7695ba73e5f25a8bf74a183f2bfe35ad734b53878a2036be4, 0xa5295452a0830b3e03c4504343fe950b3289d40273d3bd496c0cd7c9156a1d6a),
(0x2cdf1bc8920ec64163fbc8fcc72fe5c2dfcb87ec15725e04163e1ac51b7ec763, 0xc680476a28f054a9ac3a073d67ceecf10c8262ed4bc462bc44798e88d0e48e54)]

/-- secp256k1_pre_g[5312..5375], /repo/src/precomputed_ecmult.c:5354-5417 -/
def g10_3 : List (Nat × Nat) := [
(0x059c3c608031a214d3e6be15c644265cb6f3526c2b37d84086532c2452359bf9, 0x2248b28e922e0468fd98856a41ca37ec2fc7bcf9a13c7a9db4135e285cdc1bf5),
(0x4f20493aa7a1e558a44e54e3b81c889cd45b63849b8448d420a34a31c7c451ef, 0xbc1adcc0d00384e793c2433aa76f1f08b8b231706e285d563155dc190d5aaaf1),
(0xbed9949f0dec98135bcf76b483117fca575252218a6a52c6a44f246829d48ff3, 0x6ab354998cad07f6250dec89a0840192b62777df6e241a4e325b0c4cbdad23ba),
(0x1cf32b2c46deaef6fbc892ae4f05653a3cb69d0d821a71253c2eed774e75f767, 0xcaa6268bb8574b47840b362674f4a4795a2c6478c440aa4c36d88a2debacc8f6),
(0x9d3f7c5e5e0947cbd9bef5a2dc1a3e9eac22d6a59071d0eb5f2701003e66dc96, 0x6ad63f6222f3a7879544c3304c3ff6532a00a7645ddce01ec4ac4933a5c7aedf),
(0xa5a927a30f03dcbcb3d069ec156a6ba3474f48cd4828f54ca673e10d265eab6c, 0xb5e360fb39f65847b63eb29ca8b403d3272d9ef18127d3f37650d13a9a5736c4),
(0x48de778b7bf72a21871ea379c02b888705da968837faeaa993e68eea926db673, 0xd25cb80807a7c13bfbe8b1d5522ac2db6c44526c13ca0327586d6a5c1aaca91a),
(0x0a02983166e7cb1afff6551548faf447cee8ab2cd4937269db002cbeb8f1d1ef, 0x0ef34ec542554e9701ae8897b049097e03430c99d8e93c5094377c070a5619ea),
(0x6ed75b96c4e976cf75cf0b72df83c0435b15d2c3f8fb319a94a4d97f1394df6f, 0x9b63c36c1e31becbe1a5a6e21abb99d0d5c39694cec00fd0ffc27b53309bf6eb),
(0x9372c1d16997f792688a55f08f246cb0f206ce31d0f416c0c81cbdd68487aa5f, 0xff97433bbe60eaf66f19c182e8a8bbbfb24cdcb37aabf79d5dac9f139c5033b4),
(0x269c7d84b42f90b2f39b4db75ea0724f0fa6a1a54c66a1bda21e42546f243bf6, 0x8f6f8b36e278c6fcbb0c99187325f1b975ec3add69708be1b4703c5d53d8f8f5),
(0x62f9cd79921ec46cd470a12a9619ad4e3bed051c14f47071e55f9da7d103793c, 0x092211db6c846f432867b9ee3b1ff00aa08f179c13aa7475d64d073123a69e4a),
(0xfa432dcde7e3b40da127d65ae0955d58a009d81b46b48745c4e245974e589a8e, 0xa8dee5570cae7e50d96555cec56255b7c64d10b76639b3bf8d60aea758716f68),
(0xa424d18dc686107440f42e5e0f2bfc95f4c8f94fe3adf68179086502fd9d80a4, 0xcb30797e1d9730120d488f546033b1b3d6b50c8a039badf8fcc12bfb3a1c4d0f),
(0xc2a6369ee2857d2efce4ab3149556c083ac6af906be418e5ddc5677cf2f7ec8d, 0xa7097ae29fea377411ce3f81b6b3356c9a2abb69986ad81f46b13f8ea0e7f0a1),
(0xf5eac1a23dc91862d80229313be5c7a5364c088023c0650e53e22f422f91ec98, 0x7dd62b803ad606c33d8d9bd6cb397ab81cbd688f8375a40523bb7315a3f48c24),
(0xdd94fec93bf7ec6fcfa0ced90df31a1c131c39d7e110b5e7b988c59cdd594fec, 0xcb8585656a32e03e2eb847324bdfe2e63601148f7bc7e56d22cf9aa454f063f4),
(0xd3dfdaab8f9db2d8edd3db27d96be5d0678e90885448222c5b3171da38fbd501, 0x6b210554df32021f35170e1342e2da1872be61e9481a4b74ec470ed0b942025c),
(0x47ff99183e452838f63eb828a239d95b62f8a7468acd0b436c1499852afbe3f9, 0x33b7b8a3a5b51b150fadc1f9baec6b8a88e0da565a54bea61b2d728feabbdc48),
(0x1e99e92baae564011cc10c94dac071a927565a172d6d4a20224e1b490c007660, 0x914b98dda92484e5a43d7de47bbf57cb2346d852f743fdd915dcedca4393aa21),
(0xe150364ed95ca77870fb336764f9f41770bb672f7e79441613678dd365d84fc8, 0x023ddee430d7b565cf54583758df61fc502bf86ba4cbc1cb7630a9bfe339ab85),
(0x44dbe753dd822ae3f3ef4939a1d96a9833e697f8c4979191c64114f671e8fbb8, 0xb909bdb1e6e55571b03517a3c2345b49a5793d2115fac0182afbefe9c726c8d5),
(0xfb843458725d557db1a17ad0427b4d986ba189e5d6da81a8818672596d9d2858, 0x18f1c9eabd8e71cc72e2dcbc0532b101c738147546c24790d010a6cc32d4eb10),
(0x48f43c41b63bbb05057f8d71edc739a957baed23efe9c814848c54e854159144, 0xcb75c418d5557cfdb29d48073f1933436eafc209bdf9685a72f57b986676b193),
(0x5520f1759be037bdcb5af2a9a0bdbcc49e1531c032fd17a466f59b386d7de1b7, 0x45b933b4cf256aa30c6513a28a4eff907691a34de6cc2e7ba0b83f8ea7ed4e52),
(0x839367181d7d065d5c15e246ce8391a4bec58c717f82419a0ed6547c63f081a9, 0x4c903568f5ce9a5465fa845f985f24d706e66cbe3ce256fc1703b4b05dd636c3),
(0x66a82c47e756062f06586ece86911ac223b84c9ae53e53074e22bfbd3eae6b30, 0x0ab2051c4c231a40c6da6ac305ee32b9b7eeea17222cb1d5a3abf9b6512db8ec),
(0x974ce35a9d5a4ef584d252dc3c3654231335c52ae3daefa208ff9b7556bf3b46, 0x8c82a9a90c49d1674f3995c290ae06acfa0a5c14b1c5f41ec1e449d95effb2c0),
(0x1139c2f360cb8a4ce020bb8c3d19bce21c6802e85fb3df338fc9ffbc8fc231b6, 0x59adaa147980b3e473801b739f1e02482e9f1e1765df2ec0183d9f81d57723d6),
(0xc1bd37933b03d95ab17c10bfc51675564294e38c740fa3ef9b356be671883b94, 0xc68bd82f5e926a5995a83f1f01a8c2f45966b07391ee74a50ae2ed99106c6dca),
(0xc7778ce7ce66800386db9263cddcf608aff769e4b475585820554ecc8407bbf2, 0x925092009c57f2248f9b4e71532c698c88b91b774a3907ae1ef30c5178d807c3),
(0x14aa117751626b678f32418f1855cc3452d4ec13d2d900d88a22432c70ec022b, 0x6151fdf4f4372a2fe803478cda340678c18a0a7cd540b0bb4168f9da2edd6d81),
(0xa53443b1b6065cb6abb18c841f171b3c07152b34293a7ad12e8599fdf1398cd6, 0x3a07e07635254aafeb30efea328e3ffc3a7d280d5cb2c8ae9e70b41238fe704d),
(0x35c3e3abba4c946b1eafff67a9831588d6631e189507eca766e22449f8d294fa, 0x9497392058f6830a4e5f413e4d7d442c4348328a5115fdc6ae5ab638339e313e),
(0x1aabc2db5ac6df101d097db626e3623b295ae6c9941e3717ca8490650512a7fa, 0x2d2781c7b42ce42fb40b737e9100ea240ecfdf58fd724244dd67d84f4a6cb097),
(0x383103b55a4beefc89dd082ef0e142119bacc5fe8acde7107429241ef16820ca, 0x2000fe092b820a280f0659247823d6b5187560441856dc46a9fca8c384913398),
(0x2cb0f0b63502221288b8be63a0ed5d71bc6b89ca4b2fb4f85412312449445107, 0x9a9eacc7cea4c27fac63a2be96884112435d5f6abf4ad519461017c61c87b2a4),
(0xae63a05f306e6980f439afe1b34c7b3c1453e110e477e3a8d7e9ad3efe2af088, 0x6facce76d579afb1cded78a41dc64c79b6e90279d8c5f07bfc2b0a3c7243b309),
(0x8320753378d5c6eeae26aee84f2a0833a65a94ef53a477b3c8708ac035dbc24b, 0xd830630004caf8d67fdcd09b267a2d5cb0e83e9760fc4d8d2b07e2bbc2b387e5),
(0xf38888f93337633c9873d5018b9fbfc2ad13587089f6becb528ea063a817af28, 0x8beb556d8e5342f06fe06215891e6091f8b940fdb6eebc08ded95ea099985ecd),
(0xc15cc8887d13a93ec2411ea16f21e86e4fabe47a55a94a6caff7681ed47ba1a4, 0x5bcf5b6891f3e01a3754fed3f70e5052e33fb62a753c5f3a532112e7f7f58f55),
(0x9b3b0b211befb305b02d035a1e7cad0403b8ce04f9315bd605067a73f2680030, 0x75828df7eeec11f2e0dab8015c75213dcd93cc847e873e19b7d03eabe368f989),
(0x2028eed750cc8973c1ca2f28a30c05c773e2a05adb91682560d41cea3b4d0a18, 0x40efea34b941571e98a0878fa13c4efe1e3410d8d5166661115cfd5553bd0d71),
(0xca697e9f8954a7cf593068b91078486bc8c9a71cd1f7a890a0a3e0ece48521e0, 0x04268dc928ef996b56af66b42f410831b9f8c6a02658d706975a76246468322c),
(0x26c2615cebe251a8a78b00d81733aa70f8f9a97f85c2fcb5d9287e34b786d4d3, 0xecd17c3be1b3232ebde8f85939f5158ef8c340efcec4e758cd54eb7bdf4df77f),
(0x7296b5f2c4ac6a83c180cc552fc79a84691c50df8e56ca8c731ac36802d8737f, 0xd44100731f98235ecd75e26fd251bf8ff93ee80652446208c9643fc11b938aaa),
(0x465d9610c3f6c8e7366ff5e39e1e17be53ab9eb9f299be2d3d9dfe6ffc601a5e, 0x741cfef20cd41ca94b847ad693f29e2c7e0bef4e6244dfd98e3bcbeb08c3ae7c),
(0xd3264c87fe435796b4d40631a0a64a34570e36a9809d98a37ffec23d9f3775e4, 0xe6fa5190b66bd281538787c740bdaad6f37a1eb390b19c3dcbc65b199bad22ad),
(0xd925ed625551d49d151dd55b2cde29d8fa5dfa21e9454c17a834f0907d744640, 0xe398cb931c9fc1ead9912968b335015d162a04fdc17049da80a7ad4ab3b21451),
(0x2f8339f772cc9ff5c59ace6fd38a13d8021562e0a0d5dc2ba2c074a4f697413f, 0xd09d6be43678836ce110e80568a2fbb0b87d1657d568d7d0e4ba1237dbb4fa4a),
(0xf954909df67de72772437ad4d3229c508440d23a9215394dd09c7232fa5cd0a3, 0x6656c1b98e726305644994b1eed6234a834f74d92fe16ec2c945478eec53fafe),
(0x962b9348d9b64aec7ae38297e80a5f80ee1ea2530696474299c5196fcd58f33e, 0x010601c587838f025b6735c1b711141ded04ed1602fdc5bb4dc593fe9b804145),
(0xb70436c84c6e25a534c3c2c334f133507050b55272a0403284a744a86336efd7, 0x1b9911f472a19b13e8bad704ad3fc9113223a5ae4939138f86422536da1009d2),
(0x8989063e49605ac978705f40cb916505615cc46540c4760cdb302cc70a9e4c6a, 0xe76c05d85b32b5f19913472abe4322e9ff5149e6e224da9ddde930c9948ce8ca),
(0x9e2c171129d01e44025e4d5a0802f4c584eaa0a22aa8fe0bbc0aecc315fb00ae, 0xb1385087ff34618ad126ce7cdac3a7f51f0fec092a7a9601b65c2786c733fe81),
(0x3a88a3cc164795e9cc668d88d9ffb6d352f90eddc6b0aa5fdba493e7273731f7, 0x95f0b3f82fc2c9c8a25b337eaf92ca080e17ef68ae5abcd143bbf5ce0d68a1fd),
(0xf5cc5ffcad18ea3bc15ed2e7d0ee8e9a141bcd7f8e6fbe1f81be287ee7281725, 0xec049ad76ae3bc589a60bb7cae79dea4b512fe66bd812ec691fb318227d9a288),
(0xc8af958a0201a29abf88068889c211c6da59b59fffcc02db09010bd665b7ccd7, 0x3755194c76d6e0a93f2424faf26a512df0605393ecb5216ed5f1d45299b247f0),
(0x16f10ca2a11493a1361c80df4006668393c0263578f11f2ed9153dd55d6019d7, 0xb9fbc23c39323b8f6fcfbfbcb1a4b81fe7eb1bb72855f46f5379c68adc4680dc),
(0x1b218d55081d012c5e804030ed34230829675ecbe1608d751ac1fb26434744dc, 0x8ac73d03b888545ddd8d0321afe66cdbe8dd7c6d0f1fbc3d74f7ca46c551f357),
(0xd16f309a820828d5e2d30f782f055428fc8e7bb9dcedf9c634640c197562685c, 0x1f27768f9a2c63f1cda9f0f4132f41badd48a03e5e387abcd6c73a512d1b23f6),
(0x75c161ae1b38e93e0b623305e2566957a277e51544c2fe13e02ccb8cc72886bf, 0x384bd61339e4e3895cddf7e5b0cce8d535c03c29118624c732b75a23a9befea6),
(0x3327a22ac4891ceb2a704a19e60d04fc64cbb0d1dbd5a1c7bcb2f4b98a1d0d2e, 0x1ef6206700d81d668a7960eaa63832eb5c6fe33d3ed99147b7f68eeccf81551d),
(0x8c9fcb5265eb08d290cc1f6c9c3d70f02b5531192a0c96c5f59231ed370c4036, 0xc986a64df3972c005618cae94a84e74f2566fe4faaa0e2b4d3f52e9b4acee6bb)]

/-- secp256k1_pre_g[5376..5439], /repo/src/precomputed_ecmult.c:5418-5481 -/
def g10_4 : List (Nat × Nat) := [
(0x2465bc6019bab7e072bfeefd9d97412419bf47c324477dd6c83ea3a9e9a3f353, 0x675034bac62cc0f3afbf502723127859280e2b2b91aab5219b48a36ad5bcf77f),
(0x3eaaad77af1f4e6da267bce9e7095672c44deecca71ec3b8c86d8774ad06805f, 0x8a3277fa6247ad67e6aab22fa7e7375cb95eea16a055ca8b3261512230033ff7),
(0x21734e43c3ab4ef355d36330adc76a027fef265892c29ea1a26972fe48c3528c, 0xe1d82d68612ba50fcba70f173cfc17a5d2d380c8d62322d9e6e93d3e475ea6cd),
(0xd21f30a119f86a542c7d74ba20796cbfdc6644fa2327392b3aaf9f9fada97235, 0x22d5e9ae2940960f6722d2bbc077d9acaa12b5f80b9a404ae28224d55b604f6b),
(0x41741846c3c6355b69e39c98fcedb9b073a5b52675ef5388819fbf5fce1d00aa, 0x3978dffdd11f4f53ae1f5aa6a04153d1e9ad984d8feffa109ab57fe3f58145f7),
(0xcca0a89e6612524ba9c318a6879ef971d346e29a4cca7c2b4619a1a31f567163, 0x8ed2e1b3587cb5cf037e18dbe9a95ca517795137a8215cd5293aefd492b74dd9),
(0xdd3be3cf83feca12c3dbd1afa9166d2f138efa4a297c742b778da203dfff3728, 0xb0a156d293dc289b94abc958f17cbdf594f04cba15b71ed00197e2398b56976c),
(0x6c535f98868e9ec331135e87b80aae3ba06094558d426bdd3dd400e0344a3cd2, 0x30bb8bb34ccc439fc343d3cdceabc5113efd9087d17004fc37f70d9894e3c04a),
(0x338bec981bbaacd88b82a53dd1ec2ea8aaf7fcfce5f502c0a13b95b1d5fd9000, 0xdcda1b41ca43c103f0c6b2945f9e94bebe971eb312f18197b4dc795b1efe13d3),
(0xb70accd52496180440dbb087c3c11f330f27c7e9886aed80b89b121e8d51ada9, 0x6272d04b3ec354190be43ecf72824127ae4fd87b640a5a4d8e8ea05b5f3f9b6b),
(0xdbf05f1eb489594a146de62ec9423699a7aa2d1993919b0a2a26b53aa0f1a033, 0x9608352ea1abfc2f47c42ed38f1d2ee40bb28ce29dc98325eb137acc36924d65),
(0x56e94226a4237f18c57b5ffccfe795ccb11522e1fc47d5496dfad2a72f109783, 0xf137a96c7965b8d32eaadbced86abe0c5ee79de09b94bf608d72a4d88cafb542),
(0xc206cc1928af717e63e6e7be781ea37ed7dd1766f1553fa32acc34eac1157bfe, 0x78963ba6f03b670d602fdb93d71dafc500bb5ec7b541b9e3a84d42ac1a444e29),
(0x8b579cc36455002c372bf1c321012fbcc29e102a9acb149c93c651efe3dee157, 0x9fa8c521e2f911c53438015f48134dfd66fa5acd08916902c1aadb947ceab096),
(0x3ddca5bce582f08fded36cce395f46729fbfe7a2c9aa34797fd2e332352daca8, 0xd77a9165e281ae70f1e9a265630acb60bcb79f309cd926b3550b6c9b644e5e6f),
(0xee7c92d3d81c3d1c6384c771b609de3ee4979ce884df6312fff84a0a0bd5e662, 0xf131dacc28415d22729f2b700934ef8e03033b7bc5a38dd91a11e4b17843978d),
(0xb9f80abfab86d596521bf2d9cf500e15adedade8b51fd8fec1d8de53f4191222, 0x82548186bb97991f01f28a93804cd0a60378355bf7c7ed414cd585edaf0afdab),
(0x1ab67bc150fcd943f0b3419fe5de2969fb4428a0b90981d10a3893c618aeeae9, 0x56fb8eb44671006a805e161e6e3f2bb6b0199659667967cd3c72ba6597a2c39c),
(0x1742597439a91dd372c09b5368d9821b2acba5bfa5440118ddb5c494fa0a807c, 0x1b73d3d85eaad3c9b37f74512a7ddd1797e10e71b640a820181757a76cd27cba),
(0x72b080f4d8e812feb485361b59213f59cd708e6fd2f7ee7127af3d87971633a9, 0x5b9c6a0fd7a6f32ef26a4584542c15fde3504935baa7b48ad67848b967229f32),
(0x94e5f999b8927b65a2f4d3188e3f2fee229e42b9ae3e6b469f7ea373d3f11beb, 0x0aa27336204738d3b2a306d04c6efad02ae3a4311da988f2c6c1decdb1fb3c92),
(0x2f59f6522f045980833c45cfef8f3a37d65ed9469b3beaac2167eff8142e8a03, 0x9101d9d060f1a7709f604eae4b4243c46096c0412f861106dc4b8d1ad9f9b170),
(0x95a443a722a88b7032194130a349a95267b89786e33938c97bef7fdbd211b54d, 0x03d80619399c0975a67ea7b89a5f6427ac45427842f54932cbf717113ae460e7),
(0xc8430fa02ce95d3596eef42c69f68502100a29c36ddd1f46daca1e144f382d0c, 0xf26c4baa4a6d9711e6de2b925042c6e3cadfe60b93d4f385d759ec725a32bc21),
(0x67504cc3ffaedcd0c5a2704faf1aa41b4cf489d35c23b6d14529f4f5c49afa03, 0xb3858859b37497924d01676cd96fc03b37be7b82aee57e64a44ba4332fd936c0),
(0xd4fd8a196a56052f071e8d51ee3db6677465ea90f8449939be9d181486fdb56f, 0x7fc64dee2bf744a5ba155865fb722e11f3087010b566182e8a39f718922953dc),
(0x12810eca007f3087944d3dd269baabcd491113de99b36ed065520569484fa7ad, 0xf25d02ff81ed030f1e67e0026680a3df3f27edd7761559666f043f85f82c9e4a),
(0xb347e0a4102d2954cf3ebf6b7c0e5f886a823cb4c134897e3169b08108bd35f4, 0x784949103eaf28be0b2d9732f88dc9a466a8b5fdcc50a2b28b3474362e05cc93),
(0x54cf56387972ba7548dcd07f1bcc47eb5d99c95ca18de15e9d2ac40f01435b27, 0x48558294410d7ed99fb008c232cc6ae533bffa9f03f02f0a76b1f3909e78e507),
(0xe75c0831ab9569f64844f67c3650f691e1f8436646a28613653c354a03107cdb, 0x5e2da0f683cf019a82e44f84e7bde49c5d477f34fcbfc3dc2a9a2a4e3ead0a1a),
(0xf9eb546207d88b645899b17799257d924570b3fa59fca83e1e302f385c524693, 0xdd1878739fe69020970609f8ca1ff56c3aeac07543e6cc5bbcf75af02932d516),
(0x8890093c5bbdd22d69c91acc5608e19b59d2b105b75e054c8e873b8859865997, 0x1f18b0bd0e9b546a9a2955ad492290c1a041b61c7b534e1a0bcd4db3b5148bee),
(0x76b95d0488c9bb7d2cb285890f7f3f9ae2ae24a833adf55776bc31324bb80168, 0x590b302281649af7bb2cb0cffa0e90ee13b972941a7a87480bc9ce5388744e53),
(0x8b3526c5afd2a987f8a04949bb5695da8b073b93d8418878028f9d492a6ff4f7, 0x387954e760f2ce5517213bf9c987a9e7f9b9b05ec467791122e7a28e777ab4f4),
(0x2aaaa06e244684c20571785ea77a76f42c4bca21014fb290ef66d15074ff2658, 0x49e3135a3e8ed2894dcf61d57e4cce47815ecfe205bb1d8aa5d067a7924fcab4),
(0x0981b94bbe061268c02db0f1fbc330b7351d6229b645e4d43d908be4241795af, 0xc294f8d07b6c70e1c18ce6da0b3d28c4d53f3e9d1f8d9ba9de18cd3951c8ff5a),
(0x53721e95737d09b149eb185a1663999d23429e88051ab84900a671c0d86efa3f, 0xd36f27f19f812f8cc9d770a41655ef57efc1f126ecfea4acdd5bd42b13e20a54),
(0x9ab129e9a4d921183ebf686d97286d1c9608003e67b026eed3d06a8ae21c0bcf, 0x4683a37585be92d3331732b78e12f452480a95694c3099072bbb9427602ab016),
(0x330ed8c303c3647e07b80f38f3a1865b0d33abc8ecd4d0d3390e8ab1a20d1c0c, 0x5e3db6e933d6d0d943cb4202f9ed135d0ced588f8742556c2012989e768dc770),
(0x66c40c786933308b9397f3c03c4263f00357d0f8a6a9eb06725c4c15c226d57a, 0x697777c713cf3b5aca964377fb124f8781743794afbb19664b126a869f90bb6b),
(0x36ce2c7a9c7f1267c081c9b4296a191b951415eb12e95b02e5f5d3da47809b23, 0xffad6d8ae00096f3878f54df5cf714b96646b5f09cce0d06ea38c5580140223e),
(0x73fefc2eca71a95d2e9d5d0d464a74080e38e21e4450ce8c51ec9d6d79b43f52, 0xcd47ba4d6c2ed98ac369ccf1a3d65e05758f7f701ca87a025baab12f5b765a20),
(0x0cac2c00567cd06bd4e98e04e911f7b87d4fcc1928a5b58c635fcb96bc7c0a8f, 0xfde04dd03235a3c89b304c977889506ac3ef937ae1dfce4dce29a1cddd385090),
(0x0f6eb3902654aad11c69c0282d1449a34198e7743d329c3e85a8af7d0f6219e1, 0x6403deda8911378f7defebc1ef7a4ee620802e760499993e15b22e423e492d0c),
(0x91a7da19ecc1a9797d5dd222edd74bd5af76d20030cc27bc41304ef4578d8773, 0xa32b1a26e77631f96a3dfe17ddf16ef2f38f40264d3fb882dfb34cf15fee2f1f),
(0x90c3942a7b00bc3f7b852097ed4590af0cef6fbe783fd7179fdc4955a4fed12a, 0xaa7d174a8d9f1292b8e4d9d019dd336eda305cccab69659f90011b6985366751),
(0x717c0973ee959e196d11939cacabeb83607f936783dbfe6b911f30a3c51af3a4, 0xf93d840e88497801223992dc24dc976edc0b442f2f8456504903c9d8338c1ce2),
(0x831f9794c88cc5b22d2021303731371da0ab67f3c080cfa4d958e6dbaa85d140, 0x46ed65d21c8b556514e83074e84267d843f471548774533dcc11e6aacc655895),
(0xf6c7e9f669447c19843ff20972c47cf95341e0f9d2d5f14ec9b17abe20eacdab, 0x1bc7e847a9f2824b05895edfcde746d45ef0fb67b7db1637e62d2d40e046650f),
(0xc0ce97e7ccec223f947c0db262fe38659e06fc7799a415817ec366429d5f120a, 0xdc2810200af95986dfafdfc6ce122d33e797197e0c24c09d7e6f04a1c5b4793f),
(0xe1eae094f68fad145d905240e79abdef562ac20ed52f3503db34b2dbd2f72d43, 0x71e4754fca9df5efb3b86c887e3eba7a33554a83cd68ebedf6dcdea7fecc6486),
(0x0acaa286bfd582c2c938ee3623a20db75cb6f0d495419f330b0b35f259841bad, 0xc3eea94918a16138caecb54eac03b6c9282006f714d4b0242bad29e9aea7f667),
(0x87f6893c137f60ad22a5d5432dc2cb2ff2e05fac0d64383938936c2d206afc82, 0xf6bc30921de852d44894d318aaff92430a9a521e501ca78fc7baa82a3a118ed4),
(0x9df94d49e9508ab500063ea116cc45020aeed0bb7b1db426c6695da58da1f59d, 0x51786cb4a7caea6639546ae75826dcb25abc5a760402fbe9b32432ccaa48adc1),
(0x8a902a145ecfe343503f46c971693677804994055df02c329446a373e34777e3, 0xfdfaf856f777d30c24ce54f9d503fc8ea3cdef47e292ec5ff98d6449a69b3f0a),
(0xad6128cb8d9903d423558eb223fa580de31c454cd3985ac206a2854c733c05c9, 0x9b69c9e1564c92715562d4cbfc0404956ca539c9691e2f0205f41151ca6667e2),
(0xc2a2ff9f6d064f4d551cae44f726a8ccb14c9742967256201d01581e5375e57b, 0xae53fd93fc4051503d6cf2bdbb51720e7555cb24ef7ee8bb9ca306a059563e65),
(0x56c0fc7dc2ae8f264e132fb93a52a6342b80dd38f329fe9d1871e2c16529996b, 0x5d012467cd51126482399d80c7f8d248d9267251e4d18aefccb9bbcfd854414f),
(0x2131bb4c5014e751ef0690bd562ad29cd8db44619eda575c9f0f75c2da4e0f32, 0x7bbb234f7a83afa647599f058ab8f5d283f1f02a8f8d529215c7cdc471f03fef),
(0xe8adbaa7bb0542a99b9f759859637f1acb73425713247db4540b82686c14a462, 0x72de1317fb5ed43dec57ebf3dbec4ecabef50923a474335972aee4b3c03190f6),
(0x827e8e052a08416219c8894fec6f31c1a7902792a1e8cdce6fa5f7324b428417, 0xd46d9c864fb85e09081bd40bb6c3a5638a74c2226e7c82993ef6b4084aaff5b1),
(0x3dca9759338dc06a08e812184c14c82d3fffc50a6d0125d11af0523ed14fd699, 0xe6c98f39b3fd3ca766ac5444be93fe2403085a387b484f28da571afd4b8ba210),
(0x3ceb28d2e59d369263432323c36bd680f531697dc33245aabc7c583852bb8eb1, 0xd245698096a36ca17301778fd1661743f43ed9af3968e4e755ab39a16ded2d19),
(0x47ce6c4dc1dc8371de44ee1c828e4b3c6ba040c68dab0802417ecc311e7d79ce, 0x2d6b7bc70c43e4786df00ca9075268b339f0ad687b0c70c9ca857913485419e6)]

/-- secp256k1_pre_g[5440..5503], /repo/src/precomputed_ecmult.c:5482-5545 -/
def g10_5 : List (Nat × Nat) := [
(0x0ad6387ffde71126d0784af6fc8a1ca7be9bfee6176245cc2a18c9c10c17f156, 0x03233a7ad7d506058cb63aa9becf9eb2bf8fa88cafb2ce9da9236736803dda1a),
(0x8c9c591fe2afc46804b64d9c44b92627e70babb1aa9f7f006dd5b0ba4ae794b5, 0x5ed4c9cf30c7d1f1ab31e9eb8d20fd1677b6715244db075cc9de1b4958607617),
(0x2d601d551b07c8bd10db6a9f516882b31525d8199df56324cef2c40c6753ef7e, 0xd32e4bd8eeb642a438a9493a87824f866731bcf16c4b1f42240f07feff075a2e),
(0x2c67af993de02d6cb9db16fb7fa99fd36e32aff369e855b3581af5bdcf8f81bc, 0x69fc1c49501a76b6e21abdc0027aca6ba062dc115cfdeebc0b8b98eaae35d935),
(0xa904b9b9a0abbb604be0495874b0bf725c1c21fc1ad75b9f99ed5d60d1beaa3c, 0xa2cc5370058dcb266677e730449cafa1c01351794afa24e547b10479a2590069),
(0xbafa5456e50152d30115d40fb9571d797ae8fa4897801c13238d8b98b919302d, 0x8108653bf4f9bb59de7e26d855f7210320eeb48e9f1277785f05ed343e63ac43),
(0x0fce057b560e9da27621d46fbb7092754a6793faeedfcd7f9a782aaee35cd9a1, 0xc59891ced7c19c5e7a84162008d0d819c8634bbd2466ed60214a726adbefd784),
(0xb8dd80d96b6229fdd13dac5023f536573b353efa4501603358a9bcfcab61fe7f, 0xa72beda2c2cefe01eaf1ceea714b538d8b052eac3df84158dd3530f89c5bcd25),
(0xc676cd537366b97d9a056e872bec47dfe2c35e88947275b0532125360a6231c5, 0x9d5fe80f763e202e6919c760bc96c732844c4c187e7a3a1aa0760c2980c076af),
(0x626a28b90c89748119d6c4b0bab6e81b9d6747cc6c49521e6f032f5036c9fa87, 0xf8373b3c0748231db8aaf5809089856627b112f56697b18b3cd6a73a16f2203a),
(0xd72eae41548363f7cf5b5b9eab73076d650f7616e7584fd51a5ff2a8ce1959b0, 0xc867515b46c9973b534985825bebdc1a54181a3374b507e1f0aa21d07a6c0e0f),
(0x6e34489a4ca57c6b0f3b8a98dac3b2a20995a7bdf90acac3b81d56d7678920ea, 0xefe88e16e60cdf2c3e6a07a00ad323e7ff9e731b26f9cac787bf43f1b3401169),
(0xa8214f4f1ab2d150b66eb9e6f64ea4f46ae089099248663d8491cd2e90a56ae7, 0x5d252b54ec694068a0944f8d4e0ead5f2cf0982f039812405165b5a7e4d628fb),
(0x76591c34fdb90d13014c5f85e76e18c3aff3aceb4385011c0d4a74bcb36f775d, 0xf13c54f9c32fcde694d29b12f2a8d8fba99d19be80ed9a8f903b33c1ae52a447),
(0x17d22fdcc48ec732afd7bf627fd09d22d2989437a8ce195003acc99fef2c0cf9, 0x3bf80fed48c4c2f2f25ccee19a717067976f108eb1cee6251fb6257df1788384),
(0x2ffd19a7f46bc0289b11d7d82b391091e08202cd95c7a4f6fc351713d3645b6a, 0x807ee1d7af310183fa9edc734c098b905b0d40216c19b7971429725a5763d01b),
(0x63496320c4eaa16dca4ed516bcbae7cb124af3ef10969329dfec9a9222f143ab, 0x3ce522aeffd08245d5dd6ce017ea6915aece97b99314d61e2d4e9fbb5b92406e),
(0x685a372c0ead446b6f8797c6dbbdf442e337a2001b09c03a84dd523f674c1e31, 0x9436ad887c61bd79d0a73f9d1d06ca0b37f195119d9f9f106a6d6d97f0654d96),
(0xd1aa115debf2ca7961b1a13a9f8f2f388367280bc36f6208015cab71d235b866, 0x9dffc1736590390da2f3239cf85ac4c53e842aa13ba035ac2824a269c7c2a487),
(0x0d12c58f5e20c6de34a27270d29ed5cec2a36ac08f2a1b1b69cdf2a5d501bc3c, 0xcf7bd0065bedb875bef1861a335457ad66042a17c924900660ee461cdb0a7de6),
(0x95d9af48d2d3ad224ca838892d7f14a0bb4770d042ecca6cd71b927879e69898, 0x39e47d1f6acf95705755c56022a8faa2e961b25ec5ca36e63a5ecf5ae54a48d1),
(0x6e4dac4d1b6d8404e84152adf5d49de8d269c9dd1c66136c065b8f785cffec16, 0x62d1dd5822c06f57f2ccefca31c318d1175a3c602aad99f2e5c63e2bc8e33afd),
(0xd026e8473e8eec4bd9ffb21d49c1390034a9a66d5423174a40c8b4b34f6fe060, 0x682d65facbb29cc091a290e9305e46155a5d472e16d37c7fe06a9a40f578c58d),
(0x683bda5487643e2808799658baee6ec473ca9c664a76c302b26f5762877e766a, 0xd3d80b37117d6b18c04174aa2aba077443fbb78a2649eb38e579893575fa237a),
(0xfe2f54a1830a0d86ba30acd7d208f6c722e2deda4e554a5a533e8e07dfc76f8f, 0x6a6f032b5bb03b333b28e6bb030b2b04305e0aac0cf53e2b53f215ac2f1ab8e4),
(0x2486b52c511b24997ef5d49f8098f596568fbd0b756334b5d5f018520191d677, 0xef82dd7f9dd36f4255b7529240af86dabbbdeccd6ebb319711fb3432236f5ccc),
(0xc6fe27cc79f316ca5a59acd5911963e3bd6ae911c50bfa1af2ae8b6d069ff8ef, 0x70aa6fedba4c57ee5b3b33ecab6efe75e05b8b4341c3a7b9bca5053c40292101),
(0xbe4ff2088334d0432d35c9f3806e516dfae58bbcd2f69565ec46100699af2be2, 0x49de6b17c8636af425ed00f4228ecdb04208d18eb5c9c194d671455026396adc),
(0xc5789253316faa6c2f87f888a8fa431242618ebb37a5184e29abf20ae6b4aea4, 0x77647e3ae083159fafe927266c60f66612e4fd31ace116a511678291185df958),
(0x27d2c091b2212a3cb2a827d0951a4bea6994953acbfff146cac83f20f164ffd7, 0xe9fb5899d757055df0e273efc38cf691e958c6e3943aae4385f77a148189eb92),
(0x94d45ebcce92d10a3294114d743db35a8e2ddb7b7f5bee727d093c8915d98d45, 0x802386dbbd731bbc5dc793e488fcf20d15be9024b94d1d19edf99ea5ab1c0acd),
(0x46739c9f6245639b692a68bb8587499c43184d0c0f0ff4677b264985b4a2fb62, 0x9f8f41d72eb951ff17d4517a3fe7dfed556aeec6be5181888c39a57c913f7da4),
(0x5c9f57b10baacb2f67f1bdb53fc85aa93293a2d9d85d1f2ff62ff40ed26e8c30, 0x6bcc8a897ebf12b72f397b5d0ba072f3c91f413fdf14e441ae2a2155887c1527),
(0x9ccb3d344c813c15e9b8551795ddb04dc3c790a3a1ae051b60202b56b735f3fe, 0xe24525a9fa784ee62576fa156ad350b9eb5802f6e5d5bbbc7f4217e873f85916),
(0xf0826eec162f343e4cd7e135df33219b507876ef5d29fa13d8fa23263e7ca425, 0x649c1d786547e29bd266f2b3cb70b8238e71d1986791fb09a19ee4fc1823e02f),
(0x8b672a2e1b76096c80b8751910b6a09e1b7204e3ec139cea46aabe844302dfa7, 0x33f050560ab88de5e036f8e85bcd51f5423ef4314faa10157eacfd8a9db71787),
(0x93cb8f719db52708986fcbc626679315fe79d1199f8abffc5c02f3758e5a50e7, 0xed7d055d91843e324193d86681551f5b36b484d1f0dd5fecf59e51ba57b93bed),
(0xda506843860199844004a7237ae11605a7132e8655145d8fce9e0e50feef7d5d, 0x260f6393886e1b8a93986894a4a98fa261771a4616d04ebebaf8bc4829816d53),
(0x2d469c5f026610e46bfe1cc943cfe267e1bd0a22e451aeb30e74f17bb9ec2f76, 0x1d702b5ffe2101cdf5a5cdc84d4a48906720ac6fca626979d942c218163474a2),
(0x1ea8377705513ab9cadd3b5366cd9049da1b01c5d347f7b1c8a74f6f658cd621, 0xb9e312c72dee3d7ed6e6759670c65bca05bec92a2eb82faba122ffde05b1c7f5),
(0x70bb25c79589530ef129166fcac1d5d081083ed5fc5b9b99e744585a1d6b6816, 0x63234c190dad29143e99ff95a906a5f7a48b3e872d45436c8d987bafa93b3588),
(0xfd9989c8f68537eaa3248b19ae721256ba8d0d2fd825980ff89bb158a700f0a0, 0xeb76c5d493e52d455d27a12ffcdba859664bb0481686e67ce79e40c2e0160c97),
(0xf1c32c178b36e837b058e9abed3c65a7e2c763974936a524838a480d0b3089b7, 0xdd4101fb92488a78480cb6af6cf73dec5aac619f3bb42594c3dbef4ecc7a3a11),
(0x842d8101ed396c79b5b19779c245dbdb0b1ecba79ad77d5df78fedcef9d83f33, 0x6fe773009117a404f4b28ef257441145c5afc6ae2e655ecd2497486afb1ebc16),
(0x6e9e1a2e847fb133cc92a79f767a5ea8cac887a316903a98f3ea86ad3e8cf24f, 0xd71de5dc12be0a35b996d8808442fdfe4a6cd8107fe29548da99783d9049ce3d),
(0xf6739fd001f5429d27c216fb2b02d8717028366f7af115d1e154f87a812b5e37, 0x15186c87f776c8a03532b5541e1b583a5a46533445bcf93e0dcf539b21663c95),
(0xc3acbd9843bbbd8c68f153d8553a81c281dbc58442edb9d0e51d056f2b80e2f2, 0x8397a220483081ecea7de0905d0634121dfbcc32ce70379ec58b33b320f39d25),
(0xaa9c8becc845e691a4c3daafa9bf687cad73329032abe151a26c2a271fb94732, 0xb82dd0fbc53fa61674b684f97da10e8b77f1f7e7388007d6656988dfe18df322),
(0x3df35629654d5b70db9547b75373efd7e1781dacda11607fe4f3c9035493c8a7, 0x56fbe92b25cbc615096f2cd4010290da239ec3d9360b35614199b0060c2d2b54),
(0xbcc8b33798973e00771a195589165cff83870f8ba897b8da84c1bfb757168bb9, 0x483a7f4a70c8250f62105842310ed427168382a25d687290d54e65c40c83bb16),
(0x0bd2b07ea84da89ebf5e39f4d3f03df8658061fd8f78d5cb99f488a3e992b870, 0x33ae1dde77c5b467f5b3da9bc71a6557b0cb3aaf892d0e76d9f34b401fe60c9d),
(0x2c55718b87b4facb08ba9a6d287a2db71b5a03cdc7d933d4c6014232ec35d05a, 0xaab1de0ad8e3f72aae822bdff3ff70bcbc5aa56f1dcc5352d1f81614f3f461dd),
(0xeb837dc3b2e346c2aba5844108c84b20d144f93f841180f0860f72800a7ee23e, 0x6a342fb838a63813e279d1c694b2ed2679c3dd21652d56785f47aed15230137b),
(0x827719c69b0973810da18519ecefa1939a9eba18189092f489bde77d33046fb1, 0xe73b0e1d76e407774ee6fbf52bafe516f6d94fa7c7dd1eeeb3c36f7f6429dd3c),
(0x2b0da4f1230953701f1b9444847ab2895cbfecb5800f2d7c16e7a56b0c6988d2, 0xfa8b4d9e5da4196268e10a3a7d69b1ca7963d4d8cbb5fc1c83239212dbc340fc),
(0x95744eb513436e2e877fb0a520d5f1e21e1ab59e15bbaf46206550f8d5563134, 0x5fb1c03462040ef228adad1e83fc2c7457344c387b7ffde0d247bd356b5ed1af),
(0x4c805d9478793e634833e90dd19822a0ab7d263b1ab67654bb77358c67b327c8, 0x863cb8f0dbca3c1e04011928e582761953df792d449f8980bd10cef4472ab56b),
(0xfac226333ffa2cc8093c434b46fb0cbbcdee765fe848cb50b1dd6e70272e0ec3, 0x6a6b07ed46f9b9c086e970b1d2323fa5d7d66b0e3ad3077eda5766caac5b500e),
(0xb9d6af71c59f0fedca4ecc3125aaa645f78d43eb79c220341034de56f59ec4ef, 0x5509e17e3d7ea457c428e10a7e9d8bd669f0fdc1165169bda2101d8f6f4041b8),
(0x57a68137907257172dcd8c4603a9b27469c5ef272ae2be60b10b96e8e6b47537, 0x9f2947001c04c06f2e2e5acacf4b9549265db1f5074b2328ef4469b01c2bcb98),
(0x58ee2a229aba401a637c4d342b1ef408d9f47c536133fcc1de030d0025e2f53c, 0xd361b0e55ef24c7494cb9e65cd273e9e73da6e50f452f8b17d30eadf32ceabc0),
(0xb8bae4e3f2e228247ac9cd8ca68632e51bb13d4d735fabb7305a816931b0e34d, 0xae8ed4e86ac41b6060ca3423fe6bffcfa7f215a47076f270a2d1017b887b8002),
(0x0a81d5e0f11549c1373b4c02a61c8908dd109f4e7f0cd250a667508baea3feab, 0x8c6cd7904cb4bc0f7e56d928ac362cdbf096841bdee9dd48429c52e723511bc1),
(0xfea67ebff8f092fbdbb3110b077d6981efaab5c4097a23c342afe29464f4746b, 0x1dc947e294b0fd7f952a6d5e01f5ddc95f0acde4de8db93e41f37ec8965d4310)]

/-- secp256k1_pre_g[5504..5567], /repo/src/precomputed_ecmult.c:5546-5609 -/
def g10_6 : List (Nat × Nat) := [
(0x4db2ae8e6b8e674f2d79e1a2fb7c7d10921c9280d8eff92adf1a2b024485bffc, 0x8ed56cea38c2a96fb6e0ecf322b745cb35c433139b3dd28d9189a9c89f2c055d),
(0x0be31fba3995348a7830304724ff117a48dcf5e872356d03ac059306fc5ae314, 0x8bf72f6b70189284ecf86059affb4a2bc7b5f923d7c344296f4014905a94061d),
(0xe8d716d718078be778535c204f9cb681e8f49ac185baf865e7b78e19058ee703, 0x2c79f768c6d3bb3db0923d1974647e8a966ce69fd06a8fe705601e5161f49f85),
(0x20ae34f7f3497d676b0496fa1a68178af4fdd57d15131ab9c60bedbb1a840070, 0x21fc951a2b29ab95994cd404b3da37f7d21fa790820339df84f17b503572edce),
(0x73db09f13c8e7bb448629f2483d56f1da207617f454edbd9d51ce59fb7ae1ec9, 0x1e4e5175efe03956cce3f160791595ad35bea993139e8967f591b973785dc29f),
(0x14f5ae1faf20b6af9953fe91db5bc19231f302e6cc03a265d661b25f8f07cb18, 0xb790b1d5ef6ad5ef97ddb3090354756e138f4db3208a873c17cff3a3013a8be2),
(0x94ec6992d2531cdf3a1002cdefb12e680868be66b704dc263dd422b99cc379ec, 0xd2c4e479ce9e02274d9175dde2a4263967ed377ed04161017e41e8bc8adf7fe3),
(0xf73b5edfc8d60e77328279afae99381f4ce0de2217a4edd604c228b484816527, 0x86758bc6f44e120468555e71786f7d50da7f9c72665a7475e77c32e9dcb13419),
(0x94b5193945a518e7c602570f863902b4385c8e76c335cae1b80e1d0ce118b573, 0x7c2850084d398cfa24c5cc6d879868f4d8eb60adffc772145debabc13f154ea2),
(0x26acc0552fa90d451dd6f2a39bd46a9b99b0f66f3e6e72c316e09e520f7b265b, 0x997dd9885d5b15a1957e1cc0a45518fbb0e1f847d58fe9de9be95273cbe61b00),
(0xe8a5ac01959edc902050922faf51365becebc96708e57cac420faa6d4e2fce98, 0x2c2998c6fdd97d15fd0cd228e9975064f25763166e61a45eae5324819dd96227),
(0xd903bdf25ce9e85560f63d72512626fcfee11c4e304d249ee13a4b6960f95019, 0x1027435dbab3c246c93897bfef7779f89a165595a7c9c5360176fec91adb645f),
(0xeea105c6fc04a751cdc27e4025f0d50a99f8d01e1110a5050eb95206922e50fc, 0xb93db8cdb914dd8f2b57b9074df41e9ad8cca9e9c3a9754be8473446ef3a6c68),
(0x801b116a1fc2c2d8fc8b412fe9b1b7ebb19f4e9616b420ce16f1b4b8dad235f0, 0x53def02d8a6deddc250de95bd6a96d271c197d36e137e6404123501c15fbaa9d),
(0xdb3b866701b0dc54436520fac8d437cb7a4c23b6bb3c3cbfdd34b605af406939, 0x36562d35a298b620f7a06498b1032f4a033cc3b3ee185e0eaa8d3e4f3ec5c481),
(0x7bb26eab8b808402a9fb3fa38f0e2f6a7d82d7c7eef75cec43594713dbc17706, 0xf4f86283713738b2a9209e49f82ae1bd9bcc908eb956554603a8a5dd8d0c4b9c),
(0xe89fe3018d87bdae20fee2ec7a3f6cd6cf932d20a026e1bba82f9c63a47b97d9, 0x92a7e80ee7657ad70c72f4718f0c28baacfc748da60900261191912d32b8a498),
(0xc9a10a8b14d1845dbe6eb6a865cd2ce3a4d0be4dfad24912b01fed8f8bc812da, 0x5852b79185afd22a6f9ab48691340dfce9979cf0bc9732b3637434a225001d71),
(0x257df2e8cf535cb7954b52dd7e3ee08d24cd4415d1075dba8f75bf7474afad3f, 0xf72d1e76d4da3c0e5b41fa8228639f2af4e114c494073ddc3e8fb2aaf82596b7),
(0x3c64aa9e548a430fa815bd54713ed69dbc32a0a130ae7ca41541ff21a5314886, 0x083779117426e30bdbf84c57b110cc3fdf5acc957313cbc9086e895d6e0ec912),
(0xcd509f833b65a7f9671b9239c5e71323f183e9562c2c115b751046a233424ee9, 0x0579243ac7fbd43381cbd0fc4330d087cfe0c41e449ef82e12def6d98977338f),
(0x027adfe4febc35013ca7a0a0b5f7e5253768df699d236f639ab80782c2d426f0, 0x97cb4e7b73b065a2499a1675088fc1160be5606f80619d42ddb6328604d20521),
(0xef5bb14898dd68026f25c36316a34accc6131851a4efe8af219fcbf413a45207, 0x49f30d08291e60f0975c93ec403d2a143742aaeb03777cb987ff38ecb51967af),
(0x58df8d450955e923ec7fc327f8081ec37ca6e2617fdf77856eed51dc95057034, 0xcdfca79c92dfe7192ec63f6ff93d211bd7cdcf694deac173d3393fd37655a310),
(0x2a4ca8d3fff5ac47bce452f01587a769443e66c0164558b6301a6a2bd3d44270, 0xed73b405521274a23abe589dc5ecd607b6467691f81e3c9e6a2096db2ec82366),
(0x84bafd1c7c6072cdfce244c48ea004ad9b8e1765bb8796d9118d6dcfa5ac58ce, 0x86ab8db17c26c921604a3c3ff0155a2d14bd727416f9e319efb68f502b636c00),
(0xc37855287cc4e3dff5e95951c5bc596428705a1210927e89890726a2ce00b657, 0x302ebd135643eb43f0bd14c365e385a40c9a177f965950543c3d96db69ee8f79),
(0xc3aa3caeefa22927056c72aa5350747450f7a64e2df1bf64333d04025dc87d25, 0xc2eed94dff9c5cac248f77bb9e189302286db01964214d711a1991194818ac4e),
(0x443b9c8c7d8c4f7ede7168fd00666e795da85e6d6c0f64487d349de766acff4f, 0x2d4f1d59b0d1688c09fff0f2f80e3434db72d76e6ff886f063dd63fde192b01e),
(0x2afe7ea8688081e5ee8a4ae987aec6d2ede5ec3bca887bbc1461709cbfc6e5d9, 0x5c319df32556ffc256194b7deb46dcee592089221e55c3842a03ddd878add90b),
(0xc62004ce4d82ee0ce2edb82ce0ca98fd413bbf4455b96624a86aa252c346af6c, 0xb68e4fb688f78331bc2218f76a5e43f1cac49fe34c5302ccd6a3f1a3258564c9),
(0xf759c4c6e0bd72a39aabbb17fc62c900d57e0b5dab9ecce68f4390252b17cd1e, 0x6dfaaff85f9f3990ad2c55f13c74e3aaaa0f10b290def714229cd3dad5d18d98),
(0xb527a6a9d27d0a1d5adfc1c135308e5b9a805638132f61d7e5e607090ac3a9d9, 0x0e387f6962ad151ad920c82a739af00f628865ad4ca42405efd87e8955b91042),
(0xba23656a6b0a5c57f9a00d6a9e6a331ecf0c80973675f41c7f0172fbcaf4eb02, 0xb48ac68f1a108de9018d76d495a811c2b7614aac3c5f6b18f28de8cc7bd4041b),
(0x0ad94ec6fa161fd160dea3b32c63a4809f7bbb9149de206d8cc61306dbd18aa8, 0x5240858cec88a0227c1c12a7862b4d18e5acb3445d66bf85079ff9fcba866a4e),
(0xdb4cc48ade1bff28c8987eb4d00e1c5c4c49fa6f125d213dbd814c34cb81adc2, 0xffd64cf73c62c097a2cb3b84c62bc32c54fce797744791467b9a2cb5d6f821dc),
(0x27d276dffa39d889beb0b58642a0e4798057760fc392d0526751f2bfd0c75aed, 0xc670b966575401a2a790440be5e5db562914aa74e8304e3a407aadc5c87e12d8),
(0x7663e9d80e34b5250b336587eba3678f488f95f06e9a6848d2e72d3536b569da, 0x472b1c5a8ee189f07a06addbe6a8d90cdcb87039aa35e8967914354734e2786d),
(0xb2c81e151c1f8ef651ea181097eaa2807e3b4a96fbe210ebb49554ad6e0c0c4f, 0x2d914319f5ff59f8c7038de7dc70d1fd6c4434cae5c0451f4fa99f4655bf8e4c),
(0x25131e219406fae4ab96326c7bf228921f18aa90c52f46feb23f90ac59ca570f, 0x2e8a380c0eed5d516c1902514937aa0b1f39d3e442ab2537e9e8d9aa396e4c20),
(0xc2694b688e33025cfb9929a8c7ccd1c47fc5811b9658ecb0f41e45585d9a0c3e, 0xc443d593e68abc49cbaa92b1757ab2abc30671d84699a5c485a30b056b1ca701),
(0x8d528cc517a371bd9605d8f4e7f030fd8a82d4895bfffb9efb11f63bbe534fd7, 0xef2f16fe64ceab2ad261bd1b314ebc654b4127b8643466a8f367b9910d28795d),
(0x409e69c762f856a24b6e80aabaec849633b75c2108943dbd007280bfe917b032, 0x7f04901662884d22dfbda29ac8061b7eb82eb94c13d7efcb77531f8f980babdd),
(0x82c9b4b02451fde708ae877ced9af5401ec0e258119e27d41938f71debae71c8, 0x0212d6e499b91fd6372db1a904ce3fd9c5443b7efb37a566f0c5f54bfd8edae8),
(0x6c9fd72837a39ae71f0b5852e5c09d7d0cde66ece8f19a2f2ab46fddd17c7f88, 0x430d3385aac729f3008ef5ed922e709a73df8e70eb9cdb83c41e5958272e8687),
(0x9f012582e527901fad1f350e1a64702aca1f6670e693bea8fc3eb0fc2c090329, 0xa2fa07aec15e9457b2c75e5056c79a6ea4c8f431d3c720f060f7b5b6da6e3dfb),
(0x6a1a49b07b2b61d6474834e9953aa4556391058257db16bb406b600d0bb01300, 0xd4b93b7f66ace505cbbc2326ddfa2fa4ebab145cffbdc2c0606e2ffa9dbb41f4),
(0x981d0638a585970d4b12e57795e76c261e10d65cc5a94f1943560d10472fc9c8, 0xf9babd663d02e0301fc0ed0f75cdaf94fafc18ad2cc68db6d2eff7cae6c013bb),
(0x7edb47d2b62950636cdda3d7169b42963616b6dd79e2e148609a7722476e564d, 0x179a20aca6deb28676fd466fbe78c3b6789d31b49162214904d7d634d4bba999),
(0x5186780004bd8a438f180cddefa17ff6e16e29e1e5fc4ef3f5fb9bd0bbf14ae3, 0x306cc2c860ae587108632f9400c9acb7321ba1f35092a0b572c33b9acd8cc956),
(0xbade1926d8b0d13669e056eaea46b2c82bf0f0f9a25bc4818a40ca8e201500aa, 0x7ac76679c9807217ee802773dde582b56f0a4b66f6e21764285a6a814d584502),
(0x87815e7cd1e5e88eeb882b23955de59ad63f14fd457a8d964b47a611b3e40043, 0xca82343d8e2eff9e314ababb15cd03c96fe6660c421af87663500d49ade0d492),
(0x77d815d8886cbf43c1b4ce94253e93ef767bacc242ba7c1fbfb7ffa5308d855a, 0xa8bb3f9537ef9a77ad7e282f8ae05ab18131e59b46a67c3c7e85ca00a2d3e1fb),
(0x49079a0a7d9d9add3a17ea11747c8baad0922a7ae766e5e3fb80ae0fdbb7d6a9, 0x162b4e2358f03e01b4e092648cd0657cf2cdcf54f6c25d5efe7330ce421e0093),
(0x28d612110c183ccc02b081685a4487d157bc0714d3ffb16e96bf0768ff8075da, 0x3da98c130a2d1b072ddda1653fb68a21aad4a9feb4536dc1507dd78b7e51e0a8),
(0x40c34a4b6196561ad4591c49df51b8e04106e54526092e887201872041448080, 0x7a6e74783ce7d82fb83f15e0b74ae6d4435593a167da6f57f2e285fa8c107e4f),
(0x88754e6ae12e77ec21e64cc2bfaee207f5c882df80c8b15e983fb1aa99037c2d, 0x5ae10e7ce7464c69472ce85f5183a8366ed5b3a91fb1af7bd5078c762512f37c),
(0x8bb7094fed62bebad628ef9a84a0679d7e0d2b45a655fa3b68d9a6efb24c738d, 0x9f5370da993a381148ad4da62d7845ce4cc817660f26189c2199ca734312d102),
(0x79814e637bf2cfc1cad39a360b06fcc4f7e865b3ab2de1f0c786f9f640dd80ea, 0xaae4d149f1e44635e4800962f533eb385f0671143bfb87ab9e68e27cb56df226),
(0xd493573f93018d4b8599b54f848c3afb816e098b8e218e2e6304baf60c726513, 0x383c7ff9b3ab6472ecb80f722f70feac7ff26989bcb6f984628d5eb6a409b9ce),
(0x59599fc87d6a75325ce8f205204596bc4cec40b2f3eae8ca4530053d1b7c731a, 0x7a8d91e55d989961889949a4bbb71e1784055697b396a011eeb3388988f0681d),
(0x4a834ec4da3c9afbc62fec5e898aa2c95a835e60ef1993463e4bf255e32df096, 0x08736155ecbec836e8d51d799176a5c66672aec90548aa63b7f5524f6b20cf73),
(0x2142b447f2707c3745e877dc8039161fd222c69b9236592cc1b3f56a0d30a975, 0x9a48f0a71ebfef1e0615a7d5a9decf8c7076413388b0e57eda554257256e41d0),
(0xc3831b8aeb58dd77e21762c5f2e8803563fa8b1df5d1fab63d012fbd27971797, 0x45d1f5656fb2779d6ae18e964d9bdf610924a5f6a7dfbecd2224f1c570292f46)]

/-- secp256k1_pre_g[5568..5631], /repo/src/precomputed_ecmult.c:5610-5673 -/
def g10_7 : List (Nat × Nat) := [
(0xa09dd11db78332da663acf08c08b3d45d0f4740f5df66e39d53e6c68f5654040, 0x649959b5bfdfe8cd45fc89b1ea21cff594f6083cda8f5e5b94525d223e326217),
(0x53b22e4e8a17b4086b1190872b8fbc9dfc667b40223ecd9927cdf4d20a9dadaa, 0x87eb7fdfb9c6e23fe7c6a8d7fdf9443888c6c0b71a3728aeca8e83a94403bbe9),
(0x7de0aeb6d3c264c7f39b087ae62dfb5eaac6fb17483bf33ebc34a903f0ee35a7, 0x43f923076a2205a7f2f0737b2167863c43f3cec2ea3abe329bba37926f070847),
(0xef20ed3f3dd1cd8ea610f1da64086edaa4a646dde2bff224ae72f069f341b532, 0xc3477d8aa0acf4a1e9c83a1bc890e59a1b739a8255d3747c7403034b221fd0f3),
(0xab21ffa53c7baab04ee746475a5e5800dcae9a10644c84f3a108cd41cb0dda53, 0x3a02b102dc21cf053abfe19a2747f34a35ec6347ccf028805aa95119110cdebb),
(0xee8aa1840532ceae2c3a5071d905c6babd1982cb391151f0fa869339aaa50ad5, 0x0157d9d2be1350829eaf2c5494e6f90f8a82ad3502d486dc58068cf1c96a421e),
(0x6b234cdffed7575af1cd7ac076c4251d5853718e2ea07c0477959afe5c0af2ce, 0x223c14f3d3d61375d104402bbbd51026a7644b1504f4d25485e9a4a6e8dc2831),
(0xe04eb87907821557a875d84675496d9e420ac3c86e718e45347a616d7616e836, 0x59f333838354990f2189cec8af523611df4a1b3003001c5d84e1de70bbc6bf31),
(0x6b8c79d7791e8423788627b7a99be936145a8eed178c8becaffa8a2d72965da8, 0x28fece2422f67bd8a2d6ef6c66fa51b4c4abe7667480b5204f77bd8b2e3863a8),
(0xd21a9136eed220a9708c09ed2b22f5f287868a1d493f6ed62fe9a45542a4da0e, 0xefb15959cc7a2c027ab7f5f6ec8a538e91df38bef78de45ddabcd8ef09b5394b),
(0xf950b37ea5bfc8c7a76ebefbf228043fde066a1bcbb30688b73e085bcce1ce6a, 0x6bc569cd609a15d428ce787453ab8d02fcdc9c50c8c44016ee2b62a416849616),
(0x75a72a76520a5f29368338ecfba063c8977548f37bbe08a2e1ff5e9788b9bd3e, 0x41c140e45e2be58adee8af9be64cbe8b4c82860b98299d523b27737b3266f978),
(0x4474da753d9c68d7022186481ce835ca4e17220d533adb5338a1978fcdfbc3f9, 0xb5e2d3c4ae2c82765a33706858e7666652a8163827cb6b943d2b80cb36ad3eb2),
(0xe3f3e682fd38b06733f3e91d585f3ef2aaf90409ca125479b93039fe3437388c, 0xaaef5ad54bfddc87f7c3f96994564ac227e6d5acffd345ab246ee2d8060d9242),
(0x140ea6a8ad3741570396b064f7a952f5358ff408951895eeb66b6140d969afc7, 0x2f340af0b08a67dbe6ea75350581b76324308f3706015de2a4dbfa641990cc78),
(0x257c1e042fcceda79aac2bb11f01bce937b445b2bff51fcb555395d2d0c16b89, 0x073b21d975bf23f1aa0efe215141bad25a2359780e36645d08503a603956cb5c),
(0xc243452d664d2610d1acedb6ab5201b9cddce44ab93208064824329ae0b7a550, 0x50607848db2b53c30c9ed2b48c0adc2800322d2e1b30c3df1ab9dc3764b001ab),
(0xa0ae37a73aee0e63c0ca3e50e59a660fc7ced17810dcab267f91ed4403f265fe, 0x8332d25b94e0555c21ebab61cd209599bab277d2fb9660f1f237c9bb4327668c),
(0x2e4886d6678f10a4460b4ca4a9964125413a739c64b6abb90c44f6751b47dca9, 0x96f6bb709602de311be57a61966c8227e5dda6c048d3f1d30bb5bafa0fc1e8de),
(0x0855b47befa7dee62452a602980258ccde813ae46f580a46d5d184325b423f8c, 0xc27f5513114fea7fb5a405d23f25915d775ac8957fdc6e742d968bbdd86c181f),
(0x0dd360b538fe460f9d6ba828e2ac7973046dc386de05022ffe48e891a115e2ac, 0x8fbc127cd9e79454a0be9bb9cf25b7e271a02e7fb4c68653b7e08329747cd68f),
(0x993aa6eb47f7713ee6c5bea81a65af551036d0eb3df8a6f7e091c16d03f424c7, 0x8478497f0a774307d47ed35735462f3fa680eb87fda11107275c1883e859ee34),
(0x04828feb5e3abb4a2df7b990e20e1214804ef2194cb8acf6cb8e85b75696d961, 0xd8d2636a6b664b15f371ab5d3ff31279f7c42678ff380ab09c220b026ecf3e3f),
(0xfb8dbd8464bbb5b1904a26102321e59dee9debbdafdbe5853e1af139f8fc472a, 0x54e088c091a672846c81d13685b4edb4391e51213c4d35e84786301862844742),
(0x0851fc8fcf378f625edb262de0360d2c2e9566c693abea8aaec29e5c275ecc9f, 0x0dbe6025e9857155083b38b7a167adffda70398e85223a6d9b940fa830a9d9e3),
(0x4d5d07c423079d83d001c0008c76fb6ae03bb39e325d579400b5414b46c6777c, 0xd1c1e9705b80fef08450f9411b8d619721f1491e87745c269458d58c18d14678),
(0x8164d5c9cc72b489b6a54e8b0d9cfa9f8496cd343a227a74f37948f95d35340d, 0x90b517769e8c68c920f5e948755b4da32b294bd3eae81da6e0c0b287ce229bf7),
(0x19a42dbb9ff7a400aa821c88807281eeff7df5c6e047cc519693c19106145e00, 0x369e9596903c35a8bb38f4d2a74da3c3cd2246d6b0391e98e01d6101439a1018),
(0x7299deb0a9b7bb5276c8acae37ba0ee70bbfc9c07845765c136cd7627e7b7f09, 0x8a0a1d16f00e30900cfd9caed8aed291ebc56d9766a131a14fdcf6c9ce6b49bf),
(0x12c7adbf112e7718a3ec67741597d6e987763a1004350650e6a804fa507ecf6c, 0xb3eced7fbc3073f25f86d6476d822b8eeeeab7f21b3263be615517e8ef3b1a64),
(0xb2d76abac1af6c6ab4840b34db1125c8d5baf2be90dc7e6a52edbf79a4b0ccf6, 0x92938b87641e08863f22f5efe27f9b1880210d14312ea6a1eacaca0e58c0f73f),
(0x818baa528251c326bf545ff30a56596b58e0b52564ae359a0c1d51994b52106a, 0x9f8b4753a7b56b26e0e79b9e9ae5f30a64d0ce2705898bf3c0f12e43faa69681),
(0xe08080aa21c9b6bada128bad62dddd3ee8e5afc1c460b99745eab92bb1663a80, 0x2b878efb95a198928b3609a1cdbbc1add1530a38b528539ac52fff242c382dcc),
(0x7a8486a41d774bb132321247f7b879641b18a621508f537699b317980490f3e8, 0xee8c30855c3fa5c16f90b68c89944aa8dcb824c8c37a0febac79640315ee96a0),
(0xf74e74f16e67c1f3f5952373e53cb85e650a6dae2302f495f6882b9de2b71cea, 0x1b15103c8566d2ee0cf5c59cdab607e497075e3001443b75426205452d1d2bd6),
(0x3ab4150ccdfd67935f8718f0dc961126114a5d82e1791c2d487404258e8ba004, 0x2a6c6f1b9b546945f9d327b1437b1c5830a48eef6a14887a9d8ca24cc6bc446d),
(0xeffec0edbb80580a7bdf80cb38cf775a43b786e42c80d73e7a254216ed7ab7c9, 0xc7c27bd957c996e042ceda332d0b597291ae57256df77e8248bb1716127c582b),
(0x5f49ea214d80f735fd5f51d055d4e2f0fbf0f804a8f32615340bd6c165a059e1, 0x72e0f03283684df098e740dfbcc39d616956ea36275ca5aedbcbd682510496ca),
(0x2327c29a0007f9064cbfd90043d286185c555bb9bb64bab1c3e204174cee2591, 0xdb1711bdac9095db39e3d2f7d2b8412941dc6f8d116115eb7bfe710c13b9e41b),
(0x12f2f42764f77c84f8a97c5d7743bd8ccd0c61325cd10fd176975a970b447991, 0x713e4660cadecd983b0e4986855c2c67bc2203342991a18cbb0c08f68282b246),
(0xcdd3eb6cb496141cb99bde6ea66b2c787264e6c8074efdda5ffc53e4b3292a08, 0x0d1270d97cd63394b385739f4da31dc080f410a6aee164fb8147b7f69f2f1cc9),
(0x02ad4df21ff316e7ce29d76cda40cb7e31aa7e1449fce23b93f0d096e1b74159, 0x972c77aa160c98d6c64dd9d14a0cedad875e09b5b0d5378a7311cd2da7d641a5),
(0x0df0ed61d6c8f906f970b9afb40803682f12127be318575f8e2111bd514c33a8, 0xe9e67c4d7b1b0fb6fa0a46400062d72f028180e6bc8bef1d60a1ea7902c4f259),
(0x9572faff160577b183aca01e45d616477dfe147fa6ae0b26ca0264aa23d2870f, 0xb7de270f572e15038a4a9b3b706eb7c02a6e5e56ab0f73ce9f4b79260a79c5c5),
(0x52583f1f1d51acb9bd25b63e158f66b98e021432427efd5bbd629594ba951264, 0x3267373a94719487344c9af61eb4b726a595bfd341d78b33f3db88977e53427f),
(0xc95cd1257e59d04a6d953d7df68089c0c29b6a2890ff264f74b469fcaf7cfa58, 0xf5c7c7fd82d3fd514031ce72657cffd2da83d0729b0c4d6c661802149e6ac90b),
(0x67a190dfe1a2bf4ecc23972d24d1f13b803a9b4e5c1f3cec055d2c2c3b0b2487, 0x5c35f795c29a2f0774ded77672ab5a7d45902f50e76a229a212d580e5edeb8c9),
(0x7ffcb588ee9192c43bc5bd3b4d0c821128c3f2a062ec3b0d77752ada69f468e3, 0x9204301afd0ecd0d26f4987847c42c70e526f7d2e69a97f92aa1c357d4140a8a),
(0x7d693f1e6e35e06283f359103c1cdd8a5279c4aded0edb63d6c574ea322e91d6, 0xa9042da9ff323c4d46b2b40a1d44970c92e3cb32ddd8dc210d32d609c5611888),
(0x7e0e5dae8ce3c88349a9ee95fb357694a7bd48d0f27c2eba49896e4a3da04fab, 0xa397f8acdd4077f958d7b5fe28582bcd4c46d1eafa253db518fe90c761dbaa4d),
(0x715ea4a8e5eca76e48605688560872d67a499a8fe84f715ea91d724d71fc0f06, 0x9a7b3eda8b82dcb460ba351518c22f59fade0636dc8930500a51530d77ef8501),
(0x52a9c85cca99e4ca50f5efb0118fa604b7e789b6b589a5d6368bab1144c8dbda, 0x3796e4e787dda75a59c7503a0f27732d8c973414c1ea0a90fb6cede8a5066fa8),
(0x58f1c65dee5ea20057644796a94e4a420771c827fe0321160657e9900b56e42e, 0x7f12725d388a22e34f1917149f48f0a33d537c8a1037247cde0594eaa11de507),
(0x3ce165f65f569bb5e594110eef91f30b7e330586e86cc4c8347d1ab0f4a8eda1, 0x904803270737633572d92c0010313f969a0c5d18c852597d1f88020df69987bd),
(0x133bb4fb1a16b00880379e4dca9803550c747683cbd7e81d87a9eb8f4219a314, 0x30e76ceaf57f8b170de6d31e447fb926b1678651e980338e8f8327d2648ba25c),
(0xcb26bb354cf94461c675838f653c384424ce543f032ed7b5ec1b6b33a2f7670a, 0xd6f9be8c7f3781eafc765264c9e84f2f6d2ff77125b8d381199b67c3763c4f2e),
(0x7d944d4058cb78ac0739b85e06dd3be56b08fd56767fd02b1d5bba08d4639f1a, 0x79716d1844baabcbaded3600ffa6898945920de91f2cbc83e6326ed4e37c3fc0),
(0xc4577e4200ad4014e1fbc0a4d69fe37f49937d1c19a9576574f2437ad06e6589, 0x4a76bf04018a4a8baf103581b6c2cd16727fccaf12a3998d52b1a095c5388570),
(0x0c71f4629196f35acefd651b3f6f2b30485e35f3305dc7742153596160a17a0f, 0x9ff5345252ccf823b83d47a1a6a70f84b9c83142db0136cfd03b1f246ec57590),
(0x35acf6e1cad058b67543eb60ef4d896dc21c4b5e292c3885d9e42cf385bd22be, 0xcce4ea31c9a37f8f21e32a5f6f2726997cddc6fd8ab11c0d12c3ca4bfe6b0e92),
(0xc2872becf2abb3fe8a258b3c51a2bf826712ec12587cb33ca6765a4fe3a3e448, 0xa739cf6363cdf69c15c9827af759e0faf7d921129bce9e18bad86c0a9f6bf467),
(0x50fa12eb0c3dfb3bdbb61a16a8b0cc6b6e6882aef245360ce552414327d2bfe3, 0x873afcc95ed9a3e52f1b0515d901e9c903677d494e64a47811ec59c4c3374393),
(0x3ff1688d65cc134ec6f27fa2eba78abb2cf22eeb57163e2a150ed7aa17b3640b, 0xec8f8f6611d8f7eda296e69063b3393e58d8bf8590630da73dc2c0ece9e05870),
(0x91a113c6c53b57dd60b2eb66e6bf7ab0e721dac1acd71d762c278b31f2fc2701, 0xbeb6c79a2fdba1884f98ec5bfd97626a131f5c16d4466a84a9d7721396220b17)]

/-- secp256k1_pre_g[5120..5631] in pieces of 64 entries -/
def g10 : List (List (Nat × Nat)) := [g10_0, g10_1, g10_2, g10_3, g10_4, g10_5, g10_6, g10_7]

end Secp.Model.PreG
