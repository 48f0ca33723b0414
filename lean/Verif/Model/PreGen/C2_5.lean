/-!
Generated from /repo/src/precomputed_ecmult_gen.c:13-44: the table `secp256k1_ecmult_gen_prec_table` for
COMB_BLOCKS = 2, COMB_TEETH = 5, COMB_SPACING = 26, as pairs (x, y).
-/

namespace Secp.Model.PreGen

/-- block 0, /repo/src/precomputed_ecmult_gen.c:13-28 -/
def c2_5_00 : List (Nat × Nat) := [
(0x7081b5678cb87d0199c9c76ed1e0a5e01d784be927f6b135161e0fd03f39b473, 0xad5222acf062cb3921b234a715b626aef780b3079b5122d153210f42d9369242),
(0x228af17edf90d1cca40173e9478fa4459780dacdc3f15b90fda5d00e1faa1b51, 0x8ff47c4da4ba636a0f656da912a81f796252496d1e519886b2c2b07325be2b4a),
(0xb515ebe0f48fb34e9e01824cd90553afdb116579966678475ebaa700242fd722, 0x4cf081910510fbf051f9e19a198f11f6ea31268c2a6d384c60557250f0553c50),
(0xc37581f135446ff3e80cde04ec987f085af3af9f71d87494099b03badcb8f78c, 0x9e46324a8d8754fefbda7c342446cf72b747270825cfb92fa22a4e734f1e9bc7),
(0x768392e30b2ccbbc21792f2d6f43c63d0efcc249bcd549cb96abd8ef4ae59e90, 0x5d061a40ac3f93d182f0f7a9914fff5d90bbacb91965882c591e89bfc49da994),
(0xa9db5de92d96c7158ce5ee003d186cf1976f6a76f1be0714726594fb6c1ba564, 0x743df2a8ee73fb4a047b3d0f2f2b8cab05af5227f232946a82676e4e8bb70c8b),
(0x58921d8d3712f640657e762a737ccd0acece1459a2ba832320b43903d4953f93, 0x78c269597e422c02c01fcbef484a9d449f635c82849bc2a32a9bf6ef3e6f1e7e),
(0xbae41760ade541bb60028015f6906b78aa41515ad995dc40afa091da77ae8b9a, 0x716ff74dad6dc24c77ebe31fabe1979241d18b0f43ff7598c6ea04c66899219f),
(0xe836ff6c6f9e02e24e6f6bcc2f2460b49de887306d69241fb22fa5747e100f80, 0x77c41df14d87b6d3de74decaad426635f85daca00ab966a45a26a972032105c5),
(0xc7f17d19fbbf28e2543fceb24268ff6f1b85e18979b099917457fca09ba1b5a4, 0x23a6d4aa83ee15bff16555753e4162c58acedadb4c4abfc2054b7018f477514b),
(0x79c337ad8835046e572eea35df76276b84e991727bbc68a608c0b7430028619a, 0xaf6cf2b39c6b51c9f1f92e426598dcbe39da61962abae0dad5fc8d0aaa16a875),
(0x1e77739b12d208872bfe200bd202972a544804f52b0969c5c22fbe1cb8b23837, 0x880c7490c0455322a0f1e67d34b3fd1e33c1e7da83b9b0475aef7bc1332ccee5),
(0xb1d314c174d493f6c36a893a0830d90bf1e86d0c6deceee0edb77ff431e9607f, 0x8a4ba010ec3e47cb29d8f056e056eb733b6b35f64c742d069ab832f468bcd3be),
(0x2498aea6471f748af14e50e6bc17e0a3ee09514dfccbd174f8a21d02dd0fae48, 0x55a3949f2e4188e2b3d344ce6f0276b599b121bc358e8fe6bc4f03f5a8219d08),
(0x42d0778e27e87710dd19285ed531af1e7064386d11b1b3c9fb788bf2b0c112dc, 0x37888909d943825a9610e37a0362549f547b7c7dae64a27ec34290f0b4fc5fcc),
(0xaf09a9f83a21b2fd69ce14c5495c680edf18e426c1ca5a1caf56246fd6ea5bbd, 0x8eae43ca8e59101762c4cb029e5cacd258f0fdb1ddbef7e2c5765208107c96af)]

/-- block 1, /repo/src/precomputed_ecmult_gen.c:29-44 -/
def c2_5_01 : List (Nat × Nat) := [
(0x4a7f72edebd8df1f13db15be3ab296a8d67edee437965f03eb5012053518ddea, 0x1f8c4dc12d0e59e77d30a326fd4ecbf8aacd5fb607dc7169898a9708ac46b972),
(0xc4d4f8d4949d1ff6559925dbf4d34972af16062bd59493b8b1e0d546c2870874, 0xcd7f93e6c0ee3fdc4267625aa66205404f6d80c3d0f7210a0ce6b52ec350706e),
(0x773627f7dcc561847eabafa342fffade325b8ee2a96f2f77cbe675a62942277d, 0xfb0ad7319bff4c9c270d93d189a4c380218ec9df1f564228641ab35c46526bd6),
(0xff443101befd0bd9e19148643eceea06b9cf711b1405e3d53883a29f906063ed, 0xaa1b7d9f59cbddf7bc1ad03c44c4295eefb406ca7960c683eca508d1b2a9a2dd),
(0xcbfb6813a6874b659234e866c2875f70e45f9f763d6347523f86040c880a2e56, 0x0ed85d1a6620c1a485ba3038d2ee65904e27206beaa531ec1eb5b8868232cbca),
(0x4e85c77b27788563aaeba139975f7125f3c933b48d67ba6a2e964243bdd7bb51, 0x200a9d9b3400c87b1fb984223200aeb8e6a5af1d58c061f0d059c0b8d431c08a),
(0xd58178edf0ce32e339a524f7ad389f7d8817f41fed782612452188162a67d4f0, 0x4840df815dab959693f9284c54bdee72f4861d393944c648ecd76ec56dd3225e),
(0x0670f8f79b66496d13692558d56d4cd7a1eeb0d69e5133ab4f0a064b7152fce4, 0x01a722066f530586927c2e39370d11f3e251bd9eeee10303406b7592716333d6),
(0x10b41abded4de2feb7a40050e61e5982089a8cf36eaa608cf2a82c635788f1d0, 0x532d168d680e9c744d5111da6aab902a9a0f52837836b9d9585dbc8b1a407de4),
(0x76abd21b103aea9af04b4040297894cea501474d09d38d308ed02cc7137bc7c9, 0xb5a432ad9e92935f7040897e3b04152f0693c5f2cc1e1d532c33f70d185318e1),
(0x4335e10d5e4f02e6f1b58a0dffb473ec15f735a3bf96c14050bae78c37061db2, 0x1301143b1f29f122afcd0230d46b6b38b154e58992b7eeb416088968a7d57485),
(0x2b3966f07e37e771ac4c68adb8eef3c0977cb8952f47676be658aa8676057f67, 0x5382a6c5bcdd1a016d79d81780faf650c0a486bcea8fb5921cd3492c42c91c3e),
(0xf7738800b7fdf237dc7f03fc437240118b53aea44d7953d4276f3b4dbf5c0ff8, 0xc1de7924ef8dfeed0c4fb409f1a15d4c5e8ab42c90ea9c92867b5b5cf2921605),
(0x5cb07874ac4ffb862da619be4c8fa38be8b261ec3ec73a12cd4cf8fc4f8d5dae, 0x549d18964931dabfba4553a2461f266087733454ea8eec6bf671e3de60c70340),
(0x5cc85d417b2ae9acdedb1b44ce78d8a78f56b8781a4b3af6635a55c1fead3be7, 0x66a48c79301e57d454cc8644d2e778a845d857622c10eb98d77eb873e58bbeca),
(0xf27211c9a067b01c7fe7fbf707b5d9b0eb0f24759d5414576eb24ba419fd3db8, 0xe26d28eb89f7b518e9ae0b88fadbfb9b641d3a44c59c6f93ec28a541486e041e)]

/-- All blocks, /repo/src/precomputed_ecmult_gen.c:13-44 -/
def c2_5 : List (List (Nat × Nat)) := [
  c2_5_00, c2_5_01]

end Secp.Model.PreGen
