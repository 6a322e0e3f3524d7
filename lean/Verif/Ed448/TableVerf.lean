import Mathlib.Data.Nat.Notation

/-!
# The table of odd multiples of the base point of Ed448 used for verification

The words of include/table_verf_w7_ed448.h, in the order of the file: four runs of eight points,
21 words each. -/

namespace Verif.Ed448

/-- Words 0 to 167. -/
def tableVerf0 : List ℕ := [
  0xc86079b4dfdd4a65, 0x199b0c1e3ab470a1, 0x14181844d73f48e5, 0x93d5242bd0452714,
  0x5264370504c74c3, 0x8d06c13078ca2408, 0x508de14f04286d4, 0xc86079b4dfdd4a64,
  0x199b0c1e3ab470a1, 0x14181844d73f48e5, 0x93d5242dd0452714, 0x5264370504c74c3,
  0x8d06c13078ca2408, 0x508de14f04286d4, 0x17df1c4564ea331a, 0x671961d62834161d,
  0x720e7c3ecf13b479, 0xd342cfe6da5ff1da, 0x60d92d1368c217b6, 0xafcdf0965bf0ae3e,
  0x55ffa716590db7ea, 0x818762033a8e9d1, 0x2415c32a67c92a45, 0xb28b5999302174f9,
  0xd98d366ae207a4f0, 0xaa3d3950737f4ad2, 0x47968b2b0d7351a7, 0xd5cf9c39aa5d3cac,
  0xc59d41f91a5d116b, 0xea45042c25ad3e30, 0xb50edae9850767cc, 0xaaffdd49b432b740,
  0x8f2b798bca19bbfc, 0x12d3e9adc233008d, 0xa4ff2dad6287aaa8, 0x5e0b42f0ea3bafb0,
  0xa7259870898d388, 0x634cb5597fcbdfc2, 0xc6e94f673841e868, 0xeacd0ef7a7086bb2,
  0xd22e4bda8eaf3dca, 0x3d0f765fc58d6488, 0x1a7df075e2c965e5, 0x80a212934b40a4ba,
  0xe24da5e893030d95, 0x59252dd4cef5813d, 0x7ed245c7dae75c16, 0x28c2b26437d4382c,
  0x9f6f3645321672c5, 0x5819db89bd7ef409, 0x322a5ff48a0008e1, 0x89fce45d3f2cf040,
  0x8facad972fb42411, 0x4e50f9e512faab19, 0x48e5a68830326f50, 0x3843e2cd9f1ba228,
  0x756002863953cca9, 0xce8e5afcbd579934, 0x90ff24a5d022985e, 0x36bae939f3589f28,
  0x255a2bcc417ffb23, 0x72f6f52f12a4c3f, 0x82887cdd778188e3, 0x287ebf3afd88eef7,
  0xb5cb565ce6792339, 0x106c60376d806a48, 0xd479d460464b4935, 0x43d541d08867d353,
  0x22dab61ce371c885, 0x82d57dadac808f64, 0x7dd59b2183c14092, 0x27b912ef26b6293f,
  0xe1089a0997374239, 0x37f8459f3f7ab668, 0x35323073e6978319, 0x2b6edf68125caecf,
  0xe94a2e7444a083de, 0x298ac16bda0a22cb, 0xf220328b5b8baca1, 0x3719d7c4430cae21,
  0x31229c6c9825793d, 0xdb13a85eda9f552a, 0xec6f91f439162e8e, 0x118fa4f210c97171,
  0x5b338e746237dd85, 0x12e547dfe71b1225, 0x29a24c5df53a3afd, 0x2b0a1918ee2f5c3c,
  0x55ae290d7a5067ef, 0x3113b49041d6cd82, 0xac088612aab8115d, 0xd5defd5f838d37cc,
  0x6deb0ba70aaef1f7, 0x3cffd8591ab68a19, 0x12757bda9cefbcbc, 0x170baa3c2c8f80af,
  0xb8f68ac818783686, 0x90f657622c572f2c, 0xea9638a507a2bc83, 0xc542cd3b1d4611fe,
  0x96d9d808720467ee, 0x2c98f164c3acf707, 0xff2cbd6cc87dd755, 0x27a88e17b86ed615,
  0x1029ff967973b166, 0x2ae1fe5b0c9bcb76, 0xc2c0b46fdd6c6fdd, 0x311e8c66e8384b1b,
  0x25448cc3cd94b963, 0xf7aa01fc8039d57b, 0x66c55fd2258a612a, 0xa30f113ecf17a438,
  0x7b2e49719cd1b6e0, 0x7ae6ecf16bda00de, 0x98f8db7be9713815, 0x258792ee532e91c0,
  0xfd7f461533bbb0c9, 0x8e2b69605778b4f, 0x632ad15bee090ddb, 0x430d06bf8c577b8f,
  0xf07386a2d949221, 0xc646bf2ad8e3f1a0, 0x740b84462b8f1f9e, 0x67f1ae94a5f8ffed,
  0xb5c2dbd04add9bb1, 0xd3a97d1da90c4958, 0x9feddc1f312e8473, 0x8d6a85b135e0fa74,
  0x1a734308d6ffd086, 0xa83fe5b3d443f8d5, 0x54eee64e65591784, 0x736d29987e5eda9c,
  0xb81545480991f34, 0x6d819c2280bbe5b1, 0x8db69c7e6f6527af, 0xf0287a48202e5c35,
  0x3aadd6ce71b7fe97, 0xd41bfdf35e74f681, 0x89c9a6c8b7c27c1e, 0x9cec0ed624ec4703,
  0xf764c22034430a91, 0xa4d18395d2c8484e, 0xd907d50d3b414efb, 0xf1d05754781613f1,
  0xb333b9ccfac204f, 0x8626573e7fc35499, 0xf73619e38d2ba5d5, 0xff509af914476923,
  0x19d311c33550d164, 0xc0da500b30da87cf, 0xc2049368e50025e0, 0x1096475f362fbdaf,
  0x615280ac88e4bda8, 0x5b20ad99dd63e973, 0xc0860f252aa25e1b, 0xe6f08d40130c2eb1,
  0x31c9f47dc5085500, 0x9a6367dd69993a25, 0xd92cca19a12e89d6, 0x1236626ec35d5f59,
  0xd0c9ada4dce11559, 0x39b72366affceabc, 0xaae94354a8962a6b, 0xc235df5e92634032,
  0x8f73defced0c249f, 0xf8b01f182ba3d5a7, 0x4f7c28fdc3d955eb, 0x78c383c2aef70dce]

/-- Words 168 to 335. -/
def tableVerf1 : List ℕ := [
  0xa501db379360e671, 0x98d3f9d58ee8ba4c, 0x60358b153aabebe5, 0xcf2e9b102d9ce5be,
  0x18f5ce728fea6465, 0xa0ec04ae0ef0e2e5, 0x97039fb107636520, 0x893a7f953064419e,
  0xfe3b9a2359790a7b, 0x1050042eb20813a4, 0x36507191a42ecd30, 0xf41b36a38df4024a,
  0xd925808b0415ba52, 0xa6978f88d92067ae, 0x68a02355bd46e7b5, 0xdae2750af1d912c0,
  0xb50f9fe414ca6bf4, 0x1cd19463a2a5a63c, 0x47b6982702575839, 0xab2d6fab5c4b61c6,
  0xd5c8b012f969c1e3, 0x9b82a279acd57d19, 0x17760273c0223128, 0x8e6284c957797010,
  0x4bb4480867610404, 0x86621b36ff8c53de, 0x6444e8e5b19be15d, 0xed915245a83f68a1,
  0x8d2415901f361a42, 0xafadf01efee68024, 0xf6ea5d0da6f0936a, 0x32748576057a9662,
  0x8454e7625364c8c7, 0x35954070196640e0, 0xa83229bacd436468, 0x6620eb99e4d6f63e,
  0xb4f376d764262e08, 0x5a7099d29235a4c5, 0xecde13b3de9e91a, 0x72d6d622031324ee,
  0x7f0ced93fdde2b08, 0x48c078804d22315e, 0xbf2ccdc49ed2728f, 0xa39ee286224d3a8,
  0x6c692e21ff583a19, 0x218c161cdd0186e, 0xe8108e1fefe3e95a, 0x3abd38eecd482b90,
  0x271033ae22dbcca, 0x533baf662632a4f8, 0xce743cf59291b0e7, 0x605fcdf4a968ddf2,
  0x72515d5ccddf71ab, 0x558e54ded6ea963a, 0x6fa934dd604c084c, 0x624d4ea6a80204f3,
  0xdc72696238ae4a76, 0xc331de611dbe43e8, 0xec9cc7ca9d338f42, 0x728d784901aae26a,
  0x39c9d3c252ea384f, 0x457fa39b09b9ba71, 0x5f5ce7ca29366543, 0x1fe5746d48354289,
  0x9f3341845b28ddc3, 0x33766d155d1df342, 0x7a4f63fadde9af36, 0x540765344f1ceb9c,
  0x9906d09d628b4cbb, 0x3c3db01985dae9b3, 0xd222cafbff699bb, 0xcf9982016f98aa7a,
  0x8c9ce0893a0ebd88, 0xef7a43cfe0c42017, 0xb896f2fbd4879f0d, 0x495f65ec5ccbe803,
  0xa3dbc7f6b4857ca4, 0x517db2a7a332f311, 0xc6cb727da2eb4482, 0x294f0f0e38b2c7f6,
  0xa1668646945be400, 0x285031b615ebb383, 0x8123e939320dedeb, 0xd143114c17ff3e99,
  0x96f8968f94f8e7ce, 0xbafca72c442072e6, 0xbcd8516c9bbe1c8, 0x8b6343517f5ab5e5,
  0x660246ff311d8e23, 0xfdc7e2caa24d9ecc, 0x82a5e66fdfdbb122, 0x42658eec4065f5d0,
  0x1b0bc810e465c178, 0xd85545eece6896dd, 0x8dc2ae1977e6d36e, 0x9b2f006d3f143e8d,
  0xb3473a0f286026d1, 0x6c8ca25242868e6, 0x380f8fdb9260bb54, 0x16214ccc9e4e6e0,
  0xa48e7dedcf0f2bc4, 0xf90caf0cba0b73d9, 0x5a2cdf532a29ebe2, 0x7345b1d701c18ffa,
  0x4489741285833292, 0xa7e12eb1c23c730b, 0x59ac2d3dfb7ac9f5, 0x510413d11136fadb,
  0xb0dafe936b9bab1d, 0xb9650f211179b48e, 0xb4e030fd2a9679bb, 0x2aadd45d25559a2d,
  0x1c643cecfe04c59e, 0x86e5cafaeed95ed, 0x9ac45f7e5929029e, 0xce3c4ee1867232d5,
  0xbbb74dddc43b6999, 0xc11562aa991a3bda, 0xcffc156ec6cb6f0, 0x7f19562d7a3ff12f,
  0xfb8167132e59beea, 0x8b13e9d51da3c8db, 0x700bd9e79fcfdf29, 0x1b1250e94a5715d3,
  0x271d31a898984b81, 0xeeb2269957ed3847, 0x5a3d8b3b67b2b21c, 0x56283d3c7e387e30,
  0x5d6ce68b5387d859, 0xd17a2ce10330ae5, 0xbd5472a868ee76e8, 0xb753c7776e9424a6,
  0x5f749a78e97a1c89, 0x1ed85508cf1c9676, 0x8ec2f4329559a30d, 0x78c971da044b5e84,
  0xb8d4f431b414de52, 0xeeb515dde820c558, 0x5955aed6f5e061ea, 0x82171fac74af3e05,
  0x18857e11fccd2459, 0x4298663171f7693d, 0x857e39aeb28c0095, 0xb225fcceec02b0d6,
  0x6d2e96615b8e99e3, 0x6f0e4193a5715796, 0x3ea956f7a9bf0afd, 0x2c85cc4d170c2ea2,
  0x47fa11ba08d2a018, 0xb9fed76a36af8671, 0x6af8694998892fb0, 0x5d5e60220a5e27ad,
  0x68852999275106ca, 0xc1e9a05021c4e198, 0xd3b73f9291ee704d, 0x7d65f5166e8ddb1d,
  0xf24b7026596cb55f, 0xa6a7a5fe86dfe7fc, 0x37c0ccf9e906fb5d, 0xd71da5d20409d8cc,
  0xaefbad3cac92ceb7, 0xf7512a86c79aa317, 0x5c015a2e22497996, 0x2dca00cbe8d495b5,
  0xf046650b3634b655, 0xdb15c3e58687fc49, 0x61e64c82d3f2cd32, 0x81f25a0f9ed4af8a]

/-- Words 336 to 503. -/
def tableVerf2 : List ℕ := [
  0xa5ae77f5cbc01088, 0x79bd7e8b2ecdf6be, 0x72aa28c369eb4a62, 0x620eea468725a987,
  0x1081dcbae21a6aa3, 0xcdc6808916f60133, 0x4a354a090ebadcdb, 0x666d4ab8d02bb286,
  0x631f191a3bdf327b, 0x5b60145c1c3d1fee, 0x35c6720db1074972, 0x5b646b80da5ebcf0,
  0xcb3ce6dd395434e5, 0x3496b1c6063229e5, 0x8a77e68684f58685, 0x6295b814f0c8571,
  0xae07780771262eb5, 0x76e3ac65c34695bc, 0xf343e33185d47d51, 0xbb1cf82c6bf77c1b,
  0xe2a47fba4babca8d, 0x80539d8aa4e7ee1a, 0x2bc4e089dc4eb8c6, 0x6b55d281ec6f5260,
  0x4c26428e67176f1b, 0xad9fcd7bc6292365, 0xf58ac3750cd3424b, 0x3abd5d47f7559ebe,
  0x86c67ec7f93ba80d, 0xac43ce27ff01c094, 0xbe3122c18dd2e1e5, 0xaa0ca1784af9afe1,
  0x521dfb8d09e480d4, 0x560289a2f22d60c8, 0x9a2bf0c78527563d, 0x7c0a9d2c6bc77c62,
  0x30821c87e63c50e5, 0x3fb31a0b6393c67, 0x5d5d7612df58a17b, 0x3360c332379b8f0a,
  0x33d020fa990a9fea, 0x4e7c4986d494c321, 0x8f95d155fe710cc7, 0x6fe8bd30746bbb43,
  0xa065fcf562061b1c, 0xde616664c91281eb, 0xe072b18eaed46df3, 0x4639d752280137cd,
  0x17a1ef7047cf550c, 0x120e168883de588d, 0x95bfdf4b60500342, 0x8a5d317e17187dcc,
  0xe5f4f4ea14cfc166, 0x4f1fed9b86322d63, 0x59cafcb9233af03, 0x982213ba421b470d,
  0x599f103d7deb48b5, 0x4d409d7d4f1cf8de, 0xeeb70921b524139e, 0x38782b5ebc565c98,
  0x4fde2efae0e3ac06, 0x9dd184712dfbb3d2, 0xc7676803c8355b12, 0xe0bb3506a7fb65b6,
  0xe430ab9840918d31, 0x7f5d65ed895912ca, 0xf7b478faa4a069ae, 0xa62464797886aeed,
  0x20ba89a0d3f6e1d4, 0xdb791adb8f0d54f4, 0xf0409fde4d0c82e1, 0xf2cd0324d38bbdc1,
  0x69bef17f68e27d92, 0x98ec3b854c6734de, 0x75e62796c03e4dcc, 0xf6e0271ec037dffc,
  0xe2dc399b3dbcbdc2, 0xe2f9fe339a729d8, 0xea91fdef7021244b, 0xe84c9cc9072e1bf,
  0xa47f99c5bbe6d5ad, 0xd819276495cc2ef0, 0x6ce229b6ff0d274c, 0xeca5afbb9c4dbbfa,
  0xd14cfdcf9f3f33d6, 0xa27aae2764ebe5fe, 0x48e25de3aa6d5082, 0xa1a719d90476b360,
  0xb2b545afa9388d73, 0xeb66847b35f19b62, 0x15616a2db2f1ef06, 0xcfb259daf7425086,
  0x9ef75d538eee3d0d, 0x50188e8cc72d266a, 0xe6e52a74c51b76d, 0x27568b81b274160a,
  0x8be106c556f48422, 0x519c10f69adb2dca, 0x9c851b9678a2161f, 0xd0f4b0ac0fd44976,
  0x9fc78e6e6d7e2c06, 0x5090c0c88fcad18, 0xf8772327279a005, 0xf809c212b40c8749,
  0x49931347a972309f, 0x4d9e9ec0d34cb1cc, 0xc22ea794a50b286d, 0xfea68c97329afc7,
  0x733d3a8f968d3734, 0x71b5838dcf9f6d1e, 0x56cfea71674be1b9, 0xaaa89e2f1572ebe5,
  0xd150ef1a1c853ef4, 0x47fe980560b220b4, 0x425a4e2cca76c13b, 0x34ee3957aa20f7a3,
  0x6cc4067ed368e11f, 0xe644481ce42b76c7, 0x3288b6b38d2444e5, 0x31336f44d0baa718,
  0xb5c7c5e312f6f800, 0x8a181875b5919c91, 0xf5ace2e1124edab, 0xe5ea80d3ca2e5f94,
  0xc85e266a8b679634, 0xf0bf0ca26c5e2c9d, 0x258f6ee85a3bfb3, 0x888c5957d630c478,
  0xdea9740abebc7c08, 0x3d8d66bfd841e769, 0x86fe3465478c0028, 0x88c4946a41f26a9e,
  0x8907ee69520d2375, 0xbe93975870a13c22, 0x1e382a468a0ba859, 0x808b4af29f616b08,
  0x89c9f36092c86e68, 0x631583ebb0636db2, 0x9081b4feb8bb640e, 0xa4de6e74b9102801,
  0x4aa74e6fa845231a, 0x6099eff943b0eb0c, 0xb1437186c066db5b, 0x831d098de71c7b22,
  0x2fd942dd5ad39c76, 0x7ad46bd9c27aba2d, 0xf10bbf856b5fd5f1, 0xf2b6ced21ffa83b2,
  0xf972a529e51bea2d, 0xda391b50f24e4825, 0xa10cb41316c534, 0xb61470f38bf57a79,
  0x6470421e68479afc, 0x6af958203d3e842a, 0xaf86c2f5c4c0eed9, 0xe0d5641b87d2d245,
  0x480489434f00448c, 0x5b232f0694ca0b4a, 0x205af55366448d6c, 0x5e2273cc84582872,
  0x9111a36a5e560bd1, 0x37122f68a8889f6e, 0x2a5beb248f92fc88, 0x3a4a94c4014d02a,
  0xab37a6e81348450c, 0x6c4073966c3806c0, 0xeb691ae9c656eac6, 0x2fea2b586933d17a]

/-- Words 504 to 671. -/
def tableVerf3 : List ℕ := [
  0xd9aa9d004105a858, 0xe28d4ab541b9cf98, 0x686b28c8ef72c0e7, 0x7404d08b05dfc99d,
  0x3a356ea305524579, 0x764e6f08dcb2efe3, 0x9afdd8f23ba6785, 0x7e2a654fffc838b4,
  0x14f7d63db9c6b1ad, 0x908347bb7598f6cf, 0xe4fa7e9914f6e1e7, 0x27db1ef0e7e32477,
  0xecfc5208f204164e, 0x893294e1672edb55, 0xf088b11a3503ad00, 0x8afd615212e411c9,
  0xe2246424c0a6a1b, 0x201fb2f250e2f9a5, 0xad9c0c7fbff61078, 0xac0969bad4828b40,
  0x3b57811749c46d4b, 0x6b1dbd1135b4fe0d, 0xe3722c23d23bc5c2, 0x6e21a3fb7348b148,
  0x24bc60e1ac6909c0, 0xf675f0000a639903, 0xe67dd451dbd6c592, 0xd048afc3d77911f4,
  0x958910e331af4ff4, 0xba02489f31f68af0, 0x9812cc8b223c2b42, 0x2a32cac43a647a6e,
  0x757a5e78cf2cf872, 0x58ac28624846726e, 0x839e442a8859c61a, 0x24d41bebfd36deb3,
  0x64a141a9fe8c081b, 0x7186ae94f9db6df2, 0x10dfa0b2a3bf10ab, 0x15badbfcb3ce748c,
  0x7451e369c7a91f6, 0x50e39326611aec3c, 0xf6d9bdb083c550c5, 0xcea0331ac15e156d,
  0x2c4c631e13b7013, 0xc412d3979cd58cec, 0x9946922fbd5f9a2, 0xe000f2f2dbce592f,
  0xb3f56b8b2e4408a9, 0xbc61b765a2ecdd90, 0x8ef8b0d815a270aa, 0xd12029a3469f3d23,
  0x60bedeb6c68115a1, 0xead3ebfb15ac2463, 0x8cf4221e38861357, 0x63a34f21271baf5d,
  0x7a97a1fdc4871507, 0x90016ae3cc561f07, 0x8b87e0b250faf9ce, 0xefef092af66c636c,
  0xe0cb84f6254031d2, 0x2d8302e2cbc123c4, 0x18817cf88b7474ed, 0x8bac2e639559e59e,
  0x3c565be18ec13c03, 0x656d0c60c2e44116, 0x120544436827fc9f, 0xadccfcfef04da6c,
  0x4b602ebd3127f1a, 0x6d35ba22f0cbd6ca, 0xff41e64c64f96d09, 0x25a238fa1ece4d01,
  0x9dbb91183903ff62, 0xa918553cf1f002ce, 0xb2a98dfd35d24dab, 0xd64969c66e06b7ad,
  0xa0bd6b81220b9898, 0xa555f12b5d85f422, 0xa161f12578627d6, 0x99d828b638f29b5a,
  0x1a1721ca7f1d890c, 0x7c30732f775f020b, 0xac21f3e7cc2bd7c8, 0xf59b1dd85d11a753,
  0x4e256dfdef5d6394, 0x57272824ed03296d, 0x5fee37fe1a6a3e47, 0xe18a2578fd142983,
  0x7d405565cad83802, 0x6d0cb6607e7c2c48, 0x2b9cd65362b3e8f7, 0x629365f562702547,
  0x1ad908db6659ac08, 0xa978a202eff4af19, 0x71a3cb1108fa1c55, 0xb55af3c7e762b174,
  0x2f72795710f6d48b, 0x88fd485f447b8613, 0x6d32c39a05cd0210, 0x343bc406ba743a10,
  0x6ddb9abaa3ed36bc, 0xf5dde4d0979969d4, 0xbb3bd1ab4ed37cd4, 0x6f06125946ac7e9,
  0xeb4635e586a812c5, 0x5aeee8c7c611959e, 0x165991597272a026, 0xf2b415d7bb7e9949,
  0x34e2a0c84d5af940, 0x79f3a9bf99f3347b, 0xcb4e7486f40c1ac1, 0x33aa6d51b6ad90bc,
  0x1588246ca2c5d19f, 0x73c4024507f66871, 0x92f07cca87757e, 0x9d1664e0dd5ad675,
  0x151a8ef49f338062, 0xd72d624f4d0fd31c, 0xdb1afbf0eae377a5, 0x4e325afbaab1a26a,
  0x83ce4f9ad50647ff, 0xe9f8b8473e34825b, 0x57deb79c8d69677c, 0xc91e870c564188f4,
  0xc4d92c685cbf542f, 0x100238a61e7353ef, 0xd988a8b7c94a8008, 0x2b4d33c23ec06afc,
  0x6834dc3e726da32a, 0xce2fff4ef27bf08, 0x4cc1651f0aa20c31, 0xd4d0b125bc1bd361,
  0x4afa543fb53b289, 0x8155a958ad37e1e3, 0xea354cf5b92164ee, 0x4660d490aa26d34a,
  0xeee1cdf9624a4b09, 0x438e96b00b09c2bb, 0x1de4475e2025af77, 0x1390b9d708746950,
  0x6efd160364959151, 0x4ae0d9e7616b9426, 0x532343e2c0fa7c6d, 0xcb0818b736ff570,
  0xb5fba68df2462eee, 0xb87cc95990bf331c, 0x75598e900275ad6f, 0xd14a7db804774d36,
  0x629d8d5f507bbbc5, 0x8280c587ec71660f, 0x16b05b92946af4c8, 0x95ee2d2b6fc9b29b,
  0x863655c51bc22e73, 0x76d7930d0520f824, 0xf11d4d482eeb017f, 0xac28bf432a7c7e06,
  0xefc08ebfc81358e9, 0xff6c0e78a464fe8, 0xe32a39559148030a, 0x6855714d9d22f6dc,
  0x1d94cee52956e25, 0x911535277c3f33ac, 0x990f3f4c4f98d33, 0x928335619f626975,
  0xb3889e803896ef04, 0xdcd8353c79be9567, 0xf381be46e62d3eb2, 0xa03d2a7523370e32]

/-- include/table_verf_w7_ed448.h:38-263 `TableVerif_static_w7_Ed448`, in runs of
eight points. -/
def tableVerf (k : ℕ) : List ℕ :=
  match k with
  | 0 => tableVerf0
  | 1 => tableVerf1
  | 2 => tableVerf2
  | _ => tableVerf3

end Verif.Ed448
