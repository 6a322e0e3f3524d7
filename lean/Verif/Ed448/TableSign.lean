import Mathlib.Data.Nat.Notation

/-!
# The table of multiples of the base point of Ed448 used for signing

The words of include/table_sign_w4_3675k_ed448.h, in the order of the file: 28 sub-tables of
168 words. -/

namespace Verif.Ed448

/-- Words 0 to 167. -/
def tableSign0 : List ℕ := [
  0xc86079b4dfdd4a65, 0xc86079b4dfdd4a64, 0x17df1c4564ea331a, 0xa3b1deddd748890d,
  0xc1481880173e63f8, 0x84cccedba886412, 0x818762033a8e9d1, 0xc59d41f91a5d116b,
  0x5e0b42f0ea3bafb0, 0x504640cd24f5486c, 0x548f1cd1191a0316, 0xb6bb6508725d44b1,
  0x1a7df075e2c965e5, 0x5819db89bd7ef409, 0x756002863953cca9, 0x6ef4ed5914250242,
  0x9ffef8dfe2c86277, 0x6bfdf77fbea6a254, 0x287ebf3afd88eef7, 0x7dd59b2183c14092,
  0x298ac16bda0a22cb, 0xee689f0619dcc201, 0xef518b1202c01ab8, 0x56179c8cf4469cff,
  0x199b0c1e3ab470a1, 0x199b0c1e3ab470a1, 0x671961d62834161d, 0x6f5e0419dc0126,
  0x31cbd4b188dfe3f3, 0x9ee38f5bbc56413d, 0x2415c32a67c92a45, 0xea45042c25ad3e30,
  0xa7259870898d388, 0xcefd75c37d65f5cb, 0xe1169cfd18f8d192, 0xcda20ef5e475c453,
  0x80a212934b40a4ba, 0x322a5ff48a0008e1, 0xce8e5afcbd579934, 0xba2c4da99e182b93,
  0x51f92587d895650f, 0xab7044229de430d8, 0xb5cb565ce6792339, 0x27b912ef26b6293f,
  0xf220328b5b8baca1, 0xf602187c515c103f, 0xec942bec9fb0f2fc, 0x98a73190b924af0,
  0x14181844d73f48e5, 0x14181844d73f48e5, 0x720e7c3ecf13b479, 0x42b98257c85644a0,
  0xa116e0620fb95764, 0x58d36d06ab49f30e, 0xb28b5999302174f9, 0xb50edae9850767cc,
  0x634cb5597fcbdfc2, 0xfbe7bb247a55c86a, 0xc5381bae252155fd, 0x7a2672a1a27468e9,
  0xe24da5e893030d95, 0x89fce45d3f2cf040, 0x90ff24a5d022985e, 0xe042a69f7fc7555c,
  0xb65911e795d497da, 0xf3b0310d46814154, 0x106c60376d806a48, 0xe1089a0997374239,
  0x3719d7c4430cae21, 0xb9dbc710f927acb8, 0xa71c41e687a6997e, 0x5ce7108d0ca1cbea,
  0x93d5242bd0452714, 0x93d5242dd0452714, 0xd342cfe6da5ff1da, 0xe71bd87de0586b29,
  0x21a2159f4b9631be, 0x61b360779fed353e, 0xd98d366ae207a4f0, 0xaaffdd49b432b740,
  0xc6e94f673841e868, 0xd11ebe476c40819, 0x6547b941ddb87c99, 0xe09934458ce08e1c,
  0x59252dd4cef5813d, 0x8facad972fb42411, 0x36bae939f3589f28, 0x9c94814da42b2e2e,
  0x164e333074d59f9d, 0xe86b41de28e3db4c, 0xd479d460464b4935, 0x37f8459f3f7ab668,
  0x31229c6c9825793d, 0x2806be174d5b5a15, 0x89f45c987b6721f0, 0xc6b879bb56c9ba6e,
  0x5264370504c74c3, 0x5264370504c74c3, 0x60d92d1368c217b6, 0xb66a37a06cbe90ff,
  0x8ad0a93326ccbc3a, 0xe646f3f60d866eb, 0xaa3d3950737f4ad2, 0x8f2b798bca19bbfc,
  0xeacd0ef7a7086bb2, 0x52c65cfad7f760f1, 0x6b162f5939ef782a, 0xa174e2fd8fd54dc1,
  0x7ed245c7dae75c16, 0x4e50f9e512faab19, 0x255a2bcc417ffb23, 0x337dc65c1f0396f1,
  0xfc347f5ec5b48cca, 0x8a6beef698089ab4, 0x43d541d08867d353, 0x35323073e6978319,
  0xdb13a85eda9f552a, 0x2d9b3b7e4eead436, 0xa64ddd347e60b95c, 0xdf9761b34d476ca9,
  0x8d06c13078ca2408, 0x8d06c13078ca2408, 0xafcdf0965bf0ae3e, 0x25a8c7e8585697d2,
  0xbea9a0820eb2e457, 0xdff1dd1a896dd2bf, 0x47968b2b0d7351a7, 0x12d3e9adc233008d,
  0xd22e4bda8eaf3dca, 0x1935366fbdfa472b, 0xa44fbd22151e0107, 0x1f2da43a0c9eed1d,
  0x28c2b26437d4382c, 0x48e5a68830326f50, 0x72f6f52f12a4c3f, 0xb1b051e2e878340,
  0xf2538088ccd45621, 0xb7dcb625438fa4e6, 0x22dab61ce371c885, 0x2b6edf68125caecf,
  0xec6f91f439162e8e, 0x1b445c4765b2fdb0, 0xa8d327e26ccca837, 0x6ec7b3f9db3c4a5,
  0x508de14f04286d4, 0x508de14f04286d4, 0x55ffa716590db7ea, 0xd32eeb1556504ea4,
  0xe95b306fb34e388b, 0x15e450ec97aaa9b9, 0xd5cf9c39aa5d3cac, 0xa4ff2dad6287aaa8,
  0x3d0f765fc58d6488, 0x6748a9bc61a84cf8, 0xffbdea36c5ac349b, 0x45a636c2d555e9ef,
  0x9f6f3645321672c5, 0x3843e2cd9f1ba228, 0x82887cdd778188e3, 0xe2aedd5837bfe515,
  0xc0db712ec8c80b60, 0x3eb2f8e7db8b5d36, 0x82d57dadac808f64, 0xe94a2e7444a083de,
  0x118fa4f210c97171, 0x5660ad430f855f9b, 0xd1c6dd86720ee903, 0xda32e589bc1eb762]

/-- Words 168 to 335. -/
def tableSign1 : List ℕ := [
  0x648a013174d4cdee, 0x6c877f29c460235a, 0xca46fcbbb3e52fa, 0xae38721702993e34,
  0x69dba47a0b9fae85, 0x8f0d0bf2b5c8efdb, 0x8699537dfb8ec93e, 0x628a869cac98fcb1,
  0xdf9adebfcd60e448, 0xe59dd02a45c53abe, 0xa644607f9832de30, 0x5c11621b7b06467d,
  0x135e2e2376f4406f, 0x16c25d7f9a0863f4, 0x31a7b577b0d9dda3, 0x90925fe05b5b5882,
  0x7efdf330077e37a3, 0x91fae2c25f9f2a71, 0xb171057f7a17d399, 0x9f62a44a14cef892,
  0x47015f6001aec0d5, 0xa52c1f4a933aa406, 0x29296ca2b5694cff, 0x73a7c75675af0ce0,
  0x17f04914f9fe9445, 0xa12a28c872c2e81d, 0x99d91633ee57de1c, 0xa981e2559cfab963,
  0xdc81fa105a557399, 0x2b71ce76a2c5324c, 0x510ec1a61fa4a5aa, 0xbfe20ca6555a1022,
  0x73ae6df6a4bf0895, 0x97a050bae0c72687, 0x74dc228dc077f9b4, 0xf6543bf7bbb10abf,
  0x979a1c2809a2b2dd, 0x645eb86f9a0e8619, 0xc9e98a63485ba41e, 0x10060741aacad2ef,
  0xc1f73cf5fe4a059e, 0xf6f8ffb8fe7ed5b5, 0x4e351d9757d06534, 0x4c03ed9ad5cfa4ef,
  0xf82ccaba74ad38f0, 0x738492005a347b94, 0x6cc5c407eb3fcb2c, 0xe795158a900388db,
  0x955ec3f37ee50a29, 0x9df5c680a1d1d759, 0x9b12033de3e1a9df, 0xb9d2bc591479177c,
  0x84157962329ba29d, 0xd2ca29048fbdd9a7, 0x844111af8dfc8c3, 0x65297cce39b46bc1,
  0x27a98102fa289a94, 0x9d7fbf6fcc58e46, 0x18a6eba36320fe25, 0x9e9f42da9c9dcbfa,
  0xa172162886edb498, 0x28d6e034456413c4, 0x94aad3a52473d358, 0x6606d0dc87769725,
  0x53c91a7c066f91a7, 0x61b8c0a4306675e5, 0x38b23c8705750751, 0xf6284ea6cf93f994,
  0x3618ec5ccd39f3ed, 0x7a445b12325d40bb, 0xcf9013071b686ade, 0x69ee7ebcf1b8ef2,
  0x73b69ef80f0be872, 0x5e0a66c8bc6111cd, 0x987dc2df378ccc9b, 0x8c3f9cf0b7292f17,
  0x5881935a4030fb75, 0x359d9fd430a6e09f, 0xb6b5ac61923dad21, 0x3a77ccd5433f520b,
  0x46edc669d21e1d1d, 0x121af28e5f1e02e0, 0x7a45601e1c768876, 0x402ca6596cea6ba9,
  0x77948b5a75faed68, 0xe4e0a13308948f64, 0x6cbbf48ffe1383f9, 0x661cf3f7fc050893,
  0x28b87258d5a381fa, 0x29a28c79d4cb9c6, 0xd1843023a29d3fc5, 0x9a24cfc88155a2dd,
  0x1db8ef3643f20653, 0x5772eadecae2652c, 0xc5aecba7e46de17b, 0x9c1d6f511bbf1c4b,
  0x785f43b2c6963c16, 0x5dfa51b30914bf40, 0x4c7822764de0411b, 0xfc50d8fe28d3db5,
  0x7fb22f6804fb2d32, 0x7e3a93a67a094e9c, 0x94b947270b819ded, 0xb3ffbd7326787d23,
  0x6c9ce0f8ccdb1031, 0xbe5abe6a9a456bd4, 0xb1933ebb4f96e7c0, 0x7c5a97570bcf482f,
  0x87655ae61972c069, 0x31e4ef2f20c50644, 0x153599f1bd6f22cf, 0xff712959f832a533,
  0x686d79a551d465ab, 0x6fb1f2a97df337, 0x5fbe068ce6c47a0b, 0x3ab83e125ded59a6,
  0x6241e3a5053ed623, 0xb2d7131c5a6bc0aa, 0x3c3d3ae8a1c9342f, 0x11392ee10cb1c029,
  0x216d9da956d18e6d, 0x24473cb6bd1ac347, 0xe09847b6f91ab311, 0x72dcae9c63805e6,
  0x3c9fdda66e442aae, 0xdc46b66d52bef343, 0x32ecb36f4d72bb67, 0x5c8902a58e35b0cf,
  0xf653a22a4d4656c9, 0xbf1e5b98ffcff2a6, 0xb3d9ce4b54e4364e, 0xa1882253337a243b,
  0x8407dd6ec22ea53, 0x63e2710a71e6ab3a, 0xa74c8d82e624be16, 0x564d5ca014bdfaf0,
  0x5f3b530953627695, 0x1c3a19a7c6bc337e, 0x6d453b85469923cb, 0x94b93f5ba780e3d9,
  0x63fc04d32f174771, 0x11339e5f207cf449, 0xaf9c954e0b117cd8, 0x9149780d7e05aed5,
  0xcf46b4cc9d642509, 0xde7e9263e61d0673, 0x1ecf69e700903bec, 0x1a0d436826d2f605,
  0xdeead411052df8c9, 0x7510c088daedfcaa, 0x5e9096509ba185fe, 0xb4a787372b9377ad,
  0x9b06942229a68430, 0xc6cbcb315dd4cf43, 0xb077b6648b4ad97f, 0xcbb853f5eeecc9f3,
  0xaabad443f7ef7ea6, 0x7bdd977fed81edbf, 0xe78dfa586a12c8a1, 0x8ad54169062af2df,
  0xb9c482853ac3ba35, 0x4e4d666a5332fd75, 0xf270d00650057c72, 0xb4391d6a3e6f7007,
  0x44b8471020ce667a, 0x10f7279ff366c507, 0x8fd7b63860471eb, 0x26430b3e17351391]

/-- Words 336 to 503. -/
def tableSign2 : List ℕ := [
  0xf0db9bfde5ee7d85, 0x4766e6a94794445e, 0x683ae3b041da8dae, 0xb1a10f0e4a65e84d,
  0x268952cd3d447b1d, 0x4714c64d3b05fbd1, 0x5c6a600534235202, 0x6cbe2a760edeba90,
  0xd1a4dcaa4260b61, 0x44cf0d7fd881bae3, 0x448030942513c4c9, 0xf01e3ac105b99b1c,
  0x8d13b076f4316c25, 0x51b3390d0c12813b, 0xedc27e6632de26c2, 0x1213ea5b86a938ac,
  0xada3a1c7376f9a41, 0x94be2bfc5143d03e, 0xc21ff3d26b1257e2, 0xcd0e584606e3ba0e,
  0x10c06d91f219623d, 0xfc38ba70f6b98ac4, 0x11952cbad8128a, 0x30b0682bfbf71928,
  0x31839bbe76a86262, 0x3df364035def3c18, 0xe02e3a64a783c43a, 0xb9ecbab9b9a1c43b,
  0x5e86b65474a0c63b, 0xb82084f95e90935, 0xf7655d1fb849475b, 0x7b54fa9da3488146,
  0x1e724383a1b5fbb1, 0x5e7ef3f57cf90859, 0x1298431909f6adde, 0x179a1f51940d15a9,
  0x689e7913a094c064, 0xe506175019b59a39, 0xe9d1c93018e3494f, 0x710647d4e072fc85,
  0x53d40236d328bf9f, 0xc1386045915f097f, 0x6a2b3cf3aa235bad, 0x2f9318c64ffc3a20,
  0x9e1d67d7f1e09711, 0x3d4d5d90f12a992d, 0x9934d6821e006ad, 0x2bb93f40affa4b14,
  0x9bb34f11f98f6e06, 0x601f82f80d684832, 0x6ed2b395df944d4, 0x9b980be2925b71a3,
  0xcb139d318df658fe, 0xae702803effa5e56, 0xe1ae3f5f2db4e8f8, 0x7a661ba63ac460f4,
  0xf98dc4f7dd3abcf0, 0xb66365be169eabe1, 0x3e5d2684f144dd78, 0xc499e4b2cd063c65,
  0x75cce2dd5689dbb6, 0xcf0634783b809918, 0x388fab0f1602ed13, 0xb991c9a1929ce0e8,
  0x7986108637545d72, 0x6d07e2ddbb6034f3, 0x131797ad471778eb, 0xa6a49a3ad164240b,
  0x60e921452292b258, 0xad7efd5e9c3504e, 0xd41f97bde50895ea, 0xa57833a33aace897,
  0x821ec9509aaa7d8a, 0x6e41623c610b72b1, 0x838c46b9ebcfce1c, 0xc4ce961d08d37185,
  0x93bd941bdd6e2e14, 0xaf5c6a39c95c0e2b, 0xd32b5eaed357510d, 0x3ec55f08e06d15de,
  0x95383f1ea35f66c2, 0x416c628598510ef0, 0xe82607f06c3fb712, 0xe94b36ca49dfc04f,
  0x3bb3200ee86cdd71, 0x36c49b28556acd6d, 0x7e91d402d9909ad2, 0x1c52a2abda0aa26a,
  0xc062a6942fdcccc8, 0x8b10849f4b0d1131, 0x6255df1da2bd2e7b, 0x621a586d2bcb973,
  0x45166a81064a5a2e, 0xc42c196eaf63cb05, 0x8f9e2d44f43cd0fc, 0x7727907373b2f165,
  0x2de51afd29289ef8, 0x528d71e3ddeaf135, 0x7426cbab5c06e299, 0xc098f4ffd6a31ee0,
  0xeb7a0c35a828b580, 0xd99c2b8e2267dca, 0xeef2a5690fa1758e, 0x6971b3ec1098ac6b,
  0x4dce918a42c873a, 0xf15be46cabb2cf99, 0x81c0c9f9070ce8d6, 0xb3eefc48fe377179,
  0xc2b580c92464aaba, 0xf59be0673bba4f13, 0x703ffe7ab7e14315, 0xc2a296ba9d5f5476,
  0xeebfc399564b0171, 0x1bd9b7ed37c8eff1, 0x7b4021f8d82f2653, 0x8c83c758fc74a27,
  0xef433d43c2488349, 0x74057b00f16fd85f, 0x23145a44b491dcf8, 0xe943e17ebac8b1b0,
  0x14d1f0071ff3f1e0, 0x51a55aff1a18e0b8, 0xa1415b33f35f980, 0x982eee905be00b4e,
  0x1af3b22154cd26a0, 0xf7993ef8e96800ef, 0xd48f2c956b7e6086, 0x6cd178bf46f886c8,
  0xe946aee028418bdb, 0x4ad3b09f10611147, 0x34ac70455eab740f, 0x48b3b57cbbaf5f1f,
  0x3d1c42840188ae7d, 0x44409e32c18e1eec, 0xb09eb198283e082f, 0x645b563f331e5af,
  0x73ea49ad8b915081, 0x3e856790aca6c3c1, 0x1d72039e73ed418f, 0xb006ccd8cd812be0,
  0xed4dc6c7759f6437, 0x5d501b166cfcf82f, 0xd01538e2a196723a, 0xf23cd4996bba3d22,
  0x3ef70e94a916e7b8, 0x4d44c869b056c62a, 0x39fe9dbd1b0e3284, 0x562ba776e57e96e2,
  0x3b7742ef660e7863, 0xf4808ae4e910355e, 0xaa17fea9429d8fda, 0x10edb260e5c1c804,
  0x450f47fd5d2121fe, 0xcaa2e18efb9a2575, 0x671856691d6eff9f, 0x3ce15298a8c8ab3b,
  0xe7d15b4ede92786a, 0x246ef12f79391fa1, 0x7360250bd2bc2b7, 0xa071ef44d3accdf6,
  0x10326e3be9c04e2f, 0xa38b00345d273a6a, 0xb16dd596c7c7ddbb, 0x392bdf581b6bd381,
  0xc0ef4c3e47178b81, 0xe851d96d12a37261, 0x8f210b96b3aed06b, 0x8b77ab3c7d72d490]

/-- Words 504 to 671. -/
def tableSign3 : List ℕ := [
  0x93d5d4e8390e91c, 0xc4b2afec24df716b, 0x5369e850cdeeac78, 0x2ea7d4275259bd44,
  0x6fb860d837fe018e, 0x24a15391b1e48a4d, 0x2353e015b4253b90, 0x933a3ecd98b524b9,
  0x99454af5f8d57cf, 0x8710f7922a8ed8cf, 0x5004812d9dc965c7, 0x9641688fe5631cfd,
  0x536f2016c2cf07e, 0xf1a91c6e6601c0c3, 0xa6f92cb559d7020a, 0xa42ce3641c1169b2,
  0x2069ff69323a61da, 0x38776bc4eaa5c3bb, 0x8d9de32e5ddf8532, 0xd62d20a72c53cd2a,
  0x8a8066e931f0a67b, 0x35b80463afa68b93, 0xb92f667ca28c2352, 0xf81343ce38edd7cf,
  0xe5acc6bcf0fc6a3b, 0xb1c6d46c8dc633a9, 0x520c59b1ca9606e1, 0x20acaf8250c4e32,
  0xd6e9f721e12d6f4a, 0x4a4d5aff191e2364, 0x517cf2dbce01e50b, 0x5b054021875ed19e,
  0x8c2ef00a262cdb6d, 0xda2dce6f9253ec13, 0xc2e9f38234ffb0f8, 0xc900cca454868b72,
  0xc80b1b5c802f4600, 0x745e3f00d68bc019, 0xd3eea5b7369e79b8, 0x2fff2d69e2a83bc9,
  0xe12e96e822893951, 0x299a5ff92ad1e8ca, 0xb76a1153c43e17f9, 0xea82393d4de19040,
  0xac3fa4b130051a1c, 0xb56d250d4d09cd3f, 0x1cdd8f7a125b7d0b, 0x6e665666764cba5d,
  0x29c2f403469f49bc, 0x776cd4768cab337a, 0x7aa69a6462557b3, 0x569572170110c010,
  0xfa96d57fa3acd8b5, 0xbdcbf9a6072bcf1a, 0xfbf8e5b204df8a0c, 0x720e582dbec748d,
  0x58f5dad4cbf57d01, 0x1d1d506d68fed702, 0xeb1d664b278a62bc, 0x9e841b00dd3df7d1,
  0xc4e8622292043e1d, 0xc549a224f9d38a05, 0x37963ca3a3add9db, 0xd9dca0c64d351304,
  0xfa7a949fbc2d71fc, 0xe98f5f899852308b, 0x10015611011429c, 0x29b0ed94878d7efd,
  0xd1c185eb40588095, 0x55ca45de4d4dd2fa, 0x2c4431aa2c860575, 0x46c0fe6422a53c20,
  0x6acbcc785b263c92, 0x466837e5b32415fc, 0xb245ae9bc402fd2f, 0x2abd616f66acbb6c,
  0xfd3c232e9adbff02, 0xa07a54a9408b04d2, 0x21372cbf0e735585, 0x2c05781b45229def,
  0x8b4330a52afcd769, 0x8471ff7909f8617f, 0x269bac426817fae7, 0xa7e083bd76d224ba,
  0x8c3802ba2471510, 0xb28684f8982ee210, 0xa26c5d018db2f747, 0x74d2be1661eb7a31,
  0x3781789ef44653f3, 0x5fda1f8bfd85d426, 0x324efcdaba21b8fc, 0xf52d3943d16eac9,
  0x662a6196ec5d8315, 0x1f9998ad58c117c7, 0xab2241c9d5253d5a, 0x6b5eb09f34fa552c,
  0xf9a1dbdb9e2e1a24, 0x768e6a986b66736c, 0xa60f5f8676fb5287, 0x58d1614a72edfd5b,
  0x33f3b3d5e40e78de, 0x7766b6fdb1c157a0, 0x257247859d88b944, 0x8cbcc257d4e702b0,
  0x19784b2c6c408741, 0x3b3d94d9a29f5c48, 0x6ea6b631eb0a3a8b, 0x212c72dc18d3a967,
  0x77f283983612161e, 0xd40451370e47ebf9, 0xe6932e0a70488c06, 0xedfb4910b7f3a246,
  0x49b3ae8b8073e93c, 0xbd70edf7e10b5c25, 0x396bf4c1b64c3bd7, 0x2f69fe3107c9bceb,
  0x32f18bb06d82aa91, 0x2e78e25ba45631c1, 0xa12472d72b08bb60, 0x91d40641932aca52,
  0xa80de966406c255b, 0x31fd35f8ba57877e, 0x5d027cbc217cd50a, 0xa720e9d49300eb1b,
  0xca2b0c8686509c67, 0x4c1d60dbec467468, 0xd7484c6bb8e13ee1, 0xd744686e3bd5a208,
  0x6f46250f3c31a43e, 0xc007bc4a3f9bd6a, 0xe54d391c5793befa, 0x3105151b7ba8f2bb,
  0xebc27e0906c45b87, 0xb6b23e99a3fae6ad, 0x3298a71ef959fa8e, 0x7f30b7eb3d3b6438,
  0xde6dcb8e68b79616, 0xb8bb5b7e3d57f073, 0x8957728472dbf262, 0x90a2e2817e32c1a,
  0xa8018505bb459e00, 0xa016fe0a82c309fb, 0x8fa66d31e0d03b5e, 0x92ea85ea05ae6e4c,
  0x87a6f61e58ed0b07, 0xe5a38ea97b4572e0, 0xa907d4220a2655d6, 0xb343d4eb5a750dfc,
  0xa817698ca227d88d, 0xab098994073f24cc, 0x62f87b1a1e89f70e, 0x6740a7bed1d2a57,
  0x803684e07a910771, 0x4771e0904c89361f, 0x2d428dc4360e48d1, 0xdc23725cc920f770,
  0xe6435e56ee0186e1, 0x5d5f46f2c0c5e46c, 0x6a6e5b56706fbc4b, 0x877cbbe78f6771fa,
  0x2296cbf9e04ba96c, 0x208baf5f79ecd78d, 0x758a4b59c14e9da0, 0x76bc0649736070c9,
  0xdf156a3afd403c9c, 0x778530f37f23103a, 0xe7216c87d0241dc1, 0x249ae647a12be2c5]

/-- Words 672 to 839. -/
def tableSign4 : List ℕ := [
  0x3b97304a5dc8df8c, 0xdb7b9881b2c7413a, 0xd7645d27664ebdcc, 0x1c76e85aa312cabd,
  0x38c6f3b7891e65d6, 0x368d4cc95047612e, 0xf218c2bb16da409, 0xe8c49be8c8aa6a98,
  0x39b76e6b05c485bd, 0x1af7154cbbf396dd, 0x5ec503ae207de91a, 0xde97251c8732d255,
  0x6edfaa620110839d, 0xd49866921749acc5, 0x309d423ffba57c50, 0x4cc18e013579931e,
  0xe6f81d43029e04b3, 0x69c585559bf65c96, 0x7cc3dd4e95879077, 0xd31777ce76c4bb51,
  0x675bd00c00d7d2f7, 0x17e9df9120587050, 0xf65a3c31d1eaa4a2, 0x70ce61d8671fe9ac,
  0x3bffacf90da1eabb, 0x1a8ed5151e6b3b58, 0xb1bbfe185a1e1603, 0x1245ae8d65f9e5c7,
  0x5cbc68af5beb773b, 0xa2426c6710db748e, 0x3287d7d06a536045, 0x575d017359e31f89,
  0xf5ca8e3c7e68781a, 0x22fba253af9d7f1c, 0xc0ae53cb58b2cc2b, 0x7573701aa16288fd,
  0x48612afdd609e78, 0x43771ca62e68ebff, 0xdc4ea39019283ee0, 0xa89eb868e9b44e8,
  0x7a66ed64ec6891ff, 0xaee2c7924d106f6e, 0x113612e41cc54f8c, 0x9721f9de78c1d6d3,
  0xd5dec3a18ab8aa71, 0x25e875b344f15980, 0x69bd6f31a26cf118, 0x79556cd5af2f2fb7,
  0xe9331d10bbeb4e7d, 0xc66d01827ce86b0f, 0x5ac1c80918728cad, 0x3c38288d2c3244cd,
  0x7161233020983a80, 0xe2632667dfe11a38, 0x2cb9035a0976abf4, 0x2094cc0e8bb893dd,
  0x8c43e241e67dba53, 0x89b97fa18db99965, 0x406a8855124fc85f, 0x6bdd88243179e151,
  0x4c0b1fb11be4a890, 0xc7bafd2649cb8728, 0x6f9b63bea94f6327, 0x848ab0a2fb195d14,
  0xc162f2089e1c1f3b, 0x3086355c5f8292c5, 0x4696e15cc35399a, 0xe5537a472108c6db,
  0x294e3763c1546d02, 0xbc32d57ba48e87d6, 0xd500843de30aaeb4, 0xdab2b4df6f9980fe,
  0x9afb1ea665154257, 0xf552083ca3a56c33, 0x95398bdaa205d52c, 0x7f0b8a62c140b26,
  0x8de8f715285c841f, 0x6b41e95ae9c84607, 0xf418ba9a51cf6a37, 0x6fefbbf471deeb32,
  0x436c6c2d5ca97d8c, 0x5f8f583e1ffafdf, 0x74e0535b8e8ed22e, 0x7d14f8a4a5bd59a0,
  0x2535c378459f67ef, 0x8171a40ff9db22de, 0xc938087b828a3aad, 0x8deba02d268e5d14,
  0x1abc8bd075ed94f6, 0xa65779a626efdde7, 0x58e63f51b7e31d44, 0x914b171b5f6628e5,
  0xe2ee16a106c42db2, 0x54f7059e1134cbf4, 0x13b5cc5c57d3357e, 0xcc61c18503327ca3,
  0xa1575c62efeb845c, 0x86cbad00f543261b, 0x368ddd817a2d2b85, 0x43058d3c3ce77fbd,
  0x10f5754d25ac61fd, 0x60f07fd076196051, 0x9b12498746601d9e, 0x71a72adf07ecb532,
  0x95571f14f5d09492, 0xdf9cc8a725ce924, 0xdbb5508c437913f3, 0xcc8237b1fb769f7f,
  0x7eb952bce215b2c2, 0xa20a867068910154, 0x96aedd2fb9d36c76, 0x3e83dee6eca834bf,
  0x377b670eb7dbeffc, 0x4fe736d9ae1b6b5e, 0xf631685bbd7e1819, 0x83a0bfcbeef80381,
  0xca61417bda0e2559, 0x6a0c0c53dfef9d0, 0x558ccb01ff3c6baa, 0x86dda2072b8aea1f,
  0x522718994251ede5, 0x68a61d6b5ac32d4d, 0xddda8ba237c45b30, 0x68eb2bf1ce8a20b4,
  0x8cc871e9e56cd175, 0x4af6389353a95004, 0x9cb82b4af73dcc82, 0xdfb7ad5059469640,
  0xfe1e86ea43691aee, 0x65254663a158fb2c, 0x986c1172980c0101, 0xe10274dcd9be3cd9,
  0x3e401437e3c728e8, 0xd1cba76ee8e665d2, 0x83ef81b6aefb12c0, 0x9c64cfa306fe0cc2,
  0xdfb3625e57031324, 0xfddec898c18379fe, 0xf4cf1b17b1ee3a87, 0x1b9b6b152a21b241,
  0xee26713dfda8c856, 0x7207a114e1e8adba, 0x1d904a0af58bfe44, 0x9f339c9a2b004a04,
  0xe5c5dcdcf641c35b, 0x380b01742829f118, 0xe1fa497b83d06037, 0x2e5f301f229ca445,
  0xb05f364c80716b7b, 0x5c82cc12a6d3f154, 0x2fc2791053b0ab4d, 0x7f9e36ffe13438c7,
  0x1ecfad339322f799, 0x314b3c0df13eef97, 0xd803c3861440e14b, 0x111949f35fc4a6a7,
  0x5535d7cdcbc28987, 0x8077d33a86c4348a, 0x3e6986f650f97747, 0xfa4b754042cdd879,
  0xab972e02bb7ec5f5, 0xe702c49136922683, 0x9fd3e0e4ae53bee7, 0x3377b4d4305b078,
  0xd1ac77b4b5ae1946, 0x2e81ba19c54ab70e, 0x90f08445eeec1d00, 0x97a76b6557551681]

/-- Words 840 to 1007. -/
def tableSign5 : List ℕ := [
  0x6afaad824df3d3b9, 0xdcd09c3648f5c107, 0x7e5701041dbbc716, 0xe00cd025bd8756a4,
  0x1a345f36911c5a36, 0x4c379ce64ec7567b, 0xdcbc9bbdb4a61212, 0x199d2dc01a9987ca,
  0xacad391988da04fb, 0xfc52c7a521e163db, 0x4dbe35d518b679d8, 0xf0bc44d6f31d52aa,
  0xe6c968c236252124, 0x936fc7eab9ed28e, 0xc14c3d485db21e75, 0x98adc0f9c1424c56,
  0x7fc8463295234e43, 0x98b042b958073f63, 0x976d0d4bd78bc932, 0x62a5e92b7f7830b,
  0x6c80e54791947011, 0xebbb1cff722388a9, 0x8cbd63639688e17d, 0x579a863773447db8,
  0x1e890e66c01d1b9b, 0xafd0f8044864d72a, 0xede1287e2eccc60e, 0x3fd42329862c65be,
  0x1c13a39b0cf7ad32, 0x7c122eaa72caac97, 0x690f7ce020bad99c, 0x617aa3c1d9d4d1fa,
  0x2e63d792133d8877, 0x37d7807173d6eb5f, 0xd453ed3a553c9b38, 0xff0d3da2f00510ca,
  0x8b6cdc94cc84c7bd, 0x82033a30acd37f00, 0xa3535c0276eceb1f, 0x8cea3c36b6517c92,
  0xf0b75e33ca9c3530, 0xb16170239aba5ab8, 0x3d92cef5af8a32d, 0x258454891a26b8eb,
  0x47685b1c5ef97e4c, 0x6b6a32499ffd98a1, 0xab24eb349c84b899, 0x3b8e3b95742ebaf7,
  0xcfb4a761c72a0c96, 0xb3490921ca82e47a, 0x81ff332031d62d48, 0x1304ee275ff576e5,
  0xceb1060b7df7ed85, 0x362225a634e1dded, 0xa854d1bfe2a13048, 0x186e3650520a3701,
  0x26da0bad4e2b1c41, 0x9721f900e091124a, 0x53cbed749b85996d, 0x8425b13b7343b65a,
  0x40a19544afd273d, 0x82e97fc1856c2e32, 0xa4e8fb0d86d46e7, 0xefa3a73137c9d39a,
  0x2489ebe9b5c305c2, 0xc7e21fe23a781083, 0x954dab0c8a9f1846, 0x29e15869eea62eee,
  0xc40dd7a6e53b4ec7, 0xec807d0e8df6ad4e, 0xc0e18e2197a39e82, 0x2c281db6153ee1b4,
  0x5c0e32211180b490, 0x417a02b01a128402, 0xd848a875a22c0421, 0x48b691aa011f0f2e,
  0xf1197a87123d4f07, 0x4d3777c824767230, 0x4b0ae8c7f542acba, 0x3c4f66cac97c0fae,
  0x3a0e4086c0b705e8, 0x63c9d66a93d0b657, 0x2dead660d2db354e, 0xfb00a7d31835a7b5,
  0xc0b96135cd15c152, 0x77b38681f01a2dfe, 0x5b2f229e4a25ada5, 0x8fa7f58d39d69552,
  0x17d2277008aff7e6, 0xa068e7047e3e948d, 0x88b90261e328316c, 0x20a83ff1eb5f6c18,
  0x5a159ab91f4dd89e, 0x4624646ac48b453b, 0xe5d697d5940c7593, 0xea0071b86e7dcb6f,
  0x33e3bd9ac1c3f653, 0x827cec481297790f, 0x7b33533d6f5ae94a, 0x83e871e90b1ae839,
  0xbcc316528519969f, 0xc0bc65f1a2edd846, 0x17cb61f44aba464e, 0x1a72ca170d28a308,
  0x2a25c07e11929ccf, 0x92ac0c61a4cf6fb7, 0xcbdbabbd3f2850f0, 0x3fdc5ff1c6a133c4,
  0xc0e74be2a4d8dc71, 0x3efa2443bba72713, 0x6b43090e28f29fc, 0xde2cc9cd2734ef47,
  0x8b231f7f988d47dc, 0x73e20bf4630ffdd4, 0xece644470568b58a, 0x572a7b188119524d,
  0x5b3280244d54d748, 0xac48ef81a35ea64d, 0x9097655a693d4ed, 0xd7cb8ca190d6c587,
  0x65a32b7fc74a8db7, 0x3ddf7b8af58a2ac1, 0x54d28c2fba733dd7, 0x27dda6a4947e3953,
  0x48f71904b9523590, 0x10bb90d993e5ba80, 0xa445d5125fc7c6cd, 0xa23824fe791174df,
  0xbadac7ba65c981e6, 0xe6fa2013c167369, 0x5dd8e76159cae879, 0x171567a5cb92a94c,
  0x49058b71d376a46a, 0x66174cf682e34d04, 0xb7b470724b0107b1, 0xd66e1c55b770c869,
  0x7df1120685e9d249, 0x2d6cb90a7ce8896a, 0xb68612e8ebb31ba4, 0x47a0085820509d28,
  0xb0a7819a51499013, 0x654230c0072df037, 0x6005887502808496, 0x4a59ae217b9c8a9e,
  0x574406b63a8388c4, 0xa63b5d2322df3ec7, 0x5aeead53089933cc, 0xd93dafb2eb5a5187,
  0x903feef3e98d802f, 0x601bdaaa5f978c31, 0xe9ed8af1a85813f1, 0x4017582423a03421,
  0x46faa6a4fc0bbe, 0xc2b653ea2cf7c22e, 0xdc20890bffc98483, 0xf058e43da9d92685,
  0x7323c459e4418f8d, 0x550ff9a0297ce38c, 0x5127bbc88aa68e14, 0x5c2da35eb1ff42bc,
  0xe839b12b89863ae2, 0x8b0f78ce669e1c73, 0x79d215c28fe492ce, 0x19844cb438095ebb,
  0xa2f7132cda36ab3c, 0xb1de51e82cde4576, 0xda8814d0785c86d5, 0xe541a4046570864]

/-- Words 1008 to 1175. -/
def tableSign6 : List ℕ := [
  0x7a5d5d7a54b21f78, 0x3ac1bb3b7f048795, 0x732258600437c677, 0x97c4a6cd62628ad7,
  0x3c0f605105720cb2, 0x1fbb9fa973cc50e6, 0x6cc38563d5772dfe, 0x92309cad53f99c4d,
  0x269c7869df273e2d, 0xa892b75aa46cb9ce, 0xc9383b0151edd2f1, 0xa9d7f1c8d5873daf,
  0x780fb5d8e56f76bd, 0x7275b1c8b2e0632e, 0xac92909d074a47a5, 0x5494797c44b9ecd5,
  0x18f0a82499c345c7, 0xde199272190b1fbd, 0xd4dda6823aea78ae, 0xc4c0a8ca2b600173,
  0x999dcdc70d87f09f, 0xa88d4ddb6fd5920, 0x23f32efe0af32527, 0x60be9db68bf66be0,
  0x43349c130d7998b7, 0x8c1365b65a5c5276, 0x8b04dcffbd6ca366, 0x8704f582eade4ef6,
  0xb07d2c06ec5f06ce, 0x760967a0ad9d8e2b, 0x300ff96bc718541c, 0xbe66b485be74864c,
  0xc34699f21c99a58a, 0x9a93011de5a1b9e0, 0x9f9e53593e39176e, 0xe68d7f91a81c9a67,
  0x51499c516ecfc6a2, 0x55991450164352e, 0x79283610804f7588, 0xac1703dd9d7052d3,
  0x9d680a2cdf331094, 0xdb0c6dfa1d82a825, 0x2a98386521e10c29, 0x716ced86c91b5d0d,
  0x707a7d87a4943d6e, 0x72b507848b67d2da, 0x14e5bdf956d97b64, 0xb1df288ef18f124c,
  0xc60d0a037586aa49, 0x215b832edf108701, 0x29313d38666e03a3, 0x2cd92c1d0dec9d2e,
  0xb1bbc6fd258c17c9, 0xffc4dfd51451c563, 0x4d4997b27885c7fe, 0x1b8e942a61ffcc42,
  0xc45b689f6917cbd6, 0xab4e93a9603f9a8d, 0x234661470c41f821, 0x5e20898efc48c7be,
  0x46a8789c2c76edb2, 0xec9541ce675a9196, 0x3f7a7c5e977e9a40, 0xe988159435814add,
  0xe7927f42f8c21cb1, 0xff70e955dc98a76b, 0xe3036d7c37fc3621, 0x88de5016baa2fa98,
  0x62d3a4eaf9ac605c, 0x5ec4a5214fd8fe9f, 0x152fbc3ce1b7b9bd, 0x9cc5bbdf9426e584,
  0xc9833944d22f764d, 0x23cc73fb07e0d024, 0x4f2c00e148044692, 0xb318b6f95d7362af,
  0x107e0e83e39910dc, 0x59cdcbd8de0f775e, 0xcd6d6bee35c07e61, 0x549bd1a54e031022,
  0xb48a743f86e1ac3d, 0x32d32822d4f913aa, 0x66601dff22356294, 0xac25accc60f94ac6,
  0xd34a4a441ae71428, 0x58ad0bcd439c0e0a, 0x98322fd97a7823ea, 0x251ac7cf32f54b3d,
  0xf0333b977567f041, 0x23410c6bd94a1f1d, 0x12ce44fdcaa19728, 0x6846b4599421af37,
  0xdb04996dfa74436b, 0xda0b8b3733fb4827, 0xa56558ac86329219, 0x93edeea506974302,
  0x12bce0a28400c1bc, 0xb5fbb207d4f8a853, 0x78be4faf80d6d83f, 0xdb16447fe5c5bf3f,
  0x6492c8ec4486aae6, 0x1a33e784313d9086, 0x99d817a3549c466e, 0x3415718646f34f31,
  0xca44cd8ea99d3bde, 0xc931d065e1d44922, 0x8d0012cea7818a15, 0x13ca92122d5f369a,
  0x8d3b3489305a64d5, 0x183b0d426a9000a0, 0xd8da910c3b38a9a1, 0x3c2c786841109265,
  0x2795bbfee5df118a, 0x2d9c8a42fc09075a, 0xb6586322b66989f4, 0x8a25b2652fdf6ffe,
  0x12db2ebf7c97cbd, 0xf965ab22ad0681b9, 0x1f651099380074e4, 0x14eb2049b7abe5e6,
  0xa7ec9e37f0e5b62e, 0x175a08451f05b7c8, 0x3bf43b23e9163d65, 0xfd72c995e8881588,
  0x40217871aa8eb22b, 0xde226df2ff8b6672, 0xb22898e83486ef67, 0x7d7b7118d51999,
  0xe81af8fb4477d30c, 0x6cda0efee1bebbdd, 0xcdab660009891991, 0xc5dfc32b943957a3,
  0xfedfd164ef1cf90f, 0x1ebadcbf76ea25ed, 0xbfedcbf108fcb5d6, 0xe7f83d76e1a101ce,
  0xa174b36e433cdfde, 0xddea028a7851069c, 0x461e8125b9ed2e12, 0x236cc1f1be299717,
  0xf669e04e0826ead3, 0xd66c6bcc00b25f32, 0x69a8ac63c91fbfe0, 0x9ab80d747deb0657,
  0x209d829e7b6694ae, 0x91e0e07d5c38f294, 0x6b7427682c02e959, 0xb5c8830837550ebc,
  0x5bb3abfa7cc52664, 0xcb1359392c89b1d3, 0x5db8cff2380daaf5, 0x589895f6001b0041,
  0x7fb5b697bb965a13, 0x6364d0f805c71e44, 0x6d40507681c42b24, 0xa09a49e349c2aaa8,
  0x34d2e93d5df506fe, 0x7a51df377d216d8c, 0xe87b27898e68b13f, 0xc973d63026feeff6,
  0x64bd27ee1ab16706, 0xd4515b19974f75ff, 0x298d04b1a5cab410, 0x1a079f8d57b3f58e,
  0x13874188b62f59b8, 0x35015a3e235a91b4, 0x665c95fd8715ed0d, 0xdc39917421b394b4]

/-- Words 1176 to 1343. -/
def tableSign7 : List ℕ := [
  0xe8d97221fdaffe8, 0xc33c9a6ef1202160, 0xaa15707a2c1c6e80, 0x47997518370280fa,
  0x14dc63e705666ee6, 0x365bb71756ce76ff, 0x46024f7cbb07cdac, 0xf086703460a16d27,
  0xefbca55a8f8e8f2c, 0x99153d13588cef7f, 0x1c3af813a83fd683, 0xed79f8df546861fc,
  0x1e07916a49377638, 0x91b49350b8713f8a, 0xf8d6c4a0d128df02, 0x150ac9e406c9aa3a,
  0x66fa4d60674bae06, 0xe62ac81c23bdcdd7, 0x7327eba9f29f706e, 0xa583ef20ee8bf111,
  0x4055591a5a573c2e, 0xde529938afde0bdb, 0x250b013102973713, 0x15377275e22082bf,
  0xfef31c30b27893d9, 0xffff4f659469eb71, 0xbe754c71abfbb860, 0xdf317a6e45402141,
  0x666ee044ffeb68b2, 0xe8eaca66365e7429, 0xc713164c5f15115d, 0x8f20473e7b872889,
  0x15e6940a422ffdc1, 0x4336687d0941a8d, 0x1ab425ca7993b626, 0x744de7080e3f9613,
  0x16de0f5745e2e1e9, 0x29ca6a25de1f8968, 0xe93baa678676c234, 0xc217e7009ebd9cca,
  0xe7806f5ea0798220, 0xa54e7ce7d8e54334, 0x2fe6308cd734e6, 0x1f806b1e7005ed45,
  0x1cd1901c1b1546ef, 0xb2d21c66faa997d7, 0x680e1deb143c2e3b, 0x3715dd2ae94d060e,
  0x63a0ac9220dd96d2, 0x145262c413705b6b, 0xe0faaca3aaf49e9, 0xa961d88d2b7687e4,
  0xe11b34500cd9765c, 0xb0f1704340eb913e, 0xe28c29ada30e2fc8, 0xb0c4ad7c0ee8ccc7,
  0x9aa0dee6305ca050, 0xad1ef11f92897752, 0x52ce3907014beae, 0xe6c136f1c683fcfc,
  0x18353c170e93f0ed, 0x7835b93f555bd42f, 0x3a46ba7fbe277cb6, 0xee2e4a8e77dd1495,
  0xc78f6cb1efe83342, 0xeb4354c07b931c6b, 0x4c1721775a526ed6, 0xc538e0c228a77c18,
  0x4ebbd4de38143b03, 0x47a1712e749b9139, 0xab14042cb90c8342, 0x86f7d88113d68a0,
  0x2b043b427241dfe5, 0x28f2115241be911f, 0xa43f1eeedb5b1934, 0x82cf893487da0891,
  0xb6a2557976840feb, 0xb091943ba3ac17a1, 0x9a5ad3367af41e6e, 0xbb2d4400b7951309,
  0xfe1ec9966749046e, 0x8cb98ff848377b51, 0xd2a4bb116ea10f9f, 0x94068b4a3574b7f7,
  0xc6c0a01059f5510d, 0x15661ac3ea0bbb95, 0xaa16c47f58171f37, 0x7496c8198a629556,
  0xe76ee07d7d6416, 0x554a7864c4ecf958, 0xec03453a86569ccc, 0xb6ac5b1d149feed5,
  0x6bda3eb14676ae8e, 0xc1a0abe1819613e8, 0xe8112f6a17870699, 0x2b62018f3ef25834,
  0xa0c5f84d75c4e9e1, 0xbfa2bc2370c5d446, 0x5c7f5c673421ef3c, 0x42474b3dde078aa0,
  0x532d1b41b4214d1b, 0x76296403ae768869, 0x5607d79e786efaa7, 0x7f84321a748c639a,
  0x263427e7048cbc4a, 0xc617772df0f67325, 0xb6216de31e909380, 0x1082babddb7c2852,
  0x305bc46826b78f3c, 0xd09ffdc9c0f2742, 0x4acd6a48cd640a32, 0x748186c4465c2512,
  0xace49a739f9984d2, 0xf4778b7100b974d, 0x8bb9502f736ce080, 0x8392306e1e7e2211,
  0xc8b564d2550b9500, 0x783f53d0a238b164, 0xb9beab8f7079a8bd, 0x227b9e45ebd2b535,
  0x6d42e44d60757c49, 0x23673761a0e7679, 0x5e47b8c5f64415cb, 0x685ced203ca1cf4c,
  0x837375faf2d8b634, 0x3d43eccca12da6f, 0xc06d7f77984417c8, 0x6fa5737b3c16b3e5,
  0xacef11561d5054e6, 0xe7b6335fe4f20767, 0x2af09a2e491d6f70, 0x59e932fd36f5b635,
  0xec2489f97571fa24, 0xa6c8d3c151900f2a, 0xd0d0652056fc52c0, 0xf097e7fb304c82c9,
  0xdb4b632aa31b4138, 0x14686fc612d2aa39, 0x12510bd89495187f, 0x69bf2b0bd32211c,
  0x99fe43a09075757e, 0x6df9d767fde2520e, 0x6f860bed2a13eb23, 0x9723ee686d16f337,
  0x1484c3155d338440, 0x967cbaa14c93789f, 0xc5006afb12dfb0d1, 0x954af9ad092bc302,
  0x35a215eb102072a9, 0x9e6975e97fe4761f, 0xe342dbe9a1390931, 0x609de4cad9c33cec,
  0xf6fe73299a2c606f, 0x181474150c70b4d6, 0xfb66546e9fbfdd83, 0x8d88cedeaffa31b7,
  0x62ca1a45054b1501, 0x1e3cdc2239178933, 0xeaf807b744ffc5b, 0x75313a4ae8904982,
  0x590fdd43104c127e, 0x6ed0337d5f8fbe32, 0x3bda5bf66d3bb2b9, 0x164899991bd92eba,
  0xb0b5d71e99f4045d, 0xa4fcdf1f0306b463, 0x68b5226061293e47, 0x3fb07a8de13cba1e]

/-- Words 1344 to 1511. -/
def tableSign8 : List ℕ := [
  0x195e5a0de699f535, 0x6e0304fecdc21bea, 0x63d963041e39c11d, 0xb2262b71eee33533,
  0xb2df3ce5c60bf92e, 0x3e1d33badf9245f4, 0xa5b1427c350d52ec, 0xdeaaccee7684da09,
  0xf649daefdc8876c9, 0x421c28d796395cd3, 0x5b62afc35728b4d6, 0xc0e36b573d183155,
  0xd1cb5c294db2da8a, 0xcf6c831b6064450d, 0xbe403bd4fe727528, 0xcc4abd481fe7eb27,
  0x2bc7265795e6338b, 0x559a8d326e053771, 0x6a68c397be468885, 0xf6db7c0729ea41f,
  0xb374e8d17cdf0d19, 0x5ad636bf7c0ed967, 0xa49f7610d84b05d3, 0x5ca1ab6eed506d0d,
  0xcb51a49a560dfe6, 0xe677510e62a862d4, 0xe2ec20983660c550, 0x28f88da2c96c11c2,
  0xf4070c93d8a4a439, 0xa8103dc819296039, 0x7db3dd065f63bfe1, 0xaada100d6ab3bf55,
  0x59aa9389f99c3946, 0xf1fd41d27ac522c6, 0x514dd47b38c04408, 0xaa1cf58339817b30,
  0x5ffa0eb1b77f7a88, 0xe03843aa59246a80, 0xaf21b0f64f99a287, 0xfca94893a41bc081,
  0xab1ab5a0099940ce, 0xf8ee91c80ad6c16b, 0x41e01f815b581dfc, 0x2ff936edacaa2ad5,
  0xfc399791a7a607ae, 0xd9c0a7576d2870a9, 0x85bed9f59984045d, 0xe581a40e73f21b97,
  0x9b03bf8f8f7b392c, 0x2a7c618c70b2c96d, 0xd0411f4ecb707db2, 0xe97456585ebde279,
  0xa4b8edbe825f7b4a, 0xd435fa03db955ecb, 0x9c5c7fcf7e498ebc, 0xfa41672850a0b2b5,
  0x4e77efcfb1504fca, 0x67ec4d92937fc975, 0xe1f836cd7ebf9f28, 0x9a6fd095d5802e3c,
  0x92d60989bc09aa8b, 0x295b1d04a72a2c43, 0x6f58acc8dcd91c36, 0xc853b0691b5378cb,
  0x802240857deb9c3c, 0xf39ddd57c201fde5, 0xdb552ee8647ec65, 0xbc1d61bb2d6b4f72,
  0xe9d7d98b74218322, 0x5a38b11fe0120d18, 0x14ac97668920a4bc, 0x522e353e4e5e7a22,
  0xb4375b82efe1b8e2, 0xcdd6669f6add6cac, 0x9d7ad446e5990b84, 0x2327e3dfa5b0cf15,
  0x57f750937350f24b, 0xd37be93e4d8d0852, 0x309b0947e29a5395, 0x7514fbe4fe6cf895,
  0xac4bd39f193f29d9, 0x1f9148538559cb74, 0x9a91966d9d2b4ae5, 0xb75a307de4fffd61,
  0x82ce3327a97fe6d2, 0x6056a0629a44a90e, 0xd54256d8affa0081, 0x575aab5fad0094aa,
  0xbe7d14f623c803fb, 0x2a993b5917d422bf, 0xed0f2b46ad3d2174, 0x37a1a079742fa9e8,
  0x1aa4a6a09690a76, 0x12ba9a86436947e6, 0x4ff99845a0ccf200, 0x3099fde792bfb5bd,
  0xd3ba583eaf4fce6f, 0x4854fd736cf6519e, 0xe94c7f4979605780, 0xe9b74f6e989ab870,
  0xd01b9a10cf0e835f, 0x7b308ae72ed9339, 0x6e303b9ce4332549, 0x5483b8df0c0392d2,
  0x637a04613c45c4d1, 0x8b70b18d20cb8476, 0xd4c748474ad8f194, 0xd3f757faa4bf8f34,
  0x782cede941d5eadc, 0x3fe407542dcc28d7, 0xb40a3f85de0a5581, 0x64ceb92f2c4afe8f,
  0x4778811d62c7312e, 0x6f54e690cf9baa29, 0x8c734d8c3c852d3, 0x9cfb7ca55debfc2d,
  0xad2121e8e2b7347e, 0xb758640d6780c52a, 0x4761762a32aeaae5, 0x646fcd42e7d8946,
  0x7be6f406e97ba4b7, 0x7197ad36c9c55b22, 0x993aa3301884afef, 0x208e3f29d668f6e3,
  0x3c152cd010ec2446, 0x1d14b94bd844f04, 0x498ee2ba38f64c5d, 0x42eea1cf3989c0fa,
  0xef8323044440a0ae, 0x777564b755df4276, 0xe3c3d5cc7f35557e, 0xbdd6bf6f6fd9d2,
  0xce3baaf644c9f44b, 0xaf4a1da944cf968c, 0xdfdeee1c6a2320c9, 0xe577446c54d4530d,
  0x9ec42512fe26549e, 0x79aa1f8bc7224821, 0x197852b269875fc0, 0x891b1753fc33363e,
  0xa5c204a7ec64d924, 0xc73a639ccc55a46a, 0xea856232a7357557, 0x44cdea22996498ba,
  0xda283185c29b12cf, 0x758fcb6f0d0d3c4b, 0xb1dab93dfa24f443, 0xf44d4696eee6cb48,
  0xbf67caa656c8f1dd, 0xbe56a9eecedf6bb2, 0xb3658880ea63f48a, 0xa9f01ec2cd6cd6bb,
  0xf0a79c6f7ae64e4f, 0x28451b0cf4b95ee9, 0x29fc7c1825fdeef1, 0x652a6a261c7e1a54,
  0x2ae92f61394aef48, 0xd18ae43349fe874f, 0xb47af0a15f385c56, 0x23d061ecbd8cc7d0,
  0xe06273ca0e03f4ac, 0x1e1cd403d5f1c70b, 0xd5ae084f7e28aa4, 0x90f77ee36ac5871e,
  0xf087cae49d73ba77, 0x534d68880d0472a6, 0xcb7de0d1e8e8b2d1, 0x7e996664d028b4af]

/-- Words 1512 to 1679. -/
def tableSign9 : List ℕ := [
  0x393b0fe3f9d4dfd3, 0xcf749152e8e5e0a, 0xc84fda88b24b652b, 0x3c460f94043bcd1d,
  0x5de9424269ab832b, 0x3b494ca146081ebd, 0xe039b0f6933b009e, 0xf5136fa9b7ecbbd5,
  0x521811c75f654e50, 0x5b5f45a377fee2db, 0x52093374211b061e, 0x7be83de25675e7bb,
  0xa0172e998bf9b7de, 0xb5494d9a34c41fff, 0xa02195f7b7a92e8a, 0x6b3766a2af21d4e2,
  0x975db6bd743d85c5, 0x525b72ebbd77085f, 0xc389310bc70b9f6a, 0x4d16b2e8ffe0424a,
  0xe60aab9f81ddbc9a, 0x9945613eafd23973, 0x623162f0de4eeed0, 0x3bda62a0fa593ad3,
  0x2d3ce2f0a8373033, 0xbdba17c40eb7a1d9, 0x2443fddcd63c1b69, 0x4295e2e3fa45e7de,
  0x34e4894516e3a321, 0x311541a7690cb4b7, 0x70c458a5c3d94a9, 0x3a15fe49eba041af,
  0xb3c053b01a0aa355, 0x85c6d7166104a2d7, 0xb39cc9eb4cebcc37, 0x60f3a2b8ee8ffbb3,
  0x72d2248d0a45cb72, 0xb85a5e96460e5c23, 0x318cabda7a047430, 0x35e9ea17a0979c77,
  0xb75a15f74fcbd622, 0x70a9f1d96a8307e9, 0xe740192d497c72ce, 0x57bb668ee995dee7,
  0xeaf0d49ddfb50cce, 0x8fbb6f5373b8e168, 0x428da4daaa1f1e3f, 0x51ea8e8a6eb4840d,
  0x55041633b4ed7c9f, 0xb9107bd868aef5ed, 0x5a327ae6dbae64aa, 0x6fc21eecbdde4a63,
  0x239106f45967cea2, 0x95880686c2b15c57, 0xe863d19563bff90f, 0x8153dab539b63dc0,
  0xc4f2efe7a73fda53, 0xc6f7aec23304198b, 0x34d07a585ac16447, 0xd145573520cb3987,
  0x37f82fe50c61ab9f, 0x9191b2ee7913e25a, 0x757b8d2daccbf290, 0xc2d55661a9bd71cc,
  0xfa0514d50f83980d, 0x47ad3d47689fec4e, 0x8b6c19192b748844, 0x854d74a45c9bd5b3,
  0xfb38cbe4e46f69d4, 0xe15008ba6341099f, 0x8fb4b1abe98c8bf2, 0xc9ef9cdda5c7ae,
  0x2132f9fb839eb2c7, 0x712a610787789308, 0x3c2a7c1b0c01083a, 0xb11d996697b3739b,
  0x3dc532ed690520ff, 0xe9cd4ba67a90016f, 0x37f1b2378cb45f43, 0xa1c7f492e7d14310,
  0x17e42e19cf56116e, 0x8258c81c0e2f92a6, 0x6b6dd9a292224de1, 0x8280ebdf4b583b3a,
  0x19daeb685cec7cb5, 0xa5c74d80df7d58e1, 0xb6524ab25ccb86f0, 0x27657c588810f848,
  0x3edbb1d090d99ff4, 0x72f8a638d91c245f, 0xee92472ffe4f9460, 0x813f14cc6aa3bdbb,
  0xba7f2d0c6ec2fa63, 0x9996ac7e9c2619b7, 0xe5684d5e5901abf, 0xb67c3fe3adb057ad,
  0xb0837cae3b12ec52, 0x201e2060b16185a1, 0xc8d50b023d14aa49, 0x9ffea23bc337f165,
  0xbe6190ab04fb4102, 0x74c01ab1ac7137b6, 0x518b67e535f20d57, 0xd96c353d38091820,
  0xe167103666710c03, 0x76d2f101046a78ff, 0xc78395e29864d7a7, 0xcefe4c9f354148c3,
  0x8fa30e21c0caf72c, 0xe4fd640712b2bd39, 0xdf52af5dcf5875dc, 0x1a08cf7a60b99c36,
  0x449e8f481cb8ba9, 0x1572943a4a18ad75, 0x10b8be67ca7d0491, 0x345c42253b91636d,
  0xfceaa8a00852d8d1, 0x266f584508b58819, 0x25261d32d75bbff4, 0x973c7f6b815d20c1,
  0xfd67e592806da970, 0x7443784fe212cd7e, 0x74caedcdf77f984b, 0x8d36c0eedd243310,
  0x3a99e67b9d304ff6, 0xac7e11403c4370cd, 0xf80922cc3885c1f1, 0x210cb3ad0d385c4,
  0x957c5a11a49fd280, 0xa8bb24e5990dc5ce, 0xc9c731a5db5381b3, 0x475fc7e4fdc5461e,
  0x7d0c8132caf1d071, 0xfe6cfdc327ff656f, 0x5bfcf0de1033051a, 0x6ebce370db755274,
  0x7f19a51b01b2e6e7, 0x2d98d68a6bc3b47a, 0xbf16d7f2ff7b7244, 0x46e567346d22a0e5,
  0x155d478268936412, 0x270591a898a3a292, 0xe45e4878dfc759ea, 0xe2a31120a76b7c79,
  0x47a0149dfecddcdc, 0x1155f53e37bc2f25, 0x17e81bb72d9b5e40, 0xcd7b67a5528b65a,
  0x7e0cfb22331a2df8, 0x908bbde957c7d598, 0xc59e0e0dddbc1e32, 0x5181c7ed4bc8a27d,
  0x98fd35eb4e54fdaf, 0xb6f0aa8cacffe914, 0xffd965ac51505e05, 0xffd26281267fce6e,
  0xd4d8c6aa7204643c, 0x13139ad302418f2f, 0x3db783e7e8719389, 0x222e54b03a2c5056,
  0x7a75328f0dc52edb, 0x36e841968ef41130, 0xdf6f66c5deab7d3c, 0x40f34c24bde9e0ae,
  0x58c2d760b932f6f8, 0xf6e613ad2baad782, 0xdefe8415c0eb9027, 0xfab0cbdd3f16497c]

/-- Words 1680 to 1847. -/
def tableSign10 : List ℕ := [
  0x4936ebd6e4372f15, 0x66f45b495c6c0fe7, 0x8469f93e8301dbbb, 0xf5d0a402d3686901,
  0xb6c57d4872bf673a, 0xec130ff7c50fa5c1, 0x40fb8ceb7f6fd561, 0x58d0b90c73f5bcd2,
  0x7ac51a2f6a1d183c, 0xd5d89278f4926c40, 0xfb2f04ee636d5b95, 0x4be7ea96b8e22d2d,
  0x5137f9d6391c79c5, 0x13fe33e116c4eb3a, 0x6a4025249f0603dd, 0xbe7a859a43bc0d0a,
  0x7716c86e5e0439de, 0xdd728619465575a, 0xd1138d412917d934, 0xedf247c01f03ac35,
  0x12782e1448425fd6, 0x4c01cb3cfbf1f196, 0xce742f3319112a39, 0x56871847ac6b115e,
  0x69af80de8f03ff1f, 0xa99c57c7ad6ad543, 0x9f11dfaa97d96e07, 0x2ff8a7b32bee7782,
  0x2aed326bafc04fa8, 0x37eac32bfe631c34, 0xd17c60e656623270, 0xa5d161b0a916c40c,
  0x8bd7a07e7bd88394, 0x47c489ce4b70f98a, 0x504de0b1e055db33, 0x185a45b03b2e425f,
  0x152c9abbbc854d76, 0x847bf4c64e7d55f7, 0x878543b1bc51cbf3, 0xcde558e6bb015105,
  0xfc6acc1ada2aaa45, 0x406efdea0702da94, 0x4b29d11636517304, 0x8f81d788ccb5f400,
  0xa9fbef72ecdded29, 0x1d0a2bc1d04b018d, 0x4d4cbf39c989747f, 0x369427b420e0b9b9,
  0x73ba2e04e4fcbe4d, 0xf51f8099dbbd3f8d, 0xfe2e56c976cef11f, 0x365460c44240d497,
  0xf8fa3aa18bf157b, 0xc66068812dbd5760, 0x22b732d3c50a984, 0x5885e671b2025ff9,
  0xac26482a9e6d1098, 0xcb7521657f48b640, 0x8585dd769d997daf, 0x3869e3f233e5b79d,
  0xa69ae7b679ea5a60, 0xc6ac24dc9c829cd2, 0x13decf942b404def, 0x4ba7117fbaebdb08,
  0x2f32b4e825b7b7ba, 0x823f75057d761a0d, 0x68725db44832af4e, 0x3703985ff924bede,
  0x8c96b49dd77f8b6d, 0x17161d82d7d23faf, 0x2ad97e0e15fe1029, 0xddce94c8e90d8451,
  0x33e8252ef9e2652d, 0xb54216abae637e7c, 0x6b0a3ec70294e1c7, 0x9ccf1c954fbd7c18,
  0x8ee4bccebbe18e56, 0xc75eebcc578fd397, 0x6480dbbce9661abd, 0xc0d0e6b7a62ef18,
  0x1b09849647f5ca95, 0xee530d22caa97561, 0x80d4162045b49dbe, 0x6b33e3160900cbc,
  0x1a8d402128077877, 0x3f566ddc4ac5bd7a, 0x41fb34ba4ad7c2b3, 0x94f5046036224b17,
  0xe308bf247d963433, 0xd5b686f0d5febb60, 0xaac963316a1692e2, 0xdb389f81b53cb54f,
  0xc3f70effd9f878dd, 0xefd3c213592234b5, 0x93e2f3a09a11dd4, 0x94007e2cf7c55ce3,
  0x4944b3f024b82b3b, 0xa9adfb273f8e7114, 0x25474de69ff0306c, 0xeec7fca478fbaa76,
  0xb73135202a52cb61, 0xe6d848320ea9a98d, 0x3e77a26dfd19c83e, 0x32da215559240b78,
  0xce8e2852803b5ae6, 0x4d60d8d85fd36b32, 0x402378975f98458a, 0x913e7aef9115ec09,
  0x6751f34e851c33da, 0xae20f22bf8c46aef, 0x27b79786eef7242d, 0x9fa350c47d27273d,
  0xaa7db19ccf66a199, 0xb75e80daffc39267, 0x49da3e764758da84, 0xa90a56a14298f203,
  0x46fa34f6b7f4dff4, 0xa712060564b83a71, 0xaabee52447b06720, 0x2b71d1e34c3000af,
  0x8381cb570e2bb0af, 0xe906af342ac180d7, 0x8e5783c50900048e, 0x71a0edae4d4d5e70,
  0xf4a595e54115cae6, 0x4fa1541d26e57d2a, 0xb6cb3e8379029108, 0xf5d37c509d623d0e,
  0xf941fb361d90d3c9, 0x1246b560573eabdd, 0x9c6a1e17f4c7f816, 0x15378da60e2aa755,
  0x9267ad6f184faba, 0xcc410e6ede8b013c, 0xe2d78fe1fca5379f, 0xebfe9c3727de547b,
  0xd2e158c0446102ad, 0x9bdd09c1fde68635, 0x56da115f89a141a6, 0x4a87eda339dc4c95,
  0x311099cea9478d35, 0xe04bc5619fe176b2, 0xce9cb922211a298a, 0xbb399c9d69b1ed98,
  0xb67810ac7ea394c9, 0x96b2b33584f94331, 0x8595290d606c97a0, 0x838f42b1bca10592,
  0x1117e3e290d7279b, 0xc3bbd67e8e01caba, 0xb49dbd50aff65d65, 0x51a75bf27353e107,
  0x9014825c1f9d783, 0xf46d419a3819496a, 0x723e37140fa6c39f, 0x9be25afe7344d8bd,
  0x61ed152f133031e2, 0xe0a31fb4db384006, 0x6d539eb4c2f3cdcd, 0x855a0c9ae622cb67,
  0x177cc8f42ab8130f, 0xddd30836afa8cb72, 0x7901d3c136086b4c, 0x46fa67982a926b1f,
  0xd135589f3a22ffc9, 0xd8bb7950b6001515, 0x9a6e11459fbdfa1e, 0xbf2afffe3791aa96]

/-- Words 1848 to 2015. -/
def tableSign11 : List ℕ := [
  0xbb7f243d29099956, 0x538818e912f8c7, 0x6a4ab34881bd3669, 0x3eedcea7b31c5dea,
  0xec2b7fd125a94fcc, 0xe68467d38bd56a77, 0xe11ba243031093c6, 0x14ae496477ff6c23,
  0xd35ba1dff74fb065, 0xdaca1e922408d51e, 0x507fc42f60528f76, 0x1fd4cfd3e484b057,
  0xda7a41724049f9dd, 0xd7bdd5dcdba7a122, 0xfa309b27c36778f8, 0x4fd9c125256d5c5,
  0x67743adaf2179505, 0xd745e2801946fa3f, 0x4872a5b81185b798, 0x34e858d934df674f,
  0xa923818410526392, 0x5045a7edda9b6057, 0x7d4535d75baac299, 0xf98439ef3c11afca,
  0x31da7ec61a4cdc01, 0x45378501027093b3, 0xbeefb6fb16ab0f49, 0xc4c9ea291ade9f10,
  0xa73d29d90685c8ce, 0xbb16ce895ca8193f, 0x2a58130eb76baae7, 0xd8e74a563042cb29,
  0x480b52421a3cc8a4, 0x4229e4800e86864e, 0xc2e9ed69369e3da3, 0xeeb43d582cfa418f,
  0x12725b48ad4b95f0, 0x305715120e724f9d, 0x54456f0a419d9943, 0x23bbad772861b012,
  0xb611ba96a861fa3b, 0xbe0294937f7fe6cb, 0x4bcb413423222cc3, 0xb7d0687e92d90908,
  0x4f2eff1ad127a70d, 0x846ea74be0008be0, 0xaa277047af6497d4, 0x6ce9cfcbc0ab8dbd,
  0xc5fa4f566eb5a0f4, 0x4f99af1d6db02dc6, 0xb756df8c27568adb, 0x299fddf615b548c2,
  0x674db61f3da752ea, 0x6b12a424b27b5f63, 0x934eab54a33b8051, 0xb9ee243e613d1fea,
  0x92c7dc1e16e6fb3f, 0x4adac4cb78c1cc42, 0x3b63d2ce4b4c80b6, 0xf8b8f20adde61fee,
  0xb7aa79e28288567c, 0x34425f6176613f10, 0x591a087127829a85, 0xcda317a3965d594d,
  0xf7cb3681f78ee918, 0x2ebe6fffd7893329, 0x8b2f563fe21fa183, 0xae361ebc9713684a,
  0x1efd0db7ae66be16, 0x37158e274e434d6c, 0x173db04f34e157e7, 0xc96d506ba2a00b08,
  0x28181fb43ff02508, 0xd047320de0844f1f, 0xda3626a89101a0b6, 0x4128740832f66396,
  0xd97ded55c7b73f8e, 0x9f73a333bab8d904, 0xa5e6c20fb7805209, 0xbd49349b1ad35c0b,
  0xb4ea55d993a13a3, 0x2e87d413f7a88f24, 0x6bbcd39120797b9d, 0x87d3b138dcf49db,
  0xfd38e70893a6ab7, 0xd223dc9e0f408112, 0xb80998f8b75355bc, 0xaebeeb5d35969f1,
  0x2be2fa2cca024aba, 0xe340a33c50f32b1d, 0x6cf4bfcd1d1bc3f3, 0xe62ff5aed0214a87,
  0xc33092ac2a4e683c, 0x45f2d93d23f78986, 0xe9669d10adb57463, 0x1b424e92b5e31543,
  0x1a1ee9818f51f640, 0x2810bc4ef4def2aa, 0x48cf1cffccac66f4, 0x85fcf40825d0aede,
  0xc909514bad7e159b, 0x9907150d285fe4d5, 0x7ef3272c3fab9be9, 0x982fbf1e95e6dfd6,
  0xc5c7fa73033ff37d, 0xbc13e1840a63ebfc, 0xc2333e686de41456, 0x4a78785fea5038fe,
  0x1ad159756e1e4fee, 0xb8571a0663940325, 0x4f930617b655823e, 0x703956dddb2d6fff,
  0xe38932329a53506d, 0x97e1b953bab15aa3, 0x435571b0a73205fb, 0x10ce719967656f9b,
  0x58c056a888a36d37, 0x3c7fe79c6b65c1b8, 0xb76ba5d6161bc05b, 0xfe216a1d2d4fb2e7,
  0xb7386ae7f9ac006d, 0xb7ebdfcda63d859e, 0xeada55cc75b0a527, 0x6571721ef2940ae5,
  0xa7aa2c759c936184, 0x6deb0a964826cd4c, 0x625b74236568433a, 0xa2d51b17bad17098,
  0x30e309edcda23cd0, 0x24e2ef99109b743e, 0x10919649d9cc699e, 0xcc7cb94dac81b5d0,
  0x3a1797c35818ed64, 0x369a963fc40a1401, 0xc18f9b166b832cfe, 0xf7538f1a82874319,
  0xb5bf66098c55a6b0, 0x7bc37ee96ee6bac2, 0xd2d513882cdfbbf3, 0x5ddb31b7f2014ad3,
  0x4936fcca1616d7f3, 0x3be98038b129e483, 0x92a17702f23ba1a5, 0xb30eb19f5fa5ca7e,
  0x1ea7feae85f21de, 0xfc32c3a2999b00b, 0x466ab1af6debb90d, 0xca404458b382fcce,
  0x54ae6beb8a01781c, 0x1c7629153a469cf3, 0x2edb2abc89355b00, 0xabeb8aa153984b62,
  0x195b5ba4389fd1b4, 0x479d894165f17ed0, 0xdd1cfde743ff7c16, 0x8ea7a7d0ef9f04df,
  0xf6023caa83fce89b, 0x7f9971a0ff03d84c, 0xa7ee0c0d9ae2f690, 0x34895f425d9ff927,
  0x9009fb3a96ad9049, 0x7472615e8257f61b, 0x57e42f627c47d2c6, 0x6a518e4c0df19312,
  0x7130607dbfe1d966, 0x2723847406185930, 0x61262bcabbc079ca, 0x5621fb950353c62a]

/-- Words 2016 to 2183. -/
def tableSign12 : List ℕ := [
  0x683c8bc3b878fd4a, 0x4b9ff890afd3f185, 0x41d36514b2f4d9a6, 0x769e24013bf11b6c,
  0x18a3641eee1bfc52, 0x30e38df2e2dba2c6, 0x93c4d2ca6c7663ee, 0x9a16971d8c90a3ff,
  0x118dbb3363577089, 0x855762f1c8546152, 0x8da30df3756627c9, 0xf4dd51cc95adc051,
  0xb984332f54f8ab1c, 0x2b9b255507c2d3d8, 0x95677cc0631f59e0, 0x717217975fc16c4f,
  0xe5343850af34a685, 0x1c83f6bf776310ed, 0x238350b5eb344454, 0xc40f43194b0b78,
  0x56abcd7cb809cb17, 0x98b4fb798ee96b40, 0xc2b1781f02b1d646, 0x6b53277a9fd2e3a6,
  0xa7ccc090b5b14216, 0x63fb5a22ee706339, 0x511f14bba48ab811, 0x57dd96957cc6cb29,
  0x189354adf8184c4a, 0x75473bb863cacb50, 0xb3837494b8929ac7, 0xe5f9308ba9835534,
  0x961f217674b3293d, 0x4edd46263ef1d12b, 0x5cd9e8c54e07c0af, 0x62c8b249a748b67d,
  0xd3d1837d66ae4803, 0x9d08dc7b1c5aae63, 0xb4efc9e10de0d978, 0xf5c5b57379d92134,
  0x1639813cf175a09e, 0xc4ea2c16d681202d, 0xefe686224dacfc5e, 0x4848eff823b90acf,
  0x1aabddc8ba45a385, 0xc94c92ed44dd166c, 0x64931a25ce2f26f1, 0x9943a6b6f3363545,
  0x1d563e7afa5c349d, 0xbb87661054cd0ef4, 0x1ba5baef30029577, 0x4d1e68ab96c96e58,
  0xe7b9f9a540e55ae7, 0x51f3f6f76aa867f2, 0xadd661b93d8116c, 0xb7fb75c6dc18feda,
  0x1be255ee905509a1, 0x15f307075f9a42ad, 0xe47832f0989481a7, 0xc473e0deecbe2416,
  0xfc7a27dc24b8ad36, 0x8b29828a492b8abd, 0xc82268a88103a408, 0x32eaa98e2fcdd0a6,
  0xff962e73db3602bb, 0x5cfe2a2e57709513, 0xae06aba079ffef58, 0x3f07c5878a25fc42,
  0xdf83a73269a9f274, 0x47ff2a43d4ca4223, 0x14df64a91f8858ed, 0x4ab2d8725fb0a6e3,
  0x441bb3286f18d08b, 0x6bbde777c72868cb, 0xe8ebdaef8ca57ef7, 0xfeeaca6d413f180f,
  0x6c1ded67e7152a28, 0x746ff725117a72c6, 0x454e65b09e7521a0, 0x4c359a7a3c33f24d,
  0xee349c0bdc39cc8a, 0xf6c1675c4214556e, 0xb028ce70a81a8c7, 0x4cb423ccaa227a48,
  0xfb8a4d9ca3e33c5a, 0xa86f250723490f87, 0xc75c96a32cac206b, 0x70848a8db25c75e2,
  0x66fe9840305bb44e, 0xc288590e1d940923, 0x81d1d04db916a6b5, 0x305122bd6d2a8b6c,
  0x110c553120bcf8e, 0xdd0b29135425fad5, 0x9a49f20d5fbed94a, 0x356316ca257fb8e5,
  0xcf7f24245885d2e3, 0xaa791b72c993c6c5, 0x3ef5dab4470d573f, 0x1137a641614f529,
  0xcf83569414a7c801, 0x99aeb2f884bba2d8, 0xf0511b270c15bf4d, 0xe140d787dd5dce90,
  0xfbff9677304df0b4, 0x976273ec0a2fd10, 0x2eae8f62515d7f1a, 0x22b25991770389cf,
  0xf1796a9e87c74d8a, 0x10b123b96590df5e, 0xb01eaf42f823b02a, 0xca2c73ee684ab065,
  0x1fa513946b66036c, 0xbbb4ccdce3b726cb, 0xa9db275938ad5c07, 0xa9d04c4b907d939b,
  0xf859d43c08f8bec9, 0x69371b9d753d4242, 0x3f5d716bc76576ea, 0xd1b1368a1e0392e5,
  0xef5eac7a5ef527ac, 0x35cd4b04be51bd13, 0x5fe56b0e00618372, 0x14a24f50f236799e,
  0x9efa62d3df712c1e, 0x830f300d15be0fea, 0xd37d322d6a250eb3, 0x65b26f18cdaa1082,
  0x87adc117c2207c6e, 0x745f02b283518fa1, 0x2f3560bf30599126, 0x98604225617d3660,
  0x8d27d77d2994c86, 0x6bebe08ea183dc3e, 0x226a03dc893fc386, 0xc554d976bdb9a4b3,
  0x135a6476bb89dabe, 0x67e626beda801dd6, 0xb76ac687c780031, 0xfa62d129f2faa35d,
  0x79db911b4b263e9a, 0xa8bd712fa831d58e, 0xea66ffc30e96426d, 0xd1fe2505612731ed,
  0x3b11ee41c436c6c7, 0x68070ac5fa9b6f28, 0x2bf0831073512639, 0x5f020c638dc58c17,
  0xbe7cf7252ea912a9, 0x39c13a0cbd7fcf3a, 0xbdc1ad57ca571220, 0xf1eadbce2db5a37e,
  0x3b29e1b9f380356f, 0xf7d8baeb484aa1e7, 0xb9f980e01b365021, 0x2737bcf5b04af1db,
  0xea51fdbae8f4dc6d, 0x4c8ba9d18898baf7, 0x6803e7bd8a406e8c, 0x2a17fbbe680123b6,
  0xa30e596060624013, 0xea581c2bab8a65c5, 0xfe682a7133cbdbc4, 0x78a43493485b0809,
  0x2831a4548b03a9bd, 0x642b1d460b24c70e, 0xcc2d068ff7902ea6, 0xa2f22d74b03b08eb]

/-- Words 2184 to 2351. -/
def tableSign13 : List ℕ := [
  0xbada8de37847e27d, 0xe7133a588c275859, 0x71a6d7f9db8d133b, 0x33095f7b5f138443,
  0x77eb0918d26c2a68, 0x6fe1521149e98e5b, 0x6e23e4c3b005a232, 0xb71eae700820cfc1,
  0x606b867588feed39, 0x5c10c49618829230, 0x573a373a4f44f822, 0x917ac75296b73ca0,
  0xd01c54e70803dffe, 0xca806c869491f598, 0x172c77f42b5ea117, 0xa535a845fc83ddc0,
  0xa512e3252c3ac0e3, 0x8d11310f1ae69f01, 0xc3e820e5a6c51f90, 0x765576c7604f81a,
  0x39215b3ea1a92989, 0xfe27a687ac07790d, 0x3ab72565439fa73e, 0x70ed897bc3e06f44,
  0x8cbbac3f7f75b692, 0x1d9d32642e8adc8b, 0x2b8f3ffbb0c5781d, 0xcbacaf289745f57f,
  0x97359a82d28b02f9, 0xdbbbf93167778846, 0x124fa6f8cd02d5f9, 0x47717ea99db70abf,
  0xf13d4d5a88939520, 0x8f2fd3f3da26ed3, 0x557e7730b4a699c, 0xd380beed752f2aa6,
  0x4508125afd771ec8, 0xeeed2742607918e3, 0xc0673786d6bf1bc7, 0xddf361dd9e470de6,
  0x38f9ee1c21c3ba5e, 0xfa6f7247ace0712, 0x2e79e978821feea7, 0xb5a471c541235f23,
  0xa3ad29190f00c693, 0xbb077f522557512f, 0x59822fd89230123e, 0x99edee5497b3fe59,
  0xa7f2ad5b85e27ee9, 0x86bc1f104717476a, 0xfd7f00bb98fa4075, 0xf95a66a6819a833,
  0xce10686613ebc7d9, 0x6b785f935165949e, 0x3633c06d42ae72f4, 0x5a3347337801aeaf,
  0x593f8bf7567aab4a, 0x2ee70e7842537af8, 0x53f2b478c6a8924, 0x4a0bf4a6d127f7b2,
  0x4ea476e6da65e0fc, 0x105ad0afdf9a2716, 0x82f3bc77540c496e, 0xf49f8a1404e1558c,
  0xc4a9be941c14a3fa, 0x8a7fff509b8207e, 0x6944c0813605d519, 0xca868956e50d25a,
  0xc30efba372c37cc6, 0x62deb057f4817b59, 0x11e7531173d7ea5c, 0x989fd1f01a07efa8,
  0xdb7158c5dac4d528, 0x73bec0b40801732c, 0x92e481a6c382df4, 0xbb6f741778141eca,
  0x7c0d838fa1f4a9c4, 0x78055e69964797dd, 0xd0ab5ceae1900b16, 0x1489aa738d78923,
  0x79954d2c4af31917, 0x73b39cf584ccb9a0, 0xd46e72516bffc338, 0xd60fe5551a85e4a1,
  0x45a05e228c6e5e9c, 0x5fe6e0f937148490, 0x206f8348827bb5e7, 0x80d94fa21e426481,
  0xe1b36919e8e1113d, 0x80d41c0d19c4ec0f, 0x44e4b639496f6ee5, 0xc080875106ed8ae4,
  0xa718feecc8a7bb90, 0xa5aed8a028417064, 0x92be8fd402cace15, 0x317dd6b1f617a448,
  0xc30e04442d7a2089, 0x8153dc42669eceaf, 0x20689c6e0066dfd2, 0x48df20ab99809972,
  0xb7dcf6ec66aa4dc3, 0xeffac6cdc8ce43b5, 0x50654a5eb6d220fe, 0x4cab6ed2b95c8f40,
  0x39f154d73eefd77e, 0xa6d2503df7504fe0, 0x11e56b3407efda32, 0x88390da340c3dc72,
  0x4fe94c77289b3aa0, 0x629873d9240fc3c3, 0x62468222857318b2, 0xe27d483a61b6bf9,
  0x2ac4fd242ce1f26d, 0x2c6510510a26ae, 0x483b2fdce3406577, 0x690f60e079bf2838,
  0xef1758cb9f1bef85, 0x60bf8d5c5a69e216, 0xfbc3a5c1d49f796, 0xdc401be601759884,
  0xc6f6092e6bf58642, 0x320bcda8cfaae231, 0xe11f84bf8e9d7241, 0x2a4fd0be18343c84,
  0xa7918476d358f9b9, 0x56d420fa3f0eb878, 0x9ec168d6f03bd348, 0x662bf88053733198,
  0x54102c8d3458d08a, 0xc7b54d731a4685a6, 0xebce78269ff415dc, 0xa65f8c2311fcc101,
  0xc649a871c43403cd, 0x69b9c872927a3e02, 0xa31bd385b739ae50, 0x3e3af6a22a9e7ef2,
  0x8687c14a07942ed8, 0x549d0e8c9561f459, 0xa7d02bbf65cbe1e1, 0xfa1e0b8d97f2b316,
  0x60ceeeed165610f5, 0xcde7db9f4db6aa81, 0x4c58bc07e2268445, 0xa3eff8967ff48b07,
  0x3d5abcafba85ab6a, 0xecde39e93564548a, 0x519ce282b17f430, 0x4cb54c473f0e1859,
  0xf1f03bdbe19c9bc0, 0x53e1d06c5a5e2cd, 0x426908718d35237c, 0x213a5c41cd5d92b9,
  0xbc63574dd7b42ba0, 0x80b2dd7679b4556e, 0x24284b84fd30bf81, 0xba04551b74fc255c,
  0xf83e1fd3df85fbb3, 0xc88b14149ee9f53, 0x50bb4114990cf9cf, 0xb4031b933f68e247,
  0xa0b9eb76e0cfd176, 0xd3886344b0143928, 0xb4d75dcf2a20d3ac, 0x63cd0b793afb8d28,
  0xbcb6950f56ab4027, 0xd85eacc8de35e71b, 0x1cb5cb9da50d8a99, 0xce261e76339e4591]

/-- Words 2352 to 2519. -/
def tableSign14 : List ℕ := [
  0x251bc958993530a8, 0x44ebfa2483f600d6, 0x8c9935e0ca763217, 0x72688c8ee97bcaf4,
  0x52d08e43ea0ee4fe, 0xd57227cffbaeff28, 0x79014328a0acb0db, 0x791d30572a7bb173,
  0x1c39511ce542fe9e, 0xa8b56ec4ae3a404c, 0xdc04b5d90678dae, 0x115816d766389a19,
  0x6dc198676ff3fba4, 0xb68dd7f8309219f1, 0x148383aff68f67b7, 0xa81aa2ab3f97cf74,
  0xcd773541be7abd97, 0xc9b0ec92a42fba75, 0x6854ea2a2e4dbf76, 0x9d6e3c997f7d6120,
  0x3c905e512bed429a, 0x6ba7e3417dd17390, 0xcb0c602099f21a48, 0x3e77cf10be22fee1,
  0x10e01d9a49d2ca58, 0x530674124eba6c89, 0x5d195afa0df0fdbd, 0x5ce687046f394d61,
  0xeb5f92052a4fde87, 0x7d5716f60d8622ce, 0x84465c6dced6810d, 0x377e544ab7a245e2,
  0x8d0cb65046f157f7, 0x3df5c530f11dc48f, 0x75dce5206a276365, 0xd52a8e56d50e2232,
  0xd8d6aee739019cf5, 0xb0763b8b071b1e0e, 0xd8d34393f9a9b4ac, 0xacdb7bb99300e316,
  0x9c7bbcc41182fe91, 0xa7179999c809d770, 0x8bea88408b32d2f, 0x8b9be97fa7a8a0b,
  0x980201b85ef297b9, 0xe37cd52e0647f708, 0xf6432b53a25b2039, 0x7851bf8a0bb6f0a4,
  0xef38f4ef9657bfe3, 0x3ecdf0f42e8999e8, 0x53e518e907c5466f, 0x570cd3da53690686,
  0x80b8de888a092afd, 0xb47544346ddd80ab, 0xdd7bb13ed4827d56, 0xb82c4fb7d1555e24,
  0x4bca6b6110643019, 0xd106e34757e55a2b, 0x8f9e304889f3756b, 0x322a21cbe23d283f,
  0xfe3d45bd217d4ea9, 0x1b80647083aadba1, 0xce0ea94358d1be6a, 0x4332ee0735ce9d1f,
  0xb02bae9259410ea2, 0x9c9e436a82cea55e, 0x6c1ef3c0bc293508, 0xa856aaab104a970,
  0xa43468b213163b86, 0x798439beab2e17c5, 0x299593d5ab9aa8de, 0x1aa506571495e7a8,
  0xc2277505d8d9de61, 0xaa87198d8e4c6767, 0x9b1ee708397593de, 0xe6d386696894a30f,
  0x2826ed5146502bc, 0xe7c2b9983867a5eb, 0x56da24ce9c622cb0, 0x5e2e8489196238a5,
  0x82b2c3d681aa4dd8, 0xca2fee617d8f25e1, 0x55de611f356f9b1f, 0x8e2775016ba6c569,
  0xecc76265296eb7a, 0x6f86a0a211edb544, 0xc2c00ec2ad45c34e, 0xc2a51087374fde16,
  0x5830196c70e8cea6, 0x9a1dc7d2acd1e34b, 0x3c49d44b4cada9, 0xc53ce1587353562,
  0x8498592fde18d8b9, 0x57a630d1a4f2fe80, 0x2e3c319b0d9f1254, 0x400a80f165129bbf,
  0x4789db4cab063c9e, 0xa01d45d6ca3f933e, 0x61aaab1475faef3c, 0x3af80e93ec3900d0,
  0x4ea6f60f415b9bb7, 0x22fc661d8ceb1559, 0x65a80678c624fbe0, 0x1d35daa8f662a162,
  0x655aa40d6942e7d5, 0xb9008b2abc1fb67a, 0xd5fa2bead513ac41, 0x6c11d221b5e438b2,
  0x8109eb8690534bf2, 0xcc28917afcb65eba, 0xbe93807c59336eb3, 0xf7a11d9ca44a25,
  0x96bb238ed80be234, 0x631b4545fe1ac300, 0x80fffc8d4d95375c, 0xa1f395d041c36cb9,
  0xa290bec247b48393, 0xd28993076e5840c9, 0xacdba28e7fb9c852, 0x3725a02dc652fb45,
  0x98b13366c39f31b7, 0xee49dab2a16b8e39, 0x3a1830fa57e14288, 0xc3b6702a8564e17c,
  0x1b02cad7edc61e28, 0xfb19d76317fd2e23, 0x1a519bbace738614, 0xc149679e5f389df3,
  0x99decbdf1d16918c, 0x10d32819dd7b2b6e, 0x9a645d8edda77c10, 0x7da22d18fb009cba,
  0xef9fd75910aa3781, 0x1895e2aca2308069, 0x335424dd739cc403, 0x8808fa048a1fcf52,
  0x2bf60035279dd522, 0x30182c02a560517a, 0xa3518b88dcdec039, 0x11e46cf31d49f074,
  0xeeaafd16f603345d, 0x4d4bcd320239f017, 0x3de5bf36e0069f69, 0x459a8e6ef5b904f2,
  0xc6eb839057d9c29b, 0x107262d5678e09ef, 0x655688592ea5d697, 0xcf5483c01e6e35b6,
  0xba65900ee8f1db62, 0x299122c2d6bf484b, 0xfdcf3df94df8cea5, 0xc27786048a62a824,
  0x9674351e66721bcd, 0x4fadf6e3e03c1953, 0x9e67416225342be3, 0xb9fcbb6e261f0c53,
  0x74f3a489f5fd4239, 0x4950f2319b9fa71b, 0xc6b9b3cc9faf8d1c, 0xbcb4385e109371b9,
  0x30df7340db0166b8, 0xc899632c19ebe77f, 0xfd29dc2fbfe2e1cf, 0xcb128c8d499080c9,
  0x8bbbc72fd179737b, 0x5a1ae496e089cd53, 0x8c0cafb17f261fd1, 0x24bb1a098d87e997]

/-- Words 2520 to 2687. -/
def tableSign15 : List ℕ := [
  0x869d4dc875c1dd7e, 0x60a09d27eb436976, 0x3fa832c5e9483b7a, 0xc5cf42260649c2b8,
  0x2ee4a50d1d988721, 0xb79a351076c848b6, 0xe7e6c652f1d8c0ab, 0xcee65a953f4ca07b,
  0xafee3d5e5641b0ca, 0x485336cef08cbd2, 0xfc78b426ac26bfe3, 0x7faf9ca1795b3076,
  0xd7f38d5fce5af708, 0x6d8d91258fac7692, 0x94562394ae700d0d, 0x674e135eec80a43a,
  0xa5aaa6dd32764cf9, 0xda3594aeb1a8bf2f, 0xf69411075e925632, 0xd912a58b629be547,
  0x8575e6666cab90c9, 0xdba91290a548c67a, 0x8c60a667ed07b775, 0x421895c227f6dad1,
  0x684b5fe0b000aa4a, 0x879d545c487afe9a, 0xebdc0eb909cb7e9a, 0x3ad2693fccbc3d0e,
  0xfb339e855ea3bfff, 0xb9d60de4736c5316, 0x5df38febe61c90fd, 0x7f1a31e67e7c3a79,
  0xa6dff7195c8b35a7, 0x1534bdddbc742131, 0xd874b324bf1b3234, 0x56a32bf5a98804ae,
  0x26d73122e4ba42ad, 0xf3a880a7329a3ccd, 0x1691d135d62aa82a, 0xe15508a9d7953dfa,
  0x3a62167935cd5085, 0xc94925d1587bb380, 0xf99517709156d987, 0xdf119627cf567155,
  0x7fbcc9ad53eedbb4, 0x3091459ea5f2131, 0xff810e52ff51e6df, 0xcfa6a7d2070f3b3d,
  0x486cec90c391998f, 0xbefbed751209fb4d, 0x10dadf4ddd207c3d, 0x2607db3599f65278,
  0xa6ad993bba2e78e8, 0xa2e306510db7430c, 0xd71fcc953bb25929, 0x72fa0ecc1bfed8a7,
  0x7b85b405eeaabc50, 0xb3e0f1eb24d3f937, 0x7b721b75317d9fff, 0xcd64ea5d6258a04,
  0x7c95f3ec1c665f11, 0x43eb4b52cf3f4147, 0x353590ef212e40b1, 0x5ad794f57431e182,
  0x9ef13c2b228be639, 0x87e30e269837af0a, 0x63671b7a0d34429e, 0x4f16dc3fb96553b3,
  0xe3a4bfd15b7afac8, 0x24db8ebcd26246fe, 0xa0823c8411ed3138, 0x2466f19439377027,
  0xb214f37ec22a0036, 0x6f9248f1b1695364, 0x56391c19eaf178e5, 0x272a1ec4ee85cdd0,
  0xec78f7c06cd72595, 0x80c7c8b9a0d6f5fd, 0xdee0ec81a67b5bfd, 0x84008ccf7049debc,
  0x57a81c6154f657db, 0x7878ea7b19d503c, 0x271c02846f2bb110, 0xa3d08d2de9682a3,
  0x45df440bd80026f2, 0x4dee3d6e1427ecf2, 0xcfa7818c6b85ae4e, 0x268528e1c4a58438,
  0xfa0a300e6ff68c11, 0x5d6555f1bab39589, 0xd72f5067b7fed69f, 0x87b48294d302d009,
  0x4c01638476a1d66f, 0x824da60c25dd3fc, 0xe0d8263bb85c7940, 0xfc745d542746ff64,
  0xe9bcc690153729f3, 0x7a73bc6f42ce108f, 0xd82a4ffdab1ec4c3, 0x4a10a18633e6e8eb,
  0x45ad5f7140cda756, 0x92c8883f9bc0cabe, 0xd95951a709b0820, 0x35df52f9301d8886,
  0xf6635eaa59c9f892, 0x35403377a95cfaf1, 0xa886714a4b4adc5e, 0x3127794a9ca8e812,
  0x1905fcc9df80f267, 0x495a2dc1d6699409, 0x611cf0fe201a4720, 0xc31e4826f4a905c2,
  0x6cfcb15ee3d0415, 0xbe40697b003b2b67, 0x7b368e6f6f7ae073, 0x5337392f32261205,
  0xb9f1c12af5cde5c4, 0x32d4a6c559874766, 0x5fad4877b3176a90, 0x3a026fdb86b3d053,
  0x96e2630e55c734c, 0xf797a9a152e5abee, 0x75861c76acf3c4d6, 0x1d3380825ff2b2b7,
  0xaaae39138f95659d, 0xee9e8b9b0f1579aa, 0x5015d299879a8dbc, 0x2e3abd06eedd6639,
  0xc934a0d87ae6ad9a, 0xe22c1d5eb03bc8d5, 0xcdcd27a50c6f85a8, 0x7dcae4769b6fd754,
  0xb45cc7900e02330e, 0x2c828230e1cd84d6, 0xe3417f114658b2cd, 0xc521365141c13165,
  0xe28de30a36e2d779, 0xb033f8beaca3efb, 0xe91631ddd0438986, 0x709c1a0b19ce6eeb,
  0xd53af0f6f6f0ea3c, 0x7cfa4387ec415e8f, 0x901f207856d203ec, 0x84a150e0de8ebc89,
  0xd88348048832bd8e, 0xc6f42d9fcc582108, 0xaebf5b69d4ed9bac, 0x4778696fa9bca399,
  0xd6d48bfa25d3cebd, 0xe08e190146267700, 0x30d54a112f7297b0, 0xfd25544bfc0e3069,
  0x8ad376c801e166db, 0x7bc5f81d57e20a91, 0x1d713700d60fefbe, 0x674d0fb478386a14,
  0x299e643eeaa92663, 0x8b137bcf3f086d2a, 0x805717cc18a0aaac, 0x4e9529aa1891c696,
  0x8af5e2a7577fc59d, 0x3e283e625c60b46, 0x2fb4ff50f489afe0, 0xd3f9040727c164e7,
  0xcf74b0e69a8e1476, 0xa08f4892e0c9d759, 0xd4f7ec0bb848c25c, 0xb8b26da9531d707]

/-- Words 2688 to 2855. -/
def tableSign16 : List ℕ := [
  0x979ee7a5a342a69b, 0x46286194d93db7ff, 0xb145775082349c04, 0x980a43f7d9f09ee1,
  0xaf7e0dfc764bf24b, 0x869801956f9bcd47, 0xc47ecf9bbc4423af, 0x338564dacd5c4cd2,
  0x429357cb08e9c406, 0xc75f137eec732933, 0x672cec0fda31bacf, 0x5690c49650936acd,
  0xe3a9ad82247b4614, 0x452bedd157480, 0x516b713cbf179859, 0x80c2e78580539a7c,
  0x8b5856bfe169e960, 0xb0d9960aeef8cf4, 0x330a355af3f43fa9, 0xb1bdf50fe5176f4a,
  0x8171ecfd86bf8db3, 0xd0e0795f6414f9a0, 0xab7b3f3a567016f6, 0x805caa9b90dae8bb,
  0xd59a3ac401db5826, 0xfb33975f6fce5b8d, 0xfa187da55775f014, 0xc5d36ec7aa1f7906,
  0xc55788a9845ce1d8, 0xb79f840fc3b68fc3, 0x12dea53544a74749, 0x895eb78bd0a0b0e3,
  0xe72612e1c7e9f2d0, 0xbbfce874c4bd316e, 0xabedd0b70130d95e, 0xd75896fbc05928f5,
  0x4390c6abf33bd0a3, 0x69497c0e95d740c8, 0x613950d065199d4b, 0x67516f504530b367,
  0xb868786da0dacfa6, 0xd79d542861f3de9d, 0xc36da718feeab599, 0x67186d779d3e2ec7,
  0x3adfb992e351095b, 0x276e4e361d29a41a, 0x35e8fb066f5d5313, 0xb8a052c6c97e276d,
  0x6fd0211b0c5aa9f7, 0x22039ed868b1d2c7, 0x42d9d120bb7b8b49, 0x3541c5624e33b1ed,
  0x5e9cbf0c8537daf3, 0x25c46ae9df15aac8, 0x869b83f373b8039d, 0x4f7554c1742d9b4a,
  0x257cf2f7ccdb7b3a, 0x3fb17790464d7b30, 0xfeb90d347c851d73, 0x1e2b8a62a304dcc4,
  0x353c821054f69953, 0x1aa537bc91090b1c, 0xb0494a8170416451, 0xd6b22bb0724c3921,
  0xd0c2f349525b63b0, 0x3a8e3da502e9fc68, 0x5cc647448dec17af, 0x8bbf4f99ac146cb0,
  0xd2710caebc54c9bb, 0xe0e10205b8805d0a, 0x75c00a66c236f0a7, 0x8a6bd6e60ffdc181,
  0x585b2fa4d32865d3, 0xb021fd2db468c76e, 0xd82766c15aad5af6, 0x13d1f3465d18ff7f,
  0xf3fdd9ab0ef6aad8, 0x34bf9f1404153ee7, 0x6fde9e3fae8a590a, 0x51a9450c433ec791,
  0x1b9994209445c04, 0xb7aaccb1bd6412b8, 0x623dbf96d55cc337, 0xfcdaf7f5fc434bb7,
  0xf7203f8493c3ef2c, 0xd6ba718aea5dcb92, 0x4b0bb2943fa11e0a, 0xa65c01480881613,
  0xebc562911b708607, 0x6720b3bf5ee2ab94, 0x1f22e3c4847a5add, 0x719a7c1081eea74,
  0x66c5930927458342, 0xacc25063831703d5, 0x4cdaf79e2ad8a9e9, 0x6d25d6dd5f2b493f,
  0xa8ea37cdf1adcc26, 0x27968206b138db07, 0x5d1c5f0a0332e86f, 0x25ad22060e422985,
  0xe7559f18e296eaf6, 0xf04cbe5dc2dc8e7c, 0x3e6ae0b648d03805, 0x956dc9837e18c492,
  0xe4814fea311d80a0, 0x7e6a73543a0fcfdb, 0xd96866c92cf4233b, 0xae9d926a905b6e1f,
  0x9b9087e4db9f7611, 0x41903ac1df57fa27, 0xece51adbf8e4a13e, 0xa352990497d8e6c8,
  0x7fdfee979248e3c1, 0xde82c0553285368e, 0xc024422a28c38aa6, 0x5253abcfc9cf87c,
  0xf4e2f607132fa87e, 0x26f5fe338da8a5b9, 0xedd6093980d7e1e2, 0x1122f790024e0261,
  0x2f8ebcbadfedf076, 0x6fe31a9d72b7d257, 0xb70b83a12da21146, 0xffc67929f33db526,
  0xf9aa3510535d4738, 0xf96101c4cf752f3a, 0x558b0cf9cd339446, 0x388b18782b851e43,
  0x3cf2ae4cfaf0b08c, 0xea4918523490df1e, 0x42c7f674ced5306e, 0x567485e3ab90527d,
  0x8e738003b1b2e29a, 0xf331ea422f16b80b, 0xc36bb527ab49d6db, 0x542af38c331f2fd8,
  0xa1a750be85c94edc, 0x4147572b67ea6052, 0xd0a8c5fc072cd3cf, 0xccda4783f409a343,
  0x72c3cc9d1ab82045, 0xb04dffdb704f40ca, 0xc90f5d196bf23331, 0x2f714a814a1e2b16,
  0x2e38e634a1e011c0, 0x17229b168b98727d, 0x8aa8e12c3499f2b4, 0x96c50bed600d69a7,
  0x85f5f735beb6e25a, 0xc7b092063dca1c5f, 0x46c09cbb859465cd, 0x69c2af4b8552262e,
  0xca67c218f66c97dc, 0xc1867b7e009ca090, 0x3cdd6c0c2ed126a2, 0xd0873b3e44f0974f,
  0xadec476e8c4390a4, 0xd7c1cba8f6271ed, 0x301e9c424d0dacaf, 0x37901ef6d6519ff0,
  0x92d053606c47fa44, 0x7f64f700ef1aeae1, 0x10184e9574489d71, 0x697e91f10c740e21,
  0x9e9d6d6a553647e9, 0x19ca8d86f0bea3f6, 0x7fa4554b524c60cc, 0x9fd494ad9b9004ff]

/-- Words 2856 to 3023. -/
def tableSign17 : List ℕ := [
  0xe1e2882af6f90659, 0xec59092932e0ac9a, 0xded6ddef3e1bfd8, 0xcdd156be35b54405,
  0x37e09816f625ec1d, 0x1390365880a76c4f, 0x7c1b501f499f86cf, 0xb839a66a34a52d8c,
  0xfc28513769380d7b, 0xf05ec17a0a6e0677, 0xf5aa22316e63ce6e, 0x587fea87989416c1,
  0xb139333a6004edf7, 0x57f768efcd09eb24, 0x3484aee312bf87e2, 0x663d74aae3796742,
  0xc8f96d84a75ea79d, 0x10d2cf298fcdea88, 0x890d0edd6873ada2, 0x975e5b41a4e423f5,
  0x79d31f9fde203e7f, 0xd99ddd4ad518e9a1, 0x1e2e42334433cda7, 0x7d0b05138daa29dd,
  0xd70f2b84ed63de46, 0xd88cebedd70f869, 0x30b454f0cee54e77, 0x7a8016db176f1c19,
  0x5e49a64eda79c230, 0xd82b06caa7c3c9d3, 0x470d679836cf7e2c, 0xd68ae0413893cd37,
  0x27e9e0dbef681083, 0x65550b08ebeffb2, 0x9ef575c6965494f2, 0x75de80681f5e4ad3,
  0x5a7f676a75cf2a96, 0x240a2df911c4e510, 0x9e547235df445683, 0x71cf78740d827b8b,
  0x786360c244e738f3, 0x61fe2a05cbb18ee, 0x9f04efd86bb27409, 0xb5800c55627c4c35,
  0x6e5f99278e60380b, 0xf84eb7ebf1f4ecd6, 0xd603aa1cd702dc4a, 0x12573eb67046bd06,
  0x18f56f703125320, 0xca73ff2d1bcc470b, 0x1098afbcff76d1ce, 0xa970e3dbad6abeef,
  0xb2bc33200613195b, 0x9e656697618c41b5, 0x25280486e3c801f8, 0xfc2f869844b5fd49,
  0x47832846a0e54bfd, 0xd3ea8e6f4a920236, 0x3983a3c62f06731a, 0x49e105bcb1494f8e,
  0x9688a8b5bbaeca0b, 0xd8fab372497abcb9, 0xf929ab49bc65c224, 0xd0d3057b541ab64e,
  0x760aa1d2163c4cee, 0xf0b35f1c25ba993, 0x4c34e352c39bbc64, 0x1c22d1b6aed17820,
  0xe37d443cc292f18e, 0x83c01547c7cfe3e, 0xed10e518dc800344, 0xb630d1dd3094cc5a,
  0xadc5fbf60f6ec5c5, 0x9351caf38b49654, 0x5da7be83ca0060d9, 0x36b955af9783cfcd,
  0xb5a32ba816b6e1e5, 0x18469cc5ca2ac7f0, 0xa787966213cbd2ea, 0xe8cda94161e3c932,
  0xe9010dc6c3518292, 0xbfe12968b16f3dc2, 0xd56b8184d6008f94, 0xc4547510bef2f569,
  0x3a92faac7e017091, 0xdcc9c1e5d7ac8876, 0xab1fd7f038ee0b33, 0x3152a9f9a65e4f52,
  0xf51bf32dcd942fe7, 0x565c449099117866, 0x6387a048f387b8ca, 0x79c75d39c9c2317d,
  0x1299a91582406ea6, 0x133ee1337d064ad6, 0xb719624274fbb939, 0xca0e00a9c8607fe1,
  0x6f7bb3c73e0c0138, 0x74de25735f0ec5c5, 0x786147c0fb450bd2, 0xb638a64501583c9,
  0xa6f1f4ed7da706d7, 0x460b3646c020d8ac, 0xa433cdd8a7c5b865, 0xc9b58bc0eb353cd1,
  0xcc754bd9ba428661, 0x4393f3cd4404c86f, 0xd9bdd99f1745d7d7, 0xacbc9d6ed27fce26,
  0xf8b412ac9736cd8a, 0xc7a43b5e04d6eb71, 0xf9fa90dfcd004bbe, 0x60fa16327aca6c0e,
  0x808b7dfa11ac5f2c, 0x505211ebf964ff3f, 0xbb68703acdcff7ac, 0x24682aa347c4d129,
  0xfa0223b4214ded8c, 0xe10aa087b4061f6e, 0xa7ecc31c7e8f7ae2, 0x527263fbe91e8c45,
  0x5e8889a477d9b9de, 0x9ef5a40f9c915f3b, 0xbd69ccf74f9e9399, 0x16a37dcebfe62601,
  0x2e8648b21073f452, 0x9b1ddcbe473030b3, 0x3c46da45e4e94f7a, 0xcbd8c51a88105635,
  0x43437fc923bf6dbd, 0xa7212a81a44d4d7, 0x13b0ed08c6538abe, 0x6f222e374f65a696,
  0xb40ebc4e1be10867, 0xfbabbce292b766f0, 0xf738b914a3586f9f, 0x3c627f85096b1327,
  0x88f0daa1f8e955ea, 0xcbd6af90c1bbd5d3, 0x3eb799428740269, 0x96656cc4ab5f8df,
  0xbd0815f8f9331b7, 0x6aa1fc82c33c0ef2, 0xd920353ae664285e, 0xf98eebcb69187994,
  0xc2e0d99823721d2, 0x88844fb820769a09, 0xb09a369f589a849a, 0x792fb52ac0f3185b,
  0xbe0baceacb627a1a, 0x2b0b27fd7e92d48e, 0x17f5d4d6e64b849a, 0xb51bdf1c882f9239,
  0xb5deb7d67ff10a45, 0xb3d15540133c063c, 0xc27cc3ae8db96123, 0xf1a8e8e8dd59defe,
  0xca52812025d48d9b, 0x687ff6ab9186ae0d, 0x1d238240aba45edd, 0x62ae5bc56e5c0c68,
  0x5d5fdb451b7aa56d, 0xcb32e19df2510943, 0x7b7c6f1d61bf3abe, 0x21930e4469d8bad9,
  0xb38c14e3b8434fb0, 0xfa09e40476b3b571, 0x1e13d9249cfb8b39, 0xb8fb4ab71b16960d]

/-- Words 3024 to 3191. -/
def tableSign18 : List ℕ := [
  0xe4e5b7f732047a71, 0xeaba07565a111df5, 0xd4faab065d5b4888, 0x9128c9d60f661c10,
  0xd1328831b85ccbfb, 0x5175832b35b39ec, 0xcaaeddf598a26a8c, 0x5efef567c869b85,
  0x16e5351c1f0934cb, 0xae2c091a4ced167a, 0x6de1c859db2ee4b3, 0x476a2598fd578241,
  0x9a2ddf6c1fa3a30c, 0xf83c277858c35aa5, 0x914b1e478df39580, 0x8d81db88b9c62aa7,
  0x35e78c377121b527, 0xf6ea15f0a49f5373, 0xb87148902d8d67d7, 0x322b905ff3cd4921,
  0x925bc4a9c6cc1d00, 0xc7e19177e6171a5f, 0x3dea228abc5c1bc, 0xfee2918dab8d6f4a,
  0x44cfde4a98555237, 0xcc02c41fde23ba1c, 0x774eb772118d2170, 0x330e00a64b909a95,
  0xebf96261c0befbba, 0x2bc20c813bd2e12d, 0x7fe9b74be1fe8e2a, 0xe9e3859579a6e44a,
  0x60ceacc3bc01c0da, 0x5db437403c001e57, 0x6ac6f0da183a9c8c, 0x56cb0edbe2685825,
  0x65d71cca78284e20, 0x8436b7e90229c5b2, 0x68054261df011b0c, 0xcecefa655191e6ce,
  0x17629420d4055a9a, 0x65d6b764e1fb0144, 0x8de68109ee0a7bca, 0xfba87b3dbd46543,
  0x81612010b6e9c9fb, 0x706699117a801e53, 0xfbbc1273352c2b94, 0x538413f8e7c25d38,
  0x7db864140960df2a, 0x879468ea3c0767ee, 0x2e95493c7725a8d1, 0x58d5b4c47d9e77d1,
  0x6dbf614e3dca82ff, 0x48f3c8fd2d05ece, 0xf020e704fe6208fd, 0x4010fed93b78c5b6,
  0x10380d8013c43586, 0xbc6fe65496dc08a5, 0x589abadbacb48420, 0xb12af287ad62bf14,
  0x4c5babf753e3737, 0xd07183aea0f39c24, 0x7270cbd7dd25fbe4, 0x1b8a73bff84e8fa9,
  0x3d3ab154753b6e8b, 0xe73c4d544f07ce14, 0xfa01302e200d712d, 0x99847118dfd2a7c1,
  0xdeb05bfc32f6a5f, 0x8e64845237490214, 0x21cee6c5819514bb, 0xf6503280a1be42e4,
  0xd72e3b1394f01182, 0x5b06100e55cd0857, 0xd8d9bd3764db56, 0x7e8679f8c63ab452,
  0xa3aa2b80ec37e899, 0x5ec3790b7ff67542, 0xdce187185805310, 0x37c147b638f36ac7,
  0x3d804e8ff8584f4b, 0xdf6f844a0ecf5e52, 0x9a85d4d9473914bf, 0x7cc850260e57c2f9,
  0xf7fcee97af1f0ffe, 0xb78a1f55e888284e, 0x4e9a506d1df08506, 0x49f82a45a4e605eb,
  0xe66275012f33cd73, 0xc1726fb0c7033b19, 0x3baac42be640b68f, 0x392114738ea42c6d,
  0x1608aaab18a0b812, 0x6a758b5406772b19, 0xada28d7a66bd0ed1, 0xcf76b8f9ff29afb8,
  0x458fe2514091662, 0x59d5cdd0efe86bd2, 0x505e98a4198be4d6, 0x76b35212baf4e93,
  0xe537b0c4d70dc643, 0xfce0e9dd456cdbb5, 0x12b968dc90e11762, 0x4dbc2480a6229ab4,
  0x6dc839f77d2fd95b, 0xd7acb0a80bb12808, 0xf68e762af6d36709, 0x25e53276b076fc8c,
  0xa4cd80bac91e1c1e, 0x2e7cf6d3e6d99b5b, 0xa22131c1b96550c5, 0x1c011fb6b7ba05c4,
  0x1bb3d209b908fbf0, 0x9a2464aed7d2b29f, 0x6815e35105a15937, 0xbc14f68c3887795d,
  0x1e98be327cb47429, 0x2fd9c872b494fb2, 0xf9f51fa474db3cc1, 0x4c941ba4c39dc4ae,
  0xc8bed725264c004c, 0x30a0b576c79d63d1, 0xa48a90f71994a44d, 0xb1b8434e3fb7df80,
  0x54736c4e492c5de5, 0x518894a5a9c37318, 0x94a14e854fb97174, 0x382eeaa4c8d21dbe,
  0xb9c737839333f3c3, 0x6482a8ac2de3150d, 0xee07758b55c53fc0, 0xa322a6f30766fcb0,
  0x69481588308d6ced, 0xd28f1d439c4169cc, 0x4abb237eaafb528, 0xfa1277c0100c05e8,
  0xec8ccec6c1422f65, 0xdc8966deeb4cbd82, 0xf2c70bf3be1c89d3, 0x8597e63a56e39e4c,
  0xd9ab614bdd762ffc, 0x821ee9b08c802aba, 0x13367c637372b871, 0xb7198d63e22e7768,
  0x93b5c64f94aa087, 0xe31872263492fb0b, 0x7dfbaa32d4bef3aa, 0x8bbb44f9600949d1,
  0x4a64f9e11f002569, 0x6b195a1f4b75e5fe, 0x2c9381b98a82c9fc, 0x80862c82e3a2e869,
  0x8bf6b5ee99ecae11, 0x3a582906e8d5d10, 0xd65ddd1e4b1be7b8, 0xaecdc8b7a5ed291a,
  0x4a267d504b8d70c1, 0x3088b192b901c27f, 0xdef04137c85e68a3, 0xc0c8de90b1bdfaee,
  0x73e4ffadab17dd4f, 0xd6eeb6d977dea039, 0x3ff1248e85f64cfe, 0x68dba8c7eba87b6b,
  0x7b02d523b8a692de, 0x8205bfba78ad931a, 0x17e37f140d2ab4d, 0xe9f7355789ebfc26]

/-- Words 3192 to 3359. -/
def tableSign19 : List ℕ := [
  0xa92eb560f1c51faf, 0x2c6416822a69f8b3, 0x785a7b2b84884cfa, 0x754bb97b7c728285,
  0x5947c463001e2f4f, 0xf8fbd47354fa5a88, 0xf9b275b2d1119bbf, 0xd0bca01437c731f,
  0x7821bf03e3da3fec, 0x19d313ea879fff4f, 0x86f3e651a86df2ea, 0xe337eb9aab240235,
  0x95f0ebeadae8f2bb, 0x350932b75b245e7c, 0x47c8656a87dec788, 0xa08420e41da9e4,
  0x5f9d13087d229680, 0x542f75262d562c34, 0x2ed558935e9d6f9, 0xe20cb21845ad731c,
  0xacede611cd8e87f1, 0xb84a1a4a79f40775, 0xae0bcd0a00ea6ce4, 0x1053500c0b166408,
  0x4a1f43853235053b, 0xce063a0d485c5abf, 0x3c155c30b63bbe82, 0xe3e25600c5afdcc0,
  0x2f526c55c02d6782, 0xc6f23cfdc1fe433d, 0x838639147153f7a2, 0xf1f6dfaa51305fb1,
  0x580dd61e6adbebff, 0xfd2e465118b7bcf2, 0x52993dd79f560da1, 0x7cf04560fe2c9450,
  0xb420dd2e735f67fb, 0x30de6a3ad4fe0b19, 0x5d85a36d9ce755ba, 0x37fe7d98143d634c,
  0x656e108b9447a32, 0x86c555cb181a06ea, 0x9f701255f8162eed, 0x3e35bb6b8581e253,
  0xcc79d1827e4b29b6, 0x5f1a99b0f203a5f1, 0x4e796e0622325a26, 0x26fa1995d930c7e0,
  0x1f32023645dab512, 0xf288e196ddeede30, 0xc19a2fed8734f002, 0x8f42970f16b8c541,
  0xc3506f1764a9184, 0x9ed4f2e9650c7eb, 0xdbaa4071633b615d, 0x1a139ea75f629c40,
  0xdc6cde61ac8cb695, 0xb24433b318360faf, 0x976d79fa79391fa7, 0x62556cddb8df6bad,
  0xe6522df81c77541a, 0x1bb5efc3709a4bf9, 0x5f3ffed759eb2f06, 0x51fdcced56abcf2e,
  0x2d66e69ce7fcf282, 0x6b69c30156776fbd, 0xa73baf5faf15c385, 0x225f13939edc9e15,
  0x774497d89819097f, 0xa038a5cef8d01e61, 0x99fabc69cec8206d, 0x2678ca1380d3002f,
  0x5da82d36413c6b70, 0x615add3807b10af3, 0x925ce729264840fa, 0x757404a18a686d2f,
  0xa210f1b68fc56d88, 0x59f8201b31537c06, 0x1c3948f69ca99208, 0x702eb52c1727eb62,
  0xbaf6058bfe4ae8fa, 0xaebcaddfefb1935e, 0x7c3846ba5a3d3887, 0x4ff13fd027e53fe2,
  0x7a68163912f10f82, 0x55aeb06238f249e4, 0xdf6df33d4d053f47, 0xb61721d65c637a63,
  0xc677613f51ddb7d2, 0x64f9ffd0ebf0a0c2, 0xe9d1d45e01545b1f, 0x26d40e4270e782a4,
  0x8b30dd15b8ccf4df, 0x27d0cc7061af296c, 0xf5cf1f6fe7aebbab, 0xa9e919e6b9e15c3b,
  0xb3e9496d74cb02b0, 0x4d98d0e95f164cc4, 0x6149b22d8b6328f6, 0xc75749383e928da5,
  0xfdd93dbb05235a0, 0x8faab8c5ef0eee81, 0x9d7d957b018a99d6, 0x90281641e6ca2e2c,
  0x49aa140cdd45b258, 0x7958f01e9e952c62, 0x701318679bc29753, 0xe42d3a9f31889324,
  0x481e684d4bc08209, 0x3b66390780219149, 0xa2f22c97dd12ca5e, 0xeb8c3de9c66540f0,
  0x615a94d77e3600c8, 0xaed11e29b86c60bd, 0x4315e68e8b9ddf9f, 0x34a32d4bf5a7775,
  0xbafa63916144e236, 0xf8d7c5e6b2cace2c, 0xdc96ad0bca62d991, 0xebe8b6f1bfe8b4b2,
  0xa7831a2375597be6, 0x43ff57fe190a19f1, 0x7ca02f2be7f51f0d, 0xaaaea16b6fb00a5c,
  0x802b9580710ac4c9, 0x24c805f1f8dcb04a, 0xbb24c71bb7e4b5e9, 0x858c7ef44ee551a4,
  0xe9ac3fbc5261454a, 0x24357c3bf14c4633, 0xaffc0641d7da25f1, 0x96055d8259dc478f,
  0xfeb629418eb83e8c, 0xec28262d7163f462, 0xce8439e0cf49d15e, 0xb7bbd12a64fb4120,
  0x8e108b77ebfa2644, 0x4335dcd5e2aeeb75, 0xdd8f1befd03d6935, 0xfeab7ae058007ccc,
  0x869574aa674b35f1, 0xbd796a2156e8d804, 0xb8e0052a3e4bf8da, 0x506622815ccc2003,
  0x4c47563adde615eb, 0xd0d83bbc618fe58e, 0xe1c38bb8c469c116, 0x7ebededb42459136,
  0x3cd2025a556728b5, 0x41727652735b1535, 0xf34396af9511a5f1, 0x823e3cb5f3256fd,
  0x900cc67e593bd293, 0xb58f2b673018456f, 0xa71e970b49e14401, 0x1a57cc218daf43fc,
  0x56a10322181dce9a, 0xae7a520e6d9f2cb1, 0x9ab293f96cefbe2c, 0xec4c2ab47f09adc6,
  0x2772bf15ea310af6, 0xa92aec3f30d37a7a, 0x975e9174c033bf4d, 0x31696c1ae4cb8879,
  0x17e863b7a9542b4c, 0xb15f5b2cbaeddb5c, 0x1590590a1764834d, 0x30f7b3b42d3f0110]

/-- Words 3360 to 3527. -/
def tableSign20 : List ℕ := [
  0x7802592b90ac7262, 0x5e224cd304cce2be, 0x6519e535221b93ac, 0x6389d06482e268,
  0xc6e3348e7a1a07b4, 0x91c1394660ea31be, 0x74de1b1e899b3092, 0xc00956eed649e4ae,
  0xbd57c6b32e35620b, 0xfd00ecbc9c290d30, 0x16afa27737155ccf, 0x503a29ebf2c6b8d8,
  0xac9c8e45c143e611, 0x513da5a76cdf4a4d, 0x47c537c35d5fa56b, 0xb2471c1632583c47,
  0x2c8e182d93bec343, 0xc42b49b1d3330112, 0x472a2cd2dd6f8748, 0x99d62f8a3594d410,
  0x89e1ed801f4db787, 0xbf2030d935987992, 0x18ac2c111991cc9d, 0x130ae5f68ee62f4f,
  0xb6b73064e121e8da, 0x1687d9d57131237b, 0x99e09cc8c1882316, 0x98c35c9f6239c6c7,
  0xab64754d8909a6ee, 0x6548d3cfd254114c, 0x66aa341f09eb5ed7, 0x1d2a5fd91455b093,
  0xc6c5583e6bb8fffc, 0xebc1582fb97925f2, 0x28263654d08b39b4, 0x1f123252bf1799d6,
  0xa40c22f2c7ab9b2d, 0x2aaf302c28f28001, 0xc039990145373b59, 0xa06e56ab983d7d57,
  0x429d67e4428359de, 0x2b15e389bec0cb, 0xbb51018bd69cb61c, 0x1ae20cd157d27a3f,
  0xd38afb870c016be, 0xcad11027e4da224d, 0xf2696cd45ce39a36, 0x9c2024e95e2c8350,
  0xad8190b471428d54, 0xb3794a57df008bca, 0x80cf840ec77c5281, 0x94e3bb74d98cdf4b,
  0x4200dd5874686c15, 0xbcb0a1e831c78582, 0x28c7cfd9ff7f77a, 0xfe9524051abe83a6,
  0x3f72d52fb9b2836d, 0xd68381ffdb89bb0d, 0x3c2b991390e147aa, 0xfd5de5b35bae9fd0,
  0x28bd228236078b88, 0x66d36582951d9eb1, 0xca8da51ce4142b2, 0x8c096894c4194518,
  0x46ad3dc22b0dc158, 0x69d52dc64a71bbd2, 0x51a9d6911a84a025, 0x48b488d9c2b78573,
  0x1617efc1ab9b1636, 0x6375701e805c510f, 0xccaa7989922b0f13, 0x42c228fc490ef4ce,
  0x21ead4ed6badced5, 0x680696a1ed5884a8, 0xdb02f1004ffdee4f, 0x88282c74f9e79fa0,
  0x7c1a6c6622232d7e, 0x1db9e1f62971d07b, 0xdb1483d1fbdb641f, 0xd33ad39f661b8953,
  0xe3465ced02036d6d, 0x6d29b9df47368ac, 0xfb7a0e033814cb8d, 0xdbf37309ec083eae,
  0xb27b320d48dfc743, 0xd71dc66177d12d81, 0x590ebed7fe7a1f52, 0x45b6c7120b454664,
  0x3414acca4a70c8f8, 0x5b1f8a22888fa7c0, 0x8dc1b8da3351bb0d, 0x76d32d437f2f16ae,
  0x554aba5f83d32cec, 0xd4f1b1ebd7c28af1, 0xfd7e9e5ef3b530b4, 0x759f1b214fc49961,
  0x18836f386b9adaf6, 0x11dd066042611a9e, 0x602a375e32f97ed, 0x865d6fa84141d2d8,
  0x647af1e464edbcbc, 0xfee68e513d570b73, 0xa096d0cdd2714dfc, 0x53e8277307582701,
  0x92854f72406cda17, 0x51d4eb02c90bf85b, 0x182497f1fde29af1, 0x56d190e24f2be6c1,
  0x60c4ffde8e62326b, 0xa79e433bf3eacd62, 0x34e8dbc97c5e8958, 0x5e23308a0fc3152e,
  0xfdeefee0b222b365, 0xd5c90f64f76f15cc, 0x8b3445330f485952, 0x2b64271155ca8a7e,
  0xffa361100cff3616, 0x8505afa7def9b3f4, 0xfb83be8973e2a4df, 0x971a5144061f11b3,
  0x73df24d0e33b4375, 0x2d8891cbcbbbae27, 0xd759266b0d56937a, 0xa775bd0c7f4f1325,
  0x989bc3971b41690f, 0xeed200bb89026e07, 0x17bcce271ca4d028, 0x48ab9505e06b2e51,
  0x765e500730181cb5, 0xbcb31d370e22c9b0, 0xb71d919c4ccc73e4, 0xe9e79fa5eaf32ddf,
  0xab5a5c0a02f44342, 0x16147b0c792ad0d0, 0x1ffd4355abc7b6b9, 0xa04c028d037d8b0d,
  0xb126e5e8a2eb355f, 0xaf7b305a1496f5a5, 0x5131000d77d1633b, 0x256508eed6456e1b,
  0xc58277a690a3f666, 0x4c7af41b77c9d6a, 0x410e08511dcd825c, 0xaeb1d03149e79586,
  0x18ade1196d47f2e5, 0x7dae60de1c11e9cc, 0x9020432c1a347eba, 0x60feb3dba30a3507,
  0xb77369ca3cdcce29, 0xd75df7f4db9ad22d, 0x4aeabc2c7d60b4ec, 0xfa4a6b937a1f2f37,
  0xe39ec0098555d45f, 0xd284e10ced1c3d9d, 0xe596d4051b635d89, 0x328b2a059f8c9fc3,
  0x47217177bed2e52a, 0x62c383eea2334cf1, 0xddc9939be24c8260, 0x54efee4db9a3c172,
  0x25d8d4b1e01cbd67, 0xbef429f8edce52b1, 0xa0ab10b6195255f9, 0xcc8d2e85d01eb34d,
  0x2e231389c2b5cc64, 0xa0eccc09dc7087f6, 0xfb33264a884c139b, 0x934b8f8e2f07c29e]

/-- Words 3528 to 3695. -/
def tableSign21 : List ℕ := [
  0xa03ec65591d9a79f, 0x47b1689ca3611493, 0x5e35a6ad5f83271d, 0x71af34c23057a26,
  0xe0ae6230a0a06ea7, 0xef30369f1311617e, 0xff7731c21eee1121, 0x4120fd1972418fc1,
  0xc536cb6b11316ce3, 0x7bf5c0e46d77fcc9, 0xe54e6359931cb18d, 0xe65032509681d992,
  0x12d275f203d024c6, 0xe67fd30a32f1bf72, 0x573f79e117cefa98, 0x5b645ba5019f0c82,
  0x7ed16c57f602c287, 0x2f45997b08eb5b95, 0xa614726883f5e1d8, 0x42a80df5096de588,
  0x9076590f5102d335, 0x8d2c435f052b0185, 0xa2337f776b479259, 0xd5bc4c23f49d9385,
  0x459b2776455d667d, 0x29c0d1a3711766e2, 0x93a290dbf18fb503, 0x167625c0bf41fcf8,
  0xcc15e6901208dc5d, 0x6c50d70b8a9eed5a, 0x1be3e8536f60486d, 0x5c524ab67aeac7e8,
  0xecdb0d390a793f87, 0xee96e985a3d72dbd, 0x72af0883aa47a00f, 0x76e58349a36604d8,
  0x36ab5b627df7605e, 0xf8fcc40dc9bea368, 0x96daf3daf20d6487, 0x6900bf1235115a93,
  0xb54970223232d49f, 0xd751b0107a300f0, 0xb7ad110224784ac5, 0x22b38566cbbd5bfd,
  0xfe69aadb53a10072, 0xf6acb2d64208051e, 0xa15e325f7c16d561, 0x8f9282c5f01ca269,
  0xc899d5846e2e093e, 0xe2ceaa09b441f78d, 0xbbffc5f5050c0429, 0xf5fb2605bc9c72db,
  0x307e4fe050bdc747, 0x9edce94722050912, 0x60dbe60d12fcb1d4, 0xe5c0cc25294c0a96,
  0x130e3b023ae3e7ba, 0xac092c07dd876f3f, 0xb6680cb02a79d42e, 0x8f6e499c9c013b18,
  0x233bb3db162f6210, 0x26318d2cfbdb7526, 0x1aea757cb4a36dbe, 0xc88cf7aa73c71dd4,
  0x989935c2c3b2edf, 0xb82d49f8bff94cc2, 0x6aef8efd37e0585f, 0xc00eafb80c27159a,
  0xaaa1f4a8c952be59, 0x85965f48ee4020f, 0xe4d24bd766a8284d, 0x2a8bb1aede92a6a0,
  0xf93fd0c636c156fd, 0xebb1dcaeeaaa2b81, 0xe3b4346d3688d2c2, 0x8ce6fc1d1afd77e2,
  0xf8ff7496ab99a524, 0x5f577a9e99c380d0, 0xaa5821c05e78176, 0x287c0f5acabe7d5a,
  0xdcea09a86a809aab, 0xb32d1bf18e3d7e14, 0x481382c3e61647fd, 0xb1f2f45a495f10bf,
  0x215653045430b797, 0x9913ae39a3e1ee6e, 0x9b038ec725c7b1da, 0x889be8651273fe58,
  0x517f3463e9996a49, 0xea73cd632e8a80ed, 0x43e1d103868b57d5, 0x62e2faf42f8c9f6,
  0x2af0cb57f243effc, 0xfe50fca4991a55f3, 0xb6c58d4c83c87e15, 0x92e784c9929f7e0a,
  0x3452443e6f425e3, 0x3dd35e7c39df49a7, 0xe65dfcab1ecd76ac, 0x5d00d714e521fba0,
  0x44fae1397755ba89, 0x4960985c8df3c0ff, 0x1ed82e75958b1bfb, 0x542ec6014c62d267,
  0x742c6e242e3f432f, 0x425877336bd43a32, 0x47ab0ddd38261c47, 0xbf98d2c42dac899d,
  0xa03b5c575689aafe, 0xc2e77aea9502a463, 0xed562e5cdb664edd, 0xa37f855813f39b56,
  0x877513876b086d43, 0xb34655bf32f6b9d4, 0xb66c03de58a70801, 0x996d7e4255004843,
  0x75a1355c793189e, 0x90438ffc9d0f79bf, 0xfacdd44f094be18f, 0x6fca130632eca012,
  0x5fad76692517e7d9, 0xf029bc40ecb09652, 0x4222f94e87117845, 0x6c4ab668b0f7396c,
  0x1f2c4d46341db044, 0x5afa5379f196a579, 0x11314c0a2279b1c0, 0x995bdfae2ea7e915,
  0x46ac16ccf6ad4b8a, 0xa06781f53f2604bd, 0x8b4ab0fec8e2ce5, 0x15bf7c5921221721,
  0x9fd38a1ae08c6d4c, 0x69ea4e17d59aba42, 0xd2d3e0375834b697, 0x71f0f18d6229c60a,
  0xe32b7b6488541c44, 0x95063729277a84b4, 0xc529a0ac1434c000, 0xb3d8e220e2578fcb,
  0x5103dcc35612bdbc, 0xcd35f5fd6bd76560, 0x7aba76807f41a693, 0x8e65003c43cd6c12,
  0xdae0519b42840023, 0xd0a185ffbffb91e7, 0xf9c6797b7424e48c, 0xfe057c6c6bea2b07,
  0x4c31948566cf3f9d, 0x3809c3b4e48633e4, 0x55f8267dc2d62a1f, 0x86eceed6cddf5073,
  0xb10882be9e50a52b, 0x6ad2b1aa8edaa091, 0xa08eabbca0dfec1d, 0x48664abc109d0d7d,
  0x6627fd6e157f47f7, 0x8423dc3ca17b91f, 0x5337a8b2fee21986, 0xa0ea8e1e26aeb6d3,
  0xca05c40707e45ac, 0xdb8f8a7a37bb3c42, 0x8e9cbc0023b649fc, 0x5fd142efd377a3e9,
  0xc43ea98ca810fae5, 0x119fa4a551ba41aa, 0x687d34f600a2d0ab, 0x9d3facab8e6d014a]

/-- Words 3696 to 3863. -/
def tableSign22 : List ℕ := [
  0x1e107164c16b9b64, 0x9dac20db23a1535d, 0xd301a755788f0360, 0x4f12ab5678ba010f,
  0xc529a1ebe8190f73, 0xab9f8ba8b95d2eb0, 0xe4763d92d12aa3de, 0xe5d0eda63bd3f99f,
  0xffbbc8ae26f5d5f8, 0x18d5182b944844a6, 0xfc00d4c00714637a, 0x61aeb4216c4211ee,
  0xbfa573ba34837253, 0x9628054aff58a673, 0xe0e933f84308121c, 0xa8e302b5e7881dd3,
  0x91c686ba3e5ced83, 0xf7157457cdd1c34a, 0x1326d206da3dd86a, 0x2485800c93866895,
  0x80b26e1d50852945, 0x3187fcae1d6a2908, 0xaf698eaa5316ea02, 0xc02412bd6a19f54,
  0xf03b3526e2474391, 0xb85e70d0617abe2a, 0x58dc7a3ddd1f5b70, 0x3b0ba741ea3e5422,
  0x378e1e76c7b3399c, 0x8d3e4e099e0d2b03, 0xf1b292063cecc29, 0x9e2080eb650a093f,
  0x2236459ffee8d0e9, 0xaff46e77291c8c73, 0xbacd4faf76d8a29d, 0x18f03e64fb7d82a8,
  0x8c24864f79920795, 0x88fb2b9afbf33ad9, 0x127d4866bb3fa478, 0x85c1c77973f9eee7,
  0xe05b54045771cad0, 0x550d92db0b41ee8a, 0xe41483a3006c8ebe, 0x4ef931ff4ae0af0d,
  0x1ab8dfa4c10c5612, 0xe4982636f99f2f9f, 0xa1ca4834d5cb1446, 0xa073a7f7e15d4fea,
  0xa58e33b5d6dcd66, 0xc4f732b680185784, 0xc39ad12deeaac25, 0x806b9e34cb30a039,
  0xd2ad2f1afbf7df1f, 0xd83d95540033388c, 0xabdda2d8714284eb, 0x8b8ddb359bd32388,
  0x670ed836392939d4, 0x639718b9cb6a66d5, 0xb1abd72ecb3a6b18, 0x41f4b16c601e1ff4,
  0xbd1fd01d39346f4a, 0x63209d291fe53f05, 0x21fd3c2c2176a68f, 0x53c79653ccc73b8,
  0xcc85dac645301699, 0xa81accec02bd8bce, 0xef8672ea09f4ff2c, 0xebe756f9f9b1bab6,
  0x75e1e856797b3f1d, 0x1719e77680153708, 0x1a62104b6ef93aa3, 0xa96b27c7e4cad5a0,
  0x91d89d7dac5c73c2, 0xa5303372ce2fee87, 0x5b94c2552dbaa0f4, 0x13fc9d4d7c925e3b,
  0x9490222f7646341e, 0xd6355b595adb73a2, 0x94ead8111f1dae3f, 0xbacade1085e87744,
  0xb3d30fe158cc13e5, 0x6a6e7da67f6cf712, 0x990adbe244d834e0, 0x44031f2dd4977fe2,
  0xb3613f3700a868c0, 0xa34923ae697d897c, 0x7e0062da616d2904, 0xd2c6cde6281dea2,
  0x8915238a4fab37f9, 0x8d5a038ef92b2689, 0x76abec7a6fa601c0, 0x53a774d438c8d566,
  0x7ced12eafd6f6217, 0xebf64536b701d6c9, 0x60200dfb348b9699, 0x3f412cd00a597d4e,
  0x2d17d3ee7979647a, 0xfe2ed7bd7b11c176, 0x61dc056ca21a4a3, 0x1c3ae051f7d6c0a9,
  0x2a9da9ea53dd0027, 0x89c1d46b4ba088bf, 0x349ebac95ccc67e1, 0x236cabb1baa3d227,
  0xd8acd2e5061ff6a7, 0x771f6e35f855ac5e, 0xdb4f5a7512eee849, 0x84041f0af7d950f7,
  0xa5387ea9536e6a8, 0xe758e5b6953f495c, 0x78f510bce7c174fd, 0xd8ed103fd99c3e56,
  0x8442688a564a7e45, 0x89406196035a6c55, 0x82b3eb602d34bc68, 0xe3ca96b9d4452798,
  0xc85a44da22366441, 0xfa747f5ce1967b92, 0xdfe6a3708a27b434, 0xe8b59cf778eba584,
  0x170409be2d842346, 0x50befbe97cc6ef57, 0x1d588281e9f8b197, 0xf8c9486e41d8a2dd,
  0x84d0ce732a7b15ad, 0x2fa0d493ac786ab5, 0x90c2faf2e6a2d0f8, 0x7f2da5418c49c939,
  0xe1eeb76e063464e, 0x660583efd96ecf88, 0x2110c1b0627f4efc, 0x7080cd445885b6c,
  0xc9ae11440e2fb458, 0xb145ece24608d5e4, 0xef3527ae19b60e39, 0xe7c3438b55fe0793,
  0xab019a383c6d6a76, 0x406256587a4c71, 0x6bd577044349d7f2, 0x402ea07ab07e7a50,
  0x447fc9671502ffc8, 0xf6a6f38562290518, 0xe08aae1c9fb41fa0, 0x198eccd654aeefb7,
  0x8e53a91ad5c92d03, 0x808636006a19f206, 0x1330c66657130e88, 0x50b3a58082390974,
  0x89e8906d5e459cc9, 0x431141a2f8f776cc, 0x7e1fef43b46718e, 0x4b2b1403c3118568,
  0x1edee7d6526ed8a8, 0xa1a68f16691be223, 0x35f1d5682f293a4f, 0xd186d16299ef70,
  0x758452260bebae9d, 0x5db0516ed0815bcd, 0x902c603bacdf2782, 0x38e495f050627a20,
  0x5fa6da49d6d5dc49, 0x586822b983a2e8ae, 0xab0308dd1bf232df, 0xec4073cbc586474a,
  0xce3b1744336f1db5, 0x9cdf6e27984f1a7f, 0x992b1277fea7e953, 0xd634c882780a40cd]

/-- Words 3864 to 4031. -/
def tableSign23 : List ℕ := [
  0xc143f2a021cf4303, 0xe92d56cd87a0490e, 0x2edb5f883dfe0ef2, 0x9a4ee08a34fa39ec,
  0xfe1146f77c005d22, 0xdc82caaddfcbb852, 0xa4bba626030c5d2f, 0x6816a7b2e1aca454,
  0x6faf190ce1fc6d3f, 0x80c49303555f1837, 0x97c15f479e2ec0f0, 0xaa09f52525f01fb6,
  0xcb24de31d7b36b46, 0x18263fc4e82d4ef0, 0xedbf12011489ae5c, 0x70d36b40a7968010,
  0x3d79abbb6f046208, 0xac19824786b8e632, 0x5e820626bea47a72, 0xe7dfb6d6020da3ca,
  0x3c80b6a08fa1655a, 0xb985c4297b6191c7, 0x7c4802bb0fb00029, 0x8d0a395c48fb5e40,
  0x261ecb4b44c00d93, 0x9010a3946b7f5cfd, 0xfcd676cb60f1f503, 0xe4a72f7165b7b1f5,
  0x65a44d31f1439f11, 0x8a3a1da013e00442, 0x5432e8c2e169927e, 0x468d5edb2ab6b59a,
  0xb1cca8d7721b2530, 0x2f63dacc34f6eb0, 0x1514ebcf6e7e2184, 0xc5cc9455222ee556,
  0xe4e90a520278eec8, 0xf53e9a1f127b00ee, 0x33c4d5a0be0aee8b, 0x18c48d5d9a076ec9,
  0xaf93b21a64202668, 0x598c5e30393511b4, 0xefc90fdc3b8751d, 0x691d4f0feb919d2,
  0x53021158d3e2600, 0x5f222e1b8b091d3, 0xd2687fdec21cb75a, 0x7aee04ed66e62902,
  0x2a908e3bfb1b3eff, 0x157297a36620d48e, 0x3a94c73b469d79d0, 0x465e2ab93c08e76c,
  0x4a0c63e17e3d702b, 0x7e4491dc54cf0b4, 0x28ad1e21c205740e, 0xd43a725e4c52ab11,
  0xdc1b293a54c46e02, 0xb0e952025328a79a, 0xccdb645d1f5b972f, 0x6089bddfe8fcc1c,
  0x8a32abb5e2ef5e7c, 0xf91d9a909668d2a9, 0xf014740b53fb6a12, 0x901668afac1379e9,
  0x5e3cc08365b4e1d9, 0x8b2ff7b9ca21c022, 0x10bebaac8275fda4, 0xfbe85ccf01a9bb44,
  0xd631d5dc749ebb27, 0x4e97bfe1fe02de45, 0x775bcb5f2377ef99, 0x2258228bad17da6d,
  0x1a3bd886e40d5a2a, 0x9c7b88838c2774cf, 0x690d0cad9fa5a81e, 0x844b6e9a2f2baec6,
  0x5246ee02f2bb12f4, 0x137fe1b7ba335f36, 0x31ae2ce966b3b760, 0xe4f0548ac3b40a37,
  0x5a7536475e626a73, 0xb9a7c2d81bc6cf95, 0xc9ad1d290b810315, 0x6e02de616d114f20,
  0x65cb6278370c06ba, 0xd49ae3efc6785083, 0xc09b68e9f5378bc, 0xfebfbdfb61ae4887,
  0xfff7f65ae1615dc1, 0x9a6167b087c73bb0, 0xd033f67fafe86537, 0x6ba95195f2e0543a,
  0x52bab9b805193348, 0x963e1a74b4ad0990, 0xa55d843adef89c9c, 0x93aebb02c11fc5f4,
  0x3700f434da6ee0d3, 0xdf9f852878bff8d8, 0x194dc6f595c29ff5, 0x2e7991bc222eaa6c,
  0x72a85c243e628a04, 0x40eb5cad85067ad9, 0x69f5bfabe2f23403, 0x676d03cc523e7e2f,
  0xc136ba67466fe8b5, 0x47a63e604c9ce60e, 0x81b8da2bb593f68e, 0xf1217c8370d17382,
  0x79d8a789657ea20b, 0x952b7bd16816a421, 0x6bc4f11fd8cb03c8, 0xd5e730585c4b3666,
  0xff64706146e98e38, 0xfa1ec35586d4d769, 0x5ca7cc8a8a57d19c, 0x4c74b4c5e2d83829,
  0xc4534fc3f1330a0, 0x4c36fbc216f7fdec, 0xe9b034b1f53a7b03, 0x247a1940fe1f7a3,
  0xfac33b5b4d12e25f, 0x2b17da68046ce175, 0x15fce1aaaedd8026, 0x61c590d390a509e6,
  0xea9c504622e0c6cb, 0xe64f422ab722222f, 0x4f25e0ce4569bacb, 0x63687c6d63fb288f,
  0xdf5f18e69f3a84d7, 0xdf95345ed0c2afa, 0x5e3b32450cbe9d2a, 0xc05ef008820d7da8,
  0xe5d54f9a860442aa, 0xe1f0384478ac13f4, 0x992669cea455ff7c, 0x1adb78e8a8396eae,
  0x751ac362518492dc, 0x38ba3e4dbbea7831, 0x767424ab940bee5b, 0x561050c2941fb5f5,
  0x368e80db61097908, 0x358df846faf83074, 0x913a3ebded11fcf, 0x55c66496db50f592,
  0x17f0b52700eee971, 0x81b6e5b96688e35f, 0x30e297288a8aee88, 0x4d60a452b0828730,
  0x56f9a325b8db93ca, 0xe51862f69475bf95, 0x7e843615799393df, 0xd1a18db129499196,
  0xbed6aa0853151f7e, 0xc10920ac704df1a8, 0xed8608632affc76b, 0x4f09f9b1f83c0fba,
  0x683f2122d1f7de45, 0x16e7e12c3e026c10, 0x91c5b1fa797cd718, 0x2807b07369565f52,
  0xf4d2d67fec3d127f, 0xd023718f572f8255, 0x1050272abc12b6c1, 0xe8adab075b4f1170,
  0xf0a96e31cbe1e146, 0x853f3ac165d8d1a1, 0xfa57169a4dc0090e, 0x74eee891ffaa2ff9]

/-- Words 4032 to 4199. -/
def tableSign24 : List ℕ := [
  0x5e1988656464c844, 0xa52b14733018baff, 0x6c3bbef78dc9845e, 0x7b0bf8b97baa3915,
  0x72906dd169a4fae, 0x9bda4dd8736e7ab8, 0xfd3a8df1c24121cc, 0x241c8e2f6a97edb2,
  0x11554e3348226d49, 0xce63453225adce46, 0xbb034c5cf810f03b, 0xfce3ecd38374b1b9,
  0xb54643a528ce660e, 0x879650141ef5ef12, 0xd2364e207392853c, 0x3a066e0f7691641a,
  0x3f234c685d2529b9, 0xf94a7b25cff91544, 0x9a141a7c57899041, 0xe47821893f2d7503,
  0x7b494117cd2416e2, 0x23bcb1d8ae93f86d, 0xeef666e711c78729, 0x1b929b75cce380cb,
  0x698e7081cdd83f89, 0xc5a1db5165c14b23, 0x90bfbc6e2f73b26, 0xc959eed41219202,
  0x4084d109f9690267, 0x75d9880f6bb335e8, 0x68150ce98e4f0b50, 0x1c887537a4858dd,
  0x670892cd7f9f653f, 0xf405a00e40556efc, 0xfbf1bbc55a3c4885, 0xe87729398bfbe6c8,
  0xee3b8d773e480619, 0x8f01a427739d91e7, 0xd96cd2a74906022c, 0x6749c6b2b7a80005,
  0xc35d3d555c3817d3, 0x43c8e6b841108668, 0xe1b6922f1785ae06, 0xe82d01b6a0726749,
  0x704fbd9cfff78ef7, 0x2d02b0e43f275524, 0x69fa42107d6b54e3, 0x26cc6ca59bb77af9,
  0x1cd34200b91a013, 0x87ab05fc92e1b8e5, 0x2cbeb3e9076a4877, 0x97dfada3efb9e9cd,
  0xa53492a2450c4775, 0x7b1c89965a04d945, 0xd4eb6641d22a016c, 0xe0629be5bc8e1ea0,
  0x7c8a3c992bc3a5f5, 0xcc795fa170063768, 0xb1ad1ae2bce265dc, 0x4b7ffab0b77d0d25,
  0xebcf1c0e404c9936, 0x5b28d976c145f3f7, 0x7808564e9a523523, 0x66928f2cb4e411c4,
  0xe3b3cef420f789e3, 0x5d016c00c8456f24, 0x15d5d28f176d12b0, 0x8ecba73195a6a0b2,
  0x77a968431a1a517d, 0x44d30fd85598600e, 0xdc3f75f428fbbd18, 0x490f1f1322fece64,
  0x67efaa8a9ac04039, 0x8fc35f3bd7f2e45b, 0x6f52dc9cf81accaf, 0x40ed7421206b6232,
  0x4f672be5b4bb252c, 0x7550cb27b9047fb3, 0x259f72025459aa9, 0xc1e44b60654a2f80,
  0xe277636b786883cc, 0x239dd0e436ce9059, 0x6f765d77103b18f7, 0x83789f0b098c1b16,
  0x7fcb27c756d061e5, 0xd6c9ebf8161bf6b9, 0x33a4a8a5ef078b95, 0x38a47b9b4320102b,
  0x6bfd708c1fddbc51, 0x65a34cfcca801079, 0x41484a90236dda9b, 0xe5ba95f4a61d749,
  0xfb27137ddfa2d683, 0x7e3634e53bed3019, 0x91a257bf1905b1d5, 0xd29fe42b99dcedef,
  0x98afed15bd77a001, 0xab6cad47decb90b9, 0xa8faf302e44f59e0, 0xc8294bcde0b17aa6,
  0x942c34f20a30262e, 0x42836a721dec580e, 0x74fa72792b14ad0b, 0xaa48602af8a9b785,
  0x10d2810ae93614cf, 0xadfb9ccb85fb0ac, 0xb395c660e79f1117, 0x709e2460e74be3b8,
  0x2c29d6dd4125124f, 0x534e3c5ec1b98c26, 0x266dadc1b94bd9ce, 0x91acec0c59d3436d,
  0x3d821e950dea00b0, 0xd1e1b206c4c91468, 0x1f21528ba271da5c, 0x91ea09874406c766,
  0x21d43fd7dc83a97e, 0xb475f5a5b4a2c636, 0x77a6a941040c471, 0x8709df0ee045f2cf,
  0x389aaa1bca144e52, 0x35cdcdf622a74d39, 0x26cfdd24eee12c58, 0x3cf8f3deb9805f26,
  0x2f23e7ae74df4543, 0xb8c31835d158f839, 0x4204e1ebcc57c5a7, 0xd9fa5ed259000231,
  0x15bb13c9e082a814, 0xbab297dbcd57e028, 0x1dd58ed9be383f5f, 0x795e8fb647d068c6,
  0x7e8c976419473470, 0xb3e58e6232341486, 0xe155d5e7002baedf, 0x4fec29505ac80845,
  0xf8cf8b739ce29778, 0x53cfd6f3a2b57bdf, 0x472e4e5e4daa809c, 0x201970ee1f8e7335,
  0x1f23b1c222ac4246, 0x60f7aab80da2c417, 0xc2c96ce5217563fc, 0xfb63987d689dcc36,
  0x720d89a6efff5d5e, 0xc37f57b6a890096, 0x748f1cde6c8a3592, 0x8c0dae76ab89ebd6,
  0x5b867c1ecdf7449a, 0xb202c0ab20b7c2c2, 0xeccc635c73026ca6, 0xb133506bf41b715b,
  0x6e48c3b40907b7a, 0xf652c425f4946a29, 0xf2cffad5e0a0f12c, 0x528de28fb7cf74d0,
  0x26099f3e3de7ed4c, 0x355b2c238af2b4a, 0x2fb618b8ca96b7dc, 0xcc134f31cabac5e,
  0xeeb70d47d6b86e2d, 0x95947f0c257d23fa, 0x95af14fc0199bb85, 0x55e6af509a9f2f09,
  0x476de871ac84ff7d, 0x53150f1de8f2921c, 0xfd8def3dfac9fce, 0x836736d88911ab54]

/-- Words 4200 to 4367. -/
def tableSign25 : List ℕ := [
  0x1a00f7f868a59b75, 0x216d6b80675f247d, 0x8b254cf7fb9d0ec2, 0xed55470f9a6da629,
  0x5e6de761599bb5a8, 0xcfd0889cf7713948, 0xd72f8660e22ff3f5, 0x765cd762e2d6f129,
  0xa0cc4341c0a2076d, 0x6d0a349ac74fc229, 0x33ff539d67c3127e, 0x830958ea1c08a9a5,
  0x6eff84fd7a219114, 0xd955c8b667cefbdd, 0x44bcca6b249db91a, 0x4062a01b7fac14f4,
  0xac9d587ecea5c3ab, 0x6b7979335e2188fd, 0xc73a8e7d64556268, 0x2d881f8e7baef7a9,
  0x2c061a77d88433dc, 0xa9134985ebcbc52, 0x4c46c6b098501e76, 0x9e916838ce477b48,
  0x25653c64704ba214, 0xc951d40598e16c2f, 0xfd4af01f449092ce, 0xc85f2de42d9ea2a1,
  0x2425f15aff76f671, 0x820bfbf652d61807, 0x5e32c56b922b24ad, 0xff5035c22ed540a0,
  0x8fc388bce2dae5f8, 0xf84aab443d1b52ff, 0x8b5f27e66403cae, 0x80dcf75f3acc7901,
  0x561bfc6090df6c86, 0x44cbb053c6a2d5eb, 0x8cceb50ca857ef2d, 0xca094b8d82e08f88,
  0xe78c76616d783a10, 0x1a3c65ec1b435b35, 0x559130033267f951, 0xfefd1d7e6f1daa3,
  0x8130e9b2340fe8a6, 0xe844ccd071624169, 0xfe2d7c63d731737d, 0xc077ea536ac5b48f,
  0x80cb2793051ab182, 0x9a9105528cdfdccd, 0xaeee4f9a2d51eecb, 0x1d98c6771176722c,
  0xd6f3643ac1154b50, 0xed7ba25429095f57, 0xed50ea129d566808, 0xf57888787917e3d,
  0x54630b67781166c9, 0xe1af76649c83e61e, 0x7a8b861a433fb29c, 0x72fef53b2c6a67bc,
  0x23b34a244c28c8ab, 0x62c3a21f658b7574, 0x5b7216f6214d7077, 0xf1dc1393c5525721,
  0x40c0c68027d28c4b, 0x2996e9f9e4d4b0cb, 0xdf097e51045136fd, 0xeb287395cfebdc4d,
  0x24a9c3aac26a3e85, 0x60fb1384c8a78057, 0xc9a1a883a94556d8, 0x77dd6f28cc49f45a,
  0x222b158945a3c8d5, 0xd3105c37b94cd19, 0x61a6b5ae6dd8f458, 0x92e4fbadce04e6cf,
  0xf1888f8be5996afd, 0x7f0102b533a7ea5a, 0xf6180b4ffc788c9a, 0x41113044718da0eb,
  0x877a62713526554d, 0xb64561a52cd90b10, 0xaa480c9abef9fd52, 0x3495feb5e53d676e,
  0xe82cbd8699cf2a65, 0xd34397570792c5eb, 0x1324dde5aaaa358e, 0x5c7ede5da8764ee3,
  0xcf5bd28f5731bd75, 0x114cd5964fda2eef, 0xfa034b9befdcda6, 0x7c7c8032cec85cc6,
  0xb12df01f531ea96e, 0x1bbff79c66734d03, 0x123a4d2ea9e10e42, 0x1257837ad0ea0bb3,
  0x7cf7518536eb5111, 0xe70253af83b9d829, 0x21b8f895443a5d31, 0x9ff6b238d483cfde,
  0x19d2e6fdbc58ad5d, 0xed3fe7d7ebc8203, 0xb0f4cc42b569d49a, 0x5ca3466304c3f309,
  0x266e32077e971e2e, 0xfe57390f25b42bdf, 0x59cd6ecb4e42cfcc, 0x71113eaace5d03f5,
  0xc46767d45189f84a, 0xb59db8f1323d9a26, 0x2a380dab704275, 0xa06dd4baa73ff1ee,
  0xab96565a577cab49, 0xc2ffe0b638a426e, 0x12c3cef571a0bce4, 0xf355e9853db575e,
  0x54ce28c590501ef4, 0x6b32999cceab24b3, 0x834411a0a3a24390, 0xcd7ff1e47f6033ad,
  0xaf8b83d28b604c77, 0x6d85286dc78c30d5, 0xcd80d80b40865324, 0xe33b7d46c4d3c046,
  0x41d6fe8e6a17922f, 0xddcea0f383e2aa6c, 0xacc87a9ce7da42dd, 0xda5fb60f5a613a75,
  0x2c5c274eead937fe, 0x9917d4be0b64d8b4, 0x5e957d3bd45c6d19, 0x7042e47d48f81189,
  0xc5aea38053a83ce1, 0xff7a591cef43b8aa, 0xadcadada1003f0b1, 0xb34ca914123b2481,
  0x9fd0bb1cca4e941c, 0x2c83dab9f66e0c85, 0x1c24c4c35c497dd1, 0x5264fdb923859c84,
  0x5156f71f64aacce1, 0x428a34a8ecb5ddd9, 0xb9c372d5bf1a7c9e, 0x3679b64336dbf7e7,
  0xf33e3cfadba5b9d1, 0xde5d0ffb30264994, 0xa16a83cac60d7697, 0x68a968b5b98ea8ea,
  0x543bdfac42c54537, 0x69b17592e10dbda4, 0xa95554b3fe458073, 0xc04af5b1ab0ff010,
  0x2850c520ddf1e22c, 0x71c52c2ca0b132bd, 0x7d7ddafaaa80adee, 0x78804dce787b0c9b,
  0xbf069aaa26f6d32b, 0x2ce5353f7721e714, 0xa52928a76f405dfa, 0xce7a39d61b70c367,
  0x34b3c2ffff092755, 0x1572e8ea5a99615b, 0xe3ef7d5e21a2a650, 0x18901d7a2d15b184,
  0x8dd2f9456a93c4c1, 0x8cb5a3f2e4d95022, 0x9eea587c3b5d4d8, 0x7bf1f1f7b1ae97ab]

/-- Words 4368 to 4535. -/
def tableSign26 : List ℕ := [
  0xbd6a979aa9b0ce1f, 0xa5cecd8926d698b8, 0xff267f90465fb43b, 0x3f397441a018d3c0,
  0xa73a861e7de6d9ad, 0xc6c34ed458576d51, 0xc25f9ce04e5caf78, 0xb7c7a235a99547d5,
  0x888f2ff3870fb35e, 0x2042dc41f99d433f, 0x604b24b69030d6, 0x20a27e45c9ee3946,
  0x924bfd3ffec77419, 0x5b7bac3f8643c59d, 0x29f23425320203c1, 0x97c2b9ad04c965d7,
  0xb219169189cc3bcc, 0xd72e0ef1bb88f5af, 0x7ee2c608f9d4692c, 0x1d07cbedbdc2c377,
  0x318e6ead6639948, 0xd8f542bf638a774e, 0x2db8a391af206c56, 0x2ec33a058eea4aaf,
  0x9d8f05c619681da1, 0x849a6770fb0f4122, 0xfdedd6b7fb4b36, 0xc1f34279e755b98b,
  0x7ebd202ef850de0e, 0x9df1dd9d13c7a6d, 0xd2d7ceb8dc1a9f4a, 0x91a3865ac51df061,
  0x61eafa513c84e522, 0xe35ddf661a3c2c7e, 0xc0b55888431b9f3c, 0xc27aa40e00e924f8,
  0x4052254668152bcd, 0x1af566a0f17b236d, 0xaf49b5dd1ad2e830, 0xc12e20847bf473b9,
  0xe0405d90806924f0, 0x13e57e8ff8c68913, 0xf8f789986f694cf1, 0x15835cfc0d3ec940,
  0xe6214dda12eae6de, 0x690d7c55ee27451a, 0x5a3f7790addc9192, 0x5f4cc8e9d4298b6d,
  0xef930aebc839ab25, 0xdd3522db630c0ca7, 0x166d16ffeff72bba, 0x42a82a4c808bf20f,
  0x5ef1ee01304730d7, 0xde6a824c8d343114, 0xdf9b3fd2f8415079, 0xab2427796d88a2dd,
  0x8f9d6eb779816d1f, 0x1ff9698d1db1523d, 0x62cc860c65849a8, 0xa0903208db167e69,
  0xe284f78691663901, 0xc5c305dd97018b7c, 0xad6eefbb26959d5f, 0xf516b6ffed3709b5,
  0xe836e67df41f7e57, 0x175816e60cdf2e11, 0xd76fe420be69c158, 0xc051862f22496912,
  0xd13ffcaa941d947, 0x69b2b2995f2ead97, 0xf9e5b50bcbe74ec5, 0xb226450da6bfd255,
  0xf3b850ef8d8067f2, 0x5c9d602c763ae0ba, 0x51a530fe7653a41b, 0x7952d34e99f9dfb2,
  0xf951a4bcfa5fb81f, 0xe45676b18360b683, 0x57bad6be891258f9, 0xccca236f07992e4f,
  0x5456702b97d48980, 0x8aef53b4a9107a18, 0x1a9085ec2493eb06, 0xbda315e1afde5e8e,
  0xeb568d7d35bde20d, 0xbe3fb8cb01063604, 0x2690e3a522ef1123, 0xc696a2b41444b0dc,
  0xd63347349cbdb4e9, 0x6d2a2b7258493da7, 0xec265251cfe82c2a, 0x3f5b462dea68823,
  0xf3632fb6c0d660b9, 0x470ad9fda9c1773e, 0xacd2cf06b6841ebc, 0x171ac9f0b148dfcb,
  0x8fa97ce11807eaae, 0x4c58cd3e88ba6476, 0x37829777cfc9083a, 0x2df3eca6c135719a,
  0xf9c00b12db21767c, 0x844ced49f62eea59, 0xebf8da968c27e84c, 0xcb8b303147ac09b8,
  0xf4e0a7ba53e67b72, 0x7f3ef120dd633e42, 0xe22f356f9b526764, 0x100e9b1199973807,
  0xa8d4c291902e9de1, 0x978a357558cbfae0, 0xe8b78b628f566f11, 0x208ebf642fa397f7,
  0x197111c8df69bfdc, 0xc5389d4136b0b503, 0xaa8a397f05ef4e9d, 0x663ae543fcd788d2,
  0xb144a3cfd3c0695f, 0x76175ff4d2723631, 0x1fc6d3f39f2380a8, 0xa47b7c8ed4f63182,
  0x2494a688627b5fb0, 0x287c54d7bb589b5f, 0x43e144a3a614e2a1, 0xd7fbbd5503fd3aea,
  0x3d0b97b1d32c3f55, 0xeffb7c436321046a, 0x2caaf49584cf98de, 0xbdb445bf7358692b,
  0x568aaeb1b85ddabf, 0xfafa3d6174649256, 0x193b87bda76a524c, 0x2c7a454dd2f06bee,
  0xdd0d963b707a433b, 0xb4d5d5a2fb30e1f9, 0x22a982ffe6237773, 0x77ab6f31f9cc5c34,
  0x55f41816038c8383, 0xca2931d1376a5a6, 0x91d8046adc577d67, 0x3aa5d912ebeab2fa,
  0x855e4a6aad7cac4, 0xa2d6f786a8f7ab22, 0xe30174f46872b547, 0xeece0a3a58a5be04,
  0xc84e24e866f70cab, 0x1de2e9ae78ed8775, 0x5f150c954f32b5ed, 0x55e8fd6c20695e62,
  0xdd0eb5675de9d9d7, 0x32c744f35c8a7366, 0x5c420598203fca74, 0x5e5dc07b8296a10c,
  0x846a25971370aeed, 0x8cee910b59e3c38b, 0xa3a47bd305917a39, 0xccea061b005f103e,
  0xc43f0d42ebb41834, 0x35e3620be9f7dcd3, 0xc734bbe04ba0ba3c, 0xb5d02f683ae74911,
  0x57ccfdbaaf202596, 0x27fe69537ef7bdf5, 0x61133960e60b14c0, 0xcb5986f161534b04,
  0x22e4dd68b5cbc9ec, 0x9372ede3065a9c88, 0xe5916b068c638f8c, 0xbeaf683123c91632]

/-- Words 4536 to 4703. -/
def tableSign27 : List ℕ := [
  0xc928f644f1aba3c8, 0x83c8dd3739fa9f95, 0xf6edc80286780d72, 0xa6577f79c3ef8031,
  0xda7f37d4ab3e364b, 0x46371337666b3e2c, 0xfdb4c0415d4e10b6, 0xe837da9f79776e0c,
  0xa1664032397f62c, 0x5313e3aa4751dd3c, 0x1b1185507a54add7, 0x83400851f0ebfd35,
  0xd12aa9b7935f9674, 0xe9f828aa5b4aad5c, 0xd5a34e1293065ffd, 0x65e062fb8bf7e074,
  0xce162946b98af2a3, 0x34030bb0c688f64c, 0x7f6a1790a3a1a061, 0x3694db1f9a874c98,
  0x25b7d76a2e5f02e1, 0x6c8c0030287115f8, 0x60f492293a30bdc3, 0x599973b65ba6b9de,
  0xaabe6ac266f5a1df, 0x5c8ea62792888ee8, 0xf428b68e74e37342, 0xee8a5d320cd9f5d,
  0x3d5c032dd64469e, 0xdd7e7285fd56ae9e, 0x924ae35fe5edc620, 0x6d588f3986e3e846,
  0xae396bc3e58ede16, 0x2b3a772a1b11dcf8, 0x2b4de220e22902a4, 0xe4f2ff7f3601bde0,
  0x76df166799f636f1, 0x5891789ed41f8fed, 0x2f89fd53cba7d55d, 0xafc14f312ec16e51,
  0x93b1eeed16db379d, 0xbc6590665b0ec5cf, 0xb483642fd24b95a5, 0x289414af9d2c4ee2,
  0xdf66f9510eaba7, 0x23f527d27ca1604e, 0xe813dd341498f90a, 0x37bb75506e35b828,
  0x4e3eb793d742d65e, 0x6a9ebccf490d4641, 0xef75dacba9211f80, 0xf067ce7b8a999d30,
  0xf148d983688ead9e, 0xa5e0e6921826629, 0x3dbf22d8c3d7fe16, 0xf85bc554e8e06c9e,
  0x74da7ebeabbbe3ec, 0x61738e7c0cd30be7, 0xc74d281e2b5dbedd, 0xca8168dad95e990e,
  0x2be74205075fa344, 0x2426963f5b065bff, 0x4b3b4fd18483b514, 0xb43e46c76d7ae5c6,
  0xc7ffe900b497c63, 0xad113fd86db2547d, 0x9b016479a43514c7, 0x7218057747a07c72,
  0xf7add76752c46729, 0x5fa2293ffb4a3938, 0xd670acce424043e0, 0x17adbe6b8b3f816c,
  0x8dffe654b33d58f, 0x107d515f84d0e14f, 0xbd9d9c7c5eced6a, 0xcd57c41f20ce0e8f,
  0xef7dbba9c6d4d40e, 0xec7fc16573ee95e5, 0xab50ae76ee77e00f, 0xa6f2d191c55c8e95,
  0x7dcd4811b813d043, 0x3005bf6cbbcd020b, 0x9f3dc27486f05e14, 0x2ce431d0e7c9dd53,
  0x4a77bab82f47bc79, 0x63c163325f4c5c15, 0x96fe43f6f372c4c0, 0x45e2043125c0582d,
  0x315f40f0addfa525, 0x2c620686c68c12bf, 0xc442af96e71c5cea, 0xc2e793c3aefd6f43,
  0xfc441770c4068c16, 0x2bc845f95b721338, 0x7503f5cba23656f7, 0x7628f3578bf833fb,
  0x78eb98a103e87ff7, 0xa5c58f5dbf258ce0, 0xb20bc8dd1c8811f3, 0x6a615d9acd9465ec,
  0xda1ccd317917e769, 0x25c9b9e87b4367b4, 0x9bd87175f0940a14, 0x98d52f408dd46edc,
  0xe0ee911b4f1b1c79, 0xd3d4ad182a917ad0, 0xa084e6dd2afe5f78, 0x623123251fd6af7,
  0x3746f2ec393c4a0c, 0x838e9b995c44f9f7, 0x33f96d8ccaafe381, 0xb214d8e66ac85d27,
  0x6a675166077a216c, 0xa4baadb4bb8ee561, 0xbb1e0dc537cb7103, 0x5cac0a1c225798ca,
  0xff0f3c70a3985ef7, 0xce88e4b5dda6b8ec, 0x6eb5b0c59d836619, 0xf0de6ec59771c6a7,
  0x20b394c25a056d36, 0xec152912585dba07, 0xf5b950965a346d65, 0xd7f6dc0c1ea1d8e,
  0xa014487b08503968, 0x39a1d86608e0f493, 0x445619373691b77c, 0x7dcf4a8d053be36f,
  0xb7fbc6fbc9c65d63, 0x2cd7176ac8f8ed46, 0x688b0c24edb18246, 0x3c944ab8662c35f3,
  0xefec2b632f5a777, 0xe83f5a79222dc591, 0xca0dac5a87a8ee82, 0x6410cee8c0e6ba54,
  0xbee47d44fbf3e11, 0xdfe54743e80dd95, 0xe3e9bce2b0727a9a, 0xc8a814900248d5c6,
  0x4c4eb98c0211f42, 0x49b92606ea1bbd6c, 0xe4ab5db2f070014c, 0x66c38faa9daa306d,
  0xeb0054e6d9128045, 0xecef76338067218a, 0xfe4704b4d460db53, 0xb531f8c0c7368ade,
  0x52d829e9be056c69, 0xa7c0a56218526e10, 0x6bf511cb071c0d9a, 0x38995f6391b1ba22,
  0x4ec79c57e2a1270c, 0x644b9e3c98161c6f, 0x8762f2a5a081356e, 0xe1617d007620c4b6,
  0x8b994e9eba9a21b0, 0xdd787999458689ed, 0x782b045dfa4128ed, 0xea81cc1af36e2252,
  0xe01483183f1dd700, 0xc142117b571c5b2c, 0xaa4932f27bbdb5d2, 0x4050f14f9f55aeed,
  0xdf6a4f8006b84ef, 0x8caeec83387804b9, 0xfea07ac5f6036b2f, 0xf142c5e1b689b542]

/-- include/table_sign_w4_3675k_ed448.h:29-1206 `TableSign_w4_3675k`, by sub-table: the words
that begin 1344 bytes times the index after the start. -/
def tableSign : ℕ → List ℕ
  | 0 => tableSign0
  | 1 => tableSign1
  | 2 => tableSign2
  | 3 => tableSign3
  | 4 => tableSign4
  | 5 => tableSign5
  | 6 => tableSign6
  | 7 => tableSign7
  | 8 => tableSign8
  | 9 => tableSign9
  | 10 => tableSign10
  | 11 => tableSign11
  | 12 => tableSign12
  | 13 => tableSign13
  | 14 => tableSign14
  | 15 => tableSign15
  | 16 => tableSign16
  | 17 => tableSign17
  | 18 => tableSign18
  | 19 => tableSign19
  | 20 => tableSign20
  | 21 => tableSign21
  | 22 => tableSign22
  | 23 => tableSign23
  | 24 => tableSign24
  | 25 => tableSign25
  | 26 => tableSign26
  | _ => tableSign27

end Verif.Ed448
