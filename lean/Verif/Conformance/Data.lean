import Verif.Model.Base
/-!
# The files of `/repo/tests/data`
Their bytes in hexadecimal, for `Verif.Conformance.Files`.
-/

namespace FF.Conformance

/-- The value of a hexadecimal digit -/
def nibble (c : Char) : Nat := if c.isDigit then c.toNat - 48 else c.toNat - 87

/-- Bytes from pairs of hexadecimal digits -/
def hex (s : String) : Bytes :=
  (go s.toList #[]).toList
where
  go : List Char → Array UInt8 → Array UInt8
  | a :: b :: cs, acc => go cs (acc.push (UInt8.ofNat (16 * nibble a + nibble b)))
  | _, acc => acc

/-- tests/data/embeddings.fifu -/
def embeddingsFifu : Bytes := hex "\
  4669467500000000020000000100000002000000010000003f000000000000000700000000000000030000006f6e6503\
  00000074776f05000000746872656504000000666f757204000000666976650300000073697805000000736576656e02\
  000000290100000000000007000000000000000a0000000a00000000e13cea3e96281c3e000000000000000000000000\
  0000000096289c3e96289c3e96281c3fe13cea3eeee3673ef2eaad3ef2eaad3ef2eaad3ef2eaad3eeee3673e00000000\
  f2eaad3ef2eaad3eeee3e73e00000000000000005f1da63e000000005f1da63e5f1d263e5f1da63e5f1d263f00000000\
  0f2cf93e8274df3d8274df3e8274df3e82745f3e8274df3e82745f3e8274df3e8274df3d6297a73e8274df3d00000000\
  77d6083f77d6083e77d6883e0000000077d6083f00000000b241cd3e77d6083eb241cd3e4001d53e4001d53ed5000e3f\
  d5008e3e0000000000000000000000004001d53ed5008e3ed5000e3e77d6083e77d6083f0000000077d6883e77d6883e\
  77d6883e77d6083fb241cd3e77d6083e77d6083e060000002c0000000000000007000000000000000a00000000000000\
  89d6d140e44e0d41e142c54076a412415177ef405ac1e6405177ef40"

/-- tests/data/embeddings.txt -/
def embeddingsTxt : Bytes := hex "\
  6f6e6520332e3020312e3020302e3020302e3020302e3020302e3020322e3020322e3020342e3020332e300a74776f20\
  322e3020332e3020332e3020332e3020332e3020322e3020302e3020332e3020332e3020342e300a746872656520302e\
  3020302e3020322e3020302e3020322e3020312e3020322e3020342e3020302e3020332e300a666f757220312e302034\
  2e3020342e3020322e3020342e3020322e3020342e3020312e3020332e3020312e300a6669766520302e3020342e3020\
  312e3020322e3020302e3020342e3020302e3020332e3020312e3020332e300a73697820332e3020332e3020342e3020\
  322e3020302e3020302e3020302e3020332e3020322e3020312e300a736576656e20312e3020342e3020302e3020322e\
  3020322e3020322e3020342e3020332e3020312e3020312e300a"

/-- tests/data/embeddings.dims.txt -/
def embeddingsDimsTxt : Bytes := hex "\
  372031300a6f6e6520332e3020312e3020302e3020302e3020302e3020302e3020322e3020322e3020342e3020332e30\
  0a74776f20322e3020332e3020332e3020332e3020332e3020322e3020302e3020332e3020332e3020342e300a746872\
  656520302e3020302e3020322e3020302e3020322e3020312e3020322e3020342e3020302e3020332e300a666f757220\
  312e3020342e3020342e3020322e3020342e3020322e3020342e3020312e3020332e3020312e300a6669766520302e30\
  20342e3020312e3020322e3020302e3020342e3020302e3020332e3020312e3020332e300a73697820332e3020332e30\
  20342e3020322e3020302e3020302e3020302e3020332e3020322e3020312e300a736576656e20312e3020342e302030\
  2e3020322e3020322e3020322e3020342e3020332e3020312e3020312e300a"

/-- tests/data/embeddings.w2v -/
def embeddingsW2v : Bytes := hex "\
  372031300a6f6e6520e13cea3e96281c3e0000000000000000000000000000000096289c3e96289c3e96281c3fe13cea\
  3e0a74776f20eee3673ef2eaad3ef2eaad3ef2eaad3ef2eaad3eeee3673e00000000f2eaad3ef2eaad3eeee3e73e0a74\
  687265652000000000000000005f1da63e000000005f1da63e5f1d263e5f1da63e5f1d263f000000000f2cf93e0a666f\
  7572208274df3d8274df3e8274df3e82745f3e8274df3e82745f3e8274df3e8274df3d6297a73e8274df3d0a66697665\
  200000000077d6083f77d6083e77d6883e0000000077d6083f00000000b241cd3e77d6083eb241cd3e0a736978204001\
  d53e4001d53ed5000e3fd5008e3e0000000000000000000000004001d53ed5008e3ed5000e3e0a736576656e2077d608\
  3e77d6083f0000000077d6883e77d6883e77d6883e77d6083fb241cd3e77d6083e77d6083e0a"

/-- tests/data/utf8-incomplete.txt -/
def utf8Txt : Bytes := hex "\
  6d6572656e202d31203020310a7a6565c36e20312030202d310a726976696572656e2030202d3120310a"

/-- tests/data/utf8-incomplete.dims -/
def utf8Dims : Bytes := hex "\
  3320330a6d6572656e202d31203020310a7a6565c36e20312030202d310a726976696572656e2030202d3120310a"

/-- tests/data/utf8-incomplete.bin -/
def utf8Bin : Bytes := hex "\
  3320330a6d6572656e20f30435bf00000000f304353f0a7a6565bf6e20f304353f00000000f30435bf0a726976696572\
  656e2000000000f30435bff304353f0a"

/-- tests/data/similarity.fifu -/
def similarityFifu : Bytes := hex "\
  46694675000000000200000001000000020000000100000002020000000000002900000000000000060000004265726c\
  696e07000000506f747364616d0700000048616d62757267070000004c6569707a6967070000004472657364656e0800\
  00004dc3bc6e6368656e0b00000044c3bc7373656c646f726604000000426f6e6e090000005374757474676172740600\
  00005765696d6172150000004265726c696e2d436861726c6f7474656e6275726707000000526f73746f636b09000000\
  4b61726c7372756865080000004368656d6e69747a07000000427265736c61750900000057696573626164656e080000\
  0048616e6e6f766572080000004d616e6e6865696d060000004b617373656c050000004bc3b66c6e0600000044616e7a\
  69670600000045726675727406000000446573736175060000004272656d656e0e000000436861726c6f7474656e6275\
  7267090000004d6167646562757267090000004e657572757070696e090000004461726d7374616474040000004a656e\
  61040000005769656e0a00000048656964656c6265726708000000446f72746d756e64070000005374657474696e0800\
  0000536368776572696e0e0000004e65756272616e64656e627572670a00000047726569667377616c640a00000047c3\
  b67474696e67656e0c000000427261756e73636877656967080000004265726c696e6572080000005761727363686175\
  0e0000004265726c696e2d5370616e6461750200000022400000000000002900000000000000640000000a0000000000\
  2cdcaf3de41837be624d9a3d14d13d3ed0fae23d0e6d16be2fd2ee3d01065fbd65991fbe012f14be3ae1c8bdedf58fbe\
  7e3b783d4ba0053d3f423d3d5701ebbda29ebfbd06c20c3ca7869ebd6f4ea73c9d10ac3c7c169dbcb7b0413d95c114bc\
  d4226dbee3ad6ebdee62773d3feb51bd85bec2bdfac0febbe48506bd5eb34f3d65e4b13c6e3ba63b9fdedebde491e53d\
  1e96af3b792252bd353c3c3c8b6c8a3c58b9553ec3f6203d21f7b33becf8ee3d27a1853d64a238be1d1f97bcbda3a9bd\
  f05f433ee70dc6bc9a53d5bdda735fbdc250803dda35513dfae3283ef130d2bd284c98bca88de33a265a09beb2a76f3d\
  23621cbe9c6d963e23a8d5bd31c4f83ddd2f3c3dc9c4df3a38da993de2540c3d2f61253e14c7963d2df8a63d76faeeba\
  7ae2fe3c5df67f3deee1a8bcc9da2c3d6a87fcbd046a1dbd1c3657bd7612813c5f17aa3d8da2c0bd428ae43cc90d5d3d\
  9cd144bda96f4ebd842ecc3d2ac5d63c03bdf43cee1b69bd125a07bd4b165ebde228f93dd138373ebccf16be1fab373e\
  5ff585bdbe32bfbd2ebc923dd7b1693d7fb1013ee9cafebd5413ba3c58c61e3e0d70fd3d89c6c0bd10f7843d5e02e8bc\
  f1fb22beda37b8bdb0f4eabd817659be8608043df693e43de7fb5a3d1ad970bd175dd6bddca66bbd9d5a28be2355bebc\
  0bfcd2bcecfb1bbc2289863d87b8373d66297fbec610e4bdcae2923d80094abd884d11be752602bd704402bee2176c3d\
  e959463d3575013a256cefbd4e65bc3caf23f5bbcd146bbd961eb03c6e2b17bdd57e5a3e72bb663b63e879bd5e42c43d\
  7aad933debad29be2d2c86bd434522beb952de3dc0ab373c79d786bc2e4dbdbd6145203e1a403c3dbb0b173e6f42b0bd\
  cd7b8c3c10f9e0bdde3b5abef1dfef3cdbe408be707c883e4833dbbdc634b23d6d31e93cc70f993cfc8f4d3ebf2865bc\
  1a95053efce39c3d51e9a83cc85817bd696d653d06720bbd5f386cbd8421fe3cb92cc7bdba7506bd825be4bd4675ba3d\
  b08e0d3e17c49b3c16315e3c644e6c3d2055d13b8f0c68bd9b80613d5292573dcdae253d7b3e0e3babd439bc821203bd\
  2007cf3dabf11d3ed4f136beb58b203e981b8dbc52f09abd020dad3d853924bdb5c0ec3c3a3475bee78f883d576a233e\
  fc7f153d7f3f1bbec8abb53d42e7f5bc0263cdbdb0cf15beb75312bdf57458be5f98c73d480e993dd822853dacb4b0bd\
  2c7759bd0f060c3c865c16bd1c24fe3bc5ad413d6a21c0bc8eb0c93dfb64803cc3d02fbe36578ebd9d7449bdfa069ebc\
  27b834bebd8e5b3dbed64fbd3c80ed3c761c503c9e66433db7db25be3633ca3dd28cd1bc201a8ebdeb11d23dde64abbc\
  23e3753e3a004a3d41671b3c0578503e436cae3d781016be68192fbd66b275bd19e2483e0824ecbc5d5bd6bd88e4c23d\
  9286523c37252dbd5beb143e80ec44bdddac133c2fda5abca4aea4bde469c63cb6421dbebcc5063e70bd0abecbdec73d\
  f20d4f3d8669733dec3a7a3c0bbfe83da898773dc1d6033ed869023da159973d41c6863df19ad33d5c2a123d56038a3d\
  6bf7d5bda9827fbd06eedebcf57df53c9abe073e8c0e19be5434aebcd3898d3c189122bcce90a4bdcdbb593ceab2893d\
  10ad233cccea4cbdc6985bbd463d45bd33a1883da72b8f3eedd443be41f3613e220fd8bd9d2546bd670f843d913c663d\
  686a223d785a53be4530993de664343e0905303e338f18beba04293e4846b83cf3030abeffa4f3bd7ae4dbbd87ff60be\
  4743bd3db352143e77b6923d95a63cbdd450263cb45ae53c4fbc0ebee372bf3d806e293a2c8942bd29356b3c17915f3d\
  8f0557beaf499fbd72d11a3d04eee3bc6a87e3bdae47133d14ff423d6c52a23dcbb322bdeeec013ddd87aabdeaa8d33d\
  ccc66dbde387c1bde9e5df3c02db0e3d69db4e3edd2803bd59e91fbdb3d9d33ddf3aaf3d708219be544039bdae3f3abe\
  050f133e12b8b13bb3fae5bd0334a1bd3f39d93d3f5c043e1fbc963dbb0176bd97ae6b3d62fd36bce80d23be3549c43d\
  be9bcebd614c513ecff185bda80f053e283f263d193c9ebcaeb1f43db2397dbd4c59c83dbe1e833db26976bd786f54bd\
  03941a3ed55f10bc1665b6bc2faa8c3dbc6fe5bde1fcbcbd4691d6bd7d4f7dbd736f1f3e14119bbd230f423ab4ce833d\
  6fbdffbc9411d83ce280ea3d5523b23dfae9023d22cfedbdd06e99bd4c6481bdd6b1013ef003303ef65314be3521073d\
  8a94e6bcec517ebd033746bdfdc720bd8003a33dd147e7bd0810a93da10d263ed3c1453ef48b1bbe13f2183e7e522e3d\
  5e8f19be4fddf3bd3d35bcbd87e261be4970cf3dce543d3e394e173db62fc0bd384af5bc30aa2fbd88d1c4bd8e882c3d\
  9396cbbb0c1aec3ae706d0bc48c96d3d37ba3fbee1bd98bd9413ac3df2b7ecbd884649bdd9adff3be4b39bbcb347903d\
  50c099bc7cfc393dbd01a1bd2098bb3d102b40bd135decbd8cbae93c7645bbbc44ef6e3e89e5a3bd868f9abd3d49ea3c\
  1e499e3df00802bed290d5bd405223be8cd5c63d72d7873b7b60bebdecbc92bd739f103e6d830f3e6f1bd23d1e868dbd\
  75319a3dd86a44bd53875bbe64cfd03c81a6d5bd76b28e3eea94e2bdfbcf043e8faa42bdd3a69dbaf8e0003e26be46bd\
  950fbe3d503fa93df7c3ebbc108c6dbdb82b123ee67dcb3bf28dc6b9100f8c3d334a08be142be4bcf59bd8bd1af0cc3c\
  423f8c3d9d4bc2bcaac172bdd2c2033d2d540f3c1077ed3c7ff12c3c041bcf3d53e6863d869288bdbae315bd0cd2b9bd\
  8696033e52540e3e0b8306bec91ed93d388ebfbd5e17c4bd1fbd0abdb9db0bbc211cae3d088b16beaa2fea3dca17213e\
  b558353d390b16be61cdae3d3a7ba4bdc88b98bde04d18be9fe9bcbd6e7698be7b9031bdf409cf3d1c1e373d1ee007be\
  190cecbd3b880ebdc32baf3c32ae743d35e08dbd5d30973c546c3fbda9ca5e3db7a632be3b454abd7a02b5bd5c4ff6bd\
  ade798bda516c43c5f8a8b3de887943d3e6523bd25dbce3ddf4f32be3cb6a13d3e534f396a4da9bd93da2b3d3f0c82bd\
  c943443e5c3a7fbd18c9643cb6caa73d501de23d9fa9f1bdd1138cbdf5e4fdbd2640623e3cc0ac3a25f65bbd7c980e3d\
  a682fcbc6d86023e69c50d3e279499bde8127fbc1a2027bd16f495bd3613be3da49b80bd601d6e3eb71966bce8e4073e\
  f0d9923d769bcb3d77271e3d127423bcd6b7fd3d877a1d3e8f84efbc91ec93bc9891bd3dcc8bf53d253bf6bdfdf5153c\
  2118efbdfe7650bd798659bc10d9dbbd4d099c3db05af3bd372d213d64edb13da4f99dbc038bad3d891cac3cfe3614bd\
  ad37993d5e66fbbd0d33163d3ab4e1bdc587ec3d0b88133ebec51fbee70e143ec0dec3bd3162dcbd850f09bd29644b3d\
  402bb93d675d6dbea73dd93db6d3473eeb2abb3c56e604be65776d3d37e335bd6b1ff3bc8c252bbe249da5bcfd4b7cbe\
  8973933ddf21ad3c1a5bcc3da9b152be464dc8bd380a1abde7794d3c864af9bd8b71febca5077ebdb2334b3c6153393d\
  9c4460be76bea1bd677763bccddf7abd58aad9bde151673d2380bc3cb326993d757f993dc410213d9e33c4bd42ec95bc\
  4a071abd8a4ab5bd50bbf23d9ac709be5cab883e05c342bd18412ebc178b113ec48a203e5f25adbc67b0debd6a66863c\
  21b16d3e403a9cbc822de4bdae14c33cc9cda33c17fc3b3cbad4d13d93b9bbbd974de9bc8b9c3dbddd5d94bd2610ef3c\
  d7ee9dbdd1ce7b3eb9d3aabd6ad2263e952e06bc22a0033d6af0f0bcb64aea3d62a5c63d8ca21d3e6254a6bd6c9b08bd\
  891d1d3dc21dba3c5539f2bdfd9992bb3db87cbd66e6c9bcd78e91bd6c4ec0bda984f43d361adabd06b1123dfc608c3b\
  b3bff03c580829bdea50373d3594be3c7bc0aa3d3c0030bd75d144bd8229f53be9f5943da8ed313ef198c9bd8b18333e\
  bbbaf1bc02cbcdbd813c18bc895c293d8bd9d63d475876be4b12fb3dce1f823ef22e2f3ce8cfa4bdc90ba73da6d522be\
  9d3385bb74c409be63134bb915a55bbe6e96853dafc63ebc9809933d106c0fbe923629be28839a3d618795bd8c0735bc\
  e747a1bdf9c45ebd513013bd9fc86d3d2aea85be8350bdbd5e2d013da3c1bcbb1d3070bd53750dbc4f53b4bbf6aa523d\
  34a4d0bcf75500bd40c5c3bd18f06a3d9471a4bc6d63f4bd67b9783dce22a9bdd3175a3e9eb32dbb6b7b4cbb38c20b3e\
  3752b33dcb5c9dbd7a8f42bc50be14bdb5ca553e69b414bdb1705cbd61598cbd57e6fcbc43abe13d5180b43d0fef05be\
  180eeebcc58d6a3c8124cebcd365ad3cef8376bdd0ae293ea5d0eebc6ebcf73d8348bf3d0a8a573be4e71ebd4a27fe3d\
  2579ca3dd194a13ddff14ebd4d94e8bcd09b8d3c91cec2bcbef051be02f5023d86555abc2e0909be05f89fbc34d096bd\
  0201533e4d38a0bd1971f53dad74853dbbffa83df092debdc4ba743da5e10c3d14ae6f3dfc53753a888e23bd6a76ae3c\
  587fac3d79ce2f3e94cd4abe2280073e25ab9dbc21271bbee59f90bcece6d5bbabcb043dadbc44bef4ab3e3cb0c1223e\
  b1babc3d488b1cbeb2aec13d1df805bd19ead2bd53ff70beaa48d3bdfff27cbee69d653ce269c23d5a3c153db91119be\
  ebe04dbdd9d5c43d735b2abd0eb78b3d6b208abd0216083df35ba43adbc2a53d4e1d32beb8d811bd4c6153bc68ad84bd\
  cb0d0abebf7c1d3cb2cda73ddd91953d2a4ed9bca906b03da9d8dbbd59d4df3c4db680bcb0f3fdbd23e1a13d37d51bbd\
  ea6f8b3e35fb973a33cdeebaa500ae3d5f838c3d8c48edbd454ad6bd43c841bc6cb3293e1a84a5bcc08f213cbab3a93d\
  d6c4f5bd42a20f3e4dfe313dd7b3cbbce0f859bd8c1c12be569715befe7ea23db28936bd5494873e63aeb4bd50be263e\
  abb611bd52dd7a3d90d4833d9a533b3d01b1ac3df2141a3e088f80bd21878dbc6e3e0b3e734cb03d4fdf19be8bb20b3d\
  f03f95bd143817bd977881bd72eae6bd3a4c403e23e1abbc89e9d6baaa19e23c451f633c9530eb3a7430e4bb4fc1893b\
  5cecc63b319bd4bdb9fa0abc50e71cbcf565df3d2cc82c3e856c07be5adacf3b90c3bbbdc53ed1bd981530bd66824dbc\
  aba93f3d59fdc8bdabf20e3e3b852f3ecb8fd83d2c9f8abc5dd1193e84c782bd82d614be80ed08bedfc608be61854bbe\
  4f96a53c3476803ee8978d3dc3fd82bd5132a63db60d8d3decf00cbef929873de1cfac3c4f24763c7002fdbb301d593d\
  761066be2079a5bd4c555c3d955690bd6b851e3cbe6a89bc97e6f03c5ed3cb3d69dba8bc2787d53d8d5faebd6a03863d\
  a101d9bc451467bd40959c3de0e530bd6f0a2c3eb9ea01bea70e13bc72ae803dcad13d3d7e380abe8989efbc56b223be\
  eeb4ae3de2af703ce37aebbd1d9e83bd1fb8bb3d562b193e34a3303d7c733cbe21f86d3df1935dbd31d1d9bd63b33a3c\
  fe0297bd607e8f3e83dbfbbde87d123e9ce121bd3681e2bd3b5c343e83a26fbdd5c4cf3dce52693d1cd7dabca9dea73c\
  219f8b3d3ba5c33c7a8fb8bbf721303d0993f5bd6692a9bdaa1cb3bddd9fa33caf1eb73db0eab83d8739b6badb05713d\
  34f3623d25400abe79c8d13c623ac73d27e5843d5adbc8bd80d623bd0bdb02be19de9f3dec7eda3db0a3aebd4e84d03d\
  04bccc3bb42f4dbe9a5717bbb1355a3d78f9b93de8c3c3bde6ef213d8f45283e6105283eb4534cbea31e0f3e512fc5bc\
  635e1dbe360898bd20f5aa3d1ec353bef051d73bdf69ce3ddcb2d63d13913bbd7c8608befc3bd4bd21d7cdbd16df3bbe\
  1e3d19be6bfc96bb5b1b5b3d58ca1b3dea7a45be5e7d0abe23e9a33b1c6a6d3c6fdb12bd1bec71bdd5561bbd7e3a7d3d\
  ea7181bc098eba3a6f9b75bd83dec73d86a40bbe920f1dbc1435273dbf6d4e3db41a853e63fe763dc55f6fbd3868d93c\
  5b847e3d3aca3cbe5ff3aab9510d99bd76fdef3d7055e13bdf7392bdfff88ebdedeb853d98f02f3de9c5663eecbe15be\
  f40d9ebd10b90abeb7b943be4f59853d500169bd1d5c963eb16c0cbd9a079e3d5e7a2d3d85f035bc81ce1c3d358453bd\
  ef6b8d3da3ca293e248f63bcd972333d2bd1543d79199d3d9aa11ebd930e3cbd046a19bede9b313dcd771ebec0de80bc\
  eae5053d8ecfb33bd104043d11e59f3d2483b43d786b15bda347733c49bfafbdc9b59b3c1cb7753dd6190cbdbd09e3bd\
  7888f63cd84a5e3d5c7185bd3997943dce360dbdace647bdb859e93da473b83d78483cbb673f4abeb028bc3d4ad2203e\
  f64ee03df89308be520db63da63a443dc3bfbbbd809982bddfda87bd4e2b18bec310173e4f31073eb9c4c23dac87afbc\
  5c09823ca9e3ccbd91201abe258bb73c50ef743d27b71ebdbf0a213cd9f4e93d5ea75cbe8c2630be386f30bc543f413d\
  3f4ddfbdcdc9eb3c37bd1abd7e5b703cdf09b6bc59034dbccd73fcbd26c7953dc6eb44bd7aed7bbdba961c3db4c48d39\
  d76b4e3e61c3aa3c16af05be21e61d3e54a96a3df5cb40beb928debd4cf91abe165c233e8e95b53b675491bd1399963b\
  b38e363e443a7f3cb0d60f3e3d25d53ce8b5103c7713d7bb58a5f7bd9590e4bc292ac3bda4231d3ef2bcc9bd17a8823d\
  7fc9bc3c0af3a53da468203e344245bdbf38683c0484b93d443d1ebda5a7123c7e09d53de6db95bc58d3aabb00e0c53d\
  45f7aebdb0a828be1f5c0abe32bfd83c11f1303ecbb499bd92656bbd446862bbf375cf3ce3c0aa3db5de293d415b1f3e\
  b4f1bf3b3e8679bd648251bdcbd182bd88db3c3dcfc4613ea8c562bea4b5f93d65408ebdf7458bbc83a93a3d793089bd\
  bc3ebc3dc74b16be9ec75f3d75ac613ee2d1c13d8cc50fbe5aea0b3ec0358ebd6621c2bd7e5e49be4daaddbd662e52be\
  2e409d3c2575033ec4507f3c39e0bbbd41a2e0bd99a4a93dad70e7bc86fb653d935804bee1afbf3c960da1bbaf5a9f3d\
  643e46be4c9086bd8a68993ccfd38ebd7fd2f4bdae56d93bc96dc83c4ed03d3d00e411bd1ebaa23dbe69d6bd2dc26f3d\
  d86bb8bc15f036be9c92a73da26090bd7bd7753e6b6625bd1accb6bc43db1a3e69dab83d4649ccbd2880b5bd7a823d3d\
  0b351a3e1e46bcbc687e4a3c164d893ca3f09bbdcf832c3eb592883dc65370bd976cbbbd392f10be0d16bcbd1bd0a83d\
  d6e523bd43346b3ea048c9bda9dd253e205e68bd4e0f953d6518e93d4103613cab0c753ddd882f3efdf5a7bcd57b3dbd\
  97790d3ef8d9183deb453dbe75e7b9bc302091bd295767bd8acc70bc3f9816bdbbf2243e837121bb9fafac3c17774d3d\
  8b3dbf3dd7deebbaca39e7bc7bc7963c575cf83c00ba8bbd92af2abccc7dbcbbca65163e0f42263e6b82f3bd859e3f3c\
  61c282bd683e0fbe351d95bcae52e13ba29890bbd7c602be228b733deae00a3e54e01d3ecd5a0fbee8f1ef3d91ecdb3d\
  4565c0bde14b07be0d23f5bd3bb44cbe4da1913d71ad323e9e68703d71e0ffbc766381bd74e11e3db2f811be5c5b66bd\
  cc5e79bcfa6493bda5f387bbe8e8223c9bab36be2e6aa0bd178f863d76f10cbeb7bc78bd87cc843cdf71c03c9127803d\
  8c0a3dbcacefc2baa93351bdb9a1643d097a6cbda14f9ebdd98d8a3d937b2dbd26e4803edee10cbde14d77bdf0b3413d\
  ba0a9e3d31f21ebe86fed3bdbd92e4bd43bce73c49ed1ebde1f7bebdfe4d9dbd55d9093e98331f3eb373773df15399bb\
  7bd45d3d3f9fd63baf5a35be27cad73d07c3e9bd408b703ebf031abec5e3e63dd123b6bde58b003c3222353e324357bd\
  57632c3ee10dfc3d4fd954bd66925bbd80b43b3e05ef593c5ca7173bfa4dd43cc41612be4638b8bcb5170fbea26bd9bc\
  9f9fd83d0848433db1145cbd1b33cf3d0c6f7c3dbbbc873d4b63503d7648873d4a0d503dfc22f5bdbbcaaebd7a079ebd\
  681da43d2d9c9f3dfd1226beed1bcb3da889cebd0f861c3d4870e6bdf91d8e3aeb56123de4e19ebd08f85d3d4c48683e\
  1766f83dfbd00cbe65c9b43d9b384fbde0a617be3ccc52bd4090edbdcc571fbefb6bc93d70ad753d6c5bdd3de626c03b\
  21387dbd0fb5bdbdfbfbbabdcc4b1c3d91b084bdf6f291bd985a1dbd933e1c3d017582be268643be9bc4a43d64f1afbc\
  ed72443dee7b6bbd3578a03dee55013d553a17bed1f53e3c079cb9bd4b430d3d464ae3bdddc455bd4ef6f63db0f481bc\
  7f3cb93d0160dbbd8664e3bbb3dd9a3d41f0ee3d2a1471be2a2dc63c8b9d76bdcd72583ea7f71ebd06b234bed9fc55bd\
  9d0d0c3ece02113de607123ec5e5f3bd4fac443da4a64f3dd9d60dbdf0e6ac3d104cc6bdb280883ec4e9fdbda229063e\
  f4d1ad3d64cf08bdeefcad3dfa7e69bdb92cbc3c0e439c3d6773dabda187f4bddfe2263e4cda9b3d2b11ddbdb62d063d\
  eb4008bec97c5bbd26fa7d3c3f6f3c3d3b11093ea68169bde22f99bcdde4023ce6f1babdbb05d53d555cd03d6c818e3d\
  ad9563ba9bf7aabdff3af0b9201bf0bd0002e23dc7fea93d09d255bdfcbcd53ddf3e563c16e439bdbb00553b7da6dbbc\
  131cbe3d57d32bbebc9bd13cb68a483e2357883d827dbcbd93764c3defa8ddbcb1b2d5bd7fbb34beae0295bdc27b6cbe\
  91fd42bd25e4973d6ac25b3d3d26a3bda4bf02be2147a13d7b3cf1bc419c3bbdab62cdbd443c91bd65324e3d073d693d\
  e76e75bebaa5dfbde62bc4bc6a2c03be2566a5bdccc75b3dd227a93c723d933d56be48ba0244d33de1a4cdbd312e8cbc\
  4c525cbd170739becfd9a13d7d2f26bee116953e3dbd00bed260fbba3209143e47d7583d8c1cc5bc58fb1bbd239a0e3d\
  235d163e03c50b3d87e248bd28dfd73c3c5d36bdc1cded3c38c91b3d5609e7bd00a3ba3bf2a6c13c3d2992bdba192d3d\
  27492dbdce1e4b3e0cd78ebdd57a4e3e5e74773cfd81883d748bb63dde480e3e9f47b93de9f5723ef3fa31bddb6d07bd\
  171a83bcc1f93d3d79f321be59ed7ebb199400be1feeb43c6e43d33c90b3123dd0c9e13d833d113d3fc3483d4ea6a33d\
  5d2fb13c708484bd00c0b83938499fbb957ae23d81a694bd0e7488bd5f68303de0bcee3dd2322c3ecd6018bed770063e\
  aef423bceabfd6bd512d043d81d8b63b8f5b1dbd29a21fbe0de51f3db125493e9ec20d3d65228dbd3214943d223a8e3d\
  d1c426beb8a712beb75c1bbe07e42dbe795e653dbfc3103ea607083ed4d819bd93e0acbd76e304bd881a3ebdcf16ba3d\
  7813a93d29ce10bd05aa7a3d1512cb3dab3fe5bd0ae105be407c1dbde2d293bc400218be740d6c3dfe8e33bd9d7ac0bc\
  32632ebd4c3bddba35213bbe40a6893c7fce89bd7d3001bdfa962c3e54dc23be7170903ec592aa3aca2963bc5288443e\
  a23efb3bc2cffdbdba0dd7bd5164aebd0320093e896329bd1127babda01bef3ca4fce23c9a1088bd72c8c53d76cf14be\
  7cc2efbbc2467cbdb87320be9409a53d2626aebd4fcae13df93f71bee172c23dd7999dbc327f773c9351893dc173f73d\
  31e6183dcd3e443e2121b1bcbeb7103d4d00653d9ebea23bc1d9f1bd75ad293d47e083bdc5a8a33c407a6bbde881f2bb\
  9ae21e3e303673bc41f6d83c332aa33ca7bd883d3e5b77bd54677f3d4471aa3dce30bd3c9d809cbdc6f08738c69690bd\
  4955923d6340293ebf8761bebd00b13d5e15a4bd69fcdcbd1dc9063cd910c6bcffd4d43d56544fbe6847173de62b3c3e\
  9c24953d5f66b0bda7a16d3d40e19dbcd499cbbd05e64dbe2b77ecbdb40e64be1d56cf3cd9ae833d1a6e993c91c0fbbd\
  dd51c5bd0fdff43d05938d3c9537343db110a1bdd8d4593d76d3febce5993b3d1b896abe62bf96bdd009263d9a51bfbd\
  069f03be279bc13d22a10b3d6112583d8f3eb33c21b9873d99cff9bdea403e3de0bffbbdeec835be0f451c3c903b8f3a\
  f0636d3e4ad79bbd11383fbd6883383e265bc93d3836e1bd913df5bd9789073d4715283efc1336bcfc2960bc36a66f3d\
  c20c6ebd17c3e33d0758e03a629a88bd481085bdb1e1cbbdccef88bd8e26903dc3e892bd499b4c3ea799edbd95003a3e\
  7198313d4acdb13d2241eb3c8aa8a03ccb022b3d2ed5df3da39ddfbde84e69bcb68e9a3daf6846bcf5bf5cbe16e31ebd\
  c7fbf7bd69f8243d5ea23d3b40799c3ce236273e507b95bd8cf33c3c1743e73d7a5448bc3c189d3c076d783b8a0907ba\
  7e419d3bd19a20bdc0ee6cbdc3946b3d265d333ecf41113e5fc234bee5ac243d8c10d3bdf9f363bd226178bdf18a34bc\
  421fbf3d493828bef2f0c03da534143ec1caf93d2d2820bddffbc83d3d991fbca651e2bd271855bee0db1dbe4ad266be\
  dbf2663c66fd9b3d6843953ddbf361bd64ed81bdecb2633de9e52dbe7fc3963c5878ea3c792ca4bdd4b9603d23ef5c3d\
  7c51f1bdb8d5dbbd6af4d63b8baf09be4a2f93bd23d1813d4a7c48bc915ddb3d344d58bcfbd1aa3d235918be2e07a1bc\
  0725cfbd59facebd5210133e68e1fdbd8069853e585dbcbd65f1a8bce73a1d3e4c072f3d2d6509bc2df58dbdebee15bd\
  8d61fe3dcee8d33bbbd3d4bd35e9a03a37a87ebb2d99803d21651e3c072321bef95c44bc629c11bd06eacbbdfbc0673d\
  8bbd74bd3920503e7cde18be3229fb3dcc03663c59c4283d0420fd3d7aa7c73db415873d1c6d3f3eafa0d7bd22c03fbd\
  eb18793d91f75bbca4a81cbed8b6d3bd265bbabd3f0833bc141b5abdf76a06beec38243e3dddcabb82b827bd5259963d\
  96c43c3ddd378ebd66da773d63262f3d3f15a33d2d594cbc70ddaa3cded9afbd0c55663daa3d4d3ef06b3ebe0838bf3d\
  ccf7b03c139ebcbd8f00f0b9ad835fbd5a1c993d154248be8b02ae3ddeb8653e354ae2bd5fb1bebd3ae29d3d04248ebc\
  4c152fbd9b4c1dbe918041bd8b6757bea90fba3dc5d91f3d76fea63d1e470cbe986230bd155211bd14410ebd2c6753bd\
  cf43b4bc64cfaabdbead2cbd9a7b553dff9658bef537bfbda86e47bd7e3c903c22e1febddca0a73d9db8123d10c4b63b\
  c95982bb52358a3cd6249abdea06f83c5ca253bdfe05cbbd9c21903d27150abe27d98d3e492cf1bd689299bd455ba63d\
  41e8e83d17a69bbdcda490bdef1d85bd2286983e5c16e8bbb0dad1bd593e833b83d7673c03e3dc3c9818913c757f56bd\
  5252be3c82cb183d46c5c33c340e993cb89492bd5867673e528bb4bde8d71b3e4c5d1c3def2c883dd16d2dbd4051023e\
  9fcfb83d773cee3dd21ef1bda7e7f7bc3104333dadc20db8dee340beaefe4fbc04294f3c9ad8febd2ac480bd1ebc71bd\
  7267293e25ce1cbe49cfed3c7027463d093f843c09f091bd8369803dae48943d7d15803d65d3b2bd60011fbca6320abc\
  1fd3b43d4ec1213e65e424becb93383e0b19f73b20b654bd0148f2bcf4586c3deaf1ab3cdccdd9bcfacfd13a8f36633e\
  caaf5f3d20f5d0bdc41e0e3d88300abde7c80fbe8ae5c13c7583b8bd473ae6bdbaf8d03dd215d53c3a3fee3df79da6bc\
  849717bdebdd3dbe21d76ebc9b2ca3bb261f0e3d84ed5abd83a90b3ddc401ebce9e12ebe839060bd49cf103e16dd6a3d\
  a2aa64bd990b76bda30008bd9d34c03dc29be3bd9a9118bc296cd4bd53f9153ecc7be9bdbd9567bd7c46953d78d1b5bd\
  6e91c03ddefe68bccc5a48bd70f3173e6ef1083e1c2379beb7fe95bc0451bbbcb7025e3e9f55b1bd08102dbe6892913c\
  a62a4c3e670172bd48d85c3e18d6f1bdd177253dc936183de80d50bd6c2bddbbd44b19bea724513ebf34f7bd566dee3c\
  5bc2a33c439080bdad8fa93d1fa4063c85b6033ccc3f903cf754a6bde1d25dbd048eb93d5fd5a63d548302bde0ddbd3d\
  2bccd0bd2ae240bdc64b433d9a05083e331e283e58989abdf556bdbd8294ad3d9372fcbdf66c82bb97138c3d8817e53d\
  7189413dacc495bdbd8c353c98b836bd1848a13d8cf60d3ec82403be911f843e5319a73b56aa4abd91de033eb3c6ccbc\
  e446413d7f930dbe19bf843d4fa1433ef44d393d07b0adbd9ee9e53d4ad9463d78d5d7bdef7605be871ed4bdd3bf30be\
  ef4ea03d3141683e233db23d92c54abd6af2e03b99a3d9bbea825ebefce38a3c28e1ce3d5cefd7bde7fc1abdf412853d\
  9cae05be6c2ec7bd01eb1a3c1171aabd5adb84bd843dd53d071e42bc47b6d83d745069bd062259bb183988bdc34a453d\
  b71c90bd02ead3bc6b43513daab176bd1f4a593ec7f5f5bdc463debd9e465a3dc6c3643cc06020be976b5bbd83ae24be\
  f9d0a63d337232bc10c1a8bd14f585bd037b113e3aa4f83d3cb6d03cf6f7a6bcb8a7543db11e4c3c641ffdbd7dcf863d\
  721ebcbda7ce733efa04c0bde334143eb1d257bce350aa3c045c353e67b679bc256edf3d63b4cb3de507d4bdc7f24ebc\
  e97af93d8e352bbde93203be992f8ebb546db1bdb181c6bd2bbceebd89337dbd76c5323ebe6893bba68810bc54bab03d\
  2700283d689b813d95f4a93de6b0c93d7721a83d251610beb90534bd933c17bd3092083ec3dcf53de0c34bbe01ef073e\
  a7c415bd2cdccdbc1a175cbde4b09dbde2ca283c34ddb1bd1ec4653de1ecc23da859063e78d8c0bd12a5463efb6d9d3d\
  c91837be524e09be07193fbe788e31bef374a03d223b803e2bd3a43d29eaa53bc7315c3cad58c33afb1c27beb4fe9bbc\
  5a880b3dd7d8b6bdf00eae3d0747473cf9b825be9ac801be46f5e83df52913bdc092d83b2a1e503d8a4087ba290cd83d\
  8fd81f3d14a78bbb5ccd6cbc2acee83c8b671abe919214bd0a3dd13de5d1b1bc6ea7373e74779abd5c90a6bdbde7bd3d\
  da5c4c3d806851be9d0dccbd531a90bdb224cb3d7bff403d1c66dcbdd535343d2116213eec96c33d5c96103e875815be\
  c6bb763da0fbe8bdfb6fffbd8473393dca33a2bbe8e3a43eb9e122be389fea3d1ffb6fbc3b5354bd1814bc3d3147ccbd\
  1e24da3d20775c3d073458bd85ac5bbbdf24a13d7dadcc3b4dccd13c0860c13cb73bdcbdd95605bc60e90dbeaf48d23c\
  fdfdd43d99d8a43dabb37cbd2190253d75c3813cb80d0bbdebc133bcc24feb3db74d59bc58356abd95a07bbd5688b2bc\
  b35efe3d8523b03d8fd3ecbda6b1013e348e6abdbd61a3bcbcceb5bc2da1e7bc79a55dbba8ad75be3cfa893cf2437c3e\
  6126e4bccbb90fbef3256c3d8a8ed43c8269a3bd5abda5bd549a48bd752606be7022d63d847c0d3ef67bb03dc937aabd\
  8e0f273c5222a5bd31e85cbd413bcfbca341bf3d994972bd5d47b23d3211403d204211be4bcd01bea11acbbdb1ba593c\
  bbf823be3cfc303dc12c66bd9945f43c306ecd3c075fce3c3f573bbedd08793dd6ad2bbd97c738bdd783d83d6e3123be\
  c566573ed1b50e3cc4740ebdaea0763ee172593d7d772fbe61afb3bd471acdbdd39b373ef30b13bdff3ffebd319f823d\
  f476f43c5da1a8bdc298f83c07e2b7bcd6da85bc4d4f30bc77af79bd55dfe0bc2db3bfbdf44c9c3d59f150be1937973d\
  c9d3ccbbc6e3af3db8c5c03daf151c3e1a23253d898d143e33944b3b985ab43d87992e3d18f61d3da0150bbdc0ffef3c\
  ffd980bd0a88f8bd1574f4bd5a5f123d770c143e743c9cbd87c2b5b92024043d777a4e3b3c9e76bd6ada42bd45dc8d3d\
  d778173c2897a1bdb48d8ebd99ea37bcbfc6393d0f7b723e248771bed8cb133ec3120fbd405197bd6df3a43deaf14b3d\
  0297a73dd478ebbd5d4b133c4654393e44cc173e44acc8bd1563ce3d485f653d889b1dbe1f70b1bd7697093c01022ebe\
  5b02473cd131da3da36b853d3dbe2ebd570717be498811bee75f80bdaa3af5bd73deedbd514d573d28345cbd56a74c3d\
  a64524be1907eebdd9b8ab3d3eddc2bd4a49aabd59cfb3bd62a51abe95a3703d0c65143dbc821dbba11474bdbfb18e3c\
  9d6770bd269b8bbcc5946e3d54c9363d0813573eedb06cbc14879bbdcdf9f33d76ad103e2fe4ddbdf63d12bd812a03be\
  505f883db5dc8abdff8993bddc1794bd4d46183ee78f513d4413513e7cd7e6bd0d0708be3f98babd29bf89becf0749bd\
  c37e90bd7700853eead39abd0f2e023e1b2566bca1988bbd195d6c3eb707463cdfa91d3e1509da3d698716bdf2c3cebc\
  8e68333dd89c90bb39f970bd2e90ae3bb239bcbde382253e5cd995bd50ad8b3d3fbdf73cd454583dd14cc0bbe126123e\
  0d0271bc967b11bc12975ebc7c5214bd5738953d0a20183dc3ad10bcfc489abd83299c3d5c41143e4a88a2bd8a0ca23d\
  c5871b3dab18663b54af29bcb607b13c0240c5bb48f4f7bd4f25c53b6af2753e2112aa3c035aaebd3cebce3d0961b03c\
  d960f8bd8758bdbd1b2bf7bdc6a31dbe6bc6e63d1bd7483ed9dd043edcf061bb106f483ce137e7bd4d0a4bbe5e69aabc\
  8c02c93d8de5bfbdf4a7363c5d7a9e3d49da31bedbb61fbe0b70b33bbfb213bb78399cbdb4ac4b3df7dc82bd718c933d\
  2fed0c3d0aa4e8bc1e55d0bdb825c93cb6adcabdb52e77bd3ac88e3d1c0a04be6b86683e4faab3bd536607bea0d7c23d\
  690ca23d26ff31be8a7649bd6becffbd2687193e0c78853bfbfcdfbd116178bdae4c3c3e24d3993dd2010e3d0dd98fbc\
  725b883cf7caa33c2dd2ebbd463f2d3dd1d72fbd8877503e972832beb2e0d53d3ad0c83a19922b3da8c23c3e96b487bc\
  d5218a3d331d213d0e5766bd9e78d2bca645ca3d9aa32cbda576c1bd9afeed3c1fa988bdcf3280bd5907d9bd78cd133d\
  7cc44f3ece85b43bf60d96bd22fe093c6de68f3b4b6c4d3dfb45a33d6271143e21554b3def718dbd3d348bbc10457abd\
  0ecdf53d5190cb3d19174ebec0b3073ed1eed9bc7cb6e0bb6a6ce93cd81065bddea85f3d6f06c8bd8368a8bc094d063e\
  222fdf3daa1c23be9363983decc8f53caf8f58bea62359bd6bc215beabfc2cbecdfb513d7d67993d867acd3c9de3c3bb\
  a14e9ebd9ca9a3bc4a2c3abe5558d1bdf5af6a3d25d1c2bd8958013e6608dc3dab0839be873b13be0323173d25f077bd\
  9daf26bedec59d3d4cfa85bd40f77c3d005a953cef9e71bd65c790bb50a46f3cac4319bd31771dbda848853bdfbad7bc\
  297e843ed98c71bdae9480bd2227ef3deb9e1c3d7c2d27bebe1010bd1bb093bda425813da0a13fbd868658bdfe1fa4bd\
  b62b7d3eabab93bcc9130f3e8b0fbabd1681e03c51daeebb5941cebdea2921bc16f97fbc7c347e3e03b084bd193aca3d\
  7b1b27bc6b958b3dd47e6c3e7be4d23ba620003eb7f9e33d8a2ce3bb5a4565bd2fb5c33dde1466bd2ec9bf3c0ed1f7bc\
  e94818be9f2a96bc0acc9dbd206ee93d5b668d3d46da883dd2c69fbdcf644d3da158733dfa01243d4088923d70b2183e\
  dae48b3c6be6673d4765dfbd72d190bded2ee93c39bc303ee87ee6bddbea433e6fa5a0bc8913ec3d4e24683a6938e6bc\
  475b083e904c3cbeaea7623d65a4f63d1da4133e95d5e6bd1a0e0c3e88966b3cbad3dcbd8eec13bef685acbd20a160be\
  2c53e0bcdae50c3e48d1913d012951bdbee2d7bdbddf713d932598bd910f943c5312bfbd842909bd406f133c89f5be3d\
  3ff940bea860fbbdea88ba3bcfa5cebdd0ceb0bda74104bdfd88bc3cac2d4d3db5516bbd5386b33d9ec501be62d32a3d\
  285087bd292525bed795fa3d78abd4bdf8d0553e9de6b0bdd1ed2abc1e4f133e04fe8f3cc7d45dbcd0514fbd3932103b\
  317e1e3ec0db873cc8be4dbda715e8bcd334dcbd0251ed3dd831b93cbecd12be01f661bdd34d01bc689989bd832a813d\
  263d84bd751c743e516cbfbdb377343e5a134ebd72d6053cb729fd3d668a6d3d2ff79e3b7a40693e44ae97bd0164f0bc\
  ea72f13d544e433be7d645bec2abbabd3915d8bdb548143d4bc413bdd9aff4bc47aaec3ddc01dd3c793f433d9d05fa3c\
  989fd33dc6b3b23c63d7f83cc593c4bc9915da3d29e2ccbdaba648bcc38c3fbd4693b03d0c48463e318c44bef00fb93b\
  f0ea1abd3610f6bd8860063d94754d3c33f5a63c49c37cbed54e093e421d433eba1d1a3e1da7d5bd4f96b33d8f1493bc\
  7486c5bd3d34a1bd13fafcbd29a43dbe1d2f4b3dd2725d3e3b69b53daa30673bc1f8253d0b28803c19b34bbec53f023e\
  3bfe283d13b0273bae32cbbcc7390e3e1d3634be452f32be37897e3d7ff62dbc7a2227bd487840ba7776223deb0d913d\
  c31c32bdcda3933c9634dbbd967d7c3d34623ebde8499ebd5241223dcca3c93d7fc7313eb40187bdd16b7dbdadaf013e\
  8a65723d10d225be4c40383d2f9748bebcdde13d4bd04b3d60b4dfbdad0b01be4caab53d28f3ce3dd042b4bc057330bd\
  190617bd33ecd3bc7d0514be4759293e6627b3bda413023e0e90d0bd19af583d55fdd23cb616b8bc4e6d2a3ef18ed9bd\
  5d288a3d71c0263d053521bd77c64d3c50d0063e7800b8bd706a84bd362b803c9118c1bd9b99a5bde486c5bd77d1c2bd\
  f4f20b3ecbfdb6bb7550cd3c7a6c543d0f53503d22e2f43c3e15b73dc77d7d3d8783e33c5fbab5bd772a34bda05287bd\
  38f34a3de8294e3eac3c34becb90063def0ec1bde85c0dbdcb1ca0bdd94e14bda7b7bc3d2c87b5bc86c5003db251413e\
  b529c33d860d31bea86c9e3c9bee1abd4b4a56be4c3d2fbe848b6ebd1d1447be9947163dbba5813ca789953d570e80bd\
  142f84bdf20622bc6ec2b83d4b3adb3dce6327be616cbf3d90881dbe014f7c3d5be657bedafafcbc65f6d83c533addbd\
  8e84123cd4fc6bbdc634983dc75b86bdcddd0fbd5904083def1215bec0afc93d3e74863c40ce16bda2e557b957b2cb3b\
  2851203e584bb2bdf409413d5100f53c7510123e5908f1bd308e3abd887e2ebe077e063efcda343c467082bdebb679bc\
  ec57a3bbf0c2d43daec6f23dba6065bd9a9fc63d44133a39eba1bdbd4c457339858c42be730d843e30ba193d4963dc3d\
  e3b59c3d225b0c3d7b46773c5d66973cbd86a8bca8b3123ec5c8fa3c4594af3c4fe4fc3dcc75133e48b82abe197a063e\
  6827afbcaaefa7bdc595a1bb8439973c673aef3cd029e2bdba66183d6b0ae4bb0d51d1bd0acb3e3d2dbcb4bc823f9f3c\
  952c103ea01420be5aef123dc285b8bd6dca173e95cede3de892e9bdf759153ed21f17beec7197bdacc992bdfd11db3d\
  78ae6a3dad357abe48f3f23de3da453e051f4e3dc20812beff8baf3d282fa8bd880a5abd17a628be3f55a8bd70a872be\
  aa97243c9c75903d487d8c3df27b21bd3ce4adbddddad63d297fcabd66f1013e82e49abdcc59883def2d24bc9d18ca3d\
  a6dc91bed6e0ecbd2023a5bc5e11c4bcf09523bd98311dbce5969a3d936192bcc53de4bda13eaf3dd2ca73bd6157463d\
  1e0bd3bd2c4b39bec2d69c3dd34b2a3d2d120b3efc6c5bbdac0c253d79b8063e5424683de2320ebe94f4b23dbc8953bd\
  4998323ebb7604bc6750b5bcf3cfc8396eff3abdbcb4103ee25781bb819ffbbdfdc2b1bda7656abdd0a13bbde2190d3e\
  919d98bd96e2313e097e52bdc7a4313eb96dcc3d5ec9393b258ff13c0c4f2f3dd65362bc96be5f3d56e5bfbd11ddb6bc\
  3fea043e202a52bcdbab4ebe160d0fbde6ef95bd1eecddbdb5070a3d331f4cbd8bf8493e8ddcd7bd5c52c23c3fc4923d\
  69e8cd3c9a6a81bc55b1e63c9da9db3c696d343d7b1540bdfd9639bd589aa4bdc758c43c15ac323e63b434be41d0c53c\
  ac7ec3bdde02aebdade670bd8792f5bc02512e3dbc416bbe3582823d3e863f3e9843b8bb8abf2ebdb4515f3d1426163d\
  a36667bd2c2efebd66087ebcf4355bbebb9fc53dcd3a483d82d7ba3d0f7223be9efc6fbde5f0a3bdcff8f2bc5b1ebebd\
  2d6c563d379acebdf6d1dcbcb337cf3d16a543be53f7eebd597b6ebca1e1673cca07e0bd99f4823d40fdd2bcef73843d\
  f871483d9f09b4bc5eb016bd09ef57bd2f53f7bdad3487bd183ca83dfcd7dbbd16d09d3ed74593bc7919f5bd89c91b3e\
  c3b1b13d91a081bcce7a25befe64b03c3169813e8c07a0bd450b96bde19a28bd5cc8403c52960d3d26339d3de93b18bd\
  6927bb3b2bf2283dfa6c46bd99d0353d638ecdbd79352a3e743a03be72fbdf3c7bff40bddc99d43de9a109bd2386063e\
  bcbdd53da4130b3ee6b4e2bd7e3983bc1953723c11787e3d5d501fbe2bb74dbb409ed6bdeec2dabb3f34f0bd41da06be\
  227d0a3e296696bd0467603dd3b4953c2723c53df1aaf23b4452ff3d66f7da3c7b25463dde40d7bd73ede3ba32554ebc\
  6328933d0d32733e0e4412be333c093ead469bbd6c52babce02104bd92dda0bc72384ebb39d895bd39f2ee3aa5e34f3e\
  a6d9a93de4660dbe0aadbd3d1a22033caeb53bbe0e9bcabc1d6dfbbd2abae6bdd319ef3d70a5243dfa18d13d909f82ba\
  208bd5bc4d4c26be5167a8bdf4b6883b472b2e3d5fb609be03cc3e3c0b8ca93cc5f75fbedb23f8bdceadb33d37b277bb\
  c6615ebd9f6b45bd5c8ca0bcc811c43dafbb08bec056913d9649f0bdab73243be605edbd3588783cd2f31f3e4b7490bd\
  62c91d3e25ef2abcc56917bdcc63c33d6293c83d5c6c40be58af65bdcda11cbc380f4d3eb970b0bd882ae0bdc2dd80bb\
  cd34573ef8c672bdc469453eae17c5bd1038cc3d900c22ba3d7eb7bd304c96bdf5d67fbcb1da443ec5431fbe2be79f3d\
  e48c923dd2b39cbc2167033e7af936bc1245063d86cb823d5b7272bdcb2fd2bdc991083ea81f2a3d48227cbd4924143d\
  8b1e0dbea23a92bd9aaab8bb9db81e3ef8f8213e15a139bd3c2badbdf48599bc70345dbd8c58aa3d36ad6d3c1ee4e33d\
  27fb84bd09096dbc3baf82bc3d8467bdad22143e43ce0e3ef1acd3bdb5493f3eccff9f3cc2691d3b0ec7023e98b279bd\
  942d453da1d153bdca5d1a3dde6d283e9a06383d90318abdf28c923dae56713d49c10abe8ff493bd848a0bbe927699bd\
  a154863d16d3013ef2dcf83d92bcc4bbcdcb00bd008ed6bda53d34be1c86623c35f5b33d276d29bdaff98f3ca9c6633d\
  fe9b84be90f658be99649dbcc75ee13bf49a26bcda249d3c0257ddbd98ce083dc4dcdc3c3a11263d4a5421be26b875bd\
  c9a270bd32d617bdf24dbf3d7be919beb6af403e1180cf3b800cc7bd9b0a443d9536a13d019739be6ab8e4bda878b3bd\
  054eff3dc5e1ee3b7dd8fbbd3b726f3c57123c3e4b9408bcb9f0d53de93a003c8fac993de3ed43bcde2712befaf5a8bd\
  eda6eebcdb1e783e419b27be7be6043ec3886d3d19166b3d67318e3ec1fb143c23eaa53d1f35353d1819293dc1edc03c\
  a5abb13d544046bb6d998bbca8a08f3de241bfbd9c18e1bd5415e3bde045bd3dae19e73d1746a73de23763bd06a3f0bc\
  a3066aba00f4a0bbdfc1193ded04233e2593013cef4a4ebc14eb1cbc7f70babd2be8f03d2b9e2f3e5f1f1bbedacbf53d\
  00717cbdcc3991bd0ade763d995beabc660d053d95eab9bd6b957abc88ca813d1de7923d9a88e1bd36ace23c09f0203d\
  f0e61cbe9b0653bdcdc8c7bd6ad707be0576083eb0f8d93dd6c4653dabd1d33ab8af81bd44eca2bdc0303cbe126e8fbd\
  1654af3dc4d32abd023e6e3d2434b83c928619be131d34bece38fa3b6f3aa9bcc330d9bdc1a5c53a777086bd9a52a53c\
  f4e13a3d1c75e53cf50ecfbd25ee313d8de87ebcf16fefbbfb755b3c7a638fbdaef1543e49a00e3d4957babd5e45313e\
  8fb55d3d9ee005be00fcb6bd9b62dfbd20612b3c9d5dba3cc21445bdef019bbcaa7f3b3ede9c923cee42de3dab12843d\
  acbba0bce051e63a00f65fbe6f17a5bda0e0e3bdf360493e969bdabd465e703dca59cabdc06a743dd96c9b3e55fd7e3c\
  d1b5073e9bb6bb3d2f9e6c3ca7de113b653b543d2cca8bbce83f813cda53df3dd75736bedd7dc6bd008208be759c8b3d\
  218c143e1c232d3d3e073abd41e98e3cb8d5973dd15a563d4437873d15a0253e1a7a513b370b87bd140386bdaa24d5bd\
  9ee3123e6425393e51c165bed5b4f23da0a7a6bd1533053d5856713da61acebde73e123c0cd046bef4feeb3d81da633e\
  aaecfc3d543f08be55a1e23dc202dfbc0ce1cfbda34863bb0b97abbd286d06be5a82e33d9f2e003ee6d9a53d3be7633c\
  1c2bb6bab9501abe897643be4b18523dc778903b802224bd2b89233d92edd43d53088ebe462d58be31e5203d3c1f303d\
  1f6240bde14868bd965be73a8623573d9df0eabd8b4f02bd084ea6bdf65d7c3dc4be5bbd42b0a1bd4af8933deb0ba5bb\
  e822193ee185333dc182b8bde8fb0b3e9abe933df45d41be9bd66bbd0b441cbe8630093e98df89bd9705fabdb742ccbc\
  27b6343e6108123db930fb3dea3e24bd259882bba7026cbde2e395bdd517833c446c83bd2982943d0088a4bd50bb843d\
  2bb7973de5193d3c9069b93d5b911dbd651baebc3b016d3c826776bd3b05f7bca8edfe3ddd54acbce33559bdaf4f953d\
  0df2cbbdb2c235be7b8aa6bdabaf543d8377573e7cc800bd2f2ba8bced8584bbcfe09a3d3337ef3cc425223d70f71a3e\
  7bccbd3c9ad30ebc874c7ebc541fd0bd3c9504bd1346873e37a60bbe961a9e3d1503cbbdf7cb8dbdab02c33cf754b6bd\
  babbe3bb4f6b85be8d7f1e3ea3fb233ee5aea03d919da9bd5b46093ee083c9bd892e8abd363badbd349012be7ead3fbe\
  4dd9843d3305243eaa05a53d3bd74e3d6cbf6abd6791343de9a92abe4ad1be3daed09fbbd59e5abd73b0c03d5817b33d\
  a39867bed77d33be14e774bc831cf93c14410fbde93ccabcf93c853c0ae2813d0184f4bdbe08153d64ffe0bd4cb44b3d\
  09bbd0bd0d250bbe35d4013e5d5b513d312a153e82d90fbd7179223c57c3793e1c71f33cbb6fd2bd2987a73d35f1b3bd\
  a041033efb941dbc5517bbbdbf7909bd9c23603d4fbb923d04d5573d3e7616bea5d496bdb60881bdab1086bc2b160c3e\
  edc88ebd0955dd3cfd42c0bd48cc843d44f6f03d21302dbded05b03db11f37bc87da343df5f1c43dfa5dc5bde36c0bbc\
  9f1bad3dc0e813bdb61edcbda16fc03cb122d7bdc28adabd1afb6ebcc1f987bd5ad74f3e1b0cf8bc646d173dc8ccae3d\
  bc726d3dc127edbc844fa13dec4f9b3d3ae0733deb5278bd17850cbca21fe8bdce88a2bbc87e5f3e75d665bed7c0e93c\
  f0cba9bd43c3c7bd48bc17bc2ac3dcbc0964873bf53947be1b89693d04e75b3ee759483d516e61bd39b75b3d18b3a73d\
  524408be7eead3bd2b7520be93a419be3ad9513da34b323e44d51e3e5d2fdb3c7ed3cdbcb41ea9bd342b05be464abd3d\
  11e1f53da3e387bdf432403df9f3fe3d327612bebc3621be96fa8cbda569cfbc147092bd8394073d3d3aabbd214c6b3d\
  161b3bbd622e94bc8d391bbec4e3d4bb9aa216be6455c8bdc037f63deba826bea4da873ea39d87bd9ce28cbd404e0e3e\
  dec3943dd462cdbd63e057bd4214dfbdf898d83d54160abdd9b8b6bd1630953cfbef1e3d00275fbb38370c3bd244fdbd\
  6916333ce4b2ccbce215edbd0e32753d91aba7bd9e41f63d44ea67be6c53c73de3508a3c1e62003c4b64513e30ad283d\
  4d2dc23b8da0453e4accf7bde46cb43c85ee093d1489a53ce6f746bd5e7bd23ce6709abd4a1720bd428d6abdc60d023d\
  2c7f303ee4eb6dbc6e43ab3c94f8d53c2c2cdabcc47d98bd18f93e3d5e26c13d3835e83c5cc6c0bd1453523cc48581bd\
  f886543d2c34383eec433dbe3e81b73d6e565bbd962fbebda48eb43cca10e8bc3b53013e93d6c7bd5f4c003d353c703e\
  df12643ed4759dbdda08653dcae0e13daed416be57589abc106cc3bc260447bed646883d5d4f3c3d3a29343d990bfcbd\
  322305be3b35073d293f29ba1045c6bdb142543da507053eb2e04f3d7ca557bd863e5ebe9a57a2bdee08923d1f1e9dbd\
  65394bbe2e63adbc7061643c165b263d20d4283dd50aa6bcdd4c783ce655e93dfae04d3dc38f3dbd3bb8a6bd713aeabc\
  9e78583e7b3a86bd1a7ebcbd5945523df5a0223d392082bd53ecd1bdca6b08bebeefea3d4bb19c3d42a59dbde3aa19bd\
  e9553d3df2ac27bdfbfbb93d9737b4bb3934c4bd2182dbbcb6cb46bed3a1fabdc99c81bd67a89a3e32742bbe80c5c73b\
  7444cc3d781622bd11291b3e7fedb43c147de93db841833d1ffeb83d5ea7073c29f0e23c5afaa23c938407bd4c21333d\
  242eb5bd042d823de896a0be431b853dcfc2073d98136abd0a49523d6555903da4c3a0bcab812e3cd059a23cb7c6be3d\
  af29173d069cf7bc4700e1bd0c7370bc7c18aabd8bd5a33d635a0dbe3d0bb0bcfda5263d06ae35bdef9c83bdd487823d\
  668fcd3d08bdcb3ddacfa53d3d99123e30d8ea3dd555fcbd9b08f53da179cabd9a9f91bef7fcb6bd53bd18be5cfe82be\
  54a1d83dfd5a03bda5899f3c63c5803a398dd6bd4ddb10be33db653ced20a33d735a473ded68a33c160fa7bd15358ebd\
  e7710cbe67b135bd6543313e1de5103d041769bd3ad662bc54e3563d822afc3c72977fbc61b51cbdd5dab9bd499a123e\
  d7b68dbd2e9cd73cb2236fbda13049bb8aaad83caeac40bd007a3dbcb2e0d03d97e4f53d18f965be6547a53c4da579bd\
  4dda503e756b05bdca0d0cbea596d0bd13121f3ec018e63cc329f23dbd67d3bd7c86393e086b703d677005be29153cbd\
  5bb511be88775a3e8cdc0fbd06d1c73d8613433c3de785bd4b40a03bf57faa3db68a3abc36dbbf3d48a7c6bc8a0bdebc\
  ff82473d2504813d32950abebb26203d9725c1bdd8bf45bd55bfc43dc300babc79239d3dcb53a3bd2f83a5bca7a9babd\
  033dbbbd86b8873d99fb2d3d909bd33df656e83d42a2e5bc7f57623defb2193c0e740c3ec36f953d572efebc8a32733e\
  ce98873d2c6ba43b9f4da43dbaf61bbd10f5e03df76963bd5018873d74930d3e9167b43dc00eeabde482b73d16a9acbd\
  b5690abef221c5bd524281bd46d037bef32eb43ae185de3dc965843d29717c3d5aee59be1b5de6bdf349e7bd37ad36be\
  610e38bdf886c3baa752ef3d28298c3bcc4029be52b401be3a5d633c4c2ed0bdb89116be9383413d72b1f9bc740ee93c\
  27734cbdb2285d3c179448bb60eb063e884befbd1ffaa0bc550214bd84bd91bba026a83ed0651b3e8fb3bfbd979eea3c\
  0623973d99115fbec310d7bbe01b683d9fa8cc3d4d16c0bcf563e6bc7bad43bdfe2e173e93699e3d3813273ef6fc4bbd\
  a806133cea15c1bca58d02be35d19a3b6a8a05bbd4ed893e5032f8bdb286bd3dacfada3cb6f8b73c24f8bd3deebaafbb\
  93cf9f3d3cc10ebddadb17bdaef6213c136adcbc85257e3d6e131c3cbc2291bda5e042be3046b9bc25531abe49513e3d\
  b0169f3d620dcf3c496e3b3d0612283e059cf83d3c9ff4bc59c117bd9d3f343de714a6bc58b9303d644088bdd68007be\
  3e61edbc6228a23cd36c7ebd9844353e7bca62bd3a2c283dfb1c923dd077f1bd"

/-- tests/data/simple_vocab.fifu -/
def simpleVocabFifu : Bytes := hex "\
  46694675000000000200000001000000020000000100000056020000000000002b000000000000000500000050617269\
  730a0000004672616e6b7265696368060000004265726c696e0b000000446575747363686c616e640f00000057657374\
  646575747363686c616e64070000005361636873656e110000004d697474656c646575747363686c616e640b00000042\
  72616e64656e6275726705000000506f6c656e0f0000004e6f7264646575747363686c616e640900000044c3a46e656d\
  61726b120000005363686c65737769672d486f6c737465696e0b000000c3967374657272656963680600000042617965\
  726e0a0000005468c3bc72696e67656e0e00000042756e64657372657075626c696b0e0000004f737464657574736368\
  6c616e640800000050726575c39f656e0900000044657574736368656e0600000048657373656e07000000506f747364\
  616d0b0000004d65636b6c656e627572670d0000004e69656465727361636873656e0700000048616d627572670f0000\
  0053c3bc64646575747363686c616e64060000004272656d656e08000000527573736c616e640c000000446575747363\
  686c616e647303000000425244070000004c69746175656e160000004d65636b6c656e627572672d566f72706f6d6d65\
  726e030000004444520b000000576573742d4265726c696e08000000536161726c616e64080000004c6574746c616e64\
  0800000048616e6e6f76657207000000526f73746f636b0e0000005361636873656e2d416e68616c7407000000506f6d\
  6d65726e08000000536368776564656e0800000044657574736368650900000064657574736368656e09000000576573\
  7466616c656e0200000042430000000000002b00000000000000640000000a00000000002740443d44e9a13cba91a23d\
  ee85373de8d05b3c29a861be7046c33d4e7ffcbd90960bbeb96c91bead3fe4bd65be81bed591233cfeff29bd0e886e3c\
  e5e2fcbc30dab13c1dee2abd49b7da3d19e6353e4b6ad33ce8c70e3c6de887bd190a23bd0dc4edbd0c3ba73dbf3f143e\
  cec4c73d4612443d514a323d4c352a3da493b93d44e7863d8830c33d887068bd1edbdf3da60043bdd38eedbc40a89bbd\
  b4b4833d2c50dd3c1ffd41bd85aa9a3c3234fe3d278c023e4fc2c4bca2de5f3e820fa2bdc9614a3e2c4e98bc7c7791bd\
  9d690ebd58eb0f3d3e6aee3c99ab0d3ec94850bec2a1c03dd40591bd224584bd9218d6bc9b56cbbd63ff313ecf6b8abd\
  d4a2203e9238e53dd8f3f2bdc52007bdce96023e256c163d09b8f73ceb05b6bc5042863d09654b3bc885a33c0f20653b\
  03e089bd8855693dfa22debd37a5293ed30543beeca2da3da1ac38be36b2323d1342babd147d8ebd397192bdacdfa3bd\
  018b9c3d260bf03dd395563d3f1d883bdd5999bca414303ea33fc73d40f9d03b607f0b3eb2691ebdc64fcd3c35753c3c\
  0cae943dbece27bdf7a0df3c5d7fb33d3e7e183e01fa42bdba78f2bd62c949bc245924bdf9a858bdc90b4bbe96c482be\
  c28869bd39eded3d314a1abd8b1985bd29b26f3d4305183cc104e4bc11de97bc6ee5963e8bd6983dbc53c5bcf49924be\
  732ebd3ce6f41e3d0b88dd3d68664b3e416eef3dacf1693d4a7a403ed59440bd7933ac3de61a0fbda7875b3d173bafbd\
  82d7023ed7b9523d6ce31b3de49037be8515ef3b02583f3d0553febdd419ac3d78d6f33dd42a123e476d7fbcc5e0923d\
  0ee77b3de7ed253e3ba79fbd1525393d1e8d7d3c2849d63d56f1c1bd4b8f77bc03306cbea8ab163e244212396d860cbb\
  d216a03b30ec82bd3fba853d8293c8bda5c4debb1e1dd3bc3d3614bdc8fdcbbcd1c4133e30dec6bcebf0e8bb7439ee3c\
  a81a77bc729063bd8fd5f0bc9445dfbb539936bc8c78113dcd8b5fbe8c2aed3dd96203beec487e3bdde441beed0f9abc\
  4c00a0bd665045be278592bd520f1abe7294e63cca36463da68a8f3d79ffb83dea57383e1940fb3d1b1f9c3d0c873abd\
  41b6613d51dadb3a251c4e3c02c01c3dff0acf3d2cdcaf3de41837be624d9a3d14d13d3ed0fae23d0e6d16be2fd2ee3d\
  01065fbd65991fbe012f14be3ae1c8bdedf58fbe7e3b783d4ba0053d3f423d3d5701ebbda29ebfbd06c20c3ca7869ebd\
  6f4ea73c9d10ac3c7c169dbcb7b0413d95c114bcd4226dbee3ad6ebdee62773d3feb51bd85bec2bdfac0febbe48506bd\
  5eb34f3d65e4b13c6e3ba63b9fdedebde491e53d1e96af3b792252bd353c3c3c8b6c8a3c58b9553ec3f6203d21f7b33b\
  ecf8ee3d27a1853d64a238be1d1f97bcbda3a9bdf05f433ee70dc6bc9a53d5bdda735fbdc250803dda35513dfae3283e\
  f130d2bd284c98bca88de33a265a09beb2a76f3d23621cbe9c6d963e23a8d5bd31c4f83ddd2f3c3dc9c4df3a38da993d\
  e2540c3d2f61253e14c7963d2df8a63d76faeeba7ae2fe3c5df67f3deee1a8bcc9da2c3d6a87fcbd046a1dbd1c3657bd\
  7612813c5f17aa3d8da2c0bd428ae43cc90d5d3d9cd144bda96f4ebd842ecc3d2ac5d63c03bdf43cee1b69bd125a07bd\
  4b165ebde228f93dd138373ebccf16be1fab373e5ff585bdbe32bfbd2ebc923dd7b1693da8dbb93da774a8bdfc21133e\
  30a83c3e5fe02dbdcff6dfbdee9903bd8f71933c941058bdd8050bbe153e58be03d98ebdbbf1383efd06c63c211fdcbd\
  122786bdfd3118bd2ac7833d39e696bd7587fb3c9887be3d152f083d8fb36ebd1bb2fbbcd57e33bc3c63db3cecc0083e\
  124ba0bdbf5a9fbc9c36393e306db8bbd3de233d7cfc8dbd63b17bbc4d6d77bdee7d873ea662173e0eabc43d4121c9bd\
  b82d053cb75c6b3ede7ec13c1595583d1c7e333df789ac3cbb3dab3cd87e13be18a0563d18d8183e3f8397bd3a7d2c3d\
  ad5a17bd5a8f263d7402e1bdf0b109bc7604cfbd9bf1073e1b90b73dc4cf9fbce3044a3e57481cbe3197e73dd4d464bd\
  c524b1bd9841b2bc456f173ee9695b3df3aa273e6fe71038d4c7993d45aaf53de6ece63c1d994f3ca9b3dd3dc79a893d\
  3e13f73ddd3d21be1d0c15bee6bd00be035f4cbd936e1abd693bbcbdd234013d6ffb04bd8569b0bdd487c0bc8c1f18be\
  0e0b64bda61d04bc126906be2c6fc73cc5a0033eef09fcbc2736263e7550d5bdc4644c3dfd8302be1e02213d4d5e073e\
  72b4093ee3fc7f3c29124cbe397fd33d003c2a3eb939c7bc4b1b1bbdc6cdb73d694f403d84c09ebd0857f4bd0b360ebe\
  3cc989bd9f718e3eb1b7bcbb08ba40bc11da72bdbc960cbe47f2cf3cb6c871be851d4dbdbaf61b3ee7322a3d339ef1bd\
  201324bdd145273de79393bd53c0793d4b08adbd4f788c3cf4f81a3e1f1292bdda2fed3c8c6e3fbd8421b83ca1363bbd\
  eac8983e60d7f23c8cc98c3d2fa5fbbd7f321e3d55386d3ebd36fabc64ca3d3d36372d3d0721b93de63a97b82914b4bd\
  d9eea73df82bef3c6e05863b6bb7003ca2af9e3bbac38b3c48701a3d5bf3343c9e91f7bd7565753d6b36253e878a2bbd\
  4333b03c691264bd64955d3e6a1b95bd344793bd1e2ab0bdfeb19a3d910a413d8550633de0581b3dd16c253d7629ab3d\
  900e1cbd0c26a9bd2ca5b43dfbc7283dcf1d063e432f44befd96c5bde39c23be03e400bd59c887bb77a7bebdd8e9063e\
  84e6e33cabef1bbe3414c5bcfc7708be39479f39e1c218bdba9043bd4f06503d1468133bc7cf89bdfd7d183ef86d4ebe\
  c8c866bb6097f5bd78d3f63c4814083ecc5e263d7e89b6bd17edacbdeef4813a7121893ee752f63cc9ac31bda4140d3d\
  9ca4e83d89c7e8bda7646fbdf8176cbe5a9e923c97660c3e3b36e33d011e9b3d12a6fd3c04c61a3d1943373c02c04fbe\
  207d3d3ef4c0ee3d2b627ebdbe19d7bd272bff3d510696bdf8c5fcbc36f90e3deb161dbefd605b3b8a96fc3dc99f8ebd\
  caba333d260439be3b8470bd21b621be1b2b6c3de2cca43cbf13953aff30f5b8fb283dbe3486543ecd73e5bd50acbc3c\
  57044dbdfa2934bc70e720bed3a8aebd9180d9bd20c79fbc7c64afbddc369f3c81d6debc0d7a3a3e5af0603bab9138bd\
  32aba3bd203bbc3d96e1e13d11f60ebee14c9d3dc2eecebd6f6a2d3e14cd34beeba4483d6a3bfcbdbe8b53bc3eda533e\
  54ab443c44f4623d075b9d3d81bef93b9bf87dbde587923df65f15bd256d34bdb003333eaf7eb5bd704990bd49b8cfbd\
  69849a3d77f6683d58ffc93d36e380bda28b943d3c0198bd01a784bd7c993d3d5a19a03dbc137f3aa5f714be029f833d\
  feaa1fba0ee5c43da7b3a33bb858cdbd661ad33c28515cbdab4c05be4d419ebc2676943cf111febce22000be8887a73d\
  cec10c3ea3be963dc2aeafbd0db48c3d61658b3df97f30be008d16beadda24be1291323cb391513eff0fea3c58d001bd\
  6943acbd276faabc05c2473d8446a0bee01eaf3dad8baa3d9e61b2bdfd80cdbde79caabd3d561dbcb1b2afbd6465a53d\
  c3921bbec0d44c3c4c69593d9b25e13c366e51bce6f286bde87fda3b9214b4bdb24ede3da7a4943dc2b24d3c001ccc3b\
  9e6164bd3f7da03efc6458bd9a0529bde297c73c1ce7e13dac5c20becd83ebbd0e498dbdb86ae13d32a5f0bdf96c023d\
  273c9abdabdcef3dc269c53cfcb51f3de210f9ba2acd24bd0a74353e0f370cbd11623c3d3ee2c9bde326ec3d137a58be\
  947ca83c99941fbde922763d48c908bccb21883cb31e133df119053ed7dde63b93c168bdfa7ce43de86c8f3d57bca33d\
  e8de0c3e25ef40be36f11abe18d155be719ee33d005c093e9ccb313cf391f8bc69e84d3deb99cebc36a3dfbcb039843d\
  9b139ebdc009bebdaf40e9bd1b42853d51f1923dc47f0b3d6a40de3d9576cfbda2f241bda210533c5a2bbabce82594bd\
  1d4e85bd13212abd84a89bbdc530833d3e7b3b3ee6db2b3c74ca94bd7a74023b8f1b663d98f3ccbd7b32213db52f55be\
  7d2d193d00852f3e97a4003c88ffa33d0db1b63cb5879dbd0a5d1dbdf6058dbea02fcf3ca32a0f3ee4323bbd3211833c\
  be8bc93d419849be8356abbd782216bdd69652beebc9f9bd7a89f83c770601bd1a8a433dc91c82bd5dc207be560c48be\
  0b431a3d55b0703da57d30bd20ad8ebc932347be3892413e32a801bdfcfb90bd08de773d8923fdbb05eb1bbe5acb1cbe\
  f2639fbdee7f993de2eac43b36b27b3c2118543c8a746b3e642cc5bdf211803d797ea3bde20a9b3d3c41a93d97ff91bd\
  a9149fbd3fbeacbd4bed3c3ea52217bea649443dc94475bc32e10d3da756143e3cedb73dd7fcf43d85d2243d7b74e6ba\
  22e4463c6de2c03c7814d0bde55a1abd4b05893de752d0bd254306be8d4f07be8452e43da2ea7d3dbb14a53d68d066bd\
  0aefc43d7a7630bcefc99dbd018baa3c0511ab3deeb8da3c3d30b5bd1008a23db7848dbb00acb73d7bb9043dc4422abe\
  ee0f3b3e7543eb3d227c33bd5f704a3ddd451a3cc63dd5bb4d15aa3dc65fac3dd8c73d3ecfd9993c91a9abbc7370c63c\
  07a6dcbc91bc42be4c330abd818c66be034b4ebdf99c3f3ec82f37bdf358a5bdecddce3deef377bd8de211be00a906be\
  e13fb73d2b7e293e9b2f123ca65114be983e1c3cfe7527bc6b3b553b2484523e61cdbb3d2315a33bd822153e1e4e14bd\
  32073a3df14625be3c6ba5bda18409becefd313e9cc4333c9999073e256f1bbe4684c53b5a971037ee0539bd5012383d\
  97b3953cea4a163d238e59be9f89b3bd8e8f8b3d5765fb3d232adcbd0e2582bdc9a170bde9a4443e4617aabde377f23c\
  987124bee7a54f3edcef4b3e0d6e56bd395ca33bafc31dbe1b310f3ef78daabd227ee1bccbf4fabd18fa783bcc478f3c\
  d3d7fb3d5c098abcccf5133d58c8ba3ba905b2bd473e453dff1c893d8a3500be075eb73d5e7701be3489e7bd29b747bc\
  fa69c73c0331a7bb7a19d1bc39d2e3bce00d32bd0f604fbec1a8c83dc3d016bcf89b20bceca770bc4b6081bd37bbc93d\
  323d5f3dc84a223d53e31a3d0cc856bd295a113e40707e3c25674f3bf4bbc03da1b44e3d6ae120bde01a30be772f003e\
  78a83c3e7a53c3bddb88dcbdea7354bd4724cd3cc9788abda44e0fbea33b2cbeee6db93d8d1e323e77d4863cdbb3df3c\
  5d92d8bd68cabebc3ee2193ccbc55ebe31af773da5fddb3d2ee296bd0d70d4bc615783bd39ce24bcf4fb83bdeec023bc\
  154fecbdc204e9bcaa45a23d216396bd4b0bc1bda07b95bdf2b09e3daa2e0abebc48eb3da7e87e3d6152bdbdb9fceb3c\
  27bdadbda718ae3ec53addbd9615293d76386f3c8fec273e04fab83cc8e8bcbdef9b31bd0ec0d73de9591abe222f35b9\
  128400bdb38ddc3d653a27bed6c1ab3c9491cbbd6c4dca3d28c5df3d507d83bd95f51e3dc146c1bdc6938d3da82824be\
  ccaa49bd1c4fe8bd9571b43a3bd786bd1de2e53d7c7a58bd649ea03d4e082b3cb7fb60bc9a3ca33dc089953dff71133e\
  ebea1c3e9d9718be46caddbdf468a8bdc7d53f3e4b03083e52cccebdc98594bd3a4b65bcfcd7dcbd3629cc3c9ae6b9bd\
  444f35bd894bafbd8db9e0bc0c52df3cd887433d9f8bc6bd811d123e9b0d00be8024d1bc6565b7bcc80be5bd46e70c3c\
  4b24973c6e83a6bdf66182bd3944753d7036ed3d514f49bd349dd1bd6347eebc406c203d6c499abd38f98cbd8b9c7bbe\
  d86304bd09060d3e1085e7bc64df5a3d5af88a3dae3d10bdd86ae8bd8a45d4bd2c51823e3e00543ddb02853c153fbfbd\
  76c09c3cd01d2dbd7e6cc4bacc143d3d9aebb93d38a78bbd424b013eceace6bd116504bcc2c318be84a97e3c10f34bbe\
  9dfea3bc98ead93d7244d73db6fc8abd8179bf3c6efcfc3dfdc432bcae884c3cf3840a3e6aae8dbb47b183bddeafc9bd\
  9866d7bc903fc53d295ed0bdd18592bd78f4793daa660e3e666735bed127f73d5d5cfbbd38037b3e55db033d83a1a8bd\
  c05f0ebd7ea540be08dc663df46c3ebe00080ebe29d386bd6160883cbd931bbdad28523eb0b26bbb1ea78d3de164a83d\
  07a7a53af94aeb3c316aee3ce7a6553d95cf3e3e31d6173de3dfe3bd94a6453d2765edbabb292f3d99df0dbedad722be\
  60c48dbd25ac16be9d392dbd29e60ebd40fedd3bfd1269bdebb1353aa220063ef01b133d7d56c7bc2e3f513efb0ebbbd\
  12d7db3d41e8bbbd5994b3bca20dce3df86ebb3d0289a4bd86f816bee5f34b3d52b7593e4be3ee3cdee5a7bdb5028dbc\
  f8a458bcafa439be84c08bbdb5ac27be4128af3b1d64293e755b643c634e013d8a4fa5bc4c2cc8bd6191e0bba722f5bd\
  6a1dbbbb617aa23d64c5cdbcb06da53d4d4d203d2cbcdebde42b87bd8e15adbdff83c9bd0c560cbe27b5bd3c09da2bbd\
  d23d62bdf77d58bd652bcb3c60d246be9ee1b23c2400b73d363313bd4056b43d27cf57be5b5f8e3e31a6c13ce5dc283d\
  9847053e139e7e3c1ebabcbdf1aa25be758716bc776fb33db9fb9ebddec6f4bbf5fe803c2ae9103e3ac134bef7ad1e3d\
  defee0bc33cb893b7291dc3ce6f1babd284781bd0c5dc0bd6e36943c9658e4bd831040bd5181a2bde8f5493db414243e\
  03f5103ee49b0d3d20ce493e47a8133e9174ae3da628e9bcb9b7893b5ec9af3ce712513e9fae2cbef67888bdf4e2e2bd\
  1cdb8b3d83a8073e9eea503d02890ebe5dff98bbddc11a3d1ed0abbd37a1dfbdb1368d3dadb14bbb59f6c9bced39133d\
  0fc6833c353266bd614b463ed4210abeab4b5f3dcfcd30bdf06408befac2193e6388283d9614ca3d61a88d3c5aabbe3d\
  7b627f3ec0226ebceb80bdbdedcccbbd292a1c3d0d1db5bd7fa806be7ffb26bed8241b3c4becd53d862b83bcaa2185bc\
  98f77f3c7ece6bbd8603b43cc24a50bcd5221d3ec05c1abd9c24ec3dc3d23fbed74d553ddfedcebc0f950a3c692b8c3d\
  c600bfbd1f82993dad80ae3d690d243dc71d82bc771bf7bd88f1c1bca00843bee918163e01d00f3e72bed33db1c2e1bd\
  fbb58cbd29191e3e4d370abe0d90103ebaf428bd5bcf5c3d9c5d6fbd1db032be48303ebdcfc4c63d5001eabdea0ad53c\
  2d582fbc411c3d3dbbe064bd535e193b0a3348bd06fc293ed186c73d45c1c4bcc9aab33d453c62bea0ed113e95efcc3c\
  c44bc5bdff63cebc4b871a3e1c535b3d975dfd3da473dabccb5d003eabc1e93d0098113de46f873d0c90cf3d77c195bd\
  8fed2a3e6d040bbd04661cbe7a9499bd203da5bccc217dbd3dc83dbdac1d58bb8b3c143da5e138be3ce441bca09308be\
  bc654abdda1e853d7ff955be7f479e3ddbd6cd3da3e1933db38cfa3daa9ae9bd1d1c183d0516e8bd4410a7bc6e4c6abc\
  6f20243ee70ef1bc6e0ebabd400b883d9a516f3e1b769ebde16d91bc341d8bbd68104d3dbd81cebd0a149cbdffa173be\
  da050dbd345dbc3cccefa73da06b933dc0081cbc1d937fbd7b2064bda06e06bdbd91373ebeae663da163803da06d29be\
  bef4093ed19461bdc7ed16bd50ccb5bd0c2d02bef94154bd13e1033e038d8ebc1338443d1c9417be2ea5743d790668be\
  3e58383d635b413db40e94bc56c491bc32335fbe0b55763eeb0e78be7bcd053de3d18ebba231723cf76789bda8ec1bbe\
  e87d96bd93af893d565189bdbd4f893d51027c3d9cffbe3c003c80bcda0302bde4b053bd06c3103de1644e3ddd3461bd\
  f340ad3d49e1e1bd9d731c3e0114f7bd5fcb183d20232ebdaeec123ef6353e3e7473c83cf5e90d3d1c65133e90fe253c\
  55aaf3bc80fd323dad81793c84611fbe48e51b3e895099bde553cebdb93ab0bd016a1bbd287c1b3d1683b03c201a453b\
  6f69d53d63c29cbd92f129bcc7f75dbdc0a216bd537c503d07ff52be502e023e5c9986bc4eaa243eb3dbb53d5f0531be\
  a122143ccd6d1fbd0014c7bd9ba5b2bc9393b03d06ce12bdeade9bbd9d92b33d792c783e42e2543de99123bcb8aad43c\
  24ba8f3c263cbabdf47705bea4503dbe64e049bc9f46ef3d1efb593edeca153ca2c0da3c78473a3c4b38fd3d57f1a8be\
  1149213dde04173ea60d40bda0a8b7bcf6e6a23dc8e67ebd5a7f49bd4ceb40bd093141be7e02403dee11b53d3cdc80bc\
  5954623da5e715beeb5e11bc3472e1bde631693d32a7373dca037ab9c849aabbc6692dbe5d99743e471801bee7134f3b\
  28b36dbdc8231cbd0b9efabd980a5abd7a720fbdc9b8943afca7f9bc26a52c3ca4533cbdc7edb53d62c9e43c86ffc3bd\
  d5e5c0bd52c0713d56a5033e03582cbe97608f3d5e8594bd53fd4f3e549ef1bd12a7f63cf983d2bd619e653b4ae1743e\
  9ebd0f3dc703f43d95f7bb3de570243da4efdf3ca178393db1d3b33c10f61cbdde32e63d26f5f9bdf7bb0fbe4b17dbbd\
  73b6503d27e0c03d579afe3d6a79f3bd7ffbb83d6190c33c4ae16bbd1e2f0cbd16d98d39c501873ca0d026bea352613d\
  f76515bcf238883da175443c804f08bec2cc8f3d81321e3c7957c2bdef31943cd63c603de690633da6ed65bd9129e83d\
  5fb48c3ea58dbabb39bd3b3d531b993deb582bbdfbfdfcbcb056e9bc6f928abde66fdabc1962673e1fb0f33c0722103d\
  1a7870bd0c1c4bbe7183adbc8463bfbd67ad1ebd89bde43db02ca43ddd5856bd36bcefbcead734bcd234d83c213da83d\
  3a6db1bbbbf87dbc2fc70b3e2d0b2cbdc64d293b670410bee59863bd108a99bd2617953eeb210c3eee941c3de3c04cbe\
  4c9f79bcc72a1b3e9b7057bc7eb01cbd873db73d83ea01bd7878963963830fbe7024e43d0d0d4c3ce051863d0bae173e\
  3fcb40bd15ce8a3d833082bc2f7e30bd7e6f86bd779c403dbd56193ec4eb19bddc58f53d5a2ff0bd87e9c83d050222bd\
  c57c89bd0c80a5bb0f37c53dc8a2803d4c10fd3d84d2db3db22eb83dfccbcc3d0dc697bd73e7c9bd67495c3ce708d53c\
  8c05333eeaf60dbef50bf8bd30c35bbee87a16bee15d85bd2e0d4cbca305c73d8944383de6386c3c69e99ebdad9039be\
  9d51fa3ce0e109bc531e5fbc9483013ed361083e02f6d0bd9cc89a3d157c2cbe136fb83d18cf06bdcef199bd69e00f3e\
  8f77b03df67def3c2a9c28be8a00da3d7802d83d4df709bde143e1bc487c9a3d274cb93da49599bd05f803bd8bbe37be\
  a39e033c92da903e204da93cee96d3bc7046e4bd72547ebd0404e53d4ca27cbea0deffbdbb01a63d9b18a03a681ae3bd\
  7ccbefbdea3b043d5a10d5bcaf77df3cbe1a09bebc09b53ce1c4163e577ec7bd7194de3cf95a60bd05dc89bdc28c5abd\
  65cb843e8a7ea03d9ac4a53da8e4d7bde21ec6bcd3ce793e63b3a4bc09fe043dfe3ec3bc26798d3d1d32f9bcf0c902be\
  9d5c22bd5859243d75f309be18faa73c6b9517bde6d07e3d288f283c72be0b3b39f39cbddeccd73d6264453e64ee8dbd\
  54f3863d609feabd6a79cf3dc73990bde54686bd582c0ebe2135c43d55fc1c3db283a93cd405c4bae7a9aa3dc72ee73d\
  06f8bfbc3084cebcfa8bc33db3fc3a3d17180b3e983b88be924ee2bda37047beb71cbb3c019471bd10f88b3ddb35943d\
  da8d00b81ddeaabcff5b623d9a59e6bdd231b6bc19fc34bdaa5428bdc67c773b4a668e3dc74001be5104aa3dd98045be\
  5d5ffebc20b89bbd2a6f6d3d584d703d6f541abce5270ebdd26d2dbdb1dc2cbd5ef58a3e70538c3a2375aa3dadb1f03c\
  0c34863d9793d6bdded2333c46f118be8cec0d3d7234583e9ef27e3d1947023ed171f23d20e3aabcfead14bee59322bd\
  7c09593efaca6f3d35e580bc3a3d13bea70e153efb6019bdc56da9bd88630a3e6e4a3fba2cf1393c0472bd3d4169d4bd\
  bcb97bbc03eb57be21e84f3a0cd2c7bd5b97ed3cca7d0ebc71ab2dbcafcf8d3d1b1a02be27ee273ed5a850be055fa83c\
  a2cc253ec186923dfa35c6bdb368e1bc1411213d89aa74bcb5efc1bd0d6b843c915fffbc2d63223ebdd801be9e54c43b\
  fca331be0599d93cb1767a3d725495bd5511463c863cd8bd75f4e43d7d9d38bea2f22fbc4c619fba37b927bc4d28243e\
  7d6c7cbce528f8bcbe2cd93cea3691bb78543abe2324b93b943a8dbd66e002be20210c3ec6b379bce6c9a6bb0651293d\
  b0c5bf3d8491c53c24a7533de7c7efbb58deaf3de05b53be53bacdbdd0ce93bc89eb283da7a48abd874acbbd65f59d3d\
  879a563d3406513ea10f163e2e05b3bdf1d76c3c9f9f4b3d38a219bec4700d3c637e8d3d6cebd63b81608ebde7651ebd\
  360e493e1566f23d4412e5bc726ee63cdacdf83ccc041abd57fa723dc1c8a7bd422267bdf3521a3ebd83f43df2708fbd\
  73e4f1bbe9045dbe5b49063ecfa7bf3c38ebdf3cceedd53c0640383e6117c5bcf130303babc827be7d9a613d4e99c13d\
  add075bd14f71dbe5d4060bd496dc63d3be0a93debe5f5bdbb4dd0bcfee1b7bd6138d63d9d0e8f3d7efb343cb2011bbd\
  ec7c74be7ab7e93d5955ac3bd4a256bd23f8f83c2adb913cc5dfa1bdf20abbbd6cd91abd4dd7ef3df3a3033eb32791bc\
  eea1cdbc6a56bc3d58998ebdf6bd36bdf762bc3b956cc7bcfc462e3e45da9ebd2b1894bc5b4162bd8621cc3dd2aefebd\
  1ae203bdf95e0a3d789e743d7002b83d66eecc3d094b243eb1c15d3d6652cd3d527da6bd10b37dbd99cf593daab1dcbd\
  de4dcd3d6dc645be5c2315be58f455be11d270bdb9f1ee3df657e8bdef7acfbc3b7ac53dcb076cbeec99fdbc5ac8de3d\
  a29de93d3c73cbbd5d8eaabd0699f43c5b3d483e339d6f3d2c890a3d4a1547be725a693d0a9e503c798626be05d63dbc\
  0ae7c63decfa0a3da7ff2ebea17bbe3ca79e7b3ef8d12d3d5ac528bc7f1222bd1781883d102865bd4549f1bd096e02be\
  fba506bcdf5fc03d7c7b843d670d6e3db138193d873fa4bd0c6dbe3dbd9d5cbefb31963d3945d83d819906bc254ea1bd\
  e669223ec7bfc1bdba3dcebd170691bdc0e038be0c8163bd45c3bb3d0bdeaabbec88a13c1e71fdbdb0d1e03c169550be\
  98d35dbc16812b3ca79bb9bd1f4fe43c7f765cbe2828683e084131be87f9423d0b58c13da7335abd2cb40ebb805751bd\
  f7a2b73d2425a43caef672bd7be92a3dc3d9403c03d951bd8c3e42bd47b528bed02a1bbede859f3c8ab30c3e8ce89cbd\
  e6237d3ca4debebdca72ed3d4866d0bd7c7b843d57da85bde3c7af3dfa06603e3544123e931d89bbcd044e3e7c2a24bc\
  13dfd6bb5bdd883b294758bdeb1224be156979bb6b729fbdef6393bd8d9e7fbd137cbdbca68e9f3d069f153e95a4dfbc\
  b6bd943ddded6c3ce208d9bd255c99bc7b5cde3c31d9a23d94d3d0bdde20633da82aa73dd3c1293d24ff223e7cd952be\
  2d67ea3cd8fe9b3dd432d7bd0fbc6f3de4af343d7fb1013ee9cafebd5413ba3c58c61e3e0d70fd3d89c6c0bd10f7843d\
  5e02e8bcf1fb22beda37b8bdb0f4eabd817659be8608043df693e43de7fb5a3d1ad970bd175dd6bddca66bbd9d5a28be\
  2355bebc0bfcd2bcecfb1bbc2289863d87b8373d66297fbec610e4bdcae2923d80094abd884d11be752602bd704402be\
  e2176c3de959463d3575013a256cefbd4e65bc3caf23f5bbcd146bbd961eb03c6e2b17bdd57e5a3e72bb663b63e879bd\
  5e42c43d7aad933debad29be2d2c86bd434522beb952de3dc0ab373c79d786bc2e4dbdbd6145203e1a403c3dbb0b173e\
  6f42b0bdcd7b8c3c10f9e0bdde3b5abef1dfef3cdbe408be707c883e4833dbbdc634b23d6d31e93cc70f993cfc8f4d3e\
  bf2865bc1a95053efce39c3d51e9a83cc85817bd696d653d06720bbd5f386cbd8421fe3cb92cc7bdba7506bd825be4bd\
  4675ba3db08e0d3e17c49b3c16315e3c644e6c3d2055d13b8f0c68bd9b80613d5292573dcdae253d7b3e0e3babd439bc\
  821203bd2007cf3dabf11d3ed4f136beb58b203e981b8dbc52f09abd020dad3d853924bd3130bebd0db171bde01ab33c\
  9adb5f3ecc1f85bcfaa585bdac7b7d3c8ec9cc3daa5616be85c519bdd8af24bea359c03dff8b153ed174ae3d6fa1b93d\
  a1acd23d058d55bc1e63b4bd8f0e84bee85dd03d51730f3ec6fb1a3be67c423d9fe27b3df39a18be9e6c56bef770cabc\
  b0f1bfbc90788d3d56c92f3dc6becfbdea5e6ebd84e9dbbd7b5fa23c07460bbecf22083b7fe52abd6207913bb37ca53d\
  aebfd6bd5e21093e4e6873bd097aac3cb599733dfa894c3d82a103be81de3ebdd6c689bd4c700b3c1e9a7cbdf51c02bd\
  84c0b93d010f3b3e66070cbe5be19d3d08650bbefc22523d453d7f3dc6b78cbdf86da2bd4cf8a8bd79470f3e49bd4abe\
  bd23d03cf5fc20bbcfce56bd5a91813e5976103df1e875bd6c20013d0321bb3aaee4453d3e1c453b78fa38bc8ad6973d\
  67593d3e64fda1bd398e21befb8e53bd6f063a3e7720c93d69a0a63d400febbdc4e1853c5819fdbd510ddbbd0a8512bc\
  bc1ec63d9a7551bdf8f5e5bbf510093db678a6bdf9c88a3d9345203e91920bbe7e9aaf3dab9835bd05a3f8bdbbf2033e\
  e72d183d51ff85bde7a541beb9fba73df26d2b3e367fc6bc762910bd8b2916bd9d51dfbc232dcebd98fdccbd3a011cbe\
  f71b0c3ddd0e0b3eb18b173d0178533c54f1b9ba10fd98bd665b873d598036befaae82bd8421573ebd4bafbd378ea83d\
  5dd59a3d0ce1e5bc1b6588bd86f4bfbda770e6bdc21e0bbe5443823d3fb09fbdbbd7d5bc8fe990bd48973f3ceac229be\
  a9cc633c0b6e093d6133a3bcc49b6b3dfd4153be163e853e17bf8c3dbb8d0c3c6e17f93db7278dbd87c57bbda54f10be\
  670005bc06507c3d323713bd93e5053def287a3d76f63a3d303724be783b0bbd63a097bd2285c1bd06ee593cd8fadebd\
  fb8e2c3d0e21adbd95f43ebd121be7bd8ba128bd1f19a3bd7f4efd3d832e2d3e119d3d3e1be6e23dbaa2443e7fcf6f3d\
  536ada3d7ace95bcd52498bc882757bce9bb263e616d30bed82cf7bd6daf0fbeb067afbc42be183ee9e1943dd83e21bd\
  d152743ddf69e53dcffdf2bddc41a6bdfc59433dbaf9f4bcadd8adbd5ec7683d4c6b9d3da21576bd5279e93d129542be\
  41c4853d6e70b43b64f1c7bd7cd7e13dad6c5cbab5c0ec3c3a3475bee78f883d576a233efc7f153d7f3f1bbec8abb53d\
  42e7f5bc0263cdbdb0cf15beb75312bdf57458be5f98c73d480e993dd822853dacb4b0bd2c7759bd0f060c3c865c16bd\
  1c24fe3bc5ad413d6a21c0bc8eb0c93dfb64803cc3d02fbe36578ebd9d7449bdfa069ebc27b834bebd8e5b3dbed64fbd\
  3c80ed3c761c503c9e66433db7db25be3633ca3dd28cd1bc201a8ebdeb11d23dde64abbc23e3753e3a004a3d41671b3c\
  0578503e436cae3d781016be68192fbd66b275bd19e2483e0824ecbc5d5bd6bd88e4c23d9286523c37252dbd5beb143e\
  80ec44bdddac133c2fda5abca4aea4bde469c63cb6421dbebcc5063e70bd0abecbdec73df20d4f3d8669733dec3a7a3c\
  0bbfe83da898773dc1d6033ed869023da159973d41c6863df19ad33d5c2a123d56038a3d6bf7d5bda9827fbd06eedebc\
  f57df53c9abe073e8c0e19be5434aebcd3898d3c189122bcce90a4bdcdbb593ceab2893d10ad233cccea4cbdc6985bbd\
  463d45bd33a1883da72b8f3eedd443be41f3613e220fd8bd9d2546bd670f843d913c663d43d146bb2aec11be9a43ff3d\
  6823403ed95cdcbdbb7903be22de20bd540e2b3c164a0bbd09f365be3b811fbebfd2983d09b5463e34a8223c2bd5d8bc\
  a05d96bd690c1cbdf955a63d34242bbe8de0073ea428e33c11331cbd20fcfcbdda5fb7bdc78fc63a20c35ebb5daa6d3c\
  7c8b33be48b6953d6f46ed3dbebb9cbb43c5efbc04a6adbd41b1143e489e16be13b0253e7ac5d1bcb8c5aabdded815bc\
  3cb330bd00988a3ed79268bee1938a3d3b2c8abc1cee353e1ae4ee3ce9bdaabd7e5f0abd51f8813d0e7222bedc405a3d\
  2ec42f3c477a6b3dbb3936bd7ddfd43bd4af91bd120aa63d04b3e03d3681e2bb6fcc9a3d61f648bd3c74c83d02230dbe\
  5744c93ab9e3e6bd5ae15c3dd58b4ebd2f3c7a3d218cb6bc3a0bb03dd967ecbc01163fbd2b58033edcc2c93dbd57e23c\
  9d55943d21ca1cbe43f50abeee750ebd4eb5e03dc1b7c93dca99c9bd39c5a83c7628023ceabf40be772a7f3db36815be\
  b0a6f0bd2f18c5bd987ebebd4e15a33da58b00bba235ca3cfa73bb3dda49f0bd801adebd313982bd5870adbdc3d38dbd\
  258e173d79a55dbba8ad75be3cfa893cf2437c3e6126e4bccbb90fbef3256c3d8a8ed43c8269a3bd5abda5bd549a48bd\
  752606be7022d63d847c0d3ef67bb03dc937aabd8e0f273c5222a5bd31e85cbd413bcfbca341bf3d994972bd5d47b23d\
  3211403d204211be4bcd01bea11acbbdb1ba593cbbf823be3cfc303dc12c66bd9945f43c306ecd3c075fce3c3f573bbe\
  dd08793dd6ad2bbd97c738bdd783d83d6e3123bec566573ed1b50e3cc4740ebdaea0763ee172593d7d772fbe61afb3bd\
  471acdbdd39b373ef30b13bdff3ffebd319f823df476f43c5da1a8bdc298f83c07e2b7bcd6da85bc4d4f30bc77af79bd\
  55dfe0bc2db3bfbdf44c9c3d59f150be1937973dc9d3ccbbc6e3af3db8c5c03daf151c3e1a23253d898d143e33944b3b\
  985ab43d87992e3d18f61d3da0150bbdc0ffef3cffd980bd0a88f8bd1574f4bd5a5f123d770c143e743c9cbd87c2b5b9\
  2024043d777a4e3b3c9e76bd6ada42bd45dc8d3dd778173c2897a1bdb48d8ebd99ea37bcbfc6393d0f7b723e248771be\
  d8cb133ec3120fbd405197bd6df3a43deaf14b3d29f443bd63e6da3c5da1283da6700a3ee871703ddf8a6fbded9867bd\
  d814d1bc2bceaabd832c7dbda33625bea26609bcef01793eb1e7e0bac06d05be521336bc2f7a293de08b87bd757891bd\
  a13c813e7c9dd53c23effcbad75046be6f46d7bcb19a423d25af143e59a3973ea8c6d83c54d38c3cf2f7173e3f0597bd\
  c73ef43de74ef1bdb572c8bdcc1146bdac262d3e91ad863d2ad52e3ee3db77be41b0153e15c08f3df5343b3dabeab33d\
  c9309c3d687f893d6bb7c6bdd5408cbdfa880fbd47a6c13dbd446ebde33a853d60dd5dbd129bfd3d93144e3b4dcca43d\
  775822be1229193e5b450e3d0085ffbcf5584bbd0988f6bd98edbb3db958aebd25d820be153a363c9850c4bc0cdf333d\
  4336bc3c1fb8c7bc6bde42bd9fb00e3ea95b81bc72bc053d8d1e0a3d8654223d97e5bd3d27f2a5bd6b1306becc438a3d\
  7bf49c3d9b0e6d3c0cc535bdad1344bdb116b7bd655e2bbe392b7a3db1586dbd0496fbbde036113d50ec83bd23f0c23d\
  bdde353e78571f3e802fb53cfe0d27bd8ce80b3ed547123c0524a0bccac9833bce085b3d5035a73df710bbbdd822f73d\
  92bcc33ea17ac93d19d8a13dd07580bcf17a853d126339bec6197ebce14f6bbdafcddbbb08b7443ee29ac53d71a060bd\
  bb250cbeca9d8dbd752c283cebbf7abdb46370bd7cca47bcaf84ddbbfbf156bd09e3a1bd17da123df397833debc3dd3b\
  b4cab7bd6d6c9abca64f213e9f0cadbcb6e6133db14e83bdb477b03d430ad83df828103e5e99063e8155adbd3dc428be\
  36e7e2bdab1fea3d33679ebda30b8dbd4c523e3c3d22163d43c0e2bcf141e2bdb49cb1bbf5707a3d07fcfdbd95d3d23d\
  a60d4abde47c6a3dede586bdb14db2bcb81c99bd0581bbbce2fce93d573126be2ce4813da8de33bef098423d87c29abe\
  cf382abed07e593d681786bc16d6cd3d00aa623d12c8493d3d25873de428623d9fea05be766e1fbde770993d9398d53d\
  5d97313e6f3a09be91caf9bd09171ebec9115fbdbd53973d9a981ebda3ddc63d5abe383c3d56983bd5f9503deeb0b4bd\
  c63d3f3d8267acbcd7c604bedd32c43cdea2b63d836261bd0107f33db02325bec553b73c487f8e3b6d97ddbabd12d23c\
  e410103dd2bebd3d8b76f9bd600eb43de5e8f23de77799bc42e14b3db212d03deb7527bd1368f13c5c91e6bdf1291cbe\
  5b96b8bd8b380b3e44c58fbc4afb533b7414b1bb4ba5d2bd84cb973bdf1215be66b6b2bde581213e5417ad3dff975abc\
  3f55b6bda785be38bc6f3a3cb622753d6ac60b3d9534e0bc4253573ee68a7fbd073022bd41efbdbd3dfcd9bdd44423bd\
  6cb1513e4c5eb73d01ba823dd00a57be68424c3df4cecc3d9d4c0a3d3f04cc3cceef033d14008a3d58ad1f3df17935be\
  6468d93d2177073d7c1caf3df9db943d4ec43dbd1880b93c7ff46f3dd8135bbc7fb28fbd62488d3dd7076e3e4f1e08bd\
  7262273e3e82f2bdf7ae393e78fc7b3d423ea2bd286852bd0dc7723d7ef2d43cbcce8a3d4f89b43d75cca2bc8632fd3d\
  198950bbc79b36bbdc537d3d5d8baa3c6b6c013e7418c7bdc142e2bdc13484bee92295be194feebd9005bfbd0ff19d3d\
  11554e3cafb8f5bd65c3eebc95aa32bd4764ce3c4494b0bdd3c5e1bd23dda83d4ce2033d91886cbd9494ef3d4ade46be\
  b49edb3c2142ecbd9cf980bcb2c9f03d5d3d8a3da115c8bcf2b79e3db552323d7c12533e9cd2593d8886e9bdf4c101bd\
  e2a22abddd7133be7d8764bd5e04c6bdd96a123c7b4c8b3eb330bcbba6ff3ebdcb92223de5cf80bd018cb2bd443156bd\
  573aa33d23b82f3d1c1d9e3cdb9bbdbd8ab20f3cc3f4d9bd05494abca090613edc3bae3da5caaeba2a818d3d210429bd\
  4034293d3d30e4bd2159d5bdfa3ee7bdf9ecfc3da1163a3d8414f83d64fe63be3bae62bce5ef613b09f7763d7b94213d\
  91d9563d4112263dca2c55be36a7b5bd6b929e3d7a88a13d56db07bec9c50fbdeab61e3c885d4e3ec38276bdab47793c\
  d38039bd71756a3e3abe043d900d22bdbf8a49bbd5df73be3bf2c23d6379bebd67b235bd0715cfbd098d50bd625a0c3e\
  4748483eceee64bd15203ebcd5d2b93cbec6493c404d573d372e813d8aae8bbd622cb53d16b694bd67bf2cbe55dd523d\
  9cd9d43cdd021b3ef5998b3c9105a5bd7a4612be5e2bdabd75eeff3d0b4d613c834f8ebb89f0a2ba3c5187bde09aa63d\
  75ca143ed29b223e0d4c103da19b55bc44302a3eefaec63d71e2203bb68bd43d0fbff63c732c0c3db9b266bd087b973d\
  34e5493e3d34403d1f0e3cbd114d1abca65af2bc9aa4afbd58f82cbdadc525be7e91023d2d31313e4b4e963cc2a89abc\
  c9b80dbcb374a7bd4c76eebc836c40be5ddab9bdbc48113e79d20bbd6a04ea3dee7e7f3dd8df08bebc1521bd68da653c\
  0dc7dbbd167fcdbdfc88f33cf8c14abd273a63bc5afe14bd2fc87ab995aa16be20e6553d60c3073e3c860d3df55417bc\
  09c10cbeeb593a3ed2bec03d6fe07e3c9bb7c93d1dd803be1c1acfbdfd7047bef21154bd58d0813d5a6a63bd63e4e83d\
  9ea9c2ba801d1d3ea544efbd6ae3413dcab0103db0289dbcbe59c53cec2f05be331fa1bd1c8706bede80773d8bc661bd\
  559ed1bcef4af0bd72172d3ec79a3b3ebeddc23d1a33613e5ec4e33daf6eef3df86ae23d89ede73caa9da3bc83d6dd3c\
  5b7c643e4a72f0bd7205ebbd491f53be0810e73d466f5c3dbd6e343e255614beb9e2123ce90b163e52b1ca3be066d5bd\
  bcb9893d945d2fbd9ae995bc0bf1a93c6aa5c3bbc072f7bc5ef3e23d39c5c3bdcbcb903dce05d43c1ee5cabd30def73d\
  fc33883c512d8d3d71bfdebc8d27dc3c8de7593ebdce023d093aeb3cf3e7013e2b58be3c236f31bdb3bc7a3cd2ede5bd\
  eab375bd1bff773e78a1e23d156d9d3dda493cbd5e9fedbd4a0382bdded4f5bd483d8fbd499bd23d3a34dd3d42a98cbd\
  cd469cbd77cf72bd4b877bbdf4a70c3e8c0b1cbd095d55bd989adf3dd9783dbdeadf4cbd9e1167bde7dc52bd7622953b\
  e7bc963e34f18d3d666a823d73ef5ebe6d688fbcbe86e83dec62aebc35045bbdfd3f45bb408b833d2e65293dd02224be\
  d5af793df956a63cc99c033e1efb903d9c5af8bd1012da3d9ba0853d0029133d5186cbbc0c760fbd2921183e28ce0abe\
  8b760a3db01d01be145e1e3e29cd58bdf4b58abd4f7a8ebde3ca383d2f043a3eda37343d6bc4053edc75df3cef0e8d3d\
  debf08bd20d37dbdb350923cb4fe133d7c15293e5ef532be8dffb2bdd51aa5be5a9eb2bd4030c4bdad7a1abc6097503d\
  2d369b3b8c82873c1c28083b36d993bdb0c8023e32b31ebdd18de9bc6b6ac83d6566373d4c9a95bd08bb583dd12b48be\
  951817bd96e103bdccbf30bdc42c223e81619c3c5a1bc53ad3ff10be4056633d31dd4f3ef01b52bd8f0d4ebdcc0dce3d\
  a3c69cbceca8bbbdb8dee9bd40a96bbc3ae646beaa954d3e5adb43bdaf03973d704c123b37c846be87bb32bd1bf274be\
  6507bbbd541d053ec365683dba9baebdcd389dbc87f087bd28d93fbddf71553d5e5d76bdb3f694bd50d6273e054697bd\
  6d3dac3cbdcc043da3bea7bc351f133d779c963e596bedbc7c8c113dacb40dbe1778ba3da59d723e0e0cbdba81dda3bd\
  a665793dc720bf3dd7f214bd0acf38bd7b6a843d3e1ce63c1472323d820fcb3c390d64bd7a7239bb8971e43d5d2b0a3e\
  b2b68dbdbbd592bdbcf5b03d71bcaabd3761cabd82f3a4bd8813843eee506aba50def0bc4744aebd8da93b3d0c54df3d\
  d9af373d4069cd3d9505803daadb7d3d2773483d9addc5bde4ef6d3d27b6adbc4af8013e1eb4c8bd9d7760bcce2ecabd\
  d26f6f3de8e549bdf29c3bbd96bcf03dd7a7363d3ff5a8bdd08ba3bd4902aebd1f120c3ea721603ccd6e05bd79f9a43d\
  0db0c4bddf1706bd726c1d3e4e8338be54655a3d63bafdbd7d559b3c397b3c3e7c3dcf3cac843d3d6d3417be4fe2333e\
  4426223eb88520bc7a4ceebc8d2d113caaa6dabc97c597bd3d87e0bd3eb1bcbdc44d723dc4d20c3e4915603cc1c4d4bd\
  b4104e3d80622ebe0310e63d615220be7a4a9c3c43be283db79bc3bd26706abc69c6c13daa9efe3c9b2eb53c15dfa4bb\
  71a51abd838ce23c05604c3e83f8b0bd1a9782bcf9b881bd362feb3cfdc4f8bc07e5733ccaeaa63c01daa6bd1d95063d\
  fd8739be4562743e53f12fbed089e43b4423d63d014b773d197e0a3c1e401fbeae262d3e96f10a3de9b114bd4c38333d\
  cc8b293d67e76ebc9df598bd2b14aabd47f00f3ce7d34abd4728c53d03304c3db99700bdd9ffbabde0834f3dcbffae3c\
  e4aeadbd178b15bef01b193e9807b83d4ee5183eeff6493e143c243ed4e1f43dd618ed3bd9edfbbd6c78a03dc77251be\
  664d7c3ec3fb01be207b48bd6d042dbebdae55bc06ba4c3ebb69a6bb72f4063d3ee08c3d3530613b45b175bdfeb998bd\
  7a5dc1bb004bad3d9e1ac2bc94ad90bc2029533d2782113e5ac78a3d1b22a6bd3ab1cb3b39276f3d596697bdde67a63d\
  2c342d3e5ce12bbd5da038bcf05cda3c8579413eca2da73dcd90e8bdfbd5b8bd6a2eb4bd1b561dbe0aa50bbe5972b8bd\
  7f6e4b3da549453e04d3233de15488bd3c7f27bd50a25fbdc4acefbd919596bd281e9e3d6a8bdf3ccd1b173d9ad707bd\
  173b223ceca51fbda82d75bc83ff823e81d05c3d73cb6bbbdc1e803d7ea6d4bd62986e3d4e05acbcdedc61bd2de623be\
  55c8eb3de69f953d4556e23d504d26be6e58683d4cbe87bd36120c3ec0aa933da9092a3ea6e07d3dc61056be7a2420be\
  47bf883d9538223ea3df93bd7e2864bd69687a3ddd9a2c3ea44409bd6d93843d53a5d5bc263d703e6e6abe3da80a11bd\
  49ce0bbc217431beecbbc13d3312b6bd003da0bda4d702bed2b1123cbf27e53c5aac353eb890873d129259bca4a2b13d\
  8d18283c2536643dbc60f33df2ff8ebc6ef3003e1884b6bdb1b7fabd9b5e64ba1f72823ced54f93d2996433c6332d8bd\
  084beebdb6aab5bd8f0ffa3d3c14c93c5f44afbd1f768fbd427380bc622e9f3d88a9cc3dbaf3173e7d39aa3d666bdb3d\
  6fbc383eb7c27c3c21dca03de6af333d8cb8b03d8f5b1dbd29a21fbe0de51f3db125493e9ec20d3d65228dbd3214943d\
  223a8e3dd1c426beb8a712beb75c1bbe07e42dbe795e653dbfc3103ea607083ed4d819bd93e0acbd76e304bd881a3ebd\
  cf16ba3d7813a93d29ce10bd05aa7a3d1512cb3dab3fe5bd0ae105be407c1dbde2d293bc400218be740d6c3dfe8e33bd\
  9d7ac0bc32632ebd4c3bddba35213bbe40a6893c7fce89bd7d3001bdfa962c3e54dc23be7170903ec592aa3aca2963bc\
  5288443ea23efb3bc2cffdbdba0dd7bd5164aebd0320093e896329bd1127babda01bef3ca4fce23c9a1088bd72c8c53d\
  76cf14be7cc2efbbc2467cbdb87320be9409a53d2626aebd4fcae13df93f71bee172c23dd7999dbc327f773c9351893d\
  c173f73d31e6183dcd3e443e2121b1bcbeb7103d4d00653d9ebea23bc1d9f1bd75ad293d47e083bdc5a8a33c407a6bbd\
  e881f2bb9ae21e3e303673bc41f6d83c332aa33ca7bd883d3e5b77bd54677f3d4471aa3dce30bd3c9d809cbdc6f08738\
  c69690bd4955923d6340293ebf8761bebd00b13d5e15a4bd69fcdcbd1dc9063cd910c6bc78483cbb673f4abeb028bc3d\
  4ad2203ef64ee03df89308be520db63da63a443dc3bfbbbd809982bddfda87bd4e2b18bec310173e4f31073eb9c4c23d\
  ac87afbc5c09823ca9e3ccbd91201abe258bb73c50ef743d27b71ebdbf0a213cd9f4e93d5ea75cbe8c2630be386f30bc\
  543f413d3f4ddfbdcdc9eb3c37bd1abd7e5b703cdf09b6bc59034dbccd73fcbd26c7953dc6eb44bd7aed7bbdba961c3d\
  b4c48d39d76b4e3e61c3aa3c16af05be21e61d3e54a96a3df5cb40beb928debd4cf91abe165c233e8e95b53b675491bd\
  1399963bb38e363e443a7f3cb0d60f3e3d25d53ce8b5103c7713d7bb58a5f7bd9590e4bc292ac3bda4231d3ef2bcc9bd\
  17a8823d7fc9bc3c0af3a53da468203e344245bdbf38683c0484b93d443d1ebda5a7123c7e09d53de6db95bc58d3aabb\
  00e0c53d45f7aebdb0a828be1f5c0abe32bfd83c11f1303ecbb499bd92656bbd446862bbf375cf3ce3c0aa3db5de293d\
  415b1f3eb4f1bf3b3e8679bd648251bdcbd182bd88db3c3dcfc4613ea8c562bea4b5f93d65408ebdf7458bbc83a93a3d\
  793089bd352bcabccd9c40bd00f8953d111c7c3eb922d03d9da5b9bc4cd7db3c27223ebd26832ebda96ba6bdcbb12bbe\
  0452223a7a6e2f3ec9f9fa3d1950fbbc985abe3c44b566bd687f353dca9895be9468cbbd1298313e617393bd6598c93d\
  ac40993ddffdb0bd0c506cbd2945973bfd8a1dbee10b92bdc75c7c3d53ffb2bc3a294c3ce6497c3ab50b7fbdd3cbdcbd\
  42e4e53c4fbf7f3dd0bf623d2a3bb33b5a1f3ebe3ccd723eb57b7a3dd93aa0bcad9dd03c5aabd1bdb85dd5bd85fd0bbe\
  5f288abd6d2a993bdc204bbc579dd03d3ae2ccbcbd35153e720a1dbdee62d2bc1c872ebd39f197bd09c6593de4dd44be\
  6fd0993dc7c0ebbd65b19c3dfd00a8bc4e2a4ebc8637fcbdcb65b13db79a2f3e54d2b03d64744d3eb1c31f3ec9ca9a3d\
  7813de3d1af3903c965793bd92f013bcf349223e81f9f1bdf172a5bd50a924beb902223d4ce6013e48db2b3e5ec707be\
  88232f3d04932d3e124df8bcce0014bc62efa13df0ac033c807a42bd8265e63c54e1383dd39bc43c630cf83c707ed5bd\
  cd9dc83d6c64423d0341dfbdfb25b03db33f19bde774b7bd23fa35bd10a7fabbb197583ef2f5ccbab10504beb65a733d\
  4dcf183c0edf43bed33d693d668642be6924a23d02d2323effb41f3c0b5a923d8994183d6169dbbc3c913dbefa0134be\
  aeb4b73dd05a0e3ea8b706be34425b3d4c803b3dd7ec21be7b050cbe3b0efb3c9d12f1bb0f30123dfbc90d3d025a14bd\
  ce6f443cbdf14cbe8bfd69bd796343be62074dbddca787bd5e5c0a3d6f21b73dae182dbe0a47a63d205286bd1405033d\
  6090bc3c6e54063e9b8517becdf927bd8fd2b9bc13d3103e4b1913be0770debd6481923c4a536f3ec51f04beb279a73d\
  98e821be1c6ae63ddc620c3e60a204bd7c738abdffca71bc1840d73db56510be722b063d526f76bcef399bbd689e353e\
  bc0bd93b413f25bd6b78953cb83891bd30a27fbd3f5afd3ba755d2bc0e74ac3be830093e5c290cbef1bff5bd80479bbd\
  9f75fb3d8cb5b33d1b058e3d15bacfbd8203cdba44b7edbdd3ed783de754753c72c4593d24a512bd72eafebb8581813d\
  f9abc5bd9643bfbadb57d23d93b098bd9384ef3d5ede073d45ccaebd904a163e0e5ef2bbe670d9bdf83b8abd3e1ea63d\
  102fa43d90dcf1bc7a018cbd389309bdd8d7113da35824bd5fab9abde43f4cbeec4541bd57ca7b3cad778d3cb260763d\
  c5a6863d5b110a3be58926beb830d9bdcdf29f3e17362f3e7bf1d53d6cd218bea035f43c7c31be3cb1194c3df09cfc3d\
  97ec5e3d83205dbd303c0b3e076fb4bdf968443d742602bd9d906bbbcf8c5fbe32499d3c93c66b3df08bf03d398a1cbe\
  6481c13ca7b7ff3c574af3bc7d0d363d44c8f83ded94323d818148bd92aee2bd74b365bdb372cf3d338bc4bda67483bd\
  ed08a13dae31103e12490ebe9e26fb3d377b09be24b4813ec9f1b73d480a69bd8b8929bd0a0e09bea8ea3f3da0a8c2bd\
  a18119bef008bebd52d9b73c86697dbd5f891f3e18a6f2bcd595ab3c40e1e4bc904ba1bdcef8f23d465af93ce6e4203d\
  72561a3e0ad59bbd62a26fbde483933de1c870bd31f582bbfd6101be1b9ef8bd80f3d3bde60132bef4b7543d01d206bd\
  7cc01e3de8ef39bdc57b80baff37353ee18f523d57820f3c9460203e2820b4bdd856173e32a61abe74e30bbcfc55193d\
  51e2f73c0804aa3d092b44be10570dbdd150d83df6f2003e5ce7ebbdd2cc6f3c955a823c72390cbd20540e3d4d2b06be\
  c9a3a1bcc1c6e23d9ced683dabb4bebd432214bdab3badbd40a7393e9930403d2a58b03d644b413d186ddd3d96e6243d\
  d9e6953db1b1e6bd507adb3c9304e13deefda3bbbe09e9bdb04fb53c25f9313e53add13d0e5557bd10eb32bc1493e6bc\
  bb5f283eb1a31d3c45d2093de89bfd3c29437abe64fed63cc8f2e83dcd1947bd4270333d9039773de6a0a8bdd0f91ebe\
  eb2dc9bc3f160f3db8ec9c3dcdc223bd0f297a3dfa42733d69d853bd41c9183d89b9823ccf7ed83c2b87053e1a3330bd\
  f7a8903c733af0bd80824f3e2ff840bd3bb98dbdac3a6d3d0356893d61a10c3d7950253efa5d043e54ed943d206ac53d\
  c91f02bef1998dbdcaf7cb3d0bbb00be0212ba3db5de7dbe37e2e0bde58a59be223a77bcc1f0eb3d535586bd7ed6d3bc\
  a579b73d8e5f38be2a7e69bd5177f83d5851843dd504e2bdc34d1dbdd776d43d6fe1f03d046c483c654edc3c66dd6dbe\
  0d080bbc5053433d0ff363bd60d68ebda6b45d3e71dfbc3dc70110bc3b46003e639d6b3e3c2b803dd3d7313d16205cbd\
  ea4cc13dbd040abe99534e3dead43cbe6728d0bd5e06dd3d2a90d43d45b90fbd185d293c9fedbbbdf3e32f3dcc90873d\
  3cc2ea3ca7d768ba5a750c3e650f18bd4395f6bdb36e15bed7c5ca3d73a8b53da4fbecbcd41f1fbe901ea13d7b89623d\
  752b5a3ca38617be36143ebdf7c1c03cce27c03d2cbc663db16558bc816317be0ace32be6187263d45b737bdf7dbfb3c\
  04ff3abc3f40fb3d36d132bdf0dacabd1e32e03d34c43d3e2b28c53ded0dd23d8896ac3c764c6e3dd89447be6295bd3c\
  a5f9c53c0bc2a83cd178083ee3ca95bd3be4903d320272bdba033f3c018d85be1f15a9bd8363b23cc24a5c3d01178d3d\
  9b43133e0f7ab8b931cf56bd13ee8f3d650f67bd18c68e3ca4562f3de693c03c0e70113e294c15be13b482bdf1ea82be\
  94e180bc2ee4d33dbdfc29be5fcd553d60dca0ba209e77be5230c73caa6ff3bc0de6143e413487bc69e452bdafd8733d\
  1ca6233eace8a6bd32e29b3dd1febfbd8de33fbdaeff3fbdbb711abe49f971bc2a3f7cbb89f2c7bdb2e356bebe1a903d\
  3b52743e71896dbd3e3f2dbd20049c3c4328df3b2a57d5bd5c3613be4d5cf6bd3c16713db0415f3e62f5343de218513b\
  fd8725bd37458dbdc13d3cbd9aeff5bd8ac4853c9b9c813d62cf2ebe63c9893ccef42e3d9d9740bd37a144bebbd87dbc\
  c32f03bd109a973d20cca73dff5fb9bc3f7860bd90cbb6bdd4e5bdbb8847d3bd4005cabda03e7cbd9118aabdcc8ffa3d\
  20209cbe9f4c813e6d8fd2bdbd4937bc534bc53d02b6303e74ca0ebce090a2bd2c55043cef2ef33de658c5bdd717cebd\
  dc91aa3ca9a18e3dfc5538be730542bd764b0dbe9c7172bcdf39e53d5f7903bd17e75a3dc1210abd346cc23d7fa639be\
  d6f67a3dad9f69bdf940f33ba058af3d35be393e166632bdabb7d03dae14cfbd62705ebd640392bd2a2deabc5b13a5bd\
  7d0aa33d3fa7c4bd1a7da6bdb8baf5bdb2be6fbd27eb393e2ff3e13cce869b3b5aacda3cca73eabca8a012bebf14183d\
  9600883df3598e3c52ad15bd91dcbb3c762a0a3d0f727d3d91bece3db9371cbeb0e63a3d9e03223c9de4febd9fc108bd\
  695893bc"

/-- tests/data/pq.fifu -/
def pqFifu : Bytes := hex "\
  46694675000000000200000001000000040000000100000002020000000000002900000000000000060000004265726c\
  696e07000000506f747364616d0700000048616d62757267070000004c6569707a6967070000004472657364656e0800\
  00004dc3bc6e6368656e0b00000044c3bc7373656c646f726604000000426f6e6e090000005374757474676172740600\
  00005765696d6172150000004265726c696e2d436861726c6f7474656e6275726707000000526f73746f636b09000000\
  4b61726c7372756865080000004368656d6e69747a07000000427265736c61750900000057696573626164656e080000\
  0048616e6e6f766572080000004d616e6e6865696d060000004b617373656c050000004bc3b66c6e0600000044616e7a\
  69670600000045726675727406000000446573736175060000004272656d656e0e000000436861726c6f7474656e6275\
  7267090000004d6167646562757267090000004e657572757070696e090000004461726d7374616474040000004a656e\
  61040000005769656e0a00000048656964656c6265726708000000446f72746d756e64070000005374657474696e0800\
  0000536368776572696e0e0000004e65756272616e64656e627572670a00000047726569667377616c640a00000047c3\
  b67474696e67656e0c000000427261756e73636877656967080000004265726c696e6572080000005761727363686175\
  0e0000004265726c696e2d5370616e64617504000000cc3a000000000000000000000100000032000000640000002000\
  00002900000000000000010000000a00000000000964873bf53947be8d796a3bb7daa3bd78483cbb673f4abe7fb1013e\
  e9cafebddfa85f3d7006c8bd686a223d785a53bee446413d7f930dbea29890bbd7c602bee73e123c0cd046be5331ac3d\
  d9d6dcbd952d453da2d153bdb8bbe3bb4e6b85be668fcd3d08bdcb3d0240c5bb48f4f7bd8f5b1dbd29a21fbe79a55dbb\
  a8ad75beaccb043dafbc44beaba93f3d59fdc8bdb6c0ec3c3b3475be670d053d96eab9bd6602c83dd8da71be79ae6a3d\
  ae357abeec56123de5e19ebdeaf1ab3cdccdd9bc34f5a63c4bc37cbe211cae3d088b16be3b53013e93d6c7bdacf8b63d\
  36cb4bbebd3ebc3dc84b16be8473cf3d45dc31be5cd6ce3dc7161fbd02512e3dbc416bbe5f4c003d353c703e49f3f23d\
  e4da453e4f25c53b6af2753ea83dd93db7d3473eb028bc3d4ad2203e2628033d0856463e132592bb5e87143e39f2ee3a\
  a5e34f3e8b02ae3ddeb8653ed64e093e441d433ee635643da4c8dc3d4b12fb3dce1f823e0710a93da00d263e6847173d\
  e62b3c3e09f85d3d4d48683ef4feeb3d81da633eaa2fea3dca17213e19bf843d4fa1433e6c957abc89ca813d5118873d\
  75930d3e4530993de664343e634d9a3d15d13d3e1cb9163e6ec0293e3582823d3e863f3e7472083d9828253ee88f883d\
  586a233efacfd13a8f36633e3cfa893cf2437c3e6660b33df166133e5da8643dbdc95e3e228b733deae00a3e5d4b133c\
  4654393ecdd4803cf694a9bdd888023e81cfc0bdbb1d1a3e1fa7d5bdc4d5b53d38960ebe44cc173e44acc8bdcaaf5f3d\
  20f5d0bd596c253d5ca518be9267b43dc10eeabd354ae2bd5fb1bebd30d8ea3dd555fcbd6126e4bccbb90fbed1fae23d\
  0f6d16bef64ee03df89308be462de93dc377e5bcaaecfc3d543f08be9843b8bb8abf2ebdec2abb3c57e604be9ec20d3d\
  65228dbddf12643ed4759dbd6c2cd13d18152abee759483d516e61bd1866f83dfcd00cbef44d393d07b0adbd9c24953d\
  5f66b0bdb2babc3d498b1cbe2357883d827dbcbd1da4133e95d5e6bd24eb2e3e69f223bee4aea03d909da9bd061f4e3d\
  c30812be9b06383d91318abd1ee7923d9b88e1bdb4aec13d1ef805bd9463983dedc8f53cc9abb53d43e7f5bc011ece3d\
  6826503d39b75b3d18b3a73d66776d3d38e335bde8f1ef3d91ecdb3d9250933dbd72833da31e0f3e512fc5bcd4bb653d\
  ac36003d1d0c5d3d18c5bdbcda08653dcae0e13dc90ba73da6d522be1855dd3c928f12bd37ace23c0af0203d1a0e0c3e\
  88966b3c5096b33d901493bce582b73d17a9acbd5bea0b3ec1358ebd5dd1193e84c782bd13a5463efc6d9d3d66c9b43d\
  9c384fbd55a1e23dc202dfbc9b08f53da179cabd30d2ee3d02065fbd66fb203ed03a053d234cc63d16f2713cdffbc83d\
  3d991fbc5a46093ede83c9bd10f7843d5e02e8bcb02caf3d3255a6bd3ae29d3d04248ebc882e8abd353badbdd98f2bbd\
  c0b225be82d614be80ed08be0ce1cfbda34863bb9954dabdbeb10cbed1f404befd76c7bdf1fb22beda37b8bdf1e61cbe\
  9c0653bd635e1dbe360898bdc3bfbbbd809982bd8269a3bd5abda5bde7c80fbe8ae5c13c9a9f91bef7fcb6bd66991fbe\
  022f14bec88b98bde04d18beaf224abe97381fbdca1837be534e09be1bead2bd55ff70be4ac10abe90f493bda8c911be\
  26c1f3bd24e4c6bdc98d0ebe9eddc6bd42a24bbe889b1dbe1f70b1bda36667bd2c2efebd7686c5bd3e34a1bd4b4a56be\
  4c3d2fbeaed416be57589abc9d3385bb74c409bea651e2bd271855bed1c426beb8a712bee1a617be3dcc52bdb1b2d5bd\
  7fbb34be7583b8bd473ae6bddfda87bd4e2b18be6de5c2bd2e3694be3c35bcbd85e261be9a4c1bbe816776beae5df2bd\
  ca7d1ebe89ab0dbe6f9945be08193fbe798e31be928f18be5a702dbe0d23f5bd3bb44cbe259da5bcfe4b7cbe871ed4bd\
  d3bf30be2b7520be93a419be7697093c01022ebe0b97abbd286d06be1d6dfbbd2abae6bd15fafcbd2aa43dbef7ab9ebd\
  1a926fbe534281bd47d037be2b77ecbdb40e64be549a48bd752606be858a0bbe937699bdcec8c7bd6bd707be918041bd\
  8b6757be7ae4dbbd87ff60bef685acbd20a160beac48d3bd01f37cbe7f4fe4bd74d255be848b6ebd1d1447bec009f4bc\
  8ebc4fbe5a9a00bc846d5bbe20f5aa3d1ec353be5a82e33d9f2e003e088cc73d45ac7a3d6e96853dafc63ebc9ea8d23c\
  21bff53d4da1913d71ad323ef261a03dbc5b743e4743bd3db352143e0676083eb1f8d93dd319ef3d70a5243d3284c53d\
  5732053d4cd9843d3205243e4b32823dd4f7203d2c53e0bcdae50c3e7b9031bdf409cf3daa55193cd84dd43de89d653c\
  e469c23ddbf2663c66fd9b3d8a73933de021ad3c6bc6e63d1bd7483e7022d63d847c0d3eab97243c9d75903d6ed31c3d\
  2c8b8e3d9947163dbba5813c3ad9513da34b323ec310173e4f31073e91fd42bd25e4973d54a1d83dfd5a03bd795e653d\
  bfc3103ea254863d17d3013ef42eb43ae285de3d23fd0e3d9e2f6f3e4770cf3dcd543d3ebab5943d32a4653d0e04733d\
  75eda9bd07049d3d97d90dbe341ead3d40c18c3b877acd3c9ee3c3bbfa18d13d909f82bad7c4653dacd1d33a82d7ba3d\
  0f7223be40423d3d5801ebbda5899f3c63c5803ae7fb5a3d1ad970bda0f2fa3d25b222bce6d9a53d3be7633c5b3c153d\
  ba1119beb843933dd0eb4fbddcb2d63d13913bbdb9c4c23dac87afbc9e68703d71e0ffbcf67bb03dc937aabdaba3353d\
  f5f202bea789953d570e80bde8978d3dc3fd82bda36b853d3dbe2ebda607083ed4d819bd1a6e993c91c0fbbdc5507f3c\
  3ae0bbbd233db23d92c54abd497d8c3df37b21bd1b5bcc3daab152be384e173db42fc0bd44d51e3e5d2fdb3c6d5bdd3d\
  e726c03b5132a63db60d8d3ded96babdd8760fbde440663cc50ddabd7c8608befc3bd4bdaaea70bd100730ba570717be\
  498811be175dd6bddca66bbd7e55263c6ecd28bb3de4adbddedad63d22387dbd10b5bdbd5bee59be1c5de6bd322305be\
  3b35073d923629be28839a3d7ed3cdbcb41ea9bdcecb00bd018ed6bda24e9ebd9da9a3bc364af5bc2faa2fbd986230bd\
  155211bddd51c5bd0fdff43da39ebfbd07c20c3c8a2e01bd1c1532bec510f3bdde75a53dd450263cb45ae53c08ae79bd\
  956ea3bd60207bbd980c3d3d1c2bb6bab9501abeede04dbddbd5c43dc2f8253d0c28803c8e0f273c5222a5bd190cecbd\
  3b880ebd398dd6bd4ddb10bebee2d7bdbddf713d7b3cf1bc419c3bbd9d5a28be2355bebc6ec2b83d4b3adb3d932598bd\
  910f943cae70e7bc87fb653dc81131be4703843c33db653ced20a33df449e7bd38ad36be91201abe258bb73c293f29ba\
  1045c6bdc1e6bfbd2d6a243db2f811be5c5b66bd5167a8bdf4b6883b21d7cdbd16df3bbe2a7fcabd67f1013ea8869ebd\
  704ea73c4d0a4bbe5e69aabcfe3a34bdefe6a23decf00cbef929873d24db14bed084be3d1b1e3dbd82acd9bd31e85cbd\
  413bcfbc862e3bbe3463b0bd1bb34bbec63f023e618795bd8c0735bcea825ebefce38a3c645f9e3ce472543d897643be\
  4b18523d4f12d2bc04efb53afc1c27beb5fe9bbc14410ebd2c6753bde8794d3c874af9bd50008cbd32aed33cdda20abb\
  00944ebd620e38bdf986c3ba261f0e3d84ed5abda341bf3d994972bd83e49abdcd59883d5878ea3c792ca4bd1e3d19be\
  6bfc96bb898e0bbeac54673d5b880b3dd8d8b6bde1cfac3c4f24763cc778903b802224bdf6af6a3d26d1c2bd472b2e3d\
  5fb609be1d2db0bd3ef733bd9a7998bc2f1a9fbdb110a1bdd8d4593dd8f082bc56f17cbb8b4e5b3ddcc7febcf54c44bd\
  657b88bd735a473ded68a33c3cfe283d14b0273b1754af3dc5d32abd28e1ce3d5cefd7bd36f5b33d286d29bd9e10ac3c\
  7d169dbc8c02c93d8de5bfbdab62cdbd443c91bd7813a93d29ce10bd11e1f53da3e387bdb142543da507053e2d6c563d\
  379acebd76d3febce5993b3dd016743d70c1293d160fa7bd15358ebda852ef3d29298c3b2b89233d92edd43d65324e3d\
  073d693d34edefbac68ea23d8a58013e6708dc3df02d24bc9e18ca3d90881dbe014f7c3de7fc1abdf412853df6d1dcbc\
  b337cf3d995a1dbd943e1c3d5d47b23d3211403d033e6e3d2534b83c28345cbd56a74c3db032cbbcc8390e3ef432403d\
  f9f3fe3dbf1e723c0b39543d546c3fbda9ca5e3d8fb0c93dfc64803cd4b9603d23ef5c3df10eae3d0847473cfb68343d\
  bbeec2bcba029f3db614bf3dbf0a213cd9f4e93dc433fbbcf2c86d3d406f133c89f5be3d7002fdbb301d593dbead2cbd\
  9a7b553d61a4753b7f007b3cf4a7363c5d7a9e3d295289beec9158be5ea75cbe8c2630be653e46be4d9086bd204211be\
  4bcd01be027582be278643be8f0557beaf499fbda64524be1907eebd7a7135be327919be16a543be53f7eebde7710cbe\
  67b135bd3ff940bea860fbbd56592fbe789f7ebda7dc91bed7e0ecbdf8d56bbe2a0b87bd2aea85be8350bdbd1e3634be\
  462f32bee47c27be77be01be5be657bedafafcbc761066be2079a5bd938619be141d34be9cae05be6c2ec7bdc5f75fbe\
  db23f8bd7c51f1bdb8d5dbbd036232befa0e2ebd327612bebc3621be92415fbe080ba2bdab3fe5bd0ae105bee8323bbe\
  07949cbdea7a45be5e7d0abea19867bed67d33beff9658bef537bfbd264c7abe40dbe1bd23518abc82482c3c178f863d\
  76f10cbe12e774bc811cf93cceadb33d37b277bbd9b8ab3d3eddc2bd31e5203d3c1f303d0423173d26f077bd65f6d83c\
  533addbd2123a5bc5f11c4bc72d11a3d04eee3bc01eb1a3c1171aabd3b5d633c4d2ed0bd39897e3d80f62dbcca19803d\
  5aba96bd5e2d013da3c1bcbb214a873d60fa4dbd6af4d63b8baf09beea88ba3bcfa5cebd6f7833bdeeec98bc9313ac3d\
  f0b7ecbde62bc4bc6a2c03be9c0aacbd9918c5bb386f30bc543f413d5709213e1ae13d3df2dcc63da822ebbc97acab3b\
  6c7dc83b7a02b5bd5c4ff6bdd009263d9a51bfbda86e47bd7e3c903ccf38fa3b703aa9bc8b68993cd0d38ebd5b6c5bbc\
  a80e81bd76432ebe0cd8d8bc864649bdd7adff3b147092bd8394073d28b834bebe8e5b3d3f4ddfbdcdc9eb3cb7bc78bd\
  87cc843cc430d9bdc2a5c53a22e1febddca0a73d9eaf26bedfc59d3d59aad9bde251673dbbf823be3cfc303d5adb84bd\
  843dd53dc192d83b2b1e503df8449cbd43b2633d13410fbde73ccabc069f03be279bc13d1214e93c62bc6bbd1d3070bd\
  53750dbc348661bd9cbb5dbdb99116be9483413dade798bda516c43c400218be740d6c3dc79e29bd7e1a6dbd4a49aabd\
  59cfb3bd041769bd3ad662bc863b02be0c14053c6a87e3bdae47133dabc6b9bdc619a4bcf59a26bcdb249d3c365c25bd\
  1e39a9bb6b851e3cbe6a89bcca07e0bd99f4823de58506bd5fb34f3d0357ddbd99ce083de6969a3d946192bc284d45bc\
  ec09da3dc634983dc75b86bd09ac993de30c953d62a51abe95a3703d9db8123d10c4b63b37bd1abd7e5b703cc0015bbd\
  ebe2f03cf7dc82bd718c933d8b4087ba2a0cd83d7876223dec0d913d5c8ca0bcc811c43d3d3aabbd214c6b3d73b1f9bc\
  750ee93ca30008bd9d34c03d14ff423d6c52a23d97e6f03c5ed3cb3d4dfa85bd41f77c3d787086bd9b52a53c647bc23c\
  fe7e453d40fdd2bcef73843dfe8e33bd9d7ac0bcd3f8f4ba3ee7543dd5561bbd7e3a7d3db4d5aa3c709b8b3d7061643c\
  165b263df0f4853d306bff3ce3b39bbcb247903d704402bee2176c3d22a10b3d6112583de959463d3575013af637a8bc\
  ac850ebdf5e13a3d1d75e53cc29be3bd9a9118bcc95982bb52358a3c66e4b13c6f3ba63b8c0a3dbcacefc2bacc4819bd\
  a4f8043d306ecd3c075fce3c9df0eabd8b4f02bd28734cbdb3285d3ca8e01a3d7057c7bc8075a23cedbb343dea7181bc\
  098eba3ac63de4bda23eaf3df871483d9f09b4bc015a953cf09e71bd69dba8bc2787d53ddf09b6bc59034dbcce1e1a3d\
  73685abb344d58bcfbd1aa3d4fc099bc7bfc393d161b3bbd622e94bc563a17bed2f53e3c178bfebc6460a93dd3d94bbd\
  d6df23bb767f993dc510213d7a5b47bdbc30c13d8f3eb33c21b9873d56be48ba0244d33dc41c32bdcea3933cd77e01be\
  1edb5b3d7f23c7bdce49143e58c919be1f4056bc256cefbd4e65bc3c183988bdc34a453d40ecc8bd3a0d91bcdd4c783c\
  e655e93d6f9b75bd83dec73d089cb9bd4c430d3d40c5c3bd18f06a3d5eb016bd09ef57bd62ffe0bd4ab44b3d6aadfebd\
  268a343da0dedebde591e53d3f573bbedd08793df60ecfbd26ee313d1e55d0bdb825c93cca56aabd3219823dd6249abd\
  ea06f83cb7b0e4bdadf7833d3e7f62bd8e7c553db8db25be3733ca3d35213bbe40a6893cbc01a1bd1f98bb3ddf4f32be\
  3cb6a13ddd87aabdeaa8d33def1215bec0afc93d189448bb61eb063e9649f0bdab73243b88981abc2a50b03cabd8dbbd\
  5bd4df3c4b5421be27b875bda11474bdbfb18e3c07f0cfbd38a2f2bdb6adcabdb52e77bd1c441cbd96fb37bef19392bc\
  902bf9bd285087bd292525be3e534f396a4da9bdccc66dbde387c1bdc27822bd641f2bbd7fce89bd7d3001bd209da2bc\
  1c1f7abd1f96af3b7a2252bdcc7be9bdbd9567bdcaa270bd33d617bd25a501bee9816fbc9d6770bd269b8bbc8c671abe\
  929214bd2f53f7bdad3487bd0e2b40bd115decbde605edbd3588783cc6eb44bd7aed7bbdb71c90bd02ead3bc4b071abd\
  8b4ab5bd35623ebde9499ebdd7b68dbd2e9cd73c8ee87ebcf26fefbb8065e7bd0e8a37be9aa216be6455c8bdc4be5bbd\
  42b0a1bd474ae3bddec455bd097a6cbda14f9ebd5ca253bdfe05cbbd8c8d083d022f2abdd795fa3d78abd4bd5341223d\
  cea3c93d3bb8a6bd713aeabc34d4013e5b5b513dfc755b3c7b638fbda948853be0bad7bc1435273dbf6d4e3dfa962c3e\
  54dc23beeb748f3da20f07be8abae93c7545bbbc51bbf23d9bc709becc5de73d2ced24bed2f31f3e4b7490bd9d92a73d\
  a36090bd6b43513daab176bd93da2b3d3f0c82bd93108a3d948a303df34dbf3d7ce919be24e1a13d38d51bbdcfd9a13d\
  7d2f26be183ca83dfcd7dbbdba961c3db4c48d39e9e5df3c02db0e3d5210133e68e1fdbd98d1883d237aafbd0f451c3c\
  903b8f3a1817de3d27b99fbc4af8933deb0ba5bb8c91933dba302fbd049341bdd65576bb961eb03c6e2b17bd9fdcb83b\
  22593d3c62c91d3e25ef2abc6fa7373e75779abde116953e3dbd00be2306803e4f7f603d0813573eedb06cbc12a2863e\
  7efda1bd6f0a2c3eb9ea01be544b5a3e501fe4394ee9523e4a1e723c1f4a593ec7f5f5bdc943443e5c3a7fbd7cd7753e\
  6c6625bd6b86683e4faab3bdd13a933ef47ba9bbf8d0553e9de6b0bd26e4803edee10cbd27d98d3e492cf1bd8aaad83c\
  aeac40bd2e120b3efd6c5bbd6e91c03ddefe68bc2851203e584bb2bdc494863ef0275abde822193ee185333db7af403e\
  1280cf3b80c7313eb50187bd302a153e81d90fbd99296e3e69de9fbd803cb93d0260dbbd9e78583e7b3a86bda126a83e\
  d1651b3e69db4e3edd2803bd8455553e87cb173d7919f5bd89c91b3e63e879bd5e42c43d59e91fbdb3d9d33d7079223c\
  55c3793e8ff088bd1980f73d4a57babd5f45313ec4740ebdaea0763e19412ebc188b113ee14d77bdf0b3413d42671b3c\
  0678503ed260fbba3209143e5d90a6bdbee7bd3d16af05be21e61d3eb41f89bdbad8e13c536607bea0d7c23d756002bc\
  13c68d3dc56917bdcc63c33d689299bd455ba63d18c9643cb6caa73d6b7b4cbb38c20b3ea753dbbbac70bf3d65f1a8bc\
  e73a1d3eca2963bc5288443e1bccb6bc44db1a3e97db8dbd33bf103e90b3bfbd989eea3c754fcbbd3132503d22f7b33b\
  edf8ee3df409413d5100f53c11383fbd6883383ead0c253d7ab8063ed1ed2abc1e4f133e5524683de3320ebec6c3643c\
  c06020be36ec653dc7a42abe4c072f3d2d6509bc6ef1083e1c2379be3752b33dcb5c9dbdf5a0223d392082bd76ad103e\
  2fe4ddbd446cae3d791016bec81ac13dc0bfd6bd9abe933df45d41be6293c83d5c6c40be1e30953d153feabd7510123e\
  5908f1bd41e8e83d17a69bbd9636a13d029739be6120993cbe1fe8bdc58a203e6025adbc54a96a3df5cb40be690ca23d\
  26ff31be7aad933debad29be04fe8f3cc7d45dbc6c6af23da2866bbe5b847e3d3aca3cbe74517d3d0e3d58beec9e1c3d\
  7d2d27be28a1853d65a238beb30e8f3d8e5ea3bcdf3aaf3d708219be501de23d9fa9f1bdadc34d3d8e0c08beba0a9e3d\
  31f21ebe14951fbda84487bd2b2dc63c8c9d76bd86fed3bdbd92e4bd8989efbc56b223be2980b5bd7b823d3d4d40383d\
  319748be6bb8e4bda978b3bdebca19bc8858a1bdcda490bdef1d85bdba0dd7bd5164aebdc410d7bbe11b683dce7a25be\
  fe64b03c9e0dccbd541a90bd976b5bbd83ae24bede3dad3d09db8ebd744677bcd266f2bc544039bdae3f3abec4dcd9bd\
  c6251fbe01fcb6bd9c62dfbd6547a53c4da579bd61afb3bd471acdbd9bd66bbd0b441cbef63d12bd812a03be2d2c86bd\
  434522beba1fb2bdfc60c6bc308e3abd887e2ebe53ecd1bdca6b08befcf6e9bdccbcca3c58fb1bbd239a0e3dd1138cbd\
  f5e4fdbd76ab50bd5680efbd94805abd7e2a71bb22b16d3e413a9cbc4a98323ebc7604bca525813da1a13fbd5ae4283e\
  0c4780bcce72583ea8f71ebdcad7fe3d4a65e13b2640623e3cc0ac3a21612b3c9e5dba3cccbcb93db4a78cbc505f883d\
  b5dc8abd2687193e0c78853b4dda503e756b05bd2286983e5c16e8bb077e063efcda343c165c233e8e95b53b9f41033e\
  fa941dbcbedde13d4dd04b3d3169813e8c07a0bd88aa113e4cc303bdb7025e3e9f55b1bd0621463ef818d9bc3cc5ba3d\
  cd4d1a3c027df53dc2ea4ebd43bce73c49ed1ebd380f4d3eb970b0bdaa6d1a3ee3b2cf3cb324cb3d7cff403d050f133e\
  12b8b13bb5ca553e69b414bd1828e73d3c2b143cd39b373ef30b13bdbeefea3d4bb19c3d5e5bd6bd89e4c23d07b234be\
  dafc55bd08102dbe6892913ca79dd7bd153ae33979d786bc2e4dbdbd675491bd1399963b9c7b5abdb03c98bdf663e6bc\
  7cad43bd44d899bde22221bd9b53d5bddb735fbd697e4a3c174d893cfbfcdfbd116178bd7a60bebdebbc92bd0003f0bd\
  e6669d3c467082bdebb679bc566c52bd1088fa3ce37aebbd1d9e83bdb3fae5bd0334a1bdfc2960bc36a66f3d6850b5bc\
  f4cfc839e1f7bebdfe4d9dbdff8993bddc1794bdff3ffebd319f823dc66949bdcc8bc1bc9705fabdb742ccbcc18f213c\
  bbb3a93dfbe7fbbd0057e9bd5417bbbdbe7909bddf7392bdfff88ebd1d66dcbdd635343df56fb8bddb25c23c10c1a8bd\
  14f585bdab7f3b3edf9c923c037b113e3aa4f83d4e1e813b5664473dc350803ddb35513d3989c33d0dab013e9e0d0c3e\
  cf02113dfbef1e3d00275fbb27b6343e6108123d3c5d36bdc1cded3cd8c4f5bd43a20f3eec57a3bbf0c2d43d643c0d3e\
  825b173ec6dc8b3c88709d3c7eb4fcbc0e5cf33db72b7d3eacab93bca62a4c3e670172bdf476f43c5da1a8bda4fce23c\
  9a1088bd9a23603d4ebb923d9386523c38252dbdd7451c3e00e8463dcd34573ef8c672bdff2e173e94699e3d68b12e3e\
  08b5ae3d13121f3ec018e63cb38e363e443a7f3cd334dcbd0251ed3dedeb853d98f02f3d188654bd244b013ee9553d3d\
  f2ac27bd58123c3e4c9408bca4f09bbdd0832c3ec298f83c07e2b7bcca130f3e8c0fbabdbbd4d13d94b9bbbd9268123e\
  4beba4bd02d5573d3d7616be5180b43d0fef05be843e4b3e95f7d5bdc329f23dbd67d3bdd142b4bc067330bde707123e\
  c6e5f3bd181e1f3c1cda73bd3913273ef7fc4bbd34a3303d7c733cbe3432843c62f819be48d85c3e18d6f1bd38c91b3d\
  5609e7bdef42de3dac12843db692883dc75370bd1fbc963dbb0176bd1cf16cba2a72fcbd26339d3de93b18bd5af6c73d\
  7a7c983a1000203d73c6adbc72c8c53d76cf14be3cb6d03cf6f7a6bcb373773df15399bbf1b0ea3da08e61bdb0d60f3e\
  3d25d53c5d96103e885815befbe3283ef230d2bde9c5663eecbe15be5ceb143e81ec44bd0d0708be3f98babdcd7b8c3c\
  10f9e0bd3204373cf4b8b23c6916333ce4b2ccbcfec2b1bda8656abd3934c4bd2182dbbc481085bdb1e1cbbdf9b1b7bc\
  7986c23bf95c44bc629c11bd90ac993de4ed43bcd6da85bc4d4f30bc7bd45d3d3f9fd63b1781e03c52daeebb1012353d\
  b7ee333d502db9bbb42474bdd56bc93d7e0f67b9a906133ceb15c1bc97ae6b3d62fd36bc21f86d3df1935dbdff7c97bd\
  9d010fbe6927bb3b2bf2283da4d496bdb50881bdb8a7543db11e4c3cc7bb763da1fbe8bd74319a3dd66a44bd6331123c\
  f63123bce8127fbc1a2027bd01f661bdd34d01bc1a0617bd35ecd3bc5252be3c82cb183d7c86393e086b703d984de9bc\
  8c9c3dbd98e15abeaa57e03cb87320be9409a53db6cb46bed3a1fabdd1a13bbde3190d3e0874ecbdaa38513d0e16bcbd\
  1cd0a83d58a5f7bd9590e4bc3d7eb7bd304c96bd579715beff7ea23d01f65fbe7017a5bd29bf89becf0749bda68d02be\
  36d19a3baf5a35be27cad73d358a6ebde70aa93db7b943be4f59853d46c5c33c340e993cfa6c46bd99d0353d06eacbbd\
  fbc0673d8124cebcd365ad3c52e18dbd60b7573da5aea4bde569c63cdf2712befbf5a8bdb0de64bd18158cbc677005be\
  29153cbde80d23be3549c43daa1086bc2a160c3ee2e395bdd517833cde5d94bd2710ef3c128904be9c8d543d7d91ccbd\
  47781c3a641ffdbd7dcf863d7e0514be4859293e500169bd1d5c963eecc88ebd0755dd3c6b8a05bbd5ed893ecb33a2bb\
  e9e3a43ed79b22bed5a78b3e17f97fbc7d347e3ed8ee9dbdd2ce7b3ef5d67fbcb1da443ec5ef89bdb4c82d3ee0c093bd\
  6c3f8a3e8bbd74bd3920503e721ebcbda7ce733e2e9889bd5cc26a3ea1e0e3bdf460493edce8aabdf605ec3dc3e892bd\
  499b4c3eb88fa1bd8e67983d27492dbdce1e4b3e07c3e9bd408b703e48f9cdbd94998b3e263d84bd751c743e6727b3bd\
  a513023e465cc8bd8eac233e5bb511be88775a3eb38936bd5594873ed7e523bd44346b3eeea6eebcdc1e783ed44b19be\
  a724513eb7421dbebdc5063ebe9bcebd614c513ed1d72fbd8877503ec99c81bd67a89a3eccb2e9bdbcddb73df2bcc9bd\
  17a8823dbae122be399fea3d57180ebeb8c8aa3c111678bdce0f403e9e240ebd50ecb23d861edcbd0a99003e7cde18be\
  3229fb3dbad3aabd6bd2263e30ba193d4963dc3d979bdabd475e703dc5e9fdbda329063edc6290bddc9e033e429b27be\
  7ce6043e9b0015befce2b33df93f71bee172c23d516cbfbdb377343e0088a4bd50bb843da799edbd95003a3ebf031abe\
  c5e3e63d64aeb4bd51be263e972832beb2e0d53d04b084bd1a3aca3d59f150be1937973dfb42c0bd47cc843d1090d0bd\
  1baf583db71966bce8e4073e44ea67be6c53c73d2648babd6606183e83dbfbbde87d123ea148c9bdaadd253ea5d0eebc\
  6ebcf73dadfada3cb7f8b73ceade073d6829abbcf5d1ad3d65cf08bd3ad0c83a19922b3dacb611bd54dd7a3db0c206bc\
  99bc9d3d1ed5343decf799bb7444cc3d781622bd7146babcd16b9dbdcc03663c59c4283d2bb7973de5193d3cb1d257bc\
  e350aa3cd7999dbc327f773c6d31e93cc70f993cba6dcc3d5fc9393b42f6f03d20302dbde3b59c3d225b0c3d7fc9bc3c\
  0af3a53d5a134ebd72d6053c5e74773cfd81883dd123b6bde58b003ccb59cabdc16a743de48c923dd2b39cbca0b5353d\
  d9f0803dc4886d3d1a166b3d8daa42bdd2a69dbae3508a3c1e62003c28a66b3d60b4be3d8348bf3d0a8a573bceae54bd\
  96d4b43d0fa6823cc03b83bd962e06bc23a0033da468203e344245bdb729fd3d668a6d3d9351893dc173f73d2167033e\
  7af936bceffcad3dfb7e69bdaeb1f43db2397dbd21cf943e8cfc493cd57e6c3e7ce4d23b0420fd3d7aa7c73dfc8f4d3e\
  bf2865bcad8fa93d1fa4063ca2da073e90b7923c892d253c809fc93d81ce1c3d358453bd77271e3d127423bc4f6d2a3e\
  f38ed9bd560f393ee54782bc08ffb63d947e07bcda2a26bd72b2003e39da993de3540c3d1914bc3d3247ccbd9069b93d\
  5b911dbd195d6c3eb707463cf7e0003e24be46bd8326c83c55e4dc3c6bf0f0bcb74aea3d4b64513e30ad283d36bf343e\
  da7263bd748bb63dde480e3eb8c5c03daf151c3ee9a109bd2386063e91d4833d9b533b3dcc88533df4d5413e63a5c63d\
  8da21d3eae46c73df018013e02b1ac3df3141a3e100fcc3d25c8773da720003eb8f9e33d1a258a3dd2ee233dd2b5073e\
  9cb6bb3d24eaa53d2035353d22f9833dc0a92c3e940fbe3d4f3fa93dba2cbc3c0f439c3d57632c3ee10dfc3d9f47b93d\
  e9f5723ebf38683c0484b93d85b6033ccc3f903c1f24da3d21775c3d3061253e15c7963d2ff79e3b7a40693e1a95053e\
  fce39c3de25d4e3d26320c3e0ce682bc43a1f23d256edf3d63b4cb3d94cf9f3d3dc10ebd1245063d86cb823dd6b7fd3d\
  877a1d3e147de93db841833d4d2dc23b8da0453e2579ca3dd194a13da8ee2f3d9063d23da8a28fbc737f0d3ddfa91d3e\
  1509da3d676ec8bdf05d6dbc1ffeb83d5ea7073c48a7c6bc8a0bdebc2e4124bdd4cfeebc6354a6bd6d9b08bd248f63bc\
  d972333d443d1ebda5a7123cbe3e133d0441b83cd21ef1bda7e7f7bc4429e1bdf2e077bcafa0d7bd22c03fbd44ae97bd\
  0164f0bc21c160bc986051bd4accf7bde46cb43c4bd6a9bdb65be3bd2ef8a63d77faeeba1cd7dabca9dea73cd969023d\
  a259973d098f80bd22878dbc33944b3b985ab43df5c3ebbc0e8c6dbd51e9a83cc85817bddff14ebd4d94e8bcf754a6bd\
  e1d25dbd80a165bdef0058bd309e6c3ca8de113b8f84efbc91ec93bc0e5766bd9e78d2bc826776bd3b05f7bc083458bd\
  86ac5bbb70881cbd94de373c2121b1bcbeb7103dea72f13d544e433b30b5c33ddf1466bd80b43b3e05ef593c8a1d1d3d\
  c31dba3c04cf433d0b98353942c6863df29ad33d219f8b3d3ba5c33c28aa663df6c579bc85ee093d1489a53cc991083e\
  a81f2a3d16c2afbca40f5e3d048eb93d5fd5a63de024a13d7eadcc3b2e1da63dc4f8f7bbff82473d2504813da2b0bb3d\
  2c4620bd98790d3ef9d9183d4fe4fc3dcc75133e9891bd3dcc8bf53d87992e3d18f61d3d6f3e0b3e744cb03de0e2263e\
  4dda9b3ddd5f163e8c83aaba51d0063e7900b8bde97af93d8e352bbd2bd1543d79199d3dd09b8d3c91cec2bc29f0e23c\
  5afaa23c7e09d53de6db95bc696d653d06720bbd0406bc3c38377f3d8a30023ef7b48abc2616ad3bee99d23d3e3af4bd\
  fc51193b716a84bd372b803c50df19be8cb20b3d6f131c3cbd2291bd79f321be59ed7ebb5d2a123d57038a3da576c1bd\
  9afeed3c2c11ddbdb72d063d39f970bd2e90ae3b32950abebb26203d48b82abe197a063e9877d9ba7a240d3db41edcbd\
  9f6fc03c42ffa0bc6c258e3da4a81cbed8b6d3bdbef051be02f5023d5f386cbd8421fe3c4eccd13c0960c13c48227cbd\
  4924143d5d501fbe2bb74dbb67654abeca71dfbce7d645bec2abbabde93203be992f8ebb8af5dbbc0bfe2f3d2fc9bf3c\
  0fd1f7bce6f746bd5e7bd23c9aa11ebd930e3cbdc1d9f1bd75ad293da0150bbdc0ffef3cf08dc6b90f0f8c3d9cdc2dbd\
  c896a93dc41612be4638b8bcb239bcbde382253e9725c1bdd8bf45bd1fa988bdcf3280bd199400be1feeb43ca6e042be\
  3146b9bc6b87fcbd056a1dbd8008e8bd8fa01c3dd85736bede7dc6bd20c8b2b9be3a04be6cd897bdb0a71bbd47e083bd\
  c5a8a33c2118efbdfe7650bd6281edbda447b3bdf3648bbd143aebbda974bdbdb1352fbe72fccbbdf2ab23bdea4818be\
  a02a96bcb83bdcbdda5605bc546db1bdb181c6bd242eb5bd042d823d409ed6bdeec2dabbbcaf0abe07f97fbd9318c1bd\
  9c99a5bd6cf7d5bdaa827fbd6827afbcaaefa7bd4932cbbdaed1ddbd324a08be122be4bc265bbabd3f0833bc3eb87cbd\
  67e6c9bc312091bd2a5767bd046a19bede9b313de686c5bd79d1c2bd8bcc70bc409816bd27fa7d3c406f3c3d8ddd10be\
  699c063d798659bc10d9dbbd6e43d33c90b3123d5515e3bde145bd3da6d1d8bd8445fa3c7b8aa6bdabaf543d5cd995bd\
  50ad8b3d2ac480bd1ebc71bd7336ac3c1c5f133eaa1cb3bddd9fa33c18fb6ebcc0f987bd05f89fbc34d096bdc1c716be\
  3125adbcb88389bd709cd3bd018208be769c8b3d4bc413bdd9aff4bc0bcc9dbd216ee93d428d6abdc60d023d1574f4bd\
  5a5f123d141b5abdf76a06be55bfc43dc300babc07eedebcf67df53ce896a0be431b853db8a6e2bd83417dbdb6070a3d\
  341f4cbd825be4bd4675ba3d3f34f0bd41da06be2c8985ba62d9993c2e5861bdfae3883bcc440f3e4e5199bdd495243e\
  00cb8dbbb1169f3d630dcf3cf5f20b3eccfdb6bb6017aa3d8ea2c0bd76c5323ebe6893bba820503db39c25bd673aef3c\
  d029e2bd58d74f3e190cf8bc9bbe073e8d0e19be11f1303ecbb499bd7cc44f3ece85b43b79239d3dcb53a3bd690d113e\
  2805fb3c7267293e25ce1cbe1a85153e5e9151bd736f1f3e14119bbd9ae21e3e303673bc3fbdf73cd454583db465383e\
  8b6b91bce85be23d7e57163de236273e507b95bdeae5053d8ecfb33b4d099c3db05af3bd0201533e4d38a0bdd60bde3d\
  590fa63daa84f43d371adabd8cf8493e8edcd7bd8377573e7cc800bd331e283e58989abd5c668d3d47da883daf1eb73d\
  b0eab83d438ae43cca0d5d3df556bdbd8294ad3d7750cd3c7c6c543d24864d3ddafd993d41f6d83c332aa33ca0afac3c\
  18774d3dba66183d6b0ae4bb5534aebcd4898d3ceb63aab9a2517c3d3ed3513d38ddc73c1971f53dad74853d3c2badbd\
  f48599bca68810bc54bab03daaba77bd7aa9143d07b1123dfd608c3b8be9d6baac19e23cb064a33c741c1d3e92656bbd\
  446862bb2f83a5bca7a9babd6e43ab3c94f8d53c87c2b5b92024043d3f073abd42e98e3c2f2ba8bced8584bb2435143d\
  bfdfaa3de33763bd07a3f0bcf60d96bd22fe093c8cf33c3c1743e73dd3c69fbdd0644d3de32f99bcdee4023c49cfed3c\
  7027463d9ae641bd36c6b23d74b5983cb975843d2e499c3b66556fbd199122bccf90a4bd9dd144bdaa6f4ebdbbffa83d\
  f092debd0c6f7c3dbbbc873db9d5973dd25a563d7517bbbd215fae3d2c2cdabcc47d98bda4c3a0bcab812e3c0d0271bc\
  967b11bc2700283d689b813d70345dbd8c58aa3dd0e1e6bd6b7dae3c6de68f3b4b6c4d3d093f843c09f091bddd7ed43b\
  b64fccbaa4f99dbc038bad3d9541b93c090b1abd7a5448bc3c189d3ccfe09a3d3337ef3c1900c83d63c0153c96c43c3d\
  dd378ebd6ae8cd3c9b6a81bcf375cf3ce3c0aa3da7bd883d3e5b77bd5d2fb13c708484bd2c540f3c0e77ed3c34f3623d\
  25400abe6fbdffbc9411d83c069cf83d3d9ff4bc409e953dacff05bddad5613d86390f3d4b63503d7648873dcb39e7bc\
  7cc7963c076d783b8a0907ba4188923d71b2183ee24d2dbd14fc673d97138c3d8817e53de280ea3d5523b23d985c6f3d\
  7433313d2dbcb4bc823f9f3c64c0e53d48ded83c4537873d16a0253e2411ba3c8c00c33dc425223d70f71a3efb45a33d\
  6271143ee0c1193dee04233e56b1e63c9ea9db3c3f15b73dc97d7d3dcebb593cebb2893d12975ebc7c5214bd3b248b3d\
  49039e3db5de293d415b1f3ea347733c49bfafbd7630e4bb50c1893b565cd03d6d818e3df679d23ce080f6bc7ef12c3c\
  021bcf3deb50373d3694be3c587a363df760ca3d36ad6d3c1ee4e33d00c0b83938499fbb95f4a93de6b0c93decc133bc\
  c34feb3dfae9023d22cfedbd11ad233ccdea4cbd3de6b7ba03467bbd7721a83d251610be5738953d0a20183df656e83d\
  42a2e5bc93c6da3c4f1d94bd376b803dfd5d82bd957ae23d81a694bd6a6d343d7c1540bd4a0d503dfc22f5bd27fb84bd\
  09096dbcaf29173d069cf7bc952c103ea01420be0e967e3c458f2ebc04bdf43cef1b69bda8792a3b68c9bfbd14ae6f3d\
  fc53753a7b25463dde40d7bd8983e33c60bab5bdd778173c2897a1bd27e5843d5adbc8bdcdae253d7b3e0e3b3835e83c\
  5cc6c0bd7e419d3bd19a20bd7cc0aa3d3d0030bd496f463d4e9b91bd9915da3d29e2ccbdad37993d5e66fbbd3f15a33d\
  2d594cbc50b2ac3bf51c5a3d7d15803d65d3b2bd0dfe14bcfc8c13bcbd8c353c98b836bd7f57623defb2193c003bf0b9\
  211bf0bdd6190cbdbd09e3bd002f86bdd23e87bcc61ca4bde3b58fbd782a34bda15287bd93af2abccd7dbcbb80d623bd\
  0bdb02beab3d41bca24f21bd125ee83cd02fb4bd874c7ebc541fd0bd73ede3ba32554ebcfe9639bd599aa4bd6eeb7ebd\
  91fe4d3dbcf186bca6e470bd888e23bd6a76ae3c135a07bd4c165ebd0d33163d3ab4e1bdc7985bbd473d45bdb9e315bd\
  0bd2b9bdb90534bd933c17bd4865dfbd73d190bd16850cbca01fe8bd4700e1bd0c7370bc150386bdab24d5bd648251bd\
  cbd182bd6ccc16bcbe5caabd76d144bd8329f53b654088bdd78007bef662d33b450e89bd0e740c3ec36f953df886543d\
  2c34383e6dca173e95cede3ddbc3d63c28b4313e4846fe3d619e333e4f89ae3d420b3b3e1848a13d8cf60d3e20edc13d\
  7cd91f3e0ecdf53d5190cb3d9073123a85af173d681da43d2d9c9f3d83299c3d5c41143e7c18aabd8bd5a33d0102e23d\
  c8fea93d3af34a3dea294e3eb5a4143ebab32f3e34a1883da82b8f3e265d333ecf41113e0c55663daa3d4d3ecd88a2bb\
  c67e5f3e9aa5933d06972d3eb45efe3d8623b03dad22143e43ce0e3ee0bcee3dd2322c3e68daf93d2eee103e6328933d\
  0d32733e19de9f3dec7eda3df765df3d2dc82c3e24513b3def1f6a3e3092083ec3dcf53d3c9504bd1346873e2ce8f03d\
  2c9e2f3ef65314be3521073d11da1dbe761f383e248771bed8cb133ef298c9bd8c18333eb0a3aebd4e84d03dd4f136be\
  b58b203ec82403be911f843ee892e9bdf759153e259134be45b7043dba484bbe92b7073e523155be68028c3cf1acd3bd\
  b5493f3ea8c562bea4b5f93d19174ebec0b3073e572efebc8a32733ebf8761bebd00b13d6e5215be85d6073e4a88a2bd\
  8a0ca23deed443be42f3613ede9600bedac5133c9adc18be429bb43d90d3ecbda7b1013e5c7185bd3997943d35d110be\
  5175e73d52c165bed6b4f23de97ee6bddcea433ed46c7ebd9944353e0ad255bdfdbcd53dec433dbe3e81b73d635a0dbe\
  3d0bb0bcf06b3ebe0838bf3dbec51fbee70e143e2f19cf3b3bb04fbd1503cbbdf7cb8dbd7cca62bd3b2c283d01717cbd\
  cd3991bd6e565bbd962fbebd70a5a0bc8a13ec3de03e563c17e439bdd88fd5bdcc0c55bde4a8bdbd12abcabd358e6abd\
  be61a3bc842e01bd1b3d8bbdd1eed9bc7cb6e0bbc0dec3bd3162dcbda7c415bd2cdccdbc8adaa1bc7645d2bdda3750bd\
  422305bece98873d2c6ba43bd21f17beec7197bdccf7b03c139ebcbd981b8dbc52f09abdab87eb3c36c1413b65408ebd\
  f7458bbc48f8d4bb6a2b34bead7ec3bddf02aebda498babd92dc103df10ec1bde95c0dbdfda5263d06ae35bd60f585bd\
  bf32bfbdce360dbdace647bd5e15a4bd69fcdcbdefcba9bd41c3c7bdad469bbd6c52babcced79b3de1d15a3dcc1ca0bd\
  da4e14bd680f843d923c663d4e338bbde8ccae3de884073b74efe0bc47bc17bc28c3dcbc1dc9063cd910c6bc9a5717bb\
  b1355a3d4870e6bdf91d8e3a226178bdf18a34bc33fc14bdc15d5ebc83a93a3d793089bdab02c33cf754b6bd50ada83d\
  201820bdc31901bd8ede5b3d8f00f0b9ad835fbd0bde763d9a5beabc91de033eb3c6ccbc6a6ce93cd81065bd0ec7023e\
  98b279bdaee670bd8892f5bc1a175cbde4b09dbd5956713da71acebd823c18bc8a5c293da48eb43cca10e8bc033746bd\
  fdc720bde59f90bcece6d5bbe0f469bc625c693cec46053dea70143cfc1c923dd177f1bdbdceb5bc2ea1e7bcb859e93d\
  a473b83dffff7f3f0000803fffff7f3f0000803f0100803f0000803fffff7f3f0000803ffeff7f3f0000803f0000803f\
  0000803fffff7f3f0000803fffff7f3f0000803f0000803f0000803f0000803f0000803f0000803f0000803fffff7f3f\
  0000803f0000803f0000803fffff7f3f0000803ffeff7f3f0000803fffff7f3f0000803f0000803fffff7f3fffff7f3f\
  0000803f0100803f0000803f0000803f0000803fffff7f3f1d150b180d020b08130f19170d0f1b00050c0a1f1f1b1a07\
  1409031d071c04060613110f1e18061f040002090f1204011b000318011d061b030a060111011f0f001e0002091e0701\
  14171d041403010004000d0913151d11101c0d1f0007160a0705130d12190602141d0101041c12140b1203090c14091a\
  030908001400131f19141c0e170c1411050618180907011101141012070205141b191318060e1613011205091a110718\
  06161e021c101b11041211181d0c01050418160e0d1a10081c06000604000a19090c1b1913031f1d100a111a1b13011d\
  151611091a0d0c11150c0b1a1800130619170a14161e1b07060d1a1907151817080a1910061e0e020d131d1a0013171a\
  14051b17050f0a121d1d060f0d031a0d0c1a1b0e191a12010c04171710181c13181f0c0e14031005010a111c011f1312\
  191f091a1a04150a1507111b000d0c021f1b06081f19010403011d101a0e111a191d14030e17140b000c1b1e02020c18\
  0e1a0e0e1118010803180713050f1c060d050712081f1c121c161a10090e180a030711110509161a10061800111a0f0d\
  1a110006171f1905181d03120d140c180319091613081814041f031214030a10130f0f1610001b13080a11160d130206\
  1e1500120a1c120d1e121110091c060f1e031510040c121d091d081b0410060c0d0c1f081b0b15091a04160709181b08\
  081f0e0f030d07011c1916190d060d06030d17071d1c1b1e130e0005060d0905191b1f0f16171e151e0409161c1f0204\
  0c0309011810020812190116040812121315080c12110e05191b1906160111000e061c000f030a111714021b1c0c150b\
  1c1d0312151b031915040806021e19151812020d0b170904120a1f111305191e1d0b090c10151e010105140106080f13\
  0f1b071e1b0614090411180b0f1e1b01051a06131d1c0f081f0217140b190b0c1213141b0c18020c000f141e04000a06\
  0a141808160e15151e05011f090a130c0418101c17071c1a1b0f1601040105090d0d130b02040b0e150816020f1c0617\
  10030d1b06041d05190a1f11190115001b051f140d1a1d040213020a1b1c190f080f02131104131c0d030a0504051403\
  191d080f17100e1c0e0511071d081b1701111c181a121517191508070d161009121e11170e010e0f0c02001f041c0b1f\
  11041813061f140f1d061b0d170a15131518121a10000d1b0f1f1c0b19191a1d091b03121c0a060d0f121b181d090d15\
  071e151a1202180f110807091d1c0d1b1c04100e1805061516100d0314010017051503180503020d08110a070908000a\
  070f1c16011e15071d0b121e120f1b08081f01170902111e0f1d1e1c070704111e0810110e080c030c0a1d0f0c1c1712\
  02080415090a0e1d0e131f000701000e171a050d0b00090b141c03170b17121003000b181318040f13020f0e0d161b03\
  1e0a0f170b1f100b1d010c051a010606001106111603040b051a0719170a140a0b031903140e091a010d081f0118161e\
  0b1c0b1016001817131a050c0a1e03161d090d15010a011410070503071d091610180c0b131c0f1a010b180c1a1d171c\
  171c03020814101d0c121203190d111f02051515091e0f1b0a090a1413121c15040d03150a09080d070b080602141e16\
  10000a161017051d1413131d0e150014000414051c020a00091f0403160d0e160514080f06041706131f0e1004040716\
  09151406000a090c08161f030409010912100912041c0b11141b0d02001a0505120b02101a1f07190d0a0b0f01080c0e\
  131e0a0b171602041e150310061b0f0703070b190d0d1a10080d0b12040613010f0815040f160c0707060813101c0705\
  1504190002060e010c1d05160507050c011911131e1b1f031e17031905041d0a1a0f04190c0e1f030e1b0a111b151b0b\
  04000e1f151f19171a0d1b1314101201120b00160712140914181b0a050a0f1c1809021018101e031b1715100f0c1d0c\
  1e12160118040205101a04081c1f1519010f061e1702170003021f1013070e0819011e05130d191c1614040208091107\
  100407191f1f141c0d190d0e0a1a0f1d040910181507110b191e07060c080d0b0207110315011d1e0111141b080e0508\
  0c081d020e131910121e000e01131c13040308040e181e001f150e1b1b1f160f090e030817141f170f09171e01071714\
  1f0b08001f160f0910140d001b0b11080214141016031d1e02091e14151d00091409120d19101f0a0107031a0f0f0805\
  140c0d1e1503120d1f1b120c00100b1f180315060f07070e1603180e0913160b0f0b0b1c0b10160b14130a181e071215\
  1c0b0e05181200001c010c1e0c11171a0f06050d1e1509151a0d180608070d0e1a0619180f0e0e1c1f17031013121f0e\
  071607061716160e131d0614020e18041f051e120717001007090d0a15060719070008110d15050a021a0f181816080f\
  0e16030e000c191b0b040005161809101b1b16180a151618071a0e1a10110a151e1c1f1f0f081c16130c0e0c1e14010c\
  0b161c1c00060a00181301181d020e1a1f0a00031903100e0f1b1204151901180f111d000f0d1a0d08171e130718130a\
  1e05001d1404050c171e0d131d111815020e16011a0b05180c1e161e061303040e1b1a1a1b0d081a0a141313071b171f\
  011c04181a00120b1a1d0b130b091e17190d001b0b051f021c1a061a1f081d1505021f03070b1a011b1814190603080b\
  0c190c1d1a030c1c09170c041a091e0614020917181c0100171d111416130b1a18071e1717051e0c15020e0a02170c12\
  061b0502000e100d1e13071105121d000a070203100b130f0a1a0d1d1d19180a0807160b100b02000011171e0a040503\
  02101d041e1e091a021d"

/-- tests/data/pq-check.fifu -/
def pqCheckFifu : Bytes := hex "\
  46694675000000000200000001000000020000000100000002020000000000002900000000000000060000004265726c\
  696e07000000506f747364616d0700000048616d62757267070000004c6569707a6967070000004472657364656e0800\
  00004dc3bc6e6368656e0b00000044c3bc7373656c646f726604000000426f6e6e090000005374757474676172740600\
  00005765696d6172150000004265726c696e2d436861726c6f7474656e6275726707000000526f73746f636b09000000\
  4b61726c7372756865080000004368656d6e69747a07000000427265736c61750900000057696573626164656e080000\
  0048616e6e6f766572080000004d616e6e6865696d060000004b617373656c050000004bc3b66c6e0600000044616e7a\
  69670600000045726675727406000000446573736175060000004272656d656e0e000000436861726c6f7474656e6275\
  7267090000004d6167646562757267090000004e657572757070696e090000004461726d7374616474040000004a656e\
  61040000005769656e0a00000048656964656c6265726708000000446f72746d756e64070000005374657474696e0800\
  0000536368776572696e0e0000004e65756272616e64656e627572670a00000047726569667377616c640a00000047c3\
  b67474696e67656e0c000000427261756e73636877656967080000004265726c696e6572080000005761727363686175\
  0e0000004265726c696e2d5370616e6461750200000022400000000000002900000000000000640000000a0000000000\
  2cdcaf3de41837be624d9a3d14d13d3ed0fae23d0e6d16be2fd2ee3d01065fbd65991fbe012f14be3ae1c8bdedf58fbe\
  7e3b783d4ba0053d3f423d3d5701ebbda29ebfbd06c20c3ca7869ebd6f4ea73c9d10ac3c7c169dbcb7b0413d95c114bc\
  d4226dbee3ad6ebdee62773d3feb51bd85bec2bdfac0febbe48506bd5eb34f3d65e4b13c6e3ba63b9fdedebde491e53d\
  1e96af3b792252bd353c3c3c8b6c8a3c58b9553ec3f6203d21f7b33becf8ee3d27a1853d64a238be1d1f97bcbda3a9bd\
  f05f433ee70dc6bc9a53d5bdda735fbdc250803dda35513dfae3283ef130d2bd284c98bca88de33a265a09beb2a76f3d\
  23621cbe9c6d963e23a8d5bd31c4f83ddd2f3c3dc9c4df3a38da993de2540c3d2f61253e14c7963d2df8a63d76faeeba\
  7ae2fe3c5df67f3deee1a8bcc9da2c3d6a87fcbd046a1dbd1c3657bd7612813c5f17aa3d8da2c0bd428ae43cc90d5d3d\
  9cd144bda96f4ebd842ecc3d2ac5d63c03bdf43cee1b69bd125a07bd4b165ebde228f93dd138373ebccf16be1fab373e\
  5ff585bdbe32bfbd2ebc923dd7b1693d7fb1013ee9cafebd5413ba3c58c61e3e0d70fd3d89c6c0bd10f7843d5e02e8bc\
  f1fb22beda37b8bdb0f4eabd817659be8608043df693e43de7fb5a3d1ad970bd175dd6bddca66bbd9d5a28be2355bebc\
  0bfcd2bcecfb1bbc2289863d87b8373d66297fbec610e4bdcae2923d80094abd884d11be752602bd704402bee2176c3d\
  e959463d3575013a256cefbd4e65bc3caf23f5bbcd146bbd961eb03c6e2b17bdd57e5a3e72bb663b63e879bd5e42c43d\
  7aad933debad29be2d2c86bd434522beb952de3dc0ab373c79d786bc2e4dbdbd6145203e1a403c3dbb0b173e6f42b0bd\
  cd7b8c3c10f9e0bdde3b5abef1dfef3cdbe408be707c883e4833dbbdc634b23d6d31e93cc70f993cfc8f4d3ebf2865bc\
  1a95053efce39c3d51e9a83cc85817bd696d653d06720bbd5f386cbd8421fe3cb92cc7bdba7506bd825be4bd4675ba3d\
  b08e0d3e17c49b3c16315e3c644e6c3d2055d13b8f0c68bd9b80613d5292573dcdae253d7b3e0e3babd439bc821203bd\
  2007cf3dabf11d3ed4f136beb58b203e981b8dbc52f09abd020dad3d853924bdb5c0ec3c3a3475bee78f883d576a233e\
  fc7f153d7f3f1bbec8abb53d42e7f5bc0263cdbdb0cf15beb75312bdf57458be5f98c73d480e993dd822853dacb4b0bd\
  2c7759bd0f060c3c865c16bd1c24fe3bc5ad413d6a21c0bc8eb0c93dfb64803cc3d02fbe36578ebd9d7449bdfa069ebc\
  27b834bebd8e5b3dbed64fbd3c80ed3c761c503c9e66433db7db25be3633ca3dd28cd1bc201a8ebdeb11d23dde64abbc\
  23e3753e3a004a3d41671b3c0578503e436cae3d781016be68192fbd66b275bd19e2483e0824ecbc5d5bd6bd88e4c23d\
  9286523c37252dbd5beb143e80ec44bdddac133c2fda5abca4aea4bde469c63cb6421dbebcc5063e70bd0abecbdec73d\
  f20d4f3d8669733dec3a7a3c0bbfe83da898773dc1d6033ed869023da159973d41c6863df19ad33d5c2a123d56038a3d\
  6bf7d5bda9827fbd06eedebcf57df53c9abe073e8c0e19be5434aebcd3898d3c189122bcce90a4bdcdbb593ceab2893d\
  10ad233cccea4cbdc6985bbd463d45bd33a1883da72b8f3eedd443be41f3613e220fd8bd9d2546bd670f843d913c663d\
  686a223d785a53be4530993de664343e0905303e338f18beba04293e4846b83cf3030abeffa4f3bd7ae4dbbd87ff60be\
  4743bd3db352143e77b6923d95a63cbdd450263cb45ae53c4fbc0ebee372bf3d806e293a2c8942bd29356b3c17915f3d\
  8f0557beaf499fbd72d11a3d04eee3bc6a87e3bdae47133d14ff423d6c52a23dcbb322bdeeec013ddd87aabdeaa8d33d\
  ccc66dbde387c1bde9e5df3c02db0e3d69db4e3edd2803bd59e91fbdb3d9d33ddf3aaf3d708219be544039bdae3f3abe\
  050f133e12b8b13bb3fae5bd0334a1bd3f39d93d3f5c043e1fbc963dbb0176bd97ae6b3d62fd36bce80d23be3549c43d\
  be9bcebd614c513ecff185bda80f053e283f263d193c9ebcaeb1f43db2397dbd4c59c83dbe1e833db26976bd786f54bd\
  03941a3ed55f10bc1665b6bc2faa8c3dbc6fe5bde1fcbcbd4691d6bd7d4f7dbd736f1f3e14119bbd230f423ab4ce833d\
  6fbdffbc9411d83ce280ea3d5523b23dfae9023d22cfedbdd06e99bd4c6481bdd6b1013ef003303ef65314be3521073d\
  8a94e6bcec517ebd033746bdfdc720bd8003a33dd147e7bd0810a93da10d263ed3c1453ef48b1bbe13f2183e7e522e3d\
  5e8f19be4fddf3bd3d35bcbd87e261be4970cf3dce543d3e394e173db62fc0bd384af5bc30aa2fbd88d1c4bd8e882c3d\
  9396cbbb0c1aec3ae706d0bc48c96d3d37ba3fbee1bd98bd9413ac3df2b7ecbd884649bdd9adff3be4b39bbcb347903d\
  50c099bc7cfc393dbd01a1bd2098bb3d102b40bd135decbd8cbae93c7645bbbc44ef6e3e89e5a3bd868f9abd3d49ea3c\
  1e499e3df00802bed290d5bd405223be8cd5c63d72d7873b7b60bebdecbc92bd739f103e6d830f3e6f1bd23d1e868dbd\
  75319a3dd86a44bd53875bbe64cfd03c81a6d5bd76b28e3eea94e2bdfbcf043e8faa42bdd3a69dbaf8e0003e26be46bd\
  950fbe3d503fa93df7c3ebbc108c6dbdb82b123ee67dcb3bf28dc6b9100f8c3d334a08be142be4bcf59bd8bd1af0cc3c\
  423f8c3d9d4bc2bcaac172bdd2c2033d2d540f3c1077ed3c7ff12c3c041bcf3d53e6863d869288bdbae315bd0cd2b9bd\
  8696033e52540e3e0b8306bec91ed93d388ebfbd5e17c4bd1fbd0abdb9db0bbc211cae3d088b16beaa2fea3dca17213e\
  b558353d390b16be61cdae3d3a7ba4bdc88b98bde04d18be9fe9bcbd6e7698be7b9031bdf409cf3d1c1e373d1ee007be\
  190cecbd3b880ebdc32baf3c32ae743d35e08dbd5d30973c546c3fbda9ca5e3db7a632be3b454abd7a02b5bd5c4ff6bd\
  ade798bda516c43c5f8a8b3de887943d3e6523bd25dbce3ddf4f32be3cb6a13d3e534f396a4da9bd93da2b3d3f0c82bd\
  c943443e5c3a7fbd18c9643cb6caa73d501de23d9fa9f1bdd1138cbdf5e4fdbd2640623e3cc0ac3a25f65bbd7c980e3d\
  a682fcbc6d86023e69c50d3e279499bde8127fbc1a2027bd16f495bd3613be3da49b80bd601d6e3eb71966bce8e4073e\
  f0d9923d769bcb3d77271e3d127423bcd6b7fd3d877a1d3e8f84efbc91ec93bc9891bd3dcc8bf53d253bf6bdfdf5153c\
  2118efbdfe7650bd798659bc10d9dbbd4d099c3db05af3bd372d213d64edb13da4f99dbc038bad3d891cac3cfe3614bd\
  ad37993d5e66fbbd0d33163d3ab4e1bdc587ec3d0b88133ebec51fbee70e143ec0dec3bd3162dcbd850f09bd29644b3d\
  402bb93d675d6dbea73dd93db6d3473eeb2abb3c56e604be65776d3d37e335bd6b1ff3bc8c252bbe249da5bcfd4b7cbe\
  8973933ddf21ad3c1a5bcc3da9b152be464dc8bd380a1abde7794d3c864af9bd8b71febca5077ebdb2334b3c6153393d\
  9c4460be76bea1bd677763bccddf7abd58aad9bde151673d2380bc3cb326993d757f993dc410213d9e33c4bd42ec95bc\
  4a071abd8a4ab5bd50bbf23d9ac709be5cab883e05c342bd18412ebc178b113ec48a203e5f25adbc67b0debd6a66863c\
  21b16d3e403a9cbc822de4bdae14c33cc9cda33c17fc3b3cbad4d13d93b9bbbd974de9bc8b9c3dbddd5d94bd2610ef3c\
  d7ee9dbdd1ce7b3eb9d3aabd6ad2263e952e06bc22a0033d6af0f0bcb64aea3d62a5c63d8ca21d3e6254a6bd6c9b08bd\
  891d1d3dc21dba3c5539f2bdfd9992bb3db87cbd66e6c9bcd78e91bd6c4ec0bda984f43d361adabd06b1123dfc608c3b\
  b3bff03c580829bdea50373d3594be3c7bc0aa3d3c0030bd75d144bd8229f53be9f5943da8ed313ef198c9bd8b18333e\
  bbbaf1bc02cbcdbd813c18bc895c293d8bd9d63d475876be4b12fb3dce1f823ef22e2f3ce8cfa4bdc90ba73da6d522be\
  9d3385bb74c409be63134bb915a55bbe6e96853dafc63ebc9809933d106c0fbe923629be28839a3d618795bd8c0735bc\
  e747a1bdf9c45ebd513013bd9fc86d3d2aea85be8350bdbd5e2d013da3c1bcbb1d3070bd53750dbc4f53b4bbf6aa523d\
  34a4d0bcf75500bd40c5c3bd18f06a3d9471a4bc6d63f4bd67b9783dce22a9bdd3175a3e9eb32dbb6b7b4cbb38c20b3e\
  3752b33dcb5c9dbd7a8f42bc50be14bdb5ca553e69b414bdb1705cbd61598cbd57e6fcbc43abe13d5180b43d0fef05be\
  180eeebcc58d6a3c8124cebcd365ad3cef8376bdd0ae293ea5d0eebc6ebcf73d8348bf3d0a8a573be4e71ebd4a27fe3d\
  2579ca3dd194a13ddff14ebd4d94e8bcd09b8d3c91cec2bcbef051be02f5023d86555abc2e0909be05f89fbc34d096bd\
  0201533e4d38a0bd1971f53dad74853dbbffa83df092debdc4ba743da5e10c3d14ae6f3dfc53753a888e23bd6a76ae3c\
  587fac3d79ce2f3e94cd4abe2280073e25ab9dbc21271bbee59f90bcece6d5bbabcb043dadbc44bef4ab3e3cb0c1223e\
  b1babc3d488b1cbeb2aec13d1df805bd19ead2bd53ff70beaa48d3bdfff27cbee69d653ce269c23d5a3c153db91119be\
  ebe04dbdd9d5c43d735b2abd0eb78b3d6b208abd0216083df35ba43adbc2a53d4e1d32beb8d811bd4c6153bc68ad84bd\
  cb0d0abebf7c1d3cb2cda73ddd91953d2a4ed9bca906b03da9d8dbbd59d4df3c4db680bcb0f3fdbd23e1a13d37d51bbd\
  ea6f8b3e35fb973a33cdeebaa500ae3d5f838c3d8c48edbd454ad6bd43c841bc6cb3293e1a84a5bcc08f213cbab3a93d\
  d6c4f5bd42a20f3e4dfe313dd7b3cbbce0f859bd8c1c12be569715befe7ea23db28936bd5494873e63aeb4bd50be263e\
  abb611bd52dd7a3d90d4833d9a533b3d01b1ac3df2141a3e088f80bd21878dbc6e3e0b3e734cb03d4fdf19be8bb20b3d\
  f03f95bd143817bd977881bd72eae6bd3a4c403e23e1abbc89e9d6baaa19e23c451f633c9530eb3a7430e4bb4fc1893b\
  5cecc63b319bd4bdb9fa0abc50e71cbcf565df3d2cc82c3e856c07be5adacf3b90c3bbbdc53ed1bd981530bd66824dbc\
  aba93f3d59fdc8bdabf20e3e3b852f3ecb8fd83d2c9f8abc5dd1193e84c782bd82d614be80ed08bedfc608be61854bbe\
  4f96a53c3476803ee8978d3dc3fd82bd5132a63db60d8d3decf00cbef929873de1cfac3c4f24763c7002fdbb301d593d\
  761066be2079a5bd4c555c3d955690bd6b851e3cbe6a89bc97e6f03c5ed3cb3d69dba8bc2787d53d8d5faebd6a03863d\
  a101d9bc451467bd40959c3de0e530bd6f0a2c3eb9ea01bea70e13bc72ae803dcad13d3d7e380abe8989efbc56b223be\
  eeb4ae3de2af703ce37aebbd1d9e83bd1fb8bb3d562b193e34a3303d7c733cbe21f86d3df1935dbd31d1d9bd63b33a3c\
  fe0297bd607e8f3e83dbfbbde87d123e9ce121bd3681e2bd3b5c343e83a26fbdd5c4cf3dce52693d1cd7dabca9dea73c\
  219f8b3d3ba5c33c7a8fb8bbf721303d0993f5bd6692a9bdaa1cb3bddd9fa33caf1eb73db0eab83d8739b6badb05713d\
  34f3623d25400abe79c8d13c623ac73d27e5843d5adbc8bd80d623bd0bdb02be19de9f3dec7eda3db0a3aebd4e84d03d\
  04bccc3bb42f4dbe9a5717bbb1355a3d78f9b93de8c3c3bde6ef213d8f45283e6105283eb4534cbea31e0f3e512fc5bc\
  635e1dbe360898bd20f5aa3d1ec353bef051d73bdf69ce3ddcb2d63d13913bbd7c8608befc3bd4bd21d7cdbd16df3bbe\
  1e3d19be6bfc96bb5b1b5b3d58ca1b3dea7a45be5e7d0abe23e9a33b1c6a6d3c6fdb12bd1bec71bdd5561bbd7e3a7d3d\
  ea7181bc098eba3a6f9b75bd83dec73d86a40bbe920f1dbc1435273dbf6d4e3db41a853e63fe763dc55f6fbd3868d93c\
  5b847e3d3aca3cbe5ff3aab9510d99bd76fdef3d7055e13bdf7392bdfff88ebdedeb853d98f02f3de9c5663eecbe15be\
  f40d9ebd10b90abeb7b943be4f59853d500169bd1d5c963eb16c0cbd9a079e3d5e7a2d3d85f035bc81ce1c3d358453bd\
  ef6b8d3da3ca293e248f63bcd972333d2bd1543d79199d3d9aa11ebd930e3cbd046a19bede9b313dcd771ebec0de80bc\
  eae5053d8ecfb33bd104043d11e59f3d2483b43d786b15bda347733c49bfafbdc9b59b3c1cb7753dd6190cbdbd09e3bd\
  7888f63cd84a5e3d5c7185bd3997943dce360dbdace647bdb859e93da473b83d78483cbb673f4abeb028bc3d4ad2203e\
  f64ee03df89308be520db63da63a443dc3bfbbbd809982bddfda87bd4e2b18bec310173e4f31073eb9c4c23dac87afbc\
  5c09823ca9e3ccbd91201abe258bb73c50ef743d27b71ebdbf0a213cd9f4e93d5ea75cbe8c2630be386f30bc543f413d\
  3f4ddfbdcdc9eb3c37bd1abd7e5b703cdf09b6bc59034dbccd73fcbd26c7953dc6eb44bd7aed7bbdba961c3db4c48d39\
  d76b4e3e61c3aa3c16af05be21e61d3e54a96a3df5cb40beb928debd4cf91abe165c233e8e95b53b675491bd1399963b\
  b38e363e443a7f3cb0d60f3e3d25d53ce8b5103c7713d7bb58a5f7bd9590e4bc292ac3bda4231d3ef2bcc9bd17a8823d\
  7fc9bc3c0af3a53da468203e344245bdbf38683c0484b93d443d1ebda5a7123c7e09d53de6db95bc58d3aabb00e0c53d\
  45f7aebdb0a828be1f5c0abe32bfd83c11f1303ecbb499bd92656bbd446862bbf375cf3ce3c0aa3db5de293d415b1f3e\
  b4f1bf3b3e8679bd648251bdcbd182bd88db3c3dcfc4613ea8c562bea4b5f93d65408ebdf7458bbc83a93a3d793089bd\
  bc3ebc3dc74b16be9ec75f3d75ac613ee2d1c13d8cc50fbe5aea0b3ec0358ebd6621c2bd7e5e49be4daaddbd662e52be\
  2e409d3c2575033ec4507f3c39e0bbbd41a2e0bd99a4a93dad70e7bc86fb653d935804bee1afbf3c960da1bbaf5a9f3d\
  643e46be4c9086bd8a68993ccfd38ebd7fd2f4bdae56d93bc96dc83c4ed03d3d00e411bd1ebaa23dbe69d6bd2dc26f3d\
  d86bb8bc15f036be9c92a73da26090bd7bd7753e6b6625bd1accb6bc43db1a3e69dab83d4649ccbd2880b5bd7a823d3d\
  0b351a3e1e46bcbc687e4a3c164d893ca3f09bbdcf832c3eb592883dc65370bd976cbbbd392f10be0d16bcbd1bd0a83d\
  d6e523bd43346b3ea048c9bda9dd253e205e68bd4e0f953d6518e93d4103613cab0c753ddd882f3efdf5a7bcd57b3dbd\
  97790d3ef8d9183deb453dbe75e7b9bc302091bd295767bd8acc70bc3f9816bdbbf2243e837121bb9fafac3c17774d3d\
  8b3dbf3dd7deebbaca39e7bc7bc7963c575cf83c00ba8bbd92af2abccc7dbcbbca65163e0f42263e6b82f3bd859e3f3c\
  61c282bd683e0fbe351d95bcae52e13ba29890bbd7c602be228b733deae00a3e54e01d3ecd5a0fbee8f1ef3d91ecdb3d\
  4565c0bde14b07be0d23f5bd3bb44cbe4da1913d71ad323e9e68703d71e0ffbc766381bd74e11e3db2f811be5c5b66bd\
  cc5e79bcfa6493bda5f387bbe8e8223c9bab36be2e6aa0bd178f863d76f10cbeb7bc78bd87cc843cdf71c03c9127803d\
  8c0a3dbcacefc2baa93351bdb9a1643d097a6cbda14f9ebdd98d8a3d937b2dbd26e4803edee10cbde14d77bdf0b3413d\
  ba0a9e3d31f21ebe86fed3bdbd92e4bd43bce73c49ed1ebde1f7bebdfe4d9dbd55d9093e98331f3eb373773df15399bb\
  7bd45d3d3f9fd63baf5a35be27cad73d07c3e9bd408b703ebf031abec5e3e63dd123b6bde58b003c3222353e324357bd\
  57632c3ee10dfc3d4fd954bd66925bbd80b43b3e05ef593c5ca7173bfa4dd43cc41612be4638b8bcb5170fbea26bd9bc\
  9f9fd83d0848433db1145cbd1b33cf3d0c6f7c3dbbbc873d4b63503d7648873d4a0d503dfc22f5bdbbcaaebd7a079ebd\
  681da43d2d9c9f3dfd1226beed1bcb3da889cebd0f861c3d4870e6bdf91d8e3aeb56123de4e19ebd08f85d3d4c48683e\
  1766f83dfbd00cbe65c9b43d9b384fbde0a617be3ccc52bd4090edbdcc571fbefb6bc93d70ad753d6c5bdd3de626c03b\
  21387dbd0fb5bdbdfbfbbabdcc4b1c3d91b084bdf6f291bd985a1dbd933e1c3d017582be268643be9bc4a43d64f1afbc\
  ed72443dee7b6bbd3578a03dee55013d553a17bed1f53e3c079cb9bd4b430d3d464ae3bdddc455bd4ef6f63db0f481bc\
  7f3cb93d0160dbbd8664e3bbb3dd9a3d41f0ee3d2a1471be2a2dc63c8b9d76bdcd72583ea7f71ebd06b234bed9fc55bd\
  9d0d0c3ece02113de607123ec5e5f3bd4fac443da4a64f3dd9d60dbdf0e6ac3d104cc6bdb280883ec4e9fdbda229063e\
  f4d1ad3d64cf08bdeefcad3dfa7e69bdb92cbc3c0e439c3d6773dabda187f4bddfe2263e4cda9b3d2b11ddbdb62d063d\
  eb4008bec97c5bbd26fa7d3c3f6f3c3d3b11093ea68169bde22f99bcdde4023ce6f1babdbb05d53d555cd03d6c818e3d\
  ad9563ba9bf7aabdff3af0b9201bf0bd0002e23dc7fea93d09d255bdfcbcd53ddf3e563c16e439bdbb00553b7da6dbbc\
  131cbe3d57d32bbebc9bd13cb68a483e2357883d827dbcbd93764c3defa8ddbcb1b2d5bd7fbb34beae0295bdc27b6cbe\
  91fd42bd25e4973d6ac25b3d3d26a3bda4bf02be2147a13d7b3cf1bc419c3bbdab62cdbd443c91bd65324e3d073d693d\
  e76e75bebaa5dfbde62bc4bc6a2c03be2566a5bdccc75b3dd227a93c723d933d56be48ba0244d33de1a4cdbd312e8cbc\
  4c525cbd170739becfd9a13d7d2f26bee116953e3dbd00bed260fbba3209143e47d7583d8c1cc5bc58fb1bbd239a0e3d\
  235d163e03c50b3d87e248bd28dfd73c3c5d36bdc1cded3c38c91b3d5609e7bd00a3ba3bf2a6c13c3d2992bdba192d3d\
  27492dbdce1e4b3e0cd78ebdd57a4e3e5e74773cfd81883d748bb63dde480e3e9f47b93de9f5723ef3fa31bddb6d07bd\
  171a83bcc1f93d3d79f321be59ed7ebb199400be1feeb43c6e43d33c90b3123dd0c9e13d833d113d3fc3483d4ea6a33d\
  5d2fb13c708484bd00c0b83938499fbb957ae23d81a694bd0e7488bd5f68303de0bcee3dd2322c3ecd6018bed770063e\
  aef423bceabfd6bd512d043d81d8b63b8f5b1dbd29a21fbe0de51f3db125493e9ec20d3d65228dbd3214943d223a8e3d\
  d1c426beb8a712beb75c1bbe07e42dbe795e653dbfc3103ea607083ed4d819bd93e0acbd76e304bd881a3ebdcf16ba3d\
  7813a93d29ce10bd05aa7a3d1512cb3dab3fe5bd0ae105be407c1dbde2d293bc400218be740d6c3dfe8e33bd9d7ac0bc\
  32632ebd4c3bddba35213bbe40a6893c7fce89bd7d3001bdfa962c3e54dc23be7170903ec592aa3aca2963bc5288443e\
  a23efb3bc2cffdbdba0dd7bd5164aebd0320093e896329bd1127babda01bef3ca4fce23c9a1088bd72c8c53d76cf14be\
  7cc2efbbc2467cbdb87320be9409a53d2626aebd4fcae13df93f71bee172c23dd7999dbc327f773c9351893dc173f73d\
  31e6183dcd3e443e2121b1bcbeb7103d4d00653d9ebea23bc1d9f1bd75ad293d47e083bdc5a8a33c407a6bbde881f2bb\
  9ae21e3e303673bc41f6d83c332aa33ca7bd883d3e5b77bd54677f3d4471aa3dce30bd3c9d809cbdc6f08738c69690bd\
  4955923d6340293ebf8761bebd00b13d5e15a4bd69fcdcbd1dc9063cd910c6bcffd4d43d56544fbe6847173de62b3c3e\
  9c24953d5f66b0bda7a16d3d40e19dbcd499cbbd05e64dbe2b77ecbdb40e64be1d56cf3cd9ae833d1a6e993c91c0fbbd\
  dd51c5bd0fdff43d05938d3c9537343db110a1bdd8d4593d76d3febce5993b3d1b896abe62bf96bdd009263d9a51bfbd\
  069f03be279bc13d22a10b3d6112583d8f3eb33c21b9873d99cff9bdea403e3de0bffbbdeec835be0f451c3c903b8f3a\
  f0636d3e4ad79bbd11383fbd6883383e265bc93d3836e1bd913df5bd9789073d4715283efc1336bcfc2960bc36a66f3d\
  c20c6ebd17c3e33d0758e03a629a88bd481085bdb1e1cbbdccef88bd8e26903dc3e892bd499b4c3ea799edbd95003a3e\
  7198313d4acdb13d2241eb3c8aa8a03ccb022b3d2ed5df3da39ddfbde84e69bcb68e9a3daf6846bcf5bf5cbe16e31ebd\
  c7fbf7bd69f8243d5ea23d3b40799c3ce236273e507b95bd8cf33c3c1743e73d7a5448bc3c189d3c076d783b8a0907ba\
  7e419d3bd19a20bdc0ee6cbdc3946b3d265d333ecf41113e5fc234bee5ac243d8c10d3bdf9f363bd226178bdf18a34bc\
  421fbf3d493828bef2f0c03da534143ec1caf93d2d2820bddffbc83d3d991fbca651e2bd271855bee0db1dbe4ad266be\
  dbf2663c66fd9b3d6843953ddbf361bd64ed81bdecb2633de9e52dbe7fc3963c5878ea3c792ca4bdd4b9603d23ef5c3d\
  7c51f1bdb8d5dbbd6af4d63b8baf09be4a2f93bd23d1813d4a7c48bc915ddb3d344d58bcfbd1aa3d235918be2e07a1bc\
  0725cfbd59facebd5210133e68e1fdbd8069853e585dbcbd65f1a8bce73a1d3e4c072f3d2d6509bc2df58dbdebee15bd\
  8d61fe3dcee8d33bbbd3d4bd35e9a03a37a87ebb2d99803d21651e3c072321bef95c44bc629c11bd06eacbbdfbc0673d\
  8bbd74bd3920503e7cde18be3229fb3dcc03663c59c4283d0420fd3d7aa7c73db415873d1c6d3f3eafa0d7bd22c03fbd\
  eb18793d91f75bbca4a81cbed8b6d3bd265bbabd3f0833bc141b5abdf76a06beec38243e3dddcabb82b827bd5259963d\
  96c43c3ddd378ebd66da773d63262f3d3f15a33d2d594cbc70ddaa3cded9afbd0c55663daa3d4d3ef06b3ebe0838bf3d\
  ccf7b03c139ebcbd8f00f0b9ad835fbd5a1c993d154248be8b02ae3ddeb8653e354ae2bd5fb1bebd3ae29d3d04248ebc\
  4c152fbd9b4c1dbe918041bd8b6757bea90fba3dc5d91f3d76fea63d1e470cbe986230bd155211bd14410ebd2c6753bd\
  cf43b4bc64cfaabdbead2cbd9a7b553dff9658bef537bfbda86e47bd7e3c903c22e1febddca0a73d9db8123d10c4b63b\
  c95982bb52358a3cd6249abdea06f83c5ca253bdfe05cbbd9c21903d27150abe27d98d3e492cf1bd689299bd455ba63d\
  41e8e83d17a69bbdcda490bdef1d85bd2286983e5c16e8bbb0dad1bd593e833b83d7673c03e3dc3c9818913c757f56bd\
  5252be3c82cb183d46c5c33c340e993cb89492bd5867673e528bb4bde8d71b3e4c5d1c3def2c883dd16d2dbd4051023e\
  9fcfb83d773cee3dd21ef1bda7e7f7bc3104333dadc20db8dee340beaefe4fbc04294f3c9ad8febd2ac480bd1ebc71bd\
  7267293e25ce1cbe49cfed3c7027463d093f843c09f091bd8369803dae48943d7d15803d65d3b2bd60011fbca6320abc\
  1fd3b43d4ec1213e65e424becb93383e0b19f73b20b654bd0148f2bcf4586c3deaf1ab3cdccdd9bcfacfd13a8f36633e\
  caaf5f3d20f5d0bdc41e0e3d88300abde7c80fbe8ae5c13c7583b8bd473ae6bdbaf8d03dd215d53c3a3fee3df79da6bc\
  849717bdebdd3dbe21d76ebc9b2ca3bb261f0e3d84ed5abd83a90b3ddc401ebce9e12ebe839060bd49cf103e16dd6a3d\
  a2aa64bd990b76bda30008bd9d34c03dc29be3bd9a9118bc296cd4bd53f9153ecc7be9bdbd9567bd7c46953d78d1b5bd\
  6e91c03ddefe68bccc5a48bd70f3173e6ef1083e1c2379beb7fe95bc0451bbbcb7025e3e9f55b1bd08102dbe6892913c\
  a62a4c3e670172bd48d85c3e18d6f1bdd177253dc936183de80d50bd6c2bddbbd44b19bea724513ebf34f7bd566dee3c\
  5bc2a33c439080bdad8fa93d1fa4063c85b6033ccc3f903cf754a6bde1d25dbd048eb93d5fd5a63d548302bde0ddbd3d\
  2bccd0bd2ae240bdc64b433d9a05083e331e283e58989abdf556bdbd8294ad3d9372fcbdf66c82bb97138c3d8817e53d\
  7189413dacc495bdbd8c353c98b836bd1848a13d8cf60d3ec82403be911f843e5319a73b56aa4abd91de033eb3c6ccbc\
  e446413d7f930dbe19bf843d4fa1433ef44d393d07b0adbd9ee9e53d4ad9463d78d5d7bdef7605be871ed4bdd3bf30be\
  ef4ea03d3141683e233db23d92c54abd6af2e03b99a3d9bbea825ebefce38a3c28e1ce3d5cefd7bde7fc1abdf412853d\
  9cae05be6c2ec7bd01eb1a3c1171aabd5adb84bd843dd53d071e42bc47b6d83d745069bd062259bb183988bdc34a453d\
  b71c90bd02ead3bc6b43513daab176bd1f4a593ec7f5f5bdc463debd9e465a3dc6c3643cc06020be976b5bbd83ae24be\
  f9d0a63d337232bc10c1a8bd14f585bd037b113e3aa4f83d3cb6d03cf6f7a6bcb8a7543db11e4c3c641ffdbd7dcf863d\
  721ebcbda7ce733efa04c0bde334143eb1d257bce350aa3c045c353e67b679bc256edf3d63b4cb3de507d4bdc7f24ebc\
  e97af93d8e352bbde93203be992f8ebb546db1bdb181c6bd2bbceebd89337dbd76c5323ebe6893bba68810bc54bab03d\
  2700283d689b813d95f4a93de6b0c93d7721a83d251610beb90534bd933c17bd3092083ec3dcf53de0c34bbe01ef073e\
  a7c415bd2cdccdbc1a175cbde4b09dbde2ca283c34ddb1bd1ec4653de1ecc23da859063e78d8c0bd12a5463efb6d9d3d\
  c91837be524e09be07193fbe788e31bef374a03d223b803e2bd3a43d29eaa53bc7315c3cad58c33afb1c27beb4fe9bbc\
  5a880b3dd7d8b6bdf00eae3d0747473cf9b825be9ac801be46f5e83df52913bdc092d83b2a1e503d8a4087ba290cd83d\
  8fd81f3d14a78bbb5ccd6cbc2acee83c8b671abe919214bd0a3dd13de5d1b1bc6ea7373e74779abd5c90a6bdbde7bd3d\
  da5c4c3d806851be9d0dccbd531a90bdb224cb3d7bff403d1c66dcbdd535343d2116213eec96c33d5c96103e875815be\
  c6bb763da0fbe8bdfb6fffbd8473393dca33a2bbe8e3a43eb9e122be389fea3d1ffb6fbc3b5354bd1814bc3d3147ccbd\
  1e24da3d20775c3d073458bd85ac5bbbdf24a13d7dadcc3b4dccd13c0860c13cb73bdcbdd95605bc60e90dbeaf48d23c\
  fdfdd43d99d8a43dabb37cbd2190253d75c3813cb80d0bbdebc133bcc24feb3db74d59bc58356abd95a07bbd5688b2bc\
  b35efe3d8523b03d8fd3ecbda6b1013e348e6abdbd61a3bcbcceb5bc2da1e7bc79a55dbba8ad75be3cfa893cf2437c3e\
  6126e4bccbb90fbef3256c3d8a8ed43c8269a3bd5abda5bd549a48bd752606be7022d63d847c0d3ef67bb03dc937aabd\
  8e0f273c5222a5bd31e85cbd413bcfbca341bf3d994972bd5d47b23d3211403d204211be4bcd01bea11acbbdb1ba593c\
  bbf823be3cfc303dc12c66bd9945f43c306ecd3c075fce3c3f573bbedd08793dd6ad2bbd97c738bdd783d83d6e3123be\
  c566573ed1b50e3cc4740ebdaea0763ee172593d7d772fbe61afb3bd471acdbdd39b373ef30b13bdff3ffebd319f823d\
  f476f43c5da1a8bdc298f83c07e2b7bcd6da85bc4d4f30bc77af79bd55dfe0bc2db3bfbdf44c9c3d59f150be1937973d\
  c9d3ccbbc6e3af3db8c5c03daf151c3e1a23253d898d143e33944b3b985ab43d87992e3d18f61d3da0150bbdc0ffef3c\
  ffd980bd0a88f8bd1574f4bd5a5f123d770c143e743c9cbd87c2b5b92024043d777a4e3b3c9e76bd6ada42bd45dc8d3d\
  d778173c2897a1bdb48d8ebd99ea37bcbfc6393d0f7b723e248771bed8cb133ec3120fbd405197bd6df3a43deaf14b3d\
  0297a73dd478ebbd5d4b133c4654393e44cc173e44acc8bd1563ce3d485f653d889b1dbe1f70b1bd7697093c01022ebe\
  5b02473cd131da3da36b853d3dbe2ebd570717be498811bee75f80bdaa3af5bd73deedbd514d573d28345cbd56a74c3d\
  a64524be1907eebdd9b8ab3d3eddc2bd4a49aabd59cfb3bd62a51abe95a3703d0c65143dbc821dbba11474bdbfb18e3c\
  9d6770bd269b8bbcc5946e3d54c9363d0813573eedb06cbc14879bbdcdf9f33d76ad103e2fe4ddbdf63d12bd812a03be\
  505f883db5dc8abdff8993bddc1794bd4d46183ee78f513d4413513e7cd7e6bd0d0708be3f98babd29bf89becf0749bd\
  c37e90bd7700853eead39abd0f2e023e1b2566bca1988bbd195d6c3eb707463cdfa91d3e1509da3d698716bdf2c3cebc\
  8e68333dd89c90bb39f970bd2e90ae3bb239bcbde382253e5cd995bd50ad8b3d3fbdf73cd454583dd14cc0bbe126123e\
  0d0271bc967b11bc12975ebc7c5214bd5738953d0a20183dc3ad10bcfc489abd83299c3d5c41143e4a88a2bd8a0ca23d\
  c5871b3dab18663b54af29bcb607b13c0240c5bb48f4f7bd4f25c53b6af2753e2112aa3c035aaebd3cebce3d0961b03c\
  d960f8bd8758bdbd1b2bf7bdc6a31dbe6bc6e63d1bd7483ed9dd043edcf061bb106f483ce137e7bd4d0a4bbe5e69aabc\
  8c02c93d8de5bfbdf4a7363c5d7a9e3d49da31bedbb61fbe0b70b33bbfb213bb78399cbdb4ac4b3df7dc82bd718c933d\
  2fed0c3d0aa4e8bc1e55d0bdb825c93cb6adcabdb52e77bd3ac88e3d1c0a04be6b86683e4faab3bd536607bea0d7c23d\
  690ca23d26ff31be8a7649bd6becffbd2687193e0c78853bfbfcdfbd116178bdae4c3c3e24d3993dd2010e3d0dd98fbc\
  725b883cf7caa33c2dd2ebbd463f2d3dd1d72fbd8877503e972832beb2e0d53d3ad0c83a19922b3da8c23c3e96b487bc\
  d5218a3d331d213d0e5766bd9e78d2bca645ca3d9aa32cbda576c1bd9afeed3c1fa988bdcf3280bd5907d9bd78cd133d\
  7cc44f3ece85b43bf60d96bd22fe093c6de68f3b4b6c4d3dfb45a33d6271143e21554b3def718dbd3d348bbc10457abd\
  0ecdf53d5190cb3d19174ebec0b3073ed1eed9bc7cb6e0bb6a6ce93cd81065bddea85f3d6f06c8bd8368a8bc094d063e\
  222fdf3daa1c23be9363983decc8f53caf8f58bea62359bd6bc215beabfc2cbecdfb513d7d67993d867acd3c9de3c3bb\
  a14e9ebd9ca9a3bc4a2c3abe5558d1bdf5af6a3d25d1c2bd8958013e6608dc3dab0839be873b13be0323173d25f077bd\
  9daf26bedec59d3d4cfa85bd40f77c3d005a953cef9e71bd65c790bb50a46f3cac4319bd31771dbda848853bdfbad7bc\
  297e843ed98c71bdae9480bd2227ef3deb9e1c3d7c2d27bebe1010bd1bb093bda425813da0a13fbd868658bdfe1fa4bd\
  b62b7d3eabab93bcc9130f3e8b0fbabd1681e03c51daeebb5941cebdea2921bc16f97fbc7c347e3e03b084bd193aca3d\
  7b1b27bc6b958b3dd47e6c3e7be4d23ba620003eb7f9e33d8a2ce3bb5a4565bd2fb5c33dde1466bd2ec9bf3c0ed1f7bc\
  e94818be9f2a96bc0acc9dbd206ee93d5b668d3d46da883dd2c69fbdcf644d3da158733dfa01243d4088923d70b2183e\
  dae48b3c6be6673d4765dfbd72d190bded2ee93c39bc303ee87ee6bddbea433e6fa5a0bc8913ec3d4e24683a6938e6bc\
  475b083e904c3cbeaea7623d65a4f63d1da4133e95d5e6bd1a0e0c3e88966b3cbad3dcbd8eec13bef685acbd20a160be\
  2c53e0bcdae50c3e48d1913d012951bdbee2d7bdbddf713d932598bd910f943c5312bfbd842909bd406f133c89f5be3d\
  3ff940bea860fbbdea88ba3bcfa5cebdd0ceb0bda74104bdfd88bc3cac2d4d3db5516bbd5386b33d9ec501be62d32a3d\
  285087bd292525bed795fa3d78abd4bdf8d0553e9de6b0bdd1ed2abc1e4f133e04fe8f3cc7d45dbcd0514fbd3932103b\
  317e1e3ec0db873cc8be4dbda715e8bcd334dcbd0251ed3dd831b93cbecd12be01f661bdd34d01bc689989bd832a813d\
  263d84bd751c743e516cbfbdb377343e5a134ebd72d6053cb729fd3d668a6d3d2ff79e3b7a40693e44ae97bd0164f0bc\
  ea72f13d544e433be7d645bec2abbabd3915d8bdb548143d4bc413bdd9aff4bc47aaec3ddc01dd3c793f433d9d05fa3c\
  989fd33dc6b3b23c63d7f83cc593c4bc9915da3d29e2ccbdaba648bcc38c3fbd4693b03d0c48463e318c44bef00fb93b\
  f0ea1abd3610f6bd8860063d94754d3c33f5a63c49c37cbed54e093e421d433eba1d1a3e1da7d5bd4f96b33d8f1493bc\
  7486c5bd3d34a1bd13fafcbd29a43dbe1d2f4b3dd2725d3e3b69b53daa30673bc1f8253d0b28803c19b34bbec53f023e\
  3bfe283d13b0273bae32cbbcc7390e3e1d3634be452f32be37897e3d7ff62dbc7a2227bd487840ba7776223deb0d913d\
  c31c32bdcda3933c9634dbbd967d7c3d34623ebde8499ebd5241223dcca3c93d7fc7313eb40187bdd16b7dbdadaf013e\
  8a65723d10d225be4c40383d2f9748bebcdde13d4bd04b3d60b4dfbdad0b01be4caab53d28f3ce3dd042b4bc057330bd\
  190617bd33ecd3bc7d0514be4759293e6627b3bda413023e0e90d0bd19af583d55fdd23cb616b8bc4e6d2a3ef18ed9bd\
  5d288a3d71c0263d053521bd77c64d3c50d0063e7800b8bd706a84bd362b803c9118c1bd9b99a5bde486c5bd77d1c2bd\
  f4f20b3ecbfdb6bb7550cd3c7a6c543d0f53503d22e2f43c3e15b73dc77d7d3d8783e33c5fbab5bd772a34bda05287bd\
  38f34a3de8294e3eac3c34becb90063def0ec1bde85c0dbdcb1ca0bdd94e14bda7b7bc3d2c87b5bc86c5003db251413e\
  b529c33d860d31bea86c9e3c9bee1abd4b4a56be4c3d2fbe848b6ebd1d1447be9947163dbba5813ca789953d570e80bd\
  142f84bdf20622bc6ec2b83d4b3adb3dce6327be616cbf3d90881dbe014f7c3d5be657bedafafcbc65f6d83c533addbd\
  8e84123cd4fc6bbdc634983dc75b86bdcddd0fbd5904083def1215bec0afc93d3e74863c40ce16bda2e557b957b2cb3b\
  2851203e584bb2bdf409413d5100f53c7510123e5908f1bd308e3abd887e2ebe077e063efcda343c467082bdebb679bc\
  ec57a3bbf0c2d43daec6f23dba6065bd9a9fc63d44133a39eba1bdbd4c457339858c42be730d843e30ba193d4963dc3d\
  e3b59c3d225b0c3d7b46773c5d66973cbd86a8bca8b3123ec5c8fa3c4594af3c4fe4fc3dcc75133e48b82abe197a063e\
  6827afbcaaefa7bdc595a1bb8439973c673aef3cd029e2bdba66183d6b0ae4bb0d51d1bd0acb3e3d2dbcb4bc823f9f3c\
  952c103ea01420be5aef123dc285b8bd6dca173e95cede3de892e9bdf759153ed21f17beec7197bdacc992bdfd11db3d\
  78ae6a3dad357abe48f3f23de3da453e051f4e3dc20812beff8baf3d282fa8bd880a5abd17a628be3f55a8bd70a872be\
  aa97243c9c75903d487d8c3df27b21bd3ce4adbddddad63d297fcabd66f1013e82e49abdcc59883def2d24bc9d18ca3d\
  a6dc91bed6e0ecbd2023a5bc5e11c4bcf09523bd98311dbce5969a3d936192bcc53de4bda13eaf3dd2ca73bd6157463d\
  1e0bd3bd2c4b39bec2d69c3dd34b2a3d2d120b3efc6c5bbdac0c253d79b8063e5424683de2320ebe94f4b23dbc8953bd\
  4998323ebb7604bc6750b5bcf3cfc8396eff3abdbcb4103ee25781bb819ffbbdfdc2b1bda7656abdd0a13bbde2190d3e\
  919d98bd96e2313e097e52bdc7a4313eb96dcc3d5ec9393b258ff13c0c4f2f3dd65362bc96be5f3d56e5bfbd11ddb6bc\
  3fea043e202a52bcdbab4ebe160d0fbde6ef95bd1eecddbdb5070a3d331f4cbd8bf8493e8ddcd7bd5c52c23c3fc4923d\
  69e8cd3c9a6a81bc55b1e63c9da9db3c696d343d7b1540bdfd9639bd589aa4bdc758c43c15ac323e63b434be41d0c53c\
  ac7ec3bdde02aebdade670bd8792f5bc02512e3dbc416bbe3582823d3e863f3e9843b8bb8abf2ebdb4515f3d1426163d\
  a36667bd2c2efebd66087ebcf4355bbebb9fc53dcd3a483d82d7ba3d0f7223be9efc6fbde5f0a3bdcff8f2bc5b1ebebd\
  2d6c563d379acebdf6d1dcbcb337cf3d16a543be53f7eebd597b6ebca1e1673cca07e0bd99f4823d40fdd2bcef73843d\
  f871483d9f09b4bc5eb016bd09ef57bd2f53f7bdad3487bd183ca83dfcd7dbbd16d09d3ed74593bc7919f5bd89c91b3e\
  c3b1b13d91a081bcce7a25befe64b03c3169813e8c07a0bd450b96bde19a28bd5cc8403c52960d3d26339d3de93b18bd\
  6927bb3b2bf2283dfa6c46bd99d0353d638ecdbd79352a3e743a03be72fbdf3c7bff40bddc99d43de9a109bd2386063e\
  bcbdd53da4130b3ee6b4e2bd7e3983bc1953723c11787e3d5d501fbe2bb74dbb409ed6bdeec2dabb3f34f0bd41da06be\
  227d0a3e296696bd0467603dd3b4953c2723c53df1aaf23b4452ff3d66f7da3c7b25463dde40d7bd73ede3ba32554ebc\
  6328933d0d32733e0e4412be333c093ead469bbd6c52babce02104bd92dda0bc72384ebb39d895bd39f2ee3aa5e34f3e\
  a6d9a93de4660dbe0aadbd3d1a22033caeb53bbe0e9bcabc1d6dfbbd2abae6bdd319ef3d70a5243dfa18d13d909f82ba\
  208bd5bc4d4c26be5167a8bdf4b6883b472b2e3d5fb609be03cc3e3c0b8ca93cc5f75fbedb23f8bdceadb33d37b277bb\
  c6615ebd9f6b45bd5c8ca0bcc811c43dafbb08bec056913d9649f0bdab73243be605edbd3588783cd2f31f3e4b7490bd\
  62c91d3e25ef2abcc56917bdcc63c33d6293c83d5c6c40be58af65bdcda11cbc380f4d3eb970b0bd882ae0bdc2dd80bb\
  cd34573ef8c672bdc469453eae17c5bd1038cc3d900c22ba3d7eb7bd304c96bdf5d67fbcb1da443ec5431fbe2be79f3d\
  e48c923dd2b39cbc2167033e7af936bc1245063d86cb823d5b7272bdcb2fd2bdc991083ea81f2a3d48227cbd4924143d\
  8b1e0dbea23a92bd9aaab8bb9db81e3ef8f8213e15a139bd3c2badbdf48599bc70345dbd8c58aa3d36ad6d3c1ee4e33d\
  27fb84bd09096dbc3baf82bc3d8467bdad22143e43ce0e3ef1acd3bdb5493f3eccff9f3cc2691d3b0ec7023e98b279bd\
  942d453da1d153bdca5d1a3dde6d283e9a06383d90318abdf28c923dae56713d49c10abe8ff493bd848a0bbe927699bd\
  a154863d16d3013ef2dcf83d92bcc4bbcdcb00bd008ed6bda53d34be1c86623c35f5b33d276d29bdaff98f3ca9c6633d\
  fe9b84be90f658be99649dbcc75ee13bf49a26bcda249d3c0257ddbd98ce083dc4dcdc3c3a11263d4a5421be26b875bd\
  c9a270bd32d617bdf24dbf3d7be919beb6af403e1180cf3b800cc7bd9b0a443d9536a13d019739be6ab8e4bda878b3bd\
  054eff3dc5e1ee3b7dd8fbbd3b726f3c57123c3e4b9408bcb9f0d53de93a003c8fac993de3ed43bcde2712befaf5a8bd\
  eda6eebcdb1e783e419b27be7be6043ec3886d3d19166b3d67318e3ec1fb143c23eaa53d1f35353d1819293dc1edc03c\
  a5abb13d544046bb6d998bbca8a08f3de241bfbd9c18e1bd5415e3bde045bd3dae19e73d1746a73de23763bd06a3f0bc\
  a3066aba00f4a0bbdfc1193ded04233e2593013cef4a4ebc14eb1cbc7f70babd2be8f03d2b9e2f3e5f1f1bbedacbf53d\
  00717cbdcc3991bd0ade763d995beabc660d053d95eab9bd6b957abc88ca813d1de7923d9a88e1bd36ace23c09f0203d\
  f0e61cbe9b0653bdcdc8c7bd6ad707be0576083eb0f8d93dd6c4653dabd1d33ab8af81bd44eca2bdc0303cbe126e8fbd\
  1654af3dc4d32abd023e6e3d2434b83c928619be131d34bece38fa3b6f3aa9bcc330d9bdc1a5c53a777086bd9a52a53c\
  f4e13a3d1c75e53cf50ecfbd25ee313d8de87ebcf16fefbbfb755b3c7a638fbdaef1543e49a00e3d4957babd5e45313e\
  8fb55d3d9ee005be00fcb6bd9b62dfbd20612b3c9d5dba3cc21445bdef019bbcaa7f3b3ede9c923cee42de3dab12843d\
  acbba0bce051e63a00f65fbe6f17a5bda0e0e3bdf360493e969bdabd465e703dca59cabdc06a743dd96c9b3e55fd7e3c\
  d1b5073e9bb6bb3d2f9e6c3ca7de113b653b543d2cca8bbce83f813cda53df3dd75736bedd7dc6bd008208be759c8b3d\
  218c143e1c232d3d3e073abd41e98e3cb8d5973dd15a563d4437873d15a0253e1a7a513b370b87bd140386bdaa24d5bd\
  9ee3123e6425393e51c165bed5b4f23da0a7a6bd1533053d5856713da61acebde73e123c0cd046bef4feeb3d81da633e\
  aaecfc3d543f08be55a1e23dc202dfbc0ce1cfbda34863bb0b97abbd286d06be5a82e33d9f2e003ee6d9a53d3be7633c\
  1c2bb6bab9501abe897643be4b18523dc778903b802224bd2b89233d92edd43d53088ebe462d58be31e5203d3c1f303d\
  1f6240bde14868bd965be73a8623573d9df0eabd8b4f02bd084ea6bdf65d7c3dc4be5bbd42b0a1bd4af8933deb0ba5bb\
  e822193ee185333dc182b8bde8fb0b3e9abe933df45d41be9bd66bbd0b441cbe8630093e98df89bd9705fabdb742ccbc\
  27b6343e6108123db930fb3dea3e24bd259882bba7026cbde2e395bdd517833c446c83bd2982943d0088a4bd50bb843d\
  2bb7973de5193d3c9069b93d5b911dbd651baebc3b016d3c826776bd3b05f7bca8edfe3ddd54acbce33559bdaf4f953d\
  0df2cbbdb2c235be7b8aa6bdabaf543d8377573e7cc800bd2f2ba8bced8584bbcfe09a3d3337ef3cc425223d70f71a3e\
  7bccbd3c9ad30ebc874c7ebc541fd0bd3c9504bd1346873e37a60bbe961a9e3d1503cbbdf7cb8dbdab02c33cf754b6bd\
  babbe3bb4f6b85be8d7f1e3ea3fb233ee5aea03d919da9bd5b46093ee083c9bd892e8abd363badbd349012be7ead3fbe\
  4dd9843d3305243eaa05a53d3bd74e3d6cbf6abd6791343de9a92abe4ad1be3daed09fbbd59e5abd73b0c03d5817b33d\
  a39867bed77d33be14e774bc831cf93c14410fbde93ccabcf93c853c0ae2813d0184f4bdbe08153d64ffe0bd4cb44b3d\
  09bbd0bd0d250bbe35d4013e5d5b513d312a153e82d90fbd7179223c57c3793e1c71f33cbb6fd2bd2987a73d35f1b3bd\
  a041033efb941dbc5517bbbdbf7909bd9c23603d4fbb923d04d5573d3e7616bea5d496bdb60881bdab1086bc2b160c3e\
  edc88ebd0955dd3cfd42c0bd48cc843d44f6f03d21302dbded05b03db11f37bc87da343df5f1c43dfa5dc5bde36c0bbc\
  9f1bad3dc0e813bdb61edcbda16fc03cb122d7bdc28adabd1afb6ebcc1f987bd5ad74f3e1b0cf8bc646d173dc8ccae3d\
  bc726d3dc127edbc844fa13dec4f9b3d3ae0733deb5278bd17850cbca21fe8bdce88a2bbc87e5f3e75d665bed7c0e93c\
  f0cba9bd43c3c7bd48bc17bc2ac3dcbc0964873bf53947be1b89693d04e75b3ee759483d516e61bd39b75b3d18b3a73d\
  524408be7eead3bd2b7520be93a419be3ad9513da34b323e44d51e3e5d2fdb3c7ed3cdbcb41ea9bd342b05be464abd3d\
  11e1f53da3e387bdf432403df9f3fe3d327612bebc3621be96fa8cbda569cfbc147092bd8394073d3d3aabbd214c6b3d\
  161b3bbd622e94bc8d391bbec4e3d4bb9aa216be6455c8bdc037f63deba826bea4da873ea39d87bd9ce28cbd404e0e3e\
  dec3943dd462cdbd63e057bd4214dfbdf898d83d54160abdd9b8b6bd1630953cfbef1e3d00275fbb38370c3bd244fdbd\
  6916333ce4b2ccbce215edbd0e32753d91aba7bd9e41f63d44ea67be6c53c73de3508a3c1e62003c4b64513e30ad283d\
  4d2dc23b8da0453e4accf7bde46cb43c85ee093d1489a53ce6f746bd5e7bd23ce6709abd4a1720bd428d6abdc60d023d\
  2c7f303ee4eb6dbc6e43ab3c94f8d53c2c2cdabcc47d98bd18f93e3d5e26c13d3835e83c5cc6c0bd1453523cc48581bd\
  f886543d2c34383eec433dbe3e81b73d6e565bbd962fbebda48eb43cca10e8bc3b53013e93d6c7bd5f4c003d353c703e\
  df12643ed4759dbdda08653dcae0e13daed416be57589abc106cc3bc260447bed646883d5d4f3c3d3a29343d990bfcbd\
  322305be3b35073d293f29ba1045c6bdb142543da507053eb2e04f3d7ca557bd863e5ebe9a57a2bdee08923d1f1e9dbd\
  65394bbe2e63adbc7061643c165b263d20d4283dd50aa6bcdd4c783ce655e93dfae04d3dc38f3dbd3bb8a6bd713aeabc\
  9e78583e7b3a86bd1a7ebcbd5945523df5a0223d392082bd53ecd1bdca6b08bebeefea3d4bb19c3d42a59dbde3aa19bd\
  e9553d3df2ac27bdfbfbb93d9737b4bb3934c4bd2182dbbcb6cb46bed3a1fabdc99c81bd67a89a3e32742bbe80c5c73b\
  7444cc3d781622bd11291b3e7fedb43c147de93db841833d1ffeb83d5ea7073c29f0e23c5afaa23c938407bd4c21333d\
  242eb5bd042d823de896a0be431b853dcfc2073d98136abd0a49523d6555903da4c3a0bcab812e3cd059a23cb7c6be3d\
  af29173d069cf7bc4700e1bd0c7370bc7c18aabd8bd5a33d635a0dbe3d0bb0bcfda5263d06ae35bdef9c83bdd487823d\
  668fcd3d08bdcb3ddacfa53d3d99123e30d8ea3dd555fcbd9b08f53da179cabd9a9f91bef7fcb6bd53bd18be5cfe82be\
  54a1d83dfd5a03bda5899f3c63c5803a398dd6bd4ddb10be33db653ced20a33d735a473ded68a33c160fa7bd15358ebd\
  e7710cbe67b135bd6543313e1de5103d041769bd3ad662bc54e3563d822afc3c72977fbc61b51cbdd5dab9bd499a123e\
  d7b68dbd2e9cd73cb2236fbda13049bb8aaad83caeac40bd007a3dbcb2e0d03d97e4f53d18f965be6547a53c4da579bd\
  4dda503e756b05bdca0d0cbea596d0bd13121f3ec018e63cc329f23dbd67d3bd7c86393e086b703d677005be29153cbd\
  5bb511be88775a3e8cdc0fbd06d1c73d8613433c3de785bd4b40a03bf57faa3db68a3abc36dbbf3d48a7c6bc8a0bdebc\
  ff82473d2504813d32950abebb26203d9725c1bdd8bf45bd55bfc43dc300babc79239d3dcb53a3bd2f83a5bca7a9babd\
  033dbbbd86b8873d99fb2d3d909bd33df656e83d42a2e5bc7f57623defb2193c0e740c3ec36f953d572efebc8a32733e\
  ce98873d2c6ba43b9f4da43dbaf61bbd10f5e03df76963bd5018873d74930d3e9167b43dc00eeabde482b73d16a9acbd\
  b5690abef221c5bd524281bd46d037bef32eb43ae185de3dc965843d29717c3d5aee59be1b5de6bdf349e7bd37ad36be\
  610e38bdf886c3baa752ef3d28298c3bcc4029be52b401be3a5d633c4c2ed0bdb89116be9383413d72b1f9bc740ee93c\
  27734cbdb2285d3c179448bb60eb063e884befbd1ffaa0bc550214bd84bd91bba026a83ed0651b3e8fb3bfbd979eea3c\
  0623973d99115fbec310d7bbe01b683d9fa8cc3d4d16c0bcf563e6bc7bad43bdfe2e173e93699e3d3813273ef6fc4bbd\
  a806133cea15c1bca58d02be35d19a3b6a8a05bbd4ed893e5032f8bdb286bd3dacfada3cb6f8b73c24f8bd3deebaafbb\
  93cf9f3d3cc10ebddadb17bdaef6213c136adcbc85257e3d6e131c3cbc2291bda5e042be3046b9bc25531abe49513e3d\
  b0169f3d620dcf3c496e3b3d0612283e059cf83d3c9ff4bc59c117bd9d3f343de714a6bc58b9303d644088bdd68007be\
  3e61edbc6228a23cd36c7ebd9844353e7bca62bd3a2c283dfb1c923dd077f1bd"

/-- tests/data/ff_buckets.fifu -/
def ffBucketsFifu : Bytes := hex "\
  4669467500000000030000000500000003000000020000000500000061010000000000005b636f6d6d6f6e5f636f6e66\
  69675d0a64696d73203d20350a65706f636873203d20310a6c6f7373203d20224c6f6769737469634e65676174697665\
  53616d706c696e67220a6c72203d20302e30353030303030303037343530353830360a6e656761746976655f73616d70\
  6c6573203d20350a7a6970665f6578706f6e656e74203d20302e350a0a5b6d6f64656c5f636f6e6669675d0a636f6e74\
  6578745f73697a65203d2031300a6d6f64656c203d202253747275637475726564536b69704772616d220a7479706520\
  3d2022536b69704772616d4c696b65220a0a5b766f6361625f636f6e6669675d0a6275636b6574735f657870203d2031\
  300a646973636172645f7468726573686f6c64203d20302e30303030393939393939393734373337383735320a6d6178\
  5f6e203d20360a6d696e5f636f756e74203d20350a6d696e5f6e203d20330a74797065203d2022537562776f7264566f\
  636162220a030000002300000000000000020000000000000003000000060000000a000000030000006f6e6504000000\
  3c2f733e020000003c500000000000000204000000000000050000000a000000000000003156793ea60f073f8005e83d\
  fa9a4cbff653d43d0e0a06bff83d073fad7c0d3f963683bd8ca5bdbec13d0f3e606b933c90fcda3cfcf410be28e9b1bc\
  383bd7bdfeec8a3da199323efae1a13d1018febc32f7e03df83db6bdba633bbeee94cb3d7c5529be938545bed6762ebe\
  505b56bc1d4142be3ae48e3d78fc38bdbb95163ef426513d28cbd23ca69f41be3e5698bd9fa2efbde38210bed25b943d\
  455b4a3ef4d04f3debc9d6bdc41dc3bd3e58e0bdb01e38bcf0a4743c147801bd702e84bde9b913be53f637bec8db59bd\
  cc1900beeaf28b3d5441593dcb79f5bd7d893c3e2dc93ebe00dc803ac31824bea466603d671c3d3eb0a4343da07d18bd\
  535b0d3e80178f3b8dd0013e40e7b4bc46c01cbe875f423e1e7985bd4b50cdbd007bee3b408ef63bd80088bd12520bbe\
  fbad403eeee5cd3d06c5f73d1274873d440ab4bd2da8123e59df1ebe88340a3d7c3645bd0c4a7d3da0d544bec8783bbd\
  a8a3b4bc42c806be7a30973dc8632abd0cf8783d32f307bebcae73bd10bd69bc63c0083ee6fc30bef8bd11bd90cb00be\
  e7a9243ea69e843d77a346be2c8b6cbd180492bdfe3a903d25243d3ece9dec3d79d50e3e48e4113d9aa29f3dfd460f3e\
  e462483d52a7d73d58dbf7bdbb7e273e5df8153ef7fe123e937410be2412bcbdf0eb2f3d10983ebe0caf11be98fde4bd\
  fe15a6bd2840babc967a32be582bacbc6114233ef2b7873dbab72cbe0e6adb3d42c5ec3dd2ef8c3d66efa93d891d0bbe\
  fe11ce3d9369273e910f303ee6ce04be60ef5abd7184103eeafc2ebe26b5e23d201b24bd0c7b673d3eb489bd210c133e\
  707e173d5894b7bde734233e3ce848bdb02698bdcaef8fbd9ee8afbd058fcabd80380dbefa0da63da0c01dbe162d29be\
  c82455bd579f213eecf270bd6605db3d105df73c8728343e10913abcbc503dbd5399283e2c17fdbd262f2bbebc7070bd\
  a08c16bd3b6b1c3ef06b7c3c2e96d93d90755e3c27e83f3e333f29be8565dcbde7d8073ebd2d393e232b1bbe5aa0ef3d\
  578cadbd47a5093e2877d6bce00643be1123a9bd4dfd353e4b5b293e4b60343ea55cf2bd01a8263e51de283ef02f473d\
  d23af8bdb07ddf3cab56463e000b353ba824943cc317343e881c83bc3c672a3d61d1293ee32110becc7701bed714413e\
  61e7243e202e2ebde7061f3e543501bdda9ba03d0ba4b3bd413d383e08450f3d067f12bee012be3ce32a1ebe1ab94cbe\
  501a743c969b39be2dd72fbe63011dbe128f04be00971e3b3a9c9e3d0c570ebef1cdcdbd20335a3c3102163eeeb4d23d\
  785c28bdc76c3a3e3bfc3f3e362006be2306073e3247c53d7c270d3dac1d1cbd70ca91bddbd92d3eb2cff3bdd7a62f3e\
  cb51cabd2205e03df02ed6bc2dac2dbe7e64a43d91dec6bd624c00be3aece33dd99d023e4e50c13dbb0c323e6d5c383e\
  f562443e4187023ee446273dba58983dc058543c4d63013eac7d27bdfe10bf3d7a73b93d3c222e3dbec7a63db1e7d0bd\
  0693e63d873b103e205ab3bb9205e53db1471e3e8660b13d0bba303e57cc183e2acd8b3dca898c3d085342bd44878dbd\
  abb31b3e6462c0bdc3574abe80a7bf3b54ac00bd0b41c7bd080a2ebd4c227c3d987f85bd003db4bb0c861bbe4d7545be\
  a7bc043e40610b3b19a2063e54d013bd26450abe922fc33dcb3e223eb7f11e3e09510ebedfc4f8bd5e6c9a3d809255bc\
  e00efd3c901ec33c861b2ebeb2bf8c3d6c2061bd38f8dcbd867001beb9d50a3ed247e33da8dbd33c6993083e5768033e\
  5ec9e4bd08817fbd48dad83c6bae213e90f614be286cb4bcd4957dbd3c1b1e3d639247bea8be813c43b033be3e13ca3d\
  a6e114bec11c1f3e886f1e3d3eb9923d7e95b8bdf0a5b0bc21e4193eb7ea443e28fa86bc10ec953c652dcabdc6622fbe\
  da9dba3db87e18bd6102253ec8c60fbd6432253d4c3c7a3dbdf647befe1bc8bd7c9970bd14a470bd0c5208be20542bbe\
  e3b11b3ee6c1eb3d7df9443ecaad31bef32e19be5e6a993dad773c3e481054bde6762bbe6d72053e3eb5c33d5895023d\
  cb37f0bdf083e1bc3c666e3d3c745dbd4db0373e0bc1333e733b3bbe9ea29cbd9e81c73d664d1dbecb57153ee68205be\
  e31920be7d45133e29e20e3e60d20ebd679b133e6c4e1dbe45bd3b3ee4042e3db8e2c7bd54d866bd081c10bd70039ebc\
  90b0303c7b953b3e2c9702bdf00ff5bcc88141bd70af103d472e2b3ebd44303e4d0f42bed82df2bcd93e0bbe59f61dbe\
  23d4013ecd5a353e00f10abec061c7bcf1601c3e21fe2b3e06a321be86170fbe6bffbbbd7b82463e4c390fbe67aa403e\
  103047bc62dce93d603e0cbdfeede7bd581c363da40bbdbd250af7bd050fd6bd032310bea450bfbd3e6b80bd50d2123c\
  f80685bd14cb27bdb81633bd0651e33d387dd6bde9a5123e53401bbe3ca92d3d9159c8bdc8e7203d64859fbd43d111be\
  28b5d5bc1bdf2a3e04fbbabd73e41bbed05c92bdab3df4bd17c5073e59ba16be64126b3d8cf7fdbd1725173e9031743c\
  e6863dbec6d406be81da3f3ee05fad3b84afa8bd576c9ebd211c363e6c0065bd9470723d86b00dbe09250bbe7e37c93d\
  61e4243eec2a6fbd1f07f6bd4b70243ef0b2343c5849febc98fa393d289b8dbc640b5f3d202006be905628be1d2438be\
  0cde26becb72a3bd76413dbe79fb0abe338635beb32a35beb1ddb9bd653d3a3e765838beae03c03dc0ba41bed65b00be\
  eb5fdebde30942bec580d1bdb0ad62bc7e2dd4bd6eacad3d100b31bcde928fbdb75b2f3e8de9293ef6dd16bef0306f3c\
  32fee33d3a1641be8839aebc05f8d1bd10b30fbc3c6f513da4920b3de0fc28bd565238be91c7c5bdc11b363efdac293e\
  703dfabc065e853dd02e0bbe4c1011bec6f7d43d009ca9b94057cdbc0eb8ed3d2516d0bd65a1e3bd7ba44c3e7a0843be\
  b8d808bde05fc43b0b6fdabd80bea2bb7cdb1e3d9a5dc83d318ac6bdbaaad63da45db7bd9e8f95bd6e60b73d821bee3d\
  5a68ad3d7e54b63df4b47e3d70dd8bbdeb4ff7bdecd557bd4a342fbe4492c1bdca37873dec7171bd7c04533d784789bd\
  a43c663df9741dbe3c15473ddc001dbeeea5a43db87111bda4ca593d6e82de3daedddf3d4d492a3ea919123eebf4b9bd\
  228507be63b3343ea597e0bd73832ebec8ad9b3ced3a133eac7c7dbd27de46be66370abe175f213e0035693a495718be\
  3c541c3d715d363e20f3263ce9841bbee663913d247e1d3ddd793cbe912da9bddc6920befeb5a33dd78d403e8d57233e\
  5e63dd3d7c287ebde5ce3e3e1aced63d72c2b63d139a34bea9721dbe94b946bd85f6c8bda4cf143d81970d3ee0b905bc\
  14505dbde79c0c3ef1eea6bd0e21da3df8f3eabdf707afbda9ff0a3e88b1d5bcbe01a4bd73280ebe90b132be5e28c8bd\
  362a22be888bc1bc52abb43dc8a0863c8b49b9bdda2d873d18b193bd0e30c53d293f15becc631bbe90abf93cfe60bdbd\
  40201bbe1eb5b7bde3c62abefc3f58bdceccb63d5072353c39f8103ee7c3423e37fb1d3e1e53963d6c1613be88af30bd\
  66b08c3d14f43ebd184c313dc015f4bc49ee10be99a00bbe23b13bbede9391bdb70b473e20ac053cc88c17bd9c3c28be\
  24447c3dfea9d7bd3483543d9293d13d5a5a933ddb72303eacf27cbd3a0035be0224f13db2e0cb3dcb60b7bd904135be\
  3b6c303e1db10b3e06fb913d23c10c3e1822fbbdc35f12be487b36bd71dd213ef7dd193e8e7b9b3df3922f3e7a20df3d\
  d87197bcc09aeebc368d3dbee4444d3d1b68323e1e23ccbdb1fa0c3ef0b9e4bc814a353e1ef7ba3df83097bd2857b63c\
  8a019abd0b6fc8bd4e59a53d2e99963d286ebf3c182e2e3dce03db3d88d926bd5707303e4caa5f3df457763d37be383e\
  5407553d6c8a02bea819ffbc86b218beb08d34bc6039bebbc389243e578645be2485553d903b0abe2229fc3d4b17353e\
  d03830bed51f3b3e60c0973c3e36d73d142b5dbdfc355c3d87d4283e9265f8bd6c1462bda47c563d71a0b3bd185e413d\
  24575c3d64d42b3db0ee51bc9091c83c507c8bbdf0380abecde5363e10eeee3c3c6e7e3d949e31bdff9aeebda00809be\
  b05f42be6e74ae3dfacece3debb74b3e3c677f3dc88b3cbdd4bc12bdf0dc94bc8b8e4c3ee4fc373d4ca313be830a36be\
  d8ee98bdf4f2623dab78d8bda95718be2d85473e0d4c3b3efee3c1bde61ac83dc9bd19be6aa831be0931103eb4f1563d\
  0a4147be6da73ebe43491d3e4d75033ed11cb8bdc6548e3d490a10be9aa8c83df0b3023d19c024be403e8dbcb61203be\
  10ad07bc83274cbe206e5c3cfe2f853d0cf13e3df0768dbcde658e3dc297e53d9028e13c2652903d0548473e36d323be\
  6de60d3e718ecdbd50894cbc66fda53d0db6333e3e74aa3d92a1f43d500c86bdfc3d3fbd0a398e3d8355173ebe4bb2bd\
  60648e3c7cea123d5ec4e0bdbd743bbe60575bbd8035bcbaf24addbd76123dbe7853af3c5206ad3d385bb3bd9968073e\
  90205e3c7e1ec73d3a15943d609ee73c0d9c4a3e1de7323e035e213e9212e0bdd09595bde766473ee2c602be43573cbe\
  1785253efce8093d404d45bea820b6bc316ac5bdb8a3c6bd60102dbd8da83f3e1ebc9e3dbd803e3ead10123e081866bd\
  84fbb2bd04e0a2bd27d03c3e90c394bdb6a944bef0e500beb7a6203e8ee8c13d17d91d3eec1206bea60a1fbec01e36bb\
  b96407bec623b13d9e9ccabd631747be033119beb8d0f2bd00af05bea7d54a3e2bb3eebd141a4f3dd0341dbe2101413e\
  405409bebc507bbdae1cc03d881584bca0bf03bd1286f83dfe76973daa9840be77c4aabdb292ba3da53d473ed6340ebe\
  307733beb5da443e7bdf423e445887bdb3b11cbe8ac12ebebea0c0bdf38222bec80cc73ca6a6ec3decb701bdfc84093d\
  ec8206be17da3c3e7084cfbc0a5625bec006443c80fb57bcee7e993d8dc60a3e4b2fb6bdeba41f3e002f0a3aff5af1bd\
  43403fbedd2e31be912c2b3efc671fbe88b772bd94d54c3d3ca210be161c43bed4816e3d41ed093e48c10ebdd807183d\
  50f31abeb0ab74bcbc4e623dac720bbd3f20f7bd9e088a3d8e11d73d2028113c78f0f63c3eccb6bd2a248f3dd87de6bc\
  f23fcf3dca763cbe8075c83bd10e213ea1c2193e2475c0bdf0ec023c0041c13aa18f2f3e7ebab7bd24e6693dfaefe63d\
  1e1ca03d4a1537be27383c3e52d9d6bdfe0dd6bda18c393eaeb6e13d50a984bd6506c7bd83bd203eac2108bdd804e0bc\
  88e076bd12d5f63dfd75053e9833f0bdf4b37a3dabcbcebde0fb923c004c853aa76e4b3e833f393e467943bef51e3f3e\
  481cc13c9034bb3c7ea5c6bd12d3ef3d98944c3d285cb7bcec8d1cbe948068bddd52083e9c2115bee0244cbdc645dd3d\
  e0e9fb3cb8b1d3bd41c0493e93a815becdaa1a3e82f3e33dfe12c5bd2586c7bd6e44ec3ddb90253ef489633d0a41943d\
  d73bacbd52289c3d70adefbc33f82e3e20eecdbb235c253ee49e1b3d1e9cb4bde3770fbee2f703bef826c3bd6c8268bd\
  a0aacb3b3184bfbd91c8b1bd2c0c50bdd30533be1c5a27bea829ca3caad33dbe2c3331bd20995abdad434a3ed03339be\
  005431ba30fc213d586af2bd17870f3e720ca73db0f3063d7e62e5bd45a3c4bd2087603c209cf1bb29cb133e9c9a25be\
  0bc3233e98e0eebd88b797bc2d84153ee351273e7229bc3d33d11fbebececbbd622d09bed4b65ebd46ddcf3d375e233e\
  26ced63d80c73dbef282f43d60f9f2bb560e25bed85c153d4696833de0f272bca74b333e38c6debd46818c3d3dc84cbe\
  6613933dc8f8823cbe63a73d0040a2b8839737bee07a52bc28ba963c63bc0ebe54ad743d780601bd20a1183c5a849a3d\
  8a9683bd7eb7ce3d50bf5bbc3ca23dbd3a94813d1054dc3cc01b26beed9a083eb39b1bbe88fc18bd46b6ee3d60c3de3c\
  7a3a983d2e02a03d5d5e303eb0f539be7750a7bd329401bed10cabbd7c8504be92e306be3bc8473e1a9f9f3d03120a3e\
  203e12bd17a41a3e0011943a0b4f383e5805e0bc84c8b8bdb762093edd684abeb8b990bd4db51a3e10f72fbe30772ebe\
  fcd8453da996023e30dc103d08b93fbd3a9f893d947408bdf043093c0b5f353e9014243cee4bbc3de79b493e725fc83d\
  7ddb313e1a17b63d60dd55bd2a42923d38f6b1bdd74fa1bd37b63b3eeba5153e9074c83c3ec285bd0083cb3b0aef803d\
  e6df13be146939bd28a0c0bc105b4abe78cdc7bd4e9eea3d047ba3bd87cd453ea42ec2bd8bdbfabd7ff8efbdb468633d\
  005c5f3ac6f9df3d64d3143dadc245be7d822cbe800cbdbbb05d47be8920123ef3754cbea7234cbed858f2bd48ae41bd\
  507f81bdc1db343e4864d33c94996a3d275645be6c0359bd34fc713d0e20f93d7444653da0c252bdb65433be090000be\
  1127a7bd0e32bb3d9173343e7cad583dfe88dd3d92f5c33d114eacbd5e668f3da09a4bbe22d005bebe188b3d0d941b3e\
  e020fa3c00abe03bb01f97bdf87993bd52d6993d14d811bdea508abd7437563df11dccbda05224bda4f6763d61be423e\
  27744abefd9f023eeac387bd563a2bbe2c2e75bdb0af053d2c773ebdf053163cb872cabd602207be64fac0bdf0a92abe\
  8eb7fc3d3005fc3c2665ba3de088bb3c946945bdc8a362bd430f0a3e3c490bbecb99e2bdc8860e3d6aaf4bbed7ad263e\
  6674bd3df007b1bc8e0eaf3d389814bd3994133ed40c14bd713e433eb02f1abcf07e703c0b83bbbdd3041dbe46d43abe\
  711bccbd6dbb3e3e61c52d3e5ee3c53dd98c16be32ddf13d0885bfbcd81bd4bd8bfdf6bd4531d6bd07ac063e3c0608be\
  20ca14beeac645be3542413ec8ec113da435763db2f1a73da01823bd560e15be90cbf83c4310123e25d83e3ec02feabc\
  3afc31be40840abc1d27243e3130ccbdd6b843bea0c103bdf8fbbabd3d633dbed4087cbd56ac3cbe9e27813dbaff9d3d\
  0c11563d701431be290914bea09007be4bdbdfbdac3653bd54e515bd420af93d619a153efe5ad33d0e8abd3ddedda43d\
  ce5bd73d543539bd7eddb33dc042b7bcacba00bd5e8cacbdbe63df3d03df48befc222f3d5285e9bd31b63d3e64e0113d\
  6d5b49be5895453de0593ebea6b700bed1bc423e1ad3fe3d54bc6cbd000ccf3a0c6e03be6cc84fbd327b803de41b143d\
  524fb33d073d3c3e89d20bbe40faf6bc80c7b63a777f2f3e6079fb3c8d0b3fbee03c4cbc56f205be40dae7bc384597bd\
  3ce8673dea4b35be006346be2d391f3e0b2feabd283bbcbc40a6c73ba0dd7fbdbee3e3bd1e95e2bd26ddf93dba9ac93d\
  231e143e3c4a463d6371223edb551f3ec0c5c2bc4ecae73de92719be2040d8bb10733abc8b31c8bdc66e42bea41b5a3d\
  b20fdfbd6df70f3e965602be3063ff3cd0e50abe65bed0bd486820bdd8b1d8bd45fbccbd2bb93a3ed27bfe3d4bf6ddbd\
  0d442abe2c5666bdcc5925bee5c0e1bdb7a9383e807a1ebeaedbd93d91650c3e2bfe2d3e7fb8e9bd0efff53d4817e93c\
  03281d3ef09383bc54ed28bd507021bee04755bd804706bb947f48bde05079bc40ad1cbe483237bda08328bd72edfebd\
  e3eb083ee9e5103ed811393dbb5f3e3ee7531d3e5e77a4bd57f7043e924d873dcbaaeebd182a98bd9d9c3a3e13ca26be\
  27d7483e232c033e90d182bd409aab3b721fa83d4ca317be8b8ac4bd889326bd433f1dbe549d14bd20016f3cac7934bd\
  a470123d52b5ae3d2c9514bd0781253e546c63bde177343ea19c403ee03b06be1019c63cb7bea6bd690b02bea58afcbd\
  ab999ebd90d5f8bcce4bbb3d53de223e46e33dbe0ac12dbee4f398bd70421a3d00d5063a00a6a93a58f2f8bdecff5fbd\
  a57debbda8dfcebc4ccb13be379b3f3e9a9ee53d0b1cbdbd789ae63c5f5df2bdb01c83bda8edb3bc7b2c363e3d563c3e\
  71853a3e9e11bfbd83c6213ed821e8bcb06126be8b7fabbd25bf463e8cca4f3d0682933db02686bde464203d2d033d3e\
  7a42cd3d7cb40dbe6d2949bec80264bd0a1e2dbe437634bec01221bb28cab03ccd0f2e3eed7e2dbe7d4e363e5042543c\
  8010dbba26e6883db34e33be4152443eade8393ec6fbaf3d0efe9a3dd0b616be0ba2dbbd71a9d0bdc12b323e4b78dabd\
  50ee1cbe6b59cfbd74cd513d1e97b9bd538d093e4033f7bc77484b3e502e26be00e50cbb804ffc3a0082323a70798cbc\
  7098debc5dda2e3ef8a1e7bdfc91773d3d9c4c3e56e920bea0d0bb3b3af9903d8cea753d467ff43d3232ddbd10a343bc\
  01ea173e667539bed3fc39be80118e3b0bfdabbd2074efbbb09577bcce63983d1a5d41be9825f7bd9c1829be4d1943be\
  a47c2c3d54a31cbdc10a433edab031bedeb0c1bdecc370bd3117483eed4c083ed78749be7264f93d87e3363e120efcbd\
  f2b2fabd9021e13ce3e330bef05c8bbda733303e705e053d464227bef3df4abe6da937be2b5fd2bd5b1d1f3e04a59cbd\
  19c30abe34dc4c3de7401a3e605ef73cb07f0bbcba26de3d639325be312ad2bd7a958e3dc07eccbc9df9083e2a2881bd\
  2605cb3d104040bc47953d3e77af2c3e111eb0bd87ed293ede0aadbd2bcadabdd41569bdd4845ebdbc1709be66ce903d\
  ed8b3abee0f09a3c6bd81a3ef893dbbd119f383e136d003eb2e4d93da0e143bd00b214be7eaca2bd71a1a7bdfc3407be\
  f02a96bdddc5153e83322b3e7af89c3d92c4d33d502710be00a4ab3aa42c83bd03042cbed0da13bece3bd03dd3dc27be\
  8765193ef0da3ebea03ec63bc08b49be009418bac6f7fa3d5aefbf3d06e6d13d9ee6aebd38c5d8bde656c73dabd3f2bd\
  388bbabd5cbb04befcf322bed1a9a4bd309fe33c007398bbe3c243be24575c3df02dbfbc3179a5bde4f1613dc0e7b0bc\
  09b8063e86af0ebe66de2dbeb09768bcc81845bd29f80cbe80d446be00ccb03af13a1e3ef87eb03c7441673da49b9bbd\
  2ceb24bd2528d5bd1d39353ea83f95bcb0cd31be9090e0bcfe0e8f3d8b92e9bd131523be86571ebe70f31cbed276803d\
  726ceabd6d433c3e5ca420be63c00c3ef0daa5bca378293ef7a8353eae76f33d832011be96f73bbec845c53c242a163d\
  fc1c383d5acba23d3c8162bd6a288f3d6b98363e865da63d17d1333e1a483abe8617d33d9d0a34be8c5e1cbe3e92c8bd\
  331e20bec845cf3c406bd4bc909f583c4a7931beddbb34be3067e33cae2aa93d2a178d3de073993c7a11fc3d7241e43d\
  bef9ac3d27294c3e2851f1bcbe6ddbbd48fc1b3dd4ed6bbd77fb393e26ae8f3dd4190ebd3ccd6cbd7a9cb73d8dc8103e\
  7a07863d601987bbbd533e3ee63024be31ef013eb2a8d63d820c05be9d2948be63e20f3e402894bcab2ecbbd08dc6abd\
  0b75e7bdb9490c3e73724cbee00130bc07bc233e58a5d0bc702a47bef3ff2c3e6db6043e3ad9c53d525c8a3db03a3fbe\
  b83f83bd6019abbb30213bbe10fb18bef251ee3d8b30e2bd2ee0f83d0bdecbbd3e48a0bd94e308bd6b00153eb095493d\
  b354033e6b65c0bdf8f0efbdda36e23dd8c6cbbcb0f120bcd396313ece02e03df3700d3e2887b63c1a1fd83dfb39413e\
  bc1b643d89b31fbe6ba8debd98d43f3d191d0abe565b40be40a814be58adb4bc8065963bf0666c3c133022be8bc4e9bd\
  d91f003eae7ff83dd2a6e8bd2044dfbb6ca40dbddaead13da6d425be945226bd1140cfbd0c4e593d51b5123e5da53c3e\
  23be3cbe062000bea7624c3e8485a1bd539e333e51871d3ec38019bebe65bebd8616ad3dfdd0263e60740cbdd2fcf5bd\
  f0252dbe46a2c63d0772053e5e43c73d48d2d43cd256983df19b303eb20b8e3d80c725bbacd11abdc724393e0dda0f3e\
  945363bda0c843be0614ad3d082780bc1a6dbf3de70d2d3e605141be4695843df821993c4d8b443e12e7f23d760a32be\
  d813143d8190283ede8c823da855ca3c2c0f6cbd10ab27be488b23bd9814f8bdb7b8aebd6cb419bd3e57b73d9281fabd\
  ffe0e9bdb271f93df8dfc13c4532f8bdfc4c14bec6b008be084a1cbd549a36bd6468433dc0b1043ccb54dbbdd4f94abd\
  98680d3dda31c63df6fb14be732a103e290911be3944103e587c043d3c0a21becbd6383e7adf34bed08b4bbecdee263e\
  c65f9b3dfa6c3ebe802846bea43a023d58baf9bcc8a6e83ca23ff93d43ae1ebe00e10fbb6b5ee9bda09421be62faf53d\
  6b34eebd6e75e13df6e300bec6c8973d19a101be3ad8fc3d8a0295bdbe0fdabd7811ec3c7d2049be2a9480bd81b1383e\
  bc0a793d4cc55f3d801447bccdaa33be80ac89bb605b82bbc03f32be44c79abd489f17bd92ccb53d1e689a3df1f9d4bd\
  b256dd3d46b5a33d8c6a453d7c4f59bdcc1222beda68d83d72b7dc3d136c17bef3d227be33d5033e0a758ebd08d0213d\
  fcea58bd4a5f85bdc37b0b3e044b92bd32b1e9bd18e5efbdf0021a3dbac7f43d0036743bc0f8663c78d3d6bd4ad98a3d\
  67332b3e0b96d3bd03c948bee04d4fbc37c3453e883a71bdc017dcbb8c4305be054c443e6d17173eae63e23d6d7a173e\
  bade803d106df9bc8192423e088c4bbd651dd0bd339b24be7cce53bd6af298bde3c00c3e7cdb42bd39ae01be566024be\
  b08a42bc606309bdc816883c301e4bbec83245bd61870a3e287fcdbcd3f125be50946abca1d9313e3238c63dc042163c\
  f7042b3e4e9ac13d9a31f63dc607dd3d88cd1d3dc2f7eb3d8c0c633d7193203e207c25bdcb2da4bd12c38c3dfaf08a3d\
  664d1dbe60c709bd088c053d101f24beb796193e4b461b3e0021ea3a07fe1f3e0d8f303e5d3a4cbeccd620be181e243d\
  00b6263b3737103eed934abe50cc143c47ec433e08a1a6bcfe71dd3d786318bd6e39ad3dba9de63d6b7ab5bd70a9e8bc\
  12e0c33d5efaa8bd2b7ad9bd805503bc002f8ebab91310be6702163e9da53e3ef931073eb89138bd72380bbef472723d\
  9279f23d9ee4a83d43044cbe4690d53d4bcf433eb447583d43d0093e785ded3c90563fbe582eb8bc2b2b2a3e43d10ebe\
  3de6193ef89cc5bd5ebca2bdfcf4593d3addc63deb97bbbdf1e9223e1e91a03d2c8afcbd3c1f51bd1806d4bd29bd20be\
  6eb4fc3d9c5106bedce308be53bc143e35413d3e1847263d57b89abd3c4162bd2460783dc07fabbbfc763e3df2fa06be\
  5de13a3eb87cd2bdf00144be1e27bdbde02ddd3cd8de143df04bbabcf80a18bd944e4e3db071033d1d781a3e403411be\
  e025ea3b207d3a3cb08e2c3dae4cb73d591e0fbeb2f2813d1ee2dcbda56f4b3e4dde1d3ef7524cbe7133c7bdb272ebbd\
  70d304beb0071cbefcb61ebe4ab590bd10a900bc52e1bb3dc01281bc7ee0aa3d10438cbd08be333de6a90dbe106f0dbe\
  103c3fbcc8d5fd3cc54dfabd48be75bd8043b63bf08595bde32125bed12a9fbddf87eabd6d02003e606f1ebe64272e3d\
  ad2b3dbe64a73e3d0794203e601e49bd7c6076bd20f2653ce08d3abed92908bec67822bee00ba03ceac3943de409253d\
  20e0663cf62c36bedac2fb3dc771263e50ce14be6af78abdce07cc3da8e2e2bc4eb8b03de42f2f3d6b74333ed6ff03be\
  e446b2bd004475b9463f0fbe2e2fef3dbcb67abd3ef4bb3df1bebcbd7b49293ece80be3d403532beb73a243ed2a0a03d\
  328dc03dfcde29be2d8c403e2d7e3a3e5a64a53dd151babdb1cda3bd86ada13db2e3f1bda0160fbdb2ea9b3d44cbacbd\
  502d1fbe29fd0bbe37e23e3e2d4a2e3e690e11be20cd14be8b87163ec8d641bd14d227bdceb7b93d221ded3dc20404be\
  50346cbc52daf83dfc3a6abd989fbabd8117263edabae73d3ca4303dd159003ea3fc233e17d91a3e40771bbec43a93bd\
  c045633c5ad027be9708263e23c1013e18ee1f3dadb531be29ba023ea651953dc80eb03c9e2dc33d00962bbeeb26403e\
  53e62bbe4cfd583d439c2ebe98d6d3bdfee5a4bd22b0e73dc0b1eebce017b93b21b3373ecd94043ed13a163e3a4ac13d\
  8133443e405ee63b7568443eab0b203e40e4eb3b21c3013e3d442d3e83b545be7c1153bd000742be2ea8c93de6d7ec3d\
  51f9b1bdb73f343ededad8bd0019ab3bf0d50ebe417a203e6c2613be389f13bd94c027bd4b43193ea0ec3fbd1354393e\
  78190fbdb0894b3d2c6c4cbdf16d1a3e38402bbd52f2923d8cc322be40312b3b060f1abea821a23c007d40be186b2f3d\
  965980bd0734073e0df41b3e540860bd101bfa3c165541be3a65803d7efb9d3dd876cdbcfcc7683d939c183eda16a53d\
  e667bb3db0806cbcc642e73d52dc913da1942e3e72d7f93d8b7e4a3ed2e1c33dd7a148befb402a3e45c1dcbd786f09bd\
  d84ea3bc0b60dabd08e2bebc781e88bd048493bd59df15bec85fe53cf0cb593c60094abe6d46213e6ecca33d4e17c63d\
  c8e3d13cc0d97b3cb8f0f6bd31dd443ec3bb353e44c899bd66edb13d7ed290bdd848483db75dabbd787e8fbd19550bbe\
  c90b24beebefcebd0cda0dbeed793c3e294406be486ad93c9196a3bd4880fb3c18ddb5bd6c7b51bd8e56ac3d132b0dbe\
  d2bddc3d584ea3bce3ba3ebe802a27becec2ef3d9485673dd40a24bdf0213dbe17420a3ef9fe11bed81fddbd32d4d63d\
  302e49be8d1538be80a8b8bacbd21d3efa4539be9a70813dddf4123ef2b39e3df81a19bd305e0fbecb0cafbd7031303d\
  d1da303eda6cd43dacf271bd1afae23d4c75703dcc685e3d201610becc6a5b3df65282bd9ae42fbe43a1373e2b0dfbbd\
  d241e0bd724ddcbda61730be6535473e769006be91f19abde102323e53371cbeba95b13d20423c3c6486563d88b657bd\
  1d08323efc1c62bd7a21e03df3b219be808017be9d0036be12a0813df803cfbd9234c43d73b32bbe2a249cbdcd130a3e\
  78ffb33c5b682d3e948313bdb01f8ebdca3f8d3d7afac43d50223bbe9263d13d1d9e2f3ec45694bd8144043e418f413e\
  c0c6b1bc48183a3df0cdcabc6460733dccdf623d600fbcbbda05c33d6b45f5bd00ab16ba0e6dc03d2df8013e2771133e\
  5a7f3cbe88ecd7bc095c0a3e7cf93cbdc6cb17be9ab68b3d03a1243ed7fa453ee36228bec0568cbc9d67103e70641fbe\
  b9aa1ebe2897a8bcc02b643ca1dd3a3e5ecda9bdfa9f29be0679f33d12efeb3d04da9bbd2a6e9abde65712bed2d7eebd\
  9afffc3d24e15f3d1ba1163edbfe373e9b29463ed870cebca33545be1396243e196209be4e9ad23deb4d423e4a5a44be\
  6b462a3ee0e60ebd6988113e3caa033d9c4518be8786253e7a3143be19c10b3ee63229be8e709f3df8a695bdf91f0d3e\
  583c113dbcf560bd8e8dba3dd8540f3dec4a24beed433b3ef3c4333e5882d4bc103f35bcbce5563d23c425be0b01b6bd\
  e04311bc8107413e30a1393d0485b7bd1e06bbbd7a91c93d846bbcbd1a70c43d969e11be6657c93de6801fbe90d3243c\
  7060363d66b3af3dc731013e60ac07be049cadbdaedeb93d08dd95bcf885bbbd7cf653bd60061cbe03b32f3e082d38bd\
  2635a73dbcab783d109e3dbcf353173efbe8433e8382023e3e10803d1211fd3dfe11bbbd3e31d5bd74107b3d5e3c8d3d\
  a714153ed872493d26e6843d864dc23d181f0c3d33cb0d3e3ee2c8bd28aed73c22eeef3d100c44bc88574bbd2325093e\
  96442bbe008fcc3b507f8bbd3c5c063d0867a8bcbe62d5bd0a754abed3d7143e3db2023e16371fbee065bd3c52ede43d\
  c8741a3d969181bdba5daf3d28d1c23c60a405bd38fbcdbd6edabf3d586183bd7eade3bdd850e3bdf73d293e1ed3bdbd\
  15354a3e5cda13befcdf1b3d4b7cf4bd46f0b33d93d33abefc505f3d8082b13a26251ebe8558dbbdb8d2e7bd76f607be\
  9e3fc53d72d1d7bd1ae12dbedc7b15be3eb8a6bd7ed2933dab3bf7bd2b30413e320ab53db86414bd21ce093ec47abcbd\
  8a7d41beb87085bd18d7debdccde733dcbaec7bd50bd92bd00a3473b0c1a7a3d507a15bed336323eb388223e18bfb7bd\
  97f20c3edb35453ea84cb43c927d953d05def8bd6d014cbe708ebcbc2c7827bec672da3d72a7bc3d13ad353e106134bc\
  209143bebab1d93decf129bda02648be4890cb3ca879b7bc2a7248beed2d1e3e7e8baebd5346163e5ad5db3d972daebd\
  865fa63d9a89fc3dd0a205be14ea773d99d314be78a2cebd0c586c3d714c413e0a438d3d7262b43db121193e6c0b0bbe\
  7c9e683d12bbe23d63dd1fbe701a42be72cde13da07d67bd0a268c3d1faef3bd70944c3dc284ef3dbe178b3df806c83c\
  80e2a63a98ea3a3dd0fc0ebe47cf49be629d05be0c3911bec8c92f3d60c440bdc3082d3e5fdfffbd40ed283b31d2c9bd\
  107cf0bc04cd82bde4056a3dc24a04bedea5c5bd32c2983df3914bbe2828973cca743abeac1212beb0b128be3122afbd\
  ec9d09bd2aaf37be6ea7c93db9f80ebe968c04be7c5b7e3df1baa1bdea69873da3bd163ead604bbee4f38fbd207917be\
  b15ccdbdf8b192bd7180a3bd16fa04bec7563e3e54f87c3deb94a2bd7aef44be3ef883bde6f9fe3db8dd91bdb863cbbd\
  e6632dbe93ef0cbec1f40c3e94c956bdfea7a33d90ceef3c140176bd887f7fbdfac6a73d705905be108aeb3cca4b25be\
  acbd17be510daebd2ba3d8bdb0c2493dc8dc61bd940c5f3df3e049be28afd73c7248a43d889da9bc1e6bc63df1c3cebd\
  70dee0bcfcbf3cbd20661fbe0767263e20c61a3cec7463bd9ad29c3db72eafbd1eacdb3d676245be7a18843d2a74803d\
  3326343e29cb0a3e4d8d1f3e2ddb1d3ed8d4b0bc70f807be85a4f3bdad362abebedaab3dc860db3c676c193e7b332b3e\
  27d80a3ec0da513c0ddd49bea40f383d136a0d3e8d6f263e508e123ca04119bec0e1bbbb726dcc3d489a51bd898118be\
  e539f7bd8ba2d8bd0844b1bce0a20fbefa4b49bea0f60dbdb43c7e3dc87de03cf0206a3cfab3d43db0cd1cbe8c17553d\
  812c2a3edafbee3d351d4c3e9cf027be0beee1bd67aa043ec0567a3c4b61253e0060103950791b3cb919143ef741003e\
  83bc24beab2e253e73e616be28c7d73cee16d73d60dff13c64c6aebd1850b5bd265fa73d511cd4bd7e02ddbd9ae9f73d\
  7cb75c3d3afcda3dd36c22be0bcfddbd708ad5bc236a233eb155093ecb9bb9bd9ff4f4bd1791023ec0d220bbf5cb473e\
  66ebaf3d11429cbde4779abdf8e2e6bdbd513f3e08d568bd5ea79e3df05845be94e63fbd27551e3e0045333a49b8133e\
  31ccb5bd0097d9bb1009e03ce551f0bd602ba83ca6e3ff3d4814393d58598dbda8d3cebc45583c3e00a14eba8887cfbc\
  84629dbdedb833be3d1d2e3e9e8f9fbdac8d27bd267dd13dce80f43d901a6f3c2e6ca33d211f1c3e4364033e1744023e\
  7d40233e4e2beb3d304ef03ceba83c3e08ad20bd287ea9bcc17e113ee4966c3de6b925be3e1e8d3dd866cfbc8c92463d\
  001e843a1e1cdfbde07315be90862d3c78f4d83c2cbd70bd74ad553d00bfecba1e20b93d138e24be842aafbd666ed83d\
  50a53c3c40f135be3c345f3d77232b3e2a1626be8218f03d6df0183ebaf0df3da280df3d7233e53d1177443e8dca3cbe\
  08f914bd1064c03cf37538be97b23d3efb75423eb9180a3ecc425c3d92beab3d1d4d013eeef7c33df0df94bca0151abe\
  f180333edae5fe3d01e11b3e00a81abac0bb0bbe3026233d07501d3eac5557bd80e05abc503520bc00f6083b28dc9fbc\
  a65a13be56a83bbec474b4bdd42b07bd816e113edadd8a3d8dfd363e4c525b3de04c2ebc503b47be163831be60e7833c\
  2b464a3eb31136bea9f7133e11e80e3e7ea2b13d18c4363df89930bd81ac363ef4ca6e3d58fe98bd41d2333eb729063e\
  d88f9cbc0362073e28eace3c664a41be4814013d0c3305beb214f2bd7a7be53d97e1473ee6a605be8410aabd5333313e\
  fe8a8c3d90a5403c40d7b8bc08f08dbcf8e5f83c0e0af43de0384abc007406befe14d8bdf256803d86b213be4873053d\
  8ba8403e485b38bd38488fbd87eb363e5361323e36fa29bef18c0c3ec3aa383e0048043a39da0fbe17d4443e2177413e\
  7c6a03be105066bce4e5603d6e35fe3d20ceb6bb3e92abbd3eebae3de6a2b33d0de31a3edb5d443ea8a0e4bc3778a0bd\
  b97801beb67618becefcbb3dd272a13d7abdac3d1e5cc83da8aca9bc40220cbcbb54473e1831383d089f233d6e2ebb3d\
  1ef9b33dbc5f6cbdd2dfe2bd517ea4bd93602ebec37021bebd1c4abe31fa273e7cef413d7c6e11beecb153bde0c046bc\
  50968fbdfba34b3e23502cbe4755103e82a305bee35742beb05440be4602fe3d209815be30868abd3acbc13d0de2343e\
  247b2f3dacb73dbd58a41f3d3df2063edca719be86f2893d6c9660bdf0f52d3c59cd18bed79046be7ec68bbd1c7c0bbe\
  21553b3e165133be5ad2c43d72beb03d0c2d07beeb6caabddecae5bde634be3d10fd0ebe83960e3e0875d0bcc8cadb3c\
  862bd23dc77c253e5ec2d7bda64d833deea0d03d38f7e1bd20f48dbb280ce0bc50cb32be9287953dd10fa5bd61b63e3e\
  f2d3a43d4c74563de066ac3c3e98b23dce02a03dcc02603d929608be6c1b2dbd948968bdfde82fbe962402be486c7cbd\
  389bb2bd9a89ae3d8acd3bbe66b98a3dd4ce3dbd949c2bbd0695803d7ce9273d1d462d3ef2cc903dedfd233eb4f8743d\
  7823813ce6bed13dbbbc1c3e7320323ea421723d459fedbdc11d343e9086303c2a9734be46d71cbe338545bee6b1b03d\
  1ab4b43d070645becd683abe5a64ac3d708744be7c7513bee572febdde75a33dbebc863d83d6023e9d203abefbc32d3e\
  d15b313e3a3aba3d6d40283e881d383d86eea93d1e6f90bd646a573dc7832c3ee0fbea3b50b6083ca537f0bde3d4343e\
  d248af3d1be3213e1145bbbd48cddf3c33f6033e634e20bef0816e3c32dcec3d7a1d45be7af33bbe206578bd70e1c1bc\
  e64901beb84536bdf803ecbd13e10e3ea457403df3fa103eb065ec3c8030a7ba8cc1773d8683ee3ddc1b18be977e3a3e\
  082f9cbcbe82d33d4b2d2f3e31d4cabdbd673abe7a2f943d69fd0c3ea65f3dbefc06163d77564cbe511c2b3eb840b9bd\
  197e083e2e97b83d2e9e973db2c0fc3daef0993d129ec63d08713cbd69071dbe1fa2eebd32bbef3dfde7213e268ea23d\
  93b1233e577e9dbd78b88bbd574b3e3e2bb1d3bd664426becd53353ea622e43d06100dbefe14bbbd6c1527bec719323e\
  30c51f3de97f02be365021bee019ca3b5c5826befcc33bbda6231fbe9364303ea75b013e2899c73cc7ac343e087d153d\
  0e919b3dd85097bc0676fb3d80a08abbf7ffa9bd30c7373d70fa88bc809ed6bbc05b1b3ce375153e58081f3d23662f3e\
  732814bebcd243bdc4aea5bd9dfa483e07574a3ee55e473e43c622be525da23d1b49203e12cfca3dddcd173e6d47363e\
  b0e34bbce99f02be5e2b84bd9dad313e4b01183e777f2a3e9842bcbd9113b9bde0fc22bec435b2bd0bd5163e9cb100be\
  10b367bc98e8c6bd7aff26be66081fbe1d01313e18d0403d7d6b483e5724383ed8fabebd83eb143e72638c3d5080783c\
  520bff3dd1b4d0bdde81dcbdd80defbcd8a2083d9014f73cc8d86cbd3ede9a3d20db09bdebd5243e2c9220be26949a3d\
  43a321be7126193ec8b0d53c5b241d3ea44386bd3cfc6a3d06f8af3d0a6983bd47fe3b3e2ceb49bd6b291e3e51d6acbd\
  46eacb3d701498bc556a3d3e533e32be171d4cbe106ef6bceded47bed44e71bd31b1a8bd988ff4bdee6f973d28dc953c\
  17623f3e7277d43d1aecc03dc8e97ebdbbdc3c3e32b7ecbd945c54bdf9070e3e2daf40be14ba32bdd06636be8af443be\
  46dcc83d1ac829bef83cfa3c72c1c03d475d373edd4d2b3e8245f23d3281f0bd785dc3bd27b7183edece94bd7aa48f3d\
  d4b352bd96920abe30868fbdf94a053e9eecc53dea9445be484954bd2c4e49bd860ae53da0641fbdfd6939bee6e7c13d\
  e513dabd0066c33adbb8193e06c5ad3d46b8ba3dad243cbe63832b3e355a3b3e5be6443edee0c5bdc0bc3c3cae2dd53d\
  585ed3bdd8e3d0bde02b41bc1055ebbca4fb213d163f26be3272eabdba42fd3df123283e1a9fd93d2df9043ef1229fbd\
  86da843d81cd403ed99022be65ebc4bd64607c3df6522bbe3c530e3d201414be10f3f13c5a0547bef1a1153efa9d4cbe\
  1adbef3db86abcbd98f5363d7233f93d9049893c8d75093ea4016b3dc599ecbdd1e63c3e04d78dbd632d44be54e45f3d\
  5cea07be43d62abeb0784abce477483df30f333e1095d73c5e58a0bda8b9a83ca849ccbc3f25febd186cf5bd777c343e\
  08a4a7bc61de1a3e869940be90b0493c8ea9a33d6473babda4236a3d247c703d0e38b13dc23bef3dae55a83d356d483e\
  c177423ef45c793dbcf071bd8e2bae3d601718bd4698b33d093b1dbe860d34bef017783c3a21c43d78779f3c93f349be\
  a5dbc7bda442263d20b682bb7250b73df290e83d4e9fae3d74e1643d452cefbd60412fbd4306153eb4fd543d46948c3d\
  c8f457bda2e2e03dc94e093eae87b63d1ad9c13d7ad4d33ded3143becb1acfbd1c2c03be65cde1bd56733ebece3cc13d\
  cbabf8bdb09835bee050ac3c8bfedabdebcfe8bd1778203eb05658bcc0996f3c636a2b3e43a30a3e8e96fc3d9c061fbe\
  aafc93bd7efcc53de5f0d7bdf6cc36be50ec23be71e42d3e2c7a2cbda424253d40b929beaa0b2dbeece32abd5d481e3e\
  91dc9dbd3cdc09bee4fd423d5adac13dd202c13d1d2e2fbe4b57d4bddb3a193e8bb1c5bd53e114bea6ad1cbe3994083e\
  e15b013eec3250bd38dfbabdf9b8133e5ee3bd3d186a84bd335b43be58d4f5bc20be3fbdf8b3cebdcbb0323e6bf8153e\
  5076693ca44fa3bd26adb13dc0e7463b45bdd7bd4bd92e3ea5324a3e62f7fc3d036618be60523abe9013db3c4bd73c3e\
  a20dfe3d03f447bef0fe00bed246e9bdd471773dfca70fbe6004813c49570ebeac0752bd25b4ddbd3e45aebdcc875c3d\
  b3a6303ec0df5b3c2c5801be6d24483e9848e8bdc87330bdecfd24bdf6a338be5776013e036926be9c5a28be60d454bd\
  430a41be33a93bbe5ffbf0bd83ae2f3e40c736be4a353fbe387d2fbd28e8f0bca85cd9bc6586d3bde1fa013e97b5163e\
  18ce85bd2d16333ed180c4bd7e399a3d2829f8bcd08e07be4b01bebd77be083edd2c3b3ea49c343d54d251bd82a5ea3d\
  8a7641bed237a33d9a0c883db66815be4108193e7e939dbdd4872abd109f2cbcf8d5ad3c46e5d03dec3808bea0b80abd\
  41bb473eedf7303e732b063e3e9783bd7fc8fdbd022dfc3d32a6aa3d978faebd1ac4d23d2959063e8860ddbcb3ae253e\
  88b1bebc9e77dabd14823ebd98c2b6bd80ff963ae566463e206818be70e61fbec0d37f3c9ab6813d331c013eaafd2cbe\
  4cf40fbeab01efbdf8b907bdb9661cbe6e79c63d3c96783d7e119f3d7bbb433e84b6c0bd583f0b3daa3c48be5288e33d\
  ec183fbd20ef353c40d2ff3b4cac29be80eb2fbeb3ca15bec06148be63bc123e802438beeec6d63d245ca4bdba33ef3d\
  80b738bc3e87ce3d100613be6c5a6bbdaa473dbeaae93dbe4b2f2b3e92ffdf3deec7d53df8982fbdf8e1f5bd36db2dbe\
  90a4663ce00d6abd3836dfbddc971ebec3420ebed275933d59d323bea0265dbdb0e42abe4038febcbfa0eabd798302be\
  e1a5243e547068bdd858d4bdf0db1a3c4833f03cb3e21c3e3adfbc3d7a6bc23d447cb1bd7d7548beb0d98fbd6917143e\
  d06747be1e51bc3de51fdabde09173bdd3db3bbecde7263e66c306be58cef9bcb902033e80970bbc4c4c673d5d264abe\
  aceb76bd4051683b9a032cbee9b00bbe6009e53c65e5febdc816db3cfe6980bdea6e29bed2bea93d51aa463e6b19283e\
  200e7d3cee14a93d52d2fd3dc3ef073e00a401ba7218883d65e1c9bdb90215beaa5f8dbd1e31c13db07a223d6c352ebd\
  14ac623d20456a3c36ff37be6c023fbd2199173e98eb143d9ec7d1bd10bf2abc1e38c73d2b93c9bdb9770cbeb3274cbe\
  2c6f67bd00a2143af01602be81800d3e54d6533d207a49bd8d0a033ea8b6f9bc395411be6a0d34be8677c03d248192bd\
  f026e4bc26a3c13d503b693c16c51ebeae43f73dbdf729be1285f23dc6b5b73d3ab0af3db268f03d59650c3e7c627e3d\
  a5c3d6bddb57223eb8548cbd3c6f3f3d0071a43b407828bb09160dbe00c2eaba1855033df863a53c387809bdedb6243e\
  2c0c30bdabf8efbd7e7bdb3d94be773d5de2373ea0c8fe3b54fc1abd2dcc2fbed7fd9abd9ac540beb778273e108703be\
  089fa8bc00aa33bbe124073e6c7f11be00a518bed879153d3c9154bd9db8053e5e1cbbbd17f5103e065d3bbe785af3bd\
  13ff0fbe88391a3d8023c33b2cf933bd48b7ce3c106208bec061ebbc8aab8fbd0ab837bec433c3bd58ccccbd0035ff3b\
  d2a1cc3dcb73a1bd7c79603dd721073e8092d0bbf053afbcb8db1bbd2046533c711d3e3ebf26f2bdcbe4acbd3c581b3d\
  3d0b4b3e5a3bbc3d30992f3d0b11263ef0607d3cf6902dbe9e39da3dd2de813d5255c43d94db7a3d3a0ba63d51cd383e\
  b257b83dca6c903d7a27933db0d2e53c8eefea3de013823b603b38be9b8e313e74817c3d17c7a9bd1ad5a63d837417be\
  e0cdde3c049888bd3a3bc13dd9bc113e8dcb2a3ea00f1abe1846f0bd48315bbd7aff843dc7db3d3eec8528bd101334be\
  943c3fbdc88c27bd8a48823d8ba5a3bd66a0a43de0f044be93e822befae32abe6e89c33dfecebf3d00fa1dbecb6e313e\
  fce5173de17f083e80bc553be7c1203e6d4d173e786e1cbda8d4f9bc0545e4bd71ed1d3ecb5fd8bd3a04a83d736413be\
  2225e43dcdaa2a3edd0d1a3e0634c23d80580cbe3194393e63ec1dbe7ce6143d25cff3bd041ec0bd8c3117be83e322be\
  7c951f3da8a6f9bcc018153c64f9a5bd66b2ef3db005ed3c60f4b83cee63f23dfc221bbe722ca63dade8063ea5a9483e\
  f8b6b33cdbf92b3eb24db73d88409dbc26a48e3d9ef5a8bdc0745d3cde02d83dc53ff2bdc3b12ebebc7f183d2808963c\
  e00f29be27b32f3e076b303e64b3023d3743adbdee63b33d0bc7e2bd4ccb05be20fa5dbd2557e4bdea2e8e3d504a18bc\
  71a0c0bd0822c1bcbded3abe80f343bec8eed63ccd76443e03c030be5a6446be50df96bd1e578a3dbcd05dbdbc536e3d\
  9ce510be303e2dbe4559cebd90f893bd2008393c4b3f263e7cf909beee50c33d7e4ad63d52c4ac3d0ab437bed25daa3d\
  cd98133e1a06b93d5eed8b3ddee4ad3dc001f4bb363403be72fff13d8abb44be6ac145be9d1433be273c0c3e324c8d3d\
  c0f1c5bb17f7303e264bbe3d3cbc163d3b99393e601c31bdc037acbc10576cbca6bc07be48c4883c919a493e20f4bdbb\
  da1fbe3d3102c7bdaef69a3dcc5014bea327163e4b42173e92a2b53d54d717bdccd215bee04f11bdae1ff33de0867ebd\
  405e0fbc00d506bb4a8f39be1dcf0b3ed4fa4abd00c1b6bbc54a453e3214fe3d05baefbdacca17bd3c5d1f3da0f433bd\
  1a83f13dab743b3e4004a43be138083e86e7883daef2ff3d225003bebd233e3e446785bd64d8193d415d0e3e20fc353c\
  daacef3daadc863dbcda6dbda03d74bdbc201fbeab73383e7e1e983d06dba23d87b0393e371f0b3eb34510be64ba9dbd\
  b6a13cbeac02febd87703f3ed855eebd06ee2cbe7e81bebd788eb8bd57b64c3e835048bea2e9fd3d3c6710be788b24bd\
  008adabaf8460fbd908612bee6c59e3dabd1253e60c848bed839bcbcc34116bef844b9bdab1aeabd59a11fbe5737373e\
  11de9ebd1017e9bc28bbfdbc26a32fbeebded8bd54dc3dbdfe1d8c3dd8c94a3d387507bd945324bdc6a4fb3de559d3bd\
  0659973d9add30be8001f13bd156bfbd87bd133e3759343e86ba883daba2efbd570c353e01af353ea0ac28bdb0c86bbc\
  482ab33ccca505be7ca6583da92b073e88f4cabcde20c0bdd85596bd80635abb803dcf3b507b23bc5e5b92bd24d9213d\
  c85f9b3c40aee13b701a2e3dd81e86bd14417abd3e71c33d40074bbefd89013e5888e7bd86f7e93dc67a1cbeb088103d\
  6621893da4984f3d403cb0bca9411fbef11ebebdb138b9bd5a91cc3d2cc320bd783f983ccd4d1b3e88e193bcd769183e\
  25cefabd9ea09abd35384c3ed1001f3e4a682abe28f3d63cfdd3093e80b7d83beedbf33df43f7d3dc043b3bb7c3d41bd\
  42e8fa3db21207be606f58bd4814e83cf8dac33cf0dd11beedd2313ec090323cc092283c871a313ebae7b63d18c8c0bd\
  00396dbb7dd0383e6a22943d2a2e91bd84eba8bd6cd00fbd8727223e1930003e7406543d94db583d00aea33a2b342b3e\
  5a32993d2a3629be1ee78a3d571c433eb00a26bcc099b0bcb871b3bd49c9103e6e94c73dd8bbf8bc008427b9a0f84fbd\
  307b0d3dc0cd36be32eae2bddd24493e92c9d23df33b26be41ce0c3efc1b093d89971dbe5d0a4c3ee0b6a03c1a3cc63d\
  e02f2abd4d58273e39c80abe85c4433ecc3912be7df02d3e915b1d3e8563eebd1d8249be9177b3bd48bcfc3c8855383d\
  b34c0b3e10e878bc33a726be3af8863df704033e2487a7bd230d383e669a9e3d6dad023e5e8dc93d0c9f7b3d909b47be\
  0677ad3df807ad3c2cd11abda140173efc2e65bdee5cf13d80777cbbe478253df9201ebefaf1d63d1aacbf3d668b833d\
  2d70483e9088173c702e3dbe03c40f3e06b6dc3d978c413e460041bea465a6bdebe7383e72e50bbe7e9fa0bd4066c4bc\
  0092bdbac8508f3cc11f453e43db1fbee62112befb7e1a3ee02d65bdc60b26bee483bcbd501e84bdfa953abea04f36be\
  785515bd94555c3d0845b6bcaa7190bdc06b403c10ade3bc7425673d026be83d14b77cbdaa7197bdd85488bc4a6d8f3d\
  1ea8dcbd14434f3dba31983df43c5f3d4082a2bcc67c8d3d3e5cdb3d8b053a3ee0e5e63c5ef4863d7ca86b3dc403bcbd\
  66d2823d0096ca3a91dd103e2d79393ed2e2c03df230c13d0bdcb2bd8008103ca86385bc8ea9ed3d18631a3d586bd0bd\
  467706bea1a0263e9905073e4e65cc3d317eb9bdbe9bcdbde4392b3d08856bbd94e166bd024a06be77a6a8bd3c621cbe\
  2e2dee3d489107bda6dc21be8ab684bd23014bbed7d7043e28cb93bcacd447bd307d80bde139323eedcf1d3e0638e13d\
  06d8a93dda55963dc0aa6cbbb3920ebee4d3603d887000bd30a43b3d44b581bdea7341be0ce6febd3eefa2bd6d4d1d3e\
  f8cde63cec1746bd29f70ebe253f3e3e20be88bb46e316be0b56cfbd90d56d3cd8b82b3d3784293e8bc6273ee45c9fbd\
  8566443ebe0d88bdecee6abd0eeeee3dfaa7b33d2de7483eda699f3dd6c818be59a0043e2e3cf03dc32c113ecbbbd8bd\
  d2cd9c3da625f23d11971c3edef1a23dd8bda0bccb1fadbd3ea9b7bdf6c128be4e49963deb474b3ed7101d3e066ac63d\
  e7661b3e9026473ca6038e3d5e03913d93564bbed6162cbe8db731be9f8dfbbd5d0f303e10f546bc300a49bedf85efbd\
  9813073d88f769bd57950a3edef7d43dc871a93cf48c723d1061e3bcf286bf3d1858f6bd7ec8d13d87483e3ec31925be\
  2032203c90705e3cc838143d27812b3ee3e035bee0bb44bd7b45233e88b44ebd52c3963dd0488cbdc70f443ecc37613d\
  39951bbe51169bbdaced10be1a37bb3d03e826be2cb12abd15e43a3e3ae744be37e70f3e80c8fdbbee94c43d5a31863d\
  b06245bc6290f63d1267a33d601909bdd3532cbe83063a3e08b38dbc522cb03d462bd03d20943c3c65a2f6bd284ec7bc\
  357d4a3ef8db1fbdfac6813db34b033ee511cfbd1bb9473e9046183c73650b3e3bb7383ee32f083e9043953c6beff4bd\
  06f422bedf36f1bd408511be7f27fdbd61421b3e3adbb73de0bd35bd063132be10e717bc9234863dd78fabbdb213e1bd\
  8703373eb1141c3e086481bca0824abe8b34cabdbe88b2bde4ea453d1a33eb3dbc2d293d0c5d513d966e03be0160213e\
  525ee53d86a8f23dfdb03bbe530f0d3ec0b722be61b91c3ed4ed5f3d81923e3e91249ebd00b540bbfeff86bd80e6eabb\
  2e12c13df2abed3db7e1173e5865283de0f0893cba3cd13d46f515be90d819be78b8fa3c3a67be3d473c353ec0a3703c\
  bcee1c3d10af00bc703493bd4803e93cbadfe03d4b65a6bd4052fc3b1818fbbd888007bd9d0033beba0839becb03153e\
  d68823be2a8846be75913a3e2c2d72bdec780abd393f11bed30d313e7e2299bd2279e23de091b43b6451323d768d3abe\
  9025f53cd80bcbbd107655bcd8f4e8bdcdbc2c3e06eeda3df09b8ebd00db323b5d0e3ebea00f66bdea6692bde0ce39bc\
  080a1d3da2e601bee6c9d73dbc9f51bdc03a3fbbdadca93d1868d1bde4ef0a3dc34210be9ecfc33decb01ebd58feb9bc\
  4b161d3e1012de3cd8d4363d187fedbd4635f83d2c3643bdbbd72d3e608c00be007de53b9235e7bdd29de63d088932bd\
  089c6ebd3115123e81ab0f3e7179ccbd2e79f33dba3743bef8cee13c00c77a3b91549abd809e56bc10ea92bd2b21bcbd\
  937d213e5a0fd73dc0c3733ceb5ecbbdc4f6b0bd1ac848be6ae2873da653ee3ddd3a4c3e06b70cbe9a66be3d107ce5bc\
  0277e23dae5b963da8b4dabc70f21b3d7189a9bd469dc03df22909be508064bc4aec27bef3901d3e480a2a3d26ecfc3d\
  05264a3e5884c7bd1889193d60b32ebe59cb0abece8c9c3d2dcb453ecbcda9bd8e9ade3d20835e3cf62e13be285598bc\
  e53af3bd947b7cbd5d61383e49b80bbe77fba6bdccc7513dc2f00bbe808a32bc78ff09bdce6ffe3dfee8c63dd46b4cbd\
  30181c3d8b3e2c3e1296b93d6ecf9b3d8a77853d16d137be2b5cf1bdd871b7bc0039aebb48a6da3c60aacd3cc07b39be\
  b0ff12be03df053e1d110d3eecc240bdfaa129be6c8736bd43f113be7dab203e702f8fbd6dd033be948942bd5ac5da3d\
  2c2b51bd58f31c3d40bcfdbc50cb533c000bb0bb7bd71e3e7ac2a23d53743fbededb9fbd7719273efe33cf3d1eb6e0bd\
  fd4e4bbe7ab78e3d6af28dbda856babc76e702beb2e8fa3d37a94a3ef01d283d16cb3bbe921de13d2cc31bbe460b41be\
  7421703dca81823db008243d647abcbd6a5644beedd20d3e9a5f973d6eebdd3df047663cb09a20bc5af3f33d06b921be\
  2727263eca73833d4391373e890a043e387407bdb79e4abe94bd7bbd238936bee0d38b3ba8a3923c9cb104be864233be\
  f81cd63c863622be3cec1bbe42e4f93d5b512e3e129fc33de0b56cbcc5b63d3ebce76dbdec552cbd7c5211be20d466bd\
  1389193eb9e713be969d26be47644cbe2078c9bbba8c2fbe78efc1bd64ef783d6db04c3e2bfb2b3ec8311a3d213e3b3e\
  92d1c63d23ca173eea862bbe00a474ba209d003cdd6130beebf6c7bd5da31b3e595e0d3eaea2ef3d04ee91bda497113d\
  850c4c3e941309bdc8c225bd5294873d37570a3e54f1703d32c8c23dc36212beaa1191bd48794dbda4d57d3d3c5264bd\
  d3e726bea06d13beb05b06be140b38bd03e041be508035be97d8443e40b6be3b699403be94453cbdc63826be29a1133e\
  37484cbec0caf4bc0b0b3a3e103264bc08ca61bd6abd3cbe50d328bec037d6bc71d69fbdf0c07f3cedeb2fbe3278fe3d\
  35583c3e142229bdd32715be520b943dbc2a18be46dc0dbef1fd3f3e906c19be52d08f3d76be2abef233a33d7c5f173d\
  3174d2bd0ed4f73dc86801bdf80bc43ca8a49cbc60f2943c9888c3bdff9afbbdd04549beb0092a3ddb403f3e50d328be\
  b09e93bd23f22b3e0c371bbec53ee5bd7c3b783d6d7c073ee04bc33bdf49ebbd80dfbf3b2c370bbe38d134bd6ba59ebd\
  fc161c3d3a3147bee639dd3d9b011f3ebb14153e0888c6bca572cabd7acfb23d33430fbee545edbddd364b3e803935be\
  eea9d83dec503fbd2c2924bdf57a413e905a84bdb215873d661801be2c0e16be56541abebb21163eeb82bcbd3cd978bd\
  6b26c2bd08596cbd23551bbe99eb0f3e4bc13f3e096d033ea4335f3d8892cfbc78a82dbd3044e63c609984bb33291bbe\
  4e2ae23de48699bdbe9dd3bd420b07be5a64ad3d1e2b8e3dea13923d9b27303e408f49be2aef813d5234f3bd78cc38bd\
  20fe403c3c29093d39ec1abe1a079d3dd1ac193e40c183bc331820bec3f913beac6c38bd102540bedd89313ea8b4843c\
  c88f00bd10e223bc81fd423ecd9d183ea63d9d3d2b2bb7bd7ef19abd7db72bbe72b5f43d8846babc8bce273e726adfbd\
  2d850f3e0520e9bd3083423d71cd233e58f7bcbd4c8318bed272fdbd488ad73c0043433bdb10473e2535483e3e5ac73d\
  18733a3deb444c3e16333abe92a6813d2a9193bd66ed8f3d193208be5df90e3eea63813d1eaee0bdd9880c3efeeeaebd\
  6c6f02beb1ce0b3ead06213e9d7d053e709fe7bc0db82d3e1a4af33d0ba5cbbdfd7b2dbe589fefbd20c10fbe46c0fa3d\
  6c2750bd84d384bd36a931be0ac23dbe73dd26bed8964a3d90aef8bc6b77b2bdb01b5ebc5899c0bd8891a4bc87be053e\
  b1f0aebd4d9d123e71bd133e91f52e3e8821b7bcc0823ebe90aa323c521aa83d1081ae3c48fc6ebd188f213dd4ab6f3d\
  fa33b73da2a1f33d809718be320ddd3de073823bf87208bdb787033ef1c6c8bd08581a3dde9581bdf61a03bebddc49be\
  0c05663db02d28bca871ab3c7c6719be40892e3b7ecfa5bd6549d3bdc3c11a3ef8f8b8bd925ba93dc00f403b786728bd\
  035d4bbe7d7249be2ce925bd9a289b3d2e24b93dbcb412be484c123db15ab8bda8b6d13c10c093bd10ff9b3cf8a1c23c\
  bc97753d1a17fb3db0d4463dfe67debd09c40d3e931b17be0ab24bbeae6ca93d3accdc3dbeda8ebd10ff82bde4d0c1bd\
  dd7d263ecd3345beb4435e3dbce91d3dc8372b3d64214b3d72deddbd3217e43d8cedfebde06677bccd2833be3e2681bd\
  143e23bd1059df3c28d4bfbc143c72bda263e83d00c0feb85a67883d0090abb9d4d02fbde09901be604b0dbd7c644ebd\
  20f9063cc674933d3322183e77af1d3e9051a73c50ac5fbc3c0715be6624903d4e0da53da545d9bd0bd1363e46eec23d\
  6418bcbda790203e8c1d503ddda331be64824a3d604d22be38948abdd36935be7a24ed3df7d5023ef6e243bec004353c\
  5fddf4bd30faed3c3e47d1bd4055d8bc7ce16a3d40ddd3bc0829133d863000bead92203e2c1b18bdc93d133e5d9743be\
  a7c6003e807e1ebc60c02abe51bdbebd045ea5bd94f234bdaba5b6bdecac42bd5850c3bc2c3819beb06d25be20d82c3c\
  9863403d46a9e33d2b32a5bdb19caabdf063fcbc4cdd6c3d994805be7f26efbda37f1ebe201d653c70ffb4bcf0bc2ebe\
  0dfc353ed0e01fbe8ebc9b3d537547bee0f50bbcc0eb08be7cdc7d3de60e37be90627b3c5b564a3ed00021bee0ed1bbe\
  6e6bb03d3f07ebbd18784c3d8a9a8f3d008881b848ddc63cdc7311be5b3d1f3e7822d7bd23a50a3e275f343ed3f61e3e\
  7897db3cfcf4403d270f263eaa888bbd14e836bd14dd75bd643da1bdf8058cbd13cc16be08b80f3d0d35333ec810853c\
  780af73ce00fe53bf8d09d3c26d335be092a0c3e1a1eb03d869f20be486a103dd8791d3d1b3a293e43780d3ea803a3bc\
  fe87cfbd5ebeb03d18b48abd193001bec9a90fbe601bf53cdaee47be00f126be7e18d33df3d621be402281bce49d263d\
  0676f93d5211dfbd0109233ef86caa3c2858a33cb28ae4bd4cfd643dc09ba9bce619aa3d18e8223d901b97bd900319be\
  202b68bdb5c33a3ebedcc9bd77d8463e9dd736befe1ed7bd488224bdb053e73c0d08363e49c10ebe731231be09ee21be\
  d293c73d604466bd568e13beea178d3d36d21abec298f33deadf44be277e3e3e0bccebbd363228be293d1cbec0c022be\
  4075c6bcc66844be93f2233eabd8a5bdd8d2123d6c5456bd591a03bee61bb63d10b6c03c691d0b3e2bc0193ef64735be\
  8e3adf3dc7ac403e6c2c05be9ddd44bebbb02b3e48bd38bd14eb4e3d5bb03d3e4b462f3e73782dbefefaaebd5e34c1bd\
  00f7f2ba18bee3bd6e27d93de43f7a3d70ec95bd30431b3d08dc363dfd754c3eed46333ee319343e2926003e99380ebe\
  482c5dbd7c5f7ebddea0e4bdc607883d850fc8bd11a0153e2c7326beb62d33bee090d53c51230c3eba69b83d919f4b3e\
  03791a3ef0d320bed8d52f3dbed085bd4db443beb151493e32b200bef867923c3fb0edbd4a6b833d6515cdbdb7b24c3e\
  c0c5e3bb2a5934be94b64f3db288a23d50975dbc280682bc2c1d68bd65e1c5bdbc8b6ebd78fbc53cebd1c3bd972e243e\
  1a07993dc9080fbe72f6fa3d2436a8bda4400d3d0dd70b3e55cc4b3ea0b42fbe30410abe0d813d3e415c333e0406a3bd\
  a71e153e051acbbdbc8650bd147551bd669fbf3d00fa5e3b285b833c23b13fbe78d2d4bd0a708c3d11be023e6c3165bd\
  dd481b3eada648bed2b0ad3d394a19bed60332be63aa2cbe6659a93dbaa135bec61036beb0201dbc001727bea4ba1c3d\
  2c1769bd6a273bbe8add25bef0fea2bcfc6e603da831dbbce062ff3c0815b8bcc8d6b13c88af263dbbcd2f3ee02f24bd\
  d42d1bbd8c425d3da676db3d101ed33c0d40473e0de4153e70fb8dbcdf61f5bdd93805be00101bbe642c0b3d5230953d\
  5b62243ee636e93d90c7eabc244e94bd95814a3ed756283ec69200be767781bd9e7c85bd7e6ad43d1b9d263e36cd41be\
  c6cdf83dfc2e1dbe0b1da4bd5e64b43dadd9023e8c3e00beea1f873df8eca63c3a2fca3d3285e5bd00848339f8fe0bbd\
  caf349bed5863e3e07fb173ec6d4fd3d12e4dbbd90ec593c7e4caebd67a6233ebca826be438d27bec66cbb3d2106153e\
  997d043e267f42beb20df3bd1b07273ed2aaf63d657ddebdbf28febd38b10ebd7249ebbdfad5c13dde0288bd8665903d\
  f2ca933d365c02be9b12353e0ecfd33de7122a3e90f5da3c65e6fdbd2e489a3daa0e853d9d4d2a3e14ac513d93ef103e\
  a892b4bc2d3c1c3e70dd8ebcf46f6b3d59e91abee0f3e63b40924abe1ca618bec798243ed3814abe2bd1e5bd4092ef3b\
  3cb70fbe70509dbc092e14be2d2e173e1b2c243e26f1b43dc600e03d72f3e3bd376a163e8497c0bd05f3413e10b3f7bc\
  4eb0fc3d17ad3b3ee3472ebe28ffab3ccd53253ec561473e4141093e303924be78d7bbbd431e053efc03603dc64f0cbe\
  88ae17bd523305bedf22f3bd98ee1f3d8ddb383ed2b7b33de6b7883dd813b3bd40f08f3bc88fd83c484220bdd293873d\
  64546f3d004e3abb114eb9bd06000000180000000000000002000000000000000a000000000000002e15e53dfa93793e"

/-- tests/data/fasttext.bin -/
def fasttextBin : Bytes := hex "\
  ba164f2f0c000000320000000500000005000000e8030000050000000100000002000000020000006400000003000000\
  06000000640000002d431cebe2361a3f9d0000009d00000000000000eb9d1e0000000000ffffffffffffffff3c2f733e\
  00a086010000000000002c009a5f010000000000002e00365001000000000000756e640049b100000000000000646965\
  00269400000000000000646572005b9300000000000000696e00075a0000000000000022009f48000000000000006d69\
  7400a53d000000000000007a7500a63c0000000000000064656e00353c00000000000000697374009f3b000000000000\
  00766f6e00e2380000000000000064617300f0360000000000000066c3bc7200c0320000000000000061756600c02f00\
  0000000000003a00652c000000000000006e696368740004290000000000000065696e00522800000000000000736963\
  68006b2700000000000000696d0044270000000000000029004b260000000000000028000e2600000000000000617563\
  68000526000000000000002d0080240000000000000065696e65003d2400000000000000657300fd2300000000000000\
  64656d00ac21000000000000004469650011210000000000000053696500b12000000000000000646573004a20000000\
  0000000069636800ce1f00000000000000616e007c1b000000000000006f64657200421b000000000000007765726465\
  6e00b4180000000000000073696e6400ac1800000000000000616c7300e8170000000000000062656900771700000000\
  00000061757300f416000000000000006461737300891400000000000000776972640089130000000000000073696500\
  5f1300000000000000776965000d130000000000000065696e656e00f0120000000000000068617400aa120000000000\
  00006e61636800581100000000000000446173003611000000000000006e6f636800141100000000000000736f00f910\
  00000000000000756d00bf10000000000000006d616e00af100000000000000065696e657200a8100000000000000021\
  008f100000000000000065696e656d003e10000000000000006b616e6e001d10000000000000002e2e2e001210000000\
  000000006162657200ff0f0000000000000077697200d60f000000000000006e757200c40f0000000000000044657200\
  bc0f000000000000007a756d00960f00000000000000c3bc626572004d0f000000000000003f00300f00000000000000\
  616d00720e00000000000000686162656e00710e00000000000000657200eb0c000000000000006bc3b66e6e656e007c\
  0c00000000000000776172007a0c000000000000002f00060c000000000000006d65687200050c000000000000007a75\
  7200e90b000000000000006475726368006a0b00000000000000766f72003b0b0000000000000049636800070b000000\
  0000000064616e6e00cb0a0000000000000062697300750a0000000000000077656e6e00640a00000000000000736568\
  72007d0900000000000000756e73005c09000000000000007775726465005109000000000000007365696e0050090000\
  00000000007363686f6e0012090000000000000077617300c30800000000000000696d6d657200be0800000000000000\
  496e00bc08000000000000004573009e080000000000000068616265004f08000000000000006d697200430800000000\
  000000776965646572003a080000000000000067696274003408000000000000006469657365002b0800000000000000\
  68696572002b0800000000000000766f6d008307000000000000006d696368007907000000000000006461005f070000\
  0000000000616c6c65004607000000000000006f686e65001307000000000000003b00f70600000000000000756e7465\
  7200ef0600000000000000647500ed060000000000000057697200be0600000000000000646965736572007c06000000\
  000000006d616c0050060000000000000069687200f1050000000000000067757400ea0500000000000000556e6400e6\
  05000000000000006b65696e6500dc05000000000000004d697400cf050000000000000065696e657300cc0500000000\
  0000003200c405000000000000006f6e6c696e6500c00500000000000000496d00bb05000000000000003100b5050000\
  000000000045696e008405000000000000006d757373007b05000000000000006265696d007505000000000000006669\
  6e64656e006d0500000000000000736f776965005e050000000000000067616e7a0050050000000000000065696e6661\
  6368004705000000000000006968726500260500000000000000616e646572656e002405000000000000006469657365\
  6d001f05000000000000006574776173000905000000000000005a65697400ec040000000000000057656e6e00ea0400\
  0000000000006a6100e40400000000000000686174746500e20400000000000000616200e10400000000000000766965\
  6c00ae04000000000000007365696e6500ad04000000000000006a65747a7400a4040000000000000067656874009d04\
  00000000000000646f63680096040000000000000064616d697400880400000000000000426569008504000000000000\
  0046c3bc72007a04000000000000004a616872007604000000000000006f66006d04000000000000007a776569006304\
  00000000000000676567656e005a04000000000000006d616368656e0050040000000000000027004b04000000000000\
  007669656c65003b04000000000000003300380400000000000000737069656c656e003204000000000000004d656e73\
  6368656e003104000000000000006e6575650015040000000000000073656c627374001404000000000000004a616872\
  656e0012040000000000000049687265001204000000000000002500020400000000000000616c6c657300fd03000000\
  000000004175636800f7030000000000000064656e6e00f60300000000000000646162656900f3030000000000000044\
  7500f1030000000000000000010100000000000032000000000000008cb8533efe1fb63d56428dbec1a1043d6328f5bd\
  3475f93debb890bd77e58c3e8b6c733d805f603e0c70cabd01f69bbe3347463da92048bd33b13fbeb7ec37be40b865be\
  7f2a56bd167f4c3ee0e06fbeeafcbf3c2dab12bc1699813e384189be1245603ec40086be4e4453bef9d682bdf28470bd\
  e983743efbf599be86e2e4bdffa4f93e809b463e2b3191be88bc783dc7463bbea319b0bd86ea91bef119b8bc7d4903be\
  7ae8a43c014df13e014dd7bce64799be3d8dabbd9284193caba2dd3c4dd30abef0fb6c3ee59cfebea4af11bf4c3b163f\
  25990a3f39e5cabd70fd17be2b9e023f0e3938be24f8ab3ef27401bdd0f3633f09ef9bbe8bdad83d03f0083f4655b03e\
  6035d8beb8c1893d6b9609bee860953df8feb23eff4de9bdc1ea073f1caa9a3c0a17d73d398ea1bdf8ce98becab301bf\
  78d50fbd542f99be67e4ca3ec92bf7be8fa8c23c755a683dd692a0bdf08259bf3fac9bbe442f84be823d0c3fc441983e\
  10fd453eaa475f3f05f521bf3df77bbe415833bf7df5a73d7ece80be3c12efbd69aaa23d7dc083bd1165e5be027c393e\
  955e53bf56d5073fcc7a563f11ffa0bf61baabbec403f2bed1f48f3d6a857bbea50bf83db1466f3fdc7e69bef337f93e\
  e02051be4851053e48cb83be603e16bf26719b3e8594a0be18aac73defabffbe4b71cbbe498233bfd6fac0beb3f50cbf\
  229a7e3ee5926b3f1e1a363ec118f23e5780343ffdd8363e7d6d05bf2d0d12bf95059d3e767bc2beeed5b4bebb6347bf\
  4ce0c83e69a8363f0899593f1efb71bd4d29163e05e49ebe3201f93c11869dbe0bcac5be419263be68fb033f2cfa36bd\
  4e6190bf949baa3da63616bf63ffe43e84d45abf41aaf73e6b8d3c3f1928b2bdc104313f86b6243f4943b6bd5163f13e\
  27d6933e3450763f1e66fa3cbf9ee5bea2cda73d43c7c23d41b7143e3c93593fadeebe3c87d1ad3f2f46583f40065d3e\
  bfb131bf09a23ebe7bef0f3faf8193be7ae454beaad73c3d90bc2abf4fd3613fccd83dbf46e56abe94fa803db77c4fbf\
  b0133dbfb408debe5a7e18be9c7b7f3e4a9c17bf80bbce3e92d55f3ef6ceae3e60fd283f9de34c3e85d5913eb47716bf\
  a61dccbe79fbdfbc22ffc53f7bb340bfd9b104bfc75f3a3f84d3823e585a133f784ef73deac32e3e5ff9b93d66ba863f\
  b05ddcbe4347753c5ddb353fe7c605bf404594be36c471bf61164e3e5d8e633e989e4e3ea07f3ebfb3f9dcbef9e8d13e\
  ab1995bde193b63dce2144bf5a08b0bdf8a13a3fa16b093f0cb520be64afe23d7ca2633e9a4f49bf16e908bffc45b83e\
  6e49f63ee97a33bf2ae9083eada48c3f657f2c3fe48d853ee9c6ac3e616c183f912fbf3e611d263e3bc614bf0df56e3f\
  c0971fbfbac0833f303421bfb80f96bfca238b3e886ce73d7151183faa01f83e101b3dbf7d46223e54faacbe7be9f53d\
  450907bfb1d1efbe421e163f387c64bff9b120bf9c140c3f08c05e3f7adc55bf0502c93e997b933f12af16be38e763bf\
  fa8e003fa072a13cd7f5513fba6409bfeb165c3b3bc172bded8f49bf78fc41be2703b73ede3779bf438f57bfa489023c\
  c77af33e8c81233e5075e3be7504e63f5e779fbe5d8024bf7f623d3ebc4949bfe8583a3cc8a489bda604d63e9ecf9dbe\
  db768abdddded83e9bb0b2be136224bfafa3cf3fa0f5bd3f3546cdbe9d4d74bf75161b3f4496113dc2e3523d0a4ca2bd\
  a16ce33e6d39f2bee02216bf6a1a72bdb7c3573ef187bbbe5b8855bf0124463eb07a913e3ce2d53ea13346bf3add5dbf\
  95ccdc3e2a52b8bd9d50293eee7ea43e9c20b3bedc9d8e3ecd9d173fdc3d0dbf639c8a3eae2d5bbe3e1488bef89627bf\
  953b823ffba3173f78c519bf8201183e985a223f490763bf7b902d3ffe33813f46d2e43e59ffe3bb43b3d03edb5a8ebe\
  b0bb99befa2754beceee8f3e89003f3f74354c3e31ce073f6ff082bf2eaacdbe2190cdbdcedac6be404b93bfd70d9ebd\
  1ac31b3fb273a83e7b4e873d9cc03a3e29faa0bebbbd0ebf7fe6273dbb6b713f8d9b4cbf851bc13e95495bbfe92b073f\
  f23a17bcbb05f13c4da253be4473943e2a0690be79114bbda609733e7b33423ee56dc4bd08b402bfc3314a3c566268bf\
  f69f193fab717f3e06972fbe792982be6e076e3d4e4f583c9761e5be548c92bedb663abeaadbdbbe159f3d3f3d3456bf\
  358ebcbe425fc13e2512823f3f5b533e29b646bdf25c2f3f8e3d97bf00bde33eb0890f3ecf5a463f245dca3ea9a9423f\
  4d148fbf0ccca93e7ec39d3f95a9993f1886523f2d8fa9beb1d99cbe3b598c3ea1b54ebfe7e5d13ffce427bfe4d5823e\
  08c2c13fb72a483f339599beb781e3be9e9a35bf5bd1ec3deca7b63f753fa43ebf8076bebee754be3f0e233f446b513f\
  ed20333d111c2b3e36715b3e9bfc4fbebb3313bf9720123fda9e6e3e75ab533f78c22abf67669bbed29388be9b8396be\
  aaac43bfc742d0be206c92bba1902dbe303c43bf6fa91a3fa302bb3e1c95a5bdf5e0233e50028dbe279f053fef4d14bf\
  e145f53e33cf3e3fc4eb423c6ace12bf8ee28fbd9862adbe5b5b20bf3e1ec1beb6dbbfbd495a923e0cef40befee4f9bd\
  17622dbeb12acb3f9c17633dbfa5e8bdc45e5c3f6e12d83d626695beb425aa3d2c348f3f1a332ebcfdd713be3cb7f53e\
  8070663d38c7973e2fd74dbec32536bf514bbcbd0be4a8beb38aa93d6327e3bcc0e6bfbfa2a8bf3ef4d328bf894f36bc\
  3ed632bf0c8f1dbed81f1a3d28db5f3fcb24dc3ef58b0dbee593ea3e4686bbbee0ee8f3f90c309bf7f3e573f9deca8bf\
  8b1d68bda7aa94bffa66dcbe044500bf84fad13f271ef8be145f503e370a253e5dbe81bd2dce103f04db8d3fb917a73f\
  6ba50a3f9ade9bbe551c08bf8caa2d3f15e1b6be8a7d91bf3802593e007bd03dda494ebfdcd2a73e830f42bf3bc06f3f\
  a19e863e7c91213f5c629d3ce5e60abea3ba923d7f28e93ebe86413e853c37bee8147f3e657edf3d6dfd0b3e49c0fabd\
  568219bf82404abed8a618bec6b4653e10e9b9be691fa7bf7ceb2f3f1a96413f1fde3c3f1166c7bfe360063f586e8e3f\
  57430bbfc638b1bf7b936b3ebed6593f668c22be034693bf34dfab3e2ce9ebbddf3a0dbfb2f63bbf3fb4273d6d46423d\
  318349be0a3f4ebe59189ebe18571abffca16f3f2995febeeb26e83e69ec133e2cc74b3ef2aba43fb0c03b3e35c981bf\
  a6b91b3f0ad2c2beabf0a43eb77d22bf98c144bd3a1a30bf14b200bf24e931bfd27a65bfd35c01be27549fbe5bc6433e\
  cd719e3fe1b0063f6f483b3f9880d13ffee3e03ed90303bfaa9a0abed930b2bfc9f78c3af211a5bf82c430bf19fdc43e\
  8bdb03bf5ebd573fd7bc47be1925433e93fbb1bd392a963e07ed893fcca3d03f22cb97be833113bf2ba0c63df52a433e\
  9f37ee3e92cb283e8d9b573fc6d6bfbd2a61413ed1d460be4fc0193f0bf0693f646a2a3f6572c73e5903873fedba763f\
  5943e63d7623963dc6e0a43ebe69803fc688583fc4fa91bc59532d3f5d57c3bdbf4cf43e101884bcb08d46beb3e4203f\
  5fe1bbbe561f3d3f860c003c0f1d253e8da918bfe10f793fb561d93d304d15bf15dc743e5dcc3fbf6261d7bee45736be\
  ae7e273e1c1d35be68cf123f884a92bf187e4abef8613dbf74b0193f1429a4be1a44b53e58ba1d3dabf291bd8d60d13e\
  4dac413fd648a2beecb7ca3d7657c73ea8f7853f4a26583fabf1863efc4692bdc8d274bfec5f3e3f4b818abeb62f8c3e\
  1cba093f5de30ebea4034fbe2a0b51be77a8ac3eab16803fe208553f7085913ee1f1f8be7d27203bd80b833de2bf523f\
  b6467dbef6403e3fac1dbc3e9daf29be1fe5933feb6106bf6b0dafbd46ff1a3fe7e5b3bfccdcc4bc71f3ea3eb84d60be\
  78e25c3fc4274dbf89648ebed35b15bf9d3964bfcc66e0bea2fd85bf62b1b5bf26b2553f2c62c6bdd2a0ef3ebbe0e63e\
  85b421bf5d441b3f1b86393f618c533f8e9b5b3e9a478e3dc96f2d3e8fd503bf6d10153e5dbda8bf6ebb07bfce412e3f\
  62663f3f88558abd73f46dbedb44dd3e22656b3c78d0a53e99e7ffbc8e171b3f63dcc3bd4ded5bbe0685dbbd4f93243f\
  8cc7e9bc388ad33e669a8f3f1639b03e0460a0bdf140613e1083fc3d759191befc084dbf15fccbbe31c59ebe0f47553e\
  69d0a1bd2bfba13e2724253f5523f4be9db406be84964c3b7776923fe5c469bfae9e2ebf94a557be852e773e4d8af8be\
  5a9160beea5a9cbe506420bf6257143f66bf2f3e0d3d3b3f5caf883f12cd04be626bad3a31b582bca4ef233eccf2a43e\
  07ca1d3fded437bfc48e1bbffdb8883f8a350cbfdc23e1be0453b1bb3ae73b3fc178863ed2f7943f1b7f55bf11610dbe\
  31efecbe9982d03e6f24a83f0010d9be012407be847e953f4e68233e39f33d3fbfcb5fbead30c23e6db0683ebd087bbf\
  d581d9bc953d923f66efda3d47a00abf38b63dbf068870bfbe028dbfd3ea90be103c153fdc9b24bf53c39fbddbde89be\
  2fb5a43d146a94bfec79c93dc2702b3f86d9783e0a097a3eeb7509bee7c8253f904fa7bc5e0a0fbfa630d53e3a708ebf\
  eb1746bfcb5ebd3e6a0e753f5984893eea44533e6a2feb3eddc038bfc3460d3fc237083f1faab53e153354bf2022853f\
  c2de66be5a61b2bdd018cabec3c2e9be5e54533f042a7bbe390b26bc1d4f183e53db6ebe8cffc4be0ba6223ff4c1033e\
  ee221c3f95ed80bfaad90e3f632b313f745b263fc1e80dbe469f47bf8bcd93bf9369273ff8b01c3e025ae33e79c7243e\
  00a420beb0028d3ff6e9d13edabdafbea352cb3f0aa1cbbeea37014008a9483f517a2cbf9d2362bff03a9e3e810aa2bd\
  dae15cbd252c823e3379eb3f131172bfb44d1d3e1aceffbe8faf50bf394d15bf19c95c3e7eb9163f93df463e9ae21bbf\
  32ffb6be55abc6bd1637da3e8bad8a3eb0907e3ff288c53b852672bea90c42bf18e320bff77604bff6962c3f52cb16bf\
  63db28bd584184bfc853febe02e08a3f89a43dbe535d96be1dad51be191bd4be0096a1bfb4f49f3fe99a6b3f3bb30ebd\
  e08d4ebf667dabbdb5ca9c3f8487c43e39c836bf8898bd3f23799abfc08f35bfccbce2bd00f56abf587e1b3e66c7eebd\
  aaa0ac3e25c4f03e3b95c73ef787c2bd25dec1be1bee7c3fbd47863fb3295dbf5c66f2bf7c861a3fb41314bf99ad06bf\
  5bc8c2beee97ac3ee871673d8635773e92e86c3f3f9ed23d6631bd3e7e861fbf0c64b4bdc8d3dcbf515a11bf8b49f03d\
  82b8883e34998f3e40ec8f3e6dbd2abfc3712a3f94dc92bf2b58c23e3da6663ff9674c3f9e2af1be2dbca4bddc655dbf\
  0b9917bf9127093fd92c9fbe52aa95bee680273fab709d3de722bfbf3b6ac9bec45bdc3e9c13593eceb3273f75cb96bf\
  bbd0c53ec98e013f31182cbf1a472abfe95582bf20e675bee4ffb93e8763923f42271bbf69a0d13ffd32973f19b5373f\
  1234963e7bb77abf3c50a73e7cd2bc3ffe5e803f884e06bfbdd7763fa6b3713f0dc6393f0f938fbe4ed7b2bfb716fcbe\
  0b17e93e3496ae3e734e1b3ef7faf93e08e8debe85da8b3f6e71cebec58d723f64510ebf1e13533f18b50dbfc4d3903f\
  554ccc3fc156ddbe26be17bf50588bbe935f1b3f27674dbf1c802c3df069d8bfc9010e3f1604acbfa9b706bf824e123f\
  f3178d3fedf3e03e3e6e59be101225bffa83d53eb35acebe35cf7a3fefd4e73e4546ab3eb7148abfaf28983fb3080b3f\
  9cfb0fbf4820203c842d7fbda54c8e3f70aa443fb6bbe63f1c1c50bf1a691440d0e5663fa178373f5f56babd6e0b2bbf\
  2271c53ff615c03e3c4a0ebfcd08c1be44c20e3f40c58dbedf67fa3e9331a7bfcf3d023fc73eb7bec93b8c3de0d5c43f\
  b17f18bf4e79163cf83c9ebf1e6fa6be174f42bed4d8dfbdfd6bc8bd739b95bfcd007d3e2ea252bfe91e023f0c8ee23e\
  bd6cc53f11428e3fcf8667bf7c63533f4006693fd4f49c3fd423133f37b594bcdcc9413f8d0c333f017d11be5ed7823f\
  593220bf4287613fba69d43f2e9603be0890cb3e1d7facbd752bcd3da8f5b4be203c893e1913b63f76653c3d024661be\
  b82b023f73b793be4fa49c3fea6b903d199ca33ed7aebabe4f7482bf02e274be471e3a3e1e7c10be6bb8febea8c749bf\
  3d33bdbe3afd853dbca305bfca4019bf356f14bfef6b3fbd759e333c7b3a423f5ba3733f331a8bbe99abcabe4ed1b5bd\
  d4da253f9e72aa3e55fb953f448346be5d00c7be153f023e932d0a3f91d9193edd12333fa8e1a1baba230a3f0cfbe2bd\
  81b2a2bf864e3e3f8a755f3f882a5abf3cf28d3b2df85e3f7c0a7a3fa051fe3ee4df1dbf3fa591bd269330be2ca6403f\
  077d9c3ec6164c3ea0ebb03cd80b19bfd400a83ecc073a3f4c4da13d683bcdbdb1b71c3f4a2871bf2626f4bee251003e\
  efe6d9be1f00ae3db184633e1625b03e62e08d3d72f22abfb3d4523e5ec9c83f9b319bbe2b8b1140857654bf9e3fd53e\
  4e3bd8be7cc0673ec69a643fbe9417bfd9b8183f621587bc6aeb2ebfdd1c82bfe235103f2c8825bf1155ccbef833c23e\
  5fefa4bfc07f08bfc80865bf6488b23ee49d713f129af8be7c2da8beecc6f5bd7cf3fc3eefe9b73f908f18be773134bf\
  fc1e2ebd69785cbfb6e6863ff59cb3bdfb34cb3e196c8fbe8ad837bf336323bf2d0824beca20e5be7cd4333c9496a5bf\
  abd400bf0d59b73e3a607ebfd99cfcbd0974ce3e2478bbbe440b123f982f87bf652d2abf247fdc3e8c23ad3ee82b4ebf\
  a444f5bea2f3b7bf110b0c3f76fd97bd37c109bfaf49273fe74916bfb9257c3ec90aa43d4325a2bec914213e474ddc3e\
  b6a5adbdbcd1833e51a6e7be6972813d608cd9bf88f4f03eaa7f763f27b2ad3fae5c9f3f4ef4e43e6bf25abef4bbeebd\
  a278a23f759a583f5e26043dc84f2a3f3953173f7def23bdd9722bbf9d63a0bd19bb89be626c7e3e0b3d1a3ca1f7583f\
  9ce1e2be3ef32c3d0f799bbda881693f1982803f0b09dbbd71df153c81b5a9beca04873dda313fbf3cb82fbfd9c376be\
  1d4431bc7722b9bea9b7a83e9e824bbf66083e3e13d7853fbe0d90bd74e024bf2436873ed25240bd8dfa8fbe0dad973f\
  c5492bbedd3aa2be5951063fa637b53d11cff3bed31a58be6c3392be650c17bf4f9376bfa9cc103fae1789bd44b01ebf\
  8df99abf14cc2abe1fc914bea8dd7abf595d35becc77a1befd009abf8d245cbfedf2d0bfd0fa7b3ff77ab33e78352b3f\
  c816383eb4e38cbfa221113f5afdefbee6b6d43ef351d6bdd961ac3d693504bf6b3c90be58a7af3ed1dad83e63b2f33c\
  4079cc3edb680d3f345fc13e726acbbef9dfbabe096e543f72638bbf6de12a3f04658cbe0151adbd2a1914bf410380bf\
  4bc295bc2ab10cbf70397dbf4fa8f33ebe278b3ea7a6d93e7143b4be3c55de3ed05d763e6e525a3eb86b9bbe8da95abf\
  a5ee71bbcdbe713f6ccfb1beec535dbeaedec0be295c51bffeb904bf475b59bed8e7943e4e20d5bdc7342b3f09c008bf\
  8f10c93d8c1168bff11ae1be9936cc3e6471423c6a97cdbeaad099bf671922bf217c533e1a1fd8bfa97200bec794e8bf\
  61854cbedb56adbeb84d91bfb4b292be81c5fc3e5beb093ea6c98bbdef7c22bf2f70af3feda0373eef1846bf1927163f\
  4f58c23da8b421bf64ba62bf43c521bf1d019a3e5c86b7bf3c35953e80a61bbf8a949cbff641a3bf92288dbe7261243f\
  714599bf18ce30bf10c4cebedfce8e3f7b00cbbf1fa7b8bf68be9abd8de1013ec7c5c43e2272a6bfcb01b03d039b023c\
  e3cae53d60ada4bd3e5fe1be673278bf4cff3e3fe99528be6b4f2f3e2ec8213f967bbb3eb1d3a3bd4269a13fabb391be\
  3b50c33ef2c818bc160343be555b133f60b832be0d6e49bfbb6485bd5caaf43e397219bf6d496d3e7b45f23eba08c73f\
  95f81ebfc62b4fbeeb2d10bd1e043e3cbfa3243f56374b3f58c97ebed9240dbea26bee3e7ad3693d49912e3f6931c13f\
  a3cdb13f79dc0dbec4d063bcb63ba83f745987be9697ccbe7236db3e085cd93f57ef9ebd7c271c3fba9eaabf2f201040\
  430b773f09e2543f6d6fd23e972db4bfa83ae43ec1c10f3f6a786ebfe9dfadbe04fbe2bdd1d4543edff5c83f286974bf\
  46125f3fc6f9783f26f063bd085bd3bd88e68ebe47c99c3c79079bbf94a92d3fa4d68e3e8c1695bfa49523bf5baa92be\
  18eff8be71ae62bff682b7be29ea9e3fc981c83fc51787bed5da02bf7280bcbe5b1791bd3871543f902c52bd1e5488bf\
  ba6593bf6bfafb3c867385bf286fe03f785829bf1b3e97bed71015404331bb3f829033bfc0da05c060bfd83e486c23bf\
  9d55383fe0e887bfa84097bf6274afbf4547f6becc603b3e9dc8543f194c1d3f6ef3efbe0c79a8be8606c7bd0cb7b43e\
  a14b4bbf79bab83e91d2ee3f315f5cbfebe3e4be6e361cbe4126a6bc2c8bb73f6383fb3ebce3b03ee5aab0bfa858b13f\
  d7e8523fba91043f0925e23ec554543f7ae1cebeaa8911c078856bbe689710404627593fb1cd19bdb32fde3e0bba703f\
  7ce1653c2635c13dcb61f23faea9543f117c513f9fc6e53dc3bb8e3f44dadc3f0a98113ef86908bf1af4653fc485b43f\
  731ed9be50c3d43e4270913ffba0e93fda62993e242a2d3f1d32d13e4ba4d7bdff12b7bc320c233f349346beca86253f\
  b32789bf4a1b7d3ff0fa2bbfc02b653ec49801c0f5a6af3f8ef35abf699dd33e4ca95b3f8435bfbfe935653f43dc67be\
  2b8d3bbf8095b4be8a1cc63e770414c05d86ffbdda7006c0a0dea63f1dba0f3f911016bd643344bfbcb5ff3f3f4aa73e\
  17be85bf9f044ebf76b3d23ef496963f78bec43e9802183fefb6dfbe062f423e7577613fa6d3c8bfd1a1d63e6c75bf3f\
  a75a53befbc2363eebc4f93e74ea00c0d95a9dbeeca6d2bea0c6bcbf95ce14c054881fbd74ea1fbf8a53ab3f7f2b2a3e\
  0c86c4bf161feabe80a2b7bfb4066abe9c96133f18262abe643c8a40ba84703fec22bd3f7beeeebfdb0687bf3da980bf\
  1478e8be23dea73f3f8b553f481bd73f835417bf48b00a40c567203fcf93c73e8f37463de726113f963430409fd097bf\
  3b8bf23e81d6a8be122cadbea4e262bf1fc8fb3e9438043f37b52abf037191be7f1a17bfc3d4c4bf7dff1f3f0f912cbf\
  5c9ee5bfa989433db2e21dbe0da9133f0fd9863e80ada7bf6e8f38bf1b6035bdd27a85be71e373be9a0fb23e80a680bd\
  338a603e5c306cbf5ed31dbe6e70353f14be9abe9ea7cb3e138dd23f1df18a3e9df09d3ffa5dd43e7539723f8138513e\
  3d0d4e3eddf4c1bfd16438bf7b226e3e2c07a6bd86d2663fe537a1bf519616404ac3cdbeb01b6a3fd41db9bfbf59023f\
  b829253fd26aef3f7d3823c0ec90de3e210d633fbf7136402d1b643ea30e8dbeb79d0e3d18e6043f9af842bf239f0040\
  a99f24bfea47203fc6e0ff3fd6f205bf3c10b23eb41162bfd3b9aabed9edd93f53e6d43e9a470ebf7c962dbfedd33b3f\
  8382983edb74283fb47bd03ce2a5103f3aed9d3fef82a73fb58318bf7d28883f091e1dc0548d0940be4f34c09c6dbdbf\
  87139fbffa4eb1bd67ceb13e51fb803f4336a43f9611023f1f1afabeadbe21be0621e23f6ac9a2bf36c311bfaa37bbbd\
  916b363f8d6090bffc35f6be196a5e3f981e583e0f78fa3e64032dbfe5a3333f610cb9be9a5014bf46875f3da11e423e\
  150e0c3f62250d3f22eb263fe7b0dbbdffab0740adbb45be47ad9d3f57f3953fddd6213eafff173f6f4640befdfe993e\
  227f2e3e0e501abebfa10abc9eb16abfcc998dbdd53acc3ed5aa5bbffbe3ddbe89afd9be2513e0be27e7e7beef331d3f\
  6a5f65bfaaccc73f0c38d6be222b963efbe8b43e33db80bdf2b066be44ae1a3f383769bf6aecebbead02093fbe9d10c0\
  fdd327bf44c3c0bf51d50b40ca83d8be76dc99bfc6607d3fb8e699bf1062853f4d07213f1348c13fabd87abe6f5bfbbe\
  36a70f3e7898fe3e0d568e3d73ac2ebf6fb07cbe928e823f0f00af3fb5d87cbfbdb521beea116c3e1620e13c60bc5b3e\
  4821343f8514b23d8318f03e60c9ba3efd31a93e0edff33e13c4553e10add73df04ab43eff86a33d494d6e3f829fdebe\
  907cbebf1fbffb3e857f56c00c1f543e08331abf00b1ed3f2550fc3e5b88223d47082bbfefba57bf7dd27cbfd1401dbe\
  dec90fbda11cf8bfeb86043e6ef7283e8039ad3f48bab03e55d7b6bfdd0fe5bf1f96e03ec6eb3fbeee791d3f8db886bf\
  e6c712be3b563f3fa4b76bbf6948f9bd0330453e3d5718bf41a493bff4ddffbe6340f9bfed709d3eb2026bbe1f1697bf\
  a21f84be85d058bf57f3f13e4459c7beccaf06bf819d473d3136c7be2bcc833eb093933ecf3fd4bdba015c3f1856253e\
  23f22d3f937e9fbf336f963f1e98aebe5fc1083ffed78c3df8360c3ede5f2dbdd1978e3e322e5bbfc38e6ebef51c933f\
  479c513f43f8b43ed188bebec0d41c3f5dfa91bec4381c3f9772d0bf60a740bf92d92bbf6f75003fc8735d3ed7337a3f\
  61628f3ec25a883fd95f273f7e60db3d9384463f33440fbed923453ed6de8abd901718bf59b5e0be396a893ed2086abe\
  901e223e5cf7493fb4296d3ed6b922bf0539ed3e78a85ebe9e9679be255682bf5e7ca33fbf446d3ebbaf263fcd00b8be\
  6d26353f0ed1c13d05e2b53dee4e94beb4de40bfe03fa33feb4bc1bf57b4e43e7f8fe23eb6e5c53e6dda003f95c22abf\
  d6f9acbe849cd13eddd84ebf1d1ce9be448ebf3e3f02d1bbb0301dbf778d933eee5dc83e135bbd3de3c303bfbd20333e\
  4f14acbf6b611ebe4ece563fe72f8a3f47ee44be560246bfc34802bfeba0fa3e04e483bf042eb93f94c0d63e0bbab93e\
  b5b00b3fe75b583e3fbe103e6d7db4bde3289c3ef8dead3e5edf663f4c42b83d89f3d13d815a663e55f5073f720482bd\
  c713a03e57faafbe7bd5b2be8c78dabef1d116beb250843e355ee1bfeafc653fb8cbfebea1da35bfa6ccadbeb7e4c73e\
  9a594e3e9a8350be604dc3be527ca73ebd10adbfcebc013ea370e83e24dcefbf1a967a3fec2f96bea79ae03e02f785bf\
  25dfb73ec6f3a13fbc494b3f0365a13d1645103f9db497bf23aedf3d283d74be6647d43eb27228bf37065c3f7f31babe\
  899a17be716b42bf9534c6bf1d7c13bfdaa519bf173262beccd5dcbe7287993faa16c93cb1dd42bfd6797ebf8cc3ae3f\
  f8a32a3f295d54bdc84b02bf9e9d99be6cff9c3f6f018b3e0f6740bedcac5e3fde7b9b3e289f55be948f15bd992af8be\
  9a300c3fffe4b13e7953823e21a1b33beaf20c3e749362bde4c0ac3f1a0d24bfc887d4be504500bd6a38913e7d9ba43e\
  aacd20bf935eaf3fc0b80cbf217d2840b70b923ddc4f253e41c039bf15dd9f3f5ed249bf1665143f5160293fbacbb2be\
  624fa43e9efcb8bdcd17643f006b613e8158c43f413c283f1e04b13fe12de03f2736863fb1b9e83ff0338bbd71b1ca3f\
  9d449d3fd5a2b0be18bc873ed9a3233df3f52abf21320f3ec6f5c6bd8a6ac03f963b9abe45fe2a3f34ecbf3eb013033f\
  803311c0d3401840d77908c02667e23c305c353ebcd8683da430453f230f93bf7355babd410672be0a62ad3f48f134c0\
  f581a2be88f240c01ba14940133a2e3e1649afbf345d5c3f170c3dbdb40fd93d661e913d7a1a333f611fb8bd3f923f3d\
  ec112d3fcd21c8bd5a088b3f071e9b3d71bfd7be6eac3940b25741bf83530abec019503e60ffb6be6d2b583d3db6893e\
  ef044b3fc6520d3fbe72b63e733b073ff949603f6c97ffbeb02b993e0e985cbfd717d8be7e3af83e7bc3ebbd353af23f\
  cda2263ff2f03a3ebe510cbfb5a0213f9ac35abf9f3c863fdebd7e3f0dc51d3e57115b3de192af3edc9094bef53ec13e\
  19ae81be5dc392bffaf56abdc778b93d71d1b3bdfdaede3eda61e9bdcd2427c012fe833ff7f585bf641e8d3d1c1f03c0\
  9c3482be4ac5313e7bbdfcbf7d5dcdbe08655abecc9681bf4a96f03e4e0ae8bfdc6bd4bfb86bc2be72ccc4bd3175e03e\
  ba445ebf760c42beea5325be724e95bfd53c283f090b883ff0d9383ff90b53be8c7634bf997d77bf3bdb4e3dcc65a83d\
  f3c13f3f9674c5bfb9c1c53fdde18e3ce7b71a40a6bc57be9190c63f5a7bd5be4c6951bf12fc82bf5612b7bf61fdc43d\
  274b843fa17936bffabfebbf97ce09403d5a833e7eb3bd3ff5c4e1bfc3c0c73d506ac53c79d18e3e8b0afebe2c30043f\
  d325833f697182be476ab4bd0e7b89be3ae4a33de425093f6e94f73e3180683f5bee15bfb1ca9fbc998ff13efe6f543d\
  0967403ea61289bd1914073dfe086c3f7e4bffbe552a98be3e19a53d3f271b3eda87af3e1390533f7a72583e95ce8a3e\
  b7529c3f914bdf3dec4d2e3f495bc6bee9cdb6be6fe1273ff613babf1e99f5be24260d3e99388a3efd4fabbd6ccb223f\
  0d48323f44ececbce96c9c3e5018a7bff8cf803f85d14b3f10df72bf498742bf8838ad3fa681a73d0cb5503f96cd44bd\
  cc7fadbe90bf5cbe795e8f3e73ae203ff0e155becb371cbf8df4c03e5fdb86bf772320bf4f3d9b3c5657de3e0d04103f\
  538d653fb3b20f3e7d007c3fa46d483fc1a0023e4aafe73dcdda613f12a852bcecd0853fa4ceacbe8f77d4bc01d49d3e\
  5873693eb806eebe016683be0cd13d3ea8da113d51d97a3dcdb073be59a48d3f7f6aa3bf83b67c3f519451be605a2dbe\
  cf7277be81dcf5beafff4a3eb51ec0bfa71e78bf0d97ddbc24b1b13f3e0075bfe5b59c3fda6640bfbf995a3f662b83bf\
  3df4643ec926e33f694a253fe7c2ecbe3b05663e820bcd3e386104bda28b46bcd9191c3fed1d9b3e3d54f4be0ded3b3e\
  04e5793ebb820b3f1d91903e42609d3e7b12913e0cdc4e3f14f4843dc051bb3fcee9aa3e5277d63ec5dd03bf0d335a3e\
  00bc673d2ba5dc3df60e233ef17599bdb5baacbe64c7143f8c3e57bfc799f03f6f38d83cd4caff3e7e6f473f3b1cb83e\
  0fa0aebdbbc8c4beb117b3bea20786be34ce023e3772a7bff25453be67a400bf0b35ca3ebe4f8abe24f6543fb5efc2bf\
  669ed43d03a1303f19aea53f1c77adbf069397be619191bf0b5ed43e955651be9677e9bd6b9254bf4a62443d4dc9983f\
  25f7cc3d2ae2de3ab590653e1f51c1bee4fd5fbf2ecd293fca9b9fbe7cc279bec5c654bf6af963bffcd9233e092eb73d\
  dd8c013fdd15903e6c387c3f0a4300bfcea2dcbe95bb0fba713a6ebf74947abf37ef783e284005bf27a38f3e2fe1bdbf\
  9223363f00cb03bf066b123fa61656bec3b164be3202ffbe5db424bfd70c08bff9fd15bf5a3cbb3ec3e75dbf22842c3d\
  a4041c3fb8ed743d2c4532bf32d9203ea5d2713f6600adbf1fc196bfeb4ba9bd119f90beb18ac0be6046023fe0432cbe\
  169fcbbed8608ebede7ba5bd97847f3f61f72f3f0d5294bf61f296be5fbdc53d964168bf61e809bfffdd5a3e82bc143d\
  baf686be2cc0433edcabf5be5362b8beccc432bff959253f707d89bd2428963d72c70f3f146622bf61f32b3feb8d35bf\
  85bc35bff6e381be4cc9003f2581c1bf8c00883e3a049dbd4891423e13615fbe248864bfb9404f3f1c640d3f7044a03d\
  d96b383e8120d1bea6c7693e4980a73fc0792cbe42d33fbf070935bf301184bfc0e3a7bfee8154bc1eb88a3e02d01dbf\
  d70f05bfb4115ebfab384dbf1161a03c76b460bee27400bed23c9abfa4e8cdbd6214acbe5aed573ca2d14bbf5fb29ebf\
  d81aaa3d5a4574bf071a9dbeec905bbf7442eb3b13a39f3e45578e3e9db762be22e761be9040983e1e83233f874378be\
  cff4b13fe45278bffa9f823db160f3be6a8fb53ecc7a60bfe9278abefff06f3eef778f3e8657673f7e7c5f3e89d605bc\
  bb8f553f3712053f16b929bfd869863f57371bbf8553ff3fb1afc3bf20376fbf0dcc81bf12d2163f52a531bf3b220ebf\
  84648b3e9873133d3a48f8bec7feb5bc1c3c053e84e819becfe458bfa231bc3ea5ac4d3ec7c7a4be3f5386be689a0b3f\
  639407bfe11180bf725f023f8029903f6d3cab3eacce82bff1849dbefcfc373fe51a62be0457503fd3ce9cbfee694dbf\
  7068d53e6ed18f3f7c73113f8bacf33ec8366fbf8d809abc8d0e94bf933b8cbfe14d6fbf71b04e3f57d68a3ef2241f3f\
  1b6a963fb2a92abc9f14b73c78533d3f77653c3fada138bf5a3a4f3ffa9e97bccb455dbe42d880bfb3b2d2bf5be781bf\
  704dcdbe1b98ebbf47ae793e13dd92bfcd0e13bf4c233dbe43e254bde5ab0a3fddce8a3c2e33b8bd7257f5bde02120bf\
  3915073f67b4b63fa883833f0530833e82b804bf4b029dbeb97580bd5ca70bbfe4fc983e2067083f1b6c803d479b58bd\
  ca449dbf996c413f5b1bb7bf27d8c8bd413e413f9b10b7bc4bf61b3ffc3c0ebec18bde3f9d337a3fa1c7dd3e03657fbf\
  ece031be67fda83f8bb9103e06914abf1e0c84bc40c422bd71daa0bf65ebbdbe837484bf1a1875be6e8c5c3f355f92bf\
  44e001bf48f29b3e629a473c1be2c0bf17d9a73dd7c0523ea31ab8be75a0c8be3fb48b3e8ed187bec20fd03d4131b83e\
  0ea95f3f9a6baa3ef315243f3460033fd77612bef44895bea98f26bdc1841a3ecce6363f2e9841bf3887ec3eb752633e\
  2ba8633f12473bbf3acd66bf7319093fbaac6cbd8161be3e0e0d81bf24a67f3ff77654bfa251453d4050dc3e33199d3e\
  b3231e3e35f6cdbebd0cc33d467badbde192ccbcd548a0bd8200523e77e23ebd3cbe04be11ccbabfadad653fff6425be\
  ec5ddbbd560c78bdc39dc2be7850b7bcfe509cbdbd53d33e5faba93ec6583ebfa49a223fb67a9bbebc8e3bbeb9580dbf\
  28e889bfb7a8733c1fc2b03e23a757be0c59aebe11428a3eec14fbbedf54263e6fa72fbc5e5137bf468cb43e21fca63d\
  6760e8be2475dabebebf023e922919befa4b6b3e6ab9093fefe4533f8cc6bfbedcaea9be448786be3d172f3f3d8e35bf\
  8a055b3fde540fbfb3aeb83ed2a633bf57a124be60273dbf433d263fe224923e300a48bfb6e7363fc20dbabd2cae503f\
  402214bfc84a6d3f833406bfd36f913e4eacc5bed973d63f3373203f15a0bdbd21a9743ff9c7eb3f2a008ebe7e2f3d3e\
  554b903fa4fc843e343499bd8258a13fe2261e3ff795a53f1906044032000d3fe7726f3f0e2414bf371268bf257db03f\
  ecb1a43fdd64af3ec52aa3bf1431233c7d86913e607587be9576593f04dfa43ffa71e13efa7a903f2c6fb7bf6430823f\
  5c51c0bf68b29d3f351678bfff23d3be1944b9bea92432bf5e2f52bf084b9bbeff45773efb696d3e59405cbfaefe0a3d\
  e8eebf3f6e1b81bff642443ff427a9bfa12b803fa16601bfbf03ac3e3acb7a3e8f4a97bf08f050bff77a07baac88be3d\
  314618bf3258203fcde1663de36c90bf5b7a4abfcbdf0e3f8b6905be4276863fce25503d30f5033da357b5be2160633e\
  305f3fbc1725fa3de0124b3ff5f19abf85ffc03e894725bf95b7ae3d4187163fd4ea91bf4d58ffbfd07e4a3e955a97bf\
  be1b6bbfd6a91b3f0e92d0beae122f3f88d848bfc0ecb13e70efd33e65dd61bf97d28b3fe32c9d3c20b4003f33cd6abe\
  3bee9b3ebf2b09bf5af0613fdc9dc2bed1458b3fc9d1003de469943eeb50d13e84da373fa2e806beb5a614403415813f\
  0e14da3e096cfdbfa4eeba3d0969b63ffb0cb8beb0c4e0bf889d0e3f0eb698bf3bce303f8a9f753d24f074bef655d3bd\
  0ce9d83e66f0523d309cd73e3abb6fbf631619be11df313e57847dbf43b516bfc9f8f9bef9bf03bf9bfa613f43125f3f\
  0d8d423e3f87083e5d7d09bccb69313fedd6be3f0fd8073e4b75f53f501e353f4f5ebb3f6ea402be533d97bd8501a93d\
  0403c1be0c830a3de81fbf3e5418753e203580bf2dfee53fb4699abf18c7b93f1a351b3e1ed38b3ff3e2633f9a6806c0\
  4119803e54489bbebfe6efbebad265bf17d4853e8fa26abebb59d4bdb87b6c3de2cf153d212cd8bec3b71b3e6edbc9bf\
  23d6f5bf8cfd4d3e6da40bbfdc6058bf645a083e066468bf23d641bf4d9a36bfcf58a8be864b2d3f7441ed3e66b941bf\
  b33d803dda33853d727d413f3628dbbe949fe9be070367bfacfdfd3ebc31cebe2930c33f20e56cbf76a89d3f7fc9e93e\
  1c7418bfbe07dfbeda2c2abef22c803f05c4403ff3126b3e5be3a4bf8f4c733f79381cbe3acf9a3fafe7f4bf2a44843e\
  f2ef153f2886c13d999c27c014211c3ebc91483f132f30bfb4acf43e7cf474bf8c972fbfd7e3023df6c927bf342aee3e\
  ac066bbf5ac5cbbba29aa13fb32a9ebdc17847bf41c209c006ad133fecc5f2beb28afdbd72d4aebffc3102c0503eb93e\
  9145bbbfd4bb953ff35c853dd056c83fb9e9463f11d36e3d804a6e3fd645a33e4d02bdbf5954a03e001b0e3f7386b2bf\
  82517fbd90d7183fdfcf3ebe065a2b40a9702e3f8906493fad40c1be809f3b3f22337dbe69b09b3f7e1881beeb712640\
  6ca91bbf37becfbf9214f4bed3fc68bf4075b7bff4a452bf88ebee3d01a9abbeccf43c3e13f35fbe5b261ebf0db56a3e\
  849adabec128643d81672e3f3330b0bea175f6bef2a6983e41f3debec708b9bfcd97c63c164892bfbe8457bd77890bc0\
  eb0881bea542d9bd86e467bfc29f163f0d18a8bea321a1be1b68853e9a8deebdb18fcb3e94cc17bfbe4f04c086d3c33d\
  6c961bbfc0b2d9bf087a46bfd50af9be94eb5ebe3bc9673fdca97ebecda9853f651cfe3e98e8903dcba6aabe094d0abe\
  c7ce763fac0a8d3ffeaff1be3b74aebfbfd8ddbf822decbec6302dbf094999bfc686893efb93943e220c43bfe51867bf\
  d2b530bef349433f9536f7beaa003c3fe903013f728f763feee2c2be9c3c913ea1d66c3f3e389a3f1d36adbed6c6603f\
  03aa113f5cd2573f9e6be43ea6a6053fc0d7de3e17a93bbd12ec05bfda4d233e10af72bf94aefbbe9200df3dbcd7933d\
  179679bfb06f35be90a8973e19872a3f5aef0b3f9ab0c0bd88b8eb3e0182833d966dfcbb3a6392be7a8a73bfde7e06bf\
  91dbbf3da65843bf2cc5003f099ac0bf27bccd3ea213a1bfcd4e0f3fe5ef853fb73f0e3bb170dbbdfc91903ef0ffedbd\
  fd7b9b3e0e26e53e5897233feac8f9bef3adef3dd4b86c3f0221b13f4a3850bf0a387dbee633153f6f25393fd15b953e\
  ae87923e0078f63eea5fd4beb9f7d03c47d7dcbd0574853d93ce9fbe5cecfebd61078fbe28aeb7be4c4e8bbfb4a48a3e\
  03e620bfbe81903d5cc8c63ec452f3be2c84a8bb769f943f838903bfbc7943bd4c8ad0be97a5433ea61a92bcddcc65be\
  45fe55be85bee53ed0bf193f817e83bfe1fb0b3f5b50b6bff738aa3f13892c3e84a5023f1be9763fceff04bebb3b99be\
  4d00b53ec9b0bbbef00ccabeec7ad93e28f8bc3e8b198f3eb977e1bd891cba3e49900d3f5ce5ed3c89801e3f378341bd\
  45b7533f138c5e3e52c60e3e5b201f3f0e503dbf93332d3f6095073ed8296f3e38f5033e85ea21bee1a8653e14f0533e\
  fe5f31bc2458a13f2b33dfbc34e9623e63f7babea14dd03ece2a423b3c43b33ed57c933d33fed9bea0b03e3fd2cab93e\
  1b86833e08da42be0a5e003dbd2c323e6308c23e57472c3fa304b1bf9af8bcbed02d1f3ff9ef21bf9342363f3fce4ebe\
  df5381bfec18203f74bcf33e3909953e0eab1ebef16bf23df3b80a3e4c8e923dab9a2fbe79dc393f396173bec228a93e\
  4571373bc866053fc7cef93d8a0a243d539699bd0a8ecf3f780da5bda41e2fbee2c5393efd099c3e4e32243e978bb53e\
  6e8fd7be86edb23ef0bd183fed92713f2ab6853f319b883d30eb123f81f739bf9df670bf799e08bf361543bfc2782bbe\
  d1a64dbeb813483e5843283ff8d0be3dde2a0ebf0146aa3d3ca5c13a48afaabda74d29bf7103a83dd6e7aa3f17f1e4be\
  e14055bf06c9013f42b4a53f4197483fc5b96cbf436e0b38d4b2c83e0ae425be4dae62bea6df99be040b21bdc3c666bf\
  e05b4fbf09a5c83edbbdbd3edc0034be5b09543fa3b8aa3ee0630b3f5604783e7266ee3e850ecd3e6e41cf3f3e178e3f\
  88b94b3c1090dabeb29aa5beed39dbbea79da0be39fc43bf0d3c9a3ef333d3be4458af3e3d68083ed97523bffd73633f\
  8e9680bf28dd143fe6cc213ead32cebdd96075bfd24a4bbf403bf9be05eb7fbe637643bf918434bf03686f3d24d575bf\
  ad82fd3efeb3a53ee64218bf01dac83fa6b0393e28cac43fdffd813e0a571c3f0ea1343e01e86abf37bfb43d669361bf\
  43bb783f648bfebfc3648dbf2467003d6e92143fce30f4be8f30aebe504d21bf79883d3fb4c6d03efe014f3eec1dc9be\
  4dc535bf1deab9bd469febbb8f07763f3f4e1f3fdf80073faece313fcb82cc3ef6a2aa3fe738093f74e9af3e5d66d6be\
  7a83dabf4a1f8f3f69d713bf9e09fb3ffca278be0e3dcf3ff24bc93b198505bf06b43b3d7bc07d3fa654373f81a407bd\
  162ae5be61914d3f58c9b13f23e0a5be2f4911c060f7163fa9eade3f6b10a03e98199abfb21c123f33a667bfd32ebb3d\
  6947c73e194d8fbfbc7ab83ef99190bf83e198bfee52353f368a15bf71f9bebe02e9873fd64f293fa6608a3f2fe9363e\
  8d38313f7b9a143f8b76f23fb10a97bd9c0a87bd9e4f35be0700ce3ea16a23bf443c48bfaaf590bed682553ea1f1bebe\
  559c24be507118be8f851dbf8605e53fbe2a58bf6c1bfebd045ce43e517c23be27d766bfb7d6b6befd4f04bf4d0e69be\
  f83eb9be2b59b0bfb95af13e8e8994bfed3656be04810c3f49203ebe40c2473f7e5d53bf07ff8abeafec7c3ff65c35be\
  164de7be356ebdbda560133e1e731bbfdeeee5bdf4de3f3e7f0335bfb54b024054dd23bf77fbbebe33c605bf5e81debf\
  778da3beef8b35be274d793f1b8384bfdcff20bf45852a3faa36fbbb5fca3c3f7a1e37bfc63bc93e737b643f6c3cb3be\
  fab7023f7a195dbed7f39cbfb824313ebc3a86bfd42b2ebf311b22be77397d3e7aab393fbe116e3fe9654c3f78caa43e\
  8bfa283f41d2cdbe375418bf63bc7fbfce03303fc1fd0c3f49238d3c547a0dbe65a2a8bf990197be5baf1240fc81f1be\
  aebac9bf447af03e300062be0e05c7bebb62e6bec64112bf5bd20e3ee384d5bf7a14ba3fbd09adbfedfbd0bef2d16bbe\
  5f06633f05f52e40f7d11b3fb03c063ff3030a3e4744a4be9ef19f3ffe8717be98f6723f5ee581bfd00adabce1c0a9bf\
  a01c83bfbc640bbfcdda3bbfc59b323d3ccd3b3f04e6663e5879a33f75f310408c7b583ff7d1ed3dc6ebc3bfd82fd1bf\
  f47382bfa8c8a0be97047b3d2ef05a3f0a4bbcbe483ebf3ebeb5963f8ee4a6bea020a4bef6ab903ff6442a3f31759ebd\
  360921bf462fd03ec67f013f68cfac3fd09556bdedb7b4be8b57b03f9457323f44ab84bd802b893f24b346bee51db13f\
  df3d863fa5674bbe9118523f2ea3f73e5babf7be10935f3d7158173d9c776c3e5e38c03e76fe423f07987b3f935f4e3d\
  5c79e83e4b39983f7a0dcd3ee9fe0c3e00eb613e97c52bbf241ddebe7c3ada3e9d703bbf04adaa3d2566e8be5356f3bc\
  0833cf3e330c3bbe0476383e41a6b33fc27ea7be3a81c73e3c6268bf303388bef4e73fbef4c30c3fa1d606bfd0c5dfbe\
  b942433f0457313a9ec5cebc1c228f3d9286bf3e7d0ab0bd1024cfbee606443e950456bf2d8569bf425dec3cfb94dcbe\
  ad693dbf05b9d73e1115103fa9c9d5bc8cbf69bf319913bffe6eaf3dcf7a60be210c5fbfd3c31cbfdbed10bff4b489bf\
  3550c3bec3c7783d3c147b3f72064e3fd4b9393fad8d66bf581f793da408f9be4283793e186520be2e1341bef6d40cbf\
  038e43bdd8e0c7be043ac43c8c28093f7413803f84c3273f429185bd2c93f73efdf8823f33be7d3f749a87bfe669803f\
  9a134abefc1ba03ef20015bda98b783f847a66bea0d4c63e757b76bf942ea93fad3ffa3da30779bd3799a03f5d93dc3e\
  604502bf965a7a3f058fba3f574f5e3e04ad063e3a7930bc396aa63ff8d0cb3f151adabd55bb4b3fd99814beac749a3f\
  375a523fb37ff2be6ea2b9bea9dc3cbff2b1943f4546923e7a1f95bf2708823f887f28bf3c05683ff752f5be022a6f3e\
  2ac4d43e96ffe13eddb5b23ecce338be1df31a3fd5c84bbfb0f099bf5911b7bec40344bf217e2abe79b60b3f83c6a2bf\
  2e8af83e7d796dbf3f0fbb3d18cca23ef96e8d3f86c6823f12ff4dbf3527253cf9588f3e610eaa3ed03a1d3f0a0d2e3f\
  dc52653f451eb23e8487cabece7ebdbeaa1abb3f65f2943d6a9f74be77f41abff4201d3f2efb383faac4943d0de8433f\
  a8255fbd51e1703fab73383f843a943f29b925bef9bace3ec080cdbe489ea93c6a991d3f2aa57a3f8e3fb6bc6532f13d\
  7a95bcbfd424993df3100cc0ab275bbf613d5ebfda0aad3f93d5823ea219e4bed638a6bd6c9316bf8a7aa93e68a1e1be\
  54db883e246adabf32a4f7beb9e4d93ddb8d803faa294fbf29ef01bf601936bf7b54fabddba86ebfc11c3e3fba2c85bf\
  b95f66be4f3fe63d2b1401c051dc24bf11a72cbf6f0b753f3bc5b23f84d550bf36b285bff0e29d3f88e0e93d004291bf\
  a1a0f23e9db89cbfe6882e3f21c311c068df0bbf722e253f0e91e63d752b1abd80072fbf46709abfdf0a7f3e3dbc093f\
  db7c223f5200f1be3829b7bef347ad3ebb1d5a3ec71565bf4015e23eaf28343f5a62c3bea5df2f3e1903373e43ae573e\
  315f883e44ea643fa59d25bf51d5813e3458993f94559d3f5748b9bfaefda3bf50e705bffced0dc0e6bb02405a97283f\
  ce44a4bf6889b53e1c627b3ec73d233f49701e3f1e7ea53fe9bdbc3f00d608bf9ea306bfa00329bf4158ffbf39c32a3f\
  3d3ce9be9229f63e9f741fbf26d3a5bf721e013d0c521c3f45624a3fad45b0bf41fba93fc3b6d0bf0c045a3f49c266bf\
  4dce09c002304cbf958f8cbf7b416e3ffe6dde3f08cee0bfabb13c403c93423f7b2e843f5e6694bfdd3676bf6cfcadbf\
  08985ebf8f57323f24b6c03e91262a3f523897bfd80fc73f00eb893e30bb22bf1aa7c6bf47a0dc3fdc154340b9bf163e\
  5903ed3e01a580bfda8786bd1f6c37bfc95980bddcb36ebf8e11d5be5bd9af3e17751fbfd2fb363f4f15503f7528a1bf\
  7f28aa3d1e7e653f88385d3e9f51f5bd0932e83e7c5107bf7f659fbe95ca3dbfc00e1ebfea1a0dbf07399cbe5983ebbe\
  6f87ce3e17fec23eb8c258bfaa14173f227cf7be26eb173fe30fa63efcbda23deb7a1740b1124c3fcc87043f93cb2abf\
  c5d812bf5df7f43ee858c9bf42481bbf7ae639be2af5d93e332197bdcb16703fe5da9b3ed95ba0bca96693be766287bf\
  e14ebcbc4670b93f893506be33b124bfd6848d3f2f64fd3d8b30babec8ed96be61d79e3f78824b3e422caabdbaa3803f\
  60b43840e03d933e275d0fbc2cba26bea3d9a23f4730573f81c634bee136893f1954a4bf26b3663f049364bfb310f23e\
  8522d6be12f1ab3d32f6c53ef9dc753f07361bbf8b1fc93f658733beb9cdffbe85779ebe82f2183f1e3a463edc2d05bf\
  6009973ed2e348bfa0f8e73e5ef3953e5629b9bd8025ff3ae3b5b23e820464bf3583683f993d4cbf1ce085bea98e40bf\
  e3c0083fdfbf63bf5cb13b3f6ecc913e7d5aea3f4dc5303f880fe1be422a81bf66b3983e1d3bc53fb85fc63e4ad54ebf\
  940893bd927565bfb7ad5abdc1ce99bed0427b3f8ab550bf4ad0213fccbfa63feedd443f16b7d6be0bccc5bfb70e60be\
  80521a3f1f223dbf78b0e5bed50e003f9b3c52be326f363d3eb1203fd5c165be7c67cfbedb2f9ebff14f913fe25a1f3e\
  7a63d6be3efb253f4bb3a03d42f96ebf5bfc96be06b840bf3bdd163e061dd63e231f893f5c8a92bffabccd3eab0c2fbe\
  643d32bfdb3835bdd9c3163fa528c33fca0cf13ddba087bf60194ebf0aa35d3e7a98ec3ccedd373ea891973e0bf329bf\
  bac88d3fa130d03eccf8ed3e4815a2bfc82f70bf8eb8fbbe29b46bbfa61ba6bf9b56833ed8bb1b3f5ccce1bf612d69bf\
  c654d13d2e9ebd3ce87c8c3d4cba59be75c24ebde1c13b3fdbdff03ed07d8c3d6455483f8d6801bea9bbd73edc559f3d\
  2bca62bf37472e3eaab7b3be606185bea527213fdcc1edbe87fc5a3e529042bfeea325bfbb17ec3ea1cc8c3e920ba0bf\
  36c832bf89c5153f004416bf167d393f7414b6bebd3124bce3a243bf196a453f1ff5773fd2ebaa3fa569563f76c7173e\
  dddd2a3e80f439bfccfe2fbfa1eb4cbf592e66bffbc28fbfc1f605c074e430be3674d5bd4b63f0bede9575bf11dd92bf\
  d96f4d3f84c29abfc2c5043f5c1a8cbfe978f7bef82784befed71abf5faa713f6c871a3fd350a03f9e9c973fc9e45dbf\
  057d843f7cfc3dbf3da6fbbc95f01b3f52f7313f5f6e3fbfa7f5263ff3c89f3f8579edbe14142e3fd2e029bdf239babe\
  2df6813ee33412bf1bff56bf0f97c23f976089bd6324fa3f9fefa2bfff01473e7830efbef9d8c4be8b86973f0c2522bd\
  39b384bf5ca1ea3e7c3a71bce0359bbe1f712cbe5838b1befd13ebbd447a08bf7cd406bff2fd373e5a31e5bec7d707bf\
  5e4dd2bc9998143faf58d23d57e9eabd095b023faeafa9be77e53c3fee19e5be2163d83e4f01d0bea17e3bbd6dcf9abf\
  852923bfddec47bf1afa67bfcf79fe3e49ff393f8208b3bdff7bfb3e5fd28c3f0434ac3d37be17bf01b80cbfa392a1bf\
  4d11223eadab52bf2b450fbf4bb538bebbe592bd57c471be40ed683f0f6681bf8130533d0bb0a93fcf1cb43e563efa3e\
  512363bc9cad8ebd2758b7bdb0cbebbeaaafa2bed5b92a3fc775133f006fb8baaebee63f04364cbf2154c93e70ba44be\
  27596a3e7d606fbeb2e8033ffc769a3f6d34f53eccd2e9bdb69344bfff63043e399b60bf646bb43e3fbad03eeb2ffbbe\
  54996ebfd971013febdce83ef32b793eadbdccbe7bd0fcbe35876d3f45f06e3d8efaa3bf0c4c873f6ba287be085720bf\
  b0f640be429e5ebff8cfcb3e9ac0963fce7f153fce26f5be6f4068be724acebe2409e1bf4eee22bf1abc993ff644413f\
  a394c8bf54e54bbfb11dbdbdbb683d3f44c5423e674eafbea2b0bd3edc5a0bbff42e44bffab6b13e52c3763e48a43fbf\
  b6a923bfc0b4f7bdcb84edbec00de5bef117bbbe597c003f09b812be12d301bfbe40e3be4491933d065f5cbe211a82be\
  790ae73d2840b73e4be2863e68c5a13db57325bef01f1dbf27eee13e7909ff3c09c8643f2015b3be9337653fca2d013f\
  96263f3fef714d3f61f301bff9621a3e35cd43be79dd4c3e3bd6c63e4b40b63ef18563bf76d5ec3fa3cde2be7b91683f\
  eebeadbe16c9293ec1af513f1d302d3d7d9820bf143b30bfe8d24c3fc36c9b3e02515abe90f8a9bea2b3693f2391903f\
  69070d3e9154903f9a8697bdb615893f86ac3bbe6b4b20bdbe00a93d24c012bf46ca0dbf7769733f5e41483f4301f33e\
  e583633e5b65953e6a6b083e7938fdbc643d51be930af93dfaba433e3f36e53d3a7d053ffe6c43bcfabe0fbfcd48b1be\
  65c3813d0a8e84bec018c3bea4a50a3ffe28313ec610ba3e10ef203fce97cd3e163626bf487f263ea817e43dbfa224bf\
  1553e1bd4b3cddbd816da93e5fc129bf2a519fbe2eba1e3e9a810cbfad51173f519398bb6d6564be848b203ff5df113f\
  1b1aa5bf103ffebef6d69abef60a1fbf520f07bf2c5046bf853a40be775bd6be6056c0be860c29bfadf0253ffd0372bf\
  2087d8be2fb871be2348a4bdd91dab3ebfdf8bbfb3acb6be914ad93ed881bbbd63d6af3d7eb9fcbdd0a4e03efebb9bbe\
  e7bdc4beb6cba13e253b5e3fc021f7be8fba123f3401f23e93e8ba3e07b2e03e5e0ea8bfafe31cbf7f5093beb5cbb6be\
  5dabb4be6543b73ec240e43de6e0883f715a8bbf13b680bddc20c5bed908333fc208f3bfba65443fd212813f127bad3f\
  c9f2943e149a3ebf7e1e3a3ee2615e3fc7ac96bdc5a2b63e25564bbfb87c8fbd9fd00b3ea46950bfb4e8e3be6458643e\
  4e476abff8049e3f535b80be75e5683f550272bea1dea33e50c53a3f85d2d13e2e1d62be257e0ebf4fa7fa3e1bf5ea3e\
  fcf8b13fcd7448bd7035873e09bf9bbf641673bfa48743bfc59f79bd6945263f0590f43e5226863b59b9fabc50b6b13e\
  e55745be0d9a03bf983dae3f12803dbf5485903e6301acbe4476923f514e653f6e5b92bff41609c00ded7dbf6eb61bbf\
  06b74bbf8be299bf898e8ebd9333a7be02d9c2bf53218f3f2cbd8c3d76671abf4ae3143f26eb6ebf18bababf514be83d\
  90bc8fbe8017503f953d9fbdbc6d21c0725dd6bfef2eb9bec050be3ceb50ef3e2a3739bfa5bb65bfad52de3b51b69bbf\
  90dd98bf6b620dbf2fa88f3f5ccb84bfc7cb3d3e0973c1bf7d90e13f195a78bf1401c73e9f35afbf10e8d4be4c0a153f\
  08895dbfd0a9773fc86c063f78a01d3fd0a8b8bf5495ca3fc568273e45d0f73f8c8b18c0c98a7b3e46ee9e3e443986bf\
  884e893f1775f4bd7a6124bfc91a7fbe149d073f78b5953f2661f03c11048ebe1d650f3f45afd53e43925d3dd4930cbf\
  0d3edbbef969223ff5580bbf6f3e673f4c8fce3e1cd1c7bff52387bdf9616b3f94c16e3e652edcbfd003ec3e7cd091bf\
  e7da723fa78939bfe17c29bfa57b76bf58d7f4bf159d823f5f9ed73e7977aabe6a380e40b840a4befa34cf3feb0513c0\
  ea9a4fbe821fccbffa6f65bf3e0609bf7a28c33db8debb3e0bd033be2485a43fed4063bd949db63d60e8aebfc106e83f\
  f7b76c40a1cf8ebfacdc034055f88cbfeb608abe688cf4bf5b7306bf47353f3f4ac18abf0c3708be3e65e83bc20cda3e\
  339f803fae0fc1bfff9ea2be8da99e3f0b2b6a3e45b128bf9e86d83ee28a50bf98faa4beec08b2bf05be9d3ee7d9803e\
  2745873eb35aa4bf22cc88bf307301bf958475bfbcc0a3bb5c990bbe387511bf2d0e463f8c840bbf3bce2840d6d7513e\
  d666393f641e63bf562952bfe230e03e9f83bfbe453c08bfd3fa623f669f6d3f79e1f5bf96dbd53f95e1de3e9098933f\
  32cdb4bff942fa3d51068c3fdcf5a93e8089ee3f5e76093f2b3a0cbe7a4a1ac054671a3d676750bdffe76ebd9bc037be\
  31dfca3e53fdd6bfa8b5ca3ddd83aebe5010383ea0b4af3ed5b57bbea992fe3e0bc97f3f689966bf55d09cbf6400cc3e\
  efad19bf32d9843e38b37cbee9bdc13e661e093fa453563f8afc93bf9d7f24bfb2c1fd3e2e52533fadadf13f6a626ebf\
  43dc03403f92d73f426ebd3ed5154d3fb9ec19bfda35553f68621b3e04f1e2bdc2404d3fcf74f13e14ee50bff0508f3f\
  63fee5be9a96fd3d661c883e25bcc73e23df8c3f9b86b2becc04d7bf3dcbfa3da35ff9be6761073f1ecd4b3e5f5f85bf\
  51bb9ebf993af9be09cb8abf50dcac3f21691b3e13340bc08f52a53f651051be5a3301bf58eb0e3f82d5a43eabb4633f\
  fbae47bf7d9ae1bebe4d7e3fb1340fbb521594bef84b863e81c2a0befd0ebcbf57211b3e26369ebfe456cb3ef5eb81bf\
  7e8e35bfebd9d23e63287dbfc7c7bcbf410b433ec5abb83e436943be883d99bd978e1dbf57296dbe64c3fbbe6079263e\
  aaf90240b7fd82bf2202243fb67a943e2beac43d1092c9bfa48c9cbf3e8fe3bf578993bd097d66bf98d4ebbe9223e7bf\
  7ac6f2be007a4e3f3cc578bf5006bfbb92a6703f450b12bff869a43e1a3215bf3ac19bbe604a033f4639cfbd6a9231be\
  b46b093f6411f6bff46d40bf532ea2bfba2c1d3dceda9fbe5b81ae3ef7c81bbf4b9113bfaf671c3f92f70f3f2c4a0dbf\
  b45d3f3f18d75abfbadce1bdb7def1bb2eb5d83e4fd8083f13ca853d50a0103e9278003e575b7d3fd528253f7a6d0c40\
  98828a3fb1502d3f844ac5bf4c37174028aea4bff2fd00406ea65abf9d73e7be0bc7dfbe381f6dbe937e33bd87312f3f\
  e5e8b43ded5b153f2005c73ed57d2b3f442a423f64ff9db99c7317bf21cfba3e8a33c03ee902d23d948ba73ec698cc3e\
  1e628abee6170b3dcdf3e3bdeedb2abf8e49623ea96a993f13922abf3bfb9cbf8c6931be612c763dabf39b3f82f2633f\
  c5e3643e76c70ebe6d053abfb1896abebce88f3eeea08f3e0e04c83e19ce61bfc27b173fe37636be8ce14b3deb075bbf\
  c185943e8bd4c4bdc819bcbe5bcea1becd6bcf3e03c01a3fa78888bf4d123dbe7af4003fec4adcbe3831ae3f3819d73e\
  bb4ea53f43d3c6bdd4f8e3bea7e5e2be57e85fbe16342d3f5edb8f3f7909b9be1185813cfccf22bffb7e513e0b2b833e\
  b9945dbff8c758bfa917bf3fbe78883f7273bbbced421a3e8c57ccbe33bfc63e8045323f2620233eec7cf7be80e727be\
  28a0bd3d3d5ad3be5df2e5be7cc4c3bef49e0abf778200be6e8dde3f8d506abe5616fb3df3a9c43fe986763d34dd20be\
  e1043dbeef6326bf910f12bfb5ff71be5f5eb8bd046e4dbe076f583e234b3fbfcb7200bed007d2bfeb99843f5e34753f\
  ac54e73e0bc246bf7099114087c4533f38d38cbf3515f2be70ad4f3f92b30b3f1bc4f43e77796abe987dc23e0e2d09bf\
  50bb393fccd7c0bf4e1b3cbf827318beab053ebfd53b853f61a10b3ee832c8bff8117bbf927a753ef1cec2be19f896bf\
  c44e1ebe61c111bfd41b373f6a74063e08e357bf9de2a1bfc5cab6bf4136cdbebc0b1340953dd83a65f1fe3f1be8bb3e\
  ba271f3fc0314bbe2d2cb2bdda2bccbf67da9c3e221c483f7eb6873e7d13bf3f0602d8bfce362b40c05a94bfff2b943f\
  401faabf3191ce3f3fbb1b4083818bbf7a278b3ebe90a33edeee69bfbd12a0be021b8d3e89e445be649b8bbef215b0be\
  aa8e313fafa35cbf0955f8bc2685c03d57b656bf889a98bec9911cbd251c103f7ef028bec5e591bfe0630bbf5c4704bf\
  56e1023e6ec993bd350f983ec28b633eb85015be6a1f4ebf14a8b13e60d5553eb9e6ba3e36788fbe1160443f25ede1bd\
  93f5a03d3f5f1c3f3831853e3791e03e8e4984bfcfe3d2bee15e433fcf37703fc3a04a3e6658863ff8ca6cbfab0b953f\
  44a767bfb631ff3f26e035bf759eff3eca9f073f52b0613f3cfd1dc0627618bf9f011d3e4aed353f631fab3ebaaf903e\
  4f8e8d3fac3d283f33d16abf037d1d40ee38ba3fc5bd833e7c90cd3eb085693e8dc1ae3e3f1d3bbf8068193fe5c8a53f\
  e0cd533fc4b03fbe7dea163f89019c3fa16931b9f0c1c8bef2b8003d552a353c1962593f60138c3f0dbdc0be9db03d3f\
  0f861fc0f96be63fde002fc01326b3bf256079bf93334c3fa9f99f3f4b45f1beaa436b3fd669773e51d50ebf6bc763bc\
  c1180b3f2ad6d8bf41abefbe2909453cfb95683fa287b8bf1614ca3eab0d0bbfe544bbbfd2e6c3bfca32c73e565bd83d\
  5973cfbe20cd09bfc2c99e3ecdca18be7d8572bfab30bc3fa542d83f1a793cbfa954d53e2d63283fb5b00a3f16fe63bf\
  07c764be3c387b3f207f6f3fa8ab37bfc4bcb53e21c4913f2279c23e843aecbe5d92fabec906203c7e480f3eaf0f343f\
  d820cbbe69bfdf3e78bcc4bf4d4f273f632b83be674445bfe7e57f3ccdc49c3e2a8569be3e2381b9f87f5e3e3222e8be\
  4944dcbec41e413febe472bebac379bf9b9d8e3fc49101beabe368bd5d08edbfc6083cbfc6d46a3ed8da98be561643bf\
  0329dbbf90fb043f8fc6b9be17a2a3bf0c286b3fa1d24cbf6f96cc3c5599b13d2c0a993e99189abee674883f11412bbf\
  59fe793e7d95e3bea0ebbf3efba107c0cdf15fbf881fadbe9d70103f5f32ad3e8d90753f4ba89b3cfc8b40bf2a7988be\
  fdd9543f8ecfd43f62ee9d3e1ec49abff73d223f751eeabda61b933e499c12be6b1c573e3dd3823f7004a33e39b356be\
  445a953f6a21963f462422bed0e8633f37b3eabe9f79713fda1c7ebf8112913f4949bebe471965be099190bf763bee3e\
  5166323ed8da823f9ae186bd2ee8833f57e4963edfbd563ef4fc883fef81473f04652fbfe683023fcaaa5dbe843415be\
  2196663fb87513be5c2f2e3e7b354d3f463ed2bd75dd6e3ef30048be54dba03fe4126cbe322f1ebfe84604bde7a88e3d\
  53f3833f31029dbd5e889cbef17220bec2d406bfbb0e69bd396b5f3f8147213e4fe8f03d196ff43cf5eca4bea498a53e\
  591b0a3fecf7dbbf06b9bdbe4392aabe3a8590bfd69e07bf4205023fd8cd01bf5f1a5cbfda3096bf7e6fa43f9629963c\
  cc721d3fd7d1d73cd78247bf573ba23e41664bbd7db414bfa9045abf432523be8a6c56bf224530be38c272bff21cda3e\
  87dc2f3f78d0c1bf57970c3fdef7683f5ce18cbe6d421fbf400e43be895b9abee8135e3eb36448bfad9ef0be84bb9fbf\
  fcad3cbfd29d01bee4e3913f8c79b53ef7479f3dadb9cb3d93946f3fcd6687bf2f7b613f25deb13e0c60f53f737af4bd\
  06ae3ebf7c20cbbd26444dbee2fa703f46737ebe86a1a3beecd538bfbef21440c91789bf4411df3fb09da9be40deb03f\
  438e8b3cc75c36bfeb65753f5b56233fb0de93bfa4d9083fb3d6a93f7ded25beba215d3f6e04c8bff6dd36bee70fc53e\
  b58c97be3e53a4bfe0e29cbfa1c4d33e79d5283fdb818bbdb5b5d9bf547a6dbfecd3793f4e0c1c3ea5172c3f81e0443e\
  d31a7bbf783fdcbe67c99abefacecc3ef0bfa63f4968993e2bd8af3f9366a0bf7515813fe9d63a3f84f551bf296e68bf\
  b6f3693eaf0307bf0ebd273f8ec4e73f33a034be540f443ff23ed8be13430abf295ababff53e0d406211a7bda4b5de3f\
  a0e5ef3e4998df3f8e31ffbe38e7b5be140ada3f1001a63faaabfdbf9bb5da3e69b916bc8cecbd3fefed943e8f0135bf\
  7b7f113e8736863fbb9029bf49d43e3f98613abfd7568e3f4fdd5b3fb8dad83d4671563e54603ebeb250923ef73e483f\
  95e6bdbceda0cf3ea2cba3bd9830ec3e3e8496bf6f03363fa2bbbcbd953f573f5dea893e1567603f1f26c23e111710bd\
  91b287bf198e813e3fdd54bf5c19a7be8df878bfee04ae3c38de183dee27183eaca4623ef105983e56211a3d700bcbbf\
  d08f6e3f0a7819c0f3f0b93d9d53b2bfd1bb6b3f4df987bf07acbdbfb654dabe6e25d2be34de40bf20a2c1bebddb87bf\
  c314b43eb8ff993d912012bf4c992d3f5c85a0bdbdaf4b3f7d4e7e3fd35a55bf137f20bef185813f5a5b20be04f21b3f\
  6778c4be6bbe51be9f29babed905a13ebfbd363fd98d0d3f0e7af43e1eeda5bf6e35123e1403a6bdb1098cbfb4f7073f\
  df6eb9bea467b43e370d2b3e62501bbd16cdb83fa227d23c8747463f85626fbf6133b8be25792ebef69f98bf4bc271bd\
  23f725bdb5f36c3f4bda8fbf946aad3f26bb333ed026a53edb405abfcac75abea4dc064002e15f3ffd03063fd729043f\
  0c2964bef25f743f142ef83e4c563e3ef34973bda91a203f93a3903e906ef3bd1eb953bfe58942bf23ea863f4eed1abb\
  b3f51a3fa23bbdbe6a41483ea3e4893ea9669f3eef5c3bbe3587663fdc152abf769d623f60c0f33d7738d13d9dd27cbe\
  40efb53e74ddd63ea3da7c3d0f9676bd840a203f404d03bed991a8bf1635333f40d167bf7847fa3eafea89bf594fe33e\
  c0dfec3e4dc8123ff067debe456a853fb212e3bdb5d0aebe74438bbc77a1233e2451053fac918e3e72054bbf2f9436bf\
  6ba80cbf3d937dbf17e8053fe716643fb36d36bfb1e34bbfe1660abeec35ad3e934c8abf4fc20f3fa863683ff4eec93e\
  08e05b3e4da865bf801c243e62a646bfb36f53bf7f1305bffa11533f112269bf3614f03edd7f073f118f5ebe3d6740be\
  73b678bf2739debe8098213f5802f53e847b4a3e73fa46bf83713cbf9ff3b13e4b2719bf097799bf0cca973dccd6543f\
  4d1f3dbe08d440bf9e24f13ebc3f62be99108bbfd4f9d1befe4cd8be445330bffa30dc3e87a93e3e945d18bf9e02c0bf\
  8269b5bf3b7a02be8e380c3f26157e3f1f4f253c78be1cbf4695123f633ea63efdac9f3ebe01c83eabca503fa5ea60bf\
  297faabfd02404bfee4270bf0e86443c00e7a3be78493cbf90d7c7becd50f6be17da4bbf2c00933ed984aebe4237debe\
  5c13893e0e83603f2c34953e18d4e83d961b863ef049b7bd17ec5b3f578f31bf508e264051cb95bf16bc4b3fb417073f\
  3ea9703bb699bfbe0dea0abf876c663fccaf7f3e7604493f2b8d243f2adfc93f9ab765bf64294040e7b033bfc60b9d3f\
  9614283ec38ebd3e6e93093f5cc39abfdf3539bf2fd9a13e626a17bf3ce1703fbefe623b4ae8383fba8018bfdd26003f\
  781df4be8e7b83bdc169c2beef7008bfe901953d2fd7853b2c3a28bedd19133fed16923fec8e07bfd2e7b1bfb27afd3d\
  6e82b1bec2e6ddbe67a897bc5ee4d13e752eff3e2e0361beb5d9693e0a354dbefc13383f8497a4bfffbde1bf781baa3e\
  562cd6bd34686ebff581013ed2dcd8bebb1abb3e55c90a3d02c2a7bf46f7dc3f1f38a43ea1c267bec5b85bbe9138223f\
  ae30b13a37c6c03faae28ebf842986be3d8249bf49f7aa3f69e80dc07c9b7ebe94aca33f4a94aa3ffd4a393ff40853bf\
  d8d7ee3e7acb443ffe07cb3e55e8843f6284b83ef7e51d3f938e203f9402bf3e494e10bf0a8059bf098a51bf08f4c03f\
  7cd04e3f9e36843fc68cd5bfd5b20bbea2b6eabebaca433fa1016a3fd469813f093a563c4c5e263f6827f8bd1812bc3f\
  daae5bbe130fbf3e231facbe86d9a0bf64d851beecbc8e3f68090f3f747a0b3ff5467e3f9aa7823fb603e8bfebaa0d3e\
  24bf4a3e06e506be78b1debe249a74bfe039393ff5c749bf29553ebe6b60c03fb50fa13e45e40f3fc8b326bf9b76093f\
  2cba0c3d0de8573eb2244a3feba8d43e71e9623ebd4140bfdd9e66bfb2f6733f06e17fbdea5e3bbfae3dd83f2008c33f\
  9b67643ff17673be234f4dbefc7ff73e8974833f001fb53ed7ff5d3f8f9ba73ec90c49bf213e2bbe678689bffe6f313f\
  fe0260bfb10ae63e156a5f3f77b2373e34ad39bf90b92d400fe3dbbf423786bf14e7a4bd599d1ebefe60053f37a34f3d\
  d05bbc3ebd4d84bed4113a3e88bba9bf5eefb8be2c571fc04640d53fbc97a73f91b0dabd6ce6b73e8b1504beb58be2bc\
  74fc0e3c4925ba3fb6c5c03e6f43b93ef94dfd3e8214973f34f64cbdf367cc3e24a28a3e99afe83e79ea063f3b4dfa3d\
  bb867abd17845f3f1efcd03ec13ec13ee6b5573da785b63faa6c883e670fbfbec3a245be138e73bf7016cf3e2d72a03f\
  f4a63c3eb3e30d3f30b4cebd8931663c7b7b98bf7591a93e8649663ee31a0cbf93aacbbe2207463e6a8ad33e725bf6be\
  4c11d0beb0321c3fb9af30bd679689be49d16fbea1a6083ec0df63bf531f193f6a0200bef7cd0f3e8590633f3ad768bf\
  cf14edbf998aaabfb9d1623f292eb4bcd3387b3eeecc65bf902581bfb944143e426b8fbfe46e4a404ad0b53f3b45febe\
  c9882cbfb9194d3fe7a35abf021faabf474297bde2c5703edb7b1d3fae62cabf5f66c3bee3676f3f4ee52cbff88d62bf\
  1e7603bc5a5caebf02f94bbe37b2973e0867933e4ecc023f16b539c03b64fd3ea8dcc43e867030c03a17bf3e9e33683f\
  c2010e3fe41d243e044e0cbfaf1315bf4a733dbf664ed33e1263863c1266b0bfc1d11140d7bce63fd16b05c0691df6bf\
  b44e3e3e1e145c3fdfbdab3f4edcac3f52c7f4be4ae33d3e650fff3e48de9ebdaab725406babf53e06b9193f13f79ebf\
  55181cbe3169443f819d4cbe7feb87be63f55d3fe54ee93f6807cd3e84b39c3f1fba1cbfefe00d40c732143ebd23debe\
  d6e6333f146f0b3dc41f8c3fecf8213f24c75abf88413cbe1eb187be14230e3fb1f00c3f75320bbff9b3c23e7024ab3f\
  0417093e46baa8be9a57d8be26a4aebed4bf65be41178cbda09c3cbe6610edbecdc7df3d74a35dbe5b7d4dbf45b0cdbf\
  d0e4ed3f56205b3fa02f933fabeeacbdb23edf3e538d833e1b5e0ebf2417103ee41e5e3f6421383e9f97273fb1d75dbe\
  787a19bc08a0ae3ea4df0f405c17aabef869a03f581d823f1858b4bbedb14e3f3650813e9531a8bc5e8985be46a52a3f\
  69a7f33e385cb0be483778be8f389bbf45e28d3f467a9d3ef24d49bf42fed2bc19ae4cbe55da41beb171bcbffdb4863f\
  ccf22a3fc2918abdcd28ae3d93096dbd67fcbbbd0d35a7bfb05ac2bf68c7bb3e80c0763e9704953e97e930bfe9ba0e3f\
  e992433ecda1623ef76943be5db0553e8c48433f5f196cbf30e246bfba7352bf04dc073f4971f83e4b67ccbeb9b2f8be\
  4dbb60bef965113f19df89be4f4eb73faf128d3ec3176dbe4dbf283f59c29e3f38a6863ebb08cdbc0bf651befce5143f\
  06d0703fd2fe9d3e0a4e8f3fa7c4b83d77d9bd3e8b5e39bf32a4e4be1ed9963e807c19bf1cc44bbf73c0cebe5dfa10bf\
  121abbbe34a675be4737ddbe2881d7bdf8da7a3e39ca34be82c59ebeb8e41abf0d6eb23e9071fdbddec570bf4544343f\
  9fc38cbe6adf74bf2d7bcd3e05150ebfd49e8fbd4d2838bfcf686f3fa182a7bfa542c5be0f998fbfff7a49bf5db9cfbf\
  a39828bf14bb643f1b50b9be82b709bfe8e1533f4ff460bf9bea063febdc30bfa20f9dbfd6cbe13ea8b0933efa9c463f\
  e991f4bdb332a7bf657e8ebf2d59c9bff406113e8d71debe0aef7b3f6d7f733ec6b6dabf3dedb8bf06710abf1638cd3b\
  51bacfbebecb013e21eda03eaf8fbebe07c4783ed7da913fec1e4d3fa6d70ac07011653e3df8d23e2c0dcc3ecb267d3f\
  0076b63f6eea793ed452b0bf5240cf3f263f2fbf87d36b3f780d9bbe0b1cc63f556bb93e08c94dbf789fb03f6baf763f\
  aa2183be38beb0bf1452afbeed8d2c3f823adf3edfba0f3e8edca3beb6c82dbf85b48cbe999c11be0ee65ebfab8497be\
  333f713f8fdfdd3ebc14b33ef5eb08bf22c02cbf9571aebd22599fbe9093d6bd54ec2abf4d69443ed3b8e03e3bb9373f\
  d32b9cbe0611923e3d01b6be89b77fbe91350e3ec01fb5bdebe6823faff34c3fb6b1343f7f2f36bf65fceebe407e10be\
  cb213abfb2f9a6bf1ccb353e47a94fbf11ae11bfb60ba93f44662fbf5d949ebd59d87a3ed51f8b3ffc85993f22f34b3f\
  f1c99dbfc9674c3fc9ad1d3faed90640599fa83ed3aa9cbecdf6893e3e7b1a3f0be334bf7892883ff15afabf3ea9af3f\
  8fea9f3faba175beaa4bbabf78b450bfc086fe3e46a61c3edb6ca63e3d22bb3f4aa951bf734ebbbf2361c6bec560953f\
  5175383fcb5a513ffa46a13f0648a1beff8321bfc881e43e6a0c8ebec21f443e73f73d3dd10e97bf2e9767bf72c5f63d\
  c81f17be83adfcbe2340863f640392bfc5e248bf84d1f6bea0190a40e5597bbfb70629bfb3e1d5bc65378e3fbb8657be\
  59d3b03e69c7f63f0a0655bf9f45223ffc81503fe40703405aa4f6bdc76fcd3ebfd5913f27e58b3fef108bbd2890863f\
  1a4ff7be8112a13f2244c83f80f02dbf8a85233e7b53aa3e360c85beb71d1e3ff70a4c3fef979c3faeb8523f16b205be\
  0d7586bee6b831be45980f3eae671c3fb6af8a3fcdc62a3f1c17d5bebeb5c73ded7eb8bfc1326e3f7a5811c009cdc2be\
  811c58bf6296d23e0f023a3e411d05bf98612f3f3c314dbe846b58be16563ebf47beb33f8a2becbf6a6845bf700a79bf\
  45547c3fd09094be4d4e28beb21263bfa032163f72feabbf9107d5bdca2778bd0f0781be76176cbee12efcbe328ab9bc\
  dab97dbfbf6e233ff9105c3fd235093f4af50dbf07defdbee07bbc3eac7e16bfe7d5a7bf1e6718bf983e983fc440d7be\
  0fd77ebd3e32fb3e33376ebf57d5de3d322171be6f7a03bf876523bf65b616bf4b0056bed4e58b3e5400c3be6fe2693e\
  365e4c3f3fc683bf00bcbb3e919e1d3f3e0f4d3ec9b080bffee3843e684c3dbfba2472bf3c9ea53e590ec2bef9da163d\
  62a1023fd26ce93e1e2277bff3e10abff57611be8ccd3cbfa7d2833d17b0bcbe435ebcbefbba63bdb7ec17bfae8ddebe\
  6dfe47bf6c23eebeab24d4bea7e1fabeff77b8be9d2f803e31a7803eed41f2befdf3be3d74499c3b4b71ccbe7532c0bf\
  7eab023dbd8349bf8734eebe60ce1bbf11ee47bfe40f0b3fa8d7c5be35c6553f5c135fbdd36163bea07603bd4bbd80bf\
  35ab983feee0823e8b17573f5c4a813e5128d9bdc3949e3dfc9367bead6892bd65ca263fb333983f8314753d9a00b33e\
  540de2be3317393f640d51bffe334c3f9e68e0bea38b8ebf8ad38bbfb5d68cbc4473f13f800e643e0aa4d7be2dcf90bf\
  f675503dbd64a33eb892c33edb0889bce2972740c60b94bfb01a02bf943aa33fb213a1bf9c65c6be1e266ebe86b771bf\
  83597bbfb0cbabbefc0e713e188d1f3d077ed93ed958353f0094873f7e3e92bfc8978fbe21fd55bfc921aebe953082be\
  a682f13d5125293e9a9abb3f3ac067bfdc0f4dbfce37ca3feadd3dbdc37dac3e1f6cee3bf33ea43e9feaffbd8fad113f\
  b0dbae3e145ea43ee92362be601358be661303bc7eaf6fbe9c72a6bd9169b93f6467b4bedc80813d803fdfbdb93b513e\
  b6da1c3e099a943ef77ac1be3789cbbdc511b53d55cfabbe6dd3793fa94b953e8e0fabbfcdc1cf3eeb71473ea4eac7bd\
  b1e909be875c90bf18f282bec6d185be43fb623e41694ebf2f079dbeba036dbe64b9a9bdaa61313fc607f0bd79c2463f\
  cac1cb3e1ecd923e6d65c33de3f7f7befdc3583c37b564beef707dbfd7e8eb3d1fb1b9be36e180bf80bbd1be2e50963e\
  0d5a313fe7b4753fb9e98b3e8cfe3dbe51c3803e334691bd90d580be1fc9b9be28bdb03dc478313e6daf9dbf4d19b93e\
  af360c402828be3e101ec9be3dc2833da1e394be03e88abe7f315a3f453181bfe73bcabef85eaf3d527979bd34efacbe\
  4cde003f9b4295be992e0cbeceb829bfbd45c0be680af83fc33bc03ea66e613f97fc193fc40e34bfd92a123f536c6bbe\
  454b0d3f9577f5be57c5f9bea0b4c8bf6c67e0bef9e3febeae38ba3e468e8bbf7a7dc23d02908fbfcbc61c3ebe7026bf\
  0eb6d4bee5a11dbf8b139abffcf608c0517258bf4e64d6be06d5db3f6d30a8bf1e7b084087ea12c062d8813f21399e3f\
  e180113f19e58fbecd40023fa0561f3f33a96dbfa797a1bfb430153f2c910dbe379340bf3e9876bf597fc4beb6d266bf\
  dacb103d9e313fbfc4223fbe809e643d9b9c7fbf87fdba3e47dd723ce14becbef94614bfd1db14be385b7fbf75fc90be\
  72a483bfc430043fbb15423ec8e40f3e114584be67a724bf39c6863eeb2b063dae25313fa2bddfbdc37c963fc41a22bf\
  5ef2183f26729bbed602a53d262c37bf787e2bbf1c11ddbe713e443fc2ffa8beae968ebe19e9b43f60e8db3efd9831be\
  e7f61fbf6725d83e846f2abe6e87273ee3f4873f88223b3e875b90bfbe6c2a3c32086ebcb292f4beccace63e4dfc59bf\
  505a48bdafff53be44172c3d1c85813f2cb0b4bf6dee29bf393cce3ce3e711be2678043f2d5d98bdfc7dde3e9dd7173e\
  f1c528be0ed65b3ec4903e3ec96225be1caf153fd4fb10bf73c08ebe682e55be851782bed30f743eaad9bf3e9d51083f\
  3214113f8d2d033e0d32673ec34f913e774a5c3ea575ea3d06e8a73d2edae7bb49823a3e552a903d4fb9613ff9c5b23e\
  9b5e703fdfcc09bf21942abf78278cbe5f5dda3d00eb47bfc5c3d1bfb3180ec0971ea43f7352a8bfe94ee13edd0a51bf\
  772205bf3d58143fe20a28beca48803eda07a43f9454aebfd9ed4bbf7a14a43f693298bf591eeabf96c347bf6fd0513f\
  91fb9dbfb17795bfdb6219c03582a13e2800d8becd10513f50430fbe3663bd3f39dba33f697ddb3feaa6193fd0b2663f\
  0428143f53dd8ebfdd2d1e40e3d4c2bf77de1bbe36ca88bd01d42cbf5e74bc3f5fd3a03fa4281abf1025eb3ed9bd493f\
  be4288bf88413f4004f6dbbf1e0ac73f810411bf157bcebe85ddaebeb8f6c13eeb1420bea876133fcf3f4c3fad68b43e\
  ce610b3fa45b67bfecfd86bedc8d27becb4da3be82a26f3e9f209b3e065fecbe689e0e3f65eb893d8bfc953eff5d54be\
  433a0d3f0837bdbdf7faf63e289a06bea5b6513deefe2e3fcb430c3e13bf25befdde913f1275ce3e80ed873e8f59e63e\
  0fb92b3f719795bd1e1247bf5ffe953ef8f9af3e9a0d82be7c3e4dbe90c9d73fbf65c7be443d4b3e219c10bf29bda1bd\
  b25271bf213b573f761c92befcfe83beb61cce3e718a493f13df533f3a53f2becca7acbee87d51bea8901a408dd92f3f\
  c53e9abff4553fbe08cf533fc47d573f8c77a33e5c547b3e698f713f4fe84abf792e823d8be15e3e77dcb2bf99897cbe\
  4ee0f2be755e873ffcfd203fb076913ecd8d2abf639e683fa4bc203ec047dfbe0677373fd95b3bbf4506333f6d58a2bf\
  26f717bf2094b9bead6e3abf0286d13f4617093f9ba42cbf3d9ca33f1d7c2d3ffd538a3f96c781be2fdd4abfdfd9f1be\
  62559dbf45552dbfcb7ab73e2f768c3c3d780fbd7411a53f79efa6bdcaa40d3e0c9a85bf942a084090531740af5afd3e\
  03bf69bfd94eff3e18bbe73eae3ac43e87c1a53d38ca72bea601a83e7cb1b0be415739bf2af0e8be22c0523fe9f4a43e\
  76be23be132783befe77cc3d8859a63fd9d146bee4de833e7b29a2bf6ef85c3f0845ce3e8d58a8bf727210bf9ea5003f\
  d8d26b3fdc2a3ebecf7c8cbd077aa03efeaa313fb2a724bf25a8cc3e4e8eb03d5c3223bff1d1cfbec5852e3ff6e802be\
  973b8abe5fda32bf0d3b75bfe3d2fdbe7be5c03d19d617be1aebf7bdf87074be5385f1be7f22633e7da5d03e50aad8bd\
  027b833f3a9ababeaa9c28bf466190bf5b08493fb86517befe978abfa437c4beaf5d02be5f9439bf69e9be3ef378363e\
  a917f33e88c2533fcef2f7bfd3eb7ebef16d5dbe134acbbe2ddd7ebf882e603f533cd43e262203bf1050a63dfbd82b3f\
  8428debeb6801ebe24234bbf5d75ccbe78b88f3f5dda863f2ad18d3da9a971be48aa8abeb6c999bed011a4becccfeebe\
  d8fe1f3ebe99e93e7a0ae33d74db853e45ecb93ef6318d3e7f84f83d2a189abe9ee3513dc98160be2f9bc83ee1d0633e\
  e996b5bfed28a2be97238abf6b7b203e96aa2840970bef3ebf53acbf37a52abf3e9a6abff01dcd3d231f7e3fe32460bf\
  88e2763f53eff5bf3b0e3dbf9d72583ff5c20ebf3c08d6be0e7c893fa480a53fd774a53edc21b13fd823773e0f881d40\
  df8b0440560949bec7cdd63e31c01dbf1babf5bd661cc63dfa0088bfe94c3fbf3ad5553f28b9023e4a550f4035d890bf\
  054db93ee9fc28402e48393ea10a0d3e5529843e93228ebe281d6e3e4b27b1bf2fd5b8be8ddec63eceaab7be6b46ef3e\
  0fd7fb3d3b5208c09b09553f90f5973f0f80913fbdfdc9bfca190b3f9c1e22bd09a80b3f6a5645bf92684d3f9563b93e\
  d6b881be0707e2be7ae12ebf90f01fbdaf09443fda0c65bfc1facfbf3c2c013fc81735bf0954b5beb90e16bff02136bf\
  69eb303e24fe1fbecfba5dbf6c9c7cbe66b2a7be3c4049be0c53423f58a2953cc998e0bc90a8c2be6586b0befac71bbf\
  9d64f03d64bed8bdcd741c401884eebf4c06d73f8ccf88becdcb23bea0f14fbf44ab49bf3fb8a2bbf9f92a3fd63947bd\
  16c463bfa79bde3f847e6f3e536fa23fca2a0cc0a1b5a7be20fbc83f2ff0e53e837e953fe354c5bea4efdbbeb539203e\
  97bb063de6beefbe47fbc1bfff46d4bd8e2292bf0212073f4995093ff67219bf3377ec3f9757603fb0abecbe3914453f\
  18dbdc3e8b6614bffa02e43db7986cbf4497a73ec7fea1bf498e833f673a273ecf0f07be12d56cbf2251f8be1f869dbf\
  929777bf4b0131bf8dbb3c3fd937733e4ef96e3eab30013f015a0ebe9ba3cabeb4f5a8beab6ea5bd457fa83e034ad2bc\
  984b753ee701c03fcdf78b3f3801983f122db83ebb35cc3e52c4533fac42cd3e40e5bf3ec7bb06bfc6e9343e2035c53e\
  646b4ebe03cc38bf13fe273de5bfc5be9c1e07be0a0087be692735bd9ebe28bf64c72abf86b5bbbdf4379dbc6d078abc\
  4a0564be78ffccbeab18733de79f5bbf9c19843d395363be67ddcdbe426d2e3fb7c127bfa1c77abd932625bdaaa79a3e\
  650c4e3e46d7ba3e4330593fe444b5be1233623e9ecffcbc9827503f413fadbe66c7263fcf52113f6faa1abfb305bb3e\
  47c01bbf16f1273d792f2a3fe637a03ec5d97bbf2beebb3fdff795be437aac3f403489bf102178bea7292e3e30890abf\
  bfee753cb9d879bf799ad33e83477dbfa5f100bf23e2013f8a82fd3e3e8844be9147e73d2175fcbea0c2a33f838fc8bf\
  ce10b9bc7b45783eb96081bc7b950f3f6ad51abf3dd1c3be9617e6be53f8b0bee850dabca6962ebddbaca33e6e1943be\
  338d9dbfc5756f3bb776afbe62bcb13d34cc1fbe6fc9d9be57fa46be6f3caebec6302fbc1795523e6107353f730acabe\
  a31e253dab70c1be24e8733eeb7796be9dccb83e0e2be73d3423d5be96ed3fbf2b7decbe5954483d80f0493f5d6d353c\
  2b5403bf7975083f3b38b1bf5e97e0bdb402093f81d37a3e2f8e33be7544f0be2b48843f151c03406b5a2b3f6d7c16be\
  24db70bfc92396bda9992bbe200332befbf88e3e5f3f0f3fa62847bf8b0bbc3fab829abc5c5d8e3fcda4833e688dc93e\
  986fa93f91f6b83e439e87bdee91bf3e8871913c257fb83d9179b73e1c4f543f324b3b3f9e29b9bf94dd8dbf599ca83e\
  618b80bf1ade90beb66881bdb70b43be98d84abebe6d453f4e424cbe7268d4be25143e3f6273babf9f9207bf118df4bf\
  550ea73f8822a53e789693bf3c2c76bea8fbadbf2050b63fb3e98dbf5ea48e3ff52e9a3f37e4f23e10150740121c813e\
  c43d8d3ee846ca3eb8e8eb3e90f103bf597a643ea9fa72bf138a283e2979e73efd46aabfc9b6a9bfe07b6abfcbde8c3f\
  3b5c6bbf736d15bfc7b7acbfdf64eebca39d523f50f1593f87c37cbfc1fed13df27a78bec6fa6cbe06b19cbdbd195ebe\
  0a169b3ef0ca7ebf41d1e0bcbfeb80bef6df823f49b62dbf4ca60c3fab40a43f5a7489bdabb82d3fccb5acbf62f7993f\
  5a975bbfe1f3343ff616003e523f8c3fef848fbdfe66963f113f793fd399cf3f5766633f7e410abf39c2563ff9f18d3e\
  98fee13f874190bddf086e3fb920b2be4f220e3d1fc578bf9e0a5b3bd6de853f4cc16cbeb19616401bc760becba2b63e\
  fe24a13e83baba3f127f06bf06653ebf1ca8043f10565c3e2876683e5c42693ea1f7afbfc7b984bfc436053f39eed0be\
  f027fc3f8576cdbf117ade3e9c6cbb3fc098653d7831bfbe3884843dcac5cabeeb8f56bfdd2953bee96d57bff88aa63e\
  81299dbec6eaa7bfcb148b3de1b642bf060b10407efcc43fca138d3fefb41c3c78a556c01b44f8bf1f1a153f6459993f\
  63405f3ec3ea37bee36cdfbc1e244e3eed3707c07cb43a402e24f53e5203353f1df1233c35720b3fc62b343e343e84bf\
  ab4d9cbe006f403f9c8d1d3f34ca2d3eb518493f128cb33fcb0ab6be276324bf1da94d3d5ce724bfd39a8f3e187e543f\
  99e699be78d768bfdda5dabfcd574f3e6c6d89bf2868fabf078a62bfc8c2283fc5b5d83f6ec38cbe595472be9cfca7bd\
  2d1b95bf64fec63dd3eca93ece4669c0ec299f3eb5eebdbe813fa0be32dcc3bf9e733bbfa1a3e73f25596b3f0a965a3e\
  84c206bf24ef6a3fc3b896bd71d3a7bc35f656beacfd58bd4341173e92d4c23e572d4dbfd6e2793ff478823f7fc197be\
  b93c0d3f9d6c71be979a933e6ced673f2c0ce4be68f2343f6948013ef36dca3d2d1501bf368303be1d29fc3e65d3fb3e\
  4a4ca7be98f64b3f51ad88be118df4bcf044c4bddd0c443fcc43c13e33c6573f9f8fd0be1e844b3dee9b51bfb806413f\
  ccc7ddbdbd35ffbe894e023f31c0bfbea1b10c3f94a78c3dfdc0993e31845ebf8b28e63ea79a883e9bc0963f58b0c5be\
  047e863f7ebc553f1bd76bbf6840793f50911ebf62d6343f84b4c13ff09394bc4d484f3f37a093bf69cf2d3f73808c3f\
  db1497be372439bfe539973f842be23e7f29093f79018e3f4548bc3e0cc9a23f59815b3fd531493f1c32ebbe19098bbf\
  6755393ebca7ffbebb4c0bbf46f9363f07d51a3e90695c3f1c1d9ebfa806bfbdfbd856bf256aba3ee46953bd867f853f\
  9144d33e623f283f4abc31bf092d51bf8de264bf5022923d49c6cbbe0d9723bf593f3b3e352bf3bda968d43e6e75403e\
  6912f53fc5c9e3bef38a303feb00e7bd235fb03e026480bf91081abda11e673f642469bf125afbbe43c05d3e2d01a1be\
  acf8d03e6a7cf2bfa181213ef3fabf3e6b228ebecae921bf7fdb52be37bca5bf1d52e3be748f0cbfe7a817bfaf397d3c\
  95c9b53e56592abed0baf4be9d4cac3e5cafdfbc9b65073fa3177cbde1b065be348dbf3e62648dbe0052123ff151913d\
  07622a3f212862bfe0d501be2cd4593ea97bec3e27fdb5be4eefea3ecdb0103fde5d27bf5f8f1340dc1e08beeec52a3f\
  52ef88be0fc10d3f5fa055bee12412be364250bfb29c8ebf1db148bec13429bf2b6f733fbd8fae3cc62d8dbe35b6a5be\
  2d1164bf6bc4c4bfe314993ea9c5b93d67a9913ef86a0c3fd8652fbe0fb1acbef801a5bd5e1dcbbf7a08c13d9b769c3f\
  8fe087be0dec72be40682b3f65391b3e5bce3ebf20bc983e2176163fa2cf263e3b551f3fb4bf7cbf94e69c3e242b18bf\
  6b87243f354b28bf7c71fe3e17d8413f4ad61cbd6dd32a3ec8fb7b3e9e01023f5cc320beea90883f80950dbf928c50bf\
  c9a774bf632e403f544db13fc51c08c068f6dcbf79c561bf75dff8bd819acb3fd1a805bec3d3293fb4b8b23e33fb1a3e\
  61c322bf62f480bdfab3453e6c384bbff1dabdbf8ad667bf96d501bf372fd0bf9224afbe28c9303dd7926bbea57951bf\
  c6085ebf852bfdbe95e78a3e88d0a5be530413bf3e9b5e3e1faf4a3f6e8642bf3208a63eb32818bf4f22833f21c86dbf\
  068ede3ead9af83d798432be7194babf885fd23e5e0327bfe5c107bf7b14fbbe4db3bebfd6dd0d3fb2f88a3e740ca6bf\
  bb371bbe661ce83f187b9a3d7c4e0d3f6cb5d9bf38d0b13f789ea5be34b9e13e3e13333e788914bf2e155f3d0cd6813c\
  405671be75c16cbeb4f58fbd23f9b2be09d4b8bd7423b1be8398813fbb03bdbb7202933fcc5dec3e6b632dbf7bdfa43f\
  c74d1f3fe967153f6a4c15bf80fc5c3fa57513bf5e680dbf6bde5cbe4a7ccfbe8c93753e0823563f545922bdeff10dbf\
  8741543f10e4a73e6cd9f4bebef7f93e36af873f89089cbe3fb7123f754b8f3ef632193ffe5a963eb3ec80bfb479e73d\
  e190483e50a007bfd19a0dbead4c833fd138abbef4174d3f6295603f10591c3ef7b5153f192757be2e1b04c07eef16c0\
  32b0793fbed1423d2b9b4ebf78d501bf35dacabe26cf843e64e189bea1f4f83f51a1f23f17a4813e28ec59bfa760873f\
  178c8a3e1a42acbe8e9e90be8f668e3f9644553f8e1a16bfed0ffb3d8e3abb3f3ceff23e1c7505bfedebb3bf424f88bf\
  2b6750bef65ba63f4bc0993e50c1213f277728c084fea03ec3429ebf76837fbf01a07fbd19198e3f88590d3f54e5623f\
  3082543f08bb0abf00b412bf72a6553d7c188b3e423101c09df3b73f3c17da3db35b6dbf7df5fdbfa1a870bf0b83ef3e\
  07f1a0bfa23f0b3ff445b23e2539043f07d4e2be1709cabee38df7bd909c433d8bbc1a3f86ddbe3d579ee2bf1828673f\
  c2e126be3a76e8be13f2da3ba3e30abfffe80cbfa45a8b3e7b6ebbbeae7bf2be80b78b3f1111363f1c2f253f67db333f\
  94655fbf808e3fbf155c6c3fa745ac3dd2861e3fb23127bf7762b33ee47582bd31b632c094af343d551dc6bf3cb819bd\
  35dde33e3e3c063f1245103fa8ab353f2a13333edd6783be0ad2073f21f399bf43c1963e26ea6dbe6c42e03eb80bfa3e\
  b2d5eabf589298bfb66dc7bec3575c3f582bfc3e35eed5be8ae8d63e79e0df3c19c8323f7a1836be1c3506bd31168dbc\
  8b94c4bde8aad83d13656fbf9720bebe39a89ebfe6841ebf2b9c56bc86dc4c3e0c6f3b3f5b3d8c3f13c6573cb469823e\
  c3ae92bf1207c93d8bfae73dee6032bb2e9c763e746032bff9523b3e32e32c3e5d983b3ec72429bf7d762ebffc4b80bf\
  61e8d4be5701833feb1c6d3e404506bf4300863f41eb84bf178c1bbf78a5e13e25951abee9a756be797485be7cee033f\
  f12140be5b814cbf6bbe1b3d0ec59abee38a22bea72174bfb546793fc37795bf1436acbe5bf2163f1c3ebcbe05322bbe\
  e32e2abe6a834a3eae6fe2be508e29bfbd8ea7bfa697373f696db5be56bbbfbfea038dbe3950ffbd8a3272be67bd9ebf\
  e97059bff4c1343f95d7493e61ee503e3f4cc4bed482d43e8b7f043fc7df723ffc17d43e2c88853e4d0c473ea2758cbd\
  713a703f15ab4fbff820773e5531173ec5c7243e5b34883f6a60f93e262bff3e6ba4423e3eb3bfbcdb4063bf641c4d3f\
  3580d4bef5bb9f3e619f89bf35b643bfd3bdf3be82d92e3f2f7d873fd9ebe93edd438abf2ef3acbe87dbb13e370a343e\
  9d4c1dbf8419cabefb9b203e462998bf0e40b2be2e831f3f3ba15d3e820b81bf7e2d5b3d796eca3e908d793fd9ca953f\
  7d9fd4bd8324003f6731ba3e1e739a3ef03117bf51f31cbf2401903fbc98b33bb7df883eb4054a3e341bdabeb1e6953f\
  68fd1e3f0be4923ec604a33fd7a296be32aa493e6150fbbdd63730be189dc53ef2e7bbbf5b0ec6bf46ff863f0fdc72bf\
  af940d3f6e38863f3a9e883e4be5483e9c3bb7bf29cf593f93ae7a3f704ff93ec82bf03e7c00dabd733a19be3b0c1f3f\
  e3fb60bee6ba51bd3d47993ea076943e97f6853dc259d43da345a2bf23c84a3f76a3313fe28b823e8656b5bebe9a933e\
  71bf333f86db6d3e1b21a23e4917123f5b329abe7ef348bffbe002bfd972c03e628b8ebe6a99173f9043d73d795f94bf\
  7d36d3bee994e2bdfb62d73e4979bdbe7026c83e0870273f850753bfce10ecbee067b0be3232323e81a9af3f87d0a93e\
  e7c8c0bddebeab3e0856fa3d1931a23efc489cbe64cf15bfe80a473fcfe283be6e215dbe888f6b3f42432abfa76e17bd\
  2642d63f8b90e1bec5fdc0be0a667bbfc2de0140f69d9dbf2bb5463f0e97aa3faa55a23f94277f3e04af813f2107a73f\
  254f9d3e6d80a13edfa74cbeb6c159bc7712803f11f2133ecb9f26bf123f88bf2173373f8e2158bfabe7893cd02b2d3f\
  5209c63dd56372be92499cbe21eef2bf8a7b06c07acea83f21d3cfbf191371bfad3102be855129bff295863efaa4483f\
  c68686be754a393f685da3be15a095be68909d3f8d0e75bfdf6ae43f61f1353f83a38b3f58364bbf81a8c0bdd65025bf\
  6a0ea63fa88158bea4c437be6975edbe7ade99be1c03b83edb646cbfa87108bf9b57d7be5e0eb9bfc1eb10bfd849c1be\
  ee8c733e70dc01bea73f133e4bfb963db8fd18bf41e8d4bf1eac6abd4a6a2abf444d203d35efbabf733745bdd599183f\
  47d75abe15026d3e48177abef1a37bbf381d263e8ec167bf96031240b2b006bfc71deb3fc47fa63f18e5063f6b2498bf\
  18a9283c6c38e1be390e1f3f463aeb3df2d2b23e66f9cb3ebcdf62bf82ea1240398330bf09c7613ea2aa913ecc2b0f3f\
  b5a38fbe27ebc43c29dccbbfa8f3b23daca0cd3e969361beab725fbc4d8918bf869e5ebe9d0aca3fd1f3a93e9dac2ebe\
  82ea8dbf9b4b74bea4f4d6bd021425bed53c27bf5dc43ebefb5c12bf7c854c3fdd191dbf39faeabe77b5e4bd2f5ee23e\
  a60b133f27edeb3d87d8f9bef4ac7c3d90a85cbf377e38bfe28e273f13b57e3f2c11c5beab7439bffce969bf44cb193d\
  7f310bbf24bc72be41af423e2a1b04406b0682be794054bed258dbbed3a001bf97e16b3da90f25bfecbe233e12eff4bd\
  54520d3e429b0b3e7edf45bfa8af15c0f2032d3f31088dbe8b1590bf79a061bff8eef93de38cc83e875139bf4081dd3c\
  2b068c3eef8a81bf7dd8d23eb7d202c04a7628bf5818fe3e6d281ebfa91e6ebeb248813eac0755bfd18c0dbf6360a0bf\
  988b19bfbe37a5be57dab3be5ed1f5be0b1281bf26a8bd3d83722ebfc2ae03bf1ca5e93eb50134bf5ba3b63fca7f30bf\
  cd5bde3fbec2f6be370d353f184006be8e2e26bfc0581e3fe9dd473e39cea93fe41ef53ecd6ba53fb16ffabf5cffe83f\
  cc4e62bde821dc3fc0a5c8bf462c34be7dc2ed3ae68b743edd0c13bf99a416bf35b335bf5bc7d73e2978fabef119d13e\
  8c16d6be47bf83bbe789e6bed2b54a3e61555b3cd067243f8c5f9f3eaee4dbbed73700bdb24c16be1425a03cd87785bd\
  3d7284be7d4b223e36f8013fe1161e3ebe7a4cbff7dc0abe106854bf0822f5be2c01cbbc454877bee06defbd5aaffabe\
  eac913bf6860d43d56dca8bf5acaebbe46ad89bfe90c0cbfe554c73e32fc833d56a7443f81b9ee3e6388913d528f813e\
  7e32673f64989dbfa2dc023f42bff0be8482bdbe7831e9bee2b786bf654d11bf53da90bf5c741c3c3995a5be6614ebbe\
  78903abf5ccf1d3f0c63dfbf812cd23e8240d6bec950803fefb925bdbbdc9abf860a013f3c69603f847821bf394112c0\
  dd0f223f817196bf1e74413e6bd7ecbf9c46ee3cd36d22bfafdea4bfa3c78b3ef61d8d3ed84afabd5cbcec3e9a9ef83e\
  6d6ed43dd715433ee34e4d3f5ea7833d4a397f3ed3caf53efae58cbfeb6b0abf1f2231bf3ef4e93e4345d43e695e363e\
  bc05423f15cc1040be980abfdac15f3fdd8e4ebf7462d93f93f2c7be3e35a7bf2179d5bd33a604bf68c5f63efe693cbf\
  ef2a1cbed0158dbf3a6971bf692b683f8c8eea3e3b6904bf3fdbd8bcf73c0bbf88fb203f60f445be577df4be9a03b83e\
  d861ae3e8156663fbf970c3fda33d63edff2b0bed25ae0bed9ada43e031b9c3a1a491abebe7026bff98b9fbf4a168cbe\
  7e938bbeccf7063d2b06183fd10003be665419bff8ca953e1f94083fa556303f48a20c3f01a21dbb9ea9323f6cd6ac3d\
  18dc88be6162b53dea1f2e3f1da39a3d9f30a1bf78f9313e0e9132bfca0029bf044c18bf8b6fd9be145b3ebf0cd4053f\
  d69dc03e7297c83d4fc022bf219c03bfca4f0e3fe49c323fd46ba83fd7b4103f128c623f6fa77dbe69fec43ea1c0d03e\
  683caabeefa5813d63b67b3f707b893e2579ac3f6186593f0723a9bf05bd053e48b5bb3e8d50e13f409f513e34fbd73e\
  32f873bf715f58be4847023f49c47d3fe9209f3e40266cbdb10dcf3eb7518f3e78b297be64db373f8ff1c5bf2cb3f5bd\
  3b00cfbea08e56bee7b4373d1099123fdacbe93e56e248bfeafa6dbe1dcf71be6e7bce3d9bbd87bfae66083f405ed13e\
  1e4828bfe9afc6bee2f7c43ec19ac2bef734a8be0a08a1bfd4352abe2e5fdcbef3f9a93e6b15aa3d2abb57bf8d14c7bd\
  edbae93ecc34a9bfbe5d29bf55641abe978f08bfeb7f6e3f703187be85afa33ed58595be4b496dbec2033ebf489214bf\
  9da8fa3dcd83a13e71a4353e2f2edb3dd5151c3eb29bdebef5f9383f893009bf4c114abe4466e4bed378ad3f646fa9bf\
  a113ef3d77cda93ee9be63bec631b1bf1f7e59bf132849bf47074a3e7895fe3ee42b72be4d9f4f3f5de4833f0bd4a13e\
  dade6ebf0f5bb13e44fe2e3c7103143eb367b93dca5b6f3e5144803e235054bde363aabec054c3be1b59833d0cd8ea3e\
  5050793f9d06a23f31a0a8beab84bfbfab37e0bee804513e34b9a4bf74c0893c5d1dc2bd9adc04bec6b6aa3ec5bdd4bf\
  953624bf8de024be7cd4d03e7c0a3dbdab5fd1be937bc2bfd256d2beb945b43eee5c0ebe90179abe42f696bf588659be\
  072676beb8ba9abe19da543f48f5403f38096bbf9bbd25bf020f183ece34b83ef0a8003f67ee263fa4231c3e24eba1bf\
  31ce7f3f107a013fbd202fbfd680adbedfd546bf333ac5bc5ec885be477f00bf4e43533d2e58d23efb1217bf179d333f\
  1a9814bf9741a3bee2b2d73f4f193c3f087e02bff700513ff2539dbe1f721c3e18bf66bf1f2e91bfd41430bef92c1bbf\
  05b5f63e1f1e48bf6024dcbdd3eac3be06f5373fe26186bf8f629ebea113a2be8028183fcf78803dbd6e01bf2498ea3e\
  5c5b4cbe242d993fb4418fbd9d17da3eb257aabe581728bf17e78bbd7e95d63e13bf9c3facd76f3f7fed3a3fbb03763f\
  f1901ebf3b4c36bea8a47abe150c7e3f97ecd43d09255fbe3666f9bebef920bf6bb4a43e717e08bfb9164b3f608eb3be\
  0241adbf99329a3fb5de513e496c55bf18c2cc3e2fa1453e9648a93eb9c913bfaff473bd3bb3163ee3cbca3eee91df3d\
  13d9b23e790ba93e031d0bbf11b0ebbc7fce64be3a0b163f1cacb03fbf3c8ebe0e741dbfdd3585bf1d5c15bf18698f3f\
  025d1a3d615cc53e4afab7bf1fbaa4bef33696bf47b5f13e5da826bf0e3bdabeaf8cc13e22cab9bec7956a3f0d26283f\
  f2fa86bf05e78f3fea0ce33efcd098bf6cd8d0bf8558fb3deb05563f4b2291bdb3dd15be9ec51dbfbb8f2c3fc6281abc\
  4e70bc3fa24faebe01cc5f3e1acaa23e4fda903ff32482bfc8f785bf594489bf05fac03d571fb2bfae74bdbf270107be\
  a21c12bdd473983ff93965bf27fb6dbeee38fb3e582c0ebf1c26bbbe2b387ebe5abab33e30e1a63f5890edbebb625ebf\
  14b3db3e6dcfdcbedf3d8a3fb3ebaabf8963ae3f450d65bf90aa893f227de5bec0fd2c3f2bd38dbf27f3a33eea55e3be\
  657070bfe4ab1f3f1503b5be98bfaebe5e5c7dbf2900523fe87eac3f86e2093f1b7c01bff3dec7bd44192ebffbeec03f\
  01a2e6bf936cb13e61f2943fd3c6973fc00e0dbf149ad2bf45885f3ed1cba13f2c18e7be1b2f94bef1b877bf7b30b63f\
  087fa43edf942c3f0d2fddbe8a1cc63ceb10ca3cfc43b03b5659113f53704d3e830767bf7024303f5d6099bea95b913e\
  96d7303f5b20eebd474453bf92a068bf11fc993ff662c83e17da78be88f0b1bf6f462cbf6956fabc56cd12bfb1fc0f3f\
  efbcf6bc694c123fd456273e774d81bf11ee89bff8d7613f508f1cbf04249fbf0cd25a3f0175bcbd9f7ced3e881f79be\
  b9c4e2be7cd6f0be72948d3fe5ab20bda119f4bee400b2be657697bebf3ce5bdf0bd0c3e80bc23bfe06d0c3ff0ee153e\
  39b5cebe5ea094bf0919d6bdeec4c43eb746773d41f1b0be1ac10abe19229cbd3da1d8be5032aebf25655d3d3adac7be\
  2e661f3f695ce1bc9f597ebf07042a3fa798d6beeb1b473dc15b453e6f4c26bf1a80813f2b98023ed437e43e63a928bd\
  0802ee3ed7e778bf6d602fbf418b203c42bf703f285ee23f9a225c3f2668593f246c9bbfbbf8e43f09ca21bef1ebf1be\
  8556ccbd88d6e03edbb086bf0cc8383f951c47bfcb547ebc8b2c06bfdddf04bf86b26cbe7f9999bfd5956f3e8c415dbf\
  d4f92a3e2d3611bf26c41dbe19d75e3f75d7663e34d36d3dbf19dd3d7e45d13fcae7733f5c9af33ef03906be8cc40b3f\
  c122863f187f9abe926264beaf4f763f0eaa4ebfcb128abf356aa73e0d76debfc504823ebb694d3f675aa2be02fd533e\
  a462c8be6a9d033f2a151ebea7c172bf602b89be3f8f143f65e89bbe552aaebdb7237239c089213f5a40103f5d702b3f\
  555bcf3e236d403ec781ee3e5a9f123f520b6f3f5efa2d3f14ae3abfd51d3b3ed56ec23f3801cf3e42534c3f2f41ab3e\
  fbbbdc3e91a0043f2257aabe8794bf3ecf0ae1bd3b7595beb6c8063fa9d4a73b3ea88bbe45b0d2bc0daae53d6b6a1a3f\
  758be1be30032ebfd02b22bfb41eafbec2a2ed3ef6563f3f45b3c63ed87649bfc8b7523fd7dbc43ec61f2b3f25caa3bd\
  0b0d5a3e632539bdfa9f583f2e72a1bfe4dc55be5f8bf73da49706bece9b98be11061a3e30f6a3bcf9256b3ed56ba4be\
  7bcc4c3f5603e3be52a36ebec305753925a63a3ec86bf83e5e1dbcbddf2ea4be263089be0dbc73bf74b02b3fffea48bf\
  b5888f3b649831bf373d5abfc88a2dbfa370833ecc40b43ec67aca3ed701313d1997a2bd4a3b1d3ec64c12bff224c3be\
  d4d504bf16f3e93e22aa61beb8eec4be2ee5f43e9009503eed128bbe8d8722bf72e9463fe91e36bfacf00ebf8bbe42bf\
  c22cd73e38ed11bff29d133fc970473eba1d133f40b99abf4596f2be140923bdeb36dabe908ef43e976b29bed027ad3c\
  e630efbe4129913d4c2b5e3fc6752a3f4b218c3ea8da8d3e2dce42bf9b0c4dbf5a01b0bf86e323bfd9ea32bee0eb4b3f\
  c647dc3e75cc203e915512be83f923bf27789b3f2aec9c3e32d6b93f0d7408bf0b1b14bf5841d9be740a4ebfceffe83e\
  0c2a11bef1909f3e913ba3be7b95d8becfcaa6bd3281833e3ed5033f8757de3e6c66193fb66809be15c827bd56be07bf\
  e7cdbabe047e2fbf6ea8813e25362cbe9dd59a3efa2d08bff6f226bfdf3d723cc7fcd83d200e173fcb254c3d8da5adbd\
  777e2a3fe2858c3ecd99e9be47935b3f3291dfbe2732063f7b9f1dbfd4c297be9efcac3e995d9d3d366553be3adbb0bc\
  4bb485bfb513d13efe62833f5e98b7beb7d2863e066ecbbebdb0fa3e08461a3eb08fa13e624ed23ffbf101bee5d434bf\
  b34a6abff757eb3e0bd780be998b22bfc00e01bf36b4cd3ed20151bf14ccc2bef3ac923eafe6993f889a803fb94698be\
  fe4a88be6dc996bf1f4c2dbe7222313fc0d21e3fa257083ebeafcabff789cebe136bbabf618ea5bf84efc2be9bd0b6be\
  99d9cb3ea43c0b3fedc38a3e3a8392be425d84beb8bc803ea755a43b762de8be2e1ad03f83212c3f217689bd7b2150bc\
  52f12abfe052f73fc47a223e8782dc3f365f983ed36c5b3f9a2bde3e6a169e3e8ad7b33e9a95c6beecb5573fc343433e\
  d8e9d1bf5269a93e64d3783f8dd2aabf539a613fbea052be1af9ffbbe9d8403f509b1bbf13b6b13fc05b263f20b0043f\
  4f55a9bff5db04bfcabfb23fad69ef3e9b4c99bec6ea253f5cf8063fea308dbe9f5c983e923b6c3fc6eb8abffa44ca3c\
  204907bfc203903ec0dfe9be372c16bd6b3d29bf8e9e30bd2de7cabef276e1bfada7023f9d9580bfc91085bf5bb1eabf\
  ca09823ea13d22bf0ad3b4be50c6253e03ed5d3f8c33f8be4915313fb288aabf793d6dbe7f18fdbd1d35f93cbf57293f\
  fef2803f67b883bfdc7f68beabea9abef492443cbd0593bec85d51bfdaea28bf069a20bfac5382bfed648cbd24890cbe\
  eea4c0bf5ccd89be1078073e7b191a3f11d368be29a2c73f7245fb3e788ce73e095bbdbe70cbef3ee86ab43f1ae6a3be\
  1f10893f1c1e3cbf2a0b66becc7c01be8924febe4e4cd7be5db69b3e1ba0cd3f6aba7abf167e843fa49fa5bfaa441040\
  af4109bf08cc303f132babbf384123bf7a31453fa566593e15c8013fd1f5e83e039a24bedae3c13e1bd496be8d5aa9be\
  3617fe3d4ea6a0be4255873f959e49bf3d7115bfd69ec23dd73cabbf403f8dbdd9769a3f1f2d403ff5ce60bd169bc0be\
  911e03bfbb4447be1b97903e9e34513a16852fbe6451debd4b241fbf3215643e9d92123e548189bcc34214bfea3e02bf\
  4420493f64c172be9c5a243f36eadf3e7894c93e1c7ae7be7d7dfabeb14392bfd64e013ead96243f020aaf3d0d0e8c3e\
  4c5148bf7eecf83eb42532bfbb6c17be2c5ec63d962d933e7b38b03db66c523ee3ebe2bf2bb3a6be2773c83f5dbaff3e\
  55b1353fcb9451bffe2e5c3ef8c7db3eaa86d8beedc49a3f1b2b0cbf35eff23e36bdf53e6742ccbe5f4f08bfcb19813e\
  d8319cbf9579c7bfe2f6513f3ed485bf4b70f83e0cf6573efcc387bf62e13c3d7dd9cbbe28037f3eeae2913eeebc4b3c\
  e40ad1be90779c3d508198bf9498a13f1d3b5bbfdaf024bf0d53b9bf497227bcb0f4bc3e3ad673bf303d7a3f39e4f5be\
  a4277fbf32309dbf834502bc036a9ebf59785d3fe03edbbd709ce2bdfe8a92bf5ea43fbfa71cba3fb3dbd73ec82229bf\
  10b4173e02f9803d9a5c1d3f9bd96f3e271e953f64c6843f5901b9be2bab3d3f67b2143eaa6aa83f6c4d00bf8206abbe\
  a660a53e3352a23f731c17be06ca473febcc853f7fdc383f2d9b5d3fd024573e9eafa83e1f381bbfb1d24a3fae48d2be\
  3bbd38bf64661dbd405284bd26e3b23e607d15bfb2acccbe6d2a40be631db2becc0b95bee42d82bf594db83e912a4bbf\
  beb285bf568b0abe0c12e9be8aa7dbbe54fd083fef5b52bfb8452c3f744014bfd776b5be65cd1bbef6ecdf3f259359bb\
  203b13bf12e0683f08ebd23e684c3bbf4523ecbc5cb320bd5c8c16bf24cf56bf6916213f5e9eb5bdd63d4abf3c03a0be\
  d12f27bf8e1519bf8f776fbfbad5c1be91c2b73ec2dbc0beb6de2bbf7f88c5bed431b03f23963a3f0ae7f1beccf2a0be\
  e5c38e3f6bec63bff0d30d3f9c30dcbe5e37ce3eee74f2be801dfb3e309c75bddf51823d05b59bbfdf1dd73e00ce603f\
  e6241abf22b0a1be8c4a64bf2c744abf85691a3fb31b29bfaec56e3fb2da93bfccf2523fc2fcc53fb8c6aabf3694d1bd\
  255e22bf21cf2a3f3106073f8d184e3f905b2d3eef4b953ff576ad3dc662543e484e5a3ec472fcbe2e4c1fbeb9a522bf\
  b689d33e45af343f590f3b3f15394cbdaf729abe5d54623fba12e8be237184beee7acd3e48acc83e81b8323f6c7ffa3d\
  b06f5abda19b483fde402a3e5d8aa7bee7d476bee2f2d63ee6fb25bfca1b543d00bfc9be79994abe91cf27bfe6a3d03d\
  cc8cdabd9c23b83d03ce4dbf83fe233d773cb7beb1d0cbbddaec343ff7b4833f169369bfd2cf31be242a0a3e9e8ed53e\
  627d163f423ac93e3d3fa6bea9abba3d1a3383bf30d01f3fb662043f2900c33fd39986bee14d0b3ededfd53eea383e3f\
  c23c963e1b5db73ac75dcfbbe2ec80bdd9bc14bfe2c538be590536bfa7768cbebe8b02bdc96058bdf76d793ed5112d3f\
  e81d163f051df5be160a6dbeb2922bbfc48669bc6b2512bfc2532e3ff4bacd3e50b5c83ef84d0ebfbe3ab7bb4c68dbbd\
  a5bdc93e93a50abebf5666be84df853fa5f742bea7e91dbff87ee73c7f49e7be911f42be772050be2467073fe509c5be\
  04dbddbec9c3e73e57d50f3fb84841bef3994dbf502de53f1611c5bfae688ebf1cae023ff65203be142713bf14ef7fbf\
  0c6b283f8b9afcbd2133573d8853dd3fbade8e3fd2a3863f1d3c823f7a53733f180099bef92728bfa00585bffdfe693f\
  85bb583f57203ebf1cd2b6bfb19e4a3f93141a3f0cf5e13d4e28d2bfdc650d3f0664efbe9649853cf176a7bd9dc8923e\
  356f8dbfd761e13ddefe1cbf3eab7f3e76ec5dbeadcb5b3f13abe13fcea8403e27773b3f06c1ce3ea5579bbe64cc9dbe\
  360600bf381035c0aacbaf3f606797bfcb7eef3ffa34dbbf29d736c0f22d7f3eec5d3bbf0964a7bf64a9483f570003bf\
  7085b2bea5c6813e66ac193f72d1b03d06e479bf8f7edf3ea592433ef2d2953eed118e3e0e07db3c7710afbb57b0e2bd\
  1f05fa3dc477b7be778e06bf46e6d7bfa7a0b9bf1483b23cbdaa563c7771583f5d3e653e205a58bd2139bb3ecc4d8bbe\
  b6b47e3ec2a97f3f97fe78bf1f52d7be1f00353fe32b87bfec76103f2dadcb3e261710bf15b3413eacb9603f57593f3f\
  e8f3fd3d8848adbd2c6d42bf0fc0603f7480363e3554a03f390480bcd37472bf67947f3fe8e4e53f13a1ac3ffbd12d3f\
  9933b7bca5a48f3fa9087bbd7cf40d3faa9c8e3f689d603f467449be2c24d13e838fdcbf45813e3fe280323f2fd7a1bf\
  c60898bf46cacb3e11d3383f74af00be3e25593f59518c3f24669b3fbf7c02bfaace8dbed788be3d35f48a3e70fb003e\
  021b3f3f435ceabee62c8fbf17a9b33fb79e0c3d6cddde3e78728c3dc108263fea491dbf8527c43e8c468cbfc12edebf\
  df3aac3f211b4cbfa0955d3c6c2f9fbf49388c3ff46823c04efb9bbe5def05c0e57f643f824f823fa810933ebc6a303f\
  6dca5abdf7e02d3f1dd00c3f358dcabef5cb123f4e5ab0bff3dadbbd53c4673fa62888bfb5c0aebe1d0e373f3c3981bf\
  5596d83dabff47bf767b4ebfe8487f3ff38d343e8879b13e9c189bbebd8ec03f43b7b7bd9ef6083fba25fabeddbf79bd\
  dd8f1b3f78cb0abf0af794bf172636bf8e880bbecdaec3bee21cf23f43d484bf53f54d3f3447f5be7a3f8b3b0acb50bc\
  a5b5f9be7e1562bf30d728bff778d4bf3a85a3be3816d33e80f5973fa81fb03e8486503dcdb381be323ae33e859cc5ba\
  6d94c73dfe6a143e1c2a9dbedf70913c8ffbc13efca7a63eb15cdfbea697efbe10655bbf23d909bf64f6efbc588a653f\
  7754563f62d3963fa66c0d3f3d29d8bdd6f7b0bf910552bf70a52d3e22528abf9c63c7be17bc013efbd91cbe70128d3e\
  a2136b3ee9166f3ee63f4fbf76b539beed8e92bed097c43effe2a2bed548cd3e379ebc3d20d0d63e9b722c3f5bd9dfbe\
  76d7a93e2858393f2073ee3ea3ecc3bee442b83f5170bfbf44648a3d7051073fa6dc8e3ff756e9be4fb9553e3ccc0ebb\
  110de93e378c69bf13ad4dbf2337b83fc785933f274b293f291623bfae18363f73fba4bc65df28bf39c9193fb67c6bbf\
  a612053e7e8182bffa1012bf05885b3fed95aebd6688ecbedaea4dbf24018cbd68fd163f1d27803fbf40c23dba61df3e\
  3a09f93e10b41cbf184b01bfee0cab3e3dd7ccbcd534e2be1e01edbee848a6be87b0853e87bb90bdea9dd93c30e196be\
  416fd6bee287653e72bc41bf7659543d724a0bbf281ef4bec85a173f6cc757bf3f1474bf551e823eb454f53e5207423e\
  06fa783e427f78bf2374333f6e7f0c3f67b7f6bb5ed378bd7e350c3e71e31e3e2a7a55bc71559a3dece4febe15e756be\
  9a0c65bd2fcdeebd69a99b3ef35d153ffc95a2be2ccc453f444e35be4b6e80be7f67b23d4f44f93e01088e3eb08cc7bc\
  f627e1bd5fed0fbff6c95c3f0ccf463e12da0fbf49f031bfe6e42dbf5ee482bd03e21fbf62c3513f5f8fcd3e8746c53e\
  59fa79bfdcc1d43c8da81cbf6c66c8becc9139be89f0373fe9b814bf952a3d3e63f128bf5aa6e4be09a30b3fd41699be\
  3ab600be4ff088bd50f1b9bc7e6681be06ff0d3f439e6bbf72f8333f7545ab3e94da2fbe6f25373fefed7c3e6294533e\
  930213be6a649d3c0c76463e32a4053f98946b3fa49d84bff7a58cbfbe1f97be75dc343f9e9d6fbfd6a153bfaff94e3d\
  271ab03e5f5b85be1cc29bbe4bdc8cbc5ba8a63e9f78debc7ca0c6bdff616bbf1b635bbf5ca5b63dfb73503ea68bf0be\
  b765c73c7eb5e4be828a57bf549949bf7278a73ee11ca5bea9374f3f4051e23d8e38e5beabd00c3f35174cbef33786be\
  b1eebdbe38a042be12e1283fbb5ff1be0e33e3beafc3bfbe9fa14d3ffa7c8e3cc4511cbf71a3d43d5c4a9d3d33f295be\
  e2840e3e4dd7a33d53398d3e49b592bee30f52bf85d822bf84a0893f55e368beb5668fbf80bcaebeea073bbd1b2272be\
  eae0dfbe04a1913e00c2113f7ad4493ea0fbb23e083dc93ea72bfe3efe4d03bc9ac7163f36698abf5f81fd3cf25a5dbf\
  1ae1823eb827ffbd5d0809bcb3bc863fd4637c3e7e6da9bec4e2c3bd25c6773f4ad1013f7e62f33e9bf7a2be39b5acbd\
  4ea4e03ed542c1bf633c23be58ccce3f3735a4bd1e96b93f58ba34beec121e3f1ce9dbbef4ac973cbec978bc689b2bc0\
  8e4ea4bf77c158bf3f731c3f208a09bf6749a5bf0cd0b6beb25b2fbf1708c4beb6b5fd3d39a3dc3f48d36a3f24d5a6bf\
  f48154be8fff043ee257293fa553523d67196fbff1d4dabe5241743e4af8ccbf9041c23c3296193f543b45bf1180c3be\
  a46fadbf58b5b5bf77700dbf301d0bbe21a0173e84df65bdb99768bff25b873fabe75b3ed9a847bfe7aef83e06d34bbf\
  5bd453be29e33e3c989fcb3d9dc99e3edf9fbd3e86569dbe8e5847bf18433cbf0a2a553fb2c2863fb18e80bf29c20fc0\
  73efadbf2ee4383fd8178d3f63987a3eaf71d4bef7f485be4c9e5cbeffe1273f38d1e23e26e03f3e9137eebd4ab050be\
  e8920bbf2f6f3a3e82394a3efde819bf4cb0843eeaf004c0d6aba0be21291d3f097f70bfb33f3bbea6da4ebea9f3a2be\
  7fc0a43da773d5be67ee073f12c1083f1229543f9c157bbf9524d83dd797a2be611d82beae8290be4c86ef3e3c585dbf\
  1a992ebf5304f5bdac14683e0eec98beea8f7dbf5163e93eea4fc63ecb8fc1be60767fbda83037be0d20c03eb1d934be\
  ebab833f4b09853e9f338fbfd71b943f34b5bc3eb5c8263d9214b2bcf593603ee21004bffcbf1c3ec9c2b53d2fd3b23e\
  0def8d3f7a505ebe9cb40fbff039bf3faf70a43fc0662ebfefcbd2beae14dc3dce52353fa3bf943c46cc82bea110293e\
  f943243f72dbb3beab7bec3e3234413efa23a2be8d2b3fbf4ab9d73e930598be838909bf4c05aa3fecc74dbd589b04be\
  be08a03e9c7d0bbda60f2c3e298443bf09b7aebc0314b7beb0556fbfd5b92cbffafb4c3f2943b7bf46fc573f5efe6ebf\
  a659f8be33aaa9be77ce48be449d1e3fa68bc83df780773e108b653fea0f29bd460f38bf443a09bf0cf0b93e1a79fb3e\
  c39619bfc7882bbf8b9640be7097e8bda8482d3f413195bc9e8d1bbee47cb13ed61f90be5e7e773effdcaf3e11fb27bf\
  4065b23e81dc51bf24faeb3d07b70c3e0e8535be635f78bf0b36a9be1c19163ea46098be038ed5be45425ebf6182c03e\
  3100563ee350df3c634ce03fd2418fbe702021be01bef0bea42c3d3e2afc13be4ef5943c9c88873a2bf61b3e776f4c3f\
  cb2880bf20ae6e3fa4ad013cdf75583f7f519bbf4a4fa8bd66f2c03e8491463dad838e3ffc4744be5977503deee69f3d\
  e989edbe775eba3e48cd573ef9c9cabe4bd25a3e0f438abe9c121cbf41da103f9e062a3f621f1c3e046d003ee040433f\
  531fe7be312bd03f8e6d6dbff36e883feabbbc3e931e153e36cd2f3f8c1f7fbee77f5fbd7fb0693e87f4143e43c0cfbe\
  35de2cbf0abfd0bd578ad5bca7020abf904c623e272033bef27903bf8ea4e6be6c92a6bf562af7be9cafaabe6d4fd63e\
  6111403eeef233bffd88513d300fa4bd8667653eb610a5bfe7de2a3fc95ee4bddf89aabc57769c3efaf688bf9b93e93d\
  bd7e0c3f0baca33fcffe2bbf2526053d24dfc63e0a56203fd398bb3e507fcfbe176770bf11f0753ff75e47be78dd3d3e\
  f8f844be71e4803d00a8c63edd4e19be7303a7be7d7b173ff4afcabe0a620f3f3e44913ece44c03dec21c6bf9b5b513e\
  66bcc73ea6dc9fbedcf6c4bd2799823fa7f9d53ee9044dbe1926e9bee266b7be161d97bfb398a03da89771bcd643f23e\
  2dc62e3f3df6f0be8a6a2cbfe3a48c3e04901e3fa9d1b4bffe58a03b3f96203fc092283f54422bbf505001bea935423f\
  3f2da73f39ffd83eb9f0653e12542bbe5520d53b1893a63dbb2e033fd5600bbf85eb343f195f013f7a9a2b3f405e813d\
  1b4409bf345ecb3e486e0f3f2f18153fbb994e3fc87c1e3e903956bf29b81d3f85bce63d315b2e3edeb0e6bd7d63693e\
  d9ebaabdc62223becd1e74bf2c0a423f6ba831bfc9fb283e1557ea3e18ae22be8405bf3e67219ebeaa1e923eac95f7bf\
  104b26bef714abbeaf3898befe7320bec9512b3fe4932d3e829a6e3dd39c503fd80e2fbe456a90bf347632bf0bcf253f\
  27ecd83f208612bf71222cbff044a7bdad9ac43f74ba18bf6cb7a53d9efa793ecb051fbf67fdd53ed9c74fbfee3f29bf\
  3443a2be7b43363ef6cc4cbfb1e6c0befd5524bf612b9dbea04d2a3f17dd2bbfaf030e3e2b7b81be30c318bf6f6e90bf\
  bfe216bff29eb23f4a52e6bdca21043f02988b3fc04ca73e09d58c3facbaca3ed86a2cbf1ce44abe0d89bb3f565d81bf\
  44da603ea51c413f7532893f964807bf6bbcfbbe96a5e6be081a4abefe6589bd6dac41bf2fae8c3fd0e147bfb424963f\
  960aafbee765a5bf21430dbe47849fbc4800ca3dc9834ebe91e9373e00d72cbf8537a63e01e206bf8bb359bfe869fb3e\
  5dbeb23e1ca8f8bd1cb3ecbef993b9bf87da92befbaed3be722cb6bf2b8223bf34a84bbf40a126bfaa8b93bfe0be73bf\
  5592fbbeeb5c40bf7411873f8e06dcbe84664abe85300b3f0a9d3cbe281283bf1d44a63d1d996f3e89385c3fdbad0cbf\
  d9da2b3fe6a539bfb67be73e30ba2cbfc4c14cbfb8c3883ead54dbbe3e390dbb6e3077bf814c7b3fa76743bfdd0d733f\
  5bef29bf11d2e93ecc145cbfc5e3733fb57585bf2c6d993e8105a23e1d5a383e4d9720be568e0fbf51d9cf3e5fa2a8bb\
  4c00983e4f77263f5527b83ed04090bff8251ebfe14a0d3f40ce52bef18f863db194423e0b20803d8f767d3dcf51a9be\
  98b2a9bfa572c93e4137353f9ad5fe3d3c0e9f3d5fa10dbfa8c95a3e77040dbfc1aee8be7a59d53e05f9903e31395c3f\
  d1b67c3fcb5f22bf76ed513fbb850a3f046bc93c83f00ebf7b993fbf57669dbe7a0527bf67a4ebbe8d8d7cbd4996b33e\
  792e48be07a3153f5c6945bf5a835a3d9a5d23bf240d223ff731473f2935563fed14bdbe103681be2c08f5bcc3251b3e\
  4088b03d0899b03ecf9dbebdf5d11ebff0f9833ebed9903e5173d63d59bbdb3c8866163f518ca53ea86fcabe2ca4c53e\
  3b2c473fb3b42abd017094be11e54dbfc30e92bf3c60f1be743201be5b8aee3de7b73e3f9d10723f22afb4be6f046bbd\
  84dd353e5eff94bd84d054bf1d8f5b3fbd32d43e1530913edfd80fbe65c85c3e4d84593d2625f83cd70e88bea580863f\
  e14e193feb87dd3db7c528bf730f55bede3a88bf96c5c1be870ae9be3852203f74a3d6be4ce67c3f3a1e9c3ec0ff41be\
  cb41103f971e113e9755c4bed5508cbe4d4832bf73295d3e2a7f483e7cd29e3e3d17163f993bbf3fdc09a33ebf08d03d\
  4ac79fbe701dda3e6cb89d3ef5d2693f4d92b83e48e50240442cd4bd17ce0d3fc8b2c2bbf5f9c5bf68755f3f56d4a4bf\
  e9902cbf3a15243fdfe3b33ee58c343fc41430be12aa133e69c61fbc8915b3be96e1173f5543953ff64887be87c90fbe\
  fede8ebfcf6ef9bf4e8f15bf32e9513e3103c13c10deb33e900d253f3592973e2d3b41bf1cc05bbfb286b33f2b8f53be\
  476c93bf0c11cabf3572903f142e7b3dcfc238bcb01d48bf8c6c6cbf95640c3f872e333fc8a8a73f7de5693f5c2aefbe\
  4ed7f63e76d9eb3e963f933e16fbdb3dcc1b393f6733733f6392febd344f93bfcf3b81bd9090ccbc4091d8bd16d42fbf\
  b881bebe142369bf3ac2673f17894c3f1c59243ee8a702bf708ce9bf7bec2cbd4c5198be3a46cabd26b681bd152d853f\
  0d3f95be0c54113f95d91e3f2a7094becc928bbf7ec3583ff95280bf2f23aebf97ae21bfe378ad3f6f39e7beeb6002bf\
  584892bf8d30313f444376bed625f23ff6491e3ff3bd103f0651a43eded73bbe8ada933e25f385bfe263003e020390bd\
  686571bfb2b91f3f89da29bd9d6ff3be9e6240bf2797113e65cf573fe7298b3f957d363f614a0abf7a92423f2ed8503f\
  831a6fbf8a01203dd67646bf6cf4d3bd200c653ea8fe3cbf500f973f4fd708bfed7e5abfbc4e2f3f98a90dc04789aebe\
  a5d700bf48827e3fc0926cbe25ef473fad629cbdfda7ffbe2063ebbd521829bea3be233fb06591bf4b52ba3ed3fd05be\
  ec4bdb3eccda8dbe2785cebe01b73b3fc630b13ece33d1bec40abdbd5d790c3ffd618abe47ea37bfec24173fabbfa2be\
  cb71963e0d21a9bf2ba5813ec9a06b3e23c691be0780e6be90b6df3d8d0769be1383eb3e9fc46b3b459bd4be4f790bbb\
  ee3cf63d02ff34bc2660a03ea2ddb9be1de0b0bc15f8893e356a6a3e99066e3ef0438c3c4bff203fd7d6efbd17af00be\
  dff7023f84601d3f084492bcafdba6bde21705bf6e450cbf4029dabd4fde2ebf2682663f5f6d103f8d13ca3ea7ac8abd\
  fc5db6bd82ba3f3e6ce9a8bdbf3efa3dcae9463e5bfaafbe7e7ee93de74aea3ef48a063f9945443ffb2c2d3f2b2a6e3e\
  a4824d3f8ef71c3f0175373ee77e1d3f6414b6bd777c1b3f745695be49303bbe42db343fa9979fbeaee9b1be285ec83d\
  c0ea353e41734bbe3960bf3ea2c6e83eb9c3c73e751f1ebfc1b17e3e75a4eebe54bee4be71c9623f488f59bf51ce843e\
  146cd1be492de5bda792aabef35614bed2691ebf23e6b23d85515abf14205fbf2f0efdbed0b002be40e794be2e38313f\
  2202b6bb1b9d78bfc91bff3e0d3d16be217ab5be8364e1be1f1b863e1b904b3f0a66b33f1743463fab59a0bda76840bf\
  a148ce3e4e158c3e98e3b93da59d85bfd5aa8b3f7c8be5bf26d8b63d0bdb2a3f3fc5f0be9bfd29bfec0e19bf9c23e93e\
  9586e73cac6908bf3451943ddc89e1bd8e540e3e214f9cbe8168743d147affbe2218333feacb96bfdd5d94be3f4abdbf\
  1a98823fbd932a3e8397643f58f1f1bd8f2c223f138f3b3f6dcd173f4708ee3efa0b9cbd524565beb17be4be3e41043e\
  34f2dcbee2c0343ff85a2abf23c6223ff5922d3f3a47383fb363b03e84cb8e3f16f0323f7c4d81bf96c39cbf1b7287bf\
  eb25bc3e50968cbe226c04bf9dba5cbf640624bfc156263f3063aebe3de2094073f3213f27e631bf82841dbfe09c4a3f\
  dad817c0422975bf8aff9d3f2a2a05bc33e6bcbfe0e8c33e83011cbf292996bef3853ebf19d6973d136d56be00a29cbe\
  b9b503bf50cfb5bfd2cf633f00e079be48b8e4bf5aed4bbfb35aa93f98646bc0099a7abee2c5e13ff50205bf930e0b3f\
  0654a13f59a607bf763088bea7737bbf056b923f6f4533bf49becd3f2162073fcacf1fc02b169cbf60f2973eb827653d\
  ca22893fec3d8bbf98cbeebd1fed203eb070ddbea0f5b73ebcbdce3d1c2f9c3e21ca363f8590023fac990b3ebf4c193c\
  3e97c63ef8a5c1be09897a3fd9d1683e739e8bbf600635be76a0823e9cb8b33da4acc03e99bb71bf6998d33da644223f\
  2f583cbeb3f9b2be81efebbdd071243f397790be4e2c8d3fecd73fbe7fa6b13ec97d7a3d7d5d2bbda29caebed6e48dbf\
  3b0727bf3d6670bfd187023f51bc1d3e750b88beca336ebf123574bf833afabe20c47abf433913be26e17abe81d6723f\
  4f8834bf43502a3fbfa5253f98e1c73e7a56663d43b8e73e08f871be32252dbd8ccfbfbd40b898be217d8b3fa3e6c23f\
  89b3f1be316ed43eb2ea69bf546ca23ef74600bfdd8ed33fea23913f8a11c33fd53c173fbc3f443e3436363fbd5c28bf\
  416c91bdd625bcbeca1c1b3fe7ac8cbff04fbb3e4fa42b3e9aee9c3e9fd4cb3dddba803e4bbbdc3e523dfa3c82c23ebe\
  b370abbe618914bf724529bf67e83ebf1c9c2abf007fb53da5bdc43e03cadbbec0dd433e2b18053ee6ca823fd2f276bf\
  52e02ebf4815693feb03154055d1c2bebcfec0bd390438bd982f523fdf59c93e07425abe40953f3ecdab00bee19bc43e\
  93f5573f07c5473cb7ba9abe7e9a253fe639253fb4caafbe8781cd3f1d03263d68c633bef6eb3cbf48ba2f3f28a105bf\
  3aac723e30c2f83e1d66c73ec446103c1d002ebf63b1423dd10065bc568a473dd566cb3e6855a9bec6e041beffd4af3e\
  2ec898beaf0c223e30a51cbf9fefc4be7726e4be72e59dbd93c6c93e0bb9763f1ccd3ebf7628773ed618dbbee44b1e3e\
  088692bececb333c1b8aac3e5e2c47bef45030bfea299cbb5bd2f5be74025fbff95b593ec8ebafbea20437be0a92bf3d\
  066a7dbf7d062d3e174b393ffbcd973fbfb1153ffaf9773cb568fc3dc6ebde3d1efbbdbc5c25c1be6c6058be8f5e6e3e\
  cdf7a73d7b1a89bed735643fde1d87bed067dc3d335e9dbf3e7825bf3e391abfcd4b8ebfc83a9bbf8675b43f318a7ebd\
  71f250bf4c41e4be8ac92cbff0a0ed3d4d886c3daf6418bf4a4ddd3fab7730be1dc28e3f9e4733bf21750dbf0b391a3e\
  6c940ebf44e359bf0766733fb727733e5d9f60beaea7a3bf91ab99be07c37b3f1dbe1e3e213b193f01eb4f3e3861dc3d\
  fbc1573d2e3d1fbf2fa319be866b103e7974423ea8c30dbfa8ddc2be1c42323fe7d8033fedbb65bfae991f3fa567c53e\
  91b3333f0db28d3fa9721e3fc497d73c6c9e0a3f23f7283feb6f6a3e12b9483f778d133e7f9ca23f01b194bda4208cbe\
  6e073bbe298db9bea6f81c3f387915bf6bbd39bebd4c3dbe3e91b2bf911a76beb3d280be53bfe53e9e9a57bfa37a4ebf\
  64350c3f30e9a8bc1a2f9a3e595d80be8c186bbf18a532bfb08a853f59c531bf67dc5d3d1c669f3ed8a6b5bf19f1c7bf\
  84b6903f4150d4be5d4f2bbfa3514abf35b2253f522e5dbe357eb13cffeabf3fa011623d703192be925b4ebfbc48dd3c\
  d73713bf135d423e95b2ba3ef7b1a33fa58bd53f1b53eb3e77dc73bf2655013e08d1a9be24dc50bec505d53bcf0dc6bd\
  079f17bf0fabdfbda7b2a53e828dac3fee25cebfa51490bda080be3fe1b088bfe965363f35e8333f845e293f69495b3f\
  d4be36bd6eae12bf4a306ebf6608e33d7808f13d6fd56abc79f82f3fbc8bac3d1214fcbd682178bfcd23c0be3fbb4d3c\
  b86c693f5b59c83ee7a50ebf76917c3f60d2f13d6b5a743ede6f953e4fe89d3cc89d4ebfd8503bbf89ad683e5b2e91bd\
  957a9abdc1ef53bf5e6a3c3f8df8853fce8e77befc1bfa3e25f6bfbc383cf63ef0c1023f9aafc23ef1c2a83e4e71bdbe\
  7a9558bec0ab82bf3d7b053e14d7dfbefa3820bf021f033f6376033e1b96eb3ee167963ee6adb1be0c44ee3d93dade3d\
  60d18abf607b5ebf26af10bf4ae72c3ea46d9ebe8b66073e22781bbdbe8f1fbd323b82bd9cd8e43d14a0debeff0bc3be\
  d625bf3e4ce9be3f0bc31fbf6a85efbe005ec93ed573b23ecab1263f53cd23bfa4c50a3f8e43c53ed45de6be12ae063e\
  6ea631bfc766ee3e2257383fb7b6cfbe9dbe75beaf0fa23df4a5d23eff30023f40f2263fae9f823efb2283bd33947e3e\
  4f7bb6be4454273e87f519bf608f5fbddcaaacbef0e8153f8c8744bef90b593f28b50cbf6d361e3e9a69a33ef620e2be\
  4b5d9bbf46269a3e1b34233f591b263f13847f3d11a693bed8de2b3df99655bf574df8beb3d28cbff97aefbd842beabb\
  856d333e4290bdbe7ed1c03ec68e2e3f15807b3c13996b3ee30d4bbe314c973e8dba8fbc368bb43e0e86cbbe357116be\
  c618223f80960d3fa5a82dbf9225c1bec1a9843dc3a702becb19c5bf41494e3c479f9f3fc90e82bf7d4c183f457843bf\
  ec6e6abef57494bfc58812bb0481d13ef997833e551586bfd937083f7c6660bf6c231bbf54bd6e3e3e7a833da511a43f\
  62823c3fccf8133ec08fadbed5dcd5beef47273eefe621bf7a1dba3de41abb3e2f4ba43fd1a4ddbd4756793ef58e983f\
  875788be0ac73b3f2b29cbbe7117cd3f103933bf4d9280be93da603f3ea067bfab60813e53e8fbbf41d42c3f2d37833e\
  66fa11bfe00d01bee2ec5dbd37a7c03eefcb793f6e54e2bfc6d62bbfa334a93fd83e1abf02200abf66ce17bf99d826bf\
  781c3ebfb7e68abf13ac32bfbbf57bbf545d1fbd1f5f97bda3e303bec5ed48bffd24a5be3666ce3e284214bea728083f\
  1b88ab3f4b079e3e77f8bb3f778195bf6dcd253fe972e3be7823c0be455ab7bd750253bf973c953de8c29f3f86e0083f\
  065654be0121b53fcd4b42be7922653ede244fbf5da52ebfae9988bef4ff2ebe294cb43f46b12d3f947821bf300f29bf\
  e57889bee1ece53e2b02b9bd635032bf1615b63dc595a9bd587545be40bc05bf8494f93ea9d1003fa844613eb716bdbe\
  6654843f6a6fb7be4e4128bfa991a9bfa60b31bff06a42bfb765393e9bffc93e0c82573d0f36afbf17c642bf20d49fbf\
  80a3253e06a93abfac26243feb8f6fbe6594b13fea0baf3e7ae7363f4fec73bf46dbc63cfeebde3e7d65f9be15802b3f\
  6a55be3e78c80e3fb66adbbec4300140da05c3bea6cf9b3f136514bf9838ef3e792d903e334f923ff57776bfcc3ee5be\
  0d34e4be25553e3ec631c8be5d4b853e0188023f957f1b3e2033203ed19c033f54c6c63e4c7c803f0ece613e236bec3c\
  4b96e03e8e12593da17c283e1623e73ecd48013f0049d3bdfcffba3fa0060a3ee5027dbc19c16fbef59995bd84da03bf\
  0555debe9eda2e3e6151f5beda7e1d3f69d0b2be1a618ebd35785dbfb934813f15e3b5bfd97337bfe47dbabed570ddbd\
  edf32ebf36ba26bf81c38b3d7bc414bf196fa53e129492bfe31f883ec1e01ebffe336e3f2cb8b7befb56cb3d2017703f\
  6c49963f2542943f458c1c3f53f9a23e48a1083f2f69933e2f78243f451d903ebab5ac3eefa414bef07808beb8950cbe\
  9d6ee1bd5b7591bda4f3d73e8ffb50be2940d1be9caba43e3995f33e8f1c2c3fef89283fffc45b3eaf9b60bf8f631ebf\
  766ae83e3b9351bf580285bdd5ad583e617b58be0f0b93be0b6b903ff3cb39bf93c92a3f5b6fc03cd2bc093e1ff10c3f\
  d5eae6bcc3fe073cf7d693bfbad360bde359743e16b6113fbe143abe6f44643e580f913e92a415be3316323f7f6b493f\
  02d0f53e53f1943e3c4ea5bf9f08b0beb4bb113f460937bf0f64123df201f83ebc9df5bcad44433e2fe621be50ab2ebf\
  84f9d13d9bb751bfc56464bf35d1d53e4824d4be6cf9a63fab0383be35d759bfef036bbe49519e3ecd2ad2bd3eb2fcbd\
  097e3fbf050348bfc0c19dbfc460fdbdb77024be69f570bd272ad4bc32db80beb4ee933eaf9908bdc57bc23ff3e27a3e\
  cae5b23f01b4e2bf03e703bf4c75f7bef606bb3d9b3418bd901a453feaa515beedd08cbea9f4a33f271afdbe7d82ee3e\
  38a449bf93cd0dbf7cfb8fbe5c2ebebf8b5450bfcb5053bf188e44bf65eaa0bf9e425b3f731bb2bf6fd214bf72cddebe\
  86a5ec3e0d83b03e18f91a3f760090bfedbd91bfa328dabdfcd040befb976c3f93f5e03e3677b5bf59a8c9bf96e283be\
  7a5a94bebbfb11bf1faa15bf7e570d3fe3b876bd543504be062d28bf190866beece8613f632cafbe0cf2183f773c8dbe\
  ce7c0b4009f2f1bedd2bb93d261041be51b20dbf3a940bbec56c8cbe6de8503fd60d8c3f26b1783e712184bf3e105e3f\
  6cb3343cab4dc13f524724bfc4eb58be1fb7833ebdced53ed8c29d3e34be6e3eec55473f34266cbf825bf63da4b92b3e\
  b1aa6fbf36f20d3f33926d3e49fcbe3ed5ad81bf19b4913dd01eb83effd0ca3dda1a9bbfc586e93cfc58d33f96944abf\
  96f4abbfad5eb5bcba658fbfd8313a3e2fedf7beb796c93c5d2f803e7f6f383fd8c32bbf2e93c0bfdc34c03d2281ef3d\
  1191d5beb1f3b23dfcbfefbe81238d3f803e76bf80ad613e66fbe1bc48ab9e3f81c43b3e36ddf63fe870023f194c6f3f\
  5d146abec549233d85f25abf809faf3f48cb00bfbd9f7dbf9b089fbfc551b93e43c8dcbeb48799bd79c724befee8a73e\
  0bb266bf86de453f930d2b3ee66a1dbf07be2a3f2e08323ef6390ebf8807aa3ef7de99bc4375d0bde465413e9a5e873b\
  e4de203e9d67363f828a1ebe5600fc3e7f05863d9459973e6068013fabb1393e7dd447bf802db03cccd3013f5e1d5f3f\
  188104bf5c84e83eba9891be7d4fa13e0d3827bf2d91e0be2eb3043c88699cbf536b7bbef48255bf4012483fc0d28f3e\
  52b991beae706b3e2f6bf53eef73ad3c45cd8dbf8b6823bf72dfe53e666426be4e2056bf5091333f3e12c4be9dae843f\
  b2de9b3e55cdebbd6e7efb3e659b07be4f0ec0be6b26ee3e2cb9773e3de8d33ea7594dbf43c0aabf0e0dab3feba219bf\
  ee6be2be434f48bfebfae0bedf7035bf9fea44bf1cbd8f3d292e59bf3b0083bd7ec93dbfdb5f8b3ef885ce3e1605043f\
  1fe5363f02996fbfc6fc27bf61e688bf9a42903eaa3415bf9b56a93edbd8cbbf294a84bfd8d940bf60ca023fd83c2f3e\
  021da6be87f05cbf457d0cbf846506bf66e19a3ff0f146bf0cce7abf2cb74f3f91b5bc3fdd4c103f2098b5bffff62ebf\
  a6f5653f38b107c073dd5d3f60d7a8bf9c8fc2bd1fa36e3ed5913ebf8c73a7bfa193153eff38603fa852363fd08cbc3d\
  c7a03bbf1563843fce2bd6bee6505fbf05b811bf460206bf8c226d3fb116cfbfc0626cbf74bdba3e4f45b2bf83b8383f\
  032928bf71fafc3ee87505be99b22e3d9a4eacbd4d0f10bf808b71bfa8689bbe7174283fc538adbf56bd913fe5dbf63d\
  028f8bbf6715af3ec8ceb03fdc19fcbd8ad5aa3edfd29f3fa2312bbfd103a23f6184133f6926ff3f108408c02e12eebf\
  321b5bbf3c564a3d759d173fbb228fbd6ff1c33eb44003be8c67263f6ff2b4be0c95e23e0d11243fb0717e3d126b453e\
  2b24513e0c7f093f8fc933be4167b13e6e9d0d3f9b97a33e2a01ae3db625bdbed6fd1cbf72a416bfa934053fc95c02be\
  d09bd03e739e883ed589c0be41ba00bf4f1303beda979c3e999f0bbec18956bdd5f7ad3da064073eaaf8fa3efc46fa3e\
  8f800d3d8b59ebbe31e91abf2b68d0be43af0d3f33ea9d3ea98e7a3e5b178ebed136afbd7c258d3fb7f72ebf02d20cbf\
  2c38463f3ed6e23e14800b3f45d43c3fd81cb43f8df5e33d8e1fec3f48adf4be280815bf9e030d3f7beef93e205d233f\
  4576df3cc12b21bf958fd93e573729be81f40cbfa5049a3fb2798f3eaa1d94bf76aa4abff0263dbfcf31563b08b1833e\
  3d5d07bd66f5bd3e86f77a3f8b9f8f3f6fa31b3dfcc0993ff1dcbfbd0dc5673ff6962a3fe86b303fe604d8be9f075dbf\
  5618593f67f0b3bee0b02d3e9970653fac4437bfe63e273f16fa4c3f9166463f0da6bf3f49e3043fb3e634bfbbca7e3f\
  7f9a333d7a85b03f9026c3be95f295bf12ac083f65f231bf226300bf6d2bc73f31b499bf3e837a3f37a33abe7e54c33e\
  b099ac3e5e47243f9576c9bdf6f03b3f484b10bf39aa06be4b86263fbd964dbfe8452d3e8f0c313fb2932b3f0cdff53e\
  0a84b0be85d48e3c43979e3fb200a4bdf56229bfa5ce24bfc09fd9be04d066bf287638be2610a6be7f1323bd3dc71dbd\
  81076b3de1574b3fb60499bfbdaa66bf4332dbbdda59843fc54f9abd3f9c0f3edaf971bebf2718be7b2fedbede4ce63d\
  0e743e3f712883bf35985ebf0dc1703fd624bbbe96f7d2be8f398cbebf290d3fba2f713f4225b13e1480893e5e871cbf\
  f9b709bfe25b45bf222b373f07da9cbe280795be40b63bbfaa83b6be4fa388bef169823fec282cbf9cb4173e2bfeabbe\
  14ab9a3e428f743df397213fa1fae83ea3b813be8db6c13e765ee4bca23e37be15e5dcbe1da88c3e905822bfcdda04bc\
  fd12753e05f1f9bc0192a93e4bc815bfaa52233f5b26fd3eab180ebf533fa33e3be63cbf975fc6be142e043e44d87dbe\
  724091bfb4b1943eddb003be0f86cdbeacffda3e3d572cbfd2c12c3f7304b0bec5f143bd6f67a83f15ae583fff5f663f\
  4d66bdbd48e9123d0e1304bf92a3b8be8e15713f66a6e13e5644d93dcbd6b2bfed019dbfc87af2bd3304cc3e43be5cbf\
  3640ca3ed91ed73e37bdd0bd365e823e5b05e1bef4c32b3f5fe7433f415c89bd3f349bbe1942cdbe7c361a3ff630363f\
  a42e62bd1a4790bf26bbe43c1b213a3f0036fc3e4d5141bd58922fbee1b2153e236d41be332be03eba47cebeb68250bf\
  727f39bf413587bd2dcd433ec8e669bf3d71ddbb329c053ed2ea8fbf5c47acbf81444a3e79c21a3e3a875c3f0764953d\
  d7c479bfb55d083eabc97a3f9cf3f2bd9b69bb3d9de3f43c7bc07d3e573f1a3f78de27bff1c9903f1b3939bee28fcd3e\
  bcb34fbf0096933ec5f3483fc962403fbc00053f5f952ebb1529cfbee7594cbc5c28183d3cc5f03e769019bf12e3b13d\
  b6efa93eb22959bd569aae3da35faf3d0afd0f3f74331fbcf15cf9bf3a5fe33e99bf063e70eb53bf8e3e90bea00b9cbe\
  c5f9653f9384043f1a6be03ec388233e63890dbf2c49c63ee85af8bd03c699bee91206be704535bc0d43123fb80d0bbf\
  9c3211bf7610223fdab33bbe0a8592be0700ce3e9989a73f050e3bbffebd8a3eaf75ae3ef9f6c63d7290443f33e50940\
  f7e910bf9eefdc3f1045273b9cf0bfbe6730d6be422c12c0473d933e7f308a3ff7f2863ea890763fde7385bdf52cacbe\
  d7d052becdb44ebe63f58a3cc98bb23ec43a553fae4ab63ed9ce263f3218a3be1b98aebf9890903e598e5bbff4f3d6be\
  0ec29bbfd6dc5a3f6cf0683fe07a6b3fd0b55b3f0016b73e378520bf2c540d3f04e91e3f47a5c1bf6fad363ffbd4f13e\
  41778bbc8129adbf88b7d3bfd8a535be0e55683f7ed4fbbfc41ae9bed0a5dcbeca94d2bffa6f06bf944912bfd6361f3e\
  80c6cebe0d68333e8218563e79be1bbf22218fbe6f7bca3f81b53b3fa1f4d33ec10ac53d2954883f6a1fa53e73fad0bf\
  75da073fca6e853f656a4f3f1ec271bf6c9bcabf715ca3bf5b2693be5920313fd8440d3fab55bc3cedd483bf7d0f883d\
  1002a4be550a8dbcbe08243e8fb60a3f4711813fa6fd8e3f170c0b3ffd23e03c9c2d77beeffadd3e905ac1bef744a73e\
  dcbb993e624155bef259e23e54aac0bf8e0d37bf75b53cbf063947bfa62c0dbff1564fbfc458f1bebef32cbf5557383f\
  8a1ad8bec64a3fbfd7a391bf9f69103feb9f89be2f24393f429be0be79bd8ebd7febba3e8ace89bffb72c63e2546313e\
  18f6f53d4e3b96bf5464583e32da4cbfa2deabbeacb5e73e788662be44f991bf742f813dd53cbbbdfbd103bfec06adbf\
  9dd71ebf9def71bdaa7a713fd92dd4bfa3eeadbee02f3d3e3cdfba3d2ff5873da9e3313f1f270a3efd288b3f799270bf\
  dc5bc2bf155a393ef657823d7c2f893f5cea83be18c31ebf33a40d3dfec5c03df23f813fa9cfbdbec6bfb6bc0b8dc73e\
  b5c790bc5678a83e359196bdc2c0d03e53d3d2bebc6e14bf2e3f7b3f57bf163f5b668c3ebd0190beb8ac6f3fad5f963f\
  ce8260bff1240e3f6d53583f91cf813f86fed63e51ab5e3fb8b7febe7f3676bf0bbc5abee955533f2d9344bf02fd03be\
  9ca5bbbdb78de33ee6054e3fadb4053e1eb3473fb58f6a3eccc9f2be0be101bfee3193be97fecabfa88a393f4d4f29bf\
  ca253fbf161c3e3ff0a322bf6cb77abdc12737bedb7d80bfe50d273daa11de3e30b1903fe4ca85bfe9929cbc42ae333f\
  574f8bbfe00d99bf2c16923f7952923e34f0e4bdb5cdc2bd7f45f93e4088dabe72fbc03f4d86fdbf07b605bf41d87bbf\
  3dafcabd210fea3f1c63f23e4061b1bf3a318bbf9605063fad2c093f523b843d9d1d1cbf1f20ddbefba7023f6ff4dbbf\
  5216f7bf1741dbbfd95ad4beff636e3f049be23e5b7953bfbcf87f3fb40d06be5540593f9e8d8d3e3c8876bf58cd8cbf\
  caaa0dbf8de000bf222bc93df115d03e86b0d1bfdb5d803fe8bf8c3e653f373e038122bf3703473ebb2aa83f86ea253e\
  c67e52be14c307bfd203d8be465f89be45c104bf486600bfe8c9d83eede0b0bf461115be3a85a1bed20b033eff34803b\
  c00d16bdaf01153fea2b4e3c45b60d3fb36f2a3f51611d3eaa7633bf8ddd49bf2af6e7be08ecf23d73539c3e8a1f2f3d\
  1a035b3d7d326bbf503138bf7bdb3dbfeada3ebec03e3a3f108e31be2a2a063f4764273f9290b13e67c0b83e817bc9be\
  fac80dbf1104a7bda7a1a8be29b215beae33063f690aaf3ece87993e582affbe4d95e13e7f86733e2175f03eb7e10cbe\
  abfc4ebcf6491f3f0ecb1bbe7b1438be5826ca3e414581be04f688be485ee6be3c5e2b3e1095b1bdaa546d3eb116763f\
  24963dbd2a2725be2f4b7c3f2f26873e30f9003ff0b60a3e572b163e792e4f3fd40d113e519f53bec88ff83ede93473f\
  4fc7d83d756ca9be9c217bbc5622013e0fce54bf6218f73e6b98bc3ea2302f3fd5331dbfafeabcbd653446bedfda64bf\
  5d05a2bc44139d3b830074be37cb6b3e2218a8bebc0282bf1ed6c1be44457abb359b073f6672b0bf6a42533ff494babe\
  0d91ee3e5a3112bf0c50a63d5496823f6ab4213ffce5e23fd6f016bf21669f3f4e5d8c3d8d3987bfd598843ff9a41abf\
  2ab46c3f6c763bbfeb35a8bfb4312f3f4c8eb8bd983b6bbf9b8180bff70a41bf4272ffbeb4bf6cbf83f15a3f6334ec3e\
  09d6fb392f3ccdbf38e895bee905813e052ed53ffe81433f78a17a3f1edac9beffe5f8be3059d8beb77feebe07f3a93e\
  ff6bcbbdcc48d0bed9c3603f30a2d4be1349c3be98c889bfc5f3bfbfd2c56cbfbb49073fb6f6c3bdf3d741bd5bf5773f\
  69e8bdbef56b003e4cb234bf78bba83e670de93d3de21f3e0d4886bc881d6c3da98d9b3d5a37553fdd5e233f888f0e3d\
  b2c3b2be3b6bb7be9943523fc796333ef6613fbf0d3307bd4d92873d1dce0ebc220a05bd4814873f9b0a46bee6e8753f\
  78d32a3e3e01243ea259a3be28b7453ef603243ec4af7fbe3ef7933f62645bbff5ecabbe210fef3eee4b253fb45d7a3f\
  ae2c25bf41d08abeabc82e3f0cb2abbeabba253da9f3c8be9667f5bc27541abecb0bb83ee4affc3ed4d0933ca99849be\
  019a03bef3c70a3e8b10a13edf1ed13e58c453bf2d93933edcada1be12e5ecbe23b59dbf97920abffa40253e5a31b73f\
  86a34dbf87540cbf5487da3d1953303f1f740ebeeb82673ff871e13e5b38243f54aac53e025a4abfd0a4d1beca224d3e\
  9b5d1cbf79e64abf4560cabef89bc5bfeb85f9be5df021bfcb0d11bf9172d1be276ed1be7febba3ecbb6813d8ae5b3be\
  89abd1bef61d7cbebbe8a7be6bae883f5eae16be06ccc3beb558a6bdc563e9bd38ae9abeccca22bea8be543f0a10983f\
  65c098bea4adabbddee88bbfeeaaf53e8b3141bf885ea33d0cc8843ee8a797bf355a043cf9608c3e092a603eb19b0f3f\
  ecdf953e89d513bf4a863fbef3cec53dbf088bbea84100bd5b8c843f6cf056bfe30d9bbf3be52ebf09262dbc8f002dbf\
  5c0397be4faa71bf89407c3b6242b63e77f643be1d625cbe791040be0c6b4dbe2841ef3e1e562c3f13a2ef3e3fc70c3f\
  b9666b3edde22c3df761423ed1db4abeba1ba83f0cef0dbf98f8063ff97b4ebeca4e863e7e29b3bfa8d56bbf4a2a7c3f\
  70d337bfec39333eca857a3fb998373f9b552ebdda4daf3f9b7649be473b533f0b88623dd041c43ebe54613e010d4cbe\
  a4c8743ff43a843f6d7d66bf9fbe24bfcd0bacbe0058cd3e62377d3e9fae02bf6f289b3ff5b995bf51a345bffb8fe43e\
  7b19babb0da81bbeeefa5f3fb20f173fbbc8b83e060d163fa38c09bfbe7169be5973873fb16b303e75c8eebefe9f67bf\
  fc0a693f47550c3ec469fbbec10a0abfc74d32bdb3c31c3e83c68b3fa597903ebd89a13f86a79b3e07a0383e506415bf\
  bcb8c53c8b70bc3eed49d5bfaf9d11bfc42d093f4667acbd548938bed7ae403ff05bbf3e206815bea8336cbf3f0e093e\
  9de5913f1a1221bd7f269f3fd62c003f07bb47be269cadbe90a9ccbee2617fbfd64f32bec98905bf940ebe3fc8b658bf\
  fcf42fbf044610bf411c80be172793bf190bc23e1428a73f98c60abe25e6b1bd27e61ebf9d3535be39d5ad3f378a413f\
  4803403fe5212ebe93da453e58012d3f2f5e97bee1df1fbf850ef6bebbcf4bbf3445af3f65e936be887f953dc596693f\
  d3b829bd7fa342be0f9b90bd135beebed3a49fbef8975d3e1dda8f3e0fd9173f27ad83bf4c982d3febcf05bf8794493e\
  ed3433be2250b33fd37f023d42dfba3de1e3cf3e444e74bd3e085c3f594de9bff76b80bfb755e9beccc3b0bf745c54bf\
  c392153ff27e63be10d5b53e202d00bfb520ee3e62b5a53e197ae4bd0405e7bb5c8b8ebf4260c0bf400698bfa88898bf\
  b303a23d5ca97c3fe12f1ebfe50a4e3e35318ebd2c72223ca671bebe2b10213dda82773f036a86be58500d40ac7b03be\
  c3a4933f843fcf3e60ff973e0397bbbe0cb469bf449b5bbd985099be0c38a13f84e8353f810e7bbec301a3bf05d0c53f\
  75c931be68f984bde1076bbff4099d3e4e281fbff177e4be259cb63e34e30fbf801e95bdcc437ebf89560b3e2f40423f\
  e6eee5bdc7149abfba88f8bea2d6013fa58e483f9193a43e87f1c8bf357888be4fbf3bbfcea0d6bd5253823d9529f7be\
  4fd84d3f6af895bf720032bf824f4b3fb95e1fbf00941d3c19117ebf1d26ffbe460d82bec0a8b4bf7aaabdbea1afbb3e\
  65b232bedd08873d1cc0aa3f9e3867be6bdebf3f68cace3ed72060bf2da24a3f98cd1bbfaf0e093d8e5b91bdbd39da3e\
  0e1c66bfb50565beac7a703fb91ea93f2f0884bf659bf9beb3babd3e9fb4e7bedbab4c3dc4590ebdbcb0b8bc2dce183f\
  3198013df95b883ef539df3c764955befeb4bcbe4b171b3fb6452ebe026ba8bf84c181bf82030b3eee1986bc97cbbd3e\
  2eae2b3f4caca4bf212586bfdc3e8cbfe41c46bfbaf731bed58283bed9f3223fd4774d3f3b2c233ff52313bee6c4c43e\
  d859b5be00ef44bff41722bfc158ee3ec05a723f0ed5cabd23455e3edc2b413e54f90bbd726e4dbfb4f71ebf169e8f3f\
  9550ec3da355a9bea1ee84bf852fe93f218191bf4e6e733f86209c3e8be5e4bed221eabd818c323f1da05f3e72e256bd\
  37c3c03e7a38143cd0c7abbeffcbb03f500d7cbe000793bfbf174a3d96505b3e06f99e3e229200bf0a79a33e3a45d93e\
  c6a86ebe6338fd3d6a46e43e82de79be078727bf2c66243f62b5b53ca9462fbf5eb463bed54664be9f735cbfee58dabe\
  90a805bff61eebbd818d52be9c99113d3d71bb3e30b44c3c4862863f8ff2923e926c543e6427e7beb6e217be3dc5f1be\
  16bee43de2c8e1bfdb259bbe86e7343e2e6592bc0a5fe73d146bedbefee8e7be8dab6a3fe03ea53da3e936be591b0abe\
  106d5e3f64fa50bdff16893f1acae0be084517bfa332423e27f5723e2c33bf3e40ae04bf5dce0c3e869794bebbeca83e\
  a27fd1be131a70bea5d600bf97c5c53dfd0d64bf5e92a0bf4f1a2e3ee967793e1a50d83e33ba34bef7dee63e9e76413e\
  ff2b17bfedce00bf12c2983de4d568bfaa6494bee1f92fbe1c8ae23d0bd1bebe0c0ab23edb8ceebe144126beed13c53c\
  eac7d5be604157be0b3b843ed8a9d0be4bd8a6bea30d273f668d663e90e83ebe1a790a3ef1ea943f4a6493bdaf47f7bc\
  17f251be6e74873fcb2fb4bebbd2883f1f95093f63dc033f090d4c3ed1d4cabf8435aa3c4daa4f3f708690bef927da3e\
  d8a881bf4a05a6bd7996433f000ea5bdd27a9e3e81c0f9bed92e00bd9ff3c33f30fdf6be3dd99cbef41e693f878a5e3e\
  a7c8ed3b738920bf920bc63edd1540bde2bd023fb42c24bfdb892f3e7d5473be9ae399bed56179be355885be6edc1a3e\
  78600ebf55d7193f367ab4be4f4f33bc0468c0be380d7d3eee6353bf98bc243fbc2766bc1a9a133ee735cf3f220478be\
  d29c90bea2db503f19e9093fe73e0c3c4ceb803e8542d8be52f29d3e8819e4be0d8291becd6c26bd65622f3fcb25e4be\
  826d343df19fc0be51b1af3c405c423e524bb5be16f5763ed902473ee6811cbf4a2568beb4e7123f85077c3ee98740bf\
  1ff82e3f3045383dfc5ba8bd309a8bbed002bcbf8a500abf6c000b3f3260673e455e643e0d08c8bea6e48a3f49db7f3e\
  660095be9ede663ebf6d91bf71a423be6002fcbd0a2001bf81a8603ff354b13e3200623e059dd7be182d47bf40e79e3d\
  77e793be2c423fbfb419223fd9dd953e781633bf4a1620bfd7f1f3bb490c0a3f5fc99abfb11ac8be1be1673f27e4ccbe\
  2c83d03f684ddb3cb996183f937f953e222981bf0aff01bfd971593f13c821bf88684abfc6bed73e1691a6bc6d045d3f\
  85a143bffe5098bee418b23e8c9e24bd2f5c553d8a90733d6780133eeed1bcbed78ba6bea5daf9be0b98b13c46ad4c3f\
  e4df873d5c16e13d2fb9293fd15539bf86e662beac9bf7be92f16c3e4debf5bd17bf1e3e536aafbe47be1e3fc45201bf\
  21957c3f25443d3f304dadbef3ed07beec3e103fbca07c3f5bfdd63c78e61b3f25870dc08cebb2be3cae9c3f2bde0f3e\
  c2fe02bf0c3073bf7d555cbe11f2a53fcb1fa5bef2668d3f22a71ebe0059d63f9c6ec0bd3d57c13d22eb67bc600a0fbf\
  ea6311bf5b9dc93e79f994bec18ad0be346f573d8a66543f233618bf53e55ebec8f0713daa5f8f3e830eaa3df237013d\
  e03f563e7c0a74bbdc0ac7bf50b0bebd4a2b56bf9bd43fbb08e615bfd53f8fbdf1fc103f22a8e1beb01ed83e825ec93e\
  e1114fbfd6008e3dac9f973e3a099dbf1c795fbeb72ed2be52fe46bffec88dbf7d704bbf33a56a3ee46507c02f6100bf\
  4bbf623ea4925c3fb1f6cabfdb2f2fbfa2741c3fee25c6bd6ef603bf1d3c0a4027167c3f6c2795bf4978523e1fc8b73e\
  5f461f3e5589bebf26debebe1488103ea4143f3f47fe32bf9b8780bf0b01933eead19dbf3a83a1bdbbe429bf08df8a3f\
  926e12bf74995dbf6eaf063f5d6c80bf67b5d6bf937600bf099b56bf8bdce1bfef0059bdd681783ead4c8d3e4fbf27be\
  e663693f652a38bf593267bf99128f3fba865ebffdae63bf10ae173fe837853dcd89ac3d630fa7bf3880f9bf3e53e73e\
  6a1bb6bfddf937bf04c0783f04da323e3276253eae76afbefa7c593f1c946c3f5b8ace3e4b8cea3bf3a1f63df70fc33e\
  df6cff3efe88813e758fc1be547fcb3e1c56edbebb52aa3eeb97ee3d3a85063e5ca9a13c314f58bf098ba1bee713213f\
  bfa23ebf1368763fcdc9fd3ed6a90fbf5caaa3be6595c2be1a50a5beab0141bf12031c3f493d193face9523c86d74ebf\
  218a0cbe713a383c2d22203f410c233f0526933d0e2a9cbe11bf0fbf5461123ff36f9dbf99892f3fe37f953e14c4323e\
  f61aacbee308923f64f4b03ec421db3ee15d0d3f990c603f9a7d1a3e452ffa3ea597a63fccdc113fe2d7803f42619cbe\
  ee19debfaac9cc3f1231ccbe5f5e37bfa6531ebf017b57bff69769bd2e432bbff45425befda23dbd2bbef2be845fa9bf\
  624030bf0fbc8d3f5bb3c7bdd5a2c43d5b8a343ff15b50bfe1ac4e3ea6b81abe228a973b1f2ef9bd9ac194bf82edb6be\
  04b905bfd28f93bdcc0aeb3e8cc3253e8d6aba3f4e70af3f30349dbc462329bee709243e927c983f263a96bfe2ee07be\
  bd96993fc35b83bc522f95bf2a261cbfa77bc9bf95e2d23e059673bedda2ee3ebe24cc3e909a16bff870f2bf821390be\
  908ea73ea335a63f2aef6f3eeec9ccbf615c1d3f3b96b5bd19369dbf3703ec3e981319be49d0123ee15009c05329a7be\
  b2d7883ec05b2dbf81c5b13ec579c7bc89f917be8c29ccbf6bee493e012c34bf4726113f550a29bf3578533e458c8d3b\
  4cddbc3eff8c03bf570beb3e8bff3ebf11700bbf8d9027bf4e29d8beb840123fc08cbe3e1b8e583ff9787f3fa01c973f\
  ddf47abe9c3bf23f4f454cbf421b323f61d7c5be009d00000000000000320000000000000076cd42bf141b2ebe38aa7a\
  3e26851dbfae4ecb3d49a1403d93377f3e73e577bfe9733f3eb1fc27bf6454173d6a24eb3ee3a997bee1c330be3af287\
  3e9dad4c3ea93d87be52809fbe92a6cfbdc14cf33e4693763ec5a715bf54e89abe197ed63cd0dd293eba77f33ece2725\
  3f38665d3e4dbc063dfb7c27bff16fe23de5b8933e7d8533bf54d492bff14f673faa03c33e2331013f151aee3e808f83\
  3f9a7bac3e0d6e66bdaed221be287c88bf034cd83e6b9ebe3d2918cd3e2703a1bea8c34cbef2d70c3f2f05153e4d3621\
  bfec6224bd51798bbcffd6d3be76ff713efce4a63d0fd0a83e58b004bf7796663e3df6babe37f2a5beb8d84c3eabc2f5\
  be8f4fe03d18a3473e5bb33139b5f4edbe7c1866be89c58cbdae89a73e9aa07a3e8b08c5bed6d73b3d857da43ddfeba8\
  3e952e593ea9d6fc3e1dd9993e6bf6303ec4a18fbe390c74be4a7b593e2eaca5bd4c9438bf3f5e423f52a0cc3ece2e9a\
  3e2482ac3e4376273f610b983e3d980b3e78e5063ed22111bf5acf9f3ede652dbec3908e3edeee9fbecad247be4cd518\
  3ffbc2993d4cd421bf643da1be820010bfbe4413bfad8e773e7717de3d3a51a93eb58b2abf13949f3e43b60ebe1cc94a\
  be02f7673ed58e04bf5fd63f3d5c95693eb73720be036402bf49a311bf8a2e21bd2d1f263e50fbc53ed4da16bf99b564\
  bcfbb859be9f15603f1350943e8245d73efbc84c3dd30b11befc3917bfc28aacbe6c0e753ea89f1b3db7fd8bbfde7281\
  3fde01ed3ec195e33e86ebe53e8a95573fe93f803b9867acbd8a5164bc1ea23bbf267def3ef27491bdedcc053f0a59e3\
  beee8711be254b263f3d18023f0c7b1cbf0f13b1bdb2357b3d1ff4e2be8a40293d2cd5023e3b10a43e153526bf481185\
  3e2bb5eabeab5140be42b7dd3d0b3504be939405bdb0ebc03d0629c2bd026800bff3378fbe25301cbec25eb73ecb56fc\
  3e0240babe0cf693bd76d1dbbd90da043f8c53a93edc46133f5c3a783ef9976e3ea88feebedf52c9bdfc8d7e3d1c4fb9\
  bda18b5dbf086b5d3f2072da3e725fb73ee7963e3e2277203ff534273ed02596bd629ec9bb7faf33bfbb07f03ea1d744\
  bea273913e655ed0be97ac92becc460d3ff93c003e5c880cbfa41737be3d7ded3dce7d1ebfd3b6b43d494f553ee85569\
  3e880a21bf23429e3e6877a3be49bfbbbe3221653e5a7df0bec5b58cbd993d58bd1c6a0d3d99e4f5be935994be7edb0d\
  bdcf8c663e3f39933e2210dbbef807083d177277bd6cf1063fdfd38b3eb1faed3ed777d43d2c74933eca6fd1be718c0e\
  3dfef3123e10a06cbe269875bf2adb283fca3da03eecde623ec201c43e00c5383f8d0b203ed2b997bd93b22c3d620f2a\
  bf7056dd3e036292be97bc5f3e233087be7f36bbba1bf2263fd73d973dbe84e9beda3633be929f19be3a4c10bfe55e7e\
  bcf6ba423ee433913ed1570ebff86b773ee131d3becb3ab7be304f243e791584be6ce1d5bdbec08e3d87775d3e76772a\
  be42424ebe8a0fb03db836b83ea32dad3e018a09bf10425a3c3a081a3df456fd3e0be07a3ea6ea063fa3286d3e73a18d\
  3efa61e0be7820193d8ebbc93e3b93e1bdcafe6ebfde71653fad92ab3e6459bb3edfa7893edba30e3fee28a83e560abb\
  bdf495c7bd935757bf1243073f740461be3943af3e6b5017bffb2815bc7b48353f7ee1193e1f8323bfb682b23d99640d\
  bd251239bfc6d26d3eca5ba3bc14821b3ebae643bfded8963e9686e7be1d8bd3bd71f383bc4e0515be0722743d59ae25\
  3d05e0023c471101bf589928bea919d03d8e587b3ec5afcb3e483fd5beab1c673ddd3fedbc1db0bc3e797b493e7e921c\
  3f3d6e803e61e35f3a4458c7be61fd73bd4faa593efb554cbe58e757bf6862493f390e983e8a24383e23d5a23ecdf42c\
  3fba8c273e531b24be6c44f03d6c8d44bf7c962f3f52e06bbe9f53c23e9260e6be6ee633be2046443fdf9f8d3ee22358\
  bf983f7fbe4d0fb53d77b9ebbee3510fbed7fcd6bc5206f73d45a23bbffd7c1dbd0aae25bf809147beddd4eebda48ab2\
  be3ff89fbdf9d16b3d57f4ec3dfec325bff983ddbe2ada0a3ef0eaeb3eabff053f9927f7bec31dac3ef570d4bd54560f\
  3e3b20133e18bfe73efdf3773e95281b3e17ff1cbf3337a6be5f92ea3ed5ebecbe0dfe4abf708f793f346d503e5f9192\
  3e5550fd3e4b5f6a3e07e6c3bc5124d5bc0aeaa3bc891004bf3970b23e7e52c43d60a3303c97680ebfa33a143ebbd346\
  3f337e023f090623bf8e1a3b3dd17367bd95f01ebf9e25a23e42c33c3e63d5933b75e229bf67cacf3d2913ecbe4ba033\
  bdb48f8e3df44084bef470d73d29d73e3ef991a93d644a12bfb359febee75ea33da9b1ce3e84b3af3e702ed4be1175ae\
  3d52ebbabb8110843e0504a13ed2602c3f4b57283ed17be13d50011cbf0228aebdf1cad93def7839be473f5dbfc0d145\
  3f5a3baa3e21732d3dcc9f093e02f6563f33ab293ef402053e9072933d42f824bf68b5913e62aab4bd0809043f056bed\
  be139febbd0ce8043f3569c03e8c4a01bff852423e6fd800be6084e6beb11c2e3d44406bbe63a0473e954f21bfd5ead5\
  3d82a5d4be5923aebe59f1873e7a4c81bee94f1fbee6fcee3db440aebe700219bf2a257fbe761425bef436343e4bafa5\
  3e03a304bf7cfac33ddb8c163d11cd853e09616fbbea953b3f09eb3d3e5a7d633eaf3dc9bed30301be0fe0213cd2492d\
  be504981bf6993093ffbf9aa3e68c0f6bc5b998e3d1023603fba75d13ebaefb3bd18241a3e87fc06bf40f6403f0f58a2\
  bc65b0083f2a71d8be34579ebeb558163f71c8193e5a7708bf187e61bef906ac3d6ef41dbf5a69d83d86cb9a3de06347\
  3eab7e1dbfa757ac3e21a78abeab3bbdbe2bb7083ee90ecbbef6be933c5873883df4855e3e71acbdbe891ce2bed24302\
  b960580e3f069c553e8b10efbe906482bddc0485bd0781c63e49973f3edfbcd83e6b4fe03dedc2d33ec0130bbf22be90\
  3e942c353e5ec51cbea5ce50bf2b361a3f1c1ca23eadc5833e49e5bd3edfe9343fd7f11f3e44ae85be830bdb3ded5c3b\
  bf27a3e33ea0eba1bb49fcab3e1502ffbe7de62abe07d51a3f59abe43e061587bf318a5cbe965cfdbda1f642bf4d858c\
  bd8df5753ec792553ecff82fbf1a48313e2d0e0abf8219c7bef0e0673ebbfc99be3f379fbeb5b6a73da3d3d23e4805cb\
  bdb80a1dbfc03033be67383d3e91b6b93e9999d2bea39b7f3e79ca0fbe430e133f8d0e453e6c91653f9fb8e63db219d7\
  3b335dc1be373dacbefab69f3eda2dc5be279f3fbff452363f5a6d783eb1d030bccb20fa3e703d153fc26c903d33c435\
  3e9248213e624f5fbf25c9b93df4f74abe4ac1a53e9921debe7b45acbebd6fa53ea843dd3c1794f4bea6061ebe0e8ef9\
  bc5ce71cbfe350323e5b1cbd3da922d03dd6d812bfac62773eace37bbe33e4a3be1782a43eff1d69be034ba1bc420e5f\
  3d5f78de3dd66787befacac6be7559893d3af7a73e9d63d53e5511c9be53772abe06796ebb2008d63ed89eb63ee76e32\
  3f94a49d3e30bae13d825a0bbf7c0616be65279b3e7f589fbc8ad36abf3a4f483f01f69e3ea515b43d4c2f383e468714\
  3f65bb703e193105bdce59de3da01742bf4602043feecb6dbed075d93e362902bfba25b63ba238143f2f99c03e1f4639\
  bfbf84f9bc9254963dfdf215bf27651fbd38ec873e09083b3ed9ab13bfb017923ebbd5d4be34ee8dbe7009ab3efb2519\
  bf6a5655bdadd9d93c8e3a8f3d72f0a1be654ce3be02e0a3bb6c64ae3e0e05293e1e2cc7be4ee8d0bd75ee2dbefaebe6\
  3e217a553e4c82803e9fa9103ee6e4503e76e5d3beed8a23beb54dbf3e63e59fbe48742cbfb6f15b3f64b5133e15b929\
  3ef57b5f3ea880173fa3c80c3e6f22913b4bd6113deb582bbf8f987d3ef931b7bc6c66ae3ef8c279bef5abfe3cc9cb0c\
  3f51ffbe3edf1641bf66fb8dbd29c1db3c1de0dfbe2a6a1c3eb026b53ef52fa93e337735bfc097923e821fe3be27670f\
  bea9d5483e7b985cbe968297bc8af8b93d965559be297c85beaf6135bee2931a3d98808e3e6231e93eb985b1befef242\
  bebe2be6bd18c9ac3ec9cf243ea2145a3fc6929b3e3baa22bef81969be329eb9beb3114d3e9bb0ce3df7a58cbf1b0e3b\
  3fcca4913ede73943edc480a3f30431c3fd17cce3ebb3d53bce05d69bdb7a329bf85e0bf3e6f36323c3f5a693e3f02e6\
  be8f9e69be964f0c3fc60cb03e9d5b2ebff460053d44e30ebe7cb307bf29ec793bd5b9483e2d544b3d1cf20ebfa07287\
  3eb2d0aebe49e041bed074643e9e783fbe7a64a83ae84ec63e8b4f6cbe9ec3ffbefd0dacbe24fe1a3dde90523e8490ac\
  3eb53c00bf1f9d3cbdb65647be1cc3533e8b49093ed2a4443f5aef623e500d1e3dbdcc0abfb95169bdb342033e04ba29\
  3dac6c37bffa1d723fc120cabc3bf9c43e617fb73df3b9673fe7302a3ef49a0f3e970734bb440f52bfac5aeb3e80f179\
  bd3d8fbb3eca3a8fbe3f3952be6f96f43e3da3d03ec36133bfa7188ebe2d73273d9488d7bec022003f2d2a883db90453\
  bcae07fabef24e6d3c91fc07bfe679e4bcafa00b3f883ff13d6ed4203eb449823edb29d53e202d3ebe76c07cbef48a3f\
  beb0f71a3e18a1453f083e14bf97e0e23df18507bd79f7513e1c2fb83e046b443fa10e333ed301343e7bf984bee37bf1\
  be8196133f3e08e0bdf93d4dbf5bd7013f869c043f69f47a3ef6ee1b3ffa74603f3b0dc73d0b0a01be3f7cc9bd91c405\
  bfb18bc73e6acc183e7bd3ca3dbe8ec73d3db8f23d91cba83e9dbb603fc9f735bf5b073abd0d7565bec60c32bf8fdde2\
  bd63271a3d7513743eb39b61bfa6e8203d0f63e6be36a42cbf810c1c3e1b89a1be09595abeeb02773ee9290b3e035c02\
  bf84ffd2be996f91be8514873de3823ebe3996cfbe7c6484bcb5f2a6bd80b7f93de591e93d564fec3ee1b54c3e1976e0\
  bddec9afbe38ed65be8d108e3e0a19afbdfb133ebf1bda4e3f6728e53eaf16743d7ba7563e457f473f338c8b3e995c70\
  3dbdf4333ebc45ddbe27a8ae3e529153bdb7474e3df83e34be4d2b41bea6723e3fdc5ffa3ccc5340bf280e79bdf7447e\
  bd242714bfe812953b23218d3e916b363eb4fb25bf82552a3e72df07bf0ebc92be22141e3e4eb7f7bee65295bc5b71ca\
  3d2b5e13bcd6c466bec93ad6be562b97bd83dd863eaa1cf03d0e9714bf1806a3bd3e971dbe9ecbe73eb794443e6fbbf5\
  3e8bc0273e9363273e71ad02bf134b15bda9adc93ec88a8ebe49d653bf6e1b4d3f82219f3ed8fe103cd709813e867647\
  3f8aa7a43e0c2d1abd7237a6bd270f17bf1c0ca93e9e6503be18b8763e5ac185bee7482cbe0a98013faff7003f27692f\
  bfb07f913b334f61bef66106bf45418ebd6e91123d001cf63ed5ba11bff1600c3e6039b0be7036ffbec4bdcabd3e5197\
  bde8f28abe63e2623d817a003e67a3c5be9d5e8fbe93f694bc6c14bf3e97e0ac3eb5c203bfbade333e8f5133bdaeb309\
  3fab0e4c3d7d3e943ef215823da825f93ddf3babbe530c323eb166c53ecd9c8dbe143475bf6c43233fd340c23ead61b7\
  3dc7db0c3f2f2d8b3fc0b4f73d8bb0953b4c20db3db66562bf1881073f93118ebdedfa373ea244e7bec4a934bee7fabb\
  3e78c5bb3d777ffabe3a722bbd7572193ee5050dbfb24e633c1eeb733e4b7e863e1e8e13bf80825b3e5fa7fdbe59f55a\
  be65a95f3e0b88b2beba6c25bb11c6b33dda9014bea9dbe1bdfe2b9abe333e093c6b5ee33e8a12fb3e9a88ffbe61e1a4\
  3d389f23bd1a9ab43e456f8a3ea0e7ff3ef777cd3d2a10033e44cbacbea2a876bea2a4a33e4cae39be2fcd82bf11bc54\
  3f6bbead3e0b5a0b3e33b68c3e0728423f8b86a23df91cdfbd206123bee89333bfa729f63e5ae1c8be4a01a43e800386\
  be781996bd827b243f9a16f63e6047c7be94f29ebb27aa0c3e384be5befa168b3ea79cd03e899edd3e84d90fbfe2b588\
  3e131443bf6049eabdec1c053f179e93be096bf83e5549883e5f02f43ea2df4abeb14cebbe30fb023d0351a43e9ee918\
  3f958457bebc9afebc6b6d8f3c3fd83b3ee37a4a3e2848263faa16003f67b7053e47b4adbe7fec423d5d16313ddddd2d\
  be9d8281bfc6d63a3fd055233fee72a23d737dc13e6fa3ad3e9f8f71bda83d953eaf83903e131878bee0ac1d3fa575a8\
  be364f32bd7381d7bee18daf3ed507083f1fb7173ff20e18bf875b2fbea4497f3dbd54c4be09a2643ec08b5a3e308e09\
  3ff09090bebe1cc03e2d5234bfc96c6abefafce33e2e7050be2543093f4676473edd66983e36ba93bd79930ebe78ce26\
  beecb6713e133e533fad48c7be00e936be7c5b403e2fa6463d2b32a83eb7a7203f3223b73e36c0233e571212bfd5caa3\
  befce96b3c27abaf3cf6248abf8b093d3f506cf43e89c6323e51a2d03e1bfed63e893e3fbeb8a6243db821be3e37f4d5\
  be62ccef3e7da7a7bdaeffd2bd898725bf0bc96fbcbb1c243fa163ab3e16a14bbfd54d51be9e751f3bf8503fbf46dd3d\
  be66401d3e8c1b533eb40049bf1e09733e951876befd05dabef0857b3ebc4c00bfaa4608be0386c4bcc02d723ec221f6\
  be13a52dbe76faa2bd08258f3e19cb943d648ce9bede9c24bd007f00beaa04f93eee24d63ea45db83e8d37af3e3a034f\
  bd87ad06bf568297be22cb273ee11969bed4ce37bf835e393ffd5cf03e88ff773e3387333e6e10263f1ea84e3e7ccfa4\
  bc1ef03f3e24a619bf459b843e786338bd4398913ee62252be2e5201be0a8ec63e2e1d293d3c5d78bf37c6c6bd605461\
  3e8a82c5be1cfbad3e3df9153e86d6793e394fefbe6ca0c33e194b42bf9509b1beeffcd93ebbd6af3d34bda73de94e21\
  3f470d4d3ddbf0eebe8ae4b53d9e438d3dc7f49e3eeb172c3f4e05a1bd261a063e2e78efbd6b64cb3e435e8f3e338c13\
  3f2e307bbd3376c03e85a909bf484540bec812953e205e173df7e33ebf5f1d223f1936de3e81f0bd3e6586e83e487c97\
  3ee9af7fbb6a27af3df8f01cbe7b792fbffed7b73e872a15bed827283e972be23d22b259bd779d613ef77c7d3e9b522e\
  bf1817c7be5557fa3ca1b032bfa1ed163d774fa93ec007813e34d614bf2f75a13ea4feb1be2120c3be3b7c9b3e26d118\
  bf77ec923dea69ac3d92828dbc9becb1befdebc5be3e7e99bc1549823ecf69c23e53c714bf94372d3cea9a0ebedbd901\
  3f5818f63d06f1c03ed6db7b3d53da503d5e50d5befc18003de44b1b3eb38e7cbe227485bf3db7353f2c7aa73e991ece\
  3de528ac3da877213fc6a6e33e166081be4bf6c0bbdc1402bfbd30fa3ea5f505bb87bd053ec112cfbe404e35beadc9c9\
  3e91ab6f3ea30156bf0ea5293c2972133ce20d1abf9c5dc4bdb939a13e609aa9bd95893dbf00d3dd3df5ac13bf681788\
  be02dabd3e112e83bf2a586f3d1472cbba1348bf3c5e59313db48194be0e16523ed40a543e70d78b3cb436dbbef5e0ba\
  3d53aa683ee13f203f92c4823deb36193e6970dc3deadd0fbeef58c2be053d86beb821cd3ed82a50becf9d45bfab8420\
  3f4409d83e5412853e8a823b3d0ffe3b3f7d3ea03e30a8d73d1837803e32550ebf41fa503f103a933e4e0ea43e4bceda\
  bd2fc782be115a153fc1e51a3c08b9bfbef41a2fbd953750bd5045e0be8f07e43ddf92e83d17753b3e4c815cbfb97c46\
  3e270005bfa9d387be7e0ce63d03bcecbed348d33b8cab963eed3a063d5bf7adbeb031b3be9043553e4d3ee93ea6b111\
  3fa8004cbf5b1677bdd4ed893ddbb2023ffd3b443e84cc823e1f43703ea829913e4221dbbe188e963e85f0e83e9695ff\
  3d8d9230bfb170423ff308c13ec320453ef7a3e63d6435043f666fe53c6d3eb73d088c35be44cf55bfddf82b3ebe600a\
  befd2a483e35a32abf03bfd5bd2a74143f874aa53e150511bf7133c63ecec4e03d9bd841bf0ad6713e07d2893e7852b7\
  3ed30b63bfd03416bed42b21bf185f20bf46b4bb3e3f9985bc8710923a8cb19cbd82d5a13db4ece2be8ff3b4be45e936\
  be2361b33eaa90ab3e1cc601bf9c8fd73dd0c47cbd0170d23ec80e833e3ab0b93e14739e3ec67bc23e377a12bfa39497\
  bef53d913e8fd8b13e26a8a1bf1ebe653f1dd1093f245ae33e8ba8cb3e2f69c43ed73edc3d699dbebe68d1953df85279\
  bf921cf63e09f31dbf513b523eec1925bf5e2b543cd22ab33e9221943e86be33bf473b1fbeb54186be490c93bef68dad\
  3eaa13b93ef1620c3e1e2836bf1a884a3d29bb30bfff9f0dbefa79153ebcd988bdcb00443d149efa3d41a4c1be395e5c\
  bfb9c1acbeb8e57d3db235923eb9b5a53d4918a1bf1f9a8f3de0a64bbe56c7773fbad5243e7d12793fa046203f2467f8\
  3e6573e8bec8d110be95ff193c760d9cbcb94685bf9f24203ea79b833e3b1c043f8c5cd23e0f67793f20a5503f983514\
  3dba8ba13d81bf87bfadee1a3f8ad7753c80f071bd1fb260bec25df03dae028f3ea74a31bd3bb7b8be818315bd82d9bc\
  3d112440bfb03aa73da5769e3e616c2a3e4758c7be1269853ef0f1f7be87d39fbe2d117f3e09c6bfbd1c217cbc560d54\
  3d83ff063e9b5009bebe7603bfbe1c993e310d2e3eec25eb3e54f1eabe82508e3d0fcf1ebe6fdbd03efef8553eab5d13\
  3f4cb55c3e0c1a483e92e804bf1699d9bd9535243e7eb734bec5bb87bfd73e623fc4e0033ed88a943e8676083f1dd5f8\
  3ef22a913e54cf0abe774720beccdb3ebf1bc5fb3efebca8be7b59473ec0a13bbfcec4993d4180393f224f873e298b4d\
  bf415d783e5afba2bd93b12abfd2f6bbbecdbd973ea873eb3e9ab712bfe618993d1289c3be28a63bbe92d3f73e740912\
  bf6de205bf6d2b163e30af57bead59b2bee96cebbe69855abebd28133dff61163e658e28bfe15152be1ee42b3d6258e2\
  3e3d14cd3e9e130b3f2028913ebfc102bc7ccd6ebff5c8e8bd0aa7bb3e9c3c1dbe8110bcbec0f6083f6bee443f6b9d4b\
  be9652383e25b5bc3e34652f3e988f753e2b92f83ecd103abf039f4e3ef17dd93e6e90663def10d83d1ea6babed41080\
  3fde3b023f35f304bf86d6013e0f34c6bd9b1430bf2ac9b53b62ef4d3d45b9323d038a33bf3868ce3e0cdacabe7b083b\
  bebd87053e3a1795bea8c7d63dcf839e3d8a4f00bd168ee0bea2b1abbead415d3e13a1423ebcd4913ec5a382bec0e407\
  be8bb72fbe6204c23e88a5433e77dc383f7d8a023e679f653d7391eabedae7fcbd423d883ea74e75bebb5977bf222d5b\
  3fd5e5853e3590a23eac1c6e3e33a5583f1ff2b83e0ef83ebd4d5f5c3d4d9f2abf3364de3efebf663b98e7ee3e867ca1\
  be2df946be543ece3e3328843eca270abfa84e09beaaa22ebd372521bfe6ce863ef862563d7ccb063f229737bff4629a\
  3ebd751bbf593ba8bd0fbc2d3ec7c113be7949a13e138d283e9266ee3dabf689be68818bbe875e453e220c8b3e5f0fe5\
  bb957228bf202eaf3d95fb2bbdb6c1243f12bf6d3ea960153f958d89bcd70fa13e2290debe38af53be3824a73d5e4e97\
  bd390e6ebf8a82443ff66d7e3e7fb1babdc20b353eed92473fd5c18c3ef6513d3ee3b2413d7dbd09bffab6603eb88a74\
  bd1eb6033e1603b2be08a410be7b55cd3ea5f85a3ce611ddbe53c520bf6819afbd6c5b21bfa61d7ebea74b1fbe5666dd\
  3e51ae06bf1ee3643ec9d90abfb323cfbeb1a4a03e084aed3be08741bd755859be18f6f3bc8f1be6beecc0e3befe188d\
  3d7172653e55e95f3e0aef2fbf5eff443b021056be55142a3f317618bdf11cd83e586ba83e409a8bbd0b53bfbe40db99\
  3c02df253e7cdc54bee61f92bfd431183f4e0fd03eb69812bc005f173fc702683f1c16f33d9483b03e181ac63eefbb93\
  bfa1c1d53ed93fb1be343bf73d7074b4bec0585a3e5c16fc3eb4ebf73dd9fc17bf28e2b8be5343603e068f10bf330061\
  bea356a43e6e22973e08641abf0c73273f1a5d0bbf35c6e7bedc311a3e27ea2dbe4535a53bd152b7be20f7973ca7fd1a\
  bfd52013bff03b9ebd4867503e5e349b3eefbc08bf457a463e267386be918cbe3eb942bf3e1e8b373f9ff81a3fb5efe0\
  bc5ebb93be827981bebdd67c3b775a6bbb47db72bf2e5cf03e9f3ca53ea60dd03e2fcbf03e21d0613f94da293d9be4bb\
  3e4628a3bddcf96fbffdaccf3e2605debdc1e4883ef37edd3c3a6e86be9663df3ef150823ec5a630bfc11ac53c855627\
  bdb41b15bf412c44be247477bc6e52663e8df34ebfbf4f92bdeb5f23bebb6ef6bed20580bd12a2bdbdc9cf12be0275e0\
  3da83223be580a2abe177080bef032263eca96783ef25a243d4896bdbe3ba7d7bd729e9a3d841c0b3ef4faef3ea52710\
  3fef48033e185dbf3d9bfc7cbe12b731be1a0d5e3e843675be546986bf7d475c3f80b7c53e855b213e7b79d53eb4821f\
  3f4125453e624f57bc6c4324beea89fbbe924d033fffc1a6be5c65cbbc2ac3e7be001e3abef6c5303fc73ebd3e5dd9d5\
  bed399b5bdc23bd4bd313b1fbf1665013dad7161be6cbd6f3d77afffbe443ca43ec70d06bf6f3456bea351fd3dfa39d9\
  be79b13dbdad13093e7670373eb2fddcbe1ff95bbe3a64663d43c7663e6eed4c3e051400bf18364abe3e248cbda6bed2\
  3eaffe3a3e23cc523ffc68523edce06c3d960cbcbeb26840befe2f1dbe412227be6f9c7dbf4d03443fc898e23ebbe5bf\
  3ddc3fa93e9738333f3291f83d233873be43344abde6d61fbf23f8913e7d2f8ebe0f2ca23e6cb1b2bd24ccc7be98ca0d\
  3f7074b73e7fce2bbfdedbea3d9e716dbdcc86fcbea046203e63a43c3ea3d9c33dc67241bf9fdac13ed06700bf8b3d2b\
  beb202c03d615e46be93eec23d714880bc8010313e5a1024bf97bb03bf730a5b3e3180dd3e5d93ad3e6a7fa6be382557\
  bdbb21b7bc74667d3e94ca6c3e8252283fad48793ebd56d23d2da327bff54a18be6978af3ea319593aca7a43bfebc634\
  3f8b318c3e6963b73a31c5183e01e6543faceff93d9a3d37bd6fddb33df5ca3dbff8e7c23e732e87bed932b43e3bf002\
  bf072513bc2e1c013f2daaa73e22eb47bfa5c160bd7d62463d661234bf7e99143e2ad9dbbd30d2f53c1f6b29bf416201\
  3e78068dbec8d5a5be02fd9dbde74deebe7aa9a8bd442c133eb74d823dc3d032bffab7e93c32010cbeb51f8a3e09f299\
  bd0039afbe6d476cbe3c9bb7bd5afa693e85ae1f3eeb9ee63d17d0cf3d38c055bd39aa30bec0058dbc1a7cae3d34e3a7\
  be819337bf0d28623f61bead3e0027693d7671243ee7ab413fd5ffae3ccd00933def5bd73d7e7908bfac90f23d57308f\
  bd75e4ce3e66d46bbef9ceabbe707d4f3fa88a403d385213bfce4d81bea5b3cebe457412bf7b4754beffdf2d3e7bbfa7\
  3e5a3306bfd2ab6e3e7838e7be028e76be539f993ea8e6e0bef53194becc04fb3da34bc43e2c2815bebb14cdbecfc801\
  3e513b09bddd10e23ed2cd11bf3dcb273ec3f096bed90d023f89a93c3e906d573f4e11203ead9f993d3a48b2bd783485\
  be36a1b53ec723eebedfd93cbf3fe74a3fc5aa6e3e1d470d3e13ada63e75862d3f7ddf7a3de7a9b93d8ed7083d8f1f68\
  bff223d73e0cadaabed1d1a83e0bf52bbf0d7ee83dac45d83e081925bed45932bfb0432d3e175cd2bb7f551abf5a4543\
  bd4d51c23e7610c33ea9e702bfc1f2873e46b8653d7aa867be0d17af3ece2b063ba24483be955183bd2baf22be310240\
  bf09a304bfc22be4ba0f84b33c195ea03d8a6311bf20e481bc176c433e43345e3e63a8503e0282f73dbddd5d3e3bdfa6\
  3e6c179ebe48d90dbe87841e3f1e4b15be5fc274bf8779493fc2f4dd3e676f0a3fae81833e7489283f1999d43d9f4483\
  3e5494aa3e0b3601bf45e3583ea10bdfbd158f943e6abab8bc7e5fe2bdf42e213fe3516abee00a4ebf4314ebbde8d294\
  3c180813bf844d623ee3c074beeab9813e2a755bbf021d233e78a6eebe21f475be1eda52bc64facebe98b3a0bc4d2c1f\
  3e99bcda3d41330cbf094bd9bee8cbf0bd7308083fd82d613c08b1a7bed583f5bc18f7f3bd582ba83ebb8dba3e7d5ba2\
  3eedc7903e51b4a93d1eeba6bea81b3bbeabe7f63e1c959c3b25923fbfdd44423f95b7913e02bb5b3d8174353ec8e32e\
  3f9b7e923de229883d2691323e134922bfb887923e906a03beafcb923ef52502bebcd904bf11d10d3f85d524bd1c4521\
  bf32e224bedcfaf53d45e620bfa7f2723dcfc47d3ebb24813e764f13bf05185a3efff198be12e580bea0c508be283cf2\
  be395a48be5389073ec0ce4c3e54ddecbef412e4be058ac9bddd23ab3ee73ec43d6237bcbe212873be0c4b08be03eb06\
  3ffd18493ea8d7043f0a02003eb832a73e176c0abf58f4f43b9396a63df1df4abe381172bf6422263f0a2ece3e76ebd3\
  bdae043fbe28ec7e3fe579133ea96c0abe3f817d3d1c13c8be9682253f24a13b3cde78673e84e4a2bec08a983d6ab5c7\
  3e617fef3ee3eb86bf69d37b3e58359dbd213e1bbf2b5393be4e639d3e5b78203e5d1b08bf88fe223e8dc871be1c4569\
  bee908d83dd97b8ebe8638e0bec100f63d01067d3eb21f8bbe899591be6d091d3edbd13f3ed8d3d03e6fcb25be0cdfc3\
  3d43fa9ebdbfddb83ec3f7603db35d313f837f143e1e22d63d08a3d0bd5e8b38be2d8ab33e5de407be9f112cbf39e715\
  3f436cf33ea9b7523e006a8b3ecb965d3fceca083e2bfe65bd971c483d987854bfe1e55d3ee427533e5a66f93ddfd80c\
  bf039a95beef8d233fcadf673ef336b2be6ad13f3e28fd94bdfd2c18bfbdf50b3d3eae823e83d43d3e5d072bbf3d4657\
  3e354fecbed33e98be14cb303ef1a051be42324d3ecb23c53d071a933c0f3669be97af44be2c0bc63d6cf9023e52578a\
  3e946c26bff5dc113ec4e1c4bdb6c4cb3ee432f13d602f413f5bcdac3d9982233e15aa36bf0d44923e331e803eb81e99\
  bde5a013bf92d1473fe9751f3e14a93f3e22b6993eedc75b3f0bfde43d44392fbd1cbdf23dd56e0dbf50dcaf3e821e59\
  be9314083fbdc5efbed8c068be9a80113f3525fd3e89f971bf6676b93e281572bdf7e42bbf5cabdf3d066b393ee6d795\
  3ed0cd7dbf02a53cbee8a945bf7940c7be7aefc13e1626edbedf1eadbd649e8fbd88a65d3e90756cbe0860aabe6edb59\
  be48c9ed3e21396d3e7a9fa0be58ff82bd6a203ebe20a8a53ee0b21a3e2941b63ea203003f64f7943ee63f1abf6a99cd\
  bedf98343ece138e3e16d082bf8fd8733f8e649c3ea13b9d3deb90ce3e5d69943e6b86303e326ed9bec462c63d00498c\
  bf454a003f0caf77be6f3da83e825eabbeee1919be22ea0b3faf07df3e48fe30bf5c6453bec57f853d573e33bfe45900\
  3d776f973ebcb5ce3ed94e64bf9768d13d9201a0be1dfec3be4677b03e0251e3be6e7f56be974a713d02ca0dbd2b4f85\
  bed70d18be6d12b6bdab42e33d9207393d049404bf149fadbdffbe97becd52373e6e78ce3d63e3c13ebfdd6f3e7ebd2a\
  3d27c9d4be1aa5a7be9dfc563e915720be441be1bef2422d3f3c75de3e1a8d443e4bf7ea3df7ef4b3f5a72dbbc334436\
  bd6961953d25402dbf04d5bf3ecfdb2a3eb9008c3ef168cebd8c7c8cbec434403f6d5b373eead753bf3041f1bd6ed06a\
  bd919311bf00d605beb07205be71b6ff3df86a47bf4523613e3a43a5bea38a9abee0da9d3ef02fdbbe3d6f02becf978d\
  bda4d9debd0a91b1be9df6c7be531cfbbdb37ab33e1c850bbe8a0ff4bec3286c3e4b23943dc760493e4fc4343e267100\
  3f2724a23e231ede3dd9ef94bee92ccbbe31c3fc3ec5af77bd8c4febbeba24503ffcb6e53e14f3b93d8ff5793ea5241e\
  3f3fcc703d8af7353ed0d4793d151e04bfad516c3ea0ad8d3e1e15b33e57e1a9bd29e883bead93293fafb92dbd946712\
  bfe826143ed2d319bd73fbe0be1894e0bd35d7c83de83b253e7eb431bf0343bf3e996907bf1f3a9dbef5b8e93d595296\
  bdd12c6dbe7911053fd0012ebdb52ea5be94a35bbeb009a2bd841ea83e431ef53d294f3bbf92a1133e5b193d3e76306a\
  3e635e9a3e618fae3dfb79333dc3ab43be7de5c5bea94d70be5342e43cbf6d8cbea13d80bf0f55d33e0eec3b3e9d53a4\
  3e0a17d93eb5368b3ffc2e133f20748ebcd82c1e3ef0730dbf090a203fbcd5193ee936f23e885f2abf21b62bbd355dcb\
  3e11400d3e7bbb95bf87008bbebe7cfabee26fa0bef55fa7be83ca15bdf6de053fc5f930bf928469bd701afbbe35146a\
  bec428cd3e76faf0bec3969c3d9f584abd79ad263e20405dbe7da614bf1eee093ebb38443ddf3254bea07ca1be1f7a01\
  3e6fa9cebd1ab9083fec36c2beab48a93ee092a23ea363443e10ff86be8fe7523c1e62363ede830f3b480d0bbfade62b\
  3fef110a3f1dcf5cbd76ccb53e39373a3f38925d3e14d213bed31fd53e364ba5bf0952a53e23d31a3ef3232b3e836669\
  be97143d3dfa0b243f7229c73dc464ffbe3ff664be5b9e70be5ac80dbf4a44833c91003c3e36960d3e8a1815bf27b565\
  3e30f124beb3f8a8beba83503ee1f681be47c1a1bc3b96a53e0be44a3eab0f26beae7159bed09eee3d414bcd3eeaff38\
  3e2f2c19bf7876c63eb8149b3de35d0e3f86a08a3eb1ce0c3f6a04663e8c699b3ef45219bf1ece4b3e4f334f3e5b7b45\
  bc41a055bf7a8c603f0ceb5a3edfcf283e8bce6b3ef8f4003fa3d7593eaea2833d860e14bdf6cb23bfc1b5ff3ef1fd12\
  be023e913ed55210bf1d6098bd3dfb313f8ae15d3ecd0d83bfc34d31bec4989dbe751314bfb02ee4bdf95c533c9c7922\
  3e442544bf9073aa3e3fa409bfe9d38cbe02853d3efae107bf7496a33babc6023f23035bbdc61b26bfdfc7cabe8a698a\
  be9e08e03e41ecde3e4ab823bf19780bbe3033d6becf993f3f60c9963ec889073f3947e93d19c8bf3c80eb04bfc90235\
  bf89c43a3ec76c64be85c476bfbfa9253f5e143d3f702b063fc760e73e35b8153fb5bc5e3d4081e13c09e1d23c59c7e9\
  be7c38953ec22a273e0f0e753ec39fefbd53b0c4bed1ee4c3ea4563f3f091ba2bef70cb6bd7bd959beb8e8d4bee0787f\
  3dfebf013e37824b3e16340cbf8b759a3e0f8a61be138e1dbe2795373ee105c1be98d17b3df256e43e063a763e0d54af\
  be0967efbe6b0b843d01580a3f0ef2d83db6f62cbfa4922e3e599d8a3e4638003f60a4a63e64cefb3e6fd2e93d979f05\
  3e1d1cefbe92168a3e8f57c73e2e356c3d5ce46dbf455b063f397fdc3ecf27c2bd92819dbd1e3b183f8e40be3d0e6ec3\
  3d4c54edbd468535bf106a303fd37503be583dbf3e0e923ebf509730beeeba0e3f49e9023f2c948cbf9d48373d370396\
  be4e1e0dbff55346be358625be39145b3ec63e79bf0455bd3e71fdad3d357d08be54156f3e6bf522bfd611c7bca81bbb\
  3d8d18bb3e4c2acfbe224102bfea4730bed55a4d3d9e49423e27720fbfdd53153e13a5c03df249203bc93e2dbea24661\
  3fde3a8c3a27a7983eb884e4be783eacbe9827a33d699333be590c01bf57f72c3f7aea343ff00448bd5082a23e792c5b\
  3f089e713e007f133e67dcba3d18a275bfb58a863ecb684bbe9714213dd26209bfd0a9b1bcc392463ef63f97be03766b\
  bfb8900bbc686f833ddea654bec42a1cbe30d6413db2de0d3f822182bffa3001bd2d58cabe019395be068f453eb251b6\
  be6e77c1bc69b7e23de16ff93edffaa2beaf81bfbe81af8cbec9b4093e5929073f8b95dbbe6c8f373e734992be3ca41a\
  3fbc8f053f643f403ffa0053bc990f773deddbd5bea749d9be4bb5a03efa3c9cbc0b4f2ebf9add703f919ed73ea5048f\
  3e1de4b03e8796423f5c75a23dc0460ebde876e2bcd63a94bea7358a3e58b6253ec4be863d914579bdfdb90ebd3aff3b\
  3f248f163fa3bc5fbf21e6823d147febbd17ea1cbfae38b7bc5a40e53c4dab813eb4bb69bf21df5f3e3a5ee8be90e1fc\
  bef873a63ed40d9dbe550a1fbdf63d0a3e96e0e7bd159c43be13227ebe40ba89bed05e8c3e3cdcb6bd0ddbb4be712042\
  be4e8789ba7482db3ee571813e3a05cf3e75ec24bd708305bebf0b6bbecde23bbee2c1573dd15c38be807530bfe8324e\
  3fea94f13e11b8653e198e863e415bd63e3f93c2bd3cfaf33dded09c3dba810dbf33dd9c3dc886953ea769ab3e0f4d03\
  be6370f8bedec5353f93631b3e58d066be092409be5304533e84b921bd1298143e8f13813ed34ccdbd819b24bf97faa2\
  bd000126bf31f523bf46d39f3d223a22bfc9d94fbeb9fc19bd9a1b91bed8cf1ebfefd394be1faaf53dc236ac3edc769c\
  3eb02057bfcd6ad43d7bfc4bbe63875e3f89ef0c3fe56b6f3fb222bf3ee952aa3cc24e42bed1e450be69b09f3de383b8\
  bea85e50bf03adce3e1819283f12e0443ff122233e5cc7763f0241203e23e743be51d1253e044f35bf16f32d3e295e3a\
  3e8f95003e4bac39bb7fb65a3e4e931a3f8fa73dbee6fa47bfe667cfbdf39688bdd7e1dbbe66345abe8e7cc03da18a80\
  3eb46e1cbf74ef843eed1261be90b4a9be4fd3913ed656f5bef02e16beac47f73d253a813d227275be1f7826be5469a9\
  be29ec2d3e11cc81bd2733ecbee2daecbd10529bbd9a4fc33e5c1976bd82e4ec3ef6cc0e3e208f1cbd3ebee1bef7cd5d\
  bea15dd53dde2709beb4846ebfcfc6273fd15f5a3e5d13853e38ae163ec415173f6765e73df4a3a83e2e56483eea0d31\
  bfe049803e29ca6abe6ab3853ee14432be03e389bd642dd43e7d9f8b3e8e3940bf0c28823ef51f14be45b72fbfb4839b\
  3d7c4f75bd24b4aa3e488d09bf1943c4be7ff265bf1339bebeb2a9f03eafee33be5d216fbdd75bbabd0adfbe3e1ec429\
  3dd788bbbe79f4ae3a7efc8b3e89effc3eab84c9be66de913d5d5578bdf095f23e6b82313e42cdc73ee6d2843e3ab2a0\
  3ed3612abfbcf451be28d7ae3e8eb67b3ea26095bfa2ac803f70c1b63e0459893e25750e3f6947953ed0e3a13eb029d3\
  be50c6b9bd16d887bfd61b453f7b9e5ebe831b0c3f497f38bf5e28d0bd4579013f37cad33e68b801bf1489853d6529ca\
  3de1fad4be1f71813d90a9193eeea1863d2e770bbfa8dfa53e4fd509bfecdf91bb87dbe03e1c47dbbe2f1609be01c514\
  bd8426c73ba04bdabec07aacbcb077133d5fba2e3d8f4e853e260114bf3ad886bd62fce3be691bf93ef817b43e102712\
  3fb25388bd888dfb3d960d2bbf3f07f0bd1fb3d43e578f07be412347bf9a10563fa53d543e4fa71e3dd7ecb13ef61939\
  3fc296573e1b8511be2e5826bc2c880abf4cc30b3f51442cbe37bb073e15df0cbf9dd7683dc44f213f0f54cd3e8112dc\
  be1e1f2e3eac6df63d456bd1be81c35e3db1a373bd797eb13d66871dbf0690a83e9aff97bed6b416be61229d3db7545b\
  be9cf688bc927f083d1c0418bbeedfdfbe85bd67be05421e3e142d593e6171d13eb78be3becd03493d9f32d3bd1cefc0\
  3e74bae33eb199093fc862df3d55d4d03bccadaebe5fff4abeba9e583d1a719fbde09e6bbfb2b0483f4dea513e472845\
  3e3575f93e48fb6d3f4619bc3e05bf8e3c2bc7183df3543dbfb046033f922c9a3d8bc1f43c3413e2be97bc11beebd3f4\
  3e749cf03e71c778bfbe9227bdbd1ddcbd09846dbf4614953c2076363e5549273f65ad81bfde8866bde04be0be49958b\
  bd42c9033e2ada30bf3e402c3e5082293fb911873e85506cbfcf6895bec26d493e5d11e13e68a9403e2adb6abf704664\
  bdab605bbe6bfa0d3f4fe9ffbdeaf1193f219ab43d45d5c33e84ec9abeb9fb1ebfc0c13c3fa02c2f3e67885dbf40da5f\
  3f88549a3ee90b933e9cf5f03ec3b56c3f1cf4093f481ccabcfc3c353e0ba4fabcc905853dbcd5253e6f19be3e18d894\
  bea21a2ebef1f6c43ee9ddbd3eb837d1be22ab3e3e25400b3effda3bbf97b5143e4cd8503d874d6e3e30e02cbfc784a0\
  3ee49e04bf7e9cb6becf129e3e302d8dbe4507e93cd737103e914ca33e72bb1ebec24990bd496f10bdc3ae943d446dc8\
  3e5b828ebe2ec3323eef6e14be6395ee3e0752a03dc387dc3e5f80803ed1f6f43d0c2bf8be00e5a3bdd461993e4cd086\
  be435f2fbfb981613fb33ac23e057e9c3e22da613ddb89503f9b558a3edfc33bbefe79b3bdd10717bf101bd53e49651e\
  befaa97e3eef24f7be2da90ebe585d313fe62d203ffef7c7be13d41bbe58e0563e5e6ecfbe049369be610db33e79312f\
  3d7ff419bf09a16c3e4f0abebe94d2dfbeaef87bbd1a8b1cbe603733be874b0ebeca75bebce66033bf2c81513d2ad948\
  3e8ad5aa3e4b7fbd3dc9d905bfe439a2bda00d9fbea5addf3e6994ca3e9d1e2c3feeef203f494d52bde3b207bdd61362\
  be62cfb33dfdc96c3dae1952bf7174133f8b5c1c3ef6ead73eca36003fcabb733f4f13143edfc9d03ed5f59bbd817826\
  bfc379b73ec479cc3e0b82e23e606dbdbdd2c997bec23d143f4444b43eabe031bff092a13e635ea9beda9c47bfd43965\
  be6b5c2a3ececf0a3ee69db4be0584bebe983f71be6cdd2bbf4c4f703e83b211bfba86e5be8a798fbd5fa7543d4d458d\
  be7ade6ebe7dcfd93ecb47663e2ad2b83e9ef8afbed9dbae3d1e32883eb20dfb3e9c8103bda667b03e118a5d3e3c33c8\
  3efb644ebe8ba7773e384baa3ece6c1fbe10352cbf37158a3f0e1c263f3849d83d6f3bae3e4b97113f4192923ea0b1a4\
  bc0490b1bd29893cbf9788bf3db856893e8f86a23e5917c1be3c2285beba5f403f8934103eb54703bfe3711cbeed2936\
  bee25bb2be471ef6bdb1793a3ed9b9553e08e64cbfdfc56c3e8930c6be2e13dcbc43044f3edf4f9bbe3c6b883e8d9d57\
  bea22deabc002b59bf813b91be67458bbbb8fd523e02868f3e5a266fbf0dc1193efe50e4bc100b003fffe71e3e7aa01f\
  3f99eb2a3e5323403ecc5d9ebec5cc9e3df9cbe9bda9c603be65dd84bf51680c3f6fd4cb3e7f07fa3e187c1e3f50f292\
  3f2473ef3e69fac33eb8df5ebef08c23bf1e33ec3e9cfbebbd765b203d246bd6bec2eba6be0437313e85f081be90a460\
  bfb4bc003fb379c13d8dfe61bf2543afbd968a9e3ed3b0303eeb60fdbe3c25a03e671fc0be4fe258bfe14be33dd776a1\
  be22991ebf6322c8bd149d4d3eba856cbecaed94bea0686dbec87bd03e4ea9043f781627bfbd8d273e310e09bd4b0fba\
  3e98661c3f436e3e3f92f80dbd51f245bba05b87be19573cbe5982eb3e01bafebee467b6bee5240f3f929ba03e93c212\
  3e3d34d23d11901a3f9483d6bd1036b43ccbc0163e4ad72fbf7ac38cbc397420beb419d03eb800d3bea28704bf830f54\
  3f4fa2cc3ea0e80fbf3a7a87bed5bf8a3e26edd4be1c5e3e3f15c61f3def0b243f31599abec018a6bd76ce31bf8de1e8\
  3de6cb043f9cb161bdb911dc3e900c1a3e9462c63e770d06be9b62f9be693e11be2592333e70184f3f4320d7be1adfc0\
  3d3601a53e6d2b103fa92c623eb437853f4608ce3eeac3a63ebf238abe091eacbe79039a3ee0ea5b3e59ab5fbf8ea96a\
  3fa175e03e89fb783cbe09073fa8061f3f448f943e0bf3283cd77239be67972fbf5d497fbbaea694be196b45bd9fd1d1\
  bd8c9e97bd22370d3f5f4b3a3ffefe28bffd22883d912fd93dcf950cbfd6561cbe86c24e3e6f9bc23e40ad5bbf96550d\
  3ef8262dbdd3e676be9c92eb3d5044bdbe6d5ed0bd8f605fbd977f53bc7ff920be7cb880be7ced0e3e1ca2813e56fbb2\
  3e1bb627bf09dadd3c26a321be7ed1073f9be1db3e4fbbf13e2f0a453e7629e93db92b57be0cd959beec73573ee2ae0b\
  be6a2434bff17b383f8db19b3e872912be16caeb3e1883463fadb2863c3a24053efaca383d208bf1befc56333f7ec622\
  3c7c0e4abd125cc53d3674c7bef554063fb3fb403b7367b9bec1542fbe9771bb3d989e2fbf8db9d23ea446f23d9ef725\
  3e0941acbe1fb3af3e3461d9be3e9b72be480bc73e2ac381bd24b804be8a7011be9a3b4a3c09a7cbbeef2bc2bda1773f\
  3e4b072f3d09a0ee3e01f9f6be5cb4eebd9d5481bee5fc263fe0fc313e757b443ffff99d3ecf012b3ea4dff4be4736d4\
  bdf997673eb2cd1cbc42f154bfbe29463fd8d4a33e92ee803d24c5023f43fd2c3fd485b83e253b62bdf41c553d288308\
  bf0885263f859e7fbe65b24c3e0c7b2ebf5f6c223d7ee4303fee4e413e4e57a2bed56c8f3dc348e5bd013938bf5fa101\
  3e814b9e3dc161d63e9f041fbfbce1e43ee99e4fbeac47b6be1bd7a93e9dda1fbe6d2e06be8a3f0b3d3826df3d68d28b\
  bebfc59bbe491e01bdd453ad3e8facfa3ed1be47bebf03223e1f2d2ebec120653eb224743e4a08b53ee37ec43d94c7f1\
  bdc4b9cdbecbe4d2bd9dd321be40f0033ec36ba3bfa2c3753f9c87adbc82f1923eca1b753dc8f6563f1afbb33ea805a2\
  3dc26af03d214b47bfd7ee293e5e9748bee808203e0e0314bfe5550e3e8057e23eb6567f3eafd70ebfd88be63d98d642\
  3d29bb35bf4c4be53b30be393e77207d3ec6975cbf23848a3e55a866be0bbe9ebebb14abbc987010be0a68423e983bf4\
  bbed2c613c3351a3be2e6307bec29fb23e5ae3c73e8c16b93efb5074be38af8c3ee04a19be378dc13e93009a3e46a5eb\
  3e2db78a3e2e4653bda888f9be96ddccbcc4be493e35a191bee16a0ebfffa1363f2f97d23e56486b3e9f91103ef03246\
  3ffac4073e38571ebe0a07ab3e306f33bfd3d9c93e3a13863c355cd33e64f4c3be53c081bedaf9333fc010db3e1f2b71\
  bfecefda3ed3814ebe18924dbfe969143c0d1fb13edbf7223f66cb39bf3f21a8be58c4a6be721c87be01f4633eb5b717\
  bf45afc7bee8c6c93d929b78be21b9f3bed64295be4d00c5be9767bb3e8428583e20e64bbfe27079becdb4f1bdd544b4\
  3e1107f63efce0d83e6fd5043ff8e2d1bdf64984bf6a1b27bec68e473e61df8b3ed89723bf472d1d3e9b35293f89d99d\
  bdabf4f63ece29eb3e94cdcc3dc45683bce19f8f3e626883bf23ba173e3c4c973ed847cc3def59b9ba67851abf21426b\
  3f4fdd183fbe8204bf32d97c3d6318b5beafdffabe268bd4bed16f953d1f62533c8e9550bff996703ee16bcebeb66854\
  beb5a9de3eefbc16bf0e9cfb3d3d1db93eb720913dfc8edfbe32e2a9bda87426bebb54bdbd51e347be0fde38bf02babe\
  be49195dbe8133d03ea031a63e9bfa973e3185853ec494743e26ddd4be2e9831beb739e83d6a36ffbcef53e7be8d3959\
  3f6edde43e7873333ec798563d38d74e3fbf33f93de19cd43d033f483e258016bf9bee4d3df3810d3d6afd9ebb5346af\
  be5b0ad73c46a90f3fd07b4e3e05e1c53d3d6a67bd8094093e49fbc0be08c2c03e7db7383e8d46963efbd4e6bec58508\
  3ebf8aedbe517855becb20253fc64f363e2752a3bd704d5a3d927ec43e11b921beb2398dbe223e9f3c8be2f73d3925c5\
  3edc424cbf25f42ebef0df7dbe3dc1cf3e238a243fdcd1d73e3d3558be47a8483e732ba8be4de139be9c65d23ecbee13\
  3e42d5e7bea495473f126be93eaf6f2c3ea94bcc3ec6094e3f1bc7eb3c355329beb9f2923d70fb16bf2e1b5a3ffc7063\
  be657af43e6fb485be84bc7b3d4373943e254e0e3f637c1fbf41ff053b1c2b25be2b2b34bf20b74dbd685f4a3e74e5a8\
  3e5ab76abfcd81c53eb5c8cdbe8f4f49be4b0249bd122314bff66953bc3bbdaa3eeccf103d9755a7be677988bdd4b804\
  bf6a6eca3daa4c4bbe234f26bed59ca5be1304e83d8e488d3eaef0943dca94053f7c0c3dbed6ddbbbdce5245be366591\
  bdb8b1913ec456c63d7f581ebf82575e3fbe32be3d8df2c9bd46d7e73ee68f703f0f0d97bbb47c0d3eb4cb273eeb6888\
  beeaa72d3d42aa023e7af6c03e1ff983beed37013c0a80083ebf7b42be415a67bf00e493bda594b7bd6d1713bf6f6d5a\
  3e4b35e13c15688cbece74fcbe3170953e969493be22e323bf6725aa3d9b0bdabe9c0bbebdec15c5be723215bee58b86\
  be720cedbe1df905bf95519d3efd0bb63a81b5a9be222aa2bec3a1b6bd947e853e55620e3e5f93353faf1aa63e313d5c\
  be48dbc4be5e50e1be62abc33e9f40503d62f263bf1b1b213fd6f6573fad4d2f3e816304be70efce3e0def9dbd756900\
  bd09dfb5bd08d65bbffa8a583ece8590bc81b10c3f223505bfa7dd04bf570f133f7c3f5c3e8f8ed6be112b84bec58f09\
  3e7264b8be443c79beb2a3e53d9029113efbc8e3be75b77f3e946034bf2b3d3dbf199c36be9488adbe1c2d8c3d036ac0\
  bc03d89dbdfe1d0ebfcbb37ebead3fbdbd8300e33efc7f4a3ec50a65bfb075293e749657be000c3b3f8e90f23ed8c441\
  3fb02d113fa4a4323eb402a5bdfa09ecbcce15d8bd8a779abe309560bf5ff8183ffada8d3e79ab023f1d1bb63eaf4152\
  3f0aec9a3e3c3361beaa85bbbe202baebe1b7e833e316e833eca3b133fc93e103d979b87be004c663e75643b3eb87a2a\
  bfbc00963e27ba99bc527643bf3909953dcce4963e0d4cf83e632984bec1170b3f5a4f1dbf3febeabee82311bde09ffd\
  be159a21bf92b550befbc56c3e59f63dbee59794be45a75d3e51432c3ed2e50b3f257396be5786bf3e0f77b7bd8c81c4\
  3e271d0d3f621f073f1340303d2383e43d40be27bf9cbf72bd9aa0b63eb1b710bfa4971dbf15cc2d3f30ff4b3e93964c\
  3eef51933e39ad063fdee05ebe1870b1bd70c9da3df11284bf90729e3eb29101bfc08dca3e932d4bbf7d52e2bd436431\
  3fae7b803e73b919bfe8cc15beca8717bd215f4abf6ab49cbe535e10beac31ba3eb88844bf9aaa7bbde3e33fbf528bee\
  be00dc603ed34c6cbe300f67bef223623e39214c3e3859d0bee7399bbe6da1393dc1d1273ed70e4a3e976c27bf52a2f5\
  bd16f6d4bdd365f43ee35bd6bef2ad5c3e229263bcc53f27bdc221c6be12df8bbeec3c913ebf1983bee3be30bf8dc038\
  3f8caf853e3b5e89be6369a13e911d333f16c0a33ef3f30d3e5a00ad3ea983f7bee6dad83dbd6000be536e743e1dd3a5\
  be287a93be98d0fd3e97a3453e307731bf556345be4047843e842f2ebf6da519be4ec6353e2d378b3ee7fc6abf959289\
  3cc89ac1be626193be19318e3d095215bf65ff1ebe9411513e862d19be09a842be39b278befa5c2ebe5cebc83e97d987\
  3d7c61b3be1f1ba73d68c18cbe0ea8993e23fd3d3ed327093ff1c7ab3d06e6df3a79fa80bed47744be74c3843e7aa287\
  bde0ebeebe32bd323fc5e82e3f5ddb2f3e8ac2b23dcc293f3f487f573ee29889be3072633daaaa10bf86f15b3d568c86\
  3d65da693e0ef2ddbd64d7c1beb524243f646cc03ee3f637bfb5166c3dbecd0dbe0d461dbf3f225bbd565fa93dfdd800\
  3f2a2a41bf3ebaf0bdeb03f4be58f0f2bed34b8e3ec124d3be6c8ac23c1d663a3e6bde173d62da1abfa87abdbe62910c\
  be9e8ebd3ea93becbdd0ab40be44753ebed5d4cc3d556dab3e0c49b53dc1c4ab3ea37f8f3e5a47d7bd766c4fbe4f4f09\
  bee106083fdebe8bbe497485be1bd1573f4831bf3e9cbc7ebd3425963e2fbf2d3f0246913e77053abddc601cbd70d062\
  be79710d3ec75f903e44e20a3f5e82c83ca4c501be2e90743ec038693e9e1c5abfb71d84bd8e3afa3a96820dbf977bfa\
  be3081243cd6739c3d46f75bbf523cc63b7768cabe8a0db8be4b5a813e7d4b00bfea05843dcf5de73d0b1402be6cfcda\
  beb18044be7ed1d6be9873143df092393e474092beddf4193d316b57bd0808023f0e11f03e111ad83ee7db1abcb1aaff\
  bd4ef976be44750b3e6d14073fe79988bef9309bbef4e23c3fe73ba03e3e47023f59b5643dcc1a493fe2ce923e4f7061\
  beaf5e323ee76bf8bee130f63e01d7cabedafd363e6285a3bc4b6686bebf83db3ec2fa743ec2a91cbf501e893e84e1c4\
  3c1f0c81bfe2701d3e295a0bbe6e1a1d3ed38849bfd3f851be38fcf4be41ff10bd278675bcd2417bbe2eb7ac3e02f1bc\
  bd06308fbb11432abfa0af25bea139803e24090c3f2bdfda3e5f84bbbeb1963bbe940519bdbcdef73e798dc33ed935f1\
  3e07e88b3e563ff63d2613abbeb9f2adbe5f96db3dd2720c3ed13a4ebf6008e53e4414a83e31ccc43e78d4053fb41546\
  3fb02d62be7afc9dbe9e7f4d3e97e261bfd8dc683fc006abbe66522c3fcd1535bf1218a73dcfac2e3f4432253e55ca30\
  bfe1dc9b3eaf5af63d80086bbf1cb64f3e8f16b4bd6c36483edf9e99bf3ef1afbe760349bf120ae4be24f2c73ea81321\
  bf77ccbbbdf2ec92bd3296be3db655f43d1bb88ebd8e5d063dc84a913ea155ecbdf7a0e5be43aea93dbf194dbe69072e\
  3f15dd96bdf8c3223e5173fd3ec7d10bbe129c32bf20e912bf0cae873efca6b43eb3528dbf130e1b3fc66fe93ef27a01\
  3f7376c83eab55873eab99bd3e5986013ee663023f5e7335bfed94733ff259b4bdc677c33e0d0286be2fb983be0bbbe8\
  3e974084bd76c389bf5729ef3eccdd9d3e0c4322bf31498b3df1bb813bf4c1223ff079ddbee8b78d3e2d98dcbe9c296b\
  bebfaf423e92a936bf2d9605bf9c5fdfbd4aed92bd156ccdbede701cbfae26afbe928d313c1a77f03de26d15bf0239a0\
  be4b6226be531f563ea3acf33efd88353f59d6953ce9fc2f3e90e318bfc3217bbe4b42523e16f136be2cef93bd3c8305\
  3f7a4a263fe78e823ee7d4363e4973e23ea0bae1bd1447d43e1a9ef23ef43878bf532aa53ec6ec863eda0da93ec72ad5\
  bebdf1f7bec98b023f8c6c2a3fb8933fbfd1ad543e37ca12be277b2ebfdf54e0bdc466f63c6f1bd23ea00116bfe47194\
  3e755110bfe462a4be97b6d93da68d00bf94de59be640afa3d307f443bd988b1be1f7020bf0142dfbef055963ea6e112\
  befe153cbfe9a46abeae1f0c3e0ea0633eae0cfe3edeaaed3eaf4d9a3ef2ae383e8064a7be275a8abd836f063f88ba0d\
  bec8cb9fbe73724c3f8e4a273f0409713a1092d13de540893e37e5de3c35add13d46471a3e9c9fd9be28926c3e614310\
  3fd5f25e3e715686be6c07bdbedcbc1e3f6a10a83eb24db7be02c9253ee9cbc93c6f3831bfd00e8fbee23d0a3ffb1eba\
  3e9eae5cbf053a2e3d91e810bfe620cebe2829b53ee33f13bf8b3cdabd621676bdf93d16beeb81f0be24af9cbd0384c1\
  bee548823b2aa93d3e3b3e1abf1264383e897b88be3f66403edf32403ef669fd3ea47aa3bd7f1090be0c3109bf166efb\
  bcfaf3cc3e424cc4bd2da2d5be6daf083f4824313fa8a4913e5e0a393edcbb673f5db52dbe7ebfd2be78b45ebe29a22e\
  bfd7b2793eb586393ee5814a3e00cda8be25482dbe5aa8133f9916253ee61257bfe45b0bbf648fdd3dc5d901bf8e92b6\
  3c4d71303ebf9f983e8fee92bfcf620c3e3cb523bf1904eebd4bcc9c3da93f23bf029240be3222923ea5d79dbd037f3c\
  bca840f7bef25eee3cd6c3dfbe0d91d03e7a56dfbeecdbaf3edbdbe3bea88ff63ef1bb0d3fce6f9a3ec7dad63ace82c9\
  3e2a0caf3e898e08bf119b2abe652ef3bec79488bf0f70873def79e73ed74988bec854ab3e8c14513f7fcf8cbd482c71\
  3ec581983e043e8ebf5451133d06d0c43dd04dca3e84701fbf692191be5f1a2e3f067152bb097b2ebfd47e3bbe536a9d\
  3da14744bfb63ba03d7a36b6bb0323873eac3111bfc3799f3e2ffd03be04b1d4be9e370cbd0b4909bfe66cd1bd3a51a2\
  3ce4a831be80fa9bbe663c90be44a644beea28c83df16c013ef0b342bfd5871ebefd8c0ebeb62eb63ee86c043d45acba\
  3e36b15c3eb47f833e11b58abe3542b33c5365253e48a845be3ceb6dbf50d60f3f66fa9f3e2264613e32fd933e1f2e62\
  3f3d3eac3e48c915bd7f1599bc215417bfbeba523efb0643be6ad6fb3db26e60bd2499433de9cbae3ed0d14f3d94de33\
  bf270660bef0d72b3e56b110bfdca2af3c7076313d5fe0963e475d82bfeacddb3ee84e07bf49ae8fbd09afa53d1d3512\
  bfb210bd3cf411003d143c1dbeca81eabeedff8bbe0f9497befdea803ec370133e0097e8be8a9cabbe74093cbe281cb0\
  3e5382a03d400b1d3f19f63c3e5d53bfbba6449dbec37c95be9be9613cd77e58be93d12ebf31ce133f31feba3e02ca34\
  3e04b6d43e6682413fd918433e2238bdbe5277f6bd5629cabe07ebca3ea4acf63b6f301c3ef320243d81aa3dbe492edf\
  3effe6bd3e409ed2bee995fe3d1e09163e47a9c0be4930983ed795d2bc7b999b3edbc9a7be4ccb8b3e6136b4be4b0820\
  bdaba9043f25e192be26248abed0f902be7352e33e9eaf16be76a69bbee5d3803bbf5c1b3e86a0b83e4a0ef3be3610af\
  3d35560fbfd3fbe63ecd1f833e1df29d3e82402c3eeee5f73dac1825bf341052be4a47e43e25ea40bc04c23abfbd137a\
  3fd498c73ee834603ea8a0303ecb8f423ff7258e3d8e2f44bdacad45be1654e7be3cfad83e02a6abbec619983dd0551d\
  bf3cc7a23e849d263fd1a0633e89b687bfa86ba53e38128f3e79cc43bfca66033efc31103e84ca183ff2a59fbef8b128\
  3edff37bbec38817bfc4f0053e7e9d2bbf6434c5bec961f13d32eca6bd880ec9bee23b0bbfd8fff9be1ac4c43d5ec9bf\
  bd5beb2abf917bcfbd0fcb77bd8947073fcfa0e23e21b8c73edf71e13df7d3493e4dad34bf12b190bd3c7ee13e2cc5ec\
  be6b04aebe4049b43e00d60c3fc5c4ef3d78e4323e824ebb3e60726f3efa84233e82b7373d3e61b5beda94643e2aafe7\
  3e563a063e3fff2cbefc69afbecd661a3ffc9e253fdf723bbfa8596a3d070c653e51463cbfe70b90bee618b33df5a9be\
  3e74a951bf563a9bbd144952bdc9b9a7bea7bb913ee906d5beaaeffcbdf986a33d1c6d83bdef9e82be786abb3caf13c7\
  beeb32823e1c1aaf3ccc4cc0be744883beef614d3c191e883e61bc983ee377ed3ed9fb603c42c197bde91c2fbe7f218a\
  be891da63ec1e70a3c656e1cbf6ed8463fb17fa43e3980c13da40a7a3eccc0013fd60b683dc8ad223eed432d3e2364c8\
  be53d6f93c4311583e6780843e284cc0bcad0b70be1657dd3e18fa153e1ebc30bf7663d5be3b86903e9548ebbe25ef2d\
  3e1d40603e27eb8f3d57780bbf3a09b43e56e62cbe4ec165be2e16433e1b6ac4be2847163e0e16573d8d0e34be3f9a1e\
  bfa9d8adbe436cb3bdf88d823e11e1bd3d76fa08bff9b247be5feaa3be9983c83ed451713ed347113f23e1143ea3efbd\
  3e1dd4ebbe15452bbc2a5a3a3d83df5bbee43e74bf9518033f02eb013f2161c53ea9d87c3eb6823d3f80e7b63ef6a711\
  bebb0e2c3eb13aacbea2e6693e0f95aebe23ca8b3ee34209bea9ed0cbe08afd03e85f4093ea3f074bf6336adbeec1a01\
  bf42b787be7a8a99bce0ebe53ccfb13e3e5a9f38bf7b2b323eebf52cbf7d34a43efca5143fc7058abe641a7ebe1e2991\
  3e22559d3d44e418bf0c41a0be59cb36bd3350e83e38beea3d372b0fbf1b7bab3ed4f3ffbdb2b8043ed4b14d3dca0b5a\
  3ed912133ec154fb3c2a40cfbebfb4b23d8c0a9abe5f07b83d7d7162bf667de63e8b3ef23e2192e23e9900c63ecb451b\
  3fe6cddb3e417af63dacb3833d5d06f2be2a785e3e95bb0fbf0cc4403fddf408bee55c03bf4d944f3ebcef453e6c3ad0\
  bd1bc77e3c1f4d1dbfdf1dc0bf1afb923ea8bb403ebdd4f9bdf945813d29af1a3e3f5229bf46d9cf3d7a34133fa4622e\
  bdd9f0953ebbd732be7405c93e3fe99dbd201a93beac253ebf3e27dd3ebeeb0d3f62e1563e0735203e23ebf23eb7c4cc\
  3d628fd23e47f5c63e8dbf333e8c368b3f4adab3be771e18bff025b23e6e9e70be896865bf07a50e3f40a2af3e84cc1f\
  3f3992663f8e4d983ee3fa153edd30133ff96db5be9a1729bfccf8a63e6c5b34be9554913c6c964ebe70b402bf11a30e\
  3f46b2c83e815ee5be334be7bd474f2fbd617f33bfb033ca3defb6283cd270263ef6fc1fbfdaaeb43ee56844bf4ee9b0\
  bdeda7ab3cec5e18beb5d8d73d7a5875bc19e909bef6970dbf9b20b4be4194083d8e4db93dcf80d43e70e2fcbe2d2f38\
  bd6884b5b9eee55e3e8a25b73e7476c83e23aa893e8327383b4f2cefbe2cee8a3c770c253efacc53be132d3ebfcdcc25\
  3f06ab103e6ac38e3eb3c6b43eb8fadc3e71c1773e130933bee0f1273c164b25bfad84fb3e2a5706bfe8c4883e0161db\
  bed8198e3e071f463f520a963ea6ae21bf65227cbeece69ebee349cfbe52ccf0bef8a87fbe10a7e23e822930bf332f8c\
  3e638a22bf5ad26ebee484683fe80689bf791ae4be2704653eaf36e0bd896b36bf647e42bf9f9afc3d0376053e02c3d5\
  bd7bc122bff43014bea464353ebecdae3e2025da3e30567f3f5d600a3fde99433fef7ae8bdd906c8be14b1a23e5de950\
  bd80bfbcbe8a78863e81584c3dab92d83e8877803ec02b0f3fb570583ee77220be69bd1d3e8dfeb4beadf5713dd862f5\
  3dc019e63cb32b69bded1915bea1b6ae3ef79f5c3ed5f790be7d5fa33e9037fe3e5e2796bdc94f4d3dee985e3d96dfab\
  3eb3ac44bf6e67c7be55284bbf0e302bbfbc04fcbd9b66f2be1e2eaabe422e243d7260cd3da05022bf576dc1be8fe3d0\
  bdb5782c3f0abc7c3eab166fbf7e11e0bb47f9adbe821b4c3f6b65073fa8667e3f16d0403f8b926abdf65521bec7c2e3\
  beb70f18be2bc9093e4acfb4bfe65b223f0240093f57ca5a3f4348ef3e4aba363fe82b603eb1016dbe0897813e460771\
  bfcf2fdb3e2c6682be92c82d3ea9eb04bdd5d41bbe04b8383ec36eb8bd8cd7f8be24159abe695e86bb9d6825bfef6611\
  3e8be1d03d47df803d196314bf09addc3e9b35b0bef06542be40870a3e52d7a1be3ccd77be3ca0b83c82b87bbdc80da3\
  be77c8f5bdf8f3c93b9e2b3c3e275a9a3e08cb1bbfb9ef6abe7e5c80bd8644143fc117413e9b8ec23ee861983e6e8689\
  3d293c41bede23703ddc60583e508bd0bdf60164bf152e2e3f92daec3ed4167a3e80fa3b3ebf0d153ffac54f3e76e37c\
  be1bb146bd78ea42bfacad153fa2ec693c5119903e75f7b5bef889833e914a043fd45f8e3da22e67bf4671073e3117ea\
  3c2b9327bfdf561cbf2fad6f3e3077b63eff4c4abfa583e0bd23dc06bf1881b5beedc1ac3e0b50e8be687c5b3b4bde35\
  3e0b711ebe16b777be482c02bee4c238be6d1b9b3d3507863c5cf013bf6ae917bd9dc648be1f488f3e1e6f353ebecf31\
  3f4f870e3dc7a1fa3df2bd65bedb9095bd3847f53e3c60233ed42da8be5520223ff72f153f6d19523e6d1769be885945\
  3f085f0f3ee95f73bdc937ad3e9d3f05bf118e3b3e37fdbd3ef52e843ed06fe53d2a659bbe81819c3e16ad113f338d19\
  bffc53813e4398c9bdabed01bf4a01d4bd5246a23e6d070d3f7b721dbf92aac63e9587dcbe57aa8cbefd8e183e58cd79\
  be3a6981beb81ec43d43f27b3d5cc74abf0279f3bebf22213e056bd5bc5322043eba0290bead802dbe2ab4b13d3914ae\
  3e5f30833eea5c973e52ae953e7324ae3e4d51acbe17fb88bee6a4283f0c2eb6be221456bf093bf23e1dab4d3ea2450c\
  3f698dbdbdacc92a3f92c44d3e0202903e999ea83ce725acbef3ce643ec67c043e734ba63e0b82453d6bb9aebef85a16\
  3ff24789bd0d0f5fbf62f6913e5eb9e7be628107bfc7d8a4bc52b08d3d2975bbbd867f34bf222fad3e559d2bbfcf5aca\
  beff2be73dcc20edbe76d783bd479f0abe274f2a3d8ec482beb8ad7abf7941ccbe5bcf133fd86137bddf3b76bea28029\
  beb7a8a7bbb229033f3415583ecfc7be3e721097bbe9270abe089c60be5f9b9fbdd6236d3e3cec2a3d30c5debeb27522\
  3f332d283f4917193e8036ac3e9ba40d3f0769293e3d8c923cea5991bde04523bfddb0a8bb14400dbd05c2bd3e1a538d\
  3d449480be1cff2c3f6dc4163d91ad21bfd4398d3e7e615b3d20f46fbfcd380fbf6344023e18b70b3f940f80bf365ea2\
  be888b33bf393f07be3cc3803ef06de1bee45aa6bdbbf1243e67d309bed724e7be35a343beab390dbe59d7793d16ba26\
  be20cfb6be515cabbd91320cbf2d829c3e9386b73eefaafc3e5a195c3ef61da93e016277be18668abe23650a3f460dec\
  3da02e7ebf59ab3e3f0e57883edef7823e5629e23ea2f8403f8165bd3d81984cbc5d07673ea7b532bfe7c29e3e36f11a\
  3ecae5763e8184853d98223fbe63e30f3f8ef6e2bd814b64bfb8d09cbe1633a2bd319359bf6031b23e7e847c3d41cdda\
  3dac974bbf01ba243e719831bf3aa5f2be6f9c823dff1b14bfe8e16fbed8b4533de502bcbd713697be41a882bd035daa\
  3c8029febe59dd9b3e117936bfad8e29bd61638d3d487c783ee634aa3e73dc9c3e6feb093ee9b196bde0c6b4beae9514\
  3cbb4f91be680c74bcd5173fbf2ad4413f44a41f3f3a74dabc0f3a403d30fc263f809a113d3a9edc3efb7cf6bd4c0728\
  beab540d3f30aba7bd67c6b43df0437a3e312e97bec6d7013f5a0ebc3dbb1ef4be13a5ec3c037d44beaa2c50bf84a8bb\
  3e2dd6203d14d0613ec11e13bf978485beacbc01bfed77753d2029d1bc395783be7cbd963dfe34003efc81d1bd5ce624\
  bf0cb202bfb64c823ead55613f3a37f23e1e040ebfb0bed1be1c7d39bfd9b8903e507ade3e5e4b333f16bf063e738d4f\
  3e2d6935bfa0d20abd37f34c3e89d01c3ee5cb11bf3928123f0036813e84db8a3d6149893eeee1353fe6d4a83e480ce7\
  3dd65a863dfdbb24bf3e25053f249aa2be1eb6153f5e8a0ebf3ff9a03ead92c03ee525663e7e09f1be9cc6a3be3556d4\
  bd9601febec3395e3ea618c63ee946353e279c2abf24f1053e58a6d5be41ca90beefe48b3e18e703be2b3854bdbf2645\
  3d52a3bb3ee203ddbd700659be41c1343e17fa543ebd9771bcc25482be89ee583ef3e8e33c63c1fb3e9196373eae271f\
  3fb0fa8a3e50e08e3e804d03bf0dd0e9bdd466bd3da1ba123d817176bfc932533f1ef6a1bda0ba723d0f9e843ead7e0d\
  3f3b59953e55ae1f3d3360143d3a7646bf8395c03e34b98ebed7da663e20723ebf538fd53d9d34163fdfd1553e9f8c65\
  bfb55ca8bca0eeb8bda03e37bfd0ef2b3fc15a173e018dd13e152ab0be92ab6b3ee0708abe5369a6be8b69383f2e8a4e\
  beb9ad483e82678a3ea4484b3eb0aea63d788cdbbc6c6b2c3d5397c8bd89c8233f0c324cbf030552bcb991833c790f3a\
  3eb0c9fd3e3215623f35efc43d6322b33e558904bf2b0a433e911ef1beb7a1603eb82733bf48aab33e6605c93e90efb9\
  3ed80a1f3ffa5ff03ef8f2eabe1f353539fd348f3dc34826bf57acf93e735525bd94c6793ee4e7c5bc99a42fbed06282\
  3e5d29183f77fc8abfec386dbfe0d4f6bea68424bfa9f23bbc119dc83d41872b3e675563bf8320273d116b22bfe638b0\
  3e9b4f4d3f09ab8dbe452291bef87bad3eb81393bed9a54dbf84e204bf3c86bb3e1e85cf3e2cd409bdf2ff34bf9c6746\
  3ef7ad58be0422e13eda55373e56e6b53e17a7f23d4f1a263ea19ef7be865190bda0860fbfe1a4bb3d087986bfc3d0a1\
  3d8abd373ff019ad3e0ee9043f9f2e813f84a2373e2dc5ebbe27c639beaeae2fbf9694003f6d4a13bf4d99403fd3130d\
  bead1330bfd8ea8cbda79507be657bc6be626f403e65f2c73e89e50abf46da58becbf09c3eba80a03e3fbe9bbe4e27c0\
  be64f7bebe1b4616be36d2c73d55960fbf9e4a443e647a383eb7248d3e234b90be42d0d5bdfb70b43c5774e93e241bc9\
  3d1f3417bf932f4abee61b30be6db0783ec222c03ee4cc853e3d51073e62ec2e3e9d4cf2beefb6c8be659f8c3ddb38bc\
  3e2cd990bfcadf543f89c7c43edf120e3e3e94093f9380743f3c0116bdea92c53c8d0dcdbc949483bf9465743f000737\
  bfb547423f0b44d2be3903523ee802383fa3b8a63e73d540bf041637bef897ccbcdf2d11bf98a1223f4e6d813e3d9fbb\
  3eba37d8bdd1831d3ee3ba1dbf4daf08bf59647c3f2ef437bd54cbf23e0e1e173f4e07193e27db303e05da91bd384f68\
  3e74d95c3e96ab6d3f952043bfa919343ed2c868be6ad8c13e2b1fae3e2835453f8262113e6f13f03d88d11ebf62f271\
  3e3a09bfbe36e36f3e129b67bfbf0efc3e41617c3efcf6b53eedb0d53eff502a3f25dcb4bed6858a3ef085b0bdea5f23\
  bfff6ee53ef6689ebe12576d3eac8e8bbc9f6150bbf32ca73e62b70f3fde8053bfcd0ca43e7898da3c725ad0be5244cd\
  3c8674483e8712d43eb03d5fbfefb783be0c7d4ebfb5ce17bf6a94663e666667bedc5342be4102913d4bdf093f690b2c\
  beefde88be19b426bdb34fd93e620e453e966d8bbe9db119bd215552be8726183f7724253c6b2ad33e191eb53e51dc0f\
  3e86740bbf295e80be992c253e06c0943e3b6c8fbfa771323fde509e3e612e0b3e19f7a53ef0a4be3ece567b3efdde47\
  be1aed64be91fa76bf96a4e23ed0e866beef397a3e8a3016bfe15de3bae8752c3f3d00e13ec76a6dbff3f87dbce21569\
  bdaf8be2be1242f2bd70f714bed784c13e477a26bff5b5483e78b635bc97a38cbea0ef133e066f4ebfeb354abd28cb8c\
  3e18e24d3ec97cc8be8cb6c5bda8f443be8a31c4bd6f04363dc12827bfdd8d693ee423d73cb5d524be3afd84bef3495b\
  3fca18e03d6a5db33db7bad6be9348c8be02ad783e1dd471bec07fc4be5dfe3c3fad8c643f0ae94b3ea8619a3e62b162\
  3f582a603ea4b7b4bc5ba1883e91164dbfb046a53ed73463be6f038b3d0714b7be84d90abd73b9db3d761cb7bd47966c\
  bf6c09fcbdba38593ef014f8be34b0dabde963e43da5b0a13d154acbbeea40ee3ec527d6be8d1076bd35ddefbac50273\
  bebb74aebed64e673e5303393e59eecebdb127fbbd164132bca7b9de3da7bba13d4455afbe29bb6c3e0c52aebe42a08d\
  3e3f39cd3d9b9ae23e5545e03dca413f3d7a3103bf93503fbe41cb83bdfffb8bbd76ba6bbf12d6503f7d00f93edffd28\
  3e5df68c3e7732153f06a0893d7b248bbec3733bbe21d604bf7f61fa3e62872f3e8a0f123e957f77be372c57be23a309\
  3fdd3d033f3f7926bf659911bfbc8f2d3e098200bf002b603ee4cee93e5b73af3e859802bf8328453fa8342ebf0f3dec\
  bdb7590bbeefd705bd810e0c3d1822833e6965dabd9a614abf5a02a3bd86a00abeda6bc23e19858f3ea1c228bfc1ba7b\
  be58bc94becbce273f21e88d3e52e0c23e8875873e6093d7bdc5c04ebe711a49bea05e1e3d262983be2ed7eabeb50e5d\
  3e02d7483eee3da63e618a063f3e273a3f42f01b3f21c938bec2e320befb0aa2bf3f26753f1e4bc4bea5b591bc18a0b8\
  be0e4a47be0d2d713ec8a6283ec357c2beadf745bef6d9623d2d2c9fbe6ab3133fa13d15bb7c63c33e663539bf8c632e\
  3fb39fecbe91c5f4beb9b8293cd8507e3d9cde6e3ea462adbe8abe18bddeb1bbbeefbdf3be23a9553ebeb39a3e548632\
  3f06a6c9be51e3b43bc0e3473d30b80c3f12a7f33e51d6193ffef8eb3e74addf3dcb60f9be9dc9c53b4252733d896fe9\
  3d8e2880bf9aaa193fd0420f3d23d6b53eed94083fdbc1083fc19a7e3ef460b8bd620fb83d097e56bf8f25093fe664fc\
  bed346843db75c3bbfc009c3bd4393e43e7fc8353e6d3851bf0bd6313d37faf3bd6bf50ebf375c2b3da0d190be11aa02\
  3ec0fd14bf4c13933e2b5408bf2675b0bea9a1b63ebcc391be70c8eabd6a2086bd213cba3d27d08fbef35fa9be048fb4\
  beeb62f53eab3cdc3de37d35bfd1fe9dbdb0d9e8bedee1cb3ee610d3bde6ca043f7dd2063e771d6dbde5a0c3be26167d\
  beaca6843e546de1bddacc19bfaeb7113fa0f1ae3ea01fee3dde6b91bee7781a3fa048973ead26f73d1e807bbe756b29\
  bfdd14113e8afbf13d0b44a03e170b24bec424dfbe89cf873e60f4273bf8963dbfc0fd913d3c68d2be34ae1cbf8556d9\
  3d1d6c593d5ad7183eceb47fbf0e1f313e20c683bea2104ebe023dab3e2b38a0be56a9e8bdced1a03b71a8643ef1720d\
  bf539dd7becced0bbff7fb003f6272a83dbdf629bf7d9948be4faae1becb2bcf3e259b2c3ecd2a0f3f0544093eacd2ab\
  bc472233bec2e145be1a9275bd008933be4f31fabea8fe303fd432c03e519a52bee1eb393e3603263f4d050d3f4ae9e6\
  bbbde352be5386f4bebcb3cc3d1f1fb53ecd53a03c9a9397bd7b03aebe6384753e0c1c093e1ef514bf57388b3e4c619f\
  3e525cccbe6d6ee13c8a66bd3e8a73f83ec83d01bfcbbfed3d35fd09bdd1030bbfa8639b3ecd2f483cbff0bdbe7aa490\
  bc805634be19a340bf58bff5be13146f3d44e2423eea20593e6062cabe7e7d083ce379283ddb29f23ebf2c2d3eec5a79\
  3ecca6a93e658e4a3efb35bbbed8196f3ec0ad0c3f36d247bd6568a2bf0b2beb3e9f46693e646b0c3ffc2bb83ef91940\
  3f3df1d13d5fe6963ec1a0593e6955d8beb2ce143fd9c245bebd3ff0bacba779be245350be2404003fa273f7bd458cff\
  befdee35bef1e484bc8938cfbe417ebc3ce789a83c852b373ef20224bfda90c83e916e83be23dae8b9687a3e3eb3ddf6\
  be0fa089bec6ce52bd4186a73d4e52b4bee03003bfe6bb03bc20da6e3eb5e4debca5c94ebebad5603e84bb153eaebaca\
  3e18d17c3ea522c13ef80e353eda88073e0869c3be51cd463efa70873e83f02b3e462f77bf3494f23ef6499e3d1ba70e\
  bc5ddb113e515a263f813a103e123c963e22fab1bd16151ebf4b4e083fc3a3ba3da01f473e7610ffbecc6555bdfdb2b3\
  3e3f1d443e4c14eabe7b60e5bd32e2263d237a23be8e9ca33b10722c3ef4ab80bdf79020bf1d619d3e8db3cabe2e03ec\
  bd79fa433e250400bf1ba54fbe799f953e380c1cbef2a644be5ecda5be8c5f2d3e75343f3f5bceb0bdc1f553bfbaf345\
  bd8e9e993dbb46333fac6c603e7d8dae3ead949f3c678b1c3e7cf1153e775e0f3e2685b23e141087be5e49d3bebde71f\
  3f4bc31e3fa70db83e66e0f33e8269323f4e12c73dd6881bbe48ff98bef1da25bf003fcb3e5b4061be44c9083f55fcf0\
  be0b81483dca10703fce34c43ee50453bfa75425bde66986bea4515cbf77885dbef49e0c3e204e9bbd734e2dbf1af8e9\
  3d0329d3bee398f7be34f90b3ee9e7c1bedf9aa93d68d3073ee0e383bd294ba2bebc40fcbe0cba81beac649b3e616f9f\
  3df83e35bf3a8f24bca69171bd5a265e3e4420b73d1d1b103f019b47bc2656a2bc011bb2be3a2f95bb3af2db3ed80c47\
  be15b101bf70012a3f56d4c73e2a86263edbaf323d7d832c3f004a0e3e1656eabd155b063ec88993be458cad3e62cd4e\
  3e28ee2fbde0c94abeca9e72be8a60ec3effc68f3e80f3e9be93f948bd5f51293edd8817bf3e9791bd2004483e4a1712\
  be33d130bf564dd6bdfec2cdbd5378adbe66ed6f3e8ec5923cd847f4be1ae56c3e3d99e4bb66b6a4bed39a97bec6b982\
  bebca9493c0a168f3eea2cefbedb5160bdfb75bfbe4130e23e5cfa333e6a74853ed4e31f3e5981773e44ee56beb938e4\
  bdd35c133ef028d7bd2184c5be7b912f3f454a033f0063e33e9bc54a3ead6c1d3f0270cf3e2d8aaa3ce4818d3e058e1d\
  bf4f64d63e7846a03de5a2c63eacaae6be4ee2d5bed9b5ef3eb559273d94251cbfcc6be13d1b011e3b5f6237bf933898\
  bd76722fbe78fe8e3e165567bf6c697bbef4dc32bf421f853d6bd83a3d708d1fbfe4b16d3e5a87f43e49a4ee3cffe279\
  bfac98353e6390c0bee2a9f33ed5adc4beba7c00bf61f41bbfc16e01bf4f56163f3205003f5042d73ebe883cbdcca28a\
  3eab019bbee7161abec8143f3e30e2f63e0d9a0bbfdbf4783f28b705bee4463dbd9598103fe5a97e3fd95c4fbe9838e4\
  bd5561ed3e4471f9be4248d13e6726833ee86e9d3e3c7cc7bee57d533d93a38bbd5f2c27beca4690bfb82c91bda78fd7\
  bd388535bfa024d5bef4efd73cbbcf603e1c408abff647153eff580cbf9f0fdabe671f9b3e6e3019bf156331bde151ac\
  bd7dfbfcbdffdbb0be9b0a93bd909504bfb8ab283e7adfde3d84e173be49826d3c111746bc5003fa3e75beb53d49f501\
  3fd5cfbb3d21dccbbc24bc85bebf89debe9b18b73e680a83be12ceeabe2782303fc43bed3e89213d3eb32e773cbcc9d6\
  3e5a78b5bd61dcf6bccc592c3dcb9b9fbe6b5f583c225f523e90d5213e392a603e481e29bd6fe6193fd783963eefa672\
  bfc382703f999e693e54c33dbf872c81bd3b8d1c3e39820e3f50efa9bea2b4ae3edfca9bbd3524c1be1c9ec63d6fed9d\
  be3c5143bfb85598bd92405c3e4f0abebe4d2d16beebb03f3e0f3ed83dc014c43e939fd1bedacfad3e0720113e1fea5d\
  3ebd0d913e4dcde43e012b71bd2c75c1bd83509dbe73dd033ef3f2bb3e1e1e2cbe97c691bee05b133fda8d383fba7a0f\
  3f41dce53c6cc4133f3beb6b3da148ab3e67c8923e2ff959bf9be9723ef611143ec78acb3e37670fbfc3d82bbeb1fdfc\
  3eeff70e3f4798b5be354742bedc9a553d39a8d4be23eba1bdeb79aa3c64d142bd1fcf12bf2e993b3e42660abf22b491\
  bc1b14a63e1597f0bc15dd9e3e9989f0bc19ef3d3d6876f1bd791d5ebe7db7b03eebe5043e65f7383f133f8abec5f236\
  be3867f4be05f6ad3e7b0a593ed116ff3ece278bbd3264503e24c864be3ffb4bbec6c8133f9ec51f3db8b553bf49e3de\
  3ef4c7273f04bcb03e1f3e6f3e63945a3fd133cbbd1bb540be09c026bd98e133bffc18883ee1c20b3deb039e3e787d90\
  be07b9cfbdc356df3d5370303ff8bd53bfc3c75cbe1f4fc13da00735bf806346beed2efabb44d746beb84336bfeb7b3f\
  3efdaf2fbdaf3ff0bea3ec3e3db08b9ebea2e187be751a0abeb5f9a9bdebc3a9bee45e1ebf2be2f2bee927d33e9f5a6b\
  3e308900bf9d32843d3484e4bca36cf83ebcb0ec3ecddc5b3e9208db3eb082193e884aa0be3d3b0f3dcb21153e421097\
  3b2075c4be6f46373f01d9b83e86072dbd3c199e3d8eef3a3f4a63b1bd410e163ed1579b3eb164c8be365fd33ed35e6e\
  3e3a23013c0452f4bb3c07a1bef6520a3f366d433d1caa22bf1a8b4e3e92afa9be529141bf8ce5eebd3e093ebeff28f2\
  3e4af58dbef86164bd5670acbee0522dbfcadb9a3dacdcf7be68d1ccbea0782f3e490d7f3e998e83bead007abee66ab2\
  3e79ccaa3e6a65f93e9a355b3daf30663ba5f6563d72590b3f855cf93c9212663ec629a73dbf7c353e84cd35be2fab2e\
  3e7df8be3ec5a7c9be442058bfead74a3ff308213fd938cabcd1ff1f3f1243543f9b4cf03e8bddccbe7dce813eb8241d\
  bf5701cc3e86952fbdb13b063e22781dbf3356e6bd1bd8ac3e40d58d3d6dcb7bbfcc490f37df13a6bd4bc1d0be2cb96b\
  be23f9c23d5e417fbdcccf88bf472f9e3d428de9bed6b6bebd3cccbf3e5a97d6bec100afbe0d85a63d8ef050be8ddcde\
  be5d425dbec23535be2b72623edf83223e513a29bf6f1392be89401e3d0783bc3e23ba8a3ec094da3ed632fd3d71bd5d\
  bd1efaa9beef1f97bd7e8ca53e525007be3ebeb6be5a06f13e7a6a043fa4e9383ec62ba13eab73f83e6239873d1275a0\
  bdfacf7c3ce9820fbeaaac9b3ede106f3e85e8fd3ee1bc15bd515354be3307fc3d6513063ff05e1cbf865ab03e33ce1f\
  bcb4db94be884175bea295ce3cc5dd583e0dbe48bf7a61053f6be255bf1cbdc5be5b9b103fc01bfcbe51bbc3bd1c82b6\
  3ed09a0d3e435e09bf86d289bec93b0abef16859be005c963edbcf07bf1692be3ef3cd50be6319de3ef0a1cabcb4938d\
  3eceecec3d7727263fcfb251befdd0c2be386d6f3ea06f1bbfaac517bf538b4b3e362cae3e8c112ebe4856593e0e0b2d\
  3f1f47433ec3dd933c8195bebdcc890ebf2d94dc3e678eecbc806ecc3e9ff7fcbe3fa734be3bc0ea3e27ef103ee4d122\
  bf91c4093e42c4933ddb0575bf5420ecbec341a4bd060d3c3eab6d47bf85cdabbd1766d8be605a04bf37e4b83e2d6d0c\
  bfd5ba01bebe6dbd3ef94aacbc8896fcbed5b755be249147be0eec6b3ec6b7c93d79488ebef24e7f3e9481eebdbc5ec8\
  3ecf38283e226cf93ea3e532bd1436073cc64571be169c08be773dc53e84a6a8bd2d7503bf1a46323f38e9df3e39924b\
  3ee65c353e6b99123f359bd83d605e2abd5fc90a3e9e9cb5be8433763e0e59793e8811843becd40dbeeb532cbe5ba7ae\
  3e1bea563eb28ad2bed5f4acbe9dbe4e3da4c6e9be03cc88be912453be838b8d3e822d37bf276cfa3c279646bee4ec6c\
  be94c9943e4211b6beb66d8ebe623d8f3db9abcfbdf3209bbe79f60bbe83ca8abd4bc3c73ed518e33c68efe6bebe4194\
  be6a00993d56875b3e8641583e756f883ee663273d549279be6e2599be8597413ba986433e3b0a9dbdbda107bfd20f58\
  3fa4e8b23e9cc96b3ed535c23e2b06643f6b38693e3ed7193d13f1c8bd1c2aefbe6032563e2df11ebe649c2e3e5689bc\
  be56bf6fbd0a76f63e48bbe13d38485abe3a1b033e277876bd840f6bbfeb35263e1610f3bd6ab74a3eeb0179bf2ac0dd\
  bdda0b16bf7418c9bc23ac0f3dd64a01bf0ec0aa3ea9337e3ebb6b903edc6039bfe1f530be64214dbe2aaf963e4dd984\
  3e818cc3befa5fd7be0fe5a5be7ad4243ff7d37d3ec4b6163f0edba63eac69613dbd601fbfb56186be98ee42bef05343\
  3e0fb671bf9dccf83e75b3813e94641a3ed795df3d4af6293f91761b3eb0f36ebe6a55bb3df9de41bfc766c33ea349d2\
  be82be2f3f8de701bf036c33be90c22f3fc64f873d6fa170bfdfbca0be9d63373fb4aab5bff2a60c3ff23df23e27764a\
  3ed00f91bc617f6fbd3355bbbe18a99e3e4f73823e1ef872bf7cdf963e204b9bbebf4159bef4712fbe3dc721bf320d2b\
  be7cef433ea94aa33e14221cbf058f82be6dbe0fbf4e35ab3e742f323f401c493f73e1ffbe153d42be122a60be7bae2a\
  bde6b2c4bd945fc93e9d7b6cbf5ca7933e41099c3e9074b83e7a8b613ff314ed3ec13f4f3f4aa88a3ec5358fbbfa7117\
  bfa7e7793e7c938d3e6418b13ef3ff09bf2c3fd23d598f733f521b123e32f62cbf363a273e8f2dc13e11600abf576dc5\
  bdde8f693e41c73d3d45664bbe99e242bdf21bdebe954506bf162b003f286d24bf9369cc3d4f10403ec57821be6c6ac8\
  be815da7be2301123f820518be2bb52e3fab3bddbed0d04cbe9f1a973ca2d7bf3e08721e3faa0c0a3f2a6f08be5bf40a\
  bfb03895be5faabebe2d31ce3e9e4dc9be5d3453bf20e2a73ef93d603e5d602f3ec55ab93d6dae0b3f9e5d6c3d996c94\
  be837701bfa03656bfce81d63e4dc9acbef7d3133f32e64dbf92a6003e9560263fe765d63ead6e98bfaa8e65bfe98b08\
  bff30b42bf66661f3e1dfefa3d46529cbd15617cbfe29e593e33e69fbf4cc9e83e3d16ea3e58fa03bffa1fb6be73f510\
  3ce060d03dc93312bf8ae641be6eb28d3eaa8f263f366b703edf45e5beb9dc703e9aea0abe0b83083ed6cac83e275f86\
  3ed9ff353e459da93e3c7298be79f99abe515f66bec957ffbdeb3476bf827fa83ed827913e899d233fd0da073ffc50d8\
  3e1c5b5b3eda4397bef4038abbba52fdbe279a003fc1c050bf386fc43e2dec85bee6d35fbe2501cb3da788ea3e09a5c1\
  be70ba85be8bb3273d1f013ebfd961823e090590bc38a80f3e5f4b2cbf5f17903e997fbcbe766882bed4df313ee00c24\
  bea0719ebd504b9abe87c4903e46694abe9d990ebef4c46e3ebf0b50bda18b613ee600ebbe3dc77f3deab0653db01f1e\
  3f6f5a0d3fd0a9ac3e277d013e1736b23d8fc1fabed2d7d83dab5d9e3e6520e1bdc69e57bf43573f3fbafa0f3f502009\
  3ea832eb3c6cf5393ffe84153da8f90bbec0d83a3e1ae23ebf05e2023fa63a9abd2d5b4b3dfebbf6be6655b9be9096c1\
  3e1f6c1b3f76e52abfcfbc7d3eecd5b7bd7ee335bf4009fb3d12c170be74396b3ef6aec7beaf64bb3ea021aabe7547aa\
  beab9f523e8680edbcf95d52be35c728bdb76f833ece35d6bdf7b2b2bdd355043fca0b7a3e11c7783e1bcb36be8968a4\
  3e5e0845be9795543e990ed53d0fd5c03e4e02433c146a153e12576ebe4be99f3dd2a001bef46be4bc224559bf77aa3a\
  3f08b7903e4c67403f98eaa43ecc8a4c3feadf683eed8f02bda551d43d4c5f28bf76cf643e73c1233e7db8313df0e79d\
  be8a70743e904a0a3f4555113f6bf129bfc5f1283e0d7c843d1167e4be1aac81be46573cbcec499c3e1b650cbf81b878\
  3dc5c20dbf027f2abe1e67a4bde9f02abe0d8cb33bb0883f3e694fc63df201ecbee273b3be08a905be702cfc3eb6c40c\
  bdac88fbbe83ed3e3c688927bcb6a4d13e21e0073ed72e003f334a8f3e162e92bd9a58e3beb3d9c3bec19f843d49091d\
  be57fe9fbe49aef43e8755a83eb354613e1d7ebe3d2a6c803ffdaae43e7ff5703e26eea23e5b06c7befd47863eaaeb98\
  3edff3193e3d7fcfbe26543fbee669d73eb667db3dd56f0bbfc96faebef92fdebe4cfd2ebf7b0224beeb881f3f5fdd66\
  3e7bf863bfb43902beb9441bbf8deab0becf8f6b3ea659b0bd7e4fb7be05de303fbd62e9be47a9713eef93363e73295e\
  be0fb3253f9048903fca051cbe6fbfb1becc9aa53d294ecb3d3691ce3bf0b09a3e7325383f4c88423e78000ebe7e0814\
  bf667a153fc653b7be105be5bee18b113f357a0e3f911fb63ea6df853dd773233f12a4e1bd8ef6b53e74555b3d6643b1\
  be86a5d63e5a88cebec18c9a3ed704a8be746bd53e25af3dbdc9819b3e37ae6abf05fac7be805dac3ef4810dbfcde485\
  3e00e3523e78c380bdd0e26ebf5893013e0b92edbd2c9fb1bef30698be8d1adebe7e0889bda72073bcdcef9fbd84d5d1\
  bec4f437bf667c51be59f16dbc8e34423e0ac8dabecc4aff3c2ef6bf3d3a0e323faf22ab3e053f783e164c973e0ce323\
  bd43bd73bd515724bc6821003ed2274fbecee545bf242e373e252be33ee77f923e8d43383e9ca9543f7c77de3dd37ce1\
  bd767aa23ed4c130bfb5d1243fdb105ebe2c5c923ea268ca3df8011dbe2bcc013fe0ff3a3c326901bf0695bcbdc0ce73\
  3d7eab0dbfeea78f3e7657503ee9f9913e73f485bee83da13ee0b2ebbef0de99bea89f393fcef353bdf38ee33efef2f8\
  3e47c3cc3d82f688bd03cf20be98bc113dd1c2a43e783b463fbc31fdbe7eb0b83d67b263be19d90e3d2b0d0c3f70ad39\
  3f847489bd9f0b693eddcc07bff7f9ed3d3169f3bdaae7943e531f04bfd571f33e67d8c33e3060413e4846d03e690608\
  3fe8bbb6be5bb515beec85433ee20026bfb781f73e5f9fcebd7aae36bc3464953cf156aebd1a53f43e27d71b3fc1b47d\
  bf61ab1dbf088120bf6db30cbf337c36bede0e733e70e3903e6b6d4cbf61d5063dd47a6ebfecd1c23d4692283f24ed14\
  be12bce7becc6f793d22b32bbd333a46bf567f9cbe7939893c11362e3f4978a0be3bb6a2be82ffcb3ea76d72be6b5ba2\
  3eba2d403efde97a3e22b1a53e70af373ee3e1d6be196a13bdc7fb1cbf197b3ebd09fe84bf1ebf8b3e6824043fb2bf52\
  3e032aca3e0ad09d3fe32f8d3e8ff25dbe2b0e24bd9201d2bedb2d153f1b44a0be2211373f36c6dcbd8750d0be2983ad\
  be778d663ec23f05bf0c6731be4d1f033f01ac69be8305dd3dbf66cebdea839c3ebd9222bf37430d3e3f5210bdde11bc\
  be3e0be03cfd8796be22151fbef86762bd6bb4943d337f1ebf09488fbec3fd63be69b19c3e0cfd273ef95e0abe1aefb5\
  3e4d9cac3dd6c6e23ef9dd003eb7840c3ea47ea93ef739393e8c469cbd528780bef0de1c3f34e5ebbb273792bf34e6e3\
  3ecbe6333df4e29f3eb17d8e3e0ba51f3f9fec623c46d1b33d2689a13c6de521bf2f96d93e146938befeeb8c3e4f0edb\
  befc76bbbe295d1f3f1d9f8ebdff3236bfca0142be48eda03e49c7d9be448463bc1497a33ecb3a193ec33b45bf289cda\
  3d4452b1be893712be9af2523e93dba5beaab2c9be5bcfcdbdab32ecbe73b326be4afda4be2d510e3eaa2ed83efc3c2f\
  3f4c2c78be560d92bb2c2205bf62258f3ef255d73e8310ad3e92c88cbb5614f63c0bf8aabe837400be14285f3ed1d0d7\
  bee30f66bffe4e113f7d777f3e1244673e9ba38d3e5e38303f2e69e43e6e2d19be76252bbe4cca01bfdf78fb3ed624bf\
  bedec3523efe8579be5d84c6bd3569813e917a9b3ea2361bbf90f1a73c052345bcf32229bf456342bdc741713cbb8f80\
  3ec1761bbffaf9d2bccbb6e1bd60fdc8bebc1d31bdeae9b83cfb29b9bdfe24833d4353c73d629a21bfa54c5bbe58d088\
  3dceca9d3e9cbd4fbe67a43cbedac787bd612c723ea403e33e1e6ca83c0f64be3e5c2b863ee833713efd7575be9d8640\
  bdb4ee4b3e0accb2bd35c32bbf2bc6573f7733813ebe2a8d3e64543f3e699c753f38a7923e1a930abddc57633d0d4397\
  be034a803e0c0683bc9148ebbc245353becc3686be1bf5113f688b8e3ee9a481be893c9cbdbe9e95bdc8a279bed1eea1\
  3e5a44b53dffb1873dc90a66bfbd5f2e3e216a41be172f05bfc98e74bd3a90fdbebe3674bea94910bbe20fad3b70e056\
  bec5065dbec4150b3fae1a023de194123f8e7b05bf9d88ff3c9bdf073e18561f3d9160313fa1ec813e5c6050bed6bfca\
  3e03fa243e1087553eb88f473ebf328e3d725b20bf130d5d3f14fe013f7b43ff3e841cb5bc66f7d53ee5b4533ee274ba\
  bef5a7aa3dcfed86bfdf89513f4c1005bdd3349a3ec95ac3bee7e293be99410f3f7bef2a3fd9bbe7bee582cfbdb2c97a\
  bd88676ebe8694753efba7f33e60c28c3d6de04dbf02168e3ed45e23bfa64ef3bebccde53d864a683cdc55d93d4abcb1\
  3d883d5abe619249bf79f3b6bec5859f3d0803e03eaf23313eb7787abf84c698bec836b5be2f82643fbdc4c8bcc07745\
  3f2e0fa13e368d9d3e7725e5be1fd1433d01be4dbec4fd6ebd392282bf64ff9c3e631dcc3e7df7c23ee474db3e27662d\
  3fb36a633f3552603e481db3be0c4933bf46b1ff3e348c70bcdd50c1bd2b11cbbe7b4059becc71c2bdd6872cbded8a06\
  bf81b2183ed579debcc250f13c93fd0dbfb3c5bf3e753584bd656e4e3e9b13c4bcd5871fbe59acc9be4999913fe7ea1d\
  b937ee2f3d276b423fda000e3f1d3711be61681ebf34301bbdd335fe3e437b383fe8fe3cbfc197d3be2536103f76d351\
  3e9da8173f6d77463fbccdef3dc0aeaf3efe26bfbef20222bf7ba902bf60d9743ed600a9bf33c12a3f9f48113fb52a93\
  be5d1ee63efe31493fb9c503bed1e1dc3d4cbb873d1e4f3bbf3a5f7b3f1dfc25beeb74173f3d77c4bd8705b93e4c0bcf\
  3eac46cc3e481c58bf316426bd06fb62be1406d7be38ed0bbe92d3ea3c60f7da3d299e15bfdf005bbd7f5ee8bea7346d\
  be08bca03e12c210bf35a8c93d445bbfbd5ec6453d726112bf60f7c3bea5dd99be1afab23e5209693e6ff5a4beb05ec2\
  bd295c85be5623b73e64d0c13d6c9a053f417e5f3ef70bb83cc65aafbedeea6ebe4b38173f37891bbe24f881be92de19\
  3f134c253fe5f5263d6a69063e9568eb3ed434e23e590cd6bd37714cbed44076be1e86003f7dd08f3ea9fd733e89e4fd\
  bc66f644be6c6fcd3e0eaabbbc1bde39bfa325e03e0341f23cef7b45bf42df95be68a9a0bd003d403f1f2147bf28077b\
  be4924bfbe9b9557bd111b943e064bc9bef87d8e3e828bedbdb5a09f3e688fb8bee778973d079449bca6fc223eff33bc\
  be73b51bbfb7858a3cdb02bbbe17a12e3fc7ded43ec0b39e3e04d2ad3e5e460ebcf6f198bed2f065be4bf9d2bdfd258c\
  3e5adc92bf721b073fa3a7fa3ea6e3f73e7f674cbca3b3de3ecb4a403e6825b6bd42857e3c2f9696bf8a27e23e12ef23\
  bfca19fe3ea64ee9bef99d33be293e203f47026c3eb46513bf664b933d0963eebd92e479bf5d3de23d8ee9143e9e6592\
  3e5ae244bfc88ab5bc0a5445bd8cb8efbe21a68f3e44a6b5bee18d51beb29fb33e20d4d2bd11f8efbe4b4606be3c16e0\
  bd41a0f93eaf107bbea19929be3bfb00bdbc7293be14509f3e662b603ea4fdd43eeee14d3e666abb3d6ca4fcbc68eb4b\
  be74ec723ea8e09bbec15316bf6170213fc9b4633e0b3a63bde98f9b3e105a103fac32883ee0a51f3e18d0cc3d391be0\
  be8aef37bb1ef5983e5850343e510ee4bcea6c87beb31ece3e603f0bbd56b3f2bea4d7a9bdfc2facbdf835e5be4472b2\
  bcdfc51fbee892753ef7726bbff359ab3e0778a2bea9d191be10c80f3f73dd87be11416abec852503eee4985bda4662a\
  befa3418bfe809003e1afdd53ed0198a3e8dee01bfc907533c0d0d45be24ffbe3e2352a53d40e1d23e74ed6f3e1baed7\
  bd6ccfefbe713c7cbd4a532d3efd9589bd26ca50bf46080d3f895fbd3e3eaa9f3e3a63b93e27e6253fcb41cc3e858df8\
  bd07e63ebe03189cbe4fd9cb3efa00a6bdfa05c23e1f89c3bee5cc55be933be03e4b1551bc1f5445bf3a8ae7bea7610c\
  bd891804bf0c8e53bebf731bbc284ef03e3a6e63bff6b37a3e8da72abfbc40023f73082f3f6d798abf06d212bfb34ca1\
  3e02c9ad3d306064bfca29b2be40e69d3eeba7c43dab5107bc5ba405bf43d54d3e46ef01bfc6900e3ff9c7cd3ec9f980\
  3fb8784a3f16ede93e5aac93bed7da5abe0ac0013f65a54ebe01cf8cbfdb27fd3de54f5d3e5902463e12a36abd074b9f\
  3e705c853e512190bd7b120e3fadc207bf3a5c483eba44acbd507d0bbe2b9d9ebde4f8ebbe6e9f813e1b9b903e"

end FF.Conformance
