/-
Generated by tools/gen_secp_table.py: windows 24 to 31 of the byte points of secp256k1.go:10, decoded.
Each number is the 120 serialized bytes of a point, little-endian.
-/
namespace Tss.Secp

/-- secp256k1.go:10, serialized bytes 737280 to 767999. -/
def tableRow24 : List Nat := [
  0x0,
  0x25a9b00383a1b0239bf70031b458900e5b44c0331fb3e0207ef3e0246e72b0054a681012603f0001441760376276f018479b500fdf6d403fcdaf0016b380602bd1b3001a6653b03890af80180ba60003fbcb202d561ca02892192004b9cb60074b5d1019ee951025ad1dd03f7c46600cac5110359af82,
  0x2435cb003a841603e5d89901494297031b83da016e99e701b280ae008303f70038de1b01424c7d0018c95d02a12db30226dc8001884918029066fb038bd49800c99ea2025f04b102fa38af035a8dd90039d2bc033253da02778b9801c532630037adad03a9a4de006821b701c6d88003ba22af02caaff7,
  0x1a644600b1da3000cc01e002cc869d03878e5201a17057023e8fe70298613e0077025103bdff9d00297507005cd8530205945d008cd32f01af262e033098920076522d02ca11470288bb6303bbbfc5000f71c70312ebc000a0c97c00399832006464fd0380f2c60343c18803b5f0910067707500e94113,
  0x1e1776038b826e03c74df700c0418e02dbea28031358fa02bc7ee503efe69301c096aa0240f4c1000b32fb0274a7bb003bcc5701244a1e02c5a3970032ddb8013d5e29021a77be0337f7b800d678700022f773005e9bec0161cf6d011f547802e7331f03918177015d228f01ccd34600799d8f0320b0e8,
  0x269c72001a6fe2025a201801dd0a7f02fc2fd90347838c01a75c15037c633503da539102ab263d003507d003d10133024d07de01671e0c007e0b4d0237bd82000262eb02d1435000fe841a02d5fd110023723100c0680500920ca802ab082901a842b401d9970f03bab4e902fd0379036fadae03f3f2cd,
  0xac84a02f1f4b6018b0ed0020d31ea0026fa6e001bd0ba021e53d301e6262603306dbb02c7e926000a0d5d003dda2e009cbb3202b99f2b01930b2e00c8c1410101182b03a0257e011788c401e7ddbd003fc6ef010f9697009e831c00c19a0502f4f76a0038a00f0011c25c0045d8a300c08ad5010fafae,
  0x70e8502cbf30d00bb81fa012e3236025c9f50007090f601dab0a4026bfb57029945000336bd9300336a2a025cfbf9021d380f0147d7d3021ff3f802d3e1d00222ef4203d19b8e025e9659026a71ca002c9963034e305c035364240219a3ed03b18ac4030d87db03751a9802466d5403dd9cbf02613d45,
  0x34c75f027aa67d02698fd602f223f503ac9c630314e2a9008aae970216e8cb0344a7770107104b0035199c010465c301079366035669fb0096c58b003e6c5100cc5e370297675b012ab3f7030d798a003d55bf00a313ed02bdd62b001aa03e028ed196014c0bf601321def03a889cc027c9e1c01456938,
  0x3f86ff00aaeef8006719030348a40801c09cb400ab3d5202c1804001da2d900187a34d0295eb86000278670121d38900ade53202f6cf8b034e896c0366d602019268670155f561020b6d6200d09838001b179c01aee8ff02991ce903a51e1a03c3f072037ade4a01982d680132ff44036786d600fa472e,
  0x31c1ef02949abe038f9b7c014a0c1f014c7443015155fb009d495402bbeca200e29f64016df2fd001778e900e4a68b035dea580083965b011bf3c50218c7be02afd83d021482740124b6920036dcf90018ad9401b7a96203b368fe039b9b0300023e8d01a0adef009907ad0385bfb60282093d02eca72b,
  0x3eef24002f78cb03dc2fa70338b9a600b2b3dc03c8563c02c4255f035a297f01a5285d01acdeef000be7a0004c8703030ac311000845160212c65a02ddc88f0019571c00b2366901f61c0901479c0c00079e2002c090e4019c3c390396d5b50317331103b09998002be3d902f6b67501af423401270c15,
  0x163d8801169707031c69e100ad0b48023e796d0365f6a001acf7ab00472979025d7170025a76fe000b0156033ff08a0120cc9b00ad16fd030117a50305713f027014c601e76fa800cfcd730311830c0031c34602b4e581013d9e3a00f654460395b84d0224ab9c031c109e036e1fa901a280bd0153697c,
  0x3c936015da6e4023f9fb7033ade320161c8e000d038f602c5cb7f0203955d028dab7301ea50c9000dea7a037186f802a7e84c00e833a201e5de0201fdae5c00076f750026db38024f915e014bbc490012f1c5002c063202e3ffae0397f56501cf755f00ffae6902453f3b01de9367019c95fa0001f958,
  0x3305c803926723035ecc7601d172c00245259103718cca0073f7d401d64e2600e219fb0362777e0000c02e023699f102a67e5d027498d10239bc6902be06f4028191890333518301e5f00c004cb87100027f5f01f14d6c031552de01bd38c403a05f4801d4cc070066c45002ab437f03f5b443005d6747,
  0x24f2c3000e7b940318f504025714d4037b380b02d4d48f00936ab200ec15d801c68d980146aaa60038a0660364a25a003932f20295ebb10254a53c00cdecb803f5765c0288718f0383f6cd039e8077002bec5c005e4d3001cafb7502ac2f610395239101b959b50192219b031442ab02a0b4b80240d081,
  0x50c06025f6d49001b9fa00302547c0071a0c403afbfd3038614a203f33b870172494d036d639f002b160e0196a55d01b4c48702381aad0023101300e3eca7036322c2008537a90132da13003abfc5001da48e004f30cc01afd57c0069264d03040f6300dd08dc01a296160065b36302f783c7015b7475,
  0x2b5c44033e65b8036a55a70304ff2700045a5d02baa27d032c2af5018ff16902fce3f8033ad6a5002abf6e007126520075dfe800082f7503a3a9ec0395cf1602d3181e023cb9c002fd0e7e018de31200099f2d00d904b902913a7303983c580221e2ed00fb6e3d039c3c8f008d42e7019ffac000a9db9a,
  0x30a5e203fd505b015bd5dc0349f8d50010f17a0168e608025e835f027076e40149ad9f01f08521003ad4600328868b0188c1c403cad0c1021c600f03f475890397d10500eb8bdf020a808c0129aac1000395fe0397c523026e8d49029f63090051cf9803f7d22002fbeb5500ac6b74038dc23000e1c237,
  0x2e4b5701585661030a3d0603deb89500c0c8110237b9af03455255006044d9006694fe0022fab80035051701f0c1070134b83c01dc5f36019f4a2203d5475a0232075201555e4a0309e65d01c542cc001b129e03b48e9b00f9fbb100023a0a0090e3c700b1851c03a5346d00341e770256c37303a577cb,
  0x111821015c0b1202d9addc0200c08d02fea4fe0304501701f34b3e03dc8a21031ee14102d074c8002b207c01e2c86301fb6cec01fe8f67007d2f9900700c7500c2215b00a5f7ad01e7df5d00000abe0008db5001692aa802b331c403d36f8d00f2025b02520fd00097ac0c03233092025622d70268cf01,
  0x1d5dc50255967a03e92b630049966c0335b0f5018caef50144d2bc03f66e4f020ad2490156363e000401b500664189009bff34022aabb6002947d80339ef96014e2eca030bfaea024b85050290326e0022d31e03f9c5470208bc6503db65a702560ce0031b880301bce7eb00c77d6b002c49f0004d74ce,
  0x211b5f00b32f9e0259e92000666589003308ff02bcfa9d00775f3b01d53dcf0081ee6100b18efd000d08e100e31baa01c4c41a025a98160065372300a9c68f001d721a03e88eea019751f60031d46f00228f840050f476003f2dfa00bac2bd00ff4ad60102e51e00ba3f7a026c91fb03960a7e00f970ce,
  0xcc76a0099e1d702fe5793021d8509027e41b8006fca5c01c8f64a01d5006003f0a2de033bff1f000ad42a01d567a102752fb100915f89021d7c70031b480502af758b0058f1b2014125c901808bce000c0e3e0212527803814a5501c7703703040919012221c9036dc80201fceff3037ded60036a331f,
  0x1458a70319726b034a08e303a91698030fc97c0044c54702cb22be0346c7a4025be7aa0186baa8002bf14e0281d0b50021d4560331701002a7cff4027f8e9202eb6024007420470378cf4600d676c0001fbf6c0295d84800a8ac6e03b86ec703e5810700c8b3a603b3d76c01092a500154edce037eafa6,
  0x3bda9f016f891a0216e06900bda77b0180ed480297c87800f3587901b4405001a6070500a47a0f003024fa03b6960d002833030393d8e7031c9d370392539b00354c1901a30fe203d05562037e72e50005a68101b7204202cf8bb5012a1796000f157b000c813d0398b05203cfd403008bc67d008e3dc8,
  0x30c4c103cbd9bb01380e7a0217d46f03f0518e001379fe028dc8fb0291ae890057ce93025a5fef001a70b6018379c200289d4502f1e669020340860367919c00dddee401be840301650cdf01ebf06d00000a08018eacd8027b906c0155efcf000bb12f0055700603276e8e02de1a13007f59db0189c164,
  0x3df4a3031b138d024be8b2012f843e038c35ef0363b0670353a16600190481020a4fee014e69bb003d8f1403693bb701d9ee6202eda01d00c3cafa00a12bd301ff142b01456e3002cad2430373d9650035cf7201106e4402e6d82c01a2174800803ea40060538b01ef8e7c03d59d9501e5124b01c20e0b,
  0x18d6f5013f58ab02a3f2d703df0afd03497bae020821ac03a9be6c00de35c3016cd2fa00e294b40002e111018fc9f5005444d40012881300dfbe1a038ce89f003d22a30047625603d9f95e016d0cf1000bf7cd0062674002715b070201aa8a00516c4601201bed035fd5ed00519dc3008cea9603ef2585,
  0x3a795e017cfab501c9b23800dc91040390387103bd3e8701935d6c014bed84025ef0cf03a6aaa3001d35b400d0232a0138579a00d8549001b9e077023cef7a0224c2a700820ac600c7c0c40219eacf002dcd040247321c03e07d540129f1fc02ebe28b00e410a503f2231d00f801070092219601bc2e02,
  0x37fedd019bfa3301450b4502af1ee203e52d280179ab35029cb6bb024c099802d8e8fe03c2207c000c6b7a02d81cef0047d84b00e4cf2700cd62ae0250c72703d0026102aa486a01cd311403cc9a000003383300f4381f02666ef702715ff803f3afc0024cb6eb02d6fd240251014d02c3cc780073578e,
  0x27f9b502a0c04703eeea780200b19601b0ca1b032b5a0000f0f2480166b6e20027f6a6029e8f3200112dfb0192dee10160936901326b25032a914902151a990375062b03e103e8023ee90f00ce0adb0023a4ba026220e202976e07004f23ac026ac522000b9a97005c243003d0df520256e1560206b5b3,
  0x2d21c20361d88300fe7c0100768567017d3333012820d8034d6fa50185d6c60118a20f03ed748f0008855c0353700e0062478c02cf201603d381c100770a920347a46e00f78e0300dc460601fdf1270029e11002ae5e3a022df72901553de6031ee09100b0bb6200048a6e02690a780399d18103cbf013,
  0x1197301896b40014546bd03e53d5f0219866a00a1246a0092c28b02540c5201128d0801d973a40017756b0178d60a0328a32903022e6b0332421b03b580b90373e3f600e122ca0070ffa902485931002aba86039e69ae01ce7d8c01731d4700eaf6f002735dad01fda1da00e26d2c0097a099001b207b,
  0x351b78009afd1c00ed721c00b9339f02448d7401c78afa02e4400c030c76040298a4eb02d46671001e67a1013cf34200b848c703e755d700416fea014202ee02019c9b03498f70000cb3d5007ed918001bc81401efdb38028e86cc03293cb20359c89c0183c306003d12340301955701f400f0026ee7bd,
  0xd68402fe210a01fb49be007b9b27021e09c403bc5d3d02909a8e0147f2fe0369430b014288ed0007a8f803a007d30054f383022fc4a501d04c180378fec100e856a002fdcef20325545b03b08b450013ef730156bdc00246ef4603075c5f01b4a4d60007886f031731fa0132e6c00078723203ba5b4c,
  0x2f4e320380606700bcf39d01a597a30299464f0299a4c9007ecc3b01c0ac6601b23c4603b493d80029f83d0124b90d009b2ed801288bc30356c3e702b0b3c50050237c02d3f3fb020df1d10076d4b600302ebf0268480c03be942d00aca04402e3006201528f0b011e96cd0064c81d02561b68008845a5,
  0x32a170003e19220196174d023ec57d0399159502c0029e01f9c3bb0226afb90325c17a01fd31100010a8ac03966a6901b478c0012f83f8020ce68d010506280074e239009ab302012d1104023c192900246b2e03b83d98036dc02f00d96e040341d10f0042997503b8aa2402eaf32302cb7a8700f86939,
  0x322f39022051a500b6bfad027b29d9019dba9800dc29900019a7220001c327023c6e510361cffc0030eb4902cfe0a903c1cfe2023a79170331f34d00aea451001091dc03ca924b02e76bf2009b7a51002fe6ab00230faa009ab70c00510696015b987c02ecffbf01ad2b9a03d88cf401f62c360097a468,
  0x19d3a8012c9bc0015f8cde028fcf6e0344307100284ab4001b6d7f00f2422601abff670299e73b0008ad430226b25c021f3d1f020ed2f800131f1c00bc0aac0322899b00e16ce20378680401d463360001e4ef02c61eec03ce51ae03ba986c01edc9a602af5cbf03238dfb0133ac9f03a2465202587d75,
  0x223f9a02b4c6640318a4630247446e0015eabe028327e503285e96002f07b1033e9f6702aa3222002f676102a3557d01528338029380dd00b576c603ec3e2701aaac23026ae15c00ca31db0105c4200011a855010ed4190309fb390174c44602dbd7a80073903800685ab6029b803802961b74009c57e0,
  0x526ec03e6a6b50227a240038cb59403ca4f7c0134551e031d799f016ce888019c5bce012843a60032f63600216ff001aa14220191206f019ec4370329ca760015bcdb026f384d0223174f024333e700070c0e02e3d5a4002f467e0230849b00ae911101786c52037d63750132d681036df8a002832e85,
  0x14b7ac00bf6896033464aa01b4eb63019d0b4803e3b4b6026d245801f5b2ef029c161f037bbf94000c365d03cab5c302858e4102863df6037df3ec03ae2e5402a02ffa0350765002288302037c66c20034f40e005b72070372747403b8b528002133c5000d53a703155ca5005d94f60297aef5018998fd,
  0x20cf3701fd0e7601d6982401054c3c02bf5a4503c9302700b76401022bba8003e7b7f001680d48000a9ca0032d747c01b407b301835fc802e9ec610361755300c286d600d54d6403318c6803fe7a65002d1750020fb8750032097a00c66edf01e7d94f039d1299029751e9005e2f2103e25e89017cd766,
  0xc65140076762d0095fb5f0276b9c9013d8cb30111a96d011e670b03da38ed0073b0e0018086d900172b93031a4e3d02fa899f00cf1eac00c9b2f301528ac10076d76b02c5cbd5026e9f0300d54014000f9465010954820046f7e000f5818900c0a769014bfa7f010502c903ae07750182d205010ac16b,
  0x37051f03ce3ce303c904e502270e9101da15770303b909010f58a4001e673d02f0ef4e0189b8a9003ad62001aafa490270050d020430f402773c4703c31b8f0110164a028641a10027d0cf0187ff380016f0560239c1f80189a5a7015f0e94024c648701d35fda029473c703ec6e9d0195561500262ddc,
  0x127fcb00c4858201b4f11903045c9300289fdb03ff8781014f94f602b3e08903496d450112e1e70021117c034dfa5002051e13038102d3027737f9037de0cd00b21324019c0fd203bae74301b5074d00271c4400d46c6003ea3d2b0393648d0323dcf000e4093b02e34c9d0388ad3c0243258e026b4bcf,
  0x2255fc00b41581037790c2027f8d8901be555a03664c0301b1ac400183742d0284e92b00ae6d37002ba09100a90fe701d72da00115013302ea00ca00ea6625000a1099032071a701d8cfaf0367d1720020f83701ebbe11001b622e039e4c8102e2ac8b00ea80690172362e01c1f5da02fec03d00959f02,
  0x2c272800d8c2c303bc4893028ccd6401ab5861011affe101c42bc002516c620147706401cf25f30033c9cf00dc3809031a9172011721f5010cda1e00e236c60125cbe5026aaa60031e5eac00e7f7530028ecf00161020902c3c795024629cd01faf58c03855cf502be923d03845f9e0203d16e01a56dbb,
  0x26e4b300779809020348ce00865c0703c846d9033ca1810290bcd0013973d7036d07f501067b06002f5985023e7a57010dbda9024d22600240026d013662160166f36a02cf743103a8f52003eca172000a69c50037d17b01df9e2b010cf46c03021a0901ecc58b0176c066027549a70179705e0122fa65,
  0x282b2503a842ec020efb38002918ca027f9b1e00d4eaf70211a11f013b8cdf005e72e700f375400025724b00783c1203d5449901aba72300f1a75e0188ba2a02d59c6900e004ba00781f9500fabe24003c677501fe9fce02a9ecae031ddae802c6931201e5e117024f901a0109301d01849ae502bc41ab,
  0x39a150121d64100a7868f02b2cbac0311a6e7003239df013d5dd7019fce27016335ac016ba566001db80002769ab9031f47c30129225c014f897702cb21a30164189b01b0ec4901111f59015a2f43003be1d901620677037a612901ac6ca000632172012e282502c9281b00d22ddb0063580100a9bf68,
  0x36a9ce03ab81f000ab811d02195321005e2d8b03945e1403bc9f660353377c029a32e102451ec9000f1f2d03126e890077648c03760d0703d6c7c4029aae9f011c244d02e34bbf02b43bab0186ea92000a68650187e2170256034302d89928005e5ad0008b826f0183eaed0320aff400295ef402745852,
  0x1e6ef000f879803d40a2e00015225000f400e02237b37035ea6d90138041503289670022002e9002bbcc8022206e801c4c70f0395877402fba5fd03e5c3b001670141024c3f53019403d701ab59e7000b831b00e10a53012c691b039691ee03c4185203079a6c01c69b62030c722b022b454603e6bac4,
  0x303b200395464c03009cba020488490370d4d502f22585037895f102a37681037925fa034398470030cd2e0194dc76021a0ed400180c8303118bed014e972700954f2803b8305f0265679402ab9158000168160289f88003c0868903a78a8200605213017fe5c800fa271c03834eb602ce888d001a6bef,
  0x3ad82400920af40391e8e603ce60230134c177010232e3017511ca01910a9202392f2e024808cd000651b801ad7f1802d5447e03825ae800f23b1203f22b0d02151133015d319503b55e850114b3c90015704f031e0d8201d3dae8010d8da301e4f3bf03ae4dd8024dad0c00e1a8d800e143fc031c28ba,
  0x3fc3700211053c01be48bc014558de010d3ef301a7bc42003960e90376bc3600d1810600e8eb1200043e6903129b4503cc886902e6583d019395cb0214ceca0159d0b502d6cf7202e68425024c7390000c0cd002479c6802c058fd022a71530004a25e02968c0600a3ac86009b7f1b02d32779017b3250,
  0x13aa4003935abf027d6c480267a68d017d508603a69cb603dfff9401fa740f03aa181b02c2589100091d18024dfa4701cc1721029538700321a80c02d16d6202d54f9002d5762b027889d3012c8af4000a8cd9001c6584015acb2102c2b24a0201d02301658f9000518f5a018d705803c4b05302ed40f7,
  0x2bc58600fdab0301a6ed64035b217202760acf0141765000a88bcb03798487016bfeac02f0929e003c303b021c2c3c01bd222c022e9f26018ad66001f6d23e01a41c0d030db8bb039314ed012c8b9900263d9b01bf6b370332fc8202f7643b01d1569c03ac9ff802a90c33020369c301dc4c6a00bc8503,
  0x9e9460057b24b02baa7a401f9a748036392f603b4df6b006764c0033c76e6039a08fc02d25ce10034a51c01e7f98b02a9dcd00346e4d601f0128102dfea670318569300023b7b036dbff103ce4dcd0021587503bb97440094ec1a0167625d00ce4c6702b9fe1700df7dfc0218c8cd03cd107f03f9b495,
  0x1f0d520265e56401a3bdae0171b3c0019935d203047f4001b188fd024641dc011c09f903298a7c0019e1d7025f196300a12020010684db00b44f140350beba025ff8f101024a2703ca6d3e039a0b78001900a103c88d90032a39690173409e018e4555000ca7a902223ad002a6d8ec01b1726a0059dcbc,
  0x24e222009eb89402b4dc1503f32b65006cda260398804d02d46fde0257d7cf0315c0a1003c79a6000f187d005e9db2004adca401741a9102b405d40332b4f401aefb9d033830d801989dcf00539af1003977ba01e3ccb60258b260009c4ec00125e8ff03d5f5d9029f477b028b7f6d000bbb51005c06df,
  0x1eae6801757ad800a2e65f025b220d001fd66d0009f64f01dcd2c100d4f24003c8086000dda0e50004c6a3008c148f03ca0761008f111f0256cfc9019c5489022280f202360bae0348b96203fd33bc0007c6a501cfd31f0097f54e01ab599d016ffda00393c9f502836e5a005caba3013aac90036ebb3b,
  0xcb2f0160284603d46a3f01aad6a3022cdf37003b2b5303dc943401a705e902ec0e0b03cc0e6c002499380039297900eec82100c31f0e039e1e7503661ec0017e2740011b2c6301d38ad10104aa0d000dc2a80219dce6003bb677005a36e503437d8401b20324008f79c101ad3f0e02bf6c26032b9236,
  0xa97080022521e02b64e9e022949bb02da29dd01741c7600c5f6e403e69e5f006d651e03c16637001cb63500a5b77e00174599022f1e2003fdeddd0112825800c81f5b02d62dbf00f929cc03bfadc900042208007dd3b000fea18402d9d9dc01c2ffc402b8bb2f02ce07c4034f8eba00a4da290018b05e,
  0x2a743000dbe1a4004b84e4002e639b00fbd180003de4a80318d1ff000cdea302d942e702a3f1f50035936c01987f9e00309be901356db2007c9664006ef06a0021e9740045fbd603aa2d7c00fe73060012855a0196958b017aec520004aa0f01eba55e03efdfd3024bf75902b6cc2001b17014033d2a8f,
  0x380b1600ca0c2002fca37403fbf0290001330e0100da3301d2c65103f14c5c001941ce0115876200372ee70140545a0287b60a0045497b0305709b00cbf6ff00b9355301c85ce103cb4d2903ef1efb000e090402d3c1da0176b92702462a9203a6aa49019737c20189b13a02f9946201b739e600810782,
  0x3f5a280128ebcc022df6f00069e35c03fa0ea4017eee500088cfce0066df7e0024179903dd7cf5003851b403d8a7dd0124765b03c6c1930086e424020ec1d203788e800298865f0383d5af029a9f01000e98fc01cf0f4e004047ba0018bc8900c97d5700db93e103de8330025779e4023f8a5b01e49c5e,
  0xf2705027b8b150096c3cf0293b0a00226e78e014ec68300cd2bbe03aa13d40230524f031580c00023cdec00a8c6ce011d9f2200820cbd015486da012c662a03bdc8a00363b0f201fc1e6e0281f63e002d0afe0098ad730090a91603410386004f39be0257a5db03d3332f01ba5b190193309a02d70a9f,
  0x1cef303716121017dd0f2039a96d40207912c02328d7302c6631300d574c903ee099503b3d921001c17e50394509c0365681b004c975401e1a22b0304c3b402d825280005fdd100d6724a00af9b300015a5ab031f89c2028614c400412ef10013b4d6028624f4009d736903f41bc8007d27dc00631931,
  0x7ac9e02de1cff015b86d402de1225018f0eb20264f4f801a3c39c01f0c60c023eb6f000a152b1000b6aef03fc258e025d6e44030c1f440030377c0267ec050110509202c43fda01485af200929e21000353b900fd2a7b016a156d030f8ebb0122f7670217a74d0158b0100126860100d33e27008f9602,
  0x168114036a1ebc0321323200dbc34b00402cea0223642e0193f83e01542aa6008c7edf017d09690037776a0301289d02aee59c02ea98b103d9d114029d0e740218659e031e441f03b32f16012aef290003ab5603ba260200cbaaa60159d8aa000f6de20084b9c80116f211027ae73e00f383cd00406f5f,
  0x9185b029b2dfa02646d52038df65601df30f902ed74fc0123a38a011853200290b9f4028f34ab000d185c033b098802a17ab803685c9e030914330067b56401ba4814001cccee030b556b02da580d00278df70074690f004397f20280222f034ee0ed030698d0035ee83802409a6c012c9bb101d4badc,
  0x302080186288703cecbeb00376ad800206f0b022147430248cbc502e5fa3c0093f3ba03866bf30030161b02ce9fdb0170024c025d969702dcb4800221ece7037d309802ad022600b3347b038c56bd00239bad03cf188b030b65ce0176924301f0f44803ad50af00335f4902da353f0101ea0103538dbb,
  0xad367010cb5e301edd43d034fb1d20043f9ed006f35c2036849b103f512db00bda1d10292e9b1002acf48004186c602236138008d2a0f00e92398004d5670004aa858010556ce013ec111031e417f000608b401d7637900a6edad02f85a01011f4466002603bd012036e90114a6a5001cad0c02eeb5d9,
  0x3f3060005cde3500fa73ac032da10503b0f694003ed0b40268862302ab8c8b0398cd2b0371a2ad0005fff6002867900328942f01936633027ebcf800632a3901e8592c00a5166103e14bf203e4c80b00164a0e0091ea040041a276026ef9bb036fc785037f55db0274d1a801d9a7cb01de1b1301d84ee9,
  0x83b7900b3390c01e648690273bf76009f8e010149dd4700c2d26002d41ced01eb2bef0027a23f00288b8f03a5a6d60019be3203b4764100e8a2f3033d798800aff7aa006534e800c078df01246ac6003c473e021b37a80257a0720009fd1301fdc44400edd50001c4f4b9012e81bd0081dc34029ca8ea,
  0x7b0ec00a072d70065426d01a5be7400229c1303b718be00933bc0038ef37202680d7b021bed4a001921f702d728f202fcddc4039a771101f7c964003fbfe300a7603501f1ca2800828a4f01e752c3003183d9015555910277e38801584083036518b100d41b4001175de8027e3d7300dd7d48014a88b8,
  0x215ca501015e630058adfa02a4cedf01577c4c008fd7c4028941270033a65c0052d3d6021fcfaf0034d6150079063b0282ba1502780b6803e3243200fcd0a30320d6400252abbc00b5c9c2015e97ed00086b5702cb6dcc00be8009020aec3600c7b8d40087c07203008ba503b82a4403331a97019725b0,
  0x3f5c86027dd668032ed58701de2a0f029957b903e52a2f008cb80f00dbe37e01c3118e000ba7a400175f600110c30501fc88a402c7e9f603f2ad8a038d4d0e01ebd3c0019ba9e102c3daf90249956e0012391c00a4dac503a0c4cb02bbe7dc027014d40269ec2e00577af2006606fa0058113f039295d2,
  0x16f472018d4d59036eb86a0334e2ce0165f9d500a2376c015088f101cacc4100b41438017eb2200027ddfe010a6a3e017bfefc02f980a100bfc6250302dfde010928cd003aac4402322af701c97a350007e0e501e0f3b501a4c05702b20cb80399145e03b2bd7b008d10b6030b316103d7a759031aafcb,
  0x1ec83303cea5f103371997021d9ad500a70dd6008b5a47039fe3550324d02303ac7d6a03d01e630011e4c103586e0902f67aa70089c4b60181f7c3039db84802fdae8102931f0f02b30758016c209800162f0201acf4bf01b0443802fe4712026faddb0366f8d8030a93a7027f954b00f79beb00b26e14,
  0x111462001a3c45015c550602aeff6103190cfb02cf1e2b03b5f67101fa15d0021eb34a029cb75700101f4403296ab1035b837a00855b3e0298032101ea1d0603bb1da80102880703c818f202757560002b07160244227800278c24019fcc27035c3e4c0321d8500247b023026c7719000dbf7600f269c0,
  0x32bc8d005ab9d201043900008645ae00877a220088f38402d762a10108aa32001e954203d8f0b3001720af037dac6e01621d3c00193f4d02b231db02d2e81e0090d10600d8d49601bca71e02b5c2c0000a22e20157ae1e02be017f024ed47102c6566e02c2a13400eda19902a3e8530318c92702bc9c8e,
  0x261a7b01643a5c000b5fd6006bde670251a16a03bd7b57016699a501ae78e202c82b7b03f6e48f0007068702d47f3c00009ba20335abce01ed918000f4ceba0127394002cf1e6c01823c62029c40cb00261c9302c728d40220912702b5ccfe024ef97303907fdc03f6ab8b0313166403edeb0501690ffc,
  0x3d908001e161b50218df5e034d33cf0132809703f0bc2200f210600164047800ec314903f59fcd0006ee4003baaf89016887510035b45701ccce3002b5997e035a0c25024bc77003eec41502a59b1e0030562b02efe6f603811b6c0069820002a9ecf702c589ff011dfe1f02c4761300f6ef2003603575,
  0x277e110320ea330193d26100ea14c901a1271200123f900265bbc401f5faeb0375ed59017f9c37001f258500a4d8780254ede70325fd930015aa1502aeac6a013227df016bd75702711151022fa348001490de02a355920223946403e632cd007043b503ae00bd0347982e01b1f52f0379efc201fbbefc,
  0x12821e02fdd1ad009e0fb7027ebc8602e9956500611bed01e919ac03f3fa2c03aabfa90322a4e9001a3fc400c6d1c402ecb7f503683560036d35dd02c61c7d01f9df1001f8a60d022d784003847db2001bcb22027d2553022f6df70203d0a400c0c64801d6d09801ee77550381036500bc0f7400261058,
  0x2f6d9102aaec0701a5bfcd01e085ec02aae58c00f0d5ad01a10cab0343a4ee0081292b006cd7b90027d47b03c1ec6f03c1df5702f225ea006ad10200d0a430032ebdcc02707ebb004fd8130085b72d0020bb8703d66c8002b8c80c00003bb70049098003705220028dca59026c1eab033fec4e02c9eff1,
  0x3d26b702f62481004ffd4c02e6dd69014148550328dc3300394afa022314d400074cfa015569930003c34c03779d04025e31820336b5d8013016ed0293a83803a55d78011f8b1a013b239e00b469b6001e6bf0000705120009fff5026207d502cbc9c6027410ca01b277170387a501014c687501238119,
  0x2a23c901e2211f02ca475b021a0dd7018ea2c90125facb02f267a60215878e03f880bc00bb86d7001c47dd0208c3ca019a255801d04484023cd67800dee46601f916f00244f21e00b8ffc802442071001b7de001aa16ec03ed7ba703ddc86c02f2d4f3027ff51c01df3d1a0239f15201cf9d3502c12bc1,
  0x1ed8ce009a69e501edb5d801ae431b008a4dc2038a9dda0272f1dc0368687d00591b3e02bfaf39001d62060076b8b203ef7ed1016d5fae00acf583011e0ca203529af503be4bb00045a9f300d8219e0013fe5500c5b0a103b4c45b00259959004973f802f2fcd303608c0c0256f08800b4889e000bf091,
  0x28dbc5003681a70219f284024db74103af263c02ed433f00fccd7f02db00b101d7cbf100c0e54b0011a68800dcdb8d00d4b51b01cf3925011622ca0117d1690176e425010c06d5011fe9bd028174d50035102902ccf40000db245302a3b83701fd92c3017c1fd500645f68015d6b78012c4ca60080d789,
  0xe405202e0f03a03bec0b403ffac740167fc4b0026f42000393a1d020b9e900379a8ec03d14d0b003d010c03ff450e02fae18503dd195700c626590263c6fa00f2a6890066a2870214324902f7590b002d6d2202446ae300eeb29c0026c60a02206f2e00931cb90383a25e03ef5fce0371b3ff026a0e47,
  0x3969c0004e969302b8865301916fef01896c7500f8b02200e3eec20214a0e5033f8bee025dd6e0002d0001004ab2c403d34a85000272c00364fea1010f26a702304a6300a257db00f7aac202a51e0d0030bac503aac7e900d13f390315e7c2033755d10339b30f00f0d808020bf1bd0240eabc0045823f,
  0x2ebe7f027259d900b6a64b01d17dbb013c028302434acd03f8663d00e4cc3302f6391e00ae1aee00068b0f0156713d00247408019cd1ea0282444801a4b66801687e1700c1cf2f03f37eda00c54b23001e7c9c014e6c4102fbf36200f80c540205a98e005eb0650201b1d703053c0301f8802a013d1922,
  0xdf99e038e2d800228d07000a6380000a982020113b68303fc59c803f31a8103aec1b802eb180d001453d300e3f1a200304211012d80740217df4f023401e000bd7fff0329a250019ee83d02b91b420002579d0152d31e01e452f9036dd70c030b24aa0041fc90016190710369a9ed00655b8502e5f47c,
  0x2adca7025d4bad0364c34e0077485002e53c97027c509e016b1983026ce85902c72cef03951e5c00160ad402624f4003234bd701c339a301ad7f6c01f5a00100be54d9038876c402f94d61029cc230001e3030012f94bf034c333c00488daf006c18ba0240da4200576cac0244406202b9255b039b74d3,
  0x2cf6fa01ac471e03a0202a0375eed80316117d009b9fbb01ad8e97013f6d520128570900a258700018311200ccf722001221c90081f15e036f7c5d0239b5fe01da83170253625900609a5801e6a85400251a41002db8c303f3d1b9027543d5029f885f035823f203785ed2014abf32012cec56025c2d33,
  0x67b410021d57600290c4d01867ac503bf687f0264dbb6023967da021f97df011200f602c5ad5f00179df103866042007bf9b202f34cf701daf5fb0387417e0092ed3c01d05913019f6cb20021c0bf000c64bb02e85b8c03628d9e00ee13690207ceb601cd517f02b12f09039001dd004884cd023d9880,
  0x1788e703af3ed00232668302c510fc01343085013815da0168125902840cbe0389c9a603610f4a0037fa7301bc826600cb7a5902e9dec1020bd0790181bfad02c7635503348bb9030db53e02fd7da0002d216303cf0e8e03ace06601383cf302b8484701426b8d002f57e6000afb6d035d051f0165a4f3,
  0x224a750386b4e9000bd1d700f16b6601f651af0269e65e02c626940129129202bf338600b4776b000d7c5f002963e0015cb33c03f26f1600ba12eb03c87ed60158571f0323694201ada40e02a68280000202aa03ebc12a01966f7103a44fa1008b9d1202566ab00365244903af4583013afe8b00308d48,
  0x2a58f50116ee9701331dd4024364ab03e18deb006ed263018476440089b8d401cdc5c9032b285e0007db620192b41b02a8c3c502f5afb2003fb34d00c82db001922e5b0383a76801beeb380031076600257b8f0105a5eb022acd9401eedee0021e9df3023e05b8037860df026b028901e598bb038b62d6,
  0x3a6cb60387d406020c340300c50874012694e002790623030137b6020fbe2b01387d61029076aa00217cff0179bdd4008afd8502753bba03f8578702270acc01d8a42400b4bf2901c4ff9901af139c000b0c9503c22d430186fc560085820c021d7862002b4b050069802f017d967402d4f50f00e88214,
  0x37184a025ed32d025a7cbe0073253103b562a4004d0fbf02047d9800ccfa65013fe2430330fdee0013909000e6caf100a498c5032ee43602d2d40000958ac20058b64000da32dc0003191601d7c582002a9619004a96d203b3b2e603b2f4bf01bb940a01a001b303bbcdf501ce7993028f40bc031f6e34,
  0x2e6d800b6678b02413a930240a27e03b9cfc3027fb8db00a371c3011bc0f4030e3307021b5e3c001eca3f013c958d035ba8ca0321b1ff02af83f601f0314602e0d5bd002774080249d9fa012fd3a30001d357028b88360333f03e0030bbb100e33e27037022c1001eb644022ba31a01fe5d3c02e51538,
  0x347ab201485624009137ef012348ee03d85dba017d47e10053bc91023ed58502afa5fc01e14bab0021c48302d9252003cf5a6103b3a12b03338b8c0098a34a027414500039d92000b3830e03d2ec53001e76be0273989503535be400624ebd00e996df037bb00a0075624b024211e600c5dc1600b6be42,
  0x26a72034840ff0375a8b603648f3803159e680224eb2000bc161502f8ad9a008d3e8403b3a0c700155cde03d6b27501b9785d020271b701b711db0336cec701fc29a0021e91c3031d5e3101abeb960024b4d301f06eaa03baddd0022f87b50027747003de6df901e7d48001298cf70022668a028c003e,
  0x1a140802153aaf023ca56502336c66020ebc9201a6156e01a178dd005ec87203149c0d00919a110034c16102c679980282aa350115fa340365b2260155182e00c1bf3a0073dd3c00ce3f3800bcd6e100091b37023e222703769b9801c533a303f9c699021d4fb90369bca4022757c4026f73b5015d2cc6,
  0x2289e20352c1e6016ae3140085380a01f0e7530196bb58021e0f8600cb993500dd62ab03448137000a85b9017ccf60025d528e024f31ca02f2cf76037a8f4c02e6ea250268484601a5f12802ef463e00150a7d001b6815001ef054032e31380290c8ea0375a20c02725067026039450292577a01d3739e,
  0xc92600334ca9b013e41ca010390af0176e2a903f7324b0310844b03b5e42502a8d858025ce58c000e57b8025b8695002dcbc30283d6e9035d47c1024ac61800b9ff86031bdb0c02d771e9031c8447001613bb000eaf0f03982f190013d88d00a9c92202c7db0800dec6140380016b01aef913014f146d,
  0x31cee600bcc83f02f41574007b8e5002534d980200eaa6012866950165d5560232e1520308b02f0016e21500d726c4014d8d620335592c02647ae00398409301b58673024545d001ae0a0801342c7a0029eb93028a77b901f1280801081ec903148e370108c70e00f1bc8200d1f835037cedf901029768,
  0x2961cc038d2d2001d9c45c02810f1402efa00b031954de0299dfc00378eb01010372b8021cb7d00000335b00d3c509011b5a3c01067b6200828cf3025c453200bb6f890283751d000dc358016148c800329dcd03a2a48c023928d801f2315f00069e760177654c009d97f800fb65c9004558ef038e1287,
  0x2661c5024ec70400fd760c01ff94b901cc5f76029240ee0074871d011c6af703b6b0cf019fb1b4002c43b50382090d01735379002eba6403272214031e334d00e429480234ce4d00f8e9c60088341b002a31ec01472cd0004be6a00105f00c00a93a7c01dd50760302aef40124c114037125d700ffbe31,
  0x2d25af034c442903c7595d010a819a03c6c7aa039e13ee0094372401deead0033233c802368a0f002686bc01e4a1b402038f7200ac019003147fbf0394d0d8030fc5be027542c90132544201db2cb60021ec7e01e9b02801d409c10082510e03e9b4a2024bbd800252b63001670e0400e0db1a0059db89,
  0x2dd3260047c80d03892f2d003231b8029c891200c300f10174e4d4013db340034fa585030679a3003d67fc02618e7202904c8b026ca9e50046349403ebc40a01accd9c00f881200249e41200a0580e0009e784001a135f02e94ea802dd9e5902c426b8036edbf7007e070e012e6ce70212a9ba03cc2a14,
  0x132b8f008325b901f1f57e00e48bdf0250a00f0051d45f035287320092c576005d47d10046d05a003112b00389a75d0398bad601d47d8402aafd36009dae0b01b3076f016dd21c020cb76c01692a78001779f200e28004007fb923039685f40023f30f0237de3103abd6c300fbcfdc02b9b26a023788b5,
  0x6731b0391d5810067874c015126be00d2c88c007fd4550332c117006cfd5002b563f9038a11780019347b02dc07f4007d44500154c47a0066bbcd0059444203839de703af477002111acd03c623f30023f03d026c4b130372f41000254a2702433d5f028ad0fc0099d516017933040128ff7e00d5cca1,
  0xf74d603de4406021b733b00791cf8016ff4c8010502ce0222c1a700d6d5a300299f62020180a1001a6b0d01b8e8dc0205efc702458ac600f10896013caac6030b33e20170401b01d0fbb303b2df70002fe2e702da19a002d09aba038bef9f02b379a703fff01400947d1b0031384b018e8ea40240ca37,
  0x27781500f2a52b01acf23903961f15012c46df03e2d0c10275b1c10318e42400b5463b007e3a150014759f00ce558203e8ca2f03fa3b4400ba089402eba2c40159719e00d377650357d4c401de58370035e027005ce7f10373dbd2022df1fe012d0d4d02ca67aa03d52e7d00772cf202378e09008760d0,
  0x1178c40376a506011f7a8100dce7f4007888ed03957f260005b8b4035c7efc02b3543e017fd47d003fc14a000b8ac700297504034e09ac000e32da0206dd9d0052c15f019cb1050353917301a9c79f001b0eea0053290b0003919b03361ad00118999602810298018d2829015069350340bd0300790282,
  0x1cecf702ad69440244f0c401204b6e019cc14d021bb60e02242b8102960030021e555e00e8e66d0032c4d30089eaee0300143b031fbaed01d514a801a0411f00655b1a03420b7d01d48b0202eeb676001b673403f3ae93025895b00345bdde007760c801e81410019429fe0389d677011f4f19032ccd78,
  0x38dd7701fe674f0075256503dfc0ee01ef4fe70395f26900dc803b027bfa41033cf17d012132480004244b00b0ed1202726ce60332571803ac21e000479da8009f674d03885c4e018ecd960333a7ae001d207100adeae903cbe15c00ee5cc80215af9d020e34a803a13dc903f16b4503fef6c80164ab70,
  0x1cc14401eb9f94026b0359034e9f9f02b5418f01d82489021daff401b9d9690370ae7200cbf72600258fb6015c3639033375a703c290620065354400da6c060026d0af00403ecb01e218f303c8be830029118102145746014be2a502cebe9d010b0544036e4f25015c927a02d892240021b36d02fdc0b3,
  0x76b790191271702bd6c6a0294212b01df5d3203b9ee0e01c365aa01be2a5c0007d2e8007239c000383d50028786030153cc9c02b683a4017ae70302e9dc38013a3b5700e57a95006b7e7b01fd529b002604c70153cc2203e1a10b02d94daf03be97060398b18f000a2f25021ea7f901d35b1a02a17f00,
  0x21908300f66538011ca32b02925c7900ed5e3b03922a3b02cdefe7022fb97b03c91a9f009fab73003d108a01b09589008380f902d34c3b01182e8b00e7f86902ddb965010e4d260021082d02ee6693000e01190376a3f3007b2c8d00b6a9ab00a00b5400b6f6ba0269fb32007e687903a814f5005f74c4,
  0x34bd4802f9a4df02f07d950230e5c401dab4a6005c317b012478c50247e53f00d7c8000274f4c00015c32903fa510b019e884d0015581a03bda00200671e6d033fb55d02b666f800bfda1303176f1e000fcfdd01fa73600068f7b200d7a8c502e833db015aeb1c003c90c3006ac62c0081257b027fa8c7,
  0x952de03d3fe8802a82d1b006452f30219a03d03dc0df7017c97e4013f813c015d2a7002e90b0c0024ddbf01ee7eb201ea1c4f006b002e02719348004b0a39013d6efe02057143004febb50292f6fc00081cef00f6bcf901f30627002a84a202510e540154f92a0120c18502781d6d034a4c5c03c25aa4,
  0x355204026418ff03f0d34b0215cfbd00f94efb023c79d3017970cb003ea3d600ad3a9f03fc6f3400062ab101310c4d005b3f7202c7b1c6027e55dc0174c2c9014f7c5602c84ace02527bb101e9daa6002fac8d0157c1a70221dd2f02a1c14a020324a003b3df4001e123600395b63b03cfb04c00d6b47e,
  0xc90560042bae201c5032101464ed100ea684a00b6455801f643ac027d44c90029963602a92ff10018d82601d6a3b7006a75ec03e6ea8201e14858008f075002fb65b6005143ad0379462302b7730b003d6e6701bc001002a4e021001346b400c5dc6100965b9b00a9004500467194019838c103013eee,
  0x2ac011030c04de00c868d90079aeb80191101000c9017f00d3c8620293980901eefacd017bd8c6003b34530379bb4400f5bb4a027e336b01f79c2e02476e8b01ff6450004cad0402e8b5c100dcffc50035adb502b9ea3302bceb9701ad3e5a03c32737012899ae013c300800488a8c020ff9e003ba97a0,
  0x233d5201a85dbb031a5302033a457203258e6e037f30a602631e36000f1d7a012bb09902c760b90003ae59016a8f3a00cf4bb4035da4e20352c8f303d37b1003e5c8870295f01d036a057c00e5dfe600390a57029e6a870005d5a002fa7567010f004f00fdcc0d01a13bc402c67755015b593501738e4f,
  0x3e8bf003cbedc90316f12f013619ef0322fd1801bd736703f2b65403a6b40b00969f2600fffcea0014c41001874c2103a786b7005e5dfb0149266b03d7c6fa03ab6242035761550046d2b7026c7ad0001a448702f06646033008f601914c8100ca4757020b46a602567e4602493350037ba88203bf8542,
  0x24dcb503a4df4601d137d103b9d6da01095dc002f4bfd10121503800c4055d026092d701fff32f002f41c502e88d6500b1704f007bbfff01c01ed402e3346d02e737c70305b4d4032bb1d2027802c5002959dd007392cc01de42d4033c70ea00448b3c026113ed02d923a401384af2014ae35e01ef8def,
  0xa00940217b97a019b82ab0095587300112d0b00cc3ed6023415e801655ddc02eadfb302519556001f5422021dee5b036409e80371c04500bc0c2400b97b3501540c8f023346b702edfd2c00e3af16001b227003b3181100d81c2b02928c0b00584053027c950f0134c4db02f688e700c29bbb01583741,
  0x2c1fa702a23e370390b7de0398fe1000c2f542027982cb015a4a7e0309db9903767c0a00737d640035b242015151820038575600f30d6d01d93dda01768f1603c8253702bd61ac030ebe7e025327b4000963bc00141c2c02af6ef9016a87f1020011200240730102954b4401e7b0f801175093018b6953,
  0x166c9d029dd00a016ea0590223514001f3a0b001e3d2e800e337f401f6767302a601210319d0f8000e7c1c02d7ba900070d11f02fbc28c036f74ea007175b6025731c70371cb0300b24ca7014a331800224dfc00ca5d980260fb60019892b202311e1701d901bc00b3afad0023f14a0141adff014c3c87,
  0x1d4b0154d44f000ba38b00016a6d03690f4f0047ef510090acb200c91867008a035f00f3fbce001d6367031d2a7a00d6840900d26d7d0201bbac001a88320053893b0135d86d00f5aa700384e3bb0029501d018057890031352400b5a06e029d56460159f8e10393ea2c008892e801e0372602fb5fa2,
  0x2a9b4d02dadf3502b009950006990502d7fb7a03c6c38500974f6c03413d0b03096fd8017019f3002109950148dd410191112f02ba035202eb8df7001412b703602ff102aaacf90011f694018eec70002b9ebf020a2d8f01070c730047571a039e490401e9157703b932e801786be501d26ef20369842b,
  0x26f4f50025ddb901ba35910035e18e00fe967e032fc40c00f768c403b939f403e3e6d001edd582000deb2a03646f1a02b0fcf801afd11c01d6308f00d87b4402f6aa6c00f8288e0247d76801ae7fef0035d85602f48fc603047e5201e3c944012e9c2000a36652017648ba02785aa701c7434d02bd31ae,
  0x133dba03432728033b87950272a5e800e99aa802a294f301eb4a7c01f576c402b13722032d68a9002c519b01842d58016f055c010d1bb00340b0b3033a92bc01ed9101010cc94f02d5740b01508cec002a2085015779fe02bdf15d00c76b8f0334b4ae00b5e6d3029be0020232510702a91956024a1ba9,
  0x3a5d6803ddf15d019b58ac01a1c34200faeadc0040f906007e564b037038ed00d965fa006fc55a0013c496008b6e8f008a65ee00d5600503fc28d700f6d5e1015b29220137f44500c0e84003ebc9a90013851003a008fe0308cabc0008431c00f6a72803c519be0179540c00518f7703b574c200e64a0d,
  0x120c3601b4d2f9014c18ef039918e403f986eb02c45d06032a3e8801770304033b309b010dc865001b15d300262e5e03b8648803237de301a09b69000f790e02d2abde029e248702d670610317b43c00347ecd00fce14d00039adf0349fcf3011c61e5002fdf4702cb9c3900e1308702f692ae002af831,
  0xa693d02ed32b5038224350286a381003f103e004e25f002007f3303a61e9602a2c23d028a342b001c99400114974703d48bd3011da8cc010c43ac0253dd92005c5110038fc36901c0803b01f5936400284d950078020d00f2e576001488ca0271528f034b680f028deb620071dfa000ebe83d00b409f5,
  0x38175e0322e61e014f6fd803c3d38502c16fcd017958cf033dfd6402c8bc1a03f10fc3001695fa00370f490275589202459c9000c9d8dc01b6eb7b0110d6d8028c9e980033165602b5403003db57b0001b06e301c647a400856dca02e040970035ab3800d9209a033cc79302750eba00bdc35c010f0f93,
  0xeb791031cf6b5000133ec02ee3b980369ffd8025e885f02d830e002d8f5560392c13c02f27e6c001419c902e4832b02454824022dad4701fdab2a03820f5201d8cde201fe71b101fd3bc300f146db0013c1330301ad03013f5f2a01e36d2b0094abfa0265235100f1b1bd0114062001e17e59002779e7,
  0x1738c503d8652a0008f2160095d4f102b3f64a00fc75dd02670907012152170161db4d01a09e3f00132bb601ad9a11015bcbb700589de2026af11e022e9d99001bd84f00258afa01651758025d93a000070f1c021a74d801cc5ea9036f60c100cd04cb00a4a4be00fb2ddd0162eebe01c5a00403aed3d0,
  0x67ab30259e72902ada87801d243290279a86100ee246a0203e8ee008692570396a6350018dd340027ce680291749802bda03701bf923f003a27d3039e9cb603bf34ff00a288b4037522c10293c13600345504008037e502d9bd330186e2e6033d628003a03726014f245600a7a2fa03c48a2703423574,
  0x14885e0130207b00fd36bd00aa17c600e4f72e01c4f377012788dd01b4b42c0224c0480170e1bc000f4be7028428db00af11090374ea320024c3f602f7d797009cc20a002b3f0700fff01a01c537fc0020594401f83abe0297bdc10157790f018d6c7903c471f10335e08b001422e203beb8410373f548,
  0x2bc4670087ba2b00cac475015c7b13037cafb803a9cf16024fb6fe017a40fa0087ac2c023874db001e5a1302351ace00fa9eee0019b1f002995bab028b066401ee516d00c086a202dbee3101658dab001826bd016fcad3014adacd03ab66ab006f41c5026d03e202fef3a501e21d960058a1bc039ad29c,
  0xc5b9c0263c5eb00e98204005fe20f0192690a03cca30601359ff200d68ae40343fe590286315b003b33250029987900d39f5f035823b7006ba3760365296b020da95801592c6f02cd85d70016adec000143b402c8e54a00d07a220399a9da02237c21032cb5c3001ada50008fc7ca0203609100106dc3,
  0x12f3d002c04d870095670b021fdac80208059700329d1301a5e2d10294901902ff27d700ba4df900063f580137377301119ca6032f6650031fdb3203e9e0590170d1ea02d74d23036d83e9027ed6d3000423920371049c02f85c1303ffd2dc021cc6ce00085513002abd650211743300b73eda00c28522,
  0x30711a00851de8027dd329035a49530070305401cb834e01d43d6202141ed40327e51002688f6a0010155901cb348d00d1b7c203a41c5602183cae027a0cbd03b7aa3600478be6008364b50299a310003f796000bf4b2000c3355b01f146d002e6863202c02e1d02ac42a703533f5300dda33003499f12,
  0x1a74301d386c30080b53a0277a80900b073a401703d7e007dc2af0049b72900ad8dea023cb56300388e4102eb693f001070690268120f02c93ab10231ec7701d8584e0126dda401ef2d4f026a0cc900245dc50043d6fa021d43090329f14703c04a960205944201dcffb101c873dd0190bd7503d49592,
  0x7c50b01aa2fef01f2cfd101ed55f701de18ec031151c0031103400066a730021dbdf203385608001afabd011735bc0194b02500c201f301b25ab201c320fe01a952b8005bcb67037eae3f005adf0f002fd118006a0bcd01ca7d0302f043da03d6f03501956a8f03db336c0364dd450295e5380331eb0d,
  0x2595eb0352f9fb00c39b7002171f6c00d7b2f20095df7702583cf6010d45da0134d7ac011706c3000f3e0303e77a0e005fc92502b8c99000a4d39c03e2246a031a8a7c028a203402f128a001e4ddc0002a9b8b010a7f2f027ad432014c236a020bf870017537f003eb1ea203deb0440327b94e0004c057,
  0x2423c7004147340179a58902d6005f035dda0c03b828df00b1de0000546cce01db3d6302baf8b50021967201355725007223110089ecf102a47a4a029e553e02ad7598015a1ce50147207d0212a8130003602303bfbc4901d3912a02a238b501edfa6d03b8158e0305723b0341a53803a7408701e14104,
  0x20764403550bc601dee7720288ff5b0232038c025b443400f5465d020c9f6703410a9a03efe8d500348204033122da016503ba01eda2a800512cae02ea079d039106a2033ce63e03b2212a00b5101600182c910160046c02a31895000687e0020c12c703183d490035c98e009371800003c61102350c64,
  0x2ef67a01ec4a74031820f003f7fb8003cdc9ca01cd8a1401da1c5f019104a40334112300006a4b002f50fa00df2b8b01e5fb8201eb760f023259e703da410603419754012c961703ad90d80058443700173f0b0033335100748f620044484702b04982032b28d8021f12c30244f2c0004349bd000dcc9f,
  0x9394001ae93320062f482019fa4220165a372016712dc01dc78060340d76703003e37023089db001381d501b0aa2d006181ac001a2b69004e589801bb6552006a49350301a3d6024e2c77012bcfb3001f5f2a024a8c220011cab30351c06500fd38f4000dbb8f0026045a00e6661801ce2c390396c6dd,
  0x2b371c0136c53800ab9aba026d9f49020752a30223d2c502f45ae9011bf451037ddc2c03d53d7a000d66fb015406a1003cc94a00e6e3e8004e236002778e33032641690144c73202fa67550246a17100231cc601223c9e0125c1590109f9e202f16377016b5a1501edb69d00b281df01b4abfe020e15ba,
  0x3aca8d00f978410245ae5e007a6d5300496f8601d371ed0146e7be0300419302d79d3f0002f7740038960900cb85d8001ae82d01678825001dc2a80059fe1201eb8eeb035834b902d4fc5f00b4fe9b0027059f02ea5f3e03813f2c005de3e90286ff3201807ccf02f3e6f403c7feba033eaa9f03d65ce0,
  0x2b786a01c80fc30307b5a3015f6f5c000df0b10348818902e6f33f02ed15250047fab80302f3540030308c00152eee02620aaa01688faf022b5762009ab51f03ffec590381f24701304752038b85420035bd9b03b6585501026e1f02470309002e6c91004cdd2a02c38c6203f10f3b022afbf4022b03ef,
  0x1848640350433f00e310de0170fd2700e91a6f032d12a2039975bb0122531a00e69e52016dbfcb00344f51029abd6502a0f89d028bc27a021764c302fc70ed021838250392747002d26b150159eafa0009f410022fc845010dc661030e94190382ea31011a4c7703e3c7bd012f019503df2aec03818d3b,
  0x222ede02357eaf03137a47016fc7420321da99010aa75b00fdad3d00c664ea0350d8b5001dca2a00223c7c02c032ac0107edf901b83ade00dbfe17010db69f01aaf465005e20640220615d019636110029750e02a2e9bc0018d1c10131387d02506f5101de42200169291d004a7b72033b99ff008dac38,
  0x23c80c032584ff03fead82003abaa20359ea750161201f024b53ab01d023710091d3af03775b200006666d00d7d37a02bc65fc030b8b9f006f023802b568a400c48c8a019be41d003b93030246a3050039e67303c0dad303c58398027490f50300545003f6160a017b001100d2002d0391dc0003995a86,
  0x62e3401f42ee903c265510319628e032a6e46016e671003354a6e03e2886500e9ac9c0150baee0020904301ba108a020c1c700149d2c30029dcf802203c68002ebbda00482a9501a2113a038204a8001714d80004fe5800e76bb20254912800daec5a0061a88f020e5e1b0236bdc502cd482601ad6d38,
  0x1a981b0084b547024e8a1101a111f701d5a3190177f8080317e6a500655ed903276cd701e4ad1d0009493702c47d8902c5cf9600b9dec803ed6db30184301002e2c48803cc58ed010e332d022dc87d000bb2070073d13502657aea03e43bc00119b1bc023ef285017e36b601bf724f0285fb7903f9ad1b,
  0x63ac802f40fc002d5172f00181eb000cb075b01a94324004985ca00317be901e7e5a201e10f610003f8f703aa65cf0379b216026c316a025364a6026bb1280111f91b01bd2c0001b4626403ee79320023285000bd66840187964101789b3601856dc80363719101c1276d02e4c73600da472c00d00854,
  0x342a9600861cc202b54c1d0366c106039ac00402da6511012b582802f6c9d4036d1ac900e241740032d40e032705390379d679011c59e4011f73da00373eac0250d0d0025a8ed901cf2f8801ee2f280030a8ab002cc8510153eb8c01e3016802f87c670191b97102a3665f0092399c036b0119038fdc5c,
  0x3a92dc002e7984036f96a60164d41302f51338016d52bc0346eb1b01a5b45f00ff36ae03f5249c001c808d0129942b02e614470252978d020d87060126e8ea03ae68d702b27375016152180220ca660026f3a200af894f0362e11303ac9d53004bfb6b005c3b26031b86a60202df25033acfd801da0337,
  0x1fc61a009c6e3d003186fd03427169022454f601d38b8502c6fea003ad63c003af486f02eeb15c0006d157038a7191036d409d023ad613030a901d02b253c40355523b0378ed9503a4eb7a028557840001026c03175485000c54d501cfa56e0160cedd0307d52e01b9beec007360bf0083305501f0caf9,
  0x3cb680016dc58601fa0186004c373303e1a81802da02160239ba4301f7c9ff03bc92ef01ff2a57002959f40222a1980210ef2d01b3eed6017f2fb5023fc9a601bd7db803db29c101039f4202d6e3fd0005e90803992d8e00266c8701dcfd5b036563dc020919fe008d69c6005b5ff301d85a5b0099e09e,
  0xeaa490003dbb50335a27601be32ae031917f401ce9e3c031d3ca002717782039afa590132eb64000966cd005589f8038d8dc800dd3b0e0356958700ce07ee01ca351a020ae72703f1446c01d73ad900119c7400e28458034ec4b100b1fa9c0289e0a3001f41ad002bbdaa005a68d3009b20e802b19ce7,
  0x3003c800b2d315020fe318020dd69e0184e8610118782a01dc468a00a9b96902043cd002e54370003dd11f030b4ede0289314602877af50325b2c50175c9ad027d1f06012c657803bbbad30113fe8d0030479c0054bd760052d4e2008a6f0f0127e31e00eb511702ad0a1602ab3a8f01cfdcbf012e3323,
  0xb5d6000684c85031c55f103afd9be028fa3aa01737c2002f8624d0065b43d03e519c1010634e9002ef53d00ed88ee02dff75a03fef7aa01f3152f03e4a27303914e100151ec6e032ae4bb033a4a7a0029728d0011abd3007434aa02d90c8f03f2f6d503e4233503199d8e032376860278a62e03ca97e9,
  0x125c4b03ed103c01640f14033271300222bf2101f5c88e003670c102187334037f951d01ff5962001654050141d5a10241b4ae03ae29e603e10e560338b85a00f6cd9603a00c82010c5640009425a70014e99301ec6c9b0327034503231a2b0252519c02b5f7db0270d192013f9e5101682d5d0328ff26,
  0x1be36201b11fda02d20440000e3bc1027447ac03bf65c4011220c903725ea60215424401e4485e0021b9870374b36103014fce000eb503003a1cbf007a616a0256b68501ef7b370063d01703eadbe70005ab0501ac436f036a4d9000a602fe006c259b01e0ab6c016379d3005e06b0024c287b0359358c,
  0x2257b80023c1c80118d69800a4d9f9008aa785012de3560052adbb034a421500ea39ea018400ed0011b08e00a9174403d53659021830e601d8d6760104dbc302bf56f9013f3add03e536f900ce1691003a970001c8c65e0242d33502d7a8dd03966baa01ab267801bf246203d28f5100d8ba1f010ab814,
  0x68fb70376557f01a1d08f036face4013bc460011f7e720195f83c03d7c8a7030faaee020e8aa2001d2b2801069ca00208f9a300fbfab0020aabdb00d5828802603ac1039ff59b0123f7a9001de01b003c47520143ca5e01b04f2a00ec40b401b5ed6f036965cd00487b51008bc45a0266ef1103c77e49,
  0x1144130266ff8a006323290156890d0251fb1401f435c60068627e0364b2ec01590e5e013f689a0003f39b00c00cfd0338857d01185dd103239b6102c8ea6c00a6e09a0148c2d6038cf5ee03df896c0035a1740275a99a03ad70660287ca3101d8a8e70173c8a90060fe640276d9d5009acae802c1c16c,
  0xbfdc40245a2a703a475af022b4a75010dd14f00bcc44000ae45b303159e770092df70018be6a9002fdc9e0368038c017cd2bd01e9cc28020714a403bea31701caa541018905c402b4ada501ec29d30029910a008cdab300022c4c015dec110023907403ae09c700ee478400d8d62b01107a910002f37f,
  0x4554d02c488530261b6c20034a72a006dfb7e035dae78028218d303ba5757000f3f490050dbc0003663de025461d3011652de02b71d8d0015c827034e411302beb657039965b80265ec7c01ad0f690024705801dbf14c036d8e2a02756ae402a90eae031b3e290243ab3003bb2df903f41c6202c7a90d,
  0x205ae1020500bc01381b4701641030006dc6bb01c667040082c5e101faddab00f2c1410085a4ce0024772502fb26850333f2a001701dca01724ede020222d502cc867701bed89b030eab640344760d000b1cb500be009f0040c9ca00e53865038081c20384051b0040c59b009c740d02a2b0740023a9c9,
  0x1dda7203541cc203c46b8c002e9dcc01fca5ee01a630e001786aa203e07c4302d7b39203fa7631002e100f00b248f303d14ff50162bf8f0051336b01ed6c5f01c9d43501e2b7d801ac641c0072767d002d73e301e85a1802787c5802cdb70403b442180259a03e033ff59b00c180f90326891e01993f82,
  0x1723f301c1e6a0006c35290371949c02353428018e534601e2ee3402b1fe8b01394df90242fa370001cbdb00ca356801e68d2d005d41ee01f7566800fff73903d326240282ba8102b8c7c201899d720004ce4d00a1888701eb6c1f00128abf03326871019cc863022011b800afa8940299c5020067b210,
  0x118ee901c64ea801c4074501e6d9bd0372f5500289005201877ead0327bda900e9930d032da07e0014bf7103d91cff03fbfb640354e5c0018f01c0022f7d75039b30040132438b0225e0e30228ef12000b742903b9755900614fa8018d60fc03d0d83c036ee7c002bd5a5d03925aed005a1fcc003896c8,
  0x375c020325f7f600641d3c02516b4c03267256022a43b1011faac001f6866702b5ae18034d83df00390aae039f50e903f95f7b00e213d003a35223006677f8027d061500d225a903026b2a002d24960034b03d0172cb5e03e06d1c014c720902054dee03afab80015b2d1a00ab8d4901e758a102cff38b,
  0x7d1c800206379016f3298006c7a74034e398e03076aaa0139c069026344ca013d03db0125b91d000458a802a859aa02ebfb5c03a7663403c6662c02110f7702c14672022412ab0015530a030390130010cf7f00578353032274f900bc4ee6037ccee300a8e9c1010725480163e0960275757e016900d3,
  0xaf156039b54f801211a44031b4f8800dbf969015a46bf01e48fe1020a34bc03f4bf6601feb979000b81e401489dcb031ba65503f42977030a866503ee462f031f543b006d7820012445e0018478bc00184e1c01398df303120a0b0340f3a103dcfaf20102dd480244f99a01a9ef2c03a0c53a030eea75,
  0x1f2a602f6e2d6007fb646029f1e4301cf402901fa33f002d2e072018ca2ec01e1d21200ee658c0001d3c60245f43d0164668103da521d028d8ce30193d99f01104db103d55ad802e1ae3c0202a1c00011e7d5005ec45500f4f4cd00affbbc021b71ba0122125b00975c7400ea415c02979ac400a74710,
  0x2f31a403c98ec0002952ec03f3e08303ade5fd00442ab002efb8e7028ece3e02479213001dd536002d382b026c2ec701023c5902ccec26001f084e03d97d00025eb33c0028d779004d7fb903c0f5aa002d50eb00869cb000d9d84b000f436700fbc46403799a9400424525039e07280384e68702ac0d2a,
  0xe73610166531f03c8d2e8027ccba500dc932901297e2f016d430f02f2980902c3b42000c0d4930035bb5d031a4754012aba1e0307aa91027caa4c02ff266100814e5d0068e05801513217030c8f65002c87960388433e0142b6c900c2d77803217c6601d0c19a01a562c9012df0e301db75cc0061addb,
  0x24c22703cfce8703b36eff0197ec4502cb23230074e73401cdec9401b9cccd015cd7fc00e842540022ec01018712170169029f00e27cbf035e46a00174d11502a2914a010f39b802f7b03b0299a17300399d6c03ce3a7403b9ac4e0333a30900859a3c029daa8503ea978300a250570395c1de021ea72f,
  0x1154410213b5e60040e5ab02f5002f028bbfb800b8194c03dbad0f01ee7e3d00c0683e0300b2a3001754a10191d0d403125153010bb2d20074ba6d0124e16a02a4522c01f4e5fc021a09cc03c5f0b6001adf4a014e4c9b02619bee0305903003809bed027983c9013112060020b03a0245010302a52ae4,
  0x321fb6022e6c6a01d16845039c690c031c2af600304cfa03f7235802f1251901087f040295e117000046ec01aa172500ab389502e6809e028355aa00d0dbd900bf7a7202fd6d22002ffe2203d77ebc00187668033def89022e9d0800e82aed03894204032837b70377792502bb30e600ef3f97032315d6,
  0x3eb47602d03051020fd26c028cc6ab00bc782c020fe3e302bfe8d402f836e103c4ae3e02215d6e0037d87002fb8e9803fcdaa7012c201203ff9e0d03d230d4034786a301203016038c96420144825d0011adb000b92b66023f5065015827fc0168921302cceea302c7e1c501595e0102bbdfad0180fb1e,
  0x254f5c01f10b1f00c326e2017700e80028edb500f15e04039a5527022dfbb5003d9eeb0089929500392f4200109eed02839b3a01a89b47001367a60210981a0308101c00675f01022d483202efef86002182740269f78a0106256f0354af6c0264cfd500ab066b034ef4bc00c06046035b53f7002f7413,
  0x3d5bd20332f90a0239934f0215fac200b9f5f101f3424603353ad50016a592037b57d503638416001689fb00b90631005d205700566a22027dadf200b2c78301e348c5003f687d0299f72e00a01b810009c8f3027e1bb2039dbde801535d0403c3ed5f03b38ba40168baea0045d8a601c22d9c02e81730,
  0x1ec27f0002353c02ca0eec014b47e400deffe101709c300060d84c01bb5c3102fc615502c8d3f40005dbb0028d89ef0094c72d0063e6960395c0bf026aa7ae00b1dc6f01cac1c603f48c9c036b9f670033e15c030dfa97034e935b03cc23940313c7e102e8582701a032c303770c530199860203861330,
  0x39f49c0330626d00dc1c4102fb878e03c49424032bc6b402c87ba70186791f010d440f01cf9a6b000eb325000e50fc035c16840148372700160db600eafa7500864b3302358cc402501ea3012df945001b56d60054c11301d2a1e803a8941d019b60fd0074241101957ebc00eb5e0701416be202eb3afd,
  0x29f7d3010102e8032c515900e16dab01505aa5030ff01302faa1db0010f20d00fd0b4e0004ed210022dd0e029238e3009029a500cba95600e1d77a02f24c060393e38b001f6de000389e7e0052e78a001bccec0051dd06024d19c50364f9e6027a7c1c013023e40155d41803deb4e20121ed0603eed009,
  0x38dcf03aada710100064301eab4b800f5d11001fa5ff8038f21e303e3ec8900449fc4036f2af700300085029ece4f0055bc3002edc8ba00bb5c80032c46220270c7a801cdaac002cd2fd90213659c000ae19503e9be17022b568600c6cfac0331288602405dd3014c04ae00741253030af45f0318deb7,
  0x158b90002d337403c3acb5025fc82d004dfa330396e49301c6dd4b03163c74015803bc01b1f2b2000f74de03b0086700a089e603d81416008e195202d1127703bb2b9e02c520c4010cce610105be88002f31310378724000b2465e0276df74037704a3026139f303baf168028cacfc0309177300ec48fd,
  0x9322014ec12100e7d19900ae4e1800e8de6b00b353220305a35e02090383036b55040177ee400007b0bc00805be8010f415802bee63902826b0100fc4c3101035f5800c81b1403aea37b006cd3f1000b398403b8f915038b1f4d02696586015a1a550383d990001dbbcf01653acd02a4cc8303905a62,
  0xc4d14011d0419015ca0af01338b3c00bada740077e46f00a14dcc03f38b61039c7a9400981372001295d6028093520108ee77008b370c033d973103ce39970326bdc4021a6e77006b8f670250b2320021c0b901b6782500fed45003a20a5c00e9399f003d6d7d0196e0470053ca4d0039aee702818a85,
  0x2cf48301c1a4a603a3d84901bc05cf01981c2a0208c9e700c2331c031b8c450293977d0151b4a2002c34cf03863f3802946069029e83af008bd2e5010abd8503414a17009274bb0296e2290173d337001da83e014c1864036b6c14032922330278383c03c83c02022a6c17036457fa0374482c0208c8aa,
  0x172c700de7d73014a87b0032147a500c24969019a1ddb015cea9001643a7b010dfcd300b2f1df0037b29601486c38027a9e6102a07043023b866f03d42a4303c3208303528c7a01e7c9ce006bbf79002efbab01f1ec88035cd987027495b4027aa51502be5c68036ac6a20198ae3e02b77249008c63b4,
  0x16571702ce2b0000f03d1f0255bcfa01a2558e024f03e101c57b890131936700c8ad4e0213d687003eb9570169edab03d58d4d030d34e9026e77460333397b0393e37e038c8ddd01d9710f032ee4370039194103288dec018207af01b1fdaa0397b3f40318da000386077d018d5d700304331e03b7bb88,
  0x735a503c1cf7a02d4a2ea03f7207400bfd04d00cd973702da24270324450c0225fd08018dcf970027fc5002533eec0392451700fcba3b00d93c5202f0938101e358c90316a9c60304e95f011102310016dfb903e31767004f9eff033f0d0803cc6284033872de0367701300b2260a00409acd018f40da,
  0x3f5af8024d68b901071ece00f9c8e4032e24a301588f2f03c788d9004c0f3f03552c52016170530003ea85017935d200e89107032d72420064cd6102f806a7005b8a6f0298df9100507a53003549570038247d02f23b970392ae3903144e0901a7509b01d61b6d00d04c17034dc0db00c5e8dc007ba75b,
  0x8ae1702d36d730156bce8003e5cc30222b56602d2f5fa0266d948021033ad02bfa08201f5442700255bdd000930dd00ffac4501106e6503f2d517004f62fa03295a7a020f64ca032443ab00c0ea85002280c5011b5ffb01fb8df502d2999200a2689902cf4cd3014afd2c02b3bd2101e3152f013649eb,
  0x2b6834006ed49c01bdc9110091fa27024c003700825a66025c5d5f00f04755000f9b25000873d0003d09af00df2dbe039990e901b071dd00c0ff0d03d4c95600bddb9f0009e6dc0354d0e501f2bea60039e42100ceebb003db05c203cb40ac024f368502b7ce0e024ca07501f0293603cd78a703002679,
  0x38ad2d02b43aef02e0411a035980cb03a0238203872bfe00cacb4b0131334b00c65547015a26b10015fdfb00ce539301a6ad03025ecea2028a5d3200a0104a01f690dd03f1e8500136fe0000b5b865001b43bd01d972fd0156125101a9d3d903b907ec015187bd01a263b70184235a039f95a601f05130,
  0x3ac965023a227d03eaaeb201da3e6000120cb901821adb00151a04027c0197003ce6eb021739280034b9b901a2e5e1002a76ea0045e0e5008190c501d9b16801fcca6800334dfe017cead803abb6170011edec03232ae70064819502c51ef101f2225003bfaeae03c578b902d658f2017ad3580133c7f6,
  0x26461103520eec027ff81800fb1190013b98d200be2c760395bc29025d409a03a7a6ba01f2936000305ef902f0c8a6004e6a63015b4d95035695c5008cce2c01c55f4102d7b0d703db69b803be59f600026a9002a7cc30033a519e03e9e15501e9bf27018ce0e40211e0f10365f3430041091502f8fdf1,
  0x2d4b0c0242334d0249306700d3d41a031c541901b1f681005afaa7027820bb002b3676032d87960016a8f702a508db021cb8df0245d147037ecfbc02a11b620346e33203d7485d029cb8b2010db51a0013387502029fec03ef4fff03fc3449027b91bb02f350bc0273624501cbaa11007551f2000e2602,
  0xe70df01c4b4eb00c5127001338ca90147684d0205dcff03361449023a5ac403e3133c03059f1800120f65007e99c5004fd9d80253110403bc088b011b59f503a97cea03654fa001b92524032bd4850026f3490388470602705f9b00eadbc20239124002c5552d0297fa2a0246190200a6f5ab02b5578b,
  0x1fb1cd03ef9a6b00c37d5e038f79e50245c83900e9b1a40379857802c4ade902074234002f6e8700031a6f0147606802c318b90151ba7f00d42c3800af8d7400e3551e0051e2fe029d43a100ec1d2e0037c7ba02522ae7005356a100511a5a017e0521036b99e3037f6268019ae940005477570285cd52,
  0x3b29ff0316cdd801c53506015933d3009954fd0310feef02540d0602a4b65b03dc183701a6292900030e5703ccb84c01cd83a0016081f601a17efd034c493401e1d648000b54f10207c36700ab7b14001452a8013cded50018d83100a3b44e01c8868900f2f6d5020a9cb203fe3dea02a10c2a0371fea4,
  0x3363840270d80503b0804600ef22ea01e3cf2601e3225301bb7e94013ae977038433da00d6a79f0014dfee0388a54a00852f18019f523401d9b38801936068004840cd02ebc0c9024316b00027c98c0000d913037d30cd01aa6bb4014e64bd0089414c01aa8001012b6dcf0321cee602a5948d028acc92,
  0x3dcf9d03f7660a00f3446e00217fe802f41c4300823baa03252acb01f98073021b94f500c05b30001b424c03067de4028d17d40259217d0304fbd9025d1d3800369935034ccb60004f622102f3126800092aca02afa2b703927496038147d800b58769014061f203707e070274e55702548088038e42e1,
  0x1aff2702acc1da03c8b329027448830043e9b700584aaf037f4c8d035a2f28032081c50009d0fb0011efbb0008300802b4c51402c6701b01395b7f01fd6aa700c0afa80171c1ee0055667a01fdfa1800173fa602e4ed1801852bbf034a12d803b067660080370e0050a2f802e687940330d7f1000747b1,
  0x2891fb01205d98035c02c2025f794303b82ba201b466a00053690103245a0d0205e4b5018cbd6300117447017f501503ef3271026a55fd014b974a02fbcedd02c740cb01e15adc017163f500d0cfda002fc8e503bb4596023a40dc006d667b0040d3d802dc03a802b2f5c6009a6121025679500122df3e,
  0x1681400237b39100118e8903e1acca025e4492002cd233010b596a01f35f9d01f405f30158ef8e00291d7b011d33e700d9ae2b01f0856601784bda0155826a0320e9150175ec3500ffb30501afdc970038018a03baebe202a03247034674ad02f854b801b74a4600836cf10244f388005ff87d0033e2b8,
  0x3706f701b5d1db0392124f024af15200a7453a02587e7201ace8be0166ad3b0298dd7d03146cd600079e6a026c97f8019a3a990167c65500cf23b800851ac303e54ec00234f2d30240792002ea19a7002a447100b64e8b025d7b3003b53a5402346438010db6500013b44902d3a82b0089ec900332e6b4,
  0xfa29202a5c835004f839f02d6defc03fa3b7c02a9327f017455c901ddb4240138f20d00d980fd00143d9901fa753700e45d1303d6f5ac00c735c70374782202fbe40501f1738f00287f6c02c9784200239b480220c3c103379eb9004a2994002c79560230d2e90388bb1301adb4d600060833010e67bc,
  0xdebf70185bfb9032a5fa0017fdd7302a92cf10280b16e021f625d03a562a602d730fe001358d30034684702f0b76500bb566303d0ac5b03316a360041a0f90382c15c01d86cb5020281f2028cc260000a41dc02aec990015daaa500605a4a0342d8b901eb5e17019670050107a04c002c35ad0050a156,
  0x9e18d025a6ffe03a99eaf0350e03e02d8fdf503fd9f41004c400903d559d4015ec12d014b3b5900294e43002a034701bb64940032ec4403d37b0403e8b25b0026965b02e676a901ac4170033758a6002b40b402279b42026f0ad801d282eb0349536202bdf64002748de501caff8003c83e3902526293,
  0x8ce9d03b6773901a565350091b6f001a77d9300d3a9f301bda4f7014e9b9603ae31a6018d78f90037d30402b2046300b1d76203cffa9e010649a902dae57002fba82f0001eb5c03f7d292007183a400108c80033e7bf400c708da0049168600e4828a0265857b027e3b9b01cedbd403432211010b729a,
  0x18eee8015aeecb031145be008afe26013500aa025a7952015998b102f0daf30317a9e1038d09fd000df54a00db6e00007fc7b600d8d0ab0346115a03e29a92039fd3cc033bc4bc0241590202e5cabc0019ca3d0149d50601cb7ec602171fb002cf4c06000465f10380589903f2bd5c0170a71e00016f82,
  0x10deb60172d2390150e82401d615d7001cb1e4030d1867032068660253b15e01543a6d03d45fce0019d224039968880216a48f004b22b301a9f3a7022970ed024f100203d14514011ab58e01b2002e0035f6b30024471d0169d8af03006abc03bf0a070302a715008b7a200379e09103fc1c8e01a3b345,
  0x264812008e1de300ee5a5301a04e70016337840241dbe20294d8bd00cdea5e032428ca004ff75f0000f86c00b973ce0104b765039d8851013ecdfe00e2acb0015ff8f80042467201b4a03800b5322e0021fdb201133f0f019a0ca5026dcd8001b2b77d005a786e01aaa7bb015eefc30266bd2702f8d30a,
  0x25132f016f999803d6248d0068be0f03b90c7901e76a1802ea0bd20166020e00ec65110337dd3f00138f8403141ff10247194003f3781703f6a9590253da77006c369e0256128c00e52f8b0332296b0039d4d101074fec03fb134c02a117a302327bbc0266df150101f2d00131b4a9024a5a9b01e3411f,
  0x3fc6810327698e012872870187bc0d006467c0027c1b850268449100ec53ba030de9d00324b0d000266bea019b6e840392fdce033174b1023f8a610128611d014834f802ec13d9002f744c0302617a000ff45400d0b9cd033af2480092134700f38d3000a24189025914ef00f45e41024f0ce403849096,
  0x3e156d03cbdea403eebb35030bafaf03f3f24b03e93045010bc78001aa78f302800c7500754d74002bc45e03b30e4301affc380225aff002c37020022958a80045372903f1726300e2cb9200f93244003d763500dafaf90270cbef00eec38d00b60c96039513d103acff12035ad8d0036b455700ef9926,
  0x1a54330080764202cf5805036173b10004a12a03a0a65200e56e3900747b7b01e67acf0302ba00000d77de00f6178100903c5201bc1539034cefa303bebe2702b9b55c01bb655e033f00240252b9350004d03d0333b64f00924c9f0357f83c002648ae0194f95e00f3279b0124e93b02eaa647014c8ba6,
  0x17e3fb0147e924017086a003d3cb6e0381235102f13bd200077b6500ab0de70138a6cf03119d05001794b7002f756900daf690011d07a202abc69a0015b59702e5ecf400feb4e501f92a4100b8fde600352c2c01fe5d990344097b01aa081202c093fd00dfc07903ad08be01c9599f012fb34500c1bcff,
  0x4944b00242ec2030bc0e601ae4ecb002c74c90214018b034c475503a911da023e5f42007cd07e003814b800ab284202b8576b02233fbb029635c7005068d0011e6e3c000e5e1201cb3203005f094c00208b75021044c803689551031945bc020fc0360191b62d03e717df022333e800bd17d80191651f,
  0x1e62a60191142c016bffb903a983a3033e0e2303da47cc033d31540033dbad02b9c745022189000008c52d02889a3702f99f6f000cf4b50103476b02c13961003fb8ad03297e5e02e5ae4b01720db9003d100c02f131810290c79101dfde8502645b7e01acbbfe00566545000cf97f01b962b301f5a502,
  0x2f0158009332e603a9259303701c35013d67960197ae6200cc941d032b2f110245410602ede7be003ec5a1010935e90265d9ed00ef507801a2281c0364ff90038baa270213d868006da52e0195e70300002dad029c83c4039775e802b41b7a025f904803af7d4400dc1e6a005e5c34034ab96a002c5d0a,
  0x3da0fa0220fe74016a31b201896f0f02a60d8b00cadac103fc9bb7032bfff402c39d56032759bc0005b2a5007a47d6037cb11d024b197c0209c84a0116e08801c5ca9402f656c102fc80b2030ea60a00101e870221700c0269ada300120e8c0228336303682992028bbfcf00171d11032dd86a01bfaf58,
  0x175dda016d743203f93dfb02b8a4500220dd9400b446d200168b33038a22a500e1249702fe7f92001a270a0003872700b666ee03369043024886ab03de1c8102eb8d05027c6e5e023d25990125b4a300218a0602803b35018a49be0377343f032ae8e303c4142200ddab660197653e02f872a9032aef1c,
  0x14ab570025e8fb02b2165303684d6403f2c10e018b57f703ca545200ed256400119b0802fe17610009976e00d5b544012d232c0317057800daa87e0010ec4f0024ba1403a4a21300bd3083024473b200075de602c2369203f9721503c0f91c0145ff6500c286460388ae4400cc057301acae4302503d16,
  0x3f8ce7017b3909002c73b800fceaaf01446f8900d3c34401a69d3b0212fc0803f4515803599264000cde0901248b940285aac500a7b301004c07b5029c48a80254cce302b22f1c0307498902d9f93300078238004883b503c6d63a02df3cc1031b3a62027191b0021e9829009554e102805ed403debb19,
  0x1b8084016bc80003c6600402151f4a0042f42f02193d7a02bc258e009522b90228a05203cfec58003d556003e022d1017988980012bc6101eb8d42022fb124013ef7a80074ca1e02336360013ae93c000ae4ac018e204f03dcce130030231e033a3f7b0354c3060002f1b4020e8dfc00730847017237ab,
  0x2d26a701c5e2dd02a3850202a46e0003892b3701d647cd007c5ce700c7dfb001bc1b75019f908b00061ccc016a403b0360db95027d59ae03b7ee6f010bc9c503757832036f10550252865500f44d5a000f6f1f038d85fc00d377b003d2e174010248c50139a15701215e7003f3921b006ef22101bedfec,
  0x1019a403c6447900501959016ce01102550a6603533661038fe5ed033355c10237a1f0002a2beb0008e9d1008dba9e00e7b47901b2605302f5eade0157220601e76bf201a1441001bf903601045cb000285cbd02a5471301f1ee2e03c3498803540ed20033badf0148a76701b619b901fad825036abe56,
  0x11f9da0341c76803546d7801bd93fb00178d0101621bbe02371194009781be024487da001aa32f003a73c30070853503f305bd004d53c2022cd7690172a5cf01c23ebb0212133402fa2a0a001ae3340015c6c3022afdc002f0856803e786aa03dafb3000ae17fd016e915e00502da703c9753d03025517,
  0x13219e03b41bb3038dcbcb012dffab0149272801466d98029ccfd401407fad01fa8d57010679510029e3c200cd7ce4004ada9f01caff5c00e50abe031da68e0291f2da021e6b4200baed1d02a286fe0036550b02bd096f01c4e63c0018ea740060dccf00e1d92602b4ffa30233007c03978eb3023caa91,
  0x28f60702096a6d00cd0070008c045e019c8f4003d8a8c600a3dbb10109d5b7023b4ffb0368c991003463ee00b857410099ac6a005448150036103001949d7101d21c7302c660f202079470021bb708003f54b300edf878001543b7029ed98f037a94da028ee3ff02adeedd03838cee017f7f0703744540,
  0x353b2102b0e29600f907aa019ba922006aa19201b26a710315a3cb010ba702003ac434011b66c6001c4e65023bb204025ce5e6004cb2310035da750023d28b000a4f0501fb5afa026a5f33021672170023bdfc00936817004767290083013300e4f7db01d9e55801485d6d039a0e44009fc20f02c8621d,
  0x39196202dfecf201937f7103cae0c300a43f8f01043cde0334a50a034650c60099a64e00d0d5800032cdce017a45bf00f8225601af655f0100dd49012b8d660315dc05013ef2160297991a0065d7ba002dafb900e78a570062fe67031ae91403ab855b02e55df1015947a203459f3301a6e13503317b76,
  0x31ab3001cf1b9001734627029d360e008f8bc201e9b05e008bbbe400b6e2b4010c4d8501d9148c002184a600c869ab0141e1e9032e031201e68e8f00a43663019b4a6b03f08cc502e34fb8034cf6000037d4e301a7afc9023a7ee9016ceb4002e63c8a01f2bc6c00f2fa0e007bc959036987da01ae29a5,
  0x2b425b02a9525002a7497200e764f1018729d9028923d00217492e001e1f29026966f3013accbe0003462103a9e1400163443c00ff37470108423902e355ce00a26cee03551d8403bacb5103892b95002c944102ba511f0066d99403a6ce7f00575d060032ff4901b645ba02b0095f008f70a602d79f6b,
  0x8cab017fd96c0385c4cd02af42e103341645010c291b01a1589d020c1f2002c5933201c976cd000bc59001d81b9d027107b6009937e9021bbbf60332c2c202bf36e0011f1196019ea72803ab9b820022111000e213ee037895cb02c055af0195d9da024d5b06037fe05000c7b1b903653cf30308bcff]

/-- secp256k1.go:10, serialized bytes 768000 to 798719. -/
def tableRow25 : List Nat := [
  0x0,
  0x161a44036b240a0055d84e037ac3ce02e60662031006c6002bfe7c00e7c023039d4ca5023532620010929b01ab191e008cd3340039e78e0171cd7101b03dec00165d0401765e6002d69027031160140021eb4c00a3561100f3ad9a00499598021e3f58013179e502e7447a037e79310108081c020c6ea1,
  0x89f110153cfdd02ef404b00d9388e03e06b4503defe7e0381590001a3270001502e7103fb00b600148a6e00c100ca0153fa2a00ac0017001e258701c051f201b6c05e0138d27700e466b601b75366002abe250154811b034d513f0038ca0201eab20702c2a68000cbe768003d2ab002d203f502eef789,
  0x14ebb80278408c02bda61a00a8e88901722b690323c35d01498faf037862850125713d027b46490038b1310241643e02f33f0500e4bcf2027362fb030bbb4a00c1a8c400739f20010db18e03be0a1500384b470052322803ea5735011f50800221c99b01a06d7b00f3031f0257857e0319028a022ed0db,
  0x10ad8201f0d844004b221c03608b69014eb860008dd50a00b2c0dc02d3c3db02b391f0038b84a80035940700fc348301f1d85f02bdffa001dbc37d01ce5c190152ebf202e399b701aad29800ad5b6a00255df402eca82f017577be0281cbc502be26fc01486a7d034f032402f2549d01ab3f7803b2b4fd,
  0x226fdc02c044cf01df83420276107e01ac1205033cef6402fe699002cc7e2a017f6490036f73f60033283a00a58a4801a53f94005e486e0192418901b16162016f15b403acce9d01ab897303874a5e0038a4c300db28a903003fac02ee790a01ad522400c12e6a03c239bf03887d27004954e00237fb6e,
  0x1314160197e4a9034fa7d20034a2ae030cbdb2000443f402c5f9ca0247f5d80235ca2b031c61d200232ec8021bc9b900b2cf4e03df868901490ffa024d282b00aa98d10167eb1803b300c301d2126200196a8c0070a85d0021e785033673c302172a400168f16002fef0a103f62a02014b8c17017fa7fc,
  0x7933c039ce6c8027bb9ec03a8fd1b027a8eb303993ab603053f98015ad3fa0045ac1d0015e3f700062c2103cbe9d2000ade730139e91603a5f52602d1eeb90037e03000cec2ab0153a35f03b84f5800148832034784ec01b0c8c3023655cd02422eda03f7170703b0276b01f4a47403945a0f0142bf83,
  0x31fd1d023b80c2015fca2e01bb997a03daaee2002042000156fa4201eb9ae2008cd06201118b55002eafc7000de7e902f92165000da32c01776b130251515900e8c210013186b4003149b301012def0029a673010cc8c101af12df03aedd49038f76c10344ee7b03bfabca0271263902615dcb02e5a9f9,
  0x2d3ade01a88e3e012be7ae03ba228502f2165b035e02e4030b01c1022702360048953e015f149d0025f86c009b0fba0366c95f012538560096a4ce017bb2790093285600d1832a01de783c02bfa99b002b5fb40285fb510297273c0240d9e601a1ab5d01ef0d14030d22520194b50a028ae49f034ef369,
  0x11abf603ec9f8700cea79b0182022102235fb001abfa98026321ea0227a49c00cd346101418ee5003e5c4d0388ec7d0157f814005dbe060399a3130140288100a4352701349c9500990696011179bf0029e611038e77f6010c54f803e332ae03719134007eaecf012c281a02741cf50039a4ff02d0f44e,
  0x681ca00d222500254aed5027dd00a0126755803d6cddb00634271036ae497031af113030f21e0001aebbb00a2737303800632033abf6002b25daf0126b4e7002eda0400c3fc400210af7d00738c530005dc1c034b84c60120f6cd00b6a804013174a602eb27ed0214d593023471cc0049596902f75f20,
  0xd24ac01642362039240f700285a0301325b0002e446c4038bca14025362c70016f50303385e19003e41050388c2f8020c6a7e00270b5e00fbe8a801051d48022e3239013a919a01f81d880189f79e0002741a03b14b41018450e8007fc7e4003341b4005bb5c3016feffc001f2fc90241f267005385c0,
  0x2e74b40021f1c7013ce61b037ef4bf0077138d0298f12900ecb0530355598302c072ae01d625e1000206b1017374bc00a27feb02219e72034c1f9f02f3e581032431840299fc220062a402001baa8b00047857009196eb0213972e0276ae07019464e0012ebbec012f712201ae71e80354751401235b7d,
  0x47b8a004ab2030348ef0e01998462035265ed021f08ca039db4d60331b2b1025b1d74037a413b0035c839018be985020bd16703610a93032a2a93039f6d3700c9715603be9a19035bb4d401540c07001777950233d2cf003d260000b89e47019f843a003701780364be22024a1bef006ce520035e7177,
  0x1566f503bc559e033e9f1a03ace7ee000e759002a7579f00dc7bd903f707e0036d6921026baba80029c4ed00d046f20064ebb901a21519026e2bc403ae496103dcaad802683c8000f2605401a104650014311501276186004b1900033a20df0134da5b01a8015000ae564b0090569c0131bb2e0103bc8c,
  0x2aab670093b2c7003d3d9e00ce9a0700dedc4103f333b9006355aa0003745801ba8ee300f9b9680025e296001040aa00442862010a341603b3fbc003df01ea018c77be01a4bbe1010abbb1025dde070035bc84007ae6cf002fb0ff02d160f60395e533013c75100368841103551df3016b1f5201a1768b,
  0xe2a6602a0a38b0207a51d02793748029f110f01b0738b0230d9f500a01243028a14ce02ee03a00039cb89038448a200346866008130b00093f3d302e6145200ff7d8403700004022a83cb01362b04001d5e52027fc64702562d3a02bb36fc01bd8d4e0232bf2000127c5703247aa40333af3501af3f1d,
  0x2395ad02aa903c007cb45e007dbe4d033aebb2033161af03c21aaa01ead80b0161d0300008b07c0003ccaf03e6bf6100915b2800a70b2600cbef410235910f03c4f090036c55ce022e5140037658dc000d0c2803c50d3500146c2c03ed863301de039e02f0ee4a02783790023485cf023e6dce0155650b,
  0x25318d0120542b03f9101d0371922001572df901303ce6013a2aca001b1daa03230ecc0366120700156459005f2d490226a5590037e86f02e109d203a9d39600e495f801c209730363d20f03f7ef6d0001f17a00d3e7bb01ecbee20296b3c3030896860123306f03ac2ecf010e913d037eb82c0045103d,
  0x3fba0402486adf034c4b4e03eb381f00f633eb030fae3301b08bae0097bf9b005d4ffc035e9456002ff1920185c42201a8185c01028f5303da0ce0026e036700421c22020ce87c02b9e823009beb79002f823f0315a96a01c49de202b3f48e02c6f2230070c02400f1cc8103bc5ecc020a830001011d04,
  0x27394302c38324015bfd2801c947590086c51f0192bb9300d51bd701da566d03f63a5f035386aa0015476f02c0437f0376005c02917daf00a3fafb023377eb017e617803d5219c01ea44230257b8ee000c323c0232f0500338c29902d15b5e0312abc402fbcb1d014a760902e331a800c770f402885944,
  0xa787400c64c1a00f64a640143fefa0037f51b035643e1017db1b9032d0af903dacc0002276ce2002cfb22005ac51e012432450051cea403f644ef036d388f0042d5c2009825640166bbeb0159d7ee0022a39d022352c50237bb9c00d061dd0149ed2a00e35a1f0372974b0300ac280158034d0065f8d7,
  0x1496ed038dc8ea02dd3f2d00b21946007ff3aa0111b906009d4b8e0361936100332515000b4b450029792202df0246035a43f4020671f4034e26db018a6e7b03b4ee9e022ed6970036112000f295050031b786014a3be7007e2fbb012a9b47008c50e601a542e9001795f200377f0002a8acab0027da30,
  0x935e80224a21f03a836b300d7d78103f00bc80389e86000604ef303b6d54801eaf765021593010008848c00074b1203009f0e03c2a8c002030a6002c4fc6603539ad90241775f01e4929102ac75f7002b7cbb033aaac001e317b10144f9dc026fd08700eadde90247331e011134f601257c53034f628e,
  0xe3f9e039ec0e5021b50f502ea04ab00a5c25c0149db1a02f75d8d01550362012d461203ca09b5002874ae03c1b6fd030e969400419c26032cf72a02e9ec6a023352bf024ff9f00170ef70037b09e2001d0e20031f75cd0301231001234dae022e90900180a9840365f19f0123e34d01e2d94f03b2b6af,
  0xa1dc5039eaadf02e4e6de00b364130329d2dc00ad778b01fe9a9b01e1e42a02e215d00030edd10017fc6d01ad22fb02fbc0c001b1e73d0235c2260228a67a0300f1070103628b03498bb0007302c6001b36d900216948005c538a0361585902e9e40a0204c734015ab9c10051ea3b0249d10f000c9a3f,
  0x153bd802ae73d0033e4d0c00dcad4501f1b81200e1c1690135f62301d6075d01dd4b9800e0bc21002c217301eba309008ebace012a13f3018e049102cee406022a8359013f54010274bd500049848b002211d003e75d2a03a07ab700def9ed0183a81f0284fe1401414e0e02be254a0015784303ea8aba,
  0x7a05a02b92e7d0380bb63030c14f0001a5ba200ab56ff028ec63f007c30cc03eb583b013545a6000aa57e007348d60123618d02f604bb0216689700db7ae201115cc3016c712e00cd57e8035b225b00128d2002afe7b403b46ed9020a332d03d4e3a402454a32025e3fe203932f140067afc8020d5645,
  0x23197c015b249802d5b8410008016102ff841e013fcbe902f60fbe033ac4450295dc2b03951d2c0002267100dc737b010cd94d02d86bf902ed4a8a02c9823f02c8d14401423770002d390602083efc0004054a032884e700faab4602ff87a403bf995500e2c25801eb72de03bbaa7e02bf838e038f7a59,
  0x31ed1036f524e0373cd0700456d4f0217767100a76c1e029ab91f034dd51802d03a55032092910017140101fff44a0150365300608b2a000abc110215c00c01396ca2028bae85017ddc7c03070e1d000373770319ec2d01013f97021dbffa0170eb5003d3e6c200f6c11703c33cb202b822f003c0ff18,
  0x1014b8007ac2710021dabf0194416200dcca07028bbc1802db9bac03c74671014c8699033b4dd1000fb346013bc90e00fc368500e313c1035dac0302de484f02a5081400bf067e034e77c20217081f0024945803fa19430046e4fe01ffed8202b9d60d016e76a60199a0c401201d4a016f86ca03d89d41,
  0x5072b0256ad110123e760038868f500fc945201ded4f702c51c82038e09c90281037000e50ed2000613bf03c2d2120165a5fa038d43600370e955000396ee0001379501c17d8900465b7b00cb02080026b4ac013694b900b100e7034ed230032700c5027b35a60184d4a30049e7b302879ce5028b628a,
  0x3ba03403ad1c2202e7860b0201a08b03ee9b9b007c698b03aa534d012644470249441a01be374f001f979200f9a09403a1a1b201f973e7033764300024625303427b9503da441203175e6e01e812bd0022a564032afe1f03233c40002d61dc012d75c200b626390280ed0a0297bf2003622e67035ea4b6,
  0x307dfc00419646028973220264d9f3012b834801fa346901cfbbdd01001751037f669601715e1b0005c5fc02dc6450019e76dd01b7cb9e00a92abe0312db1202da8a8600f42aef010abe350299c079003a82700149bbad0034670e00126b1b01395541017c50ea0387d9e703641e4903b899230322c5e7,
  0x8dac006b13ee0168760900cf1c2101ca069d031b05f00105de1900a3ae9b005352a303f67748000fa042035d6a4d03e2970a029ed66e03f2cc0f0266c7050202af0e02c1519400a1340800780cb80007d86102c1d8b802e2b73201baf7e30380c632020be32d027f9c2f03c8fba1022b966c03dedb10,
  0x2fc8ae017bbe3801072023031916ce0225e4b001a13f24012764830365078b0017a5c7034319280035b98a01d5f961027a1a520301448501adea5d0242f2280018da2f02af94ef00ccc5e503996b16003197c701a1ca9f039f9b470052ddbe0283251601d80130002c73e6015293c803b449c900322b65,
  0x3e5b6d02aa6dcb0388e36b03f7c471013b1805016e34ce020041a603d882ea012b5bdf00a130a30020f66801ab00bf001feb1f02dbdf950365faff03d00f9f03fde11202866d410051a6b102c9ed9d0024bd49027bf54d02ca94ea01d88ca802f2619e023dc8a101c7fef7007dd94a00dfc4cb029e65a2,
  0x11a3bd0070c63300ab1fa801795b7d03a0702e0364d011027464e601cd1e4902806bda00ff8c76000816b9016ece35034fbf9902e8007700f63f9402c1bcbf02dacd700305ba0b0017b7b801110f95003edb0f020444f400dac3950303000b03368af501537b0901d359fb00bd618d02189fa202d4afa1,
  0x3f0a9400d180af03ae707c0263f07301e8d89700e44cb20119e9f3034041aa01895dcd035e83ee003ab19a02ed773a029b08d40084e09300e2a58303a8628f01ad896903589a70030c221501d30e32003495e003fc05c202d9affe023f910300ca5ab8010c35aa0182693c0048e1d3039b9aee02733da6,
  0x3fa6b903fa890703a5696a0370550603fee19f03c1ad3b0346d8960012c95a01ff56a800d424330016f9e001dfd983021c659f03ac6d990100c65500ea6202016040d802a0fa0c027ae4df028f0f79003247610242262e01bae9190343196a0108f96302f6f30000bc7e5001b8324601d8cd59032fd07c,
  0x26215f01578bee02c5de2e00e444b800755596030f4b730391409701d0e5df03cb235c032d0d6c000c369e03967d9302976b13010a1acf02a0ce480342fde30060e1330048fece0162c52f014e2fe500171c2f035f3c8502a8a48400c4474402b19b1d00fdadd30149813b01974fa80309b2dc00e378da,
  0x2084d603f1c9b501c86475004a8ec6039b4966024c96e50005ab680055028a02a73f3101cb2198003c2f4f01c566cd010f6ab703f14a0f0043db60034096c500aabd3d0078762900c3a00d00d8204500003ab700a4e5cb01cc636c02b7438c005f29a603a379aa0184588400f406fe000b01af0145b88a,
  0x37c71e03e70c9b0063fcb70012c20c008e0d9c01e798ef015f71b30120918701519a1a017d37ab0031cb8b023c9a1903e16dc200cc7d4b004c962402e4b143037c20f1036ed0da020ead2e02cff94d000fbc4c00548ee80225ba4b017b02320258879e032513f703ffdb69021d304402726672021dd178,
  0x3e56d400eaafa60062bded03b0cd3900c19c0f0359cb6d03e4ae8a024b7c03005e241000cc65d200024b70013fec1b0066de6d01aa1d3e00d9380c01674b7a000296f1029db70b00a86346038fabc00004ad8e018f4d80019cb569036db9dd036b62e801ddf1db02c90bd901f5400a01db482e0150944c,
  0x25af610125742e0366ce54034f5643036e85de002694140375c4d10373ebf703a59db10223fe8e000831b701027c7b0166327d00b5d263019302e902cfe98901fcf25e02c092e602e8b1e002b5bdc000346eb000696ba8002fc0570234b6430333fe5100da08200164738403f3532900c29dc6031f38b4,
  0x152d210104a2ff01614dee037d0cc503e1c7570203924e01b6e4fd03172ad200ef2bf60132191d0030200d0258adc201082b4400d24183003b1b9b024ef07b003b329e0191785501d3cd7c011c3ab3003dc46102380c1a02a20261025d86a7031669bb022176f402ac97910082bb5b00e5b31801972bec,
  0xfbb4027fa91100ec1c9d0186523e023910540068844d02d5a855002377cd03ae2f1f02a8ecaa00211fb10169815702d41ccd03f4fefd004a4bfd01463edd025d832702735d8903efb44601ba5de1003ff0e400f2512800f2f3ef02bc7c01039684a802e420940395bcd501282cbf0124c88903dc9835,
  0x3e5c8502d1187b0143626a0202695a02a8b3b9026a34aa031d3345032785f3006fc66001c83558003d21ee00a40ca001968a5b01a371a702c014d400c5a50f035f6b8a02999cca01e56d4e00b61d45003ce6440331e72b007ac7060019d9d70031451c010e82dd020d7eda035e457b03b6123b02f11abc,
  0x1cf5a902b7084001e617df0374c094000572ac0163943e00b87f260395ec8e02a26a7a0341bf51000dba4501f794ea0078dadb02d27d470165eaa9007f3c5a030e089100a0207401eb1d1f006ac2d60028322b00598f2502f145dd00eacff402472dfd03dae55201cc1fc603c95f0a013933d501f3291f,
  0x185e29014388f80165c30601e051560223328e0363f2ae0063e169025af69702f3b39c02454d770028d63402a7d52402bd83c6032411a2028d2c3c01663c8903b217330123682702606a11035304f6003e5adc020b4b9b00575c2202973d5a00147af4039d8e99003f8b9502e01fd0005c618e03ab792a,
  0x1105fe033f53b202d42f0d0017a205006f89e30153570b00572f9e02ed69270224c487033888990001304501fd7cc501fa8740035b4dc60090ef3101c8cb8d018ee79f01b84474030998c30349870d0022f40102b4d8bd0295d27c00e445a1037e7dca02a110b8030cac2201fa3eef0383b27f02901604,
  0x1c5334007f01840380d3e1007053fe00976bac0289c0cf011d74ff03daa72001f587080206e8db0008f0cf000eeb60012d75ee01d81c2d024966d601550243033a509603f7ea6e02656e700391c378000898f80349964902fb58460304d82001dbcc4a00622b5901384b4200f0b44a020486620387a161,
  0x3528f200594e8e0133f97b02cc161e00a5394c02185e52025c0111022fd6e8029c07f70015fc44001d1bdd00e8e93900e08b9c01becbf502ab30fc0181b5e0036121280127302e02baffd700ec7738001625a002b0440e0261859802cade1202929ec401cd3bb50313f43b0231f22a009def7b00ec6a6e,
  0x1b4e26010eb8320069f30903ceb23802b6ae380304f57502e97bb7025e49840012107103cbd260001596f9002e139a011551ef0232b297028c878601fcfffc0258d0c2001d3df30154811d019c56750002cc9e01f2c3ee0079694e0188775102f17938039a21ab0282664d036c876e018a8c82008969b3,
  0x2602a3037b814801532e660154328e01fd41e403e9eaa300be9609026bc2f0025ff561002c69470027e67203751061002882a40384ee920082410a0211200702d78a9e01a377fb012efaa602ce0838002f115e0256564100811a1e0148511b01f010300015cc5c01a038680249ecb80134e9e8008a2dfa,
  0x29baaa0088021f00153a600389a7be0157d3fc02e6fb74036d566f0008958c03dfd8170349cc21003f8aeb0162775d026b27de031161c7027fb9c5035cdbd6015eccd5003507530019584b00102bdb000edeee026f1e9202b86224028ae06801f071180365987002c1c112023cdf6403f344f403ae6e7f,
  0x39c25903e2bc790302cee103ea7dee03d4c6cd036473c1005765b10052819a02999edf0177d04b003da95203469c560021e2260255ce78014547e70138204e01cdd00b020350f80340ba0203ada7f8002cc3580063ca50030a4a0a00d3a61d01fbbbc4003c9d7a01a6ae14031811f2007ee62903767246,
  0x23daea028446890221703103f998df03669583000a3a2a0101cc66033c44a9012f8318035fe0930030495800bf5039004a1bc3012accec00b63412011b682d002c9024038883ab019ecd7903f549dd002e906601d47f4f0270331f029c3ec2003a2dbf02fd0a1800738d120246ed18037895710145d8be,
  0x48aee03391a20002deb6302dabba600da646700cb0b7b03f1ad7802ed428800ee553502938d39003d326a0276f93a00a1da0100bb945603d5476002b3eff901315dc8028ce657013aa32000783dae00388193020dcc4c00392ffa02c8f2f4018fe29502d3186a0351542d0330805d03f65e9300af18f2,
  0x32bbb2001cb9c200a25a20007625bc03e058e6013b4e4001c9c9a4001cd80002c22c8f00fb40a90026d4300021af88018f654f01abf70d0149e13601f3326303a10e52037827cc020171f70221401f0028932c001dcd400339d04303c9be6203b13692036a8c7d02add6b8031646550018bde8019313dc,
  0x1539a2030a3a080118a606030c2c8001e3ed0201bfa6ff035dc4ba0103ef5c01cb84ce021a51cc00314bca019251c60148ff870031dba40236ca3800aabdcf012ade550012c4ac032139ad02c41124001b9035013af23d02a83f6d0349a4ae02b0980b03915f6503ec363801c426d1013bc6d000f62c3e,
  0x1c1da10213a24601bc741a016e0fc502072aa203cb013803212711019dcc6d03dddc8c036381fc0036fe9e02021d6f03c736fa037e7a390281c454029440be00b5c2b702adbc7d02c1d6a0030fdade003b757f014089df0103935900940015039248ac03cfa9f201241d7a0254247703846b1901591f0c,
  0x29fafb03f8759f02b42c1702ec4871039394c2015e16da034dbf4e034cd2dd000963cd03be6ff6000d17d5025836290375cfdd037373ec029e0fe403c8fa010389f77e009790aa0040380c03cda0f0002358a30218d1d9030c10ca0217ca9101cbd268032693d402d7ad6502151ec2000cc5e10044820f,
  0x32bf5a01a2be2503db001503c81b650201fc9a031312be008cbd7d0318e71b0094fd500357ad94002e1ec00176e28d014114f702c8b9dd003c199701328ff502fd2a7c02b735a703f7dbbf0046e53e001f291b00b987310114f15001d249e201bba98e02b89d280103d85302de92cb004e9404016bb202,
  0x38d0a900f5ca8e02554d6e037b418502c5a7660317a0bb00b36f420265cba802453b9a00936fa4002089bf034fbe17005712940296d7d502fd59ac02bdcfe802e42544032615d0034760e10237a366000ca56a0240b6a1029d3dcc00a1043e020058610244fa6b00511a6702237e4700d458cc032a8336,
  0x34fcc8024a002b0149c19003ef76d603bee37f013f5b77021cf1f901e55ec50324c600033138d30023c26b023ed518035b8c2f03e8235e0193d84903d6d85d02de3afd03fa22bd03cf4e68025784d8002b3d38038e88be01fa7949003f90460184ab870387ce610293972b0312858501fe808c00e7cef9,
  0xfda4102d1424401b3e2e00296e6d103b80a9e00a408a202b4e25002cd180f02863edb00176bc30022675d030b1c8403aed21801ebed88036dd5e501039c2d009dbaf8025f93b60356173402b89a0c001012a2039b606e0210eeb501a5faff023cdcd60373a8550365afd6004e2f3000074bb501d32bdf,
  0x369a5000f6cd86018b37bc005363c602890f3202e93839003faf200207f4f1003d4f4703ba2cea00118ea1004f015102e1aa270394533d028ad75b03d8e6e10010170f033d542a03de0fe50070396b00273a4300a8ce4b022ad9d5029dea5c01d1f81300c9ed4d03438028002f8a0c0155b8f300675b8d,
  0x76f16016b245b01bc14fb013ac44d015bc07f008ca3130035b7ca022ef705008b8f6901013a3c003c8dbd001876e3030aa0060333b2f6001ac5e800774a8500264db9003079ed00e137f902623d790032d00b00d61e0b018ed877036e3b1500279e6401159e9f005f5603020c80e000187a8200c82144,
  0x1cbf5e02faeaeb03631a4200316f5e03dafbf900f256f901df96b101e1291a0102d1ac02d528b00001afec029adf4503c7d0aa01ea726803e465290118ea0402939edc00f0b02e00303e060013c5c80032a4ed01aba280037707aa0343812800b507c7035e7f6a03a87b240358073e03f98673035697ec,
  0x4eaa000cf101c02e7cf0201e420a5001cc34103504fed029ecfae010578470056ae200185cb96002385cd0342ab80017e106d033fe97802e9676200eb7671031c1d4300fefc2b03c3b86c00e9f44f0026d1b50330ca670212cc98003a585c01be4faf02c0353d00c1d3670186061900f3f6b40120f65b,
  0x284dfd0082ff95039e6d070028a76700fc8e5f017d798b0072f63600bddc740186215b035d5d03003c5abd01040c500059868c00b30bc9028f13de010bdb750280075f00d8f75c02c1c1a001d0e549000ec469014f4d2f01ba7a4d033804b60024182a0211c1b30226aab10244fe0e03dcf56c0237469d,
  0x2a5eb201ddc614013b8495017606910222bd0b034ca77201689e4301e5c32001c67ddc031de60a00329c7e009d42f400e8142b03045fcd004370a501fe1ada03a39ba0031a64bf03ed4901002f5f7f000fe3480194d3b00117939d03340a2c00f0a01e0073aefc011e6caf03dcc79a016c9d350349a23b,
  0x271dba0315ad9b00b0dd0600c686c00276e2560081e3660009a65600e213fc00af6a0b03a39e04003fe8e901cdfbb50311684f000dbf3c02c3477303b5641f03fbda2d017ef7ac02d1cbcf00e703ff0024f097021af1f4027a3ea101daae8f0270e83d00b6a79e03612c0b004a6ab10153448100fd8529,
  0x310892032fcf0b037c759a038024ca016f99fa00df65800343ea3c00c1f6ae01a7156900b6d9a300184ecf02ae8ebc02bf141900e07ee202a4c1fe01825c1b007a7fdb03e4b693004feaa602cb430c000e2eff02ca6583001df6d6015e394d02757aad018ea081015bcd2702af191b010dd5ba013655b9,
  0x77af70029bfc0028c368602c6b4b102a6f8ee024471f502b9305f03f39f9f01d5c5fe0355ef4b002c6bf400cff2c4038d7c140160ec960339ccb601844d5a016bc2f50002455a03f7772f01e9c7d10025564402df905000e13e900051965602665e7e023db4be02668668023ddd9e0169da67016a640b,
  0xd34cd023c3936001d0203025a345902c639ec01407e7a0257a4be0195f6d702d1a709015b67830038458c00a1a708000a0d06035ed47502f0ac79015368df03f4f31f0316ca4802f6533002ced6910025364e01250a21031f215f0230db2803d534b900fe26ad002ff9cd0392c81f01ab0bb702741c05,
  0xdbbcb02f1c14c02d47562033c7436018b922a00cae4cf030f4357004b0e620237309b0046a049003eb8f001cafbbd01657188019a86ed0112d903020dd7730211abd1034ad5050207c20700a965150036b3c30367dbfc01652d0002eda8d00260434d0187ffd000e5a60f015d4c4601d16985017d4956,
  0x3dc5c00117ccc201d4505a01d4aa6a01f8882b021fe39f03b30b4601c6c3ef02bec31f00b53ffb001c3e5f03975a1a0056a8a501e734a402119a5f01bd78c50318f2ff013c3880016177d103ea614f001d77ab01b69214002292ea03f79b9a00174af202c1915a021e629802f9432f0067aeec038c445e,
  0x318b110110f30f00b6b96d007a0ce100b7760b01414c390398a6cf0033f7f8015a56e6029c5ea000384eeb01072d9a02c05f1701787b9602a3063a013e940400a87a1003646b2e028f9332024c0dff000fd7be0075d85a00fe0c0a0157bae5017b406c03b569b70163210f00db366401de58d1000760f3,
  0x5ff4b0078e94001e1c2a80240ef16031edd3d016199f800cff3f503b9bcc70177bc8e000617940023757903f1bb3b0394b6650085ced801c4089700136420018f9fb202742372009f3c3903576419001a8b2202100f2000b0849502257e6d02a6b6420275daaf0242efb303315e14026e7a9401e019ce,
  0x246182009bbf80015a1578021c53fb01f4a92002eaf8fa001e69bb001a777100dc2cb00358dcd1003881ca01f3d3200364897d00483a6d035f0ef50057b6f9028a441d004a8234016c746201de0550001ee078021da7ce0009afce02d0434e0197598600b41dc6003fed0c00f30c74031f3cfa02cc225a,
  0x14047900de3f2503e7057a03f56fc40284fed003a8be20029dc0be0131ab1f014e5c04005baf640017041903f284de00ced30002c50a3a01f7250d034b8a5d0121dbef0055a52600c4978d00c6a8c7000a41fd026711de01ca297c03c8e0b401bb947a02c183c000fbeb29036b2af1007ed66302f4882c,
  0x9d63101d9c927034860a401d707e901017c0c02620dbd037d855802738ac80110808c0186e65700019119017021d8027a8f3401a5bd5b00145e49023c879003dd6df6036b94330033cffb0241618e00014e4803fb8238027ccb1a03f4179203ede9c8017fa76c03e8811a00bfc03102f227d90330eea9,
  0x345eb0001b9174033f951301658c1900eec32d0243f8fa00997699003f87450025547f005f6d980029cdd503ce45ac0076c6c2025be8e101b2a1a701f1c12000c8a3610274967e03f5bc3e00b7315f0001e72500ddd6a3018898a7028682e10306a65600230d6003a1a02402426e7601bdfbac035a358a,
  0x330b8902d9cb050015a68f027758b9005750c7021d5ad500334e960119ad3802e66741032ba40f001c209503ff7cf601d8778d035058e9030088e90359cbd5009a192003a673cd024e68af03f3921500108ee9026ea26902db9b8001361be603527eff022ee43600208c36010f60f203cb7a29038b8399,
  0x2d221e0150ba4a013540ce031c08d403cf4e26038d4f3d012117be0267443302d8114f01b78633003ab06a03c32c4a025535cb03c73e6e01e465de004257ce03ae9914032dd43f030f97940224757c00240d6601abe06d00471097027271be00dab2d20163c017027a798f02fa84b700dffe8c0356b2da,
  0x2256fc02e724f0004ce19e018e8c8601357ad5002e9a9203d45a090095753e024aac7e03e26f9d0027f7e202cc6b390112b794026c4f18018970430066d88500f55f10009112b301ca2e4f01a857f2002efaac0260e5730156d424006ebc380331179b00f225290046b1eb01c81c29031f5b0d01ba02fc,
  0x264e6b02064aed0326599c038db0150049e79001d736e20080f3f901f0382200ad8792023524bb002a17e703bb2c5e00fd451102aa2b8803e70901006f01e100bb021a01222422013bca0b0281e8ed0010df5c03e9a0d302c8e44b0128cebf03b78e2703dbca8a01108d8001ade84001e0bc1903902bcf,
  0x2b9d4f02bfbd3702c26fb9005bb27c038292f30105305002aec609039e0d51033fdfb6025220210011bb790282eba702e157a10208fc0903325dfd03abaa6c010b66e7018a9fbe010e03ef013dac7b001f612801488cca00f780b102f1a97b01654b310252571501e7b1af03a09bec0187526903fbf4dc,
  0x399ac3025c10ba029fcd95006b735b03b328ad004eb5ae0238a77e0213f01f020ccdfe02bb83a70000e6ee02ef0a59022195ab023ac6c2015c21de0191f0cc035c179301cad86b038f5f29013baf81002e217303ad81b3039f8d3d0283e37103134bfa03b7b873000466c903aebae300562a340243808c,
  0x251b3e010d873103544c08017a5c0c005cac7d00e5899101f10f200337c414020b2140032b0577001e994b0252b23f006d5455004cf79e0176541f0251f61d00bb5d5e02cc44ab02fbce28002b31430013b2f701bf934e00aa2c820241470d00877e4902acfe9403bb2793001d952f0359a44203eb7dd3,
  0x76a0e00bd4b4c03672f3a007e0fd1026bd2fc0187538703819658008038a701915bdf00cb816b00066f15016c778e018c641f020d97ba01372cfd03a915680266d8b7008220b1036de35d03685bfe0007fb3f02ea55fe024818c3002583500100eb2f00bc146c005c4e3500f888f5008bd6ae02de7ac3,
  0xf443d021c04d6024f30e301b7995d03fe588b034dce9b013c9488019df3cd00992bed025add7b003e7741017a1cd4023e1c5f00459da1035587160338b12a03441e9301fe1690038f02c5013076270030039d009540a8000e535f025c4b01011ef427009ee51800b9e41800e823020354c9d2011c2abf,
  0x5efe8002533f800239d1e00a3b04f01c220f40170bb780038767b0094afde011cab0a00485e510002116802e7bcec01b3bd6402935850033e7b7e023d13b80025108a00ab5507026c4cda02bf05770027b51a02d0863802c8477301073ba302ed640e023456c101d90bfe02762539028579dd018fd837,
  0x16fac7000e0fda00a7f13103790a400177691b0133dd1e00b953f201337d4702a394b700b8aa24000e828e01bd9a5401d705f9007aae4f00234d46017dc25f00740bef028a102f01241fe901934d540035a28702fb4c67009e8b1a025b149301f9a33f03142f8f018bfaa0021ebdb9033873dd000237ca,
  0x238ab9008205db03a3394600fefac60221b55600be3377019c5bc90177906001afee8c022b6a57000bef680255695600142426027abc8c01a3e771029b37c301ae047c00f8eedb01ab808003b20b7600031fc8012f83cf0157c89b038188490375f3d90207392a038d364b0157a99d01a1e441035f753b,
  0x235740031f7d2800883d1102d247c001a896460027fdf70081a88400b4ce2800189cff036efd66001335c3020e603102c8de5a0124c46e007b869e022da78302def1ed01dd974701f16174011337a1000072af0120e25c02aa9a9b03b756c70067bd8401ec9ce4025f1cc0022ba4bd02bbb674014af506,
  0x393eea000895320213e10b01e69fe803a86d2302eba3a901fcade603fd1373030301dc030e52160008397400cd3d330385951a02869ffa02b2dd4b01aa0e910199e57102af6030007391ae00f1297b003aeeaf0220bbc6038700d2030fdefe0270415903f5c58d005e9d420275f3aa0339a47e008a8bea,
  0x257d1c00bf8f2800d47a87028e20e90396ee4d0396c71f02bfabb902599a44032df7a500a6d6ad003569ab0107bca80084b5cf00b086be0235f1af03104fa5032aa2a00146f5b100c203e600d98f9b0006478900fe2b45003aace3026ad4ca01a0ab5200ecef48024b814900fdecca0232fd890149492e,
  0x87e8d005cc50a017557fa0345e8f00270896100d2c9c5002167bf02b8a1090036f81e03f918bf000d092d025dee78016742a600d57fee03ad275903310a4100d3f9640242f3aa004281b500c711840017cc7b034809fa0350c109023d764900a0fb140068bef400a95eee0360816b0108c34700e35cf1,
  0x342d2b001ecd800112a5d801078cc70223732b02f1fffc01fc48e002468198021a263e016bc2a6002388d302e2e1f302041f510282894a017a78e200db1dc903748edd0201ba090060cbef00c44cc30011735d0326863b021b1154010c247f01c819c202ae2a9d03040c730168c7ae03297a5302ee050f,
  0xca8d50139b00403dc93ff013881ac024177840116bd63001b0c01037e52e7031c049502fa836a00101f3d0023ecfc00af85ba000bb191009bc7e20162bbc80276a00303886f2401be4d420068e4cf0019112103f0bc9f024b88be035a9d1300796bb901f0e496039cd2b001e8bae400df53b102610b8d,
  0x339644029179c3015f1e280301427403272bc2003b3265004dfc57032467230119c9f201820e6900343d9f02a606c20208cf0e0066ad94039a2a550333d7bf02a160720340c9fa017e7a0401c39e4f00372f5403b106d700a707e1020b7a180392f7d702cbcee701d738bd006f6a880066340c026aea27,
  0x15aa4c00ba8dd30137818200ab16ba03fcddd8028e276502eaf4c9002b9b320011663c02f3796800122f0e03f8440c01821b7601e95c4d02bd5f2f03247a4402e0f30d02b56596011c07b90059a981001e65b400becc12035cc4e802e4cc1d0015576f00c1eb2d0115455803a8578503481cf303af7e69,
  0x3e52bc007b6cca032bead300b2e3fc008d8df10002c7a8006cc0f4032ddcb9007094e700f556230033d86102cc169a030efddc02d3b263013eb75f0279f03a01a252d003b02b6c03e55b5902d05806001bfab203a3352500c4491200254b42037c06130082cc920125e6940071602a039deec003277c4c,
  0x19365301c1147903c7538300f110b503e8c51403cfe8ff01d31829003a37e7013a5f1c0302a80d000c484b00febe4903ae973e0376e45b032d8cc7018843f302867a4700021b3e0340fb03039abedb0011225c02ebae6f038b6ac102e0b05300ef4c5300f53c8201c788a100b9dbde014a7415036f34dd,
  0x18cadc00cab91d034e6e9003517c2c038ae5ba0111c2c500e660ec00f1d587024a6a82005086520011725500be1cb400b459390148e24c00d5e93e010e64a901f6747001e5597103ad3487008dcb54001dc9e6014f4a1d0327572c038d9b3302cab04601bb16fb02dc84a6008e62190298f82800bb9783,
  0xb22e9010411af027a27a7020e681d0210dc05035b909501fded3700bfe4180364f10b02ca0a22003d824b039e4a56003afb61015509f002ead22c02818a3d028018f202c5ca4e0025965e03c47389003e08d003582d5602e9bb8d029b58b102c1f4aa0207dd94020c231f037ed4ad01f9a91b01af1465,
  0x3437b300a8506400767c0300b4758800bedb8700d25c3c02cf3b82017ecde702dd4c6801b1136e00274ab700e2f32d007622f503985530005fa12002ea799600428af301c2af340035a4fd03d0d87d003cfb060327142a013344a903f0ba370057bcdc0021d9ab012d884c01e053ed01c542f802bc38f0,
  0x3d481c01e9193f01aac3bd015edea8027e6d0f0175cd75032f8de500cb2147030c15a5016118f7002831ca0236645800642b66014621aa028b8143023ba6a100610225021719710360ec21028e640f0017548d002fe703006d3fcd005697bb021fd2da03c42d3c01f45c5a025f93ac003a76f7038f9023,
  0x2cfb1e008c8ade005bfd2c009f967d0204e9e803a0498f0216576800b3fe9f011a30340098b6fb0015b436037ad1f5000514b4013d92a002b0197201df1b6702021c75002aa6a7022afb08009b1b8a002ef54b02740121023cd7bb01c68804027bb3f00337947b0134921d03707a5102c1b451015d46fb,
  0x35c33f0185b2970262cbe1031d6b920197167b03f422c40031812601940b770328ea1500eddbe2003459a6007208c6035f104100b47f5c02d369c100b4207903508384005d2bbe03505f5e026e446c002cc8e500d4cf03005ff63d02b62f1a025a013603efbab80053e21000f0a4fa00897ebb02d0065f,
  0xdf84031d62d000bd428f0211666c03d8d1ee00e300b3023a15270076db4203607f0d034657b7003a80f601da1b09032ed88300fe4ccc019810890166f54900d825fb0356402101038c9900259468002d341b01675d9301b871ea006e0aa8021c5f2900176db9008a979c02c8d6b503c3122f03ba992c,
  0x1fa288030020af02e43f2200ab22ea03a6e14e02740920029f869e022767550274e4db01db7032001bbbd40172ca5a036ad63e004874620142d9b400b053e903facf7b0316efb8009884f3000fea3e000a6000020dbdeb02e1a5bf00a3ecd603e8776d03d2824f01a93f3b0285f46203e52da1031c0053,
  0x1660e20266c0c5010ad19d038ba0020381c2d702764c7402195f2600916b2800ecf4ac011b572f0028a0bf028684a100d6d36302bde58502af67de036ccfec008f85f703994d1400e08fea0000e4f200120da102d89aa803eef24101024beb0214431301453739000c65d003d1238500608aed020a818b,
  0x2d14cd01b62bc10042c8d60369d44302c6a85601e1a04f0244a1110125a6ca00cb4698039363b500034f580363a5cb022e52f1038e034403c6d8b40286b41703df15160347cb8b02d2ce6a00f68f11001676bd02d4201e00dd6dd4004d2b6301538c5f01b1ca0800165f4500c9b95c02b04924006f3d1c,
  0x8e4bb01a71eed033b7f4800f0f72902dba9800053a5ef0236b32a03aae934005fc43401d465f600105e5b0096d49801fdba8402e0692501c5ae170314570500c152eb03f54d78008a6e0e0209148c000b7fa902ebea2901b742f602a6127b02206c00008959cc024dc342026ff028026d2c8c00d43133,
  0x294eca03aae9cd0051c68e0390c2b201ca7adc0213986b03318f1703967946021d3e8300b1197b000928b8035e57420118fe70026dcb3003510ced0138f926038647190159cc2303a0240f023f25e800067076009345b903efab34009d4d9e00a6c1bf039d54c0023db5af0248aa400327cebd0181ed85,
  0x23f51a00208bf601ad014f01d28acd01fdd76b026dd24c00c88dcf01d82fb801f3a35703d86a300006c8bf014057be00070d5f00890984006498e202588e920144590300136c5301062f4d0006d78f0021d1cf01ea8bde0344a63d0125cea2037433ba010f7a580275389a029391ba035e899701eb932c,
  0x24b3d400c5334103d0c6b70278628c0308d9c800ea53f702be020903b0379a011b622a0373855000082d4003bebe5d01d143a30073515a039255540214ce21006928c302153bd90393c72a0009b79c002fd30e02b72a6300626fe9014fd3900281a2cd01d29ca3016b5f54035aec8603166de0031f6b8f,
  0xd809a009f471f02566502015e92f70265623a03a2b79902d2224603da62d400a5f59103bdec7d002ded74010ed0d803d745ed039cd7af00c88baf01ed0929016ffbd100e4c5880118bd070255cafd00291ba10387c2830077e9460125533c03ff296e02aa7912016d72d80177a14c00cd4a6602bc1e99,
  0x1eb7d00342c097026100a2018de46400780f6d03cb5018010bd12f02593d48009d0051023891210000079303af703d03690b770153705b00b2b27802fb7fd1021ec6e300b3ea8603068f3a03a6bb16001992860086ed2101cd8b760306baf003534a6403192499037e0c95030928a7004e0cc50309b01f,
  0x128a6700262c3702fc7b6202e8fec6034cc1e302e19dca0033980203ca3c7901e27239032c4cbd00133d8c018b42c201395a67027a1a20026eb585033e37d60342c60802497bcb01976eb5003efc9a0001fba401ab683700234770013b409c02dbd237022ac82002e6ff23033506a603c03ac902ee36f8,
  0x1cdb59010994ef03f4f766039ac6130107b61f00129dbf03c6e45b028b674b0013897300ea14e0002a9ab103e94a2703bb552303d3fe57017da15001763362038e40ca015f973800bd0242025f32a00006b49d02016cc401457a2a01bc489a00ffea7103e72c8d03fed1840256309d033a222101ad6056,
  0x370f9003d503dc00c29d0a038db0bc01e3c49902ad91bd005e448503c0470f03813a0602ef6570003a983d0172c062026191ae029214cc00109c2b00a0a1b6037c3e5703724523015eca5e038d5724002a4116032974b303a18c42013e7b7501a91b63034cef4f000e473f01d4b440030b88b40126b4cf,
  0x2ef1910177dc1800c61dd702bfa598017f562e013dfa1903bfd9230078634f008e72d303b8c9f500100f0003407fa9011da6d70381aca2001c282b0034f50602a92ac701326ee50095a528008ae0dd0036d35f039c1a500026bd430117e2b300e837a1029edb6403002007025304670040fe4803798c56,
  0x1568f5039815b20161c91d01a5260f00904bc4031e9fdd0094b3e703d3abdb0148651801bf34880033f1d70388f697015c1eb800afc91b025f34b9007f55130067788f010859a30307459900d02ac1000bd5ba03ab817a02e5917901a3119d0312a35c01e515dd02aaf8ca033709bc03dbb69f004dc06c,
  0x221dad01448ca102b0d8df01ca8f3b00e785e403eecb9b00b321ec031d31b501bd39820253668f0006f7d002eb44de01ea25fb03179fde03cab212003e7d4300324cfc03875d940279219901e8e7fc002af50c01fa0e7302f2b01e0391cbc201193bca023978cb0065f40002a93d3e0178c16b014af5bb,
  0x393a6d00a2bf8601a72c9c01fc3c8601409624005bf4da03d1153701fb7e5e012bc8ee03467aab000b685e03032f9c02e2c5df01bd59390142fc9003a3bbd500b90f8502819098035c87a801244cea003edcb703fae4c202c6a6b103ffcc3902367a29026666fb003e0e630236c47200b62114033b881d,
  0xc2d4701f8fbec022ec4c0006c93ad01114707028c338903c1a647009ebf4d02a8d2650242f552001c9ae50002024001afaa1d01a15d5e02f87c7803b52c3503bc954501d13ab6014fcf730392dcc6001e9f6c0119d99a03494b1d0147e9990211337b033ebec6028fba5b023f1faa03a51929035228f1,
  0x2b2b7003b5cb790260be5402259b6c02dd5aaf03eae2b40390e5740003e8a003184cbd039e8e5900332406018102e1032cc873015946a603f2bc7602d710e1009853e703803567002ec3ef02a9e8de00117e9202118d08014a6d3f01dfb3ca00eef0c7016ecc5103e26d4201ad2e91036e0a0a00fbb068,
  0x27427003a8f1f502da90d6036d447a016173460000c871036ccae602d225b2007d027f03c863e2002201fd01fbdc6402bea51603e9c59f0156ffa202ca5e440067453802119145021caf9c01c9d9720021411302fe57e9004c80fa0256e2af0060c73500783b6400d6c94e03bdedfc02c01cbc03e3c1b2,
  0x2f7685037754e400b867e801167c5c02a27b95023ac1ea022872e300762e2a009951b7022908220002ff1403d71047022ccadb026aa86601b5b44b03d472a901adcfef03c69cec005eeeaa0109d13b0015c55202d049950144570100142fae024c61910398061a020e3f17028c8e7402f9649e01a2b9c6,
  0xc9c50020642a0016dd7702c2b29b0376e50a000d3e450025a36b025ea2bd02bb727e01d0e0b2002078a90236484b013cdeae0367a16c0245fbbc00a9ec7c01238a4100c8c85d03853132003fcd22000f85790038216203ddd0ea013026610000a62700d91c5e02a9de07024572ea024354db01a2e4da,
  0x3173b703eb92fc02230857011d4671000613fb01f9478401de5f03038d98d40240738601e3abbf002c99b60360ab050329cc1a0216a3350269713100b2dad3011652a40241d74c017ce4c603260fc50002142e02acad9302cef24401600b530116d6540054e0b203e154960051660b0326dd7f02a89976,
  0x22b3980131d49d035d488c0042b1a300245e0601621df40393517b03d393b60353b69801e8295a0006365102e587a0004e25bc00fbd51203926fd603a2ee9803e6d9c902b7ddac0007d71e014ffee00038787401aab2eb01cc45a1027d04f002cf02f10385454803f220bb02e8834401c550d90009072c,
  0xc7cb502919d4102fe6ab1027da5a60174b73d004db9dc02db7a0d02ea21c10252bf740291b9f30011c27a03be983e03e8c97d00337c5700e3b38300b08a08027893e102ade5c400e62cdf00b97de2002cfcbd00c6abf800b5bc0a036bf86b02db3f8d01185c2100522ba000640ddf02e785da00244fa2,
  0x3c33580000aba003e8b8fa00f187ee004aa57103c8e0ec026d630801fbdf3101249a8a00880a6600156f8803ec665302d7620f02b41aa601c82f1403051178012b5ca9023c77c900043b2201bf5cc8003e9e8e0215e9ef00e1701c01bc360d000a66b101d03b3802e5af580102f911020b202803176c5c,
  0x391b3601c9e33d0176e69f00913a6e00c1ed590073887702dd9b4d0204de2b0212b92d027a050f000684bc026975f301092ef203826d1b02b0314402ecd35302d3e05400c780d60360b1e602da07300023f7c000eb52d20129d60401e59194009e4896007b9b6a0270d636013193ea00246be300d3c9f4,
  0x2d6f3602ac29a001908ba90203ab1f022c5269010d328501015ccd0232b2ff03db4f43002039eb003d7dab016ca94500604878026242ae02b01778033c970a03fde892000a250d020eeb4902e0530d0037fe3601f403e9024349ef03d6e2170388978000f7df4803e627d302a9b1be02df31f303e5bb3f,
  0x23a424023551e700ac024802e5193f03200691015319820134a45702682db7018c430e02113f6b000acf11030be6f101779314019de36d004926f001ae43af03c1774c0112ca6f02c3f787011b3e6d000cb0b10092c10d001421ed0034652f02b8777300cdfb3f01d4c221021f465503b4a1ec01df788c,
  0xcadc01b7908403e764b30027600201114907000570af017c155201b56f8201342c400145ae250036daa1038fc3ca024be5a2019c33120161ba6e00da28680245184001fc799b02cc23920036c09600234aa002e7c29b0029764d03d8626902ee079901697ca603ba754100ca415f0361b4e6036231d4,
  0x2eec7a01cbb2a103b0644c029e92f20383866900e3ab9b03db551b001b45ba01ceca6c0029398f00371f7f00e2d92e029938c2002d961803ad9471016d5f6e02e107390218c28c025ba0d3037af6cc0015064a036e00e6037d0f3202a5168501d9ac3a02ceab8403219739013273b200439c740183e23f,
  0x36490378ce6703973fe102e861c902d3901d000f3c930047e090027caf4703650256033ed8540004773d0133ad4102adf3d50261e337030c0e7d03b910100234931e02010e44025e692401f9eb110025c0e8024d2d5f01af6bec0344014503e6d0fa02feadfb017f9cb8019246620042d46803682a5f,
  0x2e17d200dfec9f0256a8bc00b9c32602bc4a3c01f2de9c00d19bd90006e3bd01343f900271fcc7002e1a2802cc564d00506ab602b9ed740061b1c40190fee901f56ca702e1acee02c2940402e60d9900226e2c0240a9e10347c471030b145d03e27dee03198ef701e19c6900489773017eaff803f1b3ee,
  0x3a3bb70229b161006509e70235eb82037627e103427b4001974d8a039d41cf02d67c4a0227c8050010b6f0002b76a100b39b6b03a80aee01ce2a2803fa10380006cbb10230cea20061ed0502b3c1f400319e68011585e901aad31100127edb0363feba01cd8af6011a720c00e54ccc02217a720252ce13,
  0x887bf017fce600096bd9c007c2ead02e9109103bb86db01b7753800b80eaf004462230041b6a30007758802e206ec022f8b840230e86c013c27e6000ad3e801874fb00327048303fbd0600152d2c60027880f006640100257281c023777ec002611a403e2698a00d87687025a06a501e3ce540347d334,
  0x35f46402865dbe011ff1bf001ede57014030d80096502b0228ad1703adac1700dd5e370220aec5001b43380357eb4202c0c533029b32c00395c81001b602520318cfff03b24d31017dc71a01d79df4000e9812039baca10306acbc0061916c01f619700162b1f403473bf100e070c2012181be020656ad,
  0x1a57e40013494502b0600301418ec50323ba960080322f01af916902d991f0026416aa011206a00029c03e023619ed038ebf6603231f4a02baad510362f0b903ac084d0366a7e60281170001139dd200127b7e02e27827039e975a029707b7014416de01c7beba01c31a4b03c7334d02a0e69a02036c6f,
  0x1e9cb801a6b0bd0110d9c7015b2cc80366b773009bd41e0133e5f301514e44017756f402ff43da000192e100f7ec0500a2373703bf934b031f86b3014dc22a0316e313020de1b400e505a60154371b003689d20086b8f000ba655901236745024c0142016cdf9502a1bb6802cc3a30031dca65010440e6,
  0x137a6800ea9a02004b89e10107f86a00c8555b03693f5500b9389803bab8510054b530016051e1000366e900f19d210304dce303a3dc6f00c78627029d63e3004d90e2019c177d0355f70401429de600138086003d8e1001d1178001b3a3ef00e0b9a801777ceb0238ee3f03acdb7f0101aed403c13cee,
  0x6b6101bac68c00fdba3a0225a5c100fb11d200912bcf039addb200cdc5eb029a038a0064934c0035c7b2025ac5b603fd89fb03bb555302af3f97023b010a01e6c11800de925f0190cbb6009870230004a058003150d501a9681c0171de49005d164400a2303a00a98398024fca9201ef02900366af29,
  0x1143ef03c5df640118fffe01b24359039a3292003599dd000fa08903f4857701ae3a07034ddf75000a29e502cedf58003b492e03b999cb015948fb02fe7dc10040a0fb00ea41e503a532920350649a003c15780234a90203aade6b0330edfb01ef20cf0106964603c571f50149610001b12c7101d477a8,
  0x6d39f0210d07e0306783b001ba57f022fa0eb00085c57001578e60231536e0045683e007dea0b0018edde0248365502443c2c03e73d72013a695a01e9c032035dd4c2035debdc02e03d7d03b098d7000ed767014c74210361177800f6b5a50373f29e021ec2ea02b0ec5f0175872303dab28c0364e653,
  0x3298840142f4050099ac4801f6a03d0117bc6b00a68fd3007d05fd020e65050083685703ecc91600105b8103ef6de501a80bcc00a211f203b8823800f92fd401804952039eedf90022031e038bcb20001ddf49038ecf86006fdfa803245661017f77c8029d2c3c028ab82303a95900003946a601b69a7c,
  0x3260ae02f6877c0051b18d018fee4003d8f5450159172001f19343022ed37701e8017f0196cb67003739350200e163025e6b3100b1c73c016b8a1a02230df601c8f8c403ec662d02cf9a7402cc8f150037c261039609990046f55503cf8d03006d3d31021b239303ee8a2e03b168fc00d8c72001a87d90,
  0x2a0df00031fa9c0220401a00c2cc1b021288e8036ae15f021e41ad0236737e0107973f001dff830027d13301e5003201b348f10170c8bc0144960b0020396b02428afc037d9fd9018c0f5a0210f87c003f1f9503c2f04c0333cf11019cdaa601fab42b02f57e200164102603c567a301c706bd01ee56ee,
  0x3088e001848ffc02fa68ab01a6794b00f13d22018cd4c9030f90fd01dcd41503908afa01c5d84e00352fc20091319900f46e5701c3565e036346bc03a9ffb801c8702b02feb94100864599007dbb26000371050028022200302fae039f538f0102a1d7014b803000d8e85b03ef6da60299337800d5ad90,
  0x10c65c012749c402001fef0095b26d00337fa702be8d05001b9803014f5da3022a885f00965e1000125fab0295092f02ad12ce02eeddbf02d32f1b004fd68003105569001a48bc008ef0190272b28d0033db13030c972b0091d796033a1d0300530d3800a6d17f00c0ea010225bc5a03eec52502f4a58a,
  0x3f6c47002c70ef017ad3da01e5690a00632c6503dba073010d82be02a085790014efde01b125a10035d54301eafc5602de859501a5608c036805bf007d31db00c40e1001ddeda90259b9c000fe0e870001a90700c62e3c0192819b004fd4710273442a02b3207c039b899903990c6f011638d70128eb54,
  0x7f26f0201665e01523e6d02af1547009ef31603b2c72f0062e1320191478a026c60af0354bc860028adc001fcf28a039f811f019d6966016266c00313db010202ac9d0325ccf6034d96580327ab0d003c0632024cac6e00c56efb03f57f9d00f25fc801ef442703f6b1b30324f17702d2bcb4035148e2,
  0xdf165027acc93025f17970300b8fb01ac529203e5d43d01dc7c5e00a54e9102c252ff030494a80030fb8302213527037382f50000cccf019b16f003726b9c0064be1a030ebd1c0204ed2a02b5b6e700224df803bb9741024fd8aa015645c90277d272000461cd011c91570243e5d1016dd00e00ad1f42,
  0x3c203f036785be00112d3e02a6081e005d5e4f00ab486a03cd69ce031215d200e3d4bb00cd9bbd0038171c00341555030e693103d111430004ca9d0180e694016c7810036e84e103c8e755023ab5a2000cd194008ec9e501d3015e00eb686e01d73ed500dadd630369f037027d58dd00349e8301fa8136,
  0x3654f5036bcd230275d4d603a259b603d9bd85013fa449038bab6f01ec8a460030b9f30021f5ba001dc0fe015027150107905a01667a580322a12a01330c1e02f52dd70202b9b402a5230c02be3489002fd98b011f50db00bce66a00197cb9024695d3005a5e23037a0ffd01492d3002f8a99502f91831,
  0x2c436d001ca797023d68a6002b09b30230bb28010fb1d1018a83dc0397e6ce03b3bd1501db3c5b002b7e9800bb79da02db7ab900a1133201d4e84203b463ba00ab1be002e465e7019b61d8012c845f003227fb03ce40e9005f91ee01d985b1038744b603c67d67022f8e3e02c7f93f03b7d9ae014957f8,
  0x168264036f77dd02cb7faf010748d300a0144c01170a3f022722e20309bfbb00d1b1ab0187d6fb002df5da007c3a0b000effcf023b1d5b03186f3503e1d16600f7f6fd002e7a7c028ec48f0285d5ee00333a5600e993d80211b4f100635490005a6ab2011e11bb031ca2110344297402dc732100cf7261,
  0x107ee6029d86340268ecde0136375e00c628c40014a7fb03bbaf7300376f2e0092ac6602aa51450020717d0391ec4000810b9b03f950db036cc08a02be55f5007a4255036b14ca03809ddf03f48e7a00334f130265264e02ce652802c00c3601ba4c8e01c27d2900b3803300344e0403904b310108ddcc,
  0x41e70013f2fe9033329be002512de0017b2ad034e5a6c032c1bfc033703d700f165fa0342f1b4000fc2c601593e5601d6be1a02564a8603b0557c00b3f8a900924b1a00365a4100f0ec7d01aff9b9001bee91005684c700d4ddf401ff36e701175c660014e8a7012a151903d0d9ff02f50f450086389d,
  0x41a3a006db25f034a958203dc1f96019f428503ba8c4001d13fec03e7f8f1019f3b810074104a000dd317016672d503323ae50140f30901d185080219b5df03bbb43e0237f85301f813ff02317ca40007d83e008fc445013329b60371eb2600dbeacd023c28fc02db0a6f03553c4f02d2d04f02e48113,
  0x1218460236339003da3fd5021de71b012a169d03967c15022aa64b03c0b87700bb882500a9a39b0038534b00cef266030a15cc038b4ede030d95f80393fb810388580901763240011280d301a5440c00399e7e0350f3ab02f7810b033a67fe015b81c203745342005642ce02dda42f016f3e9e02bc78cf,
  0x3dc2de00f875c901e99b0f0387a7d0030150890329fdcc00d6a0a20104ee2103af6064008f83250031d2e901e75c960039ff3f03e1697f0140c8b40166fe63012ad2ce0292863c02faa51800834b87001a4a6601869bcd02edcff402e6d433022b5fb50042c5ee02571c770003efb8026f3d2f00977cda,
  0x1b5bec009dcb4001f033e900b535280248c491039887470214ba1a03b91a1d003f3dc301d04db1001bea2400cd35150031e46e02200fba0063616200a272ad0280fe5a03f71453032fbefe01a2dc21002ca87c018d3085019c8d5a00e548be02a1756e020db646036d4289001fb3610188813a02aa7d47,
  0x159b4201c9d43e01089f3c032dcd64022b54ca008177ee0353113c02087ecb03da45f00382746a0000fef10054689801d4af8d033170de01cf296d02bc49f9013a96a002c4836e002bb93503555dd0001c10dd02ec109101deb0000240766c00e90b2001c2db040289d37602c358c701b6439a016b0c5c,
  0x2eef15016a5a3a025eae85035612070321237f0230af31025ba1d000f77f0a01b63f2903aac17100357e7a024fd67e0171d4e3018385ee017cb07d01718df603b0869401c40c9202bcb4a302969bcb00076dbc03653a6800c5942100259efd01aadeea039c5b9a0284b384028f06db01af77c901b39534,
  0x37cc47020ce5ff0165b3920072eaac019451d803b63d1302e4292b002409d5034144240270113900155e6a03699f4d02724a57032bab90011f514203aa4300024cc19d003acc6f018923b603b4c531002564c50334372003df2fb102f03e3d00ba296103b1dceb02a1dff402e896850075bef7023c8079,
  0x10eea800d8245d0272b5d403158acb0308bae601fb813001c7b3270304da6000b8e9120115df9d002423cd02aa17610310fb760216d6b302b1c5bb01e0fb0c015a8dee025d4b4702532abe0240429d00148d8f00850757037793de027d2394001ee23b02d5cb7001ca5fd70255f6a101b4754202e5fe54,
  0xc3229034c900f03231239029a13b502efaa2a0141e08e00d8b7c202069e3d03087426003425d700045f4e015104190235d4ca03fb016d028ee02501dd27a501b81d4500534e6e00200bc2023d65f600107d2502b6ac4d03ce7dc603524fdc0314834203e7d65f009a9d100250b2d500914463000fb732,
  0x1b611c0250e63b00dc4f6602309d9c00b830af02c7210f03b1496502f15f6d02c0b7b70179d7bb0007a0000079863d0033a3b401da27de02ae68160066ef8002551be7031fe70203bbb4ea02ec1c890035210101c03d6c02b6321d0040cd9803202d3e018d84770059a35e01f9da3c023b20b302daef7d,
  0x7f57001e67b31029afe2b010137bf00bd1b7002a4ef8001d87bbd03ef8791025350e40265509c00359f7e026aff8600718aff00f76f4f0149429f0012cca0002a37cf02d3e5db035ff87400f13794001844d6022d562902814c4e0255efc4033d56f603f564cf03b9d6200138ee74004876c4001ed63e,
  0x1b77b401993b08036d103403055296024b9be0020363c90153f75200deb8c9020b9b1902d1e06c002294c2031c7fb9032403b902784a7f005080bb036f9e690259d16b0015961102504e8003f93a1e001f6202037d92e702a8562500ee5fb70194b8a102faa72a00cf121d036a315a0305033203bea6c6,
  0x4aa2f036ec89f022747ab0062802200290e63016410460353efe003aff645037da28c0348ae7a0031385e0271cc2503b251960165c96e015eb59301cce12d0174164a0185fd4202b9991100d95c18000b2c9b02bc056c038348100190df12023e2914017b387201a1cacf007f7cdb00b9b825009e9460,
  0xe9af90282f6210198df4203cfbb0b0249b8a303a4631701f077bc0028526700f9487801796236001dabe000043b130026aead00da10e20115ba6700fc75ef03eb801f014421e30054f7060050c9990037f2650310f23f03f7705300a006780139e45500cdb66a0285a62003c2e37202473a8603947f36,
  0x16a3c400ebbb010217fd2a0252437602401725032ac73802220f9101a72ee001e3cbe701be4881003db35201dc3699037b30b4038f54860063744501d33d0f02a6e64c037b02c202d81b9e009e628d002e6214038131aa01156a2e034180ba03b9dbf1027eda1400d87b2701b603a603bed0450296a1d1,
  0x2a535800ddcb31020268a6008a996e00f9dce700ccc97d020128e7015f36100247ca4e03df1bac001b750300b2171a0287118f02c6ce830371bee500689c8002f74e4302c58ebc000307ef0196c4c90021a5a101ba365301b5fe8e032f331e008f22970154e83a03f852fe02c3c55800b6bd8903d93174,
  0x219f2d02b425d60360912e037e6069002f951a0050793700030bc602c73aee0374590a036019ac0010b8a001ef79f900e8c70702b5c6fa0380e2f800438175024a1df102b97067005f55c2017f530c002bd21000114f9e016bb91302a2f01801bcd0bd01c5ee7b03753c5b00c1df4800f51d620326a9a7,
  0x3e4c1a0239c05803485cf103997b9c000b787f030bbea501bfae1003ebba26037843f10129da8a0036d807037295ca0117a322008c9f3701580f16029f01b201ba90e0033622770231100802eda6d1000212fc0260c3d602bdfd54002a6c04007eef5d033a1b69021547a20251b7e00326d14f025b35ba,
  0x34e13d014d61b60330463302e5fa980097e0a000868e58012e905903df76b602d3ed6600d51ab6002201ff03cb9a0e025dfb7b01438843034b69a80259650800845853030f9edd03bbffc800d7c241002c891e0010a1be00c0838b01a62c7d02e4733c015abe5e037d13dc03aab6c301407db20164575a,
  0x253d90034a3548003a05cf013870f0007a59b403a5e6b003270e40022481420174798f034dd741001ae6790132fc77038efc8e03e69ea302ab5b9d008c3df10219eaae01caf0280377aa5203aa86f40010822100e1b3a7027f587c00bb74fc0073c1bf0389e329002eb02701875ac003cf36f603bce228,
  0x1e42830226ab2b030f15610286a3c703c8951a0025aaba02ae305e02faecb80162c048022f55ad0032b9390112fb7c038eca0a014badd30100e2f30046c970019923720375e57d02690ad1032c9441000cb3e502bf16de01cee2d0016d3c6601df748c03fe78c7009aa95f00bbd191018ee21e015a542a,
  0x17c9a5021b5d3403d28dc00102278601ac976d00c7b58100bda6a5038142dc03fb193f023e105a003e8ef503c654dc00e5b2b800f3d23e01f3a7840300931b034fdcd4020bce9903826205027a643900274691005a0973011fd0d100a0203603abac87039cdf6603d427720174d1ed03840eb8015cadbc,
  0x1998360163f5f300bcc57a026a61cc02c39041003a84d302a599df037f8918038a77ff03a6ad70000a45df0223d34a033884f403d011d901e53164036d979702beaf4800b3d4d80051da8503fb7d880014ac130232cb7800ba09f201e841c302134c09007fe23d008d32540245aa46021964f701185d0a,
  0xdb7b3001ef884025c303900c90fc800e8f8a3030521bb0371b1fb030a366101154d740022df7d0028dcd0020c0fad03027cb403735e6e024bdd4f0226434501a1aa5001762cf60024cd5400afc469003243030279acc1008e6f7203564fb901254f3f02fbe7de036d48bb0336e5a100d8549402b6ab81,
  0x16c17203a40f18029a366d024a1022002d68f40015c2f100c114f101c2024d03c78af900a11e030008fa5f02948f5302da68670274088902a7f3ed0389b69f01ab303401acb30302c6919202cccd7d001d473f037eac90014ab25f03f03b76028fb21f007948e70056494800d3741d03ed1ae200f51ba5,
  0x1faf8a022ada3b009b3e6901278f2200bdc5d902e87dec03030a2b022607e002eddccc0234462b003a60bf03c7d62703bc64e902e9194800bc4c4501002330012553020221ecb303fc789000b6b86e001ddb7e02f6c2aa026e2fec0002c2100191092c00f3dd5d010d6c4d0390575e03b0d67202a72701,
  0x3a736c018ebefe027e790d02116a5b03e30a690270a63401acc26301b77176036b948002696557002ae946006fbc98009abd09013008c900443e4c00bc99e9015850cc01ed723d0230f0e80138e018001e2fd801c158ee021c3b4001f1d12f004d6b4103059ee1031a0299032d6e85028fb71b018f25df,
  0xa4f6f0134699501d21aa40258554400816f6100ce3e2a0120edf10020b8e2039e0ee90051fcd60032ab7900cf925d0018ac2b0386b50302c713e10386bf5a028288770209deb501f86f3d03008899001dc5f603776f3a034ead5f01b54f8701a455af00fa1456021e28160186928d0262fe210297f0d9,
  0x1b077d031d4276038805c402bce07103584c4c02b3c28c03f9fe9b032b8da5020def55028fac18000356600174cb0e0050bac303a226b100c52f7e0014470b016005500361050a01e3e400007e68ad00067cfa02f73fc201fcc9d1002390fe037dd52a033f73bd03ec0f8403603d5e02a2847703d19eb5,
  0x115e2302a00ecc022f9925019fe62002cf044c0385287b02d68316020755a802caca9701db538c003d846603b8dac800aed1a8006c0e96011a6846016faa4a01e7bd6e0174c1b00302e0e8017784e2003f4657003c18350383d8a0028ababf02c4e40d002c50fa00f5677203656dec0027998f01b18ad1,
  0xbde9f02aa45fc0232d9f403442b2f015c033202d8763101c47bae0225e3700214c02200f11093001deebd026499790085cd1a035b740103be06aa02e732f400e0db0c01d2fa0b020a073b00a434ec0012840403906c7201bc674c0282373700d9e0dd0219444001746d4e03fae34e022fa67001647d8e,
  0x1d3f26015b7c6500041e33035b073002a2e05d010add1701e7796801afa05901e19862000b18aa003a056502a78e4700f7dc29008a24cb0101274000100c2e0386f42102b636ad02f4dee500054415002c3dc503a1d059013a1311010ca5950382d4c700e151d402d6ee110071d106034508ea00783151,
  0xbe146029a99e703b245a900e809f102cf83420131a44a020b5a4c000aec4302159dee01298acf003d2b980378e9d302ee22a50093e08b03ab1b9d024080ab01667afb01d92864028876f80091122200152405024d22870274c8b8016e573e0355cae0014d5c2200f7a94c00801d5202f351a502a26f48,
  0x4f3a002118e1c0100b02d0276b130026daac100b8ac26014542280276c258011130df01c8430d0039a9fb02143fc90354fa9100943f8900d8514203d54f8c02a883be010d179400d6e3280034411c003c6901036ab93d02e35930017f355e03136ffa0033b7fa03be7f48029d30f800921341014dda3a,
  0x3d233602fa115301ecd1330261877802480048000f893b0313d31e02f4ca4d03b7dbe400e32ae80032f7170041fdb902328c420043f48b02190a7102d0dc9601c130ff00205a92037bcc9e01b82b6b0009de37015a952400924396021a8c7c030e1f5500560cf0010290bf0056c3ce01556807020c7b05,
  0x20cbe02ecb4300306ce060068817f0104d33b01e1598301c4472303a30628038b0a0700ee1c9200211f8a010a4f43004fd1fd025a981e030cf7160386e95703db04d200177a4d015a9f9c035af55b00273b7102de5b6903e4d9f6027cfd1e035f75dc02f3c25a03424dff025f1f37027235a902ce3fed,
  0x10a07a0075f9fc010c08e101c6d80b0086054e02f345cd02efaf48032a5c600389546600805b36002c1b3803a0c7c0021ed918036ab9640258751b025ea4da025986ad039967d601ee6d6c03cb04d40032b30f018a537c014cfc6f0215c52502fdbf0f0167d87403962d7d0390951901b7e60901a610df,
  0xa02b0211ca0f0094c6f50199189601b6d725026af4f5015867240134c7de00365d2001fe4e0e003e6f4903fd45140131bc78014a7d9c02c56baa034f2d3a022541d1007d1045014ff3e9035fed08000f4c7302f3aff0024beee302a4b9ec00b1308b03cd9f49023f447803a90f16024c948f035cdea8,
  0x35a8070233de950248ec95034525720209f032017444ce013c1473025a03d601023c2b03d2a60000066c61004a954a01fef17e039c93540158c34302869d2501f7f09003232b53023ed4d603c0e2a5001a8e1500c8f6d2008b87790189536502d4a48c0268b02d021b2764028a323201ed267601b4e53f,
  0x3cbda301be81ea02e1386f039c09e700fc638602196ebb036df97803acc0130001ee9d026b8eec0003f23f020b59ca03a0aa3d02a2e491035364090201f33100d08890023b639701dd6ba2036f985900213fc701d3d8410228a7b4011c1da7012942e802eadddf02ceebaa03e40b3a002af6f703a49f9a,
  0x38244f01e7e52802a0138701857d3b020862f900ff2a6c01ee1775039785d303ca1af801f5fe12003ff2aa020cd7150273ac570331bcb900baff0700919b760044ed5c030ff39d036867ef02d7489300229cb002f7c3a903b705ce00f4e61703c83de40157c7190072b42b005175f800233dbc01ce7bdb,
  0x32301600a8afeb00723d3503027aa501c59565008ea4890201f00203a5a820037b6bde013a1fa600126a97022957f800d477390394b5a700a3d49402d74145030062970319c04a00edb94002d00aaa000b33fc014256f6029bc642030b589403d131d702f3b48503a61f23033d1055014d7990019c3294,
  0xdb1e03dfce9300cf37ca013dcae9000adc5701ff6aa30035a66d00bb6c280272f18902c2db530006ae45025b0af500268aff003e0fff014e1e7f02fe5d6803e2bb6002a6ff68011589890037e1d6003f782003d965dd00b610d603ff33a801ca570903345fc301604ada03e186b70296018102197900,
  0x15e4ae014ec4ee038bc985002cbe4e004340be02822a4d03f007e2030f56130188f9000238bb9d002ab4b5023d2a8b0264011503811fba035108c503cd5559004bafe501de922b033c53aa03cad7bb0030dab000e48cf000309a8000a7efbf038d239302c67f430021b07a021d47910128b6b902787364,
  0x1fc53f00106d99014e4f2b02c6c582035b716a017bfe2b02ed854002e28a8402af2d4d03b3b217000859200336612400be5254017e5a3a000f1eaa01bbf23501d00b6202e24b860290f5630081397d001066cb0007c58603a5a80e003dd716022f5aaf00af6c1b0116fccf01cf9c3303e5ac63024689d6,
  0xd1fcb01e9fd8e0107f15100c3407f0204af1602eed846024d2461039536490145299201b92b8d00222c1702c969e50149eb7203f3fbae03eac08001fcfd6703c43f810212183902e257ab019437d7003ef0ee03bf87cb03bae090037df5730388ba5c03ea754902843a860374945003fd2b8703fb4f03,
  0x17782701d58e3903ced82503b29c420192e58501696cd000f0ceef013f53d500a0578c00ea67d10026c658001eb4980242e156008171bd019d11470340857b015c5b2e018051890271fb66019853c2002d82b60054da8d0204cb0100262ba002d5792e0185d87d0253c4a403d656170040c215013dda01,
  0x220a73007428800102f073011450780178d0b101872edd03b17b080321cdd801c79f6103f5f907003e5c18032e34d900a0a49a0107cc2f00d211b2035a4be7038357c4004775ed00bbb3e002e77e9d0012392c03a6f55600c538c9013302270001d7e3019de1bc01ae530c02ee2ac1024ce5a800fc78bb,
  0x1603c803ddf7e000a6b34201bf7462002690f8015db9370299bfe301c62162039cef4d01802f2000388e8902a36c420256191501bcb73a024aa97e008bb24a0339a6af027eeea1022f187101b7c62a003003d8012f1a870359890001552fda008a5ad10196f8d7005f3756006d583203780ee9009939f9,
  0x4429f030f7a9703b995b402ff0f72030cc39b03ebe438025250f5006bdf4f0114de4c00193b3100058c58030c60b00268af0c00652b28014a2c9001ba5221019d683e0005fb6a028a8157016b49e1000e453b015ee831025c4191018af92e01fcb67e0353737e018b467903929049019159f1024096a5,
  0x33cc8d0168dfbb022354c20172ffde00ae721b0216b640010e91b7033b58d40245a6fd02e61bda000b377a03f549290255115e03022e2d03d8c8fe02a5c73d02b437c30163b199008ecc250216b414001ace5b00b7f87b023cd894019effa501e7c523017a9cf702b3069e026c8fcf02a6520a02e58c83,
  0x2d2e4701aaa7b701a2cdc30065952001e7995b00f4833303ce257002d4095a038bd15d00976288002058d6032430d60282fb0201f81e410349c47803d558fb03b731650056708d00d6048301b6a83d001c98b301ee593b02c7b025030e636f0226c047034dc3fc029af98302893da802e244f800beac0a,
  0x71dea0214d53d018870e20311f194022e476603bdee700136c37e0382532300ffd0b30323cc16000e4ec0006853e5031765f10371b3520249f97000f460cf03af66b5024f899c035ad0f9012cd1d4000e258c02bf26fb0379612c036ac4da031d7dca000a13f8010aab9303dddf360399e61a0246838e,
  0x343153009254af014b283002f502b502e2d8db00bd550f01335b1f0195a459030b6522006c1ba40024cb9c01f098b202a4ec5c016fb78d01f9a37b02f89bc802c5243002097f97012280490337134d0000b99801ff09b50206b1a503bfb1f900f8d071034f1e6300250ee2025854b0025fc6ff01cd6984,
  0x2e07d0393cb4f022a5bd3007c7ab801355445000009d2029d064500ff6b02002aeb6e02771813001afa8a0152b2a000d04aad025f34d60240db7103c45a5e0199e71200930f4d02947b6400df00890027137e039cdfd90280de2c002ace910235fe390121cbc9007d267f0385840900109dc500cd2ba2,
  0x2da35202e8ce0503ddc7e301453de200ce52fa0328be96013c109f02788f8a01613cf0029fc72e003f5aab0175d931032af66a02024638023abf4e00bfcc6801ad67ab03131dae0149865201039098000b48030061958c01b145c001559214026d0f8102e5a3a6019ee35d02a0ea5301e5d21202d23099,
  0x6d89002ecdee0003e057a00bf3d8402fea2250012e8b703b54a110344db5201efae9701d5907f000c027902dcdf1a03463cd800121bd601e3b832027ab19d02b0076e010b027d02defc3f024717c80017955f0066066d03167adb026b57ba034e944700a0f5f400a25fc10270e60c031d79a202cab7cc,
  0x2315c1037d58bb018f1af5012ac9430089a70f036bd5e8018ad51102b6b4d4024f579503289e0d0036a53f0283d1a401bb0ece0351d80203f07f1e001cfd6f01772b3f0239364b017ee5cb01409d00000fa61b0220cf2d0360b66a0032a19a00aaf98f008183c003a2e424030d7e3b02369dd7020aa3f6,
  0x203012004ad87d02e85f7001eb5c710092ec3800baec930273460b005c53a5019784ba03933772003d6af9032157e2029456810115520e01b3395e00d198e203b5b3ae00fab36803a3e964000f03f70030a7e401dc3cf901195de701283d0802cf3aba02af2117018bc22e000591ee016fa41a01faff74,
  0x341ab101329c4b004447ff02d67b8300eac6c7032636ce023209420395ae3401d2eedb037cdcf100129dc501ccb32a01c43329005f187500195140001e239a031884620036b0870286ae95012acee50008b3e903078640007b5659033ec3b800af80900173e47f0038b25b013ef71c00c7bee10229efb4,
  0x1925f03c6a80b01e2448002b51c82003bd68f0042a3a102b0eb4c02e17d8e01657024012d6724001f120d009e9d71004c3c4801fa880903d42e4a013c7566000f1bc6010b18ab01132fca014ca3a30023451902078598007989030274565e02c66cca0310a220013cfb9c032d7f2c01a5699c01b6a241,
  0x16258f0145f32902a78e240303e51803a324a202245b400340a03202bfaae4025e0f4e0148e35f0007cdca03e29bf201b4e7e500ff652b0265454b009f3231018eaaf5029cda1e03ef33bf03db992700069e4b00a694db034903ee003d9859038a7c380032903702fbfe9601d27c8d006f9b11036da8fc,
  0x1f583202e893b70216e09102c76ef50322d04200f5f035012656dc0146bbfe01ec4c760056af7d000546720161f2fc012e769503ca9f8f0033cc5300c01076019e63c2011bb56f0391521d03d7cd68000927e5025892340146f93500d4f5ba02a616bb00e8616100ebd449000fb4ce036987770366e8d8,
  0x2f3f45020cf49c009cb1d001137c7400e4c8440155fa7901207bb102acdbe5019bf76803d388c100376e68014cdb570154df79039465bf003847f00366c612033940900390b71b014dd0e5012574a300079ce701e85ba103fe6c9903f72bb30085916d03c59db20359dcef0386ab1a03a4558003ea5143,
  0x16fa1c01ae84060387427702f5bfc001d502460320d67601a0b9920001d4a501d08dbc0360ef720034f04602b9b9b5018deab901cf5328003aa71800d441760008ae900397c407034bd4fd005577990026d86b0314e195026e998003e4cc8e028e4c010303f22602ec6da3012ca937022cef2b01a1ccc2,
  0x1d9d98011fa6f20119c8cb022b91ad00c90204007a0fbd0183fc1900117ebb02d849fd03c248330037b4da016b2c6502cc5efd012563990349b22902e3c84c03a7a8d0025dc1a302f7863b03e3b6a9003f3b0301d84b070304c568026392d501bc40200121fd1703e2f6750069da5403af156702d01020,
  0x2d4f420279bf79018c482d039aeb59011e4f5c0227c5e900b3646001878ff601a264d5000e2f00000518a70165e6c601e3a1b002713cc4024ecd6e0321178b01a9f5cd03f0b07b00fd449f024c02120034a98500fe903f01811911033065b10083ead600cafcb6015bfede00fea97d00d4aedf03ef686d,
  0x244ee6019a3c710227c0ff031abc6602cff1f50361b085000e1932022c0daa0071dfed026e816d00026e2703e717510206b4ca03d731a2035389250210ca32001a64e6011cf51c0300115e039db4bd0019282400d88f1a02628a4d02574afa02db3a5a00accd5000677d8c03f2e33202dc51ec03997145,
  0x1ecf2201065e5d03f21aff00a07c5001e5895803975ac902df0380017173410126b627024872ea001516b6028a1ef300c287e40057a520007747d801519de203e1a42b02cee3e10343cdee03728969000002f9019467b101b446a70367b15300f552d7031fc1ef034f718302acba250041bc3b009655d8,
  0x25e95d03fe7c5102758075001f5538006422a601e5967e03fc4fc501258a2b01fc129d00469f5e0018d3170280532303b206950099abdc0311e00002183a7501d976470329ea6d014daaf6036edced003bbe620077fcb100a6d70302423b0102828012025928fe03285aea0002f51803c3b9950034b22e,
  0xeaf6302453f3300e88c3901d5aecb039dd294010d292b006168af01ca14e00085fec80133c4fd00066148031ffb8401781ffb00946a7300067811003ed1a9000114a502410da300496d6901936e32003eae12016bebe7033f7d3e00d71097000524510200317e02d0ceb600f9cb0100b8673203aba872,
  0x29600702b9a29002d6f1550012e67402d0113b01c0d76f018057d3031ccf9e0269241b027757b5003fb96e03d9132f03ae857d02ee4a5001ccda5402d34c6003486bbd032dfee303c94fe601ce8dac0011a99d007442fe01a2d0a3037b14e40193364000c12bff02a0203b00b2eb0402c6ad3001a609e7,
  0x19948d03551f5f005c4fb5017e4dff0194108d005c84eb0247949201fdd25a004cfc510072d26f0018c62001f3a05c0123b10500870eea00e1987803ceeb6601e3ae6400ef2ff4014e6ef0019680ec001bbfc4038764e5016f5c16035ab71103ec256001376a200158241600b1ff6b019828df026995d0,
  0x35ea620382bffe039b20c0002cf8e40380842001888fb502ea4e0e02c8491b034cfe9c011689e4002656a1026dc18f0384355502ddbb8b00086e5b01bc480201b93921033fb59a02b8ab730306db2a002faaaf01b0a7fd01d201e80035d4420098849003dc83c000d6db9a000532e90165c2d701693763,
  0x31ebb902101b1e0296fb1c02273c19036edb8001c9d88501de466d00dd9325021deb5100750b740034cc6b03fc7c800120023b03b27e4f02d2f402039ef1aa00d7014b0064ac5903d4d64602bea43c003a4b41020e73e801cca5a201b22cf400695c50030c4e2901ee2e3f016cbf3903288c8e00972a8d,
  0x2f31d100ee33a6036bacec00ff9bf8002b80d701c086c70365fe3e01456fc8019082c701f159b5000c553a02aed4fd03fb2a9b037c7bf70313e90001be13f40132d85b034ccb5c017d155f00011625001130120054eb9d01a0663a0015b73600c8f62103f9f89e01e10bcd02309501014dbcbc027d6594,
  0x1617d003c64bcd03ed6b1502e9bf7f028644c5027a69cc03587e510084346b0270cb6b00967bdb0006bb7603d4e1eb0311d7b20055124b03529f4f00f834e4024c6ed900ec97fb001e613603e0f8d200105a6b02457b8c0197716f0319d59e0197c38e00a92fb202b98c6e020c0d6201dfb08c02224af4,
  0x23d9c700d138f4038a188d034a21eb038433ea0249648600aee61300a0c78a007065d7039fe456000d48730082a47301be80500147c5fc01f7b59c00bc118603fadc6d031ca7f903c53db5004db447001e82cc01612e4103f91d06039036ce035df00e00337fb6000d3c3803a4c44a017007d800c239e3,
  0x3d622400e7ca4b0005eba700451f59013d429700b0d66a027fd325004184800055000603ff60c8003c774300ef0b5f0037017f00128ec8021321fe01ea5e1402b56b70011f2a7903e7ef2a0109f03f001e8ce901cd28d802cca66e014619b101b525ee023d44b902e41382001a168c026092aa01ab228a,
  0x21ac5c01964d7602464682008bfedd03e8560e02868fc202ea5bef0335a1d303e691260140221e00210ba7032f5eee02794909031becd803bc2b8d007c0aa300518d8a008dc530029360dd005ac61c002bcb9b00d65fdb02716936032773c801a62c36009ad05b00ead4e3026d23e903006e700236a6f7,
  0xf921d0195fbaa0197861d00a619bb0316dfb10276a55b027b2f070324c95f00e249fb012e1219001abb46006c874e03ce472400815eab0216605d0053e70502c740950188d08b0157e78402e7bac3002ae99000cfd6dd01994c9501b1f3290163fb350128a63a03f1158202b038240262c56b00204742,
  0x1efc903bd8e2d01d448a002d919c800649d530093dcf40384836102f55eb601eb0167000922f5000cc7a000ad2f4c012c3f07026231ed00b3be4702a1103102aaeacd01313766024c6e530240e3da003af4600107faf202ca4cfc037f347602dad8f003eb65c503bd622d03268d79004a6e0a01547aee,
  0x19dce5012ac61c012f41040298164e005aebea015e0de000167e3d02df99cd037d9a1b0317388f0025ce92016eef22014c9d4001675777036288cf03f4ad120080dca30126b9b60047028801533931000a96e0034934a10335946e02a96ca80044596d00b1518100b927bd03cc7850009256c30295b887,
  0x1c70e602c4e578032d47b80075973c0124f28b00bc03f200354280037046ec014db911014154090013720703c746480234a3b7003cfc2d039624f901577d9300d3627d01b18b4d024a75800173a38000050716028f107e010071620115ef4301df698a03d185960214f61203e0add201cd103000fc587b,
  0x25a0af0071f44103e674c60259c12801afb8a40063e7bb03bc290e0017bf08028ca80c0369b712002b89fb03401ae8035980130092f94b011443340364d36202bc8d7e014672f602d44a6702fbfc0c001c88580267c04000d8e80e005837cc02efa1d201a97b8d019b53ef0249d64001b778c003979720,
  0x33402d032e1537003dffa500816ccc03dac7d002dc1c0d03ab260c031c844600f339cf0230e9aa0023f15a00df6dbd029cfcb700d5b5c301d23cac03ee93af002d974101629e7f01707ea50219d6a5002d2e6a037b21b902b7297300b3fa3403ae8b0400ba460900bd70fc005374b701d781fa03924bdf]

/-- secp256k1.go:10, serialized bytes 798720 to 829439. -/
def tableRow26 : List Nat := [
  0x0,
  0xda85025a1c3c00ccced30090b77300c2bd3b00a4f568035253a40136678e00b87a7f027688fe0003da3503966b0601528acc032de43c035aa74b03a5fe06014ba62f024c9db900c1b88903a3be30003c87db03002f43030b1f0401666ef2017b2969001cef6d0215bce502f16eb703c8de2c02a746ab,
  0xd0bc301fd7bd4004ddf4f00ec565d023e61470278ff2703f6b57f0148045001133e7a027a0b7900013cc8008f149d03f50fda01963c280151026b008d366d00e14c4203d09ef40294ca620396603300347de602c12606039d55f2036a0e0f0305e32303bcec4e035edeee0193a1b802c4532d00e7af44,
  0x3ccf8303475060001c29fe0207a7320349c838038fe28e035cba84018b0c310196bb7d037d7e650038e2fb0154d2cb0172237f03735bd6005cade8007b1f8b02839f2901b7728b03857d4100d9cb600009c6490276629500764921016110cf0096c15c02d82a41039c5060010cedf6027aa1c703c75ffe,
  0x97a5002f7f122017e8cc50131ae97028e3b4802fcc033035440be0096ca4f0162d142039f25c90002aca103464d07020264af001cddee0055246f01fce0400001798c01236aa1021e3ab4031b7b0b00351021024a7ed902a3d893026f12e802ebaff60137a84503bb31e80189e095003ccb4701971223,
  0x3fd0740120081701f665ad02153471032ee3c4004e97ce03e40d4802acb3cb017c4b3b034f18d4002fcc6801e727d103a8ac4600d48023015d863b00cccf0d00dea66b010714c9014c322a021c626600110d3d022c7d29003d5dd30093af44024928bc03f3fec30313edf902104bc101859967015b68db,
  0x394aa202466849016cace001177958025042ad00386db102d1a9bb00bca54d03c4843000a0137e0012d7f100cc6d0d0024d60a020813610265ea0f02674ca202d4374c0030c21f03bc169600444d3500388fce00ed2a48008e1eb30232c0d40053ba110019c408024078a7021f3e7e012b430f02a90185,
  0x2134e600e09aae02511539011d439b01d7769602c6696a013676b1005142fa01d4ca760369508d002e16e4033eec14000aa83b02ce978903aa004203525bfb02f7dc51010b85a703b6eb32012acf9f002e1ea901832d30003489e003b063ad013b4b8300953cba020b2dd6018412610075a2270036ea83,
  0xe00e500298de8027452580341c55100002b680131929a03f510e50056a73701bbf54b028b45160017c5d0010b60ef0123415300116b500234db2503f5987d033b955503587657019831080124aa8e00329408010122e703d4b024009d1b16012c76aa029c16a303d9ab6e028e060201b75e13008c1287,
  0x29c4e302b77f3702352f4b002c891f037f30bc034ad39002a03660020a3ac802343348030ca680002ed59503d0521e00ebf7af018ca7df0213161a009ecc7d01e28f57001d8e2702a523c5014234e90033b93f0332135d03a319f600d1e5bf00d3a5a203a0ad55035b07df0003cb2b004dc375002d87f7,
  0x6d0c40398252d00e19a5c020f766601c5a65c035b6a2901c6a4680193ea22019b8c3500f7ae5a000dd48d01acd7b602f5257500b4cc4300e394ab0093fead0191a67f01b05f86024dd75801b4ff860000d6520023eca40226fe95037c5736006f18c603f6e6cc03e5ce260336bf4e0329464600dafc64,
  0x1ee8d802f567e0005babbf023c96b102d48c66013ad80103771cf10370c919009b460e00e87b51003718a000316ca30290184801bcdf960117c18e00234ca0036189750229105d01b89747011e00270014440902275d4d03fbfaa901fc9fc60013e2d403b3d77602b3d899008585e9013f835f0194a923,
  0x1316ba033470c0004e908700fe182000193beb003e55830387ae8f0290dbc400ec51f2016d0d030021e0980343552800d36e1a01dffd72028341a900c37c700205fd3202fddf96024fc8b703faf369003fe17300b6398903c3952d03c850730130d8930125586d01d962a30318aee002d79ba200dbcf06,
  0x20df4301d30b3003a39140029984fc03c42a52025b6ee4006042b30105b0e403fcf45601d832f2000bd70501d30efd01d3035f01d6ff9b0006fbc902b9afa20179efa502e6dc8f012d500903b368520021db9803bd9f4701cbbd740155e6c802de4e43024f376d0262e3c4002136a30258abd200b9b20a,
  0x2e82fd01fdc1d80273ceb503fd5bdf02ce4c39014c1aa403ac8df5029694660389b0a8034a3e31001369a8028308d9016a560b030695d300c1b9fe03b152f0039950d502e463c301aedd75002f1d0c0017936000355602038755f10048e8d701229fbc0032df9f00e1d12500c55cf1021b211903bae47a,
  0xecda20257cc8d00585f8b001480ba025ef77e010034230157c93200c3ce28019d17ba02fe5ad50034ec170379603e0192ef000063bb93029356e3009b2adb0067b5d001d0935100c6ee5903dc69c8001ab3bf02b5f26901227fb10281252e020ae0b101b95fda02ba4e2a0339ba590062e49203b85b7f,
  0x1823a801fb4ebc01f9f222013ec66002aabbee038be42400369db702f5d07c019c1d8b017ca20b0004495d02136b02039df77102659b1b02da986d03a2db2702fb2a800140765f00698cdc0115d0ad00233bcc0185345502924df903f9a5a0003e3bd10356a18f0151137b0257985b01c274d303c5778f,
  0x3885470036b9350213cfc2010c014101c19f8803428f13013851e60142715701d245e6013c77d4000610420211b9e500ceb92801c1bfb102e5067d033f1d3c00a9c4ff00bd8cae00f2c49002588c27001e464f02ae0b2f00ef217b01dda376020348dc02188426013d352b02f39cc100abf9a000c02fcb,
  0x14ac5f010f922700d19761012760130126733700158bb403425e570384906d03d1cc23009b8fa9000670bd01b4b2790024f914025b595e0180f5a50399dc5c0245ab99027a167502cb29f10277726300192f5100e611fc0385bd4901e36f3b0056beb603d022f6037e950902df5ef0026d92e801ce7281,
  0x68ba102e2184d00bd332f0060cc2603a56c33002fffc4016ce56f0324cc6e0109624d009faf1f003d07fe016814c502d4e2970009276d0334f993036bc66a01fc43b403d6cc7e03bd734000f0758a0032d56d031010e7013ba895013669de03520cd400a1b39e03880dd502c31c5d025efc99012b3efa,
  0x1c1b40030af413022f73d803641c2e013820ab0334cc840120b18601098b610035defd022dfc2d000821bf02141aaa03873b2d03d6dbb502766e87016fa09001874dd503c8c3cc03c27c56005efa21002d7312034773c70343b58202cff0cf016679120143550802ba809c01d5928d00fb81bd03042f1b,
  0x33683400adf2b901ae2b39012547c602625a15018bc1df025d26c702396be0002089bc00443c4000268ed201c8bf77006065a200cf5d9c014c2ac5013be134003fa88d014edbb900b6598a00ff314700093c88023e077c02eac0680397cd1501f737880293b79a00857f5c009f4bfa01cd783c00111f25,
  0x1d0d0b02dee13803abf97a030a421d001aa6d901fbcfdf0272b727020199ad0069a17002bf7fac001d4a5501e79941000f73820110e6f6028a53d603c2403d030b18bb023949ca00159d7b0362578d00300dbe00775e6001371c8202bb47870306b1f8019f40f9025a78a001b8cac30272740903eba48e,
  0x28f18a0229ba7f03a93c5d01b530dd02b44631005dc6340095fe6b00c75aea018583ad027d5b6b002d033c0327e4ed02a6dda5028f1287012b886c024fa8e701bcc752031c7af900b7788101088ab5001ff1740213424f01f1cc7602321c07032e0ece00cff11c03dbb3b30153f6d70245a6cc0033354d,
  0x34c3d7007a6ff3012f2f3001eb8888017c31e10338374d01d87728032fac8202cf12fe01f8013b001b12970124815a014c030f01d4758e01dd625c01e117de00cb5f7101a822e401b549a00210ec6400102d4d033d26c300eb8896034bfe5c00f34931036fbddd01edae8a034c70630013efe0025056f4,
  0x3028090305de0d00660fda03b85eee02627485018975ee022c73f10305a83503de0fdc00161576003e32ce01c6bba1036561f4012c7e9f01e19ca2026c55b0011816ab00fcfd17024d04c203ec0334002548a8030c0af002ff9b9500845c12024e08aa02f7a2350297c1c6030f8c60015c6bdd02e32ae5,
  0x642fd00d3394300bd8f640238d67b03cc73d601bca93502f316b90210918b01d3e1aa01c2e5de002863ef02fcb5d602ed7b9b00941931025b6861029c5c6403844d2b0183fcb40030c7de0200d23b00364ba202933bba033a58790009ef7303e12076029e38700390eb7b001fece102d589a802bd12dd,
  0x357dff02fa1a7903dd27f60108c4e40213ecee03aa58df01b2a7780227dadf0289cc070214308d00178107036cb3ee03368fd3025d8ab1030f995302fad83400a0d603018c080602bbd2a002793b2e0004de6901d6d48401f49372002580f20034e4f3023205e30077049103a367700128cebb0363dcca,
  0xae22013e7ede01da4e6c0285d86a0074a14c018dea8c00bba4ca037f8b8c01e3ee250222e24f002ddbf6016cc74302a5d1e0003845010388517e010aff01029e05dc01a3e76802bbfa400212483f001aa57a00e04d34016c3cb001fed010029f7c5e0335a94f00c74ee200a0b0cc006d5c9601d405ce,
  0x311b970038f03e0074ea1b03ec06f2020f89dd00bfc3a2031a25df03ab1abc03baba020193c7bc003a190b018da14603ecc02001ac15a600d587ed03831c7a0151da0a015b82ed00e01f47001fa0bc0004d0a3034d462702c213a903e4dd9e021de588013d6b7703fd5b65006ab9a9029b695f0009f0a5,
  0x24a1e101d4e11e03d7393003718fbd01f486a4015afc0e02a24ec900eff1ac032e960102f90b970034e5eb037c87ff029f2b7201baaad1011d4aa402449314022de87a02a660700369e63b000de710002b3dd1006188d0010faf23001ab3250045fa7a029af59a01224a5c0275b91a00fe24f5038b4dd0,
  0x2efe73035c9d7c00ba765201cbbd52005295540393dc5d02185eb2026d25de00b864da03f5cb990028a80100da64480026ea8803c176390183dac602ec45e002f449eb037df13d034f165202d7dbc1003fb4f2026d6ed50069f34a03cf51150148fc9f025c1550016865ac0029061601026d3d01082e41,
  0x2e1f5a00e2a75d003db4da0219e56701439e46029d4c24033cbae4004341a803469d9a0010952a001aff1501f9d28f01a64b0c008e074b03791f2000cb373102bf911c0034b2530307e2530336b12300322f6101aae718028313c6021f99740361a123017add3500644f1f002c1e47038d2eae017a8e6d,
  0x14400800aef60b015e942f011bb03d02939fea0009827401c2dae0003492df02c2585003ba552a002b04fd00c5d78701eafd25018d803700c0cff602ff860c00759d5a007b40ef031c5825010a14870022bb8603a49f5d0234dfad0045884e028cdbfe001e8fdf01e73f00013af2aa03fd75d5015e1d0d,
  0x2df97c01a6c6430334ed3500226091015e643c03fbc46201e7d02002509d1e0038aa0601b938eb0028f4f300631dab03d4a36d00ef606e03602435009e20620314f3f20093cd8e03225fd5027e958d003129df00a7f37802a2926700ecb21c01f06f0c00f73cb9028719ef00a1d0fc00fcb07e0247edc3,
  0x1c96c3004d3ef503e87a0d0352fb4f020afaf301b3602503aa1c0b02209e1201b7a53402f8d5b5003c5cd902c11b4d0019418e02f0a633025498cf03a03f870033c5600037341403f46235006d42be001d396c003b996b02f4e7de03abf6d4004c597f03ae2f2b027fb14601ce110a02c89781038dda5a,
  0x1d6e2601344bfd03c0e5fa0160cef502d911c602ec21bb0136ed180003c142028822480389d70c00055b0b0238cc9002c9bf7c024c483801e74136008062d50051c6f203cd9fad03657dab0280017c00253927026204a80213d0f7035d8ec60352c78900cf952902dd404300b77b5600f7cf7203553c8a,
  0x71f560059c06a03d9c40401089f380116ef01030bd3300378dc73009c59be03b560bf00473a79002b7eba019bde8401147fac005524b203df00b8023a0d5301492b000062bc8e038b92fe022e2280000ab48d0181016f01a381c40257e7c200acfaa101d2cf4f01fea26d02e2121a0152bd0503d699ad,
  0x3dd31a0307625b03beb8c401e73cda02ef6f67024c4f360296994a0037269d03713def029c1757002dc1730368f1640112126903c1a72d00ea0c2d01dcb854020e01b201d3594d0029cfd90044dbf3001eb7ad00bca22803d6abf802ceadf802045e6a0159aa83010fbaa5018cbb5a02366f8d001c5254,
  0x25916a02bfe95d0113191a02de4d2e02470d1203a24786010e2e0400f326b702497f1f00dbacad002cf4d203d04d44004bc78903e30890016ef8d3034a2ce901901f4e02360d38002713170151f6ba00377a5d01e2fa73001c9e23008b9eca03c2e0d30301d7ef0259bdb200a200c0010f0ac602a1c83e,
  0x13b0ab0376c32f00d3a2c20310f3ad0170194d02d4f80503c3af9e031ef44d01d00f92026f88c0001bce4f01a132f003c5f9f7006a6eab034e1f5a02ec014f0088dd24004b437e000b64a6022a67fe0001762b02604790019eae1d03c5a3b701cfc517007f62f103c59ffc038bd85e006e2aea018d6c39,
  0xcb5ed03f9c53e00d0e0970373fcfc01f5863900f1e2e7034498af012f64b402ddbd350380d0020019070400d28b9502b12c5f02f38d4a00ded2f00005e7dc021295100112d8d102807e7d00e7eb91002dd1a40356772b03f2c8be01640e5103b149c8007e9b7d01b4bae203ff5a6902f6df4c021bd2c5,
  0xa515c02650599000da9600069112003237da503dd009101584beb01d038cd02252c9e02ede784002892b60257a0240148596500276edb0068a5be0361cdc40371305600be4211019f664400e65a9c003e06c1025b9b2b02392aac00f40466008b336201a6eb16001549d6021ce4bd0037cf8100278f71,
  0x200e1d00439abf008bc1a402612f450377e55700028b9401e7d3f501bf886b036e4371001757f900245d7402e08cd4010e27b8005f5543017db597013168f603acee72006d3e6302f30f2402c6cd0700079b9303ad2b710035600f0278a9b90217804c006d555c01f9ae2901da18aa018c0a9603e6d693,
  0x3af103001006df01cc38c703ce8a8f02cd18fc021db49203f42ff700ca3dd50262fa3e0245d504000b776100d36f0302d680970090819e034321900267b1ef000ae8bf03be97f902fa65cc02f6824600183560005db72602d0278b0275a1680392474600aca96402cfa8e5011d54cc039a43d60277cdba,
  0x55bb500ac6d550008e092031061080123c21a000903f30104c9c30301ad3e03e4aeef000d1370000b41bb0089b55a029aa5e00234c10d03a9f08e0091ad3203d63e480004159c039830b6036938d8003522eb0344215a015aad3702146ac102504f1a03bccfd6003dbd5403fe0aba03b866a20174487f,
  0x3705d003473f6403fb13a603618b9a006584e8023a552703d7d41f02ec2d9301881011008c4d68003d221b00c6d2c30115be4e00ea5f05012591c6002ea4af02e1dcc30126393901095185030d9848001bacfc039ce5bf024bc280016090510253fc870070b40001b6cc3100e9dc3f03b74c4c00cd64dc,
  0x8f26103ab952903447f0701ef43700331eff60246e8cc0191e83c019af7c4035abfdc015275910026109302fe1d19001c5fd70057f4d502105ed9007ea258029e00e502f85d1c024e74c70347ee2d0013619d0265d7cb0380de8800fee23301918c83032fed3902ef2ef90076c9e700fcb05e0378280a,
  0x24f7d30398e6ed028383fc00dbcfc000f361d701c40e45003f559803621bdb019aac6603d266fa002348b1027273ab01f71e420179089103eef7ad0266c330006e664801b8af4c03c4950201ea52bc00293a34012c68db01dbe37b00e9094f00e240d301d7e8750017dc2b03773b1d007d3b6e02fefc55,
  0x29c9a303567c6b001176b5038409460009f61501a4d0da00c3e3ee0097487301984e420168530100282f84002f1f4d0200cf7f0145046f00a5c948039a0c950267641800f1b741014c5c21006ddcbc000eb67c00dbf13b015584c3019f557e00b9ff9802934666037edabb0326349a018d9fdb023d3c44,
  0x26f1180246ee4a03bcd06603f66f9002521af5032e52e800f749a302d9ce480189004402c54396002fe80f029319d3026bdf15028837c202a3d8ec02476751038595480106101f00e8fbe30339d77e0006960b0108d60603757a0801c9ca4201d5b18b00df0a0902c405fe00f4083700cf21ba00977512,
  0x1d56db0322e1e70038088400ce812100873ca700653cf402f2ef1801746bf102bba0fa012fe37d000302e80391449a0309c12d02c5c96301e574f20164482202c64745000f37a602b3deff00cdc76900227fe700a9c2110303094d01abbb61016b62150254cd93020f94b8011bb41001662ccc0192017a,
  0x322e8e00e77e4503e45e0900f5746e022911ee0299d5c1035ec32f028b4b4a03af0113010f5ee6003b4c7e00a836db0353dacb0195cb6802a1b8a2001da17303d4218c0251adec00e091e600f74083003d1244019c4785035dcd5702be92a90018856603a4da9c02193bc402761376035a525f0128f665,
  0x1b0d2a007c622503a9d4a6031ac00002be0d4e03d3952d0235a06d033f094f01b6426501ca2e850001a61f009b8af202feedc300c147a103c7986502f205ca03e5dcd30193948300dfc7a800da1da30014370103cb36a703328c91020b5c7c03ef896d031e479f00986e6f01379f46017805eb038b44f6,
  0x1c9af018150e700321d1c03d00929009ed65d00475ef602e33f63038da600013855130391b4a50017189e0036cc92034115860390c5c003552d420068f46c015fcff603172b4b024a690601b8ac1e002eaee203373c5f0351f15b0223e7840001f127011eb7a700b42ca9009ee7430189743001f67be1,
  0x4f5a802dfebb400f9548c015b51f503013b250310da0703560a72021019be03dc5fce02a22f380009ca180362cb29009217c603ced36f0286aa5f03336d3a0320a7a8011d6d170027eb3e00269b65003cfb1602657f5b0378f7a2010a5e8b00dbcec20299da6300b3e9da020aa5090112b85200fbadfa,
  0x1b43bc00601805003afdbc0145bb3b0005fff901fbc429013426de025f548802c7c1cc02c5e1f60034a89b00c7162e0217a22b014c72700287593b0392d05802df13150375c3c1014d34aa01da14ef002db15000beb63e010ce66002c68ea7006de087009383440070a7d700754cec00fbe95300f6f339,
  0x191a8403796e2b00f7c0d5010187fc019e3a3e007d5d6f03a3a031017c4ce003a0060b03f69f5e003f66c20351e7ba026e403200a13d0a01b0d681001881a30055c57e01bd0b1f00bbe46103a6e971003aa761014e0ac70187c82c038d40930390afb1018d6fe8000b4e7803dee8720108cc1d0264bc15,
  0x27b337023490380096c42f0273c2fb028be33503c8ff15028ce37a02694f6902f7c82b02313ae2002c7dc8026a39dd013dad2c00f832de0031497600f0810200179d1900785c47005399ad00dc2f69001403c6008167a10259a195000790e100812fdd0339b676016f4f7401572e600260ddb702577ce9,
  0x2216710267c0e903c27e46022b840e03b85da70397fcd0005525b0012e894801afe5dd01eb76200008b84e0327345d01b8402102f1cb7200872795018d2f5b03f4d76801ee9b720051385a0214637b003472ca01d5186101f0f1e001684c880060eec002b74ba6022b94d800c0284003d76513005c6e5d,
  0xfc57c00f68dd50392b7110095164a008eaf68007c0a8401f633af0161bc37015f54ec01152e3c0009d87901b8815403a2978f00505cbd03ec33ed0133beff02c2d83c00e472b70261751500f5b2730032fbfb018951b803b0f46b02fe3b10015bc43c03d53a7d037561e4003b1ebc00cf1f41017f5e11,
  0x3c2010243289b001cab7701388c540090de440231f50c03c2f83903b53220022ceee4020f85380005a8890031fa8403f744c0036ead2e0000999501e023d20394fd9a035403f501e6acc000c0165f0015527403618d34001ee331000db3bb00488c1f0219dd050253c6dc01f87bab0080a9fa01347ee6,
  0x13c861039966ec01dfd5df0217b30f008bdf8302c0f45503fb9f76013da9fc034e50fb007d2d12001df02a02a27c74036049a503d364f801f8a3e003f0f52102b0357f010e30090036a7fe00b0a82f000884f801cce5fd01ca05ed02b006b50164642801c653ee00b5604b010758c603cfa8d1012f445c,
  0x9a099023c9f1f011212a8028db2ca01483311011c7c4c0314521d031817b903d2ece402a9fc270036bb7f00f07f2b00c60eb500d7a78802c9285902cb2469034880d901cec64f01db516903db350e000a7207016453c30287875603c29c9701ab4bb102dc0d8b01f9f2050217ade40171208300af5303,
  0x283829037e08ad025ec1e303141eb202bcc1a402add518031aeee102f35d4101429f8c02ae9a6b0037420d02768e7b02f55a6100c1eae00123068c028cffcd02ed899301f5908e02b2da2503453065003d769c02ad3e1a025f03e2026317f8011a127401f7457e0141931c030ce03301ece7a6037d3211,
  0x1c50e901e7e35c02f9116703ca74be02f1907a003548dc0303078503350f4a002a2d8e0274980a001d1c33030ec89100bedac7010464db027eaf35032f092a00ce219e00ea3fe8000b4391007824250018a580018be84d01e44340001c060100af744f01975dd700b4006e01dac819013f8fc5031146c2,
  0x181cca01d58c2e005a0ac8025e4fa402ad153003c4043b0126c56c01b73562035f60df01a273690038627902c5d5230344601c025286b30303f351038bbd0c026b32a40395a2bd0014440202332c1f00138c320010e83b01500fbf0392c3e7024c459e01538fb3029700f5035eb843033e13c9015e2299,
  0x390bfa02badafd02b1361e037324ee03cb95ae002f1b6a02882f0d01ec19b8038b892503e01cc3000829e20327b06f01dcb53c03a3332c0338ae8802fa34c20387bc35015c3df70227d75b03f35e8a00229e1f01052880012dc54a00cbc2ed02cf2170027b4ea600f5f2220204503f00eba0f2021a0160,
  0xbcb1f03ef88160374fd2e006decb501de55be01ffc2f5030c9da7009f41390304043101ffa186002e1d8e00ece24b02c23b0a02011e2f00a896c3036a9be9001fa65d0285a1960303dd1f00d2499f0015caea0178781000bf7a20035a89d40198d5500335641e0342e8fd01541f5a02e9de87029ac1ff,
  0xa5756013d09220200c04b009e6da8036d91fc011c860902d814d500475e25004b8c2100e7c87c0000f21f038c4589019ae09a02c20b7f0060808b02ebf06303c5700d01b760d00187377301459dd70010e33a027a6b69023dfdc60254633f013d096f02a6a88602e6ca020015e88103c77678006e39bd,
  0xed429038e595300f722ca03fa10c403fbc306030c8c9300e119530296cf1c027d637902e85e56002a9ca800ffa79f01c15f7f03294c6800510a4e03e83e2b02d42e270309fda50346b59b0077794400073ed30306787e03dd92fc02efa7b30285d6f60024605a006ee81b017fb9f60153fe4d0275a281,
  0x22418000429386032c9fea0198e0d203c825d40182906200c2699a020fb8b402d507b7000ed43c0033681f02318875033970b602b4610b03a43dc000908b6b010f844800f4b9f80291e4ad03955eed0015f1e2009dae1100f4a6d20349a9e30005973500023a8f005208540064644c015f2a4d0239025a,
  0x69ce600ddfdea022025c301d9bcf9010acb84011f8e7202e4d39602ba8193036a3a1600ccb29f002287e7023010f6023dabee01360a5403187a8503f0b8fb0360aa610075dd7a01e02f900111bd530015254e032478a60045a3730057483001fc8b9d0078566702c7d42d003e8e69036511d301ba4006,
  0x1a77a5002a95790181cf330022eeee00a5c87802ae4cd301f4e13602eb3c980036932d038b53590009997600f22e2002b08baf0085ac5200dcb40802ef30a502b9714f007928f70258d0fa03cf107400063c1c02336b6a0170f3dc01e36cce0304edae02fd9f05029663840069e4c900a9e2a4018b8ee2,
  0x1a022d0139034e00b72b110038e35602b33ada00f14f35027136d202dbdb6c009eb42100d5e0f1002c88ab005bdbcc012c717b0120b35300c07ef60276c15f03d32509032986da02884a250289e2ee00369006020b8869011abe3803e6d1c403e84b0700a8600103e4070e0297b0c701756d38004e13b7,
  0x3295d1033eef3e015ba5cf022a2c8e0238337c01ddd4d002e0ec070340789f00b2480e02a147da002337a400ab18a9033455a600a2697102c6f3b8003330dd00d3249100d9c127001309080161eff5001306e400d009400225b05602b7f85203e7881c034ba86b0053deb80107d86d01c4e1b2020a9da7,
  0x723aa03f8aaf6011f17910174c6870360406003c8651402da8a7f01266de202825cfb006347ca003a50450296ae2002cd6106039a204f01b8f5ad0331c6f30030509003d823a9001e4a7903da565f0035c0a8009e767f0324816201ff950f01d2ff1f00147c5402387b6d02e2337300c6d90200d9ea6e,
  0x17fff0230a7d2020b359002ddbafd03b1730300b56a4d01294a39016ee10b01621ad103de1d07003051980368306103954fb2005156a402ce4a7a001df718003ef75a038afe3c0136440f011c4a5a00335f2803bfaf350298bc1b02896ff9021d31d00244f0760256805903443d8c0061ffad03f38269,
  0x19f8bd030a9a220124a7b20298c956000d02cd01e9ab7401273b160353aba6030d386e02ec38c70034164303a143b5004b30010256d8e60088be02024846fe00365c4c03b653e900b1d04c007682130002ae5a020642940390e15a01a95d7f010ef9ff0058cbf9012a6ccd02e4ca7c012f214400e5f1b7,
  0x2fa870276b82703a66c690115f95402a314cc024b299b02b97ff203cc42d201131ab0037a24c2002c894700f85e1f03827a3201bccbaf0058f1fb0391b1a2017412a502cd6c15010f2e4703a01cc70001388e039c1d3002ed3a7a03168749008895180188af6103c25ad2028902e800dd418d0051123c,
  0x39c80d0231a43d033cd27302e0c17d017cb13801745b3f0349ee360010c3d101deb2a400e22940002cb8c602165e9402d6409402fcad16025ae0310074aaca02fe6db00263c2be0021458e0151a9510006a51203e65b1c00ec6d0a0150765b03186a2100e90a6501fda854024901bb025becda039452a3,
  0x25b90303e49a5100b9d23501ee13cb02cc51d7007c802b035afefd02877d6901d2add90216849e001ce05a029908c50311b13c011325db01c88e6f000f216503858c0c01c794ee00ea9f770076678e001b8c4f00f5ed3d018d61980059e3cf0346a39003365a9902d16ac7012f60040249bdf10201e7be,
  0x1a93cb0194e4e201549db0015fac8c0127cc9b005e7a69037006fb00c744b902237be600622f3c003607a0033ed88b007b7f19005cc72e02b56e8c01e01d67011f96ae0271d1bf038c3a1e03d6072a001833d203e525c901f4e2d301ce60840031a348008b5a730200a0500351295a0274560c00236681,
  0x319871029948aa00e559100257cf2201ec2fcd03c651bd03f35b68025ef6fe0010c8e2028f5b84002d3973000a331301923b9f016281b60085081a013461050215cb6d03b0f24702e4121403d0a472001f2f5c00a73a6b00a2465e02f8fcc40036510401a14b8501e39a5801a5339801885982012ae039,
  0x271a2802ab393f005ace4401bf7cd1022976150078a20201e31225008cb8c8012ca19e0015186400138517016db40703ac144400471fd6023c685903bea244007357b500784f4200278fb600b20cd1000054c2030bd02b0080795a017f09bb01236a080294aa69014d259b00185e6000254ac202799c24,
  0x594780298dbb602abf4f501cafc0c02919b6303b8eda0031666280339eb820070f46f00fdfbd40020401901d5c97f022f8261027e41230285a126017ccec701c0168903debcda0149c395020c1749003234f201e54419006e951e014c3b0400fe96a80373b44401de9e0a01ed581403cb61b001548ab1,
  0x1d658902048ecf01c375b60101e11e000f0ee90142763301711f3a01d12edd01f8eb8e03337e4b0032c8470310c46c03cafceb02ffc17c03297a9f0190353a0110c63c0080e74d00c2b5690263ab8900171a770171af22000d41d603012e9f00f8324f03d7ff3303aaf11a02a5186401e9b41202e84bf2,
  0x22d663029f839a0165b12602dfd17f033e5178039131b901d3f3e402ef99ff03bd064d0298fe110036b5a2026901ad00c0a7fb013a1ef903c2988300f445b60210a312037866e601ab18bf033b0163003a40f8033738e2035d87ff018e7892036ba97e0104337d013e887e004c59f600eb878200d9688e,
  0x3f9d5e00896c7a0209581a027fe44b005319390353cf4f01cf64600286b2af01a8df6f02b57ef8001fb79d01d2c6aa0338181b033f72d401d86b7501ed17b302d6bc0f0073aa720052a6bc025f8bd90018a64d03e4461b03787bcf00d404f603c87f4701b07d15010cc69701ce8d2600e418ba03a60471,
  0x3fe20802484c5903f9ccbb028dc08601c3fff00344130303181cf30098280a011d947302422f2800336ed80314ffae007ae7e70205241603a4f0bf0004204102135a77016afd930247956102d4427f002077e500ca0e7501ce952001c1402501bb4e30014840c50064fd7400db4f0400b6e93802332508,
  0x35cf3902a61f2300de29af0351d7e100ae6a070280cfd3010182f502ffa18203a923e103648d5400181082014b29f800260b1703b16356004cd0720094c81e03081ccf01c5299501fea79201c6434f000c293700d9397800880788027ee8bd01d7d6bd0158d6870118667a01d17250031a34a803c30425,
  0x2aa3a801ee37a602a1e919021f2a6e00fd50fc029e248300eae04700fd8ef10333be170138ebba002f74e6007e9f1e004826cf01e0bd330002a0bb02d84e000325744c00184e5902414af202e28bcb000956860342706201d3ade900b9fe6b01adc1c302540b8d0081f6b00358bb4c02b3bb49026313c4,
  0x10594802610bfe00d6552001c7fa29038c71ac00e936b300f791d50176f45f0129827d024a9a070017609d0358231502b02591004d21f201ca70f1012d397900ec50b9034fecb703c9ddc1008c796e000e414100df6cf0035459960102335a03f87cec01dd13cc00c6811f0067fbdd016739170345147a,
  0x25995e030aad6900a39c1a00c8ab3d03b0222e0015c98601ab9581010724ac0154bdd101f76eea003225d00385af3d0088b9d003bb57a00069e3000103f36901dce6f503d4936602dcec1f02e719da0000d68f0045cc9c00accf05022fb18c03ee4cc7005483d102abcc2002e7018f01ebdd4102287767,
  0x1614240093e52101d0dd9d0329b468035160e903c354080302d7cf011e8c07025f57a90242bc75003ba7ed025f76eb0360cb39021ad71e00a922be01ccf44a0004e0e40004ebdf031e6ccd0371e655003617390196387e01c2ea3f00ca4584031b539c0097462b0169ff51026992b9033c1d8302f460ec,
  0x18c94a00f94d9d0308224400e4495a01b31e63033f5d8f0072d5b3029908c2017fcae400b2ecd1001e6a6602892be903d1ed570293733f029505f802b0c7e6025e7db000dcf07d03319b030081fe2b001b71cc03291b1e037654e800cab3ce01e945750039a0f602acdc1a01426aa50356e31c027b4a6c,
  0x14b71b01dee4f5034b10cb01a5be6100bbc3ec027b49e5012ac42801aa6a38005bee4e037ed13200241bc90368cf6600030a0b02185ed1014b1b1e018ecdb3013f986d00026f82021a591500546dc90012a58a02f9090900f2e628004834a901cb14db008c531f0335b83f008dda0c022e089e025164e0,
  0x1f1ab0085242b002473b302caef1d0093c86403c645120153394c01c17dbe01496d790150d778000560aa03d61b8a0141ec5e00535ec601d389d5020129f402634b31016d60060087ca4c017164d60004867d0154af0202b12c8a00bca02e01f0e4bf032219ca019fd0cc007766ee01eda6300276d086,
  0x2ec7f70220370f039a23ae037aa0c502ec302100254342038e550c0323ac8d014485a2032f23f60006a1e702a26cae00b6e16a0377a206019fa6980255d8b702e2b5ca01f96ac002c54c9703e11d700000a66f0209c3ee02597c35027884eb01a4f5b202a79e0802f04361029c4e5703eacb9b02987298,
  0x30116b026ccac6037f0f6c02a0e0d40367ecdc0008821300495d0b019fd84003267602025af0f700255f0802ceda5901d1c11201bc1aea033040e401f789cd034a295e03726530031a17830242d13c002e878503e53ecf03da2240007e0def02e06f3902870ede028104fe02a5f6cc008060c201d6b5eb,
  0x2972f80096c17c00489c6d0069d65e01cd5608025294800303a21c00136df1017666cf0202dc7a003e28d701ab67a602a30787038df7d303c3e68502604eee001aa605016b3fe500fef9d4023dd5d50008ef0c009d2eaf0139f651038d4244016b080100bdd6db00db3f92016240a90381b22003be009a,
  0x2a9025016706f9036986cb0214bcfb00c02561027f0c9a01f7f512025be6f603b22eb002843820002bbacb01f3fbd001d12dbf0292a71c030df7bf01b79739023371a002336b8a0176a5d603498fb4003b586702945a1a02c5d01c008aed8d029e4cd103465769018857a8030114170347e4d10321b929,
  0x377bd103d6d898018c6b090250dab80311588f026242aa022f3b6700a4e36e00b1045d02ae4b6200147d990277f9b103da1f76038e8d9d00f53706032203c302f0898d01334c0a00609deb01c702df00270c92005a7da70317faa2030e68e403b9152b00cf67700072499d02edf3a5010d6f6f01d90c58,
  0x2dece100aca31d0094b62b01e2a4cc011ab69a0000f1250023efb60029ffd7025117990382f2390005156a0362647702e55e5002beaae9025b12df013cfd6f03dd9d4a01bbaf94023cb865007eeb4d003342f4024724b6037fe8c000b0230b037fc7c202d9e99303d342f80082f0080022afb803267086,
  0x324b2502c825f40216528600b7f3880157860e031c68d80084c14e026f6cdf010b028501f5bf64001c0ab7036cba16015bda8a01b5ecb50127e15801d31b40018508ec01c597e3022d594703e80e64001bea7200e2e74201c0d1e9029d006301d3953701254d0203ead90e01eeb02403d4796a0113f8d6,
  0x268b21013a056e0165b5a703658983014bd77602c59d4000c846b201a3d1cf0205e4ed007f1fcc001af65f01ac287501359e270279b38301c0cbf2016f67d1007eb8ff01a09ae7016432a602441810002bae040393687500bace030292f895025706cb02c68e3702235612016d3aa801a05def03561153,
  0x1c8ff9004fc6bc004be39f01868c760184210502c01e6701b86b7901ad5102020867520376d2fd002e9dd802b884ce020acaee02655bc301a9e93f01062277008c9bb8026e485702e7444f000573a4000f3b740032b14902c646af0125d8fe0105d16302ba3ac5003cd2480309aa510052b83003ee2b76,
  0x3478fe01274df301daf80c026d1ad601e7707d0024540f03e1f4590208a28901bb3a48027d5fac0031ef5a01979ebe02042a7103be161803415bb0036d4353026a4c64012389cb02ec3e5b03e497090005592401b448d9002b88f80330905901702fc401dd07dd0368690a02df8eae00a4996c005cc54e,
  0x243aad032fe64d0312f9b8011c6ab400a4771003546a9d014fd09d01bec4130292636400d9288f001602250319a8100371f3f103d0cbdc02dfa6f503ab04250329edb0035fa28103416b5100b577b1003d3e6a039ce73d036fadd703622e150280ea3403a1827b00767f7001ebfb51014e1d35003857a8,
  0x14f7f3033a3aca00685a6f02bc73dd0305e5a2028a61e601cca3180233444001b5ec490351244700372fd60152b2910221c2370183743c02c7252e011fe0e901a6402a03746ee30342627c02ca00cc00062c4a03776883025108a10081aaf1016b9a7301cd74d401610ae30090a720039f063703bb9b78,
  0x20ce8b02859fb50245eabc02abe69100b59b71026b1be40350d90d02e9e95701bc5a830015185c003876470333fd6f0020dfcd0163301c00ec73cd01abee48009803d702472542030f48a203bab1ab0007c1380316e0210063662703c710e00348cada028cb30a02c0ee91012aca9e02505b03010441ef,
  0x29b05b01cab3d50188e1ab01f992fc00f42e42003d0b5a03e3782802b06c57002710ea0237da7b000d426b00648518007448a602252e93033a753500571fe201fa73e202659d9e018b4b0302e806e20002e0b103bac41b0356d07f03f7a67003e3d34a03b857f5036beab501027acc025c4b15026a2d15,
  0x2ea9f001b3e89f014c86f903ff8fa5005b22820158546400c60c9203875c29028d915800c9a685000059990104b01a002031fa011dea0a0240957103328bc1023ae00e02b4b5ef0092046500d78e590016751b03987cbd0362b1cd0276dda90392209c033f8a7d02af02d40392564e037180bc02f7ad64,
  0x3f6deb00604a3803ce189700868a6d00a48776024c051703571fd8038d9b5a03ee715e00426f5d001c930b02a6553200f9b9d10386c743014ecb330136f66800e2f94601b70e8200487289008e775d002e04bb024b0ce5000f7c2f0350ba5c005dea2800578e84003cebdb03aef545022842b602cd8794,
  0x34d91000685894033f00cc038992d900d3c695022904b4020ce730008d2ccf01e31432011748de0021c82103ba8a5002b9b928020bb80903a423f101a5f528038586ba03f51afb0184af09020aa69a0013cee902693f0f02a3689d01c5554503df8fe501fa8de300931e5501df38780179b363009111a6,
  0xee6c2001b761e03d842aa000cb44800b838c201d56c4003c70acd02cbac980196439b0056dd9b0028662d03ae4be401e7b6cf02f93b12007c86b4016d33d000bfa50300bc4f0c02de4ee001e281b6002ca615008615de00548703028325730141fc60006f90180242b5c3035abf4c0348d90101f77160,
  0x5144b0380295002124ed402609ed70185faf0023dd23a0199f6860272c2a001ee2e8002b750790029afc502bebbd603da4e780102f788005ea5d3008127de01166e5c011ecce802f07e4b01ab21d30032dec10392019603959adc02c2f3b903d93966004211c2023108fb0158fd6b008a3fb200b4f49d,
  0x2182a0153f221027357aa0164225502b3c71f00f4c2a7026dde0303c143af02ad478803354a90001a7f59023e098e0312c07f02ee632d01b86ef700e14afc02e4657d01a4fd3b0256f14603c719b7000c18ae0376be170199fc3b0145d57b004392a6021e05ae027f0de1038c87d10200148500f5a182,
  0x319100099e16402bb5a250151802a00d359ef0308919a036fd5b900bf1cca0317788701b3334300311c0b0160846b017151220226a97102a930e000ae8e400125b62400cc995203b8189a012550a300241bae011783f1037582100301647b00ced1a8037f0c07003f559e0251c707033295b9032bfaf4,
  0x21db1c005f22eb03e1c60501fcdb0a003856380021254c0182a1c603f5850f02325cc1031ff47f0006380a03c6a80f01ec935003a4b7b002ea93cb0209579e03d2418103fbc8f50340f552026efd2a001e74280125f35900e0c49c036ff1e5006bf4df008464d601fcb178038dda6203a5d27202f0f8bd,
  0x1f707002bf6bf10061923901755fec00140021003d4b6f03e06b0402029a4001cb4bb800d3ae5a003adab303b256b701003a2501b6d75d0126b9e103d5a48802bf687403fb9d2c03d99d88008840bc0035cf3e038655a703b543600189c5f7036001680250daf6005590400211ef4b00b3ac5203081a79,
  0x2588be033b39da03da0aa10035e53e01a6e7c70081db1800e2b1140013012e01f8d31402b247570000f02e02fcc5d10335777d024ee22500971652001183d302132466004acb3501b479e802d86321001f1a270089317c0393880601e70aac02c161840013c3740234f94203197c530170759902dfa547,
  0x3280e40393634c011d73ea03a384ea03981e5e03d660ef0270015202a1a3a90233f407005af10000122e35036e29b7019861e9014bf9fe00c982000380901800e5783d0317f05b0189a09402cc5aed003ae35302d2d408035b959802faa180028d6b8402a049c00168ef6f00622e7f00253d4202d8f027,
  0x2aa245004f69e4012fa8de03095dbe016a775c00873c0201317f0503dfb38b009bda4202bf158e0024fedd02565eca02991742031d008b0279efef0309fbb5022a9a320367a81e00a8b1bd01fb8851003b9cf50226647a0394cdac0329277702005f3b005b856302175de60181c187005617450357e01d,
  0x200b5902f01bfb016ff6d30088957702a346d501abec0103c1c23f00db022903a98f5802ea1bdb0036541103c96c5c01a7120f0121c11302ee6d5800fad97903ff93ac0282bc73013613d9027c23c100359f6301150353003b179503e375de01f584da020fb74d0090b70f03e7c373036053c701c0b2cf,
  0x10521402a610380166e31300e6cabb026caf6603ee3d4b014c26c401cf941d0332498202ce156f0018b872018b387401b1807801bb10b500c25c3a004deffe03a1ddc7016674ed0156842b00d2ff45003641d50015db0401b24c5702e94938023481e90326b2b500ac9b2e0013e58103ff796b02403277,
  0x2a5cf006ed03f03e4331401b1b769013a2d65017d0d3102e886de007399970209a8930348a925003a70a30275df4d00cd8c60008f3a9c00bdc6a0007d05390258048e01b1882c0220580a025b1e25002fd4970098336203c712c2014faff603244a1403edbc92006222720247083403b8c88d032e2fdb,
  0x23ac2b03ecfd550058204602465fd800f116e0009df87802257e90018522ab025fbbb3006dd2fe0032dfdc0162249703ebfd9c013b32ca0266143e034526e301ea457e00a72db602e66e52018ec3840017876d001ac3bf038871720044ad6c025544db022a6aca001a54280288edea02404b6e007895f2,
  0x2a348b02114019000c86a401a4066f032c1b430086e0d9031c899b02e7a7d802ae8feb02ea0a590013ff300107750f016e4b3703a3c3d803062620010eb20e0084c12203c212b5002ef09200b3d2dd00369a8b00cd8aa402129ecd03ea86460264d58900fa0aa202be031c010423e00373a86401db23dc,
  0x33cc9900798c9102a1bf7000d1ca6a008c721d0087680d000017cb009936830381b3c100e9963a00293a710336d882034510a800eaf2d60126dea103f9935302e8f103021f1b2001207f42003da303002d463700504e3c0131cc650099c27602d217df0231cfde0001f07c03dbd69c037b893700196be2,
  0xe13510376d8df03494a1401796f4801f540e6009917410182c1b40203a80902c116130179bc780027d4bb0297c0b303188633028b9081011199f900f9017f0373d03802d53d8902140f87039384e2000996c200030db70042b12702f1efd902a0149201b9cc73004e998e03e6384601fdc021016cec19,
  0x1daad203c88f290235114b013ca163027fb81a02e698860136a5cc0324ba0c02316164005b37b900118b9b037a0d100112015d010678e6015e010200a04dc9038504d5019b438d00b046d503069abb003fb536035c9c0c02547b75034f34a80144b7d3012da8fc039742f103b54467024521370220e76e,
  0x91d0202f03db502ff7c4b023dda320357adaa03ec421f01c5d0d200f7acdd008fe0780360c191003949f801484bdc03c7a6af00dc922c005ac3cb0207610f0027721503e80b02009ef8460225669700117aba03b198ff00e7108d005db409005dfc9502e00f9900d1fd8b004766f700d46a0a00037c9c,
  0x8817f001f450701692cce01b09e390132cda700854d2402b13e3b00684d15026fd329009d303b00280ef5000f018900d751e901011f5c03a1bb050160f73a0036e37f036e5839010b1378000524a60016386002b4175a02c730cd009adbba0308e7cd03240c1002111039033541190301f02501933750,
  0x14baeb01bd48ef00c0e01d03e3ac7b01456fed021afb3e011b2ce5039ac6d6018c69db030594cf0032e4d40092fdc601e40a37031fa353007e944a036fc0d301278724019c49010345944e012b07c000365bc70135183d010e84cb01b213bf03c1ae230081bf400317f5830300dc1f03d0286c014d86cf,
  0x3187510163f8e803c9f16d002efaec01b726b9011c453e0102d01d01c24e840331b03702b8e3e70013607000900ce301d3956703ab72040199a21e02da295e004c8d02031864ec00bd3a4b005814f40030c3ce0095dbc8010b21eb0328cb4702458aed010f884f034c907800e44a3d0148e4ff0333301d,
  0x12830503fcca6b0041a5f401097f3901f1c5460257481d0014b51d01d9bdbc0126f79003596c3d002eca7000a27fc10084955a025b431f01671ca702f7a5f800f1511601bfce2e03a8ea7b00733afe003add9402d90e1c023439a301d8003e002e37d600dee0ab03e174b5035d9b8702d0de7801471f01,
  0x272c360289c29801680c130387c316024e0cda0090e8e7009ec07500e5aa1e00057f5d01d227fb0003262a025f898002d000b201fe2f5e0251bfcf00a3f72b01526808007a735f011e90aa03a9173f0031f3540247b21603eee4f003c5891401ac19fe00fc5234009a13450138887f03ddc8d003550b1b,
  0x382f3a0395b47e014d7e2303c5b9ed01afa71b02c4d9da00b229ca021fd1e900389e5803c605fc0038caeb02dd5c4c034073a6001498c0004d2e620341623301f02f4203bd4cd9004b33820014f1f8001c3bd501ceddf503be873c03044630014114f80036661e0188b2e7023256d9032dc5e2021d2b40,
  0x271d036f1145024b8f2b032d78f00235becc02f0b56d021a7490016ba22e02de9e6b02b7baf70014b1aa02a1aa6e01ba9b00021595fa00e2724901a7dfb50181f0bc03b094af011fc0eb00590dd900182e9a03687c2c0221413601290e5d0390d3c000eca1ed03e15d5801d640e70378b9130001c271,
  0x287d9701ac9fae03087f1b02a2751b0309c4570302083a03189a9f001931a20161ea46012906db000439d8026f9f480233b1e901f88d45037cdebf00edcae3019e0910024ea674007bac31016365ff00299d0f000b895c016f5e0800d4a00e02e8cb7a0018665b03c195dd0203f7f3033802d3012f8fae,
  0x3c8fea005a254501f3ac16021a5da402bb744f00f094b6027f1af301a9cce0019688580215c3e0000a24b002a9c6140124c8c2014d8f100059d06e0113074800936b7b0360bca1002eaf9d023db4060008bf7402cada3b03761d5e00595028000f5fbb011db45f03a6d0af018cebbf016381dd00003ede,
  0x2efc1901f41505018c3ebe001fbe550329e788004ceb52024841d300ab572000bc46a200cf52c60004c1d301eda73f0247fb480133c7a8017ded6b0065bece01062cd4032d5c8402b86cfd030e40270027263303cb5613031582a0029c206101e3a36102f602a30341d420026fcb7b004a2ae80042dac4,
  0x3e0e7a018455fd0004738d03ab08880136ff87005f347c00092e67037ba8fe03751206003724ba001956f6022d614301e76208022f0a5a02d1a017016c168703b4998f020fc3650067d4b5018b6f90003d244802f330d8016600880015ba8c0230653d022e72ea03a7e28403fb547c03ffdc040106c161,
  0x13aca002f36d9d03cc3cb90272029100d9aba4029d873903bac116002eb5bb00130917011ce259003628d4027910ae024b041f03c5ebb8008f8371000949da00eaef1502b811c802d6575b0228b25b0028f38e037455eb003d9563002873220078b3e7024b3fbd01d3b8b501846ba000f98bbc02969cb2,
  0x2e2e4e03955afc0396f42e039f7ef703769612004bbd67024a35770344e58b038461660097ede6003e6c3d00c10490020c31b3024b1400021391b8016795f20217367100fccfea030d08fa0307a418000d0d3d0390011a034b0e100025d344003151250369af3601892dbc0065be3303f47ff700a3779d,
  0x2d11cb00f136b801b3acc00159ca9f00bb36f403b783980115a10702ee05b602c9715c0334ff9100190ec001abccf30272dd9b00b1373601d4db1100784a2f0261c3f50040f772026c19cd00aca240002ea2600165688800ce545d02b93230017aa8cb029239da033c6ee7004ff4830158f47603233ade,
  0x65fb6014446a10367356603c084e902e1def10188d7e701f22b1200d1b14f03c5c9a9000759d30010994203343ba1022fa32503c6b9c300c3bdf501d2113502b1dfa8029e525103c840ab007b6cfc00007ec903ba923a00075ba400bb73cd0140baf603454c77007c6f10031555ce00074dff0133c464,
  0x3365b501a073980129ceb8023df69603894681000275e302a69dc903ed914a032733c602b19ef000142859038d234800caabec0208d8c70397bd1100147deb0023f3ab002358d8013ab3b1029ec36c00095b890248820100a0eb9300e240d601bcedcb0167bce702c79c4502a49e2702950cc602c06374,
  0x3c00900079be9900d9405b0399b37502e5b7f201c4540a01926b28007b5946038549e70111e24100069bd50344a32801662d54012f2bbf0367a75b0383a68a0325105100355224037b532201135abf0013720e03b4d42b0176b94002604f3001c92bbe023abdd200fdd1df001cd9910177707500b5fb8a,
  0x1e41d90044949d0005eb74009652b601ad5603029dad1601b74df402c1cbfd038978c00200925900358f50029ee800003a3189021cff98004cee200286f840010fe367036dfb61032291db03b6b0d10002290901e0e8b50002b0bd01141a18025145910003fa68017972260147d9030201b6cc01cc46f4,
  0x6e9bd014ace7801a1425c01fb0dc700dc82a8032dd739029e281302e536a4023e1eca03adec800017a097034fddee027ffd3a03a3554e013a02cd027f4145003c320200ab4e4602ef6e330194137200179275021c3e68014f6a3702de4dab022192f103a2276d01a466c4023a4b5b032930be01a6d2ef,
  0x3a11c801acea5001d25737000fe19400048f1f005f959f00a5c49300fa2bc900cd53f202e59cd2000e12aa0102d25602b591790206c26b0388872d0071264f03a015f4026c0d3801de0652006313ef0006bf0b0176321c01f9dc6701d1c636004e8724009a5b680059e83b003102ce002bcbe602201586,
  0x1551ce026dcdfc0141156003a5d2140339499a02e024070315e2a603c462c80259535800ab0e67002c70b201bb31a403288cfd00c216fe00dfddb8000a194c026097b1030ac05c02f27246020cc322000aa2f203bca1c302203ee3021651690366873903083f3d0317e65103e8661502b424e80073f925,
  0x21c6160131793300917fc7006a688302a202e803c46b800241c9bd0116082e0020280502911f1200007a4d0064415d019a12aa03df693501cd6a1001726a44017ea8ce009b12ee0350bc0d004c6c20002b2eac006a165c025b4c6e005d144e01ea1388023c6ee7001021670016efd9016e30ad0255d1c0,
  0x3b9f30031fdc370309965a02565b1400257396010212010203d8d302a0753f01db0f0903125dd7003602ad03cf1a3b031e0980037ce44d02f4872600efb4c5016707b70024edc8002982100385a5c40024d59201369e2603809df30240a3be0388bdc201ccb01801718db903f2a547014e7fc70027a221,
  0x2f56f70391d65600f4027a0382310603ea9f34032a3d9c00c6a1de0234048300fe902a0077f5a40027e9d3005c0952023a239500f0b6550172f9e30254948c00e465f402dc1a7a00a3cb8202bb4f910013a92903127f2903f2fba400125c63010e2dc603e28dfe01b75d12013bfbd101cc09ac00d902f4,
  0x1d2094014daf320163b18103d2a6d702f2736102cc751a00f4ad650189802001aafc68015703cd0016342c01549dd501bd975b03220ff7022e182001d5e10b0348a50903a7e4660031c8e601a677e80003b08b008f76a0000b7f2900ce973e029cce6c031d204c0148f6e000369661017f615c0394b2e4,
  0x3dbf790183ff5200e366fc0101072702e71abe029f5f6802e6e6e302c3b32e01a56d2e0191cfe50011caf00112b2b0013f0ae703a50d5a027e307702550e870279730203268de602e28ff203bdc37b003220a7010610db006c87de02e6f4f90111ffec0221ed62001b754f02c3a7100160434f025ad839,
  0x601810285776601f29a600214b21600b3551a00643c3b005a13f303b62f780191d20500548c4b000447df009a1f4802ef55d201fa6b0c03b6230500b06aba0308cbf803f35d7f02d76bce00a0b0f10003368400d9d14c019482fe0320459200d8c6970030f59702496a5001c9b65602d591b100dab838,
  0x13bde10089bb3b0367e5c701331bc7019134b1007ba77b0106cbd403da97af00670ad50326d65c0036f7f50091615f027a8b89026418780279a51d01e7633d0038d38303c0f09b014828a7027d1e8b000b3ab502eec0c101b1ff2f0141cc9b03d3256c02df357e02d2543b018d51f00327bc420137238d,
  0x35a7ef03bfe45a03768c1600afc95e0338c13c022b375402733985037af94601658b3d0079d4aa002c7d650224969c0054531d011033d10315f7ef02692620034659500074e2740022d524006f179c001af836017e9bd80240fa1f00ef0baa035def8100cb5adb012d74520356e865039a3f0901451b08,
  0x18143a02e60dff0007daa80385230103f5db0f03b6049901ecf96f00d6b9b10270488e02932e2400177472029585a2022eaadf03c1c2e3012832f0025d16e70199925802cec24902530fef000a2784003dcf7e02f120c201daa925018a823d01a9838d012effd602a8422201cdae5e00104c3a033cc7d4,
  0x19dd7601b257d8039458e803c4e90c026bc7ed03f3b8ae025597e40198e0a0003836c201ca5f1e002bfd3202d3630301fb9ed2005b8da90119647402bb0a5d02ad4e1002400ab4012f97c000f2eb7100308c4601c0ac320058498803e0d89500846e7702bbda10007a039700144f5f0359c92b00250571,
  0x30e84302d37ddf0107389903621ec803acc902011c8dd200edc05e023ba9a600451d13031a9a2e003ccf96007d61ea01c2762203bd875800a74a68023a3c2d026a4b870218c7190105820801bd132e0015aab303168f17008c049b0059de6c02a957f402e29acb03111c4803e79104021f4324031e93e6,
  0x15fe6001c695fb0098a966028c13ff033d5ab4008e475503e8d0c10039b8ea000ffe820395f4c1000959e70097684802238c2201950cb1038d6901014f147f001ce64002eef02603579cfd033938770009b5f003fcccd20363e31a03a77397005339e702c1fccf007aa10a02cfc0d80265111003523662,
  0x269bdc00c9bb1800acf80a0287e35c0263ff5d027c60e80016a5fe01476a1d02007b8c0151fd4a000e063203e5d49701e069a50350e8fb02fa9ac802c195de028ebed5036237e603bb15ab026c4cc80002741900d27f7d02bb054303ee9966019eb0770359616d0015acf0025c394c03b2017b0149397b,
  0x3a990d00cfa37d01c09a1a00c95fac009ee20101afcd310170c1df032ddee40122c9c2020de0390029c2c202cb709603dc0eea02081b6e000a5957029fe43d02781da900dd802303ce096e03876db70001398b02075469031d0e860309821003a008e6028a340200b5cf5802a7622f0112174700c849a8,
  0xfbd1e03e2664f004d569402b20ac002551329036fd4b1004696e2013c784d027ee9ec0071b5d00010fa27020857f300e9589f009957b503a12cd6003aab9e01db5a82004e8d7a00b5e68a038c290700222642004ab8a002efa7cf038cc574032d899f01c44215023976ea02a2e0e5037aaf52022d9db6,
  0x1c22590072254e00d8e493027f67bf036c722c00183e2801828bd2007578fe01a015e20397c9eb0009dd33030fbdc000c31e6600b36ba702b7f4ab01872d1a0042282f02b059cf02f702810231599500201d5600d0b0b201244a3c02beab3400cd92b50351bb4c02280f6401b2fa78015609b00233fd50,
  0x2edc5a002ccd4f028cde54014cf705013f61c3014fe001029452db00426ad1009b04da03dabf1a000aefcf00990c69010c87c30286bb2703b536fa010d24d803ad609600eee9dd005d61d503395cd20021a05902cd07dd0127cce001d268eb035f0d4001cec8e4031549e2013856a600f8db6700c774cb,
  0x3a49a02dcd41001789b0d02eead1a0248418201e43b5d023e4f8803381c2802aee89301ba79e4003a6cc2031efe2b031e309f02ac4ffa03fc9b1103d7bebf01c0aa8d02106d6c0036f1a303b6afe7001b558101b3509200f778e2011e066701bbae41007c361403e85b56006554090364415b03590e13,
  0x2f9e7f0007d75001045939014a07e901e968cc007cae5c00ee706503cf73b800b4bdfe028aae56000e22a400bcb462017889bf03492eea0046fc26023ecd92031ca76100ac2fd2022e01160049428d003726d101378fcf0208e1f00397d73b00396ee202a4855800333c7c02fbd14e039170cc01fe5db8,
  0x7c9fe014c14af00d45f6902ccadc400df142c01574fe6039442db01ab719403d9ffef014b6cfd001309f801461f4503166877023809e1024c97ee010d0e1b02a6e1b30080b9c000d4ecdf031e8d68000ec2c7008819d101ba998d03902f8e032b723503cf09fd017816f6023924c900ddf96b0207d32b,
  0x2e2128021ef6c700c9c396009bb0660217dc9b024f1b8703ca355b0309e79301a18415024af725000f3f060229d89202a34cf30103701e008675bb039bf0b90168626c03a00b2d008bec760219065f0038584d00b4152402666b270316941d011f05740081f98803aa284d010daef2015fb58902f9d767,
  0x3262280164df470129c2b3003c9725023e952c02c35f11014bec7c0223977b021dce5f0391fd160010fe5c004f258a007ebc780163629d03649e8d0105c20e0308e12b00bd623800225a88008715190037560003f1ec3100b5e9f902d693d00282e2fb01cea7250086ad1f01dadfea004d468901ca4536,
  0x3ec1f00243f0f03e90c23009668e500d49e39032b376a01bbd3df03b3e87a03c024810307dee100340c6c03c9b49401ded2c1039ab29100851028038fdbc4035af632024c3c5601cd58b20207f3040003989c03c42c2a007933f500e9fe430008b7ba00e993ee0103707402bd6922035fddf1017e7a1b,
  0x2496b8009add3100a6fe8401cf3a3b02f99e160146560b011ad51f0168dcf50136164b01de112a0018e74500f5f39101c1b40f017c68850130669d03ce1a4c03c63759010240380249561e00622c72000ecc83009ff67300488771032360cb029e47ce023aafd303508f030177365202b0af8e02484765,
  0xe9c82038f791b0228a32603a60c850176681a0266be46030b84c3031bcaff011ac7f502d44f75001bb76602a6bf2903bf688f01029b29038e178f03af97fd00aeeb700231d3310106e167000f30fd001ad11700e3af6a00080823011b9987024a6450011271930144b60e00206417032b632701c4006b,
  0x36e38600490c4501e1356a00107ceb0079653a0241895c01981e4a00c7773e03bdc9fe0285151d0021408a02321e58016ae49000952214032451dc018b0d0202bb832d020479cf036a828203ef9fa90001f09c025b109e03fbcae101e8871b0008e10d007b41c9038e519f0019edff02e7fbc103ec0612,
  0x30c7c800252550022d705702ab5c34027a082b0198d72401aecf4801335b1f02f05e11027d3aea001d150e0376f22b01b0c51901c3c61600faa4e1039643180021d46e032822a7021e3e1900705386000bc2a5039f3df1025809f400b5cc9902e6f1050189a30d026dc68c0140218301e887cd01da6ec5,
  0x2d1eeb03c7f179038753b101e2ee3f02bf28540282a35103c1955100f5af47028e79c20324d81d00261de30392ed03028e3291033bed4b004d17ce02940bbb02e1781102009a8e002f70fe033b252e003d4e1f013841d20036e7ea02713c8901a8bc4002a2c36c01900c45037319f303252e6c02a4d5fe,
  0x271bb5015d232a03abeb9700847a49039d646001ddb45302a3165f02f85dfd0278451002761e2600323b6c015edb8a005ed715033615f102195104022ce9680157c9230121c05601e9c4600381dd46001254cf0144268d0061577403cbfaae0174ef5002715bf6039cf05e032e502c003cfa36019bde92,
  0x32da620194e8ec01aa9f0301f5a4d700b8050f01a39c47017dab8c002d2b0e017cf74c00bceaf20009878302b2916b03d7fb2f012d77bd030242af0284817c014c09ec0344600600acad1302676c42000535f402e914b603dee35002499b5f03b182f001a3ee3a000eb315018cc38400c4407a007e875b,
  0x2db5b703cb4b98031968020223778303888ac003d4b9a1015570ab03cf21f10158dc8002f91a8a000426d801e327850107640a01eefe2a0209c8ce01305af703008ce302e3340400e8c5100022fd6e0020a819023962fb0147db91001828b400959e8c02acee5a03dedaba03d4751c0296045a00a5cae9,
  0x32ffad0041d15600a2ccb80352a70b01a9a12003256655028d263b03d0fb220156fbd6034b35a90016724303575cd203ee825201cd6987012b71ab026db92401962d50028130f002e7466303243cb2002e0a1900684e8c00ef7dd402d7e6c8023722c3001a280700a850f00129ca0703df9a1b028c15f1,
  0x37369802e7cd64020d637600f252ef01adde6b0300f1ea000b187f01537e99013ed9600332aca1001f629a01b3709a00136a31039c5aa7024cf9ba02c3fe2a01b103fe02d6cb6903063b2702b4f7240028da2300ff9ec602cc1b8c02753f5801fff54900be3e700031fe8900088cd502e53d2e0078539d,
  0x388465005a5b9b03f4739e03d8774701fd3617015a6d6d0036cc8500afd39b007b33b0019b0862002c0333035c376c02c16ec701a32bfc02adc4ff02769c3b03d5475c001de18601a26e2200cc1148000bc1b400f9fbe00160afc003e2b4ff0032b40501cfcd24036e4f99006cebea00f082e6020a9540,
  0xf9a0e00f18fe40342c3cc007f1ec1009cc59b030b32b0016be7e7000a85f1025900db03a0b4df001891c6018914cc0144994c03bc70fd01d7f2d3019e7ec400fb6bf40369f21b012c2ad601f3d33800346fa50041049b0006079d0223263e0119486403fdefc500513dec037a2d5c01b62ce700d78de9,
  0x2fd7920356390401999ceb021a2b6001d88aa3001ed0ea02fda21f024c16b300e6ee29029b6ee2001041e903c049c001c650530352488d0093a82d038eedfe022adb2d00addba2035021b40061be84000708420167f32401c298b3016e0b2a03fb467a026d9ba0033bf48c003f37130287b75c017bd95e,
  0x27c1ff029fdfef0397764103cc6388007d442b0044eb2202a164c202cd190702187db2037bf3c8002766bc014143b4022a45d002697981001627c1038b334002e2b1520123970501191743026f8c17002bbc1d0208894a02ea860c031af927024b408a02bad0e500ec42fd000c14570254ea6803eb150e,
  0x1b99d003025c3e0373a0090242f07b02a2ba22027bf47c00e45dce008d3ce1021d23be03ff0e01000eb915034952af015a0da900d89abd017b3d5a01f3729a024fce3e031d6eb101a96afe02b174d80000e0d200449c63028385aa038764fb0211b32e0162e1d800565b2201bd870002e6cf240232bfae,
  0x33e508019084060333e1a2036af7af0053bb94000a61d9014c4b1e01b677c600a94c6b02b43620003fdcce035a00b801e0b6fa02c6a18f00a5edd101e9e4fc0163c42c020e006403d11bed0218ad1d003c17a603a80bb600893553010f3f32034e5dec028f52e202599ff902eafa4501575b6003348808,
  0x29c9fa02170c200272ecab02575425006e0a75036a492f011174bc0324854a0259702401f7230f00275102011d782200c3dfe60265897103cc7a3c00ca2fa301617a8d02f02a1a02b850b9029f4131003c79b4019ea0b100cf3b1c03a975ae0092f65b0329a589008338fc020b728500a258620108b9b4,
  0x27d7b20083bf0a0302c3f7021a67f103941b0203e87b4903d59bd9001963b500aec3a602fba052001f067c002dcb5b03780753025f24ce017d7c7101ba1a8000906a1701fb58a50213b9de006e7c7c0012237b0075e7aa00acb59a03a7eef90246244802f033780068cbbb0186a13b03257982004fc48b,
  0x38de9f0213d44d018a28a10316521d0048f5e000824f8d00326d9103a5c9aa038d29b100623c310030d92d02eb55ca0126a89f026b59e100aeee04003463b4008d076202f445ab034ee236037e4582001c2f84006325b101a1073903725e8d02850d6502fad4c70337604d010b14bb0399e63901e1999c,
  0x3194e802e472b10007506f0232879701078acd0109479e012b261502079150001661a00145e1ea001a832b00ad94d101bf293d0008a6ee01d5745b02456100019c7b43023066cd03720c8c021e7dd20015e95300c78378006236ee015094bf01ece83203734a7f03bf5c72006c624a0123791d0043b388,
  0x9205702adfa5d00e494e500c746df020bd4fc02a9e2ec0336d5f8017326d5011b5348000ed9c6000bd21d029cc3fb00e7be6001517f930051288a03a4cccd022a3bcb03d81b54023e2afc0179ce9c00029f1802bcd2f90152ac7d0358904c03182c16018d36e1034692190291e088009aca6301fc627a,
  0x1f88602024ed202147b44012ff39200b895f2007bb52702f8d13a037ce61e035aad11025c4bd80026e30c0321ac3e034efc5c03d8d08f00ff451f021467ab03f6a1520226dfae0341e99002319ada00070d51031da45c0142a6b9023da7e60160b3e0019e153c03c83ccd02bd9e2b01ceff0802b4a050,
  0x3a34f301451cae029db7b8000eef3c019c083c02681b1c02fc288b03a3b32b006a05f90362581300387ee10081db4902441a3103e91f3f035e809f00742bb90227693f0063a04303c42acb01df85cb00186e7b03a96823036c480f01a505c103d98c0e00cfa835020d7c7b0206ba8100d11f4102fb1826,
  0x1aadf5035fc889035f870900a2b86a0113ea02031a8ab400570e1902d2bcce01ab890103711e7b0031e535034ddd330313c742038b039e0075afde003b2d1503ee70510000811d02650161003c59dc00008f9d00258b6603fef9090225c26b013008a802fe59ea03f927990055aa8d02119ede01a4a3b7,
  0x3881880316c89301223e0a0359ff89031ec3a603cf79ab009da0a401c831db0253181f030c25af001573b300fa0b2201e6ec280381f06f03d5006f01953bbd029e20e601826a51023c20400320af5d001f3e8002c456e20107cbbc0279c64f0383a11f01ef8475039f657d01b692320127f6b5020b71ec,
  0x19ecd00aab83b0017383c03b9757103ed03ad012a7bc700f3481e014476ce02cea061013999e200192d3a01db075e023d7ce0027c2c05018bfa8f00c86c7800a6f4fe01e487ea01bc72b30100b84c000e25f901792ab201c544c8016e2876010216cd01c3ed17026ef00d00f752cf0370653903880ddd,
  0x6c16f01070fe401ae9aaf004fccb10058bb2102d1f0d50051409300ea62b101b61979024dd58e003176ee019ea27a0198fa4601beb44902a902ec0017849a01a7291c0288494f014ca680020c9f96000d9dff0128380a03be886d03ddfdf30300be9a02cb41b103d6621603a9b0720384fdca023e660c,
  0x28d3e703cae981008992a601e30fee000c25f6023dc5450389eaa202b8a7ea0139ee720280f0e0001c9d4a00a9bb0f008c31cb00cf4920008bff0102355fe6004261a001f1592003cf9bce0130c19c0026d53500eeece40213300f022cf8c40064ce8f0295b4ac008f432c017797a80267100803662e82,
  0x2a25ee03e24022017394670399c21601da567602e25a5d007f8c2b0269006201a6edf50222334a002903f60074f06e03eeb1e20064446e0328871f007ea8db0342bb1503a808ca01ed1d40032e8ba8003196470140a1930024673a034f6311019ae00c036fc4dd01b4db9c021eb5070166ea7602907d51,
  0x8f31d03e295300389433600268ba30375d3a403dfa02d0104c578016f384d01455b7a03730d8700347b3403a1b2db01b714ba01189d0400e26a0b003bc4f200ba804600e584b60399da360027580c00071a1802110c0c0242d54d00dd8208038077b3000e561802453e0503e9454b0346f5160284eb57,
  0x3bc24602b4a99302009163035e418b02aaea540149779a00ca954f01f5631a00f85e7603188df8002d42e801a6cff102103b080179475e01e2d261030d6ac0039bb4e701c05243027ce50503f972cd0030addf02226b70014d06b1022cd2940012124403309c8c0355b953010d45bd00d56e2d00ca5306,
  0x345c6f0361ec1c0216381a00596374019e8f7003e40fee023d0ed10354cec103abe3ff0250ab13000b42c300b5dc620078197a03720ede00a1da7d034d0275028db8df0119aef001e4f2c403450d1a002f92e601b7caeb008b083400018f2801bd90580228295f00db22f803685dc800e309e3014635c1,
  0xea9f600485bd601249f00006783e603bd074d000236c00291cf190368d69400e06733009276d3001f088b010fa45200fe4147015d2a85032a8e640243b4f7025d048f01255b32002cdcae01dd25d7001938ca01ec5e730034238e0288d7e80114a78801bb2e4b01eed04e00d7895a0058f7ec01a73614,
  0x3ed23900859358039066c4038e46630354216c03ec6687002770f70135fd73026608160075bf66003278b001317a2801ec242b03b680b5023ea73903b10030025537a300d9b7920058e6e7005504dc001f366c031029b4021e8396005039c802e30e810348848402af6a3b03e62073037c08a703610ee8,
  0x2b86c03e64aa401b370d500578c89014d6f1902c7ae9402d8539801a08cc30157971e00e4deb4003c530b0335350d027f9ac7019eb83502dd6baa03ab34610009425a00ef6ebf01565f1501626dad0019f6510126f5cc0097f730024cee4a0049c22803b72f7402c6a12101a2b4630002a1a403458e55,
  0x3b75ca0216f029004fdc3b0066ee1901ec4009023d029502e2a48c012e921a01f1dea80061c745000ecfce017b6a3a00a472dd03dc598c01914bbf032010190204a2a400b660b002b6de0301f531dc001ab5a0015a51eb00eece5f02cd05b2033f164e02f1de8e0139455700d9222f002d284f03317f20,
  0x10f0af02dfdf23018a469e027d917b01030fa500ff2a9e03d76f2b034cb03e02bf974f0145ddff00244adf03d7c11102957f2903c33211033bc1ba01bafce401ef2cc400b97476005bbcd10178bf6c0003935002a3df53018436050065eb3101dbeeeb012b54fe01bf4ea101ef7f3102c1193e015241d6,
  0xd39e4025f9a2002dbd20b009601d202b1f438022ee1f7014d90b102acab95008c189a03ae748e0005760001bdbc6c02dd50b2001fd78400e56e4603487daa01803c5700ce1d5c036c9f69020d9ea9000521cd01ab8fc201e9ec32002686b902b7352e03d053cd032b426a01933dd003ea2b91030bc5d1,
  0x34f43b03bae264029ccc900134e6de023b56bc02d929570033de0400c35b17005ce428003fc06500317fc9024530a501f02a04023b4e7703b4d0940264553c01701c0e02cf7c9500229fcf023848e20015053c01051f3202b024560157d54300aa810802a9951e02e6139f0166ea7d00c9a58d03baeb36,
  0x3ac3c101ceb7320175380b0098349b038bf15b009c914200d23b6b03fad8c101bd078b018db8bf0021a11e007688b900ebdc3103735b2c02b63cf102a6312c03bde748026058860327e28d03f1b51a002d30cc03ab34e802b85ae70131ce0b013cccaa036545b9026afc0802abfee303e65a07011326bb,
  0xacc430202558f018cbd5a0171f33f034f2187006af314033ebb72023cb5d303099ffc02280e89003d9ee800d71aae017378220143b467011c941a02b3563702424369032d6ea00164a8fc00ec6e0b0035edf4035e783d0118f93700a4e0b202f999100267c62c0154e2b2021a07760163dd6701e1f55b,
  0x2a7f87019bec75023f2131009b84570219525501ad2b92022dd68a0028a52403551d8601908ecd002f3597022152570072ed73022863a300c1ba4202ff9076034edf9302935e4700d7149e02db457f00099f3301f02dee0375bdc2007a6f3202be25c002b09b3d036134cb0245d1d10139f7d901918027,
  0x23c0f201bc00130084dd2303527a55004addee01febecd003663ba017d78e1025ab218007b05f50001e96a023cb2f100f5bb3a001462eb023b124b0274a85f01ef352901f397f503f3486100e13eba0001947a0159f67701e404e302a148c103fa178803c184ef035b528f03bf57d103b7b16202e9efd8,
  0x2df37803d447480088163900e6b99b00692032039eae1f0033f35b0113749501f56bbc00d9afd000045aba00a6c8e10370fb9e0058006a038d4c5c0302ad4a00da06640110e3fa008f681a027fe12c0010261a01a076b8012c0f2a02cc33c60249041e0323879f02b4bdc90274fca40007730101ddc53e,
  0xa6fe502952bf203e0720802762a0e036c068801effc4a01d49f9501a8534f03c1d2d8033590cb001d01490365d57502d7fd460176751d0242a0090380c5da01ff0a67038defb40309f88200d75c11001c565e0303edaf02577eb002879f4e01462f5802079df10308644500fd179c00e0516a0125171e,
  0x13e88f022b102902ddd2ce004383af038dc81402972a1a011f2e4801721f6e03a3529503d45ecd002e225400fab5d701d13aff00bd617c032e6fd203dea698007204cf0295f966003e645c01799332000cab2502d713970053e7f1017f456002c4d623013366d1023a793700466a9503d24f4a01c2f55e,
  0x3c908003f07cd703dc740600d197d2018c55f002aad9c200d6b16401e6b41701e7d956033672de0011b1a703b108fa037451da01765b8203c03b210285645b01e127f101a96fd2030e612603f5b36c000fae2f02d9fd89009d53a80300c474027ad0160089e9dd015d0132013e13f00106a0a401305326,
  0x3e09f601f20424014d78ee007d3fe2017ae04c013a3488020958b90026ebef00b761eb0356c43d0020139300199044021c0ddb014fc6e002c5cfaf02c8072b037ccef30014228101f6f78b03f02e07003e324f02c9789d03c949f3019b4a1d0081a120036863b203f88ca001e686590055ed150354d8e7,
  0x3a7d7901e53f9f01639cba030a306d0314bf9c036e0eb603cd4ef2039aeb5801900c920208e68c0039162d01b629590335c44b020ac142015242c502984be003cb3b730037df28010ec9710222e308001bf7a200f531ee038f7bc601f5e74a01ae359903df4c4b00353ec502f79f2f021abfce02db4134,
  0x18ab320336fb5f01cc20b50370589b012ac96d01a2075f02e1360101cf7a0f005d42230287073e0028aaff022768b6032ca1ee03b715b2024aa336022c8a3303cf44ec02d19d65012a4a9102af6e80002de4b403f1834b0132b509009b14bd03731c0c01362ba0023a665c03b362b802d9fd620125874a,
  0x23e1cd0066e5c000f371b70374ea4f018d7223013a29d4021a37260148ee320076397f02b6e4cc003a9922039d32d00216fb8f0046b30a00b4e14e039133b7021758e600b67a8802c70b90031d48d8003dc7e40219d86b0197c75a02d7edf200194f7d0109a81b03dc08ed00930c7403443c180327c849,
  0x307af202e509a00062a48600febca3001b0f42035a18ba00efc54203e31fd7001edaf2001fdea100332d4501c9aa3d023b472301e353a101eade19036822ee0371a247039c5278034eb2ed006ce5cc003a558f02e9bbd002e2431a02aa1d4f000a563101c5deb200ddb8e70367997901f62ec90230c800,
  0x16f4c20249171302c85dc20296591e017bf014025484660079ba65037e950902ec44f7026be1300022fb20014b65d00017e2ff00750a8002e95a3d00689a7b011b47cb00255037032c867002b27023001c1ec8007f160e03c0fe5302be3191037b37c0001806d801807f65037c42140355704801035ac0,
  0x1c424012cf05003e6981900b721df017ec05902c664eb038b94a70392b51f02742c9a023523160034f4790052d93d01c8743601c44ecf031812ae02311ed702c8d52e00b2131b03e047d5022779a1002147ed008d493e00bb7fef01db0a3001f8a994032c1b10030c110103f561bf02ecf01d01ea4d2a,
  0x7f87902e10d3a00348ba4016660af01744a9b032ba30402c084c602892d55039fb6f203ec3da8000d82bc02d77ced0399618f0081947903aeb0dc00e1ed370231e005038f3bf4018e42380356d262002d131300e1aa9a00a9d08001d4840702619e9103d4391803517738029303e50241331c01e36fa7,
  0x32ec66018563410179cbc301b1215803ceab9000b5b8b403f2317000074448017c64410251b9760036a3b6028ab963010efc120182ac9403243ebd005a2e6600ab49a002371821021fd1a9024daa91003ec4ed037e3bd70240fa62017951ab028a220601c97903029b3d7003d4557c0152ef7901d0ca09,
  0x3a090300ac1c02034143c700dd1bf103fbdaa502602c7c006ffed0025eecaf026bdf9201d2d2d800271c550066b783014dc3e10212435303484a000099b39c018fa1a40209624002e9f56903788ade001ba25f033cf6ca0186b91601727650007922b5029831ac03d926b10034421c012adb6701346381,
  0x2e53b000ba5180012c4dac02c8cbcd00e7b6c0001ca0d803dd6060027232810235913f02dee40300012b1c0399f56500e0c98b01669182006ece3301ffa9e003573f33026c2dd503a450e203d7f8040036b5c701458b6a0326e1620061cb61012f4f150377ee5e03373a6602eb304a018a973302404114,
  0xa40b0002d43270022501603cfd58d00d1ef1b02ecd3610364cb250037f15c00e4f7ef029552dc00182def033e87c902b5a9f80393e0bb03a5b8d802afbf0a00c8ef73031138330310798402a9293a0036badf023a7c7001455c7e015ae594031cb1ec03777c2502a25c0f0029df6a00f12ae500475f86,
  0xea9010238519a021b522d017af67602d46fe401742df00106556702b63acc039da742005764870016fbac03adc3f40107daa103a9257e0083094800848de2029d987c01b5e99d0393574b016b5fb7001c0e2402cd284f0163023800472fe802ed6b180198a94e01f0f7de03488afd02215cbb03e12487,
  0x12a66303096cec0347c219039f856a01336d000085050803bb5f6300997b6f0206e8ce00a338af00012dbf00a553720340f74901fbf0f70282720b03f098a1000e6367010b546e001f6c7c010aed7e0004f66d03d0ba05005b6c030267c2aa03343e2002a01bf700e3f748022126fd03d475cd03c5d8c9,
  0xebcd02f98e0d022e6e250037db1e02adde1d02b8f72f023d6c6502d1cfc402d87a7a00219581000b214103a3a3ff013c249d03a0ded603658ba4035ea534018e837403ca630a01d07a08007b4cb9002cf8c1021e9e2602ca9a37022c1b3c031cb4470023059803488f4d038436b9021b1e5a02de6530,
  0x30105e03b1fc4101e6715501f826e502e50f3502040e0a008ee74e03c3078101d560e40333b87c001901bf00e2fc430253146100405d15009775980359122c0068c126014483e600c1012d0342804400163a3c03281d320032018002238bdb02e4d7e501a189fc00e0a94d01f7258900a6b5540001341d,
  0x3c96f0002fc10600c9b1150183baf902da4ee8005bdcd303f064930035ee330351daac00e999d1002a36ce0150681802cee85e00f4940a014a8834005c54d90358c58701f5fb59013a2f1e007f5fb0003a216603083ab201c01d5901f67b0c009ff58901cd6718017c992901507b2803402b6b027aff55,
  0x28fb5903339f870257519600a49e7a03f19443035a3bc402031b8800d5a54a033a956201d8890600155e260341724501452d1a00bdea5700465d1f0248c230033be38c0309c94302c1b67a026f4fb70027557501d2e50601f54212036b6e98019091eb03a9b10d01dbe8f800d38bc603b78c45007925be,
  0x24c31e03821fbc03f5bb8601a894e70141e06f036355aa018175ec01eef14d03d03065036b994a003551860007a269032da86e006a6b2c0103aa7603f3844e0359e306019ef97403202ec203b6890800250e1f026b0f17032c6b6900a386680116faa100f3f08b00323715018e0bee01c36f5b02aeffc3,
  0x1756f0053249701843f7203638efb02c6b013022b4d23031c2db90155e9f80027a2dd00176a0e0021b20d00c227fb003576fa02377d2f0316a0ce007a4b8500e8e382009aac3302e3b5a0000855470032551e03762657038e5f9f02b1c85d0275210f02f2d8110271f135017e06ae02692f550132e405,
  0x2cc6b601bd120c0076be2a0300dce70038ccd903f255b9028809a503ddae27013681d502bea18e0023909d03739a08020e16fa0174945402a96b620233f0ba01869a2603d36c0e01c199f6002cb64f0033646f00e8055f0306719500d12d3c0189aded036a86c20177f2cf0076118802ab9c7502743485,
  0x204e2301a70b6d02f79eac02d7311a00494e9f015482a10294f79d0111020c020bc68c02481ca30037d2c5003176fa034fe151003beadd01b0485003fd4874034b1da401c06c2202981c6a02624f930015d9c10154fa0a0263844002135fec02d7ca1401cf3aa503edfc4402ef8e20037d7a6f00eadb2d,
  0x1441f3032dd12f01dcf85c02cd3b99029b0a6e0302e1cd02e75e1a0024016101a7ff570054f8a6001d16dd02ddd4ae03ffe1b0035599ae023c16a3002eb40f00e1af3d0384dcb0016033980071df48000c795801b6f37803adcc3d0032a7e703f78e99038b320d03ac4170036af88d02cc897b020dacf1,
  0x70eec00a4282301bfceeb0175731a026b456e01574b9d01ab274e02abad4c0156f8ca00029917003cb93500179f8603bc41ba0128c94f015feb2402f2cef301a495f40056a80800580fe7026b2208001ee7f50398f2690112ac040326ff0301904a2c01f6fa23033ddd100008f3a803d916ff0305f4a3,
  0x84cdf00c3888202012840004264d901578fbe00a7933b00049665005197ce007b61c6032e6cee003362f0014483ce00240dee004d77980162cc0f00acea260330b1010239c8df006fdff6038819b10005eeba0102b24f03b222180386ad5e00012be302124886008198bb038b268c020c866101ba5b1d,
  0x33cf110217b165028c2bfb018a76d101a74ca7008d692501d1201e022934800165533701eff4000030ec1301b5f75b033b2f8a036f8191016706f7017e0410026605a9000b1a3f0298abf600735baa00375d13011678e9018e4f4202d784910103f1bf014740c9008f28b302f245ba0228499e00980f0d,
  0x2def6002e25adb03187b8001d232e103585a69012f393701f585cf037eda130288ba62014164c800062e1102ed7b3300aa7eda022d119a0100e94a0096744b02367c6b02e1e4bc0226c84300fcca430019a345001dfa1402b9631801b7bdf20282014e00e7630f034e664a0227596c03dbde08037b19e7,
  0x16adf502e31cef03aee2c600975f9201b2d3c5036f8b580167156a00fdf76400c6d13b03563af00006f68a0043672c011097f20068f63d03e568b102d9654c017a9a2503a9b4720363b266036374b70013643802b3284e03552af101556354009d4dc1014e13cc0034d704032756a5037b0cec011de300,
  0x1c77650310f21c03414cdf024cd91c00b6dc5801dcadba0327ba03011e512702fdf697033cd001003cc35d02294e1c0362d84403752028035eb13500f762340303307a025450be033484ad01018af90003fce703b74dac0282084b03baa9f800d8add90255caa2023094150233a59a01b99ce700e6ffcf,
  0x10bcaf013ef2ee03f964010358743401bbe87c03ac4cc802235b29019851a502c07570007e27930037856803918b8c01c7467d0384c897032dc2bc0020167703cc060e039bc653027d524901f07524002c3cb00231b7a801618ae90368c1170042ba46006a2b21036c252e0347261f0065c2ea03512006,
  0x3c0d6801e5c62d02d47c0a023014d600ab522e010843af03ac5ab701c73c1b03777faf007846c3001443f200b7f94d00cb552a00c9b38f020b0c4e00c828560397724e003685b9002b025d0124389100398cc602463432022afe35013072d200084621001dadd601aee276013c07d5000348a90339f516,
  0x16548f010986b8035150e0024b22ed03075bea030f8eec01d5ce3c0220eba900ae821500c4bd3500365e3800cb03b00285c7ee029e7c5402dc63a600afca4000226dfd01a6da4101be673e0174ec01003b6725028a72af02aaa53802cd2a8303add51e00b0ca030077d0450247255001204d4b03a3da75]

/-- secp256k1.go:10, serialized bytes 829440 to 860159. -/
def tableRow27 : List Nat := [
  0x0,
  0x12f800b382db0282b88300c59975002ce59b03cb4bb400d6cbc90304302801d24184034ac808002df21f03693bc8023123fe02aa55dc0188e85902caab9501ca40be035c83fb007593b20364e275000059f4015eea0103283780038fc059006f977703f991cf0186855a00649f680388da89000c8efd,
  0x36e4d000311c93021eae850144104402bf906c02b8458303595a6d00a47ae5022bd67100563524002e99e30088e2760112f72f00a350f600d7e4b00284eab901bd1ac8024c499503ea182502de987c0028427d00df7e46002e99ad02dd564e02866d3e035fcf9d02c0643301e2033200e291dd0274ca6e,
  0xe48710128825b02a0c92501f7813903dfea78015f07ae028cd8360252449b009cd2fc02ef6a5f0011afff02ea25a102f3c34401de58c203b3d21402b58a30000873ce012d44fd017f506a021480e3003c46c7008b119c032b0b40015d356701cc17f000b869eb00e57d87025e15520388086b022bd100,
  0xfcebf000c586d0169217400a2383b0145c8b700896ccc0216e84201be2607025752b20074c6b300101de400669a5e000e2cde02b7988403fadcbe039762ca029ca23c01ba66b700cc3e3d03d9787c0004a6a600f60d310064c5930015a746014c69530283a19a0218e985026d81e70237ee9b03946d33,
  0x1b888403ee5ef70078d742027c6a7b003ec56103518368003b1bc600aefd31038cfa7a02dcd2a1000e7b1c03a60d9e02826af902a1e85403239c6801b6c929024ef5e700f0dfe7025a6aa903c2b43b0030877e02bd8dc701ffb99b0353139101750ccb0307332f01a1794a00a6502903460a97005a20e6,
  0x3bb64e0135b42e01aa4fe203e42e4e039c68c603cb8f8702e1c4bb000e009f0203df0902c94a91001d416303452a760243502400ff2d9d00fcbf8301f792f9037b760f017486e0017e616b033768af003e2d0602dbfc4600f2e385014615b001a67993035bddbe00264340002b0760012fd7a003ef9bd7,
  0x3bc1db004edb05008ddc59011ac7a303452f9103c5f4d000b6839d02eb68d102904daa0209f23400350d5503d7245e032fc28f00a3e15100f891be00846436021d99b5032a46e9025ab8220215b70b003ff7a500d6a75a00cb6bca034a395501a91c5e03be26c001c7c9bc02bd62c7025263800078bb6e,
  0x2df60700be714303164d5e005513be03289b51012bd82001d106ae017cdb130065fb0b011fdbb200201a8f0289e7a401c5499800468d8b0276cd3f022b54c400badf44020e3e6502df9bd8010f46aa00163df502a9829c011b12fd0027f465018adc3102056ed702fd33eb03cca03203243a8400cf0579,
  0x8c42e007cd486020c19120296f2a702934d20006404ae03f3e93b01bc28dd0148be80005f35910000715d00f96cae0378649002af9c9600dc4ba2004ada810292451a008cc41803b9343c03c5d50a00288d33012862e301ff915f0102432601b0708000bf047b023b6fc402fe5101038fc3b2034529c6,
  0x148af002ca4a4701bd697e0324af540358cf4b03bb574c01d7d6e9036c0b7f03d6ba720323119c0028348b02d3611503c2c74c0116e768034b129402bcbec303d5bdbe005e2a1f0192c2f10070d60200079caa01b2f0150283211c0357407f03850c5b002d86b201c60a3202813a8800e92cba005bdac0,
  0x2873b0046cb2000731c9501c57ef3001a3623029ad54a003dc43402b4e4d002232139038aaa01003742de011d1ec201ba2a8c030b4b17010fc0d300c8929e02df7c1100d991af035f62f402ff8c530020484d000afb17027d4ade01ec760d03e004600270628a0269bd2703e8b0b401c0cfaf00afc5c3,
  0xc75db00de336f035690d20382c08503f47764037e4c6c0027d0c0012228eb023492c703f86eb4001bce8900cf38cc013df9c20060504102d7940401a904ce032fea5302baaa2501db928303c62c28001f600e03fea8ca02a77047014e4bd301404977023ac9e6039060b801fcf5250084c4ed02472103,
  0x3e885d0282e354021fa334005bc5d9015300ca00c6772d00d9509d01678ac90004f7da0001910b0024e9b500ffa8fd000834070353b38603202cbf00fbcd1b00064ae400232219023ac5cf0390f666003168f100c8d1c402182d9303316070032194b0013b703601e501ce038af4f101af593d015616d6,
  0x386210012e5d2601cffb9c01f2b9290142db7c03bdefcc0061bba2026e580b01e6511303fa7db4000f33d90397a5f403950a0b02a89d25032e09c403e82ff1034eca8303062760007a550d00e62878001b94fd003d1a4701847d6d03f9f2d000111efd00286a1303d18c5c022bccf802f8d2f10255bec5,
  0x38466a0324c30000d6735800b66b2403041c6b03c4a8d901cf0093023d525800adfea502a14ee6003a263203c4c77b038cbe35018ea3ca0164a93c020bf9710248646c02622a3d00ce549e02ee96480018abac03f7a76101041100031b85a903f31d3000d016db036e08ab01cceef40132fe8801b2d41c,
  0x2f0c6f03920bc2026730fa02cd94a10312435c005b020c00318e3d01b3d56a032ac18c0355b5250001017c03a7b981013d411e01a7aaf200c16cba0153ab3701a8946c00324ae3009ce42d039c9c6a003c3cb2037f3b6001b79562023fbcc003c4115c036c473800cfc16c019a51cf03ae20f20167c2a1,
  0x1a9d5401c42a72033cd64b01b4799300102b61012c9c3a01c5942f00ef453f0166fbad007854210025007b02a960e300bd448b0300887c004413080344b405034347e90151d0e2007c6376017feacf0004c3050318865f02d1ba010013b3db01da4ceb0276958f009ebca700a88ca601aca3b700aea042,
  0x29d373012e8add03023599009f20f303b862fe0188c70203e6a71901f4d62202dc6eb601c9bd4f0017a9eb03b1cd2a02fdf0f200186b7d031296dc030cf8dd00fc72cf011c9de30119f45c01025917002b7fd501a3f0b2025a8cb0014a81ff00e9308b026f452402ec009f03249677021ae891033d14c0,
  0x15634302152a350268186700306d5003c3090f027093190157228b01df405401486dd0021fcdba001b15150354f78400852a82012b718600063b350192179b010668e702df8604018cdb580394219b0035946f00343298031577fb036804f30278d3c8027597e60020e26c01da9a1200e8874f0175395a,
  0x3967cd01d38aa903eed0200193748d0275eaac0277c201012a42ea038149a90308021d01fd9e49003fc4fb034bf11d03429a8a03117bcd03ecf4c80126baba021fc22a033af29d012add5903ba66d20021928a00ea711f027ed11501a281b5032d5f9b020ad330007012a303ddf55803f8e42e00312e11,
  0x231ff10197f7e700d4adb202f5e08203781a7a00fc6dd203e16a2c02ff5aa301d5332a0196262500383f0900b0667e00febb2a03c5ab3103ead28703c96a5000a0ec1b0127ca1a0141fdbd039c2b500037b8bd01d5ec1802289dd602146b0b01234fe3003fad9c023f608001dbfe6000a02bcf01ac0ba1,
  0x25c69c0299575e020e1be3012a8d4f0106671b02464579030107b900f8b419000d4ce2039010270035343d01ff4301027188c9007e9c79010b007003961d6702887f1902e0c12801d2bd3b01da408b0028e896021912ac0277a89e00b4a05700d9b06403dbf5bf00e87cb302761774006eb3cd03f4c91c,
  0x27e405030e37d70231793c022682bf024ecedb02485d5502a8d4e303f67a0d010a643b03e0d1c2002921dc02fb3a73034b7c920126b1db02246ede030bc98901d4696303d2d4bb00cc98720201e6720002dc2e00e5f8ab027d1913022f2496010bc70f01c4975c0160ec3703359867026e17fa01baac47,
  0x334403dc6e6b01b29e39018b690b00f4a1a300afb5ac026cad7201ee22d10395ccb602b7f209000590aa00f44bed03e0df820031c695021a1377011b221b005d897e018a65ae02adc309032fff03003bb79b0329299f01bc518d02f58ddd031159fe0388aecd01ce1b2c01e8d98e020dc94a0255ddb2,
  0x1bbff9001cfc5a01f49ac301684f65002729ba002afbe90286a6990051aaf60147637c033bfa0a001db0110301870c03b530b50182775703b2366c01b4758c00f18e1e00ece96b03639442014dcee8002312d803505f3a01948f06001ec76502136aa602701c5e037d0856036bd47302fe92d601312852,
  0x1e81180280161600e0efd8035ef14f00eabebc0027bc4e00fe180803fed4a702c02ddb01993b5300092b5d0363a7f802803fb600016e400155fbc903c9803302df3165027e53f80358af8301a1fbf0001d7cea01c68fa4010ce91303c1e42e0141c6bd005e218d013f6b3902878a2101f42c7801bb2ed6,
  0x28ddad0362fafc006c004e015fc6d00231f23003a5ebcf00ad5a43009da9bc010fef3c00438b85001ea5f80172721e016051550145953f00ba00db02243be50048907102d2214400c35ed7033fe1e10036876a02d9e39d01550384026cb1350164719d02420e0703393eec038a1c8f00e64cd002b2c8fd,
  0x3199c0005a405801aa3423001cc46d030877a5037bef1b01d2c55401703a40034f5788001a4c830012c7b3039e28fe020b860a01a59b31030c4f28011575c703e67b1a035f4ee303404bda00b12010002d8c770276e298033f0a6f00473ed9025bce4903970d9f0122e52a0249af9400f33f25006ab38a,
  0x300b4b026da2cc031e487e0079626d0032cdd202e46305018b60b0012c40d000ab11a80313dbb70022c4fc0005324601ef780803d34e7100329c2f007d0b9402b2cbf0006ecea701d799f50298c96e001eeb3903628296022460c501a1201003ce34fc02267fa0009958cd02430c23025303720283a1d6,
  0xf50e30197ce7e013d8f66030f85aa039583d900863dd302fd82170130a5fb02a9b0c20026160d0009205d0325ab0501bd4b310055a66703446f9802a737250327a52f008e085e0291165e038c04980038438101c6053d014038d800e0448f022fb97603b0065303272ca800bfed28001d8c94001bc534,
  0x2fcb5e00f7136100f388e9011811ac014355d300605a1b0149016a0014f73b028158d501fdb979003fb4c2003e9b8602b445760182719201f0a39a01d2728e017f23e403fcd6e4010f5fdc03fe25ce00083ef301e6250801a4a1ae03e121e3033f6afa037e4b6c0110aa3e03f3d2c7027e0ddb02a562dc,
  0x2acafa00d1bc3c020ebd520337bf6d039f0a83038a593802c4ca4500e6d435025215aa019ef83f001e861b039433df021ab1cc012646640033f27900d06b69030e22ca007c1a7003d0b5d803701c4e002e52f30167768d006092d800928ad50268ed2302ac71ea027371ae02009f0b03180dc701b3b104,
  0x349456011c72e101d3b0a401ebc958036e1e420341184603aee040004a507e023158f603643276003a231f0033560e009b99dc00db6ea001c22bed00a2fb3c0185d06d0187ad0803c764ba010d9c7d001cce7903d8e9080186f02e0267908903eade550357c4aa00ce9cce0151781b011e1be302a7c28d,
  0x32645a035e0a23003f0eac035883f5016399f603017e5603977288029a4bcc017c17bc01f608340014c1440096bd5d003d935303914586037564d70284f60d03623f9502157fdf03d7d27502f631af002dff67029ddcb802f24f3f0204eeec00790d930084406d02318fc700aeb6b300397507034dbea4,
  0x34253c0209f7d7010f294200eba45f03ee03ec03e9a45e022b7ee7032ab3d200fa52180335fa4d00046a2f03944d4b011ea3b901dcb72a0099040c0375f6de00d3ec30025104320007fa69035e163c002805cd01602e560083dad100a4adde0149d82801fea02c01b18c9e029f91e701b42f710124c1e0,
  0xd665b037b87d10065be01036e08f00076186201f9355b027aa9fe00cf621901ae71310015b7da0030be30010a10ee02e37c6201234eff00d48e1900f5af3602bc531f02a2f80100720b2f007f976100252b0e02d9bdd302e08c0e027c97af03e40d2a023e631701072bc5005220ea0042410f0152d609,
  0x2393b5038db42402f3d4890078ea4103a16c24003c022602884260027969de01e9308e01ff858600367ced023ef6ae02fe4df20398ebfe026d284d009c76d302e4501d0014ebd402bb114002479c42001d225f03a2697c01316d1901686dd902fe21a002efacda03e7538d0298400f00e7ff1a017da9ed,
  0x75c3b03e2806a03cecd3000b39cbe021e91a00070eff8011b70fe02ae928f018fd33b0068cae80020822602c6e55801efea8f03e155d502f1eb7f02f7a8b901a0bff703f089fa010b732f00e5b2270037428103b6a08c0253e853031bc9cf03ddb34802458a1401f85d43023ea59c0201ca28023f892c,
  0x3e64f70061ae1b011a3475011fcc5301e2cdae02a5666803630c6201a55d2000b08b85025ae97c003ca2ae03804f0a001304fb0009cd8a00e910200275ded202efdbab0019345c00e093eb028cf49a002053e603765a19028b6c5e011f2f0f02c3461000108b20029918db03c75b54017bc10402bb040b,
  0x2335530124182c0112b6bf01bdeb280378f3c9036515a60299fc1d03d37cd50374308803a8ddd200247dd003367ddd00bb36180109f34701dd0f0d03c35569010205ce0014313a034a5d2501ef4eab001fc95b0168fda0017859ad027b4d9a03719c2100118331009b17f601b3bcce00db5503000fbcda,
  0x2ed51d02a44122013b70b602c51d1803b69a1202336cb003f1fa3b02b91d2e004cb9e600ec17cc002336d500e0a151036c5f2802e1603101d424e2024b676d016a322c0161f66d01fdddae02b899f6003f3fdd032da71901697cea00e77a8503b1ded9018e2c6d003c68e402b98d350300ed5b0373682a,
  0x8a68403d3533e0216cb7c01b805c503c8d24502e901cc02f28fdb00a5520c0286de3e001fb1e80021eaf701ae8bdd00ebd8da024d1a8e034764ec0284ecca03d614d6014f37d902be2cf0023cd4000013e65b013c0d9a0361a854022393f1022b6ef9034bf8cc029b8d1200211af5002c654b01452f73,
  0x3e44dd01ecf1a900477c0a00a41f9002c5e7b600163811035193d1008d81480192923f01372c4e00051e80039a897103dba4d303679d07023751ad00231831006d625e008f11bf007b9865031539a1001d214303af0a57025a762300d56e0300b73966015c829b01b4f09402e963430352b34b00411ad5,
  0x3ef7fb03a44f5e0325fc0e00b12a91018c91ce01d94c23034828a002094ae400fa02f3035323570024aa6b01f5b5d50330a8f703f1d020035d5b1802b565fb00e92fe602526a8e005bb96c00452dfd001a389f01cc849c01a0afa801f299d5037d87d90166bd8e0027da4b03f3edbb01234981021fcfde,
  0x5bca102e8ac5e00994a7e03296b6e02cab13703dacce202d39a8302dbc38301ff7a78018c468b0016db05018d72ef00b86427031d7485008c14f0029206e700cff4d102f600d902a608af0045d751000e8b7a0281aff302106593018c709101ec5be8017bc0dc010a851d00741ccc00be2dd402d6c48a,
  0x307a8103b13bfc00aa769701397117013b05ab018d2e570207c920018060fa03a839970152674d001ea20203cd60850012cfa4017bf878032341d1001fe43900a27cb00370b2c60165b93b00ded8d500374563031f1425026ac7fc02c885910078944e01105b2100a0568901d40c0001ec20d6039273a5,
  0x9b083022363210183a51902b3dc5d03f97061015b4d7503e9ea1d00b422fb02647fde02ac0912000fb319017ea6f90085373200e1524d02f274c1025623180214904e003806e40074a1a702c0599200248afa0136a87303dbc43703411cc8010f873f014dc32c00bc74cc02084a0e03e058480322a620,
  0x245de80089aa8601488fdb00d1a16803db8078014e888f0097b2600155dfe500ea9900036ba345002a39290159ea3c01f14400008e0a800201979c019ecad902f3a7d600c3e6b600b22e2c026217600038426b00bd98f70086e6f700a38333010fa35a004064a40244261a036e3c1e006bd92303561076,
  0xba36a0211c75a0274315e03bf6e81018f1e270071c9a701c2ed7c020b9b2600bd4e530390cf680009220e00c4925502f26a8e00214d1601065084034b18d200a07d90017fc04e03836a27034789050019a3ca0177fdac006bda5a01c1bf26019f673b036ce28500076bf602dff282000a1d73021f74e4,
  0x23cae5034a782b02b1f2a301e29a3701c8f1280108c6d40359b78700139ade018f2d46038eef4400132bf7024260af025c46ce0183eb0103c08f210339645b03e5cdfb03994a8803e9b20d0152ce14003c1e9603a1b7d702f7494400adc6a603d9e0f200ea27120195924b03ac234e03ec322002b71f00,
  0x3fae10008308b600fb30c8027f78b2018d3c3c00973fc603eb7bc003ce920003467dd00220357c0029753003f4bdde01b7674903704a3102d21a92005d447b010eb71303cc37b1019af842008ffd830032cb73028074bb03fb51cf01f79f2202ca58bb002364ae011ae77c0301cd38020005cc01ff81de,
  0xfa5860101c6360397b73200aa417f02db2d04014b510d01f12cf40185d83a033d9b93007f66310007099802715e7a00681be201c535a1027c4f7c00e1c44c02d903fa0363346b01f5335802e4a05200217f68035b027202ad5bad028d34a301d7dd1f029cbf37008ee0f4037d1474006d87220088141e,
  0x8349b01bbd8c701a926c000308f6a008fd260003a3fd8000c28eb02097f68032f3dba01ea210d002a91a80175a31a01b5679203990ab303b13087000d06cb025dc76e007f87050380c71500c465ec0026817d02b49d8b0022d6be004f8fb801735da602db23e803e95c04013ae41a00b840d803a49b02,
  0x2dd7800c74851028c1980017c7ce0033f765c00b0535e008fa8b900c34a99029bb7cc021b9ae60034011d02a8067d02dd3ff400377503004b687802f34bc302a2a253029574c402a610740368ab67000bc1fa0394a5de02a71c7b01d8fb1b03c996f600afc15402e35cbe02cba91902ef35ea000c4c38,
  0x39a03c02cadc09019b917a00b8917901a750230074f0330057205a035223f10295dc240142e9f7003b882a016d6988039697f6026f08e503ec51f2031a921402b54df803136f9b00a6e6260391cbad0015807e014fe39c03c40c8703d261620253dd6700e05ae8003235cd03a633ce01aaa663005de4d3,
  0xa188100afd9b60352641301dc4635017046b000e5da2a00dfbd7d01b128f901cd62bc02426aad0009eb7700123cd100f409730111fc5f029c1d8a020130d400addafb022f41ac039f7e97013e3c1900148a7e03ff5039028fb4a8012adfb50027563e02738cd20247e16602fb8b6500b1386a02e06513,
  0x10c37a02cff751006c6e4d0287167d01e87e2900eaa25e02dfbcbc00bd45fa03621c7103bd2ccc003936b1030d0954031efc2b013f607103d91d7a0010bcf4031326390089ac9403fd665e0349fa0e0039592303f43c7f038b5ea700e2cd2800c42cd301ba8cfc0335da770339328d0296ccb001e6e270,
  0x3d1c9c0274425f02cdd88e036a783901c29c13035f2cf30068bc9e03e8d3e7016c729c02867e440004bb4d01cd4ab902faa45201665ca2011b8567000ec893002e6042038d9f3600efaa11033498250011044f012bd80e03863d790085fe07011880750394994f03919f8e00e81fc901bbaa9d017e2923,
  0x1f52ec0075b98400ef3db403aed7e4030402cf02ac1b920021847c00baea430192b47b0272efe3003b7529006bea6101b7add7030ac6d601ffae5d0172bef10070ced1030a02eb01fa6177016289430016cc08032d604e01818a58033228b103d32e1501a0364900107cc5020e34500310b89f00aa5ab0,
  0x3a7ff009e0c1e002e49c2013031ab0159cd7e017ff8d00037f6e603a491da0009ace900a81b7e001facfe039513a8005ed73002b2450800baf634027595d102a6271e02b75f0b028b9763033b7e79003035330367713a01adb4a4030ef4fb01eacf8a0142481a02431ff702b9584a03f2c293002553c5,
  0x379f5e0241dcc8026dfce00061c77a00ce372202cb3b7501cb986b02e3d77f029f0b360210a2df00159b3d0160370b00ef8c2c03ec655200df697e01b37ad800af1b5a030683c8004bd542027420b0003806de00aa088a013067af01361946033c19ad0087737a015c4b6f008e500003fc4b18004863a5,
  0xe9e3700c7d6d7012141b900762c8303f5b77c0338577103a16ddf00c5dbca00a258f30346159d003c14af0138b9e203575cad0084ffcf020281e601b705110208c641006cb207017b5ce3033c286a00055d4000daf5640068ceb801a84bb001b4fa0900d3e87502bc5e3f00c9dfc40182127201545597,
  0x3d6ed8004852d60227e3fc0057589800cbc788039d0c2b0314961b02b75df9032b915a0397b0cb0005185602592051011ae88b01ecfa6400ef372b036c2b180185963803e1eced0368ab20009d2ed600350ea50202baa003ef68c20293aede03ddb1e000e6b47902a0ab33006cbd0603a7a9c4026e1692,
  0xcb0ec01cf202a0252cd5c0221647501577df602b8b47701e538e400de5c2b038a2b85025d71580030623c00a86c5501fb5bd800aa6a9c00647ed602c32b1000dc5477024c62c10081496d02c4153700294706013abfae000cfdb1037298f90169f2f8016d363a0124b0c6021974640136a8d202008727,
  0x2f80b40375f4a301a71ee701fc5ecf02ef368e03220eb802ec6b7f01b2167f027391cb01679f11002e854f019858e803d88b11004ca09502087e3000ef464e000d89000086976200cdcfcf0004939c0037347b031693bd03a1123f01fe6b30033d2c4d038e2c2e020a5c0b02faea360071d7ea03d2633a,
  0x1068c403b7d16903bc8a9903be2ff400054cb5038229fd025638850245daae028f0a9d00ad6ccb0022ba740175c9ce0358315400c067b701a3ca700328480d01efafcb010252b703645ff500963f4a00238fc403109e8a02ab034801058de202117c5c015721f10351765c038bae0401a65ebf039b019b,
  0x3771c5033b6b8603bf2f7901683e4901e368ca007c5341010288cf029b104302de97470053f5a80022fbe6021d5955032901490267c0dd0273a6580041f4090028b8ff0305a9fd028e8d5f000c98f000287920039fa1310094161401baa82700bd2eb0017f63720138d3d301f9026e025ec7ff01fcea5b,
  0x1af42e004323fe03c46e6100b2c8fa037e410b02d75c31033e9da101b8256901974d950341e8d80029401f013fa5d301542b44026be615005ac3dd001e8c1e0278f54d004b5528026d08410255b9e70007df360067ad390336abfa0270594200fecc4903d336b000cd0653030e7c9401b24693001e322d,
  0xe3bb603ca3d000234d0df016551dc00a43993014b89550338bfc2039edad801abd33f0104d1800019b00a0219e843003bb64b024f7f14020834dd037525e6015690a901d694d8038aeb4303171b35002e35e602e978b70297420001642977023b8d7602b453f9024ff8e6000fa89302a3b646026acf4b,
  0x2566a2016f9e660061c8c0016ccacf034234530182c48b03caafab017b1e4f003e679902d7bd9c002f4f6c024d6e030073a1a50203d24402dc277e0309f3d10355c49600ff8f980176537701f99bdb0006a5c0017d735a018f9e1c020e8339033a1f3001de5caf005dc8e00174c2f50328e419013e1b3d,
  0xac7f00b57ca600f88ae4013f04f80182f65a035a69cd01e05fdb03d612610246714b00555377003c80da03e386e90175fa6c00d186ae02bcb7a50163c8a90063bffe004fe75600641c9f01b68f88001efce403e3882b035afb72010281de0209502c0361869d0379604c01812e61010e62c30289c980,
  0x1c672901d3b0cc017fae35039437d503c5c3c1021a155800193a51035548b0001ae53e038fd71f003a6204006ab08f03a6de93000bd8d803dcc5bc03a77f25019c7111025ebc93035ef91401a284160013b8a400d6a5b30205fe24025836940105fe6f03fd4a5003c41d500124904d0198584c022d3ba6,
  0x2ba8d400a947f403281dbe020ba2e900d9edce0309249700e3bbb300c7de8c01b1f4c80149312200389e6400ac5a72031162730077d69c01d142f80225d3140291411702ade2860050fae303e57ec000366e4c0310200a03c331ee019d4de00040f34c013fd47e0015cb7001e16f030165730201c6010a,
  0x2788ba004167b902dee3aa0166825703766c8b03c3171f012078c30374b1b300cfce5c00eb612b001450af03e2c2f001dcc8fb02a472d2000ee16b015e6b49000c862900260440022427e1013fefaa0000a08c03cf8887024f554601d8f08402ff87ad0290580b03a6f72b028fdd5c01810114028f7152,
  0xfad1d006fce49004685e102b1b9f600586660037572f300598e7f00e215200200326c021b3ae9003b823201cbe1370251db9b03ffd3e7035aa14a03d13670005ef2dd0030e9d9012aa0ee00fcec97000890e301b0ced90009c47c02efbf9502face500201a3cf01012108023c8c4a01c7978e0029573b,
  0x20d84e027d57ad0381d79a006dbb1a02f841e600286e2c02fb1f8100d2ec1101c37cbf00df39af000c6fe60025633601d5372e03ffa4b402dc69e2022d9f7e022c8bfd02cca04103b21b71011741ba000fd754001f76b60271c07c002549d5035e4c88031aac6c01e71d9701705a06029eba6802d0e91c,
  0x219825033d58bf0222e94103c90bb5002e7cd90290108500c14c730219f3d20369d0f5015bf0140033bd700236528403892a4a01909a22024c3ad900c8962d0100cf3c0312309b0280854a011aa4320008ea930249ff9402df2da800cd4ae3035ee34801489b51010cbbf003e24a7602970e6100166bf9,
  0x2a9a0c02d324fc00fe2f0a013ff058015273e203997ccd03c373ef008c144c007d60a1025addf30010f5dd00e0cfd1009e9da70033a69803425f7d0183ec280218f20d007127a4020e581f0170d38900101e0200bd0ec200eeb06a03b6b92f019ab21802e4ed5901b383c102802d7e0244ad2b031074d5,
  0x31100801d50f010329fabf014cb9120192fb4b02e6dc1c03607f7c03c77f2d027958c500e6a22f001a7e8d00d5114301b88cc0015584a60105fdcf02cac2e901c615ed01f4a20d02b642e900908c1e002d3b6b03e747e900e8be250020d391032dc29c0394535102c6a6ee013db4e7018a84d80072e1f9,
  0x2cc5710019597d011f3eb202914f9503cd316403cd6487013a2d5d0221d71e00f0f2fa007d1f760027c52b0201a0c003c6fb6601af1f860313a77003e3d84801f4d71602b36b5302a9b79f015ccb8a003fc5040269e8ff02de5e60013109c7020b42d700973977005e56b50042410202816b5501a33031,
  0x199ab6032063f501e62f4803e59dea0033b3f403b6691500b1f1750297a0df03c12ffd00f7ed3500302c360073482502ae0aa80354dba60091897e0115e1b003682c7303fa9e3300383a7400bebb4f0001bb13000b8d17038686fe0161b4e302fc224e0223d97b002f251100a678eb02a95f6502ed2539,
  0x210791018d29b101733c6002b0861800e8c23f0218a4d80211d02602553e7c00a9ba390230e7a4002d63f700dd52c2018f85750363528c01a86f730213c1d30397d37402d0d39f0356ce4c02085a96001ff05b0286838a030bb8e902ea12b303cdc20d031a025b039c0c7f01805b0d03dbbe0502c3e588,
  0x80a3b002538b801cbcc0700ac88e800e9857a0299a094002b438900a44f250209ef2102cdb5e500087a3b0007fb1003e8f20e01a4e99e032064520170602402b71d240205430103823bd600b1f1210000c33a00f83c8b0301163301f7e58803d1b0f300787d8602a069e7038b4d5702e1abdf0328825b,
  0x4c30200e7f81f013b507802cd441e0246bf010127a95e02844b850232797f0267174a00c15b580036cf8201f1778900ef300c021d8f31031083fc01782bb101bd88050020d2b8017a55d503df149d000c94f6016fafba0281ba200022439401763a9703b9bdbe02cab68d022cb612022fa0fa03e81541,
  0x3de92c0260a0dd032196470007d65d00641f2b00700aff03290920004b3a8300e513a40298db4f003bcadd027320a10143cd6800c4fa8400588016039bf806028bf47602391054028a0c8802ae81c7003bf61b0348598e0331f1c9033ba91100ad61dc03f981fb03d7c11200c9a377006c3d6c0366e8e5,
  0x16339f02a77e28038681dc02a57edd03c206da027633d7014127610135d0fa03cbca3502f8d1050004bd82006e848502ada02d02b518f502c06de900d0e1c500c73600001b1d39016738dc019a872f001c408701d5cb97001342bd03972d09012edb2c01c444b203628f5000ad0db3024fd73b03533bae,
  0x3a2a550002dc22025440b0006ba398004bde2a011fc51f033a5737018f3b4903b322d603bf75e3000e7def010191430161e4a003ebc61203069eb303648ada002a8477013abdfc022f3edb0059365c0032a31c03946c1c00b13f4c03058684005b39d501713f7702634be601c795e60349148b032b64a7,
  0x2fa85e00ece6cd027f773a03ff0d9801c917f103efd2960087abf4028f157400a70f86006006b5000cef5100b2106901cb71dc00c70a73000c5fd002fa4d270181d2e702d04a84027ae7a00275422d0034c41a0152a890011742bf03e4def401ada69a02f058570187e410014baf68001579f00154f0ab,
  0x2f710902e441a701078913024c3d050318f35f000299ae024d4c7902a4a29a03994e2c00706daa003e5f620125f65502bce8270131c66002d1bc9600300d870108b07500b17260026e369d01d9ec8e00096f3703fbf160024cf590032110e3016df740007b498e030739c2034de7180313e53203056d0d,
  0x2a31e20161f59d023b600b01b11c1b016ab974002f6015000a535c008963f9009616030288e2f6001bc0000332090200fe1e84035c120600ce0dcb015ff624036025940100ebc8028c06ec03732c0000337fce026a3af9010a635a0360054602f8173903eb0bef0294739903cae61700592c2d02f5dd2a,
  0x4e1a600dd776c036b52a000e2edad01b3c8110296c46d01bc368f02f63f6c00f51b89031786ee002a8cbf0177399a022a6ba00216aa7103d890f300546fee03a578b602b4d1550134286f031657850008fdfa02a8d0c30377368a004985b400c3bbd4013577880092635702021383035b3ce601e1bf95,
  0x21d40102e8f7ed0312e35302012904036dba5901f42f5e02cfbb07031ef07303b26ecb014a86e5003cae9e00f7e0c4019e50e302be643701d915a401c76243018226c601b5a37f02e4158e00062265003f15690176d27f037a64dd02d8108201d923fa013f99de01a30c39005fad210193fe4003fb426f,
  0x33dbef023ca68c03fb483902690cc303d8816503febd1203a2c328020c268f00bff1360390ea1d001d28e400badf01010c70fd029c3d9902f480b6026a3e2b01bf1a8001299c360087fb2203afefbc00014505023cc07f02d8bb8b02d03c1702428fff01bdc956005db376004df9ec0191461903af692c,
  0x3faddd0085b17c008c199c0177f67b01ce372a01cb99360294064403a48951027a4d2c026e7dfb001871ba03c5afba01f649c602a92b8100a77dc403f1e750039d9cfd0324f846010820a402c321e00025376a004dc3ba02b29c1a006d53c403d683de0240dc38024f537f0232f621030193330140ac8c,
  0x153b75031e05e3000e9c4b0207be37011dd37d016eedc8007cdc2303f255c701b9333e01224e2300312edd03150b3503df7f93009e0d6c030266cf00f2bc3f0041ce4f031302b0022dad2503263a0d0030d74a00747d3a02cefcdd032d3f25000401b3010901fb021de9ec009b5f41029aeee8020c7db3,
  0xf4cb900934ac60019129d00ccd0be02b99cbf00e0d850022ad036022c125e014ead55032f22bf0035f9a8039036f8035c781701b2483e00cc0cf0026f6e910314c59f03af6cf703dd06b2020faa010023c75401cd42b103b5d68601b28c7003dccc99022f1bed01a07fe903fe52940272af70032f5bce,
  0x28248c027f1806001e1c460164596c018305fc02d2b965029ea09e0167c94400df6f140318ead10034875701916eb50030695702fddf2c0145a8c80223d56f007811e0037155a90119ecf903365863001f754502f7a2f4038693d9030000a403b3fcd7037b143f0302b0ae00380f83036408c401758654,
  0x17b2d601a9093f00395c930060a9bf00589a4e0317bbfe011d186503fdcd7e003d983b0295ce840037406d02fa81630231d5b600d22e8701cad20f004e0a5502679bc30248753502a36d5e0289a47a00343f9900a1e8ba01a7961002e9e021020e7d2801d23526037a3bfb036d3764018f5ce503f63acb,
  0x1cf2e900172f1b00f5e15b01d2762902894949022c6a2201fd6e1302a65ff802aa6d9e0083d412003afc6701066b3d00471eff01387e8601efcfeb01fa05880335650e03ad637503b4534c022b8b970009b6a903c87772024f0d7000b491d400666345014f6bde0113ca52026d3084013128a501564b73,
  0x374d21033919e502f6920402dcc498033187cc000a37e0000f2e4301fc0188011f34a603b6016d00136e82030b268c01e8dce403a5d6d802717be300d57a16004597d302591255031019b90047506f0010dfd8011fe49a0290edf1030fed980323ebc702222daf00e19d48021d474902cd72fe00f9f979,
  0x17b8eb00a1239700c495da0187ca010265b403034c90d300bd0feb03b469260107bb1f012945df00331615018353ec019de49803eb56eb0277553e01f344ef00c688db01cf67a903d17bd9035b2e22001270950316f72600457c21039c5bec024f0fde0320666b027096ec01415d62021ed87802243edf,
  0xa36780248f32000043673005bf60e02469c3202c8844b01f0db370178d5eb039f7e3001de87bf0024e65700d4b4560111fbec03e5f7750052eee3026f7ef10300ee8c021dc9790000af05019888aa0024fb960220deb901ce3f7903f584be027922c5001237490086080c02780e95011fc1f2022d823a,
  0x1e31fe03ecf5ce023e136101ee3925008b3936019ea5e801b5f41402dad0e20209ffaa030444e3002d2c4203c33568020f3b4d023155cb0013e7bb00d601ee0086efb30213de5c02bee3240335dd54003bec5d0205dfdb03e2808703013c0203271e710200f187016ca7cb00cb24f7018b876501b750c4,
  0x2886e5019aa3d101463f4301676e7b022c48b00007e8be0275d9d502a42a8901305ca6018a488200220988038edc38023bf59000ec0cfd029613d30312918e02e0b0f000dc41b3000bc694039837f8000a33c20211bef702d5d6a903cb1c6401db20a300f6f7230366a59601d2e8b9025cc5b7006e6bb5,
  0x3c3530012b61100554fdf01396633028646a303602a94010bc85d00b05439027f61be0287d379001fa64000ca410902f6030500f00ca7020ce33903726b6101667d5b024e0614037f5eae038601db0030288e01843bb90394e41403a4392901b9c432019242f90263c0670044095003987f680347d73e,
  0x11419600e88de3012b7888014d3f5101f21ea7029d89ca00db4ecf026de2be02dff49402dc1e7f001ed5fc036cd0d403e93c5402f8b9f8030377b603fe370501089cff00f16e7f0074e693005723050037e958024ede5f03ad5cf3015dc76603e6822b0044632a019a29a601f2c3c603c62d0402de4ec4,
  0x6f9440004aae502b8163e016aacb800746b44006652a200cad6c7013c47d8021cffa503599cb5001501b700cfba23029ee1c901b9933c022dfaf503a4368e00060f03026fb3d100d0b98d039a5eae0038d2c700c01a180143dd390253d31e03d2f58f01d94074026e82df032dc54a03867cc00289e87b,
  0x24bec303d95e3400ee605c00139ba202a379bd02025bce03a855fd00cfe2ec026afc36010e0aaa003990ce022292da00ba318c02696568031d51d3011b105c03efd702004ab482006469d50012e4e600397c8c029a29e100c3d1d203a50136001abceb002e556d021de19202daddbc03e8ce6f004766a5,
  0x38c1f700fc74770200c7b703dcbdd601332fb4032d04780031936701ae639700f7b3d90370c646000da18a00f5239c023a0f7503e9939903557057017ca8420338d71603a76bfd019478850042ea3100145fe8038588d000d464e700501bf100b428660309cebf0396b30b012088c80016a17e024e5dc5,
  0x3f67280327b30002c9aef7039f2ad001a07466020824ad00220b2e010a792802047fb7024ebd88000b61bf03a024310296269b03c1da3502514ef5019bbf8d02722012022d86a800aa9c2c0317b197001f06bc03445943031c2a3302f8cd83008951a00252ea6f0277295f036b4d0000bde3a503d1c0f0,
  0x138307028c02060315f27402e8984403533862002f9fc602bb374f020e7d8700aa841d034cc58000197ceb012b7b49012c98e5000c5b070274a581028c8ed7001f116c01aa4d9d01fca52900097032003e3f5702f523b5025b8bd301b8234401e4cc67028ae20b03df0e66021b1d5a0320c144010a3af3,
  0x1803db026c06f9007842c301eb070502d7d89e025be1a601cc84ea021d99ab017d4e840053b3f5000c5b9e02250b5702ce48b801ec58ad020a9b54012387bf00a57f3200238b84022dc47d0203f11e003ba5e4031c73d100ab9cda0156165700e81ae802a6ba4c00d2360b034fbbf203057fa000e66731,
  0x178c5e027742810010435403f01c14038aefe1004cbe950311bd7f02d4471c01db807e0126464a0010882a0079fbcb007f7f3400216ac203e4e9660090ae78026a657b00533a9000e6c9c101bfcc67001736d1000665ac00797b2c019855dc034e19a70372343f03c9ac9602c0d551010036e100b3c4a6,
  0x384fea017075b6023c21d9024eb6a603fca0170202fc0000c41b0a02f96a61008fdacb03bfbd0c002501da0270b10402fa8c06015e983f000f41df03b4986d0043e1a703babd8b019c31160076a19e003abd520145414700939cdf0057282200ac472401889b25021c12710140143002f405a5035dc3ca,
  0x29424f025f1ba500011fcb0135e0540265d1b202f8816c005e251d01944cef039d67fd018e9c7300272007003b9718029dcd48005d7b0f021bffb9013b541b00a9443a02b2e43203902876025e8bdf0035e97200e2e61402d486e90385d44102b5a8010152a76b032bed3800c5b90701f2232502d3018e,
  0x1dbd3f01f6672e0012665503acf8aa0132760103c5ef590218525f01ae90520267dd100170f72e0023c97000043e9d002c901c02cbe4f1004c1cb202047ec50343c9ee03739f4c030b3d1e0188dc210039ced80113d65802a3212701ccc68703cc4d7b01d3dc39027f926a00f4205300916b8d026cdf1d,
  0x3b9b8b0035c81e0249130a01b6951f001425000078808602d4ff5601f4321302cf4ef203165176003c2741035be44e01e34c8102d87dec0078e5a0031514330353cc6802f64a16011e0eee03754a800030f4f302e8e1c602ecaf0d03a85aca021bb2f3016336d800392651021031ff02bff4a1021b8431,
  0xcdd4501efac18005b937103f2a1e800361e9602b91a310241e729033c48c20160e8bf02772aca00273e430088a53e0189053b001f44ee0185440c0130927f03cbf367017be75d008ae84d000ece7e0025751f009f84a703171239019a49d6029cc3ab036ac09e032f11b6036620160217144d005d0839,
  0x3e0865034c1fff026ecad30117426103b1ca8e0388826d0260348c0052309900ff739802b6a85500288a4c037e9ed303a1a3d800050320007e5c2c011c7abf03aa37100144712202f3eb5901453b3100378d22007623ad03b7d2cc02ac82af00d1e61f01112f8e033f061400247eb7007cd8b8033bf947,
  0x377d2c00f69c6e0183fb420129cff70038d8e002aec89f035b601902b8320400c4199f01ad3fdb002771ae01eeea010076dc81018856fc03346c360013398702b1e52f0182840e029488b003f551ad002ff877011ce49b03025db6030277f200f280df011049ce0106036f0135669e0079e55001cbeb21,
  0x349cfa02280141033e805500b91a670261bf0d02f7aed6005c843401ce66b401b31d2d036554bb0009d693021f6a750365479d0030feaf00cf65690124661900604c5b02cccb730214c3e302bce5c6002f701b031b023d00305c220374223002032f8e03dfa7e5033a29980385123503167e81019e402d,
  0x37452102e5664300d984930252bcf403a7fe0903e5b97b01c35cc8002bf5a30103a8210225b8e9002acb8402109b1903febb0f00b542a2001355e203073ee401b38d9100f884d003f114730163718f0001e59e01a0569e0351d4bf03bf58b301f9d10d02128ba702df6f0603fb36ae029a59910154ffd4,
  0x25b194023cc4d203e00f690160b41d03c68aec01f939540277e4a801235ebd005a4b480128a3e8002bf678030b538200da6245010918db03b6ef0e0149fd84000a0c1f017ec7a5009e54a601d84029003992f302aae51e02e9762a028460980147499701a38942012ae115029cda26027d738c00a0c7ba,
  0x297b9b0135c798016e666402e19e0500365f4500c31a0e035a80a9006e831703f959210176434d000932eb0129797600ac98c9020cdbb7003e2ee4037c61d000c8c16500d0e81f01d5a25103f8f21f0027105e035e59c7021c0b8e02bafb5f02b5805b03767b78000fbebd033c620a005b464903e5e99d,
  0x337a2100aae4f2038591340379a7a503da4cbf024078c30349209101d7118901e968eb00783657000cba490133857b024de402038de39f017b33d6025cf60901875d2b02414cc0006976e902d1cfb10025586500bd892103c74fc80306e2f700817e55032d90bb03a23b7603cd60be0027982101e2ae11,
  0x1fc8ae01c7a957035b3d250073f043001952b6026c97210031f8010072f47a005ab31000477292003a0ff901e67fa903ad9342012b6a5a039967b3026adffd0078559702a06e850328b7b702688e2400375d250004e372018727fa0270479d00c30d25011f3bea034b9f2f01921a89002d258b012d2845,
  0x2e72a5009da916024225820248426901227696036ab1780315f4170007779a02d55c7e027c2127000a316b01664bf40010b66702c65b6d0131214a0397208d02dba1b9019cf38f023f9408012d656f0007a7ff006ce1c8039087880173dd4e0043b437001700a502c9856900647ae201d0ef4b0194d3d1,
  0x21d06e02a6fe6d02b6a16f03036e44003e0bfe00dfc37b00730b8e015fbf840260ee28004e13b90009c57902d2d13c0230a61e022a1ed70387817500766dc20146675803b0275400927a9003ebc453001d7dee0009adff0023cea201f99e7902b92679009dd73302542ee0025527b000ffc7b0031792f2,
  0x2f57fe02479973031f1cac00a25598017d66c00039893f01fb5aeb038f9f8e000914230355faec0022078b00970c6b01b121d003dc2883032f5a8902bb96ee0092aeab01eb3a0403fac570002545d900175a1501827cce02775f66021503f002867334020cf97a017bb322022b501802e0831a01a14412,
  0x11571801b966c502cea00401dd5643013724c103a17a0f0308e2960212535c015e319c01ab3ebd0005d17b001b9a140246dc7300c5d65b02646d7e0019b23403289d2201eb17a503d9082d017a2eb5000aee43003c649b001347b0031f75df013195fe0117cb620379b9ee01cf7f0c03e44d6e0328d2d3,
  0x8c74f03bc757b01ef5faa012c13ab038ee0ae016ec0b4038199c900bbf53d020dd69c0377d7b50031f1cc010c28dc0311b6fc036a02d00164acd1027d9ada016366770172a40502c6b57e035c06260017070a01d9f5dc01b8ed1e0126dc1d03f0da410384d95f03f67b3c038ec92c02b5b82d02a7bdfe,
  0x205bc901f59e3501b480db018ea122015656df01cb96d5017c8c0b03d3632901d26fbb02f11320002b1ad501b3762d02abbc8b00e3732203b677d0034d520c03fc9cf802fb772000c9fb94019d9f5800327d9403dce0be0256498702e9d9f501c770fe024d029a009262af0171ab1e02b9d71b0291f8b0,
  0x25e52b011c417d034004300370a9a001a6ea8a03ddc60d013f43090086827900d534a0007c462500342a4001fbec1c02b2bc92023d61fd01e290f4012d9647023dab7103929687029eb9d703a5babe0008db5000e1037102a5e71f01b530f5014d079200ffd7d1004658f00103a1110124d44302da8e70,
  0x22d4610285712601df24c4016ee4c401bbfafe0059196d017cda2e026d74580023be460286d49d000ca3ed01028c3d0313c88302099626027e46df00f8c1d90377ba81019ee61603d302e7032b409e002ae4f703495c4401b46d4601eb0325034ce4f402ec2057010c6df6005a46d502830c99027fe58e,
  0x1bf8e602e5a43f0383574e01d9fb260258379c0183ee6b03e5b49702b9020001029277016ad15c000a395c00e42760039684b702b35ed50159a0c00009232502748348001086d30125db030128746000266f600267d6b002ce7d5503bc62d9017f01a7011aff45032b1f1b0096602901ee7dea038cc48b,
  0x25236f008850e502fbd7ce00eb48350218d8b402e0d7410003feae027479e301c576d201f85648003c085701fe94520223eff0028d2ab900cb7ae702607159010dec1c00efec5b002c084602a6ca1c0030fad000cc1865025dddec032c8b7e0002192c0073ce6102cb1e550169ba110086072603ea9902,
  0x3a03f801cfa5ba0333751702b63d7c039fbd73006f72f803a4ed24001f96be008fc8890086096d00047c6500343dba001a929f031dd15003540f1e02b4ed8c01e5b069024c391802a621e400220a5d00330a9801471edd03dbc3e503a87f8e0216ebde0160ab6302a33f94020669670145fbbe019c4c67,
  0x388571038c08d001a0be7d03d52b9c032c6a8003c7437802b2f6b6035c41e000ead5c101b638e20018ed8701c7c4e2025f17ad00d43b7f0339cbaf013d192a02721151009da892035d8d540113de1e0028661d03a08496017320b000acbe650246ab1300e4bf1f009fa8300233b91a0300850c00a381df,
  0x24e3a203177380019679ba039dc4200182da3f032dca9d02ee7b8b0395602f022fe8fe021b38e70003d1e00260856602ad8af4027e116203a8bc4501a708c2036326bc00c9241901a7b0e6005cdb2100328b9600b4fc760334330403589f8c00c273e100835840008615190123dd940358363303c9e869,
  0x11255c0037012e025d865902a408b002a08c64029bc1ae036292ba016a494c033e632c00139ca40014c8c30298ff2b010cd7dd02b4723b034db34400e9fc5102b2978f0275fec502ac515e0174f5840002daa303b0a9a2032ac19403ecc19302f5775d01008786026c243103e33462026bd920027519eb,
  0x38653f00a263270305b6d00099d20e0250ed56032900c10366450d03e1476f0120d4cc01ede9110015114503e5539703cfc3b5020fcfcf02003d910287b317008abc90035ca656023b4e770240f7df0027559501a67ddc00887389031096b80240db92027275ab00703b680190277b00c4e4d100cfb00a,
  0x3adef100004195037f50a2019ea06d007043b9012b91330247a66e00194c810125d9dc03a11eee0035ea7e022981ce00f8847c004ce57b00f2891900e95a26037909a101c8655003e5e28903624be800192c78014d130302bf88d60014a87b00a196d402d80a19007960b903e08b81006bfedf01e28870,
  0x1e7b810255787b0025dc9602eced3f03c5f509036edbe1020911df0188783f030bedec0149b35a0027296001cbb7af0132af25000c022702cc2a1b03d69e2e01e6cde00358d79d03dc107300e6ebf7002b7f06026a467203dac99c02d077ab0307b133011cd4ae03c5ca7a02d7213900d2d440011a3631,
  0xaa4f10127d7d602afbdbe009708a0020e5c24025c973c029f7c580384f8b402cf2fde0230f52d00020533000cdb19027225a1006d7ba90026ba1503f80b56006a220702304d1b00b3041f0133faae00107d4b03cdd26e025e401f03b655de017200e301d2893403904ff803f9e405031438150210da65,
  0x3276ed0337a4d5024b8af001f2801c03fb7b7c02caf27d031f6069019fe13102e2025a008042d50036bea4022716c60363531600b3c31c03ba16f40264683c0017d7be02712a690119bb4d03010e640002655b0246057600960fd602b684e1011046430371b392029aece7005ad1dc03732eb902b530a1,
  0x1ea8e4022bffe50314c9670149d280013dd27800d92a5c01f2356e02695e4203e66ad40290b5f4001ad68b0158eda2039c5e13002d684403c5e8810230d4dc0118dd6c01e670cc01e4f6f903fcfa16003ea0610019a6d40179ba5701ec48ab01501c880390c6360336148a015b8f4403442b2103e7720d,
  0x18fbd3013c4f50014054c0017f152e01a333af02dd3cdc01c8eccf02c99ab303a836b6031e3c8600304949006d623f016b9fbe0368a8ed0192100802083c6702d5422503c79b3603ee9a5a02a7c993002a73500348a9ec00975a39020c786c0208495a024b0abd010e6e0403e9c5f500d0fccf03a5090f,
  0x42a56011d31f80019554a01a936d201f8c49501b9b9ca02efe6bf01223bef02b98fab03624ede0039852103a238cb0253e073023642f601b12c41029206dd012e774d0128eb5801d1dbd5026ce24200370cab038acbb901f4d28702f1cc090000415a0085dc760197fb6903b423b9012c854901640b47,
  0x2980d016e644e0356dd700075471c03a41bb8019c0089038d8b5f037aeac00245e0f8019187fd00176f90039d4d6a0089e45b0143e5a80398684901b2c9880075f8fb02c0e52f00edf326005d2186002747f003b2e6d10244c2d50285192d01ea287103f991e90153b527024005260231de38025edaf0,
  0x2c93b900de1d7503f3fbf50001e2db0363d2740102082801899d6b01a5f0e00078935303930e81003b804c0250f462016b52fc0070f8700275f0cb0394aab0021f025900757fe60171e27b02312ef2003394cf02be4f3500749b98036b4aaf014d8af4017b506302d787db038ac1b203b4239901cb316a,
  0x1f500802dab3f002a4d63500e4f52e034e29e503e6a35c00c8d397001ed36500fa53f600fe11160036aefa036122c803314f2c00b8f90e0199ed6f00470cd0027eecd303d0d194018579b903fac5700020e98e03ca94e503e9ee6800e5800d0273aa77006aecd803e38adf011f132802442292022dfa4d,
  0x32076c01bea8d400a8e934035efe3f0168d98500e5374201e83f4401145f1002bf63d302993874001b57f1025d79320382830601e4de160012376b0014b0f202ba4653006f77e3037d950801afaf8600114ec6012c7be20239e5a902bdbbfd03321b0900a3e71902d6d21602f54d640106aaba02c39d2c,
  0x25370b034288e00254493c03afa0d802ffce8701aa1ee0017baaff00fe2e0b0001c692039bd7f2000c0a5e00943ac3015f382b012b88f80075a2aa02e4e5ce0295598003778e1b02e960ef019ec03900293d840210149a01dc1b1502654d6203da74ce00e72cd30054854d029b55e9014cbca000048995,
  0x1a945300b8a76b03cd2f0c03b8f8be0102e3d402980ab000ac9d200399071603b2084b03f4de3e003bfbeb007b03160168259b006f047703ba6dd002a57d050131c93d021106a802b872010066050500313a30005aaa3801c62b880217380703629044013e0cc2029d441903f6dee003ec147e03cc4342,
  0x2c21cc02b9b66501be2e3601bdad5e02b57e36023a988c00268efe03c5cb1e0095e99701512e02001060bd0176a47d01626168032dae3c0368230f0381e41a00b2895b008b089500ecac5901c960e2000bac2b01f2f01001bd2955027d8140002978f70003753d013db8c800d7397f03c3dee5018b59f4,
  0x1d74d8037540a30192ef0d0087a67202cd222502547d1e00e3597700d65f1902db93e701a03bcd001418bd03374bb10121a2b200223023036ce60700e1ceb8036f6035003fddad02c82cc7039748d800197fbe014bacf40119c38103626ad001805f60012131da0092fe450343e03103958d8601bbaa35,
  0x1770fe025a12fb0288d82b03bf125203ca186003f3637d013f3c73008e9597009d6e7c02a8e96e0022797c03febd5e028f8ccd02be24190161b8060017ae51009fa6a8005a5e08022abf2c03841be00003cd7c038e64d9009916bf0081c7a300b74efa00abfa0e014e078801ae3eb600ac97ca00ca046e,
  0x1bf2e4001c075f00150ab0006bc00c00be695f00ae4131037e0c0300c7e4ac01e35c1601b64c71000356860345feae002de5760330e7ef02c6440a0069dd5101f76c970170ebe5028b538c01937ac60039efc0005fa1ed02db8e86011250960206b62901a7a15600280b94009217fe0103a962024740b3,
  0x24e69801d1a10601ecc8a600a66110004de6fd02abec5001905d2103f72f30011ce7ad024c0a1b0011a4af02e6e8570398f2a202f8ae78007dc9070383eae400f3b28c0107bddc00b38549000697ea001afeec0386ee1603ebceba03e403e903ef19cf01c761d90069a01501ae002c000b3b44010c9809,
  0x13cd2038ed48f03a60db5003c084202196930002daaf802122e3302353959003c09b301176f7c0019e27b0284c2ed02c8fbd40163fab201fb4be001af1fbc0382062a03db1edb00c34b4301cfc4310010612103fbf9150365e0570174ea5e01ef2bc000614ab20032678a00a041ae00c98ae8018bccd7,
  0x354bc402be7684009b8e9b030c9b0a003d156b022c4d8b0289c04a037ad3e402ece20e0021cf9a002f76b1015844de01f632b7013555a50224d80d037ecc14036d46d20023f8ee00cfcf2b00c2751c001cf65602114ffe03a07d60018938ad0221f3ae001e4c680106c16a02d01ce203146d0902248c29,
  0x20076503e55db900bf1ca4023a782e0216118a03cf23f60182eb7902284495002a3e3301cefd01002265cd0144e08d00b4b50b02f8134f03d3a89d0332b1ba01be24fc02464b4c03551fd502137cdd0022727402decba90399c9eb038e78dd039e997b03f0e4ae032722c0024a143e02f6d66d03a3bd9d,
  0x18650c01663610005eb59602f68c870370273801b765720276ee8502b73756015a4a620043b112000d4e6f0319656f02e868ab02bef08003a3956101b9958c02e2d79f00e89a70020ae60b03075160002272cf01ab3ee001a1880301766688039ba7e003b2427f021aad4b01fcf5b80388ed120344827f,
  0x3fd42701ef938502b19f070399843802db48df03102ab20239a8820058fcca009b9d3401c99b5a003de8e90277362c021da623037963fb00be403600ff66d403808f5c0294109f012b4a5902f127d100034e2a02fbd37d03c7098703c61dc30266bd1e00b3150e011cc24c0315b93f026e0ba2001435f6,
  0x2896bb0071d19b03b5a6f7033d951a030d89d203926ed1020fb5e3030ab0d001f5ec1e03f291660007d4f10184d73f02d9049d017f461401968cc2038be16e0334625703962249022b10be01f1678e000937be02248d79011d08380267ef4403a9a79803a6955e02b2a7fd00f55a290391f7d103eb1af5,
  0xcf83300c9760e0288030800a7d06e005539c1036e9b2b03405d98039273320071034901f0fdc80033e78f03fa1a0a001fd50703137054032ad1de028df89903930a60022da94f03bcc6f400079ffe0007df87028a2b190326a9ed002faa04029f338a00604bbf02dbd6e4017fc16802e0734303e76fdb,
  0x19d45900f2437103eb0c7c004e754703ec4b6300a6492e03923fe501eb26360261bbcc001c5a9c000558c601a4d65d027363f40127db1101eecf5601065e6c01902fb9000e2153021790bb0228c44d00301feb01c06b50026bb667016cb67000530b83015698da009d4350016a4a4e0285391901e18f00,
  0x3fbb90026797ad0196bfe1016490b702bb35ce0379ec35007cd68b03bddfce03ac0a8402c56ebf00192e1a019df24e00c97cda02c28e27035c683c0240fba40015eb4d036075d8033fa4b50186e6c8002035c501c65f9703d516cd009cb2ee00966a0b034cd4610214c7180240f67402354ecc007b69bd,
  0x3283c4035b1aad00566a9f01b7d0d1002a3fbd0062244000c073ad015c0cad008da9a70284280d0000ceb401460472011af21603ec20280280bddb01e37dda034fe33300b43ad603bd99e3013c7fef001ae1120249177603ed232602d6f8ad02e4f26100cb8c0a0367ef5f00278e6f00233772027a7e7a,
  0x30daa30106ade002504f74026eb9d9028f3b6e027dd0b10255016e034f44b8038afe7202465da800079323017fa90f021c55fd00d495d301ad93a302d259680379d5be02145ff2010195dd00ed879f0014f0ae0395753303faa5fa03f847660111cc2b027f4b4201238ab403947dd4025c6aa30216be5d,
  0x369fb80032c9580145d72b035f900d0072fc8603c70cb8024e411602c167ff01f632bb02efc24b003130de012efbf70001d5dd00d52dcc011e187b0228cff2025f0dbd01bc599a0286734a036106c900223cee004111ec02ab40370076f3cc02ecb92d01a029dd0027f03303183c5300f2744000cadb39,
  0x26957200789bb0006d790a003b2c8a02b2a60d024d4015000370370251198d00080777018a516f0002dfec017977720216d95702c2d47102024396036f496500cf17d8000c0c5d004987af0143ec540011188c0168186f00c90625025a2afb01d197fc033fd27c0248283a02d43f08035e7c7c01aae046,
  0x16b48900b9e1b702c8ecd8025e8fbd014e09a4012b63860037877d036659a0023a909303acbf5900349aab0286dc000130a4780063a141032b60ab0013ed4c00516a36035b8ec0023e4909027c9080003426b8008c758a003c497a00e0f1690001d4cd033a6b87007eb1c5006cc20000ab016302409839,
  0x3f77880151f19900081f9e01890cbc0341537a023b1b25018e4a4b00e03f79018278950045142b00101dc10206ccad02de94fb028304250314a9c1011837f600a126c40109e68c0249f7b702af0599003e2ad101792a3002efdd0503fbad07036dd82f025f6ed70180610f00f416e10314842800522e2e,
  0x35006003d15a2803f538cd015c50bc031375a40345b6f100c1b910022a2a29004f686303176ac8003a98aa01ccf91f004bd7bf01fe4c170087d0eb02c463410123046601776acf00bdbc8a01765c08002eae4303da572d01e9db9701c69c27020956cf00c82cbf03a23c9902786e8000d9d7e701c93154,
  0x1f5b2202ed8dd8015b229401e760b3017deab20059b7990218b46800d69f7e02385b1101a1b0d600302cf203e55ede0398bdf9030e8ba302609ab401570abf02b546fa023107cb0143249d0245173100270b9f01d7b4a103302424013664cd00a71ce501d6b24d0072da0b013b4739026bb2c9005b34d5,
  0x1828e103dac97b03b8b71e00553bf701648ea6007ee7770001083e038d1dca00a7b04a015f66ee001c406002bf8a320026e08d01881e7302f4f20700bbe24101af10a80010cc9a02e5fe2c037e7d4e0029b8010338b07e00fe5d2603978b9d0129d3f00155733c01a8684003a67b8701dee2f502fc6daf,
  0x10fbfc02940c2401a4a41700e06468004c7dee03b223f9027f841e03509a2602ee60020332da83003a20bd02c7747d01d66677019c01f10105a35d003a3b87020d0eec0078176f01f46fdc0385755a0010cf4c03b6c53e01fa8f4b00954c2503b252210362aaf90061a18301cf4a0c035d059200b120c9,
  0x35c9b3025fb4cf017e32fd0353c32701f29b07037d5d4d017b041f003875c503d3ce9200a5f99200300c4b0325921303fdf1a302d5d19603a49ce2035b57450374b47d0004f0470279c0d303de03c8002362bc0352f83902b0427102d58e3802e291150173346e0327be7d030bbffd0234711a0228e695,
  0x20058702327d8001f4cd5201cf584a021f2b07013361af02a106d10204292b0316995f007b085400014c6d023f172b02af0ddf022843c30114e566002a1efd01a1570003555ea8009387d50261e23a0012dc70034c8daa009a4c9c0388d2da02ef8dd2001df595031a5296037faa4e0044008d0186ca8f,
  0x28c74903177ec903b15b9b036b7589038defbf022db65b029e6aa903e77f9600feb01902ef4e31000258fb017b87e80341783d009be9da008412da03e9b6ff00cef08302c283fc0370d08b01ce000c003058c40056cc0a01931d5b004172860208e6ee039d464b021e87e70120890c027f2ce3003dcca2,
  0x8163002643d3e000fb921010ba6b2022a74de01a976f70059d2da02680ee80399f751020046b6003251c203902cc002651e190024185d02715ec30311bfe60143206e02b68f58039b2db400dafe940011ce430161500102e75a03030d51970174c14403b5089c0181d28300cbb37c02dd3d5c01cc56f1,
  0x3b76da03c2fca501b9c79901ad93c0019ea0b102c5b59800fafd6102a6616403c84ad10173e4aa002ddad5023f643303bf7513027142ec0252f3e501c5e364008deeb90138ecc903b58cf20216b6960024cde70239740303f783f302b74a730283e1d201932bfb02f04c900276d86502db68a200fcf501,
  0x383b99007fe65402870ac30028f48e01098e42022b2bd80099804e016917e802413c1901a12fff0009be7800e546cd027f267603816e0a0148d03a02016f0f015bbc730021495f03f8b6a400a1f90c0023cc3d03eecd1103a8edda03656a1a039ba87203f431c101174941032ec56300b2e0ec02326c77,
  0xab4720324bce003a963c0007f70ed0396bd9802aaa7340384754b013a83c302a5b7730157b6fa0012dea901ccf89702a9f7b503720de300bbf291002958b403794a5803cc016f0383a8a10236a5ee0004cd9401599c410167e9920040b7a902ffac8101d49452012c6ced01d2c2540001d50403dd8450,
  0x2e246a005e089400590557025b19b603005732000ccf2403b0747a003f1972037ccde40016607700383ac900c6a1390016a3fc004df93a027dad6d00c723d301e5e6610061661901ba2dc003476b2f00070ec602e57db20239e92302e4c8d100311c570264091303151fc9017b925702cfb686022f9b56,
  0x139930005134ca0188d99d03a54f8000ccc9840154f1f0017c443d0204cf8d034cc4fe039f52d5002f1e3e032de88b00e391df001cfdd203f9f77d0272f6be03aeac2503c7a69e0329914a00085b82003b450600b430ed009ddc47004c556901fc325d02ef4846007611f40194ebcb00b62392036620e4,
  0x3e144101f411dc000ca646013d4bc8011dbec902fbc9ed00b037dc0087305d02388a0200b37fc3002b43ee0327357f02f1d3e602357d590028e88301eebd2c019abcde039eb8fe03b056460130c22d002b116b034534a602289a820364a7f50180327a01f6dff2025f683600aa4dcf0185604a00b1c054,
  0x27549d01a2e4f202d9eacc03ad85b801e36db601f0206a0099121b036c8191006ec31c034a71cf0005e04f0352ae1402155909017bee27012807a90168f6cd010c7ce90120dc9002df806602060e6c00142b0c0044d92102f5d39f029837e001a23c90033ad19602d0ae8e002ebba5020d7ed8030c1a61,
  0x2af0630385f2ea0015b06502c3a4bc02a7bdc30377b56c03b4763b0209b507011d1b4801b6b4bd0012e8b8018c8059010f8d23034fab1c0080191101746419005a1fb002f4abb7003bbb140394444d002bcfba03c7583c028981f403615d7f0334d7e20313b28100e8bafa00246683028616ff02501eca,
  0x1c989202507d1401d93b7e035a009c025972d6031762da02db62a5019e7af8007b168d02754f57001784b400490d9f011b046500de9ff902afd7f8036064a100798b4503e7099d03154151031b332d00088e82028df03700506ef302fd362d0351a7dd033a3e340186032900952c3d02e577d803c00fba,
  0x2e708e0388d0490347059903e1ab26035ec058011527e803fdf0020384557d03746a7b0379cba00026995300be8df001cbdf040286a26102e217900236458103939539013a533e015f2378033b347100361f1601ee7a020200a6c50033f10c00915db4024e020c003c1e0502cd0c5b02b0fb2402ac417c,
  0x3b11e800e440f90375cee2025e220b0092171e0282a8c903af1cf103e32a14036e5403022ce7ad001742c702d06c7f022a355b02dc1a7f01f5a60b01b8e63b01e4f1c60234b2af031658a0002ac9b3002aabba03a35a92007b9a3b00b422da00e67fcc038afa440110cbc003b33fa000db1a4f02c02eae,
  0x1905c8021d0c9203f15426035d99f00169406c02d7f53b013f98600216b78c033b36a4013987400014bf9d00b640eb01cc4cd0007089af0172ed2503b4270602883c1902d0194000ce9659013f81800034d6a400c7006f011b0bb902e40ff802f5759e029d2bc2014b500d00e72779009b921003b25283,
  0x127b5201bc7e2600ee337703ca7fdb01ea87f701c5887a009fa495013bff2b00a48f3b03cc0c1e00393843015b024502b1a0430047c99d0154222802f650b30320976401dbd4c401be276f0359df4b0018714f02ddb88203fc2bea00cdf55400350987009d480b013e541f010c082b02514a33031e1926,
  0x12181c01aa79fb0067402e03863303034cf21101a4d2b003fcf37600a4d81a0229f2aa01af47a9003a8e9901088d4c00d78fa1002ba6c902c5655a01b3250f005cd31d03cc48cd03a28ba0022a7d3900274ddf02c9f8e000d8f7d200fe092b0164625803f22cd003065b6903f0606e01f6dfc601ada4f3,
  0x2cec250335695901517f1501e9fb5b011b9acb03017407032b70b802d420560049acff02f0456a002dfc24038a074f0382369f013435e402566423039b99f10360d41c00192ca501c4295b0277c51b002fe02d032971e001f97c7a0085f9750324b84d00c8c74f030286fd00544ce80213c41a0122e185,
  0x882da02684a9501b01d0b023d46a2036766250180c7520020130b0086247801c5958c0236d324003ab4c800031e350293ae8002290637004cde9800582b7000051722011708690269342f03386a830039c1a301eaf6e600ce756502e7d1dd01cd60440331240c03663c820022ff0303aab42302a45ad9,
  0x17836022841e30248d57c02f87ad30216b20b03b913ff015325d00101fa2c012e3bd4033affc1003af18e019f48ed0012f95503177cc602b5df9001708dbc01239689005ca3e103c427980026a7ee003765f403d9a84000fb8e52018100ae037fd75102024a2d00b583680084509d0070178c03ff832d,
  0x2f3511018a2c930302e95e00288faa0245ddd60263f9480259a5c203be5ad20161afc301f98089001b3ae20234d03002c48a61029b1251019eac8a00e4870901f13d4e019055d8015c7b9c00a92dbc0008a1b6012cd9e300af946d0083286a003426d303a14bca01587723030f62d000378214031822b5,
  0x2c5b5b0181ff880015f3cf02a9c256032a7e5f03f6dd1f01524f2003f7635d0291d50a02d0f3bb001771640283bbf9024f0f46032798c203293dde035a86a2015068c202301c4400d03c4e0121d77e0036958b02f26e3c005f4b6f01dfeb1d0389f02f02f25e2b038c34b802d095cf0385bc440385624e,
  0x1c589a00ed83e8038cff51003a2c330390c7a20190e58301d4c303024c1cd903930298000bd0800004cfca020e8ffe02c347c400d9bf6a011c329d02b9fa900396dfdc025447c901c6d857031dc03600354e1d01ff86b100619e0c03c1421c004a8d1902e5fafb00ecc217010d331002ed1a5003662889,
  0x1d4878001aa1b201098e760007376c00fa77750117e97f02a573eb013f5e730267e92301328325003d265303ce7d2b028356e803294fe0022ca9ff010876be01bfeaa8023df0660303b82a01cfc314003908d601c7167e0048b34b03ac468b0359acb102039a3f01ba07fa0076782403a0576a0093d5e3,
  0x94caa0258d6360033f99c01b0227d03f4cd1f001911540217cc7f013acf5f00c33fda0319f96c0030604c0008016f02adf464006cad940281df8f00ed0efa00b01d94036b4a9e0106f07c00e7db150030c6f5026ae4bd036d880003ce906403b5adf10398cc9701308e51025e366c002b69e702be3cbf,
  0x20892f036620f602e19f890287909f03652dc902ec9ae3003e7c03034a93a2018dc4e5028a8d2a0027823901e405d302b481540344185803d728aa02eaae4601c8f86902e57eb302dbc4770290262e0020c580021c75aa025644ea017e19bc016b8f9e01208a3f00ac86980237c50901c365c00007ce32,
  0x11993903163a3f0074a1580176f63902a7ff8c028598ee03378bd802c22795017f1a9603721fa8000a7fc302fc3a6301cc645803dd40db02cb63ac00fba75f000604930195900a01d833bd0300aa580021c1af02c4c19603a48e8c01eb9aa3016313030257e404022384100246996003e0bd4e03bc0611,
  0x11a0cc03a6d7170289755702b85ac70131c77f0236ef0e0286554a014b2f8600195785018ebec10023816102bea0b301eb1771008e95720002889901ee976e0386832b01181aee00c0ac90027775200037d6d6038d3d2f020e611e021feea400521c1a034f4a2503fde34d00536e0c02989adf0023b9dc,
  0x3a56bb035684cc03b077f00134a20a028a1f9702e5b9e0028beff0012955a700d1c01402e5a962000023c60231178b038cd55c02c61ee3033c5c49004f8de802cfaf0b01df30510117ca7e0143e3c700012c2a0116fb3a00a3f8bb0082fb0f01aa118101ff015300d5833a0147eb88003f5d8500d2d72b,
  0x15d67e0233902602b4c1bf000acfb2016ed92c03893b7800786aca00a3ca0b0260ed9501b6ea130028c7d102a26c0201af9c4d03873b1b009385bf02e2bd4e0307f20503dde10803a421140123cb1a000fc20f00d1b9cd010a28ae010ae59601c41e38003c115201fdd5f00248754901cf574c03eb074a,
  0xde9c903d7fec303a91dcb00fc003303f2989f016239ad03e1e38f03d2d9b9021332ab01cba7440007b6f701ba4de901be0b58029ca41800779be202a1f2ff0288c942019b2db00140b5a6010f197f000d0d5b00d80e1600d27767001430b00292a7a201992cfc03943c8f009e2d270176c3e700b07777,
  0x19179300119e4a0111668e03d7d6f503f8661601e98a8700fda383038654fa01801ce803c1233a0015a588008a957303dbe67a01a7967e01ac79ea028dd88002542d9f005128140326b31101c449660011dd61006de7340311218702048ee501adccd403336693034528d8019fe38b00cc29f40343c8c6,
  0x1b2bd30275552003ed9e0102d4169e01b2f4310191bcad0315b37801e75192015e89de030db58b00294c1201bc93be000c3a5202422b06023dcba90072eb8b016bf20d00d4bdf20185444c02b937a900157cf900dcfece02a22f2a02a74fad022cf6eb02874f30025e2294028466a0014bda37019acb0d,
  0x16189d0154ffe401c947ac03b069540166c914020cedf20393867f034485a701bf4f96014523b40000cf6701a2405d02100ffb0008dc6e00a9752c0227654e01b7e20c0314e0b00059efa10364f448001628a30035055d0342ea830091ba1100a76d4d00c7ff6a02b71b5402bb4b8c01821dee0356cb7e,
  0x905a603debb940169dded0160bcec01a58cbe023c7f650209606401fb596001d1fc700039d28d001094bb0387461a01b7612c000be596035f3e7503f2e31101acbae0034eed3200a171940179e2560017bd9f011ccc2001cfb7da038e43400171ff3803c4fab4024cb33501740bc803f591140003d504,
  0x2a2c70262a09b0233d7d4025d8f540142d48d002d447802e58b86024f5f9501cac8cf02cf070e0032e9eb01ee36cc0204d8fe020c9dcc020e6df802be5bc0012e1af401f0765900fa35580021b0f3001d081101fff3dd019e1ef202c7549503e20e9d01c7d66b03b8d90202a96a4803f5ea1902e29bd4,
  0x1dfffb01651c4200b9ea79008fcb92039a3b6401665cca0191ed5803634181004f864d01cb19ce001f9c6503098a8b0192254801936c2700c4000203426f6300bdbd110114471a038f6b9300800ac900065c26021aa65d0195e2ea0149ff59036628a6010059010238c94b0046df3501acec2c03c864d2,
  0x13864e03f3e69d01d5fb380048a3df03d07b4b000b0eb803d533fc01e8d1cb024d7a86038fb2b7002b69bb02655e370207d41a0353d27a0236f39102ff2a9f014ad2730376303603d7426000317fa5003cada803ef6da900b239a10215e7f703d51f25021d44670128681800876c55017d2ef9015ed07a,
  0x27af72014ac8d700cfc32f01839788032e38b4032684fd008e69af0140aec9032ec2db01caef1e000a25a003451c680303b06300d3bbae036c473b03664f3101f30472020e755603328862038226100012101401d52b970194b0fe0130dd74019768370077787e01c5c66d01bc694200a0f1f4038bf57c,
  0x3cfae50042dfec02dbb72b004265e102d4073802cf35c5032b10510301e1b102a2bb1d010ed79b0012b44000111adc0331f79001b191ba02ce0b5d00e9725d02f21050011314f200fb8a770357b9e4001a28b7034c8a3503ddcb7602a6e99d01cb5f3901556f6201659407027482d400d437bc00d4b18a,
  0x3c2cbd01bcd65b0151f7ea00d4e2ec001934630059ed50030de6e1036a0e9102a177bb008e45db001501e9026824ea02d928240261750201314b5101e78fd903174f81006bb5360062efcc023e724e0017ce990222194f0188e368026941f401f9f7f1037e887400bb3c35038897ae0393d00b01389704,
  0x21cae902b4834d03781fe6018fcce401a10e2a03b4f396035c27dd0316fc2101506a5501914a22001ef3db01b37b2e0297c9a4010f8a6f0372ff8d0249c64e00338b6500b9cc4e00c5b2ca02b73b42002e364f02d92f62037c276201d4e73a03d6c72b01565ea201ac25090283c7ca0162c8e202261fbf,
  0x28b8210241977900276c7e00f04bfc03120115032b7386014e87630184bf1301664b8c00543d4f0029ba5c02bd42ac010cfc5902ba006203971a2303ec30a000599a9b022a6dd603d986de02052cb9000955d002e08ff40129462c015e31f503f07eb303806dd6008605a300b6afab0082190a029d2115,
  0x2abb0103a3b0930320a367036833a6026b0def010cc2db034de380030685e1026746c4032afe600014edcb028bb5d300c566be03be493900d97a6f02432e4d01dd4ab602d9f889011b2e2c03071626001770f60122b7050378dc8d0047664a02b5e42601999d5a031664c7021cf35d00111399024ac392,
  0x1f3adb009bec37008e449100147fc901d201e9034649ed009ffb5903cfd78503b172ca0198c3d2001ce8fe0297931b0385d4280051ef3802f677d401b02f2d014ce199022df35b0384bab000bb44570039ac87016aaa5502292bf700c2999502a7eb3e0131a2a800c5d60f01e4deaf026d4ec701a22462,
  0x2567b102e899c70052de1902d7aa3f02f644ff00ad923002233b58014f1e7e01fcbba003f2828b003e9617039e17dc00269e2c014442fa01d2928a0260552202f78666027e47d002889426034c62770029e3000049c0fd0321ac540301199d021f5e7703a8a72802196e8000821c4203343f98016d5500,
  0x29a22a037bd60702d191f80077aa470300a7e60381ffde01cc14b60211547f003d46390156313a00122b4f01af172b0246afa80356d46202144204026f99a60362b3f302ac44ce02c4130c02e2466800352e6100beee1a00da550102475854038a5dcf01fb0007033248ff03603e4d016a7d1b00fc6c0d,
  0x80586004735ad00ea1f360356c6dc035a3d880145011900edd4fa004f371802a2035e01a7d4340020b45600f8062d01a3256b00e0765001c9a07801888d9e03a35571037fc06800278dc903d4dbb50003de24017d597f01b2175a035876e700e296aa035f8d54011529e0020290d101ac01a4010fe3dc,
  0x36700e03a96645035d33e0016984bd004d6ce101795a0d0078a39300aa8821026bf9be02eb150100089a5b02baa7fc02a9ea2f023b43c8027c45fa008c645103bf3edb0187a70a03f41cb20058df4300276437007c86bc003960d500c850e10139ef4e02f64359032fde24020426a303482bbc03e86f5f,
  0x1018c90357c73f0240232400569dbf0133cc7c03a7b42c037d462a023b181b03eb120e00ed886b002df4f702dae1c003273655010240fd036df82e02301e1f0192d43800b9c6480158516f025658f7000c44c803dcbca002795e81018fd99403151beb03593b5a0127084700c057ef03d2ef840286d944,
  0x315f7c0099522601f74ff700302a6f020f2fdc03a4c85d0007d75501cc551603a119d90310e7e600023b23010a9ee60235ff2300fdaba9004b6bd30078d243006d7db60302b125028dd016028938b6002c5d6d0312795d0150f232023cae8301fb13ee00db5b8d031b2d220034685002a4f0cf016e3348,
  0x2df3fd00e37a21008059dc027c77240033f32203b1da8101a6a1ef03b44f2501e4694703c79fc5003861dd020ff79c00c103ea00752f68019cf34501e19e0c01c9db3f008d2bed02818ca80394f32d000f8c10013bdb0600d1c16302c3168f03764f4000e6d3df0290c83a0172530801d99b3c03f6382b,
  0x10538803e1a128027dc4c60017847a017820a902ea87a7030b6e0800e8601b033b1a4102ceb85000351b3501437fb202eef74201d6491d00a7ef61015a0fa1020edba7027a018800def7e0020fbd7b000d59b60009b3f80389737b0385ab6603b8200d00d91f6401a7cb3800f8ec4a005f0d5a00836e32,
  0x18d8a100d66a22002762ba013f9668000edd05029d95360125103200674f0003eb5fff023e6f10003050b503accdc303a14dbf00b14a2c03cf02f0036b664201bc53c8021c1139024dd8d903ea92fd003776ce024f5c8100a6152f009eb39101e092e6027b44f50332f68d0021108c032b603601b42332,
  0x3a585403f42eaf004b112a01353ae702af091a031fc29b008906200389657a02ad31df016842e10033353100058e15010ac1910201279703bd1cc3008c3d2803ec62d602f88e3701057e380262ce31001cdf430341de8803a068430222b3f1019974f8037b77720355909002b0a7f002074c6f03146263,
  0x6b21d01c609a10051ae6b0349312c03fec102029da046028feae3027207ef0357aa48010ec42e0026ca0e026599e900a84cb5014b5cab03f26a6a003dccca02eb43f4020bce2b02dc163e009398aa001ff58403bc06ba0132d2df009711b803ba49f7021764a503459e5403e5e4360381fc3003ac45fe,
  0x13077800f11bc401fdc6ff028a86ec027095a70286c4b40239fa1c03a908040102421d033eba79002cf45103005f3f00dcac9702054b5101ec0b2c020793b00066f85d0240488301d26f5800d4ed450028476300df6ce702d777a2013f663102a0f14c0212945c028d982101d342720148aabc01eacbb2,
  0x3a14aa01aa0d20027fbc2b0103b8fa01585bb3007976a602f557760116b4fe0249f3000002aaad00277df0019012c701e3dc3c01645e4703811760018e55d3013ead86016d38ff01929f07027ccd60001da6a001fcc4c202bd52b1028079dc02e0531000be46ac02fd06d5033c22d200061e1102df9770,
  0x1ed55b01094b6f039785ab0263f4d4004c5a680007342c00e2e1e1012bc7a603446ade034773e400389b0c033b7ef80072af910266c66702ff60b202eb774d01ff4b8203db4e78036d5b7803b872b60033ea5b0225dec70072e57001f5a63c0190bf3d01c4b5bc02800d5500f93b8703f2070b0347e979,
  0x769e602e870ed026e39980127940c00d831af024e22a6035cc646020942b202976a9002a087c500009cc800730e3501c2fbe101e807c0004f505b0060601802b478bb00266c8302a40836015ad7e000027216011bd20c000f923b0249c84f00273ae402bcd5f701dc6b47005892f603b26f070389e516,
  0x1cbc11039562d503e9670c01daa9340020b5b303c497b60361b7cd03b02d9502b4c3db0385ce7c0039256800718ae7038d82db011db7d3002159f600ce6e7f00c6efe00138a60b02a0d05d00280ea70005e6a802f6786803b5645c010dd6b9012b041601476cbb006a2044010dc776022d971200d40c5e,
  0x3e73da035e1c0f009d088f035b626002fc9d4d014dfd4801a54820037f3a0503b244b80196d4620015d64603c714280114a0ab034930c502615ac101dedfaa011120b002dc795701769499037ec7980003a8b402dfcd14003cf0b6010a21b203543a3d03248a1e006398f600e3d48d034115e5001855cb,
  0x19de8c02c5d7cc02a1272b00ff0d0801fc133c023230bd01a5dae802edbbb2027dcabf02c0160200304bef01c7d22101b17aa503e921b7020ecd2e0196475a012b04aa01bf205d01685f08017c139700316c4f01dfc68f034c7d0403141af70018374a0383b43103d1d7de01e86c3b01a3e4c0019a2047,
  0x294e1c014e9d16024deeba01bda6ff0112acde01dfcaf5010e68e1002f5bdb009b4e90007dda0f0016351201dbf9e602a1cdb7027d0f9e01a6325900f9b481028f2e2900eeaf3602487bf001c1d17500004e7100f563ed00f0d38503d1f7af0310203b0144fa6a02e3c6c300b41ca203d085d5027c2b73,
  0x221897020d488001e018b30210491c00f78f3e005eb86f020259880304d2a3014ab72b028b858e000308ef030adb98004e91e800b6c55e0036694d022cb29f028f01a40331252100b9d8b4023d4f0d000995c601e76489014219c8022931ae01ee33de034c0a7001b831a700b865a200e68cbc00b3af5c,
  0x73d303252bb2016957f8009b78be01257bd702c51fb7004e80c40326542400d91ffe0091a9ff002fc8c30021d0f80076e904012ce26603f353e50030243e030ea09d0169051001b2b8eb0369d1a5002da5850270752c01b9878901b96bf20238ac9901c4712003b4d11401dc201d02700892021dc829,
  0x235a9403f400dd02fdb620008638d203f407a003f0722a00ea035102d891ef01dccc110146ded9002865b201cbcca30101d42d0223c8a202154c730060df5800ae983402ac50b603d0910e033ea70b0006e9c70100b1f6036c2754021d723b032c7773024f2a75016458200278b2880201547201b0c58e,
  0x18d90f00d6228201c259ee03b204d5036692450327359e0390d8260133fd0303d388e503b408d0000d83b3013e8d2b02dd0106011d368b008d432801e52196017a22a601d4cb540122ce5403c7427d001ffc2d02e09d3a01df1a3303bda071009356e0019534c9017f8d9300642198015be19103187bbd,
  0x332228007ed24c02cee38303ee3a9003305e61035fdae702b9b20e020bff88024a27350091f7b400330e4900f883e5035aaf3e02a1ee8102ebae460037c008003c8e160397967c015af54502d440620012e21d014da79202a96020038a0987018a8ffc0160628d0022e5f1030b5f1802a9e27e03e33936,
  0x2b907d020a817001aa249b0054672303c4da2501baf06702c7fecd022e3ec7008ce508000331190020e2ab00cc122a03f06891036f2c7b038ca9e0012cdd7103c7c5920266bc130188ef4e02391076002ec183027591b201b66ca1008ee5ea01e87a13015cf4c202e3c1e00061876100210156032b027c,
  0x1468a100a00fbd015c2b4a035ce5be01c49645005ee88700ed458e02c2675801cb470e01b7ce420039da3900288bd900c7a9ee0252a0a30014cc7002bba980003c9afe03a274c10290c8190312c3e800266bc6024ac910038b26cd003e264b0017a6090044f6c9027f3c6303d21dde01f9217301c02ecf,
  0x2e626300a4358f0330ea2803e5cfa000c723a6008c4bf300b6164e02b955eb01ff5ca0024d19f2003f704f006a821d00f8effd00946035029fec4802e1f293018199a603a44f65034d72c503daa05100339a3501ef194a002b649703fb54bb004626af027c920302912da702730c4e0372af2b03b73b29,
  0x194aab003c553a0084fe83003a22fa01c5b8df0250856503fa2fdb01a4f34f0054db4f01639037000c2bf20161a755039d5ed30319b4680387ac4b01a240ed03d6cb3901302bbd011daf2b01c8996a000867ca02afc58f0327a2d700763c08020473ee03be801b01a3d25c026d29e50170145603182deb,
  0x323508023b81eb03ece9420218969902de691c00d6b652026935fc007bf8f100ee62eb027187630024da2202bd208303511cc500d3aeeb03a7c5d4014dc8ed034db8e102364e5603cd216b01d0cf64001acf070139d92200a963de02757cfd02f5a0c10011f86b01958e5b0011e54c02b3af0803e8f236,
  0x65c0020fbf90011d05b80043ac2b027340c7032225d402372f4a01df4f87025b11fb03c75bcf0012277f031584d60259be5b001dca7800b8a3a5004366c4006d2563038ccb760173035c026457de0006b7c702d1af7301e3f8da0080402d027ba2ca034566000395831202ff59cb02fd028702afb42f,
  0x3939a203c7d982017ded2300a8fa9201ffb1ef034fa19e03408e29000dd04e008f1658014480f3002ad79701cf636d02d7a8cb013c179b038461bf0042b2fe0122fc6000820fbb03a440b100b30e600030916e03ea28fb00acb30802d0ada202817d1100d0bc8f0065d4a903173bf50053e49c02122eb6]

/-- secp256k1.go:10, serialized bytes 860160 to 890879. -/
def tableRow28 : List Nat := [
  0x0,
  0x17365603b880fb02d356b901df2377018a746d0383b10e004eb4b102843217005c93e30129529f002ad8c601e7faa50125a6b3007e904800acaec9008567c900cd9edf035714ee03276210017d909e002f8bf40209b6cb01b5e167009921f2038a761d0140138a016b597102c3a85100fc11070291c520,
  0x6536a01692ee1032ec9d50182f4f802ab392601d1b3ed0251ae280164012603474c62033c351500074f3f0165a578026df77e035229090299411e03e9ff1002539e3a03f8c00903a0f3c20378a0e8000f6b21030e9de000b350d700efe546021daf060268b0200246d615039c4d8901e61666034d115b,
  0x3df1a300a12433034c020a01ec4f01016176fe03e2bec40141149203b91990031ce17202d883740027a13602a46feb0319b6c60211910302779aa002247c26021ee35b0115bc7a021a01b7018896980012fe990275c2d803224f2601b00a76002264db002dd2020018d0e103df2ea30228bce5007e9337,
  0xa78a9012ebecd022df8f203b83f4a02c62b92015e16ba004e8bdc0055bda7038841a60294a427002ba8f603b47a460245d27902bfc812016a8e8e02e6388c02556d7a02263d16004b76b002d9232a00209e25015dfb6100273989020be4ce02f4c0c100595244026b4de703f05e0e0140f08601662781,
  0xdbd5401b5723a03b34f4b03c8c67801aaa94e00a0184801a90c6d00bc2ac200dcfdd10119727c00113b5b0007374f02cee99b03a0144b02c4e26e025f572d006886820377567303ba86b301208edb002b7e73021c4943004dae8b008f7651004e50a0001ad75e008bf11700c4532701274be701c4e199,
  0x2187fd001ffa5e01e04908005d3b7d0255a0e202c5ba1f03b6549201b62eae03751ada00b12f690032143603e44c240207e10802b1a53201d918ab01632f1a00e913ed01c2143100c6b88b00b893a1003b396d007fdfba02b906a30291ac280072bf290163c4d1021bd94903becd1803dd4af003022437,
  0xedc67014dc74e006b42ab02c6f55d00ded68a0063180700614d7700ee76a303b70751001e7206001054d8011148a1009e6a1f012a7b3f0173818c01e6cde701b0952b035fa9d903ff5bb102c6b7f2002b5d1000facad6020dad6200852636013185c80331103803fe3a840329d1d900155d7b027884d7,
  0x1bd9802753c2601b25d180073967800e0ded703dedca400ede95b0175dedd031014eb0223c0a3000d779f02b61b1100e10dbb01a6987403368bfd0127ce8b010f7d7303066e830248c18103cc47df003db70f032c2b980296b02c02694c1d010314270343573a027f2f6e03401d0602d22f9e0199c4f9,
  0x3a4833000d88250108336b0380c19d0167132500dcb7c000cbf5610304688500d833d603cd7ac1002533eb02e54554039fd86902674ec400abf7e0020ca1c401e8229400aaa68500b646a702d2b2a60015687001bd2d0e03cced1e0381f715016413810213f5d200cdf1ce0377c11301a81fc000f590cb,
  0x10ed1b0314544a0042bc2900f95cda005aa57e000320d903c2c17101b46f7b0047f2d203c79b34002bef7b02942387033326ee014baca0037f27e302c760a60062645f039b6a10026b88960090a6bb0039647b02dcb4030356b02e00d3449703f4a96a0252419100c199140066e41b027636f4005cb2a5,
  0x2a51400385a74e03e2ff34031093db01a1db5701ef85a70290f057017819aa0003d0c801569cec0029952502d866cc028387750060a534000098d5025b0bdc01df074000e56933018c3ef403c130c8002c4e78034981fe029c83e2031f66af03569b5a0112cd67005ed512020d819b006a0a3202cfa1f3,
  0x1f6f8603c4f3ac0055247b0193f6930335ace603923f62013c04160183f969005c73c102884e3b002ddbf501ff611501b461030291831400ea272b00e2361c00e3c4b7023d0b020060e9d2001cb73e003db03702f1ee990164d71a015ff8f402e5171f022bcc3003bbd90300d5921e001a0eb302766c4b,
  0xbf5950192d41f01e1e76d03edc40b02c82bcb0035048e033763ee03ac5b3f033d10b602e4a9fc00036b2500e1fb6c02471f74017348c5029bfe1d0091c8fe0385f7aa028756e803905700022cc26100340b110358c2450315bd3502a5c90103f75b2e00dfd735016c765f0057e0d201144c1200611e14,
  0x1ca94502c5f4390358f8ed01b14dcb0266f5de01839bb70090fc0d028d6c7c00ccfdbc004141b4001f60270361aa7e004e4e420134b5ce0164356a01041ff703d35c2c0271d3c901e03bf2034271e2002caaf60049693e008c10e80189e3d30070a5ed039c8eb901e4cee100c4643100f691e503995e09,
  0x39423001aabace028ce98f0235bc990337d45700638cdc03f1fae7005f4f9c01fa4898037af1a5000e1b59036d9e5a02cdae4a0121174d01c0fbc603f340d1016ad8cb025cfa5b0105d9a501120c8b0005883d00c5e9c00353eb9403c7f6fa022d75aa02140bca02f69e7a03cf4fcc035a00ae0193c487,
  0x6c3830139599101049b3d033ba43603965ee70083472e02a4f0d90166d2ac031db99300afbd53003dd55603c8f0ba03006e4300e076dc017cc7fb03e3033b02290f0503eb576b036bf03601046f20003b3a3a01fff5a801780dcc00c934510155574c0158d0c1020344010276fea202364a0f00522ced,
  0x13bd590220e3f101ab733b0097182303f9870d00fa373400a0e48802ca34810250988b00597ee000149dcb03859d3100d2306f02307ca502cf1b97034aabe50118238e032f442902c0961f013f614c002d2962029570e900da532d02a7316f00b9d2870095143d03741a7e0151f48501129830012e2cb3,
  0x3125f403aeb3620311d921033aff6c0097e59b03a29fef0359ce5603912a9003b8de070289ab9e0013f9560380e39f0172656500dd3f2301ee81c700964d7c0174c4ac00822bc100f3edc600607cf4000006e5022eadc90170cf4102c4dadc0378917f0367f50602f5d037035a694e02a8959b01d21a9b,
  0x28f9c0122c61201b16e330109b52a0300cb7d01a082df0042fad50275571903195cb40105a8eb000de25e0358a12b01ef7964023aa34b02742dbf026991970355aa04018347de006a3b7003620dc9003262700293467e018144e000d12f9f00268fa103fda32e005ef8d100d0b5d603c5978c01d82cf3,
  0x1418d5013c03a9030cc0cd01f9a13d0305a4e800e9c135002d0b2f0265452b01a1253a01aba4550010298003b5ff4a02cce0cd01ba450300eb980d03ce4e810243602603a90f1f03dc46ba02bed1b7001674a00177e214034a317400afd44e0077cc1700668ef90050e37a011db264028e1fb3004a7f1e,
  0x20cdf000cbd89e012e800103b8fbc401875c280100bb460237800c03653e7e013863cd01e8f83c0006269103c04713030d7e9a006b808f033979cd01ff6c97013cd6f7034ba6c701a7aa0c02680772003a895e0387d7590380c9750132ede3030f696602e861d302ce66b70310420600d6e5c40293bbec,
  0x3cc6102fc681a0170a06900c6de230207f94402243fd902f4294b014dad0100b48e810355bd4d0011092a00363545012672c201475de900f678220399a0490373088b031b4b730008011e0153a29f00396899032039b70309f6d202b9635f022d85b1032f2b4303ed3fb502cd220203dcf09402957a4a,
  0x2779bc014154b002a63a5d0370bb2d02b1fb1a00407a30017ef64702d8171c02f8817f035451db003a195602007ce203d2422c0204fe3b03f7dc26009aa52d03fbd43601d3f3ae02bc6396011c0aec00251dde0334771101247d4e032ed043028bc3f6006019580031a870018693d10079874100df8411,
  0x2fd3c40138c34d029baf02005960a401335aba017f2d5b0102b6a3021dc07903cf185200b1258c001f83e001f5f25600a97d7203c5b6de00bf056103d2ce5500ba2f1400149bc401665d0602c09653002832fe00143edf01a20d90039b46e803eed791016fb45e00592b5103f4d9f6012a077b0342be6a,
  0x7e5be03e2f82a029dd8bb01a6bdf003a4dcd1033dd20c03a0004703fe1e4b000cafd900c99f560006ceb8037f35c603baf10d005b75840346af1403ba0c5c005e2396010a2f8d032a3f20013a79aa0036679602e671b100b151700087025702ce86af00c97c1203552d85024f7da701177c1103aad4a8,
  0x2f9d870103ecbf01b50058031543b902a3c67b01fbde6100fa22a10020be1e01530e0503fcbadc001e10d6035e202600832ac5037eb64b004bc8680153de0200a525ab02c5d1a800e0050a023fd8d80037b98f025873fa03a34ca500e8928e034edd09020cb81a019100940374d6b0032381960071c7ed,
  0x256a9a006598a600a3becc0137634203d8ec0f027baa28012f76fe01b6af6d02de821a032e5b00003bb92002a9c8370354e8db02d255230074818303cf7c2e01b8b76502907a4d01c07bb003c116b10018013b02a88a7b03fa1048010ca41800f7a02701606dc9002725a103a550bb0150fdf7036a1c9a,
  0x1f60900027ac95005f77de02f6d4be02b7b741010ca9ce0215c2c503047fe50169e65301070937002396fa0027402803c74d8600b0ebab00dd7d7e02425b190239e49300177b2e0007245d02d9cb8f0011ecff0230b9840393a7060318d7940335a53203c1db8402099a85026d438e0323d7a50296c34a,
  0x2db88d0195946802c1ae0f03128aa401a8c67900a2a07101107a0e019b697100a7263b02fecff9003263ce0200f0f001f73fc70164d87b035ea3ea02628c18007d8422004e80b7009e5aaa0169bd28001c46d403e8269e029be9da0246518503bb3e7f013dfa31023cc97302ca67b502c5f84002ac7a56,
  0x2d5d65015f4e8302ec978f023d983701fbd6130236d65a027ecfdb0379f83a0348a79e029edd85000c93fa03da24b3013f2d4b03a3606202bbb9b302bbe8cf02b87fac0202917b03f7ffcd010a8f330016fbef02555cc202f2d59d01ca7635014c67d203b17f4b00bb99e703588e49030fed7600d377f3,
  0x26c6a903369f0e002a67f602a5111100c46a9d034fe59d01eace9d02549269006888d802b0823c0036fb24025910c3031c227e01857b070254575401ca6d2800e6af0b026e7f4902cb105a020b74a00011ee07034318a200374778000e6d150037622802036a89029f3ba9027495b60175fc9003e42c98,
  0x231c83026ce784038fe8a303ea45dc00a3eca300bb926400838f570192c90a0107900803294f290039d1cb027f7d75006a02ad00d8c9ba024b46eb022f4378006621550171c2300011dcb7007b79cb001bcc35004ecb160383cc5c0122e57600b8991a00a6e232037830c803de517500e8ac690101aa5f,
  0x32a5d403af5a5c027a74c100173d6a030df6340104ae0903783235026841a202fc58f40277867c002a515202d682d7005dee0601f3088801f50c6801bb7cfb01ec67850353eb3b0006404703fb4e920019cece015ec2ba022c0a9700cab24303b8eafa00ae8a5300d21e5901ae1f8700a8c74b00180921,
  0x1cb281031b1c1a03fd1b5c01de7b220029343e0112903d034c4e270016ee0601c4e0c201f20991001bedc00055dde2009a837401ce536500c1b41d03d669f802ae06aa00c78ead00dbb3f402f57e1d0028fc4a01ab8be80350a57100f2f32c00c0a01a01254a59006ff1e1007035c201fcb60201f3adee,
  0x2f4c300f8c31702ea78fe0057e87f039e5dab00c7da8b015a386700b7a1ee01ca0ff1031a079d002e144d0140729a0088d374006ac28b012c8a5302f2c1a50201c506018fcf680205b60303b5f2cf002f5571032dcc1d0186ff2801239346034514b001df6aef02fa07ff0323c02002afbdc8001c34e8,
  0x12a6b001a9c4100084964e01d4a481025cecbb0192174400a0f65f0111691c019306d1000eee8900390f6e0136bc0500841efe00bd9cd702f6f4af000aa7a903bf4b52022fe47d0025c8480303ef9a002c80bf00d5f78d0217857e023cb59a008cc6a9029b109602018bb20230a2a20341a31902b5ad0a,
  0x30b43802c46d75006da7ec028c000e02665f1c0049102b00fe35c50140201903e5c93402d6fec500316cfa029408440159794001887f6a03db9fc30329b88c02603606033de75f01cb960b021cb0880001d22502833d1e01066af402a0f0f401ef263203527c010351f97a02066ae402a447d30350a0db,
  0x25a70102202b390299f24701cf82d5038084b4016614cd02773009032b1a4b0380190f00b55caa001cc140022c0345003b8f800197962400dcd2b600a3cd6802075e48018f71b603d7aaad01a77efa0003a71401b660c503987d4c0078643b02f474c4018d65250238f3300155d35f025e9a48024a82e6,
  0x13b9440317564b00b48e9d0191d1f7019e1bc103eb533f00708a3102f1aa20005d51e9002799680035f973001fc0ab032fe675039c40570197c5f702a754ad01c6220501ca3b7603c15c8c0294d7060021bb41006a30c9027b2da100d60a6f0364bb1f02a8e4b50146a9f302f78e2c03ab88b100aa5c8c,
  0x38dc5702afdaa403fa7bd903fc062202c7e10300712c1101a576a4018182dd01909b18000fdf8b003f489c03c7258103a6a689022c225f02f67cdf025fcc240294c83003e93d29023236580088dfaf00341359008abf8a02518ae2022bad8d026b52a200d3629201bf0bc80261487402aea71f000ba786,
  0x8c07802832e8400e275170210465c00bd4af0023437c003637f4c019340ff02bd39a3036ba69a00343910031f99b301a8b32903bc69b00139935600f9dcfb00b102630394c13203c9d89c01c97a8000080f2e01ddcf3c02e0f094036b37f40294c462008ce64401d93ae203d5d1b601b74c6f01800f07,
  0xa993602f42e3c01ce5d10022417900062199b034b2b57020332760125da5d014857b80041a005002c70a60362e23502ca959603d0f3b3016b343a02b860da01c826c6020155e302942bd103354c3a0009c03603604c520277c31202705b0a02148fa70040e504022a0d6e00a91e03023710e7029a8d49,
  0x24342d0283748201a892f603ce73e0035ddf7800e5b52c002af61601f37b31005eb14f03daa88f0039781002d95c9a03cf083a01672cbd00c60dfb01c00b670393207901dbebf9006db47e02d86838000f50cd000e29ba0348deed02eeb1ad039036bb0179a02c02fb78430244c33201e82bc70042ae45,
  0x32c82d034613a5038013000289531802d6587f00097307013615cd0093def701557dbb00c3e730001d58b10227bc9d00ddc278020bd30c024a3a3503b68084017fda8603256a4b03b889ff011284d50027393903a4bf1103c6aa780105d9a600cd62490000cf530011369b0270cb3000547d99018a3fde,
  0x385e6703a28a5300895de703eeef5700ac1a7e006a023f01a06c04023dc6db00997be003a333a000261a3f012a7974035846b500df5d7802520ea102134c9b027fce0802c058d501bd9f3a00eb89540011c05d02aa8a010146ce060358e08502541de301ef644c026fa12b0161072403f7123001ba201b,
  0x1cf8f901f754a10384cf2c026d946200bdff1b020ac4b703ff9223006cc27a0292d319037154df0020779602e2aba40352ef9903c829de00ed3cb001fef2aa03c2f8c6008dc38201dd8ea90127fa8d002cfab902241a8402d77b7500cb02040043fd41031913da01ae4f03028f75f0020dfd86007e0dad,
  0x12927e002cdfa8014512100323f47c038cc30d02bb0c7c01c756f10203388c0296e28f0190cfa800313ca5033aae5f037febb90100d92801dfca7d02ca2c6a01a4827403dfae6901fbcc0f0134175f0024f47e0030675003c6740a02d86fc50375f0930313ff9e029aecb7028a3fdf0197adbf0213502c,
  0x33ce1c034b6416008fb3ea02219b1d03e78501001c9e1401a24f5102b0757602883a2902c318f4000b7f9902c0127b01185a0001e8670402cccd0f010adb0f02790ab5021291f703b9c06000870c8e0011c4640007b50c01e44344038e27bc029baa250129bc420203eb470066ffdf012e198d0027a92a,
  0x39ccf50045d19903e0962500a28ca903f5d11a031092c3023540e001bed00d0048cf0f003a83e9003dc6e9022bdea2020462d3024641dd00c8bb7f0379be3502de02cd0379edb401b2179103fd9a900005e8dc012d7e03035cee840061ebfd017fc5220372c0e60238d8c1024971840252c3f103540ec5,
  0x1a87af00a2d8920072e83d00cbf654031346390122f5380192207f01522b100150f73601a325690036075801d4bdd702456988017a507d027490ab009f6f9e0078dabb01ddd4aa032a6a0c03c8f423000ce95e0188e47d03948b6e01d6be7f033c24f701a1a049039c5c92018a188900fed7930226a410,
  0x39c43a037960310387232301b51876020bb56800c294e00283281402c8c2f2024070340216bc85000dccc200d932a4034b4edb03accc4d013f8fd401b9b785015cdbf601e5b412005af55202bf2b31002ae8df0106fa7002e1013b027d3d8a00d9afaa00e96682035fe984003c417c005b70d90124ddd2,
  0x32e7a70213413d02a4eba802ac7e8e002a28f30268968001338fc900ca8e87026ba910022a80f0001862cd032c0f4e02a6879d0214442f01dcdd5802e2731c03dc314b0205f0c703ad31ca02699bc6000e9a0e032b019102bd34b801253ac301498c08027ba31702abefae02161ce5038215a500ff0bcb,
  0xc95e601c2072900cc6d6a032cdec60341072e015a3839008d7dd9038e0eb200c84d740394724e002099a401e7fb8703d189e303120ab702568e53014aa24303633e70023bcee600e415330176efd900149e7600ba556402d9396700cb316c032be5ac00424281015fc9d400ff2d6a0291330b00149d09,
  0x3df0c203afaa4e00465d19028dc10100d1832f024d839f034e0ee1014513c3037246d303cedb7c0034b84903dece65003a56da0004359f004514f80291500801b9731c02db956403bf588503609faa003bae350162182702358c560317e8bb011e6a010276abc703390bb70020e6f800dd96de006b2213,
  0x365ed003082294002dee3b00fe0a8901cd231900e894e1005d3596030be9940195869001cfbc71003406d803fb085f03bbfb0a0202ca2f00c37e47037b4e19012218ef024ce952032ba9f3037ebae3001044a502180926017fb497025348f5016eda46021684c0015fbe3801288a5e03b8aefe02de7ea4,
  0x26e46201900b870018d3d50082532e02f09258012d17580394c33602a85d69011d1fe802bfc71c0019f10d02183533027ef47c03d3068301772eab01726ea7013c928e030f09ae019993de03f3278c00203bc10097c0b7013a476b01a6aa4c0187eee4037fd53b01c2e07303edc87501f9d32b003170d9,
  0x332b9702504be6036b967501aaccee0368861f018ba93801ff59fa00b393860388a5b101d8390d002a779c00ac532500e62228009dfda70007b07d00d3e80501424cfe0084ecbf013a734500efc447001aaea10342586903c247a302012b5b00b1ef8602dfb2d002472d1802e8ec06015cff63017b0008,
  0x3d69bd0363110b013b05a300b50700025e75c903220c6b03afc7f5024d45eb01d721dd01e4488a0005bc8f01340f5d021a26860396a3fc02e3a235030b3dc0001a666703a46ee50097e5d503b8ee7e000a3f0303327fff0313eb1e037d2c4c032895ca03fce8df002383fa01dd9a1e0363974d005a44cd,
  0x2b1aaa026b151f03f6efe002a39dab028fc54003f5eeb300a25d480327435803522a6c039abf8100207f7101e7e528024de21c030e3b3300290d4902f48f5301f156750070c1be030a4a0f03ebd692001b504d03e5043a016ee29801df113100e366d602f2c4240380fa80006716150145a5c101e85e08,
  0x3070b300e0d363019570f10161167001c0d6090195146d0168b2710381dd3703c84aea01a0bcfe0034cb7101c2366702a2c872012497e002a4afcc0329652e037d2ace034508b6007f84760314a763000b81cc02955b3a00e143d10163142a00e05d92033b0d0f028f1b76025aa87500eda1010069b94c,
  0x19da5e0282d09f02cb3da3016efb340131fb57032a4218023bc4db00a45fd401ba3210012f39c60035c7dc018eace001535423000aa3210279c13400485b3e0269a81001fb9bdd0037f61800b6894d00098e9d02581ddd002abd3901d91c1700878b3f02ed044b00e5340900061af900e3b58301375e3d,
  0x3de4b4035bfabc0085a58402cc43bd008fb26503f4d9280092dd990084c87601f3bc2b03285880000cd52403f99b760330ed9a0274516e0064ebcd0114540301cce1e702b7236101352112024baf420015dd9b0285ed6703555b5c01889f1e014d4a390070320503e7be81009520bf0049fb8f00d26c08,
  0x3fcabf001aa69f003ac98b030e041c03daaf1001b7a2390066f098023dc4bf00a698b40147735b003cd0da014ed33d02dcbf3d03e5cf9f012d178003f7821102b77ff20388f67e03219f390045619e002ab25b038e31e4003d05e103f40827018b937600392525029710f7019aa41f0101530f03f40dfa,
  0x343dab03c01cff034e90de031c5c83010c7f690052bc5101dadc8d0052ea300196f05f00b256da0008c44a00b66a5702df785502a66da8026d27f103c3abed03afd272020cc443003c65e00106d84f0010b11e037debd20302dcd701275d60022d1553008e594d003ca2e303786b6f03b63fb3002334a3,
  0x34212f021c68bd02e11ff8024c280401af52b6017f315c03fad3be01f743b701e1a6c10071684a003a70f700f3829a008054d603fc19b4034db4e001049c86027e28d40199ff9c00a5338103d0301800292d2a001b110a017bc14103fe886b01f55f1801bf529802ede4c503407eb1019b95d1015c01f6,
  0x143ded02d6ba21036add9703e18d1902719b1c028f200001c62e9403035f93018126d70217e6e10023c68e0302d61401df5e2503e0894e03e232b8038a5b2101478d24002babed02428eab01e26bfa0019dfcf0274bd4b00d7cc8f0026a67d01c96d1103263c6100012d4302688a4c02ed1b7700837041,
  0x3e78cd000dc2ec0140894401bcfa7b02ba3fd90257577a03237268023d1d960384f4bd005cf2b1003ed680016806090362504501e1646002f9184f0285f0c8017b426a01acf66e034d030f00c22c8c001627270338546100a0a59a039051bb016ac28e0061498203a1cf720344ecfb027a95d301664886,
  0x17092803d7d6bd036a4f8b03f8af380277155501f28437038089d702a73a50021141780383673d00324eca0245198e03d6d1cb02651183031309f603b137cc0378889403bee3a202c523c703f0312e00017029006339ee0178b5a201f3eb9201da390c02957c2401adf80703aa4e7800b264bd0258d30a,
  0x20c2f101a047c0011cf94d02ac216703bf6a48033ee29500fe6242034b5d1402cd03ce03b58a1a0011727e0230336700e4b48e01b20709031baf3b027f783501b084f30087a93f01905518033d48b100055e0402b7d402006425c70123ab490221b3400213d28803640fa702ece31700a0dc70019f10a0,
  0x127b600404100031af68f0132295103cbe39302ff571f00bf4e25036c612e0180cbf703e308770017005b01a5145403181d0100888783007d128303e03111009ba0fd00ca7fa1015c8463019e836d0021c93c0248d96b030d9286031b739a0166e6830384beff031f6530003087090370dc33005e1680,
  0x25971102aa55d10274f9ca013dca7003cea6e8036a93ea0079c072038551e501b19688000b4ef3002bde1f02dfd29903d2cb9c02180f6b021a3a6d02f774c40115070903f67d920242b3fe02121a8d0004afc302aaa66900c15620009a9dd50342287900723006019bb641022c170c01367fd5009c716f,
  0xc3187019a85f5004f6448007a500a017637dc026f23c000d7a22603e4f19502aef3d9007bd5f2002199490268526800b37e1802e9597d02f36ae50095f48a019e731a023282f6002896d9031b10ea002bd0a0033bc89102031f6d02d23aa6026418e0013d898903e35a7a032a2b7d03ac773902ebe305,
  0x2b415d03ff4a2e030d25ab012049380003a59c0007309d027b551600a0624c008b81c8027290cc0001d3f000b51d3e02f35932024468e90243f24c0103d9280206be9502ed447d00c349f10104d4e0000cf2110041b6fb002d4d1e0265c22903a93ab20179d6d903ebaf9602cd771103e0e93f02e0cd6b,
  0x14c50e02e89c4b0290b71a03fc3f1c010f9da80291e84102abf5c5013abee801e0e9c9010b0f9b0008ecaa0016301a00fba4550267443c00f5378d01358e810272e5810041b4100292f87503cbd6a0000105a20258abd60203c4aa0067defc00ee4e330368b86800610931024d5b6b038f16a603647c8d,
  0x3173e9022d89b4000ef73702cc7a540251555a00413bd200ae2f8002837d5b026b6e9202c5dcad0024c39f03433f10039503a5035a095200c240430183f74900526b2800bcf46e01e65d2302fd3190003b9f9002d737cd02218f7003fb212e0145cba60102b2d503bdf6de02289c2603da34a302c6860c,
  0x6238f0148ed9501a865b902cb867b01e1e48101b74e1a03ca861e0189f927019d97ed02afca39000fb8f201659c2a01fa974e036fc5c0037841f40325a3e8014cb25f010e6ea7031caacd03292ea50011006c003079ae02a17ad70247bc2c013eba7e02b92c35020d03de0072485603f9eeb903cfd5bd,
  0x10c10801caf18d03dbc2fb001c48b80393cc5803aa831f00aa6e33006703c200351e3b011b7078003257bf0112acec02e4db18038c7836005cebb401ccbeef01afac1a02252dd40256b74701bd6467000ec6d0021058d8007e6a7d01b10ff000c6194d0346673a0363409b03b924be0386d785030b026d,
  0x1829140015a2b401dbe42b02a7c46e01c39c9500fd4d50016da23a015243420052a94500439e2a00284444011984fb03e77be402afd0e20288912100e9c586015230f100791ada02c321d7034b4d9e002f8cf2007746c500b6c62801019b3a00656c6f033edd9601013f6002e773c10329c91603f6e6a1,
  0x1da315018608b5029f377303176d930277c302025a51ac012be77601a684cf032e15a40318b8c10031c0170125212503d7d4e5039beaa001d586ad03b1de4702a68b3802078cf20363232500e675ac001672ad0198b90b021142b501657e67034b0d63007c370a000039560100cd1601494b3000796825,
  0x177d23025ff518008faafc02b91063034f9e4800a6fd3102991c740394bb45010c393400cf1ce3000a05120115af52009ba4a202558fa103f3119a02ce404503ce5b2701569c9600d2002e03596ea00006cf270266347802ccc31e003a0517002ee41e0168ecd8002831b20158cf9e00d7715c01a12cc4,
  0x3025fb02200bf2006b926a005613790174c6920055d07b01123e7c00f7b08e00f34b810215f7ef0037584b00d2292d0262de8e009e14550275799f0072b0d3029e461300c775a20053435201c38c180004ff83037c3d1e01a92d110383b0ac0372e4c7011ef94601e099e7034870c501b133e703963f25,
  0x1aa455023cd927030d5fd100e789c0017f941b015ea5990383d3be0008d94202b6211800e4b5910005f62b0357c9f20140dbea016384650293acbc00c8500f039d85320240eca503bc8c1402958b0d0026d5ff02f2d9320081ee21038b6f0200f03ca3025463be0084efe0020ea466028de2600119c8f6,
  0x97343012fc36801dbf44203caf7dc0364a97f03d1e29403d982df03170454005a0a3401d9c993003c13560378e7b00156b67d021cae9f03cf0075022227ca02dfd6ac03c2b5cb014bac5e03cb1a8a000111f5005dfa2d02e3a9aa0313ddbe0294896e03e620e3036f4972018dec8803f8f9ea01d57ac2,
  0x306a9c000f00c803ce4074037ad125009d26a7001b618402295470016188120399014103ac14770024dcfc02a35b1f016d227f01c3a0cf0040d1a402e19a3f039b20ea033e85bd02e0021b034dbb2c0010c2320042afd902257368037f064f02fc57ff022eae4000e12cd203220afc00e4dd9503da9f77,
  0x1a86a016255e003ac2b9b0012025d03331c8f01d612b701622006021c7193020933c60314f8650020e3b60152aa1b0026f2b60013f86b020b996d0044d54b03cd66460288e5c301ea7e7000f9c24d0004050803bfb8a80343c4370092c90e034f3b5c017aeecf01f32f9e037ee1a601ff448b02d58461,
  0x13a56a02978a7002800b230306075f015d29a302dba103005eb9f60366836100fe702e01a1e7a2000bb55302693bad023225af02a3e3f902635a5101f356c0039bfb8f01fb0ac500c20ec40047f2bc0011b1c903088d3c01d30c9d014f6d6702eb7fac03619ec002442635000a4b40033f7b7703e6f919,
  0x3daf7f003c15b5023460b503d82b91010ea7ff032faaca003199c102c32e4500a85d370387426700321e1a030dfb730219474b027adf2b0349188d03361267010a3b730140d3eb01b4974e017cecb6002d1e260362d03502d1bfdd02c139c9004b949d033beb7e01388370032816b000ef84c60121b3d8,
  0x62175002cd40103f618cf0280893f02dcf2ac00e0cf7d033120c6022d80bc008792e2020413d40033d21f019f573b00976d33039c9b1200f5704200efdb0e0150892100bcb158018878ff00d9cca6000c358803ed1cde00cc84e801da2b0e01c58127022a0e8901129d4f01c867fc02206e4902ef6897,
  0x108e010157ba9d033600e802c95ac403b6794400f2094602093cdc02bfd35e0031106f00264eb30001b50b02f09e09020728d602d0199e02ed1826001092a703fc815e02ae658a0163aa9a0221b9ea00238b35006e2ec301c9f47d007d118203e03bc602c2a5ff01e6194500e3f9ac0340cd3b02d109f8,
  0x355a87001fbf07014b2efb01449384005aa0cf01fec1b8034bd6db02e51de70256fa1c03b22ccb0022ae16019a4f570305e0ea037260b603e9753d02d1a71403699a24000d209703f063bb035069bb001ea8bf0254d40a01095e86021f8b2400a3f48f01382f7e013e2d1100dc31d00169325b0385da60,
  0x3dd85e015b0cb601ec13f90332d7a4001105ce0026ee0701f8759d03c4495f0045ef0702f767890020048300a1fa7a020fabc803d76e81003accdf003b286b03f7d877039d536401891c2e00683bd6000e6aab01cf38de004ee86e0371be480139dfcc03b7bd8d0129f127018e4853007a5d6f022b00b0,
  0x1e34320001882003587974030b585c021a71da03e7e31e00ef227602369f44015d571b02f8966900102c66028b115700da01be01ef4e4401f1df260009db5d01223ba80315c6e400c95fd503974613000ad5bf03829d8c0210e39903d577e2026739cf0315ad570099bca5028eaa86031dcc5100ceee2c,
  0x2af0ce035f27c503ae0274008408880043ce5500301b63027e79ab0121bf0303a29ba2012688f60025aad10214ee4a02c6fe2903dc74b602453f9a00863b8a0351029a01779d8203d1c8420266990d000d8e0300079594034bae90036a5ba802fd932e00ef4d3a03dea313019e2f5c03949eb9034a298c,
  0x37bb4300f334a202b5dcb500d6feb0036a9d6f02f6ea66005a594100b83d8a0175bf9b03ae8054002d51ec034758bd037bc98d001192da028771db024d3f160231f60c0134159003d329ed00c630610032c9840165679a01e816c3018f90fb0034f38c004bfeb601524d4003675ab202b3f650031849a9,
  0x1de7770201e5ef00071d9f00172db600f463df03e1faff021cd84a014e067f02730e7e02bb78aa001979f50126dbba02322764006efee7018ebcfd02d1eac301ad107f025167e000755d3900aac608001002cc021be1f8017806b7019e2b300103fc66023769d2033b7bfc006e119b00fee94603b4f3bb,
  0x224c3502378763009cb54100002a7d0398f8030315e48500a145e7002d6f77032a850a02114a59002b163a01b0c01b00c5876c03fdf7d1008bb02f006e735e0308abec0050672a02f9e16b03920c72000117c40306ac990370cbec039f71660247e4dd029ae11702e42a9e019230e703f6218602a5550a,
  0x30119039c28bb02bf80f1024e1ecb0328f351029a03fa022b61d103190c3f017e98fb017dc40b003996b901a8c78202b027d702885b5f03a7e89802fea91b0009e3eb03fde0880186f41c03f4275d003e91aa00de0fd903a8bfd4021884a60276db050194afdf02585cbb0257b23e028eff6401a87b22,
  0x66f9d01c8109f0237fb3602f5f5a300968fe300a7b29e0065019a0039037e025c434b0196fd220001d0bd036b98e000a9a9fd00ddd8340236ce8201e5cce501d977cc03ad40b602ffc3600261e90d0011c79d025f4840019e335e01e3b2ec0399ef5d0249c4dd0296dafd01e630b10374bcf302926e03,
  0x1ccb4c0159033a02cc185c00702fb601eb4ab80354d7b103cd76ca03554b45030d602a00201bd3002b8dc9023a677300c5f1e9012fc17600279a7103177d6a022c2b1700c234b401971d5602b1099900051bbd02be275303d7e60b0277683503b47089031e91d400cdd88001cc5284031489b3006491c0,
  0x383f3e00c35d8a004d790e00bdc1ac00ac13550215b64f02921df802050b0b0296e2e201e791a50013bf720052cba0004d61ee0371fccb0102351602a59ada035f433102ee0d4301815b23003c2f27002d597600add96f0147fcc600cbcff202be9fd101380d1702c3955801ad5c62023fc79200d96677,
  0xaf681031126b70001d81a01fb0e45016db2c10167faa10227d49902fc2f7b027f86cf01c38ed40028c68100fbe4270115f0220162d3f903e16f3003b5a12703abfbdf0021cb3703c44e0c012bfa810027efbb01f2946102edd1b30392b73402150a81024ced8502e78e1c012ab577039aa0b101fe3c2b,
  0xba8b400c093b2002414430084637103f13f4b036d569a013c99c203ee64f501a3eba701589e11003e8ed60182c80802188a47016a786503f876e8019ef0b200f1248001bb81e8027647a002cc7a47000f85b502a1d18603bf2ff303a63ea9020a4f6a009b8aeb01d7ebed02227935016b0fac03e1720b,
  0x4520000ce66f202d7d4db03e36f4c0332a9da01878f9802419729036bcd000320f289015005d2003895cd016c1a1a012d30a90327df9002b78d2c014590c701f8f18d00bc68110253f6c1003aead4000848990080ff0901729f1c0290b499016d142001b2333903cc5c7003afdb330300b03c03409262,
  0x3fcee03b412c0031985c601644dd703afef7500d4399502deeb5c0205cdf00189aa590153ca57001098c6019e8c7102db3ddc00a23e5b036f263e02d77b75019d4e8f0085607401a0e0ad0089b0ab002c2b0400cdbf2f007fa90b013bb8b3004187c902768b54033e07e603593344030e9f27001751a7,
  0x3db42101970bbe001bd9d6034369110307c12101b5928a02a4f2c8034d4acb00b15ea4019704bb002aa73800d59e9a00cb90fc0337e6690274206601df4bf800dbd21e014bd46601962dce00ea18ba002dc15100c68627020408df0148309c00f14edb0193eb0103d802b2023baafb0146a56b00ca7015,
  0x381b2002ada4140252d85600adf39d021188c603af514c03953b3f0241044603b3f6830299f40a000a349d0333b30e009cce1c0115cc3e01a034720085315a01996498006f1c14020ab8b500dfd4f3003a5dba0032ff840301fe7d0208afd003b53fee0261898f029a0c1100e5fd6602afbaa60096ee3a,
  0x1d802b01eec5f6039258f401ddc8b1035bbd40023222a900be2e6b01170cd702b580c103d725f50001ef06003028bc0272cfaf0071a275031ea36f00f9d68e03081e8901a240de0135d375030752de002ae7ba00a7b68402e5a2960002659200142321036fedab010dcb08036d80b402a6cec20189c962,
  0x251e8203c410f40357549d024ffe040338f85c0307ee9e016e9aa601cbfe3e02d19437039339ad00119f4501d960e303609f8203a48ea50363451902a4b6580311cccf03e24f7400d8af53020927e800251f86008fa13000db6a51015d058a03cbbdeb01e93d4a036811a902f1b772018c646c00350e3f,
  0x95873011ad89502eb3a7a01d9d008022e0e7301dfdd950261a73301fd1f230128230e03d742ba0003371f03ba7fe500a4b85f00c16368030f944d030088f5001d790a00829233005a51da03f0141a0034f6720054cee200d72de90337dc0d026c282902f1da0600e78a5e011994d702df61ae00d53a4c,
  0x230c0e0288760502bf690902e635cf01b0f5dc03d2991e017e29e700ef1579011ef00d01784e2f002cd89d00cafb8402ff6120020aa17900028b9e0351c429012a5b6303ea19ee03e5b6c40293253a003c45390096afc800340fbd00a788a903edd2a00130892903eee4760172f29903fe193801e32e3c,
  0x31d42103bb8829017cdd8302e1a5c3026c3a0a03888c030125f6b101dcb5d900c4763d00d8c9c80025397a0116f3ba013b00ec020e5a2401da58c40080ec7c0327ccdd00f9d2b001845dfb029e620900132f10036e786501f46cdb0287b12501a83d3801e14fe203434a2d01090a330019cc3b03850363,
  0x9744c0387c08f03fc9f5803322d8e025c602e006beabf01608c1e02c8eb6f0305c6f8036962cb002b051501ec34eb013d2446003c1fa301c1788603d31796024579da028a26df01d8a5c6037056ab002f03e70190f58602ce2c8b020c434f00badb1800c6980802535e1d028b22320044436c00a2952c,
  0x24562014683410091faf503e6f02e018bf6090295851901eadafc017b1ecf01ecc6d70212999d00342889008d029c035205d202b857fe000f4a460174ed4900738057032e5868003c623c02025dcf0024007503f7484101ccc00f012443f2030f58fd01c0727b02fa59ad01db898b02521bc9039fc157,
  0x3bff420371cfd6037439510289f50003f776bc002ad108016af3fe017294f502fb779f02d2d8c300232dea0095f06c019bf12303ad1716027519ad0264e05701d4b88e009476460078474a0343d46d00041e3901f3cb64028481a50070266502791fc403b298d103f7a2c1014969ee000470dd02e16ae7,
  0xf86c001d21fe01c0bb9e007af2e702a066de024706a500e2a97901e7f7be010314e300b8ae980037a67d00c12a9a008459210285b2da033d4ceb0015ad200045cbd603d847c70359ba9300832b0a002961e703b4872a0250d114026665c1014dc9560381f39600b3fce003338fcc012d678b018893bc,
  0x398bae00ef7a4b00f4f67c027114bd0019e15603d3f6e703628a7c03fe885900ab82f301cf0f43002d1330020989d401f739930162633303d3aaf6029976e60135509f017b0e7f02596149029c0f4600287238026340f4027a00a4002cf6bc00fb5077037d028800b1a82202372b7402ee7df50078942c,
  0x44dd02a0c65e031ddb2d0203476100e479ff02cdc3cd00fb2d7d03712276018951d901f30c8c000278d101eb82860273e0a602924203008ae22202020e4c0198947300ad31a303bacf420360d04b002e79d5004b0e570315e68e02b598100394b4c9010d98da017f9f1c01007cb9011f623802ef46cf,
  0x22317701caa130013bd01f00ed6a4c008a76cf0306923f035d6cbf013b1c5b0060c60e03607e9b0023bee9015cfe2c0380d20502d79116007c4dff03dd024f014b410403605f8e00c7ff0a0399968300294d6601c708c3024a6a540398de9b02d6857403fc505703d213e502e197510335be6503864b41,
  0x21211d0051271d036acacc02212b7503fec5e10267182a036e28dd02e5aa3d01482de702dbe60f0029212c01b064a00184a52602b59cf60023f2f901e109b200064cec0089ff82021ea90b015704b20039b6b400a786e803b6aa42016b2a5f01a4fbb902e0433102e79044031b31c601089ec20115c913,
  0x1fd547031abf9c03cc34fa02df4b3c038eb0c601b0e42d02615d55003713e5005dc0400333b7800036864502f35ed80362d31502b81ba300978cdb00efca5d02c2119c0086b22301abee8f0376a4b50009dc65017a05050063eafd00eed7d903dbf061017c00cd0246fec501e6e21002f24c1002dd77fc,
  0xe3f290295b9e600fca16302c604b300405dbc024a340903152cb6016c3b9302afd1620174a3fb0035a62101af88a70071eec901b33802027ec6210167b56b0024d5a103349a8000b5c2510157a8e5000c8022029284fb0363936902a8838f01d59f41014061e50349667f014e746802b4739000bee48f,
  0x19e9b8017e18ac013bb924002290110396eb2602db1163027c5c8f037039e80127aba503c4d0a2003523b001dbdd1e0378d6ab01e33d3a03761010016506210192f3bb02930f4e02c508bc029e52f2002e020301e5c53a01afbb4c011beb4e018760ba0190d8cf02099d53036e1d9500fe566800f80499,
  0x2475110068b880029b7fbd0052464703d79b3800fe487f03be37ba03b853f9014b564002881e0800259ef8026d82fe00bebc3f03c3c356017cfa3700bc8b5902b3e4b302b7025f004065f201fc22d4000caef901b328eb0380fc6e0257583f026c4924018318200173cf8102c87e3f03b7430401cd03b7,
  0x18223d0094dd4400a5fcd9015d321f0276afea0244739e00d27c8a003c99c8004190d001da299200003dff03341b1e020ee6a1012d126d01fbb97c00148ed400f62bcf00e4058203f06cbd017e9a0d001697e3009a21a202124c9c00822569029cb53d0147803802d50a3500a5f7fc01b911db02ceab61,
  0x2e07b7020ff401016650be01618aab039414fd01d3298c019723cb0115ecbb027719f50048cd62003fb9e701d871840131c287016085310311a65b01d70c0a03084e5e0234bcb50379e3cc00edda2e0005fed5028d5dcc01f9771102e0d7b901dce3a30393a3d902dbf0bf01ce0cb1021fa0ef02fb05b2,
  0x182af80202732503ba71fe02e48c04007a0311025738f700127928000d27af00ba38440122ac25000ab544002de969007fb924032c1bd4000e7555035e4a310084dadd01adda1201feae25015896ac0001a47100cb18dd0065f62501143fca023240090310f85f016e21d40094f21503d07e03022d1266,
  0x184c24007fb7df0108396201cc20b10166b36c034d10b200fc4c28024c872b0250d9c103733f7e00151c6c037833c60372c1e4033a473e0349d5240061bfbe0350604803d3eb3a036580b40101395300124af0037a5f8100357663036c53fc00c1106b000bdcb20178cf370368ad5d03f8cba302a6d7b7,
  0x34685f00e46be702d3191b001d4652009f4b4600b5a6080080e24d0203248702673efa004e65af000cf2ef01a366d30286518101d12c4900f6682e01cbdca003ed20c0008c538a00d56315039007db003d19240371acda02100d3703798dc1034ee3ab03523a35032472c7007833ef01c22e5b030d616d,
  0x10ff01017dfc7a008875ca02a73adc038ac4430365031803a5ee6001f95370022f5adc0095c9460014f7a703debb8b01da0fdf01574bdb01062bde03a2901003e05ef8030f94ea019ad6c8010b408b00036e4c028df0e000c1dbc502dfa02003d9684e02a4786901a6167903bcad8801ae2a6d00a2bc7f,
  0x322370261382f01c5897c021f974a036f4bb50206cc9902eef1c500b907f200c2dcf201f45cc2002aef740390089b00bd0ce000e12a7f03eef9e70267454a014f793203c72c420227a888025f2df80017f29202e1f25902e71ba2026f6ff500bced5301dd63f70263d01401eb80d900769408011a4884,
  0x368f65026dc8ec000875a603bb96f100c30237030a63a70350448a01b893c2001bc2a0026613d30030643502e03d120354ebae025dee5803b3b8a100daa6ca010b8c0f010aeaed033b9b34029ba57c002976d70246f10e0389949d020e1ea202f4fd1202d9f1b5003c86e202cf478901f0030a0306459c,
  0x3282d2030ef7c802a9a79b001693f901439bfa00f7e83301d7b8c903723bad0162dc6601a0381f000e72db033464a80308a89302cdd52800b41b0502ba6b89009ec333016acc42033157b5036c214a0031bd1001aed1070012a29e01685186028b973000ac698c02e6d8e103f9eae901b3f7c000407480,
  0x24ab260286879303f0bd940015be78004eb66e005a7cc0012fe77500d2427403b5649d029790f1002c2757030d4cf7018b8ebf035374c802e2604d0061ce070168e3c7030c2f2a00f7efba011e1dc20034555402c3ddf6024acc460175db75038b6a46032ff8070119060500a481f501843e7e0237b923,
  0x221109004f90fa00fc842b035d00140237137e03987ba701b8ed0202652d180183de40033ef3390002b2de01b6f5cb0265a559036a26fc03d67e6902be0d1d03abe69b03decff1001313d4018eb23c001909a602e3527503a16e6001143af602db3a29003daea503aae4160120edf2026665c503b3a9b2,
  0x183f50008517cd01617c1d02bbe4f0024336b902a8b2020069aa4e003e0749000ba88e00eb54fd002117e80232683c00a301ff00122db4005c71070323f1c50041c27700f05de502eb472300ca214b000f0f62005af33f01688e240377bda700a9db350071a93c02b6bf640191077d031cbf8900191a32,
  0x1b36600187355b007e8f5801c28edd01abdd1c02c7a8ec00c316bc005e2b070012073e01f1a38c0026a80002c434380041a4f7002f28670006e645023108f20347579f03590f7f003565890157ef450034bd7e032ccb110021d55500bb9f4f03d51871022ea20902d0193501a03aff01fe53f601d3343d,
  0x190f33026f14b100380d8f0046b47500847b77026490ce022e3453035b8e7103f349f6001c552f00119d78014c7910010e754c02f3388801d87a7e02e3e20703cf55e502df821d006f57e40201c55a001bdb9d03c305a50151203001f26957013935820092c2c1036a389a016413ed0060ba6a01e614d4,
  0x3870e0224a7430182c0a700adb7a8018d69b201f8d1c601df7bed02992d3d00bcb463018877550030c7d803d3671d0145aa520375519401a58ae0021bb760019d3db802651fbc01b9cc890051d7e90026f50d0255168a029dc57a01e55f8f00c3c1750386280a0245684c011f20ad00adf25702700578,
  0xe77810382b48e006b421b02a1b7be00df29cb013789e500f9e0ed00430bc600f86212004227a10000d3e802c4cf0401c40e2d02d363a40228a8b70252c9120078847601e6e65701b10bfa030d8c750038f99601fabee300d27be9008c058201f2438101b54ca100ae46b20230040903cb405302fa2a50,
  0x22586f0182a571022feb5502126c6d0017fbec0267156000d91923021dfee8021317f703c5dc1e0011b9dd03c3a67f01c83570010baeaa02f8fd0300bd9729000981e20252eff1028a70e300ef8110000df0ad0188bbe501465a930109ea5803bd54dc01116d560217df6801917c2a011461d5011ea642,
  0x1a5db3002a58f602b9d08600edfaf700e2b01103c280dc01583a1102b55e7b0085f9d7034c980f0004e44f02f3c0c703b27264009781d9036198b201b67d7101e13d5c01eec641006cee3f0325563e001e7d70032674c702b14cbc020864550182ed310193bcdb015efc8101eed03a039a89d90122bc76,
  0xb2b1f02ec5688017b83d4032307670385e4c2009e6a1000db72bc0182136002c9cffe03d760fa00203aa103d007410319e571026a6279020aec75011552d30026e64702cfcc9f02f370d501c4f9a7001dcad8035e319001077fff021bcefd009057ed038e08cd00d873b302a28dda0029077400ea2346,
  0x25e15302d00611029ee0d0008d317a03ec27b103a861a3015ec41b03c087c802a17c16028de68d000b1fec038092c50127f2fc035b7941024934c70134c648003c5ce200d42724014c11ed002e0abf0012320d018a7f76015394a5039c07a6034294a302fc8ea503a7958a0284bd2a03b6bdc20147e803,
  0x865bd02921e07019c6bda0315052c02a676990043eb0402768f850258d47602f5ace9029b39950012508402bd5f2403c8803a0302f4c401d81da1031a0f55001186dc00d71150016b4ef6031b1ba20039aa49033d999d01c02c7a01cb6c2200fcd52300a95c1c0326de6900275e2c00860c1c00acfa67,
  0x14ab2100777d42034e09eb01e3560a017b99650160ff840256a7ec008c8121023d77b2038216bb001b47dc02a4e354007463f40266a50d03e480e80053a1f2027c987101ea555a005b0f8e02a4f378000b65d701d29ae302533ec3037da1a200a453c601b5123201cfddcd019acb8f0298974c017d7b44,
  0x25987700bf8f9c00a85d9003552df1039bfed0029f952600726a21018792400197fe89007540190005880303e5565001b4122701f70077007c744e01409d8b0007851300fd260603f5e2620008cbe8001651c2010801d90336657900f9d2bc01dcca0801a1df7003c13db402b33d9c01ffc614013a9003,
  0x21fa4a02853d19026971f30106074d031657520369a37902e10e8d03af2b92023fb72903c8801b003a91e401c4850f027c8b3f01690457028cc60d0084af810158a54203d3075803ea12a10362ed7e001ceb4c017352c002930fac01bc44ab01dcc66703d5f0b601aafb090125ea9401579c4b00e3d0ec,
  0x270ecf02fb69f1007c6bad0037d37b00931fe600912b2c0296f04803a2e2a2035dbba40297d4db003f73590070291a02aca54901f86b23006052530042cec601840e4601f107b6017d4e3701aabbf9000b799d03a8cb38030509e101111c3f027ebd5403285d5202406ea50350e42e019acb180137041a,
  0x19ed38038ce797000e853a037643a00050c78f026da19a0281cac702d67284010a9323016b269b0000b35102fa28c00264625c0104c8cc01a27bfe02f2f0d503eb070d0135b065020fd0eb02fcc0970030a998038b5378011d328c00051a2d02a0276803f53abf021174dc013d0f4d0036cfb0013e3dd8,
  0x3fa3ef012ffa4803c2e18b01cdd4c40123a13503fcced000dbdac6027e51a100d056f2033256400037acf000183d850295dadd01e2975b0252538c00b5df18029eb3810094383200349e7c03f501bd000c86ea02595cef0048440502a26e9f0280de8e022b4bb60010469d01e688b10364055403418a2f,
  0xe87df03a0286703d052e2003e912401ccf67a0150221f00e050bd00addd2701445ca5022cdaad00011b030271ba2e01db6a4003fdeefb02e5baad038fbee40225db88039bf33903f5e4e2011a0b250013d42f0368989d00d05c440134e10d021b9fa4013eba3d0302874700685f2802ad594f01a10e21,
  0x2fc910087693000ba8c9e006a686a0340628c031c259a0348b25603441b8f01adccd9008202f1001304c403249d78009812ac02c9464f01a952b0010749fc035b49cc01228f0d033efe8f03316bb600337a8b03c3f61f008daf460307a2b1033a9af2018aba9702dcaba00305ac8300f9c3a700fc04d9,
  0x2e306d024c689a038b84cb0125e40b005f5fea01f575e10223408901e6e3ac006af1c20372364c000bbafd02ca0bf802f5b9fb024ba16301856c8e029246f60078be1301ee8a9e03062359019553c4002c1f8901832c3200dc406702f415a700456bf3024af4df016f502201784fc302a424bc0053d2f1,
  0x1eb985011164ea0228f9f400c09c16026dbe7500d0e26900fd7bad02e80a4003f44efd0120b7b40021853903a9eb600201c40902a836ca0098f29600f32a18004874040299bce0031fe9bd00928f7b002582a7033f6fa002b4f2a900a9e24403a77e4d00229bd601e62edb038fd2b90148ab5c010f55ad,
  0x2db88a01d18fb5017635fa027b1fd6023dd4f70332cd7d036cb14a01f73474018b9bd703908f38002604d80117de6801729a9e01a30ccb0153683f03655c0e0039d78b001d45b801e38e0002f263e400273723001ffa82012c536b035fed5d02bf1cf40213a47503841ac900667d250141b8000107ca0c,
  0x6dbb8024e699b03974fc20319417f02a6e2ad01e4a6ba008f4fdb037f9ff203b8c56f014f188200182d4b002210ce029d15e70043c1bd03d332b60059a040015b6cf600c3a0c40305c11a0382de57000fb5aa03e8f43c0016ace0001b011a0344b035002f215002ef90c802fc6c5403a355fc01e9db7c,
  0x3829590128ca3103e34965020681180194dc5803be5806031eada6029ab24e034cb697026b217700068dc30378c12300858b4a016ff635030dc2b003072d660252bf03000e516102610d7a022802f0003460610148f7a901eb513b0021bd32017b962f03f73bdf03b51a5201f842050035e3b2000a65ec,
  0x223b710204b52303afbd35002e159a01ad366a01ad06ba02c47e5102480f9800e62b0602cdd7f30017eef30042205f0210e289007f20e30259c76a016b75c20332622102618c9901faf60902c8adc50024bed102cc395100b2efee030877940366f6ba02b405cc00ef148d00dc5a5f03de01250100f454,
  0x2d76c0039edc8700359fdb0376fd8800c11d4b03e8bd3a01637bf302cf8ee500ab15f0020344cb001650f601d5e28b001a380701e55aa1020f178801b6c933030a8c4602f00e570268e2d901378ae5000345bc0160981c03edf8a5020e8519018a3a3101a0ad2a0109ca330378c1a903fb9637018f8b18,
  0x15bf9302070528005b552a02e9b6d5006f861a038b91d501b751c200c1348001a6390f027b31d1000eb66e011a342600a84867023ca9dd033900be02b4e79800c432ec028b7141030718c4018fb4f30026faa100fa9a1a004ba68c00d2f02e024a92ff000a6fde0108c351003049da030614c400e4a6da,
  0x295390035bdf3100c679fc014aaa5700aa3bd601ac36e4019ad74f03e5b58a019f4b3e0296c8b7003a60110267e4a203e6cc16015bbc20023f9e3401835def00f472650097acb603cfb5c7014cfcfe003b1b0902180d08024c89cb0064f374038c2a82004417c702772ecf024e1769019e0301019ea875,
  0x3fb6900812b0a006b67910236c2c7026839d2026a9441020f1cf702cbc39c024fcb6e02f716b4002b0f5b01d5f713005ca89300cc820d00b12d8401fa6e360339009501f847f403e1052b006d9c69002fda7b00051686037a16a7017685870120618e00bb7286031a226701f7cff400a11c8201b5bb7b,
  0x1a56bf006e72a8032f62a60037b24501e45c8902ab36a302f5416a0049741800534bdf03450f2d001d174b01d3439902aba3ab01df515900ce68280051443e00de2d48033dd9f501a9c56603a611aa002dc91502eed17f00d64d2b0365b77102aa4fe10045d0ff022e72ab012f775801669fd7003a5068,
  0xd753a0186933c03ea19df037980840199c00301cbadcd0271b49102374d2d01784083031152ba00187ef6000b67710150a34500db9be8031581d102be59c80201964a0237700e0363482b030737e2000f7eed02c775e00145be74023af3eb03d90efc026f0b990053499402ef18b00281468c007cdb49,
  0x1e4c7100d590aa01925b2903ddd49800097fd3010d582c025578b203768cb601037ef1022ad889000c122d039cdcfa0073048e00cd916900af343d02a6b812014172d7012252c103de4d2600549868000096bc01c871f202abc0d901d3964503ac23d402a7fe2103034f340381bab4034bb57f013c7f20,
  0x3414c40009bc98029abd2d00cf2cfa00d817a001fd1071027e673e01156e3d00def91c037c140b002cd20801382fb502613e4a03e10bb10368754802872e3c02b6847600fe1584005c0dc601c361450011125802228492004b91990150108e03c03fd4013e5aa20107235a00da79990390f73f02154fcc,
  0x3636ef0189cd7c00c98d44003f691f00a5403501fc69b801acbcb201289b2a02b6695c0371e8da002c73e9001fb14803d544570040db5300d742cf02093f0700fa5518004587c00391ccbf0385e194001c62f90352aedd0125a47700cc8cb4004890e502a7a1ef03dae602024ad61502a6aad7014bd8b1,
  0x20e9901108f200262714f0126d575001534e1024a5cf3036d4f0f000793450277897f006ddaf8002e54c902efe3ab0064c39b00cdfd6002581b3502fe1684020574a802197984025e2b3200a3babb000123390043ae12005ff1740094d69402c14cf603b9f80202c3b445024311ef012080220359bf4f,
  0x39efcd0007efc60187fdea0358ab62001d774502de28780153a8300003d2de01f325c1028846df0024554e034e96ea02b38cbb03c8786200ea8cf8038e378502e33dcc015e47e70046387703c966a800239c7503128c9a03dba09f0320e53b0004e3c600c6ae30032c85bc02f626fb0204047300ea2590,
  0x27af29011bacaf0183c43102d4991c0115a4af01b498950322694a00a1ec0d00c4667902c4987a0016fb9600d40c4e0370a1ca02868f8e02b4c29f00b411910276e0a003c70a0b00d47946034851460022ea05010c36b9003a3dd802f469df03637816031d19650266bd15019feb17002f6fd703dd8f0a,
  0x38c36e0022143001e9f6960233f86701a4049503bc60ca03a316b602adccb702df10c500ec3a42003eb91a03c65898013fa61b0202c0900399f5eb003315ea0288fb8c00c125fb0010854900ef760e002db5f6006003cb010ee0fa03ffc95c0328450102aad59302b6de2403a23ac2020e379c02f18372,
  0xbd510020d0e5f0130bc9f00887b25033f73dc008670da0390af9b033949a400126e2c0007bcd80000ffb30058580701837f11005bdfbf004ec1d3025099ed02f226f4023c8c4d000271ea0245076b000b8c9b01d43a5c0039a71e003708cb03ed656603d0895a03298a3200a21653008323e202f461df,
  0x37b75b00b5e7b303208fc50087a71f01418fba02ad7ccd003ac55d02692753020c62200163431600395bbc00b391d502be3e4c00b813a003f2da9a0206a2f302641f5c00facd92012a91af010a20e8003d9a640382a62a003a0d9e03eb2ce2002444b2036b20e9010a053a0286435100760ada0065cab1,
  0x13fc68001fdade01c7f855038b551200a8f63503c2c442028eba860383e24703474edc033d3de5001fdecc0090364302c0f94101a1c7d303c74dcd0151266e03fa74fb036fb42d02e15727034f8d7100090c3a0166966c00b51a2003a1962a012a9d610343afd00070c9d502e9fd6a02b7623a016cd4af,
  0x1bef480342fae0023387960226eaaf03068760016537c700e14c3f019e613f02482e07024c74b4003aa10d0242fecf027a9fa701075136005514d803ad3b2603bcf21603b5994f0172919b019133fa0026a33302a85eb103ac01a8022da7f1025ab4340326a174036bdc7a01c3b983010d8aef00466157,
  0x2938f902650adf01ec848e0123f37900495fff036e1a600245ac9a006b1f7f0051a60a00aedeaa0029638a0141ad84031ae51602b35baa0081c56a0211f02f01c4de6901e7ea110325da2301b08c8600236ff500eaeee50385012001c502b300c8a0fa03e4d9b000cee16900eacb4b025436b300f11b56,
  0x52415003e22b403857c0d01262d5300e47f93016733f20344d67102abfb5701e1ee2702b908710007fbf40290c63a02adfb6900d08a5700b8799601f025ec0050a17c01c9b5a0019ca300014a66dc001af6ab0379f1e10396e9380153795d019b1dc303e5703c01dbbeae03e976a800ee965e037840eb,
  0x1f0293004a480f03d22aa30016bbc3003b6cb4034b77a503bf54ba0094ec9b0216d7900063bf75003afc9d00f436d503069af000a71499017b6a40023bc20b03cedb7200376dc502d95ef0012a5bad00064918027fd17402b2bcfd0113f8e800ececb800a43f4e02d218a90385356d01e4048e01302e3f,
  0x45363017082e10163888200524c0203e27f7c00662b190165c57a019f3d8603b8639500c5bd8b003ef6fa03889fb4001a987f025d991100776d800154a02e0204f1660224ebb0026c17f900b7cc570007c14e039ffb8003f0bca1018e022d0379b7650127833201abaf1c02a68345000f1ff403efd0aa,
  0x2e8b2e01bb55d300aa20a4016991a100edaee2033b917300cdf5a502ede1e102be4cfe022a187e000737860060f80200fa156a003b93bf038f29b502c6c6ef01f583a2027f5b60025a0a7d00f9305f00187a81004f0e12025e0c960338573703fb6d31010d1b030309d0bd031ac3ab00cae8f800803ca2,
  0x3edd1803446bf2035025950245451f02b3e897021666d100c8b89e03513ac900583b7b0227445e001381f60115872a0139faa8034879a8011d83ae00f572800333cf1d02600a8700f606b9005e26e6000a775e0331212200b115eb03185252012654560324b1f5026bbb5202765f3e02e34c05017e392f,
  0x112f5702a82aa403a40418019a06b201e2d2720091059801200ff80090b81200c54c4200d91c090002e96201b007030331c5a201127a7300352b3303adb2ff024316ea01ad76770208ffba007cf861002cf05b002a931301390d6f03b7383403c5dd0701f99c7300c48aed0300dca401fb3ffd0367b675,
  0x2710e101c9022102e17d3001b03227034c25110003e96400eefaa901f6d56303abb356028337f8001263bb01414a1100dae54d00c9f7b001e49a7c026ccce0013f30db00f8defc03c1d5e803a83b3d00261dec0322187c02d6ff6900c9af390090b1bd00c7994603d0c7ef03992acb03788738021b0205,
  0x663f503c1ded9001bfda101d2c46202389b0f0212502f00dbafba03616b2000d455a501c5815d000b8e7f02e65fc60066e13902ff96e4033f8fde00a451a401de449801b4c4cd03078169028d46b40003cb660286cc9400e85d20012e655f02e9160f02caefca01679ac6025aea13037748f40051892e,
  0xded8b0019d19400246db503483dc501faaabf01a5d7d501d03c8b01587d680300548500053f56002deb0b0042c8e203aa23cb02063b610122565d025280000214634101639401027b1675036fdfc1001fe83a025d6a4303585e80014b854100007f6303c5ba2d01873583023c05870084e660001b9b69,
  0x4473302eca13002b3108002018b6400f699be021b3bff016ce08203f067db0219d26702262adb0013411400b2a35601f75ceb011d4d26012cfff701d42400036ac52c02636f5601501dd5024b7c69000e4ebb021bb7dc03d73a3701f359a301de7c8402699b82006fc56802a47d4102365998030021c7,
  0x3f326903ff3f6302663c3e011d341401abc928035a1547027b742402ef68fa004bb13003d2fb7b0025998a01dbfef2015aab8a0093ec1301652e51019f0a4502a263560095cf68030b4c90000fb41100316e9403d0f8e302ddea7c03f9fde903cbd0b302ef6d3a022519ee0011a76602b5039b012b42a6,
  0x1535f035a7b5702bc5da6023b24b800327874028a70030306e06b013ca1be02825c06010e682500313ad501f46aca002e2da903bb2ee6004c440801708a17035372b902c0d4f700f0b1b002da6b46001b7c64016890b403d0ed0b02331eb1001d4dd901e54f98013696fb02d6150c000d4c78037f0309,
  0x2277501ff941c02b8783703aea27a017338ac02ffa0eb038fd7ae00d67a7d015dca7800c2151d0022026c001c1f8000a5eaff001ba11a02fa209d029cf3fc02e1e01200d333a002d8350f03f3e167000c1b2d0315bdb800c7ba84031d780a02f79c48027a5988006108bd02817bed02319216008ed5fc,
  0x125aec03f6dd42039cae2901ea888300b65e6e0356aef3039c8d400148eb5c02c1e540031cb07a001460840255cb3a0332fca0010c3f15024c01f2003a19a500bd84f001abc15c02512da60250b1080015cb2d026e71d10098c571037937e001130aa701a4d972023429540044971e008413fa02db96e8,
  0x369b94000eeb7403e3f05402787bd6039fe183015503a3003bc22b017ec57402d0e84a0016624300169e5c03cf5198009dfdf302a81457030d4e17006eb8c9024a87c801d19f8503014fa902f7a5560034ad3502df7d340187e3160393d5d4035796f401ed5a92002e35740212394b00706bc103a20090,
  0x228ab7007d06dd01f805d9020d7b4b0303a24301e72b58021a874801a4512701b129ed03e60511002b6a6f011c75a2024d582c00e0c5100162aedc01dca33603d8d1610209bcf300fc31dc00e06b6200245ad70361b65c01ce189b00a5c73103608a41038059d9031bbc050075a4850277020d02e80935,
  0x24d3b00117ea4c0390a0c20111aec802ffe01e01ab22c803c5bcfe031d15cf0150920f01cfe87e00159b47015f7f1502fee11a03dcb54e03c8183301a4ff73017cf9af01910b5a01da509100768d1b000dbff30156e18803d198730136b0e60387da9002d0404601e8177603ac89c8003ab0fa01a7cd83,
  0x3eb6c9023257250049c36c01c7fbda01d1ebb7035f2ecf00a594cb02c87d01021ce71703883cdf00306f3201dd4f480194cd270395cfc80343851300001b570072b24b00654d6600acf62c01575896001dc95f027786a40198896100e0a3fa0191cb8100633013022d6e9b03a3529f025f997c01c5abad,
  0x1361fb03f5163c00b120ca0330a809039c09d502337dd3026559b701bf64f2032fba6202f40664002cf908019525ab020e279c01e71d59030b9de202a7a547000d2df80108f0cc024298d601cdd94900391d2d0054bd5701fa935f02acb32c02b2b37800ab4058016fc4830175f85501f72633019d3eb1,
  0x1a26d702ec83c50129bfb202eb44a8001c7cde022b00ce02b1ca4703bd8593001c3a08010e2f970024a8c1027ebda200b7f979000d382c03b8e85d0311de8900ea86260083b16b03e8e88d01db25c5001d481e0068a550013a881002e36c01030689d6022f890f0355d4c7017e44830080b0d40380e256,
  0x3d3c13036daf9402ebc1e7028c076e0386d454016781dc01b6f27701d5b485007bae24019e08180035166e0206718601c4a721033e742d031b9bc202eb34950302014302bad86100b8e3c50346c24a0005682601ef0c2d01376550029495d0003ce3ad00cff851007d8dcc00f9343e037b9291034e36c6,
  0x2fd0190340214e02dc7b6f0286e636006baaf603c199f4021fe2620047b5a7016de61102846bda000b2005015c3c2401dc8a83037664b60325c6f60094660f024780760373031400b9703d03c91c3d003abe8c00573d5b01e1a82202e813d40299413501d8875d002e45ff01fdb05c02f182b5015d785d,
  0x377db103477cca035a8541025428200171e6ba0227a70400152ab9035e05d4025324f101df31d8000ffea40095817c01784f210237674702cf77230219323c0358f9f8005e5d5503a90ab300e96c37000ceb4901db04ae01aab96a003d6a33035561b501455e100293ab2103df1549000b913a00c14c50,
  0x3e955d007904bf01d8658300fc172a02ea450c01dec3980224642d03c0332700e1719800329df1001f458601d879d803bc6c010248662101ce6d0b03a521bc029135e3035bed0303bde56802efea6b0025a28b03e486d20071a12c03dd1efd01deceb803cefa1b01ca6f460255061903378ee701a3c01f,
  0x1fb1b003f1af0014bfe6e033c1c16001644ab009b19e0000aba78021f2b27000f64ca027cb97c003f5ad00141dabf0321a2ea00c780e40036fb12024f84de002ff560037b25a902d437cb01cd949a003909ae025df55a0295d6a1034a676603eb83be01483f35005972a9017a250c00daff630094b93c,
  0xa02b7025e43f9014681030306e70f01b18e85015cab3f03e810e201c2564a020dc7e00021e2b80000cec502f16cd2012bbe1603efc544007a119501fd275003e3a7df035fdd3303b63dba0018f67500241c1301f0e45d00ea6881014ffb0b02656de403b1115500762d490117012f03c3a1d3037c3264,
  0x3460f2021d6a1002926b4e00772b1a02cabc3d00e60399025de15e01417908003686df0348caa2000a39010137098d00c60fa5016bf14e032c841c037fc2e20102dbc5010f030601fb4b1d02b9f43e003023fb025f5b84011bb7560061159c00fb2693015caf53035d591a0039067f02493fc401781049,
  0x120c1101496c2200eb145703f63d8e031deb41026a2eb100cd7dbd022c3471006c0b5c0139681d001177c801658b6d00aced7700e2c307022b90e802ff3bc2001b26a8013da2d803941c1a02fee8040021764303d4a3a802d9e98e03b91a1b0054ce7d03763f4c038a96ae0004bafa00420d7102fb2f30,
  0x4cc94014e1ff602e523d5022b022f01ab03c3034ef21602b3bd4202a821830370ffae00cc1321001ba6ba03988a9e02b88bcb004068db02cc7a450379b35600a7c02503e6b73600f5582d0160e793000ac03b02b44a8a01a3360301c7317d021a2b3c0228b2cc00e6c9c303e1368501c2b367032af38b,
  0xe1f0f01d0bb5201ef91d8006bcc0703879a130055c638039bcf6603c9149901c2877e03cccf5a002e290602ca114e011535a60091262400b3dbc10022da7400e058d2028346f001c4345c021876240020aaf302774ee003e5961f00ee323100c435bf01f19fca039d28b002b483f60153a9d100a4e793,
  0x2c086d00cd5c1900024a6d01cbcd64033758bd03d4607f01f564ed0394372003bcd13d035fe77b0019dc260376b2e1003eaf6d03224d0501eaebd900004f7c02eed37a00fbaf7a030ff38202cf5b0d001dbee8016755bb00b065a4010d8bbf0339e42b02d53ec90251fd230204dd8b0163cabe00f6b535,
  0xe9630261943f01f2f4cf02a9bd73035c577d00565f7201174283022e265a00f0b559012b658e0020d0e902a311e5006355930098f8a1033f40cd024ab0320300c03e00c17c5100d816a702ccac3d000cd0ac00acad7c002cc7ae0107185401b5c6ce017258db00e51af002298637017699db02a58e40,
  0x14e66e01975f480378b91203e5d2e503978a620204038c007c327200e1993a0074268f03faab00003014e5032c9298027cfa73037c1b2e037b112602e6afcb02fc608300a9174c022400750110ab2c0039f9dd00e8431b015dc60e0035b2790025301f02c5e6e003e7f73901a57d3c0337b30b01d422b6,
  0x3b0127029e7d88013058da0247ac5d016a9bef037891d2026c8add00fe01dd039d52bd0361a0a3000fd07f0041de2203b3019d0202b2e8011f777d02a7bf95032685c3018de8c9034600280384a16a0012d36f0397906002ff0cda02375d7e01427ddb00fb6cee007174e301d8950d01c9acab02ed1edf,
  0x7c5f900d69f2f0335b7f303383fd203d6b4e70347b379039edae703a08c640185ec8c01428826000b950303d5da2e004f2a7c005696be005a8163027ba2a2009f541b00d20041019a52c300b93d25003475ef00bc399b03788bdc022e658700919e6a01e07c1b00178add00152b990070627b038c0f5d,
  0x2c690c02d531cf00663f6602b09a8902c1bd3100c60808002b4c0e00e889d0034552d90125dfc10018baad00eefb3403675dbf030ccae8024f3fb201092b1d00aec1cd034b945703ca1025029b4ba7002212ff02abffd000fd518703c8fa8500688fde0349617e0292c0a9019f74f601e32c6c02c4e3a5,
  0x26fc41033106e3006b6181031978fa01ab5d2b0324f60f0198190603592e840251796f02bc424c00262e9802b4482e003285f30268bdeb027de9e101e1849701ee0d3500e4a11800e9a22e00b7e85c0015349d035f814600e186180251cbbc037b2948037077f0001c7c0402670eff021bc1b6020eb56e,
  0x78b6902662df803857af203cfa91b02e0140e02440ee700f0a67b03ca8a4b02dee083014eddb5001b8f4f01fc1b6503c6725c001f421301f7be3d00168e2400e869c6013c4c85012c8ceb032572f0001b45490158f06b008bd714020ddbbb0112c8b002bfc3ac02afb1940021a807018923d501f88c18,
  0x56f130021aeae03df66a002a8eb0d0294392201465daa02a9e01a003e389002b55caa03542040000c08570118364400b950c00310de6402493b7a0229f317020fffe401dd69f20298332800e2728600061586012d7adb0225623f012f38a6001251bb02ded6d901e34ab1017a08cb02e9da6503be559b,
  0x1c354c00c9525200bd28c7036e84700148915202a4fd66027f389703104eaa006278c900473641003de96703b138a602366a4e018e6e430276de79000c1de502fd30330202481c03b6a7f700e26e2a00209cdb02124501009309e0012701e8003c0e1602dd3e4401b08200026d30d00048a2fc00c3b4fa,
  0x19c69900c69805008f7cc601d0471d0333bde3033ff8b101cbbffe024f6549019505b20207ce74002ca9060140df6f00d58dc401f6588e00e0661c01a555ce02c7256503796ade03a802c801dbff85001519cd031c780b00e8bee300b1f9c003f9bb0c0080fcf801bcc58603ca79b8006af27700c0b126,
  0xa87fc01ef370d02f9a6e801b200f802eb719b0122317b012ffab2018c715c02e9101d0092dfc4002f50bd0203aa3f0311a6ed01a843be033262500037007a02047b9602413108015613e2024bc9a7003f2bc8017e999d01572f3101ad089802c68d010303911601ffacce0377e6fc030a6ba202592840,
  0x1767a90087c83003ece8e901718e2d000d722c036b982302a28439011d4531000e0d5000e3f96000037e58034e7ebd002f07c203ee15b9005bc88003e11c71024fdd8a03b7e37a0192d718026105ff000465ff000543ab0130030d029135160234c38c020cfd1901959d0b02b47e4303e8a31703b64da0,
  0x3b0879021d5c6201d9a9cb010cd30e0197ab3302807c7a0067db69010d6c9a02a41714035543e60005fd9600cbea96031866b301dfdf5002863a13028ca1b202400dbb0390b4150040ee7103e011fa00363ca0026919e302539f5e0052bb2f03e193b100082292027bac320167f90c038a1e4b03f984f3,
  0xfc799039b8b7d01d19f6003410e4403c6679900d21b03032eaf9c0138edce0189b156016bb3d30003b56f03110f9d0023f10100507730035e30210350c2b8010cea82008c196402a80026039911ef003ffca700ec6a53014b155502c10145000ebbe603d77d9100dbe97d01f99bd801e9eeca023e07d3,
  0x58a0c01264fe8023c74bd0208362c029e7eca023d89c900d0d70400e0122d016c552101dadcd4002db599011f1a6f020b50e7032bbde003fb4e6700716f680081258b03959aeb0128ffc100ed8271000ee7ab0118bcf6003c269f01982234039f663103f0e0610228ac5701b298b803f66348007ad099,
  0x35f9b700e47b5b00e82ead026cdbb3038c644803247fce008bfe29039e6f4501b89e6203ebfbbe0037b24403a8bf27004aa2370117cead011685ee018151cf0072732f0359d5550355efcf02478eae00178df801bde29d00ed46b00186bdb101719f9f02b0fa6903961ad10171fba603ea9cb602dc541f,
  0x1bf71200f4357603c73d7d0318e72b0119bd1b02b74fad0245418e02af578603d06c2400c825cf00208c2d0088648c014c58a601525b1b02cfc82402e7ce6d02597c52033babd601c0793c0285599e00368139024e44480397db0800d364bc03112f1401b8bb5f00e5dae70190470d03e60fa9007b6cc6,
  0x1f74503b3461f0102608c013a00b101378d81003013010119873c01974981017855480110e3060039ec3403d244ac036a76e00210f9aa0293be9f016dbd3a0387aab0016c12f500fcd12f001daccb00308645013e0942007e8f4b03aa36db00d2d92b00c3557200e64acc0088164e029297410026c402,
  0x894170176f2510124c15702b2a731018bbf8a017da0930155f10b0055fc0d0228f2c20332a348001b6817013be89602f16e6f008c3d9301b1c0530273133b015aa37600a32efa02bdf72c035b6a230001dd3103a115dc0186e36a036d2c38025c434900a732b60097a134029500f200d3f1cc03045f5b,
  0x5cb8b019de9b302b789b1020952a60373cf0a02c4a555008f0353039aae80013af84200dce2000003506b00ba58e401a78763003fcfc401fba2230238dffa03ccc7d000a6c661002fc862022deba600115e7701356cd902c7f47b0265e0ff02c09dc8017ffbe303fec5c001edf03c00d0edcb0143cc24,
  0x35108003db6ef0005fdf0c02f1b8a601ef096702c459e9016caadb02ece4540221950e01468c620039659d01a20d400226b99401d87c2802f1f93a02c8e12f02a84a9103cd692a024e720b0249c8eb003962290254d75202052ca401ac9079028d31e703d2d1e401dda33b01c460f2034b16e6010a98fb,
  0x12f54e01b8af9400755243006406a2002757bc01ab901a01c11d1f018dd3930118c4d203fb7465001cbec600f757770224ac76008469c501a1264203bfca7f028352f70096741c03caa2a3020f5913000bd17c02612dce0119230f00aa9ade02eb24350357d33500d1f66601408b8f02e605a0034a0361,
  0x1973d501daa53100c6b36601ec03b4039a685e014e0df2019f7da003a4dbf600d9f65d002450b70018c06e0038b8050112e8670026beff008fcfd4017d1e720174fc2401846c9b03e7b7da0104dc08003e66d902164fe602bd1918033715a002bc712d02a27eb9008f88d102685bcb00091bde020b33cb,
  0x3a9b4000d70d9802deccc101456ed20351a6530339b85b0350821b0184fc0a029ae645029ebb8f000adf9901f8ad1f029f818100ff5b2803f3de4403f6513600748e87003798bc024c0987007aa5150008c3bf0130ce6d02ff23be01250f8703fbd41b03aa000d02bad20600f0074d022c270700d00e00,
  0x178149014726ff0232c2c9017da98a02dfa794001dd097038182830356f74503bc0650027403c2001d09b901f90c0300e01c5e03f9b18b01e44a44021223fc01de974e0399e39400b9b96703cb0762000437b501bd409f03d2ce5e021c839c0392453103c7b15c0253313503ade52a0120d73803ca9f94,
  0x284b5702b7cd4d025951ec02ad321702fa5f4f0073d20f010044fd0019a87800dc882b002ced09002fc9500270b97a019fe55602256e1401570bf4032b820600ef14e403277aa803f9f97002ba80ee0029ad8f036358bb03d0531900b1e7a90341361300b6341f036c1ef0025aea3301dfe44a0167547c,
  0x3d840d00eef47200162a3500415e75019784a201fd22db03a8b4a403499dc60104b6f7002ab1000039314703e0ab6201cf60d900b8f6db0135347f01bd4f74018d342103fc5b6e0115896703a209e20034c91502bc3fa603cc51bc0350684303af5c2103e6f28203517b8d030cd6ab036c737101f1f1f0,
  0x2a01d40154202e0327ffa50198af3600e266a302d9e5ca020539c401c1454300c12285021ba80900072f7902d3055c013d6ada03c18e5a00f56da5008e91b10116df7103ddf29b03bd4631002655c0003651a602071ba202092c290130b35300408254019b9afc02f5f3b6035fcc24032e134001a1e87a,
  0x18255203783f3103f446e1019fd26203f232c7025199d0035db351000a280f036953b002f476c800033ae00344c4f50041dce5006456b800a9f9fe00dfc46e02962fbc01e5b2a602e46dd003f66010003258e60078146700944aa400ee07e90391be96031e23b201cc47500195714202cf902501979c59,
  0x15f14703ca5f8603be96a4014110030355022d0055a77e0239c0e00309998400a6d9420183565d000d962f01e0dcc0002bb73403280c5d01001da702d08653033e6e1d03f9a6fc011c31c500b1427800207d9e0004d08101a228d7026767bc0174d1e303720f49005f94150103795701e92b5e024d83e1,
  0x3ca083037f9a3601f1e1e801a08e4c02be180e00d293ee032cde0e01644af601f8297700966dc3001436390013219900cd126f0228b08501647e2d03dd4f4d00378804003b412500158b060287fe9e00356312030d9837017d47510304d5c0027d15a201486486037909d1025eb98502f2d5d2036cda09,
  0xc611202b7152b02702f8102df636a034c0e9c00c507ba0231d44d000e8f0a0101d485038c6b3300171aaf0085ce9700304093018a6c1003ef3a7a02e49fe80007598a014b2b120381389500abb7ae0011adbd01c00ef900f4a2e30207e4b003f8e4a502218c9c0312d779011ef8cb00292228018160c4,
  0x1af52101f069f203e40ce6013983eb020ce1a001cbf09002e4b7f90190350e00c55cfa0096b68000118e6400f33a9d028ca7750102078601cbc44203700ffd0125729300ad39b902e1f01f00efaf420009982201849626000d2dc900c7c6e601fc645b0029fa5e03acd575011fc27100b60a7803d2698c,
  0x30eb00ef8e07017b0b0003d8905800574173030c0e1a0022b96500637e0e0247cf5f00a9f4ef0020cb8802a36eac02ce8ef00352b49b014bf36f00bc9880002c3faa0361248503fc185100207fd1002cca1d014b90c702c20a8601c5d82e02564ac20319779101186841039adc5101e5fb0801b548b2,
  0x2bde6803bee69802f80ee801674c360030f196005bcfff0027e75d008cc0a903432d0e009674d5002161b6030b43be0274971c0153c5ca018bcd42037f5c7200bcdda601add4be018c373f023d29f3000c60ca009e4c6503cdd2bf03eff39d03bca32100bd679200d39060029c51e10322c9640006586e,
  0x21601a013f129300444428028a394b01bdb80a01a965db0154e17c020100da002c9f7400fa4fbc001c30a000b5c26701801e9501ce595800e5a71801f4db7203a6d335036e842600a4638700be126c0033779c006942030288c91302010712015fee7001f5a53102988ed802e1b4ff02b865400336f2d1,
  0x235860180e3d90055a3f7029ceffa0206c1dd00b26bf9016dc103022b27390068e209024339ab0026495201df7c6700a701360059b11d0189bd47036297b7028ee7ff02385a0403543d4d02a7c54b001a5ee30191bd0b026f1d8a010e9fe102b9143e03e8a25100cd397b00deb1420287b6e5013a64ad,
  0x2397ed02aac5f4033234cd03c72a34033fcf3901212279013899210081633a0092bc76008292850032fd4a02295c8002c6d2f202b20c70027da85a022a697b017572b8019bd7d9025f66be0193699400390abc03d665050345614302b292030145cd16001cedc900fd543b035c331703e0fbd900b40b73,
  0x2a7a2d012688310343a811015826fa02984d69007d7a0900cfec8300221d2800ff6a1a003506e9001a49fe01f988b800b3c99e01ea1de10171968103049a08018ba26f03bac43d02d93b3a00af91c40030ced7030ac98f0278d61f0124b548025d375a00eab58f00d022ab0281d5ad001285c503eb0ec2,
  0x12b14c03eee48402d63d4203327245016c34cb03293582023839ef00acb5e000a463b901dbadd6003373d403fc5a1302c761d1025900be00f2487f0124640500ba2cb800c9d09b026a82610208f1e4002bed6803a44cd002062517031f93fc00e6e9b100ad6784032fe62a00bdf11d02fd6568013a50b6,
  0x1e9afe005036ac018b5ef601c7fdf800c8d1c900f7a88f03ac6a3a02dc7718038e098b007082370003604500a8a76a03a513f302bac29e00682731009dea9e00e603ba01095f060252b78002e504c5000aebb5015a2c9d02d0509001b4ca0402a1566803aaa57a02b4454c03ee736903353e22035176dc,
  0x2ecf1501701d3e03d25eb3012f65b0003d365e01600928003a676701f3d4e6030f613102a6439c0025d191022b99980206c44802cf803102a5f50301bbc8f003f141740208c9e50017e01003c166a3002f1a6a0086501902e5a9a7030cef43036572ad029cbdea0104d2210145894001ee664a001cd123,
  0xd652a0040f02e039832520166a8d600e1adcd01d3f42b0000d823025ae8570348af560076a8a5003930da036b2e8a0268ce7501ee7de80301113a02f48f2701263fac02c90fcd03bffcd1018daffa001353d00322049903019be8024a5911032c214b021447f90067cc4400d6b01e0109dc1402572a54,
  0x1241c101efc914022862ff0202924f008b93710076b6ff00560196036a2b2003fc99870064414e003012df00eea791025ef9a101b0da4c02acc1e402b715e20299deed03a7daa0038e4c700038929e002994650127f50501011a4400afe5b7037ef44c006118b302d44cf60105f03e02ec65d703000354,
  0x1e78360025891902565c4c00cb252900a5b07101e3c24b0360194f02a670e3027e16b4008f9dd40008006301c5a000000350eb0071e028007c7475020e0afd02dfd7c6032862cc01acce9e03f59110001caa6b018f0f8f01808e01030f09a100de639201de0fbb01af5092015d5b5b0193ac5700e0df21,
  0x26fdc9020c10bc0025724402081a2b02a46ed5021e054d0038a1c90028fa5c02d5383f00976c79002508a7006a9c8500a331600141ab07015fda15024deb2902021e2601c318a401abe0fd014476cf000737f303d1f7b70090ecdc01f2666d024f5a1901255c9301dfae7c01df2f050078b88003a03bd9,
  0x301a70375313a0379726e0202a60e00a8d5ef0387f76b015cfcba02ecea64006c7ec1016876650012201b002301f300f12cb100eef3b1021e21cc035a690b02b6615d0129b6ec01a90c7e03a8f7100003a37301d30858029f455a017aa94e0340b41702c26aa30310692a025fad7f038d6bfd0040a403,
  0x3299c403f35be602bca41601d15b50034f0a0700b48add023c389603ba263502691046037df8770025496700f6cfa200a282be014aa37b03ca2d9402610022010b3aca036aafb902c59525019ea0980018ee6803cc19b502ed1bf1036073f80089d7ec01d6f72b03e88c82015df21e030454fc010291a2]

/-- secp256k1.go:10, serialized bytes 890880 to 921599. -/
def tableRow29 : List Nat := [
  0x0,
  0x2e97f5018dc42601b0e0680045093d015e519d015c783e02b0a90802b492970223e8ae02bae0c8001a14f7033779a601ff8cd500b342b9032b56ee00cf7efb0266dc83028eafd6032c8c8b03b1a7cf0014ac71030eb184002483430110f5a4018edeaf0015726b0300a6930042c5f60053700c01225d0f,
  0xdca21007dbb0c02b3c1750162716c02d8ff160227f2a101bdff6202305d3400e0c368019252b1001174020375de9000e03a9103bdcffb03b7e35e002d8aa10231ad1201eb353a0305c4f303498e0e000107fa03d05303036532c6026002ae0389cabf03de5f8803381db300b245e0036f3fb101ac343f,
  0x29ef33020f159803e8bd7801304a3a03d885e901119c6301c5825502dc206301634e73005e7dbe0027ab6f00e7d78a015141c502332a3d024ec03d00cf3d2501fd135e01ecc21d03c2eafa006c1a680004dc820255942b032be1f40048f01400cae29a00f154220113874c0265dafc02eab50d0217dcde,
  0x1a262a02855b1b015d6a81039d33c802157201020c499e0336d03501d5f4ec012ec72703ac0e930036b22b013cca4901cea6ba03c15888016136ae02d31fea01601df0034eacdd013c3516029a085500073152030e45fb02848bdd03c16f7f03a201a6010b2f2d0218f2d30048a8b40283c261030e5cdc,
  0x22c7018c389902834b810199da28037e966402a0b1280045ab0400daf7bc02e70e11021424150006c61b03451af502291e4d0388e740005b505e02803ca600acfd0301c3966001c8bf3102e1447a0011cb6b00a99ed2022792ff030ef6c3007a94370315f2a100a1a50e02910f2000db4558017dafdf,
  0x1ac040013c88ed02c08bde03c4a5bf03d4c56c006a2a0c00419cdc0069ced802bbd21901e291e800181bad0273c6c401e9eacb02391ef00351425c03fd71520018b60f031ec3ef011616c601ae4ccd0030f010002ee305018016d701fe9b83011e1f9103dbe2f200f9b23501f9a39903c7b64802559d83,
  0x1740ce02c0bc360205ec6902a001e8032c34c2015814c102b7682b001592c70257afdc01a8eb1a003c276d0000b99e03760bb600c5459000399f7802e82404025dd5830130e01603b35a2200ce5e34001b574200a78fba004390e002118e740162004300a8689b014abf1002d6ea8c01bca99e017e8e1d,
  0x29d18f00b1762900ccd85700cf73ea004c557f037e0252002f6aec00b0636c00763d9a00149933000953e50168baee015628e90185b89603d5823a022f171c028d46c400155a0c010b829d005ba7a10034276003341fa700256b6301d22cdd035b74f303bb537c01893dc40096aeae033c518a008d50df,
  0x2cd6ad0128d54300ae5eda00cea97400caa369026ab718031f9f3103c99f9600975d540239b74e0034fc3403c03ad90384e74c010a5b4702086eb9035b1aff01fa3b5302abe64c0105c51e0285fabe0037008401a6786b034342f8024988a50054c2d1015c561b004e82a601115e0603ff38550192a3d3,
  0x28632c0024a95f021a41be0289e68300866a9a0134239b02fa907b028e7c1e03f6f08d02684d5b002eb88a006f2fe501cd5954017a2e7a03e6ac2900ca10f302d04ed201f1704703356725025ea85100218dec014d824d036a741e03fc053400efb066012e41e802863256025df4e5019d9e8602ef0a7e,
  0x30661502f1910702446a5a036a67f50278075b0144472a00ba74c3020731e103e384c801f45b3b002b54d70359b0f202a755a600f2378e02852bcc00f141b0003843b400b81ac8020c91630267fdca0023ccf602be8292014457f703fe44ce01a23e6f02de9b020294868802418d710097ab6002695509,
  0x320e5b024c14d502323673007707ea01121606021c590700a21a4302e4713103339e3103a8e3060033f2d6005e2e890328cc5d020910010282f12f00b1b400027ad9bd0254c3fc0223ab9503ece1180037835700769cbe029a9d300056117601f2941501ad8e46014f6bc60041ebc9007cd31501693613,
  0x1ea33a0388d41201980bd40071f1a90249a2dd0233cde4016a334401478d820195730c016631f600396f2602e1f1d702a695950023a756037ef7410121bf6903d5b3bc03683ced021ffd4303787917002e5de9023277f50187463401f2e3ee024dfd7d009a28ee0156d2c8021cc0030116c52900fe45ae,
  0x13c1c200b8582802b0f7a003bef918010a51160077a09601ba97a700faf1f101a5d60e03e726d9001d4d0802747b7f004573a801ee21b900acfa3b017cdace03cb1069017e7a4d0333cb780125b6780028b12800a06a80012269c101a5fdf30102d05400a1d1c700e8ee7201754c9000a10e87039b1568,
  0x600170354b189002225330369c07e03997b8e005ee92401ad0f4501aa8478035bbc0802131724003e2d9d0085c8a602713f67018bb5750387080b010f4a32011232e003f022260299a40b01639f42001431160225cf8e023775be03e59dee01dd2ad100f66005027aca1201c1a7c9002efa120092d26c,
  0x3bd4b603119ca203b3195203506c5301d5bfe102bb3efb023983bc01bf2d1d012ae54902bbe432001d8bfc03aebea001c3892001db670300c6debb0093a50b02c12a9c028b982d01b2e741025e7eb5001c904403b1cd83004368e802f162230219ae6f025250210014447a005d96560304b416010330cd,
  0xac55402ad4bde0211202400cad4ba008a1c6a021a8e4001fe82a300245f470073e77902e8c03a0024e8ac02fb120801672e9200e1904600a953c701d6a56a01b5452d0039b172026c3acb0214189600101f4802effa5b02eb54fa0043bfc202e2b4d301ae40010373a0d30236f17d0359973d007d3919,
  0x11889c01dba0fd00bd7f1803a96bc2037aa20d0283730a01fc765002fa9eae020fb2f303447bfa003c9c29034cbbb7022baafc03c1851c00e69b5c03aa95f601d4af9b000e3a5a0232ae1f002880120022e0a40071701d01d400c702c79ad601d38ba001842050027bdc25026d59bf029ba2510339b88b,
  0x398070013aa2cd003b650e01945e9403680c3c036112e00287fef601bf8f41016ef00302c5156d00150148004a03a101ed4f75001b0bac01a416b7037f486000d7fad4016ea66803993fe4038af3bb002dd12002d0f12000c3db51026846fb00db239700760c05013e642a0161826b031b9213037d7cd0,
  0x32636b015fe67a00322d81036277ab03a282170342cfde03ea0af1018ace5c03947a4001e3f49700211b1200b657db027666cf03caa550027db08d00d2a00902ec77e50302b15602db27f8022983e3000debac00544152018c057f01fbd08203fd8b5d0364b7060037fce9037477d103f5634400b44d9b,
  0x13801d02aa562203ae140d01aa8635028aef300314a4e6017215c4006a4b530048f114012da221000f74ff015c498f034cb1c103530a24039d015d03d2683e03faeb3f00ec1e4703bac13d00670d3800291a9503f6174f02ce18220155f214011d359000ccb37903c7212c03025d40029b7cf002563755,
  0x269c61018792a50204efb1014466ca032bf1c6030f14da03214af201d99fa60029b2ef002a2b7c002e64c502205d4b03be7646010f9dc30046b8e502a77a30035b18070137d35301ed6c1b0280f56e0004ca070279a999039742f2009344ad02c46f78035b5c17039c15340278f33f02fad9fa012c100a,
  0x19d37f037019d30022f77d0046cd2c0083f85f023216f402e7f130037d6e53007dec9802187d79002dec84004d104d02b8aa9e0098018e0333e2ea01da56a402f1d2db023b370001b74aea02762e99003d41b902e76bbe030b834c011a8efa03dbd44c024b639202a54304039dfc1c00f5ce60010720d6,
  0x121fad020ad85902de2ae901c577a003205114013597d602f5ec8502f7a5ee017f7b0603fbe299000922fd00e7c5b4010c1f740137ab83006abbf001bbe49d0372dda703a23ca50123eb4c024410430030e2d80335cb0a00c760da00d43c8e0048125a03421005033ea9bd00174b6701dcbcec007cc565,
  0x33d45103e42cee02c8b84f01139b48015394b600817dbc02930ba1000c3b3b01ff73f201c976cd000995f10296eb9702b34e36028ab51d00983e1c03969d7f02b7d4a50350232b00d8890400e8f9f30034fe1e0319674400d5eef20187b1ac031128fe02ace5c802a16ba7003ef798017ddbb201e75580,
  0x26bc2b033fd4aa0356046001330587037bed41035b218502659b98038765d4018188ff002f4dd9002212c200bba382004995fb0089690e0145e54903d7b5c0014e31a000e5c0aa028b8fe502b21d050012c953015542e803580aef008c997800a43dbc03c4b81600a95af2030c3133033f3b300187732f,
  0x251e220047b4b502a2e94c01ee520b00d51488038fb0cf01621c7003cf5a240083e23003adb52d000cb12502d76aed01cbcf2b00406714014bfdac0108a927011ab3fa01d999f501712db603c2459a0015007f010646ab036600c903a50b34001ac1d10205663c020facfe007163bd02ecd2600102926e,
  0xd75b302a2b9e6004e513f0214cea501cb339003f6c8320230370a01bdae7b0316ba580222f72f0018772d0008b7b603c36e32020850ba039808960007f8250314f09502d3148d02e285790166594b0015d4350166effa030a861101aa13c902098cdf00362b3302f873c5011ac4f6002d9af0038e6b99,
  0x1f20f3030846ad008b0611017615a0027f90e40367c6dc027ae0b200351cfa00d490ed02e25055002d4e2102d5c32b00d40f3b0389de5b003480c60390e08e0278dcae01c803f1006b095801a0c09a003689a603d6c7ce00ff2c160040e8670159521003349f6c03ea9dbb039b2e8d008d9e170001ae8f,
  0x3813fc023a5503037a10b800bd7f9b01bd0d5f033ccf2d03ef094503f646b70019c8330101e212001499ce011acfa100989b3c02e61c3902f8a9ad006c4ffc02df56b202aa21090004b42a02662a25002284c5019ec26e01acef9f00f357d20074717c01648f610137fc28007638ad006c11cc036cb9a1,
  0x1775d003175f502467d9402a65e640382c397001b437d02424a97004a4a5100092edd039df816002424ab0258b37501bd4cca014fe5cf003a7f9a00a4130102bb828002e64aa4013f11bc02f3582d00086b30000171000057cb8f0248215503c4f69a038f5e6c028619690292b6f00146cbbf01d25f3e,
  0x20a3b402ff326d00e522c4014b5f2e006ba01302f7fb9300dc658c01ef132602958d5903bd6fe900025db70361096701250ec803fb1b30028bab6103bde24402dee92700df85d101dab32300980f4b0005fa4303bc5f4d03beb3c7020f523602bb74b2035dde94027f70d90054cf590071de7200ad6a80,
  0x384a79014df64d0064f58d01734406019d943700ce750f00ce6427012dce7a02e0ede600e9e68d0011cc8f0377bfa10374fc8d011ebf81023a1030023a1339027e930b02175b0903621b5b0188b52000124a6e006f40fb02cb2bdc01b5356e028452b4001208d8022ce038020fff4501b9e08c0238ee53,
  0x1c5cc602cc597b027e960902fc6332036f628401135cac038e78d20383eb310080fea602ff8146003a7d8e0243a89202dde32903d021f20120a781025dbc140023a95e011b4794013515b903cbaa460022c760003c405a029656eb02563e0d03918fff007dcd510251049200857da90196aa2e01a40693,
  0xbe00a0146219902fafe7400c6d8c3012855fd012bd20a03b73f8800e0a2f600fc14a9006e71b10016fe770399eaef0092e8e101f34e310131b3b203cf948201a2a86a02e3e4c602862dcc03941c14001af99901c278c800978d2303fbc23700bd99cf03e671e80187e8e901756e93037a616f033b95e3,
  0x22a734005368b501a16f38018c7ae501b8e1b7036c28440022a54b0082bf4d0391685d025c4c37003598e8039d51180275f3e30316beb503f312e702f15bd9036a420e0004a6e8013d7b6901b60f2400244a2e0186104e02b55ef40008aa26020f6010026540bd00a9e33c03f49d7f03857b6a025cc544,
  0x366c1902e7123601712046038d964a02c913ed02824fc9006454f5017c2f2000085d6e0383541400371b4401bc1f0d01c9e1ef02aedb4a017fa4a8027f76800093f93b00e2ddad00181dbd00f925db001622ec01da9d1e005ff90600c648b90119556f036ff71e012977d00336ff6d03d94bd6007d6e4b,
  0x12d4ef024e20d203fcd75a03750f64012819b3011c61e7023c7d8f03036dc6011fd094002f6961000857cb0155f5e2019355cc0385591203a3ed7c01de4145018575be0001555b034dad620273bc33001e29f603e1535401e2ee1a01e98287015835aa0291ebf7027ccd980064a45903d12b910368dcae,
  0xe7b6018a00da03af62920384eb66030097de00d41e8902c2049f02fc66d200d5060202c20c28003c5e5f02f4be1c0063cf8d01652b6c032dcc0d0236e9ba012a7c0b03dffc0f0294c38e02cc714e002b193603e76ccc01e8fc3f018befe9008d1e8600c3095d03379f3e015f6d45003aafba022c7b08,
  0x79da70397592b02beba4c03bb88b001d0663002753df00044969103d12b2701bce36f00c7631c0002ed4300b86cf2034c7138031d1f5b01fe590802c7b266035aad22030aaeab02fb0e7302ec70a20024b3f7029193250204298200511d760133f5960001480003d55292026c6c80024592160030c55f,
  0x97a702c57a0a033612fc024517c2035706fd03016a880306734402d0a65b02f6814400ecb916002111e20168c7240257ecbf00f7ec57009c69d001ef6e5a03606448002661050261c1a30080e3130007e28f01d18dd001bf4a560340a8d600bcb27100db57df026a64ba0337443703adf50e0043c0b0,
  0x2b41e8007b780a00cb019802c1f07503676b3001c0e9fd014c1632022ef9f6031601b003aa5997000a6daa0262917f01694b0a033d5025032d499c02286b6b0380f269032f3e2a035cc63a02278536002a863f0176e96e020e50570160e4150124d8f60093531301b5c182008d39fd03580bbc0382a596,
  0x2286c703731b7d0231ae60023135a4029fcc7a004a3fec0229fb4701defa87019e54de03d08ce60000f9b70263bfc6017744a502fa195e03a3feec019c16eb024ad0c4008c33f10112d45c004a3ff400352ce4022fd26801ec2e520083e683011aa78201cf2d5b00671d7f030077ec027f4aed03f0fce7,
  0x3ff76303275520028d3f4003fc230100997536038bcbaa01d6ad61000ccb3a029d189a027563b6001d7eda0114127a0381a9f10197ea020080a93b0137e8f203f5f2270174490402086c02010dd9550034ad5e01b41d460007a07d032d32c002a98dff01b8ba9a00c7de9d00a736b903da7bac0333c861,
  0x3aa00903ff14780086a03b02b64d8a00ae4d9b013a642500b8a28702f669b9003b334c00c5cff60007caf2035595ba00ccc9bd0031094400c3917101aadf2b004ceb42016777ff02a52cd7020119ba001c4c2a000d8f10028c69d000dee71e010f8fde033dc7d601e71bab02687b7500f6e65e0290f1ef,
  0xc3c290341fef002e9b92c006e85eb01430852001813a701bd64e200a9cb9901facf0101713bc80031355d0348877f03ea90cd0302731401582ff702014d3900a0f9c4010aef18004c8da302ca8d66003a494901ba14fc038d719b01e9e816032edbb50232c2910341679501f124b802b0944d01ab4652,
  0x38f56a023534cb023efd5603d69b5b02040151036897b0013fbfff00a26696018e3a71039c448a0033aae9001f2f3c00a08a490001422f0175f8c30013b48d00515159033c416c01f0d6ce03856581003965df01ece6620055bca10303877102ab5b5a021070820301526b002d3d9000377c4801553897,
  0x3c912c00a9f2b7006d2818016a2ad0019d6a37034541fd03029b30003682e300419cf2039b5bdc0018204c0042056a027a3b5801d95f0202f37e59036e2c840236a8c802795ba200baebf401240c2000189cb7003171fd0278cd5b0031b6c002956663005dcd68010183be00c20e9d036b4900035e7d2e,
  0x21d9fc02a3540e011103d3004336c700fce71c0257ea58031142480190a29f0248d27b039cfa31002cfa550174eae1036ce59203b4698603814e15032ffe1c02ebed9b0187a62203a972c101ebb04300341e9f013d7a8d00b7d23a027bfcdf003dd13703c03cd30124689d02c996b603484b5802bc5a82,
  0x33e70a03e2ccb60280400000a82ba5001373390243e4b40056fe3a0203c19a0261eb1b01f7b0fd002295de01b76dde00c623f000bf74dc00f2d4c90369f81800873aa70374422602af6a7802954ef6000cca2d01a644760013319b029ef2be0205f97303a1776d00b64e5601ce0a4001b6fe760080207d,
  0x23271c0119507c0201f7b70199677b01d2ad2c01d759c101f10efd03c914ce037723da02995cbe0033472e022eb5450132177f03524051002cea7c0030ee840207ea8303b6033e02e64dd20322e1de0013e774028c02850333aa430308d8db00aff8c5023d7d660263fb650270d29e00506f1b0218d5db,
  0x34805a032134b10103672903ad8bd70353de2201f5057a0091385a038ca724003d1caf03e7835e003f767b00faa557003cafeb03146e51019286230228c94301952e42007aa6200043e815033bac890015c1490046c5f70294bcbf002255c002f2866803221a130292878302384b9401bf603803e970c0,
  0xb63cc02ce18990006d8ce02cfd3980363900f017ef76803c1638300c03eb601b9d07a007cfb59001dccfe02f651e601d7b34701a63107025512b100139fed032cc1d7019213cf0360402a01e22022001dcaec013a0db80017ab18028f3a2301a8089601bde3230344b2bc00762727027f5c7300d0fdcc,
  0x3f46fa01a1d83e024d632d00ce6429028e4cc6020c12930275a520016bc5e0031b2a1e00eec21b001db531007133c7005f03fc03227b7f029d5b480206a1ec00a59fb303991ea2000b9dca02108e2d0004a93500daf3ab00f9818a02ba8e58028c1f280316b28b0352e8460307f9a601d73d940120ec00,
  0x306965013efc82004b769300599022025f507a02a9d11c0191ff3b0007f18e013d732e015dc4ac00046b8102a81988030657e800d8079e0147c7b102822b2c0277daae0259889a03e9df6a03cc7e64003ec998038c6b65031bcfce01a0b46c0264f00d000ff2ab0269082d030800d600bc2975037328fb,
  0x3e1603000d978e01328aa703539f8b00786e2d033a79db0342ae760293276b039052f50171f130003f533f02f2081703ac362b00b801b403ff8c9c01abd60d00642ab003b808ad0227c5b900cb3d20000048c902e0347500e0f93f0014f0ad021f3ce203e4467601620b68010b98f500a2a4e700a157c9,
  0x169a2a007f8cc100f6f68d017cd693004690490076aafb000fe02c020758e00166cba900a01ac20004d45e00f0b94000ddb3e40242c8a6028ba79f0031d8e30028a80501d1e42f01843d9d01b86c6a003c41a30356cc4600077798022d86a7012d81e302ba260302200cd4005e64c60139853c009c948a,
  0x260095008f925303c6f4f2027e6ed701e770bb03e7f10602598dba02666ce70025b39a00860ae10000e04e0214d8ba0214c46e03356bd90139255e0078ac3103d80f32025487260056a707025b977200375b7d03e7f79c029fcbf201ee2e8b035584170190b0d100bcebed0371b1a60092009a00c86207,
  0x239da4014fb28300af40d4037e7f7601bf0de300af28160047e02f03c7df0e025607ec0174f109000f6ecb02ae2363031a8c32025e21f10306535402a6c557011e90fa009ebfb301e7e40400ea2422002aef5c00241b3e004341a403ff4c46037b6bf8005ec38702f008a00118de9103a02a9001553d13,
  0x326fbb03ff6cca010b136b01e1206601b25de9014c0d4d01a74de40154d977025fc7390172e5070030c14903995c51002bc9f10117fcaf01f42045015a7f150368d21f02d77127034746b60355a5ff001e37e4018c27c40289ac5300328d7600bd50b202250faa001a690c034cc3f8002331dc000e3d53,
  0x29d8c003af1c4500dce77d017367ec01f49bc9031ee68c007c778c0263262f0352b00200a7070f001e2be6034e1627037ab0c10048c0b40093fafa0337b791035f0d3903e11482020c07f201b8821d0019e684027753ac0051265e035ff6d50328c41d0250c8ea0258ed6b03d6657702f2cb0c0241af02,
  0x1edfc5033d98c8013e172d010345fc038a2319030ffc0e00459abc003c3d000218ee6b03f5de7f00120851016337d5028feadd008a586703ddfbfc028e282c0229691c000f82b901e83ab3013fffce0006c04e0396115801438a2a02b61a6a006b5dc100a487c6017fcace038edaf4010cd93803432d24,
  0x1bfca00656b49026318ce03aed5aa00b5656d03e44d4202911270006504d2000bfba0024aade10012379903d4ca920373a26a0229add8020761d703db167103f9009001e7daed034d78b2021c6e6c002983bf008e085d0395534701a3838501ee4bd400b010610044e90c02ed29f900a04ef4024d46dd,
  0x30deef0163acf7028980ca0051d3d503552b480358211101186a0802bf075300c4e03a03a1600f002b7cb1027fd37e00309f9802e9b7e0036a3a200332b4fe02f92b4e015ae6b301dac493031520d3002164d10087c7ba030806bf031423a101cfceec0138a934022b68370056893d02d5f34d005bf6bf,
  0x34188f01e2424e0328c7f001436c3400b378b301dbe6a6022c9cae01f3675702bc1cd20069d4e2003a56bd02fa302401f1922c0393dbcd0190d5d600f66ce3031b1e5b01b1d331037602950120fe140032ab2b002c17d1013ed03501346380006ac52c0320810f0168ff430006750502da1c750084419c,
  0x34052501c0f8210049c745000570dc01894bf5003aa3e901725ed103479e8902f8c5a20081793f0008615701f9b80200b2f8ba003df47a02b1cb1e01b051d703b5c0120079fcbf0031a92b0121224e0011c55c00d2a294031f598c03f6e5cb00bd5be800cdd3c902ef00a303b7044e00ce151603c6a721,
  0x30ee2702f4334e00fdc3fe00794bdf03af84140362a09001c35b160296ed4a01b02aba022ace1900282604030d8cf302dec07b0328a99700a591b200880ac901fdaa6f01fcb2dd01d6b3b603ff018a0003b38f00ef25af014ae976017d63110134134803a2dc7b006db9c602d9b98701526aa70162ddbb,
  0x3370d9022c6ddc03c4d015034fac1301ded52e0347823e0373c5820042a5640308461c0135eb13000a1cba01db41a601ee78a500863e9d0322450103c90a3a037e5d620387cac502210c8f021118e4000e1ab301a641270000b614028b93600067e1fa036cc31f02fed5c303a94ae90024c145028ea137,
  0x3d9ff0007c5c26025ef68d00b341e301519bf602e3c85103a86e4d034420c9017ab9da026ee1ec003138bf01b29d9a0113abd202e42824035c69530146e96c01263c180217b63500a5ce7702422fac0008f2be038beb3202fc876502fca3e000facad003ddd67a00a5f3ec011ae16503d47677000b4e76,
  0x1339af01557d75003c151e02b28d4a039ccaf801b1b82601958587013ea75c01158f1803a55e90002ccb58002b95ba026555d70089b6ce00435972037ec8e900610ab1031e7a5401aa9f9203314ec10002c3430359b1a201c7a56502178aac02b2bf3801e68823035493e3015e5f2001ecafad03aaa729,
  0x30ae2601ae3dc10078fbb2034229bf037bd35c01baebe30135539b00974502004fdf0e03475d0e00316af1002e4fa302b1e0be01035f35019fec2f0014eea700e5ba4202ab6b9b01eedcf9035f3d640009286c029dddbc02072e7a037593b202e9d18303304c0e00fe8a5801b6b58a03743d58037b8c29,
  0x21cded00d012ef0395fbfa0111f8ce0201a330028ed369028b82e403e965c8031f623d035be5cd0005ab7f007132ce01a6a23900d7e3a1013ac9be0185570002f43b4402e6957d034b6484003cf0880026a94502a82d2201a3993102c8419700c5243a0335000f01bb1b920232fe2f0195b1b7002d1b72,
  0x18175a00220cc300b74c680211be5903c81347019b0a34030ee24801785b6800cc5cf001b520f2003037d501e86141010151d802adf35503b03a8803a9db450174a8ab00faa3ca01d6f55801f182d300396de10398530303445ec70309788e006b3b5a02e8585c0151d2a103c03f81023a7f5001b78591,
  0x675c903a1a5cf0273f43a0325039c03cec461016c49f9038f6ab501ebc134016cd95c02c255b2000ef66d011925d700b54f8202a6753303136ba50146d7400064ce3003e77b0201decc4c021e2e1f002fbc3e03a077db0045944c03ca711d0241a362036c1ab1013bb5f8018e8c6e030eac5003f8c56a,
  0x29632002db54ce02aecd6502d3278f0357de20024f2be5021f18f000fc1c9e006408da03638b92000d283400da5ccb033cb6de0264bed4013700370045f15101da69000026caa400c83df803c74a8d0028ac6b03ece4ec02854ef9020387eb0036fa27022aa34a01be933f0031544c00765d2f017a51dd,
  0x2bbfd402db224503a1b3bb00a4a9e60388d0460387db2d03ae6a6501e9b21601e331c10311cc210007b13803e07b4f01dd2f9501245d020103b74903426c2302d2299201b01d2e0237af46000619e30031185b00d8c08202fe35960030a3d20367c4050335f6de028f1da0021c8dc20327ebb801e2c1f2,
  0xb0d9a02f26441026aacff036431a203ce8a0400ae8f5102a75f6d024726790106c3c1007b7fe700054cff00813bb500277f380126af4d037ddb8800306d190086d3af022d282c0222ea30033f50c100342462010b92700394fd4c006fc97b013419830164892f01923ccb00a2c09e0037f221015170a9,
  0x15c69c03c11f2f021dc98e01cf346b033cc0a10245b94a010d3c210089f60e02ab6a4d023b8ff80033ca5a024eef41010a7a0e0296bd55009f497301ea2c6102f0c5d00174063800708a2203b785a60013506402cdb4b00051f4ef006773ab03c7a4a203e58c1103954cd901b757ef0174acf601ba7a3d,
  0x37207d01dad78b027b9345001370a1018f914d00197195008c977b019094a0014b651b020449b30006a6dc01e58eec01c47c0101550b8e0125016d0271a3df00d25db00212e14902dbcfea009aa8ba0038d4c401a240540315936601c693d1028fe258029fd21a02dfe76c0020c98e030ae05202200ec3,
  0x3537680368943d02a77514033cf2390382e907004fb3e901002cb20071412d017cd53701feafba000cfe9d03e51f4502fa9b89038bb72f023f090e03a90f210279ad8b00b3168e00cbc17b000ed12d0011ce9f03cb3db0038219a20009860200f84c3402d97c5803cefc0c01150d1c03e338fe00a1e85d,
  0x251a0b00fe3fae00e39d5b035f7a51012d320f03d6e5d702d4ecb300c91ae00133b4ff029f82e10005adea02944d4c020700dd015f7db003a6eded028795fd032ae4a90246f40002131b96032d8d040018f9b10321de2a004e599703f756df02678c9603ff54ca018b4d170328c5cb003f1bb1013b7e2b,
  0x223aea008109fd009c8137015117fd029b655600b41aae032a869800797805030004a40363bcbb00236c630143e71c02115b92032382260295ef7f0230597401bc283d00146df502fa8053023778960033843603a1e380016d6d480063d70a03269a9801badf9001b357350091af3901455f70012ec3bf,
  0x361d6f00bec3e500b2fb7e033460f8002cedcd029b819203fcc349006aef890001e00801fdb2ba00325eb501ffaac30183a40e0087165f03d27c600384a0bf02065ee800e8481001e18a9600564860001a7b6e02f88db301dc1a6b0365fa7f02ba53d50134b8420228dae402f66ffc0225ee110204e0f4,
  0x240f4f03c7d454000d0ea8008ef28d015ce3ae008a9635030fd92a02a6cebd022d8cd70321e6800024676801c69c7d02d48a8a005b0d750383fe4e034607780263d36801de609a02907b96031054f00025f725023ae76d01ca76f8020bcac80179b22e0151df2b003dc3e301e60c3f00b0e39202bf4641,
  0x388b580110c1c70165435201b3277e03550cdf0224e4f901e559be0354044d0256d91403ef6f9d002f37f101d4d1b903e549ca00138cbc0250bf0802832964030012f0033763ff01d250a00350d6ec003adc840133ca2000bc2c9e024264a0007fa07b03121f2e03b9a40e03e3b9ae005e2671018d0789,
  0x5050502fd22e00176183003affd94001595ea023493720290e2390239289d03315da3012349ee003bf64f00f5ed72020fe5a5035960e400eb2402023f77b20112068f031fb4f3016855a202e32a670011eae70076b98a00699ee702cf74c60212231f01e8311a03a269cd00f375cd003a1e5b01fa5cd3,
  0x1d15de0189a302001ecd5e03dddf0b023e16680375c42701be6a3d036b595a011030fc027044bf0023d5db02ede72203d7235d01df709901a43d3e00a48f3003a71c3803c6009b03500bda01ce5b7a0027e4c7011a03bd01331254038be1c6013f068102ecda5c03ee6bc0024185ee00776910025446a4,
  0x2728f10066451c0183a556004201e50215242a01e56b49038321c501501f990046554703b809230014d3dd00bbceec0318e6b80057e500028fa7d0025a24c2010673d700b1dbf7016812030027a8350032ab1f039446180322e88e017ea18c03e8e0a300e46ac0000ff6de024ab4ba0261f89a02db0a59,
  0x102a8c014c12f3016697ad03dcf971008f4b4402303ab100543fc9029d930201aabe4603c13bb500152c9502399f9c03feedb400caeb22029be487014c4958025316970143f55102441de5009c9cf10008385f00b6101e025a6f4b03107053032551e6035f717c0350331f00db94dd002253ba00aeeaa5,
  0x5c2d201a3b4d1017ff24e03ba0a0103e4d09803d99ff3000491d3001231da036bb56b003ef90900066756037e3967030989a801bba0e803931ae9019388f3011c8bf2013d4dac01256364010a294c002e67130173be1f023058020262c0f900e471050006a78e02da5a2e01bbad6001b7051e0108ad0e,
  0x2538540315c77a027a021e00d1e0c7009a535a01de2633012053e302e87423001f29150011324a0027bdec03d376db00b7e3cb025e66e8021eba1802a8591101470b9902006f5003a30dd5023e962800328ee1018d636802af54fc00c581ff0283cf9b021b06b503e33408012e273003ed28b901a1ec5b,
  0x1c7edc017faf2a03542a1a03a6c0f8005ca60600d0967c0186d5e10033734e0048ea6e009b15a1001eb49e01e9e0a0030a996e022b3b6a018701fa03027f0f03569383020003a303660bbf02279e0c0008b2e90304a465028b75e60014ca5f02121bf101715b3c01a650ad0059d3be003698b102dbbe5d,
  0x1ce65f02e14385033c76d10286185c0150f44302ca88ae002cc41401a42abd00937515037cb2940004b13b01f97a4103d479380313e3ae00fff7f50185a260030d1ff30244f13902ee82f802b211ed0005265c012f03bd0339ccf301bd44b802448a8e027439390378c88a00d6b8fe00357fed02a53c9f,
  0x4af9203a3f66b00920c3a03e23cfc02becefb022f4c23011dfa920279525801b2aba8001601e2002e19f9031245fa0165b6cd011a559c010e917502de8f9c01d3d8f600e02b0700a586a80340901e002e867002a1ba2e0073efc3030f36000355e04802fc24410147a445014d306703db1a540202193a,
  0x92900000c62ee00185780012cf4f701ab699c01fcffa300698aa8034f53eb01fd189701264df80009372e0204580301ce7927033faaef02b2bbc6018fb270003a3a5700037d2e00a4f283010cff3400326aab021fb1dc0216de7601551123014d608e025b77db012be504010252ee00991bcf0264ad48,
  0x100e4b00c060a900443bfd014fa3bf03f9cc030095988503a10fa30152dc7c00c9b1b00029e6e00003d09c00d1e41e022ba145006b8e4c033fdbe501db04250152959600cf40a30357fc0000b3e2240032aa0001b3ebbb0143680d00038c0903c512a600a5c8dd02b08098022ae57600b62c6402edc7ad,
  0x758670333ada3024d98c001077e30009bdbdb02cc1ced01deac1803e3afbc03483e8d03ecb90d0009db6d0171d2f10142868101b26a6e00e92a74011e551b0234c641035fe10f039184f400178568000a6ba403619dc401ac50e1026b138d01ee532803af736c0169d4490013b23c027daf3d02cb2c76,
  0x2241ed0156d00800d5f9ec024ae41601b5462e022845e501d3f68500da28dc012b302901badebf0013ea7100a874b5032839b203efb45a0111730601e865730186de0702fb264001aa6a9200812cbc000846bd00d467f700df294b02f8032a00f0d76d01b5b35300d186e403c0d3f702e79a2502c9ce7b,
  0x177c4302abcc1d00b6ce80010eb1ad03588bd40383f45500ad134203b46561010de14601548ba90027fb3203ce825900edfb5302a117a801af6cb0032e8722033ee2b901bc7f9402c0bfeb03f90e5b00347503039de1760080336601062916028ebb950207a757008d146d00c169e602cefe0d00d2d849,
  0x232f2702171fed0153df4b036ef81c0031e8b7024524fb018dc87e03da2f7e003f709f03da3fdc000f4e5302b451550399fc8a024fdd84037fbc1c0033452d018beffb031aa24a00befdca029b8a19001c540a03bcaea001a6c89b01d5f5fa00f64b1c020e6a58035083b20336ca63037d9a770379c1c5,
  0x3c77330171cf80005a6d3603e9947e00f31f790152c53f03f8258f03e43726013d016300aaaca5003c805502877476000e289a007ddcb70325375601fcc22f02471b1e0109aa3b009bc2ce0272ffc10011e88a0132afd400e70b3d00247ba902ca8f7e0134579f0068f239016d26bc0069a8dd017f393a,
  0x18592a0343439c022c3718025b5a400070c3890003edf90377987b01180067013aac5803af5a2f00199cb802d7313f0329920a00f7d54201ee4af702888aba02cba89c0095855001698748011713c800054389000d42a901a8fc7302e4cbe400a59659027cd96a0065f61301a754cf00dbe5ce0304ce47,
  0x24a02e02df2636001676d90061261100b9cc7d02997c0601b1bee501203d4b00be61f002804043000b09690231311e03df464d021a05e20115b5cc0118d5e2009593fe0224b01b0353e3590165c081003de6bf0364504500c850e801aa434603107a940358940802705c9f0285fc600150241403641d83,
  0x15b9010388201601455ef4013464cd03442dfc00d3f70503fd3c9a0112eea7025bd8f6009045d2003390a101f7986203bda6310175044a02ae67e40357e2dc022aab7601ee2fa803d5a9bc0015d6c1001c845f03f224dd027cfd66037b86700054f7c0023e216b02db710602e4d14502b2aea102f9b18e,
  0x1fdd2903be4aa301d5e0c800b9efcf03c448ed01d158f901e3b0cc028fc12e0177b4b0015fe6220030dd91015a5eb60291c12f030364d303f50573011ca055002be5ca01dfa28202ebda2c00fcd63e001a24d30021ca45022ed402004c8524032cc4200277b1c60089211e02270adc01cc8cb8010570f8,
  0x218aff039809a00010f75f0152a39a0229450900e41f8701dacd090247989603a6075e001bf6190013e58102c14dba01fbd6430364b834030f2d900273efa701855270019cb3190314e6e202d57fc9002200ac03251aaa01fcdf480335c53602a8e6c002bcf40d029f47ac011b1fcc00916bc901e881b0,
  0xe3e8502657c61009f21560247c868025a9125026eb17602bed208005c6d6c001406720182425c00288dbb0264c1ed030647540291353403309f83027599bc00375f100387431700d36e8c00aec5a6001a8d8e02717b830192c028007715f500c9b2f5032b57b601269ea1016355c3014933790246f0d4,
  0x6dcb703d343e6026078a100d21b1e036da0fa034a59c601bf00fb0062722101999cf30082cb5d002e2bcf01b73efe0156eb610018aac500fd52fe01779394024b8e3000ee138c03c7f2b7001e2e9f002b9423022db1ba039e65e7002b378d038177f70234f2ab0047224f0364418f022950b10201efcd,
  0xbe8d10201080b02f9984101bdaa77013216ad00f1fc7601588ecd01374c9503bbbe5d02e226ce00067ae401c94b7903cad13f020927630141a866022be2a001cb3ebe00c84926009991c70265de510001789600a871d7001a0f900333ce0a0040990c01caa964032480040143142e0078ed4003e1eb1a,
  0x378c9700c7d05101ec67e400d17c6a014a39d5021b2298016506770255f778020a13ea037fdc01001e114f011cea8c0163b21603b3080a00408d64010e6be003e435600042e877003a692c01258493003ec99b0385197703dbdde601c7bf88007ed1ee0074d6ec016394ce018d691902e827cb016820ca,
  0x5992f0061b0670016a1e502b4bd69034ce8ea0154a4ad02b578500391d36a005fbc7602b0095600261716022c85aa020b1de20113294c0178aec5018835b2032228c9037f7a9a01a9a3e602a02e5700040c5400fcdada0374184f01f664a1027a471201269ac800f643560227511a028b60e80295a4ce,
  0x13c1f0023746af02ace51f00ff9bd103fbd48303bf1a560387855e014d82d7002a762902a1eb770031600603d6c06401026bc2035ee63d00a77d1702ec0773036d2bcc03ca89c3027bbd0a00b0fba4003360da01b1cb4201c97bd601a1fd8702e7df39019280a000adbf170130f370038d124902951fc4,
  0xf6daa02765ce300264ad5000999d7003ec2a8022bcfdd0020ba9703c00e3e026e243200f718e40030e95802bed70200f3b832028a316a003e3d150398b89c00db52820291639b0342233f00d233bf0023511003fae69c025e0ac6029c49aa0328d5e300aa85f8011ba52e03bba2d503cc1b1100d572a1,
  0x98c4101ebedcb009735a5001f63840231edf1012abde100bde17d005052ba01194c8300ea5298000308c400840a28021d78040240430d034b8caf01efe70903feaec00231ac0b03b44e95011c1f22001f3d5d03b09d560317ea2a03a6565d0255c788018c078a03b2b38d0354e772025906de0125f0a7,
  0x271e6d03053e810169f3320262bfec0260609f00d273e4023b954602a24366025731f700e2b4ff00129cf70113c2e50281b7ba003884720133f11d03f1c2e2009895ea005a143c0272181e0197611f003748a903f851980301966902c28c610099212f02320e2a014307ed03dbdaeb03dc7b8c005866a9,
  0x28453800d4e72b025ce833004567b50330f87f0008d198032b7b24004a9b2a03313d9c032a14f700065473039a1ac3018d324801db07750295b4090323f86400de2b0401084e11035a8cd602f871a800062d9601c723110175b91d0192d489035b898e0121d2930358f6bd020a278c00f27bce02cea9ba,
  0xdfadd028d7d7503cb805702498060023d777a000aa1b00360da2b02fb9d2a0052cc9f0194fb32000caf6c0158ae32013ff1960358c82502c13d2a02ef7cd70109517000f259190020548a02a9c02800121b4901afde05022eb00702366b01017d6f1600e0789903942028001bf106037535db038e738f,
  0x3909a302a752ec0177cca6014006d50083c5e00251fcc603b714580281e8a203c13f2e00407b03000cdfa503430d7802d5cefd01a7c93001f8833502d58cc9033c5db3033b0d9e01adcff202272dc20018973c019499100373f24d0028b266008fc9e4035b46e203c1935200166cb703fc57e800d66881,
  0x32974b00dbacbc0139d6e001ac995a012e0bdc03d303be03c7355103d8a3d201dfea9603094f7b001ea4b000e2e376017f4f6202232dd103234a34016fda2100f512d703d8f5e4034225e400c0c160002c8f5c01b4ae23010ee7d103f3ce75030605fe016577510110ccef03b2193c0209f01302c28c57,
  0x248b60195c83b026e1368033e8f3b021017b00052dc9903c2ea2000baaf5d00a3244400d17e290013d56501bcccfd010bf2ed0262042e001656b90127b8ab00d6dc380132bcf7003eda0100f7b302001dab1402d104b400fe682601798a5e02edc83a03cca717033a8bcf01319c2100c994f7002d13c5,
  0x2fbbb9024f8cda03c97e5c0245dc6001fa210e028590e200a7addb016fa72302af7dc5037cef29001302870087f2e60298ff7303e6a64201ec3fa903aa139c0397ee6e03b07da702f26bf5005e6f99002df6ec03c22c2802209c24032ce2ac018861d403fefec2026c9954011f428e028c4ccd00a85153,
  0x3c4c1f010fbee2003d622103da94fb01a5644700432c7b03aa12a802791c7101032f88007d00ba0018f950026191560254fc09021307ad027bdaa9013672f7016622420219f43703a7ee2803d385c5003430fe024948d001605b2401b469c803041f2e0289fea701b9746203dfe1050317a70c03aa2994,
  0x2ef647007e94900025104e034ee09903bda90e03d32e7f013688630041aa3002687a350155215d0014c0a802897ed903ebe8c8000dc2990222933000ca37940297f85e02b460cf00180145007003360026af000010f5d1000efe7f03571d2103846e8803b0da43029bfe4e00e8e95602e7c798007d913b,
  0x14d2f008c180b0308f14c0112f16a02c31d7d01054212029b09d203ef0bab00524df90005a563003c77f301bec45700551ef700b55ebf01cd387f00d55bd201bd744f023270940353113e01fcf0a800284d9e01cd595603057b1f0307909703cc9a4601d0d8ae00bc2cd6012c183101dc552d02754388,
  0x3655ef010aae540036892703ee89bf01bb3bec036fb83b0357c551028297b7020da3f90343491b00365b3800878b7301a4996e016df51801f1d1290294be5403316f4003da14fa013579d1033eef230020016302b7af7801eb9eb703a3577f0097ce230345506d030f456c027fb45b003ba164019f214f,
  0x2e52db00b612440190dea800824da20081a96001e44708024fcdaf00a963c700b555530365bd0a000ad47e03e1629f03a1ce25010473520245ef8200c6b99c01bfac7a03ed986600a8fcd602f9cf08003f53b502fcc61802c753de02ac424902d3c993006681c000a2cd3401a1974c01bef51f034226fc,
  0x2bd475019a7430011ab960021f556c0278671902540916027e080902a8542a0027dbdf007181500005ae2103d57b240295afeb03669a7e018efd57006519b601d1f2010206bee003a7ec23016aefd70002b12d0288449503680195033af9ce031d5ed30362f5fb01ffdbe101b304f0032a55e303b92f8e,
  0x2e4c8700d26df6019537c9000fbdbe01a7d8b700ade28103ef07d9006e09010304538d02700a660035060f0386677e029296d602c86138002da43000b20d680034019103af00d9021124a202eae06c0033a2b3035eeb2902309555010190e9025a9c9c00af4074037bdc5b00344591005323920054607d,
  0x337003001bf0f9009c60eb02517ed6036e83cc02bd0eb703a9b21501eb13590194d71103b5255b000398f3034a1d55029265600082e2b501a16e9400fd3ff002cd524e0391c813033b798b01e03b42003ba4840115b0500084611401c61ace01cce30301ddbd700262316b01a00911027cb0de03bdb9e4,
  0x34fb6900a4382f01b7cd7700952f130017ec2a01574fc70301520700e9863e01873730010ffecc003c4e19034480e9019fe857018f6123030c84b90228ba93025486bd02e00aab008a9dac03e586ef002d6587028f853600b3e990039e7d4b03a35bd100dfd23601ca708a032cb8cc0364a67a03f41b9d,
  0x2a1c62004a9776026d8033009ed96a03c075d003bea881011b7b17003ce4b900cfee2901f345010019a4ce01cd535d0332a4400355cc8d01f7c01902d41ecd01f0030d03854ad2022b626002c2f1fc0007f58c0342fd2c009aa45e0312354303a915ed01c034740265dd6901bb0a19000efb62008086f7,
  0x18755f00a8e2dd018c20e800b06ac903118e030090cf5c02c5c94800b84c3600f4130e015328f900376c9c030346540155f89c00e2d37303bf97a9005dba2a01bc3c290122a825033a6942013a3452001aed8200959b0900964dcf008577a0000782000079493702eb4d76024df6c201cacb0f00c6273b,
  0x3b7b64034a57a403de23af00e176aa038e0600025f4bb9033b462001c699eb003c0c5c016721a100131f3a00329a1701ca893a03782b49009e344600c4d65502b152c9023d3316017c8e6703cd91cb003934ef03ebbca00047712103d328f00380775c031529f503cf250002a7e86d0142a7d800c0f32f,
  0xf487d036f0a9803a351da000cda5a03f4068a00723a40018dd78800da7e37016c1a9f036abee1003d294402fa47130231564a008b2c4602baf45003d30bcd03f15b410115a2ff029e086201b3050700138981005058d601eae78103a774eb00b9a3380326d7080009ead301180ace011d11e402d9b193,
  0x4d756027d16a901e1c68d01787d56013e93630078e803013384cb0259803e02a143b103a0f42a003da6de0152258702e94ad3019fe5200186b9f103ec19c503bfbdcd00f59a3b01d9f5d002ce63180005501b006efcf40079bbfc00af95f700b98828011d2d9901c5ef760056187803f1198a027e0bed,
  0x1684b9015a04b4018d1c78033f964c0116b78f00eaf7e7016c5bb90286be36013224ff0165f6ba0026650601ce189d012659ac038d9bb6027cdba103d3be1a0047d6fb03cff0c401ab7c51030f665c00245e7a007b35e000497ae90364407b01e9957203ba69c000416736021cb48d023a1e0e011cd0f7,
  0x21f1000197c92b01ff0a62023107fb0346aa1801a8ce5100d2214302a4ade200b0ad5d015d36760022bf9a02157520001146ef02daf3be019d517300898887015f5d8e014616ae016608c100c89ab50031534b0216628e0368eca7006a56cb02481fda01af19c60194d0180152d60803f681980359115b,
  0xd0c3e01d623bd001bef6801c271360275ff5e003626bb02dc21fc000ddc0f00fc5efe02f7a49400374b0401b29a7c01e16d40038078f30269300d00b785f70156e2c401ca8cfa01374bf403e103b90003ad9002e20d91000020730070b9a50352b0e60390e28f020613f600861d3602454cc0036378f9,
  0x1cf61f0087e3000227f048022f3807011665e700d7d5f200b50d88010fbab20384e8f0037d108c002b2fbd00060e0b03240b7f01a3ec1802a884810284262d0362d74403e7d42702e155d3034bdc1b0027ddb602fd0a4a03bcd97400e3278c007acfa3031ee98c003686de0377885903b74de8034c988c,
  0xa5fd20069e85902f7de3101770ace039479ca02d5428c0164b434028cedbf0073ede800a6c06d00269311031b601303a81d1300084a8902fbe755036578df03e68f7501144ee10071bdbb0294936f00105db6030a445a02aa9b9301a7cd16001cda4602e4ce1702d5c5c8001356770122b40302bfb167,
  0x16533f01c3f6c50179e55f02a19f3800d341b602307e2303231b7f018a209f0314e93602e9ca680012e44201ebf2b2035326fa0103f61b0165c34602d75c9d0110cdbd003e80ea00b9766d02c093db003b6438024aed70025b243f03fee70500ea86530347a89f0207b1f5012626990031f19903dd361f,
  0x2e6de8025fef5e03c798c3039622f10161a33f022a2422039998b102d9c67800efe75e00e450b20001f14000db58ba036a7b5e01d29cd0010221c702c0d4df030bb7780127b9d9007b9c1600c5a6f70034fecd022c41f80055199f009003e701620ba2020c3ce0008d13fa027c3ff203fae42f03719efa,
  0x2a14f60339cd9a0305f796019ca39f00f34b530017353600d9cad9003e8c7702c3381c02997fee0024097303548a7103c3f6bc014c874701bc276401019e1d02714693022545bf038b7cae033760ca0009dbfa00f295c400eaf0f80269419301d8cbbe019e0c32014bb6e5010671990335e79101b9248e,
  0x1c81ff015614ab01e26e140398a0cb017c9a6c019d5dea01760e53004c78a3006d3f0300041fc90006b5f601eb52010296508b038fd754020e2c4d01bcc88403cb487802142d690027586a034dfc970002083303e1938e016184ec026e004f0347aa3001a7afc7019a22600386c517034be7e902138517,
  0x1c0c59006805640035108b01ef9f9001ab72d00280e67a02312eb6029363ca036c894401e4d695002123c702465b1d0071b1f6029dd7a50362320b021fc4a10089c8b601d837f9016819d20157e10f003c05d700badb880205054401df992b01f21d4b01f9982b0290206a031f71fb01675ef40193f22c,
  0x3f7fdb024cee0d03b2c15d0200789c0041026902c3ac6200e3769f012ac61f0042903a018f4cf3000ae16100450f7701af5c3a0228a9970339266600ee2d3d00280102026eca3201f20b0901ca01b9002cfc16033b0fa501ce7c01001d893a011f9c6e00a8d119010df2a7015a3470003e5c88026ff6ee,
  0x1987503cac029008153420135fe2200a5fc24004c13a603fd0962009000a802d50c7a0316897100113d22018e592a03aa08860067bfa000304914016ae81a02bac19401b32c5800351b6d00f3ca840030883a01bdd43903346c5b002c12a401b7904d00af604801ac3dfc0005d2470281c77e01c0d77f,
  0x3c6d0503be18e201bf6ca4021169ac02498163005c1e89026175b301a037eb025b373602eace3b0034872e014fa2f70382654a03eace0b034af6f0010080220395b9d8026323f00128a6f203545058000116c00130be340363ef51038c5e9b011007ae02ce51000040c21302dc7aff025fada201dce1a9,
  0x3b9dee02af960101117c5801721899009f486202c8f75802473c2203b1833b0095a4c401140b000022f67902c34f1c0117a914009bb8ab019df838008313d7039a71710233d6b502271fa9002bd574002f1856018d0526015ea6eb00cd5ce901306cec0022640601f83b2800e11ff201fe855d02261eca,
  0x187e7200ff2790014627d801217f6f02e1f20602a6707f00c36f2f00bff21a01d8c66e0039fd56000471b3007921240394b981025cd0840023500d00c8225e005e5ac70332686a0070791e02c5c9110002d514021d240501f7ce0a0274a524024525dd005c6fdc02a4a8b100d5cb31001a61f601b517bf,
  0x3c33e101849daa023ad27d02ef847203306cfb02eec26000acc3b5027018c9026c13e403564871000e989603831bbd002436ed0240182b01621b9c0056afe302b0aea00073d2f201ec234001dd1c6000378f0903c2a7a2015e2da902c2329c01841687025b0aa602b2ba2102480c96003aa3f802d0ed15,
  0x39c54d000a931602002bd903df81ca01fb6e0601f185a3002f341a00791307038f28ba00cae82c002010d2003d393d00d1393801af2a2f02928d9900e3ff3f02584c2a005a7231000898b6012fb1840009ce960046be9b00619eeb00bf10900314e13b01f3299101f7dd6a037997f300b7e07801730241,
  0x27e07f0333b8ca002a60570247ed7f0279e48b02e840210250457d022d69ed016fc8af0275953c0020c5c802dedf5903ca92b600af78140157944900fa371f004253a303a6562d03382bca02e67b97003dcec20358084c031dfbef016e2859038d66e50082378b0254a72c00a3fb920154956c0118a898,
  0x18fcf9038fc57901de797400a03fc400f3674e0363ba3f03ff78e3007b6c55008a115f01543c8c003c6edd0084d738016b7d7d026e59c6005fad270231082a00a61847015691e600a830ee00017809000aef6e003e970e03892ba1013658d900d0b67402b058af0008eb4f0351df9502eca10001b228d5,
  0x1af0de0041403b02ae02df00b7e41400c29b6000775c26010d834f0188344802f74672009c4d85003d633b023086ec014b9d4f010c43cd00320e3e03862c050337dc5703091027032cc1c1007ec0e700235a5b01e3e2740221bb7301c7ff2c0168eab1001bc212013c9219012b2c7102d2655a0278c297,
  0x21438e010fbf8100b22cd7032541b501606baa03d8d0cd01bf8da9031196a4008a79010271787600031de8020b81b5015f040103f0a3a60085b576019f61ba032591a801832c3700ee0375006c929e00335472014158e2032668a40148a46f009350f102ed84a400b669ec014e7e2a025e363e01028e64,
  0x35bdf903826cdb0283a86802fa627d030876ae03511cc7028121e90092da2800f9765a00ec3a6c0036eee4028bfd6b00a1555503a4ff3100b65bf90015061d01c7a98d00cfe9540095c86302a4b80f0010fd3002f49f790107294b0361c3f800fe38c801e24b380365e5920376762a02d7862300007486,
  0x32e4610378b23b0103a79c009063000263a93c025908a800f4aa08028ddd6d03d5340402968d8b003b5b8b03f42b62024028da0145a9f502dc3b1d022c054d02e37b59016c23cf016182c40104b08500108ac701f480e4009baf9f0002adf1026199dd00f34160005d62d20133e7a60104aa0400f7c21b,
  0x263452002f69eb025cc40100a1741203b2b7ce02360ffd0114fe5e0259a77c02cec44a03e9bc4f002794e20147bff701f930aa03995a3203461bc9020291b6006d1f9b028ec273000f0c67026c5eab0032e331039cd3c1009923ae013e76c6006e6afb03c5556a003509120143ba36021c820e00573854,
  0x2412ee035b43db0237ccd403ab6d370219a9ac0131bc3a02b3f10d03f213d10155fad601afc07b002d8360002e7526017738840342d6df0369a1b40011add201dc351601e7a63b034e55b203963ef80035b67c00f10c8e01ddaa220169fc0a01a3b0b70068b2e7030cd43e01ffc4cb03aa4a02025d86b8,
  0x1436a6014b46c500abd62201f9388d03611ae70197579001e3f03b00e7c68a015eb5820043c6a90034f50702c6a569020a998b03e60d2f00effcaa03e12b600122cc0002418caf004bb6d900ab6e7200398a0503a96fbc00829274030fdbdb01d01d36029a521400737de201d27dc3025930d603d509c0,
  0x21368503119858009013c10178b7ab0270ae1300ce95ba00a5d95e02f3a66b00ed11c402fbdcc30011b5d300082fa7002417ed00de8dac02cc30ab01ababd700724c9b01392465023ffada0043eb5e002e79db027cea730355d39f029df1d60392496e03d41add0255cfa402153d93015dfa1c00aaa45f,
  0x325f8501881fcf03f5400601b3c776011f904a02df8048026544da00684e8d03db288201a12dcd001c5b3100ff95b9015c1d30013f430502a5e28c0107af63016ac4a2025760a002a51dac020a8c560011bd77030c7cd403dd4df101953fc800f7a7fa00f9db6e0012735503747ae603c0d0ac0234c99c,
  0x2306030239b7340353641c00cfb3fe03b5a52501ecbbeb0036468500dd1c1402edc7e8013f2a290013167e0110934103554e6100e2630301cacfea03a5991d01792308031d4db3006eaf0003d2d8a20002150d03615827034bd312028bd63201052eac0184e8fd031afd0a03df53a001bb830b00ee92f9,
  0xaff3402e6c47c00c1c3710187838403c6641f02c2105e034af2fc034e3c2d001c8b6701e5bb7b003d16470173aba2033cde2c018eb36a02f1df97002ec7f0018b2de602969ffa00d712f103b6f84a0000346303b93bec024cfb2b02025ced000201d202557f9c004ad15203d3b00403d4b96403055338,
  0x16ef4301a3ee5a00b5128f0162e26000bbc4bd00a81aaf020f5c8e01ee2ed200f78ec303f71472000d91000246af7b02ed7aa3012cb3da01e58251023c32e70266bb1800d5ffcd0151e2f80004aa750039c4a903276f5302ecda79023fb8bd034e044d01b63bbf030d8197012ce402017e5c9d022e8a58,
  0x24453a032debfd033401600120dbe300e6d78b0384238b020e04f00291a6fd0022707202ab96fb002d9f7f026c634200dba29f03577811021c72da0003513100e6999a024ebd88010430b303f84076002b41010109e7280101d65503f9e2fc02377dea0224ec980001a824005336ae01de369a013a30cd,
  0x18aa1e00fc178e0345ab930356987900a63fd502f8f39701d4de8601b7158002cb7d010058e7940000df180180750c009c0dfb00d2ae8b03f3f442024b0232028fddd1006dbf1f03d159180210aef50025c88202bf4d39038a0af003f9a3ad00660678028b25820126d4c3039f820d0123df0d03b09fc7,
  0x3ea8e701df6bed0382f9af028e7e7101d4670b009daa8500d693db032800d501f6315f0051c755002e668f02370cfe00135d6b0217aec90351ac6201493e1c0326b8e70222c93001f568cb03dafd2f0035890f02204e380373b9b00108af8f019c37de007418f102be10550107773200a64f4c01b80988,
  0x39de7d00bd030c02c97d1c00767e8902a0099c03a08f7b00facf5803c19b970007c4d80221fef80009d34800ea4a9401fc4ce00063671c032ab9a8015ddf20030e8fdb018651d8038f7563002e1bf40024faf600d363b000c953200156ccb30175be3100cfc13103c27ae200414c390242c45200ce4053,
  0xd7fe025e393b0234fed603d3cde6019157a00059caeb029812b403f97ea801d7d3a302ba6c100038546a015892d10271538c03ab67b50064f17000d4ef520132b999022ab78a018ff47702084d9f0026620b027b471900d1ba3801537386035eaff1039b90b6011c628001c068d402cdb77301d7af29,
  0x3e7f7e00b6e49c00a5c2d701af76a703b19d8b0390d4280126bed302e54bd90343d82a030c85ff002fa2930336cb2c03ea5b0601b8cc10024c52860133e99601a541ae003ddbd1024df5bd01c5f5e1002dc93e019b858800f3f1f900739a6d0320e5dc00f44ef902732b5f02a2ce0a00349ca503690f46,
  0x1fd84f01ecbcd80221949903d5e0f402830dfb037347510071963202342f9e012683720048ba96003ca5d00002a77902821d0c000a04d00086925500ef930d00ee84dd0231ac550278a0c30207004a0014c2ae000ad8e601293c2c034e7d3c0113cb0e01fc691f032dc3a003d1c69000c44f3a004473b5,
  0x20a623037186d9019816e202391c1302d24608011e810803ad865803b514890348882403e786e9002e9dff01a812540245c89d03c8f0ea0329f99f00ba95f6035aac9c03108751000f262e015608e6000568bc005b0a04039d1d6300fecaa1005cd1560264d2940305620303833f6d0013990d037141dc,
  0x3d30ff012a912302d9f740013e235e0294f1ac011f352f00280a0403b8889b033b873e02dd4422000c7aa302b3f6a10183ca00029c4e720126f09800b1bb5a0118d83b03a0b35f039e9ac300b208da0017a87e03056421000cd65301f5bfaa03abcf5c02dce7740120cd170223c163004c3da8000d60a7,
  0x3e02b301a7a78c012dcf420216745d0217405903fda2ac019004ce02aca99a02eff72b0262477f000dad1800d1d8ca039a2d4101613fce033709e4021e93e4038261cb01c48f9a01df7282023701140033e72c02963ba0007725a602bb7b89036328a5026b039801a5b03d013a2f8500b19ee800eac597,
  0x16608803f2cd230007a0340178107e02b5856e0193707b031eb7ab02e20e000104770e02db906b000e4248013f00b802f4cf0200913fef0126e5e10397247d010330700391dd3100f65ea603a5d4bb000ae421011a604d00dde3bf02eb8f2102b515c802503733007418e402c9799e01854a1502336061,
  0x141e4701ba30c900ada8940234fd46025e4b2a00dac3bb0216584b0288d8a7002ca71e019440f6001cfda90180366e01afad94034bb3c803367e990399b81402162e4601e7872d012ef01702c30b7e001b2549027d4fcb02f2b6440126a35500418d3e023597ae009af09001b721d701402a9d03f64003,
  0x1540220077bde5020a982101b7c2ad03aeccc5006f4ba203f589c900288b2d017da1d203b9b3df00363ef90289bd1303ebe6bb032c4dc303b1c082035070fe007a8bc5027e19cd0099caa2009d86f60033eef80268d75003b9e07203e7ed3e00e62bc301ad73d1002fc7bf010ee5b6003f07a500bd2106,
  0xdcc3303a9325101d66ff102b71d7800777c8e0238024f00a40155023e2254019e31660097fcce001c506d00791d020150822c03e8869401454b0202d29ca20054554900451873019403d0034e113b0011787d0273067202e5478c035a48150393f47b02c406ee0343c2e702eb26b501109367003f80e0,
  0xf427f0302994202a9bb5900b8b8ba01685f3c02fe0c8803813952011cd86501b31afe00e84a310036ea6b02653e7f018c43660312fcc803f811f70152d92800526a4301f4adff0037a46103111679000721b101f71b7c03a18ab7038fd09a0332bdda021e5d6500492d5e03848f7a01b30e7d031a9938,
  0xd90b601ff83b20041968a03ae7c56013dc20e03747b230202cbbe034912b7038f762b036f945f00213db601f8d8cb03a503b80079d788007fd0b500e346ac0094815d021c99cc03b8458f0144b409000e403603ec7cd403be4fcb01000877005ea5310042d28f02d4e2a7007ab2de0366414e01d95262,
  0x32f1dd012a927d01258a2701c7249602647ad9020eaf8c0103dcba00a7e1bb02351787009646d4000850250357d50b03806569034a9d85028e71fb024e264c024123c40390c6df02c68feb035dc86000055fd100f03de702b4374d017e254c030bd8fe03a23b35008cb81b00fbf083023a4ee5028005ee,
  0x152c5e00b0c9f001a959cb02434e85021ffbac035c5598017087480103b5b600b92ae40024900e000f077703f999850065518b02e4d56f03237d5d00f41eb10143d20501004f80003b935b0358830d0018e31701c8892902945ae802ffc475015f91ba020b3b6a0140319001adac5700057f430076e0e9,
  0x249cd3024486cb00c6286c01564a6f02aeb354037a656302b1aac5006bfb6202b28f9302d7eb68001811b103f9cb0f02ea51f5013a997303b378f8018538b40185bcfa002832a6015199ba00f4a8ca001ab6d7008f03cc0028c52103edd3e003aa4c89006a4e7f02f6ec44000174850113207403c8c89c,
  0x304b5e00ac621101ee791502eb2f8e03dcf7300282b60403e4634e017bd0bd038bd0a103157956001a3ef2006eab7e02f30e72008d08250157117200add1190006689a0082dc32012cdec903a9efa50014030f000f871f0331df2101c6142203dc3d83036a62de00f1edbc0323452703fdaf03015e78a8,
  0x26b0680004d9aa039eec18012ce65701f17c0902c3eae00255d89700d0f7b30300591103a55e29001aed2202970a6802b48259034eb40e0100e49c03ae547f000a6bc003db183f03d3340402f1848200253b6002ecfefb023fe2d9008170460222ceb50152586a0218ef9701ebdcef004a29eb005da23b,
  0x23569c00837f2c009ce65a00f68c6803a610b90153db1d03ecdb7002d2d848035adea70014988a001fe0c303303b20037168470271f21c017f020300f01f980353c8480089ff9601a444de01bf213400392763013b08ac02333671012d262f00b8da610180e7ad0069c154029632c200df150c0332cdc5,
  0x15940603edd96802cde82802a87c8b02ccc636009f8fe4000bddee0150430a012224270379d001001b62020284c6a802bce93602ab4017015cd04d01aadb9f00ae5f1900eec24801f0059703ae9ad000082ab1002f841d00021326034c3b0d0044c76703fb52c00380065202d1c32003e19950034d3f9c,
  0x570f503a07c450228e18901dcfce201b1d415033dbd3f02c00871001879840055dcb102cd3480000a61b003c94c70009a9b28010ee8300232208503bb3f06018eb67c0376f6e3023081bc00d55b2f000de8af004870db0371adb9000ec72700682f960008278c0281d377010915630314fdb801f62728,
  0x5276e013f961602d0b249013be3cd00ac70ca0105532003af472b004a31f3022cbc4701d8b400001d3a3401e63ef90056f37c026e642401757adb037af7fc00182d8e02b940dc00c11c1902e96848000e79dd0000ddfd00fd58ba00a7e23200e05a3503b35449013da263012ffdb3015d49540305155b,
  0x399a1501be6252009bb8df031ffd5002c09b5503d9870301c1bb0c03ecba8301bd7659016796240012fe4300ff7a7000f1804d02cd86ac00007c520104be2100be1fe80383642803b3e7170306c86f001327ef00e1d95f02c29c6601a7814b0296872603c79dde03ca8ee8016f50250365f9e003771098,
  0x3fb9e6011ed8730169d25c01a01b780035d33c0265ec72017de20c00330b77007ca4b9018c83c8001543d401f6368e03578e9501b890950125071800d81d9a0391aaa803a008e800e4a26103f4f534002d71ce020de70400c2ea5e036642280194cfe3004e668c02fbdbdc016d5e80019467d601ec4f06,
  0x9ea73030bc3b1021480fb005a37ab00c9a42c004857a7032b3cf4013c68e500fef0b3020afb5c0033003d00904702026ffab9005cee780350444c03adadd802e3a853012992010389c1da0246d3d8002d5b20030d432c035e2f3c004b3a25034403a30071162802c5f02d00aa5f580219c52b011daafa,
  0x276c68029d63fe02813d6101d9101b0207f65403b0714d020eb6d9013edcfd012852c802d5f6c2003aba1b0186e2c403af1403035a807a0378cfa802b4abdb03010dee00da746201a4aa6a015893bb002d501101bd9623004ed7e20146bee401f8e1470249a78800fac99d011abd4c001b2d6f01ba66e5,
  0x3f3db8008985cf01780c9c00725d27018e9e4102c43b0a02d291c500ec171203db7d750031b696003f6345017e8f67034b1838011bd89a003ac26502e13a2e00d20c24022b023002e91083010b6f26001efe43025e26e400d490b703dd620100491e2700f6c070001d42e7023ab6e300fc19de0258c645,
  0x16b4890038c54f010cc03d0089ddf902b44cda02e54b7e02ad95db01eed52f03a524f9006331600005cb0f02dfb26402ea56e301587288003fdf0503e1bffe01eef15f01ed84e20053bbd7014f51b5003ffa8c0113ae8503d2f0a3024483d3034724c303596fea021e172700a3247b0313cd4503109d20,
  0x34a8f800ec949d031e2b0a030d991503716d580300d298037ec407033a67b50265cc14004175490004232503c208430126632102c1ab14031d5e4903851cfe015e157e001c88ed00ae4d9f02e04acd002e830301878abd01265ffc0081babb02a8793f011874e7023e34720363bd800148ec780247e4a3,
  0x3aadd8022061b0020cfa47011b75590232d366038d43a903d15ac0021727f100bfdac303a83f24002f697500c7dfb500947dd502b534f30343510701ef688500bb102a03232d4402c6dda4022c7ef7000c689901024c70024d872102ced31200ba7a4100cd6789002cae1500c10e4d0366e9ed01ee5ce7,
  0x3adf050272136b001fc4f4036fc7bc03e89d9b0228cc8f01dfc5c1023572cf0154ea9f0269d503000c9eb6002f54a302fe7562036d5f9e03eab71202f55dbd004b66d002a1ca6d000693c302a17a6500030d0500bb281a00a300620220873400479b0403d1ada502235743034fabe8002941cf03669410,
  0x1c3d880243320202b0b36e03e3e7c003de7c47034968e70043c8f500312c7b0147e9f60220533c000a9804013ad7fc023871420052853000f3b17d010168e901aa49b303aea728022d6455006a97a00020ef9d01658b4a024f0cad00afab9f01989c90010e07fa01d94bfa00af02e00304619701b1cd68,
  0x2b32d401e076e401d712330363bfd401b1683b03a41165027af8ee00ba6cfe01ba2789018b990e00229c0402ac75a10343a61f011d467d0311ac04001aac900356013701265cdc00fb0dfa0360f890002aaf0402fa4a98011f59ea0386163202f9fe9302e670a2020c813702da5a770166fc1403451726,
  0x2a2792005a0cd0006746d00187432a00efc432009b2ecb03d8d30602b82bc100a067c401179c480032298a03557f7f0161ff3c022fa57603bbc4a900a0137503c4f17a00565344020d1c01033e7ebf002154c0017d3b4000fa5435035af0f7009723a900d8bcde01ceba470241fada027ee53c0350c6b0,
  0x2308600084a6f20106a9d200bf67b30334b53a01839d11031314f9028285aa01c909530295dc2e0001de9a0022293403a84dff03a412b70354b25903b91ec4019c057e035b2ee9024a8e9f02cecd14001fb4af0088c5c303f7c2490157c3d50192650f03b28200001a047300ee279e00d4906a03892501,
  0xdd2c20289c4f8029caa53037e507103601dfe0272c06503bc30ff02066c0e03af8aee00d3270a000a6fbe032b44a501113e5903c3a61c00daf0b100b4c3c401bd33cc0074893d01cb1e750258143b000ec1020022972f0201eb290309f0e1036da4cc019a3a5402992cde0314831a01f0b3fc003a6b45,
  0x21fcc6004e956101d58b3b03309ab503883449026ea5db030668f502d2b7de021715ca002da871002aec6c024cdf3c01dc0225029b3acf03727f830103641e03405fa603853b2d01527a41002ec189002178fd019281e100a7152b0087a2e003e77a7200ff5f5203842d260190395e009164f90004413f,
  0x1a15800047cc90012e8ca0005a28ce012b689002153d5303d28eda0188c18e00ad6de6007d1259000824e4014eb574039f458501758cae02c3ef7803adb041036330b60005a253031a87a700c4fa220022ef2d02d532eb023713080364472100f1a2800291812c00a8694101aa72530123f2170327fc4b,
  0x3620f800a99bb50090a0dd03bf769000c12e4803d5c5b4020c6474008e67e30224527101ce53d60014a16d0087e667023a81ef03e71fc403b5e3a7037b8c0902077f7802b9ff8301c9ea2d0364bfd80022a781034ca2e5011b015a00e4e3f400bee24900c89efb0399d43e03b84a660382e74e0101ee12,
  0xdf7000d2147f01cd69ba0390b392025bbd5100310caa02bdc92800ba55dd03affa5501f086800020776e028af72f02cd71e40192f67d00faed72032cdce40189962e02c160500012268701c5e268003210f802bd875202d64e51015711d502c1cfae01dcf6af029b8e3c00b23492039e70b6001c6e32,
  0x112bee0096cd1b0004bb630161b0fa019e6d4d000b1595012d9c52017e40610348f8b5032831cd001851c90213981103158d220345c0f10210458f037c757c01836d6702e690dd00a12f2e0252271d002d0068036f36d902a8a92d0064a7b100a3aa4602b2bca20097855e01c93c2e0020b3a9034fdb98,
  0x15786402610d8401019996016294af00ce34be010de4ed00bfa6a3000e1e90023dff340343f415002eee400198d3a9030c9b2c0228c34102edd77b03a1e9650264ee99015addca01f0d1f100468b05000e79a1023ac80303c15826002af1e0019908f4010192940181db85005a3a8a03890d5900576070,
  0x22138011e1e7103d1ec7900a4b62d030ec4ae020ed56a020445850173d50d038619da035825d900102618026df3cf02746b8a0075862801ff97b600727555007fd23901943e480367cdec01d71e1f0016a76602af69060104dca10326d1e203c63a8d006ffb7a0189fabd034efc5a0352dd8c014f272c,
  0x22d85f022d65d10113ad6003c8d87a03c5372201a51fe1029ed411027bccc2021e9b8603751a1500233d0903ed2c1303482efc02d6f1c70069d5b702b8b5dc027bc8ed0065fae101dd8065019fe63500014d8503d31dfb015bfda7020ea64600dc2a5e00bbfaf6038d241800a21d43032237ea03a37035,
  0x2d6d36007ad74700d4f3fb01caadcc02daaab201d6107102fdcff600c7dc2a035606e701f5d98f000912480180d8d6039601e802f0a65302c9d1d40277d9a00099473100c52b030095cb70003ff3e10015122903f390c8000f7adf00563aaf0216dc4b03f7021303a1840500838b23009d10ee02177256,
  0x3425940096188a00b1b0370326cdda018c11b403b8b11002a389c202d859fa02fc068a01d50b930030302301fec6b801f8b8e60384553501910695037f49ec015bea160370649e01e79fa901c673d4002236f8007206c802590519020b2e2301ff9ff700d5bb520170da1202e0348300e94d84018e4d83,
  0x1a810033c3a0803ed0e9b032b20f800f5d8440129966a0164a7030018572b019ccc3a0303e6a400210e7102158db903cc21e1006cc07c0217473800a64f4e03fb3c1f01b1308801c026b20058cc9b0022d66202d9b3770303b26b0297ea880114f1b1002dc25401e474c103c28573022a82320197a8fe,
  0x1a8fec0227bc820328f09900633b2e027f940200c21cde00c8a178024e4d5101df3ccc000dcf470030047a01185831028441db0312e7310082830001c9d1620292ee8902039f3c03eebda401848bf6003c3a9002258b2301ee477d01718f44014e23f00288c1bb0278ace7007994aa03348b94010d36cd,
  0x3f5fb20109dd8e03e060bc0313694b0128653a01b7222001a82fcf00dd518800113a4603c60a27002c19e40181f8a200cafb8f0387fac9017c50cb0281eb82022fa94202516e3a02602c1d01a417c1003804b403051c24029aa716019e0e580367713d005fc33e02a87b4a033a11e201013d51004cf72f,
  0x17f08f019a40f7008e27d402033d3f011f52470182beda034c14a20302ff9f00e8a4d0007074eb003a8da201c9a86300cba3a20344506401f2713c01b2ab5501898eb103208a0e02055aba029bacb9001fe93e02a5b83a02aa7d630339a5bb011f368f0169a5ba03c47a550237f34b03e868780125aca2,
  0x227e1c0185c9e401303c6a00d79e9f002e69160251b4fb03d1167101c7f6f100073a21036e89cd00066f2900dcb27c00879730035022d500f9c9670389a2b403dbdc290382edce030c7bd7023ddbf8001c451c0312f69d0064270d03ee3e1100062e5001263d0902d7d5740275e34800502eee00efbf52,
  0x3af2660309062b0185fcae01bdf59202a6e77a016215bc02aed7c703f19248035d302f01133f5d000fb8ae014d1306021b6777023d92d101afe1c402582892016d033b016da6ec0196e4e102dfe671000066bf016e1800001cb0630290f2df00d2ca2402c3a36a03dafa6902eb8f6e03cb843d00c89869,
  0x12e188026132d6026c21190151e38500b3ff960229653403b8aa56004b09ef02fc6c4703a4e51a003a5d54002111ae015524980332699103ed3f9c015b4108019c2373011d3e560151dc4e01e1a575002caada01ae46c3036edcad02fe917b03a5841601ba5ba6001ad293027d300801beb487002cc608,
  0x109556025814880164aeeb00f16a95034f25b90032a2c6004c5d61022687af033158d002cdbd28000aba5c03bd33ac00455dd50175679903103206001fdd6b031438270199a01902137fd802ca69eb0036b33000ef61ad0323f3df02f744ae031604d5003b373200dfd1e702c75ab701b359a20139339f,
  0x3caeef01770f4c00cf9ca8008099ad01d8b9220122567a00609be301aa228303b38edb015ca85a0014735e005d3f56001c0f0702809a8b00e7793201f3a5b800a562df02b8df1f01e83f0701502a63001c9eb10340aba202fc8d050174dc5801d044d501c4874e00429fba0261aa33023c6b4f03b43e4f,
  0x2ccddf03a4a71302b8b7db0298e5c8039c0d1e016d9a810114d45b0103fef5028e170400fd787f0009fafe00b7a599013341df00dc589502eaf7e002ff3d390331c24d00cca49e00448a6d017aac210029d1a70041bcb803973bd703621a2f02169dc3020cd80f0356d097001f4d9a022c655a010b3962,
  0x13712a018cb8ea01ffa2e600f93cf80381d00d01cf99e103ef8fee01ad3d3503b22aa90336fe21000c5d7201b5e55003def5ce004b3d3603526fb201cdeb8f026b637102c8f80802212745034a4e5900310058032432ec000deb4301c58033034fb0cc00d83170036bb10c02504a8f03bbad0801790a17,
  0xf306c008a39540355d7d8004ae7ea025302d903da22180394cb2302a01e610346aa57010febba0005290a01a4cf5801adff3d01eb6f3f0273cc1f0067cbe002e8f43403c74b140191bfa2014e531b002330c500f3dd49034cece101dbdbf3015edaab02020333016dab95018a704b0227c45500ac1565,
  0x2cf6bb0131543100fef418004fa977003fcf2302dc63fc006f8f1502728f9303245db101c030f00030951b0069b5c001b2e43300f59d50024094480076f9e7015377c001cb4a8002c226b0029f22ef000b773100aafcb501d8bb970091b46403dbbfd5032ef8f802f83836001c846201a673e302f8e7c7,
  0x5f0f7034af5ba017a07a301f4e3c80152fe51008b43b503dc1326014938fc01b0176b03882629000fa2b0016872c500a3ad16032c0a560215675c013dd76b02547dc302c5db8e0212d65001bbd7420020337c01cfb41f01baf8a2035e47ec0156e31401705eb502aa6d5502ab46f40365a7e201d6ba70,
  0x2abfaf01eb3bc200c3061100af52770202aee600c8e63802e5239d020db2df000667fd01cf34ec001ca56100a5233402892a20006979450056222103e7a32801d89b4602f2712f0371857c002da41f00394b64019440e601a3e4110392ade2003c9a5a01aee579000ace690250563c0058bc6903529506,
  0x20a38300eccaa202e0e75900850f27024f661c027c94b300aaaf4601e6e35b034f2fcc02cd4d73002c4c84009ba40200be874d021385780176e45b0220fd26025dc58203881ba0018fd03301b9166d0021f16900f01abf03fa25f702151be300b9d1e0026fc9ee0040ab8003b3e76d0249786600c9abc6,
  0x15811a0178bd9300d5ebee02a0bea000f4376900e433c60181be6101a2d990005199af00fbb2df002b6bea02d8d92b03bb380502b47c71026845c800bd24430386eb3002efe354002bb74c0149f7ec00075e6500dcf90d01e2d3d503e523df00786f7d0219e9db034aa6fc004ee9b5023a3c270159afc4,
  0xbb702a80b64005ef50402d09782008e2609022720fa010d028700d0e87f0250449601490694001f822302f861700276ebb802b61f4b038fbac302f0f73f0070931400a89e8b03b0a04f02e8e0bf001d6955023bddd903e9c9ee0124f1ae02bc49a4004fc15f025f016e02145b71039218db013caee6,
  0x1a986002f08ea103124b9e022c125c0122a5bd010c2a3e01506eae02f7056101203a42017a8bd900022faa0088698c0372f2e4002ecd5603250be6022554f50122fe6000d8103f036fcbcb03577b2f0015e47a019a52e10350547700a2a64d012c5adf0021bfe202d73e0f0193644c023dc1ef00fa3306,
  0x15178b01432f8b037386400369190001a8ab1803f5c1e202dcb2ac005517780145f24c01c373f8002cca210236ddea024d853d0272bde3029ec9c40257892b012a50da022828ad030ea30f0299f2420013ecb401df32000338745903c4791801702d93039d57fc0238a350038df350006d2a5f024da1c1,
  0x153847004ed09803da066303b46ae1011043db03877aea015eae89013cad2f0019ae9903b9dcd500119684030d6b1003b2610b037be66503fcd79002bc1e4c00815a0d03f1cdb30264960501b8d9d6002d8cdd0362119c02880f1b00e5618301c1483301a031fe03fe656001e06aef0028307701717779,
  0xa00a6007518ec02156821005429040232d47101fa40f402e3ed6901504e2b00bd610903be97400000fc9802061ed402009a78025dcf2903178bdb014f0f4a00e624390371fc5603d3c01b008fe6ff002f5acd027d705c03f4c5330268bb87005b44e8034c3f0c02781cd30318930102f22e1c01126859,
  0x28dc3203ecfd1a02bd263e01d8775b01529ba703ac872b004b2fa303b022be013aa11b02628dfc0004ece300a1b4b10356e1c90190ed0500282ae90113369c03d8357a034beb2d0013c94101751587000c2f8901ca5ade00a297c001a5f64d03acf5560073dfa403949cf500700b1d03eac3d70023c537,
  0x171fca02335a8d02a05346035653fe01deeaef02b9809e03bab2a60039976000da50e302f8a97b001e8cca032aa307020608e400f4b0e4019c45e20267d1fa01c6a9390118c36301e7c562022aa159002198320282fdcf024e761b000ab0a602cd3fe902c1cc9f027242bf0392b7780145d06c014969e0,
  0x10a96f00a22c3603c71584006e6dcb01bfab61015100e902d52d1a02bf217a01221c0101fb1e09001e8d8c0100dd4a0207877f03127cd80376c30103abb5a402dd51e200374c220124c9e700915906001ec28e00c2d41802674735028b6cc8007bbf7902128ee8031269d2003d79f502407c880200c530,
  0x3413b20185672c019e79f0007301a8026e4022011092d10284d2fd03c306af020618c5017529e0003e242c00db96dd03e82f5d032c45d00076f0ad02e8c42b00b68eed02e8f9f603a7508e0305cdfd0036f9e60375adba02c7036403aab5580344d3c7004ce3ae01d9dacc00c7d8030093250d03546b7e,
  0x2f6fd01bf23cb00b49538014ff648020c17d900bbe0880142c0d8010732c3034ee99b02b17e8c003da7ae03bd96fe02d4dba6001f413a0234fc8e00fe9a700340f11b02f71cd3029775b5039fc9e6000dc28c000fadbf015a379901dfe11302c1ebec026cdce7031aded40026f2ea0153935a030b2e9a,
  0x278ac9002085d7024293fb03f7c5c801fbca9c00ef08c401cfc3f20037590d02d4705102dae902001c2fc101460d7b031754e700fabc56031c584200301aa901543e3101ead97d03a23784010e87be000a9c8700bed17e018ed592028e7fa300ec74c0018641d90283faab02a26a38018d9c9903a2505e,
  0x138c4501dd7c39022cb6b902148ed5034a44d0003116da022c97bc02730d920186e5d903adb9c1000dc1b801da319101a5c379010331eb01d4c670019608bc037b133d024017ce0266265e00bc0dd0000de6a9038d0a850291ba5900858fc7024168da004b3b57034d3a73016609fe0290700502a888b9,
  0x2d4354010969ee01c098d902e89a6d00f3d69503a8b5d603b1052402eac91b038645d100363fbb0034ddc200604c050003067a019b31d200f9b0ab03d7c725004ed7c003c3c40b002c2aa80025b0d1002e0cb5008f727c00c31b8303d8f30d01ab662b00e9147e031e1c2f032556f803a2f6ef02ce9cf3,
  0x1bca550121224a0007261803e6665202c3794d012ce540036857c9009cff7303c31cad020c0e05001f503b0338cce802089c240310f46801962feb0164a01803ea93d50072a38502fd15b103aa5eaf00231e75008c46f601ac39af0208f1a5003f8b11030f2a3803a1702303adf9fc015812c501d3e3ea,
  0x2dd2c101ddd137038e79f800f7907700c1247202973736006db384034a639f0242dee9013a2769003b1e2e012e290803ae30d7014edc4201b95dfc005f272201c0566a01431dba0022124100385b640032c758015a919f02da9d05007ae2c60162873d03ed50500223d1630297081302679c6403f3a733,
  0xe70f7005b4057014759af03514ed30149f0300201da82036a89a103e818280211642c019e0f880027ff7d025a08990315648a01db606000e2f23702bf7053018bd03f007f33b102e1cd5e03d898030026c1a3015f5a7d01dff11803b87af601604d0d02697d0502d6a4a102c99d06030f929c03815ccf,
  0x121c0403246a570345129c007a28d2025b0c6400d2effb017004dd02c244bf00c4c22c02388499000037d400379c3601f4ed510268885c004bbf07005a998603c1156200c3e6e202bc83b203e75562002d75e901b0f09402cf1d0a01bbb08502785c9702814ce700baf85602963a3f01fe29790329145b,
  0x1f6d4c0362b0f003fffaae02e2e73901b5e269020e45750393f6e10188691a02ee97cd014fa0a1001bb88002acaef000211008005880f500fcad6e01ab32fc00f1335000b2922003d416ab028d8e350024d18b0304c2b00023671202dfb69402f118400338886b0018b9900247b2ff02110cc603060173,
  0x1b173303036d8301ba46f60338d53303b7bbf003c7dec802cb0c50006aa6600014b07802cab7230026522b013f401e029561bc031ca06b0035b67502df8a7b02a84dca03b8be2600bb012a015009610020852803db7f0a0113f90400ed6b410248d9c60347b0f703d224a901e2fb8b01fce9b101e36f76,
  0x150956007890b300cea1b1030cf4060296b83b024c89b5002fba3b01422bd4008ddd65030a9e8a001990d900c145e801085f5101aad1c503d1eeda034ecc2b038ec5cc005183f7032680950337b681002e84a50145430001e2df63039d6a3302f532dd024a6287015de651003e4c6f02d7992b00ca466b,
  0x77a2301f540cd0257089500a8e3ae005ced7203fdc6690316f5df03e65d0103e14c7503e7f1e0002989e301f530e1005010b0007dceb40007d2d903d928da00fc7aad0112a77600dfce6d00301729001aadce0179478e03bfa1be02fbaa3703971a8a02a3cc840017d0170091fef9023df07c0293c816,
  0x6b80402db479101bd6dca03027fde014ca3e20162b97a01f2e07a00c8d03400b771cc011c24e6000871b40201b95f023e227c0387254103ff5af702824eaa03da130100815fdc01b74033024a7261000a7cff013f595b03f17959008ee47103f46e4c02d6485100e7a87c00c27226019ee0850362ffd2,
  0x17b034cdde80242fcda026a907d001146b703b644430003324500e20c060308172b03dcd8fe000471740220ff92001525ea023732cd028cb14b03794fd503f6ceaf000ff446029b7ede0186e4e7003f844901c43b0a03d5902c0213f4b002419beb01eaf33600e6a77e0136690400c8915f003d97d8]

/-- secp256k1.go:10, serialized bytes 921600 to 952319. -/
def tableRow30 : List Nat := [
  0x0,
  0x132a6a0178bfeb0374ab2a003c5d3903947280031575de00124ebc00a046ef033c1f810042457800123d23014af6ff00a0d658035a1c7701a91e0c02d8fbc1010ceea4004ed4d20328c1ad03bfd032002af7ef01e3fdfe012117a0014f8949035476a400b37a2502627203024399cf018927fa02ed4ef2,
  0x21805c01f28a8a00b3cf2202fba1da039e09da032617e7039382d3037ce4c603fd7b86016ef57500020ab70239d49c0176026e01ef411102813b42030672b10005b829010e4a61007724b801d68c2a00354743027644bd008ea1ed02cdfd7a03163f6b0111a1b4005c26240050020c00ca510303ce465e,
  0x12fb6d01e133340026f197035855c30273ebbc0196c05602fc58a4019aa5fe00a62d5a03c401990037e7e70074deea026652500267308b00bda8d6025c7b150083cf9b0364397100ef3ee403b1dfc80020167b02305b7301332ba90394ae8b00b4e7b703d122e0016fc9ec0044223c020cb4800089904b,
  0x225340008171e7008fbf17007dc26e00c20f3e035ac821038aa4a9026c8c7e015c6a2403cb6dbe0037500a022620710272fec10093bf7d03c8ff110187a35d00c1d0be034cad8402f40113026348d9002980e200d27a9003a1f0260021e74b0353f97803d30e6e01f1330000d97b0f02875e4302902699,
  0x1fda400093236e013ba0bc036daba9019f75e901800fe700f4115f00b054b600a2108901070b7700300ce20216dba9009acd1b0181af3101b35f5903cc545e01513670037c8b7102c201aa00038099002c2ab601e55e0c0033211e018ace3e008c108c023f84050062a02402b26bb7025f76080327edea,
  0x39e6f2015d890902c468ef03dbebae00d65b1402022dd40091b3f5029b6f52023e0ca2031395a10036987b02699efd004f31cd001ab9ba0026d676020554ec024817da00fdfb21038038db020b0122002f64dd01fecb070320bc9203b429ce03c6597a0345089a0041c0bb03cab5de020b726d00bbf56c,
  0x934d501346ccb008866eb02867b0e016163df03ad55b1021e6b5f01de7cdc01ddd42702248afb000e1e8200efe42002307dc500350a94023a69c3002f8b65000b2b0200e06d4e00689884019942b100234bb802156190009bdb0703c6ae93032c92c2023a4c3a0112372f021c26070252c77103f1ec40,
  0x2c14a700ecbd400393dd32024d3f6000a1479a0277b11600e5384403005b58017e2f590157ab9e003f04e10127bc5601652204027497de02e8492f022690c000ced02801f997b103bfed9f03b262c9003711fb01dc405d02cc40970162e0f6026124f501da58c303bdf7c0004872e003f3381d03c21db3,
  0x3767ae00bdd1c200cff3e60314a690007380c4033d77630365f7490104f84902f2872f02adc31e0019177101cbf849024b472b01b0c07c00ba8e7702a788c002c4d06103eff155020e11e0014dc4db000958540308182603f80dab0008a184012d7588034d33d1035d9d8803eb1e9b02914c72009a549a,
  0x3a1f5b017d425c008875f30397f2f801a45da000dc01ac021557a50270dcb3033db3d802dd6d6900014d39006e74ec034d943d00d957400268d9c60293b1760334bfbf00d8a9de035f8b47018671a0001fc91e000e246803f502ac009f5be102df789e01ef59bb024efb0f01da96fa01f20c190013222c,
  0x13ae0a01f1f54702046ac502fdfc1b03cf755301210de8029a199302cbd32501e2f2f100d196fd003c6285022f7b4d010929b403aed9f301c9c3b701e787470109f2f80351196b0102a63300e3ca7e00043afe035bc41b01457eda03223c8602ce83430000f332007a96c7026cfcef03d13e2200488415,
  0x18d9a903bcabee022d753f03daf6c90243ad100033cffd015ba4b10204bd430284ae410222b0c9001d1d120172455e033164700057dad802a31de40086d606030b2ac2039062d4022afce8024b3a7d003b30230148eaef0105d37800fbe1620111d42d014f71e7005f9b31025360dc02402e9b03483f12,
  0x37256e03f47eac01b8400c015fa3fb0231cbeb00c3360b010bb3a6034fdfc001d1daf700e988f3002d9a54012c109701eab2fd012b1e8f0028d2d0032e805b01ff8cc6019d98fa00fb65ec01d910f40026115902e8e25d03a7d3b102ff92e40387f1cb03e2017d039e146802f7d7d60029992f007764b5,
  0x20021a01cbb55c03edd1470380683503764ba700951e0003c590640357f43c029eb5c3019e3c1f0021c7b600ab3ae601de6c4601aa42be00868c5d01571f440138340300b774990118942301b5ca7400378830026b234801d5b8da03c2c9f500eeb23702f90f130157043100f5527103474d31031409df,
  0x3fdd2402f763d4039e5ddf032bfbeb022397ec02e07870013dacf401fad26b0275c9ba01cf9e8100217ca502dc4fbf025a15800327317c0052d17103ca4738012ff075023970b20284df8001104939001b1fbd00d3a73d0220ad660259a17900176c2902b4ede70306d4d3001cb2ec0115955b010b067f,
  0x30def6001257270389ea0d02ac2cc30339feb303ac508901f967f602a0dced03f4d6c2005623ce0015448403fb8ad800435c8d015da3dd01532e2c01ac09a70205d7c20301de7a0193d2870045f994002e3fa70236c725030502f801c8ba9c033529a100cc2b20008ac4440250ed7602b5b76400a15cd5,
  0x3f284a03a4416201a82f8e00609fe70140ce1502bc85ae01131b66020793c903f83470035ad7530006fac0036f6d280087454903fb755c01de4ada0382be7a027975b603d1762c00ab9d1703498d040028821402174f9d01ff3eed03113f090340d6a202e1fc7d0352b9bb03dddbc00249f8cb03e4f022,
  0x2d577700af15da03ae9c360092fee1031f522a0165da3f015d9b6d0297925803f8f93a00236fce001d4e4f00cd52f50201cf000361ff6602b7135c0222009b036d49cd013d3e9c00f74dd300147b86000b547603b55b9b01284344012879ae01049a8c0358b40501dab9ea0174f78b00294ab5038e2c93,
  0x45a38026149150069462d00a470b2024050660300818d02fba146036ff4fe032b856000d17b1b0039964b025cf1cb018b037b013dcde8021ae136004a7cc700d21163000aa653020527d1007116b80006f8bd004acf760280508e0023646800448472023526fb022ac4db00f71ec303cf26e7037db09d,
  0xbcfc20047e36c03e070db015aab8f015e9feb0224aa6c022b33260079d9110324e4ba000dfb37002f6d6601e7f66f01f34f8401bbb2ca0168781901307a1b0057dd1d03655f7700f67e83025f8368003a18470142990c008299fa00312f7f0173105d0346a3320341119b03d01c0403a88613024d32b3,
  0x2dfcd0100d26100b6d9f9000e8fc902d186d900a57ab90396637101aa5454028d862101e6377c0014ee50026059b90169d447009c26a801707d37020d12e403eed86e0336f53f00e442fd0035a100000ac8780346c58700b593e400d3d543036266f801add7c501ae4fe403b02aa1031b9824009b4204,
  0x3e532601a46fea02b5a01a02deb5ec0295ef4302cd0e8b0184404901b47e87006cb9c8032293fb00307fba02128f9d01bb7148009bdb2c00d20b820149c0e903570c080011c4d3036ddf0a0283c4dd00175b1702537f90022ee00b021b8cba01f2ba960357b4e4007cbff80313cdfa00d4d11c011f494d,
  0x1963c5024cc4e101ae762b02e7b267035ff40703b3ebe000b91d500029b7bc01997d960309cabe00382a9700f66aef033239520184d3b603d85114015afc950004d5240228c91e00c4250c0372ff1600103c2500a0b203021dc5160395ce11018cfaf303ca0ad0039fe46c00f4a38401b25c2003af97c4,
  0x909f1023054ff02c7133f03948fb80102dd1d0047ad8302dbd4e103759ea302b9353a00f838c10036832c02fa449b03d9866b02e343d102e835c4039b77e002a715030262ab3703429cfb02dd7eb7003005a8030cfdaa012f5099001fb78000f4c581018807420017e96b03d7c7ac0386582402eabd1f,
  0x26e5da03fb5374026ec01700008f0b03f73f74026bf95701866d4201aa6fa5031ddd12022819b800296362013c11f9030bc7fd02c3b21502927b9f023bf56c03dabdbf01279166006a2f02015e392d0019ca5b0101fdab024b2c48015cdd320224b37102f820f3037e94fc0016309d036547b601d48c09,
  0x16964703f48f5202c8665302b4ede800de6c7802c174d4024a27db0351813601f04d950103dc4c000ae92703615e1d002c4f8a01b9881d018be11a00221356011043250253c7ae028df0580155dde2000ad2630073d3fd01d6b0f000289fb501348cb80188920201f8a81902e8745b023b696203717383,
  0x2bd424016a71cb0208162100875db103f798ee005a44e603a50d84038fc3ea0297baa700ac5e3e00285319039840940158863503b29805026338a701f25ff402e4043800aedb000238847f035788920007bcde034e9ac4034846480037b8a7008aea0302f799ab03847e0c0258bca4019d832702a96cac,
  0x18f3f00310ce2603d1578d0335d6ac00b12fa102572dae00a9001e00930a8201b2ddc90103822e003ea685014e9aae01473729017f2b0100d60b7d005353fd0209fa9401119b3b0102a50203b14b9f00099de502c6d7e403f0dde60160593801f458b4016e67da013b7fc0003cfc3903a68ac201834ac2,
  0x28bed2024d7481032dc1390056fe4200a1e5a402ab645d01ba1b7b028ae119028b90fc01042cd30021f983033f770c02bc34d303c3f528024cd8ed00d70e520370bb5d0343bd5e03d2fed302dd6fc50030f3930384d69e03bd5f7503e5ed1403101b4401d70307005eb88b03da141b001da19a0219e336,
  0x15368f00736a3401f4b16f0192d7a101e471f5004341e0018f4560004635c300f89eee02c6627d0017e8d10231b48f00ba701302f9f4730326cd100167094301848fed01979ac4002c1d010215f5440000c8a50228cc1a02ecde6d0366ff1e01039fa2007a6553023b4a870212f1a40198e4a50357960f,
  0x15bce9038d21d503d0ea5c00d07f4003d64ef50019c659030bf172020f422902e4d8f502f2c0bc0007da110234deb700574f4a03aab6bf0017acf20039b0f301bcf10503a5559d025685ab03c72426000cce4801ee303002c88bb10287e950024a15ec009f9f6f02546b30030051c503cea523027e83bf,
  0xdfb0603b6deaa01454e030094915d00601dcc01089f7a017281bc01db28ff02a88f1a0168c8540024468200ee50d10293995e0015b310033ad1a700b8a79b03231f0500875f12004c0587034cfcdc0034b43900dd7b450081fc5e000257a701cd4f0002ef84d8002076b303108fcb022d1c62014e52ec,
  0x39deda03eb3570031bfa64035508f000b658af01706f1b02f39de201910a13038c545b0283f888001e22ad034fb7f903a06df70329734903d95a7c03bae17c03b191b200f9a664025364e902ddd61e002004270277732301aa9ba101a944df006b6df50103f44a013f8a220278cdb303dbad7f035c3a50,
  0xa71a900ac6aa90072608a01da12ad020421e1006d8f5a03ef7bee036d151c03c52bc202ebbbea003d55d9029ef5d3005f638803a379f8025e9d8e0344e81500533a2a02d8a51e030f16a902d5c791002078bf0107e43b027f17b3001213c603cb593a013357cd009468aa0297ab0502b0f71c01f99c2e,
  0x1c6ebd0028fa2c009546450013652b03842e760228dfd00053df6902b8345f0245614b02985862002b600b0320d868023344db033eff58024db5790181c361021e9cd4004b56c000be31d5012da09c003cc46d002f73b8021d087a01a2dd5102a0046000a1811600fef5b6017f56f10087b4c4035f4537,
  0x31e2140287d58c0151d1a60061f2dd02f64f89028268ce00b4185a00b09fb70121413d0337d17300289ab000ea01630073ee6b006bb810010602df0184d8830294497a021e56d9019a06b6010377360031eb3c02ffe1bf0309415d027976a6008aa71e004b915b03b86d4c03fb977f01fe4269021d4eb6,
  0x2f2f640207c071005504c20115ac29034654470162ed4b036215ba00214d2901ac7aaa00b5719e00256d70034db97c038c044d036cb6750068c4c603f6e8510095322c033627c6006ea9c902d31eb50001aa5502af54c000b149080197bd77023264a80318feec00fdd2d1028ef79d037fed150013f61c,
  0x368651023b3d5501074eaf0268ab28017362f801a066d200c79a10020f1e9300729a9a002e60ec003e6298019f639a00b25ef7002d69be01a42412015bdc530176712a02ef3c3e00b8913002ecb24700065780025c901601ea0725035a8770024d09bb024b537602dd3e0e02b92349004216ed001015df,
  0x18c936038540f1017e33950078bded03ae52ae00330537008a554503300b1301dd7de101a4004b001da1940370555500ca84f4025c6cc7026f6c6300eabc6801fad3d6005f1c8400a8459000eaca4900344d8103ebd8e20331389f00ad27e90315e2a3017e825900def892019703fd02d47ae9020e2638,
  0x42a65002073900356cb290379a475038faef600b1b71d008136e40314060d01af3faf00ca74f600281b230172ca2c014551b10394d990009479aa0237e1b7037cf30b030d370702381f2302e8a931000a43f3038a2ce501d59bba022338b802a765010222b06e02485baa03a239590392193b02fcfc5c,
  0x1afa0201b5cdda00250ff901dec1ac02ac5c0800dfd715006e5cf6030e04490329097501e33fd0000b306301d3261a00e6cad20397b2ac0349158902b402a402a0c3d8018f0e2d0135efed02d39c6b0030edc2017dd968004225e603ded40d034da86f004de7a1029b77a5015f1e580023adee01b8c5e3,
  0xd266000e63a7501409df4011c6bf501177eae02d4431e0065a60001bdb59b01a9dc3e015929270033a93c01bfbac9004dd6cd029309cd01397b8a039a6a4c001c0a2a0077f2ea03ac11cb00288221000cbcea021a9314030cfc050365502d01bdd95b033f7051012d2518033095ef01ab42ae03218ea0,
  0x2f88990148b13403c7b59e03e534e7039d70ac02275626006dfc9900f9662d03f9e2ea02ec7ee30008951701efe881034b3614011cfc5a03a350d103ee874800c83c3902e4dfdc005b8f0f007cc47900028e5203c77f5402c9f98f004bc3a200c8add500af8a2f02ad237700b0b6bc00801fef03385584,
  0x9a98f0278568f03c637c8000def1e0384c41d01767cf002f0d25c02d34fad022ee41d002d286b001a60cf00d783fa01483c0d0300f30e0111f780037a30530336ed9f027d16be0129c0970036d285003ec27e00d4c514009b267000cbc83700dc8a5d034efc4f0091354303f298d901edc1ad0165efd0,
  0x11e34e013504ed017b191a03db40d4011837ca0207cc8b038c4c91034f0a1f021e50d10094d510001d5b9a005ef85a01d15df10081b06601811c5a03e4e6be02068d3d02bfb5880326797700d63738001f8858015b60b9039d9f0e00cc66ba01c1b4ee0272889f03eca35d03cfe01a00a6d4c902253cfc,
  0x2fe28f03dcaa610117be5402cad62e001ac6d303ac20e8002d6994005363c2014c61f1002bbef1003f63d7023d696901ee51ae02fba94c02af9f5400474a8803f8832b0104abea0028d54e0255baed0019d4d20102b11303edcbc103de2b630282da9f00f5f79701b72c2b00c6da4b00f8a51101455e57,
  0xcdeca03f1e1e8006e04f600ae5af90187de8c00b7c86f0316b4ed01f8b63b027079d501e9d1eb000f4627020ab38c037060dd01213269010058e6018632d3010c6b9702cc82cf009e04c2009fcb340009e59e0347ffcb036eecee00c6df3300fd12c200477fb603988aa40361e04b00cac930035cfc6e,
  0x365750027f9ba50366efe40185dda30187475903b35aac02acefaa029e2f9d0129a51d02514f0e003f499302eba42001927e4b03789f9e02ce8a08030238680315548e004c65e30112e6b901b0c7e6001e1781027c822c003556a300e506a30394e80f03ce78bd002e3019026926ab02b5445702cafe7f,
  0x107c94030811f9020781280175daef01875c0e03c19b0a02d49ebc0253acba01bbfc87006893400015e9dc02cb9cbc02db5aa7032a8fff0030127e00259f11038e072b00ce5669002c519703b7f2ff001533f3006499c30292275c02c6db600082a68803c47dd5017f9cc203fb5af6037cd42800e50eef,
  0x192d0d00199284016895cc0339f58c0073fd5f01d8022c034e6bfe000ad4270196b127018be750002ae181008b9bdc01f1417e00dcaeaf003c448303b5dc2103a8d2ad00f60244013be5f60384c8ef001926c601e7040800ff670201a71d6803c7f00d00271d7d010d0af502209fb6027caf5500e41303,
  0x1d4485019bf416024b6ed4000dcad803039a750064e9d802c1833102033dd501d0aad20098fba50032225801fb685a005f1f8c022a7a9c02ce74d60302712200e1c59203e2196a004f7c7302bd7d27001b0660011c2ba000612356027397a20113f10600e0f6cd01530381025c3f2800a7bc75021eb948,
  0xed3e0251970503a068b9017f325b03d48ba201da928501daea6d007effaa01147cb5037696f600226b190225c879033eb075037cfd370279b9f301bd5a3302791d26028655d80288373d00a8dfff0039d5d50364c5a50341ad6b034225fc02886fa10189a08a03006062021bf56b01c375bf032740fe,
  0x304ae103a80f120317ac9600570ab40356d182029615b9013a251b025e91b40238105900ae60dd0028f3260151572a02f92b9202f01d0202e5c21b034a59970001755500510bc402cea42803a0f09d0033238500ff18fb025d039c005d4b6f03cc908a03c35bf6016117bb02300add00b6c97d03ae724e,
  0x24f92a02c0372b02fe9e53017cb37500bdbdcb02895640006ae481004bcb90010c789802570151003e4a1c01f031bd01d81346017c314601b3865a003fb02802362d6b0005935301e9cb5102932e780023bdad0059c9bb00bbe860020182fc033a373303a615b70392e86e029504fc0129231201bd3e63,
  0x3ceb98016cfdf7021cb4ca035b4a63033fd3e001e2fff5036b74f600407182004e062a0010b0010022b335033bafe302ee341b035ec2ea01ca8fb203e05a8002e5357d0123570400a47375003dbbff00206e97014e03ce02a89a8c005440d9004e6cc001cd5a7b0361a30700f23eb601722ca1026dc030,
  0x2fed9e03ae56300361ec55021db74b018abce7014909a701c0abd403c4afe701aab2e7022bc4480006d5cc032831e3000a045e0170ddc90245ae3402009c6f025e1f50033b0a9a038e378802f6391f00087b86015c8d540128babf001a897001662119013cefed00acb4c8029e16f702f0e819024ab7a7,
  0x32da2202e4f3ef03fe8b0801aa9a10010165dd00dcbe2501e44f4603a3f59d012dfbaf01ac62890037412b01d13391012b851102282d8d00ab49d5006e1f5200d288ee0175b63502759bb602cc62130008cd5e037c0c2602857bce0008ef5e03e0335e0313acd403c117de0071eeb2022ed820018bec3e,
  0x3dcc3703bc789903917dc102ea75f70327cb8700a41e88011eca03038f43ae000cffdb021156c90004e24b0389d60f03e76a7e0274b90b01778e0c023ac838025849d501ba4058012460c402cb0b43003953cd0253956801ef5c1c0247db74015e719f03b22e1a0254988301e4bed0009dd4a202f9456c,
  0x66eb400533657004cf4d20208e43c0216ab5a01c0327e008dd4c1033fcc9a022cd5880084fdfa0025a2ca01ed987800ad118e0141a280020658ad02344677014c0acf0340f23d00e148e9001165f900271e51011be90e023f900800029c9f01287761004a76ed015b9543016c9d5603f5e63802e3369c,
  0x303049024ce63b02578eb900bd880d02c305f4038b7cb600f1592c00e6e3a002ebb8510077e5600031239c036439100039b9c500b4ebc102c332bb034f8d940181d08601fe238301598e1f037bd2dd0030d6da03ac301f01cffee7038dc0bb03151f1601e296690180da0e000a7ce501970706010b9419,
  0x10825b01b4334200003d5800edde0003bfddde031b02c402d8a37f012ecada0287ac8a0339688d003f359903eeac9e0111826002abb28a02999ab2025725b3021582e403e82fbe03bb96170248c0da00028fa0022981ce030deaab02ef9b8000430a93022107cf030b1a2800dcb888019d24d3012cb43c,
  0x3a8c5c00d7bb1d029c108d03e3cc3c0215b56302e06798027db471009f0a9003a7cc42002ffa9a000f32b002b69ef4023be2ca01a328cb0182271803bd7f5f00bb3e53036a0ead00b2145400e2de1c000207d3011befac01f2f834004356560320d3700024378f0351bbcd00d600a903a943eb03ac299b,
  0x21b0d10276bff602882c8503b5fae00240603900185f8203838ec5026a747c0353bc1502a28e66002a1620024c223602ea52e8005b233703f5a83302b0138302bc4ff5023efdba03361bd400b2b9410005df9a033d0bd70146043101207b4d0084783602ccaa3e00f95be5023661e001c0fcbc0097dbad,
  0xf857d03aff728005cb00303214c39028937b403d50ecf0349efeb02ee27de00f4ab3903190f3f002cfe0702259c1f03595fc0001ed22700d846d102909d3e03f38ce3025bec440373df8801eb3a8500385e7e023d48030084d5d6008941ea0047418c0211ab2600fe6e280204c17d03b2d310032c1bcd,
  0x3f567502b0682401bb202503193fe1024e13080034cf6a039d2801020a2bf00299d40f02e90119002fb67403493cd200a641f3012ea15a0305f5e7024afcad032de41f03edacca0047e91e00e70c2f0029d9e402e1f41400e4ee9a018b664d02eb882b037df90d009ab07d005533ee02e8853802fa1b38,
  0xb654d0365310c035bb16e0257a8f201d520250205d8130080227b02f8ef5101fbd50d01c112ae001e701c02d74f210377da5b030ccaa601fa216f0374e273018e5eec0312fcae00ddcbf201085e73000d20e201e966d102feb64901fc876503ea9c02037c67c503ab92f6003f9298015316fc02bfd0a2,
  0x6d85e02e62bba01ad2a0f0086fc3501bb3a91036751a000c68c3303459696033f450301470e8a000639e5018335ab011e22f4010b667b03aeb62a02b63876012cc98b0207be1e0308be8a019e70260025890b03292d6500babb230259d67100d55fba033b02d203a1935503c073c3028b8b3e0169d083,
  0x3044ad02a5479c0068737101a90321002bced601345c2d02366c6402e068ed004bb1ad006b63b30035fa2501d976990162272a021b684f02f8424100be30b30371d36c00e4fcb101c1abda00b472af00089ee603b8764003aa85ba0189d78a032439f9028600a7037360b802b880120067280402516e7e,
  0x4397603ac0e0102f4755f0065adf0038c118400aa7a19006f6d2f0258e93b0183032c02d97c6b0036155d033fe46c026a2cab00bad97a011b974c0287dbbb01312cba02345b65020dcab3035aad05001161bf0259b01201a6a2240328e882035a6904010be56403853e74032ccdb0014347ce01445c2a,
  0x28c57c02ef2adb007c3635006b6992039373f20330abd202a6af4d01b34d29027b598a01a5d976003296e3019118d200ed74cd030b8e0201e448d6033b0fd903c6901101add23602d901090366bf130029337d039715c9022fbccb01269a56023d04a601b74b79005ebdbd028c0bce00f6be5001580dca,
  0xb34ee034fe64300118bbb0344d0250142eeda00d7b91a01be4b2601716b47015dc7830244f7a2003ba7fe00f5621e020778bf02689e4103395b00035bfa840293d18c027d7e4c01d96f2e039b2fd90019834500d7e58202c1c68702651b0603d3d841008bf51802c2fe7b0201442a0007a61a03a3cba0,
  0xc7d65016650ec00ba37e5026673bb000f148b007d4c8601690a1601d63d9d0212e33d00061d65001c7c810121a1220105add300be506b01cdfe1802e5d2590387d5ec03118c65029cf9ed03de8aa700299c4a0069171400e7c4d2015b114903d7dcad02176cd1031621fa017bee4e02ffa0f00286ae67,
  0x1d81b4023b5fdc0003cff103f96fed036cc2e902086d50034b8fe20331de6603e668ec03b2273300302a8f01990bd901b3c9f7006ad407009a21980136103b00bcee58007860300180db1800d9f569001218ef02af17df00940b9000da362b01acde8002e60b1d0077dedb00e508560338fd680169c5af,
  0x3ce9800142878c0232497301bc2c720147f27b01f554ce00477a6603eaf8fa011181c402d0eeb7000a5003024614600228efb903b97ac903c887650218fde903e548d803bfb02202c1baec01f5bbba0022c74a03569a1202c97be502932cf6017dea9a03cdc09d00f9d7cc00a390d8039b73ff03b1533c,
  0x11fbc1026f932403837b5d02641475001a6388035f717001c45dad0125fd7101bddbf403c9c94200079ecb00475fa9031c59c40388985300ab61c701787d000191ccec0375437003d5df1c002ec011001580bb001765e103caf395021da2c401d8610f0248661100ca7cf900c10a2e0011fdb40105c7e6,
  0xc2a21013c04ef030135060012f02f03c2ec8d0027cd1e025b9602033bb3c400a4a50301038202000122ba035f831f00b1e5720125495a00bb3c9b022e158000e8dd3902e31c6603b0f17b006aa034000fe3f6021df97401c87894010c8c3b0297cad4025273c90010ce09020555760294c540024fd2a7,
  0x2370703a5211a03da549601e030aa00632b540198ce1a0165abe300a56b2b01423730018b190e002b49a60371926a03404cd403f14e6800ef811d027f06be036e1c9e02346ac1032229ae017991be002f744200863b6b03d8e1cb03c000f7011bf12002cee1b0008d5bdb00bc0fd0030fea5d011e3a38,
  0xe1171037c99d3026c78a400d2a063026c498000654730036adbeb01e7b20e003c7c73021cdb04000ba80f0126cf47034b96d802d9236701340c2a017c53d7018d514b01f762c7032b3a88034a4132000c415c020d839f00f6e1d701ebfac103454414038865730018f940015ac5f40189dabf0122e641,
  0x332191005cf73c02c8d4a50043aed302c2353202ef617f02d7d8b501b93c7c03c3494e00c0fbcc003f8ad7014f7d13020bd4870187445b0372542102cd6fc9031020cc02a27fbd00c3109f000709c8001750b10210455e01ac6ce4031ae42800b1b918021e1aa5011b3c59004b7b0e0341140100435781,
  0x354e66012f099b027f032d01c64c36024ce5f101d76ffa033e75290034661c02b85cb1029f1655000355b20081fe2801b357130145b3f402cfdb13027bdc90036abfd103225e16035fc54b01f296ad000e80cd0308459b02df12e3023f373e004f93360269fdec01a2583503f2385303807a2800dd244e,
  0x10af6b0335049f009857a801c6294f03c3a85f01a9af6603c4d74e0075b99c0039767e002a092a0033f42102b69dad032d4bd00273346500d09577001794c600a87d3a023b0f8b029158d10080f2b70007699703bf440003525ef301803511012ce68203ba6d020385641a0115dc3302cb6849020b3a50,
  0x3e574e0313735b024176d000f392930074bd660114e0a10372a59f00dd880100f4b6d60201c667000f9252021f16070318c47900ad658100d5cf7c02847c9700dc88ff0099c2270039fcac00b917570037f80e038c44e900ad11850185ed6600c7b2ce01f8e71a017f8e5101084a4a007e9b5403366429,
  0x62e33017db37302ad14aa039826750025a0f0000ff366018c128f0221a52001591f610365f71e002df387035952ce009d3a200348a2ae030223990279dae300710f6600ef02e00194470000852d4a001cde4701d34c27011a031300d94dfa03a86d4f03f2ca8f02e8ef19001ddfea01f71c1b039dce14,
  0xf9c4d016c3c5701adae7a02f5939501e74fe80018ab6600abcee2004918ec019136ee00277d78000a30f103c603fe01c3f2b000c5e92e0040e4470189d157039d1d760019821003713e620359339c002042f3028ebcea03dbff2e00091c110099b92700e41b6a036b0f510107b66901690cfc03cd259c,
  0x24de920147d99700536c6d03e0a51d02d02bdc016f402e03fe4b7e032ab7b500fff85803d5174b0010d2f602dd3ef300bfcdbb01303836007ac8c0034144a203eb033f01e3eb8a0398f8bb0389a501003a948d008c34940274d4bc008d96e9016c433101fa2b91026affb503ee493503d8c1800238383b,
  0x1d205800b3e5f70058ab4e019a43c002b532c703eed4b800bae8af03f2e83e00b0588703fa526a0008e5f50264fbdd02101fa4037804d4012eeb130170bc71036bad5901dc0e6200a1346e0368ed770010420e02c4ba61023c374300aac2a202ad77e003a9c321009d69cc0303d73b02e06b6f03181138,
  0x15c834017523e002325c1a03d9b99201f2dd900083309f00a859910059e493006142cb0280cc6a0028cfac0082ba7e02c8eb0f02ca6bf1020fa2d600fb799001d6566603ed5b7703743640008cee3a003e925502fb75ca01c3df2600a46a9902a0eba40369c136011a8fdf01d96bf701e8063c0088d945,
  0x2e37a30376c15b02d0492f036bfe2d019ea89e00552eb203a70a0200d7929f02c3bb76025f0ac8001e947a02be45e9032635f002c19560036ce5e9010384f2007a06d80394d0240127baa20260cc47002e289f0266d425002f8a7a03c8b89a014cedec006ebd980276bc000311429700586d3501f3c045,
  0x1fb1b1006a181600adb69402aa062001d07288036702e002f7f776026c4b4d0291f5eb0045b27f002ac304005ad4d4012dc1c40052497002fbbb4400a69b8a03ef36ce0371939101522afb0174ef81002ba819009eff7600ba171d03c771b5034c1ade03fa54e0020636b603da697e035db56501675694,
  0x322d4027865570332a67c03d6796903e5222703ccf44301f01ec003513c300106e3a70323d501001e2e1002f5e2fb029e0d49014b8409031a8f7902d3d46c0309a54200053cf003dbd45001a34580000ffe06014310c901f8aa8f03fa74c0030fbf1102bb61e50093846e00fbc8db03293dd7019082bc,
  0x2cba4702c9073a00d0121a01de61a60364640302eb8b8d03deba210311fbde0142035d03c717ba003c8fd400d7ca3100d0f75200a8165e03db948900d0c2a603fedfa103795ea0034d528601b758c40029e24e035dbb46022acf12000b8bae02540994017824d5039889dc01b437160249efad013a4b01,
  0x3137a2013e94ba0354c46200d177f203e3188c012f47c002b3ab2e0188d5ac025cf5e5000fec680018fbe0020593530157536a02c75d940335e9e702ff16fa029a61310157561a032e02ee010c9b7b0015401201a9dea5028c1c42030f43c803f336700034aa03027dda4401553d8101550bb001fe23cd,
  0x3e3b5002ae244e029cb996025f850402c04ce603be358600fb275a011e891a029bec1701a8b8580026b20f026cb43b025aba8f0381e15500265a6f0167d134030f71e401ac0bc7039fd20d013d490b00167633038a4d40014f10a80396cf65008680de00d9450c02a4c9cd012b4a6503f2cdaf02b1d810,
  0x2fea8a029ed4a2008a277401f4551f0024e1e70108232801c7f7f60371eaf302bf067401eecb790035908d0236fd5e01a8071703d64e8e0211ff0e028db77a01e208c700bc886c02925f8301113de5001eff180102e2ff02bf2772017ca82101263a3102f6e43501bee71a014b724501a6f9df01f9bbc7,
  0x3223c802c6376603b3cc3f0002727e015c754400ef588a006947d302d3194d03d6b665007fc9b900042e6d014881fd014d014e023ea71600d900d6003fa3b902ce1104034314600204f180012812b00011fd00035911df03e5d14f00641c2b03fb4c860346ffe50175e3cc0322e43c00bff6c2011639d2,
  0x16674f0111ae5301bbeb640165b6b301db6a23004b1679005b103b02ff1af00358804602d12c8e0031e84c034c08370229fef803d1e8730269160603f8efea000bab3f00f9dada01705adb007667790003e7f3031f8333033d576e02a850fb02d4817f0081015e004ffa3103a7dff602119007023eb8f6,
  0x566db000bc1bf023e912801db574a036fd99d00bfe00d035a6a0502de24ae02ba5d8b01bc686e003eadda02af452b028ddf2203d2953903a86cdc00c324a001cfe68f02dba6aa00d592de014f1dac0015926703ff4f3b0076d3ba00cda57600f33d97024da9c10138b3e60371d65202c25d1f000e3556,
  0x152e0a005b9cbf0371d0ad008db11f01f2c4bc03f16bb401258a190372aa4e0096689b035d18660023e89a02dc827b00e1394f02e826aa024c79e10157f5400197486400cd55ef01823b69027ed6e0001099a001c3e69b0309abbe01453da20183ac94034e2a1801a767700386d56902bd9edb0075a094,
  0x1caff902f6afcd01e76bc3010cd15503df716c01bfe32802c859a102a4e67803c13f0b0049addb00080db70039ac5c033bc7470222e222008a712000984723025ee99a036853110116026801a06f4100141532000bbab200415b79000e30b4022777fd0310ea5701b17efe013d3e67010958a3006d62f5,
  0x355e6c01db500d021657a300615e0600a7bd1e03be067b0035e99d020f203d0135e0a302e38a340016a2ae00b5898c016e01e10395c22701568e9401ae573b017500c6034d4b5f03c6318800bc91e500383c8f01a00bcb0153b0de01cdc809015be941027d8c1a03705c64002e1b780004d29302c09395,
  0x906da0185568900c67b1c009fdfd201387add03d3a4c701bd1596008c73e0027b530f02cac9f7003bdced0020385f017e69e10017abb403fd31cf03ab2c7500c1bac603b0408303fd5c8d00e1c9a20032c8de01890ab30041fff902b6a53e0174b55d02bbbcce032bdb97010c26c2031b4d6601f7d218,
  0x235ed9030475f9004fbdba0359227e02f7c62b01b4d81303bba39402373fc5028c8040015853340016a299022b4a1500de6a5701d169390255074b01ba4279031efe1100ecc33503a2a18400c915ab000a5e4f017dff1501651ad4025f8c9e0291d245039384d6025044e400f003c501e98af9010ea257,
  0x2a1a5e03902b00010892970047c37a0277d62502cfe50802bce1da013781b202aea18a00a60f9800135b5900fc5ec203bef36301e815d201419d90009b327603d82af000340300008bf62c000f09f4000006ca02d5502100c0b84c00a0db8c00e75250020ef0ce027a753f026187bd02dee7b1007397ab,
  0x347c2f017eb3ce0128526e0171a0af03b3d91200101d2e02635b4e029cace9033f89d502684c770034963602cc25dc01ccf15902fa8e2c01e1c0250093c9e2033d62df039f9dd20394656a027c40e4001cbfd801c98da4018bf7ac020b825200f30081015006340157b2f2006b0ac400e06c2f0384bff6,
  0x2a2ed3039b2e76005a4e90025970ae03b85cfc01edd4120367b6420075d3bd01997c71035a5bcc002ce80902da0b7d00ee6a3f032c420a02f8acb800d428ba0184084a0025a6ae03f91e330351c833002b4f2502ff348401866fe102fa831d022a555a001dafc902bca12a0273f713023b52da03f08e9b,
  0xb618e0337d000037ad3c30282a556001b731603aaebe100c5086201bb4b06023e2fad02e7ebb9000cbbcd031b4897029070a803f4c27b00b65ddf01cf7f3102a6511f02cb04340380ae8503b0baf8000f807f01dc32c70276601402438c6b013566de0050a01403a6100602368091016f24be0070c2d5,
  0x1875c6011337ef0305cee603852632036b119803e539110094e3d800089aae035ee44b01bc8a1e0004cb98001f78af00a4bdd7021262fc0056907b03e4d59402adda810024205903ed79fb007e6d0b0032cc7003106cd4028b8db8039d8c2e007aadbb02b3a8d801fa9456020c290e032dad0601b518a4,
  0x7ba08016cc6cd0185c542008db81903bc1d7e0130263a01cc2e2600657e92036bcce1037d4bce003d49cb01231496004d7fe5007346fd02f23b2a0055b5ce028f40eb03e0994601e78b040243a89c001bdaf00024b79c0379e211014d6fc303e91524023ed89c0121fcc2020bbbf603ee59a70135db3e,
  0x394a502338d8b011ca524015d21a30222aa2902f3afe802c4d27503f68b6803fa6d4f03ad55d400261e2e00114068021161ce03f5b8fd039c6a71020a71ea02d8e5f803f2e61d03b4fffa01fbcf0300012a640302c5670322026a0120613c02abbb47035556530083d10700ba2ffe03c7e8e003caad2d,
  0x18441b02f76c7d020cf583016267f7020bc83600cb94ba00df8e6b023b3d930240c73d00c221770024124e010b14fd0375f1ad03ac6037028e934202adc506004a4dc800e72e18000f584402404e410003b267024cfc6302a1a43d01b27d31015e68c003df1928015b357e00da7cd0038e03a6038ea295,
  0x3b6e103715a9f0008f382036ea94d03c92d97016ae3be02bf71cb0370540a01dae1c700f19cc600021822032be7f702520f0d01ed8abd03225e6202f5703003c6cd1a0126176402aaf14f019e8af20016aa5b0158d88800e509f600c651ae0107022203386be102f4ce5c0008d6c502e3d49001381e0f,
  0x2683cb00ad661803243a1600956ff503bc3c2c024a017c02c870690326e4440162602303c424d40007c17802fc189b032903a700700ff1024505ab0055f0f201343f910043f13c039c57860317694800112a3001136b4601fae67403ea850b02ff6be800e61314009b61d50048b17f034f939301937153,
  0x2255eb03378794035d1f60011679c8012bb80b020876200040c8e903c7922400a0acab006ed1f00001d07102dfcde6005486bc0376d95801f17e440265677203e909e700fa5a3101369cd401906225003d19680184d61602fc30760090649800b79a1a00efe4d8035bbd4a02fd528b0222908003a5cca7,
  0xfb7e90229fbec0274920300a67c62031608b20365112c01eba08902942f0703a9bf11016926020001c48103966de90133218700f0ae8b03626a9b03abe97401aeda66004f978103fbbfd201f7fdd5002b747f0014ec630134de52007ae8fd02b18c8d02b9fe4401661c10027e1ce002fc0c3c032bb3a5,
  0x12625b0027ada20207d8150226d4860375dc7b030e445e0082b3860012ac9c03e5f52301b5d4380003b4e80272f20c00d0741a00624c09014f3f2d031b70e9017c037403bdb569021a0e67000dc8e800392d2901b3bf3900567c62020a0a6b01974bb80057c94103c0d832036725980243bc1e03f90fdf,
  0x2b6208028c89b90305526201f1b81a02203abb0294b6d9034fab320043dcbc0021cdb801e5fb360011f4d002e66746007944a900948c4703c94c6600fb8943026645c601ed7d7c024861a0002853fe0004a2c902f3f92d03f266770120205000b8b33f00af3dcf014f8d0901acffdc00849a8a0315770f,
  0x6bdf7022ef99e03c181e902aa5d9e025c9fe00003fac500fd363503b8970800f7745103d23e3a002cf3dc013db9c10393758f018a6b2a03b24e30035e167b0196b9a80068d3ac035069ed0168df7d003dfe96026def4201672a14006eb30a02007a74016e677b0121d91a037d8534002de5e50044a926,
  0x64b1601715a6a01c53d1300b037690162298903b1805f014d3f3c038576fe003a83a302eec5b7003e0bfc031978da007857490098dcd800b1d2a0038a41bd00697dc8035f141b002dc7400117a86000303a6600e85b72011af17802e7056e0275991201ad811d033aa80402de88db03c3869b03bd1cae,
  0x3bc87a0380dea70264a03d03bda71103e3f942012e474d03fe541803c14f1202d7d83400f805d7000ed88403575aec02aba8a402f8ce9b01a2b987032a26ad00a1b42300941c6601ff5ca00245c527002418ef038199ac029bc81502e32757004df6bd00c3b80e023ade4103e8c1d40035e1b80275161d,
  0x1e28200359ed700339b18400b52f2d010b379b012d34f902932fa30060b7d6003b681d014998700030a87c024f3f1e0114162e032f0cb5021ddf63025e7645006ab29102e778f40341a3ef02269b1a000f062303543fb903b122d1028c44f3012f0203013f444d025e5eaa01da04b5009ea14200b052d9,
  0xc27a002cf720b0113ac61022bd0830039de48009479ef0014ac650044226f022ca5a200d193bd003ae33a00ffe078010fb91302c6bb8203ce63f901d8a21b01a615a3012998b10190542e03a94bd9000317ca0038daf902fc1af003d250c3037190400041a04402826627023ddf0903297e6103f9179c,
  0x4d17f02fc4c970218f2aa01218f840118336302f0b13201dd1249009e434c032cf98e0354343600353cc10287225c0143756e00c1fa590398099700fe57810135ea73030902d501a9af3900b1eb030008a2cc01a05ad80147bfb501a973bd0000cb1d00f783bd01a5e2e501399a5600b1a99300407f72,
  0xf42a70168f7d50030dd28006c0c37014b0a5b0142ada000c8218503037a8e03e31d1403f3623700011f5801f96b55009b2ce20390bbac02341ca2018b804901b103ac02e0dbfd02cd8a0c0028b156002e29d502639dc803215a7500e0139701c0d834018d6d6102844a600060e743037b8f5102e0de50,
  0x2bdefd00272cfe037f290301a6841c0240088901325d89019bdb3201698fff0000c24f008071070023e16b0391906b00b9584103d99e3202d6ab98038d1c6300295368009eeb9403251ebb017d43a40037c6e1007be0f102426a0a011de87e03d3165002b74447027bfcfe03ae3d3003a8b6a8030dafd5,
  0x5644903c3f45c00efe1120135e32800ee808c02e736fd0386634303aba3400067a7ca03279385003a0b4102fdb9e8027b920703a31c0201c32e4701d30be003c44b450354301802c8207c0393920b0018d8fe03e2f930005f4be601f013e202bcf310039f26a901d5e5c30167f0d801902ff701344725,
  0x6d77b02a569fa022bee9c02077e6c018a4636035d9072033caa8900dc6db00077985c024646a0002b5e620255355101ee54f500b21ce40153c13e021fac1b032c9a520240040e0305a45901fd56d30029246f02dd79c300bf403c020f3f4200bae7f30105917c0314f5f402ba13b8034ee89e013e7663,
  0x3fdf5b01acb9dd002bdb1a004a77ed01f2e145013db2dd00a8e0b9036cd0c2027ff74702c600c0003115c20327fcc603c109ed0097c5a00321af04037aad64021180d800bec26d02776a08032bd0f1000f77a202a454970356d5fa031d240903aece0a011e33f302933b0503eabe16010b6e1602f55365,
  0x335beb014f37af01fc165f02863f8b02ec9532039b44a5002bfa9f030caa0b03502da7005317be003b7c2402dd548f038e4a5c006c23e100c21eda014a1f810347ebd101c3d676009b4f9a026fc0f9000db7bd0288c8a602f08ac502c256e102b6764f038dd32f027a21070379b5620009e4c70378fabc,
  0x69340013f3b5e005eadc1008a6545019b6f500398868f02faec490149eda4017d529b02b065af000d680c01d7a9090293e74101677c44032c86ef0369801802b49dcc01865b1002486e150161039900036fa80264f69c00dcb3260148c1eb02018b4103cfde1c01a57ccd0352219f0398c0330302f07c,
  0x27b9d02dda563008d2f8b0369777100fa35ba00526eee01062bc902669fa50152d00100a4b3e200353cf5031fd0d101cfb9a603d8553103ffcd8c00183ab5009b778400ce6e4b01e31e94020572e50010eb0e02b692d501c131f400d35d0100fb7b6100e9ec8001c07f7901ec24bf0351049a02d9c318,
  0x11e7730046154f003665d5000ba2e8001303ac01999b4700a95fc700ff9ed20122d3f801a615d9000d5cda012027e2004cd689027d5b9e030141e902313e4502a97e9e01d1313d015ff68603044f870015b6f4021912bd03d9e2e10192e31d007fe16601a97a6803045e84025bef3002fd6191007eecff,
  0x2e2e7300d55ab0033274d6015ad98d03a8b03b01565c5502171c4700527657037fd44002def1f30029c3e200f74b3e000d2a5b00e63a9400045c730225dd7c019381ba030532b502fa1e0d035eb9c3003f666e006502cc029966a301c3220f000d83cd0330ce2100be2cd300e7b0e103fa83d70336e088,
  0x15bf8e015184a001841f1a02facce9018e09f1001bf327010f8b0c021e84e80321b5b503892f8c00382ac500e120d20006cfa80374af740266916903269fe603e365cf02496f9c039262c600716f9a001617090347f46d00359c7a0107e7d10229fd880101a44a01355e6702666675008f7260013292a5,
  0x1ec69e03e006f70375bd8202cf921b02ee6e4b02045bc802b97314021964e40327c30c00c95b2f001ae4ad0113546d00391fd7019aaab3010c46bc03b37d9200e88b2500b842e00301f49402b3bff80004d997013d1e1701b8c46002c738e1036516d70076afd801ecac220333272803e46e5d03fe786b,
  0x37c4bf01681a74039b183f02f422f70008fd6902e84fe6039002a8019b592002e520f4004fb02a001ec7b501f5b323019368d303c531f50036718e01d4cb9f0114a30e029e674e038ded1700d1505c000debe2028ae425036ba477016deef8014b620b01ba2e8d01c0817f031d0215028396260210cadc,
  0x2b800f01b6028600285f8703afaf2e0316bfb5032f47170130d3e70242ca460176235a034f49e300270276032257c803c9e01402590b0d023bc3c503220c9e016ff1bf028fe5a300acb4bc0224e27900367937014bb38403e9bfa2005130840384a84b01a890d500b9c474023c32cb0259d306021be975,
  0xe419200c0184400a4d7f30034edb801c72b7f0377e068019ca81d033a344500ea578e03e18fa10018aeb302fb7d6c0056ec3501ffffcc0297e05802be2fbe0071276902a272d202a9d68203d9876b0019d6d4005dc36f009df8890173568201b0d3f103db7c8000cd3df903c658f303c2a4d103f98f37,
  0x356be7009ae3e60333c3b903176e7900acae9e02d8829e03daf7fb031e3041031eb79501b28bc1000140de01cf53d7024a658703e03d4d01a3a107023de2030153729903fc0c9300b93f60034ae521001f42210287d26200e73e7c0067bd5102b5387901c1d1f502d2f8490315605800c152ac0140d62f,
  0xdf3610349e1cd0399e75d0326e52b024d446f03fd2a3e027d468100dee03e02d785720223bacc0006e31c0120e1b40092cb48008f361001b8ec330089671901e3c5d4002b4ab7019aaae403c3e1a6000d2cf303bc3343027af24c028d36d9037bd2f101ae0f7a009763db0367d1ac0257bcfe03af9511,
  0xd6fea02f1182003680cea00396cae03742437023d8b6c0037086f039a4dbd02a7b02a00eedcd7001dda9c03cc1d0c029e25dd014cc61c01363d1e0254c928010b609a00111cd80371a5f00155e1e50015407b024f98e002048e26000db0540234b8de0388b88f007da9e7034deaf3000f9440039ab699,
  0x18dba700517dd6039b4c6301453c780312ae9703556027029f3f2803ba2912036464c500d261a600039acf0142fe02033dbb0301a7d79a03dcc75903d936b90342c9e000a03e44008deee303234b91001a47e20365121a026d49fb0380c6d803e2cca50011aaa1021652e000932b00013057c6007f3928,
  0x230a6f01b796700271c131033163590111fb6e02377d0b0153d795006f94ce03b2b711031041d90024aa67008037ab0344662501af383802e13a50028ee30902252a4601617ea301710d4c037a30520027c60201c2b3a900a064d2010de3cb012e64e0007140f90224e268008b43cb03c2f8d701b8126a,
  0x2a4a4e00813b6f03d1544301e0863900074ba9004d37e501c51fb902da3d390359dd42015836a90011460e024a833100b03bd4038aef9100dbff4b021723e00117f063022b432201548061029796cd003f160a00ffbe42030ab9b903538d1503b4059600d94a670184260a00e0a29700866ad00135f6cc,
  0x2855a00377681000bac020019f8e52037328c702588ffa03065a6d025e507602d5822d03146bf6003f3a80023df93f01722420038e1cf9013d4e1701652714020119fa0287fc47011b58920231438c00361dd9010ea99e022e0c0b032fa82403aa3082024a797a006c094c002d4e1500edc1f302e71814,
  0x322ec00167ca6a03a8813b03e8df2d0150b56f00bd7f0302b88d2b018ca8d10008a5f8038972a4002079f501acb83e02ea692e0212f8de01e2cb430287a08902d93ac001a6cbed02ea6ede00fb6de4001359a50083598f018809a703d9730601358e0a0316885d02a7e24802ed80440147ec66004eb21c,
  0x3622a002a2d8d2037e06cd0182dc8803ca4c4e011d967301c2fa4803f4978a017c2554003721eb0017519000d8fddb03237d0301447df700e28c55022e1304022425350074bde60371663b00984edd00184843008162be01c86cee024846c702bfe4b702efe44602382c7f027767d801f8cf7c0316bb11,
  0x2a7a7201ef8696015c1265034025760228eb490095f44702591b60034e67540282074600c199d90022c43b020036320360332101358dbd02993df600db6c1e00a9593700095a4703f93ade0035286d0031bd1f005895fc03a4988a01fbe592036e464003e7777b0073748f030bab7f03287ad803c5446d,
  0x3f088a016cfe9d005405dc01d3acdc02810509003efdca0301b7e500a7e356025b349d030d28bc003f6be50124ed75004f05eb010d6e99025cdca3017a0658038cc33800d7055a027c6cf301620e66002ef2a902f5252a02592a2d00535bdc004840a10101117600113149038e2697024d494e02329435,
  0x34f52c014810fb0364e10502a6180f034d2ff002ec8d9a03fce7dc038d3209009ae27802d492de00181a41032e715a0200053602c9b27e00ece29c033f940c0247fb39014b78220097bf3303cb3e3c0006a59400a5fe0b014b262301356bc901870030005aa0a500c591f100a3ab4201ec377402d36d00,
  0x1ebab9022961ce016df6e2039afe6101cab4f3038ec1de03bf6a80006cffb90192c40f03e8bc88003fef7302bbfb91000e732603c272330044132702c86847015a992800e4005801d7866400496d95001641480263b92c0322422801e7e95601657e4e017f73970029b3a20162bb9100c31a5801a378c0,
  0xdef7004df83301c7f9d0018674bb004852190075e7d800ac83a802868113027061e0012fc9af0030cf690192f32203097722028a8b3c03ed763102be660c009907550371901b004b73540017a8190030328e0366620203bb913e031f35c9026f7fd40319709a00dc10f30105cf0c036a1bda039e7995,
  0x1c1c31006f2761005460b301ce65330396cd42030662aa009760f7017971fb01b994ce007185530005696303965dc70314a90901d6c52f03bb4c8c02f5488d0355cfca03194989008ad5db00205318003c51f7034b3be0007d72ed00afa4fe0140cb980265c4340017d8c301528a980241081e001b03a3,
  0x3cb6da018f41030158081f02aa761202d6393a03f312020133e450036ae13903822f4d00dbad950028b1e102d07d670073d154006b0f7f00708ba401d98148004f683500e4d2c001e9b4ed01cfaf2900340ed403533b4200aa134801d001720358061201daf33e03e5659a000dc58f00fb0600012cb715,
  0x21b21700e6984902d2600e03a0863203c8ccd401d4de86016cdd4702ee480300831f4a01a020e70027ce7900853dcd03e86b0000848021036d017602f63a1d013513ef03c5170f0266266001c379e8001c65950203af4e036ebd7c02b8f92102c2d740005ca2b4032638db00e7b740020455df0077eacd,
  0xa40f00083044d00fff401027c7ad701d6f618008edced03983c770397ea4e01b40f5700f2b1810017e48e034e9c240210ed0102c5acc800800bf5015f62a703d0fb35003a01c80072526602870bf400157c5d037886eb009d896e01ed5e480179d791011cdcb1031ce46402d8feeb03d203da030c685e,
  0x2ba74b0204e6cb0254db620393e3b00296167d036c4e6001f2455900f6e26b0112984a039f1742003537e201f217f900c30cc000a16f270380ba6b01b443c100fde04100e9c4f7036017db024ffad6001315f70398ec3500e38b4c0389d2490341df0f02c43fb40214938702f0476103b70bad0255cec7,
  0x3f5f9b014f6721013a08f703cb654c00b9e88a02275d3300bfc7d9010606b1026e01cd019bf1fd00116cc6032dd02402a12bec021f871901644b10018d24c702bc0c4900ba03df028f097f027f13dc0035854b005ad1b0000ce2e9024a937c00cc1a5201e23ee203ba17b2017d6d6e02741f9900e51a2b,
  0x1a7b770356f95800c6f2cb02ad20970351b98f018474170292bd0a01fbcff500f25faa03f321c0001a30fe03f4bf410311136d0367d224019b339a03db55860063182c0329b6400230c7ac01b46dc100162ff2026ebf1c010b540c03d6f6c002fa146e0065b7d4027ffabd0016a91d026d729002a785e3,
  0x28656801fd7c80028d2c1900df510801df1d32009cdba50216886301f40ff6011622610050170e0007ff1a0027a7230307502202ae65f0038285d903cf765201a650c30271348201e8476d03feaa13000fb7400086a0ae0087deba01518ae2037f87fb0264b3cd005e8e700176334a03a6210a01a3e49c,
  0xdc4db005343020155f6f002488646006814b700efc0e50230d8da001dbb0b015e26780343c2b9002f2bf40171a7cf034d701101025be003bb3285016bf99901f3319b02e84e88010db1bc02c1b775001c769b02f7d62503419bcd03586667019ea4ed00c7d7a8024f36b8001c3fd902d0dca20252021f,
  0x2752380238b0d9000f0c0f0243d4920318bba501ae3f580383f1ec03f707aa024891a602d9b26e0011bd6f019d62bd0156be1300d4134f00bb581b00e32eb9018511c8026ed5a5022b9ac60104207e002ce24d027fb65e016998d6002b030403b6e43200a7c3d40095173400be28ee02e624ae0289738a,
  0x23faeb01737a96001ded5603d1969d0194f0190276025003c262bd02b5034303c19f3f00bc2b680008d3b701ffec6b01cf603501657867038473e5033de3b0030385580045973b00a93b7203fc2afd00334894012861590321edc7003b3bef00498ba801fbce4c03fb1af9016cc4490269318f009981bb,
  0x2847df0350e7a803147ee70010c19c02f84f0b014abb5902d6bfe40142bbfb01c8c32903b7335a0007bf41004e1c8600d6b91c0096a07800fe7fa003ebe84b02ddaa1602cf1698018dd00901abcc62001e5c00007ca05d0231914201d7be6700909f9403a599b5028fd2ea02a995b6013d6157039a83a9,
  0x23ab301a368ac0203c03b03fc2b7001a5b34f03c855a0037810db00bc2b68033cc2ba03c77f1a0004d7780348b50a0272b90603a91be4019a58180024330d01d09ba8022717e802d49a5c02850ab300176b80032718f60053a6420140c4c303e5e1ec01c941d30337073202f81161026eea710259ac7c,
  0x2ec946006ed67400de0984027dd6580104662b0317cae60136d4850388ca660298b8c803deb59b0005ac44022d8e9c01b08cb1023290ed02c572cc03bdbb36031da1de021245c50132b6f002a7565a0016e42900ab7c460075522300d5c094034e86d403aa774803439dc3012a7ac6020a582f020088d9,
  0xb2b060238b35200e43e8100816fe5024c4ce900046ef9018d922f0037fdb70122d42a00aabb120001435e0220afe80338d5e70029980703f4df9a01227d1102329228017ce68601c3763303eca68e0011b15c029e4942021ebf6103f3de380220f4460339ccbb038eec24006d370b022029b6008ef0fd,
  0x7e5de00b570db02019e14022f007303a1cfed01e348f200afc0d603f23e7e0343f91803c646e700370e4302257ae301150f070343920b020dc0d70098cc1001156c410129c52d01fdde380142493300097e1303fd929c038185490125a38e006c60a002b63147005d8e0501ae6b460190340a030fc45d,
  0x20576702433c1203f453120371f319011a19c50313a1f600b99853003e431101c663a401a255ff003cf7b5009b2e4603270e210045c0f200bb26d101c4131f022e444c02b2b7cf02ba175100b32834002ad6d901c72c4e024ed52403cb90cd011fb39201e30ece039b2efa02e9d54402bcc604002a1ccc,
  0x11091b00607d8a01bd72b500f12a4501781b25012ddf4903b5f2a50046e9820359a97501f5c9d10026fede01ad6a9101e017fe03bd413a01f9578400480fc001a5df5503aa4c6d00ca176c0233eaac0004db85025344990252ee60011c0040018a80cd033e9d4302400fcf039f14b0029f399702fe9070,
  0x2f29580288df840088fdda03b4dbf80396daba028d8ac30290e7c30028b24702324fff0071c9ce001f157c0284c84901fdb87501fe0ed0020fe97e017fa6110237a2fb00ddcb08000d8b2601b68dc4000e8392008fd71200a1714b022170de0280d0760112afed0061b7cd002d67c300a58239001ba2bc,
  0x25358301ca79f500dfe57e01a0e3d40025fd8903aad8210062bbda01eb4e3b01d1d92500c089a50024188c000803bc00b318f902e21a0502147206033b7dfc01589436022e43210222d18a00e4ac3500067040006a30a0021ce4dc0395da95027a90f30331e7210172031e03246fbf0206b1f200bb4cf7,
  0x1497e8025c6fa3013ee2150266536901f5fa1c0213f57b028cefbe03842451001391900024fce4002b0e8e0038a029012546e700231d3b0007c62401f60d0003f0a62200f6304a0063545f03c9254c003fed2e0252b48b02867f60019c0f87032da3ea031ba72b02bbc188012091a702c4141d038d05aa,
  0x1f8af00075cfba02f4671101aab978037fc3d3006817d4022acead0155bd61025ad61202df7db7000fd46b0175dcb002c7d79a00a2084e0223f0490085ef7a02cda0d802fbb4eb01e73c1501e856a00023157300aa37c3004f5e0803e52e71037d4e9800168cd20357040803cc386502dffa93027f8761,
  0x35d5ad024614e1030dc19d0112544e007a4bff0062ecfa03e0039a0327c5b302c848790281a07d0014f33900f2c37101a2c1b40388aa9e00f4cf2d009afb11006b276a036f47b3035654a0022bc231001e4a320149f44e0186aa6f025196df02e9d5810097edbc027ba85802f5e62f03e159530017209b,
  0x2c26c00269be9f033b218701eb473d00f6bddd00cd9dde03cd8fcd032e3a430072350f031cd2020024fc9d004069d80287fa17021737fa00caa3e9022c57b8007d1dda01278d6301e32d6502c569940026c77801e524c700932a7401fedfbc0078506900b5f627017cecb601495ee6007a8e0b038e6f4c,
  0x1066ce015e039300fe960e0180eb0801d6283001bde1ab02da0714036ff91c02afe4ca02550adb0005c19402eed0a701e8edc40352f03000c7e037017c5cf801e53b6600aa6dab032d7b7a01f2ceae000ab0e000d37952025dcff503eaf18b00ae1d14019390f5006ecc530061e4cc02c436b803582292,
  0x32e0c028ff7f80187e51303d14b980379391901119bd0016debfa024a4b360092ce4d017bf2f30032e5c201161ff400f169f5026665d3003ee1f9008907970150f870021bad8400c49e9401ff4d21000510f200ca9b8d031bc388032cd9a500ff3fb9016fd7c701e1292301ad2be602883a6b022068f7,
  0x2d7a1c007ec97e033360c90336811b00243d9100af531a01aec4b0021015110005008c03492adf000ce7b701a4dee102232fc4025dadf001854f7902dabd38007c872e0361a6680170a0fc03be0862002a07210035a35002aff29f0037f35e02684f8b0370500a027b7d7b00da8222014ff84b0328ba78,
  0x36903e03833de803e8efff009c4e630069786f0300d5ff00003450020e202002fd5b180015be93001ffe5d01f9fe8a03b9ef6200dd0b8803e5654300cb9a250059b9a001fd40ab010fe6eb004d19ee000b8b7900365520031de2e6008347d801f5a7e40198d739007e85fc02e94964022fd29d00771158,
  0x125b73015c9dce03b5da2f01e534c00109d0b003664fd800c90fe3032af3260054c9630264cb3e003b278b030f0c920013c42e00e4c7bb02f51da5007ca7d3018793ee019685d80254dc100250ed40000dd9590355c92800c69c30006d724b035d7d32039c0cfb03ae636102e89a9803db053b03717971,
  0x2f66d00378c69202d0478f02e713a1029e9074016352660113b53b012954c900c4b3e201cff15e0039451703a749cc0037f7130075979a03b3854b000c5bfc017dd4e403ab8a7b00de9795016aa901001e47f7039ca232015e747603fbf61e03825ac203700f4e00ad34880189acd0007737e000212c5e,
  0x18f11d00b71dad01c515ff01f40dd40106c3d200d26d2d0279f8f40199a917039a8eb40131ba53000cd86a010e6258017f9be103c78c3000e758d701955b09026030710202903800258fca001b21d4002ca46800ae356f0125124b008ee49b029520790018b294030019be036b621a003098390085d096,
  0x26ff300a286930019b661006acf31005512d100215b73030e3fd702aec77e03b7c2a700668c2e0011e97202585f87031dacde0378131f00e62a3c006e951303e3cbbf028a277903be60ea021b760a000d2d0802045dd6019d839000f0d69b0063c3f7006ca16201b961f901ee5bc802543421031183e0,
  0x30281010bb0440252057a020fb1b00129a089026fca98011bd0bc03798dcb01413d6e009c4d410027fe5d0362028f02e885de021d6b6901e6cf2b012b6377027573b902eedd8e02c71445028840de00030134014f523503ba77bc017cbf4400f1d6e50290ef07002d90910196fda8014f3af90365eb63,
  0xe34dd018e13ac026f45ee03b867aa0257f7eb01b09489002b2ce1003fc45c02336fb900beb059000b46480333923303e597f70066bc8301bf71e801c4197b0377afaf02384099025bd7840214a1a4002741d301c2f20800b4c44f02206a4400131a5b021abc7d038b271702d0927b013a66bb016ec98b,
  0x1abf9c0106d2b202ed1bfb031c4204030946df0204fada032d1b4b02d48461007ff46e01217d3b0005b2530353cf0a001f9afe00aeb26802197ece0184c1e1021edbcc01abb0c6021a52ca01742e4d0037f39003488fa002af397a011d5ff40098913d03a4e18c02b047ed019d58620275f97a026213bd,
  0x1f40fa0195041802838b4801cfbea2010b78b002125a99005856bd034b2d0f005f6b710268080b0009b352020d25c7019abbcc0003326100629ced0140b61303877b12006614a9015f610203a70b8d0026d04a0113154603c80515018bef90009ee66f0112c37502abcf3a029a390a033def9403f093aa,
  0x2f2dd5039af1cc00354cbc0108fca9020ec05d008f626803252c8a0331ec4d03944052001f6f150026eff6008efc05000216cc035de50d0163003d02172c0e026ca03102585651011e174f03f601d70035ed4c03ca33f2015c0e630348346c014b27830203c9720177f82200c4c25c01d7220f033148bc,
  0x2f9a98003af18302161dea026f42c00159019e01beede902cc232003dc4de2033ed43b003ee6b4001c8525026fbbcd02abe49c007296100160b821002de6ca0007b6b500c9f08502b273c50243912a001f9a66006a24cf03ea81410023c63d0223c56502a0540c03b9d91502401146028a6dd10134a067,
  0x188648034ba1410375eacb02a0cffb02fa7ccc0241e7de02c4eff2032b783c02df306600dbbb420009ddcb028b1eff037c9c6602282ec6027c0ff90240d75a030aa1a50324b00900f2cd62026df140000bb01801aa0b4b01acc48500906ed2020f5c2602d50f3403739e9b004186f0000ac09e02d77d75,
  0x107c58038d65040367c5ec0091f9fa0290ed7702d2a36a0376538c02d8da62026d56fa016b935900180344022c215d017fb6d102b2cfaa028b31840172c87b03af064f0267e5de028441c6024fb74b002868c7036e8a9601d9218100aa3b38021e39c300d4ded901caf29d0249e591034948eb0022a620,
  0x259c3a02d80be203a53130027aa1190327bba80068edf101beb50002877743004e880803b5cc730017b05f0069aed900d80a88030e971501cf9c9d011e58f6024b2a0802b8d6c4012be99600f67be2002589fe004b013f0161ac2403648a0a0028ffe50389086701eebbfd024bf81e0136ac8d011f0307,
  0x141cc003880310020558b00065dad00186ffba011bb14901ea833102f78b6303d87422022eba810010010c03d267bb00187ac7000ec5d700851708018ff791021d715f00df7eca03b6150c004644a2003e0816007ef567027aef150310221c00735d5c0063d1ae0029059302aff2f50187783c027d302f,
  0x62ba30352eec003add1e2016a3d6c02d2d97c03a57b2a00f8c2a20115972802517ca503f4702e0023838201f1b33c000dd2c9025b33ed0267b04d0097ef290280754200bafb7000f7940701c7e2cf002aeaa90254f841022647ac0246116f027bcec4030aafdf03b8974d021fc2dd013f38b900558727,
  0x2338650352bc93018d4746021c9bd8010553080022df08038484ee0323c08701c5b2a0009bbe4f000360310293be67006bdf0802d449fd01ce5a2002720c4301b8437203e0c4380118455800392e4f002493c201d6a6e00007726503487614004438c40324df9200fc0c7c00a30875020e5f0b0306c3b1,
  0x12bab202abc30900e4662802d2b89001272f5a0148e71f016da043039a1f08039941d70315cbdf000f236c0105e52d017d80c60260f43401f4f06801298db503cf4ff001798e99014c1fb202dd638d00356bdb02ba3133006c2fa8000de65403ea681d03ef6a9903757a970251f5d9002cd7e602bc5e85,
  0xbb8da025041c701780f5c03dc15eb03f29455020294b1001104d602954a67011683ba00c426560039008600c097790088a3aa0295eb0a0074ca830181daeb03f33a8a034be1df0373965c03ce6faf001f99dc03f99c83014339cb02c0ba8901ff7aca00cd5a2c0050f15303bec7ff0344819600efaaff,
  0x1e94f202094d61015c2b8602b20328035267d800e63b44033fac43006dabe7018aad1702c529d300138424038ae99502b6418d034812d401dcd0ba016a9dc40145b5b101cd21f7033744ac02d1cefa0016144d02e02361022f799003c230be029360fb01056039008eb82200e01233039b0df803b94c8b,
  0xabf203f6176c0156d2150330fbe102e7c6a503cef7fa038666a100e84ad902045416002ac644001ddbd1024068430351bf9203acec83010bacd3001522810011ac1e029bde31010f64a4031a61470019621002fe44b1039ddad4034e1c3d0203625a031e8a9d0049cf4602e57cc300ff6f580358bb20,
  0x2ded3901fe174a0383762e02159e9d0079e6e40010059500e7a71f01bdb6490211b56501f6f9dd000ffc5d0070e11e016c0da90266544a027dc81d00b543e70057e63c035ea6ac03475b3001e932fb003f04ff01d7675800d98df3023d4f4702a94f5b035117fd030abd8d03cdcec103236e5d03c849f3,
  0x163189021e55120398a8b203569b130350b4060297f2e7011e0fcc025ce9ea03dbe097029344480037b4e60139acc001e343a103877d9f026893ac036f4a2c0226bbbf03331a0a02efabe701c3dbd50024d8760073cf090183ba110297b57303ee0e5902a5f00501cb9ebf00a75dda038d0425032b52f7,
  0x11b365010006ea01e16358028a141c003d388d0110a184035e16750181dedb03537534018171340036f33e00e3a31f0175bcd80222bd8e03a8ea740340a36f03f54e6a019aa93e020c9b2d00db2fad0008374e001d411b008162ef02bba64e030fb50c00314b970271abe1004ce6c702db954301f2c7e5,
  0x1c2e570243cfc4011021d500d870c10340177702e9ba24006d060c027d5ff6000819ab01ec2e8c0034a3f9024bca20026dc12003a8031b01cc2a7d007414dd03bb54200283d025031934d4025bbbcc001cdf1b0252247c0140eed201e27a910262202b008bb1fb0222e7b4018fb8a801850140000e2d7d,
  0x1bc36100967fc603313cb302b5935c005609e90313921000be41b90335b72e006ecf0e024479c70032e21901d3805d03c9157102da2ede00667e3b0233be6502f6aec302ae373502dd31d102e2f22f0007e238002d18de03193a5f01ff37ac0247d8150375d0350073a84002c5a6e40049052700c87d3b,
  0xfc35b00d4421703e594640125d39801343ea6013bfb8202a8dc1b02c34888031e6c3d00fdca91000feb90024184e20120fb0e0310b65402c7d94e03b5d04301e68c4902cf7504025815ce02f83fd9000608fa0386dc0a037c77e203282231021282ef00982395032fd53a0125638b01212a4502a0226c,
  0xa0cef00c2a66c02d4d3d2037239d503afd9e902c9aee003f0d37a01db10bc027549f202f7850f000a876f009f85f9008c84f402a3682c038c0537026e1b8200c5359d02d6207f02887e3a00ddaa4b0019d63200306b3802a88209036b3fdc00c671f002c1579202934d7d023b5e80020a3d4f02382ce7,
  0x3a9eb50395217502d774ac0109fe24019ac36b032cac37002aa8fb00113cd3035a3fb201ee57eb00275c6d0014a31201c7b50b008cdb6500cc86d701a7a787027712a500e4437602048e48016d781c00009139015bfc3002f174c7007dd6ae03aabeb602e7c37c01207c2c02ce4dbc00509db6037329af,
  0x3ebfe500646ab101928b04011ec5b301e23b63010c15ca00d2e731001b9fce007a932f0120bf69003ac22001b830a3022504ca00b42bde032340d903be30cd024543790321a966002b2cba0063792e000573cc02823fde010ffb9a01d9cd7b02786b5f00d69b1300625bbf021fcca90188de9000dfaba5,
  0x3f9c09034df3700360fb7a038156d900d0561d023d0f3601833dd103eaf64d00e8c2a203fd600c00294b850056689d02910f120289e36f015da1d001ab729d0347514b03d8a53b024d01ab00fd50ed000fabf0027c0ef303c0bf2e037021d103984d1c036c7e0800cd3893001772d00273820303f09e82,
  0x4bfb3020f04c203b6b8bd0340b163013f4f4602a635fb0082680202c96e6e00361d8f03e1568c0018036600b2c95e004e046a03d0fbc201ecad3f021c4cbf00ff67d8005f3a72035c9082024ee26f000d15c903c6b32b03a2066c021b79d103b2c84902647cc3029a80eb02d224b8009a6e25021e19d9,
  0x3aefe500141118032632aa023f00d0002dd784034d5d9c00f984f601a986e700fc0a4500b7e4840028f5d300c34e0400fbfc95020c2823025387ac0246a42a001037f60175187e03a6c48602322043002c689600d2cbe2015cd52c03867561018f1293006140bc03d56e2f021a8d72029b1b9d028ec4c1,
  0x1495f9025fb8370298069e0373c65e03f3841602b1cf640073aa50004b68e900f4da5600d7a5480012bcd1023cef290153bf1403075c100032bb5c02f9602102e636a902cb4ab0006b352e01b766d4001739d10034824901167981028dfa1d03bab22e00326e2803d0858d03f55473031e5e8b037e46c0,
  0x3244cf01d44faf031111ad010888b301b89a6c035ce8ca03a1935c0283aa4c02eab5110174f0050001ae0400e2a9ae0072485e01cfd92700ea799201d9f59301c5bc71027b5c7a018945b503bdd229001c5a3c0352cb2d02a90b2a01dcb1b90005033f03f9aa08029f8b3f01ed39bd0356fad9020c4053,
  0x19adb00ffdc46010876770156264a0309f3d8000622b7021fb57f0179d88801f1b94e020c3a6a00351d9300874bed03895d8501bc947200c51aa9036bb887008233f601bd2833035eb5a00113f353002858ca00e83d7403bce4960139514e03a50782028c571f015d7706028ba9e20103152501713b3b,
  0x12ecda017e3a2402455403009f32340260d6230394edef0223fbef02abcc000105ee3e01df27b4002f89d802df116c026e9bdf00d4335903af86b000dbb7d500bca948026bd6d502c053d003378e95000709fb01e80d0b016fca8f02a40f6c02015dad00a22c0a01f2014d039d93a60126b82603563578,
  0xdb14602134e730337555901164e0c0053f087022f477c009697b500c32793022f9394010160020031d821023e454300aa17a401d988bc02bc5e460218e97a03f824a002ffa9b400d4333902472d4f00391d3e035304ab0205eb5b00b24f390328254c01cac1ad000d9ec701dde05602cf351602e421f7,
  0x2b35a00234b24f02abc48c011772a000c0945803e55d0b00fce1de03b619ec017294dd0134e560001b9a8f02c88801017a89f2027ab72e0089fcfc0255820c007c56920018311200e8687c0298a8c00039495901e48c0303d23b2302f5653d01067d0800e04ea4013ec463029a2c1b00bb08d30277048e,
  0x3ad0ac0105372a009f4ef703644abe0038936300b3d82602bf479402b56518024d60fc01a29ddb003ccfdb02ae8d8500bb0b6101e6d044006f42f503487b7f03a5739802ccec6303d6f0d802d8146f0016415303812ce900f267a603a68e6902cc725a00b63345027bcfd2032c77a90092f121008d1602,
  0x2826df03987679004a1d40012c06fa00ca997302fd26dc038f6b990383a27f00ee0a2b024492890009472f017262e4001093c2027075c503b9230e025a9a1f0193f03e00ab56370356078700b11af6002579d2039ee311003cea6d03519066037a0a1300ae8e4c01deb004018763fd0082fca9015de02d,
  0x3ce7c20391148803b9214801f550bb02b93f7f006f0e1702dd86550271f0c0016b79200177d160000ec04e0204d41f003eb57c02292b7803a036b700c62c6c0198c28d02a1e2db01ff78b1036da36a0011928f0231ff2a01a98682010199ce0301cedf01408cd503236d000005dc6001fc44e4016225c0,
  0xf6ff603f2292f036455bb01e3efdb0333a83400886dfd0380f0270207a63e017a79430321239e0000344f02a119d901d66cb802b8d6d003086e28001530a00109a2070152ed5200e73ad20164b84a000eb8e302c5d23a02c3e09900eb48e703b8e7bf029a519201dc12ad01831c000243b39a02d58725,
  0x130c16003c6852018270fa02cf66de00f12c5a0384e3430113d2e00377aceb0398b4b301b412c50035f68801c83704018c26cf019451c603fcc2b30155d42900da71c2028b9dff01f5ad9d01a9ee5d00111a5602e63d200222a246020bb3e6032f2b030170ef72018f253e034e190002e6387102f61d77,
  0x1834800272364800c6268c00e500f403de7013004dbec7019f76c002da369f03542fec02fa876a0016959d0364d0ca017fe33d0324e7c50332c32300e5ab780363a91d0354739e01d852a603e08ec5003d73ee00c99d630209ad8e020fb4c700854a3602f12e2e000449a002afca7f0150d2f502dd9979,
  0x21a3e901a46c5c019827d0023c6f19039e38d202eb8e0301aca62c007b92bb000bf99200adf92e0028c676030052c602e198af0315dde800ccd26603d266fa02bce540025718f70194cb9e03fbcef3000586c1013f80c201f45b19037e9cca01e8988600b600b4018f3d67010182f503f214ec00593b19,
  0x3d7e2501d7735e01f2417101a5abd502475b5a0209afb703710cef021ecbb502ab340901939d5f0001c98a03d8a03e01a127f603cfdef0032f012c01948697013ac52402f9cbb80342a1e800b53d6f0031333003eed63402ab2a8b00c0c1f6029db6e600eb7806038f3ded02836748002880a6006bb00c,
  0x3d9a60011a480b000c8951022c61b900482ec7001f12550186be75010909fa0044a94100838f2d0009128a01f53937033c492b0156d2190128223903226fdd0015739800a88ded037f88cf012c3bec002a98f3027ccb730083a8270189024a01ff64de00b23852037e9d8c01452e12008e1f2f0304822e,
  0x2175a1000a0216023f609a01ba1d6e006d722a025834cb01c0751202129c0503a528dc036247b50028cc99037fdcbf034bbbcb0155ae2e02c9a95f0256d32a0064b67f01a9687802b317f101351d930029b0150246deaf019e1e4203e7842a0160816703c6264a0253fe47020a2a050343a25b01545177,
  0x3f84960381d3d002e66340016744de03bbf702026853b300ecc4db0073dd1500e59b4a00736e70003a0005022ef46a000bb79402ca818d010ca48c0260f80d00c9054c003192040007bca10293aed80006df3e010f41cc03a82cce010c3797008fa94001036b3c00bec1f402bb890701cd3bfb03e10af4,
  0x1d684001a3de1f026df0b6033e90ad0203b65803bee3f00284dece03699d21031f001d02b7980e0039ed5b037301c10092eed9025263bb011a56a70297ec6502fc50c8039caba6018a416302f6c92b000c94310211c4d902b5ac80007c192603068243034f90cf0009d7c20253cdb400a2eadc0111b2a5,
  0x1cdcc001a41e0c0095b724000626eb010d699d0048d6d00168a33b01b96097019b221601129c0d002596ea0387970100b353710176956200e6da6e02eda47800d82c6c011c8fdc0190553402b593b400176b76001bef7c0194e36500e26919016c5aca015d04dc002136d000cbb4d700dac88f02009164,
  0x1f0495039f53970268b5a5006cee0702b4ab0d02ed3f6d02d97df703a627520137718500c359fd0017528e02805095014bcd1a019f283f023ae68801fefb8901781e2a007835380208de1b0215f0a10030b9bb02463955020176e701c5720200264694023c468301da5408000978ea03619c8700b06eea,
  0x10449a03e5fb5402ec82930088972d02becb8e00faa2d102ccd1b403e3c691018daa44027e145f001c3804028d9e8c001ce98403cf3fb602d04aee0136e5df00162c7c020b6c360312b1fc00fe794800196f93014e2a450088b6e803dcd6fc01f80c4b0165e67a02f74dd8029e323d034b088d014969e6,
  0x3020aa03cbb7e7037dbe2801663c8501cc8aec0231198b02aee496007f0d6800bd1b06011dc13400010bd502366fe20060744d006f976f00046225003f7f20016c2dbd015c1d4202a83f7c03ee1d0200094c0b0132b5ce03c50a350263b6a0032ca65903924ec902de1fd9019d0b8a00889ebf0184e0bc,
  0x278c502342a9503a884ac00031b6a00d07dc90095cd43024ac5c101518e1f0214fbcc0331cdb10028cdc2017fe214010d2454005a514501dcac130029619503d0026901a1ef52010d4c5f0001b0da001c91e20217f210033ffe2c00dca72801e6ce2e02cedccc0275ee7203224bb802b38a5600f39e85,
  0x39819028faec30384d5e702c9897402254f6f023be0f0007ec77f02393dec002de59903fdf1ad002cd5d10371cadc018e3b7002f2b25202c1aadf02b2830b0096200d02a94320019bd7cb035b4bdf00240bf901d86d71033a4dd50026b261000baccb03f7adbb01ab957c0021c8f1039c6b8f001d7844,
  0x53a31028d620f00417a99039d612403f5d47b0243743903c3964d0254d5be00693d1d03232b6c000982ac030753b503fec633016bbb9e009b550a00f5fb0b021f640800cc299c01773a630005ebc500177f3203b6cedd02c14a3101cf4f25014b88d2023ab3d201ae55e40384853403ff23ee038e8ad5,
  0xdc3e801209d20004eeb5b0221b1f703260f35025c86c70198d6a80072c8d203332265005020cd0025b7cc026c920e01d63b16018a56b502e579d40170b4f2033fd8ae0004f87003328c0a00e4138d001dbe3802b75fa302a06cb10225be4703beb97a00a8e5e402543152022100e40381b79f011d192e,
  0x2d4de7025e9d0b03ea27520097e3e8022ca1010371a66803d00d2d001ed19201115b4c01c5f9f2000aa822007c576400b19368034169470392df24007bfd2600041f67025bc6f2033bfa9503997dd6000851d101f8f3fe0116a89101f0c75a01d6116b01b33bbe00fdf791015a99a20080958400ce2392,
  0x27ba60342c8400031f4e4000b8938033b70f202aa1fed024f9bf201225e87006adc2502451edd00119a2b01e2109d02b9a7cd0123f44b0311a13c00856286023c9477011f7042039d5bfd02c9e6750032c5a203a9dae1013a8b7800d99c82006c5e8200f11302033c5eff02a856f40090c7a2033644fe,
  0x7efbb000dbfdd00dbfe8703c2f41c016c4bbc037766fb03d36b1c02daa51701ddede801ba8848003f33fd0170f08602cb912803b6a80b02b34d7e0049be1701840e220294c0b001f9a7ac03df39a10020c62401f6813a01d8b88403abc786010f4bf20038cf5f008711b9007fbcbc0184e81400b7ecaf,
  0x1ff6a50090673200af57d503b7d9ec033dcefb02295e9502b0a6b402e557ba02546a660058b9b000147da2030ed8a703efec66000891ac01eae2b8010eddd10001690903ca7353011bf61d015922c30032f07f0000856f00c2888603d2be46010c37d6012f965b029c161200b3d56d00ec03ff000f867d,
  0x3fe51602180abe0278deda038619910088ca97038246bd02fd6b7102b7134a033fb81403cc2cf4000a1aa80214bcd103b9bcb10020348100f83ebf0075b47c02fcf1dc029c7ae2005000e201c265e9001e84a501e0dad60140977e0329053600ad478c00b11b5902ed674a02fcf5c502693bd60194cd0e,
  0x30cd8300ac605703eb172b025bbc24009d5f3e01c273d403ad23a40266fd1702139d5703685274003b49000399c673020fc89d02cc916c0318b9170388aee30245b3420035d250011dc6db0103eb03003e2dc0024b22ef02da5fc80278114b02c96ec1034866aa0219477102ecd20703a3815000e0b0a3,
  0x2c51c700a62d99008782e9008f1fc9004d55c700b4da5200a887a2038a0e1600d884b103ff0f2c003cfd6a03e15524007ad4b400fbab4d026a455a00852a3e02e1f212002c914f00d57f4d02b8281b0013cbe903dd599202676ae4028acdf903f9978c0298bb03039ca14b02e99cee006711dd00f64c8f,
  0x31a70a023c105b027a245102d65d3e0302b5720008b37f00d80c2302f67f3102b4dde1010a98130023c04002484eaa00a0e7a903d4fdef029c781203e7dd9a03f65fcf012a0d95020550b10320630d0016b9150238b9390112908103ad6ae901049fe9030bfcb3031ad021023015a40226022b035c8884,
  0x31173d03e47c5001930f4b009207c2039e6764024ba4790258a4d503dc8a7f02056f8e0268f7ec001e20bb01adfbce036e1852001e34c70271204b0216b3d200effc9903d0a18500c375dd0214439e002572d700a33e46022d34b80394cbdf016d04150337df55013feade006d904d0174df62013cc390,
  0xd67eb00928585006ed7a001ff990b01ac976d02ef81bc008a76a601751c750163798800fd941e00220cff009b173000d9881b00cfa1190152edb300b5d39202ec59bd0235cb8f006832e6037835550007bfe10354c4100316c30d03501d8600fba542011a4934004b2c860295e3800389e3ab030a8688,
  0x34e0bb03dbddf90088674900d34b7f028d970d018ceab201de1a400055439002fd2462024109ec00347775010e3812001aa123009ed70e03ed25e601438b7b01ba8a0900d081c3020559c6034c7e7000059b0001932272032527d401951554028c708e033a2cf1017b14a8039047f10308a35a010be175,
  0x10761201a51034015dfb41025bdd940076771000bb516901c58142008f949901ed308700e3d401000d3b6f03fae1d30001d183036e7c2802d1800701bd4b7d000789c003b15a850027eda602310848002de35003cb2a5a02340eb7037f04f10289c0c001d837bb0077e77803362c390246102f039e4c49,
  0x26c9a501538db8021aae10012f8dc303ae3e07024bc8e002cbfba8033f97c702ceaba0024344ab000e43c4032337f3024950dc025235b4006168bc012b01a801337c4a0091570301b87de6034e42d0000d3839024fb4e202180d8f007d5b6602fa0aa0010ffc0f02ff96a902e76c1a021e1f00035d3a15,
  0x1ff37c00485ec00129d2f0029db04602590d0f028a0a0403c3c06f0345175f03bf6e9901c6a94b0008c4ec0035d57e01a0d4a001e9acec012bfcbd00d59870008dee7e03ff8820026b7c51032c37660008d7d4034921b801a918e3030edaf6013735de02edd086008905830131bbef006d2e040101c3f8,
  0x22e8b9021917d6009febd1025c1c7d0169a7e40221fe58015555b201fdff020376327502d74bef00089c3703fe8c4c00e23e0000db32e9028f80ec00c6958d0298aa4600d5f9bf00194ae90358dbca0015b740014576c3037fe9170015a6c10138ac9202386ae9005b6bea014d2f9e00c40e0703c788cf,
  0x32addd029d5e5a03a1092601e58ae30163da75035cf03b0018540e0152172203783f49004c9d36003be2b60268ed95034cfa45008ac5b402e6ae9a02f088e900433a480380875101ad0c0e0172cd6400199dda01bcc4d1010e002d027d6f2703be98ee03fb6c8300b2c75001662d320132b7bf03644ad9,
  0x3445c403b38afd02ea80db008995f002d9a280010370c5025b19d0030f917b029497e402b222710023ace902735e7f0046a39900347654021cc82f00acd210022151c603e2191b02569d37016872d60037f4f203cdd85b033375fb0368f4c80235ce450066701a009c7ab6019a2a78009efbd400e9b729,
  0x2981920152f3180250f0ad03da1cc8021187e300bdf6ac0244200401b9ca9302a8bf8003fcc760000d843b00df279801017d4a02a9949303818dda03b46435006f7e11039f5c2501c2dbdd0148e5b30034207c01db7d19020eb3e302b1eeb90128e7fe025bb8de020df5230344ee650212a6b7026fcb21]

/-- secp256k1.go:10, serialized bytes 952320 to 983039. -/
def tableRow31 : List Nat := [
  0x0,
  0x100120eb6027726a303119576024fbfc00384422a00fd17b401229a15014199c401f423fe0310d4b8001e6f99027ef9dc02eeb1560206295c03a1c2c103029bfc036cb738028d959f00a056c502f81798,
  0x241d6d00ee4d4702232aed009f7f810308845401fa2f680245342a0283338803e847fd0221a9700015a4560049f52c0323ddbd01fd7e4b03d836d20243bf6300f86c4e003f85fe0224592f03adcbdb001f454b00041ea803877086011843d103ea76d501b68f8803fbda57022c791d0101112c0365afc2,
  0x9217d0138173e011d1dff014d41d6036de7e503890a7f034d12f70129020b02e335550136bb250006b5fc03b00bdc01aaba0903fc54c603ac1657013f5b7c00fed65000c165220127aeac02ee90da000ca90e03e6c1b503eb51d60143a45101e3083c02f637e10359168801880dbe017a358f00226120,
  0x30c9ed01d2636b00cbc9ec0051e47400ac6ef5013244320304002f03edca4301a28a7d02654152000d3ee00147eed10303ef8a01ead4d60311cbad00ef7b210247f78201e494b202a6117f023f605e0026eb8b015bac61039ba97702635bca01d52c95024b7d78031149df00ad67e4017132ef02a6e706,
  0x23cc7803a1ea99020d1cf5034e94f1022301ba03733f3d000353f8000f935d03c67882005d08210000945a0036982c0247306902e876ca02fe1880005ce36d037e81a1013b1829020bc93400cb4f7c0022305502dc6ce0022ff7af01ad85cd03c81bfd006f829b03dfcc3902f1853b03b8c02502070348,
  0x15ab13035ed26103a5bc4602b99c2401c8dd6c03996c320191db3c010faed801b94b6803c1d53d0025559c00f4cf01014c0fc50039f58000d50c220020bbfd02f63339006f5dd801aa043503475f19003ebfe9003e6b9800abfb18015bc04800b1519e02d4d6ed0363dcf901600c7f009b84f500210c6c,
  0x2808520367274301c7bde702d07afd03bedf9c0125b865020eb3fa002d2739035ceabf01ddc8a7000b20d4001729ce005017f1033a38f70289e3d002493e11012c26420353bbe302b667d402c0548b0005f5320199d0bc022a287803bb4f60037e4af501db2d410085aaa4015d707a02d6419f03ba3ed3,
  0xba0b4028ea49d0282eb8e01c561e6032e01ce02d7e7f003a6353b035161570287e1fa0203d0e6002dd37c00c213710275cbf903feb0320072fac201af2bf301996a1e0206743f0203f2c8010377040007f67f01e65b840188e899017369da002e4e69026f3f5d027d89ef019c75d803f8e47c0097aaf9,
  0xb3de203b9101a001cceee008a3eb30295d44b018a9e2a00342480029e829d023b70f4025ffdef0017b4350224ba6c02a6789202415fed03897b7f028224ee00f86fc303f39955007c971000e37da3000e83ea027c0e7b034111580364ebbc012d43640210a6750279a8a0001d3aa601993e40020256f9,
  0x3370dd01fe554800901de20043205a02007cb400a63bc503f6ebcc018dab5003bc629f025065db0014a56f0017c2c5039c1f2703c881100283b9510215f587006f3d1a017e302401d06d2001b848210013dca903d24f52035c9c8702b6bb940396c1a102a19cbb007a2303020d036200aed55202f48f0d,
  0xe66c803bddebb007b5f5601b14c670125b7e300df6d3103e45259035a379b00324f48002eba0800270e3702fe2d340347075f01bf2c2600f67c96007554f4022a8ead009602d6004ee9130169414000044aae00f3830a018cd460018a03bd007bfe4500bf9d66017ad3c9017ce53d03086afa01fbd470,
  0xe480100bcc79701d827d300e91bf8031a1e75018472c40006e70f03b166b801cd55a3018d8b30001efc9201667875004d4efa03efdc67008d337c02257db00149bdb801a05be2006d91100151bf4d002ccd6f001bf97d014935d203563af2015f14ca02982552011a7f5301fb2ab402c4a37202679c2c,
  0x3e835b03ce7ceb005f6aa90265e0d100e1133600ed467f01d969e1014f55de03aaca27037d60e40029429b00b3f4f20020941e014cd70d0362b21501fb3d3402992c3a0143e25602f737f500b7bf6f002f6aca038315d5010c754d0189d2b3001cddf7015506bd028c3ad201b0aac901d8cd7002248c55,
  0x2153b02b0138f00e107ab01fe36ad0059e040017bf1fe02dc6dac027deb5f027b9fc801d4fec2001beb9e028ef1650278c2050306cc5b028bca2d023db5bf011c967b03f5881803665ce301914b8d0020e905018ed3d501f5fed0025b444d03485d390375300a01a2829d00b127a50309940701ed71b0,
  0x1e74870060a3920002bec3027ecf22003ba5b703129b4c02f0c1cc00fbd66f01cd665e00feeb3100354315015723c403ecb43f01646d430055bea20045f0d1019fdf0e011f400b02dfe42c01243a0b000bb575021a4aed00574a150221338001d04db9030df79f01472d0c01ca5a8a033592c303b6b2f9,
  0x2b3da20061945e03d3950a001a5a0803356f0e0108415b0394fd5900595bac0355ccf7000a13b70009596b0052cbec02fa2adf00da3f5300ee713f0233bfd20056ab2200e1715b02729a3f004be1ab00269c3803267085020adb20004adbe8033296fd0128090b000618b501fc6ffe01902c9800be591d,
  0x1b7206007aa932007def7100fa1ce103385f9502be09fe02abd30c027aef4e03b0200e021164610010d53a003a9cf302bb551b0120b4f1005fcadf0067685c02072b9c00911b3402ba5c8b03d2f0fd0034119a03e0073b03df3ef702b0e1d703c5a2c50299a08e02c52c190326223e023eead502856393,
  0x2b0d8001b66d0a010fff09003c170a013ee05c03c2a9980299ccdb0204d83e019a42ba00df01f7001eac750140f92f01b080910266415c0290dc7003e9fa3a0162cc7302f7aecc01d416fe02af76a8000674dd012a4a2d03004f2e002a308303101fc6000adaf500c7826201261b46005cd0510372f50f,
  0x1e14ef00ce2c6a016e4f8a00bea95f00596b9801f7846e00871787015b5328026c4d9c03a55e4b000aa9e2017cff8003d311f60272e3d2028507b201034d7b01c9c0c000d8d29b026c96b1003892eb001209430133645100e37015003d60be005a2d1203a230180284369c03d2208f02e8c11303b627e4,
  0x207cf00167076001e3faf70060000f0305628e01406cc3020dab7f027b33c4034c54f102c1a3760034cb3d00cf5ea403e558f20027cc77000e84ec01e77a9c00402a1a01ccf60900a246340262d21e003c14d0027c53330061837c00813100001cb756005b1dce00a416590289758303fb9eea0243941a,
  0x431d801b0101e03e1e56b00232ed10272b056023074c00113124a011a62ca01ab0b4201470ad6002082be0308100103a535bb03b38f6b01e6379903c3ca44008584c3003de7c3013121cd02e4a927001b09b401c8993503f28f4202d12b04037fcd7b026267a40131c028024e0791008d69b702ed9c31,
  0x1f6ef501ada54401b614100265ec920169d92803f68017035a39af01afc5f001957f5c000eefc400309f230113ab2303fb22e503719520015ed6c801191e9b0382703a01089af50346717102aa126400247ec10026fd1a001530db03b7d48c0302f973039e20d803036fa20157e987016292740249cae2,
  0x6980502e1fa9f009d9d2b01b0441d0032ac0a035db1f6016e8e63033b414e030e78ba03a41c110021476401328afc00d4b6de031ba4e2020e16ae0393d55403f4075e0145470f00f908cb00ee5eaa002378d10244f02701c071900104e5040254d4f80351da30036b257401115ae50123470d01d5935e,
  0x30ffa4023a277800d6aceb03a4e73e03e2c2c8016a56f4013525810305cb46026fa13003de59210004282803653dce0222b4a30317a1fd02083b6c0291d82d01ce24240004eb390363f90f00e31030001123840083f045037f86020180e7b602a70f2e02b9b40b025f8b3601da9ccb01e6f04c0046ed93,
  0x2808000249b67d035770180206497d02f5e3b403dfb0660349e74d008bb00c00414c6701c71208002f738503cdad3400b45f6a01ea393303e03cce018cf3a100e211f203f0815103ca498003856a640022170f03f2cc3003b1c3fa0274338a023ca57203bdce99038e8c7d0244265401a2ad67005f10ff,
  0x1ee585002c45aa018bafb30087bc1d00f9c0390389bd3d00515caa009b7b16031d96c501697e2c003c8ff30306351e02b6c51a00e500ac0354d86800e864420232772203a72a4f009d115c01184cb60013c3ef03c9e70303921d0f035a736f01fe4ebf03e48aa9035d924b015a8baf023ead5401927b1b,
  0x621dc0306477502253c9c00845fc603b581a7020430c103c4999a00f0a45001971652001f79bb000f098f02560f0101521f6f024ab99801d6b63e01cd83ac01e3e93602f3b42c0058ada501bda9e10015ba2b027a0fdf0094a4f4028bf6cc013622f8028527e7030afa38000a5ab000d138a000d9dad5,
  0x3087910272678c0320225a00337d3503e60cf100a5cbb3014e679c026178650288389602123d860011c84d026b6cbb0174e1650393ef1e035440a20314ac720349201e036d7ab40146a0eb014a904b000a830b02cfc9ae03988b1101dc4f8b01546cd7028fa85d003929ee03c78a1302d46228028b65cd,
  0x3b78a300a4d93602a5c9dc03ecdc770172ff7a020504cc0128d44503a953ac0390bdd50269c03b00395117031934b2037f5c31009c8b2e000ca1a50006738f019577df02fe6ad40186ed4f0379146900355381032ea27402ed3ee70311485b01138d39036179ce03bb881003f6ff810216b60c03ec8e0f,
  0x20175701da89fd00fc167101249290036de78f020a36500157fff303e59b1701694b1903ff4e5f0035fdd50363661e036a746a03b3e3b8005e7107007a55370021479402e50fe6002fe00a0209ac51001e9452010dfc9f03221420012708680269010903896c2c03ba071f0007316e002be388021e5ac9,
  0x3a696b01ea8919008cfd1803fe7eb303a6807f008cfda8013d14db01eba2a802e7df47032ced3f000da53401cdb66300318d69017acda90057c8f503d1db00037046e600d55ff60195881e00574c8e0028f504009c70590278b6c80061c987021fccaf01ac0f2b02b8fdbe03ea15c203a04d4903d89fbf,
  0x33fe01009193cc03e375f100157cad01b8343c031111e603a12f8803fbc78701f68d390056ed280000e81a01846a5101028f8900337718000ab45800b0af1f016673490152d75e01d5899503f2d7140012728a0287281200740878038155e802eb29e602bc4b33023a2d520021bb0701b0462b0344cfe9,
  0x2c620202e3519b006e76a803ea194b02f00f6f01a71b770250f9860017b71d03660d6a014d32de000c76df0365b6b7013de8bf025278e002ea364801d52986029eefca027290b802a261f80205f2990032f798012ba17101561af70126a69200e9e6bd01f52c64038a8d6401a664a10084acc303c1c3b1,
  0x2543f50075de100131302802c0696a0326b61703f5724b010b41c40235a15700621d2903af33310003c9a702782476021a1bb201bf826e0296c8410090c2730388f746039f451b0174593800b409070030247900948fbb03d0cae301668d820265c935037db7e400238a4d000461f6021fa10203000a99,
  0x2e450102d9b4a5008c592203d1244a01c635ee011f8ef201cf6b73031c6f61008fe2eb00aed7ed00055c6702d5077b00baff6001d77e1500e249e8008df2e303d5dee0016f63cd01ad01c90137273b000e384c03faff230389507b03f067220131510d01ad897603a1c47302f4065c03918fe7038c9e79,
  0x17d6da00e79144016c522501d0742d0236a28401163671019a1db80384bd87017bfbd803a98997002db30902eb64ec0014d07a00bb235a03f41a3f03766a14020b2fc503871f410117f6830100c77c001fc4cb0360b4a001961a110199dbae039c4e4f02e26a4001d1b0200352a59202b9fbcf000c9598,
  0x20566e027f065701d1c3c401f5b56301ad03450258327f035a23d20225f6a100aadba0015978d4003ca2d201dddc5200e32be400d8c018006d068602f1acf0032bf0a7016da82b03f7975501a81d250001005601f45a76028ce23102f8fb5a023227ee012acaaf0331e599035237c103bf4dbd01e83744,
  0x9859300e5940401480ab902781f86016e993f02c71be301dc83760258aa8300f4eb260271931000113e4e033c58db01bda55001543ac101523830013bff0b033923380167ce3003588ef801c7b8d1002a043d02d81df40240fa550018a5e30001c1fa02ac36f20152b5750272fe2503d19b38014f9f0a,
  0xcdeaa01c0ffeb02ea4968021860cb00486ffc0288e74d025cb1410158a3d90303902f021f63af002ddbfb01b6a6e300918d9603c3f44402b5e59e01a4afc00037f88802d6f15c03b46e9d0157f52a001ccc170347e042027fb01602a9bd0c0202c87c03947f980295eb8e0109c974033fca0e019fa82b,
  0x2e9965025e04c0016c8e5403a830b2000f8fe5027168eb008a8ec90012109000f6e8d2037af230003baa8a02ed6a9903bb67c3028a36400006a74e02ae15e9003dd07601e5b9e00376e649012b8b35001896640097bbdf01624c8d03e6132a0098650c01f52bfd03322dca0201cb4b02df5c9500766e3b,
  0x10155703a438f900059da300b7cbff00ca76bc0105b9720160b5cd02e8672c0268e20c03e7727a000ef8d902cc9e82036ccf22000fbc2101a5b02a0031ab200210f0b7011c07a00274e32301eb3e4f0032e316018a42ef003b548903071b1803b3e89503541584024521370257425402a4c1f50294dd45,
  0x9efce027104db009d955a033bf0930396aaa702ef9c8f019d64e1017828cf0391cade0352a8a9001251120222c785020e3fa90242ce7603ce7464013f734b00e86819034607f90278cdc80340071f00379be6019d7de00241c8b1017cf9af03c222680046d8ad0302c8fb0095ae7d0230109a0053d057,
  0x1943d203bf501101608f3a001e032901b79b27017530c503f915d8009a3e1e012641fe002135260005b453001bb496030284c80313bd9a00aae60900cabe2f00c3e65203ab18bf00113922034ec5f100025241014d4ec700763392023bff1e0242d2f70308357a00d7d18c02f1308e03e2d3a10026f996,
  0x680f4015fade7005b4c150114111c0007093f011ac0cc020f735b007625eb026018e303a3f7ef003d1ffc029421a7015a62c303143d3c027a2d190227f1a50348dba3006aeae8030a8f4f0221f8870011bfac01cdc4e202506a760050d0a202a1ae43036a4e78022d4599016aa2bb010491c901a2dbb1,
  0x123ac703d3476e022629520346d66c011cd62200bb9c36031eda6000afd89d03a2ebff03f0ea310006113003fd6631038a5a9100e745b7021e479203bb5d140115d877013f5107026f94db0154e82d001974e201ff558803af9f3600afc2db002a913d03e837e3011525200213ecdc011bf7f8006b215e,
  0x3eb47902a024e30252f04e0277fa5603a19b8b03619721035723ce01f553cc02263ed7006eb38f001753ec03567e2b0105e7fc01bffccd01acf73f00a3686c0267bcd10340fc0500165fcc022ba65d002a771503464ffe03214f6801683b3800a96dcb03f96b9b0190938e03462cd102b8864401447473,
  0x17f154033dfa1a007847e00296616401531e6802d8d7bc00f7ae81015ce89201e63d050396ab35003e56390283e1460374f732031ff66201d6f37502281ffc013a052001ff0c34001a040c02f27bd60005592a0176938b01b3ceb303b18c87028ac7a2035b267d0319468e01fe538e01b9adc502057c82,
  0x70e7e01d60b0101d2237e021a963702f60c9302ea9d90001b135e012480f2031a37c60221ff0c001665e702c054fb01fd70d1001f5c40026cea1c00c1eaf8037fd5400175031f02882553010798ba002a8bf002538b660182339b03ffd07800b7e29c02f39dd10242d42e00ab820a009f02910303db08,
  0xa912100f07941011b388001b3652103bf947702c1d5c302ea742002c8032d03dbd5c50367adc40005bc1e03f548ec034cf93c012d1c160099024401808a1100ab7ee000f08214034cf7d203dea49c00318e6203c8fc4502fde2ad03d884ab00727f0300d087a200206a63031a0b3a01d33a24004a1989,
  0x373c7b02ca94470025ecad03085a9d029cafc103f4c7c4018eb0ae02f1f7f700406da8014540c0000d302300c5d0fc00866df501bf18d2027a3ad5039636bb01c630df02799dac00b87bb602473ddc003e19d103afdc81036cfef401af1cef030becff01e9314e022abff701fdfb6a0081b83e02480701,
  0xefd400094ef160119730700e38da70266dbfa02f6101c01e2f51f01501b4c0172371b03385455000bf92f00e59b81032dab3600dd521700309cc0011aefd9008d149801c8129a021cc2f300015990002c96540014ca0a00707e8e01e51ca300b840c000b82a730115500900112a3101e0bcf301a26887,
  0x33aab6009c69a1008662ba001203be00ffb52202ab259403a4196c012680660017b5ad02438b0200019b6f01c20f99001ce4e80126623902838c3300f41c2d007fb05d023f11bd01296da90212da170002d5930238042300027d4703277b270397d61c00c85df10121ddaa01fa7466008f7db4001ed95e,
  0x181f630371a108010426e802fc600e036eb7b1004951d7016ac38200551a140128f16c00db9d8f003684be001758af001f6ef302994f05013674c501bf9c81013737eb02614c43037f81d00000908d0035acf70052b54603fc243d02aaa44d03b128fd037238a803074dff00c41b1c0376804802e08df0,
  0x20249d0182864d0164ea4a00774fb60359a1e70263cc5f017616ba020f5349017fc3cb0134ce3c001d72ad0252b25002de8d740098bc780252795600106e84026032ab03483ed302af96670098c4bb000783d9009188a902f601750163d5d0022449a6039074c60061080001e1fd5002d06044035addb4,
  0x3209ee0307118e01ae4d9502a493d000e0e44f00c48ca703a26245013feb78010de83e0305ab980028803d0241d5a202c1abf501dc3ea20259920d00d3c62f00ad21de01a4fe9000687dc202cbff61003ff81603f3185601e217aa02e8bbd50001604502a92a46018b52dd01a0bed101134d9502db833f,
  0x3c6ae702be86980242ec2f03b694f900ddc1fa008aa3c3025b59be004bc7ed007ca5d9022203480021869a0270c705026c0f5f0131a649010bb06b0236cae20005d57f0395663002853e0f01839a6a002d60a000cc72b4030a8a28029875a700cbc01902466c5802d42489028b549000cbc5340350a398,
  0x18be83020ee5e5002684240172517501f17cf001263d7300223d4902c373ee0291de9d028c8c3200367e5200e4097403b464ea010162d501c96bf001e93ee603f8eff602eb6adf022d8a5601ad93950000eda2014a604c00d3b9ab0131743b02f7d988024c59720226427e006132b1021a1adf0272b8af,
  0x341c5b008e3fdd037c8b6d01aa2375001f39d203e8631d02abd96503f4fda40340806101ddf5a70037e5d101309e0803fe239901207e2101b94e3d01c6c203030438f602649a6a02a467ed02b70832002a302a02d115450269889303426829003b38f7038c7f83028258b702057463011bd13d01c6f432,
  0x28efad014b4ec000b2d24402b3c0a800e9e00702cf961b039f6c040036839a0198029b029ed1270011472602c3f7290230a61f02c352ca03be036b000673a6026a1a88022eb55d01828ee101f6689c000bbcb7030355440052fe03039cd12c00d191b7030f397a001385a3009a126d01f06073030f27dc,
  0x32440203208a690185d94302eb9fd302cb244c00fff68002831f9e0368a05a00b9d75d02db375f003853ec00eacd8503f98e65039fdc8902d66c4c0274a6f101c02f81017e7f7a01306a7803a9fb2d00122a04007353d9014a7dc103d69c4903555b970274e3c802fe9fdc03075eef0007f887017e5728,
  0xdc96a00492acc03f5be0500894ce7036ff71d03b4b4e200d6aba0001786550357651d01074e2e003e95ea031d1b6b015d41dc0247313c00f3231100fc4a4f002a1e0b0085e3c401ec8c0800fe4f8d0003b17b0342bcaf03119ec40244c5ae0379b8a3000cc60a019ed2c702edd4c801d836da004c0d83,
  0x3ec00adf5130224919002585f5d030c58a002e8b59e0021ace9039f484102a4dbd102c1e1ec002624390060b02c007c18020162054203a544b9009680710349ff130275e15d01b97b3801d184e6000af0a202b9a11403ea252500046c910377dd620290fa88034e93ea0068b2fc03a236c901ad6d17,
  0x3f16d10133385c0024386702d255fd00257b390135cd5000233ee502649623002129520140be7f003048cc007cbc7d00e64dde03a5c383015c20f6026a08c500f4fc4e01a4856f00252cb2039804a10036eff60343c3dd034f7920003b5f64026d6d5c0351e4f100ceae6200807ba30311166f02835b39,
  0x3b89c6006d79410080149700667bbb01a8f532014b92e902cac068015f8f1000deebb103f7913f0031592903c070580194f45a0372918f01d33adc00933f2e03c6781d03c844e2000d48eb03a876ab0032f9e2000b28cd00701d48019f7078038b45cf00b9482d0135832403f60e2402be42fb0209f30d,
  0x11ae4503a00339029735100261dc44029d1777014184ef00f09e1003d77f56003aba0f03bd072900141577039ad7a702dae36003fba5e6007081ac03d2c3f701b138fb039acaf001cb8b9403d5ee7d0027150903edaf250122b04e0324397b017546ba004daa4f033f5b3802b2a232012d5bf20296d19d,
  0x1d102d01e0ba170146f3f9003651860095189102817c8f0125339903cfabda00cc5c930157036000189d600169c89f02b5772b033af955004f4660023c90e9002e673601dcaf5c0357693f02ef639800169ffd03aec5930266174e01919f42006f2cb7021f694a001f87e700c213ea005bb019005f97ea,
  0x3e37070255ca3d00707d23039fc60a014fa88301efd65300af3f6501f97a1302cae02e01518ae8003bf0bc02ae749302e85fff029efe7b00f229e7026bd6fd03d9505e00b66e9101bc5e68006ff2c1002de66701daf1840239965c02b3f5f900aa0666027899ec0144e56e0211a8810354ac8103b89001,
  0x2b79c202f6e4d1008501ab00b3908c01cd58ab01b1c5910299b228006dac4a02fb11b1022c2974003111ef005dcf40004c9a28006175b80328829b0026b73c006768b5014eaffc02d23bda010d5fae002264dd02509fcb005fa53c02a0d7bd020fc50601acfdd60280831b023773b303ca6f3a0255b66c,
  0x271ed600d7ea74035ddb57029a382802803b2802b569db034d2fee0201b3af033c009703802b16002ff4040148bd0400d69c4d019a84b702faa60801e8293002a2da770129de5401055f54026a18ff000925b202462925026e0e8d007e566b0254f867018ca7e302f131e00117e7aa02ae719401a4f81c,
  0x3c9af1017c360300ad503a03638dff024cfe0001078e260130e4fb02f63c2d02dcac260371450100375af50254115300ea1567008873650398e881030963a701fb1d2901df98ae033b113e005255aa001d542a001f17c8007cc1af0252a5ad0299acdf00bd41ca01d1bb2501f55fd8019a3b62002c29b7,
  0x649230275556a03b3e37702c7b74f025e286e0095336f032279c501f3cea803045b4703645589003b510d03b2048300bbf2dd01c48d6e01fd3776001f3c6802c1a65301185fdd01c97d9b02c81466003809050084473b03845835010d2fae038404e602a8a71403ad74b803c987290108571a0342a20a,
  0x18446b03fd7ed1001b37fd00393c04026891e3021025ae0068b83800d0477902a4668c00aad6c600110fef030ba82a00dc38ae01ddeace033171df0046c1ea016cf6b200eaa57d026a2fe9017a0ab600001871010cb219002f0123031efeea01df987f02a4283d02c82114024b7fa701c04dfc020e409a,
  0x3e0a1b0270ec56008df59d020242070192ca840063bac900af46d102cd70640136faee0062483b002b18c10048bee50048441400ef7b9c00d1a402013b13af0079b97702afb40203897bde0200d8eb0011c41f00fbe4e002aa813f00a0c347000f4a61006ec66102a9cffd03ff423500c5a54a00760b39,
  0x6f47002a9b0d003639b17002ec83002385f6d003b764300aeb05f03c6e985026fb27e002900f0002b5c82005ee8fa025e3d3c027fb4860160d0ac02f43b9e00e9fcd902100cd4001ef047012d52840014c46301c571ca03c5b4ce0009f13501b367820001c9e9025f633702ef590c014b319900ddffcb,
  0x1f4bba00decc8901bfc91c030cbe1d01a19fac014bb79702b783f3005b546501586d1502422ab10016c674026781ed02a187d402f25183009c00a800320ba403ed08af032e85b203322f6a007970e500376d6401e1133a01d233ff02d3acc6003e466400ec397a02a1c70f0028c2fe03c0543e01e04a2b,
  0x1457ad01d5e98e022a376101e68aae022a64b800d3b9a403d2bfde0126fe1100533cb700ddfd6900363c6603ff6fde00c60ebb03f9a06b01d557cf02cf77b60019532e0176917c026927f803cded37003c0a090208c7760272e1e703ffefa80189a222035da53b0246520c032893ff02fa8b800211396b,
  0x24a3d902bad4ec012caa070072f3ec02496ed4039fe2b60350357d0180e92402e6e3fa0110c6b40011456d006f995b009967f6011d8549022c804f03646fc3028e0f1a0192514900ff07b302d98174000e05900260035d026ec80402fc6bdc030a963c01985dac02efa18d038c700603e21ded0370f584,
  0x14e63d00f0b82103c9357603482c7d028772c10348d69e035a9313025240ed00b73ee8038588ed00152a8600ab91a003cdcc5803fb63c90361974e00187c7e015084b700b9c8a00362384803ddecff00127600026311a500969c5d00c645e500ca704f01c3df32026f1472033d367301f2b307028964c2,
  0x2a9c9701d4ec0b00f7bf03002f182601a00faf02c4834001c016380397162e0017fd2b00012045003ca26501d06e88034293d101a5e6860257baa002f5e611017023b903159aab02f0704403fae9c8002568a701cb328703a003a8003ea50d0281643a01a0706000cbdf6e00ae9ff10096856602a94218,
  0x2a657e019a2bcd00f4cbc50304551f03576d9d01afea780144c5cc0310e29201dda7b803f7658100204bab01319132024269330204174601caa3ff02381176020eebe400bccf0701eb861303afb32d003553fe003365f10298f5ce025e2a110373c7b400ae6795020470c7033f9138007f04f301ba6941,
  0x11c71100193bda022ee0c50316629e023ab42c0317cabf038adaad01405314008eed3903f3cb2e0039ba90007818d5020c194a01b20a650242ce90010fa62c00a282ad0001ae2e01627e2801e4c3080002f15f02ce80680071ba6d00332fef01d595cd0139439e02637b6c00d68d2602f9082d0069e2f5,
  0x32f3200110d270032f59301ff7bb600fb116d0161627900aefce702fe363f02af507501cf8f7e0029f74703d784f2011c5bd1027fda34021ef79c0159e85902a4aa5003bdfc35000eafd503514c88001305460025290c03ca893c01ec189b03e5ba66008fbd2f038e7c0c01835a3002e6f09100f495d0,
  0xc6bf901c7116402aef3890207d791034c1f0703435f810108c9660325e3560261a74a03cd4ac5001c7d8901d08d2703bbb82f03a9c64301ae62c202bfe3d8039956fd00cb0e1c029d11170263f8f3002765d80022cde3022fed9d018a489f0205d9d7026f97200199791402671d01027f75590128a254,
  0x2b81fe0384d7e2029c7e3f0023e59102be6d3f00321cae006e468200de501e0214158b012398820020d6c7031fd47e03b3eec200a150ba009ed62a03596b1903ccdcca03a057160368a7db0253ec5d0004adbc0255f9a3003f94be01559a5f025de275019b9096000454e1031dd85300d7196c001193e2,
  0x3833bf03f3991e01e15022003a752301c6d43c0245b4df02f97594029003fd03388da60241a8a30015eea102afc34800985eeb011fc0f70392ac2d00acb52b01facc91034fa44a01f9129701f064aa001151ee017a5b1000354c8b02eefd6002ea89cf02d3ff7800c6f0da00311b8400ebd3110084a0ac,
  0x3444e8037f921f01e9dbe1032e1490020afcd203e57d5303d555650127e08602706c590243a5c9002393da016c2737033c9cff03ef004602bc7c34027ade9e030bbcca019855db029c99e502c93db50004067e0381950900ec291d01ea9f5100a85a780295d90503b16eb800b3d8790272e0790330e0b0,
  0x17f5100005656802ddbf3b039d723302936460015104ec0351440d032f4f0e0148fdfd00dbed8800249bf40133e6cc00e835d600dbd4d303faf405009be6d1036558cc005f618a020ffc550167307c0009b5ab002f36a703dfe25701dde34c0311434e0127b5f5027302190289ca2102dc2b3300665117,
  0x16f7fc0194882d03f8703d01848b5c0032aada010905e401e4baa903ce94d60300cecf01bc5a7a002bcd9b03cb2c9001cc5f72013ae8eb026fd1d803caf5c003e56eff0093db5f0114234d003cbc4c000da77303673b0702e46f3401ed80a401bd1482039dff200131484f00bb307702ccbc4700db00bd,
  0x1747c700b34fce019cc8d7028e47750073420d02c86b9400802d6101626c6b02a25b060058a1f50011c476028f38b101503f51025b2dae0339f12b0029af90018beec602618b700329dd4203ea21e20002050d00266d7c00579d0602feb913023e20cf02730556031d9b1e0119d1b5014ebc780019121a,
  0x2120ee00573bdd00d0458100dcf4f2001fc31f02f23fdf03294f5c01f747e6004b483700c2f9d60035eda1029fa54a0252627401d6513501f1c54f01588e8e01df46cf016a3d6f02fde3540068835a0036807b00e69377020579c102ebd703032a39040240d69a021f1c7c0018143f021f48420394174c,
  0x12b25003a25ad700728987009ac3be025b241403276666027a9bb400f9f1ff0151c35400d1ca2f0012e6ee031f5640033949a101bba3d502a8831601de6ee0033061140340b700022d63be006ac2a6003c5b6603dda22c01c7464403dd361f01a04bd600c21fd6015ef5610326ffc702a9c1b403ed4409,
  0x3288a2022d475202c6df1a0236d50602f21b6302e193110279250902f0ade703a1272403b285f000238bd5030fc04a00258df8032f348000b385a100c80abb01a9d5c00074db600187636001d5e831000cabdd01a585f50285b12a03f469b80177bd90012ce664017e27810165d15d01bfd7b602bd6547,
  0x9bbd303f88cd0012fb92402a37a61012b21e5008c407b0017f3fd0042775a00071516012353800023cf9300eb602a00af7b3003a84a5102ef8a2201f7743401f5987f003e4b4b0191538b01ebed5e0031e56d00648d05001d479903c41791017ad462031453990318e6f0019f2de3008c944400af1af6,
  0x311af70398dcbd0061c46e01bc4e11000d2adb03d109a10128c435038ff23400f9c4cf02bc0b710027610e0398a7b30292e4d40100fc6401d67ec403d629d502962c5803789645025a13a80041150b00390113014a00fa016560ef0322615b0383f9740004108d015a0b2502811131033fe30701365a1a,
  0x14d3ad0228665802dbf2220074f2fe000daa2903c52edc0116379b038f22350151fcb602c046e900364a6702ed29c503e0f09a00b01a4302a3c5e5032d467803dda879001661990216d6e000a1410f0010009b0265ee9e00608ea603675b0c030ee47202308db000e7c89d00922eea016c988803c22bff,
  0x3be86800de7b9200a121bd006c59a003947d0102c147920214eab003226d87031710a30097abc6000bd504029fc95c03e6325d02b680f403b86732039c51f401dd6e240233a3f602bf9c9a034a48850039597a0153a3c1032fb6ae03acad90027e943202c81d0d0118fdf6033ca9e602bf054902b372f7,
  0x30aeee02f421a500b8b65301ee7560027ecb2d0052f4b2008aa680035a8d8f00c8f21f0239d3c400269ce203f38d480276206400454a4002f71b2c00b6dc1101e6c11203bc2b0f00a8a815008d95950023ca25025ba23803b834b4025ef27b00e3c561025de2fa032e9e0302b82ef500a4630a00c574c3,
  0x5c1580239f318004ceca20177ce2c00f837ac01764f2b024bf369017193650221ba68017b4680003b0401021e98a50080eb05007ab487014baed90140470b01a3a5e0016f7cd90351ab3700fa270f0027037d019960ab01e4533202a6bebd01d8905503b7f50f027c0bc201e931bb01649579004f1da4,
  0x18bfd6001db3f9006779c7020266f800231a1f00a5334101d7f4e301de86f103b4b9f600d607e20034ba9101785f3e0320b1c60281253300a0cde003d6a232014d729803bfdece01d976c502b8046000349a5c036d0f1e006def6201730fe301d1843203072f51014dff1802b3f2e90277a419028ace17,
  0x9c0010054bc3502f821a102a8fc0e017cbf680279995b03a65a8900628f680346e7c7027dd267003b8a0c0227f26301ea35440053e027032c27dc001d9d9a02197d1500fa1bcc021b4f9701cb587b000a473f0165ef0e0340bbf80329447301bf5fc90299b09103c076c4019f850c03da0b3c036ec222,
  0x1bc94a02c74bcb03d0e8f6019e8b710088b2cd0256b768018723b40231683c0293ce9d00d09dae003c316203c59ca001f3ffb903e2f0d7010e47ee033fa419028169b30301cc3a00a8cb9d02828c760006471000702fd1034eda6003e068e900da71ee03f5b61b00e6979a03ecc6670102239e0177b4af,
  0x49b1014bd4220233aff2012d050601ad7ae8028c402f03f694c303851d5a005ddb95004dee32000f240c01e059c802dc375201c13c9602c390680306e8be02db7c0b02bdaa1f005f946b024b4661001bee9c03b0eb790296602201896b9301daa300032092ab0287df83012f9a3800aad76f03e94b01,
  0x111aef01138be602090a2d0334d5a50271d55c00e0d2c5026b87af038ddcf5002122a100ebd1a4001685c70398fbb2001228ed00fadf1102d02fd802d7e0a003d40b320323d6d702020860032b55920011112f03eef1a00203dc890129e4d60227c20a027519940110d50400f0b98c022262ad03a08951,
  0x44be3006cd0f002bba32802eb90090227800f038629fb01f098ea02c71d7401347ccc017e75bc0013cdb003f57a74037ed7f4020148440044f14000e6d605005016990029765503c7b46802eb0b18000066de0264e22001cd82f002b50a470223b4cc02857204037efd6501dd4b0a0254f2830276e907,
  0x32a5d701e09c1201f5c37a00ba115b00afbc6003709f67030c766102745f9402afe92602f69c0d00363cb702fc731e004a2d4a00dc7f3603acb86b027a38ec00c9d446029b371c026762bd03a3c7da001e93ac013583e4038c31c303141ed8029561c803e2baf202f307cb0070211f03c58f43011f98b4,
  0x1d00e200b70a0100663179016ad46a010b1d26016fe53b02c71661024810a002f231820196ec400036f5c0037a9b4f025f2d8a01766fda02669cf2024e8ddb03adb14d0171d33e03d4a0ff0293b2a90033836f00eb6d2e0079662c030c9f3601c9350b0247cd1d0370ed2003b7b446007c5ec703880d5e,
  0x30c9ee025a04a201f7ece600091ba301d5e9ff023a275702bcae770317db64013fc9840294b3e10036ab20027cc475008165ee03682348039475d7030131cd031f396b018435160229bb040077aba9003b0ad602d10c090191d59f029fb0740376192e0127e8be00c04eda02a45577031fe76803d3fe33,
  0x2665ed00f761d80275c90200daf9b60058ade000cdd8ac0280d70701ae09c702617f7100b09f56001a030e024bdf890330ba7100dfbe6001637ed9000dc69000f20efb03c2947f031f4ede02100ae60033f9b000a4d01302c142ba03b2fb6e00728a130259b7dc0036c4f003010d03019d26cb0291661a,
  0x3d2e4901a9784a026acda7033225af00f4be2c00a0401c007e554b03a581b5039ea230010879fe000ac13700be33d4038c7f7b013cfc0e029c0ad40370ff00004c16ce027c95380364a37403c3dfec003e83be0223ff1403dde64c03f98c8f01633c3102f3dc7301f72ace00ec84ae013f879402a5ee30,
  0xc326602e8bea803d5d3f002d10cc500efb70d002e642300cf364502da9dae00132cb20115a6c20029169f02b538de00b194020108d7e500523c68026712b1037b1baf02778d890064ff4101a863650017d12b02def74301c7a284023c9d95016615f6031da3530393fe0300469ba80094e968038ef07e,
  0x8ad8800c5a1c201de35370232b0d801e19fe403552bf002d578db03563a5d004ebe94007872bf0021c93503c6303f01e489db01c1eb400045153500572603026c6f4a03de458602df5d9102f5b9760019660e031aa86b0163a3f2038878cd0109a3ff00f74678007bd17901da4c08006fbb300193fc06,
  0x19ac1503139ce101c6238e01aebdfb00801e8a0071964b01d94df000960fd7029b0fb30306282a002bb9fb00e9952a02cac2a1008aaf7d0179b77003e33853002cbf7e02f43ed903316922012650e6003f12af026b7c74029f1b5e030fa3630382172001ae4dcd0081a97f008c5314026a534e00ed91ac,
  0x2dee0d01fa57d200c5d86d0290edd3011d935b017570e1021647f80059ad6b00b44f6a0061af2d00391f3002d76b5500a48bc60386b085019b83890396534400bcab690017ca8b02e0dcfd029c480c00013f0a0172e32c0089ce69039afd65019e9ae301503f020186ebcd034ddc42015199da014051a1,
  0x4023d02af894d02ee805e026dee210192113300ea83c602b89db50245d3d4004b14a2037fa232000805550044cc9e01d4e81801980ef3010cc8870384d52a00f61d9302d805d6039de61a0227f1c100210f350309877f03ce332d021bab0e0110ef4100bb457203b4de03013c6ee6028b031d00b782d5,
  0x2238300a34e4a014ebd230160a37f03fa5f4c03fc2904010e6d5f0209e6e8003db69503db51bb00220d5200d3101902e3a3d000349d710323c6f703e519030002773101c97f0a02d27e7e039ef5a700194f34016e771500438e94024c22060047d2390192e72e026d49930182b20e029c0e5b00946cf9,
  0x284316001cbf5801f83cfa03ad616d03316861033c1dce02e021ac02d7a43b0201be46021c6f83001fdfc40172c9b402631c9b007431ff02ef7a86038e123802169c9901108c7701df59460393b2eb003679a5012d3ddd02c9eecf00c95a270048c12102b65d6e02a279b102fe8148037135730130e37c,
  0x25c6301facf48022559a803334aaa0019622f03e0b978028ef9ea026d7de700518bd903874b4e0025332a02e8e52c01146fb302d5eb4103c2b2a901e95cdc02c293a60210b0a002c2327c0009facf0020aefa002a7ccd02b287fe03fad0eb0158d0fd02de08a1038a6faa01622533020f3393020d1fb1,
  0x21ef2037c848a0012c21f0334379d036608b000785dcf03f4889900855c2002c890df020db8b6002f329a01b25da302f9a55a03c527170036b10402530307035990ae01d4b17001c3a19d010c91f3002fb4a80123ba8e0370e86f03c7382d002446de02b8bd80039e2d7600fdffef0073c25c03e9bdfd,
  0x15f4220017735c026a040202931d8b03536d990053cfd3023b6c9801df3e6d00f543b502ddcb740004610200afccb50134c9fb0340e3840394c9f301363258038b130d02aefccc0128024302c4a42d00254fe0004ce4cc03519a8902ce700202ec28c8015dc59e013d3a4d022e41ad01847a5c029e91a1,
  0x1118ab026ad0ab02959eb500829d2b01e99c5b0332d21703e58af70111e65501e41aa9010def2a00369f2a004df7e900c5c7a600b38ee8011ba6e0006ffeda02d53a8403f0c29401a23feb00efc759002867f401bae22f0304d60c00b5adfa039164690261ebdc01554de603dbc83901b0d46801e27d04,
  0x3fc06c00aef2ad036f3ca0013967af00a8d484007aafb700ba8a0100299e3c0391edf402d9eb770032efe301858f0203f7a430024f92dd01894b5600c4c6ae017932a402e6e58601e725ea0289d8f6003513e70229d70203920ccb012197e3023f13d303d00b98029a4bb802e39e0900b25d1e026c935c,
  0x67061004bac4d02fad21f02d474b703615cdc03725c93004e8cdc018e18b10340252401f1085c0036e82d009a6c6d01ccd1c2024ea5c101265989014250020341d4fe03d4ef8101e65d72003283830033f57403c2073a0140b6e10220706901c16ddc012543400074238500895ea403e0e8c502d23306,
  0x1ce0b603b2c15b009556d20263f127036fcd4502a5dbe701aebde10397f9c40066169800ab3885002613ac02f2e042027763f403ff4f960247878a03b26e06018eabbb010b9efe03f88fe5015d0a82002f36d803c17ac90272482703bb2e5a0173339101136f19013acb620300a9b8009d89aa003c1982,
  0x2571c500afd3da0173f199039aa77c022c997801878a4200b9c6d202a52239037b45950266f131000935aa000203980324cc8900a48916022f99c00383521b02bb91340050970202335b50003de6100039fbe701f9ab4e00ea053801949ffc011cb3ab01549c7b00398f3b031c42cf03cec5b803461931,
  0x3da45301a01eb400ef8eb30219b79c00e6b960032a802c02e02d9b01628088014a672601bcc9c10008e05901cbe69301b0fbae021191f200bf532d03c7831703f574d90349d440031f8e07003a45960006ece50090de5c0052adcd039ea53f001593b700801082020cf75501c7551303ba455003d105d0,
  0xb4b7b00efd34001cff2a702494eb7025375e203bad7f20088f895010ac32502ecabfa02dc5976001b76550176c3a8021d9c5600fe9d3502dd3cc302b9a63d0095aab102cac10300a475130047f599002b41f800d32db101d203fc0356d2d1008dafa6010b36dc01a2f18f025ce2d401ab7c9901558afa,
  0x2f22a603aa86720290281201321065022393ba00a328c6015eb683022ae26c02d351cc03c5110a0034c486035056a701caa68903e79bdc02a95b3c00ef67f201d20372019b15ab03601eb900be0aa50030593600d1a432004c6d28028beca001ae2d01007fe51a0042a8fd0104cf580022bcbb037019d3,
  0x262122027ce36d0258b5e001e2877c03a27e88015717bd0068fdaa008320c4001945dd034485d40009ac6d0374ea27008db86a00455bf00133001d0107ec5203c0859c02ae5480003fafc403df835100397a3c039d777601b0c2060269312600cfce9f015fec1101cfaa74036209f003f83af1016a2dbc,
  0xd5f01015abe1d00ac40a901ad50f600d6fbf5002a43c6035e4c550065e4bf0126d360003a88e90026bb5a004020fa019c037a035f1baa0042754003baf7c200eb8fe1011055e201c7e0b101777c42002844a40273524001b6500002c6a406021d493200a6f34f015537bf028a509e0034be6601665442,
  0x2a890a0138792c00d784c101349cbb0214691a024887a9032dddfe0232d1e201e8f07d02b77bfd002b142600452c6f01f573710017367a03a3693203ae635101df7668009f177e02aa93db0047cd7c003fefd8024d247e013286570254e22c0235bbd201eb1ec3002598130130a72202372bc00328f1d1,
  0xcbe0000fe3bea00007c82031802be02c691f203cf6808015eb12b0294a3a1033ce703018812e0001b58dc0293d608010a9fb901d616530280791802ace59401c3570303186aa302e3b09102e7a6570014f2400133090102489ccd01f27ac202cfab5a0060eea2012b027f03f935df03355826004eea9e,
  0x3a0e430132ebea025a279f0186eb1303fbc3d200ecdb5c00249103035faa5202796a800086d23600381ccc00480965018eb6cd025ba76200e66ee60075a0760359b70e0158f83101899f8902c145930020cd7a00eb663801c435b8027b4a3a020a8bd002879ad9009ebb3d030545860046a13e023ad989,
  0xbc0e900be50e7007248710038623803fceb0b0353734602072c94005e7f1e0283a00201aa0f960004170e02891ddb0077307d001128930352755d039439e903f6778a03aa5b6702052c4300c3f174003730790385293c00a4b4ad026ce3910033631f0225389e0365221200a745bc00693a7900b6d654,
  0x344b9f00b7c7d7029f6d3c003a6568039ab47a03da6bf6024f58dc01dfcb1f02247dfd00c477920033ac1603b5c838019a455b0161775f03e2017503f3d73801bafa6400a107960214b20301b485da002da30b0064ee5f02881ed001aa01620369aa2b00b969a3031ece00005b41eb01d10c5d006acbca,
  0x802f4011e131401c2726300d7c742025acba901fcb8fd03a5a4b60092eb7a0236a90403e68134000d9d6602524a7e010e40fa02e27e7d0184f82c0203c8dc00c7706301721070010b318c03c51969003f190102eac5e801d213a0031f071700f2e1ae021faeb503d236a70262a8ea01aa1f0002ffdab1,
  0x23fea801c22a280241e4550149570203915ca50354c3530361b31f031c3fd300ce83990377111500061dbb0069fe6a00623f97012372a102c3d0dc01d1fee003ae32b90370d6d3002126b2033ec3370020b97a0178b7ff02ac8e8f00fc6fa500ca1b3c036e4a0d02d8136602b6e46c0202c9a10142a248,
  0x20ab72017bec2e03e9f455035be83a03c4bd9801973bfc02820e0a00f65d2202f33d2d037309c40023b89d0172138e00b569080255f0e9016c148701c59b8601ef6811014eef0d03a88cee01e088d00034f61d00e25d4002ed45f60087920d0007943b03236fca02f7cd150256afc102ff4fa903d2dfa6,
  0x3000240232613d01b43a2301856d8e0178e45d019b3a400395375800a3b66b01a63ea70280eabb002580ef0378909f02eab13f0142d81202056fd001534a74004460b600887a3f00d586a00268eafb002c6ff203dd2a7a03d9573b038df44c03a1d1ba01271b8b027896bb00cabfae0326c8ca007e96e7,
  0x1ed9050316a82a024e2af80242c8d4022cc76b0379860a01d4cfb900501cbd025bff270389952b003d1a150063e476033252ac02b6b65003fe179f030d8a540055a22902f499cf0164c00803de207600325caa02ad10ff01c72d9c036fdd5a03cb16d50164301c0090a9b701a3f7fd00d70eda003c9443,
  0x2b045f0010c621001c9045037004d701a4d5b5010f0bf602bc6aec02e069d0012c553303c9db41000eb32b03f377cf00b2cc650175ef730007229b001d26b50369c2b500dc24800053f5b7003e530f00234c86002d1a1f000d051703be2f2d02c0e721002145810376fbff024b6128017e6c4e00e54639,
  0x3a243a0319e5a20300a1fd011246ce013241ab011da60400bbfafb012d9dd8000c68b802b9bd120025d8f003b4a803037e6a82031dd66c03df49d200744cae0171de65039fe2570121079702a8ada9002a698e00ba703e02b77a71005b4687037a9a630066272c01ff0e7a0220275000886c0a027a1d17,
  0x1c554c019fa17e016909df00d50044018a4caf0338718503bbb98002670357032a1012020447cd001ca6f600f6b73a03f169c303e0c71401e51ef900daf3100015158602d8a88d0048a16801f68b95002c45ae0257c8b6004925b9012c5f820092f23700d6adfc02d79938014d4529034dd9540279bedf,
  0x1ac7b401bf23100367945400d88201009c030e00a13085023765c60152c49201aa3d4500a03ee6001d30aa03b9611003a8e3aa00a38aaf03196b0401a42fb60032924503dcf1df03c3975002eee13b002d19cd02fce7f30241ed8d0062d13000431265002dcd340011e1aa01ed56c101bf5c7c038a5568,
  0x385a4d023a40d200e75390028d2867021dd67e00233f7000e6170a036cd3c6031517df01ac55de002234f7033582b301d932ff032cfd1f02825a9b00a1585701ae0a9501a8449a00c57e2d0357e6cc002fa00f0263fc0e005a207a03f390920132416002123aa6011b07db02d9dbe401eb2b9703ac9454,
  0x32e84800e5b6c1030258a803f96024009ae45400b7075f0388871b021863e5007482d2024b7d180012c9ad011eed0f022f3f35032a78a30010c033006c4ad90091d6880098fd6902b416ff00095bc100304ae60054a4cf031f29f1026820cd01cde6d201925242004552130389bc9401990e9a026e045e,
  0x214bdd02bc2dc903589c7402205185039245f503ce0f73004078e401545a0d00bf20ab01628e0f002fc6da02ec63f3021a11bc0209002102628c6103e0d40403f4555801fd2c750048b3ac02228bd000093f990047f3570203e9970210666d01dd2baa003625ae005b89cc0290be6703b53b31018f5e64,
  0xb3e530140526c011024c2029f8d44026a26ca03c4184a0308c2c603bb271000dc250d013343eb0029715d00ddcb1003bc55910144f2b301366db903a9a6a802edf99a00d5bdfd024b73d90044863e00045af603f1797b02f798210177369a01932d7c01ce57660083d20a00ed2dc300b544580122d6e3,
  0xfac8a0021267300fcfac20125630102a3931b0281959202641b71007a0bfc03cb191e015ee949003daea2009c724b01e57913036ba29103641dd00035497d03f34a62024f0bf20076ae1b02120da6003be62a03af559001c244720034d0b0007dd36f0009e3b701d707a7033ee81d03de99600005eeff,
  0x27d25e02f184ee03d69e4802842981012409720015f179037d95140227faee03194f5b01a34219001f7489030a74360303681900d27d2e00036195026c1a75038d12fe01cae8a500fe03c502408758002416a70164b06e01b8998a0343840601ae6b850128c35b035c75db000e5a480300e8fd0187349c,
  0x11b4a202e9305f0176f07a02d74ca602383f58015dea8402b5ecfa038c00b603e5c6370082c82f0025a4a20069ab8f0096a5e7004e3f38038e92e702c90627036659b10043ebef0236fa6201cf6a11000dc5f60001c54600a3975c01512f72020a396703831f25032e294a0329e63603b8d2b2016483c4,
  0x29440c00db5e1e016ba74902cd1fe1006486520129e752031db344031a7a8300ba2af1026b020f003119cd0186505602bab42a01e2580701afd5b30084ad56008ed649008597690331456f036aa6d900056e1003783b890211062901f3ca5b02f5658e01afc7d00023371e036ff63803135ba1005221de,
  0x4e3fd002e352c00a2d68800ed205603591a04005d2fba027c202c038eab320184faed01ae7496000a6d6b00bc64a40341e3f0034a296b00ed2db9027f179d03b25dc103631faa024882f100eafd68001341220365b36f01289cdd01ea5da403b9345b013c664403e19ea40225d63a012ae54e008167ce,
  0x135a8103253dac01c77c55029cd9af03d50dd101fbd21f00d6db2b0341dba303c922cf00cd4afe0038385b033ffd6c02dcb5dc00e3571200fa6bb701d975970308b36200db367b005d92cf0329d2b50038f04602dabbf402b2235a037a3b69009b6eef039a2ee603cc89ab02d1f81b011bafc0003ac1f2,
  0x2756ad00243746029b2b490387c759002519c60364e78e00447fd7034432030241b007006db87300199f59039278e9007f8b8b00eefc6f02e11adc03a332b303c56bb5036334d9035d27bc00dfb6260039d773001dfed0007bd39603c731a101f9f03f02a7385600f5b79d01ffea3a013fde770347acee,
  0x2a882f02ac9870029219cc02ada07503c1876b031da35e0118cf5d00dbaa5b01f444ce0200c034000f084701d02c260320350c020465d103b2e17a0366b71701b27b0f025d0172037cd8550089fd4d003c664601789bce030868ea018dedbd02bb695e019dc5f60086a8f30100dbab001c307b02ce57be,
  0x34e5c3018fe9af03ff91ca01f38f5000bd5e4001cf0084031100db01753769018c7fe100160258001e6ccc00746a2f0352ee72039c7ec30164d97b00c3905c000667dd030c3a4c03a0ebdc02eddb380014aa4200f910d002ea677f032f9af202c9f51b01b68c1600664a2a018d6e1103592ac901552956,
  0x2b3666028cc9fe028ab1a5000da28500b293ce0163c40f021edf0702764c8d01b7c2fd01da8e670006717f0276b2c4017e5c5b031047c002eaaba801759ca2039760d500f52f0a007df24402269a3e0019a27d012abada02f5d32c011ca59f003d068f0114ce7802e4d7be02bcc3cc009b8b380164e8a0,
  0x3cb7ce03680d680146da3701b41bd800db1ad303814f6b00f3969802298a85012a624000c2c264002e39e900f20840030e1c530184d9a1000b02600020cbce01863b0001aaacf302cf61dc0122eec0001432d30007bae2002e7195014c6f6c019c757f01bd1f3a01eb1d2c0124171500068c0c033755c3,
  0x114b54019a1d1b00cba51702a4803c0292397000517f270000c4d1033be1a000b38a64006ea5320016ca4f01ef9ade00e7ccb701d4b28e00b9b15500ecd2070316b4e9031489dd032aeefa0140de320023fd500116da890378f7640090ad6e02ef51e403f3330e00a0be32036e895c00debdf3038d8f1a,
  0x16cff903510a530055fe1c03222baf020f95530319b2a3019e72b000ed68ec00a6677502b38c8b00023988037e3a9f03c3831902a0d4760372903f00d52e230252b60401262fb802607ebf03b4f1490016fb5d02bc6d590217101e022cb28600f4021601fb073702c8a1270236fc140349b2b101d5f5dd,
  0x3d2f0f03c7bb1d00939abe02644e0d01c67f13029a72e100b26d780317e238019f9133033dedbb003f48da01c143e7031f906703964ce3027326b700c81e2301e4845c02e0ccaf019541f700def25e002aedb701c1754f0038083a03d6c47d01a1cf2302f3d16602fc2eec02330b290156339a00c7058b,
  0x3cca2602cd1d6d026da30b00f4788401b1118300e0f20d00ff617502f52a6301d4bf1b03361a6900183e7601195b6502e4f8e703af347e0028aa370010aecd008bcb490208a0a60149d96001674e3b0021e64b036f1c70001970be00ee660d006154a30166d91b02796add01e7513d01d089dd00ab8ce2,
  0x34651103921c3b01fb336c037147690083666503ae97ab03f50d25025b1ed9025356e802cc093b0007dd1d02edc1aa02657fd5039457220261e954036c364403149a7d03484fe0024aa3e402fb56cd002237d6013328c5030a6f69019a56df01687ca50059faaa038e9a3f004af5cb0370276c01e22307,
  0x24ec4c02f6eabf0051d3a001907a3e004ab9d1021dbcea003dcf1f00175c5401d0eacd011dddf0001ce32d0252cb5100dd6e9a0279eb7d02bfe09600f2ddbe02c84109005043290116873d01d8612300164d2f008019ae03f20635016f7660006ef64f02bb145400c2da5202b2433d00f6cf5101feec3d,
  0x3ca35103892893001b1fb00324b899019c7cfc03ae7987026d09e2026695bc03896b3800744fc90020778401a35a3301e2e14b014e56ac02fb1c67016192ff017649e40271ae400193d35d03a63d460006f271007dab8502ef8e32024c8fdf0304bae803a1cbe103c50c630159043202758a4800c4e267,
  0x357117028e59eb01bab7de02cd205d031d089c02d23e790305368c028273260025bf5201ad5fb6000c3fea0229c1b901f48fb200476e1c0302bd220398247102d8c71c027a157e00bf918b02d8a9c8001bb0c7035bc3dd0370cab4021e77bf03c91bdf004fa373030b611d0352ae42010ab0e3033d2171,
  0x261316024b22c501a4b36e02a7a8fe017a3dae038fecf1031f72a300fcbfce03a7d83201a3bb7700091ba40291d07202b869f7006c118a024b356c03b606c003008e8e03603ab40137d0a0004b2c3b002b1793037f1409011d06f902f3e462028e981900cd408f029352fa0005895300de3ae100341e72,
  0xa1a0100ff9cf502d2c7ae00a52319036fc2f203bdcc29033e6896032209cc02a0920f038c53390002346000772cd50025c3cf03cff320022e618900b30e4f003af958028332790109346001f475d40020f6ab03c0239c016d71a30340dc0b00352072038343e5022f917603d0a1df00ab94a100ee0402,
  0x24683a0325bfd503c4318901a58e8d00494e1f011ada90036c168100de4c5f01396e61023a6b680018912702beebdf0114c20600b3c71700a1a7ba037952e300322b4902530b23024e4d5402a1089a00221e3902971ca001d799c801ae744002c2ab5d028a524b012123b401b2cb84009d75c602787a08,
  0x214a67023edbbb02e4cd3803f85163020d441400827bf200e08255037bbbe402c32e6c0089bd2b002c9b16008e14d8022758b700fc454201eba07a037f742903656cf9011ed156023a30530129d126001ff50d03fe93bb03e6ce0100adc858026c17ac01dac5540010f945035e252e03bc5a560112a588,
  0x13fd4f0274c53401b6399800a39d5201090f1303a18f3b02624c7e00519b70023029dd0112da39002b9a9302843a9503e28c0902e0da480149564b00c74a4f01670118028bb11c03e6aff0023173070038721600c8c21502bcfeff012bbd4100e8789602765a8401d3e78c03e8dab701b07c1b03b576ee,
  0x364000130d8b602dad6ef0010c5240335a50703d1903102199bf0026747e703b819ff021ede2b0030f7b502a4d42a010a9bb300a561ed0239f59603c1a34102b3c09302fb433b039ff576015486fc002a722d026af2df02a16816016a3c7a037ac61d00c1aa3c01bf422501412ce4035c0286008a876f,
  0x8b9b3030ac265022265f20052b6f8000cafab03ee893f014731b40331414700ad504f00803ea40019baba009a5b3c004ad86a02f7147a03641b28030bf8ca007ec24403151488017827f7003f90fc001c8b75032063d6035fd094004c7dab0291c47a031b9691009ad3ca021a2d2a017acf9700710c4d,
  0x87d3402fb8aa100437a650075b4d8006b499b0139b430008fd4fe033f8b1b00e2b6fa026b484b00328b30035e09440077bec7032d820d014b0400022837d802a72cac032a480901c1919701d680a20032f3c400a3ef81020e0720002b327b03b03f9a00d4562c00cefe2d0147af8202d3d33401e4dd97,
  0x26864801fd91f8018dd177016e98e5022a097900320dd00365abd8030002c00063311703a9d817003f0b5d023a7138018757b403fa18ee0158be6902bb306701dddb6e039107d2005d4aa5023fe3280014f9280336e51903ab5f2502e8ce130248cbdd007674c401c8f4ff0283c2be03d86b5f00c6cab0,
  0x2d0ec80017526901a05ffe01382c08008070ca03a3cda301f7f40c01c279330310ed3700b9ccff000b5fdf0348b090022d04140181aaac00a1bb5b00cf24a0019e107c01be3b9903077ec102b89c740013870603028516014d0cd400ff323903c1b248032bb32b014120ce0352002500ebc4eb00289756,
  0x3117bd02327ec102500e6f0089b47801745f940112e957004375e5036d9fdf01ed55430080b56800145631032b58b500cf813d015320040359262c03593b3d023b914502710f4c03d9c5670287dc05000ebe28031fa95d03ad5ad20047ca19034ce177029c177903f64a2203c4224d00fdb48c01a46044,
  0x8c8ce001c9f3e005987ac0314fd7a00f88a7c02609766002b554201623c04029b2cce029be65200160d9002796e8d01e874f101e462da032d31a0019f0839014d81f70074f01d013b352e01cb903600244d3b0015d0f701f11d0d036d13a001c7a8de011da8ed03213be5006a0d6d00ac35f802591b52,
  0x2dfcda01b22db0020d10f8037751ea03bcdcd303ad663401a7f6030112e755037449e800bb0bac0026ba0b01e4275c013762b90042adeb0350312202609a6502ab9ad30310798f02e941c80094fba9000b30c001d89e0800ce48e60048004e0350f54000d587af036bf9b90356707f00d31e5603b25bfd,
  0xf1a8b01135b6602dabbb4022630fa0247766f014d262800e069f403e57b110368da3702bf5b4d0026ec4b00b0d7dc003eb2c40310831701292b8b029681c7005d275100b90b6100cda7c502f4e8ab0003c9f90054b1ae013d82e1002aa2b9022ee32f02cd61d201f4245b00857dc102c87c9e00c4eee3,
  0x2dd2f600a2736201f2c16001d7e09200910bd800158f84022c4286037af00f0108624e02e0d2c7000753bf016cc19101c1a23e015614ab026d1e3901e9724c00a191ab016de6490076a336031d03e40001113a006b102c003d144f025ab73203073b30032ab8b301c8cc0d006a0f3701a2798002cfd4a8,
  0x35afdb00ae9101008408c302272df903fcaf380160269e021f49da010c8cf500f57620014bc8e00018cff7005c4adc0317d233035e560e02c54abf02bbfceb02fb5f53023fd23002993809034a624c0031a5830069fde102920efb01ab46e000e1274a022321710383e5e0011bfc0603ee4ced01659f1f,
  0x2fc8d9012302a602bad12301f75022002c853301a67b490275e26101f35ebd0083549c022d71b40017407603fdaa2600d8f1030257aca4028ce77403421b2d026be30802c967c603c358e4032a0d640013620a0018c41103b8c83503fcbace019fdb5502c213630185140402d120ae01caf10800255e24,
  0x1927bc026e19350134030003260e0403c92e0e039a904e0122dd4200fdd367039b0448019710fa001a99e402c358fe033bbe83009ad30803394e5501950bc600812b8a01939af301ba75af0005094f00253c640081a859035bf32f001da68201ead842006db68403b37fb203726b4c02904e6201c0244e,
  0x187cf303059189019c06dc03cf89d60263a05d020c0bc30136788402629a210257250a02a5cff40006380201f69c2e0144ba2602921ee101baeaa1015e317e016b218a0046c7ff01dc70cb001005870026d1d101819c0c01426d1003bfa1e5028756d202ac27cb0010a785007180be006adb910008df58,
  0x2ed11b02081e5601c63411038c389200e38bba00c050ba010dad1401e0eb93031a7171018bdc5d00178cec02f26d2101f2278d03fc9c4600e22d70032ef19b00092e61030961c303ebb95302312b8c001ae719013e5efb0118efd7029f28be01f2582c016c072701b07b88009836a4003bb5990063078c,
  0x2489ca03dcde2700a4bb7e00570850018ff8fd007371dc019d1213039ad10302164d9001a1d3d9002ec56e00219ad301bb121201dc32ab01278135039bdbce00cb7acb011e9644032cdcc303de1b6b00303fbf0026921c0170fd1d0279304d018797bd0206a92f0010a914005c1bf20390a45b00d72eef,
  0x9d230010fc48d017f1e800147df1a0147a55902b18f7f000751b80140e51900de447d01f2b808002702f201c40b2d0355cd13028b9c7202a976b502efb41201ee17f6018dacef019d0d0c033dec00001cfd03004db86601475388022788f6016f17ec013b594703558d6a019897e201e8e43500c77265,
  0x82e703485e3901140850035647d2003867a6016605a202f28e0103a2eee003029081006ead19000c099e03ba5c7700e3e9da0099acdb02d67d3703383d9c01084840029f00ed02609c2a0384c71c000903a3012c934101cfa675017f8ff5016d1d9e02e154900389894c022e2d28006324ea03d99c68,
  0x34ae9600ad9bc501b90fee004ca466020ee410027b6d9a01a17d15022253aa00a0c39c0179afc50019c3e6010c741e003ced340280095900c83bf002d5599d00b6c58602c866bc02dbb20503bad3820028d5210024cfbf02f823c102d6fcba035345430371993102f05c0a0370beaa0312911d02edec7e,
  0x3132d40147d5b902c21532028916810167ca06033f2d6100bd1f990361c47903e801d202f3dc120028a29f00a03a4a029d03d400571a810007418b0312fa580147b39601e73b5f00e9dad10224a00f002c14ea012791ba035d5b24002f3278019c14950030e5f80113fdb001945b3f0062cbbd022dbaf9,
  0x1d7e4103ab32710023bada01d310660266ff1c0141b7e3021a865203ec46cc0272b6d900f7954c0033dd3201cf71bb012dbe760232cbb8021b07b402633745026e157c01cc444d01b2eee9021bf9890026080503537b7801e0a0e400c546b60020c0f702d7afa400e04dc6035b5efd00b0a5b60238166d,
  0x525c703a7c20e03d0c906020d5481023142db00fa45d90394a89e03afc37a02bdce620001706f00026f7f00e367d40282613602f6c57f027354aa02e2af39010f830e01bca71a00e5604b015ed38c000807cc03b4c4f500b1d4740185840203f4eed102e90a0f01fafc3c004d87b202a322e103ba415d,
  0x31b2d60044537d039a736602372416027b553d02ccc2f4024a8fe5009eeb94032e3a7003e654340030f40803ea27200189444302a38c4b00be699600ed9be90030e32c036c08ed0326972a031d5746002e635801e4f05203aa49860233758d0200578e01d5fcc3028333b002dce7a8013c3d22024f0c63,
  0x14f7ea03bba06502bba67603ec0d1c02242a5303b4087303214d80038bf00f0236b006031623ae000b39b300e330610021778901b4434900c46f6100c2424603bf67420004277a023fbea8015c3a8e00231d5203e108a5018331800070e45300e95360002c7c87029b00ac03b59f7b026a510a018426e4,
  0x2bf38801c02b7c03d39d580193ee2e0293f99300e038c10201129b02649c0101f7f0a8033390df000db8e50243b795012b4935027487be0074969f022a2b81007301b602df61db03ee879b0344bf4000264f430397651203d2d12b02dd610f01c5e7e8024ed83e0091298d01b899b0034f26a700fffa5a,
  0xd8349000b920003fa4f5900fe38e100661738010810fd00830da3008d0847039edce501b47c8b0003aeb201e5d1e10174caf200e62efe00b618540236e0960041747e02d85ae4001d2c07030aa23d0039f58d00b49d62034a687902254e9003c5c89b014682970121249b002fe5c400a7ed2701f93367,
  0x2c6ff400512ddb03614eae01f33df4012069fb005d3ae1005478de0153230f00720601008a8dbd001204ed00729eca00baa6f1008b5274019cd53f02087ae10071f276026f0c7d03bae46e027f2e20003f87c00382b4c7019fefc900f6eb9400394b60029b04fc0106df0a02042e0100d3d1d100d84773,
  0xfbd8300a4f462001cb54301467fe0018c9b6e024c04a7027623b6033529fe00295d4b00a78ec800300f92013885b401f02875016a5dce032ade3202d62bbb029af2430377cb090360b5c50152d0320028d3d503ff610801f22f9e03a5368400922c5a02ad4a430383e6de0103545103f106bd03e7f97c,
  0xf7ffd00c39f33020c15360214b89200491f9700dc74ed011b5982038b183803a88e1902f96a9d0029f895028f29f501bfa26b016ccb160378e0f303b3baa7019c8f2001094e5c0390d3eb030b9205000cf7d80011f64001b47646011604b002fe6b5d0330e2500165a19802cf0e2d00fe750d004d6685,
  0x1e875602492e890102286800cb4aff036161e50363d65203bf72290237c32600927aaf01b1befd001f8bbe0207e2b600b70efd0388a7aa00f2ab1802e10cdb028d80cc021206900159cccb02c9f902002200f101b2e7e002018b650082572a010d3f3a0068918302b838ae01d224d1005e870203357568,
  0x1f511c01e9ff90035be82003743fc902fc829b00cc4d1903d21ae1011b17430187adf503555ecc0033e8f102a2c9810166b76b01827dee03ae73c6011a7b6600d50320038983e702601c5201e567dd001a5cc703e771360303cda002dfb3160391187c01a487c303f2627203f2865d001a005a01d52022,
  0x24645a01f255f000e1f46902c809a600aaba820156f216009d31ec02f9da5100a56139028690b3000d965c019175ef01c620a8004e8e06021cc55102b02d4600dc0b4502a8fc3602b1753202f54e08002b113301eb37c8013c008f01451d070045f9e401b7a5a0031bb8ed00bd7ab8007ee0f100feab98,
  0xb184c0186d2a103d4eaf60293091f026154b803608a0300e8d70900419c2e0373c7df0293d815000ff2800030508e03e13fd00399d908016a1b4b021307f903d97e1c02d2fce702f927d5001fccd10008910c011b2a200303444701da208900198ead0355d7d002425a7a01d345c201fb373703edbbfa,
  0x18e38d0259f3b702a8213903c0501403de428501d3f1ec01b7b3d702e4dd1501aaaa7002dbaff10014632c01e705de0185cdec0342d96c022a31ad00f4f20b01c9ae6701c2880201a5a2e0008f726e002c5c9c02a0ba6402b5d8cf03eb54680069b59c03528d060038976b0247c3d9005b2c93009a0b7a,
  0xabcb002157503033af67f03653c330193834102bbae3000bf430803122def02ee017902ea35d20030606400c4c10f02680f7a02b924ee01af690d028ada6e00f3a8b30284a025015820b1014069d30013499f0023b02000c45e54023b9bac0062f36801d7482201bf3e94023131460302f9b60304982c,
  0x355f180158887603ac36d70399fdc103a1e6c9034a363a011275b900d6eab1005179d2030d255600334955009ce68a0101c1d0024ffbfc0149438600386f0e02a81e2903654d07018fe695034de3700002e494023b5020009642d803b36b5f03efef2803081daf0157c2b30386ebbf019e636701e36f39,
  0x240163001e45ae008c40b7018d545701ba752202f145bf0172fc5702b6f45a02ead6da01861dd6000cc61a01b566920019a82a0017270201dc636703c438b3002a73ab013af45a003b3c0c00f26e7b002f98bc0030421f03c0017a00e48f290206115e02aea71a003a527a0263f93c01f05c2b0125cab7,
  0x1fe81100fe115401ae89ae03f11344035a7665001fa598027f1758032696b80204266b015d8d30001e799d0335c65d030bf8b50151fce7020e13470322bb150088a6cb0076ee8602ccdeeb00acf639002d624a0063f3f802be2d3903aeeaa600b7d78c0140f1c10076ada703e1a566018cd0a40317ebcf,
  0x5707a009735a9008b6e55039d486c02728621010d2136011f7c6d02219ebb0165a9c4007d4cdb002a0add00fc392201464c2c00cf8b0a01de489201007ddd028b7be700a2ff9f02fa3e0e02ec6f2b00353ecf037c5604006adda501f60a9400905cf301b04099034d123d0309a2c0012d2b9b02b05b27,
  0xd63a7036283be001db42901dd751001139125034c86a901896446003d2626028387df01a32bde0022f122015f73ed029d117f03afbe9a02bc19ae028ad78503f3dd79025a779d020a57ba02fb19d700016e9103a92e90024e1e7401ab1fab02de4f2b012b3e3d01dd0f3903b1ae5502730bf3009d5027,
  0xa96d02669e3d0090ac2401ce833b03f7b281004478c3009a702103dd5f1d02c1bd67003bcea2002934cd0115c80d02103e4f021764e40243009b00ef78fe028b6f26002407360154453102c5993300027c70000d03e202afe76e038e1ce203fd8abb02edddb300729986034f5c70023cf7f502ff9dd9,
  0x74a9b016132390274fc0c0083075003c14e86032d2ee400c4d208011eb933001f83c300005e6000287d6a00d20aae01ff3cc300d042ec019ae42200816fca0034273300d8017302f8530a00fa6a10002c173400b91c74032d872e017a182500e35a26007a20be02f1c0e1010a148403bcec8a0090e86b,
  0xd415600b20c17014aeaee00689fed0167f31a017a8cad034b2f1502108bdf03cdb03b002fa39d002d446e01634108009a8eb702c2458e02c7bb69007d7e1d00cbf797011011ab003834ba018e30cf001cf0a0021ec237017d1d990137e8cd0065c86c0037e61002b0330e0328bb38022a4198026a7e39,
  0x60212026baed1022984b00360bf4f032e258d011a4a2203cb21a4032d1ec5018491d4009f0aef000adcad03c492450148c98f000ac9b60185049901da3b5a0164f42901037ecc01e3581802009bb1001957b9016dfbc802bb7d2200515f0a0154713d015ec2460030a95d0367d28003f690cb036684d7,
  0xcb4340177de2f02c30822035f7acc0262ba6a001cc51a0301cb5b03aa8f58030d8f5e0046967c0039176e0384b8400385d29402402bbb00329830032e10ec00a19ddc03e510a80344368f005ee8f8002b5af60017736703721ef201f1ae530282ec800282ea23022ed17b02120cc40159e27102230723,
  0x2991da004e04f801f58534015e638500babdcc02e855b101847daf01ced157022413ef00420e6c002c79b601c77553005564650106def502d507c6026acb8201a3bed60229392001c2e11701c8173700127d720349ed0403a3e77003d5262603f2799f0020224c001836e4013a706101eedf8e033b2738,
  0x9b4a402f860ba03e9968e00d1924503925351018e2f650199977101fc266803a17263001332d20032b025031648400211d2db03f3c81d02dc610e02078bad038ee8ee01b689d30359946a025c54bb000be02f0127b463004be00400b61709015e414503a2ea930362d22e0114eaa103186b45009d8dc3,
  0x1cde41020928f601693d300048c8a5017f1c6703159a99004989550096cd04010ad21c02bee21e000efa4f0204df6f00e98330001249ba00781b15008ba5140318366102581d4a00ec8343038b4876003ddfc000d931c101b33dba03153a92030fee940128891f019e86df024f7f9d0152566d00873be1,
  0x3423fd00476750035dba860251dffb018be0d50054b499013193f1020cec0b0101252f02af88ff000540bd02aa78eb01b0dca503e620e303d52bc50397cf1502b171ba022a592f01654bab005730100006c9b10054d13302fe2f140275905e0339e65400d56d730288e10e01370752003c5e5b02e8c654,
  0xbbe5a0187cb20036394d40070bb4d0133189e022f3e8e01fa805803efed1a03de79e501b21c4400038ac601fc51ff034691ad00f96f9d03266a9503110c10031507cf004696df01f40421018e652a0029df7e008770570026b419029d1c37039d4cf803658d16037926390325d054023a3d4d00d980ce,
  0x3d6e4b00e6019a01859d4b01fde7e3006510d2039867f0019849a900d4578a03103c5003c0e098002fedb101ae91ed03208dd0002098c70007ce5703786fea0177b14e02520a2b006c2e23006ae0e700255c5a02b9254b000dc417038484dd03f00e990340232803d46ae802754c2902c732ec010bb475,
  0x9583d02e4ae9102c00e9b0262eae302a816a90210dbb00319080200027cbb0186600b00e85a18002bc6c000cc5233014f222003c63fa8020b22cb0347b13d00a0d96001960e70026ec9f6035b69ae002ba30b012dd7ee004c0963022b7ab403f93e16015c5cee0013af0801404c9801407c73018bb502,
  0x1cc0703779ac803647b7c032b51db0117ae6801a5bd88035bcff003573eb500175da2023fa832001af24903d4aea7015cfdab028bc311028c04a0017883050028acd700d83bb901a25ac701ca28bc000b241903a9097d032473e3026c0e42033dde57030a03040216f0be0277908d009e3f6d00d4e145,
  0x30cef1021b62c902727ee70347873a01e236d50304dc1b0009323601361d3d031add89038759360016a3e6016aedfd011b81de00ee43c401cf6c3701fe8aa400a5142d0341609c0174c0c101091261002aedc6023a96b001e4b8bc02a965ed0101f9180203700e00eab70b02f0e99f0387455e000b7291,
  0x4d039006a01b30292122c003594eb018efc6f01ef162d039993fd01c99319034f680a006a10df002dde6b01b63974012f48c1000f5ecb022a25f301305605014a61e900fb954c01c3b33103f81921000c720c0093e37e02b3a9f800b599cb00d9aa7e00ca638503ee4cd401a9efac021b5e720294f2d7,
  0x291bb30132526203f67b4100989ccf0175bdeb00a7d36c02e53be200e4e8d802db51460140c9a50030457a034f211b004de11500585adc014976d403f9253b01f2ac4d02a2ea0e02e88f020142426f0004500b0199d22c02695f330232b464007c989b015933280091f0c10385187d02635178015128be,
  0xc5c10033fd49303f1f08901a8625b022cfe9e02fa32c60364a51301e53a8703ddfb6002b04f2b00147834000b4eb701781c0a00413adc019a1300014dbea502ebe53f0308606d01bed5e800db17ee001ff540012920ab022776ec035d8d650050b4170016ebf201661d7c0319ab8e020af8f303ad847a,
  0xf8d2502cdbb5202c5b9330207f6c3027edb330262a2cf03117513004d72e1018c76f700b8d583002a96590148f47403f16ede03bd1ba1011ff1e2002e78e60166d2be036e2db501ae913301514955003a628f00e5e71d00b061340036734201636b9e029e0a06029cdd21039d6382029092d0000c9929,
  0x1f3f5103d4e5940102b597038382b7001459b60387f8350060d59c03700d83020f968303caea64000a97a5020690be00dce39302b8391801ee7a61017570620007983c02cf7c6601d3a0920023b6610013cc1c03633b8600f0e79303be7b8701ad8e530134da3203ed4ffb016d42ee00b7ac2d01ca7549,
  0x3a0d93035742f801a7fd6f02b2c8fe039ca71802b76ec701a51b240347039f02f5e5b80328074e00315cab00592af1030ea23702b43e4501a18de10319fb3701adf410028a812f015ab3d0001a8532000bfa0601ac48c700e7b2c9021ae93d0304e32e0260d33d009d294b033015ff010938230135496e,
  0x32117400c7e2e2005f79af038b773403658dcd03eef6ae010b5a71010dbee20349486b00cdb5e400308021025ea420033f2aa901487f170307da45006b230a02b6d37300d9996c02577f230074a2530015131c008447ad0187557c039c2e7000d74465032b5c660313095a00ba836f01160d3c0292568b,
  0xde303d84b8601666aa800dc709d0104244a039e68bc020a7d6100aa396d0150513c03f71f840013a08a02700c0502ee7f0002b3573902b1aa890104c3f700604df602d61f7e02b0020901cdc06a0031dfc90268f44700f6ac6f0391e42f02ec5ada03cdec89024b4d2b039b69e201982a1d020e5bd8,
  0x2ee1cd01ffa8ab0054ac1e01f9d0b602cd65e60112864e02ed06d7012c0bb9001031e8025c0dc5003861af0135e55601b9258b03a0124f0180d55b00e0c90b0162f63501914c7201271160012f5cd9001420b601ba878a004d6a0e00fcc6fa00dbe087002b537702aae966027516bc005d8575002e6b36,
  0x26401d03efaa1301e04e2f00c4e39303252aca01206fcb00587df8002cc5d502ef01560259d71700358d07023cb4aa02d8484f014458c400f7c108026a120e01b8c59502f5b41302871e26027acf1e000ad44f02ad81ec02bb7ab60093395202033f1800e4f14503fbe5e8038b845e00275bda03452bee,
  0x100bdb0061be6c02b7b7f301e7c3e200a7c527030af9c1004aa123030c4d7e017cafc1039ed994001794c003a919180236f86d004bef51017711390254d783017e726e02636389024b4fe2001113380002367500cf7a150041a0540337211f00ec323c0020823303d7ce6a006e6c3001f187cd021b798f,
  0x6336101922a440025809903f1008902ec8a16004df74f029374fe03012fea01ce602803be42c100013c1f0264a23b00169d6600f19eb102e10e1d0223ec5200cfef02010518de01c79afc0335c923003812ea03c90621015334a201fefc3e0352f11a03cf929e00b2c82700a4c8d6012ee9d50184f6d4,
  0x14003e01e9cea702a5fa63030ea4590312ca26027ceac6000e4bcf02eee33e023cda5202f9dfd50030c50302396c1b01b3db2302f3293a017cdab103485b1500e511290120b7d70224c34d0345f4cc003de91f015e782801464fa601acb645039f7500025b49d4037d6e1801594fac00dbdd00023ae00b,
  0x308f2d00d076cb02b6124a03f9ee2303edcab20101258f02d461b501cee794022e6fd600dbe73f0027720e01465ca4001a434801a59a030214021a01898fde01b8246f02396d88035242b900d85d85000673aa0247aa290260d7f003e7264d00e54c3e01a039d402e4d0a101b537e000d2502800cc3e37,
  0x24abc8029774be02d64e6000b9702a023d4f2600c7d6de0146351a0369e8700158305101fbbea6000f31cb0240202e02074fb201630fb100cadab602ec87610141728903611525001f855c0364808b001ff04e03096e7a00f664be01b1aa1d02884da600460dfb034c137100d90716005af58d038abe25,
  0x93402031a90370054d8970043e6ea00fb81a0032026f50114dcd40099a42d039ea45203bc9bd8002e4d1a033f0a6c01b6644801490bde03ecfebd03b9f3b4036d1f9b005587a501ba736a01d572ca000f07ac0132f8e402ebaaae0212c3f6018a2ed303a812f7009a5cae029d2f6a00d28bfe024a5e34,
  0x2b77700ea2a43027c411901696ce3018e1b3003c5e6d900c98c8f021d35ec027a0fe400f1c217002d388700da81fb03b5e7b3008e7f26018e212b028a8c1e00447181034e21fa0148033c00ca25c0003c3c3a00daec66015a49aa02e47187036c131d002fd10503ded01901e92e36006ad2bd0236d34e,
  0x2960120297b3b50038b9510002965402b2bc7f02e6b5d501a73da102de1d8103d7aad30215d8a100162a38017ff25101b0243b014875e4008670a8017ed27100a77c1a037f4049033f6aa4020fad7b001a192a01b6723501f52ec100d6aa4f03e064c703845a510241e21d01afabab00536977034553a8,
  0x2daa8803e169ec037ced2f0032b8b60285fd80038275eb010161ca0057be5e037a08ad00626501003f0032007e51d10216bfef03e3735301f0237602b2e87801c2ec12011623dd003c99bd0064d86b0001b57101cc1f7000e4c42e0255e90a03853f58001d7b4b039c2f6a01ea12380265f20b03a232c9,
  0x82b4602be735303a223d202da13f7027424a900a78d9102092bc1018737f001886fad0076ac6a0001e928019af6f8033e2a580138df7a0128b3d701bc8471009b3d9b03934ade033cff9800482ca8000cc55701a18e55026389fc0345c60e01fdc2bf03ad469a02a952580248b8930248961d0091d870,
  0x13ba8201e8e8630012a7a70279927202d9393700198519004fc3e20058258c03576a8803e81081001eac4b02f49f09032b351801f0061302e86c7f0069de520087181700537c94024feb6b03be12f90016cb9d0175fc4a0009163403f30b2a0243568301862e4902a365090114832c0367f0de00366dab,
  0x5d1270095894003863ae902698f5e02eb776b0173ca4d03ff947903dd822c01c9b2c802ee984e002b11b803a1ccdd0045ebcc01a9b7a70090648503157baa005050dd008c55b402228787038c6cfa0008444b0288ae870127d18b00fbe73202e0bd4802f9794c0042576103876dcc01db7daa03272a55,
  0x2ef624017f2ad4018760bb01697e28037defab0338279a006ae86b020ce7390175d15901fd23d50024128402aee39c016c794402f4219f033e4c5502f4f87e039f02800000fef50362e2d40253ccee0016902b01ccf7a002bf9c1902996fb7029c42a6035322a3013e2adc01044095029057c302b74148,
  0x2b877a00dbdd9400d0b386035b74840192f6ed019873eb01e89b3d03d5f4c001d48805028f8900000551ac0280c332018ac0e002d57ebe01402aa80163951f00295d0401a9730a015eede40358b9e6003aa5b402f5a43901d8c8ec035e37a40329527e030e99ba00754285024cd5a8012ad4580205206c,
  0x32cb1700498ca803e8417903dad3e6035ba53d011001450175ae1502212e4500895b5701d38b5900196b1300f81034027c53d901e11c6e016d955500287adb01abd8fc03a46d210318c158008570c80021f18703d212ab02e37460003f1c6000a334fd019e900f004b990e0008db1102778c120138c36f,
  0xf4c503d2320c00ccb1660286937b01f674e30278d4f701f16b8601e8658b01c456d900e1f066001e3d0201e942b30274a8ef01076e3a0004265f0305155a03c8f91d015949dc01feea8801e86a03002acc8e02de5cdc0120e6c903cd6ba100106bbd022720b20181583e03c1b44801b238400131a31b,
  0x3aedee0315f1d401562d780339efec033b92a201de23cb0029c9520110384400d2e74301b919680022ee3402f7ce280112fef10319742303776722030e4cab00eebbc3031440870293746f03995566002411e6014481e003a5f38f0392cfd503c8c678025f18c4026eac0c00b78a870394d3fa014181c5,
  0x2d22f500df1cdb007f1986016c51c5004c1fac03a5f47b01c3a150012907b003000bfd015e250200051d38028a0d530002a35303f2a0c2021431300315cb08011be3aa02460d7101d134b000ba7d2200197f90032b19a80231cf92006867020185231703d31d430228f98d0076a5e401de9eba01f40d11,
  0x2402680387a3940302a9c70156bc6203eba7e400c411c202391aff03e6776801d1b621037df99d003442fd02d177070103bb3502c6d2b0020f15ab006298c201ee19940040eaf601d0edd100b5cde10023decd007bc28b02b01bfb0153e501034759150012d32600e9364c0156aa7801e032ae02923654,
  0x1c44fe005d0b40029bec570043eb2703e1018a014d63fb03ccf10b035180340181afdc03b21be30031a81d0213c9f102896d820072890801f3911d00fd0c6b0375d8bf03d42b51012d4fbc00067e300033788502a4631903c4ca0c00e47cb30238fc230131ce130244a60101e273bf01f79c0e028fc883]

end Tss.Secp
