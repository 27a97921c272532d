/-
Generated by tools/gen_secp_table.py: windows 16 to 23 of the byte points of secp256k1.go:10, decoded.
Each number is the 120 serialized bytes of a point, little-endian.
-/
namespace Tss.Secp

/-- secp256k1.go:10, serialized bytes 491520 to 522239. -/
def tableRow16 : List Nat := [
  0x0,
  0x20adae020cd1fe012c235f028a0eef018e3fd2003633f8021e8957022852b303ddf153038220ba00185408030643de03f7047f00c0bc570199856e0284b1d902f3a48d003d1366017068a100c58b8c003e35960256004200051448038f977f003588dd03478b8d00cf7117016f8c5202fe4c520234f711,
  0x5fac01f140c200aff666017dd54c00bbe1e803b6accc01da5c3e01dbdf5f03ebbee801847ec7003da6b0017e04870246272c0182f45100ebabcb0320cc1d03e1422103951a75017e96b500051457003a72a203f919c50350fb0f0335a85102f99d0d02929d7e00fc1415010d87d10156c4a6019a2b6c,
  0x2019ea01540488014fdcec0292c26c009b778900699b490190c1aa012d8c26019dd889039faaa0001441cf019681e40304d64a03e67efc01aec1f5015d1ab901eb90510290a3f303acd92d00d36937000b6c3f03bbb7ab03ed4125038a6866007a749903be38c902aa628e0368a20a02a7f84e000db2a9,
  0x1808a101106b820024356901211f58022ef359039764bc0242a14a023c81e000e3d2140175ca930019916103f6ac2102dc4469004a4f34012f16f00121637202f8c6bc01a55c8a0143d1bc01f06b260027876800c98fae009025e000ee4253009c67bc008d0f9d00e33c1300fe1d4a001706a100e743a4,
  0x24cd2600f65fa002ac83370095dfa90044abd8020fb3ca028193b400a2a88302ca2aa80339868d0001457e00499ceb02f38ac6038d082c02c4dccc016b428a019767250209a5fa00aeab45039cc9fc001792d5008e8c3e00c2643b01dc72460073bcb5024ba5df016e36b9009979440394160602c452ff,
  0x36e539029312d502ed0cc4014ee50f03944759008cfa9e0247101203edcb8601a6177500993912003c689f00132f0600fa52220162efdc03348d47003cb6c402ae7cd5026e9a1a0126a52801aab0d7003b7ee002993e6900e2293f014d46040368283e00df5d830270614103aa16d7015cb485028580ad,
  0x47ecd019aa9d801e667f700e869ed02fb73dd01d94fdf03c2e2140246367903414bdf008a8e35003ad8ed01d8032b03b8463b02d8dc57022fdc3c0157611403bcdab10246990d029c077d00986f8300172cba0097902100916083034a74ba02faed3100bb77db0350fcb4014855f903ff688a02c95f65,
  0x6cc0701133cf100edff6003955dff03829f3b038db26201d1b02702361ebc006edb13006e65ae0015848d0014623e00d4f6220112dcd90353bd8802bd55c70007f5a4016a4ef501e821cc030224b90000ee01010ee29303ce731201f9173701a4f77d0255a9df030756fa0169fd7a0061e9e202aa2a97,
  0x96e6d033f455b03b23aaa03f24ffb00e8f40603eb4b1002841f9800fda44b0128c4d403bcd7820015479e02c04e9400d67e810384c9530343c274012134f300a1e39b010f7d78014e9ae800ed852d00248be60273d244035c067a029439320345c82302a8242900b9e4d9031eb0b702f1a188025e129a,
  0x146dc50231014a02b59c6202057dba01d22c9400aad70403231bd400939f6703d0e43e01c519a3003fda3003c807d6027330a6022532af009713b203707cbb038135b501028f1802d5385100a71dd5002fa682000e1d8b003b8e3d0053279901791299001bb39e02f1d1d0012f7607035df3da030ed7a6,
  0x394f4e017351100332c47e025e2077015985f6019b8cf20368ae7901af1c5e02351829016a2ab2003df4a90312087d001beda800662f9e01dac3c702b647010199986002c765950042d6890124cce3002016bb01f07a5a02003480007754ab03ab65880286e05c021837a401ec4a6b00268295014198e7,
  0x2169d02d3e2ed03a482af01b056f101ea3a4700c407900364e7d70296d57403a6999b032ea83a0025686401e9f95500f18b35009ad174032e1de1032c557f03dfec6f0011a6b0039ef0c0028f7af6002d48bf0347932b020da4080126889f01f85b4e029343b501ed6e0f00a6fe610258681f011fac2e,
  0x2fe35f02b40db103ee7489007fc08401d9538200cc3fff005e3254016f21da035caaf20115809f00025b1e00e7a47c03c10f2800a8f8f400636db402e4f2b70333e977014da7790097d0e00384f1820037ddda0331d94701a04ed101422e78016a661503d9986400829523021ca9d003f7e6eb03af114c,
  0x1af69c029e2163021f1665014ae9840312cfc401419b09032f724a011ce3620005c5e8007036ff003736c50289e73f00d1c35901a16d4e01c33371022ac2f00235306003e6630d001aebd5004082aa001ac8470063ba140301756f0223f1800040a4f602ccd08c01660f7600c7f0d302471ff6038c4dbe,
  0x34b400766d3102b2fed901ed0efb0007033a03b4a47903f5748903982c1d01d6995602d7e7d60028b5a8033623c4037ce89b037a124100cb71f80264af0c016087bf000defa1026d238503c65705003b693e01a67d0c01d107a702473af60169f7790064e95502e8aec80089c8550384f58003ed8ac8,
  0x11bf2e00a84eb2014125bd00d1219b03fe42d802ea050c01b2460d005c69bc026bc3d4014bb22f003abb37024cb21f017b9030030ee914034e4018037a621900ee41e801d44bb402a7a462005b3cdb001b1d060054af1b019bc29703394d0f0092e1a3031c7ed70286f598034b033f01a7cfbb00f36a88,
  0x1b147b0356c7f301d5df390208db2e005ba84001d30fc803a8fe0e02801af801216a26010363f5001cbf1002c2bd0502e76275022c324d01ce3295017bb78802dd173503ceaf6903e0cbdf01acb1410002665e01ca3b9d038a82790117d7fa001e28f502106daf0026ba980286ba8e0318fb7701f272b2,
  0x1b03da00b6cb67006cf06601bab7d902a2658302d9a33701a2729701f32056004bffcc00457d090034c8b40003abbd000fff6101b9710300934ad401e1bfee03f780f900c2cc960242d04a004add24001c435f015f577a00f0d0ef0346097d0205f3bc03de234e037757c6002694b303e7019c014cd094,
  0x17bcb021e29bc0346d1be0155658103af7a9700e5371403920e9b03da286003f0554f03f8a14f000ad083029a35af01fca3ac003eb23a01939d8602498dbe0253afca02e0916502d720ed021a6a3700156bc503597b930062e2cd0189157300de34d003c3684b0185ed5c0051f9b9003cde22009865cb,
  0xe6250345b4d60124446c00792b2d0263b0c601d32826001475e303b1c7cc02e8b76803d497d100233e57013cdf5100cee2bc01d1604f01f40b260056a22201d36f9b01f1957a03b7f9e1022cd58f00374fab00b74190007a906d02e2da1a02d6c97a02c386aa00304dc5015d704d01994b180005b18b,
  0x1b22580240a92100b6e711003ec76102cab22403c5300c03df544d01b89cc601ae2be5009c82e2003d88f402d4a17e009382280066333501a54a230354093d03e34325035d4c3002c4b5bb020c16b6003a8e6c022be06802ded5e0017342bc03a2c21600fc98c80274173500e947e900f8f4af008c8a34,
  0x16d93c036c6998009841c000526c1e01bbe19002f6c1b803457a86002ee550032570c703cc2e15003e40ec03216bf00160d77f02fef7e9011cc782031a32c0026c52eb01fe466c03bb50a903ea3bb3003a2bd3031ee7bd00b38abf0037148901a5b17603f105a40075bad9017168a503b9925200fb372c,
  0x11c902025f7a37001d9b1400e3bc780177cd8c02141e730337702a03f3797b0046286a002683fb0015708d0279f35303f98344005b9249020951110085b5e203b81dda00218819028eb2ee0312352d002a9fb703e8051f038865680136f90a00d7425003a1140702795e4903e012c7024f3ddd00a61172,
  0x32a08802af28c601443f2d038b914b0108be1f025710f202fba965011c2f2f039ae72f00e8dd550026ec5e025a938f03a84aa10128bc9001631b55014d596b00a7fe5d00ed998c03fd5cf80207673d000713230201143f0350042e03d1430001db3fe60136205002d5d67002a021e901ebe54403e8be56,
  0x25e56a024de1f303338f27008602c50037996503a0c362005dc58d00bb1a84014e83af01df3340003427de0294b7bd031ff53d00e53df7020c7c1200057b5000264af002dd50e4009908a9033a586200227fd303be7f4100a0fede008fd25702ed9cfd002cde0e0316ca2f0227eb5b02f8a67700776f16,
  0x2d404e03204b2e032adbff030d930100f6bf2d016b0bab01a24435029b486500b3e51d0007a57900009b8f02857c3e01c5b01d01eaddb703f2ea480052135c0066afe903c5004e01b2ebc101b9c40b003881390130e3e4005034cc03d979ed00614e33005dc23f029081e10174280a021615f601117b14,
  0x15efda01b70fb200fc7fa903dce46a018e520c002f718d0023936c026a1ae403ac03e90290a6b80002a78701e95671036b3dc00081abb3024297c703e425f901fe631d0321d3d4016ac8ff03f18e45001cd9dd00e9025e01d6209f008eed5302b47b7f0371aad403ad2389038aaadf03e1cd2601a989bf,
  0x65d3100ac6e23032abaf403d76bb1002de787020daf3e026936120020f38f03a201ca030dfe0500144ac6034d96040031c63700a893630095487200743d02010176eb02bc4e1f010c458a00f7f242003dfded03b13d8202812f4d00ef3e1800bfc6a7015c1d9700c93b9600697dcf02ecec16013c9c7a,
  0x135214012bb1940194be3203ec787303fa67be02a4916a00d5acde015f0f41019be728023b7f930027a641008dbea803a67e2d024de78a02c0bcc80210421a020fa2a000bcf7a800f7ba3c018b48b5002230c4028a966f00be51c0024cc27101da988501a69879036557f30074415701e07faa02be9c9f,
  0x22ae1100bdcc99020c9c9a036e7f3901c3c1b301f9549301c59f3d0358fec50227626402ac300b0039c955038cf36202cf07df0001124e009ea967006dc3bb010bd83a000ec31e005d232903475ca900183b53008d326c02adbf3301aae543000f0b0203e8f4fe01cdd22f014050db0378107803210f1d,
  0x249aed03d57c2803121b93026ae778028aa16c0093c48d0169283201eb3b4c02717a5c01473adb003b950e0166b73a035f1fc102377c6100ba384200d39b0502723a4d00b5d0ce019b83aa02f5c22900343486038afe1a03412c8603e50151006b17da0348e9e4000e558003fbbcbb02d089d603008236,
  0x3fe3a7032cf95c0258a2ee0311ff1a004aedd40108ac8401c20db00218c88f03c4ebbc030d11d2003b623f00dd662400488ed003b7b7fc0000491a024bcf89011a52e00205b69300ae525803bc0ada001fcdc001b70e2d00bcac3b02ca6fc1002bccc90098de77038398ea02e0943b01d151c10306b93b,
  0x147dd0001451d02db88a901ca244d024ef9700256056c02f835740222cde1010cf51700967ce700099c2901a2d23c0050b92c000cb2e700ccbede0068fc10020c989403f03397004d509f02fca19400231eb90323f95d0012331f01a90e5600fff68100e02d48027e0d5e02421ba800dc0d08039e191f,
  0x642a0059a385036d73b902fd746401dec64c0367022503ea4d3e039317ae03f4d12c01adeac3001d266f016ca53a015e8c1b016fc85403d9e9eb029ab4db02fd0ca302fef32101e3df05026a6cd70026692d0326ad5b01e0e28e0178d73b03c1062800cbb41c01a4584e0293d380008f9189029c31e9,
  0x3ec3d9015a57c3027d14bf0386a419012a89c000c5e65f002fb998000da1cf0231e93401dc2fb3001f345e039a124a00bd144d02f263da002d3b3d03d6387a00e69fbd0093549e0370599c01054915001c1157035ec63e0032bbf50388415101b6c166006790e201a35c41032829c70263ddfa032cfac7,
  0x1732d0060b299009895de03645f7d03e6478403bd3f5700b7e7dd01334d5e029b741c01ef6b1a0038be550119ed8e03413b3202d5f643029505f7006cc888031bc80501a1013d01720cbc025d317b0000e6500324c730013f5e07002f6aad0029a82c001dc2ea022e732702e450d1036b6b9d0265fa2a,
  0x1172df00f0776e03c1cbc403c25af701c5e36a02998ebd02b3801e01c44f8f0036d51a010c4a5b002787a0000ed9920018810002a4bc9101c4b743005f2b77035c2437012df9080208af8401eec221002a5b8f014a20f000da96a300b272a900ae3e580096fcd00267adf400c3cf68018e55b501b2151c,
  0x3b782002fd93a300a9282703a935a8003ea89f03afe33802e2bc9c02691a9602b0ab6f02e7fb1100049ace0325b58b0120d17002d4a66a01a86856035499f2016a7a9d01f782bd00373522017e3e83001397a8004956f201a9d515027e94e90211e57402021d6802a68074029e37e7030a1ccb0173f747,
  0x12f7860312d4d40192e594031ac2c102efea4000b2a867022d153d0329bced01cda60301d9e97e0004864102e21d2d03eb03c002baaa7a00a2f10a0070700a02317d2c012b3195007ca699013d82fa0002d1a5029c386e00d98a03022388ef02b0db3c0295993c01f18ce703b8f309009956060119eced,
  0xce35b02b4d21e02f9f84700c6dbda037422b0018a10d503296ef6021e7ae3024b138d0392f010002a283f02ca6355013799ba019d0fce0159fef603316f1b00b164d7033c8cd2035e54bb01c694a7000540b20296392d010f448a02f2c767027e9fab0161e52301d067d20177cfc700048bc1019dc203,
  0x3dc9b80243b8d2022afa6c003b3e4f03cc0a6a03e0dc01035bf98f00d4d9650133a6f00083b30f0039e22f00311f6501d0aca00215a79d002fd95401fef0e40296a7c803ce946c0061f8070154ea18001da8b30181ca57030bb25300cddc5703952e330383264202557e68035b830701f70fb701b20fce,
  0x86e8903b45a9302de663201d412bc0045df1a028bc48300efb77003337d1702b1386001130b03003566d40364239303df587d018ce5480313cc6100f9bb67028702620233dbc203b00fa9000ec30e003b2e4202be942d0239c2da01765a4b000adff000f1d8670357eab603b26e930035f51c002ed0c2,
  0x9208903c51cf80173036d005720e90009fb590346c80b02f8b99903b3ff7a01c3f62001fbab8700352bfd0090997a0205be71010b55c401ef18f0036b103102008f2002d2f7d60369b7d3023721c40004f9d701a61633002c20ea02639189022c2e0b01ae703303a28e870197aee902ee0bd0001652b9,
  0x3fc1b03f7f64a0332904c0069f3d40200829e01b33742025334e8016d0c2603a6be4d0161603300355e3301689d45035e7d3702c0f950021f7f3603ff3e7503981b87006efeaf03d90680028d744c003cda9902c83e6801c9e15701698c9603f10ee3017bb230028e3c840355ac7b03b12568005a3113,
  0x207553001431ab022d2ed302cb64630322e76902cbd338014e8b7b00324caf00be004f039ae9b6003764570082fcd10006f9de0300efbc011b471500568f4d00cda1740014afbc02e532bf002aac4b0038ac780373ba7700cf0b1c0138c79900514c480274a143033e2aa30265f740017c4e9c01f4f229,
  0x22382302d19f46034398a10366d87601cb929b021e5b6a021efe9303d0d44701846fc9005675150010b0d00308d1b7008591bf00261a8301f4b1b30289f2b90166e1a3015faeda00c0de1500b4a68f00378db701a941da03ee2a7701063bb601d1bfc901318896039c5e920270530f01a894ed03450ad7,
  0x329f6f0259e8d901f863c901679a1a00d1f180035daf66006131f401ab5d930275fbdc01532f00002189fa0193a8ad03cd71dd039b1f1f03b2c08401667f9c007370520203531d03506a1c001b2e1a0015d7760018f0ad0345461501d79feb03921c3300c2c95f021bb1e80066ea5e00d7546a0071c7ea,
  0x3b93b003b69b72029f0d6d00a908e90107419e03ec7c5403e2ddb100e8475603ff195402e3d71e0004971f02cad7f2032b316000627a8a002bc7ad012c03cd019a755b01809ea50081d4d10328839c003e224503b20feb0035f50503da6a13016ce84a0336d1db038bb320024467fb001a702901394c0c,
  0x2369aa006cd6610126117b01577fd9012c2999010a017d029e3fc601187656010bca45002fc5a7003c9a4300edab1a019a33c200902c46015fc5f6003978de00781d6202ee82ab003f21d4004bb34e002a52400392181a03bda3a401b8418502359f5e0353567f028a9680003dbbbb03816f4f015aa74b,
  0x2727dd023e87470282ede4009add300300a849017e286101f44e7d03c0311a0325fd0301a22ac7001408d6012642860121da63034833bf026e1445015af18e02a6936800783b3b00dfde01037a29740021ffaf036b62cb028b7acf03b207a502b2919201bef12b01f36bc1014dd53301ee646e010a8fb6,
  0x240bf202f52e0d014f8f8f0103428402f1833a02d2feea03078c8d02898944025450a4008b7408002f0d0c03bc4cfa00ceaa9b01aacae90323fd5a0086c3c001891d4c01fd829e02400cee01acd79d00029ff80284223c0237a64e0119b69e035213f501ac757e001e131501fc60e5009be37e036f201a,
  0x1e76210060a7e000a8258d036c1c6b00b7c917016d2f830025faa803475848029f86ca03e44e04003861d501ddcb02016777c300e3019e0318fa6f00d0658602d8f222007c018c01e5b70702617e51001f901202cfe14103fc7dba02f26c4502026ee000c991ba02b43a52018e266003bb6f3103f326ce,
  0x13365b00be72e603bbdcf00279a1ff005fc7ce0382b6d90149f32703ae55060250c2520157d83b001b807503e5bbf70219c9b60014eaa0010037ea00bf93d601ae5efa01d37f1c002def8602fb5263002dc12501a54fe500564f3a0115ea1a03e5b439025fc2e903664d1801792255005f0dd902a1a7b7,
  0x25a58d00eee82402f616d201b1b11b03ff10c901ba5c4c005793c201a2dcae023beb2200097e1a00013ed101bc0ab3037fc8a301aa9c4903c1d877005d948f036de2bf022776d102d00a700218812400261cb301971c140148a5f803ac7a9502dbfca503a64d860274df16009e646b0176e4b102712fd3,
  0x99e8500ebee41015dd3f403890d9401849ff30147679c01e7c32d00149a5c0210190203ae399a0001fd8f020a7b0002193035003fd936039c59e200fc855201a3fc47014f7e540279598400eca8d50005f43700f325b901c8abe30153dbbe001f1c3e038d42230235804d00f54e0400345b6203d9d792,
  0x1233910217c34c00625a4903e960e60251b54f00142a1a013046c202df4cd802b2b17d03af310e000f932301d62445021dfa5a01e7c66d02dbba3b009984b3016bbaf5034cd59e0203391d03252e1e003b1f3501ee0720039c971803752b5602348521036df2d703724a5e03af3b4500397e76036cab00,
  0xccbcc01c4986301f032dc033c9e49026a403603001d0b00af2abd027bf70a01dee87b034d38f50012b6ac0096c53f0106f47e039f89730357704e02224a7f038c451a001ed3b6035fdde2006dfd7d0012e163029f7d2d03e308c30200cec602da182800aadddb0293ba7300bcea3a007faae7015542e8,
  0x22806e03de89890153bca602ce537703b9c6e30066a182012a4225030efef6005d06d6036bde0d000bd983014ddda200ba619803fe4d5d00a7da7f02ae9ca901769e1a010bfd9300d068be03134b180033eca702b6e8f20071d0a40124a1cc0307b23003255dd403c596c6023c2bcf028bf1b2009ed7a6,
  0x29ff8a035774910261ab240075330e007820cb010691070133de2700ccc3920098118600c36b6b001b72a0002d449001671cfa01e10e310264f01f039badf6036ae59e017dbc21039a71db007165b8003f45bd03b96b1202d6227c023c92490179eff401ccec7c000e0b6902cb11e102904b7800fa1451,
  0xeb91e0117fc040354f4250375c88f00011048006fa7a200c1325203fc193e02bbaa20024d6dc10015f20002f4096f019f404b02f4f1030324d9ba01d48d8d0346110e01acc78d01785b71010da5340015a9a400263d5d031d1f3202caec2d01046547002abfb90127908d01ef0059007a2bf30237142d,
  0x7d1d303412476034ea07802011b23006b3f4c0390fcab00dcb11f02ce6dcd01f54a910001546700263f6c03c55b52017fa449028fbe8700a1741b03f36f4b0001d04b03096b4e0171268a01dfa02c002909ff031884af02fbcffb01ac865d015c2bab01bc29db02e25bc00284d2130314d0c202db3234,
  0x27ab9f026a32350277b48f009a5d7c01d7c3a301eb77b900d6fbb303147d120149cac403d9d47800377a2a01f270e0030e403600a5a9e303783da400b96f640232c7050195dc2901f484b102e2dbf50039db3e03c1a72302e0482c025fcafe03928c32011e430403f49338024e40b6028f17d803bf8d3c,
  0x1cb27d0142608f00cb34000278f56d003f6fc102ea63f00084ea3d02faeaa1028fe9a3015eb0f500068f8500ddba560251907f01fb2eed01f8fd7f03ff77970220e612039d8c6f029b8511020ebd87000dea3c0334a290030d38d602e80d4c009bb3ce0385326c0112604f021f7d5600146f1203647ebd,
  0x1a2fa501efd5400283496d030b7ce502d2d3f401516b7402b91a20003316dd0351fb640253769e003c5538017d472c00271c6301119c320397f720013069f000c77f590244aaf6032266e903818f320026e74700d0a1910073482b035c1c160245dab40046389602c6c87b00ed06a6019be7d4007e885c,
  0x10c69e001417ea015228da02a48fea00ae97d60096673e0118e6cc018084cb02eb8aed000375f10021355001253e71019f2cae017cee2b031a54f0019f83e00168be8602d27bf503935f46003798370001bbc001cc8c6f031942c30034bb2f000e41e20224760702697f1a02b761ba0392465c02972243,
  0x374a84012fc70100a0aba200617bca0228f3a6009de0c4003f37eb0248849f01a44ad7009378a900243a7203dc112d01d575240326f81f02fde51500998d98017881c1007ef66b0173b6cb019666510016e43f037526240025942903832ce903eb0e5702e11d3000484dfe03c0fed70273342b0179f3ea,
  0xfce5203382381025c620f0292bede00c5b1d90099c7a003fcfd6b022c080703e713b502c044140012d279019e0dc903624a1302fa3df0018b465f039a8af800de14dd018cfaf203e3a2cc00476385002adfc103f3ba2c01beff31026aa781011578ed023137390212c9610341731903e31581037ec466,
  0x185d07038c9af900196f0c0046518c001dc745005ed286004ee64e02f426d302926f4f023205270017c20301b081f702873ba603e722aa0289099c0165743100d835df01cddbac0199ec060345db9c0019dce20241134b035e11c2003091c3009f958801cb144f02b4c4a000a3519701e47e4b035219af,
  0x2ffc1f027cccdf00e1ac6f03f7081203aca9e70346b5210070ef9301982962004ef26903ac23c20013cdeb030bede501cbae000162934200e6a3b7035e87a503c1c6f9026ca62802a661cb01d2d327003ccb9d03ee0df601994e4d011834570293ad6a03a8d8c1035027db0196137a00219bc1008c427c,
  0x346db8028d7a57021d74f6005b136a014dd072009dea76019517f702398ff0031d567100a9d64b000a5021030fea6a01ce0586021a8f1b01f13ac7037c338f015c65f900628fc000f1126402c9b2d000377fb801a89a5501b966e402559cba002d63f3004c7c8500369e750355e64901bb841702005489,
  0x3a4f1601a047a302cf03b201576538034d1a5d01288124009c196c0098545800c198450064afaa001f12e900725bae02630ef90377891d004cd2a90395f49703d1914802c5012001ad586402df6e1b0035b4c103204a31026420460170ad78012c5e6a016668110321358c00d4f41501dca6af034fde13,
  0xec6260125f60200fb77b600478fd0013c68c6021ff4a203c7036602a27621036c647901108fde00293ed4016e75a1019688e502478d8a0356d8e90263a8ca027c3dc8039e8d4303f6c53700061758001a22b6039b6ca002bf65e303e2e69d004e06040309372b01b16f1f013167bc02bb767c006f6381,
  0x32b56c018e53fc00221957018bbdc0000172000298578e024493b600ba50fc007581f700409f7e001098f500d44e7001269ca8014aebe503be31d60353e1fc0014b25601c98d6e00e2aed400bdd4d4003abbef0007403700858cca025bc50701e6bcfa01b282ee01faffba021f0837002610cf02106e84,
  0x13a594034fad5f001ee3fd037b5e20013cd8a500f1cfad02a72af40215b47100129e86036866a00003d0930262268d03b04c54016521b2034fb489027e011f02a9243b03b2d7d803d0b11400c95f55002ae49600ef18bb03fa51f00076d3890230be470317dc520096c6f0020d6c4f005d390201332e9a,
  0x1c24c8024d54b503f24c31005c5051008bf07f02fe356f020b35a701e518fd019c2bc0028aa107002237cb03997b86016590bf023eeaa602bb5cc403ae937a01dfc91702659fe003503aca012220c7002cecdb01abaede025ccf1a03a3ff760084ceb9024c31f30080e309036944f1037aa3fa02612532,
  0x21b60c03766a8702ee88ad0043634903998f2a000b38ef019e793300b5a5bd029deb7303db9b76001b709b0326a33c035205a603b65e7603c7937c0064c3b2013c36f601eaf866020ab96f00a19f97001a904602ab1069019ff4af0183b2e003212a9f00ceb6c9018d366503233776012c820d02934597,
  0x2a0d1e00660764007744ca014a76f603d5d8800395b9d802a129d00314e17e00791e5502c2e0eb00160a6100d7463801a6788301f1ab3a02711c2802ace8df039b52230378da9e01ec6ba600a345b0003ddfbe0178ab420283730d01d2daa5012f478502042c7502c77a5703dad3fa03a7b4c501d4325a,
  0x3d6a7a01735ed4025fcacb0122201d0360553f009c223a0045b3fe019ccaa501c74b6e0241d13b003e354c01799c090346d9a1039e9745018d3f130323b99300318802018b1249004c9e480335fd7c00021c2c00d1494903786840037c3bff031b8d1a0304c04501039da801d012540166543602175478,
  0xde69303defe1e03c453dc0168b6a40321ff300105fa860086d1b5008fd31b032f2517017524c500227da8020fd78a01bc0b0600f6c46e0393beb50073d0a3006597830278ae2002cbd930030e8259000f0e0801f1e421002ce1e3011155880071c6400322c0d700cec19700892a9601f1ff860352a72d,
  0x16bfa9005a24500244253a00cc1faf0049cdd6030a174103d7ebae00b42b35015744680150c21a00192b4d01f345b3005aaea80118bfc002ab373403d94cf8030507ea0059ba600120c4e60190b8dc0008d4d20272350c032a67d6004bfe500061162401acf3030022f03b000a92b602692faa0261c895,
  0x362bbf00b69356023467ed036657ae014667b1021b39e7038e1c0201cead0002c6b8600349f083003d5f1f0079ff9402f78e93035f83b303c4d4e802524d3a003cbe8903c0276b03c48afb0058e1c40024f8fe022fdd170148588902aaeb650052d8df002bf9810205fd1100f84dcf0161767602699fad,
  0x32320d03d3e00503bc361e03c237ab00c9adae0247fe840100cf31005bff0e00afa9b303ecdcc200370d5a01aa8a8503f57ed4031080b203db728b03a1d4640084bca500c60d3e03597b2a0075229c003e3cb10196db7a00bd15a002871b9602765b1b013d288d027a8ec1002be39f022542dc000cef09,
  0x3664302e21df6025768cb039b3bc502388edd0087365703d8298c0016e33901ad2433025d3b210025e3c001c9cbe40151386c02a267f8019d849b01a7717d01e0624d01cfd9940294a97201d07a430008ba860348c42b00ef950202b2738c0156f15b0231d64900df175f03f4a88302c796e302d4c7b1,
  0x2da9f400b64322004644ed024896620068ec5902280d370195be0a03e2a00300250eb100f74656001d2acf003203d2020e4fca009faf84002ef00f01a300a200e853d60040a411009ce35e0075027400144b860034c4fe01dda53f02bc55170231376d016ce7c900c4227a00bc51e3006c39e702fa191e,
  0x37f25203f18a8d026c418903c4704801028e9d03b6dd7d00e8c003021578da00feac7a036814200017c6b4008648530099761d01ed4d670047d3a602180ef7033fc0130119e52002d78822028f7137002dea8002b737c402ca6575011b1c5e03f934a1023def69022735d50280cfa8028fb4d40057c868,
  0x2ce54f000660b7010af9b0002526ba026bd49d00377365003d8dca00507aca036d26b301649ca9003527e002009c3b00177d90007e9dfe03dab2f100fc86c900a22e5c005816ee02d40b0b00db182d0029135101bd64470069b1560106d5b401ac7f5300b69ab103d2c9fc01b80f77001eafb801fa229f,
  0xc05e001826b730250ce4402124fee03666d70007015b203ca7245033ae46202be2b1f0077045d0000b49503d76a59009e2bdb035dd3b5030df63901bc6f1a01c29c2b00ac38fb024785f003433fc2002897a800a189da02a0a17203b2e4d30122161300d83ee601d26f1f00b0822601cd45cf007aee95,
  0x2b0e06001b11e901847ab7029a0a7500bd1b24010e9013016e523400c3334202b518ab03a2f68d0026bbda03b67f9301dc0b8d016471e3001b452c00c61a8303880e610219fcc301614371010b44020001eb0b0382a4ce014d3fcc03685a6e013dd72201375d7f0336d98603423d720203a41302c97800,
  0x2015d700cb9dcc0395ce28028ab2e603ccd9f6034ffa7d000d7dc6025d9d9c022dc799026156f900049244015166c801f83448039a02a402b009130049bb5a01493cfc02132b9203e6eff4004a98150039e09502af240400fef20902d1d5290087ee4401008f9002ee163901dd799f009950ac013acbb4,
  0x145bfd026ff0a80252804b034997b503a73d340185a4c101ea656300ec455f035c2179003521ed003a767c025fcc29006007ec033f245402d6cda602278c78018a8d6c030d1fdc002f19f6008cc09f002c875c02216ea6033b389801add5cf02691642010cdefb01caa63a021949560224ffe000f01fa9,
  0x37ffc1002c04b101acf8560140038f038e968d036e47c602c52ecb02769ac802b1bd78027108e10010b83d02f9416a024a92d7013129af01e3af010235e7440120a862009bf383037e982401174f6f001f67dc017b998c0186dc8000aea9790111a0610045b91300cce7be007d44c502e686eb028e5af6,
  0x13545501c3c2d8036b0ef201aba8b5025b7e610355afd90342a89d02ca0d300198b7a502749c4b001e4a190034feae02458dfd02b2b7d6010f783903cd6ff901fa507a01f8a852008aea4801b40427002b101c02234f4101c2174d0318b3a902107f2c009c50ba0293f53300dff832017b71030032a04e,
  0x383f5b00d4afa90091a18201ff136f004b92f500848712006be5e302b81c3b03387a8802d463fc0027224201774011028eeb7c00cd59e300981a9f0174da710280850100bd87d3033380820128c79f0018da46015386870281110101bfa43000529d4e0093ec7203f0ae3b016c8183010c219a019aecbe,
  0x186a090270731302a56d78032546350346525c00b37c8903501dfc012a618502d81e72026d0bc50010dd8b024e9a4e029ad47400b4364700cffc9e008556b4002b50b50080a7d0004128a80123ea4b00348f7a01455404005bbc70002b3f9303831fae008ce67c030eba06013be1c80032422801bfa63b,
  0x3ca22d022fc6e103d62b08020efa5003c21851011fb4f1001863dd00b128960371ba1d00b18ced001eae4203bfb6e80375544b03b2d5a202e28a4303f64d14035c5fbe02dcf57300f43545006732e4002ec7b600479b5b02f7485f017bdb090006194f025c719f006517480253984101a2cfb301a9a364,
  0x393bda02bd2c6e0343fc7200944bc3008f394103d94b54006975d50016ecb90313240e00280e780009a68b00ee02440117588201cf066a03d7f0c90201fc5202e11f2a0329e37e03ada37e0267436e00280fd800aeefdc0244e53c00f3ee7003195ee30221953502d6d79b01a92a2e0215eab0027e929f,
  0x39171903a2ba8b00c0e60b03b047b702ae109d02bbdee00108146c00575ec100b620a3020e13f6003847fe0293e75102036bc30053a1c002011e4e01fe3a0401d2042202d7c66403810072021b2b380013cad300bbec7b00e12c0c013de5af023b982902b0cad3013d799402b7e9bc02e821bd030b8c54,
  0x25ae0802680a7802df46c901344ec303b2b96003c115980065051000c9bad201c5951803fe5e3c001e20610351e2ba019c011d037f575c027ec5310037a49f03944b20015b3df0016d129c0379f9b8003a134a01994d4e0244b01500636b8300aa0e4f007b90a901c7fb06034780180296bd3a01e3ab31,
  0x2118de03972a2800c5e60e016a58b5026c9b69037444a00143003600c71ce2023564aa016e4c83001362f400791ee402753afd005e75ca0178502e02a2777f021d100d037f6d43003f43000044b724001e12ca00f8bdd901cd153801c57b6101bc1e9a0055fcac01e47e1e007a7802003e397000cd5bba,
  0x26dd2f03eb20e900e53fda03dd6d5c003b1ac400fd9421027a1a2e018796b303057a9f014ef67f003b861201e1f03903fc201a03fe94a2031e2c4203a8b2a30334bb0603880147004f35070187097d00192bb90316bc2d0312059600001201038784bd03513788009ef42700805b290075dcf90038a970,
  0x14942e020f143a011a19d300f510d70253b8240093ce53015370a700fddc1d0090090101fe93d9003faddc023a5476020b43a10240bb1a02ab45b902c39a7201b00b8c015048fc0321969001aed3a3001439ed00e1656a03b1c8c501cf4ba20173cd0d03c3f1ba02e5f6640011763d0360bdc802cc6a1a,
  0x1e0dde035d904c012544380273c1da018171fd0187fdf500338faf0011d0e902546f5a01e02c570029117e026bd2b600d9607902e5aff503dbaf440041b88d035af4c3001ae29d001f4e4003951b2c003403d303e50bdb0176452d03ec2ec5039f840b0157d1eb01cbb9550117e4f603a2b5eb03cef9cc,
  0x1f7847000185c301945ba602fc57dc02d58cc802727ec2027b021303e44837021abea20314964d002600f8025dc4420173704002b281aa00f38f5401e2f3fe00db42d70113c11603243015009cbcce001da4a201435ad1003531350336400f03480fd201250d3801757a1101bd02670279904e0332f8ec,
  0x32d9a401619c4d0042349b01da798a0285dbaa032ccc7b02e03be702d51126014e9b0800456de20036bafc00c6c3bb03c3f47b013d185503208036027f79c9020a46ae01b672c501ca30a100657a9b0038a5d7024eeeac02f0d84d037b3e8d010d228600b432520333fb3502c646d2004cd4e201bdbdb4,
  0x199be2000b5db50098547901002ad303e807ea02fe609903ef0fab02caa069017d32e801a5f5ab0002d2dd009765b10166770200235e35021d720303491d8103f7884902b9d1a602ac294e037bb6bb001f8f2c0211bcb503de0ea00002af1900ad970f03e1f4a10009b1560351bc8901dccb4303725d0d,
  0x15741601bcaf80021941d301d9dad301a2bf0d0301ee4c0114141500f7fd8b027f7d4b01a361690019d20a01d44e9d023c9222010ae51500ba66e9008d866b012f36b803ca2d47013689ef012b2fe0000509cd012180ed01d3505e00b22815035c759902ca78cc0293293200ec9aab038211840105324b,
  0x190df6031d020a02a01f3e00d0eeb3005e5954026ce0bc02dcd5a903cc24da014ad22a02a33e4700306812002585390285c31201b69f1e037d53fa005e1ab8022d1459023dd80d00c2987c0175e3260017125801da6ae000618433038b83e600640d2902741c3903bb0484023429b603b676b800943e0f,
  0x21850301f982f900a9448c03d014e6031218190376f8ef0034f5e8004622c001774c2701fc677b0021134a00c0d52b032ea6ad0172559301df6e3203c502f003ba229700b8727d02671d3d03d3c99000102b3a02ec6543002a3bee034331b6011e2634018d97e103827ec3017c26b101933b8b01c25823,
  0xcf0050062d35b0272b74202edf98a039d27aa02200677018b88c30006dea503afa554000775850025bab402b977aa0344845801d0b36c00a0e475014b0afc017e58e102051d5b00954db1018aa9aa00014cce03a3c22201b40f3c01950db40399148b03bf56ae01808f4802792b0d005c7b25009750b6,
  0x23e7b01aad704023182e8012e595703c5de5c01821bc200d939f3017d6b5600c15ad502fc5cf6001eeb4e0390e23300668d6500abbb3500922c98005fe72802afea79039cf5ab009ccc96012ebeef001c8a0a011a352c035de8b10049d378031bb8bb01b5a8ba0277311a002ceb8e03500a2503014bb4,
  0x157c1c0068c6c902069ead02e30b1501fe735500ae120803a53e2000bb4fc60153312a017bbbc50003b82d00b35a120332c98d00571ad10215883c030f3d8a01cd4eb301ef6906037212b5005a94cf001d7f2100dc67ca0266f0440165d409038b64e7003e328500fd6ffe0184a4e103905af301853be7,
  0x3502bd00c933570101fbf9007565b8037d7c4c03d32d2100b83ff8024fe2e701844a0003671e160003d7dc004da90b0080c0a9000a7c020262a51b010386b101d9524a012c2cc202427d05028a8deb00151572007c0fad001fd2ce0129e80701c5da99000e540c03b5ecde035df5df039c2d750230fa3f,
  0x202b15003c021202c7918603b78c17000af6d401bf63160065768e02831f730368c3e302f6648b0027498101890c48021e6ee900cc14e8025ad77200046344018a59d60031c51a030144ba025fb7460031f8f200ba46660372b96d0020a3130110dbac03073fd9002af33d02529d7b01bc819d024865a1,
  0x2a50d900891cf403d4f3a60120c65c00ecb75f018216180315337a005cf54200519534014c63ef00023e4b02ea90b60049a4eb032d64c203d17e31015d720a0343d27700326bed011ba1cd02714b640030113700a4e9d7010ba6f8032b8d350309aac80021cfa60096472a017c60a3016228ef023eca49,
  0x327bdf0181636f01874f5d00124de00081950b0134f69100a43b5203b63dd201c640be00fe1924002b7bf3036b767c028d3500036f2c6600f41ac1014332b000a370f30228160d02d474c7033078e400077c560215a52f003f0bdf02fa624502cd791503b7de110045b1e400290544035ec26f031da9e8,
  0x39399d0166a0cb024fc6bb005f15b5016b516c0017d8160048d244037899360166af48023d59170004b2c9003d439302e54b5300581c4203e573db0046366102d4f9f60219184f0073add703299d26000d8be903c111fc03104e53004fef1c0274373a0188485a029154af03d3ec4703481bdc009efc82,
  0x24773101967ceb00d1bf3102d99e12003a641d0034aaa303b23b6702f4495d018fb99803bd244e001b96c002a6a6be0024e4560217769f01ef9fb701ca4bef02a0427000b383be036c40bf034dfb7100327d0202c28141005b764500537497024536ee01c0b689013efe4e008c8b6101319609012ced01,
  0x26f13d03d024630261947d02296de601dcb3cc02d6aef10339ff8b02be22b8021c0ad1030e98fc003c019e01240afb03876efe028d87f2016e9f9a0208dd1102526613000d853602c85ec00149bc110033214200d4b8b9028280d803980677014867c1023ba1fb0060642500fc9a3002b405b20274e1ab,
  0x6edc900b3873502463851002bd67d02ec3bcf02344420032478bc03c3edce02e973a60339c0f8003da26603a2efd603815f4a03d0b36b000d4506019514e601a71eb00166966f00360d6103bd1ec6000a212900eab15100eb9dd103bb9331008b12dc038e151e01fa01450136ad69011934ca0317bb72,
  0x2c09b402815a0301950d0e03b6f8140393f9210233d6a902d4b3f40033ab2d00a5cc9e014551230007ee100205f20d02b13bdd01b5d9e500ed1e73007973af013787b800a821f5009998cf034477a30038326c0142127a01953ac7008686670260354b037775d0010f4b1100d8a88b03d65ef102e01600,
  0x38a97a00f7574101998af9018a582001cede3902150620018d32bd01007575022ccf1602c9e97f002024520261915d02f748340039b9a90149359503066e4701779eaa0312a5ed03a8c47103ff28af003ae6df02239a3e03518d770151041b01c042fc001972a903ec67990020854602a2f0eb0082701c,
  0xeebfe0042391e01a9cf98037b147a0378d0e2029fc35c02ef153002d3a7d7026613ca0102efdb0003935702ee602e03b01a8e0399d14d036cc27c0073eda10383966f031b505a03e0ca43016aa436000503970112911703755cf601f8cbea0205652a0101df1903db25e70260b7160246f14d03d76677,
  0x35d7690333f9ec011e7b3403d6d2900048c62a009c6e450228710603782b2603d5892f00dc70a900218d2d01870e000138ca5301049adb00367630023961ae017e601e03a5c07700cf105e01d89b3b002761ed0189971e03c19c7801afd327026bbe580325407f01ea570f013c686a01cd3593022d1bd6,
  0x2c600c0029b36a0220aa07004ef7e203f5c0610338cf2900af45a600f50b69022c74a000d4d62e0018366f0167242900f2fcd300dae86002ce6716022b086502f7098d037ca32a031ea775014e0a0300275e7c00b29d3702076aa4011320dc02c469fb00a59ef6033601e90039418401592bbb028eaa62,
  0x10723d038aa04500946bf7023cb08f029da4be00c3ed34016a4ab7015a0ac5007bb2fc03d172bf00211c560003305a03a04ca902ef754002fb9cf3000ee9a10267ecb402ae3c610169e539016cf8590004bbb4010f5e2202c4c23101eccd58033a71fb00cb9608025ed257007122c4031cace801e7ec36,
  0x86610008a1fc803283e25000968740030ef8c03ebfe4d0214ae9a01180be80308643f03aaf89c001e1c5503f011750304f7e9004eb6e10309040902c0ea1800e350db0254564f03b28da8022147470032a5130160bd3400e4ae05027dfe1203bd8349009026a5005937290114166c02a9856b002dae94,
  0x179f8c024b0a260073a47503ec564202268d17036801c6020ce05d0025a1f1032cdcbf007fc4d50036479e006dd5180069b52e014f155003b54e630006befe0338bd4000de7db502bfe9c70203b2b70010694303f6e588035a6b0700d5c437024a671201b8fbfe03236dab02a4650901739c9d03ba836f,
  0x37337400e327ac0333088d01405b08007562b5007d436103a15aed0286add902f94345004eaad10021c80603839b4f02e4f26302493ccd03f284a80211d9ea013539c102b273080151707102d5a0be00335e5602d42adc03f255fd0233135c0372f6fb023eca7802767d8c0223394003c4a92502e40028,
  0x3f62f303ec24eb00fd39640316f081034e34c501075b8102abe1bc026d9e6b03902bb30240abf2002e681a0260ecec001195c801dbcddc00696ac6029eb71e02d5c5d102837dde0385988d034366dc002a296500256a70008381ed03e2511402e502600160d47000e04ab5025214b903f164c602e5e9ad,
  0x1d90180343e361007d53220217680702210ffc00c4398103621ba0028fb8d300c3d47702c23ee7001c13e300ea71dc037a707a00adc6be03c4717f0122386d038f393b0011477901b4d68c0372f07a00232e7400c2fda0025f000700253cee0322bdc100772f6f02407df90284954a021880a203753843,
  0x3bca8b02b365f300771478037956ad01701d86000780a2012c2c8302d976ee00a5775400d6de120038b79f00bbb7b4029b850301e892a300c3e06f01851a2100a33aa4013ec218034a3fc402a3de24001df3f2004d621a0061ba7b02eab09d004a1dc80052c2bf01f8d52b03cea764024c24b302deda4e,
  0x28276f01026d8d0033967302cfe637001faf7e038c18ce0092b1d900dc9b3e03928bc5009fd8140019c8f6003735950289fac001002ec3025dffc00340a043004e24a403b8170f0285a1b6011899ef003f6c4403f7502500f132f3011ae25203e3be9c01efce84025c35e601ac6a7402fef3f300ab72df,
  0xcc602ef15d302f1750e03648385018ad898010ddedf007bcbe703912636005f18900395ee2100078f7e03529c8c029fa5be01013b6c03dff24501f7d5cc03ac600b010766bc0374ad6d009d008d00085cea015f1e3d029d756700d9920e036e5eba00448a7800abe01b0002a9c700a997ae015f55cb,
  0x2ac205032673fd016bc334007c82a10292462e03a033fd02d0d200008fe63d00a4cebd01296ec60037d77d035f6b4600fea63901c21a6f014071a9023cb20200fd603c02fe41c402efc56f01a2e0c9003490b002739d6902620aa40005686c02144a8a004d6489005a1b43026a29f102a123530155fc83,
  0x1d87f300731bc3006317a402237075013c8bd9009d08c100a89c3502bf22200202fdb6000d672a000c7660028aaf010096fba701fd6954011c50d003e6b4bd03d34f910272727a0237708401bcd40a00398925003881d401cfbca002581bb402f52cc601b0314e03c7b1a2018f8372011c31df038defab,
  0x266f170099c91c03c338b0038334aa0229edf400e340550119f5cd033ca9f70338c60d0193d1ac003d194903795cc402d3c6ea01d761c400604d1a02f1d7c403455041034902540034e15f039de6fa0034551d03f069a803529c7401d04e5302ddb45f00e9c34602479bda01f2b4360342554703067261,
  0xb1e3201da2d77025367c702d89ebf0355adc2030ba57f0082a8c3026e766e003830f1014e69da0006432c0365fd4502fbf5f7039dc0c2011289a501b90fb10394b60b003723cb01afa0d101dd015300035f7f031a3f0900ee684f024a39ed03671e1500f1728a00bcc7ba03ec4f6d01bcc6fc00c49df1,
  0x3c099b00a4538502335654011ef9110169170c03f04f2902a2b713023d72b4024e255b03a3613900073ad6006e342002276c58023745ba001dd8570129bfc300c6fdcd02a1a8b501c39b4900cc6c6d00296854008789540091896701bb15f2006aa7570117cc1d023798f3013bd69000d11b11012098de,
  0x34bdfc02e13172037a807800cccd4f0226deae033a5dc802efdf9002a70a9701bedaf6021f865f0011afdb024c84a80215b698012419ae02cdede7023b3ae200b3f5f00265d70e02ee6893005ace04001469cf034145bd03b30a2100a49fdf00f03185024fa8fa02840d87038b2e0801d225d502b8629a,
  0x227b802d8fb0a003fdd5903eb02a102c1ff0e0185f989014c0f1202c0dfbb0268a945004dfbbd0008f8e803c5fe9503515edd03e17eff01087b0802d3e661012ab49e006f8de4004fe954029eb4fc001207890318386400c930f102a6922f023d504e03e8bd45030ea4760316ff2001f6615202843894,
  0x2c4c8c012ad8ad0108c22201effedc031d6bde0254cb65012f254d02e0e20d031d42fb03fd88900017c9a6011c7ecd01c36a5e00eea8590382292b00f60e2700e762e500c5ddf000c8361700b5bce8002e8cc10162080a00b2d61e033d1ceb0154507d03b63426036b03750305864000be5937004e8a64,
  0x12736702d09498015d24dd01d1dcdd00959ef4019e96db030bb33901564283039d1772022bb581000cedde0340d23603cdda80037285600171690101c7330103062db500560f1a01bbba8502b97349001c7073004c10b7034d2c060114f59f028b8e58016f872a03745fad02b46a2a013db83d03314546,
  0x323cd103cd457203ea48a1008eda190193755a037b6c4202b6baf003943d7e0231945f02ccff80002839fa0364cee60051728f01b05dca02ff9134006ba7ed01cadae002a9d59202455b720006708b000e6f3302dd80b10189dfbd0068b3d50030727703155b2b02cc505a01a07ae9036bc988011146c2,
  0x3c9ff30371a3dc02512c2603cfe4d8036f2d4a007c950f020a31ff0030789e03607ecf00c7b9dd00030518039ad31f0344b38b00ccc64901b492a0013975ee00b7a54a0168e4cc0157771600068400001406fc01cdfe6301647c7901b3d73b0036ea35004d82db0050373d034eb82c00fe30220193f4af,
  0x4294c0360496d0271502c00cd13ed00d0e4ac03be753e00539cbd0109f4e102a2657d03ca77c90034d174026a4d2d039f965e0159999002762d4d0282f93403b9e87c0035e79d005283b0000766f20034838902ef4f02012600b001ea4e0001fbcafa021dd6eb029c9edc007ed38601f242a20333e003,
  0x338bf203cc69360128c3b400c016d200cff9de00dd07f30030052f02621ee30188ecbd01d444af0022861d02191fb7016ed08a00890b4e03d2037f03723c7b039c08ee022a77b602cc2e8d010344b2002fef250031601b02787559019e57da00cded190388bcce03330e4702b0842d00879cbc0343fdd6,
  0x2a169603e1af3e021238ba0038e8680034e11d0320e2c3011c8ec40227b619034165ba0015300b0028fd1b0006d03002cc214400073f9e00d4f9ab034fbdad01dcc9c202d995d10185e29e000b2bd9001e25220293d0b5011bf8ad00a887a10230fc7200217c950028eb910133c6b80064daeb021a0c99,
  0x3e04210003a3df0021d0680356500b0222f57f0366993602fdab930315da85035b9d640015b91d0009ed1702b00d8901f957ce0238cda000ded48801b31d3a02fe85ba03af27c2039d7cf00213e472001a209b012d3ecb036a93da00f2973702db521a032eb5c702c4769703135b3603b0483d030d6d8d,
  0x358ecc02fb7aa8031cd6ef00a933d0014ad542002d667f029fa15403f0d9200395e9980035044c0022d0e502539f6000d8d20f003ec14203b3d99601b53c5402b67989031d9d9601aa85d602769a880008dfba013c6929035ce06903336e7b0036e5a401d302c900c4000b03fdcc9300fb2c5601c3c4a8,
  0xbef4202779ce700875585008d9ca003c3c03d0377f22101aa82e5007f4dc100243b0300fc34110026a0b201ae01c601109b2f03ea961601973efd012ff36a015c474701acd5c9028ef20901ac8811003ac0fa00f23ac20168911f0078002a0196b0df02f9e30d01fa924a03b4167c0314faea01d181e0,
  0x256ad302667202011d145a00c6be26021f9397014a6a9103f7b7c401725fbb0131c12201932905003d62cc018e37ee018c87a603b2e6af031dd9700145ac07035dd0af00414f820190947c031d5d82001bad690155bb8a023ef81201b7fde401997c68003597d203aaa5cd011134610180fa8c027735ac,
  0x2efb7802ebf16e000853de009646bb011f314300b2066800b60e27030be95301afd60c029b79240024816901aa357102e3463e00d032b80066ae630077623e027f247701861be000c1363601a3e0c40003cbdd004aeed00283c4ad03a2019600350831000ea42c02d01e8c02127fbf0012fa75021f0a1f,
  0x6d4d6028711c60213853f020fe405034f0e9100abd932009262d1038d517c01799fc200fd9ac00030949302e5a2e000ca845d01804f38008778fd0202a2b401f4c83c0307f43402c01c2001c51b2e0011b44e01f93aa1018b872f02a1446f03cf937d018a03a402987fe701fedc2101c138e9029bb26a,
  0x2c70a10095ccf5037a7f6f024f0306006b231800148b1a02e130860148b1b40262541800bf42930001e36a019ae42201d9a35c00cc036503a8d3b6018def2e03e0742f014f4a590141fc6c00c21a27000db5880158724603dae730023dde3001d30dee007086af0297b4c9039e656a02a1827e0201bcb9,
  0x22ee04017a2d2a021ac56402280ee8029e0a9003da13ec02f8f0f7017c81c4010101d601696a7a0007cf8a016d52eb021e472603714a1b00a105be03d15317036c1cfd023039ec0002ed74032917280013243e01c69d4701ab9a8900602f5301dad30802fe2e1200601ff401390c1a00f37ace010b7cf5,
  0x1bfd9300b3078800f3d2dc019d364401b0132100d5af3b019dbf96032d582f033d0b7b03c0538b0020b067020e0f3300ae1ce9015e9a640156b07002eab20f03579bc703b062b9006d042200996a8500299ae301080398022e1b6600eb78ac02f5715b00df812f022a4c5d0252ed40008f1ace0335df29,
  0x337a69035be7270296000a02d2362302de9db803f9b7d001b6105901a0eb610082d27a01fc9b4300157650019b98f6016f25bb025d65d503dd51a900d72c7d016f005200508ff0022072be0234ce04000cf8b802fd7d0100f88e16031ace9202b900ae0250448a02144af301f895fe03985334014cf09a,
  0x3854a503c55ade0013824002b922a6037a92fc0150a95e00c0978d01f9a40702727bb603ddeaf1003d5a7f025f97620276a0ce00ad57250273084c02e92dad03857c3201781d3c02ecd8f602ce90ef0032b9f50234f6aa00568fdd02d9d16c0238ab9a0269713b01fa80e203a7bafb02ff293502bde796,
  0x3c91880280a5e701a1872201e9ecc303ce62dc01005c53011ba37802b27068037f2823017002960000713801ec8dd3020b84eb038c0720022db46600760f58015c57e802c142b0036204e300c355af0018359600a0c72300b213c2000ba0b602f3bc2502dc6e2700983b5802d7aed903ca947703562b58,
  0x1dcebc02e7f9da011c9fb400e227a001869c1603167725014e864d015c95fb0238d9bc0045d51300083357031a1228039adf4100a5ac3f0350a48400f73489034dabdc0135a69802df16be036c8ec3000450b401b87b17038f149001a5cd71000eb6a500d447c202060b550152e955012261e603338cd8,
  0x3467da02a86d0003bebc0a0237b94c0332d07c02cb4eea036746e4034d8640011b022301412733002565dd03632aaf00b2c9cb015e9485004509fc02988c130319f313035ce63303f21b400205d249000c37600011f21d039006da03509c3200affd0d0189c48a03390f6f03204d0c00d7a3da02435388,
  0xf713003593c12009fe2730216fb190178bd0102bd55140146ade8022c3b2b0172ded300f3ead600215f190265d63802a6b7a401fab7b200c0258003e74ea50270c5d00382952800deb734003de525000a1554011a141100fb857d03653ffb01f1a8a40397f029036ec13603d70baa0064bc470314e0b0,
  0xf1ad0006e2d6e01dfaea9023e248103809b37020709cf01556cbf02a9763300e690dc00ca22ca0027a13202c0a87601300a1600f025870165aaad0301651001ce8b2d0167153a002deef80392bc04003ca10b02a8606f03a384cf00b2ea7003e420900264ee8c02b545ba00381e370081273c03e39087,
  0x9428a01bda23c038bea3b0007e55f016789c00304de150291bebe0212527701915dea028914b800147c47029335d10318aaab030a32070226257e0125af080294efc8010a92a803de695a019165ca002d63cb00ab91a702dd97d001e1b69201794ea702f81580036325f90117b60a0042bcd201d4dc16,
  0x14b5500172bec903fdf2fa02ade26601e11e5401b78abb039c07b601ffc51a0190989a030590d7003044530392fb88026da60b02743f3f0141f6e902dbff1300edf498022df34b01a8fff602cf60a8002bb5f003f089070093ebd503db074d0321f15100fd663e023cb939037c5f5703a2507401bbbb08,
  0x18d15f02b0f2e2023aa6d0036d77840078a94c010ba28803973109020f733402cdb9740054f6e10008bf440244a2b4017c6ca9023a08300294941302a5fd8e037fef5f01171ed70210b38900c05d0c00037750000419b3010b489c03b8b2f9004161ff005d04af00cde37500c4b9cb03f73f42017c36bd,
  0x20c6ed010d85c90139e81902d95daf00a397e902ec9301035f5afa00d00ead0085deaa03a9ed1c0038629201f7b98002808b6e0308cfc6023d3fed01fd684c0258a11c013a6afa02ba75f10160f60c0039f169002521730098adb3021f98e803a2615501b87d6603acb87d02c747bc0166a5a800a64bef,
  0x1fa49303fc508102bf2d5d0313431a02e8e76e0326d22700c9d92902ccb5df01ff0ba9016a0928002dc46d02fb92e2003a5b1200d434bc007e6bde00b3465203dbd77f01b83f8c00b11161019861ff003abd5d0153950e0047840f0014fde10242702401e6092b039bee05028c6064030cf84b01bace04,
  0x350f4702ae31130273214c01a499790248d784012640ba02936a89000fb45a0234e10e0215df0f0015c3460381ca6403a96a1f01c88020028fca8003f8087f003c59db029be4480014456803a2fc09000046ac00f18b25018099ff026cbc9500c2fa10032b29b101ac43c102cadc7c0313bdb402581c97,
  0x1e79fa032edae0034b9bcf026ab2dc0234dc7f00c9cd5401e22a2e0258a5b201e39716000dadcf003780800321cf2802a8f29100292c5201da3fe002f9f7e0035ae62601adb9e4012367d90394cf4d001e7f120146678f00dc65800255734b0195c83e01ec014f02a991f803762aac039668e601d96120,
  0xe145c006c0ab301d3772201762d250374f69600ec19f8007878cc00dd26ef0262f8c7012159d4003fe78d022bcd3e02c81fa90222134103f52bc8039f400a03e52b620041a68f0205520e037c24a60034f45801093f8200552621018675e202f8b6cd0385b36b037a9948031d644902e2af0b001c0a36,
  0x173b050283ecbe00b50cb8002d1cce02d7d38e01e0d460002e733e01869828010bd20f038e92a7000ee0eb0026782101b1b9f2031eb11100daa729031ea5e40323585b023b802501311365019497a60002305d0264f8c10146d129024b1d8702da25d20312ff9f0001ca7900c3ff7b02db9b53027d13bf,
  0x3bef7d011571860285599c01fef32903a3d8b603e9a9a001ba1b890205891301ff507503cdca5c003544b502226e8e0196f1f101951fd801d79f2a00aaf147011c876700af50c602e327df008655a0003d5a0f018957130067fa6c039086870388f5270011f35600cbf0b402fca8ee028e487a03a1acf2,
  0x1848b0000b8879014d23a9013777120066428902f9ae1103e911c003b9efb7004d972703db15db002f785d018684030309891501947bf00088dccc01293f2c03d0ab07013abc3001808e4502b5d0d2002bb06001283ab0034c07fc017007ae02ab8259004a2a010267588603673b060263e2d703d9ed7e,
  0x252af400891c6d00571c90024413f003304add023eecc4036c91b702d18d2a0305872e0398842c0003f0180137f74b009b6b2a01379d66027815450058d15b0154eba6022d7f9502c77de8032ae3c00035df730320c80d03864e6100811bae001107110162dffc03090b5a0266c35e0074b47c01d0c2bc,
  0x1150d400c6957d03649ba40311a578007b63fb0027d74801703e9003fe7a7b02719a7d033d6a93000ebee501a2f8fe021199df01ac3fed000113d101a23c6f022af172005fb5b6004fdb6c00370eae001d0f97008e34fe03af6b8f0087baab02131789024404b5001f6b9b020567d103d746a30396d976,
  0x364eca01a566f20138ddb2009d6692011215d900124fb30285ae92038c9ab203c627e603789ea7003303e602764920025d2ca50374299301fcf66f03411761031fe1aa03cac16a024ccb860051c228000cf202010034810025899e019ed82b02109cdc004665ce03cd0fed035fe74a00f0bf1f03d56a78,
  0x3f9ffa02bb268d02f42519010fe0da01129e4301a5bbb902497b2003fb97c2031758df02f60b3f002d2348009914c002c87be00098f7ee02289ffe01c990570376209e01bebebf004c0eaf009eb9f4002d88a9037249490064479301ed8123037a431e011dd1630314f72303b0ae80006bc53b0381bb07,
  0x30449b00e9c0c50323dedc03b6108c0262c4c9004b8c5203c1f60f03d40e5a00200e3601e8e590003ea753018d13d2016a9b6901a2f4660359a7f801228473020fb613010266e2037b728400cb8d590038212c01fd396d0340071400e479cc00981c66010382ab00051b55012f132f006ea3af0048916b,
  0x399d2a0124efbe034d61b501c6a58103001f4a01343082003a9c4500ef19aa0102a6f301c1d81c002ba5770279cf58037c76a00020950201a611df03b0e2b201c516fd0383497203facfa100407309001e6ddc019f1ffd010a632d00ba5eda0231ff5100c9fc5c00c2383c0070ba7b0131cd63017de241,
  0x2612e803215ae201fd1354009309860217d8aa0119ec79034225d401b08f47005dfe6102f49479000904c903b9b22601f5b4df0129e78601ab8af703b1c95b03b9131801033a7b0262fe2202ff7294003d31fa01774bd50315e52402c070a601ebb5590084fa88003015df0000e6f003a38c0000a2d895,
  0x2b3b360046212b0371bdb402a7de20013e79c001cd7c5e0013eab1028bdc4f037b8d4f03873d22000cd23b01864ccc035146fc0395614e0132f42a03c8be31002238fc001958b5028eb183039c3c0f000c347b0183e8c603c38e5c01905c96026ff0e3007f7f4e0129cecf034946140128800100d96ed2,
  0x3dad2f005d8dde015789f2018b68000008b40e009d69eb02f1e74701cdd96e01a22955021290cd002950d10272c76e0188519c03cfe4e3009b9e2a00d41c3b032e912901f8438a00ffe40401210cb800370fd301ee710303994c110150946e00de1d6e017fbafa00828f4703b8961801f62fc0017657b2,
  0x177d8901a41bc70379c4e402f07e2e01583b7003b98c7f018a354f0372dac200eeb2240321eb790001a87a036bdb0900ffa87003aea54302338e8d009685ee0296dd4b0305d3c902fea994023222f40017823d025934b501a4e94c0346689d039ecba9039c9a87038f67290251bbdf003d5a1101d7e97e,
  0x3d58e403091b860089974a039621b802e8f0b80308b3b9025e863b00876cd7028b8f5f01048a9f00016765033101830311415f0111a4c2013b9bf1027e75930115dfc0029591bc0174959b0266dc0c003958ac032fe6e901a45543013ad31c037df84601087e1d013794630294fe1102c454dc02b4db26,
  0x2de1d80102f52401854bed03ec98ee03b2988901be1e6e025e73c700eb0fc300dc54d400ff110c000347db0161f93e02bf934901e1a8b10224b238003c9f4000e6924f03c9029a020b859d01783ddf001cd29f028cb7c201b3665c010b91a701076e24000eb22403966f0b011281010001ee52017fa688,
  0x30673302294dd802f636f901bffff603760f830248326e03e53311011508b202c186c800b60fe9002dad4200d999fc03ae7c360374f7ef009b69c703ac405d026f89bc01d1e29f01432bf203ea53e10008af15018412d60074e0bc01eede1d02f2285001ee7b9a014662a302b0d5f503729b2d01fd4c43,
  0x15de5e0006d998032fa64301a08e7e01aec2ab01802e2d01489cf002b57c4e02f951e40076e84000139b94027fba74003a19380150278b03f57d4302fb4dae03d10b1b038267ce0034d9c00022b977001e1d9201a00b07028bb7d402daf5300185d878030c8e3a021c483102d19dc30259305d00cb1e3f,
  0x339e1200869d9c013d6d3601f52d8900ea8d8201afc1e1003a30f20198e2c3020f89cc037e7fbd000561a403eac0220234adf6020ce342008135d8022e999a0181ac3902ecf413021eecb0036d12e700258d20010b48760007c04e03c6bfd1025de5650176e79503af6b2303ba731d0219a533004039fb,
  0x385ca100fd9d4e010c9640007cbeca01ad953e022ccfba032aa32e018752030397a0d0034e36490037cd8301d1ee5300878bc600348c7b03d5f52803a2760f01e4e86003c344ce02254c7e0329a66a0007ef880112771500f0ede20301938b034a5a730262db2100e3d63d02e0d21002b715ed02a72dc3,
  0x148dfe00ab4fbb03ead402027affa40127417203e44d210165a70303287a5b03e7afc402c0fc150034b3bc019372470068d8e603b286a803a788da00e42651024bdbde003772b503f6aa12031c828b0024dba40183375403f3127902ba84730326ac9101fa7a3e03d3072600017ea803dad28703ba3af9,
  0x244762023a9642010161fd03cbe0f30201662d0246deb0033585290005ece002a4dd22029f46de0036dfaf0025828b00299c820242c3d303504824007f220f02522889007d15c400c6c87f0194025100118f1701c31d3f030003230275635a0054002a01d1df1b010c7d660191cdbb00960bb001a828b1,
  0xfab0503b53f7b012e0b02008287a601d5605d00b6eb05032ee31502d59ca902a9c3c003a8052c0016099600f4613c023bc6f502feecbd03d0c730017610d502c1d25703480c7800b75d1600a1e8be000b60aa03e771bd00305b9c00cde7e3020b81c80332a77301f03ea6015b1d0c003f5989034776aa,
  0x236eaa018ca0a2005b2323024ea2c4037c0af1032a5a9102892c850339f21003fe9b0803f0697f00346a670047831501be55a303f5063203286fb90249bbf9012ad6c100d2c04b01c483da0394c7b8000df54303d3945401ea61bf03b16ca00100a52001b8dc9801c69a12020935bb016c48e003c013d6,
  0x1d92aa017d63f100188e2d0016ded402102c8b03d04b070231b78601527d6f00b3f40803bd5e00000295b2039d18c103a18ef002c6903501221a4b0083f07d02e26e42039f6beb0186edf50276a5fa002f973d038a8f1c03f9d96002e391d302b90378011ed49a0343276b017e8028003088c5001d0735,
  0x3c570e03d7e05502174603005ebaee006a7a6b03fd26970202b78d01158166032cd1d9023d8d620023d7e400c1026e03dfaa5b0209dc9e00dae5050006e12d010c75cc03d0b137001894a700daba49001334ea0163d3ad03deed44030b07bd026ea88d02e7c7ad023b7fd30047386d02d8329801bf1b74,
  0x609da034a334b0301f24301331ba703308a8501550d8703940e54001c11b4011463d2027912250016855300ad329302ddc3c500fd02f2015a52a7033c9ad00109f73c01797676014aaf810285b5cf0023cadd007193b2027e68990213a67002cafff303daa243004e8dfc0252b34b0113e50b01589b71,
  0x3e678903c58155008ede43007d3e6e037398130177b3680305dc550002dbd401985989012e75b1002a63b0019d0827022f9ca003c5ab3b00148cce03d130d301e3bc7502985c55015e1869005dac4200378eea02dc586a03a2dd1f00246de200095eb202171259036eb3290291c47502e7782102f400c5,
  0x38967502b1ba2c00bfa68100ca8a5802f84ad10078e79002861e570294b76c0262d4df02b136ae003d5df8032d9a3c02bd13c800d003d400c81fa401d377200347a0060238646a039b78b403245f2a00157c400258e85e0381229702ec44ff033868f602eaabc7024300f202f8b68e01d9c34102b67f90,
  0x36813d01fa73980322b50701168b0f0151023a031a7077038c005003a2ceab0024f89e035c93960038676f02ecddf2023e72ba026ed65203488589035842a801820c6102f4833001764e3503f25168001ef4a900f1ce7202e4a2ea01929cb400c8941e00e9781b039f9c02005aae3902f06d4302a5c7fd,
  0x3fe1f1011108ac010a796d0008f62e005d8bb000441a3e03bc4cc30333b01803dbcc7d00ffd8bc003f38570350ef6a01c0efbf010393a302d02a390010638b03a4c92700a54418033372130263a19800396ac1035a87e3012d94fd03edfdb003ca684903b258fe03b41f81037c97d90255897c02753f30,
  0x1e706701538e2c0027a2b20258405102713cd703a21ea903ebd8a403c04094015b1fdf0085dce7002c1fb401f6c3b900177bc202c6b84f024ba6840070b2560329ee43038d267002ba6f3002145732003caff100d60241014e4c7d0279b8d603c2319a02b09ce100c93c8d01a6afb702df79b1032d8288,
  0x2d7c8303215a2c02e8f6470000c08603b9bb5b0093c7000030aa9f016c839400bd75170339ed460011e562000158d103bbdacb01f956050115226b00b0ddb10211efcd00ad2e57030289330062c83a00218c0b03176b34005cdbb300b770ed02b82f2f019e2353029b07470077097d01eee6f103ae9c23,
  0x25656c025e37930371afee02b98e1d021b4556016f6d0a0184dae102880a9b0294e14402bdf904001703970092b82c02adb4bd026291ec027e919501b5bc4f03b29698023ae456016d403d0025d47c00007d7402505f98003c8cf9034b2f4702ee0ca500aaf99a013f4f96004592eb029681c80179b897,
  0x3f068103eee60303603ae70167410100fdc3ac00c0b3a802a2b95503d67083027eacdb03f76d55002becdb0315f68c021b25c2020fce7f03fd3fca01e6c100009c3c1b01a2d4c003e0fa070130c9880029aa7503c9805c02b3b61503fdc68100a1cfe10020f9c2019d9c4d02cb96b10069b97e00c3a155,
  0x1e4315018bfc670214e0bb0382b5fb03d5f5d6002d8f9603609e920291804c01964b52000a25f9001b833401427eab005b1ad50308433d0008160d0307c35e005df24a027c549002c4cd8503600f1700150d8001a01672024cc5d10097a52502595292023cbc8001372628020e05bb0174ccf001b281ec,
  0x291ef202f8fe6d01a0c6a400e51528025edc13030dfd2c005323b801e4a4dc00aac7da01f391da0009cade02091d2900dfde4c01785e600299a075037adb01007a4ee5009c0a3d00d22c6701d5e22e0031713903d90f9002e8a46b018eadb303fca8f20255edcf009989190046533603fdc7b901b0001a,
  0x37747703b34c090071491c01390a24020b56570314a81f02a00eaa01c4a8dc03482c8d03aed4f700236aca0163a6cd01d3fbda01419801005d02f301c0e12d00aa4c690163b38102864c0702e1cacb001b334902437e0a037717aa00e346da02a1ec35008615df0348c17303fd9a02032bb0ce023c1f89,
  0x1d4357029cecbf01d6dbec0173828b011d74e101d3ac080111ce4800a6b391029953a401a986bb0038a4ab005aa2ed0012399f0384d9bb00ed26f300020c3d02ccc599033d79dd01d3dc7502d5ae430036658f0306eb5b010bdd5d00a37ba7010deb9300b3e165028aff94021dc09e02a114f20373192b,
  0x3514f303b54072022da50202841801008a070c03b6b32d0279de7a00095e1100d1664f02229d64003d9b8a01b3f3120223d59202d15cf70364077603eb1c6e03eaa5fd02a7990a00b9fe7f00a6cc09002f6ec9037c2aec0036a62d01157836011fa86503d3910101f9cf93016b22c9033a0f4f022a37f7,
  0x11273800e96d4001e6a2f501c11b5901e4d1dc0188ef05005ff0d501192ae50265c80a03d26b470005bf9c01dd26160348a5da011ad4f8031fcb8b005db3a0024ee7a302dc63d002f6358800859fb0002a441a0387349503e8244200dc3fad0323f047005a0f2f029b4993002fbf04028da96703aa2a4c,
  0x32d1da0240c9bc03c7da9b01d88cc9038a7de8019c32ab03fbda3c014244f502447d4901e50fb5000574d6032c1f560117519b0005fb980229f1d102c8473b0247cbb0007278ec003fc1c902509774002debb203bb0c5a00400f5402c895c300d580460280621702ecdf23036995dd0159320c0381454a,
  0xe797c020f75890150c066032775c802db134002f0032b00e1d04b0169dec80067fef301e76de3002672710059089c00a4f3cb03f43c3601d35100019f8226019c9c0a03d8397002ed501601e75b65000ca59501e92ba302b3a5f30014c57e028db4670140b2c600c025380360394b004d94970113c7e6,
  0x38a40f00855fea01d514b2004503cb015e60af00ebc3ce0063632c0352e9c30053e71101f2121b000670b901bb5f19019b91e80048467a023b37430155f85303469d7e03b35d520253c30a0207e7d3000f7c7e02110a150200010f00ef802503a8461e032143400111195401f4f57a0111d7ed038c6021,
  0x9d2ae0035e2b6021c713401475c210232165c038e5b0502f4f6d501c922bd037a798d03492a940002535103d47c5103354a2c00bc61e701c28097020a3c97014c2f940113aad20208956b005c53fb000270dc01ba2161034c4da302614d1800a61a2400e89cd402d1880102a6e5f4021033e40285bc8b,
  0xe05af00019557032bb0bb03a51dc7010ccdf603c9eec8009076ff03e65f5b02928a0103a011890015b0a20365c2070180968502e6862403d66879022469a702eb2222006387c60339a40a02c54d63003bff7f0265281803a5f002000f67290343c74501581a390304ea1a006ab6b7006cbf1f009c3853,
  0x1b23fd03fa6d5e034dedaa03e51b370075396a025bff0503b22ace009fad5b0094cf8c022559680015b93a01a6050802b151e50051620e01c2b63400ae1c3c0364c63300c1de2b03afb0af03372c5a0017c37c0184ef26018a0d9501d56596009d270d019c52a401fbde65009e8fb60377a6da00550853,
  0x6ec70006a06c3010952140094cf150174006703405a5600638d4e02524f68000124e801acf006000e11d300302e1902faeab7012f6c0b012687b801fbba4301f99e44008ff8220179f17e0197bdcf00040741008d30f9001b104c0024eb1e008270c5026e3c19037b90bd02e81a75020ce20703072526,
  0xd08101ba7dda03b12e840155a745010f2436012e1afd029940bc039405ae0058e218014e524e0020fd9702c7895200eb35900170f57f03025f0a02a0ca3c01b2821703f17c5901b8674600b3003200059d7800600d6202e5009403fb85f901d60dfc028cf00a009a369d0358be66025c79ec0174bf4c,
  0x1f69402c79f460086a52c01741cac006b6d3801c9fed702563a0902fe9b0a01ce3d460256f2dc0026d99d0191d36a01f3eddd03265a9c0224a2c9025a1cb20222c01f0200411402867c4b00d01a600025fe3702cb401f03886cfe02f998a202c348f80195d99900606e5800454ab1003f78fe00b6d32d,
  0x2de7c103a680b70129ba550212a5f5006111f603e9ff1f01d2bef600b28da603378406027e01fc002accdc03d8c3c10398cbdd0150e3870376b7ca03e4524c03a81b7e02545740035fe82200aad43f0038dd1c0367e9f403696ac801b68d9100dd29f302a1661003c8c8ad012d03260298242901dbcf69,
  0xc8fad016803b201df670003ace9e903661a46009d2570029ef43503cc75fb016947d8011feb6f001067f0018c047103442a2002aef3aa036decac00eb5453020f8df502c2109b021c6f18037c93730032dead02c4181100d5c0ea0347e6400314c7a803d9986d03511b16001cdae80236cd5602c862c5,
  0x6382b00acfc810127150b000bae4102fb8f90000a43d202763b86015731910184c2e101dae6ed001a203102fee749006bb73a00bdae5b02c7d5e501aa123101ae931f01d6ff7e00a3b3c7025e268e002fa1cf0336f46800b40dbc03601e3102854479001f2221028f8e70014d0ad400bedd7801e435aa,
  0x1d28e00255edd005af4ee0176cea501735cde02ea362402c7553c03c5abe901f57a58017a14b10026ec2103edbf3d02c89c0e02ced59500586475010fa1cd02b63d7e027c203a00a96899002cc1570021cf7f00882b2e00f5acdf01c2404000d3ff3e0040bbcf00fbf25201e7b87803688dab0347050b,
  0x8c3400340b8360120a72f00c267300304158b0309a391025ecfcc018e259b00c00a23026bf11e0000d122029cdb1e01ba422c01ddedbf03691d4800736a87003f0162030b75ba0045396003dc8f180035b3ea01910bd1021d7c3b006d07d10007e538034f849403525b89037a112500b6503500ea6d17,
  0x9bdb503d8070c023f6b00022b81b4005bb28a024761c4026c51a3037189fd0089f7540269cb840033c1c200286c05020b63ae01b1d9bf024f8a660188558f025e164802766fde0239c20c00f471b10012fa0901fe91ae00249f550345c776010ac7ab01cb32ae0187a35a02657a0f030aca61039ca063,
  0xf9ffb00a90b9e02a3cdf103ee0f9a01fc0ac20320547b013dae340002137f027195d600c8de87000a9eab0052e9bd001b7b7900fc730000b3e22c03b99416029fea4b020d5a3e0002a68d00726185001c3b6e0300e20601a1be4702515f5100165fe601ed4c670000ca4a025fb08d039084be002ccb50,
  0x20a546038221bc022781ee03fb817f000f9c2d0033962303d8ff7902e7af0603c9729c03a4f92400255b66028be896030958150335340e00bb137a025ac5a903c4a43e02d00592017fc0cb01a2940a002a57bf0104a1350310fc7a00be730503b6f66d01145e3802915f0c00fa0c4600e76617038ed63d,
  0x634e203ed32fe00739f49001fdab000d7e2390336276c0228b10f0289c322037b0962019ed8c6003eea1d01bfeae9031f2e5a0264050901d9bc8101fdc541029fd8f30197fa5803158a2c03dbba0b00173ac703aba5ae015055c80081117602f36c2f032adbc501d1d4d403987460021edd5d0166d7e6,
  0x34825f013e3f6e02148fb90069fd9201c0eebe01b43b9901b237f000120b220182c7280089b62a003a930d0379a19f02ef9cdc0304b2d300ad8d6c0182eafe00047983034b4f2601c26c7601c53141000f384401e7aedf0257916801ea24ed039ee3e9036b38c202a5c27f01f5d4e402fc6e5b0118af74,
  0x85949021a03b40373cbd90266ac9402dfee3e03db501b025f81aa003b0cce0087cd1a0119dfba00033759039444e10320bdc6006f80fe03e4818e0209ce21005801020345d96a004aeb47039e2c26003c0be9007b3e69033598c902e11a8a0351553101b49ca20114ff6c00c4a300020e76550243bc9a,
  0x3ab1a3013a99f903f74cb2026ae777003b97460035db8b007861cd001d33de02160f8903b1891a000ae44a03e26338004b5f9d0158632a00cf25c3011c0e2703b27fb80387bc6d023c06830293ffee002c4c89038c85a3018c17f803fafe9e009b11fd0000119801ba491202aa98000281663401968226,
  0x158f1f024314ac0128b9f5031d75a2010f438e006b400701da825203be446200991d1f035145c10025e39f009a39d500fd1adf004757b5015e793b03b2bc6e03de9a5c006411cd03eedd9700e0ee47001dc88e0111e1ca018ee3c902b8ee2503d2a0c901a8113600d0497d00eba80a00ff7a4102a26c49,
  0x375884002fb9440050cc7b02f3df8b00c2bd1103ef2c6300bb129703f43ab402cbd4be03699cbb002655ab00e43af10282e2fa03e1d7500023b2080193fdb700b0048800436cfa0167f77e039c66aa0025ad2001c181e600eacc7d0051979e02d20e37019bba3902f4fe1d004b8bf900679ccf01861db1,
  0x1374a702c613a901416dcb03eb662403e3e911032c113200ea62310232b72e02a1700a02555d88000d561b0365e37302de50c701b3a26501cff7dc038018b200a53d2402bb3eaf00863b8203e1ffef001114b001f630650015814e019d65a8001894fd01e25e740297eeec0046a373023bd69902f951b7,
  0x3e7c0e0182a385036cc4cc01c7428f02b74f8701524fad01474ca602116265000e839d015dcc6d0030ba1901ef9bdc014cfe4b013ecfc703229eab0129dc5c01406b7f022bc0bf00901605024f264300248f7603db582b023b308903ed653a0075975203359761018c7dc9028adc980113acac00e620ed,
  0x1f4b64005e8b580169001901f9ef3a02a70e1103ddab4d0306fd1500f6a1430329a570002b4e44002c2403028762ce0075e4bf0123d4fd03d31c000333738b00badeb101af195d03ac31e6031c26a1002c20a102b0812c02b715e4039e6525011eca9c02dc5ce1035f605302d19de302bc692f024aa5c3,
  0x31b5ff037439c6008fb1b303401be90039fa8200e8dd9203445f8c023815bb032881da003a82fe0001173701daa0d101f467df00efc62b00bb45350397835600e76a3903efde6001fc5237013bd0030016fbc70216714f008b59aa03e14a5e00e3a827017273c60377045f02c5328b03ce1875016ee5f5,
  0x1ef8e500aaeb10023bea690040d53e0274bdd1036375a700070f56025bc30702af1ffa027f5ee6002211a802291fc903f0625c0281d14702e99a8901f044c902f62c62006aa8000262818c000d65ae00212d1103eaf70c003fa03f036f660301a32b640142015e0022cd5601d7306102afb84b02700815,
  0x61dfb00db476402a4947d0167286c017325b703178552016c33140102a72d025b19e900f86dda000e31e302797c2002228200008113bb03e4387200e6730f00be0da5009f677f000208f8030caa5c000682bd017abcdb0240fc2301ac791c0011b98f037356940323d48e007de91303f3b7840050c96a,
  0x38090703cd29940142d6b5024995010296ec5f0292e9ce020e426f03ecafd502370e1f00fca15b00369e7b036ebeb200721071018e83d401146126034602da014e643b002a836b01ff81b60017ceb9001812fd0046bfb903e2fcc800f0d46601f9df5f0133a4ab000f42bf02db54130013d79b03f185ec,
  0x3f11ff0113c4d703f33eb303cfaa0a02d2e79902c55f2b03600ad00212182e0123d27a02069f60003e9d2e0085a6c600a3df5e01a03e9c0168698203d5c7ed004ea4ac025da5ac02bff7c5024a31940017d9c901a51a3203c74118007d8e11031964b0005c2223032034c103e16e1a011ad8dd001d6783,
  0x1703f7038141b802d05fe202ac6dae01a1f17c00ed8de1004cdd80025a47af039d148b015b7b4b003d39b500183be70356d5d80137603703fc68e0036b14f702c462bd022da30c01cf5914035efd59002f1ce50107f4be012e339d01870a110199267502904a3902fc6027026eb48403a3ceae03add682,
  0x39f8d401e61c7b0225834801e90d1700b810eb01f5757a017025e103ae2f5a02a986a100e93d55001106a100ea6f5800fab212001b86e201c5fc5c00409da500705a5500f8df690109c53301d1daa40034ffde03e367a203c855c80043c08500ba4602018956a80383d5910161487101b5637b00051000,
  0xca99a03f88b2d038909870237235e02fc546002fabb1e01154a050045f19003801691017b09f1000fd39101eb55ce020ef5810082dc4b0390e9d302989a1c000c903b02328b230323a3a400d26f82001bdc9e01f6506702d85be801d6efa3036d26e80024212e0274e28001578ada00563ba2029e7fe5,
  0x3ad23c0256ec7301c7772402de7de002ca0a9201af31c102d83172010dd28d02e2586703fdb6d60005b12203ac45a903cd5a8b025d4439030bb3cc02f48d1103d9953203c1e69e00a168920242ebc30034347f037058f601bc06be00dfd3af0105339102c804fa0164df7a01d0a45500d47e0f01822348,
  0x35d8420051741f02ff3276019affc601387e2e021f7cc20062af570124486001dc0bfc004881160034905603493dce0094063503c6655b03946767005df5eb00067ea901cbc4b100dfe0b8008d926b0037a77b003a60c90005676901c9e38d01af9bc900f1ec71038b08b301f3730302170904010529b0,
  0x149d2b021cad92026ad144001f185703b3191a026e7215037a71c902a7e443022a611d0354d255003235cb01024eff0098689c00c2f954030d2e8f039343a7005429bd0158abe003b5ec5d01db83ba00224fea02f22b03017d5050029859a2014072fa03194cb3009a0824012c4b1c00e788f10383b0d3,
  0xbaa0c025345d2005fa1c001054ae200c06096011ccda703298b5c0299d26a00151f1b02f6fd74003f448700901af7023468ed01dfbbdc00cf97f903a36b67038b683a016d4600039dbf36028deb6a0034955f024bd1a10004fad301530a5703b3acfc010ffd8d01da00b1029c91a802837f8202f500f0,
  0xaac802522962004e408c010937560321e5d903ebe8be00b77d6502f3473202a388d100a74dce0019cd3203b841520363f27502bf0ced0074b89f006e2a9e005e0faa033e6b1101b6f848006a3d23000f4c8703e57361038366cb0161b50d01b88a750200d3e702118eca03710f26033bf67b00b65564,
  0x227bd0202d442007ffad4005c2b9401498d7e01ccba1603887a4f0217ff370173d2b9005a232a002535ce011b0512029671fd02c2c55a02ba2b1002625129012e1f13006f041a00a0359603786cbe001d2aa900116d05036f177703f09c1700c3944900bc8735024cdb740356f70c00200dcb03917838,
  0x14cd1503ab28b502a840c100f7da010359968f00ea2bd103cd020e01492a8900a6b11003b061ba0009f40301926ecc000c032e036b35ae015f405e03a1105203e5124b0192f73401086734033c90f2000e7ac602ce36fd003282c200a082bc024632c000e2a58e030066640017985b013dce2103d4375a,
  0xabfc10153fe1a011f221402b09901037c563500f8db61000d481500dbcead0391619301bb9e06001beba9038bec980318e46601fdd4220141f05202fa5ebc01cc2f180096a2a001659b0902dd616700179c3b03cf909f011d777c018fd15203388fbd021da8c000451fc10156c00200e303140118fd59,
  0x31654303b6a81102bead8f02a0407e015e3a3f0344e2d80134306603a67af900ba2f0300b32522000f97e2022e743d00abe8380077731d0007594301993ed403a5a6e40310d06a01db104700ae2ae90010268e025e7e0501bbd04801211109007823fd0359bc15003c7f7b0005d053019a624302cb015f,
  0xf70790215d6bd024b755f0200d13301abd352026deb480187ae2103571e3d0013c4cf018636f4001e14b100f3dcf4021be0fe026a3a0e01962cec010b8dec0325ce750227924c0105dbb90158efc5000f0c9a0014b8b303e9e76c01a991e701a4f7a6030fae0103e6ca3c0284cb650235a15f02e3ab66]

/-- secp256k1.go:10, serialized bytes 522240 to 552959. -/
def tableRow17 : List Nat := [
  0x0,
  0xb0289015a90fe004ec3af024a227f01c8def10077c77f006e77e103ccc94d0193b30700483a84001eabee0157c90403839f4d0057108a01dd0f6101a45d4003e4d71202193861037b0ec7018f632c00035358019c947f02b35ca902ca6d1e00c69b060214cad301fd8e10028ee9b2038772a002e4e2ae,
  0x26a66b035c03750338321b038c0a2500456df9028f44bf016398240185157a01aa3f9c034f8a1b002090930133447e02c206900246796301cc4ca50316daa9033c69680041f0cd03cde49300994f480015952500a15dd70068c01e01498fc201e7ca980239908003014d4a0023ef7a02a1500b01b107b1,
  0x2b26f5037cde5100f343f902fc21c5006d796b03818c9d0181b5cf023bffae01e46e3f00443446003f8dcf019ccdac00177bc102a49bdf031e698300bd20b4017ec4190262c33801f831d40068bc180007652600de95410374f92f03d900c3034bac8e0095b30b0144584e021c6e1f032ec9c7029852a6,
  0x2b6cb2025459b40381292c02323adc034066c101436100011bd7d002ab7e7f03dba81a034248490004deb303cb01290063aca2019b488b034b37d702357bf80134acd4020cd22e022b13d7010d88390029a47d00e72de90360af3b01e4ac8401ec6488001ff57902b8b30403303f4701fabd83031dc6b0,
  0x24191403c0c719016d203f02c1f8e100e8374b028102a70281951803087c0c012eeb3101c7196c00135d0503d37ecc034fd43f0314471400111ceb01f9762c03e96699005ede8e0159fb66003030e9000efd3103fb94c30195fcf702bfc2e303b251e900763714032ad52903be9f8c024d04ce0018d13f,
  0xb35be0055e6bf01357c5301f6392800841cbf00aaaf5a01fef91602ca15fb038cfb700283ec6a001948f60391c46a0215d38701b2cd06016f9d490042057101ab058a03c3eb9d006fac1a02e8fc6e001a84d4020ead9203a8ed9a0288e14f035a40e003b5ee3601b06e6001faf5bf0199f3d80370dea1,
  0x3dab9d00428dcb03c850e702fc437d00df26c800d9208c00e244ca02322752003b01ae002dcedd0015bca50381943f00b4c0fe0263957d03ef2d820007a894020ab48501bd704a03ec145f03cd1b7800176e4700c89d2001960b7e032ab82103fa1291002ae630004ddbf202119edb0142f39201e83cc1,
  0x2ad45c0240155100be0e230196dc5f00e5c34e01ffc63d02d696aa008fe7ea02b3aeb201e163ba003c1605007e7873016d4358008fd7ba02919fb5011634930136a37d02fd13a5039d1c6702d605090014260b0384d894034dc6f203c9640b03e781370281151c01f1af6201fdc788011f18dc01771c83,
  0xb346100a4817102ea70c601e98f3a01b36bc3023e27e203e154c602f789180212a49c019613d4000c47bb02616d520100de8a02ea8ae90080f92f032ead5700fe80d6001180aa015a12950116f2b000058e5f03350440037728e6014a9b2703721b1401246d1b03c0013a03b0098e02e4b36701291537,
  0x5a94102b5aa5a017e9f0a0336a7150213ba11029682b601c6d0f6037ba963009972cd0377885b001e3bc2030a403601b674de007d968c02cd4396026efdfd0085063b015be85a012fbeb4039b69a60035ad3f034b59bf024451c400724e1b0259bc370047882a0037157700d02478003b9f9701f4c0e0,
  0x10d0f403256e13005ccd2801d0c53e021d2356016f8b5e0279f44c020b02750006091e00336bfa0005d12600b43039031e22f70025795400d9e9dd0158fcb602fc74d80058a4bb038085700266345f003b3bc603e94ba202a257ea02151fb20213488d021c0abc020f7f4e017b43d0035d0ea001f2c4c1,
  0x30a37801716d640041e0a4039bac890090407401a1b01b013e3224034166cf02970f06024f516c00303d4b01b0f49000969cb701bdd8640344dd1701ea21da012ecac601a196720296201e02e913770031fb3d00b0a1de02328a09009c0fbf004cfeb901ba72dc002e995102d0460600c5de8201ff5731,
  0x3d2ad600b9eaa9018d76d300655310005285b002c10d54000371b5025fd24f00f93102020580230017bd0e02693b8900a776c600e0b85301b1029601db541a00b40419004d2a9c00d8245b02cbcc7200201d830190ed76007f77cd0362b53a03400544018a833b033cb168035e95860203a72702976b58,
  0x20631e0111d31903eba9c1005830e70176a74700931b8903cae188001bf47801e596d7011103620016d6670329f03c02145ddf00ea251f011d096600ae5c8b039b9c650269b4e9011466c201cf7fcc0004d6220085f3a003f7b2b5011f0dd20015eaf100ca050b02ae472a036432820282c1e102b0c345,
  0x316173000c8432017caa1802e311250289690902bb5efb0395d1b802789118003afff501acef790024161d015b3167025d7ab90355106b01111117014411c7033dc4ba0107528700a8e11500db1b8c00192b2201d47c63004bf6f002396afb028f300200d9b16f009f807802cce04d02998b7500cb7339,
  0x329af10089af2301f371c203bc0c4302d6d382003be25400c77ccd002f5460011d01bc02d7e6f1003261fb034963ad026a2c2b01417f5801adb28f03df9d58031abfd40196bc9d01692bad0002b10c0016301101acf617019b9c3e011a1c2302a80c30038fb1820393fb750237899f00b6548b011e268a,
  0x30dd58014bd0f4007a88bb02c2e7410116bf5e0145c6510220217c016ec794029f99b100d7fd7b001f1c4f027bce60000d11e7017630de036c004103aac0a5007b719202df0efd036e4df102ee12c40030a6f7035906ef0306c380013b4852012d0e3803a0a966017a897003759ec101ef271b0288c341,
  0x2cd0cd022e4d0702ac185003a6b41e0385ebde032c995f012772ab0055447d006c4ca701bb0c8a000b962f03f2d37e01a79ce9000206d30256b4d5004250fe008e29e80170465102ba9d6002ebbe7500078302034d06b50091489003069a88020f3c7d00a7cc2602e88e2101144ada02ce3efa03da1a67,
  0x14719f005602d80048a5a10200528f009e48cf01f767270346a12f03abba4e03afaecb03d546a1000658bd018fe8c800d67b1e022a44960324447a000c9510029308fe0114264102b5ea620292d1940039310402dab0c1032c6a790060ecc40369cc35019cb31400196e4801c67ec60160ff0b01ddcf5b,
  0x5d7ae013fb22c03ace188021306ef0143dd4d029774bc00cf37930366da7d02995d770256c4af003df7f000f9f71c0205f50f0057aace019843f40207e82001c3a77603760634035178ac01e4c57a000c692603bcfa0002c3def30202c4b701804cc101cbc44501f2db47025f8018034b19630330322a,
  0x2f029c030e111f0384b5a800d056e20084a38c018f825b0194302100be3c4a0061b5eb00d0fa29003dbe5c02171ade00166452012dfe6b033002ab0151c79803c638f103d03be301dd676a02c34d740023c1c100bf794602ffce360250567103f614c303383d7e0287361a0013904d01b644a601b568b4,
  0x33e4ea01ba489e022bdddf03887d490063f78b015d35d702a0b34c007b24e5000d0a6403e28a28002ee71f003f161701a59a0a0259f5ee0205342201edbdd800f88f1e0054b77103a0b0b20373a76d002312f001bf639403ac2eda00f6ba35005ee7f90344fa180049497e0282a7e401c8cda2002d2aa7,
  0x2aea47020411e102e759e6016238500296eda802d69e350115d5ce0324b90c038a8160010ec68e00201cc8010d11d8011c3543011ac370013a025202b35bda00c1deba02e9bb9f0342d8d20343c7cb000b5ff6016f660601f5713d01b090e600ad57c702a0695f03c16985010d8ee70311577502ce4c60,
  0x28e4fe02ac69a5023dae920081696e0125061c003673e802f20dc802d54bff012754fb03b99cde001d9f9000209e95020f4ada02fc0b710005582e006c4a3403aaf3b10299db7302abd5fe0339013e00370b1a01469d4b03c834ba034ba32803ef399d032850630007d413008e8e890004f9ed00ec4bbf,
  0x26d6ef01d4b7cd02bdbc3903ddb4e2024bc2c501147717004be3a6004be3c802ec971501a29884002ce41f025e1b1401dc4b16039a935e0378c27402fda82c00093bfa0344934e011fa7cb0082042200253041007b9c35005575d3008e62c80149496b02b607500306b6c503ae07fb01c8472a01f73aa7,
  0x80f1401e8f5d300dd5dfb0247567000877588038d8fb103fa805e0307934c03e54c8200bf188d0027f06c00b7ea930287d66e02c8729d00a492da024a5c47008d17f903d94c610187018b0082b9900039999703a7ccfd006af710001c0fa601f9959c00c1314702f14eee005a546a001a9a60004d9d25,
  0x31b1f400df71af034b78d90066fd680311be9302c71b0000abd1e401d045080147cbfe03efc2c00010779602b3e0e0030aa71e013a5c3a02e14ea0028db75d030e81c300f9638d014c5cec02e22b34002e0b7a006a376703b33cab01f37c650156d77f031e9c90032ba45e032ede5900a5d1010345976e,
  0x31881c002f4ed100c942ac022ae82f02458a4901a9257b004a5ed90158d96100790e8000ff340300061583021db57401ad363e02bd142e012aca4a0132a64e011ffb5b00561b3200c0274601a6a137002b939a0333a1f603099a3d016d251e03d032ef005d26360158ab2b01de657000b7399c0204fbbf,
  0xcaf5a009f988903690eb1014c34ac01972fde004a4c1702f09bb001a5e95d016374e4030032b8001f8326024cbb2a02d7b54c00c60e5f021c4f0501b4e23e01e1fd26030b0ab2013306bb025a76690014af680091b06901e2d8f403b1cc0a00e677e102a95a41004f851e0056a554018221fe017f1578,
  0x10b80a03b2515701807e72031248de02a13588009ce9a202c0d9ed0299a9af025391ce003ab42600166ff903a431d203097468019e0b35002849de004c102c015a2ecd021e3c6b0239c32a0096d661003f27ba03a05f9a02476e7502b54385019badb60397a7dc00eee8610126826d013c382200e20e17,
  0x1cfe720383abc802cbe9c50352de4a02b9eea10165816202ebb5bd02f57e6702e8ee7c03d532210003b1710393d1810090c3850069a2a902f6e57200f5b32c0064865102532cce00078698028b0e700030b23703305645000135e600a06d2500c71efc021f1cb801e58aa403dd4aa6011320d402fc05af,
  0x167b8400f758d1008a19a803d02d9e0034f91403af9e1b02d6da8603a0d31900f92c32030cc498000089e002cb09b702c9ba6700a4cdda0289eeb801549b8d00d78d9d02f62c4301f6b82102b89fef00216eaa0320dadd00b2b9bc037940cd035c709403a2dd8e0046be38004cc8b7015469eb007d5fa0,
  0x3da96f03be0b5d00f964e902c56c5603ad1dc80108119400196100035d67fe00154285039ad9c5001db41e0041314701f11ae50373385101fe4a88026800790348857a0042d3fa0130e1df031b04000021b8d4019d745c0280021400e4ec0f00ddceaf025ff3380379703901ddaf5d02e1816e0053fa19,
  0x2e66e10253aef000d1ad8800410ba903e12d72026d871c02868de600295c3e02aeb9300175731a001e93a301cec91c01ce3ea302ecf1fe021d93a300303720030c6be303618cd902d210b502b71e9e001e200702ba117702282fe301aad776021fdfaa03ed302500268baf00d09638002d5cfa00756302,
  0x22992f03adbfbe022da12b01ade1bc0091ab3602cbdff403dfc7f101f5b352038ebe360150e57100207e6d004ac37302642b75005c0c94007b3ec7006aa44d02e7555c016018f302aaa585026210150016062e02292f7c0261f6af00f874e101625f1100823f440100cfc6002a0afe030e9d320161f657,
  0x131f200268fd9b01c240e501f59c9a00e44f2702a63d6c021e609c012bded200cd9ea902a9c8390023844b030802b4026cb37c02b8720b032da9ed010923da03eff5d20134d38f02e4a032037045b40018a1ed0205749d02cf384b00e0590c03ef6ef102bf10ed005a4fd503e2eb700394dbb203975285,
  0x7b3ad01d6f167035c268f0223523f02d711c0020a0121019dfa9802eeff8c00c5151703beaead0005bb3703110dbb00a729aa03ad0baa001e08a301ad4af300911a9d03322f7901e8e22702a8c219003be2b401855f69005dab700256ba6401937fe301d1211502e8c2a901b01dca0288af1e02915138,
  0x3c67a103336b88006a30d500d3dab3038de7c700b0d41500b16ebd03c3c4ec01d733b503d1c0ae000b3ce700b3aa59001806a001ff8b1a00fb4bb103089b90026530260319c25500c0a13402d2ca0c000b346e035d8cb3038df7b1032136e10004c08f0050c31c0226eb9303552e3c037b264501f58dbb,
  0x3152f90159bc9e0239f7a902905956010cf2090328d6e801e043d1002c6b74027db26602211daf00047cb600f10be4026430c40116ce2f0364a22300cdecf6003c54ea029bd8d503f7abe1038d95920004efd202da965301917aa700e22d4b00fd048602490ec80136eb4500f3c7ab018dd5cf01d60c23,
  0x5918001f8e2e500f552d102f563630291f035004e829101caf051020dd07402368f1c010b63680022aec5006bc78b020f295300a5a781019ccfb202e0eec2004d9087034d8192017045930097bc9c002eda01025a76ab035e0ec10290139403ca7d1d00582b6403a0a944021c680d02821ef90362836e,
  0x368c6002c1ba60011b62fe03bd4fbe003b5d6c0337b45f0001eba4015274a003d10d8303119e0c00130408024092c303bb6c4a0311de5b03141c2b021738e300b23e9f01e00a7b033f18c2023152b8000d801301af950d02c8449500c8f5c300186f91014b2ddb02b796e00132a46f01ed48080186d8cc,
  0x3b954b03b5fbce01d4f3d903ab0d4d013fef4302a0297402afb4cc03f657f4038e328a03ace1a8000ec94b00e027940187a0800040263b01e3b6ca0139a19d001120d103c5d6490280646f03dc010d00139e530061afd503a4b3a202b7285801fc956001ee11d00274b636002eb3bc03e94706016e47b6,
  0x3ee8120016633503efd8b903b1097b0153beff0187ad51012915c2035fa1db025d228102e3469e001bf2cc036ef501017a994402c05198032a1c6303efd86001be202b0114b76301fd5f6901806b1f00279f120069168301850251008d468600f4a4440292a1bf007e50bb01647d0c01f148de01d8e314,
  0x14be3c03bd0fa702dddc990232930c03f8a88600d26d9301d75c8d016fb81f02ead36c03fda92b0024702003220a32023aede801b8d431028b0e270201d9510105e6980066c41a0083aaf5029f732a002240a300f52643034223a100b77c2f02f533410270a0c900efb6bc019efa3e02825f570182fd18,
  0x2931e30252eb8201ac88dc0084724a00fdd5e903ba171d018ddfa9012a6f2702ce97c9008463b9002eb8da01ec243f0264893802bef0b4003701920343f1da00ba6fa3002b9e1803848ec203276661000f1ad501835c650061300c0275682a003b2f1403a200b50134f95a0254525a02f03d520193a15a,
  0x54e5f03951ba80113362a009b96a5000130570052c35302c7ceaf01275ac30134500400c8392b001a3d7101aea92a014f5dca02c669b803779d4101200a3a037d3522033c0b8701090c5101c88ee80036c79401b792f601ced547023847d901f5697b03075a13035aa14c02e56e71011d9eb501478fdb,
  0x38fe8e028652b80355b61501c7b11b03f840810030fadc019260df03977cc303c2cbca0084c70e001d370c02db9eae02aa0873000be2a1013e0c1d02929ed0020a7a24015dda5e0384a75c0288b9ba003e68970307bded01ea4f3402348152020d12f60335e1bf030ea2450109560301afe5bd028d4ce8,
  0x3670d3015473ec009e367c0350cd2f027900f301df8b950230160800417d33012daa96006c2334002b5e21034ef0d6004e1a7f013ce5a701a00ec301850c1a029f565e03cf78c8003031fe01571d05003c3d79039ecad000b40d530002d25100c5290901208399013cc3cc039d81a00317b61200f45a2e,
  0x299c840285b7a60115213201bafdf0016f4954035710a903d067f90292cede03e1b73701c3ab6500111ff503b2d2ca028f8e6a01443cce0198f68c0316fdeb0040b2fe0218e4d70001a60f00057bac0036692600011789003211480008999300aaae9a0069441f013622ba025b46ed03a66f7100a159a4,
  0x15ce7000d0d10003cb76530148eb3a0294e7970041fa720372f85f02d998400143e998020a9314001ed9400060569103a8976503004645024832650000badf01b407ad0087e1c402551967001dba4a001659f5020b77b303d5d0e602bc5a4a038c38dd02763b69032aaf9000f74bae03ed7f3c002a9ab2,
  0x3f98b601f4ac32010aa9fc032e603d02eb103903a2fde0013c4266031178ed03b9e3b3017aca0c0038e25a02060dec00b06aeb00ca46df013bffc700447cb301b64c7901e4b275015da8bf036a0d65000ce33b03872e2901effeb601e420ac01948f84005fc0d901b1dfa70395381b011023db02aa5871,
  0x2d2bc9014865d00087b2fc03ac5d13024f7808014daeed038750a001b8185e01c6e35400dacade0024b35002a32a1d03cfc04303cf7300033cf0dc0376f84d00bacaba01291c4e00b31c63035b1401001e1ca1032d248603173cb7015f6be90087efe502d7159a0391b41a02f8739d01713c2f02228bf7,
  0x27d1150369233701e2bcf201fd671002caf2ce02943722028270c3006c5d0103dfc8260007f1e9000b791f039535d8011f0058005204ed03d2f25201a74c26005b1ba100828c84018eff6602b34277003bab6900ad00f70214eed9030426fe016ace19028d878f0183546d0034417d03fdaaa900742bd4,
  0x1d7d6a011ddd99005d1f6f0206ebdb02f80dc803bdb3ed0341df230154ab0901c8a13f01e3043c0021f93e00f9a8a401bdf099013541730278531c00a61ac303a992aa029dc852014f35eb03ac09b6000e67a00249e4da01336de2035607ef010a7196000ebadf01eb803f01db9926002e8a2403f73781,
  0x2980dc02b9cbc30303a5d501d9507900a5c7b40253b150013cc103027b5aca0288a86701a963120001892800aa815601e74d43011c13020139907002f99a170362f31b00b64056038dc5b0017fdaec000d1b82001b85e70319b2030207a518007860980130bd4501efa24200768766037903f800dcc4fc,
  0x23b95a01bbdf0000b4c96c034100c000253163002c382b03b4ed5f02b2ee9503633f98011b1fe40003c5a9006bafbd027c4c28003a6697031f6f1601ebd5c3017fbb4b039fe435020deea0009fdc500000cd6b033a5fc80108587c036b971603f47d270050e6f803b1d7420360a66d01f78db80291d864,
  0x19311d0289ef2c01b97c7d02d2b62d02beeef703987ba400b2c9350189bc7701ef0e6201deff35000661c8027fd56c03db134203c651a000c52f4602d6eab60206b18203b37298020f6bb902b5ba04001aaa48017a689603772a3401791e8a008827f2038df8ca0343b687039278cf006bb7a501cddbda,
  0x344518025b92f901e83896024575e400a499be0350c32f0180bec202afaa8902074bcb00e65ff00029161a038aad1a03c0068b02a0539d01e080c603ad227d01fe3b0702d58c3e0058b9e802451987001abcb5016bd45400f767a601057b0800eeee4800a77736011f8bf4016c638603091eaf0137d047,
  0x2f5cc901c19a3a03d0ef9b0197c52402d00cc70347be5302667f1a02994ea200642236021d39cd0000c5fc020301f5037f5add026584210154466e02b515f103c65c1901a184bb023b59cb03604377001893cd00bb418200ace704010ea4d603985aa1028d13630050b5110397e9730155ce620271715f,
  0x64a5a03752ed60091908a035d7d3b0096ea9d03f1977c007a502003e89e3203071d4b030e0c44000fcf7d032f9e290292da7003e0a12a02e688bc0365b06c018e9111024cd7a3008d5efa01773282003b0fde0368c2cd01a9d7d102d0a73802aa4eca0185748500d622dc00d1cb5e01bcc50500a1be50,
  0x125cb600fa243b00e2f9ae0367c00e03e88e1b00baba850261271f012b38c6007a37fd02b524bc002131c5038fdbd7029da76200a05793025065c801b1a06000825e210207194a036110fb022a7a010014497a0279d56803958b8200fff5c2027bb31a01e7a3f202359f090013017201a6611001104357,
  0x2f0a6900f7c0db03538de903aedc99020f03fc028893f700d61b3b03c5a4bb00a3036b019cc92d000f7f9c00991f8003eaa0eb0197d7c700e1c21c00573978018e469403f453ea00ec32b103d8e81a000aa8ba028b0c4500fc24f600123e1b03a93e4f027535e4020e86aa0385812d02c31f190168b559,
  0x38d27c0005f8da005dbb47025a6bd900ca1e10004284df013c47e0012a8b030236339d019a80b600266b0e020972f50135412e0002ce74032fc89f0151256700182ba80130c9b701abe432000d4ba00030032f00c53fb60342683102ac32260344212902204c6303f1f2dc01b6b46f01f7a88d02af6a80,
  0xe75dc0130ec6900e6a6690055ce1a02adb8dc0395a3dd023995b303f8cce60242973c00bbcef90004bfd002a20b5a03c8e2d60007a40e031b1ae20254117001589b30015f17bd03f454a403a056a4002105a8028b9a170102db8f02ee651a015d56100398e9ae0055f61602313811010de5bc03ae679d,
  0x354893037fb7ef021ea01501999a5d01bfaed1025c9ed1023482f10243654b016fb843032448ac003bd99701436e1001d9a61202680eeb03b84d80025d3f6d030df2ea00766549033f500f02194b99001f377b01efb07401419609034c0c8f0148464903a5f6f601f82c400269bc5800a4494f03e40b53,
  0x2e4fff020f6f85034eb979017a626a02c494a801509eaa00da295a00c97132008ac27903904260003ea295024a09d20357398a0252f4a9032016d0010e7dec03372f1a03ed627d0100240002fd7526002acd7b03223b2203561da30190eec002eebfcb01b98e4a028a10a9038a692c020b53650305bb70,
  0x2e34bc01a743b701f93c86029f31920026d064034d433701fbfd53000d94f900af68aa02017f5a0006d8a501ae51f0032862d70129c37a00e80dc103a42d1d03434e7302a81d4202b23d8a0136a64b0006bc240123398600d2a72801d161cd00dbf958008de7e301b93a5a036fc2d403798d77013f3604,
  0x62ede004cd2c701588ff603bd40bf0022252f03d5e1970144b0c6028ec31f00035dbb004ded6a0012347800478358013468f703b3a94c017e380901d6b7a600814d5f01f2418901bd32d1006473ce00082d970293a6b303d640b901f85986016610f002e2974d02bccfd100320a8a01f095c402454d9d,
  0x25d385011297f300580d970243f6710271f8d000a7329e0135202d03b3f4d603402785011e8f2d00300a3a00b9cdf102fbbd13035d23a003ad3ff40331052c002c815d01b64d1b03fbe0f1002688da001e9f3f02501bc1031b74cc02c9950f03021778033c9e9600b207ce02b4991e03e965aa024aa170,
  0x3340c80178d18c00c4efa900ab481500d1827901ea16a003f714a302a7535f01ae157002703eb6003f7e2c00d1263501b1c25a029c1fb90001abe1037197d302eb0fd301f5ca2a014924670186cb340003535a00fb005f00fb13f2029913310341005802a04c17014ba69c008d8fb501dea92b0094105b,
  0x28bd580107e3c900d757ae035008cf012d0e90023984b9027b94ae0364c7b900e4b8a301436ee30039fa8903d238890156720d0309546801475106026a5ef600c7eca901b2df810066ceb60333e8ea0012b83301127b9a01109b3b008294ec012334e602584a6e0329f3b500583e4700aff9cd0290aa0c,
  0x22fa5e01b854ba00ea39c402f274f80135177c02587a5d02b4939800c5cbfc01802905020beb160001db8501dd1ce80041322801001ed703d895ba02e7853d017627f7024787f5010978600180aff7002c1dbf00365090031bd65e01d7278f03721dbe01b6f8a502b8591a027c28af03cc0676030aefe3,
  0x188fa702ae25aa00a1fdda02ff11d3003b8b2102f079480356a8eb03eacd8a00b7a7c303031f28000250680155a35301e41bf101d8e42b018433d201c64680032137cd03be76f803e7deda02a9d4a70023bf3202118c5100bf70790311a26500bdb45401aea2120092bb3702f36209027d009b0351c4f7,
  0x1b6f2d01b367a701c9dae402c5229003dbb364028afaf501971b53002b91de01f2bc380075e951003180510166e9da03ab75c902742da8017e881f01ca6a0f010ba70302845bbe0380bb6101e966ed00104c39030690f203627d140372b17b0099e40301f493cb00fc4ec1024e4e1103778a7e0070b6ba,
  0x3bff55020f8d9202445aa50250ffb90195f59a00b4989b02e6ae920103deb70371805c01b3a072001c8e33003db5c703b12d48026b3f7e016c59f802616a95010884c603ccf2a302352d9d02ee95730005e1e1011effee010ff5ff03def92301abe2b7029f55440336e21500055e92021aecb501435b9a,
  0x1a52ce0311aa1502a0629401b1da040377a897007fd93f00fd41ca02d77a0901d78b7e0393aff1001c025402bca20803b03a740031366d0339d6b901020bf00233f9c801f23b8b02fc493a00f50d16000ada820170a5690362257f00528f4102c0e15d03dae69800f3853e0233d67b00c0cc0e01c415bd,
  0x1fe7710298095400eacc9902e996b30050bdd201dc485300a8551e00592add01197c3b002601df002f2b4b030d2edf00ee001a013ffa35038cc13201a02c050140004b02ef954801b18ce6009f55a8000663ec0326fd3101c86b8d037233a502e21c6e00a57dbe011c26f001d658de03fdd6070141a1bd,
  0x303df303513a2b034f4b4a00b2fcee02c42adc019dc6ae00e863b101844f5b03f53a0902b669a4002ac4d50110dd3500f0665d0326ce9a038a7815003b1c8c03ce814c00f13d6700805cb2003310610039171800724f5b00aeb9620360d02801c5b08d005fff1400f3565702654f89020e434f0047c17f,
  0x368dc6018ee490030a8e13025f799200d07e9d01de97700038114e02d8b05f027d7043039610660033cc170065114301e79a3703c0cb3700230e7000401fed002bb5e6006a7206016d5c9600b5cf47001263dd02ea3ab50109b8a903aaa20b0199aa3501c6046f020fb9ab00a7676f0048b9bd03df1bbc,
  0x39ea98006f34f702e21b19018d9aa300d3eeec031846180211de0001322bb600db9c00030912ab000ec69c006aa4a401a95460032f8a25012a979902ad884c01901552002004e602946270039c5a77002f8f00017dae3a01f9f49701dde6680049756d02123c650175408402c1fb81039473ae0067aa68,
  0x1f6567024e18b80312175302d04ed4017ebd74016f4351033a3db8033965d7002c7e31039dcafb001d3e50025ca0290042bd8f02a58c18003e97190360dea20375a21d02f846b300dfe9d30008740d0003bebd03dd0be203349f7300f789e102e81e9901be187a0358d50700af0ded033a4c3102d977f1,
  0x3b67c7018349c702217a000302f921020edb1602424e3503d870b802e3ea3703de707e02181055003a9eb902f896c100015661031447770144aaa100aee4c90124bdbe011ca4b301bf9777016456fc0029a7fa01c8596703fe52a101976ce100b31cbd03777be801ba0e1001b5414d02856f700391f29e,
  0x1d49bb02cfd719034956cd0149867602c425fa0165230c029bd8bc01a4d4cc019a0a1502c4ab78002cd3aa033b39440326f577037cdc8f00c7ded401c7368d0191af98024bcdeb0253a59d03460e9b000db20e005c1e250013958303799d2a02ba37c30059dc0803d7cecf0256e86d00de5c7001e9bec1,
  0x1f06b401087ea701c06fba014e85c60110180601012a16033d5108001e3b4e00ef01a10282b0270029a74603e56dfa012594ce032eaa5c00053f9e03b8d0fe01f57dcb02176e1e0232c4d303e165210028a82c005a995601e76d1c029c5457027a02710187a0c3017453460021efa9024705540384ed02,
  0x1d728d01dfefb802c57d3203843e3003203d7e0315281c036ed15903899e6c011fa61c0350554c0021025b00c58d5e01983d6f02ab32bd01b578a301bb0ef80200a31d03daae5901d436ff03a5a4d4001ca8ff00683d550213bd2401e8af8101e7003f0111703200fd4dd803811bd100813c2001704b31,
  0xc760302c960a101eccd6e03607fea03e9fc620399989f011593e70153627702cf25af019195210033e6b901106bc9015eaab00250cbf50371d3ba017a623f02b7e892037d02c40065b381010fe63c002ed29200dc7550035073de033f3b5a038b6a6a0130232b00de9adb002bf44b0118289002b35901,
  0xcbf5002dd197600ceedcc03cc64f400be1e8800b55c1803a1b08000983f5c0272878c019ab96c000e770d025a72b203b8c1820236e66803c68907008e6ce500ab374c02f39f6a01a5e98302ccb413000e5e4a025e5eb302b7e481009a428501d2b27301ca9a7600dfcf8c02f3b6100243995c03565b7e,
  0x36deaf028eb6ad00d3a41c019664c700d019f101b407f002b9406c009cb52f019c63cf037f08c5002a99d801054c46002a2968011dee1c0132aa1e02ccf7ba036673620241308c024b08910272fa8400377d6c02f1c95f02360bea001c039e0141a4eb022a936b02d93dbc01d91287009c2dcf01a7f1f4,
  0x14a9f50169043903af3da30281e0e6028ce39f024e38ca012ed649008c440a00e7646d004e52ac000b4eff008659c7002d7001000f7dc903a79ff2001eff2a02bd53be02beed930305adaa03e17f59001f473201479c05001cfaa602e39cc9030a31e000541577020c48ec016a1a6b03a717d303e5d8a7,
  0x17c127013db4bb0359f2c201629aae01d94ca10189a1f5030ee458013c36a7014f194e033178da002cd71803c5d4360221a31503edaa39001c8ae4032f2eae030bccf30273aa100196179300b294ef00011c8703f93cd300ece971037e19410236f1d4030a685000d1bfd802b3dc9d0248b147006760ce,
  0x3aa79100d81dcf02a933fb0255ff61031c2c5e0377aec50284272203d53f0d023ac09a030958870007428503b6c0f300a14f68030073d303d7000003ac88e001f8bfca039166f1038c63340380616b001bf53700215a5d00bfe1ac03ff9c9303aba08b0229643c023bac5002ce3ab4007064eb0391c754,
  0x369e52009c534003c18afb01b6d1e5013919160083cbf002dd8cfd03e4476700d40da800d419f4002c684a00e76cf101872c660252acfc03d4dcb0038fdd470084cf98005582c801436ca302334a21003bf58603d50fc702c6e87401362904007c547602f1b2f400114ea5009e0c4f03dad1f7028abd44,
  0xef71800b8dda603863f88009d6171012f5680027bd86900bb4176026e014e00768de3036594fd001af0ec00679d1b034c5aa201b81c380231b57b02f846dd031de613004a8bc1030a99c2005356d5003a8e0c00f551d1006185b302ac04be01390d380288074601ec851202fa363b0238ba0b00d22218,
  0x71ab403f22fd8027042cc01de7967029cdffc00d61f290054b3440051e50400cb68db035c0f6b0036fe2802297a37004df2a103d4653d00f35e0d02782c61012bff130382e4b202cb2f9401a6670f001405fa0362767e0127151603464c1c0073887d0232aee40139f0f10072182b02eace8502fd8263,
  0x32bfee0182911800482c7c010979ed00cb4f53004bcf9b007fbc9b01c3459302c2653a0376bde200399b1d0214f53302061f20011cacca03ab08ec032ab5da01005df00120f93501b0a0c203ab2c59001dec1701100ab803d3f61f001453d90344b58601ca2dba02b0387501c18aec0313470d021e6077,
  0x2a0c2a03e6067a00b00b7f0195717803ebeafe007440bd024705fe02a0957400ae3fb0004f7879002d977a02b23116021761e900f65349011981f001cf4ebb026cc72b00d4ee7203fddf8c0129f2130003923002158cd40035c1f20071a2ae0162894802a03f1d03e9920800fd918f03f04bf402230a82,
  0x7e70b000ec2c4000eab3c009ffa64000b30600311d2a801a88ada01c73488007ccc97031228f50006a186030781bb00c4e6ba0063e9ad01a073a803367199013f7bd50183e73602808ded02f8550e0018ae4003fee942029ecb4b0394d7c6000f76de0074413a00291026017c66a602f4c4d202df0e77,
  0x33f91b02e906e400172a3701a66fed0240685800d46033025124a8003732e2038fd2e902bcce50001e1d9f02129ffb0232154a0074e54f02206f800190ba4602af062301e4df44006597e700b99aca0030fabb00ccbafd02d481950362a9d1019b430103168c2d003751bd0190b6e2000eefd10088347c,
  0x2b337f02e730bd0225fb9c0204404501b24e2401a0d4dd038bc60202ce2ec401142a8401c9eb6d00266ef003d122ee03810de100e772ca03513b1001d5dc2e012958f500f1c55a0053c24d0068f9710005815e03cd2252011ffd71036c03f501261fde03de8af30093f2b1008b9821016b8a4803072585,
  0xe802c0142e61803461d800094428b026a9b2a0202ba6f00f2df0c018b333b0134f029024571b60015a28a01d898c30207ecce03317476000e46d50384d6120311d4ac03a96ec90340d33603bbda2e000295d800cc6dba00af7d3e01f8a326006741f003c4a62c0327b6c402faebcb010e0fc60154df66,
  0x276c0001cff4ba0165daf60332560c035355a8006e7621022567a602cb43c000be2a5d02b49b9200126d040296293603466977030f4294039ee6a60158a1020028476702ea02d80180aeb700fe2ad0003a1fc50080e9a10124856c039bb56802472ab70014ae0d005fd5d5009afb13036a4d8803e80591,
  0x14ba4402989eca03a867050160886a01d19cce01dcc516022479db019ceb7b002acbe603536c8400331a0003e16ff402f0b03100471fc101395f3902c5d2b202eaae2b00a12bbb020e026b0039a7380037915e0347179802f37c9a02b23cdf02c425a900143e6500fe8af601e8832d033a5be7007d4f6c,
  0x23d67d01e9b36402fb6de000e4c2bc00f6ebee03d028670352a3d001bd3d9001bba29e03db94ac001b67710182ddc101cad8ab03b1dad3035a8691008f0251018a372302c0762d005c12c9013371c0003cd906018891bf036c90cf0243ba5703aa09c1026033bf038568610381698302b5d1df00bfbf13,
  0x16aafd0127fca800ae7cbf01a16b3e00a72c97009788d0005e500c0263f2f0035fd8b9026ff69e00397ece0092e37b0022f9d503df046600e55d2400b83ca6038139170309738900bf9bcc01b51e41002b611203e332d501d7e0aa02b9844002a4ecc403c8483501c429eb02024a4f003b303003f67704,
  0x3febcf01086ca7036e99fd01efacb503ccf71d02c5e5be001c9c5b01033ebe0133f0df0303f56e002a2e9c031d3aa803fccbc4022407a901bede3202ea1c34033f49ab03ac7c8a03512f9f034757f40024082c00db5ca1002a051f02a6a2e10180af5901a075bc01c9d48d016b08ae0079a1cf03fbf7f4,
  0x23893101410617017a9f1100de6cbe027bb92c0109b104006567c900161e8800655c6701c7df95002dfe2903735545024662b801f8688f0376f62f01dc37360358b48b03fcb9d302f04f4b005db01b00238a90039f823a03ad03a7036d847402252ff9021aeaca0333318102a8862e03de91820221e88a,
  0x1d5c7e014fe05e0324ddf802254df603d1f6a102cb1af60039364a036ac5d102986ba803ac0b2f00237b7d034d6f53027881ff026618b901c81876023e7a7d028150c902a58c3e0165155202f689080020593b006aca41026f34f300e827e002c833c4005d4fbe02d5e5e402f0322503ed845101ca05d1,
  0x2aeac1003529be01a4b4f902870b1b0301328c014146cf03bfd660007cc495002a217500b1b767000f1a5f0241d11c0355833c010cc4f100c0c636004758ff00625384004a9b9703f1526c00c8c82d003e8f7900e4405500b4346c034476e40192666f021653e303832f1202171789033184aa02fe9ab8,
  0xe2635011850fb02c33af50061c0b1005213c0037727b7022d477401b0d7410314d73500ec7d610009c84f028bd49802b1edb5032f0bcf03b866d8009c03b102b7cc1501daa49b0070d1580109f40c0028432202855653021acacf035cd68200313b6e018158240334ea1401d0cfca0396bfcc0055f173,
  0x3ca59401e807730219d06501eb5789025d6a310181a01800c234970138a01603d4807e01a91a79001e9acd033a71ec034d301d0383177c015f3c2801fc278c0268a158024c272f00e1d614022cda1d0000b5ac0201c1ad02bf2d57008d365201b1cbfc002ac22d0031abff0394002802712970016b79f1,
  0x2c552502f39e94035c8e97006b8a8d02ccb66701f7f6b700338988014cbae60262eea5024cc6f4000744a30157266a00b2468f016b08d200ca123602b415b600ce401c011e984d0183fb2d0026458f00279e6d02d0d75103f84ff903d1e1ce0261fe5802fba054000ea2680326612a013e57ed0129ceef,
  0x1eb15f00e4de28014882dc00079c7502ddce3f0146e2c4035dc0c700970447013ffa5100d0f14a000e5a1801427dd3020406fa008dcbfa01f0190202f9025f01a6b43303ec17bd02e40b3701d4f25f002d4ae70309e98f014465bf031b4f5c02a39e9e03d2df3e031a8b4a00088a3602604ac2037c3998,
  0x67413010e4f0e03aa8b94035adbf3006c87ee02f9becc0234183d005a9c860055ee360252efde0022daf902fb3a240336422f0093e29a03ca4951037e2db60134e3060085173e00a20f90017157b600258c97022cab72024bed7201d2bee0012173dc02483f650215775c01e634f503c6f46e01d499c0,
  0xb7d230119809a03ca58570222a03a03c26008028799c6032157de01d34ef303a2dda302d215e90007dabd008598a403857be90018b0c002d088b9023769e30312036903938b240168709902501b6100148123037d9b7e01cf1d9c02109db203e6ff1700d622190053456400b380d002adeb0903188730,
  0x3d97f5001379980369ceca00b64b8d03244de202fa459102c44f3600988ccb026db36402fba2da003ee29802a8d488023a09f401484e660143ac4e03a8f57e0060fabc03f5622c027f63b1016c4fc4000829e50358226d01f850b700668e6d01671bf10365481e0302081b01fb5df1023c76a103da5219,
  0x3678a501e2ff9c03f1fc8503b3b17401ff89010190d4ab00f1340f03efc28a02640651017aa02600381f2801b7fb9a006679100329e2f70359b123037a779701c2385500dd8cf40033555a02b904e4001ed0ee01600d040003fd4b01dee6f401330a180041b00200dd099c0055881a023574e901603abd,
  0x1cda7903ad94ad001fc4a201978b420004925903e53d98011b92c600b2679b001d5d07010a46ae0002613b00102600009f2590020b07fd02dac67c01dc046801e02a9803f2456e0263aadd02d97e760021505700fe36d302d0ea0a015bcdfe02c609ef0261c45803b899740264408703e547ce03e2c0fc,
  0x20315803cbb2c6002a385302d4f48a00ac7458026f90b703e5766102d080fd03e87fd6005f81780034ad660265659501c4d75f031f20ae0117cd59022ed0fe0014030403ffd45500429f420013e11200338014002d11f003a520e900aafb60015bc85101b25f360208e7dd030dcc6b00fcb9ee0188b316,
  0x3619bd0106d27b025011aa02e1fdb602251a2b018670d6029c955b01b66c0a0328dc8400dfa4d00006e569010dc09e0176615902d65c480014638700f1d19c0374ee650384643203c7a6f701d6b8a3003f054a020a25c500c65029034420500215079e030c111503ad63ff02fe8149013a3af4006ad079,
  0x2571c4033b344e03bc2658033a88650163dee60254705f0293fb5d02d8fd2f006010f403f82e4e003e6e400305015f018ae21e02d1d73403a220dc00d406100040f3f202ee708700283e4203c3879e0039845200a108040090383d000ba3d4033faab10171ea4e02c89e0e032fe4c7008abe5302989fab,
  0x7ce3f0228cf4d01f4420b03061ad502538229016112810035c81f0319b38e03af1df30081b5980018e04100ee91d8017b4e2a026a992a00f75f8c01122154034a623f018ff0850238a82201a0f5f3001e549c0384a2e5032da8dc03aecec6012dd46b01809837003d53a201ea6b5900f928bb02e0390f,
  0x17a5ff03ee680b0075059703b2538c00f6f9e303f3d704006163b500705afa0095f90000498718002883be01ec025a02bbc96e01176b580139b37f02080beb03f04b6e033a8be8009d037f00abf7a00034014500fe54480016beda001dc2ab028340ad0034ea7302a82d4d02e5338102fd2cfe032daa2f,
  0x12eced0306518b00faf99f01b5d979024fc0ea024c59ac03d8703700359c1f01727005023911df000ee23d01c9564102ee35d3003c1b3b03e2d23f03fcc43703aa4b4400f741d60324937602e492300001493a01432e91000a061f005545ed03357d2f030a323600e2eb11039d2a3501e8822403cb5da4,
  0x202d5f02d0b06503a945e40333dd8e03b3c4a60303298202a09ce0009880bc029249b1004c8fc5000dbc3800d074c100f4f9ae008d09220344114a00248b6f0047d1cb03dc5d4a02b10b6a000c65bb0031c593003425e201d50e68034f737800e1dbf003d62db5001534e90384750800bd91f9034fae57,
  0x2fa5dd035177c2017c2e310085d55701c73b100396e2da0015a7f103b996b702c269dc01803b6f0024284002c98fb601edfe3e0335a70001ae85b90151321702353f93005ab5c803bf6d880364fd5d001165ec000dd0460204c33602bbd9e60140a6ed00197e7d01cce77a005354a1017d66c801da93db,
  0x1b8e1b01c86d5503d5a32c004e13160263b2c702325801005ecb780107e78d023ca700013a8d020004b1d30203d67e03130c6a01af6f8d01ee4aa6037312ac02bca9ff03607c3000a5b6c00398f5630013939100559a8a0112ae7901cae09003a94ab403f255880348618e031d7c9e02273c6d00ac1e48,
  0x1a8e2500dcdd6801dc2e290254293b02da228a036aa0600082fcd201c7e92b03489ba90265decc00389bd800dbf7d601d1b743025f5b3203c89ab2015bac1603bd160f00e0d60700289bcb0180089d00239b470238fd2a00720c6603275b640270061803a0b7a000d7942600579e570330691a0181422a,
  0x1b5dff03d6546b013ae8f60250bb3e00af05ea027682f2021bba5500549d37021bace3007962880010ae1100de566400f2783601790100000eb37403a650660094cefc0251f62f0258a6160107b5c0002055d502c47f16018345180353cc610143ec9b01eebf58001cda040022e1b801b4f53c0245757d,
  0x1c19b301974bfe00e3d18e0157306e004f8e0100be698903b88f2d02f63845005c526e00424636001c56fb01753a680208b7cc01e0c1dd0089027a03f2dd0103facdf0032f8956008ca9d3029f0a6e0001aa3902f2d5fb0184e50f00e10223021704bd013afbaf020c9c4101a3d541027867ec02e1078b,
  0x2811fe03f79956025b05f4005ad11803c4ae3401153bf300f055fa02447342017f6fd302490a470018f7a602678de701f4e24d02be0bd7011b8a1700e80e3600cf76850177ef1600575d1a0367695f0025565a0335f36d032fd0d40014656d015aa92d01d892ee0392ac3b037ec0d903e317390270d898,
  0x2ebcc01570de5037f7cbc01d2a6df008bf3b401c568670011b85b01ae127500b29b1e02d5059e001dd6f301635652035ef6eb01da60b9015b7324005a290203bf93f901108a060001b74500eb4af00000320201a958da02851226000b182301171bfd01c681b3009785bf02b36a95036227780014a5b8,
  0x2fd800027c707001b14a3100d88e99025707c701d140af03ce71280172188200463c8c0042a81c001077a9015c836e0157afb6023fd4e1008a971f012c8ee7025d25910008015801cad3970300f81a0031b2480136c23700ed9bef02a0f13000c851b700c555ea018f07a103e8426e00520e480358bf4a,
  0x3a5f0603f98e8502ac7da702a1cdad01b2ce0202973709035506ff03ffa31500de8e5902d1864c0004ce18007c256103fd67d2017ee0e401b1d23c01e784b103dbcd21028553380324b20201d051f500339bdb007af03d00fab0eb026686d20268144f03562501016a95390074fad10065c4de02119e19,
  0x24e9f803848e7301b8a74c031e8b4000c52823013e11040041686d03a48a2f00f572e702195477001ab27d02bc16610050a9cc015465ca02b380c302382cc60369ba2a01b5b3bb0114844302fc5af9002aa70700783e4e023f9f4f03798a3e006867ca03550159008f750903ceb1b3009df7a20370ea13,
  0x5c001008e65fc01932d1c015b25e4033bab590265ff840042b92a00315a87000360820287ff4800362b4f013d2d9703135f2f0119e6a200d10dba0243619d007d666a011f4684027f42c8036e64d200193c140001a61a030b169f017cb92302ce18cb02883d1301e157f5032a313f002a6bfd02768a6f,
  0x294c3b0375f2f20132cf5d0331762403c6f973004d727201d1b95103fd3227021a46eb030845650001f009007b23bb010b863e012c17ff0263ae7001c2477e02b0900c02bf9ff0017260ed01e43809002ec25200604419012dc3d303799c770370b8970035346901598d2f0162b6df038aff9e02e811f6,
  0x2d691f01ac045c00172a780094002e00c2fa070283985b01142ce50112d4bd0158494000f4d86a00345fcf023166d001462fea03c6b8190158351b01dc1a1e013861240012f4d201f5f13602b8cb8100180fc700f10a8f00e0db0f01fb14e70113045f02d45f0803c887f300724cc0034e21b7039bd710,
  0x2a501a0114cde10285c2480348c64e00aba8cc017c1e92031787a9037acd6c03e4bfb602da5e720026323302b5917f0395675803bdf0e203b5fd21039d6acc0193e74b025d04e10141fe4203622dc8001342090029c7810035faa400222914003fdcb701060cf903541663024eacd1030fa9ed01a4eb5a,
  0x2ab4d003f4ab8102b9ff93028335c501c816cd01af1ad7034779c303e0479d02f7027902c7a309002a47fa0337679f01b3c93a02873350016cdb35026f9a690092879f01ebdab0034830e602f316290031d5180223b407004e91b703f22d0500f1d0cb008b5bda01bce4c402906105014b7f3702f232e3,
  0x175e1901e533a403bf4333011c35d103360da000abf68a039458f00270b969002eec5700e0666d0023d54a00c5557202ffe4c6011d9b4f028a07c102e5867101ceb51603c7ca6c00b036a80304909b001d7f8e001fa86a0365de910080a1a90236a8b402ac62ce00d0a1ba002589e800838d34025a9a34,
  0x6162e03769c69030467a501eb6410032e0a290157315400b0964202f46861035a36b0039ac2f80019f9af024675be00f1824103771eab0290eed300a1ce6400e9bcc50356f0e90229b8a101088d6200060c5303604fdb034ba5ca03ecedc000a5724d019564d9037983940226ae4f0074076d028f64b1,
  0x47c1201ff792803643286028e50aa03a24f94003f7e37024c247d011ed0f202f23b43001ed9e1003401f903b2ac0003dbf92c0152b702023e8265009ebe6d03cda333035aebb000f84ac401163563001bd20f015bce1900145640014cc70001a1755001f63ac502efd68203db050c03a2b2ae01d3d942,
  0x1dc55301ebda12005975b300ab36c501c2a0f002a715a9029af6ed01f8a58201381ac7035fc67300264cc90067bb56011df0fb0235852f0276c2af03d0b3b80200926602e87ea601a022c2018783910004c604035e16f501674eca0154bdae00b445bb03d616fb02088d8a02cd976200c856b603da63df,
  0x25411602349440019c38dd01080dd7021892a100f7a886021c7c7a020d301f030588c703c4c1e0002af34201ac621e02aac91b006c3d9203beb14903a83ed001debd7d0182786f01524f8801f78090002ab5760289149002eb319101d48d3a0170ca1d02f0a29103808cdd01da884c0159a0a903a1bc37,
  0x3e88d901ebc14f000974b90228a2c4021867610146a7680307e41a03251169004fece302cf283d000a287f0301179200fcfae9034f3912032a30610376076a013f6e4402bb1a0a0159f8d7029f856f0019f05b022b3d0a01553ce500f780180317d7a9021cb37a02ec6baf0130b81603f09233017502e6,
  0x1bb3b502e4bc96008a7be601de2b83024358a00306a1f100e3d13e0220dac30378b8960265c878000050fe01846cf101b6962b03a79faa002f8d940395d9f701784d4b03b1c07002c071f6005de317000ede470093e8a301ce3643001a4e4303db07bd02ad9366010aed290350f65d03df007002552523,
  0x19959300d1ecbb018785670110c7f501ea691202e9c331037e160e003fe658007fc2620319e7110003489103c0e8a30003c79500dac3d8025e2d8e029e2b64034f49eb034d1cbc024b1c20012c3746003b26d4032668b603d092f701c233fd0148f12f00bf612a026fcddf0037c23b005b44e600b46a0b,
  0x32c4f301191a88007637b600d4e83303a8687901c63b1c00e041bc03aefb2e004bc8b402a39827002ddcbb012b423f0169dc1a016e93ac01b939fb017c142101af1e3403d5b0ea0311b4c600f2653c000336f200b01fd30162667a00fee3ea034bc12c023e9c070078ce1c0030002f00b27133000e0eeb,
  0x14288037bdcba025e7da103ffc39900725428006189b1039b02d80071991b02c37171005c01aa000cd90e028bba3d0193bc030232d99702aec79a00de8a9c038e3b7000f564fe00cea1d3012ec511001688110250e65f018dea8301d7fd8601ef0b7d01c5499a0322f93703cccc41021c8319008f226e,
  0x6601c02da990900b681a20005486a03b5faf9011172f300f5f1cc02f1b90000d9cdd801335c570018e25803e2df3e02dc8ac003fa0bed01144c910073f4b301b08bf7015552fa02617f800175dad80025bf2a01cf5e0f01a3fa74007a7fa60221b77a01777a99030b8f7903918bcb01ee4128007dee08,
  0x2e132f00edc2a80260e3db00d3c85600da671701c9704002f1aa60011d1181012bc32502ff5f0f000cb83401f0e75603cef33901bef45503853579035073f10011141300a0d15b03d9ebc1018b4720000263450388113d02e82c6d016091b003d3147803c701890382c5790017467a01bfeff402d05683,
  0x1c86b1022d8e040013a436023c472e0324c8d3010bae3b0266b8c202c1642b00c5546500a6d653002ec02e02ca5bc4015b947e00c70b940382f6f9021d496e0338ed0c03534e3601bec892030efa98002cd07002ebc4b90233155d00ebc3ce012ebd74035da7530036572a00f3989301f2eb14020d9ed0,
  0x16bbb9005dbfd0007123c103570e550147b3ec00326d5200e9c0dd02b3f73803b50f0300316ff600298dfe037be54f034ce3080003512f00df74e301f68c5b037f3b3301d38f3900e0951600b582240008e55a01f57a9401ee76a8001a8103015a06ce0394cb83021aef05011937b103760250034dfaa2,
  0x10e12801d0cad602b7477d011d79cc0208f7eb0297c36301700f6202cc0d11038f50c3014e69180037684702a79e0e0032f33602a4d29e0292198e0277a680005f1787014eb92301befd7c03fd78860018b58900751da60142b9ee015193630367caea00f0590b01fa7b28020314e5031893b3020c5128,
  0xb94d03e5ba3b0313eaaa00cb5a7200a794fb021046cb004e94c80291ad58001e6a06018648a7003c696500dc5baa02432da9002d21a80204911700d5fd390033a1780246f96a01f3530700a0b2be000786f200bd969e02ea094a0369f0860330b2e101a9309002c8c7e700c3447e0074c8df02f162bf,
  0x211b2b00968fa802950b3301df3c3f01b7992403790ad9021c777901345608015061d302749c01001b7ec4006a6b2b0263aab202b73f46018d93a3034a82430173038d029c2cf402f4421a02deb380003aca0100a071dd0269393f01e880c501154c8402af4e78002e0b85017458d1029be23b004d46ae,
  0x3706a503cad1d20387f8990128223e03ff3471006c0627004fdbcf03362a4701fa8c6301802a610032afde00fcb6ab027ad5b003890a430374df0a0127748901bd6a6503af1617019e30c103e33a8f002bb6b003383084006877f20094f89b0274fb2f0051e19b009d9b6203fd879e0359363d036afda1,
  0x100da9001c260601874abf006bcbc403df23fa0200cb7403f6942303d118cd004a51dd00898be30024d9ee00c1cd8100b863cb018ad78803a6ebce00edaa590326959d024dfef603b64401009910090002afc502c5aaba00b9e9d2027a9da302c2ee6d022cb3af01d7a57a03060ccb0335fb1c00f030b9,
  0x2b3361010ea96600cf08d7009185b700292c7001e2eb43032ea67203de7ce302c52edd028806840036e8ff03909c4b001ed84e00337581027c26fa021da699022ab69a029d9aac03a8081600572eba0002861d0054f104018231fc022e450500ddca7902c282cf03c3ec2700de89f7037b862e033d88fc,
  0x24d6c801e35b2e01638b660234c36d03ba20b30256970001ab89f80095ef4402b87472025b47000027378300aca4f8038e6c7d012831d000e438b603fb589203d2098c0012243602f91a3a006dc8470026c969031c927702d92fc003cf0087024ce17f0362f10103d665e000cd84c001118b89005015ad,
  0x18506503e9841a03713e1001a197740122ffa902371d7902929d940079d1ff0185c18200d60535003d031a004d0edd000ec2fe0195209102d7f8a6012979f901bcf16b03e9b4fa0112dcc303fe6c52001cd4d0039698110085023901f059c40124b68100961acd02e02a4d0032b16102614272037ac84d,
  0xbecb803f6574102022e0902335b3503f5a9c2020696c603d71d4d0352b41401fc941701ebd72c001adfc9018691e902744af7025996ed02a6d77703de578703c29a0a0106b05901544f5400e964330030a657029e4124017a3d890096df8100702eee02cb2fec01fe310802d87ed7023f8641039ee061,
  0x534a101c6102e023a470303394a1801bc240e00bc1b0500f7b2b803cbc6c9005a41c200d95b26001a50c70098dbe0024c795100fe7fd0032c96cc03bb219f01a5cef800e09caf0136205700ed3e90001a655302863bdd00bebe65014451ce02f1a64201256ee20115f643026c8b5b00c114c100ccc956,
  0x2827530075d53201529bc303d0b1a2017c6332035706fe006509e801280a8c003c024c030728be00245a58020c67960128951e006a544600560eb00224ca9f0238d5f700fa97f400b7fea501eb90f50038f9b00008a7b001d2ef76035c0aa90157c9550181831e029889210313bb9f0182c7c00013bf11,
  0x370f3e021ed84b0177f33803dc7bb203fd87e4006a675c0374126500dbc69e014e857f02c33235002ac08d02457d8d014797430054787b02e0b3870177db96025abf1a025319ef02a5456300d8afa7000cd42602aefc6700e8c38e004182cc030969df00b3f3f003a3deef01f1022500b2a60e01472b39,
  0x568cf00a5e18600e8a808031a974502b3a86b0101d93a03ee168b02cb6580002fde4a026f6cf40021e230033999d301e18d2a02d8ee3a013a38360295e2eb01162d6a035dc7bd008b7d6b00e8880800146c6a017125e403a367b30048313901d2ae5a0327546e01640d3c0211101401c1c20501c68aa7,
  0x1d518801fe4f3f01530e1802b7ddc90286211a032aeb8e006b3b07032a1c6c03c599da02fedb77000344f101e5a25600e7df2002040e1e03775f21003930c6036c1cf3013e750e039d05bb03328ea5003c3315031f85190334035200ccd128008953980141ec5501d11732018a8df401de4740027812ac,
  0x35ce2a032729d9020af67c03923cce012d205d0296ecd6015989d602479e8a00acc307003a3dc1003ad3b6031d8a3800c5654802d247f3036304e9032e78b50241b70a03815ab1025585e10043cd62000eaf7f03ef72da00e4cec4036302ee00aa3e8200ae04b5012e4882031d6b6902f87f6703c1d48a,
  0x3c5449027cf09502ad039502310939035fb5c9029f5c6002ec235c03c99e1501c6444e03b12ec500234fe30315f43a0015daa900e4b00902388fe7026949e501c9640800e758c202a23b9700be6cc70005e3bb0139378c0280ce3103cba1dc02fc127d0070ccb6035833820281d2e303d6ce8e01517bb7,
  0x2d764b0395418c0178b0e5026c63f4032b7d0c0002a15b01d0e264019111aa00bbbb1d01c224b300315f32036f5bdc012ab199037dfc46037bdcc70370794a0005149f034c1088036c2fe002c2d64a002f0a1f0053d9e3006f591d0087a4aa03b3af60003af3d800e5ec540180b2db00b2306b023f4961,
  0x29776300c729e801eb027803258b3e008d578903aa1646036d83e20138471700398fbd02e9b6dc0022bf680030f42f017c96c0031ac90a036ca2cb02d10d8203f47d02031ec3a103ce409401c42483001cd2e50022a1ea009bebdb026649e8022054bd03542ea500ded34401e44cf203753e0d02674132,
  0x1488c9016f92d6025ade4b023c64d400d8eddf038f65bd03a3a33501e21701033cdb9703e861480033b780003f406d01b44e63012cba7600cb04e600bfd7f703215f2703f5463e00b15b0f031d139f0026b124032e481c02fd0e6f0171e6ba00329650019074f3016ec30303ce7cd00382ad7d0169a0a1,
  0x1a4b4201c40e0b027dcd1603085f130144402d028de3b70157932f0255dc89038fe499033be36b0035ff3500fda1860306e82002a1a5c8007c90f90241d0900193b23c02eb8c45012a33940320e0b800251e7600592d3200cfb22b025609e901c8dee601af87cf035112450324de87029e545500f94929,
  0x21ceea0183828d0109f4b502aa2e8300f04d20002ef1f603dcdc8a006ea1f6039e982a01cffd2c0002c1460020c7d703745bdc0174a20401b7abef001e2a32036f9577023bd44a03b47d3b01e2386c001291e001f96d9801081496015ed1e801b874d90004b2cd022376a401ff5c05006227ac00eb33ea,
  0xb9a5e0234c2250029cf9b03d1168c0032888a01ff763e00ff656600d2b34703aa6d58015afd430024d4400249442e03a03bad01e8ad22013c5e5401522f1900d8549d034dd4930288106303c733170000a2a603c6117000fcc591023b316e03aaaa65027996f80268a9ac023c7525018a1c91001294b7,
  0x20a50c00966c8200163009020509eb03f8c2c800fe0a9200ebed0d00a27cc40054ac4f0240e3f1001f97c10161f60a00696fd903a888f502cecafd00002c9e027b6eaa02f532a302ce6cb100e3f6290021bcfc00d248cf0019e207010f426e004f0f260215c4dd02986bcb032d91cb0070da2e01f9ad53,
  0x22815b0369c00303efb1c5025f829d0240309e030fae0a03c79b29011642b2005e3d4101ee921200098cec02084543013ec2ab0152b8d30143b2b3019ac866018b5fe302e5735c03ff7395036f5ba5002c05e2009a43c8021b8d35012c566102a0e4ac02aba89d004ef53101764f860016ba5a0374fb21,
  0x2145d502e6dec703f26f5b01911c12034c74b9014a5de501da6e9401f89b220219a1110106467200219c42031b97ca01e7ae2700601f3601430fd400f15ae303ee2fbc0335f1ca03a255d102073e08002514c600cc09ba0340a9be02ec8d6a02066eb603b30c3603215644035754fb03d0bde00396ca17,
  0x171a7d012538cb0007ecc2034bf60b02855dbe006e98ff0146276d0352f20700879d72026426d9001dc96c03e779d7014d44c703c186840071e81600d105b502a1b6ca01cad8a60291f81f02a573930035f90a01d5159d03bf554f0254106302de8ac502acdf870326907b0109180501bf3b1500fcbe54,
  0x3da90101784d2303f9753c0013f0540000174b03b9aa2603a8db5702f0c8e803be945401c7a79e0039201703703e4003fe9af902c818eb02979d6300e0781c01bb3c6e01660e0000233f75022b2b490014d1bc006fea2e0310534a03e08b2502d5336202f7c91900a3f4cb02615bb400c924e30337db1d,
  0x25cc0000b892303d8b734010ab84402e0df0b00e4962f03dcaa15024e6f4c007b2c3a0024e16b0020151402bbc0e301b5e78800a49f6203afa1bb03442f99016a990803ec06e500c1229802247e860012d06102c999d7007554ee0164ad8003ee71d601b75a9b019989d400cc926600990f350125952d,
  0x195546015b7309012ea2bd0293a26d02e6f11b03f664fd03d5f21303c14fb300fa770302bb607e001fd0c0015215a000227c560105275101564409038a89aa02b7bb8b0233ba15012bab3e02030f6e001df63600e9851a039300a900e476a5006cbf3402fa8a55028be4b103c316270269d6d300c84eb4,
  0x176aa0029822a10189e9620326254f00ab01b7034f9dcf0130583f012fb7d902779a8c02d2b88600269fdd02abd28c013544a6027786fe0387c62901281bef0308d274003889a302c5bc8101ab9398003157a100846efd0148c7c1002d25f80233778803b696ba0001d99a01c672a501171cde02ea43d5,
  0x1754d00770688002052d500f6f9c302a7827f0189a33701c83cc201309d1500b5845301321558001dedba02f5f99c03de2ef9010dbad3011e9bb8025abb270149db70035d96f900247084022c63680008aa20002708b301b4c4a000545e33021777bf003bb1f301fe5934032a89ee001784af030ce9a7,
  0xc150c0090087f014f498903da533a025ae9e2003f61d802edb49502bc25c503735bf801c15189003ea180023d72810391a079036465aa00b2c45302ce4b090041c67301cbce3e020236ea03a1b136003e0d8a00b09e8a021f1eb3034cde4003cb25c202d97a5001ce15a003adfd160191264402028a3d,
  0x37b879034ab12f00a0152c011c6c3e033e092a0027a64a01da101403a72a140038794a02bcb866002e720f03118739025a75da03f6497c01ed8fd10262dd87023e24d0022c030300ef3563009723900014ab7f003bd468014117020019dcfe038e4bdf037951f3012bc06601d018530236bae0026dec48,
  0x3de68a030a734701a564f801fe3125025aa1b80195591e03f059c40276d63800c11ac203a7c9b6001584c902d38edb0274ee290337afae0159f4eb000d33230347c3d603fa590b00dd2bd8000655c8002d0e3b00f044bc02435997010a3f7702e1e5f50169a2910075eb180109ab1e0141c242022a0fcf,
  0x2017d00141ff3901e68c6e017fbcbf03e247c4009571180103ac54020b94620188d2bf012f39170021a4c902926c9201dfdbaa008edd0203587b480124ef7c03a4a01501d8a5d901060519023b290400194cdf0194b6bb03f208f303aec593024e19b9023c092902d4e8d101a5a71700a64130031ea950,
  0x11277e016be357024b7869034ad783020a8ca10218bd6f039d85e9030894d502e85d3d002bcafe001147df024ba6f603e116e703d99a8f01b0194b001bcfb502c0956000bd047c00cd7dc1007bc24200002e5201e84e350209d1d6019c20520286a254005c4f2802483556004ee4cf03d6b1340377307f,
  0x34b9b603572ed100b6f081038a816b01b7210602b2dad9006ee7950008087e01ec70b403db7ac5003de76d02e4f96d01de4f3b031a76d6022823e403d7716b0222193800b3657f00674b8a0397e31700075a6602f1e1ef01cccd0101ef1c7a01078ed0000a96cf03a4057203f364d90369cbf301a1234b,
  0x2d0e29023521f4003d830d00adfe170148d4c700222b6200b8f3bb022445a301c81e96035e2ca5000712c702f7bc1600dbbd4500f10ffa025fb826023ac73601adcd8a00c7a5880302d1eb03059d65001211f5030cca3103a1ce8600551759023059730034a0f501685ef70149e0e60332779a022d2054,
  0x17e9a70232b37302da339701d76b9b01450a0900940b5303532c55023ee960012ea6ce02330c50003c1f630368ccd001f4446a0175331a02b4f93b024a74cc003a31df017aa9910314bdc200d427c90013a4f10162e5fe01016906030d633900f7be7202ed9792022d67e70080429d0177457e01eae761,
  0xd50400064c8b00ffe99d02c2217503f720410292e02803e3072302567d8603f4c5f001ecba5e0033435200c17c4301b05d5d02f9af5c03be230602a3815c036410ad01f8b20001313c8d031c581a002c944202d5cc200305018f0149bda00174a3c501374c580225755a02c33b3e023aafe003b7339d,
  0x30bcd0031f467008fd38c0227258200ea2659021e8c3a018da518008ccd6101dda633037875cb00010f9b006f2915014ea9c4034e5f4501ddad4902a27c2a03e3875c01571e01019e54f4030ebfa30025620c025be05901541bc400bc798002b329040261618d01ee8e8403c8a2c800db1fb70258402a,
  0x2b5b06006446c0038068c300c1cb8900606d8f01b47d9b01ec453c00e6ffec0237b94802be66c1003ff7d402f8bb6501551e8e0015edfa039c1220024b3b3b00ee65b002b2c8d40147af3101f762f6001f03b502c3d3ce0285dc9000b8fdf403f898c700993eaa01e10638036a8f8e02a4ff770106de12,
  0x2a004602effa4e03675dfa036cdc1601b7d8a50374e8d70027da9201d16d9203f77afe037d852300265724006afce100631921007966b9024a06ad035a08720077bbdb02a8d809023a93470008b23f0008b77903a50bce01e5c24c016a83d40362924e030ce9f40052215f027df4ef011ddfcb03d57e1f,
  0xb6b7b02f666bf029887a60175f0db028b4ed300a5d64d033cfde203879cc602079e02027b2ccc003928fa031bc36201a86d4a03fbf21b01cbd58600582e0e022ff73102e7c8460222d3a1003e6d1d0028695c009efb6e010ead6f017e2fd90151c1740101476500bd135a03230a1301681a450298c19b,
  0x3966100298e3c300a0a265027a972303a5c5990081298802d12aec0369b321010ad3800167be26001be5e501995f570107772401f3e49e006c306e034eeb47006cfe81035dbc7503ace05601cb23bc0022760f02acc56c023ddc9001d466cd01da5e94012a35c30220ae7100b12cd2027b3d210260e124,
  0x2fe79c033faf720076009d03a25b1e01d9f7f101bec22302b29e2a007f44dd03221a9503604de0003472d701ac238a017896dd02d8477a01d53638032facbd018fec740069c08d00ad24b303eb08290014039d01615c3f0088d3a8007918ea01de7df002d833b903c1f2c5029c3f9602fc59b700157c0b,
  0x188b5303ba3338022e6f8e018c8b1002ce85870256b805008bbc5f02d838cc0059ed0d02c30abc00332eb203c74bc102cb079e0159d206037bee1a010e588c0235195003cc2fcf0119770f0086fd110031064d032f3daa02f9b71c011de24702cca9ad029d905102573c38029e8bc60212688e014353af,
  0x1ce8d702e66f38028e298900cf9beb03f12d430101a1e1039a0e0b035921f60146611903d9df4c0004ffd903ddc233030f398002405e1803ccbe8900ec1dd30229f8ef035035610083155603f8788e0023ef7400b1a1400332ddfd03e4f41f0333dcc703094e3101a5c1bc02b524a202b9516f012353d9,
  0x30e0f3020b19490310aab9012bc7e900153919026329ba035b3eb5027494570089d68c00343458002aff220205f63400ecda430373e4f50343707600f87d9b033078ad031edbc3009bc66c004088e600287a15000c35ba03f4f1a101d2b4c60170c215031d4c1f01c6283000c62a2f0274fdef01b9fbae,
  0x3ab28703c19d5900c6cc32005d897a00e82ceb0328783700a8f9700303246f00bb416c03e30a7a002317b5017d13f903d0f4e40396954800a7ce6402fe51650175800803a202d203cde1d801994018003813e60314cbf50161c60f03636d5a0191458503f7c0fe03a593400285e5720140701901bc925a,
  0x13da4003823cc90202f5b400f8fde601f8e92c01db1f4c03062f04027850170304e902016c68c40025508d02867327027aaf880301837602d97821034d7ed500b3416e0359e07e01ddf8280218d20500087bfa038c34a603aeda970273f064023d21fe004f5dcb02de9afc01c496b302d66edf00b9b94f,
  0x1cd908006c503201e72a57038f72dc00a6d777023294a1009b5d4502bafe0700e5513902262e25000ad49b03348117015862d7014ddc5203263dc701e7e9b30367d04a00cd85600345ef980069348000035ba101ec03bc038bb84e03ce3992003086e50022192d001b8a5e036dfed002f6a8b803910641,
  0x38bc60004399ba0083e3f2022e9f4b02bb70e00203cd4102320cd9006dec6701ff433d03f0ab6700023a6800882d7302ec96d2018f44c8005611bc006bc47402bd641603f18f8e0289b8b100bd1950002ed38202dfb8c0018861830244ba400013711e016f311d0064027602bc020701bee94401c13c88,
  0x3d29f102b2b53f011f1ae8034560f70020837f00aa828d0301fdeb035d55b80241e17f002bf0d500303a730017098e00066180013cb18f02cb042a002ed536000b1c7f00a9930c03adafad00700982001ca10703f0e1ff006147970228cd1800ae8920007b008800f9c9390136d259022d0923000a386a,
  0x3120ba016bb4a101ff519901b1127c0099009f02f48f340144eaf70215f7b1005b88ce03cba566003c7648024698f701fd7d350216e2df03e979040124ccb102b8f62f035311a502a7d9430178df5c002b0332021d37e700c845be02675ca50236308701282eab0374b93a038ce4ac031aa541012f860b,
  0x3c708400a1136c02fbbe9201d7933b0121d992022fa5690094e24e02231f04000774d3022ece010012f08301605bc202ba444601dbf82900330e94007115370090f66402a6f65c025bc38a02093342001efdc501a9b4e901d6c217003bccfd001571e1032c28550224a88c037d445a013ef6bf0118a37b,
  0x90f9c03e8eb7200fc032f026c4d4e028b455901b1f3ac00d6aad101aca7af034992d202814c12003ef1700287fee20015c4f902acc90d02a78baa01e6ace600f3723003489e3201939716028de8ab0000faff035b902500d5a55a002c8eb602ec56c803324306030152880199b55d01f62c6c00d3ac81,
  0x1e417b0226f769001b082203b0ec34013f6fc6028666dc0157c12e0065506e03d6f38a01b0dceb0027186302a6d4b600fbdf080210253b000ca6c000abed770235895e02186c4e03be85ce029c078b001a2d7d03df0579007e518800eb87e10316215f00781f6000ecf3a302f7c58c00620a34035b61a5,
  0x17de3a01bc1765032fbef502aeefb602401a5103c4f53e0070d1df02ee5348024b4e5e020dfb5d00145f4c02040c5801c0390e01c7bba501e5b244003c31ac0339eb8002a42945015c082c017e33560011603e01328f30002b3719024599120152c3e201c154dd03dabcc2039846f5017783f9009dc2e0,
  0x20e71401d002ba0205d1b80115f3d90079a73c00a29959011c62460196aade03fdc03003b916f400015bb2028109a20361b3be02c9e4aa02ad590500e11bc7033f947f00457930028a0f9b0150334c00251e22021c7f55036955ed01545c6100b6e5180398410e039183190146b8d202c0037100dac12e,
  0x28128e023a6cef02a31f6903641b1301379a2c0201a6e0016b48e401d9e7300338827a00c59bee003bd5b4039a661d0138809003b0824603165fab01487728006c6b84024ab024012bcc6f01527760003476310288f2ee0369c5850185de7103e3d20d024ffe86012bf7ef02b73aa90046841c035debf5,
  0x1eb467038485c601a5acad02fd346400176748036969b803e7d1fc007867350386c94e012590bd0017e52d01581f1201a9012901711ada01b36cda0238551801a1d87902709afc038c3f48001e0f4100079394007a41c803997934039a42030206584b039e619f0389a756032f0ac70100421800993037,
  0x300ae8017a57f8005c44a503f1391702e0f46400d02c1303fbab4001318bf2015829aa0228b611003b2aee03ea24f003bfdc1f0253a4fe005418fc0306661a016f99c1021651fe02bbde5302f423550020ac020004b3b503be5e0b0234631300cff626011477b10048f72d029b233003ea764d0130d485,
  0xec76903bedf5801dd9ed4018518e901b6ff870015a86903603770022652c901dd7cbf00c18d6d003e29ff01086f5d01b2d3cf00d9756e015e0e6e015432b2034631eb024d8a8103a0e63a03d479e20029fa38005e870501641ef40106807802496b17037af7db038dba4f01724d3c00b6e8930286cbc3,
  0x36efa3000af5f203615e6202483c2201e526eb027d9051005a725601c6c9370071dfac0333a5fc00208d3d00dc146702aaf980008983870180ecd302ef21d801e316da01274928010de6b40264e8480039244c01c307ef00537e120091f216021bc56302f2e4d3012610c503785f7403bde03d009e9bc2,
  0x3f70dc03ef5a2d004754e002633d4d00fa8fe9004122dc00d31ddc0382ed6300743f280082bb9400069bb402a26009008c9b2d029da62500a309a500a50ff0022fe3a302ab17fc013d4ea3002c0d1d0022139403dfe92c032d63c802980045024f3e49017003b002c59f3f02fc8b6902e0ba72025a0a9c,
  0x31a78b01a8d914002cd165031497930269b98102cdcab001d614dc006dc86f03403a0400d6d84500091fd9023eee9201c60da201a88dc40387587b017ebbc2000566b801dc510d007bbe2b01599f8f001fbd2e01fd29830378d8ad03d4962b01ffca51026f0ad90096491c02c3892200f69f7a010d6076,
  0x1ebebe01253e290095ec77014af9e603253fe6018fcd20031a03b200d85feb019448d500e81da60022f6f20290d5fc033cc1e4013bf125007597be014bb5a90376ece9007594d2022a0dc50173189e00286eb800b122340209a48103718070004ad32e01e8b6ae0160c66403413a33033d2f0903dd7cde,
  0x1510801fde2100265675301a7e5120027108d0330aa9602fdcda001fea0b90198cebd02e547e5000f5a54012341f500e1129300e2ce0e0085af7c0234ec23018be64d0004b5b801402839018b48820027bf7203a59b330127e0e100d100ed014c3e3302fc4394016dd69e01e249b300fe18a502b80607,
  0x80e64014ce771037f861800914af0038629ea014d71230091b9ce0300c4930371695f01929ffc00138a7600274cd600ad4dc401f03820033a431701ac3c0900107ff9028fcdf00056b7ac0193925f0026cf3f038a2b780368e2fc0394ec4e0258915e013e2c8b00e1a8ff01c376e801c7f22b022d56b8,
  0x35935400b0d1f6001df46400a9d2670264f28b037e9450033da75d0197363e02660d5f019a59e30011eb3201d7dd6f0065a257031d16f40008d6cd03052c1801d4b20a037b01f401b6109301b149f70016cff701844f9100af063200496862008c1ac0030d7ca00050f6aa0228565500166c47002ef772,
  0x18a8a301b8319e03a7be31016b2d2902ad4a1a00a94d1b00e558a70233c687025e8f8300989f36003fea12014ad2b80279c33d00bbb20203dd28f70007ccf80273a307007bb9ce00b2c7de00040a5f0001154202f6ce2201215d0c03c32a25014e86ea0292369f001d808b01aaec0a03b56372038d118a,
  0x36417c02de79820216425c0183d19f033e11a901a4f9b303a5954d0361cbb003d61733016400b30024b0eb0303f7d000af414902bfbbc700ced2ea03e3fcaf017c435502d6dd4902375061026250780023a5c301aada2e02ace9aa022d2de500cd4c77039f974c019a8cc2018ea3b502c7103d01bbacdf,
  0x3ddd8f010bd3a603d0820d0013094a00a92b1a02c4489a008db411036a9dea030a036101b8e796001b83b103e61a0503145d1301529676038d296902e8e4f70000882902575143006b154b00d556100013d77301ae2bb903d4cdd203d65c3a02cfb36401aff98b0114cbd002f37c9903e203ab01a31f3d,
  0xe836100f4c17b00ee9a6c00526a42023ad93f0254040600695524016a9fef03b9f94a00861f790015292b020a8f73030f8a4701ee46500308beeb0098b27603d0d8fe025328970175a5c800194e86000282c00231670b00f9057d014225df0172ed6b02b94f5303257d0100076ff70343419a0191b608,
  0xa23c50358ecbb0143ebcd01d2f02b01bbb587030fb58301ca9779005ad62b023185c1008be743000a7eab001ab4bd00c9dc990121af7f00d7404e02cdfad00388e9c701e2ce89009c813a0258235a00144c9802c768ba028a644b011398580361c854032673ab02a4f76d0107caad01760ab800774b7f,
  0x3ba5320127d3f3011f29c100a92a7a017141ea026fe6410298aaf00175b2470370ec77026bedf2001c132f00fac458039a7a0403adfdf301677c4601ef43eb0340478802171a0500f4f0bb03ace68400187da70040f86b0179b7d60294f4e800bde5830062735301f36f690141b40e0181f26f01054a6f,
  0x225c90027b5ec000db91040313b6190364cd2401ee8613039cebfb020c80d3030ccc28026337ee003323ef02b6d2d4021d9efb01a5af7001dcddf000096efe02b7f5c700db46d10069deb403cbbbbd000e944a037fd6bb014b254e0107c2e60202306b01d7165603905f7b00f2a24200a8308802000f51,
  0x11100e0205bcd201411fb502f304d701c1c094017694e301ceb154017bc65a01e932a30082c2ef000b30c702b90ad6033d25de008b6f050084ec3a021548af02cdb9dc02c79c50020cf68600589bad001fd7be00d5d8de030d25ac0303491d034b1c030067b40d0294e20c020c55af024b9b3601fd6b50,
  0x56a2000022d8903a9e80300a7888903654616005d04d4035e245e021ddbf30208831601236ecd001c9ac3022d5f8501ad90a500724e07027b427e0027583d03954709022bd6ba006694b7032c0167002643d90153566000af7b6a0343d11101544fcd02aaf3d80329640b0125c7920133fb3601fa5c9d,
  0xeecff01e4b95a00c4aaeb023743cb03e522750373d8c002506e6e01b69fcd01321f7903a915fe000a0401037172ae00db9a3200ae06cb00fdd6a300bf41b10204294902999991009b7b99000b51960003a8cf03f1aefb02ca872d0255774f0396828500a2e2310013029f030a5baf0126bea100c6aa8e,
  0x3941f603238597020ed09e001a5f4d0119f5a502e542d4010773ad003763a003701511003d9e340031b4b802e3c61d02a2007c03e27f3c002c853a02670a6201ad64cd03466de30214fb0d010a2163003017a3008b0214015bf12002a9ba3a0049386200b6604b0352bc990170b6570179ba2300548c34,
  0x5692e00720a5d000301d60068f354026b3a9300e58ce700d6d317021174a0027a55d9016e0a8d002a314d021f756002f5686b013f374400d3523a0289e10e01e095f7039761c10123eacf000add98002aaf5f007bb07e02d70dac02cc2e23008f51e5013b1097027fe7cd02f1394701ffee6f03aec4e2,
  0x29930201a9b1de03dccc2f00aae9c40104a98500e51a17019d6fba0330406e033d975a0297a788003f515b016197100357b9e9008b4ab901d2ee3301fd885d019682c202455d980398d0bb03fd2a7b0025fe7900a5c6b7013168a7011170860088caf303bc266d01cbaf2c0217da050376984101477d2e,
  0x37573b0037740c03f41e900007dc0602b014ca015a6aef00c7817d035fd12f02842e7100526963001d6a3b00f16f4900963cb7008e897b005811dd0210bc5903fe93a300512f92013c054f008cf638003b74570104661702442028010fd581038a3e8c00d5fda40124fefd034caf790378bd8503055e20,
  0xb2e170149b7cc016f894f01c223a90263f335009111550246069002532bb303bdd32d0393052300064d3803a8436c02f2dec7028bb1f801f9fb2902bde42501f2d0890185842603df27cb00cdd77a003d065d017e949b00757a68016f1bd20231eab4003b938000524b3f01ee4f0c03b0b7590118a392,
  0x2a788100fb8ee8030bde8f01e9c240012e1a6101539b990102217c01754172008a27520100c34000055cc2030c05e70388ee0a03eece8601195212000c4ee3029db8fe005c084e00b84c7c021a828e0019e5950173cf9503c7ca3a01c33ff2001f124401d3fa0e036771d1036e775e012c6fa401679f9f,
  0x16331d00826abc0267da8802f15c7501ac5d1b01b699ba03c28fa7020e28e5036eeacf01fc0a2b002f3bf30018cb8d02f60a1a02cb164501cf79dc03ca0a7302f47b0000a3c32d01e5d3aa03c23f280032077a0076496401a3e73501dd6cf7032cbcb703efbfe50209b8fd0173fc05028d68560268d5b5,
  0x1eaed503e7715b0358a57e029e1cf3001fbc79032e64ca02c3d8800372eb61000fe42c0188d752001f18c302a1cc5803aa30c502d192d2028f4b5000e93e9702606d07005ef28800c5e81d01c39208001f9b1501ad023a00c382bd02e3094a0356ebce03a33f4103fe841d01b68b2303acb3cf02dc4907,
  0x740f80020bedd0160fed7009abaec018dbd5e01f6bb4a00fed01103ce8c4f022d284c02e07c55003da5af02337d5f03943fca033affc5023a3cc6015b7e4801f5b769029a268102dc2e2e02b59f580014bace00cc600a03cea4de0307b93001e16d6300e16e51017ad89100c459670099319302610adb,
  0x2cfa3601119fe503f12dcf003630d0021e12b80344799f02758d10015eee4c01c1702303ef81180039bd51000ca212010f32c500902b3b01037879000638ff00884c1202842d29020d392401f487b10017611701de9a99012e0db501cb647e014fb50801d65a6f00fdbc5e01cbb66100a56554012e71e1,
  0xede8b0247d88703b268b501826ec202b3d24c01d6e6ab03f2ce7b0147fd52021d4e6700a4cfe30014f22901d36bb3028f07ca03d1109702bc589402b4aa72010bd6ac026cf7cb013593e303ad93f300016bd101c9bc64026e5092014d247a037507130014910d001dc4fb02380f41019358ff012ea97c,
  0x26ebc602811dee02af5bac017544870299beaf0096849401cfc079005abc7502985a6d03f92cf7001564110273e4470081630e02e8b44702bec006004c959f0131ef47035c333a013ff7e10239dfab000e63b80035dedc00a12231013358d602216ddd00e8d120002a7a820211e994034c5a4303d02db3,
  0x207e900198492b011c199700aa206202a08c7600f05a8100508c010118cddb01a3386000a1beea000f5027023046ee015ced1d031b134e03555b5700b4214d012b144a022ff5800237fdec037bb78700119d6b0103ec8a00701e22023db36b01532b28033701bc01aa6da10139f3ce02a18ea102b3534d,
  0x3d78b802bc0232017ae76502070eac031411d100049b3801fa0a5100646cce017955ef02b77cb7002ae13c01c246b303f9ff9103a2bdf703db9bbe021c746f004be67b0044a683021f75db039062b10028db97021efcbe02c2819e02a97407034564d201193dff024f719f00ae4ded01c94d6803601ff0,
  0x18eebe004ff47701c3fb2d03d319a5008e65a70066f72a0075afb80019aa00016b6a15037fcfe7001b10940285a43603c565af02807d2101cb58b000c3764d030a1c07006ab54001ddc5cd0353834a000fb1240398586c026eb21b00173a7503979847017726fe02cf5ddd01da2dc100259a8303df971b,
  0xc0b580183ada1005f135601a74b3903c03074025f354002344c270156fc4501d97c5e030576ad003d5bd5032d3cbb008de3f50334dac603b9edd00053b3a602df577b00a581e9032d67ed024846fb001112e2001808ac011364b201d19fb501962b8d027165470038bd5d0363efc301deadd202625169,
  0x1bf85402d5f8c503c8295e034b304f0372e57500fcb3d501380e25033b222f01a5474500cabc8f0038072402197ba300c11705033a8756006cc42d03e99e3c01ce394202dddeb700df8f480158e486002adb2d02970cff01d274de01be848a000ada9c021d3a0c006a3ae803684e4b0364d17b028d068c,
  0x3849d301f7a2bc0371ea4401288681038f755101736f0a0267f4e903c97dfd03aa828a038ae7f400111c5d00b1f3fe03978bf002e9b3a20128d81101639d8502f3d5490006872e0313086701cbe72000163d1500c2e38c02a48d4d024e39be00ba2f6c035a280901d9dd800182f63301539ad000b193c5,
  0x35e36f00753b6c00e4dd2001a295d502a77405004a4b3c000a1558024cfda9032bd2b302a6976f00281f3201d96dcb000178e502a11bc903e9660e0364a7b602717a3f038cdcba021c85c80161d1cb001b702d0099ddb3014ae46f00579db6033cf1c6013b926c0046537c00350718035f639301fae7ab,
  0x7cc0f01314222027857b5020f65bc03085e74033ff3fb0120e24002fa2bb1020dce7e00d8328200185945034e3788000238fe012bc9880155deb30049b40a00b8a5b7028edadc00f016ea02da2fff001bc15200fee17f010bd9ac03fba92a016e4637025a93cc01fae2960377b2a90312bfba00577fe8,
  0x134ddb000b2d6503402f1a020dbdbd01b3ef58017a23ff0196a66a028b9686002ed986026e08b2001a05560208e5ba01198cba003ecca901983cfa00b9b33f01be0a7601f07ef803d4d0da005b29d1002928c6027ef7dc01f5c7e501fd7e2401aef201015413e801c9d3dc03b3d71102036ca703011d93]

/-- secp256k1.go:10, serialized bytes 552960 to 583679. -/
def tableRow18 : List Nat := [
  0x0,
  0x2c679d020923a40003d40a009e463f01ec4a2600247e0e0215c891019b264002e990d20012015f001f37980396bb8e0052f02c01973953000fbf5a0073fa1a011b7fd7006ed92801d9071d016095410009f898004028dd0109d555022377dd02b6f816035ddcab01cc96340061c64403f5013402f146bc,
  0x33b3ea0190725d01f1fcb101c9c25503a6301d02c8b90f01b4bce70151588c00d6d09502725f73000a304100cbbfe5032c77bd01e773ea02cf0b5302b0065000fadf0f0075828302b047df037d77c20016165b02a5cf7e022c8f63035ff3b803b330ab02f19525007706ee00e038fd01c8a4a9035447e4,
  0x1ca35503938ba6015b5dc30012264a020c2a250388fca303100d1601526082021469e7028961fc001fc49400fb08e901f8244c023270f40302c7d302a38635030f261f020f7b9d004f5d8f03e816eb001023c702e1405e0016012f01a2489e03657d78020b1ceb03ea38ba0393148d03e89ad90201092f,
  0x3676f40011b0ec005c660c0021638301f4bb1502f9936a016524080234ca7e01404189023600ce002c3994009cd8b001adf2dc03b000250141917c026252e703094231007bb91602c266c30395c2560029357002c87d3401b47ae602bbba12034f9713033fcffe01420d77010a1c5a01fd01e6021c1f14,
  0x1b0587002f19a503bd11370356fabf02836b08019563dd029838410181959102d707aa03f801dc001242ad01d5f64602239a11008c807003657dda00d81c37011bf55300698faa0160c4d90299efc5003b707300649064016263f10299ffbf03319ea3016e053d03daee17000f6b150397347703b380d4,
  0x11fae300c95b8b00cf29b202223ebd0080ded902bad1e603c97592015ce0c90174e39c017c8f0e0029983002507cfb021ee2c50225e8e40270a7e502e07f60015d0e3e034297e602e6af1c01692c8c0036ca7502bf861a02de07c203d0a7d20326d5d9010d881a008d2fc902a8585500e8ff4802ffd1fc,
  0x3f5ab2039e91b3020d1d9201192135003f7f3c01888e740050d5b1036bf1ca00ae5dda02c18993002f6739011078ba024745d2007f89f902abbfc9017af27b034937610322751f01b497a7033aade200015307022d4932036385df00d1b2020320bdee02a15b5f02e1aa260031fa6f0237b9e80110bac0,
  0xc9251024dffa102a6160200078124034258d702a2c01d01e738540120e57b0132c4a302bb8add001340f003ec1eed0277bba501719ccd01931e6002ead2aa01e0833803c4351b024417ca01fc7235002ea1e1009308100122c38c0234c4c0020fe0b20389166401d9e60a029f7c1d0367b8d501a88b9c,
  0x2710f400cd5cba009cc4960027cf04039ad94e02f149df03f95d170039299901f25b1e0335a19e001d150e00cee151010ac8bc01c7fdf20234dc37015f2b0e03bb860e034f0d9502c4637402cdd779003b7c9200beac5f02398354024cb53403296426030836f90293c4b501facb2c00b7943c03dec5b3,
  0xcb513029f40eb017e59a20233dfef03f7ae0b0188d9c202992c0101225f6b00f00670020e8f4200300d26010263de00210ebe0261d04c0337977202e0994001db3260011e685d01f204e503c9d1c8001d5ec50289c81d0388abe203f8086003abb6ef00043bf3005f293203f72d50017073090172c95d,
  0x22e8820010f6a900f8ff3802eb4cbb00c2ccd401ccb391027d13b80301208c00ddb8f700ea84c90021789a00d9593800f0d95d001beb8a00eee49403734e43008ee20a03ed7a8e02198a1d0274c96000249928005f692303898b230083e1f301d1ce2c038d80b8009eb0a503963ff301c01f0202d255b3,
  0x51356000dff4900aaffb803d87b090102abb401d43a5501c934b700d592190100195503b4d425000fb6bf02b6702c0240487b02ec04e3027dda9c03ad99cd01b763c6024b15b200bf36d302c4041f001ec8810176d6c101187a8e0280162702bc562c0209139b005ca8a50133073f03f3e268039977a0,
  0x2a755302a09c50037378c101580ae500bf68300274e69202d6ac4202b70a220174709f01d4e6ff00026c570285e8e90299ae9e024ba6e101a395750223db4701713299037fe9d901eb2e1101311ebf001d8df80040d2980116fece014a298801a0b282027ab65b0231f50c027c47da003cbb9f038ed7b7,
  0x1fe57b01c5ea9a0266694303215844039b431002e52f2e01c8965e00358f4a0188cc490285de650018bbed0188a253039f529900b71c1f001aa47a02f53c3e03db538c0222877903b1e78a000cee22001ea3d6035a792600f8356603720f550209e68c010d9c00033a0a3f004b489e017144c601c3ee9d,
  0x3c772402a349ee028b46b9027abff300306a4202292c3902c638e3023f9bf302803aad02121cfc001afa8c03d058c700e2e15900ffa14603c9d19a0085961d02750ac903e3d1cd036495cf03d466d7000e98b300eacaba00361799039170bd0195567200e0037103acff8103faf47502910ec6019eef7e,
  0x266ec8007fe1c3025e9dc803c840f301f8c6cb03fb33eb02912713002dc2d102702002019a541600041e42026652b5034194a90296ff79017a99920335eaca0138d897032b0cad00283a1701ad087400043862038b0d8001f7aa5101bf3a1b0268b371004a0dc002c9d88c02c9568a00f48801021d12d2,
  0x1633a3002008ad0035967a00c3887503079f01005da08d007f2fe90237133202752e090393c6b7001d362600965fd903ff53e601b78dbe0032b57001b92d49002b1eb7000a1ed603e6384203a4aa6d002dd5cb02be2fb2038b33f30353e1a301576a1e02a55fec00258e09023d40bd005da582021cc8c9,
  0x26e31e0034a031003638e602cfec3900620ee60232e723000e1424015bf2ae0071f23801cfcd7f00312e7701fee57802765021002fbd4f003df3c8037395b9024c551801a0e8af035f86c303cb2f24001ef07801a23d9d02cda3e4014559e601642e4c0151cace004b98590094d87001ef054d003bf6a3,
  0x2f8d900184c05e01a93fa703e716750098af96022a06ab00f6fdde01a628bd005c6427038d9e6800081b4a01a0cb9f03e9e9c0025beb1e02365fbb00a9d28800c92ddc026e8b5500819ee7012b0dfb002e6bd3016e907201efc257007ccc34004a5d32017ad387007e04f300b6e67d02d11fbe023631dd,
  0x19f03a0112d72b01ff35e2036a1baa00aeca0301e3e3b401b48241005c5d43020b0a5203ac8052002456e5037203dc012932e900bb864803c0d535027052d101cd751b02bb593f028a292101e55e3d002325b600a075e902544081006a5c6d0194d7f700eea8dd027fbd110241c88900623ec701b2b0c1,
  0x7ae1403cdabd603c08191016e485101fd3454032fa0ba00821e69026d7ab101290d900366217e002b2d90032d8c6c0384c781020777920157787003adcba5007732ea013d3ad3031ddffa029a28b4000eeee30359ef7802197ba90166147401097ccd026dfd990108d8c402a600a700f4148202a47143,
  0x36ac4700dca09b02609ba500ef1cdc015e90830335023200442aa601c7320e03913b6f00e470ce001b5fdd02fd6cd7027edad100e476e300403b9803d520f6010fcb580171319801396a95006ee35f0017fcee032be70400e079af0295d1ae01f07a7b00df734502e456b0025a0dc4028c8029031e5491,
  0x26667a0110d061031ec9c10222f5c502e0a57f0331c15502acd6750272746800932ba300dd0e81002d29fe0288851a01dcc91301164acc0195f37701d2d6d301bb502e031bbd9801c0f02e01d46211003b932102764795021f0701026a7b6401c3406c03a2203602c89cf001b5565e0342f34e03ddbc19,
  0x2a9ef0223cd140094a8510024083f027d6097035f485102b56f190339c5aa010168250152e76000046acc01d7aacc0187632501c3f24601ab3ae5034d68b00151d3e40100de8202b2593501e540fa001c5b140151ed9d017a93a0024d4e1602501ad603d58749015678cc02e783920102a3c502b9e1b0,
  0x1bfba9024be480003e206b0084f6ef02edea7c0179165e009eb03402e917e6008685a602adcdb700271dcf02d099d703e2e0900267edc30152476e004541f60172dde60277a4cd02bdce0c03bf451f0028d4dc03851f9d01d8c14d00959a8703b916fe0156a8b900e2e3e603c6de4e035ca12a02ff8d1a,
  0x125e06020ff367015c90c501c42271008ec64e03a1ecd402be3cd702296f8f00cc32280078be25000348660116a86d01ae81a200749bff033e337d009e60f7016a1527003ca6880312bce80229f981002b6b700346bd820052be4702c29be00149ba9300131530032b60b403145b62000e647401e98cb4,
  0x4b133008a933903e47b6900a9647d00e9e884001e880901bb6961022479e8034f2ac503e6a4d3003bace70276621603c67fcc028d69bc03df1b8000ca71fd03ac953f00f30d1f01689f57022714cc00380c2202218cbe020f5fe600c3c5850277efe1022d837d03909b2600ddd2330335dc7603c45d19,
  0x2ef95c00c6a42e02e96db80202e0e5018f990c01d39b4002b658e70143b7830206103e033db777001b117001f94f4903b1cd600073fcbf0272806603f82044000e0a92013e40fb023387d003aa62f20007c01f02bb7bd602ae532303d9f3f400f8cdcf0378f15d03f5f8b1033636280019cdb70208b40a,
  0xa3243009b68c3012deea102c8b24a023f2d1403bb139b00186ca6031dfc2e025831660058ffa30037658b035edc7b018cf7f10259776c037a6714026c5df503488da500216b69035a9f9c017bfd75002fee8d03cc4ac9013a33e701e19e9900e11082031211460059a1ed00e5173c03b344d000315e2c,
  0xd0c3d03d8b14c03744d6e0075ff4501bf80a00034c39d03f82a060380954f034a1101030880a8003c9ac20281dee802b6759d00fd3e640071c516005649ec009b1cf801e0f54703debe3202b37b60001fb9a7007453370219db9702ffa17002e1cc05006406f5020e1643016676ff00cf99a601038b66,
  0x2ff32c032e8aa7007dccd30153ffa3003a75ef03390779004f6b1103fcdf6b01d935b103a9faac0029513b018df2970238467801c6b60e0283882801d7b9da02e38ddb02a849f0015df83f02c483ef002222800010c1430028bf3303b9d526009ec20b018dac00033e498902233b9303ae84cd021bd84b,
  0x155369039323ea03e3fc08009da66703bc20a401a997a803f2b5c402da4eec03107aeb03dfd371000a16f602342a2c01ef22850159787802d46bc40026bf4700bbf361032ebbf703802a3601d48017001af209003a56f1032c903a02ac0a6703c1265300a4645600d3593803e80dad013ef81f00160a3c,
  0x3af0d700ed7f110372d27a0038d52a02527aee033fe74701fc78e902888a54015d14560143b005001041120157aaee01c6b517032c3f3703f5e38502b57a3801649c23018d1c760158004900f08f84000de91e001fc78c00f625af00794406011cb93a00ae3b7d008abe790167b0aa02069b1c009a7fd2,
  0x976a20089a2b20293d6590176f2920273564a01bf16f401715f040167c29700cfa9f4003732fb001ef6a802a905bb03de66bc02b85600009b10320108fd5a02a17bb1007b0ae40039e5060034adfc0010f62700c5e5180005153f03e118b403513cf300dc839c03296d920389f39602f28cd102e2f536,
  0x285dcc00f6a80600dfc25c00f6858e01e34ec800e4c85b012e911f0137980302373df2019559f60016ecbe032dd2dc01abe40c01bfdc5f02a22d13015df5b90055c6ed028880a8002d235001769c2c003f2b6e0193ab3500586df702336b3c0094fa51019912af0383a54b026fb96f026690d501ef43ff,
  0x28b4f3002b69aa02183fb50075c7eb032b0a7803241b38039b92f201d5477b011bb5fe010ac42f0029c3b60297a8bc029a14030365a80a0051701f01242ab40350ce740352eeec022daf170012c8c2002c8f3101aef8d902a1d814024fab4f013813e1034c287303a810d00216ac0b03b99229004fce65,
  0x266253037558e4012ebaf7027155b803f011e202d526f003150cba01b2fa5c03eb3c4e0045a8ee003dbdad0199cddd037d904a0184ca65022690260266e50d03f8a5030198443600e6bf450267e32a0002bda40347c52302f98058010d5248029828f1003d178b008dbd1f00d5524100979fb50289cf87,
  0x1b2fd3018453c5026a4b9001b37c69031b85a400e2b9cc028b3c2900738e16038544b3037ca08100390fcb007aa221015d7bbc0296ba1201afb58e0061625c036b38fd029abdd4023f9b8d01d7c2d7001879a000faa24f01e0709802d6af5d01d5f0660378a5380192413300ebc60f0335454f03bdb749,
  0x1421ae00775d2b038cf34400b3c65203addc76036b31b202603eb2011351ed00c58e4c01cf9c29002473d9005dcc9901b0e74903a6a273036d7b32038ce44402178d690046eb0a038ce10b00351ec4002072c9007816fd002d03960364bf9801c16f54012ea8fa02443db90144f0780093de4d027af62f,
  0x3bef49028f80c901d913900045179802b4dba0034cf2b902a2d115010bf5d4033e83560225b930001c11800333ad3703ffb1410303116003d5858a021018ad0324042c00a51708030acde8018246af000a4f0e010d501e022d03b601529fd90278df540049c052016eb74a01453b7b0373573a01063b8c,
  0x3478500247ca6b012bde3302854cbe0295440502bc9bd102a6582003f6ad3f0374338d0120aaf1000b7aa400c6ebe402d81a4600890055032828ec02a17b38039b0b2c00ff19c901404b5702a7dd7d001dd615023caa44035644600190d1c40287a2c80242554303ebd68d014dc8cc03153887020f67c3,
  0x19bcac008783600394cf1203ae37df019ec5a102ea671c02d4e2350294dbd801c465ad0204b6290013429500dd081f01195c66014a1ea601958b540349da7b007790560362ac9f0149540101010a9900326814039f5d6f021d1862019f6545002aef920275aea902858cc70159cbab0236ed13003d542b,
  0xf0bc3036b5645030a1b2301a61d7602059b9e018096a802ce2993038e9ce102a4c35603e01df1002667ac006274e1033eac520356951d00418fc80128637401a12a0603b2721a02c52265010aac9900379ac10134baea01ec6be0003ecf230378611701a80457003dc5f50306568103435e1d001122d9,
  0x978e402df54590060d36502283a970027df5c016a81fc006a954701543dd3022ae4a4025672fa003cee63038c5d73033c416c02135c2d037a53b70255e9f202c708d5008b8c6d032ea1920376829e003531c300ee287f0219ce83016640870236e90a011cac58024bb4a902cfbfbc00aa4de100569d8b,
  0x1c720200122337018dbf8201fa4ec4034b8a2200b97a5d036e9cff0296864c0154f12700718e23003a9b5e02835332020e925700fd645f0331ceff00fd88f2030fff4100e21b1601749d6b00b7dfe5002cf583026f43dc0270e24902159a25023c29000249509b018377cc02bf9a0902e29d890095900f,
  0xeea33003d523103ab02e200967acd026020fe0123580100ad80610088b2a902a4a3c403bd3f99001ebed60300a05f00fc9378013949e8013b0960034d98290164b16301c5498a024f4eb3005a714100360b1c0135b95903355b4d014e828e01e2d233009eefb4028fb8580174a94b03e8d1750115b32f,
  0x3a9a3402f052e003bfe265023a99240180d87600399eaa01c9073a02227cdf02fe33b1017eac4b0018bd7c03b4f7ab01f953c200de95690114e94103d8a4d301dc37490170742c01c3a36200228af50014033a020167310263925401c41157018dfc49026ee14201c10c200270bc9901cfb99701c37fab,
  0x2c91fa027ab2fc00f0a131010124af03fc21b502efd3b0033b96ec014ab62501fd1ed7035ffb5d000c3ccc014905160395dbce02d0bd88039a6838028d14c303c051c7016d9fac03e9d3a000f481db000d140a02d5446c007870dd02e29d8b017817df038db0ae03b6f10e02f8c59501cf12a50217ec31,
  0x1b15fd0394217c00792b5103aebeb200357dbb002e9ec00225fd850393c72400cc1eca012a3592001f70cf013fd76d01b2c22e01892a1900121b3c03f1e4f7027b7d3000ead2f402e0eb0d03c3fe5a002f491c038aaf61027636fa03418ad803db0fde024cec61019a853801f861580283381c01767093,
  0x3125ee00b8990d031a98d8037b436f010d04760028bf9d03a568fa03317f7900fa65a6029f01fe003cd55302724ff403695a9503b34e1903cd026302665e590110cd0700b5d9b200ddc6cb0257d8300022195901dabf710004d35e026f532003b34ac602d4434c01ac29d9037a7696026c040900e273bc,
  0x1e7a60029c30e702cc35c103aac02202a9513a036057e40201e2a0002f89930138a6830397972900260f7b02c736f502c4c6fe004101270058003900932e7c024c8eeb034f8a4600ff10c402974fd4003b2f010005ca63038fd3f700ccf49601a8858702396a7e00e5a1ef036d2e9e02374b0a01267124,
  0x27dc7603869ff2008aef110393e83800a7056a02685b2c0111cdae0019276101a5491800329bf6001ef9850311867b0280293e01f0723e02fe8f4c005fedc602043c0c039d73cd01b3abff03b58072000d792603d1e91603c6b21503c7351703aa60b100a7c06a00e07383029cc10001fe493d0094cbbe,
  0x185b0402d88bc9005e3fe9036a076e02659c3f00488340013a71d60023bd1c00ec61c203c7d0e20031a25702afe090021c8655004c494d03653698010f29d10254c54c022044a00358b68801dae036000bab7f03d885180003a57c01a7422600ea075b009e679000626a710031277503d7665e004afd15,
  0x3716fa03b49a4a02721f1f00fd6760039dd06c01eb2f3d006b7a4c03d2d7f202e88e700247907d00287a6703ad163c022d11dd023f69fb0364466600eec7c201b3fff200f6a6cb00f976f102ce1686001d0cf001c606de03c3a8b5034e04330033e62e02649c0a004072b60091aba2024f72d403047d51,
  0x2c641d02950df3011e4b2700e89d040292fef80261d55202d540f501ec98b103351742031d4420000dae35030cf2950369735e036cb8010030e08502a1b59500ae158e01f7a08c0223285703eb1af3002f8d50006362a40166219f03dede5501f2df77013f32ad0015ae900190f3990311ba2d029f2c08,
  0x2d3876017a7eb00080aacd01e5eac602be3f0a004c8aa901169458029729cb035eb775000410e800352ab701da15c8028b1a1e00d447f30296e397017e041d03e98909017a391801d3a343006352d4000616a503d4c88400c4b2b9036cc075016ab2870092aa1502f30b32008e891d028f7d9300c1a2ce,
  0x176c7d02bcf2e801db88cc00c79742035de8b902b0693b019c7cb702cfed4c0055d76c01f6e39500362f57035e6ea703b9397a00f37150029144dc0247e55c03a630e7038fe75f03d847fa03be9e95000cad0a00a88d0802f8dfe9019ff79f0023a30e01f103ff02dc4f1202fd65940031995900ae4766,
  0x31104d024475440097f66001bc687d01d642c602ecf20e00fe5c210152cfab0347bd9f010494170002547401d42d5c0256812a02f19fb30305028b02ef63a603f15b3f0208541101dfced4037c8e8e0022e5300161985a00a2a7d00070c3a5027d9844025b67c40152d8e700f89c0b00e9ae0901ecd1de,
  0x1688210057466902f11b6900d3e773039f63b703264ba2017b79e701683afc02f496cc00540d580021b2760097ed390256b1bd009e344f039bf8a403dbc7be0276413f027f07ec0273b42d0043897d000e2def0087c01103cfbe81016f7a90037efd9202e44fcc00851b0e03a7637200ae9dce021dbc20,
  0x252d2501d257740365d4fe02a7d98b007a25cb02c39eae020c54220145120700bcfc9702c4a3e20018926f03aef49c01e2225800ceca64025a4b4603146ff2027854dc016c8fb2039f71a803bfa71c0025af9e02a4eb5603abf88c01fe60c701cc95f303e95c7102de2fce0072eec801ce7a9803caf81a,
  0x269a870012547e019fd4ab02b0b61501376ff10089adfc01e973f602ad97110069554802621d7e00039a2d010eff4800759ebb03bcec0c02d3eb2c01a49e1100e582f2009af7c00033e452015ff92c003d587d0088a48c01bcd67000dbc49b00d11e1e02d06b6301b9078103a886b003788be600ea9809,
  0x29b5da01b25fd3009f093e00b6ba11002a114500c58aab03e3241d029434650230e53c036bebba002d19d603d7e83a039b817600ab660f021b3777024f38c500777a4802dd4f7a029f421700b150090016bd4300648716037c964902d08190037fad9103c02ae6004e836b0294e8240134206203e4d976,
  0x24fa4d019f726d037625a601b0122202d4049e022ef24402a1bc9600c448380303a7c10283a5f4000fc2ea006a60590356cd0a00699cb701c0995e03a0a5d802d1ee4e00345360002d8593002fc782000d1fe301b91a04024e0c340026ab7300f0264902ea868e0011040f00307e4400db066d0148c6b5,
  0x104fae00774ca400917e0c02f72c46036c43fc007e40cf01bf74a600cc77d10133c8820236e847002dff4103390a8c019b29a80305e3ca0186a9b2004149e101b0451802c1614d015334e90082cfa4000eb851012b93d200867e76018b12570090e062033e85cb01c439c9012923d903b2b35e035faec2,
  0x37e67e009ce91501846edf030c1e4a01cdcd8202e2979000ccc8b7035578a60108a1d202e5750500194c80012b2d0a02ddb2ca0196bdcf02b56a1b02dd43130122c2d90397f56303964a9a0338b74d0006e1110188aa49009dda4501310c0702d1761d02d4b6090027b92e03d7373503e984c402e74c20,
  0x257e2e01f4fca901c4b7e80188496700875e210092a5870138f30c0290c77c0125956a02401256002de06000a26c6003a55f6d03c48ac303a9f6ce01719dfb01685651001044c70398b3e50288c207003338fb018dd3aa006537b102dc567e035c0e5600b99bcb00fb38950278af4401e66f08001adeb2,
  0x2504f02439f4903a1ea1b02452c86022fd20b0238176d00af49210362d6a603edf25601450dd1003206fb01a0300c03e70782007b5b8803d740510374283b02464b3202c0277c0030f5bd019e389c003df35602a47d3001cb85f500070822020f79af01998ca603c84805010e5a81035afb5f03e6647a,
  0x3ff10103426517023077ab016b134801e31398007c2a72031ff5160142938b033aab9400345dd10028db3f02608ce6005276ab0150cb8d032087ff037326330138e74b03aab324008426110304c49a003d086201c1551701a65e2c004256f100dd8a060069da7801a7b67f028e242903c400ea0008808c,
  0x24f34402f053dd008f107d00bea73101cfa91a00d1a19602447f7d039d619e028a17ad02337d92003363510269e4ab02f8658301d58c7b007a38f002f67443038ed5f80244fbad0073329b016ffeb0002b8f4302a8741d0131dab703073079037ea35300b8282003a7e24103fe331c01b780e1015f0ded,
  0x223db029763be01bc9bea0117e4f70263faa90019f17f00830c6503b80cea0296fc3b02f68c30001b18a802246bcd0026ab040044b7ee00fa959203a500ad028e0e6502378499018c614b022d6811001b3610027866fa012ec6fc0076ac2c006155bf02a4a61103fff8dd02657b8203c3a8e602fb4374,
  0x2d7ff100c5555d00578746012d93860176090500c4c65601d762fc0107f1a2037963d20201d6330020f1aa037d8e20002eccd103e6b36b01c4764201ef664903aaaffa0227f4bd03308ad203c3b4680021340900e6c3fa010a9c8b027376f701306d2a03e78e6c031e91ab024ad1ae015b783303de7eaa,
  0x83de00365a81c035470e40177d0d1038b44d801b2cb8801833e2e02219d4101ff3079037d6e5a000106a8006669cc01162bf7035c12fd022e333000a3a94f01178961023d26e803652a6503cd980e0000ef740020f4d800445e5d035e42e6018ddc3f03239ca5031d437d01a3bcc402770e0e03335106,
  0x3275370232d4c50002e3f701de37d301ac070c02a1b03a0040037303c694590366610403c375e00021be7502cf8bc20161d45f01e2b8da03badf7302cce5a10320eb6c03dc53240077314a018e71900035d18501c0c66d009f66350251897101800699005c39ed02b198cd016036f103cf1c0600053cf8,
  0x1b788900b09a6801940ea303a4ec020346664601643ff3032d1e4f0156dee701cc1e3901c6c912000957af03c7ece700b3f01303d51cb5020d991f03364431028ef21000d8cb58038ff33a00d79e170004bd4b00a8c48d0061150e02154a3502e7f4b90261741502378c35012da396018ef7d8007ad3c2,
  0x1834ab010a131d00cb80ff01b85cba01c066320230594501e88fa500f8c7b6011d2ce1031ee26b000a0a0803f27eaa003cf30c00c4d157002bd9f20150435a007fb6b003f0413900f9684201f4c1470035d495008b93210258f3af01d2cac301d3e320027b64e400848c5d016a471f017a995d00e54e61,
  0x12dadc0177a064014bc34f038a557303693f8702222e87010eba670189eb27022adcb80342c03b002674c7017e422701c23b9801948992001b1f1401d04d8b02833ecd02e778c902799448037c3ff20033bad900cfe9e6028df58f0324c2ee02b0cd7201928bf1036bfe400209af000381372600d15441,
  0x290ad0007b9a4803800e0c03981585012b49ba007bd5020374cd3b02acc04a0049aae8030b25f300160c6801cc69be0036256703e0ea7d004c5690016257e8022ea61a0389e45c03809c3c038aaf6b003607eb029000140040e84c028bda30025b294d038ae01d01a41bdb02ff461602b920bc00d405bb,
  0x1368b0333d7bd0273d579020e8cd303544cd902ec645600c22f58002b0baa03584be4039ffbde0030ac25026bedae00a0bb9801eaae110148145d02708d6b02872bec02e4adfc010de50f02392d3d0035996a02674bf4009d15fe0037399a030cfbe202c1a693010b059201cf3b0f0045bd1302541385,
  0x2767ae005219cf015eed35005356f001ee1f5b03a1d4ec005ef8ac033e1c0002dff6f801617fce001f1509002879c703bb98930101315e0312cf1602e33093034156f800d438c8010f62d0008f37fc00261481018e088200e7036c00e28674009a7068032115cb0008486601ed8e5602227c7800862451,
  0x367aef036f89760362140f00f9b026001f7fea00b8c69e03f229320249ecba02586187021b6c0d0026191601345183000de4cf010947c402214c5602e6c4a800c040e001182e9402d908f301ec05fd00348e9102fb6cd30103ffd70255dde301bcb1930157a4ed01878b80034fe77201147fc6011eeffd,
  0x1b37f402aafcd501c2629302e324d702a1ba64017914ca033b108f006d8cdb01aa209702568dd2000d18430103690600f88e1701e985b303c78bd8036685a001a9468b03e7a453035d1ba800bcbd4a0031e86001421993030a91f70224550503dbda310346acf201438fb5012580d8022d731001ae6ccc,
  0x18842e006dc9a100586f4d02a88df602e5113003c576bc03a0b4bf010246b20241d72f009121a9002db12b00f4059e031ae068008a85f4032b83c40224ee8f03311a6703e0106f02b53993010df675003a3c07027dd92a006346fe02362e7b03ad2a4f008ddb2902d8d3700309dc8c01a28f800164edc8,
  0x18a3cb03833232014ed73c0034d88500428df6029a66d3009365ab0075f02b03cc58b9032672330001e6ce01bf7f60001e1f2e004560c201db849503187c25006f874a0017ca11030b0f3400c3c80a000b365301ad313002b04ddd01b32a96011385eb025b799c016b365d029ed56302cdc0a80022abfe,
  0x2c73e701af0ce802012b2001db33f901b1cd980107d5d9023826c9002a3a2803cb05bd01b5ebb9000f617b01bfd44501179c2f037df84f016fa1150381d13902a19d7c01544ba8009f29d1011f00d50027c65903a995ad00acc27f036ffc0000e5fba903a22dfa0182657d031ada8e005826a003285e7c,
  0x18fbea00bb960102e806b40077c940034c3d0b0206800802887e85020b4dd800ab792002f3445c0028379c037979a701b9a01803fd483901af9c0702dfee3c03d53e27021c6de801c589cc0093e50a0024f6e603e2af9c03ae5d36039b2ed6004b15e400924058018b08c902cda0db02d0591503d40c1c,
  0x331dbc0138700001efefb70283bd31019cbf1f02c36598037c5e710336ba3b019684df013089530000266103bd3ca701e0040002f14d1801172a0603c962b800258f4f028c906f0177a2740160259b00165ccd03dc15b703a2c5ff00ac2e8b01737cc802c165270047965e018bbb9202721df902c986e2,
  0x2f74c702ef4a3400daffe303d2e4b7003f2cf303076d5e024e46a803aa9ce303b9c053031e01130024cf8d023126f0013a1ea1000b531601865327030ba7a201f3be9e0329743d03172aae01e69d440037deda0139d19102b6f0ac0231af2f0350170300bb7fc0025097a9021f971b0378575d0393ccea,
  0x27b50012db97037a39fb01aedf460298fc5200df92e101e46555016146340256cc2d028626460015632600cb19b30254a6660322423e00a8001e0282284500cd1c2601a5c7d202554f73012a4e21002dadb7014a630503a1934a01fbd7b10342b6c70163921d024e2cf2029326e30086e92c02f4eaf2,
  0x11fb8000628f3d011d158d0160b0ee025a2dc90226d5030324bd9d01b60cda02c2f1410116ece40024a37401921eb4006db9a300ff645401b331a502383a0b00abbb4f0032e57002bf72c3028288ca002d324e01d566e101c7389802c600e700ffddce01e008ca037ff1e202dacaad033ac5b8028d23ce,
  0x1e5035025735ff02cc4c11035d9b0101fe432400388d4a0392e621038a903303ec9980008911ca00313e5f0313aa4200ee838b0007292a000341b802e8da7a00bd0b0402a3eb4103a3a48001d451cb002361e300991c6d00f705f4035bcc050360bf8603ab365700f451b001ba07550071423700fd4b28,
  0x1e6e5a00f839de014105a40353c8e30129a91d005eab2901bc3c260337537a0273fbd3018892db003a35d500d3257100572ba500c4942903e75a0901e30022029baba902eb94fc02f82590008988330032e09b01dd7fdf00271ee600df5d6a00a07fb20311164101998c7f00b3815303ea5cfc02147287,
  0x85dc201b9429e0074d47a00abf88c01feff390102202301871d440021fb190281dca9038d20d8002876f4011ff901013d1d700202137b00cc5749018e0084003f50690034f0d503131ece01a1a488001426d203fc9c3c01371fe501a8e3bb00bd6dba01888d6602d4e0f7006440b200ae971c02a8e849,
  0x2ea1a50117cb7b0340819e01d615f30220307003328ada02c526e901528ad3035c7185022a22d80000c46a01b78303036c06fd0310161703df11a6008d857001dd50e9005101030007218601a245020014006901a51b8003bce5fb0186ee1300cd2834035ca694026e2adb00030ed300d658de0013ca32,
  0x3301230366adb0011fa23800146e8a034e8e0c006abc5802171c8702619b7702e70c13014400a30037ff2e00c60c7a02eb7bd80185e4a10078ec8900c593d30243663102962398031f73db004fa108000c7d9a030a2a0b035c1ebe0295400201aba64a0300ac4c036ee1090206c8390159d20e02a9cd34,
  0x122d2b0163430100018fb203ff5ead03eff8c6003790dd01293c5e0343bf2b01e8a41e011553920010597a03dd7a3c008ddc550326589c02f76e8e025e73f40136bd11038809f700a0ab33026f36ea0021f9e9015633b903da4af1025aba5b03883f1e0261d48801b184370361ee8f03b09e8e00527d7c,
  0xdb1de030e2457026ccce701ce88e0015e86f203c1753601d0cfc00266ccc901503b460048898f0004181a03c5a649011e7f6c034ded45034957db03291d6c00f1e65e03c890c4018f275b03c93f2000300ba70355751801fbcb0203a6d2520256f1a801bbd821007d9ada03bdded303a32fce017562a3,
  0x341ad201a42a7303162db1006160ba03845c3f0235624801e3a51f019a9cde003ee5c302f53ad7003aee62031c933201b68f550064167d02e5e696017b1ebc03c063cd02bc9724036588bc03de6ee00020bdd303fd76e60326d3230009c81e01518e40002d58dc021c4bce0250b1ad038c711001322148,
  0x249193037f8c9703c3f0bb035f596000b3c69501f86a6d0151c221010e9f7b0365e4de03d5eb8a000b2a3f0124036600f9f9660373cb7100d54f8600fd3a170364bc3d002a63640338dc30030f4288003844950317560703c9a13901be865c039e7c3b03e4c0970260c0c102490c10033e8b09026399ac,
  0x14c513010543cb0353e9b200d9965302932fe803c4357d0369b9eb0365130e012eeb1a021eeb6000048ed401b22d6e0275e31001ed6170012ad313022399c900a661d40290e6a60377623403eb7177000d8df70111e57700617b1d03544329023dd1400143adb4016ae816001ebed903894a7d02bb202d,
  0x2ea50202169324029c8cc503fb631503630d6d02637764017d8abc00b2c6b2015402f6012f65460038d0d203cce881022fe7e401dfc185010608b3030354c90325c087038756bc0110ba14025bd988002c391f01c179b902d6fb4800c921160391013e0128387a0232eba101a110f6023386d002643218,
  0x141fe302f6d10100cb38c00353d5d3034117a703469fb401b34d740195358803d2d3ec01fa55ac0037364d000be666014256f903e55d4203947ed701bbc062036764bd0097c5cf005dd1b400ca972d0016932b0131506700f854bb02ad390002ff8d0b03b1331b024ea59903a34bff00bbd379033d90a9,
  0x15d1d602d92612016d874f0204dc8401e259cb03ea9f5f01309c46019ba4d80286983f0159b5050012182302664593037027ce00051d5a02124d01020d8eda0197992c00a528dd01a3d636031d8ff30038c78c00ec64e403bf8bd501c084a3004ffb070133a0d2023f1055037c269e000ad081027186e3,
  0x1200a9036e71ab02e24d8103d517440017dcb9009ab8ca039afa2f034a70d00165566700859d630039e669009c51e3037424ad017ba5bc0357562a02c096bc00007a9901d3b7fe01320e22037a0d010019e76302e374fa028b9ef203f7b9c0015b6a9d03f073c401584fc9013fa51900fd020c032003ed,
  0xcdb0b00ea9be10114351c02aefca90155d91c033843860012a9e4021801a8037b3254017573b400336e1b0144178e02fabfa603d23ee5014a432e02f156c902b1baf90238a1d9033c3ef9030ffa4100156ac6003e98c902d31d51008314c5030b987203100f4f02986eec0009daa003ed96eb01b99167,
  0x12392e00aba07600e4ef5d0170375d00f9567101ce5c7502b6fedc022bc88803569fb801350c600003e34903d4715002967cff01d9c1bd0074455a007ecc4003fdb0d4019db26902c6ba420174c73a000d7fe2001acb5b015556fc013fe7740019fa0802117a5502895e1701dea89300fea6b903c14487,
  0x27ebb200acf40300999d77011594f103eb775203e116ce004ebd3a01bcea3703bb1cb600ce0e1e0001ee9b01bf451602d6ab45001df0b2017c695001a52ab2027be885014dddd601c42fe502a479b2003c597200fc56210086a6e90087c87403ee370a010913a801fdc9e000298a380313ef4900f77ae9,
  0x14ea5102ff29f501a9488c02360735022769ef019954d9033ca124009547c902a4b5020282440c00079e9402eb0e6d0122e33a001778d7003d1fc502cc376b029ce7fa02dff4fd0190d71a0178aaca000d39e70254660a03df1e3f0125fb0e00f4914502b93366011867ba026e991902d65dfc0045ac4d,
  0x10521802a93b790225703502e48922030608e3013e793402c0c25c03fef2d0030e202600b89a7f003fac940265e066036926e103cfa4d7039a420b03f8f31901fc8efe019a528e01f8489a03ca8255001964e3024c854a03a0523e026c55d50018663c03406ca8033dfc13022f49c002809664027f8220,
  0x220efc026308bd018e6b4b032bec3703e213960091d33f015afd8502d7db040263b0a800cceb46001796690138e8790089384602391fc301218c1702a1cd4f02286ba203af762a01b1368002103579002d772a0047c75c03ea206400f4a1ec0083de270317913202afddf703025baf008a83ed00457602,
  0x2f5142000a16f303db696d0228069d009c8b8e015f65fe005ef3930314b8f7035631bf01839d16001feff9003e80a601f66f73013713d501dc36e703f4df2a01ae7bde01887abf0232ffbb00f1edf4001975a8007f96ee03c4f8e6033606e802c0437b0170d7d501ccc75100c731c4018e6d9d0201ec2a,
  0x2021b501408fe1019612590336b4bd036b1bff0039e30a023887e50019f3f601ac0fa400de950d0004cdfe02b0780703a98d7e01802b350147ca480076621700a2c229003eb72b0275f69f0257743c000cc6b80357a4b50167f30e016e5b3d014cb61000acd248005b18460242538f03ad045601065c19,
  0xef8460022080500662a3c0161668302bc0172014c5e81015c9d1903fa3bd1010cf35201875fb60018680301612e3b02fba67b027870170200c96c0370bd610267861101965f2c016fefa3008688bb00080dbd012eacd00169be1f03c9c7be0187408a01bcdc0701c4b95302e8d365002ea1a30061c1ac,
  0x262da2037fedc0012b140302d0a5a8029017b201273bb10078ca2e012c9dc1038db4cf020336040023964302272f540334d22a01e67c6603f4d1e601ad635e0108567603a0d6bf02a67c16012f1548000b081e0135c7b6029542a4012a2bf101f6f534022aa29e0373d7c2014cafcc02d1856d02e9dc11,
  0x31be4a015cee0a035d6e5301ba6cca0156b91c0323d925025c4f0c03c42429012e041a03a017040010c229037f8f1901a03d1501f04b2403fd6a28034f14c0009f07a3033555dd01ee393b0082f20a003f00b1033a499703e3ed6a0190ff2c02b3d530001032fe00634e0002dd879f01d4c03503fe621b,
  0xd5a1803a89fe2002b68890129fd4b006ea5b7004999090146d3c40085769c00237cc901a8e336003e693f0236c8770098fc6601114ba0028a8f5400f12e37003c183a035a3ce7005edb32035f1f5100268b7e03783f0401c20af402112fd4015b14b10322fa570010ec7f02b019d5033eb43203521f6a,
  0x22904e01be5ae1021426fb015512d702beee1b01c8461300756d3703f856c9005260cd0309ee16003f5988017ea86100772357025c9023025e80a10186ece303de629803275299020cfcaf02602a51003052dc0221fa2501d89504016200ff0143569c0371959a03835a23038364f401b86694018b3257,
  0x2368f9030b24e5034f47030270821901dce3ad03947a9b02d1477d019e52d100afc45902ab099700084c7501a1009b02ebed7a037f3ae702d1de3902cf9c8d00121d8c0065e0c60178290f0385c63d00077f1e03154a9c020748fb004c1dde03fd3f2c0307c5a8003eafdc03217a4b032d028101a00f42,
  0x19461801998ea802ad7562032698b1036877ff03e9c6d502c36e1a02edb3a6028677eb039bf9830030167901ec15e7031692cd02765f760114b688004c396000755ba6039dbd2f005740d703eca096002d2572005b10f80094fad30251066a016858e60134cb1803e7f00f020c9ccf03ef690d027e728b,
  0x40919004c39fe0196834f01dba56b0204af610277db0701c11f8e01acb63d02f7d08901ed9f060037680b01e5018e00dcd52201acfd1102b9011401d8328f03e8d82103409318039408b901442b730002b0dd006ad12f03cd73050077387f018cfa7600e27bb80059558b025daedd027a5978027e4bee,
  0xe5fc302861125018fe66d0368e2300216973503a41bff038d144902f66054005a0b6000fac0ba001290a9028b8cf20341a0f10025c4f002773ba90330169402fd5593012c2951001efe0a03a0f230003d2db6035451ad0081def200ea4c8400f656b302bdb14f00c51f0d0370ec96039f49d1022150b2,
  0x25f87d0124540901c0a53303d909fc0280e14d02a3c339003eb0900188384000bd713c00ab0eba003663fd021af51b01df60ff02cec92a039bd983037a923703d7718202a17c2a01ae1f3d002836d0000ce6d9034055d501afa2e2022f011a02c43caa02ea30fd013a0415002fffa9023508ec035a7a19,
  0x33cf5d01f5a7f002635b5102131cb3016d03e8035cb92400725f8001b122a40116c998039edbff0029e9e803c6c69903b7831700613dc1019a5fa103c1b4a701a70e4f0253c124036013360365824f00385606006021a003396d6503ec5ad303e2ade903d48f8a007edcb8021a0b83014295b90151a739,
  0x240da601457b5003043584005844c1035a583b025b4f55006b2f2b002e70fa03fdb2fb00f0851a00082f4103e185ab01081e5902f812b10181fdcd0358ddb303507b3f02ac1e01009c88dc0272e5800024605a02710efb00eba42c0124862000417dd600be735201fae82b014e09be0335eb530255b9d5,
  0x7f43c01f003b701b711c4004075b000e1ea4c006d763d00d19931018c6d53035718d30101bf09002099940243af730140825302539f5303968148024c466d012464b400c77f750104a32f037811820022065602da9722010fba2b03aa2149004c074601b1c33b003d12c3032587b5005a9c4e01ba0ff4,
  0x2836850008858f027ae29002f940bd02b4989a0157bb85008346d2032f55e403e8fc1f0165e33a002cc345000a6d6a00dbfa66022f252102190ea301c8d95c037568b30353b00103c15d8702f65d40003dcbed034103160110f95401dc9e840176928602636e3f0130b6e80326ccff0280ee2d0161e65e,
  0x181daa029109370105941c03e499af03634c53039ff77c02faaeef0007302e00c6ae5f01a86b710006ebef0268006b0186d7ff032ecf2603a7c25b01fc291d01ca5fa10087757a03d1ff9c03103015000b2b7402ca9b0b026c3b9e00652e28023eacf40069872901ebf89100887a41012c1dbe00178aa5,
  0x2aef1602c6e27700401420019369c703a7974d0266bad8033d1a8e035d8a0a0177546800c416fa002394a6009a682302370bb3031690f102292e6f0222a0fe00fa2bed013edfbb01470d020311670c0018ed7f02bd069f03fe73eb03933690019c44cc023dfaa10038c1970240d94603c9881002d6d018,
  0x367c6201d327e201fcc33e01c0d58e00da5ecd00e3033f01e7c1b900ea1050009babf202391dac002f1f6601a7314c018b34f10382245d027ed15e022e562b013b7c2e01c12ea702543eaf03460dd70034582402f6e0ab01f0548503aecac0000a2dc101a73feb03a1951901ec4792000b7a8301993f59,
  0x3c901401c3aee2026d8e6102f6e3fb0177d27f02fb305302625300015d0325028aa3060257696400339ec403bfda7a01b129510292c876006fc54d0339a22f032b56aa03c1554a03d720a1020f46e7003db817035aa187033c5e3a0091182f003118c3033f2a2d00d87a7801361ef700e924fc01e9bb44,
  0x38a405017b9ccf0223363a01f804ed02b74b9703591e5e0156a42c0375358200c80a44002c4dba000ca1c2002fe55e00803c5801dcd98700e28e7a01079eca00f3c73802d127c3011669c100980e44001ad52a02bae5f101bf11c303c5b61500e8ac6403b2e7f1000ff4cd025b916102d6a7090141c9ed,
  0x381f290392ab50017c35d1036d517f0178fab501b262b103a1e08202202b2b018c1c890061243200262fd4011381f100332fe000515ddf01ead8d302fabb7002a43014001c019c00d54b1f007633fe002ead460366d29400efa8d701845dbd02cf4a980207489d00e232df02acf5a103275e2a003a56c8,
  0x9d3500000969b026ba82902f2e8bb0295d64d027a405900006d8600c291540284055f03900864003e0440033390cb031d55c2030828b701275b54036593e402b4a4b40352ce4c019e71f4028d1ac900005cb00157b4970360bd8c02f0e175027e0eba02a3a471032579570229fbc9020708e100365922,
  0x1944d5014c4d5303e679ea02af01a800a8ae2d0135d8a503a19e94024175dc03b76cd30361c848001dc529031d989703796b2e02b968410227003f0378cdbd0223043c012847b503fd498b02e5d53d000a7c990342184f005984c403274dad0313778303bf7cf302321a4b007b36ee002f89dd008aa064,
  0xfc3960101c9110219022f00b099bf02b39117031a8cca0073507e03317c3b0312ed0a03036f9f000c2a9c00fc344b00fe356700e252310194446b025a2104000193750038f67b003aa7a602fb5c4500041c3b0353bd52032dd6af006e4661032c050902e8154e03536cc10275c72903b41ded03e9efb2,
  0x36555f01e2be85010870f4023a2c210255b4cc0040c69f005af8ea021235fd036383c301bdcfa0003996b902d3905700d3cfcb021ec45c035c0e07026d47e2009684c2015f4c3b0188fdb40370bce90020760f007d9747011f685a03a9518d00a120dd03ce1fdc0391ed0400113ece00a7e284032dcdeb,
  0x34236303bf4a90025b27d302dc162603c4222a036b278501f4d59e01c57aa0020f622902aaa84e002350f5007d38ee033a43e7007c8c1b03b04660017162ea019d79110153e3dd0336026c01d538b10014ea4402304efc00bc889b03e6594f01c8094403e72cd3015b47fc02f11eff019761cf03610eae,
  0x2c629e00e8b602000598ff00eacebd00db2f6f03d0bf6303ee7919011877b803404c8c0015a6e20032031502797cc6009919300226505400cece68005af6d600aa1d77012ca47c0371704602d3aaa90004776a02f0f17503523e24013b59cb02996b4a01f5439f038386c503b4a8b7021b85a403a787cc,
  0x2990f60350f3b20039e10e016a086e0058fa56018daf100258804d001737810042478500ec05b400147cbd00d324530212d9e7033904e00344c13d006b7b6d0124ec74020bf5c00206fd99004562a3000379b102c6dc67032ea1c802d4269b01a5986c00d0c88403a78b8603426dcb031d3e4e02391171,
  0x37e75903813f5102e95645012c363b002b935400c3940f00eebbcb01d8224203a188e30041e5bb00260b36019eb10102bb1331014180b903c8b27302a0370f0035909f0123da940170a17b007aca8f003e9c9d03959f000188d2ef00670868006fc796015cd24e006a22a9028f18ff0385520203020290,
  0x3f6d6500413d1c011d2e32009bfbb803623b6f0209a765039224bc027d98b900462df101df4660001673cf030ac66e0385707c01092fea0160c61001ff0623003db800034fa1f503f9b28701d2d31c0029b3b400ecb02500281ac60309b8990027b1e00376e5ac01b5e43301b8ef0800663f7403c61f6c,
  0x94a4b0379913703d8cdf203c6e845033a236002b5eee8003dc209018b29fe030e5ea500b86976002e434001e50ee702a5101e004af2810118bedc005f899902f74d410296b01303e60f98014f602e0004737a01f10e9202468979025c3f3e0000b33f00903e06011ccf6e01fa948d00f02d0e038753ae,
  0x218d4502cece5c027ad06403c78b0302a7d75501cecb3a01dcae7b02cef4f900c972c3013f6e40000f7fd10059e8ca0208042f024d7470036d43250364499202c827a202489b0900ea5de403b78bf20023db96001508e1006ce81f033417fd0071f8700366533e0000746f02ee7ba9039a513301ada259,
  0x2d694e0077a84101a8a17900a4c8c6000aeea30015143f022b73c0033274e8037f7be60399dbd8002cc1d7039f04010277aaee03f63d10025708530279a2ee03407c00039d9654032016d10391fbc9001bda5702d38e8101be93d1015cecb501da1c9600249f2d02154ef201cbcd9600b2d3ff02c0688b,
  0x60f590373098502b5f8140305704f0281884c026c1bf4025cd57001abefe703b8741a036ee989003eb24700947a8f0016704b02a7755d03dc159f03aec2590076fa5601f1b04600d94c0803215f55000da9d401eb7b8801b493f9025cdc96004eabf9014a851100fcac7103cfc48c0397196d02c13f7a,
  0x205ef9000009fb003f17520240ce0f0027706c0395becb013d190401a5fb44039226a900ea5dc400004fc30236102f012fffcc00da512403238b99020a3c62028d172902ac09050066deb50022df32002f109f02c69d6f024f3a070149b46301e71eca02e118c603074854017b5c1a00be54a60090954f,
  0x1c5980019f7c9c03c2807c02c4521800dd8bd901c8294c0314d91901c3396a03ce8857020d526a00068bf103d1270d00719d4000604dc602950d56014d842f004ffcc600ca508a03607d3501d16b3e00042762004cacb703bf2c4d004fa57000900779016c11d503785efe00fba7e103aff9ac01c1cb65,
  0x1666ec0386636c023a6d9103898a6b02b51fe302aa47150110a0a00247d3f503891eba030cacfc0006f5090398075d00d26dbf03c4d03203972e42017752350197923803dacbe0004fd76b03ec2473003e5e7c0134765b020d945c0166aba20010fbc3035e3e7701c42caa029f5d0201c795940342ba07,
  0x1d2000020bfed1027fb4cf032ba9dd015b3a1b00f53f5a00ff1a5702a5f2ad012546ad03bf70020035d3e50279caa203226d910321164c010f3aa903291610004d12ef028cf720015cda130221065c002f26d400c87baa009a7dbf0004cb4402f92cbd000f19cc004d43ac01116b6d0019a0170380b815,
  0x19b60a037b034d03cb6f6d034ab8180302ddc2024878f401c9ff0101e9f9cb021f2ec702f9779b003d3214029ce8e5018b83ad01a50c5801cb366603d8087002287571001cc6c801493f3b0345744e0011a33101fddc4e034ac6ce0117d7af02a86ca703482a5e008297ea00ae2dc20279d7970179e6ce,
  0x1587220395ce2e02a1763802a950b00060487103d2210b01a5300d025981c20026c4ef01d39ad8003b45d103aff1cf01c788af01d7bb2303ad18ee0099a0ef001a1d5e03cd92be017a2dae02b3361e000afc8a0015b24e02abdab603cedbf00341dff7004a237c00cf2a09038c594303d8c94602282c6f,
  0x270e703ad5a00023365ab03ab9f86018fafae0316723f0189aadd02bca206006d54d60068091d00221ea001fc0b570110fc6b038ea04c01ef4520032b80b60020aebf0079496e03d359c0031ae56800028c75011625f4030f42c101bd6b25030168e103beb9d4018d99ef01230456014734ce01a47ce3,
  0x13367702e408ca01e2429303effcc801fb7562022be44d01b2975a0055a9500007301a025ffc290001a31f014f67ca03993df1037a28c70314c0f10370d53a0389d92603af188d02d34b9c006f1f450006f44201c22702009f14c90037d25601716b1000c372e702c43f4f024f029a0359e66203a73e2f,
  0x3b20c0039e9d4d0010170e018b766a013e6e1302e9ccbb028b6ece0311e7260215b19000e652c60000bc1c039c441e01d4e26901df795201097d5200c19e8d00dbb5d002eaf5530100d3a5039ce43000183729030b82dc01f4cfc9000dfaa002a28fff01c1391201d4fd2a004d0cc20383e1c903b66540,
  0x35dd9401bda746022856c003899bf5015b671a0212b44602994caa01012dfc03ff616503fb31d800353d71008f313c01c28cf1033a97c6004bf894039ab4570056b9da012f8b8703e27fa202db96f5002da75101f2b01801db27ee0098f22301949c600181297101861004032d702d03b27f2d03d4beb9,
  0x32ad3e01206b74028afcf30155b0d203976eaf03bc927603b279910398dd7c02b2e4df030c51d700213ed5012d317803a1d688037276c9036b6621020e059b03180228022a7eb80173cf8d01b08e1c0016c4ca03545f86019b154802930ce5027233830047a5a8020ad9e200880fb403491d6200ebeee6,
  0x332ad800e4dac90099d74303577e2b009112770007bdd2039004cf035aa55100364df3012715ad0019e658023288b5017f50bf02611d6a03339e7a03072834007223f00276f86702a0fd35037a3fbf003f18530078002c01a0779b0042d7ee0248f7e9013c5a6102c0c8c203d223bc030c16e401b591ad,
  0x2c207802e4189701b81b96028b309401bf3bbe02395e47010af90603e975d801b28136004aa4dc003ffaf000051db3004335d6031f8104021deea3008c4d4801d9ec0f0084a647003f93f802dbf94200056c8a01bf54c100d80be402a4a88e00642f05028fbd8a00f7859a013d2fd3017c876b037a9c0b,
  0x20a2c302f5fde300ca123000382d82017116a40118ff4700b6086a03deb288024ac7e903568115003825d5024d9bcc0052fc67037b03aa01f53f7803c75633037da70503de8a3e0338f586002e5882001596d500387a5702e5e394020b9f5d02ce06e8014524ad01b9a3cb01a1de210011b8790386fe66,
  0x341e6d020dea2a00d8b76301b3dd73015586ba01205e54016ea900026702fa01b78ed7003f7013002a6596018b0e7203283343022da7670016aa670212e8a400ae043803e202c8026b070503ecfd0a003cb45e0198693e01497dd30222e6a802965708025b9d3d033ad52900438439023f6aca027b22c9,
  0x27ef1002da031901acb3a9015ad24e00bea8d10207066a03fd6cb3034ca47e03c09f450062695800334faf00412a2a02e66e7d03274f8600d19f2600e2a319037e402f02e6714602aa39b203b728e6002a44b40245db67017fb54f03b426c1011fc16601643192030ebc2e00c3e5ae02cd5c0d01e81d6b,
  0x2cdb66017a31d802b267f202b86665014389da02e0794400ee502401e5215b013e98db031d7e6a000e4bbf02ed6410022a357703b400d4026d094901d378e803ef2fdb03c03dff03e3cd28014c41930002d12c00a829d1037d3a9401e0a5e100d48fda02ad2b9102a05962023083cc00f3905e01357a46,
  0x376cd10021d3550086f6520034ac5401d7014c026b7d430060c92e00bc9c0d00f35a690312a04e003428c902ab452501931a2a033ec4d00028d2f2003caefb0124d216035812f5038f252a01252120001504de004d556c00ea4841029cbab4030992b402f8699100e3075a0398c49a001c1ba703ed77d8,
  0x2eda20339ecaf02de67e00235c98900a1c9c200f68de901fb48da021b13d7011f1d6e00a3ede60028aa77024a97e403fac01d02ce636303545c0d03a3bfcb033b5312008843b903db776901376d340025696803a241d402a7ad9c0366ea4b009942f20340936d032fb5c60279cbdb023662c4008ec861,
  0x333be7003564cc02dc6bb5006b6d6e0129bd8501a477780343c61d01ac4d5d02aff71101999b61003c70770309f94e01d89b17016b08ff021348ad0223a60503c7b2e7013e2f040184c38000738d2b002a66960146df71026e9749017c043e02a31eda03c0b0b603f9ec2701badce601d505da03b0768d,
  0xcd76c013e6869034d6499019f2b4b0070708100a89c6a033441bc02abdb5301272763007aaf8e0021b380034c63cd0349b35e0208025501e64f410239cd13030ec8eb0000bef0010a24ce02985a5e000eef7303aa2d8902d985c203468ede034cd7700067b2260357e80303fb8fa102401d8a02892d6f,
  0xf150a0213934801a30da003e4685a016be8cf02ec2ff400c6a4ef03a50e360343b46101e9cd10000bb28e023b6bb402d9f5f503cae8af00c781a30102468a02876636034ce3a80177c54d00aa5bc1003a150c02ca581700595c8900c47bce02cb870101d51e9f0126692a02b30bc7024f93f603bc2b93,
  0x14c2ff00cc9e4c00401ada038499a2017365c900130482036b965e0049dc06016ccd9e01d5d71b0038b1ef01bae91003f1748b02ffb0ce019cf4a0007785a70344b7340367e43700e50a21011cd9e4001c8c9d028358d703b94a89007c717d02b58ca7002d03b9008a492003afa754007b9523026b6824,
  0x159fa6000d7a0801aac4b5032f4f7f012a8d2700b8012a03cb351e02cc0d450203c73101cf1bbf003772a0019d3e0d0043672001654536033c82f200aa9f66035a94dc00c3df2403671b14007bf157001bd70d0289542e036c369a0399c5fd019f1e6b00958501012b135201e72af8034a5e890139675c,
  0x2e7897008930a1019bf9bd01cd139b02634b30031c96660007af48031d41f90327b19a000a9d630008bc96037fec980333279a0130234800352c9400e527490150e5e2030b5a0202bdf0ae0063e3d10032f4a201ad6b14025ded6c00616e70018bc02e026c997f006172c401073ec0037579f900647a96,
  0x19c992028377b700f000f2008be00603cd483b038dc1a002dbf5c801bb6c4e004d41b400f5ba65001bb7cd02501a91032a49ea03297a0e01f7f7b6026bddf30061e43701aa1eb102e9d4630397b41d0020564b0195935803f72e3b00f3da5f03fa141a03a2561901df1a8e01e08fb1011e689103633214,
  0xbbcd8030fe00302394848017efbe002f8f65e03b855f703669b0202f0155c03c28ba00139ecb5000eeeb70275aacd008f43f9030d045500b09d9603ac6a6a007e55ee002867fa006e27fd00b9f14f002aa6c700a8ffc3017308f601796b3c00c31533019ddd2701a5c5f603bdbd9601496f20018910fb,
  0x18400c0172aad90308f3d7030c4be202b1f55f0141ff37032e87e4039398b402f3d1710107ed0f003839130078b5ad036ff0910210fb8603c1b6ec03a0efc0024143700191413602ac731b000803a80010db4902a3472401d3ba4702602d49000b317103c7a1dc00c0ae8802beb1af010e7ee901c2ea58,
  0x382dd3017455f901a70339005bcdb700c284df00fb01940091a5d00275958f002a83f903f9eb530005ba0e00f6a23a0322b81603841ed800771d4a02936f7d0307b1d40186b04b025576ec0382d2610003c450031d9c2202a46b71004b75bf0051e6fc00bdd71d0344f5a100a8141f0332cc2903d17c0a,
  0x1053d700057852036c8d19005559b903203f800271bd7800b7112901ce47720295f80703151ef40034f3dc006203f700bb424403de3052002fde8f004fae46034e5abb01bfc4cf01154554004210df003ac85600c49b4d026a57ab01106110000d81780171a5cc0072e6a903c2a4ef00094f690287ec02,
  0x2896eb0334a34d018032ee0023bfc101b2a16f00f95b14031a9ca702ba931f00bf2da600ea9dca0030e7b801fd1bef00dd191d00a284cd001d33b10310123c005f193300b2c9a5022544760144ea0c000daf6200f1a01400242c0600c933a40198cb680361fefc004b072003d02b83028c4f3e010997e2,
  0x15a0e102ebabe502923df7036c29400119311902dd237802af42a3018c01a8015c87b40291860b000ea5be030178ae03943a8702b99fdb02e9164e03261b2c034bbfbd01d4e9bf00e1862c0128e9e20004a7e401899f5c01e6fdd300c8770203fecafd00ed00ce007c1c7b02a20be100211e75018e9cce,
  0x119662012d58e500f5d9f2005953ac01c6250502d2b17a02c7002d01f673c90012b8e20194d81f003f93f203074db000bf0d7900cf40ef00777952024821ab0167ee4d00d445bf023f3a8f022800950008513f02c8fd0c03202273010c518b0329ef1602ff26a00333078900e3c14200e08b2e0327fbbc,
  0x12dc290332e71c01aa3f7901c06a8b02e014860077703f03ef530f034f2cc803d4fc640215cef500197e5702622f320205186101b53cad0126284e00a17ce40015b1a1023c3d5303799fcb0043cb700039dae603af0dd5011946e101faa67a02d2c35b0140f32f02f2abd302be3b8502e95fcf021bf5d1,
  0x30313500c8d68002efc73b0378f761003ecd7c016b2416011bb3b0033b859e023c9c94009c230a00003a2003d5977d039df5d7022916a2011d2dcb02fee183018fd5a900709fc8017ab01b02cd7c29001cba030182f6d903ed101303b2cb5e01cc230200f78288033cbe0c0129bf7400294be001523b84,
  0x1f310d00128fc80136a12600823e88002bd54700af1ea9018e1bbd02960b4403c80de600957ec20026d07203a176b702a8b1c303c3c33101d7793c036e97c7026f28f8034676390309c2fc03ce4a550014b02a008101ee012093d001538c33014c271a01c9e3f9021a5ee9005ffbf603cb027a03e20faa,
  0x14b91a0237377b016ee8e803a53c200196c9f002b6e1f30232a298015a709c0024ea51016f0b21001c09430096fc3d034d36e20050ae540335d8da030a12d703ddf35303fa3ccc019ef29b0134e11000205e27008d3cb800f228cf00d0e724028d638a036d667a01ce3e2000670ac001c8ef1001ce7aa1,
  0x152a400a3fb6802f2c1a501fc0a030130170a0369270500814dad03f44c6603fe87aa03f970b6001c114803e0a53501a088e600664a4902b8385300d11b6903beb91c037312f002c314ba00799fc90013d81d01388aa801ca15430067310f0398ab4000a4e56b0390c078032af26a02e147a001cc1f6a,
  0x1c78e007c932002494390005ca23801018ff80084cb50033eac12018f483b01ba98e6031ed542002f1734016f787f0191a32603885025028218c602d6596a0329738a0203220702ec3a2e027f8fea0021b288033ad542039067e802f8112c01b63613005139850041cc470150f80601b0492003a4bc0e,
  0x17dc89031ab8dd01b6892503f6c30503129da4020926c801bd48310020ca0f0076cd30017f9bb30010da16038f9b0002cb8d24017c071a02368d4d03fe8da702bb02b600857ac403e6b7c20249b490000b695400bd0ba802d215b5006f055402c6b12d01668c1a02c06a9200b3167c03c37aab00579c31,
  0x153977026f12a003a8e07703463ed3028f00e00383c91c03d1c8fe020572f0024d837902e5f238001670bc00183eec03d5c6ec00362e2b006cdbdb00d89ffd01d95ecf037a2aa202f8e61f0086920e0038c18e034af8ba02f376df0093bd38025a3b760365ca1f034e560e010304cd0296bd4500add639,
  0x12b45601c166df01359cfd02c75657037d3e9d00ac55940019dc3e03cc049600489a1900c107560026933c01183e2603ea9dc80247f14501248f47018813930081240101e2cd6102c071740343dec0002f963b0292f33f03d2621503cfb3360375fff800d94b81006235c803269c45028a6b8c02eff750,
  0x11a71e03f50de8024476900030901e02044a1100617c640226a38300432b50002bce01035724bb000ef3610108c37d0326a2a600c131330314146603d8ebdd035d156803d2b12c03d7f23e02b942ec0016941e027dbcdf02c41e1700a43e6a01aa538a0324fd8d01e328f4036ffe450044bdbb03e665be,
  0xd042103852eb402a4e8bd010dc6cf021879da028db7110099990003ed652a001f299c020a2e7a002b810d00663d8d02335bef004c8305018786cc00c07d55005d37460040742703020b1703f01b65002c36c703090cb8019c80fd0222b0190329d4ed00db07b100b469e1019828da00d4ff96016a07a7,
  0x3bfefa02238c64001f3354013e7ae30079d83a00ca892501d20e4302d9314e031a62840073ea4b00332af403eccb490078ca81032802cb0369bd5103251e7e0070db8200365f2e028b135100149587003a2d530264651200a34b35019461c30260fd2b0397880f031eba8702da6ea401b13ee1008bdc9a,
  0x96b15038a50fd00b56c5d03c36a4602308b49032e814001247eb4036fc67f0163e31d02f76df7000a8828018e23a700e3ef8f008603cc01ea0b3e0172c01400100f6a03a2be0403f0f576001dfd6f001eb52602d24eed0020cc3e03a77be702d6ca3702ef52e201d2919f02250f6a0042cda60010d10c,
  0x1f3c7a0204dbef02a3989403f63b1500bf849b03e5529203b7476a016ce6d9005a45e0013bdcc6002d663302fd9ab20336147e019aeec402ed221f03fd673801690f16011c1c4301b4f39401ac4b1f00090279027af35403b7209602d96b350272e7df03c3345803851767038e9fb70147d126007877a6,
  0x675820103631e01ee1dcc03d4db74000df1c503f474270200f883008d60dc01841e60021e58d700027f55028793e301544c5503fb2f2c0240256a00b1fcd101e4a9c700b2062503b01e0e013b0c4a003ac0c10076b7f201dda4ed00a931ad020a41280370af6d003a5301024dfd130231b2ec0354b4ae,
  0x2748bc00218b4b01b6d11b00d6ea5602739b1c01683b5700f8e6e0031d1b3e00da5e2900a7662d00157f84029322db0320536300265f000316b2ec03a85b10001ca23603d950d301d910db018f051800201cec035773bd00452b4b00f5e874029c88f6032616a20302684302bc6fb003bff607015bdd96,
  0x2e0ca50301ade400e1b0e80195bb000175b82201d985c9002991040324788001e1a25d015dd1c5001bcab601b8017003a656cc009d7b760285cbf3006f1c8800a2709300759f7000fbf432018d2e8d0006631f02f551c602b177d7033df30d0275aadc00499f0d024286530087ad8902f88c1703442cbe,
  0x34fb3a003f9ee20207141203082bb0034c6520019a9d08023042650024094a00b470c402a62f350007ebe901af5b4b00ffe56e03d8147f00e3287f02f86e2001d66d180265159102940508008f5cd4003f55fd0271412f01a38a66033da36d02f6221801272e16003a9d22033ea95d0249027102a47581,
  0x3363b60032d8f200145df0034f97eb02d6681001fa260b013cf181029d758f02ea834d02b9bd6c000d554f03e6ffa2030c154e008bb2ab006719df02c8eea40185dbda009916b403b316be01861f3e003dc0a800592335017cbcf902aa4fc803ca789e0228fd0101d6a62001c83e0e0301012502b8f3bc,
  0xc801d01ced1de021b0c8602c94f6e00491f4a03086e7201e1c17f03abc74302f52142034670270036ef2103d1e4c40173e922013cef8702729ae0039e2e4a0258fcc5019fc06a0172f38a0191460e00182e6d00acc0f703793599011588b6026d890302076283031cd12b032694cd001f992d008f06d4,
  0x3386b10107ab6a0067a0c1024a307d03f54fb20054fbaa0120cf8a0357ba8801335e1f0319d39e0000d69c0136c11e017fe897031aebf300b9f33d035044df027ccbcc02dab6fd02573bfd0042831f001c356201f462ba02a00eee039b808d03c8175d0208913c0037c17c02de4f030300c55003d707ed,
  0x84cd502aef4da02e5a81900fa176901f818f90029972000faf88c03ff638b0028a8d5039d508500125e90001de90702b4d7b602daa2fb03edb68b017e453100cf6e43023df023033f57c10318c792000abd2c017713a601ac30610263b887016b9c55001c7fe001c656c301cf15fb0161c4de03afe4d6,
  0x3cf22203fa8ed30103f3ca025d974802735b06039773c500edc339034b4056028376280258f291002aab8b031307b5028838b403f26b2402cd1dd001ad9683020afb8601449e65009a0306031f5e84000f0104005a5be700b7ad9f03745c800089dc6d01cbd2c001f6a13f02ab029f01939d6e00c0ccdb,
  0x8ba220300c7d9006cef67032a8e900227d078034082b5008c9d31001c6e2d01f5e2f60232232a0005ed6101e5ead100661b0703ce51690258c4c901ffb5a700a006db02752c1803412c300227477e001ab18902faeafc022ae784020106bb022a6d2a02b171a701777f6c01326ce303df0c46033856d6,
  0x24bd0002b014ab009932ac0334377c00289a1303e3b32101642a1602fde36000d78ab202eb3833003a8f00039687f802f61e8f03084bed00237cf001437545027a41d802a1d42b00b0b562021e180100089917006b45a7015350f003926fa303f08b0d016a6cee02daba1002b0745d014a0474010381d1,
  0x149ba1004b1cea01a6b54e009342e60379166102bc804e0049b6f60138dabd03032ab8036bb222002946c102b436b101d90bab022525780161723d0326b88a020d2e70018c3e6503eb92af02fb9825002a96dc037ad88c02fae18003b11f950101ae5b0035862f001fe27a021dfaaa037be9be02036996,
  0x1fb31e036af32a00d5a0dd02c2391c00182d0901fab2de0135b1bc0059e99c01594cc6037c8122003b7fb202cb9b970095c7fb02eec796014b7b5c00d6d41f00a38772023f8ebf0347e3320348d9a10022e8080174d81002f83d9403d1032e033db28f0022d641017b374a0278f0c2031c115f01f246c4,
  0x6ae20016c8b480226a4b80202450603c0d82402c5a487007e6d0301c5532a0053cc9c02fd75fb001b49aa036d5f7002eab2960306243c01d6d84201bb9851002fe90d01dbcc9f02150e940166c17f0005eb56013051da03ac86d10020a60502b3e949000850c3022ba60603f40ecf0327942d020dee15,
  0x2610e50275037f011d351200c3e991024fca9900816bab0242c38e015d258a032c2199032187de000108710007da950260c95e025cc5d702c2f4d4010207b603b5b0d5033369f701338af5032a29cb000ed49d00f585b10224d92603f8b24800e19987028b895a0399e6940363a5980374977d02b88ade,
  0x3a0e47002b8e53029abef00307929b026c1e8f03c7038702f51fb00010ae3700e5399c0041346a0002aa9703f10ab70221943d029096e4021e321a026d5f100299f84101d96f3a0315445a022ef64f003ce1ee01769fe700ec9bb60187aaed03ef22ef026fffbb026129e7000e88cd03385e09021c9276,
  0x3f9bc0102dd3402344994021768ab02c6a4ca03b8b4370345f9b601ba1dce01082001021b5d580039cd96012a02fc02784aee011a431803d9839100a2d4ef020ccece03036c4e00c92c4c01f38fd50039bb66031626370359aa91008fe515012623d003884da0021c57fd02e8e3ef022baba302bd5c22,
  0xe2dd102826c6b0352e48003e694f90338ea1f01f166c4012e29a603e513d200d607e90320b1710035d16b03085a5f010890b100a6bef402ab8a55017554fe022ac6f201f0c47800d3142301e1f3c100277a5f0045a4640391ac2201307d5b02eb363600a0bcdb00166282022e35cd017373bf01efd9f9,
  0x3b55830108bca5014e3805009212f4028f8a040364fa2e0238c33c015b6c8200536a260285f8ee00275f4103d8d4c80191e89303afd127029036a202a13c160074193500c85f2b01d57be801838f010007f8c70192d592026961f00099f0740166699503367c94022a91c001021a0c00649e41018857b5,
  0x3cb4a6002bc0a70146816903b4c070014cd9c8023fd8910033bdfd00810b9203c18fcc001aa0c20038ea1101e33f52005ec71f00b80c93010c400200a5bfa30261999d0244f6c203ce41bf01c826100006629e03ee0008010b42930303217b017ec1420055e0400071b4a50192f875032241d802a7280f,
  0x14db6b00366565016e4c4d024cb60b01d5bdf7037eab42016d2944023c2a330016524a02e1111c003c5eee03409610009a5f400311c3b70167289b0154b718020599f802e74419035bf4000097d010003247c40029aed602231aa4032a94f402da7c4703570aae035992a303d7a366030fc061025cb025,
  0x1b71240251b2d9025200b50333a54b00df33b6018d3ce003d706ea02332f5902dd85110319694e0001f24a0317a38c01a9632803e5cbdf03e8fcc602866124019e8d630335afc00065a75a03ca6ae90030080000c9705100981b05006dae5203998c4f00d88a0e03625778022f77580199be9201ebb797,
  0x15908f000dafbd01701d3a009a37d80081d80f004fee8c0055dd9601f5636c0335b87d012cf985001488e60257955e017c21d503a6ee1003bf51b80050f05d006474070145206d01c39a4d019d14510010843700362c0301d613aa02fd8bf800e94c980114172003c43f6e0190cfe303a85b7e02e3def3,
  0x13bd81035c4d3d01ca1a2603fea36a02fcf183034aa87400e8f87100cc4c8a00fac8f0035efb02000f87c2016a873401a0fe950173b335003e714501a46491001074fa0177dbcb030f5c0d02e0601800307e130087e44702a016ea012bc9c301cb288002337e800111a497000e37e702b72f32036d74e6,
  0x394bae03c7739d03321f9b0030e37301d814e3038d1791003da8dd01b691b2013c4b1600fbdef20025a08f009fa76a019e5a5303dc81ba032ab12101bb810202e52b7800c4eb52020ced2902c8334a003399ab03a6ffab00fe22ec015c3aa503a22f9301b235c903dd3a5703cd4bfc00ea0efa026e3535,
  0xe06e901ba3e3a0004519e033532650398394e016dd92e01d3bed300cb1af200db9394019c0c650027f93703997d920092fb0f036c2ee202d5b34b0177d04c028a58cd01c4f99c019cebff0306016b002ddc77009abf2103588fe1002685a803fdb8e503e004db03b4685001dd0d7701a29596039f949f,
  0x314e5903bba16e03fdd43a0349c54801227cac0245a2f9002262cb01981c8c02d8343f019215e10038336902912fcc0185a14f02f96e7a03880a2e032c0d0301d3152f01fd73550388fcd401eca776000de9fe0285f47802f19e3103b4e44002c7a7da000703cb02c23171011fdedc01e2ec5703e732ca,
  0x28ef0601b1c6d30031398a011fc121024263e90344531a019c21840273f16e000d3f2f02a478ea0020426e00d0481703f7c11700d5681f0073bb4800b2072e01100147038dbfa0006abe52030fb3620001309201a08179004e6b8b033de08c00b30d680353125a02b11af1038a836300743428008918e2,
  0x33bd00025b6d740118d2da00bc579303e49ece027a331f03de083c02a3952d038ec6980395b93a0006d47801e1e12602929338006fdb290274b0830284a77402c53913010e4031020e5800022938530014a4fd0266f6fd01920ba101f3070701f7af190239f129010afcd1036d004e0287ad4401abba4d,
  0x9a1d802072fbc02f0013c0399404403ec363f02b418eb00783889007f943702416e01026fc320001f76e4026bcec300da1dad02d6940300308e4202ea490c01ce011f018054640336c2c001a2a36f000d161801df40d300f6bbc302df19e1039734bf005566c5019f4d2b007d1db303c0334603c82f1c,
  0x4d1900289f59e00f2252a027374b2020c7cb0035ff33302a8716702e23f0401ce5c0e01f0cfc5003a1780007dfb4902595c5c036caa0002b4a298015f7a31032cf29c03187f15017264530376f8790021ce420136bced03d54672001be22f0258b5eb00c828ee02f1141d0350234700bbce52031a64df,
  0xe65f401175b3e025aafda00dfa846033420d8030fce3601c9b3ed0157b96302a0178201fcf25d0036d9b401918d6802c907b6005c793600a3fb25032b188900bad74203a9c26f0351110b01fe31190028ff5e0195d022006cd3e6035006b1025644550026ec6601a9eecd00e46d89027eb4c700e8ab85,
  0x1a70203926ae00017f660032ffaef00d6eee9005e36eb004da6a001b5d94a03cd82970192262500378ef9007afee50045164700384f07026ab1fa0190b51002fe83ab01321afa0155594703db6100001c786a03386a75010601b90349c347037090c001be985a01053ab10178fdbb01a518c6018b9fbe,
  0x38c2f70035be0103bca82e03c8280500f98bc60203f3e8037c0aaa0334af5a03dae509022fdf07001bec8200f0839802d878d1025ace560086ed770362b30101974db200c9dc420155211903c8a75c003b2194010a8a1001d202e400fdb3810157c44c03de93f200d5dca00266b100009249db02e8f173,
  0x27f01300c96f42007b5c280174578702dd940e0050449e01c34724006eb1f0018fd232019bf4b60032c18200483eb601abd31b03f38d8301c4676d01cd4b3002e8e2a0035959dc026ea9bb0021155d0001dbed003ff12c00b66db2016b790d0135f7d302ab96e5011b71a4010d6cca0198f71900c3c2d5,
  0x1c0f5e01c5de76010da8ba00898f7803b7dbc001f6e668024328b9029f304a02f8933c0088c13b003310ed0315f420021c51de026636e1027ad9fa00bb09f1029dcf25029f81e70010706802131ece00285cfe012e30c3008557a00360316d0194746403e89795012e80b9038ee83b01705a5c03b2e6c7,
  0x3ddbb1021be9c800e2c8b101ec7bea038f216503b77cc70074bcc400de08a500c6b10e0383bfa7000ab9a60349ffdb017d4ce002f49615011564ec02d831a30294e5ca00932d550384e28802c85e2a0006c47d03c3d3f901d5ec5803aa922801e247a601c5486d0282d15b00ffc07c0381529101b2f28f,
  0x2dd71d02708ea1030fb3a6016fddc000dfff2b00ee46080103f3030038a2a5009c4daf03c1fb1c00352ae6022b963d0287d66c03ea97ed0345864a02a34ea402cd425600752dcf03c41e9203cc39e000350ee3012d550503fe4ddf00cd55ea039a844f025d8b1c02c3536d01cf17720093cb30020edefc,
  0x312d3e01f63cca03d06f58031965d703900ded03847666013840ad0003250a005a008301fefb690024b2ac03135ae3036533c10045595f00ff6f350269f22103b65c5d03f1ba7f01ee258f001b90a8000bd93e00f950d0029be60a0314988c0112fa810080c7a4015301b5007a7f3a0190a89d02bee6dc,
  0x37e97f00499a6703e639dc00c2273703dac44b03bd013d033193480165f60603b2693b03a2f064001c3b4001e15d3703572beb03e54cff0075db4302a1879803e619d60161867003a45c2601769d530008c776039b16c002b708f402c31bdc01a5025a00e8c88600f8d6c5031eca54028346c700d12ce1,
  0xe79c8024d899401c4c8b500ab9758002269aa01d73490020ce16d00511f7201ae0d33010d726b001209cb0319bea902fe04d601bb29fd002eae9001af526901e1589f022bfd87010b6ebf003072bc001aead1003d708300a46ae101201ff40387b15703c38bb4001377840270d0300079d2a3022c3756,
  0x17fd70011daf870197e71801482df6034c63c801d0589a036f0154022ea6ee0179daa903707b3f002117d1000aa6ab03bf8d1d0013b9f202dce2da02fbe830026c1519002d66d200de8cfd037714f7001d6808005df2ee015f32990389c21e0106de3001c864e3000bc761020e6b87028e58f100570346,
  0x1813b803efed8d0298adeb02dcf7a101762d5303fb5b2800e7b73701ae8d7501f5a86c004bdd6900177c00028372c2026a30aa027cb346037f51e400b4a0c900e9f9b201108672032df4ef02e4768f0022e6a401b4ea4301c63d440046abb303e6baf8023b3ae9027c771001b3011e027e4b1e009e5f59,
  0xccbf70022e5af0169884c02410ed302fe20a503522cf0019d618a02f39b3c00f821380069d4f90011e6a903700d60028411690048a070005645c400383894017a32340003a812037168c401732bbb00147aac01e9b7240125e4000350a84e0132021500d67e98034ed8950254fde502de45a901b3456b,
  0x17f3b30104141703e919ba022be4f2023193e802d4df5a01cd1843039236c5034ab629002688d5002fe241032bf05d03237a4600928b5901d4881503cf41630228cd60014f465f005f0d4e02faef07000ffff3037cd2500066a9d000ed513c000856f203f86ebe00c392470086465703e8ee1f009e8bdd,
  0x1c3a4803effa2e0018964001f92b9d01556a6e03a17a3c03b1fbd80372b7aa01b23f7a00ccb6a100175a6203ef9fbf032826c902e8572d032122d80058630d03ae646b03ae1c810161c90e022469fe00389ea000efceb202d7571400caf34c012ac19b02abbaca01f93aa402fc84920187783102f59d84,
  0x31de0a01afa0b303ef602501b03f2e013d8cd8014e93de029b876f01ccc6590174bede0235c4ab001833b200fe122e03ca430901ed03c8038328b4028f45760145872101f733c40354be22021d1eb70004f2fb0125d8740144ba6002f110ef010ca16a02d42d85034f8310031c307e038bf01e025f8e4c,
  0x141c960006d340013d7bec01e38f1803ef10230141b9cc001a92eb0304b5770179acc00020da0e002e3d210100f576001be9150021e497035ca326025c767d014a3f3e02011e7303bd94c602d22f120000de21032c486e017876d003371fc500c884ce0087690f02c86cbd022b56fc026353b7001f0803,
  0xa99201f4d0910148dda800b8394d02f4c37a03b79ee501dafc18020066340015b8f60213d015002821cb023252bb029365f003f00c3600c1a7d6017689f1007d64a9029b92790324082a00ed11bc003d3cdf020eab3a032b3ff4033c989300c9dd6f02d67d0b03ebc7a900e533d6035cb9be024dc728,
  0x2095e10214915302d6071b0139ea3301287ad0006eb81c03cb6fdc00c9e0dd020c1db0037ab0520018711602101d43030fb77d039af3ad03ed812c02da947502cf80930314a672026708f0019d8eee003226cc01444e660168636601ae0d1701b9972b01bab0e70054c0ea031f2c2f028e2d5601e560dd,
  0x2727180163b4260364b32c03cc563f02fc7beb00c64e4503c4fecf0011b681016f27be02ea0348000304c503cf57a302668ac3018ab708011c2e46018b749500b8d02503b5b80902ec81cb01dfaf4f0013a18c0042fd740033810e01282c80000f39f303e777d10029342502af5d5302b09829014aebc7,
  0x24c7b70125c960020e56fc03a1db9903321c3c038236790141158102092a4801251214013b55700000171d00f532dc0376cce302ded37e02897fe80317c17100daca0302cf4dbf03583d1d01e6d5dc000e9a950367f5dc01db3b5000c2a2930283e87500a00cfb03288d38023bfb8a022cc325002dcd7f,
  0x17e8df0026ad6800a0bd6100308323027613410197fc8a00137b370213b9240398c94f0313ae40003b2660024e3c8f037615c60079084301aca03a02fb7c7a0137755301fcdfb703746bf702abc9e100315f7f001dcf7e034170da00b0c56403c6ae180370a9d101be550b01d02efc01da0d270372074c,
  0x8c09d0072619401d5838e0108b24f011a3b8b000a6559038be73200320f1e039de07602334bb9001d6faa0199efc300df74b203662db601869ce00178db5003d64ea902460a3200a88c1703f61682002e77fd02dd6b8d031f1fbe03bf33b9023da86d03903ffb008c1ee10345285302f8b85c024732cf,
  0x38838c015bf86f024fdadd00062f0c02e8f46102dcd0f000c0059d00065cae000f6845029b766b000611b601b8eb89017a80460247b5f00091917702db199800c7ecc000c548d80131a4d003e62d9d002dd47c0102287902db2ca20355df3701f6c627010f730a03673c5a02eed38201780b2a000be319,
  0x21ef7b008aa910024eff6d010b840001a8a8ee02a8bd8100aa2e470088640e00df2dd300f279c80000fa3a01d5632e030c3c3b00c8c66803b9c87601ac694900009e78027ed78d0185ba9d03aac5ca00271cfd03b728fd03cce3b4039512fb01dbcbd90370bcb900847692015dd4c200bdfd9d00f7ae38,
  0x2f9117026fcd0603904b4500948b88023604fb033a25c102158fcc01832f9903f7b2b40109be1600190df303f417a403e404ca00aed7c503eca93a01deaf48011ac18d01a72e24024bb3f30276d753003762be03830145037a3b160207ec24000e624d01cf4c1a03082d1d00b128d60068238002f44a53,
  0x16abf00f68c8201c04a390095618803eaa111015ee7d5012f608402a35c7b02937d0403a719860017740503166974008778aa03560bba03964080008d8ff80133157202e02232034ac78c00df06d5000433e803c089b603b6638102005b5f01442c5f00072be8001352a600c0496403b595e600b1ca51,
  0x2a4cbd01cc4c0502eed40900a0060800383d9f0390cc660295b75f0236918b03f3e59d00fa88f1000f780003ea43be036d384c0259633a03eb1cdf007435e20004a03b02d6a4fc01f3f4e5004336b7002276080054c5c102e13dc600c6ad8f03aeb96b012fc4c702cdf07802ffa518008c8d6c02079281,
  0x34a74f0279d7e3038a6d020143203a020784c5036e30d70282ba9c0168dff701f7651e0257af590031937403677d50024b8a77013319a9019cdbbe024bef44020440ec0367b8b300682a18035fdb5b0023f60c00644a48031ba80d0126cff1030f64f103e3e7c702427aa000eddad700a7d1ec03026a1d,
  0x19555602cde4e70185293303c9eb2f01ca1e7700eb0aea03e9e7de002f357801685290005e48bf000fa4ef0286729d035c087d019b45f802a0491e0160a74000195075018845f4014cb336006d0c19003270ce038147e4034b33df02c246ed006ebc610185ae35015c7a8401310bd60200ceab012d6f4a,
  0x16281101a2fcac0119926703eb2d3e02881f7a00db2df90023b21100314a190033987900512113001ecbbe025f727d03a53be601be47500320156700c4787800899823007fb91e00c7a31b03b7266d003bc80001c35be8009e9ed402c8ad700348a89701b0d79103cacb0e035fab29021e19420381b9e0,
  0xe3788008ca927028df11f03014be302ffda210396a8210016da1c010a478d00b9380e0302bb2e001e8de6027d161600471932029a628e02bfe3930162364100b61f8e0208bc6301b3074e0280c4bb0022f345008d1bbe000aa1df002cfea301e6303b03aef11b0278beee0047e088004136a702ae78c7,
  0x42ec70255253a00d3ac4001b71962009178d1010e0587039bd60b011b11fb00710b5d03fecad10013aa2603cbabaa00c3f58b00a6de9401d2478400d361930280141d0322bf5400975a4e0254eda8002b39d9004f6605030ae95400bab847031133d300e3d13f02b0b02703e8cdbc00b6c6c000cd9c64]

/-- secp256k1.go:10, serialized bytes 583680 to 614399. -/
def tableRow19 : List Nat := [
  0x0,
  0x22bf5103654ca601571900011b4653027e687701ce3e2e03bcff9e0056fa39037ee85f0127fa890037e0cb024a90580218729d018e9cd701b2809802331b170367202d035d160500859ef502ced9c60015813f00a5ab3801d2e32f01535f9601f733ef0059a9740301d24a03cc44ca038a31ea03d13a52,
  0x326f0d00c6d65700f86fa000ce5d720392a5ed02d8ee19005286cc0184cdc403f683e902a2ce520008b86b0266cfd003bb6e58008a0b6a034d3da401e1a637035f0e49002848880354062302032cec001c2e24030510fc0236887a03e4cc8a011359f90129493900ba7c640240ba9c022e5b7b01c8a302,
  0xc459020fb73e03c9802403778749031996c800c7634a02b9bdca02baabfc02f88f3901138bb6001c846a0193cf7a01c0fb680388dba801fa4263021b255702c32be2021b541000dfd1e103c7c55e003693af029821d603d8b0e003ef6d4b024d32bd0012d72d0284a6c6007e7eb30259e59900ba1a08,
  0x35e2d902b94b9603bfb9af00d23e23002a4849038d878e01769629013847f30144e45f00f12630001af1670158e4630096aef900ce8ddd037fac0702f10c85016cd5c401d74be500116f8a00033aed00381fe8032b9e7f034bc13500b6801203cf380501cd710c00746681012bdaea01de94f101ceaeac,
  0x17327e004017a801ffea3f02f1953203ecef890342800f002bab9a01ea9df702f77bd8012c39a8001f2a3603530ede00e78c5e0275ce4001a865b60254e6bb026ca5090310a37e0078752e036b46db0021623402f435860159780000a44540012ed592012fea16002437e203035a92029f69af0250490a,
  0x3100440221f07700575d2b004303cc03c691830258cf69032518fe027e0df10084daf401e0512700171a8700b32ca203278ad6000917f800c2bbe90311bd1900cf5c710344ceff03ba1b1203c90cad00020bfb001cf16702ab137103768115022c38b3038691b203780d0e0397f0a800c4d28500a1e29a,
  0x2119df01648714024c54da02fe5ea7005c17f7002e103800bc8ba002529f83022d1970039ab7ec002cf53502c4402d01867f3b00c8844d035d6a60003dcd7c02dfa2b30024a00703ed3098022606970013432f017b1ee1004c94c602fb5009019bde1d01521edd026638c1002bace700729fc402251586,
  0x194a4c016e87d503585dd2009f4e1d03168050035ed386020a347000cdc16e01a5fdad01451e56001ec5aa03652aa3024691b903e8208800683dbc01d1fd8a00618135006070a601619e6c01fb906e00340b310299d47703f632fa01b82fea030a996701cf9f3802b94836019713a10360196103e91f88,
  0x5c5b40296f91901056e420260869d02b3543703505a9e02f7ebd400204e020388b6b0012f297c001e2dc40393a0b203171b86037f9757014b6cdd03fde5f50237188b023844de010f220502529c3900132dc9032a711100c5536201eb9c4303121f270017a9780235e08500b0496c004de00d01eb39bf,
  0x12049900c3cd53026e663c01d5a4080176c73702bead6301eec7270243ed8c02b9f7d903060f00000fcadf01799a710143f21101fcbbf5016cb3ef038f69d4021a8e7200fb085201836914007c3303001d2d8502fd360502bfe58203d8812501b31b28016fb69d028664d80236b6ac001f884d00d3fda9,
  0x31919902a53ba8017f29440111c24103ff2eb9025081ca02ee4b8c00eea9bb0257b71b01574a3c000eef0002f6547702c42ec8009e5ab903a3108003433dbf02fa57bf03c6202e0047e23f037986990011db62027a711a0120fb6002011e100055430e002509d20070be1603b2957a037f689403ba7263,
  0x4103e002b748c03694eff0194d43102af1464026efbac03557f4901030f2a03dd8bb90151c6d80011b4ca033a65e401cc3b0302389955012397c202518caf034d1d6d0107068103226ccc0000e488001e31c300ba5bcb036a349602dd76250344369100426c26035876a301e1d5f903e3785d00673684,
  0x1447d40187217802f3027a02e6fa150253fa3c038adbb1024f482c0225aefd029962cb00fff56c00290377029c9550008735350020c64600b05fe602b9e5040241e9090344aff902966a36001bcbd400331d280139666303bb4fb00115aefb030d895c01657a6402170ac900d87763029a2c6802207c20,
  0x32b92a0064b2dc02247a2100e2adb7012f5de7025ee3b80191a80b0392e5f502dabd6e00a158820016959801c40ab501c4e13b025a5a250344994c01137e260157ec0e03333e1900d3eab70078888d001bddd803a32dd800452ad800f146d90019cac5022ccba7016b8b2c01ab9c85011ab0ce01f1b387,
  0x3e0ff501a5cc780350b1b101ee4841017eb83e029bdd34025b67c201e42b11003908770348f6df00336dd1006424380227b3bb0210e05d009e7e5403d12d4e0256937601ba7f0e019db208015d6730000b34a202b72c2800af075703199d6f039ffc480252025d03d98a90006b54760270ed24037c22ae,
  0x23166100b400300213274601ce22b90344dd8100ad799903e436df0355681b03febed900bddd1c002dff5b01c5109a0224d6f6003a15b400ba1c1303f960de012ad11d03accc6303106e9c03c46d2a00374ad802948308037e508d01e71d370322d6aa026c6a540395308f01e4119002532c8c02d42954,
  0xb4570218806703de4e5c004a8e8f01139c9402452acf010090a50374fbb3023470b40092125b00095fec00f789ef035e7ca800ec5406023523a6012d3812021a5d0f00c5f44a01d51799035faf88000c6cf6010eb32600281a6d004e3b0801f5d1d801906f09033a22fa0038f686027e8f5502794809,
  0x3b666801fab880019ac725037ea07403e755e40058543c036edb6701323300008a956202a883860035c3cd02aa69b203d9bc2900bd89ec0003ac0c03a7bf2803a47e310005ceb8035600c8031e3a1c001e99dd004fbdcf000b76b80242677b010bb84603d914550330d92803d84d0001f69ff7010c046d,
  0x3ec60103b308d80242777b00a8096e01adc3ba02e0d8b60301462302d5bbb300fef00f0305a9dc0002ed2e00d865b801db22b202e7566001a34b5f02b6383501c9c22803b857a802b63049028cff8e0011ac3f01eafc730195a28f03116582003d96cf03bfffc50082d7b303bdbc9800dc3a6003857ad1,
  0xf80f002c9731102885fa901b9d6010301b83c01e65d550046ab9d02f7be7000c6a7ac01bcb365000ed9df035fb37601c95f37037cf50502ae48df03826d9b01a5584701f437bd036737990243d018003b4a500295c621026e61b300ddcb5a018712f3029ac2bb02af23a30393f2ce03427c4d0384b014,
  0x35004e03033a2103e51c8800251e7a01a5a9bd013a2b2202472cfa0193b6da0077684000470f8c003746f60013c11d023b80bc02b49fd902ef1cd803a13248038ea01b03ac746c01e662f6036464b5002d3a930005c66003161705014d0da900b2873901162dac0064ac5d01bbe74e0225ff6a03d23411,
  0x2fd63403f526ea01a5bec300663bc10253a5aa027f5a5803b49c8c03bcfc0a030819e900ac87a7001ed1d5012134c203d8123200a39b3200f362570285da9600433bdc028f5a5e01bf3fd70022b07c0032695c0149cf48015e8f9b01bfa5f102f24dc40011889d008bb9940231a8ca011e111803ed69ea,
  0xcdd6300975170001ee5c00376360201234c940250b9af023b9dbd03f9f90b01501ecb03c7552400149144010c7e82033c90e0039c146c039e370100bfd39803df494b03e5249a005056b301a63ed200010e89028e95550071276c03977b5e01aae6690115c43f0143ce84021513ad0355dead03667348,
  0x65fed022743de009d360f02e97dfc018787f60325d41d00adfa9f028ed13a026fd53a02551e150036df4f023f4368018f6463000a8bb00225bd330008ed5a03b0cfce02209716029aaced03d928c80000492a00daa98601d4e7bd032d1ec7008be19800aad8fa01be558e020102ec03b15325025778dc,
  0x2207a90236244603b36b3d008d27f403f9ba1600a90e9103aeec0602fffd1401e961a100760dae00371e800203b93d020772a7000a6674010fc6b0036b22ab0077762d00841f0f00b6de1c03946850001beefd032e6f320350a2ad02440e300230ce15029f29db014b31d3028e36a303bec3620337c0ca,
  0x139850021f65fa0319b05e005bd34a01d2d2b902e778af0222b20403758eb801ef80b300493367002c8b1802f9327e01786e0b01c4a4490191d1bc0233963f02e4e02201aaef440206645e011def37002b88d90050ba7f0078b295036880c1036602460262db9e03ad3e32035f368203851633017527d4,
  0x3f8e51031f1d2601fa4cdb021066cf001d5a5b0080d32601e0c5cb03a13cc502cbbaa2028df5ba00200e7902a1906b0274729402d09c2302a97e2c007c4ebb0336879502f64187035b253803cab59c000ef0c7037d777f03715b740393d97d007b1fc30202acf50222501003047397018b0a7b0389ff15,
  0x2c6e03006b31a90345f8340094702402f09b1701b5443f010b0d7900722997023b846c003f77cf0018a2140281d827013adec203e154ba001a36e101b857e00030632603adb3f8037bb09b02bce5070016552b022e2eef0141f56e014c189600089250004e40c8035969ae000214d0030b76de00ab1fe2,
  0xf11d300174fb201254fa400477a28024fd55800322cdc018a099a0122eb0901b1c6940100782f0019c3a1039ba10a016df5e903a0016c028627d0021f83d4029ae08a00c238c500ad664e02c25c1c003f2341002c630f025b1edc03565da00021716200f0c467026b24ff01f9f7e702d7b473002e6b4d,
  0xe239f00773514030b11b0034381d400d739f2026a05d802d583b2022bf7ac037ce677011a8e3d000c9cd4001aa94303d554810209dc4f032afa4702d50a1b004683f100b9e07a01ffbb5f0371ebb00023798900af256200e71a0902fd409e02497c9100c311b6020f795402d2f9f900d4db6a0318d0fb,
  0x210b38019b586b03813870008bfc1202ddca9b01faaafe016546ed022f3221014d52e4037c67f3000e037c008dec6f020f3d0e001b9a1d030febb100af8cfb025e454f0027ebf0034ed57803013cea003d1363025cda6d03d4544b027a5d1c002a486a017e8b2802f76f7501ecf30900870b5b009d5002,
  0x12fcd00216d92401cb2f5b03c88cab03d4ddab03264a1100350f7901626f0d019204d503cf462e0020a95a03de77e3014798e00179906101da02100393c9ca01073eaa022799e40253fb9e005591ac001f91d402569d290124e2240227e140008350c303c046d3023acfb900ade9d30234a4b602577f13,
  0x5e91102d0e3bf00d851ad03e0011d01d0e2960017f1fa02e4c2b900137f7600d2823e02eba91d001fdba8032f2b2f01bb4a410207d976033bc98902d550280278a70c00b3512a00a02dc402c4a0b8002f0fc803daca1602079c3c01f1b116011ca6940354752c0397b92e007112e5018acabc03cb3b33,
  0x1a775f00ffa32300fc0f3903bc83f80311ede102ad4f4903df1987025b6234016792380077bb2b001871160188e529014f92e002bacd5a01a800da00bb34bf03741e460340ef6f03360118024e982b001434db0348d8300204e8c3024ce40400aa50b300d13e82005eb4cb009bbcba00d82048031f28bd,
  0x990db02a851c1030fbdf90081a9ba00899b0601504a9f02dd15600202998100faa3740020b5f5002cc18602f3916900f1cee500392812031962ba033ad2010000b9f10202409002f0bb0f0284faa8003c3b5a0251b92900405c9302c9a42d004fabf901fc057e0102b49302496cec0218827a03abfa78,
  0xe35800f0221202df3a17032ac30203e95b420097b6a1012b9f3d006273cd023156fa0104250e000b9a18014bb81900a168f602695e0e00c13b8400fec3ed00ea6ffc03cee99403f1e67d0287f379000fe01f033c5afd03f8eafc01c2ce3a039e488d03a5681a03f5aba401498fd0010edfc103823260,
  0x1d761703d6777f00aad4d102b0ca7e019abc5e0219870800e2b02501824e71039eda3402df7d8200084624031b91d902f1b69e029ae2200033e54a01fec497000432aa03477f1603eeae6f0142c4660029c15703085d3f01eaf8c40142ce600226da5a01aa0b49009c4ecd00053ba70242c32c02fb6606,
  0x1c04200340b661006e774d02db6821009f662100e05b16033f580d0380e7b101d542b401a67bd1002c2bdf016fae0d00890a8402d98dfb01a4bf3900322f4c00249516013c9785034ba356014ae8d7003a971500dce13603916969022b4cfb0190498f001d6459035aa35101d70d420323fc420222a11a,
  0x3378690032aef103a6ff0b00b01de702f1cc2202bd5d3a0078347200727cb8002613670386a60b00140ddb012ca8e202792b8f0135355d01e7cec001c11d8e0281b489015fe801012c459a010314fd001dc570015a79eb00fdc67a027ffef80168f4bc004fbce602a68413021816ab0339923902493e93,
  0x1fc75502cda2900311f4c803db81f10282329301dc05c803debe5103836678012ab07401f15c960020e1220216ae35020b7e8e01d11b28028e8b49018fdc220303c92500e622d1029b0be50214098a0001689f0305206e02dc29d0000b23ad03b7f6f70150735103f590e803ad84c903798955017cf08b,
  0x10c731004c909302cf5c66009b14fe02120a2203c457d400d0079d011e7bc7039cd25e0034c7f7002f2e46023e369c032cb0d9036a82bc005b2f220327e1a200626e360030931500b79f7a035750170000145a0112b03f015ac96d03c863710162f4dc00bab64e02f4db4d01c61e870332638901382490,
  0x335e2a024675c00037a616025685750286c7d100e7ad2e006337db03fb55720152a1fd031cc4c100373630021b15b2026c058e0066445f0062680100643aba01df498c03258abb014bd1b602fd199d00260fe7014eff51021a098a02ac4304003d0b73024c058503c03d9201867fad03e79b0601a3155c,
  0x53eda0318045b011eebe900a9dd50030d866000cd9aa500aa7f1c00313471028a21330194ef2e00239fa301afadaf014a278803cdf8230163fa91035e5e7a031e9107014a27d300c3e37d0154e0b5000338b603cd0fd7013710c1002ffa4803d6100d02031bc9039eb25d0106c509010c753203841b18,
  0x2cab5c03624c3e023725ae000e9b880198cc1f00e1c1e0020a95c102b3389803fce73f02655b9700034eb2015deb950103684f000dafa402d6ee830321a3e7014f4bbc02492bf002c8110d03eda611002a025d0125edbd01109b2d000f0eb60051a9cd0125911f02efd7cc0218e5b90006cdc4008bafb5,
  0x1d30410026c16e0302eb3202ecbfcf013aa9cc02e3ca8b03b62a7103f4f05800e4cd4703546788003e244a0069862f0145bab900af74d103ae724d00a8874d026598dc00d0b6f3024f1e70013dd1fc000b1f5d03da99870025937302bacb9b027a83060043411800dd225002526193037bb6ad022c993c,
  0x3f86503334841031c5478037d52ac014db12c0069ad0900b4806f0277e6de03b8538e034c8138003854c100f2420f00af9b5c00f65910000defe003e00f1c00e7d5a40163e0030281d1b90048653e00146a7301c5d517021c045202e0e7ae03d4718503e4509d007aa9e90234ea9603a3ac5700727737,
  0x1f2c4801b3359d0163260e0187198102877e790346e3d801e927c201792b1c000d7b1400ee138a001e9ba502e19a13030e76230088b7960084f1fb0250069c01e299030262e5c002ab33cd02fc10f500394be601e34f5f0043d6c2002b2f1e031e5d0b032339070051ac900141945e03280a4103edd967,
  0x3080d70064db4000f9eb1a014d45be003da4fa00e803050268270803e325d60038e22500d608ce00170c77037eedc1025a9eb903998fdc0148bc3c0032ee0301bb5bf30088472102073cb703614c45000d4f720249568702c264ea02f6206c034de7ab01475658037e5f5e039b174b0138654000f133f1,
  0x2396f000cc1b8b008533f2013c369201427f76039ed93600f0660f016821c301fbb6e003cf5306002cce05033b2154028ddfee00657c630075eaac014c7fe3023e2893026416270010706e020878c5000909a300f81a1a022a044103847ff001e97b7d033bbd0d029fea7602877dd9006e36fd01f37481,
  0xe890d03a58bbf02fa833b008fa8890317934b01dfebd801e48c6402df52e50183e99b00b7b391000daaef005a308f0338ecc203a56ace0265a6010005aaef0238dd4c02dd107803601f450210340500202d7803d56d5c006aca9102567b9700f6b87801b0014d00138eac0072e0f7009e016f01d59c78,
  0x2a0002010452ce020d6a2a004d4455039e752603ae8e3b0272bd25018c909003ed8b0f016ec4bf0032d10a01e77d2d0224f60e00ea624d01b8f1c10192880601bc477f021f4cbe00933a8401b711ad00328e5203b8b89c01537b6e010b2a340283196a008a5f4802a2acba00087a21015ed6ed01b9c104,
  0x24b20a005b918d03158fae032549cf01c3cdc402aef6150105e9f000700e0401a356af034107e7001668a5028371c5011bc9ac007dc9f70289b51f032411a601f16017016e4178005afd450153e0970022319800ca81b502eddb200193e4a20357545b024590ae031bf2e60347334e01413e2c016a17df,
  0x21069a02fc343c01df6f2e0028114002601c6e01551f870221821b03b75d9d00482b24002e62ed0022d0420026c4f20047d8d60239d74f032b11fd03d6d940020959b90318f53d00cd9ee900733f170038bac60052701d03c9ecc703d239cd02125c60011d06f0029c6d23020fd651030f9cc2011ef43a,
  0x37a2ae034e1baa00afce79019b618f025cab47002e87df025b52b4016c01970059284c00c9b70b0036d3cb00522670001b720e022fbae203d9a663025330020087563b00ea42df0255152600edd309003a105a0212b9a20104df9c00b9be08037c0ebe029219e103d5db7b0367b29f0355e08603ddf6e8,
  0x3b5ba7028f4af203a19afd000ab14e0051ca9e03f4de2701705937012510cf020c515f012909440016557e0385ee5b03105544039e84b3005b073503ce587202d13dfc0177189a01cf97d2008028070037505601809f0d008cf6a100b8201f01d8d3fb01f3cba70347ea05003ad2840091bf4a0016dc50,
  0x12ea02039b85560067b05802be60250339bc7700ca0350019a4af301e1aae50104160a031ec82a003b7c9c012bdf75018a0e19018341c903b6e458033e001c0111298a00c6958d0359e5860370afa900046a3c028c441d0293892a00b6a120009526c9017ef84f0074b664025d869e01a0eb7b03176174,
  0x35f220008c4dda025282c1009b898801b2c69f0262d994015215f900926bd401df6eea010c5d8f0035aeac02531b980381ecf400d7e92301b6f6b502c80939028ed47901ed1c870078be9700bf8c94001e780602f9fb7b002f59df02cd223f02f67199010e13c403668cbf03617486009354b902f433f8,
  0x2707fb03f3b9460046ce2a007e65d303aee61703bdebba0062abde011f8f050173457c0298f01b002db4370251252303f58fc70384692c038c341600515a4d0160e410021a794801cf8e210037b06c003c898b0050d980013aa178037c2c87002db7f902f24bae02fe34ea03a67e6b03e06adf020cc978,
  0x352a4d03c190e1024fbafb0198300b02733f8302fa6aa00030e0a60180a688034fc829038a7fd100012029013e43e601a456330200476900e0150f00c6882402782b8e0155658b0297407f018d576f0010ef600289479d03dfb7ac018725ce026efa850167e7b50295f118001790e5030f7af6010e191e,
  0x15294a00b0b32c038114d40022a9eb01d3ea19004ca56b0208817a015867b90203007d02772ebb000d64c703acb1120287764a03c7d352023fa18b0206731200888f57011d619700424a0c03bc8789003f70db02f67f3802aae8a902c87ec103596ff501149ad3021898970390baf700905c7c00fb328e,
  0x1b9fbb0337323c00ede36b02eff7e6000688600089b74802f77ddb0042dc7f037a32c0032260ac0039bf28010fc7e0010cedd103b3028703253f9e0002a8da00758207013527f20241e81b026f05fe0038e2200373e78f032fb685024983c200af610800e91f8e025c3f4a0132a1c8028a03c3037666bc,
  0x19e30c02fe026400678ad402b1373802bb5ca502a5652d0048f6f90207b2bb0150ab4d02ce488900040f300165ab08022584c70280651c03dd07c503429cbe03170bac03030fda035e20cb000361fa00369dda01fa148d019f3700030444bc02f6f7dd00e7b7a502201440002980a203755ee50166c30b,
  0x23a1400f6d55103d15ff1037bfcf803048fa8005486530333ee91031b6ad403647c06015883c4001c8e6803c49bdf00929c850047c7c803829fe3019bd18801188e90008f8eec037ef7e901b015ae000e820500a548e50270e01802fe667a02be05b103a609c7032410090368725003cf82b9020968a3,
  0x3b8ff0031748b500e46b1503dde34a017d5134017c77a80125ed5f014bab9301dda981000965d5001587bd00113efc01513dc403aff91500302ff801f6f7ab037b48db02add4dc01293f6a025bdbb9000c781c0023ad8302a9444803735b0102eed80c032dbb0c00f75e14004e123703e7bc1202d8a76e,
  0x1722c102795e5500b6cbbb00a3c91b0278fae003d3756703e62f3f00192566019a2c840231fd070017e88502855cef03916d0d03ab82730307c3c800cb116003708d870326093303f3a7e003fc22cb003c7dfd00961bc2027d222603f25af503aafa5801d9c0cf00fd696303cebd4b00b470fd01ea3456,
  0x35c2770150a12a0067cafe025b89bd02ac0ec0018ea196030a04eb010b1d5101dedb6c03de6a5d000ce93a0260c14101f95dc300605d59012f5249007dbcf60019842502fb6d810101f2cb02a69a120020d10a029120e203e778de0308e2fe01b6738d01380919035da7f5030fa461029f48340376fde6,
  0x17b33201c9b7e20204afbd00a28a9d015a086201ec202600fe5b010025d3dd037e0dec03d587880038e22a0327eb1d0005e45b002006c60278addf02ed570803e39702029009f800fc79cb02e61073001939cd0029c49100675f6502aa5ab60040901e0153fcc30194a11f004ec8e600695fb20172e27d,
  0x2d354001859fd901b8e98b015c1a1102936ee700279ead01aad9c0003232b003a1285201de339300380a2c01c3274b0353d2c1026fff8f01166f0d000d877f0291fdb30189325e03b2774e019cc88e00133a730110f77101a9e88a02510c54002449c900939696015207d400eb7a6803f04734011d2ca3,
  0x112fec0175d9dc037452280350a155018c4c7700226b480073dfc40077b9a101bd8bdc01ffd0ec003603f802f5ebd20229d11c007abad102ba9252007f3232035c89be02f6bace0218ed2b03b9fa30001fc33303c4261501d58ec5029f384400f765f3007b696a0393174f02033447028678c701224c06,
  0x21c63a022b0f0a007e287301b8a8850014326602e01c510185f61e031a1c45031fe43e01719c65001e403602e7396201b5563b01502f59030d91fc00f9a0670036717b0184beb5011ebb0b02e845aa003d6eba02c7c182004e9791002b992502cf9ff70312b70c019fb00703ea9fb802210d7903bf7483,
  0xfd08402b0ba470015d99f02ee575a009683450300a0d700c42b52019482f0006026af03aea9ba0020794b027523130193140d03f879d30043fa1000c24f60011db477011c8d940180a7a300bad062001c828d00a2a0e902162d0a0274c9a50317ba5b01661771011d7dc10310d8f202b8eec803fe93a7,
  0x59d330161bf8c0261da7a008f28b702925216022d4e5402113104019b1a75000e25680153004d001a182302fff6f8000845b30178347c02bf0ae60213ba9c026fc20b032d8ce801ee1d1d00569a180016e26e014b3b4b03034ee9014f52c601fff94602b796b802dddd1100eb3b25025c96f802174eaf,
  0x2654d4003630c203dd15a903e91cf00191b03102dab32c0145b74d0069de3f02d6026e03f8925200090f11004b38be003a390a0350133401f9c8c400ef96fa03e2db2901001c360152e6ce02dc1b87000b124b02ed10db03b008f9032cbc72036634b6034faf4203a23da200a4cd080189aa0a01e0480c,
  0x5339d03990a1103b4e70d01f37bf3021f4faa0087057e02e14faf01587d150016520003b28787002702170205bef90034b1fa014f461a00c47107011e9a8d030c19970071852d0042494c03cabb840003e1550349aac2034af8eb00c08d470360a2d5033557d600b068fa00a154b900331dfe012ad866,
  0xbcfaa000a43680211487300a363010286460d018cfe00003e866803dbfc210224d2d802a46fde0033cba6000c129302dc1435000ec50001291e4903ba209801b365c601c85789024e3bc701b7c21c003fa27402cd6a6a016521d2031e6fc10153c69b03f5a47c03ac149702e6035203d80a44019c5b45,
  0x1d4f070270abff0253d97a020d97d30360537d00ea70b3010aabf50006478902f05f78011156090024bee3017b15e501564cc801927d250346a2130395f7e403714b8803c995b70267e3b40006f818002764f4003b35c702c24e3a01e7a87903cf8e6f005ecccd0047b3840010fa530189802a02f16763,
  0x1e310c00071fa7026c63fc019f5f00021b0a3b01c35702001627c5037c118403f1399c00d63a14002507410124914b03cbd38200df125001152f0601d6097e009b2d4e00cbed24000c3e2801234ea3000174d00110bb61017a69d303a64c6503ba4a67006e02b00227a3b80373af3601a8715400421dc6,
  0x3ba0e800151b1100c2f9a601d53e6e03ab440402c290fe0354aaa80335e608007b6788001e23de00220dcd00f55f31026ebbc3026956c10380971703a142c20355cd0303a205c2025fa8dc00331ead00072d6902e9dc91031484d400b48475025f626002a7282d0051ba8c021a70dc0217f09c0088f6cb,
  0x219906023b2a70016ce740000d9b02034a10e6012f5b00017f4c8e0359e45a01b7efe300dc9f4b003b0761014f429f02fe26ae024e7a5901613685033156be0047757b0189f427017e784d03efb5b600165a7600da991d015dcccb0156241d029ad0fd026af01e001dedaf0150783c0121f89603d93333,
  0x3932d70058b1c90228b5f9033c298a02bc164302df540a027bd4f803627d0f03569752036cfc6c0008e7ad0282c65600bb22ab03b5cd5e0191a11c03f902880309b3550112e72000c4160400036426002579aa03f85c3a01c08c9000946bf002186922005ac11801e87256038c621402c12653002ef967,
  0x10d53201b80442018c7bb501d58c0101238c790091d44802bad91d020bc0d601360d4a02c4337e0000b90002cae2350272fd700230fc9c0390014600f8219601059216014115200180e7bc01875a370016f33e03a615ba00bfc25e011b26fa010bea94004e186a0031d65b02f9221d00f336e300ccc59b,
  0x37bdb903bba5900034652703767cd8007698e5022602290078df1b000fff7f0342723f01e0469b002b64d5028c7970002ded7300ffa5f902dee6c60043695e0051b69603d9e98a03fac22703f9088f001b764201f21e3301489e6b03a222ec03cbab3503a596af03d5791b02bd4a8e03692e6500963539,
  0x126c1b028613de027f08de00b08711037119c6032242a700548c1d03c2c4ef00179b5d0288fbbe00383c2d02f8c86302abd2a702bdaa590223841b03f44333037b08350130b50900bc3d65025ad3980032d5a703df5e3402db80fe0364ac5700f9f662031b05b703389c50026a309601280ab502c7326f,
  0x6b0e8033e8f9103d02e5202d6dc8a03e8c8d801a00b2c019a5ec1003bfa260352b4480141dab10003999b03db8a9600ee441000a17b870042d7860206b23600670377013bef1a00b4c29e02d0457f0033e5eb0388c92b01aac2fa007644be00ec0d4a01dd9072029491710350074303a7e556000710b5,
  0x373dc401c8655801dbc6d50278d5920034dda4017eaff303bce9e402fd55a9000e1ebb01f286090012390a035786e401bb341f022faaaa0123ea07014adfc403f9686e02c27ada004231260006032a0025672c017bd91203c9dc8b00ef3c110092d166003b2035037338e7037c238603a68950002df5f4,
  0x2b90ed0014b0b9000ebdbf0388e1a701d08f8a02484a9b018063390017e8c501132648012a1680003fd64e0317145000819179018d8010038fa58f004bc71101712a53004fdc78009bd3020371119b002858a50199701801ea67940236f88d039c85bc00fdfd0d03256f3800d7aaf601fe04ca00f39473,
  0x3056b00dbd73803971f6c0018338900f0433003918e5e03ad9e08005e762303d3a41000f90ac2002971b803e7832802e77744012522da039ab5ef00730f7d01af655502bef8280230035902eb88de00270e1303b0c7a70370642203fc296e025d7667018d8d01033d615802fa8dc9034e2e4203597a2e,
  0x355a95029dd9ea017ecd9c00aef956027346b80032ea1a02b60b39030b0d5b029612300261f6ac0027b0e9022ace18031a1ee4009e7afd024f1da6025e51e7005e14d60160811e013974d803aff2d500240a870313bb5902014157035efdf503df2e950398c39702115aed01d2a009014a9c8a0122d9fe,
  0x28321f01069439025f3b8c032304940351f52201aa7be303c271b203351c5403756a64038d1fd6003e6d28024620da0312260c01d4d5590180593003b040dc02b037f9000c62b90023a7f1036d5d96001ccf690266c05c023a9142002e4eac018a14070313b37b02f0722f01d3d87001867934008f9a19,
  0x1be9bd0164961d035e055303919da40306adf901fc6d5b019ff6870395fb8c01c3aaf1027251050009f27203008e2901a4881f03715f5a00ab0cf10312373f026c8ca201d2bb8c005d1c2b030ab7d9001062d903168979031182be039857210385c23f004da15700a77db102dac1bb00724f8602da14f5,
  0x337f3b01dfb1f40332cbd000cbb5fc0380bb9f034d1bc803b96d1b033f88d80138d2cc02b2edec001fd68902e37d90024928fd014db1c10009dfc301cd02bc029b182800e5b9cb032599b700e789a4003f2112011dadd203310082030dc377009e0f3203786b94022ca3b203ff0c7601a159070347dad0,
  0x2429f7014ea54501eabd6c0169d55b00edb58c02bfecdd01dadffb00d890730255116802f036b000235bb103b58e17015cd6cf00d875f5022651760098f7930196e24103d8d85d03156baa03ae7c8d00325a3001b3b22a00ed085501376d5003f41e56016d38d0025ed0a603aba3860254056400fea5f1,
  0xac09603576d8300b3006d035158370267015a027766ba0384080500599a3f01e68f440318f60300192d1402e0217900a10a8502cd0bac01e3d442023c07d803408f040131def9000b467a00601588002f99130154ef2100c106f900a6daa603dfd3c80048e7cb0278e8dd02e22ed103e332040249df9a,
  0x26fa09022468cc0398b2c802fe90ff0290003702a0d47d0128909d02a6659c02494cf20125706e002d13c5013a8a1700f668c70281a9ea00fbed5603b233070017c12a0168c65c000235c5031ce590003834e8016cc7c501096dbe00edfae4030902eb03dee64e03b00ff700f53a9e03b7c970024167d9,
  0xedcef0094c24603e8bef90027864903c35eb201e3b1bc032b2aaf013f55be0238ed55019cba090009e4e6022234f701eb714c0302ef18029784da0187d5d6005994260152dc74001dc68503da2a6600332db400d713b3001bc283024e872a01654b21000331a50088f90e009daac40001a8c803f6366e,
  0x3e932402b6d16601fd07f70047c0b60348dd6301190ee6028ed2dc0178da9101ce1acd03e94cfe000a71ae03f5f48403f0599e009aa2cc031a057a029882e500a6e32e023f254a032e05de03530767002664fd039b351201b90eb4009a3622012dfd830322123a02ba17ed010b63810314794c02a810a4,
  0xa880b0013cc3e00d8450c036b5d6c0196c353035302c0019eaeb002b8f52600733e0a03c1e2de00262e7700e40973008667b001bd523901c26af7018dd1a3026c10fe015ebe5403a10f6c00f02462002e2d2f00bc0591037a357e01bb7a4001ec1e5b000a46d9004cd044014f24ce02ac0a6900c4197e,
  0x214cb0335d8e90108165b00648c2e029dccfa0184b59c029e30b6027f743600071edf0325c0ce000c5da700481cf401ef6d9e001ba58f0247110b0088ae54004d31e501c4750e0142427d024063d1002b81ab0375ba800031b524004461e802ef6bd70241bb5d0077091c026e1644025e8b32019b8c31,
  0x37e75203cdac7f00adaf37022146f303549ec1004702d002531310039ac2ec00f2261600e431f300372773028a4cee01dc8e6903aac0ca02394e320379b4ce023eb84b031dc75503f73e580119506f00021a870224ffd20027af9b03c8e9fa0300934c028a00f0009dd4df03c946490090a99a027d4f1f,
  0x33b47801bb36ca032409fd01342df5025f3f99036bb7a200696664019974f3017b7790002fc67b0029c31c030366da026be3820235846d0068ca9a025de542009021db02256a4600bbab5800b79d30002bf9970083505d02608c7e0130b38403308a2d03ea7c7f035d91f601ed13c302b00b5e0192625a,
  0xced08004d61ec00e210000306c524012a3fbe00d4832c02154ec8027d49f4034398aa03f8d81500303559004c5747030ce27902b7f4b90075ac0c00e0235c02953de40104a2e9022935530358900b003f42c000d9cbe4036df06d03a6190c013ad958019d350d008197f802c75db9016787510245a01a,
  0x1446620383a1d20192bbbb000e76c70144f20e0051414900c2789302dc549702c2ada601de188b0037363f01ff737301b1da4401f8ef26012455840170d57f01971c3700c9691b03cce58a03e3e35a001d7d4902fc7cdb011b954f0175841503c26da002264664003d3dde0350288502a90b9d03a53d7e,
  0x33b1f4013e78cd0320070c03da57350243d1b0009dda3901a2c16c01f450fb004a37e40288a73c001a01f5021df526015327b7026c6f3702dc79140270f1ec003ed98b01497b260121c94700ed9f6a00191170009079ee025b3caf0054a23a0185753c02de72bb03b2f5c503d8d9f200c6028502cdd1b4,
  0x9ee201b3ea9c00c51dfc026c7617010f30ce016a90b402a8242301cd09660300bc5c012e4472003193e2025ac8d00104f2ba0247562f00eed46903eee5ad01c4b45501600f19009c4b3903b7bf83001fd8de00cd246902818d36010d2d1700d0086d010dfce80234cdac00e999b802c90edd01c5ffcf,
  0x12cfca0297d860004f7f850352c5b501629f2100f1eeea01c0410e0175e54700251e7b03a25bc8001d918a030578e70103432203beddf80366299201d84114021a997401db7ef6015b52d6001355ca001315cb03e66049002e8ff2036be61c020f260d020ce20b02e559a501934623032ee32300c747b6,
  0x341a68030c1e4601e40f1c01af66b60025ea5c017a564802ff5ced000e639d01688ad202de2e7f002f48cd0157589f02e4eeff00851836020d74db01a4c91300ef2afa0255f8c903d56f7e024b921100367fbc02165ef0020b8cbf03e14b9202450f870376d6840297d83d00d6064702e361ac017d90a8,
  0x3d9d1b00c74c7a0272ceb50116c596031215c802cd2507008a2c4701aca4a700ae1ed90055fef6000828e20341432b02665f44019082d0011867700212ec69022b2d58032035e601a5fe3b00e5ae9e000b4a9700261a7003dc6f9f02f82d9901c9d1840355effd01634de0021e610e0322a23a00fa8f5f,
  0x16a0f1013d80b4019a5db40185510e01f9f617028a4d51013f5a6500ad8457016375f702b1f69c003c3b95003344780250fef0039c2ac000a5b34d019ed44700690e68001570a902587ebb0221716d00264e9701472534029d442701fd1f9d00ca7a0a034d1b4e019d4f8001ff419f03bd216c01911e7a,
  0x962d102e1e9f40318cebd010f8bff009ba7a702d082b101083ae302cd2e5f010aa431032a053b0034ff9e02c956950112ecf301582c4503f5205b01f8add903d304bd019620e6009baefc036d0ff6001ff25801666c87021c4a3a02085dd801657f6903f699de01fcab5d029fe99d02ad7e4c01f43a7d,
  0x1833120197f43502b21b5202b3f5cc03a89bf1016677410311b75f0264f192002313e503e7d341003bc8c20261c11b039b781b02d152ee030c05ae0189c4230150f23a001e0dc40083658b00e9646b000a0562007b001a0036fbc20217d86400689d3a0273a99c00afbcb20197b7d3034ebe8000b60078,
  0x1b6200026f6b7001c6cf08022111760341b3f3010a26c100cdc4d103955c4000e24a0b010679400029692100b81f200350e0c303b44a2200bb65340016447f03d524a7027953610351b934038559b4003ca13600f2367f03f175a3011e8af701fd787502a485e4000b14580315088d0360466f00561e02,
  0x4703c0162a79c03f2cfeb03fac15c02c0396d01977e4601e499a9016498c700329db903ca2646001b24c500dd682e00b7700403a2317c009f9e6b0391611801ab7e61036f41b502222d70038bb692000a43de017b303602b2a3770032ab1203bf30f701f114360169e49e01dd879b0267f6c802067c67,
  0x30ae9801ae46bd01c4bf86034a26fc03f11423005e99890103058003709eea0034c8a7030213aa003fcce500ae9fd402469e4d0046d7ee008b87b1022d486902d4408703af3ce203e2d09d03819fd1001365df0260cd09032a828f01a89b3200df8be402ea309203416b9c00054adf019832ef039f3073,
  0x138ec70074a4e80292405900a9e61a0397323803950f7e0267f63a0303318701ae32fe024e8596000ec9980314f33b01dab76001bf74f4000d25d8029468cd026ae2cf005dd8c603fb82e90026fd5a0015f281016d477b030e6364000fade40168bbe201cb110103a5820c012ab3f600b6cd0c03192757,
  0x37049800bbc1ab00a3414c006729f4032fbdab00076d5701c4f58402d9533b02e28b120031a5dd0020a7c800eb5d7a025f7fc803d58e6c02cec11902df353302e9cf02034165be03803c8902ef983a003336e600c704f602e41cf9016703e60050761a0345d651017561e802b0146901d94507005efb7b,
  0x1c2b400128d5cd000dc87d01b652d0015f27af031647610184f75b012530cf0318adc000861eef000121c70323259c03d898b5006f9e0400f9405400b7f777019cd88e01f4022c028a930f025bdb170032a9120396ec0000e9f0050307e660025ecb2203003a530082e39b0362610000a990e300bd9e9a,
  0xdc6bc032c30b601cd13be0073dd660146f64400c854420093e83602e9733e0371e46d00aa052e003009220333401703a06408033a8c3e03ec9dbf00c1cecc0196340c00879ba702753f7600331727000a12c40219cba50108525e020f68ac01580498033ba06402c7a5a80375a09f0088334c02d3e605,
  0x982f403e14b13037f111201dfb279007b69d503ffd73700314c6802c7370c02cb7cc5007be1e70014708202428cc10345595f02763afa010ff39a02ba310f01ca9cdc0329a29302b4490d0062e8760000487a0358b2a40370d30503c4c92d0287a591033efcb200c2eef1006ff10c00238bff037d6a2b,
  0x37532403e17106018c6ac80255108703118305006302f501fcbefd03d100ab01e5091a02032548002341ed0054120f02a6ded503519fe200c6cda2004086d3001166f70179936e03d931e3000285ed000354c20207c52503457e6201aceb4502e2dea302d9cb6e02c7a600012ea0dc02de1c0b02857b0d,
  0x1a0dd503091256008594a903bc6dd201a77d2e02e20c2e010a3b7702c4a50b0118d98400bd6c5100303453018c6cb101a6c585005b753b006d2d5100cce0b400ebc64d0288ae5300696a8f00b437e300205ef80082a54a0079974b033f45dd014ff97202031045028058030200ce2e007c4535001d0336,
  0x29c02701469b67030fede1001653470039860503b14c8b013615ae03279dd6013ec576019897720039ace8015e037402756ef00295315a0092b436038f38710194943902e8762a00e1e91300dc41f300102fd003898edb0141f17203301be701881b070121d628038b956002062e9f03345a8001c9ce3e,
  0x257ee90206d5e6039c1e95039e64e403ccd8da025377d901a76d18021224c50167c949010973de001f2e8c01aec63003a2d35001aba06102520cac010a8d55039391f101bd22590017a0f502d96c9e00172c3003ae3e0b005393370022901a01b35b2002d60d5e038a7798020b8c12007b82b002844ad1,
  0x5d310027ccd0d01fff00902c9cd9003aab69802995ef8007fdc300390b91000ba5a5b03eb641d0035ef2202112a8a002169cd032897cc010490e8018c24960307bd88034a3ca701d02ca303143dfb003c66b300cc80ad0158dc46016b541d00482aa90078fe6902268f1d00d769f30198f11e0308c875,
  0x108eaa025678c10289164c029bc57e02505aac02c98e950275f8d500b6e0d00169b57a00b6a4290000faaf02431792020c72c9000fa4600234b7cb02abbaae0325b52000e2e0b3016f298201fdb277002004a002f20ada02b09aae019391a302695af80026d94c01206a23012f4d6602bbf82e01f2218b,
  0x34403700fb6fac00056bff0396e08f03eeb70f037dcd8000dd98f001da74cf0340cfda00d5b82c000ff12903adce2302aee4bf030211dc010c24e502c2999b00f09b5c01e3f80701ecf7ae027132a10001572003cd950101e6885400780dd901f77a500312c58c00c6d1d90089081e01ed145e008b51c4,
  0x2eab06013567ac01911a58035c70e8014095f7018c4f8c021c4d3200696de300d9b6a702efe9720026cd1c0084a1b402d22f9700c53f6903df75e50137dd620081333b02066b2603e839c802c4714a000d8c9500f75b920164035f00d22cfa02602fe10338c2c6017c3bf203ca205d0194541502e19183,
  0x1ad2df026d10040234841400e7506f021896ce02e56f9c01bb35eb00b3477b03f15d0100fceb03002bce7a0367e1d701cac0b000d218b201f187b303d39997014b408f017f9bd900a07e020097872d000dd9e5026acb8c0179f10a00c883c700aa46f40208a2600378cbd9023c9cf7038e514801de77a2,
  0xac489024641b901acf0520063412d00699db5014af555015b2226022fbcb502bdc8680353748f003558a500aad9d503a9934d00f47b2e008e7d03036870a801f2aedf0342f7bc01da7f5a01cb79c0002cc410027dfe47002c17cd038963980298a47303e9bcdc037d336602569a2302cfb9230075f334,
  0x38d2c302d843fa024e2db2014d6c0900e339db010d1e5001d59206025bf65303fa1fcf036d4cfb001a757b00d5da1b01884b33020682c703e4bd7202771c2f01cb75a00396bebd002415c90281af660011beb901fa4fd40087186602f4227302dd955200697a1200ec9da902126ff200721c4e01334356,
  0x34b3b9023cd36a00a01a1203bb2d1900114e4400e3eae603498bdb01087ab303fe10ee03e7080b00069aa200e41b6d039b424d0317f22b03b65aa000cfbbff03c0136303747d24000a3635022f88480032c08b0141e4f5007407ed000f56f20084fdea03aee70d03e10871013cb00302b428be02ffceb4,
  0x107e5e017532d2006383b403f6ce0702cacc8e0296c6db0045b8d80218f59d0373558d0198b2d800366c0c03378eed00e3beea02b2bfd201f2de28026eef7f03aa81be00262b2b03bb3e6d0365a8030009ff1f00ca8a860220c3760275d86901685c970229e9af0393f3ea00c7748c03d9ed6d035c18a5,
  0x8f02101517253032a1c9d0233dc8602e162440274d79800474af3003c73a800868095032464230027393d01d0b4fe005d730703674a91031becea008bdf8702e5af6d00979b36035c4ef003b220be00267f3701f8dabe01e52d67032375130304adb30339a65400880ff60365cab500b46d3c005ca214,
  0x2f8058003b2da900321ef40301e5c5010112e9011c4afb0091dbe90184759602be1aa00154c61a002022c40399edd90311e951025bab340012b8df0252e1f4023ecc9a02c75b270330c210022ea531002949a201fb817d01538bda00c3b9ed02de5f2c01722b5d0300b26001ecbd8e00f63a5c015206ca,
  0x3642f603e8fbd6024a346d02fb5cce009322cb01b84af1005ebd7c03ebf9b60234f8320071a53a000f4a480297c86302d2613e03fe095b0249e8b1010417d501dd512a019c8a40020ebd19007b4acc0012df4c028034fe023e7e6c03a929a7011b382d02597ef30133d0a502c4b63000b14d43017393f8,
  0x3c02b0248aed8019cb63700493e6903978891037b9c320360b88f03ba95c80095e49803244ccd003a2a400398aedb03ef10e203759061004b2d2e013c6907036262e9033cc33701f10090015e6674001b65b700fe9cfe0093e4f2039ba0f0032d47bf03412f70007689b302ce2c640327d341021c6a72,
  0x2a2977003fb4d5035ac9d9021c5d70029b0ee4038181b000815d2c0375e11600c71f1f008b50140029cac701c6a84401eb8b9e00d93a5601e92d390328c3d90169176f021c2cfd02e4ff7d01912d3f003ad8a602f7686003b1172401e04eff01fdca1d020a33a9008b72f30115facc02e0d03402e80652,
  0x3d17f1035a390f02f7c3b10152300c008d92fa00d99d1d03b45155034b347301d796fc0024e67f003f9b76039fa23d02adadb700b6934f0043e56703ea96ce00057169033210790037e99701216c0400360bf701dd8b81025025d802d5622a01890156015a43c902a8b99103e5ed0703fbff4101ebb767,
  0x3ab10502ad5fcd03e0392703af36b1019bc0f90137815e007dcff500a85a6d0012bda700a8392700105fb5030fd4f400e982a200323ae501391cba036989e103c2209e0307ac3d009ff97b033cbeb10022e20501b8f4f7016b97b402ce37c203906f13027e4a69010cbec6014c32b101f83686031749e9,
  0x1fd67101e5c74003df514702a5abfe0224e83103d0bc63034a440000c7ae4e02b5d64d0199452f00395dee03a9f04301b520fd01ae1317015c48c1006222e700c191590177bb76017572b6019d64550010e3080290648c021ee06e01d9a891033e89630044a6c3015d262f021e65cf0112e630022f8ef9,
  0x16fb25023d74a4029207d0021dfa01023e135200fd0f7400839a5b00db8ca10207ef46018e4209002e202f0211d98c0394c0fe0222ca1e0278ef5f004a19d701cbe3ac026d6ddc009a8e7002f1f6c7003841c402b3f206028d0d0b01b5a3c7038e8f7c03dc64ba035d6ace01ee2fad022cc33c004eced0,
  0x1f17c025293a6008b1df003fd0b4c015c5e2500d1f902010c2c34023b0736027a164201b04caf002f413202fddd00030484560392122c03b851d7005626f303d0d3fb027ff57601404b13030b08b30019fdc70115cae10336787102aedca20132de45008b7e880200d95d01041ff90325b880020aa7e8,
  0x29c4b9010e534d00da41d301adedee01f8d31302cee856038ca45f0294fd2d024a715703c1664a0002a8f80368b5120305074f024dea13022081d90219f626013611900114384b01e42a4503d92624002d91f603fe4572012a5c750257ce2e00d1f1410180e8d00091946800305e0d01cfe055008b4e6f,
  0x35a92000161462024cacb0028206e4000e37540014bdde030eb587014d8d32007253fa01a4d7c50008da010345584501b669cb023aadf6037d377a0341228a03f4bb2c03210af802b299590173d16f0029b5b6035eacea028bc08a02151d7903b579b601085f7302b0cf7303762bb8001d1b6501e7c925,
  0x2d87fc004ad2bf02f42c2200be966002e278c500a987430027470c02d6f76f035dc6c2015d8510002fcd9b03309fd903bb76310125cfec027f33d6009574d50088fdeb001ecd96011ff22c0019b8660022531b031461ea027cccfe03eb998b03183818038ec89b01469498016d2fff01aa92da038b2243,
  0x32f70a01c2658103e2a381020715cc00e7417d0105258a02bd54530341ff16021498ec01147cca00387e620092da7200761ba20008875c0209313e01f151e403fcc0a101d4dfcd02eb573503d531ba00298c4401d723ee0267ce0b0301d70e00da220d02e3a76e009130a4034af05b0055c25102daeb93,
  0x3e6ab802f54773012f5b9f01994a290183319503ff827100a6443000a491b903f5dbf80089c38900008af6030c7a14012e5f4b03089b0c002a4de0013ffb1e00544a2f03f0ea860299f83c00134b550005891d02221a1900657d0701ac7611008bbad5012e489402b6b0cb02f46b6200aeb1d4024f66b9,
  0x305c63031333270160d6690137e0d40313c2a10247e45101d8b2f7023d64e400fcbd9c024dc8f8001ae0050100e6c9021b7e3e039996f7019331bc0348c4e20269ba9a01682289020cf42d03c30ebb003c3428013a47a90293d77000252145024c65550329618b0221375302460eb600da98fc0062f08e,
  0x2642de03ca071000f1a03001ed43b7011d0452035c725603d9ff5e0263e416013b68c90292648000089c8f01f77a3c007afe9e03c91e5e01cad3a80140d39a037ef93002d9c018007a19a8018eafcc0025d891020f0d0403f6acb302cbec6c03f3498601b4b78203c338c60241400f0074694102abeed3,
  0x1edb180033b9e5003fe99d00bebfd90218ac49023b33bc012463be028ac404021059ef00910d0c00396b840278784f03d2005a026551110311de4a0186c1a501f3a43c0304b7940393163f037bbc55001c8e7000912f7700a0a89202b751df024dd0fd027bfe0501f82aeb00226878013d771700d2b744,
  0x53e4601c0c3150391087a0105319e03fbb6660021b56d00a3319e00ecf75401f477aa0335cd6000073ec50252aafe037c6e2503fe0f62028a9c080145e774012e74c90291ef99036ddebf026429f9003fa448015ee19202712601015ff82d00b2294903ed446601d94505024a1e8b03e867020345de29,
  0x1a221601cb504e023311a600cd4e3103c66e0d0269a55803ab173100f06dfb00642e2d01424fe2001f686c02917ea6027eafb0035c123b00d9176600b6bad8008a0b8e01f1b29f018e540102f3b4a700092a2d0169bf7c01a4274902f0537c0283dfc702d3ec49008cd34f01b39ad402dda1150228cb5e,
  0x171e4d002c3a6b029c6d1e02cb0455013ce1f600dc3c6a00548a640393c1050307916c011407bd0009e1ea03b2973602b4dfc10019073b036bc08d02fbebb00066418e0132dad101fdf2e502a9e7550019525301e0430d0296d2b50315b72901cd8e6502db4887008f54ec01f1f64500b3fc6300722a9b,
  0x3ec8d902d3eb0703cd6241017fb485025b7257036a13900233e8a401ff916a015535aa010bef3400135f3200d7a39b029f8f7102db70f5005a02e80243761d01906d9a02e8e9000224724802314f0c0025ed8501aa9c5b03a7c80200c7732a0026d14300221438006e14b50299952e03d73eba013ee95d,
  0x23f3b3028ad5d4018b85e10179b9b200ec51ff00b36ed401f80a140352b2140035a1d700843798003f0381024f6b1503b29e59029522880122cd3001dc9805017cd25603e34a4f031f712103ed6f6a00273b7d0030cdb3025848c60102e0dc0109b889006f357d00f2225901255918006dc941012324a4,
  0x2e456b02ac5f9301295b2c00e7ee0703ed46f502954bff02f0e636028f80c2008e5f1a010ee7b900177504011e5eff01aa395802aead5e03362e8c036294a400dbeeb703ae2cfa01fe0dbb03cfbacb00207d3d01fc1e0202116e4901fb1b4b0154262101f5d6f0028500fe012e302100631084003433b7,
  0x161eba01f831f00368ddc103cf2dcb012d5cf201f1d23f02bec1a70178b48a00b5513b02efd21a0019fc5d00fe1847017c635801e745300295841902f55240030ff8a300b03f5e025c881d00d3351a00298b5a021dcf0f03ac02c002b327ad035d18f102c35d170210df1f00483b7502645881010cf430,
  0x38462f003dcc670302f98e034bd69002a17e6203e1a6da016b4a600102a94f01d592aa03a48e4d0000ad0100dde7cd0384fc490322a0ae01022400015e1f1b019ea492019b3fe3028ae2d60346b32a001fab2d02d28e2c02395e6c028385d301070b2b00d52179016b2d2a032ea3cc011e6d6100173f1d,
  0x2ac23300e5597f03a1f308026aff2e0217715601aeefe70304890601a993a301e9e5e900b4f552002d6bcb02e03d3e02b8d3cb00af55ef0117797502df74f6028b8dad016892a102f567d103054de5000cd3d601fefc2d00cf42e400bc551401a1229b023eca4300e2125b00a0b098004e5ddb01177670,
  0x15778b01a8829901c1a2170376e50f0164e8070058774902de538f0201f37502036e96000ca861002fdb5001083706007127b702a1d4fd0213245d025ebfa3005e64e3029842f4010a93e0005bb249000ce221038d0930029b8e0e02b08e5c01fd4b28034593760108f6d600f5f18c018868a50328085d,
  0x2b8b83020a09c00319b23c0240fe360306931401522e6202e7135a02752a35036645ce0245dfa50035647800460c0a01d9f61e0330a2760151a71b03d55fc302243c1b02ede2850245d2680395f69100003811015370f60326876501e49dc402b0746403037a1b00e51456034c3916020be13f039f1388,
  0x1f898e01535f410166922002a0d32f03857f530285a9dd0366f29102f6c01d017efa11015e8bec003ab19800b49178035671c502865e2102a9861e0299e6d802db77250136aa8e005465110145761400272a4502c6ca6100565604031a0a6603972d11036582d4028482bd000b053b023e0fe003942a49,
  0x3ff31c007ccdfe00dbe93401f8b943008fd71d02efbc3b02ec608502562e5002f2f91a02bacf0c0029e17103bf63c40273912f02fc9b1b018bb4b503c1767402505c6b0079881002a2a7b0004294680000a10703cd793400cf9b8201bf82330230a8720195f25903b091a602b032a30225aa3a03482033,
  0x352810010924a702ab4e7f001c20e9003a16240026c49203aa3efc02b31b7402b6391b01e4f6d6003d96e2021debe600f8c4f300f45ac7017c891c01ce9d6f024b461501cd23150310f86000c05b78003577fd01a96d300361355a00ac9386015e30be02d99a1c0364656500c7e05b02220b9e02ee8de8,
  0x7525a03a6d4f500c621e10155dc8a016fd27b0078d3330177880c02b45c5b00d4f44d0299e0dd0004befc0359f14f016332bd024e688c0132c6460320dbf8031492e9000fbedd01b4827303d20f320035e2f900b5b58101f044ba01b9bb750293c4c10371303300abe9cd00ab26cb033ee2cf00e0d628,
  0x2f287303055a22029e84480160f8c201298ffc015a271002756e1e0387ddd900b42df1025d522c0009859f035d068700da2d20029741ed01db00320331ccb6017dad11007062a703d4f78a003fbef70037332b033c5eb3019deecb0043f5b6036c817c01733d2302e844d702bfa13d039ae532016ff670,
  0x393259036de36802034558001adaea008319d701ea840e023279e002bee94003cb019d00d59ce6000ad58b00da9c64023a3b31008dee2b028b5de502d67664020aec92030d332b02c478f501769c3000239742002a07fb007c9ea903d9c6c10339bded03302da0022927bb0168e80c00ff8a6101e08b61,
  0x2548f7007549cb01cf80cd02341175025c8bdf01977282017318f103039e1a00156cb50125f9e8000eb80a02c6561d0219e0020345e58f03c76c78026abce0009a321700c49ac401fd5d5e00dbb478002719f203bcbce6005535dd0182a354003df9580349d96202ffec8a02db24f10008628e02eb5ca1,
  0x2387c903bf7c9f022a817601802a4803e49ec100e64f1f0040896b02d564f103d4c7e400a345ff00235e1500a7cfc901032664010194a402893424001bd129037ead5c03e48a25009161c702ca075d000a6001014f715001be90f903773e190173597e0170dd9803e6cee800be9e38010ea507020ceccd,
  0x100b6f0239e49502139c2803961947036f4220000f59fc036a1e480396e2f10162e54102fbde320008187a02c358aa003d61bd02bdab9103dc51d0016acd900245e9a20399aa730052efb2004cea120029568203bb92d40053ecb00054a2db0397166c01ee9751008f8e3302a6e48600e2d69a01271569,
  0x1631f000e629b001a351fc005a221a00757a780084d8360309b628012d8ac502d3b3ce02a9ec8c0023c3fc015582370269795103ba71d50124e1f60275bb67008c46bc016b1a330267376f02a447130020840501baef8f017e80a902abb5fe00fc3c3c039c46a6030c2351008646cd01208a3403921143,
  0x31f920351ddfa0361f8480346130d0153f748032a72b9031f67590385028e03c326a3033f4b7f00027e8201532fa3019941200249776e00d13c3f0318f17d03c2aafa0376d3cd03906bae00c5518700039b7b0304b1ea0050022f004c514801f177e103d828f703198894003aca0d03a9c87b037c3fc7,
  0xa48c300c0b393011ff569016f0cd101f800fd02525d520168aea5038ca1140077893900388bea000303ac0256704802de119402ecfd80035fb16a037c0263016a73e5014f620400925577011944be003780c801d481230234801a02eacc1d02efb5db00a51c3d00d4930d00d73b7d0207bc4402a65a24,
  0x1b40ef00e3598b0082a70203e5dc8203191456018087d102b2ae780006c61801b40fa7038d5405002a3ca50135bbf50000e862031375ac01fdd6a103966b4d003c2a0800a3ce7502aee894015ea971001ae56d00f0efce0146d6cd030f5fe003ce6a5500323b4303cc364a01ddfa0a01372be4037772ae,
  0x8c35d02ef101a02a04ba601ea171302bb3f5401aa5e55023a70e50287055a039383f8022cdd1a00236859014257fc0125cfd400cff34900875476024a3c7a023cf88900ce2898025f32940246909d00067d7c034251d7020eceea001874d10342f3e30000da980226988d022e969f02aed3730150efeb,
  0x2914290373cf5b015cf1f6008b724303a93a6103565e3802fbc9f503ea20bc038216ee018a5f8b0033d54800ce80e803022544036d30a401942bd301c7139401fe7fad023803b90070c61b01921c540007f28002ac723b014273d103cc870a008fd6c803275f3701be3e9c03686a5401a7b89d00012517,
  0x2ab94600a549b201b62b670341477400d4f36100695e8a003412a003dbd27403015f2f012862a7000603b3005c62ed00bb6e4601552fbe0177757d00836a8201f2a3390270f74a0332a35f020642630033b928013ee84a00be498902d15cde027f6d670215d918020a952603578ad203ddeed50222e6e3,
  0x2a555600cafc81000a23d601a0de6901154e6902cc72de01dbb0130388eb5502222f64015f08e1003cdd1a02838c6e0218e5d50339e875025b18300177974f020fbae201d3af4401aa38eb00e08f8b0000a18203c4ac3a03bc3be6009ea22b0242b4e303583df402620ab20345581c03d62a80022a836b,
  0x3304aa007dc45d0012ee670332587902de724b019b1ecd00066fc4010025fc02ad54bd002664dd00385627005ec0430319363003661eec03dae648031a032e00ea87430094902602d784e9038c4dc2003e93fc01dad211021408ea022a288c0160d26e0186218103db7675001df27b03447bda0168e244,
  0x351fb003bb58d20383fefa01fb73cc0112d61902a73de600ed9406038d5192036713c7022fb206000b90e20328435003589de90026b17803c64eac01e94e9b035277e00043c3a902585f6f0376542700301726024f7ac1021b284301bed084021897bd01d4359d03c439a8015d18cc010280360088279b,
  0x3a873e0354235103bf9cb2028a508703993c6d01ac547f0281cfab03b7c9a60311f26901bdeb0e0010125b01c9c0e6026b22c70101f52101a404d80014dad700cb4c410351a02001d89e3601e60ffb00386e18020bc98e03f239bd00cd40a301fecdee03c7ad79004460bf02e7e7d8001a8c15007e7bc4,
  0x3d3f9a01cfb074035809400056911002729c1903a0200c018c0a230293fdf303d3ff1b02a03f530014c83d01845b870372c95e029095fd03d7bd7f01a3150b01bf507103e77e50011a75a903c3c78b002f6ddf0249cb21001465bf036285cb01abe3f7012e360503b14b2902b1d08d0144874c002a4def,
  0x3a4aac029497c602fd2e0d00f268e5018c922d018f11f3009702c901d08604027c2b7b02d79f16001e2f9402087b73016d439e000bcd75028fa59f03bc43cf0110538c02a1bcaa016f7db500142297002fe523027cb09502a5de4f0289d4640337ad5e0388f08203b219c6025c5652033e7fd200b05a06,
  0x300126018f371a02048fbb020c8e8d0158a49802e78cb6011512df01e17bc20178fcd5007bb5f3003da92c024aefff0097264202d7878a00deb6cb000fc1b803008fce025672e002fc06250337af0e002e395a00a3a14b012d03fe00c80a50033322a703a290b302af2bb102eefe3900147c5701553be0,
  0x313d6b01dbc57000faa705005d4c120303336c00a4ff22002051bb0352e2bf0314682400770777003a684c02395b76023effec03029eed0149e0f00166c969036a7c1e03249c2a0046c58302593bf70032e9a4036f8b4d03bc6e1a02e66df902c57eac01f4f3920285ef9302b6c5ff025de5e400adee41,
  0x7212603f72d9502b109fb02823dee01243c7e01a874b102c13335012b02ab03d91c1702ec376e0017d7ca00416383000689c301783a2e02475fed00f4bc35009ba83700ea14db0119670900edb7e9003496b502ed8c4003c82ed60231858e0297f312039800a302b7da2201691ab8007c6c9200a3f0f6,
  0x5c0d00279091f03fce11a0211893200a08aad02f02431012e21b803dea36602f9a4c8001a20e1000ca967034c1ccd0108770c0300bcc0033afb18028c8a7b00ad3c1c015032e603a0458701ecd91c00112f30003593590097cd81038d68f7037e4cda0065cdfc03d031f303498fc803c2e417009daf81,
  0x17dbf70390366700c1c7a90115743a0139d24f00f3babd03a19b21038d08f60370f4e9036585eb000c6f4e00656f4201d6f15002a17f81033268ac037bd6a20279144c002a869202ab3af4028a3d8d0015a0b9001a3bcb01a12b1b00588826004c6bf3028ed92e03125d23021a0a500100213300cc0d20,
  0x14af7102c7c21002e710db03da4dd800b742490068d628004ec6360053e9c302db578c00fc7d81001afd0e01861e7201ebcdd601c0459502ffc82b036d1a0c02b1770100aec665016b65b901fa2f350027410102e5c60303c24ee8020a1feb0200434702eb70d802bf16c1013ab675018b9e4500222d40,
  0x30c41801a245b4032f4354007b6bb60088d5c600fc7e6a01ced11e030e588603c7ea2202d25d08001d57cc008747060349a3e5014a396101210e7902017a8e00e0a97f00194bd203f62820031c01530036cde90292fdb30134c7af013fa192012d340d03031a42010993b2005696b60308e76f0073f9fa,
  0x20446a01375d0502d3c682020415c600a9cced00a710c500bac1e5026fee080160f25800fb7448002a7d800312727b00ce538702ede69f00487a4503ad8b1c031fc23a033621b7013f6c3a03e7bfd100190066022e7f0a00078f5e03dbddd9028598d70357d43500b98679000767380201ec37037cb5e9,
  0x2d3474039f3a39035fb451001ed1ba034fd58e01c468d70325b4b1006f2f8b0352a072013d32dd0029eb3200b721410341add30304022e026b2cec030e0bbc0334db0701ff048301ad6422015c50b300387ccf0009337002f881a002b10d49037d123e0214207c00ee1ca903293d690066cc9e01bf6080,
  0x2e1d5d0219ce2e025dd041039f5eea030dace801f2868102f5736f023ff04603cfd52903f03c860000e3d0020024500160ebad00d144d402435e760074f39b0289f9c0015edc8603c9442c03533e7f00215fb8005f75ff0254e78d02a7ea29030c727202092f12035a4f88002e1c9d00c88a4700b6d5af,
  0x3c346a0372e00502aa4bd602b34925013c0d9802f312b002bd25eb03601d3c003f696600ba32cc003bc288005da41b01691b2203c0addb01d5f922026e0d5e01722061021a2deb01e7b42a017fe6d4000219410090e32e02441ee0037e682302d1c942017edeba021eb68c00196b21030ea89b02594d16,
  0x21c75d02c776f603f986020029424702109616000fddfe033950e4030d91ed027271d203e91bce000ecefc020539ec03f90a1a032f6bd001994e1f010aa10501b813cc00bfeab201d3f4f700acb76c001eaff90057432d023e3e1f02883cc601ad083d01e7305b0203b9ec015f153303a8bd5a03a5bafb,
  0x2a5ea700d3a307002d0bb600503679013c4a5200492bd00057173300be195602b6bc930284f7640030e2f50289feb202a71e0b03d07c3f0365b06402e4a0b6024ed584027ce73103b4e5860165881400090fb1030fbcd40254709f0225171b0336c55601eb22ae02d0032001ab0fe50050b55b01f73359,
  0x275d700d138ac00d775930281a1e001c9b92900d8a9c901d2ac49017c57a900c2a179010e8b830022ec5c014525b10074b2b6021d709503ecfdf903c4267902e7b221006657b6018fc31a016b86e0000f901401be039200435eee030e84ed00d0f0f502b1b929038adee001d69f5c036a01a603b40388,
  0x5e14c01bddf640214923600d4cb0301c0ab0200c42a4a00876214005aafaf0240884102b703b60017a0ae02f35bd101eb6d3803d5695103b333d4027a3544036af8c2020f1c8d02059380010d8016001765db028d3944023266e801d2bcbb036eaa7300eda4280124f6cf0356383f00c6dc68011e3cf5,
  0x268040038fecaa0104c48002c537e6017c869c0223d25700b590520219be99019d6dea00e598e7003d027503e5072d01d6511e00d62e760003682b03e9afe4012735fd01c9151c023bb069033df2b1002781ad00a197e202b94d100301ac0302f4767c024a3c860222521400efdf5d01b88b9a01bbd611,
  0xea399037b3ee701b40bdf009d69f90302c0b2017bcc24014b93180225eb2502984fd900ae3b65000e4bd50376abe8016b76df0363c45c002a4e1401dfe9e9011679a1022187b103aa599d020b192f0029b35d013368ac030e165e0324c8b30367c05300c52acb00be07fa01da625403df1bd202867bda,
  0x3532090054aae200218b2603716f9902b562f200e4f0e603444673039914eb03cfc9c9016642bc0010065700f73fc601c1eb640373afc7037302d503c80d3a03b1877d0383631c02815d0403b450ba00215ee003e76c0001981775020b7751006d7d5c034f98a3035fd42202ebf72c035802ce02f35f69,
  0x392c1a03e740df014a8096021767ad0203720f025de4d300164baf02ac0eec017eae2a00592c4300211357024ee859024356d703ef439b00277db502f548be03156b330096757f01dbb0bf006af53f002bc24f014b3fb100135e0c02475ecd02640b7903a9f0f9005f5c2d02dd8e1202dcecbb00ae81cb,
  0x102f8c009c51d10382dcab0158c09702dd862203ec765b025630e40367e565037959e602b13fc2003bc6770188417b016b755e03d35f78007cab6802ad4b39032131ac038b01d8019f4f6900919286002f1f2a038306d4029898c3012f193500c26e48030271e300e7d2cd006a39fb0352716d039f55f8,
  0x175756011c65050390bd17016016a40316388401cc064200bfd1bb0399d62a00ffd7c50385d24b001e40ab0301ee9000ca633002c28e7301086d0b02ebab3e03cd713b03344df202cbf8f2012d95d300005339019af57d0256ff7d03de5de403bc97a00328804b000ded220247b72d0215cec0020743d6,
  0x1d77de00737f0603304ae50056904003b72a7c02950d3503745ac500b9dc42018672a203adc831001dcff401cfd505009b25570275105303f7097b03c0ac6201fc558602b50ea5012714df03c5f30a003011b103382acb03657c9101cd3e9d0093dc97008372a20380b3ee02c6352f001222840107644c,
  0x1a3baf026529750228805f0022a47600d1326701a84fd903c9774d009a63d703d4adb200472cc9003b9da30079c91b01a7cfe0014a538902d3cacd032c6de2005777810081ce4a0043d28e01cfeb92000172a102e4eb6102177c4101616f8f009296ac0017f5a502ff7132034e7dd40247d41400f52a1d,
  0x2b5c2e039117670094822a01cfe33c0106e6fa0093fdc900386da703ce68cf03c060d10243149c003d40b203bb4f7d01b07bb60172c4400041ae2703c641840025145801fbdb15022b610f005be60c0039cdc9019eb1dd03f8d7bb01363922025b54ed01073ffd01be739402f2ef9502226eb400afd2f8,
  0x39c2910198c0a40212982a03796e0f02f14f7f0121a63e03ab21e30308100e000783f4032bd64e00074c880241019200b779b201bb6cc80291093e00bdad120281a7b9020b0400003e2a1d007b645300193e33030bec8e03f6a5fb0335bb170043900a00473295002d96db01b0aa0000b12cb0014b0ae3,
  0x25d48d005c975003057c880201a6b902a079fd0382d2dc01b8ad12023ed03d02b844670180e76b000b5c3e03e85f79009d5a720293581b037337a801d9c8e901929e6f011b322f01446f7b01bdbd0d000725f903d36cc301cd443e02b0004b01894d240249af9c010b7bd800567da40039b474023bdbb8,
  0x2fc8f9032544d5017361a00148cfab00cf90c502ed2fd4031f253a037ac8dd00b637550301b5b10019b38d023a54ed02e66c6800c5faa40115172100bcdf4f01527591035521de021174190036a3250008e7200394e4bc0172c54b034d211803abefaa01eb761303175f92039cf774011838fe01974e2d,
  0x38b896010d67a00374a3af01c42e7301715642035eb008027b7aaf01478c1000f1620601102441001690a702d1b37e00333152022bde72037e32b8025404dc017aa81003896826026d02ed022ddaae00343f4f002b39b6005c912103bd1a2402304afa01ebb46c0178ab7f03a0fcae013040e7030605d1,
  0x3e250003a965d900f6be6c039e2f7c01258e5b015c53c3023082550206530c012585160317885700399ab5005a8dfb007bfc7800d519b1037b0405018a3715029a88e602c2c812019a1b1600ca7fbb0010aa2c02413bcc0181220a002b52d2020be91e033e0e3a0333d117033271230362cb0503622620,
  0x3fc2af00aa5dfc022fa9c201977027016a03e500e5733d03a0c040030adefb02d2d11c00e3ce230028b1b702e32b96013ba2bf001ed24b03b8bef0000b583d01f8df26023185a9004cc6d301611cae0007af42034001690009df7a02b4f6fa0315d89d011cc05f025f1bd002816b0100d4338c0147a76a,
  0x99c6903c3f9a302569c3402ab4b31006bf9690107060400b8f35b02f9c25d032f1dea0191b88d000dc9b303258e8a018f6e9701a8084b03909cc8026a013600239b7c0085e9fe0275e8c601e4a672000211070266637902a2a07403a8b6470050d9210059580e0291229502b3ce1c0305b538019e20bd,
  0x5a8c601cc683602bb3fc402dc01a30287033d01c198ab02f8b37c00e49baf02df8ce9039ae7af00093d5701757dfa00bb049b03ff3ac202cff1fb02cc4a3f01d3d5b802a2546c00c34a3403a1fac9000ee56d001ae5d400df99f002e5a06103bfdb9e002cc87c024494a4007b79e1022c5cd903063b2e,
  0x5229e007ec8fb02806750006d5c8a0377008500537a390121dd8000a77720007ca4ba03ecdf84003cf1830302a45501a8cad202b9531a035f984702573ebc0300838602f1c5790002ee050090c8a6002f8de803cac85003c384d901a964680191ae1503c377af024de3a301a8ee2902f48db403405d4f,
  0x3c05b60243204b01283e4803dd69510309ef1301a8db3b01e17e5101ef161502b3f7ef026b636e001599b900df2ef900dc0d6d01652a0102b5796400952d4f02ffa3f900c7793d00d024fa02b86ec10033f5ba03746f930051c93400c4d7030111c3880048424202d50bfc012713100354700702cc0b48,
  0x152334019634e001b2655401128b94017a347b016b779201d8ef970281a0d102a00bd103c9bf07001ba62b0360d2bb00b854010191480603f0189f0052163e00fc64b303239db6015a866f011cfabf00371e6d013f151200e94571036a7698024b90780006d82e00424334015a32d4005fc39b02ff3928,
  0x3938dd00a4314002ddce8d032b07980336cd6b02f44a5402157d9a018e5e9402ba7e520319ec290023b25e03a48d41026f0aba0227906001625a6701575b580081d1b902ede36401e398e202e08d5d003b7491019b803a0298615600d2cdc700fa9635038089130089bcfc029a08cf03934524038d2bfe,
  0x2d4d1b0003f3bc0030e92f01448de200b79dda029443e30296cb0c0184ca6e03f4c8e601b87d1e001ad95d0071632a01b73c44005ddf07013fa6d7009a415500d13868000ffbeb01097fd502392bc4003081aa0016d1a9013bae5200f9abdf0091f2750397382400b03d690036b749023ce36a02f580f2,
  0x2c70e9006b767b00030706026d3663003567cc020a7e5300d288710152dc3003096cc4012a4f4f0039e8a00069a96501a3f40a0079fa8e01dcbc39028e4cd5023b086f033c89a203da5237023bac95000594b70062513d034a2d56018ebb810044c74200c3a0de00b62fc102338e0e0127c08803431aba,
  0x31eb4301e260e400c77333026692eb0005f322015895a501a303f80185b8ec022cb7d0005736fb0039d0d80050eac7033189fd024e5dcb027b2061001e8d67035ca9cb02ad6c6d014d26e90304d9b5002eaefb024f2f0e01fc654f015700a301fc45a9015abcb5035fdfa00397635501465f2203c87bf3,
  0x1eef02033a842d00a569a200efde6101f64a8d031b95f603a35d1c032fd20803beef4f013bde79003c862b01b9fd7a013244fc0347159000b9252c0146865c00c7086801cdf6b9005bc1460154dfa9002846eb0149141b002f0ecf021622bc01ff290a027a97bd016362cd02d68a5e0270c45c03905477,
  0x359d54011d5c2b013214a101fc417b00cd2f0b009485080211412a025d226800b7223c010bc396001269be0172013903e758f101e7c65f034e0db60182f88b027ec770026f04aa000eaf9602c18186003b6062006b29c8029ca2d20194799b013a10d203aed57e036706610236aa0f000152d2006d89c2,
  0x38952703dae14a00602e12004cb5f7035a594d021ff55402c47423033de25503de23dd03b977d3001961e50046cc13018d0190012b251a03c27d6a020787bc01228dce02aee115012fa8fc013fc3ae00085522016b271c02c333c500d91e8c0222d41b0102b183031d439401562ebc029e056703478249,
  0x2c73940364fe4c03087fc0029fe4a203a99f570063688a018ecce7038a4fc800a01d1c0048902a002c251803baf2c80081ab4d0070f82a017d89bc03d90ae600c86920026f5ca20212a44d00cccb3e002a84fc02368cb303f71a70006f3cea0346361502311a8a028ae70d01adf1a703edf180006a8078,
  0x3da178026d1cdd027d8ef902bce9e7007fc2e601f29b3800630e0d02c75f1a02097b3f02272807003a4e010174a8370360580f021c3623039114d7003e5fa703ef94be023a8e130387a24f031f7057002f552802af5dce000137af003ff25302f3187a00e688bb00a75968025078a500133adb037bdd1b,
  0x1911cf02cba233020cc16602df377d01337e3e02ddb2860262747d0036021f03f6e4bb034f4d8c003dfe0902a62ae400ee7f5e01a0f600016794ca038ca6360155d3ba006c81dd014196f8034ca4ac0030928001853ba0003b2f080379509701f4fcb3039ecc6603fbf4c700becb9701e3226703e11d88,
  0x37b86b0219fca803c0add1001931bb00dd313500a6bfd5012bc2de01f7010c03736e9002491a6b0034448600206ad6031dd58901772a7a0310ce0c002f25380370150e020baca6027b266000e920ff0002bcef03639b3802e121a001907dcc002e9bf00201bef302affc27034b6c8d01d7d5f80340ca99,
  0x39b3f603df754c035326dc021f291901b1877801bb55cf02c2de7603db73dc02f91c5102a998d500232b38038467160151545c0154834b02b1d5ac0246bc76035fd1b8020841d301ad3cc80120f9be003bd0810231a92f0147c8fd03ec11a203aecd5a006bf289019af1340126d9ee02fc995602f1995c,
  0x1d024202388a5401375c3a0184c46e007a6f1003e39775033b668100e4bf0401d98bfe021e2b42001b16a701d704dc03d78aaa033b1bf403541d7002f932c0003b1f1800379c96002dcb7a00f2930f0036a87501c19a6d02ee138b01656f37017b7fd003a4dc9302a77e0e032cedb102bc24bf00789d51,
  0x3092d02b838c200b86e0501bd2eb303a37db7019175c302165d960166afa402972d770024f5a20027c023031d4b4b03dbfbe80016ccd60035c1cf03ac481e000078a1010a8ca002de16a303aeb685003b930d022cfc1200a55e4d01aadbf503fe9c9200c386bb0321907a00b51051005baf2900e33924,
  0x3162e001856437009eb293012380f403a20ca9015d1f140319677d0384ad07004db56500519cde00253c730010957f0123a0b10192b5470124419a0327872200707af101f81fcd000c0ee4019f2b23001021a10171dbfc036c3a7f027d3c31027b279a02359fcf01cd9da0026f687501a37fca01862cfc,
  0x16c003014b1c71007e25be0028602a004c192c03491208001a43df02d7089e03ab4e6002386ce900269aec03dd6048015b96580136e02100223b0f03c5769e0217d54c00400b6e02e54a8801cd7cfb000e270301ac546f0266d06f030d5496034621890251e57501b1c9ba03acf51001d89ff603dc1902,
  0x2ea898015bc11e0211c10d021f34c800b04364017b455b0166f1890345b58203e85017005127c8002c298c016fce9300df802900501c9b01b93888004e0d2500c098320361724200bd5c4503d073c3001b2bce017a55f201f30f5f02cc1ba501779faa01a9c9e3028b862c026375be03248a18012f4d49,
  0x1cbc5e01027dd50020c9e2003f7f1a03b13b0501fa85d7018353310369f5fd02412b59007286f100291877008abfbe0214714c00e08c8f03d59c1602d9f2910045657b001bf29d008899b9021ac92c001d2f52008f6e51004c8b0b02af69af028c75a2038bbeaf0333a4dc02429ecb02542c8f03d93cf0,
  0xbdc0701ee02a202fceb9401a0e97c000a730100e5a34a022f245d0291510e003a5a2202fa89fb003af1d50253bcc30113d15400e42cdf0208b253017f8c9b0222d7ca01a5629002130cd502fc039700111d3c0299c6dd029e01810263697e010b9ac0016aaa270159da6301850916023e96f7009f480b,
  0x20c39002a5a58802243b700179500b00ea0a1f0114907703cc612f02e485370111b20501daf78e003fd45603ccbfa500f8533d003d7a850000af48008d3964038562e502dbe68e0101f865039259960020648d03c058bc02ff347b00aa24010357586802d7538f0337a65901d996ba02d09dc50233b8c5,
  0x20347103f87c93034658a4024940710125000e0157eecd02bc001e007fa92a03155c7f02306d970010a87a029e50ea02d0ebe202a05bdf02c127120254ee490090265c02f887d7035f5f8b012755e7000b695e00136c31005366e403553a5e03fcdebf00f48192011f687303a9381700dd69e3000a1f52,
  0x122cd50160f7c1000903f703d4003301dce9160237c0be008e18f4030bbcf7023adcc0017da9ee000a045501f9feaa025328ca037a7e3e03110cd1015676b300cdfc9103c5c6d7019541ea03ad6eaa0018863d008b139b01c2f08a001ef9b502bd903f03aee8750296e65602e7b85e01970b1a02e02c50,
  0x1ef15d02ed4676021e9afe01e6c2ac0243851a0106ce4103e289db028196f503a464b7011d74e0001bb86201b8829203fde7f1025160fd035ce4f101d4677e01fca80500f7922e00826890011b6105000081e401f41a5701952e4d03657d5902c1e8bf01976fb70064462b01f68f1b00b36e830322d115,
  0xaaf5703e252920052531f003c22c30092da2b00a98ec800020f9a00a07a9e0306f31e03ca8dbc0006779a03eb6b4d03cc7c4000de7d1c0173f3300192ecc803b60274002206140122033903260ad500041a3803d3478c01dd513202c8dc1303ce60c100673d590187bd4c0211b46e0131ca5801a43fb3,
  0x3ad232012e21a6029c7b5b02c8fc12022f020800d31213000d76eb01033c4e0095b837016c50d1001da5cc026663fe00d692c7027f064503247c1d01fc515b038d56bc0105b3e703d02eb600959b4000385f3301d0c8260008093202c91cb6023db3c7020303c5017288f901ba8ee100de4991029f399c,
  0x52c10056c0ea0339232c0024b33b01ff03e400381909035bae6d028544e7019b5b6303b51d0800176e6f01ba6e920322256903354b0402802dff00db6d5301099f4b000fed50031d8c5c01bbe4ae003f5c6c02ca3ae900908ac201bf8eb5003a269600742cc2010cabc402fa6aeb01a20e6d01951708,
  0xe3b420067cae801c07da500d54d25019337e8008eb22803e5acf80296f87b02ca427d01a50933003f5a6b02bd255d02e7166203295a580154844b00733d950304139901d8291e02bec76c0060c1e90008f3330053394001a85cf9031f70be02e762ac01c5e7bd037a4ea2035a2760016da07602d2deb5,
  0x3b77d021407e00346709d0259a67800f1384501254d050115b87c026a93110144926802f5cf82003b0b7e01ff8950000a8615032565660207ba6103cd808703ca4e2a02433d0f03bae60c024b5976001d84c501bb1a34022c0c66023e2d930116f6f40327319602e26d010253fd71013d0ea4016ded56,
  0xe05a201de36bb03649ed5028a7f2a000d16a4004b2a34020f1b3103a0d6e902115bd401e11e820034277f0071074f0277487900ba270c01e9412c017ebda7036e55ec0154137401270cb0005692db000ab389037829a8012de8470032b6f70273d0c400914e7c029542b30244f08403be85c301ae015d,
  0x3d94e2003936fa00cd880b035ce41c0234f28e01eb0aab01d42ff8032b15ba013e215d03baa6e2002d8024021b232403ff5cbe03192ae00374e8b900bbc13c0051351900f09cf703c0cd7e01a0a9ae00209c6d03e1d06403f4b01a007a1d2a016393fb014fdd3f009e4a5603d602870164a6420251218c,
  0x277ff3001de12c034922e502f2f1da02ab8b3c015f90510397648701fc86aa02da976b003fe5f300177f6603c8470703d69cf2039baf00033dd640009b394103fdfaa7002d9ec7016db99e01e5dd9a000fe49d01a6cb5b01d33dfe02634641002156ae01e8f10102e3b75400eba4ad0265640600344942,
  0x1c806301fe4a52006c8750018d8a37001616d40048abb70382136c0185573401da63e8019aa87a0038bd3003af2d2b0057ea14021fe4190250079e03f1b84702fb667303883c72013a558a00d602010033116b01dd034a02cb704a028f3fa101d58e9c01ba6340000d8b4c00c8a10200ffe3fc0339e9f6,
  0xd9f3c03dd3a61012bb3520286adaa03c4cbf7006e55eb03316d9900a82bfb01f8e76c01b8a20b003d46ab01fdd6f200a2f23103b9322503bff2ca01a544680115765302db4d2b020b5be0017f551500121d690194b923035840190234f2da0184fad303c6fff502bcdc4500b4fc620005c8710337cf0a,
  0xc4f1e02c183470336b2d301cc408300ca984b029e75840296df63012a225703a4970f00ba0516000ac681011bf04d005a7a3c022757e3033b275c03027b16010cd3340062aaec004b6eb302f466ba002721a00307918c03795ac8033483cc005f9af502f2bceb016c1fef01a311e203b3b48a0143e276,
  0x28005500fd773400553a8a0340135f015434af0141d75903ca6dc600d2d594027d7d8c019f2018003a159a017ed3ba01081f7600446c2b01d1aa3c03da6a1502fcf337031e38de03e555f500ae9247002ebf7a00b3797b00e8b13d00a26c54022ba0f400754e74007c4eb701bddc21005bec4c0240ed37,
  0x3011ef0034d45900422dec0199ceea0391ef3a01057e4a031d942e03cda3ad03c64f7a019dcbab001d0614034a7e3f0024ebc30118228400f878db023ab8630172d6d9010fb57803947ca30358cd58002ce2c00195904202abbab8031fb1dd03bd3e7501c532b50068ad9d02b8cd1900453653021a866a,
  0x15b0060336c6fc01ec8a97002ac3bd03113a3f0142a03002a7645401b187b5036198610266a9590026eb0b0011414b02e20ca902904d1b0133216801e3a81501b4f11f02c38afd01c206a5030e59cb0016f7e5014af61b00a1137802a2db6403a8635f01bb057a035594c000bb5f81009e4398020c9cae,
  0x370e65001a7871037df5c200b3c7c6020fef18011a643e0251c20c01a2bb4a01feba1102c930f900111b5402e166bf0111dae102d10ea702de97c102639f2b03cee42900a8aee9013094140339942e001f58e701266c55003a266f019ec4e500e92f90015d4e100128301a010df5200301950303c73c96]

/-- secp256k1.go:10, serialized bytes 614400 to 645119. -/
def tableRow20 : List Nat := [
  0x0,
  0x6638e00ac1583017dadb503ec1df70253d32a005926be006d7feb02af8fea01f2a078030b0570000ac72502fc8ef80073a44203b3c51c00add2cf01627ff8026243f002e6058b00e42bd2011ac8850026c6730311da2b02d358fd0006f84c01869f7003f06b72001b591c02afd3b00061d54003c42043,
  0x9ce0a003218020278ca49038726a5018790dc0281d3ea013d91d100fca632023c72f60248891b003de1e6006fe9b201ffa06c014896c000d5bdba00133250024cabe70001c01c02731dbb02f864430004304a03c1412b01204209010760b401023a850096a5e301c491f801f54fe803505e4f008f8e7f,
  0x38956b001bf35e02dcbc2001e1ce1d038512a802524b7400634e1e0049ed93018bbacd016665e7002bc09600f8e6ae0299b0bc01f0a57a01628b4303c10fb603ae29a40087e52402129e8d01e9c4b300342aaf038151ed0301d24700ecb9fe016915b80270082d03ea7f58022e91de00f4ec7601afc24f,
  0x1d482101359178012e7bf90086c44b0151f35a017f54850166a8a3004eed1d016caf40002ac4d3001ed294011c6f3c02be52b20380bbe602f5986402de036500a7e8ce0313e87903dfeebb03e9ec49001a100d03f1bc28024ee98c01cb7b2a0014af0c0236499301e6b1f1007db56e03e0d019014a56f8,
  0x34edd000591659008a82e003ca17d300bf972a03a68bb703ddab4b0191b2ea02f1d9a000061bf2000823570208f8b10079680b02946e420064753102e02b3a0080dad400de60e60040644e02bed0080006d579013e460d03832c500233b07401befd7a00f4324600916c3f015996da011453b1033915c9,
  0x1c00e0034d61d40232009402a0f8ff009c4563033856e602868ccf033ab0f202de1eaf02837f48001138d90095a80202ab6a5d016fa2d70177607b033651b0005d8b68037b1ea700d70e4200b7b0f5000233e003fc776900db15a5009b59e1012b044f009aafe0036c7fbe010ccb68028c1ada022adaa5,
  0x2ab814027026fe03be2fd201cdf80c00e4e55c030fddd4029b7ed4038e9b730363f35e00c9654800263eba02c9b0b803a6a61c0273256303f7bb6f0372c54c012ff73f02f9eba4016366d1019770250012d686005f8b2802cd74930222b7fc032320bb033053230006b8e403740f2902f116ef03c7e811,
  0x34995200b7dc5303912d5202452ccd0224403a0309639301c24f52001455d102d67916015cb63d003ac55301f675b5004090a9020579dd02c24b2a0344947402c55532012a249903244a3d035190d9000139c6020aa67301963e7502a13ed301fe934c03fb38c901c5434600cd1e8401f1c93f03e6b95c,
  0x3d92b7033e909202cf0b44011ac9fd00aac139010c02e4008bd9f501beae3b03eca30700663217001015fb011542b4004873d400a7f29201ce742000119324004bd9e00037f9ca02411e3e031c863f0027275602bb5c6700a922f202d042bb03c630a002a1d418038a893e0263c32b03e844420050d186,
  0x29a7c0224865c0046cd1801f59eb50304bb990196c5e4037427e100e7322202b76ea702103361002baf4c01296bd4011b09eb039fa2580036c83400d6319c004f8332037bb38500fce3ca015d5c2100350fa60106aa67031bdd0603381bc5006f5c7502e4a6ce025ce1e503c51803025b8e8102da9593,
  0x3749bd02e597f5000bb97d03c6de3600ce8cd5023a2b640342264802b5a1b4038e06e4029c15b1003af8360094ab13027d5cdf03bf252e0155b8a103da76560225806800d87bb2006c6d5c03494c48002572db037fc08901671170012eb53602c1b96a0078ad9703a06a30001a1740017cc1c502c60f14,
  0xed45502e9bdc902f09c7702fac7c501c67fdb033a74180215d2b10344c3af01db0a6902f623d8003e93e303637cfe032fc3cf026c9ad002134e360217e0780271f3d0012cebd101b510c702fd8e2c0008d50b0379e7e100cf9d900177660f03ef865d01a7ed220183aec8035a386b01b68d0e03ac704b,
  0x9eb1a0188083d0129302801d808dd01bb3da4013a185f00fff87e000994eb015968fe004ea06a001bd55c008059270233cb0202e613920022b9cb0099e3fa0216c8f90284411700279b2402c1c94c000c1cb003c8f495028eb76701b5ed5c02bf7e7102f223490310c8a5006ca18c02ffe83200c556b8,
  0x313f0901a0120f00cbc4cf01008c3400838a58035b6dfa00894c40030a50c8025cc90e02f6b5940034fcc402c36abf02bbe9a003af3ef602ab7b290136083801bfa869039ff0780240214700144a2f000e2fed03ae291c0317efe102e0ff1902c909c203ad51a60283ac3f00b410ad02ba0425020d03ce,
  0x35a8fd01d6936101b2b14302233d61010a500503b76c570115fc1c02cf3daf030732a70263e8d2000c6c14017edaaf01b767b503863ccc002c426b02194379004dd04203e2e2ae009c655b0180cd6300177428033f2f5a000f461c0178331300c90aba00c6242b00c5453a039a169700d096850057cd23,
  0x1801250270779401704e4600908fbd020e89bb0011d5e701d287580221104503c7536b02af72f900259475002cf01603697a4800290b45021a56a20286b0000130fc1502d4d3cd02b1eef10096ed12003e6f1400ba25b0000013fc00673c6303f6ad8f02cead9e002d47c80327154603e3bb3e03017968,
  0x4b74301dc8dc701a2ec5e01d3782a0053704001dc65170251531f000a9320002903f9001a381f0012591701da89bb03ff437a01db1f6c03399e060328d3e500a4d8e602f9eb5c0292547801ddc20c000500d501c4426902ef91bd00aa770203125ff80305341900535be1000278a903e8e2e600c58f70,
  0x32d50f0309d15c02c755e8005f411d00c9f251031591b70296d64b026621a401877d440212052f002f5edf010ee81102c390520048f292006608e20386db900359229900cb7a4701f7165301d69cfb0033af31007db55202982d2d03240ab603511efb01d4055e03c78ee5018b8f46027723370368bd35,
  0x35240a01ce247e01a777c8030a0a17012dcf3501d164610209c4f0027c8b3301dd5ecf00375c5000036b8b020a3cd503afe50f02b49b99002e9f6f0238dd6c0223380a0077161102b11d2d0316add70018fa1e02e9589001e980ab0309ba17010af07a00b2c1a401d9363c00563904011f506202997bac,
  0x26a335027ee26e0322e082014d0f4603b26ea203b49a1d00e5712f0366b96c0272128b01fa97ea0020d1f803b8e863021c2bad02cf8d5600215d91017a052a03fa154203705d2a01bd1cc403bb79310012d5df030513f902422ddf0009c3c80388886d00baaf6601b8ad2500514d6302fd941b00982fdb,
  0x3e5cd802b03c7900354d1402641a1d024e829b03414f480223dd02022e1e890228b91901de4bc5000028c40286df9b037f4fae014ac0df02b1824e0115a47101b3ebfe00310933018577320340a9520037fe6802fbf37c00565b7303ab2cc001cff96102c8fb460216b1180166799c035ad851013e4e4f,
  0x3d0d5f01c5f7b30289140c0266300300e8029f00fe2d2201a7b9cd01e2f2fd0375f91702aabaaa00278d9003df2edc012d0784013b40a000ef49a500535e1402aedbe603518ca201de24d402fb9eaa0027c8bb02c833ba00ccba6e02db5389024ac71d03f565d8028d7b8602605e22023320c003f9cfb5,
  0x1409ee01f940ba01859247022cd44100ff4716033fa56400d9566a001429f700a9fa5b039b4031003a434100a322640389c87001a1657103d611fc002c39ce02ff858200342aa6003c0a7303e871e3000353e1012399dd031380e300c0a43200aae89403e17dbc00e4a98500ab35c502be5ab301722483,
  0xb92920093287b0387be6703bba2cb00285345031e18680050deba0110c61a016961f603d3c2900005a63802511125004f490d03b4f491016dc351022688c7024fa254018069970361847d02abb4a800296b95018c109903ddff1f0341bb67031d5c4c022b877d02fa1900001fb48f0257140400f3dd06,
  0x32f9530308946502466042001d854200f339b200b6074302ed430900ea400d00adbbd003cc62c7001e5cb90264a8e203cef6d4038006d403a604050141f36601f3c63e01d6ef3600e1336002e37986001f7ea2021db9fc03519d6802ba1e9000d4f4330095310202cd9b0c00caaa9a020ece7400fa8936,
  0x31248902418ee0033392dc02e1b76202cc85e40072dce900fd8b5103849811007e69eb02d57f1c0011b3f80389848701b7dbae00927fd500e7b5ef02b006d303f463b702a07dfd029486ad03493dfd002d078200988a1403dadbd7024452cc02180bff0165434f03c4a44202c5507d00d269dc01b765b5,
  0x5b5a100095fcb0162910f0276f96a03ed881e028a52fb0284e09901d8d5a803e21b7a0364c2ea002f02f100fa1b0f0257ef150298204603605b7c001ecb0c021a65a5039c06c201e9e7e50257e87d00116cec004a3aba00ec829a010d7bf10093bb7603230d63021d4f670336991100f67ed4002a9dac,
  0x32ce0302a194b800da4ea00002c0b2019171e4012580b702a34a5e005962890167bb10027fbd6b00086ce100a5284f03b83fbb00587b490019c53900fedc04036e71f103530050024423bf02d17747000f7a100240da6c002f4ed103d17503004ccf1a003cc7af03d640de029a22f700385a2b026ff752,
  0x111ae3024a24080193fe850381350203ff0c1c0095ef4d035d19410117a66b014e01f7019104e0001af55e00a9172f034684f6030e395e004ff46202e10f7e03fdafdc01373cf602ac2762017fbdc900124595027430180337772e004771b401897470008f8b1a004e854101297d6001b9d4020242e72c,
  0x3fdd3202b53774004089a8016f478d037bbe590378d95b03b8c9a20086ab7d0299bc2e004f8e52000bf9bf00d3d2d001bc897c0207fd5101ddb9e002feb7df02029be201edb09901bde01c00db3cbe00253b9f036df48101932e3b03910dd70195eb6600bce74201ab8f0a02d52a89009b8b37019c8aeb,
  0x746a20387abd5016b98830194d2d203dd0a4f02a2f5d6021d91b301f4a0ba0228413b0384c71700062bda035be21900a6cbb1030d62ce0099a516034f85400133e186020f0c3300fc87c403c400c10038287703d30af0020a5a8e00c2501f00ac3de101790613027c2d5200e4f03f00d0ebcc027d5581,
  0x11434801df063703b62af902fb566c019a363e01539d5401999bd001416e410129e3fb00b2bb69002f0b43024dc06802f0335202d8b7f900a17ef30172ff4003101ccc0263613700b21d290370ed9700084f0402b70c2e02527c8e0023022101501ff2026c57450293df1e02f5c8af028f283801bd8ec2,
  0x2796ad020b37430388a777010634500081a17c0364667f02c62d5402672b4700ae284602a057b90036b8510134c03a011de7c400e5ac470378529f026378a30316842b020345290074a91b00210aa7000c625303dd7e3f0256e145029dccda015bfaf502078c3700de2b46034523af01cb9010005a77fd,
  0x2217d301d70e330182ad2001866035021cbde603309cf501884885000875f2037ba62300ff51b900303d0603b7c019037f5cec00b1986202d051f203dd277a00b09e5b013d6f8002aad24b0243785c000b2075002f2a0f025bbb5b01b0531e0144ee9c00555a88012fc2c902a93a2802255676022f87ee,
  0x11794004d781203843d4901798d7d0291954f017d16ee03995229023e1ff701a8e49502d45345002cb37e0399ab3c01b7e91b0238ec7302cdbb910259c26c000edfa9014d69c100ea3fe102575f030017a41d01d1922a017f508501d674c20251a0fd03a57b34023eedf90302782d01aba45a00e9ff90,
  0x16e6af0034e48b01246e8503b6aada03ef1463015656dc021fe1e8015352fa0275727d020205580017a103026fbe040081c1d800a9309a028e4a510337552f026428ab01511bb201c4c9b501e0fbe200183df70378137602c0653d033d214300cbbb91006a0354002a7c31017d90fd0149224303d15fc6,
  0x163dd4010e05660122022101a6c84b00609f3902d29c4503f1b08d013d2b9a0389d0ee0085a518002f91720265dcf6037310d9030a42850052f6a702e3157d01974957033a0fe601fa832a0011705e0002389f005b510d01f10ef503c5582402c1651000f02aac01c7e29602640c0c02b2274400ba9674,
  0x38271a0097aed400969f5a0280edda0325910c03b6060a0232a6ff0384ce6603e8766403b34e5a003df65902e84919002d3a12039887f002d053c4013323cf027c646a0265e471028b9989000d32f90023b34901c7f08900e5cadf0084ea1b007f228700087fe2011f06a603a8f24303069ba3018aaab8,
  0x3ae2b20152a78c00a8543000347afe02d98b5302dab23a00c4b53401e468330148525403a9e7970000d862029fbe44034bbbdc011a7a8a0235e0c60182035203046f3203b8dfd003b3f50603526c42001a627103fbc94703620697033ffd0802cbcaf6028c8e7303f36d2603fcde500242538900d0f619,
  0x18cdfc0029f66e02e49aff02f82b250393813b02f756250146321f038288e90382002400b3a2db000e35d402e23e0e002338be003e4cac002ab3e302be76b200bf840703e5aafe0242fec401cbbe1a000a2b7503fdb29201f6c577035d018a00c5b820022e657c03fc1ff001d55bcd00375630012b4a17,
  0x20d8d302c2e6a201f4fe3a01ae7390013deecd02d9112d019f4feb0316f9df0350425502395a290000d45901f92f38020b092b0333b59502c4888600e9dd5402b1c0d0027e7b0403efa0850041f2800019b86001c517e1012a11de000cb215019a7a6d0333e5ef00ecca4b00c5c23f0123736a00513889,
  0x2d5c3001dddfd702385fd700d2eeb1015566320088ac84009c09760037e258012165ea03fb91fc000c3c0401bb5d1a030f8c1901f7f71f029974d4033fc9eb0165b99f030c627d02964ce3035ff3e500231c0400872b4b02a4607303362732019cfda4036dcf8303e47f400055551003936dbb023ac55e,
  0x20d6c503eea54303ecc9da0020c124018807e60182e23c02ea36ae036c988c03b59350033d0ed90003e644012a918100f5b36f00a4431102115fb50307a04001bb4fc70295ae3b02139a7500d424270029a32600b6f678007f624203f72d100394d6b300a591e5032a228e0389518301de0e18025c45ad,
  0x36168e03aa2a3201a1db7c0362f99b036d34a2016fddd3034928770043b7ad00001e6f03f2a770000c4f340151118301915670016f368c02727e11020999e300df8bc50088a8e80376c7b90169dbad001c396402a86a8b03686f0503932bf101fedd990317a33f016cc14800fe558a02af4f0d01e7ff3a,
  0x17833e005a9e0c01b8ea1303d150c1027f146300aa4cae0073d7b500b0ed7902e97d8c02d14c2600228f55019b3f8d0066084c01188d89038d152b01f5b52d03c08a59021287a6028c0670034ef8f100249a3e0130786b038887b203e8578500fdb1dd00afcce803b90b37032b24a801b5f9ff0176ac1a,
  0xd081b023abac5039896aa01b818b800ef8d80009103e803f3da7e01a8c26e02e58f1c0388eaf1002b82ab00c74c8803ed77e103257289031c819101c25b3a0104c3700369e263007356d50125cf49002c9b37009779e101c7720101f4acf403412fe203284cc801af1d1101d1c16201bfb742019c7581,
  0x22fa0f01927608026243ee03f3e1c400946b8f03795b3d01de148a036fa6bc0165219e027dcbfd00165f9b01b9c89b021d0b1603db64e502f4a582017c25d601de628c023fca3203acbf3e00a56444000a2abf03e70e78010e747f0213605d03cef3690391511f03258e63021c1be103224c3a034e6a68,
  0x191c6e038e58c50173334a03e111db02334d1b00b974ed015f53d9019d7d810223319a011d46090031dfe0029285f401c72b92022280b600c919970273529901dba21101814da30100036a005369c6001be4150393d1cc030eba9902f269df01a324a7016dcbc401c69de90044d4960241ec1703b7e9cd,
  0x13170b034741a002b524db035bdaaa0024da13015ea06b02dcb9a70090add800b124dd01aed679001936e001d8a5cf00be579701240cb70226ee480310edaa0340d74c01a61a560344ce2c0153fa3800093494022386910089927e01dd5d830146686502a028790191e299028415c900dd9d0000f4d7d2,
  0x3425f702ca67d503d0836001890a900348551301c89dca024bf3d6036842ac006ca7d80090c3e10032a21601e2831403afb9ad006a8404032f202202cf64b00017ce510106857f01e2bab603e652dc00103daa02dc700601bfddde0001143303faf99c00ddf5ce03022c01017b55e702f3259b0294abec,
  0xd862403407eb7026db47e0039eb3203bbf5d0033a1e93017400dc025e4631024ca89e022c765900267290004526c800de4fee003e402c01808d9802b8d28601e25d2800a29340029bb283015365e8003b885303e5f40a00bbf9900205f96a038fe7ef010ddca0012b7d8203c09030039b8009014e7fc1,
  0xd82af0295e2fe01c94460023657e301d4888e038ab4f8028a83340261e20b01d3c3e602f2a962002072790318981f00fab63d02a5a001034788a803173d8b01ec49d0028d43ad008a9abd02ccea83003c9072036a214d02cbefd1004761c0039ad867010318a80024f0d801e9b41b011794c80283b96e,
  0x3bb0d501646b9b000516e50220c8150298fe440378fa8b03eead5e0157b33000d88fef02303195001a1f600325ab9800f34ea2016e7ff1000f3be8003816d5038f8281004e9d27021dccc402ab13c00022d314037d23cd036347db02d356ef03544342035fe6050063af9c01c2158602db630f01902187,
  0xf2f7f000018e300826c2b016d8e5c0331e62100599210024f454e031e01b90259e29e00d81623001ad47502bbf7aa00e983f3020d9a8b03f529bf03ff026902bdf7b701f88ebd0114aaa701ab13f4001a10d301bd443e005b2790021f481602a1463400bff52300e2afcc03254b9e000cf911012cec42,
  0x5165b0363d1e60194f0980163483f028914920088094202f01bf102c160130046a74003dacbcf0013781700f9418900f9e782027b720202c028fc038752a6019a39c2015618950170446302a62675002ff6830294a85300cbf2df0263a7d100b844ab0274cedd0385ad06003056a90161f878026b06d3,
  0xd7b9f003935d50268751c00ff4539027aa61202cc1ca8031e871f02304ae603cd0bc90318719a00395d58004511070364b34702bd109e01b6253402d45f67032e04c903fb368d000877730063093c000f0c5801e09fa90391057b024be6eb0143c55f0350aaae00dcc2ba00da402a02dc589d0391041e,
  0xb428901ab235f024c277001a7c6bb01ad07bf01bb388203821bb801ef1d4a019f5ba201dff3260005356d01d0acbd01dadbcb039cc484015fa1be01be1dce01b3f1c5020f88e30199c4b000eb23d6002b7eac0336765701d666a001677c1503d4f2c10112b44b000d10c50037213a00ccc204029845ee,
  0x23462e00087db700a29bb4037e0569024ec9a8019b85bf01c634e8000de9a00237a118018bff3e00369c9502d2f16e013897390213635e02d295ea025d77f2014b00b102c6c80001ce17170036dedc0014562a02c11b7d00c0b75b02a322dd03524e6702adb88b03b99a93007ba367019b8108007c7beb,
  0x349ec02cc836c015243fa031e3be003f3e25e003349c50140972402fcdd7301519141022c4b4c00219d1a021ba13b029ec98e01a3e5bc0199be3000ecb9ec034d429802e34cb30242fbb800c829e70039f6de00477f6001ba1cc7034c743b02f7b096036083e000560521022f27f4035146a60352e8da,
  0x52bf101bda0ea01de8b1201bcaa5802b122ac002f0ce201c9a11b008ad4ba038de80e0122a30a003bfcb20013ef5c02b251b002a2ee7b02bb0d160319f2860251cfd401f8ab6b0043db890170846e000743bb00561d71019f0237036d2e2c0007fc7e03f1fa1700bd7c03010083190327547501b86050,
  0x104c150256fdb702173313011aa8dd0130c4a603b8cc5602a3081d0324ea6f0343e4cf005aca9f003bc08403ce72aa017c6e41009355fb0007e0d0017de108008cc4d700c1fada0205f10102f4775000202d110340913100e5565501cc7e610351331a00868fe5005457db013bd8ee00a8585a02f01e04,
  0x1e73a801db614501d8f8b000bd9536022a559e00696237012e01b1004ac4f4016084cc02496c5f002f52b5026eea2a025d88f9033718bc00ba14c0006814fc027363f401878023033b229203be2cf80029c064031b76f702ddbdbb025ac0e3036e794a0126d140000f2fcf00978d9d027c6d240381665a,
  0x4bf6803be5f7003f80cfc02d31f970140c0b90307f73203182fac01c501bf01c569790264a6850024fb1100a0390e02a71fe0020126b90085ddba00deeb0602e23fab0173ed3b01b3b754015ce7050019cd98031a87cf03b2f0f7011ce4ed03bfcc76022202b400e8b6d7036246380388ba95030644d3,
  0x31d0030012308301c3b8b400b709eb012cd523038bcd3f006d3387005139e50230e8ab009b381200132dc30197fdac038c6f33004716f500a4eaba01790cc8012cb92f00b9d6670144db5a024a7d00003fbdb600b6ba2c00628aff00f1c819017f964a02c62b9f00d09d6a000d214600493c5a031fa177,
  0x3af3040046104801c17715035cfc2300ba4b24030c246700aa8e1b01c32c02035699e1033c2673000d51d900daa57301833fa600b5f0bb025acdc80275503d03ce54fb037b7da003cf2fc80064606e002a1b83027f2c4903adfd5d02d73f9202bb6f3a01a12328023c07d20349bff10080ad0301413034,
  0x45a2f00bc33de0209527d0282bc94017a64fa000097d20219ef4002db05a000bf75c703c60c68003ee35c00d9e8d901f3029800286bd302b3215101a671060036d58401bbc2150238d37d03bb5ee9003ccc8b02b2adf7008d881701ec69df033dab9a008b81d700cb4c5c01b6d0fe03f64174018df2d0,
  0x3b09a802b3e2cd03ed2073032e885400c9e3440323a94503db86cd030e2f5f03120c7c0249e18d00252b790162e7b90303b9fc00dcbbd1017050390386f21a0023747902b6f0ea0006652c00e8123d000cd5780381609701ee531303482557002aa59f029f20110110aaa903aab07a02c4e1b50269ce79,
  0x444520084969600f1ff4d02102d2f037a427602d5567c034d329d01a23ea6024c6843037a2c6b00150a1103d5120b01d1712802387c6403f8c10c0291eb1b0033be7f01b5b3c501278f6b0361a2e0001c356401e2d42f02b269980202ff03012ccea6023897a700f68ae6011804420234a65700805726,
  0x3ad56903be639b03778127017e087303ef586f0088d19101364e4f035a9656025dd4c5026320bd0007f0a0032316b300c0ac6403a0ec64006f6946016b3dad0381268203ed58e2009a771b03c47ae8002c9739002df010025f8ead00d947b903219078035d9bec0029c43601dc0251000f52e0016494a6,
  0x3397e902e7b3d4010914f4019620d101b9fb19037580f401a7c4be0339fdaa008467ad01d66b99002dffb2018ec3d6002a606902077b05037e1a9f0305fe64017b1bc70044794c00efe9b703ca28e50024e161007d7fe303ad50e9039e0c8003025be90009f73d00286fe5034af788038324d603f743e3,
  0x340a58005e8127027d320802c21f5e025da6d80181ba0201e7b0e701bd04c801aaab6003d7f58b0009eb7501ab8dfd00a1f1fd03bc078c0011695003bc53d9015419f5033b851202f90b9803dd406c0012c8b402bd2c950270a42402a180ae01c31b0800d6420403788e4d014255100283594a02d1382f,
  0x13febf018ff1ca011df8d400391ef300e838930247887f0328186801971f6002a95726012fc0a6003b9d2c021fc9c202ab0d5b0151e144018a951c036e84580056a02f010693ad0029e2a301a118510002833502cf7542010191e501c0a731031d5518029346db00a2552b033577cd028ceb0d017e5bac,
  0x3692870192a66103714961016b527d0142a69b00a9acaf01d5af890246165503ca888d01036dce0019636a00ca9f5a021376c202deb0b9018fa49d03bd83e5015f320d00074641024105670289834a00022cf600eb30be00c2b128002e33780023b11301fdfaf80106af8500e202a30014169a0326913c,
  0x6ad0800c3448b00a57b2f02bfe6d402307c7b019c273200b57d410180f1800013b6ca0128ab8b0025f153006a716103e0449803199e0d03a06a3500f8d6100323cb4f02fc99e903e886890113d733002c283501546e280393d5400146b4cc039a749d033ef97a01f4c92f00dc283d004973990309b9e4,
  0x234ad3015c957103b675f40378b07400d9d0c702370d6202b0e778008c0e690006d5f403bd4a77002d7c26032af2d702b9376a02a02b220078c3c901c496ed03eead5c0144cac001b6a4a1027980c80003a9c900bf233d02f62c9d02df5cc002ad251100d5ea2400122eca010be6b602d8a6b8019675bd,
  0x2a7f0601543bd90018fe010140546a010e3df00250facc0132cc8b0333679800936ede01e2fa130024273e01a7100100e63c7c004d8e610024365d0202ed9101cf99c30335af2403561a8e00a664b2003840540090c87c034ccb45006d5bec0096e9c60067fb43030d387a02e3de7701367128037fc057,
  0x2cf3310342b18f01e5f18401ed2efd0376876d0272e38b0071ae950082dc8e002ce93e013b795f002868ff0161c47402cb4f3802b5567d0224a9450030ea0203de9aad011a46d603015b42036d1f14003a2cff0112689b004550720373f9d70060897e018b73a1036120a903fdae4a02939bf7015b4864,
  0x2777d400fcf387036083ca00e5d1c700dd182503e8a8a400613b940251c2220226d6e6019635cf000603d200b8d48b01139b610113a7060393b49f0383fa5400533c0401cb186d01b81bb30146f3c4000bf62f022ca25301f87d8a02f59a3d01065a2501009071012d4ae40038c71d00ef17540367cfaf,
  0x1cf9c0011f5d901cc52d502c7524900df40a60097a5a9019a86fe0196747b03f793e7021d7511000408f10273967d0221469701d0d2e6013833250317cf4e005dfca80139932f02cf83de03d9fdec003bafe602c2706803ee522301bb45dc001f905602a9314a0260afcd0078ce8c01da488e0018e3dc,
  0x15ca44000f537702cf7506022216370167a6e700911dc20191c996032f4193036616d0011086bd001b88ad02d49f33037c3ee702f4da790062abba0064a8f4037f2cfb039bebf2011670ec01aafefe0034ce1601eb7967016bd76c01faec0102c6d580017f6ce000e9173a0253d80b034e886b02f08e91,
  0x211d0602265d6401d5286603b45bb7022c518a02634c99028557ca0098579503ad509e026981cc0029760e02ae4b26000ecde802f4d3fe01693a06025856ab038f4c7601f12d4e03a32d1d0293e8e70018322600bc45b002a92bf300fe8d1c007ac05e0151267503db1cf802c2d51e0212d69d02205167,
  0x1394c40192daeb03cd991802c30e52006325f201a965d403514f550178b6aa0141576c002bbca8001eacfb0092cce5016b5c6a01471112012a7e69011d3d6402a6f33502a46a2d02337b0202517416001912e7009906f102cd89c5013c87f1002460b7030ac89b0081d60503d4e938011492d102f1ac6b,
  0x2f016a01cc5af0006d446a003666c9003e2e0900a3beda00de732d0379fce10212628b01ec87ca003bd6390013e66201be5c2e017ebff7036ca9390231be6201489ec801e9fb1401a21f2302615397003919aa0282013f0224dd2600dc154103d7d6dc0210a08c0361085e01274b6f02f27ee40397c0f5,
  0x1150f201ad0d5f02eb7f4d0378f91d035c93130389157c0357f1fe0281fb2f03da7217008b85ff00002e760237ae1f018df44a02decac501b102b001b61cee014579e20134e430034ab262031dd34f00345f0e01f8db6f019ad4fe026a7b7b037f6e3301dd9d7302c83ec200832cc201fd6e84023b0322,
  0x33e35a038abda2007ab397004a0a8902dd373801142f2002b14bd103773b4b012ea73400d21a6f00102b96034360c402def35f0274da4602927d6802ecf18c01a2156b0344a290029494e001c51953003c53dd002cbfa700673a4400b8b9f90112970600cb34b501a511110285658103eafa7103dad8ca,
  0x780db0241c9e903eb97440127bdfb001e5657018f237f003ed61f03f051ab02477b5b03b8470800211c310130033101547a7f017b0930010b03db025619b100e4645b02f7f8e60309bb8f01332b380039f53b00c5e8e80040964701d1a5cd03d8e6ad02ca395a02c5cf3100129f91027846da0278ca3f,
  0x5225603234ee600cd41240095fc5a01cc19150008b0bc020fcbed0180d75500e986d4026346aa00231048016228e70113f37d00a1bbb502a3e8aa03c2c55b0171cad301d930d4004f570a008689a3003e1687000f369b00bfc6b6028536640173f273021b754601fb790202a6e6b60221c62601d91912,
  0xe334c015d6c48022de54a019378d1014105e60159c4d00339ad03036601fc0277725000f3963b003e5a1b03f0d83e016fe67e01bb9f8d0098c33000013ac70013887a02d27c1a019df41801bb68d7002de7370182421103578ba10325942c00ebd5af00ca6acd0176f12f007224660221183d022879e1,
  0x2a750802620ee803360f7a0097bc7a02514da1025cfdef005b437600b8276500d8bbfc028facfe001b31a701a9a2c50381490003f38f09017e640e008694ed0205b1590185468202e1579d03115ddb003260710125103500009abb027a5e04026e0365034a288103aae9b800edd1220220d7f500f34fe4,
  0x386490035429e7015a72ef01fd4342033295a5034cd64003f4363d008651b30170c099020f4f34001068040045f0aa009c9c08007dfc2b014629aa03607bfa017058a001918f0d039768e7027799e4002976af031558e9037cc8e8035b39f801924ce7016c5f57013125d003f3f0f403228f250096c979,
  0x27aae200de74d10391bd10012dab0200d99b8e00c0fbb900baa2bd01d1b846023805d602d5048a000ea7a80052efdb01c98fd30067148f038b92e8032e746503afe81a004189f40213419701b078460000da41033962d801ce47d102f9920d0059c4dc02d763b701b6b57102ad562e017344ba022e417e,
  0x1fedc201c699340154368c023c124b008859a500d9606e02536abf02a52f6700b4211d02407fa700094a640268cffb03cb20e802de8f5900d8285100da215101fae97f003decf50093251201fd13a100397532017009d8009734c902862a8600e0e72100a215b1017bcf3703c0828500e42c1b0331e437,
  0x25e48401f7c59a03b63cbe038852ce025d9c50018cb7cb0360d45b015c408003a049d903beb3b100328ce302bba5c900bce3080282e379009cecb403b6efc502ff0aa3007b57ce010c7b4c012781e8000d7f4503caba4602cde50501f089370298341d03a8900f0367c92c000b4dd9016d50ff0343f84d,
  0x210224004ce07f03b7d40a015c742a019143d200178d6b012ead900204d2e201b62878038af9350035d50300e456c901ce0f3d01e5466e0373787d029c83e300fd07210278de4701a146c602f94a49000cb6f401a9b8c402b9e84100790cc80019a2ed0224b7b70229a87d003d20430164a7f7026cdb11,
  0x28357303c1c6eb02dcef8700db9c1b03f80b4200ecf39d036d741e015790700014439500f96b9300014c940173ea24022d06f40354b382022a73a60300040303a845c102fdff0e02c58d300361cc8400228c2800edb9aa01411375004c4a4701a3d88f011a5376034af1a20166c41d0227094a03e690d2,
  0x31144102323e5b02e507d4032b1a43018cdf97032f371103f4325501dd5a2102572a8302ab2287003d8af00337ceb103a2844a01b6250702768d3002c05d7701c2e3a8026fd50501f14dca01565ad4000dcc930151ca6400ab9cb202512fcc03d8f5be009f105600f6a54f03454054007c70c900ebae35,
  0x165eaf00c63cc501211d65012dd19f00a9dd50009d3d2703d87472010e631203a17a3403b1f162001b5ba501655aa80395a8a603a3633d03467a8102edd8070356aa8301aa4cff01b2caa502a4ce540005ef17027c996601f4793f000a510100b224f3022a0eb403654d10000a496a009e3d7e0134df7b,
  0x3c0ad4002735440339317a00736729021d6806033205bd030444f60037e2c90149abd8039441ef000c138303b202430373e62b008780d802db0a3c0246483c039018ca0235b2b7032b489903498f780026fd3302811db403632fb6025ca69c0379e09103edb7e202f2175102c1cc2101f000ad00c84662,
  0x2b80bb02799d41012fa5720168032c03a294e201de2a99026aa47d0390f853011ecee70321da40002210d30302f6cf00cdcc6d0026154202b3e288036af7bf021af98f013d5a9a03cac65802b968650016077f01bec73a0189ecfa02d8299800998b0100bbb67b036331620334f09000198e2b01894ea0,
  0x43c8f02c05a34030e3f7a014a4a8603bb359401e9f54c03640103005739e70140c6280116b74d000e395601a6581301d1b116028d0ab6013ff5ed034c44f0006550ce00756ede030c62cc028e9820002877890269d197024eca3503af51e9024fb487033eb77f024795280126ccd00095c491039e76bb,
  0x1b444503ba81130104cf870310b65802e6490801ef9a8000b3f045023a332f0307f9c900405b3900061b1101f50ba20304ac9d019a317a002501ee03e54bf000d8d8f500caffa1022573c801ace86500355ce800ac45f90177191001e882f40366109b039c1719018a782101e38ea400ce228b0071ac10,
  0x3ae70100134aae00fd997900ca0c2800ed9f5f03b7ec1f0161021b018a2ecf0196ae7201180abe000c1bd9030b1b6303071e1f01b5697003f7f4a102ad26e7032bb93a00f0ce17020f340f038447a4002165d201e741c00194d83b0045681c0111b93f03f7cd86007cc1870135826d0239efe40068e809,
  0x1fa3af018a711f0008687101cda28201cfc6d400e7db1203862cad02dc7f8d02a41c5e01b30cf8000ca07e00556b2c03ed086c01b611ba029096d10130528400d5b8cb027d38f3023a48ef03fda253002d8aa702eca6f3007ce2ee00ca7f3e03af3f7c0153b6340032a7f502674aa402d8879a0096cae5,
  0x2ba0de000e7d340188954f0209185f0228a473037ca322004d385601bf0453009f254c010fdb1800087f8903e6703400f7c1a9036f553701e64c5101cef3b801f8d63602a0a796030e0b72033d9a6a002bf0a3012c492703070c8b022704b60152fbbf0097aafe02ae205500a559c6011fac760081b6d3,
  0x1cefa2024d45b900018c98004211d5029226230159b1eb030051a902392edf02e28905036b1208002ca2fa02e4746f004a249a0130753f01a54685032e88a000acbca601808d5901a451d703162e590031860d01855acd0002b52a0103e52a017cf4d00313d98f01cfbf2f02eb1e0c01dd725002cc6176,
  0x24059f01b6724c015c490e038c681e03a269a200ffbb1903555a8903335e97025a859e0103ada30032de5d031e748e03f9ecdd0120d166035b8411004e563103ad8968009ca3b203282eac0301100b0000ec8e0376fe8400c47ad701a73a8f00f891f6039a9f22008463bf03c5e7350380427b03593d2c,
  0x1c263b03af5fb603854bbf016dc1f103d9c058007982af00169dc300706f1900044323039a9fd2001e1f1b039baa5601183528005146fc02d5fbc200e261e20175614203ff005000dcc36c01c2297b000654f2035c92f103a86eea02a09491024e5c37008ed3e000352dd2038b205900d5638a01ec0059,
  0x336eec017130a1013c86eb01cefe6702121e60019d6b6c014191bf02b20c6600b748d3024eff1d00116ef301fb3d67001e5892003c73e9003ab683006c3f9903fa758303a530a00377ce8d01b2f552001dfc8c0397314700133631000c704c03ab21090034f9a003df74b7039785aa027d249e02021f5f,
  0x3ca2e6037c2e96001c8efe00eb16fd015eb51900e5412702bdc7590176073603746a2402645e6e0010f7090085e44a02126a1202316baa0084f9110351d277027805a001f5ff260048615e02f76afd00242a9102de625903a1ebdf00ca1c8b039a7b930108ded102c15b030074db4d031794c302679667,
  0x26ada103b0213b03d14a3b00e2fcfd0059132703cb0bb002cd9701020aa8a400f5460e01fc4c150025836003bd2a2903e67461017c9b1201e6b55c03a7cd5801c7f4880293968d02d2fdf103de006c000d210101d4d0fe021d891b0210af4d0267f53502989a850176de2b01e58b4200641e030371c569,
  0x1b55a4036320920242778a0179a20600f4ab1d02319d2b01f5a73303e8dff30135cdb7021735700036b7ed03dec2ff0047f7c401d8b3cc0231588900f7f68f02bc851e03e5b7a10298054003df7478000ec579015450640341b879019c688c01598bfa039ecdb1014834bc02dea02803e8afd700900d3f,
  0x2d31590148d0a203b3fc9200ac1ba803f5f5b2027df75e0313afd1024d738f012bd78e02a0437f0002d6d00167e9c1018b985f00f52a100247c9f4029a49b7035f3d830164d1d70390fb8301e99f390014c04403e85a1603da6d000259859601def0c2037112e700eccef702fcb7a300454a22002589ca,
  0x228eec02018c99005b666f00e5aa02009176ac02fa4241018cc36b03b274c7023ade6b01ef51d0001e138200a7f1fd02e3cde801e21c25029f19890357348201a053bc034dfedd0076afd802e60561003a4fce03236729000d18380070a75802dce1f002844bfe026f913e008836e701f5a32402b029d1,
  0xa3f7a01192826005cd7a9011362640242f8c40152e64b0258c0cc037f54ce02c127dd02b669ee001792ec02360e8f00f23c8400c867e903d660150374fa3702b06176009489510284b8c901cac70c00290d0a00b11e510183cc220310856500438dba0067e47902e0a5a401a8bc0e01409aa70246bf3e,
  0x1b9ac70290483a0050f078009b3f400047367c02d21d7e00b45f96036a157a01b450730325a14a001d364c00611d4f00cbbacd036da55d0316821b016cb41102dac27503339572025ce267003ae600000a294d017466d40010f48700929ebf024ddded01f71a7903392c65017f315e02eaec6500083e5c,
  0x257c990257fc56015e85480336fcb30367681300e10668037aa18803ffd78c03b095d6023a53840034c9e102671b7200e5c4ed027b67fd01f4f03b037f5537037d6564020228b603a51cc200a091f40001999602ab9e3f0279285101d8f5180349fc6b01d5812501c262040083c303011b9846010aec3e,
  0xb791001c4e6c10019b15401a721480264fada036c9f5800b8342700020d15019e07f4030d1711001631b301e8f266001f58eb012a95c800fc26980372db0e02f30523024f460a00041bb6021222920028d0060005605702b1963c00c23bc200fad23b03bbf747025dbbb101f4b3b5020e69880233c0fa,
  0x15faff0019fcf10212834f00c0098502a9f87000c09fe102e6a0e403f02835023033c002bc0f24001b9276022df7cc01c83ea300190db603055451014117590029737203a9d3b0024c80fb00460d43001bb61d01d0986d0187eac3032c99a602833281004ffcf801dce28700c89bc7026c5f380165959e,
  0xe698701266aa1008a3e9f0026ac30005df84c02fd47960124fc2202bbd44e03652f3702631adc0037118f005b00b4008ee2cf00ec220c00af06c6020e6bde0295a8b8017871c5019e65b2019f28e00021d99e0144bd0a0311634401c214710356e6b20155db000157b03803b50439011c726403f39ef2,
  0x8346900bc80d40313b02d039afe500368bcae010f8b5201d9650c010049df0323b4f1033c4652000e9afb0257a7b403fef4bf02582376026774f1024dd95201ef9f0801ba55ae0314302100b5e7e3002b68b30352929d0063e0a802ec61720361c18f034dce1e01bc2bf50322667c033ff838013266eb,
  0x1e2626009b356401b19e2301db81540375c7e60202ebba037e73e003d4524803c6e64002bdb1d6001b117103918547037fd45c02cb2fb70343082802a63b94015b89f403be03c00220cdf901bd1d3b0034b800038f3df100c12fd70182bfee0195db0c02304b4a007b949200210e2c019b6e9b013dddbd,
  0x38d46b03ca8abd0331c849011aebe700dcfc8b0236b43e01555d4f0208ed5600ad1646014efeb4000eb2fc038ab285034c159f010b658e02334bb001eb0f2b00395d1002a491fa024989fd014a65d50028508a03207b2a015da38c02af57f3018d77070246799a022b176e024f84f401edeffc0335c673,
  0x395a6000cc00a10272b6240326c0e103fff6b602bb9a67015233700284d612013cb33f03982cec002fa7d303389fc20013eade01f749990364b1d80069225503baa375005e1a65012f00e501d043ef0018ccdb03ae5e5e01a3eeca016d1cf302711df403c6c92a021ede5d01df272601049ef500787633,
  0xdfb0602b88e2c00680e7a006ddfc403bae1f0007533b303a12ade00ddeb0800dd470f018d7a9d000a4c9b03dcf9c903a4defe0085cfc30304f2da02cf4c35007ed497014a17c903296bf700db45e50028950d025557610036d6ea0241cb6702dd6bf503f1b973033d6ecf02d8b62b005c9f5d020c2a7f,
  0x33b6030331734200945c2e0355bece03fef6f1039b7f3f02d354bd02c7a02b0264c2fc011daee7002758e3005769e3038c18ea004e0b07013aef3c030267af0392207c0394b51c03b2ff2f00f96539000a571a032aaaf40157570203de7b7b01c7f30c00a4f96703a2352f013879a9016155f4002e5b56,
  0x3066a6032ce9060238e59a0232769c020f0bbf000a92e10209bbab009420fe01892006002dbf280035bd1b00507e2103538b1b02964ad7034e89e60034321f0045c4cf009f3fe602934d880167156200313d8402bb6173011393090200383e029be9d6007c7caa019793850064389703a8910100c8feb3,
  0xe143a01f25f5403f5ebca01e5f2a3038944aa0375e19d03eed048039a098c01b2cda10385e5270013cc42014f1476036a6648018da3ae02802c6601f3ea6d01e177f4034bbae5002c968d01a6477f001d63580228908d01daa238006459c40289fcb4006d946d02ba4725007b4cf5002916a30334929a,
  0x4cc0207a09b03ddaf9f03a01c8f015398e5027f27f100f1b200022032a80221079f007e6ca70015c3d600c98a830374bee202ce7a6501942ed9000b9ae402531cbf0340459b02a0689101814a95003b2c1e02d88c250242bed401eb194c00822d4b00918e4f02185eff03939990035868c500ab7e9d,
  0xaa81100b19fa403af949102cea19203df004600647fc30166b81801f6f30900f26ec500ef6e2000112eb001edc7230086da9d00aa8684028dde2b03468f9403b5ae7c00038955023075640265d7a600397201020dba4e0376ec40020763f800258c4f03a302c600dbe0fa03f65de2002374090169e745,
  0x28868002fccd1f01476cad0209e84001cf54b8031bb7ce036093ed016da6b9019f2eea00c3a5df00350f7e03b3a2a403f6fbdf02bc3bca00f625fa0268a93c001f084c025dfc8600f4d94c026b22660018ec21030816470249097202a65af00232d1dd021dc37a01087d55002e89ac01cd0af002ef000d,
  0x8f5ba00ee738a028a9ed702905cd603b46fae0147dc2203c2f54500235b74020650740000b7ef00280ea40348060c01a57dbf012c6dc802c92ddd00f30c02035a431102887a260368cc0a0358f4880001e3b50264e4af02f4c71d0199012c0114d1fd013e8f57034e1477006255bb01f999a603fd0e58,
  0x1c15f200a0432101d77d2e029e5f5702274b77031f7591002e7e98028d0cd902d67ce401afa12b00337907025684c9022299c4029487f703d5413002776fe003b9155e02d0a33c0114f4e2039e80cb00225cc802655fb0021cd0a803023ab70335866000158f2f020babfb034b3b3b032f878d0082ebd3,
  0xda41901d646650047c03f03bfb71b0330f9f40071b04400e6e70d01ed63540120503801ee0843001e4f7d00a7835b00b1815000e9e1d60042c7ce02ca0e7b01dfc48a00287a2b004ad8a701592149003b7621015430430279178501ba9af70036c07201933f5203fade6900da1ef200691c84030077ae,
  0x15a6e401bd072e023f4f5402a55dda004a26dd0363bfcd0128c6680054ace9036e8a3a03aee864002729cc0134d16601b74fa9026aef20013a5ef5038060840033bcba00eecfe300d8986100144fa5002e6a62004eb14403502ca30312c7a20397658002aafcb60171508d03147dd40054a66001e1b2a2,
  0xd13003346cd303d27e1900e77367037d8a600235d5b002695b560259ffd40101161c00ac9cae003ae7b3003f699c03d2dcdb027b6283018fa1d103781571017aff0a0370c7b80228fdc500df6d8e003eadd30127c486026b7c7a0066a71501f013650195881d03097a1d01541b8401179447000ba5f3,
  0x2b5ebf033b6fc903b79c9b0328546e0335d1290211d13b01286c79007352fa02fcf464018da7c40008765401c1b93303f9f779001a90d4034b6df80346785a02fd0efc03acc0b8039db7c6029e045800299bc903bda5fe0311f306001577b4016febbf01555e8b007a4ae5029232b000523513036be11f,
  0x47b3e03612b5a02f1e21a00e5bbb403b3c5ed0039f8a00287a797018167b300e47da7006114d10016cf400241e36b02c2323e036b590b032e8fb802d6830402068e31015999ac03504eae00db0e980023f4760187c4cc00ce20310192cb5e006042e2029d5fd703f19f7b015620ab0202c2e201740e90,
  0x39726e030f2f92010d3966039fb026022ac27102d615ed01af8819026fbbde006728d9014dae01001da60101c5d1de02450c74019995e4016afd420207d12e038b34d4006773df00442330022670ba00271e1803898f630083e57f0163d060012bd0b20179eac401a6807501327b69039e509303a7b777,
  0x2715520101abd2038fe3da0176fc9c00e042ea022b071b018a7c33029671c8019d37d103e75e0f0033e1a2024f9c9d00f68850009f5a9403bd297903e671b403c8758d002f8dd4018176dd02f3ea7d00081e54036c850a025c2b09011285c1025f5f94031295be037c226d0290775c0139adaf00a02ea2,
  0xcd288015375df01fc9cf802fb160a00ed567a0393f4b003593d63003bca3b02a12799005c4266000598d7027ebb4f0003f6e802b9750f003ddf9601e3818202baaa0801b0a38f0365f6b703d2c0d500184af401a1a1c202fdbcb0039e402402db0860014dfea90316e7f401a3afff03a18e5a0147bda4,
  0x12801a0124ac74023e695801bebbdc0047147503c8080302aa567e00eb1de4026e69de0319a2f7003e4e8103b68faf016bd3c700551a5201549ad3035f439d021115f10003533e001ed13401afbbda002b070401eb62f800e30303029f1b3a032d986e01a40f2601e2c72903a1945400e1de91023c4d48,
  0x357b90011ea1ad03d61d370206bf250344c244027d599301b7eda10306d116010c358500519d910027056700e7b8ad034bca7c00f742ed0254353b00b327e20144f5db03e7d1b800e639bb00e5616e0030b674006c649f00e3a0ff01b0f6be0116c33800ab3022027bc7cc01c87efb00df6e3d026b8e10,
  0x6272d022ba51003c91c3c036b829b01451a7902b09b0902e208cf0168a763030706cd014f7caf00207eca00be470602710b4e001e3e0601ef4cd303b32b8c02169eff00704b1003eef3a000fc817c002b649f0149f475016975fc008ef68b01d215f101eb37c0011b3e5b02fe7ce50038d884027cee60,
  0x2647640145d0e901ea7bdd02fce4ad028e9aee01c240bd03161add020e770a0181940403aca2cc0000561103924ba403d8524f017600c4000b135400be676d00569025002f32a60026c6a303ff9e4a000b1e9f010067ac0260ed02005d9ff10209ee7003c5314b00d5a4140107f5e402a4d3ad00a4047d,
  0x255fab0327289c027a8e93025f09e8013f2a9500f96582034c1fdf0370425e02efe5e10202febf003e9e580346679301cf57fe0388c66701f639990079b58a01753ff903203c9b00bf01510050c4d10036d325032fa17b0330c94f010a63d4009979ee03e4499500ab1252014a0f0d00bd89f703753df1,
  0x5d30e00e2f2c102f399ae013afb47023e2476001a0ea10085977c0057f6e8012d7ea4038f0a0b001ceef4038b99b6022f23f30390b2ba0268235f02af8efb0094f55a0087b78900f2b1960009f94d0015132c00d5779e029595f4009c422b01809e940206da6300e4d38900864c360360aa7b02416594,
  0x2fe86403103ff101d83fdd02395c7401f3a99602fe88f001ecd224015cbffc01debfb703c18287000362b000cc66dd007bc85e02f2086701f484d100c483aa0150c41a00cbd25103b5088601e31d1b0017009e028ac4940095c27703c5b1a600e0134202a07aed020884f102887e9502bf620f0020894d,
  0xf2a3e02ced7c70086a5de0068a7b701954f4000a6865f0184de3e0103f117000d766903a1f579003bb2d7031b34e7021833d3017ae30e033cf40d01404c7f030ea7c00076270101ffbb240172ad31000d8939018addcc02776b0f00fba7120271504901b850f20367ae8a00837d8a00dcd36900174b43,
  0x1b39103db99f90371ef510368b5a6015298390068336303de1b98012ebf6d03cc2a42008c89b90018400402bc6efb00f8bb8d01271f650175da5b03cb270401968b750125eef500c16022002d09b8002002ce00a35d3201e526320108458203e981140131421d029f721901fb873501d0b14602a4980d,
  0x103dd9032fe108024d7d6b016caf5b005409e9002b5b6500133c450101d28901237407024c687400085b4601baef4102acbd1103c486f202de62360032b15100eaf29600b3840402801c19029a1a16001d6cd9006993010385d3dc00b43d8203361d1603cf8f99029e23b4012aa4c0018a9048038a127f,
  0x4bfce03f61c2a0186f59b02e15e9a0374786500ba2a2c03a65b5900b9a3f202a1503c0145cec8002adf7e00293cc500472da60121345c032deebd030b3c0900a05c5101e9b96300c9a8510172857400019796020c6379037ce08b0246fef200525504008c21950361e6d200c2619f02527d0802420280,
  0x37fd13018e580700f5c27d023e441a01f91f2001687fa1034f0f840368126f0231f71302f32b250013605a00c862130214bda702564be10211ce8d0392832702afb3520130a5e30333e86b00fbd5300020e23d02314cf901fb457e002f40bc02a32761006a87da031d145401d8b66a028a772903e3d4ad,
  0xb609d013c8add000b671302797c21008e2a87015160d30337a02b022641000105ac3601334b57001e37bd025d18fc001eeaee028568e30321ccd403e7ea93020f9d7e01ffaa8e01e78de701d94ab30026d4d500bbd405029576160185135201431ce300d7404503df381e03818a8f03115388025bf3ea,
  0x38c27a02983a91034c1e7c00578baf00febaf20272281a029b273a01944cee01ea35a5026ed61f00331d2a02a33f1b0263cebc023a2fbc0185613a01d187de030cbca5019d1fea004b6c50022a6a840008b3d80302f6e80066808b03ffc8030273882e00fbef6e014f7a7e02d9d1cb005707dc005fff6e,
  0x2d375d036b5f8103c5fe930202b72f012bbbc500f3617e02c6cc820391af4d01d62b2301fab7900032183403ca50a303e266f700bceab301a92eb703c495f801e8a4e1033fe4d603b7490b01f6e4ff0022cba100e317c1014d3d8a032e936f03376f6a0007f63203688c5b009a84c90040e5ce009edb50,
  0x1a439f00865161012b5a40013786a00272fa3402f3173a03c85a6601801bf8007e992e01dab0fe0028a38b01851c7400235c92001f7b5f02afe20c0094d9630202d45a02eaa10500e2917200295da20030db7903d7aec000164ee202e109be008c5ac0033f15e001bbf6e602df3d93031914860353eb8d,
  0x11172d03f80b790075301e00284b13006ae95900b561c0005784e9014e062503830d400157d1c3000bd2f8025b5d30024df65b0100b22c01f6ba33029f25fd0302fabe011589ec00b3cd16024e3cc0001b8664025a428f02c862b502a23b6902f1f5e700682cc302dc9ca403b1004200e1597f024c4bef,
  0x2053bf00335f2800de759a03fa8cc0037f383d03ed0a2e00a1597a034b5b450135eb6f00bb113a0010c28702c4203202de53fa00ea1f7b016ce1bf0120baf80339d89c017210a603215404039533830002cb7d0328470900c0873f01d252cf037a3eb703be948c02b4253a02d667e701dedb140360d87e,
  0x1a83ec00bda367009c417c01a488b9001d0ba2031cbd4c02eded99037b4c97010644ea00ce6012003a071e01f5693803b2da1903acf97002882b4e0364b89f02cd299500f91562004a782c03a2615d00195be50217b3750006258201d6d9c103f797c702c3f78b03d1bb7e031212a103ba1bc4023be9e5,
  0x4227400853fc802cf584f00bf9159013ae01d03e47e5102e581a4008b820b0325670e001db608003ad24b018144aa009212830171178f00b17b21030f5d78017156be032e26a20084165d03b36908003e424900726be302f11ce10016002e01a9b90e01bcde7b005b1a7101aae2aa02fd04d90181de7e,
  0x2f8a4101cea3d200c9f80203d3955902914fdc0397a29f03468849019639c0006cdb14033222c1001beede0293615b0317ae6903609faa0301bcbc035a80bc038b5ee902eea42503eaeeed007b8213000fc9200337c701000380a90137ce5602de743e025b8a25005b3350015fceeb0348ee7702ff986d,
  0x136eea02cb4ed102dc29bb006dd7e100066c4e00dec9d6021db96403a45297003a9fdd010319f40024041700090bca01516c4402bc550700d6ca6a0027ec2f0222ea4d0305008101df93af02d4cd3a000d6e7302eb1eb2031943fc021de8fa03c37ba2022fb42100c8f741021f81b80336a4390253a5a8,
  0x35e67d017ad51202c0818e03fa4cf0004274e5022718cc03b1a889027e005a01c431a2023341bf000efbe9004aa44702620fc6019370a50272880c00817eed03237ef002a5e8ad03846e78027aaac400138b3600dd04840363b99502f62ec300c5336d00d3988403d92af90301e4bf0301f69b03a2a32a,
  0x104a8600dc39c703e8a0ee0034e7150175f247011a3f16017b89720230652d03b776da0000c7fb00244ed20357ceb801f5358a005ebb31006cace201685ba0034c821702c9ff4c00ee789b0338461a001f75f100d4d3fd03f9468501e96b1c0368c162015cc8d90190f5e101922ec80100a62d0144bc20,
  0x1c38ed02b750a90102ce6701ff9c9f019f37e8002c62040179ec6c00b79a4b026e385c030594bb0010b7430193af9500b6bce9014a7d3103d4377b020508f50230877c01203cee02836da101c662ff0010800001ac66350027c08a00121a3803c79c5102eb5d3d0097835003d3586b0066da9a00ccbab6,
  0x2777030355c47c00eab94902cb42ef030efdcf03b03c3e024ff93700c3a77e01dbf952008471a60036afbe0166629801f1160701ecb22403ea6b1103bc37ff027a2188011dad4e00030a7d02f64b85000bbd9d023cc39c030e7af8014dd71500fc36f000de2f7401cf50e701a9602e006cbf4303db7baf,
  0x3ed1f201878d250193e08c031f8dc90059f9a101e96ec9016000d00157f3b503db218a02e995700034ed7e00e033d902c7ab400060895302c7017502348e81000cda0c0345a971013fa8110330c06e00076f8400e549d203426a0d00c62cf2018ab462030d09ad03a009d60082154202e755d00132f335,
  0x2769880183e83700607319026964ad00e01f0b00e6153d010350d7025da42e0064947301e895e100307db4019a4b5e0246bc4d02f2d7a501c0254e000331c900d117b50397f29100a62cd4027bafdd002be7e102ac51c003994ec5011b0c7800cf45eb0248946a019fa48001c6d5930272f213021066a1,
  0x1099e001f12f2903ee139d010c7b1903be8f8c037b40a8026556a402027ba30147f0eb03ce90b4002bc9470023934f029fb260019e160200ca7b59013e33830114cf260391685400a0589d01a52bde00038c8a03183122034b12090260bf3303e8ed85018076a7005c4057019607a401fd7afb015296cd,
  0x2c178702788e6a0344386901b970ba03de22d403ee52fe012ebfc6023ab08f007c863703d728250018aeaf00ef44d500525cf402cde6fb03bb9f1b009373430177a858037dccfe03e219de0323fa22000287d203d411420313760902425b4502d70c5300bc51cd01eb268d0389c9510258a4b9039037c4,
  0xbaf1600bf0bf20332255700f09f13010f6ffb03e51c5e00f9cf6603b6225103edbd8701698d3b000d89ad0045a7e102b9562700b6437f0151d7a502cc57cf01d9b7930045870301ac57c501163001001783ac016ad2d7034a909100062921028072e303cc1f66035c989f01c3af9203f683ef004c8bd0,
  0x31e820019e2bd90186075e00d43ac502470ba6014d94dd038c58c001b3dced005f085a0229b5c80020417c002acfa90060736502416978023486f200fe46d400b2b0ab020cbb1d0122a8bf0083a9d700132cc900fd0f870088fd8f025de02f01b9855c00cae3b200cc656d03b24221026634fd01159bae,
  0x2e0f8200f511c4019854ec00c33ca90135ad840001b2c3011660de0118acf302fc046f023f65b3002d8b240018d66f02e934de00fbff22021541f9035b979e03a3006701e8fcb6017b45250037c1c000316af8000ee8af01af4ff001bc884e004bc126005175aa00af724103f883cd03e482190066e8fb,
  0x488ac004f228000c2b20e01c8a612020cfd3f025693a5001615de0247e90a0051be1b01c265bb000adc1f02fa4a290005fa9d03b505ce025e6b2f01e94dd30088457c01f834d401941ef3009d03d0001fadca0251513c034326a7007fed9c01d5b6210309b27a01d8607d021e0ceb0098d9fc03c6cd04,
  0x2788f203efb56a035a0d27004bef84001bfa8c000dd165009a862302886b7303dbd82d01d2a3dc0021f8c90279fb590125d3ff0150a57a023cac0f03ce78590348e69e031f1f0c01419642034fe568000034bf007a9bc50125dc0a03887f00020d4ef702c6033502e46fed02da93110157bf67027c41d7,
  0x32c71101a3ae9d03dcfbc700936df903631d9e00036fa1009aafdc013902a20043dd3903c1e7fe003951cf01d6bf480388326a012b057502170d0a029af4f40125105d00cd31fe024692ea0330ec88002a162b0385bdfa01efaa2a003c6a2601a3642f01e9397900f929ae02ed67650008a20c03609a48,
  0x21100b027b121803db288702a220c00173594701203bb40051c92f019e67580350185903b051ff0030cbdb0070369c038dd6bd02b38abd03fb7597012d8de5007b455103c9a7b601e5e6ff02eb8cff00147e5400e4cc3300c3abba004c781701c8a1a3027e9d1801780230000048100386877902318330,
  0x3deaa503a638c30272fd6203ec866200c73569013abcd403c210c3018f0983025b265400b42b7200169aa801114b07000262a0012ad7c7020debf201024e83037cbaf3027f4fa002b8f9020172d1f90037cdb403704473000de95d03e898d7007c5bb903042098024829660342015e02a5fc2500837426,
  0x3e141c0233a341020b691200b2630e02a35ce5016b6ff001654d8d0240d16300e5980500155d1d00226e0f003f3ce8009243ae00de66ee030dc45b0264629401a49f7e016a1b19037a487701ede69a0020b32702b6004e025fd8b403a2c31500a8d53e0299f28601bb26eb001a6c890126e164033b56a7,
  0x3918f2034c6a5d0011ab6600041a940050aadb03e32d450296a49102829c5700ae312600b84494003aaa1d01c82f2502a63e3c02d351110026adcb00f4858a027c3dd30068a47f029f354301dee5210007a97d03db2ad40137040a01218cb100fa42e90139b78b03e0be280337697d03fcae4403b25d7e,
  0x19e3f601e7826603364baa02ad4dfc02e48da0015154400125b65a00dd531b00b2a977010fe83b00289b4601cc3a64017b512902e41ba3012564020070df9002777bcf02e2b78a0052545f02779fb10026f885030e296203ba0452023fbf1e0203b70b006452740321aedc00a598bc01fdfa7a0397230b,
  0x3cc34d03de7ec301a51b1d01bba1e2010e78d20315c9ae026e20ca02d6df8402695c2900a9af71003bc465030db8bc024f0979009bda02014db4990222e1b70220db4b00439fab01bbd87c004db58a002452a001a97e5202e847ce0214645a019e6a6101ba575802afbac801ceacb30271bf49008492d1,
  0x253862019c95c201b71ac8027ee78c02990cb001dec5d103865d08013331d4007b1e8f0000ba11001228fb0069acf80065bd8d00ab533a0346774f00cc2b360075438502597343032a5cda024f137a0011e19403d3a8c903dce13503fd9ab003093d240351a2060139b80e0206784103b468e501c24076,
  0x662fe00ed6c860007d1010131497e005f54ad01bdab11038cbeab01eb33f803e56d61019d86ee003185ae02a0f32402056ef001c1ce9200da1ef30060b848035878d802dfffeb00f4fbaa0331cd78001f2c2f0329d7ce035ce2d6021e9b7a032e2f9f032f6dcc02fa54b403e5c04b03cd55d001ae8dce,
  0x23f134017499480001a58900c2ed7c006fa708010a57e602c7309303a4c04601244bea022af945003b3a9c03b845aa03f317a9036fbd9d00cdbc9d02b422d803e454a500ea91a601bd3d0102283cda003dde050178d27f01d4c5bd0351d53d02d0291803242c570225a6ec00e5c67c02e86bef03f5fa95,
  0x35c66f0364835202462e8200ad236e03c862d8007b62d603491edc006d98ee02d8764900da1a1a0037272f02befb820083a1ee01046e4c008b22e5004a07d401e79986021851dc033c1a8903bd9a07002817ff0065e19700e370c9027a951d0272405102bf7a4a03216e6d01cc7470033bc7ee02823082,
  0xc62002402ef801cda2d2009e6b4e00e7012401fe266901fec8f602b2c649023070ea02b1e01a000fed5b020d12b40172d41601ac09b4029774b401344acf038c8e82017347520091d53d01bc236500288a9f026a93f402ec2b1f0323f7d40289b94c02f2177e031731d100f2f411014e2665006a9e3e,
  0x14899003df701002d4f89f01916e07026115ac002d169b02571c8703a2625303a4724d02427817003e5c8b03b401d9015a5ede013ccf390118acad028bf6c2027939fe005e8fb20114a3ee021f47cd00251df101cf22ff000aaad903d7e6760124140802452f4301b18fc8018c6f920036451703ca6ea6,
  0x242ce50189fc380062194000ab20c100f128ef02f6bf9700add80b02470ef20114d336035f7be70001a8c40008ce1e0354ecb70234483b03c93f2a03b1001c02d38c8700df394500f2968101361c300033a5cb028dbceb022f9376021bd72002162cc3028fa68a00acb76900b83ce9012c619501cf5ac1,
  0x29350c035d287a02f353440017c76401125f5b0176a15303fce52201cc5ea6023b22ea00b1c039000cf3fa02c047ba022ff2dc01cc66a90349e34003b01c900104ced703429917019705ca03b09138001a18bd0013745a02f255eb02664d9301549ed002e63ba600a928e70162b85c01f10c750073eb2a,
  0x13c95e02f225830353ee630347b94b01bff23603a1325202724fbb00af6b2b009f69f803293cf5001371a00108e164023ffd42039be25603d1905b02683bb3006a1e6b021da22c003ebf1601b6891c003092b10068dfe1023b10dd01cebecf031f7ba200557b9d0320ace50160f44d015c36e902a2f954,
  0x1b870032670500317f5400368c430018ee3d301864f8303ae38db0315d31902059d5400c8fd8b00056db50221fcf5027bec5c0032778d000e513e023a851800700f7201eaef5000636a0601814f22000a26de007bfb5300267eb2006412c900e735ea03d2e2c000f5ee5d011ab71502dee5270056d7e4,
  0xd6d6a0271984601207f0502a545cb00b38b630227a0500001b8bd0056cde60099912503acbd34001ff6dc019511330313498c025b0306014ee00601367407027a8fbf02da2e1a00a00e95019cacc9001e614a0005057f01ff48a7039c8c0c02feb70602d7739501fd6e4d03581b920008c6b4024c2253,
  0x281ccd02a52943033a1bdb0373159f010df4be0335bbc90393d31100796fb001e63682039217b50017c0e302a6b11b01139c0b01daadf0024076a90361f14f000c319d02f2222d03c98b17012a8bd60023025a00883bc3037d2ca602e7e76303345b5b03e147ce02e7cf5403692aaf02256c51031bee36,
  0x133e801844483037c5dea0258936c02bde4f80038621b02c5aedb036afe3703cb7168013ea504001a52700179aa1603f4686802ee439f007b86840102862d02ea501300e35fbe0179f1fa0173350d000dae1903a3ff3202ad25f20304ec9d008e07a100cf2ec2012af398023cd61e022bad95025b9284,
  0x1d14eb02e78efd016d32250311251903dca51c0094d74901cbe5ec012f1d3301ffc3000040856d0026d6d902f769cc03e001bc0236e7e10132596f00655a2f02b5079201b870cc0392934301509456001b1d050255f2150047392601e9284c02e3d8a901c4efb702187a5e01a1289201fbaa240281d760,
  0x268c97025d4d7b03ac345500cfb0c70174be8d018dafe101a49b390326f159019762f400972a9a003749ef017f31d1011cab7d038208f40005ed5701a2b6f3000b826700faed00021330fd037c3a4c003a6d3703d20c8301a8a78a01b84a77006ba5d402617679007fdfa900bc4e0300ed4e0900ec34d2,
  0x7961e03e1382e03546f27020598f50297884200ed9492012bf2d1032e5efc02d8dc5e01d2737a0001f36700bf5a0300e971aa00fb29e6013a893e018a6c5b01f1097c03b4be93025ee518016751850029d28a00a6983500766f4e01f672d903bc911b03d60e12029e29fb033e474a015a4e8d03fbd5b9,
  0x38fefe02e3852403622cc503d20ce50157577a0171e7d303d81688000081cb018170a303ecc1db000133a10088c8020116dcfa00626dc80105678f02d0e8a4037f69be0012e84f00e9200801236b60001bb7a40227188502b07c4403f99d0901c4277d000f604200119deb01cd97ac0174ad0603d2ea1c,
  0x20b27d002b0dd4023518f102aa02ec024e75c4008ba9bc00af24fd03190c690104af15035a92d6003a474e01f2bfb7024f696b03767fd40386c52b0277ad3d00e08b2500e76a120250b7fe01604f900025bc230307a1c30168a2d502b2e09702feca9300d96ee30119b21102a00efe004578bf033535e9,
  0x1859a6004cff49016c9be50056826303a8de6c02671cba020238a502b800a503f2f72c03397f9f002aed620196eb6103e36e9303a1416f01837e7f016c242e0371ce0503fc2d08009bd86600a7ac590003a163001e90b103360c5c0183e3a5029d70700206e2d103f60317024a07600238a10501ea4df6,
  0x20b86502747ed300eb93a2024e1e190004950803caf8d2012fed8201a7943d027516d000439f600036dec503cceb81006cdf6902ab3c5f03757309030e0dd5005f458601387bd500f8ee4c02ca453800243dd9001ecf1102dc47bb0098fb6c0341306b01290da60284a5f701a68aac006597f603d0e986,
  0x25ae1a02ff26fc003e2e8401969fce005b553c013018b900b5aa20001ac1db0039b8850316b8790034a02401e2eae7025482e802e3d45a01927c07016fbc840094d3dd031160b000db58c102b5a844001fc120024414b001ab6004026bf013026b3704012d2568024a07b10129464e0066699e03ba3c08,
  0x2a0aa9025547bd005007c1014c62380005dcaa01b488ef00179b300053fcea00afe83c03124e9800393d17037477220248c326031d262103efa723010d216f0343ccf500408379016cd4cb0253f273003e668c03da4fbd0343625001753e53029a16ca0076786c02bca84903c1485403d0d2e100c4b55c,
  0x32d9f402ac1b6900c3ac7e0033db820169d2d10087cd5c01e2c64c02e83c5500afc0490289901000360ee2009dbe6300ee690700c003dc01719edb019219d9020a3f5d015ea60803539a4c00051b2e002fc469019c07b30328e1c40394b66b03a94af50213cef000cfe3c101b3a6fa0326ddb6019c0564,
  0xb4b1002411cd6001384ac01c361b9007e399702bf8023015cc085011da06f017fa17a03c2f87700156aad00d0b1ef016033f701611af6031a46c90145d6580088f5b203ca36670078b22102e04535002ce8ba02aa3c590094c3a003aa672701e44f010243ee0b02bc7e210123f8f602a1b57301b354fd,
  0x269cc201d2dd10011b9798009a3a5c01841c1b0089f2a3019418f401140cb40180858301ce08560036457202b700e501ac6189003ec23e0289bb1d039e3b1601781eaf0261b9eb03a6dd390198be580028a84f00c3e1ed031b01e400b676b70254476d01826fbf01a1ce040201547f00a0b1e002a881e9,
  0x134fcb03d1d41600b4f49c0046724701b91ca400054286007f60f200e8cd3401945682017f0ae30007105701aa98db004fe9ab036d2d5900cb0c390159c78b0301f2fc025d15d703f65267036c4788003871ee02e47ed2037b47360288da5500a9cf12034c7de902e91d65027e78d9037dfbfb0129bae7,
  0x3adea303d1a0740342dfb60304eb99011d042f02d7274503e8cfbd01dd261d035214710025fb060035ca6500a087ff0357bade023b44d901bf4dee03bdfee90217ec87011cca7a038432680340dd5100369f4c03b7fa9103fd2963019e06f401a7f49e0128189103c7b7be0287f09e03761a30025caac4,
  0x22bd1f0083839103534fb002ace22e02cc63e501b2d0570226363902a40f05020e7ed200740def0039508601d06ec30127fc8300bddc2501d9c06f028cc06d01e8faa603a4a0e9019671d602a696af001d91e8038b92de02cc8e9703c3549e00fad0bb03b661e4001551c100370ca500bbcf230098f365,
  0x1ab86d0005eb7d0385bce7027edb6400aaeaf3039fd80b012f1dcd0163141c0156459e001632c20012cd3f01240191000148df032b6011022aa9b7014239440252f68401b86f31025ec44e014ca322000abb0c016870270223f7330258e75801a8e0a60322448b008f01d6008874590185ff2803c3448c,
  0x399b001078dd400474a0002056e8500eef61e034196d70170b75003d59e0c01f2411b01e33acb003b119600ce5374022b95660392d201036bb68400a71f0d03621c790379182602abe614005223f10003459b03c1287101c2370702ccd4c20094a8fd00d13b0a0309fa5103a510300008f50a01229284,
  0x38e0b00220723c01c8fcfd030c32a802508cd103b2cd6001272e3c00fdbeda02e0cc30015a8fe6001e90f7035d946c026143900313c771023d7ae2017ff6d902ca345001dba8ac01c4494803ad29dc0037cd0703791f51037ca9a700f1cde001050da4019c3bfb00ba4733021c95c602c1d4650301e923,
  0x53656007311f903cc7c8e0331c13f0261410403ac254a028848f0029e13500323bd4c01173f9d000845b1019c62950181a7eb015c2a1e022566bf011640ad035047cf02a2ad2901d63f30003dfeb9000032a100a9dc9d004ebad303fc660a00131e520096b33003d9c9ce0152a7c2004e86cb02923859,
  0xb925c0325ad8b0118427e015a786f00446f0200371f2a00c51d11026e34c803ae8fe401a9bd390005fd4c02d9b67a00a10fb702cb6d3300ef992e012fae6b01b9a0a501103a21006bff2c0379f2fd001acdc30187f87200238a5b036ee99603809d940337eed603c5f06902b87963030e27e301fd44e5,
  0x2e8621032913ea02a73fee035091c0001199e8005252d40181147803e4c0db010ebb15003250d10013e05902f90c77002b1ddc024b699002bed94b034d5b6c0094cb760110b383007c71bf00b295f80024711f028d15d600fd72630377b4b500a3dae4033c31ca01faa1e0025a0b1e00adb57203a34eb6,
  0xdadc10238cf5203b40db6002fa0dd02b80bf803a550fe0000b96b016cfa0c0056671201b6eba500181cd501999b4c0148bfd4036fd77700d369cf03b6c36e039eb1490056622202653196001460ba001c67dc02d5c69103dd88ff010dec7a02a40803016acaa1015aee3f033eea5802faadd4010c8ce6,
  0xb14970019782f01b28a4d02da3d09017eddf402d5a5d40122361d0329e15500ab5827022d12e7000eab0603f421010280e07b0055c16a021b75ef015500e600108bd301c2f5a1003818f403e17def00140bdd00406092013bba5c02217d1c00a68e4f001f0d01016dc63102ddf81a00bd1d7b0063912b,
  0x101a6007e5f5d011d484d03d2aeeb018ba2f601ad98f503ede91d03de567401fa475d010c067c0020b12d0051cfc903cf388c00a36d3d03e04edb00e176c902339b1e0207fe6100c5896802f03d61001e54070287d990028478dd00d011b600d21a8000caf8f403bd79110165417b022bdf79013502d1,
  0x252d9803b93c7d01bc4de203f28a6702e0d1c60086dba000b3adec03d98331023e9a5200b92ad500109b3e02d1022302564241002c486c0323d65803fb164201ff25d30353d949037067a5028b84250022805900ea790801201a7f01007a0103b64b9f02afe9c603ec0d4d00109ea6039ad134016ca309,
  0x1c6d790391c63603b2d9fa000b570800c8ad6402a47b400366b8a203f1887a00e04c5c02743e460025e071023572880185e5f501ba07710253939d0250500003a55a3f024f33c002847cae00966854002e00460323392300be9ebd02fbe6360137da900383088200837367033ef4ac0122fa51031d27e4,
  0x18724200e204f60240809200ffdb1d02508d9d01677e94018dbc000241810603b7007900848caa00366e290193060603e59a8401c117c10142495500ff8ed10036b57c0183946203467ab7032db547003679230239a19c03e35a8d011fe52f036c599c01279f7b005d002603c2f855038fd78303749f5e,
  0x2ddfda03f9e09202495a7d03a3e93902a7585c032084550096cd0202185d2000bdfa17029b62d1001bd0c80165cb280278da4500e643fd02c502c801ac7dfa026b7d9701b465a503591bce02ef566a001b261802e2fd3a003a709f01e7dee1009d26c902d7b00d03674d0300f668bb0067831e012894a6,
  0x2132e0078f98a00985c8b01807f7d031ee089037dcf62009aeb0101a22294039e5fab00923856003d90de02e46bef000d7526001aaee1010a908e03361efb029676df003279d4004fb6af028afd07003d67df0005bfd601e2b294014d74050247fcc5028d668f03af11e600865538009c684301686bab,
  0x318aa2012a3ccb03dd383a00cfaa8f001050e603293514026008a4004636fc00ed84460141281500320514017ba16a0335f08403a3b0fd0291449e03e5247b01843c3902d04738017d7e1302538b5f001b39e600466fe1035c26cb01af69da012160bf00f4467900365a17026249fe03a5268803eb3f7c,
  0x1f0c7c01f2224901f1121f00ecef600188a37b018933720354a5c2003fba7603c023100076d3d100074d4100542789013e08fa0293c1d703e2500b009a39ad03f5a01f00ba09620180e6c201a0bff6000558f9025ef28601a10a0400f3a43b02bd7f10039b99900153493202b57787015f215401c2b429,
  0xe9104031e4e140135d9e402ce38ec0221350b01340b6403a67393022e8d50029724c300ea282d00235e7703124c5203620dfe0388a7a501cdf83002b876eb03b9a07d03d39e2103b6dc0d0259239400095e5603d297500055678b00e63f79018e92cf03caea5003d8417f01e4265b016b6a4f032da713,
  0x1c03ed037781aa0298ccc100d7d7b503bfca1501d5a0d900f58233006aab8502c934b801445383000b0c7302d78cd5018ddaf901176c5800fafbe0003a66db011ec940016b0989034a0437016829fc00318781001328a400bf28b601cd3e3a01b22d1c018bc9cd03a18db701aadfed00aa4e290280ba67,
  0x30931302d4ee3d00e4a29b03acc07b00ef70860366bce001724f030262a22701f36b3a0167d0e500136a180343ab1a0320ffea012f4ebc00127499026905bc00c431e502b65a39030d544f028fdb0f0012000702aba3e601a09731021ced4502269e2200f5f952020469c902e03c590045e7a703061144,
  0x1d0cad02df3f9301edf2a402fa78c501a9f185014c3539030c95be0332f2f703c711ee034e208e0031f15c01575e0b007a812a03289f6002d302de039468540342c92f01d6ef6c0177a90d01b149ec001f754f0040599c02ff3ce0001c83bb002bf4ff023839be0186f5b3032ba65800ff598c004d978a,
  0x16e7f703b781b200f9b61403717c3500a83c6303d7b4a800c0cbda0342f12403ca78a102d9584d00011a0003bd58b3031cf69102af441603d72f8400342d3f002ea99203b5a9af0070f55502066295002e001a01022af600df5e1e00e3b03001625ba002e0a35603a90fef01b0cdc70225002401e306fa,
  0x37c65a015ef06b003877e602f017d600e1c7800149033d000f4acc0342fbfe03a5411a01a01a0a002f89de025b4bca00d823aa0251a4340079b72201a0404e03323059017bc9ae02c882350058049800077201000b2d2300b1805603f3aa6c018eb83000739d9302c64d91026fb6ef02dd76cc01623a8c,
  0x375c8e008fdaf3038b42dc018a78c70215e5db03031ae400fb79790246ce4b01110e9103502b6d002101a201973ea203db3b5e01a32ae4031b7640029de2c903073814033c0b7600c980ae0011b73e001b796600b356cc0140e10c03cfdf87000e4b700030812e00ef44ae01d4064d019563c300552051,
  0x3808a02ee2ac400b3759902e0e92101c3e3860038af3b024f47a00185c80a00c333d7036f63a3003fec8f00d452730293ec9002174a8a0354edbf00db6b0a03ec5aa6010d3fae0358e13403cb2f5f000c2ca50199748c03b9cc0e024142a500e38f5f00d01274022813e8033c92a300c4867102d2fea3,
  0x1b60003c3a6601349566022b2bc2038d8d7102d4a82303aa950a01d6c587029b8a6800c75bd6003c6487005c725303b7a524039b9c09001cf60003a11e46030896f100f27e8002e5a81001d1723f0009c9b001bbd0b302a7dc8900db18ab00f1fa620306ad36003d705a024b3d880181a1b103711014,
  0xa1de902ee7f440164c7a902006e460321229f00d039380114a46102d7e74e0317c9cc02b81d390026f59603b791670275507b0254a0fc02d5b84801f5a38201ce21060362eafd01579a880307dff2001455ee02b61e2a002a8f67016e61bf03ce190401902b00023503d800a61c2a03da6c3203b487c8,
  0x39ce4302c083ed012eb48c0239cfdc01b9b206034bec6f030bc646006eab2003ca0f9702924dad003a60c600bb065d016bd989018a846d0263b05302623e5d02f6e524015fc961035d8c00004e5b400024145f0063fa1502ddbc9903233572018d2adf0141e7500295c3020351b1f201aafc5e01d2a2ef,
  0x263e740140b00403997003017c4ea70055c36402e9e88a007cc67800378aca02f0ce7c028ba1ef002df53f01658a7e036b8a2e01f3d8c102f07edc02f2c71802b546a300b36e0c0305177902a5debf0032e7cc02957914004c3a1f00e0811302f3c74303c39f0b02d45a6b03dd740d000ccc3a00f66f76,
  0x31cd7b0359d1f10273761202ea37b0036dcac002622d0e00c5e7d4019c547e02acfb6300963b5700006c3002684cf201b1cf520283f6980166760d03ceef560149d717031267e50212894401c4ef290005ed070029769802a41dc5027fd5e301a3b780028a926d02d5aa90010a004103a2b3d2001dc07a,
  0x3b802901acfe1c0208414600264a7603305f4b001f030c0240a7820266f9e300db073001ed9912003f0f4502ccb7e703e75ed703ee7c68011e18bb00a919aa027a8d2701ccdfbc024cd3360110ca7e000bffd801e724dd00103f3b0180c2d102989c550257d53a002b8e9e0154cba70307b4d100077ebf,
  0x20b7b024cb3ae01db549a03b348410306bd05022b4bf600db7254032dfbf100073cc902b45d2e0006cc1b0365804c022291ab02232bc10154d3f5014c62ab01b273a00245b9180392b132030534d70015489c03742ebd03939ca902848593019a29c70399d30f02897a48039ac5f4033b1f7c032d0ec2,
  0x5759f01744b9203e525890106c735005aa0d0031b1c07020e1dfd003347e1026f4c2902123647002fd9040168e449035a8aaa0358378500080a3f033dc51b03032f69039b2f1d007068e20397fb850024b0f20381d9310140de7702fe564f011be6930300714603fdb9bc00e7110b026cbceb021ebe88,
  0x37a2c501344637036683fa02b763af02d08c12004a99a501a4f31f03841074000fb17402c3191f002a940f01346c12031ee7b90002aa6001bd7f260210d574020e45f202011f7c02b336ce00588c2c0002c4c003a7a3260108499901993524000f4ed6023d24bf03adad110125e6d3009dd2ec028019bf,
  0x2ca360027d956600a654450325eca8038b8f2d02b8951203bd26c601b632b200838a7103441558001f34900327eaf70371d05b00c9886200e16591030514c1027827ac00ce233302e4252e027d9ff700288e0702245ed803c2123703089dc0027ca1d101d499e2001338ed0291d8d903c5471b0072ddbc,
  0x2edf9701167c8003b8a93001f5ff52028d85ac02fd3d9b02cc2c1f039db884001eeec100c6bbc90029371402e8687f0001cfbf02a338190280ff7603a5344b029e8b4503edfa7803f6089703be9f9a000fac8a02144dd20258ce3c0374f6f900ac6857034bdd14015f75f300582d890132b1790050b508,
  0xcf091028ae45400dfb0a7000cc0f903a7bb1303f41d6003b7f90500b5367b01100c4b00f47dd50018191301a061c20142189f02fd961e0223397c030043ef01ead0e9039bfec500ec3554028c2bad0035bb770012e4840035d4dc03d8f7b90076a699020746e701985fac028eb3050202d946018ed618,
  0x34b9dc02f95de9037817d500f29eb500e1d13d0048385e0221ba0b01c4630602923698003a58d2003f9db702122b6c013cefec030d5b970166f46c008cb898038c7903031d458a012f9e4d0398bb3d001d4901020e995703903c53010a49aa00c067aa007bb7d900777ae50167e19d026f289702d2b945,
  0x2bebdc02502cb80102dfb900b1e89d0254923c00f817d1004f92a600157b5f0090243803fe8646001a8aa202efd27002f25e6a01daef3a014b32e1003a73af0170e38e03523bbd01e8d8e101e59b50003ecf7102a6cee8023d41ea00d6d8db026340e502f1c050024b73290223b50101fbd6b903b4e8af,
  0x8e3900262ced0008962b1032799eb023b08b8012be6970169250302961843038551820168a6cf00179e69038ff8e302f5bfa4010b643801805d47028b6a7c01cb05de000d047f0340cedc0365c9fa0033d6280106ba4601c94b18033ac3dd0117d8b203f5e3f100899afe00efa42a00cb0b1103bc6806,
  0x97a0e0143a2890398d83402ab842f038c075803240f93028f9be503764ea500ed811102a5f54500363f0301732e4303e84edf003b7095034a69840291f6ee03b0d4ca036248e102aa635a02cca1210020484e00dd2924038e7266013d0375013967e303f24e40020f6f1a01f64033003d8d8501f1d9a0,
  0x3a485e03ca12c500a45eac0167070f00591a1002ff36ef03a8b9ec0393cc6501fbdb640126e83f00244ea80293d92e01383bba02300408026a7e5f02888d2900b91e0a0162dcfb02d32da700299de1000463f5012dd2db001d70550326b17003014f90028a188d01160046025c781c03d09d11016f6bf4,
  0x39004f033737660157c3b0023a0079030b755d0055368e01ed5c1f03da029a03ebbe0e03d465050015ba6b0164471400c42ca0016c93570020719900fe31b103375c3e00ab0d180318253f0242933b0029287501fba1f903fa54a5021dce68029f0bb70302a655037c6017003526b8000dad8900ccd566,
  0x27d16037eecd00366fc39017f099c03d2fdf200e825c30136a1ea0013bdb70059c1c402500798000287cb00a1ae400061c808012c1bcf006316670154c81702ac1531014e55910150ac550384ddd5003b03ec00725b3e0375b398009f3d0b0266122701eedf8a028065e5000cb9c5005d58cc03c4bbe2,
  0x1e87d400be70aa00debc0b02bb2fd30327ab7100100dee03121f4a02aab66c0093d1440081cafd000ff0cc02008df000b8bc7300d192360237a51a0029facd008f1ad40001ebca013ca31c02a2e1b5000a751302b2373301c6243300226afb02ae1ca10363a43201c20c990136cc9601c36a1300389159,
  0x2e94230173400802c600de00b75da102c6adde014412f600f3ba6601a88d6b025622a601d12df20013fb26032ae6130215f5b103c0568d018ef36c022df7fb02be509b0210a79201c1cb87033be4ba0024741f03a2f71402d45b8b00677c0c001e2b5302d614b00103fe11023f4350019ca7d300ee373c]

/-- secp256k1.go:10, serialized bytes 645120 to 675839. -/
def tableRow21 : List Nat := [
  0x0,
  0x285a810159991203adeba401c2493603d39c8b00324c47019f830e01bbdf09038265b90022cc4e000a04aa031a311e01bbdfda016730c103935cae0019ac08010e5ed90355e8070214a7fa019fdfc20014a153039deeae03a8392d01ed02e100767cb4009cd13102e1531403df965702bd891e01b1005a,
  0x16953c0255cb660019d86002dde4d501b5a84801ebc47903890f880162e9340073dadd03987223002a416a02f9cd3c010df39e00ed2a9400bba219038db26b00d158bf032d8047031ff8290231584a002ca9600048bbc003b1ca7c00826a2801a3d44e03e7490e0153eedf03c4f1820302510d0338b7a6,
  0x1a016d0392d11300017c5302951ac103ea58b203bb577501ebd9fb01041d040016842800aeffc400094d9802a7d956021d681801f98a7d01e33d290345d3af0066e80500c9d1b20173ff6501228f56001c7c2a00dd89d903bdaa65018d86ff02e6b06402e3ea04029ee2b00379789e01182a50025fa597,
  0x14d10b03ff1377003b18ed03e19745034c851200428d3200d4aa780028ee470060827e0269d65f00390b6000a23a4d039bc3d203be4c2e03c5cb0f00d63a3a00183ae400aea3ba00020d8901ce079a000c1f0a016e3ca00006075001172c6e03117b4e025409ac02cffcb902a15437022f763602006dc9,
  0x1a72020173e3e7019cd96200fb606f017107f4010302ce020cc3a201e0feb0034cf72501628138002872aa035296480340e530020c380c005af4c7001e4d2201ed09ac02858bb30001a15201926c55001e16d6038967990018bf8b0002b5c000fbb042035523ac02c4d152010f205e014c5f8e00ede290,
  0x359944000ae11d025aacdb0042fd6901916bd801bebed900eabec301dda3660006a56701e1f7c50002b4f303561d9e01412f9601a5b82f03e146ec001f9dcc03f75c6d02fef69400e5efa202cb5830000779c40226de3d03e446660175beef01e4286603066ef600df6d4a02ead2ca0313b6f103bb2e41,
  0x220c960191c1500188382a023189870335bd02033b07f8000a4f8f03d45b7b027892e201722c1300187a0b00abebf00379600501743c1f02df4dc7026637b10086b3a600a2b4f10094c33e01717d4f003bb6bf010b97af0046829202aca6b300a57f3b01b9f8c8003cc43002f9afb4037b38d100e5f713,
  0x25a2c301bbd5a9002893a903c2b9bd034b4b8f03679fa901eef50c00e28a5401390123021cb783003883280318a458003cd92f031ce28e01a8f97901584e0102055c720323b0870148dff3005d6d00002abe0f00c8142e01c78a550124ca6201eee54a02e88bff00b3063a019cd71901cf866b0072ec5e,
  0xa6a3400b383dd0289a36603cf339c02e3f6bd01cd4a1503e1b29d025b2d2a03a74a7501d0c1eb0019f3290231755e008b9b230277b32003d1675c009a6ade037ac4530076f5c801d55683024db1310037bd24031e60f002661c3b0252abc40231dc2a0132f16203243dbf02ac2a1202cd30fe028e8be5,
  0x3bb5cf003c43e102c3364a000810cb006036ff00962fe103da5cb3024fb79600dedbde01a651ab0005baa50166535e02bda0e200479a93032a7a6403a99e5c02e68a9a030b33910369c1ff01ca37140015f20d0263d63102aadc5a0399617f01ca51a70330f942010d82a40149ba440361d0240162bb93,
  0x3f7ebf0182715c009267d300e07add00175ec7004e853d0187ab420144015e004b231e03eaa3ba00320503038b76d4021a7565012ed0b502800be800328873000ae374038d3da000ff42d4021b7422003239eb02cec053008da8520165e587026ac077035b16fc034cd92300bae8de0258087202dad2a3,
  0x239795039d9cb402275c1c0310a81003ec437b01079e7300e6fec90278dc3e024248d1027fe6940024ccaa01ab4ce2037092a9018d1b6301b40c9a013b439a012af92c0010537b00bcea7f03e97fb40038d4e50298188e02106b2200fea37601fb1a5200580cd002642e9b035758e402c00ae8002d8843,
  0x164a0b026e5e2703420d4403c5de9403f131f00136d95d0220dc790036c4d8033f88f502376bb8000f84fe038fcac702d5a8850040dd6203e3c77002289440012b56b103fc4c7d029a5e2300c6c02e00379da8029864c703e6d2160161203903dd59ee00f37c8a00b29c33023a842203d2cf29018e8c2e,
  0x17deae00fe8617013e121902e48c500039a3a70121b60b00019bf902a4756501aacf2c02714493000f9d30025d1b700384c811017cd99a02703d40031e16be00b6f09f0254e85b03feabff01fa35c2002ddff301a3dbcd02ef9ca003ebb885038cc332031b5573019db6b30281bdc903434889009484d8,
  0x1890900263e60701af0a7c006cabb203c7c81f00c5cf2103e5d5d400fceb9d01502ef301edd0ef000fdb30003c58f8007f31f1003b60cf03b1945801ee4f0d0264078000aed3bd0367bf830090f997001671aa00fdfea5007b6705033c7d270047be920089214c00d0220603923b7402d2e88a022e3818,
  0x125954021fca5202e6c0de00a5a4470240bdab01d72dd8017d7fbf02f57982032e31a3034f5545002188e002638c550240676d02c5c233011adc2c004a6b7e0124f1ef01392abb03daaaf201a1c6e0001cfa2b038abe2c00f72759012bd03200cc285900317aca03749f59034b526800235d9d01e051bc,
  0x237a0602891d4202a9fee7022753cd0210f86203dbfc6001319502021e0f330165c4030125b1f50036b6de00296ecf012dcced035cae46015e68aa0215341d01e6dba40063fbe30327922602bc8d26000a35be0383aa8203709ecd009f22f301585d5600439d8602523c2600bbdc0100d3899a01d1c776,
  0x18711900ec6b1c00e5b83701f7ee6903ee3fb702217f4400da50b1012778e601da2aa002c51abb002273ed00f3d68c0123b51f01bafde00318e58500695565003b26b40234af81009434df00990149000d58ed03e47ca301800da9008ed8a30266d68c0100cf1d019b9a2700dc654d019cb7830331fd50,
  0x36bed40018e22d020e8bb90255c57b00f04d78015c0917028904f40152a10403af176d02290c46001d91900383bc8a0060a5f1003eac7301aba13a01a904fd03adc3c802ba8e8401deb1fa019fda73003fb737034aa2a9015e708c0396786001d7c32202d3d456031119e703ba1a2a01014ee302fbce58,
  0x34c2e903910db903f489bb01bae6ac023bce9d0096a637036821ff0159fe90003208d70398d3800014b9200339d0cf007c4fcf00d8b2d600679384009cdcab014725400024bd5303e39cfb01e311a5001cce00023712d7021f38470095cf4a0077cbcc010a0695009b6c05014f8ba903d7252402e095cf,
  0x225e64003fc5a5029d781403005eed019b560d0308ce3a0037b59c030e7af303a71ee4037c9d280021ba8f036c08840284339d011219c200c5d003012534b202d51f1400f20c8b03ab7ad1016128400033de0002f748dd01ce8d4e01e05794009850070349affa01cdc69c021a33b103f89ca700047771,
  0x3887b01970e6a03be5e4500fa42c40176b11b019caa8802194bfe02b84c4c02b3f06c010c0dd1000594a7037e143800a0905901b04f0b02559fd801bd572200b6c3fc03d004cd0147480400a7cff200341b9f01cf9e6003d15cb802aebd4400a45a5f02d7e2d701b5c734004457d003822a74013a51f5,
  0x3247a1019dec6b00e94ed8033c60170049c8d203305c3001217b1e015b2593039bec0b037e56c6000ade7e03604143007d830c02cbadcd002972e3022f4c410242a58202ab9062013c3e36004a34450036ffc602661cde02f1964d001d71ac03ee7848005a2a9d02c79f1b01bd0ed70319990101267c10,
  0x2fffd8011a79900198eb07028d242100031a74029a1dfc03dfc08b03931ed401de12480175f66c0030fd8503b1d8a4033204ff015220d202d94c1901a9413e0254ba6c026d096b0063284b022e470b003cf6160231e4cb03be259c031c433c03ebd7ae0226195000636bdc028839d6032ca0d00307042a,
  0x21e29603a742220336d9ce0054510e016a6d9e006fe1ed01f6d5ee00c7775903d6b330006f18100013c9fc027172e80103114601e2b19e0078572e037faab20156d0e302de67760044febf003bdfa3003a2e1202a96d9603b0f221036b192602b6b82302701aad00b929c902bac6bc0117e94902551acf,
  0x3e6fc01855aec03b2201e0377be2e01de58a8039caec901554cb90185a50f0252b7020260f3550026e7b30223fed600a1aa0d020ee63e038a3ca802e893f300c8a96703015d4e006674c0029f5db0003a0fb602cc448000ac334d030bd8ff0177d0c602a4baa80381cf1702d0ed70018298b8008151c2,
  0x3548f303e5cc3b0053f9cd00e2196f01132524034816d103a31c100076fe420080eced03b8c4b400112f9f0162bbfa030b040301efc7aa037f6d5a023effa203f84752012191c701b6976100546c63000b70050189f94302cbb618001da81902693fd90021fb92033616a600d1b54100490676024c507f,
  0x2f5d7103cef02102dc60a0025ed57202f1daf8015e53990393f6870356185100ce51aa02abdbf2001d881602af3c60000d9e6800271db102214a3201916dc801bd321b014289da017eb120013c20f80035ebce02df0c370027411c01a7eaaf02ada413025d627601bea566028318c7015a3682011445f0,
  0x3bb6e203bb0f5501faf3e3016e313700c75abf027054d102d6393d0064746d0394cdef02922dc8001e62e3035298ea02b4c1a50037db5d03f20521015bf32e010c3d0603bc482901c5240300a0a669002374c400aadd39025585ed02ca77f2036661cb012a724d01aa1e2b02b1ff3d0220946802b99bb5,
  0x1b4bdd030e045e01ce7946012d3378019071de00081a2e02557cd80015b61402789566005504eb00086e3e00a04c5d02a61c06029cbfb101041cad0267b36601bc7428007a455e01af564300e5ffaf003cf2da0324d3a900e70d1b01c594f8036dd6d1002b9afe010d3097011b5e7a033c72150140f324,
  0x32486103dbb4da02008c810326f4c50211a8770276737100cd9f6d033fd675006b304f027ed7ba0005a20b0189a98a002fa5f6016f3c2c00bb80b301a0b06a03112b1300572e080352c43a02af66f20016a79b028c058c02f6bb68000f7683030847c40384080a01db310f0253a31403f0c300035923d7,
  0x34d1cb035cb4e00191282d0206c9f101fb7f810347f44502bce1970362e7a301d2e41a00f21654001950c200ac93e500814320025e00b3020ae6ce01fb7d3f0324e14203c3c20401bb0ad9030f88f7001d738d00e83d9a01835308024ad87501d3af8401c16c250195035a01ed6f7402a29e8503ef236b,
  0x22c09f01315071000f947102c5aabc02116bdc01fa0b3d0176aab8012804fc0329d48d0181aeb3002041bd03b4e1f20017e6bc0141250d025ae1be00b8aee602636ef3004d3be803e9cb67034075240017dc03031699fc03c4c6ca001e29080198950603512e7f0389ceb301467cd303ebb5b203017aec,
  0x21db9702686cbb007ae47300784a4c01a8505d0212453c038205cf0387f2120214384a02009ce4001ad56d0131dbae0193d8bd00ba2877034a2e4601f9a5a30219edcd0123c4bb02b83faf01f3ff29001a40c8030420bd031a95bd002239d80278dee103ac37f90186e95500e2115e03e8b13603671084,
  0x8bf8001cdf2c50058eb2f0376d82000e7089100ebfac6033fe5ab02437aba02013f22021a4faa0033c3d802b5c91b026a9a7002dcd8d2029325ed0298b79a01a2cb5a03f7c73302bf815a0164f1e000244dca03d9829501617b9703f5afdc00f1afa503b6f96800cb001103bbff3a0151dfd90101bffa,
  0xc4728008d5448018c33d6024feb6502c6b47f02f32a2703f91a07001e2c2c00bf52d0018a9d54001844fe0027442c004760cc007a1c7d01fe25ba01f22bd10195dd4a00bf96f1030478b5023d296d00082ace028a3f8202d664ec00a8961b01dfebb3013e3c6c0114f4d600399c2302ab44a7004a8af0,
  0x3ec3ad002d6b29018e1fd403f71b3302f8e0fb0181151d03831a34020443b00019fca102c2cdad000f609102b3e6d803a358c90176c3500330f2cd014c5549016f4ba402bf5afa0365f7dd022709230002b0c901e4ec5b0073c746034e712e0004e85401e3746a0257fe4701aca2d30378bdb702dc73d5,
  0x3db6260332bb0d01f530fb0149666202f5d04202a2d01c0029f3ef01a1c5680338fe970268dd05001bf28f0280e9d10380784e003451ba027dea4f000a2045033a5771020574900075ec55015e1f49000babda03b8d5a203f6af1901a6d29f03c9b7ae01013c3d00cb6aa803344f9501d5b288015bcd17,
  0x1d950102c388bf02c14f3701fe6985003a08b20358525402bcc1f5012f07cc0071727902cbe468001ce40b010208a701d5719b013c528f012e6f88035200cc03accd1c02a37fc00073062a0285e5c100035467014fcde703ac956402b1b10803d88adb02bdc0e30351f0ba00d21f4a0285cb22032e625e,
  0x23f6e10201fde0024e0702022eba4703b8dcae01d440a00174817b01744784036d64760126c31b00321f3201b929d9016a1c2403be7b120274f3cc01fe1b0a02db09af031d1f4a0291d28c01ff71a40003adc201c0729e000c52ef034da6140072e60901e52d72036257d8029a25f8026e1fbb008677ba,
  0x2da2c023ca439032c76b803d4900c018b4fc800965a880276a5aa03e0ed8f03f4af4e03d743d90003a04c02ca1645033aae1a012adf44017ae2be012afdf9034cd51a0002408b0320e099011f2a000017fe4d034ef11501d36f9201aeab4603b0c94902590a9d00d923d400367110012e049303c260b6,
  0x30036e01be07e3005284ed006aa50502f3e26e019bc6ae02b20ead03030f3501a0bf7e01049af3001b83ee00ef52ed03a0c2ff01e89b99031a056c00dbaa83032edf9002f5af0100cd5d2e03638c4800258cb1039755d000f1271903316ff401aaf89c0378e35201306bd30060423e00ec211f01c9ca03,
  0xccfcf01b3fb8a03d0a42900058aa70192cc5f03478c5901099b6100d02b4a006c250303fd2b14001100f102834dcf038eb2c3023c6f3b039e03be005e1bd403017fd6022135af03370a34025b4dd10039c11b0090e0c501e08dd202849a6d005386f701efefb103f4efaf00aa4ddf01bba33a0275a161,
  0x2d041701e56fe302f74d99008386d201f92983028fa8440266048d006e5ac902c63555001a1e41002355be03143fee01a88f4d02525fd0036ed2b301078a4d0264ad750227782d014bf00c0081a9ea0023c42d03bc557602ecdccf0085df080121cbd903fa2400011dedef0294e43003b06aec011464ec,
  0x2528210087b89202fe6d2a00f0954b0076e12e018a5f160389ff37032cc10f006fbcbd00bb7da2000ab021033b7dd000fd004100a098b101066690012209d8000ef44800989dcb0038e54d0012cb9a001e95fb0264af0500f506da0002cead00321545036d286000d07410026bdbaf01452c7100a324d2,
  0x323d860391b03302f9f2340352089901bead2003ab127f01aaf3d0039b666801c39853001e12570035c9be002d24830268587f02033c4e00c59c3403276c8f00f2225100215311038e979903f77ecb001be1c502dbaf8401e3605f0205b1cf0375a0ec00b86283037a412202a0a2940278e4250317e209,
  0xf261b01321b4b0342462e00c7872b03a378d2028c15cc00a73b0203e0a5520277e663037fa769001e267702a55947014df4fc00bd860b03c1b1010267a7910034ecd20157283103b76f5000fa0975001af00601856864015d110a01bdbd3c031b9bc200de4c4d03b36edc001e5e1801e3cc6a02c62bae,
  0x818a30246a42903215e98002000cc01efefe403bde5ac018304f100e5a24a01b82efe003e5528001247c5019e2929017b6c36037b235400ad4b50021fc2910031218202cb301501cd46ea035b855f002a2ab002ceea2102ffe38e03d18a4103c6987101348df603c53f0103dfc4ac002f76e20030787d,
  0x102f4f0302d55d01c6a9da010bcb0a02f409f9000c02f401c4b25002b12feb02cd94e00164f67b0001d6a002a0f5a503b0f1aa031491ed034ea9d202d0d2e7030bafad01594fa601d3fb7e027aa4fc002b62a601efc15f01f74910004fcaf100650c8000b2a00e011015a50098278b0076381802bc4681,
  0x12ff6403774f2601d58dad003bd97b01592ccf0375311b03456b9900e8a10403721bfb02faa418003a879d00bc76b60112e5a400d05d0201c508f60144e893033136e60250ca41006476e401d5e3ec002ba8b600a4b844012ca80402ddd4560389d50b02deb15303c31478033f33ce00d9e54902451fa0,
  0x39633a03dc8bf903c435aa03ca32ac003369480171e1d902c3a6f102a060c000c452100249d9ad0027028b0126deb00158a46a012258fb03e1bd09011cd0180378afdc00d46ca7034fa7de02f1f3830033699501f732690247561a02562cd00392200f00eaaafd0304062c033b9a8b015cf3f60078111a,
  0x2be163019e8629018c1b28032223d50223e5c301918b3a01f0909a03598ebc004427ac019cb55e002b19bc03da4d6e009010c702c394f402f70d79011f12ef0348d18100d642a902115cbd02f6d76b0037a33a0364bc5403876f7b006fa771020b4839017d94eb03832b5e01e57c8b03c899d103be623c,
  0x2b0c1d038d25220263a08a03c2f3d600f2648701f82b570292a7650315b00400f9a07b00673f9400105df40308aaf301ba7de602a1479602ca7fd50349b8e102baf0ec01630f4a028ca57503204839003fe11402a52361030a8749031b45c4028946d402fc016d03e5c01b038b0a23009eb117008ee355,
  0x399ab80068f70300b6ad9b029b9d1a0126005303e6071403cd326000ce244f03cf03c3023dda33001cbff8013a6d6400a00f1102bc4bd402b7c86900426600006c84f502173ac5004063ac013f06c00030e53203f8fe4e02c8cfa202761bad03cff65903176cd100682516013ba09603475f65032b8072,
  0x78ad301c598fd037a979c01841e220331551b02ec4dbe03e0bcf30325dcaf03d9b9860348f0d50027e3cc00f4e0cf0311ef58010f77490311d83b01c0f0730168a76102b62a21026c9c020011c227002f8aff013c5e35029a1ce401d6c67501930afd0327c7cd025919c6008c086d032dbfb000cec521,
  0x2d6ddf00d8532c01fb8c7500be1b0e0243c71a0131996c026c346a00af7bf001179c09004a8744003dcb19011288be0076095702c15ea701bc177702a7dee40185747d015278d80084ff6c03bf8de80039a10a01bc5e220108792300218ce00159d57600b114a4002487eb00b479c903335a1200bdd747,
  0x27149f02a88cb500d2d25501f1999e03815ba2017c3db402d17ce900ffc1e4006f1e9d00249fe70025128c017caddf022b9cb10387ac6b02d4046c03a774f50020071c005f81d6015ea7c8025bffd90018b0ea03da137500e28d790158a69e03f88a77015ef9b3016a6d0b005dac750163fea001b3f9c0,
  0x1073740229b78903d84fa8004387dc015943dd03c469fe0218d54d00ff07e602943c1802b5f2440029d926001b91b60091163e03334e6c03ce6bd903476791039ae39603b4a4fe01239e350179f2f7002ce5890213395701f6323f0321793a0315ad150200e7c9028f31f403d89604027beee003339746,
  0x33911100c4464d00d95d03013e845802509072036c775103b50b7001cad8f4032b6e7d015dc27c001d3c18000c2d440272587902b6b30902edbb5202e4a76003fde724009eee7301c316cd03df351d000a2e86021e1a4d03bd296300f6484801bfff6503ac173300cdf23901760eaf0073bc15019bdb29,
  0xaacfe00a11ad60035f182014abab603785f5e01c1295c00c9c37f01cc8e8d0336488603dbdd8d003940c602bc3ceb038505070322d58d030c15a80186a7ee00432ad503694df40088cca500cd6a4f00227a4c015bf4ee015ba58b036d968501b86661028b719903d196c60297d24e0005da1e01543712,
  0x380d10015a267a0343dbeb006eb6b0030bf74603d40105015e8c06026b4d15014ec7ee02c391f9002e21ce02bae3ee0323704c0157634b0103585a000fc68a033061b00322151f017e3d830282f573003c1c1d000f029201d85faf03a7cbe2016d3a9b02e86a52012af8f701e7c6000012f4d203dd22ce,
  0x3683240317195d0320459800c04eb10258036103fbef9b0348399902e914310071c3e602175a75000553b100e4c83b031d4812038e162700d8c0a9028067de0110085100f51db000b8f0f0022dda6d003caccb020150260077ce7303862a7a0067e94b038bd6930331111600eee65802548162016095ae,
  0x86a2a0227d6a7030ab739030073c8031a8998022dcc1301748862033af9ba02059ffa002782b3001865a70195e76901c356b603f2670b03ab2f9803443bf803fd8560031fbd6a00819fad00fd4ace00357dad03512dbf02a0ce58016d89240327f56902d83f3a002d0f520395a6fd030e729902367c27,
  0x141f6101ad910001b3aa00034190880301b6f601940ea10072f3370316491e03effed3032de7e8001c9411034faca500438bb90238e308002bd501027b69be039ba5e202fea3c30093c36301ddc8d3002551fd013ce99e00dba64900d931390057f6a201c41d07037f037003408e33032dc362023a4021,
  0x8734100326eee01eb5779000d1d8f02ccc32c028d00a10028291c02d1b94502d4da5a023c84fd003ea9cf014ba72900dbae2701dd12370196df3403fd0482028fb135019ffb5e013a7dae021ca8e8003c4df2036cf4ab00b483f801e9b03800fee005004c30e401ea1b9c030b21ff01815b0e00266be5,
  0x38e86c030ec51501ff48f300afb007001fd87a005bd702007cce2703df391a03f8c71c02382e5e002f8dfb024a88e502f85437033db8bc019ff5a703e72c3502dca29701a0349402ea4b43026d4139002a9d240004ba9c019646a903339cba00f582ea01cd848d029e0ce4013edfa103e11c0b03636f0f,
  0x1a58a903bd3a0f00037656027641f601f466eb0079386700db343b003737e8033878d301a6ed6d001abd70004c5e2800ab3c3a02da06b3038f43e603f2521e028e7b470028939b029a86bd02524330000dfb520017c7e60098d6b001277464003aedac0155ebd00216bc4e00a013cb02a9644200aaf5cb,
  0x1039b5033b790102fa422102dd2238037b05330244e47601908b5c011dabca036620f40093de04003999fe014c86a600683773036306b802e692cd013bcc3a01d1751b0222d832015daa86015021f50021dc2a0376c764038c272202d0d80b01ddd10902fca4fd0069ef1503d0fada022820a6015745a6,
  0x281dd9034629dc01cf850801dd09db01bf3f970072a4f4023d56b0036a370e01c4f4ef00c337cc002607c403c682f602ea5ccb02a5987e003889ad0148a30403ae8ee300c5ad5f0360af3a02df22680008d9dd0098fbd301d1b15203f8b9b201a1e65801ab336a01d29a6f036a5644036ab0e8019fe42d,
  0x2f346700396e5f0222439700ab4e2402a66c27022153af0242812c0246c23a02f9ad2700cabbed000f49bc00b510c300234d3403abe83802cde21a03403f23025f041503f8ef73008ecc250130f7f7003b5c0403022558006043bf032820f203d29c1b0201ba1c009915e601e1531f02e4d1fd0306882a,
  0x1a73090162605303516940020aa6e800755ec7021715d1038cdd310320116302ed15bc034011b700370a600262afbc0071fdae01adced6014c2d1403ef6e1e03be0a6f00cea4fd0132683c023874370034c66a03929c630273c52e0303c39b007ad081004b8399022547f80007a3cb01847d0400189470,
  0x23d56001bc04e0039adbad03ed520e03b1259600d91fa201260ae602f2c51e000d6b4601beaba0002b2261020b4aa90080cf83010f16240000c2a902de7f5803bdf7a5003977db0225f35b002670e6003f4a2300254d700258383803bc75b1011f8c5e03686f080023532f036cf8f102842bf7025312cb,
  0x3cac5100d0f784004176d702771a0803096d6f00b018450114e3e9031dff5e00e2d97a00a490bf002cb70802f99a5d030fa23a00feebb4007dddda00ac8ade01e2048c03df89d100a53ee300ccdd6f0001993103c60da003e689d001162e81026f0055001d551001119b630166342b03cf8d8403574467,
  0xe58d903800bfc01cded39028c97560152724101a4b5e1032796b40034d157014a5442018b2f880007cde502dcf3b702e405840285dce400b3f93b03fe47ef021e7d08009aedc501f882000324d8ce003cdff9000069cc03b27a9e02da97d802eb6e7101a898df02299b2900607fef00cf68e10099aaaf,
  0x379a6c0388853802d0026600832195018d0d9201c1b315033fd6ab0215c7f7023cb35701e60498001e67d102946d1502541b96039b3c3802af37a500690272028032e70327e16000cae64300e15e8a002457a4020834f502f94e0a0005a46900b448a20073ff8a000702960130c21c03ffb2cd0158b08d,
  0x1e031d026487a9028047c20398619d039da7f003b38ad602e72b5f00b142370310e86303d4de56003fd85503ae252000249e2f019c662500bec77800d965b0015e9d96035558310311fc1d01aa5d5d0000fee7012a0edf02ccada60381ffae003c23960108170802b5b2f5006685aa01ac0cb903e04425,
  0x2977fc03d85f40026ffb85022dbe940317c93503241b5300031bde00643593006d03d703a309c1001b14900386763600e4d8b50248c451001b32ac0379176902cfa3bc022c92e301c6ad1b01262efb002861df0162bde701a3c1a700a58e4002039ff6014f624b02664536009c3b0b03615b620291c0a7,
  0x1a5e1024451f700f62b9400f367df020c028f03312d370296fb0e037b3e4303a8d16b01a7aab00039a40f03a3f7be03da5e7f0279c29d01f07ac20396bfb503d1c712001937ca01b2ce2600af307a0027ddeb00993740028d9edb020f2e5402cc2a38006bb655011aa6cf01e3b26d0260d9ac000052e6,
  0x247114004f8fef020fadbd021cfa2b0354372503f43b3d02763bbd03f33f51034b95d801d50169000c0c1b0040b67b002f6a7003b44fef00b168c602a97a5600b0cab600e87032005f796001947637003e3bcb01aa82e403dc344f0200b10300c525420047278d037a43c7038bba9b03ed22d3031e781f,
  0x9825201ca9da500623ad403c0f13e02c480d103e11ddd0093ef2503462c1902ca929d00f19a87002adeef03c381b1014d54b8028e90f502bf769101b316b5031cc9b702ef38b700af001e01e2ca21001cc6c100f4e12100274aa7010f49af0212a1a40004102b029acc24030ee74a03a3b4cf029027f7,
  0x38b7bd01d8fe3e03a8d0a80111174e01f9a7d002468a5502373a2a02b62fc203aea0ed0286e3bc0014a34401d028fc0154bc77017f743c025dd4c200395dc602e8923003269936021b5adb03deaeae002efe6f00b8817203eadb60021b776d01cf271e023714860048d93f03d677e10379589a016ecaa7,
  0x223bdb0260663900655f0102b9ed140249b91500b9823a038a8ed1018aa98703c36f5b02b2374000193a2903af17da00c118680314312c008304f8006675e603094afb0273fdd103b787c9030b54ab000d40820340b4d103f22aa902a9c98c03178a4002f21eb003a542f302fa311d02d90c52011c45e0,
  0x3ab61603163794032a348f0370eaf3010738160047985e02e705040266fd0b0206f676009d151100122a02037d28e5008e5655026340d702b92c0d01444fd201c25a900266ff2e001d705f0368e0dd0013347d0109c6c800bd05fb011f721b03a096e203a2a1a3027303d90221e994012efb0b00b76c4b,
  0x21e80c006212310349d17f005ded86004fe19100f3317a002f929a010f199f02ccede4033f03ef0016fa24039d47f203fe3b73013936c5009abdd8032d6c1203c861410325e33b02eb2d8c003072f6001cc4760367996b01530d46016afa7500d0db8501a6cf0d0143b1c200f0341501f13d6100c3d580,
  0x6a16a008f408b03d9ac0c03dfb18001f7d32c016bc51102dbd8250003bfb502548cdd037e8c89003c2a6803e92f7503c7ee5d01483bfa00e0d5af02ad64fe013ee5e903ffa1d400cf5e1e00aeda4c001f849d0173df49011837240199fb8b01f6ecd800903d1102909ae502974e0f02d351d50293d4b7,
  0x1a739d03cbcc3100efa47e02fefcf10227d36001c478950066aa8500d46d4b01d8186d019c40c50013447503c8769502a7cc0402b44fa700ee0f020047414600ee1aca03fc5b9401a23fda02f973a50030c7b9001b959801dd2b88013244fb028c3e4e004b40f900d6c71a018d4d9801f01830038e319c,
  0x3c30b400fff12d025bd9e40088766c00523a2602c27f83028e927d0274bb30030a602900d5a0c90031533f00c521ab015a947800c864b5020115560281ce060139f75a00e18ed6005f0444035beaec0012bc1c01358d810383d5e90124452f033fd901009f17e7027dc66f006b3de803f86c550162bb57,
  0x1bca17017a514d03bc620c01f66477010277d10210dcd900afb7430333347e001d527a00bf928900366ab60039195b0226a80e00b1371b00ff0429034ecb15026f06ae00f535d502447e7901970de20023abc60166929001764b3002f7eefc0178e23c0340615b00c844a9011c0cfb031210f8036d4dcb,
  0xf15ff0231bb4f03ee0d3b0079e58b037cce330292a2ec0264d8ed019a7f1d022fd34d00d1ed53000c9fb101b62644025f270603a611dc03afb12000cb1e54032604e10304fb4402c92dbb02a8d49b003f15a30067ded80276a433001afe7c028af6940252c17001459d8b02f6418300fa59540367a3ef,
  0x3a71a01e7a3f9034530fe00f8732d03496c7e035e02a201908305012e587a038c08080180a80d0001a5d101b5404203ad6dcc010b285a00bc510802d7c03903a1e195012644170326e53702aca1e70023bed9022e6e6101ed6d72032ff97200085a9d01469dd100a307bc00df07a7016fbf32038a46e4,
  0x202f330286516003d2930c02e454ea026145fb01504d330385077b023b7e2d00a3fa6003baa8870032927c0399fa590281f81d036b5512029d8616017c19e40354d3fb02f31f460262e9f800c7dc8700243c4503d039dc00c4e5f30199df8902012565023ec1690349995400f83754000e1071016614a3,
  0x358a9500d8afbb02d739bb03a7578a001819e400b323560063327200d62817003a7f82038a738c0016dd1e03d500ef00ec2f70015e8fee029c82be0152d8b3003e54b70079c8710141801202b95203003d121b0351af2701dd584701d27153024ce948020964840027abe001025def036c77b8002e200f,
  0x336ec8017e6a6601dcf4e202da7fcf0124928101c3db0d01094c96007e4fe10343baea02f2ea600027c95b0185e3650277712d02b398fe03d7be64001a24d1037eaaf601c9c4820263a01903f30b680010423c00d9aa5900793d63014839dd030ab28800a1495503a18fcb030f1bc00378ea150253a3ce,
  0x1ac04601f592bd036ac4ca02717873013968980096d7ab02afc1b300846654032be2eb0072d146003cc12002a6bd9e0110172e03d6444801861e970396574a031bc39a019510d502e114be03c44cf20027c34602c28442014f000c0282890c000f8820004b4e7f036e5502017bad0900cdb801021987ca,
  0x222ca201d586a20121573b02859da7011fa13502e9b9c60080161702ed696e002cd0d7009782e600127ed003e36c82025660e502f512dd032fb24000e68e5c03a561d702e979de03ecd0e002d34e440038d826031756cd000a09d002a85b7f0170448300714b8e0000d3460372312003870d63001e74d7,
  0x1e52000232bdea01b5362000de5ada02f4287303a544ee018bc67703c82d540117819b006e2c29002d0afd021ea04c021726e103a0e12003e313ac038ec7840214204a03e12b38029821ab002b69ab0014873c00e2f14702d641c70185516303710d3901f2b1e3018b69fd0128244b008da23901278cc3,
  0x21e967018bdf62022c772100fb8c7601dbd16f03fc7a7d007889e30086b4ef00a2cc8b0076733c003a213203eac7900399184f01f81552002225b102bd3a3700595aea0374acd6022268e1002acfd7002bba0b00bb662f003e9372037be897011a4d730313bea1010ea0cd0164e49c000968d303bb540f,
  0x375bd023ae1b6017fd2e203efbe67004fa96701da3ee9005b0d83007d7096008a9af50273d7810025aa2002e890bf01350ee30186afbf006c6be702643d6700c89222002960cd0229781902e88da0000ec88c0382df100376408101e5a10c02f2d3cf03487b57024a1f90022c9e1301c78ebd035db659,
  0x39d25b02f18a7e00d80a1202d6b289030a0acf02be0a9500784238013af27c0184c89d024fdb72002f68f001edbf8b02b082f901a9c4b203e4615b0336e91400cf6a330393f2650136ef4c0383ae82001f72dc0181500b006d54ed038aefd102a29e8003fa95b601d15c300318cac602153fe803cf5f27,
  0x3c263c005b02ca0038a5f0000e6ec10170c5e70399ccac006c244502f5bd440056b15f0238b8e40016522102d0f1430379ab9e03fcd144010a81140347590502bcf6ad031ee642014317b1036d811b002999350148fe40007f82fd01d3dc0502f523ef02b0a5eb03b190ba01e5466200c8c86603d785e4,
  0x32275500eb08c2007a269a01d9c743033c9f4e00bc0c6f02b12a2f00c670e50165283d0289c7990005feb402c17225032d7fe20314722d014b7c00017f55aa03081cfd0264d283015b5e59016335a3003cb780038ec2ff01cca8da022496a8004830fb03410e4c02b930d50388177201d232620325bb6c,
  0x18ca7d014c33af00610d5a029de1e7024e85b803fcc31f01bc86cc037e7deb00bcdc0903a952710013ea7603bc4690015b01320079ac6101b6f42503c9e235012db6160026796c03bc62a20213e7160031dfdc0093c95803511ece03789e6301cfab5c013cd35d005c54a400b09df10201a34802ffb95f,
  0x9665b0032ddab036e585603995d030017e1a00096ba8c01b6c310038351920096d8c501abf2bf0032559f0258b89402e285280140191400d60c12004091d8013ffaf30145bcf10158be2001b65c0a000b1b1603d962d80325ffa20269439001c8b7a3003ba2af03e6e1e8004df41801babb0f0007d2cf,
  0x38519d008398df001a2c4f035c05d902897b4303b8063d030327240195843c0030b4e50377d3a300122a3401d173d6008cdc1e02775ea6033d116d03c6107202563ec600960a2a035c8b1e013bb90100130ce50122383f0192c9cc01c53785035ebf1202b0620b0284b960034b5b7f028f3a2b012d6e08,
  0x1165ef01fee8e80000b74d0289bea900be1d6903af7b2d0237b9ce00d0a2b0032344c602e942050001943602c30a0e01ccae06009bf27102b78b9d016028af002878cd01d1d85902456c630213e126003900c6026de7500304e78b023dd9000354d6ac024b0d9e0249224a03ea4d860031e39b02c32940,
  0x11df380256c02300aecc3702f2a2cc0220274201bf33cc03c81362022cb0050010c90d0113491b00101beb03bce5d4014422d2012fa08f00e461cd013922cd020e286801a716fb025d31b400128af00004fc8b02cffc550002ce42034b02040076abaa00f7a8b4025b4f2901a0621e0359690402c8442a,
  0x3b549e00b4c469028f4cce016c572902ee1a5f0143468403ea0e1a02b2d28902f661310342dbf200395cb903f5930703fcdbe803d991cb03e5d82e00c6d69a0194c6bc0282c5ce03a245e001cb5b48002e38530094696d01f1ddcc030662c70347f89501de128702d6de7c0340ffce009180fe00798da1,
  0x38107a022fee4103416e360173bd150268ede8020928ba03f45ca902415dc500a9364a03e7d16e0031e2c001579dcf02d2f73e01d2512a036eacef03feffbb00066f3e0192143903f729a0011958320015962c0263fce702d962f802bef6650341a761029bc1ad028e6ea800726c7703e8c83502568b01,
  0x707830366e2d0000cba94007e1aa0035e0bcb02679cd902d56b60014cdc6a020fa65e00d55d94003b95ea02803840030abb9f00bf17f20326b6fb01914abd033a3ba2022993e9020f306001444e2c002a222000899a5801b910680102082a03b53f54028243ac033f461203eb6eb7008c71dc009508cc,
  0x19f728009f78450003558702a7707d0380ab9c00952d130391a741019924a4039d7936022e240d003aa585036268d8018af80e03363d9d00f604ea01b46694017fd63a00b37431033a985e01e647190007af5e02c9b05402cb0a0d0330ad0d0301b3b501d5655c022d646803fd26ab0392d08602874e09,
  0xa2ab601113fe3031140be007ad93903fb4c1e037b867800030c1e00e06ca501834a42009d7801000cc60c032b3c2802d9c6b601fe818d002faeca01f0d012002def5f037300ee006a86a401eafea50011d98201b3c3ae0150b85002fbe387033654fb025622fa034e62cb025a38430119636c02319ac8,
  0x2146cc01f0fcab006168e700f7d8fe0012702300f1cce30343d17903c883c5000eb6d200d8ab7e00338cb1020debf5019810cf019eab7f0096325300a3015a0179d00d025ff71a02c1d58e014b5a2f002f27c701aff572021fffda031e8d5600e01dd402aee83003c9a30d02fc4c3e0183d8ae006f9ae3,
  0x115d6b022cf12700823c69028b57d3008747ed0362c39900f66ddb028c8f4101f6d2ef039b62460039d5d2033242e40244d4b501ac9fdf0145f94a02a1c58702faea9701b67c8f018fd078025df6be0024b8810025e317003b7a26039d590503609bfe004df824033bd0c9011bf2ad02f81fe102b68182,
  0xf7a9c01a2c6d9007d1efe02e631d50255e6af00af100d0140c4d603dcc17e023537d00121808f003ccdaf01c083e700f3e58003d8f1640324ab3103c940150378b720032fd81700fabbdd0024fdae0023860903ea2b4400baabd3035877ea03fc11fa03126f370033067601dd94580186c1d603e5e789,
  0x33ddfd02ae270c02d32e70000490b400ff906e0348116800dc381502eff392029b173a02d98784002218cc025d88dc0146d903015b0e85003dc63b021e9984015f6892016f3dbb030e316c02397f2e000e3d7e01a0c3ca0392d4c001d1531902a0ceed02e9cef30180c5e502b2d8da036d8f45001f8699,
  0xccd9c022cb74a02c0095c0063e04e0196a603002048af036c145d0103c9d100aee7e2015f738d002e5575032266c8036982d500110d3b025cb53a004db146009c14b103aa4dc503d06c200301a3190003d32501baf83d020e3bb80351f35401e3bfa1009d8fc90330919201850ae30026c57a023c06e2,
  0x1677f5001fe20901b18a88035c816602f83c6a02e2df7103428cda03bbca5002a1d34203a5fd2d002cef18019ed60b01ea4fe400097d380057fe5103b63bad001d924701d738150247741e017e15100006a44903b9e21a00180086021eb1f503941a6202d8f65400fe79b303f0857a03903c71013ab0cf,
  0x2ce52e0229f8c3036bc88300919dba022f42a30082f0ff019d4e2f03d9ed850298651103e57bbd00304eed012ce19c0099743903d8b79002561bba035f879a029c29260281d9d103f6419c031646ba0001a5d102a68570021623bb011cfd1503b6ba1e012060cd0223dd12000edd7f027f187b02254152,
  0x3ad0e800f85eb6003617f40381a7a001f4a7e2009b8ca50090f2f100cad4910264933a018ebed50037a4b40389963b02650a8d00ef79b4034589eb03118b0001f56505031f64ec027a4b3a01ee07de002ce5d903a37718023f25ba03c58bb400f039170032748700afb0f700f019ae00a02b49011d0c87,
  0x15b107014697d601258e6202e8f7d201f293d002431de9035e7861038a4c7b014a516b03a45044003d51420156cb8b0295e70f0314dd2c004e9ba403ac09ad00959092013b11e100a302c400de05da0010538101dd27d9036cc66a007799c0004c4e9b0217ba1502af40d80111f970033460bb0152ae96,
  0x31e1d502252bbc0046cb82007a2aed0198fb99001cd5bd036cf7c9000c4570026981e200453501003bc70200b549160058d646032b997f033fc0c80111b1ad014a8e2a00fa244c00833b7b034c4703003f11db038ab3b10388c07300ddd76b000c8b630292225602d8dc7d00b69f71028151bb03ea79e9,
  0xbebfc01191a00004a763c0051abca011c4ebf022d5bd000e0ef870380edb6031f8a00036744900008ae8301fc5d4001a70bea013e38a4012774e203c0c7bf03ba709f033b32790098e46302eb562b000454a9039216c201dba17c030dc1bd02de0f6102205b1f03f89009000ebe8b030afbc0029a2d33,
  0x3c8da502629252016093a2010de674018d718c009c42a802c3bbe20362c58000132294036315900005726d02992e2e0088e9e601825c9902c82e1700b7f8ef00ca5d3b02ac9b9a02105941031eeef20019fab40004674402a5325f01f68e0c020a0004007e7d0e03d9cac20031627002fe182903d073de,
  0x15106102c3df82028496e502c9af0e03481aa503f4b088014cc3ae019f234600a98ce8012450cf0021ba4102a6992301fb3349015c55e801db2850027ebc3a02c0d9d102fe189102ece30500fb27d7001d6c5e037760c50349521703e5e7c0014dc59301217b55007888cc00b3c275036a88a600afc127,
  0x899620247ec58001ba0f5016754a301ed217200406e92022a09ab01c7f0fe023e2420009f58df0004cad902c038ae03b61ef3018e09dc03795952022619cf003c97f7032da66302c590b603c85374003671b402b6857f035985d502dbcce1002fa76f00e91d46004ffb4a0186287300d1311a00c227e8,
  0x25e57f00630a430274dcf901c4a2d70148a211026150e302971ea8028da7c70249c799011587ce003786ff0165ff9002f13b88013ca09d0001e2b700e7ab0b02a4b7cb011f4ccd038b091401f4dc98002ac79902330dd500bf564a02633a2b02efad8d002bab4e027aba79024d933a001ce32602376ebc,
  0x1b352503503e7601fdda6f01f56fa70323701a027b142800f1e1f0026ceaef019c5488025472840025983b02bd6c2603c72b1400635e7902aaa92c02c016d702c77cee032f987d013e5cad006cc746002ef56c00f4767d03dcd99d023e8404020ca8cb0065d2680046362001f615f0027bda2403eb5dbd,
  0x222655014bd73b00e9c1ac0253a419011d568e02cfa88501e262cd01406c150075432f0253d40f000ba5890393aa06002b6cda029c51010111583a00d3cdaf01afe43e0232b07703d7e98900101432003de47302250d8c02c28a17026fc907016c8d1f03e6c4c0009815cb03f53ff50213ea0003440392,
  0x201ccd01837d5a03b987bb034524b60112f3ca01a6ad6b0391eb0e03c22e0f011ff4a1039eee34001741d3005fc8fc0282ac78002f9c2e01a8202601a881a00320648f02ffcb8103fde7b20127c871002e07a303a3737f03803f0f025292970102d437022841ab03d6755702693ba00375e1690099002a,
  0x38eb1e00c84ab703647dfa0150f66002c2292302bb5f58037242ce02a7c578037c590f00c52125002e1a4401dfc153018967a00072287002e9adc103dfa9ac00eabe43010cbbf90278cf17032b39bf0035a1010345f4b602b00bdd036c5aac0190131f01a9d6da02cbb4560062e1d602e7832f0337d251,
  0x39e6880254e64e02b7585103f5ba5c03171b2803c8bd0202066d4c015ae8bb0156d593024357ee0017c141008b0b7e01f0c4b300e1a77e03e52cd5024c6647021e162001123ab4025eca5501e7ce540022c29f033cc9a9036aa5a70235dbe50203656502b351b002055714038c4e1303ea71f603d76834,
  0x97dad03153336027e06be0024b450009b49d400c1d0ae02f0aca60250e78f038942fa02a927e000257e34005c122200e403880395fc5a03fb346700f5b5c201c37e2d0370adfa035d2a390032f5bc000a0e12021e8ff10363e86701ecc35401c112d403a0269101b0e72601638d66028b7e0f02aecc87,
  0x31917e033534740180c4740281e5a6017c4f430001d1d702006485027c6b6500b2b6c901a70485000c8e460282d30c00dc79ce028a325f012f6b4c01c770d80311786d00d58c30015816230187f3ac0002dec00183ee3502b42e0b001d8caa001ee44800f7e49e03068b4e03698c15030336b70233c6ef,
  0xbf45f0242fe810121a875033a7991034696490379538f036405fe0014c0d103252f32005f25a900353bac033756be02c4746c0055ff9c02127a5d010e972801911db901a1ea8803c910080262ff690024565b02858f2502182d7301679d97017c152d02643c20000abbc7011fa1e8029723aa02a879c8,
  0x26fe60191ed1e0272a40c03993f3002beb29603aac8390309753b0124d0cf03d51b5f0245380c000e68680360cfc500980c9503e795e30146703c0103ca2202706f8e027fbb85017e7fb202b6f9ab000d271a0109d7710010d24502793e1102257f510038ce26007fad8b0030d9f50342a5a103b8913a,
  0x2e9775008a65cd026adce303a8d82a01484bc000f33d35029673f003cd76a701088455038a3393002aa678031653df014a78ea01718a9d0126e24c02a030c50343b42b031b419f03e5dd2202e9ddb10026608201f12928015b3a7d013434af0117c77b01a9e76702bf4cee00e12210001e2b0500cc83a8,
  0x23cf300139dc9103f75b4102c9034601219fae02c4199003bae8b603770ff001ec53220078914600040c53026e178e00c7efa403ab2dca02c61d9c01b7f6c60166cc8e02eb893702481e10011f2663002a2e3a011d188d019c94eb0048987c033566b6039bfb00024534a3004d78260279c5a7035af68c,
  0x2ef2ad020eb184008f50df026227fa0346b7480234309d039e976d03fe72f9029cbdd0013764460036691501264c1800c0a5f903ee65d000efeac602ebc73f008341ca00b7068900fcce1203b42a5f001e2f1301aac84501ffb8a1021f21f7036913f003d85573014af5cf0073c4950123115903fdefbc,
  0x128735019091b403d9f019001d5759021458ea004b2115014719350264420d00e6478f027011fd003be88402a268eb014fb4cb02e7ea2b039ef60e02f4105b0124001301ca38b803f0388b003ddfec003139b1009ccd8b03cb48ca02ccb6dd010d06db005e552e027ccaf603d355a1019222c10171ca41,
  0x201291018dac9d02e2ace0012512b703c1b566036bce43034157390071e21603818eff03bb34620026b5580091e075001ff59e01a01ca402c9a836027b7bd901ad2d9301c08977010b88db00e0c1460028594b02f7b44f02c01ed70331252601bf8629037f1f3a00605584015e191e0359954703b8444e,
  0x1bd50b01e16a2b02ca55f4035632c303e8962401078dc30293478b03ccfca70366e1460340ebc200334d0d03d05db0022ad1c4023df1f5025ffbaa036692b9038297a103cc5ed80358d6bc0222930900159d75008f9039027f68ad03daf21f02c1d4fc00e4ad59016afc0000c0d78301c3077502f9603d,
  0x230dc00225b94c03cce5f9007b36e5001abcfa0312e81e021b3231024392450052a1180009350d001c42a602c2419f003796c60166be8003f14e8402612b6b0184008b037de4aa01d6786c016e84ac002b166902f1647b0301add801159ed700af3ba102b0375501be91da024cbf0702e041e900598b1f,
  0x3c107501235bf401b7dc1a02649fa803d3456500bb714403a1983e02dfdefb031b62dd038bad790039abce00b85fc4037007fa029d9d0c0038a86d0230c1200397618e02745190000e380501a93d1e0039ae24021948f90077f1be02fb9ba403797675000e685903f0832902c2cee800d052a902988aaa,
  0x2d5e380280cafa018cbe7200b16d0f030cb0d300031c9703e93d930210cb9102c8bdf000a2887a0002d5ab01dcadce037e5fbe012beaee01fad9cc005d6fbc009ce5b80272cd61024289c8026fcf61003eb11802acd91900a3ceb6025f1f8d0264f02c03beabc4037cff6800ce0efb01654a5900bdfc65,
  0x190fb602472d02011fccbf006b88ff00b246a303bda5270387a16c0277b7b203d7e888001c2a300010f43c0210d8c400f6e7ac036dac38004d0f48018c8e8303af1f66010914d902c66cb60093122c0026a30e0383c471000ed48901ac04c003f7f2aa03757a79019acb6003c4d6a700538ec7039a0f6f,
  0x34d74f01f0a2470301500502c24197015c844800c97bcf02b5afe8017800ab015699fa0066f186000b74680051e7b50162cb810276aa7e0106f048026bca000324916500f8b39f02300d6f009370210035030e008dfa6200b484ad0176da21010ea1370187942d033be152025a86e00090fdcb00fc4b30,
  0x39c521037e1d3f0174e5f20369a6b800cd4d6a0118a84b0353c5f10017816f002f2a7d03bae939001c6ef3028bc5f201a718d001f11c630209381702e3489103cfe4140263357802b96245022c01880016ccbf011ae30b02b0d37a02b8e7e8000f52dd0113dede004e1aaf01744fad012b722f01be206f,
  0xe2ccc03b44d28005c125d01e20303004a9b7f00b8240e02b4d80c00a4d9b2033edbed03c220e0001d9e9f02c9b41300c87823006da88702ebbfc703699cab021c349401a454f8020d435f004e87dc0025552f016047a1033dce92026250ea0145c92e0069ab5501be792500f826fa02b7254b02380620,
  0x1c93fe021f272b01ab9e2702736ea8023154bf00ebcec4021c85250320451602fe3f85034bca33003e029a0385fc3402ebc73e0216246e01a968380340784d004c3e8e022c8fb80167bc460166a4d4002e1f0c006248cc0036fba20360c6b1039c35ec02e6589c011b27d700d2ddce02d4d4f60244ab9e,
  0x3e4fee036a9af30279d89c010676a200035ec70324c4db0299f9ec03cf827b0090145802c4cea600292e0601bca83f033d507c029f1d15013f7360028fe06b00586a6601f346e9004ab42201368b29003c69620116793e02602f380335f8b4024f3be60376f5bc0267e20b026ecc1d0320f50f02440cff,
  0x249b4702c3902f02304b16018de30502edf6d302772d980205ace4027aba2c0023ddc002f62a7e000db7d701ef1ddb013282cf0233e30c0250686d00e43400026056a002ed7387021d8816039c094f000cae270080f4720109379200ca9427004a9dd1034b9e84010610be019b0bcb019084b000634f1f,
  0x7c31e0357922e013a13400018be9c033ea22b03d82cce030b2108039d6d61025b6847032a3fe200192cb100a1a7c603f074e8021cd4f80212785a03cf22ed011102da03d6d76001d77e26015674df00005811031099d90136d76202f369d302ed359f03bfe71401122f2a016048fc0140831800c193f0,
  0x3973302d09da50275c273003d74fc006b2ab903bdfc73015b6466033e630e03809656016d4e05000753c602cc8989038703a9010c059b01b43fe7010d12d800bae3ed01b36d0201b32dc602163a4f000d67ef03521f6b038366fa01e82674035245010275a1af02dad8fa018a3a4c017dfeed00c66025,
  0x2633d60267b718035ea41a02171d1502cdc89601cdd73401cf261600c16135027969950033d1410016632003718250027fec3002060d3c03bfc6140384ee1d00d3287302c6e6b501de4efc015e33eb00308e9800f9f66c00d50def02644e5b03cc0771031622ef02d5758e017e0f710333c9ea02ee72ee,
  0x22ff0102783f70015eb22903b22be702b35134006ddf3b01db031a029b36a903805997012cb48900292e9e000805290228d7a6003cd23900fdd3f7035be89803c933830105de6b01ceb94d01129d81001739e100552ac5019b3704004f10f6016873730305c8ff037fcc4300d383a9030d20dc02489df5,
  0xe0fbe03d78d6000d33b4503942b6300176c8c0107279900d6fd5300f7d32501b71a2a02ecfb4e003b263e026a031b003e987d027f430b01aa440503a8e48b00b2033202f60ecc018f690b00e32700001264fb022c502400cc9c0f02b9775801517ef101f72f68038af2bd03a55fce03b8c9540075de1f,
  0x7304e0251f6e10231f5a0003c795f0337eb69021b6fea03be3c1a0324a71d015378ed03aa35470025e42701ded8c10070b732028a6d3201c595a902aa112b01002040035b2dda02207ec3026dd6c7001680990271e803020bce28021e2f840392982702b8bdd80261a4bb00f91cf8012cb11103472176,
  0x1cac1a02915bc3009cc350024c85bd006d491403b4348c015df3b802335eb0007b67b7011e3d74000e182203cebc960395f55801ab456d03688a0b03c979830043c0d40035a76b0120b0e302f4fa5b002d962c03544e4b006c17d202bd92d6007f3e1400cc37f500cbf0f501b8ebf702b4b2c60162a091,
  0x32fd25039087c301199ece021a271b018a096f004f207c025de66903317a690301bbc202aa7c070015acb203c35ebf0351363c03c5e700035b4a0e0211be8502e37aaf008551050286785c0201de38000bf65c029e4f58033d1115033f10630367e26701e1777403b40630033d6ae200f68277033f5db2,
  0x21818900d62b1c021b54bb01555f45013cd0ab01451d14021a17b301fbcbdb00ec029b0255d234001bcb8e000576cb03eccb2f0098d6ae0320ac4e006d4dea02ba919e0195dd36018e393400aa48c0000a32f30189ed7200007b61001e993e0133f68a02f56e05005955e001bf859701e0101203c3b452,
  0x20941c00d58faa00ea157001c941e700087c1a02b4f18d028736f30261809f003001080077f9b40005311300bcefb7000914aa025c624100a1b4ce028512c103abad42023b929303e603060103ad710039a1890244fcae0111e34e03603e1a039e7b3803ad090c01ea3e30024cd0cb01a64bcd0076eb8f,
  0x1df697014ecca30223a808005b7eab015f9eef01b329ad01dc71bc015786d70035a9c300f22091002415ec03ed00fa0291e5d0023ec1ee031839d000d6db8403cb8e3b01171d6e00385ce103e0355b001a7c29006bcf6403e3857400270ac20343d0df0176d990028d5ea203ef25d901c98f4c03547b24,
  0x91b7d02863d9803b0a2630086a6aa01a7efff001aa87a0395c03200b15a45039f05ba0281337c0009bd6001af407102117878022ca6bf03bb2b9e018e894f02a331d8013bf63f021677860224f2bd0002cea60307f8930343737400c89722024b1a4e038aad2102a528e40023d5c8037d867c0171241b,
  0x4c52f0374d768034b980500c10248027b7e2f00dba408010e1a0d00b99393002d67eb0230fde5000401d5032b4389022b2ab903f6980f0202a05e00c6bfa7000fcffc00d0b76003a49180013b2fc9002f799102da212c01ca560d0276ada703ca35780383ce9101bed0c8018ff3f1006b0fdf02b43678,
  0x3cd7c0380dced00f6ee33013db9b403d036e103d0c1d5033fe1bd02bf32b800f2cfe9027a647e0019ac7d019f70b803a91d0f032c577f03a8339400b8a1780007c4d802ac0166018f3c46014ba2c50017549a011fd98f0134958601464b36017a079e03b4688e022704ee00f45c6a02074a0b020512e5,
  0x1476602074ff2013a05fd017c4ae4024dba070378b40200cce18b019862f703425e6e018e6733001e996e00047bcc006646ef02bedbe6002d539002b50dfc014c0cf70088d78102843a2c00a4ae46000775d5005a406601e084ed0286f4190303fd2b01d9894400d7475600fc3f790041553201ea08e7,
  0x1c990e01f92d6003f7d3a8036d7b2902ff26bc02832f400340956800d9c08a033cd4b702a6dac80023aa7402c914d700df5877011d4eb600ba848000857ead039d650d0102f31400949de8036e665c0011945b0091ed8800be990f0337ec6602bdb55e0297f3c200227e1e0391b4ca022da82700aa4afe,
  0x2b626016dc3d8034533c4025deb5002ce3504009620610136ccd4021eec16009f57bf0046a139003e284001cd9da301e8e88203584736018068b300eeb8f802442ce501d391c503e35f2402a71e53000296a600ce4c2003d3e7ed038fa7880009ffa8004619b102e16793032baa5c0286f6ab00c5be40,
  0x187f77019554060333941203d95276008d0fdb00555d2603fd6dda0046082800d14a2302e6187f000f7e4d0152a75602d028eb015d4b090094fd6b0284c83203b33f24029a4a130108855c02de4fdf000b4b930202fd210124cfa80073f2d10305bf0202829a090354b7d101f99278031c4614036324c4,
  0xb566602be3df30126399a02699f8f0396ef1f0169d1a400b0ce3d0242e1fd03c8f18200cacfc20024114702c9c80d01d4f65b02cf3eca02ae0e3002a28ae100f29df801b4a9a303eb279b02693934003adb28022e09880051dbe2013842e502e06c0e00b387990272d972001db11002b0ad590198e3f6,
  0x5742d0061117e01e3ed74037bd0550243719700d165fe017691c0004b4a6901e6226b02a00eae000d6472009b757d01f9761600fbe1c70278686b0350674800a70ad303c5b9fa021ead7303a32d8c00275b35036131cc03628c79006a472403e9bf0003027d0f00701a930182fbc302408ad101c9f670,
  0x1c3c5c013fb2d5034faa4900dc6c580085606e0060e9a501f3dd2f00cfd08a02e67ba9031ed0d300272a9b01b909f703d3c32a0343caff002c73ff02fc5d9a00ce1002002d02df0108dd1e021e8ad3003f499901df9bdf01eabcc503af44b300cb1f160358ee7f03daa3dd015902750225ddfd01e6af8c,
  0x1a148f01da092d023450c501205f2f03d887bb01da0f7703057aa40286d62302df53dc003efe340034eb7b03d9aaf300b334f200679c3f00db68ff01b553de01f3f7b9039b175c0332e35901819675000b88130312a2a503b171ec03de2c1c03cda6b901da10ac00a4c7c001b9a67e00571231025ff0b2,
  0x32ef5002c5c6f6037e8d03020c4a3901cbda630065c479026f33e201d4f8db00f3a6d10303d883003783f90276bb4500db00eb013c09b7017b5c0c0397807d01d2489903f0bb9703c52cbf0014beb9001e2f5202928b21011656bd0108ee97033b70380221b32c038a9c9e0109e975028437dd02985a19,
  0x342d890045093302770d5602181099006cfe2900d54005035cfb5900675052010eca94019911b90008a40a001895190166604b02c255cf037d5d88013484380095a05e00713e4c01909a9e02890526001333c30130cc1b0222e11e00d87a7002916b7a00d5ec6001672a650286ce0403fa8f4101e43c07,
  0x13f2ed0256f35f018499a20103aa9801da4a0902f7c08d032d6531024ae08803e521b602070ae0001297a302f7e0cc0374506000ad0c0302fb4cc2021d800102c3aec201c20e9e02a1a28a02968e5a00358b520129d4ea00c8c27d03cdfad50257370f0304612701d9965701dcac480171736b012a4958,
  0x23cda7009cebdc002ddc5b0340814a0185076203c4a8bc02e29c580291c082038f32c002b24bcc0032ab4a002343030360de6301cbd582033a466c02184f67002036710185071b0091b1590377327700189cf4003c983d00dd529701e6f6e800318acb0130fb1a002f69470229b2a600b729a2003c4ef7,
  0x8f0c403017b0203e3fa5600aeb34f025bb38902811549035880c5019961c601bc842d00ade07a002c06b7028b975c038e4e0d02e80ad600456580015bf47201216ff100b9b92d01f1337a00daa44500360db503bea2ef024c0e980259be66018d2606009ac65300c45178011be027012cd358035c2d47,
  0x1e24c40075540700b93b930010606801be048101d09b1000579def03d1454a02f56356034be6d6001f672400d35dfb011876c501b47e37036bf7cd0043406603f31b7900c13761018385c300a238a30013ec6203997f78010a2ee803ec8d5a002649c101ef46e003fe74ba00c87c9a03feda5702a4735d,
  0x2b5fbd0007bada0186c4b901682ed1039bf26f02ce67670370545003629d2600db412b00a28350000a842602ef65fb00cd9a23006178c8039a7ab9003f80e102961461012560e6001bdbcf00b607e8002287930175c0d0038e528b00e784e4037a7d3101babfd20299b98a0308b0a601cebb9d0302748f,
  0x3bcbfa0313d470003d03f4027cbfc0004d05ec0182240a0201760500422c2402487da80175844b0020c9d103d1d07103360d1c00490a3b00eadb1803063cd400ec867900c43fb5018d54df020bdb0a000d40ca00204cae0123c78e004167760005732402c1495c031e5cf3032d12a501016c2903d6ea8d,
  0x5004f03d9399d0163f1b303e7d85601e2cdf202e08f0000e368a4009ec78c004560a901a5344800272c1e01b598cc01ecd1120056df500005574f003f23a003e6d9f701cbd6260152b2f9005cab50003db84c03a876030105354b03c97e920374982d0132b76200f6683e0175e9e90107044b01403e09,
  0x3984360346774e02c722f20259752503ccc86501bd972700e233b8009722c70227df0c005bfefb001066cd00f2e53302dc33f20249318d019e087900478ec802cf23cb028d59dc0228625d0371e335003613d80223c80201458887029d1f1b01b4d413000da1d20115616f02e8a7920399f3ec02668daa,
  0x10f519037d3af00196922001b7829702dadba4025cce470127994403d47a5f018157cf007c70290016f180026b0b6a013b1dbf0174ffe8007cba130155775202e23aea01b14cf60271bdd9032c001800072778029116ac039a2f2a00256891022971a600d164e30107c0b10041bd9102553c8e0255e7bc,
  0x2fe5b90085ac76009a3d2003bec9f5021ec55e0009e498022f559f0199ec980379dfb902b8b3ec002c2e6900ed246e01a24dba029442f700044c6501f679730013727201798b1a020b61490287aeb500065794009fb42901b510bc03c48a750209828302e618d400c0ce7401ab1aca022f161700323aa3,
  0x2a0fa202fd864801ce56b701b2e62a020884fe0360d3bd010be00d02c0bdb8032c02ca02001fc1002aea49002ad29b01ac933000c5793401d69b4a00e46ec401baba5f038c9ddf008c10fc0382c7df003f8199010d2d100316a1b702b6c172002ae8ae039f8cea032b71aa021d814903f41c4900b8dac5,
  0xbf0f2012f21fe037378840213ee0c0382dd8b03b9ed0b01280e6d00da6539015c07cc03cdd5130013ed7b032cc5120088b749029eaa2b0234c97d03e1479303c0fa6303fc6a4400e40a470292fa2700071bc2001a62a103f1ca36005fac95001b0677027ff9140089639000c224500219173c005169df,
  0x21703701c731ba0197fe69006e4d1b00bd7ac102502350023c71a3011fa64503f16cf302fe72dc00061d1a013b767c00cd49190009b69701d4cc6b010e312b03c2fd48005e376d00887b3503b180e300281da1000ef9e402ac7711019a44f302cb46fd018c495600c3f192010257ce031a8a9f020d0b58,
  0x1f22b1036964c90113c5580249600702d9e4a60016ced1025000230088b727028b70b402b3f4e30028008403e5c75b03461346038e96f2010ae90100678b0103ab621e018d16e702ce087e022c0cc600259e7e033a318401d5c8d500592d77039f7539009d06cb03b30ca1000be92b00d4f27000c53081,
  0x3716ac01d9654203403cab031b925d028b76f9017394f50140d48d0051a5470333709b0252668600329761019e24600303ed2100c9e74a00c7b85d013f48ec03aecd280116fe690049fae8036f032a0012af0401f78ca302e597f403f9a047009079ed01c7b14a02c36a9e006fcea30042f18500499f4f,
  0x28a79003aabcb7023e7bdb005b750501bc53c002f6f7fd007b3303026e0e2e03a8be42000695080021057b02f8fade034c720d015d04410386c5ed0179e25b02bb2cac032650e800f6648d0073e0a2001adddd0251c090011bac6a02721c0b020f0c4201c14842032696d700f28d17024ac07903710971,
  0x295ed5025d18b1023f4e62020258f503cd3a9601c62fd70110185001ad455201c10e930281553f003ed19f02a1182a011c1cd3030adfef00c2c7f103b0d16e027cce0b00e872d202bd3ff6005ad38800213f8f0388cf85039120af0073aee7009f347202d2c5900018782d035cf84e0091fe5b0372a04a,
  0xc6b56029a9aa20229010c0119580400bd605203d09d2b016b24e601c888fa03e7bbc7022b05b8000f3abc025c2c590351d4a6020a03be02ad115301f7bf2c008974af0236c659026ace8403c4e0ec003a986600cdb6ca02fda3ee018fb74e0159cb2c00b11eab02e35b300234cdf800b9410903999776,
  0x2ddbe3009515be020fc057031ff39202f6a1030078952702892a2103e78cef034cc292037eae770001ae74004fb1ab009b33bd031b7caa0280cede02d1846b03eb4c31009f1924014229960206cbee0012dfc203d48de5039938b2001af2500070b61c0144744702e1c72303d6f9f301b5d0a60143ba4b,
  0x25b17f02e2c35b037a5c9701d848d501a125ac020e36f4004ee73103389b4b0201b91401f8c28e00241f2601350ae502671d2703e932fd02cd299501344bb302902b5003ad216501c29dd9028b19250017480200c98db60104933e00e722c703fc128a00a14eae0179bc4a00e7827d02b3035403f9c75f,
  0xd81660335b0e7030d5bcf0068c1f300d090cd02271c80021b4204033a0dd801a44c7f01ecefda0030f2fa01776aea0344abfd02b257d80235ccba01aa5b68026de98701d2ea6803728597033c77b800028b2a010dc7a20391d631038abfea02b4c32b026846a7030bab4c03b6cd4600e1a38603dcce3f,
  0x375952004667f5036ba1af01d5ccd002449b3601626a140098d48c03f1cfc900f37387023310cc000941cc036a484803493c5d03237f5d00f096b60333c62d0379c4dc00aaedbc0090c2f4022f17350015867100b83f9203057dcb022ee6050399965600bafee502da636602be836b030ba91502358641,
  0x35724c004f288b0225b2b5013cd3b70257771d034d89ca03bd7dd30017c16e0244ee96002828ac0003478f03508f0e029cbf36039d5459024a1291006e90e803d5f9f10252bff000b9df52037e7fcb00052574020bed3b024df8db01810f97025961be00ebe69803cf28ca03a733950357737903aa668e,
  0x387ef202c84e99030b8bfb00e3a61903cac0910057a0e201bd55d5038d742e02b64a7c008b06af002a3430008a4acb020bbb79020cc90e00740e490201d89702695200005db1a801723d5f02c04d4600278f1f02997ce903c4678d014f3d9801ca9fbf0254e2e303073c9f0118bfc500de28aa0032b475,
  0x3288a202864ed70271ad62030bf3b800f529e903829aa8020e3c5503a2184a01f25fa00189a93400203e8c00e23ccb01c589ec029816ce01d04c52031df86901bd588c012ecb4500f0365e03a76461000e9fd70046d5d002869a2b00af50e503749857037ef7ef02f7c7cf02cfaa500234ef3e0095ec4f,
  0x372b9a039bca1602d9b32a009c5ac2018aa89400d3ad1b036103f8032e9f8b009f3cd80123b1a50014c19e0106bd5402feda9d0228cfdc02984b8d01244e48029a7112008589e50341c9c900a166ef00127342017fe23b009437700373695f004f9d6d03138d1802f00c650323a5bc035c717701fb2721,
  0x212c420325808b0057c539037ead2d03f22cd101b23e4902e3b5a401396b760268c17d004b7ea6001703f603c6891302c5fd9a014cd598010f6054011366d901ecca75039e4e0f00c31e1603f8a6aa001b506d006b549b02b524c6025ece0601194c4002199e9b02f8ae6f0264634d02b4eaa602138f96,
  0x3b7cf400a1750103612efa009fd27200531ede00f165580333c553021eb4b9028b507c0262b1420036f4b503371c3e00ea3c280132fb3d01b27e1e0223d5f401fdd588020191060195263102aec501001b73d7007fef48024dd319018d8418020120a7031f054901ea6f4502105347011a48f70274caed,
  0x2d4cd60219a7c80182bc0c036df5b601a1481c02d3b1c101ff80b00072c1c201cd634103a1acf1003d821101aad20e0178500b00bab44c01cae45501988cdc03660d5700a59017014b833003ae281e0033201f039ec62e021b8a0e0118394003f142d3012cb04a01c2f7a40002c46f014379660005303d,
  0x347d1703165e990305b62703986d8001ceddc0016937ae02264c3401e108c60343f6d900c024250022f01f0190afc90228dce7033ec2bd02df897b00625fef03464ca70288be4d0109363b0052142000094ca103bad70102ccc6b303bb61c4021c9c09015594a002f2a97002380ab9014664e302e56ba8,
  0x2d8d0502689d6103429c8500a7100403c66a59017e8e01004233cc01ac8f0c004486950279dcce002db6910062b78503e428030390b53f00eedf03025cb35d034c7297010a60fe01fbc01001582d2a00269ba6026e9fb001abc226023f186f03251d7001c42a22005bb199013cd884000753bb0362708f,
  0x59a1701ff734d007526e6005745e9021c0efb025bc765028c752701bdccbc00deee1000c37ecd00083a1a0024349f031b31a20038859500273c6b00b8e135008ae285036d1602039619640165c1f600195b5c00851f620046d77402045ff4031417b00369fc0e00fd34ca01cc8e61012b6e15001aa5f7,
  0x116fd300da0f9a01baa25d02608ef800539faf00f2f39e010e40a2000ee6b8029e724701fefaff00387915033a202f028cb45e018fc3c602d0ada00180d19c028ecf7c004382ae0166dcb80372a6ab000b04bb03b69538006dda1200e7dd0b0173423201dbd2cb0065e13c018aeb140383c698024577fa,
  0x7b0502a20034033813cb033282690316ba46004c1eb802866923002e8d42000be933033737320015a14703f4a4fc007b3a6500d6b0bd0064ed3c00abbd7d00b1ef750255a6870197943801c1d1ef000910b5004fe56b0066aeae009cc9cc0245337803022e7b0140e08a00948b110130b9740327c221,
  0x1c34d3030898e102fda110013ec95b007dce560024b3f00320d4f202d57a87003f7be703aea502000f49fa02c4add4023ef5b3022d4006001e7c2e019e7ca8013186fb033b537101852f1303a0d2f0002f4b44000fc7850105ad8103f4db97019700b2002db7ea03f74d1c034de652037f2e3f004f17b4,
  0x643330176c19600619fe500338703032e4f1e008c28ee01a03b100316314e02d24dc10115a0d0000018fd02a4bb70005924c7003ae30f03ac9058012a6d2e0066af3703b6a03502007e31015144bc002e6246027253a101080d3e00c725da01787919030f21a50355723c03825bb100e1f86e02fd1cbd,
  0x1e3ee403d3a39c004512ce00e1c7b003a3bbec005f978b03be7515005d43850198c957031bc95b0032a76d0322bf1d02a727fa01228769010a214b034540000184592300f8bce7013a68e100056ce2003da41b01b7b2f701ed57ab005d652702cddcf1035c228c00de826901d2437600e49ec600a55fe0,
  0x3557c3027f4bc903862f6201f9924e005d04eb03c2513403337c8a0330a85901f1ff5303d77d85003cab9e03fb4ede010202a2003595f501283d000004841201ef556e0069f7ae018cecd4033418f5001bfe2d0109121c03d1673401d0684d02db56f503f9e69c0331645b03539fdd00c1735d01564f52,
  0xbca4501bd0050005110f903ebf43303165def02b0d193020e86dd00f20b6b015830f802815d6d003a814f023ef8e803a61fd800f7ea1600a3f88a01a37e2200aae178000a98a800c075370001d37a000b15ef01a6c297026946a4017d0b4d00700b6400020b58029e8b67001b1e41010359a802a80f05,
  0x18c6a70321195f023361720380d3da02d6923300eb74af02d2b6f603478afd03e2d7dd02edff5c002135cc025a785a009aa12601371dda00335f220071cadc0099235700747ba00114d30e00458e64001acc1400a09762020d157400dbb3f7033b121c00af1752008a871503a9a3e300ccd76801601b21,
  0x184ede01c6e2280099112c033aef14020a4b8e015dc4ac02f4f21a01ad491103719b8302ec7987000caa3b02be6186022011d10256243f032d9e60005930c801e4e4dc023b367c0077ae050145a270001dab65021a2b9100fc0439037ae9c60028875a0194aa3503ae2ab102fc051f0382c1b302d3af25,
  0x1150810274ff0d01aa980b030baf5b025841d302118ca6003284d402b1a510023793cd01dff6ee00231b9402056b340108870901c2a38e01fb9efc029af77503dcbc6b0163edf6033ec043008c9e7d001b3dc703877364011b96e903be29fc0176ce18013e9194000528350301901d0128e27002f1d647,
  0x33a1d402e5c63000cb58120320135900a41fa0022d001e03ff5e2202fff4e101c84a4f03af382b000fcfc10227cfac00742454027a4b7f0004b15903bc213c035526f803b08cc90139156403bc44380023a7f00291a84b025a92a40184d54600c6e2c40031913b0222829302ff853102756efd030a9ea0,
  0x333b960076305702e94a1b01e75c46036beb3402b4d38202ea9386034d45da03d059e201ed9ef70033230801e0f03e00b8a4980254caad0351d02601bb6ff90179b65d012001b0005369f5004453c0003cedd500e2c1cb01aaa40d02c7806900dec6aa03d1391d028a8a4f03386c010385049602b88df8,
  0x3a263f01f81d0000f8186202611f640021e84b03e9f437014e058200dcea6a02c829c4019c0aab0029553501d3c5f0021650670148cee201368185029c3b5a0278ed2800e8180101b0438b006e8eed001dae7a03f2c5c302147dc9010c3cc00253c6a403651f2501a80cc100d916a0034735f901965a7e,
  0x2b2cd0009f04c03518caa01e8b58d00725f2901758c45025c5e2b022fd3f601dcb66f02772e62002cbe3e0332a05a02199576028cd77e0172cd9502c20bd1039873f200ac24580112b09300ba90f1002e40d0020101e10298a7780236646a029e031a00a9457d0213fd01006e2de702f20024027de787,
  0xf2c26036cd88f004d30f000c10e9702ed48da013d531c00aa4695019d77cf01c2f23a00c9fed6000232c30262f17c039940de0292115f03691f0a01e2f215032629250192c631016f04f403c9b76f001b827a00c94b0a005f26a80391199c02deb4e2025b2cb1025553f203dca6d60157503100b77bff,
  0x20763d025c6e230050d82c01e8a370039d859802cf06c40003af4b0016cbc402a4ac43016010f5000f7202013eac3502890b780075877403c808f0035f328900bbc69d01aa52b10322cc08005bf94b001a79510250799e00fb873e035d540d03208a050221753202bc2c6f03970106011206f003ff3aac,
  0x2cd68c003b229a0074365603ea319f01465f0e0293d18b023f47cc03166a4300c5574501267ca1002938010280d9eb00da85d803ade11803af4b4401f9458701668df101835db30261f80f0087ddbb001509f9033d1fbc024e2b1f0291aaea020031b802344334011a88e4000933a400af61980264c914,
  0x9a092035520820112f7fe0270b6a601a19a9a03de1b180132af4c0073971801622d170126f7b2000ee5670068d4c903364d570390cb2d03b2b3ba036523c700cd18ca03fab29502b429700338058d001d6f8f02ce1f530167ba00011188f902afd441014c988100a221aa01eea7a503d3e6ef029ffb23,
  0x1a142a03c2ba740358567a003a4ce6002a13c90136d24403cfedd001b1fc8b0214f4c0027943d2000dd60d001d9a33014c3321004bc53e0056a714023b4d4d0138205c01733ec801d29ff5023c926c0021e0a502edf68603f05a8f0287655b0198b6a4007d5c6b0375c9b603b876ab0112f280008642a1,
  0x3d9112016899ab01b978ab00090b410250a37703caacb50257f2590285832702bd2289034475440036994400c3169c008201c30085174a00bd091103f0bb3001c531ef005d858f0081f61e038e87050004047a000561610281752c0102d96e01a8219f0061dc3002e444f202ad812b025fab5d004d724d,
  0x29376800a7575900a461980002a9890033f09b034e37bc027de5bc01fc3b2e0029893300301578003d32a8015d412f0371fe130305047400e2d2f8037ed5b40369194e0051101301ae089b01025e8a0012697602e06be700e9044401176524010d37e600958f0b0368a69103f0cf8203b32c8600294258,
  0x1e820b013604890265afd503950692007edfa401bc8ba0008eac4c0232b87701f937b1030570420020661302e6391702043f2d0148c2220004eead00d9a23701832c280002e3030105691c02fad22900331a3301ba25cd01a34db0020c9649010fabe802bbb63c0372d04d0194c4d000e04c36009a957d,
  0x3e940c013bd1e500c80c0e01e3c6c00368a1bd019f03e9005d0c0200c70d4701b082350235e114002cd7ac00961b2b01d137fd00fe11ae0166418d03eed2260102e8ce03cb9f8402f91e7d003e01d60018d89e010e3b7b01da556103d443320232917c00f2221c021d031c022cd3af0077fb88026bac71,
  0x33a39a011ea7b601c7d043030ebb95024ff668019e4c18011a99ac03b51d420392879f00652f91003532b8010b0131022ab01702f0be9e016f140f00a71225034e11360311025b036b34da03401b4a002a75f7010820f203c5662201327753001e37d60377bcd5001e72bd036c0eee00e49f9f0251566f,
  0x36976c0240aedd005bdd0d01154c5500ed3da4006600940399888f02b5c8ab030fd0f4030751fa0002f498035239760122a427035dbc85023a04cf01637c8f01b765dd02ef05c8022b8dde0313e379003f9c2002b25d0a02efdb6601eb22340088f82600e9a09e034b18fb03cdd9380195b8f600e97527,
  0x1354ed030cb2ed0136d4d002d78df5018a3a200169914e03acbb9e014e4f1d0056ffe703431bbb0003d2fa02125a7d037a7bf203821d290159073500633af001eb561401cb56d7002042c902e3decd0039782500ae05a2002b4b49009b368c0339f247032b91b6039549b302fc3e6303318e29034adfd5,
  0x20de1200aaeb7101bb26f9015e8bd701d026fe007aac170291ece4008941c6016d39570053a02500110afc030c37d100c89de401f7ea9b03a8db3e006bf313004030350292d5d40120ae1303c33bea002558e10397999e03791d61029ae18400f4b839007f780000cd91e60269539801b97e3901f519e5,
  0x3cff6402d91f9a00f189050231c70c03cfb2ba015fad7800a924f803190bf80374f77900f02f0b0033aae5035d22f5029bb4db0242cae0010ecdcd01ee096f02ff8d2100668f30005ac81000c71db80001bf80025ff54c01ce310603a63b2403daaa7202c937240044fbbd0363535f03d1983800359903,
  0x28ef6d003e4f090110c33600a7190001f0417600bd338201f4dbd0010e1ec5003549d3003ff96e0016c05d01e7eb8203e90d30035a64d1030bf7fc02aa2a3b01cb620c031b12320077d2b500bc654100210e68019d25440002220703922dae0139acec0138157401f0b22d00bc8dd601951d1d035e1782,
  0x2bb82b0103a61902fee7d601a1a017022cfb5400f39ca2013c26f803d8724800a9aa3001e661d100115c99026813fc034feeec028508580129b435017c56dd00217ad102de767300a77b750327b528001d2283030fef38037eb1d10074804a01b5e024003018b201355b0c03ce32b503bc40c501f90ec1,
  0x42f2c00347296007f54db016c8d86021d06fc01f4876800df1cae00c2637901d9b41b02fda19c00197fcd0240ef9f00d8143c03df911d037f4bbc00d55ffa0219f901011af33f026adf8502956d8b0005ba540392beee03c728d401214b81014444ad0284a8cb0230300203d8f4e501d04060003b83e4,
  0x25e3dc026e85e80396cab800fefa300115c06a00ba594302ab16ea009e042f00eb859d012741c6002ff10c00c34faa00e171ea00d6fa160322ccb300dddb210081b6b20234415500a1460501e66c7d0007d4a2023166bb00600afd02b797a8011f78b70106243101469a5d01db0c7800e325d600960dc0,
  0xfbe070368d99300ac485400f72daa00f21fad02fe4dde027fac640022fcd502676df002616350001765fe00fb1c3a0020f1300398072b031f9fd60111dd30025daff202561d1e0212a22403937c450015f4de021d015d03010b41019f3fbb011ed82e035bc518038ea6af00dd28dd01b09fed01fe558f,
  0x27eafc0363fccd02d8a64902ae810f0095552301cd6776025591950104329601ab1eac01ce60970005299502aec07f0131b8fd03723fae02eda61a005d57020009439f031a17c102cf0c34002f4881000c069d01c9b94602cf397203162f4d02e784d302d942be02fa5c9e00cbdbe1039dff4502604e5b,
  0x10877a0071251a0040e07f03fcbba703d8f6fd01f34b1c0350ded30174d6ed02bdde97037d1394002eaf44004fd409001b20d502ddeaa5007d401e0332e15d01ca0fe602f8ea7702ade700021d2dc0001f0343009233ed014e790001becf000138083f02a1502503b690b103d30d9201b7568e0175857d,
  0x21920e0023a9cc00b34878015d263901ee97b00006d4330115e02200f46adb0130627200bb19ec001ef6d0034f67b100e3031300e12a3c02460b84025dc89b02c24d0b0265eee9034faa3b02b9f453002fd90303cbce8a03a10fb901368e40018d415e01a3621b021db89102a7e7960338d063020766f4,
  0x1ca67f001c988103e34411017bce3a01446c42032e629f0288ab1f00e7c29d012c30e6022fbccd00163743011933e601e100aa012d2a8603232b7b0092a07e02002b8c02d31f38012a31920038833100145cd703b4ae7000a040e000a1edde0090474b03a1fba1031e534c0252fdea031e4d100370410c,
  0x15c62a02a5237001a8a4af0328c5b4010d450b02bf1064019d4ea7000f7a6402bca7dd027dc12b00139e2f00230405004104f7037ee7ee000e7a1c0071437b01685589003a6e4201f54b8100d94df30017c7d301c303e30252f3460136ae4e0024a92102151e77001a7cc902c418c902d6fd85000476ef,
  0x2ce8f001281e9200410c850061d9e201f4d360038f81dd00c62cf4028f618f00cdc7f4003f2cf300176d670324d76f0311a8b600be561a02d1ff1302d4d2a803edfd1f005b690e01e116a3016fa08f000593bf0083c1c701f57a2e02b552050336acf4006ce7d502dee88602a028d000bdebc801240036,
  0x132b8400e5344001bd777b0177115c00de68de0337329e028dcff000e897ba00b5b4bb01363ead00381c65036320e601ee8a8802f7cf9e01349aa2033ff27e01165e4300efc30102e1474d031d8a5b0033079e00dad51a01250a3e01ef030303af78ef027973d60013c7b70188ca9e009c6d9303757d25,
  0x390d6024f63f8009d91460178535a0013e454003495fc014de2d701a3f49b0050bcfb027b84e3002ad38301196aac02bf4f830055ce5f03768fea03802d3803c9598f03e664870230e9d802b185dd0013e9b901d673b2035c16250327bbc002c77d1e02d768c703cc534100068f30024f6ac200080139,
  0x2f5fa70264aef0031cb58f024dccfa032a20cc001c0767011d6e80005284460087784601d6431900381b2201cfab84036e7957015625440154f884029ccdc60052823303fbc4bb00e7eaf4010b66c9002beb760239428301e58d310057fe6e0004accf0302b5590238f54401ee8ae501755c1e039b9e46,
  0x378ef203bdc2ee001b6eec03f5c158023526e803052ffc01a869d701f7d79500724da600a3f5d40003b746008fb99600b20d2202c3a21e019235c401eb59a901c9998c0189af8301e8113901a3ec2e0032fa5701010c7d0338591e01c53eba01ba41d0023b942900a9ab9a0028918d025a067f02bb1909,
  0x88c9300c81db902df0d7e036235d003c05cae01cd3b17032dcb8701b2c4a50096c96301ac3f0800271c4000217a8603ee0d800250e03303e1b99f033f57e10217454401515e06036c7f4e02216e320010b971010607b102b0b75e02b5814500fbf0fb02f4120302a6a59f03e8cb0301d2531800705900,
  0x2f40570210b3b300642ae20249eaac00f0056801a4cc790395612f02f582ef016cca1902989cfa002eef78004d8d6b02c2f60902670ab2017f0e73023afa49007c89d601dd9b0b033f432f006edc9d0031c75b03e3d987035cfc84014d7cf5020784d700466934025e8af6018a35ad00e67fc501dde086,
  0xeab48017f6b4303193fee0127d28f01152531025d93ec00bb580801727e9f036accc10392657a0039652801b3ecb9021833bf0047917f01af662e01eebcc400b17b59005bae430188442503eaaa5d0025bfc70038260f03a7a2d60258e2d70288952d030f2eae012a9d84005bfa63031738a201e7ad4d,
  0x3c859403b88cf90107bb800388623100c53e0303b2f8ae01667de90298c2120209927b0165448900215e7502ce571903ee0c2c03ef2baf01a2942201d1aad5003dd53500815cca017a6a1b006cb19800237c2a011f753901d9c60700f9f554036179a300e89678001fd41a00c2607700d2e457012506e5,
  0xb58b102cf141800e59871007fae9602ec104102286f7e019fdd0b03787bdf03c5a22d0235abcb000b785b0170ed8d014a665501e2f826012c15af025390e30322c6b203c3ce980189b8a800633358002aed4e0274177a0258e3720120e37c03a2b7780353b3c501b1996d01e1c980036874c1019ced98]

/-- secp256k1.go:10, serialized bytes 675840 to 706559. -/
def tableRow22 : List Nat := [
  0x0,
  0xd2be3007810ea00f84968019f60990378554a03933fa702ffacfa004ba9ef00549c1d0220460a00002eeb00571d5a02e3bd1c02ed716f01d0d83303114f2900f172a401de4eb400ab85ee01c3facf003b297201188c560308c723025c1a7301976aff02e35c88016c7c8000553af9030d7fca00a006d7,
  0x1521c803a10c13019af71002c9017601f1b06003a3e60701732e7c036cd65400f3cd4903fa95550036379a024b24e8007407c200b4da02034cd887023ca4400370863502ebd17502439d6c03b141c6003f697f007a6bbf0034decf0214f73d0242017b0203f15f0127c4b900b7fdf001f4e99f029bfc10,
  0x2c73c001e40660029a80c40125743e01c3b299022b7c2802bbdfe001a01e8c03d9bdba02fc29fc0039b85f03a932d403666fd902869948003a3c2b019c588900fae10901a38ca000505876028b23e4001a580c01d4d8b7030546d20091297f0166b79802d9831703f98ef4000f528d030e84a402d026a1,
  0x1911a403238ab8017f7eba0128d34803c8658f0306766f0019fe0b0094d6790136b4b1026be88d003f30c901dab1320218389803db09cd0171c403034c36ec01856c780188175a003e2b9103f890d50014c47501eb0691012a59bc03ce371e03b58c730341fb7600f71d8d01981ec002cf118802c8c25e,
  0x16325a03ae988c0107abd9006b281800d1cede008c96aa0344e72a0160c7d302b0cb420012bad80007ef280268375b0096b65e00f381eb03de07b001535d7a00665f4102abe89200049682036564da00200006033aa9b500981b790165b18902a7ab1b01e1e82902b2323c02325d8702b0614701ea6ee0,
  0x883ae031ca9130245d70600a61d5202fb9bbd02865d1a00f0a3f701372b9901c4e5840047b79d00083d1b0123a7dc016c6ecf000480ac02aa115200182bd202382c42004ae2a302f628d8022a94f3000f6232006d811e0187d1f80179a3ad0286116f027b36bc03e1fe7300e3e7d102951f84003203dd,
  0xb5aa3004bd8e30120620602172d5800370ed501d82e2f00657afd0331884300343013030237d3002cce640206f8790163fed80017bbdf020d1ea90023f2d501c1596c02eb5c0f0232a44a01dec115003bdb2e0094be0b009fc3390342a2770182f92d0049e358018e00a800535499030c25d000d8d595,
  0x1a86a0249553700f6af78014ceb90030437dc034fc91e00142c6e02e653f101a43601020297ce00393db20208991b02c5ce1d034f830502b9d5be0314f22201af1e63028a6b0e01cc61fc03e96db3000bdd71023bf2f80299fef1030ea24301382d1000acb679020444b103e20509029d9b1f031051c7,
  0x35dd5b01b7dd7703591b810178b25e02b1798000967e0202fcd3b3009b58f300552cba022a7adf001cb12503a139c0031649680132861801952c87016ffef0002d978400856bd101bb67d203abf3000011fac6027f24be00c2c26f0048e516014b9e570045d336003b070302d36d840361dffb0218ef23,
  0x1c94e0237463302b5a475008eea4b0393906c0253583203757d1702eefacc02d6c85d034546e10035676a0104f05202fc4d07013d37e102c3d18e0190d8c50381f2b200b2ccb2015ffc6b02677d850030cffe01505e980074cdb402e3a581028547a602fa9e7e03c40bb002f2cb4a014b450101865ee9,
  0x39eec10218fa3b03c8fc1e0321985003db26dc02588c6f03c7de3c01913eae01205330013a6f3b003bed9203849faa03619f9803068caa004a0c8500f98bb703888f0f0291334b032022d700a254c7002e948102c0b7590267f28b00f6e5030068bcc9038154ae01312939039c61c203757ad4038ad80b,
  0x1c03ca00a6166f0216991801fdfbc10265787d003b960501beeb98024d8788026f2961039d5418000c1d8d03e702fb01edb38f01e36f0b002f28a5002053d902761ac20254faf402680c3101375627000430b301d8bd7201ebf9fc02dd45ac02d0a454015d517a000b55590296674302b29afb014ccdfe,
  0x33291101b65165039a64af02c7b59300a1c05e03548cf001b102700177f9020129aa0b02aaf3ee001acfda02799a96004325650361cbb0003cbf60000b4081019ca96f03a48e440210bc0d01ae7d8800276d9202d4b3fa02e489140366f4ad007659ca01adc4df02b6e013018d705e02a345dd01cab69a,
  0x29cc1b00361b4a02b6d83701a87950019eaef401b8ef8201ee21a5035f84dc017d780201f7946b000058b7032fe98c01b3351f007132fb03e4f57003d921ad02e47b4402f21b95006b0abd002774cd0001bec4016168c20223404a0255843e00487660025e8c8001c8e591033df4790275770601e8c07a,
  0x4854f0355ef73025e712e034a36b703a6741b00f5ed6b0233df8400c89a2402578360029086ea001c58de0180d5e20238a928035022a1007b9c640167782602626daa026004a80162d41e0342a798001ab4d802a643d9020324e6005784db02cfe84700da196901bc149c001be5500250f21c0214cc34,
  0xc741f020050c40226540700813a0c010d166d00aff48003b84af702aa091101bb74ec01b562690011db2301405a7c0331954b030a87df00e0912d02cb712a032095280324772501949e8a02b872a30007ea660083437e02a5a47b01a5e780015ad464027ef2bd0110d57b00f959df01fa045f01d98057,
  0x33381103afb8c503579ab70223cb72012c11900193254501df49f10268f37d00453abe013eb64c00164a2b02ceca28024544f1029bef5802e518410210c20802b91d1e0117b6350142f88103a352c40020113a037d1ddb03cfe285005bfe3a01312f5d02cbf4fa0039c33800fbda3f029b5579036ef049,
  0x3cf961022ef7df03f3a09d00f6417900055b1602aa3bc302f59a6d01af31ed015b442302ac839e0019e11801222562005cc22803155026011cce830202f10402fd85e803c460bb022058e80317b7db003d58ae0079d057012ef2d80295b77102bfaf7702abb70f021f9bad00d59c5e02bd7afe001247e1,
  0x178b02018bc75d010d4f27016513a5023a9bff00a968dd01dd81bc0076a03000464d27022c5b400028490e02d5e1860299cd1d01b9672002ae06f10119880300ebd2ee01015bf2019692f7033970990008c3d4006524c10121a0c20069f61900c09a6e03ff9b1f00ac0f3a01c3b7e9000ac035007d4b28,
  0x34926500aa97410300b749022558b5024cb2050253d49a00af4bfd0384ddd301dc10010386305d000bd7b100308032021572c702546920000a8c3e03ba396502c85ad10307d9a00236ffd90024b657001061c60329507d030dabf100727e1002a1796502790a1a02fe81a00393c7840172c7c30219435a,
  0x1ceed5022edefe03560f6f03ea4fb7002cbaf0001370d7001c2f68022b82f403bfab45008044b8000f64350119699b03dc380303878dd701fac86d03407c9a02bb105300661e63009b528b01e6f7aa001c24c803c760f203ddc782003e4bb70183fe5401546b3d00a94c7d0132100d030b2e48015ced00,
  0x3cfde402947ff803e4f1c203d653830059918602c5679f0013d91d019803f2012529c901c714f4000e9a73024ebe03037e3a2302780755020fbb3b0213721001db55390378d32903ed420c03c0bb4a00077bc2010de30401b97b5302d2a4bf007306d8006ce99e009a1455025b724602f2c3b90122865d,
  0x319fcd00a14c7700d378770171758a00107b9601604287021d48ef0158e98902636d6b02091aab00359bab03941e170300caea023209e400b6cfe30185dabf004dc72100259f4800d099c002d88652000a17950302e95f021b2efa006be0c0000f545b00431eb30134e662014e659900eef9cb02657912,
  0x1f3e26006e17ab03de87c901e2dc280302b16b01f278a200ddc991010313af016b99f903c8220000227f4d0100e74a03fe9c88009be5cb027a45c6029fd2020068d52a0284b4fb001188a8001741e5003b3a7a03ca4c7802dcf25c01cd3ed80067f9a003c4492a01a0981700a4808a03832c620386d873,
  0x196f3601e94da003c006f6018a08d7023cff91021cebf703b1783300e9afd303305a9100e08643003f308103e5445000fb6c5c0069d7d90110870000e9f55e00c28fd3017d627603d035b603f4b178003acbe701f09d2a03d008a101790a7d0137410600a4dcce00ce40c3038cadf40076c7d80210a175,
  0x47b3a018766c4033243ff03adc0be02d8cfd0023e142900cfd768033ca6b3028bae3303c52d90002c2ba2023b47e30329aa31011de312030dc839032e6f6e0216f834032c4efe034a64b100e941d000037562016d5f5b0311691a037f492f02a4e26701904b160347b85001c3c49800747c2b02667bfd,
  0x7faa701164ae50143ff5a0165508d0350b30c006ae0b0010550a801a8820d00e6030301469fea002c401e0008dcb901c70a7a012ba5e502c7ccbe00194be80015f2fc02b84e0103f01d5e036997d1001155990335445300c7895c029e909603b5800d01447ed2033aa74003a97b4102c99c8a03cc5090,
  0x2798a90164fbb002c806320105d99b029a0564012fa5fd00af07f302d403ee00e29cf9038debf6003b39a50217a43f0170a9c301b86157000d75b0026930a301fbc3af022ade1d004b4f8901405eb800191a03013cbdf0023844d101808e2602fbf9da002e9c4b02b46a4600ee3ca602005094005acb1b,
  0x5040f037c3127010e710003b914db00e62348030ed07c030e03ae037b052001546b2f00afb1ea00073fb402e644d000465c40024ccc690343013d0125d15101b9508f0235186503047da9034a0dd10011cb8c03c4abe902415ebe038feb280107360001a2e2be03d2f37101864f3f010f094000dcfbd9,
  0x21e3e200a20a8500ba1174006d37fe00f6020b027d464d00a4f21d01dc1003002078d001c243510035bdf401cba33c01f7974f00dc94ca03b76b2c0178ae3c00a85c330246101102029493007c77da001b3bef02aa64b6032c304d02fb471600e4a593037131fa0136f11d03c8544503ece9e9009baa7f,
  0x1ac0e9034609ed01640b7b03134bd201ed389b02c8045a01bdad9f01caf3870016f900013fcd6e0028b04e0019dcc501ca927901e543af03db2afe02759e37007e339a039ef11400d72831020b914600086afa003c53110249b6730147f94c016ca2ae02d40a6502b0c247011ebeb6038bbe4103c84129,
  0x2c0d5f021faf0c015ec0c900e4be5a02d6bccc0271670700615b8f010d3d9403af0be3010852b5001713a2005c298a02bac08503f225a40014149201ba76fb01c736b802b42c72001965f8036324a4000af38802c3690c01a141480284ff65031e229b02cec1e000b26f3e00d709de025a13f901b34ed9,
  0x77489024b7f0801dba5cc01606217028e07af01260b9602425a36021814e80396d3880330588a00244b5202f4ed7e03d0bcc5019ee19702c78058013ea6f803960784012114ca017f8d2b004c75f1003ec11a030d18e0009f2e2102aa8057010b4bca0261935902d03754021f55e0016b20c0025e25d7,
  0xf71d103ae38c3028dbb6b010d6139018029ac002d043f007913c600324a0e00acbc8403ab292d001de6b00306a6c40205020e02549545025c361f017d8fba026e54ab03fdbde30269b95a0049f7540005784a008964d202a8b891008a959102bf4db302314b1e0291471702f5bd0d01dba5ee00e50210,
  0x15580c022dc96500204600020ccbbc034a16b80387af3e02e1444402d439aa0242a7d00398a45d003d92cc00324a0c001d7c370373c8c20074bf02001fd01e02bb3c1000e33874017c6cf401c365f70033af210010430803db84ab023c32ca0186428103246e8e03b14eed01400eb803a7ef6502d9cbbe,
  0x1c4841019e5f420157c4bd0391de0b01947204025e8bf702c5485a02aca91e0362177503c74a6500116eae002337a202d6198b0330a8f6031ba07f009630e7010a0a9e023713020170cd4200a02caf003cc924022eee980378aed20158eeb802fa61c80087dc5f0022d31e037207a1006949f000215a6b,
  0x16710401c9b6b801b76b9c02037c020080009e03bc1cf6036701b70116967b0352e6e401c481f1003fd0be027b522501e81a37007855a003608f6a03ec07da033204fb014174c3035b45f203a2613d00349429034048670177855a0129a8b003e1edff03e83dea0110bf27030ab3d401d9ae1802c4f4a0,
  0x25de70035d210b015ada900135d7d6021b06cb022c1f6e003129da028e7cf802ebd32803e6ee700007c58d00d7939a03588120004b979703f02e4b012e1d06023701080066907a01c507a400fa2dff000a680702b7d91500c20dfa03f4173802fbdd11020e6c610184795203e9ff960350a7800143fcc7,
  0x371d8d016a65fa035e03c10221e59b0156ec1803735f990295be56015b17a001b70b1002d6062c0000cdb7030a2e7100279b20005babaf0272d1cc00f7afbd02bbe017019a719401ff9bf0021e8cb100370642009ea0370333b00a000c4e96007fb34901cef53800cc33ac00ae11a60269fd7301511793,
  0x267aa8033a496f0223332d020f725302d2352603a2e06c00afac1601198c7e0271f03d00ee08a8002ca580009c6e490030e602032c43760326e8cc028d98a4015cbf8002a5044402595e9000a06a14001a1acb008facc5036218c9032ff24901bd3b6203cb9951034b899003267d480317f0680270ae1a,
  0x19c8bc024423c900f2a30f0141e16300af3c5e034d550401666e3103e78c8b025333af03d181c6002c710302d6160102021145036059c402ddacb1009b023a0144889f027882a2007948780303332d00300c0a031f9d6e01fa5e8801ddab4302b9836a0357f902012188a60264db6401821a81035b1a9c,
  0x857690369cdc103ff0de0036d9c1601ed9884014286b301def5af030d2f9102ca157701ec485300282ea101e8b10901202a67023275bd0364bd8a0286cad102e16fa902532635010db8900318d086003c364800b50ca6038503ab02f9fd3102b0bfc301c5b59803cb82f500a26e61024189b403cab06c,
  0xb1320014f4bfa03f98d8d03807d4400b5244100b713f500a86bd4032979e000b5814c0201e95d0014e56001160bdc00d678ae02c2531301d3e185003ec970012b9346031f7d2303c46fb700f0203e0001c0c00274c3a001a758db02606f8b01ee4e9d019e4c3101a5c361036110e5015b054003e2f743,
  0x19c63302c18ea00069b2520317549302fc47a8022d61e80004275e004924c100fa772503e7940c00282b660235d09c00e0da0b01bc5c900110cdc80305ea2b00ea6a2e0332d36f03f0e7d20179e614001a8d19016d37360182faff008778a1016ba7270234b8c403428ab303536918025f4c8702d50f00,
  0x346e6d00dbefe6019ce70a01b20c75007f638e03e52d92030d6df2024f75f5007f730e03dbefff000ab57f02e64d190125c752020abb1301a9911703c8a6e70215a01103951d33007353c603dcdb7900130eb7009908be0260b86c03dc527501451dac02b5100c034d18a1020d123403e957700114714c,
  0x23d45900f8d1ff014e9026009709eb0048fbc502cd9f2f0294363602da3e78025b8c7b0342e9c10031d0f702d03cbf0264d3810057edc600e6978a0207cf8002d604870041830402dcd8c2018c181d000a55b101610282026c3f5e02907df50125113f00aa679900b2980901492b1402d5c3fe039ccc9c,
  0x17ea800429157039edd5e01170a4001eec9f000c3f3f302686e0501a346f50218d1c4026a7bea002404ca02efdc7303871fa40391d15e014d49f10250d5be0104372f02a5b3dc0212e3bf01da497d00277615025b216001c186e803dce6fd01d0f8630122112a01429f9d003f7cf9019368bf02054324,
  0x152c6a018499190151c1680222636f025b2b2e02b39376031d1f3001f1a5720205a24600bcf37e0010efe00017753703b12c6d03974edb01084c3401aad146034b8997013bfe9d02bc207900462b7a0003eb3800b342c10185e20400a114eb03369ff402302904025ef207036ca9f501056ab803323de2,
  0x89080246e9c1006a150502b9185003dea18d0115deef028483d103555959014c4aaa0296ff9e0020069d018288900114dcdb02c0369203c7b4f900fc2c660050314e00a65c4403eff69e03c068bc000a16530014e5d4011e87be01f4e0960357107c0126659100ea4b5d0034609202027eec03927625,
  0x27ef6402060927027814c80207178f001d369c012ec486008fa3100069b5c3017f0bf202e80a3d0019df57027f3c44021ed11c01fb929a02067206011f282c0370c8ce03fa9081013f34a502c1c39b0034880b002529a903b0f3c60282489300e4b79502ec62e902940b64018fe429002ba21a02aad234,
  0x1329f501e449f803a4ed9100b90073007cebb100b0e92702b47a8501439ac002d56c2a03f20aa60038e22d006f4d06002f54eb00c3c765021919b2010bf5f8037e19b601e8038503e39ef403467a440004ec78013f84dc027e3e9d02b13e99038719f9029b15d700099b46039dfd7302f5013901328128,
  0x307f8c03cc6ed601655e78018a6bd8029297e202c906bb0224e560024941c3022224bf03d02e96002297f00048d9d403c5ca82018871f5014c3b110280830903c2a0b803790dfa0168dfae0085eead0023c19900e6423b027cc6e2011f7adc0291230203d7a4b600e1151d025de6c502f89e48004c0a7c,
  0x2f5af5004cf2a5038cb445029d746e01a025b301417d63016ced7600b6e97c03f99b6d024b5380000f2f3303fe7d5d024a28fa03c8d55203dfee4903c2c76c03a880060036e8d101abf16202d958f60025b64f01f3bde301203fd601bab877008e8e31018f951700fb018b016ec070006cf3df02f6f7fa,
  0x1d7ae80281ce8003ee58a50190b50d01418dc103962bc90066a6540001a5610149c9ca029ed2b80001644e008ae7e800f50148018f8fb702a6c79a00bb07050347023d03d848760250f3b703b8259c002a830a00bbd73b01c6fbaa01fd83dd02a84d0f036a493b004f596502e9ce5f027e43c600141894,
  0x2f593b0289648703af546f02946e21039443b100458ff503ba51f000c95f5b027e23e2019cc716001c741a01c0cd5803647ad6039d8eb401af1e5d0124ca1103c8953f0236e28d00409daf002457eb0028558c02ae48cf02f771ef0102e92501ac319403579a61013605bd03ffb9ad03c0108e002f32be,
  0xd19a103f7c0b40139ccb500ede191018b26fc0197769900fec7e50178c76b024d03fb007c98e9002e6b38007a0b6001358bc4000b93a900a020e20367b0ab01ed3d4402c8df4c01b75965018f66f8002bb68800d262a40319b18c01c36493036386e900afeff701ec25570037537402b8b9d7011160bf,
  0x25555c01adf3170283d45a02efa7ac039723b303fcdce001555533024200e4001a09fb0156cfae000219f301d43f0c019e58550086927401bd1ead008e2e99020eab2200cfdcff033547d600c20b74003e2b1a014820f70145bb2702a9a267023df68402e34ea701103765003c2f24001462d100b76f71,
  0x1001d701b11d820143338d0336cace023ea98900f8abb2002b413c03bc796a0085fd310325734c000ebfcd009bf47f03976598024e449a035d64db01c8f9cc0290c9280399e63d0086229303917484002e8e9d0183383703a8180f0293451800839377015eaa5702002da40032e8d502f6e76903461657,
  0x38084402be77290072c08000e77db7018751bc02fda82002b38e1202410199019435f100e04884002cde01004b0bdb03531af4010cfca6000c40610217235d015a286e034cba33038f308801154a7f001e783502971f280252fb1402d3ab8500feb92300b138ee018f058b00ce194d03d745260339c254,
  0x16329027ef88a01dd5c3a034463eb03a70f690044fc5601ba3932001b8e9e003fb88a0323c514003df1a00113e4ac02e272fa034cf1ba016812ec000822e0000659a3012958b1008fbcc702f64324000397dc00c43a6201070918031a4f3d02aa391f00a768df02bbe9f90320c3bd0256e3c203b101c4,
  0x3dbbb10349a06a02739a26009d714b00c32f81035f1c8202bf33f801eb9e5003b4cfc6031c600d000f8b4001c5145c00848ebe03cdd55203f2dadb03f9eded01ec213102b4024a0050270e012a3c56001e633903d605b302add383020e24de01eb5acb02c9f65301f4097a0251e09402e43935039d0a7d,
  0x2a1c790315153e0281166600a9f33c00e017cb0342d5370201eaf601d8b73400fc989201d6a924003c76790266a2ac0273e15602be557400b4a35c0369a8ef00999b5c0399e71e01465a0a003c0a8e002fc6a402a7c37201840deb0260b5db011d729201df05c100da8d3d00f9e7a501c7a39703f5cec0,
  0x87e00391cb47015ae2bd009d398a0395eddf01463e4c03c073b000d88914002bb80203f7773d000a41e801877fff005a9a5403f8c0c202cf7b250218cf6702ebc68602239e24030914d80357d3640013b675004755b902a47efa02bcf65601e7139b00b07a320375598a038be593009bdb32017f059b,
  0x2a42e4037101a100763a9801890bde009cf6dd02838fe80064c287009ac97802618e000060089e0015aecd01bd181200c45ed1034e060d01eac53d01cd77a400807daf02f44a8e00c50fc70354fe09003de7fb0302881f02ffcf590153d8d902fee3c701c46314030a5d690043ac09017a131802fc9e3e,
  0xcfdfb03c4103d0057274902065a9600bebe1f018845300144693b01047b81038d988100fa9711001360e903b4d431006c2dd00250e4fe019d1b4001e02d1501601fb900eef5fb035011f200c47c49003125bc00d60ddb03913ca102a5444d02951e37001fa6aa01f239420055675000215bda01239dac,
  0x2886770294214b03c9848e023a5929023d5d1a008d2a920106f168020276920192382702db92c000258640006919b0020273bb026e9fb10287164e00ea140f01ff839e03e2805d00a3a50b017d3a2100222d65029e29ad031318d40052465e0373a1cf01b91c38010d90f50366bbe10183cb0e022653d3,
  0x29cde303b2792002bc596903dc33f6012695a9015fb31f032aa4070214c32a00b4055201c320f900059e6b0295b818038beb94025e12ab022d6ec3009741c200078bef0134f9af01c9412703bd1c4e0014ce2a017f756900a68d5703eb6dba011291010062da1102a7a8b603f8ac4b00cede73003f7bbf,
  0xc990503a3900101140a1603b173df009346550244b64c02b4ae6c02b2ec4d013ea5a80389e8ae000f44e001d70bb70196d58900e0b41401c7f92301c2a1df02c045d301e3aa22025fa3d20003f4ef003a4e1502feb9f70392c4df03b79d24008adabe0079ccde03b27b2f0178357401873ffa01678661,
  0x36c5910041f8fc0006cac503ff268e03b7ca10032d1ad203ba6b60030833d4026a4c3b003dc8e80008062501173589029b32fb019937c001d040180073b53b038701100129875e009e757300d3115c002b22100341574f009dc2be02ac9f0b039c52b502ceff2503c6b05e03df35f002eca46803d0e6e0,
  0xfd4c80172db860206f76001ef24be015c6cb903ded364021e435f024bd345020f375d027c1c00002f3a1203f5d0a901dc8b0b016e6e1302185b2702d7c40a0382a347033f20b501f4840b003a90a90010dab201aec37b0225f92f03de5954023819c00168f70100a20ff301c6bbe602d2d810023d2990,
  0x35409b02e1c5a002b0ec9a030843470361542f0148dda20323bbfe012a644a01da8960038081330027059001731bd0004bf77802948cb90015fdcb0359df3403f6c7c5021e43bc00b1949c02122853000f957e028124a60286b1d700a888c0013e4c6603554ba90084d7150331192701b0897e013c2b32,
  0x109700a2e775028d2e0f00e938d700c3a02d03ffd33b025f0a220063a5ad03b5088001341ced003910880323198100c1922603d561a001b645c4023691a202cea301014c5b3d03dcf8aa001fa3b0003a908c00a7775901d0b057013f4167027a89be035dcd8d0316d0610024ae8a016a036d034ad858,
  0x3ffb5401b8039e022fc96001fce10702fca91d02385bce017b1fce00c886e600c7e42c02f773b30018e27700d826de0192df79002e5af10068392d02c0df6202d753b001ade914019aaf2501cfbed6000f64d20027f66a006d28040253c5d903f1af6402200f0e0301831c0301cdae00f951d50258841e,
  0x3107f801c2c60d0216e18b00bb39a2007fa8a503845aaf015bec2e01e70a2f014605b10151ec96003474c2009f6a15024cbefc03f051e503df3ef0004c23100132d3a3015e106c01b77ebc0326e5c000193fc900905bfd02d09678017b229b00c956b600f4854b037387f0037b7dd0025097ef02de147b,
  0x27b29d009aac43014ccf05033176b5023063c602e6913b036d144100cac65f0246880a0203cb49000311b701eba6b2009fad100256641a03f96d350261ecb303e6e1a50094cbf70021ab44021a7393000a7f4b007accb6028c581a024687af030f5c4b01a0383f009b44e60036601300665ea8011dff5e,
  0x195abf03c8d73702f0ebed02726df301a072950067b13e00f5041d02dc873a03ebf609030d9fec00195fb802111e63022dc2b203aa360d02544e6003ba7b2001b2435d00c049f9037ae70d03ae1f2900025c9b00f32a1101bef348037be5e60352d86a030bb5d202d3634a03b7be0902a6fff402ce5334,
  0x1bda3e03e5a0c701e67e5c03a117d4010f5f6d0007cd8403c0a7a1034f454a01636e32039bbb7b00361b61035020c403e5698a0030bc9c01bfb31d0335a9dc0302900f03d187f303aae3ad009cba070038e50402c49342000e0fdf00f341310343462102556ac500a02fb003dfb028016b920700faaa44,
  0x3d8b7b01b2202a0184839e030d9a1202365fe602b692bc00ff5eae0241f60a00aaec1800fcb110000ac7b802a068ce03e4ee4c035d0a8c0308163c0354f55300205f5403655c770250d828003ae1d000203cd700ea46b703b12fdc00dd412703d55a7103b5fc03002c9559013da14d00555721030d6999,
  0x21c0bf007ade2002eca2ba0038d22c03a084b4036f354b00bcb1d6021c0bb000071e4503c224fa003a1b2d01253b41010b7ec901e569a802e58af201e4f2de024fc78001ca291702e784a203c6b7bb00117e68036e06c800e552b901daff1c037724930068563100cb432600ad820100ddcf30004dd5cc,
  0x30d13603622532029b644700159eba0201c3b100aada4e0037b96600da44a7033ffa2602176fbb0036ead700b62c2e009cef7b012a4fb5022dc7d501d3feaf02a2624a030fedc700df7d0300ce4b270013e00c03c5a50f038d37c702b53c72030fd0c50010c04e007356fe03ba64660039bfd401b1cbde,
  0x3b8b67034e422b02caceaa0168b86602c75ad7030fec260073791901ed44c501665a7202f495d20038cb4e0192372400d39f74028ffbce03ec749f008f00be025572320104ddb40362e74a02be4f4a0022997d0316cb0e03f1427901346d2b0249aa450240b605037f8cdc03b067c100781ab700d36519,
  0x18f95e02b286090047ca8101de82d102c9f38c023f2d9003dcd7fd01d23b5c016062e403a2f6dd001524ef02cb829f02c4a6f500e0223902a11fdd0236da28003b29d5020942ec0065492d017fd4a00039f51f030b1e68034355fe020e7a9701fd322e01f435d303a6d95801a74ec000baa0130238d9e5,
  0x2195e802396877032906740271b8c30079d24b016a922d01009d3e03d23392009b93fe00d42f270010edec028061c802d342bb0337e11d0276eb1f026d42c7037dbdf80312c47c03abfbdc02e6653c001a32530019bd480258e5f302dc17c702068d9001a80d99023abb6a01cd4c2f007c014b0045f049,
  0x9f8fa0215161603cfeae5024602a801401ba303bf1bd8035a6ee7032014ed0271f3bd03ac1d310026796a007c5d1b0249d756017d9e29017ebb1b0211d6ab03046dbc03889cff02e04a86017951e300363b31017fc588036a2a170303405802266d5802af6b8601760a0e000122f2034763e0023cb067,
  0x2d0768013d685e011e32a20254e33e03a1cf9a003d58af031b94ef0371ac2003b866ee031364860029fe69032f58ec011c87a803e5450f02866a3e019aae0c0393be53019eaefe010212d8009ef4d5002935fd01551dda010affae03501d71011075a9000aad8e003ccaf6039c03da019448c1033a2ba7,
  0x1289de03717784035e139300f53fcd02679d5502b6ca5102f40dc502dab8c503f7cb0103a045d7003673dc002fb98f033654ae03247cff030050eb01e8312d03e7bcef0207d327013f6b3301604911002648920049a7a8028a199500d8985903d6371002525ff0022a4cc100c8236402cd37a70351d6cc,
  0x1e8f7903b77dc4026fa9f203dd35b0010ee724039d3ac402abe5c103ba615201ba7dfb03021704001c340e034f14b600e895f7023a55930045974000aac23802c639a102404bb00349e864021587520006436c0331d348003b973d01cfddbc01442b9a017bd2a9012be7c801652d6b02ad18cb00aca308,
  0x363e1b029d7eca0109d68b0041e482024c9f500206e70703bdeeeb0083ae2d025c0a6d037918ab001b02d601ec17ba030cc3930127a1c503126a9403f53ae103c66e7400eaa95f0090baa002d161cc00134f8001bb656c01c5f4ff01a82b11032bf5d00262fb8f023c3b1c0368adc1020266f401c6ae60,
  0x380f6903fd5c2500a6fc4601c9bdb403f2b39c00e6c642026ebb2d024286ce021c756d000d82bf0035483301350c5e012b240c008ca43903c911f50172776d00d1ba980354340800fb2dc9021052e700298e0503a4b51900d9138502b9841000c1a7bc005320ad03813f6703fd5f9801be13c600ca15fb,
  0x181aa40237adf8018cc85f00f82664028589df005a7da4038a24c602a505a300ad7dbe0276b2ff000852d0014bf70e00fb3dcb0014b98a02376b6c0022c01a01cb4af90256549c03979b6a035bfa9e000965810090f28b03e37037024985b5007576f803c4278d023c9c9603e74f98011df61e0027d595,
  0x3631a500fd4deb01888f8b03e3fe1c011091b103e5882403bd21aa01f9a468024a177f03eeecc700316e1702dc8b1b01cd050f01dac817030f5c20017f8db0038dd51e0124a3fb018da4bf0209051700381dc500ca30dd00d25361000cd713027f03a200ad116c037a8c0a01bc32790201cbe90343e910,
  0x2cbaee02b44888037e6ca303bf75aa0228d0d203dda8a70057c47d00bf2dc503c77c8602f4ac61000c3b5003a6b66e0120389103347933030e18460355fdcb011bf7140370b915011aa92401beb5e6000b054c0310032601dd0bf301fcf7d8002efc1a011d680d013b4d7103b50ed9017abc8100f1a9ac,
  0x26626a0349d8e40282cb0f026ee5a20111c24a0359b16903dda59b0078ba940005019d023d7a76000fe0d4038c00260136cd7d0377197b00e13e55006f4f890374873f0004694d0117db0902a2124a002a6ebf00569cce01fc7cf003b946ce024d4b5402a1e6e3009eac4c0215c0a0022fda3f001cde5b,
  0x19c4fb003c4c3502ba715b01fd97610231173e00d5fb6902a8338a013456ba01e56f8e00433666000a9da30167a51a0094501d029002d0026940350207da8e01c75b68004a52290062da9802ee42c2003faf5401f2bbcd00aa6a690200a95d0398572c026a1940016381bd017c60ed0031f67f026337e4,
  0x5114e030aaed603a2d6c20373e33c019d5100005cacf8008f215c01f310f8018d41df0351ef3e0030b232037a7e77005ffa4700ad0c4900a2a3ab00cde4cc029155d80090c574004fb23a01bbd6c1001b4fd7037fcad702555eb401019e6c01d90fc501b4fb6901f82a450047fdc102783be5037ae08c,
  0x3f070f00d398e3032c962e0117ba1b00f03f4401e7491c00d49d8b01ce602d0252007001e6b60c0036822d0078ce5701b03fe401eb90f902d45066015724ae036e276802e29914011b941f014575cf0000465d034ba69f028ee750015a992201a2c56f039b0f6a036176e5023a2a7a0363dedd010834f3,
  0xeb5a202e19431012847d703b4946b02e130590112725003fc9e06008a10460285eb9103417ec9000b83d40375b1c900404b0901274aac0175c0970002f68c025ea586008427a402ac172800960c46003b071302bffee100d0994301ba30b40161b86803297a39018980900214b15302aedfb90019995a,
  0x1e7844028fa70400fa61fe01a8d7e701cb45fb03b87b09027c60b402d72cff01dfd46b020086cb001d24f10025d16e00a9adb503bc85fb02ae957b0268577e013aaf67022eb874030696a0016f41fb0006f9e602573bdd02a4b4810207a5bd0345536d0254a3ec03f3ba9a004f3a3b0254c135012aee5b,
  0x7598f00c010da0316fd8f0042fb9f02cd642d00744da300e74dcc01272daf01bf535e02d44f1b00215c7902aafbd901d7de5403cb45c701fab80f014d391001c696f70239d5bd007b9d0000189b340037ad5d03cdb2a101ce698c00c7ce7d00c7183f00b9b1e50317508401e4f85b029de7de01f073e8,
  0x33c41d0238788a026552190313a7ad00bd4a9600326a7403d745b3020295ea011ff92a01de948800076f5f01f2c3e1029b8c5b0088f2c301be123100a8c29e00388ca803ac23e601deda5800e5003c0004cd0a010afeff00684ade038ec57800ca991402727abc03bf2ba201e62e58006d97240319c3e7,
  0x36cf6b0148ea6900f92fff00b8195b027cc981013c287500448a7b01b988a300c6bc9402cc25f8003fd3a501478311031c6b30038996a301d7a55300e52a870234f5c4001c8c1901fc17bb00694b51000b41b9022530ed01e357b2038376d2003f7fc10250dcc9000822460209f127003956e102f57188,
  0xddca502e0e3b7026f544a01cafa53010884e0026673d2034b3ae401c4b1ad010d510f02ac828c001e9ff300912a31031f7b4700d651c000ba066e02fa33260049078c01f6477c0257f73701f475270036a70a026b59e0020a05ab00f2a279032c0b80000c5d4001d10c58001159ca015d5c1f03023125,
  0x118c2011caf8300f50a5a0263135a003f60f902525ef6027aa5c3014c757903f898330369f279003388b60137cb520297c791006729b8022a26e802ae601c031a76f60162e71102a8c8b2012ea994002e5f840039fd2e03733cbd02528bde010f15bd03932ac9006d0a5e023242d303a9c2a702c02ee5,
  0x2d44630370b4f4005a053800de9d9300ae8e76014ab2c8011f629a020c9001007c8f2a02c35ea70003d18100b8fe4403a322b002d7d0ce009e744603b29710013e2dcd037f145d003dced10204ebbe002ce8be0261c36a01a3a86301690c2503a6e933016cbff100f3c5e5027a9b0b007b844f00ac775e,
  0x1c5ce203a82aba01734d6600aba07600ec003502cf332e02ab2cde01f94b6a0383b0ce015b343e000646ba007e72e001f838ca03aa79fe0147e6d903af3d9a02d5454302a60d71008d3b320003139f001a44130337ef1b0038e9f10266af5c024c0c550179f44f00b677d00285a6ee037fc85a015487cb,
  0x37b82e023a8608022a9ed60383cfd5009ed1d7031abc36006f5124033eaa330095717c00afae61003229d302a53096029e6e7d01b087fe03f09ef2007dde1f012b5297019a6e8a015e321c006f0e9e002daf88011f8520019809b90313dc8f029b347302609cc8032db0d201710ee803303825002b3b32,
  0x1a97710093a3bd00855ca300e265db03d8d30500038ca101cbbb3b011f797a0185119400ad0d4f0013601800636e00003c5473008dbaa9002466cb02f36851036db62a03eb627202a5043003ac4596002787eb02ce8bf9006daf3c033c922700d59d3103218e3d0057ad1c01424e4c034c7b5001a348de,
  0x10d2180304323f0014237d02e1ac3b02de8da80294f4e403208da8017e63d302ee647902e8d25f002c1a9d00f7c2bc00f1cd2a01b9dc9c03a815ce024b25b30018c15e00a63d7600597da303cc7633003b072e00ad65b4038f9ee700d6c29e00e6b17a00e5b3f4024fa27a0105c7d101eb188e01ba8ce1,
  0x3ac22b03497b9702e39b5901ff0349014cbaef000314ba0218958200e3d6c60203f036030254a50030ebe903c29c410098948000b27c3a011ee1df03c45c31022e38250088319503a79158024fc41a000be59b00550a0b002de65a01e1396a03888d0f039f573b00d4f9fa029bc8e103baf4b601277613,
  0xebc9102a29ef100fb77e8034ddeca0278c1c90156e5fa02bc15ee027d4a80038182960010982e0004814a03703fdf00bae36101b5abe003f819990222633a02a10f4502f2e31002a74c3000e5216900313732000bf49b0002f5b8037845650064efb20057ad860255afac035f83310398aac602bfb48e,
  0x4285600b55a5c0124ec2901a74b53021766d40341d9d602c52ca900fcb123034a753702c7415200132c7303dcd48602e9e38102f77dab0248d3a40313d7a702e6878a03ed9714016661ba03e3f165000b09ff01eb598c0002091b00383f8302ccf6af01b2da16036aa3a8015c1f860262a0ed0324db4b,
  0x8a65702aa7aef02b6f38b00e09f26022489c8034ca2aa03576b04029f21fd007ef42a038c9a0f001986cc01437c0c01efc62200618084018b9240017fd0a703d7e52801c4e20402de25d8016c12840018b97f00a83b18023f0bb10211722901110bdd008bf441017b50d401cc2c1503a42ad70064c775,
  0xa665f038c0fc10241d6840254b5bf0083026f0022be83001090cf0280855b033971b5036f2d2f003cfbde0022ff6e00a364740197397d007ee320020c30f3009ef2c0018c3a1e011ff25700047938003ed13f02078a650188e6dd03adaf6002d54dba01a3360303805e0f02f37b3f03c855d702921b47,
  0xcc1a201b3a49803b2b24403c805590078ce37002601d7027100bc01b5dc4d01716596005bae5b003db11b026657410263495d0391bea70047945c00f1cfb90128904403c44375005fc785006055dd00029aa400e56b7f00295bfe030cdd1f02f991c00116779a025e092603a1d4b10036ee57030c014b,
  0x3c62df0044abaa0300ec6700f2d6c5004cce2301febabf02b6499700d9acd202902314032f03b7000e0bf4010b23ba02f09f72039fd7cd03f2d3fc02977f7700df294e02af7fff02d7601600435a6b00245fb6021f86c1014eb9e70089db9a01f566ad000be4bb0397b4e8037fbd5d02267c760373a85c,
  0xdcb6300cd76bc016b3dda00c3b3c702d47f9f01d364ff0012cd97036ec2ba031c6b24016492f800294822013bb2570379eecd031378d901475b3301433c7f03a8a8ed009b44020293cb7a03628c6e0022f832009e90c4029cf228033c87030137b4f401f90ce3001af91e0076d6310350dff8020b59d1,
  0x24c41100140ac6008c1b0203a4d23402d3cb2d012a879e0161e42500748e0a0300477b01e0bab6002dcf4e0398ab4202c7adc40284faf6033f8613029fa4d301c235b8026b210401ea25150110d47a0015b7cc03bf50df037eb42b011a8bd60042e0b60266a08c00e336ba0387f233008c783603aae561,
  0x1b0bfe0228bc78030c98b7031b06e00070cec800b60f64019df98100d49ea301c7c7a802ec741b002a64bc037d2e3e03d2312802808223006b15e301f7ebba003a6a25017e43cd03803aff01e2b50d000164690325fb9e002c2fc103f785aa02c2fc4803a0ad03029d0be4001b1dce00160e380039e83b,
  0x14a75b03f8649f03853a6a02f120bb01cd6ffc0122e1c601c6081401302df6003b832d02e0b2aa000edb2e02bab3e801af05bd017a03b901acdad703fcc6b801a2a4730309648b008e03cf008e669b001713dd0158fd2903a5b206022b892503716dda00848d4e02247ae003d455db0134a6660085efee,
  0x15941015277f602aa928900a46aa603abd47b03ebad1002abaab003e4c9b302ee6e12039cd4950009086a00a16c7402e646b00155087e0212df5d01f667a902289f5202e16236037249cd0366e1f7001717c80256fac001e29fa40094978d034b14f90290613303c2ad78025c897a00f32e7601202fba,
  0x23f47802db43dd03a2a889002cd65101f90c54007b0ca90303e5fc025f3d2d02726c480109591700157b6203aff65303b16b2503321c460311217c0090fdd0034acaff03fef7fb02f9f3840177c8140039f15c000bd02103546c2b03e92a11038378c40369920b02fdd197000f23bb0241a37f034f6826,
  0x21a4e103c00cc40263694701fcbeec0097178a0180881301c635af02628d8a03349c1d003bee3f001ea10303f27bd300220f2301b6632a00899aad00245f8d00b06f0203ba4953033dd5a300e5ef31003ff87f00cc3d0300c78d180054c2d80271577f0168a36301294807024ee06b001e883500cf1445,
  0x96b1e025829ee01fbe47c026f08b1033634ac00d3120101052079023f33630321851002812c00000c8e8901b1ab1a00227b860177114a00b9700b029a7e700193447403792e7002b33969035b5a86003037db021bb8660039e10103bd2e8103e4a1e10151b747039d342c005f614f01fbdf6700e3b46c,
  0x322e6f006420e403ce0d3d0232e017030de90e0288baf5032bab3a02459fe501c7225702d9b643003495aa0264d85f02f1b561008bebd502d91194004775da03e0f784026dcc2e0394530300ef3a6f00191159020ebcb902e64185034cd45d00ffde6402c6bd03029b8cae004f2a2f0274f66201ed5387,
  0x27e0ca02f45a34027b4079022ce5f5007c7bda003c69f801ebc3d501e8cbc0003df47a01c2589100205bf701ab3c1300e6c65803226c85004047f903c6d6b002850ddf02a5bb5c00f092a4015d24140007fd97017b4b3902be45dd003fc6d902f74bf9019a95cb02353e99013f2d16014bb6b300a00f5f,
  0x2d67890157c3480152f4aa00bc8e1f01142ec702c6cdbe0081f9230101020f0349e7ba027f69a00020ffea0235b97402e997290109e71e0397649f0175a72303e5f51501de39b502e27348029571f00027a0840244157f01e599c601c2c155016f813d029a2a250396883002ce322c02df24c90320927a,
  0x924ad0236a33f02a40320001971a30264237901afdc8200fabea002d33be3032cefd602d5df62002834110192793600fb75510017f213028e48fd00916d50017e904800acd62d01602c9701062d9d001fa06602c7c262013a68c703b7de37006f66d5012c2b6c0205eabf019036d1008e5f1602ba0d78,
  0x2a20a10266c48002150c580330058600e9f608009f2e21017058d000abdcc90224a7df01fc0cc50020821102c3e46a027c9a68015fe0ec01722d0100fef15701801328030677d903cc034e02070d6c0005218903e2f47600d65f9c00b60d7203e4d99b0264ddb40397967501fccc6f03b6b7c90224c50c,
  0x1e1505034ef8240232947702a1abcc02e59253003622e7035c48ba02bb721803b55cc002f1ce300030aa9e01ebc4f90066f78302db60e70023958601508770028adc58007ca976006bb25401817476003757d901672af10303aba2003c078503ff9fec03c03de900d07a4c019e546402fe0c810373bd90,
  0xe821f03f6ca390232ee160049f8bf00d0c0450261267f01684ad9039ec02401c969fc032ffd07002a7977004bad6f01f5b3ac017b3d31013f93e00068879e01780fab0119428a03d0d37701205b2100191865003f139e033a743b02b7011e0033343302910f2003cb3dee0081a6190188476e0064318a,
  0x29e23401049a7101d706e203ceb4a80383998803190ddf0154c443011ef7ab02d7730e00828ab1001a69ef01653f2d001a2dc6022ce255013da42d03e6ccbe004bab2c0361c2d90124122603ae7b72003c25da0009698c0289d4f80107e52c0297cd2e01c9203e011cf10f0195ee4a019e96d103683412,
  0x36c966015710a1023adb4a03ba663703338a7b023d4bab0038cc83008bd6ba022fbfbb03f602a10013b18a009e29f202ce516b0277b09c008da30100dfc77d02298f2c03568be300abd100022fa56f003fc5e5021f252f0385cb3a016c56380337d3f903c93a3101ee894e021be0650392c91f0054daee,
  0x1091c8034bfd7f03d48eb200b84c1700ab2680024f147800fabf3f023067fd0066989a0104887e0004a8c40082900c00c98b4302970054016ddc3401211a170386313e03e3d6dd02ec98fb02a31f450039f6bf031f08d50053669a02009137025c088301e8e6690219669f03ecdc6101a5de9b01694449,
  0x1ae9860207d59002ab81390216837303de008803e2ea24023f47cb0343e32d028729ca03069e76003e2a03001276cb0367969300499fff01d8037f039bdc2b00f174150135af5c038ff7ac01dea0e000371d670178dbc80201557a03a3f8640373784f002b637201e07766036bc1970299171a03a84676,
  0x230a2102d47bc000314ded0268141e0290711702f720c40224b859025ed00800a25fdd02213747001d9fdb03e5dbec013ef93702cd94ef03b7348a02f0f14d009ff99100942abf032de2e8038d53c5001041c9029302f503d250df0067ff1f034d47e102e5bbcb02d2a99800e8dd8e0195fe050107e0b1,
  0x35683703e974b103174dde02bf0fc200c53ef102290a2b015ef4cd037819de036b4bd400d5f7c5001fe7ce016d0dc50087a60900bb2fba029a511501679c2600fe5d65016e44300230060c02c1d0120019009801b879820057143e013d81f90167751f0165896f0309ddc1006ccf9501efec1301a12c7b,
  0x6b70b00ce13e80314450703521eb200754abd011b6bb5030df5d1018f8b9800f8d7e802a45029000008810255ffa900fd984301bc39940000bee7010fb2690188275b0107afc1005d524202dbcd950007555e00289732007df601007c8a01007cfb51010a745d00d9794e0040bbc700d145a50243d257,
  0x1a80f4034329900217ffed013771d1037f6aad0344420a01db118d02de5e170313c05703d76ed5000b396302397702004c2f2f03267a1802d1ef0b0019d78b01b9294d0323534e03eafe65031977a8003f2dab00a9b2c4030f6ef7012c3880031d3cdf000195ca0025e90b014679ac0392e51202863c8f,
  0x2cfc6001334b3501bf5b880320634503780f2400d5390f03914c5e01f6015e00a2021a032d0d1a0007764e00294b1302e24e670260bd7f02481e6b02344a490133041c012ac94000a27c6d00c52198001c01e3004fa3c0019aa7c8031fd8f9020bb06f0121fc150177966b023efd36023ad32c00e36676,
  0x3b19b0030d114101259f6802f330180269ae6b0356ac9101bca32c021489c302cef9f003f0115100047f3303b00d0b011bc0cd02dc97ec02269afc016a41ed02fd32340334efe2007d549e007ac0bb000fde8200ea5e870383023b034d73bc02b04be7024b84b901db3b54013b9f7f01d52680016176e2,
  0xd6be30105911b0348f8b502bc75bf0300db36021510aa0133893200771133024c6e010130c9a30017d428007a1b6001945afb00080d76034a39960175efa70135f6e90130c5d9020c209e026ce33e001cb428007439ef0126755002462e0c036e7a9a021ee32003bb65e20257931b0004bd0d0146f74f,
  0x3e4d5403c328770334597903efa8f701f52dcd0371768103dd2a9f00d33a230377f82a0358952f0018271a002fdcf60090810f03a8daac033402a402c93b35035566f702aaeeb200408efa03f552600019dbad01c50a9202cde28901fbee9d03b3627d004fbfc802ba5b22010a3c86008b8a08020c06bd,
  0x614050063443700ffe87600fb661802714c09022058030066d9100362e35902f651d602080fe20024f84500d6203f0186e5ee02f59cc7000e376d015059f0003ff27800964f8103d76cf6018a64810004d5d401e6f56a038542c9016b99bd030b744a0006225a008b9729033d1f67027fcfd8006d5886,
  0x11249a002d7167038887e702029dc1029240e002160fe302822c81006cd65f015c32a40095d77c002cb21e01f1033d011857cb011b7e5903a38028009675a802068af6022814130280aeaf02741dee00202376036bf28c00c2d831018ccf4b0265b72b0018e5f6029c4adc006aa17700e01a010388c9e0,
  0x3723850348aa0400981d220104e86c03338dfd004ff155011912f801e341de00591fc201562d8a00367e6f013e2c1f01a3ab5b03b0162b03e2957a01722c96033f991c0095180501c2c8fb013e4b1d00296c0102d9229803a0026f00393c820385a7f300cae0af03bf188301976799026cddd6026decf6,
  0x621e10190a40802cdc5f80034a9d5028766f602fc4fcd02a0d16902165d3c00448dfa00ef6e6e00249360006e6b8f000c42ff028655200107af7302369d9100d9d3b602789a230290231b0121db84000e49fa0238f56d03c07c12016a5dff0172ab3e0173466c03bf9bb2028aa621002f697e008dacfa,
  0x3a721201898e09030fe6da02976f78031aba74002cc83501a30a80020ff26d01ccf2c2033f72e0000a4b4e02e73d7702be2cad01b70bd300a7f24b03798448030a915c012d915a02ca512703f89ce80031a3f20058586602b7890401e7980703e932b502710885030a65de0189a31800adb9090086135c,
  0x37844301324164008a0e6e022b520002007a1a009ff64e01b67afe02aac19a017fed35009fc9d900168a4101ebf2ff01bb623b00e9c42002528e1b03997233015c3b5803daa1b9034ab35d00cae9f60001d74103e50763035ef5d003401e12024f7f730028ce10015c570602627811004a2efe01c8f515,
  0x29f8fc020ca24f038a84c8000a504802a18ad70166252101e027b1001d37b8024502b50241f75f00263378001c14f00105d0f200c8a708032a0916017b400a03f06b45007d974d00db7605018acf59000684c900f238ac00da9d8902218a9903aae6e601a7b74901a14ed00224bef9034aee3e01d5a653,
  0x68bea033fe224019518fc00e793d40063d7ad00ef57f101f734aa021a186300b86cd4026fd31500320bf901bc8c570028f717026f1e2203adde1303308b8b00935e4e012b0a50031ecc310025ff6d001a461b034d04b500074ac20264827a016bae4e009da85e027fbc7902982201027690ec03c00466,
  0x30bc3e034ed13b0314de680174a21a028592d3007a869401a31f310248990300854c87000ba8dd000d613500d1b5e0024138870252be6900ed9fce0379949f014f2aa1034aef36018379c300b2574100384ba7026c9e0300a0656402df7709010e024e0066a023039b655e033cac7f00ab14f00185bad6,
  0x2d04b2032f919e00f8963901f0828702ae0a9a02fca885037672a30207e42902067da3011e0271002fdba1035c5e7e02b8de2d0309241b02e56b0f01ee99af02d3fc8202c2429700b6574a00c7dd49002e7916023a99930212decb005dab3e006883ac031aa95101afa40701f918f002f634f902eaeade,
  0x1a8ca102ebddb2000c819800ebace201995284032925b201b3c48902b35c7d00f623420365cd0e003e745902d69e5200a1d9ef013f957c0229f1940199696b0339bd6800bdffe10002a5ca028ab05e00371e8b02cf29ea03ba83c50328d3bf03d9e2f7029017a0002ac0a200956197016a607800e9cbf6,
  0x2c37eb01f067650344d34d01f882a9014744c400de86d2030e6b6c019640c1012a31c902566a1d00356dc5021941080325ec520191d55f0041894201a7821d02fd096f0224c91903d7f25c0367cc9e00297093002c74d201d947db00bc4bd801b64b410046b7c7010deded0130414a0264794702f4470c,
  0x3dc950230f4d801a8afc70081939f011cc56d038b624503091d6800dda3d70184555903f418bc0017375e0396f17f039fe0c302f7a3590100d5cb023c601403e83469007a694e0384c0a70194aa15002671fc02ab05430083c2e1032238ec02b77a5f03d1ff8c00487e9f00dfdb75015eaffb03d7e68a,
  0x31a8f200c3b55803d31498003665960072c941005be7dd02372021007fe33b0358351b01171de70007750a0178c7f5036a516a03934a28024c46060010b48b012fb1e5036918b801f99232004c3e2b000a7e0603edbe04032e8fdd01186b640197082e02aa9cb702460eee016f75a20357768b00c0681a,
  0x15f11200a84432030733010316322701e7449002233781006643c9021b44f1024eb7ef017b6510003685ec02d03a7f0234a3f4038c4ea7027bb29603ac9a6c00547f8e015d92fc015e7d5e02c278990028833f02fbd256015840350291047603e6a486027594a702d0f7f303d31966031545f101a1c799,
  0x3fd1fe0212e21d025def6101c72ee0032441c701f2ecf203cfb00c001e871e02d3173700d0f0170007aaf600d012f102f2f71e00dcea400043c9e102caf294035a166a010a74bb0148b2920383a3da0029036a01eafb96021916e7034daf6601f7e9c9005b999400c7eddf02f65ad201379f28031f3069,
  0xeeaaa02c4033c00a7ddc400dff71402af3dec022c6d2a0361481b01ae7de903d09c45004a01670014e9440200b3c100d023a90256e6ef02d1db1d03d7b8e903f7c3dc01c319f80257c5a803faeadd00002c9400912da002366d380225aaa9037652170206ec2d00734623013a0108025a554b0223c920,
  0x2d548d00a4c63a00e8e88d0143bd0200d65c38028a2cdc00b6753d0343951700e0c7a802973fe1003d530003c6b4fa033e017901efa76d026ff8a1026f52f40214b9c8002fd0dc01d2375603d93e4e00290df203c9cd27030f299b028a75f5026666c70290267200f0902e00348bc502b638b00194f9ec,
  0x38159002de3de3001d7db20064734e025ef4f3008c3fc50030e2e702c6125203b467e301f1ba9d000a3dcf0119c60300a4df750258b4ec03391e1303c062c9015f5867023a3f8401d3463b02d8771900088d4a00d3b6da00f702610348657c033a83da03286e1e0224f58e0189ac7b00292b7b003a431e,
  0x18f9da02ddadfb00b4b042030e1806024111830354820a00ccb85500a80e2d02834a6d03f161ff003512cd01df47d9017613c50162473d0024b7ab02d1321a03f02e8402a1991503fb203c0388592600217db701b12d0e00389b4500eb1aa500e0c9f302b63f890346548202090f3b03eac05202a2d4a8,
  0x1c295a01425e1e02974422035fa35a0370082902e8aa7c008052b901a113860223a35c0237b9ac001739f5033844f20266610301f5277b02a33b2e0223e67700cc9c4000429bcf0338639401f68d3000226d7e01e50fde0123368e03a09e82036f8e9902d6e49300a6a4400353c7ec035e95c3014a5671,
  0x6a55a01b118270222e2bc01fa7af30230cd3002cb9e2303ebbe5202eb26a10243b1a00304b50e00262bc601c6a289021535b10069c8b5021217e5036c06c503b73ba30043f510006db137035f455700296f7303badc4a00b40c1702beb0de0014495e01d832bb02790d3100763cbb018f2240007e4a81,
  0x233e5803f69324016ec6fb0176fb740376e51003d5aaf501df05d800e48d26007f6aeb014a688a00339611037517d103fcbdbf012cff7802ba07c400661cc9021ddd21015143200132812703a890710003b58900d00ece00aee0fa037f04b903e013fc022ec0170052a59702a3eb98001f112403ca1b5b,
  0x3bbbe300e94bd203e0495d028c79c703a0846002020bab0052578e0056b5fb0177851000ae68c9003a8ad20349a3d1027d10ce03d654cb022075990014b735030e6f690096be5a035bda5203f0696b00393be501086e87024354ab019fa09f03edad9a022f27720374435e01402f5603344c900022d82c,
  0xfd05501b9b0da0298edc203ef9448035f912c01173946023d070900fa498e037b467501f617bd0018ff9502bb99da0276018a00c5b91b01b60aea02606df9023b54e301b56f5600a54fac003226a6000f99ed023730ac03b7ae3b00e241b6038ffe4802958a3501562710012b668f03451a8901f54395,
  0x2c290200d53ec70093fd6702b7e1460323f5150100557901223826013372a4005ee56b01c2091000366ff202bfca8b030f414a03c5f5a700eded760321843602411d1b03a5a9d702d49c3902840377002263ef01df0f5702240f3100a904d103d58562034d4a8f012931690240a581000c343b0355aa1c,
  0x1735f400485a9601b59508012a3b7f0234d80702bd10aa03eecde0015019000200c8c602dcb64d002855c90243dd7e01e484e603ecd6de03f3f42702b10f8101e6a90602913b12030ebcc9033de76800342ecc03f6477d031d316c01a8984e001759db0399965c00d573db016353de02fbb3d402c690be,
  0x95351011d41ad01eb2193025d06a400f6422003bfde9d0099b63f01ba43a801af0e5b0219fe3c002ca5c701337feb024410e900a92aae0380325902c0702c00a3abf600ac6f9703d6fc8d0255919b0018d5fe02ec6fef0246d56b016caa69036cf5c501908ff200a4b16201f99451021752fc028267f1,
  0x1131030090850203f06d8e01f009360145994e03ea7e2a036acccb01cf882d02c8c13602211ed60010f0a403e173c7007973b7014c9ca40253d65303177545038bfb6f0050c457017aaa87004dc087000e606a03330aa9014c12720311667f0308b34a02f22b7701bd59d400ab880c01f92bc401320cb2,
  0x399f702ab20a901ada73803bbd8ff036cff69032bf1a6006e07c0000285a30235dc30037f135800168cae0192216800cb707a03366dcb01ac46cb0118e1410169e123035f217300682f590301f877002d324e03f3a3a202515dd000eebd3c01908a6702f0dc8503e12b5d005064410231cdff036d1eab,
  0x25a5d0120872e03a64bae0096c81801702f6f01f8dc6601b7f1a100d17bce017db9da017fc72f003386ce02dc720d02dcd5070089339201d9d01e00b674e30003096302514bd701400a9702dfc88a0029ee250093db33025f15ac03d5739c02ab309e0220073a0285096400c6d76203bf62610228e0de,
  0x25f7060085fc00011646510054717b00f527eb039fc8a90337f43e0157f84d0139e8e500f21414001e1c91006d4f2c03e036ce02b26d7b02dac919025a4664020428da008367d901b4d27a0166fc9e0012fd3b029481280394032100a5855b001a41c703af639d0182ba63008533430250a2310143990f,
  0xde13f01a71bdf01b269f200fee17a01388d0802c4cd57011be7110271875c01da250502194c24002d1a3f02ef35aa0256faa4026998e3003a9a570071ad16012cbd9e0102e08e02e2420500d5c7e400240d9700d4c92102f3a33501c814bc02d74c2b02d45ee402915f1702925bbd035a04c20341b12e,
  0x2397290131e19a0121571e02faad5a01945bde0391ced700b959e70194eb5302be9abc011b1e9d0027f74300e6d64d00fef427019bb42e01ff668e017878ff02eb008003bb9d3700641712022b1b09001ddcff0236143400de66e90148ccf100b909160340b58e01bd88cb01656967025e8fa301b13d85,
  0x234d102776b1a01fa1f2700e4626d03ada11702d88375001cc9d10365f8f901dd10bd02da37d2003293d103f9e47b036407c802f6cb3401279eba0058a405029f511b02069028021fc61702105dba002c4ba103a5679b00c85eb00296858a01efe1a100ae2bd50357e4890119d870036d738803a9388b,
  0x14de96001066ea016d2011003b4993007401790345d70d013f72ae035a20ec021d092f00c8c34100195242020ad6e0026bb8570037a05a01b3e27b00b6390c02975222022dadd903061f2303af2dc5000a2c5e01181e54033bab4900192af603f52a9b00ed91870210bc3f03f9b8da0094ae1b030a553a,
  0x2c2e4702c08111035ab5e702d72eef0380f6b4029b4d89018bcfaf01e8d118018b88400094003a003d52e6003c8d7103e580fa021b182903a8fe570315e68c02bf2eb6037cfddb01dab4ca02ee2671001969ff01de2e4801d7567e0155b9e100b46495000644110229dafa03a916ea0033fd9603796110,
  0x15dfa6030eb1d0009b49020339f95001feeb1f034efbb4027cfd2a0392ec28016066c3031589ee002d952e019d7e9c00e2cbb603c294a102d3215601626ec903ae3d95020dac3e003fde6c02cfbe45002bd367036c145902589f8401b6cfa100b2f6e20335e4a80153ce2c017751e90091b419002b91ff,
  0x2c90be039670d00214252801df1bb402516a24016b0b5003d811aa027611b80102818703ddcf97003132b402ceb4a203eba54d018bc59501d7a30400e138390379ca6302f31963026ead0502767495000edb8601c88b1200fa25520051121e00cf341a028c6e2a03cc8efb0125e3e501f14c4103ec4c05,
  0x73c1a01fe426d02bd24be00b92d1f01771e310277a68500c86c790157ac3c0383ce0702b515ef000d6d6d030e24f6025efc73033150be01a8cf99027600c00364da7700104cd0002dfce3015f4dc5001037b10172f3df00063c6202299274021c53c9012696d701c872d002abbf3f001fe63c01955f70,
  0x1b0b0301bc7f3f011f355600aa2e1a0314fe6f01de0cbb0113f29b03a036ce031213b900eda16a003662f3036f606200c3aac501cbf7da032554cf02b92f2e03104e380230a58f014dbccb011a10690025e1950044266701df566e010f4f7f03628b9101ba60df00da80ce0277346103850a18003581c1,
  0x218d730019868b02aba8a101a3f76903d3c0b6028efe9d01b980d600b8923b0174957103a28a8f00004bde005f1d7700708be203ec2604008fa23600baa81401cb52af03926d79019761b101971ec2001ba80400fe714c0254acb302a548c4002f42b90122b94501fa9efa01b41203031fde0901c4f874,
  0x1aeb94031d922a0099b0090305260b0062d73d01464de5012d701e02fdb99e000089140071a9070013b61d03c1b36402205b5a00b219760234b56e03a4672800a8e2a80332d2f003ab47b401826ef3000dc90b0335d5c9015564210300dda5034a047402afed6600e8babf032c448401c263b6010f6e65,
  0xd62201ecf00b00aeade601368f5e019d89300360bb5a0374344c00dcf0e702789da6000f7a43001e02c00303ea080151f87c025a169401243e66021cf381032732a1003c44d600b692a10290d4f100238a5500a0b99d00ab0db4000487c402d5f08d03cc50cb02e1166900b44b6201777e11034f783f,
  0x36d8e60138e5ed03eff9af02b62c2203df24cb01a8fa800253dd5d00c06bac012b014d01d59348001a2cb201b187ee017480110242689b01c1bbb803baf51b030e9fc903548d6e0186779001645b6a0007a514013a312301ed9c37024c4a7903d899ad028c010d028c43e801e1a5e202cbac15035b5d16,
  0x2af5f1000eeab1028974aa01ed81cc02a08808007f008f003ade7a025ad054005d4b830016353a003e17e702bf4359002447fb01fe8fdc01264665012942b40327f07701ec5af602a7143603510e990020b58102abe40603a6e29e011f7bbf0244978e00e777f701d0a507023212680027f67500a4e31a,
  0x6e3c1013fb34002a24f8b03c0df4503d90f2b00d6de6f01dad3990290f60b0174175900404c4d0014f9fe01f2cdce01943f510395f1b70027b945006d8a5d01b2afa8030a0fd300098b83012c270e0017c85b015933e501d2df3c02f5cece005ee74101096d1701269e85016d6c7003382aa8006423e5,
  0x22772703ef262802583cdc02601ca200c0879002fbeb96002253e30323b53f0060a14803d1b1c10007529e032b528603ec2f2d031aefd400fedd9f00379d7e009b2c0c01698e5f022d27e300cd0cb0001330050293cbda02e513f6019d9e1b01c4ba0c0176f98f03f37f12001222ad03507cec00efa246,
  0x3d610b00be575e011aa82503217e3a026e9fad03ffe90c033285c103d565df020358850391d7ea00059ff10131c3ab033a9cba038b1ce9028bfeea023e72fa01338680011b60fd03958aa700aef364002ee75400e1e9a501ba99e003f931c900ad02dc03a04e55036e88ea0132c7aa00f6bc56030b614f,
  0x2bf1b603c64e9602c614eb0069914e00608f1a023ac12300f233cb00d6bf0302ba716c035e09dc0007b8fc00ae57e80212bfe400d0216700809df203c572a000f8b05c013e7d3402d21bdb017700380036119d0143382f005399080319954803afaaec03ddf1650023b110030a571102d305f200a2fa52,
  0x24e3b10325d05800649ca4025fd23801cd7d8602d9fedc03357e18026724cd013dc76b0078522c00037f9803ed0f3200a95eb70183a241013a048d012741ac0138a72c034fcb9f03768d1301d447d70005799c01a2f8c90213da06021e60f100e0027d02d4595f000ed9610065e74c03e6c2830382573f,
  0x3f74250342c65c03bded6403adf3c3018eef0c034052e002d6faa60097c91700c04483022b95530004b0de010f7a5e02e6295503b613ed02a3086c01c0d3d4028ae1ce00a430c6027021fb0326739900120deb0014444e022abb6d02a2f72f02fcd0730397267503f5c4b10070a49800dea1dc00645bba,
  0x2f252c038b4fcc02206ac503c80a9b014f9739027cfd62032ef1a8007a46db028c2a7103db4005002584f702f2476c0185595d028c29dd00007dff02653e40032717d20100847703b44d53032976af003dfd3102a4380d01d5940302a87d71017fdbd100f12f2103345232028db6c0014e0c250052c230,
  0x29f78e00cdf36b0195169d002eaeaa0147999e036769db0069e5440030ead903140da103cf0d30000c433d038e96010096b84101ecc88a0289cd1602a0189401aad5e700aa6f3e02a2b9bc033a83c400062e6803c9262502f728f803a69048016ab99202ec942e02f4b88f00a8763f017aa8b301caf6c0,
  0x2928dd00c8a277008bb04301e4b7e702bebaec02dc4dc00336d0eb01c75d3501bf485900c360120002625c039d054300fc77f200d4d63d025752ff0368b05b0245cad9032a3b9702c996f503ac5579001ee08b02969c5801459b7c003c335e037de2df03df4f560169d89102b12b3d02596cb8018f76ce,
  0x2546aa00b1d7fe03f8d75a01bc75c901f46f15024b952300f6464e01dd166801312e86026f6b27002a69eb0225926101edb35c0281cdab033631950020d4b1021cfffa025c992b019988d803e58d96000bea3901271cb102624fea00da3116015dad5d00c81c39012b65ae03c3cae20393022d030781fe,
  0x23b1330245bff602dae0a300b5746f02fdc9ba0183a49102dc6c9b0369efdf0265bc7902d3c42a0026394700187d0102860a7e0140cd490210dee500db4a5d03018802021a4a5a0088692203c7ff6c001bea9902260e8e029af16a024452b4010909f002d48461025db6a1002631e0004588850246c2ab,
  0x2fadb003fe28c401cdf37301ab7f81008fadac000fa7ef015eb82503fa03c603a10a4b02a03a790013169f0292308803ae198e013d91940399086b036bf87703cbecaf01e3e0cc02666d0c03a2be8e003aeedf0307f55001a6123702403a8702c33c220159af1f000fabb300c18696022648da00829d69,
  0x3f00500350339301546b1202e078f500ae08f9011c9d81020be2e603a46de90354086903e79848001da32002d826f9004d3f2200c3062e0297ec0a003fc27302a9e8cb01f4fec402673336011ebb010029843200fbc6e903f5a231011c344b0260d40000acd05101f9070b032d6b1b0220df0c00a978a1,
  0x47b3000b2a117005c54d702af9a3b0360a7650384a7fe03b54363028844bc0079287403c95f4b0020335600fb92d802cc2564036f07db02d958ea01b9b2fc03cb40a801073d9800477aa203c77e7d0023625802a80af601d8721401b9f5290084e192004c6b3a02f3fca1026ee0bf03b5fe38030bc70f,
  0x1016702255c4000db70ad00275816014cccdd03cb28df03d3347a003dab9202570d2e014bd0310010e86a01b636d801d5e1f202dc70a803e6fa2002409e020221559d00e59d99012a7418038eb06f00177c0701be056203947e020153def501e1336c03205c3b03397de80192789c03d28bb9029bc526,
  0x32dba01aa06820228e58503ce030d03f55bf4019a37e6038a442a0398d1350011325e0398252200049242024359d601e286590283d45c02827e8c0235cdd10063ecbe01a5947502a3c9db02065522000d45560010812c02cd909a037b5a7100d3cae202f896f70035d0ac027b65ea02a3681b02408d97,
  0x2279930173529600e3a09c03fe47a600cabc53031bfc73002a74110140fe5f00247ded01afbd6300073b5d013d580c0326efef01074e79002edde0016a941e03764ed2015b0a2501569f1b037a0e000031ea1c01eb266c008ff26e029e20ef03024b6d0381ed9d008aa28200e0116701c85454025db447,
  0x1f057901ec372c0166e2c40058b9b203dcf8010366a36b01a8b910035934f20149191d027ce6b90009fe580252649902a6520000c0bbe0018bcf9d01473d80004f0869026fde0102c777e300c783f50031f27103b8cb4d03fc0b3b01e6598b0099481303d2a29f015e03b6026b730301b4ed250223030f,
  0x32618201d6fe58037681d403a0e26d00bf9688032af5a701cfb3db033ce9e0009a42c902c60e9d002831fc02a6516c011844000305114d00fb79b900081064000c83e30117550500afd8c90384c8bb001cb0770104081202a0ff6a038db4fb00a1219f014f4048011a877e00718d4f0248489401094787,
  0x83aac01b9cc0c03d43b1602e0c21500d2a3110148dfb802fed1ac01012257013d365702b4efaa0000b9da00d9392800ce86fa013417770197b1f900730cdf03c61dff0097fdb7000acad000420b5f002da14a0387596a00dfdd61016d0fc400951b6d01ac56bf01bc2989025114b1024d5a0201f73c07,
  0x38072e005d5518003b87b40072dfd102c98537024905fb005aa70c00c41f25038357f8012d05e50011d8440099231b009e30dd03edbf5603afd6840274859e018b6abf01bfad7f0209e361028654720033563b00e1d0010003fe870342143b028052fc0355f86202801cf700f6d7df02e0894000d3362d,
  0x1bdbdf02fc1b6c000f3c300199ebbb01067e4001b490240367b3730242a07701dee36c016b3ff80014a95f01df16430205716800d157b4012ac95a00c79560032c4696015cc97700ca1fcf02cdd3a50003e6c3026bdf870022581800b3769400428327016943dc033d131301b6bf800310a96c012b09c1,
  0x472f302f3dfcf03c125ab01e8cbf5026e8928015a9fb603756204023606d00256cefe0320845f000890d700afdc39039a5b120113b4f603189114032f96fa00674ecf03ac0a6202de2f2700c0c2f200039f5c030199d7022238f303d4991500ed0d150234b7b70100868502d6590b028801a601f17e08,
  0x3f0f47015efb3301b03540021e7c0200cb49110177ac1200e5f6f102d8612e0392b63c026abdeb0031b13e010ee47d0274df9f01b7c4c0001fb44701d7919b0255297f0383a07401c57fae03640c5d003e8c5103258024026db54e03fe21ad0078634a02b0e2ed03021fee00bfb3930326bedc0399eab6,
  0x21c0f803d77d1c011a70e6036396fb0212345203f773e800eee9bd01df2aee00c2d147019ef19d000a276c0181bc5900de46fc02d739cd005e9d3801abe48900e47ab202ab04b400982e88006cf2ff003e809703bed1860055eeb40372ad5e00031b1601bb9b6e00429758023cbe5303fbd40c0292d218,
  0x26816c0368a9230074680202be882f00a6135d01336d6a01eb65fd03f583ad024a12230089ea850001ccaa00daccfc0315c773036800a3014b37790005ac45022ef3d201c49171024d8b5603116c14003a1a630131d1260107e4c801c94da903d51a9d0286f7f1035864160053a5e2006f948100f165d7,
  0x3bd8780058c2f3025aaeb503546f3a01a576040033427a022389d002da30e7020da7fb03cd52470030baf00218f5ab0223a713004655a9004e8cef00943b5e0037ecb302b7635f02cb61fb0118e41e001dd1e50393ccfe02a4ede10019b7550024d2670138822400a17910013269da0247588801d4feda,
  0x26336402a93f1402dbb17300dd0f10007fdb4203ce6f66006cd3c0032c36af0108a51e0340291e001532a8009fe0c80037651f0123bf55006f2a370280ecb800e59c0f03d4bce10289971f01f9a35a0020ceb0002ce16b034675a60333d68e007f60840395026d0305eacc0018227b03adeb7902954434,
  0xf564f02c69ef700a3d711009c681603a2f717037327ca02e9fae103d6c59503c9e562002e1e400022b87500df4ee502d4bc9c024d054e024154fd00e9d00402de2db30291504403c23f3b016e10fe0032af3e011ce87f0218ee7a031b869100d45de202c426f300fd795b001b2a8202588f2300f0902f,
  0x29d3300389a78b009a940702a0c4b803bd43940341dd59025737030123e5210364f50900b4262c002f371a0253037b017cb6020105172a01b4730c035b16720128a17001cc90cc022afe53034c03c2003fb50402fe1371026daca701a0bd7201f8f3650202792402fd2b44037f0a2702b00d6d02d4b418,
  0x33a885021538d6012a9ec50321c35b01c77e8c02d56b100367935c02edfa5f03ab1e1b02801526001cd23203dfa8b20193f4d70323878300410c920051e04403e91b4f0120882401d46a61018d8e2b00287cf401d2a88e00aa8e39029c2ae3024a314c0179ec690393131400d65de0022867ab0040d3d1,
  0xee4ad0214ae8102cb431b025f455501b0c05602320cc30046416503c32c9503bec0e5018e7aa2001228ae021978e1035a652b030d73c5028f207003d94d1102a4898000e68b020073508f02f959d1003a33bb0177431f000cae85010d95a402c015f801a119be0312bfcf01309a8302fb68c500e91da1,
  0x2bfeac010b466e0014e1b5024435580101e102037008bc0212c05c01a528b402772ccc00f0316e000102390162abd8011416d901349180016bbb5402ec7611001ed91203c7cf05001ef63d012a07c9001a68ee03893f7503aa1c8100895c480153d77c0377c8910131aecc010308eb018145b30306cda7,
  0x34201801cec0e800538883008873c401b5faf2030f09b0012fd92d02df1f7401823a2d00a7549e00130eb9000cad7d00ecd45b0133903d0221e7d701c7ad080001c1740134f38e01b9661b03e3e04a001d56f801e281af0322519203e26743009310d0034f2d7b0253113a0346bf0f0393fda30231a8ab,
  0x1ed68f02b02c1100f3147103a3aedc03939f580311af16003ddb8900aeaa07037fd79803569be9001f32bd007fb950028182da00e6b37200c5a32b03a4e93b00d94a230176313b02fb77ff025999b50037d88c0146101502ca30dd03aa425e01bb8abe023c2abc013e42ff0294005f028cc10a0379337d,
  0x1b184503b42ca20348edbd0135ce6202e804000230c349004dca7d029feef50377195801e0135c0032254b0151cc1802ec92fd02d1ba0c00b3f25302212f62015ef1b102d21ec003803c23032b727200029250027002aa01f579f2024c58cd02da5ec3017a7d39017a1e6d03581d72007b0f6b0210bcd8,
  0x18c07302c299f900b6c27f0133d67200d5842c038c669e018e711700a93dc700f3b1d502fe05780032c4bc0125031303fea34102921b870262bb1701cb0ddb0103a5af00b826dc005be87103ab9e0c0017676800f6386403fb904400bd3b9f0375738102be17f9032f1a3d01d3685d0002ef7f03fc3cc6,
  0x18f41400aeb068026408e000c4551402351a1a0303a40f03861cc601e882850062c4a1037789470027366b02c674ce03754aab02273e500057fb670181cfbd0121999b01f97118024c2aea02878af9000b214e0216d9ee02c5a23d034774e80080047b007d82b6011920d4035fb1da02ff1c7102af2af6,
  0x2987be01a43e0e012ab22500dc1d4202ce8828007f79400071d74200e5cfff03256aeb01a03d2800339ee401fe5a8d037a6dcc008b4bdd0118926603a4a94901fc2d2801989473020bef7d005e207e0039ec6203ed4056029f4afe0095d2fe0152ec6200bc835b0169330100e9b027006ca41800b5edba,
  0x27e7310069e46401d71d970360288c01ebcb08015d202c002840c602ce69df03b634400177196400294df70303fe0800d3215d02ac7591029104fd02628cc00132bed300bdc9a403e76c9d017ca36400036da4038e98a20227b01f02ae640c0082216200af5c5b03495c1f03294b3a0176bb6002eb79b9,
  0xebd2e038fb1cd00a44d4d00e9921801387f42014d22d0012fdba803884aa80100e1bd034d59590027a812017c04c2008324a00352fad3028e911b03b8c18601ad3c6a02bd14bd031301c5021083ec002f21df002358fe00b6358901638bef0322dbb70062ac6a01aaedac032d565700687583008cc108,
  0xbb68f03ec1fcc030b1730037682c300e2150e02bcb653035eaf510310cdc20373d6b101fda05d00230da300951c060339df0602f199af008ec8ff00e1234202f4094e02eeb5cd02ac589901ba97630024d15c0230906003068e2502e34e1801cd4dbd0040e15e03a09d0601693b0600ad8eb203f5b16b,
  0xe55c103300941020d6e3b023a3f59002d6001014e7e34014bb6ca01cabe8e0328b64f030815dc0017a41c00c86d01032a38690338aa510155d2bf001ac705019ae90d027534f902b9f96301b2ee44002347c503f1aad400227e260136af1601c3285b037f3ba0021c12ab0367b7210076a385002122dd,
  0x13d35f025024d700ef8395004eef810187a89000f2047203c6ff620344940e0067c8dc012eedb50026260c01920ec1006f33f800fda75e03943b59036f320d00c5d4c700a0545700221a8a00ae2360002be491038679e4032be315021c758f03e2b61300e7c85e0105e83c0340ff2c01d83e5c0049c45b,
  0x1df81303e2ccb000271c13038e3ce60175392e01c520b803f171e60234810601cbc4d501fdf618002be5e502b8af0102095b0701e0f032027b5a40004a26cb03ae0c9401af0ce1019d800c01ac598d0003efd9029b00cc01bb0f77035562a80140d2a70004763a014c5f92033151de03b532c9036c9a95,
  0xdc7d1031481770309b6840040b9f1020bde5e002d9585038b860901f121dc02a97e13013a897d0022203900ec03e70277d6d2021a3e4402b7a84901f6a20b03010ef90218581200d2321802df551e00152be500331d2c0335108103a9ae44011733d800a9bb0300ac9f0f0237cdbe017f671101bad97b,
  0x2f78c900ab6b1e03b155e6026d8c07011517ed02238e33030070ff01044f3b00498eec02f925960008b34c039e596f023366c201734fc400e40d0803a699590294d35402964acc000d41e0005d05240022bb0a01cf4fae02ab604b01b896f7035587ee038686b20163906b00780171021221a70279b73a,
  0x2e431201fb79b4038fbd92010099df0167560c03490dee038a341d033496d80396eb2d012c858900361132018a505302ef918f037129fb03d1d81b012e8ffd015f903b0045a7d700754d3503bb10e000047894020d693e02951f93018b418e0058dd6102b8ebc500eeb4c501d7b02700302f11011ac6d8,
  0x369a4700be38b70148c2c7025e818603655861006c22100231aca000470685039ac43a02e82bb4000dc9d403105210035a430202d5af2e031fb613010aafb401173b8b0319d535004c5eff01e68ba5001855b101cb629903d3075f02f57fa90298d7d700a8ee160231316c03e90be000338a5a027868a9,
  0xfc9db0377e389010fdbaf0160b11b02d96a72020d62a901b4c93c03f8a7060033664b00d9685c00386f09010e8071002b64800201a19a01ba28f703b720b703b6a65f004f419a022570fa03bfbe39003788a601ba084c02915fd30057d9ad00c5a33403d7b804029f0d24019b2dbf0334d7d301abf67a,
  0x234883022ba30c00519f8600a52eee0337ca7c03b955420319c17600b1e81803588ee300cc7e540002db6e03a6f3c1024e12c502ce638202cf68b80230864e037c5416032be95a0198281b01193e9a001aff1801be6f7000144627024fb2c800262a9201a4c83f03a8cc2e0263adf803aabb94004f2ace,
  0x24c3030296971802387b0b038b973502e379a803ae9d740154bed00234264900af2fd4016b40180027148c00a1cb2602d2721b024a91220111de080217829702d7f2cc00e97ae503b35c9701abf100000e2d3200d7f00c004c05ce0011707f01f9e258035396840129a68001c112e50116d142019deaf5,
  0x2e466e002cf12201124e1603aa1efc02f27c9303952b990386fcca021aef4c026f14ad0386e93f00130c1a02c1fa490098647803d245860110128a03d989070289f775033f95040042709a01f2980b000bdc7b0379be58020ca13902cb7cea025fbf9403fbe3140053df250024da990008411d03db6150,
  0x3fe1a10164796702b874ce03a47ea2039cb343010a3d01037e970301499420036845d402f8a1f30002ff6d022d32ae0326aa020184a38c00b27abb02d70818011ace7803a23eaa009f57be01ddae050034f35c0207b90703f81a4802e752c403ddf3af0206bbb403555a7e0260e78000085d35029db815,
  0x24a38f020b1080009dc65603e45bbf03711e4c00bb142900a354b60215d31c013a4551024baeb8000df6e303d9e45600669e3301b28c440265214603f095b303bb981203f409ab00cd4c9102434ceb00366c320006148902c94ded01fa4a4e036cb36601f868d3035c208a03e49f5b01139b6b03fe34e8,
  0x10f2c9000ba21a00526e8201e23ab0027d7c7a01c635e403dc3ab0034ded52012eac0900e8577e000aadaa00fa2d90005cf66401e6b5d90322d65802de50f702f1b72c02a1dd9900f24e5501a912500010a03a0309f9f70209c00c0088a587014b9cc00199a6d003731f7603b86d480292a12b02e0f04c,
  0x322a902564c0102ec4e920335bc6701d64f6c021e3a2903e01296009d2cff00d43df9003624850010104e01cb91e503db8f8301af6381015dcbfe0257b28601afcc2b0314c28102e3c1cf0309a243003df1d5031ccf5200a85d160245ed1601763da9013c2bfe033b330d01c3b6ed021a8bde009b880a,
  0x1695cb01a31b6201117490014fbbf8039b040c02b067f303a16b9803dfa6b600ee906b032c8096003937fd012ad8bb023dce73010e197d036fac18029e159f0128ea2402a4c1d1024e1af60052a9b40025407a025a1c970194f3fc03ee18480044bf8201fd290b02f8f6b700c014f902ea29e801bf512c,
  0x13eecc022724070366e2ea010ab84403f2c17e01d1910703c711160281251a031e96a001092887000b500f038d7fd902e54d5702d84e9802e78c5f021cace800bf724f00737e9401da3d2f0193eb1b00352c11020955ab0119daa6027c542100c3b7a9037a050d01401cfc016f9ff503dd9420013b6617,
  0x29964801d4321202d30efc014a036601fe8138035c04810336fd4502fb384801bdd779007d3cd00014350602eb630a001a885a0114b41e022909de03deb5d402389e360306c66c0183e03e01f5668d0038d0d503a00cf80326dbb10395e0c1004c407202ccc6ee01265df10013167202851950026fd32d,
  0x2367ec0129bffa01b2d4ac0020bfe3029a55b603978ccd00e90863032dcc8703bc38b30069c09e000d830f002cda050301f9d503921e9d01d87cf9019ba68203d07ee6007c132c0362aca202bbc8b7001ac6bc010600bb006f8d9c03e40296013c0ffb00c89f1f020a2c1100ba52fe00f412390082bf4e,
  0x13ffe01924e1f00fd60c702149bfb012c60ca016454df01c1972300267e4303feaa00013e510d00036bd400d2782902e252060282cd3301df2292037ddfdf0253128402cbbe7302ecb7f10134d502003a556302ff9f6d01b6c31203946b2c03f7a3fb033fd8e80274b46a03a40e7403cd741402e4b647,
  0x3946700391941501c8485903379b5001c8b28101b974c2012bc1190246e315001b7aa4009269b500215e91002f6b1a03edeb2b0164a8ea020dff5403abe4cc02f67fb100c989f700b1852b0146e1bc00279d93000aefa003e9559902c8d0cc028db889005a02e70095189c00ea408b0069c9b203c9cdd3,
  0x215f84003d360101c1fe3101186e2201e11dd402fbeaad03c0da2b009a3ac20298175503fa46d10001f72e030b7b760273e26e03985eb10363153c0140df3003937172037a32ca023445d701aaa0a2003bfed503d5b74c003eb61800c65fe203b821870068974703075cf503f65b5f01157d3803c7e1d4,
  0x3bf9e303c55226005c39db03b3527501ef0d6e00f646cb0032f489006172140005279b0378ab9c002c74390228e18a038ea7e8020116a800fff5e40228290a0021de54033afe9501bd610203bbf7cb00001233003f6a4502fa48c303560ffb00698b6d008dca41035571ae00f23e99039b64ff02f92cf9,
  0x11886900ffe35900d02d7d020fb8a503526f70038d0d5d01dee47700bd52c800acf099011e47aa00014aff034a5b8400786b9802cd7cd8007cb282028241d301f0fc210320fd2b02dcc00903687e61003c0a350183955d00140a1002c4b9c402c5ef27015aa8e003e09900039421b800fdd955017342db,
  0x308a9e0182051e02ceb7e80196470c02082eeb009a563602d62c6c00b46a700085c6a201b5d17400349572020ad3cf01358d1d01db6f7e025395c700ccd3880134df1d01048a8300e14cfd029e3e900039e73b0296d9000143fb31016a3b38014ea94803d69f5503f1fc250174fc5f0153546301ad6c5d]

/-- secp256k1.go:10, serialized bytes 706560 to 737279. -/
def tableRow23 : List Nat := [
  0x0,
  0x79ba4019fa8480220f6da00d72a47023193a802a2826401ca934803900a180284b413024f26a2001ae5190355bbc602d9dd5d02579c990028733c014a71050114946801428fab02fc0bd000268e6300202ddb00f0f55e0389715b02c2d1a2007bb8ab00964d90037519e50194631602617db802e20bf2,
  0x1eb39f001b986c02406f10016fd87401197c94029bd1aa02076c9f035fd4670128ee76017a2c7b00337425002007aa02a63fef0296515400840041016532f2029feed90331545e02ad7b82015211fa001dcfa50089588a02e9b9cf028b5f1300027b61023d3cb502e1c1a502e6c1e900a65f8e03f7a173,
  0x2e75db0315823700f4c7960285157701587c3a02c22f3103c82e630085626c033c6fca012df6e7000e687a02aacd330363f96502d99ff5013e294301e9b021027b8f0403a4d397015ee9ee03c64740003b985001e9eba5018b9c1103a1aba20323f73203d7d8b100756822033dc1fd0137b7080359059d,
  0x238c530120171603c90cc402c8bedc033f90430102703902e299fb03d82b4402d84dc002027992000547cb02a3528e0287faa0018498050087cd880049ffea02e51d360328a37b038d3ad603fb831c00377332022bac08004657df03fd5cfe0293890f039e52bd01b24f5203541f4b03f24def0010eb2c,
  0x289ebf00ac3e7f0095e1da00ffdf8e03f5113003652629028bf4da01b8565d033ae6e1019e3ade000563dd0033cab80014bc6000dece28023ab0820132731003efc4db00c3b56701545b1c01b964200026ef7a0196888803cd0ebf0343900303ca213503192dea0393809e00c5473d0339a6da00c10b51,
  0x3e50a7000c7b01038d798e009f1a2b0024121f039886ec008a619803cbe16702bdc41303a2d437003857a30006fec3035dc03503848faf01c041a602836e70027e72ae0179a590003df4cc03562fbb000c1e4b003f4bf1008ce17503e7b6fd0390eeef012344cb000269a50056f84e02f27d8900cb8e51,
  0x7c2d201ba3592000ba7a60171f49003993f9d033432f101d8e60a020e43fc02b657e701c0427f00182b1101b77a49009bc4530013a22e01f65ac5003147e90372e4070349f16b037d24c2009855d2001a8721018f12750328b69502cc6301034e8eca03333df90289673d00d5247200109a5500b2bd87,
  0x15942600b92b07023d3e4701bec25500358ea3001f207b033dba0b01663863017172620021e9ee002b31df0109f0d60000c1dd033ddd3702c44706026f7e39030b217002c6712a0002da8902344ad10028326603d8bb91023dd3b7020fdc5d03637037038590ba03774369034e731101387762011a6312,
  0x1b6e302fc2bf20178299b035afc3900379190008e9aac0058ebd7015b9e0a00fc822900913a3f0008d5b00074eaec03a4e3b8014ef9f303e2e6550236b4c60205e59c03ce9b2000bed66100eab9da0005072502de437a036fbaf200574c9e011052f6022179100130654b03271d69030f4db702320667,
  0x35e322008cf36302bd4b8e026ee87d01e7bb03039c6d8b01740e9902fd078b0365c4d001f5dd0500073d1701c2d64f026c5af5024afa1f0353078100c6bbd502e002c502afd8e600c3530f0060c640002e098201dfd21e01c4be000309ff27023b993801b57d3f03577bcb00fdb1b501976a56039f6547,
  0x25dd12007a4eec03a0cf39005d14330074f7ed02088d0900e90dff01c4ff2b01afdb13035ac2e60039d8c70272fc9b03e14275032a5317038f90020193e77b01e2a8dd0184fc7c023ca82c0064a7e10031493001f3569903acf99c0302e6e8003c2de1022fc8400101b1190343b94502f9719b02c2f783,
  0x30766c03f5ebf702148cc7025ce8410282315d03913ca2013b116c03083295025545ad00cee26300009d2500908c5a01d081c901b0e8e40128b731025d78d801f26ee20263a0210360f07c008d42c2000543f0034e8a8b022512ff02a5fb1001144b0303522c6f03f83288022699b4001ad11a005c2f63,
  0x1e02e403042000000e89f300280fef03b229cd02d506e1005512c40373d66e02367ab9035dfded0038aef0002c96be0040b60f035664e6010cd1920159c441027a2e730197a063036a6db60200464d0005f0e00162d2f20316cdd101e37af702a55b210149aa0f018c26ca03b9226e036cb48b03b9e82a,
  0x81c28009279ca01b8133b00689cfc02b2889100903d7100cb90e402ae576502592c7e000f8dbe00197b9d0038afd402665a1501e12cd600df0d4b03d210a50237b0f2023aa56601aca4db01c94e760007ffc6001ee9cb01631be50218f98e01cf9642017e9e990235bbf2031ef0ad005749de0162cfed,
  0x2165d103584b6302e1ed7102149f91025e3fb9006a34ef0354f14003b0f88500ee88030244a2050030bfe40397c17e014250f90351b6ad02498828038e540602e7177703f7a5d702cbc2030057775b00273b4b01bbb8de02e2d931026eea160019dbb5022c2bd901e052ab029ad51e030b2d1200c8429f,
  0x18f0d033309fe00826a2d0206d90402aebaaf00e6390d038ee4b603c63a8e007961410025a185002a19000389597803139bfa03ba7edd03b1922d03d9bb3903b947b0004fdb7d01bd11cc00c0703c0009ad62001dab770245b7ee026f6ee3038ac19103cf94cc01d9e09100315f01038dbe8900dcb8fe,
  0x1d0c0503d1c2810276c02402509ee30390a1fa02be8c3b027f90ff0310a891011d464600d320340001dd7f03ca3c0f03b4a8c903c09a4202d77ba9015df29401b532950223ca3d009933eb0152cbbc0002219500b5c9c5011e308a01c1a74802a331670231fa97038d973a026148ef03f8d7ca02d16427,
  0x895720118a23a012ea7080274618700e4f7c1022296e90374824d03fa4d6e0111f376002c9607002b68d4010d4c080348a6c901734c7300487af002bafe9503d1cf110302212b0306682b0322dc43002aa4100063d09502ece87e0361138c00c1c4b90229c84302b55658039a55f5031c579a010a9bf9,
  0x2c2c5203fc55ed008f6a90001067a600dd47a0005973e102d51f5b01df98320204ed190152c14b001d821b0257954b03df95c3033100ae007a5034015245fc01d2fab2033a46e4024bc25a007c9eae000cf812015495fd0398fdb8035fffef02250177030b0191023b8e820184a802026e44de014ebf8c,
  0xc502803b4371c020d2fa5000dd77400bc270f033d56e301c6b64800c2846a02c436ff026a10a5001fd88400f8c49d03c0304100611e7702a3176703e06101028979f002a151700066702c0111d72e00345dfa0023c5ae009d75540351008402f7326603c31eac01b50f380068de3f0220f12d02dfdebe,
  0x3946bf023757ee02327346020eb33801a1d52a008f3d9f00ff2cd60336a3da0238be600131f6060009fdb103a2dd5a014ce86f00b7383000471daf03247be9027a7762036eb13103ec869a009d894200010b9302dd0e9a00a970e2019ab5a703988c8a03ac2bbf0272dc11037ddfe002f80bd5032e446a,
  0x31b2c10044a8fc026accd70373fb2201f631af02fecdf103dbc11e02eef621027ed04503ad81680027f6520277cc860127353301440fab0356087d01389fff007387bf02698f290351528701d007c40011361400cb755400dd69e3025452ef0165f76c01ee45e802d2f4b20272a10c01d5415f02e6f958,
  0xa487301f39c31018a562103aa7b560027f4730078eade03c649c301efe3cc00939c1803064fdc001919d5009d53b501e7f61b007e767a023d5b6b03bc4ebe022ab73002897d5200832545027bd72f0004a42f03318206011f42bd03bcffd50157dc43011d69cc03b595240266efc103a41a7d01737838,
  0x20ef1401551a7801f3945703d2da8e027661eb0249bae200b6c81902e9a9370286a62f0260ea990019de040346df940331a88501809865012618820330843a03fccb5100d27a68037a34370030c8d60010b9870336d2670170197600bb960d02db2e95013de62901173a39036537e0002a4bcc0049f834,
  0x3213aa0243c2b60284633c02cbf3f403768f9002f7fcc103593709035ae0340345277f031e28a60023aba100b693c001f692de00b24f8f011a5e9e012a56c302730f0d014f415b02bf889d02b24649001456be0350dc930388954803f32d5500e4bf4901f452350049249401db7a7b0079e8d701f49cdb,
  0xd2f13026660ac00f0ea0903eae2330046720701cf468900b9edd203a1896f02101a6a036d8d8200068ca20119e41003229eb300a8201b03d523a70241ef3803a2be17025ae27c03897adc00abeb160034385702b1c6bf02a04e4a02b7cb1700d23e7101d44aee00346fdc036c834f006bbd0c01e236f9,
  0x2f15b901d2bcb802efe5f60229947501d649c501159cd101ea2eb2038777ec01656989022bafa000314f880228760d031d336f022bc680035608080290cadf009471ae030f7fc200ce8940007cbcb3000d07f9027998950181ca7401b8485203db491603ed3a2003eb053d012ac59e00049a1103108492,
  0x39e63803fe305401759a8f00cfe51f03b66e4700ef8e4200724304022489c30139d3320037f1fd0025d04202f1314e0270df8c01c94f6d01dea585004d60020038ac2a01abdbb000f2281a01c7be3f001c49fe01a32f7e0353fc10020753ef0079082201d7d3650001cc83005fb92803ffb26d00fe214a,
  0x1169d027676fc005c7ac000446338015235de03cfc7a10104aaa203a6aa5a019e66e803527c01001eaf8d033a729f00fbd5dd0132826300f41ee10219f15a01c62af4015453f500b7031c03807662001e485b002af5030111149c0307b0ea039bea43028065c003f2383c01d62b6100f0ad5800401be1,
  0x18167c02f50e55006543bf009b0f9603c5696600445c12030233c901bf09f3013491a1024eec21003acfab023070920326aebb025b4981020c07e2037555aa0294dd8d0142958c03660b520156e993000dcff302a712ff02af6d8b002f68a4035c269002ccc5a801499dcc01b98f9503f4fd8901ec108e,
  0x2d3707038cf848026e6b2f01c42daa0187d50802d5282b01000a140138e3f3014da77e02e243c2001d3ceb01281bfd029667c70294afd901e2c997015564f0027d1a2d017f51f702617df20385272d0019793603ad574b01b3d67200f4e47f032466140018f1b9030c22080097e97d01fe7d25024a9873,
  0x3fd8d800ce86b603267f9d00b9fb7300296587001eb1b9032d9314006dee940339d0ab00f403e70024773700d503a80009084703e1daf001a214050374c99c0234fde902212f850287a8ca022d5858001338f302983a5e02b0ab77013becb1030e390d013865fd0018da9800c2322503aaffb500fc0f3c,
  0x3ad98803a6ecb803d19c740344ea0a017dbc0402bbb4d301de1bf303dc2f0503fd4bd70072ece0000a822300cb06b001dd78d402853ead034dcf8c03146ac600797860000fb15e001ec88d01d645f30011d8e90146cde9025962ef005a3d30011aab9902a9748d03905021038317570207f2e30035999b,
  0x13db0a01e13f5f0076d961006b798402969ca701c5478e02fb4589004900fa0007e0a5022e701200331d4000a19df50143a3d302f217ad018869c302cbf4030030fda200ded9850116c7ae01e32ac90031843101f159b600dc9be5020aec7c02a5481e026bc0b50366b43e035a18e001bdf62803103f74,
  0x3643f403e9e82e026d4302037db9b0000d30e10106b4b40314ed92036ac7a302044334018f650a001b349e03061e650146d37c01dbfd660268a03302636cf80396e84902b63f320245664b0046fb4b0015f9e500bacad3000838c001345d0402d2c38200a5d9e503f889cb028b1e8c0200b0e1005f4df2,
  0x26558000a6225e0327aee3036ccb1f023c750103957f9d0215203f00d0c8e500cc4453015a2067000ad896013c0f4803b1db2a02e45c1b02bb848502f94bb6017ed9a102c0740d002efee0037d3f6e0028280b022f2a1d0095fabc01ec7e90004cb41002444a9401319e94003298d0034d384a0133926d,
  0x6336400641854010fdbf90060865f0102a36002cc0a7f0302630202b0c37e030642580170841800128d2703175baa0384fcff00b6b13603566d9b0014691a02433c1d03678b17012eb37102f7d5fc00100fcb03f1b0b10327ee4602d0f21d0104d20c039501dc028e59e503c942c900339c19024ad73c,
  0x11cff00317528e01eb718003aa3a4401b83747018525e30183193f010e925403e152980041967b000c158c031cbac3035aa68c02fd26d600423e02005d4e29038aa302026d0e0e0280b33c01a98e9a00321d4a023aba36011b4b1a02619294013032df02f390ee009d59fd01d55b0b02cb51830127b091,
  0x144c902f18a5701ff709a0305d88100f36753032446ce01b720ad0093816f01f37905036441d40016d58802f7634c00c4ee14009e54cd01e094d802c320d6026c705600b2129300cf1709036eaa62003412ee0281b123039f6f9201a94f0d03b8f233031e295702afb54b03a8fb2e002b2c2601570f47,
  0x301dfb02272d2903a830d5020c7d3b034ec8110309047803e18aa00140e55201e601c903a350130017e40d0139f6110349be600241184700c0c1720084ebb9037673f003b9094d030dbecd026f511e0012cc60039e44dc02cba47d0152942c011c55060337418a00cc6afa03ecc6c00321054402230999,
  0x8980c02f97dfd00779177003a87ee02f08b4e0247157a02708f4602b5bff102a1c11e01e8ba1b000ad7410007447a035a18a201a469cd031faaf4012c1dd503db70ef02924eb00091b0400363e6fe000a9b2400833eab03c776350212f38800d0fcd101b5b4f3006caac20208ba5500452ba201ad38af,
  0x23d795026ee2e10214735503ce9cbd014ffec5035d0e1e00c3648602401a4c029fe75d027f1f8f00235433031cd21f03e364da010a81d301198bde0074ea5301ab21e1009cc72600f7b6140083bcc500228141029129b60363b96701b55a34007e20260271b6ba02583e4e021fcca80183e6960058e32b,
  0x37c8a400abe05903bb1a8803a5e1f30285c02702c923e900da719a0312c31400aad4cf000a245a000fbf8c0086b072006214130117b5de03c1b672003643a000299d9803b974c60126f77a03feb5cd002fd61201ae324e0191a528003d31a002210d45036a939103a52b42019d8b67024ba37a02081579,
  0x34dbe4021299ae01d442c600a70857004a0a2f03b5d69f0198a6ec023ed9ac0065f2c4032fe793001692f901805f9d02c11f0002496da7002832650045935b033901d70383b83a02d661cc01729a7c0035d47501b692d8009e92c302ed414f035da95803b448e300952ecd00ca200401dd93a00000b3e1,
  0x234b7c003f9ddc009dcebc025ad68b038f12e603db7c5901880ed70201c08f0078146200a3c5eb002ae52a0126803f0177acb202e48f4901ab31bd02fd727d02ecbac101b77ca101fc8a920262b2b0001d991500156b560396e75801e0523a007af69c012fecd402cf6f5303a6c16f02b3693b002f56ac,
  0x2a3d86037cfc0c0337779d0071c07201b8886102f259c601b1afea03d0c2780085cb380058fa13001d3ba701ca195801ee20da02f8dfdc015661c703e56310026ee8fd01e3690403d3120800636073000b7717006527d90038c02500618e720272a49b00de727d02953c64033e288301346ddc02cb02fc,
  0x36d7710073b0a202c5d4e70289f4e800955f8600bbcce601c7f47f0234c7ae00cb8e5b038f4c960007dfb5019bfbfc000a041202bb0ee103171b8f0013dc8e02c6c0490128bccb0324cec402f70a890023529f0358920202d8180e01a82fda0230d2e50334ca4400f668800265ef8e01f00ba103997e8c,
  0x1db6c903a8fe060028c54c0332ed8700f05b3f025be6b601506057038a61f4039caf630005ab0b0035af56018cf85800013181012568b5030f46f701150f90025e096f03b1ce1201489a450049b2480016ac7202ae10fa01d2607201a9a6730289d28202131a5600aa21ed000d3d6d02e3483000070eac,
  0x18082a027eb69303ecf2e70155b4f40278fbb1038ee25c00c6a1a00258a7d602d1c1060100f3f0001373cd031a8055008d6a0c0362e5ad009dfc7102244c27036ca4ef0024f78b0037c8a80264ca2700045bae0332724203f28c22034e8c190041f9390383f14800a126540108200400e3edc700d7e7aa,
  0x34ff25034b9484032bae2902d7e56a03f28ef803287414035eeb8a0354282d0356ef2700230bc50037db6502d8eaa902f2faed01ca9a6a01c8176603f0375700746bf6006ee83a018b8a6803def8390034bfdb0237eb7f02a0c676011f262a019076c003600caf036f0cde03ad3e2e0139acea0232063e,
  0x2661e201b74f43024e95f100baad890343ce29024a192402a4de9202ebbef401ab6793008c2b79003bfa77010230c801fc3ec700d765000071b28f01a7f6f400f719ab0199e7e9014f77dc0361765e003c859001c86719014fc90a033dc47103aa6e8001e19450030fc6dc0328dbff022cb914010fd232,
  0xac91003ad07e300c602c701e6e30103e500b6031be83403879cec004f68f40078f8ba0200e52e0028742a036bf87000a6fc0f011e3f0201d041ee03659b0f02c1211101c242f000ae7cf300aa9cac0018c51b0389768d03a7198403db65f103e90c970231301d03d5994e020e72d40352328903e645f9,
  0x136a54032db785025607fa00b67298035ecdb501bdd7c10171a2d1033fc61b018fcbde02e4883b001dbf0602c511420042471702c16bfa02cf570a037af6d001517ed101a027b5015c527900d73a9d000de59d03ad0a06013a6d7a037d05100217958002bce0820265a2b9039f0da202e6ec2d03a0e31c,
  0x1e26e701a60c18039eeae600e50e37000b6c9103b59be401b775d901ea77b90287a7f90347f5280006664d00efd65102a7019902d513a103a954380192a05100a1853101b7e2c100bb037402caa18d0038e62b0065539f01994564038838c4032e56f10212fc500164cc5a003f30dd02cd167501162cfa,
  0x746950258b13e024855d90313122b0212403a02ec1aba02ddad0202865cfb036d554d0273ac020002c6b4009906de03aa5d0e0136a873023b0c3a00499e2c036573490063757c02e376b70110ca39000030e8002227c9022ac0e401e98ea301c7ad0602b4628c00bb9c9f03341f4b024702cd006bfe54,
  0x1c6ca10176fd940000e75c01631a16014972c3036ee4cf002bbf4003d813080105895101b84a190001b77d03fae2b600fe06a0018e9ae403fc0abb022170be007b2eed004e51c2022867e802f9d50a003bde940372e0dc01eb9108013b1f8c02138cea02b6dbc1035f746f0038183303fb792503ed8df1,
  0x2b2f63001657cf028550b1010f25f8034e9dfc0002ed2d0335ea540078371500b14c6f00edbff0000ee85800f235a7026f03ee0295e46601d1dfd602fa9ab30089709b0347a19200827c3103b4fced002cca28037a99a600e0b43501b6ab1e03fe5c99001958500198d57100e7303601b1c2dd01c7284e,
  0x3a8570361286d032b533e00c97fe20192bd340291234b0161de9602078f860355ab90033094a5002731ca022136c002e7666f000cab53001a51a70181f8f3018901fa01ed044e017fbfe800a44e16000e1a480039e8d501cdcce60107315d02b6cc3e03810862019674060209946002d7d3a800273a8b,
  0x113384001d167702e1ea0402a8e945007cd1c1002174a2009967e003db0edd0087218c0293a7ca003ca3e00384f9240178e898024a3533010f7fd70342d29e03812abe012f8d5c01b7cae701a746b400297d35015569f500c0977c000ff93801c3666a00cef02c031cef2c01d360d1014dd6cf03298503,
  0xdee5d00c1145f0394cc1a006b53fa02a7792600be60d503e2d55703ee204001eb8a1502cf62e6003d828402d7137100b5dec0004ebc22007cc00b0140fef5025b844d00dccdd8013486e4036e60730010541b01c854e3030b7101031181ec0395234100a341330174cd960102daa2027600f801f703d1,
  0x171e9a0249655702acd70901daf2850204174400d406b002342450001d6d5c0299e05502fd17590004ae0e01b15e5901ec3ee9015616ea0016d62f03c2563a02a998380251d041010733bb004fe712000f783c03e66a46039cd87a0175c81500657348005939ab01d5652802434ade02a44bc503b1a395,
  0x16dca60137d58300bcd8d303dbf2530359908101b84ad103ab300701b888460267cb26033c35cb003e9a6d038819f403be984503578e1300af641b03637a090320fbfa0288019300c7aabd02551d8700085fd100c987b101abffdb0131864e0329494003cf96fe0173572400af53fa0139d93800f50a92,
  0x135aab029b0db40361e6d403af94220014213a0068ef55016d74f701fcdfa101342da10364052d0035f6310037168f01c5750e03eba6a50187a59b0065daa0012f0a7e03e9a050005ef59303401af10014050900122d4803de87f101a5ad4201c259cf03122b9903ae370d02db477c00030f9703e94e68,
  0x13074500ef2d73022c1089005c3d6f02fe495a002f438e01224a5803594e6603a9dca701da7ff5000b8bff031085b200109e3c024126c6003bcc8603af56060217b1a6002c8426009699dc01f9b2800003a8630356b880012a2a6701972e85009732a70390968802fdec070387c73500d9ad5b016a5b69,
  0x19b17403af9f1f02ce2c50004e3a41027cff4b018eca2c026236ad00f701fa011b138502652eff000d947e00b1668100d8ec7401246e4a03f6bd9200b4f93c0330460500f5c17f014b4ff701ac82e3002fd47801633efb028f5c500051f8d102bb10120367a3cf000ba8ac00a8939000dd76840067253f,
  0x29a8d401c00ac901ef61cb010148400387a3af01980142000ccd0b0138d9e401751a37018855740013c73700669e3a01921e8601f1f678028dfe1100dc6f6d03e8932800a3226f01d5f32b020d1e4b00225dba01431f6303177a7e01bab00701be7670003c270403e24507029dd5c9026e086001791d5b,
  0x2b97f00bf818a00aa461d012696e901a9423c0128308603985eb201e18198029f1ab601f9b43f00368c2e02ce06eb0261d37d03dc78d401cea0fb0172d18701497efe03dc9b5902c9b74b01a32cc4003ef8e10184b68c03749e3e02aad889037ef81200f088d803fb12500333e6ad0225614701212cea,
  0x22a7a01705e02024142a30074891602ea9de800cc1c780194562700843f2f0249953d037584a8000472f801aa9efb03408f5501840fbf03f67abd02455d6c00489a430071d95203afaa3d02f45644002d9dd402ff66d101df01110389164301534a4a002b7c950382cec002a7e7c802e731a0002b483f,
  0x27d634027e761002f85f7700f555a50184138a0221b77c018c677d008f97030010cd8000a8786c00365506030fde1102317e660016f36d016e31720066d5d9007bfcc9031bc7430145167e01fe1b4d0037912a00ad4dec03092ae602a4dba7038b848202956fbb006708370287b0a702a7136202bf3cac,
  0x7008103fedf200341b5df039698e201f9d93b01db6bba037b857a00923a2301b00d9a01aafdfe0013791900d74320029cf99303926e6103d6681000fbad25030660f503132018012943150267f4c50010faf102907dcb00d43c2d01e30768022ae3810178b9c60250b277016b3a91039256df01bc3a25,
  0xaf2e20148452503e8926d00cda36602adb305011fd5b60342ddb70335201a00a084b10281f48700180a6e02a61ac000844e190085813f012b45a903397cd403f5de2403bf1667006a085d00d9d60a00370a3e02114d9f0192385c0337a5fa0245ba3303fa04380273ff170342422702f6753602fcfb63,
  0x3c3320022bc35b019fddf5013a7fac03b25cdb00465b9e01cd881302dff34500f7638901508ee000384e160338e29d009c07e8032ed1c20064b23902c970f3038b15e401463824015de502039c2fdc0010040b01ba3aa903d62aad011bfe7303a8f56f002fdb8d03f7f25101709948026384ea00dfccf4,
  0x549e03b835bb0065fe5f03b8ef7603f88c27012fd3de01e15a6203a0dd340161dfd500498840002588fb0152c750004c41960113ec3e009f46e1016e0fd50007aef60294e10b011d442b02a70605000c2b0f014cd3200031e685032e65210373a51a016b672303cbbbec00194ea902734b9101a6a2b9,
  0x323cd60170f1a2017a5c1403bc52da00d6cfe900b8b43c00735e67014c80770005e193011dc1c5000f204203889110012208f8021b8ed301c7274e038a301e00d5424f00b6bfaa0069b9dc036580e1001d799e03329bda038eae7400a6f7fc02abc5170208a21903c2186500b2a763014c09cb03d47b27,
  0x38cc85023771ad012912dd01237c35000218890355c51b00b4c1190014dd70021143600012a31400321c980006194f0315d04b03b6ed550165c50102aeb6c2024d7a780237baa9039d92c3018f07f10015ac1901b9618701a7008f037aa13400f4eb530118afcf035e28260072df9803863bbe0302d75e,
  0x307256006abf86021ddbac03f3591300409fd200d75c7e0133ecde02eb0b8700d837c301b17e6200191d8d0152b044034dad1f02afe36500c16afc00c74619009397620188114802291d1a02c95912003dff6d00f2e81601461ed80340e08700bd388103c28f1a026a8112001ff6ca00013dbd033a3ea9,
  0x24b8be01230160009db72800114ae400ff6c4002e0be2400be475900ee95af024f69b901a65c77000ea8ea03df379e0217a50800f17af503ac08d00082c44e016cc8df00115d9103da58d5003c3b350014e6740351ed7801ceb77603c0c7af00c8ecaa01224c9f036238060062c1ec035e1b7e0192d687,
  0x3567d9032904760396b10602b50fd5011253ef03f771ab0212f1bf001217b401eea1ca03a4f6f70008bcd601bed74c0098fac5008d58f801d9a42802389d5d033963e00124a74d03825ec302296d9a00182824031cdaa6017508f5028ca5680398268a010cb2a401aee3fc004ab1f703341fe0003ae67a,
  0x35f95f0095afd002f29e6603d5bd4802e735740239b09a00d4c8e00291cc1a01646d8900c770930032014500d0525802b3d8330183094400eb1d1c001dfab002f32e8e0341b96d0393f0c700097fa600068b4601fe65640268420203b9d485000755eb024cc22501fd68d00047d93a03fff0090241318f,
  0xd28dc03945fdd02c3a8e3007ec81f028c2e12033b7219022800c600066ba3008a666902993617003f0c40015bf9e40352e01c001a9eef001010e503404ff602a01277035ff3c5005085aa0258470800124d0503d9d54c034674ef00395dae01f2fecb017cd4ab016b0c2e02d5270f019dc06300b86680,
  0xd7b2603929e47037e833b006dddb1031c50c2031cb263012a9c5400cbb33403fae57402b66a4c001f2d1f0186d67b0169b55a02c0a932006fa570029fef0b02cf373b028586f300f27d4b018465a20006505001a66d0a0333b67f03b99ab6039da86900273b37028f7169022b098402eeee4c0174d750,
  0x34c4ca01ec42250156f566022444530373b4150352cc2d00f3e68400b9c89401a52e98010b65f1001cb9bc00908d6c0216f82703e48d350272fccc003aace703055deb03ef4864032a24e7039e49ab000e9410035369ae0110c5fe0388a94702a0a6ea0273b83c0148272d0238a58702c99ca603a7be9c,
  0x79a890283982f028baea103fbd4140018b1d2034e0451033f5faa00f0aa7b00ebe9b002de6fd20014fcf7007a697f02374e27018a321d0035cc83038809d900c938dc003ca193027ee8260065d53b0035f502021635fa0028604303e69e15010a21eb031be8d201add79d00269720030723af0229496a,
  0x193dfd02385b6703571afd00839789033b2353006bc3a903de817c03b716ce02f7a15f03ce27cb002f304001af5a2f0354041500972c7900c59246004f068703a673d800ff8296018c521302a01f8a001aa2390281cf5c0160cfa303f5c1740273a3d70174d1f10374b0e501d6ceb20229ee56020b393c,
  0x3a33fa015d8f5900e4b51b030ef1d400cba3d50167513500f1c3fd02b748a100333a9200f85fcc000584540028bf0a00bede0f01f8acbd022635cb006a9886014239c300a638bc02810f440343fc4300061b0d008b4c7c0383085d02fa43ac022cd5cb00f1b355032fa0b102cb626f0245bfb90368b1f0,
  0x2a9782037bf131002344ff031aeba100751408004bd73c03f5a0730341dd33001b215e0084bdfe003cd9bc02008b68026d88e40060f04701b3de0a02a8a39f02bdcc0b02d8cccb00e2d49901e3484e0007666e03dbc0620147a70a00d50f5e00d091ae0169ea280341c1450266ad590275750001555bfa,
  0x2eb6e0088d5a201f667dc034014890299f1af0292326c022b925803352e010046cb1f0170d56d0028e0ff016ffb2803a0a3e1008b834a00d6a8c501feb00a02ac502b038ad71402bd40100299b60800160f7f03e4f19401169a4a021b3cc800a2e051029e0604036cd70402b15477006713a600b4b89a,
  0x28de3e001a75850001283a01b5964b03515f850131c1530052e94603372c07029300140141ca940002417200aa7a6e006d9b5501c4825a01ac5d7101a2c663030c28dc02e0badc0011ad3a0235b9bb0015972f02a1bb47009e332902c171db0079c1230036fb81012b086f030630fc0076ca6c039d7b0f,
  0x20cfc103a178ec026719e00025689303f6226e01f74c4801b9d0c000e619ba01ac1e19008f615d00237dce0140001b0183259f013a78e902d4edad035ff352024c31f0004aa499007129cd01935db80033acf302ef84d100f23060018d2b4000c24d14039f41b800680562015529d2014bdf4e01057b3b,
  0x112d240164ff7b00ce90ce015d5fdf03169bff01ccff4b0330db6d0279980301938d1f01cb466300391b4702e65932003a92e6010e27d700f4666902481cbe018c9f54004a364f03d4b4700205b2d700280f4b0323a5fc01c99b9d03c0a7f900c9db080135d477010fcea9022594c4011f827f0137aff9,
  0x233ab8013a920d01d368eb019402980205c77b0088e7cb01cdbc58029a66200078123303f032370006cb5b0302e27200e6c995008b8f1703a45cc702a4654f01e330d100aaca4403c9620303a3c54c00063d6d03485f8301b6e70a00f087f5001eac9103a493390310cd170076bbba018864ee02174346,
  0x233eac00c9a37a02d4ad450073b3e1006f3a7d00f11c93017e2b9a01c32fed039dc9d601ab2b6c003f486100ecf54a01150de303ac4311006b91a201ee4c7403e9875900f1d5cf004adad00057e8ae002025ec01fb00c6004afe10000f836b0272f10501f8b61c015f22e2030badf702dd157100d7eb1b,
  0x74619018c800f02514886039e81e4004fb7c503b8648700b6cdca030f371502c74e1a02e3747f0023d21103393dc703f45e7603ed4a6700b292d401ee337f006ab049010fc951006e9077007ddc42001e38da01536a0902dd68c7009d17e6011f39fe021fbd7c002f7f15006eae15005b241200451878,
  0x3bd4fb0394546203ce9fa1027edb05000df99c0338967c02c763e10211dcc800ad1e750114c3bb000ebcbe003ca25e01964947023265460124e80002f0685d0051a89d027c9e480155d83700bfe29e0008512601d5ad320206ae640080f43b00ce83ef028d71e903d78d3e0172c8f70226a6bb030be837,
  0x94350010aac1100a0641b0047d44e0017d52f01ca46aa00259de2026b9bc101b61f2e015b4ba7003fbae501867a52019f986001ed052603c0f1400296f4d7012a53ac0209a671019061fb03a2d08a0035b12402d157a60173fdea0333c524003bd8dd02e315ad038e56d202e2989403449da200801e03,
  0x2691f002b96ff100599adf0024951a02df55ad0229d4c903864b1500bb35cf02a46227030d89d40027ddb003cfa3d0030b882402f4695b009a1de10196738f0109c116008e4e8b00cc47f700a7c1c1001b06c201962c5c026d0f06031e0b1d001dfd3c019156370333530703c95572038a3aa000661daf,
  0xd23bd02082fb4039c91d5031b298901b009ef01a639c70034c4c10106328a006ba13100f570830009057000d221e1017b1f8300beceaf03646ddb019b84b402e7665a0259138e03821fb102f78ec100329f1f0099c80f020744f802bcc16e0114783300c963c9013da3e4037ddc150168d19f01b05afc,
  0x2fd88c03dd21880125c8740316b76a02dc148601330edf0071a023018cc38300fbd10003deb22c001fa51702d2ec4a03d7d4ea02296e290365c47a005546b803b94c0102c90043001845e50244973700175ee001755317034ab3bb00e827de0096dbfc0184c2a30395046302e8f03a03801a9e03a72bad,
  0x3b5e20396b70602fd46f303362e1602640923000d9ede0356f2da036670c800e6abb0019489ec001239430157132a0054086f012a88190138a6360147b8a302247b9f0052297b01cc5e5b03c4cbbc002d3ba7022f897700a6ad2a019c1b5502bbc8d203ab636c007d296901ad791c03c2551c005e2efb,
  0x1e7d3900b284cf0028c55a014f3f9c02f7ccee01d2767e03055a8200d66ef001d5f01201ebe6dd00023311012275a30039d8770347784b039a316600fe0a4b00ac96700368e6a1031b3ddf0051d960002d4af90286187202f60d0002c627d5009879fd018376f1015157d10004304d003a72e4013dca86,
  0x8c55e031151510304070502b1d173000089b801ed889501f0de2002237ab002a9aabb01299724000b92aa018cda4902d2851902fd14550343bf3f0284e762021fb1bd009cf863014346240210598b003f022800cfb2a4028c43940026491902a4461000c86414026e01e002a43bba0236712f0093c55c,
  0x9cccf002eadfa0022961c0315e462033f8bc60339bf9d01f57ade02b7c8090232ec40014a7d7b003724600237d870023ee32a0117563900c855a202cb56f201849ddb01176a4d0136ae73012f66c60037554200e04bec02455a7401fa1e28023d041000676f5b024ae869031fa4fe0267672f0014ca0c,
  0x33dda3021e5bc8015743b200ae2367037ad69703e0058b03e8a0e903d6cae7019629b50395ea320037c414031b1a0d005a6dba01a0e7ab00c34b99002c1a97016717f80079ec83032a32b202952ce60015997e038aed220026552f02f1eb5401b66a9a03cbab2d00ee356902d6c73e02db55ae017d9ea5,
  0x321eb700d44b2a03c7a9b800505e6703d61b18013f94e101922fa0021262b600263f0b01fdb358002402ec01760113005e4da503a2422203903090013dd5d7016d881f035d0f720099aca5015b20c700069f8903efb48003cbc08e03e0b3fa034041dd00f94360010207c003efe88100a1f2ce02c2d72f,
  0x26422001df0c20001d743e030ad8c70269c86601302aba01d19ec901e663db01a7d02b024b2dca0039da6f034f27b702d49c1c01164af402f7ce44031913e2014aa9fb005fb3d903d08b51026267bd0019ea6100b4e95802ba551900a168b9012e422a001872c60058908d03bb60a00316dd7f030f221b,
  0x3ca6200d012e2026c28440167d30b0224f99400dd1b7500e59b630059c26102d00961029ecea800266e42017e8706016979030205d5180143835f02bdd6d301fb3f0e0294f7bd0016bece030ac8fb000d31190040166d024a15b7008fc8d802d9a1f303fc2b33030e108703e0c9a80281b5e4021a1c2f,
  0x27c12801d9794c031c3ecd02e28aac030deb3903b5aa23006ff25d034c88b902e0f4d30099e76f0005e8ca033d6e4703c37499014102c0018a741d0389e2c702a8b7cf0265b66a0023bdbf02dfd5a50010ecdb0350cbc100e090a402906b8202d1c4cf0043cc2a00abe602028842f2036e311201776710,
  0x10c9d203ad3c890304e7fb02460f830011ddd200da086202b75b39017698570149691d00e31eeb003aa12d02b319af02e181e103feefcd0147a28700427f0a02d009b0000961bc00158d420208bc4a0000890a024c749001baaa3900f93d7c032e408d03f7ee50014411b202dfea2c037a083a0140d548,
  0x8a3040093b627011908ad012329f501c025fc02993b7f00ab9397037b8db4009570e801eef90a0012f76e00a2301603d193da02aec1560177559e0107d3a201d4381301e4734a013c36a70113dede0001f13602cfddd001b7ca310054656c017462b5009f68aa022e76e102544b5d03f17012027fa98e,
  0x3ee66c00788b1d0309566803b928af00c4ed4501f2faff005889c5030bd44a00a3a2a703e2c68d003a69cd013176ca02e314b701c28d640050385f00e5daf500bc33b30160362002a63b2d02f715c50000eaa6030b78810009805a02d1536600b738ac031a3a260056420303e1324800e420f6017bbdfc,
  0x128e4f0365d67601fb268f03c3a654024ca515018b53b202a40d0600c1243e0363ff6d03c9b7b8000321700257d91503fd45a4007fbac102d93815001266410004ab430377aaf600d9a751023ab3ae002668d5025383f90016c43703bd678001becf6800b5c9d000e06fcc02076d7f03c3ba27019cedfa,
  0x1ac68402c41b2500c4a44103fbbfbb032942ab0130faaf0029898f029b89fd033e217e02dc515400268aaa033586f102e02a9901f00178022af63201f80332011a03bd035b42ed006a363303a6922b002ea7c902d8ab87026169f903ead57c0095a37802ae5bc70081804f00ee6f1902c102c602383d74,
  0x25ad52022d03b0016ba2d40104d4ef02cd7e690385feec018629ca03b590b60002aa9b0193ab33002d6e1c01e55606012e839b01fb808702d440e6006b22bf01683b7403f524250077ccbc02cad4df000f19ad03798cfd03ddef7e030e360403d9ec1c018af2a902f8e3dc00e3673100d66aa5002653f8,
  0x137c95003fb670026d0c66022b00ab03edc579033332bd0283f4e50056dee4000d1d36026f07ac00334e1b0397df78027e090601a9b42400dc5f3900ce66d600b13f7301ab60ed00d0d6e402af1717002c3db503afa69d008e363a0169877f03df00d2003dfbc6035657ce01fa6e800224534900c13064,
  0x26c49c029e3db00249c2a500f3ec6e03196e630395dae8003651c5020524b6027ddb0f03addc5e001b1995025cf2d800877a37025084d203f322f901dd525e00ca9416024d3f0203350b39033d56760028e0ce035757100398a9d7019dd370022488820041e91b0265670a03aac3ad01aa1b4403e0c53e,
  0x2e27a603841ca6004ba4b201b4e38900f4c8f6005b22950351f44d005d9b4302e674ce02bbce760005295f037a39c501253de302975c25002829eb02ff6b14027b407a0062d3750090e6960248d795002ccdcc021a7c91009f15b00319e96c033111d30237719702f1ef1502c498a50230e35f00dc577c,
  0x287561032e3f3602a2905400d73a770357515900c66c4c01ed0a4d02403518004ba809015ca9090024c0b801630f0e02706ac103e383e400c5e9fc0337225003e9098e003f5e5d020929020083bd84001f6b1f0227610b01dedc9402ccd682019a8da502eeed1f03ad20c60124d0410089e2b203b562c3,
  0x6900d038a590c02a3a424005946cb02404486008d04ae00f0561e011e837601e18e3302b1ab260004c9ec0190c9ff0226252f01af706500636f7d0232d6a103cf53b101bb70fb02205ed802b1d6aa000054be01ddfa4b02929650022d0bc6002198af004c56de0108636001bc5afe03d77003012b15e0,
  0x19d1c8030aaba6009f82300016e0dd02775576022058f202301826039f5a950168c65a005622140014bcb702030dc201a01c6f0378ab4001f012dd0201aeb201daf218029a188103682b3b036fc99b003999b30166aa680239331d037faa870149e3020046b82f00121f750347f58102a3fecf01c79497,
  0x10d3250225a5e8001dff7d034f85dc038855a102b63e0501bfa6d803921dbb0388901d027e02e3003f6d2703c184e402271dff01cc772d03b0ff4002e868a6011ed0d803b478eb00902e5701bf5ef800321641025eed77017be81101e44392036a3a3a0087e3dd0223676200d8f91903165f330393cf9b,
  0x2af66c00072aae01845fb10026b72c00dc43a50029f343021796e1006f2edf000488c00007485f001f18b5002e3ca70088658700f869d2022a55d40066ab4f03b6007f02a546af0083f43102403616003e9ae803db01b103623c4303a6975c0348c39b028fed5a0149fcd90124a4b802d9192202de00d8,
  0x13721603b187f80239598802cfee3102802e6702bdb7d501822912038f60d300318f760010a6d0000c5a26024a5c48028859d501a1dbe5013c2c7302bf0ba602ae07c602960b7703a53a860151a7d6002fcb5e029ecde40262f2e8020f61ce03e93e9e034000710187a1f902f85f2c00425d7703755d6d,
  0x1f221d03103b6e02aa3edc026fdf9e03fb143b00cb332d0023efd202a69a7903ec6c020225ddaa002d243301d6fbf701c3926703d65d1b03195fa503914ab60148f5f50232513e033233a90398aa2e00229f0b01a6631101216e6501e9f906000cdf590160c5b4015e99b103a263400025af1203e94648,
  0xcfdc50388dbd503acf4aa02cc0a490276da4800221de30174a83f036fdc450033ffa602224fe6003e291002f7984d023a41bc00f35da20301ac380277b07501453ff4008ee44c03da9e6703d823a40034b537025a60e802eb2acc027b32de01074f990345b3e20308cdcb026143c902a9139800deebe9,
  0x36b940366068601e87ee8006301ae01d9e51f039a32b402933df0038f24e30124b0d2035afae9001ca40d02a0d03d0387d79200e0f683031229ee022cfb680367feb200db7bfc02ab199c00a1eb090003bf53021ac7870122c19500d7168d00c619d6016b0aab035b3b9103e66502021f802a03174e33,
  0x932b3013a876d0197a5860277fef102ba8bf20109637d0173942d0018963401752037023a226c0027301100950d4200e0cf6801320279021fc95e0021448801102f18027700fc028fd2e2030180e9001e8c9a028fac3700cd76c903103445023332a0019e70cd02edadb50165b5ba02aa2fd30112952c,
  0x1b97d7024fa77a00fb86ba037c5f8403de018d00d50451010079f6029ddcaa030e3a0802ea323d0033d03002fceffe02ee4d8000b7bd5f03bc74260213f76602b2791b0397ebeb00769132012a34c7003cab7701b6f17d00183ec002bf08af02bf065601e343fa019bb5af021c0f8102d77f73007adfdc,
  0x38b1010114ac0a008e227703ecf705024ecb98015dcf2d03687f88029dc43f0234e96002f936fb002bb448023a030002e7cffd031464a102b9d0c20235bb1f01c43fce0174a9af01b52dfc02b00fd80012f722018d722701cc47ec021c477b03616b89028f4012037623c401772dff004bf9ea000d05be,
  0x2c96bc02ec394002bfa69900f78626016c352b02062db802a0ba7e0231e6ca0123d6ef03b427ab0003738a00355473006d14d4037b687d0178445503460c43026992480197f3100351bcf600d9da69001f7bb7015245c703c734b40212b78100accdc303f3c105000a6ccd012cb3f6011968310354608d,
  0xe5fb00242a13a01145ca900b3c89e021605f802c02ada03c3f3fd02b7793301f9f8c6030de9b000207709025db4a6036db297009e218e008a762a035a2c8501c65a0003acabaa0159120700baa0ab0019f90d02ef2e8c00d7e03603b3db97017d9991012ebd1401086ed5036ca0bf00583b3c006da6db,
  0x2472ba033e4dbf033027f9031a8f7f03069a7f00296505005b6bca039c19c1029e05a70206439b0004351a033a87ed03f601d903454a930188ab6f030867c903b0b2e9000b66ef0218485b016ea662001ae68603a1f16301600d190237750901adc8f20156a762017edbc402b9d707026cbad301735e73,
  0xdf51a004744bc00dcfeda00bef10501d65de002099b8902555c8e024cecf701b915b003eca3a300364e06005a9a8400386415020ad10003c67d4803aef3b502e202e1038540c70199d11700787881003601ec02855eeb02a074b303439601023ce28b02a88ad003acb6c1007fa53903d6ce6101891e76,
  0x34595008329b900d5df6f02dbc100002fe40600952db9008e053101af36dd0318d3550099020500373eeb018b007900f525e202099c15019e908c0050af5d02d8b0b0023e24170164a67a024aa3cc0030c644002ed12a01a537eb0126b5e601d2625103bdbde702a14d41001595c90128c8aa027dcd78,
  0x42eac0335b17a02375de003b640440351f21001293eab02c325f403a0832a00b6b3a60180334c00096b9003e7ace002eca7d202fbc7060024d8b403bd788100335272018da03603ca1c79011b2c080036bcb303c6149f03733ed9026311c3002cdb3102dee9a602b1b614018cae3800e6a1f101de5a53,
  0xbd54f01a20476021f270003e63b4e004a1f3403ff3e2a0312754c01ff023f024f461e026b1530002aaa0900d820d902ff97a303b8bcdd009707530193e46a01bb3ad303704e9e014326af02b3e6620009df980362642e0344308202f7642800cce8e201ae4237029dbfbf00179246001809fc03714a45,
  0x2f071503ede5c80145d3f601a8348a016ace340339e44c02044a2c0320126e03b30309024122610017fad201b3c91f037140590201444d033fd82b0236c97203df5dfa01f04447000967dd01438e4c003cd1c9037473ee03dc232400a9bf0e000d737403b7b894007e879600f0a435023033940022658e,
  0x3fad15004a383d03a60037028e112b03f022dd02bb59e002ef281e0099fc680327f02300d1ace30009570d037867df004ecb4701ddd91d03b43ae302821604015e7f0a004c5c4703ff60fa002e5e660037c8b301b00efd023c004d03843198034d14eb027b7b5d017fb80e0297e77800eb066a00066ca1,
  0x28290202c98df701dd8a9a03bbde7802c5b6d002d7bb7c002bb587008be215014982450392e96f003c1edf03a3012f0028215502d7b7ae0345fcbf038b870b00070758000e83fc025a1f510000cd0000019fbd00133967023b15b303b1f50100a99090010803c3014fe79d000d7858028cfb9802469ed9,
  0xb6fd00357ffa9034f5bbe03be7d5c03a700fb00b729bc00acadc30231a45a0223d29100c4f3d0003c60fb0390066b007aed5302736ee8028917ae02f440d201ecb8ca03c66c4b023addbe02fc0c170031a6c603de9ae6012d8df800985b1702feef230215d22200b52c9900eae2d100a8016b005b06ef,
  0x30ba6302f7b98300843cb1038c66a1001a6019039317a6021e2f2302bcb18a02963a85032403cd00080c6e02ab0053029efa6a00327e9200504dcd027ba5410300296801e4c89a0266b4ed030c9cb600046bd00376e88e03b7cfc000bea3eb03a5eb4a024521bb035871a9003a41e30205d28c02e9cbe0,
  0xfff7202abcbbe0180225a037feb8b03571dd502e6fb810045a43a01f2bbb802ba90f803853ff20023819a032c5b9100b4b1bc03ae98cb011def6c0041b855007baf110094dcff034546d7034a80cc0016abe202a19fa1020e217300e86a72028389e800a835ca01e7b2b50232ad960348458500e7d61e,
  0x1099ed02ccb511038c257b007afaa00074bce1018e5cb10153e077036e4811036475c202f26c47001da85c03ad93b202a3dd08026c1c2903c678bf00ac367500d709ae0231606b00efec9e00957fb8002fc8c501d4d5910069180f02f952fa024e888e002b2604007e1a20013eff4203155362038792b4,
  0x28c6a0154dbd401f690f1005813a90075db7a0129375103a1925902fc48430213be00017a424e0006978400df4164004ca2d301c760e002d0404703947abb012c306a0003fe8a0275ac31013d1e23001d7bc600b3353a03369fce00a22a29001c83590268cf3b00d6449900706ed1032446b7016d04f5,
  0x3a022703162c580288d02c01ee48bb024f6c25014bbf7e005525b803ad859c0046a75501f8d3eb0002a3e5005505c403205bef03c7687a0046d306037ba73100e65e20007f26f901308b8c00ccec4700355dc901ff3e8503afa50603cd13bf012033e10114235503b92a71010b0a2901007cbf011ae370,
  0x12c4200360db2e0249ba6e03ec37310064f55200cd9bc303442361027dc5e302c3981d02ceac9c001c0db8032fa0bc026dfe1401381d8903c6b7aa002b5af301d328a4011b9b39025467e102f04601000198e000d739d001a8a0d702271f540088857301a3304103b690db01d3f23c0199ddc0004442e4,
  0x1d5dc40201a4a6038ac0aa001ac82f031217ea00449b4703af426300d9941701157172033cdddd0000c8bb01cab00301cad08d03e7fb3601db99ae0342e5c1014ac6a301a0799801ae6f9702af10ad0039a86801d9ff8e01362f3f01393c20020361a70177339201ef431a01254bd600f644fc001fb355,
  0x158340023eab0e0240bb8900a1674801bbe62d0299cd5003fc074e032066de025334960396d51c0018993103e71bc102cefc200302ee0c03c1ed170193922601862b85010b06ca024c214401ee51fa003d43bc035ca99b0244e6730018797a01d81a840000650300a1585e03172dc200995e72003bc1a7,
  0x27ff0803deb64700b1a0cc03180303006720c9033d448a03bb58af01a7fad80318064f01ffd5e30031189b00f1352e0359e0ae016aa57400a83fcd039b2f7301f321a501b098d601c30bd803b90690001f2568017d1eeb0177f73b0136bfb301eb944300dcfb6a02a7c622028edb6c004b452801fdda12,
  0x2680e703a8ff5402bc981b025e5e4f0090543f02f4708b0130a9ec00ce3430006dfc0a00bf9b99002312f903fd685f004e574400c3abf70359a46003876b9e02931dac004c446e0247230001a44d3a002bd55601def0c20171058b03b8842e00f0ceb5014fc051005f2cfb018d868003b54208015783c4,
  0x9328b018d14220230e06d01c973f90106d81b0260ae6f01c4b4f1036182ae03225a9d02d64f7a000e7630024f487301ddd6aa01088c5d0200e2fa02791b700029bef3022f7ca301cc4c0602678cb5001bcf120235008701a602d900d0265a01c796b300be91c2024f6648029044f401ffa83e008e077c,
  0x6df66011386c50005b20102ce8e590005df4b00adcc14009613b9027a480200f6533703ae8ed300131cc901ea9ee900f7f25900a4b3a302ed115e0011f34002e8c0d403b735ae014511790200d2a900224403001e37aa03bc6dd40156c2ae0139edc6013b943a02bd2f8703347872008ed072024be58e,
  0xa1129023d5e9e00e8ea5303dbbf0c017aac2102deb42e0380f21f035ceb5602fe173101b90822003aa34b0120612e02f64d55032fcf8c006e849c0156ce3a03d60a1d001a0c1b02bbc73b0108c07a00223df800b057210352e04b0069d607030cb701037d28d2004c83db038d7c2c0181acd503da0306,
  0x36adc70347122a02ef660102ced52503e444a500f0d04f034034d702ceccc00057701100d1a1ee0028e6fa02cd24db02666fd700adba10010161e40203356c00c48b550120c51f000be88a004f83b00019c492004fc6510171356201803f6a0031e28d008dfe2b034fec01013d092702180bc400f7b237,
  0x165e2f034103e203ea0e75015657a703f0306501326b2b03df88a6025bb68e038ea623016bf5c20006cc4102e2d4c701f2752d02366b93004d54820337f17802758171035b245203290d4700aa40ec003294e403d52cc503c350650251a30303ac742301f3c3c3034beaf6016f622e03c7a1aa00b30b96,
  0x2d0ffd02531fec031f076a03ee2de20191a25403046aaa02f8466300e4cb380332acfd01c001c7003e424503c0ca65032c21900359a426018f550502d1622c0019d26f02eda47b024b6c18036d8e51002a049d03b08b1002ab4c73031d90fa02ebbf4f023b4f8101f1594802d0ae51006c90a601e21aaf,
  0x259a8403441a5f03ff824000a7e67001b0fbf5011e91c1018257f2003dc3f4039fd8d103e5cb1300324e490211dcde024301a2026bc95f01d312a501ae537203d753e4026d68ac00e1d6ec03ff9a38001f4ef802c6972301959fb4029e278a03a8abca03ba74b20203f7fd018d80b000d1b54f001abbf7,
  0xdb181010b9d8603f1c4a9036291390038855c000679c603a66e070024a0b000f5661a028dc25e0034087302f576dc02b666e90017b6c1024d7d9e003011390005336f0185b13901d6d47b0262d6330011713a023afd6d029fbda0033f57da00d6519e0222c096038c1b1900a9491202054c0f03733efa,
  0x107a21018e12f1001ad53900f3c074034922260315bbfb02fe23c7013ca86e025facc102a2b9b9003949dd0113176901bb53b1039bd98a0048531d0357e4fc007d8a46027c873b03b1d7eb0239a4e40037c84d011ec8d10221308003433d73003eb3da02d3b3190151c58500a34aaf01caf3a900435790,
  0xcd0b200e1e7c200e1dbbe020b2e18039968970226f54701adc398005e638a0000708c01eef61b00210795039c0fc303d5142d0132927302b42ce303216e0b031c2ca20254b3700070a4580370a80e001bed7002ade7b80377f84d01543f8601c23a86008c0ea401e4981c000879b9036e73bb0232d44b,
  0x3f749a03a12b1e03c2c4a7027f66f2002c11d8035cd3e0025ecffe01f52d6000b9b66c02c7cfe400293fa30191fe470016705f02e2a086009988d20291bf1f039974db00584d0a036b7bf902ef2ea0002eb8a2030563020249967b022fc3bc027d015d0058164a00bb7988021b3f78000262d900b0a2d1,
  0x390eb903cb2d6401299af503d81cb003551bba03fa0d0400690a7300336a1202d283e001dfc85e0020d5be0393cf340057416f01cb7d3b03ccde1803386bbe01706b93008c946e01eb21fd01076fa400062649026ff6cd0003823c035893750066d339006233f900cb5ce900b7e5a2013bade101e80d90,
  0x936240110d1fe036d57010353536d031320ad01fb932203c69ec100f57819028fa4e200a09411001bc49201de27d70315869b0387311a03a284a4020cd22a0160f830038bf4d402af14c900efae08000bee3403e7ae1e029f39660399110902c76e450250f11b018cf3fe02a342d101dbe397032affb8,
  0x1188d501532ea60051246100d60a560182a852035202da00363915033a89ff03e50d6f013e986a002984990054a62a02d36c1a00be90ef02042201017f67410058eff0031b5e1100c1b03403787c7b001ec3bb02f55cb703ef9dc700b84c3301ce8fcd0211fd5a01ee1b8400cc8ab702a2b91000d128fd,
  0x3a98b001fac1eb038e68d001be8302034a5e410162221500e1cd0c01a49d0703f4130a00d070390035cf990166d44501d2e4500137776a00212f01034f51fe0199e9b501843ac302129fff019402c80019271d01fa9b0b0107e1de03a170550361fe9901268bd802dbdeef008e0644031f65eb009bcb22,
  0x1a25be035960f203b72c59002add140383f600005ea5b503e5c2b9036c064103993144028fff11003f04b6016ce5b701681b5b018cd0a30009b1ce01f1a81f0171c47d02dcd70002a6b35f03f9120a0034f83403644f56037b383d01b0a13a01b6413201e8fc7201b73eaa0240b30f00ea856b013ab417,
  0x2569fb01b87ef503beef9a010f87810385e17701f5f88003845e71012ea745012a902a02eec1c20033414403127d3702ae99ab03c29f5003944d5501c3a46803f04ffd00dbec8e008c43f702c3e06e002dc48a0018c20d0398aefd0139c7ec024dbdcd017b98eb0118034002e665220126c88e0151a756,
  0xdaee00090fbc802fc218202ec1ca800223aac02181e020133becb03a2c478033f8a9203e65df0003027640319d1c9031807fb0028f50302ab5c7502e4a5be00be995402ce89d403fc48d3036805d200333c4d0046536d0254149202fe0b260141ca9200ac333e0224502c02cebc660342fc970336adb2,
  0x9e0d7015f5bd400997ebb026e230202301e4302fc44ee02b952a9014b3e9001804fd702e63716002c7cb0008e422f01c9aaa302b1461c01eb5e7d02a157c501a5e5a9002b614501246e5e025040f40039211500dd176d02b505fe02b3121301f0470a03f88452031b195203ab7d65017367a50183a3ef,
  0x26c6470276fb6401f38a8f00e3a404009ddd61037426ca02ae66cb005208a9006336ee022d2bcc001b5d9101c354a40227964d03218eaf00aaa07402f5c94d03bdadf600e0cac403c1a06503eb4bd7003c45bb0207b3b601eedf130000aeef034db74003e1a9d60222e9b901bd45c0011617c900703518,
  0x2df6bc00a1338a0203605703e318300261dcdc03ed6d2900bd72b902063ac80321b43b002c932b00308a55025e28460268a11903c7764f01e993f20121e1660077f06b00fdcad401f5a9db0388f1990012e9eb006a7b120124c64502e756e8026ea4ce02022d2d00b6e22e00bb799f0191c80901304b06,
  0x3a56c8019fc0570110afb501d2f491038683010182f57302e702bb00a122c90362ce6f02827e6500126d99008d78fb02ad825f004c112502e9ea2d0040b86d03838661032a8a91011b438603498689000203ba01903085001506ad01aec34203da282502c2924901813031037f2d2b037cd24e0174dfb5,
  0x13a3270045179d017a7bf40174af1600b95d3d033a660d010ee9fb00c8cc110062c8ce0393c34900210933009094e100d2440003dffc0a007b2ac40314875a01fc6033025fe04e0007c4eb0090b2ee000f6dbb006406660228ee2c033a87d303ff80a700eb9958022d688f0376b1fc034aa095006301a6,
  0x2a713c02f83efa00991e34024a9321034825c3008c545c014ca0240088914d037a9b5903031e6400018d9d016d73f201dffa94008a6244004dfae402cf68ed0078ab7f01aca757001a2bed0017554e003a94b801bd95d503ef2222036cbd4500ff81ed00720808015d94b500639aaa00d21b280087a427,
  0x3f9ca4007762f000834174026d5e200371e07e0238e20e035c1ec7038c0a8703502edf0015a56e0023d51f00b46b1c02b4324d03cb4812020d7925021a060901cb1b4b02d0416500220ae000882545002cb78d012f18f20343201d01fa2efd030a958f026029d1002c748800f9e3ef019adeac00f3322c,
  0x27b415023f2bc6004e042b015b13ad0271e80d0044fcf600404a2001acaa4c0057e733023a89f50006c23703cc99470375238f01b6a1180354cb70013326c903642622005e3af503ca8a11017d52f40015e13d027b47aa0084c5e2039c4e1302e43f2b0325269e0142b956020379cf03ec58db02eccadf,
  0x3d845c01b6597702df457703ea332803461d6c002471ae024786a5019bf02201997a310246bb0f000761b2008005670151ae98008e37c203e2631101e85c640142dc45005575f3000ac55200178cef003291c800d5c882007c08860102d0980227cc6f01458f5902a6f882007cebeb022e75e4021b0805,
  0x17794302977bec02ad90e803b3604e03266773006a76070168ff9a01351d7e00a945350383c991000d83870292e3fe006a111b02d94534013496c301c0796e006b7a67000c9db400ebb6ce03a935c2001966630394be5303385a990252c52f01e37dcc02d82c6402c3cadc016b5b28012e403a01f92178,
  0x1f6610039047840318cdb402571cc6003c1f6e036a0bc801c83ced0110f9de00ffa94602b8cac00015d41803f67bd501c65d2f0229dd9e00430e8f02b2e5c600870e9400340753039b58fc01cfd4c8002f1a5702139fb602c99966005a648d008b60cf00e3748d02009f0100ccd2ed0222996a00414a85,
  0x1d1d7700ae17ab01db0ca700db934300971faa000d3d0e00f61f010290a1830182b6d1031909f4003d55750059aac100f216c1006e1da90339048403c310c500b6c0d702e8afa303c2ab9b0111b079002cc52a01a19f7903ded20d031c97aa0214c23d031f6f260352d41803edbfcb0288039400122f7f,
  0x38a98f00294a3f02f2ff7002d9b5c6035fa33b03e1877d01b1b9ef00afa11d035ef4e1033ba1be00195f820193418002c8ed830276cdf7039859da0064092c03c5fe96009c6bd101cf389502f871a2003d49e000e5294c00ea948a00ef4b7301b133fa0300189f01c9fc0101a6754b0281664101317f8c,
  0x1a493b01aa317a0041bf660100876f024ee8bb0025738c0103f49500ad0bc202657b3602299b080032dd1f03c87e3c0050e0a402b2fa4f0125bf0c0063c0d002b985de011f203302c22b1e009ad98a001a03e400c4e38500b7615401552e4f033920e10280e54402695b9b0354e9b90202b42603fa6488,
  0x2ccbc403fe8c1701d4339500b2fb7201f1e41a007d8604037cbef90132238d00c8b76800c18e6900087265012637b903bf42d401488a3d02c130610146039c031c234002d7e5a3008d3d4d0055b176000e70a60183899e004bcbe300912a29038584dd0118bf3a03edf88c01db687502dc42a803b510bb,
  0x3ed9aa01b6a97b034513a60265c8f703db817300f5aeef01fb98e9038ac77c02b1d86101df17780010b77e01f721440281e00b03a3e09b0307caf6031f5564035e9cb30154b6540254a8a403879e37001c7bf50345815e00701cad0017dc0102b077c103bb02bd01c67ca300a725f7037da7c803232155,
  0x30207e01eb7f5b0267283400a8fd4f021b53e00293739901918ef100561dae01d2240200c54687003ee5c1031a7190013d71eb013b99e203a2e32700aba16e0194d7ea000ed26901d0057203ee1e150021eef8007128c102da3b2e02e2b194016b8113032cd19202220c6700e3b2de00c7214302dafeb2,
  0x20a23f005f496e02dc3d4f00d073b401d8f3ab01e74e19021bebc40315ad1802a33d3600f675e70005758b00b723df0016b5a7019dc7780183649e006b82e600002c3a00aac29402f5725801f1862a0000a54e02f2338100e7eb1501db8bec00d49ca903359cf0034bb7be01dde8b0029a216c02d3baa9,
  0x2d5f6f003997d1028ab7c8033ea72602a12ecc00a62fcd0392ed7f012d9761038c18f303501c430028476502d26bb703f72b5c0147de490361ebdc0219b77a02306f6a0071728500c74a3200fc4b020033fa44009b2b8f006821ff02ff677f03147b8701f67774010b50570275939303a45eeb0365dde2,
  0x32d375038ec67c02e8c3bf004b31cc02a57b4f00c7c49802f17c0e03d05e310335d540006fa95d001240770179598c0222588c029a673e01e0d3f10251671003f6e2d9008bc0ac02112400028be21800323332001ba31f00f9be9c02da642800fc40aa0091d36d00ef060402adbc81025b78bc039f6998,
  0x2060bd0122c28b035a142a01cb52a4038bebe202904ae302dda3800253ee1200f07512020f26b4000716e70012f05402946f2a02ad45bd00df0d9f00287862021970a500029cd800128c330101ba97001bc7e000100da4022c2c44020fc674033e8a1c004e8ebc006a6734005dca6402cb86cd015a0943,
  0x1bc57c0090bc29000a2b0d03c8eb4902efdaba0215509901f4381003e01de302741fe100cf6b340016abb30106c34c0058ea3203e0330303f2140602b31653024fd6e700f3219900475ecb0125cb5400072da0018a37af031b729600569c0d02ac3edd00ac4caa0248fdfd005a98670168fc4000cf6092,
  0xba7e200f240d501f3f8970282980b000196ad004c53720092362703b5524402d48a17036e79cd002f9c4600e8b47403fbe8bc00ef59aa0364e069007583a302862ad80028111f00e9da6601fda0c800381951005b1d7f00d6c65b00bd5125004136f0036cd82a027eafe303a5e87c03c96fa300c04d8a,
  0x26e3850050f48e005cc61b00a74eb802c5c4ec02920df1002a52c00088089c0289a9a2001943e6000248f702dc7fae007e005100f927fc038792e60379a71a02d8477d006ab9c701dd33170047e391001afde800d8db5c03301cc30195a6af0275f2160066d09900a5e77800a262ad020a932d02bf7215,
  0x261e6c00989389019ff18300c7b0df002d0a3802ba740b0298483f005272b2027b244a00535f4a001b773901effecb02520d0900f9803e01368aea0007b80802137bfb033c310503fa135c020709c1002f73340327d7d6037844c600df7aed0359285a00aff12100c9fd1c01c2c8eb0243908902c0abc0,
  0x3e761301b4912d03577d3203ebc34f00ad3f5c006a769d0065aaad0121ed1b00f14da8006d488700239d7d01f03da5037d6f55009a4c2f0321ca8603b80e75032f3faf015dfbac01b71e5a01fd46e100304ea703ca130502691e2b0083cfca0127db0a00d3c81302573da802d7024e03e7b29002c9c476,
  0x89eeb0288407202a09d390363bf7c02d54ba103429aa300d8952202e0df8401b76dfa01482452000703ef02a9855b02b58d110153637000047f3502cf53a000e16b63024b8f82028021520027cb06000768b80274551702f7dc1b034869ff03334a4e0101057202543ade00e4c2b601d14b5b02249dea,
  0x374e890258907102e8f5e603050926001870fc02dc2ed300f2bb4d038cd94100d1c8e303d4fcd80038c89e01f9ac080203219a027e46f7019d585f013b9b67020a68e301b51a3a03e8cf0402a80de50022d2260153de5d01218dd203dc7409008cc46800f256d9020e23bc00d07b190011c80d02fac7e3,
  0x204c2b02570c12006b5d1802a7864601aefebe0109ccfd01df70a10190730801227873023249ab001dc5ca0166e85a026c621001f3c801006f3f05033a08df0015607302adb5cc0382269b0307b8020026666d0197c8fa00ff572700ec484d004ee4b8003694d8039a32fa0179bc2903963e2700e31796,
  0x1b341b02a4fc2601c03a6f03bfa1be02107d38032de061030b5a1002e76636002e33a403e22e95001746f200fb359402dfb4ab034c34ac0329cfa9038f6a0301ae58f803cd7f49005b023802878483003d829d009b1d7f02c12145006ac3b100f1c90801b3ee7a036ae23c03ad03c302aec782003d6661,
  0x255ca0010c992601e4ab4500655c1801bca2840365ec380057241203da34e901831f2602b1ba35003e905b01545efe016ece2800ca31860104ae760043f65e0379c74f027081910312409c02a962cf0005a58a0029990a023b2b9d0284059902f1520a01dae5360220f467027667520132918901dfdf57,
  0x3f3c750339fc2a0165ec24018cb3a701abcf38009a39f702206f4803133f8301655d0603e91c760005f87d028a920103fa52bf0285adbb01aca0ca0164f3f3036972dc039ad9560163d5fd03dbad0e00054d8c01f5535f0384c0e402d54dfb032a382401d6a7b701f4a89501f02b5402224c6f0309e4dd,
  0x3bb82f0394a0b102a9250103fc64be0254c3ae00b84fa901341eca0131271d01680c8b01d68d3600045496030e2b3c00e6eb9701dddf880325e5c70086ebc401a18a69022a376702cbf7b201ea15db003c1de00018025c008787c2007eba8801aa518d01e904050298792302d3c1860260165103859007,
  0x1c4194012529c30014fbdf0271c5c3003695640248d530017fc37003a295450143e7450326b0c400370328031c617e0172e994001a30c202908ea00122be450349d9ad031875a1024f490d0215d435000ebd51030f1420004f1a51026df97d01f26c4900d9e7e20300190e013fd61d037557a90099af0e,
  0x35223302a6c07e027a230100d8f5bc00d1c53c01765a260204a83f03f3f8eb02a8ee63025266eb00006a3c02d3210e033969cb014f708203b3660f0120fa43002aa812022865e4007c39f001352853002b4a600152f39a0189125e0068e3bb01580db3034edfe902613b78021b617003695e660173f67b,
  0x6ad6e025a3191025fb86900dcb145023d8fc3013d0d1b02586aa300c499d5028537d80022fbf6002b3fb401280f51036716a00097a9fa00d686e20210bff000767ccb0274502a025e65c80168314d00099d05036b8fe202c9ec0d03a218c40278c83d00994b4c027ee87a020b780101aef0a30339ecb4,
  0x57b41014757f50083834b037c4afc028001690349690e02f96dd102aa05910271be4403207f460013237602cdd5b60042aec4020d992603f478bd03d84871020c44df009a27ae03c66a21006a488c0030fa37022261ce024457ef038b617e012c8886026d065801cd083201d12c5d03143393018b9ce5,
  0x28d87601096c7401cffd1e02f4c11f02972ea201f60e66010f72dc03ce3176009eed9b00ed054b00380e8303e50a3c0251a47600ae71ac013c4b4900baf62f017c49f500dc052103124c210058866e003ea05001e07d04029025f8036eac1501b47b860371362c007cb4ab0242393a02e06426023c22ea,
  0xd960503ce3083027a19dc03ceddcc0144632e02ba98e603f36135025b5028038fd3b7032de4ab002aa5fe03ad9c9300d1ea14033a99690399f17c03fcdb0a010074fe00f648c003ca7c0001b81f1e003237790081d1c601fe074e01fc257d00333c5d01b0dab70321bd9503faa45501aaf83002e0c7e5,
  0xfba4b01af97a90174dfc3032b2269033533bd0200b748003e3fbc0053877303d1a79201a0369d000dc25d022e7f02014d74ee00dad1ee02982161027b77a001d8e1a301ac890a03fe33e300141417003f01bf02cc5fc601e34c7603675e5003529f930206955c02875ada02145bfc01e8bc2300c2970a,
  0x10b808027b627503d4908a01ffdfe80358b3b102b245940008f23000c3fe0f00b1426402583f2800169a4902990d970182634a00e542bb01909cd200d5ba6f0234cba600de35c600a9ad62025d735f002cb4cd03aa7b3f01718025027b583002bd7eef01f4d1ad01b382200195739403cb27d2007d1f6a,
  0x135e880367723f036eebbf02813440012e985502743dd201d1496200e2bd5000e29f1f029e6557003b6288013aa171002aaf340331cb580060cbc80357f5c3005fbb1701890ff303ef7d3903f6dc5a0001e5ac00fbc12c02bc8f4c02da367b018b5fe30151d72500ef206902c121b002bae61800daa57e,
  0x39971e000ff7d3025abc48001e3656035992bb03aa54ae02488ed1029ed06001b5212400bc9b760002441e028cdcf7000b694803d4c5270321557b033d72b200169c5001d7bb41013d7616009ef031001da74700b3dd71011e68a50165ba4d01f49291038902f0029a7f500235811d0124761502c8fef9,
  0x1346100198944200342b0501fcd2cd00d948260183538701258af802126e7d00a34f9c0209b844003eadb101fa82e500433ded0225916702e35f2d0018d5b00360df03028eb2da031265c5036e09f1003dda60024367f300208f5502186e7e0081f72101c3c58d02ec51e40188c64803b5ec410132859c,
  0x30e4a7036153bb02fe8bca03fca08c0207e5dc00b4cc5203cb52be030139c1012a5da001b9115b00327a310022e6e8004204a403e5edf50363fcab03ab573e030b331f02396bdc031c14150135f106002968c400c86e3901ab27eb0147960802f30f4202661cb60103874b000e1fd9011e3edc01db01cc,
  0x2ddc330223baa402911d8d026afd7901c0ac2c0237d3d001131542033fe673016f6f50004411970009f9bf0215b5590257bd89006ddbe500c31fd800a1c6a40039305c0270961c013a42cc036e1675000ba5e003f655ec02fea05b02d3a74f02e3a2fa0038f04201803b9602ea287203d092600125d022,
  0x34f9810013aed7035254cd0033063502ce3bd900770b74026d4566005fba2102302e4a00e8d79c00041f34028ac65a011184db008bf040036a68ea01ccfd35013deef403b0916c034c80f0037bacb200070e9b029056eb00c391380111179601ad94f70254326502f87ccd00031bd603346c9e037a9cc7,
  0x72ece03c3183003b4bc7402649f32014b5576037e6b3900026a67036193af00c0ccc000cf17750025523201c875f8001745cb006c8c040018dd5b00a671b00185d3b002978daf00876a610018eca90038439e0161d1620205fbcb02fa498b01c597ab0371c2560140d3db02ac47d000339b98018f2734,
  0x192f8801924fdb0352d6530136f8b202dc6224004393e5038b971003f9ec10006abb31003ca4f500051e2b00e764b60373b23b00d3c1d70347cab70030bd3702c919c30347dbaf01c7421b01170cd90027063300527d00001b6a8f019415a0008cffab01c5ac28017deb7c002d4837024f7eac0383434b,
  0x9047017164f10139a37e03c0b645032bf6c20204f66c02a1c01f0381f07a001d3637002031af00223b6b03b4ac1f0294e5a100f5a7bf0361e97c01d191e80380f6d6014365f80039d71f031b547b001666a40384e61800b9d2860102a26202cbaa2901f04b2a029fe25902743c9b02b4191d000e6e90,
  0x14a2de009fe46b01b2cfa0006eda45011f585a00083b29028b74e3034027db0217b18d000fd76f00182cf000d371170329fcab019bb7eb0303849c03a4a8410336206b021221df0309547601ac37a80015793e02364564017cc14a01b05c3000fd2b5703aea486001ead63036ea588029e590102fd92d6,
  0x37961403ff6306022234060345e96c023a4cf201c58f18008da2cd028fd2b2020fd8f4029952bb002b0d1f002e18790372cea6019a3e4b029f32b400f2fe99039ccec201bb4a280015e87103086a22003a7c6f026a28c602ddc78700801213007c3d4001a7904701c96bd702ebe21d0289385800e31254,
  0x1cc8f1023c1caa02359033011ae21f027418820254dd390145f9430242a7c302e3e32003c1a96a000c26d5009909320079c73801dc20370194d2f1038a0349002db7db00bf46e003a0337b036f27dd00035e7600142286031c2554002962670384e38a02508d860307aec1035429fe01db934503065cb1,
  0x308a240013035900f210d202567aab03f5cc800285e42d029d97bc0174925a0079dd4e002727ff0002ae2b03c365cd01cb000d006ec5d400d2d6a8015e4fe10244705b01cbd06600f5ef6202fcfed2003c554b0291438500e0ac26020b9bdc01347bd1014f421600427fde00001256030d4d5803dbeb65,
  0x316a6f00fac16c0273b10d0309828a0054cfe102c04e8501bfc2ac0330d1fd0210ec3d01a700e60011816c0061096503aad018025953ca033d31d900d4c5df001e261001fe358202d121f5006ed0e90004579900682454016663ae0048694402583c2200250e3100f8a7ec024dff7f00a496dc02a0b0b8,
  0x13a5bf01fc46190397f15b023f906f011745bc009a71b30177921c00e19b92004a327d01932d33002b1cf90252a03703a641a3030216df03db4298011adf9a0262f89b024005120117f79c01f385d7001b0e880108c80a021664580203de4403e1871902f70fdf020e5ed3017fe844023f53bf01f6b481,
  0x1a058b01af9ae3004b0e5701b78225010d7b130098ed73033c9c7200b6d7e600c368c6020a331500130fc401cc6f1000cf808c01fbd263022889f00219623c02182d7d005fa4120327a5a800bf332c003734c100936b4f0077d1fc033ecf2102b52efd005032f0019ad0a403a5d644035a4d1802d25ca2,
  0x9bf6d005d622f0255a403001557c803571d83032e19eb022db851039a3e3e00047f520229c5440001045101f4ee000318fff10344013201006a4d0328613c03ae76f5005be59703f8a7b4026f60910026b67500b977c902621e0501dc98b503b2f25c016e18a502f6bbfe00badde1000c5eb803285e39,
  0x1e9c9a030f9200025a2f2a0120d917024877ba015423d800c8878101708bfd00b61777025cce37001886d001635982011fac7f025ecdd002b1146c03951ccb037fbba3012ebfb3016cc32701e8952a00148f540336a729037008b0004d82e0017a8dc3036acd75034b98c5018b5e02000359c801e08fe1,
  0x174570008e961e0208835c0123834d00e0293d0269ca3402c21ea20392f643019178fb0005c7730020e33202ca0c7c0122f79d03dd39e802da186101185fcd02ccc09400f4d48c028ccf4e000c1960002f14ca01b053f401fb2f2e031f1b19027bc309012c752d01e0d71701994ebe0086daf100ba88ff,
  0x1a5aab00ca0cfb03a06b2e0276707b03a01e28035c0a800374ccbc02dfe8e403c5108f01c704c6003b0e8502d38cee0178c4b8039528f2027e3ab503ffbcf100cc97c5004fb9ad027508b9007e4908001f45cb020ae52700ac9fa502182b7303139c0101507cad033b877000c5bd850090e5f3028ff8f1,
  0x2d1e0f01b7d57a01dd26fa00bc44a300696a0402077e810352b20e01445cb10399e34402f1fa00000f0bd5036b01ed03ec89ba00142b1c00396bc4026895f6021b19a900f1f7d9020b2b9001a189e3003ee88e03440cb1001ca7a10296c2c200fd6b5c02951ade00cc22f70348e53d009eaf9003e9fd0d,
  0x716bb00c48bc703f8f45e03e8f0ad02dbd49b01610cb500e895ba0215bbaf0377036b032a20ba002b967003004fb30089bf1b029fbebd00ac799f009be08003b23de500410fc702fa853f019c221a0016320403d0d715013358df00ba4578004473ec0217852500cd23b900fa3676003574ff023e2654,
  0x1c0651019d5e5e02638e0203f7eb4803765afa0113eb5203627a9e00a5d36802eed7bb0184742800305afe014ce4fd023339c3017d355400c3d7e70338109300de109e019baec400a15180025dfed00021298602cfefcc02938fca00b0212603eb989e0309ac03023f6c7201d1955303b9d3a10170867e,
  0x1a16e0158d3d6020f2c08033806fc02b5267600daff5401f7ff14031c210700454e6400ba3f14002285870089ce0101caf204031fedf40280b15b02cff018027a7b4903c73363033cf8b300b2350b0029747702ee633d03aef23e02b517c200a91f0903f30fad031ec34301e325b4002cc6da008811ed,
  0xe166c021813b501700a54007a2f660299f5ca006a5aab00d2df22008bbfc00254cda401e87310003594af01ec2519001ffac900ddd848026a352602208a85012a126601d0434800cfda8d031862a40034e2d500121a0203b6925c01c45cb30375dbdd00e0915900d3589901c4b5d202006d4d0140b412,
  0x1594b4034d3000016d58d603b7712802bb5c180219701e0302a09e0346d57902125057036e956100163e7102d17ff102ed220101c55c74030a232402b765ce034666200399aa880168c49102385eca00282051033d8766035497b303ca1f0800b7053b03fc2f92012a07310252b4d202b391230088ecad,
  0x357c080272d995020e2e0c00e6444201dffa9f02fff4720268abde007bbc660205ad00030bd9c10018f07a03195eff02ba93bc01ecb5a001384a79000dd71102a1675303bcf8c402247b98036121e20037299a0028649d01a991400218d82c021c3b4b0240c15d03f90d4800b8a71a0088faa101c9d447,
  0x616b8017769e803743fb7028383a101ad0b510358e87300ae07a501f54364014c78950162c0e2000d70b0026611c1005435380006d37f03518a070006a90300a8cb25003a1ffa0310d613014a6c1e0025feb2019bdbe302a2c01e0331c7bb02dc3e1e03c00e8e0345bb7a01c48e0801fe357b0081bbf0,
  0xfa6d80217d4bf01c10bb10069e14e02fbfd1103b561560194c03901f27ec002ca560a0190c8e100184d3a00a3c7fd033913b5004954d6038d038f01e69c2702f28fd5030bc39500471a69036e24c2003d97cd01e7c50601c176f3008312ad02256fca02fdf25200db4a4900a2b39100543d04038e5017,
  0x3c871400d305a902e5348502a5784e029c4f6d0273f2020235436003e8234401e2fc6101ca425b001a051f00560e7c01fb49c80292e8dc01bbdcb3028df09a004100ee02ab99f7018fb1c501b47664002024140377fed603015a0b026a891a0029366903c658d400bf215a00736c2500fc60f803b42b4d,
  0x3998a5028871d202c791390137113901fe42000178d2d003a6a8f6014b3aec009599de01048a63003bc4a603914c5e001d406e03f441b602b25afb026d859b02ca5cc901878ddd03359adf030440dc002fb75b03d51536020ec841031c5f8000c81702016ddce801f865e702e5be580130553103749134,
  0x2e7f85038f0853039e8ade023270a200b7e063009dc374005b47a60168108600cebdb400e1d292000ccace0259e5560271758a0011123202ee375100cb7ec4027ec33d02279e32001883cf02be670c00069194028902150098366e018e68ca00cfe0c3008287d0013367fd0005c6d3028dac3e0334f4fb,
  0x4940000cfd1e602b7da2302bac9ea00c3604903eeaa030395d01701e8ec4702fe74280079989f000b4421013887b2035f3f47024643b700092746034ed5b8027efba7013ab92a011c97a1018ff50a0027f0c900162017012b060d02f265f2015330aa022d0b1003816cf4007143bb0017a0f003da8ca7,
  0xc24e40055c54201ea27fb00c306b6013725a601a2221c02958adb02b952ac026d8d2402fa59150013dd0c02e33e6f015c56a401a71b3302f2a6b10053a5d10242420503bf18e900a7f17a01433cda0010e0ad02514a77003ab959000d34d701f3964c007cea54012d090900781c9f01f694c1035c0bf3,
  0x3f0f101e3376a02b4dc1c025776d002e6f6740340295200b722ae0018a0aa02f29ba801fd8678000ac1ef01da20e70193ebbb00086394015b5230031e23bb0186d2790123e63d01a1dea40110c6840006de9701dd0ac700770cda021b1ea4029b69fb03774001006b65d601330dca02ab1a2603c1108f,
  0x1f621e03b0fc1f0376c4a8005faf4c02eaa3e2001a09db03712b4202c377d1015f67eb020d3570002fea010350b8ce023e9c0e015b0bc10107c9d101ddd2330066ba9001d659b500e18cdc02b9c9f100354b1701d93939019ca08602b94e060364b14a003e0bbf00b76b5e03828ceb0215f14f028b2d27,
  0x13752903f6be2401d96fe2016800db0342b0020149eb7703d7b1f702aa5e3801b52ec2001217e6002ab74402e16ed5030dc5c60346c1fc016344e4025bda58003dd29901eae881004e286801c0486d0030d063039b6ea3017d9ad701bd6e970217cb4300cfbd0402ac720303b4a8b60222f06501cb1397,
  0x162718034fc9ea03e04f78010a8be7004bca8c000cae2f0336349b02d362fa01dd928202a4d95b0037e34c02bb99e7039f910d0032dc2c031a015e001bbb82010efc5503a108a400c6b84903efbdba0012ef1e03d4f78a023d3ef500fbfc2e00ba91df0131d42c00128b1a0077e15a026d9b7f02fd4244,
  0x2f902b032674b302f2be2a01d855c801516b8a02478ad201ed075e00d8e74503c3e39403c211dd0010d0690254010e01236e3f004bbea90257cba001e34f27029104a500b41be6005ab0740362d57800028dc102996d4e00a7b03102897418009b621f002a9983003dec4a008ec90a00433d300143ae13,
  0x23b805038f1e1d015cbf7401a7dd830187b32c01eeec5b03c4564000dd307603bdaf7400ac2d780038989500e12ebd03b1ba2f0386f4cc01ae19da0058b2f2020e8dc001c90aac01d86e5e02477813000b47a50017ecc3016e03070134498302dd6b35003063d201e112b40101d0b003d3458001750baf,
  0xf4b7003af69fc00280f5e0091b3d1028c6c0e02a1278001073e0e01ce7a2e037c55d3013980d70017eef602a51d6b0381f18002e229660145b03400407c7d02b1e5c102c862a5004e13fc0181cd830032c7b202171bfa0022a415032822be02eec44c0292e0420130a5a200a979c401ea6f160217581f,
  0x36114d03ba2c66016e434f00812e01027323110320ea59019f2f0500f33d6000f606540161ff49001c686e01d44bce0009779d017fe41c03c37a50024baff401cfdafd017eb7fe01d22f5702078ac10028371e01ada1b2003dec0a039e3b45015d5dd600fd50e3027bbd4001eafb150350400a01b982e8,
  0xf5b1e03777b8603fd28e6025a75f7016e308402a7e9520005156b01fff05301f9443e0322467f002c2159017eccf4036203cb029d2bd500499eb802b9e12a01a920b0034e309c017198d702b242ff0023c1010077ef76037a00d80092cc7302dbfd66005ac82d03018d5101368b0e000ee6380296b8b7,
  0x31193c01e2cf5600abc79901be515702a0986f022cabd503186799033e27ac006d4d57005ed255003de354022d9ef801051f320020a3a300217e8500f7e65801e604c20313f1670163acbd017a6956003f0305023012d000662f3c0231ff2902d2583101be555302dc454603c89b8c035f06e403fdda94,
  0x3fcc2602b680c603eda436016f2d6302211aa3027658210010228403029e2c0167d029008ee67100043a5d024ca1db0063316702c9112002fdd60801fea793038c0e6001be8090038d5f5903bd3eb7000b2e740382936203f30b0002b8c165011bafc403119aa903ca6778035c034603dbfd6c03dda029,
  0x24418803615bbe02b4437302d046c701cb9cde0329af3903eb44d403d6d9a001df21b3010ebec0000a905e010abbe30181bf3a01d41fe901105c3501cf8bbf019a4df3011fee3f03d350a003f566dd002d7d2401bc027500749e840379866b031c0e9f02dc010a02c58a10024efd0a01b999ae02d52c03,
  0x3fdd2e024da1dc023e4cc6032bc6e902f4fd70035e5b1d0205711a0001d2f702ab18de00b916d10035057f00ee82f0000a9df300606190033630680183fd100017164402323420031654ec03ac429b00022d7d03ec8e7802805c2a008a668500c305c502178a4000420ea8002a9eb40228801602519af2]

end Tss.Secp
