/-
Generated by tools/gen_secp_table.py: windows 8 to 15 of the byte points of secp256k1.go:10, decoded.
Each number is the 120 serialized bytes of a point, little-endian.
-/
namespace Tss.Secp

/-- secp256k1.go:10, serialized bytes 245760 to 276479. -/
def tableRow8 : List Nat := [
  0x0,
  0x3a7288026376810168b73901e7bc64014731df008bc48e02f2f2e900f7714601e91e7702da16400012090002026c9800d1cef8005e77d80305748d013d2bd7001f6659027619e802670f8501ec86b7001448c602fcb02201c0ade6004bd80a0002450c0020a82903589d290387fd3d034808fb023f95a2,
  0xad33e007f072d02d93f13013ea83000dc60da0328ed4f017bb31002b63d5b009150f002536914001a8fb303a570e5016dcc70011085f90302755e02b1af28004eaff6008b0d32034f43a7001bc1e6000de66a0203a4f700dafb1602fdaced03643a50021b955501c4b9ce029fd51f0095d66e00f2276c,
  0x233da3018acca20043715702e7dea00317f46d02ad66d6023eeaf20342f2cb004494080049acd900358b0a03bbd31a03ed48f701b996b0016cf13000d06ba8021c889901f5b88402b01ec702309a7c0024098f03af2a65020ad5f40027bc5e010db6290213993001f6d94c013a9b2c03c2fca9009c7df1,
  0xac86f036e792103b53725035d1c070049616703e2c81001dce97c01e8681800142a8b0033171200091045015eed600122b04700f6b8b800fc29db0361861f005f6ed40343b53002093dda008234690032f662019bc837028d23360033f10d01b9c7b302dc62cf03ecead90311d2e701e7c00d03312777,
  0x30d15a00b1e9fb037e67c202d877cf02327d59017dfb910374c1dd03b9d4ae01770cc6003022720016615d02da567202906eba034e579003ce125c02732da9039bec6f0394e69e03c36cf20260410a001c464f03bf1a130334f27a00cdd333036ae6ce03567383006e62e1017b2bab0209049202bb495e,
  0x2f196b023e17b401fe0f6500caaaa701c4b20c028fd8cf00a1712d0303b96600e156cd023d8e430011b09a01b557510274c89a01f91f0e00c42fe600901763030eefbe00da90d502480435033ed3b000163a130235a5ba03cd791a0229338201667d44033e4eba00a042c00333f2ec03aa1a9a01fce1c0,
  0x2ccecf018354e9003e526b019f32cc02f2e3f300f9a110033c81cf0159643e02fe528a026fd94b001763e30338a79301289250039946aa03384840008c90940056b51c0290a235003f02a201162265000e5e280133bfd00042d19802c9fbe300231268006f575c039c5ebb02faa2050268ec6503192516,
  0x1b2e4600a9aa05000327060372d37a02dcdba901395848003f876302f79e8e0191f822021e11770031740f038755460115bdc500a8fe580208a53d00a5b7be01352bfa02d3a052004746d20018d1b7002585a203919e2a0092df9e01bf06d702c9f9290158182203c41d2502e7715f006b099500eb84e3,
  0x1d734d02e2b59801733cfa007dad94026cd652016ab2fa02e0bcdc02b13ddd02f6ae3c0210855e0028665d01b513ad0205abec035c74fe00214b74003e590f00fdd5fb02a3f39a031377b5025ab0bf003c713a025c809e0058c96e01ced4a1000e671300f85fd701ffc5a303c79165007c43f301de2666,
  0x34b78c003f2c3c0335836100eb8f0d010a110c038f13ca00830c3302cd4aa201130e3703958342002a71fa03e143420071facf00d1b67a008f70ea0247d13103eac6be03d17092007f457d0032e1cc0008fb7f0124a4a90325ca1501b92ff50269ad2002cc2c3400fc49c300493b0200af367603871a63,
  0x1a1631011de18103ae2e54039cdc4401584cb602277689030aeb0301491b0601356adc01c3bff8003fe30601633581011b97710378685302b7ee65015e926d00aa55ec00c89afc00c1bdf102383f91002805cb036d8b5b011f262301c37b7003d695750165bd8c034acff901e8591d02f8982103dfbaac,
  0x68f5d003ec4c4017ebdef00bc743c002792d20056f50501b6b855024f3f6002f14b1303c06c81001cf7ed036f87b3019a4386006b187303ca1b68016880fc00a554af00d5ba5600212dac03e97b3d001b258702075c04021c416200e3eb9603dc24490226221901c8e6eb010ff5ec0034273202c03ec9,
  0x3b429100f28547010d93b3003a28a00375b0ba0159753b025f406e0077c18001f6449e0112166400112ca9027ce8f800aa654802382b8300246ea60341cb4b004222fa036da83d02591664025b61430017137b0307519e0151b96303dbd18602adcb2802fec9510205add002d5d388027a2eac0210acf7,
  0x1ed92401f5c670031584e402e5b11b01f90507007bd7d3037c33f302ec0d7302f57c93009d58980032d92b038d99e103bb6cbc0136f2cb007c75b500a6dc6703386ad303fa677d03291cfc0279879a0033785000997c9901f88776023ef57601ebd0c90057664f01bc6567005a838102691eb1037b306f,
  0x215c6a004f93dc024616cf033225a603add3700252892900a30a4e035b55de01c2394f02a434ae0005edf902f1adf303410ecf01da18ca0160d9330175a5e902fed3ef026e4d8402ce971f0001006a000b94b203eda77d0108a78c00b9306c023f77d603f474750203bafb00fe155e0024922b003226ef,
  0x288043025587e102c2b52c039f31e300ed9818010eec540165f99d038cf8a200898b52023d7ee000231f9c0057bafe021ea56b02d0ab74034bf0b7000e791101a387db01ff843f029991900255f8ca00091e9f009b94a30098cdf90295cbd6006d8bfb02d19fd201136dec00fd971b03d95b5c033229cb,
  0x3178d00306c39e002bb30500ea5c9c01e2521701f0d79802d7fd9103a1a78b0215e28c02b34ec9003c94400153b35303c11ac80075213d01580b1903ba9e6e03ece90402d08393024b19f903d7a4b40030f5d1005bd3fc0340f93c02f36df503c965ef00a744e30360fbd6024edbe700eac6c00199f9de,
  0x2287e80365618a01a1b8b60378d33f03c1f0a501b131380119778d0190ecac000c8df501f7562a001f9fdb01a52eb001f60464015608dc02353b480202ada5015af7a90377a9000350923303dfe7d80016327803974c16011733f70272e6d4027af237004592060043c6d90360efe3025a4515016745bb,
  0x3f6d203ce7a27016f0c5702e9c2d201f333f20300c1b00008d048014964440237655f02feead40004df98016186c70310befe03e05ea8033998ec0124d182027991ef01954f8703d3d1d101cb4cc8002a073b03e71fb202f7c9d200f3a6d301f22df2038cb6b900f3c6940043801802ded37d0079cc26,
  0x3d0ee500d7f03103346a0803f40cb203b42ce90089bb3b010be2da0350c17d03002398014865130000f45e0376faaa024b5ff2011697d90034c31b029096f903260b6601935f7a00f9fad802faa200003c935901e3cc37038bd08100a042aa008c6aa803f8f41a01bf013f02a9d53a038b50f701561939,
  0x97db501b3cf5f036852b3019a77a40038975c027d6dba00906f260382a49800f5b60003fc74fe002800c500500f1301fec16203f1c3eb0043f2b2039f81aa03ed50de013e39f701d0ce0b01589eff0038dfe5001ce57502c71e6102a6c6400068b72b0249ce1903827e2a02ab221002878e4003752866,
  0x1b000a0202a5cb01d28bd30260070e001cfbb2017edb6501949c030018c54b006645ad00c14c8900040ff500122d1500cac0d803eb972503bdcd81013df0a30112a5070175d016020c285500a7ee340020caf203de4ff2003c344701ab21fa01eedb0900696dd8011ee8e0035be31f01d04dce00f030c9,
  0xd850b012a6f79006fbcbe0322117c03811ccd022fc53a034503d90365f51401341273038ef53e00255838028b02bb0377b274028447f50380fd3501b0664b02f705640082346400cdb93a0292bfda0028ad3200f73686034fc25300301ba50302194602fa818d0226ac1d0166db5401c8860701c4f823,
  0x1321f403cbc23903a2405f00ca519000bacd4003a15ae200ad5fcb01e2bec7026459ad00bdb5ee001e083302d30ce600afb1cd024dd02a02c962280105909302c1c398001b6f150319b9ff01dd96ab002f300a017f84b10287807b02f8be3a02848e8e01e47c520395fa0b01d139510357f3fb0215e998,
  0xa93000617a6b021101490107492803dcdb99011a548400674b7e0034222b01e1278a0297560b00112395000b64ac023e3b9e021e7b71001c6bf6036bb9be008c12f1006b50ed004eb0d001c653b000136e5501d14001032e5919006cd16e01c9addc034d57150211cf8c00388fb000fe28480390956c,
  0x1365bc0244954402b7d9a90053da870307423a03ab291c00f223dc010299ab02292fa4018c9e680020d4b5023fbce10335a0a10357d5030049c3b30211279e014acabd028bd88f00d6d57803611efd00223ba000c384d1014b943701ab032803f7bf5d011b81f100fbc2d903e16558024f98b902cbe1ba,
  0xadf570225542d00410b7c010b4ee701ec6261020060330140623f02c38dae03db019502646f870036d2840118fae700af0e56019450bb0150d7be002cd21800c0ac6603ccd32b022fa889031e9ace0012ab3c038751d10020bf0203c9bafd02a8a2a301125a0901293e4502fd237c002b499a016d996b,
  0x3ddabd02726d25019db80503bf8fed0340abd1036d4438003482c501d4310b030d1769020aa4a4002e0c89024bc3fd015cef0403a1f30002ee3528018d265c004c3b9e03c46a65011095b003ce49420033592502acc82b01237b6c0069beb3021c0775001d06c0038e6c3e039841120246e3cc03efc543,
  0xe61012a2a31035de41a035646250212809b03befbff02ff1bbb026b35c902dfaec60356efd0003f1e4e01b4fcd502325e43014f3c7600981d1d02cb2fa2006ff3ba01b4bac20078f68c038c8507000368670222260f02223ab40300a884028294d7015eb8860181c2fa0328f17e029b16620363ed31,
  0x12c6d60114716b02b906f802810a9c0360cece017bd11303b3785a038a7f0f03961ff100dc086d0000ebca00a7070701b1d7f7010e9d38018b945402bec5cf01ec70740026cfcd01216ec200d6d67d0007f09500f0046e0338815301c2afbe02e7056d031714a1009e999f000fdf1203bce5f401a7f0c7,
  0x3cf36702e1d7ff026f195702d172d4018bf6870127f7500362e9c9005c4c5603e727ef02a6fa2f0014cc690229f3ad01d0dafe0291971a0085dca800abe9480135210c000b1d470199dc1a0001132d003d893802c99edb001ad9d6016638670296f071018599c70172e0ed01f0dbe703ea0f7d03c5e98e,
  0x2cec6901c99b31001a0df803535b2803e58dc50233cc2f0263ee55010527dd02ae4158035f04bf0034d91f02e46495019fb9c900e95d6a0388ba730289e64c00a58639029285f7037b8acc0033804e00368c1c01ccffed00de373400af7b030311047500e7664500ec3569030afbb7018ecc68023cb626,
  0x1d78c8028bc07c016e5c0d014a9754010e3911023d991d0205b78500bbe24600347bfb0140609800144797029bb0b503c15039012ab1c500ede8e101dbab6700ab1b8b032ac31600c5388d012fd4df00102dcd0255caec024e83a30059888c034ea65700953aca011f12c4032c167f03e24183036f8f7f,
  0x470280278ee3c00e82e1601eb1a04016b887c009a37710381ad9d037c68f60279b4fd020ace8e000da7d201b56b710001c5b703fb265d03cb4145010d4b6702ffd8ef038df56500d40088032897e9003ccce3020f2899034a672c03f281b303a0fe5d0044d3b101810e09023ba2ed03c7ef330159754e,
  0xe1b14012a75b303bf27ea013f4890004ba33203a60aad026b04ad0225adf703af89bf0326805b003ff9b301f6d7490373b264032c74a803144b0201de722f01cace85002fa20700e4a4bb012db79f002efafd01ced1e0021c4914017f31ff026e7df601a7cacb0273b7ac036905b0010ba68f019fa7f9,
  0x3e217301dd88080378d0ea031ec71f00e0b06203959ef402eed8c10108f71101a9afc7011b579a0023f2c60103dcb70087cd6900f28dc8018f781e00c61a5001e332880030a8700338f67501dd9732001ee18d009a4fa501fb9e2d0182e899039c337103e06c8e01eb629f009c9f120289ccd500586bc7,
  0x31755700aa225f0260d1c90218644102573c5e03d5c81003050ba501723a0a00b2ea3c032ffbb000336f7a022265cf01a9cdfb038b95440249d0f80230746300ee0df80247055a03af39ef009341d70022a8f00218466302efb7f802a6cfdc031036190182d2e703825a2e018e7bb402a5126f02ad1a5c,
  0x3209f7036d673e006751e70064168100c26c7e01a1cb5d00f5c6c9022dbddc012bbab10340975b00230574023f074702b03b3e026ec63a00ae901f004ca33c03c9d949020a2ac200e9edbc03d84b910029205003c1068302c8875601ce77350255111b03d405f200b03cb50332721a02842dc400cf6e23,
  0x186f810181835303a9694e035d888503f353c1018170f3035d934500ff567d02ac5c6f0338e8d700366e5b036dfb3d0388b9b4004c00f90352079e0147e99c00875c5800057ec9037c1893036b249000269d4e025e54f002bcc5d0019aeae20227a640004398bb0356309200908a9202add826036a151e,
  0x22c53d036dcee9009f1d0e0252f6cc02faab9c01c978890378552c02b9eb43021e5fc80148208100264b3a02b2043200fff7740359991b02bbd3a1010142b3012c2b1a0185e05500383d8d02ef23d0000f0c3400deeac80350d6e0019cecd002e7cf0801434d830334e7b00035d06101fa830e005f0d88,
  0x3b067c011bc77600220761028d891801b73199033ac2d60165db1000fe78f0039b6a09016530b800385a6601a10eff02d9dd9e00748a4603ffa4d200e04e51022fa026035f41ef03038c88039ac62600099fc50188360902317414013ccc53005ca4e703fe9fe6010745fa0125c1f70319564c01fdcfae,
  0x2137f800d90df10293addc0126db5201e8eed80009843b01d7e0fc03c0d6ac019ca52f03134d26000d6e1a0062103b01c40ce5001a173c00bc2dea02be0fa10247085c001f20ea022848720340387c0030275b01bc5e5703d9f1ce00afb6c700fbd4c40321d72f01a9d230013600f5017a212e01474fc9,
  0x1bbb4001d270d9026affd102bf297a03f9752f02795f4103c9021f01055e5701490daf018d30be001ab17c004d79e80175a8c903a5c1a50184298201b065e10264f93801f7168f014b4bab003e080900048dd500b4447f025e47fa00a729b102104e10036bb048012fa90f03566753014d4b2e012bc274,
  0x2cfca303271fb3009c8e8b03175bfe03a240d8028a407802a65ab20066efec0277cc8d019b4e490029ab3600194a80030c690102a690dd036018d1033237c502e6ba12021a9ee901e8eba701d456e2001d1ad500160da9004995f8014828990173228c03171a0500c88c0e034a22a403e1793301b33e3b,
  0x3f80c400e063870294bec001192b26004e11f0031a74a0001276f903d1808e0191b71203f3cf3100210ca00104ddb50069a7d5028cc9b4015113040003deb7026815d801210f32038dbf6d0241d429001c161c026ec49d0339f49e033166470382831e024fc956002fadfb02f6584e01e5e5f2005dc00b,
  0x1dc6bb024fff5e01f7aae003edf3a102ba68f1032017ef02a6c81403059b6a03c15e810365e277002739b8017954d202aa348502ca783d031d94eb020728ac0359949e03a672cd00380465027581f50030b4d5008acc5501db0269023929b300b5f3bd012c3204027c3c6403aae0ae0227db29034e1f6e,
  0xed74f001ff07501144919001daf7703ddc316019ee1a402b5a4730183b00f0188db3a036936b700116f48020de85a0049e47c033497cf036fa18a00cff20f00399a93005a5f7a02e9e5490313ad76003eb84100c0315403381ac903496377018d714101a265a600ec77ae03c1127b024755400339dc40,
  0x40b0703093d4c01dbb00000534268027e8a2b03d847e302cd738503fb262f00d04fdf006973400030660000a7e8000206d12f033a510c033d5cc20323a6de01feb6d50127a16802e3217202d202e0002c3116038d99930209984c00ad22b6034e529001b48ad402a1b5910312eadf0019b058033bd7bd,
  0x375fb7032df4ad00ccdd0402ead82101dc93b30046f23302e1c24601fa6cee00edb359037ec76800354299008b269f01e91b2102e8b0f602063529036abf140067ebeb012487320380a1ec003e781400006f71008057b10254b6b402840ae50173376a01d8af960323536e010b066800725be7028aa5e1,
  0x337e4201c71ed60387ec3e0231601f02fa12ba0367686c007a217503cb36ff0171fd6c02a6c62c0018ce6100e076750310fa5b007b73ca01f12a0001c2d35d023160c1014a5f120388603f038f58bf002f622f0397208000e2739300d442680126f51701741ba500b59d2e01b768b601b38cf3036418f8,
  0xc48be00c20470035650400057a41803398f790006e99f01e985ae0186e98c00e20cee0379cd410032676a02a81c4101d0276801c158da03d9743303d879bb02b969ad02c477a7010a642600588f5300044a8700b475080016918000df1f610183b49b03cee04e03b52e1b0295652803fb7ab600fa9142,
  0x248dff0273d73d036dd99b0053848e028ec05001b7e711029f3ccb03205a0203138ce703132fde0024192a01f4cc460027608c02e2235300bc9b4501cfe5bd03f9934c02225ed00001c014007e9106003b7b4d035958f3012c4c3201efe1d601824f5103a1398402944db100f4e58f01bb3f0c00f0b9bd,
  0xc0f8b0349800c00c5c70a0191430c0085181703ae6f2f035155bd0017cde600a3d6a20310664b0021010701bb431500a2d92401d0466e0064321500dca64403b0ba4202c3f87203ef6bb3003dedcc00303f6f010997b9032e5c2102d9e66f0173ef470342fed203604888011ad2860005435503d9b7a0,
  0x1768840248c641022349f002edb5c803ea8b2300e5770b00298fb403941285025c620c01f016e70004559600a8886200df24c601f4863b03ced2ee01db768f01f0e688003acbea0084f53e0264cb390005970d03ecb5ce01ab45cf03fdd4c6031bab70026e28fa020b8eb601a00600027eff6d01062a62,
  0x54bc900206e45022e40a200445aff01b516e602860c4002b65397024cbce8038d898f01793e84000f1ab103906fd0026f78920068a68502a083ce038911e803c095ab02b4de020287959402ac543c0009e60900e1b73702dae5ab00c107da0288fb61007609af03d25821000953710070ec9300343e95,
  0x2f118903a52a6c0302d79902eda52001957c9d00395cc400a9666f022e39dd032f941802b5e33e000640dc03d5a4e600e80501034f878801a53ca801eeaa1503e5fcde02f2504f00439c200158708d0002796201c94cdd018815670295bc120219e0c9031355770083585b037dd46c0166f8a60348eaca,
  0x205f29022cf67d017cabf7005cd946012951ec03d957b80061e1680130afc00059924501ed5e38000de9e50130470603197fc3011080cb00c3f93b01b598a500dd3615008e72db03b5238f003943ce000620e30278e8be022bed9f039d16aa03fc81810014d09702885d1b030fcd4701463b01024fe098,
  0x338673002a634e004edec4026bbf2f032505f70379ced7015e70b402d6dfe600a93346009c057b003fa27d00b528550289646e0175659402ae3dd7023ad94e008cecc802ac1f7c0210ab5e03ad34430029094f026d12d002fd540701931840028ae616003c8bdd021d9f1f00cf502701d23a5401b366d6,
  0x7250f02e594770387935c03900945033b021d038183df018594dc00e6103d02b24a26024ed59c0012837700b173ae028e8fd002a7447101b8a65a0270fe5401bf9aab03dd464002a43289008346600000f7800059ee7f023fd3300089f4d302b258f6026cc17500c4ee190105e40500a2d24f0342abfb,
  0x32ef8a008c5055009d287f00a72b0f00d0ac8400137b0403e0e0cc00226fa4003f007600bb9c6e003cf80a02321f30017a484b0193b85e0377aaa2011d52f3006b3bbe00bbd818035fb32f03b0f4fd001fe35600250a1b0163747300a00d00027c83230392530503a40009027a5a2602d74c1a01ba3840,
  0x34da7004204770111c7400268507902f9698e0148a9d5013a89af0138b91e039efbb4036c078800359d9502ecf56203b2a0d90043fbcd00f9748802eb2d370045321c016ec3da03ab143f0093a1c9000de15f01cab05902f1def5020b1e9e00150219028936ed001ce56100db9521015bd18e02ac6787,
  0x32ee00002ca16f01141a7b031ba1e9019d7417000b7c8300994ef503cdfe3e01671e0001e3944300078d3801c30f3d017b7c41009df44502bd794100759deb01fb082e02334a8202bbfbce0132c33c003eabdb001f36200184229a01097a3e03bd3a8d0120bed203e36a7e0291b07e0185347d0206b681,
  0x153b22031a210803431f46024dfc2a012acc0002164aeb00b8552303e4a6d103be2eb101161579002d2a270309301a02c033a10330e9080253e95c01a9878701b0440f00c24bbb02b61d9402817d4e001ab76101d003c502b160580240a1b5015fc2d001aaaa2b001402a20366aaef0072709203d1b27a,
  0x5365800cb181102ba312c00bd7a720118438e00b3ee25002d357a02ce0b34024cc2c403ce3adb0004c77903de4ce70345d745000d353d00864a7d021b458b025354370154f55a028b87b900da655f0038dc39031cbd5203637a520177a65400b5054a00ec033f008f9ab1030930be02a586dc00df976f,
  0xa1986022d5d5b01aa8af701513e5f01f7301602a6644702a3523000c0ad0602666fd003af5590003cb41501621a0a00e494ad034eb1a001ca34bb009625cc03a3129200c305ab008a4c7401b1af30000c6924023e73b500c3d475029be1a903cfbbca01881f9c01a7290f0012265601b533f503ad7eaf,
  0x17ab4301a0f565023b194300b956f302f98c370216269b010a76df01bcc599022761ed03f2c0f50018b07700973d52007baf1c03def84b01de04110002a73d022672ad038c31c103034ed9034cf6b60021a58400e387c0010232020288a9f40069085b00678876033e50c20102806b00174ae0007566b5,
  0x21f9ca01bd5a14005d51ea0145a7a8037f7bba0254533902b647f10015ca50000da39b017dd01a002133d800cedc7a02e5e324035192e400da8418037a28f902e17d15011e8f0b005b082401d8692a0000dd6b004b3ba6013c1cf5009b5d5e03d5bbd800d945b200ddf58e0201d02503afaab2033d2ea6,
  0x313a82022e66ed0167d96502d9dcae0281d1e001c9da3101c518be03cb6ea702a232880163a52f0011dc5903bfb55b01e4af5a02bff97d02ee3b4b03676f8700a35fab03daa14401dab2820271c4d30030f13303eac58b011a94aa02f9afa702a539f303f2a22f01a65a9103a9243903daff570119dfcf,
  0x26944a0140f1330046da7601bf302c03c77005039e70c603def5e700647eae0051022702ff1853000ebb4401db3737022bebe7030917cb03fe386e003d072503d69913007a13000128fc4a00651e3e003674000390736601eb26b6018854ee03ecf18700a1105c03e11a6700987811028c5ea200c9c52b,
  0x13564500b98bea03a5b617037c76450033280e01d8f9fe032132f201967f9301165c8001d74e3d002de464006ecbd803672b3201c122b5021a94a5011565bf0088463e012e01ca01683108013c1493003748ec00588c2403290e2b03f97b2701c4771200e2cd720192b20a00339a28004c1b1203bc621e,
  0x3ca33d034d47d602e26f7e0147d93501fccc9d02817f9e011ca9520140387e00587e780372fd2a0007204201f084b40049efdf017c4b8e01935aaa0361b2c402e430c7020cd7c502aa93fc00b27186001af3ca0216ed9103fe2d2301859029011d75f00084c123035c3d89028c4ae4025c61c4021b2dc2,
  0x21adce00986e52039a952c03e78b2102bab57e03d0865d00c1f1f2028987b101378dbb00d7bbb0002c2e510058ccfb00e0df51026af69001f13c170137443a02ae7d880060b2a0016344fb027089bd0033c8b6024571b3029ea56703dbaf7802c0c13b004969ff01a7022702bc16b500118a7002f02bdc,
  0x1a254200aac97a01aa115e028e35d1001511560393968a0324ebad01c2ee2600bdfa6102f4603d00025211002fe21a03a92d72019ff6d8029d2a480197f27e036fa04602e0a191032221a600f6293700047da2023529ce026fbddb002020bf011b5f3200a57e6200eddaa8002e5f990074e15503af568c,
  0x26ea3603eaf2e001d0698a01c5a37502e1311301cccbf100d4755803dfd26c01870b500267ecb7000dcf8700dabf7400bda23a02224d1b0326c94b02a7cfcb018537ff00809aca00a503cf007b1acb002e257c0086b34d03e55f140234b5b2005d3e4601621ddb02578735001047e50037cba3005c2255,
  0x19ba770151e9020183895600bc30c6004408ec00eb9719030b91a603e1ff1702a5e3190051f043002f30e602aa488201fbba01000adf3800e367520097751e011181830262c392014e45c70240b7a9001465fe0173372d003cf632026cb3e1000cebe300f8fb68010c9579028f3dd40255208b000ace74,
  0x2d769700a1888e00b521480362b4d903772bc2014ff85e0141222e0294a28a02a322e1027e3f3d000c4732002ed1c603a5890802feeec7030cf46400709a7001eb5b9f016ed507013c1b16025f9b7f000b747203e0d45e02ab9bc30010e1c102e2133c00e66ab603ecdc3802bbc71202949d1b03a585f0,
  0x7e57d01f73e8100cf5f6c03e623630357dac100a56504022b6baa01fe01e600d8e9a60122a3c60035b3e001a77e200202e3f403284c6b015fc7040006551b008a7161023c30f500beb4d7033bb22b00083d1c003abb5d003231b501e05dc60289e7ca0143fdfa0268c54a01656bc602e5f21600ea6c3b,
  0x1c6f43039a99cc0332d30c01b51a5500efc10c0321d2c903e6d490009e290503b39917012656b90017f8450057bc2903ede1b903f4777302ec666c022e0da201c3c97901092575007c435702d6430f0034918a03a774f9002dfae6033e063902dc0391003bf5dd0028d65f0252301203ac01c301a86c72,
  0x1d8db5030ca39001dfc663014e821e0195777300ed4a5a017954940034d7230073fdb00199f363003520d900dcc0ed02d272dc0107c49f039bc8ec03815d2a030a1e0f02ee452601fb7e1503a2b59a0002cbea03774c97035e496e028899b703874e9e0004e49e03c711ff0146247e007356e803a6d353,
  0x999000245ec23012e00e700c46fa803e0004b0187f8a80230ee480124f51d02e6304e01dbc83c0031931a01182e24019bdac303bc48b9004aee8a0347dfd6004e8984008564df03eebc90004e95570004c903019b609501fec78d024563e201d03a16010eb260034e18b50197ab7203644d4702fc4290,
  0x1a529003d6a12d01c3fc5500d07ac70070483202dfd4ef0107987d0258ab49003d959e0219c3d1001550660134fdef0062b21c017340c901762cbc0156aa26008f364e00dab2b401df33fc0390f5be002d9cfc01aab78d013025ed028a19da001372bf013d12a501da05ac03b90b0900a8013e02439253,
  0xe8d103fd1511029d1aef0377f78b00a1963a036a44aa03bb5dc30057cc9000715bf80221156f0003345103f29a61016b9c6f01e368790043eeff0341767901afec0900a4f70a00ace84000e3d17e00374a3c00caf3ac0200f987035e16d0008246c80295494b00e3500f02535a9c0241106e023b9af3,
  0x37b64501b2d55100532175003f5ea1020614df00381032010be2560294d2c50314523000187ee40025cab601d15ead0232f40d0081615c009aa72d0051020d03f2033f015bff610164d32a025265f3003efb8a033f7a1101e3b2b401906ea902187467018df7f702b4c42c030c21ee03c461b7039cb2ea,
  0x12903600fbfcc40340c419000955630046995e02909bad0211ad2f00e853dd02e56ae000bb884c00308a4d02dfa094021ecc3401bccdf103fb7e38035e540d02266fc2008a85ac019fa02301508960000aa4f800a3776802e6e6c40072c34202a96e0603d66a0c005475a501a12ce001ef64890105496f,
  0x247c9502b89b95002bc1a603a063500145383903ad0fc901ddd83a022c4fc60076c277017c55d900026d2401814af000fb6f5902f3f39a01ffc371038d095902ec9b0101cb089000909439016e71000000341301ac90ed00d1e5620323bf2202214ee00001646300ca44fb0151bda201d82a5e001a8b6f,
  0xa630703c1a6a002adee4902020771028fd546007903330272e1ca0352c2f901afed9202a2a19a0027fec0025d677702931a350218295401ed5036002fc83503af05c60360776b006b59c200c6cb09003675fa03aa003700d5cd2b0193581b00874de303b0a6ef0248d0890333328d00eea2a801a692b4,
  0x59b7e0143f42803358a3b026c29ed038a24a4032acaaa00a2de0503211cef014a0ad602797f920019dd3803d2948d026a036e03d13d140279d7700030890e03e4542701812d8b01a5d75700b56cc1000dbbdd00b01885017403a701224e7600819d3e016b73a00102eb1500b7aee102833fcf00134553,
  0x810f401da02ed01d48be50231f32f01ad256a00af1e1f0085910503ae7ee701823e1700d1bdd100094e1903d56820012bd3f103809a76011b6726007fbc38018e1a300336ecd101823d7400f914260019c763018990dc00894dbc012fc6150355bfb303e0c27e0081a7f9038a0039033c2721021d6b60,
  0x182af0199ab1102112c420159fa3e01cb25db018ab492027ee9fc0344801b01dfd46000a17fc00019686702b6119b039a667a006a3d3103f7f3d7014b82f602f2eda103b7bbf7037abf16038998810038598b0339d72c01ef993c01699b4b03c4d62b03cac0f103fa423603209ad40189a7f1024eee54,
  0x28508d01c803f902d47d4f003ebc6801e3adea0073066501192869023f58bc017517ea0030c02e00395f7a0149a0e001c617bf012bfee200adca8e0344441d039964da0167154500e227e30052215b00356b300380d1e0005ccdd5028cbf1603851789029b3f7d005b923102721788022101ff03be67a3,
  0x71ac00234bf410163312700d0f65002ee257500c0852e00e517290327840d028e0cfc006757ee00154cb0034a961400049d340269596501e743e10073ff4a02c165d4001ddaf102a32997032bde7800126b1600f8af7302d0a5b100ca67bc03645643003410fd0096ca4b0375469403e3bc550304fdab,
  0x2ea91101b911ec02565bcd02f0b9c0037b576d02fd151b02893c3800734a8900562a6201450519002abf28006ad98601d5ed41010841510152af65027cfeb4011c4c9d0022a6d002c0cf5c01a55ee00033483400bd6a8a02523e570006e21300e4eb7503eef2a10397827600c3fc6203f70cd9001f274c,
  0xb14bb01e6295f02739f4401c916a501c5208f010347f403b9961900c8058103ab53090257c0ad001bc15101d8a7ca01679d2d020eb2b00257cd8500ca136701964cb601a178dc03972bc50262f48a001c053b0368a84800170cc101d42b4101b08c8300ecd6cf002b6b9603f9ed6902fae78e03cbe0b6,
  0x360e4f029e9d7d02410f50008557aa0277d0bb0274e98a010a28b60286e6c703c19af402d193d60032a3f8037cd11202a58f0d0335b3740368571802e726dd03019efa01696cd800068e060173ee2a000fb1060104814c00d372fe0016bde703c6ba0402876ca100be56790225230d023f9dba0037a536,
  0x103eae018db76903dbe5a903fb7d5c019d4766034ffff600654aa503e0ce1a03742338008c52c2001c88450108b92e02aaaeaf0397d4a60345ad4801822a310183e8860091a10f03c75cf60194ecec002e2d8d03bca3ee025a953e01a85ae60347614d02c3a09c03a8a8dd037f986403f0b272012a993b,
  0x35e251036d78520334f65d028ce5eb01ae3c4a03705810008df1e6003b351a03a49a3a0094506f001f06f3006f285c01bf01c903fc3c1c00a0340902c2a7610094cfdf01e04fec030e0a86014840cf001e1f2603647dcb0287b020016dc0200218dba7004c83120096c274036481d10028b2a100b57b41,
  0x15491f03463a720067693b0300ae460257fc5a030cfabe01b6ac4c03f0963300af0b5e02faae9f0006998d0392ec4b014c0d2a02fa8317033ea1b2037bf8b800f6b079036a51850038729a029faa8b0014969700b7a2dc02a5f9860390fa7502613dd802295f0703a841c4025c3b85004ebacf006fcb32,
  0x148697026fa63b0394f01e000a0475036ba7cb01413d18033967eb00aa235b0115b64701dcde190006b0e102bfe392000b5e70024b6d5a01e925fc02ebd7b40257d8820262d8c501d0f88901ac489f002dfe3700cbaa8c0150d04102b4f6e102fe94e2024e818502555c3e02723ae9005fffaf03bcd6a9,
  0xd745b011bf01c023ed1f600e02e1901ae064603fe16ba00af1b5102958551026bf4ad002b57a9003060710057c933024e552a01c34d940332b2a70075db1f02d63d770176df39031e43b300da371d001ab847017134a001830e7e02762804019019b701e9a7c60356f0470078f0e5030f357f029bfa17,
  0x2c0ecf0022d0ee02b490d401e84593007e51b003dd3b6500ecc2a002c49d5101485d2702c6f1c2003c4b2100706e3b02a1142702654323034d02aa002813fa0345f137007dd1230306fe2e0174c9dd001e683e03b023f101d2144902f04b4203e9d5f503b28df700f6408f01530668010d950c01284e9d,
  0x68e1402911a5300e920df0111461f0079673b019d659002cf93370299a8c8013d255402841d68003eaa10008297f900e33457011c0e5a023e680e02cf52fe037c7a3e028595b9004db34e01a9eac6000b42ce02e0c604027547e3024c2dff015715c500f6374100faebcd0160178602a63f00030a8814,
  0x37494701c062e3024e4366035cd713035a14470022f6a00355729d03fccc9403d1a4bb011a050b00131e80006598f803fa27bb018667830276e5320041b2ec036301b902ab062a008a9944022e92470030f66302d73de10080b245008da1b602c8a11803e2919c013f2f9503c049ed03c3594a031bd3fb,
  0x10d01d03f4dce200108c6e03bdfeae03d9e957036a75e0027238b502cbe5470074e3b5006636bf0025e95d014bed5500419143025c2df70340f73b019dc47b00547390006f356f0393e96c0225723b001bc0c1006f77ec009618f601f463c30093ca2a004fd6f700973267018e2feb03ee1654007eeb70,
  0x1326a2031c21b8006582960311d0330176f3ff01668dfa0233b4e500387125028f74c80067a643002dfcba037f8794015f998100e8c7120189bb7301c7ceac02e8f2b702ce0752022f995102cdb28c0028aa060263a7b503291880023e3c19031e3ab10154faf00324d329026be77c03485f160039e92f,
  0x2d72201dc5096013b32d600d93cc10384f12d01e3685a010d03cd01e90ef70194014c018747f400067533027a8b67004d8e5a02e87e85001cad95012139f8023b6ac90238b07d039714c4033804d80000bd360094fdda009c3901016218f600a3c4090316e70a0228c18102fd9bfc00f00a4f0040e294,
  0x204f13009c4b970199e20e004f3351025ba2a9005f6f8e012517f00156fa580344ede1026b1b250034a678003700cd03911bd5025835360373d49903f585af0208a22400ff68a601774f4e0257ec340022da71006d28e400e96cb30197e4f203b7e9cb020a8316020705a1007d100e0381083600fc3474,
  0x2f90b301869d5902a756cd03fec50f013b7eb701e6f88a01e57a59021608cf0288e08b02b3690c0035292e00deb72b01f47f4d028b83c102613f240348242a026a30bd0031666d007112830265ef780010fa740100a7b2012bc3170129def901066bb4034c0ba000ff70c602015cd903e40dcc02eccf5d,
  0xc623004657ba010e7c1703a71a800090313c0268135b022fa6f403859dcb012a0f74004f50e9002486120016be6e03f9ac9a025c58520078a6e201e3cd49007ad0600197aafc02e0f05c01ae7bb00038837b0023585501c9286100b179aa0311431301e1e37f00a0876203f5dbb9018ea5f600cb7194,
  0x1f14f3012e285b0140b929007e12a503b3d89e03eb0a2d03d9cc03008014aa0342247500377dfd000a742e0104256101b1ae87030382c501136f0e02e289e90341fdcc016ce8a90180a60001a85c0e002c1eb903457c00025770a702cd982d01b50b5702e8e0a603619d460178ff490141940603e720aa,
  0x167d490102e42e03e931800083883f034500b5036671bc001189cf03c370ff01046e6e01cf6ba000367dfb03aceb7200627ef30259086903dcffac023f10910050b31e0175c04001a35fa300ed31c900121979038f3de60289f963031dfde802e6e50801ad1fb2037e870603a55cdc0101b23803bfb0da,
  0x28922f034c6b3b00422ebb0313b2cc028a9cb8011a373202711654022150ed022ed8bb0234d8a3000f8d6503330907021dd2e70327aca8003819ba00ca2bcf02abd78200024a8a003ec5670380d9b4001f4aeb035795fe002cbc5501848429035a341003d4d2c401cf677f03ceb5d403da55890240bafa,
  0x2783bf037a4c4b02381eeb01525a6d02b1c315002b8bfb00657f49020940bf02fee4d301adcd86002d457d01a146950359a9ab005435fd02a9605e014c69f400261c8c014f972a023f6cb603a70f08002f97a102f4e22501d8a497031af4d10386223402d5d2ad03b764aa01cfb25202d2008601e8bf09,
  0x23c471038704730395a5ae03784e76022e07e702b6e3630399e5b600285c5a01d83a4f0129485d001fe5fc02f073600198d4dd016f5ffd0282bce400ae1e1201cf6ec60328a7a102dce1b500df850b0023dfa5025485d6021f8a91022f979102d6d6730319a1e10118d8820241961c014a658203ae714d,
  0x39ed7e015bb8f201889f8800c2d54203ae15a201a6b6890358d96b00b3f64b0102fa1302bab9e2000b4433009e04300350303002a1850c011bec170317877e015b52b50232c735030cd2af03f5168f002159be03f6a3c9019f0822015b82f701b979b902713708026489b501910a6c000ed4b903dc5355,
  0x3cfd6b013052fb028657c80120456e0263744e018588fd01840ed00292045403a535440143a95300035b2003326ee1001bb67c0018b4cf00b3570e03a4d3e6012662d9027f7c4d0185fa3903ce4831001f450103c6205701a69af10337fb5d02006e720188225d03ae2a1302ccb61c02cfa42f015c43fa,
  0x39ef7603506f0702c3204202317a6003ad188003e768f202ea13690281dd8d02c2164502fa49c80038c7c402a73f36008deb2f030c7c7002f7ea710078747c01bee28f03bc1e680168823300f901d4003545ea0092623b02dae8d600fb093b0357c105031a51ac03b7cf120120edec02a0d947028c2716,
  0xc628e0359f42602a977c801488f98008516e3002b8150033d5751014b1ca70312f6f103e7136c003a9dca01922cff0247a77f02ca4ad90394afdf008b7e3c031c9ddd015f772903a48dd703b769ef0027a753014967d7003b87c000934dd103652b16024181c20056510400d8a83d02d66683000afda0,
  0x10cde40030a7ad02a9368500bc1b8602dbcaed032fa4df0207e6350344ec5400a6889e03f8db8a002038c9028b3c750399ab2601592f9a0085a8e5037ca48401d10d3a02f0d7b2001a6ac30376cc63002e09a3030a1adc0149b194014ecef103912efa03b0c2f103c4c0d1036648ae02971e7301022ab5,
  0x3e90220252d05d0163748900afa8e401898d9703735d040220bf5602c148e200fb523a029152a700164ce90048a0d403fa4e5c00376d4301dc620100d2d22f0102f45c0201efae028053f703a928fe0022791b00ebb19103bae641021adb580082e0d902d3a06301c9956401af088003357c7f03308fce,
  0x1039d1017ef7c6025fdedc022229430293eae0029e7706024da5de004bb41601a7a475024543a20023ef4902b73530026c51d000a57860026915560282b85d039a551c01de83a401d3b57a031392690018a22e03c93d28038c6c5401da2668034ca5d70125438c009387e301205dba00e6267f003ba8c3,
  0x318ce402fda3770083bed703b8ee0b00e9b5e500e55ade030e4e360400171200d82ef9007c7c3700244b0a001d1a2a035a83f002a9441201a671c603bac6bc0243591e000ebba60354df980218df0d002dad5102a8087601aef68c034d220c018fdfcc03440b0e003b6e4701d3e77b0268b28102188aa4,
  0x3713ba035daf2d025244c20399368400c383ad01e03e8c03a391eb03c5aa3a01081c9c00db9f6600147d0902acfb7400dc59bd03372681008b74e203c8be470042cb9403d7fc52033f77430012646b00034f6a031250b900d19fa7020e21330051af8700be48cd0260c44e00853d150021cbae01c971b9,
  0x23dfe50050df220079e13d00a4718001b4748e0171808700fc92a80289f1f0010ed65402d0929100394c7a023ed0e40180f9f301c1d74302685ee301f38cca00b849cf00757ae90264ee36024e33d8002bf11900fc633f037f57dd032c4ac202c1a63a01e9561e035d8902029835e800325d2e02fef2f5,
  0x12a45703b5bbe903f9490b0007ea3e00cc2b4a016e8b1b02bea5cf02a096620209c50502c96615003e88e201771548037330a8008ef8d70373d25502550697017129260297fc030252fb58039cf5bc0006aa7803f5b1380388948e021f189800a3f32702c07ac303cecc0d0152f08e01432a4502cdfa2b,
  0x1c82550149e08002f146320256cca203ebf63f008cf41a009cf95500b7c7f5030f3d91021c59a1001c97a301fcbd8c03ed4498008d1e3f01c2b5dd032a3f3b032f23cf027a3569004346880227514800153e9601187c08032366950356806001cb9b6702d850bd0037e5e500d66f030105500b027be1da,
  0x28aa2e03554c9c03ffa30b02b16cba007e635302f7082c03d59c20001aeec90291611a02c947be0035a08f02844532017f52af01802ba900efd35e0379079500b3354d009aefd8026fd7e000f77eec003286d301907aca02b4d85b010e593d01152da201aa75610151324e021943ee0233d22c025eb237,
  0x3826900054be1e00e4846e02d84a3103964e6202629f9b024f42b503394d7e029a04ac03cda47f002a4e62024a46090293376e0254a670008e73bd02ce7bdf021f39e003766fef009f6255028d3211003f094c01920a9c0323315b031cca7b00872caa003af9bf00ff264e01621e4802f4e83a03567139,
  0x6c3e801db37ae0282ecb3027499b203727b5000c9fe4e02cbcb8503f4d796002b081a02f58576002f2e30026b600503e147e400b35289006b78f70358b15101dc4b68026706d500a1d8ee026f55e5001d551e02e48eef036304bc03169b350004c69b006d11de00ee33cc02db4c0f03de7c6b00465279,
  0x159dcf02792a2a00d3ca3a01be2a2600b5d93203d8a51001e60b5d00780b9803fbcd1c00bf58e3001eb5d3015a425d0110616103206fbc005b49b803c65eeb023459b80367a212029fafed00be159000382aba03b4c40d03ab406901b8438502ec332203ff43b303beccf502ebcd820384723200e7baa1,
  0x916ee008ee75700b037c800326f220340446a01babb11003fb357011a5f96027a7ca8038948bb00270e5b02001ca9012adb0e00ac48850013018b039d5a9e01bb71a6024ceef60120e94b031e20b0001965ab0130d46002ea0954035b230203554a5003d4730b014b0423038f288501b4b4df00fcaf71,
  0x3a1de802b7955603a8271f032a7c9302cc486100858d2d007f271600abaf86002382ab005899bd0023a28101f7d44a01b167c3033876f301f9a6f2006cd41c023d316001f118c00023ab250310c4650026670603afaed8011e17f0021ae4ef02b432a502d1c44e00a9b2dc005bc14c018c84cc006c3721,
  0xfe40300206963006684e30083133d00c3d331005c8ebd01a4169e00e60748035460a40291e28500167602020e15b702e89f5d00bda21700628256003af1a600a777a501dc73930149ff24013bd9f40038b4c1012e20f003938d6d03d41caf03e474480037fd0d0397c2c202194d3d002b9b53036939c5,
  0x1ff95203830a3802d8fc3f03dcb3ff0166ad42006fc9d301192d54022aa1870341b1c90038a27d0037b6ea0371dc2c007fb24c01b8256800c47e77034e3bec00677cd8038de2e803801f030337a7460022a8fb01296efc039fb997034412c902a35d1f03ba16da0018d20003e5f7f901e0cf4b011d03ec,
  0x3443f501df6bea03ee236202e4156b00cf32e10035e47a02b5e0ac02c237d80180e034026523c40029ff74030d2b6b03ae347b0302e32001fca4df00d00ea10009f6bb008d7729029bcc4c036637ed002c2c61037593d500a4ec2200d53caa03d99761028fd5e70178f35a01c6c8c802b5433d01e3cd6e,
  0x2d2b5800927ba101d988160197536a0316f366011d0a91029900ad00b5ae3302e0e16c020a4180001b0e4c022e56130079339201c2680000731bc800121bc201aad7be0105184a024321cf03865ece0011f328036ce70f010d75c60111a46200536909031339b70177a437013f79b7016cf3c703326ba3,
  0x38f5f70092dad9025d37df031aa78a001ea51d03d0425a00741c570396224203587957021b4782000d08a30079a31803884ee5010675cb035f72300080672d037ba893013ed68a00956401011d3f1600372e2f00330b4702f3f6a4008ddebc0170afbd00648a270071808f032fb0d303dd1364007e9b5e,
  0x16e64300140a100182d4f400eec6a3032da3bd036b57a202647f68007759c101f773870298df54001b278803f9c14803fdf340005d3e9e031b107300f714a0021e7fae036512d001ac32b40384e5f000093b30027a282703f2aec703d1f95401e3cd89033ac5b8009f93640204d0e7010cc14a035cc6f5,
  0x3bee4a02b101c900de12fc01ca15250194bdbf018f53de002ffce802870e19016765f802de9346003eb875022b5cdb00f3604c037887ad027ec4f70087d1d901e3e6c9013c1d620324c4840110cfa10002d4150292de5c015eb24701b24a1d0060094f0079b3a9001bebc901954a7e01c690f6003c4e62,
  0x1f58460340e4b00149519102f9cca20055d25a023927dd03be99a702ac8cdc00a0903d025f73c90008c837018bdac201b31073001dd3220014285503bc1d67025fad2302a7848b021ac0f402778135002eb2ab028b4ee0011fcf7a034b284503301463035a6365023653cb016240ed0314cbea0132e8de,
  0x10a9700a76504015f197400409d2d029bed7202ed7acd03ec35ba00762cf3032d85fb02f609a200072100030ff0ad02a7407a00d3809c00060f580055be39030ada56024d6ca50109f4ee01bf0e86001b060c01d0d95202a70274014997bd02c62bc3038d57a0011f0ff402ee6b8f00c4338d01e2910f,
  0x128c92027151ef0381472802c303d000334ed1021cfe00026cbcd9038f3ec90293cd9f00d30255002d669e01e5946202b2c02b03d4b69c00ae361a01f59932020c384703e8a3920090669f02263a4a00128abd01a7c26f00d11f160377d35a0353dc2f01b2d5cb02b93d9e01af446a01ac709c00c5b8c3,
  0x4c468017f379c03124134019a2c7701af9cb6035a359b03591b3400690cfe03ecc2ba02f9a57900386a71005c13dc010f123200631c850369aaba028c1e0c03029f6003e9fa5300893f6b0182e343003e67510005f96a035fdc82007147ef031f8fec02c9026603215abd00079e53032ab8f500d21b87,
  0x2ac9bb01d48d7e00b69f3a02740db501fca3e403e22a3501e8ea2f00501ae100913b94019bc3110024add1007ce97102c6d97802fc296400d1b0c60293faf301598ded02f59cc7039af94800618cf9000640ea03dce43f03e461850330baed0031bb3303e179fd01ab2db50160782b002f834e01e1f0f6,
  0x2b3a900d7d2b6023b15c300d762f6027e197b01d171f10113b662014d0fae03234d140343b9e3002b7783023b71de037a756300504b4d016674eb021e8bdd0377005200fcce760130ceb502e012e4000c891d015f1f0a03fbf0830330d0f1018cf23d0174dd43015d4a08026935260305ba3e02b3d1d5,
  0x34d15a03af90e4004edde0004f387f020ccfc3024fef3100e481fc03444290024d9660031b06370032661203fc7344024372eb003418ff03d9bcc20281252d01bc1083023c140a002c59020308940f003e232a029f81c302cf7bf7025613e50236eb9a00cb9b7a00ec134d02bebeee03c0e66900abb57c,
  0x2d17e101a32c460138a1f0028bcac900025843021feb9b038691e10245c1f802e79df600cada3a0036501a0383c74701c274d80295b7820322fd1401136f2f00a49d8e01bbe77403154e5902640a6e000a6b5601fc90fa0225318f039e07540030944a01253e3602b5f1ae013f217c037f173900014b4c,
  0x1d6d96033e5ddd00bfb76c013e9b2202d2bee503c3e29e01a1011902e6704f0121d8f00314deb700272b1e00b763c50086067401d865e102521a900208321f0066327c0226a02500dc4351038f8fce0014981d012b973802ba4826032e3334033846cc0193c7410353c3ee03919fef0085063e030a1fa3,
  0x11ce15020ad113023d75370071b743009507490000f1830130a86803bbed8c00b92dcb0083f25e0022bd9f02b7840700cd711203dbbc8d01ba12a60012425200e810ea02787e6700b375c1016b2fa4002bee4702a6af170195701e004624a300996fe901f7f8ca03f61a7b023a972403c2d7c9022f276f,
  0x3899ec0114bec8007eeb22004e40ee0259ae6d0293ace8018f225402d3c6d70349c855009f2c920025b386035927fb028203db0005f603013f3db500b7c4e901008ca7008fd518022067d502381877003d05250372275203c39d350328a3cc03926c9201e78e8f032299e00149f46503b03e5a01d4c815,
  0x84550035df77600433fdd0114e8cd007c60140347167f0084da7e02525322005cab55030a0b720007289a0147302400f808da03c8801b01c703470154893a000412ea03c863d3026f5cb903a5882b0028a8d003d5bfa201ce8bb6035c2c8200e599ba0260f9a000c79de902c33c040173c0c80148f9f6,
  0x276b7a00aa8f1f00f1a5f502bb5b35022b414e00931dd90237785e00cc61af005770b2027a2bca001a07d90045d79b00d979a402d0da47026aa20c0053ffdd03ed6f74036a27560024145e015acf0b00364a500211861503f951a9018e0f8b011934ca027f7c6d001ea68e013fbde50023a0a803874968,
  0x1b8bc90309c31f031341f7026400a403e29af901b43641004bc33f02b898e701311897005b0015003fb636027c88c9037cc58503d51afd02726277009a2b53009e8e8c01505c6701cad24b0036b9de0011f63e036cf68703aa9a40021d98e1027c1a6303abc50f025bfa9d02b22e330041135f00b78388,
  0x2585902ae73970211085f00cb31630326c24d023b670700de4c0e0386a82b002b6d640326fb42003e582600443ac20055f29100322ce703f1400d0275ff3e01b41369006ec56703a9634a03b01534002fe0b900f6b94100c2f8ba0099bd8c03df9d62035406d4018f651b02e0cced03d76bfc003db50a,
  0xcc30500c156b10170bb2c00036c240242258602878b0000e7713901e1fe840095b04900594e93003518d80330bb1f018273bd016eaf4d00a6f8bb0324b0e1011f58e7034d4ed10042bcd402c9928a0016d628005017d30268d66a01d2ea9001bf8b2d000c46f70017742c0192d5c403c2553b008d31af,
  0x3b8698002de29c028c934401d4ac7f03438ef703c30c25030ceb0100a191df01e788cf0270d217000ecf54013bd130016e66820256fe230201116903afffa302e52fbe01aef5de0228152d0044f497000ddf690040d4f900bf123e000c578a022442dc014c556c0254876700a258fd02e9856803b00d6a,
  0x38aeff01c96a330170d0cc021d85b80045714b02118bb302eab0d300e622fc01cddb9300d648b50017eb4000a084e2005ac3030113bb1500035d5d02e948ed011f888401477399004204d9012a24bd00080acc036b01e501d19908013263950072a641003eff5a022bd43d009b66b402d7fc9e016ead52,
  0x98573015f6b6e02dfde44036373d7002115c9030dfe76017c2099029fd0ba010f74310167a6950039dcb700e66bc500467b56038b2357017f8c080036bad3025fa1fb0341dac20191da04010260600000c17f037ca25701f1fdf0034e3a78018c80c702544177032d53030199417800b9dc06038e331f,
  0x1bf704002bf4320372a43a002cca03036c29e200a8550a00e6bdb4031c579301e87cae002a6e9c001cd6a20232654d017b1ad5034bcf6a035ad3bd003465f103d43920023f992c00dd5c6901ca4f210010c36c007823f701fa4c5202f7b86e02024935020534e20258ff39016196b203237e6901bef36e,
  0x38e0210392cc350196e67f01686bdb03b574410370bf4d02c2415b026e647d02ecb49b03753533000774d6018d10b2039fe77d01101cdf02a25e87020d123002e2f50f0310655303848295014d0f250000626002d00493011ffed602789f4300084f4f01aab4d100f1287302d8a2570249c4d4024b6462,
  0x1fa94c01e540fe016da646019eab5801c79db100e7194002719c04017cc1e4035758ca02ff159c00149f2f0327537f00490f2401150e6f010c82c900fb79e40044372003972be2000ebd860189e6290026a4d90363595900615bb900f80f7601b59532016c2f41021227a802802a5b012020d00379e3cb,
  0x2f06cb003de13301105f00009cdc0d02d50df202e6981a01e0c99601f73b480087f455013bf1d900279d95020956a503dd2ed4018d90f00376df710369c50d014042b70373905f011297e8018d36e9001a0f710002cccd01a20f26025664c2035f119302b75d9400759b2d035a615700740dc4019accc9,
  0x253f15012c2ece035b5e8203a3f582022fc6310125610c00d1e25a02b92af302e466e801ec56270027dda7038e80f503ae54550128d95500fa8dd0024b7bf00111f13900684f2b025bc6e601c04c0c000bc11203958988024feacc0150193202d2f0890314b36301c9448b0263bae2037afb0f03d73a5f,
  0x37f48401544da8007963700056386b02999f69027f477201d0c4f600ea8d0b02a61e4100f1fc85002c9cad02fe955500dff12f03c7625502b7504c0240689e00c87f82017743ce02830eb3006b4b0f00020c38036aea8903f72d72036f10bf024423b30135b33403cb0bae000804e502ad7ad203f7ef8f,
  0x2a980a037fa45900e26c8e03a59f20025f55df008662450086ec2603629235030707c001b88113000119fe0328aa0501cd709e01bb4eff004a2e530235a9b4005accaf00e2efea0231f04e012b8771001a3ba502e4c0cb031fe86a021eeb1b03882f9d0109e74900c2326901f8b7df01284ad30331a86d,
  0xcf523034607e600f6b61203be65380313be3902e257ed01d7320900df547b03cb4d64021431d80003da7401c8ec2c02e28553016d6c06006bcabf00adbeff03ea80e00043976500bb098803f2252b000adf6303f1d5f10036d0540346191801123012003360b601c8a6d10038e6aa025a6de700e9f786,
  0x3e57140025522200ab7e0d0162978c01a8f62f00089fca038c33da02fb708f01e3f460004cebd3002f75020387b3c30080f9e402866ff10084da3002aad6530104d52c02aa6ec6003c585502d3afa9002e6d5600f7060602b6131d01504fc100ee7874025a71d601b2473e01a4b97b03f7902800a48205,
  0x360037007aae1b022d67a103ea005003c3933e01bebdbb03379f2303f8542902f2f09800fc4c1e003ccb8700a702cd00203958002c58a8007928f1023353fa01cc7c6200a66d4102181d45033313fe000cde2501814971024daca50028e80c01698cad03e07288039c1df10087bb960115d63e01ad66bf,
  0xa88f702d3c9b80346dd4d01efb2ab001f2acf02addeaa0273b26c02897e14010074db02fcec8900084aea033de124033df081005a2ac100a4703d02e8c73903ad4a3f03b5d74a03c077e4011687ee003614d002c28923021f561e011bf46e028bb67a038ed9c5020cb22703eb6b0f02b0fab5004417ab,
  0x3084c003be70b10173f52d0335f4210125dc23010b757a03a9e185025ab67901b954a902634857001688ad03170b7c025d2dab023d8b1502cc09c7001c4462018f77bf0080475a03e5efb20019cf9900113bbd01c71721003d0ba103d0073000b0666d0379f46f00723e1a0204957c0292d243019b92a4,
  0x18b8ec0188bb3c025973370198dd3302334afe0136c84e0328fc860208bf2d03e4085203425a5e0015a00800b015e00109266a00a67d870287914203b96d3e00f47ff2002a8c6a0365965c03bb519d002d2c9301b51bbd03c424350188b8de030b986e02d1c4f9034afed501a452230184e2e103a9a3ff,
  0x15970601f28a2603b08b3f0335d2ae017a8f8801e8f4d9022868c60230e26100e1c12100814ef7001c881a0063631402ae719a0346f18b02c52f0403436b54015caf400025781903f370bb02482552002783e8033ccbb0022de482029538610006985e0302d500034853cb036237ef000bf8e202c4fe83,
  0x53d2f0020e3fe00ffcbdb03ab4c5002041d7d0021f2db03f7a7260002b0ae0131b4d5001b03e90021dc6400f7b58400e5cc3b03145e570266c29200e856c902854bf80052f0ac038d501f03ac5ca3002522e4010d831a00ad212b030772f7025f16bd023acff0013dba2103e0088500b2472f0263cc22,
  0x298d5f03dae82e03627fc500e67a7400720e0800efc1e001ebfb5a025612da009fcf45035158930006559702c966d200c9c505030f7fc801aadb9100affe98004e20cc026c7eba02aa25080155500f003bf69302623b0c01da469c00e6ca630290eea5018c9d5c028a424a003c2c0301aeff61019702d3,
  0xb879d03273e0c0288417b02723551010e879702d3814e01b7a4c701c98f0f00929e6b014f75bb000c765f010465b7033a2a1201bfa8f40309fce301c0ad3303a2803802082ccd0203b952007c96d1003b346702b3c367021a9f1903a97d4a03c64f2701275916013852d702de75c9036b5b18017c988c,
  0x2caf5403eaadbf030246e10182ec0d01b84c190281ab6a02f0259f029af8410137bced021ed6a000043021004ffe6001fbf44100ca797d0150fa630388bf13021587e000abe32c0147654c03240445003c342d034178410332136701a26c6502195b3a0269892b0073081303825398038d40a00246fbb0,
  0xe9e0602c7619a02a14423016f5273021165670385cc89019912ce02003b8603ac83880015e27b0024b1e7014642f603820a9f01f2057300e65e4e01b51fbf0142d52001db610201cc767e018e9075001a7d920193119503b3dee4004171f1022e77c603851c8703e3280d02e086330104a69000ef3830,
  0x3ea900002f691b02eab25100b1e7220233e59d029df8b4014df4f80213725f00f8aa2c03393515002f5caa01b8c068024c6602002c913b03d2b70b034a051e03804a3a01798f400155a96700c91d32000e8638000ba9d1021ec5d90179340d00dd639f007edf92018b03ed01f02f2f03c71d9c032f2098,
  0x2ff6a4023d00dd01c1d7d5035317cb039ad8f401effa6d03103bd4015ffb9f0029f3fb02bac5eb002661d103ed834d03fa8d120011c32701920d7503742b6400fbfbfa01c37f1a026872ca02ced6a100203ced039a3ace004877b203c448dd03eb84600252798502f465dc02980b380304caeb03fdc0aa,
  0x332ecb011e82ee00bbcb8c0079c7c402cdc8fd01cf1b340227e92d0356276a018a8aab02dd7cc20007eafb0104a1a500309f36026fd60202a9663500d2878002052ee100418bcc003fbe7001b6fd050036dc5f01ebd1f5023be961014c5e090227b8ba0172d45a03735c18002b750d01d6ef30029aa03d,
  0x2b6539019214a901394cbb03567aad03d22db600ac4ede0113adc100d8b5280133ae0103cc342d0027e04103e26d9900f7a3840253769601648263022fcec50188b18c009bc0df03b7deef019f9fce0012133c0142bfef03f26d0a018720060028695a03fe40ed00eceb770119ba18020d8ccb005de00d,
  0x25cfdd025cfe8a004196c5030c96940203c65e027d9b900319bf4a017dda8802a7259a0238d735001a4d000310953100941999015fd8dd03c916ab03b82ef60328bee30100fb0003a6357c02ca08fc00296802022f09e9015c41d202206cc30031cf7000d48e7c02c90b3f004c02ee0081a2b300878066,
  0x2d530038fefdd0154f5a0039b3f8d01eb57b90092f6be03cbfa2703151f91038630bc0253a5120002132c01c51ebb0015a2b1031ff59201e90a3e010dcfef00c6a32d02caca58033c7a6a03aef5e000350c1e02fc5e99038f912601b0adee01106d1b02d019dc00b5484300ed7397003c4f900121af1d,
  0x2dd7700c57ae8002f363003ec4db603adb7c402594cb6032e3de3031e0dbe03f7cdc3002d612c0030fbf600d23dc40339c8cd0012f26503ca8d72037ba83900e6bc210397db8400aa9aae015a6125003b3004018f236d0047b5d60126241402d03d0f01ac39fa0275db610154bede017984000077db2b,
  0x3f6c602b591aa0260b1e203f3aed3026ab069005cd72501795fda01a0046802d237f501fd1cc50022afb303dc8a28011c4d2202c5898e03645e6b0007d43b03adc3170116985603266c1a014e57b90016fbd703fdb03501d554030226397301c5f504027ae1ab032d7b2e020a6794035364ad026bece0,
  0xb1bca03c4fcf0007acc6f00cde47b03637d0202b84463014af6d80383ba20030debbb01c48f8a003066fd02fbf30d01549cf300e67c1600e8fd4c023c359a02753fa802cdd289012a4b7702897afb000719ce016c20d301cc9885008d0bbc0149f1610353617103f1a2ed03de565e02e182a7012d3ec3,
  0x36b4ef0049517d01ebcb8e0101b1fa028a19ba0051be2502363ac30031675503c7a3080045c871000d676e030c9df40099d08002a77bc40299bdc3037f1b1403ec436e004706e2011ba4320384a0e1002cc0440327e12b022a25b102ebc30a00f7ca900048e5ec035fbfa901073682031714e0013fb63b,
  0x3b5c580267f50d031ad71b00c8aee700d710cc0134c7b50104810e02be3dd5012b4b710324fd210033227d022bc1af00bce07503fa00770162c5a4019cb88200aff3eb00309816033dc5aa02048c1e002afd58030f36a4018f441c0088055d0065a25f0378e53601527cde0173bc6602630722020002bd,
  0x4ef8500f7f47d00f4aa4002871aa103b11f3400f10390010c22fd0251c28d0161768102b742cf0014a65902b0cd9d01771ee20302f4020367ed4702b2dc9002f5485000b3c90b0003bd550252c72200382d02030bed3400b91bf8007a155e028e33430045803803317ede039be74a00ed635003268228,
  0x35627600811c850311954703729af003bfe6d203ad3b68018a12f80182348403f529d700d2a77a002afc160238c93c002d23cd03b32a3f03d0dfa700cd6e9e0267f0980367d309000bfd7502b9ff0c001c2fbd0310e27d0063b4e3009b77c90050a3940077d89503d627c8004c900700f22bd3035b42f4,
  0x1a2d62037472540146103c02107222003f2b0800da8d80026bfeda00008e1e00fb1eab01d9d55800080de70396706400a027db013454cd0336ca3001f0cf0200f85c920299c22c02da0e5703047016003a07c800ee4bd60344728600719e230038326302d80dec0197709200b5f7c1039e6d0303af508d,
  0x338f08006d0bb30346864601cc0d0c03c5eef800d02cc001a8177b03f4ef1603507b5a01135af00030ab1b0374ff430237ef060032448300d242c5008c38b60093f9d900f60159022fd27500c814d7000d03c501b0292e033fd4f3030b96bf02fce28403a24a590221d9ad00d7221d0176568502cfa114,
  0x25500e03fcf9dc0117d14103b5e25b01a92ae103244cc7021273cd00c7b3e6010e7a9b02ad4242002da83f00f03ae802f5fba1012dae48034210f402a1726f035a696c02a1e56003d4f55e012b96de00085742024fa3d30218bcd103089ca400f2c84702e6f74800aeac8f032b48810202359601a280bb,
  0x45164039141be013bcedf02615eeb01716421023126dc0162544c00fffa8200b6d92c01af0864001cce800134e33802a66f0500f1a0c6026720c60363a08f0148741b01452f2a00e3f55e02e5d8850014292b00c4040501421e1b01ed5ffa03ad83dd00e6ff3e02656e0d02859f8d02869281013c6699,
  0x30166d0388266002df682d03f1d4b103093b91010160610087fc5400ee2d2a005f724802e157b1003f6fd70365347202808c3400b3857203170c8a02e1a36403b0be37030481c9024e0ee2015903a4000977860154d6e4006db8de002061cc03104bd7013395fe00a7ed6c0141cccc00ce4e8c00d8447d,
  0x8b27d0286c229016b240101ac812b009a98ff00f36ec801ddfa400214a0c2014b0eff00c8374e003d61b600a2a40a01090d39027d053a00d8b14e02e53b8802df681702f9e7a90307c77a024b98b00009e19a00135b52018adb1e025474fa03f5f524012197610073450d0317d59f00cc1889017a95b7,
  0x3890b603d16e3e0339221b038096dd0153fa12010c06e401ed19ec004fbf0303e0010b0315ee9c001d330f01124c330076ec78009c27fd02c114740047e708011974b402d0c94800e50de603316b2f0004129e0303688402c748c402f65fba01d68d2e02e40175023b256500f1452f031440e803bd9015,
  0x320c4802ba5ca40243fad700f8a6560275622000699eaa018569db0097a5e200aa437f02a98e5300278544020fa1f900dd95d9014a211300c2747c02ea7cf00150640f03c13a8b026d2542001e72ca003b488f027ffd460105b9ed0015525403282033033a027503f2fb7100d29daa02b3c92c01225c35,
  0x2469e302d490d103e6e20302353af3025cc1b7015d060c03b9ba08021bad440396ef8803cde11c002e080a004b3b3d031d54260287e61201e753f30231471003b175f400c3b846034635180165a8830024c0e9037600c803100de901429b7801a61714009b4d1e015de80600ab832801a95e4302151c18,
  0x2dd24f02ea0cb201d238bd00f79532028c734700c173de00293ff202444ea90168dfb3017a67f00018795601a0e2b40145e38e018f5216035008410037359a008c361301fe46dc03d4acfb0398cbea00254df700aa158103b1f8af01cdc7e102bdc478009673bd0103d2310316b914005dc6b503ac84a3,
  0x38f28300a9c10301081457021494ab01e4aa5501730a4b00166e4d0051afb302d361190282a1b00003f9e70370295e034752300173c1a90149d6660332a3e6023d1f8902e48581028f9b16008445db003fd59401cee718008e8c05018a06b80022b71c03c36f0402904260035254de03c955f30056d3ed,
  0x2fd62902fcfccf0145b94a0115b63700e2ec1c011ec24801cf8aa101f8160901f1228f014f57eb000ccf16009d609500e41f1601ced7b0023485f6034099ff03d442f60306670603c80fad016270d60028b0c00007dec403b5345d023ee8ee00cc392b00cc52e8010ac73d02f2b36e037bad1302c31419,
  0x31bbd8018b258001a2241600f5688e00a7609201ebda5803d2be7002a98108013195d8016d3b49003d0bf101c333ac013391a6017c614703347d4800b0b31700ca162f0188ffa60121c1d001e9851a0007034d03ae936f02a7a4d4035af7bd001f0b1102410c3000a9fa2b0071b47101518c2e03c16293,
  0x37233c0133bfea0072499801dfba3a03abf4bc01960bbe01bbdf6d01e12191039693b6003578aa0035740d0010ca6c036adcdd00c961cb03c0dd2102706b8701a2108000e8849b013fcae3005adc3000060bd502923e8b01b018a8038b9c7b02979c43038fba45001fc80d02e5bbe10191766a02e39c75,
  0x3f611502944e460306abbc00a3b7a101e0e66b00ca358f016a42c800166d5503870b050004258700198dfd007e90a6039f86e5009b4fe7023e6d4e00a71404007e45fa038f5beb001a921e02151f890016e61402a7ea6603b5b49a01e6dabf023f8c010086a77300d321e600845965024c0dd701baa384,
  0x35ae7f00e4eaa10307610700fd429702aa667c02dd8e7002de2f6803c95a2201fbc41301b2aef80021d4800350a7820393464100966d17016594ce01100c240019aaaa0118dd8d01093075020c2736001f3254037fec8a02aaa566007adec003de58d9011d97cc03a172320026027c0046562d02456b82,
  0x158d0c03dc98bb00cb018f0244956000e7ce3702ed30e200cac31b02ca228f018b091e008e6fa9001bf2eb01d43d7c022a5d2400a236bb03e04daa00b2f16803a71546024a25d2037357eb02cde65b000db9fd018ff0cb029ae93f0071950d02260f3801368e1603fb9c4b004e664b0376e31f00f364e2,
  0x33535000f6a29700bbb5ac00ecfd0603fe452b025c59bd03d8f86e02d77c2c0120144301c2dab1000895da017ffe9800600b2c02a3d4f500f377d20178ab6f026e8e910041aacb01054a30029dcda5002435ff01043c5d01c0004a00656b6801d5fe63036eb53b03a544de004f540403f6d4140082c3df,
  0x6c9d3027c2a72030bfdb7031afaf7002dc8e70316dc3401436145038eac5c033e71db01d4c6c9001cece4032de5fa00ae32bc02911f690362e1f0032411db024292f303886e9503b35141034ce0cf00294b9b0269907e0236539500b287b3031e0b490359da4e024efc4a01d4ff5f00fe35bb006df737,
  0x365aab022cc24b0258498c019848f6007dd8730208578501261adb03c17744026f4f4f0234ac22001640b103f53a0502e9154b031321d503c00a5800ad1f300357e9c50116437d01675a3303cc54290002dfff01f0add300b46eb801cfa3470150d6a90159ec370224b24001f3575f0384177702e26385,
  0x1ed95d03cee835020126fc02ff604a03fe195f0377323a033bed11031d0a4700c77cdd0364024b0029189800e35f6c003b614e0079a39801e55e1d02737c45024129d100de404f00898add015e0dbf002fc5df01a442fd02a36e5402c4942b024b282703d90f81002f565c0181436c01974da300d89f77,
  0x3bfa6b0288f5f802728c3902e804e8035bf0b8004f837603ad684400cca2af01e849f5006ef66d003ec449016c1e35032ffaaa011a96ef00335bde02f1f14600b051a801e400b101c1c2ff0248a4b5003354c900c0a9aa010ed12a0169052a0086ab69020197a9035bfdf30281d7ea0182c68e002efb9f,
  0x6e33024f26230172fdca009de64d02a3d5090185282200da51b9010853630124e3a9004355ad00172e3501435e8600eee87902a9dae9011c8edd01c2c79002b385900118f2d6024e1bfe0090a6c2000253f0016e4edb031a23f000897dd200e32cb50071baf7017785e9005a8df5013b7d1b0114a56f,
  0x64b0387a01001ffeade02a834e801c10142035ae7f802f670ce027a4eb8020ceda701838ab5001e6ff801ea6efb03be81710250edd300b3285e008cef5d0066c67d00b7ab0d019a6ee701871ab1000d278a0351c9b3006f2391009ab35102cfde520087de3102f0f11e00cf3ac90097594800fc753e,
  0x23225400f62b93021b45e30324841301bcd38c03c5baa8026e640701d94ac700ae130702bdfd730000692c00bb357902d0694d00221f0902bda31f00e92a4302b7a4ca02ffb02e03971a6d0038b58200155f220366d8d000f0a72102d2378a02593a310146224c00ec7b4b03f2b14b0103a67a01d01c0b,
  0x6f9180166073600f2db95015ea04101e9f64a011b7fe200f0553a01fc908701bb94c8036a4f5b003115870205e29c01ac7a740146e6b403ad5db6038e87a90093253a01c0b74b01019abb0164999a003409e9034055a703f4a5d30223a2cb00b5046b000c024d0321109903bdcd6503e80b7b027146f9,
  0x30a12900ce142f02f6704303eee29c005d7a70021ff8ce03a3c4ed015d5288009c2562038d9c7700335c600350b17f03abe5fd020a3f5001d72d5403ce661902050e5d03c03cb90286290502a35e96001265d2038c8c850264355200f4a84c03473aa400141daa0364a189007478a4017ba61d0195ece2,
  0x38122702a45c70031b3fe30318cf430314d5bd02bb6c3c01aadd2e0076af2d0273348003f5371a0029eda102bf7fc5022f94a40391c73302142f62018a32ec001ca72e024879d800d6009301e3fa83001c6edd03c5fef1016f5f5102135b4f008f7887031b4d9d03f2c68101f69c0a00b724e702223e5c,
  0x20100e01dff6e6038222a3023e1f2a0166455203493dfb000e4f5e03f938c502aadc6801757f48002ba49d03a9cb6f003637fb030992920320c04a00e412a803fbf68e02c8b19b02875b8c006cde6600166e36008bb38b000104880292302402978203013ad66e010fdce901cadeae02ecd4ef00f9aa70,
  0x3b2c3a02641efb01746a400174f49f033c2c4b032302af0109548002ef0c1f01c9da1e0369a871001c2d7203a19ae60165062800172d8103a6781502ee61910336c1ee03257dfd02df7446011c2fd5002bb94a0023cfe80383735500d5bfe50277d8c2030922fb019aae5c02b8ef83013ce2f2015a115e,
  0x1846b20235dc1d0213f8a300e8144703f3eae401cfc80e01481e61017c313f032872ef01de84550037a393006f6e2502eff8900307597200ac7b0a00db34d80270c7aa03cf26c800fc9d610029a443003a174501306899026e241a03a30fdb014853d9018eea170275778602968eee0229c5a801dbd3b9,
  0x2f598d00b8b27a03cb09d1032078d4007ad96c01dcb9df02ca1d4000c11d1100ea49050357bbcc003cb8140325d90c016ee5c9029aab5c0250682b0149c91f02bdc84802c6d8e2031f53a402ac2bb800062cd5033e9f0600b256d80199fb5b01bc6ec400eba71500898de60270f49701dddb1800d15fef,
  0x1b326f0056300c03bc690200127869039c7b0b0142113303dfbc1f0362b82201e66db6026aaa7b003bd0280030d91a03a4f913037f3c0b0208d6c4005e6a8600134468010895a00185181f0147dd5900001ca400b0b8bf0055076a0359e2f00303b35902bd8e720169a02d02b5081d0016bbdf03dab7b4,
  0x32609302c611620323889f00d04035027d79cd035d950c02b96c7f039d064900907d8b028fc5560038a23602b985a400cb57ad005e789a02ed6560023d1535023b824903a40416001fda6e00f8ef2d003c739b0281fefd02baf60f02db701900b2b70f03568f19005cde9503ace3030003aa1e025f4687,
  0x1f85cd00518d3d00e5266600b10baf0023e9310235393e0335aa0703f5bcb402362cca0024ab490037849001714c7d00bc3d2502f08e45023522b002ad874802b93a0e03f9c34c0386e3ad00a48f44001b714b01b7e5f80043fb65025c6568028fb23100394f300377dcad02dee080009e537c02ff05de,
  0xe3ae100a53a36023c8e9b031f5ec9022e18da0101eb1000e909c100fac4a503873c0f0187ef6f000ffa5b00c82f1301f92f7b02bef6d503b07064039b893700683fb80186a454026ca76a00b6c230003822a1016a00d20118811300b4f9eb03a59c9c0077170401a729db00c4d4100067ee9e03afa883,
  0x19e5ef010a68e001a37b3103060017009e475002e9510c00392fb600b3e02a007c02d102d22075000d0c6603239f080041ec55000037ae0203428c01ea9fa5024d68910102347d029524ce0038cec10013ef7402bab2ff0396a2c9006fa53301d847d3000b16fd03f661ad0092635c03480ffb0231f113,
  0x2e363400eef78f0057e265031b12f000e1380902c8440f024b544e028fb07400c282990103db1200137ff9010e9e9402f6de4803def8ca0384d1df02036a8503916be502868343003232dd03e1839a00101e5e0330dc1c01233a6301ff55ea01f44078008cb5b000498987035378c9005f61d6033b3765,
  0x33b618018ccb92033373500248bdf90196eb900052626500d38b3a01e9e980003db0d703a7ac3c0039834c01050aea03eac0680345d1e202f0fa740205029300b337d702f8168c01b01abc03434a4e000dcc90022a934902168dc10223807e03ba088200bc35c8030b75c902b34a4e03c7dd030306c422,
  0x30d103229fd3024488f803be8a3003f3dd5e03d90a7c03a3d73703667d03016a304103c9540f003e8665022f9b790324ffe5001a3bc5031ff088003d17b502b2cdda00b6145f02397c7f011239b700186f110057d0480360552a037ae3720252c3f703d3f7c802bc8ae40225b02a0368c8d30189f324,
  0xed1610294d70703bd9d8202f13870017724be01b49d98029f10e500f22dcc027734fa00d5657d000e31a9023fc9270065b3b901dfba6c02555717028e37c101a4e00900fb7556033945e501185a490011f78d01d56fc3013330c50207fb0302c0d411037d863d032897a102e55da402a2957f03a2f0d2,
  0x3a398001b0e05f02c5189f0399f6cc03e51b820055660f004dba3600991d6201b8b80000e2e646001fdb4602ca954e0042eb7100d15fc800a717d8027e55b201d84436005baeef03a2319a003906dd0033e7cd023259a1019b231501febcbf018e801102b54b42020080b100e925ce03dfc32b011dd58b,
  0x2c060900a16969019c09bb0276071701f3851d0273317e00a66eeb036d4a5800641f8e02ef22f000146db9018b9b310059a55202512a6a000aaf3a02ff8cac027e337f013f10f403160fec03d10a78000cc4c6036c606202be941d0073b2d802b76eda0246d4e003979c72003a0b920244d2ca01a8fb4f,
  0x3e739b00add1a9021a78a502fa781b0133094b03705a2e0334c18e004dbc9b02f83b4f0065df820009026b00ade267024d41d503e932910302da6601be7c13007e5bdf009e85bc027a5fde009299be002cce6a039d04fb0301083b01ecfba803f35b410299a52203d513440260d04000a69648039109c2,
  0xe33601108bf40139cda803beff5c00fb54120053f1650243cb0e010a8a520394e99b034703a700199cb0028f36c90230b78a0106ff66005bf76b00089e130301cde60040c9eb005aa11a01ebd00400038a8002a3624b03cde87a023489a7037897c702d0c29a03ee9e1d02e9178f0053f7bb0356f9cc,
  0x369efe030cda3e00fd16e401f5b6d400ca31e0039c69be00bff17902afaea10287cb6b0329e6d80021ef6f0396ac150237aa8303f67962031dcb0a030dd46d03d5474302d9a23a02210d07012248d2002925ce03dc2104017707c9028446b6012b189f038f19c301773bbd009171270024295e01714ee9,
  0x100a83009d30c401d7ab53002edac8022c4dc703e28f6c03ac05d701bf9fb403a9b7dc0158c1ed001fc0ec0178d70700bb8afc01bc69d400b389f000ee9377017ef5af0271935f0051bb5501bcf36c00292bc401e687b301963f5c00eaf12702cd4914005a519b02cce06c00138e9a035dec5503508d99,
  0x24799f0186eb010129a4a10162f11101375c3502293b130316f4e6025954cb037d692103210d3b00285746012c8d5a01c32028028f2d930322c0450176f2d2019b847d000a821b03fd8eab02df74880030d80701ae7e82002c20ce003199200289dbb4022e47490148229503f72bb303b9b14d004addce,
  0x2f69cc02c1e9a60236d4eb02c8b7220160be210251798602421684008045480235782e00b240ec002f9622015bc2df03c4f40a0320e5ff0017f9c102a3d850018c28d80359b1a600de71ab03bb441e0012b48002036c0003c85d91015ab2ab0358a93e03705de500caceff031462eb001888ad013b447c,
  0x3458a502248ba10055427b01cef6940228096b00b9eae302b4606501f9749b00c58c8001c58bda002af0150270b90702f6039801c48bb50168d294024ec750018989a60008f86c00f0dd4b02663a4e000451ea037a15d5020bb57f008f52ce012554120166d67f011fdd95011336e503ed9ebd03465bb8,
  0x1995e0018d928702c6702e0227acf401c779d40166dc6d0216184b01ea675003645e8f000b4d4e000dd8da03416bb8010e37e60394a6db03dd854f03c87ac002b5b4e70311ba04022c8fca02485cb300086b780381c36802d8bd7801fe7cfb02bc7c1c0126356b030268c302dfa4590384c93500354754,
  0x3b726a038eb26102c4dec800dff529036003c6035861b7036f8317024321c60135961c005a3561003c737903b4d69b02ff3ef601081787026e61de00c3401b03895d7a011ea3d701116edc039e422800302d1002a3288501a5efde036b33fc015269e202d7eaa90259d11e00d71f660008902502061709,
  0x1e8e0103dd4d460000c17e02347e7e024799a00081e0cc02f0a6350374252a02159d9d00b765310013d54d026eb873039906be03d8ee2200643e960194b00403e27b1601d55f2102ad1fc500d5cbb90015b92f002d59de011c3e3b03d1afd70090184e008eb0c3035d96a50249469202040a6301a392fc,
  0x36ac0b00d3272000f8ab2103b11823030e0d420308ae0901809ae90229582b0267497b03a01be700230c8901cb867a012056e40231298302b91dd300a2c59902456d1301619ce103a805780170f3970022abeb02a2cbf002f48e7e025876d3037ed7cc026bb68c003232f1026a605b01959f110268b684,
  0x7e50c016fa25001f1b87501ccb63e01ab25f901f4802a00a2a754025ff6ac00b71a8103eb08a1002e5ac9001f66d9031d0574002e218600180ee4010407cb034876e8011e63b4002c17cc025ec0bc003995660122cd2d02434c7301621e8100ac0dce01cc9cdb01c1663e02e04a0202c9c9bd01b74e16,
  0x5ac8901bf03d2017f9e1a01c23e1003d7c1fc0204da54011a1abf032bc17f025f29e302da39880009c0bf036c9bb2036b2f590075a5d8007577a600260d950120fb9d00bfcea6025c2ead01f5c5390031beb50053f7390248890b009ddc1d0057549d01f7104f03e6d15f037d316301c8734d0176c573,
  0x35ab3d015dcbe4011fe3440000f9da01473cfa0251a2ac018863f900bf2c0f034217f102253de0002abd5603fc9902033cedc801dc39ea0132410a0032df6a0141932b004542b200ec2c42004d183a0003c53a021922540136157801d0e08e00d398120157a20b027eda670159939f024e40af0393ff97,
  0x3760eb01d6cb5f011dce0d011a518701bb3e8d01c318f3028a5e4003fcfe010133922603f79acb00295f420170a41f025bf08d008dc00b0252f1c002d679730166646c01bd31540388d1350143c508001a31ff0171126203c98b640388928703233566028576a301eaa21702607c8d03272eab028a73d4,
  0x1ec1bb035dd5800255520703dd78b302f61748017a02e7009a54c00117904402b4835f027ba88e003e86f403e3e5980023dd3f018c2ab903367f04018b852e001393af00e33b6c022e741001892d0e0034733b0137c45f00b6943a01174a6402f2a2a300edac6a00e79f890203a34d03fcf55d00cdde65,
  0x1a1aa60181841901744cd7006ef67500a8114b03f0f3380342267b0286dde10344011e00720e6d00193cd00057e9e5001adf2103b0e7c7017dcf3803f8ef4102a0896603cf51b800443a3003d5a923001a06e5033e5dbc03ff93ba01a9b74501b2b56001899c22003863d00083beb302c9db7203d082f9,
  0x2724870077603802ddd1c00393915f022be8cd022b55f803a70fcb01d5b12900b77c62015edd0a0018fcd00240eef102e42cd0035c9022011df29a0074778903587ecf00db3e1100b9661b03c427a9002c60f4022f49f601fafdea01d7e05900b277620362b9fe02632af401ed23780275c5680189a921,
  0x27d3b002749110024056df03b2b79e0113a6f801466945009f3811006cad3b00cc1cdc00810620002c09b400766b720076d339004c1154027e83f6018481980004fd060368ae3902315f1d02f646570006fff000b26e5a01450eb903a6b12900ad712103c817960246d6ce020596a603575d0502072403,
  0x85a802a8e58f02defc6a0367e9c900587c790140024302858df3010473c00368d14b01f74c80000eceba0075d0ce022b138c0386cd20018de0020353c4fd00084f8401898c4101d8eeca0183961a001d21a8014ee88500c2f38000f311dc03f10e4201057c05030a7b7c0388f81902a8fa7a00182fde,
  0x12c56503411a6402a4937102c57c520314faef01b006260068566e001c109501181c1f00d2cf8b000e0e6902a85da203139f4f03d7603300d64ac60177ced3013beea200991b810215f70702795a7b0006730b007049410185d6f70176f99a012391fd035a3603000760b7012ecd4d03f65315037cbd19,
  0x32f1a70189f97400e8fba701ffddb101fe06e7003fdb430129e19102cebc2b026ea44c0273d470002c3f0a039d31d00307c6e203fe7bee02c0f62001f9750300d4f6c5039d792c01fca0a900a772e50031d653001e16960387fc7b00b4f0a9012aa8c900b120ec03500fbb034d51310062066703df2dc8,
  0x1c2a4001fe12fc00ce758100778d2f03b6a5fb03c9b8d403105ed503a6018902ac5ffa000aba77002363b100377deb011c197203c462340230c0b501b3adda023e12eb00a052d10048da5203ea2b42003117bf004183bf018d10650044282800a43aab009d59730137a591032487ca017097b401133a64]

/-- secp256k1.go:10, serialized bytes 276480 to 307199. -/
def tableRow9 : List Nat := [
  0x0,
  0x2dd44902f7f6be0117443203b1a0840078920a00b850f103d32ac403b340680159fd3300dd0537000b1d870163663d02d5bae70135e20d0177ec7f00c9ed1103077b3d021df01302820daa027d9706000bce0001c62aa2008d3e3d0356cc6702dea11c026a298f0209e9a3010edaf100a50347010916ac,
  0x277d7f0236d9ff00ce0bd601836a0c0051b772014d316e037a9c5c02fa4af80152b34701539c87003ddd5f012597500067ddd9002aa59b00f9024f020148cf00104fda0015a77402ccda7a03b0febb00293ec101ae9b7501ae3f0103bdefe80237e32201f1f9cc0180f4f903fd56210178961301989893,
  0x2dd270010ccb5f01f107260245239101827c4a006b531b03c33adb02f8b60d015bb4340058b601003edfa200ec600400d07b960024c0fd02622f19015324ad01a8f01a01c52c0803cac533010778d3003765c8015150a6007b964d012dc3d500ad4b23002cdd5f022ef510026d6d43039e2244033456cd,
  0x32d1b0019a8980363557801614d25002465d203a5389f007738a9007fbbeb01043f3e01b5588e000c390303522e8b021f2091006d5d54020478ec03213bf6031aad7a01c76c470281b50b02d2a8e700175a5e03c364ec02f37be002ca12b9033749be0095264b00b9237e0094ab24033bc32403ba67a8,
  0x95ea2025aa4850113724200925eab014b1f360078848e0256a4ab00fd2a4e032164fc01e518a5002bb9c1025d87070366217702aa83a403d2a65803a02d6003853dce013c7922021268ad014e53690022e41601c8219a02563f8f025b5d8b01c42f8c0238b546025c3c8401972e1502237927006fcd71,
  0x1819c003a961ea02b2b09a02a9c6b5008cbd78032dd70801fca0580303d623003a54c20182cd620012d311018cce8301e8e8fb00c759b301e51b3200aa43ad02c7397d028916050318b5c5020a88bf0020877200f6a656011554e60107f54103f151ea01266170032b77bb01b3da4901825d760159e06c,
  0x2caf3800444f1502e645e502a0c7cc02afc9a401089d17018435ba025d2027027f58790215d9530017b00f0309e4ee00c5b1e300a6835a0216809d0303d08e00ba6433007267d9025a9cb3029def46000cd56c03042b4b01c65135000b329201342a3f022f2fc401653eb900ea63a90376bd56023dab22,
  0x642fe0388a22c035195b202078b7900a56e0603d65b8e027b7d220218af8903c9947a00565c9a0008cc9003412c6f01d58cfe00432ea701f19bb80347caeb03b53c5f001da7fe0111f5f801bb20220009328d0341e9a90051b857022c2c320192c23c01542eb70104d8680139424301d4ba3801c35fa4,
  0x8365d000c795c0326c97901b6495a018649cd0019a9cd03be024e0003099d0219156801d67ddf00121646017e4f85019609e502f9a45901e23aaf017d742e029e3bfb02f3edb903b18cac03c7d4d000142d9702a46abb01e96a6103bfc39e0113ce9a005d35c80090f8e903938ec00037a389024b3113,
  0x2cac4f0059a2d902bb8c9d0236ae0c01fbe25300b4b39b01e598010324fc2f00f81b82035c455800194a6b016ed3bb0369c37e00656c800183c251032e816602dfa962030108e0032475f5000d82ea000a50a2036d05ae008b49cc002a23f30165cbd300ca36c60370e85c00a407d5027355e00193920d,
  0x35e5e10149aaf003c7f89302e073fb03384c280396c05d021e13c203c649ad02e5daa30215c3e50000468a03bd4b5e02b7ed5d039d7f2f0169618603ee9d080301e9020062040103bd3b6c03dca88800357f2802c5449b00a9e550034c50280143fe8a00d28531018979f50159aa2202ee018b0329f779,
  0x32ad6502b915d3007a64f802de123b0222122301898584024da03602c7f53e012b825402469f1100198d460011ea050340a35a03d74c6d01b1330803520398006782fb02c2a8ba02230cd70060f14b001a072f00b97bd6019f842b03060c860356b1330183bb85018c550902c64212032c7076035f89e7,
  0x362a8b00a368b900803a6e00808b4101aff6fa01564826013fee3702b238c201308ca20030ba570028646101bbb47500d1b13903bbe26a02c40adc02d097d50156789e0113b68500114bfe01144f850002ee2800be28a20099090b03e3a208001d11ee00efe2fc0247741a03a978db019951f400d7a23d,
  0x289b220113fe6b01c8931603ff62f202c3a5360363db7602f2e5f400180fc802c9165b00ff6df2001fb5bf00ac110d01a66f2d02d13e9601529ad301f17c2902c7f1b401e701830196a9f30353755a0021f1c600ea97ca002f3e8400f058030010158901058b38009f57e402f73a7c036d714f0170fe4f,
  0x3ab9930068f1ec03a9036f0258a02300fcde710323f8c2038dc9c30143ec9600cd3bcf0016b0f40012a4d6039d860903cacf7f028652cf03cb9a990141041101ebdbe601dbb9b40333c56b0281531e0024fa8001e9e20c029375e00116b346010bcb150354643801c413d901f4211c031624ef02b81825,
  0xd8e902e7b72003f7d5e6016e1137031791c8009bcde30391f0e001ff12cc017aa8fc02e32c56000276f9005b262703bf819302da34a20384895f00af2ee700340ec7015080f002ed36ea01a6db060029d8fe032853d302dca35600db7c2c010ff9a7036ea2ff01df5fab02253ed302df25ce0014cb47,
  0x6fb30019db09903eb5d90002df9cb014d4442039f0c49002225f8036a8ea40358218e037c8473003eda16006d8a1703bf72a90120a04c00b05fa90263164c011cdfcd030fc22302893ec003944a0d0033929a03aa753203c257d5023267ab02dd46fb000c93400258fe740397131800c704c6014a310c,
  0x2d15a60207f8c9018d6a8e02e4064e000c611f0035d1320036e837002a84fc014bcb5401fe7e8b002789f6037c15a1006f61150355c84303f9b353023894980267b6ba006ae63703ba4fc0034ceb3b0023001f027f333f0163997001380c6103bf347603a3559202422f5c004e99cc018610890200d946,
  0x291b2f028814d30217640400bef17f01349a3300f71e9c01b31c85037b2a8402a7fb1300565c940000db6501319c37008a816402e28f96004fef9003345f610217e96e01875e1e015f5ab00074ca5700240214018630a100a46eab01cd1cbb03410a850169c7dd02bd892000affb44028f8df301aa429b,
  0x242d4602cbbefe028b224403ffb02e01be7b5500d190be0204ddf703eb3f110242de57020ac0ef0030f26401313a2502ddfbd10343be54026df6cb012d565d039133ae002ffe7e03a75a4f02c1828e00385192039a917203195fcd02b98ca00331e57d010424ec0379a30401d7a04101597e38020275ea,
  0x22c41e027337190287fb3400311406015a3e5f00545be800f99d1d014f1c6203ece96a03717ec7001a351e039380df01aa498100dfc3940362baa003f15dcd034f94560362a0d203c41ed3012eda8400249dc702979b0602d9ecb101c45ab10220c18b01603fb4001dedae02e12ed00234b90102d0c121,
  0x36bd701d7e68703e4e9c1031345ac03e0a469007f317a03db0437022bd42002e93f460097da39001d76e5037582360109adc502ec19b9034a2a68030a87020005dfdb027335350009b9170287a50e002df70603393064028d7d5a03fbecfc01d82bc70376df130119f8ad018f59f903d62a2103084237,
  0x10b85203c9d024024090f502ffbadd02d4291e03694ee7002cbbc5009b7e7003207c400248145a0035deaf03a199d000e22636008347e00007d43a03f186f3035b68ce00c7783903881e9c026c2c32002730d002589c1e003f26a801f56ea20159a48b02d2443800510d5f02948b03025684dd0334054b,
  0x22004a023b6db4023f95ef0265396803422151033af45e0170dd97034f27540200c4a800f97aed0032641b0025615b0273889c00646e5102cd6d98036a9669029719b6035fc04302bf268502e52dd6000fe74103b83beb0353a8c501ac7b720128870e022b18dc02ead6020265b2ff004890f403530b74,
  0x30271e03e1b0290070e7ab03a05a6b0167b919005b201403debcf60221603f028cf8f50372779e0030edfc02725d41035499af02b1cd8d037b510902fed6000212f9a9017a72b103d3311b004e68020023875e034a8181000eb2f4017f0c1a01bc6401007bdbb40252f4ee032a648700fac52f01c50019,
  0x340e170040622d0176556801fbad4f023f693602bb35cc017b994801df1dbe036676b6030dfb8000100ad603bd0a9303cab76200813b66003dcbcf022c455202b6cca203fac34c01c9a00b01ef2102000e285a014c871803a0a02c0269124e01ce9e6d03b0416f03641a6d02940fc602a2c95703c134ef,
  0x3187120050c1d70156acbe029fd7dd001fe7b200d2944a01f8a197032afd1102996d6e0233bd5d002fd81e03993787000f208f015c6d51023074a602905715032a6fd500107b190290daee0187bf150026e2cf036cc57303a75b0200a1f20e0125d63b033c31490053efa801720a7e03110ecf03e8857b,
  0x5854902e12be00141cf3d03df805b0051f25c03d0a1b60336c57601fde30e003d500202ad0e4b000fce01019cb880006686560070bdde01b5360f02ed4964031de5c400c3fb090209b32c03cc20f800291f7b00acfc1401f38575019734df02647d04020baa1801fe8d260255d0b103bebb0100e8d7a0,
  0x153e1600d851740116e36b01bd302903b6d902007bda330045e4cc03eb148500ba0225024f33cb00066aa2023b7d4b0295e77100ca2a5b0268d13401eb6b40026a015c018e126f00920e7e00391d5a002de78402977c480069c7ee00eebb0002032b6d03a38f8203cf305e0068b8d901e49dae026b46c8,
  0x73dfd03059da200ce721c02ecba3b031a5fab019dca900323607a0115ca5700eb0d350330df68002decb202e70ecd00a93dd9028e83e000bed99f0271e1f800ba0a0600d9e7880362b763038a834b00339c8b0210451c0358c13a01e64bb303f22b3e0307570603630b16000bf40a008f4cb5020359d2,
  0x22f07103174dec026a17d6006b530c0392161000c5ff0402b037890261e7a301f3e0e200a92581003026dd01ac190d015611f50387dfd602c2ead40160aea103a61577035b2d8e01029d7a00ab8a140036f6090194b759035245dd020eb14202a961b60074841503a524e003fc512d016b782101da245e,
  0xa98ec031117ba01c96d0e03e1927402ae3bd10357065b01a37fb90108df5201ad1c9102efcfec003a69130114061603aa3c7d03478a4e0065f2ac002d02e900ca427b028c97d0006eec4d0378b91e002468f8023f8e8602f2d6bc03700315000b76ef0100a4ba0246b3d3018aac8d0368e358005827c9,
  0x29f19e023755e3024dd76603be156501a2379603462baf03ad454f0289d0e30295945e027fb9510020d0d8009e65e703c71af0001eb7a701ff4cb601935f4900451d0b023c8709032945b6036ae8b9002c9595014eb60e036494b30068ee9f008aaec30081c30d02ce443001ed45a4038dd78601cf9904,
  0x17337e004d9a9900cfc4bc0220fe33012ce5b701b07edb021cf91700cf054c02026d7100e4ee6c000a05b80070ebee00e2bc5d0127bff30288a0110235cccd005e12c801bcf1d000a04958009745bf00093684016e0a490363f87a013945bf0218c8f5014c3bbe03040f9303b2eb480294b33303dc05be,
  0xe44c400dc0e5d018a8b5500f596a20195b07f01f0ddf70111d13803a3574803e3e65a037b2883003b95610051993d0033215e002db12a00050fe003d5a55401d6ed8f015f4db90390286403be8b49001deac501c5eece03ea965a014f1b2502a197f503f139d303308e15026116a6021a00be01005287,
  0x26437a00f0807501de97b1007bdf51014f59cb03a5770f032206c202a18cef0357cc7202e95c290007f7c201fbfefe00aae38c0197874700c9f58502f1f86a0192509302fd9b3602a5256e00f33b3d0029dd6203c862a202436e0103c08b190277da76035503b20199747500e4222e01c2615302110a17,
  0x1d808702bc5523035a0e9b012407a303ffebe502d64bb503a34e9a029ea79601b5c503026b491c003e946700dc781303b88724033a54ac0151ec0e0390ffc403b513b502fd09300283b0d901439d1300262a050108a7c702b804a8000a5de6019f8bc400f5616800d1f01100972f2e0049b67603f925c5,
  0x269922016e39f3014db2f6015bb9f30344633602af016e017d8a4601dd2be10234e4c302b0057900067744003055be03541fc3025bafd701d7c6de02c85df90247adf70077d192022136550352158d0030e96403d43a3102b32fa101cb3a1500a82bf303091329000bf44b008ff46f03ed352d02f2b780,
  0x32a5bc00374820032d2a3003f5680c03ca632f008f038e0267795300eeff3b02ad689702d779600012fa7d00b9d932023aed7a01326459022921fb025b20ab035baace0325ae1103a9d275036758f3000d25030307f53e00eb20ab0251f98f0386ea310306af0300f1c24f015e817e03fc05e2019af260,
  0x34235701ad2f43029449f801f61d8c03c4376301e4afd301a746da030f11090123446602b1512a0034af2403f704cd0200c77e024249a30187bb1000884f1501554429023811c500a48d9603204158000207b800fcd61d0256f5bb026a422b01e04f77004420c402902c0703fd7e2f0027702301961e58,
  0x3d65c40142ba160019624703c2638e00bd68a802ac7d7503be0ad20047d3b903e7968d018531eb0029a494037a754f011d6e070270a9de03db462101e6308e03792fe50014e8e801ca4b6802b7c6b500016c21009e29bd005e378f007248af01a9ec1003278a4902d2331a02f88ba403e1c5040082f5ea,
  0xaca8002d19f0803c50a84027e7c0900ea1824036bac96006c39c00219d408029a4da102f339fe00279fdf02cb208f01dd6a920192e76e0059ad1c037e846003798c4800dffac802cd68c600a848f400391a5f0386c34d03992fd60193ae4d01ae267a00c98999029437330099789e0317c1550196cdcb,
  0x68e46038b346e022913d103a9af80035d849803f9481d0121d99802fa26880372eb6103a0b787000b351b00cf74bd01a3a243033398440182da540379aeac0308c05c03ebfcf80390a9a302279655003c8a0102b98d1602ee2af6005b5cee008856f301f13a6703e3ec060280a39e022b522c00e30cfd,
  0x3b582f02061604013365f603b7a6b800a0d48402b6a70200a379e102c2369f0391b94a0109c1c500184baf006fd8d40356e2d903c2deff032a0ade018d581500aaae9502dd1cc800cab2ee01576c020033d1e003e6ff63006dff5001b1036502179fd40144c586014e6f27016ad763002e1973015f74f6,
  0x1379cf0011a68101886738033e2d46036f83260006a5f403d5f4ab00e7e0e302fe0f5502a0e6d70024e02300b3f15c01c1c8e5037bd0bc0077d94202e1e85b00e2ef0b0178536301564fbe000e5d9e002ebe1101a456f40059590e03001da301c43a7d03b4e56d01fdc1b002a1683b033d00880119f926,
  0x22be680065f989023ae0af029c98b1032fa14500f74360011d9437012bf05600ccd325015dbe1400054bcb02ca05cb0090b0d30022ef0801dca408021e8ce30335377900cf580a009483a4019e42fc000fb77d0014e7d60256837c017a7cc001db2d6c035d249d02fb1a7d02cdf21502d685fa0181f07c,
  0x311dd8036266f902042176018f00340281214503122ee000031fae01cb2bd5030590d9017f4bda0003f16d037bc0c6011d5010021bb7e401ad858a0148b2c2009db1f500c10c4903c79fdc02c93618000589ca02427727003ab5eb01147b0100997fae00322230029e8e2e00907b25036050e700acf0aa,
  0x169045030f4e000021b0e501f10c92009a8cdd036ba2840128bf6801412b3900c75c45003fec9a003cf420015017b600fb92800061aaf90097fff403c1b1a9010a090802e8ce8c01e68a180388a0d1001c763c030e43e5010a8e1b00bd1b8e00a081f802fbbef200e7d742002f5e0f00d38e2401e4972a,
  0x15ec9701087f44032e994a02b1b65700feea9b02c91993030e4ef301e149710319b22f015455d90020f0450003e84e00c78bde025552cc03462a7c014b767b0049848b013b00e603eca0b501ad3b620039f2d501b36beb01630ad50304047202665a6f011609f900cc26b7015ac02203a473ab003f1c62,
  0x1d965e021135f9005ac33b03f6b9a2028074ff00c97b080343ec9a02c44a9a0074530001b634a3003b9063017a0e71029c119301b417b8007ff57703d7f965024fa8fd01ab3d59036888a7007e4201001af2a103d81dd602d45fe1001a23e602e1fa95025f70a703e1764b0296eda103b2e9c002eaefa0,
  0x8292e0343c7f600e661210025a6c50041d10800ac3bbb000a71d400febb7f026826c303f819c1001ace540237cf8d02867d7b016ccf220226a39401e01a000211990b0162bf7303aa09c600c7a144001dbd3f03ce72bb02152019011d282201bad8910147155a032289f20281805900668cf50311303b,
  0x297b78001436770107700c03864f6302cd6e0703b9ae8802af8c2a037bfa3600a4b4a503ea90a1003e2a8c005c21e201328fe6003aefba02a27584039652640089823201bdfe1c02903a3200d449850029edbe012144210163c0af03dcf63f0015e5af00d95bda018e5e360004c1cf033a13af02bb2a6f,
  0x3dfbfb01c11dca03a9ea4a03a0b00801464f5103d700e301ebcda4003c54050207789600033c44002fb461031be3e801a488d203c35a840046d284014a600f008b947003feae2601c0d90102336065002152c801f9f09803a8a53000797a2d02487d68027c4005027459010193ff4001da208c02061707,
  0x10e7940358d35a014d2c5d0137ce3f012186060162d23e01378fd2016471c70354232b020b48190020553c008d260c03ebef74011a4c2d03b06096030bc729034ccc93031fbefb018de3fa006923040014c23d011daba4022e4d12031c2de2028788860379c9c3027cd8a601ac4f2902603769034c70e2,
  0x3dd65f01fbd31e02a34ea800c7dcf6029cbbd00366b060022e441702e25ba0037ee87203dc31c7002cf55b00bb01550145bbc001a57661017e079d000f5f39023f5dfb0185746702fb50d801cf53310007a425017b43ed00cdd3d70284543d000e398c036697c5013409de02b9807e014bb6ae01e09e2b,
  0x289f5f030e70b8030d833201e78f3a03c9644702ee2a9c036fa9b60266c5fc01a6a594028a8fbf000a2e280176eb8b0191718800d2dfe7013bf0190242cdb1020a4fb901e3dee300cbc3d7031cd890001c8b37001434e602aa49ee02a75b1b0109531a03c0541b0111b3bd0283db570144404901610311,
  0x3cf869019669f300f5fa9700d00935024804b301d466bc01dacb6800304c4b03abbcb4022182ec003b6e810209b749004a416401c2e77800091c12011a142f00eae69e0181de89003c9be701505a910001342b02b0252f02922b2e01455c3200a8e4b301c5b13b03dfc54602851dd20357fe5902149a78,
  0x123bae02ef7fdc005102d2027cb9cc006d141703c126c0037f748003a735eb027aece702c117a2001d7ce402cc576f00724dc102f55c3e02ce5ffc01f2be71011d17a80227a26d00324d3801320876003200c7022cffed02dd2bb50309fc8701b5c8b20103968b02f1ad2400c9f7b3028c892b038246eb,
  0x1047f602a59a0b0310de8903c39a55032efbff0089782d03a7dfc8024fb87c037a0e4603a4d74d002e067703fcd449011d1aba0237ddc2021e50dc030a0b11003fc49901588f7e03b76f460090bec600338dd1030b534e0295acfb0048f0ab0389c8ee00e99a7b00bb348f005e28e1017838d103b0113e,
  0x16ab23019adf40027f6ddd02be629e02ff8f50027691f80302fde303164596035517c6020099bd003400020308cef7016f72ef01c9c9cb03d26bc6005604900086a1ac0281d4b600e152110358374a00208a3102fc85cb0142b7a50064e4ae0127463e03f52f6001d98b1701bccb1403493d0700ffd17f,
  0x2db8be01bdd41f0224b9380046d50d007976cf01ccf88c018d60250235d09a0115811e03eb70c30026afe403c011c9000b944d03f341f801f9cba1011241ed03ecd04f00307bb100d9195f02f8928900049359028caf1e02af4b7b03f5d87101304d6102d5faa2036f6b8203355daa011c812903a4d524,
  0x14dc5601530a5402bcdb7b00758342032ce7ed0035b6c7013a5e6e02dd990600f3c52802cf3236001e7309023124f601d7caf801f471db01181aa20123b58b035864b202bc5579002ef4c700000d7e000499a002e361af0124948701a5cafb037a5d5a0143adb300792a7503af6caf03a5be8d03092e42,
  0x364dfd037072540204ea8700dc635a02941dec0381a7c802d457e901db8e600324e701000a7a2e003b6d9f0010d59800d61fec01a6acbe03b7da4b03758b1c03a5d452020e53eb02846efc001965780037a2ff00fcafa400d1fed500e2db410079235e02a19bc300123a8402cd4ba500b7bc8f02afee24,
  0x2b7cce02e360a10246890d02ed4dae01d539240227c2c20090efb5025541940070338d0342ba5d0023c21f038126ed018e5636005fe36603efd91601093186000802a20139151900e33a810036866e0035a0df005f25ba023745cc0194464f02abbf9602546bc101ae025500d7cf8e00c60a0c033c1a56,
  0x178606019b3d62029a7250032843d700d4fe3b00aaacc00207274800f9771d0028382c011f1afc001b3e9803469a1602dd6bce00a43ff601f78c3403ed8913026aef9803a67d2603444c2b01d7d33d001d9fe901ae2d7d02899326014c195002def8cf0368695b00ebd29902e86cdd003136ad03a98dae,
  0xa786a0012db6402497444013a958b0049f376038ace9701dea9e900c6cb9f0156dbb90316ac05000172ae00397f9303cb9a85025297e3030963ba02f8ab25027aeaab036e9773010a548e01bf061a0033b5f9008156d801a1d66603da9ea0035296e4036c1c620274923601fb2b5103bc923c03b0c6f1,
  0x124f460274dc650393819f0081a37100a49e0403c531c60371b4ea0163c46f0021d08c014b847900192e25023b75e8010ff31600996321006a97a303996fdf037230c00095b98701cb2a2b00ffe7eb002056a00310cb730302a20d033a2bcd01620417005f507d01aed199028869ce027f224f03b53173,
  0x2bdd0352f8550078f74601c04a25005d6a1202102c6601182d1002f1b28501505d9e0067665000355934006de0a700de93d000a52a4e03a566ce01b47db70051c30603aac94c0266f2970204669b00203002039ba9b1026ed56000061ae6003a496702d0c77f006ce9dd03e65777025defc9037e00a5,
  0x1c5e49010b32a1039d1ec1016fc1ea01b664eb013b5f9e03b396d600119b8401cf6747002421130030860200de22ba017bb6d702a84c790341ef9f0011ad09034cf1d903debde002aff72303053d0d0019a1a70164604903e1ef5d0163f1a6006f36bc01678fef00fe2c77022fca8003b6c8e403ea36e2,
  0x1b72dc0094e45a005158e8011130b703d9001b024dbb9003d8e6320360555501a5ecd2027fe8e200218f280250cfcb00ca958a0170497a00dcaaae039409a403ad39360098f884039b3ee803b9a1af0003369303aad2590004cd6d01c6a0d10123e088005a6e3a02b453ab001d3276007f7a0e03232bf9,
  0x4bbf200f6f043004fc6ce00a24fb602eea400032ec5aa037d70e303f7d1f7031eae00002110e7000544a502bf75bf022a909202347595012b4edf00a15759004325f3003159b703d5d43701f67696000f56c301e1902d0355a39b030537f000da76dd02ffe99c021442a7016166e802e7a3ec025993ee,
  0x4db9036c972403a376cd009a180e01c6350e017b505f01550a3c03d881af02d53fa10167ed590004599603596fdc0171b49d00b546c10252918f034afeff0000a4c10009583703650e67023868320013bc46013d292500984fb001b1a62c00d1fc400234dee702fed7de026acb8d0379e5180340f0eb,
  0x35339c01bf2513003875b100093d4402dda522007c4be4005c510400868650013c7c3c00f80d120028db3101affb33000ba11202c08edb032815fb038cce7601dc9b6c007f5ead023fc0b103b2c42a003ded200134c6a70374a5b9035d721a03b9437401ebc557008c58ce034ce1260228303503a48abe,
  0x1a9f00038417d400533e9a02144b04006f40de0028de0702da23ad02fb7919025c2d8002c73d91001ba29c0158669202f5b770028e148301172e6c02f0a11603c2524802e8ba24014362f40255e3f800026469003636c7008a58fe02e1d40e02ad28ae0018f3b60172f42201bfd60c01c98ee001431b59,
  0x252f8d03157d6802ceb67300f1601102698a6f008f53a4008f1db502794a720139b5a70209c33f000327c3016da32203d0d4740274ded2010fe96f023867c20306c3210040a9c5001d5e9703aaaadf003c46ec0177f04600cfe065036de6d902ceffa002f3fad001e701ec010c852900998fc20080e03f,
  0x7fd0a000cf71801fb52ef0371bc9d0101624c036200960194162901da8cbd016cdacc00146dcf002332480236c8a50202fc26001f833900d4713701ddcfdc0017d3ad00b5883b01196f5401316e2b0007b82c008e77f80369668a02bc1e7703f5eac20225852501f60d74010ca43103a872a502112c5f,
  0x2443dd038699eb012afb47023ee58700090a3a02820d8900e70b8f01a9920501742d5a02259fc0003717c802efeb7301bc3ffd0131be0c03ef8c7201f30e1e017cef93022e046a02f524a003a1fe6a00097d1801d611130121a45a03c880ac0236dbab01d0076c020e736a0097693c019dd20903cce8a8,
  0x333832017a8c20039d038b03b7c02c01ebf5c200ca27ef019a1a77014702b70040eae501f578f60029698d039df46401962572012464a20035a4db004b0c9701cda8e6011d850b02a5268903b9b3ae002116c4022741ee0290c99e03108a3e016d1f3f013c269902f6433100e3056200f8fb3c03336589,
  0x276da50049afc8013f9cb000a1828b0330fbad0175ce1d01d574e1012dcd3c001cb78101c049af001a541d00702bb9000ccc7402df6e8601e9d3c8033cfa170180957700d888a4024b66aa02d7c96a00182012025dfc9f0082838100ad93e80278aabe029410d900d2d2cd03c733ed01376cde00c92d28,
  0xf84200246cb55000138f301b30c6f00fb02f7014d1b55036322e202a4382b019a4e10011d350c003de28a011911c400d34a2c02822f73015db97601d1ada503aac1a8024ee741001ba3810282821b0038ad80036a30da013b008c00a6625300483194022f9892018dbdf101040de00061950b02186591,
  0x1922e03e2495c01361be202783c2901fd6060000e0e510146b50602f07456039a70dd014f8491001b6a8603adf5d7035c5ed100bd42790208df71037ec536001169cf03860c13009b45000032df670021c6fc01ccf5900149a213006ff1dd0283950503b3e10b03b35e2a0138c1f903a098c802e33afe,
  0xceaa902e2bbcb015ec6b9037c21120088fec600e3befe03c92dad02212c62000dc0fc0041cf87003c30b503b21aa903527ff102036118016be7d6024fe940035eddac00501d4a02adbf9b03b05b5700079316005d87c3030d59af024a7d7102d1fea8022ddb570375add50264cf40018576a1036f6cfe,
  0x2053c002fd76fb02427a3a006ff756007143ff0106515d008e65fe0009fb8c02b79940021704650004077701062d4d009b22c200a50fd0035a813d00a23096007156320153666800e01c3603b53f8c00022b4402743c7f03d51032018c4ec3005d0f95039187e900a7ed4a0063661703fd6992016d878e,
  0x17110903d23a8703ad457902fcb04003f3a28a0099797903bd149b025362c102b0c2ae02a1b3a80039f02302988f030372eb3c020f384e03fa6c8702afa6cb03b8a3f4023e7ae902d04b120057c97e0019e4b301e2d68500ac862500e69d6101075ffb02065f90004b852401c73caa006ba33003b816f8,
  0x1599b0367719b0146c51401e22db003297e5502e88dd001a8677a0055d93003a970c70236b56300048e0701768d7d0247415003c152f7013decd603d4650501bf1afa01a0f904019acdb5011449f900164930020ab274035c685300c0e4a8024f93a903b41bb001c4d26700b51c4102fc000e03b6b632,
  0x1ff75a001b476500d93db2027309a8007947da0039ce130120d3fc00650099032e034902eba32f000916a5024fa3240177b4460300caeb02553c7503d6d3ed0083b36001f0e24f00d049d301403b71001c1b3a03517a8501980477036cbc51019a699c000258dd01990ac0001e69c8007fac2502cf8317,
  0x16dff5034cca040095fd4600b6065602e8106e01ee3ba900cbd861035a9f1c016feba20181345b003c0adc02a1c40b03b63e1f00511e7202e496b30204dc4403370c6d00e2483001f4203e00e35bc4002c4f68005df33d0290a5190197acbd0052842b0284a6ee028f053a0054a9ac0283044b03711c8d,
  0x2e373a00555f6302125617011a2d44012341cd024c72ad00a0472b029a30b601a00fd5003d839e001db102031c6f600227fdc7025a38be01db3281015c00c5037e205c0183cddc024884b60122a17e00115880022d739801b1c14202342d69015d270e012d8d5a007aa4d802b040be00368fdc004f3cf7,
  0x14f10902a3f796037eb7fc01e6e75301372fe903700c87005d0bc3025afa10015235de0173115100218d7600a5cf5e02d4c0760227e50e00dca6a3012d2cc300bf4a8b02f6465a034407d900c870c00005c1a503e09b3703d5d5de027ba11c01cff16e004d838f037522ac0315eda902c5b66d0244effe,
  0x276a4b008a39be024c81900319e5b3032a13ba01d4e7ec009ed915001dd09a016afc900294f3d800093d3503502bee015ce06402f8911e02f889430295ecdc02c57bd1024b979202a98bb80081f1da0017d02101bc0ae702c6cd2702ebaa6f02722e11007a4cf702a2660e014993b200c85c1500e3cb00,
  0x329d020273d49801dfb445008150f1023a1bfb032f1d3b02aed57f00e29bd10312d0f9033858ef001cbd2703760cf601003b61007a9a7d007bf2350193cf3b00a3cce40315472d038d43af032bb8370033f8f901a9cb4202c94d3e0265b46800bbf54b0370ad310153ce780081d6ea00f7a4dc01391982,
  0x493300117032900e22caf02bcd6e001c8d6be029e9ccf03c3cd02019e37a902624cb9026ae5d1002b0cdd02ce606c01d2f080037a816303be8aeb01eeeeed023cd2d201b9f83601dc306f032c0aab003adf5803b047380128585402354bd601631eda0155d835037266de0123a9830369012c00e81ca8,
  0xb1d2b033639f001fa9092018da7b801ccca82012ab9b80343f4d602ce31cd02f9ee6b00ca64ea002ec33f026107d003d7b15100678b30006ba9c503bece0d016a10a002f3938a01ac180803f93bdd003bf80a02819f1701c8070b0124ae1a001b595e001339e60173a07e014a489e0069c11201f6095b,
  0x3284c0263b844000aba0303ecd447002d1a0903cd0ea600094d1c0043d060015742cd00b11a790022144a00b5c00800bc6d4f013b757d03ac7ffb001043fb00b916a10112427a011def22023316ba0007743b003e0ce5015ccde701023f4d02503fdc015617c300b6ef70019cdf8f03ac2a4b00e84c95,
  0x2cac810223711f017ad10c002fa46500c14d6b03715e530334b4800166347f02a92b2501b5dadd001aa8d7002efbe40394661d033fbe7103dce0db010b87bb0231749602b2ecfa02a8d03e00bc297d001180ad03d8461a027a007200ad087002836a65008b26e0018a004801447dce01d717e002495d03,
  0x2dfa9703a4186e000de76c01651560016da0ed027500bc02bf3cd402707b310232eb0f00182aaf00161e99009461df00718f0b000c5db3010a377f00b7ab1103badba60011d22c03fd147e01f5a7eb00247aca00624f7e035d5c9d005ba82b010b42a50163dad803b3d0660398ee0002b67a78011f8a6c,
  0x31fb99010d8ac80320c35503fd0cf300d9c71302e43917002fbced00d395940247b6fc02ea08c500074462004c56a902bf1dc30100bce8018be2de01906ce7026cc186031eb6070159c784008c3eed0014c2df02f474c200df8d6401809456009502d602ffd5ad002cb2e3015ca93e00d805b303f211c4,
  0x266ad701420a9b027b337f02b6e95f01c78c5e0249529e03da6cc2028612c501f672ff03b58af5000c02c30086daa00234cbf102cb329503d0b1430257649602c7e01501e92b900120b66800bd2aba003b5d41006a406701d4d317007ea60603a3c7da002263a200a8f507027cd67903df19bd01476ea0,
  0x2d2c0d0025158c03d67c0f034f8899016c997700d0dd4a02063aa300972f98002bc5400093fa12000b8824015cdac102c181740379769d008a3501014829e8031b444a02a308e903bab49e02fae71b0020478d03913c200285db7001932f7e0236d8d6020168f80177942201ea4fc201f25bb503df8658,
  0xa1430024e172403cc24e30062da4a00f6322401d137d4002eab84011dc803023a1b4d033aea55003e70e903c3889f0016527b00994d4c02e86e2c03f1f0e700c8a56601e040a90200528c00d3ebe2003a7d36011e9df6013b0deb003d4f5102b31af601f439020306eadf008d95c10062731d024ea159,
  0x17b73a014fecbb020c1650035046d9002f9c5a02ccf55c018534c40125d79503fb78890071e4a000159f5503b2ee09031db3db0114aa7b011d966b002662620238dfa403c9b127022b29bf0270b4990023a8aa03bddc2c00c651d100d6b47a020f5603005b12c4013b2067029d89bf00e2f05603bdfd16,
  0x222e51033ef5af02f163e6021940a30021360003389eb7036fdab7006606c40254094402b39458003354ef01d388980025518a00c9bf100126e5b302c4220602b41b720204ef4202d37c3d03cca2690021d27903c3133803164adf01b50f710166bcf100d3dddb03f2f5ef03c3712b01c09ab603a4d417,
  0x1da70301432c64017de4aa008bad7802b339ab021e86d902f5dd2601e2721b01c3b76b01205e65003eed4302d69ad4024d19c000c4c500010fe17b03b1a43301cfa6d40049044f0344ad160122390d002c59c801d27c000397f7fb0133720100f2a661020329dc017c2a9303fac6b30311df790073fd15,
  0x3ae80244b9b50144cfed016e8eda02fe651e0155f17203df7fdc02bae90a03bd7231013b41cb0039370a032fe20801a566ba02652e76020ec9d9020cd34d03604a1202b31854014473d600e497d6000a48f203412bdb0317ec09009bb73d01c705ce029e301a00fc4cb400afbb8a00dc053300c0c269,
  0x1ed60c018c19a40315a2f3015a7549005ded4a02a1cb4f01e393880228c12b01e3fa3800c8e386002b56e6016cec14007c8e4a00e84c0001863e09000b7b85022514720376cf1d00efc05302fa23ec00090b80021c8931008226b503950778029e7da30202d84301edff70008082b7032b8d6d017750a0,
  0x140572005038c901e356ee00af91e50101be19008ae1c30023aa650093fadb01438c310117d82f002eae3e02629c400090048902ba5b9e0247e17e03a743d70388ce9c023340fe01674432038cf3e80013f489015fdac502d2eaf401bd964c0057424f0206233f01535cdf0266df3200112bf4038203c6,
  0xb0fd6029916210324beaf006c833303c546cb0218fb6101d07b0301a3437d01ae632c0130bb3500033ba302a6050302c60ef8007006c80323375002a4510d00d7bdeb03654a3d02162ae3008ab3d5002861b300e776e903ab326503b68fae016f4198020584d7021dafe2003adf7303698c36019d21b1,
  0x621f101e04316033779d70208b06901e3e9e200f2bd8203ee616400f692ec005ce0f7023a97e20011b2d00370a95b0142cc2a001bbb170099c66e036ad83600a7e5e001764ff10058de7402be54b8003025e303d9501f017891a7012e0c5601742601014f1dcc014a903e0396c1ec00b0a6f9032b63f4,
  0x1a9225010b18b800ddc9bd019faa9300531a6d006c7212004862f9003b7cd801dcb95d033db1110013041f03521c7f01ddda4f002ffe34037fa65e00d090a900bdbc0800922a38010fbe0500fafcc20016fb3801d6c880025aa9dc012738cf00216f5a0019638c02be39c403d8c2b6031c466a0009f5a8,
  0x52bc501b6da7a01079ea0001cc5b002629c9b0205d49501812ac8035028cd0010285103a55b49003a072c015ad03002b6042b00d982c9035b7f35022cfcf80046466001a360540161c3a000cd0e320018a114033123950158d3510371796903cd091801f5d37d00b65fde01739fa50345c3a100f92162,
  0x1bcd8f03efa48601c9687003a10e54010ccc3e0367c84800f54cc7027692b20096b28300a92390002dbd0c018b193901cbdc0602d9a52a01fab9320251794f03c9787c00d19bc801fed66b01a75859001e26cc017f320701e837a20222103d0311afdd00eeafe200a62fac027f3ed90258a519017843a3,
  0x20b7b400bec94001d58d1c03f93aec02de470401175b9c003ba23503b3d9ea01c46be10080aef8002b761c0297c59202fa116101dba7b702799f3303f9b7900233121e01514c9500b6f7390013c7b40016b2120166a62901e4a9e3028abbdf039753f201c60d2503982bf102e464a600bfa21202757b10,
  0x2a54520201d7fe019cdb28016df95a00b2e33c01d8ac2d0293b13200d4e5a502c6df4902112fdd003a4ab203cf721801a8759800beff0d0054db1302ebe656015b88de032b46f3031f0e9803631144002e1f900354206700db479903a4b4a4006286950024b717026b157b023cc39a022c03ee023ae7e7,
  0x29c79200c03a01019de33b021d02750228e8b9013312e30293eb9402ca400a0111f24603db78d00033de4103c3fb1a038b236b0302b1360286608700bce52d0155260001476a880280ba1000b821cf000d9ef7006c228f0120fe4d016b081303def62002f3e47303ea28f001f295810164e56701c6f88e,
  0x405f001ed998a03cd3230039a22d5017ca70c036e5b9100baea8f0032b7e703a303e203cba190000fcb6501be2f0a00a6e787011d040d03deb05200e2184301d91b3d01fe455e021902f601a5a2c7002abe93008b649701b10a6a0204fefe00369fc101c9fd5402dbe59f0271d431002a4d0101722198,
  0x1a45c8007ad0330304a16801440ac900f79fdb0167632803681aa50383087501f5e37800989ce1001357bb01aacc1e01fe9e8a03c9a2fa0153cea000a13d4803d7ba94021b569901d1159703e50ee6003f5a91025369fa01afd5ab0352266401f43bc400f60aa901c01e45018cf9b5033e25d1001004e8,
  0x1519230096d16001d6c326020c39630139811f02fc2c790228f3600225a22802eee11502c2b87f001a5e0800d375a803a6cb0803e1b26d03ea468002eb52df028e6e3602df0e90038bb72f0132316200380f9a021e10cf01ccc9e8017cbb7603ea8d7100d4616202f19b150092d11b037ae6b803604c98,
  0x242f50263f6db03cb13c202940e3c019a3adf0272ce3401a6da8d031351e303abecf2033707fe003029a201d79c0601dda0460302f6de0057efbe002ecc1d019d9a4000d8c5c0011d001b030c923e001aab5c03e9c8e4011701950009cfbd03500f28037bb74001530ac80015337902c0eab00103e4e5,
  0x4c3050137ee2100ed056e0113259901455038025965f5007d073b010c3064027e07d402196784001574e301425c030055c29402678533010d57560356f4570068e0b9007d54f202691dc200d16c6c002a18140310354703d834f202e1bef2014a94dc038df2950318063400a53ca8031fe177039b485d,
  0x353c48037fcb8b009b2b1701d0210d0068227803e733a2036ef5cc02711a1402a3ea8901881ac20039a17200b7c0010229141601f2984902e648ad02a7d5000287a391032a81ca02961c04021e393c00040c0c038e540d0296a36a033694f4014b9dc203f0810b03cb696c01470eb10094cb86020a22d5,
  0x3f0ce203622a2b0034da6803abc44e0380e9b601a5be1d0000fb9c028d2299024e2b6a03a25f270000f3c60033e7d10290d70b00f50a7a00779a6d01ef0a1e00ba75ab030b160502f5d05e00cf91e700304be500cad4500040098400de4289031168b4030c90fc039ea17c00ff083b033124f60002b5bd,
  0x22c3390375cf88013f7e3700f7aafd02ad4dea00c6f6ce011976040035fa09037a68b60092bc7500321b990300863802e3c9f7019e2618010bb0110020957802299324000551fa02fb28cd034d78f00022d72403cd2e3c01dddbc6039938160004542d0223076502b8269f0158ba100239b32d033e33d1,
  0x3d965503c865540282d625018873aa00fc513600629e8300c7539e034122c4028855dc02661409003fbdc1013698bf008dea5601d91b5c027b7537028e152b02fb25e60272962c024f62010042a68d002ba8ac0004ecb4007f425c009068d601501f3403ba2eff0158b2d10090cb960206e25001967b9f,
  0x12d0db02146d8d004b79cf004bae0d018b5bad033725a702679753016b553a0235f360030b7c2c0026c99701c074c100d6edd4025ac3ba0142b46b036e3486018708890361d01003ee7ab80207cc85000efdf9017d27e80231855301ebef2f0285c03f01207ee6007a790f02e567a302e419f2026747d6,
  0x3e0af8010c81930137a0e3011f1541038cafbd03f6017a03fea51001b92c2803782cfe01912cfe0025f5590089d789023f0d6e01a474ca03ca903101ffb26802c6e05f029c228003bd5b66023d7ff400127255000ebea900d0e2fe00976445020c381000e83ae503e7cbd200e8bfb3019ba0a702e5715f,
  0x389bdd00f47f2101f6d0bb028313920387cb0b0266455901cbe9550302990500904674015f6d720032f29200847ef4031ab1ac023280b1033d833d034e0eb7005c01f70093b93100c70a24018a77650037b32e0364bbaf036ce5e3007f7055010b674c03bbea26027417c1038c4ea40263fd0501bfdf76,
  0x244dbe01e64ae203e0b4d3037b5a4c036a7fd602aeb3e603e9d1dc0025715c006d9cbf026f7caf00266e6100fd34c803ed0132014537530147ccda01a8494a016e946a03d5f73e038f5a5301274f0c00363c4a0272533500420e33009667a40329d97803ac847703f23f26032e1b5901ef186f02bea383,
  0xbd1e20344425e0113cb8501c454bb017e789202da9d8f02019cd100228ad3018a7671035c682a002ce31003a5561c036736980087e4580332f12503ecc17001b4cb5802b7e13e03acaa7c01dc924c0003b867022e1e3102ca061d004ca32201eae7a7010840480251298102cf7001039b06a602355427,
  0x3dba8303c90f4e0250d0140141ab720079981c00ea7da2005ab3cb01716ec201f0f33302938a22001aaacb009b910c01eb94580064fb380199d1f902029af402bcd75e028c5faa0287264d02634cfa002eb76a022586dc016a3c63000ee6e60055738b0273ad31004343dc02311ab9035ae1fe014626b2,
  0x310fe202a17ff90214dda301ccdd7003180f7c00130f7702b9a938014a1ce002f626b5017cb3a200032bf2036e6fc70265d89800ca24aa000ab84003e8344600803c1b03649504013f4a54006a77af003e40c902cbf993019fc3b40225505d03803f5102b7f5a3033ca02700c17e6402b96209028b802f,
  0xff00c00844514002f4c4c020e149003f168b902f2dc7901d220120265f2d603fcdf560363020a001ad54d0103cb8601b9fc3402cb9a4a038d5c5b0001dfd902720b4c001bb59e0275de27026bf9ea000e5e1901df7e7f022107d3028be1c701257a3c038b05c800a2920000c0560902865562006bd3f6,
  0x18ebe0010323902e3890b002c8d8a02e62b37022d1a7e02a43dd103c3945a03aab9dd01f25e4d00063aea0301e333019cba5c001398480032009d003732dd00f117380310d791024875cc00f7b6a0001bc35c00c83e0900c7264d00ac89c302d9bc64001c48f0030f599c0001ebe8006b4f3103846830,
  0x1d10c4032e04c102868f060263f50b037cb976018ffbbc01508396019f6536024fa2210300f8470020a624032650fb033a97b4023b9e700357d6c8006a98e700ce5c510201577e03e24c82005a66e900044a65033a8f9b0365a2b302ef6482010b836f01f6ee7a003dc6bd0074f32f00939c4a0249e4db,
  0x2e7be8037a32a6011fda6a006b0fde01c17fa6022b815700eb013a02d4c4ef00a5608103d065b7000be8b10060832c03680adc03575ac202435751022c53d10399fe86017bdf0103fce9e500decf73002a99b403a43f5e006dee4b01fb5863038dec3b01168ee403681c9301f512e5037d008a014c5801,
  0x3fd45902a627b90337a88b0026c69e002549da003e396c039b39fc0354b1c40014baf300de054600392e600122449b035123610189a72b03fa020101d747250205d7570308d3e4003f22ab00bfd25f00287a9800dd0dc90231abd300aa5e37016e4f7f02cc5f2e03f97dd8036626aa0307dc5100a3ff63,
  0x3c040c0275d06d02454f2700b3ce8201d7eae303c11c470321e575037a869201f6332a027933e8003439ce02f2ced200c6fa5402d151a5010441b30090cbf202dfd50500dc88e20183e2b9003093930032959c02b98ebf008cc8de0356859102657f0e004221bb013a47b801ffb3db01ca8cb403c3ca34,
  0x1907510133217b033b3ea40038ca9101eff4a001bba8d703852be9035cbf8a012462560257c107001afb2103396cc602d535a101f2ab17015d6ed7027887fd015f429a03cbe8c300de1bf6001367850032febc03b83f2803c0d42a039bfbff0275dec40102ab1a03b2a66200dc8c1c01ea3d7401232d3d,
  0x160c5c00391c5202fb8a7701f58c6000e625eb02521a8101122c3e01e6e6f00131ded903a287c800154e27038195c502ae0627038cb6f4034accc10337234e03cec13a00912293001524c002c924c7003b77e4004c26d801d0dc8a03e60e4501cdb88a031e4327021e551301d0116002abbbf4028cc368,
  0x3b00db01696b08005027a003c7a36603dd91e300f890ad01c3abc003ae4516031f44b2029e630e00040026026065ef00d738e5039dfc55030d3ad301938ec903cd83c80183890f02d75465008c49d0002ecb130372d9f70266e929013e4f1c03957c4c00a6405c012d384e010d04bc016278070358fc4e,
  0x8de79008df09c00c3f8b400d0fce603ce3a520119f048021ec6c30397a6d703e5409d025a456b002ec8a8030dc9220299915301ffe4400178e9b803fdccc20052c45c01aae1f503ddc4fe02ed315c002da43e03e3b39202d8af6b0358a0a4009ba3b40335ca12007fd3f4017cb2c200d1fb4e0060e7ec,
  0x3ee1dc03e005f401d13f2d03f1d51000dcdb1101d8546a02c2e07d028852fb0213822203968ad50012a61e008060dd0010a90c02a237e000c258b900df7d49030e2b7102e49995009b0441025b59b80025385c013c8bfb01dec40702f5994202d9e56d032748e503b9c86d00f52f16017d754a00c7fda0,
  0xb91810242a9b002fef2b1000b92b30037bacc0193538100e6835201726c8202be440e03ea7006003bf1e2012c55ce00f7816f006e557502a4944b02f74b0401a411a301ba0309007835d502cf30cc002c2deb0057ce05026079a10059443b012866a501666399027e13fd027f665802e31e9903d88d0a,
  0xd136703ef059d01fca2ab029b71df0020292b03c225a700aa42f20350ae4803ff5b3801f29702000cbe6502023347007ed39f00b28a7e0012419c03f56dee001f9c1f02f61d1f0290798b01b895fb002f803703e497be013abb46006589d60126872003c0e975031a319e007624980057dd4803fc729e,
  0x3b59bf013a17b500db36b20329109301ff1ad9022b927d016508c00198c9500166ccdc02ebd6070003cd6602377af400d66c40019c0686003800c20160caee0046b5420154d14200eb8912009f30ac00291f20004cb98e008fa21c0070720101bf0af502dddb28020a632f00cef72300e42c2d000223b0,
  0x391e83032055d2014c727303d95cfc01f10dbf002a60e200bab2c2016a7f7d013e44c100560728003e293d01d7c1d0003c717d032c110a00a65f590189abbd03659d0b0175f4d801454d21013375d800055b29008ae283023cdf40019001cf01662396025cedf2021ae7f400a5661001731bc800576fe7,
  0x355fc003da75dd002ee7ef012c0e590312721c00f23afd02c1c6eb0374e82302788d3b039d8ad000324a6901753d6b0078786b031ee9270228a8e5031eb9b10008dfc903c2a36a02e92de4016eb096003ac53b03518c3d036bde3503c9129503d6745102f7690103aa7bb603ebc157013710a10188ec2b,
  0x16e79603baf59c02e84a8103b96ef2023191a600f3db4503891cdc019be3d90125fbd603b9149e001375f702e8fae4035bfec0010de534017b07940203483b0033ffae03d8c670021d8113027d1a7f003964ea0077aa5101e7773403b83a0b03218db901f8169c01bcf7be01f6501e03bd53430012a390,
  0xa4158001da6a000902dda000ab8ff0389e963036bd2ad0121efa303d64f81029759ea004aa7640010a7760210bf8001940c680351a50b00868c2a035cf81803c981a6002134d402d6cf5f02fe42d50031b2ff0248bab2030500b40236a53501bbc61e01be312d033fd84503021621024a3bd40363f618,
  0x31d50d00d3efb403a20c5703612974017a23b402509c2e0304413701116349034565be02b84ae4000481ac033b5e3f0304cc5b0211a63500597afd01d6933b019c46140251e28400fc7a74036474880016f517037acfe900f0f37d03c88fe2030c809001cbe86f0241125a0350a5e10183baf8035d0cc0,
  0x36e6a9032c9ef101a2cc2d00fd67ff03b203590305c16e0135cc4d0196421a033e9002028b82400018448c0228fb0f01cdf83f02feb6da00722aaf012d297b00d4c57c02529dfa0242c6aa03850fbd00364ea601127c5e003f3cc803f163570207d9c003e96245004027f200c245bc03c84133008193b3,
  0x221c0202c8caee00b9f6f102ae3b0c03138bfa00d5eec60020847d02989cd901da050803b1c32f003070fe00bd4c3d01e55a3901df57ab032779610322861901dc97c2026f496602de306f009ca3620004167c028161e20115b0dc00f8eddf0238aa980354a3c802f4e72502d09c010302af7e022c436d,
  0x1a2e90058a0b502d62a3b036429ea0025b3e80313553b0267cd3e002a1a3301d952bc03303545002a1ea3000b599a0308edc60000263d027b6c3f0066d719003cdf08032d2b6503f81e7a03a359780027674d0122a3d1019004b201172a910008808c02ad0e8e0110c60a002fb882036f87ef00583782,
  0x3f536103dddc6b0013578b005f1dab029228d600b048de006c1ef4039736a100290abc02a7fc58002a1abe02b7a8de00ff43d6021d80160185e8f102bd2d9800d472530181276e013c0cc1003eff04001ffd0600dd74e1002d7f29026912f601454649014f244e03e87d0c0221893102ac5bfc02379d90,
  0x9aadf03eced6900a6d47d03b28429014b443300a98c0e02875b6803d0981b01cc977b009d76fc000f422d0084eed10078756903443f24019af6090301c6b400ab7592035590ba0141c7e401695717000a8bd40172edef03a0035a01af9f5b00775d3501197bf80166fc07013b3e8302504dc802c2b64c,
  0x2641a202eb9c3b00f26f1a032c9ca5011bae8a000ce3de0046746b00fb886a0066c2ea0137ec920036b9fb01727b15018e18dc02f7acea01a9ace3024a70fe004b136901ddad1502ecdf3003ad18d9000f0f9902410a85006eef8a0279cedc0391ea77023c6c6202841999006de3030297614000ef338c,
  0x84b201bb69f603132a2d0190ca0e035e0fb4034d19700222db73000c6ad50051e2cd03270c08003b6b0e0174869503e3de1d0205c58902aa438b0359e6e100b2e81800c0d33b03462dc600efaf31001e2fbe0075cb03024ac09302a86a9003a5c65602500b7503ab787202e54e2303bb083e00f729a9,
  0x2e2c5100a919c00148b9180248d28101fd56e4030acf310391d0d700454d6703d8cdc90271928c0008143902fe2cea00eda328017ca54e02c1f4cd027768400277845901ae87d200eee99503d577b70036e8b700f37a61020c2e1001282255022e478002c182c4005af5ba039bf39e00b3be5600f1a61d,
  0x3e096503e5a2700013dff7008a82930004a89b02b85178025cdc660170b4a303bf7251005bc5d0001f892903ae037300f700cf0239c21100e21f2d008d980501aff111025c7b2d03a6a1dd0251c57800152d9400d17b20033e1f5001c9fa52018b3b2b00218ff303e270f101a855d900daf24700c335a7,
  0x1ceb57024664a201b54eab0173eb8101b514db00fa6f3d003a96d4012085f70015596103b8b7aa001e09f5014e9d1401d551a500ffc546015d56030377339e039f09ad021b0e2b01ffad0502dbd9860035711a026bee800386897d01307c3a004f2a4a012fd34400f289c900ce6f8000315e5a034bd699,
  0x8a920002ef79a03f65f0c03f15d4602bb185d01b4d10800213c9b00d513b5001278820316bd9a000d0072038155f302ef04e80187ade503aba79803c65ab102b1f68c00da1ef400c693d40160d5a50024130a0176c93a028c8f8602e88fae02a6229a01d01dd5017ff09c025bc0b4027bbee803c048f7,
  0x2e507802a7ec1300d0529301ec317e02db149d01d9f54a00753fda00f3f2b3028f5de3013eba86003797fa00d1eb56010e654203bd2d5c03e5759f0166aae700c5c70102678071020847dc02b31e6f003bb14100984595006e42f6016dc61200eacc85005d3e400340c35b0096bb2500e4914501815174,
  0x1b25ec022657d60136d63403b5fe01016d05b6018c7589014a0c4b03d7e3ff022333880380aec8002895f403bcac6601c9acdc016aacaa01ce7f2c02353eee02c329bf0361ff9a037933e401f6c434003c383c02ce1d3b03bcbc14034e0cda01d3cea703051166006695360304f33503168ec903a4e867,
  0x133df501bdbb0703397fa402f11a2802cdecfa0221e871033ef45900dcccf702ed4734033c1ebe003b7911011728210379f2370263281d0396d7a803b738cd01bba68d0310c9980046c14c0032396b002effef02276434025fef03034e25ab0303985e003df9f5010786d9029fa6db0135dde301eae438,
  0x693d003f19ab401acc2650098eb9d01f60916005a1b5c007828c50297717001fdaff000dc2906002620890379c4cf01d5d4c2038d3d1b023b3428015ee3520083763a0078fefa00b1be9501cc1b5f0025e1b700c811e1010d75bb0009aec40105a5d200d14da30213ae1a03767a6f01bb98ad037062b1,
  0x323ad1033a380803d0247202f6533b006296190117bbc403e7ba4e011d2ab200e208a300b400c1001bed9503d0470301cde9130017e8db03a5003403f888e403e05a340138bb6e02aeb93600593d320036e1b70168a6de000c374f0300e6f802eb1fc8010a738f02833c67029a8d4102339b8902bb8f41,
  0x1ac05c0341689a00bf754602e46720024bd03d03bad776030bb06103ffb097027088c103055c970038f5bc016c8b0a0359e24503d6766e03b7ab690027d058030e9b2c01faca400364dad400a10b34003c1e5a005f916f01d796c70089899a0366392102ae27f00124aaca0180463400d538c303c9361c,
  0x33dc2101842e4802167fe902cd6fe902be422d033fd051022a516702b277bd033b6942027ba7770027be7303481fe001373d8003fbdecd00ee23c4020b48a6024abf0f02daf701014d793601ead11c0025bf8a02a61b150024d53501a7e3e203e5efe60111a16401a1fa5303a9303f03ee16f00083f752,
  0x2b34bf018537620201370401092c6b03e3eea000e052090332f31302a6614d024b937b00e6e0d00019c88e0292eb9600d8d5dc0321272900d700550011515a0195c26a013fde3b02ce5f0303ebbff00012226700a67f52020258af00db354b02df89ce01f3fc870037972b029685c503e4b25201c80a01,
  0x266bef030bae0600e1b48b0351c8e601c8284a02000623025ef71300235d5a0299f4b6038b79190016b1bf016eb03d00fb80f200b2d136004d6f8a03bb135000c44e760093a8c502b8d74901502277002d2be00084819900e53c9e0355646200c1c27e03fd1716016598390218de71004191350093fbd5,
  0x2727d80239598b01334fc80101d15703f04b88020aea05021bae6802abadee01215f6803920d8f002be941033a666301b78a0a002e7bad01411185031f63ed02b9808800036570024848b002140d1a00242bf103b162a0008421b4023df507029d32130124b6280217c23603ba1f87030cb0ee03f2469a,
  0x391fe1027ee7fe013c73cc024736d100d0e8fe035ca30500771e2e0159227e01b7b1b60337fd57003a70d10255fd9f0261b4d6026a987c02afa7b101a55d760131ae6d036100b40192321301c46f6f0023e8fa021174d901b0ef0a01542ec30008ddf2019ff11802c4940001e45e9700fbbdfa0006205c,
  0x1c9ca40340f12c028dcd910039aca302a24fc90390609c03b73755012871b801fec03f03f746b1001d193c010d0e9d02c8fc900017acd3028e1a5500aa424c0383d73303bf1ef6016492a50394efc600212f9803e6fe4a02a6e77600eea9160224470e00a02521003513ed014eca900089fb15008316b9,
  0x30b94d01d0c72a0217e40c01fefafc02e15339004c60e201aa92b70321804402f677d803ed9130002de7c9015ea692014e2a5d006d381e02073e020398edec01da583a035e7a9f02d11992024409640039939403b2bd380162aaff0340b56701e7833102a042bf00da041101223d0402df7f0400d0da8b,
  0x16497800bb176e02c1fe9600231a1e031b9e1a0088063400f8ccd8005d602b01b2103d029c2e8d0013c9ca029cac8b03c06b22014926f000d08ed5009389eb01c750e00041306703b5aac3010103d1002e478201a88ba901f056c30333633c00dc4eec03a224f100320a3003a81bed02950ca400ee1409,
  0x260deb00a65c040146dd52023de70e021cee5b01f565eb019b8e9602d810a9030abb4f00e0ab9c0024eadb03df62e502974da8010f49d301f4b69e0304de2a0181c69001f1e363025def8d0124b71700374880024f4df00142ec6c03aa7b7100f860d702faa94101ee1c9003bba6ed01a5938401040db5,
  0x29f84034de6d803495edd007a68e8023ccdae0334e6fc034221f5030f86fe02feb6f302883871000575f2009e8e1003502e3f01aca5dc002b253602f2e283036eaea50373d1c703565a82013a559f0016c535008c559d015813bc00c698b803cabf9b0241a81b015df1c90024fe4402683b6402cfe905,
  0x1a6f902315b42020af8e4018aaff4000a60450147a3fc029e61ec008b98400359162101324037003045a301c85c8700c048b800c4a98e008cc39e022eb7a4024b5481014bbc8c006f759c030bf4cc00000d1403fcdd830247f15f03ed323502c5c74402f3159001c6df9d01f2548802b2424100a57875,
  0x15753f03ed466b0174fd7901ed6ba90189e931008be9b702d4a51103c3fd1101b9de9d0309ea010038187a0255bdbf0207e62303df761101cf80d40190f015016a8e51020a3c3703e38043030ef64f0004b1ad0242be8d03062df50098c3d00315242700d11af8000e6967039f1c3c00c4adec0192d443,
  0x595350153e95c018a84dd01edc2bf027bdc000277d976018519a403c75f34007d45f901bfeae2000ed6b600fbd5f501579c160182f8ca023b44ab02189e65010e906c01fe926d017d60f703de45f200196e3b01c82d3b018bef4701f65b7c0126a1bb00eea4f900f56e2500104c1400a42dbc0177a267,
  0x39d0fa0363188e0235e93803a714110242598a02ec91a10184edc1023d9ef000cdc4930344c34600280c4f02715f7a011c16da00de3a34018d6d120309db31006b7bf702f80a4900725ab20007604e0027619903dc94640152756b03de417401d0542b003fa6100336a65403922f2b024b86bc0352f498,
  0xb1f94021b7f8403ac9bb00359ffa501cd219901bdcb7d0123e245007027320224c91003dec505003fb23801d29ce100af940e02ce59b90380e71702f8ddd803cd123d010fc15a02d3561b01dc73a6000881d4025381980294c6310106012701be86f203e4136a00b5a8b700b2dffe03fec86e03b90c69,
  0x3641b80048a0410128c09b023383c30234855502a5b3c800da202f03e5ae2a02dd67950284b7fd0011c1f9032a8cc003171e2903051dbb02f0154f028ff53f001f6ea203b5645f00c3f58d02b535b40023c4ad03493a900097e74d004b31fd000240e80235ba78036e66b6025e0a0f02abb034012cf1f6,
  0x24d624024a8e8b01a846ba00966d4800bd71ce017ba60e015da49c034141b002461504020a5b7b001baa5a03f298800058ab2c0252924a02db8aa3030ee6cc004936d1020a1be8033548b00220eb170032029a023ca85900346431007d3eb002c37cfb030118d802431b6c01e0c1590363021a01007337,
  0x184d1f00b9896603e15c5903043cd303c3b8aa0100bebf01a8ad2603625662030c5c6901cf2db800061e98010d1a8c0330de7b026ebdd1033efe1301c0eb6f038d4a580344916c0209bd880099c98c0020ce70015c4785017ecab9017e5d8c00054a4a03018fc2016f71930025bbac024ef1d300afd3a3,
  0x2cb3ba0138486002f27f1500421a1303e30a7802510d9301c4dbb40172af71028d680a03fcbb170029cdd401e02265016c6dea01003f6200c1025f0054f2fe034d027601409d7301abaea700e1f37300276641000ca56c0237cfa90101db9e03191d2a026deb5a03779a0400b1e238023e94c40129609d,
  0x1447a6027183bc03c1ff39009c722e0107290d03b7799e0158accd0281387d0172534f0059a0210036a5e7030ece00019d362100720bf30043c45901b4e76a02283678026eb9f803d96a10007cc2a900217e3200896b4e03dcacd703f7d28b031695c5024d365801fc055100460e4001e2114002c56e65,
  0x9db4d025e21a902da6b57038db82d034ef952033e8f65029faba701f730fb0309acdc0226e316001317a100e2a05e018b173602f3a575001348f50017f3d9036246b00117eb29030209e4030734940007b14b0097934803d337f003f3271b03a11a2f01aa72f502ab0d3101a8f37603e6fd64032b7dd5,
  0xdc8fc027c7318011d6e24035bfb3401f7d64900329a990120e393028cec4e01bfa03701b7370a0019108e03e9dc690196af14016a95cb036545c3034d44680153e9100062d93c0132d47501d7d76900231839010c996800a6f18d00864ce0025ad87103d6951d03060de4001d66d7000e2f3f00c43daf,
  0x38b15700a3009501ee7dec02d4f57a0128348303ec14050042c5f2013feca9005c14de0307ac260010e726024c5a6a027c372a0286365202568f9e023c0f47006d7d9502a2570e00a3c05502cb027600037c2f01a96c0a019086d503bc161a0153bee603167620024d36bc01e6955e0122efe6027c8fe9,
  0x1a86160121094d0176ddb90306938601ca404003c608d60276e8c30154cc010087111200db084f00143d8c0378a974008353ba027d0af9017625bc010744410035aaae0086d4e400b8d5c0011376c30008cc8a01017cb301a52cf801b2300f020d738a02d4953f00e66d850325419f0171a227034ab761,
  0xb87b0006197e302f6c76802ce296200d01a0f02040be40147336801eac9cb031edd160233faf5001ecc110365bd15009c4de302331e73019909db000dff67006adfe20250de9101faa4fa021bd88f00125f71019afc2e00260ed0015cf66103b0d617005cfaac03755a720294881402aa4595037ab5d3,
  0x39456f028b898d00a45ea40392375801ce9f5002ef5c4d02cb3fef01bc2995025cca65034a10a90005a0580036155d0170d40f020eebd701a66a0803cade9b03ef041c01d61f92025f63f5030e73cf001134fa0026f84803a97044038c6b4d03d4604000e82d8a02cd574d014c1d2602e5b5180388c191,
  0x225f1a023a3e3901975e8a01e6cd1d025b37cb01a6d67501751297011e844e007b2da7027776f1001d053c0311cba602191ae3000240de0342406401ae6d08019ceca700f030590014f3c102b05ffe0024ecf5018be18d0242dacb02bd8bc0030166e000e8fc08017d14740148d11300a122ff01368b4e,
  0x3f543f0259938203fa683301e6abbc01b86e1d006d8d0a00120367019a68c800e1696c0318d7f2002667f800a06b2a035bd4d001bc9561029c785500e479f00176ba370351dc5c0219185c03732932003cb45c03ad953c03fa10ad02d342f4004762700131b594024a8b58033c291f013390a303440279,
  0x31d63303c5d56d005023cd03b78bd2033cfd22023e8f32032cc64603610a8601e769bf02eb98b00028687f02dc9a4500f701800203a85400ccfa1c030174b0029c99dc036fb05d01ff11ea019838a6003cbe0f030d81cf00635ea501668237008f8d8c01b380370160578d01636655006962de02591444,
  0x3f2b5300e0591c02ca3aac0341bef400c945ab0144728e00e0603703921e5902872ced03a1a250000c67fb0272715901a842680347eb47000faea0029c8930035292f602019f0903082c2700e353730032100d038fb53e02dc05df00e8a59601138e5601342e9b02b600c60099ea830064ec370188c974,
  0x3fa24e008eb8d703cd5b4f02c7eac702df39d7001a22cb03e2ea5d02d2f395003b9ae101c83225002d5e7302f113da01165f9c00fb04fd0209fab5017dc9fb023f8a66028784d102d73e0e0267e8d1003c9779036aa4f601948c7d01e7605002aa191602843e1e0160b36403ed012b00096fd8000c762f,
  0x377c9a019affdf00891f41006c5e76029026ea00099552035e7a87016b568b020f35a201eb04a000358265004de24c0020bb3703b3611200d0a2f1013b0abb0149b73c03df7ac5009286180022b3e50022b6130242f05d01adfc58037b948502458d3b01ed937101978e63019c48bd0379aa7003d7a143,
  0x34194700f0668b000a3b0b02a7da94036d0abe028664ec02861d4503f1275c0254a85c01197fce001c34ba0242d9d200da8c6d03149b3f009ffd140269624c02e7012f02a9732801edcd9402e88d000008ad5e02ffa0f6015511420147ad8d01ce9bca01ed16a70294282a003bcb7803d05de50147b8ec,
  0x5754700b1558903cd2b6d02adca1702f78724027ac374026b714301f22ca302f308a102f9790e000dccf6035e5e63032398ba02852cd900f73c37018f90080099366a02e4dd9000c16e2a031aa128002a30f801e44b8c01ae1f6e02ea58e8039cf78a025aed9f010b03c4006cc58903f4728002cd6688,
  0x17cc6100739f1a038b05fe00dff564036077a70218f4ea023d8ece01ce0c4402dab4c301e466c000355a01013b449e0233ab3a03ee8631036196e802d8db5c03482c250235e8510109a12f020106ec000edc2b038153e303e2dcbd0280c5a001ef7e110108d33600b830d40041fa8d0023d4f503786e0a,
  0x3c38f603bcd9150019f9f30294c2420373ce44001da1f2034ecb4e022daf55030184ff031c7a150006752803d62f07013e870f03b35187031872d8036e18c5009669ca01561546016bbed80377182200041d300397c4300080a19a0211f50302d94595001f6a0802c3776802ba95040378dfe402c6213b,
  0x1480de008ed50d0278912301c41c2f0044aab702658af900711e9f01d1772303a57ba902ba1fc8001450be0236fdb0000ba7ed00216aac024c9a5900ae7cf200ee5772031a7631001043f002c6812c00331e800109ab4a0190d82f036ea51302a9e45c0022844e00654920032dbc7e035668a00217831c,
  0x2c723c003025b703d7518901768b8603d6443200e97b8600bde3b202f3446a034663470292453f00248f39026cb1c8038aeebd0053fd87000eca0f02cf339e027b43360079180d029c7b4803ed7996001b20260197ebcc0068d8410048075a02149dd703621c470005518800b564ab03d7f00602cb8bb6,
  0x3fcf8c03891b7603dd7f5c0068985b022e4a0400efcb8e009c28510059d3160125195800f75bad003b83a4009dad5f00b915f900537fe40330c3f30354c59a01d023420228593800f4d93e0385cfe800153d6903c7b7cf02a18f8303279b29027ea4930173e56902854542004a7eb503e8fb54024da078,
  0x39a31010017d702982e4f0364003000a7de33034f4a86029fd2dd037c54de0121be4701567b1a0039ee10035792750165f7fa03d47a0d024c4ea70021d0f700f050150336f6e803f9ebca02a303470010a7a601aaebb003b2bb5f0200448b01ae366701ca5d2a00ced8d001f94759013baf3c02fe6b28,
  0x2ade6700decd79012987a2015fbed7033a77b2038ce77f01360aa5038b955403af790b017980200014df54038a6b170378115d015654ac0353ec4902652283019537fd030a929000d5b7bd0365d6e6003bcde10210b2fc01d7b95f031b7d44031d723a020782ec0135b885024866cc01fd2454030a5847,
  0x38862901cd678a033116f501e773bb0080c02901779c2b0356b08f0283e2c100a85fc10060eeac0026e13300eb260403afd59c01b75cef03e166170237e297019c5ee30101644d0268d7b402b4ed9100276ce10102867800407f08037e581601485297030131d703de03c60343482c00871e6f01dc8059,
  0x330b1b00daf6c30195df08009cf6fb033a9f6200f62a610136c36800452f050340275e036df09c000983a003bbd53d0228847100d14e790287dc78013a17e3000bda8703d814cb0342929602303d43001f4ae800d3559e0270040300e8da04001bcfa901916e8803aa32b60120c8ac0046c469025ee9f0,
  0x12704401ef94900088169c028178b403234eea0224179f0205b25b01cec0fd03c15113016d0535000fec1003edfbb4033a3ed202293d04000a12c6011d6b1f0305022e012b21e9020f52bf00681ba7003f3658014d5a90028d022a02539c6400fa092f027ef44d004df6f2005ab42500ef85030237bc9d,
  0x1c0cd6018d9210004fab0f00de894c01847a4702adca570190adfd03c4fcb90098162102e10bfe00247875025542c100f9357a033ef8810079de0c01d68dbd0081ef65012e1b6103a872ba01aa83d9001df5b501dd0e5801eaaf2401427d940023b8ad007c615302e8f3ad026f91a301c091450208966f,
  0x17e3d030622f103c397d900d37cbc03c584b903da7c8802ea1740021db36c01943155023cff46002251b70222f46602c10d4d0164af9400e1f3c4035e3a7801c51387012057c4036c2f4801837487001457ef03b3c819014c2ac5030591dd00ef4a7a0276d97300634c220135910502077fd100dbfdd7,
  0x1e0df300ea6c190130d453013629bf00c02a3400567fda0246bfc90392497d014cd1e900e98aad00028e1e0128c029019cb32a02966dfa0078dc1100858d44015ffbe5033ccd620325e2df03caeb070035a2dc036d6fd703532b3e03584e75020a9de5009e0e45039708f8014515d203fb2d3d019a7edb,
  0x3c37c03909d2f036fa3170154a43b0366dc3c0239ce12001f32d003ee6e81024d79230085102d0010f07200820d9002ffcc8f01a8e7d000555f820180d94a0355020f01c942ee03c9887e038d4c19000eb2cd03eabcbd00e516d9031bb99c00b5df7a03846c7c01b00001010c5b4b03aed67f038d8b43,
  0x379120013f01e903360b8502e74ed703a298d2006ea810019a6ad3001448e801884af902045e2e00247b46030fbd7c02f85fe803bbe635014128ce01d7a38e0328404a0096a61502de9ca60284822e0003274603cf28e7009a261302ec1eb001a7fb7a03efef990311592c030a381803f5f52001d81a2b,
  0x25f1402214c7b02605161019c576e03710ec701c9f1b401cb2f51032a40fd0065f75b033720970002b3cc035ada5402b8dde002e20c2c035a678e01b64edf00f7320c0226df8301dfa73903a1997b002c8e0c01109ebe03b4e1e502436d3c03a2cca603735208008ce92102d98d44039a376103bee36e,
  0x1e84b600b6848e018f7d8f005b5903038f0f05033724c8001213d501c7371b0265668800eaf2960032d44d00721cd7003c2ff0029a80e5031896f10253bea9034345840119af56026a41df01d5843500240ef4037e8f6a0039e7a00186358500ee8176025c1bf800b636fc0025f01000789070023d7364,
  0xef76000bc199201c523c5039f86b202e34e8f03802e24027450b603ec9533001f438c0025dffd0027fc9b03a32260009973c500d7e3f603979d5f0093d6e70256a0b200661a2803aec76f01bfad9600096a8301b1d85d01ecb0ee00814edb00e478f0019e99c0001dfd2b02863f6500bc99b701d8685b,
  0x17ced602bd6900031dd2a201fee819025610010275b0e0007a74cd023a19cd00a3613900585f2a001e7563003c7bd6003ddc7702cd033d01c0c9d8029a7bd500df0d80032158f2014378b6019447e6000268ba02abeae402c817250224f0c301e033b902a98f8d023c8fce037a946f03f0a88d028ebdd9,
  0x3f1c640163ec5a019faa94010c1bd802fb77c802b71be7030817a3020add15015fe1070357b92a00092ed503dff962022a903301ab018c007b48b102b7a96701f0011f0206fea20311513f0202b5200005b6cf01fe9cf003663752030a59e702e3fd0202bc7813021be0f503b13142016428760015d0dc,
  0x8cfc303a6716b008e0f9102e09f150213b3840106ac8800bef3e000c6a51d0038f9a4021755820036d43003ef20f00273c29c002077ad02d40f3501191ff30279053a00d46360022cd416003dacf200324215023d9ddd027d1a0b01d9bcfd007dc8640166f40a019ba9a9026aab500059090400dc972f,
  0x331d3b00637ca101e152d8010b89a1033d3fe802532ec3016e44d700e3513702b0e90801650c27001352e902ce862802d0fba702b12071017a03650366b52201f1c1ca0107bdb001186148005a00fc0035fc400080c1b703b66bfe01109acc03d58075007cfb74018f407203413f6d0094f94d01c83f01,
  0x230a38035c65770161add402f0bedd01827f8e03e2edb30047fcdd01c2d350033dd7100289f3eb001a92fa0276c55d02c387340384ef7c011f33eb00f705cc01124d0b024cfb580106f25603fdcc75003923620029cc3d00e1d0ac0276276f0373b03002b7bafd032e4c9603c1f9f102f1ca2002371ef6,
  0x3373fd0081df7b03e74db102f9cb5b0270f9ff02bdb3c800515cef02c7b27b02e4231c01550eb100175efa02f5860802a5dfc803d755f302880b4b023ff77103175c88030e2cd00316b0ae02f51849000c922a01a4dd9b02a46225026040b4018ca50902916bd000a7842f0177f1a203731ba102994647,
  0x1e3ef502c5b246019df1f703522646024aad7001aa8b4d0364efb401401298033de6f8035048880010cea40144ab9200d1dc7c01af66b2026e001c01ec25f00381e9300005c4b603dbde9c0099a45f000481cc038f2e93031e22b70311ceed010776340043431a039c84d000e7db1300bbde3300e036b8,
  0x1c367f0103ada60015db92028ddb8b0281c15c03877ad1011636bd02168f350194105e01b5116600348f1500b8183501973da7035c2d45001ff3fe0261d64603c8c522018edfbd02e9864e0164e0b600020ba903c5c2d0039891a00327965403f7828b0385cadf02494d40012bde4e0010580000eb4bde,
  0xe6c6101e07f81032554bc0352395c022707770316651103b0a06002036fb6005df73502564ae7000654c8014cbd890204173900ccb5fb00c9ff1b03f695b202f48b6b01156224038454a20074a7b60020918a03e37e6c03d1c25e00adbe4c015f4a0b01e5be5d0100c272039577cb030a3f260173638a,
  0x3ed3f029b63bc03dd4de003ad0542032afa0203aee2440315fa92036d450000c8c26602323d450008b38a010ba0a90297eeb30121016f003aec5b02044b68013abce00050324e034dee2f02b5b6f60007144400abcd48029048880356bcc702043145026966930163c06e01f26ce40011cad803b07da5,
  0x2261190125d18600fefc9d003f7a3a0210c9e900c4c42a01b103ba03f40a580115b88002de1a410001b2b703421e650190552f00376062006f4652032691da02127c48007a46e601c06099002250a70024626b0135b08901470f37038ac8410002cc9003d21f9001b3ade2005a9c5502c7dcd00259cd29,
  0x3cd718023c56ea000ec49502bcbeda00feceea00dc896a03e50f83015eb9df02af2072016f9d570022ebbf02f5bf00023247240350ec9f039c843e02b1749c01ac0f66000d77810208d5eb0269746b000c697e01066ba70315340100452bb60310ee2a0384cf510059a56303c8cd2603a1858b0197420e,
  0x12ddb00332f8aa01f48b4002f9311f00a728d4009576b3010649f200b5e1e80028232f02e4a595000812c602b060ff00ea07200394e7f50314dc8200e2bc9801feff8102269e66021840600064ac690026e5c601b55beb00465a65008f33bc032dc0cb01987c3003706ce400adeca801fd974903779409,
  0xe492a036c3d450238e6fc03a8d2c6022b97850059891f03b8d165007fc91503a3307501976e6b0015b4350249549901b62a0002acced201c1e64400f77415005e411101b19f9003476e480243a86a001f9016028e3b5f0061409300d730f3008f70b000fc1f45015fe0d30250feec03dc3636024da195,
  0x3f41ad039f4cec02a49b6d03beae4b02cc0ad90140a0ca03dd3ec802499f920330ea3100873333000f8533037b052f024f4660014dbb350200256a02f8b52b02c81a0600e695da032121c8006b7adf00256b5003719962036f560701a0157e01073fa203da52130363609c028d2bda0157826e03cc6cb0,
  0x27f4db028d722b002103440219614500159a050203b44a0089782c016224c301ca53e9016f5c770017af5303273d7a008e8b890092ca5c02792f2302a6861f02375a8d01d0521202491ded02804003002eef60032a59ce02807b970232c1be02841f36004429ca026f413600aae9d002ab1f7c0399a9e1,
  0x558fc011fcd9b010dec12020e131603f8ea62024fcae502945f8600335115033f397803c341f8000e2bcf00be6d7802f40935025e1118015804eb000674040387ab340234f0bb0395576902652ae5002e317b01836e0400a74d6a03b080be0385e31c036d4d0b0248d6ca00a2289d02d599b4018b35fd,
  0x2ee44b016c64d1027b74b203a5ff6f027b1c1d00a848dd00e31280034529d9026b158a01e7cd04003742150298db9201d89b7601de448c03fe969700515c740298cc9101989bb902e50da501b4b6bf001be7a300b15a16006032e101028c3d00bb0bd503f5c9b1009cb6ab023398380142c3980340e621,
  0x1503b802328c3902ec1d3001e1f4d500978ba902228df60224079f013851db0277321a024aa5eb002632f303040c68008ca0d302c8af7a029ffe87021fa23e01ed887402f3a8dd008bd39900e14338000411b20326d536010cea7703596dc103dcfaa7012798c2028f517602d058890166b12b00014184,
  0x2e98ff00356d6c032d03720077cd4e03906af4024875b10270843001c244d6006e62940373ee26000253f30147224b02d7a420025f9d86028d42ef006a919803a3d4d6034acbe802ff375d03033725002640c10263a0bc003b0f3c02e047ed02a434c002cf188501a2c2740202408d00dd1f5c0170145c,
  0x3dbe770155aee1021fa0d70195f250030df58a03de795902f987f703498eee00be0c6e00188cee003520f900a8191f03016bd702601efb02158a0702c92242014d79ff0255a699029bb2ac01d7d176003212af01e8a0e60275156703aedc3d0096bde3001f0579019fc21a030a3ace0216a08002e092ec,
  0x2aceca03c1efc5037a41350346b156018c13c401faa0b300f9d31901dd9c78032a786f00e3502f001ec9d0025141af03c1515002c3a6ee02725f05015efb48000cec36023ad0a20243700300dafb2d003e8d28038f2d02010704680248af7d0311e8ef03370ff203e5a079022657f70212283e0275b721,
  0x4dc5f02e169c403a44a87012ac3a40030720703e216cf03d52bf60379930a01afc67a0044bf6d002964fc03f9d7da032bb390023a419d00ce6e45026d101f01b024660125bfbc01e7ca9200ba500c003cd0bb02095742030cedce00cc21a7031d5c930013623c03677c9002c67815015f43b601010786,
  0x28fc940280c9bf027d08c301a3001501c6ca53009e2bba02d42ab201645a8900a9110e011ffe740028258301ae076a0220d74c038ddfe601fef4c101edb76b00dc1fb2007c8fd102a45789039b9c7700150a62036850c4009cdf9103ab320303b4172903c1ba5903edc08100cfb89202c1d4250312b3b3,
  0x374bce03e0346f0312776c013e566601570a5100b267d20245f28003107b550252e4990162677b0012c6bd02127432036fb9e00292f33d00d1a4a500d7a8c101eaf3ef0016e6b700804107016c5625003c1b4d035c3470012dbfe8006a21960310d38a01e245ba018a46370364b40203767f0801770a87,
  0x2fa6cc00fac71d036e1b9901d4a954014a15d10035163d02f058c90350eab6029baadf03f59c80001a2ef20115ad7b02401e8a0190f10001f1ac5e03961ee100e8cff60119f03c01f47517012585b900263748008d14d701cedee80165eb4303832da602d0efcc03c8d7180277c21c0276434c0142ed2e,
  0xc92700e59f7c002d229d022413ab02d3ee56028f6053039879fb03ac23550047b447005ec94f0032fbc4037150dc0323bc0803b94af001abbd0202f9faf20388f90f03cf892202ae09ab020b01c10004f1e40058613100ecffa4016f4946027310600096fabd00f7b4a3032e92f5005d2b83037b1779,
  0xef44c024553da021503e60289a63900cbfcb4007a4542039e49a8014344ac0089472400f760cf003f0d9c006b2f820368b7ea0393cda60173749803eb541d01dfbc1a00daf6d8000fd87a0007d95c000da25603837a78010084f10380b3bb01bbbc2702910a7d011005c303066f15014c0dfc019e2574,
  0x29ce0f026c6113038c22f1026e5bd90286686c00e420d90237cd11014b6c55012a3e6f02cac6d3002fc2c203c6bb9e02d97bf903c1843b034dc64c02dd778401d2d1ba029ee9d801e161450093e2ed000c6e5901e86e29037d3c1f012bc610017eca5c01917b2e01f1bbc103882a5f013e88b803c17336,
  0x159fdb0059356003cd25e5010abdcc03cd5afc028c2e69034b72900296bf900363601f030b167a002f1ed000cddc0b025d39e202c60e0600a5977801e89c7701898126005c05a303237d9d02044b7b0013a26602ea466f0189471b006eb1fa01814b5b01fdaad2012ff8c0016c6be801d283fb024bec12,
  0x13a067037f0b66001adedf005d5be702b383f503e1331f004fb7b502a0b2be00ba32eb0218db11003aadfb005ba7bf035f1c0900f41972015411ac01a0affb0222c51600a15ae503cca99d002d607d003509d9001ea9ce0088cc990366fcfc039a20ac0001248102aad9e4018e72850368f7a1039a4118,
  0x2ed514022daa830373d2590208a6f50176dadd02ebd0ba02cf077701e8ab2802f97d6601e026f10031fc2600206cc402678480039747e4038f78530225e5760346ae6b00cbd9d4033450ed00d8e5080028d3c70264b772005bac920182b91a033c3af101e162cb01e2f0c902ddaea70357316302a27779,
  0x1c56f702355cb603b136720127e75e03666a7302698d29038b08ba0307b117017457ae0005ef66000fbc8102561fd800fd6fc102a1a4fd011735a9000fd67100a532fa030b2cc7028bea9202ef71c300304c5001e992e8021c0af100a5756102adb2e802db008003d4947900905d59010c436503b97b66,
  0x1d61bf0171f19e0298c1b4004b9aed002471fe0392d8e50175340d00025d0d0084c11f013e839a0004f35d02ed10d000fe7c0e03c391bd01cd2fa003a7394a02bbe55003b799b200db3db30145acd9000dcbad02511805017a95410010748b0383d92d03ce688600e551dc02bea72b01cef77c00432a31,
  0x36135d01b8318301f11b0101c29dd501d68f7e02315d820279753e018a840e02dd797603882d3300383621008c50b9012a4c540328c085002d04c302085d4d013cfd57002641f200734cdc02ed452100268a3803e28ee2036af0310016ec8a003f8a0900e9c6c5038a7b4201959b0903fcffd703ce093b,
  0x15b44300a391d4000b37ac006569c0006e9ffd00e6ca7e01199d9101fb2169030af63500740af7002c5ded031c3ce10331a26c034aeb5201cfe0fd0125a99b000da2cd03d5673803e1362003e3aa5f001ff08d000ed88f00ef3082025f6a12033bb8fb036156a800a5826c024b24b1032c18670182ad75,
  0xf72f0100604800fb1358003a318c032a23a702ad7d1300900f630113f981009f8ce302d7e91c001b5efe0100d690012a9e940065039b00234e5103cb6e4b0088196100b32ce2029e83c10236ecca002ab55c0042bbd400b2b92b000659780318627e01715c13018ff19a0037931a03100dc5019c467d]

/-- secp256k1.go:10, serialized bytes 307200 to 337919. -/
def tableRow10 : List Nat := [
  0x0,
  0x316d7a00927a5f0144da30008baec700fa6c23033271ed0132a964020c81d4005dfe8201acdadb0021dbe100057f1603418b27012f47390331f5be00f1ec9d031fa95f0088901e02ad39ee038e95e2001d81b4025afe3f01d3d09d004752020209733701ba0b6601f42c330005013b0210b2b20322c3d1,
  0x20733b031ff38802f4c78e0101ddb0033acd6a001ea6e6026ca9a201cdae240109ebe301e1a5e2001e9fc700623bc2036d7472005d428e005ae07001c7001200c588fe0041e527032f430701178ecc002feefa0036f78a01886af1029a650a018b37de0240bc8902c81aa1035532a40077cc72034560c9,
  0xe5f900978dd900aa14db01e470e203e106fe02b052970147f2900154c4af03678b6c00a1b31b0032d76601c76a4b02e4630b03704077002aab4a0292534d00baf58200a563ef01f26d2a013a32340030ef4902836a6303fe8a2a03e5b34602827ebc00babad100652ad000c01de10308ca0201bb6b6b,
  0x312eec0319fa56019cb537034ce085020353820306d1e60061d62f0184d74003961fc80200e3030035da98022f6f9503a89c2e02580847038ad7f400c04b600047c7120147cc94024c22c2026eff64002b2b1f0077a4ab025d8e4e035932970070b7e600c045d6039af120022cbbf3001df05100936b4c,
  0x335ced00768f9a005b2ccb02ab1a4d01062cce012b616001f60b2602f98eec024b136302c54ac7003634c803494fa401ed63be035e4eef01d4eefd02e1e61c036fffbc03ff91040045c3b302fc2ced001df722008390590300d17103b52c84030c9229021de54002e4e8c900957606034875260084c13b,
  0xd972201c3a4fe0168fe6603a4236c00d7f300001828ff0392524c00491c3701b2340f03087cc4002a871b001866f802febf4d03067de802f023b0025736ac02df2cd803aecffe0126c3d5006ff85800282ad401661e350115734c034a013602c8ad77014f76f500bf5943035469fd014f3f2302019e10,
  0x526980289891c0271d5de0193badf03f7f9f2030f3c70008ab4af0052154c015424b5012f6d7a0003152100834c48015de91a024f548903f3cd2a018278480254b98e0319759e0299735701ffabcf0005aaca01f984eb02b1c9df00fa7eac011cd1a0031dbd1100eb8c550145489d039cfb830103fc04,
  0x203a45021e9c45027c986801ec4f8902069a8702aa5720029f275c030d6cac01e772b803496b610022aee50244739e00b5558301ddee0903c3ea03008fb7b9018822740185a5c50022d43a01825b6400243068001cf9a5010a43b700c356d00064a84903aac69c03bbafd103343f3d00be8f20018c3a94,
  0x1a253c014add6b01ef824c01f484c100f4ced503de386a009ac993033e72f001bd148201919fb1002c45a90209e7f0038511190068da0902f1490b015b6ad30011eaa002191fca029412a802b99c39002cf72501ad466703a12cf2008f82d500b8008202c1d4b203d72af2034a4ca9034dcca70129440c,
  0x1e9d8901b254e60120ee3201c4273b022fc3c60292d58a02e82707000dfc24014b11980269a4f6000d1f1c01caf7c50301f4cb001e3a5703cbdfd0025d26e102d74c5402c718cf0196562f0357c386002fea34031be62a03c7fa49018a788f0363d58c03650fe1006ba68e00cb785f001b59d20213803d,
  0x1445300e2e51b031de78c029f0a93036f30ad0262510701a015960023793c0152d879008ffa87002b10c4003625b802c31ba4032cef670026cb9002d52e410124e15a034499500268544801648bba0032ba9c0048714f024de04801b8d34f0269b0a80023d19303dafdd103955af1014479dc0393022e,
  0x6c0da012bc68403a284bc010330a70048a32c032de36f01735c9e022afe7e032099090260d866001aa7bc026446040352a82a030d1273024bb9a903155cfa0027eb2903617d7303f0f851027f8b530015773402e9aa520197293a0008d47400f392a403fd418501593a8c03689f2000cf1aa103f6058c,
  0x39af035485d101886e9c02f6650f024a1dcb015d28c900356bbb030df530020971180363c3780002fdab03f3cfe601065c910279d89a0251fdd600de98c601d01cb6035d34ac02ad9d6a016a38690001dafa0111246300c583ef00fee24600c0e42302904f9101921eab039e1c2001309b3401e264a8,
  0x26787d0203296302d26c500173d14802d1e30700cb30f301147e7a01fef17002043d6702205be9003120210080c005027d96df00bc718c01424b4803da407e00dc195e015cf68f00d633a800996f9b000aceab014e98200021bed6022fde6a027f69e402b1a21d0051a6b3011b5e7000433e1902885de1,
  0x31afcc02c11d9300bace5f0211960801eb68eb009a80b201ba3a3c01f62e45033356070350373f00271acb015b701402c875170130423701f0202c036266f9010c3bd701b02efc00f96c1403d6259c0024b5dc01d1c521023c216b0141157903a6e860028153ea030fb1f002f9b08102180888025a50fe,
  0x33d5d00317141403567b48007a2d840354973a022121f10118316800283f57012c0eaf01684fb90009a947029320f203fa5cfc0395fe4f013cc56e02d03a3d025d3a2701daf02a0023e64e001329ec003bdd48030a62b9038cb85e01024b260137e11d033c834401e85fb603d8b91902bc22670140c81f,
  0x12588403898cca03efb0f9027896a2023b756d011fdcde02dc6a0e01c1169d005d76040251b1390030e7d6021a7506000ec1b003194593024a601302d338ce0148456d02c6229103e6598802b04cf10008fc5c01c902a403aa7ff1031ed72d0005d89b02e0c1b101907e32013e22e0002227010299c3b4,
  0x281d8803b5f4b301e7ed960040ec4c03089b94036c2002036cfdd702170b1f0345734602396b8b003923e4039edc87001574d003ba6b7e02e99167033db6cd015abe150148893b0185eb2600b06739000729bb02baf1af0070be4a027bcf290291be180121b44f02a82c6a0182813402efb8a2008cea56,
  0x1a08201dbbe7d002a6b6a00d0c4c5005469da00ffa3e50397076201a09b82015d252d004da5b300175a7302eb8d2100118ace00b7ce29001cbe360286931000485b0901a85c9f00c68ac603342bb10024241d03e97c550376b11e039eb88e0193b9d000da087b0337f7e40033aa4f0141cb7f0268878a,
  0x17f1ce016fea46019126a602283160024614960088a112010201b60380e14701d93a000361a8eb00162f68026f152202a8027e0082392400ce4c4002d0290900bc9369018097200127e3b9015c6b86000a12bf032c002a010e3f5b039e9004028b45f702814c59028adca301d791da0384152901580bc9,
  0x282f3e03a0f05800156fb9020748f803b870c901f204b7036d4e2902fd284c0339546e02d6829e0006b1280181b410016cf8b1024bd83c01f9fb6e0177893303c82d7400378f1502c457b4025a229b0019d761013f8c5a0251f816015d5e89028be331037f1c9701544fcc002feb83027cf2e300979258,
  0x38c8f0012f701501fe41cc028082a602b5698e027eeb9b01bf7d05029c0d2800267f4c022a53460020e9980308c470021184d902d757f302332eb101886022031580dd0188663602a7b4ad03848d75001efc9602b62836006c2db5009744e601c7c28e030a21e801dbaf9d0123762300368dfe01266089,
  0x2c596b030f5bdc012011eb025534340371925902fb66c2020dc8fd016008b701b4ac6f0356cb66000a73bf00d81bd500631186019fc02d02f8e28700b620c3038834c101e9e2a903e49e1d03be56bf0000a81f006c44f400098c7403dfbc3b00cea572007c3ac803fbf8e401799a30031fad1a0213b0c3,
  0x38d8d20080d4d90201161000e81b1f0238a6f803f2a0b003561b7801f9c56403cd8dfd01a3b2c3001d9184017c2cee02338eea00949d9900e5dc1903f663cf01ea0fbd00e99e73003001eb01a31b60000dda9e030fb8480371fa4d028e331b03878a7303dc52090151bb1f03cc45bc02fff0c9013a3931,
  0x3fb58003ae201b03c7de2e01d1a99000009051017f7b650046deb600d1b1590174e66d028d27f8003f77e5035238390007b9c50039364a0281ed0900f8da1a0326710c012d63740362338402874c1a0039960901cb1872034c0d7f0311bcd20360e6a7017b540e025ef4f103b5676e02cd5f3f0079981f,
  0x2f20c801f6175903cda2dd0078d92a03c444d3010ffd28007196dc03c69b0602b8aaa803c02cc40002754c01c207f1002ed540022fbcfc02c4ca7d0173d14003f17be301d3823b00a76ec402e28a30003abc8e00211533001c2e470240f3a500cc46150047d9fd00d5aa6801627f92031c0bdc039b76ac,
  0x92d1a02a4aebc03d20d88016c0f1000d7e21701374a2003564d2703b462130357c4ad039d9f14000432dc032d0c72004380f0029f526e01c789c20398c6b9033530df027d3f9e0350044903e382f9001f126401183b1301105be501a12cc1005d4039026ed4880009ab9c02a23022037e11700216957c,
  0x24ba34005de46a00a9fae10253ad0e00b57920018d27ba013212950330a9ab026f989a0056969600111e2800458c4601a1010e02bb42c20320f13b03415f880393b8370347158d027442f202fa5c9a0019b1bb030004f301221dac023eb33003d9f7330384229702f4842d023d734202ff30d801f17213,
  0x147edc03693a62003144a803998b44027164e802656d5e012a2a65020c954d01375d7d031d808a003a24a8010aaed101b1b0930194637b01935f0e02d165b7016602b802dc1a4b016977d000755dc60036bbce01e88b5b012f50e601f382fa01ad88e6018bb90000fbb41a024846a803d5fb6e02790046,
  0x1453470254415f00b4018e00e5f1fd008f6b4900e5f7ad03c2fceb0102d446007a98b401d43db60028d4e102afd71c015ce79901760db5014d1b2b022aa24102424bce00e3bc6c03c04ab002bd4c60003e75ce029c2d1001b253de0345e22e03dab5ce02978a9c01d996b8039a8f1c02e2ed15035cb956,
  0x1def7c0313ffa401fadb3001055c010320507702da1c2f0311c25c01b50c74020c9dca00f3fa9c002523a00114e868010c19110140676100f053ca007d909d01bec3ed01e2a5200015526401493708003c2f420037d76c029a27e302688dc8030285700197ef3000cd8f44034be8c10008b80d01d3a3c1,
  0x17767a03178638037d6ef603e8b9830341eb560241102302ae969e010b4617021f213d00f3f84000200482023127630328114d0128d5a100d4135b039adcf902f79226003f2b0a034e5fec0151f4e2000c9f3303dc65bf035611910254a47100caf9800067ef150003bdd500948f1c03059cb903c5e6a7,
  0x16139e03fe5c6201b22907026e1865005f82ed00342f5603c19c5b003cd71301f73ddd0347909f002e84bf03b5945203ded1dc027ebef702daa9f000707bf00277736b036b9dc300f60b5302ac9170002c8f1902cf2b64005989b6012358c601f6e37c0379555f02e4ecb701cf454b03d02aaf026b6ae8,
  0x326c030305c56d01719f6201ef15b102a17e86005816f500bd36b0021c146e02299ac400530d370015ddb200154875022e676500b36fca03e5e686027477c9027df4e90388e94c022fec1e019ebf6f0015a04501b012650066f1680266e07903bc3ed3010cf7d00104cab6035d2b2d0323a97b005f8535,
  0x27c2eb024fb82b029973d1020c98c00135f7ad0032058803b458ab0238a986036f68e8011c1fe1003a7de803b43f5601f641840329a33202f4142e008914b701cbc537003b2a270078274202def021001b459c036a8198026fe0c600897d0901eee9ef020de5a1009356f701ba6f1d035d5b53002a3d7b,
  0xc0a4e003b80af00915ce103475113035cb8d10298246d0338afb4023ba89a039d0b3903dd126a0036654e001584a702e6ae4c035bc2d9027623fb00829f3503c823bc028e5c3100e2c0d303a63186003ab3eb036fbc55000f26830228dd4d007078db00bda06903e8e3a70242aa2701fdad6e025e9f9c,
  0x13076d00b615d600f93ef2035bf5c7027136390238727a00f0c7f303d7833d020dfab403b8e87a0017be8b0348394301c6ec74000cb302021e51af00fc66ca0136eacc021407ac026ea13d03d2a01c0035cadf01a8d1bf0132d8a401e1d78b01c5a81f023c3d2802e6efad009cb28c02d0169d028b966e,
  0x2894203ae1f1801468c6b024f712d023d7a7c035edbf501838e9b027bae7402cd61a7012d5aa3000e364101494d6b0235386f0387b1c80199775e02e0bf3a01c21044032e65e702dbf35903de3e50002053da0158fd5e005281ee02fca592032577f2029fa3c103698daa002beed300ff04e002db794c,
  0x8a4fd02638fad0363489b007628e301e3f6c1024fd17403775e1100ca13c80356987e02bf7766001a821b0351c201031f251301e2212701d717c701ed13a90118850602100a8203dc21f103c1c1b8001d626900a7707502d54cf900184742029b22fd036ab28001b222b900fd5528009d1ae902a538f4,
  0x8720f0251f87a023b8e35000e7ba4005575d8038af441002306a802c0590b0110d7d102c42c14000b0d2300ceb20601f251a1014dc6cf00a21735025de29e017588c903cdd73702d8df28015ab794003e7ae002eaeddb00cec62a007c703100a0f07602e0cd85026c40ad018f6fcd015375d8030bd8e3,
  0x3e794f0002f5de017b254003b1c9290389314902c2095202a936bd030c942903bc5d41027c940f000441f20078800a0260695c00a853dd0223b2be011fa56902e661330327e5660375880c001390c500034c3c00baddc801fae8000174a20e002f07790306065000c6201002b1991a02f874220294cfce,
  0x2023db0392e6fd0101049e02333c4b0037d234004eba870191367403f30d0602a4f3e6039edfd100278ad503eb2ae5038ba36d007936e602e9dddf01878e2000043f16032292de036f4ba703ec1392003207bf0391b54101e7548a0026d040024f3e5b017da22902a7448e01b921b002fa0b49010b4738,
  0x12404025551ac01133cb40018e5820319ddb0026c8f1b02c909dd0201e494036c15f503eb3c6f00088b5903fe2c4a0069a1170199907202f501fc03af13f401d4300a00cd0222013ec3be0106276b000a3485019fcfb3017cff52018002ed016b646401de3c4b006c5bcb0104f57403c90b7803d7cfc8,
  0x1acf1c03c7274701291ed801f2c2b703e300ba03724a89010873b4018f7ddf00aff38803fc15aa0006760202059c7b01222617014c04470085793902ab36ad020550cd0280ecbb000e77e800981c12000c92d80218b44a00b14c440062270103a19ade01d9fc5303118b5803c0defd01c66edf00f66edc,
  0x1a26ba0161b6c20166d07f011c9c01037b2b89008c9a58036ab0260056a0b0039ca0d2012983f50038b9c201c12f8a009d997102587adb0238174002165f5f01c9fd0c01bc43d5029c132101783b5b000575b601fe4e6803371e0200f830d00316692300ce6494036f420b0059996500da218102815fc9,
  0x3bd76600f860240348112701406e8e03d3be0d022653980341a10e038bbefb02a4a12a00410f300006372c034749ef035d17d800bb384202ce844800c496810194dfab023fd33f0017950201a531ec0025227903643db500f7c78d024599ee00b13bc7000064e8036623db0136fb90013d2d6800296a1f,
  0x32c13902f2dc220299bfec003d6ad801eba13a0160a56901e12f8801fc22b902a3873d032d22690037739a033f380a013a80ae0142af5701fca3160063dd5501f22290008c338f00824e1d02ecbe6900388ce7024272bf02f9e9940353257f027f2fb20068fe6700bb527801a7c88000ba23ad030cea07,
  0x3660250397049001556ab5018ceb0b010d2f0202333f330166c9a0016a109303d7967e002e15a20008098a0009c16700efe21702a6e17101ace7c6001ae16c01987094024dd41c01faca1702afce04003b4d61001f207403f5b3eb01d9b57400a2ea9001b161010168ec3100fc1a6200c2433d00da8441,
  0x1b0ba303c7060001d857ce03c813d902a4a3e0012c4a3b00e0c9560280f5a702ebe5b2014fc719001fb83a0390fe10004ab58a01e0a63401815cb10116713501b955df038759ec007ffbf400451019002a448400835ffb006baa590069526a02f7b508005a382c0124361001828a13022d4aa00008964a,
  0x37288c03e6235402648fb002850b5e03aae2a9027cd7b50267420d028208b500dec2740271032f00096baf03a8261601baa52b02991b6b030dc1bb02169617003b23f000d4744e016bd4ad01209d990020897b02a3be5503984e6403b70951031f21610035ae190156f08103f8b8d6001e6f8b00cede03,
  0x164713027db99b0370202b0169c66e03acfe3802daf91402f1cd2003f61b0c00c0a3530054cb92000848cb00bb3031019b3327032ba37d013237b5003d0721035b815301291bdd0271c6f501c97e6a001510c502c04ad800cc18c100ffce66013c34c603880b7b00d33c8802f559b3015ced69003f8745,
  0x1f1680132d18d03e2f201037929ad02fe34e3022648d602311e1a002c09830185a10600526ffe003c74460231125a01380eb6007bf1f900c3832802ef5af300412f5b033e97d903e7cc74004b2a230029e86300168393030d169a02fdf27b03d9830201058ca402bb4ea2008e8aac03d40e2002461783,
  0x21e8c01318d0d000a27960007b33703bbf65c017b6445028c2e4901c2fdd80263861a02aec37a0038efb801e2af2202a918eb02aa6a1702b96bde01384dc200d60f5b0153d1bf02f40c2501455e230029abf901a0e91002a26e1702cc3e2e004a4c1f02c2b4dd0129338201b2497c024534c60047d21e,
  0x1b899d0126cf5c039234c500a7b6a400b667ee0283cc21028dc8da03de0820039c191001c6978e00343680019031ec004053830149a9e50167f45b00c6933b02dcbbff03b3985803dae0e601786261000ce5f8007cef77005e254f02aa9e0c021d800702fa124d00ee56c502afdae2039f404903bb4e78,
  0x1b5e5f0120f938033563fd014861fe038881bb0283f38c015124fb0238e8b6005edb9503699af3003fa4dc008ba251010a3c950046d5e102da360200f1680f008a395000e9b135009fcc6d023cb68b0029124b0391eb46039e2b3503ecbed4014e010c0191a93b0227aa2603f6dca701bc543a0217895a,
  0x144a5a01e359da0359b23f016dd69a00f660df03d60bb90037ec8b035b446902df5ad003b9fcff002558a60172a02e03d9c28a000ff35702f99b4e029434a2024f319e01433af700184d7701f572a7003ca533034e554d02e29e8e00a393f200573e990260b12f037f0bdc0161b446008ae8b6000010d2,
  0x3a47ab0207715900b20d6002992725012dd8e603351fe302adacc10205221800d8640100b161ac00193945032b22a10175f1f70181d1440072eede03db427f0338d1d30085e17d00e9eada00aebc620008bdd1039562b7000f27420028dd460063a59a005d162e03cd9a9f037e43ed01c72e79000f949a,
  0x3b5571006dbba4018f4ffd004ec96002c48f6a0043aa700154981a0071b03d02e59b6201b110f300307b4601035cf103f86b710307accf03bf4def03ac2bd802cd9048014b55a402d68f5e02148baa002f80b20172b21302fca03603a2e611006d7e4603216af80343ef5603ba28dc0364a0a201f0a13b,
  0x2ef1070102029b00d732be03b4e6c50195c8af00ab859103f72cb50070c1bd019c429400466482002420dd0013315d0026caf0004cdc8a00dc0fbb01f6f43d0082b28102728ed700db7b5501983d35001a83150011f33c00986b27009d3a9a00638251031119af01cf354c03e67d0303a8848e009f5956,
  0x21b92f02821dc30160f1a90321e52802da12b30327fd53013dd7ed02b1165e02c2d3a0035da53d0004f59500868b6701757c2900fb39610223942803c82fc5000ae2da00bf1be203fcb663037dd94a0023080000ee6aea0337de4401e50ca003c3256003ace25b034e82ba00929e6a020c5cc903eb7469,
  0x13bdb1018bf04003e14848028f8269002a18aa010cf7e801901563017e04b701bcad820182176b0006fdeb02c06689033d26d503e728b4005664b500d4e4fe01a4d6d8004ad34d017cf70f023645330032a51702e88a5901413a7801875257018267ad014be7060043c81303c0bc8802488d3303884209,
  0xa894001e854d901da686a02d64b6b032f93710259dc3001549cbd010a82a701badf5b0237347f001543d701bde7b703c99c7d001ca17401458b170022180601f920e600f7a8e101a85d8b008f3e3300281f9902ab64aa009a48260343fa0802d7b7b7032a509d0244c7db02af276c035bc521011908b0,
  0x1219220298802c000b27c00276d008029028b203f0016103744ae400dfdba000cdd52301ab62700027e8dd0382caa90124e99901f170e603d2c7ab037d3460002002f902ac232103383cf60008cfd600088b220006a62e00c35ed600a5cdb3036c5e0d038c3295030df6f1012898cb02c488a3011767a4,
  0x1045cf004ef8e60162164f02d284d802861622013090bc03a22ce60026b5820327090d02a5f1e100056239011ac1d302eef69f03067969032b6a01037056a9029c1d1903f1c1780023326f0124c9ec00394a95004d2c1b0367f0270049e978035c834700c09e560280672502a6e7b601d85690016962d4,
  0x2e6de303a2cf560284b62d01567c2d01cd541f0061e0e2017f162a033a45070095537000d088f0001e2d5800527ada03d09b890090de710121fc0c02aa025c00f418da01c8380003f8d6eb035eeb090004a63d03ed493c0266ba6501751ea7028c1cc302b177c2016b1bf200187fe4002befb901c482d5,
  0x91115003f2db703b5b88901bc3ccf003bd42203bad40301682a7903e7bb9103b914c601dd688500345b7b00013523017ad3870086ba4a03fb988b0338bdfa02d73bc40379e89d0181830c03c3199b003c913702c2e7e603a51d2f03ed49fd0084fab4030c1e3301689e3c03e25a1d024da71503b8f9be,
  0x23d0a0028000a402d478ce03da61df028a7fa4020ec5970086529201d9e99e0075eca1012f9223002dbcd601fce1d10044343201f9e6de0262a7090164b8a503a713fa000a39c50110b16d02c04d57003a1aa4010672c7021a380d0366ba3d01e0b33500b78fbb027508c400d5a222030179c401ebf70a,
  0x1c4ab40297239401fb984500f4bd84037526f703ca5e88018ac3a3006df0f5034e158703223709003258020078a1650289e900018ec936020cf40600157b670277826d01a2ef4002c2014701c6cd080004af1203393ec80352be9401ff6eb800a3f72301a95026003d57dd00daf4bc012f155700b10284,
  0x23545c00a8015e01ec52f20334ea2500726bcb02d3203901657f3701e504a40287f7d80205c9d80015485a02ecc39703a6b5ea00372573034e3f4003b298ac00bc2912016601fb01d5df42011755da000236ed01e1d3c202ea6f2202ed0826014d4b11003e4b3d005a8f3901c4ebbe00892dee0133e564,
  0x22c3bb01a42dcd0067e62e02bb10a0015bb4360236bb1501c91dc100dea04701a450a20397efeb00360f20021bd70702fddf2c031cb01a02b2ad01012b67fb03ecce2700421f0d03364c5b00008c490009b67600d0130f032d12ba01ce6cc301d6d2270147447d01e86ec8002032b90345304b01492aa0,
  0x20c55400804cea0098da8f008d88c6004304e9032ec95a02e5faa802b68f00017ae648017c8371001f93030101f3e60367312c023f2d8a01d9df5902d04e2900b4812c03c1ee0801a295fd038547ec0013a5a700e43ffc035a4a2700739f12019a937d01a05d9801bda63b025233e2027a757802a4e7a7,
  0x1c3e31006313ae018b6c1a03034f7303b015bb014c8ab602035682004116c501d2759f034392190010b2a503ecf0c5023b93d30051214c033a1c3703f956a6022c2215036d936f028557b303224fa5001e207902d3d928034fccd8004888f4004b56450007a1ea019f73cb005780af01469140037bbf67,
  0x20394602ab37bc0223380300acdb5500cecb4003cc502003fe87690210460101fb67360332dfac001df919015b360a0069ccd7023da7040254f1a102f18fde01936cf7029b25a50021f1260040ab28002f45b8022c657403db3c8903b385d70326333401c483a5026b752f02448c9d019f0b7c00daf9dc,
  0xdb21b015af448013e861201b5da8401dbfa2001560ad1001ea46a039bf954022fac1501b787dd001091040169c33301fe4e1c03a8943c01119a83038e5240026d98fc02150967012608680287993f003e9d0302c2df8e0191ce260292a030029021fb00d0706d0026486a020674df01d4170502065fb8,
  0x1c5267007fabc20242fa1c014ca4f601a00cdc00038dd601856f5602a1a91703f2570a01679be800329cd803022e9200e4d066036df9e00234c007026ea2f503beb88001c7691903d5c57400f5dedf001118460274c4f90148a56800aaf8a603a20b4503b5f9590175aea7006201aa0043173e03905340,
  0x3ff67002f3257001bdb4c301a17f62000195a7016f73b901646b7100c6444a03c571d103aba402000fc5450241d71d011492e303f8636900f15eeb01c860fd03ad8e76028bb6a40187c1ca02b37b59003a561a00dec30400296e4101b729a4036caabd03954a3700ac48b802ba64ab01b310e202b9fcc3,
  0x27feb2005b8cd302b5edfd03ed6c210044b30c0353573a03d7b3d203a6b47a003a695100a4a7f8002fbcd000fa6b5c02bf7d1c00c9397f00231f0c02f9b7c603b229d402f9b55702445216002e0e560023025d02747c500021eace03caf8ea0329231e0140988501ab7d24034f22bd0247cbd5034664a0,
  0x3bc8490395e25101a7f7b7005116f70284f3040125a916016ceb5d01364d5e02868a52002ead5a0013df2b01ff219402b57c4e0178127b02e8b496033d915a01667fa6018dc0290032c09201b17b25002dce3101a863ff0374bdcd03179c72005ee29d02ebca09036dd69d017b776201d120e50041c328,
  0x28c12d034234af0391ec930302bae301e2853e010766540319afb40360437d039e9c7102cdcac3003077d001054358034a0c2900bd4b5702f273d703df9297024e00da02bbad96039c2b8a027fa0b6001ddfdd02f686d603a9f6e0003dffa90295c83901343a0500b834400259e79100e2382600ed8123,
  0x10723c03f2dba002ee52d300d8fe550133c6e400a5565d035054520312481103de5b4101d0415a001d58d40376fcf700fed1fb0318010400017e5d0367775c0081b40f002497c201a8e7f50278e9e1001d47fe02a3697902208ae403419f960202158a01c30acc02bc4dac0004dd8800057a4000bf7a87,
  0x1c3926017bf2d802cfe9ce01e0f1b802c2263d02f7b7920321eaa001998699010571cc02105761001d4ca702a9f5740387243501b2e6e60197be4002415ded01927bed01843922011f8bd903b2f83c00090191016898dc039106a500ecab1a01dc66be03f79125020c85b3002da26501410d6601a8eabc,
  0x25b85025832a3039a50c80348b75b03fa08130088d0fe0082bcca000a4be203f4b64700c918600014d68d01f83319032493ba03b6a1d4028f37fe019e764e0107234300ce05a502ac4f7c024bfd6c00321bfd02f797e401b545b301e21622032cf8b0005cf7a803fb1b6d0259e8a90216d82202d68ba9,
  0x36437e00db2943030cca3e03eeec9801d054da017ee79b035488f3004e5c7201aae012018d438b001f6b7e012f94260147446302a8ee3002949ccb00f6c3d40347e3f80389ea26038de8270333b50f0005d19b021cb39200bfe7420317218e009ce53902d8cfb1021d28b702a1ced202c6f7e500f8a552,
  0x17c93103d5620c007b814402c2df7a00d0202803f3ac6e01c6e2da01f2320c03a7443f00c6ffc6003df1f003a124f601f76b4803e8f14003369c4d02615e9a0325c6d60199c3fd005070cc00b75c9f002cc76a016d574b012f2bcf0279e1c100bdd755002a896d01da38fe0284778501687d3d035e5fce,
  0x2c5f5c0358d41f0103eb65012ed7bf034e30bd02550b710143326403c5f13c02d9f97c02d21a830007dd0002e5b59f03324e4800c8ba4601c66310012c02240213930a02982d350140164303814eb00012de5803b291ff026d00c700c3759c0199afdf034ed695028f1aa003d12740017970b9020ac123,
  0x366a1e02deaf090093e2ed0060a13403cb878401e1138f03d0cfae00103f6903bd47c3005c43550031819a02025c4003b5870e014a0d9d01b0503e027e1a580218835a0012c10101003a3003e91e13003ee5330294725a006e31ff028610a000467a6b0199a9550168667f03946dd003a4a9860018741e,
  0x126df0024cf82f0059f32a00a58c12039d22a7011aed0300dd7bad004f24b3039f46cf02560b940031dd9201be8a38006896d502d038d2008926e700ed76c4017c1fbf017de985023717b300bcac240036b9100271b664039e38e00093e763033eda9c035ebb0c016a436b011b869d00061fc7029d7152,
  0x20b32c00a8552101aa5f2b0172ec67014a4aaa02c5b8950037f958024abbc602d0ae92004c865a0028161f02458c2e03d9b770007154d703011d89010d3683028fe50b0055d893011d20ab01fc1cf40001d9c401fd819001a9c4ec00aecece017044fa01a4f920037525e202f126cc00f8ea0c03286bc0,
  0x1a679a02e2923103897cc00082cba3001e57c500894973017d69e0009a26ac00ab43f7026f7b54003e4d74011fd92200682b9900f296c401bbbd90016c69e200e8ec55002bbe3d02a4101700609c99000d6b8903359cb8019efb73000c804402b2b3d401bb876f023a896f00ef801801f5d1170172025c,
  0x17eba1016f79a302992a6c03a6de4800b8f15003d43cf70009a9c3022907c301462ea301f57e0a002647ab03e76ebd03173c8a02063ec500c106fa015902420292506b035b7c1d01331ef9028564050006070a00cbcdc300e41a9c013be80d03bccce0025f05de00deeb88026374da00f5a20d0099e39b,
  0xa519103d56142024b5bac028806be0275278b01e722d002ffd08800732ae80131fb8000bc73ec003d10ca00e0dd4200178c700189ef8f012862180109bfe7022f4fbf0194353f03b0e376038cc20b0016680700140ca203688e4403b02db801ae749d02a955e403acaac2017f3b960040809401f1d997,
  0x1ee4b9017ed61900b3bb890206a9160061a51a03e52c1100e6db0000e2caa40133f28500f571aa0021a0cb0338f95302f80513034da351035d0fcc02df99b800ec7166033dd568003330c700e835f8002f53dc035c211d0270a14802cfa58303e5d9b703579fc900c440020255dc9d0272279c03111319,
  0xf5152009947a40219383702bfbd3f0017401e03d9f1b903fc325000b4f2d20131ac7c00f4259c002837a302ed3a6b028565d6015412c30051a38c02e67095028a7674022923630136cdcb00fd7d92000dc3d900f1ffd002cec86d0105c08f03ff4ae50314ad3801d8914a01aa24f500e06a9903df63a5,
  0x15c5f9003e357a03af806b03dfb18601f58e85008d24b40318e56c00671b7f01a79e9002b74a050004fc1003d7dd3300a3c7c900a456f0006099680226bb71026dc79102ef405f03c92d23018a49600015bd8a03e964c1010b955a03495715039fc1f500a4c21f03773b3701fdd8c502e8cb9501868d38,
  0xb9d6501f3617f00dd8a5202a711100217fb62032f3bdd02426b060334871d0022e09d013166ef003aa66800415a7a0187de7103d5117b02c2825b0174757c00079d40037f8fd202c73003027151fe000b08fd01e3b1f7034371a402bc9b0502b257f6011f9dc500c5678000a119570361c19b03f4709f,
  0x2b788f00aa204a0191710a01a1f98a020355fe007d516202e638b001b9b1130068c499029f5aa0000460f30104efa002e8254d007a0135015d2374037b538802c898ce02a20ca90352f14b03d7c30e00201bda00dd8a5102ce3a7401e241c903059a1c031e7b1e025b5109009c5102033bc6f601f0f509,
  0x2a2a90274b447036988f103eb8a0203cbe6170092ef9c039f072500154408020a8f700256fc1a001eabcc02e8e552002867d6015772af00a2f891015d4e4602adffdd005a8e7500384ceb00f056be000cf14400e54ac901289e920119deaf035cd17f03311ae102ba7a7d03f045ac02bca349000a3520,
  0x3062e401635b1700decfad0286020803a931610155840d0356d68d00b3515901f9bc78034928ce00007e7e0322f625019be58a037b8eed01f458c80028ba7302d41bf900ac5c9900ec20ae035f4b5c00032a8d020f109e0219d6e50380cb1c003abd3a011d8a0d02ada509008fb3de017b3c6c0164672f,
  0x24696503c6de2503feea8e011f164c022d72070108a873013d4ca003ad9d2e0325d85d0290fd76000fff540368edf6033df88c0122e37901e2111a01d6284b02bee31f02e613be02de261c0158992700164edf0217343400dc2353006c940b0151d14b014d90b7023aa7a90212c62d02e28f8600e6ffe1,
  0x2319cc030dec6b03ae668d030d0a1a00cc7166010faea3008a01b001d9e13b006135e601bf369300352f8c032cd5fe03cdb0a902d78d57003acb44013b2fc00137b8bd03a4d8ba00ad6bbb024962cd002006690325cab602158c9b0181689a0388d2d8038c489803a399f4001963a80166df640316a806,
  0x1d35db03f2a35a0259815400a3896e03713a6b005b126c025f299d036e244f025c5ca101324f0b0037aceb02fe579603004946009af6d3011c42a601906b76013f5cf901946cf103146b21020039a300210fd400b243d803293890012e899c03654693015e51dd0159103401a71c3900784259016cb73b,
  0x90a201d3413200ab5daa035cf7ba01b26f3101f21d0f004321f6018112c30205acf0017e0cba003ca9610388058503f2471a016d63b4019ce9a300c5e9b50368247b00000a730116e2be03f721e9000d83ad001352e100f64e6d02ca4d8e01eca7bc01381d0e0291827b0296a1fb01f15c6003754965,
  0x24d79902de2e0e02117516022e58700363ff8c02b81ee400dccfb901dc040603fb4bec0023730c000fa8d1020e2fb000133a1c0320726a02ded34f020b170f003db80601ba60990334a0c100070375001061820384495a02d1a124027c16c30054f73f00c02b0c00508d9301ff173c01530d4c0319770a,
  0xbf3380093b5dd02df74a202d74ebb02fa2a9a01ea8ef701db831402e1e95701eb521d02d98bd1000d77ac0013eae202ccba690079f29400a78b310147f82702b8cb5a0211942102eb199702a7e9a50010aed702eab4ee022bdda7015723d30042e3ba01a33bbc03686849012f3a0501e3cb4f007624fa,
  0x35118a01c29343038b183e0124a39f03c4cc350193dba700c4e5ca020f993e02164cc40393904d002602a101d4aa430258ae68026c4cc003f44f5003bc8e18001c885f00c76fd502d80917022ca6c1002c59e0005d922300921bc3014b3daa032d772b0262a15f021524ff00466b1203ec5a82009bde3a,
  0xc1d26002f197303afa408007e571f02f428be02de7622036a148701571e050226487d02f3e15900096d2b0282bc0e0085d55b0262d33c01cd6007036311220132acbf03cb89b40388b98b00024b8d0017aece019b552603b90e3102f3801700f6f8d500a3677202f4f3da009a6ec700574033020a36da,
  0x20d47301236c840371a26600be5d570224b37c00c467e000ee1d410036ecd80164e44703a30c50003d494a03b087bd0263df6b02d7da96029b4728008b478c019db5bd03e0e62803a23d2303a6173a001fc7ec02cc513002a188bc00c0d86102f7d81301d0f370011b0c950040d564038d75550200bc00,
  0x3b620500f44d81033d6eea03482010032e86510187a941021c360503236a7a03a861b801bf49dc001c94b202abdb95035e3bf50345a96a02dfb4b40217810e00daf31b034ec6d402cc5f1d02601f06003b98f502b6d3a300a5513300fec25a024c94d202fab2f203c542980365aaf003d7948403f36107,
  0x34cca302bde82c03af9eb700590e7f0276e20e02b1ba0d03747739010709070206a1a800ed9a9d001df2c801426f04023edb38011edb2301db0f2001aea32000843e480344373d00913e6801876ac4001a671900e50aef02c7d2f801b0804701caa7cf0328f2c500c7a72f033f7dfb027d8cb50339f7da,
  0x176f470065a67f00cc267e0072edb100cebef00331d6f3034354ed03438cab01fa474a03528c73002d3dbc0190eb2500dc44cd03a7d14601f90f2a0354125201a2fb600029786501e6c70201de59a3001ff99c00778e120071b0d80314c40902ff38bc01de176c0372f8e001c88193017cd4d9026d46c3,
  0x2312e800db285c02ef4bb501b9afdf01b810d50256f42b00ce6add03114a3a0200a54801f7ac170027a21602061e8e01a7ddb60329564001a7c68303c83c4d021ef1640333787d003e53670034af5e000bb859008fe36f02de363d0132bbd20225f4eb00dd058503362f90006011ba00a31b090328daa9,
  0x1ca83501a3e4de007eb929039294010005ef3c02d98a8c024c1997006b20a202a97ba7018b888c0004048a01dbb5ad00f7459303c288c70055406103ee132103bd785c00673aff022987af025c18fe0024a2a500ce3461019c61e0028552f000aa152700245869033a5a2c025981b301c54d130012a8a4,
  0x37d95100f0662a00dfbdae01c9e9bf033b78a101f9776001a941ef03d3535b0392ea3100be6909001f716f0289454d013c702703b1b38503bd1e760242006400efbb82016d412f0211b9bf01989abf0036a78a024d0ab400ebfc0e00de9a70012b12250038329602e3f0ac032e4aed037626cf01ee9cd6,
  0x2b63b900e74d5f000912d902e634fa0310e77d00e4a91901c4fba9004b0c5e03784737037245da0011434e00a478330212013f0001ae1b022ac8df0236fe3f03c274e503055456017fafdc01730405000f4a5101dafb4e016cf7dc00cd7ea2039719f0018059a1022b59840132dd6101d89f2500e9e9fc,
  0x20404c0010713101491e1a018dc1640022b047017fb216027f5cef01c832d900be0892017b729a002959d20372a00403d9aa7102503fc0015716a7021640b10229f53703afec080007924101c400960038399903f5eb1702bc567201d1c60a033348e101947d9003aae4590078f30a00b4f41101e9627d,
  0x27d083037ea7d103742ee70077cd3e02d9098403bf22fa00bf7c92035512c2026276f201d4e9f100202d370312158e03170017037d19aa0033224a00b9b72c00ac94420340d96d034169cd01d9055600298bb003d9541d01533856032f43ce00b756c603e6e84703053e9e0359b04a03c7f225002e4965,
  0x3eaa98022983d303a9b7710215c29600f3093701d1c9db026ed8ab02f34ff80308d69a03c5cb5f0001525500772125013a0b5b00c382d8005489950313afb703a595dc0257280400ddf83e02a1dfc9003feb260255a47803e23831015441b00253d60902196f2f00b83687038d1ae00038ce680361698f,
  0x15e90e03b188e0006fd13003f9d1100083cef802b12fe602270b230224f46d01e03d5d02f029d8002c228d03e28c9600261cc401f3128301eabc1200d1dfd4032ac2780225c5d102424aa501de9b73003224150324a385000420c0029c15be02c4ee9202946eca03b4baa303ba2a1e000485c301ae6edf,
  0x96e00011dc9b70114d4ca024eb0c301cea7a600466d2e01ecb5ff00ccd99d008a3f4102e9e926000b32d7017086ef0047aa6302e6763300463a3b020a0a5d02006611034dbbdc037dd7950073a38a0006dba4018ba1a0031167d10271574603b6f9450000853e0346444201be67670241580a00934d25,
  0x36fff10366890f0257364802082731034d16ce00aae1e402b62cf703e9a6ea009d5044027b441600055a580338f3280376206702b0592f0382efd6007be47d0216355c037a0411027590a1037851c900349c5e03e782c903bc7c1d02fbc56802bc6cf303b63c9b029266b9012c7fd000a2dcce0226cedc,
  0xbf4b8006c15610296e717001c9aff01b0250101d3b3c4013873350328607800161c0d0288547100180ce700a99e2900190f9702c677a2023975a601e4884a02110cfc030fc7e00110cac201ebca4a003507d60192520d0173508f0307649a01179f1e0254ad9d02923e9d0369c4560281d9f90177361f,
  0xa1d9301b4d549013110430216d3770297453202672b5c018c6faf0078fbae01dd9c2a003358fa002ea68b00da89e20191e59a0382e78900d3b4f902dedb5e03ae4f1203f72ecd016c53ec00f313ae0035bd4902295d450387a9a00086584300b458a902d1e6da02db9c2301f25d2d03b90e0c0398633d,
  0x1d55770396e12302df42cc03607346030b518b03c664f703956061034f559c01a5099201297034003e613d0208f8cf03d98b4b025a2366022f49f3018f1c0f034f2b7600e0346c03a4d62c036cb56700070e7600b050a90187bde002ec9d46013502d5022533ec00193b1802fd27da006fcefd029c3811,
  0xc816201cb9eca018beb45011eedbd015128d6013253d4033b8d3200dbec3e01c4422d0149704d0026bfca00fc049e01f8766602887c360254f692022ae56a0032445f0360041903a37c9502b2bebe0013f2af00df707702fb5693008655aa021b54a500de875500d2cb0c00ce46f9023a536303f95292,
  0x3db9b100322b7f00e84fdf038351d5009373cc0347a25202c023d40036d49800eea31303cb34b60036d5c003908df803aa8231032c2bff0016ae9f01799611025eac6c026f8ac101154fc800e2db6300033cb201c92fd5034511bd0257d04a01fd65b80209a04e022e1981010c4746003459180283c61c,
  0x38971e02b35ea101190f9400263be7038ce0f403db2ce301f48af402e6ef0102b038cd0184f7520000e496001be41d007cce0d032b9b97037d7dec02128f32032575fb00cde920034f829002cdf904000762ab02e68dc50156e28400ef590e0341bd1701294191003b2d15020ddb0202581f4400b63b0b,
  0x24bc79025e2c13008a3581019ece8100e8eac800cf686c013b92b401bebf59020eb164037e1b4500235c7903f26237014eb928005a060a01f39f9b016db270001ba99e01beca92005e7832007f33ae0035c98c036ee6d003291fdd00439bb8010bc272022eb79b013ff3a301c3660f026c47ab030e79d5,
  0x3387d20043a92f0020d9e702f5142f01c9663700c86e9203748dfd00f2140a03d76bab0192da8b001f55390287a4f30256b02f01045d8102bf110001a778350183a6b50140db210014de2100da83be000e769d03468f9001acc12901edc64b010408cf00fb043900d01d8100dad1d403c971be032df49c,
  0xee86600bd071a03d1978b032ab3ba01d09db40022c145017d9c0002ccd111006594cf03f671eb0016664101f97729017c8af502dd45700386553100293c24034d7709001bc2800328411803a84188000d4f24026f0dd801bc4b8102f7bde20027060e000336910136d39b0015e34e0301100503ea045f,
  0x19775303b15b7a0307efb103651ce801eca96d015708f60036afe002c1f6160336bbea01de31910016dbaf03edbdb300694f4f01dc22de0148757400ac2314029be7e600e0f27000c22a83013ad04a00295efe036bd5280384adf1019bbbb1037c508b03c13d0a019608bc029a352300a49b1702fd8573,
  0x1e699903a6ec3003d02f2f001a18e20253a0640399bb11032a2dda015031d70113d41b036e584600300105013a443b0060a9f80095767003627c5300f157c0034f8d2702a095dc00679d0901d6b7580026df12028444ee03ea2b940064ec3f00ab4935027a4e20012b9f8d03a848de008225a60239762d,
  0xbb5840330739201ed19a300f19b94028717a6022db78f03fcbd4902f62bee0232d2c602f2435e002fe1db014dd2b7034c4e8b00306ef802cace380344338b02f0512d0380fde500b6f42e03d294080020ea430242518803e3274d01f0048d008b16d403cd88640152444e025e57640117866f02a6373a,
  0x548950175796a008e138c02eac9b20277458803f9f3f0019b2d03006ed1c002c70195038afb4500207c8603bf10a9021fd69b01c8d64a00b5f909012c3302029062340297bb8f03b21dd5007d2a530029922402daec590043dfbb01b9456e02ee0e840115ffa003197ee901862f690061aa4902ac0114,
  0x13417f03f1c61e03343e91004b2498031ea2c201ab99000159665600ccf91d03ade0a901f53c7e003223d70319a2db03da29ea01b28dbb00678f8d03e285ca01177ed801d5465c03ce8cbf03bb8630001cd16702a8c8da032872a200c1b478026e57bd00e5b34c00e9bcba0092ee4f020eb561028eba56,
  0x3a3e5a009706f6020e46b1027a8fcf02787668032d745c0133d6f5018f5df9005e3407012cf5e2003a050402178d1101323d4b01167238017266350015974800c9c00802aee1fd02d8948a03c15c1900303b5902f97b6e0240f2ea02a531b4026417ac006b0a07002da5140076757f00e9c516030dde26,
  0x20661d026ad6e80263d31f03d0d9e8027d6d7e016a6bb7036ba02b033633f002ff822f0290afc8001541fb010782c40279ff0700e5edbf00c7675000a2404e0114708503660736012fbdea01839902001db7f60009b48e0390d68f007dd09d01149563016a74c2024e481d001fb27002d4df9b02fc0871,
  0x323a800e5311e03515a6a0089b31b034b5bd902eddbf6022b5bde03f3834103251ff20034169f0013414201aadaa600d7d359028c98ef00b829e003fe149b02d5f4c6001e2c42015fcc2803b53b9d003015b500d815fb01bcedc3032a8253007c907c030e45d000d1a5da004dd0dc01252e6b011f3d54,
  0x82d5e03400d7300786d9c02a93b4d02f18fb50318983f01fb5604010a68650192132101c4b7a400029fb50327e5d701f33478027179b0007a2fa802e22ad4002af45d0039078e02de3ebc00aec2870015b7050076145d00e0ccaf03f933aa029437090030e27202de19f40184f77102b5ec07035b56d1,
  0x2a0bd20361122601944ba502a6984f012f7f0f01fb9edb029ea2fa0195fd380108c95302ca9f70001df8c600140dfa035f72c30130d9190238e577027fe51c00be40dc01bcded303448aaf0241fb8800033b4b011bb52f024d275c0377486c009b952902d7e0d603d6eea1034d69750342780703d5969a,
  0x1d536d00bc76b1031ab04901cb6408038cbd9e03de329f00902f290365e5de00d5e77201ad42610033e75403c20d380311ed0b00a3ad45007adffd01256ffd02253ee9023f1062002a3b6100287c5c003393f20031114c0335e90c0173a3b70184598000cb8edd02bfc0310141f2390267598e00ffdc0c,
  0x2fc4110385fd0702ce2e410169ca0c0170bd5f01c9d91a01a6a3dd018b0a5400b709da0076e4b200275e6d00dc629a02c7b305035b37e702ad1b8a02720cd10197bac900d369c60109d30c02101267000d90c701f1e5de01a700790039325e02ef6a6a01b85df403fb1c8f0368eca003db07d6003a2d23,
  0xdc76700adc97d01848cd402d0504b0087169c006ec9a002d2c1e701bcbdc20244418601674469001eabb5009b841302230f3a028c81da0226ab1000abd107022b6bb402966bcf006c53ea01461fa50038e3c3028f6733039600ba023fe08f01361adb037c75ab009d180600e2811b01104b8402d0436d,
  0x222ee601551d6e035615c3026e93cb033c7b4c01a50b8f00c44c78030eb1d903175c4f038c3e4700141242029ca4a7007e05e303353e500215fd9301da849002a35ead0259b7b9010d1526001c48d30013f99e02b0b4690185ba8b03d30dbc00762c3d0079a8fa00597f02015cd83901791c19033c9f7f,
  0x2acc9a03aa74ff00f2bf48006209cb00070ecc0155ebb102310d46037e407303eea82600bc749c001883c20035ee2200df140d038709b00135dbae036f284503415aef01d0feeb025139a403904d9c0038176201febe8a0390b1cd0077856f03ff65ea008e271502187da702f371ed03c93374014e495d,
  0x2c042803d76a85016b2a82027e27080060647301cb5a5a0291206e00dd3f230162216003d1ad1c001eeac2014d7cfe013bca1d0263b8a50061b361019d459403d756fd00082e7901e2559c036f97e8002c56ee035a1dfd0329809803313b450253970d02c1de8a000be2d00231c7b103443a72016eb15a,
  0x31c9950031c8af01bde33200fcfda402fb762d02933e8b012c91060375464e03966e94006a004f00378ec203a193cf00eb254502be183f03f82c3e00895f8f03ac7bf501a7aca8004c85a60311a9e0002cdf8603314982014bd819025e129102664268036814a200bd301101fbff81009123e403af3f05,
  0x374443021bc95101301418019e95990329939c002a3213023d734f0097ea66001fd429007bb76500018c0902ce1fda00bdee1e02f7aaed030780c6022ff830009ddc2f01f92c8500f81bdf0016e46200014a2400d9e2470119e21103b802d7005aa14c0050afc103f831a8010b615c00f291ec02d728da,
  0x1f0e2e001f85cf0257834b023aabe30305c876007870a000c1579403907cf701dc8396024b329f000beb42006f9944026a483601f5ad8c0068aad80213d18b01a0c2ef01c1f224028de4a2010d04ba003a938b034d12fc022c43fa01992ca101bc837a03c2708801a956ad03e383ea028aef0d01719157,
  0x24b93d01011aef028b97ee0261a6a901370584000c249b01d22a58014804f302f94f85038418e0001d95fd030b534f00b0208a0003227903c3961203e31e9402673ac0032d33690306ccb001569e46001ff5bc03f9e8360005fa730245ff8703cbe2d70083195f01ddf67d00f53a3f0135798703cf8c0b,
  0x2c29dc022ff75303823fe10084d876034ecd3b023f3718038bdebb01776c0f011a203401609a17000b9e4c0285906902654dfc0228b31302befc9703d4023b00fbace6022ff3c700790e9d030528ba00018dc802e04ebb01ae20c90219867803a8a6af010e9c5d026093490286c8c500d989d102b5bad0,
  0xeaec02702a31031ba0af034c9cdb000ed3eb01cfede101d0bf22016e74d801bef69e03b99ddd00122758010c290e02f51ddc00a70f8500c7a9ce0006129202f4b501026f67d603c4644b0035c741000e98e7002700490396478e0346cbe6036c274f0216bbe3030a183c003f1d2200a7defe03100c6d,
  0x2bc14903af160301ed878d01bc15bd03c743ed037faac7016ad4a0021958c80217c62b0094a5af001f0dbe01ba788901febacb0399acfa01b3d3dc008ba17a011e42ab00d81b450058206a02181be4000398f601e994fe00165c790321011f033a4273025d6a1601053e0f0082b04d02c55491039a0032,
  0x23590c021952f3026614bd0015e07e02840c9003a15b3000e4470d01badc3e002bce7c03dff691002e113100185e7e0049344a023411d30088dbb9004dada203a25e9803e5216003c4062d033e90c800061eff01736cf2028f73a40034c977033a38f30304b2f701aa541b02090e2701def8a7018fb66b,
  0xa492001a8dd6402a5c3b303adaa8101febb2702cee7ae0328f34e01825a10003f5ee7013c75b20036b64502b94f9e00a6a01a0051e215000d16fe006f82d703cf4435012100bc0168006d00d1bdc7000be9c30056c76e017729a000de73fb0260b79f02cf1d5b01d55c8003b1d9dd02a804eb00969b79,
  0x181df7019470de029a3ab403a91f0d03ba49f201f5707801fc6ce003d3304b023e4a9300660c5b000ec97d002dee34020d2f1c01154e36022e5f7501bdf5fc02ee16d2029513a000292a3b01d2846500020df502a7c55202112ee403a0a59901aff08303a422e4011bf5ae01e7f030017ace2c00a98d58,
  0x12b660139553a014f43c10151c47d02dab7ee03561a48015d1cc800a8ad6b01d90e5900dd02640034b0fe006ff63b03e4b96d00255c6b01d04be903b363c9024e64430054d6c20156327100a1d4ba000e93c6014af4d401fa09fa033e134301393e8702fecd4d03bb387001869b5f03c6451f018e5780,
  0x12d24700137e0a001a1f55038d2f2b00904ff203076c78011169790082ebc200584ef50040bfd10006ab2403ccd84800ca7af301fbd2b3019e7b3d02de274300c5d85601f8bd2001bcdac701586b5c00336ffe03551b1600f3a225037b857b01c3fc89010e348b031efa420242c8e300c80e6d034c9e89,
  0xe6bb8011214fd0333e6e20068bbc602c329170180f2ee03649c9901fc1294032a147000a012640030371f028a401a00a5faf101e1ecab03d1540b026823c8029a2293024c76c701e96a670135310f00192fe60073644f01d1b7c30271be000248e91000bb83cb031499c1012d0ec700e5348d0170b37e,
  0x3158800337f3a402251bdb017654d200fd9b29015c48d201bc6ff801e8440d03ccdaa80085b139001c796e034f635b02a695ad01ce614303ff0b530264afaf037a980102a9f30c00d7592802314e6a001a31c101a0402c03f8123501daf29e026cacb700dc5ea9034b2f9303cdffe100da68fd02c50ef6,
  0x15485035f4ca702bd4bbd002bddfb02b0866a01120a4a01d1752c02bf046c037efbdf03620e0100240c8302e4b1270186ca07001c55980240bcbf03f02770030bec37027160f80277ed920348a9f4001bd09501bb49ac032bd26203570177035028f203e7d50f009edd7c03c7b77d0307605901626505,
  0x320555018049eb01fdd98c0216147a02b5989d033c9df401e50edd024d36dd018f636d0051031a0020cad300ec238f03828d1a0278db02021510ba02fcd5d800c17951002b6eee0001b04400e9a8ac0024776c00e914d102b767df039c9ffe0083d41f03a5e45e03a1cfb201721dff029cf45f03184eca,
  0x194887018f6f8800843e2001d9ae35006480e102aed2cf004e68b5022f418e002ea770006cfd93003d88c1010c5ae2032bc34101c46f550393f7d20045005100177564016390f003c06027015327f8003f4df701235a8d0245bcf500cd69b60324ebd700890f09029a1250000fc7d803b7658c018e65d9,
  0x3c5e9f0002c6500314f523009125f0028ef66e0396270302edeb240191f40f02a48a0302078ca70005b8ca00da7d6c032f7302014bb2f303df95fd01b43a4303f4560f01b11f3802147d5a005fc3fc0017780a0024f3f202496a3503fd8bb20176d4c702ad681702795c70039a062b02df62bd02ce94da,
  0xc500400cabe9403c86eeb034afa4c01baf2ca00479abc01af42300338661f037b3af400aa1fc800268f6501ad502b038d324502c90c06001de96a021d6247020dd549008b3ea10192629900ec5f7b001abc80009b05620073bd15038fbe0100bac74d0279702000fe16c101df6cbc017577a103f77329,
  0x18c30101d821fc02e6f5a400f989e8036b2ff401e9d83903ef95b1013f55f601e290cd017d5a55001eb78d015453060144e23202a1706701a023b103c0fd800274d5450035922700d252d301be758d000388aa0163775902166b1d00a18af8016af497013bc5f200c052b2017cbc4002c5e7dc024edd75,
  0x26af0001faa29e005f755a0309e7f2027e5f20026aad5701cbeaad00893dbd007751c3024dfd07001ec3f8009481340107c13e01bb020600f0202e03c3427303aa94cd038d5a94019b26a501324b5a00313153002fc60c01fdc71a003e872f01d42c540044ecaa03e09def02f3fdad002b855703d49d56,
  0x26779b02406a6400630f6900bd5c0102d9544d0396803f0069c1ec02d3e45a02090a1c0377745d001d554503604a2e0321133c006619a60149748101ac0da2003dac27005dffbd035099650250478d002b69120134d407013851b40117993201995a7801bb29d4025d493a0136facd00cce369015f5f61,
  0x635de03abab8a012274c900c3c3810031d31b001ff052022bc5bf0290feaf0073156e000b34cc001e084f01c212ef019336b50285cb1f002620a30378f81002069cb001a2e7c201ae78f80129d4190002ae66007edfaf00d650ec03c3154a00c5223101b157f803656bde007b532c03e5cfbe00cbbfff,
  0xaa5db000247960108d8b602ae756503d3c4ad00e7b4b6007b8428025376eb019d03d1006153140025a66403f9b32a02b18469010088fd03f83a390392f40f011dc6b802f944490164981e007fb472003eaad300723e740274a4bd02ea103700b0ecaa032abc7e0334477f02ff05960315b287003e54f5,
  0x24a88402aa6d5f003a51a502dc72430366d153039e1e37033703300023f3c502b2c530009538c6003dbd3901a37c53038e02c901cb493203193c9b02f868e9012a86d803127e74009aed99030236960036e27902e8bd9c011a17b402cbfd0b004c403602b3e14001a2f9da01f76dc301b27301023fdab5,
  0xdfc030072513201f314310224bc440031d84302922bb803be4dd0026a328401ce216d0042d1890001aa5902f1094f00f696040287dc7602ff13e80376833900bec33b022681b9032ee83b004605fc003d19650112690803d18f29013f683d01dba0a002e13ac602395ed30195110103424efb03a75201,
  0x313e27024d2dc4000f2922013dc5cd014c641901684aa002f682af00ecc0e20220be9303e38e700000befc00b62b1c0187f4f00321a82501e9139800766139016be4390072210d01e1470e02a9e9be0026427e028ad242029546fd01aa12340289cc400285dabe03b59001032d025b013f4bf000ede68b,
  0x1b4f61038b6d5c01d6358f03a4fd13003eb32f03e9850c0079ca89033e1e5e0104df22009c3618002e893c019f211502d83e6e000c95ee02548eac03a7442502eff40c0229528b00cbd5bd009aa0ce000356ea01e0086b02da226a00e78a06024ff79800c0dd42013af64d01a74e3903b3a97600e017f2,
  0x1c625010d60c702bd1716036a724803f55d2d005c5df6037e554f0000f2050231ba0002144eb800091daa03038e5d017d8e3201f5ade002bc9cba0349802b0192b1a001a3641703bcb3fe01c3008b002d4b7302318e410190a4980032cbe70331d0a103031e73038400ac00f433ba01cd64aa03985b0b,
  0x3f8302028e38f703b64c01005c981d038dd610028506c7025d81000187cd38021da69c00d2f33c001ab07c01392de60348450002cdd86d00e2c82d026a656102533c42021c5c7c02bac6000117de430001c24300e2f78a01a3a63d032a213e030e74df0221d0c903137bf0024b11040018d2c503823133,
  0x25723d023bfdd2024c49d602b2fbc103b57c810193a60103c4b552004acff0021ce88100c4a8c400159e2b01f530ee00b443130275b75001744e72018c670b03db276b0313b222022ad5c703dc20cc000c934300a4f53803158279021b752200fb1a570142c630019cbebc01ecab2103acc5650027adff,
  0x150d7c034193b4001c7d5f00cd244b00cc7c4f038d168b01899b2b027cf3ab016bb8260024f9730002dbc9036b23bb001f0daa03967aca014e379300d90b6c02eb2e9f01edb3b000dd4d9303ca22c00003cb8f010a86280135f6740028f92e02fccbe300c847f600fb213203ee862b0327af240355f25c,
  0x256a9502eb0f5003006f190258fb8c0064f7fe00ec6407008f4190018e5fab00b82773015f897e00353ad8037d930b008dc9560006267c001128b900127d3001cff04f0199804b01127032023d96a00034ebba0189555900eea3d403f8e522003e7372033c94a100978760026c6d7e0369f64c0023c93e,
  0x2d0a7d02277fc903e2321e02d49dc00256b02a03ac877802d48a3800f9dff2001fed7d00c0b9b80027f72200a97dcf03abed4603a1674900645e9001e57c3e0279d17c03704a870120053103333f340033b63e0079a767026c873900bf70b40176176d0224891b039ada0001b415ef017a5e480296a7fc,
  0x27e92503226d8901c719a8003c5d4c02c1c6c30353ef44031111f7014846b8006c01da02d676bc0017b3af01dd30d3005bfc2000f88915030e131c00382de10222ac9901b16c23019cae5d0295fe980023d63201a0226f0059963a01a8600f03939735004dd1b6030ff7cc0258dc2201b0199b0089802c,
  0x163c4401cc003703c1897301339e1102c3dbad001a20d400dc331e0059136c02d6d616037eba8c0035c3a20024bdae001a9f4801750d00016bac160108510a0180e16c000e214801286f5700ed6b01003398aa02a5449d009278e503b2a50603476807025de95c0266a72c0089e62a000ce217037e00d5,
  0x3c5be203e4dcdf017a67e70147cb87012e50a2035b4ed50379f0d000874cc6007e441903efc5160026929401ad38d30381b0fc0242fad3009f28fb00c1725700e9ccd703c961ff020649fa00e1c5330004e2db01dbfa5e03f94fa903858acf01dfd774034b9e8902298d080194889003c08532017483b5,
  0x11105a0136473103219c74039ce9fd02b4f794014ee384007b0a7e014fe274023585e60350e7f60024d22f01b86e780161b55601b306a600ea46380253c774030607a6005a184900698cfc03a0c87b0027e2d400c00ec100e902740238b72300cb4dbc005fd63b0303811202d8681a0370b85f00fbd61c,
  0x6802a0358d64201690658030484e503554139032b1f4a01ce5f8800271c820014d193003ed78c003e55b801088741028cc417029dfd3202c28ba103fbd07001de613b002e778a019b94f403f3f6c10015338b02790c68023c2b200061eac3029513c301046e1f001f15cb0079713c0015c4c20045fb7c,
  0x3ac8a5029f410e022f74fb038f920203be318d001658d3006011d202c9e1ee01f5bf4301e521dc001e8c9d01a7fbd8009ce1ee00e51a8302a5252f013cbd3201d70c4203fb682301e1cf3901368f2a000c820700b6a89f0227590701bd181500e41a5000478a0503d9afe80248db4b0168781d00ba7d1a,
  0x3df1cd023ad8720030eef500e507e403dd1d9f022cd79003ce9d750169d7b700b91fba015ba421002c7f190023cab000f7938602b676910190f16603a2b36502e50de70067180e02e4eac10036d32100008a5801276c87019d71ce0115aff80274feaf01ebc21001367ef603a58ee90384065b0029df5e,
  0x31323c0212421203e564ee01f934c601ee0ed6036fdb7702a41d4a021ddf48020d826900884fd60028d498014f87e802debe6002c8270600c8d96d00855ba501ef842a036f6d840377184100b2039e0031187000a92283001e8c7e03bdbb48019d816402bbce88032624850377f90502dd2cb103240d28,
  0x3fc774020d3d3b03d80b95011f44c2033e5cc100102e710019ce050051526e03083afc017ed3a8003ef2a2029a4fbc017fafaa0294a13601dc255e0359f3f100f857cd0007b557005ec7c10336c39c0019b60900d680fe00ac8b520387d87b01cf26b50119e1ea00601609016d35f802511199020e4b08,
  0xa66600116a209021c898f0048f15e00f0870a025d087200600940016223f600d00eb3028d743f000dd69503bb2f3a01665e8900f100ea0122a0f903f161cc00dbf94b032d6119024f4a35000a0cfb0001839601ea42730066d129007d0b00023efb800388215e0337f6ea013ddc2a02033b2401758b48,
  0x3a38b900f8973f00f619db031a0e7103477809008dbf9402984894032c6020001cadc8023a61050008426402cf5901028eea2100b423b50203bdde00f484f40322d2d2019800d0034cebac0279ce140019c8b100ce66930050c2660116dc52007874f303a7066d02ed6242022f911a01cee3d702ae2faa,
  0x1a86cc02f35d0d01f0e35f0164a2cf002379dc01ac1f1a03818e600368def90176e78503c07a14001bef5e029f877600a1d45e033eb251028fe8640371ded802399f120209c706027bae8d0272ea0a0028f92300bee3e803ad10e002f04f3202009e9e00b98ed200512e2601ec8d830137a47602593b35,
  0x33a185033f77cc02ada18402ff339302cb2ff900e860d8013430e400403345011afb32021014f5001ee09702f892d902db70f702a8ca1a02ade11f011c5e64022cc7a8011e08f8021ede0503fd4304000741a701dca755027204b90162216a018674880033067e027ba2a1032655b603dc6329029df60f,
  0x39e634013eef6601528db902b9b66e01b2fb8d0127e949013d429b01e792660253c2ba03718fdb00357a2601615199033f792a03dc20eb03657bcc01d07513003a682300a0673e03c2504b01c8c679002df4f0020f188c0118f26401b903a7000df53d01e0e32901700280039b30590244779a037ef67e,
  0x355c49017cde880224297f03c0608802fdc9b001044a57039b802a01dbcb8e0078e588020ad016000ec4d6000a7fb002d2eb7201de0561012d765501683e22016ca458006a3042001edc480381bebb0022117d03ed6eb902b1b1f10014895e027a896b004abd180367c12d01ad4a4d0067912e0294a546,
  0x1158fa0191f6de03846660010421ce02cf537a00cc9ea70306377f0079c5b700b4f2ee029bf5b40012bf89008c2d7b033bc42d02dfd3d903987c5f00a4c096033c58b201abe4b701d4f94e0018bd4b003a9ce802ec5dd4020f67f202e1459201e8181701d2b43a03bab5c5022426eb03d0c34a0311e20a,
  0x3fb8ab0186452903d3cc4e0256bedf021f7fa7038fe718014704a001ec430102037e20002437610030a4ec0059bf5e00ddd5b8027d4a33024845a40315a48100dc159a00e3a66001029a8c0269f7330003af3a028d409f00e9c3ad03b3a00700c3914301045f700367ebf30117af2b0224ce5a028e6f2e,
  0x2daf2a0288c8af03415856009a5ddd01697a0a0178a588025c3cc5028d755d00460fe702c399bf0022a73100319785015b9cc6038e71f6018296f5008d3330010be1d50218d30601e1340b0085c2bd0039393f004d945c038c23a2035ebc56035b859d02e88abf02eacd8300787bbd00481b040373f361,
  0x33481c00562600019dabe3030ca4a402fce1e6017efb7f010f6d40000f005e01331f7e01f5b9f1000a6d0601af973b00f87a3a000c1cf7039681f50026527b0358940101edfc1f01459b42011be1390016b4ae03867eb803cccfe00333b41602f9e08b01e14c5d033c741c01d502c701dbf0e002938900,
  0x2c059d0146f9ea0037270e02cccffe0139745701deba4a0082280a022aeeb402ff965f00e0ff16003b7c54019c497e01b7ba6600444bb8010edaee0106100c02156462019c28c103d442e0030e4cb400356b1402a0569101f31ef4034f78ea00287a1c026d059201c42ad100826e3c01ee9d68009f7c3d,
  0x3b311f02f0356b03ab64f801330f8c01575422021af828006fe0e5037e1dfa0274b60a01a87f7c003ee67a000e13e101fd3019028869300282e3b5025864aa02f7727e004a8ccb0080f39e00d49a130018f58500ae15c8014e2f9f018a8e1f0046fae9010be68903010a0900f22650039599ac00a86dc9,
  0x2b2c7400de6adb02fd8b270343f399016aae55022febc8015d535503b853b903ae9a6c015556810019ab41008a6b8303c98eff038c50a5027134530311280803d2370c002a43dd03177aff03f4c73b002e72420383b0b20106ded702f8320c02a41dcd03d3c71b0288504a01f2b95e031621af025de6f3,
  0x2d0d7702a897e802a4a19a03cb24e102b726fe01e6b1650064a5f4019fe40b03182bac0171ae6c00066bed02eb4b07027e90f5031cab55035b649b0377704403737a3f03680861024e5bf9035c6d15001e96a103a020fb01bf0b89002bdacb00f0ecd900874b6402fab60602fabeb40002696602230d72,
  0x8eae900e1c0d4014788770079130e02e126a4000de94501b7cff1009951720380758f01f0763c003f94fe0043a4a9021c49f601102d12032cbe90004815a90248fec800900bb300e83e5900666cd200108504007117c90386bd1501703e960251ea4003a16c5e005205150369ef8600ed0d64015d0ca2,
  0x2a226603895b9a0284e919019e63e103f8024d02da79ce00a8a2430260af6501831d6101209f64001ed0fb0313f0af012b2b0b016dfc920212380203961d6102fb8639009f7b31033ae13b02a98ecb0006c94a011f4a1d00e721e202f2be6e01b145a1023a9be001f8ec9a006dcd8f0006abf403b3ba0a,
  0x2fcedc032a29a201f191d100e9b58f016375ee029f6266022c3e80004a56b602917da003bf244e00205557027560ef03d15a4d01f2cf8a00f05cb502d3331203144e8d037def8000b301a102de6e87003bcf4c029e3f83030d938101e3796d00edd56300820ee302a6833602658b710226726701cbed5d,
  0x2a647a01dc487001cfff0f00eadc9c0146b6000242b8ed0183e20a01fa74ce020cdee20249bd460036ed6b029bac720131ba5b009283a2020fd8750242932e02418a8601dd212d02b13549035832e30002cf4902771883027e4cbc00578804023688cf018c2655031e2f470293add400700c1d01520a4b,
  0x21011603eb894001ae29b60323933403f7629902f5b54200478a7e03e2dfc2001856ef02c1ac0b0001badc037ce5c900f6453301bf1d550294f4d102f2373202b8bb7a004c2e580061833003c02f8c0004dfea004b55db003ea76101ba1907031fec5c03f796fc028b7eb9029bfb4f01235c630257b964,
  0x1c4ccc0091405800f6f68203a330ee02dfb1f80329057f01c5fae801ba4a8203eb2e9f03d829f6000be867001c5ce702de029c026fdce2036902fb008a1c30027bd45c00ccb2c1009f5d9c013e4aa3002a033700977ece030ddf56006f1bc300c06a5d03f625ca02a6b136025508fc0182641802d67198,
  0xd17ed0343714100b9198401c6bd0102240341019d021b001937ab02b3f42100fee74d00bc872200182db4030ffddc022577af01a5e00f03dd6c5c03e66e2801dc817f01291ed200cfb43002997357003d3cc201c8b3ec02f8b3d4013d658300789d7000ed8737003cbf7b027a62df0239b4f6003616d7,
  0x289ca011588a0004b1975036897f103152be003ff8de900c1515e021bace100289dad02589a900038f5a302d80f8b039b7dc803180c5701909fea033ef86201fef99d016925f700a862fb03ccd8fe00363b7c010ba195015a80b10187fbe6013b0e7703464d8f02eb8ac603d962c7020d6e1a03dc71c5,
  0xd9f8a0027d69003ee343000a6851d02d0b194023ab98801f22c3e0245f3fb00c19c93036f74aa00042ffd00637f0f025bac320007477d03adbbfc0204f2df01e383f4039f82800026f7c90213565100319aa700973bd80348b9fa00e37429030596ad03adfc7600fb6a5e026a66d801cb2ac702a009dc,
  0x9c16f005e9faa0325693403910953028d4f670338966902e4661d0357fd6b01c0293d03ce3a1b00083e640128a13e02eceb6d01af534401b4b1a802b94f6c00248aa4011da5bd009350820168c4290024b1af00dce78502e9b08602a1bbcc01755b740125528303935a6e03022051018284d3013d4ade,
  0x3ae2d303c49488020e53f0023f80c602ca24d600981d3202f5f7950106e2ba00cb8e9d024f8144000e3ca7036dd93700e3abea018267cb023b6ead012ba4f803514d71004bad8200d5a14002ab2fa5002ec5fc01d7b2f603f6e1670166667603591a12019a648f0368f2a103eb0aec03115d97012fb554,
  0x160a2a021cc919020c0748033cd22d02036c630238f914024f27b2025e027902132bd001ccd1bc002530b902ca19090354c21c02eaa2de02c832aa00a0f8cb0207725d003bf393022cef44037e964d0002189e0364087001e396c10026143401b51621000d782f0184ba740030574500bf515f011d6408,
  0xe13c902f80be303bd7bb50095e67a00464bf9034a09f7024e8e0d01b736d80206025500a8c0ad003691430260601502fc7ac500368df701c8097c010dcaaf02b2da4600fce78202b7a348004377520025da9b015df95603b39ca0012f572300a590bc0006815a0213a96d0396e51a02408abf01703975,
  0x9a59f004d248402791f55036870be0227b33f01decff3016cd47e021749bd02f2c03d03b22986002545d0030a071001e5ed26003d01110085253e01451be2013b409003e6d71a028d6467036b1e7d001254b601d96dcd0048c6a802c7f6d400ca18b00047c02a01cfa24c01885156019cc2f602703fdd,
  0x3daf2d018020a703d115c80240c5ea00606ec9019f588401cc520d026bf3d7003d25a500de9d1f00387ec703ac14080252480f000e68d40390edee02d316fa0271fde201304fbd024351db03cac291001ab65800ee86c00394f469001dd192032cdbe503b6588e01b710cb032726b000a129f3005df666,
  0x9170d0134768700ae749901256d4802a2cdd3004ee19d00923b5e00d3fc6c0370e8d701808490000c57fd0201e6810063fe4e02b51a3801e4310b034e3270024f63ed031bd7620210ff9703ecc808001aed1b0234f5730399a92f03aa75f802efa186003d6ade02b3397d01d18e7a02817a1b01cd461a,
  0x2d1180032732f500ec80250194958b02e6b64003e1f7c20130017500ee47f601475a2d033f47fe0018786100922634023c57ef01e5ece20095a2a902d4e9ad0330c82301de4100019ede0003cbc98200232bff00a0327501dae1cc029d32c700dcec9b0274d53f02ae7e7900150295011ccbdf019329e6,
  0x3b0120257288402c7d91801f99a0703b264e101101b6d01f8f0f30078d81e01f657a601e6e831003f04130015a4e80117619503e2d76a014666d10287ed2e00042223038e2c520069150d03c2f786000541140359b26403bba03103dd887b039e8443033acd0502f43f7902ce9e0202d70c6f001a3e54,
  0x14fa25016bef54022057530114af1b008d0059023c1f1303df3bb201da5fe70033048900e8919e002141f400b21f8b03018cf5018fd8f3023a5323023c50cb011a066e034fbf8d022c5b970327387c002f023e0307d2a7025f6ee00162d9f3000ef671031cb90a022e5a38036e6089016ecfc600ef11f8,
  0x4286201a7ee8c01952edd0141766501e56d66024e073500f2869d0184773d000ac14003a49566003636b3004349a700cb2997015a4c1b00f1917702f6bbb203800d2d0261933100fcc92a02f497e0002b039a03a979f702c1831d01e268af0381e1fd007dffd0019bdf41005138c5036046a502733bb1,
  0x16715c0006d941016a3ccc014c09070391192100da053601a0106e03af47bd03f986de02c32a12003995210196201e024aadd60299fa390326da4a00f3fa4f022c3e570217040c0107fc88007bdc250001da42010097ee02c4c633027d23d202257c1b014fc7ac012a0033021703ba00eef25e0358027f,
  0xcceb000305f6a02cb6cfa0142e29800cfdc57010281810157541a001370d6020bc49701c86be40019d6ab02c68194032030ba01f3d0ae0133179802f4557d0147b78f0271dfee00142ad30079f33a003c636502c9b0a000d98f1f0033ce21037a142e021e578d007a3bca02c903ee017452e903314a15,
  0x728270196d7b103e6072403bfeb1a0131c0b2027d9b4a00483a9a0136ada200e4fec203cb85db001e32b002ca247501d84ba6023ddf1c012a7c5801db855900e40a4c03e718790020c0190333f0360014969b00c14305022ba25502fdc89b03d97b3100849e1700ea7dc803349238013fbbf603bc4267,
  0x8bbd40269a0e702eb89590084b16d011b5532010b22780263057f0364fc7402fea0af01c934c4000da4b60171742f0303ba44037cb3aa0284cafb00d8320002ca160701c80bfd01dc675c02aa68580029f003016073f102228e7c0171746800b7049d00b38232019fb0ca01bb6b8900c2117903fe4548,
  0x1909e100dcd8eb024202f502f9c72a023a6f560273a55b037f6113001e7d1b03c1ad8e01aefd780035a36f018ce68202e3c6c0005e2fef02f95b64037f91dc00a7ae3500195ed803a6bb3b03bc6518001468d600ddc7c6014ecf72035bd0de03516066031e09af01ea2c1002e79bfd0078b7f9033a3b51,
  0xf0770022ad9c202234e3c00980d1c027ec9aa03a0421702e5c59001a1a94a03c0d9de018911c7000f9a840342d4d3024382c001c5e26b03c3060f028dac400327a2f401be73f0015582f5025b1f8b002e81ac02ba07970221acfc01d9dfbb0055c32a02091bd30113c5fd02ad60b2018f639f00c685f2,
  0x40e3301c81c94005d461703c9b7fe03fab6cf024e96ff0186ef1502e752b8020906410126c060000025c702681e9402ac2d1c01b79edb01c26cd9009606a9009f088c0163daa102bf728a035d3e670005857a031c379302e18cf6037a26ee024f18ee00a574a1029f36c6007a50d1004c4d0b03b94013,
  0x277c0700e84fbc01c2110c0235546d02fba0ff00ddf6d902205afe02822a59029f35fa00dfba7f00063fc40216425d03e332ac028db8b400c9c1b0024a0d9203da46030253db3f009bc7ae0228900300035bde03f3d4ab00ccf9c501199bcc013a95c902438aa2018da7f7025179a902ca729c03f0f642,
  0x264480028ab6da0310153600fabf4301c664850076ee5f012ebbc20255e301013fd88c00c1817c0008919c01509ca001e542d60255270f008c63fc03fecda00170509e015d984400f3793303a7ec51000fd84903a47701003d34b600cd48890171f9c2029784dc00cf6bae007553cc02ae8bbc0019242a,
  0x4fd9500b1c1e301a8f54902c8c5a700ec99f600512551009b143b014b2c380347354a011daadb003876ab02e2c14d00eb36e3004979db02e7f67a002f53e700cd6e3f025f1b4c0256141003f787a10022ede503c383cd034b5f2e039492f3025c116b0163ef1d0110d8dd00cfa1660135303a03023e03,
  0xf60ee02e7bb5101c093fb02a024c903bc350a0058920d0086f7fa008036c202af4eca02b8022a001a473501ca75b302c1e7d902ebb3ad01e6a42d008ee4630292a7f203386a30038fdb60010251f3000d8ed101649c3a027dcc8601bf4e48030012b301a418d50367a5fd00cf8a0f00b38d3402126ce2,
  0x1cc6330333aed600f8aeb3010611c20076d276029b3922011a4fd4018a844b02659cbe0137b307003fc12c0081c9a80362c97602130cc400c32df301aa61cd01111156006e29d602f7aa1d02945c3e0028995a0308427401feb1ba024ed5bc0036a4fd0245b0460105051803adfd6a03642d8102fac944,
  0x2cfcac009b10d0033c383e028d53c603b9096b03fc569701253fcd018a45f00303214a0362ca880004ec80010c114f024efa4303dcb7c702ba8b7503e95c3b00214d5a03197dc502b8f131036ed4ca0023cf1502f8555f0053cff203ab554c0397687e00c03a540102ad6c0320c42700a7ecad01979f2b,
  0xad39024b56620057262103d6863c02fa6fff022847be03d1fdde02bcf817010c125403b5e6f800058eaf00a59090024795fa03c4276c03efdfb50038ad1b0345c338019c3083025459fc0219c48d0031409802aa5c450008d28e02534a3103cfd15002567f9f021e824f0224b29d0370207400e18d54,
  0xcef3c0051365002d3b562028f75e603c9cf3701c1aa3500fd5bd200641a6201babfd90267e22000253c5d00a1aaf900921da201a66b2a030ea38d026b492b017398ee019de582034f67ca03d8bbcb003209fe000f5f8503cb1b5300fc5c8d03dafe97038a7232030b1346026f974a02e8023901f9c242,
  0xd1572028b5e6800cac11002e70e6000127fcb01780da40044d8650079033e021ebafb03023f38002bac07022ae90203ac9e4902cb3778012d4a78000a03bd02a9c265008a4dcf0166ac5a02f12beb003f0c6101ab9948000db5a603ec4aef00303018006c10f20083a0f102830098026f03be03ec5e8e,
  0x24e21d025a0dc3016f7c660202d3430227cfa3024b5f0500ec87be013cbd3703c9e76202bb0006002aaeb200f57138033225aa0360132603107ac8023216a900b6f6eb023f1eb603dfa77f023371f60002d55f0000ff1702a7c0af032af2800164859303ca62ed008b7a550230b55b0237481301251b88,
  0x26518800227e4901f43c86035c2459005610cb02c46c62008e729702e3639701d916df004037f30008bcb9015616e10139cbf50336441300067fa900479c8502b1ee1a01c258e302a91088033e9f260026d587030ff92c02f855530057127a01b0565801b1557e00ceb4b70236ecc9018e6c7303f5415e,
  0x19fee010ad3f1029cf1ea03b3e9b600a04369000bb4fb01c4ea0e0007c24202a947ae0150ec1e002e5fe70123bdfb0213503700a107dd0292da9802a0aa6301ab50ed02dfa5820130b70e00826cab00183f350347a59502cae99c023ea94202a5364f03f7795301e979ae02fccc710347fc5800485e90,
  0xcf8b000afb6de008bf7a30353a53d01b5ced0034a402b0070345d00786dd80088ee85035914c4000d94d4012a453e00bf74ec011d7f3d0237370e0360c15400c7676703189fc903a19994017405ed003947240331584d01c285bb0028a427017003d803fbfdcd01e81af20098a7330243c5bb01a3fb92,
  0x1920f1014e0b9500e845f002dcc1b100d81bb5032f7f0f031c1b2303f7b20501fea75403276be0000a1d03021c1f94024f9bba03bda14a03bf4d0201f3ade203f4090d029994400337805b01d52eb3003b6e2501f847800384c2510359133b0210085201eb617402e304c302dda8f80361ae89023e1495,
  0x329dfa012d606501b8056203b46b5901cc6e9701be414503dab6e3015a51a001f77d5c0139d8e0003b0c9303c1921a039cd05200c82a9f010667e602cf11b103fa56310100d5b103b131f0024d8098002fff6f029714510216dadd0337b9db0361db4802951d2d0169f7db03750a0903ae0ff901c6f6c1,
  0x1c57280092db0d002789760135c86d0067483a02f122140125cd4a0103a1d20137a4b30389b243001d507902e584e701a179ce01b5731502c79ff603a4b9e201cf9b850163602902994717023ab9ea0011e2820398e40401087bb5016beb14022256080095f2ad0352582803d34a1602ceef95012d908a,
  0x34bb6f00ae802d039fa5e10127e18c01601404016d5c5a00b570010087eef10151c72e0212e93d003a1fd3020e607301e9e595029f9ed80327f63103f9bda601e56339021a833c03c608aa0175e1bb001d707102e3166103e5884e03c45a50016c97810383385802d8e99a0174cc87034598aa017ca520,
  0xb1129020ba3060364f9b800b6ca7803d35e6f007b024800d8a09303f0a5b600e1db2300142deb001ca0df01824f64000fcc3301741e330194ca0702456a2403608bae02014516039ce77f0322fd54002385e50116e4a101dca6da00ff15a40183e1b201d8e2fe019999b70389deca008db75f01873460,
  0x217c59025c638601fb6dfb02c56ece030f611903bf035e000f8208022fce5c00156fde00e3dbe00011b36b01af79e101a604f603c88791033d165802c7e47f008cd1d903635e7b02215381037b39710024fa8e004a0693031478980197f60f03a7b3c40227143102f770d702652469032b72ef00d99f3a,
  0x2b5ade032e557d0370f92503fd21b702fd110102bd3e470012bf3600705fd300a3e44f03594a93000a5c7603a5eb5602c032e102b897c40166b5fb02a459bb0144e689016f941d0162bb9f00bca3ac0019014d0313811601df4b5a02737923030ba3b600660e2c0334d7a8022164b400d3d98800ee507f,
  0x36f684030854dd00e5a50700adbe7b01d4d6b8025241ea030860210258e3a800470d0800454f5700097de000fdad1f007d47de02a07fa4002f3ecc000ecdd602e9552200bdf5020349a33902c367df00123874030cfbd601e2df480310aa65006a7c1e03c169630393ec290213ec2b028315c700746c39,
  0x34440503d927eb02a20abe0130a50c01b565920017086e009185120332241002e9611202be724b001c01c303bd7ca20342db8502f6afb50034545b019c9665013e70f502e6c2cf0189691601f09b73000967070353972b03b3e72f02459cf0024710ce009e053f025e1fb700174c6c007c844a02c94223,
  0x32d3b023676bb03e7c07c00c5e14c02e831a30279c82502edfa81014d3fae002d14e501f707bb003743cb02d3277c00c63805006a9add004c25d8004c35e00257d89d024059e002724493030344e50017c6b7012d053a034a8d41028b8f790366738b01fde29c0380956502b6e1bc02e16ce802503a5a,
  0x31bccd025a0a9d02f72b09001f5f1101d0c3a101770a3c0107573a0213d3e001b93c730134d1660031c8c303c6db5f02f95af301165cd3007615d30128cd35012432a60147d24c0284cbce00c87c160027802403c7770800debfac00c41e6c02f70b4d012f2c3f00475ead015a0ac1018727e6017f1531,
  0x177aae00b264950278a85002c9f163018af78700c189200031694d03621ea5010464ad00f6c4af000a1bb702b523110372cbf3039540880104009a0074a11103cb2e6803a0d94d0282645000db1d32003368c40387c87202c5012601b98b280382161e00007b6f02cd69d603e7f6d300d3a8cf02eaf842,
  0xec8f501b9e70f03809d660137b29a03921b0b00978c2500f8009f01f83e2701e15bd40254ef9b0013e5eb00c6d0640107556e028468c500f1c72b02923b340087bac102345bdb0216536800bdf3e9003ab80e0148dc4a008bdf0003be2c67034cde4c0159f18b03650f4d02322e6703648bf90052a49a]

/-- secp256k1.go:10, serialized bytes 337920 to 368639. -/
def tableRow11 : List Nat := [
  0x0,
  0x14c83100d955910133307e03e7304502e2fa0602dd5370018ed955007ab07a0054350300c6dadd001e15f500c744e7007980bc001dfb8a00c9e60502da11ac0003f08a00c54a5403c2bd0a007c27860018814701c7da320058e127012039280245bf27026cfbeb00378bc201a38f930306580400329049,
  0x242a0d0206ab0700a139dd0242b5990256b45102e05ddf0368271c01291c06026ab9db01fdc65a002674a3024f1d0c0396b2b0011be0830036802f014acd5f005cca6f016f26100214cc2001080b48002e2e5e028c670501f51d0502c41ad70305ebe8007a9bb1014f956000997d61013ca0a402bde106,
  0x390cd801944c0f036ad5eb0327e9c80030ebcc036408a20065263502752a83004a60a901cb244a003c604c0259e99703b637b1025f3b6c025a69f003ead4390200efee01c0b6a70268431802c2e8e800027d8700cef132035d152d02644882006f60b3003685e9025676610126837b022fc57c02991ae2,
  0x2fcaef0182cc1800aaab7101cbb202033fdde00283fa87039b6fba0092206900e71a8e01a48755003571a903117a3402adf3d403ef33340097b84a02d1c1c30020b83a00091d23018f932601ebf35c0001eee103db61ea000d9d86020f2ac900e9dd1a02bd224601510974038474fa00b6f07500bce3b9,
  0x38d2603a445cb01ab46de02276f0c0085497401d886eb0263255d02ab64f2003e4d8e00e5e1a700369fd9034cbf9b0340b37200f0a9a20135e37e009ef66b03b4a81b022b35b803a1982c00693ad400211d1700e1fcbd00d1880701eb520b02c1a1c0000b7d640138e84e016a61a2038b7c6401b42214,
  0x3c2ab0015bc280019efcb801dc6e750101ca0203a9a821028fcb290227e44002c297e9006515420005b6ab00e6efd302c7d4c30081ecd300c30b5601e630dd03758ab20051b6a70185dc1400f116ae000247af01fdf38900ffdb5f02d2664902371d8603b81c250114adfd01e70e4b021a0fb100047b06,
  0x1cdc6903df8a5d01d17a21004cad0100b0f03a019652c5033027e6019a12f201521ebe02ce037e000f15d10069c5db020a0200030c7d28010049780052958f039572a1029fed3b030b37f40113c0d500218c4102844a0100e55df20326436500b6284503826117009f069d02b56fa3019840840045997c,
  0x6f86e01ad1ac902811dba03d818e90322c5dc00c9f05502e4734901dbdc70036c3f08006a8c9400213b60027ca777017847c90131c94b02834d7300c3136e01637aeb0015e50b03c2519101f8f2980037e0d80324f29d028aacb901b5c91c02b1d05c012e381402115f4c030b9f3b011fcbe2017f3920,
  0x274c2302227bfe02fd496200823fd6023023d802a9ce31002ca3a6024050d101ed6047017bbfce0015931700cb8f8d009062a60145918502950a160125e38700da9ea10258653903a679ea00f8db7c0014cf2703d9e13702e89ab7030d25dc0266c4ae003a5a5803cb84af001d745002a91394006043d4,
  0x140eac0206188e0063f83c02189b3a027f03030328ddbe02cfac3d0035f9ad031d7b10031028330028fcae00cf2d9d019540fa0142f55e032925b500349a5f020979b80150883603ed828e036e4e7700335b9002762f520091c27d0017477600c05b4f0014c64101c1b3730278e84701c5e12a000b8816,
  0x3d4a070396b6ef03d5a712018ae0090290761902ce426902ab95970366bdbc02f535bb036e74080021852802ab21cc0070dfe4011d6a4d00d2c5a4002b45e6011f0aa202c875be02c734af0305cd77002c8812034ea03b015b9dc802862ff002e3917c03a9a0cb0342b49701054c3d039f3f60005a941b,
  0xb4d5d012c355b022308cf0055dcc400e96fd0039b32c300437672021561d000f3c1670164e82c001ee2000057407e0127fb8101ff8bb703feacae02fcb28d01e5f5f5002a04970145b47000f402a50030e770014d23040313a20400a67aeb002691f602d11b8c028e75b5021b2d5002e73eae03ee7e98,
  0x2bd0250170aefb003a15e2029fdec9037fdacd019f5e1b0382d451013faff30231272f017ba9c80014ddd603735a4a030125450278628002fcb7ad01f5e6fe030ef1ea00b0d28100af76aa01a7cf1f003dd73f03c19425025c48a501829eaf00ee607d01b2716400cc098a03de68e003dbadd202c5f466,
  0x3b30560157f22f02aa041602d6239b023d52d803be3166028884580357905d01a1feea002603ce000fc4fb0010783403b17c25009ac21700dcabee01b09a4a03e6d3a20393824c0237c07d02f09b6e0007c32202d21d9a01a3afeb004b74e3000c163c03aaefb5034a5fd602bcefda00463cfa0148d1a3,
  0x3cfb2400ea59e3039ad789033982660085537e0118da7f012d64ee024f380a00c76b24013e0f08000c53ca02a6733e033d70dc0180705c00bec2c303c8f4af03b2ef9d038062bb02460b76026e3108001e5a7503b5d2f00048086a036c6ff701fffa2400cbf1fd034b69910161964e03448c1f032caa63,
  0x19e3ad010d817a01b60a1202b90cc80363cc5e022eb11d02bab40f0116442303db306d007bcfdc000e316b00a8d1e30078e1640004cedb025baf6000ffff89014bdc2f03509a530026b24303d609c20022a52f037e6f1f00ca11480326c226006af8f500865ffe03bc95e603cf4640002d38d002a3a01c,
  0x1cc4e00f7590e03afec520067032303e9a6ae01aff3b503da94f300b569c503f3c236027d932c00082ec4017582f0028428ba00fc035003d5a0d0007bf37702448f2d0255ee3601ce458b01dbfb96002ad12b0177ee10017172c301cd261d0225638f0104dae002f3a58101c53c5302371deb0112dd54,
  0x3aab5d039a94cb01cf4c9400d9fb5c0048a984039d70ea01a00e5c010cc43f03fdb93701adbf57002f80260260772f0170c41200f3528c03686b630233cecb028e793300cfa83a00bdf2b401544d02003e98db011a504503f2782a036be51100516a800194612600a82ae803de8023003de50a03dd343c,
  0x1bd680013a9e230381b2fd02d9423d00f8343a010f4d080205415800d5f3730196afa200d8f7b800343e9101f6937f01ce776f00dcfe310211e53c02431400008a4ed803c1ed3400bd7c3d031572840015b5f202f5f47300b735f903e50165036b12f1020a92ff0015cca100bee43801297dd3023bfa5b,
  0x3962af03c5f3a102427a8f01d8a2f103020c9001a50cf802097b540099d3f60154fda10284c18e0028a9bf03fae448029fcc4602f0e8d5010d8c4d03e2805401f60d6f01a4c9cb0204330503c1a6c00010e1dd0394cec100aa8b6f0147b29d033c274f01fa743300f6a0f301e6301801e8815b00c94714,
  0x50c020305c938019b95be003ed3770281c44a0010735f02252d4a03ea7fd10174838701d9d03a0037048c02d43463026583080082e9260174db9b028191310015fa6803a741b303ffade303d3245f0006414802e55c0902ea6486023fd36602db9d3800e781be01d6701401fa1e24004dde7002e7b8e4,
  0x2a6ae4018af7ae00cc3dd203eb063b023f6ee303769d9a0268999b006ea4e903e0297d0225b06d0023abc1004f2ecf01c051e600029afe0052bbf2022ec81003a5ee3600b0193a01ff4ec002582db60004411301826db500e4f588032c9a510136364502bff0f200c1cb97028661d2039b5b9502137ca4,
  0x10db47027521240139b9dd00e7a84a01cb8fc102938823014e483500d36241006b9c95016acfa1003546890058bb4600e09345003acae903e87d18014531770346ed6603f98f99002a77e202d21c67000b9135031c123c022d2ee602638ffe01320f060267c52f01ab5d6600ca513b02ddeaa103a075e1,
  0x25d696003a88540214a55e0234818100dd5305017ca9f100d9b11b0359bc2703fe8d3601c5a50600050ca5020edf76034ce708011bd56200fc4d3302e7223303958aa600c29ae200fb587b00320a5d000e98ac0006157a02b650c9024a1e9d002f5187022fd80c02d7cb34025b150801e0e8b90063ea2a,
  0x303b9f00e5170001f1c53c0109df080023eeff03f0851403bba929014afe690077fb150068c7ec003acbb0020a135d00c8369e00a4e5b302500e08028d9089014666d1032ccb7d02e693860269d28a003e60cd00bfb5430087d2c000cf48400047a3320190308302c42ea002e84faf01053f29038e4b6c,
  0x304a2e03ce6d440164b8fc03f8100a0107fe84012d8900005053e602327f4d03b1446203af66d600226c1b0269d566028ee6bd03eec6920143140f00d8b551004e164900e8cb650045c7490166177e001fa020002e0f5700adfcf20238062e01ce84ec03d5b74e03b309a700459f8800de838402ff8be9,
  0xe7c4901ecb2f10219d80c030cf32300d1e6e400d04fdb037e603402f6e42101374b09035fc580002b03e502eea1af014fcefe03156dec01b67c9d022536d30369f99401b51edd00b0d53b02bf26f9003160b5025a62b700dd66b900786b8703590465000129a102b59c3a02fd6df00068471c01fe55b6,
  0x30e740026b896e03adbb6803652ce200f7229c02106548021a6bea036b4aeb0328558d025c8af1001b586a005be03f00ed0ed30187e392011822f8039378b50268d1b602582dec0266d97b002f2f10002caefb02f8c62101ed731c00c9e1f6013296eb001ab2af02cbf68d030eebdc0251f314002e2c14,
  0x2d59d600ac533e0281b5ab0149c641037ddd3a02d1b5fa031bd2f2024df552029ab4bf00544ebc0011c73d002d813a01ceffeb0190fb3f02c0e4b103c15c3400dbd594015c07cc03aeb6fb0059506a000019000033247803a833ad01169d83038fb7a3004270fa010944e800ff4cfe01c0cf6e00aa7f63,
  0x11303100faeac40155d8ca014d350d025c651d0300c6480229281f0061953c03a7b9be0076fccf0007623d0061d4d80225daef00d688eb0000a5eb01ab45ef01d5d31b004691f801558f4203b1f27f002c37f0000cf5f300a87e4501d038220290147403f7ca7800d2f3a20239ac9f01e3b87c036f0b51,
  0x2de4cf02e5175a03ce97080329378f00eaeb1b0050e9f902d8da15004cbf0a02315972029eff420037364b01ed6dfc012a6b96032b8ba501105a92029cfd7a03ca58e0027bb4cb02eec8780248698700092d2a00bbaf470117cad501836546008c2f5c0008a746025d71d602eaaca801cbb39103ca5086,
  0x8b1fb031bfee201418bf402beb70901334463030b953602947feb03ae255b0140bfc9013121d5003efdcf017c77da0136db800195df1401e38427006f839401cf977a00a619a200dc59610296fc840006688a0345343000687cf000df94b2033805e0011a05fa0090ab4203a105af019cab0602d8260a,
  0x28cfce02a02512011895810345376503e39feb03777317020a114e0089985200e14d9600ec07a6000d830d03b933af02efefba005fd30201ffd39b030cf71603b6a896017b6b6701b10836004df97e0027563e01878123007d33590313bdc000be30a3024c3744030ec064022febbc026470b1029ee4b5,
  0x290eee009b9fc1030ad4d20101e4590098be6a02a9152b029ac41103e9f58c00dd905101b7252b0020ad9203e7ee5803f7cb220154cfb7023b4b85018bb7b403aa748f03fc48ec0084929a0115389700051a030130145f039cb0410093c89d00a67fe003b09023038060f60230992f0314d8d203d79fc1,
  0x30fe8200d203c300667e4b03fad73502ca31a40352771d03e8200101b6c3c6016116ab03bfe879003c04d4038a3a9c02d38fa400cfd555004a8e6e0231ba43032ec77401a5873b01088084011ab2ef0029c8e402a681e8029e85f30124ce1d022980ec004f3dca0036ac90001a80860058a32e026aea93,
  0x2a4dff014d3ae803053ba401b4c25a01d9d39b0272882100a01a6c01da725c000d298c01c75650002ec446022d0c4c03a50b700073ba2e013f3292007ba0390218670403f1554b0295ba9101335fac0005a4f50178791d0102b97f01e110d201e94e2f011746f700c2037d03fb7e18009ddadf012d1002,
  0x140ed20111de2e02c06e1f014f7e6f0138f77400ddad6902b0de87015e228e01819654013f18cb0028b1ad0248fd6f01df30fd015a588801b3c58302c7c59b01c5b2050092543102ed53190050c39c0020caf302e7c7ed03924c0303cb448c0067d28d03e307e803b3d9c8024c704203848f0e0152dfe0,
  0xcbdb9024ac072006884240020c34701c4919d0236aa2e006f23990161c34302a1ecd5004deaf900360a1901ea061601fd898c03d5bf0d01820d8b00c4622c0276091a0086201700e18433039cc4bc002be92002f2953c00ba1f7c03bfa82401783215012ae4f001ca7464022273f10269c3d503d01cbf,
  0x27fb9601ba8c2702a1a15202e8d1270065b16a02f5dc180208028302dad47c03538f6803228cdc000c50d60140d6a600ee4ca6017357740124998803bf82c60248c1990010d81a01edddad0297b0470011b97f03198d850222038100b576d500b1302502d30e3602f6313503f1e06c03bf06b501d3221d,
  0x12e2e2036e8db1013569b7033d3e36027bed1d02b5bb2702a8ef2100f87fde02c2bdf70184d5330021e444027dc324025310d4009a50ab03d8139c020c31b1036680a801c56a6303a6929a031304ee00102d7d0201be270338504b00c8966d01171293012ebd7103f7eb590252f9530065e9ff01d96384,
  0x265801035b4b0401360674024700ca01f73c0f008c7a9b0072516e0397f53401566bc002efa4ba000c6c2100733569002a894001a63a5203b4eff003da9143015642a000180cd6026b759c032c9442000fb0ad019af75e02affb390272ee3e01f314b900351a3f014c3c0f01b58873018a471c036f4b65,
  0x1cd68f003799ee00a22ca10224d267014aceff01e580750124607403024e0b00ec9974037982730003afde0373d2c20355b364003a7d5501cd8cd60009f90700af872900d29edc03b4b90c02734a8a000695cb03ca18a002d5a34f005aefb200693c280325e1c400436541037afc4f0221424e025f2bb6,
  0x33c46b03c7583803e21e0102601f5a03acb86e008417ea031be00d0061af3401b6376e03cb40d9002249f7020d1477011fa7bb02513ccc038cd9e7005ac7ae03459a0b0005ff950244793b013d16dd0028fec5008640de008eb08a0302d270037fa77b0174880c02f753fc028c95a90071239f02d33dab,
  0x8605601e1fed703573542015be97d0332cfeb01f7a5410205733702afb4da011b22c500fcbf96003ea4bb008f6bd70318c0f801b5a43500dcef6d021b914900cf546703f90d23006320f90230bd2100267b290095ca6c0133328e01e07d4a02c6a61f014235f803f92bdf007d3aa201ac9c4b00cfe4ff,
  0x1800d0016b304f00bf242502cdc9180305965202f7e4b8026b372801315b7c0346077901ed291400301b5301ff755801cba31802d0dec9025fec36019c4ce4033e9ad101007b5201f46cb40113a11e000ee61803e4ad9300ff8b9a036e75580107aa9d0341ee930207fbab021cea5f01d7e11401a2b359,
  0x371b9703c4d3ea00fe900f01da35ac006fd9f600e2988e0001826801d2972201a2b472028dfb190031b5c703f40b18005723620101c31a00dbfa29001f02ed0086f815029b245e01b143c503950544003281af0026771e007d7bcf03f84a7d01ebadaa00fe9fe5001f096d037ed1880116a51501c8f0c3,
  0x264eaf02573ba202be1e7b03c65eeb0346ca62029ae187009a2680006ea4900101832f03815e4700066b1800aafc42028cb3be02ee854c00ef938c02832f46004dbbf501e2eb1803df24df00ee10740024979f011cb546034f864500cf03c602229b8601b2ae8301c91519014fe3d30067799601969003,
  0x3d43d20150ea5100a3d73c006fed2903f3aaa7033a45e0039117d202f33f4d034b8dcf03507f0d001ff0a2008699400143ccbc01fc4c6b03bb201100bb183103d5376700697a90013671f801f1031a0007dbf403464b6e022fd2b80082ea0f0020d59b007c495e03fb647a024b878103dbaf6703dc6fe5,
  0x2b5d5f00e79d4102b4bc41026c2e8102130ec701fc942702de07f90360d8cc00fac07d03b48bb800245859002040b6006c8486035dd80801d665fd0345007100f2868f0339319f001458e702fc92c500120769031427f901f5419601642c9a02176259037c80380155463202557d49016c145802d43dca,
  0x2ce83e0176dc5b03c00ec3032d7bb7032b991700d63e6b0140957a02f54e8c01c836e8036c1ad80034e00103b4202d029a70db0309ef2703f8c01602794e440010361c03f4cccd01bbd41f01bb2a760031817d0264632203f450e702cb318d03921e3a021151a901770ea60091066a0254afff03fb9916,
  0x1926b002c41c2d03a52fd60243b33801448a3600111607014ea68c0214e479021aba73019f98c90031910101e8432402a219a9011331fc029babee0367d0d30144348201c9514a03f88de7025ba5c2001f54e002722674024595f8035e667002c31ccc025278f601e0ec5502f390f602cf009a009938db,
  0x33e4ae03ecd919003311740250cea300bc1a8800bc4f6802cd7e5402a06ea9003ac79202d43441001d5ccb020dd220007b2f80006d36fc00b7c99f026b1ee0027c568100c1bfd1007e755802fac5300000d05f00e16746006df6b502101ef201521e6c03fa151d025345ad000d4ccc02a0bc6c00d53aa4,
  0x575c301c7ee2a0045be9103e7e068003245f4000174d0029a441d0297bed9037a100001804a05002e40b502c53e680339184000a568e1018c862003fabfdc01891c6402e0acfb03cd364b03bacc290016d5110355a9c803027a41036642c2015b9fb2000c852800adf81201eb12410105953c03dfdd15,
  0x73a5803f697740214b54101faf38d01ccef910133ca83036d7cfd02ff9b1800e17cb200ae954b002c32e0009ea7560146d4ac0113a6ee01d9e31201f250300032048f02b5f7c200f03963032368ac003522a502f0a3d600dd0a74025b48bf011ea0d5023304b401d7809b01d5ae200297e50101664c2f,
  0x11e65003244e3701b2cc9b027e3c2502d6e04e02e1fe4b00005987027abfde00402c19020df6d500307f3401c462d8028cfc3501d79e230246270702672f9103fea18f0146c094033254a70182f70c0018b2d2023ef000024282d800f92f3b02162b5100f2a87e02be8b3d03074de301785b48011686ea,
  0x3b76210164839e02a9f87301c6ba1f01910c8f03c2e43b021d069d018e78ab039cb8d601fd4ec4000044dc01753af403d38ca603f15108028a4ae60199893f034383ab03b9c05a01bb497a03b843b8000dd5b101ad408c0039b9a3020f603801b14add03c0012800f712ed00454451007f0c3a00557b04,
  0x11653c01c8030700de4be403bbb7e003e510170211651e02657580037047060015ea6a036c8c8c0002ba4000748b9601c811f20013cec200f6453601413373010c7bc301ec44f103aead0b031b6862002fcd3a037f9ba301c55b0403e61bce03216aca02169ed300a8ff860060856b01291835011667e8,
  0x26371b0183aacc03eba83d013d58c803944dea03ffe856031c941b025e556e009e85440222752a0005549603c7c9b8036145d3019a5c5f019c5d3a0183225200a47e4a02bde35803439fab0165494f001fc45f03b900e703d40c7900e9314500bd9fa500eb5a600313f31601f8fceb03028092003ba7a3,
  0x15d65502c747fb0330c9a101064be803b5ea66028041bb01de303d02c7f44f00e4fcfb03fb3e09001e7a9802efe2cd009bf42a00776b19028b039e03723ff4028a810b039edd8001003ef903a2209600252c6602075064008cfdaa01ef0c5b0019ea8201dd5ae702102d6a03e03838005db2cc022210dc,
  0x2a7bba03cfa6e70058e0d8022e512600d9063d0046dac000714302035a3609008922e7037947050019c4850116aa3601e74b6a034e0bdb012627e10262526e03f1e0b101130f6202e639a300d4de790008795f01bc29e3015b182503d87e7903b414950360256d0151ab6e031a4f190289bb6a01f6619e,
  0x265ca10005f72e014668200395cc7901defa4c014051370015e9b803f59e340143966f01ec9bfc002f486101017ee9020a031201d5c1eb0125edfc0291aa900311681802b62c180186a61201e0a00a0027c02500596be3039d63d0038c061900ebaf4001673be802df2f170160cb1b03a9b9ac01b20d54,
  0x1659ed006c3c6b015161d70362387601d20ec0028334550310ea7100420e05017d764800c46eae0016b58000a5aa08022f45ee0265a2bf000935390283989f01f3ab0502915fb2007a0ae900ebc8b3000759c100a32b0b01d6172001e788e702a4607603c5043101d736900288bca103292c4a039632c4,
  0x2c50d8005d75b30267d6a402ec0a0a0011bef701775ece03a6c12602d8137101a3802e007a07540030022001ae84b4025e97e2037efc51019288c80300a199001b38110371982b03715dbb00e66402000d4c9600b4408a0237339b0180702303ab56c603e92d2802f9ec9b01d7858a029559ed0198bfe9,
  0x250873011c70fe015316e603f198fc030393ce023c2ac7025d4a1003bee8ef036b1db90300d90d002c921c033303fb0190a61e03fc8c6e0100abe20148feb802ee95830368e6cb004a38a20098d2ca0004a0fd02dc301b02eae94b0127833a03051137016aa1bf035f403c01e258c3011719df02208cf9,
  0x268eae0106b760002c600f02cc7880039b7dbc01946d2701fc7bf1026f6f54038a758203a67a050011090e00b1f4ef01d62bbd0080ad72017814170172036703480e12030756cb0390efc800ed23e7002e9f6f0172dccc03b8e11901e24b1802ce8baf03e1a1c50083ebe202a3c91003846c3e01c1df80,
  0x18ec3d03a42d9e026e94ee00fd392b0307ebf102d93ab703f65a0e00f724bc005a47b6001c8c970020bfe103d25a7c0104b962037aa29000f540f402e7ca3402bd7d7202a9b1a3020487c9010d81f6003a549302eb122b02d072fd029d8b0402b11714038d9e5a03a60e2a0098f7fe02dc626100551229,
  0x3c5d9203ce77550162e8e301d83c5a007a650501ca14d402174f370087f96202b93b20038897750021aa3f012c9e110084ec9803ae05e60210ff1f00b3d2a10026f6b40125251601f5a00603d505630027306d03f8c13b02322ce00316bf4300102b7f02e008b5027be63603aec80a000c4734026dc758,
  0x7f6bb034b206603f27a9c024c6cfb036435d2026ea0750241fa6b037987c203d12fc901e9b92900041c9702a74b570210900302c2090d0278fde402094b450005fd9c039c564e02af74ed0208633000110f1b01d3eadc011de679022feaba02f4013302b7415301f56e0500a639af01a3a80d00a23832,
  0x3965820388f04802abe10800542d4b02826f30022733720252381300eedf62024fb48a02d0df5a000a475a01f4a33103afd7ab01746e3d025e2e0a00a6165d03c39c0f0111e58501ef899c036ca6dc00066ed1031071e603781aa5038ae46b022d3b7c02349bf70217655c0272c67f02a1dc70037a9152,
  0x1df0dc00858ae7003cd02f03a881e502fc9bd700cf573903aef012031f8f3703bdbf580359a4c8001b7c860180bb5903cc32b100e74499003d2e0700bcccf70074dc00023c8c8100b7df23017209f900131740011ac5d6018e5219030946de028dbdc20015ac19027e5363023739df03851853030ac601,
  0x1542a021083a10017306301f2650c00a86d7f0197db46038425da018563cb00e2af270191252b003179c70337f82a01ddc758030d47b30069d25902f2089c0350eee100f9ff28031779a800bea96200075f77014f9a05032e12560146dcc101e6c4790162297702a447b90223650003028263017e9441,
  0x3724d3032d7431010e29e801b6d72b00b4a1a7016c947a03f1b2180125da3b00d697230372e459000f81e200e7e2ac0241edd8033194cb009730f7012dc33e035d3369038e824d03c2a3110314e98b000ba16d028d77fc0021f22e01ef4a5d031939c101359c68020138e400a6879102a2cc29036dfc4b,
  0x30e81100a61f3203f03c6503c1b68c026c02c8039e41b0038b988b03579e58026f8efa02e32164000bf8e60279f75102cf39c801685573025a920a00325d07039d3f0903202751008d966e038d310a0008bf7702808ee300d3c17d021d7ab802dc056d00c442ff00692d4e0175abc200143ea0037f7173,
  0x27501e013c99fe016e69ac01d7d0550141b0b903eb1dbc01020bd2004528da030e3ad0034be83f0036736e02ff1e9d010e353700b2e7900390f0eb01355b8500d1831a02878664028299010055bb4f001234df02a9a2cd023b307401471ed902558ca802c609b4022a6d0e0327394e02e5960c0227895e,
  0x2c5a8b0195f42001bb8e9c03d98cb40294a49700e8bb4b006ab04601fab79a02e86f8701bd5f690025dc5c00ec653f01b8c3f700481a3d035bf47302cdd5ff02823d2f028597a703cc261301dfe82e0027ce75026ab28102d2ff2f00f6e738030132ed004270a1005d3f8d0380da9b0059ae610272e581,
  0x5c6df00813d6c01246f08023d38b701c6a9a700ce3a08002a141400a2174401e7962f01fdc8d0003e0d430158097502f73e0102dff083035c0f0d028fc01f0367971800cef14102a7c9470032c0c60033d4e50346974e000884c303a2bf1b023b52870087b17d0157ec5102543b5f03068b7102204a10,
  0x282305003b28d50274a7be02eaaa1302131d9c033559320103e51b03afc98700a1a8a103ea1079001fd8c003277b6301df0c12037e164502aebffc03c88899009ecbbd03effff50339bdb903941f6d0027d46901f3283d002f4c1f01674e30021ffef1003b303602f287be037218f7035788a601f5be4c,
  0x15c4f703dd2eea00f2a1ce01d37af003ba9143012adb7f034e722c01e55fad01e24b27001a85b2001b76610054853701b731ee00f40914001d6d460196dfa8034e68830132dbef027963af00b0fad00039a8bb031bb8f60132d84e0000348a0099eb0302c07c9f019c9a2c02e9715702978f3c003d594a,
  0x14b7ac00ad27b903ef3a6c005c707702a9e3b301915b8303257a76027f05a10115543d015597fb000263f302eb3c0403f8fc1f03660967034901e6014f167b00b81046039ee7230373bad903a8a555002b9710009274d303b7c40b03131dfc00a05191012c86d0033d8c40039c8f7e00bfd8cd00fd5c27,
  0x260b5b0150a204014524af02eb148b03f7fa690040d46700021b5102c8139d0162fd35020156f8002a9de00183db8c0073dfaf0063216c03d142aa024b0373030ba8870265034a0306d498027202420024573a00c4ba6f021311a503df219601bec54c02266ef10014f8ff007392ac00fb17540257d085,
  0x14b2da03e4d681004ceec4000c6efb03079f47031fe3b1020053a702b920dd0043f2fd02611499001ff0b0020891e703f85adf00308ae700320edd03da5b6e036e2d700353033c0165d8a903b420c40014d7c9021c0fef0046d8830262f4f300d5b83e03948fa603e8ef1503fbc3d703d75b1300605027,
  0x3313c300a66ea2028ae10f012c164a0164a6f400bb135f006570b60222c55e018cc5a103311a50003b7dd002ea21dd037a4749006c729400e303e80282a7e30198789d01931b2703fa6ce902b16f910039f46e033285bf03bbe30103de5db2016851ac037d52c302a6a22803e1922501100d0e00b68d85,
  0x54d0c012f99b300aa186e037c312701693c0200b4c3ce03188b7d0136229d012eed9402b72c9300045ad10036c053037bd9aa02e59730028ad1990028bebe01102a17019f56aa026e414000f26ffd00202baf018bb212016108cd0085d596022a7375007b65aa03a2198d01977903017516e301307ed8,
  0x18cb29024b9ab500a73e6100e4b3b9021cf8eb03065dbe0211187f0230e83001e5eb86036a75e90006f07e02a415b60085576a01a565920282c08b021ebe8001b5a57c01c4357403f404660114fc80003e8c3800fbed9101b7430900c00f2902627b55017f1ba3008e254e00dbd76303913ddf00a42ac5,
  0x30c7203bf92220132021701ebe7c8021d0d7001f0eb5002d55ccb0197633d01eeadd403624ff4002966ff014b6c2001ac59e002c1172e008848ef01e02548005a794c02bc173e01c54456009e00fd003e2de602d5ac9f0300b4af001691980096700103520fe6037bb33b014c73e3019e7ce0031d7486,
  0x317c8401cddb3501ad090a037752af01207ab30008cc0e010a2b1102f518820384113000f1d922002dbb2a00e1fa2901333016016c17da00ea4fef03a994c3026283da03ab307702ecb1b8028a676c001dc91d004b5a4b03303b150285da8502fa8a400000a8ac0093a1600279ee910091b6740304eb10,
  0x3a22ac03f3bc4000c006cd03a790cf03c41eef02412ce6026d2f36038f77de0246019c03ed69e7001370bf00eeb24001bd81350267a47e02aa1f08001e95df029d722702ee73ee011ec2b003557f8c0010d64c02178d1703cc7d8e030ac80f02c46dee03b282dc0046a9e300c485c102f77a6b01539a40,
  0x3c8b0396140e039e3481031ce88402d1f0bb024f7b4102349d3803c2579d01566606036334a8000040da036c47480143070601cb209101ac672701ef399102912e1802a9fe9a03251fea03faa1c100312aa202dec4e8007118bf02f26fc101dffc7b036a25170025b4150156c8a203c5b8bc02d46168,
  0x27498e02b92d2101f59837006a59e20282b5070380086601e716b00329467a03cd04f101580c0b000776e600e39cbe029d465b037591cb02ae5186013f3ba202bb698b0182f57d0071fad600c61ea1003207c201a23f84017591c10207550202ab81ba0329d10b00e52df30121c66000f136ff00b365eb,
  0xef8f80240102c03de9f0f028107c2032391b6027af69c0127c9a601568bd603f7caf5026f3db00009097c0244b61b0097b52801b9fdc5003e29820272e34502bed4f60284b61403fc6e4a01c5f0d50038d778028300000000a2d2027dd94e012053bb02c6dbb201b73bce031a839401e38f4e0256054a,
  0x37e4a200092e380205cc44015b0c8e0040c8990354f3d401c72620014e5619007ccec002c243c0003b31f603a2320c0363450602dbfc3b012188e701acf4c300aca63503452a40019ff145035e0c1a002c318801b6e3ca005178c201cf31c80263631a00f6da63009d71c100c36f240378f20603142a3f,
  0x27035c00f4b662034202b50367c2dd02bad2b70301022502a0d85901a9697a00451ec601786ba3003783920046b7b0004089a803f80361033d49c803da6b2500cf2531023ce057026436470208eed50022a4e102c4cb4902861931036d13d5002f996b0368a0a600b221300143ee790108e50a00f93a7b,
  0x6dd4900f890d200f03d3201be4e92018d8aaf00bf431e0308fd2b03575d34008619aa019b252100277e330011267c0372329c01f7abfa01d35adb00ffb65501bf949d00a29f5103cf4606027b4ae2000b526901540647034b9d220208e225015cd7d4025ebbbc02e35a5c03494b7d02bb8dea002034f9,
  0x3e2afb0041c9a900b4882f03ec5e2500dc45d0012f826500b9f6c802552e5f00b344da00f412070022ee700130221a021e37000297e6a5004e582f010d46b902ce6ec602a858f20175d00000fe06df0029c2620366d2ff01c8a7ee0242336d035bf832012073ac029cd04802e2d8e60235b65303d8d129,
  0xf64000318d028032c87e80093a3370334c6de019d649100c6b8d4006d352d0247553a02d4a3c80013caa102f9ca94007fc877035dd2a802ec5ebb01aa108003499f19030aab4100771346036fba7d001bda950222249503876c5b0103e41c0273e493000daacc023811c80321092703b0764b01fa75d3,
  0x3662780088a13f01bb0d7d03b8554c03fa64710058e6e200369c1b00b1116303aac60800c15d9200190a5901dd044200c217b401b678e5017e80510266c13b00f0d0c8011923a0001de05d035bc0c700367d5600a6af1b03a00dd5022c094403ecaa7d02db87b401e26bad01e96cd902729718026659e3,
  0x1dd4c00334e7e900089abe02232f88031eae5e0064aaa60104031000c7a68701cee84701a856900017987d03e7f173020a1e48034fa31201b98b720135ca070072199301e632d4001c7116012674a500323a11017bf6f402c503af028f34a00288d56e004b307301d7c71c0195a996017e0b40007b20e3,
  0xcbd7e0018626803c4062a02cee11f0161c0a900c73e8a03015e8203fd21ac000175cf0295a25e001cff8a03be05cd005ad1fd03acecb4008a1d6903f867a303bf499b02d615720090dd410055bb500013b43a032378f003b882420231928e0086578a03fe38dd004646e901d70778008a83a700139a73,
  0x80524028a5fae0372c76e0004346000a7a89400efcb2c03cc4c66031470a801e7edad001f860300345706001824200350ac6c008ba2c40308a3c001f381da00cb05310330b420014d870b02e6ee800006960900de107c0132042d0152fc8201d05faa038d78540349e043019cf0af007e851a0162e155,
  0x16dabb02bdf2e902d55180036ff4b800eadd0401740c2e0185a58401be17b603be9ac2013df19a00110245019e03a001b2c79803be81ae01fa0f9e012c0fc303ac22ae0009b56601bdec0102c8e4960035f4a003660069022c4de502c661e202949d9600e3ee9302a8079103c774e80149d2d803646ce7,
  0x2a490801b3c705036a316000b8e87a007e4a6a031a1b590255284a0178e8890374d55b0377f00e0005030400cc109800c1846e001a7c7f0275028d033b71e402dfea1c03c0d3a802c1a874010d8bbf002de3f70023a88503e4622b031481f201c6c3030036b57a024a6fa30369179502bfd1ab01fb7f59,
  0x3df42d004fefff02413843002211ca036698830354ef2d03e76529020cc1c8029ce05602ecb8ed003bf03803ab459401db578901dac46300fb5c2a020a497200ad50bd0168afe7029986f4030450e000038f5a02897e75002b635c03db706401d7e3cd0285eeb400fa85f7016d6bc0026826e803d79b01,
  0x21758201c9c23d02784427005e206602fe499d023059290260837b01e8e3aa00d5234903e29548002e561c0124992f019ee1df0028c657034ef3bf0296722301b3c5df0060c3f90238569b0273af05003edc130027b66b0197023001d3c95602075ceb00154b1a0203432f0087b5a600de94ab0142422e,
  0xed25601ac6b890100438b00aac51801ea5bc00300a63902c223fb0242f4840152ee020024d1220035954e02b3df89014eec3501e9463c01197cae02dd996a029500d00362896b03238d6902b0745a002a5d9301ac702f0107ef8002d1dbfc001eabaf02bd686d03692fd7030a390a023df2f5025bcc88,
  0x3f2b430068a3f3003fef9d023f6c02015705df00fb55820157ed25027bbea7006e95b403d98067002e59e300c90fc203fcb189029153ef0290bfcc01bbb97c032e796f02a34cbb02107f5e0263686c002aa4e103c9e030016e4d3d011436ec03e072240145b50300e33bc7001f5de302da8137000f0f4e,
  0x330a390199163e01527f3900ffecb7030177f10147b1f9004ae9ae007e295400a5598a000d2897001c02d4026166e4036cbe34004feda800e3b9bf009c8984013b4b4d03c8ff870257e5fc0136a3d30020f2b401905e2303a544e8036bb73c0193f83002c800b90297d13602d11f9a017c7dc702d0a893,
  0x455e401803edc03ad0982018b038c003886b5010815cb002d29fc03ad737101ee3b2100728ff9001d36cc0125e9e101b8847700b24f96002a52eb010fb3bc00f027e50132783b01d0b66a02e5a0010027fa6d003dbcc300a0b7190056ed0b009c8ec9032b2af70032140f00397a6900979f6902058ab2,
  0x48b3700805e5a00881b41012a9c7500bb82600084326200e0f5b003d4bef0036cde9a03487144002d12d702846f6302332b2d01ec115d0164b66503deb01603974315037b3817031c267e00708c1c002d45d902e525c300ae61d5015aa8a9029eb01a012120aa01cab522011a7f2103c593fe036e7582,
  0x1d500f018df22100c84500026a508a0365403900f7688a0051339e0279564b0394074c0386b40a000251f0015854c0010eb8380246654300f68fba0237068003362423036c2cd503ef1ed902241d63002f0f4601d796720036061201716bbf030e447700710a9e03fa4db8031bce03005a6c8c025bf264,
  0x3c37d4010cd1400337e03101032f0200c04cb103f540a1000415d002b5238500f74ac4024080fd000caf7c028c730c00a27293019dc3fc01503db2032d619703d7214000365130020dbbb902486fb6001a323f02113fd6006fc551022c967102c52c8f02f8e2d502ee35e203d33a4501497a26019d145b,
  0x10c43a0049ddd30078807f0065560a006cba5b00e540430031e5e2015e8bf4008371de0131ce5a001d9b39014fc9250084fccb0380ae6b006a50a100cb6d9d023a1e6e03c7b53003eea325036afd79002e8cdc00ab7c0202c6e01e022ed4bb0272fb1d0349e9190086a70b01641dd103d977e403941099,
  0x17ed620138dcba0157a4590256a0400197cbdb02c7147702d09c0100c252e2037ac1250246651f0015ca24028ecfe8015da8bf018e64c503077f3402d15d4302122d00008f355201e2010503c1a3e80023615600a852cf032759d103df59e9008b116e002945fa037f07ae002d9a1003dc645203440bc9,
  0x3c3ad00255aeb5008c4ef90392af3a025515bf017c594c00752b700146f2e903fc39fd001513b4001d1872033c40d40015105402fba1ed0228e0500238715c02b5a54f03b6076f01b7726e0294ca99001363a10167e53e03b2d49201d854e001187ac7005c9a91000f83ba02357efb02aee9dc035e4bde,
  0x2550e2025143f900e5d64501e0b97403908bff011952f201e9b26301f4d3cb01c2ce2403f361ef000e28e501a9f7a4034c17f100f4c05102943a260004c58d026e8ff202491ec902e68336038c4d27002ab12e00ca2d3e02245885011f2963026b7f460223c3b0024cec660177be3802df0ef000c7502f,
  0x1356d0028c843a038ae977014b6f29019e7a4b0368fc810375f03800142a01010d107e006a9c1b0018c53c00ed48230212a7d200d82604022c515203ab4dfc01bb44ec0244faf102d6447f0201d5b30022b02203f7ec4e007f1c2701b0581c034bca4e0286a1c900d64088022eeb910006a8e30263da2a,
  0x234eb6017dd7c2034c82320287ac4b019852d50220c4be02b5219803354d74023c1b4b03cedc73000743c100f23abb026e4a9b016a7bc0034fef9301dc1c0f0381e86203555e9b025580c301d88eef0025d39a029567c60203307a0320f62a02a83af50085294600c786a7032ce96d0018ac1c02314188,
  0xdb57100609681026780f1037fef6c032771fd0204b2ca017406af00e8884700e035c103d471810010a96d0105fa12008d7bc000b0be9d00b2d51203f4fc42038a417503f4b9760210d012020a5def003e38a203964e5a02ef9d3d01f68ece00054f1a004bb1e203e6250e02c3b1fd022a2a4e02f5bfad,
  0xb69a1013d1736008de8ac02122fdd031f188e0184402c037aed13013a7235021ca7b80013134f00148bef026efcda013ae2020200edc401d0e17003e3ea2202b1993e00a965a600fce6ce00fb4577002b7f2f028e134a03163a8202e8acb6024bc92b03070e790326cec102e5c98f007fe13d021bf314,
  0x23c1e000b4298000934de10148de2000f16bb102d3e6d0017e677e017c583b03f1b5f403c0943500013a9b00e931b003b48e7303dff5c10331cf59006d924903ba8e9a01b5d4d5010e24520094e3dd001ff6e90042edce038640fd02866265029306fb0221b030007f7af902a21b6a02c642a20239e7ad,
  0x3da3201db228a02f37fb10061f9b1019fa502036e01e900d2b54e03e4025d02d969db01c09ff30027f293020ab48c021999840378926d02d019600325d93602c0038f00e23a4e016b74c6002331fa001b93d402b7a7e9036c34620123f00c00dec920021646be03bc94bc01f20a1d01e442d302595f4a,
  0x2d0c8f00b77a6b03ab491303ca5d90037b337802b1af8d032f6ae5033fb1540268a2db00515f31002b795f03e6db870015652b014a5f6a0018290e03bd56af01fd69c6013ea9c103f5905d034744100013db17018ba0f802ca46e0032eedbc023774bb03a95df402de55b700adeba802051ddd0045ca37,
  0x3b8e9603e5d259001b2da0007a4b0f0181d86b00751e2f005efd74030dc38802fb3c46013a5646001ecf5301abd900036eb9a8025f3bf90333ae4c03fbe6f502d4d78701d94f6f020f5b4503ed4c6d0033b6be02d1056502f70b1a0282662201a1a740037f050d03febf5202636a58006f207602f01e7d,
  0x160cf9011938fb0067fcc6025f089701a0429002a96bdd0014b4a502e56d1200c59d7b02b0d0d700190c4f00ab0201017ba5f5009f625a008d7b7b0163f4220164ca5102d0a3d202c88ea4026243c100187e50034202d803c711e903ebe7d30148083d0397501401e9efa60008625901e7e8410095804b,
  0x36523f01c2f3cb006fde0f00a6d4db0013a2210358964000dc0d3f024a997103901704031e1eb90039669c03cbdbe9022ad70900fa6f28035a398202f47a26031e25b3019292220266968a037c643f000d21d0001e4a5c0184956801c9c4a300e15cfc003d344901fcf4a303b2206701c95d2f02ed0041,
  0x3ec692020f21f6007725c30152e87d00cf4e9b030b4f2902a5f2e301bcb17d034242a9033abe8b003f108c028c230300bfd55e02de86e10157758a02c99d7501c7391f01f1929c02236c81000512fa001e15b801fc475f03a9fae6013d6aeb03f5e36200767fab01c0002d004bc3b202b0c59403a933d1,
  0x29122c03530a2402a291ec00d81d580354ae6c01cd05710324edd302f0b5e501f28f55029ddbd60004151f01fabc9d02cc88bf0279d677023e70a500a580da0246448a0016126502d1e52103d75cb9000cffb002176ba5034868fd006fa1690218234902daae8503ed9953037e7b22034e64b3011bb9b7,
  0x3602eb02b6087e01f2a5ba02e4eee9025c56d702956f1903355f3e01448a8303badad902320729003dfcde032b3e14028b4f26016a8af6004e3c3603654b0601d137400392485f012ed10d01ac9901003776e20062673000967964019c572b00db07fe00d8e6ea03ff19470313a764015a8b9b02ee20d3,
  0x65e400035416c01a825d7009f54bd026bc06f0240a61f033df0fb01b2531c0208ae0f017314bb0039e03603e9da6f03d8dfb6001fd90d035e0fa1023a2c670309b2e5023919800249e978013707380039e19f03854d1e032fbcf50359db8c022195f402d6b4a8003fc01500268b4103d032380292cfb5,
  0x3a33c500e464b0009985f503bd397602477c390312d41d03f96a72038fe3070369152203538564001a2b90029a6a00028b2e3f000db23e033bb67b019d2895015607a602b81c5a005aca820206e312000a1c85022c87a60362820d010d45ab031a9b45008e9fc40393abd70321e777008c8fe70369a188,
  0x2d961501fb6d1002f79ba6031d9fe701f1e9130178c0b502183efb03990f3102287701026252e6001fea3802ef0b9602ea0d4e00a61fd900d02aff03668914004985c700c8c6cc02eced8201391ba8002678e803bdb961006f5ec0023a85ff00c5b343028cd2ff00b6530a01b97528034629b70223e8a9,
  0x1e755900bb26a102ecc0a103decba7033ff23303f742d8013f028a004eb31e000255390076f27b00045f690356681501a46de700740aa10256581000d905f003ac2c3e02bf964900bd7fdf0366a4bf003949b402ac30c700a33f56006033a3031dc958013b8999031f08a6006ae81c03c4ba2a0057fc10,
  0x1a8488012029d20378cf370039d3940353b3320280ca5b00e59906039fb2b6009e4733015a09d50021ecd20072006a01a10d7e012bd62d001c185d024eefa3023c26e9033c6595034e36bb00c0de63000edce702e5e0bf03e2457600746baf009721900263359e03bd5711021600470316f93901537562,
  0xdf64003fd227401fc6eb5026db25c00a99fe1017156e201dacc2800082fea0114f4a700febf460014451d028f5eda005a04460085e51a0377a6e50163bb92013eb5d9028027c0019a6cf7008d17ca002e8dc200a3062902ea6395008ce2c8020d5b54016260f402cc1e93014c198e02878a910090c228,
  0x214ea30181cff600d3253a023bde540065bc5b007037bc03e0e958028f320801c7d1a9035aa4a50001949001ab6a9f004f28ec01bcc6270206ede9001f782500669bae03c240ad03e06ca4025243790010d22501e0785d01c642bf014f3aaf00038b0500500cd7006f94aa03b5e9c00226c5eb00742be6,
  0x34c51301e6e43402b615cb0199ead0003087b400865e5b019c145a034678dd00fbd0300151cfee003c29f801ce3f6c03a7fe7800affe08006d884f00e3238700b32ccc007a2a48034f42060373f22c00017c0103aab0df023ae10d037c4b91014c3c5c0168dcb10345deab00856121039ee57a02054cf9,
  0x71d9f02c54dc3016f3e65004ac5200367f6df003683b4001b5c9d037dac4603a72e8e0009518a00237e8d01dad9a7031c62c20076a2d003357c06037a4dbc01e5a37b0364ca4c011e3e3902f901a2001e70f302df362f010bf5310340369e0181a08d0127dede02b8eeee039cb473030b70d703276342,
  0x77b100565b7201116a15029c15e800156891014f122903795daa01b526ba00991fdc018eb506001298d200d98ed700f7dd880080805a0344770e027621c30213973e026aa04b008ddbd703988765000c4503001268510004f3500066fdc700e0d7a401da2dd90227947f02dc9b7601560bb702c5c4a6,
  0x33c57d01de9be60214c85001b67adf0018578f027a9bdd030b4a0b03a0294e00805d140308e9c90028d66600dbe54301c29eef003e9a8803d4ef1c01fba96d02d6f3bc03b4420a036df11100c42da5001291990047e2f101812b6a02cd5a8d031a60ff0381ebd2036be09b01b4990f0182f6b70336232f,
  0x120a380272dcba005b5f22014c57830084c5f20365e7c101072eda02a5f3a001e16d9e03d12f3f002901cf02e0e0ef03d6134a0089392600e987bd01e332f600cf0144015f431e0067700c0281f32f00275adb02c993b8000ae420037d3c7a029b5eb802749402012ad2e4037a961402d2fbdd0237b941,
  0x144abf0055bc1d016b0c7f02763cf103dd4ec40080cdfd00dec351027e4cf90150918e0345cc680022d4960001c70e033b7af301a0fe9a0093c1f3019b5d8603f43dc003a23b4c0231449f001fa2220037601b038ac66c011b5b6a00a824b102beb505004bf633015637360051d6c200a4a7b5025137d9,
  0x28bbb5007ca6bd01fe4d8f01ccd86c00d157240089a18a032b70fa036543e300a2c8b9002f951100306a230020166803802e0200ff340d03c16b30017dfc30014b3cc402b7fe7402f6b1d101fc2f72001dc0c301a1d62001880d5c00d8768003d9373d007b0106013d24b80180096202aa52b203783a4c,
  0xf1ee703325b6001b0b2af023ba9fe0077c43f00ef405f024f0c7301b37a0c003a136f00c3f2090025ab8203218d8401a4c82503b20cee000df69c02225bfe034648b703c73e69027191f302de692e000f3dbc0025899f01a0c72801436276004548d60122b2870130946e0095965c031fa910022cd015,
  0x29e5e702d580c201d6d16500ddb5bc0157d9df01d87c9c02d0151600b7c8ad02ea222e036a74b20020d21002665be200f9180203f82cf40368b76603e5f20e0296be21030fcb26023279030227b4d300066353024844db018ad987025fc2a000443496037a93a8027df27b0297088a036c1c0b0172eb47,
  0x6be130065e5920221222e03941e18035b401b007812fe01ec3c33022d696803ba4d5b0243c836003e0775031a894100bc1b330307a9ee00f51d70030a0167009973c803d3cd89028a38880179990b001821270217d40f01e5b68f0071d994038ee05803c4ad1c01f94df803dbc50c03460a7000a814cd,
  0x12e60003680a1a0103688a030512ca015e007401b135a601e0ec6203691fa003be08f10147ed650003c12c03a55f6500bcf4b300f9d43100a1c7fd002bf80401cb06e000725b5703a3068900131f9e0009af6c02efcb82010e0ad900db2e6101379ce60040f6f9037428d50397bb980284a1c2038e8bd5,
  0x3db7b501d20bf70291cf1a02692d7b00eaa1030283cc3101c793d8021d55fa02dba50701b87d0d00366f7002a13f490338c7f601ea80a40292435e003876d300ef8bc6005bd6d702c87e6003b051880000d0250130ce8e01d199d500bb02c4001e8d89012447c700efdcfb0028a301032515cd02ccabfa,
  0x24c3bf02025ea70177cc330186e53b01b2116901ee7542015c81f0037e3b9a01c1c5d903343d9d003f589500fe10e70152633d030dc1bc03e672c90073dda303f92a36006bf2c30140b28c03fb0cbd001dc56e007087ec03f6b2aa00df8101010f29130112c98402c30529023edc8901b4313201e8fd34,
  0x21366301759037013a662b03df5b870398428401b823370296a001031635460191c43302decbfd001e645e01abac9303c567da023696100116ba6c00d1e14c0353e70802202766027ff40402eab7cd0012e2b700809d3700a84709007e21e100fcf94f0160685100d96709028e8db40349a23502334a9b,
  0x29f8dd03b252fc011a5ae0023349e503fc97ec003834aa00652c210027b15603f19eb7016bba4c002fa25000431108030e27d30266d9440131cfac03b9cc5f00c7bd0c00da324103c3f2c0008c5e3f0022e4330302ee3c02d305aa01b0f78503c05e9002ff8bb402ed3b730055d38e0178dbe801518dfc,
  0x8814a00aa9c2e00830c1b0235515a0077bd3e0292bfa202704a1f00a905f20000ebac002b82cf000b855101704fd30110160d024e7266035fee500128fb58015eae0901b0f03302547d6600ccb50e00220baf0114fc1e0285bc29018d13ce0160458800d479d400a7d0b201b36ed90234f97801f85527,
  0x5d3e40233f73f00c2e02f023a31af0247fc120345111001bb8be101c9b771034593a80168add4001e8e2e03bd49db00f894d902031a51012c912b03a69a78023b83410075e51d003cd24e038eb658001dd03a01b7dab3018067c502462f5a02043d4f0260bbdf01062f4c03c32c890189799b01bfeaa8,
  0x174da70156f74501af8cd502ea1a860110ec5201b8b25502827001003bfb130177828d0179e53e000ccf0300bba6090295ba8000cf6cf602d9652001b2875001e3de1002924dab02e098ae00f56c67003bdd57021a685f005bbf8701d4a8cc035fec7f000915e202fed74403dc230701c69dfc034090ea,
  0x37c59f002155fa03e2237100c0b44301b545fd02159a0d0039b11a03606fca03b75609022ba4f300002958012de396015002f600cd737d03469d23028e269503499e2b0251902603cb9e28034f0a24002821df03abe359006ac47c02abcaa700a57b4d039408080105eadd02c61f7703b24be8030f1a2c,
  0x337c9f00dced9503df595d01b01bde0254794402eddd1100be8ca701b2afd600e7991001f318db0011fa6902bdcec20069cc6b023a9cf90193b1be013dfdba028843f00261b5e502e99d810179bb3a002ae9b10347b9d3027cb85601e00f8801bf790102004a1103878d2c01e8d627039320e500dc7767,
  0x3297d6027d346d00e2cd50015997a303ce512b02e4e7dd01deb1a300d700de03161ed401e075740003001703fca5b202fad82301ebe9130134fd8f00f26a9e004a584e0282284e00f04c9e00f9c87e0018dab7032d44a00347d6df028c85b702a08bc1035a686601dc69120388d081019e9ea90100a54c,
  0x194daa025226cd022aba7c03be5513007d58ae028ced1303ca175e02498167004a043f01467fac002f4e7603eda07003bab92400892f9502d7401402603e5901e0f54f004fd381028ad6aa02caab270011646702cb1e2f03e08639008992f30277a33a00b01687038b626501944c1900d51cf302113c9f,
  0x291c900f3234300b03b880131f419011ecdaf01ad8014005549df01ed2b5a00f6dab50037232f003ca10f01cd4a4e00b5310b011439f6007a5dbc00b001d403d12ada006fef6f0233fab9022cc5f800004078029a480c0314038b002da86c029ecf9103440d780076ce7d0269fdd2022e1e4c03d9a327,
  0x1aa98e012adce502f045c20295087a032be99301b1e86402420223015f33ac01966e5e01792e17000537f203d419c40301f6dd0051bf0c00a2ae6900c89189007bde41013e5a660107e1b30073dc3c0031de9702887bb5033d8b7d02fa960503e368ab01bb464f00376fe700cd9ec4004996190227a531,
  0x11bbd031e8052032a677702127bd5018fe399032ccee10077662d02788b0801be9a8e00fcf341001ee3c5029c84ea01b343d7005cce9c033f41f00267a1fb02350b910385372b00ee3f9a03f96ec6000f9ee8038ef4d103650f7e013eedda02fc5bec01503927011af3b703daaafe0210ec01010055d8,
  0x3af722021c822302fc10e5007bd8d802249f3001261b5801114b8703c399cc03a9301101e1cce000160a4001aa75de010f000f01bb34e501c0ebe2038b379100eb016a022a3185011916760350f9d7003ca3f80306a4110217026201f300ef0071c52802d3ba3402bc268100fd2def03b1746c02566ee2,
  0x2eb9ae03275a81030c8881020b157b007cc1780176e6fb01314005012cf6e000aabb7a0234df70002b2b210057269200c116c50286fb7d023e291100c2d5f203e96f910260fce702db08c502fe98290022772d01caf0070178ccb1038adf8700f5f3ac015f9ca202cb79ae038f66bf03eea71002748b03,
  0x308f32030b6350005a0dd80155629003b3e21b01beb0f90257a1c001251def01f14ddb038d4a9a003ee3b700b1e76102f1bb3202e6157602c6269d02c5c1d603893f0d03be1c6201837cdb011f62e5001ecbaa0240ed6b0253c9bd0055f1e0037e2c6201cff769012847a40009874a035192f70043b823,
  0x2dc57d012a3264030b007a035a80790329b2d60387c687025d2d030329f8d8038deabc035cbea6000422fb01cf717d01a57cbf03a1d75c0316cd570077a171003f1a0603acf51a039a7a8503776c650039f51401fa298c039d20a5024c3df002975f1101851f9001eb4bd80006a10302779d3402de71b8,
  0x1912a401caeb3e0006e387002ad7a702fbeffe012240cf03a1774703dc9af0021c241303d78dc70028e2ec0300cfd50234b52f01a7023c0142787801e9fd0c0067a47801f06be901b52ef600d5bcb50006623803243f5802ec3617006325f001244b3300e5bd8d0289dd79019b9f5401a15d5501ea967f,
  0x318a97018c21360209c108030d7d16001f418601ba20b500892d9c00d6064c026512e103a804b1001b623d002af06d020a90c101224438008542cf00a8744301f4f02f00732c1100b704c700d67df8003778be00768b3301551087004dec220356f97b00447e2b0230fa1e028aac7900d312e2027f3db0,
  0x1cf4f901a4eff3034b5b14005e360502576465013e782403ef810302c073ec01a3ccfc03e23a1400152d3e030503db016d422902846f0802f9fdf9005358ac0061d15f01cacebd009e0b8401fc6405000a5aff0019f8e803ab84f500cff10e002527df007ae9e20294e1ca0370eb430148ff5f001d72d4,
  0x94d7c013e4bc00071ea53004b05f80204fe2e038a023301f6f6cc00dd4273031e7098002caa8d0015d7850307a4f7002f2d3b006d3b5700299c970380edee007fb1bb0292018902a6a7ca03f3cac9003b7ff903a2526700282ba603cc517f025d62b800ac120a01956fff03a4e43b02129e880104d85d,
  0x248b6900090e3a028acaa601d8695700993a8d0012969e023f13a2034f7b0101fddec703847024002fb744028f2b740261de1f03d3ab1c015e006401906c0c0104a895026ccc9100a1d73700ef38120021be200285ab4c03005c920022eb6c026db66f0310a9b803b6decf01e86a58009e17c603f74b68,
  0xac16600e9c1a90079324e01317e5503d45d0303795b7103e6e459039ffade009bbcbf026a13b5002c82bf03d2c11b0004cd1803bcfda603fd346f006750ad0043f90c01251548038d31ed0173cc9f0023070f028a3de201ec448203683372031f21570203db8c018dd98200144ae302465e9d00303cfa,
  0x3938b300350e37020ba7d101483b6d001f6aee017a50f6014e3a290313868b03690cdb01e87a30003ed45a01a6ac18023ed75d03e77d7703cf667e02d1a8b802ac3bc5029cba8b0350d0c60390d57e001cde7d030a129101df0be403db84df00db008101425ebc01eb359c0207c17800f08f6800e700da,
  0x272b7c0072858000bc713903d0f24c00448bff01d2130d02782935008ac7db002592a5033fe26d00138da701a7104e016bdceb00179dbc010733ae0115fd260167bb7c01e4942d00b9ed7f00166dc60004d96d013dd69d02ba340f00a15ab802d8ce3802e2ec91032c13310168e6d802acd1900225546f,
  0x1122ff03c10c34018faee0031b18ce024b076a00d41b0501c72580031c7db402c8499f02d3a4470010dcf8016a39be02b1a0e70365aa260187612903c2050202193fe0035f1fe8008c93700042d5ff003ee3bf01ece4b6027bfa1a03bc190e007e7d6500946993013b87860302cabc0019ea2f015abeda,
  0x9049903dd0884036d70ab03b012af01536ef5015d115b011a921d01c09ae002e5132d03242e34001e342902142b8900527c8b0292bcf9026b369502c7998800a1757a0031242c02179044037b96c50000ee6f0075f2df03231bc8032e676a029fcae70076bca002e79e6f028293c80142161e00b04e1b,
  0x2094a0026a2a71002844250358316203d5a2a802759cf201c937a502ea9c8301b7eb25020d0a9d0013f313006b2544037445d5039c009100c3d77d018e3f5003b7c3e9002c2c84014591cf004941c1002a909903e0e3d50380807301c23d440339465101a457f20052c614032b03460115f88100eaf7ea,
  0x35ca900114fa64024ebdd60325b6380225c77c0313651301403c2101bd04ae0003686201cd52d8003377ef024801e6037c9b0c03316b4b010840f2017d88db02cf791d030ad768027109ff03411f60000111fb00b777de021ad5ff01cbc3b000796f3801f6cc1b01e181d40017dbf10241d9df02a58a53,
  0x2692d102277d0b0134646b005263e202388c5403b7378b027c5d9501b21f1c03024d3102a54a70000b1bc6034f6e6802a0571c0354456e032d36ba02f666be013e7da302069ba103db9297037fa33b002a66ef00ce70e701f0be0f026e6fe1008f28f900319e6e015c15db018e290000f7fd9d03bc521f,
  0x15481601b2e85802c4250d01cc9c99020da4cc03237a130320c6f803896ce30167f24b00edd8ac0004a6e700195c9a03c8b4e6026d3e5c02c4b76100aa5af003c76fb0034e4dd200da8b4503e9fcff00216c59029b7d200287379403b748d3015d2a4202d3c6bb02a0845c01567c1f0145abeb010beca2,
  0x2ec707026d32f80138181a00ef1ff0009309260340b44401d5794803728b4b0348dcb301723306003ab981004149920298ee10006855ef03dc070c01b5e08503bb63f00034f6030309fbe7032628a40038dcd20391d7840172dff401983990017669df0061808300b884f2031d7e1300a07bac018292a9,
  0x14ed2901a0cf41023ac51a039529600347e83c038128430398b5a602b3fdb102e0f2850095e6d90022bce10369df430375b2b4021e334f03ce65d402a9b6f902212caf002ad5fd00879b6802341b8a002df57b02aeec61005343cb02cf7cd301c743a102f0f224000413580311a14800f90bcc0035044d,
  0x645760346d5c0029447c600351638007a8b170381f621029d80f5010ab56c013258ea0076197200166ac302a5d725038d902200108af1006b0e22000a93a900ae1e16007a306100feb2e30070aedc0000042a03765781021e255201f6d62e0202ec41009fa95d01dc90310004a9b400c03b6000ea5b52,
  0x348fc200696f130139b016006e972e03acd5fb01fa0dc302cc235202a185a502f38174036bfd190015b26403ff2855022eab3003c1d26a007267240291cee9032adc6401cbc68c01469ff300f5e7860038eee801dff87c02df4b28026a45bf0389013f02e8a28f0039a44b0318b3bf00c584820171bbb5,
  0x2ac1dd02cde69a02ae3f1303aca03a0172663201ad6728023a02be02b2837103053bf001dac9610023152902cfd34e0131738e02b5209701b112e602505a19008f385b0302a637018f3a1c03979c960019141b0272875100e887f502eafca601c67abb022460d7019817c60222850b00a6c81302964ff1,
  0x98e3e007bf51b01c37daf0272fe2400265462006da92b0381895f016b6543014fff1201f833270026d057027b66e102e0dbcc03620f8501e81f73029ba41d03ce7c85027aaa5b035091db035c2c1b00330e6802218739018a396e011e5d3301b0a67d0058585401fc3c59025d0cd003f5db9002e22eea,
  0x38f4e601c492cd0004782603e4c0f601c2f99202e9b8f302f45fe102986ae4016b854c02b5d58600175c5602cff1b9015db5b803d9d58502a60fe50209568e01a1491001e9447503f756c3014d3dd500301ddb0124b5d9007fc138038167cf0280bbd303824aba014042ac016c0dee01dfdc69019350d6,
  0x3f62f007cbb6101a9fb2e03c1156503db6677010a998f01b2b22c02a74d520168ea9a009477b6002437b0019825af03950f690069eec1012d20a50169355302b2c56a01fb540e03e7194003f1ce3a00103444023f2157006c8b0002403e9d02adb58803f8e3e201d8104c03deb8050075553001f2159f,
  0x38023f011f85820166af710045247d0127c34f007735920149351103e2772303b5972900d7a5de000eb7fc025b558c003c0780024eeb64025ed5ff00a242d10230bf4803f9867801e0d51802535a52000a0183030ab09003d63e4f0156269603bc01b000e80073033635810051535503a5678802e34d7d,
  0x2ddadf03c0a73b0331d41700221d740009b8b401caaf5901e0b571039b820103524c00032ca5b200078d5402792b2b03e3077f001f401702f477dc004388a10208f1130225ce2e031972a0004cacb6003b2f8200991a2201934ea102019df400801c0902c12bd8010c59c300a5186600a0d4cc01e1a257,
  0x356f57008270ed0278dc33004dfa4c00a5c57b0339f64e0045790a03c5812b01e2019102234e4f002e46bb010d90ac00b4890e0082f11303279e4c03e2aa1802c0b8c300f0b89301d5f4be03013b39000f261d015109b30325332702ca7e2c02ac7f47033cdf78031fb595021ddb4d01fd6f04031c5e2b,
  0x33213102d93d9600b1e81103d4110801ffbae3021dac44011754ce01163d6f036ea128022057d10035e04a0134fa4f00c0504e0138a573029cc2c00249ca220278ad22000a9f0200b12dc6024a0638001c612902a90f4c020f79cf02dd7f6e02ef3ae30328114b02e5b3d10126082e00bc61d10020b5f9,
  0xd6e1f0348cf480319f40f0273316b03a154e302d7ecf3002bcf670261a09700dc7b1601dfc372000a89f30327bb6b020d7d0d02fe83f501010b95022e6cf101e155e903dc273100fb35ae0314ba4a000c0a83031ab08501c35c05015d9ba0035fd9b003695f4a03a8ed21012f0d1002219aaa03873e26,
  0x2dd4540297455300147aec01dc4c86005ae25100f831ac02aec53e038a83f801ca40fc019e83af001e46d5014d83bb01f2efa802092c060056f8e103981adb02b3cc640200cc45001e98fc00044cb50023e142027a6d4201e2114c0059e62a01a91f8b02b6073a0079cadc03ee9cb901b9752d019738ec,
  0x2048dc006088dd03e8c16601c0820c01fb4ec10047ee2c021f303703469f7a02f16ee7033af77f000c8b87018e027c0070f8d90241ce6c0229b5d6037872dc0362a0da033122d40218fe38017f0e4b001dbe1e0036d2cf0258b33303856dd6029edf7b03f68fd903d15c8402a88250018143de018fd658,
  0x2efc8b014c5ced02d1754500ca5fdf03eed2a602ad1f0702133acd004761fd03639dd0032662a4001b23ad007d8d8c03280d4e021d7af102f185f902ec55950335145a01f0975e001cf39301944de20026f5e10355ffd2033facd10392b5c202dea2520146168602c368f3014652fe004e42d5034dac3c,
  0x251b240254a2dd032b736202bfa7e9026dba7900c33e420024c5750075304c027f1091000c2e7c0022541901ec72bc01d2496e01854f7a0031ce41031e9a3700243db502dace94024273870164348f0032e6b90152421a01fa186d0307d3c301956ed6014556df03aa0a07027ced6103f1adab01e1d0c3,
  0x527f7035fa02f01f19bac02a7a23d01f8ac4e02e362f203bf1a8b02f6eb28016bbc1d03f5dc04001ac0ee013a78fb02aa23510089012b03822c5902476d5400787a7b03bfd0720379c17b027639ce001d34be03f3eead01e585da0186ae2303d692cd02b3fc2400d50b100384391d0219577100ec28ce,
  0x3d0b5302e5f21603d91591028e62e400441eef0309253c000451d301537f9803430e6802c8069d002db357037e45ff01804205014107de02d3ae9e00daf3f603d53b2301716d32019d905303f2bcca0037964e019f30ed01b6747702e27b6602bf99ac0124b8f600d7c05201228c65003696d5021335b9,
  0x1a3f1202027c8c03800f5a00a5d0e702013eeb013609cd03688fc00368a56501743c76019113ae0019db6402090ec8008ce0bf032e1a47007fa752038b25e003046c2802559dde006914ee024beaf9000913a603f7e87901bc5da603f5b4510098d26f02321df3020dcd5001ec9c67036197190023126b,
  0x39cb0102d9f304024e0e3700040e9402584cc6033d83ea0108de1e017810ed0298e596034d11f6000a30f6024574b2028ec8e300c057d302bb8f8e00154f8e0274dd4801c04100035f9ff701704421002320d70158f4d00041cd510275d0630188b4e200ddd5810308517c00390e35026386df00d2bbd8,
  0x52f6502e36c7003fd125d0053c92e02954639003b4d0100b6b52501b7815602b9325502eee871000a7f1103cd318602380ecb03385979035f150800280493031b370d0330624f022e0f70039a01d4002d3cc3028994f700c7867201df3d9d02f7e5f600c94ef902779f8900d93dd302e88663030eb61f,
  0x2b80d3021f74e501334f84007cf8970120f0d802ddf1d500d0deae0125e1770003b75d02fdbbc80022b45003b66a7b029560f401ad444e037095fe031514b8021323d10312909903cb065c0201a797000fb5fa03f85b8d003052b7013f12b4001cc89b0160d9c300a08ba0037c72cc026366bd0255a41c,
  0x3748d902d4562001cf6904018cd85a01d6b1500376b09b01703e85001c26d50051f41103c250cf0013dfcd02aa172100a9c3800378dacc0117a7d502d6eaca0366dd15029d0f1c02bd73ca002ce20e0020af9a0024b764016b0983001fa42402b19b8502414c08021655b703d24afa021423e702eb5f72,
  0x3ff03b0132a69202709833010390c9009789e10143aa8001df1ead018bd71b008d0c2c01603f32000df46301c38114015c0a440332a8dc00337fbb02281492001b6d1f02cbee3a03ef839e010b2fa9000dd1c80033887a03812cd100e5ce88039e58d20380a9a6012790a000b5afb6018c155001af92c1,
  0x1db46c003be09603b871bc01e2db2b01dff58d0364824103c791700036c5e50042162b0329f74c003a11c10345782b01fac3870286dde800a836f701fd5f7d0240d0c501dd2d0d03c96944022529020015cca3025d4adb01de91ef026ff58f02fc63f9020412e8038f44f80175b19b03b9e20d02fa74d5,
  0x2483b015b20f301961ccd00da25b5006869fe035bf40f00bb3c4100e2be780011a5a301acd3c00030a78100ee642301f7f2ed00fa55d5037f3a3e02b2ce49030188390071f059011a340402834a8a00235e6601a699ed0072caf701b863a8024e84a701b53fb700264a2c0065344f02da7ff303dc373d,
  0x1b36e0021065a70210a1e6027bd9810222719502c7bf9c02cb6b660168b31902e95d7e00705f1500111e570319561c02cfc0f900a58cd10261014c0344f3f000e995f402ab498000d7891c0271e8c6000d4d3f01ec410303c263f001d7ba3d0224be4a0129b19b00ae2fe700f8e6d401f991fe032c9a9e,
  0x226e890281967500b23c47027ce3e60342f721009960a50395d80f0224b73400d9f861022700f400371fc80249f4600361067803a9b23a014a3856009f988c0043cf8102ae494200f68b0000a76e3b002007300241063f030ee40b00fb744701b6446e0175caf8007d328c0205557c00e1f33c0269b899,
  0xf8bae03953ae1025af59e038c44120238848f02d7fc830275d8a90056c4bf002173d3012bd7af002d65030001fac0004b840701d5735f022316f0016211d803e5a5fd035c456901c655cb03882452001eb4bd00e8feb702b70a8f00169efb0073eb4302907980022b28cb017bbdf00240290e01598f73,
  0x2352c2004db1f70170dbf702b76f0102a38895011a9f8c028097eb032fe7f400bfa338033eead1003ac5ef02d90fcc00cb5b9300e3ebfa010f59a3034fde2d00c5b49a03b2e57d01c45e090129ea100020e9260299f3cb037c979900d2d635034e1c280138eafe0040bd5b0066c91003da093203a7ff5f,
  0xdcd00013f5be70331fbe0016c3dfa015f5d67031a3853015bb91f029960ef01560c8a000795770019949401651905008422d60191ee420249285b02ff777d01bb4fbc038f2c66033d6bcf025fa4e6001ccd4100b6d13d0026c56f005c53be02447d9302c53c8301c3928c0307b83003a54716037e4540,
  0xa99af02854b13013af05700b4c24c02ae36bd00ee2f010076d325007f70c200de3d02002f32ef0018a508019eb3a50061ee0d0378eae10038e7b402330c6103f9d7110281b4b502dba7690145cc120007e0cf02c0102c01540ccf02a9c56f024714700188f3f701a0a5b201b53c6302e162720237c1ca,
  0x2c161d01862b7d01e859de0311adfd01405a4e00e4bc3700561ac400eee64b0044822e033db095003dfcfe0224ef5d0053044601cc582202aaea0e03af1cde027bb9f6026b2c6f03878967037cbb7a0037582603c121860240327c00ef921b02585aea02d8b1ce02751ac0030a057202b0832f03a66e61,
  0x32df92003bc81d00fd938a01526136037ccff90353def3039d1c9e031d2373013e24b2016ef4c900077d7f0071433403b2f8b1029aa97b01bdf1ab00066552029b9e9402cb722501679a210178671800133ef102a2c8e202b0ed490289a9ee012e3c3b034836680252529e02b46c4902382d2d02d500d2,
  0xb60210064fd4d029fd42903f015d203c81639001356ca00101d5301ee161b0390108400f7062600220b360204de5d024f5b6e0267170e01194788016c325a0221e5400232bd05024e4575003572510014a17601a984a903adc8e00122d97a019adcdd00a027b50129090b002bea5f0235c1ee02d49ac3,
  0x1150aa0147626501969baf001a83fa02b7632a0373c6710129d0be0069825601b677d1038b319e003bb5f602d85f2302665a71036a19cf024bcafe028584c70201ed87007eda150043c74000d36a750037695801de53f103a4d5540309f089039858fc0019e00902dedc0803079211026e16b40025ffbb,
  0x3706100276197602cad07b00d9380d036e306801c7f7e702edf67b0077cebc026519f002184cbd003670fc004a7892030146ec03ee1f56001a0bcf026a9cb601d007ff0273321e003439da025894bf000125a101e8daf50005499f01bd2e1b0159b65402bfc1b30380e29b022d127001ea8a5103840bee,
  0x1df493024cf011016ceee50055452c02b7c42e00110c23039516e70336b58a02bd855601f0d864000ec0e602015ce203c2f74d0362472b00b037ba012bdadc019d0b6903d67ab702bd856e002a1a75003f340302167c06028f784201ffd66300052da4037fcb2003e6d1a800ce40d702681ab503c64b9c,
  0x2d345f02e1a39700742ca2024d786d03a7ae8a02df50c000bae03002d1732e03caa80800421e5c003f12ad03c6b34b011b9d46017dd39003574f21032eb6e8033c2d050066c69c00dfb56102007c9b003c609502b2df3d019436c300e2b79e02dacdd2031098e100097f5d00ef7c0e0000d33f02dcd90a,
  0x3f221f009f9d90030293ca038a724c0381ffbf0364be0b00a7e0f203f44fda028830bf0381b83600164b2503159c3701f616b2007fa1e10239583d00093f2c03c0b10e0081ab3d01dbba4302a5cc7a003dd4db024d382402234b6100e74d7500b1a56c02deac2200d4f02002e393670335220102c71108,
  0x2d2f950040f79000776b5003452d970352bd11015b3a7c018343d60229239502cb8d83034c2d9a0020137e0345f88c0399323100ea579a0225673a019e615703b580f903a0167103db306702e6fd99003dc8a50355c7510137f7c5035968680263a8940384999d00c90c6e0362730302e0721202281f77,
  0x313abc00ed4d9700c9552d01b3811703a4647b03e02e81036738d201213234033d37830141705200389dbc03b9a3bc015a255702526f98011d9d5a0150ae9d01f5be8d027388a701c6aab2030929fd002d7c5f016865c6038fe2c1034dba0b007583b201b7cc6a03cf9428033f98750035db0501613aee,
  0x41b0a03ddeaad01af6e08019d74ac009759a7034a080200892cb2007ef6c30037452b006eefbc001f3781021845f703d8d2010360ea0c0019884400c31daa035abcc002feb24a01600fbf01e0aa55000c626200dd52e4006f14ff01d6a9d70189f67d008d7d34030232620176f99d03ffc3b5009fe371,
  0x2775a400348e1f031704ba03c870460145f6870009df6e0270fb6402eb753d038aed8902bc8f09001ba69402843f3b003cbac00274ac35019140680150517f00c53138010cea5500ab90e701c915490020323300be3be7010a486f0084e3b801af7aa60366450d00bf273600a25ee600995f4100f1de15,
  0x2af3900336cd100202dae602c9f07f01d9593503398ebf0308378302a3584601d77223004ce461000fdcfb02272f1a025c144403788c3701b1dfea019d901e0348bcc601d9fab7022762d001fbdc6300088abf00005039028f44d800452b9f00675e70025f97d203e45adc00059c7000f04a3000362750,
  0x3d2f2402c90ff000b4af5800087e23019227210111aac4039db56501ad88e8008f230f03b222770025840901d82e0700ff690101d8fd9602c50a8d02865e9e02c05447023488cf03bcf79f01ef21f2003cf937014ea60d0052c63102fff6ea0030ca0d005b187e0219105302d20b2d00959b1e01b36ebe,
  0x135c03315b2801b4af0800d1a93502f37e1c00d6ec36026917b5028b878700b1e7f5015701fa0012b65503adedea0229227800da69b303ef79330352ba01013c26a3030a2ae00043943202ab2915003fe8000095cd08011b4d080326032a02445daf01d17f70031e13bb01fc5693022f4a5e0198cb56,
  0x13f74501221961012559a40080c97e03ee84ed0054c81b003646c60095c6de008601bb01502a2e000905790034794b027ef33103bfbda50291746f0323d71b035bc57403a9b4e30010555a02e9417a0022887201c1434800dd148600654fef00cf2488001febb60026d5570270708c00e5207702c64ab0,
  0x11b6da02db761501802333025c32c4004d340901c0b42802f67995032506c6003cfe26006e745200311e8502765253019cc7db030c78df002257e50296d65e0045765c00169b40002dd358010b37d600052508039df4c802d1e38c02ba51ef00f0da36025f82a7016d29710275dbe700c9f426029538cc,
  0x98232021ecac8021ed73b00c60ace00631790009fcd4e037514220159423a0236fa7a01136cdd0016803a031e4a7002171f8500a4899001fe3afa004cf6260334eb25023846d501f6f63000d94be700358c7803489e5e037629ac0234ad3802fcc6d9032450060125cb9f00248b99010be9b400d5ac18,
  0x2f55c5017728090346cddb015a0c95015826890331caaf01de114a01537e23033b61fd02d7b02b0014007000d33a9e00ed1c8403d1f3ed01bbaa6401825e9c015b9832008d7b0401c7c2a303b2fe7e00398470000f7ab90396fc5a006937e802190a92028ac5af01bb2dcd01624e6c03f6dc1203c1b5b1,
  0x168de803c290a5025f60a50152af9600b6e2d7005da684010d9ca902697f6701bd3ccb02e8586200213fd602a967d502f389a60192967101afec6902be8b850343830702e804f702fdb7dc028f75780034cfac02ca416802f65bba034429ac039ede88016ea42a021373a60052eb3b01c51a180217d28f,
  0x35890201bbb53f0192e0410368a680008bd1d1018e8acb02bd59d101a864c203bfe4080384d511002bf0140091b898002e49f301e5c02a03cb052303b87d8502c97e730277a83c0306dc580000792c003a0e86020044e9009798dc034f0cf702a30d1f03fad9f4021c9e71033a325301a7222400c2672b,
  0xab4160094c5b40199b639027dd89703b7173d00854fec028a328802f0b35c006e7d0f029a084f0007ad1f03a132f902e523ae013eb4ff03ef027302e692d901491205036498150300819c006225760007054a0174dd0103001c2d00105c0b0099bbf20133ae8d025c621c02882ed20355cf4f03aa307c,
  0x256b9200e6b0c40033566b00372925032db0690385808c002f215903e17e4d02b7c1aa03dac2fb002863520171a1e503da082b0168081203f51ebf00d2b5b802e205d803a1fc8700739e1b008528d5003382bf02dd7b4e0245c28b0112adc501a94a7e00cc7f9d013468cf03ff4609034e63c2000c5c1d,
  0x28b3ff0013968d0037a369035bf8fb015cf2fd01eef575007ec369030d560c0170416f0177f93d000c1b20023e11eb016e75990073c42d03901ea800862a6300b51ce803ee9cb701f93a97032597d800246ed500233ffb00ff6cff02c1b97f00421a8e035970f10347b2c800419f65030afbe1007e9a1c,
  0x26c20203fb3dc500d6431600add2740205112c0100a17c0247b77f03a2392a01403f1600ff4cf8002e1876025c3b8802d17368015b631401fb153a032e5bf00075af7c037905d902f5809e03aeef91000f31c1038fdc5703ccb814024f0d2f004fc10400398f5201ddb0ac028e3ec2027106a7008a1f23,
  0x2d4c500e6165b02b9cfc002ec93e90104ee4a01f84a4a008cf898034718ea03b4d50c0056aae70030af1801df873703d2952101ac8f6301f7d08203bff7da0367430c0291bbc301db37ee0353cd3d0006241401010d4700666efa0018e112028aa4310171352b00968db6004680fc016a7b2a00d65ea0,
  0x7331b0238e08e03302e80031f021d007795b90084f340000c07a602f9b6de02e8e7fc0329fe8a003626cb020ed54502a45a1e02e9931701cbe195016a17c8010f068202ab25db01f37f9b003b15f80002b98d004f40ef0196258701739c6701bcc10700be524903278d3102182234013ed96e02904d51,
  0x2e799903a65e1c023d0dd60163fa0502fb6a0e0149421e03b8c08b00c2aab900911b200300956400251333039d73d4016fb9ee0189551a0062e46600eb7810000c738f0347586903fd9e2c00ed9868003a18490331fcd500b88d90001b2fb30091ce2000ebb44c03f8f2090019e7fa01e2fef0005ea448,
  0x3346080044dfae0093a7d8025e40d001b0349f0257f177009b316d028f85ed03f2437e01858524000e028f00aec93c030332bf00b7194b01ce49640315e35d01f8f2b00235c6210090eaab03bc356d002570ca028a2c1e03a9a9ff0026cc4203aaf4fd03dd976b01d5fd9a010e938b0101e25d03eee2e6,
  0x3b4355012a57340216d4ef02877c72037b2b0402c0a0b200cbab2203a789560163de2800653c0d003039bd00d8526800ce03d0024a12d1009c0e95039f0229014f65c600d98a0500f64bc2023266fd0019d31d027ef6ce0060407002a21fe9015af89403d52ccf01a7ecda004e6f7002f51339007c8361,
  0x84175035c9bfa02a25f3a01beb90c025602bc00b0c5930252e2d20219f65e01d0f8610101916f002485fb03e6573c038792e0032c0c3c00b3459c039e656502b3613c03690a0901ac8b92022bc305003d2d09015efcd0027e281203f1022f01446a0000546a0400b88f100023f7ee01014018028d560e,
  0x2b00bf00fe049202dbfd6002f3aa190112c40a007a38f4015abd0402d289fd00a55a8703f6f4d30022dd6d0230a7a401ccc027030123b701b75b0f00045d1b01f73b910372eb3000ca9059007833f60002178b0144432100fb58bb0302e052012319c400791fd90343ce840085d4000254786a010e928b,
  0xd28e602a9f9fd02f321be01c190f6012dbdda019ce514034d4e11035c5f47007b5dea02db63fa001d9a9001720e8500afea2f03367c130095409b012b616d02a21a1e015ed641020649c00219c5ec0004a34302e7152b03df6ea3002ed2b9039956dc017dea6a031ec85c00825b21031d199a03d0a24e,
  0x2c74bc0241b47e01dd93080382a062031769b3022c890a015bfceb0063439301e748ea007c0557002a7863008acbb903a7976b016223cd000201ae02e4d83f01846e93012237d001222a3c017bc09a001395fa02ab25ae00e1a37b01cd4f4501224abf02f5084701ee965f01626f1601b6477d02069e61,
  0x1d59f6007ebd8f001d710f012aab73037f3270005f8f4402f4fc0901311f4d0234a70203f2ea070038570502fef455012ce4bf01ebbd7703c9606f02334e1e01e675800384c14e006b247e03374e0a0005bdf80010511600716a7202b678d900803a17038d099101c02678029e285402a4316201ed8041,
  0x6cf5603468fb8020530910373826100d5faf602dd7dbd01be8fd8032f792101eb118f00cd5dca003b3b580268941b02d0ee6b00e5bf9b0074234e02ef22aa00eeb63001c00ce500d0b85601e8a839000d76f003bc7a36012f31080389521802a55d1d00bad3ed0144ebc2023bafcd03676de402034234,
  0x2d91b300d8547a0010938403d6b9f90022cbf902e683ae00bf445500166ef20174cc2d00aa0d9b003b6a5800b2c32d018cebf402e5935b03aaec2c03a3a99401bd795601d474030129133c03fde17900232cba03be158200b1f1ef006a4c6b03df49250076f5510203bf4802f50b6e01eed6e003fee0f9,
  0x5dd0401f1206001c2fcaf0074741e03f6fb08017d775a00eb7a110229b80e0181011d030e348f0025392000285aa103f5decd030827a502f1fcd301e00d6801274cfe006819ce017d03f603a2ecf3000e866701549c9b01af7352008acb8a02816f8601eb0f3302e3a6b1010c24f8034144e600c29ed4,
  0x17e5f3010d72200286fadc00f62125028693c803f2f60f0116567601678b51021fff370196c090003c5687016e5e7d032896040199cc760036b38800d050c30364fb27026efdcc0077aeb400599534003409a7029df8270316597603f62073035913de02dd442401bb4be700635c9c00a85a6f018b2596,
  0x68212027317fc0192499c00de5c3b03be3da801d004b90234235400a647b5039de3c1032f0ab60037156d01c924dd03fe33c9010c6cc2017e19df01c5094803896f6b0163d88c0043e012027f74370009c8a301e387d901c0c89000cceb200154b79802853ae102f42ea4025bf63b01f86bc302bd3a0a,
  0x18973600f9332b01554578020d5e49025ba3070042f9800301753e02b825320360b24002ed7363000b6da6039bd55e034146d902b8fa4d00cf9d110163e19c00bfbf8603d9c456027d202901dfd41100087cd00357052901d61183006d7c9c01d0feee007c61d7009dba9b01adae8103740c3f01f85bd7,
  0x3cd9e901764c6201a9ef4301aa7c3b02fb8ab003c04708002901ea02193d3b00cbefa3013543b80012cdc3027fb37a00afbe7e03cd0a8a03e35a18039e61bd026799e602eb02b200896d5d02b2151d002f164f01b7282f03ecc78f0395f97a034d562b01d7cfc8009c7ff400bb1be900b45d8b033509a4,
  0x8e26d01caf44801c421f502d1caab01eb9f0002f16314018b1079025ce32d010e21670021167a0018621c028b6a7301c9fd74002584d0021292c002da346d0292393501639b1e020ca2aa02244907000854a900f27f1f012bc3f2004e1e22018aa3c502003a4402af475f0368de02020f4a5d0232095f,
  0x222e6603ab273703682daf029d6f2d018e08400049dac102bafd5200d837f50237417902094438003f922802545bc803d4216602bd74550373e12d025a889f03b88b1d0250b0d00014e9d7012f6e62002adcf1027044e4018d814701c9334b0366b734021c8e1701a2700400c2808c017ccf5402c88889,
  0x3b6f8f0246c6bb0231cede0288e99d00a4e03501b1b48202703e63008de8e003e741b300fd558600058d3700f18f8f03fd6adb009cea71030e5c0901b3824b0089779203b1256803ba6d76007cbeee002be209032533ae03040168015012d0007453cf027e7bbc03959d6a037df2a701cfd496013a9afe]

/-- secp256k1.go:10, serialized bytes 368640 to 399359. -/
def tableRow12 : List Nat := [
  0x0,
  0x2c7e1402d8e4bd0086a8b9009957a6039543e3018bcb5f02e2e5a0021ea83700de546203796d0b0033a08d0063f7d20369ea5b00ab12370185582701c98ed402b1a30d0114ecf203c8a966032c9508003afda60129ccdb016b291802d736c002bf1b9b0103e6ca01a020cb01602dbc0131ebed03e1b0c6,
  0x21cc560084581b02a9ab3600c86edb00ac664f003012c5004f1d3e0084198702af6b0401c72d5c0020e58400b0558200e74209025ce91902336d3c02ebb64502ed2d6a02228a4f01baefd90324f4e9002f064f01f23f6a0274740402f375500110643301724ec5022558ae025c444400c3953002481984,
  0x30579401b379c603f8f8df022a57270284d4030232a7650244cffb002139960124c8a803303a7700238df203d7acc5001fcb2a0316b141017c5e50009970ee02b2f456008a847a02f8b56202092f76003e877a00475f7503e799bf03af9df6035034190165c7e901cdf56200a346410121a6e20006a35c,
  0x394743016b3f7e01af64bf003463280142e9590282f7a40399a93401c90f6e00f730dd005c3073002ac72601b7d73300183ce2016adb05000d3be900c4637a01313e0d014266e1024ac74a02cf78510037b714031983f30018afc303f3aa250236c5f303655fad03df3c3b02f2e23a01bb5ec300d936be,
  0x1c8254010bc1e203fb4cb20138ae2c011e78c1037f1bac01a84844028d99e103c65ae302c3d9c1000d0a94033734560082ab97001a45bb01ef2a39004ae99600fbf4bc01bb349601c238d200a75763003a09da02d34dd001cbf8e603884b5102723f74005e04e700bea38903f5313a03695ec50226a23a,
  0x21317e036c5b1700fb4e5b01362f520201689600decb2101bccdfd021ffa5f00675b2c02a85834001373be0129b7c90340913200371ba3029ad1d703cf781b0210478f038f6fa1010ce42000b614920001ea7e01168a6a0176d66200dc33f802ab689c0053d07a01e52d9a01ff696200fedf0a020e6f19,
  0xf454601ceacf4019112dc008194d602355f430076d58603ca840f023cf0bb00851c0d01e42911000d43480326b54e01b13e1603c277e9013501b000c95afb006b42a202054f450283265a03a02d510007a93900c1733502fb5d490107cce200d0cb97038e40d4036c091402ef7f9e01f4b58b0072856e,
  0x42cd40220001001ed3c2b03cd4ff30211ae4e01af2c4f035461b101d137fa0050964d02bd1a1600021eb200ddc39d0251bad101679349003d0359011ac478033a21e50096192801d3828f00b649a30006e7cc0363a57c02bf5ac00395175902a75afa0002360e0170337203e9c40203a3e00101ee7452,
  0x16305400da0b4302f51140039f7ba602ddc92600be33ac0314aa0c01eec45201d677550204cc7400066cd5012bcad7001d1c5b031887d902c61e6c00a91d3b010a155b0290fde0005af8260035959c0010658700c7d69d002126e40250e2b001874c04033de43002b679b8004fce6902aa930303580592,
  0x1f79070065614600463ebb03d96ba70270e70c014055d90210003101656c9103daae3801626e29003b9395029c554203939a5800d4d64300f8d64b03260db601d01e00025b54fa024fad2800b28f1100081cc4031dbf7b0367775800c7a63202ad01cf001ea32a01c5e4c700e76ab60261fc5f02f9dd88,
  0x1b569300ff81f4009d312301623d6f03f08de200bd5af7005a2f5e0380042b01a6bc630144b7ca002f182200c4d0c50210fe7e0348a80702d1cefd0035f68a023bba3501a9ea3a022757ff01f77f42001abe1303eef860030177a902f7b6c0009871e500c3989b01341ab80392772d008175d801943726,
  0x216f1903ef1dec0135a30f007a1d4400657dcb03cea1ed025d87e100ef6f70000ac15200dfb7410036b7cb0136d56202d6dbf003de1c4d039821670184bf9b0250c1a70194f11d03209ed403e767760009d12d0135cb150053722a0385cb63034d5e4802d42b4401ed9f2403f7dce601ddeac7031659f2,
  0x354ec9017fb9020117cfca004f6760030fe16803cbc05603d4179302c3ee96022a167a0095acc000043a0a026a1b840126757a034a353f0300060b0301999001e3437a0073dd9300917a8901cefa1a00275fc402a6f90902dbcb230004feb602cc01ae03b564af005272c102cc64d000555d5d01472edc,
  0x16ce9300f5b0a0008049fa031916ba02b24d9101558d96017b1df001c1604e035889ad01b7d1f7001a0ffd036191290275266103c960e8036723d103ecb6b1007b0bf000fe4288019a407f0101bd330029c6c9006f0b1700222536004308bd0177e10c01f7e178032d356502356dc8019cdb6703db90af,
  0x3ccc2f02b6e8cf0304c29f01600ffe03e3412901408fc8039b963701604bd40168106901a6654c0014dd3f02d5fe7000f6cde8033043b20251b0d103911e4703dfdc80022409a200bbff3100efc5fe002e1c250033fb6d0320d35c03345b49009779440393ddf200e357b90332a1900158e61701b9fbd7,
  0x2c7710353c5480060263503da409401d4edfb013f02ef0088cf15016b796b000540c70269a9790005a2bd0282691a026e024d031f729f02772eb9026670a10305f752036098f903f622460335fbdd002021540290a16a0303f6c103905ac6009b8c40002c8b5602c5aa51030bbcbb0022e8d502147cc5,
  0x235d4a0117d90e00fdd2550020c1480044317700c2a4af00bd221403950f25007ab6c40362dbd8003807c801abee610356dd7c0059fcbd0158ae590105f60a01ec682f02c60e3b0082faff02d80b2a002f643e01fe979b015e3ee1012c0929010045b701e1ad31035dc20c023625020031b5ca01ff9e74,
  0x1620930236c99a03a2976a01393c3b022ed0710175c4830388faa503655f2c006aef7f00d316cf002ec0190043759000cd83d50023af8e004104ab003a562e028ba50b02afda7c0257f8210116805c000537fc018c95be0230085700d44820036e29730090700900feaea3019aaaf402bac4750252579a,
  0x2461cb00e8b98a03242cca024219e9025e3df502a7600f03f7bb1a0256b9040030d15002175f9f0023713802ff9a7103d7056703d5d2e6021da8ab0278f1890393c1fa005238d20200aa6a0296febf00049db901c893a502b7207d0254415101c833ca00a70fb8005f3afb02217e2b0162f8f901b8ee9b,
  0x3019ce02fbe8e8036adecd0194c54602ba834303240fd30138bca203f06af800a7799402456f62003b499502e08e6d01947c2a00e163a9009ea3ac0321130001b8e14501f9398f0302c13603fc6806002e773f028a0f0d021e64a502eaae6a02e04d7f0099111003ce4f470275cf7c007732d9036062a4,
  0x2f4fdb0350f86c01864a0902c83223029ca04b004cfefb01348c4d03ccaf3202d5b7820015c16e0001a62d01308a8d032f094603c5218800f278f203bda4ec02207f0e02d32a95000993cb03353d5b003acc5d0233d62a036afac201a427100029a5f70047de87029e1cef0033659400f9fbbd02ce7c83,
  0x2e220010a95e400454f9802bb5eff00eb6068016e413303b9783e009c0f2b0036818b01e903060033f865013a860502995770006b4a5f00998901012eeda70037309d000a45430149732402dd7f390035d95801c7c709018c2574003066210379297202fdee2e01ec4ed501d04abd01d57d320261e763,
  0x5f75000ba01c80058800303a86bf7001a462402cb8d3802dafe8402cf9a26036e261502b5398e002fb8aa00fdf61600c6b069017670bf01c5b9780185f42d03e2ed70012ac1c7024a2bc200e950c7001b97e000fa11e000b5bd52006910000131d28c02b07ea803d8df69020ee63f0050e42d033c0062,
  0x27684a03158b3902a959dd03ef8afc014c695b0121561500e2838000cb3b2b005852d8025c7dab0019106803481f5a01e77c6e009926ca0199fa5d03bcb41c0287608902bd145301eec133035dfdad00384428031f2f7900870eef01971e5302895c3303561ae6031e52d1003e862b0362a8e901da1849,
  0x28eec90053697502122d82021fc93202f87ebd01c6526b0364762b0358deb10134b95f0195c62f00226cb202def55101c1807d03f5d5de02e0f18303fc36ea0009d236033d690103bcbd5903f0e40c00196166037d057c0060e229021eaf4703cc5aac01da2be9021fd6b60246881c0374ab62003766dd,
  0x629f003397abe02fac63903bb36420033629a00f9d08000cf380b03e302c702a1108e0224bee7003945ec0185b9f4003aa6b1029e6a2802805a880119e1f303c0e6e3023f47600337853c0013fc3c00210d1901b8eec802f4257f0064bacd02f5e67b0224906b00fbd9570108e36803760b3003350235,
  0x34360f0254b0ff004a3b8b017bc3cb03b40e4b0174dc620168bb8601b88fdd00eeae8902bf995100054a5c00c774a5026949d200ebf715033c445e02b7dd8b03ce7e7b02eea73903c2d3ad005e6cf40007958303d9912b00e1b1260001f89002def812023868c5000ead7301795f5d016e80ae030d6012,
  0x15b38502be080f023a4dfc03df36a1035f4b380103d04c00c09d1a001d9fa901f9351a03795c6b002443ab0069218b01943c72029280e000abac1901cbcdff02368c54016fc4b902c7f022018d6882001f68b101ce5d5402179e5c023c189e0015e5e700dbcaf702721b1a03f12dac03e855d7005134f0,
  0x670f4012907bd02c301e303175dea0000e1c903a52adb00bf8eec03563a570234661301acf067002eb8c60094e0950008eb9901e2cc8503c9268601429fe10318d01a03d0d3b801f12138005ec940003dd96603d7ec5101ccc2db006dc4f003aaed99022396c101b0eb37014f106c0180eba102af389a,
  0x1b4061020c59760007da46007374ff01af3de9029bb6ef02f0a6e400963751030bd4ae03bedb53001e44a2016e5669033834210348701b0146e49f01b790bc00f8c89c00ae42dc01f21922003e0c000002f7fa028724ae0261adef035bd062001f72c302b0800b03b4bd9900c82f4900c27b2a03382aa9,
  0x9700400c5f11b0287264b00c81dac007b40b0034152f901b6078801faefd902c056d203f5836500338b5a03940a0b0312cae50026b4610069f3b701a5a34e0028945f012ac66703071aa5021d47e40020b6f1015d47080036a455001439d802215d1101b1693a028b551702e9f06b030d25c300c88c4a,
  0x2a29630377c5a1029ba026031251ca00e682ac0175b5d00265fd3901b779060383ec0f008c1578001bae8103c5341201df01c8011778520362b10a00ebbf6f01b3c626001658a40342fb6b0293b7240019592701359ec703fe5db901bf717b00317484008750c602e012eb00fbb9660257b39f02dd8684,
  0x7078500cc1c3702e20a89027db71e03e1e56c02c0fe240069341202c483d80196a6e400689aab0027e46003dbc5e90296293d0353654001f53eae01a21cdf00a84ac702f6e4d4018ef5f302eef1da002c87660392f621023fdd6703d3d5ee01fcfec502d9e2bd01ffe34e0331679b028e57a8009e712b,
  0x54a5a00e412ef0340648400fe72e50287ff1c0211600002f211a6028dd31603e8ab9a02b179b1001d5dd401bc042d03f8396c00741526000ea5d903e95b78021c938503d0481900f41a0c03005cbe00063f6800c7449a03340344024f033e03b3508a0149bf1a00f3efe80323912600989b6001c80c1e,
  0x1bc13100fa8eff0143dba50266803101137c58021be64102e51bc403ea203f00ac5d3f005a2f7000014aa102345f2202dc9f3900be2bcd00392b2803b37a88023b226f011b555a0174dfa700039b370012ec3d028a0c31036a34ec00f5808d02cf400a00e140cf00cb175503720ca90089f21a027a78e9,
  0x19f5d4031dedc90313faa200321ea1038dc52d02221ecd0296f9be008d51fb0315ec9f00fd5f320039da4c00b5f00602d56b9f02aa178000b0216f00b7bfce0052debf03235cf402701af203850290002639920393915f02bfbd400129b6b10095b15c0204d3d402574b67008dec5201ae38fc00262eb9,
  0x387b080076e4c70266328e00c7d52c02f8a6020157691d02aec94102b212fc00b9fd6200b685b4002196d100bcf4ab035fedf501ae009802f440eb0071229f01b9510103fae57700c58f170270603a0015089803c070b703b1d8a4004d0b24037af956012275ea00444aa202f3831202a7c30403bf971b,
  0x34803403b259e602de2436006f688903cc9f0a03984b660279e99903fc8ba4009a665300b851ef003ea89f00ed5684025cca5f0260a9b4030e741b03e1ac1a01a997f8036f595f020cd19603f59ec40033fc1903ecab7e021d41b8034c0f24020980a802c791f602158c0503293ebd03c91dc30285e8df,
  0x4ac6a0180a6f1000c01a9036c4469030fe4c801fc0f28022e87fd036e917a031fd3bc01a299cf00310f490066782300b283e0037a53e0017f260c0166212a024c22e100f6d11202b1a5e601a3554c0000cfba03dc7f2e00ddae19022eda82016b65400123f8a50000044403d95cbc020cdc38016133f0,
  0x3edf250245f96a001d8aa5028407ef02556a7e03c167fb0043ab6f03a0e39b00588613033151d4003df40701634234032c74cb003968fa00fc7e1401d9c7af001ebe6a0204894f015abeb10133b2820037089800bf002200a509c900ca1a6f025fa0f800c6189603831b4403d07d5901662c3c008bde6c,
  0x34df7a017237e802e212b200fd3a3301de722903aeb3e800d0860000fdce12019102700095fdfd001aaadd01936d4501ebb3ac031489a6023cddab0180790400baa1c902fdd50b037a325a029984870035c7900034bdc901c0e52102ed313f008fbe5e00783a7a02cb50550022729903754bf200b8d667,
  0x1b012a010e67450310dc620147f8950395d310000d4fab00d4aa8f03e2529602d95fa0037b995e00157c7f01d0f5db038c4fb001307b9e0179cc790129348701eb649601b1898500d264510038b1f30000aa1200f30af200b060c6027eb69a0123836900d6f52e012d950d0015359803d6fbca005b329f,
  0x2b29ae01df1bc80385ea2d0098d10f020fe26003b8a57c003f709303454f3001d937ac009ef71a003e737c03e61e0803221bbc0380738c02dade8a03fe162a0066eb9c006f767a03602af903a6c20f000ac4ca0378a55b002444f8001c9e7600a1342f0360a0d100ddcfce0083287d00718ebe0259862a,
  0x18318d000165a902acbe450107cdd000e497cb01aedb8601ea8c3a03b58ece03e650650158091900317469036597ea0305b70603b718d40154293f01bd5dc40384f75a00aba06c0126681a01a933120017dc3f0328e7a103092639007d3b770266b7d603a2e55b021c277601c2c4ae02c93fdd00c6a399,
  0x1330b0311aac90284381c01c9a249018d21410211887f01db0c88029162eb01a3375c0361be700015a5dd023ee730002a81dc0202d81801a1dac2016cf23f0166ace20239629703d70d0e033d3ab3002183fc02afe7ed0308e2fd03eca01500ab53ef02bc7c4802a05f9f01039c7401a8020f01ac5daa,
  0x10f06500c7eb4b019a89a20277113602b02dc4015a196c024801fe0208ea5d0347911b019af8320007243102a8339101fd4f63035b35200270cefe01e6e35a00b61cc9037c377a03680c8403931f01002852ef022c7f71004b285f012824890266c76b008401f801004ce9001cbc6901e558af01b4e5d2,
  0x2bc1cf012e30af014597700318ce1c0060096702d0f36403350fb6003c308501399d510255a144000d370a034945aa00f9d888024c8faa0071a5470142022d033f778e01403f29039659ff028b48b40023e6420357b2240032296e02c8279d02288d0f026f5443006704320216282e02ce52a402fc5a96,
  0x2dd624021bdb8b02400d66015a31dd028db54a029cef6802687cd50372a79101f50af00388f48c002afbfb02ff57ed01630ad902f253d0003c8c89019ff33703da202100271854026fd855024cf0f90036ba2801b701dd005aa944031823f50116cc6a004a179003c5dc6c02fda887008552c00344f1c8,
  0x3a14da0080a797022fbc4402841f0202099d46027d3204037c82d701fa05e20324870c00aaeef4001823b101c6e24d036e832d00b233aa012418a2018faa7e03f6f69a007c32f601b1f8d0019446d3002ece9a03e0c17c00fa67be0374ea8c02390f340209405a0064145f00d4868a03c483a700c3beab,
  0x24bfab021c205700c53e1a017327a4034b3bce028284810102c43f029e6c1e022e22f700ac4b55000c6a6e034e31b60051a4af0280ccfa02e1ba45031738be008da3bb02e621580030cc430248a280000f31ff03e33dc00272c16d028dd95f019b6b3a00949b32013fe29a0101289302f41f5700d14a34,
  0x22c79a03e484540172a42400017fc600018aa4028a5dd5004a071c028eb87101d37a2903104e3f00367f6502338c0d0313418101d9750602c27625001eea8700447c80003fb86f02a4e2910149608800295a6303acb7a600f5b93a033dbd2b0158a39903b7165400f9b11201a4eeb201945cd6038b1100,
  0x39e8e203dd99060178e28f0292aba5006c780d00af17dd02f8a104031cbc060004c3c502f2fc9d000f132e0013f6a202ff82380374d03900c74eec0001a0140263b7e90040d6d1004ea7c20133201d003a6d0f0254feeb03ee9247018622d603d955da03a6cda501191242039bc3b602b5eee400e2e85a,
  0x1c7a87009310a2004cbfe40287e3c6037e26f701319f14012c3fd800ed959102334ef6018fc18f001f2b810076811c02f6cd7003301e9c0244522103cd672102770923000faa850385beb60169f13100364bec02ab8f2a028f71a702df17190027d3ac01e00f720099708101c3d619004beb72039860d5,
  0x1c32a102d8800003a4234b01e2ef73004deb49023c08e0003aa7bb009a25b803fe7d9800b176a0003ec37900467db902b1f6f0012c29820394c1ea02947c76026e1fbd027a6bd403b9086c03a8b18e0012f72002c85c1b032c2cf30329994c02eb4c71011adde501a0de2702c991e80069047900f8b147,
  0x31db4800bc9d6c02b3c12e016eb7f403263401019f7ada00fa3c6f0379438600d561dc021ca37c0036abab02ed1a2800d48549022d367d01ead15201bc9b91026a02ed00b0d7b2009cc43b022c9982000099c700f4918c03fa318202cfc9ba00c33fef001f42d9007484c701159e4403f71897022e56b9,
  0x3e5935008fab110223298b00f526b801f43f9301f8c4c701afdb3a015fc6f8011de833034dce18001e14e10296018a0326f2bc01eebb5a01a1ac7301c9c64d021e74840262cc52030f5bb600d73b4800368ad4001c8577010b6fcd005e0ebd029a782e01a78e57035379fa03eda67800e5db6801f6d53a,
  0x76ed03f8c609011212130230b88502022eab007da22000949ced0127981503546219007818c70016a39102f4fe56017a955d0094db2501df22a00217381e03c91bfa019c95920115a5410067daa5003239e301fa086a011f58a00248bf5a0171f67400d7e7f5029a563b03c1b8dd0137f4bc01189b5c,
  0x24669c017ecbf600a7d1d50183ed17019246ad025aff8103bbda9f03e78c0003558b2a03b57fa1000b9a35014a13d403ad6cb403c2a0ed001d36ee004fe677023327130254fc91017131ab03d1425b0001b3950397376b025e37d40180e43a020b1c6c02f32bd500ce0e2a009cedd900df926e00091e7c,
  0x7aa0200a21938030d200c00b36f030399e75f017558ca02a870a4016726ea01268c7801283012003ffe0003df850e0003265102c79c0d028fbb910347f3330047f5c4004d30fd0229d46501a56cc0002ace3f00eebbce02fc089603a0b5eb02baf69f02becbca0397b7db000208ed026b0e5600372b2a,
  0x77b9e006eb5a302224ef701c761ab026aa63202e0710e00f730c402660fcb01dc681201213ea20021cf38012a22db012665c7008bc4960256e344020e846f02ff25e703c1b0ca00e9ef8a028b978500129a1f0276dea50362efd3020bbb160161099b035b6c8e008c921303b3c68b03910b2400704118,
  0x1d9f270131a68b02a174800028c39c03bef21403e9c465024722b40285c645014680ca02762b24003909f80153a4cd0038c85a02e774f4003529ad00ac4eed007ec05503bac7060112405101ac8190002e76bc004f5e27007dac670234887e032d189b023ed0fa010824ed03e566b201178e6d027a0d66,
  0x3ab79f03a6a40903bfea2202ecf70c016dc9f5010601000017caba01a5323d03826aa6036f5c8a002fb9c603dde4e801bfa2ba03a80a2d03c892fb01437ec502302c08004a36630182335e017b0066002e1089001ded3c030efa5d0334b66603c2f90700e75747024da9a700e2703b037f900f02fe41d5,
  0x21a9150068529d00a939a4029c224c01d0481803fbe791031f9e77001ff7a200bdc40c037faeb40026bb19029434ee03e1caca001b03ad0163e787020696f800e73eef0198e2e102843abe0237046d003c0b9802d99eb30100bd8602bfb00202ab44f4010b359f017cfb3f0346d9c6009e880e017a8aa1,
  0x6cb43018d3bef03b519a301659c840248a0d5022d4c570200c1f603db5c8302ea6f1600cf2c3a00307761003377a30008cbb4019450b700e3968500326dfe0223099203c6b9c102d1eaeb0396de98001cd6e701f9186700f5de680071b8db01bdbc230198b76a020b1c3a02a0fc9d014a33c30074eb10,
  0xbd440104a63901d59fab0374ac89035f80b601f6209b03dbe77b00834161002319ed01b8a92a002aeee1022f3c75026f3dec0348fe65017c969c02eb4e1f000879d400be96dc003ef54e03f31bfe0027b3c802a88da3030966a7003b51c50280ab06005a6e8b0152c08a033a118a00af22380039d854,
  0x1c5e0103eefd3500ccef5401fb6e73014b9d4f035095fc0234168c032a482b00987dd801a8d8a7001e603a019d229f01f52246015babf101271c6a0030144e0245d3dd013068690188801800342bdb001c13e9025fa68200337452014a7389032d288f03fd0fd401859e7a003f09a800ab42e101675a37,
  0x1f0ed102e137fb005f5d4f0293c1bd00c6303903fc6d2200ac6090038181cf02f032570241882a00071d8c0232ec3b03cf25da0105bfce01a981f1012aab230334ac6503ccf01b0138b18b01c467fa000e158e01ad68e0027f61c7003e47fc0038f338024a1acd009036b8013b66e7010784010333b079,
  0x3f491f03420e71015509200091c2f700ae679f03fdfe5d006b90b002540546028ba05802f6901c0004e6120395b60700995b190107278d01e84f2300832b560208a53e00438f6303376e6e03b6499b0035e8c1009760be03eb65d101daf63e0265757502041def02c9b8ab01e8698e0326ec7600081527,
  0xe3a240090514501fc4202032568d70277e143039648c3015e4c6c001adc1a03608abf03419e550026b0e203c06bd000c42a260207128702f1afcc01ae2e9b03230582002c9ffd028099ef0237262b002ef18101ed9486036f56f5038614900314639e02eedf1d02f43410013358ca02052dc3037f3557,
  0x2d6add02cd50520245d5490167ae3e033c0f4c01b6756f031992430295bbca00a0495001a2da8e00112cf203e2b8ee003aaea500d257240386bf8c032410e100624958006a41860329f079011f8c40003cda16019745ad00e05d9c00e2a0e103eb037602a6d60102b9aa9a025db8d201742bdf03743647,
  0x1c796b01f49d83016ea6ec0324fc43011679a60223547a02b1d12701424f44003a35120395a27a000f89c00277f7e602b4615801a7d88001b82b3802c43fef0357500d02579f0b002fd36701af5f78002dd2d200561ed303a41f3d035e820803970c790251bdf20002f6040392fbc1014760bc007a8df0,
  0x22b39e023e6d1e032a7215017976c102868c27030f35e20374814401f92dbb02a01aff03b1ed6d00199319022efda30156e6f0028f131700d638db01722db00110f072006ad42603e217d600dd1416002ec26701a4503d028935a0025f2a4d0225a679027685a50297e87801a5f23c00057f9102ab17be,
  0x745b00bf5cca0397f54f015c09f201025f540055ba62032c610e01aa421401f714bf0138b8360035cbd503fdbee6038aa97c022517e80307eeb40312b04601f8dc3002659a51014bb8ea00515214000574590170802903e832ab00d213c300b3c670025b5d9a021a9a180269bbc30040a3a0029bee08,
  0x1a3c9400da4bc200a71514025ca798017ad43b021444d102c47d7c009ed61c009f0f6903f2a6f1002da09300138ea400ff2b2d0051f671028262c1013a0a5001903e8e00feb599027ec35803b2f17c0029211300cc5fc200fa6a5d03be3f3e03a348610117529d02713492001011db005a466a008b56eb,
  0x30b93402d32a42021a4052021ea81403af093500b5410d01abd60d019e7ace0046e735023daf7f0021943700e6f79b0002dc84016309fb030234f7023bc5a70365941103e4b6920215860a03fa2e470002b2f702450c9302a4480e00ecdca202fd973400c47eac023777a8001be1e901fb7bcf030e9e82,
  0x24661c02d922b200e4f85700d8571b02ea2de901cd32f30048dd2301674047021779fa037c4df300214f3b0398490c039ced060289957803e08686039ad3d601cd625200fb37a3016510bd026373b1002d7ed10332e36f00214ba7010d271202527d9b03806b1c03901f8a036dc3d401f2b97901c2d5a9,
  0x1588b400084476017bd76200d5af7b03ed6828014a23ff0377f38c0319ec750314f7e9038725b400068c1a02b579970379c5790094a4c7028b1e8c00f99fd602362ed901ee58d102d5e1e50206e43e0036664b0171a5e7010d0edd01a468af035b6c140079c417006a4a3f001553a002a2d76f03382d14,
  0x3ca108038499ee01fc20de02996e020082d38d03b62c3003e20e240178d77d02cf2ba8016d5b08003944a5007326a40269453b03586f5000b9be5103e3e0df00276eee038edc5c00e7eca800c6a3e4001261bd0384c04903d641ba03804d03031f70f2003eb7e102ae791e025e74920316649601c357a0,
  0xf1e9e01d5599901d9669c014f41da005f627903023e150131b781028ce9be0354fea400685c34002d45ce0273257101b98a0b0155fbec03c7fd9a006703df037192b700714ead00c3535e03ff25790022755a01a069c001805b7503cf53080378375c03a458ec016bce44020be450002448cc01c80895,
  0x1f0afc00e558b60238ec6e02e259cd03d47ea9019226af020f044302da4dbf01bc1e1d02e0f075002bcd9d02d93b1e00fe1ced01e3405a037b3d8202a49f5e029c1a9f00dc9c3d036c673f028fd31d001bb9a402348e400155276b03cec77203c5d8e900f42361025beb0d00e887d6018f559100798b21,
  0x12fc5601fbdecd029d245202559ae0006b8d87008c1fa602f4c5dc034d7164024846ec015cce0d000182ae03b6da9503397fde01557998020bc4b10121601a0033a7ad03dd19060360089c028385e200384795007771be0091c10901a2c57c0220a279013908cf0000a69a03e7fa830315bc520141c23f,
  0x217aea0380ff50025f4a2d01a7e6690047648b02c91725028fda250273462a00b3e36d01592107000d167f02a5d64202d3edb903540531025c269a01a5eac401c1534102d8ff09014f072800fdf9710027218c00220486019ec72c00b968f703af904401853d7c000f2a1902a9a26c0361a87a01754bfc,
  0x107750016094ba000277460132adba01df7bae020153f80308636f019161e50278710a0241e9ab0004fb84033fa574007a1d2102b0223b025c0d88012d079f03e61cee01a5b2460399f3380322199a0013f00a0213a21b01ccf09c0289947400729be20069ba5303769a4100add13c01d445f4031842ca,
  0x1f04aa0086c86c01f078a70219133e00ff7e9b019c7d500134c1ca02e0a99202a27990022ba9b3000eae6603f60ed001d7708a038de50702fe2df30298146500f95fd00139889603ab151002632fc00013845d037bffab00744db800e8b323033c6a8100f4c7be039c74d30140405a01c573b2029ab2bd,
  0x19c7dc00a5b05c0120769c0065091d01a391a6019c4f6c00417b2402aa5f8c009420c9002d61960029b988023a48f702a58860028b74b002a346fe039f4dd001ea89fb02b3e58401bbb90300ad788e001c38ae03e9d5d403dc41e4014d02c50070b90e01e4befd0002556902b0bd470038158a03747c24,
  0x3fc4f603d2bdf903e9f70400d19cd000990da30092ec3603aa1c910349d69100ca3dcf01135d880003801603b9b60903b81fa50080b563032ed9e001d5c1cd03d43b1a0336d3cb034672ee02042654002e8673004d8bd8010bd9410290f56502646e3c024f591f02fe55ad008b554a02ada30503542244,
  0x1381a4017175fb00f3abd603f8067200d2d42103c166500365367b011ee8a501f90c22026f34100003603b0297deb901d6b15c0225eb1003b3f07903937eb5022e559101cfd0be03a59c3301082b28002c31290277f5ba0190164002c6ca730005a0b30102cdb201206bf40046f4a003eeb8590225b26f,
  0x2b5685037d7307018060cf03c4ab0e019448cc002b579e0287830200158bf401992fee017b9025000f58a000517fd70086c62b020a5b73031b0a30000a41aa0135b2e00219afc101f25a1901a5e402002b431c0077838403acfc4b03719362031ca557009aa6f503b8d37d01bfdeaf02efbb0000f60db5,
  0x25966703ac474c0224d13f01adb2c00097708f0068de8003ce5c2902b75bff01cd49a902cadd5d002d40fe039570750319bf5600309ba500798c2c03f777b602f2ffa80175e9fe0380285a016736b50006bdeb0275ae8d00e904af024517d10231cf46037bb63102f0e886011cff0e02e0a679005af80c,
  0x27b5d3024233b103385f58010804e50343ced800a40be1011e9f6803e79cb8023e47b4004d5b040028af6002b9561201d5a821000f56360121f730034a349e03bc415f012920c102b84ec6037aa5cd00355c6f01c52ebd01fd80f7035bb1dd037db9f4004ec615023bf71b004df6c7034f59a1001d9a63,
  0x3546e701a143b302ca594e03ad2ccf016ba9c2024831f201be9718021ef00c0038ef0402af986a003a309b024bd32203a4442002f1a809002175900309db7d03d3092a03e9e35100363517023ccc030006779402c1955e007da2650082032a01bd186501b75f08028ac3cd009f4fe5002fc50103b7c4c8,
  0x15c79000a00a45001db7f6017fb9f30181c613024903b0023e0aee03f5a77703bb271a01c8ccf1002e4c5c01400d2800796a8c02a9f25802c86946013cb1ae038db781024670fb03dd753a02cdef78002b391d03dc66e203d00cfb01c1ded1002ea4ce03c052d002f24f410377a0ac00f366c303067e3b,
  0x34eac5005a6e5f02374d550207b08800f5d0c501e8c68f00a6077b0279294b00e00258006e75de001e873d02e8ae89000cd4350066879b03d5fa7b01a4f56d019e282103f132c40018309202f4e64e002f4c9e0026b4780023097e00f1588f017239e703dc3a1500737fae03368ebb00eefdb9037be901,
  0x196623022d654b01c0449401c2e416025eafea0127b4a202464e0503f2cd690289cef90351ffe5002814960219aaab0036e4e90132ab5d021d1a7c00f65aa300877acd00f52b960317b4e4030079070025747d036ff0c8022e79a501419b6300d10fef0206895d027350db0305e2c7014138ec02f92830,
  0x4be890203e90601fe8bd3023e26de023b76ca022ab3fc00f60a0100c489590177bffc01e2fbb1000d46a602a59dc600b05f6002b7f60d00ab827d023cf531033805f603b0ef5002ff9c58037406ea0030b2fc004afd080107369f00281de203c8896600ee0a9b0110c7ee004717be00e2f2c4013c331d,
  0x18386c03c8947502a46bc902b5561201f7e8ca03a9b925038151930207f07c031585d202177d3a003c2c05003d3b5601b55f1800dd13e603040d75036e2cec0025fb20016feacd01a3445f01894ab10001a7d6013ef5a302ebce1901f497cb0144074302202f8e01519e5b0200d92e0321be7e021994ca,
  0x1b7d16013a16ab01d3bd0d01d50bec0109c3800095c2b703af66f30119600f007c6ff200228b38000708d7031f0a650336a1ba02a5d7cb038bebf403e17d2d00ebd6d7037b8ecc01f53f680166a02f001b601803734b9a03022bfe03be2e97006de13500d14bf902f5211f03ca9ebf006a889201358802,
  0x44aad00f7b13b024cfcd80067bc750274aba20189c2b401489ce600bd35a8009e52fc035be62400207abe03fabe7e0052f1aa0003c3ef0237718c020a0944028a5a4803589de1029076de013bd4fa000f2e49005d78fe03cdaf7702c332ac0362cad001b0bd590240bb2b01aeec730393284c014c26a9,
  0xa2a1603609f4000a3af4d02407f090395d3d40285dfb50232b599027058ff01f46bbf02a693f100182aea028364d5038c9050009b15f803aeeab100cfdf4701601b7503f1e3cf011f03f3016cc065003285c400fad41a03e6c55100268df2004faf9e034763eb00d7ec6600bca5390185a50b00997d02,
  0x39b77702fe8d4d01b3fb3301c156ba03c4c102019593b3019a8a2201cc473a02cf20d700b812b3000f245600e31267005f0a2600c63d7b0032519b0077b46e00b7873103a4f33b0301b08000e20704000018a803cec17d017513bc0299206b025ecbe0019abb1201270dcc01b6384a039be88202b12928,
  0x20f25f025316370282c18703c9469b0366b8a0027d73f102e2501d026997cd00f8953f013e39840037790203df42d103443ee8003314aa01b7873503de183f031a5731035292ef02b6a0f203faf7ca003a5c36008abf32032ef00201927b8500be1c47036c8f630285d46d025a79b902f79c8903195ad2,
  0x2fe59502a491b103782aa4017fa82a007dcb6501163514011af1540344e28c0046baf60068cd09002c636c03cb50ee026ccd1f016a4e9f035d7553031cc9220264022203d0360a030711f7024610a8000ffd3b03647ba202474a4e038da5a500174d52014e6a2402713d1603e82ab801afdac501acdc77,
  0xe1325008137e5024df6940090ff7000c51e9000fa47fa0308019e02c4bc2e00b92bbe010dffda001eeb1b0263cb2f00b8432601fce17100ab0c31039f35f401464587024a2287017d3389017c838300226b13029fe33d01db23d40123b8da02724a3603526a1400d10f720081318d0268b0eb01748301,
  0x19b24700f675b0029d2041000e55e800d20b5500c32313003fa6fd00953357017b8d0102b125f100368d270293fa8b01b022a101ab36c70318e25403db55a6032d8066017c50090298bc9e000083580025d7f500206d470008a98c01303647036cba7000acc74200b85b9003a3f58101b77ad003e4ae65,
  0x2f706d02e785c90245f7cc01609b9303d7273a00cdc41300fbd72d03be9a7d02880f12007e6ca90015c16b016f2f6602d9444302e6f2cf0007d0ed006325aa03220d7d03da5202012e6ddf031c912a00139967019ebb0903e643720275d31603ade42302457b9203e11e9e0228f4dc0306866f009bb675,
  0xcd7c8015c62c002256a9c03c2629a032b5ad4021612c4016bce0602532d480232b8de01831787000c805f0011afad035ef089035070410077557700538e420031c66003d6d2b30199f2ff0118abd3001cdda602791feb01df671d02c41034023facdf0304dd6d00811aff02a008ed0054f8ea0361d414,
  0x142be901f37873013207540300c6b5033b74fd0054f9be0327c50f03131e1a017965c4029ffe06003133b802b783cb02686d820121321500241d1b0261fd0303a9507f0399a80b03e1c35d0251dfeb003b4f310338079801691b5e00bfaf530344aab00121fe5800b4117503aec880035739fb01c5d0ae,
  0x23d9af03735383023b8ef203b681bc00cc83d1011225ab0030b64a01af820703e47bea033a01b7003f0033017278f90201f1e800414cc000c34225012b9b2f0361746a0046e3da03d6923c030157100037f5a20377570f03cd527402b8c3fc03e941d40105019b03178e01021f11d2021f859d0314eb39,
  0x1e7cd90242dc92018f2b350206c9d4005981620371f66e02a438d70037fe96009e8de80318d2e500001e9501bf80b3024d1d70021bae98020ed484023effb202b9f30700ded3d502e023ba02ca9da80005705d0287460b0377a861018202fe0217949e019ea6f2036db9a402034eea02755e330386c517,
  0x21000401f58c99022875580277636802a947ae032f675c00a13240021ce24700e7dd70039043c50023b7d401f1788d0056495401c3cae103b25b38023a5ca703bf2467015a9a860058a874024f2b9e0014d0a10017777802f0ff1f03eaa0630373bc83023b76a70393eb5d005065fd01302064008de675,
  0x24e95013a816d012279e800cb21bd0004476c0086bea20135f19b0174ac0c0193147f018b524b003eb70800bcd1dc02f293f600f9975d032f0cca03cfab3601a7850402e2a236018f4dcc03376327000f714c036e8df90149bbbb00d7af3000341701008329a602ecf41603357d4603f98c9801744d05,
  0xf72c2017fec490280bd3d018d1166019e75d50070b09c01c68ec503f6223c03c13c2e02bc852000285d9d0334da6b01e6934f00adb4ff0076efd800f6375102220d1603b2ac320358ac4800b829da0039005700f10b6602e3f20a01c38e580241bf0b019f2b2503226ef702d2836700baadaa00b628f0,
  0x2805bd0380330a035f2af5004006150055acf4002c0463025ae33602cbc39b0082847301d40c03001dedcb03a8e8cf015d309300e58bc80309b4d90126083a030f4fad037a7cb9012087a501c743580023ef9203fcffab0020bbb403d8636f0189fcf303e0815c02c40dc30090610f023a76380153bebb,
  0x6fb9602f5c17900f1c6dc006d57ce0090eb450222c13e01eed92d0273766f0310a31501ad5a350002053c0225140b03a866d601965fbe012e83bb00a8ee7c00ab06e200c0904301d542ef02dbd74a0013cae603685c3d02042c6c02851a7e00cf637803e2c95800ff9ea902a6f83301e09dcd036f97a8,
  0x1c68240250c52803b9d12301d63b9f001a57d4023a88f30152fc4a0263878b03e1e7bd009a40d00013782102ffdf080057d67e034ad515023fec7d013e014e0026066c008fb63e02fcad0401a16be0000d80090111f0950374ca030324538b01c8c0f401fffd8c016aa52e03741d9203d00a3103a1b7e1,
  0x27e5ac0305b0d3017025d503bcfdeb03e6c18002cdb0c101cfe19a02f6779202c7ac9f0209661b00396b7902aeb7c70352640c033fe919005e7fe902b440f702e167fd0350116600b0a29f02b3414f0008c3970224741f03bf86dc02f7685c01a23471021f3cd603d3742e00414fa8029a72e5027e7aba,
  0x18c4dd009e78ea0012044400793b8b01d081c303f5b8f801c081680070157a01819cca00af77af0011a08303fa1c5602c14b91037e928b014bc16101a7a25702fc9c95037dcc3501069d27034103e900099f190122e96d00f722d10360a0840170c710004f075b03ee51fc03dde91403e4042903b5e842,
  0x1d76101e06478000f85f5013e091301d585b8011e3cb1034fca6503af372e0101bc3002df312d0035694801dccd3603a2eb0701982207009134260331035f0284e93302a365d201ad9bec01d1461e000fc03d024f38e5034dd4ac0225172e02112c890217d6f8036832b302c6e232006db6b802bc36c6,
  0x19794d03e2c96800d4b8e30097991a02a68dbc01860a98028aff66024927f0009fc06400783965002a481d03af542c034372bd03f492b9021b2280013fa7fc00d682b50126a130010e410c013fa706002836f900bdfd1202ce6999024085db03c665e8034e4a3502d5dfcd01f503c20147d49c020c472e,
  0x2e4252009fd9e900706e1103eeb331014477ae025fd10700ed7c2b00297dde000570a500c8aa6b000407ce019df92e03717306012c986e029db56f0161fe7200f2cc55019b946401df83eb01cdb2100001192403f15fa101a4ece303ad3a14039e4dc703e17f6603532cbf0120bf240128349a0122677d,
  0x242556010468350139021f00cf765301a3588a02e5d008017a0efe03e786610042ee8c02eb807b0004c8cc00b3d4e801f4bd9701476c3500b40662032b24cb0085d2ac0131a3a701e9d03500766361001b8aef0083de2a01c2afff02c2c13b016565f203e5b9e6038e27fd03f9f70803aa3f2b017b6188,
  0x25215a021894820035597a00be727401d0f76500da410b013494da017f592701fd877a020b83750022b748020759d1020eea4a009f0d7b021e7de90278e8cf0280a66803ad4f3e03091b13020450aa002f5dff0115ddbd03ba7b9c01282da6016feeaa00afd1e6036d1a840294ff160322696b03dbdc5c,
  0x2860410169780601638aec0263d157009504b00151897d0348617601c73fe302df4fb303c70c3000266beb03779c72021b5c4501cd3744025218ac011e18b401e787b30273416600c6996d03f7a6f3001408a40089383002c78e2f021424ec02f6f1ac0395887a0021b48703315708026144ab00fbd743,
  0x6203400db350b035acdc70183dab6017b31d003f2c6150137c55800c8831b012365f7005416850028547501615b020160a789025de172003b021301b754d303ebf0700273d55f023b00de02b99fc8002bc05d019117fc02a56a3d033b69cd030c473a00743e8001013f2801ae03d103cb0590012c5643,
  0x25c76102b2c68903f1dfc6020bbdf2001eee3b0215b78601ccb29e01581a88011fcc1b02468cd80007d967013cd9f002a407820179b7eb0259940b01a45b3303b52fce016206ff028cc848012ea35c0031b99301948e7201b5ea390217de8e02ceb923034488e303f5585303be313e027ac7b10052933d,
  0x33255f02cb1a3f02f63e6f03e2757b024925fa023a1d8b00fcec240249ecbf017ce7da011e8bdf0034138a01c87fa703ea599b01a2886b018541120103415902aa2cce00ea62bd02dbc85d00aab104001723c60312f9f00184ba7300683f73037052a6017f7df802dad5d00051853201211eb900a295c6,
  0x36a5bb0198e7f001bc953f00673ed802aefb290370567b03b59e4602ba669e020b52a203b602fe000b01eb0032a7e0012543d700c734ab00480de703a990b5036dcd0900550df6033761b4033b3e0c0016fab7036ecdbe00ebd9fb03d99be301c69df003b31dd80327f49300f9ebef01bf22e7017de3dc,
  0x3a8377021bac4b03d1585001002b4a02df37b3002e518f01925d4f02baa14102fb15390035eb18003b9de000802aab03c2fe24023498790299c74d0120b94a0235d50801251ee3035fbb9e018ae5800029a114038f9fb602002cee01f6022103f899ae0052854e0004465a01ab09520214215000a171fe,
  0xdfa6d0219e059021232c10305b33600e43c5a00b63f510089442c01031c8502a4240d012aee6500158b040264ffd603f67cd100a8a3a802ebc35102e5056c03051e2a036c81210238c6180017a5f40034acb700df38d203ab127701623e8200330928000beeae0300209503cf6862014db713031c0bf3,
  0x490860142a53a028d600b00f80b580215344c00ad81cb02e4379f004c5a900009225803f3f2ff0002744e02722e10039c372d029fee0302a61ea703bfe32703cf4a06016d21f501b7712a0280525700200dfd0319e59e0273c7ee003507f0007e33e403be8cd900c7cf97024c566b035e439002afba90,
  0x3ecf4601718ad00096097602054a8b02bb6b5103a0fe7702034229016aa98402acd2aa015b22f6001b839a03a7adce037ed55100bf674e01eff97c030f8d580050d94400b5632801788dff0344a6c70009e0eb01f9b7f400be173e037b1351023f2a0802d5dc8000dd5a0c001ac1d7036f059003a4ad92,
  0xb081c034dd61b011202b001643bd603abd96b0247347602cc009b01f794b602f6ea7a03844e6b003a5baf02b39157032360c002c0b9ab00cc9727013d1051018a8bbd0091db4c00d5fb17020d115f0029efa3022e28e9007963ff0379b644009facd000d3fbea01aad7d50093162d030e349003ee51cd,
  0x3c4f68003bf2f1025983ff01e13a1801aec753014165ea0255c13a027f8c7000986a8601063359001287be03acd67503da8e20025b8c0d023ff274027cf1f702088a8801f0989902d6ae4001e39b07001f2146007206ea0284dfe002d566520302f43f00243c4f034109a501bffad401fe71ff010d28f2,
  0x8f5780360db34016b6968005d8b4c007925b3014a0dec00263941022772f70211d5ca0392ee6a0016baac0065362600e382b9024bbccc006faec3006221a8018afef40121321603831fd503612129003528e60314db08028baae100be7677009f00d803c563bb00ecfc1300451a39030b2e8c00f5bcf1,
  0x2cde5303e4fb5b031afb0a03a4c2bd015eda9d0120b65403eca002031d1ba00269528603fb19160023a1d900f723f20252c3d80250df9102d2099f03ca442d03b8c7fe0111497e011a603003165939001056f40178015d012261d102389de900d817d502b02ec50185814002ae737e01029530026028e5,
  0x2c023e02ce703c02688e29002187b102e2a146027fdae10187f2ee036ccd6400d411b9010426aa00311105001e633b034c01530070840003b4cbfd02f3bf1800cf73e2021f181000f1363203dba0d700083e8102dbb12901793e4903fb4f76026b968500fc2b220327fba30042063001b619c00010fb66,
  0x14a17e0335f05d038e3348020d70a203cc94f3026fa619027791cc0101d260019fed1d017bd3d400095ff700fa810e0082896e00cf9b2e0384056602ca2a240251877c03c990b803d4745f0144ee22000c92c7024ad1b9016f7e6e02d8ac31000eda9703168aa6006ba247012195f000c3186102cb5422,
  0x17597c025ed6c4025e2074032eefeb031f4f1701fb6efa0255078a03ce5a8f0249444902bd2c75001dab8d0018da1a008d61f800f7a08f03bfbcf40019b6710190739c024fcd6301fafc75012c44aa0003fc3e0125a08801e18ff502d0080f026d908a02837b3a02e8800b020aa6f1012a776203b0baf5,
  0x39775e0179af8b026a6333004f14a102525274023bb58f01470b340092860f02eef892024a60be0028dc2603d9ac760349a93701f40eed011a04d100b3e4a00008b89c03115dc8003791ae02811c080035d88500d87f4000b624a8010a069a00b757d4015131e2017fbf44028be97103bb4bcf03dfa39e,
  0x1b50ba0315d12b03dfc9d402e5a0020059b6c503fc73b6019e4126005746c102e17932012da33e001802ea0341ba63030ee67f021360c902860f2a02710b740099c68f017adb5702d3fb0100fffa5500035ea402cdfbc6004b165501a06f21015c6dc2034f226d02fcd7bd039495010386894900d639a3,
  0x9b65503c71cc40010031f03971d4601ccf8eb03e56c3c033c2ad50002f407014fd09503846750000713ce00343bd201749c8e03312da902903da2018de86c023d83be0371db6f0366b21c0284c2420035c2c50147a9d70183c93d031df5ae03c446d702e0dd4f0292d8a402354e6f0268ac7200643b1b,
  0x1269de03fc21d2030a3d7b02450849033918360093562d0338fcea01da66d202f3331f016e5b42002e869003fe99a500bea7ec023a5797037733d302f8b2dc03df1e59032e13d301450f6803595c6300123dcb02b990bd01b309ee003f5adb01fa86d80160c614007e15b202c4c42d00e3879c00e8496b,
  0x3300ac016d0d3d033af95c015a1726016129cc01d2d95801f08afd039c275b037b25200339bde10027e6a001be28b302c35fdf01f6741803031b8e009d6df101b620bc0094d6840083090a030531e20031c8880036d09501842875010d49540022e2da02ad16120089193f019c77b5029ed54c00896ced,
  0x532700174810f0216f48d03aa9982008709b501caf7440125c24603f2857e0011dd23000b402e0014c5280288dc8d0040e2ec0082e9fd0346b56f0358b511033fd0cf0104ad66032d4198004382810004e91500fbc08b032a1f46034095ed01f52f6e01ff07ef02bb623501fbfe4e01c6180201060082,
  0x3c1ff300f292c602407178026a972801d01bef02967361035008e700f358e70035ec5601050a7300189237000bcc2900d153ca0190675401f90ece00917e6d02f6f8ef032d63d30387a19e0291eff800068ea502820d2c031322d600fa501803498c170092ce76009fa66c03f8b0120065bd8e035f67b4,
  0x3ba91203bc60ec0060ac7702841f29009afe8f00629d9c02cd264b024bb6e102801dfb012a0c6a0035110c01755f20012646f70373e85a01560e06028567e1031e4ed902a8173f006d224100800d3e0015ccf902a5dba703438a580334ebf700da6699035cef1702dcae6c02d163b902a0b26803e3bed0,
  0x1103c4032981bb03cd6ebe01e4891603318af702c8966200452dd30085050503380bad00731ec10009a7c600503d7702aa66ff0002d4ba03b1f0b20014f145003ce8d1007c144502724e360261635600283fed0388b48a014a60ca008443280361c251012d40360239e52b03414eb60313899702041e19,
  0xab4ba02f6895a02e4642902833f3a000d8a8c0280be230314723601c9f5ef00cc67dc0127568c002592a701ab98030333aea701cb1acf035b53c700d9100b0361c0330241202e0341e24100c85624000673b203b1b2050069b3040172c0bc029a749a0355410a010d533500a366ff00fbb690036f5de5,
  0x8e95c01accfd4010239ac026b4f35009a5b33033398da004bb20300ff397503c6d5fd009eff82001f437e0295107a0112ec2c0214f2ce0216f980033b16b100e5993f0035a82001f962a7003ee20a002e2b8a0240c1380193707f0312760901bb00be03097a34037246450343b01402e1f57d00f40960,
  0x34e0540387462001e7006201dc27f00090ebaf029321f000596a92029accf1007452bd005a5dc2002a0a4600e26560038290a901868b8302a0673700429b0c00e3cc5f019826c40280dbd601fc9ba0001cc7c7025b812502d3c0ac006ea4240302859002e0f538031e1b5f025a9c7b018ace9d015bb67c,
  0x2d8d3902aadc850034f7a10122180d02e93fbf027266ba00d1f63601385cf20037055a01f8d477000c21fd02218a0f00e3cc2f015b13a30169099101b1f02002230ee9014cd7920129b6a401edd0b90021aa7303b1a3e4026e3b14003ad8d702774c0500f3e61d027bf22e0036d2a80111f86401235601,
  0x1b792e02a5150201679ae300fb1b590285e56c01e918af01abbe7d00782e9001d53ca3011282c20019847a0203c78e0364752c0313878b018d1e9403d2555d010d89000073bd7c0289888603829c290016b26201c38bae00d57ee000d7d78e01de7a54002bf0b400cbff0c01cef2d801d732c9012bff33,
  0x1d2660103d2b001518a7502ef53f9035b2ffb033bb5f6016c2b9e035ea4590362fd9500e891d600152aff013d1e1c01d72f950256ef1800fa25a001da0da90395ab4c014bae05018a80b600241e880021d3840134268c008affbb02a44c7600d5bef402431e8700a0c88802ad6b5903a117e80009829d,
  0x1bfc670121c07c0280816603c5ef5803143d3c038795cb00597747032e3137032e3bb30125ab8b0016931503a9f7fa009857e903556409004250cd03916ad80320e4c70056a281010de0e30204f2e60007aa10006e75b90239d15c02d576b8036ebf7203ff23bb03be238402924ab10294860f02d26b9d,
  0x22f42702fb715803f7300003504879014ff1c40305eef3001245c800feac1002775f6a007b82460010c7710344cbce025bc68b02f84a390321199801c26aa300cc8cf200b3096b012328a400741bb2003c235303d2be5d0227fb23031adc7e00875d1800fc0c6502004aab028b1d7401054ddc02b62a04,
  0x4e3aa02fd6d63023f1de703923e2c03514721013d8c440309ca1d01703acc0013a6df02c66360001afe9b023e2d6e0027047e03137370006958e70393fdf9002f498401ec9fb500f6ccaa006fe4d80003e64000ec9e4603e4522600be45de0140fb42018d313703b67f710094c3ce0031296e034f1b5f,
  0x37ad6b0284ba8d00ece77f00c88cd101562ff1001017a1001ebae10260078602cd3a95016636d0002d24e60366193901f12ce002d001f90035ee6303b6d6690314ce28006dc6e000fb3243030342cf0010664c01c673e101d267c7037f2b0201ba17810394c23d03b4eb7a00033d3e00fdd9980365582a,
  0x2565e0029343b0037f997e03a7e70300f6e678019e13080174ef790005a03303d37c78011ac34b00234465000b5ee6000ba2490231b00502857bcc00741f2d026a6ba400e4483200e3e0ba033eb95d0018dbb60331576b03607fe0013c0c96029b491a01353c1d027db81a005233a002ce0c4801f8b9ce,
  0x227b302b14df30139b6b2010e1b2202b1130d02624fa100c62f3a0150aa2a0248066c010d4eb00030a217026651ad0366ca21028482db003b1cfb037d69d901178e6c03e997d502954397018405bc0035450e013dac7e00f07a8e009576150054aa9003293f4c00fa3c02025477f603e1c5a903268233,
  0x3f494e029b050d0359cf560198d972012d053b02df90e503b75c9a03080f37031881bb0031238c00234e8f01969fe603daea0103d299c6006a63110290c3e70116491d027eab1a003f8a63021f90540004cc2f00ac884a0016762403dd1f780174191703bda769036db9dc005fd516004e04ae0337e5ae,
  0x15f06903ae5c7f0199742801c4c36c011089b503531a7100aea7ed0320076702561f690235f4ed0034838a02801f14029f914c02a27d59030df4ad01808821036970bd030ef406020f93e400220d23002b863602b96f560177b04003bb08ee035e99de039a6b63004ac2be0070db74021335b203fbb214,
  0x36245700de987d03b2ad5e02748e3302c7c62a024c1bff02d0606800ac69d802563816017b66d70021811d037469fc00408f93029d78cf022093b603e07f0300d93d8701cc6f400314dee4008aa153003cbbd100a94aec02d064de03fc2f1e00b13973034041e30207266f01a4492c01f71e3403c7df8f,
  0x21f57a0235b42d00c7539201df590002600065011d320e032dd47201707f5f0225f98200f0a09f00269faf00cbaddf0264d3ce02771ddd0382ba0201cce3d6037d84a2000dcb16012d1928038761130017677b0391ba0f0294fd8d009e142b02b7c0ea00a133e703cbea0102c888a80002faee01b1b94d,
  0x3f73790235e9c1015e722c03f793c90085d083020551d700e900a502b1627200c78c8b0289f2c2003e6f57006edada005bc3040300a0dc00e351180284c9e400b5cc0f03e9af41038ef0fd00e21a820033f8ea01a0d64f028eeef4003b49d00266c0ed0354358f0335620c013b54ad03922fca03d45bac,
  0x23ce63018612b2027eb29200392ad701a3781e01929c8003e1dffc01b4cff000a7fbe402ed4f4a000e6562024dce6e015352a603a88e07008f2e900079108d01bfda41004641960276f9c003db2a760014f57c00f53706029c92000016df3b012790dd02eef5b8007f4e410336b70d033bc5cc02f43f42,
  0x33e652032130cd027e86ea01375fba0223123101a85a37034254030397ffc5027872e2026de193000c70d7009bfb890062d6520102d7bf006b3b06022e5194009e83c30333b066028762f70184a69d00256b6a00a7409603914ff7010bb35703759dec0082f21602d1a8ea01977228022bb07d00e66c0b,
  0x2f301601aaaebe01f85f66000f2d1a02fa1bbe0009e793014a0f3c009a3e1403f588d902b7f7ba0006086b036a0fc5031ed3a90363a62f027decab03e9bf8b01884a060184fff0021c502e01e29702002be11c0201012e01c077e80101c71601ffa5aa02a1311902889042012d3e6201a0f58b01ae461c,
  0x10d8f901a7286a00b01d8701f94797004eaeab01d8cd2d01eb7c29001d8f31013cbd71012485c700197acd021c5ce70124fa11017f67b601f431050076437a02eb382902cdbf3100eb8b3a0299a70b000362800213884701ddbe080073fed702d4cd6a004147e402547df4006612170399137902e76928,
  0x2e235600a15a0e02a1cdaf02b451e3004c0af0000e572102f81374036c1bbb02ec77fd0297684f0011ad4600e69f5e016ff3b8015a73700272cd0c00378dda0200577002c4bbdd004624bf0285e2810028edad0136e4e300539178008f81910390ae4403d97f2c03787e9801b55db401521b2a020c90bd,
  0x3577ab01a9eae1001b3e7101520f0501092769034bffa0037025330394912f01b6206b02fe72fc000b98630133fcac00ec9534021f968b0265b7fb0227db85015ce53f00133beb0374cf8a0095ca120038b53701f77a6c021767660004bfb0033f7ea903124653039ce20502ff4dc002592af9029392cf,
  0xa04d203bb2f2700d3655d004fa58f01ba230300f6896e00a619230136d8f302fa26840020ce840032398e01faf0fa003c149501f04fd302d1b54002567ab503521ae303f2241f006480b603989037002c60ad00d5d96d03f2765d0086f9e7028cefb20307975b01f23ebe01cfae5600490fda0269aa2a,
  0x46bcb0161e3d20197032f0327c9570371d75500a15418014af46c033cb19e010350b00081564d00045b72025f6cb501963fdf03124b7002208439039e0fd103d4fdab02d0a1e1031a21af02d8e1fb002a4b170233a8d30011ffef0075ef8802084e240320b0bc038d44520115731700054fba027f74cf,
  0x18bf0c02e479b601351b1e019d5c6b0342527c036542230093309602d2f58d011c68cc03089a0e00156f090073e56902ad368703b126e303a9837b0048ac7f024ec1870333acbb01217b25021c09e00021192e01801df700999f3202f6d8f0016ddf6f014c5f5602f36bbb010a96280033ccc901e0bb79,
  0x3b577f0208210c03cf399f01a9cf9502c1b949030de97300113b3d01d5bd6902a7fcd300312dc6001f18d5018862e5024956bb01f6ef0a00a61208003976b902096c0a03983d4803887a5a00981e31003238fe0243ef7c03cf04280268ecb5022b9f98020dc01302d44e4203d908d00145508703742a1b,
  0x1722c024a84f801925b58017b48550204c86e0052cac6011d821d02bcb17203309ab10290a27a002ca10c0280b9750032e6a90116663b02ee9802000934880149e610017483400047ebfa016a9e1c001d25d50077cbd8035a532501d178cc0065467d0039d08002e88fbc0189357a0311ae8402bf1312,
  0x245fbe00cb34dc01e2d41f039eb06f01a468fa003750b501197a1502d08c5c00f70e3702d813130037565b030c19a8009c620203f7b2d203747b98003c54db021f88e901f4e819004688db03b3fa1800215c5d002ca5ed00e834b6033551fc02d4b8000012c0e30059204200a7fdea0361215000a0092c,
  0x13b0f101f0958c0199a99e00d41180034566e5016a0b680306735d03fd69cc00f7449900c32cea001d32dd004ba705002bd3320177a85d0191780f005f72ad0157574300a1c51e0341999900fcaac1003911bf034f4e1803f01f3d010bdbc9005ed9b303e087c700d87322011a45ea0006366a01e16773,
  0x38a5ee014dbcc600279b860174ae180398eed00208228d022869b200b29795032b197d00527f76002761b60321ccd00106b6ff037a787e02821b82029255f60186e78a012e6c7701b86ec6009fed5a003e6fb5012b712200ea2e3003f15e7b037e84c9015abefe0191cf0701a42d3b005cc7510355420e,
  0x3f605f0325d6f60216d57c02bc0a9001fec466002c9e6d003a9f0600d894e502b8319b02badb690013ad330176dfa101b3aed802083dc802ef417f03c3adc7030d9ed602b392ab010e88c70380557b00134c94027dacc40225eb240034219d0386bba001fd22740090c9fe0094fa2f00ef528d02db5a38,
  0x263f5027a9ff403d6de9f0324e5c500c9a065026db3b502109e3f029996ec005524ac016ffb46001a3678007d74460214b9320196b597037cdc0c02485852023fcc740074682e026dcee6036925bf000695d7002cf90d012f179301caaef003836f810123b96e0083d852001ed90500c04abe02b57313,
  0x165f9300e9050a02e06918006a582f01a53c50011d2e9e01f61ec80352ce7301ff9e57026962dd00036caa031a64e203de917000e9739d0175845a0250a99e0004731d038dc4ef03f17fcb002a97e3003285a50398467301daf91901a1483d02fe7eca03962df403c4edb802e197260397cdae003bf77c,
  0x1e714800359b7d020de4c2038d2ac9012557d600ef6a2300a762810115d14501207a420327d33d0010bd7801dce8c8022d78f6000058d603db4c56016d7176021d0b9400a57fc3037e53c400e7bdec0033c0c300c243e102a001650301577a03cab3fb01ea9f8001e9a6e7037c84180376a6eb0205f6ea,
  0xf4d0101084ddf002109f6008b95eb01ba0a0c012a38ed000731e202c493af022e52a501c1364c0034c4da02addadc0161de8e02d561de032b5a1303c7181b0004b8f403f92dc40309f80f02dd703900164fff0367dff6036c22ff00230f8102a55206038203b900edc17a022c832d0348959100ff264f,
  0x2e349400229720025731ea0238d19c03485f7603b483eb01d69263013e0bcd02df6538006b98500029057700681be0026d41eb011b7d5002d43d5c008780ee0125952e01324007026b90f903f31e8d003a88e303b9a8e201c693d102fea285034304ba028ec46f03067d2f031e85720376401d01ade17f,
  0x2f48ff00b275500249b9e5021064950264e20c03d24e4100588eaa029f7b8d00506eff017d8cca0004831f01ab4a4c011134a601da970001172ac501e87d76014c6180023351fd0199cb230290d2b0000895220351b2ab019cd05700b3e869010a6d350028227403a960ad0107a9ce02587da60205f7aa,
  0x28b82901a6700f0269e46502da5b98029c674403dc552e0391eb9401747faf024cde3300e9ec78002d384402b53ee901c7bb6e0119e95b01941942032db63801c1c94103bd5422009c291c00308176003cc48903413eda0293070f00375e0802d624ae036e255602a31a010362825e031b7d8f03d27c69,
  0x241f820281f88003881c76024b4565034ba74701ed7d840232036c0241e29a013a615f03d9382100215bfb00b3cd34034195f001bf8b9803157bf903a4725a02842540005399fe02457de60327ed4b0020d7e501e017580326d5df0119cbd800bbe06a03f7289e030e78b703e28a9603fd317a00f2bbdc,
  0x1f52027342f200e86f1901d462a901c196c003e6ad8901c160400196d36302078fc900d1888e002705cd0295d96e0271d79600b66dc0007f54da015b76b3009f46cf03109e380278762c01c0eee900141a2702fef96e029a281900c2d75600d745ff0393f08601d63d8803f335a902254c63020980a5,
  0x3bc78503c775dc026e56af0057562b03702daa01ccce2201d79843026fa5f101101b6400c822740004005c02843b6801ff4edf022220540031da0c032422110306c38702b266ee0038fcdc02a1e560001f7b5401be69060252f75c03be6bf7017e78cf00db0ebb02b17d870218b84101ccfc3800778b0c,
  0x196267020f3e3c0379a26e023cd1ad00e8b13c00eeb6470367b20f020c1bff01f3cfb7032587b80009bf7703afb66a033f49500082ba5002aa39700265490a03c82c8303ebd15a03d317c2008615f30034ff1601aa38cc019c17c0030abb620337989103fb8e2902e572c201b2593a028d6fcf032e1ef8,
  0x32ef66036d74b600d76dc400e9c35101d41d2d01d86b0e01a77ada01fd777d003a818b00e844c10037fd3801945727018b05910012238a00898a570178dc1102cd516803d240ab02e3b65d03103e8e003e6c030335789a0010b8fd00a6a70e01454267015e91800267f68f005e49fd03079d7f02444bc8,
  0x173d1200f8fa780203a8490302370d01229ff903811034024c0a3900689e6a03416668007cc776000cd18e018bc2150099c6970160edf202af90de02aef72c014ed0b80339d70002ed7bcc02c01a6c000af5c30029b0f60344032303be9a7202ba948702f18b37021f68ad02d90ff40157402f015df217,
  0x157f280232ee700090d77c027d455f03015641010601c1012d7eb600f12923002beeb203c438ee0026b82f03c8ec91024d62ee0080286402f8ed190124a9790328fadf03f6425c00d79eed0330c4df0028ff9a0138654402f0ce380186f86d02b0ddd10276b071009d16da001425bb0208fbed03d845ed,
  0x4cfc50142228602edab260044fcab0261a93101823eaf01977cb6012aef2f033edf530178ade50031ff670253973302ed54120283394302fb102b03fd8dfa014938270373ece00018ac9500a1234f000bfdfc0063034000b5a40002258a7a019dc1e50092f176015299b102136420032fee0201df47ad,
  0x5d4d30244287202bb138501a838ca00a10a960257f2880309740202f64298029c7e240338450a0013964402dbc12a02dbd5110124c655019c8d2e01fe786901fe157501ca2030012fb4ba026ddf1a000b2e7c0261276500fada3902605036025aa63802220e8203ae6ee400eb876902b7b0bf01ad8b21,
  0xc2852036f36c80127ad25035eeca90017e82e02bfe88902d21719030a08c3008d2342013eec1500087f5c0166cc9f03b611e201537b4f008c435d02ff766f03bb76600087be5401e6998e02f4165c0032c4e80260cdc1038e0ed50208b9440009534f02d08092034280dd02c1ce9700a6a80903550df1,
  0x39aa6a000ef8cc00a87b8d0001725703802c7e02e415640250ae3f011771ee03adad3701688a610022a96f003b390b00e6a6dd005547ef01e9ab04023e1a1803138efe0293953201995d440028b92d00308e0e03aa0974016531c9005c8d9c02f704e3034df90f0042341200734f8a024651ae02fb1d19,
  0x15e3f4005de35d004ec68c000bbf02004bd02503ddc8b502be0cdb027f1c1601dc1f91012b8406001f688d03c0791f03a8d56c03956f5400d9b56c02c4475002dc5229002e63c6039f537203ad20740023dd3303ce356700cfa72703c9e48501e3963900a8e7bd03fbeff7017c79ea004fbada03dba6d7,
  0x1ba5ab03cc6f5601d5167301fcd49203c2ee63037c1d3402cb134203e997f402628422001087b6002909ff007bd1d80221ae490289b1020305808d03b0cd41013a0cce00db449f02de0b19006769fd00063ab800a4f26902fe13b302f3e1c602c93ac000065f1b0255a3a803a7ce5701a9a0a101c7478a,
  0x29e5fa018b2b200023620303b04cae0035eb7a0171ff9a002c1212022af14003979274021a6a430001ebc500c625d300f80928029f1cb6027c482c03bfaeae0388968e02214fae005ebc6901222fb0000909470135b70002adf0770245230700eb093c00250bca005eb382021fe95a0043e74a02e175db,
  0x2b8c4001112942012351f301e5dd5202c00a1703d027c401befc7b02ec52db00a0cd160079840a0022bf1600931f240059923a03b4ee6f002afde1003afd4902deb8e201ea3d630148281d00fdb93c00324e2702ff308f01c981780397281c0243d92f00f5868101783aad03df26c8019fc33e02ac5d9b,
  0x3e4cd2007332cd02e3f999011565c80136df470164eccb01d06c830114d307014beec80227e8f600148dab02922bd70096292101f5703103c4333a017fbfc0002dfc8600f755250126e0ad018070540029602c022e48b0012b803d03a49ee500aa46fe03a345d003aac8ae01df25a40034450801a62949,
  0x253c0a00eb2fe002f265ec006dc9790082621500f4524a00e1c2ff006a721a02bc528e03ce4f2e00303ee2035b3b8602ca829003b8676000c7e6b601eb81cf03554c1003cc47ec00976874002fb2ac003abbf702053875023f271401b44a9f02a5a2c901c851bb034cb5140069d84b02ed0af503a1863a,
  0x3bd23e007499e0003c9cda01dafc8e03be23880244d135025bc87700b402a80002fc9903fc4cc4002f9b1002695e7e0289d092039e12db009022240171f3c803aeace7026cc4db0294b43c02eed02e001ad4bb0186345e02efa29b017ad502026152d50151587401773197013d486900c0236c01fcb294,
  0x383a8e025c48280308606b00c190340341dc3802e30dfa001210e0010002360369dbfa00d9668f002dcf6200a91dd9035c34f60397b964035dc21301a6387d02d3186a033489720059b66d02b17b1300181eee036fd442014a6e530291378e01d40fc10248022701be25c800faca7b0277ce4c010e65a0,
  0xad93800ed26380143935c0262e3b7014e593900b8fce10227ce0802beaadb02406745020f3ed5001fcd8b00742ed102ddc7ca01b89e9200a2ce7f00d85b4c02b27f9300cb284801101f6103b71ccb00139cb5026df304028488c1026161ec0038f28d01777ba7013beadb009b157a00d889760078dcf5,
  0x345e03025361a902404b210190135d01d406f301fa2cd802c0a13501d9a67701bfd3c802f4ee67000289c703dda8970142501e01d1e8dd03c55ba601773214029c3b8203abceab00a2fc240145e2070031880101c715ec00bfef93030f85a700f4aca000a82d280096d0cf0371d0f402b94f6d0281f6dc,
  0x1d1a0c02ba38600033f1b102a79d0901056ab9026bdd1f019dd89903e65bb7021f7bbb028f4e6e001333ce0215598a004b972803f1d3540237038001f9d9d0006a860e03b1a07c018a802d0032b0d3000f875600bcc24d02ec60fd014ce9980318b0cb03c53c160150ca1d035c1e8403a8340d03828c21,
  0x31a11900b73d2c0146446a03629d0d02f47af4026697cb00103705006a6e9d006cd5e700560cec00352420039a9e5003a4ad85011636df01ef522e03ae6f7a0303f0f5034a039200030fcd010e49d400394a59037afbee01a82dd30157706500fb982402aca69501ca52ef0109f89501638859028cdeeb,
  0x3cf38701356b2f00d0070e01971280005a877d00cd52e1006077c50122574c00181fd302c65edb002de4bf01c49cfb003e609f0195bd66012939f9019f419a0318be7b017f75e20291208701163b50000f4a0b03f7c32b02d0826003826a870108525e01396a7902f6fd4a001c19a80126e19f013483a1,
  0x336b0c00d8f0ae0341fdfb0230240f00d96d4003d51fdf00cce69c00008114004b627103ed0bfc00126d9302483e570069245b02cf251501142ef801b10e8b01df7cc301a48cd903b58fcf030c1b25000d842f02cd55ad019f669c034ec108011207f600a0ffef037b6c54029b40e901a9761f02e30ca8,
  0x20695d01005ba403e140d503cb50e601b917a700003fde03ce0f06006faf6000de3e4f039dad9a00058a7f01992d0e01c615d601e55b480210ade902aa3ce503f97510023b8245012a1c1a003fb0aa000a2cd502de55c5022c8f9102394eca01eb0da100c93419026d533c00d6d5730239ea2903c9ab40,
  0x194558014aa90d012e33480134153601d4eee502ea9934026de63e01b4c4d6016b9d790150a2d60034d23703769bb2029990b40089df2600d6755d00c34ad2016de0880005966e017b0192028bcf03003978bf039ac39902d7536100a4e79800906d710268fcab012557c80360c9fd004610220164cabe,
  0x11f5f8030bbedf03d1fa2f03b0a14e02effa4102305bd802172c7d008d291202e9bead0342ad9e0002fc1203abd0fe0178bf2301c04e03029875a30292bd2d007ada5b033ca58800e08a070240a6460011b2bc020e18e5010e27c8028d5bb401f0db16034444bb03a9247b023e938b03d984b203cdb2c5,
  0x12a29e000f5ab303be0ad200837d0400ae74f0002c6d13036bcbe703ab2f3c0060b6d301259da000175eb200fcb12200720d8302b16299017e95d2035462fb0084ab6b01a4742d003bebc00191eec30018c881005c8284027b9fa602cf7eed0182e2b100759fac034f1d8301e5dc7703e5794b02deb710,
  0x2b2cb30047b86702df428800721e60017b19d102a901a9030d03b601331ef303d0a4be01797fa6003be26f01f1933b02fddd6502dacfe301eb224202e8bfd201f88ea202ee4b31013fe0740197d26f002453ab02b6b69803eef88603f7aaa700bb884000b22f2403f4535c02997658014a49f9024a5339,
  0x3d7a660103b00e02afe64703d30b8402cb7b5200a78fc8009c12b2028d23ac00b86dca02e79d250033e0ac01a30e330155b1f2023a3eef035b55c90239a9700150e1ba0374ae0802262935013af3520006ab6103c76d3901766fac00007410038791040236a561037c2225009e5747005f08dd003d954a,
  0x31bae800192d490231bfe800840781005791b30066c49602f48cd703e811a7030ef0b201b9f96400389df8024c14c40114dd2e0127a010006c8d6303796aca024d04db02466080023972ed00bc6a0b002e170501a1bb8c01e8194903b8215c00624f4e03f1314200354a6903b9ee6e039971db00444e58,
  0x21ace00027f81400be8f0a021d949700464b75037cd7a800f74442008981860193e03100fc5606002c70ac00d9ae9202160f010350eb7d01c548c803cff569021bb60402313efa0261935a01af3bfa002de61001c6ce0803444d32011873f0031ed2ce0065a98d01d55dae01f3974f03c8a13202a695da,
  0xabf6030fce21001a140a011d492d03a54d53030d6d5f00c898a302ab8c930351200b03d550ec003bc2d00194ba4d027bfc770214c0a201332367025e585503b09fae0093a9cc023dcdd2015a5d08003d4f09000b508101326f55008d564a00eb3c0802090548005ca04901de6fe70292247b0157bf44,
  0x241b15020ce4540392649f02ef6f7f023d169100dc679601050b59014fd489008b2cf9014de34f0039257e03ab994403a6972b001137060230ad82002fe77000b1494e01fd3f1a00dc44190255bbd00016f8250190089e01cf078d03c7c51b015db74600c0024603275dd900f2589b02af1dd60124549d,
  0x267c3a002a436202f5c78103df5f560130793b00a3d5db0007709b034c07ab03cbd310011f62e20019c1f3022c35ea01bae5ad02c5146a004878c001a4560e034cba58009bf96803bf5b470156da4a002f22f8005e8c1d00ee0d5f015a504702cf36fa03c5a0a90229e47b01ffd37a02e35ed203421469,
  0x30e877037427ab0067119c025acb540361bd6200fd662d006262390247aab800dac373029ea34f0020feac012ffdab00367e5102c3508800525bb80217920c0046b652013105ce00c143e9039a67c9003b7c7901a32e3601cadfd0010175a7032a57930060e7c8005c6ee1002e79c3022922db024d3f9f,
  0x71b600117f05401f14f1c02d2010a0148062f0374c3790045598d03364c03014d82320259c3be000aa53901651cdd02b01c710211d3d8025f7ea9010d61c2007d5bf201f877ab03b92afe000d344200147bf80343aad701e4cdb801b52e7701d8e348007e87260335035602c175130144d6e40382dac7,
  0xc389302f9b33300b6613c02f07bdc0113e31802c67194028771f2028143ce0236774e01782bfa001bc8f60367ea8e005ef45a00e2614600fe3e9302a8f7a0006985de00b851ca02f0896100037f3c003cbc4a014497b0022eeb450170d3bd01573963020fa89a008563a802a037b902894d9100b45967,
  0x1c016a012226210398b5e000cf3ba30105037e037d7dc702fd093b038ef8c301b68cce00a6babd0002dd2f01cf40cd020140a003cad7700030be0701615e810252218801852a280360bb76028b312c003c025c026c14f0015d2b7300fde5920106a9b501668fdc00cddfaa0117155002dd4bd700cecc99,
  0x379b8103d6b1fd039deaf8004d254100fab8cf00411fcf00ac80530046f85e00ea2ea303acb6a5000901290095cb4f00392f3d033acd8e01cf914b01bf175a01d8cebc00c4901b020a7463024fd4d10026067e026d183e010fa95303c49ae80057238b00f957b2022da590004640d0015f6fe4035a7348,
  0x4cb310204f1770105fea102f58f1d03bfa12b01e45b14022413b0005a633d00aae2d801f4a3cf0001676601b2445301a693820030881d00b2054c011bccfd02cd677f03d794fe00a570b5020e625900060fcb0276c8df00e299a6029fce2d00ed0f05013f56500023b65201f0794b021bcfac00c71a7c,
  0x198997038b5551030567c502e1834a00abc3a2034ca1b4008e478f03612c9100c875e7001fe387003921ff028c691e02f23f3e0170ab0702dc5fdf02eda81603ef55e803dd9e96023aa419006683ec0017d60a00b1708a03fe162800db27a4033566d1009fdcc3030826ee006e07ce00f04456021abff4,
  0x3835470311993c0208d06b018d2b7403e148e7018d12290146887303f3e1ff010077ba01732972002383cc0258445401717121038fcc310296a760032b05d50283b2fd0107da5d00d3ff64027b38f5000938b902fea8ec006169000004b81402c0137702e66f7c03b6087201c4807602fb0fb501d4007b,
  0xbd9670115e77e00f2b42f03767e0402cc2bdc0235cfed026a638f01de22fc00c5eb29018e714c0007d1830194426d038582fc03df321900e5990e003aaadf0014896301a280730190630d010a1baa000c11e400e3831b03b10bbe00e61d64009f02d803c86bce0266f1f8033b63480372584000f62142,
  0x24d0860023520500ccc3a8036f16e3034578cf02acdf4200d814770063640f02a1043e00f4c361001ff36502cd016b038fa4ee03698324000db9c3035b6f3b00bd2a6a03905754001300f90318535f001fde8c025bb233009cb7c6027b5b86036f277400d60ed30240eef0018b17ac03e81f79029d2909,
  0x36dfb50067312b01b5f71f0056b96003efcf04036706c501ed0cee01c7e6e10334c06e0240fb8a00280e760351623302fa888c03847c770346283e03d99beb038c3c86030a85830069ff310265ca28000e97c90358064903941b1d00396bb9010757bb009c8b0f01643f8f003ab6d901fac31e02b9c8e7,
  0x252662010dba8900574afa0059a67803c96c5d03a30f9a00b0db61006d7ead02f592a80233b0b30027e7b600f429b10218163603fdcc8402cdc2ca02efed23015f2b9303a6955c00638fa40202a772000d56f602adcce40337dcde03d08617034fcf3c02a0c5b003c1cf2a027500a1011f29e2000fbd1f,
  0x3b889701bb485503fc5e8b00ea40fd0036ba8a00b9a18d002cdb42010c318b014b9a05038d0243003ddeca002c9d8700975eb80277764f036c712403807b9101dd43df02b1b3fc00996b70019adaa4002abaf000ec7e4003a4b061007162f2031a3cd90010258e03ca5ff9037af23c01d8a608001dd1bd,
  0x9343200e197080212231d0279655700f7fea4006e25dd000c8dee00ef406d02a7d40f00b6207e0014367a0374220c0001773b0281bcd800b3b78101cd361603de5e9002d077e402273aa501e77d890002595d03530c810161bb9e03dcf3950180077f01b82ac300567ef5037eefc800fe9f0601f0f813,
  0x3eeff2009399f602b4bcc701ef32ab03919a9d028e43b602660e720090b8990114d2e30396fb10001db75501e3eef502a5597401e1441c016c5d4903080e8a00c658ee0144c690001c158a00716925002531d70372250200547cc303d5f883030e252301061ed70055fc3f01c7beb602e8641b02a39035,
  0x22f8070072170a00c2d4770072b8fc0055738902546888021f7d5303c4d5c60208666801d1e427000d721c00d743aa03f5b863030ff5950028c4ba006c858b03ad0a9f02b93d0602b39b01001b4652003dca45034e95da0194ecb103a5570d02c559ec01325a8900e674940172a4f70020d59902f605b7,
  0x34134b015a65b5019f14370142e0cc0103578403d10c6603ac428302d1f9430263497f004f9ea20016405a016d1b0f0383bd9f03547c5900a04ffc038fe047005e576a007f70810174b3e303706fa90003ee6c017ab73b029cb93702a2a7cc03131856016b93cc012905b2039aa29503d90d810387a531,
  0x24762f000515d20100805103faf40f014984e502d5a5560058ad4f01bda595014d09b800e390890007588902a43fae00808f830225e1a6036b7e4e01ade28c0179fa620372346a0309188601ad25a300220796025f0be3020f900401932d0803b47eb6010b78ca01f80d5401b5b4cb0093d7b8007f776a,
  0x219616010897f3004e4d1f03d5f57601cddf3b024ecda402f48fa00131b86c00e4b96500f46dbf003af88e03b3be110263598702c671b402b4a30402277f340335a70503453b1f023de66101ccb75e0019f33c02fa08890055b4aa03ca117a027337df0291526d02a636a00009796f02f804a6014fb87a,
  0x2197c02a33b58025d850600bd294a002bb81801be017c038cb92900e65f6401d6a22002add245001124fb00b3ce2a011e168903c2c3db02d9c5ad02b841d003aaa52c036d79a60391bafc00ad236700380d8903d03c140147dff7035e2ef5034e7c090057c556003624ce00de62020039387102ee90c3,
  0x67ab1014cca080070ebd703c1488b0217870e01c6548901e775f402bc4a1d02f2db71022295960014c85401860a17026e221f0210d7180167d68d0015cbc400e4f5c7019ed17b00d5c0a7036b56a40025bbe7021ae68402cf12b100d2e4d70385e20703be8e6f028719da001b5d4d003838a3035be449,
  0x482270162ddbb009d09c802d71e49014f5bca0205f58703f00e10027de1a40196670b02e12ce2003e72ab015c045d0065b89102012bcf035f26b300cc5d7902fd096603db45250322d242008f4ea1000270710379b6d100f2dc5701543c0b000781770039201f038b8e1603c00b7002c8023c018ce13a,
  0xc537400ee74a602e2f65800bcaff900def48502b8b66a02e5855e037366a402e204d2028a66f4000b2445020d94900140aa8e002e8037010f816000bd5157032e3425039d858a013b352402019b860007b4c401e65237019d0e5003a43c3301624414004c6b7403cc24b201cd24ad036dde9b00874d7d,
  0x2d6f5e026ed81b02c928c2018ebc43029ddcc2013767080201e82a0347b93c034a5b8201e3580e0022f06f03995b8502f36ddf02f734eb038bbd3600d6ac5400ccb68d02d3782d0001dddc035168f1003e91a10219671f0318773a03fa82d200b426e20168663f03b938ed01f09d6701347a3402d76915,
  0x2281c005c74de024bfa17016c5c6701b5d17d01100ddb022e50f503714f7a02186bc702f0ef690009404a02d181e200b4eda102ffcf0502caf83f02e701140371eeff01212f2e01f0e90201df2c290006a65f0297bb76017accec0350fc8103cc5b55019f2dea000d298902a310cd0124565a019bd65d,
  0x4fe440335632e01a708fa0354b4a3019a423703172bcb03aebe8702383c63015cc76c005ca66d000626dc03b7621700b18c1c0133eee001936ead02f7b3750113407d0246dc76025b48c7020ccf270028c5db031c96920376e52c02c7ce6503d07b5e038ed7240385a7170040b70703f15ee40098ca68,
  0x3af65033723ad007f51ad02b1c087025b55f8020b9f7600d55fc3022a321a0305930f00d50665002aff2403e93f6a03a38ee30141747300de47d6011be1d803d61f71029beb61029c2a45008a4a1b0025dfb103e83212027ee3be01dad81903dbe779009b156502724df3004782f902c22bb303fe15bb,
  0x29a2fb00f74ff50153eb0400c7728d00d3d77b03b24f11003683fd00dbf6b5002ef63c00495f1e00058f8c03cbfaaa011bd00c031c4b6103df99ab004295830211a83601cc8f5d0223922703ed206e000fa98602b3fcf003d41dcf01469a810169149100e6c3620386cfc101d8da2b01757e080345622d,
  0x1e54de024529fb01eafa28005169ea008361c802bc6eff03c30f4e00d6fb570258377c02b41fc6002856f2037f2ad502cf4c1201b52cbc02217c2401671a3400ea45f8014cc511001608ae0257754d002ab660029b1cf701527fdb0032ba6203d5a9a402466b1401e7482d032914d300945e7203c6c499,
  0x37f6ff00a886d302e1714703d6e71203e7ae1f00dcbef80343a8f603ddd36e02d2c88603bef9870008ee10006ca7ed0278bde502ac9d6d01ff6ae00073724b02fb718c021f86f7037db67802af301d002131bf0249c23500390d5803ab0098039c3c7401c5273d03007ca602318aa2000975480220f4af,
  0x421730142746e0067cae5017b72b4002c543b00368ea00398ac6e0381c9e603e43a5100e45309001af4de00038b0d00e45027022688d403e0f52c00fae16a02269baf00947e55017b49610163af9a0038f15c034a101503aa210c0177b300033d633002d8f14b029754e20124c7e600a1de6a037575df,
  0x234a4c00bd685601474cc103e9425300a24da303e48d640374409a03e233590288d1fa02d580b5000b59e902d776d6032feda801f7fbb600739e120310e64b0000d5c5010c371102a0290602a63ac0001d5c22021b5865033b151a0203e59c01b8be2c0183db2c0170aeff027269a8015261b700125948,
  0x2a595e024ccbf802c500de031390c7014f2eec0148f319008c98b802d3e915001b35ef003369bb003b8fed01ae0c3601f37a7e03fdad1f026c21df02db1aca004e6a9f016c57fe00bd044302a3dda700366a8503ff654700ac6cf502554cee01a6798a0199ff6d01d7500900f44fcd011e1c3202f44e06]

/-- secp256k1.go:10, serialized bytes 399360 to 430079. -/
def tableRow13 : List Nat := [
  0x0,
  0x30d6cb00f82111021fdf8303398e750020f226005c736a00fc17f701ece9be01306bda036198b6003a3f33013580f503dcd90a01d80c8f01b400340332ea60011bcd30016e2c51029299da025e8cfd002bad27010d0efe0268ac7a00dd449f036f7caa00fdc8af01e6739c0233a9bb02db80950025263c,
  0xbb589007d3b0100692e3302378e9300c8e64300a6c82f027297cb00ea1eab027970f600398da5002ec1a4027781e302a85383034cf0e401cba97e02bae4bd0136edfa02dd07b00226c71201341f0400032fee0352075903f35d760397430102550ff101e8566100ece0d900dd02ed0221d79700c4ea5e,
  0x1fb7f00ce596b015cc0a5036e1d1001c5cb22001c594d022257530031c2c20157675e02a874cf001bb3b60265e3a1018c109f008dc4b70042227801d9f914030f7fe201b4f0c3037c7b3200d67b2c003fc53a001e33c900fa42bb030fc7eb027b694803ce6ce103c52be302e6164400e6ddff02d12c1e,
  0x3cf696026bce4000a739160304faf302ef5b5100c959ef02ead5060040bf0d03fb413102acc2f00011a27301c5061901f0fd0a03891199026203d30320b74e00f65eb101bb536700f638390120e7a00022b3880165f7560302a462000a699a00c470740337a4ff02c6f7780154b07a01e22de90052ea0c,
  0x4bb0d00e0ebbd0173556301e8790d006d529200b20b1b02f7b42402b0984e0094dc61031157020037395e011b2a3102553dfa012644a60173939f026dbd8803328bee00eeb733012d28ca00832bd700106a42003218ff0144b31e022f8cb403e04efb02252cde03207498017dbf4b024957900013185a,
  0x3e12e02f9d3f5038e2c69025e088700750e8a03df3e9a01295f72019bba36005a1abf01ab622b000828e902a9ea8400cd5a6900670ade0204b45b00648502020c5f1602f3141b03196e53032b880a0024bd470203823a021e477c0013be4502dd088b033ea4a500ebe55d00b7127e0281a60f00951d04,
  0x3ab1c002e6b7a001512ed701aa8f9d037e190b0144aebd032fc30e0025fee7024ed06403be2e9a00104c8c01ea4de9035da4650212fee800c8d2e402a21ed8036fde350353f21b01ef770a0178b9850012b42e02b9a1ca034f04700213f5e30382dfc902d3e52b007b982f00f06066008cec5b03701bb8,
  0x1cbd6d0215dcb101ed4944011b8cab03205de20387cbfe0292c51a00ea0a4f036e5bfe021e1065002cbbba02b97c08000ac5cd011c43d90306fe15010faff00356e9d202c5bb11003e09f601eaa2f30010e70d01ff36620264387703b7c03800b608df028d5901024438540227df4803ec116b00dcb9e2,
  0x11ce9a0357e75e03ba5bcc031780e20045fc3400e3a1120199ed1a028f5b4102792a6602d0140a00236bb801858b0903b94a510196bd9e034ceea301101db0021dbfd503850a8f03de39e803e770b900207ef6003f5946034b30b40372d2a500c2fc830158ed1400591c3d013cb2ab016e7ae00268bcd3,
  0x3b356a03a053c900459ed400895fd402ef304e03d2690000039b870198bf9901c5f70301615fd0003436d20188623203c2a2a203c7131c006818fd02fc5dd1000d819d001ad8e302e9568602b43e0d0017c39401706e7f01679ac003f4295501c0623e0291a3f4032a779401869712005b6e3b004922ee,
  0xae80600851aaf01bf5a8b01292b3701f1fa0c000f46ec02d8c3b6021a7b6501f1c5960099f79c0002249a01ec322002de5f5501e90bd801c42b0900ff6f7002029cbb03f7f64003a8adf402487358002de10d01626e78023c727f03a9c7d400ee34b003b4a9170284011d03be8424027be24e024a460c,
  0xcfb17026f5b0602ddd33e03ae33ff00242c4a02750a37013f52f400ea91c9016a1a4d01cc09740029986f03a8877d020eb26e01449f610075f2ed012409bc00ae75a500882f580069e33a0363720c0006ebc901631774001e73100277dde301af30e5019f565400afc3470247535200e095420389fcf5,
  0xc97d4019f3694039a59a802334a2301dbfb1d00e244890240ae1e00725da60103f76802b99593001da3a0028d84df00fd16180202c5ee026104d500df02c900b974850117a90a0211502302ece3950012a006032be371003cd7fd000dd47102e115a9030ced9a00cc90f802829aaf01bcdb6f0379cc35,
  0x3585fa03b12a8900c865bb03ee73b800a2eb8e026cb5f1000a59fd004ed65d025993aa024b0619003793000345c45002b4f47a0383403e01951c62007eaf40027102a2015c799f01ad9dae02eda372001b3ee802104b4701079ad502b2d6a801d5be5a02c8fbf103053bc802422cb8030aac1d00f1f4f3,
  0x3fb9802e6e30a0095eab7002b6ab60321e364015ff9c30045594001f4581002b93f92022930e10001939602ebd402018f427d0005d91000758eb90266849d012e22e300423f2c00dbd43501224758000a587f03d3157d02969f5100ce427203bc42950019b3920035a9a8038c173503b7740a006181fd,
  0x3700f9006262f400560286038295b60337619201b002d50279e9c0034b0edd00ae660300083a8b001f6a6b01696e9f033f138c001846a70028ba2202d3f1e603c1a4a600e8f3e302e999f0021d4d7f00245e4903303cc7021b71b902a9c82b01d9202501a92ffc015fdca902147267007def940290fad8,
  0x39e04e01790d0a009e6f3f002ac4d301b6a4ee03924efb028a451b02e1824703e6294103fea68c00043f6c039e40d300141d0a0058344102d0bd76009f237b00c178d502072a7a004fc58501f295f100002a3a01b8a14e033fbaa502b65174035bdffa0343c25f0238b7e001ea08c503d1f83a011307c8,
  0x15e21c03fbaadb02ae3f3201dc633103a3707501083f8e00c8a71203946e8b01e9b072027a91bb0011b32602a20573028b8fee00e435ca0153d06d028f30f702314ebc011f52fc014cb674004d9db4002a0b68002c22290213d53d0143e161000c0ccd018b065402606f7803e12a5001bd4dec008dd261,
  0x3f214d02869005001e27e00017f01203a0ec1b00b7347902beb541005c131801e9286702bd07bc0011d68302c21696039c747100f734220221ac85027d005c01fc0e6a02f4d9f2024c5d9b03245374003df0c603d0a46801f61c64039840db018240b9018698a0028726570172924400487c780181597c,
  0x3d27c4014093fc01ce004c02526a3b009292cb00ee2a3102d7a72300de8803033d4ef7027c3f0400188e89031f6fb50322c81801cdea9103951ddf012438e00396c0450019474e03c08dfa03f06d0b002c79d40352428303a879c302473bd50164d02500febe7301af02fe03025d550083153d00e18df3,
  0xecd0b00ce2cc3021ba6750259c36c014462440027a07601abe44c03070ac3009e001c00bab8880016631103cc16a703ac7d6c03c4dc7603fb6e1000fc96cf01b1d9d501cd1d0300bf0b3703f977de000f23180255f2c701d0ab8403f478a700fad06803f16ef902a55b8400d6f395033c223702ab9acd,
  0x29934a03ae482000a4ed27027b333c02ef701d001aa72c02b114200148a71800c4827d014f82cc00349792031b684b01075b4c01cc66090286547300378d840202bf7d0311162f0388e28a025d078f0004c218019fb70e0031409c02c419fa03ab077700ec902200eb86f30333dab603271c4f02f0cbe3,
  0x5127f03c5d54a0169e39003f052540203d61d034ff7280165c9190009b50602f3239e02740ebb0035501303c6fbc2005f4177004f574002a1941e035ce0bf014959b20070ad27032b40c80357a3ba000c091202330d5203373d3c014eb62c00bc71f00079b7bb03d1dd41003e69d90254dccf00b9b0c3,
  0x31d329029ec77a0373945c02c66c950299795002fe5e8d02dafc9d024d22a3006f44da038d5681002bbd9103dfb34c0006b89a02a3a94300d9199d0080c95800fa83c300f0fba303bff6ab019b574b000fd8bf02cf2fd302c6e64700c23f50001be31c0031041201e8b4f000fcbe2d02e3131d0099ed0b,
  0x319530226558a0073845d01c4380501e40dd60128a3cd02c17344020ce44000cb17c400f95dd600154550030907cc0070f16e018eb9c8026b0f4901c58111020863ed01e3032300f4d937039f7d6e000bd835028553090224839b009a314b00eae04d01ffccf6036244240238cb9600db70ca0073933a,
  0x25749201d049a5004c2bd701b18370010d4847004f471501ea565302f747f002d772b503c9dda00007c7c3007726a5012436a30270755102eb29070201774c00332a1f03f60a9a00bdb05203e55d1800217ff70055a81b002aad55018c0e1e03279fe70170262f02c197c101c627dd00685da803c9616c,
  0x2e8ea0032b7d720133318003c2503f03e737dd0348038501f10e4f0141d5f201c6d3fe01871d6c0031cbe3020a84e9001b8d0000679b600274aede00a820bd03e5488701ce079c022ff4c200025c4e0010bbe903f1695200602ecf005e5862015eb23e001e6d9201d8235002fc6103030935bd03c42d18,
  0x363e8902b12d1900218bed03a20d770067f6e20195d0db020803c202e220d00053cf55000c8357002e22490376fc6702b545dc0177ab570393b7fd0340d4ec03e0b4b700ca98e803e01567038f2bd30030890b02800e1f01b155a50074357b01d9586e00c9cae703041e710185d743000c7d150235505e,
  0x20aebe02313cbf0025f65f03c6124d03d8e59e03ad219501e74f3f0052ffbc0326230a02fc4b96003316c70206bf3b0178762a0200b1410143754d0114cf3d0232588b01c9678a0265b2c40297fbcf0012cc82023ab52703ffc587006efe0300ac1c3103b70a2102fb0ace02152f250208fce30318a5aa,
  0x2f92f600f8288f01d2189800c7d7ae033ea11700666c2900482e48012a7e0100c355010115d06700149b3f03a1589002d1c9b303411c7d0055283d02ba6f2401f54e6a007b757702ecf5d6036348de00218ce803602b07036986ed0375881b004058d703211a9202c93454023f998c00373a610284ff38,
  0x1096f501589ac700e8e348034611ba00d53d9401fc1bd6014d6fde01707e8d0077892a02a8baf80012d3e2022d4496009f74ad03c66d0503a48d61028bc6ec01ab666f00e1c2ff009bf7fa02c2cc5a001d777f017ebeda02c1f32c027f02ad006d667e009d994e01f7981d038495b901ea27d00174f38f,
  0x1bdbb502601016025e2cc90061f6bf025eb1ab02f9148002e8cf2803ad0704016886d90314b8b7002f3b2c007057120098edd302b58172005cd9230206c8a40198debf01366e3b03dd7d240367d2a7003841de00b51b3b00475bc30008ad56016436bc008fa3410059816900ab03de00abfdbf03696490,
  0x3e58b80271ad4c0194a3bb027eaf4803b8c67f0204638700a3f98702d8927e0368c6f40180403e003ddf6a01ea26390394e06c014282e003fea002006c478e005755f40075df4e00be6f4703fcde130028349f016ff4fc0290ab2f01fbd76d01dcb69d019878340330f5bb03ab517e0226d48703ac1160,
  0x22ad17012b50020389bbf80052f6700135e8e603a4df3e02145e74026ea221021e85ec03ecc5a3001dfdb603610eb6016d2e0601229ddc02cb5dd4017c077700bf7226009e3c5103a521050323905a002c46b20317ce2500c69c4a0059390e02646b4b03a59eb9004d96e203ee97fd0238b405014046af,
  0x9328e03a9fc59014840fe0089623a01fd65820130c87b0190588602d19ff70000110f02589df7001c5c110244917c02b04ba202f139100138f8cb00ecbe0e0207b0c302113f7c0226532703c31438002f1b3a02028830024e2f8802eff3540067f6d2016f284001b3898f00182d0a00b4f0dc037888e4,
  0xc5bb102504f22019261a102e5599001e8a7ae02b56f5701306a05013f7162017344a3023024930011a8c90341be63025257bf0260e6a803db704102a0720202bf479f02bc6b8b01e6c02f015c01e3000d5ba80169d58001e12b2c0008208700cd480f032ae9d602e077ed019273fb03e5751303286ab0,
  0x2b5f040177489500f700e002933db701347a92025c983b00a8f9f7016d35ee009a887200df33b5001c8d7100b2a60701ec96670195c3a203acee4a01f5dc90026f417502e945f600fd232d0195555b001fded900829a2b00192ce300be0721031b34a402c7e51e00ac9ce50385b5bf035b9ac303a19d3c,
  0x1faf950130713603777a14014813e102067b8101a0dd4a0225064a01140fc2015770340186ddec0036911a0159d20c004caa3c01a86b470188b8c3006484fd00caac3b01a4567a0355fe0d006c1893002f598d024a83cf036dda40030175830329ecd403d35fe302a42afd0005e9fa00504cb502372ed0,
  0x8f4eb01eae34602492ac902d5490203e5fa49013d368c022c0695032a497003c8930d03787e74002e330302610dbe02e58b2701c1e38203aacd6e030ee72302af350400088ba0000a9c9d0019aaa50018dda003019c9102d46cef02fc8fb1003018dd022781c2018738ce02a16cd001103e90018e94fb,
  0x3f28b013e0fd6023806cc0123cc3e00171eff0329ba8403c3a3ff038c2d3902c50bf30024cb05003702ea01fcb6ce01eb94c7031a1f5b011d7c0d011464d201cec16a0290551703ca100e003b178100229dab00feeb50004443f102a75143034ed3360146ed7c0294a11501d61f8001442e64013f3be3,
  0x3c79ac02b461eb012f2bbc038dc13b03e6449401e35bcb005f2ec901b331260358631a01fb1d750032271103122133038073500133596302ab6c560141963c0220f18a032399f303fa96f200fbd8170002abd003da572202688a540335797302eef414022756f60321a5ee02c1ae1a00c3c03b03aea62a,
  0x33bc2c02b3efc70040209f031ef7bf00f901650372d6470375637802587b0902936ac50231a7a200201f4200a052aa0236b9c602d7f740024dfc320024e87103de908a00f2c869032e8e9001d207bc0039ac57009566d501f70ab4027c06e900adac1100b8c7d5037e0162015c89f10129f5d301312004,
  0xc4dee0333bd4e02ea192801eda1eb01aa6fec001e933c00128e820122743f0153842101b770d8002b7d8303d10b0602e18e6e01ed49f50011d9860359772f0218dc110382a8ff007f5c6402fe12050005348a0298a44e038fc15400dc3b8f00a62b4b00768d760370cc2003602fea01ccde9f01fb0a0d,
  0x3e19900068919700bec10f022175850284e7e10287adbb00c1292a038afbae028ad2f90393a9640013271b00b3efa9014b02eb02049a2401d6b11b02647bd502e63808039fa51f00f5faa4001500050037302f0281e34802e92faa0341043e01be65f803a6b6620218c77a0393037b0182bf2a00c058c8,
  0xb30850157f30b005b85800380966e01ce14cf02f578dc012ba00c00f16b8e02d5074001dbbec9000dfd76002e6b9802c3fdd5018e0636016b51eb00ec0efa033eaf7101fad75e03dae0c502c86171000e6c1d034803f40107eb3c022e627e033730bb024227cd021d224c0366e29d01ef591d0349fb5b,
  0x305d1b00a1c54d012a852203ecc66b03cff176030f3a2b00b62cb802f1811202fb5970030286af0011556900f9ff1901ecc392020cfb67025f5703024726930208a46a0046995703fa4ac203b0570b0004526302b3e9650202c2cc02bc0a8703e14ab10360d97f02abd3770211b670008b3db500c36cd8,
  0x3950bb00a8202000d82059009bdc56011b938f01714ac703a8d99b02be002000d23819019b6e8000091f8201e703a4022157a50263a1a30125b99c02f1b5fd03825792033cd3ca01d502d702682dc10034558f01f682f0020befaf009fc94901005f460351cff701a9b4bd0017eb5b012004dd02a19e4b,
  0x841d302e56e9603eb4703020ba6c5004a692802fd469f020e17f200675f84032379480009c4720005818e01f24de30074957402d6378a03b18e7a019bad3f0018f41d03776e8e0074dd1c007e1b030033caec010c894b03cc571602a2038e0343d4d2001f7751016b29a702f1937503c09c090138c7af,
  0x159657005b80a202eb3dfa000f3dbb027f38cf014ab0030205a63f03237b98015a841f01907f140004f88e016744c103b88a8d01df29c500183331013b2ad103a44f9a022df8cc008e5bac039bc273000d3cc3019f5797038f797103ebcd0b00cf23e0033699570276a6670248e2b6005e9f8103a8df9f,
  0x2b61670349d26a011bef720069a4ca0372d14e0237c63a033e15e4014c18b203cfbee3009828490025054b01af069d03ff6af50060a33003668aae030482d303e1489c01b4084a01538d56009a60f1002b268e002279180240aaf7038013fc0124599c03440f8b020ecbb20367148c01227581029a1fc7,
  0xf897f01561fc10125e2d90185b0bf0020f5e701d8b98c0127795c00e53d2803167a67030072d50010a7e10025c281026ca6870100f466034c9e6900ddd40400823689002ca032012a54560119d3060006928f0121916100f242fd02a25ee0036ec98301de3b3403dfdcd101e2f6f301fab0c70227d45a,
  0x19a4af0204af4d01c3ec15026eeca102c48b9e01fa4045000ea7df00ba7d7000ef3a5303b405ab002c092d02fc085702fc37cf02a9612c03d124ea01fb833702914c900124b4a4022dbf34018d473a0012db2b0273c00200877a7201c9ac5c01b6b9bd01cfc89e027a958801486c7f02b7dd9c037082e7,
  0xaf4c30034c87c02d0bfe900bb0b0800df146702b7fd1d00da15bf020208af00719a4f030c774e00039f4e02a5c562039a1e230117ad3f0062c3ee03a4096f014b21c200f664840081fd29030f7f52000d60a7016a87dc00db3d6c025861b70032c29e0324da8102fb9e31015c5d3901a1fc8c0368890b,
  0x1cde24002eb41001a5cb24003b0f68027fbda901cc11d700baf0fa007a7ecc03141f29020ccb140017d57f038fe74e03f8c790015f50b000452dea0288fcc20247d1bd00efc8f603f5a9a903a48af0001ef82f02288c46027f56a30303fa8200532b3000b8bf1d00e611ce009eb9880113d95803021aec,
  0x25ea18009c9a74019b57e7030f2e2e0330bb96007525040296dc050265e77202e743900334ef90002af7930186239b027340af027f289d02afca64015a4058035b7781039d417702f50a980130f139003816cf03426df5003305c20378dddf032bca2b021da3ef015d52cf035273c500fa9dc701a44187,
  0x33b22d02653deb037daac903c006f50215c3e0039b1ef6031cbbed01bf031c03d7318b02eb08fa0030ba1302d0b36302cc2955029020b3012067c1004e5d70037520eb0271aac60288887e02f26ad3003021950017045303da4e9e00147c0803f46de20238271a024bb06301dbd78f03c54dde02fd2db3,
  0x59a27012bbd2e02fa29f800ea649302c7a63e0356446a0089d163032f42080239561600e0ba33000142ff02559d1400d12a37004e145f0131d2db02a2f3bb02adf62401012fa803c2d79603824f660019c92703680b04038408ed02155e6200e86905006161a703df0d7a0354264702c7ca5b01cd054b,
  0x25826d010cb6db0063bed702318667016d086c024f8546028b3807028a39cb007af7d000540b68003e7c83033230f7017c8d990228a0620193718502214d07029450f4020fc2440389a5ee00fda83000363096018e77f303f30808001e3d80007b4e770028c54701aa416700ad3171007af4b001b2a22d,
  0x32d4690329085801de26bd02dd7f6b007e334702e9733a02c1e63e02075fae00d05b1203c32008003a1926032afe45022afda20044b42001435d7f033137ba00c2ca2000530d6b032bf3b40331cfaf002f707402f23640023edad30000534000a87c36037a1eee03e2385300707ccb0147343901895b48,
  0x9314600a5801201791b76005d8357005709f4015e7f0902eb06d3036863e10080910f02a308ca003e58ee0060b9ab0142bb4c0050fa3f02ef0f79036a715c00d76327032bcb9003956a3901d051a80029312f0201ed5202b68757009f1b4c01a38369030b67cd00715a690158916800d2ef180105391c,
  0x26cc2203a4803c013f8908025df97600ce9b7c02ad17680223505b0051fbef0202be1f01bb66e70026e0ee0103feec02f99745017348a60233990100bb473f037ba78f002b3508034981cd00c92fd70015db01034dff9c023ca0ac014ffb9d0240cdcb03d4962602767543018cfb0002af717401c2869c,
  0x29f08024b323402388d1d0041eb82021914a8000fbefa00058ad60201903802f1c52e009f86a5001a3b1401b56d7a0324fb14024e30af0200f37a02072ca703dae8c3021691490387230d005aa1a3003c704d000a6fd0001d8e2601ca844103b3fd5003b942660051b8fb02c9d40b020c9e470002d1ed,
  0x10da00006115fa0147d2b6020220d301a33872023841d902971b25026b7d17029d59fc03e0f1c7003cb56703066d0201f23eaf03c151ea02c47b5901745a6100b9423a02b01b570133f1d703aa7bc40005ff5801c54f640208e27702bc2cb403501f91003e351c03462158007e3f94018d59420248af52,
  0x1db4c40061dea20156fb4502679ea802bb3fa803d47ebc00502e770332cf3202087f0902ead059003e9727033b84fd00be946b03ed91b70034f96901255540030b64fb0302d4a0035fed7e0043556f00027566001493f10317ae7d00cf57250106994c025bf0ee0038ba9800a2b21e01902d8802e32101,
  0x1d81060066104a0127ad960001a1e3038b7f4d03d7e71e02b471a7008bac8600c412c503b2189500345ab8022ec9e402e84db103a8b55801f455b4021a365e010551de03a6aaac00657f42024303a20007534602702a5903de2f6000d980f20172638e015facf5012029e201153eb701c550280311a2a2,
  0x3a757a01bc0c13026f4c72021d761b012c17250309dfaf000ce99801cab9c70280554901d241450010429900ba2577025793fc013de1a901a4926a0393a52f01a726560237b93d02b5ef8903524856000943e203cf96c3008676fb036230df02bd058c0143f26c02d65c8301c535190062560402d111f3,
  0x3f7e1f00574353000cfdae00b97abd00c904c4019dd64502f76a2e027b754702fb5d9e03f9e4e800197fbb01c8534a010e9ed2007efaeb00212f9401934e4602f7c70b018b9f4a03770d15007d214d00326d54025abce301b1bab6017eaa18036e2ac700780fa10109e831023eb7640256f5c8025ed652,
  0x8583101ea268703693f7203a8b67d002f0bbc00dc1ad90003aa0c00734bc602d8448b03a257ce0001cd1103742a37018ce36f0094a2b501aaa92900e4fab80374679603086445016feece001465e4003fd8f10109d709004d488c00a9435e039fe92901be5953035040ff03fa28a90099a0d6014e824b,
  0x2dd273032d35c001181dcf0074c0be01211c8c008688cf0273339a0037c54c034152c900d61082002474c100965eb7000259dc02ce59b900d72600012409d001b8f34c02a3b3a903918c3f0185f067003738f501848d8300ff3bc700af5ce402cdde3503d6a80202cfb85903ea6f7101457f720018e7c8,
  0x3fdabb01dda12800d73359019aa23b0086c23e00f5195703614a2a03aa39cb02a06f4200627a370035128903bd10ba028b77bf033f4460000b141a03d03bb103d683890247ce89001391220107bbc00009f3740341776b0178f9b500cc57b10295986003d3f0f303b45d83004a88d503cf74b300ca85e8,
  0x1910c203efc355039759c100ea36710200a8e50077a42700ef8cdf03a02558008ce36e0318569f0036ec5f03985173012df3b9029aa8b10130668c0338b8a7031172ae00bb069701fd1c670059a5c1000186dd013ead7d028ce79902ad2678015556be0222b0d502d2f67e0088aa8f007b0eb40039fdc7,
  0x2a2a8f007783ca01db6e870348db59018208280088bf2a00e867db032b1ea5014a81ba027ab48c000efb1203a6422f022f29c8002482a901cdb5a402a0e07c01ff577d017bee0d01fff23502130860002fd2d701f87483029c4891032b11590289556901473aae00d6f07001aee72302b9de5801796bca,
  0x334eab02f2bdc201826b840308dc3100b4bcd2026203c701d8a2c002c68696014b188f0263dfb5001e9c3e01226bb10204988203a227f7024b7e80024d0dd302a6b49a03252aed0120bea400d3df8900078e33012bc00b02bcfdf603d8832a024b9b9100b8770801ef80e4001f4951000b4d3d016ba30f,
  0x1ffcb602286706022069ad035252b8013ed54603b74ff901e77e2203bb2d990346552c011efcbf003d9a6103bbc0f501dfe07a023637ba00c3bafd014dc65e027cc80201de613700f526a503c9536b0005083a03de3e7c03b9145101f4140301c4864000d19749011e418d027eb09503241e5f0397d779,
  0x1c6627008872ef0042200e00344961021627de01d91f7a0046f39b00c6e7940143a402027dd67a002a188d033d07dd002e78ff00aa7c9d0224f46f01c7c6900099485a02ca67a6025c37550159357d00286b340134c7c701165d8a00748a5f009917a30122d41e02a993b80194ec0b005e14f6012737bd,
  0x16150803faa6f6028053fa01a4b91f030aa9e402aa60d7009c52a40363e88f00032ea703684e7900081bfd03f9aa2d02485c7e032870fe02078d44007960b102c03b200331d32e03e44345033677280017122c003d3019009ab29e03e2d8c4001e3e7e01bbc74002d53f95022285fd037b201f01fed86d,
  0x8d64502264c89000de9ba02b3b75902079d2b0227f971027fd7e300f3386101b5b9e600e570c4000edb2b0085d27e034d050b0024baeb01c1c96602fe355002ccdc1d02676cf502adba9303e62405003a38ca01dd9dea02a22cd001f5eaf301b5b02b00e7f50d033391f7027e3f7200fc6daa0314683b,
  0x2abf6701fbce6802da9c77011c00fe03d4c1e2018bb9f3011655380382f7770023b5ca02803710002fc6780182882301597d8a027420d9026ff1730177c66e01be21a203634db50368012b018f6e3c002c17ec002a172601f276bc002fc99402881b1502a826fc0179119302d6b67502e0c42f01a66315,
  0x2914a102d0196f03dc323803137bb70390b0d90356d01b03831f9f0239706203108679025e05fa003fe4b8023cf29000248f6b025aa9d300fb272a03d2940100d63f7e0231ee6003d01dc7003b01ec001fa42902ddbddb010673b402817377020bd97a020754a0001372b503e0079b02c6a6d002a8e525,
  0x382685007e9a1f030a33ea03c7c5e6022f7d81022b38a80394714803554371025085f90065e1c90016bbd30163786503fbfa0d0316b7a801b2eda102ff59af0344945b0032b6a10348bb1f02799a24001b30b3000d385f02d3bf51020159100170c57c02ccd98a02022cd90226de7a03f3ed1000a5c856,
  0x2a89be00e35c5303595337029f164e030a063e038314fe0121969101161dc202a874a20165b419003de75b00dd3f54027c617502a7b333016195b401b43d970059d1bf034290ac03fb24c000fe3b51003c6a9f0232762c03a246c000fff6740047eb870005702500d2b78502733e0a003398f0019c33c1,
  0x796080110083f0166eb9a017134b700429fb50347587002a5770d0300801c01909b6c00dfe2950033c46602b705550399f8b100ba3b0102022971033c7363033124b20147f70400a6968d01d813090029174a03b52d29031302100093be7403a6a99d02a62e4a0362c1830041b49e0382f36f01fa2a3d,
  0x3205b5022ff8bf02f228a600653e1601556a3a0261fa80012acfa9027a317401e2e29b032be5790023697103dbb37d032cd96402cd2db70256e0ac0353cfd403f165080245da3500a3318a015cb43f002d01ae00df81d7009085f802a3b8810132d2f20148008a031e3b9a0307af0b02532716020171be,
  0x1e619603933373032af93a02b3dc4500013e07025194a30398aad0002756a701d82852000d0be700221e320077139301c32a4e03780094029c4a1203b63abb01324a4b010f53b2018a029803efe37d002c58b20005b7d701a41db2039287b603ce293a00e2520b02e6cf6501b69a2303216f8701cf736e,
  0x4470100063c08021487e702132dcd025d7ebf0378d7c800c0905001aa9f6603097de900d580f20003e266009c9637035e3437004d4ab000afe750013e691e003038fc00ec4fa7027308ef02247fd10009b6460296cbd001ff29aa023270bf00ec011902de8db00133e9cd0350d59100bd701f01c7b7bd,
  0xb0bb20030efed014a4f34020e30ac012458d60397bf8f03230c700260dcef00581bdd007075c70001180f0018c6c702bc22e20286af9f0367a7e601b1b270000b958300aa334203f70ab702f853730010795e010b3b3f038c65d103793b540389389501d8c2ae03adc762021f734503f784b5005ac1ad,
  0x378cba02ce41bc02d7dfe202290305027366f803f9b4a701badada004cf3d602a6b30700e96bd8001c0d1d004198f703fd8e5400c8c425013b8d5701cace2c0020d9a5003c2df0028d28bd02b0975c0009cc3301c8a883032c3c8a0214875c03e645c8018ea904004fa7bd001bd43b0268ebfc02b293c2,
  0x1c680300b9f20a019492ac016923a5029e3662035546ad0033cc4c004d77ab014dbbbb02fcff5e003541be0295dbe002b023600091088a03d1c707004d5425035fa972031bd704010cc5e002250935002f70ea0323271103619a3f012c20dc034eae48024450f201fc08de017da2f60135cc4903bd0d57,
  0x34599701a35d5f0015c7cc034e824f02de614a0367bbab028a0b780387e15a00a3198c007fe95e000e714700cf72b30190c1c1029e542301d29de202d4f4bd03c2fe0003522c86014a31bb03e9ab700022d535029323d50238d3cd015e10f20389391b00074ad00170fdfd03df1990012ac49401776ba2,
  0x235aae038d5fca028c6ec000ab122e027f278502d0959e02893d9702affa3b00c437ef0027e29c001bca5d02a5561601bb361b02445dc40249ebe60372ee5f03ab0424023639220164a6be0248f5f1003e861e028221b001b1c78503e21ac703bbe7a600a541dd033763d8024c466500a9c75801288be4,
  0x3983d200a89e3b03322fb300c4b19d00781bdb02d4a38901aad4f103d74e9b019d7180011414b0001719be008f0a2001365e8803284b1300a248a3026e07900342c8fa008f6ee80154c931022b4283003961c700564e3000e5cc0c010b4847022c22d203882fb503d241e40015e13a0380a4e101e1fa70,
  0x29162803bb0c790363b7d00241a2800339cf7e010d640e018a888f002c4fed02695f97028c4cb7001fe32801141589000e72fc028e3abf010d1ade01480377013515dc01ccc39601c6639c03e27ebc001b1e59005c964400b8e10602fe4b7f00c70e5e009616770154d55603e29761037fb9e003a3d002,
  0x1efeda01af83e70133b34903d113b300c1449f008a13ac02abc1f902024bd001f685f90278135100365ebe02ed1acc03b96a25020357e8030578fa023f793800f1408a0201298a0235695603b83bda00224927020fa54402f189b100ca7c2003be4a3e00804e820025a7cf00e16447018c7feb02757225,
  0x3585eb02c55627014fb14502e768740119688203add9e3030593aa01689c0202d5cb5f0339fd67001cf571020e431c03b0927f029e23990135133501840dc60372e3da01111fd901084a0900291016002cf541039d361703a9f76b03503dcc0196920e001ff382001354670089f31f01e7a347004d75b6,
  0x20bec006da71b03c0ba290022f79300075e9003f59e2b02df1d590050534400bc7d2b0165574f003804ad003d95ec01a32add016fdd0b000e26d70101326003ef703d011a511503868dd000f7b9f60039191200f0816e002ebd28002d7ac3025dacce0375df6100297c9002f9a88a019aafff003aba12,
  0x2aac0e0121290a02ba00ad02a021ca001acef10387af6900bcd6e803f9fcc001547c66021f3ef8002d4425000e2e3802c5885f02712e98020bfd28018a832a005f67f3037533d703d936e201c5142d00342c27015ce9db0301562e03247b70006b4dde026d83ca011974460135fe390219d91f0368bbbb,
  0xd6c1802d6ad620259ac0c00fd8b7e0231f12801025292031ef292003c248c024788f40229384a001314b9001e5ee6039e35350238b6aa0081954103e66e88030ef15103c3c76d03025e5801f462a000013212008322b0006fb61200aee2cd03eecf4200d1a01f010e9c0e00efb42a03c2dc9902e94c6a,
  0x396f4a0029fb9802eb224701ec670d0325ac7903d6809d026ed6490276e60902752b0a008fa943001b3be0036f6cd201117a9302dfc30f03242c430301bdd300018e2301c8d84003a1246e006c0aff002217da0013412500f8420b02ff5af000095f7b017037c8029ab290036b51ff036b5166016bd179,
  0x3af22001ec4d4f01f98fec005bc86202d5e5fd01e0fc8803ec87d7025ab28f01d8c6ef01c2f59d003cc560012f7512032bbf3203ff29830070d95f011e59290193ff5d023fe208002744fa029fb649002df962028b6ed201537ad002916a3803807a99010b520b0038ef6d03d00ecb01add4b502a9d4f0,
  0x22947500dc3683037cb2f800153b520273ada2001a1f9801e80c0b033d7eac008a25c500e15d8100002b37032d150a02d8e40201e78f7303a45cd8020b59d701d8a24d00b188ce01b5e0eb03846c870001d0db034ecb51001197f1001bc6a2007b47a00263b28501ab7c0a033ed1c502d7b2dc003dbdb6,
  0x4dd3a021a2e27022859fc0067b8ec0107ec4b016a004a0165cb2a03d2b06b02cd50190258595d00040d1602520e960204fc9901841e0e01f3ada801f3dbc10270f6e803573705036dfb6c01b619ce0006468e0217ca9503ed2b44026ea8c701deeba90100bd38034589b9038dcc4c0347b6cc02df1d61,
  0x139cf8009257ef001011aa03d2504500fc0a6900612c1401f4f12302529fcf0395158a020c1ed8001afa92038df26300e6375a00bf33440385bd9e03cfb4a601597cc102db74dd005020db0062435c00154e9401b35c1f019e1d1702fae0df01740483032b04700006332e0219bb720307e65a01835f74,
  0xcc99e020a23ac0292e0c703d9070a003218b70247f17501cf144700e85aca02b6fec500e49a01000fc817035f3f32026f899d0351e7ea03d8ca2501ab24e4032118dc006f862b00540d5502f91b450010f67d00fc7f97003bbf600033accb0201ee460348196001d41048010d4ab302caf0c100b96239,
  0x1e1cd100c3ec5200db6d2d01c2da0d02e98a9d00500f540329cbdd030c58d2005a69ab02817350002f8817002c9f21021b8aa90219931400a9e51b012b2bc7002cdbf20241fa2a0044df330155c9e200116b71005da5110032cb3c00e2fc9400aa724200ff2f8f00db10bf0389f3ff004f5c6b021ba21f,
  0x15484a019effdc0242d0c8004fdc7300b2e9fa013bceff019cbae4026553120292cd2a00ef325f002e9b7303a1240d039b0e8d02d3bd02019ce0c702e4abaf0216506f000cef9e03b9f95a0083283d002cd1ee0230d6c4021ae8cf032a6faf00bb5ae50188a97f00bed0ba036d884a0234c3a9009f55c5,
  0x2dba3d00626c14004d56c303ceede103528db0030b91c201a612560110c59e03a6cb61005f253300150d6f03debaee038f535d020aabed03df50fc011d743a0338832701c1829700f01ecf00d3bf79001dbef70275165803afd659010665f4033f34a2005e52bf031ee62f0288b083037144450019f9ab,
  0x8034901ea08e4021e0b59016c55a5039b34920134339d01108ff4007523f9035de722035fa50f000c280f0259f573010771650363518202eb955d02555fc501db033e039a1861018e546902ead502003ec13e03ff69730090907f00723af1020138140071bea4039fbe5200af275403a6c86300eff2ed,
  0x2748720005f93b02deaeb10243b07002c743710008b2c40212fb35016355da014ce64702c26cd1002b2c7603d3ac5500835a20039c41ab02b20353008bdee2029588b600dd8242007adb2d00f25e3c003698e40281d63300228baa01261a2a02c65b620216957202cb0bcc000cafea03419c22023fd463,
  0xbe74102c57146017b375500180968006e29dc0150fa3900f36a2400790a680394d4ab026f8d8c0027c5670036a22b028d7df702420d2302e7fc5302c98f2a015d6f620297faeb02b0073d03c947230019555101df085403f4770900f28ecc033dfc8402d5e47301d702bb011ae1a3037793b8018ea70a,
  0x4ed700346736803bd5bb702861a8203a1cf78010e2c8a0230d7a5006b7a980021124602d8ce47003ec2f603487835011097de01ca38cb02216016025a835a000c653103bea04701d4a234007296f80015a71902dee50e03caf3bf0029b44f00bf53a1026123f70134e00401f7162d01ec84680348da76,
  0x16889f0044b3750337529702456996005e273502c0a81600cf414a00c8b6f1014bfe53033e76c400057bcd01901966039eb89e0240834602ded1c90211bbbc03fddfac03c397f0019d28e502c0baa3003d7da600c034d202ebaca30051a3bc0203587c022bce3603372e0200864d7a03525ef002601640,
  0x2a3209027a040b01dff7da03536789032d127a031c34d000a8e31800b94bfb006a0905039e302600086c4e0075777e00f5ff050151a4a203bce4c4025c8cbf0198558d00e938e0023f6f5b0287bd9f0020ac6c0304a34a036e630101682fb602bcc829031f13900028d7ac0323c40300af24b602cb2107,
  0x3d419f0115b484024578dc02acc0ea02897c87023a954602455d2a01a0aac603e54b1c0227d6e90011b33d03f0fb800168a8d501f141dc03b1f8ed0000c047033072490156dee600ca951b002821b00027ff760184833803a67efc03a22b180348d14b0127a70002a2e8b501905e22009eecf2029c4d17,
  0x4676a02893b98020e66df034ef6050069023403bc5e6003f7768702e7a694021cc51002ac52bd0020111d019b8d6b03bb5fc801137c680180d53a019d6088038feac20160f85b00b6a853038727cf002ec62e03a0e50f016b89f800a1a43a02405ba200a4e9c7015058bc0264747e030df444008933c4,
  0x38b8830293aeae00465560002354ce0191a94603c513c701eba81503da785e010adf6702845d3b0011daa501a09dd7001ad2b703f73d3f01d04b1f0329e67803d089c40116bc4401fcb38500d0be81000ea80b01251da30025a309023c3ff0031ebabd00506031024def4d034e06a80388718001ce4b04,
  0x8cd4202565e50001d5e73021207610238ea360209377a03c7be2602982f1b01d0993300d7d9ce002497e101ba77910043394c028486d2039b4de302560015009c7389012293e9020ce201021e332e002090e902370dcf03b924c700fdd57f007b43c7021d0c110144c0e300fe2107012eb31300caff5b,
  0x24e2e603f827f400011c330274b26602345f8d00a2cf2103cb863a017a9473022880890185d08e0037fe5f02ba587c036f72700104a52602f210c903c3632000da12ef01fcb7c50089db390116a07100122b6a036eee7802446453022d114901204f61002555cc03107ce8025fcbcd01c0f8dd02862784,
  0xe739502e756f002b593c5003dc0b800ea330f000ab43b03f8235502e9b8d000356ec4007ac4cc001bf77b00ea9a4d02fe41ac036db698016547d501f0e0200217f77902cfcaef0347f64a024c2092000b2dcd0227244201f5509d0183d2180114a00801f9871301317c060080f12803bdc9b8024035af,
  0x367aa20303caaa00b38e1302dee13403c50da203b180b203c3b91800888880014ab42603ccb4aa000a9c5f02b3986e0291c76402cc33d10109bb0500e9322e0068153502e613f903022cc9018a0c8300058114032f835d03463ccc01e6753901a6c5b20283199f028e84e4022ebaaf02d419f800c11ca9,
  0x37575b035993bd03f5bad30325631a039b13d102c141020009c79c018d5a4203b2254802248acc00160beb004fc45a035e753803b3a06802d398b903bb194e004b13ed02b57bb202eb72490066c08300191f7503bd24ca00b5c4a200642285016b5c4d01bfd84900d68e2d036696cf02f074c50233d262,
  0x3d22830181010a037952a2013cd534025af5a602d42e9f000b393203d3fade01508a5a01296399002645b403c4a6d4009fdac700fd97600091714b01e9d4d40233cb370363b4390005cf76016cc0550026904c013d3b9f03bbad550163168603fa89ba030bc5b1025afaba00b7f6a601acc84b006c0704,
  0x2b5eae005abf6802245aa102ea5e9a000d018303d9e14e01154086037ad6ac01e9286f028a7ca7002873880092db010368fe26034926c100da99cd027442f2017d7ac801e40e8c0231643403209d660035717d00259d2002a6b88d036af77c004b49cb020d842f01383e8603cfcddd000834cb019fcc00,
  0x39ef9301afc0680058e29300b4576a02dd0b5c01006e57034ab3360066cb4502a83fa400387fa80008c29b0120d11e0175e23101cabd3c037e7c5002acf1af03d4aef700367d9f036347d4032c08fc0004e4790127b69801c077ca0311501902242a6a02927e3301f12349012a2eba00d19106006e8eac,
  0xd0b82035a5ae60169ddf801f87e34010639f302920112021870bd023d9e790165db66033b053f003c200a02cd5056007c252e03a488ee03425c8503293134015aaca4027b46410265c4ea02070d5b0037afd1032adc76016dcb9201ace9d7016071e10370bd8d00fd7cf20096ff760386e99d00ed3aeb,
  0x3657c9018913a401cd15e60256485e0268743b0101f8b001e1edfc0086dac100ba30b1028f8f73002f0d9d02edf90503c3699f023f6920021b94200312a9f102ccaa8401c5d9c5023cae23036c4f780014814702689b1703b925050391d80b00c66455000ab157014c66d3034976e802222fe701d9d3b9,
  0x19b080012ba74d031ac7050165212603247b7f00b84ed103f8b74a02be4a5d0379747601a27e490006d2f2021a0595018686ba003470750350e3aa01eb906900b8094c0005346101f7df4a017e3a7d000e169802c78842009f30790159978d03f5b9680244f4be006456f00254705a01f8bb350355e3ec,
  0x13fa4503e1097502f86e85002f46a702b8a6680009d6e30002096e03ee4ac5034254b102ee78bf001c529603c63bf60170acec02b53f40020fb2e1011030ce036b881e001eaf0b0354a5b103fa242c002c47f7001b93ed00f6f0f500ab39e10177df6803103707037b9572035297d6016f323501483cf2,
  0x1529d3026e261001ce7dbf02729be000aff686016e04e9033ab2320234b4e9018468a2009c55540039e150006358bd02be6cd703150fd2017caf5b0335eda003b2beef02a51e2500b88496000afe52003c84b3002704ea0048defd02a5a6b3002f5069026ddc9a01dcb610020e3e7502b3fbec0025414a,
  0x16b694013676480151027a01687eda02c1b6be02b382ea022b7edb00edc7710211252402c50b4600154da8037501b900f766fc0092e9ff000f920901fece1a02c0c074014ddad7029461ae03918e9d001c0ac001cba33300897bfb01295e33036a6d1602b575c802a935d800f83e2703037a82015b7254,
  0x32bbab005e8bf302cc443802e427a4005b334201d3950c02075c3b01961628000ad88c0356cf01002ea836017e02da01673896003e260903c69dd7007bfc780197ce18030418b202495bb60077c6bf000615690094d336031e06bb03ff104201e3f66703fcc46700bc11c901910fe700812d3501539bc5,
  0x1479e7033b1c050231d70d015cc92c02369731034c72ac00920c68026fc94501eaff4b003e9e6d001f3c23010c729801f8d8930226813800e0d78c017deaf8001ca6a6003695ba02d49d8000538783000d6bd201f90ba20111dab803eebd4c01aa95060277f45e03463fd20135e7b201400070022b7be5,
  0x15980d02c801a3020f3a2003cd5a160007b7b6023b3a98034e92880092a65202395cfd0234fb470038cee20378d37c0088c28a023406b8036e641b018f161f01bd696b019a08b0032c67d403d16770002d7bde00a5dd3e032a972f00c569ce0031496600a9b78a00d284c803bcb26801b708d003ef0bb2,
  0x18eabd0223ea0701f018f0037a2b2903c1e6700146290c02a5f2c5035d73870018a50a021dda2e000fd1a702709e810109033c029b1e010138e018021473640225834c037436a700addaf201711e2e0008a8ce02cb91540287c45f022617a0010045e301830d0601b999ba003f053903b49de001c6724a,
  0x1f5be008be34003cda58d0150cc5902080cca01d2790e0150356c03cb4f250118890f03b604f7000c8adb02048edd016fecc1030ea52a030e6a4a01da3a6e0195544202443fd2011c0dc80122186600114362029a2c9d00113f3800ff65d601fffa8c030702d2028fcf1601c56a7f00d68b1a02f268ae,
  0x373be0168a3fd00274fc20277e64702bcd5b0035db524007751ea00457eda023b0a4f0002ce10001ebe8e0051808e016dc66d03c7615600b60166014c5f09032ee71101999d3a0222d82203606b9d0016b12d003d6aa2015a226600f99c0e036f7c3f01fc9fe703daaba1039aac8700a653f401fc6ddd,
  0x4dbb503730c69038ffb4a032b50da0145f1d70158308d034137c702cce3640209146d02948c43000395aa01ce6c89024924640355ee6903fbb37a03bd7da40033755803f6658800473c3f01da32700018033d0190e34c00454a2301f407b801b2c73001731f0402c8571002aa21970051761d012205ff,
  0x3ef9dd02f229500322c1b702059f8501c2fde400e92a73017eb45c02ffa27d0108d91f03b6f2c7001bb3ec0307093a03c968d3009df3d301a0522b01bc9a1103db760f00c9fb1a03f3cae801ab1bc800073a45008ca09b0348ce4d030f4686034411f3009080d10369a82e02670d8001829abd00b238d2,
  0x1800c003cd257702833d4c032b365400af090d0104ac6a007748050378639902f80e93039db344000cbe46001eeecc02987c4f019d329f0334c32702acf80e00615a35019d3ce6014c7342006e1d16000c4e5703f69665016160fd008a9b9c038082e502922ed8027e43fe0205cd6603d8b8550000af9e,
  0x310d83014cad70035491b600e3a40800f0628102417f7002d84b0503f4b9b8010fc3fd01d7f8c4000b3d4003434cb9029b5acc03fa71d002aa2cea0216e9b502f356290116ca4b029f4480031e4727002ed0c9009cc2bc03471f1d03d92a8401eaa93b0210345003e8bd7e0252eae201a9e81e02bb2708,
  0xfa94d031dc78501707a9102e070ad036f1e85026f4fc901bf32ea03fe3eb801ea1710007e4931001a332703e044b503e6dc2a02901b0503b8a75a02cfd44103db598e03bbec01025813980374b9d90037133c01688e3b029b30f603a91ada002f90c00086ff26007476160370fd4c01ecb5f202699f78,
  0xb0cb700a31bad01d023f901a440a8028a67a50006247202870e90005392fd0212badc00dd7b0c003de19802ebe6c0025aeabb0390e11c029b308a01ee6b32034a3e590336dcd40114262901ac48e5003c9e2303120b1a026383860286c7230008cf8a037c5ffc03f7175801a240d1001eb28f002bd071,
  0x89c250013de3a03b47eaf01d57d2102d45a0103c826570109e7dd015e131801a8ff3b02216a9100197dfe00e00aa20198c293012e233801035bda01a59b97035d7e3b0162e5f40241c8ec00b2548e00309a8403552bac010dcfef0203d99503a8920c02495b67011ad8ab0013b7d202693f62017becfe,
  0x42aa500eccb3d03133ee4019c0e9d01d82da301d722f90023ff1603f50e6c018926e60013e42b00287fcc00d869a500d24dd60364763702b81cfe001b9557032af456011a87df01e31c8a00ef6398002ff28b00d9d75603de9f90015472a1002474a8032c1c29003cdcab0050b08202370b11001dcc20,
  0xf643903cfbc2203be0fa50117548d019d94f0017f4a070100b45302fc89f70387ff2602f84ab2000c28560113f3e00391fa3a0390af830062cef5034cf4b003fa538d002b85e901501b83029f2f460030189c01ac34ba02edda13023dbf0a02b3bc7a0121489002084bfd03e1048e03735e08010c66ec,
  0x8316b01e76ab60114cc87038b2042007dce76003602bb0269757303a6f62703219680000e4889001688c002e784df0182322c02f4541900587f24027951d1024005cb001e7874004f27b002d986c4001b46c40130476402f292f400dffff30039c6430362e241004fbe430017807001a02ec600a026e0,
  0x3b4fe601cd520803d8717b02679b860071eccb01284393014ce4f402266a2202521e6900ae9475002cc3ce03f21d5b0145cfaa01dfbf450046414201c2c61b011df021020c866d01bd39ef02bdd166002f2127031682a0015aa89e03d03ec0039c73f70300f6bf003d759d03f6297503ba6d5c02c5b6d7,
  0x3f956c00f593b201d6386b0085ddad0059138702485bda02e2d00b017001f303b57b2d01d1964c002285fe0227287e03e7d3f10037a6c101d3a1180081748803aa595d00b702a9004b0df600ec90c00037ebf401d907800071dcd501d0698903c79195013637270281e6e8029641010384b45d020cce3b,
  0x2782cb01ba0a9002d87988000ce19d00b8d95101a7016500d7df9600469ef701b7fc7903ea9f430022225803751a4a03edb75f0164affc025e009203fb13bd03c5013f032fffe80261b3cb01f2a65f003d001602b7f04c03388084030681db0164c4390253e31602caecc600914e8d02c96e0d03be8ca5,
  0x329d5b02716f9b00193ad90371890002e8619c01a39c6a0360254702e9cb6703f7e48000a738fb003c3cf300e6e60d00573a0a005294520365880d01373eee00aa1f5002c75465028129fe01b45adb0032b7e2005398da00de6fec033969420253997a0052368a0032e800016963b2015699cc00e2845e,
  0x9a1f3015fb3a701fa4d3d0045a38b004e091702f0db19007e5786002b9a98039b6f02001acada002db2d5017e03160174882b037fbc0c01ebab73024e0c0100ae27d6024cb88c03f7a2af02c9e5d4001543aa02b6ba110002c84c023dd92200fdb35401982b52016ba27301b64318007b8a54014a7f94,
  0x3015f20369932c0316909e01d1ae3602eb357d02834ec50279909c0389c416038d1e5903298543003bb7d7034bd6ba03519cc403ffa7b10393965402ae58c100b02a45001df7db030b8c5202c50cf1002d03d700c0cf820014c5b603a8623803b1568703f9f54a02a316d4024d4e1000dcb6fb01260219,
  0x3d745e010eed39024d3862017e5df901b221ce0214f2830230a34902a39adf024ad4a503ca6adf00189a2401f9e111008f7b7901b6a8dd018efa0d0306e6fb00cf3b9b03a99aa6027ddb1c00448476002c008301e79f5d02efda1902dac73901679faa004a0eed03e757dd037369ea00559a7a00178178,
  0x1c8e3b031d46fb03850e540101f373004574c90003cba40153f160020a4d7301424d28004281820008f2e00167bdfd01fd562902706b8501ca1c4f0206f44b024cb74e02f4c6c600c6b8d603dadcb400255f7201b0598000bb0004015c2bc50185a47c036315bd01d907a503eac90c017ebcee029624c4,
  0x2a2ec502f69f99024e1d84036d73c4020023dc00cc584800c93c2801eb247202c64a44011cdbb5002ede9e03ee04f4029830df03a5e91802919e3401b41df202485f6703d92b5603eed33501f04725001196820038740903fa9b9b03443b01029439be021894e5035a7adc0218862d0119ab4302a0f273,
  0x2ec0da01ab079900c1b3f003ec2f4603d0ca3c023cccf403053d8601059d820367d0ee00cc7a75001461670284ae53034d6fe001e65d0a0189e69102c7155a038a860e0038e4f002516f6502d5a0d60031b541021470020053cf7000e0a9ce0125206f002e5233011794040072e1c601411a7501270175,
  0x32712f02299487025622b50368fe2d02381d240006351201a0d05501eed2ae03d65e360134147900346ad4000e5fd101995bc903d32f4202f10f0d0247041d01d339d2007166850212a9b001afdc9e0032ec5a01c6563c01050603005a586d0381dd7601986b5f01582d6a01be4ec103a2f3ce00b93c62,
  0x51b35019cdbe60019d4d10034253402c6cd28033c98540171376c03c39b8100f8ba2502c75a8b002285ea02c8c3e1039104380215208003eb4cc700da0c8b018d24d201dc4657025e2aa4025bd24c000432f70303d80401d34fa9006e916a02c0032803f82e79029cc47202fbc1f40332a0d7039001ea,
  0x3377260044897200fd531001f5445400db2ca003b4c69300829a0e0258f36b03a149f10317b7ed0007744102fa77460267fdf403572a9e014334d303d5bfb4038b62db0148d10e01b48a650131384c000cfe6f02638ba7024ddfbb025cbc2a03140434005f696f0370ecd3002f1f99025c44cd001bc857,
  0x176d5200c1e39e020ffe7000d256dd0291316b002d090500bb4c150081fd000282243401623edd00043d9c03a9481801f6e2b0011b5e3700d7723100ac625600a46aa80231ea16001d405f021cddff0007319201f71820029821a80041cdb3020372e500227bdf000c918202ea011201a18a2001aa2465,
  0x134a9b01bc0d51008ffa6c013e685f02fd5d19013da17501c9ce1d00123e5c003fbf9801762c78003fc8c103337df503c896dc03ecc36700e451c80366c2f0028883d0033c150d035c3b470387b58100220aeb0280c70301b456ef0096151202c8eb0303f4395803ec967e0036a17001f9b0c30008e273,
  0x1817380357a46e012152f70104efe9036e095401153b770063ce0c0288442b023f797403e68b3c0017c09301a1b24c00a48c68018c86380353caeb0355129b001632e600eb942903e7d3f5023757fe003a12df0257c4e7027f5aff03d09c2c0139c76a0116374d012365fb007db1ac0256e6bb03c38be6,
  0x1ce18b03e9735b012d1b5d0017a5e70200b9af016fcc220311a85100f45b980132db000082b11700218856020347bb0094a53702b1183e01f9790e01af460d032d011002da842f0205a5bb021fc3a200264f20011d1d9301b0cfcb0153bc49003be1540251080301685c4d0353cc520269ff0201e712b5,
  0x2c24c501c9565903b61dc2014e8115037460c00120c8980088655d030457db00b309590076e22800351b22004dae790008436a028443e0030993d603a282fb00dd4c9b00a420b001defa0803574d7d000007f9009df9270195ef630039facc027d13e400c3235900316f560341b85602e6f8e7026c9fe3,
  0x29673201b2dc1d02ae07e9022a663c014f0ed603075f8d02aede2b01ba4fdb0193660402a3aadf0037b26f02a5072c039fd4b1019e615300081296029d4f27025ebee100d21a39011061c901bae7130003675503464255029bb8a0008c3a1a03607abe033631e000401c1703fd5cc1002af24d0329849f,
  0x25965b0287d50802ce0ff703a0314e0251cc3f016f03490230611d001375cf0375c377024bd920002d67660068a8530195367f00934bbc00c31c3601a645e603d41fb303759c9d0045945e02679344002d620501886451025bde8402558a0203055e9e02d7a457012bc7860376af87017d4a6e01a2c1da,
  0x249b37027b283203d51d66039155f601d7ec7d02f0424302efc74003369b5b02a66d03031380510034b36902838854002dc8bb030b7f020381dc9502296a710369426002cbb5a001d61ec1023f67a9003b72b10226c14e02b0873302415d25028c13fd02af879d01267a2600d1b1ab00b511bc029790e4,
  0x3ccfe50143608602e0561e01693dd0021291e700ce52fb038443ed027b9208037f304802532459000fc21702aaf819032db28202a7cee9000df8ca006f962402919eb403ee232a0283b89103ef2077002f6748002355300321ecf7038663140068db18014a9e5203d36dc902f0cd82018b22b6018e232b,
  0x204ccf01e52341019e746b0139c8380160460e020548b301ea146d00018c29014a34b803187ab80035a33801941b1000ea4cae02cacda503e0e8ea0269911802dd5438024ff2a60086c24200c2068c0037709200df95bb01b147ca03b16e3003aa951603ff766202309561037d81740088c4b303f205e6,
  0x6e1710148a67f025f65e90089150300cdb7fd0294dcef038c7c2401ff006c019aa426022ec9dc002920f0006ddb760342082a00a07ab90200c50803c10df202e4790d0365e0a403d2c1a701c6da920001a25403f13b3b0000e4240187c3a700cb4bae01427cbc01d5d622028b2ce100b8b6cc0213a80e,
  0x1b7a70024776e50368098f017cc378036bc41c00faf95c01e16f66017ccc6a004281cb00bad74300375546030cc2ed0083cdc402c97f1d02986dbe0109e6b203652f8d0231b9ad033feb7603e2c6d700252da0000f9d4e031ce67e0107dabe024ba8a203ebafc001b296f3014542a70061b8a70264d780,
  0x12d2180341865400eb60bc03eeaf0b00c13b5d00a59e6001354e930208c2760138588802e6040900118a5103747c49016d81bf00d914af00a1ac2403c6c585021997d1039e74520113e9a90273b98b003966b800214b520034f64a00fe1f460059c6f000dfdf4501376c5401ce3cfd00b4d13d02ba3ab8,
  0x1c2cc403084bf602c6df1400c9e44b01ea65990168d00203e828af0191015b02f134d5016566bb002328f103432443034ff93103a2dab1024d07b000be13ee026eac6a013acbc30090274d01da649f0013a4de0364a07b00228d200194acda03d499cd01c40da603b5667a02b42c07034c508403f36dae,
  0x3e8a38002a806a0278d95602f949be028b53260276a1e6024b7a21019c3815034c76f8038fb4c40008af620153f24701d35c0301acdcb10344788c0064806102a0e2d303f45826007c6ec40199187e000e657603fd5d4d01154d300352e60a028ec07802aac9ce02e3be58038cb49e0264eb8e00156c50,
  0x1387a500c7b9e30096c09b016ea83803b4c317011673260297c03202a4a6ca0373af6a027af9060038fdf400854dd90172e6160272d3930064e497016e38e10005c061024fa0fe0194dbc8022ef11f0006748002aa818b0200b31b0025ef9a003decf203d10b3a03ad25a7024976f701189b44028ac71a,
  0x758d302c869d90012454100e4406d028b75f501a9c32200ef072d018c2a4d019e8a6d033e51990024545b01415f3c0043f5d302eac4190062c55003cd9387029ab05d02997e69006421f80240e94f002e7c11028ac60500bc9e1102dd6276023c4aa101e91c0c016dbf4602545b830226ec440237c123,
  0xc49ef009a4ab70140428700e17ddf02bc420b00e756d300a8c4b300bc8dc30251320c0254980b0028312603e18d300274d9ba010d98c60185a0540271f93a007bf92903a300380005cda800e7fc79002394160247bfc7034e44e1008f77d103ea5eb503b7435c00c34cdf01c8ff1f00886610021fe5f6,
  0x2fd8020011739800d39cc8027dbc100277714d0034630b006aee1002ccc207026aaf39006b529a003a3a3f03dd4fc20086dcc10178b1f302472347005f6c1f014d8db1036ef0b5035ed471000b2352003aa0f7029b122002f5ba02025122da005e6ab200451e330336d9fa014cbb5300e7d094032ebe47,
  0x5cac20022a1470367a7f303ae33b802dc9a9602b3636003d018c40265745c0206a77303e2fc73002ac46c00e377ca0305ad30038a3fdd03b12c7201b1907f0086de8200df9d0a028373720385c9010032776701921e3102f41dde030979bc03e8ce24031b4bc50368fdd2033e97ee023a35a3019e0486,
  0x12040803d83c2c01c39aa002cce61c01b2c5fd016c08dc026f82a9021364570126049e0079350b002bf2260137ace402708a7d034bd03d03777f16039bc688035456ea003733ef017385fd03fec3bd0031689b0027021703fe749901ad1383005e266602002cf401048829035ff3a202d5fa3c03d9c2b9,
  0x1987f60037fc3402413afb005e4bd4014f9cd4033caf6a02b8c46f03da6168001a4bbe01b54f80002d395b03474cca0245cbec03a1e0f80388f6bf03239f2c033470c40331d6ff01b1450d0075aee8001ff39200203a7900b04abb01099be802db564f01035dd40398114903a83d2a01c07b73021d1ec3,
  0x298d6103b698e200858efb029204bd0343540100321b5c03eab3410141615803d2d3720065fe6a0035e16d02840c9a00adfade03934f7601bb5dfd012d4e60009cc08402d796b7002449f003f6c5140016df890144ad6d01f972c2028b57600008731b0048bd130090328503e5081d01b20fdb00a2cd5b,
  0x2ca1be018f98b5039a703a02456ad70362de1e00fc2404005a4eb50388d1990157aabc03b1c77e0012919c0078a36b01319e1c035ea8dc0388338f03428a950379573e02f0f4db015ad681003e57c2000ab007037fd081016ad70802ae6339001b19de029d71ba0083773a00cbafdc0056934e003e699a,
  0x3956a900bc56940055902403e2beae01031c240007f8b101f234f302c0a4f5015b4f1703bc514e003fead203bab0c5014f7b3e020f43ba018320bb01220dd003ea490800f56847020d48e7025b1d520021125500b80c3600474590003bbe2a007bb73d00bd82c003d0bd8c0346d1b100af1916004886db,
  0x1b9a5100190827008541f000085914001e4e790286542e01c0225e00bdbb9702166b80007a2a39001abd9e02c24d0d0340abbb0159615700f5b8d601fe4899018dccf20378582001b572d4032b50b20005edfb0059a090037d961e01ed1ad100ad45f900b4edec0185adcd01c37cf303af97e20185175f,
  0x3c8c6b025774da032fb2c703ea537001c0090202785ef303f14ae701cb05760336cf6c0014cf280037890a00bdad6600d4c17d01302a7a03937eea00371ff000193faf01aa1c9e037c7d5c02ad38cf0031a47c0012437603d1396400fb2daf01414e1900721e170080649900a03f6f00ad66a4032d0a0c,
  0x135bbd03de779c01524d910167e5420157150001292c1703709f5a0215f9220114a6ba027ba399001fded8013b36de037aee830010cf3400303b2b00187d5e02040e5400bd965200f5b19b02e6d365002f9fef0367eabc00b61288022bf6150089fc0d024136b202ded63b034b40740240629e00de044e,
  0x14ceda01779e1102b1701a01bddac702231bb30141f11800ca893c018ff123001283b802b37b1c001220ee015f9c0f032c70cc02900be502a5f43c02352b010100b6600218e64302280497005dac600012a5e100194d7701e5789900445892038f5121038db01202cecc2303d05b4a03d4ff2700af8446,
  0x3481dc03e35ded02cea63d0231e65b0295494103583ec601d55fc8011541f7025ebfbd02effc73003be87b0282280802328e2902fe5cfe004f6d2f02423342000404210323e194010902850158581e003aa6a102cddcb803f7ee4a02a4fb420098af7502eac2bd018a761e008a0d0f03e8258e00bc3cfa,
  0x270035029c7dd7017b59c603c97582010311e60043a7db01a747e601fb6d4201402c38022b6b440034b42e00cfa2c201289fa3001283ae03f3983f0174d6eb03beb6e9018a9af00134491601de1ccb0015e97901c7950002108fef0240f04c0103270f00d095ed01b02ad0012ca6d502796db5035037db,
  0x29e1af03f3321a00cb9c5c02c07354010b27fa003824f5029933fb024d44c3033c3f0002f1b9ab000eab53002a412500f13e1f02a3822403b4c535025149f503ef07320316db470334eccf028452a4002c1717033fdf3700a2f10a03e7e76102b1a187033bfc13006332500188578b028878ef033a8f45,
  0x22d1b101d0187603ce15bb0379cd460336a29a03423fa203b2a188009ed39801cc412c029b8330000fc16000cca3f1025773900226f89a02bb1c3903d7616500739dd3013024fb011d6dec0279cd2b0033e93f03ebfd3800a204670302e85a02a8c7160042a6a20052318e005215bb02e7f2fe0107649b,
  0x2c44a4024db5b303f269d1028e48c40162dfa5029778fb0018052c028a1db301a23438006e06270019ecb602c8f1150304f9e501a8cf7701a98f1103b75600030b6ee50063ded3030e34d302b04a1c00212d8c01f45818004679b9024091bf037c077a037da4e002a80947002f87e30018e22203b15bf9,
  0x13ddc401fcb6320152bc1400f50fd302c94e4101d79a03008fdc51014b03200087064d029be777001c25a10054baa801238cc9031670770256d6bd02226d7f0378a5100355fb1f02332ed00213f7e4002efbb70098dc2002aa79ed033c7054013f2d2402c0c3cf01641ba802b7027803ef2c2d036f8a2d,
  0x31d10d03c08f800267dea201bcedb001a751b102f0dbdb0314b6e700dd43c803509e9803e1fce60018b5ac02e5685f03c9645602e44fe601a06f0d0043258901adbacb00fa22cc0337df8802057913001351f6034f7f1b038086a201062a6200c57858009d2b8a01e379de00c458840239dc6b032528fe,
  0x220cc702427169007a6911008f2811032a644b024b16210263982402e6d41b01a80e0100d91c0f002bc9d6021024b902f1c828012682a602ced48102fa4a9e02cea30301c72c96008ccd9b002c1fc2001b0b69024cc70c03c07df601a01c4d012f3aec034153f0001d4eda02e6c62a024e1b4103bb880a,
  0x2a110a03edfe5e03a6e82d016f5a310060b5d202bc196f0034be5502c137d2017e7b6a0014dbdc00379b21035050710307cc2203eb03dd0357fe540317afd10163a5890290f229027d2bec011b5fb0002eeabf0188ef45014a553e025dd55f0039468d01218e6e019e13eb0346c30100acb176025ab819,
  0x36a4b7016bd8dd0350e1d603b8e22d008774ab01c59d17003cadc700962eb403668fbb01b22d8e0019a734002e876603561e1303fc49220213b090002ba5b8003b40ca0075849403bcc6980234186a003e39100241a7b0004285480295716201a65e4d01889d30011e020403195c52035606a30253f8f1,
  0x2d969f028e5181015835b7027d09dd032a7932037e684d01857c4f0338919801006b3c02c8e196001bbf88034b6fe80238443803ec7cea0066d7d70020c6e60232d16b02ec699202d3ff02025608dc000cd112036985c701cc764001451769029aa95e0324804a02f94ef202124b0201717fde01e1daf4,
  0x977fb0194a8e00065cb4102a21261002e4ba203d7cbbb01ead4730073144c0297df9703a65a9c000aa1e2005ea7d30143e5e801a856ae009e68ee03a9ffa30052b151004222ac0041b7b8036b519e0039b9b002a0d07f011bfb33001967ab00ab8d0201a5719b01c01889028c73ea01da23ba01713266,
  0xf4c4302e9cbc3035302c4016df64502b80c59020ba77b020d5ef20281017d02e46d9d0157caa30014b52c01cd6c8102049c9103cee11300b163fd012d80e9015ba9ee0196a91f009a72a7028e659a001984fc0231f56a01a9073e028250630271a0e101392c3600e7279f038552e5013619af02ed4ea3,
  0x14970502ddd718036e0821032352960067710800acf70302a29391036672360200c0660366903000296e920090a8f501b752350267f82503ec9edf00ff17f9034b750a00ef8a38025ecbe8013289570001b34d00a03e0401b0bc5a00de7afe0366b10c0359b5a403f120120204fbdc00ad3e2800647ec4,
  0x2cecf103d5c06601a1007b01d04f6300dce31c0390b1860036f45803d0f68d010b1742003cd1fe00082183008d4c31036a3a8e02f5896700c91a510057814f007fcd84003fe6e6029db5d40097f299003d4d6e011d365c03ae5f04032635eb005969c001c74e7303d350d2007a6a14014cc1e900fa2ffe,
  0x17069b00d1e05403c8571103692598001b100e0118acd4024c3d4c0303b1f301ed0da203f13810001d0d9b0039d98902d2613d03e6791102e21cab00b288de025fb60003ee008b0191fad600f3d0540026e19b038ff83b027d9c6001c983f40151eaad00e47d4c004862a1006c9d470320173002cd39ab,
  0x3a025002e122a803e28cc7036e01ac0306f76503737c230144f34d0300fc7b020afd6e03ad093c00076ee2019dfa4202af84bb032bdf4e0304f652020e522502c3ca35013da23a0029117200005071000596400314f95c02ffa42c03f22cc5039aba2c0322857f02fe58c50381fd9003eec35801a87e0f,
  0x22878903e0186902abc8ce0033bd2101f66605008312b803d93c92018dd7c5024c628d03bb18a50032e7dd026731a7019e43a103d741630390ac4600ff306400a389f30070252501dbdf5e00aee4bd000893e000d0141d030bec0a03999c0203380641013a80ad021a3cf7007881cd03121f3c01eb9c96,
  0x204dc600471e20039d600f032253db0355993d016a84cb034d62560311c822002196f700207351003aa72601f3fc97032133920320580502940545032b24f9017ec72e03fa80d000576e52016cd08a00360d5503ac547a02ebf91903ba93e001e4755902338733002baf9601858d6c02eff43101732585,
  0x35cd30284285c011ada8101c606b901a77999036f343e03696e21034428180308ac97000104d7000749c001f1ca030140d60301e6867501fadb510072bbb302df2f49006bf4e70158f9b801c1034600334b04018c9cb1018b9f20032c378b00b4e27e034ca549026436b800d13ca401b6c30e011e6aff,
  0x333bd501ec9fb103fd3289032d9a1a0170f85e02e1209e01e0df520124e4790159ca5702f2a86c0008d3c302d8166d0062734b02a4b01002d9003800ba2a1402582ed101c7295f01d7e70700da1838000321f802cc6ac003c6880203b6d999000791c102114a86029d72f702a6570200d12f85008439fd,
  0x39f21a02793f75017e821f033bb3a2017e1f7501bc9b4a02d92240032a01a001b9dcb202b177340001b70b017797e900e6b03e03eb688f03434223003d12b20225a3d803e1772401f1670f006272b5002e3cb100d3fec8036c93f20161e60701bf26000134583d01256b70033a7d68004d300a01083ed6,
  0x2a5e310161c89c00b35278022dcc46032fee68022de01503b8532f03425e7a022f17c9018be635001e4a5b02f55b9a00dc1ceb01f122d90039282a026bd78f00b4daa100cb67d7031804bc013a10d60028c58902c69b63021ba58403aa4b5b01865f5e004834490387531002e7df1f0019531201dcc663,
  0x333352004380f40156970b03d9f8000398cc760383a13c01a6cdc900a486fc021eac8a004245b50025a79503d2f7c602d25bf103b20144013effe002e98e1103faf725003886240325fd1d014613ee0009852702cf442d01e2013101e16821031a71820057a06303fb1e8a0171477c0286efa303544681,
  0x2d9b2e01f33da60380d13b0193eaf503f7e64f013dd50f01e361500018f3480104aa4601ab1f0600180a59013cb076028858b800788833030b5cad03de4b2201a5658a0094ea92037db31b00511a1b003885e00318de4902423a8b00461d4c03ff899300416859019cd4ce0171949a00a3f15000639664,
  0x3ea8c00214ac0700ed066400e82cae01d12ff40203a0dc020ae8580133f14a03bfc45d010768bb0010c0dc001fd87d007721080131d3ad025df9a2017b057e00648fd3022cce36005c056102628e73003b6c6100efd249016dc9b90118c54e00dc985a0009828200d470fa030c40d102e5b067035fb22f,
  0x27ba2c022d944a03d9fe86010985260333b74403b3c2e601b0fd6d008fa81e0388b73b01c01ced00395324008c8ccf00cb94720103644d018c37c0003e1f820143645003f26f1d000b15af00bd52950035f76b03b23bd302b72be401534b1800e073a80128b8fb008b601101bd42c400a99b0b0299e268,
  0x238fd503277c9801562d56032b6a1c033375e303bdd21d03c7334e01c1891f00d38662031f756600214685013d60920295a36201c19db60172c328021878ee010cd4d10228e8270275606801f965ae001866730193555c019a469c03f8c3a003dab48a03aeb3ca019e43d60071929f018de2b9038eafcf,
  0x251a3001cf54ac007e532a00c181d001a2676f002857fe03ef803803340f1e019354b702a7b9ea0017199e023c33b603d7eead030d58df0061177201d1531801e9f7b301097dc302762825028e8382000cf25c02dbd1dc024bda660339c507009e47b700145362012e930a018d02db027baac5003ff67f,
  0x31dba7029d3b2103eea07a016be9e40073798b03d314890292a25300ef1e0000794cf003ab5a96001d52650012fa8501d9bc4903ddcb490051410a029e4060025b4d7501ea93e70048a63a026554db001a11cd011bb06f010c61b2016e69970221480e03cf932a02b0304f03adcdcc030d589601e9d122,
  0x1682320012ae0803bc8aff017ace1001cd8e9401b620c703481b4602d2f15b016c28f30242e3cc00182a86034c6bda02f2fdbe03ff61460378bac9013b7098003992b402483f460083f756016df4950036fc7e03da79b1019d3aef016eccba005febd4039976f00077d87e00197f8d001cab4103bd9d97,
  0x1325210115b64603275e230231a6dd00ec93ff01c3b84203e6631601cf382102417e8800b703d500052e5b023f8cb40145c1a302696cd7001b258403d0cbfe00d39cac03730f3a005404f302279550001d06f903f7bf040188238b02164c7501ed3c3b032ac7ed019fc09f02cc92b9008edda902e72b1a,
  0x1401f40258eee10353dbc801f566ba02d2d94500207733016d91930194904b02e70f0700707d42003bfea7004b215a001669ae004ed31b005e293f028333600037ce4f023fcb36021be7b6009b30f1002258c002750a4e010e0ee302c4315d033e600701f3de0a015db8c603c6ed570388fc1f031968f6,
  0x1aebc403c1ab7703feb22a02498eb60394aff702e6994201b111740115fd9b029a9ee501aab9390020753b00cb44fb006c4084011515b603a840ed02f22b8003c3094a02b4939300a8e51203f9e488001121dd008871b1030c79a103929cb201229b7e00650a640063a03503c67c3f00be88b9034b75c4,
  0x2e296d03d3b30202260fda02a7204d0223006c0082c2e9025d94550204f3b202c0afce029289d00019db4c03d0ce73008b62960108fccc03d2795b01f2f55a02e4596200e42a5a02c498e001dae4ca001dc69102c3aaac02d82c370114410102fcae0002a9984f024e689b01c6a3df02a7f601029d8a34,
  0x3c5210012ab57900014f920017cc380146177e02d0d0750095b9c302887e610099117c03cf8b680032ba1803fe301b023df08a01a9e53f028e4737014a29d603558d7902db75ac010e8d250271e3870018abe703a1915a0125188803a15ea8004ab388000c8bd2035ac86f001e7827008a34b70176ea7e,
  0x155bdd038cbedf02fed69002efb15a0199674b0233dc8503a01a4200bccc21032f26ab021d9d590016b3d00098beea0207c9d201be0c120351d49c015d418003872b0c01a94bfb03a32b5002c18c1200045e400067d6b600107de703a7a7c600c0f4ce026fb5ca022b0d9502139e0b01059c0a03c55600,
  0x10b3580229c8df00f545ec016b967800ddb960036cf2e3008884da017ba96401eb7a0d03128e6100138e510053a125037d0b9301e39dd8023e7f7202c0c31901a6f691029c707100eae53202fed09e00013f030293cd7d02f8fd7c03b2737f0140a12201b09a9f013ae81b02788b8103bb9f0e00604c53,
  0x73527037f991300501cdf02c9b8c300aabdc702d406fd03a1a72003fd82c702e2ca78014852b10000a628006bdf9a0338a36e01b74409034124510110d0d80211c6cd00ecac4b019222480255e2bc00256d22016db9e6019ad19f011fbd9600b65ed3024dc757005e1d420132aa0403f8109e00aa3029,
  0xabeb003d52d430260fa6302de90160261dfa601e2ea0800119f760277738101a22f6003e920f80001e789024f515703178271011b9ef8031bab8f02007a6d00a5b6c40239535e01b4dd2003ab303b0010a3a10077c813000c23790154b3a403271a1d0318831f01e3457d01144655020ee65701a27ecf,
  0x1612b4014f239f008b48d7016d4b6002c9312f01f4feb102bc5799025a4a80014d9381016819cc002a2de303b6813602554b1f0298fe2b03042d2c01fae94702f30d14009a0f510387434703ccabd80005eaca0279f0cd01f7b733001df7230224e505032f10f00047c514020e96020085e3c30173ade4,
  0x387320016252180398028800b14c0a00de9bc503551de3024bbd9602e2d71c03cad1d5027ca8be00286333011d50e90305a129033d741d02f39cea0081115f0161c090021c2dfd0091a79903904225000134e2000ee92102ca1e3501aaad8803d48b75033760b401e4e0d600a3d80c02b8df2e00218883,
  0x34b3f00eed176035e1dbe03798b4e01ebcaa200c43c9801d843650356bb9800db4586009bb0b50000da4f02315d3f003e448101361170016d7b1901c8922402566e0201c490c9002269890351abdc0022ad6601e8582b000403d30023f35601c094d100fd1d3b00eb9c3f008f71be0213588c0323c355,
  0x276014029c44b60297de060073150802779f95008f3683013bdbdc02390fc80009d64b0045bf2a0015b72c01305a08014dbeea030227870198f72e01013ce5000138d6003da18401936f2c027f254c00288341036365eb01b1df0d00b07ec2005a59f303e29cb500aa8b8f026d07a00343893002abb20f,
  0xf1a1a00aef48e0334f4140323963100a7609103570159006c55810373bb2b012dcd760321ecf9000d330f01b3008d0067a26402607770016188af01d4578700f856b401e88c43002dd00100f7ec130009d895020ca42d008ec35e01b8fba901df3f9d02a188e00347605f00d4b7bc02cf9f7f03e682a7,
  0x1f2610004877603f4069c012dee8c01e4f40c03a9a40100e4f5fa015f7c7e009c7caf0372251d000b220900a91d9601cf8c0e00db8715020c7bfc0036a5d8006cbc4700f77740013ca3ce0367e4c8000eccf101839bd60167255501e60ba2036a7a5c0381656b018bc5ec00f189e6000d8cf100610810,
  0x391f88024b4fa8036d34960247015b0303ce2e032c4eb3008b8d2b0241cb9003a77e19015483300024df0c03fea99203e615a501aa7c740171fb00008c807e0373601f0115f18700d2478203856a3e000bcde300e3287d024d360201401bd603b10ef3010fd493038244de037b6197031f195b0029df53,
  0x273cbd028ea9f20245b416001dead50318f3420370c8b30012420d01a95b5d00a0af3a03adaf7e000c18fb0136758f00c2da2001f1d88e022196e101f32aa60230f11e00adcad8031857ef018b55c0000d3faa03f38a940304fc0000fc8b9401991d5101433201035eead00026a94202bf6ce0009ba532,
  0x34bdc003f6f16403bec5d20277504b01c8312102a92f6300a09fc701a6a18a0248511c0379b8ed0028ef57010ad4bb028dc63a00249cdb03e30aa8023bf1af037de4990362485402706234037d871b001b82740084fe020040ba07025ab8690154674f03e8a8bf0121cbde00f72b910099b2ff02af8f47,
  0x1674130148770c02d398bb01928b2402b47de3003f852501f5dd1503c18a3e02ae714d00e93e850038af52007668e900a4d66f0040473401d9a50200f788a202b732a103578e1403af012401a7671e0007bf440088a92c0051d43c0089d890039185ae03ee7fae03f8a23903a1d29602f6da4302c7e893,
  0x29a660375fb93027c977100c1ad26000e909e00130186005245e300e96d4300824154025b15dc00134b9e00f06dee0038d40d00769839036c91fd0002af3f02dbfd8d0018ded40143869402be25f3003b931503811c9e01cd9c0903d27d400221ef84004fa9ea02465f79025a191502be1058013c742a,
  0x20076c026a418c007c97e100376c000170c1ba01493e4302f9a66503f847da03a01c9d02c9ff43000d1b3400746dcc01a3421f018dadfa00974d61035a83a602b5bf280012e575032524d500930a110030b714037e288a002c361b026b30e203e5c89802c483800232013000d6463e03ad3e41031b4616,
  0x27eeee034811c5000b332702eb34e201692dd201b1f4c703bfde5402df98f8038375cf0195ac9200149d7402a1ed760274ec0b0202a9f40374e7d903eeab0f0256dd0100d1705f02f2617c00d29dc90029125e02842d3402dacede00eda77903f8e862011608b90348782903a903bf00db9eba020605c9,
  0x166da501f112eb02c7b2f3034a43c901b7e9ee023aa824011f9e3303ebb7680365634a03f31fab002b876800a030a7024a76b20160177a01996c730016d32501c9689802dc056e0109ca0d00c7acef001295810261bd8a03ac90aa01d92ed701a643c700afd38a005dada0016c226e00e7c50c006e9610,
  0x33cd1d02dd71a601a494b1009e34800190941e01fa964b01c24094038d81fd0378b3e9028dbdf3000858ba00460be602849e0902d5e4fc00ba80cd01c04bd1023a273302ca9e62032f97bf0192116e0032a5a603944332034cac4b012fdd6b01b80f9c02d9476c03d02fb4016ea87f035f8f0502371622,
  0x21389402b96bb90306ce610125eff903684ab9035df41003810a5a0206183a00078c070079c0ff001922d50325aa9b03174140035d6eaa01e9cf12012608ff02071c6b008d99b401b2a16a02bdb3130017ec5f02233e04018c7c65003550c600bfc40c01b5811700d6f4c400146ac40191ec9b01fbf960,
  0x2fd3050244df01003fce6e00452e380094f9e202c60cdb03ab9f1f0324c8260047ac4401262b470004bc2f00df37660168cfa50027c3b1003496a402ed2b6b004389470377dfb40056bd010049138e00061a3103fb34e000fa011f01e7089b027af6580297c65c0341f022017d55e301c296b7029362b2,
  0x89edd00dd0c5002b82bc10230c3af017d9e59005a0eff02158e0b02013f4e02967c92016f05ac0023e97a0134d35203d6cb5a0229bc630300f8130352dadd016b8eb9006f775b00a15ede00fea900000146eb006b340d01ee004b00e7100b02b0bf3e02389f8d004d71940184ca0d03b1dc71017e8f44,
  0xbd08302be215203287b4301ece26102ed4ad70124154e03ec731902442f31008df63c02c326b500332ec4014d8bdd004066bb01ceebe9020e744d0042679e00965c3f00eb9211030331da02c990d700144442026ce9f1032be9aa02e2c02b0390021e038c51ba0061f7790127b3d8019d960802d37728,
  0xac7b901d515ec02d2c1d500e9113f0369549a01d0b61f0115e78802b45c080192c6f2031bfde50019afba02a910e80366ac5c00cbedb20285901d0398778b03c5023502e9bf6202b69d9802f556a30004687b0214dfc400469035006bb1ce03b1b52101a0085e003cf31101865eb6002b66fa01cf35a5,
  0x18c51203ac2b9c0204fb7801ce83940190b1fd0301926e018795b101f58f790269044d01be15a80006311d01da47d10154328201f939570260008602ef41f600a1a60700bc511a01139c8802c7d824001d777a020ed00803c723e002b89077031721f6007da95201b793ce03eab805033b26c903febb26,
  0x1a1ba302b2d8b70287841101eee12e013c22990273235501ea755402ef03de00fd3227026236410002d9cb02673d44015f6f6b0248198a0192c0e4008ad2c4017c7c3d0101dfe600fa806c01c30681000033c1024cd88f03b6890b00ea08c6005d89fa00b1f5af027bfd1c024a15bc03793f3c02be7772,
  0x88d7f0226290000f8dbb10305fa3a03c5b25a0151b0340063c13a037f79d003f4103c01497aba003e59c701521ff70329bf300331135900be430302ef8e2c006657e8034c738f0018cd61009710ba000ce364034c5ab800f3fc4503a11af00364833002096d0801cf9fc70127e9db008f191303f20d13,
  0x229cb9015910de00725f1b00fb26d501e27cdf00c4238500a5b3b802541be2038070dc02e21cba003a71fc00f5fbd1028a8056015f82060264eb1d00968601038161c402ef40b600f4b57c019866c00031733f02f5cc430172391503a0ded103231be7019e0df1036861f102e9979e0189cea10184a0f3,
  0x1ebe48005c92be00bbf021030c6dea02413df6013dd09a004e926000c1dd060238bd1c00add3270037a3b6013d6823005ee5d002c244280174c790026f860802e11cb8014972bf025c266d003984a50029a942035d440f00be200d02c224c601d26da20322fd110312192e009797d700bc2fed033898d4,
  0x1c36ea0376a202010f355900b382590367121300328fd701c67d4500ee408600b1569a024e9d580026819b01dfc27503052ee00158feae0089b05b0028bf490317a1b10257471d0117976103ccd1ab000fed140092c99d03ffb35402315dd5012aa3a7033aff7803ece00d03be6b530212c9d4031fce13,
  0x3a448102a5bb0e00c7856803d011de01ff9c300394ac9a0016b51a0084e7cf00f59b29002094c8000b49bf00558a860144c3970383526a0300870e0176ace501596cba0260210a0007ccaa02d385720019b209027719c703e7d3d702e95ea50003308902e977520319eabf0057368402c49b1203168a4d,
  0x1c0201473c2000e9ebdb02c0e3d90000c0cc02a988fb00268ba501d1dd2f00a59e9701d66930002274d900c857b8007efda500629c8b02178bf403cf644e036dfbb203ca22e201a2e83e018df7f20009b173008074e201e8e05a024470810047571a02ff8ed303ecbb7200d51d8502855ef902f52c4a]

/-- secp256k1.go:10, serialized bytes 430080 to 460799. -/
def tableRow14 : List Nat := [
  0x0,
  0xa64c3006af59803d07cf301d871aa03ec6dd10258e4b403ffd2ec03bbf99902b9ba5e0146e44c0013b7d003c1cc2d022146ad02719459031025610370b6ba01e9672903dfee74030c3119023ff6c00017eea4026d2eea03d3942600de895d01051ded02b60a7b0231a3b60347d273015021c10008f639,
  0x163c170322b29903c17840032e463b0166a43b02b9379b0255d1aa0096b422039f9de301b83366002a1e050156cc7a03f97b0f024a319e03e8e71302ad1cbe021a740b0395039b02a52c6d010f8b8a00374333003edc6e01ccded801f1baf60335712900f30ceb032bbc720188cc2a035bf1c700c5c241,
  0xdf86e022c4ae901bd29dc01a8bdc701499929033106120376be6700f1a84303660d6400af964e0020cd4102121d1a028ebb25007d1edf03a59bba031e435c00ea115c013ea8bb0102ff7b03d81bd600271f9200c4f37d038058e403ca6faf02b7f81803399b970206aca70216359b0071e6b801aa6b78,
  0xed86b02a5dbab012ccf700010b50f03efc9e400284b080117bb160114c0a6020c54ee024e68770010b5a7008e091200fbea7f03ed6bc402e572eb02b73f250085ea9b025ffac403bcd724023e0a9000270ff8004e95e400e4e63c030049c6010cce8703087ce102d8d4d502cc669700e36bab00cc2962,
  0xe980a01b7c2230371c72a01e5522a02c4402b023235ba0146468a00da3826015cc3d403e5368800049a2800b0de06004923a80220e6a101b0df6c01d28f010242038b00870a71036c77d302dc3051003b2e00035388980016abe901cb15af02ffdb220346d9ef030212ce00da44e100b2cb7002d12613,
  0x309c6501199cbe03890c290126ef8c02fddf340138824003b6777901e150f10240116b02697fd6000e7c8c0272e9f20367dbec0216bfd400bc98e6019e0fa302db4fc2011b983e000ab09f012ff7cd0005157d010694a60209ee32001b10e800f0b51603b2c41b03f8d9270363b45e02ef9b4b0101cbe6,
  0xa1ef7025d1de0015ef9d001f886ae00b04e18034aad0900bf2ee0022d96f90134c54600137a2c00064d5102abbaca01c83dac01d10df003a19655018e44e90265e3bb010cf7ef024be56e02687add0011ef460084424803a5ba95030be2ea03e72dfc01f1fcc5004df9490261725e0323e30d037d6b8b,
  0x1b4b6501b7898b03789102021bee4e0218870b00f6c92e00a1ef380081e2b203a21f5803e9cc4400387d5502b0de6802c13ef200d296cf02ee6b9e0149adc000bfad0300db431b01d4ec76030c0cce002030a10253b6cd002b76ca0388418101a209f100de590f02c78e370262ca90019643a800fecc2c,
  0x1b38180213a176003387bd025d5aaf01aa93a3032de6970277a2f303545a6201310a7300ac55440011df01000998780366146f02a6497d0272e54c034d95b00060a5a00260f0f2036d52eb01400117000cd7be039a27f003100494019dcf8801774a9200a56a1a030f704d02bcaaf601921c8801c8fa3d,
  0x2074380346fc9f021c2904003b64490243098c0332bd590243422803d32c1e02e329bb01e54e2e00127af9003d700a0312fffa03d8b8d5035b6465029ba33403a71cc702e0a7d501cdc97002e5ded4002204410078ed8c00b2bb020032743c00da0f02032e4cc502b188610276a3ac00159e7301636386,
  0x22f080022ccfbd02cff35e03c9b0bc009a60f70393408d0181297301b17f7f019129dd00e06f6a00132b9e02c40e8a000cedc00150302d033509b90335ec0300b7c28e00d80c3d0320152a001e6874003b4340001d99040079de870148b3f803e5086e010ea5b103e9f65f000f3d0b03298d37015b5b28,
  0x3a28a50129a8e202135ed900d6c8c002a7cac503456ba600b70d77003610ce01719958038a609f000204d000a3b0df0103a86c007d2a5502ba1feb03eb276001623e0e02791bf703d68ccf02825e49001cb6cc0388c77603b8d96500bbbcbc03b46f4600188cac01e14f830106cb470017d4ce02b59449,
  0x2183d400da1b5201ff9488009c5f0f00b931e0006eceff014f7b1602a7eddd014ff89d002ddd70001a232d01a0dc790137d2350257d0ad0398c4fe035cfacc01de3b7f001e62580311bbda03775fca0005267e002fe33b02d47c1e0398a5e503f5757000927baf010b7c38015fd338023c62200157016a,
  0x3a2e32010c2b9002cac251003ad45402879cc2033e545f021ff47301b833fc0369e9db0124230d0004367402e6d7c50098602d0129abf40072de2f00a47e790116dd5d032152c200c3b6a9000340590009367c02b719f4024becff02e7aca202f03fc001767fb402d491ab0326ac180298e09e03493a62,
  0x27455b0243649803c790da018ffc85037987ba03969e8403f25727010fd84e03f89939009a180100299f90003500d502e5037200ebd5ab0269aa14027111a300ed163b027a1c010398917c009094d5001a968b034beede03646c2002cad97e016bded400dca734030a090d03af681703f924d200020c11,
  0x2c05c02ca660c0340d10a0181a66502ac35bb037eba8701689de102f0508801e384770167aaef00329d0301b0dd2d01cb480d0367452601d62f6a0076259900d1b5870221487c002b472e01a809b00027487b01dfe15501f6a42c03adb95c03476b590378b03c023213270325c86f01cc019e0381c970,
  0xcc9f9019bb2800188e0c80327705f009c16e0022f108102fea3d803d1bd83016d90a900d789ec0012e74f008ebd4a0339023200a14851006b6b1c01d3380b001775d9010ec5420340789203cfd3a100317906010b26390399dd8301b90c52027993f5021af5970335271d0367718a01b751650146dd3d,
  0x14c0a20185ecf30319a38b02b39a8b00465b88018ad85f029db0890115d60602f4adb1028f860a0016deaf031bc77103448ec0028fd30b02faca1b00671ab40080a83c008362980355ca4a035ec531002a81c5019c7e690140d7be00835413011b623a0305e27a0354dc8e00519d260186ddc20299da4c,
  0x3a09560071088b01fd9880003c9e7701107075014c0d770353dd70031b5c4803fa4eeb008605920029150602a1200903a4f68801fea0ef01cb2e2801ece0d102678ab101e4c200022e6e1d00c511560031d06202a323590339d14d02bd09b0027f8d4f014d326a028757b80235776e004782890140422f,
  0x128a1d036e89300081fcc603776d4f01276dd00292c7310195c9f9037768fd0210c5ef01d71f59003c9da003f95cef02253a9a00f8b04c01ce731f013151b101a147e801535e0d01cf7b9c00d6a23a000af5a50251cba103afa4b6004012b403fc78a400ed2b9801464bb103af483301e26410018b8a50,
  0x1e5c8801b737ab02147d69004a454503961c080282915f029b2347032ff85d03a52a6d017d97350039e76100187ebc03126d5b01dcfecf02dcd98100beff8700622bc703c5ca350262d51603c5ed67001b70aa01652033027a822a0026eab800bc474d0350edab039464cb005a100002eda9ad00c019d1,
  0x361cb203bbe7a803cc1e510187a8ea022cce8f00f6a85e023cd73302af9b5600f340fb01f30790003f03d0007322d401a995d002a0d62a02e686f601335c5c02e07b7d03deba8e022492010044d948000669ac00d761c700facc45026bd4c4016f211202ac0821038c783d0061a01a034acfff01def435,
  0x335ca0029221940097a91d02b6be6f01759cb20399d6bf03fe41a40148f19e030c52f3013eed2d0019720d00d9895100eede99039611b1030ea44f0034bf6503a84719023dbb31022021c80186eb4e002eaf6603930b5c01baf09b00adb17902cfe1f603ac8da10376eda5005b9b6d0350e63801a8e2cf,
  0x1755480188640e018e2e8002be230501d82b7b00513e610337915002005ab302dab0580034c83c0035fe440218ab8f01c7c851025eb362029521170099384e039d6fef035405a10368cfea01b4b0e4001066b903acf277002ca14901413f22011337ba00343698009055e500fdd81f03bd23d001e3eb27,
  0x1cb7800301562300bf388201a24285012c42c5038908250199f3e7024aa679009899de014b03f800265dee009e7bf300b1d5bf01c3f5f8002bf406009ce67600956da501066503036c1e6003c5a9f10019ad5e03b73b2c02ccd0a0033517fb0166e13701e8dc95020eabb802da0f1500cb288801d6d3cd,
  0x30fbe801534b9302af804201421ca000e4ae170236112a032abcb60370afda02813fdf01a4a9b2000cae2e037cc788012432a101a533c5027481330202c9d2009ae8d50149183201fbac3d004b6d230019b2d700a75ea300b22b5d007d2aa900383c4f02ff2d46037e2667022d959001f4712d017a14a0,
  0x31cb900816e8703d14198031ac19401e958140146ee5b0382944e01a344bd031a944901e356bb00281851030ea9a901562abc0238eeeb014cca9800bdbc77003fb6740123e3f5035ff375036b07c70039370603a7b65702791641014f925a00f64188020ffa7a016ff2aa019f3b9103e63f02023c2c4d,
  0x8237f0270ca660108efb000b12c5803b232ac00c79fe20281ec90039c4cc70382a57a03e05f2a0015fc4a039a36510011bc6b0079228300ed368001ea588e0272e2bc02e0a3e30345f91003b2144c003c410702c05ba8031432df00fceeef0041fb6f027f6df3036e50ef015209b4012e4444033fb9e0,
  0x1eb5a3014403a40145ad54022509f5035ed979035fdcb9021631290125595302cc35cf013e16ce000db0b501c2f71b01a804a600582682008b1c1e034531c40347127e008b0a5a01f9293c00f688930024c8bc03546f9500d7feb60033f807023204f20023dedc02b1662f0159cc1301d1652301903a1c,
  0x22273b0333d45001d9d528035159eb014d43750183728102d6244202d220e2002b1e1e0247a4ef001722d702f229c20211163a0153dec40018ab3a030d138003200eba028050fb0319a3a400d0ae1a003238c2021bbc7d00ccef19008dd83d02cbc4c103b95151038010730121f652035f9dab01182597,
  0x14ad1f01cc64f2024db94e013a0bee0177e7e30018bddc0037b0fa02a24f0200e379ee0156dd9200005ed4004e3d7903d12e4400cdf25e00ec8f53018ef4fe003141cc03f4539502f08ca101065169002e057c02b6849500cd58a900911bad03d3040202965c7800eefa24013eee690333cfc303769bd5,
  0x32446b034ed7ad00ca03a40373e2d501f5d4e502be8832017b13250310b6160006e020028fd29e0011eaac0143e380009bee9600f195770145a6cb025719f402c24c080061f9e003e259e00173e878000a232e0167ebec026dd64b00cade9902079dbc008262760325f26901337bad02efe8a3000ce25e,
  0xecd0b03a4b68a024c62460278357c03e1c0e801cea7cf01dd499d035505af0307e323025b93a2002bfccb01babca100ba99a802c317a701e728ef000d3a310088c0a100db732e03de7adb01b4d891001dfca302565655002920eb0182db410324a24b02575b9a026a6597021b805e034f0fd401122a0b,
  0x5799d01d5478c0183633d0092689103b1685901a2b27203c2f0c40083fd81020f080400ac9d56001e91ee037a18d3023788e902d59f920210547602176784011bdc15020aa3fb0140c38e007925710011eaa703b7093d009c83a102b3c43600ac5fe0034924f40200fb23022f4be400b3440001748f35,
  0x1df21f0286c550010ed51603b96a6e03764e8e034aa81d013dc08302694ff003498f0400aa1bd70005326902a1e4aa00d85fba03cf6bec00ea3d93014b6caf03b78e990267a66502c44c3f00940dfb002fec3b0223ce6902f0952e02fbbeb700c17cc602f5517600f7f0f0025428ec03917d7002133e8f,
  0x14127b03f1a72d03df99de004e77480181ff9c02e65c9c000ce10b0017b8d201e97d2900fb8baf0022440d02be684803a90b4d03d78fa60399be71000758b6014410ee013c4ccf00fdf9de016a4928001fa7dc0011fc6c037efe7800b00cfa0073f6d5006d677e009ce26b03297d3e0342d1d20242a697,
  0x28a9850079c96a00d4bb06019be18a01d0506701196ed700ee967003500e4f03afacac0063af8c000018120169b32d02916b11006287e300d2b1c00148883f012887c5033294e9021ea1d801f4506f00340909017d83cd0010f92300292a47039c4cd703d330710145988500d9edce0089f0d503da2b8b,
  0xea223031918670004339f0344d7fb02ecd1e000da33a002a9b2c001daa1980125245c0366ac940036d6d70143e28101beadb502f5df7e00b1a3f5009625e90155d8a300cab8ff0208c9fa0107cbd30020abb300b67f170336ff4203ced0ab027692e200ee78c50246959a02612e0703fdf04b00abca35,
  0x6ca54014b84fb031b3f5301ae63e201ba94320084d96e03b286bf0320165102c7d6f5018e16c50017a1bd02830bce00fec45302d0972402573f3a003cb2a0036922910095777e00f6912003881320003f94dc01dc22b00363c8d30388f2b101f5a3f00225caa70181debd011e875d009271ea0128b086,
  0x150c9f019c97ed01b850db019e61fe018cc5bd0270e81b0004ce1101d24e5b01d73cad03dacec300213a85028f722a0345ac58009099be0063f55f0085812b0168138f00cfa70a003f1d1e011c854d001430cc0178600a03efdc640169d2d7038b887903afb94501899c880351b8240296500303f195e4,
  0x2eb3ba03bc586d019f090203b0db2a00f1648501cb083c0261e13e01dcb8230060377b02f3be1d00249f3a02702eb300ba65650393cbc401115a1a00af168303cd921600cd1b6d0075a69003ae87c2002f6d03013a2ba801dbaf9101c9b5ea006a5ff8030f550002ab738e0148a1dc002ab45f02e2b8e6,
  0x8f40c0352faac0352d3ed011577ef03253e2f03bc280602030e5c00e9d13c018d714702b54ea60009d34103e693d201143b480089a1c00306ba4b011316e80064c75c03d7187600cbd1ae012362aa000ab73b0295b14003c4f40500a9c8790355919d03391d2103cdecc3006c83650378c86e02e3c123,
  0x2ac94b03e6b6ab00e6afab02be0329036236d20321b0d800f3950d010fb433024bffe4012f038b0031817a0194de8302ce5b620134fa6301d5007202bf484e012522a60326cd3700f72f3e016a7e42000bfe1600b1fb8c0333ff40005307c0013e5ed3027907bb02480875024966950385461701be1a98,
  0x2c4c9001f82e54018bc49400fef08001ce99f200814cf2030f68f503d7b94103a84d9d013d7d8c0014a36a03ddf1d3009a43ed02ee0d810041288001b9dd36014cf5a703be25a70224c2e60086328d0032ebe902ad30d9018f8a72002dd2d603da2aa90294ca9f006626d50185892902184b3e0336a124,
  0x1475b402c3656303c4a8ea0049e6ca008d382301b3717100d8a7c003ccad5e01a99b0402f024c40006f4d7022b6fd502b52844024344c202f29e3202f58c9302aebe8800a7dc3003d7d80d02876fca0026ecec01b6ae8901197f9903d18a9802e08ae500ab89070246ddfb01d26e720209ff8901ea16cb,
  0x167bc201d2d6c100e6fb3800c1ec79039d12a600cad2c502dbf88a015061eb015e528d0321fa8f000622cd01dc6c5102143e200047d9e000f73019021964640198e05a02682cb402aa787201d1dd0a0008f8e50339157e0294b2c203137ea001b7c04b0124903d0317d71b01c8a86a0283f1c501c78607,
  0x2d999202a200c0001270eb037f77c60036449800b065b0004d7ce20220979701c2eaa6010bfc5300097af90181535000d5a9bf014c5c43017ea4af02e0eedd032422410111bbf3017d3c9e002ffd200004b2a200ddb00e010dc7fd028d63720242ce2d02572fe002ddc34903539ea3009a579f011fbf77,
  0x1d0f1401330383017e668d007e6eae008945ac00a98e7401289d7403aec2cf038816100393d6aa000d57630128e841030c85360038b35201602c4e00c4c3780104e86802029eb80343c7e202c6fd220019ba950257e1d700d96581028cd2e902512f5a00569dcb02ed6cdd031d7faf0244c5e10090f4eb,
  0x1bd63300a3ab900172e760019f4cda019688900307c3b80256dff903a1eb55011927e1028bd75d0007f40800c23ac502350143021e342003b2f10402b59bad01cd91be02d5cb1900d74b5802106d4b003d27ab02b74c4d01b7dcb901e3a12e00d8872501b4c05100a15ed503459e8f019335ca00df7197,
  0x22ae5203c4166e025cd15501b6c08f0358a4c902200e55032fff620223253d0153d8380159b1170026bbaf015d2c3f02c1f2910078fbad0082714700f6ab0c0129a31e02e5512801c67f3d02a794cc0024d05603852ef7031314f70303791c03ddcb6900b0fb1401b3bf24005438a603f5a393036f5c46,
  0x20a80801ad374202876b8500d0746702319e76038f0b880294e01701c330b203c3fb6e01028eb1003cb34b023ce0c202d6c30800402e0a03833c81035bc64a01d6f8cd004cb07b027ad02103601fcd00199cbc01fdc01a03cd477b03beaeff0049ad4601a7b222003e781801a20cda032f36b701d448d3,
  0xa056f01eef3aa02ca9347033fe30603078b3d0162c3a10343ab0100b1775d038c0e3b006c14dd00185ce501e6b37b0384224f00654fb402bd9d9802143afd00b0fbe8021e49df014da8f801c16b6300341d23013c80de038ff86401685ef5023e8f4503117b8303e44e5702f04d24009bc1ad01b6da7a,
  0xa5a401728fa0000d954e03e90e7301ce21fe029d49fb0307f87c00c97ee103460a8d011122e400310582039bd495002a2e1e00fdba6101c934ee001e953601d0144c0172caaf0387c68f026d4f81002482de01a5fb5200e449ac0257e24902a2374003a3d2000395933a00b8a48d00762c0803bc24d3,
  0x2e941b00a6210a00f21d5f03173110016d16c901aa21640211705b0363f8e501d75a0f02a3ebd800270fb9032ef413017bf3c0024ab12201233e4403c6558802f0c5700212acd403005f5c02a57ed50017fd4001b67ebe022d1f4a02a0e29500e19eec02cb1b15001977e700d9fd860269e34901cb4bca,
  0x15e97034c17b1015dd3ff009c739f025ffb57007865b0019cf48d0377724d030aeb8001e2c188000112b200001ab3030ba08d03619bb603e63a4901ae8b9d00ce1609030bc85b02d9f7fb00e59cc0001c117a011884950246064b039d388e03ce54a802b197ef032f8d5d0284e00e03f58758007449ca,
  0x3d76130344f7cf034ea6860087ab9e0358ec0200307f2001886a17024afef8001bd22e001374140031e84201ba76610124f98003ea219a03451167019e9ef3014fb33c01d8c5f800c84e3b00e2a8150016023e021b987e0269e5670255376a01b623bb03f1756503062f10030d8b0200eacbca01e95d3e,
  0x1be027032e9b1c0080bb1d0281180c032b212b0310e055029ea06402183d5d029280c50371b32800152f5903c38905024a77da00090e2002f00f93015f8ff901de2e6303b6bf7700f3f93d00677caa001cc81c03dccd0701ccd2dc034d5d2501ef7a01009ddcfc03fac49203fc5e73028c128d0163a50b,
  0x4f90f00787fc60284d5fc03f4be11029462c600c752ac0223d03b00d411bd00075d110239a3ce001b700603f3605403beabfe001b48f9012f5fbe0029a534027a48c102abb94002495366005f258100192744005159120359982b0293e1a000bc948e01906cf602c72c73018d81e3019ea55d030df4fc,
  0x11b66b02586dc603707edc02a6837303b556c700de40850342bbf000a30800029780b401f965fe0032386b03e5c1020393a42401c9575f006b1d3f0235f6c30171c12b014814380174aa91026602c1002049bc01d9e79302454a1b034183c6034806450078c9cb03b4a19600f403cc02f3459501f3ce3c,
  0x11b43301d85dea0162b29800a01be600191e22004f7f4e02e58072026d2058035ce46f03e9e78e0013b61c021ad4de010f7f1b02a6563f017861ab002a405700ae087602091a1b00e77ede022c6614002484a8021569b8004c391202777250013bd3fe01f5a5e50086dba600e2b655026b42f700a4ac7a,
  0x23e38200065bd4002c04da0066d71b03b0185202f06f540278c3e700cd7e0a023fa5750143a3d700138d7a02b7d0ef022ccad202efc8ef01049aed03464b5602730ba4033e002201c68006024df5d700310e5b006d6852001595ea0356f0c303b1f8e401c2a01800bc55d5018ab5ef0047333002ce2add,
  0x1b4b930148a08103de421c005975ef01ce1cc70295e80e018a8b8701486c5e003f97b501101e65000d2081034cbe66034b7a2f01179f6e012e1c06030e2c9e0234b12c0351af0802d96c340321794f0017049003876f93036c07c90221aa0c036e18e9024b478c027b73d901b8e03802e1980b009567b4,
  0x81d8a02b19ce4009c560803e57dd003e8c03c00f89cc3035e07800223cbad01dea8ed0021a0d20019b3a2009321ce03164a0103dcdcd802476060002ccfea003ab7ee0151c40603abcc9f01a97f4c0023241d0383299a02cfa28702aa1fdb02d5d923015642b002761cf200d1d690024a4ffd00293032,
  0x9e38300a09766008d453e0376d99101ccb5b8016d380e027c1ecc01762e2e00d0987b03295e85001ef5da002d8001004ff4ae003a6c7201e45404026c731203b7d40000facb8a01464f9d02cf914900374aba02243ab401dd2a92000d34e9014d8e08027a906b002788110213af6901f4b7e00367da78,
  0x3953d900259ac202f9d54e0375e1dc002a97fe00e4089403a1153001b2a1b300dba4f20377dc94000d042501be7b2f00392553032a13d601fffca600f60325008eceae01f097e80190055103a35a2c003e76dc03d3ddc102aba7e102cae5f801994de402f2183d0020656a01a7852000b65f7c01992d80,
  0x2b37900b140ea0339d13e00431fdb02df37dd00b6402701f766c101c9e7d303e4045b026417370003fc00012236f900920f9b011d62ee03d9c2ee01317f180052a85a0353be6e00605f6c0073a12e001b9d53029c2d920227b2b1010e60e901f3fab203611d4903f44c3401c45af20074bb31015a5941,
  0x33453900d4de80037b6f74018773c403bbb7fa022087e003c2d019005a3af4034a2e7c022ebdef001cb5470125a0f30331a168037cc5a90249b813001feb9c0022b7e2033c19f8004d83e700fa57210005fb6c039840f20183e0a7027cdc7501af255b01ae45a3010b9f46029588f8010c816b00f4b57a,
  0x18bbdf015af99502af92c2016c7dcc00cac4ee00e24f1401c3fd9d02863454011d879f02a88b9f002d14260063ebc400a47dfe01704ab2012a42a90318e38a036c4eb80150a9d700c3846c02727b03000b1a4703622e99025d1cd800d215990064756403871e770169bbf101b54d3100c2167b02ff74b0,
  0x2a8e7503dc7f6e029f7254007c08bc0349805802832a6001d2c37a001b0fa0026dfd7902c1604100278a8c011696ad0236f44603b8859500731b22008f9be801d2fe9d009713fb011b016101be591c0007fb43034f5658036c9e880248f4bb02f9c229020aa7f7002229fd000d6e6302232ddd038e1590,
  0x10e59501ecc9a702db309103a07a5803f6a676032a678e0060ef6e03ed16fc02f8fc0a025d5174002c076203b6fbb702acdc01030be68a026536b100572a360251afa5000528ec0229862f002b5cb90017600000b43971005c91a2004b269d016c92dc00c24d6b0202eb8d02b6780a004579c203a519a7,
  0x9d17b02418bb901fb3b5a002507c500db1ac801fb7c1501fffc3d035682d903798b1b00738de20014d4e7034141770173d3e600bca1e0031eeeeb007ab10802d11174034476b203a06b2100d6388f000026ce02520d77029c20bc029e5d9c008fde13026ec5b500ab728d0206804b0280f2880349ac35,
  0x3b1c010242357f00ab4b4c006eb077012c2eb102c65bd001967de10080f8dd00a7db07008675f5000e1f02018d0b460040adcb0285e5d801ef5d7701a0b8a000e667cb02ee671e0038e44f03d430ed0002d43601f8f7a102d375d3018f5b6802a0c6230389c49300f8832001bcc86f01cc72f102eb0f04,
  0x35077036a321a032a4fe802f769bc01ac68bb03dd58160069882802a68e3f004ed25301cd2cb500067df700bf878c021f74ef039fe92a010ba8cf02693a4f021a65bf03837f4f0361909101d9581f000f22200220b8d6029eba6201c857de02abb7c102a8ab6202e21e24038befc102d80e5c01dfe29c,
  0x31aebf0030411800f6aafa00eea57f03f55c9f037436990257fbdb01d554bd0343e78e017a6fbd003263ca031d40650042ba8203deb4c70225ec510212e3f3030feacd00a3d495030bd5b9027ceabf0002e239039e4c2802f54394019f039300316e5701c06e72022bafff01918b1703e13f5402d237fd,
  0x2a79270109ade901b6919d0248ef0c0232d63f0191c2cc003e485900a5bd9701279970037ddf56003531ef0018947303e43e8703b6235c01c51c5f02b880f70143a02e0335c11e007b6d4701d40768003b9cdb00022ff801414bc002fab9b90077b3d5023ff45b00c0015b00a9abb801de68e002f30285,
  0x329264012d044100eea1c302b0cc9d031040f703a61caf015d4d4d02a7dde003a3f24f03558f010034778602e78d6201a413eb031e4004032f1196009d51c901c77e6203228d3d03d08ccd00e2f48200355d00015d4bc2014ced7200246cfa0192a03b02c83c6a00d59b8a02286e3703f15eec023fad36,
  0x1232390053292102b66a4402f1ed9400e08810025330ac0335169d004e1eab00022b7d0067fb9e0038ea820188b4e70205f5c00195310c0340c723012e405d0048998403a3fb97026f62b80128794f000dc40a03ea5a7b00c5d18002936486025fc2a8019beb06004fe76600a8b63f027e768d0013934a,
  0x2cc99c0111f3bd001b68fe01243e1401f3c006002b51be0083767303385b4e0044a4e1019c616700357dab0353cef5026bbc72011645d90004ff25000dff82014154f302ac750e03d2e8f102a7bebb003fdb4201803474015acc7901875461032a881a01cb203200fc036000e641f60050689203e96b02,
  0x3645ff01ef3173002ee3a40093a671010a1a7400d47fe701dc0f71019c46990285a63d01525c1f001f704f00c3882a01208d000218748801ec0f0303bfa0c501d064f6022a774b01a369a00022282d001c4d290315623603c3d1c30330a2bf03d315a802626689020e2b7c022f6bc50251ac21020fad19,
  0x3c6e5f03d05a7302daf85802da7ade03d6e401033b8b1602b4892c01e57ae700afdc8b03dd1095003ccae201255646006098bd01844b2502dddbf401e19138033aa09e0284d8ba027df981007d19bb00392de8032eb7ff02f3b6830399d61a02dc4bbd0068cfd803ef5bfa01bd7117004339b102c1e020,
  0x1953b60242982102afb32b009d7b74003e038600e99d8f004bda0402eb0b1b0126673f02cc88bb0009d2c20037e680034438a7015e16ae00652f140247beef01c8fa9c038bac1701a78aa3030fb763001c52ce025bb5ef01b3b4b503de4d05009d6c4b032d4e0803f36ad602f8036b029b9e1301b1e440,
  0x2818b00201213301617200024a337a01d2a549005004ec01f526e802c538f9027009d900cd2619000232d100f53b460393c8a40228427c00fbadb7017d96370267b18e01fbad29028ceeb3037651d7001fd425012200cb02c7fb90000efd96010147e9004838bd01238dbb0274e2660002102901e55946,
  0xe7c27024594a902a1631703e9e94901c329f601f157ed009d028b0385879b038ddbf80344ecad0034d43502f200c30219603900bb4f500184218500c744700234c347033973ba03a2268f034f246300137480039025bf021f5a61022fdbb10160aef801d922510075b15403a7fa1700a36dc502ac7210,
  0x3d55380100343a03f5399a03d300e803f0ea5502023ead005d821b013d4c120338be3b0287700c00176d1e00ba7de30275077c0326e3c603d64bcd025005de033c47980289753502f49ae40020b4e200161e5e02b47deb0351c38a02601ec203418f55009dc876037c3ed501f6a2250220737a036ca81c,
  0x205714039e93200066520f03c797ef01cf260603d94b5301e9b26f0129b5740225ff92021f4f130038468502fdee2a02cd0a6101cfcc0503ad40d600b39081025e44d003d0371e023984e7012cbe9a0004e81a003a32db02746bcc03316c8801412b5101a6f10a01a79cf8012d67290010e9fb0020bb2b,
  0x22576c02a56eb502d73baa03096dcc00b19b1a01da03a202b9f46800f83e28024e62d502e46eeb000e95a4030d828d03e5332100b07f71022d145a0006a79200014cd7028520190037260503de192a000585e801856d10037fd5a302f7f46d028ab10800c9c8010056bc1701870b3b0181088700c11419,
  0x17ded202376a8501c9b1e901cf929a030bba4803670fd201ec53e702dba86802e69be50272b45c0013d384002d1882008c0573009af83f0068375501c7131b0388850803b8cdcf03d75848027b12f20002c69f033a5fc6029a5dd20242a00101e051380068f7ce01729db20075d7d40308bf6d00059357,
  0x233dc50075025302b8748603d4454f0133387500b7f66d02de76c60146ce4601e4ac31011acb78001479d5001eb25b00b64dc0036158f50306278601d202bf009b547c0140ab6601d3181100935e07000ed65900dd152e022a91a903d9b8fa038e69180270a5dd01b421a60008b03d027489d003c89ed2,
  0x310f6d0306c64d002a2efd017b3f1e003c24a4035d9cf4021c0423000a565d02335af601924c490025463a02fce8d700c218f5017758f0013b2bb600bdba2e0077d7fc02901d5200022f1003e6c7240027520600133b4b0101e9dc034dcb06010fc5560055358002743c2500b878ae0259c5e202d2201e,
  0x3e1cb30156b3da03fa2d2f01565c7e039684180244a0b20265c78800cc0d8701c7291d02989c39002f2e930020babd001234fe010595ad00085812037391b302eb9ca000b9bdf8023928ea001422e7001e4b430211a34302ad89610351b12e038f228200ca57920327dfa400c0218900cd5fa202d1fc7a,
  0x1db06401ffeebf033ab047002759af005d3c17039ffa2400d1fd49028e5b0b0385102003fb29580012290700510be300ce4bba03319b2601bc7ee603c2489f02a430be0181649a0102591402c57f1900063acd0146c6a40276003700c69c00002038b300cc6b900366ccbd0233b1a0026f53e300b1daa0,
  0x328924013ff7c800aef32c0321a68b0237618d005adb0300cc02ae01e61934022d47ba0344a5a1001bb98603337f5f010a10200125ff3a00087e97038659cf003a0a970099cb98021ebea803d101e700366e080281f70a00cabc890274e53501efeb8b026b3c7e03b41ea102efb5ac01de88d70004c91b,
  0x3a1f07009b4e80013c8609024c8ba4003e7f010091310700e059f60302cd63031ec098021b844a0006c93001758d0a03bc6b6f01aca1a8013b0b0702ca176401dc378f00e1850a027a2d7b016540d30036a42902b24f6f026c1e7702680ba3007dfc35014c0e6f035d10e002a1b2c10315273f00139a13,
  0x1d132002d300a601dd917c0188f4570360a2e4036456fa01e302960224f093036fffdf014c31af000cbdee0058110403057bd800c904c400a676be00c07c3e03a8524c022575530016539e018a2aa7002680f0013e5b480211eabf014fe193016c40e401bcb05101debccb036b2a1a03ee689a01961fc4,
  0x1e9ee201fb210d0047990c03039d4d02c239d703d570eb000cb0130013af5102080778015b1e8e0025223d0317c721032a3b9302a48d4302428eff01eb05b00397aa5600be4ee002c9772b025a3692002146d20182937f0155d52303f3147300dafdcb02f5b50801932897030e6d0200bcc2f800e48909,
  0x39d8c700082eb5017a1a3e03692ab4016508ab0391479e02fedf9100d904a70108d4610207f0f4002855ea0375419e013f3d2101d33f8601b4588903f7cddb03d0f949012c6d4c0008d23601b809e800197364005f82d803ae0d1c011bc47f039029c402c7ae9d034cb419016c82bb007f59f803d6a8af,
  0x9a011013750a9030e32940339f8ae01bdcd4b02edadc30002b90a01b6b0f800bd28240383c6dd00300b5b014474440334411a0055045c006aedb9004d6525018bb14d009d40950329826103291d630010f44502de0d6703afc14b025aa2c301a3573c01d6d5f5027c0f9d025290eb0282dba30023c92f,
  0x216dcc022e2bbe00ab23d70136c6a20380b49b023a31c00392d86a022527920062d93702b4ffc80001fa6a026e1a7703889e5d00bf4a3501d5715201c50c12038b5c80036c8b3a01695b5300d8de16002e1ba10103eed800783c91018c2f0e016e4df8036553b501212530000d9f9b00d728c302c0b67d,
  0x7e8190309001a0309cf51016b2cc9010ce63a001dc5c4020ed7bc01278b63023abddb00b61e61002380ff03f09dd303af23e00142f2810177dc7f032b7d680069ce2d02cceea602224ceb0362db61003ebf2900c6791c0137f213013c8dc000d3821e00df4bf8030472a601d3fb83033d2c12005a9dc9,
  0x3599a4010dc30d02acb2d202c78d1c020dfac50329a7eb032af52102c20f9800a8947400eff276002e20b0030cd89e00bdcf100220f70403d4a08503f5d38900a2fc6901fbfe1a025dc6fa02c15bee0005ef8b0341df610198debe03e3607b008553b103cc12be03169bae000a8fb90212134b011d7754,
  0x1bc03802726841008ea38601170dde02c6c6be01e004530378952d005cb5950332f6b40384f692003a4b7c022e8750034ae18501fc003200d660cb0341d16902a929db02b89d8403a08c900246807800390e2a0096639b015fabef01b4cf9703dc01e401016d8b01e6533a028cd60a037d8739011ebd9a,
  0x3affad00d4e3250002ea0900456d6701ea7318033c25b303a4c110009d0561025fbe9500db2250003cd2b20207ce0f0350e3cf015a974002eb340e00aaab2d0231f5f601034ca0032be14d0092d421002ef03701f8124b002d1f83037eb71c02248a1b02b1d74002ecf7f5014fb0a8038e43580313c067,
  0x331fd0009012a403226e2801b7b85502101b5802f5fd200284bf0c03f3169c017ccfda00f0164900331f870054d178004aa72700b4baf501d3914d01d578f6031875eb0325fc6e03f2142e00ddaed20016681600018306034ec4ae03499850015d77b101542337005aebec03d39bc203d23d80032efc22,
  0x2212cb03fe44760189f11b03932fc90080d85600489e75005da9580379d3320346f97402268f450036861901cf3149011884c9003792de03a05eb4001ee1e70358a5bb021e6c96024cca1b01cdaa19003cb97400dfc869015ffafb0091d1b501eef96c03b689b20213fc5f003d928900d58af200998135,
  0x342201004b11b301f6b31802e0e9ea008724ce023525b902995307007051e6032f867103f07870001a394e00cac46e0131397700f5cccb01c29255011f9ea7018fc8670147af0900634b0001b94bc0001a20500221500b029b662b03bfdcbd00b9e87401aa489603cd54070040a51301bb1201013b06c1,
  0x378710238cfaa02e1efae00f85d32000772b3017a21a8019ecfee035c7412029fb1ea0183fc3400180e0f0184a217001f2430003618470251c18f015f24c101525dbc03a77e4b0188550900b8797c003f297c01fd95ab02ef7fb4024117ec03759012014fd1ef035002d7037a6ca70378a404016f2cf8,
  0x5804f006688af00ed8d5a031c125f0097cee701b83d7602f4354601d25f030214733201c178550021b8e8010938c001eba7d50001e58b0131e376035b0723027f336c030bc59701073d6c0006b969002121f001bf12d200528fcd019497660075fc6c02db587d01adf85b02556c25037a82bd01f0a5cd,
  0x28b0e30103b3b103ed0ee6025e9fbc0149431700bc622700462dfe016dd689038d19370122c62b001fcb5a035a193900a68769022d4d2502b3b0e9035dfcea0376b8800393b630025165d200ada51f003ce67b03c7a63b03facce500c86e800029860b03ba9105029f353b01ab0f97008363a402723677,
  0x116e7802ce4234004c18e1008d2fce01066f7c03e931c5023ed35c005bef17012c7c5503eb6c790016a9c80235d101000e250003c016ee00943dec016da48602448cfd031c40d200980d2303f51b280034c11f01d9abdf014cb4e902d490c8019a2e8203ebd6cc00eae7480079e4be02a0d5b703cb58a9,
  0x30747c00e3807e00cb2a87036bd8e2009ac28d0148f119000008f302e55b7602bb177803fd3736003cc42003f6714e001d100303d87d3f036b8b0503c3ddfd02418ed700c992350006efc7010e553e001e2f9402485b26005d667803c3ac8000050f1e01a1c5c60131440a03a79d4d006eaf3f032c7481,
  0x387a9001645302008cdd0f02fc9ace0130b71000c28e9301353b4700035b2b00787e28017d5f64001db8cb0239023503302cb900f6dab603ab3af602fdde72012d0088025e6db202978e7400c3f4c90028134d012947bf036b7b6d029e401803d981ab03d5926b007ed233026d795200f1532502d463fa,
  0x37038402115d1a03f6eea0021ca363025e1dff0137244a00fb624d02ccff9b006dd328036538230031fca002b3d45e00c8159e02f4264e03171da301d22647036574cd00753190011864d4002ac94b00303e8503a2e1a20079e6a4010f576b01eca3c003f1a7aa006d877b014e81c800b6202600e0e976,
  0x33fd99000f160f0060405e01017f0f01831da303ea8f8501b468c300280e3600fb429c00a206d60031eb4c02141d64008eec1600a1a17f02b4b36c032ec776009a9df503b7f2220313f93a03b6654d002b82ef01fde31e012a516803c2d6960365445103d17323005bada903688c5f00e2d82c03eb9153,
  0x2803f3012ec68601166db8032730870371349d02d8733d0164ee2901a7e27900a00a2f007401840034afa301449098019a147f01cf5a6901ba9c3403d64b450310740e002961e402beec8700791e4d00076cce01ce1e560249a0e202207a660256bb570285e6a9017fa57e00b28bae00909f1d00680442,
  0x1e587f007e4b9d0026631103c1a0730046ff21006e5f8602a2839d03842c1a01f6a2ed009e9239000861c50252a78603873e7a028b58e200e6437702a7b5d6010fdbd50303a5f501fac1a8000b62f9000141ac000a10f2023686a7031565ff02e5a9e80262d723014ed78e02c4bd4301006bc30235ea3d,
  0x22422e014cbeb203c47de101184ce003938318014e5cc50188daeb00f91c4a01eb8f1202f39c5e00190f400323ca4200a80257023d2dc5025d2cbc031a4cf0000c21a902e569730247fcb603ea0dd5003ebfcd02bb1f1702567ea103f2b631007e1522019433bc0242a0b702ca242203dda652026a5a04,
  0xd718700a5899c01fb499000a0d87b014fa69102c1e5ae01ef9f0f036b93c60298ce2d0184324e002337e2002b3a6a034a88970384a67e00d39dd402b4ff8600d9be82001261a1033383ea036d8e6a002ffd5300dcd748037879fb03f5e2b90041ae1500f512cb026b904d01f6c4550270f77403588bcd,
  0x7500a0299fb34039c6157015f02780084ab4300422d120180d18c030dfa3601cea76e03ca791c003b847901cac16703d6514003d4b4b8033310fc03231e1e0262b89402f9563d02e80ef5027b45180014e730011da9d60224e35b037031c3000a33ae0117788201fb6ab8022198d8025e8d9f005185e0,
  0x1729ea03a4bbc3021bc19d01bf3f2d03e4121c039ab8d701f10cd003d82c0b02e2707603004d400016a6bb000457150328070002f5b02e034eee2b02505fe10330193e0370223d026c5faa02450bcb00172ead020521600346f953023acc1903da425f036a8e0d008fb59c012edb8903d18e6301f7b799,
  0x4c968009285f703b4b95902bcc1a800d60541031a4b2f0331708f03b42ee0030fdd9f03fc0c0e000b6ba301f8537903a65cd40352860b02bb221a00239542037b49180307100600cbb1a502fba9bd0000a88a03191fa900cdc5c8034d54ee01a1e24e027918f70121e9be004c697202288d430113887f,
  0x8b380009a2899002aeb1d03e1b59c01742dc00083d5ed0137833e01a05c050048a722039c11db00000a1c0323ff310212b17d006df62c02944b0200a195d3028651e100b7717c021ccfd901d79d2a000fabc100773f7402c612fe00265daf03268e5701f3072301673fbf037f42f802cb8415001222d8,
  0xa8ca3010826f203654dc40021606a007d6b5d028308cd01694f1503015bcc02825f6b015969790038f19d00d684be00cbf6f80082e0d9028a1dee02efd94000c6889d0101f113002f2a200282aadb001fe94d0185bc3d0360d0dc026f4f20035e7116027b465003e9cf3402f41667037183ca02d33ce9,
  0x8ea1801b6efee03327e2301006f3100f1bdc80203d48a00bbaf7d00cc37720074eb5001d20795003f1522006a9b0403863d3c00f3f0fb02896de80368b97c03e1b4f0024f817a01bd21aa00ea0ec8000256f5036442ab004264f6031f5107023577ba0391fb9b0342456c00dbfb680359a04103430009,
  0x2059520241778b00576eda03501d91017c0455017a72e702e7fcbb03cd025203bb300603433f4300132f3400520c0c026f85930257b72c0223e26b01746a10038bbf9f020e5b6e02720e6401f66d3a000be869022ceb2f024d619b00b9e7080028a1a700e1614100b3f63300ef62940374297b007a0141,
  0x365fd203c28a9e007098310155da1903e9192c03fb8f9f023b901900a4a312009d75a802d126f00006aeb3030eec7600495b59004c863d00ae165803abe7090242546d023b739d03b5a6c1007fb22f00398adc012f490e001e29020357306001c27f16017a24b802d1fe75015e02bc0271807d0148bf3b,
  0x3c0e5f025848e40022c48a00dacd2d01c6fe2e020aa87a016c8474010a146d02a6de76025f5d670019d57b0046bc410200ab3f03c7806f020ec5480381fd8f03bcfb9701dd27630284c9ab001235310016397e005992eb00bbbed802246b65000848a4006b840300db4741004cbfca0042789a0065c3d4,
  0x23406102f8c8d502eaa8290067db2e018c49be0193da8703c64640012f34c801b0a207030351aa000b507703c547680196714b02b7d5150182ac16031edc2e014e40cc03f0355f022c2d95033473bd00155baf00f5f5a000093ef601b2d2bc010c537303746508015537ed0252b248013161f703e40006,
  0x1947a40310eb0d00f55d20014405690283a53a00a7e96602086592003f2ee502c3d32e017b9f2f00093cb302f4ebac02ac5118020c541d0223f5a302dfe44b036c4418012bf86e03b2291e03020c1a002eeacc02ce185b03d3dd9c02f5441000ee679602eabedb024298d90082beec01fdd1a901aafd6d,
  0x3bdf8f02a1a87300006553025a4112023234d4014c342401ae53d800e6b50c01a37e3b009a5daf0001f3d0016e30c30227562f0228cbfd03b922da01633ce700a57086037aaa14021e500f005e8a860007a407018af59801b394ab01a8cda4009c905d00e2fb7b0351fb3100f9c372007e3a7100b9af9b,
  0x2ee1870020546402d6271c004b37ad025c965a0078dbd200024347005f29e00316fefc0286268500287d3503d4011d03ac899c00695b8600b4f415028211c400b67e63024032ac0221aba80072bf6a0016b45a019d772700b116a600fafd6c009b51c203d4ce1c01c5ed440249f803036e9fc8028505f0,
  0x3b4f6b00eb3e30039a1d7d0358ead40249fc4e00d8457d03a998e101c96a13013a6dd2001e17af001ff33b007c562500f4767401a890c00036eb17028f534f03f4da2a02d6acee001d84ec03a68575003e69e70004bf4502dc7d1a00e2d0f503e5c0e902283e870358046703d0b7ea0373d7fd0005eec9,
  0xdb7fd006efa150214ef5300ac462d02c570f600e66ba101d3f410011e2ef90076741f00405a13001d2fb701245381031be81502bb6daf0313599f0232b3d60048d00f004dddb9016b64ac02ae4d41001d529302edb455017fc62a03289e2703a338610299746a00b8436401dcc08300e56bed0212f81b,
  0xeb37d02c9c79003759424032c68b30180b71e01cd379f019a1b5d026b822602cf2afa00c44a05000c46c503ddc7ac01fae02a00d1275b03f93d1d02e52f31026d39dc01e72c1903ce72db034204e80002f12b02c18a3400941866023c33cd013771cc029ba41000459cf00097f5040260290800916937,
  0x230b790022245b02f0701b0295699b02af8175005f082703dad22701169f9e03c48e0a022e5d5d001b137d038d959a038f3fd8000d22ca005f9597010ef2f6022f7ddb0070132f03fcb8ed00d461e1000d50b40078538b019260160194474e0171207f02539c4c02855f6f03b1812602f2646902cab203,
  0x25c9f502312726013b1fe100d4bfdc02de1acb0382791702dc266202b3c70903a640b8035f2af6000fd5d60396d672036107ec0046a2e6024a97f603158a6201a9c77603add5c7024abee9007248620003aef2008112d8039cb8d900d5c092018f80e9004645f30180acfb000f74e902d2e77d03332044,
  0xfc7440322513a0076bd4c01813470023d598703f0502102216d3000947f10015954cd03d0b16d0038831200771cf40311fd4a0269c3dd037b2d1e02ed25a603c4714b01df9153011c63f50326cc0d0026823d03fc8b5e01c68a9b0275b9fa02ac94aa01ada996001c454900f75d040132cc8d00b6c5b0,
  0x388632021d8fec01b8a01803f1df45016a1705010d00fe01e26e1e02a30b6c019774a201c5758c003d0a4d015d94d10234f313005a5e550052a2a40189f70f012c640403cd6f990212168f0242b34b002d5c6600eb24a200edebc70048fe2e019681c102207de70308fe730313a20802f3fc3600f94010,
  0x2add3803f2b9770169f26e011ebf3102695bc8038a166903f3cc190234c48c012ac0de010d77220034455201d72a16022c72940370275602aae3cb03a1c2f303efe2a100ac4ae5037b435200af4ccc000d86b60004090302e6f23103a59b5900c6cda20222d5bc01adf53d0279846e02e04bac003826ff,
  0x2cadf40203d3ec0126c2b7007d1cd70016c6f901d1dee703968d7600669cd40271cd8201597a2200011d500019665902380514014ac9a0022436c801aa040503751d9a02ee8e54000288dd0041bc4c002bf7bb01712e1600c8a12b01e56a3003660a620311de6d0175141d02d5f4fa02fa22de009d36cf,
  0x36691101e772ec00befcf403548b460036637703a6f47b03ebf7860326cb920072c6580100bea700343b1c00005c6b00d103fc02c667260034089b032306330133d13e01808874008750fe037bd41c001b233503cb3b9701526da202d012a00110faa4025f9cd5017fc840035f272701618d7000a56e20,
  0x197aa3038fc49702efb85201b556f40316d9f1016d1402018ae0db01b39ec5022de3980252e3610030e38700f7657400b88d63036f64b303631a2f02f770020289a91c035d01d800511b0f032b0a32000f806f026f1fc9008c327a005f645f0218198a0032cf1901db002e01629934026fac0c0066126c,
  0x4138802ec2c99039d10520344f1ff00e9f783034b13be027cb9a6020715ea025b04ed00aaa37a002ba4a30109f02003ef9cb903ad9b2a03511087020307180040cc6d02581f9103310f3801a32de80019f39201467a3902e8faea00cf4efe03890f520184c54b004d60e902c5a638032efa2d01203d51,
  0x15437b01207225021e934b0084844e0248e5170127b8730293a15a032d569703272c7802fc67e2003d2aa702200297026536ee006f01e200cd4f1100bdfbc6027b164301b126b8015314df0015a2d9001700f0038e95a5032ccd7001ccebd901e832ea02a5cd7700c99a5d00af6cc901bb299e0302c981,
  0x2f752c0292160f006b5db703cd4e010037a02b013d9aa3023ff84c03228cfe00b886fa01f2013100352ab8018b4d8500636275037d215c0194bda9034084b1003f2e2d02aca201028b06b2027e720d003c4b0700c126c202ea658300f6473603778ccc02212d050096543d03f21d2000dc7cfd037d8f8e,
  0x3463d20290dc2a01feee1102d49e96036ef94c0332b4da0052d3f401ebd458020c37d30032bfec0032a48d01749c230393780f001fde2f02bc94510197217801eeb027019db5ce031c667f008c49cc00331f1d015ea31c01b22a65008bff4b02e91937023267ba0152583200e360010289682f026d9386,
  0x9eda9006df21d02c1e0dd03375e9b0168560d0044d2b40208d6e8026cb2d7023a62f70299375c0000243a0086249f007a989a0220684201fc1db3029b6f4803a04f54010415af036d30dd017dc107001a47b4015dde6b02303d810338909f00e0e83601a1fca603ff5a06036fdf660214e86702e54c81,
  0x1ed843000fbcad0021672b03840ed502235e6d026a3cf301fc3752031e73610071b0c1009b8d5f0014daa6033c1a0b02331be701c488b603760bfd003c5a7403f0ae1e0320935901d45780039fefbc0003d32f01d8bd72016f267902a78e8c01999163024e14a903de69dd0325960f003df0a203004ff4,
  0x14bc960349af8502a6728700ef0cba03d1b7100102f6a401c901e60283e1c101ea44e8001f83c70034c5c70374d7be02ea9f4f0393323200345b700343050802ec83530393e5920381a37502fc048a0012d575009f256502a7ae6d02dbdcd70382ee560212750700dcc54c0349e3f202fe6b14031ea9ae,
  0x13d62015a9ca002e665b9010ae12e02945fdd00a32c0803956b8900e0b8b503d84251006b8a31003e1d7c02bb2af903ea8a2d022d2ee403f835b0016eee3400428ff2011765e9026f4dbe0337a240002941d4000ebf050253b62702bb83d302a5ee8b02763c8703be1b22038293270019395402646c0a,
  0x2e25d10272fe5200804e260260b2e3027353a3007362180361ba5f02fdc66202980b70014be0e00035fa750115bd96018a4faa030df76c02da3e2502dc643a014a1e9c00424f5702056dc702a1d5c70022544900da5230012aace303856d380334b926010c779603daa0bc01e20ee802781d8d03ddd8e5,
  0x319ebe0257f560020cb2c201b91c0e002bb5de00178d67004489f100b644d4002dd5b600729c9b00030a4402fd6cbf01a7545203b604ab0146b81800b1772602db73800015f3630357baa7034b176d00219a0c039f706101473b3501039b1a0068e36c005d2615008b6a170363e45502c84b3c00f3a9f3,
  0x8488e01d981fb00afdd44030b6920021632690066b99202f8965802f4534c0043b7ac01d4085c002535ec01b28dc4027fdeb6023e367f00bbc47902684dcf0303eaa0036dc9cf023d8ee8004e7604003695fe030afe070026345800927ca803c3eac502d790b7038f974300e685d00310787802d288d2,
  0x1999e6007c33f903d1ff7e01568397011887eb01444e7800389557029887ba0168c521003c2190003598d900ddeebc00b212fb01ebc9a00356a7c401fb79cd001ce84e0072fcea03c9e65800cc25e5001e1fa201c33cbc02d07af5016a590802720acb03d09263024730930143a33603db62950064ffda,
  0x33a573035aa6870196d0f000cedbc90074bf9b004796c3002e734f012fed43012afac501f819d3000ee5ea0294e5ed02ba54d700c552ad00c4a7880292c23a034c393c014a5f2a011683c302260668002a95dc033a7e9601d28bec03f016f2036d379803e8504a01e85b6202336b9c01ab98b101487e8d,
  0x1db347014367a000ff75dd03152bd00287f335026bc56f038c8081018cb647030f9f19015f8605000825ac0151baa902bb6bf800cb80f80038dd6301dd697003b3e855000c9bc100712e2c013b6a40003397c700e0e8a2012d707d028f72b602ce65ce0027a20300d429f903fa4813039e117c0220754d,
  0x3c9420298b33d02f5ef7001728c2e02d1036a03e1d60001524480008742cf020aa2ad0396e2340014518403e9184b01e962ed01421b71004e13b70034fe06022ecaf502075b58026aa98c0196ced800182d6300b6a85902c58e4801353b4502c3e150006ef72a01528d6b037726fd01e1c93403bdab61,
  0x3913f7021efb1e00c9f6530153aae70289a3870119277703d6be550018f093024c0a7d018ede94003e1f1502fa4329033e752f002a38c10284d9ab03ea32bb0196d64102ee05e601e63b5b00cee2350017f0270146fdc20282a64a01100ebb03950073038fce44027b97e100a6180000f496950346747f,
  0xdea010140a93f0022b2860022bbbd028db3600118c00803ce012a0108ef7d00d7aeff02d2b4350023c680007595f501579d0f01aef5be01306f580178139b01bfcd870022472d031f110101c40225002eab4e01e9f59b001667d302484e650388d85103bf335700e90af00115852e00446dfe02b86515,
  0x1d12e700113aea0140d0fd0063a2550174f7e7006f5c0a037b901500c85cf103f49fbb02d683220025155a012e9a1301202427005b289501b1d414010406a3007b1cdf0090f21402709bca001ca7320011c449007d0b1a00e6c1a302b2ebce00dfc9df03081f9d00e69ecc03b6684300fcae9701d18bfc,
  0x10f37e00595bd403917feb006ae9d501b9c85702c0d57d03a95d1a0130780d00548bc203030c19000382e001c75840018b95c5032b86a60100054b01e8bb7d037ea432018605c30100453d00f88f350016748102742c15025216ac00e9c46801233e62019f1e6702751d3d037cbb7300f4aedd03db43ed,
  0x10a9db00da882902c7464203a22a60022fb0ef00f7db220162324900221f8e02a0b09803e7b34100362ee403e81f08002009250359f54c0147c53f0090bb76008e8c9302d4e67200e65dc400a2729a00035aab03b049af03fb729e017c142503f4f68700cd8c2901e4941700737c6402c04a9400e5afa8,
  0x1a5d0b0381408e0278303803e2b8be010dbb5f027ec7c00200cc22036afdfa0344ebca0074444900248e210051607d0382c80502a018f803dc7448005be33b0384dab800f1c403014a89c0008740a10009505a01d70d0e018fd47c02fa1e9600236b8e03586062032e950102885814002502ef01ae21eb,
  0xedb1f026783cc0210a5f9026724ee02f1f7750240db7902894e7f01e7d881023cf26801fa2d48000c761701fd55730121f18d034e23c6037126da032d7cf301ce21a302a9b9b5005b510e013bde7d002d1c08039b3da6031c41660240624f000d26f003b5192f0391b1bb0051be2e01a4f0f00124a848,
  0x1fc9d603a2b77d00f79b0c001e8cd700d3d53400a044f002e923040303969b00ca423d001477350032525b000c31a5006c1c7f0053413901e7137a02ce8bd50002e03a022e1f96004effab0075bfe2001f67cc01c8a30b02e9dc4d03adab5f00f5265e012413ea003b5e4e02795a0c0283525001343be6,
  0x19eff9001a42ac022834ea0136d41600b0e1d101efb4e90157c8c001114862019f0b3f03fbf689002b1d0301a3d04001fbac4a02ddccf9002a62bf025469da015ab55102f179d10088ad60024a3fc40006693600d87c6103e205d2003a073101922cb200a7d22e021d8a23029638f50220bfb90099a448,
  0x23522401463815000658320184750502c0c8800040ebe30183867a034abd0f02f675750072fbb900164a3c028853b600f877c3030cb5350222b65500ef43c000cb591d01ee5a86012c1b18016fc22d003fa84b002988db01b41ce60088992700bafed9036f54c603fbd35f01ccc5dd007619c40233e73e,
  0x4904600d7f5bf024d6cd800b0a4110228bc5c01bc713602d743c400678acb02b2a72a00aca7b00001a643038bb3f103387b7701ed06fc01f6e61903ae905a03299e45025787ff02dc403a00707a6e0014bedd018adea2003f984803dd64ce0014c1ac031c444f000d69640215be690158ffc50200b65c,
  0x11d3de0086803f01de020f02a01639003489b603c3920a01a7c8ca02d1b8550236549e0327cc64002c615b00e2fa600160fd2e002601bd0008071d00c0bb8c0187e64d03a6896802c40fbf00bf069500036404003e360c02ca8e77035387a601e01b9502d12199000147d70162728b01d5f0cc03bd7650,
  0xfe38202e540c1017eeee4003723b7036cd6240063c2cc03877c35024bcfe5002ee40b003ab2c30016ce07039cb3aa01bd3f0a0288f21e018bba0e036e57750337dd5c018b46d9037f702800c84f7c0016bb9903bf2b6d03f868d000f5c8c20251865c017fb86502e54d4d031343de01d624f601ad40c1,
  0x9d5f00011e66c00d6477102ce9ac600721424022630e9002895ad0255df9901eb861201c3f2a40000c95701717dc101c167990233976b0098c9c903aa3dd503453f2200dddf3d00d6462e006b37c3002c4489003e15ed0087991701a52b0f03903808007070fb03438db801fabb770030025d02a15d19,
  0x285d45005c6d7b03b9c30103f16603018b484f0182da44001a816c00e31c5c016883bf00bb74660017572c01c0457803900d8501c1f17f0340def9035c4cd8002e55b903c18708025a2cb600d64386003a894d0253f9cc0260e391020ee0eb0140f0de0255ba0903d20a2600fb9fb50349b1dd02c6f5d9,
  0xb705f014d82180194c74802b8cac702935a910113b97f03cbc4f101043833017a2bac01aeed6c002f5935004978880116f29801abbe2a03c6101f0328563302769c0b02293c4002ceb06100a684120029f915039c6a3b03a673090158694e007be7d7015992d2024dc48803f2fc4402cc4b4e036bb954,
  0x3326bf033ba89b02a0100800493cf00175da4a001e4c01036130f203a6553b0328c8d200b31431002ceb6803ed2d7100a4701800a2252901986af101cedf490368f29d03556d5c00f42e0a02e776f500317dbd00c4589400eac7a902220928039a322f02901ba602e31fcd0192032501ca04e001f9e27d,
  0x344355015256d600150c8f015926af019f0fed0200e92303f6e3ae03d090950246552502af8623002dc201001ae7cf009a76a30054dbf1020bee330397a75000674a8201467c3c02934b18038fc965002619f40121a0ac0355169700bd90b20219ceca012cba0b03916eb7025ac535031eed7d01117c53,
  0x2c4eae037eed64035662210274457900ee2d4c006f230e02f1d76901dfc44b02e7f78502168009003b3ed1021e91a70377d5f901d813ae03c70ff80229bc1900104df00093174d00c893df031eb297000a27f401d61f95013b3f9c03d4f3960112bb5002cc73a4033536bd00d4b9720190074602df8e4f,
  0x306f8006e4f8802a41e3702f4e59b017d4ef5003189ff004ddbaa0271805e00a16ca7009b0c12000441550012b7500016ae9303d568b60027f0d60382766102730dcb00a0211700fd42ab01cfc1a0003988db0388ec9800ada23a03e7fced034b85c0018c466303fc6ca3038b1d3f02c304d101676216,
  0x2ec5ff00b79e690298a57e01429f6302eb75830104d23001163f110060f2b70356cf1f033468ec0035c63c03106a970217b95a01bfd0f003bac50e005e3ed30003944001c0c47102b57f34023688800015b41601af87be00436af801e7bb28034473ce018e9791033b239b00d1b28401d9e98401390ae8,
  0x22544400eb694600407de20164a4ab008cb88a0269026100d8b66600c40b0d008eea3c03f7d198001564c903897ebc03483cfd012356e703c6fcf200e95c340343c22a00c537f8038fc5c6035ace4500278dd5022bdf19005c274902ea304702ca19c10184779402e33859016c226300320648036309ae,
  0xb57a6039677c803c9763a02a2ccce01f1f6ce03a790ac037811cb03e4529300d4bbab02cab70600108476012647c90348839a01b5e9b50112e0c7010eca4501fb56e500b045450323eb6603fe57f300064db8035fd06801c563a802d977c300f7dfb903b09e040195db7b00171a760230cce80275aba5,
  0x1befe50074eba00016ffbd03ab7b9e0098b2d9019ba2ff03f0ff8f005e10fd0334886d000fac570018acd302727d3f028cf3c40137624b025705d700698526003752ed02fceecc02ceeead00f14c4a0032b7f0024cef480262d8d1009ab8dd032de1560335d24203752b8e03c33e0e00a1e0e0031b7b0d,
  0x2f051500dc5f9b03b317dc00d72b060051b845008015200276817201bb8de900956ca8034313530006998103f41de402a4366c02047d6a0182f591007ab5dc02cc07ea02e18213017cec5601d7690e003fcd6403e1d7ab002de4510060aaa80061e7e100074c0002f9fe980096423b0272eff801750825,
  0x39414d0201816a019bb50903548c0902ff15e5013f434d01860e7503f0c90703cc057901d65ae1000f769002c6d3d403b5090d00c6ca7400411489029830f70080e838039116e9025aa94f002e9879000a373903cdbc6c02fea493024f598503abc6e303b03490001d32f7006febc3035f617c035441f7,
  0x44fde00e645e70265d12d00e931da00fb3d5201f46c0801daf2a6016a13980238ceb703f97cff003e2bd003d8ad5000b4f2320121915f037d183b012b34b8037583e6021f5c880206f5fe00b5058e000829a901ced5f80252ce28018ab85f0231a99c01afa04003290a3202542ef0002a334401d06944,
  0x14bd55031559dc03c3a60f03bbc3610182a6aa00c77e200373a16c00ee6ae0038d669103bcfb7b0030eb5002cc941402eecd540174c1a201f3ac0401e792d800153e8101438449002a0b43007fc836002a017803b1483100a5d67000da06fd01627baa03e35345016e4fe9014a079e020fb12003245b49,
  0x3d4c0c016cf6e9013a2558027f38ca0322dace014619cf01e037f200421208029d183b02cce428003863de02b8a431026e822901e8f83e01f7fdaa0042f6d70349ccc80166d57b00c63c86000c17cf0026efb40171ff8a03e7e808008e88a0019744de030c1e11023b26e701d1ebdf01ba99fb026a1533,
  0x28c6d5018d03fa01b94c040398a9520200b51f01e732b200f7e57401550e4e02a32cc00386b2e000273205024e66dd004e648500efecfa01e1d36003da494f00cf56af01585666030c504a0218747300145aaf031bdc670278db1802e555b400c6d59803092336004613510284ddfc01d6f694036e8dd3,
  0x4f36002010f030004d746007691bb01cf29e50158c08802d5efe802bc51b70047ad0a018fe231003fd9a10302184e00a5119a01b3b971027e305e00b2191603d1eaee0380f2d602da4b460010318700076382002813bb017579ed02d3ad4a006571650113c0d2007fa64201e0b61003b7d46a03f1c31a,
  0x1bd312026b10c600dde1cd03ece29600b7128d03830c5003d5d20403c5355c02c2eaf8005c48f3002df6230101c01b00c4dbe50006e15600a870d6028401ad0113c61001c1a564038198cc011475c4002cb4dd03d3d0af03808e9503e0c31300fe32e5011a127201e858d40331cda5011ead9501cf0fdb,
  0xfb34502de7344000423c302c766f9028aadcd000a971b02d007bf00e40d580081d445026c1e68002aaa4302cc1d6302ab577500362142001412a30017ae2800aaa13403c5dbe80074087b029a41620031fe8902345d2400660855015524c6009dc4e8019572940002bd190364064a03846d0201dd96db,
  0x1db3fb007887ac019fff3e013a1a0f006396bc0287e517032e608200579cb101f6960702a8ce0d0016ec3002c7fa420044b27503e6500501f8ab1e01a4755602667900007fe7a6014fe3a501012ec100377125019ddd1a02ae121502c381b203edbdf500814c2a02f33943016af645020aab6d02646d95,
  0x290de0031e8a4100c1a0f60218535a038ed3f00278c0e502b0a1b602f209e6008d9e2d003a020f002aa6f700e739c4014996b001db6431016a8c630243dce4002a26760100458a003616b403606cb600345a3202e7cee2019efe36003b263e003f17170212a71f032cd31d03b1d146012cf02b00205ea6,
  0x1de9e5008ecda3020622d9012258c80162121300736ff600af43da0273775f02930105037e7fa5001ef08200574ff501d49b5a0309b39c032d395d03849161031ab27302c4e33c02e76dfa0015faa20034544a025471610390dd4d00decf9b0315ac5203e645c702390b5c020da05a03a82884007fd392,
  0x158eb602f1cfa70001aca40346fb3802903e0700ccf4bc03b21a6400fca7b7023eb45c01aa88b2003a9ce5003d9dce01233899029aa48b029f3b0001c580a60300303603d04f40032d49f702f0b752000b089d016f30ab035761fc0099aec20301a65e02112c0a00b619cf024f7a6d015f57cf00590ecd,
  0x34edc7032455f502578e800397eb8903c9a06c0022c0ff035b2ca1024ee85c0390adf003fa931e003c055b00ed9a1a01c31e9e0285c43c01caeece03e4709c035d480d00dc70bb014b147002eb67370020fe8500a07df7039a897d03eaf1d00338c66600f781b600ac6ffd013f68e80175e92b02690270,
  0xf041102b8ae56014c7618003af32d0093fae800e7bb2b00ab12d7037001b90218ccf801de02dd003de0460086a59a016738e60101106703dbe57901fe51480115e89c009bfc8b01656f5503b130bd00122cf101db3109032c1819000490eb000ee845008446f0005b9d1802a0ca56015583e301edce8c,
  0x1f98280022779a00da451b01853d1e000bc20603c14a8403f9f66403fe784c03bb9d3e020d4fbd0004aac203018fc402ba824e03dca46d0254d61b02d0f4fc0328623801c8e61002b5723802dd320900112bc700ba286e029b1d88004a0503036c471d0352dcc5038b084f01fbc28400435687027372b1,
  0x352a6039bbc9302101e80026a6d7d000a0d320263f9ca0242f50a000ea5ff03c59e900184fa560035a8aa01dc2c5103366df502dd58c80291c7db006f140900ca53e501dd0b4702b2f958037f62ab002c959703fecea403eaa746025c4f3a0380de69033242ce01cbf91602adcc17031ffaa202110324,
  0x2dd4e1006cf3f600ef4a05029a1cfb0057ff3902eb25e603efd316013da4c7009a89c200a91e0000136b8c01dce996036ae59303c4225b02ebe1f2000e896503c5d41b0070843702802e680176f9a600151548006af91c0072b90f0294beb1024a6ed801d5c797018c9ac6016fb3560261a628014baf53,
  0x2980fb019c93ff01fcb8fa0394158b01ae4f8f005a9bae0352e371030b0495032b27800158fc72003d9e15012f0a0b02ba7c3303d910e2030ef74b0262c116006e9b4802ed77d7028a4a7c01ac48260037bcf00249e485019b2fc6031d8b8c03eefb2b0364d1790122c793026349ff021a03520185b038,
  0x1df0810239600c01187a8203cbea8303d07cd3009d9872032c054d03baac47006a30d9036bfd0c0035fc58021fe29c02a2e2f80291039f01a372360194436a0212f2a0011b030f034cdc3e0022b9ee0028d3c903d9e3a80323585f0348e13703a124ef0030c69100013ea00295d7b10018c30001f31108,
  0xc9e5702bdf48f02ac09c6023c1c65024c3ed900bbaac002936d6201d4ec3b01077bfc0289aa110030232200f234b402a8da53030d8bbf02544e7c00b2bcba0299ce920030248900a2c44f03c787a4002d1fb90170da34008e84df00208b3f012e6d6e02f71c5a02e7dc2303a5f6e602d56daa01f236d8,
  0x357ab7024101e803347c1803e1bcd902babe0802ec252a0320ebc40020769c00974ae5027a7fa100164104011b6de00019715a0006344a001e0b31030e78fd03086dd300ab351f032a4c09009aea88001ef1fd02827a6d017d2c75020a9b07027de2f80210a10501c8cb8102bee9b60075a7d000ebad3a,
  0x23dacb0390922a0048c03a00382de80323cc2f01caf61e025703f200d7f859013d1bbe028e8a3200139a38030cc5db017aedde022946d40361e2a901d2a7cb00ae2d8203291ac3032ca962036c72d9001dd96a0252e7090018806e0274ac9c00b4779303ed61e101baadcc035b926500ac642a0027ffe0,
  0x3c0f3b03f8e9b203e15db70322ef92025dcf2a019bed9f000d5704008f17d102b7ace602badff30036024c0038136903497f5002967821015de333030b339e0085d83f004c010500911bb200e46bdc00101ce80167ab2f013795fc02fca5780195d95600d08b53010af20200a6789e0253c00c019c43e4,
  0x228f61001f24d000af825301f906b2037b615702cdace3020190b200325779025298d60246038a0012daf602d6bbd60031a5f500d17222039623cb0224d5af023a233a02311d9c036d8e7801922151000a6dba033cb42200a3dc5d00bbc46702d622bb010f7944005871c503f53f5800de86040026618a,
  0x3bfe14003d395d0026cb5700b1f5e2035d641c0057f545010b74fa00a54e56036c3f25019ff16e0006004402d3a1c9003acee8011e9261025cf24c01592a640285ef0902de530501c98f720175157b003ed33e017de35e03d77ad200fbb09800de7dca0339ed47016ec9cb01c6889e039640a401e67182,
  0xd672b034bf01d01d61c65037b9f52000f21e9023ed88000a89e280320c9a1005a1fc1019a44b2000b541803ee5b6e01569a49033ea7bc017c3c07037fc0ef0217af5c01c188a9015c6c0101171b52001ebd1c0075f7350141792b0053b97402220abd022e21990058bc0c020b580e0096e58b00a0ad90,
  0x24017100b378480347b34d01852be3023d862301a1d4580159b0a3032041780216dba403c4f6b8000d47040381ff06000861dc01507fe00209c13000e17aad018fbfc90252738d013fd2ce01a1181b0016fdb50166d0e50194c15d01f159d50043d53900d313cc0185db9f02eff85f02871f580025befd,
  0xc3e7702313efa036a5e4c0288e6c7004f7dec00d772d103e14f00008c44e200f89418008dd252002160bd026c1d0b0070f4de0118a290004404c60384aae001318d470146c87600121a53011be9070030c39d0152113a02cb0c4500ee86e201fb02a80122aeb1037a9d0d014ba4dd01b79b8b0095cd59,
  0x5e08c03489d6e02e54271020f3baf038ec5110383dcf301c7f7bd000422d2035f4149003e84540027e08b00a6b095028625d901a59b2c017de57900650cf30361207800f43987008f99f30092d9f2000ea100010f32a002cc9dda01f766440085f53a0112035a016a380c02233962016c8e090286a11d,
  0x30206002ddade00029e88f02dcc4bc02ed157000adb12d017bd2fd007bc16c01419e1403402eb900061c5702edc95a0359413801f8955b02e8a82c01318f8302b8046802fd1c5c00d80bcb021fb3a60010b216028dd0a701a5f7dc02bdcced02b90a9502c69b63036466d903e4f881020ec55503d2fca6,
  0x199fa4003f063002df7d50020686990254261e003314cc00d52753030b8dbd0120c4620292d856003fd9e900d155ef0291e7c402fcac5f0054833803a1fe9c00343b570047c7b003b77a12031914da0011d92902241e2b014b095d00103a14009fb7d40380045400a53aa10138fcaa00707dd803970646,
  0xf03410226e04603a4bc4000f933d70200be23009c0db002a2dfaa02b2a7f102c4efab0018288d001d44450210dbb102e6a60a03ac17d00260a8aa006a578c03bd1ee403ada97501cc597501cba688002b7d3101228305011f03d30259320d021c73bf0024c6af02e52b00011298f703800b1c02f63376,
  0x8400103128f2d03e6595c00ed8404031b4c95037acd2c038992af03da94910362afa902f1293f0031f69b00a11fc10334839d01ffb5eb034630ab02cbf4700240692500cd4f2d00ff49ea019d5b80000a45d300ca235900af8284003d826903338d6303a2401d03164645035248b40367fd5400c0d21a,
  0x34f8780337e033015cf1a300bb40e402dfaed602537f5e0241337e011da51903d5f23c01d5a4df0019597d0077e2340044686d01e69c3b019f395e03a8edcb01722a2701388d4803c9dfa9023a36ff002e81c800e27bd20015ed6703ed1655008ea4de01ed840301b6cab903dd51860259a4bb0276f897,
  0x5624400253f48036d196000505fc5037516f900b85758020ead17010938650208095b018ff8d1000ba26200c3ac1802323d2e000ecef8015537910066960f03e73fb40332a56f03b662d302d5ee8f000b3c28033d27f90064b9b402733aae02d93d5c018bc9ea01887ef202ae2be801f8e4b3018d9375,
  0xfe12b03baf7dd021b850b028799ab0289ba9600b6f38a01c96d9600e068fc0385fe7c01d3c733002cfe7002e1034c015c3b8d0251731a0155261c0370b8630267dc39002aacf800bbccd1003beba600183afd01cc36a50119d73d0178ef9600fd70270226a8db003d30450134b1e10244ac5000e70b9e,
  0x32e51801334ac400de4e4f00824f3a010b7466016d0d0802de3cdd016576ac03262b10029ba16b002242ee023179a500ea878602d0c5d60301f05f038ff37303c48c4a01215ef80289168b03892ac9002c9e9e01f1e4e203bfc42203a3099d02dff8c10155533403c646f601fe8249012b8b2f016b30ca,
  0x56a48039392fd03b295fb032227f000d8e142030d777a0096e7e20140066202f319e800732f64000f2ec7007d370a029d66eb002cae0801d65b720214e47c039dbad90339c36a01582df200cf8be20003a13c02690ae40239a23403feed920067b2dd016c958f018b87a503bf11460376de1203da741c,
  0x2c86a002e5cae5012b6239008d129a008094640077585802ed73c0037928c501f7a8ca02e4819900158c1703b43cc8032cda2202b1336f02d5bddf03936d4501b5b6c3006d79d201c5c32b0189c963001284780102698001d8ee9b03ba78ec02f3769f00d318db016b1ec80143ea8603fa233c02062d3a,
  0x35712b00e8175f02e0cc3801463b7001a21381015e92a200ab37e30309ce1401610dc801199d4c00168d54031e4a7b034c65d403959b590083d22e01acdf6802c4dab50335bff10175fe3303ea4b180035c62003aba7510195ce8e0040235e01c575a803480b9a00a8984f01c58cde01dd90a402e973df,
  0x1ee40011a58a7007a61fc02e83b59018828b403406e3800d0967a0003dd34033bfa5c03c2caa6001384d400b412fa000d6ca802438edf023e9a4300b473e700dd479a03cbb3f2004fe85c01242146001977f802e2d1cd02f266af00f8738d0385b86a03e8603f022106ef0232a5ec0270140d02978c08,
  0x1166d403d8e27102af9ad403f6e8a70321ebe003806d060196914a012b0e9b025a61e1021db5760009ebdb02f540970383353200bf499c0103f0ba03dc15bf02a46ac6003f148a00942e78039ffa0d00102d79031e348b0249e6370381330f00bd8aa40291a6130173fb15020187e200f3d5ac01c2c7bc,
  0x111bdf006b84f90136dff2016e43ad03fa659703713a6600dc7b5a0216f0fc0054e45f012a4cee000f4340035042cc02c253c6039bd9ab0086a59b008c1726018b24f80283e114015aa29c03bf0557000204b2002f869f021a294b015c24f401dfc10c03e322bf03025a500286a8160263fb5300ec0f64,
  0x21a289009dc4e60107b96702e1dded0114e07a01c7ac0c00dbdcbc006773980221b7a603a932ea0025cd8d000a4f1101f9e6f1032ae79f0280798202fe6529012d460d009baee2028c52bb00df5fde0026a48d01df93ed003b596e01209da7039674d503b96f8b0235e4c80124ef8a0304b65c03c56c24,
  0x23511200f9210c004484ba0161904d036986ed004e8773027bd8cb013b5cf9036422e703f4f8ae000c1aff032f5b7d02311a3a03929b8d00dbe48903c98243030d660101a91964029dc37400401c1a001bbcbb004618aa0045e2ea003628e70131688703e54775039d290802972f600324ce54030673d7,
  0x334e95025a944802d8724600048f5f019c13e2018efa8001c8ac5b02ea0016010fec26008a9da30026c98a035433d100f62d4c036f6de803bf70ba012e611102a784c4023081cf0372e269017105fd003bd9de02ecf71b034c8f2e0137d04703dacc8302cfb3b903ac869801a71dad0099abdf03d3f999,
  0x24ddb500e03d5303d28521023a141b038b8b2a03c80cf3008e820d01b6ece5016060f5014d61510010864d02d483b8016832b100df8a170018b9d302ffe65b03e41ef5000d2b7a02e2142b033c9b860013a4770325d280022fc92a0018459800f1b8e20367aac301a7933b0033963f0343a25103d8e03f,
  0x335c6b0142674201820c6f003d631803c8df9802eb1c3402999b6302be2da402e67ab20327e68e00095bf000d82f9b006e9f1c00523946022f3335015a5dd00317dbd1031f5fec024b003c0355f1f80012667100c0a2b7020854ba03590c35027aa8360069161802d0b2f80260ab140242591b00ce02aa,
  0x37f5750155d29403d6c43501d0ad6e0243824901e58211002fbc9301b7e9ba01d79df302a9fa2d0028e5d100e50e54010eeba301ccb56900fa0caa00ee110800f0467102f0ae9e007f22c102c802d10027fda500924d81028c2de7025edc8700bb8c5900d6378c0378cd3d01d285f00334bf9903a48813,
  0x1c63b8022ccf6d0374fc83018f7aba0216840600e6cca901186bd6014c0a6d02af54ba02a222bf001595670287eb2303e84792002d693e02cc05cb00baffdd02d49c7a02266e7b01d3aaad027c2921001ce84300f83af90307752c01998d9602d030c0022d5e72026eb3ef007f69ab0074c2f503131f6e,
  0xed66037f450c00f6e41803b905a400a2913903f77db903ad683101905dd8032ae2b7037ceb85003eddc4029689770162ab610002e7760276dbbe033de66c030dac4402b57fe0032808de019345e700025a3800bb879702513a3803b65c5002cabdcb01527ca200a0a71501ac261603c76645011263ba,
  0x1cc35400e28a21033e340c03bc6b93015f3419036ef2bd0318ae5d03029cbe00081f7300a1c63c002d7224022b6c5f008caa5c00e07b3600d600380313e8d5016beb7b02d9e2b802f0c0900194c39b0004b40f031272b10092104901fcc9a3004b6a7403d3520c01c6e9c002d0f1d20210ba1001afe137,
  0x7853703ed0da103ef9f2701aaa36a0083f22c03a04365032b1ff602e6a13501abcecc03653fbf001265040046b0a200e72cb30227f8e10364e73a017bb1ce03d20c3b0393ed9c00d4cd4102fabed6002005a201614d6703d0184502c2075300db83380211bb4603a0fb2a0175d12202d5387d01bdb81e,
  0x3233a402960af9035ae6eb009062320021150602cd804503cf0147033acc060219e6580216955500300ac101b5a3d60101ad9b0240ff9200a45a2e03ebc77903546ade00dafbac03bcf7dd00338bda0008dae80243d1910363734201dc664002429581018d570100f6e9a002edae150202121900540297,
  0x23472600c0dbe80063db1403611cfc03a8b5e900ff82da020fce1e03db60d1033d5352007b05650012d9ea031d2cfb01d438e20075725f037c03f1030bb91101042e6d01732c580272c9910287e998000923da01041d230159c50f01e2d6f1031d124a001e1c3d039f3f9601e2b49800d66a6800c407f8,
  0x2e2cb30069d57b030a994a027391c80343265901ba22c60123710c0357a91802ca4b4601d90c0d0024ff5800da72b200d3d0d401174b2f014ce9e9011775fe0140ee960100acf500e7e6a8010584c80010142f020d913c038d002a03c8d29302c9c1e10217a78502ff439a0357aae6026b3b23019b2ed4,
  0x3a0f10036730ef03c67459036fdda003050cda012cfc49020fa0f1038ea7cf004d682203b8d37000237cec01bc4642008095e6015b4782007da2b203aef47502ef5ce10171978d03386fa701c541aa003f012e007ec23e011b0c5c02561a3a02e263e6033b5bc3017b572e025fc08b0300d71c005a8f7f,
  0x352c1003acc0fd00a140cd0066ef13036d1fb702e96beb002e946d013ebf1600fc852200b3dcce001bff07036898c503569ddb01ec3f5f01a06f68007486180021acc701627de503c7b08501cf519c000f451d01aaffe601bfc45d01a4f956029cf204022a02e50206d27700b6e210035a13300215c540,
  0x20b99201223a650163344b01ae2afc00ae721302b4dc6603cab9ee02a9fabc02cb5c230275b2dc0028c59302897c1a017bc57903f7ab1203cff79f030ab8d502afdea6028b6b9e03dc75c4037dae7a003acc4200511be40281929103762bd00015b2cc0155d8010092bbe1035b4e5802930dd00088dd30,
  0x2069ff01b5195c00c7c6390126c52f019a816c00cc6e0e019d91b101e11964038e5a4e02b62d2f0020a02400686363029f53f90150915f013862330305485c03bd755b024f509a01dec077001dcf430037913703ebbbd70334ddf50152f8e700effbb600791f97012ab5d801a3248500ef864200b8fd0d,
  0x2ed2fc03d95e9003b4fd0c022d2557027a16f602b0159802b29fde00eb30e600984a2403aa6cde00103d1501582429026d2d6d02ee262000d0650201a03ab202759f1c01f6037b02c2403b01509228003f3ba602e55347009ee9c20088e66f035a32890238c3010120cc1e034e9e4702f456dc035f0dda,
  0x235bc1003bb5a4016025df025f422a00f36f930069985603595d7303f130210104211503fdd5c1003916e901202c4c030cedf200d357fc02d048ef006b1e1101f7695401e3fd6f024a41c603e58765003878ff02f8b7c1009160e1028dd74e0027c68e024b1d910169a063014423d6006a7f2303e2f1b1,
  0x26ae0c01e5d42c0367fc9b01a6b0ec02baf5030249c66a000d288a0048bb8200f678dc00c0122e001879440058160801aedc99032ad2f60348d5ee02945929023e87d601c66fb00343d35d0303617d001884da0092b87000b0001e0191057e02ae28a502cb3e1603a5b768016e4d71033ade670023ceb6,
  0x2acbfd01980c4700520be5008f3d00032dbfde01b0892d01f7c84c009b03e4025017370013d4720019252d039401ec031ea363002c33d101e09fd603ea6adf01a96f9202924e64001a78f301633f2c0002d766005613c5003572e00122a50a03e9926f02d6418d010286e30332aa9c02bb4f6e025328e9,
  0x7af490390ac1d030c677601a9933a0041407900147dd503f6b635007216950398f80102424a620038ea31027e5df9024972c503c96c930349020003709b8e010d1ce6004de2210163495d000f3847001ec94400ec7db702c7c25201a213730018dbb6006617360154f223032080af02b2834f02aae73d,
  0xece720082e6f500c61be7027a4b8a007aefc402d25d2e03ec4c1002ba77ff030e1b8d0027b854003c7c09013c6fc300fa965f010575f000d38f48000dd6f701a6b3860012893502a656cb024c3716001d521a0119017700441e180048b71001c3a71f02b9a34c00d8887d01408072024dd0ee02e8d943,
  0x2b4c9603eea5b902fc266e00f6b02f03e496c30072fa4000a625860296cd6b0364488703efe220003eb0b0012d598700b0074f00212d6f02b3f5f203da408f02ec53ea00b94d2e01d1735700626bee0038f99d01afea51033195b602b6cd4c021630760091428401f21b520107017d0299659f02f6fdc3,
  0x2f6fe501442e6402bef1ba02cf9aee01c4725f01670379027b5a250152a75a00d2a8da017a543b003f2e670030b4d4020eb96503e2bc290243681403b5d44b02732c1d02305388019cb4c3010a3f75001bc82503f2c84e02466c8102d5859d02e5f41703de6fcb023ea270016dddfb038e14a80297ab50,
  0x2005a3034b0d5702182fde0261a30f00d77a0800c4b581029e727b028ceb9f03b73f6901fc5ed400184c2d01db28ed036a2b83011dffa7035be00c033c9fc301683901005bf5f6004e1416016858a0003d1029039b580300a257bc03b6e9140211464e000d44dc019488ad012659bf0176de2b01d50c72,
  0x1d989703925058008d11b401a7d99e009f8158007f8b8e009dd77900cac0940022ed1c01fe36ee00248545010bef90029f3ff40076cda503cd779b025d2192037b8e1d01e8c47002ebf804032b00730000ff3902564ea901e88fdb0119f959028aa1870108429702e928ae022b618d0338859b02e27bbe,
  0x29a23500774253013b76a8023a76c0039213db00d3cf7e02c4c60a00c194fd01909a8a024d9be90016616c0134afff0228d9e00221bdf200e7173c0053555a031437680332536f00539987028d629e001ef7df03a8c9fc0341ba8a000f16d70150aa64036f864200f1d98d013f03ff01319d7b016d1610,
  0x1e1a4f0136cdd7023915520246026402c597f703b0d5e900ab7aa0006d0ab4007772ac02bbe63e0014598a0208a5f7017b5539007b8cad0336c86b0079dc0f03450a58009b44be00dc0f4102e0f0c4000a2a6803cadbb903d859ab03a5e8d700ab8654007c6729036c20970260bc290251d52b0339d8d3,
  0x15e08702a06def007d4d6a03bef12a02f027de02c759200134bfd401de1056022bd40102d119af000d85f701fed33c01be9ee000ace559006f07d401b2d70a03bb101c031c147f035442ec01147b60001f0612009ac47700f1b2cd01735c5e0151df4001faf0c7011effc500a581eb01c3a3c601ac386a,
  0x1fdc3302eec69901f3d29b01bba741007b05ed00b2557400fabcbe014c77a400dec182033b2259002dcafd0078d28902e4a1c600ba7b7501a9c0a9003760ed02761cf1019598c300454a0201f793b00018e59b030081940271c41900ec038b032b91e502a1592f01278b06033a1160009cecc700c477eb]

/-- secp256k1.go:10, serialized bytes 460800 to 491519. -/
def tableRow15 : List Nat := [
  0x0,
  0x22424c0014546903e5657d02d67ed3001236a602e78f8303fa01f3027b84420237017a00dd0e5c003c797203c9579e01f4468c01681e9401f0a56602e0298a0001b470006ab1ad024f59c502ea50cc0018db3b027c6b7c019d88d90317d00103ccb95103c9a3f500ccd4b403e027fd03bea94503d8a26e,
  0x1c109500efbc7401feda6f03de93fd03a9447203485d20026ec51f003469ba00b87ec40000445b0015a31800dd0830018520e300983502033d0842008443940030635101d4061b01da1c4d031c28cf0030291703471ff200a94b1200964bdd0179b48a005e76ff01efad95020699de013853d903a08492,
  0x130b2202e209390301f40d00dec60100de5d7703faec9a000b0eda02f076fd0321377d00167cef000eebec01f4960f01e50be200abe004002829da02b727d101e717ca01fc20ff025c190e00d78c490013f5f90160426b03b51c3603d2606202ff6f6302196ffa022e18df0384551102ce0b8102dbd200,
  0x2da0a202045fd202d9e246034e18290280d95d03e4d9bd0195468f02df88e8001acd00036ff66f0014aa010038212b0095c261003c8ff602f3980600ca6a3700cbc9830254993902f599ce0101dd4d0038227f039abdd400a6b275015ea9fc00c60a5d006f317300ba19940266d7b702b1bd5b0069fea4,
  0x2c9f1d01dad4fd0014780a005854de003735cc0378118a004c94ce02e10992036b0781012435a1001291c5011f5b17039e816500a68f8d02bfa6b803ecb715018439da03663995012166e101419ca5000810d102ec625903a364010069f67300b8db8a0265169b0351e5b700f7e44701a907ff02e41c3f,
  0xa70c2037d99db02fff5070269daed00ef08650265b96601421ed803ac9b5a0152307200f43bbb002609fb01e355b50349e66703a9b58e036affdb032930d3001ccd6c02e2268a033ff21603683bc9000b01c001ded63d00b70b1600d777f8036a9ae4029d7fdd033955bb035f1081034af381014b1efa,
  0x674c4006bf7b503288a9003058096029c0a57002be86d001d196a00d2d10000623bce00ec93e60024f58500aa5bf10063996d03d65adf0324ed060206db8f0217e71902b7d0b903c2d673026c121e00191b7802b462bf008d54a801b4f48a019ac90e03ea72bb00a4f36600f419c401c7784d0340d718,
  0x1ffecd02635fe8038cd31c0292ba7000bfa450025295a50247f84702b52dc0019cf555025b793b0017f6e802f32a7603f7f6ad014c10da03ff61f5020b137c03dc0334018f9b9803936db202b5ac09002d5e20014381b60393140803b547fc032a515d025eeaa6019f757203aa044f0358b17c0333af44,
  0x2fc0e6001b0514006a5c64010d1b5001f5bd320094c4c700b8265703aae121029ff672005b43cd0021b6e402fba0c50302b5e902fa871a01e7d32701aa9802004eaebf00c41df400a01c3301c1a47a0033f72c021040cd00167fe00177abb3036ecd4d011996030240eaf20075c16d01b0bccb003bf9f0,
  0x450aa0225818903efe00f002626cc0199f6330143f14a0231f90901c755af0151e1fb03f554e700211de0039a0f440032de16013551af000cc7da01498156022f6276000046430118979603c5e5ad0030069d001ad6ed020cf4980090343d024929d30098bfe5023078130309cc550256514c02387744,
  0x2a04110008247d03358354031db0400291201303721eca00f0a83703cf9348000d327100a28c1600157c71021dac1902b5bae20136ecf702a6ebda02abe1880329205b0197913f007986b10055abac0032171901afc32b005f0c4202188a8a0239010f032cebf901688d1802f3b2fb033ec36200fb4f77,
  0x2d760502f023c2009f18be011b8cde0210032702479f170324197f0310c47200b6827900ecc76d00124b8f02c8714e030c6b070171aab50394428702e2a53200ba9ca900b727e20109ba7c01da5050003475390316c25601009dda02c9d0b6008a17b103a72fe20313735403ad93e302fa437a03a20d8c,
  0x9341501f9a6cf01c6adb8034099b8022af1c702ef171200dac40c0163be170178376d0131b2d100193466039ee9400212b08602d49e0c006e2f82003cede7034de7b0002d2ecc00fae63102eb52b3003458dd03e81b0103b75e0a009e7e6b0183261c01a4736000e84437025e113502810e2c0380ad6c,
  0x2a3c8b0170b1820241fee300b9e06603776cb70018e0c3020fabcc005ba5fe00b984f301415c280029b61201bfda6e019d9b8100c1093f02e5fd1801e71e7000fc842a0344972a0255158302c8e8aa00051dcb0002ce010154d2ad034bee4d01357a8a014d0565005baf580313325501de428f0208dadc,
  0x195f6c0056198901126c6b0232d0b0022f6f7602cfb0930288a731009e9e4b014692c400a66a13000e05b40035116e008416120198874600e35a4402bad38c00dc400e000980df00df4c4900cf7b9700077f9c0180b2e20040036200e94c1802bb4347006482fc00c022d2029f7f26013c4ef101045f96,
  0x22b90e020e61f40049daed01aa795b00fc598d00ee1d740284c4c30061059e021b8fde031e982d003c705c01057db30284248903f2f9440283b9a403c0f5960236fb84023cd9a102a1dfb5007639d5003ee9a801b03adb01446d97022e22c303bc069c02cee96f00a6014c0172433f00a8d912021978ac,
  0x1e4e5d00c385a102abb26700733bbd0065e84402aca5ba00d365af0357705e000d9643039d3edb0020fb31028a36c4008b9b3a0392925b000381f7024fd56c00aea6e70078b29802e03493018ee02900187f1603884043036969c60024572002c9b16e00179080031d9d8401ec868f023ab2690098c902,
  0x3395fc01a6a4000151668500ddd2d502d2fd5f01f948ac00d0cf2a01ec59ca01e3b79a034b05c10028ba42035bd25a02b525d600c0c2da03fad44b022958e103cf9ff6035a5be501a59268023fa39800332a9f0351076b0092e5cf002b8f5f0202791601a58c4d020b777f02f6325102d80bb10151f7cc,
  0x27d1cc0181dc5d0022be7e01a42a2a03cf4f0a01e638f50210ba4a03634939025d9f2f017c794b00093a8100ab1c8a030d1baf00d4415a0055912d01049ba501667cfb01539c2f0059cf16012b6c760032bfba026b700a01eb8d6a02e62e1601ba4464034b5237023c83c9030e586c0158308202a552c9,
  0x87c7b01d168fa0317f7e302fd21e102dc2aaf01ca06a70133088302246a510328a18102fa7bc6000a4ef8021ceb8202239a1a01041bae0310848c03dd5b5f0155a12e03ae8f9f015e488203436b9300050ad9032589380135d17903953d8c03431f4f00d94dc4010e2c4502db937300388d5c01092c85,
  0x2117d102a9457c005bc0cf0102234c021021bb011e8791021d358402d1443502f9f6310012ecfa0034426c03bc30f603cfa6c9024a8c6600cc05890329318a00a7486a03e36c0502b2690003c991f4001f6e180355cb2e006bdc1d004eb20303a94c4d00e066dc0003bc0a015a69c8039a3d37022ecfdc,
  0x175463015e679603f01b0501e81bd602983fd903cb6a9d030d8afd035fd75b03b5cf3d01f87f6c001021bf02782c50001abf3902379a2f03a3f6e6032ece480106debd02903567023f4f3a03a179b7000cdf8f002b501b036a67f00379edb7036f716e00b685c103f9a9cc023e5720029627180381462f,
  0x3f9ed003f4c4ea012038970106d6cd01708a170393366902f09eb9027e19f8031f295f00806c1e0005c7e60103db7302adb512015ac6eb02c2360a00a84a1a02d5681b010da95e00da5cae011f8e06000319f90056b7120023446801570f5500666a870063703500b9fb4700f9f47203b5a32c020c273a,
  0x25e92700f8ccaf01e4cdd002a0123d013cd0e00262f524035323c80079cc3600cf0b3f03b19e2800368bd501103300019a0cda00532ba5005b3baf0168a244031e99ad015d1e380073f9d40340a96e000bd30503a0ecf403b21c8a00e6852702b032b8024d63e1011bac4203c29c05006dfa39036a4a0c,
  0x262b7803c066730132e6ed02a943b7014186b20093eb3b039d73730179cacc007653d0010657fe003c0c80024e223d033311a400389f5400eed7d201dd61ac0032a0ed0024f08901fa17b803158fa2000cb81e0059179502b195db01dc53e9037683c50366e56d031650a20209e538004bb97a02c75714,
  0x11a8e803aea66401ef2e530280a289030fe3a90345780b00e8723f01c5392700376c89000c6b0600298d13027c79b5023b267803eaf9e300aa462801c9fe7402e2fe2102cf883a00f89a0b02c53e6e001b98b5033a0a6b01fa28610360e95c034237f20108a6280178224401d0e62c02a1ba0f03721d55,
  0x24fb5c038cfd26004d64db022f70a702380bb001405bf103a5852202cab14803fbddd00083cca100314bd3024b5ec303de8a40015254ed010389bb0062fb3c0275bb3401ef79e103a920db00dbe7740002e12e036ff7f802577285038e4adb015d8f7702b5823c01e7650501bf49410061c8ef03753cf4,
  0x21f0640389fa87002d7be50345ab0d031538e4001924f4022e68730179254c00243752027c52540021445d030f27e60312530201f03516007dbc6901ac33e5034b3e77001f8dde00d72b1503301642000f013a009435810107b660018ad33d0360dfff03fa146802d32e0a0092b34902b810b70320a727,
  0x32477f012c2af500aa989402c8882702ae54ad002680ce0281b26a011beca703b1da21007b796f000c31fa03001eb9006d635c013b4b56017a0145013f0bb30171fd6d009db58b0392181800672d5d001d580400947bdf01f178d501f4603f03761227012e8a6d00c62a5701dc72cd02f74eac03aa8ced,
  0x141e4f02792db2014538b800796d5901ddb47e035832db031a336c01431ec103b34ff902755c5e00333ccd00bfc14102b19161005012550090bac803b34eee03f095f60251d0d501e823de000215390031bf2a03adaaa3011805510012482101e0f00c012be1e50126ce5801654f9001e0b0fc01d37d2a,
  0x8f75103e45c3001c85b9b0045a60c031f33f802dcb84e039bb5df03fe6fce02b77634001dd434001bdcf203e5d8de005dc17f0102935a03a150100365279c03cd8ca903822f58014767cf034d75670003a29c03e109c502bb52480149fd18012bdfba0020cf49033c946f037bb64803de9f8c0061575b,
  0x15eceb024d6e850295b28a02edbc4701207fd70383a2b0031aeaf1011108ca0331fea9008db292000fab8103e4ddda0048fe59032afc2201684f6e014ef2c701f825c602b4455d0249bfc903f728f6002ffa7302a5adb7005cb5c301aab09f026d8b5800f9e1ba02bf3f8300bd0727020433fc004a21ca,
  0xfe8d203adff1100f3b5f702e2c76c02d11fb500959950017de6250031df2a0024385400493c8b0015681d03b283b303e65b9201ce58b40115274d02bb3324031b77cf03c8cfda03b6140c02492cde0034149e0349c804015a9c0e0256aedb031669bf001186c903540e5c037c9e8002190fa501051961,
  0x2284a3038f11eb0195ac5200399d7d02c7353003c3552903fcf0ee02eb17c40226aa3a011d2710000e0f980363cbd600629d0001ebd10200cd21f301936a700174a3ab0051013b030faa7002766f5a00216fa701e3b1f700396b60021fd5b203a0c66b0337322f03ea751703e1c074000b1d440353c021,
  0x14e9fd01609d84015546d403e17836026824370043e6c603f9d115031d206d0097fe71028f3901001af4af03f934070056e471000a774802229975006e115c0021c33900643e1500345f5a03354bb700134ac8026c911101bd96f1010935f30016d013023fdc23039b89590018670901fc858b03024dda,
  0x3fc46a0079719103ec4ccc00aae73c00e3c9d201eb5045028631fc01a6998200f8d4f00235d3210015d5f2001f00bf0208443400c2b0d702bf0d2a0399b0c2014e89be03e7ff5c033d564f005418c50023b43601aa2d3c039843610133e71b013cdc7e020ea8f50200d44b03d4dcd202fa67d00285fda7,
  0xe8fb0024f9e5600eb13f6006b07860012026502a9a0e602aae2190043c5c6035e88a000180089003e9a110276a9df03e1b9f6021175cd0112294400f249db00702ad80316df82005e283a01634c530031d1e10063fc7b017df96b006a58cf03963b93008ed1eb0102dac6010f838e00f9a53e01d7fcc6,
  0x25438502763f46022c77b00332b61c024d371c03f43a1102fea85f021e113300cbc353019040b10017dee3031495db00f1945902a5ae3601bd81c4034e850f0164f3120167026a02b0ef620327cd4d00282a0c01e98d2202b4af870277ab8e02e7e0b301d73533000474e70161025f009053ab0250aa98,
  0x3209f301e73ffc032cdde800e445f9007592030087195e019bcde8006fad93037952bb0391d1da000d556c01729768013bea300237725300e7264f03e66132013baae5008216a1028b9f7003c696bf001b2b5801888446032c9d9a005fbc5d01e1677f03b7a57d020c0498009a5d3d02384963006f5219,
  0x3cbc2603071cae03f65cc500ccd677021ad45d003aab140335e46002cb868c0361693c0243ab66000efe61005d4ba8000b257f02c02c250189a806015e82fb00848f7e00714fe101e15cb2017c1511000bb9b800380b5a0315f4a90290f0a50160742701baa8b203f224af034f4b2f03f5fe130338b898,
  0x26f0b703907b1600c8acb50306330801e2a1010140156d01d2077302333e7d01ccf3dd027ee230001f86df01db48ef02e7daf40026a764024d7a5603b6f83303f8918b03a937d50023708a02ed1d5b0024260f023b2a43031a5cb3026833ba03fc513e023571ed02d4322d000879ce02c8d934032eb5f1,
  0x11ed86022749f8023f4309003fab1c01f02daa038207ac0237d5ac00364fb001327209038091fc003677c203e49d4803e4e733015af4be03fe14d302712a680256283e01f3aa9d0257283502563f9d002dc9ea0382e09500858d46003c56b102dda8590141a5f20249a3f4003389dc02ed27e00315309d,
  0x23582c000689ea020efdbd0030689a00716f5601b23c35003eccf5036fd0110084a2cc00a1db97003bc91d001704ed003804860132bcb0011e503302edcadd012a1e3503ef327200ef404e007a25560027b6b8011adce00052cf3d006f204c00e28a7c035ea9e500fad2550038215c02f3d61703e79ea0,
  0x2679b602e0fa4e02ee4b290226ac8b021d2de6000c02c90310bd9e0039cf0201173c9b01c1ad1f0009e3db03633e06004a9890014dd2db01f8e56a02af017a033800ea00cb104c01cea0f700e74023002d208f03b3bfbe009f807002e75e1903407d58011e616c019ef5f10201abec00054f1702e597c2,
  0x3902f00311bc640103550b02409dda01100ee203d06fc70088cdb802d4d30000899e4803fe39310011374d02c102f500669fba015250dc033676b901838a8102e6938801e4cbc601ba85600371f5ec0023f88802f632db014713db037af99002b9a80e02c0c9ff02de5004010be44800906095024625de,
  0xd94602601e5002261472002d02f602335f77007882bd01d3238500e5eaa5002e84dd01aa4fcb0006bffa00a2774e03fb4b3502d7c6d00167666b0138c0fd00c366f603c0279b01c15e470310b32900291fd401f2d3f103edf59300dbc39e0350b0c403810611002dd93102cbc017011b250a00ee07f5,
  0x3f79c6001fcb1d00aac9db01ddc4e700fde83903bfdc6e033519d403ed89270341cddb0046bafe00189f0003b8fadf02168364038c606d03bd985202afca5a03a2914600c92663026491df03474dd800131b8d010d79ed015ac014016eb46001fc9114003a27770198eea80234cbad017275240119a309,
  0x6fd7d03abfd6903e0a6410016f43d0357dddc0042f8370376e45602eed78603f769db02bfbfe4003e0a9b03dffd1400255bc7036c9cd201bbd58d036f74d10149e28b03a146f5001e9b62003d967e002c663d028d3ff803a9a3d6017a353a00b1e7fe0034c8ff01b97111028b9491006b384c01cfe64a,
  0xbe73b0342a8b6020207a50238109d02339b340188f8d302ffc41402d3ab75004c770302ddb241002e10bb0158851c00eaa27003529fd403f2b5c500b4f1d102973c9001fd05d7011cfaf703b467b4002419fa02ac2c8401ce269d03914c2103da8bd202489c2901503e8602a9556903160f4003dab8fc,
  0xe12bc0077111a00079dda013caf5e000f1e41026755cc02dc6a2d03f68ee101746ca20317d3fd0028e5e2015b6bb0017f7b8302ae401801ef730a02e7630c0082e8270200272802f31a9d01aa506d001302ae015f6a3e0111a30e00583f4601540f4703950b850399fdb00306504500a4655c005ec490,
  0x1aa95d03a6fc080111e3f20394f50901fa5f060314fc92039f4519037068310204a021016fac84003984e301046e8e01dc8501016a4cd603538283023c1de3026677c103553e640033cfde01bddb92002685e70357623a01768dca0282672c0330d03502e6cb0d01618ebb03bfae0903fed4d900475bd5,
  0x10f93e039705c303c2b3af012a9728036bc6f0000947b300a688db00879a8e0075a0bf00de1bb5001fa17603c04c1c028d1463014e8fef03d8dc0b036dd7df0252ff9f015dd26a00c69f9000213814002a5d98029936b601ff9b7d030b9a36006778a60189dd31036f5487015147a70171b9f203421faf,
  0xa344003dd4b503ebfbfd01c938a60020f7620149ae1e01b1453201ccb2f5019edbd500658a9e001df8c703fd2e8802d6526e03f5c47502ee2e04036587fd023a56eb033c5619036a26d6002d0057002fab02005076dc00ea9662004e13020336fc7601bdba9d03a8926601a06cbc01ebeb6b032c75b8,
  0x13690f03331a4e01b6d82f00ee998d0289b95c03621db203c946be022e4c57023ff8f50271c044002b0b02002c5eb7016b62b003867e8603162df501769c42039066d400249224029dee4702423cb00038238502e6f7400029635700abbfc1000aa8c60265c76902c858f40003f0c90276d0b1029e9914,
  0x32b5b0014b914401511aa6021361c800fc1aae032da39c0347202f01b49c2e0070f0b903a93b0800250faa01f445a5025572a9003af1b40194efa103234eba0103820a020c5862009979b8011a2ac9002a9a2502a50e3f031d59960390fa750029692b01432384004f6c490169e2370082105a029a4d05,
  0x87f68028785e9017d4d7e01b64a4801037f1902c57b40002bbe4003abbdf7030d0e9700e0e926001a2146025457d7009bff9101a4db050116189b02159c0800a803ce02fc8c1602db4118007514b1003e35270361ce050096404001443d9603abae04007413e70318d9910237963e02a0df6a03cdd75b,
  0x1c8e20238623c023808e703c565170365de5f031529d702a2b7e602f21b7603d7eee4014a9a6b001a09d8031fb5e0006096cd03df867c006f811802602640003da4c602061af902f2b388000f6fb8000f160802f86cd602ddfb2701dd413b027bb9d901e4e89703c3e32002c68e1f0312379f00fbaa12,
  0x24ba6b034581c101936b3001d5b17e0189f2150348817503fdbe5201b6a7f402b01ed2012ed290003b1f0b038a8f22014b07f201a0a72300e2466a0375827e039e03680013c9a1038da2fd02f1da93001a938702444863027933dc0215dcd501f3036d02d53c8a035e4d4d0266477802f6ce7902d542e6,
  0x3b43d00399c01a0270d65001fd3d1101878301020a2eac01228e6a00bbf1b003bf241e00e111700025c15c02e2a2860077b420021deff800bbae5800045f6a00c309ca0117f1fa03d8e70c01e6a6e90004fb8903aa199600b0fea200b6de02009f57c502b4a73400fe484d006d2d7402823f7d0266366a,
  0xa60ba018830a2003335fe02741b8201bd051702a432d1015faccd03920efd018dc0d801470f230014b013036dd17b01fa5fea00018d050377866b00e6b38100244b6700c5f9760325c318026d3bde0000267500e38412019b5e3201a80c900007200f0072810a03e0fa2a002925a50336dc2301179eef,
  0x5ac4a039850c4019fa5770338c0a602eabf6601900cd6032c7ecc033af5b803cd298b03359bd2000244cd0278156d03537eea036f33ee0233e78b00ea03fe02940a9f00d7443500a033bb02d37883000dd9d3015acd1000868a1703a2a1e400c99eaa00f3acd40019e57701b29d8303352c0201e4ca2d,
  0x2bba56024c210101d05b2c0156c7c9010242bc023b76cd0192d46a0289bad5017dcb2b02b488be0005f0a702ea17fa02887974038fe21700ea532d024534e702711fe9010ee7ee03db1bb7008bd356002f2ba703f67fef02e7c53b002a1009007825f600d2004300bffe180339a7040377327801f81328,
  0x28bdc2013603cb00cd503d00a61760000f4655033b2b15002ae0630012508302c56866027bf24f000111bd032e0438038a29260332922c027af7d4011b0c3103e29ba500dbe58b007f84980354ef97003e2276007f647f024c367b018f1a7900dd25b4005e0850030b44d80213d75a012c4a7600190416,
  0x26538e032f5a9b003199e4017fe69e0174ce27011ebd900008f28d01524974024aaa900359a2a60009f77401efbd33001082450248bc3901f7c4a101d2ca8e0081531900a32ace030730290016ff00003c6357022d323301d26cf001bea34c018fff7c03aeb23e0277f1df02d8577901005178013ba13b,
  0x3d5dba031e76d60060672802ac9d6e01d0b3c5023fa13003eaed0b01ff06fd0282a8bc03804d450013fde402bf4c8403c27e2600f85da50284d7550046e600019f77e8004370c800c1b045009d33100006caae009af96300627a5c0121b7e603ac8e1c01f96a2d00cce80201a56976013b44fd03ad49fe,
  0x301f180086b04d0228a6210073401c0008308d0161232d0094ea0501bfb2bb022e5cf7008cc84f002bbd280326463b03fdc9730063893503eea801029b71a202447e5f02e2646b0118366101fe73fc003f4f6e0311e68701c5e203023c7cf603cba11f00940517002cc9f5021ccb5e0072d4a802000782,
  0x36ae8e001243bd01045280002a703c02ab99f703b6ef7501533d600018def5028a265d005dbb690027366f01a54e7c017ad18601aa9130017a3eee03efa74001aa477d02e1da5902c12ac903b51403002389ff00de4614023120d1020d3c190360e5af01e3117202b06798035588a401a70db702a56d38,
  0x11e0f200fd703100a8b2bc02f1c68b0205d2da03d4bd5c01e4c12502eebc1402cec5d601fb75cc00326b1c01d7846f015bb1a0016384c2007748e3037aa7a200c781a4010b5d2001e157a802697dcb0035ccd703cf076e02a8d02c026e88ae031aa5f302133a290235a97402054b4c01ed27fa03ebb424,
  0x90b6800ff06f402b46b1f019c23940019ca9801cc93ad00cb972f030fa58303917e920244730d00335f1c0024a86701b16ac0028c0af70278a6e3015193ea017cea1203a64397023a027802dddd760007f1ef03a61dd001d6620d02603da501df3993001dba29020b465f0383555200a9804801f2c8e5,
  0x31c9ea0258299100cc419502fe6456020392890356f926020f20e002ec8c9300ac190100b440a9002a55bb013265a5035de8ee0283047102d1924000dc9804002ab2840004647b002f99190046a17d0008645102d7633e02ec4e1e03f2ba3b012008ee02317771003a8e3e001d4064022cd2bf00ffff42,
  0x14ecde0005d6ec030e0e9802df48d6038be39d00e8b52c03b9605e00373342039e229001761fc00012e9ba008eccf1002b6c5a007987930342a74500271a8e02e79ddf0190680b02b2a704006d0c470015cc3903e60ddb003f1b73031c5c6801da58af0070b97800182ed2013f3f24000589dc0322e62c,
  0x152b8c01b9eb84013eacdd02671a13032467a602e799e6003caf71015c51010018bc8f01f0758700033fc70313693d0055cc73030e052302ad6c780056ccd402664d3f03df13f501b8f9de010b1893003a78b701aacf4201b33c7502b7412c0114c7d6003b454d02d01e58039e740801ff57ff01f60d4b,
  0xadca90108662902641642024d48c600b75a0202ff0ee800c50e2802e38d710160f41f03f8484d000afe6b019375c503efc559035958d2011c118603e16e7100e9ba1e006e25240227600e00c0bfa700177eb30225d44402eacd1c020a039c00d3032902e4bbc303a1c01d00d882b701473c71009877b6,
  0x38d97b00f14d2e0213812b011d0a0d03269b72032530700044cf34038bbc4202ec246402a1967400047d3e0162bd2900089765030e769c027b5920024a8dba00aba6c7015cf15701eaf3f80140a1fd000d1c1500108fe5013563f902b2ee7d03d20fbe0122192c00729a5701c42f9101d7b79703f67378,
  0xe375401236a1c00a3e1940009fcd10223f32303b6cfdc0058ec0203c97d94021b699102771cd50033a39b01b2d94903eaa9ac01388fcc026bc90800fcdd9c027340200033b840030f222a00b10147003cf82d0300ccac030cda620397ecdb03aa760600e53f1d01871ec0036e9cd502e7849203bb0a54,
  0x21967c023297b2002147f302bc530002d59dce0147278d00c34a14016a383502dbfef503dc484d000c65ca00ffd5a60229a9c90253182f02c61cf6021afbc80024044e02d8a2cd02e5b75b01c5cca000204d4b01c5a48a0086cf63004beb7e010679e6011e4752022c5ddf021d0189013b8bfe001810b7,
  0x13428100bc57430086f8ec03abb5e401d4a8ce023b07f000eeb2aa030358cf0267f35903826abc002ea44002b1f64e01dba698011ce9f801745b7602ae1a0d00c784630270e05201e9abca02dec6530006c64102809fbf01bb2948010f1f9f012a2fa90311773b0345a4360169ce7a00a2843d0368481f,
  0x1a39d10049038400904b3600e99a2b023a17d40395ff6d004c3c7901e9705402136ac90208244e00135305023aab8e031cd18f03501aa000f26f6f002c860e03abaf02029922b401541cb10357f49700000f5502d25a0c02d53f730118a28e0184c71701d1013201ea6cdf014c134b023fa580017ed621,
  0x32e7a8019ba51c006c5f9c034a88140236736f01a7342101dd0ec002d850ba02bd092402d9dfe2001f61e6027dd47c019d8082007bbab501bc7e5601789a3c0172ec86006e9e520305f95000955091002bbdde016196a5036ef2ef02d7e07201d314e6012e62970285a20f008ddf7402fe243d03fa87fe,
  0x35e04f00869eb700dfd67f00350a6401d6ad7b032a22a20004ebd701db995200b028e102ab109f003a15170049b2c200f37ed300445e5e01dc377b03b3670101ac86af023f864b01a136d301ac8d4800156f930298228202cd8b080036be67021f86690234c54903252df20166bab501540e7f0045211f,
  0x20b9101ef1ae2018a30e1019bd83902cae1a9025f581002399718031ce55c00e8db69018ddfaa000aeb9b01951a93035a05e30263b9af017ef8e8020a2d5b01af6d670112415d023e14a9000a7c7e0037faf1038be6bf029b27a503bb52a200450c580124d2a30137fa8a03225f9b0021b48303da6aca,
  0x27b5d4007019c70171f08103ae53b001ca616102eaba6603b99a8d01c14e1f02af2ddc035616a20010512a03feea8a01bcfaf602e3df8f01f1a4b303125a00002e017b03fc087800fd3df201ce42b600246f6800c1e4b901e8126e00538fde01babe34008203cd0183bcf601b03cce018aa6bf031c05c4,
  0x12acce0185a95d01a1f4c60212b47d0130aa28002ede18015e884100f1553902ba990b028dc050000e2e9301f836ee01e5104901d93cef0218a7e9008ed79c03a46a3b02de271300afb72801c78649001203e6026a486201e59133026120b10342222a006496bd03d7245e01ec28c202b753b700a0d817,
  0x39944b014431cb03c9f27401c120030123b856028cc1d0018c2b270015467001f1b65c01d1c47b00150dcb00038989006f334e0095ad57036044a101be8d4d007fe1fd008b8f8003d179fb0382987e002c3b3500445f6d01f64297033744980021ae490365b6e403e87f3b01e8c4fe0287ad4c007870f0,
  0x3d310c002361e6037ef66901397ea903a3191503168a2d0035393002c2d6f903f538ac03661b7f002d96ed01c91248025b3d8503340cd20370525e02dfb39103b4d53e00e2ed8d03b2f0e501234ca30028cf8d00175fb80250dfdf035c11d7013bafb2020fc76301b84a48002f8d65038fba7a0075a934,
  0x3fd059015bfbc503d160190233597d033c80da015c1d9602f273bb01ac43eb02ab4756036a96dd0017494b007944dd0336e0a701ae049503d820e400e061460058dca301bd84ef008e45e10251f92a0007f20000af0c3703dbb0910310b35903b6ad18032272c6027c802f0364916a0297dd6a006f109c,
  0x2c43c40394135200f8127c02d22a3501107d5302239a5402805bff03701d6e00b586b000ed8d3a001f755c01a053830018610a022df3530321cf500132ca5401764c3903bc22ac0238089d012aa86a0031061103d680c8023a570700ee2ceb03f41a6100e230e103754be8020fda0c02f7fffc03ae055b,
  0x3d5e460315f38901a11bb60232287200c0c5fc02a89a8001aa761f0336f30e0243e18601b87ace002d78100257fa780335b364000a566e00eb178903fa612f0166620100f73d1002601d1e02c784e3001453cb01dba5760309255002eea00e0257f89e036c3b7d025d22d20341fd5903f13cc602083102,
  0x21549015acddb037c7a3e01da52d7019a5c86000b2d9e0196aca802e3a92b01b50bcd03ebcda5002819db007d6b8600f651a300fe501e01f11bad022a5be00307fc8001ea57b301290863034f1a620014e687003f69c4025ad752039539ff03789153038450cf0068a4bc035f39bd016e373c01ef2d11,
  0x11a64200a13f4200af589600b4be44027711fa034ef44a03d623cc02d0953600d0fcf4032eb862001d1484037ef1b6035eb125002d0ad401b56c5101354c4a01d3ea6601ce4ae302a503ff00b49557003a3191008e5dc9039dd864036923e503e1a9fa02d49ba7009fa24300c5237b038e13f80299bce5,
  0x1dac8403170a60018ab28e011f416a03c0a89f0321ccb003301b700101d14c0111187f0097eff0000491210054d4b300e2170b00286d9d01ccbe3202e85f92039d1ef502728b1801be8ce4034edd850011fb44034f7820014e6b41003dae8401e4745602874553018804e3001b788b0209454e01aad888,
  0x290dba0076dc6c03c13b6f03aaa57001d6385300221404011742cf039179e5027ed37001978b5900168f6602bb79a501c3a2dd00802144026543b40326a0ac03d5058c0011ce84038a4d90036c0494002bb16a024cb2b603255fb7002956fb01c445cb0165fc6f03a91a3e01241d1302d79d29019ff4da,
  0x2692f30018971101de5b5a028d661d00a397dc0304bfc90021be520132c58001a6785303429f8100059629023fa3c603a359c3006b465d0309f3b0028d75a90306850200ea747302dbc74f0198dd0700003c29019f5518026023e000ff1e4f0081500702f8386e021dffd600c997c60344fa9c02fcfe49,
  0x30d449031c445103dcdb300275387c032fdd10020fafd103e981300293d532029a3727019a24f300058c0e00ff41c302bfc0d8018db3780355a189038b88250194c5f1020bbeae02bf21c6036738100019a7750307759c036ceccf03f6f6b90229da5d0180273300ebb5bd030f7c000002e22800f04ea3,
  0x20a4030151dcfc0214b52f02e9b58303cc01b00130aef30016a5b20157833c015ed27300f95d4e00388d0100c25d5b01ba96ef02632110006ab6940284a9ca00caa0ee009a032b0251cc1a001afe7c0037ed5403ded2bf0282332a00b4dd8603d0826e03dd3fff02a85e2303423eda001a349a0112235f,
  0x17ef6e03a8d463024bc21c014d54fb00a9dc0e0217460101145fbd03313eae02d666a903b458d30037300502fc18e801ddc9270268d89301414e8b030138fb0115d4010020a5c9018a7b18002281620023fe3a009dd897004e0d4c01642c5200fca2f0010787c201995af400bfe22103ac86a700893cea,
  0x1e4bd013f4da303a2a54d034cc3450183f6b302165f6802e7b72a03bdc08f00c6dda40040f6bd0010e9e3000e208103dc5bed022579220146705800ae047e03275f420001637303d9e320039af4ce001c8f6603ed31eb020be3f20020f2fc02cd614103df0e1a007e165c03b3eb2102c43d260018ac07,
  0x3f99e2003e3999023a8a6600876efc0303aadd0326c18103aad9a003813fdc01310bc8006bbc670032d84c039debb400fe7ffe0034828e030f594602eb989f038bf198034cc19d030e2a5201f277c80013ba9600188c7900ad69b100fea3b10175593801a1b60d0197415f002aedd501ca411f012f2f73,
  0x7f3b10159036a03a3f9910305006302dd275500fe90800348a514036f41f600315a01002ecdae00396c0003e180900384bed9032845ed01b40a2f01ec974b0349aa8b0066e533013196a9005c66530020ac7d024038b403d3ce7101c67558021c371e035e11c300d6bdec012eb3fd00d456e3001a0e58,
  0x3bc069001cbe2c01f5839103bf87b40366f72b01ba8c8501de41ae0358f8ec03a1ce3501938354001a309903329f0902494d3202360ec203fd6ae9034858f0014d75a402826c5d01aa6d6800bc88e200311093010db7f10379d6dd00d6e2f8035754fd01a5015f0354ad920205ab48035dcf39002d9918,
  0x14b37b01c033420194714e025ab7be002e46bb0145588f02d0636202dbaeac013fbb8c00839887003444a8003c15a3032515b6036354ea00256dce0162bc8603a3714e00b6e246029528bf0397e95f003561df034d685402aa75db00d4030d02b6c0d2036c39810154ca92023d963102afa56e01dc3c12,
  0x1d97cd03ea0a5c0300320f03dd6088019da664029a1d9d01cc19720150072e03370f7f016c7ddd003107cd01d03f25037683fd01de4b00024bf69900a739c701eafef001006df502b03a53019cd6d9002f4d860013189f00f981ce0062cc37007352eb017d52bf02ee9d8c02ad93c7037bf29f008eed1e,
  0x39d946037934fc0210d5e3014f26bf0324ebe7036a7f9a02c6b96c02827f6701c173d10034fe3a000089620104183b0089c8fd03a4eabf0002d37603c64591016d0ff6039fa0fe03604d58001abdd200091d7603001194038e63680151ca7b02a2727f023e776a00281c5303010b690266780902883f80,
  0x39466002b47b39039a13f201c9f1e500182b270185fd2c00c69e4703cd217201874b0102697608002da7d502d81ab901d213dc03ca492b022882b90088be8a02a1890403a5bd8f02c2075702c08d6d0005bf5903e255590165f03b000d5a9701f529c7028fc3fe002f9e90019110870142820302aee9d1,
  0x1e9aea03b489bc009b53d002be6b1a0109ae2e02e7bf1e021da647030de0d502eee6b301bbe26b0027f84602442052004b906103534887025a4c170118b0a50079035600365b0401cb7acb01971e45003f678200f7bd0203598d6c03cbc29102dbb99b014587c1003d23ee00f18b0302cb4ac60212a648,
  0x33504000ad77ca01150059021bdfe0027fe37c02814c8900837391023a2c0b0182473c00e086d6003d838303f620d303cdd31201d8e47a00fa9bd3008a21b903731c4702805b0f037beaf902604b090039dee1011e279700cdc03900aa558f01e4003d013d566f01bd52a2007c647102cc6a73017eaaef,
  0x368f8e0276294103a616680204e51201af553d01fda90703a67e44020118060391c3b902e68f0c0028425301e50289014a0ac302c6063101f160c201f2dac2012375800399bbe001268b6b032a6f32000f106003c5d5190364b22d019d3591038a130003db21eb02dcef2f02559216017468a600e793a6,
  0x2217bf00e79a62032885f103b00f13033229ad0399f4fc03ed09c6030142a6003bb1b600c9b013002e1cac026c36f60112da50036be07a01dfcc7d0005d57c02fecde60012e08902c0c95600b7bd11002a7b94001ccc63010e4cca03050c0b03c55b0b0339d7a501db687302c67517009ebf76002c18bc,
  0x16ea9c0008de6a01cd5e9201fd229300cf012703ddc8950211036c00e87ab9008e78be024d8bb4002098eb03beafe00273c67302f95dcc01cab10b0355baf101e7dce003620d2603ea377700026fc100072797001f85e3013769d902713a96002376b8029a671b01ff6e080347b33a017dec340243fb63,
  0x1c3afc031d447400be62b0013b1e1002f6807b0330996002d8e2ca0369836e017d178a01f195310019a20700f724640397dc6701e76e95008172040356e790032acc2c01626ad902aa7e010398b99c001655cc0338660501ae38c40192156a01fec1e700cc179703ec4a5c0391a74300a81e6101203b38,
  0x2db62001ff961901e5c1c60341ac9d00c9d51d00fc8cde0033d4ed0091dab403d52a33008f48110010c8f30065e22300e418b6013caad20176246f030fb7ca016aa8a4019ebb2902ef06c600f58d9d003a1ae80187e74c031009dd01c92f26013fa0570063c2b901a44d6901b2984301dd1a4603640f3e,
  0x7fb7601fcde820289d92d02c932a001f7ecea037e583d0148fd5700aa863102a9f8860313f5120014cbfc014bfe89025e5804001c8f3101e27c630104e9600275b55c0124750500ba582301e97744002f941402d87f0c00ce91c001be04b8015654d802dce52e003f200002c12b240274d92e03cec12f,
  0x3eb11b01ed23b80013fe1a00d1b92501be1a7a03a931e8028ad4ca0217f80e0002c2fc0058ac910018eb930039664500982910019da89900775bf403dcd62200af60f602f9a2ea0263e6c502e41aca001ea8ba028e6a5e036108cc0195398900a0683000ebd5e7022704250009f347004de0a10363b3cf,
  0x20d48303d350ef031954a3026f054f033efaba003fe5bc0157d71802b9d2ca01648853016c839d0029e113014646840114438f02a4de9a039d474601b0b03703897d36031709b000d6eb1a036363de001c9a0f02587e0a010e47e603227932027bc9b900c2ae300215c6eb0113501200b0d39801015372,
  0x34b0ba00a971150278322f01c7cea8030eea6c004036f700f9d3fa026123ed03919c1700f3da5b0035b6de01a9f26d024211d4034f00e70011f5cd00c8c74b02e14e7902de421101d9ab1b00aa000100041ae60197444601b0ad950039baa803b742ee034cf189018cde370225f5fa035dad48025757ce,
  0x26048e004a0495008250ab025bb6ad0019c60f001b6f0a03d45f200262f2ac024d1019014245000033d9ff01b44af4034f1b4f01a1fcb9033a58c800353d3303ab79640015af79000ac3f60106f9510018f9ea01937e1a015e4cb003157c5f02ff92000006e24f03233baf000ea3ca0329b12c0369f5f5,
  0x383d6301bab6a603df2d0d0278155602f6b9d4010f586002378ad60221eb0c00c53f6b01ac2b6600303c5b03af3d8f00e762a101fa422401a2f62602f7fd9a03011273001debc3034ec06400ddbe24000fbcaf0037643103f2f6700384efdb005bea090292b1fb021d01df019528b703fbfb0402143c99,
  0x398020181a61702875ac001fbbd75026bb0a00250d6b401a0b00b00398fc100e3101e03466b88003c648c00f2aa7a03ba078803c770ef01a5bf1601c39ac701269be20206b65e00227f6601bf8f5000343a3e0288f95903dad5d80133989303289e5001ecd9ea031168ab01ee1a0a037181f9001e9972,
  0xc151b03024093012dd29d00436509008c571e02ce054d000fea0e02b3bfbb037f2b20002bee6200102f870162474903a9e64803be4216038e9047005bf99a00e38e2303f0257201863e22019dfff800216fc900b80aa803001c3603d727320379f7f603f80608029c2b6402d7960003f3ca43036f8426,
  0x1dd89200a1f9c400d764c0029f2f89016079e602c59a67015420af004531cb031bde0c016ac6dd000a653d014361ea027bbd8d02a8cde7031d32300311abf1035c6a37019f750800bdf48c019fbd82002b415b03137749005a1c4900866492030a25040017ea410284859c003bf4bb009445da0262fdb2,
  0x55fb302dbd000019bd0c2034fa0d40135000b00a886ef01b76a2e008e0c02006432e3011db5150003fa5600bdabc4021b9c9600e64598030646530029a53f000a5ed40176a7b90139e709005902630020ad01038b0dbe01238829006956d60146250401c07cad0038a1b80249241c010fa19401d0ff5d,
  0x39e2510059f51f025733570187e8c1014091f803c2d82603f5c69000691e9d000189e701a6fee50016efca014c039401b67ca10315934702f3804e028df82d01ccdc550077fafc02326db200a3bae7003d124d0122fd0203b28f08029b70e803e9ef6403396cc203c0da3c00ac6acf037ba4b500560f8b,
  0x2671cc02d2cf5800f3e6b2023a79d903539881018efdf7037fe98600357f41036126cb01d851c2000bcdfa01e1ab17020243e500b0ec1c02f6ea16008ef569025dc791033c4f7c019e197503709e9f0019178702c19aa800b7a7df038e4980016e47b70040aef402703527035151f0031a08e3017f6732,
  0x32f08901fb7cc702e315b9017c468201eb529b014a63e200c4f2d003f48bc800b26f6e034ea33a003ba1f1013835a300126adb01c8523e03521e3e00b04b4803b6884a008d1bdc021d010f0228f56b003496a900a4577300055a5501813ac50136e3e503ebac4b02284cab027e4746017ff1f40287f93f,
  0x25ed7f03c20f78036473950124058202fcb93b023ea06502b6240f0147458502dadc3703b0d544000532e702191d4803c1f3750215cceb0019ab590064b9ee03c51a5f02216a220169ad300042985b00295d12006a1442030b979202275fbf027d6f2c02f2d05700f3f93d021cd796010f653801da2319,
  0x29cddf0088d2d402a8fae503cf4153011b31c800fac3c002e3dfc5017cf67600f260c403d57e5e003e366f0009794703cb1daa00f920fa021815c1028b8c1e032513530079b5f003903f3100bee2ba00379c74009fcf640166bdec01620bbe00e47cdc026c63c103a5e5e7023c213b006389ae02ba99fe,
  0x175b00021ae20300fbed3b039021b502daa7de01457f7a0064bdf202f1be7b02e23145017dc6f80038a50a015540c001132ed9014565e202d6bebf00ef806801988a9901ff8452014212e302ea4d110039efa3027fe9d1039795e40386c30100a548c903c3a00b0127108d026c777e003034aa0103202a,
  0x31c57501d1fcbf0159a83b03ee581b0371db6f0293b09b025d46fe00ebe9ae0087c5bb009a63a9002c48c900ab85ba032c3c15023a90060040a96e01429d6f0217d6da00b8935302e2c68b03a6c7000036098800c25b61009431cb02128fe5008d8e3201da8c8b009c590d00d3059d008c9df40016e2a4,
  0x3d9f140397f83b0019456402659a720173c57e029e0a6502f4108f02a68bb6035949ab02558fe6002649720301919501013c67010fb17b03bec444019a28e5005b86e003ab54cd0175fbc7022d58a9002823f9010c80530132d3b901ec263e00645d03013e83200093f4c50109c3b4012cfeb6019c4243,
  0x31ffa900589178023c652800dfc6a002085b75037b905701f36d3a0380422400cf5ce302302e6e00338a2a02eda1cf0150dc610050eff0037bae0b0231690e0324c2ea03b5edab038d3944031fce8d0028f2380397daec013975ee023ea95c01c58b5503fb2a78008cf97600eab1e800c0999b01ea64c0,
  0x20645101f839ca017efeff00f630a500da803b02c81c2e01995d0500f83fed01a6a2bb0280e9ae003013fc02fb3d970043fe4602cfcc91035747670381557901cc436103ae7f90005c7530000b17c20031b43a00f1d56b000aca5c039ff2b5036e385c03a2ee860196114201a521260214b5b201722d72,
  0x302c5600fe90c9003db2e1018b271c01416cb70257ad800399fdf6035e4d0d013fe5110335ed590032d8d7032e85b103b2818f018ab79c00437de2013b3a8501044bd5019ff1d203aad06101a7617f003458060377b4dc038b98ed03c9f8df03c4b951039fb5b503486afa036fcf00022d110d015b36a3,
  0x2d4b2403db9e0303f4e3da0131674d036b1f83020bb26001a58c2b03e0ec4601c34dcd03c1ba2f003808cb0340675b0041dc7e0289451a009ef6af03575cb901aa992a015027ac03d4b1c402ecdc570038c7e000cb5dd5002bc48c03cd039203ecae3a00cc81ce03a78ba4036dbf46016ace4401b2ed2a,
  0x2efa9b0112735503eb1132028a8143009abcf2018a014702cdfd1f00eac6eb013fe719009fbf5d0007bcfb00949be30062692501e0d38900c89f690188149200793a8c02ec1832032980d2005891fc0030f015026205a70198081100eea997007329c601abe46202df12a1002808c90035567e034c55a7,
  0x2238ee00ba477401aa747a038ccc7b00403afe02d8cd0f0288a5fc02a8b3530373da8402e024d000357153014949c30341f35a011b071a029aed07011a3f2a01fb67800079dcb40381ed0a01df15e9002420f902eae7f60309e5720183006a006f260a005ba74e0089dfe80014bec803bca404019402cc,
  0x6a5db0208df4900683e2802751c570154e4d6030f32b703dbb4110224992800fe773602c256db003948d1019fcfe9000de16500a2d52201a05b00037ba2b3037e8533017dae6c009514b501299f9f0037979a0141edb7031e228400ac62ee0304589c00979a2700e30e3803d5d1ec00d814a5003aaa7c,
  0x2b2476016ba89303ba38f200b5dfe100bc42d603f14f2400f3700600606f3f001815b700b72e2600381fba01a02eeb03e06de603861931019ba3ca013b75d6030c0b8d0145f4630028ea2f02fb3b30001e17b702f8b7280201443900b97ead011982ec03df4e0a0234ee5003ca7a3903becf37037f670e,
  0x1bb8d1037bf58b007b7be30153ae03025cdc8f02d25b0900f4e5de008eaca703ab620e013ea3f6002c652702b7a104008a1123029c457c0256cbc802ffdf1c0174c97100c1e7f202af05b800df027f0038052401da573c0038457101f540020047aaed02dde84a01e5469a000a5aa102e64a93034ba1f2,
  0x1dbc58019c8d3f00dd10d4017a7f7f002ce5de0004a05902d44897003ec6b9026471510315a2f7000e418400153b4100ee76d402bd758903af90f000733ec102310e27028bcea403a053b40085a47d001de32702f1a66c01853dad031d412000c7c01e0223cf3003326870028784be00e65eee035c5c18,
  0x9e3e60098fa7001c291f2000683ad0310da4b02dcd7160117029b01a202c4032c026b015902d40035ae85035b4d850232e22101085ca401682d0b0141e195030aa7de0333ad2e01e5654001d9efee0008652100a7c0070243b9f000a2c64c023bc276022adc68027a34f900bd01fe00d88bb401201d4d,
  0x15834b01bd949b00b4de74000f23400266c1df03d8a0cf03e2dd00003d2e3b0205fe1801deef8b003ca31f031ec7fc02e981540297e0ff01e9e13a02b3699100fa87e6019ef9f001cc4611004836e200050d37027319e20313a16b02e4c0b40279ed4103acfcf103e29a2c0161a27a01d0a4d8030a21f0,
  0x1633d00284dbf30373ba7e018a123a03998886032aa27b00cc2f3b038f778503cee7ac01d1bbf8000375590352f1a301b975120393ffc60025176a02d91e240247b1d003d89ec902a5c4080062fe05003186f500b6a7de03a26ea300e54cb203d5a3c00364dba201eee824023fb60d01abea5c02149f49,
  0x242c610038514f033f4a4902c67a68009b4e660069a05e02ede7fb000758fd03e23258031ad3170004c67001c98f3603db3a01033f0c3201bc6bae02ac2f4c0233f3bd038aa8c403eb88fa01b9eb2d000f299502395e5301ee8d0e0072b9a20194522e01158ee502c1ba61006a4b3802a91b500152a08d,
  0x2e9bea02221cb10317adf2002abdd1039f4d050078e3e60005b91d0073ff2902bf13ae025c4f91002a45ff01666f310233c52301f6790101b35bac0258177903d877ee02c4d81103a06c4902b3e04e001f27450138d6b503ae77bc0205fc0d006aeb9a0004019500ec9c4102378267022112d602acafa2,
  0x28810802d0284c03b7b69f02dd80580177624e00d1677b0288f9da036fbfa001772e4500b16ef4001355f903eb60da0063e20902278e7902cecfa500b2723c005e980600bf624f0034174a030803950013045d01ca6b26024f3eaa005ea6bb026502110330df8002d30ae40034f98503675f2702fbd5ad,
  0x2e1fb2032b22f702cddd8801cdf887027e26a800d605fe024aee820253550400d5f4e501b2a975001478cd027bdd3400918d6a01f17e06031eaad703a5810e0156572b02dd2da803d145f5001962390027692a0251d8090106b68c01e33b390299139103ad675c01d6daa702807b0f0177bfe00102e9a0,
  0x3bdab40291ba85001899ce006387e6004b42fc03988f9602a755320029d48d02542bde008f2e2f0016a06d031ba11f03fb650201444e1c023db76500e1884d038ed00401cdf80f01e52d69006f23e0001f192e035d5c8e0145c8da03278b7500f31e4402f20a0000e2a24e025a9394035924b300adbc4b,
  0x3e225e03e1e57001848d27039388230387d2f401ee2a5100a5e5f1009e0755012e0ef9017a062a0036302c004e7c67023f6fe701d59b51014f86e40296a10f00a5494903361040011fc9c300e7e265002708520120d4ed02ea3044020229e202745546030dc5c90314aae8024dad7b029165ac0138532b,
  0x107a5a00beeafe019bd5500149980d01b1c27701f4c043030a904c019b92980237fd1100f1bcaf0028be31018682630142837002c61f3902fd0b6503963ec301ffa84d0304eb3602ca78e90237c7aa0038c45803b2ba8a00cad7d60186ba990060122a03f26abe03c3e08b033eb02e003263f201f9be1f,
  0x88cc902893d6601c4e70f019a705702a2b0c303c92cae02eb954c001d6bc702ad9e5402a4dda8003eb0b3007090600346f9ae03419571005b00a503c3e07f02562e84034a70db03b5bfe8008e383000108e1e0182636900b52d6f0054797402896a7d017ae2f000633e4900662b4200de889d02ab7d0e,
  0x1d719202fc143300b3632303225235038a821500da7c9a039c1649027e862900e0b0fb010e0a40002d3bd701830c3200264fd203f574ce02bad526033c03ea02e6b9be01fdc75f00817fd403c61e970013e495000cb494029fffce0066b65f0308f59a039194350127593a0178feb101e2318b019cf6fd,
  0x22835d03b7dced0153bcb400e5c45f00c6efa8034ac03a02ca701b0235db2a0185066603eeff9c000b11e701104e7002b2e1ed006521a2011ea51d005bb11601d296e3003b5b8a0258331402eafcdf0030b2bf01c15688005d40f20102b6d10063d620006aa644011493420217d5c7010aef4403fc65b6,
  0x3e1e9000e63b34037baf6003d7056800589f860116120a0324993a0354fb2103be35f9034c98ca0036797b009c488901423f2f02ef186c02e47c0b02fa1dfb0314f2bf03587ecf033489a00223eb5d001ee6000392f3c7009949ef02f32cbb031cab2400aac51c0061c7f402b8fbb601b2f3bf03b372d6,
  0x10c03902fcc36902adc04c0363a0ec0264e78b03f1e7880173f13a01e7e8190158c5a301c4e3720036d02102f2d48b03f65971008ed01f028024a2005bc7ae0203b3fb0193ec160231831d01f7e4b00038405702f866580255a95501f78b2c0396bc0f013a996f018c0eab01c1213801a5a166024aa745,
  0x394f6b022e187002c77f1100e66b97017bb4fe028890c80172f5fb01992a3903e88dcf0396f08b001c47a80365689f01c20dd60212bf0b005b2f0c0244b6a20205e31b00884dc900276b8100871c3500303351002d3379020777ba01bf919401a8c2da012b6d110057ee5c036b406000d23a4402437738,
  0x3338a603f564310250dd0f01933aac0024d5640143df1d01a2042501883a66036bedda01edd0b9001927470397b9ea002d2e4e01399b97025a7b950349964f0225c97b00cad66701ad3a1801d0ec6e002f6f63002cf2ac0311bd1c03185b0a00b66c4a0269c8e201e3435d0092a722008076060050891e,
  0x359f140030300202268ae9033892ab03e00ffb037d32720288d92703da689f033e5a1901dfe73e00045bd30291e71001c142df02893bbc01c1837a032964ea00e5d3b700e44b2d02c6adf6017d12f60000b5be004309360013dcc9012c93cc017aad9b0008d4db037b494c0180e75602a68d6200a17996,
  0x164b9402e54ae10054405b02f7af4803f7f07401e3be4100b8299f0115c3b00154b41e030529ae0027944f03f84a860179fe65018d999002623008005919cc01f2b005022e1711012b944f033e8e7c00174d9d0349bb6b006145980033481303920524032706dc017eb64d00aa49bf00089b49017eb91f,
  0x37483d0074dce0007f4a2801d0876c02b79e3602335f2700356cd602da59e6025358e303aac21a0027ea7303fc309b00ab80dd014021ff017a7c8902e039040208983000c04adf01b71653030abef400334fac01f849ba0095693a034531c10198a22202d904330395f11c018a5e7802ca5b6e039ce99d,
  0x1479cb00579fc00073675103aaa0f303248ce101e9dbfe001d71470279c67f0265e2e00048c49d002dc3b9017eafa9020b29a80346d0c9035fde90033bf7ac03daedf3028548a500271efc03a1c2c200020347032feadd03e32bb101014085025d952201db5620025493e803d4517002ffa07c0195480a,
  0x3c3e0201a58ba101b5d26801f6018f01a9efb80387110602ecf62c00f40c1a012b9cbc006a14cd003e2c76011b3fc70328721203b96adf02a34f7901c877370087f2b700e05455014a988c038b9307003038a30054fa2f01f6788e0122798103901b6b01684ce500638468015dcb20036f3354026fcd94,
  0x5573c00896485038283a0013d9b600055f1c600929dc801547eaf01d38c2b0080571002b87fee00161e3603eea042030820030200a7160013ef3000fa66c4024a02620376b2b0030dc2940364ccbf0011a4e103889526031b265d02649df401c826240352eef50122c22803211044026e8a770316bfce,
  0x3ba32200f77a7a02e28783021a95e103c45d1e0141b8e002f84cb602f30012006ab01d00703cc4000f066303200e2101fb16d0001f0457022923b900f1bf0203299c5103b737b8035caf18007e05ad00231dfa037d2047017bb1a200159440036f8e87018251fa0119f5a50286c707019347470201f381,
  0x347fd500aeecf30271f1ef012dee28022b9b85006fe689030fbf7503dc3a5b01585d930142653a00079fbc0251ca49009c252a0344954a002bfe7c018640c5010375bd01fab7a70312709d00b7e3af002e463600592add001ab59f034793b700051f7a0015399703abd30301408680036be59d00670081,
  0x212d3f0220ba77034e88ab03ad95d3015330f6030167fa0368a491003a8f26032b5a2b01a70f9b002eca59012681fd02f3a23b0087fc9b021178a802c63169007c745f02c8dd8e010afab000b803d20039c62000835a6500d58a41028fdd7d00c9ca700035d0d102c563cd038372eb0212201b032179bd,
  0x2171460386393f03784ee30241038702f8b64e03a34c550357e3e3005d8e600239505f03c5ba5a00157249000514ee0024fb05013b21f601126b1703af574d03c704f5015af6f200d2188e007330c000302aec013042f3005e6292028a593f01da4b7f0221c8a502c7c38c01be4850021058ad00f1261b,
  0x222930037ea0f50123d6770113dd2a02dfba9f019628a602f2400c008b079103c296a000d88f20002ae96b0016984102e84c1902b1b26d025746dd0329b28702380a07030f3fe3025c8302025019910036d7b9000b7c930351bd87013160e20354b790014f83a302e354aa01147c6a03bcc87b02223773,
  0x3f5ac103d79f4c011b9f4202a7fcd300e4465b02439a22021789640271fa4a03a697c1002b13de0027e3cb037773f601bb9bcb0343cbdd0377eca60343ffef02862e360109ddf802f3338201782e85002fb4f700e20619033671d6019e7ea800757c8d016c1d7602ae602a0131b73c022775b902f14ea1,
  0x1ce23901e1a05803144e5b032f190401f504ce0182ed37027b7536037b60e0023eb84d03ff511e0027416602071fb902ef23a100ce22ec007b2add02a45f0b000dc1d902cd6a4701e366a1030990f200291a5303b848c0034e9221032eacc000ae2a5401169fce007883fd009de442001b4afd00fd1349,
  0x201f90004c2ba401e87e43006304800273360b03b978dd02eaeb5704000c68009bf92903191a8f000acb3a000e2bfe03e5b17e03d00b5900e2fc57027e5a7800cc20ac02ca7b3802e2e4c6006f59a6000242a902dbfb570188200303d3b41f03723ea101c3d5f10088ae60019653ad03c608f2017dd009,
  0x2bfa3027c02b303ee41750153557700f9c0230396f4650187cf450035fb27013dd190007c071e00243a8602bb26a50175b4d100f9c10d026ccf26020b57c1038eaa860313da8a0332a9e60194028d000b6b8d007bb619023868cb02cf79660377a8150106bb0b018c960d00666d9500bc6cc403621322,
  0x3ddb21038aead101cb0f85014ab29102dd3c1902261b2d01e214b5015936430270877202175ae20019e0dd02dd949a039e7b7c000b09ec00ebfd2c01df45970297366902646b8b0215b72e02b5e4e6001c3f0a0151ab5801690180011eb4550147095a0118e10f004bcb2b00ddeb3600da0895037954cb,
  0xaef0403a28a380297b0b102386d810383c1e6011781c300c6fe0e03a00264038e7d8f020640a7003e107c00f0f6b70167255a00064b4900f9c8f70223ba620010c3bf00d8081e009e3c4e00b817b8000dd38502297386001d258900f4183d014d671d00b2aec502c567a1035f42c00225b9650254849b,
  0xace790129156302a4a337006aed1503ee7f220385410601aed46a021cafa20343f5cf02334832001676020240c242023a825d01e7ceea01dc55f8039830520170842500826d2202c6373d01de6c2d00122681010d580c010cc5a700baeabe00c49b6500f8394f00d5e3e50244c19d035ccb0202b8b827,
  0x1d41ac016377fd0044ed46023476e601d158f201153b8a0196164102a7fc9f00e4587700c4190c00197a1103c757f000bb991300a8634a03ca3f9f011dc01101155332002bd85f032e72d00135e9fe0011a2da00c9026900ef183602b1c42e00f419a902ac09f501607b9d00e182da033c93e901da5c3f,
  0x1834f1017f2043027b28c70021b91f038352d203b1216e024514c20284f43900b80a73037bfff5000101d203dd80a8009cc9c80063d7b001b2f55b0017862c02850f83036ab54d034423f901698a3d0031964b01073e290078bede029fd7b603227e0602b0536602ab3d42005af3680096f08e022ee204,
  0x3a9f0002ffeea500566e32035401dd0092852802e52eb40022f87a0271cde10024cd95003ac346002425ab028d0cdf01ed60430168c2ba0095450d01ae878103eef90003a8baa200066bd2011ca1e4000c41070100b7b5031e940203c13c3002f20b3800b55b0603ab11020097d64e0224d8c2033c8335,
  0x2b7bfc007040c00229a12003e7f61b01e8b6db03ebc0440359cf0301d376830169028e03d5a1b40008a99a00adab4600c538e602fbd90e016aa1ca029354f100b00db70110793300ee245a01a46ce70013b6da028983c703bb23e902ca30dd02a3ab0f02becf0f031c3bc400348ebe01b4a04d00eef35a,
  0x35e82c01f045b400e5f0710353fb3a00e30561035e27ae028ba168002809a20375f4b002f67b1a002603a503d137d501a3572503e86fc300fc480e025488c0026a7fae02cb9ea503ac596e00ac771d001f0a5e02f8216c024d72a303f83d4b02c0f2e700c508dc03eb5e3700ece771020a297a00e419e9,
  0x368762017204500008a0700383ff2b02a4b232035ba3eb00e3f318030c544803bbe01a039f3e8d001ad085032bc0a800bb3074003a8086012ed55e032d1efa021d1907009ad859031ce81700290c1c000280fc03120952038404e901bf573201d74d8001c8b68b03936b14028cd6ea03359ef3019cc67d,
  0x38f38702450d7500dc8e6c02ab887600584e030323da2703304da501dc2653019eeb8f0234929b00079582038ac46101e8359300ba64ec0178e74f03ce69fd0017fb3b031c678701d302030032eea4003f552e01051a24035fbbb700fc10310365d21600b185e103f97a87037ef13803261352038e0c2c,
  0x3d2ec5004d14350387e7fb00c4976f03d1bac80095dc5c0016e709020c2f1a03b4d3b6001ec6ae001b05d7023f9847037b994900c87df803c8344b00e8889b016837d6022a0a2302274454039d80a500063f6f0178f89a03fd7d9b01542ff801eed67401c0f3e30380b488027a82d002b806d3021e8c52,
  0xc3a0f001f288700838dff015a5c1f01ff3032023651d4033a65730179b974011a200e014424800017929303e2c6bb004993a4016776800130ea8101da4d4e01d66cbf026703d602e43e5e0170280d003e555d0375ebc602e40b840167c96e0122c3d300fa2b8f0338e90a0302d54000b79fee03329c03,
  0x4d3d80151f06a01abbefe036574460260f7e1020c4488001025a70395b47f00cc18e500e7e80a00152bc4022b6b71032868cc0353eb61018ad49e02154b7202df360e0132db9303f22d1d01bbff71000f970701fa9cc401511628026a0ba402ea4d8802678c4c008de45d03b5145b0223f57702419079,
  0x25b5fa030fdb3d007b3dde02dc582f0233dcc4036573d7038c896c030f46a40329f09503560009001de75d018a204d02c5372b039e064d034ecb5d00a8c34403ddcbe7033ae9aa03fad65b01b2751d001eee3701ef6faf03e0880c03e891b201e6c2cb033afc92006cbd8f0163662701e2e3a002ae545d,
  0x1a8a1a0383d6c2016681c003264421000d1b0a023942b002ab8da4001d72b802fbb49702529ce3000fb3a9012318ba0379cd58024bae9a014ca2e7027099a602729ae4003d71db00e2075f02073ac5002a98a100951eb600e1d12403958d030004d93d0310177b0092faef0117d7e7017c44b5013c9797,
  0x286dfc00de0eca00824b4f02ed92160295801902a966b601ea969a012da5820294e1a4026f10fd002af733004acba0034ce740004d3315018b46f900b2d8e2024a9be201554c8903c9b1be017cc053001512170168a1d102be08f702a4f8d001ab654500ebab5903bafc10027ebfab000fe79a00dcc71e,
  0x2df81c03ec958a03aabab001ace46d03b7fc6d02a9f0e700637c300200faa8024237a102ed036000350c2a0114e71e019aabf000e71bdf02cea96600453cb800c81b1a033025b101d5e43101918615002c434c0168b7ca0028690c0372bda30022e13e0360c3ca02ef41190112adaf024589580232ace7,
  0x1a2d9901e5e111021106500197ff4c00a54bec02583cd1009c28d20340dab901c78dee016c14a2000944f100628a980220e898022437400212ee2203413e4303130c060111c95b030e98250054e5e50036bda10301b77a0201e5bd038db5df036b601b02c744d703af9a7702e965d100f4ee8c037a5318,
  0x25914017402d702bb88e803894bee01d64307016c1e06025dcfad02bd7508030e92d80013926a002a6e58021bd6c50228754d021c1289028fa3830277470001cefbc30085786e037d77fa01aa2671001ec80002ff9ab5022acbab01ad031a035b212e028d870b035cd2ab02d1c5030155fbbe00333308,
  0x33135603ce10100110c22303c48d2103b0819701846f260227919502bb4fca00181e08039804080038eba1029d85ea02d36843016ec9920397c9bb01a40bfa0155b42803b64c7402745b1e0326cf5900397e0d03371f41032d8da002034ed603133a6901e760c802bf6a3503db7149008b4bbe01193338,
  0x3a48a01c75f330007f565037c2f820399b1f70196d5d8019c3f73024ef97601bacec30196c13400262c82021322cd002a2df501618e43038d011c004786d7023be30b02e93f2b02793fd802246209000fa22900772d67029da726010a6a21030ea7b90226ca39008492a80115a0cc02bbb92d00e62432,
  0x37bdd903064dd30264d1f802ba97a603027c70036de63100a6e13803fe273702a1495b03ee5ae90008535703cc167403f2d0d20333784d01d13d85000dd54f01a90ee4037307f300723a750024db170009189e013d5c37030b97b403c2a1f600305cff03983ff1018b194302455dc800a2b5300070ff3d,
  0x6f0bd01c3c618002b2ef002145bfc0036284f00c42e1c008a67c700be7e56019d18a503eded930002c6e50380dadd020335eb0061c08402c1ad720283e4fb005dbaf5007d52f101611b8501e2a5e500316340035e040002e45e5e03998f4f0148798603ddf129008dee3b0132218103697814007ca8d3,
  0x283f1d002a1a0a01ca1150006b54850209f4dd00a05bba000560d702968006021bc7dd03d597de0029ce390064657c01cccbe2038a1984021bf9a9000fe69202c770ca030b4e0a03b16e7602b8176a00278e7e00a94ca203b88589023fe39d03c6c8ed015c6858011f88be03e75c61012eed250393f8f4,
  0x3a762e00a5c909019582a10132a19e0044e4f60396f6b0025922fe035d451501ca8c930132ef950037e60503d715fc00bcf7a001cdd78700bccd40005cd38b01a8de7f0027c8aa02dbbc9603fd67a60001d50b025c760e02c958d2000aa643031f031c0127a1da014f97cd03286826016fdf7903369279,
  0xf19ad009fefd10190f9210314787f01d1f62a01f640cd017cd50201e40288002bd6de03d8c0100002619001f11de1000919be010e13cc03e6c707015866f8019594fa01527b5103c9a7f301196524002d90980102555602a021400176e6220067d54a00d9eb070246c850020741e302b2497b0311eb07,
  0x283a750075ed2d03ddb34903f7f158035b01ba03c76844015c181d03f87bab02070e4e01e01e4d00345f460026e1d401a4ccdb0238604d008ab697021fac8b01ca3a5a0014ea92007f4d90007dfd45000a21ee01b09d2202046a56003f164303dcf078001c495603d898ee03dd800700275ddd01acdf1c,
  0x202fe1000710b300d89354003c795c0188d8fd0241966c006e3c99032c90f3012b7a8a01a5ade400023b3d02a4e375011ca8510247608801d8afa100a4e92d008d938b0176a7de00f7c60a0354b1b30021300e037877e003b4741d02d9454f031139890283f02803e93ab001a472a3028399750305a206,
  0xadce02f5c7e002518c5c00a1d55d022f821a0239e4ec032b62050189ce0d03a371770207823e001015c201c67111028df15a035a013701f04f7f03f650bb03cb0d57034429d102adb520026ee3f400175ed70261b3a502f3c8f3006086d902f1108702a68fb50275baf6020d0cb20044319c027f934d,
  0x19594a02a6f9ec03a31d5000ece2c00224092601bb744b02b17320015a4719038375d30188b10b002a014003df277800cc2cfa006c8c7401d23116021cca1a00d6a72602517130027286ec00a3135f0007cf22028a924303411468027c09a8030d97880079281e03911899025a281d02669cb502b6caf0,
  0xc865e03842b9c02d54a660201cee30261b32800982c3201ee25b002090ad900123dbe007cedd1000cac7401750c12025673f502cf819603a869bf01038474030db922010308610376a8fb00c5de45000c72c803367cde0241bf1201a781780207b0e103e0e1280318167f00b75b8d00dbade50066586a,
  0xa35fc01c61ca20366b64001e929a50059a1d40310c18503ce9e1d027675ec037f7bec012467170039ff43025b485f01589c53013e8806026ccb1402217666034a691d02737cf2011dda3102eda93a002a0b05020017e000e3af7e03f911530224434002ca2eef02a3fb5501c03ed8037bdc68031cfffc,
  0x70cf601c546f203def406034020710176ceca034df8870349a04f03b22f6a0108fe1802d2cc0f001e93f203ca12ed002618f203d77e0a0181bc5401ec6b73026eaac3006329530201e1a901772f1d003a6e0602712201005e3d2c01999c350361f250026b1dbb02b2358c02bc2ee70033be03039551e1,
  0x1385e0075034e02c97c6500ae998b02912892028b4666010dadcf00806224030a9250035011d8003954fe0080b3a900c1a92400a774a50019816203879294029dff91026ec6c10146d24401a9e24a000d29e20197133503a98ea402bc832a007de8af009c57da000b6de4033a591302cfef8303f26777,
  0x3189af03176f8f01d09f3701ee8b1b0304628f002ecbbc032a9af8002d9b3503b058d500716a1a0036b78002a637fd00c0551600cfcbda03d07d3300aff19902da8e0e0063a9bc02ae088b0357122100068652033e8c82027b8bb0008bfd850223f7ad01f86d2402aa67e800b682610225d6660056db9b,
  0x188b2501eb6a0e00a64b5c0019f5600317462400a1153501a79a400204a2c500ccad5700531816002b097700f1cd00032d1fcc00ef9607035408ec01db309902b7edd602263df502d3936e035ca817002f8a2801ab38f40112639a0340932b00216a18038d332e0126405603d6701c02aed8350308d393,
  0xfc716038e98da03bf642901e7a9f002ab12c902e410dd004085620160982400b11b0502718f60001e1bef01e4ba7e034c4aee0084484700009e6802a20e4402c5d47501db513a000d5a8f0333c9b10039645e01410f2a0106c48701beab4b01f7c2110215d6c600754bf803734ccc0344a1ef00d2e2fa,
  0x2fed9400c4be13006bf60c028eee39009be8bd02948af6001acbc603acb9fe0267b58403f81e7000001e3a030ead67028590e80261891d004dc61302724f8003af5a2d00bfeb070187982602f2f5070011a025008fdaec034f29060039262b02f9befa037acfc4026ca9780071812c031e7acf03433a83,
  0xcdfd0390fb160118f2a30136eb6102f4e75c03525b8c035652b203dba18200bf205702a3662200386e420208842800fb6e95008248b501949063000f5cca0304968b012f4abd013d144c0166ff950007da1c037e173003fb739903dc447c02c4a0910367916b01438f1d0361d3c8007d4740002f3170,
  0x277f8e03af5ad501209aee038a4890015066a201a3ab5103311306024d13be03b2317202aaba58003a71fc00645f3802ff3fa001cfc6c400c4c32403548dda01cb111c01ae508d02dab66502200a2800219373022fd2a403a2ea4d00efe5ab0259dae502776bf901d046ac0398c1a900a4a1540173760c,
  0x4a8c2002079080389bc440201965c00dc0698006f1836027b480e0311de3001877ba001ee1058000cb2be001be45300adbb27023fcc59021f927a005bdde503b861b201df246001825ec402cd7746000489560289689500072ea301b9637401c623150001d86d0231bea7009d06c702dfae270398faa7,
  0x7d920072abe60296e66c02a9746d01604cc303c232e100d2772c0362bea402ec591402cb5aaa0000222d02fdb0c7002c94c003081d9b01c62426022a1a0e02b708860374dc740230c7be00795e2b0003a05d00746fbc0165f9a700286f9600ed63070366c9a8004afe08012a490402ac5d0000aba923,
  0x11a97303f7bb2400cc54e902f0c03e0084b52d023f5c1901b60098031cc4d20212b63e022e30dd0034a3e7020d8c1b0152343c027615970163046800f0cae80124da1f0373e8af0136496b0050863400333a1f01fbe812003bda2201d6d7a90069606702f717580053c8e6019acc9a033c8f4402151fd0,
  0x3c89dd029478110172728d001c0e43018aced503a7a1bf01f711340192b52f02a5a4cb008693760029302a01ef3e2701264b3b03f1f7cd030cb74a03d25e0a01eaf6de0163f37401f4c244027a8fc80023bda603d52e8002fc203a01858a8c006654b602d7b9b0012d790b027fac920328f17401836ee9,
  0x2b41e70365f5af01929589015f3b9300ada07600f0cb7c018ba6670007809902432d97031694ff0017375402604876002a3ad602b9aa1c03ca154e02cbf33100113dff026448ce0183388803c94e610038921e015e203f037145cb03a5992201dabfbb004a2138038d607a03d777b60363a66200a2ae04,
  0xec4b9028d111e03f0d2d600eba37402d3145b029117760242e011035f52f70146c96b03cf418f003471970077e80d02aa9b87027c7b3e026e762501e7e745000fcb4300d24b03039412a5028381680020e9f3009d08eb012085d202646ef2024fd4bf0341c59a0296860d02d1c3a40177c4a7014ebda6,
  0x1f9b6d01cd3d2302ae4c5b00a4e77300bd5e0002497948014db8a20238834f0232bee702db4be700105e220231d31a01d50bce00f42aa802ea102502823961026940ef016a90c60372b52700bae21400383688009cba68025630b503ce4cc6004e7f02008edfd602e64b140354181103f3d64e034cca1b,
  0x1c516027b6d66031dced70234878c039ddccb00c87d1700911fe803a74c860028d170009e658f000befed028984d60342e7af02931bd0007fc1d1027e0ef8028152a9032ee7a001dfc529017ebc6c002eef180150542f0085e7c10216915a01e9583e03bf158a034218c9035c0628018ddc56002e5bbc,
  0x5ddba023e8c410110ab4f005484790080674a02d5b8f80327b3980149b209007b4d6701572d2600301ca9022931d103de213d010a00840241a492038746810010c522009a35e40278eb570273928c0003b37e02e4e9ed023f73df00b63b69016688fa01139be00234659303a9185a01678f5801abcda1,
  0x25f44c00647111004dfbe4000700460308a1f802c762c401bf59e701a0aa1b03d900c602e7ee2f003d5b0b0337b21400f0f49b000afdfd03cd3a69020234b5014b97f10271f29f03ea40c002f5e4e80002fdbb0039968003ac02910005de04030b6ad3039c91a001a2ccda03652f5d0329aa310199de2a,
  0x1ddf480244f3ea00dc564601d9d2e30303503f034c8e2f028c4a60024986be0158bc47021cbe580005048000d21cdc0064c01a00882d7802432ab9037d9d73026142ea01105ace032b0b2d032e4fd700311b73033c6586038151f10378dd61036db95600c229c00021b01c00cf0837000cfbc703c38620,
  0x11e3bc01f2749a01401cac0230b79e034ba95d033bbd5f00f3eae6010b1a220282240f0156c4fb001693e901f7ba5103551c81000b012c01d7ee8b039f1cc102653bf901d63f07018ffdbf00d7bb4a002ea1cf03974a5902dcea0e0032fa7e0199a8a503d9480602a34d8102ebff69025870ba01cd9876,
  0x726050006d7a800b1e24e0254e79b0274653d00f2cf8b01570e6802b66d83021397ae028b15580017c2520144acd6011a0e0602ea6ec2025fa17f03dd6aa8021d33a400e3f3c4025ff75a030a40c20001085300b9f04f03a6945c01b9dce701ebe4030040df0d03f99b770176551f02faef430337d2ef,
  0x2a7eed037c36d501d06d8e02cd570d03e327f401261c7a03489a92021ade34009db0eb00ae1bd0003b7c1f01e856fd02d1cf8202212d7600b75983020fa56303339483033f35d7009abd86008a97ad00327d920152ad7d03101f3f03f4a8ec01b2877a02866ca001905118018cbc4701e885e102ed796e,
  0x5507a0361215f013cb14b0144cf3f0113c2aa035193fe0324c5aa0178ec3d03517813025d38100000c42c0195f9de03de35780245fe8f011cf96c0053587203937cdd0043bd31033a9bd103b446e50014e10b029117fc02fe0a0902f87b660092953d0269c02e03996bf60015edcd02baa182026f92e5,
  0x30fde60039f162030b5759031a32cc00c42f2d03d7c13002b9801a03d587c4008816910386a09e00353b0b027bda4d02dd9257020da6dd0215fdc90335670c01ca6d820254f3bb02213843007d48d40016de2001b51b3b00b5cb590106a8010329aa69024a9dae03166195005a8c86015c605c003a1c15,
  0x26ff6c00aa317b01165a6101598e4502d23f56033f7b6c000101530073082d022a7a30022a2c0b0023f4dd01a867f103766e210227691c019102d303c648f402504988035c5e7202cdf1380191bf5500319a7e039e210c01329c9701474d120225a325003e984902c1e422026a0a1703eb553c03027876,
  0x2fc2f5019a985200b451dc022becb501b85e2903d4289f00d67c800395d46802f94f1800df4252002bc1ba006c79cd0214d73c0185ee3f0338299201b43016021465cd00d15dad03624ea002fa8a9e003b485f01179f6f017692810036518a010f287501fc59ca01aff90f0312539f0168529d02c00967,
  0x72900102c71c0321feb9016598150103f3230398ba8e03a6accb03ce7ce00368bb2401cf71dd002b761403a64ce803c2517f03943a3f0000165b00ae41b70113840b030be81a01e5dc1503ac98ff001b449b01d5094d00f56ceb00081a2e02260c16031f2f0302c91fa2039780450372c3f70129e197,
  0x2c78e00191c4b40362de9c01204313002a848e02dbc51b02ec0f5e03ab9df20237a0b303cc366d0001b9dd0037264202fecca401e3912d01c5857f0011a48102dbc84802b0b57303458ca001325ee200384ed50071caa302c886460268054400de6e2a01eebf9701a765db00a32a0e02470d8b01748d33,
  0x109af0005a1e40327d53003c9b5ec03a2c1cc01acba8801771dcf03a76c5800eb3bf303c4ea520016b9f103bf8430000508bb021cdc8003e43ad901b5cb6101e635f102c46d43034587530104d6570003f8c301bffc7703b3d90201772a58003a187c03bc91000336badd01baab0f018a1f1b01f6a3ba,
  0x1c015600bf4b4d0220cc7d025ad95d021cc683004c7a8e037489dc03b1f84003877ae30071a0a40026f68601ff7f77021e6d0c023b7ecd01c52d0301e76ac10207d60b01723351014ded3e005ddf32003032db003ce15c000dc1d3007b4f5302941c18035c1b760163574500fda94001bd6cf600e95617,
  0x14894502e4755c00e87d10024225fe02c7af1402f9477903199f1c023d6d0f021df90a019c9dbf00371c56019904e700e33d2903f6ae9402d3d9dc02a7f8f900913c160322f88301fafce601c877a300031b5302f07c0500129a0b031ce094004eea81027bfe97006f502501e8f5f4028c61c6001b7105,
  0x16f01c0395679203ab17ec01bf40b8012b498e03349ace02aa1926034f53600372531d0313bac0002581d9000e6c520356f8e60246ea5503b71597013418dd0378f75301f8f17002c4ce3d016092ea0009148600c5287e03ca9c36012a91ca03fa458500fd050203f8f73b03784a6d02918b5002f183f8,
  0x3b9d1002d16f18005bcded002e32c501985fc00017d07401d67e6e028327cf0136f28302c50e39003599d90175969501aa6e6d034d756403f4355b01530120007be8d2024f81d502916dde0177f9300027866801bf9ec6004a244101e221b8004aad2e034c05c60266b6bf03adfe66010cf0a9030f6984,
  0x178c1f039a43fe032e6b1f030128500016777100b6e2a4003e3d360084194100218c8c031f9c76003a62650010c57403272a9d00f67e320275bd7f03418a4100aacaea0002d7ff03425c0f01c15c9a0009c6e203be92c401e2b9c500787d4b02777eac0060fb810398142b01b0de590302fcac03a1715f,
  0x44faf03e3bf5f017e25ad02d615d40209653902c75f7b006d1ce701953f830272766f03731ccc002cc11c03368753000491f50377cf7102f8b887023b08da0260bedb013a00810194b042039c83ce002232af0152f408024785cf0068c29800261f50006ae4a2035667ad0233ba7c0145ce0902c92937,
  0x30389c028e24ac00e7b10a03d5c980034c3f70017806cb01a9f30d01882c9d0096736403beb1f800175b4f01446efb03a645220245ae5b01a7be1803bf081b039f41760085c73b0229d482022ca63c000bb25a01cc71320295e3a001bf66d103b49ac701bed0fd00f6db83021af7950209007603216794,
  0xcfded0245e4e90126b67c02eaf94b01feae2f0005652800fd75f2029d56b9024616f5001452ce002a11dd022f27cb0213beff00728aa1026074d800f678b1032db5230246843700098a17002e7975002b092501f66d430218466200a1e501005481b401a9ff8903120332011aafdd02318577029a6158,
  0x1394d600b425b6012685de007517a1018e86df00ec89be019c740c027e928a024e85c80118f64600105190037681fe023fa2ec01d96bb30010f28f03e1a69f03d87f660393ffd901d6d634002d4d6f00086510007b816a0256387301adf70600360cb3018c40bd0082d8b102e5f43702cb08b602917183,
  0x8a08e00e5ea76010a4fa501eafb3b027a5de701866adc00fa236502fdfbf002f7044903274a2b001fe72c03bd71a101b64fb702ab5fd500e76c660371ec6200062bb3000aa9e1015b2cb20159a7f90018907a01c1a81703bf573100a1b63500dc2b0f03d7f0d902afa404009b3902005b1f4201cd8baa,
  0x184c9a039fb7ad00aefda00243f66603ad083b03e151030053369400e7856103da44d80138084f001b248e010bf4f303c955e303b773db03482b94035cf90f0110c5a802f264ed024e9a8800242fd00034387d038e82b50253177c033daf9303d47e8d02edcaa103d0ebcb02591fe50341de2c02fa72d4,
  0x27360403f21f0d023bd0bc02e65e660199587800630504007123cb032176230205a84b024a71a7002fc85a00cd9a9301243bee01bc494c01a4def1036886d3032207a200cba65c037c3628026f2402003d03df02ba17560353dfd203f1f35200ed68f7035f8db602fbd255004e2cdd00b7bd4d03b8c60c,
  0x2b965b01f2b897000c17cc02ea0a8103e9503d00821de9015440da0310bb190088500e011ae4f900343dd7030fcf82036bf05e0009a0c701f873a102f156bc02d59332034cb66701a697b800b26bb6003aecb003c2890c016e4e7002ca45b6036bad420151c17503e8c0e9020cc14f01e3f2c802923425,
  0x2fa3f0285a123027f61e50282e0350059d7aa03c1b0e302057ba20108de9701661bdc00d8ba0f000c015700a1bca201f437de028ad3de0388800b03ebe0fb025a1aa50335311a01fd3bf900baeebc000f771b03d6e16e00ef53d102f16d3c029decdb0346f308021c581a02e16ac400dd926200246ae6,
  0x21cc303e643b103886f2e02bc9eda0241218903df731102df902902b216e1034a984903fe206b003e83180347c9b802567c5901bf96be02307b81002ebab700838f4000db088003feef3400886f63003e299b01950a8800dee955023acd7900b798bd02daa7fd02ab40890332cbe9019df21501693134,
  0xf38ab036c997d0304664e02a68cb300f54b2402bb4cfe02a1abe70369245901fee69603a278680011b1cf0090089e03eae575023fa1df02d859a5011233d20009b646034fc6ab01ded2de0004da1b001abfe400a59e0f031edf8b0277a941030d0d0b0196701302705d9a0099c0a100d788a401c4d24c,
  0x37486900adab90038dc652006889ad02e20deb01e09e2c00ac5e2702bceaa001aad7980154debe00317fcb025ac5e5019686d302afa6b4025a413c03d2bb99021179ff033b06b30207ce380116c34000161a1002db97ae0252889c0133adc601f80bfc014375740184f04702a534fd00f4e167005b03bf,
  0x32454f014592f8002014330156e2dc012abbd100d85f5b037d389f017d933c029c92a401a9a570000c773801e18c380389d7d80105021901ea9ad802506a6501b3daf0011ebd400353b088008a590d003695f60000a7c300bac9b50344e20300febf2e032fc601026f2956028915fd0096936e00dd0f56,
  0x18e701e73dce029a6b01021e492403fb675e03460e5100a50802003c96b503c27e2d00d1ed5d003744db00763c6d00f4387402c8599501a484b60200f759034f66bd02b3051c03270751028d95040011f27f00d8b5fc036ff762031095de0076b578015eed0b02e4355b01fb924302f3333103e80d7c,
  0x36133703963434029d084800134fa1030ae425032329c201563ad200386ca102a3a43203742291002d8fd7027820ca0042d8ba02076ff8019e895a03f5c6ff030f3e080359aa8700abf8a802fc0c70002925a202150d7b0175a0730048c406015968af03d590c000cc4f3503222f8c020ba57c01f15aee,
  0x23837c03804c3303f961d001fe4d2f0175d4b502caac3e01567d210395192b0131f7b9025eb727003593c6014be5d202b7dec70017abec01bbbb240397e9ea03ad3d3e034a9f5d0301c39e030842d1001211e800e9eebd03fd9249001b36f2006d66ed001b43df010653fc0145543d00e88e4d0025dc40,
  0x1ecfaa02def8c5025c040001ddf28002462a98006dd57a0132e2e7001e1ba20126d46801f3ed1a003d8b6c024326a5035d63ea03682b3e00633e1f0242413203c5c7f0019ec099006870f603600507002158a3036df43900c3329d026ff124035c7260006c1896020b3f1a01e8eb9502b8e51203bda422,
  0x3907450392840a00f8d6df037e137800cf2bb4010a915803b31ae300454e7002e02f3b03d10875000d2b6303fbb19900f3434302791e080358f9250159031303d4e74e01a6694f004472df02a784c3000f87c802fba572007cd4c500f8e50b02e7cacb011300c6029e396603545a4903b4033201793979]

end Tss.Secp
