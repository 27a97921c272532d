/-
Generated by tools/gen_secp_table.py: windows 0 to 7 of the byte points of secp256k1.go:10, decoded.
Each number is the 120 serialized bytes of a point, little-endian.
-/
namespace Tss.Secp

/-- secp256k1.go:10, serialized bytes 0 to 30719. -/
def tableRow0 : List Nat := [
  0x0,
  0x2bd9120212306900eef37500f66f0a02f460df028b42fb0287aa4200aae17802ecf32700dafd8a000c9b740323a30102ffbad001ad1b6a010097ec020d745b0006d85703f3303100356c96016b873e001771a20292f1be03ec2d0402a229e5020f031c02e4c298016bc60d032d8d2f02ebb8f7000ea0cb,
  0x27badd0340a00100bf2dfd012fb06202ac87d303fae4a10308de6902219bd200ab5f8003e77fd2000de01901b9c0ef02b61de2037cf5910036c94d02391fa203fb5d0e00fe2024016132df0173173300071ab503082299003a885f03bc37050002ec23020b18fb0294ddf402798da000de213103a5ed1f,
  0x1feccd0208248a004bf2e70288138603c120120135521602b209d300a7cfef005baffe011504b7000e6cad02a35800024b473c0258a23f01dbf0a3024e7cbd03a9e62d0379458f00dd924900794e720018c8a00194953101c3d31a00a1c461004f4315005a58b9026dee2a02dd5934009af6a903a5b4ad,
  0xdedff00f527b901d7603101ccf28000149f530296e231037bcb5e038bcd6c02cf94b301fc423600398d1d023a1f660194464802bb336f01270d4601b7f056030cd8aa0378e46d025b79b2007d33d200195753039a7f8c0121a894019a06470050d17a03d03dc101b48258019053fc00c5579c0130ddd2,
  0x194fdd01b91e35017a06590299ec4301658a1403a2fd78023d010d02b2317602b5d58000d7ab490005b9d00107b547023b068a000d131c03388b1000ab4f8303aeba0c00c0f86600ace236000d6935000d4df8006327630298e7c2021616d803d6de3601bd65100019d84102a9d79e00ee3c6802ee125e,
  0x3359d102d97d2102df9ed401b9d66a03d43bb3017d51cb02b48569023f24de00039fa200277537001985c000ad408a00e0425300b85973010e222d03fb96770148940a0125ecea02893aed02577dfc0020153b01f7e8e60066c29400eae93c02b7879a0395290002725ac1018862f203fd7936020416b5,
  0x180fbd01f733a501e367aa02715e420307418903bb308b016be22603c1feb40313e8e4008212a0002412090285039703c1b06b01fc148102fbf12b01d8338c00abed1f03254b01037b6cc50008ba8f001b7a220300d8f1002333420243fe54007340d602be045b00834d09039d448e02a367cb03a30e1b,
  0x473b90215abe60007d44d03ac8eb100fedd280358acca0194a6f302a2a899009e4c2603337a540033e5c50197c13603f4cae30351bcea02e0d95700275b9703ff86690138ffcd0292801d038c4e72001ccc780176aa7401eafef3005fc26403e6111b02d3934c027a9a5600e701eb03a6ee4c01b61905,
  0x11f31c00945f9a01d2f1e1004071c2014d424501a6e78900ddbc25012fe924004b48ea0024925e0031949903bfb42f00a44ce900e3840103bfd43502d7744c008b477d0031ab82018ee2d80043174d00055e3202e4dd920092bd2d0061e5750399cf6c01527a5700c44f9503f573f80240f7ac03d5ca12,
  0x3f11b1030f3fce03d9acf702bc532200bea8b603cf00f4006b7bbc025d52bf02cb18bc03e2f714001b3eb2000ac73503fc523300d94670034787bd03db9be503bcb4e40156fbdc01c4548701e5f48300197aa60044882b0084a61002175cd70075def10338ce8800fee41f03ee9cb70237f46b0377460c,
  0x19b5d20273c2ef02649e3f01edd2790291feaf0097cb3903b3602b02aebbbc0297b31a007593fc001b048a0370d6b0018425120162942e0339025e0003abec0075cb89023814170151f4b5034ff908002d211400acd45c0150eea000ffa1570178e2b9025716280285603601bbfab5031ae32b024b5f2e,
  0x31e68e00eab28f006ec44700327d2600e57ef703f68bc8022807340082a7ed00f45831027cb48f002830f20061820f0100976e01c07e770198eed501e44d2a00dc90a900953a34006c0fb70261369100054e3a01b93ff801a92ab101187ac601d309b200aea2d503b674c203c02f5f01a24cfe0064a735,
  0x60373009f571801754bf702de96a201cc4183034adede03c96ab30146a8770219d758027ded7a0004bdba014f644202c16ac600b76ead00ec653a00e63c8503d82cb2004aa14001546690038897b3000b2eeb03bb912602d7211800617bce001ccb86002f279e03ac6777034bf2d003fc78ab016c563c,
  0x15a3bc014304e300e9553b01a164ce00a82277034920d00333818401a3a66a007b03ae03f2b566000689bc0274b2dc007a0cdc02790a0e00ff2b9502834303019de1fc003afeae03dd1a1700464a6d00274d7a024a811d0125e96b025a83cb03d28b7c008027040123ce1b02b61922024c31d503ca34d2,
  0x2b48020143b4fe01a9f50800338e0a03b7669703215f4703ea4b140075066f03d535fe00faf468001f63eb014fa10c03345407032c215b02b61253018c30e301a3f3e2014c3c6e024fc60c005e261b0021f480038d4a79024c05090008ea4402b9c45300790fee0329b85602f3f6cd00fda85902ee4831,
  0x378ec900c78c4501d8d86a01956d6a01395371021e18c403e198730239ffd502004e0b01bfe66d00157d9700fbc3510231c4c10043506503c6853c02fea13601d6261603fda77a01ebf3ec000caaeb001097fb00ccc35d039c871e009b945e009c004101e77273004a9cac00579ef502b5653201f5f8cc,
  0x2eaa3403dd69b703c8d63200f26bc80106f033037b144b0242d2fd01e2663402d8b71b033e1e310013aff20343beba00230f0502035d1f0184d2930056bb01028a05dc0342ec0a00f829d90167c2d000291bbb034ba6c703f3dbd5023e442f03efc36f012d7f22035228c60371ac5903f1c790034b10a6,
  0xd719c0132968e039228cd01e8467b00ca8d9a02bc733700cdf594018dee4f00de0be3002bb4d50017df74019b31a10324340d02fbcb99031cbbb60311110201414e98030b366201430f0300597e6100203c720093d08e0082ecb503c4eb0603cb50ce0353e38001a55dd300d9d870013c848702119c7c,
  0x2d2b40106acf5031622f1007935e30271db400151930c009892f602b91247033076da0092a01d002ef0060096160b01eeff35002241bd01f615c50012c7c1014e273e0199a22c01da747e01b80198003c18d30346bea9013d9c9f0098bcb700ae2a9302c71b620221bfa0029162e600c93fbf031f9506,
  0x1e555f01b0157e02b914a602a58d8003cd861600a72792000689250298acfb0021751400bb28fc0015c999032b9deb0323f390033da48b02fb213b01b146aa01c76790024f0ca501cc9b280365d42500027c61015602ea03ea4bda00cbed210214f2470336ec450126807200690f5a038fa40e0367c091,
  0x104f34038182d803c33ba103af423e002d576a03dd376f00509c0e003102d702d26c1103c43a1c002d2d020042fe7f0374c38d03acfe890308196c03efd91803d897e700ec905b0006c00102ea599b001d1591031080580244107a0207eecd0076911901223179020e1fe203e9f68c03a10fd000de5756,
  0x22003b01e79ee801c8bf8b019006b400db7fd502e067ba025df70b0102bde602059a85024794ad00321aa000a31be800c9ecee004c8ace0136834b02c6e4c9000a107a0257bca303fd5fe7036f0f5a002726aa01d36cfd039e7627039b39cb00d8512500481a8801fb6e4603528f8a03c9fa2301ca189a,
  0x371043018b918300d8d63401d75bdb0034d6d800b92e6d039fb5c6014a2ba30265adce01e56f98000c09960055e9140138fe1701ec6bc201759f4402bf82d800ab08a702884f4a00ab4b4c0143ca0d001a962900449ec900f6b43f02f614af018e92f503ee52bb00b6e4be01429f5002f4690203291d23,
  0x28072e035971f20041104201bca8c100783f3300ebdd7d02b19394021fca0302c91c7b0338034e001b8a0201b2d31201062173021cc90600314f3c01499c5e006f3941019d181103aeafcc00f1a3fb0035e45002fc83c60092f05601d4ac7902a8a5e002e532b7025b4039004b4db001e3aae001761206,
  0x2ffb2b027c750f005a7b5702f1dfc70127e0ea00a167cc02b53b4401a8c1fe033163e70022b50c002640ae0123db030130003f01e84d050136e7ad0369317b0229074900d712a3033fcf8e032e0a5100120faf033fc9300273858503b942c3036792b70167fe55021e66a100821bdc006b37ce0151e6c0,
  0x286a02025a47cd013ae44302d0ed1903a9317c01f9972d03f353aa0244c71002d251640097466f00207fff0355c377037ae1d500891b7d0034f1d102b77ef802b9ad5e01a05b8802105d610125488a0004a0610225682001d9f02c014bfe2200c24e2d03348db7027fbbbb00aeb20c039b1bd60115cff6,
  0x15501601bced3a008632a40110565b003af3f7033fe34d014751fc014f7b06006f0bf300fc9355003190c701387858003f32b3012df91400e05cb80112159b03f5d282001817850316b38902cd2046001f672802efb6eb007a669600974fb20009a77603cef8da02e532070059c4950121c5300141a0b6,
  0x165a20024f285c03e89b46006a0f16038b5da602b053ac01c7400a021e811203188fdb01f51ddc00218efe00f696e1028401cc00947a7a020d03d202f5968b016e8b7200b72979031308d7002b6ad1000d8a9a00a8fd2e01c07ec202ab16c7030f81ee0244f4e60390b256023a56aa03e68d4b023fbb86,
  0x1a106602665ebc0019d71001716367002d388903b262d601a7ff5600b52a0303b718520032302b003ca2a000fc770e01f7709001c5d8ce01bc33b000998561018060ef004076b101c30af601f686bd000e69d50313f29103a080f002b74287027313c502d0befc02d299ad03e6572002472456002d8557,
  0x32192a019c0a1f00cfa5280054d06a02d8e15101aae23f010f3be401cbb940027a08d20291c5d0000250d903dee036012053ab009b7c9e00e9c478029ea5ca022e16cf02ecf7ca025fcf600317ab57003c39b50369148502f5c42801ca83ba02f3caad033a9d3d013e437401b12b6900780713010902b3,
  0x1f5a7c01328f2402b510c0032042c4026e2f0700a8999800c38b5902b2cc8802ff462101d6dcf90008419600528d200390a287026a8ff70297a00d012fb754023795a602de20e300aa0d09004829d9000d31130214dc25014b596b034a427301c128eb01ae23e101f492ad0240912603c2c6cc02e0780e,
  0x24a7fb000f0cfe007c8aee003db0ed006e3a2700ecc5ca00f541cc00ff17a603ef441700b20a6d00347bbf038bf4e803c0a5440186d7a2034d66fa035b31bf015e4cfb02bc0d0300c21acc032f74250030972e0085c61b03ca516d01263df901783e2a031746b1005ce5b50093f3bf03fed352004bd21e,
  0x18b74400e78b380361b2ec0039d55803b893e702889a64013b19840121015b01b9a73401e23bd10028840a03b61c8203c79475007322db03a58115033e0bfc02b90f7d03b6675903ca11b3003d486600158eb602d045ca029e0ad2012d805e022d5a9f00ca6d1003172748025c8d7f0196365500a89db4,
  0x28ccdf02eab410007b922e0261132001ea082301fcf83a00c3eca902267a4b03390bae03fe8a8c003d63bd028171ea01ea677903070645025f4c7202a0e91e015f649a00a7964d01e453f6020084d5002d62ee00d5b4dd03904d6300745c1302b691da022f008901ea794303b07195032b6cb000ba388c,
  0x39ebcb006c48a80110c60100df98e3014f041b03cba69a0087f38f037ca32200fdd3d103cd4f8c00153e7900243eed01990389027b6860003f9b66015468f503b5790b00bc37ec023a15af0034889c0005b03a02a118fb012daaad00e3f6c402038cd70062e77e022c9146026d74670367617e01927f22,
  0x3247ce03ea116602fdb16402d47aeb01bed98602a1d4f9020b765b0217c512036ce17c02f53a150036c5ba00dd417002d1459200e5cb0202b39e28006b42a800b555fd020186c902f82c0c00616c9900037387024ea386024672dd018b7244030737d000bafa0e0219a1850027820603ca436f0187a93f,
  0x1dba3a011aed920179f518033a63e702059033025ad45300c2fc3d012ad73c0018736902b83a450009211d02dea24b0301125f03eb4221024548b30100ca5d017d5c2003062d1402f5078802789356002f07140071fb4900b5880f038b6b18015442fa0189bf0301c0880503418edc003e2ec2008d1e7e,
  0x21bea7001f471f016a215900405175026511c3009f0e8703455f20036e587b004c4ff8029504320018af7b0303ab9d0399d3850104120f00af74f301970e220300223301bdbed00140a85500d7302200088a4d011ec882034110a301a9495f0232c9ba0284866f034f34460121a7b0012700000175ab66,
  0x3655a401a9fd2402f26a3d00f8a43c039389550132fd5900b83ac20324cc43012e5a6b00ab561f0030228f02e4a7ec01cb3d27022d47980124c8ea023ffd970316278200235ed3010d6c40035ff5330015d9b60377d6510339f64f01e48159002229a60293e56b0390257a0262b554030e4087015c1d36,
  0x11d7b50373680002fee2b703d0d97b023d73cb00b1d05e01fc642002fe2d1a02365bad00e8a193002404f601c62c7702230c7602973c00003caabc009ab3a102ac0f1002cead0e00c3a3a90362a9ed00047fb20069997703d3f27b029e12fd03ae7b7002c3857e008b2dde03d9668a019d377403cb880e,
  0x36838f01d87e38008885bb03da0ab4033fa4a4000e702203babb7603cb6ed801d3dcf9028a50820000a09500c32cf201cd6c1901765d0a02f4108401f1bae70086f58902aaeaff00c8f661028e125c0025eac902f3c5f50069f09401e0f463007357cc038c01c000b7d77c01d23bb70272a8120138b2b9,
  0x3b43050011f0ea02ad4322020820210182dcdf00c8fa7000b5bc40023268630190eac002f7fefd0031254b011b2a2803e6b6dc01f6328102b3b338030d8179017ea845037429f000207dc0028b34bb001ad39400ba8de603535fd6022560a103280131022d967003d3ab1b022c679202eba0c6015820c8,
  0xfe7ba0171abde02d4f78a0125235400002d1900062bba00914ba7039f569f032343eb01a793fb002ebdbf03d1dd9c02cfc4f5009bc0d4037a444c02920fc100613f4800b4597a022db03102e625110004e1aa008e6c11025353260097910601eedac602aa004e002c8d03031cde0201132250019385f9,
  0x31a0ef02e9980e011aecee016f600401769ff4024cf111023f26d90234ac9100f9cf5b03419cf3003e43080357d66e03fd4c7d00cf830902c0e1ec02e0bf0f010abe1603fc786e00937dbb03e7100f0019d33f0170ebce021aa07102c4ae1d011d67ee0045f03c03002dc3028ccce903ba4c880226a9a9,
  0x2d81df000dcbc100b5fd8d01dbbe0200dd3af801f82b3d0208395403f5fec20120fb9701fac9d90029fc7d029b462600f0d4610356b1ea01cc053501044f90019e941803fadef0025a1f57009f2fcc00120d0d0196697101d7d97901e173da01fc92f6033d15cb035cc07602561f75003f891801545d85,
  0x282a1d00edecbe02dc5f0a03dd406e03eacb440155bd020233583e00de757402ce202301be1b260006cfbf002f3d3201a9639a014ec7ee003965e50315231e0371ad5603be9cbc032435320389ea5200263b9e02f1c3a502c3846a00b184c70195e0ee017841360347b96c0167fdc50126b57903d4197f,
  0x32b63d0181600e03f3127403940e3d018d874d02e0f66a012e963e02a97c0800b3db1a0055877e002b1d0402d47e850211fd1503e625fe02c5a4b100cb634d00b8220c03e2dbe101c6c2ba0099c0280014dbce00d1a5be01d392660146868e00a5ec8902f3e79d00695e8701b218cb0322b44f0239a0a8,
  0x35053e005109c0016f482a0105230b01a3f70c00cd8d6e00158f7f0274891c00a5da1a02efaa210013f3e201719f4000930b1e02722af0014af3090132a17602a755a3015b1b1b0206a8f00226f98b00291cd003a1f992034338d6030277b8033abf3900164dfd0337c97f02f4298501f76c0a0122315e,
  0x25d7ae0069f3350345aa8d022966bf0304e42d00e06de501f012cf006e926d00f62947015ee94d000ab18f01f29dbf03058c90038c53ec002d9acc028bf0ec0224021d01c330c602755a79020917b30005a8cb01ccac9403423c340284a687007b959703c102000199a04500018a52016e9aae00a87a9f,
  0x1b645102b918a700e2d6cf0395f61d030f9eaf02213fd10376cda60216153202fd059c008d7ff10002e96502bde9100301429602fe7bf401e740dd038e63e803c520b5033679e203a90864039a02e30012b7ff024d0863033bac060217987b00c8006a027049e700f7b99802e1799e03be486302e2799c,
  0x1b34b000ce9d7b00957f5202988659002fcb5a0282a5f3018ee66203561772000de61100f535450007bac4001906eb01a349f802637f5f03a29f7c00586d5b00aa5a39018c374a009e7f56001aa3320032221c0211554f02c5626c0186d52a031fec2502b83b3d0210e77c03c5911a012f754b0130eeab,
  0x161a0902083fed01a06a53013d3caa01f1da3502b7ffba01f3557001a816bf02dca26402b4239100099e5200cbb9d0021b6c000042a6c901721d8a012a884b038d6e6002edcc99027fee0500c8f8e2003ee56203b825cf003f01fb01721b0e00b846580324eaf801b107810284cf4602e0a3f303fa3dd3,
  0xe21cc02976af902f8c40401bffb3f016e955602b99b7d031c5c8a02cf3c3d00175531031fc7d3001fb36e029c6b0601a85b03036f8f6a00b435c100a76e0f02812e98004003d500f574780135b3e0002da37b02abc1ec0133119802df851e01e191fe012ea8c2001e7723017e8f690376757e01806257,
  0x6d16602ff110902d3c66b00c58eb102224fd600cfef8a01b3285503c8eb600137c9200343964c00180f7203712a6a00f96abe02150d590307a3620384f04b0247e14202a3c7df03cfb3770078c292002abb8d024bc3fe0289c581006dff7803637114027d685a024a5efd0115f169008071f302f0aeb3,
  0x7558a02a3f9620279c599033f5ff4020dddaa01f0caea00bc64c5020d464501da782d009c31d50030e2a5006bff4a01beed050271acda013b7f9602f0f77c01704f8a02adf1fb01223a9c0190fed50014a3330013964b007f5d0402011b4301f6b7d1003b1ff802c1193d0135b1fa0219a40602efc820,
  0x1c3ce5014f71ca00a09c0801ab4df502d24e02022a220703f25b4d02bad312038d1a1103524e7e0024df67030f5a39001603a100e7187d00e0027803951771038d7cf100aa246500720dd501a8e100003756f502eb96ba029f4a510163d0460030660f039f52fd032c8ef20277605103b3760401b45756,
  0x150899020bf3c601070b1f03768124000681a201e8453d000b89a500eaff2d02e7a6860185cbba0035f55f0275fce200d371ef00cb42ff039e5e6a023cdb8b00ad82b8015d835800f77397037bb19a000913e0014994b9009c936c01dd84b803c906130247083e035495e203a41667005d01a2011385e0,
  0x75f701d8f8140105f93903cb8e5202b46ce9023c9342035daef601708e8b0276765502a221f90032262e009be5b902590e760363d4bc00224c210248c26403a2f0ce034e42ef00d9c95403c1e854001280cb032a0c3603fa91340381f43b0179262303a2d66b03cb566103a51bb800f2373402f400f8,
  0x12aa6a00b29e0a01920d510214acbc010ac6e30069703b02085b4c03541e2d0121dba400c0cd29002275e8036c127f02408439039447a2023f938a02bb371d00fe2e2d02aa2fc402e8728001c9218000097c8201386cbb01fd750700b29f020371dc9d03f3d33c0153534f00b90b1d0374c30501275cfa,
  0xf7ac011e44a702a3bb980255564101015c70000ab14a03fe293d03fa6474020cae48020fbc08001a6f6b03fd83ac011f8c36039f165700126cef00b5d607003d9f5203ea8cb303cdcb6f03f0f42b00318bf503aae42e007071ab0156cab703a9fee8014fa3d402d4bae801ebec69032f260d01123158,
  0x1b0729027f3d8e0024f88a01c3edf501e7c8bc0126b82c03e7c9820055616200be60cc036a5993002ea67702c4cf1f0236a7bc010ba0f703c61376028590f3031e38aa03c6f0160141cb78004dfe90002baff20254ada703733eea01f48451022c64ef00f6132d02e7aa490270d8c302f16b8701fc0cc3,
  0x3bb88502c2b0cd0284f3b5027ee6b803053efd006cd7f80002563300a64415006d5592003d1e590000dc2400d37a3502e96bee00faca2e015568b6031399af0053d7e2019201610287cd020022402f00059376031ebfc601fd1fbb00c262ec024ab927028ef7d4013c375e0120741f01a7778f02a21ed0,
  0x122b77001d321f01ca565e038ce8fe0323842503ff1d360003bd8a0304880603faf5dd01be2e9c001012c80305786001a41ace00b15ac702be834c01294ea103ad78dd01ca81f80379360f019afe0100144fd6010e9233004758eb01b628a800f17c8002761a930136e8fd019ef0e60124d458017c742c,
  0x25b313034620bc0067da610079976503ef8258025e5f4f0020f9cf01def9c0028743ed01182ed0000a62ff01a015880174e9640048393601674765037efc6a02481fd4011b86a202170534032683a40020162103ad2b6e0187f085025dc10a0110abf8016bfdee03f55fd700f814790278bb71001fba2d,
  0x10a25703c1df7a006ecaa70052da2901200fbf031fd2ab008d12920377ccd5011dc2ff021008c900164645020c72bf03878fe2027d35e60255569c0022259b002f1e900168bc42016818950333113c0011f88802ff34d90075ab22038cccaf03c341b301b9be6300055475028f8fa200e66916030c2797,
  0x3d5fdc037700fe00eaa464014444a20024073d0265d5f403e095a3005bdcd203d69aee0150987b002d68d901894bcb0054b10100fbcf840246d80d022d867700df600900b76b4f01587f1d023501d5000ed62e02be76f40081b8cb003b1ee703f5c0420125ad1300db9b8d02bd7aab00c661c400fdd3c0,
  0x1aa43603c6d75102b26b2d012a73be02043564038321c8029d5bf502d3608f00cd25f60319b81f001abd3003748a9b013281a5009feb94039e4a1e00a9a60f02f10a9c031b44e4000aab5900c70f3100132e8d0221b02d00baf3ab008960e90192441c03bce0c303f49e5601025b760219f0b8003f9e82,
  0xee2a03c8c6e4011dbf380006cd28036776420275fda50085efe30131a1bc039ad86003d9990300181d2b031a4fe3003504f603a0f88a01a9f70802f8bedc013f54d703c7d8b6034d4ba901e24b0e003ef8ad02a5ad6a00db859f000d65f5001c246100fc972d02de0971012e0cf602b7898a00d2b47b,
  0x3542f6018d8e150122bb8c01632b2302930c9100e0cab002ffa6ff00d41417003c26f301db5b8a001bc3a40278fc8003176bbe039dd598027f39bf02af9d56008ea0de019884ee008e0d35004f1447003352dd02ab388701a24b5e0255cabe03951b1800baaf2901463305029deaa901a75625003b02d8,
  0x288b310120e4bd00a86739013bee4c0225ee2d0087ea8b021fb1220039766e003a710c03062da7002de0b70042cb500090b92800082f37014c5a8b004bdb810343f811039538b102cdef14020959350030514503fb481b009537a4032c69b401909c660261e07b03eabe4b01bd02d90048f6b8026e41ff,
  0x2d4e3900515e260049a0930164b926020bd696003f2a2b025fd55300087f1d009c222002a8993e000bacb9038deb19025056460215640d0117e200035945160322be3e02cb142503bda0480331673a0028ea3d02e84a21013f82ed02356c3a0339ff0a0060736b0083273f0287afd603723f96006bc6b4,
  0xa66f202f83b4c02d9ecb003acd13800a85b2002362734036ccf3d023198a60120ffa5003d17fc00229aef03d8190301a73db103c7448402787cf2010e78cd0136bb3401ed790502286d61002f086f00089a230182f8cc02cf7cbf033e87ba01678761025de2c303fdf4a301c0c34c03489a55032a5b63,
  0xd690602bc17520053041600fcbd1d01b2f64003a6fc6f01e19a8c0089f10401e6d8e2031c0c5800128cc9027f5614005ef072004489b102a639e100467f750158934203ece46400bb8a6c02be9405002619c003256d1403c8711401e9b10401b462f5015819cd021b534e013aadbf028a460801d163be,
  0x3558960275463801c73b1a00d4f73a036f72f70289d35302390e5e02dea08000bd39ff000bd17a0002f1cd0329d4e303f661d001236aac011883c1021c13cb02b908360117698e024d1b5a00e5a0d3002fc21102351aa703b0bb3502147e4f01f4e154013b5c98015a0871010c67400148ebee03695c42,
  0x1d50ae00d9f3cb03e531e803ff1432015fe39103b9ee05016b0dc8038e8a75038faf39015c122e003d8cea008f3210007007300243b4e4020b4bd901303f0603ac273401dc6c8803dbe22700cc9436001ba592031654e701a68401003d62270196c85e0208d616002de4f703e4b5c602b9388b02ce107f,
  0x14f90f010ec4370002ddd00170d8e701680ebc00b8662100ae463102540dfb00164b49006dbd440026539000dab3ab0044564100edfd7603c0cb2903458a8c00c32b1b01f33a1001aa2ca000ca49b00011a4c40047961f01ea0cce01bfcddf02f3b69c013bc4d5031a1f56030c87ef0397bd1701b32f74,
  0xe5291025d91d4015952b3022978570013c17300684011036c597b012577de000543570218649800091358037dcf230355354e03fb5acf0324eed100e925a501387fe802270a24012f67ff0033d2dc001e3e3400620ce70160a1d0031b0c060081f77e023fe3470185607f0122e5c2005eccb1010cd874,
  0x35ee9102a0e6f103ee6dc103ed6a6a036453a803a2e80701ac6b930172c9f8009506610233802b0005a855021d378602a25e9e0210933403749aa30022145a0287737b03e08cf101f1e2ae014ea2b5001fa3ca00ec7c860045ee6c0061e823016527750269615002ccf73a01e8d35a01bae3f40071ad34,
  0x273bf10154d005021885820259256b00c609cb01a4855c031d2ff1019eb2d103378803031de5ee00133f3b03ca5e0a007d7c3201616d180190432601f61cda02fd2dd003cd343703c75a80001f64eb002e435f00562c9000c4085203004bb00163cd0c02c1dbaa0186f95b0290cc220183da00016e8f1c,
  0xb5b9e035470d202fd08e0017949d60153beef019383d50195484c031f5d0303c88b2f00deb9c400124fab005e4aba01129d6a014d2cf9026f1d5f03c68413005341250196908d030ab47300318bb00034f61d03923f940281fac5031602250288449c02abb7a802d7a819039ae59703d6118002cae321,
  0x1add76025a2c48008506400120ae73036328710395253001ae2d5f00b7250e01f241a9020cb7610013c2f900b2e8f60051c4600338acd2003d49e603e2e9bd02a758bf01e0292a010eec93032b4cb40031b226023de64000ad522701692b4f038c3357025504fb02557d8702f38fc20242a0d800939533,
  0x37182901028de503fc4fe901e616ef03153da903b19c480348570003f49ca9023e17ec03a506ab000adfe8006773a4008635ec01f34c62038f0dbd00ecb4450319ea4e006f7eb602eb545003c79432000e1b1e00f107d501873780028f258b004522f003455f650071325502c065aa01b5e86500a55c28,
  0x3a38060083497201aa879300c3360302b9218303153005002d6b3802608fc702110d5900459999003d5b83008c3ec003aefb1c03bbe0a0035944a4024adfc8024ecbf903887f55004b4dcf018a5a5e0004057501a4c328029fe0f303b4473c02e4cf470050a2750294d5460362b5cb0246e54101a9116e,
  0xc0f1802f2722f033a0259008c15a50222a848017c9ae901df7ad5015e123901fd56c9020877d300206334013a7ee400ccca3503bf177f0261c09a005528160210fa2b00dceb1a02d97d35019c83b30027d03f03b3e7ca000947f8018a28900078e65e023789ed0209f9c500e524b2028758e802e3776c,
  0x3167f8015a3c280280f3e6010a31fa0213fd3f03e4d78402bb3e570179d73a00edf5330295ec920017751803096cef00af9edb014d6933003ae18402c4a86b012b8a03031bcfa101f11d74031fb57b0034c70e02942565036b491b0255c2be019ea1d500cecc1a0199339703e46f4802f8897603f3788c,
  0x2107f02716b29011a42c301e029970276388b003a6e6501cc904e00ef7288004df4bb0302590c000289b203ef2b5d03a75f060345936b03a6355a03f013c2033aae370227eccb01d701e000b7a0ba001d740f030fb53d0256d59402cf17c302c4b4320270fd72026c709d012c142e015f935202bf3f75,
  0xb18bf03d893280319326c01b4c1b1038e2c48004d0d5801366a3103c56979029e8153021ff514002860d00138a5de01348adc00a611fc0311eebd024c1b4b01a87a6a0100639e01d4bbb103d961ce00138dd8012df70d01eb84d1025593e7020a78e002a69fcc00435c5c0339655300907989029bed6d,
  0x2594ec012104c4004769b602d5017101f2798102ff35490057f5c9024cf01803a7588b02dc4f53000466ec034b3f6d035e41ba032949cc02259fc6033053b802ccb18201c9087701b17962008209b800174d39002849a902a12c8001309735027d09bf009c6d9202a141ca0005d3b90119327401bd80b3,
  0xf114f004c4d30014845de027a875101eaa7470016d99d03223b2a03b260220044f5af02e40945002ebd0d021cd6580093f934039ba16a022e766f02ae211b02ccf66202951e6f009d0bab00a96baa003b66b1026d64f001593bc3009649aa01842fc10390db870133cc54015af2e901f86870038c90a0,
  0x8329b0013c10c0261443f02d54cfd0374453d010097a301b1d38200e2ef9c01d118f903c98472000d2ac402ae15ae017e03a2000994ec020bbdf8011e9f9701cfc134039ed652003e21e3006d0e170018d5e203da195001335f3403d1fed3037bcd5800270cec02a24ee2009803b001c6b1140353120e,
  0x3469cd010852d503a94dff023b1fab001982600045613a030549eb01223d36000919b5036679020024f9b10309568401304b6f036b299400b6f62503c0661a024dcd1f00331ce40181f3380028966e0014c8470062d73302e7ae42005585530038fe7a028d4fac011a6e1e007e5b1401c6012a0292e0cb,
  0x1c4e1e01ebffcf0325f5c80256f87402aebf6201646f8a02c5bfba034b203f0189742f027e2d7e000b670a0183a9a2016a80e103eeffd20340255e00efa9c60091ebe701e7640a01f6f0d80008918900391aa300043e3303153952001548c6035c6a0b007575e8026f9ff702accc970067fda102de2e7d,
  0x3d3fbf03cf0c8c00ad8c2500caded40260fb5b03e6f54c036f1d50007971260383a65003771fab00370b090175396b01a7d9b5018e832002679dc90132c30900fa5662015887f602ba605c0142fc4000372522026924bf012082ba02d7aaea0075c4ae00fe24f6028830ec02a2ff03008cf85d01df1a78,
  0x29bddd024a13e203d53372000e0f5d03d80b0900ab979003b1092e0306ff800192fc0d007260fa002f4f1c0125a08a036047860107dbc300ac506903bc9d41005e569e01f626ee025271ea026379fa0028ecbf00d32fda01f50fe80314aa8100e7ae35032198de02b9a23c01df3ff3008339e203f3fbb7,
  0x2c489702fa0b5000f954a2021e6e02005a6208018f285c035e0487022b05e50244b76301ead10f0018d0e303d948f102972d0c022167f100c2b6ef0008ff30013d297803f2aadb0222e4c10391993c0022c6ea01bb694f01288b52012f0d760347081601c943d602f3dc710069a22002117a4d03f651f9,
  0x2cf1a2015b38e10257cbbb0047317f03e5d45d00df5a1d01fd94ea02754b9f035daea203c97180003111cf02bf453a029500ec0199792c01dc660103eb1bf600141275039896870245e72c0213270000315e5d034e383b00454fc4031b17cb026179290227369f0281be1101ac4b5301d91f300241b537,
  0x90d6c0050fbd500f08aaf01b7373d026e655a014ff549022479480134639703999dda007ca9cb0007b27b03a68dc60245c27403c13d240361d07d0376752002ada550031e235500e7bf9302968e3b002db74c038125cc0090c5aa03b2934e00b46b2802f1812d025292220110c7b603c7b42300fe4338,
  0x2bab090060ae3a038280c2000f135c03fa864b002326e7018b061603671042025eac8f01734efb0003d58201cc17de027b54880186a50f007a5416013d516801fd3f2500b0f16200f628b9039b980b00119c0600d6d36803aee29d021d986a00966d58031c953c0273e8ca005cb2c80237a1bb0091e5e3,
  0xfa4d301c9f457006a572102b38ec5034a159302a8106f03b3b30f028b2d80017a1d2601fa7ef9000a48d603dcaa7a037e293e03f1c98803cc7a75001bc9100243eb0703ae78cb00ea55b0036c8c98001c432602e3a2d900fe9b540152f9830118244701199b0903ae968800df391301157b08032af98b,
  0x3e078302a9ae4902d9dc780124bfec0056fea00007e3320053f3ac010f551301ca656201f858f20014784201314b2c024233cf015de21301110d630143933c037ed84b0378a31c0312b6a5014c2c07003d12f703edc7c203ce50bd0196016c02d19b5c02760e610004b69d00878d8e03dffb160162c22f,
  0xe54fd00f3834e03dbb815028ab50b026fa4ac02ffc1e801763a7702a751ca0080407503293cee001ac7c700f084f70072edec023952c700a8ce0d02499782020f70ca00e9f32d0189c3df0176985a00024c7403436640010e3a6f00f8703603d6525900ba3e050002a895032f46e0013057af0121a66f,
  0x3746380287b7da0220783d0265b3fa017e0826038633060134581101066ac6023ac33d0050e0c4001dc08d02c4fdeb03cbd6cd03fe0eaf02c69d7002d3a866023cedae0031619102538bfe008f92290000cae8005633c302142a7e016f88b801dc1036032e73e301b51086013a90da0340372503ef85f9,
  0x2b68260396f71703bb1407011717b901203397009bad9d01c6e07103219f6900c6729f0233d424001f7267036ee1200375177500d38a0a01748e9501f84c8002201d56009abb520298ea3b0247d871003110da03f67e0403d71a4c03d84c350260f47600a0d98601279bc002ab03e400d47e540028c775,
  0x50cc100bbdab702e56de100e3783201db11a403352b9c01b4a5240352da8f00b97e0402e5f63b000428a9015c011a02e507fa00a26b0803912ea703d58a18033983550189ea1a02e8859501af62980029b3f703a0acbc03c3def4000bf93f0118f7c10378edf1022f898d0207c04903374ebb00a77b5f,
  0x2944890291fa9401c496650015908701e31e1503aa66830247e7d70283543e00884bcd0133e0be0010075601c3b6a200bbaeb201c181eb025794fd0147300e014d3505024aa48400539bdb02f6e4d900387a5a0174e883029d19690306a322018f535c009478eb026bc513020d6653024f463b02d0b529,
  0x1ed41201d6d7160059867b038ade9401510ef40093005002cd28ed0308426203a2aff50108c3bd00391785013161ce00640a3b030d2595011f2c91016d6ce703216edf0298f7ca01e6e41c008289700021a51c03ff4beb000722cf0232c05b03110aa70116ac530160c50f01baa3f90270b9b00224c593,
  0x2f78ae00b92e6a034f5a5201b6a66001c7eb94003257ca037c41ec010e18c901e1b3d000d3e8f60036b8e7028ea46b004b50170246427f019ac1c00341c0a4028b56190378499801187ab302c5b47200233d90007f298603bc84d701f3b8be0338e7e600885013009c357d022b9f3f003a310702584f3f,
  0x22a156024e308902f9f3470029377b03b5d3e4034c390702b0559003221c24039c1bda026a45e3003477b90096c15e01798336018d34fa03808ca0031eec340304a78f011d2a3403b051e101a3cabc002d0b6900c53b8b03e63f6001bb87d503f3633803a2529800ad413501c7a3ce02383298023dbc0d,
  0x2a767700ae465a037f267202cfea0300493745035c269f0258225e00a137c002c72e6d009629010034d202001eefb4005f8efe01c1a07903fe3b6b0337b3840117321103f47ccf03dfbe930338a2e700322bd8001c53ac0208bdc90197ee6e03744db7014ea00d036e7644011832e90153fb7c03fe9849,
  0x1c6f5f030f8d9e027e6f4b01d6b28502a2bad903ee895903f8349601b26adb02bc7e3e013695b90011fac001f4069a027cb74303bb7f5c02d253dd021899f800d9516100f355c502d0f8170287659300085fff03f04c0a005a221f0125ca8002302d5503c12c4e0286e6fc0071129401c3b29b01a091e1,
  0x3b6ea300b669b1012507e002a482f9015e02f500599b2103006197019e8b0402fbf20d00439114003dc5ff03df1d3d00b70f5b032efc60008782c501d1807200b3382a006efb7d03824fe702293abb0035322501dce429004ec33f03d7ad9c027bedcc02b2fa2902aa5cca013eeab601ca5372018e76aa,
  0x310fac005ad5c403441b1e03f86c06001ba91c006e7c620020c806015efc7000f465d401a07fb000186f8501db1a4502d5a27e00e127af01195ce502f503c103ea8930028f38550036ef6b01212071001a937002f9211002cd226001aa20b9030c285403f2caa002c6ab26001298c001e2a8dc02ca3a91,
  0x7ea6300d6efe901fc338103a0501003a75ac40080e0ff0214fab7009ff9f300b6691a00a99755000c0bc800c20148010549d303d7d906011dccd200b6cb1b002a60a402ab32ef0183e1620380a146003df68b03f8a4770009924202fde49202d0354b00c03ed803501dbf029f0f1e01a430fb010d2264,
  0x3085a0175437500074acf003ef55f01a10f7e020646e3007bf729026b4472029b3e4b001e1ed900209e2e03437a99037511860028e9cb02dc95a6003e9c6500c65b7900f16da900626bbe0360ff7a001e3ed503b22b920146bea901c42d7b023b5015023f6ca5012a749a03fd26de01692b55037683b7,
  0x18c07100452eb2012053e40067d4b5021964ea00f48d120128271d00e23a3f0352a0ea03668824003e137801e335c80286e219038d516402dde8d700069a0201b3353a02eae6ed0282fdf003c687cb001d1fee0329669002b0a2200140d1740095695b01111534022de2800303691701994841037cad64,
  0x1ef9e7015fc9d902a8337e027aeec90061ea6e030e4ee20089c08d0352d4fd02ee178e03c3eac8003d659f015b7b3601bcd36702903cd70175baf60026fa4d02e0f31e02dffca5035eabbf00a0267000127fc4031bc1ca03963d0002bd1e9700b8d2d8029e04940262c5ff02fac8f80243adc20117b2fb,
  0x3eca0d03edc66000734aeb03766e5d00567eea03ff7f5a01fe62150057547800347725022396f100296c6b03ef180a03f0608d019a8cf30006dbf3035576810201bd2f0286af3b013afc2600a4377f0022636c00fbe257036f7541014a55e701e97a7b0022a2f20064ae430297796603e418bd01d5bc49,
  0x207e2e0091269001ca77ae004bcb6802c7d46701ac9740023def1e02b3c4d200cc9b190038fb470028d6e90175631e00b164d101a39b3603e1b81f02dabe68036c99eb02a84a6100cd10e10022ba07000752c10295ba6f03e142a2032872b0019fe7e302292e6e03d154a50193d4b603261cbe000e3ee5,
  0xb45b401a79b300296b803019518b202a08e86034ca16001f141980266c2b700c305240332f2e1001e0ee6011eeac602a47b4203639cc3006a4ce502f85b0602590ed5000f4b3c0257fa0503b0efb900252dd703463cab01624c4b01e8bb190051535302bd319e02e780e60207dfe70292524500234b5b,
  0x93d4d0152fcca03beb79f02fccafb03987953020c47f1021b5db300dde90e03c816c103ce65410013d4040143aa2100e1825502422992007873760165cdfa02bf817a0260c5e501d7b7230094710d0025a260012203eb015cd9d0008d3291001dc117034a235f019141ce01cf122e02ab94f303de7041,
  0x3aad3600059f81018d535c0399a539026a6257002fbccf00f7ecfe01b0ec5801e97572026c187d003c0f230079f6600395afb900ff85330242ebf4037447b802d2608f02349df80326f03a02e854400012511e02d2b22700c1eac90263dbf101a135b5012e16e9004b16fb01e9a3d3002e3574024cd50e,
  0xbe33f03c02166020926b8008baa530248277101b376b7024c1a8b03d085950201cfe101055736000c683101553d0d008ad63c02ebcace01c8922c016a52ed03ba1fc90361fe020397d13602d12868002113b603f828da0126f7dc0222ce4102dc6cdd0344f80801ac849200220f14029cccb8009ed4bd,
  0x3bda1d02112fd7003dc476006cab26005feed402ef1b9b032c8a36019b98a2019367f2017f366700108bb803a129700141804c007855920354b3c80329c32302fd00ba004b9395017f840101f69349000aa9cb00a73229004a30100182d26703eb1f8203c70a710383afed03a4b1db025da240023336ee,
  0x3830140264afef03eab34b03b972e0005bc976022d66730003c2aa02f4e08802e98a1b006c3a850032c21e03430e4800fa1f1202f9bf5302b27cc600d726c900ece678032755580128a8e403ce76110001baf6032a6888023f127f002e1fc101d837eb024074b1026831c4038378dd0290898b00722576,
  0xe73c103edb7cb0071cd1b0075c5c8004899ee02aa725503df32d503e669a003739683002694120016c57600b6973301ad75a0027b07360308c73800ba854102be4d2102029c82037828ac02efd7b3003377500178002402a3f82c01c10e3b032922f40009de2201352f580219e3eb01285bbb023fbccc,
  0x5ff0c011ea3610152249601b90302026a03d6030c45e20121504b015478f1018ab337012c2acd00047d37011162d501e0c9f30135f8b302b884e30177392900f6cfb203b236e901fa6b44039b7e71003cbf2301e5748900ef591f03a82a3d02e346b2036c8ed501bd7f31006d5dc30228199100eadff4,
  0x239a07019af9bc00fe7139003dc9d3015408fd00cc51cf0124ba7801199f11006d06400278d009003084c0030d7b2300fb2664009015fb000af5ed03d251320260d0cb002e810f00fae4fb00d6385f001b917400a4608102edf12f036b7e55034c6c4201b492d103260b3d000691d002079f47001c3b20,
  0x2db45c02f5b5b20078df42025ce63a01035f8a029198370012801203abd61b00addc4203c06fe90001444e02c38b790360720201ab93c0000171fe035370f8020a524b03aa856d00e164a7030321050020c871005770fd00507e35021b107a0229db8f0269129103e4dc5d0338695601db53b10277ed20,
  0x3efacd027d10b201cd14db02cdab4a00dd69d701c825ef02ce60c90348e833018cea700042121f003561c600e1d7fb023a756102fe0f0303bc13920023f11d00e0df5c002d1989005e4dbb0040343f000d6fa2025e6c3e0252d2610298cae802743ccc00810bd802db731d002580d20203bf01023b82a2,
  0x1aeb1502a76e0f0189ce0100738ee3018e749400cdf3340341856d02140b800098b7a20131c2c5003e546602be12e400398a2700baea4b02b49417002c878e0110fd0200b4dc6301cd2c820033e4170013496b01cf867902701b8a03042a82020b7f4c02a7feae0149b52603e47eea02c16c9c015202c1,
  0x3e4b370216caf7015c0ad9000adb57002f70e5016dd43f00598a5e02e3cde8001bf8c5005106aa00052d6402f959bc0048aa8903df624803f206c002396a7c035630ff01690f5f0167c5e5025878f700144a64038a78b903a43cd202c1fa72036d836602ed801200d9606202f6a3bc021bd12200aa5662,
  0x115a4e008a165200525d720354281301c804ee02f15d05028208e50369d05b03b5afd700e27f41001600f20205d99d01f7369a00021f210150485401cfd18d02e299ec004eff770214b3cd01c904b70011a46203eaca2003bba874028acd410258b61a02d1c22c0026beee01af5d2c015731e903f0a0be,
  0x3d9cf001e5288015ffecf02c28ae703ba00a70259ed6800bc11b2006671a902ffb384024b174600062258018ea26701572f8e0388c0c8030b5b5401fb6bff031404950255078d03b42912010443e90024410703fa61c3004342a600dd0651000bb15400f06f6300a58e8b03ff91c702726eb502922ed9,
  0x90f20324a2d90362bd6c03dcbee7018809c800f5f39203c1182d014835c200f002e900f33d72001a2d000178959d034fae1a02a45a0900515cf4015a0da50030dd88013fbf7e03d1dade034749ca0004f30201f124ff03c6b87802c347b70219bc4701e134c102d64bee01bca3c7019121fb029f5fa1,
  0x2da56901c9938c0374372d030764f002616254013d209d005c1c390191c87303642ee5007b17430002dfdf03f3dfea00b932f200745c2103a4d22103b2019503e66586017267e801fe781a02be551c003d57b300951b7301b3b2b000776f820285e1210228264d03954887030821100396575e035da809,
  0x26955c0188a4c10165c4d300d7182203da388d026b4cf701be1ece03c87b22008db632015532e2000910ff02a695cb02a9d4d1027a5c0601a429d400d6ec12039f34ba01e24f8f0010decb01d7467600242ce003ac1d2702ca07fe0186641d006ff6120219fc1d0324328e0203ad44008bd738020c792f,
  0x3140370291b9f602bd420200890ad703299afc00b1c597008a72c60372e69102b5e19c00ebc8d40005b421027ccc4002e0611c039baef3036eb5a700675467017eb8ca00801a9503c81cc4026e6ac4002449f3031ec68703c423f803695fb80139d54b0178ebee020b67630148b25700c5060002f365b2,
  0x39c5803fe5b91005f1cf9006f79f9004ed31403c979a80192f6ea02809e3901f8c38d013f699a0034f68801fb3da502a52a6d01c5e88d035962a80377044502fc7db5028a85d803df9fda003f82b9003cce3e01511c05038b318c02c2129d039a338902483a8701da5501000f6b8a034378e703449a53,
  0x248736018f4dde005dc8a50080bf07025c2fe800566a3401fecd7b0004c22d01afe36b024457260005937c02fb4590039e31f3011ed0c3034c8c000273f40d02f46f94038143a403befac103ef4e4300187c40012c2523000ea0e4013d44d3028713c60136aa4000e9d8e702fd7240003d3a1802619c73,
  0x195c7a002f2eaf0054c04700606aee03ec2ce5018be42e009275c5012b824c01ab044a00019efe00184db700384145008edcb70259856102e15dda00f17cfb013c5ec50228581600796f6401bae456003b5d84008f82e30360227202728a0b01005a3b000da44d0174cf8901660b630324c8e9017bfabe,
  0x162b36022f630602007ef000cff07103f7fbeb03fd605f027d79ed03572ae903bd6c9e00e63e6b0005d203009957be03cf82b4024d557602f0586801d4ff4803589870012ae27a00f549eb025fa6310029b4c5027f5ace0346f0b3011bd96a0240c3840258c1d00238cc18003f9e4b02f587360394fc33,
  0x2d910a00ec954403e2610700eb7ee002a20859014efc46037dbd84028fea3800e4e89602275a610023850303fe8b9a01e3f0bc01bcc58b02ee215702709d840073155a001cf36601c1f266037269f7000dcf9101966d3a03738dc4036491b2019e0b56025e74b102a8ca520043bc0d0206a634007bbb57,
  0x2ef92c028faec50097764103bbef3401cba5ec0166b2ad02bd154d02dbfc9903beb8d200db2be00034bbf90158237d03e5370b001715e302dbbecc0132f48800282ed0024d21da036508a9004ddd37003db53f02b5ad5600c296a802fa97e302ce3ac302ad1bae0056509201a09b2503f96fe80320813f,
  0x162200f3defa02d765eb00eb3dbb01aa68f201e059100212b9a502a5b84a01e4e85d031a357c0018c83e0091c8ab039928320239ca10039fd2ed01a2f75002b9b77f033a51e7002f33330052f67f003bcc2302b397a5018f90e80230cbfa029eda4f0158975b03d2ffaf00d7ed8401334d2e00895963,
  0x3945d900a37f0f02ceba9301cb2fb003638b4901f9959c031a19d701c82be103c5819a03697623003f444d035d92bb02e8a81a005c849f03e8f77e03a1721a0215f223035ddadc03e8cda801ae9a60002a9357018ca85d02afa7830107526201310fa8032ea39c025695b203320a14002359d0001d1084,
  0x1de8a00083630a03a988e20385715c02940c57012dbbe200587588033322c4010150dd036cd7b00009457702afdeae019085c9025478e302aec9a2010a1b43039fcb510038dda002d72bb5029c9c0600088201031dec0901c77b8a01c5f0cb0102be9400e31f53034a04b203ee29860308d0f9026a46c1,
  0x103077005f4f590056a36900ef840f01124f1802b2cec20333c578034c017700fb655803a9bfc900352154039459fd0178d06f01e5fdf001525e26021b455c00cc91e103d366960364d5cb02a9e84c003d943b02a520c40203afdf02c857d50376a2f403d78f42039ae6c4009139a600217de501180381,
  0x2a7406009cf7aa00868fc4001784990113f35a02c9c5e200f225bb009b266d0097bd64013304f7001614ca0369b4a80180308f02d6a5d80188b3dc020cb1380197455b012ab1fa0301d9c30330a2b6001ae50a01d8cf1a027c6bf500d9445300b809ef01cc3619013ff20d00b2b5a8017ff01a0114380a,
  0x1dbf8b036a1d7d010d5403017594790038f56b036b959c02b8fbd9032de71c005afdeb0148c6f3001c6e7700610ace0301e641001a1d34013bed44038c41b203c60c0f02cf50ac00b19765000f4834002565d30355ffe200e91a3200dd89700340dc93009cedeb00e3b4cf00143629035c11ea038c350c,
  0x2b104801070652001499440182b76d01d9230503fd876f02ff16b400ffb70b01e203fd034889570038c76b036342da03eab13803b06cf103f36703037fdcbf011d912d00e28cb300b3a77a0371cf1a00087943031ce5c801f0ff8e016c776e03ce0bbd026372730133698e00185f3202b07cc30349cd34,
  0x1049fe01adeb1103e430470186822a02ef200a00351a9c022b0b5c0358e5ba002a05d301ef3e100019a01803e1e442008b857e02b149d2024584760170344003ee7ef902a33bd401a21e170128deb6001246d001baa48b02cfe51c027286bd022bb534021024f601b5115c00bc084f03423fcb037015d5,
  0x13604f03c40550016570fd024cbf6d03f254090012a63102abac6703efd1dd00265885026be1de001683fd0251fe3503bf025302c6319f003c1ead02aff459012db11702e7e22902815a6903015feb0033aadc035fea1103401d10019735c702d7be79036e7911003e863b03f19d81002337b000aa09f2,
  0x2b365002c792a502020a1f003841620119903b018499a201f2f34b023dca540089750800cc8c8b0020b8e702ab577403a0168503515560015078fe02d8e3670350281503f9eeef03da6f4501d90ae8003142bf00633fe60305a8cd02de546302323c8201e59f31018e6bb803f44b2400b7c72a0052f6f4,
  0x1c0816028cb63d02480643033a6d65021eb31a00dfc1da0084c96f0219ffe000cb261c01f9cc290036b97f026366ec024c65620398a8c7039bf33f010139690342b2620035ef9700498aa3026f4ee8003f195302cff34302798ebb00a3a5cb03553314039c8b670251892c0097fa2e0195746c01f92317,
  0x2a6a9c01b85939032f8e62023fc5fd018ecaee03685a350116b90b02ba40290196ebed02ff8a610033027b03945cf40085e774017d625300abdf8201df57850102ee2002f8c68900e7c179024220320007ecbb03b0dab900cf0acb00ddb941003b2e2d02708f61026a347103db5cbc0233bcf800ea6e3b,
  0x3100ca020900af015a1d8002acc97301354df503dd1c0600dd645c0284968c038ec0b8035e5b52000feae30252b8c10248082f016bc3bb014a1242028884a9004a3b8901cc411b005dfb0a02cb8c1a0036c0bd002cd84200a01cfd0325bee4038d432b01fa55ae03c0dbca01f5075703fb574102163866,
  0x1f74ab00f25592016d43870276975101b23420003a95e202015e6602e00cee025f2bd300c95a7f0020480702e66cda0234728c02d631da01ea1d3800fb33b202f4df1a014bd5bc01f17efb030ed7d70018294703b695bf0100275d022f6f330067349800d801ee028ad3e4037bb67102c34494024ff38d,
  0x178202a7c8be03ce19800066e94701e5c686022c4c11010dcc8600941d4d014783aa01b6fa6700051abc036696b102698e5a037786a800a7e6b100c73c2a022bb67c00e0218b039881e201d3dd0b000d3e7f03c0e343007a1d0e037ae96a002ceab302feb2a100a5add10093cecd03603792004a0e26,
  0x2078fb034cdb5803400a3301a9644a027d5f4c016ebeb701f40c4a01f7488800f9bf0403d4446b003e458f0372904702e198bf03de4779022d943d023196cb008e6254039136de0038943000b562fe000dae31031088280163d72c00f5c4ed0141330f03b1466f0332f089008139ea00fe37ff0123dfd5,
  0x12b3f101b666160229964600161ee803fef2a6006c13d60233e38f02762bfa00e871060214d2c4000508c0017dde5902d6afa501ec65fa03a1db8e02eba8fb02f6221101ee70eb005d2d6102c93ee1003e8b0101711fd7016de0cb02e1a79e00546c6400e0d823030819d50123305e03213dd500d088aa,
  0x288a5500dbfeac0287b6c1008a2ccc0169f7990125557403d9a98e0056f51d025c0083010b4e65002b808b01ca73e3014806a101166d7b033893630321ece802301bea014ee36301ca446f0371238500389cc402322fba00707eb0017f29be00cc54f500cb89cd00462e3102fe328700a5f7a800d71320,
  0x2917301022ecd0359bad202b73cb301507f95007d12dc0205b3ed00b881c5000f34f0013657a00032e7f203b174850098129e00bc91d600a1ec52033d95c602ae5d4103bf1a5d0051f97002eae1a3001bc2f003ba57ca001e907003214ea200840c5802b1517202998bd40010e8ff026f705d0175e432,
  0x1649030377e349029da5f400e7c01e0119986a01f3a0530099bdb800b373fe01f8d70e022d9e8100266595030dc3c600ccdbfa01922d180039473103a144e903338b01004f393e036a7128006ffe6700153dd202269b5101eb52df02c38619023a80eb00ad378000420aea0326338100f68b1301b6d369,
  0x221cce030ea3fa02c92d2f03a31fb700c2942403a0c9d703cc6bd2011a21ec0324d5320157eb990001225d00f47232031e9dd503b71e5e0115b0c302f22cf9006c9a2b021c96d403d2b8410154c61b002bafbd03d92ce7033a7086039f6e74009aae6903c0cdc401972215038e8a77010dd73e032ad47a,
  0x30f03b00acf2fa016808530124d947025832bb02abbef600285e1702ae5f3002c9c0aa00b0e41d0005e28a01b8d46a0270e4a3010a5fe600b4019500ef14460100359502e5a141033f068d0022b7b7001c070f0032d7b402d684ce01d35d1d0293e05b02654128012b79ef02f228ba009e71ec0203332e,
  0x9ddbc0075f56701872e2c01b98885033ebda202c8f3b1037a3cf6017d827a032df1b5019a1dbb002ba20a034ed0c102989cfe03aebfe600a7128303d0080900a2ea4903a36e9c03e8951502e8e77c000de654022cde5f018ba97d03643a3b0125e459021acc54001ab36c01afbaeb03769884024218d6,
  0x33756b006c00e7028dfaec0213b8f201a0355e0054a9f500b2c37e023e03300140820a025c3e1c0016f73f01b880ab02f449240365b87b035d18f502d08b4701d6ad88000f485a020a33db01cfb91d00390dda03e89d1a005d99c3007a26aa00f3bbb000c8b3d0012dfefd0244a95603779ce402d53871,
  0x234c3d0263ebee01b80cd600bffd98016ca649001dfb1d026f36ff026399a802a2ffcc01834e79002f36b702aefe6b014a6a160233fede0176b5cb032bc5f103f4681200ed74b200330ec80191717c0001a3840167a6c80342184702a2891503f0c8bf0261bf7e01bf0c64016a35150384ced903a1b226,
  0x335f6b03ea4e9d00975a7c026ee6c002a69bb6001820d503f5e994002f6f36001c5de4037c9b66002352b30227e7fd009bb5010131bf25035f5e1a03442bb301e1d58d00214bc802b2b8dd0380e1c90021c4d80152a7b20379a5e702a004ae03a1fda40257541903df803801f05afc00c8ae680073f2b9,
  0xcfa6500900bb8016fe8a702d4843c01d327180110c96402f1ea1f02a4311d00031fdf03d55d90000c7e390216142b00443cf400587939036012e3000596a8011cf29003031548024f319d02db6b15002fc1a703162d3602917495006f3a78007f6fea02b46a1102c1a959021b06a700789a5100fcafc5,
  0x39126f00a027b403197fef00ab986902a448e002b7c146026b63a1033f15eb03ceff9602637d2e002ee9f000469ace00f85d270333a00a0199fcc9030ca4bf0300f7fc00875cd80263857803a3cb8a002a334702e142d503da0d890241b5ac0263106102bf936e00f4b4e303d444400032005802c5ce51,
  0x73ccc034209b803a08ec201aa2334035111c50228c5e600b62238008ee8520144ff9701b8131e001d648901c997de00b0252202725db7010b0f3d022f0c56021daacd032a88ee036ded4001234e0500198aa301e6c4cf01a6c2c10373dc5600c34b6002e5262901a4dc4d00e84813029b129203fd6eef,
  0x3a6c5a021eb98502dc0f64011f32ab0305f0f502bea44402969a86014176bc01329b4f02bfc6820023653a00214b6f0135b70f0301c2320345b2d101e7ebfb021396ea01c7aa18002b11fa003249f700034ed3038c96eb02d5e90a019cbd8500b746fd01fe1bd80221c3df03c9737b03ff1ad9038d0adc,
  0x11449302c9e4c7030862d501536a34022e73f7010bc37a02b2887702dad08602802ba101d40e32000d95c20250ab930127b363009d872703c01f9d012de05901860ea80120e0b200309ec403e9b262001069b4013b3a44007db505019f361402b2fcf30019fd8d00e958510197493b0004c97702599e73,
  0x35008200ffbd0e0365363302c004ee0040fa620119fdee01265f43038126660215526902ca01fc002f1108017d256d0318be080240da24024cb1350185f64900c9da32001541ef019d846d03a2b34300372f71038ce01103ce6f3100b678910244ed3b0285015502caf026002f4f350138a1ca03ff3384,
  0x1d3de402a2c36603d79a880312ca28018db2c002f7116b0317cb88011669e2035814b800b3d29c0004bf9e03f84e9f00cb18fe03005eab0151313a01885dac03e5fb9003a9e71f018b8a80007c66a6002e980200e559bb02970f23031da039034ab8c003bafe2a0217913803b1f5060225a0850037409f,
  0x31e49000831c1e019900f1002399650010528a00a6999e003fc94301639093022edf5703beb730003b0256014aba3201f6f15b000435b00391cdbe00c676c3025ba4a200fec4960289e8b6039735bf001afd7d012ea699014a3a3b0232732f02f75bec00a4f0d503b1a647038c6352029331eb001563a4,
  0x15069a022d374002b8223803be510803925445038f468501b2a4f202309bf503c3c454015d73b30021260b006b869501b920650049631f01c4cb8b011abd0901f0e6ad0204608e03bb079d01bf8823003b9092012c1f92023fedd901db57d403e6e73400adfb8603ef5e830076464a037c28af01d3f259,
  0x2ff995022a5029007be75b0152c3ae03f548ea033a2a54009e7b28023560be03389dc6039c82350018cfc703ccffd40169e2150300547902837cc9030adfb4028385930336de4002dc7c540226f2d600301be40026feea0269275200bc98a00021e7070265688902369434025f77fc01aceb14036c2092,
  0x16ec14022d24b600303b6301da8a8b00d4b2cd021de4b1037abb060330e1b1039ef893009e06bc000b27fa03462e0e006180c60073274a00764e9901e576a000c0963201c5151a021d3785036ea78c0006b11b01b0aea600ff94eb01e166b5025d254401fcfb0103eada530000b18f0377b22e009ed8f9,
  0x3a40c4025a21ce017a586b01f9c01e03ef5d0200fcedcf03fd5b61026dd6340127d05b023cd00e003484b603987c3a0087f07c03df587b01891d4100bbd63000413db901c8096f025e19c2020c4aaa001c8ea402be3f3103b357cc03da7e0402c770910389c01c0239947902e0920b00784f4b02cdecf8,
  0x31280000509e5500b1cd4e01368e2301fba5fd009ef2910392259903f0f8300156890901ec2cee00354c0000e78e9f00988496035e9af303b231e800e0ebc400cafd8803fc8a110099676a00d058eb003531760242d754004fd03d016c890b00826834015f2c4b00a8176503d2526802c4f0d40321f8aa,
  0x3fdc9c0240ddfb03179e3d02497e68009f12df026f8fab00775af401d63f0003fe3dd501e3aa17000c55190223215400cbe2c600b6dc7602f93dd201a2ac2b005b4f3c029a9f3b02eade1201419b74000940d402c6ac5d02c1dfe501a53c2901f45561038467c0011d1f7a02eabc6602982bb1036e1192,
  0x1ea98a00395ccf02bd07ba00805d5f011cb6d101a57ea703f08435006f02290073442203c3fbd7002e6648011cde50034431ce01f8b4ce037b7fa600068988003abe0101dfbbcf0026b3a40250230e0037ba49000ebfcc010ab1cd00c1f3cd0157aee0036a8fb90077e83703c17d4503b1bac6026578db,
  0x2b603301fff5f502121283022aa51e00f9b9e9028aeff103001a84034b8e1401bdac8803975b3000326b6900e66bb102e1d7c40255afe900f1a6a20292355e01481fd70303386401b7d67200cbcce20037e72a00190cae005cc492010a50c30031f0fe00795e72028e5db0009fda5c031c55b500b98892,
  0xba0be00d44fb900250cb200704bf90020f4730057a89b039634bc01e27b540180148e00e3d81100045cff02f513db038060e802ad893500e6278203cfb0e2015c7fa90251f96601dfff4800fcb3d200062e8f022494d900bddaae0083360903aeb92e02207c13003080680090dbc003d4e786020867d2,
  0x326144016d75d5016023700130a9ec02780c57028f3fce002f1ec400f2035f03fba1a70396cac600075cee0288da7e0366cda8009a0096005310bb01f7c14703a53886019564dc01bb6beb0356b0440039003f001b4d840073425e02881a8001f8d6380014c81503d05f4b032f14e502e3b6880370595f,
  0x25afcc0023b50a021c68a901037c5301ec41af004170ae03b53b2201267d1b009f9dd1028c0a9f0022056a0135f58802db020e03cc857103a9d26902d1a07101d9eddb038e863b01f08edc0277bf3d0021959402ed25d80216ba4f035c752e014314b4032472190017bb4403a1decd0242bc530176fb3b,
  0x45c9903b6d83a03c9f1f30061611b00c8021c0116a1fa003614f6012b32db024adf8b03651fc50037bf5e030e4db1009708a50364442401edacdf0014428d0285fb0d01909e5d02b26dbe0340be2f002e8507010f617c02a393210237ffab00ead664024af22a0207962002cb51dd03724817024fe0ca,
  0x1510bc00a4489d01a7babf02167d4300d94da000057adc01375d72002f4fdc00d3e5f903a642f5001fb05001dcbeb80093fd4000b3f0550350b56f0224754a0386611b0001e9e3022edc1303c42c6400256df002694f030104d90700db23ab028ed6700283f7c60355c7ef01f810f302bc864b0262e929,
  0x2420ba02124cd80188f6d80275e0290203893003daedca00bd536301b0f9fb02b3e70e020d01e2002e7d67015ba2990069e9aa01fcaf76013140eb01939f3803e9c059037fc66c02c9fbe6038b0389003eddf8004489a302a0d34f03933087019d77cc03b4183f00088148017aa9ce03d984900221a152,
  0x3cb6b302662de40385273c025117a2038a517b000cbc5200755bab02ba33c7000c890502df153d000684da006c3151021c4e4e00f82ca1021eeeb60323ad1f0062010402ded10b025b02a400b5152b002c533702ac1124039b4e53024a313500463b2f03ce5a5202bbf40601a60d2c02d82a920136c3b2,
  0x4b1bb01ede5fc02d9237d02094bac02f1f2bc021c56d20065605e011387cd03d963550398cfec00114cf8011db9110304823302ebcf8d028bf530031cf0af03bb631d02aca311026a97d7020c970b003f9030019cc953014e21cf030b6315031c22dc009cb1a00292c850001501d00164d82601e0e8f1,
  0x35a1cf03db3b110300d291037bef63037f2301020fa572024e935b00cf659d0270929b029e6d5c001c4c08038cd731009e63b3010ab09b001c51c501f765940237daf000d2488200fde3d001f815d5000b6913015511610103768600c48bed01ee93dc01b8d30c00846eef02245b7a0196a94e021d6b31,
  0x35068a00f38be401f8231202799bd103f08fba01430623024ab9e901f8ae6b0326311e0060bd22001ce56002ec829102c8f8040231da27036799db023551e402951866039eed85022d53f903f4f23f003cf35e002173de00d29fc801466ab5002681f20177314d01d096a7005770e403e1fcf401a27911,
  0x34b49b0040284001a14ceb0169753901663c3e0208a9e101524ed603c18f5a0351a6ad038045d80012d99203f973e90310692400c6e1a300b9894003bc5965031b5a490125391f011eb586025facd5001564ef00bcedc4020b326203b710a80335098703deba6f031db2a7030bc5c10299c53902788454,
  0x319fab01a514780294330100cb57df035cd61802213b4a02802d3901ad34bc02038b0700cf78a800102f3d0357234702a4afd601a6251300ed6cd500a242ab003298f10368105001e5e2ed00d8a179000808f8004efbc7001142df028d550c03bf76cc0176a37600082b65008b2d6d023f65b001b69249,
  0x3ecdcd01b3179e02f8359a0092a02b033137ab00168dda038958f30280ea0c00a1a832033be8ab001bd419005eb5fc021f4b4100dd77150244f2a603d7da35003568d50280e62d03ffeebb00063aca0014e816002654b103fd6ed1011c728301f32bed00a64c1d00804d590389e58300a61e2c016097ad,
  0x2971e3004a4a4201f466b20202a85302012e8f002ccbb203362c5a00411bf502f1ae66003d1800003928130155c20b02a2897402c84b7701e4fe68009da6f5010d35d000f3556503c3b09a012272510002a30202a37621015df2f4022de22d0215ff5b00fc866d019860a300fec68d0372a3c002e3fee2,
  0x37a02203d4fa9b02a84c82006ca0810196b86b0213c321019139f602c76eb500fef68203c478a200221bc202b9488b0022f1f10320072c03aa801f03baee2d027209b403cb7d6001d899250347ba9400186e5002ecb119001d5a740341510003a324b1016007690315db3f01f662e003a32e980279d2df,
  0xc04b03a46e3300b4c5b7026943d200c79cb7023d7c6d03b70837029e9e87016ac2d403d2d53000362a8400d2a2b902898e90004c1f4b026830d101cc20070342e64401f6351b028d2f2903451cb600053bc00357819f00e5e3ad03ebcb4700498260038e61de0183038a01102ca80093654702a99883,
  0x1bfcf1039fc2ed00c8a98c01bec7ea037ca11103aa292b001639c6032ff3670028903402f1a1950037297b02aeeeb502b3a56400fe04dc02d491b500a075210183b96000e84e720078b7dd0350eb0f0003cfc5002c704e02334c2f03f594d10283574a00af24d0032e2c7c031e67450028f21100d0a8e0,
  0x3eb0420022d514037c4ab7027db56c0109a34200113b4c01f2dac000f4732500503a5e017e71bc0016774303869d160252b4f60091d8c6028ebec50250a20501f32d8b01726eba01c5b6e303bc83200011995b01296285026c4c2b01d0f482003ec11501f02119033826ac018b012b018c3cfb03766140,
  0x36e96f01336a8f028937e8000b3dc50053bbb800e2618f000ba4f2002e8d680040d28000a39086001a8c090355499302e39f7d0277a90f015f5c13011c85c8017b3bff00ccadb7037f3b370026ca17001ac75b02dd159c031e3cc100daa1cf0317a38201faf03500bd0657012beda9027f9c9e017300df,
  0x116bfd0233e78d02a4349601d9f90c0316bb740184bdb30217029300a0d3e5032aef3602038fac000ca21303496496035ac8710169cb1700fe5f1003c79dc3013b2b6e0358b691019c3d6603534e9b0012c903016729e9023747f700da435800a1e16002a6046c034a235503f00ceb029bc902008381fc,
  0x199de00caeb890273c21003f51ef20015844b0070ce41023253a802ddff7100f4ad7b0362485400380bbe00eb6a3d00a273b301c49280022b679f025e541902c215ca0279a9b903aa608d0331560d0027930d01c803af0241644603e605da00660bc6029b229d00b7828d02b1a53403295528001513cf,
  0x25bcf10148020a02742886016a949802f5b7b5020923ee0025226401fbfc4002506f5b0018130c0014ab53036bd13401e390fc03b4a47202dc0793023a627e02cf71830154fc3e0155154c01e33d26001151e703d274ff03f84c6d0166d6a40208ef0f009febf50181b952024a74bd0217316403e69453,
  0x31693e037ca07002112d41010d614000f7e80601c0e3560395f738003dade501b1403102081e7a00300a510238bb580393bd9a03c9f9ca010aabd803d85945006dbe2700c766ef028885eb01b6ef4c001aa23102753d1e0062ecab0383fb1c015b693903a30eb503f214d102b62004029d52e90192c4d5,
  0x3326fa00d23bf801ba68e501906173024ed43b01b3b98002413a6e024dc92d03d7626c01b7d75000060f8f001ef9140266cc8602a286ba003e346200440e400040cc48027c1202025ee07f02f60bc00000e4f803cdd90102be9db9039e54140071e3d401c9ad7902e814bd00c165f702ae2dab01bfaa47,
  0x21e9d50009ab85037e4fec036cdaf8014b5cb90303edfc02c8252c02c5d39203be318f03d629b3001fa8d70329266100aaa67e00e8107703ae2fac0355ed0e001dcd8300e86da8026fa1a8021f3f84001efdd100699ada017a77ee011dcab801fb676600e9c160025630000007de9a0244309e029ef2f4,
  0x34f2030d665003083609009c739c0294c6c703a5aeac01345fca01385d7000e8a88c01e3af890026a9ef03ec7a30030e80bd00d5cbb00038b01601970f9002984eff0102a7c103c2986c031ab0b700362b7702f9c4c702498b53015690d103815b36033c723a03594ea30357151801fd694d034318da,
  0x223e701ae0049019810a100ec5b5802b07e7d02e21f1e00766264035b8a0a023ba5ab01c49664001685aa023f360d02c1100800d042ce01d1a63d0088f179002efef30107dc5a01cdef7200f749cc00384b5303a07d3a00b24edc00d62ea701ce5b0000e3cc8203adb84f0150fcae006a4d3c0369de18,
  0x1fde4e03fdd83b038607b20398b5d1026be9b703eb47480151c2a502e5f476034582d30345c08700307da503b7c7d202313fdc01f5dc8a00cacd7d0398273c02dd0e610229a58b009439ce01a407170013f09b013da3d801776eb800d5cf6f03ef1895032ac64601199c2c0015b0c001def042002306d0,
  0x9d78d00e2a01d03f69ab70236ee2703fd5c3e024a65a0021fbd54029cc4400218c33502586ec4000d85260061ecfc00ea131902883dc902e15b0000a83d890277b28e0211bbf10172be4f0367dc8f0006ed3403282a44024879e50123304c0137b712024eaf74004d3a1200761fd3025bd88a00b5980e,
  0x1d777602c0788f037b2e66038270cf000bbb0b01c495f203dd5fcd03162bd602bc3478027a861d002b0645019918b80368e25e02344ed202ea2d5d0071ceb1017015c8020940bd016208ba02ece01c003998d303779dd800c6908d01bf0e4e02427fa301deb7c00347d40a01952b9400e9c4c70018d817,
  0x20ff3f01d1497302621bf303f3d65f02479e7502ad202201d590e7025efc1b02ca1de2033a3032003d726e0176fc180395e05d00722b17026a2311004a18b703820d9301e840c203702ecf006fe86c002b672403dc4de103beefbf0251890401c750620250aaca0158e1cc02ecfb2002f6a74801694dce,
  0x6f21e007ca79001f06cac02cc5e7b0361114403495a0d01b9f081002ecec801289c690277a947001cdd6a002bb3b402c01835032de8ba038f0bf501a059af00f02f49031edcbc017351a501a5e4f9000ffc65032f7f8700dc2ab40364b2b4036d53fb02c689fd02644a17033589c8016096b103341f1a,
  0x12abff01b4ae3a03b835260108e64600c1f0fd0024cb1101e71e5d03841ca20042fa9301c9319c0002d6b102eb120f02a0b2250360f084011febbe0376089f00cdcf3c0173a56d03d250f801bd20a2001b6e5e01bf4b9f02c9d1dc039bb6b001f88dd9006e62ac03dd42e100dd40e100157a2d01d07f8c,
  0x1e8910020e8795012f725e026669e700f8acdc0053e84a02d58a1302dd0f0602eb14b502fe12c00033fef6009a70bc005b616700fd536803c1a9c0009eb993038c40840370974b002c8d81009504ff000f2fbd02c7e6d7019954b701e5969303b5a4560235a1c9015b9b4300f6c57e01048c2c03aed039,
  0xfdcaf0373dbe70399db1500b098da0284b2cb01ed3990011dab0500b4ac5500de66fe01a205390031234b014eda550025be6c02d181b802ac230f0171aa890393d3b8018bddc003ab555300df3b9a0024371e01c28d1c03676f5401fb150202c40ab1029c7c820106fdcf032f493f0322ec7a018e1b0a,
  0x2de88d0077a81303a08f27011fe26203e3150801182703003c6cbf0392261501c5da1003e0a5da00200fc0007c287d0026d5d802668ef1036fc74600ae6b4b02045e4f00a3e23302bd07000328517b0016000a023238210058bbc10018475300f870a60067ea240221628d035508ea027dde57025eccd6,
  0x1c61a3039b1ed5014ad1f000b1a61b037e0d4d0337f87801176d8c00d462b70213271b02dc28480014f06a02abedda002f2b950066e36902389b580029711101cac74401d567f501a1f77d0373bb5a003194e70163a2b7006f8120020da16f03b99af50021a40f00d2d42b0349490101b4ab7700de5f39,
  0x16bd41036d06fb038790e002a7943100050431000f4835028c552800bb455902cf5d3d03ed683c001f104200b619390381e05900a090ca006a8db403b45ac3039f7ecb00f48b9803ed56d003771f7d0002832302836bb701995d65022a1335010a8c5601567e9d03a1169a000457b001caa25600e48d93,
  0x2347c000c6048b0088192802e26c84028d85a101591f4c00f046440277926c0350db040393a43000390f9d03d2f75503ad7fe9004296bd013e8d7b033e120e039d3be0019db7bb009e296e00a5a1ad002e4d8f032e05fe0289fe2c0044e23902072478009d57f3027e1b0b0211a6e100500fb303333088,
  0x3c4cca011c58bf0308f6780265467a03e1c81a02f3e0430128b5eb0367ef5f00498101032f7a9d002b284b009c1a4301426e730369361402c065a7004ddc2c02d7da9903b09f0d03c9375d02b05fd50000775900ee952c00ab5d40022a7557027ba12201eb3b9c00a3a4b903206cb10102098d00e57c6d,
  0x1dd308003c406c0161b291030db26401a38a5800122d8a0269055303284b3d00a1f280033fe92a0029b97a001e0ef802cc223a019c6d9503e55a3c01cd2de503cc09ae0046ab500159da760270abf300117b1f02fd5fb102ea2a2201c5be6d03b8634e033315ba0391b76601183e0b02bd4daa0177468f,
  0x1f536400778cae015366f5035bbefb005fafd6022ea9b0010d42850347b53a010dc18b00fe97fb0034a24302bf3cb602f47ec0035ddebd02f7dcd7032f463403b7e3300047dd840309ddea0058665d000443b2039c257403a69bb702c1738f03d52d4101d9fbe303474f7003a9587d038f295c0035d57c,
  0x37e1bd014f266202e7845403d3154c03b71941018b49c3013e81db038a6f8203c7dc0800fa52a8001ef9e40056096101c9d1920004f00403ce82ff00b3078e00a391ea01d33b9d015478d5008ee8a40038b80603e99fee03ec5e7d031694a1033c005203eb863b0231a6a20191520f00beccd800ff9443,
  0x1ef43a00c86343031324fb009ced410071c25a0046299e0353cc93003a4a7f03d465d803eba1710015e46a0081128e0062165902aea23e017e5e66028e4c5902d11ed603dcbd6201c8b0d601b190bd000eafef0221e150025a0219031bb22103b1cc360130331e03237abd02e21e5003a0d801036dd826,
  0x3dd4301acd07f029db0d603fbdb0400b9832b00b5b002022f1cc700fd92d303c3b9b200340d46000b89180355021700a796c3026d769d02fdbc6c02e6d7dc001e6a1f0269bda8036351e102104151001fbd7b02bc0b8203b986ae02271c960247f46602e620200363957c033f1a070348665e0118d3e5,
  0x801e60107ec230040bf4202033a6701bf3f8e010f645702b7162b03945bdf03c3545003b4b15f00251fdc01f617ed034a0e10005bde3a0209bcb301202407025cadd40004d2e202ce03950022efe900367c3200a9a1fe02b88fd200b861130285f7f70146425a03f44e4703d79e53000f248003faa377,
  0x6499100cd7107018120a501aaed6501c777bc021a422f02d240180091b26601cfd4bc0019de15001a9ef903cf24c9022d547000d93ca8009024b101340a2f000b0f6900f4d55800a89e5600ce555100181057018d209a004c01bc02dcefad0335e4a502f86a47002d52ac01000b11000ff53503820321,
  0x343403b0e96703b800470028a2f6034603780221e78a03351297020dc976025c3f0d00aace71001567a0034cc5ec00ac9bf00344a14502c83ff302ff9d2500ef656a020fb2ad028a4db1002e0e05001451d7015d3b1a0011cac0036b58e3032910fb003ab9f50124a37a03747f090322608202604879,
  0xe607d039e432e021f3f790160308003451d68032abb07032a1a1401a9c0aa014e3315019d388b00273767014d61690006f50101f4acad00c976b301a198c30106ae5e03c0b1ee01529f900115300a00282daa007dbf2a03f0cbe601b3402d02ccc95001ebee8e002c522f03725467038f42e6034b0622,
  0x367ae400d67a92019969f40053954102d04c7f013aa14200a86c5a02c1bf310052eb6600189c65002ddd970232d22e03904fa7029dd5e10064317301d49aae022e0eb0027009d600c3423d02f5145a003c785f038aa68a0158039d02920ded03780437012e31c80326b38a00a0711a023b7f5a03e09915,
  0xfd6400221311b0223eeca01ea311a0359251d01328673034d867c021b663601f7c02a00b222ee0035534d01870a5b02dc79ca03909b1f03bd67860049c82d020fd96a01054e3903cefe490198b4be000a94420341a1490024f251032f018101859d060347db130088e8bb00552234016a50e8030127ff,
  0x1903560210918f03ab86ea0377575f00202ca2039715e303695c2602bc86be027ae92f03fa2ac60024a8fb023f95b5038ed1d7030a3fe303db7e2e0242bc5203d0bff400a72a7502014ae000e10a2a00068afe0312d3280085e5a30345b0420397f3ca01e9cb4002352ee0008113d5005325e602e683fa,
  0x2e09df02afc3e1011cf108012aafaa0092e813019672cd014aa99601c3d22501867b0d0151a7df00185cb6017e707e016e71180081847d03cbe7ee024f761501c77dd5023ecc9a020d5fc7012d89fe002afa2e01ee0a7900fb16c800da243d00091f4d03bcb23c03b54f40006d67030252febf02dd2527,
  0x3673b3033667f503fbef1402fd6c5c03ff5ba3035d83370230723202b80f5501318e5b031fb5fd00092e0302d0c8780307e84b016205970199df4a01957285037c2f8c00bcf2d80357187c004c1e7d000ddf1b007e93d7000c44b8007aa07a01decb58029ece47002079df032b173801bb346903fc8122,
  0x2f46ab00652f280337f4f5038a072f02bc964303fceb030207f01603e2579b00f6ce3603e04abb002c362d021ae6ab014785da0394b37a026dca0800d5a654009aad1200e61edc0395aab700e5fa86001425ac0015908c00977762005fb915025827cf02a7ca77026e53d401ba630b009513db01609ace,
  0x3549cc01233e3d00fc07c9015524bc0080d01b00cbd496015f59d1023b539a00ecb06b012d1c94002cba3102ee6cef03c06ef403d3a6c2030b000303cf1cf2004d386c03a2867102241b41031cabde000c6df501885aa702d9cd9a004f912103f68eb8008ae7ac02d70b6e00594dc3023776b200bda2eb,
  0xebeed035a07af025209fa03e9cda901b6210b01339d7e00dbc7c5034c925202241df200220c560002908102d8212d01f56a2b0088947f0049c6270373779b00aed34b02d92808005111c20381becb0014668f0172658903df9aab037ece0c02512a6802929cc702b53813027da8f602f91b020035a114,
  0x1e6870020d54870069f86c0159ac8f0255e12e000fbd990352bb27011441f8036b781703967203002d02da02175c0a0293d10202257b22007869b0026bfd900008bb37015fbdd302c2325d02e991b0000d0429023b25fa00973891009e069e032de5f101d6328901021c670283a591032dc49903a20397,
  0x23e9b004bb44302f3f737002ff17b01de408501558de200057f98007030a4008fb8b902d3ae14003463fd02487f03014c151000473d750383b9760380002b03cb23f302b10d9800b5f67203cd32af002038010064ee46005f081600902e2e0126d50b02b821dd0287ae52027f420b00a97be900bd59a6,
  0x10de9a01901f0e003aff1501af5bdd0299229d00180db602f86f3101a653c6039f98c0013c80f1003be25a00c1be550213561f02959d1701a8451501762298027c9d0d02afe4a4013af55a03cbc0e6003c9ef3003e649300f1f6bf00336bf503cd5bce03fabd130286b50800f076600151102d01fec198,
  0x11915b0044ea22003b7ba6022fb1080109518e037d8f4001cba25a007ec0a900d46313026cb5830004ae51035f6f35016228e7023e65e401901fed0348091d0068cd0d02aa0244034eb0090232aa790019ae0402f5b06201470db403a84621006ff7de02a613c20168b2aa011cc4b8016388530321665e,
  0x1ecbce00492eaf012b165d0211dfa602dd9fc1002f7055006cab4a0024d57400f6ffee017fa842001d73e703cf58d3012c0ee70360434a03c0d53803717b2801a7c45e000840c701e9ec62022f42a5001615eb0082eeb803d41fd1036843b102860b6901393be402eb12b3028ec9cb00f4abb102224d43,
  0x232ede0161b385032961f401c22a9a00e752f8019c67c4025f39f7023f71820049bbcf031dfeac0017dab20133702d039a2c7f017af55501655cef03c8994f02d8089a019a81b801cc66d2038d73ac00295fe7009f096701fa4f4f02183ac100ca6968022e5e4c0112272101c4d14a002896a603fd74b5,
  0x276a801c05c4f004b22d900ca14b3013e6cb800ee234100e640110269b52b02bc8efd0123b478002c2b7e001228e6028759bc00de0d79002f12e703f575e20273c4e600dda5fa01b413ae02270d670000be4a003319830256562903d56fd600ab5aa9032ab91002486a7f01d78c0a032d68cd0155aec5,
  0x3c7d43010c53da0062424a014de6a002a60fbb03f89d070235e9dd01ca9baf02c5735f00f3495f00065d80036ce4a802da384703937e8003059aae02dcd98400192c9d00ad3c5f0200db5902236953002e07d001329c54008629060037f67100fa9c5202d1e62900e80e3301a10b24025fae32014a0eaa,
  0x19294c00add09002d01b9c020dc1600264a587031c73c40212c7de03ee29de006ffc72031ca85200040a8103cb7a77033340030029c95c01bfbeed03b767ef032df014021f4bd3003871af007ead56000031a703f25257010cc1ca000f17cd01fe6cee012c0d16003c1d0900b243fc016ce6b401e4db29,
  0x9945a00113f4c026826d603c1af25030ed72b02a940e602328c870086e018003e78a100e75c3e0013f4c0020e8119022be6ce00f006a2032fd774030007fa02c29600005cca91036fcc8e00104ee5000a680c01d9dfa0023ff77d036b8d550114299e017b617701e944a101ac81920220b1c20163b5fc,
  0x196b5100c8358a0152ad05028fb84000a8733f01cf296a015f709201c33d72001eda8301c4fe09000dfbd101ac394f014bdc640072bd230300270f00f992ec0208923d0293ab38036f405301d81e21003b02a600c4afdf00b2cbf102fd50f00129124e0098d4c802e3b748036cd0ff00bc94a600402798,
  0xce4a503ae2fed02c56f04020e0e76028b737e032b6ea502e89e71032ce7e901cd4eae0011c1b8002e376503c2c8f400aa1a6d03a271c8002577ba0233f7d000411a9e014e7f4c012a9707010e37dc001c6402012d1ed30132454a02d4d80f01d4f9e901c8b91601395a02019751fa01ae6dda00eee92c,
  0x180d300253cacf02403e400350dce00053b3ee00cced26007f18c302c679dd014972ee03f132f500221c4001aa639801654743019b725102845cc4027bfa0603f78ed80150e6920390f0090211f8b2002e63b6022f7b4c02fa8c8101f162f301be546f016765b602d65cca02a24c8c030a0af80260205a]

/-- secp256k1.go:10, serialized bytes 30720 to 61439. -/
def tableRow1 : List Nat := [
  0x0,
  0x8dce800166a840156eb60024576050379df0f00210bc300564f6801363e60016b8fdd000e424100011852029823370259c1fb02bd6c0001f7de19030d7ec401aaeaba007500fd026c91d703036d38003f9947004c21670266f1b600a5cfa101b6c5360226bd24027d6d1e01cae88303bacf040050b97f,
  0x27cd8c03bcadcd01b60bc00379724700e1aa090340aad2039bf089007d707b03afc61200b800d4003231e4024985ec0240566b03f4a483034b7ccf011ded54003ea6d6021ace4303157e970375b750002015a900bc09c9026994dc02c4df3202baef1f03514e2e011b94500095f73601678cec022a4ed0,
  0x450ea0213ab2a007cbe7c001fb664019821060204a695039f15ce02b2f5d9031ce11001c2ab39001d99980239303a0155a61800deee0b020866c90046038f0080eec000849fd301ca0fb1022416be000475d903dac49e00472f98038b1ee3002a425503ad136301ba427f00b54f0e03d3f0ba0296b485,
  0xe82bd00512bff0384599301f447e8018fe2cc0326e4300067072f03228a9c0245bc5d03e3d1d70018288201cba4ec003a0a66011dd75600f4323203a1a45e02c263cd03b1156c0065671702988a88003a6d4402e5fb9d026765bc0295cdd8031c7f2700f7936f015550850068f20c0348b6db01dd0c4e,
  0xbb46a001274a4000116fa0094f102021138a7026e006601b4c0d1002127150048fa8e01e04f9300067d4301d113690197c3be00c8375c03ffe7a202c43f2d01c9af4a02095b8302c5c575024e9ec00003114c021f1c2d0357f63c012038ab03f1536d0151a36d0237295c01477cff0209a1eb02e58b80,
  0x2ada5001eb4434031bc04400988188038ab527033f438d0396b5af016d139e02a7785f0254129d003fc2f901cf47f200b9dd570097aca102e86e14002d0a88030f4b2a0327e92801df0eb70259b801003804ef02af00cb00a0354c035566700310568503aed56a006b7167037a613d00e23a5901250e50,
  0x14d858000553230046193202d4565d0337005e012316980211ca9603c8e92b00d6ddfa007240520001d35f0306a61d00460d5a03c7ba9203813a2402f9f24d005eabe602e1f753032e170103e03a1b003a40c2010e66ef03f03fa202db29a2028f76b500a0881401b7d42f002f3bd101b769cc03f4b600,
  0x162cc0026b55dd03a5381f026e754800aeee9b0318006901a63d0f039ff8d602b17d7201b448f500084dc803ccca84018ac44b02666f1a02caaeb30139f8f70177c3a6011466ca01d2f17801dc95e90033cbad01d4273003007ac8000ce859034b158f02f141c201458b0f0005f073036c3f2b01e367e5,
  0x2b0c93033e5df60103a082033f924d01a6d4120271e3990306fa2a02d114bd0152e6c902c264fc000f25dc01fec76203a4022a03f681dd00490d6d011eb52800a4bc11001658d402f9a36b01e5a060001335fb002c92be0175ee06015aa8110220bb29023e1ce202d4487203d316ec0314414900cec28d,
  0x408b8037875d40042ffb100e2462102a83cb1028afe60016b5fa802cde9f100186e0e01aa0f5f0007cc0501bd1df102b9a94500ffaa6902a4f1ec004de5250025754d033a4fb9033bb33601d3a8b0001c6199032a0d19036d538503aa9dc400e0d89e03ff55d7031099d802b55c2702a9345b0189cce1,
  0x34d2ee00f39cb7007abd6201049b5b0239213c001d29f501bc679b024d77c400f546c9025f2eb9000e54f900fbd20803bf82d400e79c9a02e8f5fb014841f90217ebd503d8f06e028f9dc201b7ff75003fcad9012a7ae401348f12010c0c90004c317402aac3580257544202008d170015b9bb00d384fe,
  0x1bfded01799828025af0db01a19fb602d64b2703f7b7cf02f841ce0022233101e1c9a20040a7e9001565a2038887c10298a4ea0367e55703336ea3032fcbc203c63b270094736e0391418902a712dd003cbe1e011df5ab00f7bf55034b368f01f28c94012b1b0702513f6903f20b5a01b1d3880183e230,
  0x4461e035ca2e0004a222802211be301dd1506037e572801f7be39026e627601a3c21a0368fe99000689d300c2eae301c3446e00a8218e02ad78e303ffe76f02be22ad0020f8a101e4da6d028651c10017911403d81c6b01a35f76030605ec03a69d23033596ca0349433401db3aec00d5a0de036cb986,
  0x2b8cfa02f1f6380031d9e101e54d8202353051016891e100fb56cd0249f43d01deef120235dda3000fb8b60387b7ad015c7504024496ac0043858c00e950f303a17d7c01f3151b01ea3cf402275ccd003bdc7f03fe592b03c9313b01504541023a1101039e010703f4cce8029ee4480237d57f01aee4ea,
  0x1b6683009a873602fa1d2b012a2ca60359c8b503fea9f901c9c823030b854602ef1b2a010097c1000e66bb0077b6b102e77e75026bdf3101b808dc038a133401c47b8c00e65ac101b19fc20325bb4b00095b30026c1e7d003bb17403e0eab40002ece801a6d359011780380280f6b100ead5bd02fb18a2,
  0xc04b800009b9b012aced5016311fc01633bdc00c2788900d60a140202eea8030b094103a825e4002fbbc80146a42700421e87018fcf41029aca0e03b6d36801c2953d0233e60f02b5fdda004d8080002c41e6007e9c3c0055b73800c9756a02d8ce3d0229ee0a00a9b0d70000c1b900d6617403b954ac,
  0x9f5d801704aa201a47c54024ec68e0284a3ee021ebfe10158f11e02bb7c880385f77f00c77257003d60d50124723503bf3063006bfd8e03f8d67003e6eb4501fc16df01c11a8b0327026902e7d9b0002cb01d0110ba9a01d6fde600295cc201f040db03c7994b02a8238a0206697e01b50495020e994a,
  0x27bb51002d770f0342248703b6a3b403be4261025a07aa03cfccaa03a66a0e02258f4f0188408200207aeb00b99da001be0d1a027ef45902baf4b2028dba7201e69296018d0c3c024958b30321eef00011cf540246520f014a64010253ef3c035342ea0079cc0602293074010a60a9036a4a2903fbe9a0,
  0x1fb9d001cb2c8900696fce02d7ba5501c8aa5101ce0841007258e102501cf10110f6f200913f8c00309e53028f89470222c253019f281f01376a130181118401b1754c01f4b64b03897d1801adc4380026d81c0072a1180275284b02370f9300b83f430220d29f02ecef4103ce664a030c7ad001452587,
  0x103e530055a9ec03ff7e2301b6c6dc009a96280227acac0140e5e8037e7b1f003dc3bb00201b2700327b26010b4002006f5a7003d8c4ee02281110008c798b00b4d20303163c3d00ea2c73005647cf001fb2b2009aee8800746e100165a8bc023a450a031fba0203de40e601dbffde0250f309020afae0,
  0x1e89d403d405a8037412a303db47380137ec8e01a1e220035562910110d74e033a5fc60335c07d0008a7ac01c19dae03df3a8a003e9a4f03db011403cf871c00651b3401c48837009878c100f13ec7003ce029002fe4c2021e5b08038ffd8503a175710203a862000b64120235a119033e09bf00ce5994,
  0x23574f03bde84c02dca285018017ce02a1d82a00ffa4de0085a3e80072675800f3d5e2037d4460002a0551020145f2000e0d4c00cb062a00b9400a0137ca790013e844019851eb03a3006302910420002ea86301d7ea4602979adc004eaf0f03b56f7d013974b402bb2f9300473ef90174edcb01e93cba,
  0x20c2500329ac2b02afe11f000fbf020382e5ba012a96c30132e0c403bb20f803cf8f3002a48122001f23e3023e1786018046940208148d0323efa200ed97b8010e353601e3b7f800f40be90147cb36000785b101c9c94a03397fbf01cd120202e12a35001285e9003d597c035146c400cf14d001b914cd,
  0x3c531600ba1bef03a1e672017e3b3f035af6b4018226f2003a79ad03d220bf0054ef11006434080015b46200345083001b03cd0119d1f603a8036e037c1e930058198701a94d9b014b5c9903090e22000d9cc003729b84014738920163c1580203480e02f03a2701a54f370340068001a6ebd702ddd0d5,
  0x343745008d15ba01c2028800c7002900e165e702d81e170383237f02761cfe008cfa2f02c32357002b5ec303670b6e000fea6702e621b000957bf10127f3b500d5eef900f546990027421300b13b2c001c2260029bd5ac03c07a4402593ca203d354f7001fbc1d00bbce520087722b037182b301166d12,
  0x46e3e00b0309801ebfab2001de6a1017a5d460092768400bab0e9012873c40261f963038e6bd0003ba255039be2b902c4326d02dd8fa802a50ae401dcfd1e02c1c9ee03f8462f028d1cf902016de500082a2e00dd60bd0049278503dc8936012f30e2013e0c310196cfcc003ed0ba0145838900f63b9e,
  0x287fa4032fcc490094f20c0156722a02115cb200c9d2a703e7941202c5856e0083a15a03e0123e002f3aaa0157eca00032d69a02f5616a03c86e1503aae2d900410c1b022a10500190c71b03fd93560028b5cd0381800e0068300301c94b5b02ce6a4203a618c401c3097e010a2bf8031a5f5700d1b67b,
  0x10087e02ed4710005168fc03450c590118ef590302d30500037bc9023f531f03214d9000e2904900291bd1030ff25a0142eeb8008ccd530171f5080130d3560127118c01293472037f22ef0285b6e4002d1916000d23320376b6bc02d6b71f025f71c2013016b800165e7a03e8806600c1f4d901967cab,
  0xf21e901ba6a9600e632a603294be9034a42a600ab091d03e2569c00c4918602867f3901c655560012086802b9e0fc02aa2676030a7b0f0025caa20395b744029be544012dbce202c3867e01c918e80033c51600823f51025c494c0357f21101be61fe019e9f0f018e29ad0082b74900c6e160022f8437,
  0x2ccee8005740ea02a91eb502bb442c0369d24203e5565a00e500e101ed116d0134cc8a00dbe498002b7e0a02a1d2b6003b60d802e1c2b9014fcbdc0009ff4a00a5e4c002942d9a02dcfc3f003657f10033b9eb035835e8019ca1af0172ae3801c1732f02b05c0e03c52ce503f751540211ae040068d787,
  0x3a0019018355a2027834c0028e73c8002117830268092e02ce234e0316eb7a02ba958a023ba0b90001251c0011e1a103686d2400cc0c90030b2b33025af75602d744b7007d448302f3d10e026d6c5d002f96ed00f5f23f011d204f014b14310204030202a6b36a0070b21200e51efa003b5928020e9808,
  0x3fef10012ca013026c707f00e78b4e001da16803fa9c33018d1c2402094de0015cfea7035a5edf001ff26f00053d190180e54c0355462001b7c80200488f460031e43c0379d9060096c1760169a91b0011e23a0297828700bf7a2c016275be032d5d9200a2694801c9f76e01c1fda2000a20be032f0a6b,
  0x2ad8ab02c6e0b3014120230158f1b2013eb43b009ecc5b0153093901a3affb02585b7a023af009003893b60380fd4800eed296001ce958024860410112932e037af2ac01eb93e3024d6b52030d02060030359100810e2302b079f2001a95900206388b019940cb015ba81200811e9a03762c7d0397eff6,
  0x1fcd0200a80df200b795ea035fb31c013aa8080319752300504c8603a9753901640c56027b8b95000629840385942801239809000641fe038f53300116e69303d6af9d00cc32d60046133602fb82210033c73703bfc7800176819203862933033e730d02b3832200240a50039d135f018f22490037d963,
  0x254af402d69976023f2af302c7af7802dca520009fb631002ca4ad01336035015d152603b9bcfd002c889e0357873302c93716008783f803cb667301dacb98023f46a8007bb450023053bd01e9570800083a78015a0dbf01a318bf015c0641015803b901eb55a400d03f6b036e2b4b01e02d880254d795,
  0x2d111a02164d2902316c6e03c2e54c00e62dd2002968ea00ce28ef014699730222162d03669b36000a132e0098a526003d5db100575f5c02cae19503111e2600ad956302a5514c0348a1ff01aa45e1001eff7601e244e701cbeda4022d156300169f1202df3c4203097a740031e26803bfa846012db02b,
  0x2b24e603bb54c0021f3dea0183c5040007b0fb017cd4dc0172cebd030e14b200e19c1403d7cf3d000f48f7003d2b6a038012e9034d34f003506e100230ab3b0397d21103dac1d302da1aa40085b43f001d2efa0310a4d203bdd14f0143596b016bbee20011df8702fd6e57036c82810083a7d501c48265,
  0x2a72cd0122ccde02a7343401806aeb01f3021200e632a5039452f100cca38401749e4102e292af003f714701c329bd00eccc4903f47e3c021dcd9a033dca78009f1d4103b88bca002da3950046906100362dfd0268d85103207886031c2a31038db83d02ad45d703801e6900c1d4fc002f980f0254be79,
  0x2435a7030bee0603312a4e00f5c4930094436a03d7d67200508f2600b96e4c029bde66005ec7a30019bd2c027b999f0077afe603ea32a4024619ba035e341502351dd901a80dca0306117d021f49690020fb380080d7fc00c98dfe00f8256f0113dffb02a9bc0302a1162e0251a4580270c162039038ed,
  0x2117901e863fa002e2b3e017b0e9d035bb2e101512bad0122911800a4cc93002282f00171188b0005fe470233b08401f795eb0055d4d9022e4339031474910255a754005af9f801b31af00303150d000f15f50062a15f01814fde01c5d3f600e14d9b012f524a02c0f47400dbbc8500048e8f02a99947,
  0x180f95027ad3d101140b2a0397fe0f03b0b0e700507fd403828d3f01fcd2b9039dfaa1023006ff002793e6029e113b01eaea6301c4eb7103f26c58021ad1da0246d5e6020ec74502ec230703a821dd002f5ce9025cd8f303cb66680386cac102d1cad60195f87303bf7cc90082cda303aa81a801ad6037,
  0x16961503c21b4700c1e2160264850e02f62b2800ce4e6d0153fafa013407fa03bddcaf001a2af10020089201dae237032662bb001e247a03660f0f03a8afb503cc5ffa00fbc9a60386eba6022c459000346abe0088386201834400010de01c0185b09502ecc64301a85b80031087c203c468d2029b745c,
  0x3ae2e9032139e400027b8c01e5cdb901d59592008f5cb503d0de3903c5ae7400e94e5902543d850012ed3302c70f29009c4cb700a02f490292a86101f68e6c02c02edc01ce233003fb745802bdfd1a000ed58803b978af01bee4f603b6001803dcb1af034762a5033f739a0281343a0354525b01021848,
  0x26976b022e7e31015d55f302205ed902bc39b7003b5ddc0234b83e0138214c008136ba000364cf00070fec02b88f1a03f3af270095ca9001c46e3901fdff23006e69930323862d03eafe0403e0b057000b94ed017f2f0c01b9577d01fddeb40098317d01ac9e7a00cc9cf1024092da01af2a3300ec4ff5,
  0x21cb66022c3d7203a90420031be7ba00aa3f7b00dbb72c02580f5201c7a47a02285d3c00cfbc46003c218f00817d6c00ea2b7d02682d4f0022c5bb00dc681000be969101ad31520013c88b03355cb600040f21010f994b00d8d5c40116c59f00c5cccf0322eee603b7bad4014496c902f2e96a0375c892,
  0x30b2aa0147f61c0141bc8603f1276202ae7a11037f002f002b173e02f1c01002c91fb6023ed6120007085c02385cd800ae0c8b0040eae1029a450400bf66b302a50527032e10a703cc17de019ba2f70039832e028fe41d030cb71402fbe65101ed3852013594fb02f43a6a0159f00101adb7dd016bd780,
  0x38031f0327ee710279ac4a0039660d0091c85101d4bbab0009707000f07dd500a944610205da2b0008eb7f01411d2600c243950373171102a7dec0012d054603fe1ec403e645b500099c3e0166535300138fa001a0edab03f6152201905c3500e0425e01508d2103734e4700f42b7a02fc85e9035d3de6,
  0x313f42005826d701b6b06401e78f93028f79f40142884a019a92da03c5d33c01d5858a03d984560037991f03a646d9019832bd02893a2902375df502b3c703014a803b0064e02e0014128e03ee2c19003570d702099136007e4b6601620e8301d5613a014b23ec031057a403ce97ac02c75d5b0040eec3,
  0x135fbd01611d3302e1a703019212b1012a65da00b96a8b023be02503f8ed9102297b6200d870f8002aa4d503c5cd2001257d70021188ee016b0bea02344bda014a0be602ed3dd502afcff402d76f59003c30b20125b50d00e0736800b6ac9b01a24cc3014893c7013d9e6801a436ff02e52185037da3c1,
  0x1d766d00b21411024783ea00ea223a02f1933d00073bc603e60ff10023e106009fc44200403d7e00112a08032ce5f0022e19d8015b4fd003a461700146a400032933680071725e03cbccf2028133f5000a53bd00fb6761025b3acc0221bbaa005deb000270974f034a13f702f09fe803bb872d0043d4ff,
  0x38885e023dcd5a032cde4101d9774600c3c16d015d586903e742ad03a21ef70254b3970045c4f50028015700caa0c00180ea6c025e7ec6008da5fc00fbfbf6028a87fe0256f14e0053b34103b449ac003e0fd001f731de0244c97e0330c3aa03b4252103cbe1100263a9130170107b012c0d790142b34c,
  0x37e5ae01d05a49012305a402fcf9fc03d17b0403f13d9c0038284902c646a400eec53a034247a4001147b503b02c8703648b8802a1710701ee734000e97701018e2e0102e472250378f90303997ac5002b69b40398a0cd0042c62301f6dd0400ca5d2902a0713402affa2e024e82ab038ee52b022ee495,
  0x1c1dcd02e54ad403dd429c03bb080c03d44a4f01d8aa63020567fc0091553100ca004d0283ce140026114100d4267c0034903d011bace400376bc8013314170182458900c6d29a0385114502e026cc001eacbc003796b3017eac84029fbf51039edf8001eb667201cc710302de08cf034bf8160015b5dc,
  0x1e279e0003632200b532490396d780015ae42400fe3698011db20b02c3257a0111e0640030bc33000683910055627f03b5074b02127f4402bd4bec00a46bbd03ba842a00f61b4d0104ee6202f80ee100011c86016c7ce9034b719600ef5fd600b74a2703e9cefd01400d37018aa356006c5d7700347136,
  0x3c992001961fa4035195c303bebf41011ca0050232ae5202e31103000e7a440185941500d87e81003f7281009ae36300024a3800b07f87001b4e900026fcd7010537f8035b69c70267ff3a0231ebf900062dee0196e426003c82420051158f0108c1bc0000596e03ec003c03902f7e01b607b100017e8b,
  0x19d125005522e9008a8c1400bf220e0347e9e802a2aa1c00b0a2c202353e50038d219302da05bf00266b0100ffc3f602090ba402b1552301a68733014e2ab603e5ed6502291158012d2ce9004c92ac002bf4e002f6562602b085f903005f9500bc5be70005ec400052c48000a8d49b010b297901925f3f,
  0x341f1a03a277e801290d9b01ba8eb402b78d3d02deebd403cd12880053e1d102d8bc2e00612d9a00345f6a001f22580046fb60015bcafe01c2ba070112333e01ebc4a5026fd67301835951000794590007e26a025d781701df88d003baa39c00f81f5601f48acf005cb23a03b2d8fb018abfbf0023b6ae,
  0x37b7fb030ec880027d7d0c02c646cb022ced150293e9610340d56403ad001e023d9c2603918af6003b115d022bab7301110cb301b4e8ee03bac59803d38b8901366853009e4df603dbe50f0307514c002fcf3100feabaf00f7898c00c23dd202ffb18101b4aa4c034de44700764cae00d5f52b020e919f,
  0xae87702044609004e92cf031c8f0e03015fbd0356ab3901ca5e520277ae57025c2ef003a82d5700194e57017f3c5001faaa2f00fda2ce0207daa1007c59600099239c0024f238014e40490313b5c60026e29602ef486e0010ec4a02a7cf35020ef1400077303a038afa620262f087031b404603ee5e42,
  0x20950014bc90b001317f400af9ec800e32ae103594e2703dd469202861733028c875f022361c300332ab403a41a6300a7254e00da664702c906a5017a5e3702a66ee9016fa9ce02de58cf0014c55a00191dcc021b64bd025d3b1a02776a4c018162d501e82f8d020451d30055279802a18fed008962d8,
  0x1048402fb99cc036b91a901a1e8e9025cc51a019b62ec02c0760301352fe70059f589031271af002a7bc8016dd73700f3669d0137f186028c8bd4014738070029399403f3a38803d629fb006d218a000729bc02ff267303b9423201dd0e5c015dc5eb039cdf3d02f713af02c8446003eb366c0120baa4,
  0x3b4109019030be038532bf018a97f903dee72f016ee9ae02d2ce0d024aa36c02c2c39600e02029000007cf02e8ce180334ad5e02dc4e0e01fdaba403e1f48c007289f10221c20f004790b5032976f70010d93702fa9d37000e3fb001747b88020929310137242401c9b2a501d2f7600139c8d80337587e,
  0x18eabb008e17270266081100b112360344122900f209f201168fbf031e465100437d79025ab108000db9cb02e1a75a02eccf48012bb8b90239d05801d7b4b2036e88f000baf1c600a5ce5300dd6b27003c4ffc003559ef02e21c0300b916c50261d3ac03accf1e013db26e02e4cba003538a9b025fe085,
  0x3d3b8e01f59949009ec561013eea1c00b454dd012aec45029d4b61035613720356e3e702cfae6f0031a25e02b1b16c004ca5e3039e84a00158a91f0044989d008d718a0377d645031cee0001470535000f23bb00e853f10373d683017fe5c7000d6e25022fed1600f7a0d502f45dd5004f49d7020abea3,
  0xdc8b300d502ed0384565e015fca7002be60fe00101a2d02f6cc1502de8ee400ea81a601972d6a00180333024fd35e024058c302d725e70331323a03c0e88802a4b70c00f7293303ad425500f127fb0012f3a7001d257000bf6f4a01b50f77033c7805012752a503c5da8603a84f22037a50c80239970b,
  0x58d4c017f497503af81e9005a4c02018d3ffe02c302360387e478031a3d6a02f3bd17031a89d10018fcf001b538d600a8d72b01cd761702ac210a032e3aa10129ffd600e868c20128d24501098c19000a2aa801b26188038f297001d910a2024528af026671010060c676031786b203f78e9400e0b288,
  0x72f2a0368ba52012856d400182974007b0e9f00e9493f018a1b26032c683102714cae028838e700010004027077010156293c0113681a02ab8bce01acdfb1033a3d14015e154d0280360c01c6f461001b300701cb275e0293b46503359649011d256a0060787e037d05c2037d3b4d0034b15502dcbe0b,
  0x26377e02963ccd0112c45e035b14da032bc1b8039a6c3202a64fa102c80a3a00c692780201fa120029d4df03f456fa03b9c2f701e829570116fdda03c361e6025eb2990112bc5901b60d2b020a3bf60024f7410342443d03e6ed180088a080007cc16e03a298ab02ec464601fecab2020fd9c003151252,
  0x31855d02247bb00153ceec02bfeb5b01a5732000ce14c703e8ca2c021c47b302b78e5c023044a7002d38d603e8396401a98613034f4e3201d8a976030f379c03d45d3f0246c2970034e3bc025b34f3001dccbb0050b089007f0bd203ed0a7003d9bf4b005226510289cf23024481aa03ac337201687722,
  0x1a882202786b17021c08c403a9c6de02313bd803f2702403a09cf7009ccd0f013de5ba02707b1b00064b360059c5db027bbbe801bb536503ca25ab004591a70235cbed0079eda700c25ff602ca834b0010429803c7bee101d8176d01fff37e02072a000084bf3e00f9d97300d8b14d009e678c031864ad,
  0x12bc48038b1db102c83d1a02ca5b3d037845ca0093289303308356013ef8be00c26ceb008573f5003b07830194185e01aecc85036b67320391bedc02d1753502b28d2b0355d2a90097c38001fe4ddd00026e6f01deced202ae193a0378272602d9425f02b5e8490299174202dd10ca02907ef903533f26,
  0x3beafa00d774f8035d107f02fd2fc800a6fe89039682c301c8849300925d3402bc93e60388dbad00006cb70111dd4f0337672101aa331a01ee870400154d6b0035707d02da34be010906c9026e208e001f001003cc57ff035633db00a865d902f2b21c0312f44000a1d4a100def9d6032a1dc2026c8dd3,
  0x22a820009b7e0e01cda9040388663e0183e1fe009e92000130522b0062214502e957be0370697c003b8c8700936bbc0191591b01fa3d590145986c020bac23031bdca9026e882601d8839400eb9b7d000315d2017cf4b803cc2f1c0188d07600678a2e015b00f2035f86da014da5c8008806f503dbf15d,
  0x3a716c015912f5024d03c30062d57f009363e6000ee08f0328221c0071424000b93cd601c1146a0000930900aad9d5031afe490254dd2d030d4fbd03aa246a03da149b002251b201dfc93301ee7c9d003e7082023766b302948b2e015e734501e96c680169d4550348353f030bb55d022b304301f421ee,
  0x17ffc500ee7b5100084a2202d176e90365be28023ccaf802a31a65038f1b02007292da007e3d7800007886031ddc7d03fcc06001e107320286971a03fb4e1b02e370e8023db2e00131d7450341206d000295d801940abf0098b1a0034c531d01784ba30296fc3900d80ed80166b85403dbfccf0329277f,
  0x1e4e6c0206c82003f13ca2007c653d002a140502f21b1e017fe2f40292c1e000e7a24f009852710038feb00224de5300c5dd290080e2480137449600767d9603d187ee015bde3e038eb1b50370eb9f003d69cb00aa466600b970d60222230c003f31990388fd43029066c303d646df017f9117001bdf18,
  0x237c2e03206c2b02821e0a039269a200a02c6301e1361d029326b003b533480042ffe50135ef5500272c1b0297fb4900308e9501136da70151568900be6a5b0184926e00cb23f80193cbc501cf4ad70032521d0331266303fd9ace02941da9008f45c40033c91b03b42c8302e6b564034f66cb02fca902,
  0x1b9b86011d247c02aea16c01c34cb4017d610f032835fa00bcbcc60248b81a02da69b200092cee003d1e430118bfaa01d9b8bb00a50f34000295f103859f2700ff581f02b41c4903a6fade0138ac28000e279c0142708500c5043d037b71be0002b9f802c32f240025ec5c019d818101fb2a2f00294575,
  0x1b8bc003bdb40603977ab4002ac2390063e5ce033cf2e7032f30eb0075adfd00340a510064e0760036f0a503e7d08a03c8c4260088372c02d2f2b702e2194a007d021702bfc8b301640e41033402aa003a86720167c8ed01aa03d201e8952d007aeae400b1ecd7016a45b101a0137603e122d703bba436,
  0x57fef00a9d33e013c9bea020346c20291a3d302c6b17c0078d6cd014651bd00eba3ea00fae125003974440237859a01cb59ec016a86be022f9fe0005647d8030ae8ce0284585e0124147b01eb46ee00177b070039fe8d0069d8bc002c36c402cfbee802b286c2027c53f9032696ac00fa638101fd1358,
  0x18c0d500dbe6e502a7bc090282bd7102fdf0240101bfd6016fba4c00bda4e901c92a45007db49200287bd5009db2b203f332c0037f9bf10292e2cd0369c9ef03dbdf4f00c9565b034a5acb0040ada0002fc387025226ae0346692701605e1301a943cf03519528023b869d01f0292402b57eb203c31e7f,
  0x16a8403dae78000b596bd02fb67ef017168ef00313aa400c9168d015c7aba03b62db200ec599c00390ed90105e71f0220b22b00d995a700ed1d7a0370c538023293100066231801a470e301ad55ec000c07b601ade96e03760dd3003657f700f8207a0260e68b001784ab014d823003a754ce020147cc,
  0x188c3e030c48760358fbe1032725b90104b764021c9cdb009e99d50347e76101f8d09a00805c1c002f9335031aae1b02f3d2ec0254ef700359e7070054ea500049ca690231688e01993a6e024f77b5000bd9eb004b01d500a0375603f0f53b029f376d012a3d3100e0300a00d11b9e02d5c07d02d5e022,
  0x1e0c70020f4005006dc5650389cf6002b039ee0055aa410095b30400ce38be03f6ac02007fd6ae003b711d039db332003df4af0177d6e00349f8d300252e0002fe4c8d022ddf6900fac74501c9114e0032159b00be67d9034cb99900ba4bc1000de6d700671f4f000199150190f4a50040f21f00d8a391,
  0xfc056026ff88b038a9ceb0378951e00b7e8200207b0000088333e0247b34c02b0e70c0283f87a0008fa4a036dd87501caf17802aa673601a38a2b039cd65e03afa68e00c6430802f3ac6d02a56ad1002e054b025f8b7400f5a0d202973f4300507ca300e799e201bb552c0287f865021df08d0102cef9,
  0x1436703e982cf037539cf02932709028420ae028b532801c93004039ee034023b83fe0168e918002ee1cc01764dfb02fa7291022f095703715b7903a4edb503ae9a6200f98d3b0397324c00ea4b470014804801b5275e02995a7c00fff2e002e2ebf801c8309f039153ef021a0ad8026e45c0024db4e3,
  0x77d2d00c1929100b6c6ea03f033b80351db3a0061b98502d8b04b039d7e7003e48ef6006935be003ba5e7028b12fa0072aeaf02492f0d03bf0566030f6bd30327d22d0070fc0703bb810b016643990012c3af0137c2ce006bca5d01716f2e01037d9a03a85f2703754fee002cb17b034502ac011dc951,
  0xdd4d03bd39ca00a24a500111dd260273ac36012947f301641cca000273f901fb27bc026850220018543c01c4dc57034b96be0112bf61025cef080385ef1c027f49a502e7aa9800ac41300076eec20038643a01e17c5d02413d37023ccf4e02a3a045021d3a6a00cd467102049ea1010c93740038531a,
  0x1ef01a0067de5203d1bb63038ee3c8034db1fc0335e9f6001c0a4100f18fd802b349160126cb7e001de4930250f03f02f29e1103919dec03ec51b0036941a90143092f028b4e84023050230161f5ec000dfee9029a5e92022cc98f0324fa5a014bcf67033086d901b2b2b401a2e9ba0051676802d3f525,
  0x2f685b03d6572102f59fa400661bf100781e7a015c261f034bd0c0031b907702f39fda031c7722000ae02e00c27c78036d767702beea6201838b3d0397b84002968d1503edd4b1006131420124e9fe002a50be001516f900756b4903de3b1d02bd6b4902521bde01840ac0001fc17403ba96f803f4737c,
  0xc9817014db494007067740110022f004aec8e00a56d5802ac8c9402ea473902c85a2a03e00853001cfa2400ac84ba00ca42f302d5c55a020bb07201bf5547009d5b02033aec1001efd07101b2185d0017341700fa5ea803531e18013a8a6901f2327a01e3f0be03fb95e100de11bb0041c148028ae187,
  0x39d43e007abc1602df5e7b017c11c2035e1e3b00e373b603acd8880388ba6d00f2ebdb001d339a00330a9f0388ac52036634600316a03c02d2f3d102773a4b03f62806018783e8014295a203c2dda6002123f502e030ad0207b7b503b98380027c674b00d205e200a2af4001da40fc02ae048d03575d64,
  0x3d9684039bbfc9001678c302bed0cf0153494001c290be036e622901bee85f03c65a5a022f0b3200216fbe03b27cec038720e4000f3559011e6c860041c1f40178cddd024b8ada017a22af036766ed002f287503d56f3002545cb703339b3903a41e8f03ada80a01fcebe100bfde760272f652024b8418,
  0x189e203d9f4480182c2ef02dd6f3e037db0c9006e2b04002a7e8d02dd4b8501c921f2015d6c1c0021949201c3de8603be97e5018ee266007dc55d03f2edd201c0e75003dd638201c8c611026f623f003300260326d08103b412d101df3e1a028b1db801dd861c03841e35019b8a6103b786180014d8ae,
  0x3d46e60100e0690196ac59010c970b00727aec00cec29e03476f060019147503be843b00e5da5b00087c59021f401003d4647301cdcf5101890274033caeaf02ceecbe01cfa5ef025a12b7017a24f9003efd17010295ed034f690700e3567401704a2b0291596202837f04029096540328a29d0195474b,
  0x22dfcf02f14e6f0103516d024c41cd01cec6ca01055fdd0268c740028d7ed601743dbf018570d3002f95e50146d4320248d421036d520302efc6020092ee5b023e140600918e08003d376201d2cfb4001faf46011ab2ac008f10da0205b5d4018b485101dc54af0053901101ddc01700ec172600878c52,
  0x25b0b303faa701006182ce000a05c202e342a70375de54011215c30097f74c01b9ec15032de9eb0034a09402918945028258b901202e7f0280a39b0371fdfe0233c8d9000a865c03b6d51a039e24e80036dee2025275750158289a02032b0800ed0037031a05bd01decdf803aeea22021e57ee03a7726c,
  0x9108701400f9d0370f710014467130085d1f2018cc3db030c9fa600fa050901753c7501015aff001e730e016de30d013577a7005f2f5c01e1e94102cd693100bd8d1b03f9ac6201eea56102fc9c680025a750001deb7b02ed403201e4f44c032a38ff004837c5022782d60292f7c901c0a0fb03833f28,
  0x7a2d0280ca93014a373d02214e5b032e542600d7ad480172146803e5fd0201ed09100014609b002f0f310176133200a6438800657a55019845cc01fdcaa200a2aa8a0283ced103857dea021b0f36001a340e00bedf1600f65bde03cc042403853d7e00059e1c02744e8a01097a1f008ffe3900453914,
  0x36b53e01351b6a03291d2e02665a7e034fe032019ad372038d980f03b17817031e257003ba9be3002ed62c02211f14008f584a02b07b1600def636027edbe200625d2a0002e6d502e40e9e0065264e0001c4c5029bfd17005949de030ec66e020bee440010a984002d9633011c612502ba8164013585ea,
  0x21f71101cae769003a9289004bdc1201caa5ad00e49bb8014893b403ff6c0d039b7d7202a786c1001088ce02dfd6e50083b03d0327d9c5026901a30057199a0375422800b45abf03c025c903fa70170018ddc601ce63a702d95ec703825fac0331b6ea025fac85035055f40266625500f28f20036a3f9f,
  0xc87da006b466103f2b3bc01ace2d7016ef27801af94620143dbef030ed04803c664f502c7d5750009d30902d09fc3023b12fc015aea800231294e03f17196000cf9f20257767502da5bab0017def8002cdb6c0067fb5b010b15a2021a6870038c0f1203819842008f8cb002a8f96102a4441a01c68ea3,
  0x20b46503b1e26b029d2985018dcc4701a6062702bcd46800a5bab6023c5b4801a5fab303b041da0005495d02a60b5e00e6a60803102577027ec5ab0395453c0176d695001bdebb00e7a739034dfe4c00354ffb0234f6a501bfc48a013e9f6e00ed13bf014498ff039e4340004d03b3026581bb03212299,
  0x31d53000b15830034cbb1d027692ad033f41da0164d78d006191ba002d1e6b0282384b0313039d000da0f80297ea320386b49901c42e9d03afcc85016ca856025241130373139601b4f06400e934510008ca0c00183dd90163465a007a60610395cef3014b73d1022f209c03c4651403d7e2b0003d8149,
  0x43fbd035b5fb402ba0e9401f189a302528aea01c8ff6a01bd6fae0261a823018748ad033aca23002cdb8b03b9627f0124aff3025f780a0108a42e0134d9e902bc2a7902e5d59a029239c5036ee8120039103500ce53fa01a0bab90189079300b6d4cf0111875201f05bb5037dfb2e035d20b302d499e2,
  0x84bae01373d8a00e3dd2f02bf47ec01eed94d02146d4102a4af140243b97503ad18710198231f0019cb9c01037f7a039e1e9200679f7100fe8f57000c366b02da1e03011e7a00029822df028fc004002e91b701094bd703f8048e01e49f51027f91d50043be2e036dd8f00126d97502ed384d00df174d,
  0x197957035efec1031a8ad8001e800600351ab80347ecc202741b2200dd54380227a3760039f8b4001bc6fd036f281201ff907f019bfb2d02ffb57f01b6df010136cd8b0333adee028970f90163d4fc0018c40502190e7201e7f887029e0d730203e0bd01bcb45601bb3ef500ef78700353074002fc0980,
  0x3c992103c1422f037f6a3002e9f38402bfd4d80248eee0007ea7440109bacf03dd8bc4039d7a9c00246e7e020f316c03e8270d01397f640205d9eb0394698703f2328a037f3018021ec08d034d6cdb00124916013f92aa021c50240109195c02c5b97a02d98f8e01b7180600e3cb0d024e6ebf01563938,
  0x3289c701ab25a900d967c1007c85ba022d72cf038e1ac50125620903a5efd10063953202c54795003151a303fa179400149f8400fca47d024f9d090233e46403b62b20019a2ab0012e17b000a81a220015af060336505901ee999603b5b1ff007eea3003494377032cffba03d2fd0401ac74b102e19edb,
  0xad03900ac776a029aced00250692700e1516b028bd0b1033b86bd000c54f903a59884019838c20009d8e8021c541d02627bba00f40124019c13880261a3af01a17d630247fadd033f9dba035a3d5d002ec4100006c702003d730101e23cc203b02c64025b9f5b021fd3f603c6d8a300c7d1d701bd954c,
  0x2e69e802cf729d027ebe5903da98ff03e3c3aa01d41c9b0279d7dc017b312e0344ca580312ff8600233c390368857003cf4ced02d1687d03e4c7f3014484c20305c5df03156e850287596403eedf2600292d7303211b820239634e0210d8d3038db50e02137c6401b2c91802fe72240037f5cf03ed03a5,
  0x18059702a06a3b02153f8101c14ed8007b841f0064885602bc75d3018d3ad50218485f03d2ffda00302b83034b3269036924140315882f030af2b1002b256f031855c6000c8ed901837d3000fb433200032996008f62190321f0cf01abd2d100001e36023e231e03e509fc01e591bd03c58138005de6b5,
  0x386c02b7dc9d0345953301bec11b026ae87c00a5e8a30098d4e70151999f0059078e03bbee370024a2840037e5bc026645c4008566950264ea9600c8c1c50336cb6800bb0366028701d200f87ce6002d36e503297b5a03b46f7003df39b601d143b002ceecbb0295d8d10219c3ac0172965700c85090,
  0x1f2526021f822e02966fea032f57ef02c208ba010424c703e9c30c0030d3a303da4cdc0222177700248cd20330150a0003cde301a39d0203cfce7d009974250049882a00001b3903574a44035745bf00398f9402924b2e03ee1cc8028d6050009869460063327a03c467f403a527a0009098f401fafc4e,
  0x409ee0058e0860258f9f9015616c501605296033e467801291ffd03a4d83c00ed6bf70249e97f000f25a002d1df3702733dc700d6406300b75074018a58170368c7510315e40203aca95d008d20e00020cf980088ff8a0365a21902c68aff0382c512001c8f9b001722b002811c8601f0fc74021da585,
  0x41a0200f75c7a00c03f18025090af000c3513007b4ea90004f4ab000342b20077a42b0189808a000e75880302725f03f159b70096fd2d008f2da202608e2501d95e130161c1830302dd9c03077f42000a92f0034ea75601f37bdf02d7f0b70116281f00275c1302fa87f402dd480703a7589b0344389f,
  0x1359c601f7929c002580f001d9f46e03c742540372e7110240fa3a003b735e00ba0f9b011fcb24003ad65e01036a30038407ac01cd2eb100cb1bbb00ae3b2900596357002da9cf00fbfe7d002a2517003771f1015bf13e00996c5a03957978022b2b2e00589a73021e94f8021c73bd01f33b7f0291fbe3,
  0x1a760102b3ff1f028ed55c038737ee01d8dc610313097c01e42925011c1191012749960049c25c00117a480334457e01ca356a00655b2902bdf35701f9412402e6cc6e00d89a9e00b2ef8f01284f17002ba56d031cdbee0063710b00d224d4024012a9028021b803521e1002fd86e1029e85e9014f02e7,
  0x2162b101c2248100650fe301bdda7303aba90e02b969ba025459e600f5421002403e7500458f9b000a4a690198b9ed0075e79f03c0b0fb03c9ae9000f10a2803ccd42a01d6d1ec002b598c00baa2b40031b42903c7dbd9033d389f018e0d6f01996ef001d434de03d5286c00ee6c7c017f42cf03e6f0d4,
  0x24a232028823bb0264f57402bb8c3501e75ab3035645f202b0100f0297b95102ddc477004891290038ad22003bc9520091253f025ad972034b81720144e040004d3f0503eefcca01df362d028adae50037d07300dfeaf00157463c022f77880314d4cb0041949c0289f9ad006526820201c9ed026b69de,
  0x2b841f0332d0cc03c3f05800e343f903d32d2e00d261f001023133000cb34b02554d330033dcd8001a8425003b01b600ae467d00906741034563b5017e5ea803dcb6db0290fb3b0346fc75015413f1002bce7902fcd91c0297ae460106f79b0162619501e74bc902cbf2ab01b9d7970063fba701d2ab0e,
  0xd2b06025fba6201d064bf03bacf4d037a52a403846b970253db0c00644ef803035c500373289900336c670132050703fbfb740392dbf701b75f1301d0551e017b212f01836bda024672d10185a0fe0024fcf4038846c6008fada6013b284c0131f56903c3cb6b007ba05f033093d40305489903efd516,
  0x2dc88b01e884ff03aecf560008acb3013e4111021591d70156a94102c87dbc02673cf8017e91f10013bb9e0219438802d6641200116e320296093000c1a612036075d603864e1400cf8fdc00fc2b690025214d02fbcb8a02e6e66302d799d50241e3970198f489009093c003b8466c01f3119c0286f777,
  0x1d3b5101fee3a0008a26be00413158033efa3f01dd953303b469560126230e000edd7b00e9c06400106f3c0100a40f01dd3d9a03731710029dd92602b1b3f503fa1a1b002127cf00624366009ecb14003c4a2a0128d412007fc231006af9f6014f1c7200d7509a01c253ee0001611f004621af00b7f1fd,
  0x16ae5403f92f3702e96bf202e23df70299f75700cd526e011a593a02ea2cf900ff45e0021188290007f40a03aa39f700f67c74020459d802a2a870018d8a2102c0e8cd00d4c48d025342c8003fb44700066ee60209cb64021887290308ff1a02beeeba0345e59b030d771a02c3525603daf09d011c3264,
  0x335efa03444a8002b7b38a0273c98e017b93130181fa29017340de011c6dbf0346521b01b955e3002da03503198fba01f0bf47002c02b3027b8a56000bf78603c72fa701cbc29103d9f12e018f6b8d000f46a001a239df02d71bab0393369b0355940a0100ee8901a0b44103243de203dae2d5031b3d04,
  0x2171e603fed236009fba74015e96a40182696700d381d101b38439029d6500013a944300a19327003dafe801f2d3b303755693010d6ff0038a86a400c5d8a300b7fcbc001845b10244f2c602435dc50033a7a1001a99a70014f4320214da4e034743910202848b039e414b01160b220057238200cc9ba4,
  0x219e5600057b8003ab7dc401c2ba4a0040fea0003e5e16030b2c9502d316ea0127de6b0023dd870035d12f014716e60305095f03e823320049ebe701b9b84403ca4cf0024f6b3803e1de6e02a8e01b003d21ac019502ff0287637f03ad958c0079d85003c2ec3f003a366a0301626501300ea4008e9fc1,
  0x3e44fa02ae17e801cd548c00b6c79c0171e20c009ca108014cfb51032e532d014ed5f9008e17bc001079d303a2554e00abf30501c8ffba02d5c61b00ce279801b03ed7016a3eae03a94379012bc745001716cc0117b0eb017015320139606303694d9400cf3e1c011150af033dcea10362a5cb00ffdcfc,
  0x354c7d0031fab301d0f96b021865f90222b35b020f283500f58ded027b9d0902b85806004a10da00388f9c02c42ddc023b3c5203f82e7e02d7ad9b004b781e0262aa3002a46099031702ae003e01050037d13b00947d92002b98e201a957a60360f7aa01d9946d003c41a902b57ed7002211a70019104b,
  0x8c384025dc812013eaeaf037332d402cacd0b012be4da0243d69b007192d700f66703021cef0c003e070402d23d0103a9874503e65a1500f29e2d0141df3502c6554a021e2a6d0167ca1603841a15003fc85e02ccac4500f819d501db9b9603123e0b022203a801bc396702bafbed00e2175c0267edd6,
  0x192e503109d830256b6680239ff51008d6534010d4bc70042695602ff149402aa688d00f02e72003b3639022edf5500c20ed70170394c0215dd1a03a057c002fd29a7032c245a03a3d70303bf226f00269ced0026445f00e92d4f0257a6a300fdeee3016c0d9c01f974670150864303e5e33201d12499,
  0xff601025ee7c5018e534703f79a4a01ffcb3503f2fe570292625b025261ef034a85a20196aa1f00048a0f01eca63003bd9892003f97cf013d3ca2009dc25e03122abf027b730d03f1c75702ea7b6e002c8c57018ace7b00a271f8018ace9b02d7ade50074d69703e3bbf502021adf03bd820502382dd4,
  0x102294036ceccb0009ac8802b6f98300652aa203e740cf0358ccc9022e8bc10275a2f001d3604900292be500ea5fb503e95fda030ea0b00070293002bd4a1d00ddf68703a5edb303368ba20201a0e0001fe62403090c51018d5ae90342dddd03e4112c03263d4a0166201e0233ff7e00dc854a03fd73fe,
  0x1395040099bb020393ebf102b334650359994b03b83cdf0353dda501e522a600fd8863010d8a9f001b1f5d03a396b801a51608022f65dc026f631402fb2f95017e4172008b9aed02341dd30100fb5c0000fc180243221e024def9703e3e54f024981f0011bc6300293134703bd06fd001e312a020e9534,
  0x3e7c56024da734015cb62000532c0402eb2aba02a618a303f94a3a036b7d2e03e7695c021558c6002b678b0336cc510241fb5f023a0a790004387103751a1d02c0974002fef93502fb06660330f2de002dd745001e4dfe02ed701000cfa04c029c698c02b3dfff012a054703a1397d01cd12a201801b02,
  0x2212af0252e187027e42b302664e0d01e3a0e500e51a660382eed703a25cd000822a2103f86869000998910192b806028d0ce200f3f4c2033bbb130045a7ac013fedae02f5774d00c745e90161ede50028c02200c88227029c22dc00264ba700f02a4d00a6250b0111993f03e387c902987500023b4aa0,
  0x1621b0024def0101ccf57e036619d60294fa8e03d09ae20072758c0230117e01d6d2e2016720d7002dc3370048b01901438f2203017a2801611866027d69c7005e342e02177e7d015a2caf0367d68b003af6f2005fc48c0111afea03deb17b0323970a026f370f00bb759c002ca8c40236917d02ad5aab,
  0x1f22cb03fc328000b4033b00ac096302e8b2b1013c384d01fe503802858f1a03c77ca80117a04700357bcc02855ae40199f2bb036996060364e58b00e573ee0144acf0034ca18c016cd47601bda8190012269a014991be03b3f82701c9b9d90306c9e502bf593302951d910065495b0140a97d0115166d,
  0x23d4a40034090400146b8c019eb1e1019088d9034b16c903b1c122008a5810033e82bf033dd1b00020843603a7446e02f87e47028f0d62012061f400110b6b0326cf3e00a367c00141d52e01b57b4f0014a4eb01188cbb00bc0c7c035b51ef0151eb1501b2f301031c41b50125377c0394134001ffc049,
  0x31f1e0220515000bda05c0324644202bff8ed019e01bf02efc629028671aa0242aa0c00946194000b79de02fcf0c8037fdd54011e96f500cb3e3702fdc18c01918f6c0135d6da03a9cff3026a74880015e2600278c3f602ed0ac9011fc71e03618c6500a313d1031ed99d0204a4a9013f337c01c8d13c,
  0x14524002759eb3028f81460171675001336d3b0318b24d015c608200d54566003839930354b64b0008c0ed00be626a029098730277da3002277f2c022c195d00105e0e0150d17502606938010a31150038db4103bd4842034a2d7c02a6a653026bc70d02402e5002ae627c030e7acd03612363003756ae,
  0xdcdf802acdde601b1599403b0c1dd030f60d40330db3602f2685400d22993018385910098d72300317679025f5e3800cc9b7b027c5183007c53ff01fb51c9024c0d620164b08c0270de680020c24b00300d7d008adf57013144d0015309dd015739c001a98ab50120ff7501c7b752001220ba03307113,
  0x11f8b500e116ee02d1db2a035b2c9b02d0cb82031e69bc021d904100d9de3500e5d1110210c64a0019fa1c03bba43c008faeeb00b14d7703df2c3c037d362303861da601bbac93005c745d01c3f27800015e9002875879021892fc00e2a6630375e6e700431080029ef56a035ebf79038696f700f4f783,
  0x22b7a901c192ef00fa549600e6d21303f38e8f0286e7e502688fd60043c5a80057e25901aab27a000e24df02e655100039159c035ebdce0010c6ff005bfaef0109f6fc010e09880114d9d802afc88d0032d803039cfb1d026c72790062d0fc025436010376aaea0319f379022e9c5601f6e57501f7b390,
  0xa91f40069fa9f00096abf0143ab6903c3ddf2028b24fc0383305401e9ffe702c1ee4703a24ce80023c45200bac03e03ae51b803104dd8017dbed303cfb5800314078503519a9d033610ba01b3ddeb001c3901022defe601561fe6009522d203f6b72e02f40204017be21f037e87d6031b01fb01182e6f,
  0xce001023a0a3801500fa6021b810a03207c7200d826a902c9b6670223625401ff3b5101848f800000a4bc038b9953029f263903d1150f0193ca3803f6a5fb0007b3c301ad51df01b98d4602a3dc6200152b2001de390a03031d1b00e2561c00f788ee03da3a05028514de01118e54014ea5cf03c68a88,
  0x1fda7300a692f9001992af0087df5a02df283401dce7b503c31896021e768c010709a601f36e2300055fef019d8e7a00162fbd03f0eeca0167efa8031eed8003878e5f02fada1201cd9707010a9fbd003cb44900e806020071135603ed8e9701276555032fc5a40094e381000dc31d012bfe6a01c3fc36,
  0x3304ee00a6de4101a97a04015437a40009d99b00de994100051bb300d2050802d7d08a036d432b00193d9f00659e6c00d5dae601c761ef012c70f2000064f1003f7a40019169e5038d0ee701f13c99003c3f7c01978051013a54f402a048fc00defff20349404d038a78a203ab3767001ed8cf03dd7bff,
  0x2045dd02315f7f01cbbd080060902003ce1c3602cf4229039a0994037df8b9001873c5026595ee0005b8810021bd600336df34033ebf1502b2682e037988770354874f0364067f0071ce210345499000102d8b030fa1e10362fce6015dd7530121ab36000d27cb01fa10e003985ea70259da4501849f05,
  0x137dd2003792c50242b0860151b54102d8a8bc0195331c0002a6060060b06f028110270087bf04001cd171004c6e0a02536bc900460c9c03811d7e032b4daf00eda49100c52b4c011cda8a0354ac26001dfec602a0856c029c263600e2cd8f01bb6c250214dba201fe4772034f23c402fcd52d035e7273,
  0x8fbf800e69ce8012b9fce012fb87701de3a5c025f1feb00ea2aa603184e69039d38c00382001200046da20322a8360251474e01fdc2170083368601e49a4f037624dc035f66590037b3080005ca7c001fb3dd01d7798a01387e5c00376a900375c0770024630d03f2c01d02a7e28703cc2d3e028fe36e,
  0x13ada000e7c7a02805968005b043602e5e0fc0373831c002b118b000ee6ae0237fd1401defa30001866590372b37e0046f5ae00a8592100504cb103e827aa02f9ccf7036211ca02f86ff303124d7200312f75035a6142034e01df0000c30d03c54ce6000cfe30008655e7035526980146d679006e7789,
  0x1ccb0397bc4a0010e99a02fc2442022740f602ca2be700870c210155ebb103079e8a00229cc00008624602db1a9f0027c12f01fe201f020c87420201af4d03caf8060348435a019c1daa03f4832b0014daf400a832ff0072622a03d5ed04024daa5f026b3f410301c56803c37fb4036cca8f018f256a,
  0x13ac6b004ab382006c96c4004c9525018266c9013df2530162f663017fef1500460d560377b2e50008de9c02f950f5002e4e2903132e5801c2371c0083c4580078f165018bb55402d7eb550200219f000917c9006ec4d701f8478400bc248d0066b979021bd261013e93700226eb0902b00a6d021316e3,
  0x2efaa7037592b301bde4ee027c6336024d1b5401183182025ef55a031e42eb00aaf03001240cb60026820402b4f6ad008183f0033942e50326faa60389218b02a8040f01795bc603bc6e700320e5900004e068026abb9901e0874f0351c47c017981f40260d65e02e47a3d03289a9c020e4e6a02863c04,
  0xa290e03f0033600446b6b0367b3d90369e9b1027afcd9019331d803bb84ab039983d9015359e0003f0986029421b900b9223903e9a7a500604a0f036e18a703f4a46700efcded00fbc57a0147a817000225ca03be65c603095d050045b0050268622e01ad339c0032675e036f0c5a026c209500d4b5f7,
  0x777960261bb22035e8c9501a6eb7b00b6eb640355539900bdeb490087957c00fd199102662c89003aa1bf017c989e02d31f2e0391047b025f603503c632890235dd75039827d00150acb103186a390005374e039982fe0264f803029330d1015a730800125b1502c75f1202bf6cfe0189cf8203c27032,
  0x18672600152c1502333e3d01392eac03db4b54031fc16e01cb61eb026fa1f6035ee01a03d89a290013f090007026bb03e287c602e6f7a3037f817c03fa922f0369c2fe02720a9d02409474027d81e7001c040a026c90b3029dbde9029b68690367aee6002203d401d7909a0089d68b02a741fb0323b6f3,
  0x27c903034f429102d2608b02ec392901676b7700794c7a03dc68f102cdac5a00e8496302e31b40000a9b8a028bdc0a03d2ec6000fd140001e2c62c01300f660279d6920234f0de010f867203949cf80030a8d7000a75e503a7baf00339065c01fe3fe103256e8900889f8400721c7f02c4642801cf8f84,
  0x394d1f02fa8520032e2b0003ebed9c03d99d6c01fa31fb0002ff0e00176f08030b00b1017f32ac0001986d01bd66b3016d95a201c65ec502ac366c0170e35302a5df4b02c3013b00259fce01d6fd280037b0ff003ed8ad01e88dd4031e74b7007db7d70327f590030c015803c87fd4030c47ba0062891d,
  0x36c4ce02118b35008e55a5034d5693020aee6501469acc01a812de00f7626e0128a3d80182936e00185010030acb7f019c860e037bf95601cd000a031248ec01cc6ac8034489b202519cd3008ff35600301dfe02e2738e0032662603d972d300916e7103c7a540022507bb03b74f5f018ecb6a0048a7c8,
  0xb3308024412ec01f67263014d5e6d02d2b305029b90820080867701c489c2014584f90329d5dd00088ba4004d0cb402ffffa001d13c570060f49b030924300264c2d302eea7da0071f48203387900003e589402968f2a03d3fc2803aee58b00286ab7015ea1b70142d77803a375ba00b1d16401e74501,
  0x1559ec02d508b2036affcd0322c8dc0017aea400731c94007272410013c26b017a66bf00bc8af80014b9bd02bba15a0022229b01ec17b400f4cd8a0220a0ae02d1f1fa02cf248e002cee6600344cfa000083f702ed03eb0357900401dac3bd03761d8001ab22370215d618012b4a4001fc716303b23906,
  0x31234503fd25ac0251857a03c6ac3c034f139d02eab4d2013c6aa30023b9d4003b4940030eab7a002aa4790084fddd03b557f500f4d99f019b71eb0348f716011d352e00fbce90001c608a016bf2ec00034678038f28b502bf9038010671180106b452016967420094599501b6551000e2e3040170e9b4,
  0x5ffff00a708c6025cebdc009afcc80024080e02faea06002939a40055b46702601e81019a2617002eff04011faed80335ac9e01320c11025542970256abd5031ccc8302fd7d8c011e595b01dbd5f20025c519036773880397ed27027e0e9f03ee236f01e43347022d65cc034b732c00e7300d026714f3,
  0xec6f600869103035a31ed01fd416801cb691a03799f350296d7fd009491af03413b4e03af1a79001944f20325594b03745d5c000da62000e84fc102cb2977037bd6a7014db8b300dcd82f00baa897000aeb53018ffeae00704a3502531b110271069901e686ca0096396e01ad85a80110262c01acaddc,
  0x1f10d100419e1802c809d2013ea30e0267aae7038f1150038bff1001be8bc203d62c43003b6720003e546b009e4d7901f2357701b8571b01e4110a0254e52f0356487b018ceafe0141be10009e41b50025e0da027f908d0394804a00c3baf2024373e001e909c8016535e30041f2c601b0d90b03c64591,
  0x2ec5b40260f90701ecfc4e01ce75f203bee67d02c662f103b04a6300be70a9010507ab02de92da001b2c890184d0f502b131680204d60a022973fb00b31e74017faa2d0132da3500e170d102921a56001dd075038d827a00fb282603a04e3d00f415d1000a3a9903bfca4303959d6503b318ac026af0e9,
  0x2e172a013b900d02368742039ecc8203efd32201cf340d0131da7302611150008312d602d1308b003506bc0106c4e000bcfb8703dbc68b03c2efb10282041c001102910371e967037771a1006081120014e0d801feffa00069e0d1018d05820029d82c00b4082603f36f5e017cf1c00060308201c595da,
  0x21f5c20232f3b9023faec303aa99a50341005300aa4c4902304bce016bf23a0263aeab00e0a08f002c8a3e026b647302f1271003a7ce9b0084c81e02ff630b01f972e10032f5f800ab5b6f00362d0d00026ccc007a3214020a73d403171d0c006a28eb033e2e6703f954670191a5f5010c5ed7011b03d2,
  0x16d92a02ad7601005fe565036f86ca00b529f6039746270326858d022c79cc0169b39d0090fece002a4e0501df2e340095dd28018eecea01ee20ac004331e70219573001c527120381957001f7a2a90034deb602e4041102f3894f038cb66f03aaf34e028075eb000a9778005776f800e3730e00cd3646,
  0x1056720140a4e3020ba021004c92bd012c21d8027c93d5022840d20384b9860023b15f027f37a80010c7fa02876bf503fa406101bac29b008c17fb009e8e2401ab2b2601c0d2210129f9c4034a02f70022088e03e4ce4303d8dae403b6a7b5004b92c600c05f3d02549b0800c18203017f1cd10017f335,
  0x3177c500df8ff102e4b7310097e3d9010e42c1008c0c1a009d0a5301cf09440257b807036ed236002423be03955a9301968680023f428003499bae0042f9f70213537d01b877ea0327934002a5c8e2003d5f9f01df23b10272fcff0279d68a013f08eb02afc4c702de453602e5c91b00ba3f42039f4f4d,
  0x12746203c93c550252499700aca215001a9f8201b3f124009495b7014f7aba009b90aa031c62760026627f01c63da801c5e21d0134be0901f99aaf01c5ba190246a0380239752d011f2577003396c80004923b005e772c00c94477010690f300022b78010a3fb8013d7f2903095e350028fc3b0287203b,
  0x24980002ab9c790245a6820169588a027a121201702dae03ce23e80366610b00fcf0f1034f4bd7003f60c70078779500f7caa000e7a7a2023946840068d540025156d601615257030dccd300a287f5002b493f0310382302a5d6f80287ef4a03d2ea3203f321d601eeeb5403f426dc00ddb3580141aa8a,
  0xbc896029ad3d6014825cd015d1ea402dbd3b102315dab008fd5a701ed4c3902388f0d007f77f0002eb20101444480000a54fb00b07484003f760b03546b13021ff42600f0e849018c8fbc017df74e0021df1601f22dc000a89d72001cfff8021137bb036fcc2f0070cde7035b08d40054aa20025755cf,
  0x560b903209da600534e33000f5dbe005cd91b00b8a2a002a14a4e03df00000047b4310109592300263291028de8660326f2160180942b0276d64e0335e6a20249a77c0181cd1f0306253d01dee9f50001e9ab00ec89c303a286f10278034702154792009c37c802507e17008e35e30283f41c034b6f58,
  0x1bb00902d60f060233422003323fc002e7c24d03ee448201a28d5001c3a90c02386f8e0018bf760029f4f3009daa97023a199f02aca183037df03901dc03640294607703fc60e1031143a0009aa5b30019676d01d0355201e7241901f99e8200180baf0055fc1e01f2881b01fb98370271a555008f252a,
  0x2572c7007b262300f08b4900acda5002115dd90162eec301a42f0800337a4a024730a60036400a0013f7d50365b785032eae0f00007c2a025ac9350390506d038af460000b2f3e010fe51a03472da400018dae0113be4701ea66cf02d14b8e0003ae4202616c9d01a11c8503aa52cd02b3d75303a0cd07,
  0xcb95c02f86cb403cc2cd503b0a28101e92e3f00a465ea01f6d1ff02af12c902ec7982012a450d003179d0033503d101f7ebfa02d8d25301fc8eff02cf025f01074a7603cb433c03ebadfa02a067d00001081b02552e2703078eaa0182d1710383553f01f2d7e301b3f43e00dc7def0300cb4d019a9347,
  0x15a89a03aefff200d84d99035c1c15038dab2403bfe4b70087def601f7b78a003587eb036ea3f20021d31702ac842b0282d7d603040fd8033da34000427bd30120baea0072a20c0216cfba0240d6fe003dfb15003cbf8902fa70690218ff3002cd1ed303d58bd200e706430357c43f0205f8d90223ff8d,
  0x26644a01d330e501487bda00e46e3300c3f1aa033e4c1002a41749013b4b4e01f0597c02cde9040001f2ed01ae93e00096e4b6013a5f8401857d68030b16b100b97ccd02f9dd2b02fd28a301a33e5a00121fc80088c844028733d401ac703803866b130317421d024b72500134ffa30344345e021027a9,
  0x749ce0232d17c00c18f8002d9f58c03c3cf300290f99c0268ca8002c7eb9b01dde73901a09af00027f1bd03434ad003f5738a03349dca025139c601ad57f501a54f620389860703c08dfd003a9b49001e1179015856270245fe8003871eb1022981ad00304d48010f2450019dd29f02b8a96b0299f0ed,
  0x169df602153a0800f12074039e0b7301f4029f03fdfb960396cef0040004590145fa460233a8e90017d27002cd179900117b0e017d8d8a0313a91803f897a4038109fc02911184039ebbef0112d634002af67b02f0fa20008e431f02260b6700d7d5fc012aeb33033b7c48029cd26d0369446103a0eca0,
  0x23550c03a46f34037959e20224e5fd0156281301ca9257028b0dc4000e84c402cdb16400acf9250015a2b1029e60f6010a831e0010ae24004aa0a600fcd7350243825503d7827b01941a7103195c99001c3ef6024fece2020a4e27003e4f2a0079969c00290ed70084b1d600f5056900a1647c01974ee8,
  0xcc351014fb68d002f1e9101a38c05026c5e21026f234200125dd9017f2131032a13ad038bbf4500007b30003310fb0077e82e01be9bc1008600c2002f2b9202b2c43a024511990157fa5502d67b5b0003e68e01cfc6ad03c0161801722f4b003cc1650354cf13005dacbd01e025e5039a218a009115a4,
  0x1db7e8027ffb170035d67b035c0fb000c8200600fe677d03d9552e01528d390111e6a801ff38dc001ebf0d010a64930190b80a0021bbfe03f34981016574bc03927f99016a227e02d9253d024d9d5c003bd8ec00eaaa1d03a67d87038568b603d8752b0119efb303a33cd4038f4a8f008ef6b301193be7,
  0x35ff2d003a4bf203874791006307870166528202fb1e5503c920f800d2bb9001d87f0a00e98ea90032773b00b4c99e0335b3a8011a2af500c59a950298b7790140406b024eafd7008637100028827300194ebe03da76e100f291b101f5b22303b7a97d031e13a201fd29e9039e9838017407d900c89bcf,
  0x11a0ba02ac5cd902cad0a803596b7301a40e7402673d4f01d9cc4c0235eea800adae2102b61ecc000a706301802d53014baa14002181d30356961803a4b92b02664d96027e5c6100c17896010a668a00375e3003a3942401adbd2e033a72f80220f8eb0114ba12010ed2ff0160c78f0058e0040147e30f,
  0x213d90130430c021672f502e58cbd0105330102a0eef70149fe3e03deb4200140922201eeb67800264c89024e0f6c021a2dfb02bf132502a1b58c0232b85e02f27f96000f4835004a4ebf0301a870001558c4020e280203a168e403b2ae490204aad303ff87dd00b223f80296eab4039196e0009f7d42,
  0x2fcc01019332d6018bbd17026f56e9013b9214031ff1ef0218b54301334ca4036fbb81017d978a000b17440140291200615a7200fe2a2c03e9098703358cce00190d2603533f3301def1cf01593e15002156940173f30d0110e05903b507c30133fcca02229c1200d564ae031576b30367a5b100212c6c,
  0x2faa780198a27200f0a171037fcdf6035e4588024ed43903c81bbc02beb1f70360af5b02c8582e003f580d03cc535b0301b1fa03bca2b302d34e21028c706f004a9a46010f36af0072802503efbd2300352aa401eacea00097e1c00235671701a59cca00e9f73102f131d900ba2f8d0358c765034258cd,
  0x156bdf039d6aba02ebbea00334a01800d9ab9303ffbce402bbbdf902e6c72603364fbf00b610ad0021f99b0121dd25005b0a0b001e5b17034d3ae90094209a018ec9740398f21303177f0e02c1a07e001e90f003848c5f01e278740289a06802b8c7b30146769f003074de000c642e021382a600d9b9f5,
  0x140e71017748b803f6834e0391d9d7035bc1f90090b95803d02a4200b9cb9701c5ad6e023745060024d1c1024d4b7b01b8763801d4107c00e1adc402dc39e70362715702f0be91019a5bca01fb844300195da201638757032888b1031828fe0101574003d917e9028b6ba60031214e01e1165a037154a5,
  0x25f04e0225ccf5022c1e1000e2bba6037b0a01006e2f370097e04e01c08a7000371f01014ccfdb003145bc039b4e2703d4842f0356e44c00964f8502d861f702646ef8028c636c006aafc703fb82a200184b6c0038591c01473a2702f00515014268c901c9e37c01b60ca102bcfad402b659270064ab56,
  0x3574d8038b0b9d035f06f1002630f502b442c80137716001ddbd0a02c70c0901e078a70106ae0c001e35ce003bdc67004756c60205779901a646220003726f0296d21d0148e8df03b5d02b032e2875000616a80180c69e017a957203c87a580268a787033a3b8700acf992013dd33603fd121600631019,
  0x657a02792f72012939b5026cb57b00dd7e0803efc3400061ddb1000e92ab00f0295903f5543600020ca101cb134b02f1eea70090ecde018ff83a00eff9ee03cc6cdb03ce1cd3005fbb2501bfda44000b797003a69bf2008b3ffe00113973021cb1e701935dde024b3ae601d1912c0303b08c017065ab,
  0x196a3f018f690e004e97ee01d659eb00effd6b0107ba8d0180db400063317600f7e7ec00e5fc79001fd8f300efdabc02b84f2901a752a702be513001308cec037b21cf02e5bdc50265a3d503162e890008033803e4552a0164aa4c01aa308501d2b495006ea9a3012648d60068ba2f0308460400efc90f,
  0x346c5b0228805100fd713200a842a40172e163030cdcec02d9e4f1021dfb5703a6ca260149e8cd0004a47a036982870071e33f019a5deb0269a7a303b655a901326ce30271cbe600ecbe900348ae220035e26a036228be0005b82902cddad3036d754a006e11970161ef4a009ecb25038f4b6e018d8d74,
  0x2b543d03e73224003bd07201f7b2ef00b9bb6a03ad470e0081a1bd03b6378101e0294601ed306f00352d5302d619a303d3e79d02dab434011903e900e1057e02f25b6c03abb69903aeaf6801a04999003fd4950289e72203f9450502216e4e005fe8a20244dc8e01f0e63301eeceae029cf586010904c8,
  0x1db17503ff8e7102237b1001e60c2503a6b0f0021cba5501512f9f02ffb28d007c0c9200c346cf00173e0f03e8d09e015945da016af2b603908a3302b20bc901fc382b038d7944026e306c0096add7000753c30226e8280220ab32015821f602f03c2d013dd4fa0279bf160258392f02eb63fa01177d35,
  0x1a72310016784c0074ff6d00f8a221009f634301e84c9403b8c2e2037f92ca02f4ff9c00307eae002ce50c02351431023163dd0216e2f200663784008ef5760197c097023953a9037f7b9b02d685f1003a424300f654da00a2f49c0397025702e3254602e6f543003296a103bf9ba10021dfcc01e957fd,
  0x12dfa90131370700068feb0281369c0202625e00f479a70271f3260190709c0376b54103454b8c003b4dd701c5b33f024bf33d0147628400974810039fa65103df24ed00d783c2022f6604037516b700288bf903fa9ae101e972f4005666620132957e038432cd01d7fd2b023e88d6017c1edd01193cd6,
  0x24622a02d8c0830257fdcc010ddc3b025e63780179ad3103e235a800d18f6403802b940023cdde00184e9c013f5b2c01ab0db0011303d5013e84e000dae692031308dd002d943c0302816b003c80f3003538c4017dfceb019b79d4038b97fe0206f505012b5c3f020067f402cae1b003a1c0d401f7b6bf,
  0x226dbb03134d0f009fd04801563b9300fad52f02a5814703aa0dda027d0fb0025f957602193479003666d2007bc74a036d5e29006d37110191e45203d4743a03d824b3037588d803be560a0366ae81001bb21c01c74207005f7fcd02a4f1b0024ed0e50096b0fd01340782037963890273ede700326707,
  0x4cde4022706f40115369d00c0f2dd007e5f68011673160365122401bb5bd50009b8980058c103003f49e202d74a610092f947038da0e400bd5cb402e63e5b033d01080166b58e004e462103faa134001a81f303ba239b03438b6303364422009cbea301a2b03601c0f8ec03fb518c01f4f214018267c0,
  0x92e66020e2f09003f4ef1010eaebe02273b6b02f49e5400f9ae5c016baf4301617a2d01f6aa54001e0af4022a596900b8dd4a03314cf702462f4c0031e14a037abead008c2ef502210c45035caa4d0021995b006a7e72011f9daf00a3919001231f3303140a5403211cbf0012390c02b4379003cbc910,
  0x2b638503972c5601f60ca7022c0fbb00b6606e03771ad2028836af03d9867a0158657501f876f60021876c0245907d018584420396d1d70159c64802c8d1510334c6eb017783b901d4f47103e0533b001b179e00f40b4d01dc5ee402b74917012b93d00244d84403e2d87e000a87b90117df280032399b,
  0xda2840012ced8034b47a8017e513e032dfa29038b2adb02772fe50135f0590022fe17004eeed80007701d003a94570284a6a501427632022878c60143bcdc015d573e01b726ce0379d1f102f94ee40009c4fd02ee35da034d99290297964901b17efc027d63af01afed0002eb62dd01c11b9502d2740a,
  0x5bbdb01ab4f2902ba7041022dda9a03f944c002f500da03fe061b00056ae3033f0a2c03938f3d0030b9d901b56d1503fb850d015f7c810272bd93011f180d03db6f0303dc604800f950c3022e9095003b434f03eae56300f0befd01ccba5401b9a252029171c002837a8a03a51da0030dc87702a969ab,
  0xdf573003c667c0055cb88021c98440070dec301ff45bd00bdc5d80287872c01556923001e87290019345702f89b6900730cad01ef8751038cf6f302b821d0000cd4c401f42bfe019dbd0c026f474f00059e3500d4a3670252667400b2107d038d860201714e3e010fe79d01e52d89024d2c0a036563c1,
  0xc4d5c0289255a03802bbc02b6dcb700501f300164284201ef49210226b0b9001c03bd02ceaeb2003cd0a003623de7000fb04a01abfc0603d480fd00c0cacf025afb3200175383035fd6a3004c337600096af801b2320003253ea40349b7c903ab098901a7ab9600bcf2b4002875260086e701005d07b4,
  0x1b87a2014aa90c0084b3db01c24bad01ef4643017b32d300ee1985037543f501d868c300031c63003e6a8d03c896120155d4ae01a4692103088443022752990053ef0e0328d49700bceeeb009573d40011c6d901b66422011a8262012b116d03e859240374ed9c0131419302d5517301c909c901514c68,
  0x24696c009d4f8800df541c0196c94f01c34f4d006f5bd403f981ac02defddb00002874037f603d002a5ac90231bbd902cedc43006bb27c020f87a303bfb6fb024ab8c50327c42b00baba7c03e4783c002392e501e83b6a02d178bb012a706501c77e7b02967de3000eaa7902a8ff59028c6cd203b06e53,
  0x2e6d7803f58a89015bf831003dcd4c000fdd7b0284b66d03cd325b0335b31a0360fcca0143285e00022be503905cde03b1dc8b027ca0b4017cecbb02b077c301a63b7900a2f43900c2bc9703841842001f279d00cae8ce03cf354500e18dee03970d0d03ce8c76030b1d3f0295e812009a726402f3aeb9,
  0x9a2ba03cbdf06007dec2400a2423e0002e6ff030763810067d241037445ac0131ad6a01c281fe000d302800bd5c8003f8d21b0371f48d03cc79c800b070de0126b3120002dc32034d97cc0336d1b8003683d0005da41b03ade931030ff0e4013461b0015ce08900842041006ae63c00694a2602ccc993,
  0x3ed5a901d7efa003e3ef9b01a4f3e800d8a055037254e50352c29502b7d78702c02c9d002d64380026cb6e002b10c80347466a01990e540190b82a03f371bc0205363a020900f400b23e5f01d826ef0035e1490037d688021458f40369da9c005d0f6400f0f19101a7e4350108f2430274c02703f45867,
  0x2e995d026e82880230d45e03cc7c3f00d5364c01573cb6035249b5010a0131021333e6025021a8003fd94601ac436601a4aeec03f72c840279ae8c02ac10250079995f018d73be02751a53029bb983001e0f5901313f3401faae23039d7d660016325000c0905103fe63af00a356300194926103ef8230,
  0x200132039a0154036ec43101d5aeb60335a380003f566e013f25ce03c1540c01ddcce7005f9bda00308d9601c41feb00484b6c005a84f402ad6bfa03f63678035a29fc02a65b7900494bc001174b54003eb2d7015607a7019a7c0f03e0f90d01098f7e0030bf250136533e01d8aa0c035ca37600d98949,
  0x24573021c8b40024afe54004453c101c3c29503db69d60374a5cd01e1ef92031980960354ef8d001f259c028d42db0212325201cb811b02135dcf001773fe00f68583023df848033f8997031707f10036df260073517f01e1075201bc4c0803162f7803ecadf303056c3502c02686012704f0006d86c8,
  0x296e5e035857dc036afe0401f3de610312ca4900a8a4de011902df0326ac71020841ba02dae0a9002322ad027ec87f034aa01e01a2ced6023391d40316cba00062d92c006286f3038ea408031296f2000d98f3034c069001e115c70212310d010c02d6034d54d202357a3b0017e84f0322315c02b9dcaf,
  0x35a77f016bb38d0243a16000391e3d01ffa11401e06396024645df0340843403acdf3001a984e6001c9ad503144f0f01be123002d01ec20304a06002638fd901491f03008f7f5200f176aa017273a70000f67600a9fee502ab532d02102813030036d9000454e903d0b1e5036c299803ac89cb026fbe84,
  0x35074025c9dfb00daf81201521f6f02f2077c01695fa200b304fd02f05c7e03c23e8d024b56df000462c4001dc78b028f882201e1b7080000446d00a0ecf30380d93202a7d7c902935f7902391ca200019f8e014d00d902ab83b903dec699008b55e30282044a00e412dd0390f443037e2cbd0279065f,
  0x319cbd01500f6b02a4e3fc0047761703f8c9d4031e508e005e65130096e30600d9ca7e018c7f1a00179cc9028ef99600e08b790192a929038b2eb102b80df3034bf9940331620b00bf951d030a22de0024abd701805777021f1a8f03262fa5006d979203222c69002ac6ac0385c5f503d9933a0146874a,
  0x26146a01f0abb700e785af0187840a03c6748f014c2ecb0206090f0233253e01ebf05b01cbb745000a82870087f67003cf091d00b7892e03962eeb01818fa402a7d94d03784227024b309a02d0ade6000b8b9400c5ca800342e4ad00f8c3cc027456f3039228fe014e2e4003676f3500ca3cae016aa01a,
  0x21d56703d499ff00ce550d006ca6bd0169ef3802a505ff03e37eec00c861a8021c930d013a558c001c89900242c0f201fdd90c0020fdb1036ce43e02d917ef01b731a301c24087002ee1b2035249140034453100145d5103b38909017b3f4d0232f2e7020ada87033b724201e4717a02b7072802b0186f,
  0x536e402bb4b9a03a8ca2f01221c0003f5a846033db956022b77440194797d0391f85700f399cb002d053500fa112b01eae5a302f4a5ec03e2600d03b6c04f0246c26202a2649d03e54f7f00cdd0e70009e28602f5f4cb0316b91c02e7bb6700c73f8202cd948901d68a2b0297c86900b9b9570357926b,
  0x3ff71b02c79b2000e5591f0292911e039d04630364e4b600bd84d2037fefcf03ffed7e008abe02003efac5026d4c0f01f248d30372f71900d85bbb0314189f0040990102e616ef01f9494001f3a72a000b0f4c02e4500202a2923902434d02009f635f028d29ec003b1fd002a8ab8f02ebefc00146051e,
  0x35484d02327f7e01a9c513035ee7fb0322de820256500501d1c6a00274dcc40322da5f00b7fe49000977260256cd0a00bc366702f29cdd0276680f009586ab01b891e700ebfa48002121a60302889b001877d9008eaad10310c9f102a5884600b1904d0293ca1f033de93002ea4bf701439159038f1d01,
  0x152e1201c5a8fb0174ca0c00d8fce803407e300343c5cf038623800352e5ef00366d6e020392b50004867e0185d2ea025153e702a2c66e012cc575016cfc110036471400cd4c7f0040592a029417490005d52d001af39b01795084027578ef03790e3d00ef859b00f57d2201568639012eb64602db62be,
  0x1315da0333a0ee036c2d07031dc22302d113ed001092f3037abd4c00fee6d30282c7380082734c0002d48900c3252d01a4b3b60356dd9b011d3a9501250f89032926c00142200e0161b04902c6e7f70005ea1a01156d480328c42a0229d7ce01cba8bb02d2b52600e8f73c032bfa88009b98ec025e69be,
  0x32fa98036c8ba102400b12001cf70a0250921b02af1d5900ce8f3d010ca27c01c7c89900df069e003183b2039f277e01f61b74017231e402bed7d102b9a54b01a66e7a036559280129120b01599167000b67b403b0a15701634118031f9a8b00dad403028738d5021deca602e316b5020d8e7201396249,
  0xc47cc031f207303444e0403f7aa3100b2b3a3006b7e6301af6fec0282a98c028cf76d0263ac310019ac040261a36203d8833b03bc83900262171301d9c5b003458ee401bce1d90358ec5203c8bb8e002b13540370517801ac9af200d59f6c02424d7a01550cb0003c0df7014931d301ab574d03f709e5,
  0x19767b00945f81029bcd78012128b10179718101d61617013edeb20076851a02336ada0195775f00204f980091edf503ec0cdf031aa4080006add9039223ca01bb84e1017f7f3802fe436f0230b91c00027d31037734b002a72d7f03ee63bd01b50e2d02394575003dfc9403be2d75024b27f601df93df,
  0x3fc4f3027745ae028bbd1e0276ac8c00175c300003e47f006b0337011704ff012b8af7012e03fe00051aac006afa0b020935cc02a534fc015148ef0211f5f6001bae5502ee57560338a8db00d3348b00260f4f00d814a000edae5c03d5ed43034842300087baf00258cda102d05fcc01ffbdf50023159c,
  0x18241b013a5c9200fa588b033686d5030fe69a011ba68f0262a5060330041e0123d0ae00d29556002443850340509d00e05b8c0188ea23026914f10179992400d1246f015b1778006d34ad00be84130003807d027486c70107e80401fac6950103335302e2a4670123b42101c3f8c501a228410211dff4,
  0x16d825000d7e6403f2744d01e4a52f007f73a701572c5c029503da01d66b06029a16950093eb53001f78a8028d877902d28cb202cbf41c027c6ce3032a0eca03ace9db01acb5b402d4bc1003963b5d003dfaf900e702110032e42500b9d55d001d460500422fe500204e6603dd0b7b03a271240396a140,
  0x31910f031fd882039021a20117adeb00cc66e4038a484f00f2d976014d37dc01dc55d000d519ae002bc8cc01c74017001679b101d0b85400672eb1018da3470235a29b033c315e030d1c6e0365ea14000f322c007815b6038a89310045283a0365bf5b037e223a03f662740011301100a9b7ee01053d48,
  0x166d93009435530394fddc02e2c66901f4f29a02a154ea002c87e201873e5a0162bfcd0202d8f6003671dc00e6f2d30372fe9d02ba79c103792a0a0101d7c30301475902ec8a2e018dec9c018c82970024e6f201c68cc203e4212200304819023248430101fb8103a9e88f00d00b9101768af70061ce3a,
  0x3692960103de7d010f82630253ee9b008a75ec02bf20ac0139159e0327f29200346e5800cf7d0800096477015d1952033490420197133f0293adb701d4992c003bd79200d7921a01433fa6032b81c40035e523026442fe01fbdf7c020bb04901572a1000ea0870006cdf02012a992c00c9325101b2f03f,
  0x1e593d00530f7703c01867010579de00cd039f00357ad302e909e40264fe3c013db86700bf2502001a873600a403d80102687000b75f790106c58a012fc3c4012e717400cab6b903f788c400a2a21a00153686019ebcdb022e6dd903f4f2e5016af9e3005669430118e9d9006ea64201c88d8a0336e259,
  0x1ad15b01c917f901cfdea2021206f102d7b5f803e2883f01e6722d00ca14190042ffec00bb1ce8003d017f00e8216d02857d910159afaa00f415ea01f7ac43038519b2016121e201b102df0033488b000d8c46033dfa730040039c01892d1c00cbb84c00f19ec4030e9ed700b18fef02f2117e03f5c548,
  0x8159b00a2b81301c8d2040249c79303eed4f9022f128303fbd3be01f3e189004fa0f10316ff5a0018e0e5037caee6037e43760177d953012af63d02517a04030aaac5012216b3000e048f027cf315000e08a802055e5b0367af0c02a149e0037f615600961290017223230303f42e03b19b600127b927,
  0x38166503cf075103de65630266e69d0025df60001b1ca40014cd9201a7c06203768cd0014d611a0037a414016a5f1d0273614b024ef63300598ac702378bd401af5ac20107180202cb5600020c03b400365c0d01fe3f52028946df0237c83202ce6de502f8402a0109264002d6594403d2b59c023bc1df,
  0x1b22e700e658cd004f2ca40281a337028ef0f6001a92c301e4fb75035279cd01a9e551030996700018b39e0031715202fa097c01167d8503a57463006cce1602925b6d0297d8bc0261d56800cddae80036bad702e2dae100087d3d007e813001651fa10225c5c803f9bc8701c6f183038a2e0c007532a3,
  0x1e80ff00a569b50016468301a3225d018030e100a2ad2b02445dde0299b3e20233f50903d3252100007ed400798f60012715c4024e4924009df01f01d1a40a0290d53801ca67f603742e3700a228f5000cc37d02f0ac4c01ab101d02ae2e5702cbfc8800f87fb003e2c87a00709c470255d88b004e8f5c,
  0x31411303aea20c020628fd01e17dc50090289002d4a0f9015d11a802d8b4ab01dc88440169950c002b45c7029ccf18020920f3028b903b009948bd027fee7603ed39930170df65004ce7ea03f92b70001057510335ef3000714d9e005cc59a034a002a01e781770000732301dec6860094903e02cf8646,
  0x2f3722009cb5fa0029974b00af2fc60047142b0161fbd202a7fef70140b5830132ef3903ce971500032edb03cc54e000930879037ea0040210da3c03af49c402fc958c0283b32c00aca3fc035bd8a1000f730a00c2656303cc04930049019502469c850172fc9e00c6dee40347b6ac038590c301ab0ef7,
  0x16d4ce02c560b600ea9e1f0272c8cb00080e5502c3d3b30236e1b0008b097a01a94cbb00cced4c0023e90200b91e8a008c25fe02cb02960051d9a9015e9ae7020607f4030f6ff1033554d7035d589800352f3f01dc8cad0239e7d60288b8c2012355ae0385cbdf01f68ef30064b4a5003e55ea0259fb92,
  0x2e3f8a0278f31d0251d82c01d9d7640053f02d018da35d01903b7303bbc7cd03631345014975c50035446e022bcc4d034f0be7033c575002d57ae40238a50f02b2b39201de096f015c683300488137001859e8028a35660135c29e0195beb901a5343d015e86c403ef73dc00b9fb5f035e5283038cc726,
  0x751b9010ad6e600c313a100de80c6022d4871009098a102e355a801230dd20224cd91016b874a001288ce005001910311231800333ec200e79fe201871b1f01f31941009a7c0b0262a95e01e14ea30027715f03d0629803e13f5e03e0bb9c0337d79c0018959101db97260344000c0151e2370366a13f,
  0x2b010c033e6d87038a88af005f937b028b50b70398feb703e11dd6020873bb02d6b644037a3bcb0023d3b402f429af01ef90ed0038626503f0ca5401fb11e80095e2a80049c682021135cf00672cc7000738a6026df04b029bc0c80139e4d20375f774020a5307024302870357a23102a529c2002d472e,
  0xeb895020c1a530261654b0152068f02fafafc006aec7d03b8d2fe0077eb670125051a036f4fd00003f99901d50b0500517f81003e28840305278701c3a56d002140a7011bd3e802eb3e2101ab20fd001feb11022d2fc60157e8c80348dd50021be80b01f7ff4201e6793a00e1fc44027dc98b033accab,
  0x2a2704000e40b10177ede3021002ea027877a6023562530346e706021ead4700e0da89004b9005001d3eef018d40d50132928e0056113b03c8aa61026c81ce00cba361018b0c570291f87001cae132002e370101aaa42801e87cb30024c446000976310319fa4c03fe015f0068491201b89e4c008f7d76]

/-- secp256k1.go:10, serialized bytes 61440 to 92159. -/
def tableRow2 : List Nat := [
  0x0,
  0x25c48a024231dc02373783005bbbe00187bc6b00c0434d0278686003c496cd0393354e03e712a0001465270309c82303481099019920b302e3133402c06cad02e9c2720040f7b203c783490270adf3002c5cc601ed325200de7a8303cae42402e1f96c006170e902ea66db03ab547b01e33e8400985c19,
  0x9937f03adf8220127303201f280bb02ba64c501dbcaf802d1cb9103deba6902096da8005b3f5b003801f501ae33d00319457f002580de00c812e9028b6cf30387bad8005b746e0189b03400adbcde00343919014e7cf10232ea46016e799f0126f7bd0032b0a403744f7301254853029eff9c0045f24a,
  0xe94fc013cd97400d15dcb00704f17026555820249bfda03b8c5a202088fe401c6bf64015f85c3002e09ad016415ae02fe3143029af2ec03e6431e01cb2e31012ee8f201941048005f6047026494de0014f7e503db9c8e01a82af4000bbfc5030a81a20060921d019f0543015fd4c6018ffc9402a5e3c2,
  0x3ae44d00c62bf5035b77c303f7816203b9bddf0306765d02aa6f5800d5aa0a03a61fbf025f534c001c66220097ff8003375316007e71df0379738f0132592603a3d4b301295d4401191c700204a4de00080d4b0149b7bf00ac9ec102809986008ec8d201972b840034a382015825f70372adde00597a00,
  0x3359730008ea850373879801cd0540022a08ea0072bdc4029afcb401ce34720176a4b9035c7c93001093b7025923ab0086699602b52edc014b1a8f00fc54fa03927e3e02d974290143fed101ad4539001db06801d09b7700da333702f0abfc037c152902edb249007038be00d81c7101d6ccef03681c38,
  0x3cbfa7008963630123aeba01cf1d770061bf2c033f1221039b123303069f1a03b8d01e01b2f1ab0036c5620309ed0903b9b41c027bfe3f010ddb2303d74d4c006c2a6d015fcf5902ffb6e20207fc74000f582c0265578d01dade2d0208bd2903954b920355a15801b8b66e0145fa38033793b0025fb4f7,
  0x177d67020df84800b0f7500051cf4c00f5ca7601389189038447bf023059d903bf688b0029eceb000146e2022a17c3004ecb4302ddca8d03ef59bc0375ced002661733005e7a4e0215c0c902759294002d54bb03f9dc2b0021677d02581b1b0048fc0100ee5d8600d2ef6d03a18803020ea48600e2dc1d,
  0x23365f0357df640041753101990ca601558eac01139396018d6977006651c10385887a01108b1d000e2f4a01f5085c006366f4001241a103f78a6903079a700275886002401bca02b8244a032ac8a60029226e0383b44a008cc3ad03f904f000cd37f30034f3c5030045250229e09b0384a4b001b7aa72,
  0x38d16500fda739031f9e3600fa234d03705279008ae605017e794d022901420097922800dfc39c003f9b6402f3aa4101a272040250f5b800c0ce3d00c589eb002dfe9d03c1b75c0238b6ed02fde21400142a2302ed258100d867b6016d5ac601f99cd000fce5610175acc601ace5d1009bcc80014bc01b,
  0x3dbfa60108ee9f01b4487e012dd88802a834de00a78cd902340297023cb1e9028a615d0099618a0018779f00e2706f02170e0e03e13212033202d502ea3dd603633f6901e28c1b000e75d70164b76c0037ec1301dea7ab00e3a80400b07cde038e0b8801444ef403609ac903a243f5032fbbd50296ad78,
  0x3ceeaf010fbb3f00205c0c025e40ef02282e1f00a0fb7b010cbf9003cfa2080295c46e013282fd003040b501a91d650119c0f70161569f02a489b0024d8ef002c194980306f5a50023ada80240dd8f0031e7f0020e9fa80055e2170174ff8d02a086b7002a8bdd0244f2ab017491e503d3e61b03dd1ab5,
  0xcd54000279457026a8a0c01593c2b02e7ec1f0037e3fc030011e401b5d766024dcf2301d2cd1c002eb5c201823d660261cbd4017ec7f2025861930329a0b403f2412f027835e000def2ce029a24ca003c5200021dd5090160267401f5e3f8017d491501f0138c024f173103f0c98a00e9f38b01aab7ea,
  0x13460203052afe00203b140140f00e033b579f02d565ec03c7ab6901ffada000fa55eb0224a5880005fdbc00c4a7a603b70756036fa74e026e3cc60214cbc601a8fb9500b8f0910268aa780135c317001146df0235aa94012660f90183b764025f20640112c838027002ec02fbbdaa02278197019a1152,
  0x26e31300df8c2300d7efbe01dc1bd101912da901d63b030153d956026b8f11005784f303c9f88f001455bc0134915800c5085d022f6ab402c7c0f6037a4d3d002d02e302dd46fb02829fc301225f26001f51340345ce2d03a8ef7601476b2a009da8f400164657002ac10503a7ab6c01f6b29003856d8b,
  0x2f6fc603fcb0f3006898e40348e84d024defc102de660d00956715036906a1012d6afa014ddb4e00248a65019bfa51028add8701310bc4025d7ebb009ce80f03c532e40278b51402800959016233c7003733b9022bc16502c04dcd00a9b453032cfab6016cbbde004e207002af3ca8035f8c9a00df37ce,
  0x363cea02697859007fbb560274eb17012f6ec30061c24201e9bf5202bb3a7600ac265201a25746002275d00068d4b9036d4ad8007caba6025f35cf012a3c7d0050c045021ddbf800251adf02074bb00020e458016f58a701e285a203e4061b0333fb5d03cd9a1601975bdb02fbdf9c02474e96008f4d87,
  0x36cc39027a631f03f694d802dbe73802d5777d00385d6a025ad2c10138774800dcf1b901816da60037845c0068e75e0087bd2402960f1402b8c95602d0bc3c0352d2b303ec064e036686f7038d33ea003f961f0215969c03d00f8903e613050258300801d489a00210e22e0049abfa028c940002328894,
  0x164587014bd39502738b9100cd9d8201f4374403071dbd00435635036652c402251b5603727441003a2494013dd69301d6aa92019e9ada016a4285008406fc038cafa0009e565e00ddc520006b06940014a65d01137d81026203aa01abc21802b21db20127f00e033b3c3501f9eb20008e9c1901bd5228,
  0x3805680242370f02ee7b7f0014188301185b9f014b8b8401a56615019cf1630173415800aa130c0018564d01b2d2d8030b8ab7012e844c00ef190b031aa77d0161671a03c0d782033d88bb03912d88003534250173575f01177e6403ff4ab001d21eb8018deefe031f74cd00bc59b303ea247403d76dce,
  0x2151002daa776036a7e5a03fe6cfc003689cd024b547e034f7a0902a7e18d03230118038413f0003cf7e101dd8ac802972a7101036434019d04ec00114f7103c49cdb005fd4e7019b766a032bbcaa0010aa0601aac56203e9439e014c704c0086b82c005b6c4903c827180301439a017a3e3e010c4365,
  0x3235f001a5f29e015e6733012a2625020fccc203eca55a0329496202f6decc02147a5700c92ffb001f416c01ee695903ca2e58015111d503980a410003d63400af6676025a67fb01eccb2e00d1b298003096d600ff98ba0028373b02d92e7402c8eb7801ae6f4f03a08e6e030cdc4e002a556d003fbeb2,
  0xb93a30069d0c601c0f3cf0326d2ad024c8fd4037caed303bc22d301529a2001eb86a2032e39330035ca5400e35ee50281987e00abd7e5013acff2005bdddd01e0936e03d314670138782201efe0f90037132601a0ec6f02bb31ba00df7b95014df5c9031a52ba029b5dd40122e92b0056839303edc6bc,
  0xc9fd0004afef300d17ed202cfe4b800078b8d01e438fc00e4e5d303069a9f038647ec02bc901f0011cbe602f38451036b8d5502d814e10397a01c0039a7cb016146d102fc471d009560f900545739000dde9502d7abbe014e7f0a023f7b6601d69ea90189863900fb250403aca7c7014418c6009d8439,
  0x214331026bcd14031a0a1000d7b87200726c9601721f7c01bacd2e02feb317025d52bb023e6234003d7d8f010a34df019c17d601cdd019000e714f01ce762503fa01d502594d84004ce19b011fee6c003dcb4800702def03afd2ab00fe9efe015ad7fc02950ac30268040700a8971b01ffe2c100318792,
  0x38762a02181fb503c03b800245459d02cc0b66012dfa8d018bea0401a2e28502d8166001301c7a002e145a03f9c73102ce00d303ef2e660346a4d703e06f6201c1ec2700c6826000446f5c03436b000022928a03ec0f160219531000724694023ebb4902153a9a00e436720396075b031b8c1a01ef0af9,
  0xea05703c25335026a19990327768b02f9200901a94469013005cb037c68db030560f4002b30b700313f33038f033e009271ac01c4b2c0000fa0e5024243300332955c0106da6502c9b5700253160f000f9d71000084fc0219f89b0028d42300aadb7301899ad002cdbb1a03b258b602da7748037aa12e,
  0x3a5b9f00f4567f00115f44026d5f480286e3e4026571d9033dff5f0394dcf6017a03ef00b86c1c0020a9b701ca1f9c01655b0e01e5cfa60025eaa1000114cf02acd9e601bf8b0202c83410010351af0006cb7003882bfe018d62bf0310c19a021a69870117902102c409980161d00c03b2e5bd01274934,
  0xfc035016b450803004c5c02421c430106d9330327a9df030212cd01886275004aad2d038f1f4d001641a3038afb9b00c2108e0043bf5d01f78bc40038dfc401b7dd340292d9b003ef461a014122c5003c83a8001c572b01fa3b8a024eca0702361a2503307a68007adb3501a1a32600254310025f5a29,
  0x39e2af01a98a930225b7820109cd5a01ae432102bdea1300cfc46301b0c19900f1443102e47a89000f6d01037b8530026bb98d028bc62b012c228f0239f41703b6543703217fc1026440a6014ed098000eca250377529f01815199026cbeb90399f3c40125e26100fc225e021b517d01d5b6d603a97600,
  0x34820c01e70b5d004e094201c66781006868e1014a24410280d55d02883c7300a7dba60254163e000db93d0220fe23015bd98a0247ec5b03667d18014d2ac302eb583d02e21e68019f6a3101fe57ca002fd163010fb0de002948a302252abc0216845803e3fdd600d063840071d37400714e3c0336eb0f,
  0x20f4ee02dc3dec0311606801e76f23002aa96b004371a300f4c16200664a0a02d825e8038f30b7000c3f1b02d3a5530323d84402f3004a03cfb6c001f6b97f027e75da0059ab0b0344e1d200a57a16001ca33b02d2225f012862ec01e5390c023e420f03bb92de0042530c0258e4e701cbf8a700c09ebb,
  0x338e60037182140372aaa701d23d4f023ca39c014879290137acc303eed9d70123762601bf14c20024924b00f7f4a503340f1603670ceb036a1680006c2d550299970800a8209c03477e1301f1b772002fa516013eeaf00175ef0103bfb1d7021fd38c004fd64703c91eac02db6bab02fa352f003e5a93,
  0x1c2f6800a2e87403195241003c961f0372a517019c1bf002c0884502fdeb5a0163eb4103201f12001992f001fba8c60156eadf02b623ff00a376dd0206a14400b5931a00b8649503850b8903df8e74002bb019006039ad00ec48a602ea6fba03d851e7039491ef024703e70209bd01036de476012ae703,
  0xb76b002f2d44403121736006da0d001e737a303ec541a032eb25703091ebf0204962e002a21f0003944fb01e943bf00c6a66200a05a8b03be8320029ae8150062f1f3006780ba0148d2ed0238c22f00314db702ffd375000be34302513dcc01748c2e031f8219018563b7039bf5830219767102e09a6f,
  0x3a8521023edfab0240630e02c86518007ea26a038fd1fc03bb2c78033444a401c99aa8036d22ca003e2e6f028bb24b02f3eb7403aaf6a1016a577d01076c8502bb07ec03d8eed201abf4a10291848d0007cb0c024e6b1600aeed62006c79c6004df12003b6150c0323f7a503edb0ed02b52bd000e5623d,
  0x17425c01de83260245d3e20144906002942b4002f951e300467f4000ac70b002cf40dc034c71aa0020f66b01bc83b902b50b3603947128009e6e120203b84b03e882b2030b06a5005cee4701846bc9002aae140017a54e012f4dfc018291a001ab4690021059c9015a3b360248dd11013ff22b025ce2ef,
  0xa40790337566d0332e49702906e8303f846b6023389c6000a35720365201900c831e4037ade87002dfccd031da4bb019993ca02cf1d620380c200012b0306029ec4d401368645034ed3a703f687da002167f300e95cee0174360e0173ffdf035a76ee03fbc6c101396926016058c401b1278f0027a014,
  0x200f6f00639e5801d4e57d02356791012ed5d002cb781e02eb27c902ee6e90004b5c670248549c0002b357027b83ac024add1803bd97e10368614603eda0560321bc1902fcbc720165a1e4011ff545003e2d17024c634102ff24f50022fe5201c12f4a02809f7500afe5ad03fba41d031c845003b310ec,
  0x4f57200a8df4902119a7c02ee1982028392ca02e942dd0111b54f00a2caf5019c93af0287a0b60033a0d5032fcd07015266b303d8f025026837610347e55600f9bbe40395940301b17ced01228a62001b1ccf02f29ca4026ca4be016e36fa01ecdc8c0020a4f100a61a810149d585010256c9024ed87f,
  0x206a7d008fd16003d8621c01be76fc037d65cc036e461802fbc0af034608d5024355aa0192c9ec003305b60228556b02bcfafe01ad19820239b7b7020a08b800c87a7f01383a6b00b8962602a464e800187c69023bb73b00a2230d01a3bed0018ffd920277aeed029f4e9203e2aeca02504ea7019588d2,
  0x1aa565039841c101a31ff100ef412602fc2f7a03cb5795006337aa007cdc6502240909032cb3f8003b130b006878b803d3cccd03296cd500677ea802c1027700ed75f201504a1c01ba2fc103c15df200171b8100661b1501dfab9c02d5d26a001d1e5303d6d49301cd67910045ff68000285e1011b3151,
  0x34d579026a1f5902bc680d01c44f370114807a02b734f0013e0cf2035ecc52007a02ae02fd5769000b7adb02d8ab43013b68e6027c4ced00fae9f1005ecb78014885c903c4ba4d03b22c3b0277f4a20014edc2011f6f070030ed1703305e3102aa83490393399402df1631003b229703502ec701f57342,
  0x20235401f40152007031de031ce49f005ee58700e0ca1d01777b4003a47f530188a9cb035edc92003e7e940153a472024f0b4f0043ebfd0262e30b03e2e59002079ff202051e720101c65003706b050031a6830035a35403cfe4ba00a39bc002c04c0503996240022cbf38026d291803af6259021fd8f2,
  0x336437021fae8502a55fe401c0d03401332cfd0372c8d9022e164602e2d44101d2adf80054a8130018e6fc0155206100fb354602041c2603f5575703c10b2f02e1cc1b0313e929020364bc037899280039478a03fcc20b00e5ace202fb6055033a9d1d0165f0f20100b05b03e69de900ef0d2c01b96e67,
  0x210b780158b48702b916230072365603fd8108030dedc9033afec9029dcad9019bb46d02e0231c001cab89023036a60193ce040074b1ef019bf56801c0133f02876b8603355de203bc36b20248694c0029a803039bba200201ebb6025893ac039e22e802fd5106030fb51f034190de00b486f800364160,
  0x3f24a3013aca4600135cf400a4495f022b939d036175eb02a07906029baeed0375ce6e0031039d0006e41901130964029ac9090243fc8600c0a82f0330ffbb03fa6f3501757b0f03a5e13d000cb4c7001e11f6011c6e10007e89b4013a236102306f4b0307757100751dbd0313032200b1bf5e01685886,
  0x2312ee0003846500b87c690075e75d010f1697031d9c2b011f858600eeb24703572ff8039010f70031d5de02df018c0132d47703f395d302401ac40195466e00325f7000f65b3b02b99d2202aae886000a8035009130ff00d6710e014c6479039810ef02f6ca490187977f024b0db0024b16710361697c,
  0x3e107c01de2c8100572c4e03fc1dcf00df014c035c7dd000f2827a027af32300c3602502655b1b00281ffd00c66e33028f086d039785e4000e56ac0136f33d0326e90c03584d050207e92b014f1157003331bc028a9eb3036101720364ce4001477b43008709410143a070015fcc1403e0a6ff02f53f39,
  0x2a7f5800558dc002e5ee3501ad0694023d205d02edcb9e00b413e00082484c03e8859c0133d4bf0027141e01b25bd003c49f5a03f18bb70196de4901f147bc0143ebd40102b5f8035ddb1500db07e700379ec602938dab01d9d8c602f77008005d990c01ce6988012f77c300ed255501754ea9025c13ba,
  0x1621e600d64ebd016ce39f017dce1d0145357500b155a6012f8ebd00e1daa001167cc900fe5911001dd16902f6043603cc0f12027c117d01b2dbaa0343f49b025ae358002b52d900b2f7a60033e5d90031ffad01f0b7eb009e730f0054dae6009eaa810025d4ed01b412d6035e558e0203d0a3027ee08f,
  0x1f083b0327c7fb0114e7180268906901a88fdb020f403000611bd1010bb99c027a136c0108c60900086162035e880e03efe081027e13490132810803ff64550332178c02e9050b0275903c0282e52f003f18e800a848d101117349028a87780080a5820248a80c0174532503fe3e3102ba19d0018fc634,
  0x2542740281a86a01e602f50147ea1a022b103a026c271400761e7d03b27ff702c76e7202f23e73002e68b20287789301ed7f0802b6edd901bd435200e61d2f016e262002ce08340231a44f032e9ba100395bdc02763dd6031ddb8e0379f2ee03de5b1d029f100d00a9f7770169a1670267d04c0261abff,
  0x3530900cdc56902b512c4038fc1de030438b6018d9b2300868509022c0e460090d84a013d298000252d92019157b103a0a827008a21f203fbb78e039b98de022d1be5012157290179b17500348809000cecd90046c5e60299808702a34b8000c842df01f1427901dda5fb03126aa902ce0c7802488d0b,
  0x359c0403812e0d024c6d2f0094e5e60178d1a302b0d81a029d25f503e9783d00f89d7203fd3c0c00111b60012a35ee036ee9420006c1a802142cae023f230a0033f60e02d36c420223e3bf03fd9df70031ab2b011655ae0094c3ea015d9a9001d92cb6038397bc03f17a7b0205431603d0d8d101b086f8,
  0x31a1a03a091e801f572ff01d1cefa02bd61cc00f09a6a013ca62e01e53a0a037189d401cc902a002f763603f7382f032a10d50126285703cfa20103eb79730279c0c60124cf9f0029ebe701c0aba80029cac301cb754c024bb05c033abfbf03d78b5f0152191b0107f6a603baa3f7036531af028922f4,
  0x11c6b8034bf7b40002666202dcb8dc01fe48f6023ca4310303c0b000f436e9002a933e02ce79af00286e2d00cea0bc02dd70fe01c070ff0258bc56023f00290241130800c9ca7d00e6b95401ec6ba8002fcc3702e2c7e603f1c688039691a70017f2ba00127534036ef0c602cd823003f80589021e5df8,
  0xd00ea03509d460071ec0500a2a0a5038c2826002e440203bf49f103c65d9203a5cb4d02603cc0000186c201bfaabd0127b31a034924d302edd2c9005b3df601c83dcf03bfd7960368b24a004d0f1b003e114f03f105a60153bfcc00761f9301bf3c4a01647fbf039ad6d202c395bf01c53f83020106c9,
  0x29eadb0013cc8a03e5020e01d46f38001332120143e8fb02faa3c801ec44aa00022e30034d10a200160c31030dca91000cfeb70190334a03a8d7f800cdb1ff035d5080039f78f9024996ae0390ca590023e37302b96b58025be4c30011896802ef9fb6037667f60122be1700fd3d33026819c20381dda5,
  0xbd9a3018e7c0101f3971402389e2d0019a42e02598db00225067b00eb853303586f5c0056023a0018739801b261b0005873c4025c52aa01889dbb014903f50309f07102dc26930298eea603039d6400180c760335d85a0084d0b8020a2f0802ee23d30346910c035c704e009c1f90039649f4039668ba,
  0x1c23401b916c203f0457f02bc4375003d0a73008ad9410035476f00af5a15026724ca0141c3ff002a7c5b0184aad9025bb3f203ea0f7801e7096600a82f4d003568b003ccdd3c01cf7d68006a9ab80007107d0244f33003d8f694027801ca009d305c00d712db03b3720602c2658f01ea22f902dfb946,
  0xa866b0006871402a6a3ee0053548400a646f4028eaf950293f073009d23a302ef5e7003d6c96c000720c4013ebc32014e059502806f9202923cf8028339c2022894bc0046152b0394899900005f52000daf4902924b1600f69480039087dc03fbc97f0137813702623836020aa5d803b8a5e402125a3b,
  0x14329603473b3e02f6b16a012eec4d0318eccf032c181801da72a00014d82d01ad51f7033376fa003b943903d1b87800455d2d02c7d87700eefc1d00b62f0d0061e4ad034abec000d520e900c7da50002c3cd1030f8127026d371f02aa11c60277ebcb0026b0eb00a1cc6600284bb100d1a4f500ebe8d7,
  0x78fb2013b258b03959fc100ff6fac0352112c016c56e9006df1b1013e0fa801b4b1ca00846eb3003995dc03ca94ee01f92607025fef8000422e7e03bfba390205b48a00041449013638cf00a04b6a0008879202c611020350d36d01a02f8501655e8600efb5310155177600ebb6dd00021c0900dbde11,
  0x15c91e00ca93440111cb4403ed19da03c74dac0348e909022013af014b89dc012ed26702f248e20004bba803a7aa5e0270f9d0009b73a600a62ff20352c204023fb607010f54e102f3753d004e7797003fe74c03ee5ad5011051c70309bcc602a60f3203a8759803c8a07a025d9da6023ecf1801500b0b,
  0x32a296032fd5c3024bcfd8031c84cc028d3f0a02009d8c03d992ed0186730002fac08e039db23d0017dcab037469bb0212e6ad00a8bb51037233b1023067a00180583a0299bcc20231f5ba03f20954001d1c6203360fb902f51bed00f2bee1024d3fa8027f1252005ce93a020929fc00569c2501fe4765,
  0x26e2b7008934a000005b410186dfa9004ce97e02bc42b002c7107f03cc8a3900b3cbd200c184260020deb30128b58b033753d4039e5d070066860d02bb5b0d03a2a51303dc626c024d5a8f02568c38003de02d00f0085f000d8ba8006197040321485c03b839b2035b8ad2024568ac01260bd803356928,
  0xc0c4101a2eba5037ed89e027fe21c01d508e50159508d01e430c5001ca07802dcef670219709d002e700e017aad1401c59b4a0396f42d022479ec037fc3e401f93d74037b6ba5000f08c0037dd075002a292b03a8ae5001b2ef75038db16f017dcdf4023f53db022e352b03bf238001f68a2603b7df8d,
  0x2b1e55032002be00deefa702afff9202f557c4028dd79c03716fdc01abbd5f0020c0e60134b49300262a160256fe85014c815202bcf3a00074e8a003f10cac01516707004d5ad202d4cb2900c2df970031b3f801242b9a02c5bb660221ffa80334377a01d3d6f7022fd279000d7330036f5096000410e5,
  0x1c8b7e02e8d3de00c11fed021d9eb200e9b7040232ceb700901b5b01b04c1203bf0818016c6cbe003034010114fb630391af8a036295c000b81a9d034de00400e06c4900f69e0402b93be403a90a4d00153eb103dd70c80101c2e300dcee27012dca7203036f2802e0756103fd9e10036246e900c30c7e,
  0x6b08200e7cddb01900fff038e37d0019a9ade02f56b520178db500081bb0f026adccd007509cc002b88c901b614960035bc0801a499bd005f10cd02e24f3202542670010b9e89032c80a7019679660008561400a03a7203b10a8d02781ad500840fc5034f3cad0277cb6e006aeba90072651003d69483,
  0x9248d021536680249eec203c3f8aa006cf679002a3c60023b103f0211a2d103a156e801a937c8003d9a3900d4c27e02356d5700f8b10101e85362008e02ef0139ff090002824f00de83ce000c21af000bf04001debebf013246f10266fdfc0144252e0325dd9f02044f82035d1f1f0284e3a400c941b8,
  0x3385200cc598f011216eb0017d56400c042d80191d6a8023e023f02914721030e3a0f00655ea7002f7ddd03a62f5b02c12928004cd6490164a410021413c502c76203025d0b8d00f59faa01952c0e003ad29503ddbb0a0371714f0169444500cb999700d3bf18006435fc010ce9930130d3160343558d,
  0x2fd71703554ff401d39dbb02f58aea00ed1a3c0362b1a90236b0f400b9932203c0fc3001d81258000bf6bc006f3bd801c61d4903aa0eef01604fb703ed62d2010099b201118c6d004f21880123b2140012572a01e8af81012f4f0a03604cad029cee2402fd17e4019842a10074814901dc7dac01a1f888,
  0x390124033232f0019e300c01566d1702a27bf402841a0e0370fc6e0393828e02ed979001dafd3c003ed138014aa33901c541f9009ff51b02f500ce00900848019e55b70162828302e80c5c0238a8a7001dca9b027d1ec303d3becc0182702e010dc41f01ed1ba602a66bc3017c1de90054087101dfacc9,
  0x3dcad502fe0f9a02f6a11201cf3ac8021375da01df7fc600749c7300140af20293104302bd76ea0008f6a5009e37c3034a7e690097ca51000bc25400548d5500c57fdd02a3dedf0028258502a8f8a0003c913501eda9a6025d8d5d03efd6c201c53ffe00d28c990041233a03a50a9d00ea523a038137d9,
  0x39149401f132f3006adab2022f1bcc03636f5d004e2fbb01350fba00eb04b002c51e0c00d894030033164f03f3cc1900be5200028b2f0f0301de4601c815fc0320242d030232de02351efd02e93a83000dbbeb03c1694103e743a80316bb1202e8c9a3018605b10139ba4c03e3d8a7036ffcf200bc5fc3,
  0x3a75db01b41420010b6f6e0329b79402b3868f00ad45cc0198869c006e9fb402bae297017032420028d38d0088728901e6f92f02e47d43027bc74402d3c61e03f277580191ade90172555603954820003939e902a2d4f202add8ea00effacb016bdd02012c131b01e709e203d59a2901dc418601891296,
  0xeed7800e45be501fb02ce016d68f0026e48830141ed19007ab52502b4fa27005db6fe0020e73d0002c625003969ce029067b103631aca00eb4bc50130114501cd11df03cc30ff0270327203b65d84001726370381ce7201fa66e3000d9b83023822f401e4aefc0047dc2500585571020f9ceb014f4c55,
  0x24c1de02a37611005d131e02333ac802f07c33017269c0021c8a59006a710b020926e903ce1004000bf0f90089cae6017a494702cab9700301c9fb011341300361a32a03c47361008b6a8b035e91d500135d3f026d9bc5004b01fc030f7a8701d7175a00be392b006716b902ca1cda02da450f00b804e5,
  0x35035401c791970089c117024d124400367482034c67dc02a35276038c57ce0199f3ee01dc79290006a11b02ada17903e0288d015c00e80318a45103f15ccd01bc9400032e05b800a40f57013e34cc0016926f02719ec103fc52220109ecb801a5e64d0384fce1008bb8f700dcb41e018c30680066e943,
  0x2b2a3703ba1a8b000a93520265a29200e28442005d508102a9149a026d298e0033a2350383f4e60021655b001e5a7f02327e95022ef65302419c82018f4037024391d503bb669403a64f3f033af31a001a51d10156fc01036e82620093e14a024866d401621369003aedbf02994f510291bae5035df1d5,
  0xe4165015488c300786830015c4c2f0304230f0119075e032c5c2b03e3cc370269b7a4021b9ada000cc2d90012bf7e01a05f050367879b02c3ebf8001ba0900101e1d303817bb1014cfc810173d7d000080bba03dee40c02316f2d01e296e501ce94e202da796002e1203800153acd03942149007d3420,
  0x38c4b002376ff400a878ba00ad595103ce4d0d0234905a01ee00c402498b1c016ef2c2031f29df0028344c0041c27d02e107bf01bc834c0289f83e0076286200580a1001d98ed6024f06570190ace4001ce13502940aee0098d5650003bc6e014e9b770331483601665d1100931aed02093fba013e3a5e,
  0x13bdf90207c63d014e08c4033c26f001407d370239b6be01f0c04202af605c014f7c4f03a8f64d0013a30f000f2d50039d134700a7c7d300d30a920292a685010aa03f00996875017535070165ac7e00148dcb00c48fe800b424b2026ebdfe03a30ce0010ad9ca002049fa001b363f018129b4031aecaa,
  0x11a9c50284a2b10247d72e003b271002cc0a470359213702ada6dc005a282a0025623901e57fca003dae9303988a390168011f01bfc55c029fe7ba00efc3da0281eca700fcaaf20226ca6e036b0d2c002b911d007508f900a9748101327b2e004e616e018500bb02cf5d7603e3edf10232c54c0356ad29,
  0x26c28c02d6990f0125c001006334c802a7453802a16a2201cefd1b02d8b9bc02ee954a000217bf001bb9a2021b261c03585d58023ceab203928bc00186918302ecd4ce02b3781e00d6c15a00090ecb00028ccb01c878fc0397bbc60058d11e02a7bdfc002a4c5600da15c101698fe101107f3b0025129f,
  0x60d540393107901ef5eb102f745c1008c43ae0317a0e20100d4390039606f01b1f53001496b650018f6530199f03b01a179e001fd78a700722bfd023a746400b4b0a6008d839f0364818203b1b1ef003690f7026ffda1028bf2e2016dc3d000a7ecdd02bceee0028ec0e2036aacbd01db2d8000da87cc,
  0x3ca039015ce6510253c3bc01199ed101603f8e00c15f5c02607e1002509b270247f18302d91a76000f75fe00757455005ff50d03dc7c5b01b1a071026459b201665fd002ee6e450243e0fb0022cf12000c24280290bf3c01c0bbd00262233001352d9601f9dc1e02c3f7ab00dd8cd403ac1d13011d393e,
  0x3ecc49027a38a30165a50e0157e0130104c6980205072b03cb800b013f0aac02c461d2032269130037bb21034349ce03458cc0025591fb035843110281806700ef2f7102f263840264ac6002f749ed00160ab40282cc7503282fe2017a1aaa0032002b031bf20100552ca900ea600e001f605801b033a7,
  0x350a001f9785c007c1b1b015944a30222817300805bf901de3bf300b195b402741a5c02a867b60014d6b2026f6d2801378c8202e7d4850161043900c80cf4005fe00801263731010c6ca500c67558002fa6510324c79200f248e40145cd520272d6cc01ddfa8b03be586801b5ea15023f797500a35f3b,
  0x3bfb650166571b003217100031e4b70220514c000df772006d717b02f10e6f02b70a2a013042e1003b27700392af65009288bc036aca650041ca48034b9cc00014a7140109763703db1cd30285bba2002ac15b01d6cd440122d2520136f1f301e61bcc0054322c01f3553c019b8e46003e3492015580eb,
  0x325b8501376f2601b0637b0388c66d0239c5830241ec4b00ff5f580239fdf003491393002bb7d60008278c01ba05cc0104602402d5c6c8026d78e000c0d97601ba6c39000dcef20241351403f4ad1900050c72039d0c08003b2edd03686f4d0034ccc100818e0f0286ace003f49bc6000da7e8022f7997,
  0x36b1ea02ff9eb50131ffe70291e61c02299e8c0024dcfb027df1e4007342b201734415019c1c2e00067cd700a6c6bb01dd522b0126ea2903b262b30168d5b1024b378701f6e38a02519c3a00652e5e0025ecbc003293790223362c016d385a02894adb0206dd0003d6da8603f5fe070276506b02b95265,
  0x699ab026499370260efaf03d4f30400ecd97c021d434f03cf2386039ba9e6023c59c703514d0600232122003f2dd403281f340100eac901f7e39302e1ed490185bd3b030052d3022ced3f01a7e6b7002c2546009b9b17017f4f6c0086428303a28cfd0015178e01c59dab018c3c3a037be93b02a873cb,
  0x252a0203fd6555031dafb3027e3b4d03cf3e2902e64d23023cbdbe0279d17f0265ad87012495a6002c6aed008a806203de83cc02cacafe033d6d710053859401b35bf70366fa20016df6dd026f41e8000e161102597de8028ddfe1038abeee0071bd5402a508b900aef35303d2f6570040f1fd019b4835,
  0x7d4d30294705b0147487a006de9cb02a7aa12024c1fe901eeefdc0303940e02d0575f024ffdc4000f527b03eb87d900a00a6a02f4d7e6027be53601e9072e00362ef400c09be40387319e0365c8d900143f97003b4d61015c490300c5a43b014695fe00ba2a1d0358d14e03474faa0021b47e0125b020,
  0x31b75e001afe4002350acf00e70d2401fce357009c90ca027fb05f03687a1a03910aaf00b50ca700050d19006cc2ce0288757003cccfa5027271ab031b569b01d909e20150d6d400b153f3000b15c4003a145402a6737800f4bc76025211de009f963c02bf95df0279d2d90209a0480102e1370140c096,
  0x31fce8019fc9ca027fd4a403816857017d9bc500e8fa8703dd5a2101d249a602467bdb000676f7001de871002ea61b029570700384ad690299695f032ace3f015a2f2b007be184027f2c320234ff9700357cb203f7c3380111bd1e0398bc570203541b000ccf45022455140341d9ff030b6da302f5752d,
  0x37980801f032210335580b00ab591d022ef19c0053209d00e56c6100b076b10078390000bb0e31000bb18a01e3df9e02c5a2d00098accd03a1da9803e0fda803ceef8402dea34c021807ca00d25e670018b12800b543df00f9ca31028eb9060025cc2c03d4442201000d6c018a6f5b02b2701a026dfffd,
  0x16c277015891f301c998d401963e44019158a30050675c024ac7370019b1c8012384bb0332c868002ebe2d0054631603ba5a4c01610eb302c27e5e0157af0b0399884c0007631501ea8f9a0353d8300039637802052df102a123e2007dd5610244668f01d9f4210040a3080122165001fc018602d491a2,
  0x20c15202592a9303712a0a01c221f40165aa860151417b02992701020beb320281992103792c640017b16700a8204f01c1bd560227b7e901a7fc900122eceb024ab3000020e83f039472f1037fa76d00309078000a736e0235bfd401215723025a31cb01c25b75019e499400374ad7023b2ba803905927,
  0x25a0b50354fff50278ed73010bfadb02a55b64009c56af00d1682600b8ab610397d41203bcfe2b003fcd3a01d4e3560168ef0f02cbba1400378c8c00cffc2e03386dd8039d5af2031f845c01ab028c002c4759035f7251037bb01200e80a97007f049702c445be0197a506004cdfe2020a71f300950f64,
  0x10903201cdd0bf039e88c700bc15bf00c484d40055db2c00bff91e020edd9c03992654036848b5001392ed01c12b9b0359bbf6027eff9100c721e201a9b0df02550e190053da0102102db801c30aae002c9edf009cebb200dd48d9018839c7023625c302c91d5901509f9b0391ad3e02ea989d03a6428b,
  0x4c8cd0350c03602f67d5700dcfead0366822602e9db5702f6c05901000cc60074935101d3b48a003e1fe7017d6a0901eb3e27033384d1035665b002bda932004b7d860380d7e003f93f740167dc04002cc47f005866ee009ff0b700d877050222c9ad000db73702751f6002fa2a3d030db53f0302d4d3,
  0x171f02a0bbcd000885390172261a020c58ce01e5544b03bf84e8001d6fab02b5052f0286f8bf00383519011a52c501507f9603a83204024eb990026b4a010209a8f2010320ff0214d15b00513576000b2fa502b4500a03df28da037053b703f0840b027235c100d85777008be9490377e3d703869b6c,
  0x2a387601f7bc860133876203b68773015c6885024328d9004a4cd400ebf25701e1e1d000e28db30032ed6203a451c902d8a583030211eb027582c7034cae0f012b9ae5023e4ea30330c30802f5bc1a00305334029317a401190fb30079dc4c01a9b506017a149200c461e402bb7b5600dca00e000c25cb,
  0x4737603a0c0f700e41d6d0098b1a001f3e9fb0364fe4b012a58c100b04a460315b23c02cd9ca0003b39ff006e349903e1b774014acf9f0171d406013f9c5301af821c01cdfebb013b7dbc00f58aae001c476701f67b52016c3eae00018ddf01597ac70103d96c01a941ba01d892bf03f0cd3f02a7a279,
  0x324d400028476a02fa6df4030ade670167167b036e9d4500279a6d00f7e33a01434fc4029167630031e5a302bc4d2f0156aa170317f3d20240c28100f320a8031e30330356f60300c2c39f005bda1d002e5a9303b966b300a65c6b0185752f023fe2f200bfc4920323761f00c75f0f001ad2af03a4b438,
  0x1faf580277853c0348cd4f00998b7e0143defa02d1eacf0366da5301181f9701e9fd3d02b5cc880023cf49022b863603960e0c021ee09203236ade002fbf9d0211aa4e02d1c40003ff71f700b41adf0013eceb009b53ce00cc3ddc009838a90002df8503bbed9502a37c8a00b2b97201fd4f3e00eca941,
  0x638ce0150882b02ab3f1200a444000368c6e10281493c03933c6302f43e4900a9196201fc52a90004edc203bead0f00c9c206034a7067023d72ec0292008103ef2a2903741bf0030fa8a80327c8d7002a3b3400002c90016d438a019e9d4e005e038700abb2e702249e200087653d03bafafc009660c6,
  0x5483e036dafd902cb58080223d62f011c6d9f01aafc530367dab501188d98009b4902015a957000377c6d020f1e91007fdfff01b68c61007c6e7901b91f10028c68a801abb2c302be9879039548c4002c8446007274ae012ee86d00d3053c034995b90264d8b80391e3e2034a7a0c03df2b5a0004c475,
  0x22b54e01e733be015e8773037ced44023ba9b103fcfc4802a3103803f4968f0139d3790395f9ab003dc49202075dd003e946b602969195018c0b0b03350856024a59e102a18d9e02543593014a6edb003761f50328960200837aff00aa9be20139243203dd2dfe0348eeed03e5f74e02cb5e4d006eced5,
  0x13380a005429d1031a6ca0007ef0b10288aba6028bbab501f2a3ed0030bd7f0080721e0394caa9002e493702f13a5d034478bb026b46f702a6367103845b3403b34b1503b8c5330278e0dc0306ba4a0008637e01f45df9015cb509027256050146766e022c505f029f83b001118b3d0079c75d001a1776,
  0x260c1200cd05cf02d4e89e007d0d7d0202ffd2021a634101b4d6bb03fe0f430100ba6003d75680003811da02768f9d01580379006888cd01fa463700262a0401cd175a03876bb600959f9c00383412001aa78000effbe502851b88000b05a30363a3c50256601501af20de011c55ee01cd36cf01d2e2cb,
  0xad33d03ce3a710221f6cb00c421d001d2fa54028114860107407103d911e40300bd5900829bc6002e36b601df6b10037218c8018468df03519adf0272b66b01c8014a00ea00e201b00d610282b7ad00193a3800496d8102fd2be60392bd4f00eb0cf900cfcc8e02c5abc400824875013e2e2c00366006,
  0x2c198500f6c63800a9246b01ac530e03cd009c003e180f0118a0b4000b19fc033a48f5005c9fca00126f310275f0e803db2cc102b4077502a08b6203923f7e03f993a60320fff502a5185400cf6cde0019200b00f0b34703c787ab02ee342a0366b83b03928a39016a816a0006870401ca2a6501fc353a,
  0x1c32a803aa874703af212500cf9af701c6fbf00074781800c21bcf0055213900c1dc9100b7c7320017ced3023c669002f920fd021fa90302867d60033a1d9500da6189005e1a760112a8090303ea9600135b96006522aa020ec4e50309487601675a4500adb56101e8309f03b07f63010b807e03285694,
  0x5a07c01529e8c03ebbdb2037d875b01550ed70219f37e02dd4e36010fd9b101503d0e017f191a001eaeb001910ba103bbd95802322dac024a190e0119fefd004a6f970361daa602525e4a02c29161000addc20381bce401eef9af02d2082902be33eb02efc8750370978a00620ce902ef1a55031c4ffe,
  0x20e4de0264dbf3006887ab03dcf65d032d87830131809202663e9701b58ca502d0000502b9785a003ea60600884cf701a80bc00210d1e0026afe11011c3f470171c79a0159dd1a028ee29a0110e7c8000795f303a10f98021a575601262d26031e007002cc4fa202dceddb00c8f5530202b39900284862,
  0x8805e029669020081556000b4711801866dd8011d1447024c4b1602071cfc0087e3be03aa186a00103ab4026b062100a28ebf01537c8200a5a16c03c27fec000e91f3027d700e00cad62902a1f1db00139c6f03bfe1e7001ffef20374f73300e025c2020a61a002c1eda401597c9900aa275503e5324c,
  0x10515a03d0ed850122ad7a01a339aa036e7e9102e284330312b9b503ff4f3501a2688b016cba9f000bdf5d0088750f0250af94020e350d011059c2004b0114018356070012be9701eb56020036bb4100259142024b81fd03cf6c9e0154b7b6011f55ae009a8b44004faf9000ac48c100ffb6c900ce1c4d,
  0x2fb6900318f57d0172418300e03cae022696e802e24ea80347f67e0307d1bb0003c98803982af800263b2e001019c5008b836803f74d0d0036fc62030a356f025c557b03f1749f014d90c900e1a88600059aef03ec8479025635e902c79c8f033234680085d2d202be2b95030a6b7c023ae1af02097941,
  0x31005703e1448b034298440288a98702e82091023adf8f005c7042023384ab02f7944f028974cc00166cc503f04a3e02e0da0e03a034f900e09e8901f5d4f600d5ed030277e1af02a2bfa801706139001a2a910355149702b2b1c6016d4d69024ad04700a3d25b033d7c2a03fa82c302a4592103270424,
  0x2d4fc2020ce26e022519d800484d7701f711580055e47201dbc2d0021efc94001bdc9102e18624001322de03494d7b00371d2b01e1ee6c02a86c8900c0e3e6006eab09034c83f601df7c6502ec21dd0006b430021b2fe203504b8c0215c58601fd734301f8ed21016c1efe01b4864a0003179c008a71d7,
  0x4aa8101cbe00a004cdecd034a53250288dcd00380d3270192fe6e0181f1e303e82646015ae34e00056b0a00e4a30001b8e44200b7d9200049f0b300502e1a0079d6980171de0b012cf993005173a4000d295200fdeb6700502f2303f75e1b03951e5801c7263802c7f8cd00a15624028f2e0903de5dda,
  0x1962d02d5120c03d553e6039434880129c38c0075c47501537bfa01abd8f903c30193004f32c100054fab02f4f89a0316d6f201423a4e012c822d005abe5f014076e502f4296f034e37ed017d043d001436e10115fda0017848c600d651760133f67e00ab00e2027ef10c02f36ded019fb7f803d01690,
  0x347f4001bc78b018dd92b03a33018005ab8a7003f620801d423f502b474f803f4e57802fafc72002312ba019f8cb1028f456302cc78e5037f45f203a1294a02da6ae003cc022f03e1182200cbf0e1002591240317cda60129006b0349879903e7dd2a0268fa80013e8905034b19b90258a2ca03ef95e3,
  0x12fdad01611dae03e560d801bb09ec0363717c0305cf440312208c01ac13aa0394fb250152186400371c00025bce93009e59e403d7ec000277bf5c0386c8bd03851aba03b031bf003c239103d9976b0013de20039bcb18027beeca0001a8e303759334030ff1e4030d6c3f01808aae010afb57025789ee,
  0x2b66f502cf695e01d843a203ee44f403fd711502e47269038b83cd0252bed500b1bf51025dca570007241403d5abcb02a65385014c8c7203e9f25d037d074600f409d101502ab502c368ac02d6d0af001957a103e53a910174f6e600dc5e1400ea9fb503f46b7b01647c4e0120d64d0339711b02ca53f4,
  0xa1adb006f055c0072a36500cbddcd021702f3035cb5440175ce97034138ef03b95e5702bd297d000df49b003e6fa50182436201bb1415013778d501fb05d80250b0dd02f9fbf000aca20a001d01570014edb002f77b1302af6348019094540204ef9500ec5bd502c08b5902a91c400324f19e00cf0f20,
  0x26429b02a1a2f702cd70cb03bf21bc02d4a1b501f7e5f302a87c7702371b2b03f4f481014d7a81002e0ada0120d5400059e16d03f32fbc015061a401c3198e02f56460003982b003f30ce002cc881e0017d392038ab7730137f2cb02106ef10286fa5e027d5b1d01e543a1029df2f101ee8ed201aead9f,
  0x3a9e9c0190dcbc000acf4d01247c7700e891ac03936c5d0171bb680354172a006a353f03b8a70d001faa4e019e4dd6034e1da101c11d640172e340028c09bb009fa449020153c802ac3cf602154a9700158e8b00c3ca31010155ec00d069970144588e00418dab032dad2f005dc0ca00fc5953018c0e8d,
  0x3eb25703e4742b020c7d5a0215464000f7d0cd015ec4ce0347d5c9000a5a3003be669902b11f3d000409ca02fefcb70071bd360187ff000077c707021d2ddb038119c40274499102689fd70078c22400329d8e0356e7fd02926c5b00d8905e0244a818006be38e00edf40e01dd6c2e00df8abd035426c0,
  0x5d12b003c3cd9028e1db30129f42303acdcd30086f9300344ce350113df5f0037ee13023c49e9003b755102cc451001e5f66902841813033ebc3403d6f70303e48b8e00fcebc9014324a003525d44003af84d03ad11c601155ad2009457f1036066a8000a311a00461ab900635e110219597402e6173c,
  0x2bb95d0280052200014635030c85e602f8a2ef02d3330502fc524303184efc005adb2e014bc57600092b60039b20a3002d518301cdcb1d02bd1c45036ad798037307cf0163968403500fae00235e050035b1bf00899c6c00fcc6c403ca3c3401ecd23c0009644701f742eb03b5fb00024f8806003a5d04,
  0x2b09a6005c803400d124bd00c84a92034e583f00dfa07d005252860124e4b002bfd463017e24c6003169ca0364690f0042ac7203c7f60d02bb479203f1876701ebe461025534fb005ebf7f01f103410033c8430235a71c021b17dc039addb901d3e1e5002da2280012dd5701003ee2016b9da901b0ea3e,
  0x254c2f03437f0d02e089eb00e51c0f00b869c503227cf70083b827004b4f9e03ef275b01d8b525001070e3010efde602c6536f03658d3a029a7d33034b5dfb01aed04a03a32aa2012b578201bf4b7a001e14fa01666bcb0317c88d02d2abf8038f440603ef7afd01d4297b01dec9bc00ffe07501605e04,
  0x1840202ded88300db1c6800138af30363928a01e4c9cd0011503900d9f2ed0149795b00500d71001c8bd3015f4b8903b95caa0035f0220111033202e2eeb602fae96303ca426301cebcb50300ded9003199db03762db4012b006302e61c5a004bcbb500b008fb0316ff72026a367c0209292701aaa462,
  0x21dece0346ebad03e33b0900b573c702739192023138f7032ef73303af3c48024daab2029d198e002e0a240070085200d57f39025073ed0088974003fee5850189a1bd03eb39b903579a46034fc7380001935303a5b9b40393b8d700ddab5101b6d9a20103b63b02155395007aaf5b0341d05c001bbb9f,
  0x29b6ab008d62ce0285dd3c019804c202131cdf00758a36001f73c701b0091803685617017f82c7003b15a2038b9b3d0316e5e303e2d299025512530217556601a090c900a7fe3a0360bdba01f6222700348eeb007ddc850239898d02942b0000a2d50e005cc9d201e6bcc603e8688102a2c40e01f90365,
  0x2614202a89b9b03eaf94c00e758cc00e8472003871e7c03156af80128ea0d00f063000275badd0019b93903389afe036248a90160edd301033aae02f2f49103ed7e760154f3d500c1f39a01a78945001ffbc1031b84c90095cd8e01c5571c0138a18c022e6db600528c58003381020002b2ed00dc628d,
  0x2782e014359fd02b25b490035d72c0382fdc20343f16c00b62a6302e79e1503ed093f03dd7dfc003f2b9a02b5d90d0234553c0194465d034eb25c0122d6690349b6020162cc3301f6054101651eba0000a0f300d7367102a8ad1503b5c1f501debc3e00a49f5100154b570198cabd02f67a9b0269b2ba,
  0x2f31330389e8180335d4a001bdd209001c92e801b6f13803202794015bbe3300d7e62d0383aac70032a10c02156e3602f7df85020a287f03bce68c023bd12001fee238002f1b8301a3572901e21a9f0021efb10304f35e01e4da0d0067405003179bd20091f179011b144e0285040b03c3b8db03bc3c8c,
  0x397c6203f6f0f003e53cfb011dfb3c0299db62011396a200b1a4d40190bacc0286f13d011ae78c0019e9dc00cfab8c0009f54101dbd8ba0259515c0056fd0e01118bc10029adab02f4534401f491ab0005e53e0296e648005cd27f02fa998101f0b16b030d2b77007e03ee005b03ab0397df2d00e9c62b,
  0x128a4a01e997d9036b18be025dc30603833e3d006a0e2d01b648e102d2cbfd01f97c17009fd4dc003727090339db5d02858f8802e99c7402aa7e3d02a83a10034319350000f003008972c90125e2370017889003113ebb01974eac0089bac401135ecc03bde93603e02aec03029d1702247102029d7e10,
  0x34e2df00ff1d2900d2aab7037941fe02f21185034cc0760155680800569f1e023aa430028951f8000ea617015a4c4303cfe7fc02de3afe02e45c5c01d4b9cd028c574c0263028f02a9da62010f622f0007838c01582dc600cad07f02328d8b01acede8001506c80282a66803ba5f83039a7e19008250ee,
  0x32014b004d32f1021b7ca601b8d282029b95d7001300420143c341006becd601c5b814003009740012ab4e022d127b00277c9b03bd76d003ee3c5202bcd503013f384f03a8c595039ca162021ddb870024213201d42d610129bf2a02de67a7007f02f6000cfe58026fbf7800109be401730a460388cd35,
  0x2e0b6901ff94c20329c55800398bcc0058671e016343d001d8dfb101e6778d02dbd3b40009d1960018bc4f03b10b0302488ea5034bd7840356f03303c6d00000ef7332033414d90098d839003c6ee300161bf3021a6f04022b4bbe03297bd10119247c020db760013ff54501c1dfb4028d341703d96890,
  0x3cb6f8023c43d602e84d7600ae8d5d013be0ab00c169aa0041603602ecf0320123be94016225ed003141b102d50ebe004a4dda01380eec036b021e0096671f00d487f402ffeda803c512980084dd8d002b7f5e008a7748025b357c02a023530012116601d05602038db59403e38b36021fa84303acddb6,
  0x3798d3038cc94f01a8939601513d7500b175df02509df00125415d003611ac0115e41b03aa7a38001b27dc015cc2aa00dc97f402f6718400511f9b002f5b4203f40c5803ff526e03a3184a03976d5d00081ef2017eebe900c7d4a503cd59ee012fa38e02e367810342363e02fd00d802763837020ca9a8,
  0xb8212030ddde0039dbfdc03f5553e0253326b0185dabe0024dd960043f2a301b24dd10374454b002dc807026b896c01f34e2902fcc10c02282c25004af2da035f7d71015142c00303a37501fe4ed900052d8b024ebf3e005df3e80038803e01c9fb7f0035260202dbbac3000fcb0e03f2c1e800dbced9,
  0x14d38c008e0ef90064a1c20306c32000f5225602332547031fac1a00d93ef702cb15e6014498bc00399da803365da602a3a6b201ea412c009ba71702307e260098dee5034cb3fd00001f4503579dfe0011e2bb036768cd02e42ab800ba53000303be670278862001c53e6d0354390c02526c9502923742,
  0x33b33f03bd0dca03ad9b3300eb5b7f0154f5f1011e318b000ec3c8019b108501f6af0d0313fedf002d90c00148e7c601bf59fc03e44bf702bb878c0374551c032c85d901cc64690398054000047bb0001ad4e3004e3cda036c73b903f1a7dc03dff54903230dca01325d6201a4e8ec03515f8c00ce8673,
  0xd3fd3012d498200f9f724032377aa02d43bb9020319d60343d6ea03e13ce400d124c9003de3bd001deca501f52d100257e70000acf01000d8335a035bb9980064616200bf978e035d1fcb02b380e4001e720b000f21a102cb4c60019033d301141261002a4fef03a6e3b80003be660190b88102fb7db9,
  0x421f000931ea403727e140274c0a200e11f740057ff8f01fb297103ac4e32026c8852015f8c8b002e9d12025ac87b031ce2e402d362640069d938036d96b201682a8300e4290f00a636bd031be330000f34b2029ebf9402be6a2902aaa15d00bc6eed00feacf20269ba19014c6fa90077561300be6cca,
  0x1e6d8603a0dc2f01d7d0b300ce6315039919a10047dd5500156b1c018cdb1802fd9f31029da68b0008cc37039fc5a703ce289d0048b3a002b5595b02a3fed60377a983018f78f002a7343e0000214e002ca07f0228ab8e027f4b4802fcdc71020c001b000a538f03047d0a028e82830270768a01ab09fb,
  0x21b91f03fa06ed0227766802e88e3f030b90140305e01e015d3d1002f49d1c024669e70152b3bc003e551c0025c90f01d4c449014ac5e100d03b54024c5cea0222ff500182ae5f015f821803c335c7002a5db0025fc56d039f852702eae11201daf3a000f7634e01adbde0021bb91802f4184300b4ae39,
  0x357ce801d9048500df2c17000e1c2403def38102b0cc4003d157090392d87302b413a40323708a00059e4f03c3284d03b22ef5019c4584014675c201dda308025af785010657f001206c2d0389a425003f0c74015b8e0a00b7645703289e0f03ede99c01d06c44015c52950291d9bb01898874036912fe,
  0x15113100c9b651016370700165c6420334cedc02c3f61a022c8d3d008bfbee02d2280703bf2edd0038f7af00e9322c0362824603d18f77033a00a0023eae4800667148016df7c400822f8c03064bb300282a81016e12e8022aede50284fd4502ac1306019b500d023874380042498901a21f48032916aa,
  0x3ebf2702604f2802ce96cc035e834e029d7407000a3b1b02cbbcf5029c82f302d3b885010fa0f700169fd6038b358500bfd8ea0291d46c0077b71003f03be403781fe601b73405008c6af403a1e2550027efcf000bce83022708c7027e036101aa25e901ecfa4f03ee124d014331b0007976b402239073,
  0xe28d2029552bc00a7150701fe9dd8034eee47018202f8000385980259ffb0034f876600b6e9ef001b38ab0355378801bca8040297aeca018184ed00d0ce7b00c21339035b86b20112b339006f2473001ad3ec004ecb2801c78a8e014cdb4a03652d9903bdcc4a0371d08a034ed68302ffc11e032a7700,
  0x23dcd50070010502e7c85d0040b64501a21efc01aee52e03ef9879037232550115bf3f006647990034d41b0390189302fa7e48033625cd00d070d4014a38fd00a1bd5502e2f5aa003d802003b9e7ec001a257002feabe802a3ba5400217f850343a77702ade57c015cd67502450e4d02bca32601b2c9a1,
  0x2f630e001f07c401ebfad800e127d500055c2a013e628d03b1855702839fae000daf050146f26e0006c223018b609900b9b62903772a2602f843440310a0ee02d824e4009271e503489c54000b2950001c41e602e3d36c037152e302fce777019e3ab503faf27402f476e3021129e50049e93402b6effa,
  0x3c846e015028b6030478c703fe1ec403a17da600e0be410091ecb502360fcf01929853026ac7300024196e03e08c5c00b5043f03db927802a77a1403d463a101368fe001db04ea004564e303b96bcd002a751003b2512001bec03400a777f00205ee8200d0e03703da0ce60333040502544d8202e7169e,
  0x2d2ed603e321220124452100c7a3ea03bd0cd6011d4460024d586a0158548f0026772000109e43000a804c02d34c20028df124012d315a02843bea023e52bf02dfc5e201f668a900b5f9dd009a358000197662014b1a5401557f4b032df8ae02bdb13403b537230106ee010223731103b8514d00f2aea4,
  0x79549007904b10285bbad02229b97009bc8a302d928cf004846b400c74471004241ca036662cf003a8842014b1fb201b6e7450366fa540261ef6e03cafc0e03136adf004c78d501c389ea01506edc001adb9d0259a49302d0513903892ce4003937d50177c0be039d250701c1dcfc03e9e2c9030cae22,
  0x3469fa00047a14007fca7a010088c000d337da02dcb4e3021db36501fc6b58009d59c201760b950013fb6a00eb456800af7eab0378ca9801607791039406c7027e0de601ec61cd01f511d10021c18e0032a3c801b6ab2d0047eae4006c0b7c038fe82503ced11202e0472a012a2c7c000f335102882956,
  0x30b374030aafe2028bffc4000e3abe031da47900cadae20232001d02269c420142773400e1545f000a072b00c445a601995d1900d6b02203333a2f00c3ad8a035289b700487def03b2aa8500a43d7000193f170379ada80238c71200caf0640381b12003126f7a02649cd202defeb300df60ab005a47e8,
  0x2ff60023142ff0307f65902e90fe90374493c03e95c43005222b800f2988b0356fa7303f7dda00025504a0161dcce00baa6280076b41203964bfb01988e4e00ac89c00337b3470218e6f702fad20f0022c8a200e4a27002a1fae201bb34580001942e03e1dd7e00e3fb18031f173e011940be01921787,
  0x1fb7e300e846bf0296bbeb01fcc663038675400221f7a0025f774d037db40b0190b99f01ec280e0020aee200677fdd00454617025c96ec027cf6e2010dda0000adc126017885340176f9bc03b910c8000b72b70029d021004b853800e6c7020366cf4100258c36026f6ece00b20f340228bada020b4f79,
  0x869ff020f427003b7df7b00baf96101dd133401c97fe600431479005532e90384bed5002adb680006a78001f7215b03eb748b0150ad2e02cabc7401a117840216c7af00864470014ca61a00b6c4cd001f27a80201d8780103543802aea7f501c6d2bf0344f8e103a4334c039976a301c4efd802aacf85,
  0x6d48901435a5601c5664103e18640001b931300decd58016104a601852e1a022b25ef03f169e6003c223b023ebe52028a5dcd015fe1d002f1e89a005387310203866a0336d2bd0022355800eca61f0014d0ef000ea4e00226e6b5003e7b90021d6e6300d1872c016adc7e01052ece03837d2303bcfbd3,
  0x36c890093fc630325a2500040e59f0264bde1008da19701278323032b1e1501b38c6d01f040870003ba85004954aa026b880803bdb1bb021525e700cbbf1d0103151600ae4a7403e1c44d003c72850019aef101e5ebbb02e195d002b22f30030c303402bd708603e16193036f40ec009b5181017001d2,
  0x629b50145ccf403eca26301d4e15700cc2827037b5142006935bb00b21be500fe8e9b03963e3f003e3089037db2630184d3c10164b256002e9d0000012703019d9e0a006fb07503b6be9c026861e8002a11b001efe4a1037546f200f068df00510d820304ebd8001124cd030b1fe501270d6403a63412,
  0x22be93012d797002a4f104008ce6d700b4e45f0285f29001e191d7037f41c200318dbc015366f5003be51601626d37036f0142000f39ed019f3e250239756603a45d47031dd04d0107f7fa0258603b001b504b004c8cc001897902014f0947038b1af002bbc35902d0a5b7038236e400f2677602460c2c,
  0x106930028a97de02e0435501dfc3e403e7c06c01d151990059ccd5021a87a00354f7af00d86fe8001a2be900a0502802977d3903e505d40180b06702e38f23039d0f87017d7e9b01d2978002d65467002ca7e7031f818e00d06f4b016f5e6700d43d4c03bd01f20141dca803fbb9c30072c33103ee6009,
  0x2c010e009dd87e0094518e037bfe6e0013bc2202ac22e80349ab0e032f8c2c009c82be00e926e90002d87800d9469500efc0d803e650ec010c866e00e74e43033e8ac802e94f7f002244da0220c6cd000bbfca03e4f1a003068b7c017fb243006a62630051332e00f3433b008546a20076737f03d21478,
  0x2eeb2800e71ead0262f5ff03214dfb0326c87501a1cfb20281313503c4604f02192ca200dbd50700149da8008940ab0255b75c0052eaeb0171514c0180796802a99a8002abce7b01f6b47c012307360015c0f401ec2f0203bc4920013ad46e006b146303d8afc9032c89de03da90fd01914ea0012cfde4,
  0x181c8801e1ef1b010baa5003ffd704009f3ec701024c3a027d5b7103ec087a0180b60b01c24e7f00027f2e010edc680344af22014ec78e0057ba25019a7b4500ae0fa1003aaa0502bdca0903c4ea2b000419a90331411d0385f8f2002e661c0239541d0390795a023b26c203acd0c8013f6a7b01e7d9e5,
  0x2c2ce403324c8e02671b670151d28403d36ae00346e1a703c207ae03ebe54900c3921f00c24e9b00126d6403e6ef7a00aa8617007c2be9017c38f800bb5f5f02f11311008f50fb03d99a11015cb163003c7ba8036ec071036e23d70292cfdd01663976021e9fbd01c20b0101d67ce402c69d0a03a2e02f,
  0x14b663004bc99301f4ca7200c1e2c4026cd93600678c010107cf55028f6ef101717ea9029ee341002618f202162f6601302b05016641830351e2a103a89d2901fae5ea00df2eaf00c6712002ea8a2200119bfd0225821f02c9275b02d81280021b5de20011a2a50256b539023e45140288eb5100c93970,
  0x5d82102932f0e01e40912021b452f01ef847e027b3e61014803d3000ba54e0258193a009474a80039d67102bcfe1b02f38a3d00a6b63001cf5d6100c2c4ef02a765ec01e4798e01d69455002cf1b8003784b0030b81100375d7cc01848f6d01327bff0012b4ba00e047ec002a73e501ef8e9f02295ddf,
  0x3896410337275f009addd8033435b00318faa701e7b1900156eb5002ab20ac0365880b03ef1889002f68fe023b71180028388701ba3a3303836c1c02aea9fa02fa174a0162cf010182557202911293000fc451017c1ead030ba931027c4b5a015bee7101d4de72031ba53102cdb29c03cf05d0002aba88,
  0x399cce033f475002e14775021fa085026b1712014282bd00a3981600242cc0024b61ab0296aba4000eb8b000a798f903a5c3090289e87101a6a8850089a18e0152d34f00888ffe00e3b48802827559000ce59a016902d003060b6e030a769f01813164030efebf0046cbc7022c740800b2a42d01ed3201,
  0x4773a02f5bc3502ddfb8702ce0d1000fdfde3000d4a4d012e7359030303a7005cbe1003d8322f002f6e6103547aa9038e740203334d43026f23560110b31b004e8d8601cb3ad3015e465f019a33ef001b827403f0d79d0354899903bcf35603c1f240000ff6da0321bb17006c9c800214b24103745a35,
  0xa417503a14a5a01babeb50017bb0f0092b9580293f6ec032c44f200baf7ba01f1940203e7bbf200278da300c0c8ae0286e89a017681b8033544530379517003af226603123994037f34b402dcf1a20037e8e201101ca503e8c57e00a46b7e0320b14c006436a9026c846d024ba2590026713f02894992,
  0xb902a012b7ca500c1a1c601517bab02609b7402653fb2030c0dd201e859d5033f09a5022eb2b7001a13b601ee5a210086a01d00db194d03bbebb10389629600cd6937008e0976016bab4d0326243b000aa5d501eea6bb01fc82e700bcf5800268626d03c59f330313bb94035477780138849f03d5afc0,
  0x4567103cf29640063078d020e664b02ec5fff00635def035c1e98021139de038ff97002f95e3000390c1f00add7c103cc63190256046e03cd6e3f021e12fd00cc7b3101e591e803f50669037f35ec00386fde01f3d79702135cda02fa0fa402fb4d6d0385d4b003dd8e30010b314e024472b503329646,
  0x25e5960245c41403aba567039789f40282c52002040929016cafdb026a79cf011adc460241af170021b9ab007c0a0d023bdb930160f07d032fdd85035c0d6d00fac9cf019ce7c401f01b2b01e59b7d000ea87f01e260db01e8a797004a67ce03e56fd50302d2c702b2806a02bc04300263604202ca81a6,
  0x357b07000e25c001224fb001c9af5403b8aee200e2f19603b4fea8019384c501e840a403427e23002396940140093a0054e34f01e4dc8600e905c70270807c03fac20c0287217c02cfc67e0290d1a80022892b0383615600e0ae5d016150e90255a57b02c90860013cd32b03e464ad013db77900e8b7a7,
  0x19ccf010251cb027009e200eac06003db85530002a89f01adfb7e00d85b5001e1443900016618001d23ee0285d3530007480a0066f2440066da02018c0eef03f0979f005747d200ce31c700cc62be001f9e2e0297a9970392476b03dda47e00ceb3910009185c001fb0890203cc0c017923dd0098a3bd,
  0x3efde901ecd0fd027d2258032f401700491c75019a46ad0129e08d001dfff70014de7203e540e400022be503830c6700b62f60037512d502e1de800051c94d00c45bc800e2133002f7b0a902b31ccb0039dbbf0355901703acb462007d31a401ddc54a0360145f02da0c93033d2b0f01da809403c14bcd,
  0x2c9dcd02fbafaf023012030198c07302b07af303ba38fd0219b3420180fb9b0250941100148b5d00386d010208abef00403569011b42fb026673070175a1e7006214cc002d13e80192721f0051756b0031a91e03fe8892032ceea700a3b8510212dfc6039808680381834100590f8902aeb50603e6cc48,
  0x37233501517bfb03eadfb9037841a3032f6af7011f4bc901c8f1a8005f2f4a02cb58e8005b94d80004af380263b906014ea87303cb7b5003166f3b02f60c19011944fb00539032039626f502df599d003a75a402217c6f00514aba00f29d9e03c744d901ca8782030c00d9007f2e7100ab00480042e034,
  0x3a75bb0028f8c90156375c01d794e700141ce4000653b900882d1f01c0afcf0361dced013a77680012658402c7eecf03b62f5701f58b2d022854480226a86b00bc7c1f02e30e0c01ee43b000817ce2002fd0e30215265a03dd3549019c8cb1027b0303023f8e71012ae2f002eae0af0166647202b3b3ed,
  0x2d8b2e0372fb43031d9f7a035d9b8501070d01025d408000c98ec00188f17602efe7fa026e53ad000be9180353ff1503317957009c5c990117b84f02c5a652029f31d100ceddac00400897030304e9001a6f0a00e84366006dc00d01a5924001fb5f3202b1fda3006f24b702f8cdb700b092cd03b6f50b,
  0x2dbe2e009834f301806c4e03453d3f023b852e00f5467001fa227f000b32e801bcdbf0012edb6b000acd2a02095736034eadc103b472630027d499034bf6d203c0818f0218cd8602ee1fe90053f8ee00195e0800227361012c9ab2013e57680200fe3e0159ada801b560b50065210101ac7eff03b28003,
  0x93250114ff640107ef1101a3c656004c87020006e60303e2b65900928bb0024703b70154addf0014b8b701b3cf8a021c95bb010f367f024adf09000e364f00ada90f03a9592b03890c1800fc62ab001a1cb90288441100663b35014aa029007c5e9b0092bcdb031406550098ae8c006cafdd0369b100,
  0x18d16e036efafd02488727021ad0f601026f3802bab5ce021c0c340057131c028459660190ccbf0036cc1c0297c14c007094e10099ebda0387357801963a2601f236370098cff003373cf003f10e040017327803ad47e202a7aede0042210d036b2b7c016103a30309cf7402cd5dd400ca402803901a95,
  0x43e7800e9652400926b950170afe901f6c68e02b10aef038b546900915ad100a8ceff03aca1ce000d34c001b0a1c500037223014e252d018b18d000439fc402a4ef1f0095d3c5025274e900e62d1b002bd4d5037e3ed0004fb4a0002c175a014c148b032402b3010da40a007c5e93019f101e02831b94,
  0x3cc78b0060d89900c19404003c5b24003fedb3026e8d9800ebb8ca00e678210266cb23012eff590035564b01de95080365ad1202bfd5e90103760b000e1f3f00b30e7501adb63302807543024b94e40027dd2b03bd5e0b0044da6602055249030fec05010a018801f9c9410059d4900104c99d0001bb4d,
  0x148ce50058b3e70011bde402b21121003248f7028ec583002cdf5e01f2444902ca0bd502372e0e002645c9038be96b01fdb948021db48d033d7773000af50f02edeb5c0065464301caff0c0380cad00036e45702e429b500dd3a5900f8ac280097719800f4610c03880b880377c6a90251825b024096fb,
  0xb6d980150bcb90148f83b03848d3702de9ec5005840de01168acb030ce89100a2cc7903b2486a003b39a1036b19a7009a09280197558100232132003cd04e02af72f8014208fb00363e06030130a0003c3d8e031369be00ccf3410235bcb30205f7dc032a524f000d7bad0128202701dd97b0005abc15,
  0xcf03002ba12ed00218e3b01bf3fb10282aea801b04e7e034cde2403d7f9e0033d205f0042b2690014f43602c9320902c37a6603b2b6380237fb54022b630d019b5fba00565b2200a5ca2003e34b000011634a02c95157026ad25d00d56dc400ae8dd80344f1280026e87401d5878e03bb5fff000c81c7,
  0x21d86e01b60e7a03f9daa900da22be01c803ad00da78e5002d2536019cd61a0046d07803491e1d0039610e02caf313026aee68026bfbd701b6c8bc036747c703bedf5102fb9b6f00462fa0010a54f000121733038b6f4500ace89c02746bca03b6101b033062490052b12f0249e79500612c6b02fbcb91,
  0x3fb7b0007b1d1d03179f1a0021a6c203a77624009f469f00e8d9d900f64cc4002cb2c7039d4eaf0022dba700eb3e4a01123a4e01ee4133021c1b3100dc5dc601e1acde036d550b01d6fd05019b57e10036975702d0041601aff98c010f08e100af08410306964003ece98a01e3ad2f003b8c530074071a,
  0x346dc801e5dfb900b4e1a0014b7e8f03e9260f016a360e016ebc2100e9d5ff01578e940021341b0021349b03f66311006e26dd01273fab03272a78037ffac3036fa0140131222a02a4a51d0281954f002d6339037abd8c027d7fbf02db29ce01fa1067031b2b7300950b6e0106246b0037758e03d0dbb6,
  0x1f243600e56a9703e6a15900f1b746031c50eb023015bb00aac1fe026659f901cd1950033ace0400097f0101b8365f02d66ead02e28b1a01649fdc00bb2cfd00b5a94000d531ef013f8a0403da5a70003c48c40273cc3f0066295703bbdf9400810d8b00d70a890016030003c16bfa0012a27900344607,
  0x2286af00073ff6020bcbd1024734a701b5d572015ddc8200cd109b023433d303a3b2b000f6275c00058fd500235ba801d031f300e9d5ba02f37ac8016b3b3302bfd02d014f831f022bf2d00144b20a002aee52025f132300f2065a0390242902f511cf0184c0a0023e81240171fa4602d2caef03d750fb,
  0x1120cf00d9840b033c55b7032f223e011ca23600e3ca8300bf13800040b385039b942303c251a100016e650381272201419c0b01f5a58b031df01602f362d102f9ef5c024385b302fe3459005a5c35003bc53c03bc9484015592a40180c4a200613b1401d02af6022b8d7b00fd083c030fc67501dad6d3,
  0xe78602619f2703a279b70196dbdf031d6f140282734f014cdd72006e892e00e8499d008998350034062c02ed80c1023ead560233529e00d32126027b8151038c089500bc742b0197e6ce0006ebee00223b090028edd00145249403cbc419027e2d6c00e74cf400e543ad00ac87be00284d7501991005,
  0x2909c801041ed50112b0e3018b04f30334d0a600ad9164003b814b03cb115e02a6b7b7022598370007219601589dd201215b5c001f5ed903d61c000210ac6301cc51d203eff05c010104a40346c9d3003d766302c1366a0294d93903bd1a4e0066740e0383245f02491bc5011e3b2802131b4e0201e287,
  0x5e8c2005c62eb023dbb61007a24800398315601b260fa02f2b95f0284573b0366aeb803ebdd2800375cd103e2d2330128a75b02cd779f0204a7c3007684cd023da666002df2540316b19500e6f4b900391c8b02ebe9e901ce16ea009b27d503ed762302093ca102903b0e02717a9e01c75a1703980de2,
  0x22009a0323314e03d774e80197e17503e4edcd030ed0d503413da1032a43b0011aba0e018ced50001b74ea0299243603bccf0c0088987c0129316801729a90037ec07b00d05465022534aa03c21c390011b8e101998df3035ada9101d2252402320772031b636301963be3039c843e00e13a98006209d4,
  0x1a26ba00470223037c059f0090e885009b609300a17119029bb86f02df9c4200c074370349d5f5001ef28f0079e15f03c0515100e1f2b5009ebfa00046ff9b034621f703338c850303397503ae18c4002374e5011b300000a580ba02cd1e9003b17a5f02c021530190ac250350f926012671fb00af5bc4,
  0x12d261028a2af60215f16c00dd66e702a6d326014d81c803261957006b0319015a558503f1fb45003d8d7b03716b33017f3e4700175f5703f66edd00ce1a4102daebc002c13482007685cf0090354a00126a8c01b7f5aa023ba2b402d489d103add46f0284ce1500e07c7601d9784003f06126034e4cfd,
  0x2934840210f5f703dc022d020ca075003a263703b99c70018c5096027acefb038bfc0e0159fb540013f81d036a1ea9024e00b401ea0742000c2ad8037309e202004da8009a1b0c0332ad75020ce7810002be3c013ce0b40229bfee0330131703ed8fc3030d8f130073bafd0223ccf1018c63c3025c121f,
  0xb893503524cbd03330f4500b3729d0135cfc903ac446f014f88b1011d48b102dcb7ed003d19380034a4a00226f8990116a5e403455ece03d19fcc03d070e502e4725302e409fa03ac372a0190fefc00312b7801ff08f201b433a302c364a0014d1b2600f25aae0158650200495cfa01e2c8a902796610,
  0x3fd4fb036a4416002da2e7036d5c410177cf2300dfcf5d0082d0b0030e4767026d713f02a25bbb00209f8602f508c803622fe50341e337029e652e0385df460055a44d00b4d498006979bc039aff29003b571a03f24f9400f3610b007e8a07038d63fc0178124d009cf940033ebcb200fc2d270009dae6,
  0x39b17a0131b241008123c1027e795d0231e174022514c70364fe2902ed55e301f8bdd201d4023d0013cc4e009cc33b004a3d460087a9b6026bffe70321c15f00738e3103ddcdc102252c5400f23a9100343e29004b0f4502d718a400873bb80347d8f200ce4f9e03d7d99f03f7d4b7004b91e70065dcd9,
  0x2280b7032f9603006ba76803d20c8201502e22016971ff01235ad501a1ebb003dff5870336f1a2002e4af4024e6d0903b00e0701f15dac01e8eda5036e633d00eebf500378055403fedec9011ab8840025e4d80142c7b201268bba00457efc005c58d3016e705d01cdb65c019c7b6301588b69007a12d7,
  0x2cd70d03eb11bf038c8911031b228f02f3642003713e9f026f2b0002b7e41102f67722034ed6000027b5c302779454036191920089106702f2bb35036e46fc00983aa6012d804f00944e2902cf5e62003a9444028e0eac004306f2012e10140202be2d035194fd0254845e02bc6fd9001f546a00fb738e,
  0x23780d013fd57101a3fbce02b0a64e02dc72be01290835008c8c54015eb4e30276f1ab01de7eea00385d20016ba571029211310033003e01b69f4803e8b3a8038419300272034103db035503763930000b38320017a1140021496002a7535a02c665ed00d084c9033c2e84025e91320047c0f900a200a1,
  0x33a3ab021a617e03cdbffe03a33ad7035b3bbd012017fe016c383102535f6f0159516a030595330026dffb03fc1cbd032286fd00886f0801b219c9036488cf01d5d5d300829a3900f98c9b03ac46f20008efd3025cb24f030cd76901764ecd00cf169f00e7aa3f02aaa88b034febc101c65217037c351e,
  0x940050111ecc001695843005d7d98023d27f203ddbfd700bc428701cb0834013ee57401268cba003c64b203e3fd030361cb81013e6587023c506301bb3e5a01448a6c011e019402cefdb801af52fb00258e1802f8522b01c6f09f003d731800f6b843020b181b007d85480043646a00d3aa7301ea5b4e,
  0x10062802b03d520282a548027f2d3a02a705300317e421016306f0007144fc0151612a033a60070017e8c50185b849003e279f012c26c402d40a80035b1c36028de54200dd0a990043c89802863b1600346b8201ec6692037604fd00aafbce0326142700542e5e02cb008d02b1c2a502e5c7af038c7561,
  0x12f9b603def9de020e73c000380c0a0286355c02d2d0b90101276e03ebabdf01bb24c802fc2b78001decaf023c8912024cba0f02d228c7005121730209b37703ad3ac1008a3bb801b2e5fe00b44c6f001b904a01334c2e0318ea16011f947303a83da300a5c3c7039e53ad023ea5c202baaffe03188135,
  0x47fff02a5b0c601f4622b03f0205303913ad6020576a20121f38e01c5117b005bcc96006caa730023834502adca2100f9386700d4785b03855680014e15410071083a0054010302583a18007b79220007106e03c2f3180183d19800a6a2bc011a31b6028eba5002be641403ce65f7002bcac80240d2aa,
  0x3321b903505fc9001f941e0137432501bcfe6603ff52ae0006e6b90046a7fb0300f7030393ec9c001f2ed0038e369f03c3aebc0066dfac0306440802663fad0202431e039e397d03e3327203abf55d001ece4701690e960001823a031f37bd036f164802a59b01027fbb09020bc160018e4714011eea1a,
  0x3637f40159f66c023999c803696c2d000bff9503ae93930330ab8703b319b60253e7a90316f07d0035dba801789f7b032f9c630068bf2a03bbf13f02e23cd20164f9b1024d1fce00f8cef0004b4cf00012548d0289a22401fbba6a038419a60069d89e03d3bcf5002a59bb00f474e101c5115b00fc0e97,
  0x1790790352981e00b7cba703d38443024cd0b7008176dd026417420315e8d902011d4f034091b3003c9724039c1c2103666ca60217e46c01c01fd501a09c5e0134ea92030574450349b3cb01412bcc000d4aa50163d0e901ba8e650123c1c802f0afd6018f3d920219f6030242c214032d81a2003f50f6,
  0xc3bef026c9984005e33da033fed0400607b0e03bee321038171fd01d5f871020246d40349e061001be2f300bf212901c40257014116f3037cc72000ffd1ac0172d307030b6180007ffc2f038842de001a09a603a57a64000d5d2603c5669e03a4a594038dcb74008c204900133c21024cea3903e71685,
  0x17a6ca00d9b665001ef4930057dea202dd378402bc0e910023a1c102b3f1280159b43803737d92002b2b9d004824ef00d068f101e48f1502c4f4ef0237aa0b033a90ca0229a3a102a688fd03f0daef000e28b6020a0a4303cf45fb023cdaad0156534b01be977903bce7ee028365a6032c7fe100d9af5f,
  0x9e21e022592cd00fa96b00146704f02f500a1009fbbd302df65ee03ad818b02f6bdfe032801f5002d4818010727a502a483570311c52a02990f41000b226b0382384302ad899601b322af036ac87a003a22470286284301c2608d02f3cf7a019ccfd800ef04c702b926dd03f659cf03505eb101508bea,
  0x9fa79036aa8fe00300e7902b6b69d0352d74502555734008ab50c033b406201a7594c028913d70025b377033b0a7a02734ec50066f1340031d48b0205a9920092486a0147604e037b089f0305ba50002b46b800dd1e0001099dab0049c4b702834b9502738d2603d8240d0361c8bc01bbf60e029cd46b,
  0x330b0e02f8578200fa366d02caa4680012b89500e012a900ba5bf800ea694e02c976b3030d554b002f84e00241085e03200dda0108cc8b0028d7c8033f184103a8273d02fde41a00e978ab0300a85b002d7abb02077070037f194403225f0b0036ad610149f10d024ff0cc01fb6ddb03710f940398f687,
  0x1180b30060ec34022bd1b702023829017da04001ab12e102f45c1f01c426ce00409db800151f19003dbe6002bda38302e8e37e01b5733f0260d84701536ab501d4ac470313010000ceb8be0217b8300019850f0204f40d0231edb30061e238009b237000da80fa01c37c2c003d6b42008df0ee02a5bdad,
  0x2420e2022e9f9d02bb179702ce404701d7762600b9027a00b8b6e5012dd7d10345c2f3037b992f00118e0b0141ab5303810636018eff420224f9db022edd3600e40fb503c6e1a202a68dea03af897a0016cf7b00cdf1d1038f208200957fbc02fbeb6401fb1ffd01dcb1dd0041b7da0042744501c6a61f,
  0x3b2972015680820326a37d0369d7fc01d6830e010e75550337bdb203add09202a7e81d037a84bd001787b20257ffb502da0e5602f2e1d803890d4e014d043d0026e27600f31074028cac1a02e88a34003e61b5020b309f0261b63901eaab2701051b9d002e5d9b026d6bc600b5d9cc0146405a0231093a,
  0x2c47b0266139303e3b67801cb6758009c7b720095cde303ba61480210d22301f87da90278129c000c57f8019add570131b9e601ad307e017efaf202695725028a0b61021ab86002923a64024801860022f6c101e54d5b0378648a00ec888c02fb570500612dbf01a0a4de002e31de0138499300d449ea,
  0x9a9890313948600e88f8003d94d6002905c4f01346e52021828da0379fb09022850aa0291e58c00119b9c038ad139027436f0000815dd00a2cb05018d8cd001f97a0203bdd2c7017329f2011cbfe900048dde000930a801a3fd7e0355150d0259e50102026edc01c1eac3010a0539024164b2017aae7d,
  0x2cc25e0141c6dd00ba9ade00a672fb02ea45f802fda06b0369f08601e689510228cae7026a92c8002111fb03f10f2503a9406e0188b2c0039c6020009ec1d5018460a0034a55e50366e5ad01c87d8c0027acfc0320771f029aef1700f394bb03c4244901eaebc4021c247e002c1510014dfcd900495d7a,
  0x20af2601ecd6fe014e532602a8cb700184b03e035e476a000bd7e102771b68034f750003e2355e002bea430322ab7303064055032d64f10297e774029dd7c70358884f0262488f0129a626008dcf050035dc2b01e6994702a5834e028492c403ae29cf020e3d020288627f027730d3017e58400187e87e,
  0x6dc1b034bd46d02e73f3702d2778e01d4817d0167f17d035b1d3f02561e2d00ec8a880295a77d0013af0d027c333b035070990191371602014272009bd1bf001b4712004f42010057111a02e62c65001779c2027eb36402a8d512037cf44903f2b7c5019ab0380021a6ff0077cfe1026f442c02d0f898,
  0x17ebdd009e334c031ff9a503bddf0a01da7c6800e3179d01b6cd1e0385da0d029328a50268e4e4001d09dd0148aa0903f155d302ff0ac8023125f101dea48802eba58c02252c5d030e7f9901f9d933002ff30b009fac0602c971ca018c483a002058bd003d7c1403aacc5a010ee542024ed60c03330705,
  0x927ae02538b45022426b802e1027e010b8092006ad78b02dfbe3402af83610269cb2e012445bb0026d4210025191900aa12b0031b28e303416e5c01ba3c9c023e0f4300288e60032856c3038b4d5a00132cbb01f7fb9203c4f39e004361b2016ecee1004b6d9e02383c8702ec3fa803514e8a00e43e97,
  0x362c1003425608027392b1004ec6f600b77c7503c464a203d63eff0096285d003390ce02309ddb001391a2024f26f9034a5ddc007d688500ac00c9022c17bc021e8dfc035c646d02a2660b038510a7002033f0001a59c00252e87e033cff7201c0d26600dc600301229b1203b6078b01a431da035c393b,
  0x30ba3e024683300383ae1502c3c13b032c696001ae289a035de6dd03c2f42e020157e8023a482e0017a9db02ac77370144e3a402357ef500305fa200a936be02fde1120166cdab038dd29400f4a08100339c640272a0f600d14e8b03919b5401d41b2000bb852500ef8a5d001f3e1a01a4019e016ffbe8,
  0x130a120072b19200e8d39a03799bc203a22d2b01a0875102cea65a00baa78e006171e701a6e9510012275601c504bd018a3fb403492b83027d71ee00aa87eb0257dd1c0333c94801f9212803ac820c0007d96a023d9eee00f5bd7903cdfa8003a9317c02ccd3db030b3bd800a051c001aef492002e472f,
  0x28d95902a3efc3009e6b42029c05540020ab6703f1c7730261b5ef00a2ef0601f3e0f60305f890002287e101018daa01432d2c01cb28dc01f6c5e103fb4a370171b5fc035f37d30208d4a7017f4ecd0009a6580330338b00af614402434b0c03b74b9f0343f25100065a0f02316592037956e1017d5272,
  0x2e406903d5006f034c0b7500eef6680013a60e0365d34303e4b38701c5d8900109101c00cb99b9002d26e30035c0b0019c786d03f7f86f030b9bd9017606ea0014b92203ab26f9038ba945014d1e16001642a9012313a802ec5121032427920347adec00faa9e602e0bdf301e0f1f400a4b2cf025937e8,
  0x3eb27003cc4dfc031647d702ba5e14039b248900b3f17d0127d3ef029d5f140177b65b032051000008f03900678d87016a1cc00090071500c48e130241bd75026a27ac015aaab901dd51b7025a5c47001bf24f0161c64a002f41f000f1ce8e023dabbf0136ec1e03f92672030fe6cd0337b2f4017d47e0,
  0x1a936a0296e61002448ea400909d52017c2f1a013f769600bdcd2a011efc74027af3b100158f1a0023fe3d00c349ba0057bf4702b3347a02e23d7c0049dcb50077620801628bce02441106032f8a62000127b2030d498d01797ebf00668c0e0301d30f01b9b1ba001f5f65033d952c01382944035d2d44,
  0x33037a03c75397023054d000f331db01b0373303d4b87c0259aaaa0224aff7008c5a1c011e7f32001ae1b901561c7802f4854d0286a95b00052b5a024c358101d910fa003b711402629b2c01984d6e002652970261205f0146a031017e7c0001cf9ad9010bbd5803ed60e203b945b5011054260382f3d9,
  0x324f59031bab84029c7edc02ddfd300285446b016c270a00ec096b016bc03f0301e1e1029cda26001e12e70363512c0009065d0086b98c0351292f03130480039eafbd0393b20303143e55028b2896000e24bb0070e26703d6d8c3023c6a130297531b017cfd7900bf6c9c011655720050ed32015e086d]

/-- secp256k1.go:10, serialized bytes 92160 to 122879. -/
def tableRow3 : List Nat := [
  0x0,
  0x25a7ac0103fe5d023b8bf503f69e1b02e3eee9033fc9b902a42f42026f3abd010a4a7400868ff7001f04f402b01418011d1b7b028bf0e70217e4fc0037136101dc5e0b03c447960268735f03262b54002e15370102cca803a131e0021602bd008709f6003f7a2601ba8a310105753f032708ae03600aea,
  0x1ff4e803e4256800cd4e330028e2760250321a01679b6300b39ec401859dd3015aa091038644bc0021685c028a9f2702baf9c000fec612002b3ac0027eaa570315c315020fcb410079c70700047884001403c8019422120052b5a50093890a00ae0f120190bfb102333f0302b29c44000806a502dcb5a3,
  0x2473b20000d2fd0054d5dc01231bc2003f5f0700ce5902015fad560055939b014b0826037b9dd5003db0fd0051a56700b787a501a2507c00ca9fa601df1f790239beab01cf843202db55a301a750bc0019335c0056cc8203dc5dd2021d7ad501ad762a0129d14802c9f10c03512cb002d6a8e60261bfdf,
  0xd945f0380dad9036292b202d7fa6c00054dd502f5e647032a698901a29e880378bfea03ba77e20020e0490265b74c039d4a4602437ada01ce74a30380c5920014f2880129c4f800c9e6a100d0f38800028ca50097b8ee00142b09035788a200403a4c001a4e3600f4559d03ff9cec02c858d50340d9e5,
  0x26c76c02f6d9d000ac8aa90147242c0381ab6200fd36370132d4c6022fca07001118d703d8dfc70024dd6503ab6e5403bf78ff0283da90001a236a02d44709020408cf0284dc2a01cfadd802c27fde002580a703b41884016384ed033e66680281a89c02f8191f002ed39c03341b6401a9628b03b70030,
  0x29ada4001c0941011265c002dd35e40245ca560049ff74005f294c0108b6e101805b9200bc1427002a1a7f00a39f2602a5e91d036f7cd302abc6a1024fdd510212bb5c03b1c503024333ea035987b7003201d800ab26ce0106e833013380750059ae1b0344b899033a4bb40076a374000450d8001ad6b9,
  0x6f0940375d563009c303e00ec7cd103ae4235022bb937009f56cb03cebd71020cdad703b752a5001dc5d40388d438009e41190358ecd501466d4400adccb002ae23ee01786f0a015c36bb01bd25ea0000546900e6480a01290453021747df00f8d4df0149b553010c487401291c240157791702798a77,
  0x2eb1660120911e00b94cea00effcf60237411000dcecc502f6570a00f3ee15038bbae401335799002063ef01d0dabf037998bc00d4344a0022c1ca012667d501dffb46002b3a00002fbad302dc138d0015a52b01ecb2af02ab26cd012662fc01db0a140004eed602ae3f6702ed7f1f030be39300444fac,
  0x32f88901fbea440054afa401514a40034d97a20028596200c5677f01d43aef00d4b5d101fa6323003bec3002a0f34001ef588e02f79d0f029677fc0232030000e0a3b303235a560253f95102f73467003dd3780322b432016096e8002ae2050294641b009ce6b703e7b8d20319080f0264ad0a025c0255,
  0x28742d01c2b12e0204e5be02d1afde00f19bb4036a1bfd02df413c01d5cbc9012b778a01048bcb002050a6038d9db8010d37cd03db823401e1f0b801a77b8500dbad0b016de5ad00c73c39008551b6003fea750020f0b801eb605d03145fa0038e7bde038e263203689c0900737dbb0187964c0343c7bc,
  0x19afb803d2402500f6acfd02e484b301089c67015eb2cf0195d89c03330a1303840a4002b1ceb7001b86ba00bdf98a028b5471036e49f7038533df0001f63701dca11a01e06b760076cadd00fc44390036c94403fdb0f1033730e10165f5f30052f40b014f8efd02dc31ed003c737c02dc3fbf00e586f7,
  0x35f21d03d9613202ebcecd037e539500e52a3700582afb01b3c79200f2005500535f8f00eb3a480013da3a001a177102a7541503d2e6500108cd4203b311cc01ff0a740247f9e003f1b981021dc1c2000d3f8103049ee60005fa150000057303a3b25001a3b4990182a14800480300012d2b02025d2c59,
  0x1d0e1d03c5c88f009d89a60320566a0368c12e02e387ff032c5ff101aff45101931e35003c6d86003eeb4203276b42005a92f903652eb2034d413700f3a817026f52ed03b736a40061fd9c002191a8000a87d803f7257d03f657a3018b264c03d84e6102c9bcb403c523ef02549cd803872f2402d9b7ce,
  0x1a2b7d015132d703397f0300445fe203b06c7100c9eb6802ec154c02c507a401aa4d6501aa4a610023d80e0389e19a01b0c867006d443503d55a4b037c43be0393929d03c85d20036164d002bdcfe000309167018706330395ba52028033a40175f7100158bec7027b011f0331a6ce00d9ceef03b755a0,
  0x23df850138a8a403cca6a40348e0e503d04a2b0022256201066dc30363c88501d946e1019ee395002c24c8034d1ac5034569120197465101560d40020931b6010de7bc0060ff4c03bc2fe20001c7ba000ca730018fd3e3012ae1600085a54401eecb3603ebc967033351bd03c8d4b8011f796902b1f9c9,
  0x398730290f9da02f715e9034e1e240383b24d02f722cd0067567f02400cc80159b14a029dc30600181f8000bac07802780288017f0ae10218ca5b0218d0c400683edd02e91f0203aa68d203c5fc6c001836b20082b07200405b9001bf9641022546880343d4da011aea7b01cce43f008144e600de48f3,
  0x1a73900cf6d64028e3b82020750fd018443c000dfed9b010f8d720264045e02fb13b701cda87e00259fed02a5f0e801f2fba5031ec455021c8aa6018dc5c9026b4d830031e58a02080a670357f7550008d6ec00c442810256ab8203bc05430296fdac01b3d76c005bad5901b5b47e022c2bee0250ad92,
  0x369208000feb20001131dd033c2e0d0128ef680263185400feec4902d27f1e02768dff0377248d003129e301a5ca1502040b1400abe7db0197161b02644444000fef0f03fb5e8c011b94230167e21400074901028c9cb8022b47cb034828f5015120e402de8f7c00afced40381f74500cc3049028d3cda,
  0x34f1d0129014001518d4e0099fcf7015614b101441eed01a88c930382d2a80088385c016043fb001199850072407a009be61b02d354e400bddc3600f4dd36014934c102a3bd6c01549a2f03f10c8a003e77f7039ce4ee03a3a7a903651c7e0157660601ad7b7d03fedb4300857950022f3be602e66f27,
  0x1d41d802bcb31d006edf66039248ff0069915d03e1a66200c7eaa6020c351d01c358d502253cb30010f1c403994b80004c0ee2029015d5016ed3930385e41300520d5e039c856202625fe70033eaba002456cb02b76a6e002d344403b0bc4c03253f7701573ed800cc5ae2020b83cf00c233ba0332b8e6,
  0xfa8a8028e83d50283e7e701351cd902526eec0065297a0390aa41012d24b203f0f24f01d8f1430008fa2501deeced03b1b6d30121b8b803b9045200cfb5a7016ad71203c8dfb00198a07103a1f2ee0007fa420375548f02cbba2902b06c7c00b53e2d03e64a5d036c350e0108aaad02dac2e102bdcdca,
  0x1903ef0062aa2a0378f7ea001f8d6800e3ef0e023735c3014e0926013fba7902c776ef017b29d3000d047802eb7cc401a8010d01354554029ed8440145d5c003d2566b0255322c001d461b02db5adf002735140180690a0231b30e023cfb34037e5115028c40670139a92302299d8b0085653101cb49fe,
  0x145e030120f34b010528bf005c395d00839af40000e01d015bcaac01fa2c95036223c801ecee270006dc0a0071183c023473ac01aeb456006d106403669915002ede100056798c0138e5f803566fd700061a0300e5f35f03b90b260361d4270178275702212b4201053d4000a46c0502fbe63901300ece,
  0x3336cb015509760364f107018a8e3d03a9f53e03fd50d40310ae8f01606101005822cf009d9c880037075001d21590012d0e430030cddf0138135400ee9d73036178d3016ede0301b5edad00fa5e210003a91402aa888b013ebd4c029b1b7501aa6bc7018872c10295a0bb0176bcab03e9d15103b69bc7,
  0x303f6902284e6d03a6263e0009daf302205ea9032686d402551e2f03d6bec903b8bb230107138500050819013b63550168ba4f010854fc01a481f302575c2e00c5e41702e8f9e2025a124a03435aae00085c31030e2680020fe704002d6007006e03a70086d7fe029e6f2e03ab922d0234ed7202f8c80f,
  0x406103c0f06102d1a67e01ce976402786b8800526a6a03ec741e019e750b028d19a8025c082000353da500a4685f01dd53ea02a342b703d31f0602fa009200f353d50329fc1503d929fb024bc5580034f66801e0d68f013016ab018df20b029bdd1b00d83b4f00a44627002e2b9500769097023959a7,
  0x27fecf03764a030131601c003b84de01343d71030d7c31016a1c3902e8a4e6000471a103cab67f002faebe020c1f7e01e27602008a8d14026e2b7501d1f5e50147c667009d7651037577f803f633db003b3af80055dd0000eaccaf00a1516603b8d0ad01549280021725de006e860a0363db2003751c9d,
  0x1a15e400421e1b010941c7022cd7810084def90371e9fe0197ed4701c63bac03bbed5b0322c878000ca95303e0bc51001cc060026614660160354f01224c4f009a751601c046b000274459008f66c30014b1b90285dead007af3d80324f25903b2f354011a42c300a208f30063b0aa012fa46c00ee2c3e,
  0x12558100d528e303cf03ea02a9cda70200520903791a5d02c0e0bf01f78bfb009cb6a60231426c0025dd13034741d3025bdadb03b0f4a201d8cc5602fa2305013094e103e2ed320067b7a7001c6f720023667b006caac7024f207500593886020b083f03f893970073ca9502499217026b0ab800d2173d,
  0x2204fe02fdaec0019c84e403e3fdfe008b15d8001e18c100a481b502049c1c02f6cbfa005c885c00388e1a01bd97ec038814da035db6d303acadab03cbc23e0122e733008a143703ddd89e010fcd50002578b5034d5915012d542701ce392801e6b6f900a176ed00542e2c02d6b9e40113dad601628e7d,
  0x32dc860009b607036bb630011a32400124cda70071b9d300ad26610248364003e65e96008d56f900059cb6001a07850363ab900331bcc3021f45df014d8a9e01cca28d022d890c02f57be3002cb71100389e35013097ba02e9fa3203a502690230302a009588c00201df8302a09958022936730282ce32,
  0xc405c005baaca00f0a97102dfc8210085e6a703ad2cd6011b273001045fd803621c6802f6acfe003d094100db6dd300687ecd02e8fc27015d652602f854f902a6f20b024713dc0380724303dd696000107f8100b4692f02f02ed802d3cb5f034d983700d97584010e7f9c03ed423f033e483803b13fa7,
  0x9505101a6d47501b2d3240045f7e10047d6c203044c7400df298301502c3800af387d006da4f7003d11e50170e1cd024c033e005b7ec80168cb5e011a212b00a2b4fc032e5200003f62e201825bd300162660009ce6a301a1992a018ee66f023c592f00ed9ad900ab1e150268865200b0a94e007e6770,
  0x11d73802aa0aeb006ba76f006969f300949cd00237cd2c03b98b110131c3d002bfcecd017d302f00321b1500686f0c01df277b0211f2cb03b36ff301837f1e0312b08e01fd042201075c04007ef8c600108cf8016de2d2003e044201e6b16001def6ea02dc17aa001c9254013b146303d8e2420170dde9,
  0x3a5da601db4fc000cb9367013902140023564502daab060026152302a1f31f0223f108025f180b00310e9302a7b69a03c0a1c6031610130090756c02261bc7012d5af3011f1a43034c00c80007bd6b0006e28d031acf7a029ece2b0161bed9017af98c0318791f01e37aef000ad860003bee63019ca6f0,
  0x2c473c02762667022c4c3103fe67f403ef638a02bc1ab8003c888b01975dc100452d8900c340d4003eb30400249ca603b04a550388c3b1024a8fec008de3aa0172706701b34c020123286303592d6d0037dc60037c2b8703e3285c0237f30c03fbfe6401ecc89b035508b203ebf9b200cea18100a44002,
  0x1c653702a2d2d500135f9e0273b0920034f0eb035d0ba803bc97e802d2e37c0379c7df0249c70f0005a80b01c0be5403a0b7b202db1f250377fb3c030440ae00746d3000a8c6b300cecb0301480a88000d110d0318d20803f4374300642a140237f68d00384d2203d4f37e0198898b01a3aa4002fc87fd,
  0xb0ed4025e3467039ed0620150184d0109391a0264ff040263133b0203fe7e0081c8c503afd41a0009eee1023862b400663c2a03dcd72202e2b58300e0289403149da201961bd101de3ff0006d7633002340c802aeb57000ad79ba0145a19a00f6ff510029f5e601e5d8f50329437302a59b57008b6374,
  0x1798b402da4ce7003ebe40021518d603ac09fc03ece7b503f5c1bc0382ac1403644a8002dca6c100119a52024e0e260367272c02b80720012b279702b8540801916112031530d1012a228303ed7508002e2ba2038c69f5015dd2e30302d3660320a6a601c85699034fb03003789d7d01999da00074d437,
  0x12ab79032824b9035cc2f20368bb830102e9f9025b26e40374b3c401d105d3022f222d007b030f003871b700ac31a40088e80d018427ff005c3c610361225e0233ac0500e0055d0311bff100cec3430000014e03e587e002b3611300d35ee800f080ce025f292101902c8503a8295e003ef8a30209241b,
  0x3ea200167994d02f4e99002147a1c012b481a020062d1021f1cd602658bff01ea2b1c00fe4f480014786402d895d500e83f6101bba7110289858f0176482c03721d5800b8d8ff017b376501ad1ff70018ed9403fcb38602d69b9e02b2202b006d085e003349c001429add01291f2f01560b050094e16e,
  0x315bea01393d6d014cf36501babeed03c3e25503b1266e01b650fb034b926d03b4e4f50110646a0030865303e9750f000dff6d00a3cf8500eb3905019a7a320295b90901529c1e0399842602fcff7e0026f58d00b93efb016c0cf3010d63470343e93100991b0e0176943902174c21025f96d30000dae5,
  0x8590e0022f4ea039af51703ccdb290248f47103ba7e20035c2ebe00d07c130091f35e0299dcac0021cb9c003dcb9800624d06012a1a46002bc4410307105303f653a8037a58ab0266616300613bf7003fdb9601d62da900efc6be00e62dff02eabf8a03393e5102312a2e022207c901a2e83200fe56e8,
  0xce9c901a4da1e0135c98700a3a1ee01ee2c910259272401c374d8022767460313ee4f0327d44e0006741903eb45010162cebb03591e3a03c903f102f0efb101b65c0603ce2cb20384358802e3da3000236a01004c70200385f7c1022d0a4700d5c97e016f016101353afd0150dd3b03442972018e2aa0,
  0x263dc0033765c50274818f000cc2ad012dba5c000c20a90057865901ffd5de0175bd5a021165fe000e3da102c758fd014f915c014d84fc02f48ad402316e0c03f8c44d025d209703372a3b0108d787003006b70089a2fc02ebb64500d4e543004b545600d81a200127d4660151108802465dd102fa1c06,
  0x2a3ef0012aadcf009f20ba00e9b18403ed2a7201a3f49d00eaae8701113e38034f3b8c038a9cd0001d8d5c0219908502e147c800731ac40089be1a0287a47a0083ad320083e7d501cf3bdc00ad34710015a4010387d5da01da01f901f6267f02f824220075ffb603fc841b01cc675703e9a91c02006e75,
  0x1b9c4b029cbb5e01d12cee006b681901ec07ac03bd784000ed59a503cf9a0a021c49fb023d8e6c002b779c02c61c0101dda47c024d6b64036fb8c403facae6020bf801026aa8fa00597f6401f24c450017980e01898be400e92584014ffb1202795d83027fee3d01caad37005bf8fb014bef17013ddb49,
  0x236df3006d324203cc12c200fc33ba001d206800a9c409004a32bd039d6c7e01bd3c1003c1345a0010834f00ed59fd034f13f402f2c9b403a79d1301399e9b026304a901e03c50022a35cd0020e5230019b40f0082c44c02181b1a037d01a401baab1e0333ada902581fea029dd322029eb2b9035b6411,
  0x10aea00840122018dd96103f2e67401c71b9d016e7038036cab0b03b2c436031f7b9a0292dba4003603080075c3cd02f9220a007ac4cc026086f301bcb1dc03d2037f00e858f8015bc97c01e3393a00299f06006861e101c8a9570073c2a602505370016ccc31039de477030abdd603b66b36006bb138,
  0x1825f201a112f9033208b4003d36e10342558a030b52f000c21fd303e9baf2032c5873007dac6c003f921c01e1028702d5ac7e0183a2ab02f80c5501585d05017e6198013c9fbd0089d5ec0355eb6d0001dab5037c7759031e581e0187b6ca00f2f1a9001e16ae011a815d020f35f700a4af1c03b76cd3,
  0x7650c006560f9013b086b0012ffea02780eba027c224103142f57033aab1b0059d65e00968c81002ecde001e026ea0166aa9a01658857028fd737013d2a00002dc81b0026314e005e984503222511003c938c03a8423b0022126001f28df2003b078f012a76e90189ba570056dca603d8dafb039d7aee,
  0x28d7dd00f4a2ff02983ebe005bbd5b03bd13620150227a00a0c8750351a40b02ef426300bd4935001167770146b48d0220c1ee036a2a0f0369271a0059f449029014bc03f6cfe5008bb7da03d88a5b0033b55001aeca2400dd72550288f0ba011c0c0203968d8101f0549500dcc97500b5368502ccc998,
  0x67d51029e899e02b06b1d0308f24d00943e18014b468b02f0a05901c42c4a00747bb6016bf717001022560289395e0149675502878ffd037d246e03df19b802179ec70030c15300f4cb6001a46edd0004d4a00289b22c025e554702ad8ac8012242fc023e7ba90304a100011e32ca013df4e902dcb088,
  0x39e7b401ef771900d6367901af62fc03c51e2203fe766c03ad991e02356a87035223320306f1ea001350ae01e4dc440045f7980298ddb40092d05b021e41ad006e1d76036d46d800132afd03d9332b002a443700d9f73800d321ef037dd2300165628a033915930189c8c702045d9f01f9eeed005e093e,
  0x15a4c00062396d02e7de2100b1af6200e8f9a103283708003b9f33006a6232005c51b7019ffd6a0030c8b200f8208b005fce65025385d3021ff5f001d7c8c000f1e6ee02c87929017984680299066f0024ccce017d5b2c01c81bbb00084e6e009b006a0119a30501bf1d880208707b01c04c280189de43,
  0x1c9ab03669c61011edfac00294a890336cca3022873fa036f9a7000c995b40112bc0e00b0c1ae0006795f002c74b5003a3741021504d4035dbe2000f435ee008a016802b5410d00711667023b61820003db490269d06e001734a3030de3a1026f684d00f08c570146e7fe03251aed0012e2a20292b329,
  0x3b8b5f021fe7100157d7a402ad23690108cdda037dd7fc027edc5b01a15849001253b200a77782002482f001d626e0016daaea0087481802f4283a0392e0f401e0749d006b1d1900d25168039f1f500011f5410101fe2d03c02874007c40b6038d4fcc03dfee930279e00e034636d30089620303f1b7f3,
  0x9d7140342a5d7035a23b30231a2650283068401e6573e02fc2afc028b05a401d25b9a03e4eca7001b18de0352e608003c435703bc4acd00b932c002dd1c9900dc13b701a916a60035c17f01b8f37e00055d79025c9a89025b3dce026ae5dd01ada731021d69800264fc2e00ba2fc00079d0d5022669a1,
  0x17afbb009689c900c38ac5009351b303983c2f03ff507d0301ba2002b36be500d1ac99010e1a050008fb3200eed22b02ac8e8e017e6a2d02a9f230033fd7d80141ffbc02299c7702680ec200628c5f00112e14024d8f790155c1bb03204ee801e26d590391adfd02f3ecda02dec6ca006a6df1001b7bd1,
  0x29994c01beb897038c0b200111c88f00804f9f00027e280011c90800e243b802527de90342e07f0004606f03fc6d230267142103b096ad009b270701ae2f4501a5abd9009e85bc00632dae0267b06700379062014c95a3013b2bd50188631803d9d214027a6e0f033943f803e12ee003f7052200bfe7c7,
  0x8056901c058fc03d6c834034750ef008d4a6303e86723014e0a1e037d89bd02434dd1007d8abb00278dde02fa94e90244818f0109efb8032666b90222343500df072d0138f7980257c4080375774d0020b57301e74f6502b3abb200b34349018f54960218fbb30214e256024e6d5802e44ef1033333d1,
  0x2ca40b02a0d6e103368f3301cb72b001ec5059027c50b9017816430005d50c031ab494023acab30003eaad00a0193e011678240074ba7401a20a0b00ddcab900a695d500f0b3b101dc0ea7013933ee001b6836000e68ee022a46be020b968d02c1b460007f5d5c02c820f103924ff3016cc455015bcca8,
  0x525ad018023480256a379031ec1ee0291e57703709a6101f58c6d010125db03324cdb01c88d910030b5c90312851701590957002a7dc402338a03039351230147087700dfc69b00b115b70020950e003f905900e5381d00d596e40044213c0249a5a90213870603cbe962021bab50023648880056a520,
  0x88bf403d87adb03bed12e02f6220802f7a29c03a76c6f02492b8302f0440a038348a3018abc1a000fc5d30388ca7b039826ef03ed2a5000ce3c5203f8b2f001e5c76103578e710234c54901483f250006068601dc241902e61d3702b516df00a40886031ba16c01c68a8f00e3be2b034bffeb01a6d6f3,
  0x24fa510296a17702be59080106f149037e78c50131fbb002dd1bac0248f07d01ce24bc03f3c7e9001794210241b4a800865a6403d3dcfb0191972a0123fc5a02b21ade0193ae5f033a742a006792890025caa2009670cd03fe018a0218be5a02cfeee7012e434b026e618a01e97f9801551c17010de0a6,
  0x2876eb010f341003d85adf00ef9ea8003b4f6802e84f1901d446b801878d0e02c74ede03333ed90011e00e004e474c00173e9a011393a3036c0399016b290c03a17bab03cc0a7b03c6645601db52ad001c0638025d5190006cbda602ba07de0257b7bc0307c62803031578008c4ac50365b63d033aec35,
  0x2b41f9011bbab900e614af0325bd0a022961eb0004e1ee026b861b01ea92320357cdc70033ab03001268db03adef0d035318a6021172d4030856d80224637201dc838b01caf04d03f653920271aeec001c816a0047918c01d09325029f8600019d9e40014656da013f2e2f033e0dbe01c43c4e0211487f,
  0x3848240008f454009f369501a4356d02f3213c014d07680258595a032ddb17033c1bc8025f1be4000d5b08031fc74801b743f1037f9fca01fd809f00f3357101dea86b017c9f55017d6837005439c100162bb00354d63b03a13fd600cf7afe0249c53c020fb068007630e900b324d402efb4ca01990d4a,
  0x13930700e189320202fd2200df98a3004210f900cea90a022fb5e7036cd4d603d3186c028cdbb30012b97503647b4203613c67020f17cd000c5c37030a0c8a03ca5295017682b101ec26f902499852001973e7014aa97b005ee851039721f800cdfc6003ceca550200a1ab012b9ef5022ce2ef0195b823,
  0x3e0358012339ac0365400802f940e3012155f40209df1c01104ecb0397b75e033add060003b6450034e01f0395888f03b820fa008ad90f03c9de29009e725a013b54120125be6102686a6501e838ae0018d57a02615dd70388134803068b9600be9da303c5ea40038a75b600d820c600d42d2503d8e214,
  0x1971390182c36500c36e3d0207972d0164e021026cdac40221ca810035bb670212172503e876910037b1c2000bfa2e028ebc7303dada6b0362da3c020a9efa02c181c10176207d009839e600a28e0d0038af1f00a641cc02e83935024601ed029f10b802291eb1000a1a6701fec0ea012046d201b200a3,
  0x2fa68a0331ecb303c6d4bb014e6d21026b9643021cb23303d61611016d635c010e8e2701c28b6400127f9e00c1505103ff740400c6cc9202f7e3ef00cd98350397019102341a4900c4c51e0030fb11003871c101b6813202488b7b0232819900512da4029bdaef01a4f81e013dfbde015b738c01171931,
  0x2c3c2a01c45a4903563d340120536e02694e4a0215ad83029cafc100f5626d037586a301ef69f50038172f00d99e0f0116683c00162edb01004cea0305581c00afdb2d01cd14ef03960b8c00982e5600058b8300b75c1602b78b8600c463490020b2100244820303bb47740353eec103c588c402fd66cd,
  0x1aa6df03ef0cbe00df810f00dba9cc009396b401871b6702c0414d02a0113e01c67a1403da853300306bb403f2b35e029d50490040ef2400f8dbc60044a03e036790bf0021475e009ab031004a58d4000ed77200610c6b03e9d6de00d96f4f00404bf401e746c301633ec803fac20701c807de009583eb,
  0x11104603de09f700eba3c000f0a30b01cd99250249bf4100c0498e000a8a9d01889e9400b2762200125d4a033f12bb0239ed7d0042f94400b6e19a0392e25002cb44c000308c1100f954a600a659ad002b3f86032c3ca6035801cd0305fd5c00f3e4ef03ec834f01b13ef503c89f7e02d0affe022f06c7,
  0x158b0f031e45c7001e0aa6013f52bf039fdaad003a80df02c922b702e84b9c00402a8f02671e750011f32d0148bef400644fe3026de2300170f30f0016eae4034685330061b47c01fe52b7039213910033841002be28a103685a1201c6ac93013a0769032bc46301311d6d012b9c65001b8e4d03692c93,
  0x7258031588030360f34901ff4a150257d1ea01f902720383843f0030d10a0194c29101b02f65001f8ee603d0e25702971cb80252589d006832a501108e8e00fdaccf0227d044015543a500fb10d9001f1c81008c2db90072fc4602ace84201386f8c009e9307027ffa0103d605d600c07caf02e4d88d,
  0x2b8c6700f36af101e6439401d1e587032798d902d5826a037b0c810379058d016a6bdf03a67a16003b81740390475602f5e99e02fa1a29028e1e35015f3c4e01a2494400503d490095f5c102d1353700129908001050310186efd30012174b022793c90077136501b97b0d01e6b249029a7fd900f36976,
  0x192a92026606c70228baad019fa2520355ced00007331a03c1812d00e40bb6024c14c302d579580039e8530384ef150034c20c011b40c20103fc0600ac956a003921f70327867103129961021725650005704300b1849a000d447303a2699b0396e63e013f228e031ebdad03d01a2f026469d703a6d6d3,
  0x2c527d009c82fc03b632c50042022201692ebd00569c510097a83d009d92620346d8a601cb849f000c5d8600e0c4fc01d3925b0009ff8c0167549e001591b902dbe54702f452bf020190cf03806c4f003b761201c6db4f016798a6029161380190dad5008d8cea01de551e01f5e457017035ff00930b15,
  0x3118ca02bbaf6802b5a85903d154d401adacf8009a00870269d32b016b52b00093fb3d0329e3570029144901ed04430158dc9f02817ffc00001d850095402100bfd2cf019c1eff0222b78c034a3cc100024b6901a6871e01b8176e0229719a0091fc8d022f54d5005cbb45014c081001e61c4702a05ddc,
  0x34cc6303a76cbf0190a9c402059d1203b5ab0202e08b6a01970d4b018cbee301e387d303bde95f002a3519008fe996019c27e901d4b70400ee24c5000fd93f0232422202662ce702a027570229db2e0037ebad02bb67d0019a72200141ecd700b2c11f023937fb02b132310216ed450378d8c302a1c8df,
  0xfdb1b03094af401ec338203f7862e035d1a8103f6193c02c5d4ea002306f100aa4edd03bf737b000d6b9502e99ebc02e1b2350073ecff0367db3b036eedf803b06fe5017dd1de026a656c010f2b69003832e10142a7db00fcbd0d03c069ee0086bcbb002d01c5013f03f20282de91013da58a01fdba37,
  0x3cea6c0280cb0502ea1099036382c30372bec00012aa6e01ae882b00cb5a010341aff50183e9ec00099e3d03df1f2202813d1b03a2824f03e7ace7002c3b04036be9b101b191c803b33226021a949b00108a0900ee44a0038f338802af5f69006263bb0375b3f6003a882103b82fc001d0603903cecaa7,
  0x188dfd0173ff87027072ce0127f7f0003ba330017451a60338c81a0061d47e01e4e9d802280c12000077d3021e47540029328302dd25e802cef36300d4dd88030ee85f013f488c00a9715102d183a4001dd201032eb74b0291a6aa013c288e005688b101e9636601307e5f00e92a7f006f892201d23a8c,
  0x1b698c0147b3fb0095c46002fcacd001a8164c0220cf2902c07d160288acab01ef5ed60309430c001b69b202fb3b98031c7c1803eb96af010a928d034dc8750179634c039356b9015c9b44011b0e3e0005f855024ee89501cd15f800e9f1ea00f5107f01a8109d02768bf002c916f100c5c67d027ba93f,
  0x23e64c036a598101f3348e00ba382d017923e2005a74cd00de152d01637f3f031b1b4f028b6c26001fc0f100a5ac2d0340840702d61409026653f202dd600b0066785d00e1607b029f4eef0062bebb0035aa1c028515b70076538402fffcb201855245017508ff02a2dc5d00e8ab5c029a9d8a01140d85,
  0x9d6110246fe42011a67af021b7a5001d3d19402fe3d640312ecbf0115c095039b9fd00376788e0000385e01202b1901dcb30902c42dc201dc0dd7015113fa0381ea5e01b97d7701b0942e03a0321e002e911202d34ebc02edbcb9028334f801cf371d01145b9c03874cc2000ad273026543fd01518d73,
  0x13e7c50360b464032d8071033bf0c502162490007068590285726000cf35dc01157e2602ba1e410001969c03d6d38902abcff1015beba3031364ff0089e2cb01ef5e6201a277ae024dfbde03f1da2c0036cc2003cb1fbc00da3bef01c8d8a500bd3a5601dabd30006df9c400f3443e037eb35200318f89,
  0x15018503aa7c540246b07400c6ce5803bff91d0103c34703ee552d020e93b702490fad038adc81001929b20109553802a520e40132bf2e00b10294024a221a000176110205e5a6008a004c0240b2ac0035c05602cd773300f0da05015584cf0206297800e31507028df81903110471014f20ab01fd5177,
  0x86fd5006333b801af3b81018c5b15012f59fd013ec51d03fcbeb4012f3633026ca81c020150780025edec0185633a03ea1def00e21aa602d0231901573f32018eb81e0245bf5f011d047002b3b35f0032664001d39b2100224c2a01ff5b940059162403c62dad00df5ac701788140007e7fd403866e27,
  0x2c00180316413800c5a1150315b7330150d11e02e170e6034d0b35031e503c03536c8102f5fce50028d69100dd2ab403fe85980364623d000f068903612637022874bd00a97e160295aad10138adfd002e8f4803f77447020410dc0090b35602287fb002cb2e67020f1cea00e07d3203763ff3003155ea,
  0x2262800322b23b0291883f0335eb45013ca50602684d5802986ce903f2d632026bdf3101edb38d00343f6501f9cf0202ea3620028c7d82020f2cd203535baa0327355c013331f3002a1f4b0079ff48001c3cfe0381b7e8016699e403935c2e039aca8b0216bd03020bf69b03b9a6060368dbb20279f03f,
  0x14ea40008462c20159ed07030da36a01face8203ca9bfe018d2a240363324a01ac07ac0308a43d0022c3bd017d7ee502b5a3a301d82fad03ee428e02b9d68402de9ca9001b343603685a750233b4a60036cf28009193d0022b40810355b73203450e2d0186800d037ca13a00cf4f9f0279dec203188890,
  0x1d9a23008e865d00dd42c3035d1b3e00bce48901a9755502b3636703c9d35000087f9203cd12d0002b7b6201e6ab8901560623027d93f00235e00d033ecb6c028e9b96009264a0029e604c021791ea0031c8f703d60c0402371ce20240b96e01357cc101f8e3e600291182029cffb403cc26f100595659,
  0x26a9bf01eef30a018c39cd0277fc66021bc05a0200c7da03316c6403f2bbb20090dc4e01fa602c001455fc0256a87b008737aa035ed70000a86cdf01b380a703e18b5c011e539e01d35757014f742b0012f1ac0340918302fc42da001d2a18016baaaf01318bc30142e9a602e2415a00aeeee701547654,
  0xf02a016b635c0009088502c3dc2903dfcdd303ecb04f0327b3a50215aacd0215ff6d0206343f0019bdb701b684db01f462ca003d6796035bd14b01d7258b00fe4b8c00c3c5da03d5b9af008556280015689f009fe87802633c96024dd852032f9bea03117e18018cd2b502d25a5f00051ce20110d6e7,
  0x1a884b023bef860373f0cf016b45a70201d1b002390d8103456fb401cc380e01eb966400afbf760008e657013c35f402984a6d030ab5a803144d21022427b50005013c02329eb8009cb872000544ce0013f49e01849e7103a6d33d02ea4543011aa64103afae890370a98100c25b12004eb632035fc45a,
  0x398759026fde8901ccdc8a022e13eb00a9cea70211ff36035f42fe0250f647024dd236011b27490011038f03440e6b006ae5a60041be580223ac0a01edb21600dc030400e1b5340137955701e1986f0006ba890221739600be12110338b673001fec1f0224c31002d40dc503330c80009c87030394d6fb,
  0x324a7e02af483001ddab5200362dfa035bf8f5016d54ab0378ab35008d4fa90354d789026aede5002e6cf301871ac40047e98a01e1dd0103fdd99d0101bfab02419bab037617a100cc824601ce33cd001a100e014f2c3900db2071033f90e10080095e02b12b040075d8b00059ebf10391c634028126c4,
  0x211d4d00dc6fe7013dda1801fd02b902227fdc013fed0200e8c57103f474a402463e1602074b710037fb84027387d102fc2c5b01696c7900affd11016cebfb03a7bfe503c976ac009c79dc01ce14d2000f6d8802b5c7a6023d1f10001cda200022186a004709fd02cfda1701a3c07a0269ba9a03b56373,
  0x314ea00345e7b600784d45024918c201fd9b1f0039ecbc032a5170013fd03e03f68bdc00fb8c5f0021799c02a52551026ff673033d6209009298a501b7e8b401755d7401b1f5520061219002dfa14e001aef3d0366a5a500d48e2f00896e7c01ca4a8403258f490397d9fd0340266f0010a00c018d7acd,
  0x1981ca00478ae703480bbb01205e69019a656d039272f702caf9c10252644e02afa01a013942b9000296620378138f03925f0a0355298000cef25e02314894003a17a003ecd7140298b3b101581f41003341cc0157cd07030933ea03ff4fb10254f036012ae63b011ee211005fb3fb018e4e4201735331,
  0x144b6801eeb8ce03aadc960398155701d07cf801e367e301a4747001835b53028e8b130059042a000da9fe0323d250028e6543035e327002dcf6ca02799ab0034193670164190e02d6a0ca01ac25c300165aca0228d9a3021af45202726d3e01dab98b01b9208d0398837703b5d59f0180501000a5146d,
  0x13e3e6039a47ad01c0a4d5026e869f032ee14402643ebb00f8583b010f4c7b027e6d880176b78e001f81d80287228f03ffe4ee00e626d203ad5c2801544bf1026f73040182500000c7ec5400751ac10034e03201831385011f6249031115c6007f1df303828ea501c4016d0126f71d0112cf7d03ba6b56,
  0x3971c700a6356202c744a003d2250d0298387602a5921503d679d3016a4a6a012f5b3903dd04690000e55902a313ee009a20ba039b25bc034571c3016477f401366c06003d84ad030d3ad8036062ed0018b6190096a0e7029cddb80341f0de01aed9610019a53d007d55140295864800c010c702fa4397,
  0x19abde0362e22702264a0800eebfff021468020316a479024b19930052aa070202085b01bc4129001f4f4d00162815004de4c1006508ca0394a70e03b71c0603c5b2b20110b9970217e97803fa19dd001968dd033b176c0384dc10036020fc01218c01035579d502ffa3f400aae0540143c94501fc4c60,
  0x3bf60503fd497d03c06c940012186702ed421603414e5e022c6f09011cc7cc03f1baef036ba984002d8c7003c7e6e102219b3103f863bc03768df301e3937200002eba03f025f603526da9011a0653000506e7039975d60235852f004c4e3903c4ff7d0253cf77015d045f037c496c017c9854005145dd,
  0x3994a101a4480e0119f0110030ba2800570f4f02516b2f033f771b025230c003ae9da10346c90c002f458902de0dfb029790db0153d297039e9e7800a7919500ee558101f28bf000a5e61e017dca6b00373ff602844ee100df413000f62ab00253e5f503841b8300ea6e5f0344f17f037c678c0167260c,
  0x2a77ee0141e30b02223faf00e4d5c5016d6a3500bc6be30398d09c0155d2db032ccfea0056cb22003bf1d000cfdfe3016613e402806d39026a37e300c36a540135dfdb002edd4a02f78632022865e100006c6c02147d6a035cdca601bf6974027e247a025484930039a1c90071c6ab03bc597303440735,
  0x22658f02b3a0b001ee107603e6b1140162aed40307f3420332b3ac03063080012a190c037eb5cf001fee1000933fcc033af64101bf064c034258ae01d92f1901dc9f8702329f3102a94f5d0171671e00125db201d05a4d018c3d76022457c2016e06ba0033b5ff02cdfbb3003a71820258afa3036a0f2e,
  0x2432db018ab9a90397994c0018b8d000c0a09c01122e0801572fb801297023017df043005a76d600065e900327e10403dbc51d03e1d9e3017f5bce02357608019e3ea70378a6fd01ea83d800b052ac0004ba320372873c034ab7bb00681bd703466100014a3f7800318192029623370189505e02973e96,
  0x2f4d39027ae7b103ebf358021bbefb006ae3cc0304e95903687fb303513e83033e819c00023fe40025585202d302cc009b99e7015a60cb014e02df021fcf5b030356fe00f549b702fcde9903c14a900038810d02c9bb69025b89b5026893d7033250140236dab603a92b680217452203dc97a4035f85d7,
  0x1967d803bc03e2000b29de0199f82802fb6b42038cc96901355aaf00c49263020e434d03b990b1002900cc02254a310110ebf401219aa6001d5f6e00a5f97d00a0ae3901039f190124f752014e36ed000b40cb026acc170194b178015f6c0500169a7f01f8426a02ff86400374e815011df2ca02eefb18,
  0x256e06005110840389003b037b957b02d9ae9b03c3996a03843056004292cb03a797100052f45c003472c4021909df03922aca013f978d026e6e5c01db357e0399ad8a0184f53e025211720025956e001f068000f52f2d00437dc6025f0db2019d7bcc02a343eb020f5e3e020f5c130131552d00ec3052,
  0x2fd97402f27472018dc64602d2e56c02784b46025d2a480025b6100083f3f902ac8db802e2cb5f001f8ec901e1b4000156ed890079d6f70226e3e400c1eaa402ce7a0d03b8c8db036315e202ad9328001a07280234df1500947a6a0157b47e0137ae6d03aa52ef013fbc5c022c7e8b000819da038d5f0e,
  0x30ce6a01b47658019da218000dbc21033188da02a28422022df4da03165121012017b300251d790037a8830135718103a0167e02f740a90194979401c5c6a60037f9fd0142caca027a965f01a74ee60023f0540217d5e3035d926900528b8000db986000800b6803978bbb01ca86d201118f4a03c2b23f,
  0x2d7c3015d2da90004f15403d1a27c03da7aa603949ea601267d3903708f0d03fbafe90398fda2001025cb0136b9bf03cf2b8400c6f2690187aea90238805501995c7e01b23b800301698003cc63d6000b790302bb5988027fa9850008224702e42b39021994cb00b0a85d019de7140220046a02675c31,
  0xd239c02645c2c0027a667023320a8028c9d2302f401ed0337cfc303f13a5a016648d501068197002c5171032de6a903ee5715025cea1e02110d9202c6d0040315a53c00b09141031b1c390289f9a50006b43c0343f9a10276b71b017a13e600be618702c4b50e01ad89ce0085ee7d007a7b9a02efe450,
  0x1a5e4c014a0b0400f1604b0215f7cb039811f80320552601b9d1b9031161da0104ec0c0319142d0010fcd500a939a30091f71e0041a7af0008448202f83c9801a4b2b20306e4c703db6c0602335a3e0004eed6003c3fdc00d6521b014f09e001e15252014486020285d4e500b2f44b0231684b03d1ce73,
  0x18541b02cbb4f303afa6ec0003e9af0321587d01e8b2c402ba98ff0093698c01afa59101b2bc100037c764010d869d0373444b00b0f5890188d55e026a6c800177b806010978fa037228430091f5440006d6fe006c7291009db24e0085b8ef0174a81603b07a9600018b60014dbea60086a67903eebd99,
  0x26e8a02c4355700b80f4803760df5035156c10165a1ca015c5d690177e57b013c24450116d227002736950058fa2c0263eabe01cc772f03654e6f03f3e9f102e3aa04025e0686014c695902062f6b002c658a00259a95010ba3a002ecb993020be1af0133a32702cdee47027cf6970109a1b702ac13ce,
  0x2ad56102a8203e00871a3a028d558403a3157702cc93150282e08d02b46bf2029892a0036bcf3e000cd9fd0094882200871ada0012094500db422302a9ff9603f89453013022ab03ce840600e45ac000218bec0114a13802eee3cf0241261002df00d602a19a0c03e6d3b402c442e101330f930221ad60,
  0x278a2803b0b4ee01621ee9030c601403110ebb016fe6b4022b8f0d023e3a3e00186e3701a221fa000127c902f4784902bf9d3c0082fd830052804f030360a10344f19601c1304c01d8ec3e005c145200118da0019dec5c0189986001d02f0203b78d570382ccb303c58cd001b1d43f01b6546f0087d497,
  0x2688302586eb402989ebc01c819950049a2ee00a1f2a2038380df0263761501ad9e56007adc61002551ec02fd62e2013b1bf202ad842902af7a040386c796012712fa038b4eaf03ff6433018d7d54001e9c9a02ebb6f1029082380318061f008c0eca014bba150136edcd0201169a0037d5fb009b89a7,
  0x2ac9b502158ed403f9d9e8027ca4ad03a82bfa034ff738026ceb3c01803a00021f81a002d3044a0029b81d02ad9a21013efe80003d8280011c20a303dcf82c00ec8c4203a2e9df01b62c4803f808bd001206c200fddabd0143205401a04e4803a7e23a0134859a01e18b2500c62f6d02922dfb0258beb3,
  0x352f9e00b2673c0181f55f014f74ed0252f1a30197748a01bdd69700029ed0003613800242eea9002b4a0d00f89b170284fbaa032961c0011ad8530367cf49006c062d0192f85201f65e540325059e001e94f4002cd37703c02c5900652f0e00c009e10024d2ec02d495cb03df4fc90217e1820142a0e1,
  0x1ef08100f6e19600fbec6503ffafc4030919df01106f2102204df10050608103d1a1df033c50c20018c6d701c2f281017776bc002c0e3d0061913700b10d1603a2deb102d0786701bdd05a028f5587000c03db016e2fc6008305610224f7c90226997b0223b290026dd69202d18d720340958d032877ed,
  0x1d6b4501f24b060187828e00a18bc801fbea480241e31600726234030b159f035d6d7503067ee2001871b800978176023d65230311fdaa011f27d20341df5d033c5f550161e500036a7653008cf048002785550248a92600fe39d103b89dc30039f5120145f801030b90fc00b6dc99015d978e01abefb3,
  0x10e6bf0262c3aa03c073c30308397b00ba42ef017b829e00ddbb9501e328a200f763ba029e2cbb002f4519032c023d02acda23034ffd8f014664120293f4bf021af54900336e220095655b02453f92003d580802eb66f2027a921700abac5902ee06540045792b032ee3a500fcc231001faf8d02817e6e,
  0x2e0de00310ac2a010da3760074af17005d6a5a00df663303a3f3ce026883b903f8b3bd024383810025285103b29b89035e122d005d0f9c009131ff0055f019011f4d000088061a0049e7c1030801b80002299a00a59ca30356a5cf013c3a2302c5b384025110b50332eb6601f0eb9302bb157e02b8dea6,
  0x1ce21b0009230802bad16f001e1cf1033fc28103835e6f03bb831601732fd90258eb220091513a000f7100006c39d70074ac2b0178ef02006510ea003954a201809a48020b67e00388d4a200fdf467001ea329000f788e0092f1a40165425c03a1f195001a440b03d0c65c026107ac037b854002a28877,
  0x94a75004f190e0342454e025d8b82002689c8014274f102c8519802685a6a001dfb32006513b80035bd5303fee34800c2aefe02ee6ea103e3783c02c993a600f57474022c5d430111e29501a31a9d00369127018df3c503155de302d08029002c0f1e006693b200a060fa035478a903e3e2370266946a,
  0x1ae75502e39acf003d5672007e11da02b1284901de4e7d026e8a8e039e7fa800184f3201cbf0230035ed8a035c961b0136f54b00bfbfe000f39b8503bbaa6d01e2566b03d25d7c02abd82a02d2c0760023d1850344192500330f5702bb03e803edfe1800fdc3af034b62ad03a36273007a64eb0021dd86,
  0xa2f9d02c7720f01570bbc0207e71d013a0b4601b70a95034cd55b02833d9403cba4a503b8e22f0031caa90101a3820055e4b9039fa7aa02844b22003c140f01dccf8c01d7a340000b33c00149afe7001f828d00ce2b8602f4d8fc0105fd53021abacb0264fef200877201002162fc02b20cbc03dbeef8,
  0x1466ef0191891902b57c27022bf3f90244d2b200461db60064b10703c1bfae02432f9403283864002880060360b5e00316f958016dbeb2010c57ad039220ac0317351d018168060101cf9202913d300028467e029f44b3026909a5013d61a5025809e3000de0db00a945a20125e6d601dbc96603746156,
  0x1a7a6f014cc1f40125d91c000a2ffe0283c24d034518c90197b5770038bacc03dd6e60027294e4001c7bd002b4b81c01e71293013ca25a0353871a02c61fdf00b398df00c237d6019849b003ab0515001047e1013b413f0127053c00e9f04f01bb2b0901c76af000aea24d021fbf470186dedf03fb083b,
  0x2a14760295879b034867a501c93f550181f7d001b4905f03b90d4400ce59ed02c10a180294d9bf000f9e1903fa8cab011addaa02caa00c0291100302c22b1202fbac6703cf169e028423b001fb4cff0010a2af0349600901e12b9f00d5e72e01dbd81d038a8efa0036107500cbd9cf0081f69603cfa328,
  0x3b8d70023b78ff001515dc0158eee1021b9e12010f73ee01cf5e2200d33d67000cf038004b94d4003ca4a30305dcde0350d39002c957bd01197aaf034c43140255d7e2007d5278036ac81501cc234300192cba0083b8e2016e702a00d35649017196a7008213b8013357d5026e145f02b6e7f701084e7e,
  0x5e5dd0174b022022d024a015f3db401afc23900980fa401df8f1703d62702015aaf57029ee44b003ac15b02064782009dee2e0205b8390188c58b007f5ebd0212724a00d5fb1d0153b0e303a4b4df0009790d035e43fc0378de13000d46dc0001bf1603e829e702c63af60338068603e33810013b9f55,
  0x20d8d1018aa50001f2edfd02e1fda8024591c9021d5ed7001c725602701aad03581feb0204853e00293534037ecc840342a602035f90610312649602132906025488cc02cb298c00036215032ec2a100034cb801dd51a801cf915800da45d4021ae74e008e9ce103ea4c3a03ae4ad80193424a0180df02,
  0x29271501824fa003992e5402214c0302445c520049dd48029d49c500bdd00503e44e1a01ed30b600274bff0399c74d03410444000bfb510284b0570164dcd30197e717015c3a99023fff980373345000392efe00ca4235024fe9bf00b0e7b1021cc8be023f142602b50c470133fc4a01a5181800aa686e,
  0xdf9a9016c7fac01f3595c00591cb301a149780085dc64017177930388589a02d06b3d020668d1003c6fd703af08c3009c646202eb3211011c050c00372da500a7c7e001b874de008e1dbf01e9cd4d0000f11f0157594801ac6d83039b91fa035173b4010d075f033dadd700a4df3702be9a1c011cd124,
  0x33151901758c490190aeb202b748c8004d9d320245e39902c36da0012f97e70039c22500da6903001648c002748e6302207b860322495602d35cf1014ed5e3039facec0384c5e00220f3de03e8973e000ff48e02b3d99e01774ffc01171918032d25c10291bb9a015101e0013ce7a90332aba503abb432,
  0x250934025b0002008cdd730330104f0234342e0274877400c292ac02ab617a00201f58031fdb610025083102738d36037b2b77036bed60038c915c01384be60261c338015d92000279d62b0268bb32003eee9d0259fff8024e190102139cb702b2f9f6013364d402be4d040381a2c4000a5e37022d1c94,
  0x362568031b175403e80e9a00fdf34b019047b701a31ab4010aef08031300c4034cac3b039c4d6f0011ad990087a94e00415dd7027b597602f44c9c004504cd037520f002dd2ae202cd136f0298f4b2002c43b7038598f603ea0c6700da710001fc67c10382dd3502d2e09f029cf731000d3e760300fb68,
  0x310b460363f25b021c4ef200bc074a00fc54b9035abb6e022e839900523b9303da913f00c332050010ebff0132d4bf006ac2210089906200e198f902de993103526a7d0308b87d016b05a4029e87b900235c1402a0589b00140b08023f8a3103bd56bf026e6a8903e8bf600206809e02f3b6cb009dc838,
  0x3ab51e015ed07001386de50044923500cc22ca0333d8a001d31d810218f5c702b70d55014569340030309a00cd22b303a633040210c2f3027e042c006c6b53002f5e3200eda14f0134239f0337b83b001e997b01a8af390331efed020c2fce03a45f4e03fafe9503e5174f0160661b00036603009a9498,
  0x2ea924022be1d5010a8dd60377cd4d02cf4b0101bac5ab02a6787202b77b2400de7ed101e1f9ed003ac679014ef543009b1d5902b5c9a2004ad13300ea443902b367e701280514013eb75302acbcbd0018c18a02afc606035bd34c02955c0400cc816f01ed594c024db07f0059cf2f028743ab00300e66,
  0x1747df00b949630390400a0219bcac0377fc9001741bab021d1b9d02709e830309f2a801f37c87001e26fc00521fef01fe08080027cc27009560650389a65602c8274a00b4815f02afa9e3020f93f70003921a001dbb1303c9255803418c0101e346e8038d244d03df292b03ad9a54038fbe8d0351a62a,
  0x193e860052dd300329ecab012fbedb034176d0005ad8d5035df2e201c75c5800588a59034607990031b45d007427e7025a5694033389b503422c3b02918b1001e81ae001642c4c02bae0e401f2d62f00306e08027bdfac034b0bc0015583f301402f9e027573b50006a42203db497103dfeedf02ef8ac5,
  0x19d76e034a081703d8da3c009babcd00e0ef5a03350dee01ba68440342257d03e857aa006411e00023f073000030a40246c48c01baaa3b02389bc40201a54e0141690a023b400701ee28dd0193a990002a869e023b7d77037307f60381263b022a4207004223580041683f0090fc2803644dfa0307f3c9,
  0xd780f02fd558f02a0324f03a05f45008f3b8a01af53d8009672ae0264cf0401372fd8013b95070013d964034935be03b392de02f293aa02b292ec0066c7de03bb820400c58e6b0329f6c303ab87e10009c1b90207051a02b7418303a48c63030f953d00442c270107e8f200735e7103938914013e98b4,
  0x2905d2030abcd201b6d83d010b5d0b006715c802b7f1fe0204b2a3035750ac03a1f2e000e8de970018d5cc03631df60144bb23021bd020023de41e036035af03e2f84501ade0d201ac550c021d5192000cc67c0233a362006e7d1e03b82ea200c65f9d00f46a1f02391a210099c8ef0292d23c009ef60a,
  0x157c3202b2fe7a024b202d0237b80303cb482a02ff8a9c02a4971801380266035c8dde024435b0000f0e060275c9ef016fe8230293010c0393ab26028d91440200e2ea00819e27007c5d150038aaec003c706d02b93d7a03cb1dd103571f8003194bc803225d0502356907004dc81e001d029e03d26cff,
  0x189dca020596db01c12068030cbe5a00ac608603988d0c019eb08a03b6b848000ee1ea03e51f6c000d34f90098d5540134b2270150c5320197cd76003c4b4002eb185d0369a89500c871d700503341003f6975031001a70349f6cf0019b072028ea6d500d915de0223177e00b7c99b00b05e2702b87291,
  0x566030102612401354f4a03b3af60027a82b50146bf1f0398f2bb0361df2e00bca88000e77e6c0020edc602ea5143039ef072018e8e47036d64640047d9e702375df802e26b0b023b8330028ef26a002c9b5e031b33d5035c20960299e835036b5a3b031705730056528e00866c26032fb17602e38232,
  0x28496f010d22f202101fef0250ede1008d4d96017284da00ff606f0252660b03edf0da024d99aa0001c955032cab1f00e2908700ee60d0030663c9013a2428001b6c4c03e8b13800fb6bb303967a47002e1f78039087ae0209c4120345596501e6bb2f015c91080050a6550315218002674ea701ea64de,
  0x12e49103c9699b0257adc702c15f32000bfc6a005b66bb00bd056e01862bb6010a3af5001e1fe600243f130202fafb02f486d502bb1dd803cd53b002caba5502b81260000fa88c02585e3e033d64040027f4f5012c6832034d0161028a8f5402cbab3f0060b3600338528802a7f72e0308707c021cac9c,
  0x3fe499028e6baa01b6af37027975bb01ef28d603a0ec2f0341000403ad4722036e25600356f788001e6e0c01b3d5c003b2fcad030cad04001a61d000e5a9d701059f9a025795db02d381f9014ddcd60011f2c300da482c0139aae203503eaa007162050176688401dcf9e50111288902084a290300b74f,
  0x1e46e50260990e0323efe4024738e00072db1702e524c9029ab400007f8ea50331ecf103eeeaf1000289f800842d05022a858a000fb9d700d59958021702d80197aee202bc7a2e02f7a31c0112719600284e0803f6e2d502bf6cd5034423f701d84fb200093ec302c43e34031292f30282bf6b0121b90e,
  0x3ebb5603b2eb870206fa780383aadd03177bab003e4ffb01d7f1b100ab0dfb01799ff3020115b1000bbc9c003ba2d700a7841801e8a27500808aa7012572ab00a41a6e02dabed80107521300c5278300080ffb02bd777a03ead96c023cffe301303dfc03883a2901b16562032e948e01feaff4010e34ea,
  0x16854600122c87012ddfe60130cc5700ba00f8002edcf001f0491f02c8710c01a33c8a0364ca53002930d503bee1f903f246d503da1a4b012e60a200aa2a4a03349c4d013f2263035ecd1b037cec3c000f890703ca836a01310ac701570d5703c4166001ce64920361c1df001c407b02c038ed0201ab2a,
  0x3ccae000e411ec01e2e1ce02fe75de011b22b5011aadd800d94a0502abeb8200fac4e300958c430014cc600188257c024105a200895eca027f055a01e0b6990131ebb800dca9d401939a5502632d0200160f37013d8bc7027e090a00ad6fcf00dd4444027263940107da620267920c0084d443028061ad,
  0x393dee0187fa5801440df0037496450088c4fe02857a0c01d9cc3503d1ff11004c007700436809000b9594003b428101c168c60114387a036aa02800c813bc02976fde0075d6f000c48e620202f12d003b52210146aa1b012bd51200120e310084214a0190a9c90295de1101179b10025d385500910a2b,
  0x49bd7035e079b0094eedb02f44c5701f046c4039e1bd402b438bf0190a77e0115d6aa01f3b6d3002e49dd00bd2eb4027c2c0b00f715c00029985d00601d1703f31241038f7d0c0098e662009aa6b4002147a301cf67030086b61b01b85193038f715f006e335f0392a92900db4a030224b7ce02d90276,
  0x32298c024b2d22015c199d0188f71503a9e8c90201d70d00751aa9029759330234d77b03afa5c6000c0ed0014991ba033f4927023c07e9029650b5033087ce03acf41201126c03003d0b9601c6788f0014d10103816ac800ff8f6f021a1cd800abfe4002169066025dc78d018219f203927bd4019d9c5f,
  0x364b56006acada031e7992016e31ac00f43bd601a97083011570b303f2190f00d8125601fc0f8e0033fed703f08f1303deb1040201818100a1e20d03adb2e601ea0960008f354903ac5783038526a1003a739d003e464800b40d5e01d72e6f00aafaa602edba170139fc49019429ff035864cb009e7b7d,
  0x2f53c600cedd7700c7295c01f7978503ab67750278b58e00c245ee027d811c03a04c3102e0f806000bbed3034bb86600f5291b026d8510029f400e005fbe1c0359dfc5000a26620074c01800c609fc00393fc7004e2a6400e2ab8f0035dd65003c85be0125732a02a8f22702a93c630371d4e9035a87ed,
  0x1038fc021af0d5009e597800b4126a027f29a600fca63102add7790289b28c039a185003b0c4310022667100fa6a280050a7f2028f2ee201582d970115e6ac0339cf99013ee401027091710380ed88000baa6803f92ba9023416a100da6aa900cab1eb0070acc001d88884008105ab026d2b620365ec48,
  0x17698600a12f9c03f1dbf40093be7a0151140501a4a66e03cfc7a90226cadf03ad099400452edf0012eff203e5887001f54612037a42390063cff601baffc6008e1eed022c5c4701e942d5006f1b600007629d0061a5a301fec59502de65b503fc6510029c2873012fc56100fb9a110157df4e01328ed6,
  0x30e18d02a6ec9400ee513702ad914c02ed523a011297e20332e1110399e3f801b644df03d018dc003a66c5021a99a302b764d6008cb82b01b5e4d902f2a3a803c98d5c011c01aa0347c711006c346d0036bf800034a8f2016e609c02c086e9003360c3028d04500389e3270007b9dc035e6439032933ea,
  0x3b828700877b5601da4d4e0222274c01a614c200bf9f460287d3f5009278a403721a9a00d50b2000274fae032298f100746da7029a4341029e011a00eb613c00d93221020b90a1009dae5902da234a00048423032f091401bab751020b8ecf02fddd030001184b025f4ac1017432dd03665c9100c4a9a7,
  0x307ed000c27f91034fd4f9039357eb009c355a02b8796c03a63bcd02539f13020d4d5f01debde90021139501f87df8036db8a7016ca75b02bad01c02f6f4f803acbff402db904702fb6b6c0269716b00315ef002499d1200856e1a0094d1dc013c9cbe020929dc0055bf1e02fe1bfd02f5673a03273d89,
  0x354ba7003e8698024a91e80267c483003c402301a4fa1f00260f1502db7d4002e855a90379d72e00346a0e03c9296c0218a26f03baa4f00037b79d0375fc7100b49bce03b8c91e0205cc6b01db6c3000356c87019a0973014b1b9902d8fd92019519ef01508aa801ecc1bb03f362b40378a78e023243ff,
  0xfd62e00c3fef4028973c5031064ca03ef279400ac77d30203023502c64b1d010922eb019ecd28000d1f8e034f147f01d2271e01bd193602a4946500d6982203e5f10a0273b829018ef2330128a1ab0033bfe000e242db020c0cbd0143da110271e5b4002d314b0060392502e71bcc021b50da00f68106,
  0x3bc47d009e22ea008a28f6004ac6a301666956028dcafb006056ca02d87dce02f50d150132b73000116daf028f0e9101e99c2f02243e0403adc37703fe4e19013eaac900f1bae700caf36e00d33486001f7383010fdf8b02baa54c03cbb1aa004f52d00135bed8002d28c200b3ba5f02b685c201b7acb5,
  0x2b369302fc7c740009d68001c5d5dd02090fa90008c7d2031ab5450347f86d0197938301275730003290d8004c92ee00b0005e014baa40000c5c75029c81e60243149d010a0c49020133dc018cffbc001b67b10342d8bc00035e5902f73d6203d7f4e902deb7e500f558d6027646300081bb9e0081705d,
  0x3365be01ad8ea90071f903025b2a1200a4f4b30220e58a0275fdf002b2c94501e0270401d8c6270016c17a00d70dbe011f9a0e015b328e0202783401fc08b10318a5b902a8253d00d93b7701c9a2220028697d01c236a602718561001251b3024cdfb4022dd271012872b50226fa030334f3cc03f4421f,
  0x378212008271b500b7981a011e660f0380d4700080a51a033634ec02316ce7023b2b8103265be9000158f103f00089012b423c03ef84790355b8280339086d0176126c01c7d04d02958c8d015b2366000edb3402096fbd00d803ca02c16edd02ebf32700847b6e00e6b752024fa98301d2275b02f05354,
  0x3ff172026775690332472b03482ab4004111db02678aa20022aad202772cb503d6be4f0152a64200348d3400dfc31503b0274d0379d5f802eea10a0041abbf03e4c4d8002f286700f427ae01058a82003adb74031925a7038784b60053ac33032fe68b02f432cc02e18a7a01e2d202037991ef025b1b33,
  0x13d4ed019b164b007868120249244a003d052500a0209203721f0e0003962b028d6e2e022af7fe0035d7c6000e53d603a73cc1011cf25e0094276c0093ebd7006a8c820235623302ed9f2302e270fa0025fb5102c70bb6012b2ce60012ec880233803e030025bc0040c64002c67e9b013a725a01dd9949,
  0x21955d0331a40700802f4f034c838f020f75b6024733210106d86f024fd5580383d2ad01b265f200296e0a033b6291022d0d7b026f30b903836e5e02fd6f2800cf722302dd42c5018ba0ea0200337c003f7714024fe7ca03ca14b30262d97e015617ec011afb37001f6e7703267fc20199364802c287ed,
  0x37bd470271fbae00174bcd00a90ea901d2b24a034bdf3e0119e737000ec13b02897f7802ece7e600350f5f01f90f6e0335cea001e044590348e5e60136e033035783e701b5fc2b028fc67f0157855200209a56002087fd002a1d6a0049f2f70130f8b703024d0703dcf40f02bd9ae30045c97803504564,
  0x2a516b013e073d025626640379632f033a6cbd01eb660401b8c1a1033b07bc01e094dd03b80c1000063c5102231f960244bb09030ecbe50052866001f6e94302ab202f00d70755023cd4ad01f8a1cc00151ba4028ec59903a29f65016ee6a801523b4c02ae87130389e8f401b491c90253f69c004cc507,
  0x25640901c23b4603394ec8007bca7c014e6be700b06e7d0115c94e017f275b01aecd4202ab24800007ca60035b05b002b57c0c02742b2b03027fad03e00cd0025efe72009bcb5900e0ab0c01a60fe600084784000a9fe103e301850315c4b9008d5fe7035eb3b3014999b40344f77c03d2d7ed00d8be8b,
  0x1c2c4203ac537a03f6dc0d008cd56101ae3dad01fa1b1d02cd1cfd01cdd77e0275dbe5017f7ebc003ad62802a86aac023e1d9703a0ef1e02d84f82007586c400582b2d037960b8035e2561005deafc0030c17b027619020220293802b9fa2f01f5e25c037b0cb802d8e0580284b2f900ba5c530366dd75,
  0x1250130023c6ba037fc90e011643c700793daf03718c410245059201b83bd4031402ed0277c5740003431f010b8a1d02534b4a029eee890177040002f1456f0066dcde01fa2bac033c617500bb69d1003a153d0132841c035817780073e60402e03b0601628361014a45b502f2691a0328fb5400ffdf98,
  0x2a3e0d0144bba10248d229029395e70051982202e3c1bd022f1633017c7ef600e7add1010b2b41001cedd503477ce0005a8f0f02c2286d0397522a01496339031c6661019f7be103bfb93a0307f11400038c5d02bf8497031aea7602c0e185001b54dc0335b50101b45764016cbdc003a24ed003551f68,
  0x1944b503623e1a002fa7d902212a9e01e4a0130076c57d01f5188f00a7c47a033807fe020f24fa003e2c56004def0b0119afae033a8d7c006936d4017154e1005dd99403f86f500128da87024c2b2c000d73bb0165b6a50101ce16019742a0012fc93403d113f001c4ec7b02a8755401fbe85700fd3d07,
  0x2eff77034b5de6017cc82a026f8d1f020375a000b1825300faa0c4013b540300d12f8b03de03c700200e5b01a342c10330708f03f9d59a02378c5d019a363002b0b851005fa3300353653f0277170900080cea007a64bd03121c7a02dd990801d1ed0d0228df6701088e11033aa3b203b220c200a67e2b,
  0x3171d903b0fcce0208c274015aafee02d25fa303916884021ad95102d2851100f4a41d000134de002e365e0104dcfb00fc542101aed3ef012ae018025bb83400632ec70083120b007ab7190197e13500135f3e029855360069c48600b4f78b006c21f303118dbc01e597bd02e1c45003cfb2190017f2c1,
  0x33b49400c9459900cc2554018b1d370398ce5f03f48b1a02305986037158b301fbebff01861d13003f9b2100c53dc001c49b510071c0df01099fdf034dec6101dbd6a501c0055a03ef19c5022b0823001177390353ff5900ab8351014e063d01e8745402a6761c014fbff600d252b3021a71800106da2a,
  0x253eaa0176f68c02c3a06a01a57b48038e51b901b570c403606b0b005e3734019048800375eccb00031b1101774ccc02b9d12c0342cd790379bc9c03243f9302a27e31016c34430322418300c6d1540011e07200f8699d034c09910129f39703c908580315e4d80394f23b010a091c035dce1102bf3928,
  0x246a8102d33add00a08b7b027125630068e89c02a82f6d002059c60170b3dd01896cec00dd7931001940a401d4c682024018a9024fd6cd02dbd700025c0c5d039cc9fc039e688502a5ca600028c27c003fd6ec021fab8a01cdc416008d734f013093f3012d3bad02213207007da8ee02eab6c401a0b514,
  0x142d060280f34902ca8acb03c8f20c00c8d10003078e20030c124c006eebbc01e50e9f014d4a0d000f6eff007183a3032145ee0079c08c024949c20104b909038ebe4703b70deb00ac91c202923a39002acdaa02a866df039f9c8902a2391201a63bfe023602d403a884c100fcc29101e619f001cf5931,
  0xbf58a022403e101f8709a02cbf19500e2fd890368df9a03bf02600220d0d1011abbea031ecc17002d4bc2006a619801d38f62037cafd000de2af900575174008181ce02bc7fac01bcacce01e7341d001a42ef000e05850018fe0f02a9a2e10306f19d005b067401fc0a970267db7703f0d8c1014be921,
  0x1eb03b000be24a010053e5030b55c002bb56c103d50b2f0360e64300c047fa0260d7470073e7e90001c79e010db01000156eb201dd2885012ab9fd03546f1d0325cd2803b028ae038fca6401d9b9c6002c026b0127063f026ce8820097f52e02d2e49300fccf8101daa6bb02b44c0a0378888401058d3c,
  0x2df60013ea69c032d03c9014ced6001ac26cc0256c7400267363e00cda63302c7d70502148eec0002382e004de52d025225df0208ab7201312d1d0256ebcf03e02bba016c338c03d61d11019eee5c0038e80e00a783f001c8646400a1ac14026e672e01c9c1700164ab060133dcef03fd646b008a820e,
  0x1fe8f102dd8de403c6445403f85b6103066ffa0232f8c200082dd8000f312d035b6fe20220045c00177a4e0007cda600a04c32009931ca015610b80223247503e571cc010bb643033063cd032661b100373e07029c2569018f500d0273827c03053296039d00d301eea95303f6bf1a01be3f3f03ab2b6d,
  0x25eab4026f1b47023db29a00322f1901f985bc0013a6e000d90f40026348130075fbcf01393e110005ce680362219101ca0f84026c9f5b0383a1f003f61f5e00f67f2203cae92b014e03cd01314423003a33da03bfdabb02f5cc9202f28da6005a43f8021c9c9b0237f13a03806a0701f739c9024200ac,
  0x19a653019f102302a334580100d1e3003c4f79035cf379025c3526039bb18d03228bae026042a1002deefa03e1c9d4032dfe9003e6edaf03e756a803a479f700bcc18c035b798102cd68570212478b001348f2039f1160032f0d2a0109cb45037800c00313369f02d25bdf0085cafc002690e8022bf3e6,
  0x29df9a026909b6008b390a02e4514a01068ea6024aa50501f3c8a20372ebc20101721603ba14a80023225d0247480f0007cec50340464400a2fef500c74e3102bbc1f70229ef96021e1af10054fcb100180eaf02a6752300b64839013baf56002efe1601ccfc7f0373420403f8eda100a7153502fb6117,
  0x2cdbe4003ea0b0007e04bc014ca4a503eb9a02029b3c460311840d00a49caf00d8aef70018f34900147aba01ec09250378706e0324d105039c2c8c01744bd50119e487020eecfc02810b93018d67180026cc030008579700b4fc060077ee3f0374db69012d51f800c0de7f0370ae740065de800344b8aa,
  0x38315c02ee55770006cb1a01a0856d037f151402eb964c03a4400e008e286c03a9dc5f033a0876000accbf01ecf55f036052f60075daca02d2a25c004b0325006c4ab100368d86027fbd080183759c000385da00dbb02f00619fbe020585b301861ec8031017b8027c637402b0b7d800eed9f3018849ce,
  0x22771e022e7dcc02c962260311ccf102cdc257001b580f00ba004800260d7303b6e9e202cb2c67000cd2b202d651ea02c803ce015a553003c35ba3005880ca03af29980080b8f602447b8901ada974001d035103578fab03a9be3b018f9a0900b1933f010c277e001684e30219b648002cdbfb03d85293,
  0xb8c0b00a155fe023f81a5006b7be401cdca61006a372303a6fdfe0209cc9100ea240a023fb7f10024b2f90347d9c80384c0ad0293c7470108dc1d0247a94f022299e70347fe50034334c30044acee0032d5fc03fec43101299ec00108a56201f6961101a6092f036fe4a400f32f4e02d3c71c03b67b8e,
  0x29e87602be6c1603e1f3e7006ece2a017bfb0701bbf800038119a20312c414027a7563021f9282002327b3012a28c3024653fd03beb70303685b9103bd0dcb03e542ee03042d5e032b7597023340530021b73e01ba8097025895bb025c630902854719002010f700b5f70d0380aacd0207dc8c03e28057,
  0x2b0fa301ffa2c9033c016b00b019d500467c760162cb340182495c01e5aaa102346c810262616a002977930048cc3302c02b2701aace9d03f131ee0352be80032105fd030c51650357b724008e2737003f03dd02ba8205032a12b401f9af8103176fea02a7a77e03457e900106476f0052cfb20280115d,
  0x39a05103e24367031b830b02691d4501795c0901b0b83c0358109800a6e5b6011a92eb00490cdf000ce29501d31a0f02b54020015f0fb903392388032240f301946395015c842003bf62ad00a7ab9c0028122a00ba7d8703bc159602851a860116628f02cd8cc00120db610213d7c3015b251a004c9e61,
  0xb66fe00f7d8d00225a1a101aaf0b7015b634301b7290a0276f0d403f0f57e02c32e1e00891063001bf2f6009c095f0148763e0171988003b8c27a00242e3003887daf01a080fe030fb18403310afd003afd7f0065c79b003a9ef802cd2804023283dc037d642a03518680018f78a003e3fde500dd6556,
  0x1f8d7f005dd3e300b3ce9a028930ee0182831b025dad12024b1491036c329f023208970260afda001fd94c003f03eb02acfe5102c24e7c00d6d27102ae5040038cee77023839a2005b0d47023cfc4c0004a3910194bfb40024148000ad960f03b379230133b798008f74f70095ba0b01232f6d01d09684,
  0x1523470157f9ce0147759403b1087d0023ea8f02b95c1e0349b3de01e37e83019b03af010db4d4000ba08801d328c0025c043c0290eea701ee59b00380e3d701dca7fd00b7e3980208c2df02cb6f12000529c2038700290226b9c001ca1de30138397c02b59131035d58910146d5c301540db700db7217,
  0x2683df01d0b45c01f8b6c4013dd655026bc7040377d43d0396c66b003fb7d3024b7ba200d4782c002a80f9008836240331dac902a63816034e60d601fe9a8901aaa940039eb077015c1ff600b5bd05001641ec02d0a12e01a85bed025f74a203ba64e203d1a4ee00713e280137e522026355a000d24f9a,
  0x3ac3660375fd4802566e9003374ad2031123ca00bb39aa03310c8703cab6dd02f7781502347186003f2e5b03e43b7602273fcd00a3b1d80354bebe03cb1bdd00a0427d015f592902a7c3e802c2eea50021ea4202acc645031bf9270276f2570003a96200df1d0a039e01e403fa31ab03c50197027152a3,
  0x3ed6ec032e2b2b01c81ffd0177246a0258432b00a2246f021cc8e402090a130141f242023720a5002a696f0215e63c006e51c7017f4bc300ccdfdd016bd3de01886fbc02be8ddb0104692002a87dc6001741ce023faa8b00889d0402bede5801141a490247fc7501a26a4b03f2b0f802da19790203ef39,
  0x3ace36029e215e013c315a0055ad86020b8d39021c0a9503c3cc5f02f83cb6035f9cd001844f8b003134c30186a74f023a82a902cce37103b37e7e026a7e2600a78df70214a3f5034576f60296c3c50016fd570009f9cf011ff5400135cefa0337aa6303f3d554029db8f203a58fd803a7965902e0736f,
  0x2b7790010a7983036fb0e801b1b5830356dca803f2506d0030bddc01a6f7530264778802dd7da00032a3b60348f5c401087d720149939603558fc803703653020a71d10212b0ec00f66e57016e252b00025a0001852f1501e7171d0090e045025218b5009c71fd03adcaae00430b0c006367b801b433b6,
  0x187df40232051e03cac85d03e7b69d03d0e27903590ed403c38b6803ec0c2a00b05e100103310e0036dcaa01f4844f00e0ecac00b39cef00d365d4031b0d84039389cf039c098e0331e9ac010d516f003fc9280381587a0198d08d020d622202af225c016d20a7012702c401d7ce8a022b877103a35451,
  0x1f6fa403ba3c39004dabb002bfea1d003c3ce80046456100567b540343eeee017954e200a688100027edf60210287e0343c17501850930036a105a01f8fa3900a5e72c03806171027860aa03e82eb00011124702863518010af55a01981269016a795702e102c402f1be4f00c0fa5800de2ac302f5d2dc,
  0x34077b01b1d342006631c901f56b0d03482eed030193a60204ac840128775603a991dc03a0ac2b00273a9402d7e8e0030d3d16037b1fd902e1c8c3000bb58a0194a13400547bf201591020020ff4af0033fea80013bc2300a0aba5003d2a3002f4c456031e9ddc01497d930121859800c148ec03410a95,
  0x2bcd4500fc2a9e00c410f203de264302ebeff40336c97600535858005b80690154038f0047daa00030ce230007d7d703425fae03b2a40102d8bce50375b18b03ef1710033697af00810e7200e3eb130007590b00b5e5af033ac26401a56fde01cd63cf00d0e6500046b84b03ee1475025b47f6024997b3,
  0x2d178d006693cf019b09330209f83e03b16357000a9102019eb8d30127dc5401d27a2e01b7ec9e003d6110000a25a001b0b3630103283f029ae2dc00c322b100a290c601209a8b02d406c602b26b94000ff5620077762b0320547400c51df300c850f0013481aa007ae8b2031dcb6902c94581007a7758,
  0x24f7d3005efd6a01899aef00a168ea02e3098f03c6571901775ee00082a2410170b74d03952cb0003f40c8017afa5103365ebb02e9821a00f4d92e03ca486b0226669000d4647800c162a4035a333f002981b101bde176038607c103b56fca0113481f03eeefae010f686f03a98f8e01bf881d00fdf9ec,
  0x10305701857c5100b08b93034d7d3300e9209000636c000310da2400facc3a001a0a0e039c43e9002c94c9012f4f8d0186c6e903db9bbf014d769600f89f060236e0ff00936cbd03cd053d03ec30690014c2950047cf2f02a010850330a63300ad65ce01d7e44a00443a4c03f18d26005d58b1009f38dc,
  0x3c0782009d1e39033bf01603a154c201495f6300f9f18f00cc0ef9035876b20397f3cd01e2d2a90029405d020d47890213b60d0188137b03914174025c1f2e03e6e5250046d5af0075438e00b7976a0004e40801a5c3a303110f57026b594201262f790217013f013fe27f01924020028f8c9b017e5e66,
  0x12721101226130011bef2200f410b30257cd51004d14130379581b0039c10003acf8bb038818150022ade9039fa88a02ed6b5603345b870285799900823ad20159de1a00cdba3600037f0b01c9fdf00004d53d0223c7bc0242cbba0302f2d402b57a670225b61b03a312920126d71e033f990d02695175,
  0xf6804013a7b3001b06ae001bd60b300003f70025c50a0028ed7820027466900cad89900b3b88f000de3e40099588602421df900d6538d009b5eb0007e1fc2034101640245f7a60192b0be03cc6cce00229a3802d55afd035c71a4003f34d300461acd01b9c24603cbc36f00cdd98a0284000402e34632,
  0x29fb850347d37b030bc9fa018cf38f021eff020135380e02f9f4f903d34440015640cb01e88f70000ca7430326c96a01f9494a00774c3602804449035bacd200f0e2ae03c56c0100336245027d4e3a001f385101fe8b490271f22e0359410000ed1c62015a1f02006ccdb7000acb24003910f802b96b6b,
  0x27081f012835fa02939b31001d088e0372729502aadd5d035855f702514e6b037ab0e400a5bc46003ec34201db69810254102e00a21c670383561401ed807801d886810299a9dc021a05f503f24f38001b5e59003291e102ebcb7900e50ef7034e760003e73dbb02edcd34033f323f018ac9b0009dd9fa,
  0x2981f2004fc9140365b69203d3f3b2010e451803b5b73b003f794d015dbf1102bdc3a9005fa1bd0038103a0142495100bb08ab02c5292202bff04003bb745202389f030334b88602dea3b601043294002cd3a40114207f02b2647b01d9357c03ebcb7b02d6e0ad0016df2f02f35f61038d8fb200818ceb,
  0x5690c009d890f035364fc01d5ccf2027f3ce602d28da8030ab456023e02bc023640bb0059d316002927a10023908801e2d0db009fd20d00a112c0007713e2033856f9018ae9650008f4df00b01b33002cc134035b083601c323a602d277c00185d62203e775fa0162afaf036d1b8a001f0e680309c58c,
  0x1661ae0254267e02c86a4a015fa086000cab3001e2639601a987f1035bdd820143eb3a008a0cb20037314601a1bd3401d8fcf000cbc71f011418ba01283c6e00f10a9f03b7815c004b00f3027642c9003e26c8010cfa7201813d0d0192be140065562b01b3cc2003a9d610023618f401eecf3703381c76,
  0x30a1960052b9700002310201bcb5e803fdf3d901128fec00a7da8801439c57003630cb0335ccde0035b7d8013cd63a00579f62000483a300836cb803aad5d20117286b0183070700d04c77019dd569003e88dc0351453f029395480227094a023d42680026ae0a00d935cd0045521c03793a000351cf82,
  0x18575800a0ded3014a6afa02bb607600732a60018be180011a50c80393b08a02620646032161e200111488005e3dc503aa26d30380dbb603f1adcc00e3202e0300ee0d026f9598010d27d501d45edf0019a96803a37dd102efd4a3039590ef029aa82700cb9d6c004247c300864c92012687f60371a729,
  0x221ea200b289c60048eac00055aa140241fe470316aa9f0377eb5d0378e1de01e8fbca03af72e5003fb51300e15f20027dfcc300a53f9001653cae038d6932033ccfcb00e53bec0151686e03d3b0bb0000957f01abf5c902e24d6901e914030079d59102846c5b03acd74803313e79015fe48e03c9f935,
  0x3bca03028b1cb202d5bac702dbd913035845fa003366fa00d11ca00298104b00838d8e014c2e3d0038295f01fb01c501cc68c1027d443b03896cb702ad26750246d87a009b851f00d15be70303042c00177e90006148bd0122a98000352f9500ae00de0050d83000f997310114d6dc018df837007f823e,
  0x16370001d354cb0332a699013c8a5e01dbaab701c0cd960121cbae03e08418038ad22700f8b9c300363a7a03878d840049de52012510d50294365f007eb49f0019a572034d8a6e03f9f47c02ac3da90025e85703048f4f02b526c802e413240360cc5300983de70219b52c03de43a6000c92a9029d58ae,
  0x290ab201b22abe01b5f04e01760e6f00c8b5b500ee6d4600e44ffd012d49a90179b8d300c6963100215f6e02b83ec30002039a0255fe8b03f92fb4027cc01c02e01f04005ca9fb00df73700077dd5d0023ce28031650460021b4be030f3b1d02fc059803d7af2b011e893703614c30028bd74702760f71,
  0x28c7f3020fbbb700bea29d002ab66d00abeb21016056ec002e2a3f01d5973d02dbd3a901b2093b00196368021f551200281e5c03add2de03995c6702cdfb5402c98fab02e329b202336bde0382398f002f5e42005bb48801ce68be01daf6cd01d79fc603db052a02d489260171285303ce978602f21633,
  0xae04700373f1c0114bdcd026790a603d91c2103e1ef81024826f900e9324e02397b6e00c7cd4c0007471602f98f9a01520f0d02532a7d0051ed8e008f510e007c99cb03582a8502567f6f00a61c0e00391bbf00548a2d0367710e02c090ed00146dfa0342b1a503008c6c02ba2bc50117adbf021c1f0c,
  0x1d6c6400806d05012b46a000a08a8a01bd37ce0149f4d80137f1e003de1553029895820028dd6c003ffcef01e024020259823f02d83d4200ef754b0209c35e026937f301c8687402025eb1022ee2c00006c033039b739e021dac6b03b19bee019ef19300e5458b000eaf0f03fdc2de01aec1bd027885d8,
  0x35cf3701281cb7001eb345035aa17002529688022f044a006e0a3c007343f8037d10000005ff49002ec5a202296e8303bffecd038c93fe0183a51503861a3b026f654600019b13021f7972011725d9001502b402a38faa00b2184100c5a7a402f360bc03082302025b1a600313b91f024d2a1c009aad74,
  0x237d260156b0cb0249bd2e03cdee6302c0597f01cf383000ed459d02ed4f1a02a440e202e01d7800384fe1004bee1e01d7dc890256e36901bd3ec200a8f02902d23db80159152b02ebd98a035e54720001f3e103611ce003a0884402a468cd00f4ff3b00fb404b003a028e00f0cbf300e61197015d572c,
  0x30980b03fd45b6022a6d4301f1dd7702a3caad02ec992f03b2b58300eaf34b000877c80133da0d000c5f1003ca97ce001775c302322a290002a46a03198913005c222b03dbd51300f85c1a0201b3840000009001bc2dc603949c6f018544c80029ccc103f990f501dbcbe9015af2a7002a09b9038bd680,
  0x2dde6e0036368b03994d1f039b773b0005695c022c78c60149d4e0036d919400ed47a402c2e937001b8d600228c27f01e93934022815e000ad42e103f8de3003711ca000b7d3fb03b4b2cc027726f00032512903bc65090335c686000a9c180046a64d03f29ece016fbe2e02e44b6f0009fcb003a73461,
  0x280eff01cf66c700801fbc03ecc9b600728f4600b4b89a018fe82a0212d771015138e00329d17c000da86c014d807a017dcd6e025ca23f0197c66303bc29b6008593b803c4738002aca76402b47e0100344906012014c60024902d033c44150189e00b00372b7d02fbb1d3029dba2b01179c2803193f3a,
  0x3a9a9403ee4acc0384942c01f7914302dd451e037ee93a036cfa5b00bd1b09003ba70202ac42c50019e5ca03df9d670223970d0399433e0178d11e034096fd02b859a90359240f03e39bc203af16ec002240000089c40901c568320388e5e803ed58d4032104890160e696035e47c202c54d0e00b6a39b,
  0x36042a01da814f01c0723c02b7e09802563740022c551d00ae1bc201794d76014373c30207b33c00343e1002ca580b01277e40014a5d2a03b7d3cc0022869003088aeb0214dda3018eb39203f508d2001107d800c166a903574f86034599b802f8df370023570d0395a029033526d90332f832028fca1b,
  0xd83ac008805be01826bbb012076f902f077870389769d0142f61b00f3a24b011ee889022dcf6400391eb80313f13001bddc9e02dae3b90267c31f02d2f8fc007b6bf803256a6f02fe44d203172e710011d1bc0329af1601b0b7ad0307714602be5ed703bdde3e00b788700162f04c03b7719600929f0a,
  0x2473d902ef034203c134b200cebabb011906650168e79c00b4150d02497fe002032e5a008d03d3001baccf0316a8f401fbb469038ceeae00d317100070e5e2019c6b1800708125026b22f6023a533f00051fc1032d9f0500803125025857e800bf70d400c5348700b750f602e1ebec028d85ff00514874,
  0x162a0b03052eaf022cfb410384916c02cc6d4803fe5bfc00f2f108037d90180211293b017b246f0011ae6403f7db1100e6653e02b97abd018793de00c88191012e5f3d0380690c0376812500c8f9610007e46901ba915d00ad278d0232df2200e2e50c0021584a02e56843030cfb2b0380415e039a6d95,
  0x26597001eaf52d030f612e020121bd016c4930028678d80255852b003dad8603a6dea300ba15c3003a77ea01a83b0a0384cacc0054e98d03f0bda8002e868d022b615b02cf469b0204cf910184f1a1000db95103aaed16039dcfef01ebf690028e56f1032256790052ad8f0304fceb00ee689000aca41c,
  0x12f50c010f7a3e015e1c7b032337ea00d67c9000afb96f023c2185020595d10099332500ec459b0033c36201c92f1503bea2ba01d0bb8002989006001854810153764c006db57e0207c7bd03b47977000f00ce011ecba800ea0ff000d5b6bb039313bd0152b6a4028575a503d841ad01163afa01595570,
  0x382ab700214a6e0366228200ce50e80285f0bf012cab3b0053fb9f01d7cc600083470f0026887300394c7e0302ef6e01c60c6202ab0b610345b8550296beb20014fb36000b203c00bf4cf602014291000627ed03e890d8030bc9a2010515ee0282000b03afb3b200248cc603403b39038da38e00091dcb]

/-- secp256k1.go:10, serialized bytes 122880 to 153599. -/
def tableRow4 : List Nat := [
  0x0,
  0xd4fd90216327703c6df57001582db025c9c0402606b7101e846b60010a11503c25f39022e5207000e689f0346985f02aab698011eaf7402be72c6035c0c8a014fd401039a1263026516840198c1a1002675780049d8460139e45e01834a5501c55abe03de373c016a6b70008c87cd02830688030e4bfd,
  0x37d745003ea054028015fd022d716d002d231e03fba871010d74b4008a36aa019bb43b02735953003ed42f025075dd022ef4ed0342453d02de210003b1a281013c865803de13ae013f5a3003dccb07000c0f890154435200b2eb9201ab4cd3018815cc032c5eca02327bd002db0129025ac11a029a31a4,
  0x184a90016a419e0067baac0011114e004c02910127db8900d1f41c01200fd201188986003b8141001ddd5b038ecbb3012e5c47019a3e0200b59224027d6967032a5a7403eec47300410f0d026c4ce60015a61c017b17430076b0cc014d96ed03425b1701eb21fc01e91d5e01087f5800e9c82901021496,
  0x1c455500c4c55c034aeddc0261f93901ff5d54035b360a0388b1da029e9b390139cfa4036e178400198823034a4d4600e20eaf015e46d000fc101e01d68c2501a00a6200bd2e2c02fbc92b003e45290014148c01396ea000a5eff9036f222e007319d302ac111701ad015d02a576b102a9c7140319c96f,
  0x33eb9c031a067003af9c930307e96a01a8577001858cea03599896005f55ec00384cb102e2aa79000f0de000150d11030f9c3100a3ba8c012b3bd103d75bc80382af46006f90d60029eb4a03ec83a4000d83fa03ae237f01f31c9001d5425f0048798a0115a61703b1984203356b4501a2cb75028fce5c,
  0x17cd9010ea3c601420fc501e7f9b9007b01c200d462d80185728b0245f9fe035ab39d03c4cf19002b987b011e042f0314a908027ce28c021f7b1f00a513f001ee32f103e7d16d02da2255005ca3e000127e11036525a4003d6ef602d2d7ce010badd502ea3dc9009048b402db5eb7013e117b031df393,
  0x22fd3702125afb0290733e03b5851603859cc9029ac07c021c815c01f1868e03ea243301f4831b0013651b02a2176701861ed90351ad0e0132399a0130af05013f8dc3007954e5035957b9027318b8002d57a8036790030262072c0183ffee00d6b6c100a5a82002f4463001935b730241e8b302559885,
  0x28045c003d4019037e6d600359a5bf01917e100080d001035edc0601bffb0a0272814c034e7f23001656ba012cafd6001e4fcb0178086c0280c20c005b2f0602b7d053036240f301d92ddd00174b1c00389e13029ff6500177b1e7016525c900625f4f0200a46701d6aacc03bb1b8a02b7beb3004d8faf,
  0x2fb7da03cec0b60194473802ffa52b025e534000594dc802ef2d0f006ef79103a2676601fe0f240032305500fb37070246012e0392304402773812030f6c1401857cd7023de49303cf01920096749a000f11a2038851b6009918cb03de222a0269db6f039697dd0224b4840297f58701e633f20251bc05,
  0x1ad287024895c90353e155033347fc0210bf3a03584f6603e1e85400b1e81d024e4bfd02529ddf001c7f6903ffab6601eae3ff02c5a35c029f643e03351812008813c301e87fb601820e4c00b82f730039740101e3ed1a02d0108702a27178000d9fd602317a93005b84520029f37400ac1fc000194e9d,
  0x208a4303be8d7f0241fcf10074453d0128936101704d0900f7db09038bd19d032b74aa0054860300339c1d0329251703d65ede02e080310366e692002666a5021b071603e6a419027eb6a503aa280600342f9101103b9203debca3025647540024bd04010af247017205d7038bac0a0020253902dd5204,
  0x3408e5030dcedb00762f4b0328b11801916e6c00744f1702042ebe007fff55039eca5c032812f6000d3d510133e64800d9891b002da0eb02fa930f006d06e80011b78302f4d02700f5f3cb007783ab0014b73901aca4a6023e300e016bbbac01a16ce7032c0a1101e05d07029ec03c02e301f3018b8869,
  0x380f4301179ec202a62e3d0128cfb8036026ea00e710240241b2200303f2dc01686e160353e2c40011e7d5022f75670013453b016ba324032c2c500306cee503302e7e00417b2c0174a3d70244af040001dd3e01a8695f03ddb5cb01d5b2ce02f2adce006d5b2d007f61aa016fddf603056e4002b1daf8,
  0x3d3c8103c0d7e6039adced007ed87d039e076201fe562b032372bf01a3162e0079a80001434de40004284b033d6b5b007cb81e0023830a02f62dcb01311c1a0158ab8303c48f9d001cfe1d007d12d2000ceea003e5e0f202360ea702bfcd5d039c05560200b3e00374e00100cf958602ae5fdb00f820bf,
  0x8ae5301bd257a0289c2430127ccd500eae79b0114f48900552f2703e484e100c337a203d1da72003ad5bb00b69b2702ab2a4f0396b768039e3218022492d10224a1ce009895670203f28c030306680023f50e02e0c36703370c52006318ad0057010b008c6e9703281d0302099f600194475e03517ab5,
  0x2eb07e0377dc36023d32d60150713a013be18d0297abe0001a402800a06e37034882df00b1ead6003bf8a30108d4f101409685037e0b43022f930d01cba760031008a202e97f0c01ebf187006b448b002adea30293668601b6d1ad03f21bc602147a29010058d10219af4103f3f62a02577734005cf9f4,
  0x3050c90375253d0320ca20025bc043034dc51303cdf7a2022a65ed03a89eab022ebb6a03aed3b9001726200111dee6001d7f10015258a100bf60b3022d58e602929f2d01ad82b0009be0f302d20f55000a43f5036676be01c7e0cb02d06d940283271c022c620300c0cd3c01de660f0203b12d002d8798,
  0x2c163301cbf23f03db976103341c890014cf87018b18ff00efede302870ced027502d502394fa600118ce5008e07cc023d30ef01c1c67900e24fbe01c1e54f007b8ee902df07de025941a10152775b0009ebf302428b62025f60ef02a8521702b102e100e666f0038494620200d43101d621fa0027f395,
  0x2208fa00453a0b00c6b64d01573a5d00293245007cbc6f00aa69f3037937a202821d4900a26ff60011732b0276a06402cd1cf6036c7c8703a6c60903abbd3400f0f75102dd9acd01999a6d01ff74b9003747f201c0c2cf00a901ec03e34a1f011847c70108ff97025d364503f6f30901a7864e019f56f7,
  0x50b6c0180ac4c02fdd96b00e8936e03cfeaa5023b7959034dff8e037dbb1801e5eee803dc991300379fac00e8d96e03fea9d503449704024c251f02a2db7a017c221a0250e1450130a77202ea3af80034911e01be4f85012964120131037300eda8fe02835ed703d4a40f0270d2100322d22d03586d3c,
  0x19e3da004a348300079dae0023e64301b045eb01ae49ab01f4ec1801bf49dc0168b14302919adb000395cf010b675003d8918203eb9ab701851baf03d7bb7d00fe351e00896e9601d3b312000a67490013b61d00c714a0021ba65000539750003c637a00e77a60036a48e403e59c44024aba9d0386394a,
  0x1f38410337766f03d7c9050335b02f0398aacf031047a3003db285039ce24102c5a31e0393f769002cc39903a8e94803ee54030178e62f0024594f01ecbff502049ebb0175c5fe032c3a58034214ae000af18f00adbfe201d7621603098c0203388e15034ce5230236d84b01074b07009522e602c34d82,
  0x8e00f01a4e91a01196c2f0083f24b037047350352c1230159c8e503cfdf9e01e89ab8012955210014e0630103286a01ec3bc703410e1701beff330338385b039c5e7a03481f1003dbf76303d9a5b4002d765801127112013dc9500136604901c32c72020bdde50286a18c038c928302bab5700198bd37,
  0x30811200056c29026b659200ccf641034b443a02d8279602f4cb700151bf7e039814d5015b2d8e0017cc9e02a5be5c00930e47028eb97803cdd5de02c572b4008ca15e01e42e4d0053b44403a4266900174163017f7ee0033f7782033641c202336c1d0342f33d01aae7e300c13291030fa6ce03a9751e,
  0x1eb462039cffe702fab94c01c4600a019778a802bcd2aa0054f8c602b8744903dcd9a002f8a51600161a0201c87f2403c1c1bf028b3ec100a1037f011a730901890bda03acfca502bc1cde034b662f00351b7202b8f8670191c91800457a3e007cd2fd037f516d03c75b30005a58f3026cdf2701555c3c,
  0x302e1c00eef54003f7609b03e991fe016298ba038b8c2702dbc56e0182078f016b1ddf037396ad001f849603c97d5500d6865500e933c600ab21c203c3e503009582a00020ed7d0363f54e03fd0945003245e603f31ddd01632c48012d7cb9001d4ee2034ea8cc0217eb9901abc0a200801c5800b13ff7,
  0x1d2c0303933d4e03f3d7b901f580e40332794703b60498012938ef015233d10092cab90013254c001bb55903df3438035eb673003aa772024f62aa00333d3f021007b4010fb457035fa0d102a92a8e0039916f0171ca45001f8a39023aa63f024fb0f300fe364f024e1a26038ffc6c0047fcc2038905ac,
  0x1b94da02d5cf6202d2639800bc71af024cffb8025a026d03daca11036ef88b01b7afcc00d65ff60035368302ec91fe0208d45a038d111401b646160336e6de03589f7b02923cca010c960a0008dcc4000a47e100793bbe01b4510e01aa458c036bcf7101a272e503ceea5d0199e6ac0036590c02db3b1b,
  0x1ae18e01647d7802bb5b1203d3e8dc00640010002b1eb901f5e91d0333a17500a1e15303bddfe000040eeb01fa68860374422203d1437a02f26fd90115de1802d6b8cc00d0591901117af402a61f600003ad78007ce9c6039954d103e68ded00e1214c02f9e86a020a279702918136038d83c901e5c8fb,
  0x2f737e00c8600303a933a00093ab8a0115d2d703a1faaa033e93580246ef7802470fce011b8afd000e8d9203319a4b03ebdf65038bff7a03097c6f02f0630c02e7613b00cb531e01ef0a4b016e583c000444b903fcf9e40245decc017f6207038b622602362559016f278102a50baa0148e4e403a630cf,
  0x3d1126013559e303862a4401053c050001b1b8009864a9018d9bdf0210bfcb00f354ef03333e9000373a2f00e2e35e03889bcb03270086018bf96b026da054034be2b10042a96a02f518af03da30950021590b00f3fe36006302ae02746e410013a4d201e70d4b0347619a0012f19d013ce4b00001cf41,
  0x3af8bc0117b06b03b5b8f203820e7601a00efd00f712e202b93abe022cb6e400d056a101fa0202003a8fe200636c6d013bfd16039265ec0336fff4000ad64501568fa000cf77b70396063201fff9cb002a99e10296507500a7d97601946da80249f88802ef74f203868e50035d6e1f01c3f6610344f803,
  0x5f74c009671840084b3f8037193b000977ec800e84635039a91bb03e2f0d9015fd7570279a0c5001b4685021b8d310392565403a7b72d02f99e59025599f50009be210139a71e024b887601514f99002913a5039854e002179d1b03875800007f464903a9d5b201dcbfa7012c171802943bb503ca984f,
  0x2e30c6009bf216010aa6070068ad1802b624670230a24801c8f70b003b109e03f9ffe4033d85e5002556140090366b00c917f400b876c90180694a02b926ec01b960eb03409dcc03940c94024270db0016a99703d739e90108913f01811b600020c4e900306737006f25a403d1508b0351f5ce03ee6440,
  0x3e7928034b358203533dfd03105c48002cd0d40122559500ae620903032ac700379fcc00c41ae700153ceb01a924fc018fbf7600af452d02d076e001b86b4e03ee993a02b3077a01eac0cf02cf5d30003c381401b758b40291d72d0205579e0381731300f068f903350d7c031ea265013ee74b01100d71,
  0x45cbd0130e260020308870021713701817f750264494b019a2afd0053a6d302a8c45901c3b9a80014b06300ca3bee038fb72701c88231027933b30016d8ce0105c21401d42110026846f9019a543e00221ae3031f0c89002f0bec00a0febd001adca700a8c85f025de19102fb4e4a0220075e0278b83a,
  0x339b7300fac62001a2018403ad72a4037e44b5001179b70334ef4c0374f04b01f21dc3035b1d6b000c1f6f03d481a201a5021501a491f601328e6301ba811403668677004b970203dcf8f803211b8600289191023a5e03011d675302d7ec50015a33b201f3903201da411c0385659e0339d612006132d0,
  0x35bb0603d6082a038056ac035813e802205d2600c002d402a242c30157d47d017c9d7002615533002b154102e6cebb0247d60203d872f702d5426d02d22ae1011280180393c52101a867e70250ea3e00097cf102c5c63603eb415300d159d9039d25fb0017f7cb0148e8f70318dae70254961002a8e5e5,
  0x36dbda02f4fcf200307cdc0196db3602e3a61000214a1f01780a7e03e2ebf701140934019b6d8100351a4501197430039f560802b3af580298805d0005adc802cf5c6d0084dc300260e14b016eb7d000096a6902b6767a0338d1a80136e96a03d2d2a502f829d003fb5456023d383b03344f0301281722,
  0x325d8301414dca01f451d100debde3010e47b6024c009801f6b802020587520184dd96036fc39000146158007349760175f92c03c2dde40241e3a502cc111d0057c8f100d153a501b21135002378cf0002a2910306faed00dbac4e016036e2024bca9b02c63b6d031d505a020d4f74000b4c7d02999193,
  0x96d1002222fb4028ae7e602da9ae901f4851d001e763c02bcd76600537fea020bfeac0164e22f00223820036113ad036e4eae03c33c3a02f8a2e702b51e44029c7fa6030680d60122df51006cad46003793ca025ee5a602fb903801677c8a034b929100c72c34000f1797031ed5c9031e28ee01e64013,
  0x2846c00980a930110a34801f604be0024cb85018df5d80286a8be03ee441000a1994403c592b3001be0af004eca1b0370f1c30312760f0059ddb4005de983005933ad024d9215016b66e00197160a003814b60269a88901d33d4a0259bcc6022bff5c004d1a7d0392d19e003bb926023a9f6f00977385,
  0xa534c0009ba3101eec7c60092171c01c679c90226daea0022a57b02d015f40236a11801924f220038cd6501d08a8003702aa800d5b5e101da5232039fe06600fd572d01d0b6fc003ed74802afb0b90029387b02a128fb03e100750194c1fb0086314401d820230115081802a9b4c90331aae800507ead,
  0x11441e00eb697c0256d6d800e917e50388377d0334041b02a1b53101c6bed702a88289020cdaf30002d04b039d38b501c9b0c403bc7dd1038101fd02ada2230352f80d003864a00125209501f26dee0006bfcb036ffbf00330950d018599b701816f170004f481037acb0c021e86260172a75e01969b6f,
  0x797480325c0c101acdfca0392dd3d011eb267032b1ded0234d69e03431f5b03114e58022f53a2001238770128af8e03008797003fc7690068cef10042482801422a9f0083a38c00bfcc6003af39eb003c6ed201978aad01d1861c03a03f4c010e5c130254578503caf30503ca043f01fad6b201f72ce3,
  0x299c180213cf3503149e5f0196ddbb01743a8c004eacf203bfb75d024fa1ac03293d6400ebf5c1001f522a0042e4650246f05c029b67f20117f75d0142682502a3406800b7d3e7005f37dc00af2b5d001561bb01290bb801c2cc3201beb2aa03d4268202dcc69e02bc769b03d286f200d4a10500eb53fc,
  0x19d3e002c465fa0250deee02f4103701deed1e01ee3540001ae67b0346e7f403d8ec61032ccb930019d16502ac0872002ffee80239e434004e684300a741bb0110a8ff0136b85001cd9aaf03b3c0f100074aac02bf55ea010f60a1003fc97e022dda4703015d94005cb111021253d701c110d502fd579c,
  0x2ae8f00224c6df03f746ed0025038800679ef803af17ed03b6ad5e034ec854015960de03cb2d24000ff9ad0267df0201ae2832038287d0004fe40902b6f726031e420803ff0ef10058341901206132002dcd4501558d14019efe7e032d2d4402c0c3b102a04cb5021685c900e94a400118b6df03a2b239,
  0x393ebd03130580011457d901ebff87017ae3d6023aa27d0256a7a10360c326021904c6036c33910031c715027fb7b103acc592017fb0e200d336e400390198024c678a01f5362b036426b2016a9cb10024d924030aa4f601f27eeb0293586f016974e602bcb53400835a0903adc6c202e0af6e0274a19a,
  0x13742502fb4d54038e0b4e03bd976c00ef91ca017ea25a01fc35bb017f87da0384ad7802318c71002df5fd02cebce10175c2990064cc1f02a9fd11025bf2fd008aaf2601adc5ec012ba3d402c34f0a002596b1002e4f200067d21200770b1903788714032bcf37035aa59502087518013aff6901c48704,
  0xe856a00cf112f012dafd7038a7dd6039baf5a003739be01648643007f7867039673ba02a400010018d36601d8e48202b4678c001be1f7034ac45d03c153da03db82740047806900b637b402ec0e720009859002a09fc70219fffd03394347027e08f303ff1a810358adee00134b6200474d1f03d86e88,
  0x2884740186f29100bc3328026c45d50093eb0b011504a502694a4f0009b81e039e2310016ea9940016bb7b03b7cb5a0259d6ee0213882302c7ae5501143be40121c38f000dc5e1014822d9039b0927001216f7011b9dfa014ad5190265c89800f5f02f00a20af6031102d20278a6c4031170380312303c,
  0x5de76007049ea0251f2e00352082b02371b57023b7ad0010c469b01065cdb01d29f4103ef3f49002d1fbc0302a75a0024862a0328ca4f037e3e4d031345420070427f00926aae0071eba00046343e001068b901086af400bf1d0e00f16c9a010328230361039c00ec2b2500be7bc302620ab702342d17,
  0x23f46d007215fd0308c03b00675c7e01bbfccd01a3f6ab01213253028e057800d93d930191768e00085675035a166d01468a590169df36017bea23030e48730137aef402915ed303989a7700c0125e00100cd001a38f9f03b93ca801897dd9033caf1a011e9cd503ef27ec032a739103517cf40196ae23,
  0x10d80101448c54003ec0a7021e4970036e0a4903a02445024cac0903e1c23102cf6bd300b1ff79002ba41303a0730e0395e61201efa7d601ad185301199d1f006627f60030775d0005ae8903bfe02e001f89870132e5e702104a88009d12c60360a6cd00162fe200fc4c21016d419401fb1494009ff2bc,
  0x34663f03e03f2801c66d0703e27bc9001bd56f004bc4ad0080b05101ed25c50280874f031d10da000faf35039bcd0c017ec92402cc637202b606c901f0616701a828ed031d52c702ff9854020bbd2f0014eb590303d10f0371f8190109337303a0e21b0219eff9011343d000ce715d03b1440b03597340,
  0x13f21f02a14dcc03a608db037c44d401a2780a010c5e4a0006a773003b81db010057160310019300119f140102376d0027b1b7018f1e1d027274a3023af563014d9b19029bd4c90100c8ab02d3cf2f0009445c0350523601b57f67035a05dc00fa3e83019ec6160029751e016bb69003832857021f85a8,
  0xa700c014a507c0292fb6b0251d88f01ebd7220286e4170343768d026e7027008e645d02f185ee0029f69303e520cc00bb90e900f4987a02a7e199009de4c700979e64035877d702369daa01b6a169002547630049acca01d1fc8b0303869c030cfed800862f0503d8165400635ed602a462a002209f13,
  0x3d4a5103cb4e7e01ee3c2a024629f50228866d0236fcb20032718e024f738203b20426036eb8440029f39700ae37770295a0c20355b01c019e8ad500af1113005b491f013c421502efa0dd0327d1600028ac3503cbb1b803cf3cdd012665fc03d60ed201c02de400e9476903eaf12e0324f44601f1d7cb,
  0x3ffa0b001221f2029bff3e0016f249028e2e8f01bf973202995bd403883948013ffe3c03511f75002f09c3032754b5003a0f2000814fce02c6b71c027cb8d1003a87bb0192733403c404030386108f0006e8c003ad069803d6e5c7029ade6a016d86b603d04b7001b5e6a90217864c00d0b68200dc9537,
  0x26137c01ad2c5d03c5bf8400a6149f018798c700f8e32b006d716c028aab450360b916037da7e300265a31036714de015fa0d9009120e002d4a31c0203e0d500b3d9650270fa92002e4794014b760e003c9a0800c0e3b003a6befd03fdc43302e52260034e86d403da24c60284bbe802767ef70325ddad,
  0x3518db034d29fe038f5c8c01754abb01a3e6e403f9d24d01ce7ae90007c5b9007842c402b441a80036972c01cf90d5028089f8039b10d4021fb83d02255c1603e9119201b41e6700f651c400015dd8003002a70351abd300a541e7025bc58401f8564b0192e0ce01ebf51a02b2757703bab0ab03a03809,
  0x75ba6009fe7f2020b06740013d885015a7c5a01d9975e0070f7a302b8ba6c0109a404024cf7750038a5f1006d07af032b64ce03752ae601b11796039eb9d7005572b502a2bb590313269f03db93f90024ed8a0242ddea01c3b83e0239a5cd0189dd030238551a00aa77460396b333023a8d0d03ad4c3a,
  0x165e2700f07f1102b18523003c5cef03a4532c014b26ad006e90640026bd9d016cf23c0001d9f90035970701d3fd7003cb4a3702af7467010cc75201a243c0013ddcdf035b701c02e541780250a1ea0002501601b0df0100bd077c008e45a600c1065101a923a80318e16d02970a41034a4a3703a4292f,
  0x3f58af00ccaf2701cedd140352d5a9015658bc01d50e5502cb9aec006e9a1501cc0b700256c0970004ed1800e4f3aa039f76c001b6207e02001288008621aa0250261502e9372c009aed4900aed69e00186be100e74bd9011a53ff02ce3278001dc1b3012997fb03df37e6038378e600d80efc00b2961c,
  0x2744a50212cccc02c4023f011e126501d467b002040870038b2d13021f68ac02ad5fda0110411c0031614d036a1ef702321c6e02c92788017b5a14010b74b60000ce0c00e5444f00db7fb502f5808b00316cb200e4c91801ede28e0032a72900d52c5b03414ca801760462028b5f930057628d01d1122f,
  0xcd76a03956cd80032e59e0374ae1302b4f4f5020f8e48021edef4026924bf02c3646c03bf3eeb000c598a02a801cd02ff37d700b7c2f5022e4497032e44660071f56b034377dc02ad972301cc5a370022ba1300f8980801467f0b00b91b0102f7fc0e012be43d0049c48402d3a8df02fc875f01a40420,
  0xe101a0241715b00ea2e1e004541a400d9eb3200491d9c0040c8ac005ce57e0151df0b01b21584001dbf46005d85ed02fc6e5a0305986a02da0c7a00770135026d8ceb0249fc4c03e2ed7402393f6d003778fb0135ae6800b15d94002ff94c0240c4ac001f442001ecc5510366ff0b028cc2ca01fc222f,
  0x8e744022bb94900bb0c67026661d10202832103eb4b3c0096bcdc03f4e38303f9ba3a020c9cab0023654a00a2feab00c61ceb01bbec5403c7e72b03f6680d01103d47027003eb036704d901c0baae002edee002dcac89039a1ef50213514e013b163603f21d0a01200c7701c06be4016cc30a01a6bfe3,
  0x2067a101a3986001fc4e6a01100f2a02285903016b237b0273d7b50003434700ff432b031735c8003625270293c91e00e0a32301564e19022aed2a008494be01f47315034b8c5d017ee1b9005435880015ec60025ea93d00319f52018bc9f600fb21f601ff8869005e4d6b01d16c4203b4f028023c0a47,
  0x22426401386bd303b877c8022f7ada03059ff402f58de4006faa6c03c3cb1401c1f1f8018dadda00302bb2038d9f94029643bf0104423a019b0d3c0165c6d601cc48be01eee5ae006ed77202d86189002489fc0358147a01e9f98503548bc20187952002f3207e02680b0d0081e8170133c52802acd649,
  0x3152d8029f80820368f3f60229f7aa003653620267275d0011887602d9bea6029af8220105d8a300186da0027b6a070355e64d01f44ef4008066a203a14036038f6c7701cadf61026d89e703270aa70029826702af8fd8010f393b01400a67001f4e4c0398fe3a03586bed0319cf62039b1d5803e68df7,
  0x29140a0130375500a983ec01bc70830255a17500ede31d0218a7d000f1735300dc06fe00aaa8070013263600cdcc5a02ed63a401d447a501a16adb01bccbc50070ce9700f300f003e6c43402f78a1f00266b0f005a656301b52ef601aa7a3901488efa028034280242a9210210489e0024fff300db3e1b,
  0x31021d019dc82f0274574e01be66f203c6994500deb01b0323eef800b52f130392bc62004b2914000b9eb4008cd614000689b603781f7f00176c1402e2876f03af0a2d01c99f5101a54afc02e4e4e70030d4d30224750801084029029de842027998e003e077f1017a15d002fd533600d413dd0028285f,
  0x21b76f0054bcef0088fa3d00d59cac02c6489e019e8246013585af00c42d9402ded23e03eb8c1d00061d9a03fdbff702216037031d826c014489110260727a031d329d0384852001b6314503bd19d60016ec24021eab3c02a78c280233111a00faa44b02dd8b1003970d2302ebf039009680ac02218dc9,
  0x99602007d5f400061ed0402a90a020014654101f1460d01174151017c1d0c00d95d700133148c002f920100b0ae11013f619001180fc50023ab7e02789fe80141535303f96cec021b214d023628cd001a26a10121e002032c041b0387861b001d1a5c00bc1ae3020a08e203c9f88902fd17e403170c57,
  0x2c98600c5a2ee035549bd0066790f0064828f0045511d03f9f62e01c2918400e8ce0e013f204f002ccba2036fe94503254f2c0095cfe401cbd23100bc4bb7038efdf002aac4cd03c27e6503585a5200187a0302a68ee00273d1820006ef7c0212584e00304f5003a1cdef0049434e01ffec83017a4f42,
  0x2abb870307a0c70242637301752953002a85020012602800641ddd0000c18302a6a4480168385100092907019e760b02dc1e610107c66f03ca7a9f01475d1103b7b3bd03d53cd202d8fab203ac0a310000e3040104e5310326def5001e20ac0274785403e32cd202c6b7b0005ade5702af357701db5b9d,
  0x377884006951d702310a0301d6eba300dd454303fac4cc035cb73600629a34030184e50122153d001fa71800bc6951038ed0bf032ad078031badd901501adc0050e9a4036a3a1c02206a2e009c6eb8001125660369f136004e8b7e01b36f030205aadf011d9c0c03107f510189b75801bae0c001a2a9a9,
  0x3f71590103de05004c13d10004774302c64b0a007d890f00e4f85b016925510062504e0348f430001092c4038c58fd02ace2e600e96a630047f02d019093e70228131903bcb16c02bd6f3c02543908001cd1dd000aa6870114659c02edf51702fb0c7400d4b35603dd0eff03f997ca023cd35103271711,
  0x2248003f503e802b5caf202b3212d0393d4580312b0d102f7c9ae01d378210227f487037140eb000011e602add09900d958a702f3620c025f307802055ae0002b1259011f2e42029e000003f761980019f1f301b689fe0071ccc00263cd3702201aef00158a0100d8f4bb026353e50303d76800400772,
  0x370583035ef6fa00cc983c03e38106014ee4dc02d8af820041e4930080ddfc0082481b011d21530014de8700f5faa9012d9d2603ddc6ed02fdf8e001d7a6740310082e00b287880372894b017b15c6002fb0fb0362b0270249d1d801415f6903d1a9fc01f8914301b7296501b600df005ce51203b2bd55,
  0x333d27033440f60052ca410089bad802802a500353ed2f01b2afa10274270e029ce8df034cf04c001d6b8b022cd80501ecd0bf01696b0f03acf3ae02c99b8c027bda1a007b534101eb27220128319100236b35028c2d470265be4f0194e7e2017025fc00e0a6a701fb693d008bf8a501c8ae21033eecf5,
  0x19890701580dfe00351090025bbe4301e7f27b001142b30334ff0103025f3c0083d03500a5afc10026dce8027ac09402e82a590057065f039cf82c00bb269b00e3c0b2004b286f0366ebda00e9def6000d78270341fa860115fa8003fd2b370249a8a802fc712a034e6d0f03407beb00a5e12d03e5ed53,
  0x32f06e03b71d16027bda79004543e800b557ec0213e99b001f7b0f00ce76820097856f0060345e000ce51b01b9fe75012daea7011ff62602ea39c3026b2f4101ce773e03ca9faf011175070216edc1003dfc2602305fd901c08c2802acea660061388f03b97b13002230ae03b93487014734b002326e2e,
  0x3ba9ab0285d163012082a40086abe5004ab02202b76bef03b60d790204674e01d2721c00a21c3400348ff40160d41b00eb4b8e023e7073006c3ea203b7e04f03b3adbd001e965a01d6e47702b7f0ac000f6e9300e626fd014c18b003ee082b0284538503b80fe9007e804101480f8701ca000201ac33b5,
  0x2cccb303091a82020bce2402ac7a29009397e4008a398d01c346f800ddcbc20148700c020715a50006eec80123c473006be980026f219403022fad03b3bda1014b599c018164220309dd5702cd9085000cd8de0175150a01ac88e603b95dab03349e9d01c557b503d80362027cd67600cbf2a200a9b42a,
  0x9513e00f85fa30327645e029c09e80053431a00d0ee5602af060c02df92f903421e850258f9d70039474502f8181503fd9159018aaab90354e46d0182c2b503b78d3c02c34fb2037c64600206cc7d0019cdfc00f2d0b30298b1770102ec110292d666037ddc9503411cb20071172d0381c90b023081b9,
  0x1b0cd502c5cf7400c854b3009e554b0229cacd005ee51d010b344c015fa2d303e4d9df0183d832003e2b2a01cd78f103942e47006a42e50045704c01e34f4d0391ce1402c16bf5000fb24c017982c60008847200b1dbf102666cb30152a36b01cd21cb01c218f601632518027ef18802edffa200cab307,
  0x2e1f2300dd0864035492430137fa630077a3fe039eab3b0044cc2a02e1b4d0034aab5d00d9b9b4003574eb0091400f01a460aa0264b00700278971008f1ef1008e12c4000872ff00d6f658038bf53a00180cbb00e7ac13019a01e101712b52004f5abb0352d3890316f09e0191266902c5db0902b46357,
  0x1310d4006e1f46003a7633001ae3db0366027503b411bb028bf10100b9ec2801e99c150298d2550004916d0113ab0c03086c6602d07edc030870b3019b269c018466c60311621102640cab00ce10360024995901d2a1f001e73182021a137f01c061f001259072033ef0270319846f0380cda802134137,
  0x1b3f0700e0fe7002bd86d7023deb7000d26feb020ad6f80069c77702cd301502b126f70167965800100911035a61db0320116701204078012c8a5802fce0da0128e7de00b235da03fc571f0010cf00001694f703a2ab3c037d15d1035ab5850026b015037b5d69039641a502aca08601f42965009afe99,
  0x36b96401c8eb9303a073dc01fc434b00d613f803c2620d02348f9b0391a9040111d995006e07a300230f37010d0b2b02f8c97902df32880049fae2021abbe3025902e9026c80c5033293cb03d80544000d20b60172dcf200a64a7c03dc5cc0010fe493000e747701be296303f17bba021678fe03c90926,
  0x35d53403d9423b00752a6d03fad010026353d20144393a0107702e03027f9c0395798c003ff1a30027acff02a562d800a4486d02d5cc1a01351409010844bf012100cb004b06c4006f4c0900da91300015c05e00e353cc025e727002cfdd6c02208f48010df425036623c802fe874403dea1eb020c1c62,
  0x39ad102cbdc640330359d00791edd01223256009a92aa03fc6a6502c36a8a01d1cf45002f8a8800007a7802b101cd0259448701d6bb2f038a2ee100aa7a4803cbf70800f130a3028dd5bf01c0ba5d0024484c0310a4ab016509900128ec6803d3b9830215997201edb1a5003e75d701d509af013c4865,
  0x17920402b6e313023ba3d4000f953600598f9d007fb318023d0d020242b74900d7278701148c600022cbd902b798b4025682f403033d4900739acb03943fee0224c6460307665303a059cd014b63e600119b0a00623f2c0019b8e30237179b008c00670152db100194d53c017069bb01ccdf8d00ba4318,
  0x46a3a023f1d9102cba5c5016d85420003dd6b018b315602c97a8e0347a6ba02d989f3024037ac002e2a60004e9be200c9a96400d4ff5b01c049b4006869ac023fa12e00db4ffe019181bc039d242c0022063001d659bc0127a67601dfba9101da66f002ee67be026cb1160099273a002f0c8a0383f3a7,
  0x37d6cc00cc2a030134a8f403529d7001791716039a9d0201710ddb01be967c004ca990005c67d6000a9ec1022e429a037d4e46029b0d3302e5691100265ac900e7f81203eea10d0073d48e0088be9d0028c94303c3b16d030b2101005dd0aa03c326fa0354a7840084ceef0048fcfe00a4cf8c00e369ec,
  0x25f1e0030782b5025cbfbd00a816690333393301d2a77201e6572603712aa0023400fb0084190c002decc501f8d1d70183071e01676967030294050221729701e5505703d875d602ba266e01c60a0d001544f503368ec50079fdee034523960063567803b9d71903a895ff0180653802dc25950344eaf9,
  0x2e4dc1007ba3f7024677ad00b7f619008423720377a238036547ed0146d4c503e15219007e0d08000b2436034b423b03cbf18d013d74ed01f15046018dcb580327399602c735f30013179d020e3a570034853e015ff77d0280a06501f3a58d00dad34a00fc10ed008353cc01e45dad030c169e02c5ff70,
  0x29e37b03f7ddad0175b922029de8f800d1db0d012e68d802754c48018757f600d0a95402d95f3500045d8400ea0e46004a148b003e48fa017afc60017e47d10192f80800336ec701da401300cd33cb00023162029c2ced00bc025b0195af3001af01ea01703856021ba39100bab6b60383bbdb001b403f,
  0x20b16c032774dd00bc07390340e2f300568ef3027fc925009dc0d401de0746034fe8dc03129641003f70fd02bf973f039c907d02e495800231a90000c5bec9000071ec018b721f00ee3e1c0237d788003c8072014bf67202e80f770219f69903e52a0e022e3459026e556f0151d713010d3499039e85e1,
  0x32a65d0263449002493d1b026d4528025a2e8600816a5103e885e503584b9303ceec4902f41c3b0015bb9b0194dcc6004c9c81030a95d201ce72bc003c704403fbc6ca003b6540019b4d4a03e6afbf00251f7c005f4f92016b2deb03d5d523031b897b011871b401a817c003bd89950334d52f03a0f732,
  0x10be7300afa45403760b3602e11b83001e197002e3620502bf08e600ef6c98016cc1f902d8621700041aec01a1808f01bd7fe5037baf040366338400fba2520149d67d037bf3240179b3dd02d687380025db83012c895303cdaad80253ee9500c7eb6503403d6403e67c23023053b101efa30f03c85ed8,
  0x35b696006c624101a0679b00206f9a0360a4990270b91c02bf9952022d74b0003b95c90292c0650008732c02dbca8203358e8d014da46902890eee01dd996603ce081600d0b45601c0ea4602e3ae69003f37050247a3280068d13801ffcd99019f5696029f3e2e01de36e803b54607030c77ec004b0742,
  0x15a5e50204a207022ebaab01095ba1029ed45e01f87e5e03fc927f0123044d00fbcc9200816869001f12a803922fdc00f2412701925b8b03a3d64001d500a402e62541029bb17e026dddd8035511dd0003ccb0039893a7030e64170194744c0019347303555b2c012eee7002ce165d009c73e503250c8b,
  0x11d01d02c5b5c9019147ff013e0a0402b24fd202d8e8ad0039dbc300240f1a00f4fbfc00d69acd002c078601df58d9038a6a9703d2107102bbff2f02552b79006a4a2f036c7c4c0164005b038385600036a0970351d55700c939d0027bf655037b0f1b00cd8abe02ad0efd03f67e6503e54ef20390315e,
  0x1f2906015140c403be34fd01df0dc80161029901dac3ec03d238c303267f11006fadec00e9e5f3000b61f703dd31ec00a336e3038cfc7f00f38ae6005365db023aca8000912c82022f1f91006dfc80001fe71a0265b1d300e2c4d5023da76b0273f46602a2b49203b0244e038f53b4005652e0032c3044,
  0xdbc4a019d2785006de3b4003b6c9a02f58cb3029ba8eb0370352b00d7ef2e010a832b03fc9597000c6691020b706703c4c97403aa6e72011edcc6020aca8d0078f233032b045401d533f903e201c50036997001630ec30139299f037185c20374e1b20092260b006ee17d011aa15603f1ba0d0102f6a1,
  0x3f1cbd0049bb46013ede40035eda5303028daf00f478ca01ec775a038b772800edaa0e02db75eb002d1c16015a903400bc6243020681e803c4b2eb029dbeb300bf142a007230f102f88d9002ab1f08002979d8032054aa00717cdb02f0f02a00f9576201597ded0102fc2703ed8d1402fe354f00ee8216,
  0xec23302f482ee036e418f02679eb7027fd34e006e8c4502de0ba702a9b7d503a3595c01b4440300047f60019eabeb02d3a8aa01eb0f7a01e2819101d686d5032ec0c900ed5b04035d100203549ca00003c3b903135ced0106892d01087de503755f1e037358ac015f23a0030063bf026b40bb03b74487,
  0x4d849014187ac02782ae901bec9d70074d486003d315300cb464d02ccf2f802c07f420115020700196f3903e02b850164c24100d0778803725dd90101952303670997036bafc1003603e302916bcb0020cf54032ca57703a95e9101006ae901878e8a02ee1b760087f17e028d210f03feaf5900625501,
  0x432b503169731002d8211012e1cb3007325ef02c2a5810305600c029714e9010fc15d0383ca130023e08003f28873038ae53402486eab0168dc37036955e703549c4500fb44b5011a758c029c28f60033e5ca02e876fc03561c69006c4112027299f00231a7dc018159960238f06500f2c298011d8371,
  0x2c623300a558b3001cc6ff01c42aff03817074024b3808015654a1031ff72703b8ad9602f0588300020d8f007f321800de379b02d4f93802a7da3802f5740402f791fc00b86adf01880a4d01cd73ed0023a2300329f41403f8a00601a3351902500243013a4635037880bb0377109100c0c3e902641dc8,
  0x5098f03bf298802d114ed01599ca301e0a35a02ed83b301782763002bcb75032b6a4f03524d27000663710347eed302337f760200b5a2001d2c2902e4a76f01ea679e0320500203c1043501cbc70e0030fed9035aa70b03906e8e0275a37b024df4ca001634ae03c29b24028b8c2103cb84c00334a905,
  0xef896037963f30305325802c37bbf006ed50e021c5e9403781ff70004147d012387ec00ab96ab003d84790299d8fc02c679d901af3faf004cdc6c00c9156c00bbdbc502cc77dd0389211202751216001bfbbc0079b24802401142030564630334480e02d10b9302eb76470013edad02f02af702c42fa0,
  0x1246e30116a7ee00326e8c03b083ec0222ef8c0232da9301e0a6eb02e47d260013f3f6039ccf580019713802e772590276ceac018029ad02bbe7ca02a8c4890398645800fb2034011d37410367ea0f001666500162745e03d96c24032d8a67004c6ed10224717900eb9e7000b8d976010495830123c5af,
  0x22bc38003dcde8039387f2027761ff0066b1f70032da2201ea3c69035c97bb02b69d93007592bb001a762901d801d20003d5ef01a256e90365a799038c2aa40035d61b01409d8c021adc1603944e9a003ddcbb022d6389007c8a82030b577103f888b901a79e70002bca230095a18c00adef2502c8ebc0,
  0x24ba601c5f3650245ee14013f30b601ca6de402bb0ae802d5eeda02feb50b02d87c970172f91300228bc9010397e500e0274901425dcc01fe71c102bcd78602787c1501935f7201132d4f028af1770000c686020b6585011255fe0333ea43004e303300c0c5cd031f0ad80356f39300683319033db913,
  0x1f214c03baffcf031f5e700000fa1a0284d63c018760590230a37a012b28b403461bf301038ba3002d51360031b28c02cd7dba024946a000a3426802fcc1bf0045ec2a000bb42b003a306702567a2d002fc4e400e31b1002ab6a780273497103f9e4d9030443ad03adcca7026e0988015c953303ddc7de,
  0x225db2039881aa01a75d0d03d540650113d9e2014e835903e04aca0301cea6025134b900bd91ce00069ff503e20a9102c82d350315d74e00fe022b010d78be0078b1e40031cd8c00d1376f02882c7800375e73029906ed0096c4a9034bba4d000fbeb1011cc75f037bc68f01bb9bab010376df021ecc9f,
  0xdcb6d026c0365012538130076e4390059d36a027fd47f00c3489801ee2bcd022bee7501e85ae4001a2a000070653f02b7f539025cbd8f0284a28a0267c26100e89a7402e86c400373a7570013e25c003e1992020d253702d6734f02ac1acc02ef6e560398e26600f94e030071d78f03c6291702abff9f,
  0xf2ad803e60a430319d38103bcaec00046e37a0093948e0233e1f70245a1370002c9a901b68f20002d23ad03f4f64e009804f3014fdb83002f4b0e0241a4900123eab3023f4036005337a7002f1032001b44b9032374ad00573008004ee12e01ee7d3400443ad1023a8476029882c10245bb8702548497,
  0x3447ac03277de7031ffc7e0327bc8a0204f32902cccca303974a1701cf197b02e87eb20074233100209dc90341815903d9b69c009ffd700387648903a32dab03b935b303040d4a017f897b02dfd45600049cc802649a9600cf52bc01daebb800173e8a02e9130301014ae702c80f7002585a4300fd332c,
  0x3e310e0371325102bf741a005bd1e80196fd90009154a10343b89e013797c902be3c6d00494884001a3f0e00ec267703126d27028f3eb303f872bf03fe02f10017b4f602b0b3ac0354abdf0036e81a0004b748025123bb01476f7003228f6002e0fc0803e966ad02ed105303660c07012fbb1f01e41460,
  0x3c41270043a412007f51f501c1bd01004e40f1020dfad20242155e025bda06004dd0c301e67dbc002044570163885901f252110171dfde026b9fd301abd60d0167442602ec3ce9003ee78f02b4a99c002ec65d0307c61e02fd980d00a2fcbf02a5e153009dd900031f59a2016ba5a50229e8ff02e4a350,
  0x2ce7ac001331b70391adde00f6264302575253009313260036a0b8027618eb02429b1603a84785000817740366ab0b0254202900cf932502ee4ba100ffe0ef027fc07203a65b0f02c83212037925820029b5aa014a9742039e29e100ef55d2017f997402fd01820121184202604e8d02adac980002b9d9,
  0x1db4680014a83b0291f46e010413300018027f01cc4bcd03746407012e3a2b03b6297200fe24b5000ddd0001d94a220349952a03b75080016eee0d0326defd0025407a0085747a00e20e2d01467f72000b62cd00f5e2320022a88f00f21bd40328058b00fc8583033bfd4d002d1af903c8b0330073c47b,
  0x191179019d982503fb38850144fc3d0095f7ae015499020200ed6900a0e84903c2665f0283268f003f978d034e7085005589df01546bc40373e9af02e7af1f00f0aa7101d2cf09022bbf88017fe50f003d162801e3daed03eeb87800e9d74000bff5c100914a7102b3410702feb797005a3b0201e34193,
  0x1bb57a0205087900d3c0aa026bf58302876e0200d07c7a0160526602de1db7001e69a90288b156002bed37005abc6600c76b5a004030d000fa44a40324a30a0107143c03512cd00140164202020569001a72fd027e14c800a1b93a0077ae5c039a35f00278bdd60169a93100fd8c2803d6ee5f0110dd08,
  0x15c1160081bdd101fc46e203e0115400668de900f181130203aa7701c4ccf4019ee62f0167a324000bc881033e0aa9026e250b00096fda0026e760037ee189001260550021182603cc178703479e050026b51101ff8cf00322890302fa0d2c03585b8c001d3cdc033caaa903fc9057011f673202f6bb57,
  0x1ce86503dcc0970060790e0192eeae0127bf240101fc97020c79190075638e003dd80f0250ad9d00355e510269f1f902422d8d007c9f09015e27ed02d09d7e0190c8b903596e4c01b4c8c10152cc260024f42c03dd3c7301a2b3c20188ab4700ee701600a140a80327d4b7009e52530300551603fd50fe,
  0x2c811f01a741d201ce176301ef366102e4316202d00d1c01d6e04e021402d803567d96006db9cf003ab8d602f1411f030895a700a8ad65026695a202121b6500c3e25700dda9de009b8352015c7bbe002b9e3503b5ad1701f6546d033b46e400b6053402a1c4b500e6fb46025e8ff201d90b49026b6ec3,
  0x296e44009464a50276f36b03f3c24103cb2363036d810c002e5a49007a11fc03d8c45c01f3045a002a690500f80d9303e90c7d00a55e22029a48e90038c6750000de320288712e01280e2e004cc59c001a841700781f7701175f6503f270ab02af85ba01d3bc33000615dd03aa86ec02751685011ffa88,
  0x38ac47029074b00229b42403531d8c0317c895031030c300bc65d3024f978600637fdb01a5089e002ff5b203ef4c46035bebcd035b4a3a006208a500de4c9f01ce3f7303f80d7d004782a1019be079003ca0d10163c95602f7421002243114026def5f0085de94028f3315032730600127e6c703c0a657,
  0x3fa1ae00b7415200e67bb000c043a003b494110087e2fe03e8fa24008a220900eb6a0203e964fb000346d70097bfaf01276651022d6b140353f56200e661f10399087500e1cccf01fbe066030bc4a9003e5883033837fb026aae0303b903c303610ac0025df94800eb0240004c960a030cd022035362b1,
  0xab4d5017f833200ae739f020fd5df01819407017b745c033e96f80060624902a5d00303901e000008eff7034be21b036f6a110058aa68004e8ea300e6334503c3fcc002271e1601eca86f01c763160031806b0332230e029053460120c7a302700f70013aeef101bdee1502459abc026887b203d3bee1,
  0x2ffa1c03421f160255b6590313398801e65a6f03c8d31d02bdf22e02fbce76019d39b803bd604c000c729d02fe30a6015ed87602d378d5035f1e52008d68010196d7b30172b82402a9efb6000a1c1300209361010a58b402834d0603be1b3b026b24fc009bd84900f661480298363e0151d2fb0058c930,
  0x26aa71039aff2a01bf97ca00e734ef008c02240062dabd0246b784008d934e037884dd03c1e750000502ea00c9b48500162b6201a2a10200ce4aa000462b7600e319c1004d612b02959e86003dca9e0017558200539d8302189d8300c713390397b1d10333dde601141f1f02b7ca1e021e0a7600bdd40d,
  0x377616008bc581033451bb03b2ca3d030295ce01a86dc90055f92502ba02c2032f810301ef33dd0023e44902acbbc102508d4e03be96e401e44641038eb8670369498b010c2e9901c5b01202f4a0ef001777f600c4820200374b2400a663b5033c737001d4047503d0271b024e5dd103d1c1650289397a,
  0x3fe7e201d52c3101f5a8b90192db8500bee9fc00e104b40138fecc02c16a7c0285e26203bc92b9001fc88e002c23e402b6363902295be300cfe20d032c58e2035ac526020c9fbc036d92cf008c520d003d49a0028921ee015dbc0d030f66830360bcef022816d701ef12dd028cd5b8022ef6ca01f767bb,
  0xe91b502681eb102a566110045be49012608220370a4e10066d5fb012d7bfc0265bb6100d3828800266f48009f030a03c7956902073ca503e4cf7c02341a0503cc2236006b9aa601d6bd1b03ef9d980009ec8501c7b1f200bf8934011ee52a003e30e80045c07800f7651701c2e71b00f05a1903bd95bd,
  0x2e96b70159be3c01f43488010986e20163d95b005134930076a69d01c36453001a4239010a73e7001dfe8c012331d4000d0f4102fb5546000ab3940094fe7e0314d1b601debb2003b3326100c49f6100083ac002d2544a01ef848300bf7ff003435854019226710361a4c80201cd2703bc4e830267e579,
  0x39bdd601f1c7c703572c64011a355703de3bdc025f3c0a03dc90f70254210b0396f0d60274f23f00359073001513bc0031173d034bed6e03da3f2101c53f1600112ce403ca1a9601acc1b902825fa2002874f100252abb00e8b69f00d6eb89022802d10287ca7e009559e903524d93030903ce030f50a2,
  0x2e764a037720fc018d828b032dad5d02512eae024c9a410040ff3801cd7d820110b29a02eb317b003830dc022236f5034b2c2900f75cd002079b6d03fe450903e268d4028c19da0276ce1a01a638ad0018039002c85a8201cdd8320306b475002b779c01ca1d630228a71d01b03b2a0187a66600d5807b,
  0xe1511020014ca03d08c63032e799f018b1e03009d39ab03221922003c6121000026200063c42f000eb09502acf77c00e1631a03ebe65302f5add701733c2502006671013f755402b5892503b2c75b0016a82c03e6f6d10221e67f03199b5701a4ca1e01bb4fce03e01ae802de9d38012e5325015a87f5,
  0x3944a802bcdf6d03e88231033fa07303eb827400a8487c02d6325202fe99f603b24868021c7be6003bd09803833aa9009002b501909aaf02836ecb013d75bd029dc08c00d8fcb6030c57120291053d003dcea301761b6700fa92ab037ca78202f3aab9028707970259e32b006bd7c703819bfb03bfa584,
  0xb1f8102e43f4c01a7bae100d1bc4e000e66cb035385030065076603ee547c03dc0043002b8fc90030689b034eab7202e62d7e032104830343f97401c74187018a371403fa81a702fbe9400388c25500189f2103de666a03b806e4031d9ad70189de5102e44edf00db3b62012d7fe400cfffde004e4f78,
  0xd17620377b7100374182902a9f2e302459a1a03e80d3502ca846800ec98bd03661cc5011a7fd1003095f101561e8d019ce925007cc9420341a49e03b3db240383f17703f291d601dbf4920207bf360008eef80198ac96022aa9c802ecce4302ffa8a401da8dee0224902e01ff5b28000633d900ffeb44,
  0x30d03f01021ded03202b43007079170138421901a948e200dd6ed501f40a1900017fab019995e600296480004a3a1c00ec0b9b03af36490200dd5c0140dd42016097e30107389702a4c34902ec5bb70023655f01751d6901987e230197a25c02ced31303999a330263186e0340b45300c597b00249378d,
  0x3d2e800305da7500004db803e48d2401581c7e01d06ac303c545b5026e1687003d1ea100c47a5c003a12aa016b07710012b4f6033013810259e64803497e2b01e8b9c30329722c02fa298503578f33003747b2009d545f03a0317402fc0c2901725f110246f07800f7b141023029fa002e5b7700277e76,
  0x2cc83f0271e51e029a754a01b640af0179b5c9017b17aa02c7386100c7ed88036549e402996eae000f09aa013ce35d0223a0840186a4120274623f016d25b802b1c0e903abb2ae001593e2015521ea000002af03bf4e6e02747842028162180053b25b023cbae202800a710180460500584e0700c31cc5,
  0x2585a702f526da026646970161d3d802f1d042007a2d6803a8cff60357663802a707ee03adb47e000c589801fa31de0162294703fb58ef00878dcf019caddf022ca5bb03d1516f0335ae1403815fbc0007818903b41f8600085c9e039459ef01ce0814034ee17a028aedd8000095f901d7936901589a25,
  0x2061c002d65f07022ea42300d2464a038baffd00276cc201cc93ce0063beb700a0c56003fa037100082a3a023266a501fc278502a68baf00e043700109054a0367131201a13b4f03a8398a02bbf2790020b2b003cb1aec03438e5a0297450e00bbadef01541a9503aa459800c37f6b01b038cd00feab8a,
  0x3dcce802dbc4ef01622330035183ad015273a503816af70098736d010935120390bd0b02de850400164e9800fb17830314018c0232e4ec01eb762d014de71003482d8a00639a5c00698c7f00b6a239002d54f603a11c37019cc2d8027c273500bfb98b0163ef2b0361138c00684a9203a7bd4203706d3f,
  0xc34e80217b8810305f77a0106147e0209fd8c00876dc201f5dfcf03632633018a224d027e72ad002df0d702a55c9803d5e00001bfdda3019a0bfe02803eba011c5239026c660203eda20202fb6f2b0039ae490070245401ba35740224757a0145ba150389953702d509dc00f6200c00f8eb650186d864,
  0x2b5c8a011fcccd017310d5010a3f1a017c1fd3000c894702deab7201e3902800e76a1d02111caf002065e8000570ca01708a82037748c4038b8c3c03dd8004017acc1202bcef5e03a5573f02470efc0001e3b703e772c4010d378001b6d7fe00bb96ae0211bb1f01cd3e3b0075426d00d3ecb9023d000c,
  0x3728a50186d6f30297e46702ccee1c0082573b02e42c0900bf3590031ae0e003fc999b0347325e00045d4603bb2f2702833aa101b17d2403c00f330194c24e03bc05cd01f20c29027c276a005398300030664302c5515501a4cc960314c5aa02020b3a0267d6ec0328bedc0125cab801f2a4ed02f1165e,
  0x3dbd01011f245802885a1600098e9f00c9ab95018a85d703ee458803f2a58603599b2901014d8a000f6e64027fa03b017cd84401845ae901d7ba26027e31b103103ae303327bbb012d4ccc02a0c23300091c6000872d2001691596007e57cc02b2fdb600ab63f600644c7a01efde25037217e600a84613,
  0xfc4aa024f914200a1177b002647560115f827027705b600e33b0401b623c503f9463502e8b88a000c47390144b882034b4ce303ecda1e0342995f0194c125016d12e301a084160084ebe501f1815b0007ed7c03a0ed0401fbb711005f7d580314dbcc023e77d00278f10e02876b1300f64f1b01942d11,
  0x260bce01cd022703fe79b800283a3800089c5501661ec2001b1216018b503200366a0d03955759000b827101190035002a99c000056d4500dd60e502bcdaa200e63e2e02340e8201158b9a03ed5cba00084258006b551300526b7302bb0ad303c8540702c2808201f32464011084c703a48a1303605745,
  0x2a130903f84b1f035821b9037101bd027f7b1800e443e002d113b80140a4d20022117c008d44af001e8f1c01063ea802ee07570283259901b726dd012e6f810324612c008e20a802a50af0001ec3520039d582024d534b03a2d4bc02b9b50e02651f5c01ca59dd00e4db2802d6ae53015c92590308a28e,
  0x109ccc00892da0011ec99c0282727d00054e4801b75b7d00b10e9f0207b1c601cba3f6033cd8030003bf790312e09400ee245103c8fe1302d94d8c02a7818d02f78752020eccac023f5b8f020d0dd70035067802945c11011a234d003b8bd703b080d100f4c4f900ea7ceb00d7c73c01ba2a5701ccc514,
  0xd9e2c0131635d00352c36019ea3e903acf442004021620216288e0105769700ad4200000fc0300020eb4f01684501036f9172002351fc00b57a7f01d8ff4d001a700a02e7671000e405ff008625ef003489d80327be2400908a7703298e890065cb3103c54be2028e2b5e0259182d01dd77ed01a0d476,
  0x30d10902bb5ad400bd15dd00a7867502929cc20219e50d0039d1c300850e1801197fb701a9b766000caf7d02f5d6670357b53e0109a55b00259ad70283bfda03e3af31013df875034a9d96013867a50007979403030c840231efc403770fcc0123b54701125fc901f96e9402161bb903750711019e9d66,
  0x346fb603221ea9008ee2f502eeab6500660b6602012f8000460a8e019b15820055d9af001c4b770007a24f033183e701515dc5035d2cb5035857510230c3c1033fa43f03e1c7ea006eddbe020ebd51001a7190005f6c5700c7ec1f01192a90034c0cbc005f496101945856009c4df601e038920030e98c,
  0x3bc6000153809f03af26cf0093b22201c56635023eba01001086450156bcaf00c9fc7803bab0ef0021d206019cd02d02d8664403857ad7039e2a220141a95401f12680014cb79e021ea6b3018c016800260cab01b433a701d89fbe005b61e801e6de21034f7122018b00fd029d092c0254e5e6039fa9d1,
  0x13ccc702f7fffb00b447b20253b1aa022bb80500c6113e0119d1ff03867671001ef7a50163253d0011924803af623a0266a33900390d5301cfb8e20066930b017b6ed4004438d202bebdc302cc77f5003b083101d8b70e01caf4a203f6b0ab0221e095037898910099b79900556d91013576d10387d213,
  0x1afa6303967ebe0094e824034866930212b3dc0156083d00dfd61e031a46c801e3479401748b380037681601950392039996d001d668230222e5d002fb857e016f9300002bc86e002bf55b03f28e94000e55ab020b440503a399eb023c5e42011497700083a5e403590c8301830df9018d9edd0151cc81,
  0xc8f910291dde803fa0cc10323454b026ee9a703040292024a675b00b0bb20015cffbd010813d2000dafc002090529025b9b0003cf5bf0016a79b501f4816b000221bc027ebc110319357502d0f4b2003026d8021e61ac01d73094036d80a6016606a600d8a7ff01ff70ec028b129a010ebb880185c208,
  0x10ff340045375c00dadeda0127653403bc13ce01a1cc68007da24602700f590311f7de01369bbb001dad0d011c991b03aabe7803c528c3002fb5200215b56401c483f001c5d01303a7c72c018debbd001c4447039cfb4601b682b703ec075600538b8b00c6e65103b2badf02df2b5a0054ffef00043de4,
  0x4e11001a6c62b016584e10066ddf50058574f025be9a8030e3320006bce6601a8981a02a6efff0006227f01d066e80165199c03bc87610308ac86032200cd00453de003b421b6023de92a03b5bdd3000748c400342b6e029aca0302850741022f0d34022b491b0038d95b02f34bff0279e71f033bbb55,
  0x1f8e8402d3d6af03b6f3520020c68f0294ff1100290bcf025eb5fb0123564a024b199a0147a35b0012e80a01ed303a025944a0018e65fc00fac87c030348240028a12302535de3001fb0ee0236ef45000dd2f700f713af0330ebe4006777bc036669d7032c591b000dba9700c8320002cc3a90006dc6fa,
  0x1bde8700142ccf001f725c0025dddc0224827c025a0976003e5a0a01e2f3030158ef01037a4c7d0000a2e0002d099203c36ecc01cfdef400849b5a0184fadf02fdb991035b85a501dd97ef03445a4a0008d15d017c77d0021bf7930312364f018c205001a79fcf01470bb7030d4125018d97c0006f0607,
  0xa88ed0117368a026a27d60093be30023b40a30384b088005090f103009a5703bdbc100092c6c40020e424036d1f8203d2a3f703d7e21c030a97910283568d01059e9a0283c2000132904d007f90380023141000d54b38036f52fe0243f2900301a0ea021162c103ed5bc202045c4202f6190902fc70d0,
  0x3e256503df8f2403336ad900aa033f03bc11ae03eb557600cfcf2301f41bc302f7877e009f74880015163d01d9e5890054b62c0235e6a401d52fec027aaa3c03e8ad34024f000a001c2fa002e1f4ba0000d45d03ff12230101274503c9ef1602d2e65e012e5d4702eb27b7006932bd02e7545b000cc4ed,
  0x23a24c01a5783403024027009480030244ed60027204160300120703dac06d027bf37803e58a4d003e83e401d4b3a801b5a4b9026275f303531d80007948fb039f707c0189cfc6020026c60105686a0037b665017417d901ede0e60351a513032c51ac03a4fd3200fe2efd00a2b8720001a4f500a44dcd,
  0x20f339002e872302e329aa017d53cf03d88e760050358303a7b09802c4f7b4009c5fa502f23371000b4b1d020b6c0400ecf8f501239c1a0066044c037a4a530332e5ec02fe842b0309b50c02ed80b8000d9a4f0327c6560119ef61038052cd014d4c37038b1b1b00affc2e02b551e900fae2fd001a2ee6,
  0x3aeead02b0e128012bfb1800cd2f3703293d8c007b8567017c1bc400307ff401fc1b0701b57ad1000a858b022d582c03b261090352cd8b020a7d5500fae6cf02d3f54701aa7f070175889701834fea0036bf3000cbd90303265ad103b60ff6002f1630008572840181dde902da15c60211a8aa01b8eb1b,
  0x236d6c01442c2e0252a8c1003f18910254616100078636017c0c97007757b200062ab101c93b2c00296a1c00e1d3460392832000807bbb01334c5402341c9d006c717900560d57004b5b1f01637731003ea9ab03ad97c4034761230171bfe10032d0b80168d62203f720b501f36ab6039ffa9902deb1cf,
  0x1aeac7004e55400155b2330360a30602376f4b0358128f000ed26601d899b60039915a017cf052002e77bd001391a100b1aa870390e07703c9009f0013599e03055bcd02472d9d010c8c71010e15370022d7200194f5dc0167ea2902207d2b033bc820038a0d0902816fdd01354b21038c7000029fc919,
  0x260b2902f340340206ffc6005a831900ea857503583fc802717ed100f3587a03f5c07d037a1a3b000e154403c836f402ca1718025e0c10002e422e028874f00352b517006761bc02d03481037647c20013b89201bbf59e012a0f8402b82aeb019bb487021435b1025d83a0012b1ee900fb5aa101c3fab8,
  0x21265e02af8dcd0272affb035cdd5402032c3501fe456800f929230216593903534b9602a86e31001a6a6c03dc562103e457cd026da7b003b77fae028204ad00fdecfc01a354ac01c2fabb02029834003d1c0f01cd792d034acdf700d217570318d3b201db1c070292274501067c7f01cf120f036de32d,
  0x234f9a02debd3f036e00f002090c8f000dac2f012e88d301bfef6700a2c03f00d00d23001a2d1f002c520503ba3ce1005e90c803d407e200cedc91000be8a702c70b000086bece033b4dc7009a1241002ebda601af43cb002f06eb02ddd4d6011de004023e99400391a1370295b39003e16ee10155ef18,
  0x28e75e01d8404400ac4b740162a80a0106755a02ece3320260a7ad0308477a02450f4e02b0ce3b0036969b000f06d4024c4c8b001c221e00f34123023242360207b86700c2a5ae029af07600261cd7001c0d64008926a1038ec8b00102b28e00835c390367c8fb03f39c5000b2adae01900e67000b470c,
  0x21185f00e430f6019086d901b008c9013b9e2401cda61c005f11c902e882aa018cda5700315122001609bb019f488c03b9f3c800fc6eb5024b7f18025ffe3401de324203c1cc4201b307850169c7bb00148ce4026725b203ecd87503a6a3b2029aefff0228b20f02bb3da50255fe20020ec68001ec4533,
  0x2229b100cd7dc401b4505803426d0d0394d85e0312372403929a780226e82202a9c72103b0757e002436ed02b0eb4103018604017392c800c1fbdf005ce7b90211deb50238304c0389c1b002ddf0eb001543c7001d4998032b9c2702ee53d0032bdba902514cf701f841c101f5924201a9448b00412440,
  0x241793010ef9130124701702dc822d01cd6a9f03f61c7301f8c0d4021eeef4028fb45900a456f8000be5c00083374102ed6794033174e9014e0a88012b354b0324e6ab035a3fe501e18dd90138fa24002cce7b00e4ebe30242e36003e3c404014ec6af0214d8d500a4d8bf01e95318031ea6cc02d6abd0,
  0x25014302a134f102991345011d2c1200f49a10018b07ec01bb707401b040950001639303b0995d0016cadf010ac5c40112f29501596d8b034c1c7d008d6f890120ca00032530550032bd6500d3c91c000fb22c0185a032004460b3025f81f201e63a7f01c8878302babfb70176716b001ddc20005c7311,
  0x33ecf702d58131001304e40096e74502c3aab5017627af02a32a6d008bf72601f6fd77002c54cd0016ee67027877f7003a889d03fbef180044a0ff02e8174001d43d000347ed0a0189709c035636eb003ec104026e578e028742fe00ed043303057d2a02976482023d9104035203f3000e445900d7e328,
  0x78b8f00cd155e02c35ea40276f7d401b638c601098bbc0300990902c21c06021a6714023dc170000923e30285b54f00f7c55702fff49f00fbed600175415a009381de033e27300210f54600913c920013dadf035dd2580267ed6100b863de001334ce002e9ece0333030b03704102020f5dc200f94ae5,
  0x10155103e84e6002da903d0056ccc1017828a50170ffc9010513fe009d253b0374f2ba02ea6b900010aa6a015d52b00101384e03507914039333c7010f39a00197daca0126aa21015dabd90025e926003f2e4003b8b9ea0163109303ae049f0395ca9f01f3783303b994ed01c57a4701e1472701a65be6,
  0xbbb2100aa0cdc01c6f7ee0209eb95004fb54300af749b03565f5300be9865001e9574012bad990019a90c00a09b540213ff480268776d01031df800c36ecd036bdd1603cf36a402e0a4d903822ed00037533b026a1ebd01544e0902f1f7f703984dad0076379a03191f81001f1cd001b32433014b1b1d,
  0xb7601b8c0d50311ae5403f0b66000a9124c027163cd0141522000abe77b037f77e40322850b0023eaec01916773005e7696029d256e01b726df005c8ebc01b461410264745000b7b79903bd11ad003c7e480371d69b003040a502d5b21603de37060294287603bde6a700ec33a303f43908032187e3,
  0x5c42f00295ff203045d52000cdd5d014183fe00c7793b00628823017bed6200d94b6c013d90f3003d0ae70097ab69027fd69201fac3df000c729a005d8766005a2ce10343b8d502c29a3603ad77c6001ff276011e7d5002b748bb00c411030344517801f20c990069fe4f0117ef350310435801bfeae3,
  0x27ad1b006b48e4035f3c9602b5582003281f5c00e0920b0335bf9300421f7102ea8dff00a75e12000d193f02275bb602e9fb4a0274bee902028aae01fcd1a800c7f7d501e117d00215913903028ca30004bb6e03d5ecf4012d503103d8cdd5022aa56c02187d2e038f6e980238e047030e935d015f45bd,
  0x306ce00fd602a031239eb0210c4df01993bb002e90a08021a78e70046314403a03eba02a47b11001c13a700bd0a8f004cb16802e5e8a9025ccffd001fb48000b7e9900338114400b5f5a100dc78b6001338510188d35b0210040203a08c220043bfc8009d54da01ed0d8400e05de403f3236e031817f9,
  0x1595120048edff024c6ccc03953a6d0330517600f667c30354600502a89bc60209601e0393d400000647880314c63300ff388e01afb13700d2a8cb0218c339007b0209037f81cc034f2a5d0245b321001806e10265e124015b719900bdbc99018cb25f03b05940003fd6f002191f8e02749fa202c78255,
  0x1f1b9d03730709031f2cbf00b6d69c0396810c03201c1502996cea0292df9f03dac06e03f7a72b00285ed802a5dbed00f7497702c2b35f00f94cab01ff70f101aa327e020b0c6102c19a310244680800292ac000f4c63d004542470122287703b9c8a9021e31fd000367ec02ab01cb030e4136008c3f3c,
  0x2208320255792d00550ef901b353500359e986025f416202ed200101218bae0319902c007eb02900051e6f03a16d2100c2ba5e00d8a06a01202275031a0bd901999a8301d57eb101df2542006a8959003c972402edb1e20197d44f029290b5019f8f57014c13a200b2dd15023894970045bf9100f30fa6,
  0x3fa9f50130f8fd019f9c490039a849003d64d602c2dd5a01280e1b02c3125c02d0b52f00a25363003bcc4301afecb9011009f7004efef10024514e03632a1a03a4bfd200bf6e5d03a1a11401cf5a7c002882b7033a2602016065a20032ec7c01b687d201fa5bb402881baf00d5a2a200130aaf03627f30,
  0x33739303bf35fa026eb410015fb4ba014cc8c2026785f40357ef7000811cbd01fc86e0004b09410022636103c3b7a7038e268a02c52a1003b05790031da1ae01c2ea2503be202d009ff453010b31a4003bdb920262a6610069b038028ca793006d4bcf03e4d505011b1896022f7dcb03e7ba0003acaa49,
  0x2912e5022faab1019353e202cc23d203cb76810098cd1502a4fd1e01d98d6402d0a41401c79a52001debd602c96c9d00701924009c4da2009a13c8030485ca029c2f7302010a21026b2eea0060e6df001014b9023529810213ce11032acd8201c4fa82016fad9e00bc68460142731e00b49e4a006c8376,
  0x32ff1d0069727b01c668630266713103d0fc6a0196c442002eda6501d72d6003352b5f029ea8e7003e759203ade55a03c656410025219d0221010901dabd65039eb8440162f1ab03124881002b1cb4000e98b300dd475503d9f42e0135ebe100538b7f024b47cd03e50ef603a980c20272e02b0090d208,
  0x206e310277729302342eb9028b1c5901b5542f01dcde24037530410350712b01b4c07c01e861ba0007df0a01bc74a500ff98c403121c2f00aa9ad30030cd1102f8f19b013aacbf025d8a9b02d98e84002e22e603dadd0301ca38ba034fce7003dfd56a0012bedb007bb30001292f510340089000837a1e,
  0x33de4d02289c3f03fb878a0032f12b01c2f55101c247600360b2c200720514001f6c9403976eff00246a750130b602025c7bcb000e632303be93de006d019900c43575033bfd7001102ff5016722c8001745c700b5abe100a241cd0349458601748b6801b154ac025d616e0108c93300f506b301fcdf7b,
  0x114acf01b39eba02ca3429026b9b4e003ec1cb026bc7a800af5e4d0190caf602e8aa0200c25b8a000bd58100e888b303149e82012d367802f20e5f01102bd4033e1faa03f8fece01fac73201a904d00023bf1f03b79fad02102ff1031a98d20341b87100eab2c10223ad01010051a100f3ccf103a63f69,
  0x1d2f810391784a025f5a78032e03d70339bb9200d6f04d0164f3cb03446d62006dfb1d03312f4700053be902bc810a033a299a0065f1a501c876d30373d2cf02bfc36500a07cd301ca65760221eaa600189e34015941a001478d2d01a6d76a02b7599e03b903ea0090da16011e431b0216642700df372f,
  0x3604ee034e6d6001a931ee0306a0da02a6821d004aef280246922c02d8ce9a03cc43cb0192f7540027f864012c08e301dfddfd01c4129903c7bf12036232570286e526029569f8022e89a903dc855c0018ff6d0138079900430cde02ecf0ae01cda51003593e9800b864ee0258f27c01eb14a800c4d4d6,
  0xd192100c6e64701a7bc4c019ea6b7007599a100e7cd9102c729cd0090fed4033a4d1800fde923003d15f101c71c1a00bf5a76028c762a008ccbbf0178543501097ce503c3621001af27d9003ae4e700254ede028b228702563b3500eedb62011b8ab20144951f03f7ca8900724f9d01097e39039ab31a,
  0x3e839900c4946b00d1585c00a5cd6101faeeca01b80bf001e9ed7a00c2eebc019811e803f9df51002c637b008759a500c0f1a002bb2d84008b6fc1010d5eff02165231028f990303ad1b94032e02dd001a1a8e016238bc009546be035d893e026d530c02be263b00ad834f03d8ab14027eb1a70030aa32,
  0x28186802c606ad0230084e028be31702a8a71c0186ec3c031eae6d034cd91d01b54e4203fdc676000ce68e0228b27d0382504403bf3ea6023e2d3103031d2c0312328c003f57f002638322023d1ed00007ebda03f03dd301484d9600a61f8f021a753e02ba7cdc007d6622019e4ec1012a2aa801c50228,
  0x105f3a02a980130271d7c100ed5f860169fabd02de0bfc00d1f5500162be5c02f0700901e6255d0036571d01e894420297ae9102ccf62c008b605d01199fe20389808901e4e4a000485f3401f63b47001c7e7b012782e00076129f00160c2e038decb5014ffe850280ca1201c700af001f18ca03a83f6e,
  0x82d8d03f1f66702fed23f034065d902ab23f20246c4af00674a9f0273c30b00889be801f0695b0028d63201e3fab102be32b50132757a02f4664001bac635025053d203ff1d5f038e3248033c4bae0032dbd901d1f9260193454203c627bb00eb1bee0101b7b903e5ecff00c8d9aa02b1935203f29035,
  0x2f998d03f4ed2601be75e40199230a03ef7633034ff739013cbafa03364dae001bb09d02be5ce500080a45028fab4a009619a502b75d4a02a536bc02d2d808037c84510097c5400176b55a01e4ea3d00151f5100fa475802eeaebe016222d1034c5b910365ea5503a2cdb50317250f034e9450028ca41d,
  0xd11b7014ec40b02afc169026ebfc90200df13023320c10057a79303b4f86a02f7a95400389616002783f000ef585a01a93ac203f01b290288f93003216c4200bea61203e0ef9302e5f4f6020f1bbf0009d67c02f8424901117d5a0068cb2b013f9407036b233b0311b64001e625ed0183d8ce02b923dd,
  0x3407b902c4bafb02e770fd0374091a02c0c09a01d6cd53012761cb00675691034444f20059f12700218b2902049202018fa65d0276b71a000a6f44032aff6f0248cd5b012c64a401aca67900cda40d0010b1d003f6503f034a71820247118502dedaae02cdb95d002893cb02b3b508039c44920001caea,
  0x1951a801ce625d0038782d0135495803738b200327387603996b5c02bf53f603fd0acb01f50e89002a82bf03eda1030063290b025bd7d900c4fe5d01d4645603768f830288ce05027d05b40376bbb600355f6803de1fbc02a2fb1201fb04fc0319a683013d8d0c038b0c64016c1265008afe9d000db516,
  0x615ec010eb6ca01af648c01b0f8a503d30cc0036a8a98033676e8036d365402a0e28c0154114a002ad04103da390f03b1d48c00b5d3d90146d68a011e311802cf9fbe00d85cf801b1375d00fec657003a43a50023a8c80251c94901e16882024d3d6201a91cdd02de5a0301f9bd4503923af402e0390f,
  0x1110d7027c29af024bf6a20161ae04027b0df70049fea203994fa90314b86303e449e500f70af00007bf67007caf4a02dc00ab008595a000beaa7f01906d5c00dd91a70361296803bf5ed4032d1283002873e20226dbfb0291218a00b5969f02d4c6fd00f1500201817d48033a7aa0006eb2c00106131d,
  0x28e3801b954bf00e3c92e01f3383e03b6e5490386d957017f860501e677fe01408c6a02617f0d000c9606006cf68a01da612a03083b9500e2a0140129b6e402ae0af802150f00027bc6cc00b9ba38000dfc1a01bd4247034c3d7a018f86c302e07e4603580bc203c904240147898e031c36f802026833,
  0x349ebb00d0b1e7036cde480291037d03d75fbd03c3e3d702f2cb380388c5370076d5a400f4e7d000324ee6019bd78200a8f04600ecc04a03c84d65018cc5a402b25dd502f9dd2701c48775011e34a1000ede14031d5d1f001d6de20246416b02502f81030252b40145d2a603655fd302c7558403e926e3,
  0x141c6600e61488010ec76c0224fbff02eae53700ef0b9c0024e31a01cf20e60366d7b202e2c8ea003c7c8b0058a84a00923b94019431f6029a84b0005067aa038289d20159bc56025a113600860f520004d537020f750601c02d6301a2900000ecdb8100e9e62c01a8165001ea681e01584c9c03bbda72,
  0x30822d0064096201df3d740338083e03cd685601b4b998017de6cd01f29bbe00aa3bee021955ab00058f0e0266ee88000fab83003bceab03ed9d1a0107cf8400ae0ab203d628e902da44fc03d1b54d003e69fc009f619900a21f34035915bd037857e0019d0551036ab50303d8f83c0108eb5d020e3de2,
  0x32ca2703540b9e017f1c9400eac7a802ff10a20311b0d7001fabf8035e072c0209492c01d9e8b10022feb703207ad801bc84ea01f1acaa032d203d02abb22403418a9802e0a73300ecbdfc037efd300005820802c7f23401fe6d7601bc2a2b00f68bc801f3492d032e23d601043ddb000fd2510166faee,
  0x24b14e00f8845a02f05945022ce25b03ed66e4032cbbf301dac46d02ac55c50101cc5e0280df04001158540343f17a0257143000cd173600a79c8c01f9285a029ccd35003fe73802bf7ddf01eb469e002ca6c500605b0802fbafa901d1011303816164039f0e34002828a400005e88035bdf77021b684d,
  0x1804f3015c192d00b92acc027c016302b4507f0246e181011a3105004079610117649600e64e1700331df103f1515e009f1b17014dc70e0196778a008d44bc03fa819601f611a600c492a800dda7d5001cfc1c0236cfe80357a78d02fbf4b40231ab530012ac22002b5fc701c38a2b00b98dcf002db5dc,
  0x1df6eb02043f47037caa5c02daa2fe02d28c33039689f601a81a27004e149402732471031c2a62003713a60384453f03d406b400367ada03ec991900779dd302af3ba0022680b4017b223a00a365f6001d07eb006c67bd035b47a603bc4f1902b076d80387d3b50150f8660073b864039f348203c653df,
  0x10864f00e9e1d100c23f60023f919202d747d2021baa7d007abe060371b8ce019876ce012760c10017d7300236037f02981abf024dd3b303c9d1d100b816ab00e1576802aead2403cbb3d1021c4f7e0031aa8802759a0b030a7b9d0261905702cfb6f4005bb03f03314ad7020a3cfd03a1a04402d144fd,
  0x71b5d038922770230107d030036ea00d16dfb00760c340183a08e0235dcbb031fc04600a9ee32001bfcd9025b58d900520e6e0275c12f00c916f703da7a25004813e602f7c5b303e67a8c01409c9700230bba032611cd0186d3410185157a01430d7c026329b003fab6df0203eac30274e23a02162e64,
  0x2f1e8800e08dc702b71e86029e35310120745c0224a33600a78f50001008a703bff781030a4ea7002341660333288a03d441d703a18e2f030a914a00253e920263d67c01418dfb004f6d06021f62800006b74303d5f738011505040330595601fff2f403cc969100f2faf900f89d9203ccaaf103864d7b,
  0x2176ef0348556e02ba1b5602bcb83d020212e102342bfc03402df603d8276100e6ca87013af22e00153baa002b01d603f2bb2600d6eb5b036887030153991003c5189b001979b10038fffa03c74a7b0024c7a300c4efb8010185de008242e5013471d2030aee6b036701b40114e36a02304e99006ac326,
  0x3aa6cd01950148038f587700f2f3a7007dbe140068ecf00230d3280111db6400a8550a022ccb7e001bd136029800330211290f0189aafa00939de6006f7c1201d3d35b02e6a2fa00c6a3a903b8de4000090aa800db1ffa0113245902f086e202eb036d00aeff7d00b9e8d10240a61e039348ff036f4f5f,
  0xf78e901efdaa70244d89103f50e8103e561cf01ca4b54011ff6680210c5a0016669ac020a87bc003ab84801cc059801a059de0364230801f76b9b032e2c57000f54ee03fdb20701a6e777031c35d20017bb240016c676013f5dda026a658203551bbd01103a40000f7bd701477154031bed7701ac2ac9,
  0x34877f0399b17c01d2e1d400125380006c206802a153a10221d305017475240350701b02b7421300224562001c1a9b01a405a5031aabb901e5b22c014f5cb103f408ad0133ace7021a27d201c98c460012d060028ca52003efb05e011a0d4d0011d76703436280020cc38f01134afd0336dfdc03b31f5b,
  0xd9d0b0167e64203d886d4036afcd100c2bd43020b633902ce4f370071784c03927f6400504add001bd5b701a764810305c5b100e1437a0388f76503711ece02e1176f003c31080168f5c003e8bbf20004da6701116e61016d487002b3cc7f02889aef038514b50162a74e032f4b160025cd0c01980777,
  0x3717440016e8e000a2578b01d00ac902145af503f8385002a1cafe03e655fe03de18ef0267d335001cf12a02707191030b2ae803533c8a03b88c75024aad4d0274607c03f9a2ca011766240123705d0011362603b7c16b022f3dbe001943bd0109d86f02462ab50209e740016ef7310293f22c01aed1b2,
  0xb4cc3020c127f000ab74b02f74473016eff2601869f6c013d885000455287014e5545039ed88f000a2c2b0348da00000aa0f302cda8cc0014a03702880db103de80c003330bdc0238be9d0307f7ba00225e6b03e00a96036c0c5d02ee40fa0068fc8c00290f4503bdee8b032657820128b29200856b81,
  0x2fa34203a69de60045f3e801720e8f005400990232fe560132f573038e782902b157b702b590bb003599f503a4d44d00cf102700b0ea4f0087ad6a03e73b8801501025015d7bc0011ba9c1020d20d4003262be035f4cae01fd95da026c716b03fcb38f036dbf6c00062acd00826c0d02256d3d01850c07,
  0x4d7d802314b0d017a250401167ae4027de0fb03e4acb40346c11c02e9614300861fc002716dfb0028fdfd0044970303ad896703a53c0002c25990038754880366ba6100b1867b03f3efae02b5b27f001fee29024729a200a3665001a2312a021a0ad900e18928036de965008277f100f788e200930109,
  0x34bd4803f813d90297661d0337658a028efb0a02284cd603f118b303cf38c303788d0f033aa0e7002027ec020789d7021f9722035c108701e1158b034b78c102807e0a00ad606003a67eee00dd989200315e440052acae0125b16503cf085402efba880262763803155a6001bed04c0321efe301a247ee,
  0x2a6cd8019edc50030ddc3600b72b1300ebaa2c00f66b6a01748f67039bca0f00962be10214bba8003f5c89001f0b500189126003c3f19300ee881202b828940202923f0273dc2b004a9a8902cd56160025f30800c56b8301f3c3de014b815500d635eb01eb577702c1995b00643985003c5609034af133,
  0x7d92803737a29018cd4c200760fff0144eb6201dc746a014c73e400f99dfd020781250179d7b9003c0b3c02b9f49c016b0f2603a8d42d027743cd012402c6012dd3c200b25b430033a540030a265a0036420802a1518803ddf142039d8743006d2a87026d9b02020176ed03abc1ed03daad4f01cc54a7,
  0x32482503c6849a00c362060249988a01faf29d022204c503fc4ca1011878e70195ea65006d775c0003e0130240e316003553ed03823dee012ffecb022ca73d0077994b031574fc0247062a01da59960029ff8601bfa33a023e2d4c00211a730016364600ed2a3e02d589d402353dd103b7259503abf9a2,
  0x1e52c2012f70f300930b070304605f02cf3b420210828402c9c7fd00075e100121be7802c0462e002fc23102ffc6d2005f6ba001825954028ea8830235751303d5baf802a98c5c01303bfd0207a007002d48e10237b2d20207995700145a9300b0418a001a4c2d00a52c070238bd3200f72259005c4d15,
  0x6d1020174914801f5cd8102ffc19403d9d1a4039bcb8903665743002b2344017ea2cc02d9798f001317cb0242e1af0318b0ba02c2fa5b02f547350309862101b162f203828ee2013d405c00b328df00163ff803c179f1008fed8d03de566b037ae41e004142c903833e1e0180b4f20084ec320280da70,
  0x7da8b0121cf290124522702d5ae0f01c01b480137ebbe025a6b200103c90b006e6c3e02213a0a001bea4d00fd36e400070f3202018ba3039683fd03026ff900f684f6021b95f701cf9b8a0176b3c60005cf72033284d800d06f6102c43736004e753002998769008187e20198b236014386ce03432539,
  0x1aed9f0385e8cb00950a81025e412600b0c9ca0002b1be03ecf5cd0241a05a02f41974027e9d110006f8f201ed301701088c9403d518f502e213fb024212c602e8060100eebafc03f8143000b36dbd001c8c440278c5490278bc13021cfd77019ad89100591e8e005c063502194adf038e265b0335f7b1,
  0x3b274b0137f7880119a6e4031d778a0136d03d02be65d803df83af03f1b595005e4011028841d200231cca0083228f02303834035da07600bfc20801a429fe03636a700306dbce00af68e802f10d8b003f0dbd00868ef0000124690006124f017e526a02fc2a2f02cc9bee01dfdfc503a517de017d45e3,
  0x3da9490191b29f01b26bd6009f4864018a6825013c124e03f2cf8500c76d74012de0be007f1a730039ee4a01f7f7cb02dc07090381148801ee68190185fe6f025816c300ba4cce033814d6018a857b0034f8e403b0b3b90039e5c100fc2cb70091a63202fa86c60152f9bd030d6016023df16a0245bba1,
  0x17400800d4552101907dff03e208b002a67282035185d5028a545500bfb43a0114dde5026f3c780010d52a0147cf7303b70b2f026fc2640158df0b00a263c801ad69e603e74b0f0351593700f469300014fdfe00deaec4026589bc01f4102a005c39c802a3171d01eab20d00ebfbaf00da4b61002e89fa,
  0x305fda009897aa015c004701eee9a2006d509a015780d2039db91901fc52ae022684ea03c977fd002979f703e5d4820177c8c100edd2810095728602f9cfa4025d0725008923a102abecab02cf94b600218a150171c8ba00bb943502754ddc00dc9f580397d9750172be9500b0ff1300ce98e502cf1d40,
  0x2f077103ac4b5901e3e30f036d2786021af2c90257edf90235be9b01ad00f4030b5e420108183f003e4f1003bbcf0703bf432b0121169501836ee301e2224402d2d85f01c97ca100ddf1c802ada363001cdd0303c9fb25034040b1004a7abb02d4e775035be1a3012ad307035456ad005351da007180df,
  0xd739e011c98a502700a2201d548df02acbec500cd880303f9fcea01fac78802fe10b0016c11970013bef30280af67001215c3035b977601750046026e2ada00b96213011e037001876a520196f9120033e99b00f6efda010d657d00ebb3c5009f2fa0036ac66e019f205500895d07007e65da02bb9df5,
  0xd78ce01784a5c020daa1f0119994f017cc6640101c8a202fddaf603db19bb00486bf1004887180021b0d702ce82fb00b196d201a1449902ea47e60370156500633567032f6c9501ac77b802836e00000caf2303e15cac02cb464801e4ce7700dd4fca0077591500bb329a01c1f495029b3de2037e4acc]

/-- secp256k1.go:10, serialized bytes 153600 to 184319. -/
def tableRow5 : List Nat := [
  0x0,
  0x6adb5031fc7ef0231149202287ed703f163fa03a4980601de5d440170c3d20029c6d3032aa09c0018b82301f7f57600da7be00258963601445790004529a601ad725400974a55038f715f01fbdade0007a78a03edc48702cbec410082a775029d938500b995b500462cd003c6bdab0238399e01772b0b,
  0xc8480034f11490158f6fd02f8066e02be353a014f9d340045370002ad07fb004b717b011d6dde001d8fe001aa15f302f2161003057d3300b6ae7601be0af400cd43e4033063c0036165de00c9ec88001a5c6303eea41f016a65ab030d452a034b061b00ff71ca0174901f02fe94a8028a41d6033dd0c2,
  0x1461a036681a801f835980010c0130035ffa00357ca2c02fa3dd5037d340900cd0b9a032f92040030efdf02466df400ec04bc0177664701c495990209423e030087fb03964a9102f7421303597ed40033c4bc02041c4a0034155101f41e65013d024e02630e9b012d4a3c0150c32e013e6a7202eb7698,
  0xf5ec802ea2c45011621cf0217d691023ac95b023f577603a5aa8d0370724103736a5600f83a530005b4ff013e84d5006018ac013f87a00384ecb103329b84016d69bd02679b74036cb34e035392050020e19e002a7e6401339e6602323d13025d3f260398afa6029243da00d8886c0140b28f02d02ebe,
  0x6047401241928016672e600980ad1006c1b0503392a11039de5c701dff54d00f2383e02a7c6fe000758d60161d71502c7db4b031088b301febb57014ed4180062690601ccd9a5014b7bc8000bd5b0001a9bd800ff2e9702f2763a037ad45c02da5a4a019624280254545300ce87f800b0fee600e82632,
  0x2e995c001487ea02ba8dd80298f2bc01100b6d01a5c9a3003959d502d317ba004618ac013ac621002e1188028415020136fcba007e855e0223c6d102069f940046135f03395103022362bd01457b870029e47b00cddfaa02bb44f800f0368e0123279400cf071300d646c703184884010f504f0271cc73,
  0xd6bb302b85ea001f881e901697e9501937ed4017a9e7d01c5291e036e9564026edba501a88e5b00344d700133441d00f2a6f403828be5026c587b034f600f01f1869a011276ba01e33d890114494e0015f6b901e76c650333b12e03c0878d000fcb6801408586020c8efd0297018102dab4c003485738,
  0x8771900b6890901dc37180168e3c6004dee2f03108bd3005d93bb0317b9c1005114e901ffcd6300377a7d0053c1f902a791b702e55e7a02aa85c70020c3cb038ef5be027802070228779b02943bdd003ad9ab00239e0d007d06be033e0c4b0382e9a803eb6f40009a4324014603e203cfbf83010167f2,
  0x3878e01752f4d03d2c4660395ca8d03ab9baa004337a6011967c500e5b40c0273f9f70026b9710031c04801f2c4840127ad7602a75c6602e6ca96038d315c024c581400884acc001c9034039f49c90019312c02f05e9e01f5fa4c01bf2a3f022a7a3802458dcc0347cc7c0196807501a372bb02cb26b7,
  0x30c06401e1c95603e0bc0703fdb2cb0161f7e6028c722a031bd57c0081ebad02a03b7b00bd4710003bd3a800e1741c027feaf800c4102401406f8f03a05415007bf362010402b6015f176400d367b8000976f60124488b010b2ea80110733103eac93a0121130e03cc8f9c03f0a04d02d3f93700da4a6d,
  0x32912001f3b4ca00204b9702de391b02da4f47029c0b3102eb3046000c1c58020031e8005fadfd001dff8b022b5e2903c0f91600f80c61015223de0314a99601eeff6503faf497032f2c98001f89600003af5102d310480292e33d0076214e020f472800482506012d4f8d01d76fac03f453e202becbdf,
  0x1d66bc02586cdc0117322f0177a388008c4d0b01932a76017fab780317288d033fad96021f12000019c2c40392f1b200eb16390081686300f20c2b02dc034a019ac2f600073e9402a5b730032caf9c000b13a6020d68890041cc0601a404d202cea6ae01ea8949021ba81e00c71814022dc50b03f3a4c2,
  0x1dc779028e16c302d0df9f028e2fba00437edd02ed15df0303fdb703d8199c025569ba03c55d530012a49e01d5d80d02935d5f00d8a1eb00c796c603d0266b005bf7270161b32101785d310004d336003fe61f009cec88016e0ccf00c4d91f0324f7bb01f13b0d03af704b021728530398c319016d5110,
  0x26d3210047edb503c990af025f8b7901ffb2610353143d03c081b2019d62e500f85d0601a0ce6e00196909034874d002a12cad0019cc5c00c67fe302583d220047e2c403f6a64800d5bd3c003c65a70010fb9a01e34d3f0305d55d01146c0f038b1a86015ea4ce00e7f197033325ca00f5d13601eec326,
  0x14934700536dfb00210fff0390e06c0124f26500da0f0602f5b2ba03ceff940384a9c602da0a49001ca1e900e16f9f00fd3ce8023a243401c990f20131e7a70130585e023e111803190af903aaac4d00053efe00cdfa0700a7948b00384a3d00ceb514033bffe901e1ccac026301640070a42403208420,
  0x3f258e035141fd0073b09c030373790173a55e03d3183903311e3b028435e700bb45e001ac382900366e98016573040254cde8033211510176ef170165b0cc037893d801e9ff0a03e9325101bcdd2f003b724003fb988602c9f5420216467201528e5603276bd501405f9e008b45810374b9e902a006fc,
  0x18b59900d2dcdf0171d6fa02c7ae7b01ebdab70325d2a20151c63402a1ed280027ae86033fb4b700010fd301a9e36f03a03e0901f5d0a501a4c1e203eb862202e2dc4f033a29eb01d3aae903514d3f003d6274000107cd039e4b7b02f1c527039deead03d6fd42022ed45a014c71e100b75829010f5f97,
  0x37355010849e801056ed503a814b5012fce13007edd9a005341a800f37fef02171864031a73a9000245ce00b5b888038311ab00bc04800126df5b016443330308352d03b06f4f01044418005bd9500035422b0067160103380d8003ce7806034758b802a438420357dab503980c2e019000bb01faad25,
  0x257cf402396b8603b6b2bb01a4a07c01f97252031d0e4102635b2303fb5fe802e6d82203b06d0f000e365b037867510213679501ef126803ad6bfa020135d803d03b8b012d7ad502292af9008de28e00148eb2019de6a503e272be018b76bf0147109a02832d9a03e4dbb3028cad1d0242880400398291,
  0x66d2e009603d303a2473a00e7a486006165aa00d59ed601006afa03c6bd1500ec236c008726200016c3d7022d4d5502f1ea8300b9060c03c99f2f02cc05d2012d881803fadc5b00afbf880380b9b7003092da02becf9c03c8b57303dd8803039fe1c40259f15400e1bb7101b66a2300adb7c903528288,
  0x2ff8cc034385210303f341016b2dc6017a31f00068b9c60082170002ce892a00b8ddb503fcfb24002d6dad0265f6b10126389d03508758021c8f770203aa7f03ee6be903bdb116002ce4e103eb7c170010e97c0238c7ce03887b5e0268e5d0024322cb01e05838006f201b0351f63503e08ab902d7e5d8,
  0x1aa5c90320d17e01bf2264002ca85d030bdc3c029c36d70110f10303b499a101e7a12b003415e6001fccce02dbc0fe03debd5301851e76011bbf65018a89c400dfbe11006ed6ee01f14d2a00d0c8a00009070800089a2f03b9cd050217e867017e301a0171d76203db87db035581980155871c0105586e,
  0x3029a500eb914403ce899d0002da5b027dba4902d5064601b8d3850145cb8a01fd76380109f738000f67b301f69365024011b002ecfc7b0073cac70355ee2f010b3f0d01aab62e0024d5ab03a9c129001f2b1c014e236c0282c40c014ab69d00433d6e03c6f551039a04d7023611d70023fe0d03b5bdec,
  0x2aff6200ea0d4303b849f9000dfe830037555200e47cc802db06f70366e42203daf362013245df002cea5c02f9035201b8177201fab69101387242036976cd0142c3c90306779d025c1af703a20bc9001ff6c803570e13013f1dc803c5773f009ce2a701863559010be94301505786036d65ed027fb62b,
  0x13a3b503bf5cc003e0b77301e769d702aa075500f534e10043abb001f0289a00159b8b0276846f001af0c2031d201e00ed55d400551bce026395cb03eb9ce4012990c8000411c100e906cc00bb30f8002963f0021d42d400c0154e00ce3c8802b558b802dd3f840253a7b0028bc6ff03c7f4a40226d5d5,
  0x3edad03a0eb1c00b0d69a030ebebb0252799203cbaa4a03b93dc002d63fc200d3582b03da7db4003ec98b02c8a6ae02474fea020bd197001242c902a08cd003183d7502222fd50188f65f0387777b00266d600387377f00db093d0119478e018fd83a01ca76b402d3806d02e238d002c50ec3010f8d23,
  0x233c69012fec3903ab588f027b551b02fd550e0371c98d03f3b1e7018793d9027d2ec003a195fe000dc81a01d38fc000e3ea7601e1766a00a12bb8000adf5800272b0e03caca8f02a9f8f203a1331000168bc403fdd1a7032dc5cb0104d6df0008041000c7bfac003f11f101e9508d00f0f14402ea03ae,
  0x3dd4f800c3856301ba0d8d0388d85a0314dee302889de303db66b00363a27602fb4bb203d7c08c001162db00ec4d650386826001fdac100186c319032c44b2033ecc65001ab7f101e96912026a804900391f5a016752f3006adf2703f92b5001eb948001aa30d103db8938021ae0920149aec9038a554b,
  0x1519ee024c551e005a95e200acb614003c7c71035ffc920310771200f1bdee02289ced021a6b1f000db259022c24f302414dff011fdba3026ab17c03e1681a01b86e4601acec7a0378be2c02d5f8a3001fcd09005ca678014c3060009f2065011bf54d03bf74e30377751e038e89620270b2de00628d47,
  0x5b28901b623600007471b01f20f7d032f388f02e7a169017efdd702cca95c025ef40c00bbbfed001086ab00006f1500f8806f02b712760093db6902f9f347017236d600a6d5cb01e47b540035b41d002d126802e89d1e03dc46cc02c5a9b7025515d300b8db05018cfb51008b359202877d54032afbbd,
  0x2eecb6004db2fa026f4c6d01e0145c00eeeafc033ae74100f8d10a033ca7bf03ca98ae00430032000bd4c7010aa23802edfe1403d3ebf303648f93038e2fc0021da4c00213417a0000a922031196f200364ec401b6500d008ca099038adf58032ed40f003c72fb03f30ba40179109600359a6401891df3,
  0x299127022ca3f501515de402b5cc9f018e424a0310d6fe027d883601131a930274ea6a03a1e185003a17f8031c1630013288d9031356be02bf6610034f05d4013fec270288b83e00447cbd00e0af0f002662d3003c684e03ee5eab029d35660115740102c6b25e010680ed02fd092500000d1803d659cb,
  0x382cd800eb4d2f03b4670f021e5d3e03e6a2ac00f210c403c31849006fde8500a32529022114c4000ed7db03395e26026fc5720070ba7602bed3cc01ad667802dc309c0182dbac005e4e1800984ac3002738c900633e3601205547027d7a740058d10600cc038e02a68435026644db01e3db91039d5f47,
  0x257d1900fb7c2f02c99357002ba4200222ee940344288b01308636035a399b0120cb35019beb1c001dca7001855ae1007dfeae02da199e02bff70103074aec0240709e023f296d02f740290027f15b001dbda1007084cd03dac02b0384647e003c25ce03bffd7800fd18d9014c3ff1017a3029008b0353,
  0xb326301b854b3035fd5c601fad20000e4069600ea8e540384043c03a9c95401506b12033e9b23002e98aa00772b7a02afcdab032b5f100122507c014bc8da03172585037135e90369e5800314adc40028f9fa039f44680318ef34003b43fe019c8ae203a6d1c002a45a8a02eb4cfb01548680026d57cf,
  0x36342701f0e6910128d65200305e310079db57036af0d903aa36fe01c6d9830291841002ccb45f0013b0a6020791b90174a2420033fb2900631db1000732c90052298a00fc19fc0142cb1d02d6bf0e0037d077029c181500a70ac800ceea520249e3e5008303f203e82daa03382e55037b224401e42bec,
  0x3d28d02437a3b01681e4a01e7e89e00cb7d6503b1a11a02046f82015401c2014958d300bafb930013d50800f84b78016fbd030139d22502128d1d018dad510028b85701bcc6e501d2691c00f90f52003c7b9001fc48a901b19d5c025402e3003ca949037af98f02218368031417b903e971a5034c7486,
  0x2d1b5a00560fcf00ee969e02711d6a0217383a0090116701c50fdf033aedc601d837ae00cd8cd9000d9cca0020e8f0010c049b02fa7de8009604e4032a375c0264de7f0100961801e0d7a1023ab99d000e903900ef52ef03c072d8000d53ce0275006801d788fc003d1ee30314382c02746b4000c669d2,
  0x21bca00219a57e02d78ca402f3e6f803475f0902104fde007b45b801cdf13d0356f59a020a8158002dbd4300523067023f22f0027444ec02b337ae02928aab0292c68d02f7d03600493bf10272c03a001368ca03e442b2028f2752032f4c5c029ba8d000f66643025969a2016de2d000db16c602d096bd,
  0x2a602a00533e16006852b301d72e9a033afce401d54a0b0205b00700db7c220369be1402404fb0002eec7a015cb7ea025675590026681c00fbc32900cf12cd02e309e701f555f80232d0f40143042e000268e4038eccb603b6740500b9760602f346b800e07fbf004cda9a0000b2af03aeb75702405973,
  0x98f5603e7407a03ac02a2007e8af10110fd2a012893d20103a7d202cf1af002930f2003fe6eeb0008786800e715cb00d6b8410168bff50197da0b02dc266f00ab19d503cc97b703d7e50f01d9270e002471eb0375d23800c47e8d00e6d8ee00919bb2011965b803a6b0a60100fa6302981cdf03a75778,
  0xd3e5e03886f0c0175af6e004c11be01581fb5030a96d5018811900302a1340216cde301660a77003c91e30038a78a00a79d100323c1d30192c6b4024c985e015f60560107e6ac0210270f000029fa002071c5028e5ba700eee0f001316f470101f6fd00030e89037d65ca009756f803152f64031780cc,
  0x26f9ec003e6df600116b98019b750801e6418e01f6e0a600ce4ae802c8163f03484437013f6e7c002cabc4000edf960378bdd2023e559901463fc900947d1d031bcb860191a09b003c970700023b89001e232b01c9421801eb084a03564346001943e2008633860170973602dd678f0239e6fd0246e177,
  0x369ecd036c3c5102862f8902f4e13c02848e890237610900b76fd5036f373d0269891b03e1482c0038bcd80288915002c6d1c9033d471a02a9dbb6035f0f8f011093c302142be802d5544f009096b20036f60502f80eb903589ad002f0237f01ffac2703cc4d5300a5069d03b20e9e03efc87802ac756f,
  0x5032701816229017e5b2e0018456f024af2f20271bdbb03ae9a4e03f73a9700da5870008e51540013206302d1d9a8039341d603be1a0e026bd1d402bd92bd0155cd7102d2f51a00477424028f83190033603a00ce2a660060c27202428c5203dae51303d3a1d5016554420282d5f302c2f8be03ba27ef,
  0x6af71038642e7015719ad02aca97502b4e4f901b869a2018c28a30072301f01bba7b4022e3fae0037237900b5a45e037414960296ab4303e85ba401325eaf014996da00cbb46b005c486403a0ddb00004bae600d2b9b40282d17b0258a827028107d7034ff68b0396542c02ca426103a79e9e02b5dce4,
  0x347c7d01467ce003a208ac02a1c817006cebba01adec7200e1952103f9ce7e0373f733001bed2b003382b4035a267a028655b000b303c60199c9f000120a7a02c97e0603aac2ee01a9a42900f50b0d002c2e9002e76b81028df3900234feb503e8c3d4030c4f21020d0ad1002b0c61015fe8c7038ea988,
  0x295fdd02b39d95028f83be01d032bd01637d3c0215df7803da3be30387e2850109741a03826bb3001841aa02a7621b03a6d676011cab60016f14eb004a8ba10304eee8026382c9031d954f000911bf0023d401003e6d2103bd53820061299f02b59ba200efde4b00671610039e65ec03858d94038d6aac,
  0x89e0b003f324802bff8c200bab8e60097d4d102b57b6202f5db9103fdae810075b43f00e03bed001a2ec2030524b7016a2c3e01796f3202183201029a6e2f00d73892029c46bf01cf222f0226e0cf0008b4b901d0299700a8f991015b6fa400f0645303a8c45300bb209800947b48003a2bba00563ecf,
  0x9957e0118853c007ca02902c804b001c7c4dd00778ec700de9ae20064d56701afa46502498105000e1c5801ec6c8603c73b14028eaf890291811c01e0522e00758cd301b778990167c74f02147c330008609203efe392015c97b90096bc330014195501a1fd800066da890202040f001f8c1903288425,
  0x31f360021cd6bf03626733007a218602293721003ce21f0137e0ce037227b1009eab05023b659e001b9bfd01c5720a022a253a006888dd0372926a01e8885d030e8a6103a79f7902b1eae503ad7bb6001f6b5300f333650197fa800109568702a9d60600244aa8001242c102d948ca02a3608400e64bd7,
  0x232ddf0094fbd601ac286d006974a402cba927017aece200f3ca0b01785cff015e0ee3003bec470001015201e43ce000c1fa14031a1f2603619b9d0305139f03bc1a2702a21a25033a009d02ad8c8000239c3503ac26420096458e024d6eb801d0e1010356397e02ba55dd0111f58800fb9d9002560d5d,
  0x200d4c02b7f7790172111902276802026f82b8016969c900a630d901de57c2010ffa49001c243a000c834d01ab8e260082cc9101e43f4c0320c2c502ac6dff02d7639102e3009b01291bd2021861390017f6e2008cbd26010fec1b024e33ff0190b2b002f1b4a50348adb501c40b550017c75002dd2567,
  0x1b8a5d035b5af30081fc1e02d894ff03913d810313abb9020b951f00b5d969020be0a900354d88001fd40802f2c43c004fcb1c0293fcb9039521bb00909baa0306bd920028c7800038f6a20155f1b3000dea2c01cbcfc1000249c9035668b900e8169a004616f1033383a203da61a50115688a026281b2,
  0x3fbee60045ee110104f645035d999e00f6746b01b77f4302494b2c011790fa032b4cc503ef32d20039b6190168dcea0102f79a0137744603d4510a02206b7b039d9f0b03eabe5f02e64c960260bacd002220a1011e510d014e867b01b03b94030ffe3f02a625b902db98af034f6a68025b937602264751,
  0x2b09f8037d4bef03e2022f001d3c560274b45b006823260297425102c2f46900a0bf79026f51940029f90200be81550095202c02f8da7e003e6dc101da540002d028b802a104df0252a5c80273a158001ab10503a1806100b69ef201f3590703d186b002efc250036b7500000e697001b201ae000c4e7d,
  0x1504701a2d2200358caee0367fdeb02b61aae00f785bd0223b4fe033e2fbc03fac04b03aaf7cd002ae57401daadc30239920e01993d0b03bacf0b01b6a6e90117e1be032e8bcc037bd7b4030e182a0023aab00112cc29013f96e9011b46bf03a93c49036799d502e0929803f625ab032248d20380fa01,
  0x1d707f00836f70017f80bd011c1eae0054f75e007b3e05039e7f6b00825da603edd17b01a5bae1002c480b021bb24903f8da8801371e33029347d501e0220401803727020c204b029da0e1032557c00004118503599cd602e7331100b321a003ec2fe30171d5ae03864f9802f6e64203d1f6fa016254f6,
  0x3409060226de9d034679ab039098dd03ce2d42012b55a201b8b3cb0255902a00240dc9024520dc002d9eab02616d5f030e0f360323ce1201da5b5403ff12ea02a4b13202a62c350127bdab02cc4d63000a44fd018dd28801e796c6038889a101148ecb01c0ac39002df1b6030bab0100c455c7031064e3,
  0x254c630248231e00d8cc8b036fe92700d83beb02cbe337007714b703fb46de03f158c901d2a22e00082eff01a725a30037d348037101da0024bad20209a5ac00faba3e01d4e25f006ec04f03d62560000ad1b903ee2b4402e9ed5402362330021a63b20103b84a03e0eaa701a6cf6f0311a8990125e568,
  0x1aab4c022ac667032af6ef01da0911001885f90147319102cf8d0900f7a6c3001640da02c05d36002531e5031fd6bc0040fb35030aa17802857fd90155268d01139986032c691403d8acef0271e443003da4b4025402ab023de60a03c35fc6018534ca0190de040263814b02e35b07025fd91b015aa51f,
  0x105cd803bc1669039a36450188269f036447a600e59f3500a4d68501fd105902c2cb8903e6afa0002bc1870347c3e9002e0a4f0000f06e01e088600330090702187a170066c1ae0008889603c6421100038faa014ba0210035fbe5017bc8a502c41d5501d710e1032e961d008d660a0066f68101e96635,
  0x2a38c700a1a6d5017a71f103f636790244f1d8011c35c203361fca0063706503903ce80359965a0032a547024b26d9010d6ecc00dfe0e402c503e50130fe6200bfeb6200ee68f401d6a6470095dd67000073b202457e69030abf400127b63603c5524d011cbc0c0085eca203f505f501616c4001faf710,
  0x2cfe610168b13e0053c2ae025de9110057ed8e009ba2d0015e8a3d0110402f028ef2b701d8cca900254819008e25cf022b9b790170a190034eef61022c3e280338637b02d4ca8f02a19bda0148a840001cc8df021b7dc701f9dbd20307a0e703659f8e00957d2f03ab6cc90095203801fafb67028aa6b6,
  0x26aae500fde7a2022883ae0110bef203895d4e00fe825e01aefabf02141ceb02ae514103b1bd94003c03f202b3329a00a9e71e00066a540259cd3301e2f26802e03de901a40f7602a0ab8f002d2e98000b08ac0010034a0232bf3001e2445102a2491103d6e2fb01ab454700bdc9fc039b9e4b01ed8fb9,
  0xce525007276e100cbf3dc011751b9016edc5c0065430b0135f8bf039adf4a029da4ae02212ac0001f829502aaf20a03ef984402e3cae9015e11f1030bc17e00ff0c1303e2276201a71475034ba11300079519032418df03454c8c017f882201ff210301349e450253b61a0196221600578aea01fa7897,
  0x376d280135773a000019d002b4450d0105d67b0229284001c7ab7c02a54e7802b96ef101c92c5f002bd534002a6ab00340ef5d01095956019366f60044184000b2e163036e2ea70394339703e295d50036e22f013efd820153867b029da6ca015a89a3014c96c600da357d0198361d004e204302febef1,
  0x15dc740354d573016f6c3a02c5a9b302713e6102eec76301aa9e980197eabf028737ca030d344c0023cd00007ae359004d629301f7183403bf466500dadabc0181f5b501929b5e00e6d30a018739830009c28c01ad5f86031f478601a14e2601d4060602e9ef65009441d902d1ac0a00dcdd8c02082629,
  0x1f114502828c080025ce1e00a7bb0902cb2682037275b3006cbf6e013ec6a0034b3d8100ad6cf1003f001f017b2efc038e5867023a48c6021997e700de11d20304168301a8438a0387eee5029731b000383e6d035da22103b3c0e60194809303c6c9ec037a89cc002bdc89005ef95b02c76eeb00159eed,
  0x2179c2024873660359604e015707b203cdf2a10253d0aa0114d6ec032d0f0201534fec03b75e0d001f0c7e03fd493d02e9d5980268eb5d00c836ea0315cff102297d050292b4fe0352d78f004b96ae00347d0301ae0a7d007445c6034ac535030c40ed0391cd8101347c5403ca5ff800f8ab3e00a1abcb,
  0x19ec1902831b1e02f8a05303b1ba39006dad9700cfe37300225d5b00aabb490387d34700bb3f360030b2ce0321e7eb005740bd02420b0f01239f2502e0a1a80387e06100d8493803f8b9cd0390f60e00081cd600e3b57803c09911011a8242035918c8030e234803223de800d74923033ed11f036b10be,
  0x28303d0256e53101080c7c02604f1a02c772eb03a879d40298b382036161ce003f384c00f5e8460037d950024f4f8303279b4d0363890700e0af6c00173dcc0151384e03c8706f0050e19801e1cd6a0001e73e01c6a2950044ab69028012af011b72e201eaa36101e8fa3201c0f41103d76bbb001f7808,
  0x1bdb83033a9c100286d9e2018d75aa0024249f017801b503b5f74401f5054b013253ce026f0688001d644801968b20039e6bbe01a54a0d02adb87b00cb879e0049ec50027fdebd01c0596f03b00dfe00107c1103d634c901fce3000092807b038a8c300131c7c60356bf16005a5c4b0385a96f025675d2,
  0x1585e10341eaec02065bca03358d65014e83810195b7d0029893a503354ef3020261a801aa0d30001c19cc03cfd26d013d186e03f2994503bf9a5900caa039022e42360211fdc40372dc6b01152344001931990175f4e900dbdc92033ba10400e526e80330727d013e5bef017a2e8400f39a7a017e9c21,
  0x32fedd017cced503363eaa0310df2702382e1100fe7f8f02afca8001cfec48016602db014ccc84001cc425014c89c50270f4fa009b99a800b11ebe02ebba7d031b648c0000745f01af9a48027d1b440038f56b00763c2c025a6a09031da55f01ceb2c4008ae53200a8ed4f021078b000e2ffaa03c13865,
  0x3df01a00bd576b011907170170756a010c01aa03b9c8d902901edc0135a89e01a1c3fd01fad661002a18c400a9ed6903b06fc200501a60023d1d0503d53c5b000abee30060479201c9bfe6009c2ca9001d1bd201b8eaad00b7294300b64fd7024b5139033afe1701d9511300ba58420018481a01cdf849,
  0x8258b012bb02101426dcd013a98b001cca66a0186950100b65a6a0217d083013e0dcc0191d8070022b6f50164951c00846d5903567e320270d0cc02ca9766009b1ee803c6af50027a18e601a2abd20025f2ab01680247015375e002d8045e010c699c005758ea03a75810003b6c5a016356da01df41d8,
  0x24389f004a5fd900f2db22031583210170793a013dfc4202651c550023d7ca0191c1b903541db10029d241010a07eb024626a4015656330137144c02ef0b9a002f4e1f032d253a007880ce035b30ca0012e31001a00acf0260e1d600c0229503ecabd601fa792b0198150f007fced503f03dd8024470a7,
  0x2f96b403050b58029e24160371b75d030e1e8102ae79d8022b6a0d0071e848015a558b0195f5d6001702ad03eab623032c91540110557c0080969901a5d32d00cda4b90096b49e0000f70f0073bd0e003fa348010c78c100f49ad5035ac2c7033732cc034a95980136e2050357b2e2035941e201588c82,
  0xde7af01e6bb7200f00b1b010318aa02f9ee1001093d43029815ff00d10899035ebebb02cc765700221eec020bc95d03f25cf4034fe50003fb6980035bb4da012e514201867b07011e3e2a029880e50002ea83025492690106468e015f1cce00f99bc0036727f702249afd032b40600124f3f203908e51,
  0x3db2890154f3b103eb38ea029a8f02003b9627033c1dbb01f709af03f25c37010698cd03010bec003701750054563003c2fd9e036f9ca101c2a3a003de9d91034e0da100bb515301ed40bd001087280015712d033e671d006b6da801d90702019cdd98034d033400de96020327966302f05fa0000372fc,
  0x1a64b403a761c700d8bf8303f1c3ef00cfe8fd0019028b00efe90802e3ce2302f744d400a3778a000214e6014c63c6011491dc0217a14e00af1fad03fbabe60140f4b6028ffa900102e7ad00d09102002c5f5b036b2b9d025ec1ca0057db730232357102fcfbf602978eed0066721a0056d96f01c90bfb,
  0x2df89d00985d98008685170097691a019e19a1012ded6700934a4a0223d06402d9a80a0014fcc700095b7a02bf950703e72f6c02f32fde02e14b8c0273c9f401f351300025547503a98748017b7ebe00033a080153c009028434440272423500f9cbf8011b6c950169917001ab196e03129b6902e4b21f,
  0x25ae14011e600001849c6a02878c92008129d001d6163c00f9ae5a00ce5ddf0267ec3d03880df7001512c4022fb16403f1024100195246030b82ca003e95a300a78e63012058430114fe9000754d0e00107bea003386e000c5fc2d003f647102a1125e0178e11a02976b6100471d37013bf13b0394c457,
  0x207201019594d3016d696e01f6913401b3e1c1007580f403a7abce00b5bc17023b475100c3968f0027121f0326218001bd88b7039c483801310dca0325cd4202cac30403e2f60f023d67e9021ed8ac000c926501a5436803e1324502664f1c02875bc6011234be014d2ab5024760fc03a3d3c2027896dd,
  0x84ada028f2d3b01474e73034697d00068330500c2bb2602bac0d1028b9d98020fbe9b0010418f003394c4025adeb303de9b97018ff65302f8cb700241ebcb02b3fbc80145dc1d023aa13c021ea3ef000deb9000d7478000aed20b00341fa40079f36d008d931b00fdf4240348fe5903b47228015e99f7,
  0x8eb1c035c11650008a89d02b26bd00319223300381003037566c4001b6c6802368ac90052aa51002b8cae01e6aec90292a925035d94b2004649fb0256cdbf021bd58400feffa00031a63d0170433f002114380016b71b00fc4b0a02176b080129bc4a0011752b028ec6cb02418b6500ebc92501e259e8,
  0x3f876103c373c602a01590008cd87c00c9c74301d7bfbf02794d5c003459d6033decb00324a5780035117b02c321070238f00401d4d77a0158702002b6a0980005e9a000ce66e8039c4e76018c471a0020616f02427c11014e4b9b019293ca00d93cd501087a540010534d0265e031021941db001d580e,
  0xe3b8b03af259301b8a35600651b4101b55f9e01dff33f033f00de02e32ef3023189e2006b457f001cf24800d32248024406e8037808fb00cef6470245fdef03e1145c02e3f88402b70c1f029b811b0009da070209f9050147697400563f9100f559c800635ae80339c66303957c1a00dbae40017a56d6,
  0x36cd9c02c7a91302b16e3303f6e3cf013519a002bf91410006a45a0093b64c0174c62d02fb973c00001826023f69110317577e03f276d50005f3fe00b249d9027ef1ad0136cfa103786ac801e3d85b003b2c8c01e53ae90365302e03f0987f00fa25ae027365aa0187507b0030184a02dda12c0112a113,
  0xfb47f0329c43502a04e4d02f8d658036ef21200892bb103d2fb6a02ab6f2e006e039e039c45a800265e0503914794000da80b013b02d602efb5b102fa21e201f7767800ade05003a2c5250209813e00379f3e00fc02ca01f2bb2101e18d4e01499401001d1b4c026319c501c6746c00ed65a7033a824c,
  0xd71b503eca93801bf6d65024df6a60231b9c402929fe000a3382b03f23236013dcd9a03690c18003e3b9b023dfbb0003e4f8f00abd0720236b8cd02c6c66f03c341f5024290470143da5f0160014200167bfb0084609202da3738004a1fb802fabc6d0390b4600089e645029bac9b00352ec5009361d9,
  0x19ab1000d47f26016b028703c5ec3d0076e3be01afaad10094153101c1444f0144cc8902f56b560022b96303fa1a4002d6f82500254d2f0114a07e0182f6a20302a66c01f2182a01279bc702c738ff002f759601fbf4ab00a3f1c703a2e9b4037717b501185ca702cc8beb0372abdf01677e7f031b7ce2,
  0xb4c5203db3ea302f1a698025897d70264f14e023b126b03dfa2a300e26ca001b0039101f9c824002a6fa902d5fa9e0213d0f303eb147e0092d824016b58a9030cb0b7011242b20044769e00f8dc7d000c53b7007a566901cbef12028f251201028cb802fc6d5a02662df601f64ee600263925033b2f65,
  0x2e4c0403615d5a02776cd001ebc01002dc3b1b039998ca01279d2902dc28d70300ede1003e70770031dac200d9e83d03028c9403f9c43501c51e00032f1c7e0237761c009b651601a012d6008941fa0039d93a0167900b0377c16d01d26dbf03440cb800a0155a00b07cfb00a5ed700226f85a00574b20,
  0x10eac004d566b0269a58902dcf283025588a9039a368d03cd50c900dc9dfb017d5a7900081123000267e303c3e827035d7463001d799d03f06bdf00822f70034c3df9037801290067d21c0301cb12002b149a01c51e9e0361b04a0293f4f500088daf00e26b7c0094769402621c6f03bf58ee0315f3dc,
  0x39b14001be89ee030283e0028bb16f01fa4ada00a0b1a50133335a028d38d3020cc3fa016f3d490019370601c8643b00528a2502c2c1ce00f16da30207f06b03a706a5021c03f90199183f012d19d10010e89803521f4e000aa06c012cb2f20168e4330130d7630186c94900141de20395de650022dc75,
  0x314d6a00dbdc7500c3badf00222555025b7b800069c054036cecdc01fc923f00e60411020ed6120031f3a603ee21c30365635c027266b9012d054f0018230b029a439c0163413b021928d500fc86fe0017ad2700a4ab7a01c32f470249d66e00136f5d036d3b83033697680206f323023819660300bfcc,
  0x24e15603c4f33d032ab525004a003b02d785ee0162d411006abfbc01bebfa80213aa6a0206858500198d61027b38b702dd6fd603d57c68033a4ba00378cc2a0309712901ac288900dfaad5039947b60028db0d0163fd580072d75c0353d6ee01eef7e000e5bd0f012c6df80359ad320162c3dc02ea6baf,
  0x27ef220096b08802b2e74c036838f002e7ee630142d75503805e0302cb39b2014e82a9011bea0c0036406803aa9bd00272bcb002ee3287032ce0f0025bdf8403010d3102928e870066783602fbd9c10016e3a6007ca4830111cb3e0333743303cdac44012512a1016f9c5000ad37da004ce04402f926a7,
  0x60bec006bda5001fc33bc021f0c270005f1480017114101492e06004247f501e382d702f81ee8001df76903cca6c8026bafa602d8309f0355c88603c92c6302de0ea500ec73c6001674190063cf0f002a2fcb00c7b2e7031d55eb020a82a2017943db01672bb0032e51b003055f2201dac18303c44159,
  0x382cd50150623603a9f9e003fdf192021891a70212377d0028e88500f5fc4202c99a2d005ec4e5002ef40a003a7c5601fd06e5022fe9d803b44f2b001bfb3d03ac2cd702e6dfee022a678b02f7c14400025c5f03cc0d2b0371b5c302bb669a0395c2d901a32f30021217f6004a34380234a284028a118a,
  0x1a827c011de2cb026e2eba00694d3f02138dc400eb96be0181660f01c88d6c016b174101856be7002baeaf02f68d150021096f01af802001456d3c01615f7b013ee18501df3d8802585d73012fa4cd000e4ee100e62c6a01ad193f02c0185701414494021f050602561bf200871d40011ea67f00049712,
  0xc4503028fea6d02b4302603e898a10259938103cf555a00da92cf006edede012e0fd4000c35e800045bf902ee831b001d858002d7155501dac15d0352c530029b715401e94f300184c2fd02a8af810025c600036c679c0243be1900d410ca01f904dc01597af00056da810033ff7003c16838010a3115,
  0x1e7c3803a819bd03414d1500bb61cc02d28a0c007b105f025546c3015d397802350f8c011292330017999d02e2fdce018fafe2019efaf000a13ecd02b5cbc003668eb90214db1d010fc8a80383c23000309970031212ed0108cc5100911cd702bcb4ff03cddada010202c00327ac93022b73c500eae4ad,
  0xc0de8011de3ca03f0b69f03c7459a006822c201f51773038053c70105499c0341e3940359a0d300168c4300b4fb60017c004e02f610410164f2d603732e7e0147170501b76396013c6cda00132050001ae6620272fe1601359cac0116b75b00fe865d01a3e48f023b13300309a3e90180454000898b2c,
  0xc43ee004b1f4700f694950364cf7102ed01ec034a170a01e8a8f000744b5d0366a2600028db170014f44402506abd0356e8ad008cfe4a002f39da01f9db7a0093326700a865de0332048601e7117a00170db5025f26c0006a62fb0393504300b306af0352bf11017bec21021602440363315403add571,
  0x10d478007dbaad01196cfe0367131d03361cb4013d13dc030d3a05006682bb026034d1004ec1390013838c03380ab103b527c103a624ea02bee2db020f75dc01f76f43011292ca02f37ba6015a2b3c0035f95800e250e001a0ac7001badbdc03225c5400fc8a920298d02102c3265f00dd234102f2153a,
  0x1a388102b45f6300519c67035c3726039f9fd8033d26340292b2fc03d6561f007f48dd02d62c86001390e2021f36a70386943702202dad015da3b201e3cf9203e6030b0190ddd303f952380038fb6c0004e8f60258137701514c3202123cbc0363a93900e4c9ce01007041018ca69701610cef02e1ca13,
  0x17bf3003012c48031fd7e101c166a302e01b5a0306b8750193da4600cbbb23022c0cde0300238e000e22dc038bb2de026f44df01d31bae028c7c580104dfb701fe918603089f3b02bf584c01ff6af5000ce7d30031fb6303e0f15f0060c76500b19f2f0321444301b4df36036951710137ba0503e7eba0,
  0x520070130745802ad684500ce3a97023ce13d00190ecc01ae861903990a2302bbafec010e7d9a003dc9830222acef03568d83018b56aa03e676d10303b2ad0176fa37005e234b028e0d2300551d25003e95740041cd0300cb92ab003f1991010084f0004b97c601ee0fe400b37cbb01be73a50088b0d0,
  0x30c87c015eeec80063d6f2008e6c4101292923027f65ae0064e59e03258aff0318d0d5001301df0011c4940041070301ddeb820219a08b00ffa02b03dcbb7a02e083fc01cfc2f300beabc2008477a2001a4539004a0aa703a3f31500657a3701acdd7900d9f861030904b303aee23200df067703252042,
  0x3ec62f01b1244b02b201e6000277dd008c9aee003be3ae00f64e5b0369dc16039eb0800146c9c80024184702189bc602861c740350a6e2013c4fc0034278620160fe38018b828d02b9f9b701e824a7002e0d9502ff40f8034140e20162aa900339b27901c042200124f7a103350c9c003f487f032b53e7,
  0x225b3503373b8902dc1292003e250d03c924bd00eaa03501a5dc0f01735175013e539501fadaa80029e6e2010910bc03070381014a722c01fc671803e2852401422aa202ead64d036a522101ca2def00207a200263808a0187b5b9012dd1930368817e02c5ba1f02f8905c029d312902bb741a01bf351d,
  0x192a27001236d102ac3696024bcc3403b31fd9020f32690059d034003b3674030117570039539e0016441003aa639d02b01eea01bd6378033abc67011a2f96037b4a6c0236570a03419a4102e03082001e5266002c72f0004d9fc202287bbd036f4cc802e76e2d00d24a89010c4f5d01551f9c01cc07b9,
  0x229be01f0706203c4c52b036aea440058fd3c029e3c2e02c4109b012d760b01214a100167d2b300358fda00b37c8503eaa765011bcb3801e4ac93002ebd6101c3c1c201a736de005a59560215d4c400108304019d71200373ed1e022d61c8008ecc2e0109889800e18be902c1f99203b0176703e40294,
  0xfcd3f030654fa01925edf01e7ac740078ad0701ecac4703cbf87e0032bf69034be8ca01958dd4003e3a0602369d31039c7cdc009eaaec03810cd800e320490108289403bccfa303d6a26f003ef922000c92e70290e34e013a119601f8d65300007483024fa92902f5a89e0181f308020171b2008785b2,
  0x497f016233cd017cc853000e2207025d78dc02ddd723011f829b00d82bb00218a5fa00bffadc00297e88008f15d8010a553203664e5a00ae1e34014d281800a45f140232356b03427d4102d6a65b003a5f40025c971b00cb32ab0197a5a00200d04f0220e1020164b0ea0204adc500ac8b2501c9d123,
  0x253303030f1a1800073270001d4dd7027706bc01159cdd009327f1005156b902f13fcd02a64677002f2a750304b259008b9f86017d023203a04db6028c71d30387d0cd00d157e103254b480346c81e000ca96401b3ab8800871ed90123b801032c3fa402f9b56600283b3500bc592800daf570035bc517,
  0x3b9a600c8a53a00b9b6e402cadd3103532d9a03850cc002889feb03a29c4b02a3008101f47b8c003af7a10156e9bd0004c7fc0232e8ba00b90ee30241375a009993c400c3687b00022dba008c8510001332030205dd4c02a098a402c90ab9002e007900e6bb68032b063e023245ee02f350a003472d4b,
  0x3b49000281ca2101c5c25203e50a2b00208b9202c811510146ea5c0366aefa02c3b73703bccc7000243aff02b418910056b4c8026b466d020bd026036abfa5016b6bb102ae921702fc0b250040763e0039381c02cd3f9e0327049a03ca6bd70346a1e200536983014a2d8b0237368302aba11903cb4223,
  0x3a74c02dcbe6a0358387701214aad02bf86f60086357f00aefaca03bf56e300c753ea039bc204002ca21b01504008001ecdbe00faeb5103e8a565034a5cae003c711f002b997901c8900a003ef9820037c3af0172c229035cb5d60255be82014ac4510090d10803dd97750331cfbd03d24ef801643d36,
  0x288d26008b07e10229b6b701e03da801146ca50259eeea026f47f0013a79f703cb8a4101666a8a00282ac701c4907302e05522020305aa00b858c90301f1720260d22502839af7036dc66c0138603700392c5b012b8b1d01f2053c013317960117a0a402d9be4a025017ee0291ca6b03b2b5c001b919db,
  0x3aa334032a3bf900d917ba0180b6bc025a3794016e919702c650e1017f8d2b02df54bc03f786450012825d020ecdf202be99230166fda6014ea7d900a6e05203b270ec02d5f40503c9de83036bf159000cc17b005f554403ba76a4029b5e17004210d40042d40f014c949903c4d34e036173c802deafa3,
  0x160598002597cb00e0782d031e643702141b5d000a926e02229bbd00f3ac1e00f0088800dccc770014ef9b00e72ad5025d4e7102e2f68e036c8fde025d88a60076d3ce00c98c780164b79201cfaf170000fa26031d9d3c00e88a0f0151840501ac2bda0334a96803ba50c5002ee0f00327b17902511dec,
  0x4f51f014b5dc901f1260d0100768d011ffcd700836264039c73c002efc0e600b88f20022af485001cd2090008471c0150969f02a5b37a018c6c3500633f8702f6b62902397b61003ea1aa006d8505002bb91e0142706901d102d000360d2b03c35e9f02b89d3b006924e601833a8c027790b601e82f2b,
  0x24293a00b1958803104276017937d402135b270152602103a1479f01d4910d02994312026b3e8700164f0f01c482f203a0bdbc02270c8b02e0161202e29ee1006661910107090702c0712f011b906c0038fe2402025ef303c56976017bf650002654fc016037c90116e8c303f003d800d10a8c03785cd7,
  0x3a048001f8f530362e8f10252117203129e3e028bbe60020b3c0f015dcc6d021f656603bfbba9003ad3df03eaff5c03ab58810019f17701b215e002d88c130108646003092396020368ee01a4202e00169c8400e0c57100afade202726ea503ed03a602464d2701aa887103ab4c2601bf4df401567ca2,
  0x1fd93f0269c67101931a3c0149486b014c1309011513e602ce70940256dca9017da24e0172240d001d4d0800827a1b02503d9d02e3abc7039f036f0349758b011e2a6a0050c9a901a945c701a9261e001641460332b81501f4001b0272b89503f14ff8019bc695006f3dc3030b836c0205324501c23cc4,
  0x2de13f00cefd7e01ed156c034a64f1028b68ea01a646d70133a260035aea8100325e28018523f3003930ee0110082302a9465103e1fbcc01ff8f13020f8f5502fd6d2c00ff1849001942f6035adb9c00011ade03c8663102b7bb66028f5fe600729a2702d74dfa000be326014368f7015e05fb01fe2519,
  0x6fdb0144c434033fdb350161c79b03e33640022afe2f019dfa5402c5c445012e1227012861b00034fa6101bd812c00fd160803d1bfea00dadddb0057604103c57fe502eceb3b037a1f9f021537b60028d32803a6609a02664b2901b7d6bd02b21d2b01a2cd9f021cca00030f52ed0263647f01981066,
  0x2cf5c30249911802caf3e9000f396e014ba1ec01e6f39903f4969001ebc17d0006f5f90143a2130009ff15023481eb0340c79101fea00a016785e800f14b250070ac3701cb731002bbad6c0114190500055d9103fce2580388b8d7028d70c20315991702a7f4df0378408b0216ba4b002069fc02a63b43,
  0x25419800b92e980237968a002c1bb503e4e834005a4ea401df26e50112633b0087189001e12bee002350cf003c38d800ba365f01d6a8c00238ed1c00f4efa801f5eda3020826bd033f847001f8fcc10020a0e90200df5300a0d7b90319374d00869d5c01d020710298c74003e113e401d947d6021d6650,
  0x588e003b73d810042345e032cbec20256bc290060fc9402e283ea00e9f5d603113254004632ff000c1cfe02e3f24a009053410280752001d74b360135e3b9021494f500db0b2b0272a11701d4d25f0019353e01e475ce0076b39502641b4f02129f21009debdf033277dc039a09dc0240ffc8033ef74b,
  0x11049f03655a06010154a300eaa72700f3de8300ce4ca80228841e0089065a02b3658901939eff002ab36b01ff66d400e83dab03fcc21f025b143d01f9f4f403d0af170135873c00200e01033168e90000182e00eef81201a8580b0087d54a031c0f6701acc9fd03d10b5c013f2572000723dd02ddabac,
  0x13c12200dd02d502f352ee0042a2730373102803fff07b0019be9402484fcb003cca7403321a710008c0cc036b1cde02a90a4803ab625502fe6da7004891c203bba1b603614f4a03ff60e801f8939200246051010d2c6f01230c250303e05203eaa11903a2f246033f84ca034dc53b00e56c1b00b7c8e0,
  0xb3f9700add7dd0395322e017d391901090d8003aa8dd9013551e2030867b402e011fe002a8fbf000b3a75032a95f702e94a0603af61ad0293cb980036ecb9022a2a5b01e99cb8016e1b3200f6e285000b889f004b28230070661702ec15d902386e8f00118f9e01c43eb001b7496b03f63bf202bccbad,
  0x1de97201eea35c029b54ae01eec8ac03a7940703d88c1200898b0d0274569e0370b76400d40d6e002a97a203ef490e01d38fcd01ea0fd10142bb8102643825025aea3d02e714390396c1c6003fd0190039bd30019a606f0158ed0a03af450700a3050c02f5932002c22357024b8930013f6f91006c57b9,
  0xe8e1c029c49c9021654c003c6efa701e2988403b5e3f3038ab37b03ec993b023db89e010be65a000070f401db5bb3027989cf029e49e1013db615031c971c003918530048cf7502370eb001667962000f925601dce78503fc5ae10350101303fbab9802a840b201495aec0115606301426bf1008e9953,
  0xf968702f472a301b29a5f0155a46a006bd25b03b3791700b9da7f02b558fd02cadcf40092907d00301c080000663c0160713e017c6cbb02152ea400b21795011a7a2502024ea10072fd0b00325033000c1d3d0348f19103b06d2901a2ea6801f560bf020f30a3025254ab034a56d7039dcf500346864a,
  0x9caac034e65c301b4bb1903aa63c203495a20011813100350f33600f84fff00a86baa0054d5d40022251a0074fd4503d46ace02e51cf6014ac3380143fc630330b4960001d9a501a5e5480055588a003f5ac501bdde2b0033f72000e10e9d01f33bed00d826bd025cf98601f47d54023bca3700946415,
  0x2be78302253fa9018ad2c9024133cf012ea6f903fd6e920101b792018e018b02901b9003af3fb40003903e02fd3fec00df5a890102631f03f7ab7f02f26f27036184ca01cc76fa0141e5f202d9db6e003c0cbb039a989700e94ba60073b729030ab60d006ec85d0324c19703af36d7016121cd02292022,
  0xd91801a66e48004dee79038626dc003f0461026e91f100f803b902dcf30702a0cb8600fa29150035bef7001a977f03f04a8402ab4a1801ebce6802f1f8c8006654d001571e0f028ad03a0327f40300396ae50038017b01a0d56d03b830160388d9dc03b0656e032332d501f20dce0291edd500089db2,
  0x2ae5fb0346fcc000a80e8c02b8542500fd581a01474dff000ddefd01b1f0ea00c40f340178112200014f4f007d3b0e02d83843001fd85100f97b6e038cc52f01affe51019b52b802a5d35d017bfef80012cb6702cdd1860098f2bc01b7b7f00063a81b01e4f15b02eb753802619b5501008cc50325809e,
  0x1f5d75029014030327760c02fa7588028f76e8029bf102002e37fb01bed55301cc3feb00f6a45b00140c48015d0016003487d700b4d14a0234119a0019889200ebc560032337030058b7ef0375e0c600106cc6015b3c0701a7b05c01acc5cd0356007103af4f23008ac39b01f0406200ecfcbb03eaa292,
  0x7485803884ea603e22ce500a9a2b2035c081c006220510319510a0071c49902f5bcb500d020c6003a3fd1021855980198152202b809bd0335deaf01564ba1020d347f01e0bf2e002941a1006f4f30001ed140033881800197438602d404ca021fdabc03840f030227ea610043105703b0a85f02f3fa91,
  0xdeb80015df52e0042e3650008a451032bbb8a01fd8e5202cb27b002b67ad20326aef603346fc70012ee2e0188d942030a3a100370a7930253e1ea034ce07e003fe80501e9d05501e4ccf7023bc6ee001927aa02b5f32b00de64820035176600f1bef5022b07cb031980c8033c006f03ac50dc02545311,
  0x169cbc0123f08f0098715102a2b7a203f7f07a02d45625039038c400bd2804017982e503d4b931003c546402144b1d00e57b9d03204dac00cbd843003e77e00342cfbb037dc72001598f6403be1868001a670800fd88ce027e5f940196de65013b1fec01248b3500e9175e02d7546700cac707031f8a8c,
  0x992b4005c5593002245d801e6c0dc004be47b019fd38e014af973032cd44802284624000c1d5e0027aa0a025717440358639501249993012e6818024e420200db80d30338ab6503000392004a78c30014763e00eed14a017134ed0022e52701ae6769024033d2039a487500da4c0b0048bb0b02b9c585,
  0x281ef00dd0c750061bfc203f3c4c00251024e00d5086903260ee40058454d02513d2c03a9e1cc001ffc4a0202a66102027498011235d40079189e03937f8d00dbb4cd03f75954012b0e97026d9842002acbab0038d8ec006227de01a880f900695ff7034b175f03193bc403581c2103c7196601b6ebc0,
  0x2419f40381954b0074394c01b99f4e028e105b016a20a203813aa3038765bd007da71803272b890038921f0058070802f11c34017951a103855fc10013c4920048db5400fed77f01c202b503bd0ac90010d8f90394bc2a002bfbc6021c4ab1002dafc3038d65e30088c4170158491301e4b7f602082a8b,
  0x5cf7a0172c4fd03536f0f0153904003b56668015ce77800aad17c031e733b01e50ba5016fcd1b0021e06203bab838027e1dae0064d38e01a3215d0224931b03060fa203ba571c01036da400452d570021a3d90361a95e00b9f9ed02f44ba6030545ff035a035501b7b42600b7578b024fadcf03158c59,
  0x22a24902a6abed01a30c220320a87002ea268a0210ce20022c371900bd69650160958900828ce40019f85402f9227903495d9a0116afd10228125300547218008c3e9c03c0a86e02ec8093022766c700060ba1011f1def032addc203669fd8011b902102795a0903ee705c032c562803ee353b018a6a5b,
  0x6106103fe9172025205c401b6917b020aba0502c476bd02bb620003c9544002900b1b02142b0f001531d2034a90f2012317ce0160a42402be22a703d51d90018f6b5a020b558f00189bcb02f7417f0000201b01554fff02aff6d50094058100e2700b025898d80271e6500276d3ce022af3b202b69343,
  0xd6f3a01da674a005fcf4401fe370e032db0d1013c562b032a89d8004c1ff40067695403e96e83002f08f303cb7f82015264bb01424fdb017cb21e0353da7402f5eb00001968c800f4e9c60039655f0001bfc102f5740e0131f609027c8f4402e1e3de02f5baea021acecd0257423902cbc98b03c9ce63,
  0x21ad54015bff12039406ab007b259403a7d2b300d879e801a77d43026734ca025ece0302923e59001977690094a33a02d9a6ca022d8be502bde0ae0290563f0188a33b03520d4b00ac53930162259a000d4c3d0140e74d037b8a5302cb4550003c2f5301690ecb00cf262503df1829034087a800bfa4ae,
  0x4e499003e3d8202616574021f7d4202ba652603ec82510327cd4500e8a9850037f4ea03a4af510018f9cd037650db00dcfcec01816b8c02fbd4a2003265ed02d564870199a68000b9791202283764003d4c36037a58830054b899022a01f601ffa7540096d6cb01f725d900cea757000fd5f801fb75e2,
  0x2c0b7902a886af032c9d00032e8b3f01656d9502f4e82a00c0e0bc00fe431b016b439602c53adc0026f7e001e6e37f0147350a02dc40100380c85a01f008e00082f7be02d4dd4201af889600006e1c00322b4f03d99d60022e431402f9902902cb05d80284088303b3622d038b9da001d4f576029387a9,
  0x133a014186bf00bb7b8503b66c6101b3509102ce56910314630102f8315c0367b09903cf482d0037c89301c22e2c03c86063032b0c8c021846cf016daa76012a8d8c014832db001587bd02bd5b74000da20001e170bd02df8a1e02f62ad503036f0e03f9e07d00bd4ae80039fd3003ae7ea503e661ba,
  0x15aa8d004bf917016e224d0111465003873c94022c61ce03e1c9420210e06b0122ee4c01de6e8e001bd9c402c1686201ececb50151353902d25aec024d21ae02525feb017a18d80212869c019a67c5000df5730369c7c802eb050002998803016eb8790129636301db128e01b9406000537bac0210c4d3,
  0xf233e01496726038554bc02bc3eec00859e5b01f157d0030768f20232a2b203cc328002f9c9c70025a5c402bbe67501ab7d010047c93a03f288d101aa74ee023e67eb006670ac03b7f1420075838a002c7aec03b9333f0033d52a004a28d600ae14c50153b7a30218b8ec014935cf0070794c02218484,
  0x1c0efb0044fa0803952c8602dca6b80019d53000382ad402095a4d012df6850070d90102832ca100121e850262215901b4499600a80b690326abf102f1401f039e180e015cee3e01ae6d3201a139b800386c9e01efb6aa01e1d43c0279953d00cf3b75006ac94f03d84e76013919240211c3e8005dc505,
  0x18de0b006b106202d0907b02520ae30311ecc602f33cfc029d011d03b1f41202d0a04700024bf3001ff0bb00dbb4a602494e6c02c7375703f71ab20340188a015be4e20317457501909d3b03c606eb00177a0e02febad3012a13900129931003b454140346183800b31e7403f367b9007ef4430339a68a,
  0x2dc47003dcdd80389e993020d53fb011fc5cb01053ef500edc816007aaae901d3bf17021d78ff00183cad03afa85102d7eaa30284b59a03482e4f021c6239026bf68d00779f28005f512b03831223002ef98703f61f08024654120267cd8001e13ed702afe92c0309cad202767d91033dad2a0381c873,
  0x24fb5003434da030556aa03ae535401c4095402fec2e9032d5eeb030f69f30224329f00e453f90031bee5017a667500b56e9f034c54db027829a8029ad79200b72e0d01077682027a3b690100fe34000efe8a037c15fd005af7c200e8d95c01205a6600e6e51c00306e590053c9e2005dfc56003f8524,
  0xbbd5e002e7ebe017bcdac0287a64800a377af03fa41ef0011b6760168d69901d63b4d01f087520033ac4d03a83c1c03819097010469d001f196e40081ae3d039d27e20027ae66032ae5020167c07c003f688301565ca0002d449a01721f4500914cbf029bae2700584d8c035cc83600be2c0901b03080,
  0xf21180338cf46027b7f2801a800fc03d589c8031a1bd30274755800282a5f03fbadcd018886ec001b659803ef52440157e6090289b1990198cfdf02c56fc0024a5ff600d49c850264c36d02961802002bbf60034a3393039afaeb03f4e765018a837802de8fe0024fe0af002b467d0013eb2001dcafda,
  0x28563a01fd087d0004a47c006ffaed006842f201427ac80130b7de030d6bab00cd99f2021b7ace0028e3bf02c5bde1000561270158d22000f411f102fd2b1502a928a900bfd25a00a2391003be03970011dddc02eac15b010ca60c01e1f303033169dc039b9a4403722709028c3b3101c4dc3000f84250,
  0x359bb003207299029eec1a004e857a033d0d7a015a88bb013547a400c1dc17001dc91201d73dda0030424b026b7024034581b40323c7af0062104902f1037903578f6b007a1b100387dbb402aba42e002ca33a035486c60333f9b303e2085a000b7ce903900836016f2b950116fbf20234629701b4b1aa,
  0x1bbf4a028c7ce003d7710a00ad42ba002aa3cd01d9fc5002eb5cb000a08fc0010f3a3801d9084f000c751a03de260302272a46025e067f02f2b28300b5bcef020c45db000211c903b5573a03535d9a00193f210349e34000e69cb601709cd600b4577b03868e3403714e410122f1ee022c42100255d813,
  0x8584b027aac6101c5b8c103b066e902b60ccf033e2cbc032a73d4019cc7d1000175390071e7df001cc556006f0acb01b65381011be7950364edc10173d9440339fd4602c71e220203157a0195e751001c441a0006d8f4022453a5027bf523032ea7fb03ca36a6018ed2700143376401c04d1d0302522f,
  0x3ba9ff03e77b2c02b8604302a75b9c013c7ab303abcc46027dd91c0209628602e847a301481b590017550503580a3502b971820376938501d6d93b0245aff0024717df038c91ed036c3bb901403340000f717d009b858d0244dcb0020d6f2801d43e1c01f076c802b25750005433ea006e63c501c2d816,
  0x283ae4014da52f028b5b8b03da84a501f7ab2200329d49032a2fad03196ae803159b8d027746ad00377b8502bc995e014cf2c10152587b01ddf162009da6fc0077dee102e2f608019e408c02bd197c00174b7003c6480f01fdb8370382af90037473cc01cb918d02052b4200e9fbfa00dba81100558612,
  0x1f3eed0359e7ee011693800036cc2801cc33d502367b8f009d8c02000956e902684edb0066c299000d8b23022c457403f894cc028a313403facd160394bb49020ce9bd012d306801d63d6e03e9d01b00230dd502d5057d038498d8005b5174025f1ee3002d5eb30376c755016f9647001b5c82029d8e2c,
  0x13830800eed5b2015850eb01903d9602f3c0f603cac2e2014f893f028e09500089030801814123001a696601af221902fcd51d039cfd87026d214303c94d7703a58ec3001fc6b0011357e1024fd78c001b23bf00ed8de7002fe8c501ea08190139b6880141389d01fc45c002bb491f0221d393015aa167,
  0x388465014f078501ab19d602646300030aa848012e3c70009ac03a0265ac53033ca55202e328c8001e512c00e8ad3e02a39a9002ffa3b800e09595038a48b302d032aa02ecc9c100ed3196032e2383002c29ce01126a6603b0a87701ea69f2022486c20165e2fc037aa75b03f717fc0065f7c700c1abbc,
  0x2efa3400ce9d5f018c4cf803ebd7a003c434fa0351e294033aa81a027f9a20032334f8003214dd002ab61601034854031bd5c2016ae2cd00881a3b03261b9e0032a4c2013c6e82013957cf026a31fe001b13680156aaf5032176d801134783017701ce010c9e84035a04df023ecb4f0312e7c4018f8039,
  0x2bc5d014769fe01f99d81039c66be02db7dea03858ffb013a6de8035644ae0297ec400118d5fd0018c4c2038fa1ed01066117035d78f703341ae1001e337b02f6156401ea4ea002c88640022fb617002b2b4c0221d4b903a947f90038f4170323bec7010261c1032bbeb500b593f5021e515301dd523b,
  0x1fbdf031025a601262a5602109944038290ed019f3d7e003dd2ca03da4a3b024eb0f102c7c514002a8aef02078d7902028f99032cc41e00553c89032c19ae033976dd019b3e2a027190ee03926bac00135ea201aadff703d0d51200c841dc01e4135300f7530c02983af701e6f6230244aa8202eeb6c5,
  0x580d80098ddbc028a84e402a1ed2e026884fb00b4cb32037dc80801446a76006f7b7103edec49003809ca02e1a8b500c2078e02ff442403d6aa22016bb10f00a286f8003801a70281602c0007b5850008ae89016eb84902d3cd4101a8ee1f0181cb080037c86e03d2a2910161f1be00dfa35902335af3,
  0x2c4020041698e00da5c73017b2829031a52e202c4534801844ff50348e1a8008b473a01a1b1af002ea39d027060db02c5826000ce3b5f02543b1703c32bab01471e4c03cb6ea502a2293e00ef5cba001e476a00a87747018bf94b03606ad101d2ca1f012254b203c8f2e7021db47000ebc70702d633b5,
  0x2b7538035c159e039adaad012d42550274e9e40286fa1703030d3d03b9f55f036ff38400fd464b000a3ef202f4ed3e00f211a2012cf20d0202042c03bd909d019a3e4f02f8520a005fa5c703404c630020fb4d03a168f400c939b6027ceb7903febb2b0209817e03bed63b032487540343eb00028de69a,
  0x25013d018d8da003f7540100cfd11903c15321017ff6790071b7720107996d02f259650238e6e4000d864d000b6c8101cad53900cf41c802289a73000d407d00084ede0306fe2700d58be30096401d0005f05902d3ed4a018e8eee015e438601f2a1be0072a42300ad8ff6009166a103e7c0ee036cf967,
  0x6106902c5f9b1026419080244d3be0218c2b5039d79a5023ea5a702466bf10317ed9a02bfbf280024f185008625500165297a028d7d120344b81001144438028e22510086b54c00652f5502e077f5002642d5019495c0007071a80255d4cc00fe883c0392eeef0310e84303c9ec40036aace9003be96e,
  0x3d2062026311ea0228b57e01a4c94100d88d2f03c9e84a033dd3e200962ab702fe1511034e982e001c3c8b00da831503b6252703fb0275028d0f0502ebc22f03549fa7019ce96d03a094a002e26d830033963d02c8fa78022323ec021ec806005d45ce02f7e3e10032942301fb42b40024de0d021abe5b,
  0x22f3f5022502630136c891013a7bae02ef38c2039c2247019f16ca03dd0a3d0188822702c4ad610033f99d015ac3d0021a050800bc2b59003bd07f0133d76501b3680103b045f10315b18502308e3c002cf1570157b3bf00f3780302676f72036f4ceb02d56d460198ad7a006e0f33030f8b3f026b6cac,
  0x34681c00128cb703525a5a038c7d3f00d06e8e02aa81ed011d5f4b01c07cc40290e786009b98ff0005525b025dceda031eb36202297e6400f73764032d3bab02058bc401311acb0005d99802148cb8001efee3000e600503cedef703d617930348d65c03bb4e4d03953f4202dbf4dc01fe15d7034fb35c,
  0x3ca0bb023c63bf005b72bf00b0ea71001842e70248e93001b22fce027af63a0242a6950202cb250011c1550165aa32036f793300504c8b0173a446032ab38003288a91030aa6fd020551270136aef300310cae0124e9a4031bbb610012d75902f8b955017f98fe0126927b032f224e03b2e49f014a5322,
  0x222b7800056b570170d64503bdf4e401e94af3022d15fe02e14581038dbda3030c32cc00acfe6b002fac40026005ae02485d0200903d3400baa31e01686b570197777d0349e22a001aac57030b70e80020fa6103f0d1b90081b2550184cba30335f7cb03149e30018d4830023298600210543d00c52b1d,
  0x393b0500889dc50270597b0001711102f9efd2034a152102f58ea700577cd6003d0aac02013e9a0037b8a80131f68d006c19de02abbc7701cecb6c01eaf334006945f003acf4d0016ff5da01a0eec9001d3df20048b5a60032f7d6001f3f8a0053d7dd0100c91a0367a59d0272d5c0037254cf013ffa2b,
  0x1312bf0355401501d7866100e1073e01457a62038d1f9a01581460031173580253be1d03a6f219003e66800053aa980376e255035e823901e2b53d022df726002a7800008764fd02f45b0d013956f7003f6cb302dfa04902396f7e0096ba1900027e6c02a9b82901923b2b03ed2c4c00ff76eb00c39b20,
  0x34b87c03cae20500ad766402230b60033e6ff40282f840039c3b85016631ea0264dfd002dfc4230000b0fb0244bb6201fef81602cded30004e74fb03bf657c00e9cd4000457c9a0111a400007e938b0004feba036804a102a852ff03be75ee02512a0200a23af7022bcb0003e62e6701fc3a1903a982c1,
  0x7602f039d0509034ed118037e21a702111ed1032f380e02ef91c20357b6a90112424e01bafd03000bb6ca01502d810225a1600329fccb03ea1f61002a27620032c9da004d30aa00d10a8e00cf2365000d83f7026fba9c01b022d203996a0202a0d9ab012246b7007a232c03bcc423004fa35e02e55d00,
  0x67caf0367455103e4f64c01ac7adc018fbf2d018aa36a00d4434f02bbad01027407cc02da894600191d2303aaaf1000f3fd4403381d0102a38c6a030f7ae5002657f6037a907f02b2dc1502618e260003e9dd0197848d006f4d6a03d98e43016bfc2a02e527e701f0a67b0130bfa90085a62a02714036,
  0x108e7101f479960145d4c10316322a0205c90e01fac0c801ac9399038ac57202b09e33007dd3d7000ac67a024b018502f7bd440318a9a9004bd19e003c72800216f9b002e5b243018858d0039fd0a1001350b302aa9cff01277ceb0180caa700d765eb0041c0a6030f58e00033db690044126500fdfe08,
  0x1908cc026c42be0076fc9d02ed281a002a4a410330af94027cd738020941a4023d38a601f6d86f003791db00bd3b2d009de51e02ba64a80165004f03bcc483015ca1fb032ac1df02f7511001679235002f823e03d5ce77019fcaf901034dd702bbbe1100fcf5ba00eabccb01ef2edb0330516800606cc5,
  0x5f803a8d21701c799b0001aaac7008c5bcc02ff829202453bab01db680f01b34196010bbcc1003b48b601b8d63d035cb00303a9d4f4001c476203256ce9036072f6018fcbc50146f43503255a1c00230c4402bfd861006f254c00e69f7a0098477000a8ec6000a1b614027dcc94004fb631029f902a,
  0x10500802bf62bf03712ca900cabb0d02c663ab00e934b6012bbbac01a65d620189b90a0201be570026dfaa03d05f21012d77ea01be1745038f18e0031d94e8000a715a014db8f702b4c3ad01bfb98e001ca8d500dbf3d4027360bf023a0cd50188aabb03daac9f02d35d35008d01440318eb5f02b1ae89,
  0x16cdf202ebd91f03e0fa610212fe1600bea18b00b9142200a7a04c00a01d1602c93e3a00bb9b800009ab7a00a98738021414c700aa3957013ccc99000f0445035ad554007a9ae8021b7cb9030cfcbd003d2119012dd132000e99e7004e6eb501a6ecc4003fc28d0094b64600f9972e02fead12008b166e,
  0x40ace02da6c9b01a7c3d00245640203c6de2301074793022abd6901ed183f03b10bdf039d745d003017c0009c882700873b92022d8f25036e2e270081bcfa0068fbdd0160a88103f290920024d04c00053d45024d2b3003660989032b59c20131aaad019c6d2a0027171601bb63160183705a01b346f3,
  0x18fc59023fca400084c92b030c260f01eba4670302bc650303f9b401dd2af0034147660379aaaf0019ec82038b773d00f3ead301d4942f015cd84c012eaa6f00b03652009bb3010258f64c013fd0ad003ca4e90325265303bae05e0352e1ed017caaac013d7e78028930b20370981000aefdef0039de93,
  0x3a31b600b254390017ea6a01db469201ebf973006b447002b8d8060092be57001bd3490311386a000c1e6b01926d3b019821ab02d656e700bbdb4e007cf0df0001758f024933fe0049541b012a9b5f002f30db01294330027183840056bf0b03f89c2d01bf4a8d02f237cb01f7f86a02344ed502f1c143,
  0xfcfb2022affca0048ca6502885f8a01cc55ec03eed6d202e50a2500ba293a01ec901100e7930f000deaa2017ac83002a069860053cde100a3fb0a002e9372039ecff40021ca1c00d17901031dff94003734ce022109080228a637015bcd2d02681c16015c448101ec0fe70309c6b6012e60e7029cb5a5,
  0x1a878c027987a803a9e4350109545301489a520154d8a003c39e01017188fc00fbb353004b04ee0024a71a022f0d01028bdfe001a4fac500064fc9031db7f202dd3a1202f1e538017649a301042d33001e1af5021c0fb502957141005d52800396abed037ee4870039300c035d918f032cf05200b4236d,
  0x26c1e603623aff004c477b0211287802fce4c901cc86e003c50f1f0114541b00383bc5008abd6b003462560051d55c025d8cc001d32ba002de52f702742dee01d7240301af593a02c132fe00ae2495003d947301134c1a005f3919027871cf0087253f0172b0d900b99ec101da6bdd03b71a51002e9801,
  0x2ffa4200c7d9ae00d630db03ddf7f5021368b8011d0ec6019432ce007daf3c00e7a3d80384fcb400351910030eb4a40237bf0d015a07cc01e9940e01443a0e018f179a0100505f032f57c400d0eebf001e24a701b9919803cf17630148ef41002def41014e7a990337436a016d57ec02cf199103cfd458,
  0x8c23301e4c99903a74587023eb52501b00e6600f458e20068078b02eaa73500ed0ecb0283400e000d34fb0083be0402f2dca602db221300b6ecc40225255001d86a4b034579fe014d7be50209ce3400232562029e470c010a3c7b0325fc770359ef080344c7df0224c01b02573072013dcf9e03b9aa89,
  0x26296501889a6b0251774d03919a250329922700b3f70d025d7186037faf5e0148a8100039460a00176e9202031bbb0352584902dec1e101bb85180129cb4e0144a00300ad229e000269c30347f1b60018c18400ea70e803b762b601e0e36b015caaa5037d648400a1d9f502ded2e70290f5d400c72e7f,
  0x38913e0390dc7603f9fad802942e74039a5868028ac8c2016941e601ac5574025202d501f42840002fd8f30243ce4101fbff9e011b9f2701fc4e970007c0850119997d01a670fc01167f7801cbc520000ff433027e5f7300b849ab03344b5f02ee702901c830620258c183005d4d8102a6ebcf002a12f8,
  0x3af23c0325490300175ba000ea2a9b01372e100310a1f001e9d74a035b99530321a218013da265000adc4801a3be6b032bcc1d031cdb4501b4b96100d94411011efc0603bd620d02ce316803e043500014c2a4000b7b9e02264f840163132a03d248e30209fb100291ffb5019ef5780281648f03dff968,
  0x90ebc008af92e03e53acd01de797603b1586c005157c3026e9ed802565eef022680a803e885c90015420103c1520603473dfd0006951e02e5419003f4782e03bc45e0005d9ef603dd701703bd57960016d0c000cc9ddf03d60017038d6da6021efd6403443b840215d9db015793b500a498cf01bb45d6,
  0xf10650328b0e902dd1e93007fed480273321302a4843502e5379b011df0f702f1842e03cabdfb001c994401abdc3e03ee904d007f486f011ddf0a01c7b9470246ef4402bb41f90134461702b6fda1000b1236009fd0ba03bef91b02dd5479030f1551027b16e8020515d900e2c0a200ee168502846ff4,
  0x20f79025bf19303c8c1d702cda07403cd441202f85b0803d8a19301695d44032ab2df03b1f46500144be1001a50740337c79601f2dcb90393a49b0291a50903682ac4033beac902cc8ff3006759b6000aaa9f0293f5bd017bf5600006e96100d487930396f3a4021e8ea90057922903d2571c0158ddef,
  0x3302e401036eee007e99df031083c301acd81a039d67e60323ce7f0106c07b00ceb28203b448630016297f0390f3cb02b1070c037258a3039145e503936adc0104cec0003da85a027cfa6400ab69d7000d8b7602c6481802998dd201758ec700b2301c00c4312502cc802a0026ccab02a6346d0222ac36,
  0x7d090038c103501be8dcd00abf39a02d367cf038787050195d36a0033dfa100f04ca101e478b100076600024413a60391bc5b01ca85aa02f264a60144712901da61d6003e0b59035fd3670129e9b2003d5d8d03badf1400a1693502af230f0072e609007b5e78011bbefb0127952800e6be6e01660853,
  0x147e8f0369e6d900a34cc40166ee450055cf8c02cff6e201d096eb006eac0c00a65a8c018ed52d002bb53e024d634c00a198750121ede0000e293b00c9ad7f0066254d02e9bf13012e7f8000f02830001ea21402444b310138be8a0147a4b20043537b03c9d89d01e0761402477da303c7547402e5dce7,
  0x1f718d0382e6e9006ab913015aa5c2036a903303c01c59023e066601ba57c8024b808200222e9e00030de500b8c8c900ba84bc012952db021b827403349dee02211a1501cd15dd03b08b700308174e003eabc80302ae5c01b4811e00ff8df500e7c36b032b980900134d7d035ad478015f33400125dd27,
  0x3409e502f2e9d4007a221003aee6bf0130f59e01c6b9e6032cef78006ef210031a72420055c9a20037c3fb02fbbeca0249241e0315c04f011f84650267bdb30073ac1e02990d730293183f01112fc70017a29d00692c58023e58cd030aafb6015f86a500739099014201a903de8f7d011a363402222277,
  0x9e2820246852d0221ccde0147580d0079762e01eda4db00d867ea00fb448502cf2e4602d05c6c001368ed00ea1ded02839495022251340255f739038f5a8a001261b70099cefe0024cb6e0269dbe300001242038991d40358b0b80093abd10199231d02a5713f038324ae0308982c03e549c70369779b,
  0x3fd80c036f18000398160f018e941c0164648802fbc6f5038b697e025ed4b602da273002d32e64000c8936012ec5dd037c8c2103f050f600a4fc9d01edc8c8008ccd3c034319c0024ed267008392b800125470019961cf0222f6360221a11e019e6f5103afe0c3004f1657037216a103ae930902af75a7,
  0x4dad4009aae2b0345ddf402309dcd039bd1b100020fef012a4a1a01f707f0022239b801802c1f0009b75500599c5d0299693802be67cb0068240902dfc97800dc2e2300a5b9a1012bc30b0340a613001bd2b5005c08460147c825025384bd01103599017bd9e901f6dcbf029e33d6002d4d4802f843f9,
  0x1f710201a341f2026632a702902e96006c646e01e2e921011d6d0b00688d2902fcb10f0053149c003e5dbf03d37c0e027cdbf2017618b2027d9b3301649b0b005890d102ddbb8700fe23b600d2b76100061afb001fa25100cc420500ef597f03cadcdb00e658a6030c1b2d00879d9c02a17add00db54be,
  0x4ff6a00d3f091023f1e190271de170238bc8e00ef96b40287f67a00206f9e016ef05803d6b509003d21fd00a1de390022732400523dd7036b5acf01c76acf025cebc9026800a200515bbe02cf2e8c00206e720202079500e9b91d0193c4ac00520f6303a75b25002ada16019349e0003f8580005c8c55,
  0x18ae0b00ad0c7202b5297903335be303093613008b66d8020d53eb03a295cd0213753f010506890023a3dd01196f28027242e30355a65000c79a4f0117a2bb027e548800d1c06e03882dac02fb402f0011a86f0008aee803c8a441014afa4f005fbeb903444cea03999805021b87fc0025801402f17d8d,
  0x547ae0397cec6002781a80176af1a026fcb3d02612bc8001ce580026aecc60229194a03c3fa12003f78010385e88901664e97038cdb84013773dc01ea4a4f035ab09e01da020c019a6d2b01b1697c003b4c7803ad4c590022c5e500f2c2cf036ac18c02c8444a01ac8141016f8b4902dad8360357ce43,
  0xd953b021e9df80327314602caf5aa0274911b0029500b02c4199e00d6d38001d6198701def6350020a33a01a984470332c9c8001f380d002f6589028d34ac02b9dc67009eac2c0240f66103d9a31a001c9a8703db12ac0266b3a101a6f26e03d10e3e015ead7800a68759015b5cda02f2247901fe3ba4,
  0x1c8f4103c4518700ad49c3002f9cec02481946022c0d4702bbe53803695a9b0273682e02db4c720015c57c0004493d00ada2e002489fef0257ff8e00872d56025d870c02737fcf024034d403782c6e0003414802cec2940184a47702208db503423e3703ddd7e3037e48a2009f233501962bb601889426,
  0x32e9c0124fc3203c3d61a03d21ba1039cd0a702020a8803536140003aada202aa49f60002ce9d001e746d023bcace03926fe1036e13ef03c2158101098e8100fb895e0118b59100fb304d0173af1d00196657035aecc1016920c601497e4500656a0a03444cdf0329fbe701df488200122c4402b75aac,
  0x1ed9e6014f22180096329f03adcce103bbaa4003f79a730331a33e03bdbc8b03f6ead000192a7d003a0455039fa04603a89aa70068f1340308431b029fadaa03a5dcd00231fb7401c24e0f03376d2c0021db8c01358dba02cac91b0307876e028dee950074aeeb02f89ab1012311d0004e4a49016c2596,
  0x32f178024086690095b74903069c5001bbeba7011e801a026a143b02ca22de02f4775201e8a965001ad864009c46cc0030b29402e59f1801604b9001466300014438bc032e00520191158c00eaa70e00282147018340b802c8b90001d1c53d0298d4bf002f908c021f095a032e2d3801536d3501411160,
  0xb4ae01a377c8007caca8022c8be7036b15e90322e2e802c451da005a82d702cf3ba501e36c240024421802a6fe31004797dd01cf44fb0246c88101237ef600248f030391612c03ca2098037d59b20015c6f303c2f31300c9d451022d1de003c4234d03ea0570039f1b6000565381001aca52034fa50c,
  0x2b4f420087245f015d7fb4033cffa0000ad3f503b8f28201c12e7c03123ed6020cafbd02c28e55003c6cc202047de3021fcfe100af30b601a327f3031d2638016b695201620a2e007c1b22002ef6ac003883e602896ee402c16c9400545f4e026bbf4403c8aeb100bbee7903d0c60903067a41007d5737,
  0x2a739c011e76db015693fd0343702c028da2bc029840fe02ff98e2016cb5d802d21d3903253a080034c76803fb7a9a03c1fe920146ed930016c5a703c94c21032a16830125a9020152d711001812b2000b39e100315a590143b0fe0096dcf30116186801a07c7a009009cd00a08fa502fa805c025cfb6b,
  0x2f17cc03953b89003dea11039bae3601841260001e9e3801f8cb230337b6e000dbbf2c03d2f1df00027715032a49900374397c02e33d5b03364d7801f839e502cec15600e42bc4037330dc009957f5002186d403905f3d00191a4b00c42cb80199e27c02ebeeff021cb69301750231012e66a900dec746,
  0x31e7e3018dffc202a85b9a01c7fdcc026c9673007ba6dd01e99498016728770033054402ec0544002727a700c1930c03d7fb2f01c5a38602c2f5c2027eea2f020a0700023f0601020409c603694e270025a32a02acbf2f00b60aed0083189101aaabb60006cb5b02480f0c0357ac530339c717003ee0db,
  0x399e4e0070dbb401e66a0f013ba48601a2c32b010c5e8b01a1c21002c11e97028efa0a006a6b83002900e301f0308803da59a400dfda4f02a9fa8802d410e8039db17302ed81da00878ea80072a0fc002fc92a0061f53203da1eed001a2e0602fdf9e303b768710302587f00ad191e0137f1b803412a84,
  0xd003a01aea51b0103b50401bcd7d600284d040215eb1403c005dc008eafd502f3b99f0277acf400007f2d016c2e91010f20810068660000d6b15c003aa2da00691cd3024c1f08013ac4eb012d77440013ced4013bfe3c0384c76f03a521a8004cdc1001ec0de70325141d005831970138ddef02bf2b48,
  0x36ce8501c4361802d4f26800588ece021ab102004a936901f3880b0292e00100769c6e02fe7c82002ae6f202de6dc500a6cbbb01056026019daed901ae6f3601cd0afd00210013029d6c6e020a819e00194bd601e6de1803fca525002039e0023d8f5a02578c050061cfc90108dd1500904f64026cc824,
  0x8b3f603ae12a20098fea6022b2b480163d50403316a8c008cf49a031ad923017fc3e001bca8ec0029b8fd01a9673d002b7edc02ab6b4402b9f75c03bbf99901bfb1a400c49ee5001e9e7a01c23d3f0018ddfa02628ed1031d10210039d2220049f59d02ee714d0183cc9603e4d87c02ca523a031b7723,
  0x685d103a15f6a03c98d5b0021b23b03cceca002e31d6c02d7dedb0136fad8011d52580142adcd003d1329017626bd02a699a90261c3d601f353f501d39a610398e9f203e3b161016c0e3f00e934ac00217c20008c82ac03722a260220b4640189a7ea017d9a11033e7fb700502c2102f32e3b01ee3c2e,
  0x294ff702944aad007d71b101583ecd01ad1cc20268745d012a484900af46e80139fb75012f059a0036d50402e391c00290e5b20153a7a100bdfd6303ae259b00317f5f008b7485016549c7010fbbe300251f6600b614c80125cf4d0005e5110028104d00c25c0f0227041d03cdf05f0372b1c5004e4182,
  0x146f9014be4600259687e02211947006878b403387f1d001a188e01e9634c02c18c6000a1ba0a001036d3021f823701b3865801f6588d0164584401b52d33010a2f6602a16afb0085247e006d87bc00370bf001326aca03f9006a038e1d000152e75601c43bbf010e051801e30c7e0331027d02c27a23,
  0x27be8503edcbce03050f4a00956b2b039528d10225def503e3c9b301f815f303c37cab01b9b2460035f13e0299d78b01864a0601511928017cddd6014d8e7e024a427700e869c90026e59a036ecb810033c32501218298028bcb0d0077928702897ba50286553200219bf5033aff74006d72dc00bd0261,
  0x1c3af50114c19000e19b9803567c4a0123f75f00979ddc01aecc290328a1b8025b6e88015ff662002bc412035eaae20309f01201fd526703468164004a456f014bc3010144124a02d5012701fc8877002cdd160068a1ed021fa99d019964aa020f3b4702653dcd007c7c7b011451a300884b5703c44c1a,
  0x23349e01b0a46d0354aba902bc7c6e01f3434a02ec582b018ec32201ee17b900a6010700ac9fa60021064801be29fe00b18d8803281a0402b891a300a6b420003fe020021b9bbc00f3237e03afde0c001c8c62028e5bfb030979a9015f68d40106afa301ccf3f9010caf3e02b963710053dc9d03d6f1dd,
  0x32e4500c70990004bbab702203376015f515b0352ecf601edfc750241f94f016c38a302ac2529002f9a110179509c0178fb58012c3c0f036bb628039f01dc02ecd9fb00d6df4e0386480200038cd000219cee00bc622202a1adb600a34f8b037542a900d4e26900396ce501a1857f031739e900de6ccf,
  0x1ecc6e0015e95700165e2a00ce33b601d939350373e74702bacc59001e2c4e00a745e2026bf819000fb48300ed1c3d03511b9a005c7e7501d49c27009595740293a4fd00c79933025a3c380156376c003f419001defb55006ae108016aa9100288ac7402a4ab84023bfb59022c8e0a02d25bfb00c7c16c,
  0x2c2216004f0546036fc15f0364922703a6efb101a1591a0234d07403ddccc9007229050328b74b00263f3501779db100d7092d03ea495f0287a77a02b98c9e02b8a1e802a8d8430211fd860126184d0035e17701bfd8470003603b03ab8a20026e98d4008733c801bcab0003d4d165006823fb0338c14d,
  0x65ccb0016d5a40142f1be0212fe0b013a2fb40328b30a033928d502de125803fc03d002fa5019002817470201e9f8038413c601b8b75a00d946e300c5036a01811ef9011934d30014e99a0353aa3b0012a8fa00ec5ed7015ff587014a1b17017bbba900395388039debc5031b0a0e001edc6400487bbe,
  0x4a3c10237715f015b7478031645c2038491c301e56e4202ba6c020164920a00bfd9de0365cf100031870100260a77002ff5d80016678800fc24c002c70bc40396bc64036367c203040b9003e519a1000102a303d12d67038512f103c80282000cdb9f032e396101418f3201c195eb030cc11b0089483c,
  0x16e132038098bf03388406015dda9800aa154001b52b85026969670251731d036cc71e0134da28003ef38d011e0fea00ad58b601df00d10071223c00c408b20344ba8500a9be3002c301aa036098eb002cf41c0105a1c10179cba003104cb20182539c03f330aa02cf78b101f7ccd7014627560343400f,
  0x1c418003f727ca0379069e01594c0802626e6c019ed460017a9a9c02a6cd680171e7be0176111a001830f40144a29d014460ee03f158ef01eb0f3c02ddd0530093ef3802b62d0000e0a5a2020ca59200250a7b03a1c9b502bab1bd009511b50294822801b4b8bb0387730401a2f71001932a28011e7f22,
  0x1ed08602ea4f4102a3881c03f5651c003a589f00923fd4014b9e5003528f32014e53ea02239f7d00331ab002f198b3002c82100106359e00567ffd0154dfc90352d4da0088b8ce026369ff031a21020030413b01ff97b302886dfa01f82f080129e20c00ae6ca90122f32d0180280f01251f3b024c574d,
  0x150e7b039a51c302bf388400511426010fb1f200a47ac403434db4001734da019dc3e3005d38e7001092d20056a8c503b91cfa00085a1401595ae102d444a40351da660368c5f80302df0b002212760009135003a309ae03084e0b02b6336f02385ee201e4cb8e01acec53011d39be00c5ed1c014d0d52,
  0x36d4b2021c7a190100278c02d8a6ef00025c3503ac29e6032ef53d00bd20f501a2b1a0026ae8390022b3db020d40ce033ce34700408f0102671c2c0047a077005484ad0087a9a7007dd1c202a88f5200035eeb00c9ce3d016cb385022c03af03e18023003bc3f1012a1f0b0247dd1101ceb58800071eca]

/-- secp256k1.go:10, serialized bytes 184320 to 215039. -/
def tableRow6 : List Nat := [
  0x0,
  0x3fabb401df40240322d9ee03f187b0024142e803267ed702ab52ae0300981401a0a6c1020a7feb001c9dc3000fd86e0238ebd501a5914a0146c7fe01d2c74001d79c5200f82b3603eab01e0386a27b0000e9c6033e92680304b606001e45ca0237cb5800d6f1040381951800d8100e01d63f7d028b0355,
  0x2702f402b3a0c903fb72f10139b0110230c1a302aea48f01b6800303d35d68012dcdc400a93c1500139932004cffb901e11d9a02bfc26003b8bdca008ada2401ec25980062e33203303cb900bb18650014e6940022b29302d3efeb03c3eed10278291e00b58c7b00214639021df19302bcd03b0260a5bc,
  0xf5775024e192100a2b42600a4f229034436440368b064023d3a9901165aeb03503210038f925d002571f9032bc82b02746b48010041ac036b742a03b1cb10008e34b302b1f0ca00a95b0c00f766d50025483403b4370d03e97fe303ac410c00ad51d8027ba650025d683603ead07603ee6e94022d8b00,
  0x27776f01575559019adb23028bb23100ed8d05003f400a02089aea020afa7501726f2e003310590035c4a503755eb7005995c200cfbc6a0302a137004dfc0b0053448a01a8713b00afda6801235cfc0032130603d5be2103f93abd03a48fd50315d8f002c5bd0001a82eb500a138ef01dcec4a02364eed,
  0x37e3170253785a0321ae8802b7a8070391df6300d6cb6000907fbb02c9632b010c80670245e91f003ded9e011df5a4015a8242035e1801031b7726016e314f013c2115032d6114036d7282038dd97c0035eda202c9a572016470ff011e8d6503850681010e4c4a010bc90300583f8400ea4d0c008b60d0,
  0x7a5ee0247757f02bd47b703823eb40223b35700329b390242105802c6ed8f03b67a2900ce07fd0020d91e0286b0b90385e64d000bf884006274ff02c7a81a020c52a501a498c60276dda202b5092d0029c1a903aba3e3034706a702a4597402721576026b25b503be7fc301d81006005768c30053cc8f,
  0x2b18940397ae0303c0a5e100e7046701f20f75025f9c2f0230e6280036494c03c7a82600c74b500012194303ffb86b02cb5d7503ff96b8029d8dc901f8e525008cf90c01c10f2900944dc002114f2b002c52e8000dd3d60209a27401c55f2f01cb3b7401ed323901d37ed8037c7fc40007162401f136b5,
  0x1e764303c1797a030d190d00650926018194950342985402cd3cb5004e5bd9003a957c00c20161003ba09f02121b8802e2d6c7024690990046291300f38e42032c1d5502ffc3a3028d35a80267cce6002e1884001970f401a462ab03c86e87010626be01021f8c039d3d08008d73dc007ab68b01289213,
  0x2234c9024e0f100287aae400a8f30300fda281007a740101a6671302fdf4580011b15b0085fcac000d3c7d0377599b02b7ab62030146c501092fe803baf570028ab4410306dced00ec4cf30113fa79000f0ef403ada07101440f98009ad74e0074a4b1030d2ea802c49994014de12203d215b602478012,
  0x22989b0165e9f700f2133a02dd5b90021d0a5c00e51e5201fbafaf03dd267001009aae00ae55c30011ef1702be7103037d855200b67bc701d067ad019022450040940f028d254900e76623035f25ab00393af90334cb7200628fb801dd7bc5022cb6720052bd0d00958ac7019bfa5100be02580237924f,
  0x2ea18a0052d88f007f22db02615cce02feebc700d42627006238e00293aa9a0354277a034f2a1d00261dec03e1b7b503f19a1201c5b49001a2f710026d463b03bed97801fc3f6902dab68900a7cd5b0032a0910281a80803918ae401a7663302f2701b0157d8da014af01b00a653c500ce6d360163dcea,
  0x133da901363f79018c8e5a03337e77032b7d29001872b80350ed250316ca5f02ba69f801b6d130000cfd7d02da830003f5928702d917f0001678dd01fb49bc00d7db7502172d5a0057a28001050bc10002ce9402093d950145bed1016f077a01eaf09d038f24c7006ddecb02385bff020597b202470eea,
  0xce6a0363c84a0171a229023433b30191c9b20354e9250363dd8a00ab09b502d1301c00d502d30031e7a401749c8f02b8af8c00d714860234ffb70248ee07038c0a1401f0c52c005f6a4c004cc1700025746b0369b89f0205a4c90379b1660011580d03daa4760372c6a60152166002cccb77010d1760,
  0x9284a0164a0e7015206bf00c2d62100b8239902c2fb270373882200f3f7f703f6b2000136aa29002a410903d708a702b5292d0341c8c70070c3750183f4e401016a7a037438370266b9110221b6e9001f6dc4018439630188bac10135559203fb5911000feada006c2cc401d7b943003d0ab40305cc6d,
  0x9c97803dbb4410019163801786d5b00bf215c01ccaf29019b6a4502cac5390377a233006c71c3001eaac70028fc6d03b7a34f019ea46a032cb983020778bb0064ad4601c3d4ef00cd302200dbd5240033a22903c69c6301d7f95d010e822502d1dcc802b1c2990155989e01e2a1f60084e8140116498a,
  0x325885006f6d0900bd62c103c4ba0400958481038b401002d93f3e02e4ede70062462901b435da001e9a64034349ea03533818018a305e0395ccdd004e304100bcebd402db09c50286da8103974b030035140a02967f1901c2bf6f0309954b02a05d4703ade23d038fdc8500e559bd004896e901c5808c,
  0x3eaaef008e3ec901371d4200c73d9503e115b7000b1f2a01aaab8f010c6c50028e791b00bd383a00120cf5025969b1038eb28a01f214a701ef8afb0390d42f01d2c141003228f4018ac3a10203653500269e9301146799037c785d028a6cfc03670c3900b2e4f00259cc5f01a08f180193e18f00351738,
  0x26d03f0057c4b8039d1f5203708e6f0328cf1600cff2d90260c81a01e91a1d03c8c813038cebce0024cc1402e6c6b101062a2f03b3b68601edce92009bccf303ec989500780842038e2f65039fb46f002fbe99010cca8701220259013d8a2b01b0ab2100f28c720198fef803138078020ffb2c01c07d13,
  0xf0690011c4b2015ceea702245ff8033fb18300a1467d008cddb600c0fdc602c8a0c001225e36003cae8101ddf4790202dfd500936891014bd9bb02fde6a8023c9f7c02a7ec1c02ce90ba00c970d7002f01610165344500c5606b0252e52902707ed70357161b0000238300f8cd1701cc5dd0026ff235,
  0x316bfc025e1f77006b3e2803812705016bcbca01e8e5b602d3f6d200c45fdd0247907f03c5ccad001ad6a202648f95001159d0005fab2b0010e2fd00ad208e03bff44c01412bc702b410f601980c15002ac9170119e2c7038c00be008ace680069a4510098d920004b55ac00d5f1c900bbd94101dd29a5,
  0x155b73037671eb00135f4e03d106de014734c100224c3f002fdea500abd7b80197010a0079f88c000b90d60258b1a600d756b4013de64f00938fec00f9f4e700da1fa0014609ce01155b6f01513b0c0019a5d9002b311e03251ba602dbba7d01577ce202f729090379c252031a649d00d01229035e488c,
  0x17c3bd00b056ff0119c83300c1e41103f45d1702c0e9c6000ce31900a5481d01af6eaa0208e838003bd47601fd8b10005cb1d503bfb94a025c6ed501e4d14c0326ba4b01ab4c48026d66b2005c0943001d416403976df403f708e002c5c2a5014ca18303b56fba00ddf8af039d5e7601b1ad9900fddcf6,
  0x175c6303620a600067ce3800d84c5e0048b6df01beb04e01108af201931b59001a98f2000d55b900048ba50268403a02a71f620276bdec0379e7c00209290c00c0f04702c9616303334ad0002c0cae001cc3290046e0e8015a669a02e612d50286394a03a01e46008df3e000b3f01a035a0122030f7256,
  0x1a846c025a2fd3006c9b2a03ecfed70124793d035d9d8801dcc85d01ea6f3103cdd96103fa528a0023c03403dc320c00048f7d03e1535402b409d2006ce4ad02578071018f3ab102956dfc03a2d12c00093284032ed78402d8895100b5070e01f0f6890214583803d5531f0374ee8000ac615301ba58e7,
  0x2e7cd201a742870359911f0235881802c2bf8f013404da0363c275032b97be027f66aa02c3fd4b0008cc4d00da11880156a1d101790b0503359bb701bcaefb02f873e9021c7c8900c4420f0180acef001c78710024fb97031216db025e0c260087f6c2018f04dd0382d7ab006fe78e03623d02009948c5,
  0xec646025ebf17039b4f4400a9afac01fb233f007370e4006a0c790311f4a5029396fc03b8954500228ee70123bbb400dde469014482c9002d6db200341d31011e505b0333b3b903846c8f00f860e7000c497603988650016d8a7d03ea607b03dbc2e40276b2e10309dfae005979070238ae570034c41b,
  0x21a2380112dd940343ec8d03bd32af03c4976d02730ff0031c03c80147930a02a8f11103ce2ab4001487b701372c5102b98b5e02d825c700f10d78010dad690019ce1d00d928d700e52e9f01e40d19001aa63a0378527c01410cdf02878c2000c28f1402a10b3802524ffb0152ec1600b88b3303bc7bc9,
  0x2d9bad02c168980296366f03e56785007be58003207c2e03bad45d00c1494801c469d4030f24a200216448011b26bf00e0705d0056b4930110ad93018a8454001250c2004e229c01c359f1003ebf75000e13ae011bb66602a8957703830399009f0e4001178ed20026503e03bd34ff0112dabe01cc9302,
  0x1685dc003181e6013c623c03d0f9f500ac82f4020a5d1a032259e50361bd8902ea9a3e038811790019638303a8a414036e409101c527c6025858b60384638d00586fa301c8a85d003711430297abdd000d8101013c410000ffb8f603b91c770289a5430317291e0103625301af4b5901d3284200ceb1a4,
  0x12b3e70002e8f300a9c666016ccf52024dc4d00175bf43028b5601034814d903f8f5ce0008a088003acb2e01914c3700d57fe202adf949033469e901a4107b033d5793028eef9c01ceec6e031460aa003a232000f7161d00c6440e0191e6940292c7690362822f019774d900016d3b00851f1901edcfad,
  0x236292038e0ba1011a0391021d3f8900ddf4f60191f62a0273654b02a4abdf01fe264d034fb69e0003132b003b4c51010b2f950037eaa6002f594f0398cfbc0146f84501e90dec03873fec0298ce67000a9bbd01be8ae1024073c6033eabcd03ef2f9502edd917007007ef035e18be01bfa7320153ea27,
  0x345b602bf480403c779d1019508b3004befd8025b53b603a566c602b8a8fd0383317e00fb027a0015d0e7037433af01593408017993e200fedbbb0390afe0007d63de00c5ce2c0180f0c1025cce52003e4b0000529f29018fcf4e01705f02018ba483002e003a01fcb0e601a461380061a0ce03406753,
  0x5cf2d021e58e6020dda8003256e900002d5bf01bd34f4034310aa03c5fe770156a07d0250fdad00029921030e88e80325c30d00e1c5500331afba018e7f52017616350329f42e017a1c4f0233cd760034a99d0243fc570132656602130c72034b3ea9011fc9a1029fd1e903407ee40117d64503d28404,
  0x1790e2011b445d018dec3802c9deb80227372502091fb700d416fa02416da30095f0ed032863170037c04a01a798df006507240275762b0134d41701051c6402fc7b2a01c11a13003309a5034d6180001b18960153ce8501680c0402acebf6020ad776030a7bc40219482c0173469d00b2348601e8763f,
  0x1dad6f0034eedb026b053000f993f500b9188c03c9d3d003381bf9004fc2bc01eeeec301cc367800116f6c0096b55b0035d12b027dada8021fe5fa029a45700017e7bd036d0aab006be36f01c975cc0018825c02ec68870096c0ea029959b500483b040031998000b67ff40187c7630083f7ad039b45c8,
  0x2be6e30219d68f03c8074703a48f8e006813cc02c75310030092a8034a3ac400333aeb003c9a1300284e2c00976ce50059f4f40342ae74019649b80161ab7b03a2f322028d8a4c016e10fe022f921a001ebf17019d499503d8f6f600e21cd8017fb5df004ed67100be630f019ff9ce01784ae200e33a47,
  0x2f22a602f6bce702d475aa0245ed97012172d403cba3d50059490e0146fe0103e5ed5703fc671e0015e2810347bf840070833f027ec43a018765570141a999005f995a02cfe84d021bccaf003215cf003326e803272f89015da56603c6a9b3010afef100c7164800f3dee201bc386a00cbdbe500392b24,
  0x796640117c1eb01c5b76903d83f03028ad75802ff388c02cf53d20189424f03023dbd00ea1a87003b6bc6002e3b5e018c594302f53fc502c9dce50111208e03a7c0e102f156dd0335678f02744af5001eb3e803f0a86c03e9d40d022fdad20369afb4015c6e1f02e0ee9500ca7c470293f45e00ad54fb,
  0x34514400fd954f02fe5e4e01ad1b6a00f1078d0195387502fd0fa503285182016c128503b736a9001767f600162218028a73eb001f2eba03017dc000d1b71001a238f803a98280033fb97a02c7dd2b002ea46e01ea7eb503778cd2022833c900536072030e2bae011ad14c018da79f00fbfb5801d135d0,
  0x16d9d5015a584f00d0e15902040bea0180bf430288fd1a003f311601f87d6c01a252ee00b5192a0022fe32000efec700a1338d01c2755f03427f67023d8dd200ea3d40038d5fa6004ec96d0223285f002f9af801218d91020253850238bdb50217e5ff0222ae9c017d24fd00f6824e028f5564039faf30,
  0x2b86400286ec14006da0fd02572e6903cb2e63007bae850002daa5032a1a910139ce8803a7491c0001692b014466ab0300ea1801d57cd5014ea9520333b91f026c66c300b964b803db7b79018bb6300004cb6a022c3b6d03e8bac000b343c60183840b0240747e01987b150113d5ec01b35adf034d4e06,
  0x3f5aca02ae63900231c4e603bc253a01b3219d01b53924013c39590077583103a2768e00a183fa00185f72004518e20275dc9502fc0db003518372007ce50d01fd7ed103566c18021904b701c77f8900203ae4003c5d1a01838e5e001fdd1f02dc63cb0320f7db03495c4e032b3e3902309f6103cab64b,
  0x59ba002b40afa0378e4c101c01f90015a9bce016b0d400061206c00335d5302b9fcc80179089b000130e5013bbb2a00e59fb9024bc94600a2551d000f3d920348d663029f1ba602a415160384d5ec000ca344022d24d401f88d6e00bd57ba0171012c028bd7db028c288b03e79f050098fed60342ee41,
  0x269e7b0079b5b301117e6c00d48cda036c7bf80295226b020dbd1202508108024569b40329b4ba000ae90f020f3e6d029872c700cd1116032da57c03e0b61f019ff2af0263e4810367d27c01a606200001203100d20c7d023cd44001a1f65401049cc60388dee2003db6c90276dfa302a79551001bb2c2,
  0x35152000bf19c7038887c801261afa015fc5800199700c000abf3a03934a0a014d347c02db0ddb0001e0e0011260f90151efd202ea8d5703dd1f4702ff75f60071cf390305a8b60279450601d63aec001e350d03207888015d7d2901c138e9003e06700078803202274ee00269a48c0357a53c01b52bb6,
  0x375b7d029cabd50133913901db58c903b6a4ad00c22d6f02f9f74902dc639000b824da014330170006e36a01987c9e02ff799101b2316a02f3989703e427d10159c10e009b251f0213bf19009d62ef0003f03502706033032acc8302c05a9a018e28d40026f5ef02e64f90001000af0031cbb501d76d32,
  0x35c5140245cb25028f92be019de26e0247b19a02083d8503d1b3560353893f03838f7203f791260000c0f9012fb428006e6bde01c5c12500d3a27003ec48ea003ad8fc01bd544b028065be0059501d002a56bb005e5702035e3c790380171c03ed3a0101e522bd02f36fb20279601b01657e2c016e2706,
  0x18a762012440930394fa60000f30c0017643a703c410c101f325fb012e8db001b5e05901cb8d960005b79a00ae015800be2f1403adf260029f6c8c004b12ca0310035603d0b54701f148b700843ac60009354f03df198e02604f5a010a4a760011efb0034bacb100f06a060070cb13032d447000efbefc,
  0x19a6e8027a884501b491860292536c0086832201c64a1c00270959002c320201b0f3da0047f3a00036e01003767d1003c5f875015cda4d022c54010043fa5803b84a9000cb67630385415a0268aee4001989f101a4b888037414ff037183c8022fd18800f4d006033d252b03d6e10a0060eef4034709b0,
  0x1098620092bd2301c4045c03bab0250189733a0268cb5b037e8fc602f0fab9015d31250322558a00042bca01589d96011e90d90317d32003ea6228022b4bdb00b203c301b9cd4e021d5cdd0094584c0003805600d4a2d902c21b63009df3440037385302e2192002eb525f003de6de012bad89004e2424,
  0x21c5f9011cc35801a7d5190337706a0057b258018ff4c10328cdf502c1337a0213801d00f9a933003f83f202846f8e003b134b01f679b102aeb754030f67e10330eb97032af10902590e9900ea1f91001397ce02d84eeb00e0eefc01f7163f01d7c1e00053aad30179c7990373b87e03d08f1c03869b8e,
  0x1e8a7d035f86d401bd5db702b00e88029b197803e77e57029535fb00f5421b03799fb703ff9fe5000348a000e363b001f4b7ef029329bc01c19cf200b7dc6403daeb0d00929432024dd82c038d2ebd0015a64b021e34e802311d3b01521c900299962e03de532200c88f7c02dccac501ff7481008833ec,
  0x2464f402245fc000780aa603e75955036a2ebb0168e77c00a60af401125a2d02f3bdef0331db27003cff9802ea5be300a1bb1901fcebe800dc7a0e026daf89035e8d7200b7c129032ee2ff0386b69e002081a2003df54b0227b8a602a5181f034f60eb01c9984603b4ae6f03efbe7601115dd703d522ab,
  0x339117028f7c8001d183d102369cdb014fc1900327849c03500abe02bf2cd703f92bb301c227950004d32d0204bb4001a3b0a80052f2b0026d45ae01d821ed0358d716033c09e5018cbcdc039d0a1e0012a6be0308c6ae0275ced3014270d00133396a014036970380a36402623f14029ac4210035e87f,
  0x3265160187b33e00df3c5701bc57d902b2a1810104acf700b296e302d5b51d016cd2c70030b7f800069675035ae7800295d60d002e2b160335c4520117191403c3e5af03a0084b00e9c7750239d25d0027de0f02b5068c0297dbe00008b43c01910b3a027708b1014082ee03784b8902604eb4016380b8,
  0x38007e007d3e3900bbd051038e4867003c8c8d00873d2802d4aa960269800b02dedd6902cff97f000be4470303c83e0189ed1602f3e6a603f9f9480102408f02cf3e3e000aa4e5024ad95a0234e51d00282ff8024ebe8f002ad5e103904791008cf997004fec5e0227b713039f4f6902d9fa6302937553,
  0x27a24c003d8bb803f7fc41028f4adb03368a6502ced14802b4ac96020ad0cf03a1191302af6d6700295f8003cfdf9402b22db700629ca303e5acdb03129fc001472f5f02d0541701a675ce030e89f50000060303839cda029516790025d46f00470ede03b7687202b3cee603ce2d8b03030f5500be7e5c,
  0x2c073300a1175201e68d0800bc0888025c6aee00387f88023f76d6017b25b100f71fd900a1689f00036ca2008793d1013ca30c01c08bbd0251d6fb02f84cc501ff95a603e9241503d269e3009eb9b5003821a9017cd6ed0348c1df0316b718010f3fb0039f432b02a06b6d0011b1fe03ab2e78011abbf3,
  0x366a980235d205010d9bde03ab67e9023e380803a431710267dc250341f319023a90d6031a8a210015a88801877777034a17aa0374781301acc13800d22d7e01d694e400a73f7401000efe01c607da0025f1e502eef65f004a075b00c65e220158f0450258b63f03fb9f1c0376947701e8b5550281eb13,
  0x25b39a01e3786e0254568803b35d1203280f6b00b51fab02f8770f0322d12103aa7770030fa2f300096dcc01b197c903f1855901be69f7020634da003aa8b6012ba3be00ccbd3203516e6503463ce40032e9f40064b54b00c086330152aeb7028ff11700e414a50307713d005a0ba5011385ad034675e0,
  0x28d7de035dcfc0007cd1310068519701fb9c1d0165925201823ddc00edd81f03599d91021575a90010e72b03d6fcad01451c6201251e4a02e64af702d76f7103d78ca901b3c7e4029e2b7503a91e3f001eac1003451c2502f2b541016fc7c1025d541101225439011ae89a01ee9fe201b5147701996f43,
  0x21d05c0070438302a386e4019611e301b36179023f696601943a8b0180bd6c01642a140238d96b002e1b60003c5a5e00ab88f100b17a0d035dd10a0165e95a00849a72017b9de50186a6c9034dda110014bd210311a38c034bb4010089f97d028035b700a7816e021935d3003212310017315f02b1a0af,
  0x13ac36018c697103735fd0019da268013cf1be0247de8a012b074d0005756f039d49f400d9cb790011b512004ad7870057c4f40209a70b03ab8d0802146dca03223860022920a70248fe49008b0e290039a11a009051d70392211500c9de500290ee5601e8254202933a0602f63d7502760100012c8a94,
  0x298b3402b92c4b029e107201e8fd4b03207e6a01be0e7d0140c4bd013acd29003f547701324fa80006d398007161d603a51e3e009aca9000b1c5f40117b36a0290d21a016d3c2103c4c69801f93a3800184b71006bc64701a40c3703b8858a02a9cbd601be1784017240b3026c99710399e2d803c5c282,
  0xbe2ac01440177020f19d600ed5cf10088ef5400ee99830130ef1603eb2e0403b01d67000fa05d00349cad00fc82970064404b02dbe713002d7d3902cbdf5b0007375c01382aed005b1c1f03c3d7a900112dc500b564e90389f1b90235c5e200c3b3a701cf6dfc03bcfcad00f12d660274e0df0023628a,
  0x144a5039a30020166163f038524bd0218121d026d1c0701cf0fe5003140e101b84cd9022e039b00230e3c0104eb24007a55c802ac1a47014a023e011f9a70010fcd0c00cd4dbf01697b3f01376e9c0010d138021200180374387700d032de035a1139013bc7800084937c0109b66f0139054d021aa58a,
  0x74d8a03330f82032be2bf003be334035c06f5027124b100b5c09e03b3d962003d34ee0155b2830016c0e8002f3bcf03d0c0d103f4532e03bd43df02e67c4103b262af0163381d01d836f100b975b300213aba01ded14303ee34dd017fb39703ffb6f300a13fb1009ff35a00d4a1a9012e683f01ddc1a9,
  0xf851c0119e15f0134127600ab8a6a013852fb017560e1004d2ae10077a44002df84e90086b97500013a1401387833028bd7fc0207071b016762b903981bde02efc65f02c32e7303c5c06800a766a200164e8e01ec81a7007db2d402ee663d01a85beb03f3f51f0230ca8c01ca86be02e5e5b60293e893,
  0x3c8c4e011eeb7b01b04d2402409f4101099e2b027c491c01939169025c7d2b0339497d01e3bb240019b19e01c7447f016bc27801bbdee20042d95d01d2aa6f03445ba901f63bc803944d4802e2dacc003462b10029d3b701e4723601d7517d0187f82f02e7ce8d0263e8ba01f2fde500368e4202a8ad2f,
  0x11dc71013a1c37020d7817014d89c100b753b101b9e13e03c76531023ba15601f328ed01b4328b00165066005699ce02c4e09301545d4f002324c802b7ac1f00ca35ec016eb47b0194134b03e151e50004217902f7e8ad036edf8e029c63fd0298f89d00f7dd2902067278001c6667039ecc46033b76a3,
  0x270d1800e3283103b9f14f029eaccf025f78b902724f92031025c800dc4c3f01fbb2b00315d6e5003422e803c9e7c6033bc03f013667c201c1a95300e317db0189cdbc02dbbe8703a553cf0164b9e00002c7660311767900124903016c67dc003107040098fbae02ff8b3800d81bf8009799d2000c3db4,
  0x172e3801e3b2e201699ee503e9f647039fe124001f4444033298d5010c0eb703147efe03c4b3190019e49c01d3299f0159b36d014029b7005767460338dfdd009f4d82002322470237894b010c77aa002b8f9f0207d39602e5de790049d1d30033ec0e01bdde1203bb397b0001f0a1027e8e7001835f0d,
  0x22305a003e1df101362e68008cc151002cef070195da6003ae355a024e553d0377f02a006a7fc00017815300e4be800007a59c037eba23020f444b01f1ce6201301bc7022604fc033cb6e70147ca34001dcbcd000168c5024dbdb403335af4024e830c006d0a680348e94702e167e102ae2ddd0227b250,
  0x10b9640296ac850389693500287c1200c12c66034c33d603c5187b0240cf1503dbf52902b15357001ad9a1015f3f9f032a06b0004f67b60314cad002595b01027963a7036b2f6a02ce3d1b028a046f0030b5fc02a3c8f3031c825203f5eb9f0161786500cf1b5300fc0d5e0053abcb023712b401d5a6e6,
  0x2edbf021a6c0000f0d76801683c250078581a02402e720300539602b9bda8039afd7702f76b0c003d1a870351b87700393d15016662af02e0d7bc034bad7203ee1b2003414191011099400247395b002232110172128a03e1694b0395d59f00d9eabc032a5d11022f04380221b35c024333c00119ecd9,
  0x13eddc001f2e3e03f9cfbe025f6a22000e41e801f22e3d033a2f9400b9789401bc1e2d023a2af10005ed7903a05f01030696d60169fb6e00fc35ae000a51b002163cd100f2778c027321b303507fc70021163d02e024ff01483cbe02a921fa03604aaa010809da024b184b02d3dfab00ca2093012aa1ec,
  0x2988530192b6dc0342f86301bb812f020ae3960392d61602292c42002867eb0153686d031e26b8002e6192029c14630182700802a904d300bc711303633db900e233320004d296014d3a7d025766c30027e18003d371b6016788fd017de15a01d514d900945aa5012eac7402970118031cacf802bfccb3,
  0xc5e7f022b59ff027b02b5010f2078004b2be703b7f05900bec95502dfed2f006a86a0032a53e500347d7703c04e4101e014a20060e8e90342cc5401ca2feb0157ed3503ae17f102e97eef024bdc5d0025f3dc019b2beb039aad3500b857470274039b00c4a86002ef249503770db30132cb4700560c26,
  0x2c856002e29eba01412f1b01751ea102f1115201147255024b2f2d003c9664012570d2014af49d000b3224027c46c401b25de300fb7214027fd428034735e202478358038b655501d5d74003bae5b40023ea58001eedf603f3ee670111fd0101a6891e03ed1467006ec8350207aec702fc627d01255a8a,
  0x3b711500a112e2014ac80e01980bf902305ff902f07f3203fd98990288d0db03cc5bb301a0614900250bf801e1f388008dd181022f468b002dc1c202d3100b0090a5c7038d03aa03245393024244a200200b4d002de8a101b18306005d0266019425b300a7669101e35a9100bbbe9803dd24d103aef7c9,
  0xacdc100501627035fb501020ba1620346d6d202cbba43026f9fde03ec211300d0be6401beeaba00012da601fd98520366cb8d018b445d033e65e1028944240044354c03d74457005cd4ff0058bd61003dbc1600b937f503df0d69009ce00100c9fde6033c9d88036b9d3400776cfb038d386402d37101,
  0x128b0002ee9b4801c2962d0352aaf000cc6ce000e9b8a80324cbec00e61a8d01d61bb803bf4aa60026dfdc01d49fe602c0c49e02a5b056023cc75202cfbc9c03502f9b03bf95ec003b687303849bb100375492007e1f0103c8c8710057454b00af249000f684fa0062c842018e9fb40178c8ee01114e48,
  0x1def3f038dee1802b7f8f2029dbcbc009292fa03d7f6f301ecd632011fdfaf0162c938032c9ebb003a048b01e94ddd00a24bfb006cae5302804e2802dbb8ca03d824cb00f2949602feb67e0002935000186f8402a100ac034a28f3015ebcd10288e028001bd0c303aeafbf00aeebb801de902e027339bf,
  0x31770f03e56d5603dd8ce70289d99c0250ee2f03106987009a67dc016ccbfb01fe309902454d920022f20900c071e2016eb0aa00f18a4d014a8fa800889ae401375e7c01582889021ba4f800fad8e2001ed12b01eaa47a032b0e3200db7b50039284650316f9ea03b420ce025a418b02e8eae5013a7ebb,
  0x10ec3103eafb16033531cb01b92c6c02beeb8f02d336f8025112310004385701355b6501ca4fe4003b1816019c84010356d831020a7df0000098c403d59c0d01617b7b0141350c005c20c601ea95db0023372100020fc401ba64cf016282fe0007524b0066ceb50005f56a00c54432036ce4f001f4608f,
  0x3be14202f2025e00752163017140a9009d9e2600530edf003b28c200a86ad000d3b13003b45eb40037c1ca030c645c02bb5f2c0017103702134cb10240956501b08f3900928e61025e7403029441cd00035391006e91ad00fad10c01074b2c02c16d74010cfcb5038095bf03cc7f0a01b2d2ad003dd043,
  0x3e0d5803eb04530211632c0131646f02c7a5240004b2c0024e4a0301aa6a7a0190e9ac0013e755002318bb03f87d7c0026fa13011e3b3503826e1d015b201000f3d281011adb54014c3fd200de4e4b003831e2023e18b900ed6e8303894b2a004e8615023eb2150380df6703a35c3a00fb2f7f033b6843,
  0x2cf13a03e30de001d9d0b700e13c5e019de130033fdc94001345a80066eee70190be140322d57000169b5502f8aa710311dbb301243d300101eb7200ba2a5002dd7da500cea3f60237f68d007cccb8002caca002b760f7038f41280182bee6000cf34d02c0b501037dadc701fad6ea03a62d1b0058841b,
  0x32240501308d0a03c7d0390328a42c03213c76027454da021dcf3302d01e90013a2c8e0314d1f200049b9b0291ab7203acde81013034bd036a127401c8c92f026e707003fce6450218b965006cf43a00322336035842020272c39a03c0d2fd0119029001d486bc036b565100a93031008ee0b9031525fb,
  0xa81b70051e801006f548b0028414b00e15ed703497d2b0223730501f477d4009e0b1f02a092c400100e7e02457bea00a6833c004bd2fd0172d8050146a5620120cdc801f532fa01becf3702bfaf31001e7c6f0202736c0266c9420049eaed01a228d803930a9b02728050024b6e2803667046007faeee,
  0xb961c00395164019ac95e009bd512016e131c01bfb8cd03b0dad20320b965034cf1a102beea280007971c022917190059c62f038ec389033af32801a6c55202f679c6023e308001fa8d6101f30ea4003d812702570079037ad806034bd2bf01b5e3b5006010030295074c008ec8b20122baf200158dde,
  0x142dea0110cd5500654e37009c93be011603d4029d80ae00bdd93f01a47f9d0016762d02459a72003f21ea00452f4f03a43577026ef02e014ce4b503569245024f317f000444250349218b000d5a59001f5109013c831201d346e003685d4a0047f87d03b93d5e03eee28202ad4de6025c4791003ab231,
  0x3c3db90046707001f75a01005235e7007df3b901c77272039f4c2a02e9935f01872fdb02f2bd4f002bdfed02134d18034d92b402782d1c038c06a90351db2b02468c28014466fc02899222034cfa4f0001689200b9c32c0299f6330322b15e011f254801983a780054349f03a1c42900e0df3703423f82,
  0x375ed003f125c3008c8dd60374b2f200e3c9ac02b2c5f903bb9bd2016ecc63011905ce03ec800c000aed660185b19e00fa8dbc0066f3f903a2e6a400372e0900d01ede012173d602a25c7f024b60f40027f3a4015bff3803e4a43500243668010d3e72032987090179c68b015ac98a0382473300ac114d,
  0x1e2507006b37a503ee095602aed11e00f6a826010f1f3c018ab07f03200492038105ed00316911003f9e5e00b1b75d006c83d50265f5e0020ecfbd01e7ff69002d1a12028c87100069a05f00683f490013eaf902da8c09025aa2dc01ca168b02759704019d62830208c658028da5fd028e2e8103ca3de5,
  0x9214016fee9f01ae930a020496db03c76563011846cd0277600f0362871503c9e44203c6eed6001d1a6c02e562e800cdea9802df557101cddf3b0364873602b3b38002b40cda00f7a5dc02e3ac2a002efa2500199080008e279e032cdf63002859f7002ac4b0007ac60f00f5752b01d1ef7001cc087d,
  0x36f93002a210bd0185088a03de3ae603e96c9600bc1b8103ed1825031845cc02518a5002091b37002a209501afb75d0336e310006cffa00238756c026d65c7022b1887014408130262f91003fecb4f001798e5038257ce008e29e502c2aef201f8c2e2006ee49b01c81e3a01456857030e2ce002de3715,
  0x6797f0286f11b02ae605d03452d690250d9680313c7d800422c9d00da3115027a4fac020fdc27002d9b36019272e60002fce0027643a0017a86cf00bb01f502d82090020fe476006cb8b101396a460016065a01b2cdef01e97e11017e9b2a01af101c034cb54202ca0fea02c0086b023e24f201e7b480,
  0x1cd32f034d6e4903aacf62030b164b0354b8b8014ddf2e010148be03445408011b748e027f8feb00286df000cd41a003e4681f015a0b3601ffb6c602b7292901d822a20391187a024e5be102a33e170027dfbc008f430a00d7c64701466f4d028993aa03c86e7201f07b8d00fbd6aa013ff2c5032dd24b,
  0x3d0c2c02d9ec79036426b100de097003d5fc6502ba59e7001f001b00d348c401610cd902cac823003d1a55003b41dd01bd56c601e2b4fb02d28cf903949b1303bbf12a03c6d3a702ae525103013728003b7429002a7fad00a460fb0284f540036b8e6a00d4850a0133cabc01cd4dad01172bfa03664665,
  0x34f2c4005f538c0002351801b5dc5c03bba96100cd252b01dd8f0f0163486102ab416e01d3b01e000a44000363842d006ca9f7003042e901482c430141cd92003d4103001a9c5c00b5876603cdb619000a260b0240f1ac02ca481200790bb20274cfbe014328620368df9d0105db2b0324178001e6a6a0,
  0x270eda02c74751027a824900252e84001ff49903459a1803d7178a02d957d9030e771e0148b58d002b8d51038fc3d80246aad6014c8c1901fe7cd102e022930326cbdb02e3f183014de5d601c4ff730015c7c40295e433002add1100b6a5ea038df476035a531f02216b380197d31c0138778102ebfb38,
  0x3e0250307215b03f3799600427bf00287cba102353118006cc70f03c17f8403a75fda0194d7eb00122eb301a4ff2d0283508703425b2a03856b3c015cec1801f03f6703c4103200bd6aa9003755af000d740e0386a219021e066502d8c4ea0101ffa500b58a99005b4c3b008ba8c603e1e16d010441d9,
  0x3f2e0901c0912e01163a0c02a44d7200050cf000f1662b01462ee5007d797200323fde02ae19740024d3e901322a98037d1ec200b4a8ef020d7bce00b6a1ea03064f72020b55fb00a6a05e00d846980019c0ce015480e1014c7a0c03374d7c00ecc752037e605e0028ae7200a699a6021e498e014fc99e,
  0x3586e005a150f03817816019cc1a4003c635b0172bc5b01a99ea200864f7002300abe0185526400083781014d9c450386e75f0375946900ac42b8023a5772019fe7b003818c930215345a029e5aaf000df9130254071f00ebe03a009d0191008920fb00ec124b032b496402898d0a0046c07202b619f1,
  0xc67f401d59b03035e1a0e037c4e300153a7e5017f24d300a7285301c45bd7020318b703c12a0a003256a20307072e004a51de0208752a0024ecd40095ed220040ac9003ef8a0d03e2632202c8b3190016ff3101f92342015d1fb10196ca2403b8001900d76a9201e386ca0019bf43000c2e820361739f,
  0x2de5c4010002f0002f083c0011958e0344df1203119b2602ec65d40383c4ad00aea2a301060324001f40d800c21a9403af70800251de5d00a895b7032efd29002c034e025a06e500713167035d6f4a003e25fc02c50d56018afa1203fc36bf02f9e08a012c307902d30a7e02db8f870184f2da02c15914,
  0x1b47e9013202d800e8c444035c1a7a030c70c402ed7a8501f785e401d2701701f1536f0392950a00190ea3012b88520016f47e03b0b32f01f7ce2502a1db380291975701945d74026c5e7e010114c7001a565701788f8b03fa831d0072ccc102ade732036033b4021b553c03e784c20118df1f03a32b88,
  0xeffb101e4685e00ba6b0903474b40004a434d03db388a02eaaf7c024dbce90149f9e70150a80200210bb802d3944501915eb103c5c604012567b1018b55780387e48900f2695803587840032691ea0002521f02bf23340256b1c002b411b10027bd3c03d59f060341aec6021751020399adaa032df965,
  0x2c38d90398aad40206b31502568dfd016e38e2011cd9f5007e9f2102c7226501d4f91d019b2da9002d10b700e10e9601dc840e02486c6802580cd801c9a62403579f1302bedc9c02d5de6803ddd74000127cc60001057e023aabe00162eb2700f64bc400fe69a70246576800b6cbbc0355c782011e399f,
  0x306a5900d6025502d2df8c01506b6d01b439fd0081d8f40035bddd03c3b75e022d358d00531e66000ad554015ace0702f3657800595239009d29c10053a0a7034da06000348196022fc1e303a8898b00000c470229be2001689c87034ffbed000ecdb8034384fd02b4d9250067372a00346fde02ac7bec,
  0x157e180242df160035063a0126216901eefe79030e57ee039e1b1d01b4c67702c1f5fa031cbcad000f0202002d33b6014c2755002de70c010d035302b1358c00e78d7400a51c3b00a268f103efe6f9003d0f5201d359910046c98b01b5019301d3715800a03deb025078e1010eaee803c6d3e5030bbcf8,
  0x361dd60013d71a03ed59c8000273fe02bf93d50320970d03f0698e017f8b3701d2d8c4009c4669002c93ec038828160203cc980319593001d5244c0234c43f02efd91301b3b9040235e882002b066800000f0102fa12b300e13d7603394d7e0386466c00168e920372fbf0001972be02b42dd6032e1b6a,
  0x176795005d50b902200ab303f4dc4800ce763d02a6c6de02a20c3002a6a719012adba5010f158e002cbc6503148af703f4370403f47fbf00d68d8a00a0732202b72f2a00c6322a0184ffaf024efa87002ffd3601efe4f500b47100037c3dd700c742eb02f5380900f76cf1004dca960033b44903d03309,
  0x3edf6803dcf8680359a74b028cddd1022f6bc903f6155d03a5927a03c443d5031047b103f1f3a9001c9d2b02cbdf4b00fc099701e2821700f34bb7030e50e10378897701e9d0a700acb79e00559cce000b20f8038a09340388d09102f7928602650a2203167d7902fa2046015ef38101ad321b01f14127,
  0x29ad230248c3f702c6e2d403503a760094bf8602bb104f03627c790270b84e0180041601a4df3f001d80e0020fd354003a5f09039353970006de5c00f2e56603e8431202ef83620244020c0275bf95000d8dd8001ec6190026057303cffcba015b3a270104c2d603876d9b031b2ce10049d3ee028a3d22,
  0x2461da0394018301674fa203113e320358024f00d5b7240184b5c101f925190116be54002d0f0700150bc70329957300d9d7d302e82a0a02609a42016997c100428f800367147d02bb7f2801fc50ba003542c80004045a0344dca6031e53880094295702b96f94000085d30289247a02a4417303ea2778,
  0x8bfda03be738800e06b6303ebe60a03d580ed004fd5b40124dd0803f182bb036ae1ca005f0c830006788401313a0501d9c00102441a5e00566c1902ee25d800f1d42f024bb8000043fab6028a8f930019323e0000f80b016a3e530242b43f039ea6a60249da4d008a25db0110ae6e01f9bbe903903a26,
  0x270de3013c559b038eef33009e2f6c0277e6d801ae265f004f74ec02ed79f5030456bd0005cf6c002047940385aa8d0085b8de00fb68ad036a30300018343a00fb07530270b8df0331c29f03440d0c0028c2d0020ae1be013d710b011b445400e0ffc003a812f8001a55bb01f851ad007b19520083861b,
  0x22088b0069952e0238786d0343296101023ca902f1f01c00e9df1e0360ae140215d37500dab4390014cf6c023af38b007cdc7e037e443001581cff013f32c800a44f2702dfbc9f0327a45c00b30bdf0001f1e0023c543b03a49beb02f744ab036d8ab0017136e20374f85e00b4542a0013ceeb0034f7aa,
  0x96c2101d5dc23000b8df60330039101deb605011b7502022a8c3500bd2d1103c4e37a032361cb003084da01bd050b00237b28033f144f03eda4ba013cb8260233fa990204864a039493fd014edff70007148802dab84703ffa43502e280de030a704b00140b0200da6548030e566000410c5402a01ee0,
  0x5a7ce01d7cd6302586bdc0065548800bd02fb00637c4a01bf8efb0399f3eb023d321900eb1d8f0023a38d011dccd603b7f16a02a0e91c03778029035b5568036ad7bf033e8c5b024b117601fc0d7500158c2b0357cec303e8fb7b020c3cff0396f37203765bb1018d011a0299454702e2f641038b00b8,
  0x15e3e7007dcd4902d9abcc026e3d7e0167c29e01bcbd9701a8381d018ec4e7012a8cfa0196c1b0002705e3001b314a005eb5e4031d83aa025ab75e034ed2520170ba7700664d7101254c000125da9c003190640341763f037d0e5302c749b50268e3d40287681a02738dcb03becf91028038de023c7e73,
  0x24a7a00e90b4d01cce7c9031cc4fc00e898370237ca4503abff0103fab44802f3cbeb017eab35001b634901c91d22012358a001c6fae5020d6a030260426f01978be703e7087503e22be903438041001432e90008447a0042cbf6000f9ade022ed6870124125803398b720294515f0277055100fb5074,
  0x113770093d18100790c9402e331cb011e5c73031dd9a5039a4df9009176ef0064137c00949cc20028596701a2378003025cbe03e6a139013a438c02171ada031b49ad01dd4bc502b3949f006a3272001702b10326c56c0352a621019c1c8a038db35e0333797a00c9cacc027ccbca013ca95302b9d341,
  0x2ba32200210e5e032a973f00d4544302532e0d0342fa33002c956603c310bb009373de01a8498e00159f8403af1cae0089d602003132d400cd339d02ec64ab0041aefb03e028180218252b03d541690037b0e30308075802e95bbd03186cac0093ef940216887a03fd3b1701f4e8fe02b486ec01dd661d,
  0x23c86b00b60da500c0c25201cb1fb803cce149036dcfa800bee1e7031dfa2903349b080039926d003223b50282c8ce0143975a011bf626031d0833027d486503e0876f01f2aee000fc1f0e03b85234003f95d4004e97f701957e0b03ef812001edff2a00e88fc00379634503ca434301051efd006aade5,
  0x6557b03696a1503ea496e02bbd708007acdd303bbad7d01508e2502ff860603e374bc00e4417800327fa50126d28303b10d47029a56fb00a4ea7a021ac93702549ab700db49c501129f1601c195040029215000f74bbf018b755603073f77025378e800d9107703b198d1026c0b7800258d4503bece8d,
  0x17d80901b5b3bc02634e4a00464dc101a78d3b0195221401689ec20156ff7502150afd01ca05e2002b8c320008857802b3b55f010ffbb40368c57e001dcd26011888980143568e011cb4f20225e3f50035563502fb908e0100a62803a6165402bdc1c301b908990140235201b635ba01e81ffe004f6bf8,
  0xbe05a016de6f40175d51e0247ff120325c3df00a84c4f000247290133c1e3024c6847009689920008cb380150f78001f6767501339e7e0328ffe00184442d0257d08800ba100803a04d4f01ce01300021244d025a669e0266d37f022320a500ca203e015ec6f703cda3a70077a5b4010f9ff90036a9b4,
  0x7959201f7afe002850fef03a9e35e034e1a0e032040070101841600a84b410140c7ff00edc6bd0034faa30135060b02f90eaa0344c23f03ced91e00675fb400a4fba103c6c61302acb45601e67132003b4c98009c6baa01d5d59501e877c800dd97cf005893e9009850fb01d3599200cc72760284a973,
  0x1bba4f014385b801e425fc03c707bd034cc4da035404ba01c99ab101d2bb060072b279007101200037164e03f91a62016adbc603a1b65f02451105038bf8e902d4c36800d6dcb700cfb3b401d562a80020e52403ca2258012d9bcc0225ac1b0214aec802dc331202004cc603959a6b03c9300d03ea74ad,
  0x18a8fb01460cb30227ec4902809e460011cea4005587b501fe464f03f57e89001c41620157fc60003683bd015e9cd00176038800578e9a0244c3de02b56b8800831dfc03318c0b0333cfd70116c006000c56c902a094ad01fa8f0302342644002f68ed02d3dd180243d2440231c20b012bd0cc02542bfe,
  0x2ea558029898a301c256e10212be38022be4b6030be6910371c52b00fdb65f01fe4cdd0014011f0018942d0183413d024525fe03e5ec920279953f0212f6cf00c3b90301c8ad290259de3300a7ac92001abc040366563f03d900ef006604ee015b6a6f03a558f5036a7a080014556803413ea703390057,
  0x3bb62e0219f5020351801902b941490009c147002aa9ce01947fef01c0bcd003bd7ecf038333c0003af72d00523f1c028fa25503323ab4029f188c02e51a1800241ee603785bf10216a29302c594310005e7d7017d5fff016659d203f72781036133c000cbab0b021c1a010273f26000584ef402e1aeab,
  0x1cae6a023f184803616d320321cf160241c8d60350aed6037771b003186dbf03f7b2cc03510029000eeb0a038e900d01be4b820263cc7902cfadb3022c8a7a00a503ea018cff62003fe957005b85b50004127802a650e402d032760167d25a01dd9bfd03f9b84b03cf2eaf0098d46d02bd650e0172f50b,
  0x28eea90377b1f600bb79210001f91a02c97783035f126d00da14a201701302037464ed02bd63ea0002f3cf01b8bfa700c964b003b6f769028ded1303bb757401128cca0245cecd010091eb013f1761002282c40003c30703b8ccd803dec78e001cbe3c0084057200b05308029bea2003c132d6015c4e79,
  0x27e29a021a1fba02b02f0203e9cc6c0007e11302108fbd016d3592034cd78c03ff52950318e7df0035a3b3029d71f7038f497f02d5729101bb712703edf4a50271c72001ab425400d7761f02eef44b000f75c1017e17180252d27901bd0d2f0108f48f02db38bf02cae1a603793f8500a1377c017463d1,
  0xf292b01ff5bc503eb5053020da1c203f8c33e00a6fde40188c1aa014ffb5f00155587023dd3ff0023668603068e1100e09ae103948a9b029bba6300a579de00e0cc580361da2203c927cb002add8a00109a3703d2d0010051a63503c20b27038c57d3004d9b3203683e9202128cd501a1ca28009f492c,
  0x1dbc470203761d01b6f997023b69cf00e960e400f78b23025d41cb01b7d6b90080ad4901c8accc002a02d6000451080193770601150fb100abf9ea03a9c8fc035880bb00debb9d0075ac72033649c600105a5b0246691c033b90640220e2d3007a780a0142aa8200b58d0702f8c0fe0114ef9200a6f84a,
  0xe15dc01cca7ea00c00ad603a0d5be021097f5013283a50299a63301871a4800407fa6011622600031fd7003a2dde3034128130304f0a90114bb4c02dce51e023e35ec00febf7b0223031100c4c6530003dabe012c0f9c02d47f6d02161e8a001b4680014f7d7400387ce001335ed20362a24400da604e,
  0x3d63f90013c3e4033df98b0075585603931b94014e1a46034346fb0060a4e4022a2732013839400015b0ce0013b1ce0153d75003aec289021aa45000371c910280834f032fa7bb012c09cb02c1f32800084cc101886a0c020b7753038a39ec014fd9f2003cd7b100a89ff703b21f5d002fe15d03739c2f,
  0x2092bd00ef41b7022a8bb4034b6d4a00b6368b006128df013900ea01babfc20265992100e9a3040018472f029bb47d0281858500a9f35b0279805c01b0efa30033f7f203162396018a60b602d8e3b30030c68003be5e58022f83500365796b03fb612a0118d039009b5d73025e8d320254600302375076,
  0x230e44017eb8de012f36af02feb9dd01ea88fa0094ffd003680434020d745c0374ec0102e07543001eb06d03348df200750f6001bc4ba60321d46502e5bbd800f35865037ab6040044a64001d6dad100161c1100c8b47603b4a38f03cd06dd034b1627026d004300d42f2e00678c6a020315a701d7998e,
  0x31a57f02e25ade018348ea02a6e8b502f75c3d0149affc0228f0850252ac8c024c77520141d3450010455f033aebf203501cc90283b4c40363ec4200e7762c03b66b90002285db03d1c96f008727eb00017a6c008661700251141b00e446bb0190a54d01abda6c02b0656801bc9dfc023b925a031bb464,
  0x2b96e00e1084900ef6c8400ce77d802e645d603f98bd0020e700f019a9d97021beba902388195001849e602d80d20036dfc0b001b6a2403a7b593005419be00ff5d2c025611ca01a9452e02cd49310013cd7b019617be00c7b8240355c0b70312199802562ca103b3fa5300b047fc03ce102300bb8f7e,
  0x1dd3cb01188289013ee0f601e02433028824450176045602caccff0060253203b66439028aaffd0013c5040343ad7901fd25e40249af460184a3af0015593302082f1d0313041a03c2d0f1031c7b86003324d50084fe22012142f2005c7c510348bb0303fcadbe01f92ee6005ed7dc01f1e02e01f7185e,
  0x28b43503274e2001d20a0b0388418d016f50a20207066502f143e602ebe7c001f70fcb01903fe0001cd94d0080f0c803d04ef702017929035de80f0062519f03bcf6ea01353bcf004f008601eb6ac40003eea40102e9100103064d00bc17aa00193bf90267f66d01fba82500e4dee901e9791f02b6203a,
  0x28dfc7008cfd200379b22b0282be00007fbfec03b3cade026ca4aa0137733702ac1ec101ed4f8c001e9493030357cf00089919003d28ac02541ab703822d5d03cfb38703e522f8009bac2703156b5f00372b1f00fb786a027c03100176bbdd00fccb2002f15f4f02b0bfbe00bf8a84007d87ad01126d2e,
  0x230dd028a966e000b3605025e225001b4c5ed0136832603efd5a803b4b41d034f4a2301254d120007164600521e51001a1cfb01792e6d000af98602c129680157a4330297a33703b287e901df5c050020078c0277259d0159719900f3c1e001156e9b011aa6ea00a28a9603930939036fca3500cffe99,
  0x10f5480383a3b7010cae2401ee489c0226f337017ead7d021393630334c52e01916bb40157a9b1001573c600274d33025a59460375c9d501ec4b12026a755500d4423c0188a35000308bbf014f25ee00260b3e01ac2001030082c6037bf0cc0227b4da0032fb50021b983f0186d79f00e8bc3601f84ce2,
  0x3f14b301fe8010035e0d7f024237ae004e33a8028a7563007b539203f58c5002717a2603359ca7000a58630394f6d00276271c0242b014025d24930089112d029d8b7100852b5c020c4e6701582230001c466301129bd302affa310269f07102d7e4d202dfb1d4035d78d90074062f0391c27d02a14a42,
  0x1986960314b73100cbc19e00885cd0017ba89b021bf64d00b0aff502d4deb7032ed9360161f026001d67850148668200f9d0e6005e10fc0313479f03bc3df101d4d49a019a4e3a00b21e8e0364e71e001651fc008290e401aaefa401ae51bc00b2771000cdfb150360efbf01655c42016f52fb03ee5a2f,
  0x246b01037ee30e01d446c800d3398302c30c3402ed9fe2039f9697009c16bf010279e3023946a1002b903c008429be038d6c2f031d6f50038c728503a78f5c011931860253d32f0105146602fee56e002c34d30255e30e021e3f1800aa861700f7888a03ae1b6d021fe4b602b7a1f7010d1ce401066f59,
  0x15e73f0302a8b70398b4a70192c3b101c7683f0189dd630250984503fc956d012823de00b1efa0003dcbe4014a8ba801eddfd4000a38040042a8ad016281bc038f299101bb306a002496560235294b00237dcb00ebe8fd037cf2b702b1f3d103b69b0e03ea8c6a0089c97501baa9f800848e1a02791dc9,
  0x3c655302c65502022c5582002dae6e0296181f03e3d9ae0220ecbf027f970f02d1ec6c01b40b2e0004362a03739e0103ddaa6101487d2f005466c20107ae2e0264d1a1012413fe000312510117729400033ef702abdee400a0d50a0261112d0204fb7000eaa22e03e5661003faef030191b048024cdc6a,
  0x2381bb0215982303c5103900bfc7de02047e010134816300e2f9ed0027a63a00cdbf7401b71137002ba18e016e4b02035bde750053f3c700402438030d569400fce1e603e0f90802b7416f02fedda1002cf5530391e09403fcec3d0309fd7d01d34f3e023795df0193fdb80389d109007f822600062af7,
  0x11c9bf015db9cb0037055f007ca2c302a78d6200d3fef300fc67ea0209703b03f66a0301a6d86f00034bc3018820410231aa6601878ffe02e54f56008b27b501fb292501ce5bb60051dfb700e659c40010b08b0347228803f4532e03626b31000ebd9902e9692b01318098035d3c6a0079ae31003e91c8,
  0x136c5401e68fef033c2cb8011ca16802ee5a3101c5f7fb031b39d903f97f9201503e4e022cbb0b001fb91c00a00eed00612739000f2dbd03691957014f8ad8023fca2503d4e1950140f9a901040234002efbf7032e25c00135915a03a4b17b003d3294026246e40145276a018866c001af6a950350b0e3,
  0xc91e803dab17e0350e73b020336a701313df70058fd250164407103202dbc025ff38a026855da000d290a03e47a870253edea03d47aec0159ddc300165cbb03d1df5600c1a4d4001ee968029e87bb000e7eb903c91aeb015de2970283b0bc0095389f033350c501168f02034a6b2001f759b2030ad30e,
  0x2cedac03cecaf80252a0b7003e4419025788cd03b54d1900b0ed4d0103906e004bc462012335e5000689d102200410011c0d62000325ed037bf1f300e7130001955f72010453a002140b6403251c5c0001db49007c234f00e28a63038c1a3f02acac3303548da800c8bb390229c48003f3f6e001466508,
  0x3f946a0101c8e1014fbdeb002bf2f30066e2df036f222b02f80a2d01ffe0aa01786cd401c94084000e113200d0662900d193c003f56ad702fd4016024a02190129234d001899f803ffc05e011be8cd0036e568022ab78e039144880341255802e5a7f30041a5bc0295b9c203588d2e00e4a7fc0130fb64,
  0x16ce0501b63f0e01bea899011b9f25018b96bf0048a2f00011c552012b5d3502d86e9d00e8c159001d66b401c90de603853ebd036adfd2020fc365038fdd3202af40b300b3fdf0034af92c0341d548003f39cc02e7fd580041aa24006aa05b0319a0e20016283d02ccbcc401b40c000138b6d1026c7ff5,
  0xe3fb201d208b9032cd60d02dd616102dedf7503cf7ecb011aab550393da060125b0070090c2df0006ba4c036d989a03f5e3720091378203b77f3803ac7f66039766c700331c3b033869d803716684003e823a00a61d9d019bf78b0139c8d900e4f77f018ca1a4023bd92503ac1eca01c3ad3403d9a02a,
  0x146ed503ebf01c0009267002f7997503fcf2bc00c3407402d1832b00263b22035899f40022996e0020539c037ce29102a2bea70037eb6301db159d00dea6c90028c84e01b43eac035c90db027886ad00002c980231503f035348bf00a2c63403e26f4901209032027a921b026c4705038d7baa00dc5862,
  0x3312a80109cd0a00188003018644da021659530050edce0263e30701a93c0a03b5d5ba00ca126b003166af030e9d970305050602ffcd2d03882ad40352908b01157fde009fb6f101004e150347106c0029f4d50221929301010a7401b1732203fb08420393a12200b6e50703991c04011868140030d119,
  0x3c3e7301b85cd0003173bb025b747f024d58070392ff0300836b1602cbdf5602cf6de103c92e35001d24d403118837028d2f3601f7923203422ba901c14f0901bdf683038f65f40323c672003ebe4a0036b70802184cba03ed51d303fb079a016e83d201e0c4cd00d7e5c701cb9def00b58d850342499f,
  0x2f0945014588590142c5a401b82eec026a0703028632bf026ef187007a445f01a0ca5e01b0896c00050eea03c47d9a0114fc1d022fe0b701cd330901fdd91701e8fdc100d68e950120cebf03c562c700164f1c030d320002518adc0060ea98027c022902eefcf90072f8fd0071636902d5ecd00307de80,
  0x3921f20018d12d03974f5d03bd70c302d0727d0360e64601d75ad10199726803227b5301f3aeb200217c9e0233050d00ca087903b02bfd01b86c6501a760d6007a54e503536168010b76f402de7fe7002f960a0123e04601dfb9360150f9d002d438a50124f8d2014dc94303c5bb1a032224410316d3ef,
  0x2ef0d10395992d01a642b3019b1f4c012ee3020278f7ee0261d1050253640000bf171f03fc9f31003f7d9b0334179500cf28090187ea6c0081a9fe008df0a201558c9e0397988a031fae71009cbc6d0006a6ad039c9c5a03137615004f7f760384f0d20348c809003f1e06033afeea02062ee3007e7fe2,
  0x32918301a2137b03643ad7035c45670022b8ef00f5a141019f05c30298239b02bbfc5a00673a0c000401a2021f49950081f0f003fff26c023de24f0320884603ce21ef0376a5520337475e029a4ff4003a0232014d0280033af3da02b2459c002378c40363ab18007b606f00b56c6a02946ab302d4b51a,
  0x3fc8fc01373f2102eb8ef801e6e0b100f1f13902f3576d00074cd80322aca20253e54003115cff0016149400ef3fbf00e34c53029189c300fbb57103d2be6e0164d9d802c387d5039893d8034fe06f00017233000cce7f035a405001b919dc02b66c87010fba4103d3eb9401eb50770329b0d603e6d52c,
  0x27d3130377132f005d9a1903be00870020bd9c002a623b0192d0ec0291ab8602b4fbf4039321c0002ce2d300dcf600006907de02baa02002ebfae6033751df02f2ae56026b35ef0029c8ac011eac5c00056ada03ba98eb003f79d4033ef02f036c94ca021f255201f28172010727280279496c00eef1c6,
  0x3a1d3c003db62d034e9587001eda670291517e00b2c34802c552ee0054420702ba147d01ee8e9600258049030f54d70249be3e002aeb9602917493028719d20232489701376ab203cb85240049815a003c1051037770b400a35b5201adf06e00c764960346df99017b77d6031eb408031412b70140add5,
  0x39f7a039ed78d0346a1e000d9dd7a010732340050eaa5025e6772022cdba7019cc5f803aa11a9003460ed00b44ab3032562d50040515703f26da4031cf37402e1945300189ad9031a5e68010f9d63003c73ec02f2ecd203861bed00d74880009dc0f003e955f9023f7a2301ef7d5403378f2000af0a82,
  0x1c5c3203698c4301046be903c9e9650331bbfa031f887500a08440013fdabc028ed25b010c663d0014e27402c95385020df726005c611c03115a7a01778d6e0125c2470079811a03cd2148000e8863000e61b801831b4e008513e7030e5b0e021de9c003631d2600f1d63702f425b80191a47002b73a67,
  0x6cbd80194f40301d4f23e02758c380324be4e01da9f82010da303037ccf9c0026b5f100db36280007418100e3c538015da9a403f2f15500ca5ec8039219be03dea56d02580ddd021242b0003c587b003ba11501c57bfd03d344990162245f038f76fc02a70c1a03003d0e03467f0f01c12c1f03d0f7ea,
  0x2cad62022907ac0385d6dd012568c4026a86d501ba10f9014a3df9023fff1a02674811000ae0d600280ef602f33a75006bfbe5030b49d80059d751032c071601c11582022dffc50319f4100311978b003c14f70009b0b5026223550154f80e031b3da8037a88cb03a3c4e0033d051200288d99033b88c3,
  0x33e43e03724f52020ede53023f4086016b313903e27c5d00f16ac900b6e4dd00e13bd600f5b1ad002669d001294514023a4d2800e20fa401c269090005c8fe01d4452a00964fb80254b328004936de00342ef5029f8cbb008e3d0802322c8c01ef84fc0250b82e003c8c990020b2b1024a765a0008b775,
  0x1353fc01a1c883012bc2ba01d26b070305a84a0157bdd8029e181003493b3a02a7d8180087c6610011625b01c3122a0354781e01f969220154dd2100ed69370044a6e901a37a3900d0783d03183e9b003795a702d8680d007539bb0196f52102c95afd019a9b12005312f503ec4e45034d6c0502aec426,
  0x2975dc0379cb49017d0e1f033fd3ca01f2c22200dd39cd024110db024e477602e1ca0300cd3b5e002df06f03d275e800af318503e9c70801a15e84025c2a190079124402aa7cab01ebc8ce00c97e78001032040123ae870372a397030eb43402a3447c03afeb9902fe367002e35f2a0378712b0206562d,
  0x113ef6034dd16303cf2ba20074c7e202eaf54d0013292f017b14cf00b12d8e038afe18019c06df003fccd701b42d8e00db16ea0034758602da79760384e1a60260742e00bd2a560251512b02bb21d300373cfa03a5596b0034951a01a875db038ecf31031d74ee00c9052a01aff3fa01023f5900c6b910,
  0x2eae99022c445100a432df015cfce700a37fde0172e1d8011d14150117b29000f25f9201f2a0e200058fb700501e6d014f857e0033702403ce012602b7138d01d9e1670040fa6e026384c403592ad8000f57ec022660a6000b90c90120a48100700f6601868ceb0143450000b498320171d2e40088310b,
  0x3965900256ddc1015f6d3202bb399503366aa503a9e8100064742900247ac700462c9203353c000008907d0317de6d025f586b014247fc01742b3203ac86780245a5f60367482d036171d10010a3ec000af00a02170423033347b70008db3102670d0100c6c19201dfd075038f00a3031db5a801206d70,
  0x1e6c5800334ae000d215a803956cee001c1986019344170253664302ae28700013aad101018f4a002ecd4a039e875901fa428c0164ba62030a22b500a0d1890326a8700083242f029cfa26008fe0b3000382db006a42be0174e9d501cfa6dd0311efe801fa8edb01b02ac000574ad600b4064102053703,
  0x3cc6a1021c224a015d698f028c78c3027785a7031b04f101936057034f028301d814e50033a33a002c94ea0121ba7400618f1b03979996017b1c39026540b80217fe7c03edbcbd009b0834002c19ff0036113703765a2a03c1777903f635fe01f8a2310350cbd1002a5d5f02cb1f0b0362cd3700877e22,
  0xb362001a2bbbd01c4017601fd9f09007565bf01cff0fb038364e901cfb93f02ecabc2010212d20032bbb6029b58cb0198ad8e02f2724b01cdbe180398fa44006b889600f78f4d0129b4e602fc3c53003029d900cabe53032bebb5031fc59902a3001e00b3f988012c58ac00680e56034464c402df94c9,
  0xcf3ae0238d3dc009d5a2c03143a0103cc41550026d965007825b701d0c8c60119fb5a02ce8ce60024a5fe00cfd7e500986ac303112a5703a4315600aa36a002d60cdb03d8e3b502d24b8200b559220007d9d102d6cd5a022914a002c58548031b412601205c7700b1b0e90009acf7004753a5021d4f2c,
  0x946e00124cee002af0df20031a7e802bd1ac301e78afe03fe4fd0001df850000ea9c403bb8b34003ac61103d82c9d00abd91b02ac7c56035d4b6a00fe9a43012c3e1d011d5c81039476690160640000303610004d2aa703d4eddf00036f9a01ebf0cf034d9d6a02db47d400211705011014e9019d8928,
  0x30f548017937730358f9b001e387ab004a37b502c142460363e2e800bda55b029f23a300925ce7002866f70329e444012f668d03eba167003e72a200fd5dd60026e0a0036592cb02c70adb01c1aeab0032d62d015309a102a1ab4800a6ec3503db9d5a00466bd00256ee06027b774c008f6e1c0343ed77,
  0xc1bca0156144c0256ea240038127e0078ab4d029eea4a013b094c0137f9a601d96844016cf6ec0016802701366ed701211eef0337acc301bec5a20032f33e01225264009a182d01914e7001712fc50030d83100251c2003f53d9601e5560901a6e88a0144d5750316587d01e716ed0142772700cd98f2,
  0x17e7d501b281f903b474f1037d37b2032f6bed029ba6d302e945ee02be4d9e02a8b51901cb972c0024b2ba02839965037eabb803ba4a4a0292645d011a14b6027242d900eeea5101811c1e01a7433800213c6b01796b0f02e6749a038c682d00ecc0000069cee5029a288102307c910129f473020ab7f1,
  0x14d5803a1bfed0294587d029ecaac03afe13903a6261002d5395801e6129b018b91d2031702be003d21e80169a58a015e67560335053600c0f82d03660f8d037359b40382b3ca00e808d700560dcb002d5d9100a3429e0038e13a00509f0a03761bd300d58fb60218dc15033dc8dc0248266002a14659,
  0x27e548004c787803c4a15b018f9b2b00cca30003c85dcb035d7bb00012851901721e9800ec1caf0005b21100bcc45403760e2b0001a6690041662f0042addb0373b49b022502170155c63e010ae91a002980cd019ce785029c8ce100ad0237009ff25403f4ede001cc5ca00282fa7d037b10c50073d006,
  0x150f240290f4ac02f0f08101fdf8c900185aa90036322a0293fbea0320796a02c6415a016de5cf0012084101bc6c490314b83b025469f202b5c13501cd5ced014542e6014d59db025e6b0701fc29bd0026f3860329ccba02d07bbb016fe59f011a674d02a44f770102c65e00ac74530293a3ac011ac369,
  0x240abc01cb911901ac62010045e73001428c8c03d05b06012cc72e01199194005cfa8602e537a0001cd9ec011b669202b19db402fd6566008c6a1c00e5e59d003041030276a93200a17cfb03bee8700037e9e203b1a737023b0add0205e35a02da7e71030dc1f90160edb30127e4f302f4dc02012ab845,
  0xacd6501859e8800712de90306ff62030ab19503cd33850018b51302de6bb2013d524a01df3ae5000a0553006ed08102c0b81b023232110102c1b6029f2a3a0318133200dfecde00df15bc00122b2e0006f65502b493b0019cbb36022bfb6d02a2a1ac009633e2021ad95303a78bbc035c081d013f93cb,
  0x309bd80362890e00aa137d02072f0102327d73019fd99400ed1c0d00ddff400243742d00ca3de6000cf7f802cc892e0352fbd80393f16100839be8032f736a02aca991004de5e602a1b30c021aed7a00370f5f037499a502339aab02bc4e3102df300603d7eacf02da112b02195da8014e65fa0034b3e7,
  0x167c5a00801f7803b58fa7037fb8410374235602c67f340044f9e403d550d1021b825801872d990007409403de21aa03d99503038a3199020c04d10332c73002cd22f002f98d380204d9f200a99440000e4a8101220bc701a492600011720d0367e585006ca95101a55bb90155db7c019ba25d02861f30,
  0x13ffb3031501220083597e010a01a402c9fe8d00066b4402efb2ad0066737703e3d23d0338407b001aff9c02747a350183fd8c01a41b960317702e023a4b8502fc34360257cfc803a1f51f009fab1a002b7c980168a9d000b296da02fe7f9a01446e37009386420199ba1e015c859302eac24d03e8374b,
  0x354b60024155ce025613770116d7bf034debb60353598301a213b202afab92039e813b01d87d160036ecda0301a2bb03724b0603bb3bea03c73d880022084403ccb2a00304557500f8ebcb03b2f15a001346c002839b690005ea8f03b0c892029ab6ab02f53b51032ee74e00ec3e760298077600b1ec32,
  0x1dee8b02ad3ca50039651b02519c680174ce2e01963e9a01cd7e75000a0d25023f208302afb11a003881d9006943f50107591400a22a5b0135719203436ee30067f0df03418987028f414e005cc45d002b78840283185e01ab5fa701da19a1015e4103011628d700fcd64d0024a3280082ac8001c4d426,
  0x23d570310ab9b0151ffa303f9547c003aa933000e4322034c1c0903a8d42c016fc43a0262cf540012166903eca22f0123235d003278b200964d97032d515601fc0afa0126f6b7015062c703010e540029b14e015e0ef4005349cc02f3260b0275f66303f7fc49034d1ffc01ba391d00e0b1ca00f32d64,
  0xe854003e99cb50318e8ba02e48a4302524c4100ee81aa01b805bd03329632037a669c037234ec00267a9e01af326a01554a4e0034d46a01aace13038ca8fe030c41510111c672025b67c701f27e82002c4940004932a6008b54cf03004d9600f539640116ab910237db830374fea9014176d303aae5bf,
  0x24a1c70112d6680129baec0381700302b8b794003b370f03dacc77018f54a302633ef1017d154e0012059d03d5cfe1000cf99e02d4384501ed5c1701343cd400d52b3a032158a401949b94010ac30f0029f56c01bca07b03091d8501c6e0200309f68603fb1f1a01f02777002884d2033966e5038efe0e,
  0x104669028138850206e6d70259d426033fbd5d0293b220025fed28023f252b0318d3eb01a18d31003540e103c0c6100186c6d20129593b006b80c201c69a2b02c31d2402b1c6aa016bb24d03b141600019c4df0255a044006f3a6703b17c6203e2aa58006441bb02140b2501427e730206615402aee258,
  0xc013401f3e10103e6fda203ab7b6201e37af402d417b7033abb7100b7603f003a7dc000ddc4b4002c820d03f973b90101cb1a0147b62801dc09d700e10fa402817302011fb44e0338c07203864ede00274ba40179b50100f2489b02d190450148a87202d45cc8008f290201ca478a03c72dad024657a5,
  0x3ef80b03a3902f009d535f03f8e9d403b86ddb01d163830117a983008a98320015a97a001ace8a0035b4f30146fb86009a06c60053838202446c4f00a3a00703ccdd800072eb3b03ceb739017f547b0005defd01436c9e017167ac03b45f6900d4b8cc0255a1f30354a48202de863103e8a8c003d9fdce,
  0x24b2a10070ee05030cef7f034c173b02a1a1c0019cad3f0122ddbd01cca99201c64ade02234ab7002e628d03968d060212a54d00368a8f00f598740114fa06000ca8b102f147a2038104f003836cde0010d6670351a31b02679ae4029fe9f200efda3c00b67dca018525a703120cd70244a038006ce7a4,
  0x2896d0023caee7005f881800dba3ca0278d051021f952d009e2aed01c858be03bb7fae00f6a300003627be013fbf8f02c06d9502effc65017f1bc300976695021e9ca80280c769029095b20034ba9f000e1c580089c92e03acfabc03da3b51037225d7025a7f1a034e1d9401db4333028824400043c2fc,
  0x3bd4aa0262dab302f2182b02fb968803e65ecd026de66c03004617032f454302e8378700eb36c8001bebed000e3be3011807a803dcaa53032538f300c7d76a02ed9d1f00dddd8b039d4d560274ea32001ca2eb0295c035025c7fb4024788c300141b8a0277d7480390114c037f76c20249e18b01b863eb,
  0x14bcf903077e8e01434e4b031e0b380157a4e50080263e0213dc4f0081a827024c42ca0046252c0037fa6d01a39bcf0344882501155e9c0149061a0188a05f003574e903772a980388d05303cbac4a003e6f57003606a000f8859701284b8e027e1a93011ebeef03146f900234befc011f7b300283c1fa,
  0x2129070270e5b60237cfc701e09be5000d8ae50013d46001fab2cf03ca3d4e00501b5f02e4e06e0012c1fd0241602701ecde3601945a5102641d8400f26b0f02e3fbcd02f22f3001ac172301a545d400259cfa01c4fb740015764202195ddd00bff16700649b020078099900321bf603b82ec603451dba,
  0x323352019e707f00c32b6003bfea420070b80203e4103d0127077201183ad0025c8bdf03919c800031670500c303dd029edd7e01427608028508d0030903a200909ecb00944aa702651561037debbe00298533010e59a700b0e82800558c09036100dd03208e87029a17c802951319015d164f0092f656,
  0xda8310095842d0057329001aae9f901984caf00e8086e03103e6f02ac7c960090459200d9bdd6003d4c98022e047103d6155f036c43b8033248eb03cc0ab30153a8ec01e378b2018c262602c33e59000276bf03dc137b00f6384403070797000a46d30089cdd203aca9da02086eaf030bcee2036c5932,
  0x4fda50279ee8a00a852c201b3456c0345fb9902f095fb01d74357027f51150003a846038457c9000f4fa300be58f701c12ef900933ee401995d100297c27c0279854601780c240233363f0197a0e300165142039bd07e0278114b03dd1cd701f6132203501e2e0285577e03161e93030f62cb03a1296e,
  0x252c0e00ee1d0d039cb74401e0964603596c580379eea40092f00201df5477019e52c9027b97f700012f0401038d9801356b96021139ec011513080296d8180345f28702c85dae00f9021402d7d7c3000dd15f036e12870295929702246bec029cccc301cfbbca01364e2301e0bd0e0118cceb015a2e23,
  0x23377101123b65014bf38f00651f6d00cf6c3e027199d0037dd397008dbcbc01b9fca30129598a00319f6101a1eae500224f01006dbde7033d3e1e01535c76029cffab00d05d63009940a000d4377c00242ee400e91f560221f2a601ea917d01dcc6df038eaa2c036675ed020f9367002437890307cac0,
  0xbfc8900f7d96e021ef6af02710ab802ea179e0306bbe802d6dca30306df0f0145c7fd01f355d700023978014bac3b006257d6003e1ade02c4128d035c76e603221f7d00b76fc9021dea1700fb9d8f0013e1ec003bc1fe034e01a601d9248602f07fd000e61c2101a1d6dd00475c66005f261c029bae39,
  0x31f22803e64e270193ece8002d79cf023b174501fd4f100096732c03a2bdd302e457430242237100271d6b0369873302dd8b2000cb79b1021c4a4e016695a0019e3b560061e3bd007a4f4c0118acf0001d060d03f4660a01909df401db809f00a4d7850375d2fe02133a11024297a102f8cfba02910a39,
  0x1225e4005a485a023242bd01ade99702ba9ade00d44d3a023e80e5002d7ba102a2df5d03cb451d000cfa6e02185dac02bf92ad02e29ab30246f64b03e914de010db73e033c1e0a032815420288b65500222d4e00c95072011c2e36017d2f8800d87a680367a87302dbc26e027d58fa02e78b1f024c348f,
  0x1c5ce503ab7ecb0265ded503aa1d05004d1156037697aa0291901b00ac49c302d8b48f026ff4eb003b2a930332082201a8d3c00014f2d50289102c01fad324016bc6190356cdd50294db7c00e962b1001382a201396ce5020a3dd402bb50ca015f45d201df3e950261abb40020a7500285f7b702a84f17,
  0x35c2070309f2ed031171f402c6c0f70245d4470164a7df02719cfc00740cc601a01b51033bc022000953fc00ad717a023a6b65032c37a0001df47902b9e1af0111f5c201635fb9035190fb0089d72c0004ddba03b7b8150069a0f701f2141b034ee8ef025d8654016d649300f3d7b503658d3302a2b4a5,
  0x3ff911005497e200423302035bccc0016400ce018a35d00235d78600f08bed00524a48036c60cf0031309301731a650205afbc003da2b203b693e8016e14bc012dcaea017eb6ab014540ac00324b30000260ac0111695e03c954b4011c5aa2038cca1502214eee033d0aaa03b2dc0402879ebc01bb03b7,
  0x3732a7020d90f0006658d60276c0c6013fdc8c00016263028cd4a5012910d8038bb7bd002b3ac7002f34e80353783c00d09ef503cfc88c0246989f0186fb6201c8b07803a130ba00d5f00701a5e63f002c1e0d009a26d30252dec401443e840391437e033a77d502c5d2ee02b3314703edb2d5022c4fb0,
  0x39590039b5a51021a7316005a30ba022a21600003fed80080f45a007e8fd10077136c032fe447001cca8c00a9e4500026a95d03f57ca50070ee25028e317e01383ab1029d0532000e592a01345b56003f600500a02d6701763db100df5ad90163455e0229020f00115a3701f1c19a03fcd637004fd0dc,
  0x286b82019790670146d7e7028d2ce101597d5400b8aaee009c834a032b1b2f002c5765038ca3f000176ea503e0c64c024a481c03f3a5e503ca8f7a0344686301691efe00e0c96f03bd52440074ba210027bb7901858bb501172a860119e1b6010370120175f30101443019030eb1ce01e71d9f023c48e8,
  0x25235a00c084760016e29703de287e01ad40b9035896740213d9c501e3cee803769d8b00431aa40012f23c01c34bfe0135c2df03ce1ab9020dc09701d802af0075004d01078e7400289ed40369638d002c64b900e6c49202744a4103eea92b03391f7b0236d4ab0362bd3a004d728502c191ae006cfe93,
  0x3ca196024f0436038cfc1802bdeb2c0370df5a0355f24a01f826c0000327a801454ea9011e0bc9000a12dc032ef4d7012889e9000f05e50234d7e7031d0ef70272e3eb00aeeb1b03c9f614022b576500207c0a00857704023318ae010a7b7003b0cd13023c5bf20145ed3803f6cbe90212dc1d0260821e,
  0x1ec32e00edbf1d03ee8e13011ee52a03a1270b016bf09801230a2101bf42f30390f97f019dbc2d00370348010aace101f3226800361a7e00f3e4ee013669260240c4e6029fe0a501ae106903b589ef000e768c036d878f03a247c401407bb103b4640a017b2b0c0244bd18028b16080255ed6e01ff7b8e,
  0x1e814d010050650182f35200f141c2035a417e03962f6d02962b0e0201092a02ff73f600372ee2003e0a1c023e08fd015f6890013b95b103a14ac0012b8f8f02178321019980190217e07e027eafdc0009a09b034f9c9e0291db5e0219610603a01b4e00597455013cd69c0336bc1c03323a8703a161bb,
  0x28fa5802039da3016094d701027aba01198f8400fca3ce0184f20d031b5d5803b6bcd100970d2400081c95039c1845017fe45700673c2e0026f7fb003235910145fead0182b42b01fc332c012234ba002267910365b465032021c9005770d30179d08c01caaea700888bc302cdb88f005f502d03c4f908,
  0x7ec8d0219987201fe951f014d27d703938885039cbca8021ae7fc03d2ed8f01dc39e703ab493800324ad5030e7b22006a7a8e0332a3a0002a4b2c00bdf18501465b8500b0c3880230be2b00e82f81001add6f034a1cf80010f3ed0174faf203922ba702387a4d0329991801a8d29400b2802300e3021b,
  0x1ffbf7031cf87201cd5f7b00a95b81023da526014c2734004f54cf01129cb60153018f02083b8e000fdc7d0366a87f02f0ac60011765e003ab62d600ddaba7010e18d203e0f1fc012432690185d585002e1d63018e5efe013e9b33014e75ec0172754f0343a9510036fb0603518f390258e25f0019b252,
  0x7c13e006dfec802d0d635005b33f802c9867200fba5ec015f69620164a83f00800a7a0108f15200155c2e019ae3c003e5104103b21ca4001a69490347d620029ad21f03a1f3c7039ed30003a83c3b001f10f8000cfa0d015bf2d002b026b2034b09c100ddfcca0069138602e7d165013f76d1024fe0d9,
  0x3ce26001a789e30029f48201d4bd0100b0a10801bb184d02e0c1d002eb8e83018cbd030206c9e500292d6100d93e3c0196c8f902f35c4303f104f102cff260015808b5000dd6d9021b6a6f0315c4e400082a5e00ef30bf02a4d93301a5aabc008d1bcd03d1766701bc8f5700a683f303b50fd702c8e201,
  0x3ef70c0221d3c100884dd201b000eb014dc0c103c362050150d6b003d541bf004635ef02ebf2b80029ad010125fac1011778180357c7fe00b2a5a5005d77b70355b99d03dbb55802520a6100cc8474003447e300a0542c0360857403afb39a02f155b902dc815501e22e2f015374390196732c03bd6a93,
  0x111b1201c0e74901e2b307014d8d49000ec1f9019b92420275638003265f17030a046303a07c85002e84290394cd4b02d4b5c203cd0a03015f3f3600159f2101200aeb003714430096ddfd00f2674a003141de000fc00d00a2d1f601e3de58014a05c20308966003216eb9014e7d4d03579d92026ec992,
  0x3a5dd501c727840238b3f70386cf1e01d0806b01a619eb00006e840282ac420211b49c03f227e6000214f00139224b0031a19a010ae22100c4780c00b2e1e903d82d6d000ead490389c37d02c228de000d6277038d39ad023cb77201fea3e802221d1f000ea8b7013064c800748c3d0019c9cd03f9a951,
  0x166fc60059fd6b00f6bff9000f7ef702edcaf4020bc96b00f222ec00404ddb0008c8cc03ee8bac0000c04000f0709102b578ca021e08b801d2f9680224f4ff00f2e01100c9b05002e9603703f58eff0028ec06013d7a5401b87a76025d331202e290ed00ddd17c03d4e63702194a9d02b11d310144e41a,
  0x25a6240227ec5803e7c7d700708b35007c1ce9018508e802a6ce5901b6d1030354f35f0253f3410027ce95024fe2a803ab83160015ab7b01878cde0090268e01e0175b0036dbab010d0b4e00a965dd0037d36c02a8ea7701000e830154ce69036feda503271a5e030a790b0191c7a002d7be17021da5ce,
  0x32619503cc689d028d70480174f8a40157d72902eec3010187ab7d03cc28710133c44d019f1ed3003f247d00f2b156032b963b01bd99fe00effbef02f995c3009da97602c8c6ca005d718d030ba76c0005e93b03bfde4e0127e73f02b3477500c8bfd900eabe9203928577023897b601165f7502bfb8f4,
  0xc020a0179a38b01cc864701cbd3eb0200e339027814ee00f00a1f02c94abc01ce950101c7888700084d12022b81e502507a4b0029264000e0ff5f002e9af902b6d7f801b023d902bf734b0398c580001a0a8401965f4b022d2ada0084fb8d0033630b0021aa9a034718ff0083a14400835a5400609462,
  0x383299031a25260368e1d30235a16801c6a5dd017f614f0307152000028aef02a9c18e03cb16a00003163e0378010502bfb48d03055c000027e9dc0024eaba019305d901e416ff021aad2f00ffce350015e18500563a78024aab610126191503e608130118494300229d240311f7fa02ee695c01d56db9,
  0xbfe0003fd170200cd587001f35b7602ec0dd7033ccea502a6658602d8c0a701fd86cc01b13876000e952701613b4e0337f6b70055c670003bc4d80083913d017f08f7037063fc02c12e2502eeb9a2002f5432018af63302e309080319a387008e4a0002a4cf3e0333203c0036821002158307035b8d03,
  0xcdca8008c6c4003d61451011029e302bf31650245d8ea006377cb0360ee8c00f1a6090043bf93001085b80007bc4c036c655100db24fe0258c434000dd81900f5554c01d0907f0024b16602a2b89e00034ec600ca6320010b5ce1000ffa6901573a7f0062b52100110e5b0339ba8a03fc664800af7fa7,
  0x317879013932f200b4ba2d01d5b2660392946d021fbd70008f719700da73150153e3000071f52b0033942802273dd3030a1c7f03adf37803a6fb55036f48930180fed400eded12027fcd4901bcd37400275b77026f549d000c7cc7016d672c0169b8890099ac6e00a4342c03cf29e400688a55002f2ce4,
  0x2fa21b023e0ee10201a61700a3f2af030504cd015b1f610273bb3100dee67b0118024001de451a002ef60803c4833103210a19000f23280361303800073a1002f6046102c8648e013e740e0233f9cd000239f7016745cc0025926b01ca4e1500efa3e901ff953e02a694f6031667ae02f9c4f4031d0191,
  0xad69d02c4698e0068340a0014caa402d2652901566bde031a2537037389d101c864320204475800345326020971d50176c7b100e6f07d030e67a60292352100f7977f00e7488800754c14020500d9003cb2a503bf30f10091b2030262d5850134255502fa892a0138d92d008bc4a001d089360130e3e7,
  0xeae8f0085f9a40249b6d802112e4c03795a0b00436aee020506500147b85e03833484034188710022e2c80381e19b01bb2e5f030459e903f0278602c2880303f001d60328bab201373420039fee9e00042f0302595b1f02eb1cae03dae6a30162fbba023bc676010403e902202b54025df70902b4a89e,
  0xfb6240074138f0382050903d50141029338ad0148c02d00ce852c0377fc1d004fe0ea0358bcc80038d4d2011de36c0141a55c03b2aaab02d6c696021dbe460097ab8e0156ed870210a0d9032db5ba003c5a5303c15b07028e1df7023ca791030a7748013a85ae01e860650076fdd700428a350332587f,
  0x3cffd60109e86b0384ecd503c176d100e8316c01fb6a3801519eeb02bb6c8b0397ef3701b1e5d000375c630392a93e017100d30156242e02207372036c50c403dfbd41010b86b202859f1a02b7cc7e0020c8e003a54e4801439718014c8f390261db3500a266a70025afb000dcb5fa00c10ac90349d20a,
  0x19dbe702c60dde00f344a4008f72ed02241a6102c9f5b400c42d1302ba202f00c26d07034c949b00328746038fbd4b0210062a00ed5ecc006494ef025522ed0195b92f015274dc01517ba400e035dc003285b80044500b00c0497601df17350374d12201ddfa6f03ebac1600785c920392c555029e7a1d,
  0x2581a302f9676c02993fb300a474fd0333937b024940740201d3f3000533f4025064b701cc26bd00302e3d02702a220152dd1e03cc7c6a02a2be8c0081af9a03f9f2fd0283d75802e6088301e6e09a00121eb10368a5a603990ec60075bd060045c177038128ee01fdf8c6027293f20094a5ae030ef3af,
  0x23362b038733d2014ca16901d04c2c029c1f6b010e23bf009d4c4f036c264b03d61c4e009aa9740015df6103c0a9690006d0970200ddf10108f6b50392df0803b3fa9700bd77fb032fa74501949aeb003e804d0185ee57018ad06801b9e1ad0069f08f00a77ccf0147827b02d1fcc6034ed9a70245153a]

/-- secp256k1.go:10, serialized bytes 215040 to 245759. -/
def tableRow7 : List Nat := [
  0x0,
  0x1e72e001099a8002e777dd0295eea200ea56570119f62301b9291001164f41012d85fe03dd0d290002c8ca02fcf692019cea9c014357c5009301e1027a64ea00ee77ea0353f0e70118885601e86b0d002a2a640163e8fe02500c410299d848039d9b3503d1b882039cc1d90204f8400243a75e01ece519,
  0x241b99008b4510005adfb7025fb355007076850282c49600fa5b5000a7eb3500d9f6b80229fcd500083b220375aa4601a7652503d1474e01aae62202c92f5d013619fe00b052c20271dba202240e8e000593bd01bedc7f01722322014be7c300324b9703a99ebd0022d8d803e0a7cf020d87d5009c1c2c,
  0x233ddd00c10e2500d7e27501c6b58702ac3fb9037319ed02c9cd2a0106fd0501da50f400235cde0001c6be02559fbe03a25b7002c9e75402d481a2020c835f00cc4257005ceb7002ee7f0a010dffd90017ed9e0230a8dc014b927b03d3a64202c1140802e10add03c90cb4021723c102f27810016a8a15,
  0x18cf5c003ae512004634ef0392b60d004ae29002eafb1f03917dcd0227cd580217273a002c662500298e6a02abcfbf03998ccb0057251b03ddfc92025cae2d00a166cb01c628e303f51b6b01f9ad9b0000c9a603cc4bcb034e21460129d75d0351cc83025eabeb00d8643200502de702ed3f60018c83f1,
  0x2989560048cc9200646307010f9ca800a9e69e006c135a029feee203f89052004f06c201e37f40003a975e00dd6c2b026e429b016dd1ca0097d5fa022dc01f00001b3c018b24160149b3500389a62c0012c4b90155241403c94ddb016ad08703c24cbb01ed7a6d01bd8b5d0267038801bb23fa01acd4c3,
  0x361bc3029dcdf703dd7ff10120b8b80249bfd5028a386a030a541303b7375c0078c6b400b049c000316d9d00002d060195e91002f1847e00118b1401be7fe303947d3700ca1687013f014201d0f3ee003005830116d27901c3c5cd039f7749004b30fc01ef5dca0338076000d7ed88030ba5b300d1893f,
  0x2c446b02aaec4e0374b8cc0395121402805e9c0348253d026bb83a037b29bc035b93cb01d7eeea0006eab903f869bc02ddf99b0326d310015da615027290dd0125b3850059698b00368dd302ab74d900257295025df9bd01eb555000056182010c0dc902bff795009bd949039c8f7a032e273801caf739,
  0x12618903f3f40b002ece050128568402e2dd47009d5bb300fd64ea00d5ab07036c480c032754720012fe04025190e10194e4a2039bef760368f198031b062f01ef1dfe023fe5020098c099013612170012bdd4033a9adb039a940a01e68e20022d036f02329219023b48a6030394600026a42b01a8630e,
  0x3a4ebe022d30610162863102a0ef4400c417ce022535da01197ff102182be202250341010850440001f12603f2f17d02577d89038f1ccf031c3b4902ff6aa101b9605000a8b727034d8a2300fc86630000bab300d71a6000dc5a3c003a98f60212bf22024dc32b0199045c034a650003b44ca000333385,
  0x17d6c800ea357d003e5dd702648942019bc04c032f4bc0011353d800318c0003c4e8f6038dc0da0008d1fa039cec2c0118c790025321fa0257227302cd37db03eab3e903d0d1af016d73a602473fe7001a1194033c7e33026e535f00dfa5b10063510e039af31a00f08bee00c59a630064fca9012fb758,
  0xe393d031052270072b36f0304177802c425180017f8b300c0852c00c6fcd0036c4a0b00027c01001fc36402020ac80308e9bd027c4b60008eabb702bd92de030c142a01680395021033b80085d59b0031e609015a51500338f36703e0c4c202d97fdc01880119030b21db03079e3f01b4966b033a4a54,
  0x34efc0025444b400c5a7f90344ba9d00de939303e89ac60143892d02d242a4026bcecf019fd6c500194f3a01a33fc50211e57f030cbf5602f0001d034cd45a002710be008d4c93030b0f74016c5f5e003be15b02d25ecc03472a3f0266ff7b006efece0252d3d400492aff00347a2b0320419801680e31,
  0x1388840357b16603288f5402af9cf6014b09a2039374e8027261e90116b6b1019f84de033c37d3003672cd00efbb0c03facd1d02aafff102f9747f01e4f7ec00c7a13f03723f6203348ade01a6a861001dc69003590720007bf13202874ffd0276c97e023fe7b90204ca680270f16100ed4ed2016f1adb,
  0x1a79eb016c0e8f0263cf500341459201a102a80088d468022e31d40235d9c00357c591025a9e740003d6ef02a83583038d1d1e033ec68a03eb48a003f2a92d016dbc5803cca14502048d6900f9a9df003560af00708f3402ce522f015b08310009f51f018b093601b3c2120219e4bb03b01b9801fd4e03,
  0x14091e03401dbe0240936d02200ae602a54bcb03a33fcc02a44a6700709c7f02fb21fa03b0e12c002d4afa00a46ca6009cbdfe010f5afc00b8bfb6029a8fe803073ad8028f80b0017e89410112e64e001daf37033ef4cb0316128d00c1be45000a745002b3fddd0386c6ec00ade6a7001f555300d714e3,
  0x1953fc00d35fd6006b6410025a4e9503f41ebd01ad6079008260830236dd1802fd63af023256800035615d00cd2e1701f4febe027211b40389d8ec029fd4ba03ec3bdd02886e6901a0e7500119e6750030e6b603947398000911c4017fd1940191ac4c000653220326c5c80288c65c024e5d400277c343,
  0x2ad807017a67f0033d819f01f6f85902050517033b22e602351d40020041a802d11c68030fb8ee0018d30c029aa2d601078db4019a429100dd0bc701e6f0e6017408120012744002591d97039dfe58003a16cb02bced0f0359b36b0112df3002b4a86002ed00ab0069a9800096ad030324d66300a61d41,
  0x163ac300638b0b01ce0b6a02627f1900824242008a5d5d005d2b4a03966d5e0350b4f0019f276c000938570366d48b02deccd40063b28a010d815703397ca900fea4ff001229dc03fc07eb005242d4003b9fd60244b75c0112049202af05e701a42c140352614d00bde35f0114d9ad013dbc73001820c2,
  0x37cd1302780d1403e9dfac033590dc00ea8075029652af030e06ba0335e4a10300672500ad921c002efb1903b2250b02cec30903925d6e004bd0320054230c0133162b02941bf500cc6ba802124e6700212081000be4ab02d2cdb00137be8602c9c788024d25300086700401095ecb01f8bda703d66530,
  0x32a7c012201b403a4ff6b02a7bccb02e519d2002eec240360e5dc00330a6a02d3fd6d01530d590015b22f02c03e6b033b652000e89f4e01483a84015a12ca00d59bb303af1ba2037024d1028d7bd900355973023a4ecf03181dbc03c8426c00b3bfb001f39c0d03df2d49003ebbdc02e9ef2500e58966,
  0x8d91f02b4512701a1e2ca029ec664004099b203b59511007db08602d2e60b02e2a93c01f2f969002ad11200eaecba005cb7d10261e4f500bf13ba01547e480052572d02e192a002afc91801396fc0000ccf3a0130e2e40128ab7b02881bbc00375fbd00972a4a02dd183c016b273702315a6803ede76a,
  0x30388401a470a500a0cbdc0242ead501abf08502fbd40d032c5354019b999b01415844005e8d3a0005600c0035faa000f8b9b401c6c20400ecf07203256af903e60e3903aa53600031d1a702143f350032b6e703c6bdf4028cf8790000121a0295aa6100fd5d6001c268c3028c83f700ab47aa03afff43,
  0x1f0fc5015d234f00675d72030acc43015c17560110c9c4004592fb010db15202cbcb13001951370029b47b01599447036ce2f000c96318010762c2001e4fed03047ce10298331d00291165036bfd00000fcd19020515cb03d3c44300e28746002743b300eade8f005656c800bd865403ec837c02f3c983,
  0x1a3a74013e6fae02aa45ec02651e1401091e00034e70e201e4f3a502bfcb6e016359990132dc73000bef7b011394c401b42c0703cc0171010ce45a01b5bd46027b020402a91343038974890159378a003ff72a02b1ebe501f084be02c92bea00b951fe002230c90306dd2f01606eea022b93a301053fcf,
  0x220de100e9487603171a9d00c6138a014defd903f6905001390e5b021c48b30228dc6f01046cd6002611b603d57e6400776aef031b8a8803d1ef5801a85dc9019b613b021987f001ffcce003a5afdb003624d903f3fb920314545f0380ac0400cd2dfe01b7a49e03cf7565026b83da038cc7cd00f18bf7,
  0x208da01e03f390168786d00b61eb8011abc3301c81c2f039b444702bf2c55004ca551007aa340000370dd036beb00027572640349f347013f9d13028ad41001c4446600a7bd2e00d231780214c932002d793103d52d4f02069d0d02c4dd6f015be159022c412800409a5a013397c1020238bd00ae50a8,
  0x38bb1c01b7aacb0069749503a2aba703e9a89b011290d4023fdc0402c7772602bb92ec02e1efaf00312f270239fc8f00d9afd802b2cb83009dac1e02f1bc74034d8c060200621a01ed622701e542b7003225fa0215e9c1012a958002e89ea201b565f502a9e5030360b2e8015e825703cc463903307d65,
  0x1a9ffb026d983a015b534c037203f901c2b6fc03d012b1019f40a200c3fa1802237ba601640156003b1c670196f9db01766682037fb8fb00aedf97033f2f820217a52a00676c34019a8700017b69ff001fd22701a7edc100622332021a26020168730701b41912007799e003f89c9e02fe13db020e33f1,
  0x3ffbd1011e4e950175ba270374bb8302b225710371bdf6028a02f002e95c8702f33bf203c82eda0025b84c00c6b7b503d38f01005462e60277ec3700860d610361db8c03467a9e022d59b800d848b10003557503f46767016b3b290338785f0173a64c0078552b03b385e403f26ec303dcf5dd01d6dd48,
  0x331c14013afea701873b20016e581302a66b94031251560294dda4036c8185014a9d7602448165003d1f0f021854c5034d782002fcc1b6005ce09d012e733f00a5c533032adec902db3b5600f84a19003bfb9a037052eb0325a15400dd27f3017f9dc9014f6c3f02c810e300ec06af0102005400fa0c64,
  0x2278ec02d276c9013c78390013febb036e20940338d0c2032c1d07033c47a401ff3a1b017c0ab5000b9fe20334d28f00632d8f023453ca017c883101803373004755720139cae100be4f9a01388607002444dc01ab7ca8034bf9b10052c03d002bfcf801ef610b0169a1980076cf4502999a84031a814b,
  0x7df2d0169a20d03fe62d400c4452c02dcdebd033e31d9025d604903772cdf022f2bc60115a8db0009dbea005311b402d22a6800edb39700396be20134e1ee02c6d5840151a71a0127e12101ff805a0004fd4f010c26c30367fc4c02885c060091d6ee02ec7c38004d8b860064202302a06c0a02ecf33a,
  0x3b230a031ff7d002e224b8033f29570017efd00120748c01418ea102da5aff0088daf503452d5b001a37710272d8b5030f865f022bb28201c36c850356048101e6a09f035f62f701f560bf0025a0ca0031a1a300b14a0903fd45f201e65c3302479d2803a59510018b386d02a8a8f903e4e92b02630037,
  0x703d2011a181100d4f26300948ee403893f0a009b6b4e02be4e9801954ded00c25b7e00d6b92c001e75ef03d90c7d006ad9be032c20b0024bfa7e032ce79f03d2ee4c0097d386008bc893008a13730038f87e03a63b7803019d50016e706401d174e3015eb396032dd37a027b2b7402b181140387308e,
  0x198188013e012b0088af9501a35352029fa17702cfb9df02589d1e0126ed330082cad502251ed5002b4907034b1a6700c64fdb0223cf9e01a413f303c278e0000103bc0022cc5601dfbc83010785cf00310fe803f31a1e0328baad033f25580131a5f601b816f402a1110302445b8c01f5733f023572e7,
  0x2de6b02f0763d03556a3f029d1c2a024be27302c8b787032e644d039746a70004124c00846fda001b364c004a9abb01b3a1a10331be090272781503d25f480247924c03b54329035710ab02a5979f001c2c75007fc3c20380bb8c03e62c740050ea7403de39b703c975090232141d0171e6fd00c9648e,
  0x2518c20255833a02de615f0148191501b0a15d01f9c8d90309beeb0351205101c81f780318da000001f36402901fe80179f6d701be179e021ba2f70151b29f007e3597039463040364c053039f8c9c00119258013ef50603c4d050022cee34039752de0147f4d40031d586008f8f6c02d620020000753c,
  0x226eaa0259a9e002dd0dbe01e7155f03d6d61e02a89a9d01d071cb0125107003d01e210113f2b90029b54f003ad9f8001ebd2200299f6c034a16ee0198f66b030b7e8d0142a32b02427b01015950b20018ffec021a301803fe960702d2480e012a54c901d82f43027ed0b8030599e00014ea83013f103d,
  0x2e1e30006858f3001c678f02d98c7e023f7e9a03d30ac0015a490900a2df15029a974301eda706001f6e310245e5ad036a97450313d273008e42710280481003a5f6fe03c9006c025e158700fc5c8f002a1ebe0119273300247db200709a2102504be90267a74003c32447032c430f0215e00c030da541,
  0x270c0d023eb96c02569f930082e88401a2bef602748b240217d6b60025e712030e48f3014ecef300366a08039ce0030394118201ceda380181cf290292faa401a78e1e0334d14601c8b36603fbbad0000aed95027d01d70362ec0c0339f5150116ff5f001ae4b102d57d7c02ca33fa000fe96a03aa9e87,
  0x24769024f7b660047aefd037f41cd01e4415e0050fe5303e8946802bf857902d561e401f32f0c00382b6f034d78be01b0581202c75c9a00b2b29202b0ec5902d42a5c0255b3b303087db002f65293003d6912015762b3021969760096c42400ef4dc0037c98b303da359201d0b38702764c11029de270,
  0x4b4dc0203f4c200184ab2023b040b014c304201a6669301ad72760363821300c50d89014fd8a7000f5e5c0159c8270252e689038967e9020648000214640b0091052602cb7c7a00f8dbbb013b9c3a0023a1bd02b0b0930385f4d80196d5af0238265d00ec8a78006d50b1021c172e01c87a43002d3e52,
  0x1f906f0201edb400dd12670082f0e900f11a0f0068798803c329dd00f6e4a3020409d802d2a989001db63f03cec3c700684fbd00e92c800338a92f02bb81fd029ebdb8031b6970005012d003ebe02700002f48024e798c038d285302ad03510240cfd102ea6f1500ea7cf100c253580389a05402fcf28e,
  0x325e1e007833a602bc8af403ac7def0194f711002d72dc022f37140067fd7e01bd94b9020bb2f4000fb576021887800381533d032e24cb0114924e0144d3c701b85563035c94a803275a380341fb4d0007bb8901064aca02b5a7dd031d084e0170746303e3a23b00229f0a03f29de000e0db7801903dc3,
  0x162b3801697d7903cc7db102d63914026f489903d44d3203d9bfe7002904cb01046e70025d758b003e7c1a0397c864006293ed03c88c4601497d3703016a1300ed462f00285be7007f5c4202858a5b002927ba00192a3a02354fcf03e148b0010dd1e003cee0700321fd34006023f003f14a9602b9cae3,
  0x28621900766042027119d9028f89a903306f7801103f1b02dba86601771c1e00467b03036eee87003d861700a969ad02b5a31301b444e10167708202685e2702b353bc01bc3bfb01f4371f013cb348002b588d0244d1dd00472ff30009f3f30183eb460281161a0184286403ac2756013240db01ee587d,
  0x3951bd03067060027af3f9030bc2700103aad303070f1502519d31030b3863009cc8e201fbea770008fca3034d3f7d028b16e002cd770500ab803d01a2dbf901c9de2b016ec66d017411bd03e7ed630033270e02a7f5d900da505f0103933a028ae97403b3cafc02835416010011ab025e96090242068b,
  0x230d120261b6b003c35b400307d21503c19c2b010e1aac01b917bf03ad6bfe0322ab8a009d092700291d8001f43134016474fd0055a21702951cbc03cfa17d03e7846802da2135013a2742003660ca002029b702ea33cb0173c26b00f61311038c793c0374cb8f029edf350018f16e00efa6090376f00a,
  0x2098d4007ffcba031c6880017b64330282f71501493e9c013b63c90014ed54006e0acb03c65bb000305a94015b7e8b01806588019853fd0196c6b000b05ebc02e9dafc0272ee4400a7999f021ccfaf003ce56a006905ef00a5f7bf0395894d001c76c2007d2afd0192b5d50392ca3300c78c17006466fb,
  0x3ed5d6034801f0024fb0f2007477b101001e6a001d8d470148848503e4ff4800c4b9a4034c36520019eefd0123b6a402df42b303aa1f9502da0d8003a4850d00482a35017d8dac00b6682c02ad43770000631d03bea4610302698f01af3b6e01918eec0351ab1c01bee021039606560251ef37000523b9,
  0x39e742020eab2803978293022bc91e017a8f20022d641403d57b0100f28772001883b90037226f0023f35200249d1e013cb16c0118feec015271de031b1216004272cb02c38d4e02fff0dc0274715f000a3723039cb90603d6ae3c03e166a900041059008f3c7301ef7d3702c0e64402ceb06b003ea4db,
  0x248ec1014393a3019726fe03cab2e303140e3803d9138b009757fc03e022c802cc65ab00c401ab000607d501ccca32014b3d8301c707bd0376bdf402c3d918010502f50297f7660248615a0256b2240021c79d029db10f016dcba6019dff7e01e7d583008b568502f9028c008e4ae302b60f35010f5f05,
  0x362a360116598f022940cf018b84e101896a23031e299a0117cb670301fbd200cf1d8500be1a9a0033eab401ed3d22018b67b603f460b2011e436d003ee640013f513a00cd9afe006973540314aee80023cce403e3110d03136ddf001df02600a25f68011d8cf60181a3bf006b317703fac9d40045eb9e,
  0xaf667038a1ce300132b0603c29d2603f3a55a00118bd401a13d7801c82f3501770367032e94510010425f024505fc00ea70950156f31001c8bf8203ce3f8500ccd9f002d8dfd50017bb47000644eb00247b7f02a1101602d4843e007bc03c039d83fd032e178402df39ae02e9f40d026a5ffc03bea259,
  0x25614b0242d1ce01b1641603e4010d015245e20124965801e8813d01c0810e01c14a16006b5a100024760a02248148017f3f5802bd58640167438901c98c4e017cecee036b9e0601f8c68b03b4fce4003de00a0055f1af0343a6420365902700f0beda00fce64403a0351f0286c38603d9cd580395c327,
  0x1323b701108f1602dc91bc0329520100fc9e8a0318198903a87266001ef61f024054f202d949ac000afac6037975d703ced52102b69f51009cef0c027d401901fdbb3b03c775cd0313ec8d0200e5400031b0d1023ed48800db1f7c00f3f87d0174334603ddd4710006b35a002b124e02bcee2f02b70749,
  0x1f42660149a19b03e4d07f01b13338011f0f56029c9f3e020539070058e30402139ac90124d2790039a8da007de0cb0136036200735e5203d1c9d703e942bd006023a30395f00801ec57d40392b74c000e410101fbb56d02733044023927f701137528002afee30301a4b903500153001f54800199f9dd,
  0x2be04900f5b73b00b17182027ff17f02366f0e01b2a0b201f2bdda0387a7e101478fe20040b1ff00180e56026cef26030a9be00213f58500a601a2028c5660003bd33f01899d740082fad70135295f0031107000d35c4e033106c903f78d410257a0040300d06d00459ec902e5c21203fdd1a8010aa7e2,
  0x1933fc010bb03800a57d5d00a1865d028efa3300a852790017f2530213cf97022865eb03dd5f17000c5455017ce9c501b835bd0156d9c603d5d50d03206d4c01a82a7602c42cb3011dca3e01d3faa000206f150273e259015b2e4f037cd00502f0903301370af4031e4c4e012b2c8503f5185e01456067,
  0x8719100f995260347c5bd00122164005cf2240244defb03e1c4600139a7ab020738b50155518d001fb54c02d54f30016f7b3701c6d8540183c1d90022b5e1039f0fa40149d5670258118a02bfd1010029b65d01c28c8600c82fe002b3d7c201585549035e3945004cc46001e00f6300a2a0e00396ceea,
  0x3efe1a00f2d94f011e4ba20053ea120017cbc500f177aa013e5fec01dad5e60026ff410141df0a002f67c6022b1ac70033ec890061dabe03bfe61502d5b43900178ca70167d38b02a63c0600b61578003cf485037ea02b00eede380205a3ca014014ea0247ce9601a84b5300c77ca4009c066c02d8bae4,
  0x3ca7ee03a3b1f303a61a10030dd4c703f53b440318159c00a9597302a9c69002fea5b502f298830002f0f303a116ed00b7b8f30241d50503e43397038b2406027e049c01c2c5fc0075652f02c35f4e001badfa01b6f56d00dd589d0252d51102059ae302f926d502fe56f600faf558025e131d01b944a0,
  0x367ad80095150a033b83160187954801686c4f00d6812703e1109b0078324c00b2562e0376aa4000174ecf01006c37007e412c03ea74a201d99ca6035fedea0307c0a702c53e4a007a6e8f02f2b0ea00290e68002fb09d013d90f801037dc403e5fee10240400d02ac63f101feb2ff01f46f270346cdea,
  0x1e8b4b00b3d357020ada4d035fe94501d9c16b006614450085805c03dc055101466c38013dc9680001546f014df4670190151f00096d8f02fd5a460165f9be014064a50050721103c31f0402dd2a1f001973030126321b01a268e402e38ae60259d66500e0e157029847c4029b20b802ee363501302720,
  0x123d001380814026cda1d0024f30701bcf47101e31f0e02d2c3fd00137de1035a015102d50947000eb2de01c4515a00ce4ac2005f3fac00e1a3b100892e910214a1ca03aca7ef016288df03bdad320000ccac00ffd9f50250cfb4010ebc4100e5d2b90164165e0353df51004eaf07009525c00304cc3e,
  0x18649a01a9d6f001a3e971029fb55d017b1bb503959625036f789b0091ed67031b7bc2018d8623000156190088fe7201aed900030461b301115ea501eea4ad000c6c18033d068e016644c502c854ed003fbe4b02c9e6a4012f2ab101d3a8bd011b268103571745035ec20e03b2784900613e3b02d898b2,
  0x7c1c7011fec0702161c7602c974e80140e95900aa08f1026c2503013beeac029fa68d0354f8580000a53c023714cf03c112c9012a33c900e6535e00072a1b00a6b8a1026a405102f72a0c011548450005b30102cec1cd0371f22002025ca80372ab3402e97503000fc0ed03a118e50036502402a3254b,
  0x121bfc026127a100e3853c0369bb4001c0d3f100de5495024dcc590246ea5502ede13b01bb60f500020aba0343952f00c6acd903eee5a9038d78b802f112a10396df8c013c70aa0250b35103cc1aca0015b1b001d685430279e60a028f130a0018c3da0165742f01fe17830170c6c102d22dcc022b8ef4,
  0x2d50c301fee42702f7624d038805e800a003a301a7c97c00ba61a30013c3600338709d0254e804001a2f6601d9861902138b7a030a7720032e968b023c460e02106a9f015db8b803fba12303c5fa7300152fb900f19498030d2ab40274e6ad02dda2ac01d10c6c02ffd5ff005be814027f5a7d00ec9297,
  0x39feb301d1a241038f1f430278ad1002bf6e70022e29fc005cce6601a8c8bd011ccc3603420e860001c7d001d94347006e5cbc03d62ca0012b24ea029f766a029d46650023c2380343dcac02073f2b000130d5009fffef0071c8c701b7deb100c40d1402ca263c022912ac004a927802902aed0216e7aa,
  0x26692603fd8ce701c3d2a503c9b5520098f0f9009d835301e13e12015d008001ac91850375c1cd0012050e02f6c64302d5917c01dbd6ea0388dd5601982b1200ca8f9602766b7c02d3db18015525110003615f01d26e120318cc0c014452c30220b5d503a645d900053c930231a264018cd53200dfc904,
  0x20c36b00f4f229020dd9ea00803ea2032e4831024e90400256ba8d03e3d93801cad0b00157406d002f0a5601b3557e0047a7ec0118333900f97f5b02fdec3d0051b2d200c5c367016a6fc8031a6f8d00243b270210d37b0313f18502c4d0a8026538c502d9062702c7872803597d4301d6695f02f022cd,
  0x2287f101bc933a021024c901d257d501be64090354530b012b04db03c0ac9f006c81c003ec2f1d0020e34c0134a01400ffc849002b4a3b005d41a901b6ac7401779c2b016a42f803098872011f2a450033627a021fc3cd0342058a00d34b6c03962dd301751a8301026b5903dd4055020380cd011d5fce,
  0x36fb550325523101d780e801001df4017578ff0246c2c300e21fd8004ed68e000df0ae025caa0c001dc7390297cee30165cc3f0353abdb029c1c8702c1fdde03b915e500dd6414037d282f012d8f960002fd460339b4a003c2c8dd0173f73a02988682037e9df2003e1a9e0302684203fcc5fb015f57aa,
  0x2ff6360127ed26023cd266037ee4dc02dcb33802292c59037c1b7d0124b6ef03b9c1910361a5c1002a6623001c926d03f16b5d02954e2601cbd8c20070ae4701b811000037b6020012f46102c252e500270c8e0107448b0392de4201bb14aa0231d5e700241a43039c1e9c0231e4b903a9e693029afeef,
  0xb1b2a01f0b4ca01b0498e01e7183f0350039703b5788903deed5403b35a900174e96a0247800000278482013766c202e9ef040376ebb601e316f8026238dc00cbe2f2012d963c000709d30178643f0036192301633e89021750c40194ac1b01477b2702333c1a03616e350306b53302613e8502368e02,
  0x25d67b0386adbd030c5bd200e9120803d5781f02d97b6e02447c15035ba5f2025a5b7200a720e30037557b0164dc9a00ef5987022b7e8a0035635e020fbb5400a32bd8034ceae802ed4cc4021d5b9c000799170114a8e103bc59170062fb74024704f702d5a808018c5c9c021a5bae00716f7501f1f17f,
  0xcbe9f01727d6201f08d9a02888a060287f7f901bc4e5c00d6f87a01e3afea03facb330213adbe00263df6017008e0001fb3380310dc17005ac46702131aa702073513001ca1ae02f990c0022b0dca000f1e5d016aeafd03ff438302d808100308f2c401372c8e013ec65e0308aae601967df2035567a5,
  0x13aea103183b1601b9d13f0379c58702d7aa45020488ac00d75a340179f44802b6f95403931fdf00378b4e01ff2dd301ba1e1603ee689701d1868102f5bf3303f156770288f0b1004318d00054d3fb001fdca700db69f80104d44b029b645b03db29ff00fe765003e4e85b01c6d1d00153827a01387c8b,
  0x36b9f03c2ddab0048c15c00ea76ee01c2fe5701fd2dd00017fddc032aa4a70393a22602baa57d000930f20234fcb20228c39501fb997e03fdbc750218e5c4009170c602823ef30288c84001d02fb100105fc4029dbefa010dde1d02e1d9700209a1170187d0e702c754f103e12a770033576f01818186,
  0x2029c03a42b370321fc400372b57301803e36000a6df900a0906a00b64a5801e9f24c0180e43f002b5271030b9b5d02fa827a02b0fd3502e0cb3601715070002421ee029a9a9803442efe030a7f9c003e1f7b0178c2ee024fc819014e513a03f9fd5f024e289e01e04984031c28e50241819e010fa591,
  0x1054c30291209e009def7a007214f701e0926e02094d31002c6b1d02dacf5c00279aef030441f2002df3730186a8e503d172c900bbf15e02434c8c03c614ce018b79220146daf000b9ae5003843b3d0017ebe2011a2e430279567b0209852a03f79ed3022f1b9d038d7a1002e3695800e380d9024479d7,
  0x2a857b00742e74002a68f80057962302d37f73019868ad03d2770a00ac01af01a557b9003ddb22001ebfc201db7f0a026725e1025dc2f80049d3f90223e7cd034b4cc001a8bcd701c26aad03ad478400350ad503bd6f5903f7d232020e699601fd15b20122a8d5027d9c1f03804c01030ac3f000c0ec6f,
  0x21e78901a0293d03651ca50082435703bc46f3022007bb03e6268b01fe396602c03d930093e365002da8930360903c0324a19a00ce898d006e472302cdff7c03ea2f74018c1d5901884fc603ef25f3001536ea032046970134160902ea1a75022f28060285f7b001aa96d803ae73bc021bb12000859bb1,
  0x33772900000098006ad43300bb28cc0130b7bd01e99ac50201195e02f7203d0029593503d4fb2c001566da020f090f0390974b010759fc02033678001a930f0227f0d2022751a003ad4a2801aeb1a300036b6602607e3c0178dd8b01fbe6f90100d3ab02833fa100eec9ae03fa3e1f02ac3c87037e663e,
  0x6f82e0197188303e68c070277971902cba011027c26cf015959a301db5527006787e002e939dd003cd7c7037c56b70068efa9027e57c501d2287803711988016afa6600e33508029fd23903a82bac00234af801a0da08019c14940347597303abbce202e2f0cc01e41b0802f35852033d916a01ec2bdf,
  0xd24e10023293703086d85020269ad030bb46801cd648d0038b6a80075998a00a75fad02ca2bb900243ef103de2d0300928b64024372e502984c2a0244bfe9031838af013d63e503f5127202b91e47000556c2025429b6019dcbce0283ae9b01e3dc250387f4f90397f5380063a04b030bb923026b0a06,
  0x3cc7ff01ababba0056a1fc00c26ad3011ee7a603c3881003c8cc9202462dc9013f5c8003012090003f0bcd024115da00bb7bc50363520c01418b98029deb580149b8b4025a34350313ad6200f4e8e20006847801a8766b0352a8e402627b960391fbb10168656b0014227b0300a62103417c6b004e24c2,
  0x3dca1f00c32eb201b5429a02447f8600a118b0016943eb03855a81009742c403850aa102bb74d3003d55b50359161200acca1c006993500391753f00fbee2e034a3d570030b1fe00e66ea10148f0c3003408d102ee625601e88d9b0027665c033d1883010571720045663402dcd20e00ea04550312035c,
  0x24983301aaf52e00d0cbbd00a8e1f300752808023164c3011a5f2703ff922f034574da0223278d003aac700231c0d50015674b009da4260354f5ca009daea7037d40960385062803948d0c0273ff9200023f8e000b2eea0328de7d0359df2802a289820084fa2a011f22b9010f508f0213f90b0074bb2c,
  0x2a1f7e039b21d80045136d03a2dfba01e480ab00e913e000081d6203f9857b03a7a138023f57c2001797dd03e04bd500a4ee36028f0ed30337d2be00e59b4b03e7604c01b24a4c033b7b820163cb40000e21ea0260c0ac033ecd4501c0637d02e07db2037586ef037945f4039243e90351c771031f3078,
  0x1a275502bf3c32038b98360150b625015af9b4000756c202a2ddde01e32d1503d50d3002d7f23a00350b42026b228a0198784702745b3902216e86011f988c038c730b0015096903c5907a01849fca001f781900785ca30028d516008c6df803cceb83015cbc64016fbcb50358d5cd010494d201ecddda,
  0x386bae01f2516f038f2fd701ff8f1a028454d503009a4501a4040501ab16d200d7b84303aaf1ce0033f1a403e2781700113499011bf3ad02c6b41e03a9860b03e6f755010c2fd403a26ecc0126a17c003b64a10305d8c9014d4bb701c47e8102eecf6e028d5959025ef6cc00e6e2bd03e4f09b0040982b,
  0x3313380300f9c1028402a30194a42f034987950289df2d0368733002de84a601dfbd9300c775b70019f87a00da661e03cd9b3603e11e8f030a65fb0311011300b2480800545cef0158c0cb03d2362c0002e2d8021c4b300045b2d003ef39720094f090039ffd6c011775f801013020012c06cd025b2b8d,
  0x13a349003c505703dff403014695e9032b48dc006992060109fc3e01197f4f02752ae501cff41000270eb502668c780073049c02a19fc7039db6e201222cc30289c53003ca2194021e0e8602a12ba7001418e0031bcc9300faa85e003cda9001a84dba028f6cc1038eef4101736d1101920f8001ca3a4f,
  0x3f5cce0257cd8203b856780283f8de010ea7f8002cd81302da1403036fca3501d4249f011886b70034d9240334476d02b6ec2e021addf300faddf00056831802bb280d01a267860050b1ea03aa333000019d2201910cab00c9e5f70315980a01c2b2ce032dabe201f1819e021bcd2602438c6a03bd6ad4,
  0xbccbd02d9602000a5541f02df50e902241e8a00c297e801b984d3028522bb03414ccc01205794002ab04c039d80f30136ddb00030b4c201a4210f0268b47502d53cde0220a4d301b8da720179c22b0031449001ccc23501496c6e0084be9d033780f80068399b03af9cc202f43fd100bf8354024add8f,
  0x33b91e03c0233a02e781cd02812d3003e938df01cc815a00f6652c024cda00031051d3025756ad0026047001294a4701dfa44f00cb5d7c017a7e9f01338fc5017cff1a00d967dc02c16b9101daa10e0020a6ce00c0e32f03104764018dd8830364ea79018d76770337a28c02c3a871020ee15f002b91a2,
  0x153f4902ccad4b03b5c29d0098342502841482002931810035105d00a8290303d3adb303840178001d8ecf02f68cd0014029fa01a011af00469d1e0299a7f2008b0d5102a1689e029fa7ca00ec816a0037edca004e6d400124c67a0230103402c98371023bc1a301f3be56009b8a11034509090128ca00,
  0x2b9320028b1d37024da59f01ee76ab003756e90132c9b10398ffc00086bb8003fd6f0601d130ff001167d902068d20000e59610099203d03bccf0e02fb731902fc28ad02e63c9c00c3169d03ac1344001039af02ee3d24003c5f2b01e0d99800362b3003700bca0267a6b803e8b6ae007bee150079be28,
  0x32b136036377e00015973400bbca3d031270330068b62f03997f0400dc85be02bb6e2301656af7001f367e01acab54032d6a9d00e144a20009b2e00273067e02c880f3033f3ff300c5e48002c26e8900398786018b5379022a8e1301c30c7003bfa6cc03e82d9502545a1702c88295011479cf0165794f,
  0x33e68c0114ab76020c511e03b9bc9c03ecf12f01e9e3e6013b762b0383d0e7003278aa012a91f0001684720237611d00eb194503729e0900c8f2ad001e79aa01d20ac500fa4d1201b124bd0208bf1200199315023f32ee00adc52f0384e57e0056512f03b1911101e83bc4028cbc4301150b8803b1703d,
  0x307b8d014fb0970118a5830206ec31018b29200129c80a0063c9ef018f9ffd0117e2bc027506c90011432a014b845502c048ba015a311c03b37c8101b5cdb0009cc53400daa68700ce2d1e034fcdec0028f16f01fcf16000cd08b400d3748902345f52035b268800a09599033aa337015db08400f67865,
  0xd5b16008689a40160842f03f646c20295e880017bee38008eda24018d185a01e1756b0267fc030023d01103868df7004a652c00d67be600bd71e90220ab6800c024a600917e1d017eb05f01d8689e001ab51200aa9665002ed0d500bc5079031727b90207a4390046a4d703f36c2c01c897b803e28a54,
  0x3ae75d011b6bac00feddc30287f16f00a92a200078e30a00764020007c003200017b300135a2c6000a106d01a54bfd039c81aa02076ea601524ce8007ebabf0213211003e037d9029177b200267cd2002e01d0002d7229001d01b00169287d007511ff00d88b0a0234cc91005d7f7600722e6f03e829d9,
  0x3559a603d49a7d03809b980245bff4009a2e1f0290c60d0111197503e5c9fe01ba1bf00060f61a002556c401f67cea037982360169619600ba8c560130a6a50333c4ce0001cfff031839bb02ac0bc30030c5cc00a546cc00b9fd31025edbb802de118303fe6ef7031b593f026f61b8021ae3ae01b1407f,
  0xa312a017f7e2200ad5b4f02d1db7902b7ed5702cd443b00cb5d6b008b3ae20039ab5700f02de8002155c6024a5e2800d75b8e0307dcdd0301e7a703082081033578e401a63d62005b784700135b550012e83e02d5fc7c01be91020131de6b02d75f79028d4ebb03a350a10085a97a032d8a3e028959b7,
  0x13544200fcca7e02b99c3b015177330163941203a13af103e2312300c9d1a903bf9c7d0134123b00144d0e019fe08a00bfc8f203ceb93e009d4f240044bc6c01faa83403f0e6f503de33dc027bb0260025581e00aa663e022d0d9900b2bbe400458d6303ec969c0099c54803bcd7e901c2e54400132e7e,
  0x39d0d003ba6fd100e81cde02aea7ac01c3e8bc022338f2024b84cc01f8a28c033b00090009a25c00293b5702e0972f00127e7d00dbbd320251c1c2017395ea0029c44c02c5ba7e022a7b4400dc7d4900061a7101e51244026856e00052825e0363bd4d0276ed7e01f33d61028b2be1009f2bde02e50a6d,
  0x33d0a40337ab5d02d2927c02557e81003bde24003883280168383203508c3a016b9d680088d53e000919fc018563b00139ce86019f3c480081e8780019ed4e01f37f1e0211cadd005eb719039698a8003fe43502f3130902fb4cdc0139707602bdf15e0081bedc03162eaf037d8d2e02f6210c01dc4c3f,
  0x1bec58019d525c01b2f13a03cc723d00fd0e4900c263ad01f790f302d655df01fdca0603242eed0028f4a3011b181903d2392c02b743b002c0604303620efb027d9f0403966d7d03ad0a6d03b01b53002edb7a01450e410253db09024e9f550359f5a000a034e900bf58dd02ccd94c02daba7701e03816,
  0x24929300fd53f20140014f036be87a02e8f4a9004ddd89017d7cc30183248a02058765037caa7c001abca5007c102e011326e201bd961d0198539f033038de0347903f03a0d86803a6e66b03643d2f003e074203c465ed00b27a400289146c025d44fa03c9c78d00fed79a0372fcf300e2da8802f2b3d1,
  0x204ef5032a68f20128c7ff02d57f6601b36713019c3c00027a0692033aa5b6017d85b50148d2330030554000d8b62003dff8770073deb70090d831014be42400078aa8014a2ec200bef0c00121cd6d001a0d86032dfea901cfb4bd005f35b90351bae200591980024026dc03e897d900df27c9026779f9,
  0x2f2c97004aab17025f5e110107421601a83b50037df3c4012083dc034a4bfd03bff88600b75b57002e2e7000d1bb3601835dd4030ad323011a071d03501209021aae43014e58f200963a5703ec7656001121c901baa0960360dbf101bad2f401fadc5302085f7903189e2e005132db0338a55002c82098,
  0x3622cb03d4ec8e032ed7f201ebe92b018d06e900de02e301ccd7f603902e3003d75ad500d5295b000c7d3b01734ffc00a2850602cc75f300dd45000109e5a0038fcfde01326d2e025037df03e1f51d003f788300d9dd0b0001016f03f33e2f006a808a03fa515d010fc47902a9fdf8011a78c4000eb3fb,
  0x32dfd9037768680342aa1c0224eead030b2b9401ada36d03a22fdc011bb2bc02c1500b00e21b32002f99e503d6e8ea0125b67a0081cc260024adbb0149ae4a01f19337004e90aa028b14fc0335962c00264d6801f30cbb000dec5b0054fa5b034d7cbb03a47b45038baece01d72f0902b2442e02bb7c22,
  0x3b7de0016694a703eb163c010a017d01433a9e02f5b777017b0147032ac7870256f444009f44a2003c4794039986a9003e07550032bae4038870180027f4610185a14a0388e41300efcb4303d351250016f9ae01c7df3001ff17470361f2a803d407ae035390d300388bd803ff0f95025460df034dbfe8,
  0x3db02c02d15617021388b602fdcce60104aba1014641420218b004022a751f00b21bcc03949ef4002dcee000cc396301b7cc8c02c8fe9b032f2c890032b7a60226298d02ab029202ee180c028ae5b700037744024614d2033caa6901701f5b03cb8efe03a7a38500993e4100db51ac013a5e0102be5bf0,
  0x2a4c3200e86d5802d058f903213e8302fb541e02f97776034251af0375071c03aae78200123a9b001a8686025f3f03035eb8aa029fe2990197a44c01bf44d4021aee66037c32c300873b0101e23fb5003a96670074af8d033b24fe03447f81005820c201922fa300fbfcd302bc120700aad2c4034e97fc,
  0x30db300eca05a0080774c013867450277dc16018714e00079f48503162bfa026756cf02a736cb0039454f00c42528029dbfc302f60ee603d97756036fe8a202cbf8f303108e9b002cc71e018b0cf5000c5b61025fe92101910a9f010c5bd802fe2e0a0024edad0089cdc803fe6549031e6f5f02df0f73,
  0x328b5300f5bcaf01627917037de0560276e7690095dedb02d587e1012320cf0388a546035975e7002fafa500d6a034000b461401b7507102792e8a01d8f2d00192e2e2030ced5d0344b3a903b50fde0004f63e026f8c890001d61403df71ef02443764021ef3eb03595a7f016f0b6c03cd98ed033de85a,
  0x10ce1e02f16d300348585900f103da01a0f30c01d0bd8a02ea523b02880e1901ddeb5003698304003374ba032599f70264ebe30297f0ea034bdb86010ab16b0014ffbd03bade3201a48eff00701db0002832b100c29d7400fcdb4700052252033b98fd01142d490260230103c9f82803e69f5003147ff9,
  0x15001401a573dc01f68c1f00702ba902d96b25021fc3540227124500f32ffb0130c8e4025739ab002ce2be01f4bbc201ecdfb500b6656a00e430b30114b802010b3602028548590020f1f300e7f1ce0018d9010219f6c502543ca30194d88802b25c3f02116272038add81005bfc4201cc7f8e01ce030f,
  0x2ef15e015e8aae033a3fa800069af500e0dc87022e742b0244c33f0158ea6d00e351bc025ab2f900120d8001855bd700007555033ef26a03340ab1003c634a0192b41f013a621302418d8503d12976001f2fbb0363c3ec00973c2402bae05d02428a1c0083167803c5b9db03478d6902173f1802a221cc,
  0x24ec66033b11c90380573f007e09cd01835275005b860c034aa87b03b3fafe0092c1870196b2080014abd60257a624013d549f03c0fc1b02e190940002ac55018285df00e05a0a0298c7030154d7660012f2f300fb90480369d826038cd00503b318a8010cc39501343a9c0379f82f00ec478203a0974c,
  0x4e76703433ba2029465160371d2e603671f4c025d7f2f02fe9f3a027b692103d79f9a02666a6b001a7b5501bbcf9b0238c03201261de403ab9c0d02526b68015fa7cb0112f8d80167fa10036195da00330a7b029a727202677cea0197700102caf5fd00ede01f001ec6c8016d32d500d6111e03815a30,
  0x3343101fe48e900bebe31021eacb402c25e6e004e138a03587e6e008163f901c69092026c1d06002aafde028e2ede022c904c00ea6b26031d477c00e089a0037dbaeb02da054f038420a0008142b5000f6409017447ea000228d0021ded3f0063e64101faa2d501b97056021edfeb020562fe03e08e25,
  0x6146f03508b0c01d9f50a01f503fb00f4d46b01231e4a0285840900ada6760260e944023f3238003193db02117ca102c893ee036f2c3a018ffccb01cf128901685e780229ba590303732e008effdf0013fd2500cd026601e6cced0392e11d002c83b9034a2d46023739bc0313225000a18fe10030c431,
  0x14b2e8006da73d01c8c90a037dcf4b02672cf50264cbab000d97180129fca800f588b501467bfe003100fd03b37d0001c9dc56008571790359163a00f395ed014f27190234c2be036ba5f3038d74480014139503b43e4d01baadd8014da5230176b29f030a5c1502c3c04003bab813001c99e403a9ea10,
  0xa208f006e97fc005b293c037fde7c00388ec90226624d00f5b07b021befa000dd721b0274b0b400315d1f00cfb1a902af502702172de00055cd14008d8b280360a6c4026a8fa6038c2e7e03cd69cd0026c93f0085ba530361f75e019610a70316e2da002bc56303b962ae01eb0cfa0115a8810351991b,
  0x3e326e02206b71021632800329eb2202410bc9032909de017fef8f008178b300216efe00edd1fd001fc453029e05a60223be3000c5f499024e5e2401d98df500ed906e009aa7bb00cc215a0313d958003bea81019e0e5600b62a0d01cdf945039e5aeb035e4bb100c79860033c8aee0270b03403dfa342,
  0x3f7d44033d8cb103f16f80012103270108da3d002d4f5f03c2e8d9025c259d0210ea5f004f5d64003fe57700d596df01a92fae0188b5d002f091d00315bfa700bea7ab039781ce034c3774008311d00001980800a7c233023f23c1015a2a08015dd3020212b86e01c5077a030dc475009006460111d84d,
  0x313c903241a2101d4cc4600b64baf01f4352902d616730086c93d00ef620003d03f8b00f6d91e003ce5c2006f9fc503e41af300d3bc1903a9238101b7df980221a52d0201ce77033ff92b027a9ac50028e6910042519b00e8b66e026d18ff00c5aeb803bcb14502e2a3f10325559e0266d1d8037e29f2,
  0x1bcebd03465db2016934130098c0ed00f28eeb01341ef702f32a9d00a3e01b00a6813501bcee01003d0b5a02178c2f03109ef900def0ae003de2a40119c2930018287602a8979d0352ec92033812630022a6e500b01b7400daec3a037a06710375fb5702b4dadc01f937eb020187b0016c7fec0168b0b8,
  0x8dab602e7a05103dd0f2b0213a2e10245549702e7f1c303fc094903d7db0500815fa4037cea870039c06e026d72ba010a75ef0236e1a80298512301e8d6a502eaa20b01a5b25b0027531c02830100002891b900c56ff303a47fdf03ad808602268d8100602d0e00a5f2b001a02d8901f14d9601930986,
  0x1e528c0396ba7701f070ec0396d64a028339b703776c0f03a77245038295ec02a5774602d39b0c00218f4b02323d20023f72a2018bdec4000b255402b858ad02282e69033c63d5036b5ee901367d2100045b35025577500057ab130133682e03ff10f201573bde029af52702f9561d0071edf0032945c0,
  0x530a503a4e8fc00cd1a8201d2c05202b6bf2503da84cc0277eaf700a3897502e4b03900e69e85001da46e038dfcde007e7cc202ec066d02f504af015183b7039a2f0000a7d80f010c8f0a03bd64a5003e97c403e445080333f39b01a0647603ea390803310a9b0179eecd01885ea8027fb12c00412d63,
  0x2b7afc01ae51b203dc76b103dd2194031cb2f60254aadb032fbdd9008e650b0357324d011d561c0033dbc70297b2d00199edae0295e695000367060307189c012df8a10322beb702aa18e401b62b8c000e751802b7e6d8019d743803310e2802eb1c7c031d93dd00ef41e6012e53fa00078380024ea1e4,
  0x7bb03004a9f7100b95e6d03e135ad001ea16f02f5b61103f6e2bb039b7e310294a42d02598e7d00208aa002a1ce1e01139e04012a84aa03d5c45301d3ed09007176f30028e9f7038f98890361e92c0038fd230392574603eecab9001f61ee012eef6e012af2e403553cf50335dd8e01549db40339467d,
  0x11917e010afc50026251260036f08102b70f4403be7c3300e57a81034e9e2d03e12a23035753b8001fbe9c0161df04000e35b80213e23601dc67a000afd4dd0200024000247c05028e855f0165df53002c3d4e000e53ee00add3280380656b01408928018b5d83023f79880258ae6303c8b4bf03443672,
  0x34e32d02de71ea0057b1ed0119ba2300b7678401887d7100dd2246037f8f5300ad6da1001ab570000152580035a97f0100edfe0381d9ab0023b82802da951701f50e130313f6ba00d3117a00b8b9dc0012a6ae0166f2ba00eba72c018630e5005df1900028502d0193529c03a061f000599d300303445f,
  0x3ab21a000cf3ec03377a6e027f64d40057bf210196c019003e69ae0030633901ac1deb039efdb1003ece6002e8605d001b27d100a091f3039c6ef0013819ec00fd33e801ca43540090359a038ff9d10016708d039f39d2004b6cae02a4aa26037d086e0358b0d30342b19f02a9a75c004520fc01836be3,
  0x2f3b0e0306b34e007b2e9700f0e57a00b682b3009f838703dfada602c400bd001437fa00fe1f9b001417a500524b6f00d21b4a000d279700276e2802180c1c0210577002f55c5a007639bc01b87131000368fc0143f31501ce44d7030ed247030055eb03c7b0ff013cd97d01bc77e103fbcc8f03813861,
  0x311345011ce3f103931a3b002bd0d6034eada300db52000165f6650073963b033adb96009b8c48002618bc0141098003edc3b0035941750069f78e021e3f3e0376a7120194028c0017d5c4039881f8001556cc006098ae0248a91f034f02c703db8f8f03c3df88024697a50009471100f6b813018282d3,
  0xb813b03ff7fc302b271f501a4baa7027b7a2200f2a34501aa42f701d87ec50288baa50362de51002015480240f0e10066cb630325433c015d25ec035a21d3022c1fd202cbb5c600622c8f030bc04e000c6d2700fe4ae1037edc9501bf3e1d03fe4ba70061352802cb7876013a6b7b00363c6001cc4d3e,
  0x2654f500e20d2e03dea583004765d50333d92401e1cb1a003097eb01d4743e00280218011a03fd0004e7a3035bcb6c010d7649036f367f0278a12c012119eb022e5ef0028e543e00191a3a00fddd3700262ac60329fa9702070a2e003344aa0045c9f502acd11e02c49265019f78320175b08101b63b19,
  0x19617503511f4401479eab00c4c0fc015cb584004aa2040341acc5006d92c20060bdc501d910850000a77302ae7b7f03b882a10119cc1f03a57db000fdad5003d7ece80182226d03c939a102d8c635001e049a00d0970700ad280c0355bf4d007291fe025880e70235da39011c400002d1212d03d20566,
  0x1279d9037e2097029a1a4e00b55d1603f8fbb901bd9e660362f99301aec65a0361d22c0358507d00088d80001cd696009e73c700868d4102ed39fc008733fe0179efa0028742b603971c20012731e300241cbf03446caa01184f5400439698030afa240114dcb202eca7690091c2570111324e02daa453,
  0x237ef8021701d303d10688031b69db02e9dcb5031d21890289f9f000f387e002195eb3022e6e670004b3580021deb3022a323802e033b8029abf59022f103803f15cfb030b87d003d6c42702d30e640026ee0301c696f7011b94f0032dc01c0385753900572f18015fa202011ec41303fed0a8008d5196,
  0x317bbb02b62f4f0060988f014bbd9300b4a36b033622c3013bb0b3036c486c03e30d5f00dd0dd6000b0b100042f1d301bdf88e02fa2c74015b624c01a9d7ef0328692f02c6acf70011311c028883ee0024b13e03fba883008be4e103825468021b42ac0138fe1f0077b21703d07aba00fd7ee801de51fb,
  0x16c7b800a2a81900d625a603dc3d420302ee97033933af03a5ae07016c8e2e013d745600da31df0004f3b8024bea1902d974c9033e64aa03edbaba01c6299f01670a010091495d03bf3ef001fb985f00268db4029b053601fb4ddc00f51f8501fc08c600353c9a011e54cf0339a2d40074e40702202c7b,
  0x24ad6020fbefc035d7dff01812757021414130369d0d20112835701d4c83000da46c9020d796f000098e202f6ff93014306be0097749603266f8c02b2250f00badc0b0267132200d55e62002482850033ee6a0343e06b03f5f3160033775702d5d92f0037c14a03b41a6600400e4503f6afbc016a8637,
  0x3466c0171ff1d01a27ebf02801eb501ad7b0b020039d701ef5bec003c6cc5030f996f0149ab0b002d5725010f280601bb5ef9018b16050321fa42027c4ec80248faf901d1c865026f6adf028cd929002fa7b10245e1ad032dc1b30154701f023e645c01fac1fa0396ab9502800f7b032ceeb8011c74ab,
  0x3aab57020eb04600d9bd8900856a0a00565418017b411c01054b9a02838e740371dc7f01a256580032dcfb01a0de0e03b0f1fa03193a4b03a488750200ae89020d3339021448d7031954f402c77ddc001501a90255116403ff4f9c0236ef3700c15811025324ff0061f58d03317c6e00651d5402989ab2,
  0x19c68f02314856008fa8c5038e8bee01885b6f0399466702fc06560284a52b0156bc57034e1f77002e91210340daa50096162802060fb20015596e0302a3880132bc0801f84a56024f6aaa02eac82b000115b101b29c4a02fc644e0012d54403015f2700e9eea302e1d8c001c3a842001dbfb003a29818,
  0x35d84503c2185d036a764c01d8372b01532b3c02f71208036ba6980124f3c501ae764d023bfc72002c339201793c240263ee8b021b07e1026f272b01e17ece02c029bd02f5516303f498e4038d8ed70018b70101708aca0191be6b0031ed0100d38fd40292d23f013d4969030d982601f90b970000da97,
  0x8adcd03aed6bf03284a21030504830335b382018449270107e54f003cb550023cffc603203697000bf09b025f5c6d000dc3b7016764880259d25b015705af036fd30a00028e430047ff18029ad7540010a5ca0370fe3803886d49017226c903a9f263039ab85002ec441703089fe6018e5acf01c12c54,
  0x168e260064b087039f2163039b55cd01545dc00102371c00e9951e00b504a90113438603f7b8fc000388ef02a2d38b033ba2a901754954008951ad003d93bb03887a8801df8e0600268b39029385c70022e8ee0074ce8000be595703bb58030253f6440056e298014af72f00e3444203527be602621a60,
  0x281cf302f960530040fdc101d0640f0388b8770288afdc02178377030afe1e038d58620298dc9100225652030bc8bd012f86ed0187a14902ce85ce038352ed008cf60c03880925030c7fcc01bb2a790021375001747874028a96330203e23a0099aea200bc0f9c01b2eb3b016cd321031be773021bd068,
  0x3ea36b01a7d6ac000b583101b16ec9014eea5e01ba1f7a00d606680078ded002cf781e02e42efd0025767600192f2d00f0ac9701f6833202f9fa9f0192e4ea02384e8e03f7dc7b021b797f01438d8700149a7900416dc9039946c30239f61602758cee0016852a03f5249b03d3376600e8809c00255bb1,
  0x2e38cf0099d8c901af0ce80158ffb7018d0c8b013c284300689c2b03b2ae7501877d62030a7d9c0005928400dc4ef200da0c3100121586021c20130044d3960021a8ab0174fb0600e4d1d502fe78d8000bbc560074208303680113020e85ac030c7ec90301032202c05b4c027b38eb02eb4b0402b404f2,
  0x1d5279003b417a022787c201ae20ea0396e94f01b26f180174e14a014bffe303093a27005f520d0015b52402a2b6400344aa2e03fea48b012a299003fb74940353e9dd021078500309c06502197bd80004cd0100c40a3c0332160e01b7ab6301ac3904009aba9801ab625301b4279d032c2ec501e81a75,
  0x3b81b20256be6c0254624f03917e3a039e2ead0221b69e02d960a1010f0a4800dc555f007c91f500296eed01077d050008deca030f8f7b021ffa9401ee58c90251688b0298e292034cf0df02b2a5e0003e732101fbd75200899c7500e07dc1005cbba201af8e270207bc7200f021400165f88e01acc72f,
  0x241dd701de50010339e67c030fd12e0350c7fd035b7fe80359f3a30198377200293e77015f9ff40030cb4b009bbf0e034ad5a201fea79b03275add03f603be0172bdfb02676228030442fb01b8983c00338f7800807abe03d03f710056a95301222f9103526aae02d1e22c0089a8c000746d1101505954,
  0x210ab30295ad6000239f53014fe99003cb755901e98ef6037a9ecd02646bc900c751bf01775cc20011265500a61db60143181800f6a911027c5b430148f63c00ec3fc2017c95ce02628282019cbdea000faab40314a5680201752503cc55e603cb803e02dfd73d0199508b028c49f8004823f7025ca977,
  0x2d3acb019b4b61034facc302950262036ba61e0085823e018edded008247fe0110dfbe039bfa9800359a6a02c21c5e02c460f403b4373703944e2b0338efd1003fe33902875562028862b301f54ee3000b05af010a118b020b227001439f7d016471fc0113d51d0222f6d003e2692b01bea7c500468440,
  0x1f013b01a2a4d601bc61de011ff10302d9311002101d4f02fccd2002ea94aa0342d0a401dc1c730031c0140121999e032ad46500390df901aec0540097986200405b450034999b02d70f33020218e90029e78001b7502c022a70b000a3ec0b03b4ffa6031c9b98002a198702a4ccae018d624d01fe6787,
  0x12cb30012e5868020d4216035babfa034242760330eb6d011075fb02cbef5202b9170c02317ee200374a16014c5f35016eecc80081c72e0369c48200a6c9bf014b187f004f062e00c5bed201f2e46f000bd4230316be4f02c1a96b029a95000156f90202f3e98403522ac2029d63aa02e2d0060118d865,
  0xb64e00d7c533024e532d03d3837c030f25230377bc47004b7c2e03ecbc01005185b403f4cbea000afef601a8438702d00afc0316204d02ec251d003d527303f9aaa7004c72fe03eed87d02a94feb0007947003dfed4500ed0e0502f20c2a03f6dfd60071184f0073b0b1004ca11700c1ab2e03e27280,
  0x1c257001f9bbf602b54ce602b3923303196cc903a3166d0322245f0057ebad03afc87700f4017c003c229e02e40b440330979d023c501d00b779200340329c0022aa3803c126e103fe8243012f5322000c2fad02f6496c0221a234026e79830096255d02156f3c02e2ef780193e4e303dfbfbf00a17f3f,
  0x2518210003d9ec00e480f500518fdd03ee6e9c01977dfb0143073e029ad6da022ad5a200ec4821003bfb1d000befa400b9a10702c0caa6015013fa006d5483006fd23b01d0f26801d8a00501a6a73b000b6a99026b5a2d03b4f6a8011e4b46008c9c1600a6493a02d23ae203b1dc1902aab1a001df9c1f,
  0x21837038dbca102285efc01f5954502680d8a02d34cd2004ae80f013beb8901044a8201644b960019693c00ba9197026e612800ab0a890075f26003e7ff8e0013897100bdd7f503e6e96803b2be5b000c52bd03314e6f024a617902f97d9501c7df7303916211025da638013c2ebf002a4ad7019c44a9,
  0x14cda0002ba03008895c801d5e78b017cba9d0341d4ab0152bb870191a7ab035342f5001beec10014a4f0016d9e2c0146a51701192d5801a1484f00fd0e3203e201240381f8b902213b5302c336f20024debc0047aaac014c1c47022c71a802553662010832610268fa7201a597d00200a7db03911eae,
  0xa3e3001e4a47e03ec4d940327a41200dfe613011fd058011a6cd802b49277027b6038039005950035ecad012fb55601fa23c902316cca0181a01b00e0589803ee56e90031533f0128172701a03632000d51070155dc9200f75c13009490db011fd7f101ae1d78034d22d7004bab86033af60c03cc0ff9,
  0x54f1f00ef38c1033af77400562683036eeb8602bf635e013f166b01f0c350014c347101d5360a0036ed6f0221ab3c006d98cb01a30329034602fe01776c3d03ad9a7c0044274b0299afd201ac93c0000123d601758f6d022d032c000869000231f5550179be7700d37cc40217b89901823842037e790f,
  0x35fa8200cfff0f01b19e0f0108231e027e0b27025167ea01e50e3b03fa9bdb02f7e574003f72110005a32203643aac01c1c93201bfaf310348e2420371e11a00dfc681013e2628037ea5e30203a5db000629d903990647027ebc07014eafed03c178850179bcb2027ea9ef0151757f02430838010d3810,
  0x9d195012228be03da185902a42fac00332be1039e79f10252d51003c38079023c467f020d3b9e002c2e60028d6c3f023a56af02aca05700abd84403778be4032e86ec01cdf66e037a2e9a005aabe60001916101e1930301c554e603b548520138944000bc9b7600ba861403e9370a03071dc7012a86a4,
  0x219380034833c0031145a4004e860e0101327903ec477d01a951d601f896140267ecb3002bd75d0033bcc600cbe89803f631ce031382b100bb88ac01bd3c7503243de9035816e701e35a3200cf9b900001d93102b11bb001b125bf03ac7d5b01ba6088025a91c00156d1d80146b54601babb6001f47bbc,
  0x2184d03862057030d06e80048bbb900853c78011fe1070003a81a00cbe7c502c0a4a200c7c3a3000c7f8502053612025ea7d902052e0303da2ef000ec1ff6020b45af0182746c0359dced0155baba0006881602a210ae026d9d3f01366521021c9ccd029e7bd5025c241c021a497f02a0a18e012c7ca7,
  0x1d1905014ac80201f6bff002bbe37f0266b9590217fe440193f485031a3bd70296863103a90fa5001bbda400e21f85022e89ba01fe8d4e014d300803d0c98c01005db501e86138035e5da103184f3600254b230244a10102ea246901ea27aa017997370318045101a685a603f068020299123d020db42e,
  0x5c87500f398e0002e03a30351cc0502a07bb002e4b646034853fd02e6c81901503ce9024ca9830017266c02133e9400a0e1a8019f03dc0046c258036caffa02d19b1600e2f56000a3a19701d72b55003d988503d0ba42003fe9ce02355b73011cc1450003931f03352f8800c88c3d017074cb007aa65f,
  0x3da211023bfc7f02ce354d0235a17f03ff1f6303b477e6028e4db601e8290d0021139b02f1c05400096d8c00aa4d2002d4bf67018e08a6035fc5d5036c520f0170a94a01a9d7c400596b4e0298ca91002e338901cad02703754335025f3f9602f5bff9035a18b302f958740077c7e202820de7032119cd,
  0x209c0602ec42c501213ba70031671c002c48310185ce6902df19da02b0a4a101a578bc026eec98000567e003627f0a036b49640022185c01d69d390399e55a003396cb01660349006436fc031f7dae0020933c0388de6f031690f201023c9f00d389a9033a51150093c8840275c6100386c05902e5b67d,
  0x15d7bb016d777f00a786b6011396e400836911000a475103435f0300c9fa610305b9f502f54e4e002b063100d570db02556bab00ba0af5010939540097bd5500f8abe601c1025a030c29c0036d30af0026223e027fd6bf02d7a78d01b10f6103301d0c001b329100f27c42039cd0a600e184e1012ef6b5,
  0xa1d370251a64f0297af44023c96d3023a4cd2019306cc0007d40400b4992b02dd90b502fd75c5001da42300d02ddb03f4fb1e010cbf1803e193ad01d708c10197152f024ef2d403c43776009bca4c002e924f007ccdf8034278f303e0a626005644ea026c4eef02cedd21021d2f08000cd0ba0015339e,
  0x8b40a00b9857c01bec74e02bfa6ee01c3b6d001c97ad203d55f2d0066f7e600c888550122aca0001086200386bdbf0347608801864b4c00d58e0d0373a97d00ba6f2600f0d1eb027beba0006f5e92001d7f5b0269f564023e5940024fb4890050d1c1007b4959010bb2530199d8210174515a015a476b,
  0x3ed024037f3354038c4e79006126ec0243673402341ac600a881ef02eed4c60113d53d02596a5500057955000d0f9201acf9da00ce699601f03c500308880700e52a1d0381d2df00a5779601ed94c6001c67ae0336677a013aedb401fa37370112391b036490b70153a91000ea378702c866fb014c3f86,
  0x2894c003f3fa4b01e85e24020f0f9d0129f6b30354905102272c6400484e1102cd16f602b8e411003f732b0324ccd101ff8fb1031f760c0082010f02868f8b01d723270273cd0303025375032009e700019691018205a203c5da9e03de4db700097f76024a9c65034a2acc00beaef100f25b09039cd360,
  0x22d484002498d8018e2ba900253d3b01484e7502b7eee002cbc93a02ec454603fc3d38011422a1000748a50080cc270157bbe500cbd84302ab327d028cc20400f9650901e87fb6032b7d100273f6e700386c8c01c9e2e602d6eea402e247b302802ccf004562730359ae0f024ff9140065f6240285aaa8,
  0x3d08b02afab4f014ac71001927e3402776f1b00b1c2fa0219623c02a75ed703c3ee9202d1cd1c002bb03801c57cd7011f9aec007bcb540376e6ec00056c7a02f844000055451500fc5aed0124d3fd002871fb037f3bb7021a6f5b00c338c1016ac0e3022818500130d2c200f9a4d80014a81e01e1b472,
  0x3d654201204770028c3e5b03539611030012f2035a5f900240c720011730810049f09402c7b695000e25e501347b8602dbcefd02070e820252a392015b3652036e1d17023b0d8002411442019135d2002060ea01be67690236207300c639d2003c84d60303053a02b0f0940038f534015213a100e8e937,
  0x15cd0d012ea2e50360393b01573f86026c598c01c484e5032a04e803f51cea0261aabe01b6b979003c8fd5035028dc00401fa703439abe0219aa4701002c870007926403aef760013a2ff103688b850012f12403f8692101a5509c0231f75c01e2d880008fc1b300d3aa2d025faf900158f7c001b33f68,
  0x272f9402ae00bb00c84a350069434a0031431d032a9320035aa20600c2cd01009e8670015937150039c10b015d92f303e865d802f90a7d003713cf029860b9000921ac03f34120004f3f8c03ca491f00057da601e86ca402ab1dcc00b1082400ffd88f020b93160296ee72009b05b8011ec5c40257f4d4,
  0x3074c2021f05c700d9a1dc027a2024018620dc00a9a205006eefb800d5ff400147689d00724d5f00031f5b02a05b3d029f7e1401d524400277a64100b8f4b9002c1c7c03b27ecc024b1d740318cdda0000b5d500360a3f01ea7b8a00aa92ab01e513de00a6d58401bf44ff037606b9023c05b101e229eb,
  0x33e3db006c792e02d5b5a701bbb20d02911e5102bcc96102455f3703b78417004c5236034fdce3001bd61c011fccf2035f7f430285354a0003fa0201c57e4501e75e9e02f28a5d008d228a02f532750012f1f2031a0a5d00480f3a03f0966402f672ac03993abc010d442e007825af03189c9503abeb63,
  0x13bec80237d836032c963102c0a50b011de1a00255ac5b00f02aca03944b5c01b5c02400164df30028eb7d0365a1c30224991602628f7d0246cdce01b1cb8901ebd852031677cc00c4d0ca01663abc0002bbd40258d91b032ad8a1018dc3e20238735c016a165b029a653c030f466f005d988f03978cb6,
  0x2ce62d031832110032ee4403cd2bb9020df251033963d101222e2e01b495e8024c044002ffc8e40039294400cf6bb000b23c38032691c60082613f0272b56a03e4692f0008ed6301871bb203226693001337c402e36b0f02d52ac700d41ed500cc32b30116f18000ffb6e303a63195000c2dde00fc1e50,
  0x223f2f033a84f7010dfbd203fd7ab001611bb1028c7c1a03e0fc6003c4d27b032a296e014255000023ca7a02b58db001807bc70034cbac02f7302602e84f7002fa6ca7025b9dda01e6e11d0143dcae002547fa016de8bf025b3e2400332cde0362ccb003df6399006c8e68031a104c00e247070246a360,
  0x348a0f023b4aac033c4bfd02d0ba0201b392e1013501e803fe4c9d01f8077c013cab5103f3f3fa0026b9940067591c0068081101255bc0006aeb0301c4c76a0226343600e20276011e11ba021a135200249c0401d8848c001a1a4b035602c2026dc97000727b4203c99bc203d8710b01f3afce021089e2,
  0x10d990010569db01bc09c5007b63e60373df0d0275eba800deeb79001ca8ee017b8c8b027c48190035a46801cc775a0278c08f01537fd3029d094602b98a1c02af47eb02bd6c650215bb19024a67eb0004441103d038d00191f437038f562f0233a64d010826a6032060b50378e8f6013bb3a7016fd095,
  0x182214012903900203cf4901b2105a0040870c01527b61028e2f9801bc061a0195039001c3ce21000f167403686bdd01ffeaa60282496a03eb942d02603c0800a4c22f00e86bc7016c887c01cf488a003a76bd00a3957e01322aac023f436500fea9a70107ce3a005b372b037b1dcb0328fe56012e837d,
  0x84da70195497303201fdc03b815bf01eb1af50082d42a0161dc1901533abe012687bd03dcb627000439c401382fd30251c14503028c7d01bda99a0323533001457cc2033d4ca10093e50101c8540b002eefca0044a5e400261fca0237fdf603d05b3f0097a28b000cce0100dbde6d036ebdf3018fc499,
  0x3c68bf0111d78c01d000690080888803e682e200f40d1d0281faaf009fcd0c0053781503f19c30003491210074b5250007688b033c34ad01aa7145015a1d370379aa1102f5f9580169290e020b4f04002cae1c02e821070289d35003aca6fe00c3268d01b39a6b03b95dd00224ef1d00ab2a660375eb2d,
  0xf844e02ef15c20025a1d10253308b03fef8e9027074ce00ebbd7900339757021f2656035c0785003572ac02e2f4280003693901735b0d0023d2a203778ba700b44c40006f0e5500b1ca0b013baf130039e32e0116ffa702004e75000e2477027f755803ecc1a901de9f9f00d89b020275ac450094d84a,
  0x3e991f00ad383901003ebd01d6a78a037b8bd303aa84b701837ff20277b6b000ab4c6b024ab685003c4f0600b671410164c53100ebb10d001273e002d21b47036ea8d10110d03f00d8c3e4020b4f26001006c301001541038df170007517c80172bcfa015f435903ddf9160328bfdd02208b5203bdb915,
  0x3fd0cf010beb710328e6460386dc5300727c5403e98514039f33370244d675001ebe2101aaac6b001b1c9000d327a60132edd0035dd1a10321fdb003b2956001fa91ce008571cb00589e9100170a4b0027f00f00f8a2b101dde77001d83f2400afe61e01bf587102d22a5601ac887b0105b02703d011a4,
  0x132dc3034eeb0503a4aa9300058d840195898100dea5650297cf4001eedf990305abce03d1b6dd00130e3c036f4d9901204e84019e0e85011411ec01428ce700920e4601d563e703d0be2202f4937500109a6d00739d030183bfbc02dc259000a9ca2f02fd5af00268d1a203ffff2600f41d4103389491,
  0x1ed5ac01664b4c03cfd27803e1fc140151a7bd00644c48022e10c50274854003c287a40041d91600167c020115e21e02b5b4cd033a6aa903e6a6060277fb1d029c000e0393154403b7f22f01b5ce5c001e112b03282fed030d9621024cd93d03da64680196964601b5f9a101fb08ae01d4670d02f00816,
  0x32f457023f139202e3873300c610ca02cc3bab035c086600709ef4028fa83e0359946a038382860031ccae035afa2d0057fb1d01d24d400323162b0039462a03414f6002ab973b01a775a8021982c9000a073e0030219c02868be50030f890038821c102859b1003af6fa1035f982c021f001102bc7516,
  0x2af743030dbe700193c7a1000b0683021290d103a9bdb00242d83103db896701f2813e00f77a7f000f85e402241dc102fde94f01d840ad008faf5802366737001f5ece0369f84a0325ab96021e6713003af73401d6c3db02d45d750171cb2e018e0ccf027e8d3100e2faeb004ae47600692a1601dd1e77,
  0xfdbe0321b26903b004560153482002ca53c20346ba7101e6ee540324cb3e03a2ad3203ad8340003b94cf007adef7037cf300009f79ce012386df01802b28010caf85035eb07102187ed302dee1bd002c6d98025217fb0394a57f007fbef903cf11bc00a925bb024cff1b03ecd04e01f94dc5004b7804,
  0x309a03001c8efa0242187101c03fce023262de02e84363031f791d034eeab901a671da026feca0000f261d03b0d1850156bbf301babce703e7b7c400a8240100d08a57037b371b0097f6c1038646dd002f6817024773910366b7f2009ee65b0151db1903c9e48d01231d1c014cbcc902c792660300e7a7,
  0x2bf71d02559f6c024f7def03f425c2007a33e3010716f901d03f0a00dffd20012e798003470926001cf04201774c54015a2d9e00cbce140290e50d0379948103a6795302dc0c3302db7669012f3def00119ea900ba099c009d8a560339e23901467b7b0199c474006be1400195188200445a9d02fe038f,
  0xe06f603674dbf00d235ea023bc4ee000a33060289cb75029d131902d4066f007030b5031d202900037e240353cb16033e80bb00ee733b0023fcb2025f5b9b013e695400e0b5210308b81e022d7e830009f18f01f364a2007a88d000c74cb200bc6de702d85430035798930207db510243ec220245e1b1,
  0x94e7a03d069dd0086bfd20305935101c9950d00095d5e016e77ba032151b4033f6152020ad0db003b5372016d48e601498b30027060d000c47e41004fbb29013086b20301e60003b7482001ff37ef003af88f03cabd6c02ba091f01ab4073015bfa45030fd87003c97afb021ab96301912d9701c984b8,
  0x3d59640259081002da9e86024f6f3601728224009e2688021851ed027966100144589f005fe8e9002f57d3039f3cf601712443006b7ad602cd7f37038c1ba402959d0201f5831c037e8dbf036f7273000039dc02a945b2039583e301ffd0c801b8bb8d0272bf17016173e200595bdc026a644903f0fac3,
  0x2e6990089bbff00bf4c5e02509d6b0173ac55033eba5b02aa029e01b2fa0703543cf9013ceae300329bdb0316e724014e208b017c759a03242e23007a4ea30247017f0257b63c00cdffe700a939dc00072244037235fe02c1e70c003e925a03ae356d02d28cad03e9278900b2cdc401df67b803ed17ae,
  0x394629004abb9b037478a602aec49101db428f010b1c5b0108d66203115d72000de03101aaeab5000dc09b033ae561010c66910045988b000d50fa03e972ba00e08bda0158ff5101208b2002ac0f7b002cd2fc02dc722403180a7e0356caaf0002786503ae437703d5116900ca5837011ed7ea02d70159,
  0x248ec4037e876902c358f801a4296e00c8572f034a5c1b01d291fd037940f200d6b9c2023ca391000e3ce002b5cab9009d93c800592518023a966c02ccd0cf00efc6d803b3ac2600860835023ed4620028ecff03b73a8c016047a4014e598d029da2810199863002d4a10e0377430e00ede307039afa50,
  0x10846503255c37031ae97b017d667d019c4dce019e4dc20234a0bb01bb78da00b0567902846f070009b25701ce1fff0233e20803644a6c02dd912a0386f8f80001f7d70029ed610218e0290090fae30032e89c01ce6e6a0236dd0001a95bc202e8de08027c4a1d028fab6701e935c701bafc8703e9a6f8,
  0x29f9902d980b401fcb4e10105ea0802acedd802f4fb0c03006689001e107b012f275d0055cce8003b60f6035d71ce00a1a965035a955b0148529b02d1cc250046c30a0201b22200d33ff5014ae5a500199f740028ec3701f4a09c03ec92a403dce2060163917c038fffab024279630273eaf9038d77eb,
  0x21c4c50333e4a30141c5c30106d2dd02f7382803cea3ed02e60c2903a45d23003ab68a0194e5f5001d6f4101e1ff7a034f046802cfe7c9009f28f1012ce4dc03538f9002d681c1002cefe300396d42000b2815000e98210373ff05018f07fd036d24bf0048c378030dc05700ca2aeb000f7fad035572de,
  0x3a8c8c02ea5ae703099e3f01f6ed1903c1893502bce969036ab995020b76a501bc82e00061829b00098e0703d425ef0127f39202cffc4902e417bd03fe846f030888db03a0ab5d018c9a330328eaa3002a85ab009ce6100028721f03bce4f600c20b4500e10ddb022f071103859999037f611c02932b96,
  0x30ad5e0247678c03a6e37a02b637bb026bdca3019e7a75012120eb023b5d7e01675285039efa0b001573bc002dcd8803dd393f023bce4900ed972903cd40010078e19e025483900084d8d201f371eb0007117c02f6d11801118b26008302e700899ad5038593e100621e05002f50ca032309d803e98ef2,
  0xa7beb00ad7c6500c54410039067ee00cd9aba02cadec302a69c6f00503a1001f1470801c918b8003ebd2a0128bbb502c3516c0231502e010226900277b02801e26c5f02a61ea70217af5803e734620004c29500b4f9fe0078cb2901374a790180ccfc02167ca800aa66a70065505203be166b032fb441,
  0x11197201fd13c00103d3dd0223415902a264b8000cfb2a00ed920f00ce02d102f2f4d4017e43c0002776b303999fec01a6cece03fcc80f00e715a2002edb4101199b97006b8e0f01782509036833cc002a701c00903aee0153a4c6036e3c1701249f7a030bd35e0116baca02f5de650137b923030a181d,
  0x1ad29b0182b484036b01c503f314110362063e0081c8d8005e09b90051584503b6df9a034f2daa0010bc2b02c14c59001d628900d840e902f0375703480f0003079fc60341b58c004d22f60327046b00352a6b0127a6f6018c2bca0038cefa039dc611029b932701d44b7f02fadbec00b5684500ed593d,
  0x660da00f8e8dc01df1d9a01e17f840122aea401d075ea03f276ec005dc927026be1860342faed001a541c004a0bf80299b49602db5c4000365ccb0341ee220036ac440329726302daf0c801ec6ba700166a040020d3a3000d5888030e2bac004c096b02560cc3003826860039e5e40194f51803587d4c,
  0x3e9d2c00e735ae03cfbc0b02467e3a00cc682b006193040112e0bc03e6d7aa03adc4a3027439110011568a0069ade001d2298d01a921ce03bbc707000df95f0290c9c801c6ea2f004a0ed3021ce0b9000e4bfc03d5b0a3018aa3af01e6238c01ac27c502cad2f001df108f0227abf800bd0546030e7b1e,
  0x373f0c001ab21f036a819e03d24223028cda480388f1dd00fdfea8012ba06d009cd15e00d84c4f001b8f23015e90aa03dc76140086fa16013e8ab301a2589403d2d7eb0062617000deb9620133380a0033b2a202bba8bb0341edf2009a7ebc012c795202a24acd02fdc8b10282cf04023c6b1b0362d577,
  0x1611a01994a6701bd82f3003a4e2d03e09442021d64bc008ba92801f3c263039d5e5e00aef5690019f34a01a992ca02829fdd01848bc70370ec2402c2cd7402875e4602e9ff9e02b8dc8f035cd2f00000ad5403aad8fa0283307b0174a6620206d53e005b98b503f7faee004105e30137cdee0002512f,
  0x3eadf101b738c701b08877006d4e46038e8f150044bcdb011c98df03509bee002eb6b30362303600243c71021223cc028f881f03b751800271e80601af716501a2e50003b34f9100096b0c0196f571003dd233006abab1021592df02c1d7b30253e45001a4f1a003f40232012e59cd030f6dbf01fdf81d,
  0x18f8d302dd76f001fe52f702f2a7890384fc8c0038960e032c1d390299cc5b018f5bed00471b68002c0792032cfc120256af4600f88e9b00ee20460336a4c2000b699c0020fe7303530efc03eea3bd0035ddef01d8c6b70101defb023bc65b0379ba1103f21b2b021a14bd03e6bb730014295800e53868,
  0x11ca93023b554b0319e0b500f61f1301f1866b02c0ff7800f935de038a364303cd6d000264f01f0017bc7e00b7f85f037b5a8e02baa5dd021478dc0385f739033244ae005c727f02844ee1001b87120004fb22001d90d7007912f00142ed170296a9ab032ec592030c295802dfe2aa016ed194033e4e2d,
  0x213fb9015a23750104b91700743c630392776e0044bdbe0124808f0004c26e01c56e63012e122a0031b86a026fcc45015319dc0026070002b9c10700537f3f012afe5a0335191e0002088500440f210022bc42004dfcef02c1441e0204c7af01f840fd02f37cdb0364e86301af32cf02d10fdb03676838,
  0x17c07e0310cf3d00569576021e444300df6ec00197078103d4a17d0192f51302f02e01030fc0a80019b51402fdbdcb02fcad9402f0053f03ac797e02d5bc68009fb2e003ef30bd00c0e20e01828021002b6f220146dcc400e17c91038a559701ffa5cb037b3e3d02b7334803b8f88d0329257e0371092f,
  0x3fc4a6033927c30051d54d01063e4c010cf974010696990087038d032c0fbb018e04ea01b166fe0018019b03b8a05e037a740903023b9301270394039845af024caea702c598260332300100ec4c85003280660317475100ebf7b900cd806a0029478a03be130002cb119302d8f02803c7f346013aea2b,
  0x3d1eb30196782a00ef0a230242aef5001c66740234220d02e701d902abf566003b43b1009dfd59001fb86801817b6503d5a7fd0390a6e701ac736e0348bd5a01ff512e00c54a22009816d0014ab52700078ed7011f504a0139f90f023c11cd01ba83cc006358c701c11c2f0380f32803ecd56900c3d734,
  0x3a44330177890003666c3e02df683e0355d9de0172d2a80054d30603f8149b0238bb340006a1ed0029cc9102821d7901e15c12039a9a7f032f87e7016eddfb022e717503b7b4c40271877a01434f12003ca4c50341f4dc006c5be8037132d30052f8a801de8da1024e89f402cad0dc01bd582c034e946b,
  0x31c73e037a5bfa03fa93c003b3329d0303bb140390a87b02a3eeee0261cf0d00e0d47002634e1500299c7a0031bb320009033b0055b6b301b37b3700aa2a6b0346d73400105bf40028462c00384e9a002f3c6b037c01b801513c4001a4752400669bf400471c1301bca399009e4882007f6fa403930db4,
  0x3b38f103fd690100a54e6002c8debe0107e32201d7a4a4003f546901c22f37004739cc001ae53d00111de80111913101745ef60345382e03c7a4c5024d6e4b02886675032a14de0152095b010bea0e001c3e29004a10200287c30f00aba0cb01b4a0a602172ccb010cbb5c003bcae702bea1f5014d23f0,
  0x237f5200a86f1703c3e7c6024334c902853a0b0360eb0d03e8737c0346ed23024b677001c6bbfc002d6c3d01e3f28401b0a2c3009fe99903a9d8d700881cff02f347df02c0fc5e01a564280150db400037fea7003c5dca014fdce103ca20ca0353940a020f2c000359ef8f03e660dc0174870203db8cf0,
  0x1088b4037701ab00b360c200ec3604022dd074014238c403f88710022a289102d68ab003253124002fe41c02c39ed9002daf0e020dfef702df9f4700e76e1a02b8ab7f006c9bb603df10c201399d0e0024b4ed0085888d0061a370006b400602763bea018a218a028e42c601a4167a01e60cee00a7950a,
  0x227d6901d76af20338f386029746bd00154c9a035ec43001bf75750288eeaf03adf31d02ebb0d90020835d00a7e7ae01fb8a2500a9a54503e0468400292f31032c183d02f98fd103e5c4ea00d0c9520033942f0299a8b303451b67019c455d00ca6c860259f601024039cd03c8332f02ba97d2035f3cf1,
  0x2563ea02fd501d03659c3a01e579280200a6ac0178b97b03ec0304035a9c0c024e09bc010418cb0011b28700dd9df6006ad032036dfcd602ff8f630309d2100121ba3b01871ab201a1e8eb00ccd3890012a7a900eeb02700b27ab802b647fe02ca11d801416c400161b206005f4d0102b770ce02e97a8c,
  0x2eaa5900889b78023aea2302426106022151c600e87719019af7ef009c727700731fd300811de2001f9c1001671859004870640085864b03f705220160a45003f2d85e03f692990393051b03946d86003fc7250181eef700fadb0302f384b9017ef799015d9c4003de6ae7011c1d5b011beebd01cdc6ec,
  0x1bcce00047f0ae008eb6b103bde6a701107eeb02a6273c03b83ea103aba5290174f5fe02ca6b250014cf1301686215000df652029df2d700679b1902bb4b4002d4f8dc009db1b502664c0700b1c5fb0034b118038bea16024fc098007d3c4a0307595a03fa09cd001e24650014e99a021b1e5e03b0d9ef,
  0x3425dc01a5c3aa03d575ba0356306202b0f9e800eca00800a92f9901a94921026b9a1c0120ddb500346b8703f1226803f547cd03bade2701ebade703160fc10391e82f011a1af901c6e18a01cea2cf003d93d8018ba6f50301b4a902473ab0001a6fa5012222b70048ea5700568eca01fe81f9014f5bcb,
  0x211eb1018a812201e1211e00b0f38e035fa9410395734403b21ad30184b65803e749340028de3900064ef40386c1090266985d00a8b2f8002c9fd1001e3c470342c32b00219b1500cbf9a00278f60b000e903600c5fbf9033fce8601e423420189255e01e79ebd016d1f910233bf3803e69eac03b62407,
  0x3ec6b20005e72d0367ab8e02b3ed54010ddd7b0088505e002891910385d036009bdb7703bb2bc40023336c03fd3672022cb477009538f602293d8c00cb87cc03e733b2027abdc8014a84a800a5d18e0035ead202cdb7ca01d6a20b01833ab40354cef400f173bd0274129001dca43c008dc9a70167a1d4,
  0x1ac47401d43b5101c805fe01dd5b8f00b10cab02c3e4a303f85e62020924e0011cf8ff00cb62e500335455034b66e900c8743500985d7202797708029ea00e00353139004b46d703445a6f004d566a0020cbb600920e76016fdcf30217c4b30077a81d0265ba08017fb5b903d797b100d80a1a021992d7,
  0x74595020396b702ac3b930101b47402de7a160048554e00b67ace02661e0a018c735001d15a0d0032a2af02cb222a0139e911023720b903a850e3038a09050118f9a502b8fd8600867b2103021b89001fcecf024549af018ae4f903ef44d2027ba11501f07c360097579402e6341501467fab0176d0cd,
  0x2f5ab700efcd30020e1d1300d9ca2c01500ca000ab6bc302b81aee0190ccb1026c68ec03f086b9001b2acf00b402050122fc110015f09900b8004c0003c4e5009f3ca000d3c9bf0180c0c7009aee3a003c74ac00d3f7c6005a4ae600f1745103735cbe005f35090050642c03634c4103e46a7801a7b7c6,
  0x1f46e9021368f003acbcbf0290d75402eedab5001a2f3303cf821702e9b4c7034efbe2013a0910002c260f0173048402be0c99005bac18013ebd1b03ecea2201e14aee0377dc7203eac3d4014138ce0016411d0317aee101b8404b00d5ab2b036decd803a8868701c1e5fd01b9eb1c03b399660344065a,
  0x337fbb031a11b101918354004001770130d10402a2e9a40122ec97012730a601abfad302bf6d590039f5be0164245c02e882ce03ae3c5c0226755f025f5cfc002e048c0321d31b03e5819e02465a53002646cb00688c48033d3fd302d93b8d002c7e750268bf1e01c5aed800255f9401945af703739800]

end Tss.Secp
