import Verif.Random.Group
import Verif.Random.Check
import Verif.Random.Factors

/-!
The full period of a state transition, with the data for the kernel to check it.
-/
set_option exponentiation.threshold 600
namespace Verif.Random

/-- Certificate for the transition of `x512`. -/
def cert_x512 : Cert where
  p := 0x10000500055d8b77f8f2d27268ce4b20b51ba7c47edc758adf11eef832e32518f7a67058e7bbab6f0f05e63fca6d7b7817fdc78d886f00c63cf3cff0c00000001
  mu := 0x10000500044d8b22f9a3520a35a819a8d8ca188e5909bf4a3730d0b727ddf2fd0db1800ed12b6da5bf81252241d6275ec585456dff6dbd103eb7ff93e81c990bd
  K := [
    0x1,
    0x100000000000000010000000000000001,
    0x800000000000000000100000000000000010000000000000000000000000000000000000000000000010000000000000001,
    0x10000000000000001000000000000000100000000000000000000000000000801,
    0x2000000000000000000001000000000000000000000000000000010000000000000000000000000000080000000000000008000000000000000801,
    0x400000000000000000000600001000000000000080000000000000008010000000000000001000000000000000100000000000008010000000000000800,
    0x80000000002000000000040000200800000000000000000100000000000008000000000000000800000000000000080100000000000000000000000000600801,
    0x401001000008000040000000000000000000000000100000000000008010000000000000000000000000060000000000000006000000000040000400001,
    0x80200200000000008000000200100000000000000060000100000000006008000000000000000801000004000020000100000400004000018000000000400001,
    0x40000001003004000000020000100001000004000020000000000400004008000000000000600001800004000060000080000000002000010000000200500001,
    0x200a00802800004000020000400c00800004000000000180000000004008010000040000200801800004020030000100000402001000000000020200400000,
    0xc01001010020040140001c0000480401800000020010000100000002005008008000040000600000800006000070000180000202006000014000000200000c00,
    0xa0200800802802000000090200080800000002000070000000000202002008008000040200300800c000060200700c014000040000100c0000001c0200480801,
    0x805003014004040120000500007002004000060000600c0040000402004004008000060000100000c0001a000038040080001e00002808000000150000400001,
    0xa028028080200a0020a0000000240601c00018000048040080001c0200080000c000020200500400c0000f00007804014000110000500c012000100000300201,
    0x10500e01c00c050040000080003400018000090000180801000015020010080140001e0000580400e0001f0000480600a0000e0000180a0100a0100000140400,
    0x380a80200a0a02102010810030090120000700000002002000120200100a0140000b0200480c01e0a00f00005c020040a001000044080140a0108000200401,
    0x30440840c0680700501011010032070260a0060000440a0140a01402005400006000190000580600a0001f80007c0601e0a01e8000380e005080000100100d00,
    0x28180600200a088200a000400072060280001880007c0401c0a00c820028040120a00d02000c0600f0801f81006c0b0110200101005405010090110000220a02,
    0x604400c1d041170108100340805c008090201981002801005080150300000501e000018000240201f0100e81004e0103e0300f80001a04020030114000500c00,
    0x283a0ca2a0100880082802018019058070101601003205022090030200320003b080148300240700f0201fc1001e0d03101010410004090108201200800c0c80,
    0x4340681f013174310101220006502006000064000360c034090054200040c009010178100160703f8000dc180120183e8101d80801608820008100100150900,
    0x201e00a20812848204d807204024024088101bc080200481c8801e8280240881d08012c300120b03f8081dc08007088310180040001100011018022100700b00,
    0x4c210011f03e13c234441541c02485c198081b80803104805088050200150c0118000c4180360382e8101fe180770383f8081fa18066038214c0050140540940,
    0x8a0e0102080a8421209815128030858160000421005707023088012300420b034888094380230f83fcd01ae0c0230ac304d80541404509412084104080708c81,
    0x8310531745850c1223417512053062364d8016040120e4354500043405005407800086080610480dc540aa040538642d88c0fe100168f03001c055200400900,
    0xaa3e872a882e0621327a120060124a62bc540e8140048140e8040ec2005484002c500823c03101c0dc480ff240138f4204c40013400500412228120320130f23,
    0xe12903e0fc30cdd194140709000f4583b8900e92000181015094005000550501c45406e1c06585c0fe601df160008061faa41de2200580201052000340014541,
    0xa0278aa90224afa091861308105b0d92423413702004012112a013202051042094c006b1c03080c1ee321df22001c52014960010000445008446070a400e00c2,
    0x83184285ec269cf115611f10f06722f356a2136020004421440200400051400186601591e06184e16a741af8600fc5e27ee21ae8600b80e215c0140250550d50,
    0xe28188e30200af0a00ce0b04a0272ae328400988400bc4c36c4209c8405a84c2c26215d1e030c4e07fb40efa305ac8b2015614125051485000a10b12a0322fa3,
    0xa65c460d7d441c73908d04b4c855c10929161d9a105a8c934554145250000851ae201c19a06a40227f1505e89068e7117e4311fac039af41006f001600150540,
    0x429ba5cb8a210f8b807e88a1d801955857550c60d06323d21201183280632b83eb74084bf06a48737f7a05fe907de2510139140450444d1090e204a2c840c449,
    0xb00f4968ff153df5e13107a3802252a0566c186480276ec2446d005600444541f9751079700963f0ef98015c583d2618eea1155808796b08109c8c0310415111,
    0x2231e38bc0a92f4ba0e19ef1c4664ca5b8cd0d3c885e05cafca00d6a881a408bbd18102f704d26b1ff048d5f487c770911a5980740051c01f1ad8ba0906303b1,
    0x74961c813f53e53e130857555c624d5fa968953bc85b19cb55c898514041594041b81d45f857663a0ea906ffd81f74b81f0c9ef8981a68b9514c155154054f14,
    0x3898e0906086a5c042d192514823065bb6640bc350417172e3ac93921000283214708514b8163f7a5fe513ae8c1a3bac40e98d5614005315424442040867024b,
    0xb09b121357459d0c22534775922b34e1f68d8695444122671521150754410a55f7dc1686a81617481da151aa847d39e75d48dcfc907d6af20095d05540440410,
    0x92bfea714888e8e023f3a763862f2ea5abc55a69d43c4895bee44f6e807d42c0e2fd0381fc571d1d1d3481ffc4393df7407c5d035444570522c69720d26f30f1,
    0x3e169bfebfae085db15954311048f358ebb9076a80781f90555d480400055d505c194cef7c2a5fdd3ff216df16560d067f8e4bdc42125a030135304354401e54,
    0xe238708af00c41faa1086130411cbcd894374cb6c26a4593c16a04b2c26f18c3094404eb7c2f028d3ec7269c4216135241496d4000044951b06c64724408ed0c,
    0x8c3184686efd6f8e011e1551ef7577afd57e21f6c26e0cc21414254400011401c82e0059be401a4e8eab42ee061efe5ecfe22fae061ab70f11640542051451d4,
    0x863a17aeb80883f0547ce150ea707a6f1a9c0e58c474bbcd0e882b1cc475afccdc3a251dbe410e4f9fcf47ac030aaf8a502d680205101885107a1013ea61267b,
    0x5660c931b7eb4006653cc3cb6cfddfd04ab1665ac164a34844394d4605110c84d2b20e017a34a1838fb557bfe96b89f1df983fbdec7b91744406f14300115c14,
    0xe619bbfc30b09a582013eb987da99e55952959e72d1f323cd11014a1280e3eb8968b43477f25ad07cbb3a6fce97ad5e5142b994105014491213a32886cec83c4,
    0x1769f2a6ebee125f0c4b1b0b3818210a8102c0a6281e76ad5012d40700104815479b57e6572b93bfea89947485965621fea20d35809712b00129d91011451d91,
    0xa81798b03c0a1e544cd0124f3c4820ea7fa0cd93a889641d2fb21994a8992c08178983e1573bdbaaeba04d6494d34bb015024051144459000d62c21b295d3c9b,
    0x6a2d6638bfd7f3c3e14c81bc75b1e5146aa28dc2bccd3d1d4510945614541115383b9a75ffa2f7a2e6c28f7fbd8e772bf3c0cf2ea9ca2e2b41b2d05415151c71,
    0x89a80ea08c2a42dfb52308bf64b5b975996242ec15071336dc72d6ba015302237d2b0e23ebf6e6b7a7705f2ba89b6b5a54b0900501514571a0fe51e860a4f965,
    0x106cfb948d1e9060c52020368942951dcdd2d2e91456564711a0045315055464a159d899eaa5e494078e0ec3c83f923f533e9ec6c96ed74e15dd595704114010,
    0x61acf76e9e9626a480e33570984391e99eec4c2fdd3881098f4c487cc83dd56db0f9dccaffa0b0f012535794cc2ed22f416dc95205400561d0fd79618d53d50d,
    0x748c26d2ca9a2aa53ffc8efef95e0fbddf81857dd878846850cdcd01104551053fb594b6379d659dc2ae2ef5417d072283c3e7a7443d0243501e4c11151044e4,
    0x4c9fa0e9e70967366bf806bbec4b58855c4262da9c45862b0c8fafdb8c00d72e6f7859b727d8349892b062e4546d43c611738543105041856fe2c2efec4e4b59,
    0x2bd81a2a75c47cffd435e767ae96232b4d31e7998c15c7ae41be48420015108063f7f66cabd8e3b6fd52a00bb823089fec212548a873491a041ac454000513dc,
    0x88dbc393e92905fd95304e62eac26c62a110c2d124668eb4e0ae8a9324739e342249be2eabcdf336f948645fb8261b431569411710555259d02f2333ae9330f7,
    0xb7a85c9ed975524f75aa8b5d02b452a9b47983c63433dced54d70955104042d9c2e734bd8fbe6d022967476c16b52bb43c0e067b06e079ed451f6d5144515c95,
    0x46ad967e9aea9ed70d63b4957b005e4887785bd32d3a500dca08ce82293e7d996303de89ffe2fdb6c782a3d52e4772150762c4654040ecc30b5e60c46e50e3c,
    0x91eeca10c6d24b5c53eeed660196e3d2d801a9fb66d7abcc04a1251344444c154a90b100bd6dc8025ccdcc311401791d0cbbe077400577d14063dd4511550bd8,
    0x620f77f06bdb6fcf57932c765197e88cd4ba498c26d2dc1dd01b6c9f629690084e319413f92984171cae1174055472c51015f10345510514138d302310c3e80a,
    0x7c725e5d7b0587dcd425d5bf4b4da354c4afb88f6383d90914b4d410011549019e2af88c9bbf141f0f23215715979acf1f36d05450c69fdb441e1c5541540086,
    0xda3c1752787c4b1480ffd1e89f09e897db9968db334546d2cf2dbccb32500fd38a9e2c9c9aaa5d1e4b3d3d0254c39a49540bed5604050592903bc9ea0a19a3d2,
    0x79dc5ac2c14a14478f375a0655f36e9d8f92858d3740434040bf394605104c9345b39057a8fa52cddb06f4e85eda399b8f0d19be5adf3c0910c4180295104b45,
    0x52ad3608d1478df9db956245c5a36017009f9c336d9f7f494020a575688f33da050ca911adea1e5ecbc2eceacbca72de44cff55491154ed79ff34204c0e325d8,
    0xe32f95b274eaf433f39e59d413784bb044506967fc8a319e0470cc1294050244452c0c64c5652d845431aeee0b29570610fe5bba9a3c19d144662041054045cf,
    0x3ad631fb36f4c073a74014d342391a0754ae32dd66b6284f50defecff2b32a0b415cc07651602fc010578eaf0e6912c900a9d51594550b18b7f8799516380e7f,
    0x31acf29df66f715e926249fc8df535b45407e7c8f2e3235704d919070050095c11823eb9a3d305cba7aff73a18511cb6a706222f8c0417ae10b86d4654011478,
    0x848ab78e92a405d9835df9b8f8f43121f301c5e77ee734f9f7d8dce07eb73da5155b27bea3830c97b7179a7c4c5008ce1011b853c0541f6082da24bad9f421cc,
    0x60624e129d23a329f4ef78a6928386fe3107db4beb32b9914c8a154c004163ce283fb5edd34313235cdbec695a4290225dc069555f036620187dd02210010ed,
    0xf7fe9cc1601c90bb9bff829a1c7d236fc6cc7b21eb431dfbd204da752b470bc7f64b5a0a1d30270e344a63c4b4a439ef11966551e1540f8d9ec92a8848282882,
    0xd96fa596f6a036b82960cb5bc12dfcdad75a1e700a171276055ec405215019b1244f807f36772cc9aa83494cfc8c116dbb152c1d1dd81ee00536a81254550bed,
    0xbd381ae34e3fa4047d20065cc10de6ab6c4f326d17cf0c966911f668369f15272111447a17273578afb5e15ea8d91a8014a0cd43b50104602c5663499578f737,
    0xd32b23122f93852be763456d903677d778efff2ea2ce08f611fe094694511dd14800b21221b8205f83e382173da1edb797434f5488a0e9d7517665155475119c,
    0x2001c574ae9365726632702899536aa3efacb07a2a6ee121fe52b93cbe3ffcf059febb54b5e93d8ed295e70269d4fc2b45d6a856e17415fcb6152078c443664b,
    0xc4036f4b1f8f3fefaa8fb9032286d25faa7a182ccb1af4dd5428a1107525082da7ac02680bd6c17e6480c77aad979a6021566f2c4ce38f9cd02750505d100ce8,
    0xa4628b3fd22c75ed7a59b6472aa3ccce8b2c770087f97b41df04d610f2dc736cf384a3787ef3c953b4a7972af087968895f1f806bc6419147aa8e9537f96deb7,
    0x8f59bf797cafcc5a27fabe3a6b4d0701edd8f063b9d6255c1d95916c94111392c8075688c2fba3fce0f7e798f11483f5bfe867f3375512b00f15f1455351279,
    0xd3e37ca8df448ebd7239bce717d8ce8a4523097908e8337e84fa506fc1a92247ed592c7e456eab06cefe216dda245a469500a712e9510b6da28ef4f7f381c209,
    0x1ad34544b767d74a49bb7b7b05a98331d023ae6be1b9381354d9fe0420101a5469a37c1184c789416c70d59a29a5984ff9707288c0f49322d0b74810e4590c83,
    0x2aa6740bc16e6e07b95f04299290cd3a2953dce3214dab317d8a22e7015db1653d7a8215a4d79315bcc79d8acdfc94cc45b7ef020d0807ee990c336be1f08fb2,
    0xc3ccb73fa242fb9e11fbe25fb71640286ce433e12c45acdf116e11062d181dba40f0a0f2a58a227025cbaee12c0c1b7e607c41e321041c902053374273604288,
    0xf9a0f91b3dd0678270c8ec9a903a19c60c9872020d41b04f1df663042059adf5519eb1f488923fca059899a35f6c59f665e4d8407e68456631a8d51dc47602a0,
    0x1df6a84b091507c9fe34a7866753718e697caa427329f529748ac946537058dc4c68d2f0a8cb923f34304cbe9b1a5b5651d494fee5721e3041603987544c1b66,
    0x57743bd2beca33cf0b0d2a16567c647838a83ebc965beb194c22f7fac52bb3c538e21bb6fbbbcae375507539cf5640302484e1c72a245e00bf549e01331f6ae8,
    0xc88ae3f258df2c44395332331fd9d541c2cdf7bbc7fb519500e2881795406dc74c0ec4c3e907926ca04eb38fc492ad8ee800affd66d74d8b459b41765630e90,
    0x4e6363b17c4f09083b8a8fe34146d6b6f2acd5846a12c1c1a2a2fd051346c71d24cec4cd47c47ffa7e5d5f2f992a244890dd55d04f475090f7cc8734549e93c4,
    0xef87716ede4d55b4bb89aae5404920446271805425559151c0d37d513613564c866c39c85482b8e78991d81bcdb4b78c194c8dcb82f3e71ccc4608d715d84572,
    0x14d159fdaa6d3d69b60cbe5455be2d177b3d0d9fa7a6764dbbee70ce91b5200146bf44996291eeab45d7d0ccd86cf2fe5c9b5d075a9f15e277cfa23255916536,
    0xac991f9a784a4dc33e8a99e465edeed527a65098fd3963af9c4820566c8c43aefd513457f324ceaa321872fe8dfd97c86e832ff9d762822ac1c31c66002f4821,
    0x79b16dd06d2a3905763d7c92fa923dbc49257f612a5be185d56d5f3746d7a22b611914019fa88d04f3db6e988dd2dfe99d5841615ab05dc3ff49858265c2a6f4,
    0x3a3e50568023150fac9e0f968afe91bdd47d3e0070ebbc4601106137363c1e6db4744b36d97f2f2f0c92eb1ae810791d91caaa7bb2a024de8974f9109f509b48,
    0x6c0b2b874411c9437787c963d2845b9d45b7947bc24b989844a7f54cf47786f5b5642a01ef43314285e6120a7740e255142cb871c5e0c68b25eaf68615ae0af5,
    0x30d56a5f003b2de0cb2b46ca7fe2fb9c519b2c0a07ab5e13153cd946f3dcd8e6f1c3df4d1b34b7b7a00ce48c62eee8a0b4205cfda70e2e2b526d3fe5c72a5168,
    0xa24361f34af822d608da1ee0159c39cbe5bb70f7a0a57038f087a9b15379a8dee4ff060be8e86f51f261db69a5c4b9c84641879402ca97e39946792fb8c8aaf4,
    0xff144209b0e8d78c425ad90ee3336c4ca3faf763a26fe7db537d5ed2f1164f051478afbabb91c78f6b27a2461d0c133c2d6625d21fc684df919c67cfad54933f,
    0xb6616f22007d6d9d9818a443dc6c844f8e9cd2b1bda96304dde18c634cbf2c014705f1684a87888afabbc589b0588003d7dde05baf9e04dcd3c6bec14e67ff73,
    0xc9495f5ca2fe2c93867ee77566b08158594132ea123767d884a0be895e884bd99ae47d0b0638a48b297d7b48fe3f7f70fea09b1351a17bac4bde1a82920b7b3c,
    0x4af498d1030a75a4d10b5fafc9ab6940a7e1a9f943961c74234117701d1e57ad1e44c38258b0ef5262a361ca6c34044c9c03fad93d957fe0cda0fdf7f4bbfa64,
    0x6a6b77535eca960b9a6dcd1039eef3b63be253207e03639418a34450631d34393d05d4f245aeb8ffaf039c3d988ffe28330066e4a51a81c81caba2583d109324,
    0x74236c85de8aedd4ce344b99f6849d4208e235c4db19e25c10417194b804d66525a690a226b38cc6b3a83e65a59f6d0c80a858810085ecc486c66f4804fe6092,
    0x84ff072c224a30bfdd75bfba21dbdc50884a6d45db9c0e98980b1cd16398d8fd35e7e1369eb75aa3356e512da1610d9eb5c609aca1e4e15a48f224d1f27afdd0,
    0xc3579fad4396231c5c203cafba2c664c3d8c64e97a78efc2a587783819e0373fadecfde7fd2f825e7d9c75fc531bf04ec85a7c50f2ff111495879b6bd3a12180,
    0x4957d734284dd76ce179d972fc1d670ef5d618b98887fed6505160819167c9e9086b85dfe4cfb561e81bee9780bad1ce204192c77245c0dac9a7a7c4698d47cc,
    0x5d79904c41a8278aacd3b00b1e99d503d5978a7efac23e0c85c6eaff6ba5f7e5583ae55e75a87c8821bc4953e937960201fddb949b7256d828de7eb6959020c2,
    0xa246800b6040a86e474c61c2b82f4e01d46a51ea61b068d451acbb150a159f31ddfc0fa11e0d8b6d096237e57ca7b6c0089fec71e7d5e018840dcebd8b09f5c1,
    0xf54fc9a4606ff751c79561566962ad02dcf5bd9b866588cc8d59068e8c7017fd8c50b4b41418145c8d6ff958f7ae430185f01529107ba319c341af7f3326bbc0,
    0xa20e8efc61af23ef3e2354c5c00d860f5905a8b2961e2bd5d45cae3c1a6e3c280109b23a986803a14e2e5627c488f8c1cbde430ed4f35bd804d4ce295a4416c2,
    0x98df38e409d460e76f3c1ea4a314664192dbebbc42ed700d4687458058834c25d5551c0682063f894afa980e9eccee038124db004a3fb5db3af79aec9a4990cd,
    0x9c517a4bedc9b144046e3817d568e12f13ff30bc08d2c5d65578753c505189f393d25986da8573ac700d02e204857ecef129d9e24ebacb1555cb8448395df68c,
    0x79a6e9985d01f064452209af347c8bc7e2d6e95e46680ec3b7ae9c6216398730c6aa2cba8ad4fa5f25c686aa3dd88842d4ef5f487362435751a5bc5fec3517a3,
    0xa45afaa14777e19880d48f16f1b339fc3639b616350a4d9481972a742333caa47104b0d89ced7d6f74633af5d1ed9fe1a08c65bda28fdcb61487b5f0d8499c64,
    0x4f3b73539efaabc936a7287b54cc150b96b5d3ab978591221722f9dfb4b65b86f0939aacbfdeb7cb60e48f0509a40385c068eab8ab2bdf3394533ae629faa598,
    0x3fe424838057f51dce5a04dd2b11910956dd39133cae4e1141ffc0cc88181597e7b163730b68ec4df4b7b5e3205ea61d34df5f5b8b75792ea2f4129d7d36b093,
    0xfe1167e32a1b0aa8ecf59f760be7f85962026648b7db373f23fda6843fc322a8a64ea3bf8370f9da5643a77e5d68168e629cf825d61d6fa06cae16405627219a,
    0x8b952d7e6e4b0bf8536b759a49f10b2b009e9e6d61c6589f236338e95e057a3785b3053bbcb3db723aedb13e0b4f37145871491bdd5258b4805b89365dc0d9c3,
    0x8ba5f1a1141c4c5d705833509cc7ba158efd776bc94002b7b8cef9fe2917a1ca6d03dd2e2b6a145bab63808568feed7e2c771138bddb663d330fcac1431d2e8,
    0x591e7eecb015cd4c42e77da317880621ba28a6653749b648c1a449fad5d8cc54dd5cd24d0027db596986c4a442be3c3f8b41b5b7c9638a5c04357f991dfda949,
    0x94360642c2b08855cb086f49bbe8f034316913d2fe2a3c14f0cd5a282bf2f0401cf89bb7d5ff170d6db3bb3d5f439576e6f20e8a96201f2a46d2023a0a75af68,
    0xbea2e9f3eb1119d3d3b2a60dac5e3f6cd79b1d58680a233e2756477043f8d37eec35c19ffe0de74d2b61b90755363a1ecd93b78dc31625348dda6d73b19d5f5c,
    0xd82a39fd3ca52e51c99e079086b61f21a08aad5ab1c060a3d5eeda5e8e4d574cb6386efbdf53433a6bbd474e4ab65426b2863f927bd40765e68cb7e1dc36030,
    0xae0dc7ecdad8dc2499670c348c57b7247120c92c8ca1467c4c7e248964459308f63d6b4a5511e147f8d31f0af968057293fb7cf3ded5450442f12b0715a801c2,
    0x94d1f927ac6b06151ab03e64a9b6aa47e2dbb5df52740378aea5915636319070ba434fc33154724fba22340decc004b029d948fe321541b4db96273399ffb6e6,
    0xdc93a7ee8b45d256fe6579109e847e1dcb02fd21606142cc65a76c775650d2bc14e6de950765e23f61b4133e753fb256486d5bc0472af3e2c126195730491ca1,
    0x2f7184060d390eaf5cce0252453b5e74836fa6e1274bb12ee6c8ca96711b63927141b2e251353083a0920a694576aef7e8ff51a9025c5d153f436047aecd62bc,
    0xdc8b8187c58bc606f8737ca4fbdfc8586b90f7482517ec3b8d583dde540c8fa997897874202e53119fd16a2eebbbcc4b772e3b87e9e7915e638d6215ebf63cc8,
    0x3e7cb4b2a2e9605fc2adba1822f0ad4f1cbecccfccf07d6591e6f11198fcf2cc1ad145aa7422dcb8fc5c083b004df0838b7233bce9aa61dd9bfe1eb11029f490,
    0x231ad9779ce495be779dac4da735f9a897ccff73255a1cb8062a0e62bda6ee748b37b4bbecde2e7467a2168a10640413ecd02536f9ce65ce5953a4a932d959df,
    0xb98e0757795505ad5e99764fa42132627b1cda45dc9479767d36d427613297028d1dbad95178c0003ef1b22322bd5dccd2219715db7338022ece08e495eca077,
    0xb1c505b8b5a6927766b2651a15cce7cfa93d4d5007e74174d40b997766d5d676f02b6efe304a5702103fbac7b751fdbbc21e2dd26c22c5b970577eab31cd9215,
    0x68d0bd98aea83dcdd6329d3d860deaba6b2360826bc584cdbf28f9f50d1052bb2420f789569f81746068c46c869c6faea276e9beeabeaa1716e51bb1240175da,
    0x423f06f797299e092d8f20798b6aee03c955893c817b2eda767d70c98c6b7c619b080e7c5b8fd3cf768ddfdda29d1a74d4fb36634823b063c0d7868ca20c9f60,
    0x117994c9b8db26e12d0b32b35a4fbbc51daebf5fc9589eb96bd3cf964533e2d8ed757eb5d7e4afaeb65a59510091851462a16f3248b23577ed58a6f529667163,
    0x4f8de7f129ff819dda7e4a8aa4db8a8a7f0fd06d81eaabce14dc1ffbc4d9491686a6b12392d74d765b02ffa429f7f47739a390966145c100c05394467329caa6,
    0xda5765199d79256a0fd1af5231fb466146ac40fbe0af6ace52705f00247623d8927aaed8560e04609b516be25ade3ed1a2f2fb743b9bffd11a2ddeccd7f2402c,
    0x78396ee4214905b9d027c54f2572ef6be45ebb8fdb34951fb62ee48fff42b6c7c00af1d8727827b8817cb52e8d2c7efd238e4e5ab6b7812c15fc719ee609064d,
    0xe78a6624403706731a668fc6ca4aad6ac7d0f5d56d83143371fe115a92c1a2f4762415578d3a917f9480c4b06b2578b0b70e8aeadd92f99cc5dbb4d1c37be926,
    0x6e79a1b2e19235ceff9faa59908bda6670de7f3fb011edaf01206e6522d04f5b07da040d1ffb338b515b7061a85e9196e655fa8b75cc680adfbd3b170931444c,
    0xb7ffcd20c8ad347439e854480da28c23968b85b4c5dd85a597abebd1e70dcafe06fa6a683d2b7cd08ee64b76a16fd5da68b3b1fdd4a3bdd02022914e99ba9e2a,
    0xe91eb0c9149620b415621da5e5ca4487fe383449117e38756993df98f673f28b915181b9da26b62eaec4da3838d54bf0c6776bc5ec76f62019cac50694181209,
    0x2e19d612d34f09e6d67303b69ccbd21d384f5f8cfd08ce5551dc80140b7b3cdef8c25e212c5544a5b70e1f3eaccd59f9717974fb40bbafd90ca8d8a371d2568e,
    0x67fe349a87adb71cb0f5180beaf575e49362b77bdb3618c18eaab63b6c85d52a91ede35272e787bbba6c79ddd1f0f77cadfb3669da4a0aedadbdb15ed198493,
    0xaf91ea946155ec2799f5581114fe845483e998112017c1229b03337296df9c70b1f4755691e62529617d1c8830068be4aba2afeeada22b4a11d48a9553b6d3cd,
    0xf85e167921c3ccb392efb2bef5171d5a284b37ff8db5ea68b348048d1b6a76182af746240739b95970a9961d63b05829db0b39f3ce1273638821d28447485799,
    0xba4df4ebd5a552a19897c93407670b0f3400e0c43a7990b40080a8158cdef1399bf42a91c53cf41f888449924f80fb023837d6aeaea7cd31ace603ab25f4ac3,
    0xbcf421334d7243739079b623b29972dbd0c37366a94de5d890cb79e7f1800acbd9b74828449e2052e24624a396a74573c1c559c97c4d39a003471ca9f2293a73,
    0x23613d8c642ca86ddff494dad2b811fa11062aafd500dc7881cd53482480d6b3497c31cfb51e2a99e101380a648e7f0020c461c318c346a0933eaa8a40b048a8,
    0x887a26505e8d43a196e7805f19bf930e31c24b6ccdc39ad8b00f1824e9434c6bc8b16287919efc2a723f9280243e37a852fbf3433cfd71084cca3e5092085952,
    0x9af9e277f168196809b6dd6f3d246c856339b82ff13eebd0d336a00b187da7bb78be7aa378ddb0413ef5acd0b6366efa6c0e5f938acb1ff2da2dbe0f8bb7ca5c,
    0x1a9136b5253c48f3990dd9edec6e55ac0f37e7bc7bf5f422dc0147b763885399ab88daa860a017fae4d812df3d81a4a688d64d4cb74abb54d39b6360b693a6d9,
    0x83a8b38be136233d9a7e504afc28aaa587e1aaf0ccbf4f765be0ed47af371cef77899d1f03284463374371bf8b12027fbf953cf33c58b92b4a96ba8d5afdf375,
    0xd29c43ccebde8425c7b8e73cdbff95fb38749603f0e7f65d63947b445fd0eab22c697058ac1f588c7dd5cb32d1eff10ac240f7c1edb74821d0e8eac7a6d559d0,
    0x7288f83b953fdea63ef3dbc5267f4152fa3461c21d50be7c99a01a86428054ce4ffd0b1cf3cfb23ead3d21f5773aa8da6f7dd6349a8de0fb17500dfb7d2acc2b,
    0x64ecde0d9307aebeed378c362f88f5ca9549b7f687dd5e870ce9ad70c55d0a49d65d119ab14fe6f0ba6d2c0e0a1064f1d510fa3a909d840a29a3d63e5b558d79,
    0xf2e4490909d65639d8579725e1e0ed8440594dcc1740da8d4cb0e0bcd21dd0c4dab4bcea7412ecb993cefa305145e98846de000ac1d86d82c4945a0874dd78b3,
    0xbc6fb89750050a1e000734c85f48470406874dc6d698b70f4a37ad7a048567cb96045c56a60f3c7d575aa0382598913b1184a032e440fcb91cc3cd2d953d9537,
    0x983ec146cc654d7c0f6d472baea7b9671703edf432d84bb65d34408e365d2c7ddc33f12ca28a5bb64b996d15b0a5040c5a1dcd2754e5f8b51cc4f9e5ca75d233,
    0xd4ddde2d94881a6a5094de6ef8d07ad4d1e20d3663db303102a605d50609f7e8107b1a294d777cb575d94f07ad0d63f0d4059d72e352e8a13a9bece64d26b54,
    0x8809b3fecdb1894d2b8d98d70b66a1c0405e790448089d8950741959186802f7912dd1ffc4b7e8b544f42a3e1e02bd6b49b473e9303793e1b6a0f3288b5f6cf9,
    0x402120cc3f03248c9136b357beffc83809ea0aed783f0e68599e13b460570c9fc159c8a6dcdfea42f254d916955dd192bbe0aaffa56a42739d2d6bff8039cd39,
    0xd5c7b99d9d02f1d1519a6160f309ef6b20aa012dd554c1beb94b3a6bd02408498c7db12bc88e6dd6f79b2e915641cabd4991816b00e5ed80c1bd8a83ec60501,
    0x116cab193812b3744842b31d189e97366693b8046d5b12c38d070ba2d0595247735368b4018aa65963626a412ba219aab7fb72579bac477219027ebe31f69bf7,
    0x75a73302a5ac47f8f1efcc6d433d121bd168ca53f6f755b15c6fc1f126ae07f6fe546316d1d3f41e7a6014ff1a54825dcd9b66a881f8c52f5140cda329680cc1,
    0x28e8ff67cd17e6aa129d876f16bd9fd1cf3acfb770f909e409c6d0a51a19768a23ba2e7f77df3e82b20d95c333c8e9ce6bbbff4b2c44bb3a0af01ce6a551eda,
    0xa2317591b05416a5dc6350f1589acc7ffa48130fc5cbdb2dbad47e05946a4c45e2a7cfeda6dc64808b8fd892596990466d346766ebaddbf50186d9b89b3ec727,
    0x4f82d10e44a812d73fceddd020cd165a977c74692e6600d82da80a6cba0c4c9d5873b1e832b628c58a09012ac2575761e73d664c29fa8c94dde58949c3a40b58,
    0x1ccec3c74242fe2cc30ddc7982b78c4870411225079c8c4c5de91849bd90c0d175dbbb8488ba645857ec886301f35c39b0d1ee2f2809d0ade22b5499e3691d02,
    0x8795f134e8d22af2569dd7a06ca7e3cc090fc0a2f955ce19d79e44392059c302832a3cd352aa489b5c7dcfae29a413b051632d5ca939196212688e061de914a,
    0x9bcf74f0c4c4097fb4b48ff0e1e1481ac586cedfe506cd7758ff2a9c77035147b54b478ea72f38b994e1541a8344d07191f766cf49d741e7044f559a6714ef76,
    0x6fcc7d6638c5d0862106c6c0380541dc5471a810acd18c900c8e828cdbd2ddd7edb46d12d02c69fe90ae0180e4503f070159674fad877ee0b0fbda6a86f5a76c,
    0xe9d1d372f104f026844abd8eb1bf8a45528cf5f0156f27059a64dd3da842fa7e13aef9e0bfeb4292055dbea62a5986b210cbca5cf22e68b91fd1caabef0e6b0,
    0x55249ddf657df4fee2067708d8c15b8f742473face7414fb2d823e2914f03b5cb89ca24dd17a9b8eb1a8c740dc557edb90a47be513779850f9b9b77255eb1e14,
    0xf25680edee1db7072c616001d004b4ffe480081fdd038cabc9023636c9f3b7f7951e9c64c58aa0d24811703289be60cfd8b50bd79ac9f89f1bbfc07a8d2a459b,
    0x912572e2faace903e377c05eb4575b2a3c3503c847ca7434f53735fe8e39c3c35c1caa520c79172553aeb048049425548b1bbb9f9e5dddcb37dea07b5d2ef164,
    0x161edabfc4d9a73bf392e41cac6cfd0cb72eb857d997a9ff42198da957ae6a3ca92b9fac8240d4e66470103359bad430ef6babacc7e709fbd4a96025e979aa4e,
    0xa268d32e7bb7e6a811fac730d2ba56d1584513fb1e70a0041a5c9e5249deca38eb321205d5eebedab0d97016b0c37e7e5fb2dbba77247785273b843945155742,
    0x2575cb2b0e492b58ce7dd5a25f5f26a307f7c8416954d7811dab5613208a1db9f16e8c579c3074e297e2f42ff5d6293cc8502f9582f25eb936c1430997af0193,
    0xef924f2bf75a83689b1a3ec95fd3b119cfa7e7d4eba68938d20cb1c7cb2c9481ecc5da44bcba695ba123b726627928af697398b3e08b7616f8bc96abc8f02730,
    0xade97c1d46606af2048834a24f83eb2aa6d47f670b2dff2e74d8cea0c0016baf3ec96b837796fdda599f218daa890f9f30ecb93e4a02798963a6a86297239629,
    0xf3c63ed2e5126402f261d16c6db934029638c659412f86a7e2e008f9812eed084a11a523b79796753a3989ef3daa99b60ad530d177a8e03f672e9cc0d8a07d03,
    0x7e2a50be4ef73af3e230c120783d3e759cedf688368766987e0dfe71b7a98b90a8f1adda36b97b7d5d17152fe50ae4b557c225fe92a2048a954f4dacb5194901,
    0xac8f09c831dadb7f25c4c8d110572ffbcb2fd376a4256212b5222d07138ce982d6fc53ab8110f0edc85858835013adb49f9a7d7dc2b1a93e777f8c8ccd247774,
    0x4c761945724f4e6b8c5c7ca72dd4f46954b5ae0b6694cb2ce197830c751822ae63de7eac929c196fbf27d40f9d37dac020bda9725f8673fe52bb445ddd73588f,
    0xfd3c1a6ae085f50c4ebf89b2fe98536d740807793912b8d2959f84754c0a9a7c8249fda0e7843bc1ed9c90524044824fcd2139201fc2f1b1dee738faf0a7ace6,
    0xf940e039d9afeebc38036e86ee1415a0b9293e5926d049632cb6ba2c6adad31f17d679d5ab8ea1bd337ba8a8b0e32ea9fe5a9188af21df189058b1480e3fff8b,
    0x3d8e4429e03dd2d30219b21392cd9aa14773afd189f1967b6bc515fde32b45643b60c3f9c15472a2a32319e0bedcd1225d79886811fd0e3aa85bdfcee02bea2b,
    0xfa042d340e20ddd0c8b4754c5bd5ead01a0a27b9980c984171cf32447b27dd2550a5d604227f37c60b78c62e5ef73b0956014e464f0a3533aa426ddd72e6708a,
    0x66058bfd42d5543f6867bc04262398c64c0b69ffd706ad723dc45bbbac217057216ae4405958eae3a13aabf32c114b83f73be5b5631b7eb062f6189129339a5a,
    0xf7a371b7db88ededf02578a1e65ba61abb308c4ab41dd3c286f4d7f1183ca3951caebffbf5799ab4c3ccb3620522d1d934f756d76639af690a91a4950f10029c,
    0xc985de2eeb3d61b9a19e0ddc05d199438fc7da9dd2247cab09330d6cca18df3e9a5a680aed453921c95d17f70a32d345fdaa41206c0b7c2cfab4dc34e94ba486,
    0xc480cf0b130a7bf6a048b8985848a1db726d9bbdbe2f00877b5e96d17437dfb993696566275de61f33e9cbc3e37977c3ce438ae38f720bef5b2ad1e8ec9a3dc5,
    0x4da68af3bd2afd35ebf60e8efc404432bc2e115e315d0b68c770878f456ad4d1e837f3b7536a39a668c31a2b0fe34a06a68090c8809141e9fb626970b4d29c1e,
    0x289dc8189274b22f4ae133ce980fc8a11aae8196b1cc4a81ddde0619f4a69e502f4774381600ed7793a1735bbb31d6183521e3933ba097f1109467fe4892d82c,
    0x84108e8beb00fb574227163318c41ff92f8f62058a6cdd70f251641c7eca4320f2997221e2a67327833514a5f3a30e34b614f736c80399c55a755430d09d108d,
    0x954134d10e0ed13f93175cd90dacbf89999b9533426f44b56bcaf12f3ca5079500c8163d9c6c3007d9404095233e1eb96f54b7a3eb3d877c18524203c8590f74,
    0x5d924c5c2712b124a323616c73f5beb1f6cf2290a952c3c99d05d3bf95f7c45c6b02e712a0c93792c1120296eb6711cdae46b535005a96b18b451edac5f5b0fd,
    0x69d0fb70d6c6d215a01a6220209bb007588997a5a9085578c58c441a3cff9124f60734ad353ef3ce4a571c4c2e92a130e411a9792ec8378128667fb6b6000e4c,
    0xfbbc7f043b73faf9b286648b82df99dcbc983edc87c062f979147ac6bb3ff3dd338b70b709c162ea623163fa9892af7c8620ca83b65a98fd887c1d96969bbe4b,
    0xf6665653027906e17ce5768a64aae9cf3ab8f45f319afa0443ac8e998aa509d94a9f0a71b2fe9137ea4d7e6c0e0911376c6db4efb85389ca3afa791d14442797,
    0x845610f2fad79f2badbb576a48632e1956d540b089c973ce1579ce29036c7a17093384e8385b98eed0b707711a4d36a0bcdab39ea21ebf6a461f0f9770eece58,
    0x83585180f8b1acb2f54236607f1479dcea0ff32e2bd7cca4ff763d0728bbb6b31c4a4ac13b37e2f996a808e66aa3f8f82a72bb78c8bd4792eba458fd388de041,
    0x683870c9c973e243ff8beb6456aea797c07d4856e36a8b363f0b7551cbd13d85e33c77c6138c544a7d0c501b522e18b9577eeb639a935f2b1ee66e9d4799999d,
    0xe1fb5ff6c131608083d4f0bf16a8499e9703a33579f9d41da808d664b228e998dc370297d85d69cf63ea3e8615b781243494d5e58f24de0fe16d85f911373e0a,
    0xac232d8129e7b98b18b781a7293438d1a39776d0f6dd0a120b9fa0b444f5e38a743fd4f36a7580578287bb7f0480bf2eb6136e9a8ba4612162b97546079f7794,
    0x2e4872473b9b039f5bdfac8849af090d1584184a7d796b331e1bb8fe398c88b97fa074472e8063dde03ece39031fc8ba562da0a388bba99b7a0ef4e12eab4f45,
    0xc002a36c084a3d006732b6cd81f8b14f43a9b8e9f5c2c2a85db20017cc4e4a1161bbccb9170ceb649a303ad82db487ffcc1d9a7ba50f2e6421d1586967044648,
    0xfaa3e8dacc94372d2a580430e7cd472b8fb4229250cdecccd20622859c83a6dd3c09ccaedb42a175bbe162b14ab0c1b777fcf8caefbfefd346e3eea4e6fcf707,
    0x8e82fad2cb18d5440b3477390f654973f848da58bf72031f2a4ef8dd23f1a5c2ee0fee2b47c107a8fd028c15ac4c36b08afe74df43f3d9636cbbea940131b02c,
    0x9f319b3a5d8c11a2981f99df1d77839f72b6ae87fc81da7c58f8565adf707fbec44116f66430a26a91b96681ad7d869c1b47125eee8e5fff678f9dad0e54f95f,
    0xb9873796790b6e11fbfde3675634c85769f1bcd9120f85833109ea83cd7ffa3d9cb940acbb40ddd4f636fb2ca3297fc3ed71e9724da7203cff90047213237ac0,
    0xe758497678a4a7ce51880630ad7e9b92848055ab5fa8a5bfb589bf2892d75f82adb0aa2f763f27e909a6ff5eb00a0503e4d7162cfdad253f046de7154517b297,
    0x6b21d37004e95d1ca3d18284cacce3b560574387a2058080d5defcaf30d2df0218391507e4e8786b0dcb184bf51db794e91c0e6708b092ab55e5e125e8692905,
    0xcefc0024aeee631830ba7cb6ae589ec2894b4de0aab5122b5c95b14f9a67cd29cde7e9a8d43aa769582ef96e1d749e91b132f70915c40c3af63463a122a5cab0,
    0x318f5a988e20637da419dd94f4ed8ab33879bae9bf711e1164ec0ba62516d338917258e74e5d6a40ae1a9acf3fd154211f286dc62a15581bc68e1f178cfd5472,
    0x4ff80fa127b41fa0478aeebb9e505b8e2751d72f9564460a43bddc89b0729532f59e53416b4bb978689485d8b32c005377bce81e993958486297c2837810dec1,
    0x9c099ff4db174ccb1aac4692186dbd5650ed3f310c5d1e421350e3b8bc2f8b70b6238fc8db392c4a0a03475bcb3cde927dbfaf45520586da251d2c38e640854f,
    0x78005cc10254542cdfc7c3e34750dd72d5290745e5898983e0273cce27713e8a5736c706716a73a2f1e6b632d7c5bdd52a1c4267f79dd073fb16aaafe2d3819,
    0x378ee67c4f145e6d612e26798daed7af7ff354522121459f41f1279ec35656779b711fbc8561b4d210af01c9d35163c4420ec5efac28bec3f24d1694ca5835ce,
    0x38194ebd57f59fffbbfea2d8022d25103dfd91bd8d09fb5c7c0cb6234e5fad2bda8038224637e2a5e2e2175d1909560aa0ecd2b2b521e8c9936330ed47f6e261,
    0xd3e2384fab5c532e3ff241ee1ca9104a9d11430f38281395e11df52c7677bebea68c8e0108684f8e718127b05effb46bd16df502ebde5ca2289d923545dbc771,
    0xc9d46683940eadd62534e0fe4d781cea4c7cb60dd3f64f37ad614321a581f18947917b2d7e1ff130591cb5851b24731a88714087f0fa2fb8176fd3db5972d73b,
    0xb5dd422b9cd1c8a32175c2d77614800cc40df68a230c608f696cb5ab868d9106eaf0380cdb9e00b94e73665e4256a421c60226d9b2ac8b99325b3325140acbd1,
    0x44e8e9f9034be5af6f6e756555078016020fd05391a0eb166b6365f8172d7a10839c8da75d1391bf7c28557b565c6ff0ba2a73a2e4f0e469132ef1f2621e4bdd,
    0x8bcbcb0e8218ee8cfb87061c8c7cbc06b825a3f175500f7fd346c609627d756fe8ffe85f4a3eebaf6f06a4893442242dd52cd72bd0b2c0447c4084973719cbcb,
    0x6a3904c0a46c6684fe0a7bc8d25899256d0974daa5e2cf3bbe4fb2d3c79fba543bb92e5628439ec01346201e035befe6c66af735d3e92fa287c7828bbb6577cd,
    0x52d185ff088a3005f833ffc1170a7161ab6383ef760be099152c313cb1945acd85f69c85efdc24949481a295b83e982b52eb55a06bd7b78979cdf943693deee8,
    0x2f5ceac2923ae4e375b9e5e54de02df0f988d64f1ddc5710eca4e773ac480ddd90daadb95e487e59ed4c5bd6d10376c3bfa70e76bad4c14a81fe06827e379f89,
    0xef798e535757f0c8f24c17482798e74a462fd839a708965aaa8b3f4a0b409b877c7e4acaf20073846cb25d54af34e94ad315532215e02800f447e36733d7b279,
    0x9334aaf0699260f8cbd2c37e838f6406953a8b1bb2e8be5a3fb1b451b9a825ddd6f57580f940e80398f5be339ce35b334be0ed1189037333060bf42f144f5533,
    0xee121a511f68b83b897b904608c474fddeda660a3bebcd69e16bd25b8243e8b4e944c1d140e8cdde9efe4a1c88ac0e00d51ea70d01af7d33cdd9375197c03135,
    0x700bf00ebca0eadb7b1523cb2cad99180bc4c1073a44b05aeaaf135cb80758ee082f138ac2ab256a53277d4d1f6c3f358639da401ec3420644a2a7179f0445c8,
    0x708fc179f62f049ccde3c0b948b666a98dfd1b472487f25c6752081b9c80aab2e28000d67aac7d841785da5a80687afd91bc001a9eab38fb3fb784dcb3a9dcd0,
    0x35f1906f231241f8bfecd5e39df2c7b11c411b5dba2ccaa77b13134626ac601585d208cde62cd73628325e8633c1a62db98e5e9cad6a9ed6f2544465fb1fba79,
    0x1458a7d2d9d604737d3ba82a0c3ae17fa5cf45c117465471dedc568731ea3464fec11b8bc080b723da661ae3c8de1c5463e8447f65b482824db8918666ed7dc8,
    0x8b232ad66a1d5337d581ef5eb178422fc62701be72f2d6f318fb57394318e297201d4d0cf16a834797de8b65ae33619cf436cf1acb87e31e308339ac6ad79cb7,
    0xfb536efa0e1567ccc8c75ed81517625f3211cea4b97535ed2aea999dfa6dd77a38e61a35b27261d0a75db2c9c4e4fd2b536b7dd30f631e35e502d6f2dbafde98,
    0x99f78ce0c39876ae509cb26cb181cc43617ab377b6162bd84b902aea4c7bfca2120c83a8481fb6aa425f643b1f4b23b3113419e810283d862dc5882aceb8bcc7,
    0xe91170f800917f617ba8fda57bea3c47704eaa9fa63e165e3bde8075ea45eafc599ca94204644a086f9aec11d1f39f747eaef5f9c1dba2f27d593a467f397084,
    0x37409ea6ad3611bbbc8aea11a208992e0ee05f6667e5b4ac353edf138da05e5062422937ee21a0f412c3d657aecaeff06c6d23ae6f114d0206f1c7e304d34cc3,
    0xf22862f629eaa05680952ef86b773861628d7cc808f4f9ae57b3a3db8554a7fe577cf6246381fea4143211b4aa19a333785f321ac508ee31ba7b2df2a6dbd5ed,
    0x9a494d6bde54aa92dc516c02666dee931ad24ed2cdfc179f4d61ed0948a8b06100cf55ffe6d5595aae493c460cc276ded6160e5cc9ca98ef3aee030acdaced8c,
    0x1287103e791350c3f6a592d80a2b655bccc4408e04368f7081a5ad874c9e3f114daeb8f6ae7de93b94a73f4cc16e9b5242b1311008a403bde6bf6f08abc1031f,
    0x191aedd73f0be5352004ba55fd5834a38e75719e0c928ccd0fd0dc19400cb3dccc0b1571e2e3d62a721850446aaf984d30a96154620b9bf0101afdd0a1ea6644,
    0x14dbbd0663faa23fbe1fe1e37c6f87bcbedc10ca6e99173db10cccd32e95a4e1c3dbc968a2ef65f66202ad94cb45fe0952abccc0a94e65f9301e47855cb252e7,
    0x8dd822b8f93ae00e377990c7ce558875ec77dc0ac7d772c45d7b10d9e942d62572d705bb8c7ac117521cea1197f7acee00b726d13eb9c9178e01a66620ddd55b,
    0xe06ea804233fe1e471403e31755d116cecc0fadbf96ebbd3b1bbea02102c6df62fac156265381732dc1d4c77b72a79b5dcaa6aa68993b0a2b97836a1ee885d2e,
    0xacc8c0fedad9f857edd7b71baedff7ba306a907d70fd0b7181d17a7f60d166879e17ff6075147ac465657ad659a2249bb9cf1070d0319439c83808909bd54c42,
    0xf3d5f9b052665be7a78b0e048db3bd2989a5800da0cc9f480874fa72c01df9cf1fc6851f15c51c43ad5d7246c27768d9149262361246fce025efbf8b350abbf8,
    0x95e8f468f49d826fd889c239fdf7fa8d9d37e23bb28a63a89543184972979a6717b27f6dd5d8e58c88b2cdcdf77dd3219c20affbe53b2fc18264b18fb8b906d1,
    0x60a428acfc704b515fac961505cc956e01174dc057b14c69945455892526d60e82f16724a74f7feb0ad67c424fc4d5f096f6d3b9aafffa315aed73b6454efc5c,
    0xf10b67e6975c4aa90b6414caa12229d497e19e79fd4eb65803b5cbf0d868605616a532ad8269a9e5503b0ff40a8a29acc6cddc4da075d39d0541e5a340826932,
    0xa962a6bc699cf5ca82282c821a8b2298512c42345d3b65c5529989c4855305931510f95d5a01c9b3557aea574a08409e93b7361aea7d93030e25f169e1a040e6,
    0xfc2673a78f378e4b87eaa430c58e06e1c29b742eb746f6c69002fdea3215f35547897099df52cc205b5f1b3eaba80078c8e82d2441d5937b8c0dddebfb2b627e,
    0x67ca0ca84d7775e07d2c850039709c8a0a73590af69365bd9a71a4e0c48696e8d78b8d73ed473f75d752c6d5508362061fbaebf11156f17d0be779db3ea5649f,
    0x3b74060952b608301a328c512ecb3e1f15c9b2fbe7c594c08fb8161b234302284dfa299329c1a99ddcb5bf0e6e260699c30f54ff7f70f7e476cbfcdb07d5f815,
    0xf34f6ef435aed1c5161b5830d203bfb2d6c6e60498b56324597ef01fbbf6610cc2423f880a82abb5aa7e43d569f3fe8c6971172a168309686cf9708a291ec60a,
    0x2f87e58f4e0621aaafaf59f8f56485c2bfb7f12e8e366a4ce6c9013135c00b409b3ccf97b174cab9c687335f40ed3886aff62475566e31ee7ae228bafb1d79b8,
    0x431fee5d62769765aa37d9537b991ed11041d55bd8585ba2f688d46aed9850e27df5cea684b4c1f9bc651be5bbf0413e13933f90ed9e70d0d54d71420e79fc7a,
    0x1f7cd84ad387dd440d217ec46eddc84d03d2eacb35c62b72f55a3ea1d85e7b908b7d1acc692c911b69286aa7b589bd447abb55375817cd947f7aa81175e0e2ab,
    0x50d755698bf28038438906826a1a24127969bffc6dd1e6e68c33815db58f9d767e27246db172ea8b1652c2b6c0695fef6ce99781987e927b725bd6d51b3d2ae6,
    0x2087500d5665de0e21c57b45a40996a11580287df5af749d99b3a9204020e9ebf214a53004fd77fd64091463db54750908e083e2432ae77231d2d05771270ef4,
    0xa7aa53153e7a527ef7499c61a1aaaf521d60ab9fb68593ef84d302bff6a57a046ba70c1044dd9e1655dbc434aa737bfd5d3b47d6e9599c8f1017ab12d52e9855,
    0xe0af54f98d1981abe17a742e17e91b3a405bec495fdc0f60c488eef6a9797564ef740eafb278e41245cc6f267f5de3a818f728f096047f27e75e377374843707,
    0x4ac7ec2cb721fb6b57e6aac80b71468358acc4b9c9d870479c242a4f60a105232bfce0591b019176a29258550bd9d4afba6570a59dddab880624435d636d2c3d,
    0x8eb5840d43ac27611d588a534a0d6c9ee2c9b41c5405dbcf7eed9e5334a4deecb7d8ca167ba09455a4b61b0868b4f8921ed36badf569531a51c2e995681c6abe,
    0xc367019666872da9bf68abe338990faafc1adfb1a16c88d582f741e295c85639c93554454f044ab9f574f29d00a8922ceba79930f5c1c1364c9a63c622110620,
    0xba65306ce2014a4a89f3799e1f13d8ba17bd468154ad49e3954a0763c1651fda4bc215a7dacc1c80b9ee915b22b9940c5249086bd778553af3f2c8251a88098a,
    0xb96719aad95e34e4301702eee5775e7045f44eea83d51cd9d0be498942b00303de8812c41ba9035a4a1c597e38319d8618555115ef49c8bc7a01b1bb059bd130,
    0x6dd85ee6f7ccfde1fd70a6fa69c589ce5da11fff6c9cd4658d1f56762e2cd7660e365b4d59190059301de8c53daa4cb62848b9d0d2e3840a4a16b355e0ec8f40,
    0xb575dabfb70c7dc0db5025c6db30247675e9a62fbe7f506ff8f6f0599053870983290d3b7735d73f7a0b5b90dd46c3f65243e2400fa547fcb76615af8929068e,
    0xf09807355fe6cb9af21ef23f31366e8927aa446fb1da1793df5cb4362189909a7bdffd62e7665036cd6d4e3f546fc5789f2eac7f5bca82846c363069521922f8,
    0x4af71013759168ff0c3af2b6dda2d525b884e810ea10951767d85c26cb99058da4834954c6efc0aca15b7e560676e7803e75d2295dbc65049e28c256632f4c71,
    0x28f66fd50a7dce8b4cdfe11c8df45d7686f13a39b7acf013e129661f7c35f59ec35b15720d76c5213f73bc006559abf101066e2938e5cef5921230e0be8d9954,
    0x54e0e161755d75af9403d27ca488fedc87f754108f493ee666de320ff37ccb782272736d714330bfad618ce0dbd432a5ac67e2c9e331fc50decdd1fc3379c422,
    0x418083c8a20ed252dd870f692f743bcc2b90b6d96c78c2b64d4e84d69f0409ce44ac4162823ffbc773ac5d1ce8adf687dfcbbfd50b9c0ad74ace038097f13afe,
    0x5544062532a0a5988555659fef13aa59f45b090c67e4c861b9158ddaf8e0c1af09e2c5b41d3bf20939625e9c7f5ccc79e6a9e14974c0c6ae97490ce9b8850132,
    0x7225f36af22b94d896f9eda8c6bd8dc812f2e84513240ecfabe7659febc4cf60b0f7486ee5db33a6ae2b5275c7d9cd4b4882b33cb3190be5121c69765796ab6b,
    0x6082fe14efd85a5741b2b334191202b65a705b79a03d052af1973ee64bf9ca4a1b102df10e1ffcc6bc373b03904f6620f4b5883f23566dc584e584de912b26a3,
    0x7cbc38f4d22f725a966199cb4bbb8c27aec5d346836b68ef5f52eda0c892a2a5ea87131745e6368c38d2bfdd01644083cc6737e222322d46c55737ea88392415,
    0x7c72f9289ad2c76539e5a3394d18f8f162a2e4a4a15945a93df0090469cbe70cb5d5feb78d749429fd858837895d649631e2bfd5ab6f49d05336ae21c382a832,
    0xf3e2f4ca699934e0e5bc09fd20f02bbd53405b710a360c796eb0527563fdeb758825f7b3e4bf7325aeb326164adfcca49f5199c3e1b085746ad30d188e9a50c3,
    0x6f31a4c8f8af78e012b5158929fdcc78cc11c2b2eb86890da2a190c7887b6278e695a5c687429850c4602b0ec4459c675b31b2cd25f519138f6f04e5ae6a7b7e,
    0x21cffdbc1611348016877da8fed8b4c89720707fce73901e3581e0b84608f266443435010f39fa284b0f2feb6a2fe719103e9d264fdafe0a9dda116c8797b706,
    0x17a32519d50cbf798795876b30002a60871eed5981a96e14b29f0de1c7a19c7271b5d5b94931084ed6d53e87edb8501fc6eba3a1a262ae158b5d6cc4794f03ce,
    0x141387b6e6ecc2debc9e7ad8b94d355741f54ef823cbc001f36a4319e46a5c73c32ad8588e90943c5d88524394f753d19b63f1e23695fdc40cc8ebaf494f29ae,
    0xfdcd0f8adc5ae72b742834827edf43b5da96bf1a155e3dc529fcfc03f13461b630409b416afac84f5140b9ecddb87a7fca23480eeb2d87bbb0569177f0021cf9,
    0x9976d405ec99b1b2a3e5d710a442b4d110b5f714fe73ba7e39490b170f47dbc819bc67429bcea9f9e116289b2dba66862b356095c697e13dc47ea5f58edd5f4c,
    0x68eeeae309701956882bca636c1c449a3b80978138e45b4302c99c9637a3808b20f56c559489723125688d6ea36739ca0e5dedfb65f0d8f7679b72e52a9feb9d,
    0xd6d3bf2d6ce903702f5f97fa772297fd35dd7a7a5d1483b43714e6ec6ab7033f223cf0c3a32af2ba42f3ff8b89f8d2574cae1270ec080aa0efb0b8864683af07,
    0xfdd9f87e395e9de9ab235f74f8b466377973680ab11c89144e678ee6dbab8a2b1528162fc99df185ad43470dcf7b7d50e1ed557d237377f0c0ef2f7c31a138fa,
    0xca3e186d8d9d1e3d2979583e93c88a5b989e3d77926ffee4d6f9b39149c474cf5b4f98c912367bae6dac6871feda45aa8c413d0cdda9325a6bcc7008c9155ecd,
    0x1493f56cb2722e30b1e0be7745f13fc814df007b4fc6ccbec226b3ea0602b8718db62b585bf20f610660187937cf1b678a212575ea66293d42b528365addd496,
    0xc69d30042a3324bb21eecf109d38f6999efe250ea5a0e5835cd896e4a3a25df24f9098b25df0b71044d5304f6d12cff1cef4153a8774e6ccf35596411f2ceb5e,
    0x16cef872757121b5084ab39d4dcd0532500a303422d4034f0cd2a6d081765ebd13480e56fe52eae2b780a60e723e24af7974b334f54ac263d2bb595182141dc7,
    0xc49164796ae0b0dea855e21390fdd665297e8300d79ec12c25ac25d056e89f911f9aa8867f24b45f653bff5ff02a39681c4f4c6b0560fb0bdaf1eacccfd918f5,
    0x9fe2b880903b6179093d76c782e18ae43531cf6bd2fe3a27109deabb8416a5b63a368d5629cc2bcebfca15933ff3219da38559f83a93da9672a408df5f24ce90,
    0xbad73ee956f4ba86862682c5a5c2705396b49693e86de0b186297c286c7b45072aab67edadda8e78cd6e1d4c60d7ef0d6eeb44b45a44359b7b997e18ddc54474,
    0x209f65c69fd20f8b4c7f79137f409cadf85fd227b229d52a7e76ae0fde52902dac821bc5c1a1cb7fb6f76354bd12ab79d81c27e0e7569ee2fdbffcdd78073427,
    0xc06bce789e9183af215d002a95c448592043f5c7557f4bc85e355bc88b2ddbe5d2f4b5ca1ff35b524b489f89c5159f5e9354b869224301bcb1c085ce0747a88a,
    0x76502c5b1fa253ef9601328a0cab70a4b3174dae773c4a74ed221666fc1191918cc1ee0294de80b7fa881a47c25237d469dca22ee0113668909d85e49283e0d3,
    0x4b316f9a6b1f5238898187d30e64e3fcdacbef80972d7c1c37e9f9e66b3ced8d61e3f86468cf11266a159fa350d1d70703c93d8db0c0e16f069cb76e9e289077,
    0xffc07a0863c55a52eabf7dab0abfd8e2d902d20d27ed9d73eeeb2beb4cd170fe560a018203f3fcab6c8928cdcef947706f4015407e39a61f8f1d30bd904c738b,
    0x714c06d4df35394f43df05d0a7b9861bb642c74d59d43b6c58a9eca615054b92b8e12a694f228c55e39418705eb534fb8cd40d30208c92e465a24d169af3ab69,
    0x97b202f6a35935a52a1ba869533913013a96ca7d7958a988623f26db6c5de21ae048c6cf5a27c7c786365566c4469f920ae25856e4ca0d76267d48c63d4a2d72,
    0x873f2fde4c4eff584f23db76fa2c51633074922b9d92a4fe524bb4f0f1cf46e48277e014367a25dda04b1da0f90cb2e0aaa945f61dc6bf960c66e0af6e733e73,
    0xf94f469b50a0a9190044a452b5e43be69addd7dd80541b68c896632d719b5d8cd03c54e4c7b56339ac2dfd0f977f8c930684b8f98ab9330543453bd9945f6f10,
    0x4ff2e2b944052e620cf07a78eb69d9c69c596f240aed286d54cf0c097b7675e118aa37c9b62e3eb5ef68c6d60320e383e9ec7e2f8999d08643019f8b21bb54f6,
    0xae1e45621aeaeb1a3859d344d7c6f91175b5110b8374f8eb217a1d02f8028d0a4c653bc0cd584b54ac69595d229bb77545852772ab0267f34ff1e5f3cad28d30,
    0xd45af65409dc4f6ff31938be134bc15f3030367928769f18114a2b7bd07412126d1f26c2355ac65ee398bcaee8493a45a61d9bdc434b5db677a836b71d147421,
    0x12c790d1263728baa6820a327520f86e962dada56b3dc2ae876786debb49d0bc7c550db9e52ed44c94308a19f55d4e64322d11c5b61613d284b10e090e5fb57e,
    0xad18633f9ecdd253a09ebaea06a79498a400bc60dd2bd17c23673abe666201c0fb328b675e6704f010818410fb02fb1a22ac95d54d14e8c82233043b7b7f4d10,
    0xb18155ad46ac55d921af8da614b023b86ac29b5903f39b4a5cb130bf65d3874d855b1d93805053032b2802b807db60a101e15fecd695ec282adbed17dd8d988,
    0x907d8df80dba69b4b1f8aa32c7d2d25696b23c4b5d56677633792f40ab0b5f027d9ea2d2ce583d44b01f3efafda56f82a0012b0430cc314010b7460b1c93dbb3,
    0xe5587c4a9e1dbc655543a49e65ba86a636b3174f6d9a563605ca380fc69109344ee78d9265536246a0a878f1e136b43100a953f5d1fa8571a14fec39db4109e5,
    0x3b1f69dbc47577feb463fbc94adfd085361a44babc60d34733d07cb57af1da734b2db59da3c26b7201e794c83a77bdd4014ec73deb8d38a5f40c48a7befb8f43,
    0x88ccf6e3918e065bb268c8d344ade4093754838757edebe20484ff322d1c319178fdc928d933b101f5ebdc6f848c3297f4a51b526f010a32406fb36ef4245fc6,
    0xf96917b6eb5e06276a8364600441c353c3f198d538ece1d0c77567e715f0d0417c79361af42f8090b5846f0170a86d51412174531fa96763f2077bbdb089bbcf,
    0x3583ee30d6f0a204e431dd31500b5de482d0ec86274586b345a58b6132b556f2bb0c51fde1df50d1478314bcc021d69e06a260efdf88b1fd98841fddb4c8789c,
    0xf9a6e5fe5ab1d1f779b91c0022ab473184728c69f8cd374ec1d70708ca7861bcfea9da9cd36a0623df070b6174e9ae02d9a56b8eab611fff7cb5c2ece4c32578,
    0xec513b7afa80e1e755ea5639a38f68e55dd7e7e753ac28b19c00e0ef99d4490d3f7edd941912679fa3b2c98d902a8b7a7a17a2033b4b9485050cdeecc6686249,
    0xdddc7250cf1a65fc3bd5a90d1cb9c69d27c045e468e7bc34bbc0a50bf133f539a37e3d7b80c62e92a6be17615642e933dca9b5626d097db650e688d565e70aac,
    0xe569fb896dcfd44908dcf54e18883df3fb69f08605eec18240a9558df4dd34bb18be987071f5dbabf6589fb433a5e39f2af12ad65eac9e296b3321d8795ecc31,
    0x7f238741fc5fbaec7c5d244260437a11d198da505b425fab91318fddaf9f6b105817cdfd8528ef109d6bbe6c4afb2faeb79a94ba1457b18763efd49661d6f1c2,
    0x578f2eeabf84e6898fccbe5ca4b817ed66024eea4f15ee2cf733c137e08a853cc92642202ab78400fe846afa2b2dde6c491efe403f7a6feb1fb2f0d401958bd3,
    0x9952a66c5133d52de697d36de2f42d642f1cb0aa706f81c7d82f719d90e504fb3e158317ca3d013ce1369a2e2ab855bfa828646e15c23a54907e4e88a52d9c3e,
    0xaf7361da8234e8e402f386b8682859758734d4c465adbb935f1ba559f548bf68e63af28a5ad805c77148d4a68f95c981d960b0c89a57f3d576e99de547d9b15a,
    0x6a1b1d9da46929324e3c513a0f5a1c565e54640cfffa4846014fc1550ab2f72eb92157d3af90baaf07a14943c84c78dbdec1f98b521b8b0e741a1b5d2ff1e82f,
    0x49c17f3273ba674992ca41e4d8fbffcb80959d87ade1c34881da5cd2a7533466b86e9686a5224d8173bb521ee7bd90f4ad7aab95b5a61bfa3a264a6720abf479,
    0x369ad305591e35fdb63905fd3ebc05032def36121847d8b2ac356ac0bf14ecd439b4ca54027179e7499d1879c716648de4e7b3ec72b07f77a8ec0b83f8500bb2,
    0x2a2b6de98341e5c384887f39e628f119c90885fe6af7a7c5653def3ed5e34b119581a094bd659533e17113fa3f466f3f0596a0164df610481ed50e7ec6ec0eb1,
    0xafa7c48e1e17f5598e22002b688ec1e9cc9e25e82701b78da9a3cad6f2e2fc9cf0bc4faa6886de22ffa41d84f9aa618efa32bd92b45c71c69a5d714720c4ffa8,
    0x648ed2256f6be37144d51eadfd91da9236ac987a935dc64b9f0f52ac61bf3ad7591f857c9a6422be65f96cc3d96e9e269fcbd1516d32efe0147f716c484a3e41,
    0xeb3ea1f839e7b22a27cec29d9fe11b5da967492bfe6f29ab36681b879fd0137cc610d7d0fbdb186971861daf9124a067ee4dccfefc164f8750aa6fc1b5dbe4d3,
    0xc51847954865a5ce64874355efa1891e472a85d50279662c71429e529da97550f078cc57640b0b15212c726e24ff44b4cf61be90d8e90b337764ad5c2a3aff8e,
    0x78458dd5db66ac115c134e508b96bfc5884b3b45da906d1ff909a5174739184f813a5205f9a27e455648df320ec5bb3a992961a2d62cb00913e3ee09c59b7690,
    0xfa04589a4a9f2ffbee618731ccd2259111625ae70cbcdd16e86bfff04b85c5597833f712be9b660a45ab313bcb5ecdaadc8250991d727da34ff0a0594e0dc955,
    0xf11e80893e3046f57ed2e052ab3b7460cde00a7e11cea0b5258bf58e5a4b65ec905808e2f51ea3530a5b9162855304ffd6d9c1fb9821795ca191276882dfecc4,
    0xd7965dcb4cc28d1d19bb4f86bdf71c61b39cb8589efd9e93eb23e0bd3a4bc05b5d3fd6caf55c6bfabcab60a078ce83b7d1377f19fad9167df43c73a29e498a4,
    0x1603733dcdd71553f28ea0b51ccda7a8662abc741642488e5898827fc5e6f48b8b61c3677cf17aba748971302e68709f099a06c1b1c5e1f80ed873c2423be962,
    0xb5624cdfd33ac56bfda1d6182e408416fb0bab5a787a976372838ca62615dfdd3f94118b9178e317a5102f26c5399fd73cb0433dd967805fc56d3775ef64eca,
    0xbaa884844cfb15ec3f54e658750002261c7bbe867a11d1732b53864c18708c8ee4d179d2db76d3cc8607d18532a5d737f5ccd5b6ef33af32438cce16dc12468b,
    0xaad2f1b8c40bcf3f0780ac777ff45406e9b76b3095227e41c2e4ed7c8d52f2cfcf82ff9ec3065f42c58b1f93eeb791bc3047ca2501843e8e7cd8284ea91244ad,
    0xc4c0e1b20facaa015c818a5d590db47bd9f0a11594a640cf1b144c6919f4b2000d6612e24e54ad8db95337dd47a5d5118914fdf84621eb9f7b588439d6e610ab,
    0x6a083f00f19934de32c8bb3c17a94bf750e45cedd287ab504bf01084cb73195016725e8b57a01f8dc20bb3e49143c5ba4b1f4e1cd7622e2527d90e648feba4d0,
    0x3174c7256a6f8f4cb4c23c0ca0e148a41bfb12f105e58575500b0275ce969c255d824e0f9cd306dde5d2bd801ea8616aaecdf39cc9ca4f4f1511b5589842ef27,
    0x255ed791322d9ed1b7a853680427b935b536e16dcc2fca3ae53de31802b9561f0d894c7a52459af8f0c308d886ea8e4d5e0efb444f20c102a1d3895438a3a783,
    0x7d6c0d0085251af3e8a5eafa6247ad1ceb381a29830f0b380e05f93181b65d27e8b4af6250fccce75110818cbe4929ce0f1e7ac8f169e8cc167bda3c3c841eb6,
    0x4c5abb3ac292bb148eab0f13f8d81b08e42660e17266e3f4ea2399d0f3d0bed3e6b15653d14a91c0476b5bb082cd37784875217873a4dfb4fede30c65ec3b3aa,
    0xad227b055a955d7d8d4b21e7cdfd91dcac53419901c23c404670d849f21282930c92cf83229a2f13b9b56b76dc0e84d2f1c04a0eafaa5b6670753fd5a61ba8a2,
    0x90cf01ee4dd436162eabe01ce729d3b25d930b97ae6867261be3d3de5c7ae5b54ae217cad088ad80c9c054a37a152c7038001eadd5bf7716fd3e1e326be6397e,
    0xc493ab9372db45a2f473989581cdf8246593153a7bd710307e70c6e427adf5855101c4148cf2483534fe4a9111f3150e0cfe543cc44c6218d395fe2e8ccfeacc,
    0xf0ffc521b2f2b24d934011301cf435b3696d4106bf9b7228171d87e2983687ad2f7102f0ab5fbdb0e76bb4bf9d3cffc2eb95e08359709dda27e666bb0d0212e8,
    0xfa2335a1ffbbf1d8e3cacc2a81b7ea4e82f8a185e6ebeff295e526677edd685f386c851233693a1dc08dd204903eed2a2b183287c94e70f0b4a6778b11f6275b,
    0x16799a5978b849f6e01142d33ee2a18ba9e093022fa59f023c05b5655178f75dad89a3754db45242742ba58f81c8ca715f3397084886ba81576cbba19041cd15,
    0x2586a18376977e07c75939bb3e3ab23ff6d3040a67232583cad6b16f365bd2de918c16101ccca51f23471e2e118907647c748926590fbde5b77df972aea36c9e,
    0xf26d4b7b63168156d71abce0298e41278aa78d2c3e2c986640713c4308774ab85b5aa77f2a9777c1943ae75cbf2a6bfae84e6e7ae625d61f7024c0c99099dea1,
    0x8089303ed2f526fd0d5e87d54ebf4fb062e9e356d8094e792298df15d07e04c11b2b9b3c22e03d79e41e27952fb3b55b0c5049efc9966344a73e7c29b9179f86,
    0x605e02a37093745514b3529b0db074346eb9aab9119f2d3d4c2175acc1e129fc39b34429f29e39b843205bbc96a42add4f7012535f324999aa60fbfcf7a8d036,
    0xd15041a9bdab3da8cdcc8ee81df1f1d921c9b8ea4ead64a46de8cd468f4c4d5875923185337f1044e940a040610cfaeba630b2133e3eb372bed3a967fa18a402,
    0x591da85bd94984eec9e673566be4c3587f90af97093d7d6ea11c7bfffdf9a8e187afcc3bc335d1c579309279b145ee9f1a3bb34a52aed9b731f278fe7e955db,
    0xc8c034f8aa43bd64ecace45a30755167765ab1cdd5b93a4d9c4b76722a66a0c3f26b3b7c43ecc792248c2ea87cfd0b32d52f959cd9d7e6a99f8140ba815719ee,
    0xf09d35ef5ec75561aaab0d1066ef6391a37524510c6edce43f3e522326087c276e204d0e698a6751bb0d6e12fdaa12dc6e22fb8e247df475732da4e0b1224889,
    0x1c26e9a64613d7af23ca04d2be01f9a1cd57dfdf28132891f2698dfc0e1b54b6511e1f2d4f821b76c820caf24c885a55a602317c68f5ae20d986a9f0d7cd2b18,
    0xd16132399b29a71e7f79111e1ae135786b55eea340e686b1993c635f4efdd207a37792d141994fc011a663029b45714db7a4527ef3b0df6dfa4cad2269ccd2b9,
    0x1d1b561d1bce42d42ffc466b46aab5a6dcf1bcddb35659dc45cddf82fdab8bdb3a4bf18e0f649dc7ebeace20f289a3f45c4e9c5e01397c998535bc3c732de7c1,
    0xf262955be264ea147c4e11f199e4a2b580bf2083b26f2545c572ff014fc4ae9e7f862e0cf2cf161c6edf721c81a444353291ee42809d38acaac9fa5735875267,
    0x6ae2157f8111bc977ed8bea2608a3ebdb22ecec132f21de9775c31c07d36b377baf4d10dbd0bb882c416884bb4231652f687660934be2efed687eba6ac63f0d2,
    0x8e47834082ba02d895fe3375ade7caa844a9a8c8064c331733f599087b7a8060cda8e0cdc03d0bf5129163ed1840e680e41605e42cfec87ea85f5504cce9ce6f,
    0x71a850e125a87dec663e719f19233385a0bfad2c2ab2fb69934a342451c87b09fe5d79c5bb478b95bace36e9d4a928ef5ed8330df857e0913da16671610e04c7,
    0x2493ddfecf31fea52853377938c84dfcfe679e21d2e51bf86d2daa05832d60f16d174de1ea8ff09c876f5098b5a72c28d9b763954df0ccb95b9f17ee782d3742,
    0x3e4b7c1c7293092dacb0d099b138bc527d0fdb49f15d7414afd57b11c38b7b0003ae7e469a2906ddcf04776cd8a1b6a054724e3807ad7d373cc209740e57abe,
    0x4b5d1741fe07bcae032412fe326b33a2297d9571f6f0092686a8ee60357b7224ac7b055759a27ddaf3c67e18d6f61d4aa7b43020d15b607a9072d9edbf6f17b,
    0x242d4f4b82e9ce4c7458306624ecd72d88ec9a55127ab695e08614b3112d01b722ad3eb376cd90ff063b4a7f569990afac40097d5b8c26a849356cb138d04241,
    0x3f1e848bd660d00e7293ab42b1fdc99e24ac932849f6903dc42a879b58db918ac22b2a0067e091484f0e26ce6e49d2eee34e2fb335c5f4463d6d5cd71c3c956c,
    0xd176300828dfa6b5fedb9c672fdfb8d8c7e2bc9b7c33647b03c83b0024e8f5f10601ad9b3f3b00c272637a1972754782912d55aa47b0b3c44ffef795adc15cf2,
    0xb262fc94cefaeef3430153c9bda53eaf56cfe9313b83d7bf5507d2311f6b224e05c9969b1bd3f5333d9d8d8cdfb41b70acb0d8269804a8b4b1256bf2821ee42a,
    0x41faa5237816f56d726b0d064dc9856ffa7f3117a3877f0baf78e326bcec5d4550ce44aa04b8d77d8cb8e67e5daaff5a20083e58c5ae57eef224383b3fbbda85,
    0x312f95c44202269c22ad2aa243d8d77fda770f4f662928e5750fec69dac575a0ffb6a78cb8548a387e9cde45621125df5e94e01da7bf7231804f353d72725fea,
    0x491f4ad59499d3264b34f5d7421ff3db84e3ef52c1965ad4f1ec033b1b532f748ab94be56291ff98fed3eb7810637a35a0470b65b7dc0804a2e21f9f31aa8895,
    0x261ec10597d874c0b0c9d9595457ff6524a4e437764a52d0d548e70c6d197da47b5548de79c2d0ec5c31f4e721c9f2a0fc76ff829615faa4e9d6ea4873b57b4e,
    0x3b7dc354858ba9715a7e443215987b49d8d21bb5e05fa8740d9afcb98d46d5d0ae1dafd214dbad48b5e71eaf527c89ee4991e12dc469734a591f331127e2842b,
    0x90d22a008732ac0d40174697cf522f709143fa982436db3e9cd90621a9700eeea387536b999d7898ecf82dbe759e0dc5a569cc93b1f77e8f03617723327aff62,
    0x2d63d5fa92a66aaf3d26a2736a0983e5342a360b95c1a5b1a8f3302a3cb1ab5f3f5e554a30ed7676ef995a9d47e4f2a74af0960ef6138c28437631b4fd28d012,
    0x161449639b2247b0abab55735423df3c7edaa00563d22999d629902f5f6382c697ad65600c5cdd29acef6b29bacc22b5e61ffd274cdfae9d7e5093c7972153f7,
    0x8072efd353303725d5fb43163e29ada598c55d222f0d87044eeccd0d706e05c24184f54f533f5fefd2bff8ee2ded714234a005c96132dfdfd5fbc6b4c3028ccb,
    0x538001ed19583ec314231283a8d83d6fac6558eb4e3f58dbe28995e63e515d190f68384223515a2d07443e5aeeeffd8933e43b938fdd2256000085a2fd2b216e,
    0x35e7412c9dcb9d076917b7527bc3e9819f816378c1e27a8d7d08f69effb32794ede1ada41d0007340744bbf813c4dce734a0806b9c19feb11423972155f31c01,
    0x91101973467b00ddb512073a34fdfbb2ab21e3135dfb843cd629158da248a3a890e95b3ae2b320a013672cd94637c0e627c7acb2da2e3e577d3420732e30f580,
    0x493499040fa03f28898ed3a2e1c763cf8ce64fa187d5ba6b5acf5a2c259d19c346c04eb740fb83086e530caa680735664994a018b2290b31c82627491acd0e32,
    0xf669eb778401fe9a237ac180e6c557efc572efb935fcb15a9fbdb5951061a8991c0f149b65669acba6752be372ca3b54efe18bfbc0e3306541a8f4ebfb0a6dfd,
    0xfd9c2cec8a3d4cdfc543e06b1e211bbe2a936442f51f813fb52ed1d7e57e29a683b2a10e75073252e7dddf0889c056a9083c54f3492366cc62d2356b1dcf3a12,
    0xbc5fe74fd1afc5d159caf7c0fa2d053322af30b1bc3ce7f39781e1665942ce55369c70d990791bf4850fea63940f6cbb8d33be90dd2c0a77a791d50003ee21ac,
    0xf2c83adbc4b158724efde6bfdba86316af9c8e216110ed84381d6f47385223d1a11d91bfc93bd5a1229e3f6397e14d17afad81f34acd4760fe5b22c0f9c3249f,
    0x6c81b151ba6a7ab57127d78dbc19eec500310fd22bddaae4382c6095138f89359900fef8f169f670dcc51da36e22698873689c5024ef2ee8b0a6c47f226b4789,
    0xf529607198beb029c04419038e6d2200735993820f32840c4b75f3171cbd0d39a12c9e6de2e67f456c63d9dc4c492e011f0b458c68a600e9c18113f29e72a94c,
    0xc38f4b19ed8a80bfce6d845ac432a56c6c52d60e679484e5272725197b2989dcea596d7afe5b727cade2ca2ed23b874db2e98fa2ba9d87a401c50af1101f8b4c,
    0xcc627a3e58653ac4abc6b7ed3bde77afdebb59acdd090341f99c7cb5a6208a9dcd7e48638572fba0ac27c0dfc2240c011ece4f7d78b98ba5cfa88eabd42d2e20,
    0x4bbba2f82c802386d8a16e752a949ecbc07516d1a5b088e439e96a640390027934e234d62352713d638f4e74160922217d4101096eb0a984646e3946eff3598f,
    0xc5c1fa4a576feb32aff0b32ea00aec70bd3417d8cb00216084dd7dbcc89023190d0b5eb220c2734407e17732f9fa7bae7aa0763b974ad22abccf5733c567c744,
    0x9f0ef5b30ed91954648bcb6c81362406c79461e35c4af34a43491c5f94dad05389d6230ee852505dbb2e20013c9dbceac18e563aabd76ec0133fe41d656d2b34,
    0xd7bcd1692122db1a00e2c88fdccb6d0f061a37d9f79d9d8a45532b8663474dd9ca9f3f517c88800ea811c41c59f097de699f9226f227f91e77b42f71e45b0f32,
    0xc70bb54b6283a47de1501126bea9c61b6f85a5ff05ba64942ad68e7966fd294d8fcc14d71fcfcdd7dfa5eb6dbdab98ecb63a794b4f8c61f27756e7fe3890623d,
    0x338fa98d354918f47a5deac6a0ea3fb1d9bfdcb44a360566f36952cd2ccb2c2ba51a9aae7932e49aa8f30c93853bfad11ec975d8cab79b239606f6d88639a426,
    0x64698f7f8dd2d2a6a7661fb05048dbdfc776a96c80819e45341ffba1ac4ab26e5673c86355f9c8b13ef5fa4b03025ef7203c8f93c9b5c5d4ec5b1c1e26d39b97,
    0xe39b056342e643487100c6e1264d61c8e74a26ff49345b91d355dd5ee57ee9ff626c33c2f9b37adfd2aee65525d1c560f29269c6ec6400b44b3d03ae769b4048,
    0xd4376aa732f03ee663b9c723bd1df85f15d84f39a5505b25c68d9267402eb2dab139ee9c1ccd93209993e5fb534a85286b018c3dbf2e859c3a3dc54f50d62180,
    0x8765c7b5b8cca1d00ad6aee1e70cb5997ed9c3041a7edeb9b85451635a506c6377b47cfb5ce321faa3ae20b4039ca4a8c8afac89bcb221345984026cedcbd9df,
    0x69dc85f0055e1a378763584a922a95b3b6766f8da6ccff8d0e223eeefc9c93eecfe02d9806b34d99fa2a22d8ee577d7732858e5152e55c435352ac8d0ac76c46,
    0xd007daaf5d4c7950d2d7ab5bb25da1d84f3e1dcf429a3ce8ad1df3208b53020c1c21376fa2fde77a9788e55e49011319bfd0004b6754d72d431f4c798edf9f5,
    0xdb81ff633c59984d29ef31da1eb553ff1f0ee1d8425ceebc95df3eea4ae9de9c4b13cc44f29aee577d497a927c7de8c4e6b47a96ca08a5b6d91c8e7223c823e8,
    0x64f9d86ec35212461aa9b4ad955b95e5f9ba9b4e88544b0a6c65a5a4c2bd9596deccf2aeb87330cba455f4e05fb5cb2c42e18e7695bd6e9af0f3bfa83d7d7017,
    0x580f642451b746a5acef2ac0050e6768bb5b15381de92590d73eb09cdf54b006b2a9570a7acea55d54a64b4862c8bb3b1647c53ef775d5a1ea5a0b05a826e5f2,
    0x65c56f3c7f1d54c67860ee5580da8c90ad1cd006ea9cf0317a22609a35c840376597e796a59a155bbefc404dcaee5ec9a8bb85733d9b8b6846b521c5ad28829a,
    0x155b50e833a00a51a419ff1386068d0d05a75575d7077b597f8535efe2cf3b6e1fb5870c9052556cf849618867c6dc5350f2e4fb5a5d573b3ed5cf902df20e0a,
    0xfc947e4be7a15dda39d0f225cf4d0a305555b18e8d5a2c622ad084616f95170c6030b2e3729d6e02c69cae184a34d259966e4ae3106985629acc3083abf48307,
    0x9512a7867b139499d723260e165a29e8c33bfb6d9d33a900e9eb7f0cf2a6be0c4ae036821d08790e5c509e9be1c0515eca3ed478f1a9d43ca31cc2a664b98937,
    0x208cc37db2fbfe52fe7270873ee0247f09052f156c9a7d3ce0ee50199e3cc330a30b498eefaec702ff4c5c3d8579d8693572884574d00c55743fe4a872e3a0df,
    0x5e6baaa72a1070f1e9b7d1d2e3d7b52f3c77a750184a7169dc99f7498676b25943e51997719204328b73b895f79a78b6be0130d0834a74e38a4d942f4c0384a0,
    0x660b704e9863b1d6fdbfe6f8ebf2d9ec827697809b00058a5eef60c91d76b7d39f7ceedef7e4b66b013e2cbabb99fc16bf3f1c6a38d388f563fa45fdafd4318f,
    0xd20df0e0f7bf2ef3fc2b29ae183276513d498beaa3d38d7f63a6eb23bea53aacc1938e17ea9201b862c46947144dcd99ddfb752d2c9e456c9e45a3054426e863,
    0xdee3a5a5e96273cf341c3e3df734391ae0b2fec78f4dc813831415e431e8f2bfa235653454373b14fc81ca42506b25fa217abf6f7cf56096626e8aab5c149e32,
    0x1237aaa91b6f9ad89d31854be165c1c1c1c841a8f3b8a88542dc544cc2505a3a212170d065dfc9ab9eef40e90c7fbbc8bf95ff86708adb5e5672b496ab20a728,
    0x4f2fd60a6e6662db01db6cb6c90f62b27e5dbe2e833273db3c81ea62416229e163fd249ca78f9391c89df47fa75f1ce077080bf9d7d5c7becb4331dd4a4566e9,
    0x52d93d3e29459a5e6d56509eaedb63f80955b5d754e7b46535d45fb515859d845f7ccefee6edba7003dec5a2ed1a7a0974d6ce5b3acfbdb7ca985d6b834a045b,
    0x7819f50405c1b4bed6817a881c9efbd67d837b8c6e2809d2485724397bad94566aa8914bf36827f4c94698c96e507e52bd905692549fc3e5a7ce0df52d9167a3,
    0x89fed5326942562c46848c631428409cc0132d1e3ab7ca3788440927411a5e6122ffb57288c5b3a26e88953c43c119f1d318c3ae175eda14714f777d310f9c75,
    0x81c30fcb1d5602c2b989c99037f0512130beeb02de910239b4fe7976cf34e42aabbbc55c9dfedc31fc7e24172ce8584ccdf21ef65905f9037cbfb1e2527dce9,
    0x952f0151bdf454f170306b1cf98908fddfd4cf5f48794fb3449b28c8248a01f131f45bc2a52ca381280c195f57e9596de4d338b0327906fd1c5367872658d9fb,
    0x52631b1eee149b6b4d2eb01c2966178d3b07f7ef7a00494e7f9cdf275e8a48bf756f730a81a6a270345f7ed871b18096d08c466843c8866b6c630c9bdfd1d106,
    0x28df6472364e18d08119a1602e77696eb8bb18739c8cf2594176ea06742879a0af3ac2ddf2ceacf583c7243ae60519088b0342beda8d7fb214dbc87f6b7c68b,
    0x4d5f890168410fcb81ce9f11b810a5d4633b85acd46018def72ceb0cb3229f449ee4c28db86e6d557971cec458d7971bf1c1faefb57f40e0295c2691f450b01d,
    0x719a05ec53da77695da2a9369238c74a92fa7f43611f583e65d6944fd23dc77a69c829810b4cf211502de855ac872706a1ec12ba19f867e6a892b9804c4015c9,
    0x8dab12d0af030a45256555940991723233166df978e73fd856c0f9b6aadaf8a20c1ebdced971356bf8bf51d5e0c732cf5953436ff93f5529f53010b6de78d283,
    0xe3cece47e5d036b53ecb8543854a051c6a452e9681d86af13c85d7202b0292535ade447873abcdc90d8f41633ebfe04c54dc020cc780b565d0554522d7e9a0b1,
    0x47f2cf7f6f97221167cb6940169ad6603e992c9a4658df94021cfbba6d5a4dc7665b935858a95f9addda0441e95640fd8906064d2ed6f598ee9ec06152a3a5ad,
    0x84e6e7cfb164352b76505c1196086bebb79f2ad7688e2a0cb583d16d05d467cb644768e235f3125d3344c420bbf5e550ba42c26d952310c88955a921443973cd,
    0xe5b092e4eedc143180e2bf950a190c9d0ddde8bafdad3ac4b85e39d7f8795d0fd1c4b98f30277596ba116d01ffcc969d0053af6c6aef8655ff05f530d2311826,
    0x6d7bdf6c34e68e8529edf7a9a8d0c53a0d8e47d69742bc91b5d07e016f3be19e699a8058c85e2899451498312dfd8ebb4547375d471208ee7fe74aa5d82814bb,
    0xe69f9714c3809c2b14b642a5c42f132648c9708bd050b47ffd190e8abf6b55e1dc4afe59a765c9073af3d294f5d59a007fb4e5c9b2c792ee560abd0c70f8d181,
    0x29ac9caaa5875aad894d667e9c5d360a377d954262972691ca649bc8ddfc73702153f0d3180e9ce66cf96f98852d4b81134d8a5137ead96f42bcffa9b4d7c2a7,
    0x8f37b138c9611fedede083b8771f884124301f13557dfffeee5484db88818c8eeb376b1bc5f2ef962e45903131fa89263d081a6006105049cbf199d7288af4ad,
    0x4461927e0f6c801bc93359abf90e303a19380573536dafb7f76c81a8dbec23390563efc04d736318e5b409e619707d8bd8bc13861f602dc226111a6f5f957cec,
    0xb7c843fc6068204f68ad14eeba7fc339c18416f54c0d827536e8975d97e1a14cf20f6e68969f4021c3a5138946e501671b19000f59852ca5ef2243c4a69b4cd6,
    0xb29edeec0dc8b8e5e56a43b665ed8b57da9d16fa1588aed0ec7581a782690f9cc4e7f935017ee16d2c87504de07e4db1379e5042b9fb6114878f572a1ce48fef,
    0xfb2196cb310ecf24619171a0b25372dfed0346b8ac73cfc40176c71f2e1ac058289278928317eef1ab080767fc9ac25e9c9657254561a34a62e5149c790904b8,
    0xcb3643243aba767d009bb5d20d50030a7195119de9126c8e70e3d682c708acd629e4bf8dad0d2ea9c9ed13fb8593c6e6557b44dec0f265ac0374653ccb5a7667,
    0x9532f6eb1a9c5a5f386fbf7c09ca3bde24ee554329e00922540d83c1eee8a5f45907690f6a05827fca9976c74ec9b0819fe232198e3bd52d03efd0eec60a756d,
    0xfc8e133b041986b3e5caece9a7fa8bfebb0c675aa7dbdc0fef01e49b493379fb0d0aeace84ed278bc976a62988c3c5ec5694943006f810c13b806f92cfc04eb3,
    0x3eb01e94271e309fb0ef952be78822c6ed98f36aa123ccce029917f1e810b535e20b0e55cdde5e70f2f6c9bb47038b5fa4625d8b41fb9b9ede4a837b683ac54d,
    0x183d580dddfb97627eb8dfe5d194bc2949faaee1e0d857504b63b91008c8e265e09219a425ceeb452cbc4ac02f394e1288de174b6ec2d58c6ea516508fb2e78b,
    0x353f06af84ff15e876adc53a3f0da00ec124b9aa8e1a82dc8a4700ba86d260b9abf1a0b42d06092042195c90a08ba999cac74bdbce497c15101dc9b55e265ba2,
    0xc3753f239913d9d4d23dbd53dd1414c60be3f2714053fec981a4f2cbc6819e7021b6a00eabd4699952049525feadf23b98c3defe30e48e2e66b00c8f612bfbac,
    0xe5a658f609bc58732e09d3f9cba2d48b93202c8f70b770e71284de44b636ee97a01252c56d55f7e934b499aa9f860997ac774754af6287b9b48db1dcbc3fef6a,
    0x466c9d35f348b681d1877cb1bb76b3113f576bdbdfd5f75e2dd3b59f69e319c9b2968c81db63197e8039287623b9e6fd2c4e6f228cdb61449a846225779d3be1,
    0x36850575fffe9f425604796348573cee131904f9530e961a3ecab1663aed8fd39f45391eb28000b71abd4a535424dd1c36f32571d8ffbc584b031e94cceb88f0,
    0x8d69afd3feb5380766efcbcff8cb631b25ea21888bf12a421b2090eeb11ca591a18f8878886d8f6451be54c798cf55ec674d71b64030e9b41d0767f784bcb41e,
    0xf56edb16ec659cc421845e65095e747842a7503ecbc1c3f65987c0d07add6667baaf189639712af54cb933301c73e1f22bf442865c4308467be8ac387c77d705,
    0x701aa296c629f838cc51af07c408f249695312b89782cbb030d4d268ed5fadd7e328d84643ac4c9237519f08600436f71ca5dd8e3c473eb15a6cf25d7529a37d,
    0x5a10b0b69552664f718fa4357878cee375f6cf36abc5f50145221d5e469a58d6d3fc0a2eaef3e1456d3d6d55152d958a7198b0db296aab3b963d5d5ab1215134,
    0x53077430e1513d973de5c7e6168091e9046e7fed82af5e3a414c62b3c43506ec96de1770e869b993fb00300fa40cc4be8a9880d48d666f85e7b2f96fc9599fd7,
    0x680127108098bb2c3c3a00cd2cc43ded8ef6ff390fc931bfcfba9d8acbfc3753d79275c32c5cbf7f1cb2c9606d555b69962a49b4e03334ecda573e89dfd90e3e,
    0x5a7598808a77f26ad1e4f51f19a759be18dcb68deffa0553d7662b07240632001828e849e7a0882cc6e5f7e9b28c555750cfbe5d52bf61bbe66d3e44f31d33d3,
    0x192dbaef48c84baeee4b6f438f7dfbf8481308d0bd4564e89f7523d7994356e8cf4ec34ec3a6ba2c2088c9ad41916684704777f0132e073f3789cb5beaba6a6d,
    0x34316dde305acc6f0397967b742af27a38547f20ae6b63d7a7215cf73728353f503be0995ae5ecc4170102f6ab2b0ce967467506b8050bd6d9c2a41865c79195,
    0xa8ed57e4156c815154352efc36cb62d15f120a26166e6801f83356d121465d3ef71abc6e6dcdd9fbcec3a6eeceec9d7ca985d3e876e996aada55326311ed63ef,
    0x714f142b154bfefd255d86c102df6a7bf697d9ce6087feab0ea48f1f41c1a3950f29eabf4c8b84c51496948ddf01fe93bd134765a9e868398e601c9f2726013e,
    0xd28b380f470fccdfc100551a185ed8434b849eabc96f9692452011b488ae3507018d65a00d4a27509af68812f827ffad27e5cf7751cf9794ab3d9a5e25f96b45,
    0xb5e948bd71fa60cb3c7db23b2ea793cc6c6151dc98a0010629414068100e340144ad741485e4125731cb124cddde94e8162edd3b8c11037c6a3dcf443da7b306,
    0x953e83ce539e2887bbd052f252a201507a4f8ce714b1027a530ecc8f04bf367b6dec347c95ea26565bf6dd08e07927ee4dd800336c68249256407d7f130020ca,
    0xf658ce81da3f1a5683037e23d5f29f8137978cd478d926e86499405b7c6610933ee2f8f39155102d0db6a077f3790724406ea0449f1123b6ed902f8d41a2219a,
    0xce496d414f7917463ebb6ca9178525fa77f92c90e7c8055e13606ccb9bae15cd5a7bb8a8ed3300bee0268ffab2db26bea0482fbe2dca05086e9351ae9450be1b,
    0xbd344942ff12865aebf4482ee5e77202d7b1032eca020056c4d16fe551ac159b491bd463769d15738eb5de54268b98a52efdf1ea0b419dad50283d0783d59be1,
    0xa43131f2653e85f3f05485556085892bf94cf2c4c1439dfb3d9d9d2190ef88608dcabb86273100e8de9de353a55e0344f06012b9ae1f9ee9bbdc75296632e9e3,
    0x4e8841f0a3653f71d93ac251de7d4430092ce07d6f5c031234b17d5cffb38b72b05726a7b7de88886541967ac36ceaa7952184c36d73744e4b88f07c06b760c8,
    0xeae29776ff3fdbec2bc3be6d516483c99c0d64be022f775ca8bc19e2fd9cfc2e84e65bfb486d03fa2ec96606c5db8a6fbbe8e2c5a8a8fe2192b2322dd8ca24f8,
    0x91b6ea5b02cdc09902d15fa5a1c753df27e5867baa87897d8f599f99571b75532c5a4219b5f1ffd4bc7b542b1d11ae970793b6eeb5b950b6b9718c4089aea731,
    0x856e787e9b7bd95228a824adc7edc92207630951f3ed9cbaf2faf0c4825ac98a303dd80e2ea8a87050ad86b94bf09a602996e8521065910bba0d3e52869f4ee,
    0x40e16ba6e2556aa742ab9145e5eb6b8022ef5e103e3880db8dc0f11c761d2c430c2c728caacf261fbeaa0b8ebcd6fd48bc33650b9dd0a458992a51aff417287c,
    0x25491349970999a3954ed4812853e7389edc3b1ba3e82483131cca07d5f508c081ec8390dcd20a5c27805a2148c1d5349bb33f2ad511716cdb81c0ea11fc43fc,
    0x1b297b727ff494b2a81212f0e80314c7056f043176f955ef1673ce36a30c5d2f92f049970927029cfc019acb593d96c867b2a5e18c2ce7a44ecf146b39afa4c4,
    0x5caeda72c5d13b26b4e42c74f9eda2e962dda1d0fad5b24b74ae6fe659d9ef64848387a1aa2b5fb3b2ce8ea06092320cd57c2b41ecbed5a8e6dd069bd1acb003,
    0xba6dff4c92bb05ab8d937ec260ba867cb7a18a91166b67e3c30fe5774fb28887f02de847f3f2b0d75413883bb13e820f816fa37a5d8057a752392aef284112ea,
    0xe16c2936af894802bac8bb25034e0b0036ce29eb4beb3044f5c1cc9c0459b8c333220d30bc403850062aa2d4997f90e5874501aec4ffc742dfaa542d48fb9496,
    0x80c2792e0a5a49c4408be904eebd6b52b18b28458f14f706444ae4d98b4d4fc5c6e3c1acb8198093d980f6f9d18404735ec5f757157bc3316562ef084bb59f96,
    0x105648792ae8c4372910e92d82e72a05ef4edf129a6f3437ab043bcb11227bf282a925753354cf56bce219f19a319be5e227eea68f4a58d425e9060ca508f4c4,
    0xa18337816c325fed849ab05bc99d81640d6931b415256ce3a66d0a7f0407171129ad1ebe2276b4a4990b1ffd3f396f217b2cf15bb07337f50cf9ef2127efdec1,
    0x27e9c89d693105c56b3e44e71e66c22d7645c0efa5565b16d028ca90a1514c078fc014c12671a3b595f2f0dc18d6b1e0eede0187a8a5861588635f7aee725fa5,
    0x8b89e814ce15053b331ba5fe7d16cc5d989bc1680df3dd0348b30bf8aca291045fe8de518720efb21d91afa6f6a4ee45f34fae215e016850e35d1b9df0149d88,
    0xc8a926bd513a8c269a0b994b3f61a6d46bd46f4953f2b553236764b1ff502457175bd5a92b827eb6feccb43b06b073cd0d831a1a58b11b9dd046be638d0251d5,
    0x628f571e521bfe5e5d29b89acd05bc44665775530b43aece453011e2f4138a99343cb118d4d25ae12e8a0a588bb2221823091042d30339854a4d2728b263f701,
    0xc0d0d93497ead67c43184804520030fb455e6511d840974b006e74f32c531dd2710ca0fa20c1d07864c72d7039d1d51947ce3d32ead2ec9c17649fb27f664b45,
    0x39d6e560c0963b8f832da69c724fd6ff0290582332927bd702fe2cd01ec166057162d4090c92cdaa73a3b2c246b79e5c346d8ff0ac6572c0547cd7b62d667bbe,
    0x2d39809ec4a91686a7e6129695dd20da36fdd7d39ef709173403fb0380366f12739cf8d91253abaf27df65746bd1e5e213b2ea84c7b49722d751712a5f29ad41,
    0x8fadf57a52bd4af6e174cece79e8df3254f3d5759439e35114cc654d975f127479f03da9265c4bdf08e145e34f848a3e33cfedaf34cdf8170b763bccaf48d9b,
    0x91a6e9c20249ecbbc68447fbb62c95e1c673c38daa0f41b4d73f05d9737ab09356d3c58e4b10359a803977e2fe0cc538630589380d401ab91ea02f502d6a0068,
    0x89892b3b2438eea52db8abddffa084c0a5764ab5a74f5b0d72494f6cd435eb9e81ecc057386a85099e9958b2d366c550fd9cd18ade26dfe9d82468ab9b469589,
    0x6d838a4d75810cbdc3511640d50da76c58ea9b3f796984e42aa3d453ad5c6f7af3a58f3bec5f6e9746bd3019482050d9bb21e19396068f30f59cc37664e61149,
    0xaed33bcc4553c4c0527b8f8678aa4546e3cb7aacef6f0bd4c968aeff423364aed9065b68410301edb321f36f2cc64190080012fcbac0cea036cdd536b1ebb625,
    0x14808a18a5aefaac25390af47a8f806bebcb685055afc57422a3c6af179ca1da106ef5970330654385ec26599d2df7b58dec34a527ed391564b65ab0c941f363,
    0xf1f4d3d3fde09dcf40725c44b5d9b78466275cf57242fc6144849a5a65de5dbb32cd333814acc499e15a7ce9546c04d66cb6484c73813dc3418f5044b3ce7308,
    0x1d7d298b2ad8673c3109df33557bf6d20a9114b901c3c1a24e158ee3641d9c197649a96271729922a0d52cade7a277decc6364e194234a1d01fd0c000617c48c,
    0x1d2b755fc3cd6690411a537b1481e0ccc6f2705895e08bbf88e7febbf1fd17a6385c2781156f053ba12820ade1b5b3526d4b444c7596f94f30f4d333536c325e,
    0x5bdad44c7564aeea3e4f620975e9fb67abb93414e07672f0235ecaaf118b6556b0bbd93ae492129d91dcf39eb2d9810cfc97b7d2c74f784371ee804847edd292,
    0xaed23ed78efd6c216890f9459fdd5f10572e83c627390ab37470496936b26fe593e51395f51977cbe03273d6f534539e1ca5c404327b2bdd4fa1e241320429f5,
    0xa84f7c837d47a6e57b87f5943d67acfa4b8b47c21542216e3ffb0eab23f04e8be7955afcc3ab182eaf939197c7307a6bb3365593f54b51b627311b04add976e5,
    0xcff7dd97d969fb4486f14c41d906a231f8bd1251e00970d8c7461cfac3f93e53d86e5457e05b56a588a28a936ae90c8e3b94df009fa25d385cb6ee9090beda1f,
    0x38072655bc22f3313790c17cf2ddcfd0c329cd517fab2de0046fd1abbc5213b31f2848ad23a268f6d4146403fa57d691ef80bb0365f58ba9da47a2d149b8782e,
    0xdf13f01378e4e5ed1567b4abc1001c172ca976521a5ea64928c6a7f9a60cb5fa1b4799069ff07b450e53c6d2b3efaebfe1d37dd1d61a2516edd763adbb65b7fe,
    0x22bce293d5188a8d4add530ef73c32bfcd7a0b83cc44835fe5bcac7a6a4836a533813eff39fccebfe384a57f088a19410257d8aede903c57f8b0d7067a65abe9,
    0x8d9d9c88864227bbe525f9969a3ace8dcf2dd32d12d4bf082a917f57789c89add63d928553b4f81a1b34727972efb2a81963aad7ac7f8effb26d84088d599956,
    0xc1babedbf42b7401a3d34af8b3bbe92cd64e79fabeab31f7fcdf06adc637b85afcacedd22b2871b7a959f671ffb62bfeb03a5ca653c9a50157487d9e176357db,
    0x613be060b6c7a2ca4c202b6f2190e49a6674255ced6294f69aab23f12b552cac0073eb7fed1fc9edfe118befe8d57c254e2bd749bb1cd924f49b3766a4d8bef7,
    0x63eb7b0d64ec290173d26da89c81afbd285ff215567e4dd2b2f4d1e47d2b617e9ad8c88ec64ae5410a8abc894c0dc2d244a16bc0f7111bf6b8bb1c0985485a6d,
    0x707454d9881f267681bfd993b6f8d3fd6cfe99d5a16f5624de0a4831dc44375a282c196abb61843fb231a080c94598bff690cb403e548349cb6971a119c9f5d0,
    0xb6666fd4492b0b095fbd95d2219c39b49a6e52959f3bd56d44641aa4437fe237f626515b6725b3657958d121d08c6d6f8fc81a61eed8ee264ad6a832af31262d]
  ks := [
    0x1,
    0x7192dcc56b09c57ad5262766a6ce33f6cc6034889b04357580c8cd4e771e68193bc7189fb20a322073cf4497e2e73e11ad3838364d1bcccdd7c2fa6398210335,
    0x14441410050fd8fdaf43d4fb5ed50444176f90268b06da77b4975411ec0ccbd9c919ca9cdd161731265b4b268399dac88b625bea561e45fb298edfd971114100,
    0x9a2ce2b2575e8ed3ec33d47848a7a73232242de3d8bafc26e7d4d503f25726624a54a6880a83e502fc48fc82501fd6d5087ceb19d1b6467ed64b30f940d6bbb2,
    0x100015110149df7b2ac76be2a5256e381e3bbf6745cf732008baec6afcf2c623ace29362a9bb0d08d334e9845dd7b90fb3cd2d15ac29f152e00d3f1d10111,
    0xd247004f66b45edcfaf772d567d622756427e8e4c94e156999323b41a4b6406494dd27a5482c2866e65acc953e6c1ca802a876a12ec0489a65d7d1744a5fa820,
    0x40145051502232567f8ed2bb141c91bb4659b18835226e767e35bb4d4ea22033223070273357132559fbe6cd637de198716cc0aa17571f004954de3a6cc34000,
    0xd3f75461649430f7baccb8de8abb3122d34415d120e4434a3113f2d5b5fd25d98aa9488ca195ea0bedd611049d9ec96fdadd62a138bca0565f7ec2030194732d,
    0x10001500104d8b3f76c8fc6c683d29283c2960f64fc904d0750779a2cee5850450015150414c8f3a279da96c2c7d6d792d6c71f70e8d548030163cf3dfe0d00,
    0xe1689e0daa3514c8b55b30772728405ad33e0da29d50a9ee4bb253c2fada8f576d8e60b8b105d5fd965f8c777f3f68bc9d7fac733f5f13cee7b2ffad46e6244b,
    0xc313bb145ea9229cf26228feee12db130b40c9047a7494bc5b5221e3ba262f49b914f782af5d36cf2cb456f1039e794b8e37ce632f3f4a0b023949b7e5e2e8f5,
    0x5a54046129b70cb4444c9d086406cf6526b4f0ba84f7bdafbc1830ba8f544a07d96ca149437aa8163569c88d14d51d1927ce6dd1515ca213a8418bfc42858ed8,
    0x716aaeedb8a4c9b261d7ebeaa622e5f68984b4c87686564b27f2f0ceaeeb6ca641fb01b0d35504202173c7394511f72ad214bab9b09e47d0fb79382a23bc06a5,
    0x16e93c57bf4b6125bc9bd4fd60e92b2392c860d8246d57258ffe0dce6bc7440fab607eeb94cd468e9cb5d5016b2f19f917bfb429797457bb4c359b81a70a2b8f,
    0x9f7675f3e3f7d52a80ae81f53794f9fe46eefa4218df3e126748aa420a575f50be3e974f23ffec74185c4ce5747f5fe9babe3dfa7568cb86e15515ce50b38402,
    0xa2d6b14cb644016543e27dc28bb6087dba31289e66e5cb7a11a41916bba8a28d70dcb333f4aa3fb7c2c0e11ad4b2eca566a52b7e366ce177e5c33b503195556c,
    0x877e24675614c02cfa78f8fd95843ef505bb3231007cd5696a5ef7f7009b8574c52691e067380435a7cf607aca72d33b73dffba7f99b3fcebbc93465241fb1fe,
    0xc158d50e3f3e958f21d8ca6486e8cb0eceb413d67434bb6903d494de7642acbe0c7a52b9f882e7ffdb5b537d27985722304e06f4460b0d019814d0125a4a481e,
    0xc14019a270d930e4846dd585de0e9a1bd178d8e6b51a17bbbff8ea995fe314699fe9b2d2088bb504a9de0c5283d02672ad54b47605c4a9fff60f3aa9371f7540,
    0xfb1e97f0d694ea60f80a8b2d399a475bf845cf1f2eb12c5ae883e8c45f28486e8c77ba38fcbba78700101a0e2a521dca49780fe25f114a9651d0d72b20e276a9,
    0xebeeb87a5040cdd350541cd8d6f1dca6b86aec1383bf408c4f6fbe4a616b141da21a82bc26551be9ea6678d089bba2f2def56225744eaf444ff188a1b000604e,
    0xe8ff8479115dd3684f9d6fdaace98a29b436a1a10c7c4fdde77f677571cc63d55c4d0609606ac53582245ce43e6d1e318c20f160704edb482fd651e587c6b544,
    0x4445450455242bbb2161b872d19e059dcee25acbdc670312b41268fdc526e1d0c426e0d0c507ce7ae0025df310fca0594a91aa0a0d05b7c631218c7851444111,
    0x910b55c24ab692cac3860f6e96482118c0322e4a7d611529f2a397334e3980e4207e0ffd11a7cf4da4f6f521a810995729432d9cd7d192212d3596c108de7e7a,
    0x11154100144d1895e89d26d4ebf05899b8463122c39ed02f3a0992ff161e1dd0d60b5cd1d65714007e932b113dfb50187a1d28b61481d8aae9178a2e81450150,
    0xd84cfba8f547cc33cb36560d226f0ce1c4bef63679825ec18dbbeb515d3a1f363e4d4ccd9583439d6056b61f409f3988a74cd96f8b3dfc7f5b39724ecce01c9f,
    0x5505440505785f143b9c1c961710ece98368bf46a8baa85c9110315e303d4c668f685d678f151376a1f041e0882de4cb5901a7742292a07e1b693d69ea410550,
    0x703e25c7a2adba7b31cea53b56cb63ec330064fbde55eada64564403e23ec51e5998209c79e42b1d1ad37111acccfad3b3846386e3329818526beabcadb30b02,
    0x1111451501484aa15c6ab86ec83d163dcec798194c4f2a202098f868c9a4371967342609727938e97b5e9b32fb5c3170a9a6fe003b2b0d2c12ac9e31ee90000,
    0xb90c16ac43159d759ab9daf3ee6594a5216ffd6f49c54de8b8b8a0663197a317cf25622570327f445b898fb1b0a1919ee8892a3ad34ba17d8b243ff2eca55327,
    0x15110004415b7d19c317c074248660bc4054b395ebab91716fa1ad0fcaeedac610702bd3552e479bc236bff635f61a6b55258c56be9babf63e9482c99bdba444,
    0x6a7e540490b524c32638b94351695213a045c4c883dce74a260635d50b45f3c590a899ae9fdb8c281c96378757b8abef64bd44ddc4b7d63c006aa4e3893822de,
    0x4be6aa04f749d25be3fa84a469a3ff97bda71587bdfc6f0327e8e38accc09a1847ec4041896d0c77d4bc94c8aebaffdf8697fbdc8ad2793d05295c5278dded24,
    0x4ac4437354efbc13c019c11a2816b2354a3d3c301d51613fd4e08c11225917e63e10d43bb40e0f6633b845403234343cd5d64503d00229fb98e83a36931c8df0,
    0x7e0a3a72996af1ec5f3ee1976c519c19302d3eafe7b5078db8a96a47efb81686a9603de651e600c62993737e46978522a5c39231b2f11ac0c14f14bc53b2ca3a,
    0xd856e2807bcdbbf1e3db05c901900d23157df9f6a5fa166865dc22f29a47b50dc1fecae25de73a9c4167a9cc47abd7b74dab20e8caf900aa2f814fd30ca16f5d,
    0x6bfc96d340dc77a1ac07e8e4c719ffd30a6345890088a7850bf3524d964d43f825dd413d39bfe7848696dfa65e7a026ec4818a3b7257da6582e64b7e9b5b9c65,
    0x443782a59310ef482b3e49fbe5d7de49564e71f1393ec9b6039d8cada30066837269093c96e30b6af4cdadc8d319fe72dc532fa0f6043a15bcfba5c46110fe1c,
    0x4933d08b2b736ac4b4cc368dca3db86041be876d715092e0173da89e48f36604cfba9eb4f6ad7e2eaa4fe52603ea5591fd0861250713f2e7a713515fcc450dab,
    0xf243aced3bf0f7ee25fd3aed73c6b4331f9ffa466deed47aced02f6386b01c1184211b370504ef6a8a9417068f8fccce4d62461b00c5667864a5ce76a4def3a1,
    0xf31621bb07f87b9749d1322ee27586603b9d43ab6d24f4b15131adde62e086b5c407f430aa512dbde609e24ee275fcc99c1a4f78187e3bc27c978a2f39b39cfd,
    0xfd2020630ca3937eaf1f015159cf0eaaef4fc99f8a7066c0df79ea5ddc5943eebc81a241196006b13054b8ff373c0d7bb8128094158d1beaa64846780c05d36d,
    0x44414045102478da25caeeb2c09999467a117f33e97e64d35a537704008586a718ff8f9815a4ef392c70612bc55c4ba432efe0bfb9abb76457b9ad9910044055,
    0x9fcf38207e6ff6b6c8774f514518ca32c6fef6c2cb9f900d4bad257987d127bdb45966fb10d2cadf4b70515b55ce1e0c08054d342dedeff82295a972ccd7e3c5,
    0x10101515115dc7e558bbb823f2fde2168fd00f5af5d1987b1c185fcb50b7fa7781b7be6790be2987dc481704325f09355b67b13925672359ccfee1edc0101101,
    0x9b2805bca1aa5be8b08feb053870d6e2d3657b817365b65062f29c51556cecc7dd1768548104c5b6d705f57ee6c79bcdea19188ff19e2fdacac01204b6597714,
    0x100050401048df5e860a3552ff9a846c7c3d6bcfc1dc372b04018b364e21907f3f65d57b7b2c5e74e83ef47995aa50465619ebe5afa8f7052a345a1d2510055,
    0xb1920ee012ed2d4873f47a4745ef2a15502d227fd5c9463de7256aedf181eb5038c0b503b063cc412e62d348caf3648b778c43d24253341aded84ad24df0e7cf,
    0x110114505058030163d6a614cf33e4e08a4ae9d6809ab2501b9f00b3be7fc6e3c536d6b6906f84b2f2f170b71e5166060b296a7010bc30b6debdc3102f1c1110,
    0x5d60effea2135413dcf1219a6b5c21762fad1387bac609b3cffd8b79b6c9a9f07c8eac19ebccca0b2ca76b48028ce15a3e20381ae39e30f8612b9ec8d5a87146,
    0x5501444115791923c7db7d855ad0971be8ad8e36fe88e256e37c47b89b0a01b7afd224a3faaa3d857d585d62b053e6f8572eba81010bc6b048ef674a65982010,
    0xdf4fb02beade652a94980c1159d6355642ca342c044e1f36b2afdf14828ad5726236ab35351f3ae5333062a05eb17c10bfdb15f2d0d28a521495ac569d2f599a,
    0x1111054544094ec65a78e30713e2d96c81d1f57727448bae5b98d424c751fa699fd25ae99a9f013fc4aaedfed82097c05a46fbdaf9d68116804fcbdd1dc3e0c1,
    0x3a0d12370f608befad4ed46b240ae4ac8d9e84f725be22710f34d031449133991e3218ce0873e157a0e34ca4a2bb6114236d25c9c619917968213a845552a5f2,
    0x58fbe9844858c780e09704d591d3249c732e00749ce52cc793f333f63ebeea2048710cc1b9cc2ac1c17820fc6e16e7e7f0287ef773f89ddd4baa9e495ceea4eb,
    0x2c7272ee6e445e99fb99570e330b5b75e1534c01c7c644bbdb7ab35258cf887be8d63b4485c175fc4b40c5b8b905a7a7038c423a9378c125a4785270f7dcafa4,
    0x2836fbf76ee75a3d6ad695af16207f62d7ca997a253e9fa79221b201f40693cc2b7174e6a0fd4591257b5cd35c6c0c886ee9cf4b56f6fec937c32a6a567ffa04,
    0x90fcd3c0d12737edcc6202231e77907cae502554b39a656a9bf73f74064318ae6fd17de3290009a4e5e64e3529204c6222f4d5b6062932285505cef02c899922,
    0x1a9b596d0f47814522fcb7ffecb743f5a932d1750d43a800dad4e71d33c10ae11b54d009d4da8d8a4e8bb2e49a4d6ec216da8cc16b25c1f7e4fa1619bd3c1dc8,
    0xdedc13a842c0c7fbd4fc61359e5acf18181b8676a7554252fabfef66bacaeb1459e150adefbd9f383ec9ae7cb39d6b3fd77eac47a75184660791176bc840147a,
    0xfd3cc0aba9db2a565d64f00bdf1fe3564f3fb4b92db20268dff1f821293ed74f826e5b4bd4bb7e4401fd76c3ffe2b96c722546dc230f26aa45b07d27dcb3991e,
    0xc70a321b0cd3ebe7eee2f5bae3941c769962a5187b93eeba651c762235b8c9a52e3731d722827047a235e5fbd60c5b7401055de4b2fec318fef81efb314cdc36,
    0xdb5a0502ed94a0abe477c653f612b74ce01aa78a806a66aa269e0070bc65770b23ef2105920ea098a4c4c7db293d7a973ff5ad7671240778c3c5a6bff440690a,
    0xe094ee702b282ef0c8ba0b52b39d8b8cc8f641149a3f6a7e653962851ed801aea65272ba011c9465c7789b58d6fc4f05411658880344f444abd1af1f65f5294,
    0x800028002aec5bbfc796939346725905a8dd3e23f6e3ac56f88f77c1971928c7bd3382c73ddd5b78782f31fe536bdbc0bfee3c6c43780631e79e7f8600000002,
    0x5becffe8497b33f70749ceed58892713562d4d768d69dc07397a8bfa42aaccf9575e3fb780cc2628a6561a9a67d638eb3302501bffc279cca3faf670fc5287f0,
    0x22aa222808985d858926438b12c08aaa2568e85e538ed9d4b365022b2e1ff25f76bf7077d4a725fadf9b33de46ff58f553759a218733a90bc7dad05e5aaa2280,
    0x794fe43dd0caedb1a15365ea39f82ff62ce03171b0efdef34d5d2f0533b78e7acbe41bda6bfc8e7476ebe4b92ee7f141eb1bdb67cd47a3a1088f068221c62abc,
    0x8002a802204478cad32a9d456533d4831e1e0889e1313bc3058e254b79115109485b7981ca9d21c1b173cec42fc28f8a5665dba08960e24047557e481b4a82aa,
    0xcdadd0b92bea25a807b87be6f0a3e7db2be659fc1bfc78ca0fe384a0b505f17419b3d9164ff4f20e4fc69c9c453980857bd8aeca4c10b91a3678b55eb1908451,
    0xa022888a08557d87c0dacc2ba2376bab2f9fbbd470d5ebd7c371ab3c3a15507fd578d85dff05afd81f0a3efc774533fcda6fe1012505b180b603d369efe72000,
    0x4e157af204569554e04499679abd11da364d632eca9e53ca733f8483082fa0171752b2165586cc9aa5367889804e9a2998e630a628af1ad5b9e0658d83e2dfcd,
    0x2800208028bdd3e156f586eee464c6c466467197b8768bc8d08d4f94fab9c88a88020a08a23f59e95cf5866e4ec46c4ecc6edb159a5c03407827679e5031c80,
    0x32650b1dfe444f3578a04c6017524b9636845ff06f2df3d0bb2c162631f3204daa8f76647ceeac8d6fe18cd7b45d0966b472ca6b2499a428941e00062ebf5ab2,
    0x67aed3a2ed3238b7d54ef13761ba30a16a46b4eed2f797dd929ccb741074307f69f7138d4f731b714743d498734fa2731b463f430c693b41adccb73e3934a591,
    0x99820af2c7b59f32aabf7494fa0ef978de3399284b94a588a63c79285902b10c5e6f1236274804277067755ca3c0b4bedc7bed4a0a17152e84a3d206a449dadc,
    0x5a6022ad87f7ac0234d2b1b35926e013ff160dd720ac2be52493ee3b9dba47d81e38017ef2ddd1282a715c107bc0ce0072cd1443fa0baa786cd093c756a60e18,
    0xa6a6ce848bdf296660ecd01737d49ad34429cfffac0fa98f208c6aba757402df3e434065de2175220f1e717c30a264ce1b4e8e2a0d2a829ad9ef85459d9142d9,
    0x7157811e63ccf7bfce27643678073d08ff10f5e2d016bb800c2bee263fb74086590560b7adba9822ccc8dc44f416a7a6d7ff1dd15695fead7d3c5e77893eca04,
    0x14c66a3f6272b507a918e242de53a6cef8c0b934137e2be4da84d12504b745d323b03a7068bbd64494bfd14465eb189901c4bb9bf11fbe37f65b14047be0006f,
    0x4d430afd52fb573006e0aaa36d2ed09bd811813d6d0098cb908c7b96af4899dc92b96ebe8656bc816c271334570b786a218c7244890bec19e54a0df4da30bb02,
    0xe21d909b343ad6a65c70d6ddc2414191ab8852003fb473cb775d8c50f9965eac64ae89a176fe0af0ab456cb87a2b32540767764a29e390e0331f372199b1b432,
    0xe2206f958c064ec4c5c066efdffecb311bf7a1f9dd7e7c0751134ffd3e05f3688a40b9436ee8067bf70d7d70e09fe85d73df4a0f8f9b0b63d825170af5b15021,
    0xbb21c19b9574d31c4abe779256f4614f5ce3bd5d11e3a63acd7bda828efcda299802e24c14d714508596b19b4315930767e5c8154223a35a3eb4549d1b5d607,
    0xa22a7cc9dd794a3087af10fb4a7fe5157d5ad2692b6679f348764c32dc51f3baef5f41a8243a0cd7d1a1ae35f17d231dad4c0d80d44a054977272a1fb800f0ba,
    0xa5809aceffcdf81b37d94f7e8343634ce3cc6fd57301e0f8cc5f92d3754ca7cf6cdb8a980b5a5e013504f446c53b04faa18de2a85e4ad757877b7435cc6e302b,
    0x2aa8008aaa36191415e53f4f8d8150f0d268a6d1a01e2bfacaa29244ffc79b8e576d330ed55120b0c82aa4e1faeccb5e8f85bd7d5ff1b25e9d4da14a8a2aa2aa,
    0x6a935165e5eedb8f69e23e4ceb50e0b6b1c737f629b5f86aed080a7c155d90352aa41d8ad026cfcd6bc8f32f22fec984b9fbb52f42bbe13103cd19ee95d3c3c8,
    0x2aa0228022bcbd612574dec3a2189d7facaf7ad4e6f2c849e917ec81a7333549c71317cb4785a200c26fc3aae50b083cc934c53723435d00a6a4d14a42288208,
    0x5cbff285ef1892be3b4c33a91f7f74bd9245d513d4e16618d43bbb48adc248bfa4e8b8b4a7a0cb7cf8f76533d4cd8394dd0d9adc166d0c93334cdd30ffb03770,
    0x80882a08884c91a26af6376725a9afa7c765212e052804976aa87a1378643efe5964947cd9a0af561318a331544d3bf31e839d52546c10c33b66e46721a28808,
    0xd863596c940da9cbfb7a18eb06f3762e7f80fb8a538120d9fa87aa063562e8b39ffc5176cf3a43b4b8cf5aab8fff88cebecaf6ceb7fc7c3c8de220270dbf9385,
    0x2aaa28a08234b01216e02ceaf464a7657aecfc3e3eb9c150517d8ce5f79a75be7df25f165dceeda64b127bfc8b167a59079e83006bc39cce2c0f737b2a68000,
    0xae9e5e0ed8951891b094ec2be16f08162b0f460d2c4cc9de24bc88bdc2cfeeecbe8cf2111e1a2ca212a68ab94caf87b3656485dc0aba9817fb78e096af180fdc,
    0x20aa800aa21b44bf67a460d25b4ff126a0833ee12282ea5a68938c9870aad8ef28d8424f00cbacfa65762017711739e300d9de86227a8217626344f7fa5a9aaa,
    0xe1c3820b6930dbe7df6d2e270a660d2e90a96bf54657bd315f0f714093291e69e9057f8a705ade44376774cd04ad02297b242bd56b34476600e01bb6d6ec54d3,
    0xb23e010b95374d9a36084b1ae79600e4a59da1cca506e987dc25b6d0ffe1793cac2ea0a3d66c9ed4432763f50a288050ce640a5750cdcee488c6168dcdd52cda,
    0xb0eaa75f03a8a62e603f62b944263d703164e678340a72e043b15e2ad59ea43f6329c26ab21b197f7eaca8207d727267c147a8864805470afda469766fb75d18,
    0xc31169dc7e609b2e91e2b3e56e8bf63ef84ce2083cb08cddad0661ac28ac264e0670653f8b3f01ef47ef5f43ae64c8d41966ed7bbc9ab8e1e239a3268ebcf169,
    0x5c86cc40b54946db7ee03dc3497ef7d959224d72022dd31ff0c7ccdec087c9d5a45677fcd35a05fe2a0dd57c593e28f4fdb1951135068b536060b8c59f126915,
    0x62074ecf0b3a8f2c499ab628abcd594a392a17f577b6b09e6a907a7c70a50ecbe467a023d27d67b33649e161c0a2de2a54aded071efc5fc82321ccc47b1af6f8,
    0xaa74c419efa9a93443e3b70a394453b607bbdb1aeee2f7b706f5df0d9780fe475de696e766b7936093fd8d75cfbf03dcd68fc891970a6921a78a996af2a98336,
    0x36fe6153e9b33b54f468e5ce3717f5f50b7f734faceac0e6dd6af2b2228657cc459bf0f4abd1183279970921554a5a2bbb7aceb4ced61a8d7a3175967ea89d83,
    0x1da6f7ac952d78eb11bf5c1994f8d97149974bcbf60e3633f359d13477134f630d063cbcceec44e8d813778cad6413ba7c47eb8f4460759ed3bbfb5c1bd29e93,
    0x1fa72babf33826257ff149ff7f4724fe939364e777ff67c1036a15114d9a3779ad58953047ed202db76667b8406d6bb6360bfdf8f94b6037efc651c3efbef785,
    0x4d028f7e0220382410a36bfd5ef710e505f3594cafc0a1ad8deb9d7efb55f62e01712ebf817e3b270f27f83005a700b6c1e05d6e454b07237162f461e094f6d,
    0x2aa208a882b696669ee639afa70da72a61f77fddd0a05799e100224b9650e6da00b35a3b1c46f296b6f7c33c3b7d695ac3460d4cecfab34b6331f278a80aa080,
    0xf0799450bcdcfaf6bc6e8dbfe22b1a7217e5d480e9d41ce73b1d400d7561a5ed75caf9c2efab1d59bb29d819f4c75f5fd43a784688a5225e7cc306d6ffc43669,
    0xa82808a080f93787dabc3fc55af76c23f095273b67a8509d4eb3e7b29e2d21137e87213bd4fe1cb42e9b14742efa4d30a49286829b05d12e981cccab60282a82,
    0x7bc459a746592d5ab67504ae603d74bf9ec23685b2beef25058299092e5dfe632ec2610d39315f4635d773be183b4dfc5ee2c5809d03443b3fdcd207379e55a3,
    0x8280208a286706aee36784938e7dddab44bb780470d6cb0ac02f4afeecac164ba32416c38961b245426918d2ad73c34a479dce4fdbf05f696b8956154d8a8080,
    0xbbed62b0539820f496a97d18e3bf2a2ef12b97a45a52db9e3449f8efa2e85a40aab5b7cffe91932a43859d370523171294ece2f96007f86afa7e3047bd19bc78,
    0x2a82a288889c078276461f23f9fe3bb151b0a74641783d883af1813ea3c06eb668f6c63668e8cb3c9c9a5935b38a7f0f13c661d829267936d22567a849b62aa8,
    0x9471a802152f022e579ad3f9e3165257488caecca8ef17be7805d34fb6f78718c75a0e3f227ff113cf1d6334045fb21963506c38b6f3798cf2c2f2f5c184da2f,
    0x80822aa2a04ebed66c5b45c818c965ba250ddb768255b586b746acad7b9103b4884d5b16080165c8441c9474388e3e8c85ca284282926e38b5a97d31f9fc5028,
    0xd138e842750b4fbfec51390c93a3c20cf54b0e09e77c695bcd16be206a6291d28f11067e8b0b5e480fa697ec34edf1a85f87d9c44f3c5deeec5d718a74c91ff8,
    0xaaaaa02800fa61505e5b241ee846876aeb962e762bc8fedd6272b59a7a1221204d7e1a60c5acd998132f9cfc8f3abfa02640b634cc3e4497a7260dd2b56631e2,
    0x691cad75997152288c3ac2e3da10bb0f5df24b95d9a355da99f3c87a2b6afefeb37d3dfb14de320491b73f1b142b72a2576cd9776f3fea4e6452e84a800c191d,
    0x1d8a0fca9e71b77e76f31852ad3d827377163ef0815b63ba169089d6f53b899709e91d2492a31b9b1a636078b84d67fca7aafef91d757365d51e0c3017aa1ba3,
    0x4edddcabebaa927f0afe059b7f931b51320f3e036c6fab2a5b483f0d9df8d4ca25c76b2b49625106b321e9ad2e899c9d86dea5686f4de2d99acc8dd99457089a,
    0x44768a156abd196460c66189a750c174c4707e4958e2709ced53bd03120e6e7e435a53be118429ead84b17cf16ee1f54eaa77933069682f6f467c1e187c0090a,
    0x69879e619f054352f1d822713f305acc5a322444d33ea0cd8b0b0ed12195ec84922d40b9bd3aa16b4961d88c600709742b4fb96f89b6f1274fb585944f57fed4,
    0x387b1e6c992cc228d48734002f35261186fcca509c268401d8c3bdb4fe6290b2bb03c81743d85dd1ba52bcbb79bc6ae526d85fe263d963143b89273fa4e63574,
    0xd2d67e84f1395b75ccabd5d77f7c4bb76d80b391f0c77d21793ec6fd06c2f22de5550c83531f471c92a9e83b9823d4613a9e76741bfbc69cc3d65a6e74a022c8,
    0x84e7b102d28376f81b56bf34dd54850ce85acf69207a5d482105e3d1e8d094b7bf8c9ebc3891f55af35a351aa6e399efa284560ed169d26266843bd0573efeb2,
    0xed912d3bca169543a599b68e3a0684dd2fce64fb2729728409a838d65f9fa617b112fecbafff6e5c652f5af6e1c92cd37d546de3ba72ebde4db0cd87fa3fd676,
    0xdb195884f83ba67db5f948a89bc88734e1826097ad26a6acaf6def5a08ca041cac4ed70796a0a78debb58fa76033ffe49fcdf48f5c2a012e2955612c12a0e690,
    0x1b163abd843c44a99f529130c3ef5d2dff597a2a3796161c3f8ee7448b2dc038a1f8ddc2902b762f96d4d7b1dc686b98822a79d54072b92ab024b89b17910c62,
    0x800028002aec5bbfc796939346725905a8dd3e23f6e3ac56f88f77c1971928c7bd3382c73ddd5b78782f31fe536bdbc0bfee3c6c43780631e79e7f8600000001,
    0xc95b9aa7f4617c787823a746b3db7308028d10ef20658399b823dc28db8874d21b17161756d270483207d72240ff7ad9c44a184128ee2c9adbbdf8d4543182af,
    0x1e661e180788348378e23e86f1bf86661cd85835ce85b74c6edcfe191a0aae352d952fd2b39d1ca9b576eeb5c25537acced3761f7d116706bd49b035c999e180,
    0xd73a93eb7cf1c9ba1a2a3e446cf474ab2b363b1234e78235943ebf820b7cb5536f7ef5cc0fc21783826c82c378103dbf8c429e95396d6541bd6ea885e0bde66b,
    0x8001a801d374456ccbfd69dea74d22783a9c2c45fbaddeda538fb9b832e1007dee142bfa90e28d10c0e49b17870ce806e7689ed7fa8fa5e178277f3c09398199,
    0xbb648068d5ee71b2878ccbbfd43d334fd6341c96ade91fdd55ab26e176ed6056deb3b477ec3a3c559577aadfa15a12fc03fc4df1b9a06cd7573c39ce6f707c30,
    0x601e7879f8332b7d4049bbe69e12d966e575694c2fb3594d412f66ebe9f3302ab3284834aafc9ab7f50615abd2c3115449daa0ff1cfc90806dfeb1275aa2e000,
    0x3a0cd651fc327333a03c77228994f0b6123b211a4675ceb9d1157c7ef81a9ff2f2ce6e0dcc82447663122878803a7618885def9de79af64c975fdc84815e4abb,
    0x18001f80186b4ea0cdac825a5c23bdbc223dd08d682d86b84f84c573a99747867801f9f861eac8a734537dda3a43dbc5bbda490c89cbfec0281d228a3010b80,
    0x11dcf90b55c3c51328603bdff2ce3972127c3550251b514f96e40de210aee03b667ad223d45a647b255f7bb293cb07226c2e4626e3889c1873f5fffde595366e,
    0x229a4e9e5b11e86d4cc5af12df69ef9f263d93a5b1ad72b48e7446d3f02c102ad8ad0e84c52ef6d0c2c14c77d13a9e2ef6c2153efbd8e93f64bb92ea17139c8f,
    0x777e0651bd6c8aee666ad38c5605a8d7b5ee88e7c68c6378621428e7c8fe6f0435daf1ede2c7fc1d2fdd2ccb9ebf9395b4295b39f9f2f31a7c614e0263c749b4,
    0xc9dfd19b4e1af6d496aa8d8cb341ce08659bd08fbb26d1384c84ff686e87f232dc3503af8722dd4849e5155bb4f2d77f04f0db892ba96209615bdbb9326205f7,
    0x9d9d8a7c4a028a08a540ad1096efe7b7f3716e97c0b850e1b08e7ce8c93dcecfc3e3c3596376beb1aac00e7f8dd34ec5238e525186b67a570db129c7748f3e48,
    0xd0cd4f0a120c3fbfc0f9c10fac5e85016599876314b0a11b54ecff630f7cf0f8e121dce8b2001a4e14726a97ce40f01d67e123074fdcae4591ff9f2978ea4603,
    0xf3bde9eaed6601d7e2134323ce6d0c436729bcd155972ec71976159de67cf3cbc8b2eaaa0eff206c23a09197beeb9af7d5f7bec12d5a91cc1722a6f8295fffda,
    0xc4c13654fd1ea03a874484835f46218f8766ab298042bfdddf718c0c80d647cea7b5d91054a4062f7428d047af4bbaa6ca3006740556a029e62dae57b6106901,
    0xa1f4bf8920a1df48b134af56c59cae89a9ee1a3d4e2ee6dd823edeb14d63fae10a477be504c3940036f6fac3b4547cb32869058e650e8b81541eb81b776f6c11,
    0xa1e0157348b5a896c65b3f473109d71639c4b495ef971c6660049fd5f0129e5d501d6bbb0cce6f86fd310a7bc238354bfbfeee4d0726fd000d08a7fdac90cfe0,
    0x691f4089732c4ef43995d28e3253df3acba16b34f0a1621644d6b67e7a5449e777fe5e3bf3b2f3cf83726f76c10c8efd22a347f33e1e9ec9ea6c338b0934dfd,
    0x9e19e4477860ab3af87e12b4bd8932f5e45f9a1a4260e0ca68d8616f51de9e137317c3e2357f961d1f5544b8cd66738bb18fd337ce69f8e668094cf168005069,
    0x9c80464599f33adc6853d837fa9d4f3d6e2df1718a42683314c0d4cfc92a523ff26b850dd05fa7af43367296215b91294a3089d04869b6ec383d79174425efe6,
    0xe667cf86555a65d97647f7d8ff235e56814e498dc4b72ecd16942b42b0acb9ff1b06127f9a59723fe82c42f4cbe92bb55037436348ff6a14ce2f35c279e66199,
    0xd98eff236feddbafa24508d9dd6c3194a02b396f43d19fbd0bf25caae925409630410803997428eb768d8fb17c18d5fcbde2bb52bc395b31bbaf5da18cb14147,
    0x199fe1801e6b94df1cd3b5be9e0874d5646529b3a251b838a70d5b809d111338bd0ef2b93d7c9e0041dabe99a306f8144713bced1ec134ff9d9c4f39c1e781f8,
    0x346aae7ca5087195e93bee98f52ad3948e3cb30eb3a0ddf7b3e9693864be386a9c58686c629fb92ba852dceeb3bb7e8c4b0489b40ddb0471113bb4efaa9012d0,
    0x7f87e60787c4709e265212dd1c989a9d42dce0e5fce7fc72d99829f12823ea55c8dc73d4489f9acdf1086110cc3b16aef58174ce33dbf04116dda3dd1f6187f8,
    0x4821372473fb6746a929f7a6fdaed21a2a805686317f1fb7567d66021321a791755430d245163e9397bac9997aaa87ba6a46524592abd4147b5e1fe2fb6a8e83,
    0x1999e79f81ec6ff1f25fe459ac239d2329a45415ea68bf3030d4845cad762c95d4ae350dcb45a49dc6f1d6ab86f229c8fd75810026be8bba1bfad12919d8000,
    0x658a35fa487308709073a4195f2507f219053dfb1bc4474a1c6b8794be455a5b958451f0f5f61b9e0e6279973b9a82912323834bf99677f2a9285f8d9af7fab4,
    0x1f99800661f6c395229c204e36c550e2607eea5f1e7e59c9d8717b882f99b7a518483e3affb96456232de00d2f0d175effb74a7de1d67e0d21dec3ad56367666,
    0x5f417e06d8efb6a2b524e5e2f9ddfb1a706726acc23294ef35052f3f8ee70a2758fcd579d0364a3c12dd2c44fc64fe18d6e3e6b326ec3d22005ff6924da433b1,
    0x6e15ff068ced3b761207c6f65d72005c63749f4463025882b41c924faaa0d714641a60614ddb8a4c3ee2deacf9e7803045dc0632cfbb45a387bdf27b44b31bb6,
    0x6fa662cafe98621a201521973c1deb2fef23a22813f9d1a03e90ca19b3759c152118be266e0908d52a6467e02b2e2e22bf3d678238033d06549c272dda92cb08,
    0x410f274bd5df891a70a1915cda795215a83ba1f8146f844b64fddf6418641dc5fdd02315791500a53d5acac165dc47b3f7225b296b8997a0a1e89ee27a6baf27,
    0x347dbbc06cc73db6d5a014bec72a52b7371e3b2e01e4b10aafbd444a407d474c9c322d544ec9fcaa19fb4cd43715e7ac54908cf0ecfd86cedfdf97bc8af1d8f3,
    0xde02f5baca5e17cebd928f05e2e7593f278fd96e762f581176858caaca72cac38a00636498bd4f3ebdf2818b222cd899192f734a88043166a40b1147d6f65257,
    0x662c43f75a9898ec3ea16d06173c316dfd694909a5a1ad6d02534afb728055c2cb5d8da2dd928edf8eab7b2cba95014bb27ab8708d06271f6286772651988112,
    0xedaa10ce94268419293cbe5869513d55c9bcfaf83f1b77c6e42c0b10fb93fdc115545329b0269a418747264b5174a499bc626ddbc7e20da5930486762a678b7e,
    0xb62529b8ce4d7a6f09534088c57b72f388d3946adfa121151374f13d2f13adefb02146bba5bc3a7b7f12d7b9b23f169d43d597ac3dfd375b16956cbf6b18a71,
    0xa9d1966aee81de32aaf38aad53d1c558e8edc5d2d5522bf01260cf0c489ed289b378cefc2a4e01b6d222297c024d96dedf954a857392012a54230bea56a5283,
    0x3b01852a01e017e3f06126ab35ad0fa30351373b9abf9f6484a68b2a56ccade5ff2f1a6a80d5e91d051d57effc9d006dbf5fcb25c33902e12f21ac20a073adb,
    0xe661c867b2da1f08f0b90a78e6a70ce0efc4fe89eb22faec0ff5bb4797de6d3329b3ca9322abc3ddc26760407499b5b694762c8c26066ae79bfb04d39806607f,
    0x50288c306bb456526bda7b6aa1e6f62e0d5cb38058b3f45d16f4c004d3209ca4d3465741a566f4c896e74808ac42cacab3e9d7c278631e35d441024daabc1227,
    0x9818379fb31f7fa83370f7a14df14a1860e536d479daf8106a9b07ef6ff52f8bfc5fe393653c663c4a432d78781b566f493a55c9f4acb4c4cd1fee9d20181981,
    0xd6bc0762f17f761ce8c81e87a448bd93bad7c641cad76d78538bd279ffda9aa4339cdc7ec186a76dbc870fc195a4562b1f1594c809513837afa01b06ed75cc9e,
    0x81802f862b6a90b0dbc6616cfe7725600cff03c174f08e9d10ef632b418a3d43b73ef13b51b6fc6c91ed291a069c2c46e83f6d8d34ffcef99c6c98f73b79807f,
    0x695b21903177e0538d98d4f7a16ae61a50e68d63c9ce4975ec38a85a9e58363f99936d45558f7119c17c8b12fce10d0e73a45e572002a826562a103d6b089428,
    0x19819e7878740281d23df51ea8aa1690cf6f9d3dc0d7eb78165080ea6140259227adbdedd85846eb8b89c8ec9179d5050ebddf4818e228edb1e3229838921998,
    0x73d09801f31afe1a3289b1575ef231cd387b9a4467a50d6a28034ec56dad7d0842c9fa151e2aaf0ebaf4deec03ca91f7213024179251288451be51acbf7c49e5,
    0x7f81e6619fc595b22436c347f7b8dc961cfb492d81cc937d92c26464d68f016c783b36f207ff2347c3f473d3e87a15847cb9e7c1818e25e86c98d4ef57543018,
    0xb0e8683e1fb157bfded40a19f53d2ffd63af2e3a066910adebf8309ec3cfbfcb532dfeafaf90a797aaa853f071e9c218e0369f0bb8bbcf7b1edf7a7dd3b8f557,
    0x9999afe7cce1b21ab0d20117dc61ecdf69e431ef4205622f8edbc9f733e02f9aed08f55a6a0ddad85ed0aaffe75b07e0c88bba5bc645c7ac27f651b5932210a1,
    0x270b9b2c88d0ce187be9be5eb60f96facb51c68cb761334988aeb829e6d9aa55912b14a90c4a11fc7092eaf6f3e6d19e32dbb72d251559c5dc31a7c67ffbf70b,
    0xf48635464698ffff574a152c1f48efd7e2643e6d247416f2a285ddccb6f8b7f7d17a086658f764d959eb017c0a764fd4b7d27de0897cd50209e1aeebf299f69e,
    0x3a4b4b99596671d50655fc892a8ef6cf11faea01242566e636c7eafb74a84c461cbd26e6c721cf026ee0a764e5877474824a6327dac4a1b776447b488c32f876,
    0x3c2d860cd994f723dfbddf789d3040d3bc2fd5c737a1d0745b316b010e05da2a3ec9ce95f083e759b7c6f2baf25a0acc599d28eefd8d81adac22bf5f7d400706,
    0xd882ba20b9b4ac1b2a530332914c5842f97837feea5757dfd60ca0ce056294f95839c312bd800d769715692fbdb06a53338ebf6d053dab3c7f8729883acd55b3,
    0x17d6f5db88e441e7b382ec001aece20f7dabb9cf8be27c00b7be9493aa218f9196feb80d3eb7cb4f69ce6b96d76bd9a31db7caa1deb7210c16871d1563a2132c,
    0xb1b21a7c63a0a4063e8251af5177a8941416454df4ffe37b87e018d5e7af9e9e7511f8fb186350a421ad7942ea53dea03cc1fa6474f9465504599cde2c601e47,
    0x83a2a0fe7d36bf7d73d6880e309012fd68a06ee5bb6b035cb0090431bda1bce8435976ee3ee6c1660103cda20013e5da4b37e5b23288b5ff676843b432ea5591,
    0xa48f2b168aba1e1419938f67925e124dd5d3f794465a19e757924d332f64ad77b92ca93cb3c34864732f17063d0a76ce0187f316eb81a29481841186a9eab22d,
    0xb6f707839b5ef0fe164c257a0d1becea9017f44fc05f55ff35d10048e257cc8eb218b1875b09f0d4f6a6a436bda3c7dca00f7bcd49b604c4a22775e00e605d8f,
    0x90de99483ebc3988ace70efbea534e4aac8d619ed720df4157a5d3c791b40179f57b4be70192de5724c4d6f4bd826887e19d74cc02e68e66fe397890d70fbde,
    0xb77e3a5182f6fc8e423709d6b34edd50c95d29d5cb1e1905e6dce4c6946bd3a05670b24941f40ad96be585cae461a5b5543079639b36f63368300e4763c749b8,
    0x67af01f6c11e43958ede255e185e1af23df5e832b24873838f42e6f1acb4a32fa967a7fcbe9a8a7799323e2d16ecd61a7ba23b1fadf73feb947e9cdfb9f6d1de,
    0x619e75b075873452de20466463cc17b41bdf832353d73124f107f32c946de87c39802a25a650d5a8dbcc0c8b7e506875327c59a5d0b5f1e1b9587073dc8cc288,
    0x828551a59dc57e0cf9c56d4a91aeef33e4f375c8338f0e17e1cf4a792293cd2e8d08978cefb340c99fca4418375369f97cf3b65b4d591991e129f2ea8d5b8668,
    0x33b115e5e2f08e462324b630d2421f9640b207e034d1f9999038cd4d47d41ee01bb6347d12ad8ed9fda0baac8d3fab06dd98d81b5cd85b89b1676330640f33da,
    0x425665273a207ff64b7d071eabc75870ca8fcc8fe324f4c3ed9879f81a30e2e1ae8ab3235638979a2409bfdb48bf4dbc5481d4bb89b5cd14079d7ffffa2bb69c,
    0x9108b07ae348c89c822ac4faef2edf1002316032122469e738f16a1e84551130443810c88a96d7f574a7f94d2055a638c235db60878453665c5168a60f291c12,
    0xec80b4d4280be4525f1d0977f3f2c1f358676eaee4277a0f09b45a5ff5e0577b785dab9ac8fa83865c580f81764ad2c23d0d21d80db43e10d4fb2d11e6cdbf64,
    0xa51fb349bc439ca232278171fd5fec05cb51071905db94881f32ff5ae225d6178bf16d04cc11d2a5bbc03f4a0e33bd32219c2b1134a497a8be8bb69f91b943d,
    0x181050987c9f612a2f4fd1a4d29fe5dc7e802a337837c211148a088edcfeefd5f3fc3bed7d8187f9a70124f51adbc909e6eac113a3e95629ce5c4ce0b663782e,
    0x191f6df813c06140e0a7c39da4f02f0535b8e7eac4dbb03629c9597b0977a2349c01f120ddd887c9bc2de511b5ae430847736e0c2eca81da871ea7b8f730c5d8,
    0x66280e239ee1ae5de7536b17f1211a9d0603ce0825dbed44241c488a617604cd2195eb74f1cab7c911c916c81a32a651ab0dbe59f0819fee4250e3c4563f88e0,
    0x739e53356e08fedfb93c633e72eb53edf37862e6dd040159975ece96d9ede5fd1f920b4a47b1415744bdd634846d6f7ca73b246021fed50744c8101a86906c02,
    0xbbbc375d3c1c5c6058c217285192729c40bf1b59f0d275f23f423cbe08a8c41caa7d1fe77998ef1603c345a8902bf75a35d7e42bf3e9eae34a3e69d1dfd9ec98,
    0x5a67b9a8ea507b0aebf147262dd84c215d7c7c14060dfa1a6031fb5aeb530a3545a7febf8fdd8b265812c4eea306ecae78da2eb281880e06132cff9ed1b701cf,
    0x9bb7eda4334c7ab46a025fa32e7960977c22add07bc1966849cb01592265b9420e274b7a5a3c09482c478e9194340aedcfd237ac5f7213ecc9ef3a44413186c2,
    0x8c49d6a833bede3135d7d0b9c4153b9f9f466ded693bc10d9c80d6ab264c77e7bb418b3aee26e1a5d5025a7252c8e518e1f94c60efedaa36fc31c7da90e1f20d,
    0xdec705f54516e220ba15fb772ded39f816932ace24ff583d1e0ef4d9069b77c4a49a10fad044060339ab6be6ae044b1867e85172c6d0caacbf144d7e91515685,
    0x3a7b84d8ab3ef20c721e7a3ff0992eeedc914e46ca6d10501928675e5023f02d2e9aaa4280b23d59a855437af6ce5bef81861dbfde02dc9e342630a22839e241,
    0xa85ef246b915dd27580cf40e180c78837b2e6abf37484f84b0b3e2c5767819de253b6111e420d157e6a07533aae8ef97381dcfd7a451c3ae7c25c4728ae5bf70,
    0x6083c61fda543ca9f1c976143eb064e74e80f44fb1fb2c387b5edd3f872cdb4f2d66bf67b242b161de8b15d239d15e45c2c54998ea2f31dcaf7cb4d7b9a698c9,
    0xc456ae09d8efad05580477c847441604e3e41d6f432d4fb45c01e05abfae29c9e7ef9cb0c9e3bf2247b3fca478c81feb4e31ef3ab302183b66bb7a7ac78e9371,
    0xafaa613afd0121fc435c02de5a5bf185b90c8174a3ac17b92eac7ce533c09379aeadbe892e167b9f36a44b3532de3b1456678b4e082ffbb0c8da917d2952f70b,
    0x61be69c0cb78510e56d312bab3873344b437c186317bc9c7605f02ad566874dbc79978ea5a4cbed16b9a0967be8ce86ff9e1f2aa8107cccce451a090d9b905ba,
    0xf44d470090ae5121bd546395786dce76a605e26ac241acd3c451358ee67d57152ac2c1c13b9343a837c3e755fea15b044f84b5ee9594bb4dfdf3c9ee653e17cf,
    0x67628161e54114d48ffd2ba8bdc01e5a40ce64db5f3e81fac1249e76f3ee442d5c8811bfc6b5ec06db136b7540fd243c1b5502e866c19cb56a779341573ecdbe,
    0xa5d070c85930fdd28e6f9bebe8997ed4b82eba9c8aa45934b17d210fd5d800d7e779247831ee4ec7ee8ee7275628e7e8e4d52d0f812449930e40b93425247d2d,
    0x8b3ba7fb35d38cfed2b2562a54bf99a8357a326813118aae64b20c6a073995b4ca2440970b4470d69dff84b27b16e559b251b08d57159fa0dbcf70e8c86b825,
    0x7626e68b01d83218628390697276557b51231ecf79d0870c8dba91f61219df0bff07f4531a33ccdbabe489b046d74c3ed6c35f2d1b562f56c4be8d632934a71,
    0x14095c49372003df707ca30716aa7621b8eb29b048dcd2bcff6cc31a1bd76048737e25029b20ea3509e276e06a45542fe510063bec51b0dae9d1e200bfae7a7a,
    0xf0b0d8629f537c1dbaa9003c1e12ff9803fd34a4c5661b5c67f90937ce6dac2411971f6c2a1ace0bd8a825111027e15e59940a63a26b5f418ceb667e10afb2d8,
    0xb3ca0f52988d440cdac08a400b1d14ad5f679e15b6c20aef27ecfde3ece832c30bd6823a81aa81bac5736242f7488ebe084e2791cc898390e0ccca96d3f5e42d,
    0x178d7b87b4c2c9d96390c6c8f1e222fed58c82c94769f5ffff3d2bdb2120bd1c4f316ae9e198b89e6e62763cf4f5d3d33f836c24e974855c7b3569be2d7d424f,
    0xd2f8e0adc6f987f4b2a402b8a63d30ed1ca77248d9a17437927602ab5fb5f3b9eabf4321aebf7fee9cb0858cdf85e8e86f2b5370a3a4d6d112f5c57119c72446,
    0x7e4226993431cf028c5881114505b92724bedfd14ef1900bdca96e2cfbb5f1b06a085c847f0c148f506fcaad176cfcaf1dc0adcaae41501489f722fa031d6237,
    0xb853546504040f1d54ad7a706e26728cd6e685426003aab6334a7b1edb75ddc9dfe20a7a46fa0ae1dabbbbd350058eb3a6c108c6e0e531ba25dd6e47298fab9f,
    0x764c3e9ad097bd7fdabdaa1e2b0a7642b21f9d14d9d35a4c3d9f1d92db43c8a6acf1d831f879422929fbbe7bf90bcf4d896f5319717914d961636f0e37c12fbd,
    0x1bf55039ff955016a91142c68ff85354285ff53c0943bf5096c042c93e5453f4964618b8d6caac692965081af3e3877ec431c99dbd40173d45d6a12d9c9a5182,
    0x6854a613b13698a14231e949866c5bf92565452e01a783ffac2d9d430664d94c05f45267252830f092f5546450f3e1f06307162fde6066516daedc02f973d7ad,
    0xa12273f0147d18e91f436a94955ce77dec0921984e02a6a94b6cccb23f67623360991d5d35d184d1dfaabf4caf9fbdbe88a3bcc6bde751ced8f8b6531980a6a8,
    0x614e07b81569ede8d96cc08970391a7e78439cde0c89385c9ad426a112dd08dc7a39dd6166388c390d0767fbc3b6be01c6eeac71699659d681f19851aa5f480e,
    0x5c1495bb6f2e2eb90f708e459685a76588b1de8a56cfd301022cffadd2934c08055827b43bcda664c59da49359ab415c5309dfc4ab888fa5e81f542c6185b14,
    0xe734a423448a661aec280ec710a930b8de6e06736c50be48df2e46fece43693e926a3f15d7b9b5562b2e42dc4e2a7bb71baa936dd58d1890443c819173cbc4cb,
    0xddd69addafbd5305e5b82e121f3718a385863d03e0df533984eb152f8d11975a6b1610106bdb8e603d31133a2085c826313ee5cf38cdb540382ebc3e72276eb7,
    0x368784aa659cb5017f48355a961c9228c89508f497e1148c6ba69fba932bc92654c25f4a8f6b4d45a08ee417d16569fc2f9a3882dd4f6a4da3597b591cfe38ba,
    0xe2925eabd6034fcbcf77f6d1470a5ebc52670d79e8e2dee6c8ec70f8eb91a77aa6b35e7985ea39a0ac78435d435b21862e725619a58cf543a47868c3605485bf,
    0x1442b9d38adbe78462a137ea682e70da76cb6729b655aa98e5f4c1cc86260ebf6efea6ab4bdb109fe9dc0b7e422a1b8246f5bacc60040c3289b821fc7cbd9670,
    0x69a29992e5896ad288ff48ad542377cd202210a8173efae33344b2ef659ad7e318056a17b4c4201c9276d28da56befd439239e5ac5b32089dd8795f48e62f87b,
    0x717e26839c3ab148467303d54072175a08dd623d122b4d073e4c5ff3dd0ea0c65baac963368d448db827da5029219c0ace71ef80bf99154e53b11953f4b9de4b,
    0xa4cef4f1c8e9b29ea83e20e7bb270b6a6d52cb0f753bab180fbe923c8353307847e8d719f1b46efde312c04fa7b121dbeda46200a141770a749e989596b63e48,
    0x67401b2a451da0dcbb499d9041694eabceba9ea6be9122431bc36ca2820dd433ca418b47030a18e89d941475619f08ac5a70b793ac278b87824bdd9fb8e12ae2,
    0xe9c14a6d415ad7e17b895896a76827dc8337a1f95c1ace8a5206babf9c2fd244ac292add58c9a9e93fb8cfbd64fb8453eee36bc38e7da37ccfe2678a7a7b8d99,
    0x90d29587f180c01af1577d3c67a3558bf2f8ea81da5637e983d3fb3503a45f7d53bf03ec64696f012f7f1e34a989fbb1e9e07b1499a81ef98c7b1495df17682,
    0xabd96cf27ddafb0faa02996f21ed97a5c6419547fb9df71388b305197c8afece8699a855a2126a9534af70ce1379887f4f82264b7fa8689e27376d5ac02243dc,
    0xde730090be80847bbc365607535c17645634998830ce37ad92348e0a262650e904585faa89e59474b236a0a926af5fc99a6fbbff9f88e7ba264b5d0e6d834fb8,
    0xcf7fa9063258013d3ea83d2b4dd47f145690594e5efedcef5c424d253124159c91d0a1cb21242962b02b0b69f82fae1f2caa5075bdb75103c63d18ec278ebf8a,
    0xff7aa360f5b575f09d1d335e2bfe94ff6ed3389dcb193335050d020bd91e6dcb934d966b07e47f91958a8f764d2ae4859ffbabd8145ac1d878385a5854a03bb2,
    0x285544144740de6a22c9d949aeed1b08fa3d93bbbde16aab85aa40dc5a112052cdb366fe96828055aacb841fb6c10d77ba958a61fe2ba30486eea52bcb0c0747,
    0xb55cd43183502fce45d61600da11617c5388129b9ae2de05e62beed4841cbb447c8a9c6f6ae5bfdcfa94697dd0eb21c96365b05e1ae298e6bf7b6621acc190f6,
    0x5548e6dc0483430c9f5c8d82da02b3c91537bbb2f1b97c2d311aec8bcf4904c9bccfaad5e7a61b3854b5ab464955a815c72c89c743feaa5fb4b154247530fd1e,
    0xdcc53f8daaa02214dc7d0b7fe9280fbd1f678f63471355aae4b86a581c0d57cc6fc898f83b72eb38b1c935cdc8a3d9fa3cbb0046d5b9c2ba539bbfcd8e278644,
    0xf63ff53e38dbce94b45a94a0a2dbb86bfbf8f413bdc45585dab1694eed7502733b3b8c0b6f76d15ae9e7ee4298343f5333bfc6eaf785fe3358b3f84c1ba0c87b,
    0x6cc287dc3f0eceb1cd4811429756b202773aeb224eec934af98aa42d6277bd47e7014589dd464886876eae5edd2d6f4f6f3fc45a37231f9a5479694a7432c2ba,
    0x4ce9b86e5eabfd081314bf0a2a7b3d570322dbc39d29695aa16fc77df457a0b735167facb8c5f9d92b444dcdfb2d2707cfc251c06164734048ed778ced3fa31f,
    0x6d2a163081adab85c1ed074d913a4b304734e74cb90a08fca24ba3bd8c26b160322f91c73f53f9b726a37cb9a3df636ccc1028de8912521127effa3d2142c768,
    0x229aff5240f5c1737a4a1cca0835f651eb53581191c7d17e853e5daf646c611a98dd62ab9589862d7711ea1b0da44df62961e90a9b52eaa68c2a744a97524f4a,
    0xdf75e36fe0357ee4cf04df3e5ae79c9539dcaadc6a0fd8870008f46569ca97513ea2e566b4a62137e68e252d487d4aac3b601f2b323cab7e2ddc7ad54b844187,
    0x8183009cb80b472ed25839dbf4c634e86cc7077ab5c7cd960fb09ca9fb9f7460ad2571fe73f8ade8da8c1d5c7083b5d7fee545814698f351e5f304a27b368227,
    0x116f0ca35e507a3de11c6defb1c1f5723f91fd5fec4f57777017bb3b3d4c0a5ff69213d4f19b7a48ab60699b84ea99024b77b7f6cbb7c97890dd211023faeeb6,
    0x3e32231d161fd552392b02f59942c82fb985447aa11c53bea48828a809efa1a09a79911ecde87289e3f89549386ac4943380b396876cbb0c028b2aaaa9e69274,
    0x70f86fd65ec7b8747e19bc565ae5b50ffe10dfee0e1c275d17af260a7c330f103c17f04786724d532c62a8c4e0336217be1349207d7c31223430d8620518f40e,
    0x5b806c4c1806a3ce350b072d5151bf5137dd259a5c1d29faf893c9caaca032d6d7cb6689b8567e823437fa80d239b1be14fb1f480493ea0fb3a91b0f5dbb6adc,
    0xf9cf66ec45f47a6c9bfacaef7110c446fb0524122b765f5cd05b402d800ffba5fe480eca12d69949995e2007fdec7bce34bc96277369c308c3b3c3dca8f68c14,
    0x80fcf882b8adf19e53ab09c4e755cb42a7fe6112812be0f0c79f87a4baa5ab3515416a4d48082a89d00e3acf64947075da640f16158cde745cbc45f9221281a,
    0x8f524a80ebfdf3fa062be8b63afe50313685d59bc496fede7473729072d61ec7400af1fb4b782b8941b5cf09365c107c2d125fbe5b980b67d0a6297ad104348,
    0xdde7ca1eb91708e1d82a3bef2b43678dcd6891c547f46ca74cfe62f8c53c333e36ae5a5679d000e8a08d2cec6ba30f4fb3b0bd80d22f717b7b240bb83215785f,
    0xd175feece94fc760120f3c0855faa0a261be0a60efbec8ac223fe0f352b56c2e235305bc1406ad6293a16cb81e69b7ab485d346862fa48dc7953a50d82702401,
    0x969422cb2743a6f54d5aeffa4b2dbf8d0f0322f5f4f31b3545cbb114e27673714ff609d8fe1e375dae8b1dcc12543fb6c6068baed308a27f83018db4b548a477,
    0x36229767a63029065950c2e21b483be0cb2bd40c0204a9f62010a936593106133c9d55957ab486e237f1bc5a61025b9a2849e5918087fa020ee45575b092ff45,
    0x896d6b63dd8c44b95ce5287c9e74b18be4884f728dfdba43684ca5b60432a7bb2c3fc5ac1f7d95684bf75b24ee5e94db9005c52c4881f57afdb143383f108241,
    0x84388267ddddd8c59656528ac7af788c45abf09983ab889fdb75e8e7f82a1dd840e27a6c737432cce334177a53f531888a1cec68270b62331104e84d8fa0ae04,
    0xb5bd33530fba33351317b4309f0779513d18cd874717ff8fa50ff6c9e798e2394a54f32c66aa6faeb8acf809f84eab88f7ec1899c01fbdbad0186e2e70cf327c,
    0xe9d6b3b7aa5dc32eab1134f72bd48ba37b1911ff1d663854a7ed87b4d5f09f61cc549abba9078698c806e07dcff75bda55c9dcdd37ae4fab56f64565e7e8a1c0,
    0x98359e3da444d9c84d1f4ee78c584678198c0da849850d18c09b04c237c63830cacbdc757576229d0daa0dbafbeac80dc2bf6d051e60babb6ef716d5865c952f,
    0x207ebdf549cc146750b8d20c159023a2c58053c56f56e417d6ca4b157d1bb6c51b226add6e3e6f20b586f34e174f35c341bcc777a61aef4b9ad46c4d689d8847,
    0xbc3255f884ed09d64d18cfa5b96063fa91ca20e79a59f2f764f505488f74283d8b78771591c8f8b192a48ac84a0a982610a48d5e1351f3c8677d7cd242858ed0,
    0x656620e9ab00e0abc13401b5c9c9508368fb80d39e9bf2971a642ba3114071289a6495871a0dd68aed9c391311b5e90c322286c5f81aa96fb8498f2b18ce52f9,
    0xdf6a1740759fa22f48aa137415217f3aa37b6b40b46b8f2670c0a4e5d7c9e33394aa2b23e0adf81f76bc2676f7c9355a7deb79d1fd52bf9ae6db357448970369,
    0xac3b0d00432da235ee28c39153872bd4ad6a8a1b1a8253d5ecc549fb47c50276306343c53fe75337bd748398c82da47cefc844edf12392e5ee45125e2315f2ba,
    0x22de7f20a33f0c4c7aab196794bff5c9c045dc49351580a9bf1c75d2515a3c1b34780f6abd935bfdb6f126d33fab1c14093301a7ddbf746cd9d28ec0cd15bb6a,
    0x634fd047c8efab4e7a2576a6a788d5b397e59674799c371390d4e0fab348004d5d28e3d7ef5a3a42a585a2e2cde7a2a7a3b31b057f1c388efa3f9713e31c2b1b,
    0xf86ea62aa27c856fde0201c3e7653970b1a4b520dbadc002f2ccbac37a3f47b3edbcc082f905af548880896d7f2248b3a3a8deb0317f3377418007fe7b82681c,
    0xfd21ea27a34313ca07030a1ff6beb2cba3983b66f636304b17433d8bc50ebbd54372d646c6088614c65fe6dd6196413e71903b19cd3cda72612d0d49ee7139d0,
    0xf3f8fbc721a86c60553083e089c5bc19a730ccad630979f0fa2e1b88eca310bd0708e07ba0763443576bf30bbb8e5e9a76442a5ed99f6b971da4f4fb9565d629,
    0xaf907821b986b921ec83e2f671adc48ece3d385ee79f3eaf725d5d93a035549926aff65e309fd7a918523da49250324ae2382e691c76cee1c14d772e0f9a91b7,
    0x91463531bb33512ecca49b227d57626205b4a1ce36fcce3e4dae0e2041b6213bd0908293a9f012c6131b0095cf7517152d71cac739d77aaee55013764eaca3e4,
    0xf284e682a0f62a625b94a0a5d4fd8fac83edaa7a66659b31fa1ebc37faf1a4711332252289e1fa258a140cbfce1e23ce3fcaf3abda8387156c07726e1b2b3e3a,
    0xb1a86f9b711f107914871c8a19b77e5dc4f4fa0513dde4762127a4e7d0829e1270483d9ab303470a245a5dd028ce35270fad1967e333b66e4b47162b08bd1c3d,
    0x2a3e1d88ec10bafe7bc87f0f3cfc971d1c6a4ab0c5af7006b46725e4569350902607cb83d5040c7acfdab99b0d2454650b4064b99a3f300c78ad1e56010b21ed,
    0x97cefc2330b46821b68034cda1be407d7d3457037b43ae0941cc738b533d7bc2637cfaac14c06bf0e65cb7e5524e1711b70b2ff5ddf314b759a08f391885668a,
    0x2dc41589b07294d5499499f5e6f9d23e6e0a8b0c48b1363beb750b71b6c1479d9baf4810a828c1e718a96a295706bac487253108d0d70c48df212505ed40e56b,
    0x95330175573300d98f0c1bd8557cecc18355314073e953072403e4715cc31538dc208684db99bd8e72307f6515e82d5bc10b88b6b3ff2eb3cb260e48b89cf7e,
    0xd833adf15c5a1ab5bb0bba25067858ae2c4ae8d8a4204931cb112e40183278412a8ecd58ca71820021991288521c322f0bb6da52c87026119e71e105a8d14d64,
    0x9f1e1eafc09c9a8d8fda3b6e0897ccd26b6ecb4a9ebcaa03962e1eef0f33116bf655f7b13a26ee1f1aac4b900738061552d543f5e90d349b0d43c73508806267,
    0xdf3a3297c06f3672cdc0a29aabb4982ce7575f88a0c5dfaf26b9b8e1eba537310035b7a50b7e164754c8fc02dcdf077f9711b398a522336cc5bb22cb66353805,
    0x340c7369251a1a68fad07a3c8d8362dc8790b58632454eff01e45564b18ec407fcc81d6c16bb6223bc8b638ec8993f3431074abc66878563580acc1bdf7c90c,
    0x5d139c1ec3862209a41805bd0f98ef97b5da022edbcf95c7b51a3daa45c127158e26150cb2976ccde6e5c1b43a19d692f6998edb4c84f78fc3eb808f2eb943b9,
    0xb4b2464b56235c29d98cf8ec714e99984c143f3c04f7f973d3535664611ebdb30f2f0c8a0fdf178fbb252fbd8231d562c5a18b0d6a14971ead0e3eee2e1d2592,
    0x127d7c6623746cff2ac7ecc98df471e7b87307ac72a0f384269d8a967119471dcc41cac67ad93b3c9f85a3f2b0dcd8abe5761781b4c5263b613729370baa1796,
    0x5e71ca66b2013ab9452d524f3d06359431dd04d7585e4a5db85bd057a68f62d6626eca288359e89f9bd7c134c136e0821a2e32089c84533e9c2827bedfcc7c95,
    0xc3e68b179b6a283de60ed59d81a2fb62db922e76dcc99885cac40bb821dfa6ada559d9939490f8aa74bf92a3e19f681c25369bbdffc041187681f542b948dd0,
    0x2761888e5c87264e78553864cc1ed2bb1fe1f067f2ea565eeec391a523764d5ef7fcd9f293bc1ff471d24e7b6326a54c171e8a36436ee078b4828cac7a21a829,
    0x2f2a1d8174166f383dd1014cc02e0d3607b4de14f1e6c4fd15c435514b059fbdc9664721127b3c7b681d49cfe71f740645d0a57f95770cc5ce90f73153974a39,
    0x9c459c508b10fca0e2f102bf12be9720eba792c78854516caa602b6a9b20df52eb7ab18d79fa4804f13b9e9100dd8dc98e2809b7e290d6d8969e22888d9215c7,
    0x22c00919c30b604b96c7748fc0d8c5994596759d958f1e3ef6bedb9e7e04b3eeb9c086c2fef9f7a78b73f3d3208af864362f928e9be2868281c6b48a97a0e65e,
    0xa740f624f381df8a539c2a90197b8cb2b184b49590b48de29ef7cceb91f48146b23a1acee12ef508baa2643f41e4114e70eaf10907849af5004a778229d68488,
    0x704e737d50804009af32d4ebdd61337951a85980b63212a77eb156ecfe9c352b316afea423d8daff1ad50a1398875690a75fd6f388980a577bd6f38cb50d27e,
    0x66b72451d4b656fa99fe77251f5b729cbdc08cc2a974ad0e87910308d479aa45827767cc9e0e2673139ad045f12887d53a81e2392a98278a1d12db36401e3eb4,
    0xb5d130705937eefc11092f1f4a979cdafd7a5cbab4f8daffdee6208707f3ff222a15361c51cae183c1d841337fd7a7c7a36ebee2f7285948a72d61fe24813a97,
    0xbad5570222806dc1908309fb40efbb0afd19e3076ee883c19b34619df50dc3f1596d63c336758a8e3fd3278cca57f775ced21864e93d34dff8ff5d5fe2859579,
    0xaad651206024be7af1eff3d79d09e253ead8c3b61db5d977ac0ea487ad1bebc3a7198ea32bca4720dcb3a479a6ab3103a01d4eff8e66449692fc6333cc601691,
    0xe7ccf3f3f188270c9b5c55dae1f898fe997d5aabcfe211fdd3939acad3e12f4b6d4c212fa4e8126336735d5ef00d96524338ae68d7b69add38b1c9e2b90402c2,
    0x6ccbb3ef7ecfe545c34df20049f0df2bce87f189765e4a035de6a5b383f4693c2b867425265c954ba98c272b4fa6e0b8dedc9035f65e77a26ad6dde09bbf7052,
    0xccc7924bcf36ac2ef02f6663cda200be3c7b42acf42a1c7fbffc0107a0d6ccc242679ac9740b9b479c5947965a81f57397afaf0abcfa6214297b66e7d31054f5,
    0x4bbcea84999fe1f3b42b06d558e7fa94f52285213d0ecc99a397d9c80bfb32bbdab877a816d1a6e86f471344b86148a9eb96ffc24c9741963176954485e2823c,
    0xadea9cea24fed75916d2917de5eaf9df99c187cc300104e7e69a8244bec2ceabc0cb877cf3bbdd6608977b6a15a1784e3bde95ee2f2cae30728502c0096047d6,
    0xdbbe4d4bd9b228ba3e231223f691fff8e27f8d23611946a2f873c69a3bc35bb874ddc0029dabaa2dd2efbb61d6a9b7ba0fa16b8190b10ea8893c8dc22c11be69,
    0x3ba76825ca66ab07f10c6af9e62914cd011e494174e7273660dabd2b53cd606d130dd56468435748e6c3c4bb56e4e2fd4541cf4020dc2ec0385b2d7ba4ea9ef5,
    0xdb19c2104c2cf4563a401fd90b4a5716f27a76f933bb3030ceccc4159e0c5fa5383873c73c58c53d4dab0ac30307b3a491443002055e35d1a7b10310e0c1bd27,
    0xe1899ace0ce4d2045322e95b83b0c3c99658e3cdd40078b12c1f91e439ca10735e69dd1ca5eeefb482c578a2992ea9d2cd948f4e0b61a2433ef2793d8d31c539,
    0xb52c91256ca4b8893fe757f7b2011a75d8224d897d478019af0df6a23d57bdb5c3bca058450b8d42f24fc24f5a6654e4c39422ae93bb9d0b5e5f8348c683c082,
    0x808130745b4eafcf34d30a54d7e1825eeb2b2914c8007316aa65d119b364e35ab2c1d3d007c1f6f7e64e2a604dcc01cd80e8eb374027aaee19baa965d6ed81e2,
    0xf0dacb9ef97844c1da10c64714e33d28da197f080087fab67f073397f12a36b07bacf23679e0bb97c915f9dd1e14e5811399451a3b3d4309355f4a0be1565a6d,
    0xea11d10b3ebd21e492021cb10c9dd61c581517eb3bb6f90ecc8dbd191d4b501aa00a738f9231bc28f162526c8a6b2ef33bcbb93a008b92dabb6d4c9d98a271d3,
    0x2fa8254dca4297d3d5f76bcdc9a36cfaaa0fb55a05f41d34f29ae2062beefaf0140d503d7dd1c4cee4219843a01121f295f138e02b2bef1e13efb7de030853fa,
    0x3680243bf7fd9eba1306fd1b30cf6acf12b4e376340b18a9a8714746646011b24d46dd8768322a7e13ed567fb1e89095f3a90ac7fc7159fa916709053496d9b4,
    0x5745225bc353d62476a9b9a52f0fbc3da9031c0e192dcacbb036c01b7ffaa96355c7fa460e4d88c77735e002ab5bd6ba1394721d2ed8bef8416ebeb467ad840c,
    0xf80575782a31d822260d7296418f5a6ad6bc89cdbcb35d9e54dd0d572377f91419110ee6651613c824ca7fcfcf8a507de1d617e75d67bf7c79ad16ce8e1f1809,
    0xf8532c67c922d83fe53a889b5ac6cd07c1b1e0f5cf7a12c00dc8b799e70aefdefa22998f4504ec3823c31504136e2d826b04cb1edec77bb36e12748964f03ec7,
    0xb4a289f5a4456a8a32fd0bb89d62b37d8bb1a48199eeec066b5f84d6a6fa2190c447354801d99208304ec50fbb2c6845bbdbbcc833b52b086c085393ee0cd7ca,
    0xb0d365a46b8d2ff574e1f6e5b70a0e671003d21d01d77000b11f052fd47d149f3713ffee256bf68e2155053c686a0019ed7f3b905c063c6a9225360081d01c00,
    0x7273e1b91d3e9dacc4c9a556391b6a84fafee1acac5109133cb96f0c5e2dd12f3aadf8b7aa0a12cb6586f4bbf1cc156dbdfd869a4ef861d57eff7b6c6cc79c2d,
    0x121e72dd621018fdc8cfbe5e093816a046e6b3fbfe0398ade00f98edc8ef020eeb8b33732993825e12af6bc9df01c9761838a370807d5601fa5c332c9071aac3,
    0x8724e9217833aebdb147fac9f18ffe806cee111320165e5a7731c61319ffadec3237bfe1dc42e1779698e8483878e1365ab76b53ba2f5708ee7b6bec150f81c0,
    0x83e84e2287fcda9608d6d3643939467d0c0f7bb5da244fee19d902dc4df7c432e9832aa1f84583ebf1262c7dace182075340739060a925cfb5e80d3f7a9f9a03,
    0x6c94eecefa9611130ef293ef8afd28cf14f7bb7d3d0d557a9cfaadb8a2885e1739cc511bdd99da9a686457f8a83a6687ad5bf788bff56b69b00825e5d04511d4,
    0xa74da16d557cd3cf1c140eb09d101767e6612497af9f2057325127ed56be45a5921175134e6b1027e837817f271fa436e60c9c036f35c14788b996275d5860bf,
    0x881345eb508bda6d41ee2740ff9453d138122f5a9c3e336cef7ca6c0f753d8956f9bb756fa4473db54ac25c234eb2a846b210cb488706db79f46a7488234731a,
    0x1fd594acc7440c22cf97b1fbf3701e9e437fcebcdacda3f2b246390cd4f69243091e264b25ea251f937daec5f2c513413f6bbd2d6209a539764c243b278b783d,
    0x9411fca84f136a6741eca781137c4f50bfd034602d7599c98ca6a6469f3dd76e50f52e76a62e3a3f21a9a713a44b1a9d2528537d8c9f5566983f7eb5c1837a4f,
    0xdcddd058aa4832b3c5f71d8ec31b5e78173f5473d13466165929bc1fead1e062a00170072092dfd60b41c9a56d21ca7b3b55aa0b2a599cfbd2d32fe2f7ba31a8,
    0x4ad9f2c02c8a9e1ac799f12c0ce0d516612926c06c26851dd04063a34d475eee8c66191ea064a80ad26be22dad4713362b5928b0ab3195765db6ecd3c78d0127,
    0x9be934fff2530cc620fca392b521774aabb0523452c306d7f4b69dd7d8ad315739fc3dc6c3cb5cbd3b19a023da560eab700c14132d4e8a7de0d75b31e10cae69,
    0xe1b5e51fada296eeac8215c0f7c93d418f556005b7b1b7fc3a0189cf2ad8248c3a0af9a3bde75b04c2653ce5772b99732da528d536c528050da5d0bbbb0c96d9,
    0x213ab03d47a566c5d61cd2626287b36e8d5c8dd3d77412f1704c5fa99138003b34e7a14d5ac9e9c19c8361a1bb5d619d616ef6fcd50be87a561572f15ef41909,
    0x57da62199e2b83254a01ff415d23172f909c6ce04964bffe51bb964129eac2915b6bbf81a8fc9acc787f8724d51e386e9e984a6fef2aeed2c08002aa297e27f4,
    0xab1f69e2ad896393781a1b1729c9ffbfae1e3d1f0950d85da234b1f8591459c9e8f34eb86b6e105c1200831f42c0ad9505c43ebf39444df09a0f51c35a2f174f,
    0xaea866bd2c2fb6f549f49c42031f05f1ad866fa67a45e0cb06efac06be70c0ee2b255cacb6bb819162ec8fad0b3758f6f8883182352522ac4e77f9528cdcb218,
    0x9a8fe7e0a435fa35de9a434fab38d27c8a82c3f70637ddfe7ec16e0f85fd030dcbb8514fc6e320c8a7fbca37ec7d7cb974a3cd9089824181fa2f781e05767092,
    0x70c2131096eecf1a4463891e2b32de21fc939f45edabba15c49a05e03f6de0e94f8f818e98aff1bdf1090073452cf2f31b2f4642e8b2d665a3300ed23a64615c,
    0xae7c6d81ace58b0b4c68828137f7149d4e32b214869e417406ffce93b3beacaa27331f9bae36c44cd639dac127b88c3ac00d86d1342e86d2611684de091915e9,
    0x6f67da892f0af028f382f479f76d2a34bc53a9fcf14b5c2de0e29c5d4f818a0e2fc7eb766efec2f9e3c9cb4fe7ba131d0564f722a1116dda393d0de6f86b0beb,
    0x19ea0b785bf069aa2947d505145472f4f426399043652ffd93dd1ca3cd8ecf8fe202b97eb303fbd645499776fb1c33dcf93fdc6889eaeffbd79b0a3200f91f5b,
    0x8d459be123244aca1764f1591b3651d21b85e6c38d83ad9c6fb18bf82b0519c4f709551e2529b4fff201b3f753889f8fb84d32e4c901084c72742fecf7832279,
    0x1b43f378902e73b3388c77535da8b1ea25f986fbc790ede9592cf92f6dbf3d748965380f981840a2f798d9e732fd964382e310f84fb2fbc7b51f1cfca4c05cd9,
    0x731100d332eeffb77afbf6b7ccd45bbf7eccef3fd158cefd1c015c2f34410ce84be07d83b6889485d1efd5230ca7e4c940f9786d91551a6eb91dfa38687452a,
    0xb7eeab50f8819b4613e274fe8674599cd4af8c7538a2f08be9fabf41120018ba3058b84d90b913afb0bd2f2c53b97c9a2c2661863a7fe62e30c4f5f8984f3b23,
    0x8af5c59a8cc3e4ae0052f4387c2ed5b7164c6d04d129519a22efaf241f00c05c7bee51eac08bc85aa651e7db9f5a908c1b0716e4daab17a841d517e8f87fde22,
    0x4ae9ee72bfdaedd1bb406189996c77e45d32ca879fbcb5651d97685f596312ef00136d6306d5f23d33b85401b44afd2a8d0f6e88631e112443691e46ddece803,
    0x13fbd1271cf609d8564fd6147b7ede4b828f937dee3cc5aaff5c33239085bc02abb80b240d96de1e9479217a4788eaec10fd3994227d7cdec80644094ad4704,
    0xcb0ebbf58dca732de6ece1897ed4348ba3dfd5d8edf844d9c3fc4e18d9512d89ac3f0f81b8e4b614f26961c78bba20f178c35201462c56a4044d2a811a68c168,
    0x9391f2390156a6cdcd9f4ab9ab6619710b65c12958ef9f4a1e3b68a2c51ba4142cc7f8fc2c2360d539293bc0e3a221a169d4aeb35ba3892b21ee40a1e5f4e371,
    0xf1d4e4222d9bb6806359b95aff0fbea458b8d6a68add66e74d7edcf335190d8e6de2453800de84bbdab6bffa0df925198999dac8ee1319c865f94de90699f28d,
    0x35d0b9dd91ff1668c31b31c514fdec8c10b4fc4d37ca39cb6836b0329d8521b221da46187ec8a78a894d40ec40eda07e09e5ee078b83ceea74181d6a4abbd473,
    0x415d86f289261814a205b374809e56de4971e5d24bb8887cb9bc0697e0b562649cc8b771738fa8662c6a8e615f7527f41ced896b55403f082d80acc197384b0,
    0xe2df487a073570ef52d7f53e3fa9df903a36841ff51b05aef54b2a1dfb3c0bb084894bd45802670380841b7d4350f1bb27be51a5bc8a5bf6d695d16029e09818,
    0xe519c480e0ba483d6e541dd9c4466aeb32059e310be08bcfa3b649b1dced45ee6eff3e652740867977c119eec0b8417d16044b62f17d0062009bf814ce8d39e8,
    0x743c8bcf86f054605e50fe6af1958d1fa69d71bd7833cf246620192676e04ace59299084d7563803af168a70ffb484b885e7f892a18fb2487275e187848e0cbd,
    0x1e400708bef920397242d385404843773c8dd3748c850a15ad95b68a2a03915a68bf8241aa57529d792eaeb11f8657dc121a8e7a76a1827e7f426c798d605dca,
    0x9d3f9de39dc8d8534b90fb6d8c8aea68a015b84e2b2eb33adaa71ed86abdb04747cb0ac07673c157c65402bea2ee9dbafaed874f7f2c7272452d8785e74d8387,
    0xfd0392ed7fb06ed50cb5f9d810ee60ebbc60574aa263d77d7daca9a4a0b68e4b472f6623e882e93500aeeecb753541a7d3677c9295d77bbd97808fec46cfb1d5,
    0xdd92d3cf7f25a0830db13001716abf8d5bd6507cc39153612d855b86a9c6a94657f021c1a36c707ea1439168cd551033c33489a09bd81958b1e5e3e9c00a1593,
    0x934f202ffba5377e8a1c07e8bdd11a4f64401fab37157e31e557bafc18bf659b302e1171e62fcd2eef7de1bab7000fc24b91bde9d0b7cce6d80f75ae1c7f1672,
    0x69b332fe1e7fdb408f810756c05a96f9ab08a102da587ebf76ec208b5304beaf3724debeedd37985eab11d7bb9cd52d345b1f7dc58eb13b557aacb355e7c8cd7,
    0x664dcf1fdfe395d650a5514d74f8a1cea648416df49348d29bfa63829b09594162f77a6119463d1fb46e9c289d9910fe9ff4c5aa85ddc38d8e54211144200d8f,
    0x5d4451515087e2fb89343349a0a877aa772b3666baa1f0ab4e8e89b9b15f1ac6db3be0e563a7f1deedd134ca50048dce3ee865d84d6d89b4e86f475e68fc01be,
    0x2446915ad5baa33cbec4ae0038afb5194582af78d235c60134a2636e8153d8ebe6822c1ce2347339677be2e6c5625f97b5b470135235d29e264db4a076952fce,
    0xbbbd41c689a5f6cf2afe3f3cc0c26e6cdb40ea5908a4c3b1c5a1a58385a38b3b17ff8ac2fa90e492dbfd1c2654323e51a7d14d4e160625d2a23d77594ef033ac,
    0xc6946983bbc2cd8416fde0aeb3fec78a9c77a8ddb04773ec318712391cb8deec604ad1e224d90ff78af72f97f592551873c67d09b9dd3b5355c626387ca181eb,
    0x9b59bba62f1ddfe277556dc92705c6b3b8295686b4bdcbc60d7c24bd7050751c699b81ae7800d97257b8f78d912dbabac3fe5b12674b9e316b68ab4407203d4d,
    0xb695f4c6842675436f05ecfcd62cc4ae914350dc7bb5f5faf8db18f70caf0612fa69bc845df0f44b1e6f4874d02a0016d02b0ec8f23f01b93dffd1ba1bf095d8,
    0x169d27e3462266fd50fbd9a8a218f3bb00f5c73f2c5d1d12204994e6cebb2024f104b323d83ecd385dbebc69325c5e54c33f453fe04be5bfe836e4d69c598a53,
    0xffffcfffccb792d57ae4e2e27ba391f930962bc2a4bd379b50f5a57ee5ee308529dd037a296992505035deab9db29280d54bd7b7825004214514550400000000,
    0xd08e7bbcea4f2e033606ffc019e67f548b49c7bad24124b7d0b21e44c8e417723f600b0f476f83b07e8f1d26c3ef87704e5c3fa5b9594065f7aa032577e0feec,
    0xf3c3c3f0304d257e1fda514b4e10923ac24ca420ddbf7e49c378968e41ea76326ed5baf19d9b9f40b2031849e33a24c75395e111b05a38885d91e04cd0f0c0ff,
    0x89e46e6e01821764210a5135bc3ef3172175cf63ecd49c790db9e9804bdcd2a4efee9efdd0e8ceae040d8ad5adb820cc2d607140cd3dc60b08d2baacc04d9691,
    0xffff30f00c74ad6e642d95e631cda17f5e96add3cbad11ff869a4265451bde1645e71219896fb07b113a77c34b297056ebb1b0c9be750ce5ffb150b0ff0f,
    0xb1c2cfc51124589ed349ccaea6ee702a13748c611c78c4bc27e44c41867c0f595a69e1e6ee8d8a720dfc652777969918d4d3fa2898103c5766591a2839ca981f,
    0x3ff3cfcf301e11cdd57a4e690c0b8f693dc89087ece1da2dd5ec96c4c59e1feee1efd01d1132f11cc8a95dbb212b5f77d0dbbf99f2cd0affc733b5e9dbbec000,
    0xb152fc20ef3b8287eca08aa802357ee77e55d88dbb1ef6a2bffb0b3276bad3cdafba3b01b61acba90b782e57e938d5a59cff09d76a3b9bec8fc1eb05008c2ee4,
    0xffff3000fc486ead247abdbd814e7181418dfadc54703b02cfd289e45a37cfc3000cf303f3b85161d7498dbe42b24d71b242f52fa7b3380100debaeb55fb00,
    0xa0d845fb555b616d162df2cf66bbae308183d0a32f8d50c1699b943f4c584a480d58dcedb9952104ddff5a86b7584aeb5e614c6697650a9b187a0060c25de3c6,
    0x410e96f3ca671e7451de1855a5f1b6f106c04703d62c739436ce1f5e961de538970c52819acb12451b93cdaf0175d7397a12ba211aeac606fe173892a35e5853,
    0x3633fc20e76d046c3c3b8b07dc0245231d93af967c52949a940810698533c602b72460c73ed667f213274784f3b30b08e2ba24b0cf3461f167c086abc1837a48,
    0x2f2665a4979c476e20b2a6a6621e5cad877c6c47d27dcdc6e2ae50459a5924623f56ff6fb13303e01f2ebd173cf0ad19b1f396689075c2b056d717e61e940263,
    0xda71432953920e36b894c54dfa7191e8e47dfb7e3db32e37aaa04ba26bd3c0566dfd5a68c44c27a746cb300d91af7570d6a93e728d3cd693bec897f62f9e685,
    0x8ad21cae921ade33057e9db1692fc6acf2cc7dfcacf7dd9572323cbf1c2305b543c88e40c83cc983a7fe1af74e67a7d84321c31e5177bd5ce5d8a641cf917c01,
    0x61b26f3b923c00dcc15e2b41869207d49610e78a225cb929f09c08f269679e7b2fb46eeeac66156d41bfa0f64c6e5b9cdd9ce6d5eddba0d2a34116cfef733324,
    0x82d5d3dd01442d312cccb54908df8455cc00c5d25b697b43893ff7d3e598b3a96ac08c25f47e6e43328f017ddb9cdc69fbfe812ad526ee9b2c5346d8e3f56f55,
    0xbf378305d9a21e5065aca4c1f9fbd7037505da8f77515ebc51b9d6cb37d054ef2df4cd128117cf051903107f7f3aa0613a8e2a1bbfa900de32e7e50a3639c7f5,
    0xbf3fc761e300828906c0519ece59e7f07fbe639f37b4c50dc5a20309d0b0c35da37a6d342eef0153c8802565e3028f514e78446581139c8be8eebc9ced0ad33f,
    0xa90a42af813bcb0ad2e29bf96cd5accf98aa9137bed22c52f774fd3d2f09f75f520f956d82ff0f2d503a28ae7b8366391263d2e9b75f3dac8a5be7e2e05e2d98,
    0xa6a5a7d60377d6644ad716aa360cda64a74f8fcc25d7f7e095d0cf473ac8c371b7d482ee34a564f709e8091be5240cd160e709ab51959ee28044d29b6fffdfc5,
    0x58557c28f0cb4ed83a8b25499ba779e76c12609f042bc54b5d2add2cd0bbdeb3343b0207202643137e1c345c15db0a10841faf202fc5b6c7e54dcf5c82bd933c,
    0xc3c30cfc005474439a3b8acc34d66d727537e27bef6036953cfb82d5a6f390356a3f5cca6a6b2879f03415fa92190d48133b4e4e7953696355f4d12c30c3c0f0,
    0x8f06fcbe0ada1c933b991838099b8ef17087ce048f9dc483fe94d7902006b0d93608f9d1260b2894cc678db4fa42e5b23275333c30e08a3e5e072744f84a2a29,
    0xf0cc0fff3c4f78ca78b1db3a6afc877683def1e4175b01ae9f88e550df5f4b04df9344f4dcd0c002a71190f14a9300829f4e7920c7f486658f2861a7f3cff30,
    0xb7c466986075293bc3f6d0e69a796a598cfc79d08c3cfddbd46303b1d107c5973c19c73ea5e8acdb7007b35ea2387a0748706092fb44aff473fc84c1bba00b8a,
    0x33033c030328350c168bf4720d0fa4588127953d9869983470f010ca1014c4227ad834dd7af30ed260afc0a0781b5c46c8ff62d3e18e602a092714d8a63f0330,
    0xd015d342ad2cfb0395a17e0b49e54f5d2196086bee8e6e2d733866804404738f1eaae30e01ca74a4a67b0e5b06093b31bbc80935dcbe73d68b32f36f9b6ef901,
    0xff0f3c30fcbbeeb376597b9fdfdd212784cdfcbdd7016605510d200361980e55a40c3d5a5b8b1cd5dd5979c578de2c722cc20d17833e6b90fa0deda50a58ffff,
    0x68fbf2643ef374d37668b6515a23739ce0daab2538bcc4a797979fddef729ef2bae321e32fee2ac3c978856f6f9f708a5878e6164ec69f2b791c1551a463311d,
    0xcf0fffc3f36d4f7410d402c1c7ddf943fcc6e8ca69970d0da9f64fab9a5b6420fd0194ecce5c28941ed9552135209d9331c84326a769952158c7e4776b69c3c,
    0xd9d5fc03bcdb716b98f375dcb484a00850aa978525f6955d4d0849cde32d61c659ba8be05c20e9b7a447cc2950daf425f6df14033e3d49cabacdc95a8717e1b5,
    0xc6a256039e70dce3dbb29e81a33d3b745bf4d8bfcfe9129a4dadfbf8a1ae468d1486c34551b2967d1c5e52ec07db3835a8c68103fbe1d335b9f36135d7b4a4e3,
    0xc643f12eff12f9243aec5deb9c51ffea097d3fd2af8de88e1caa2171fbd93dd8c3d2b093456c688dbea21d9473a17e9499f9eb493251e377cd4c4316710b84af,
    0x2a06162e772650a43515a08d24308bf7101b159aa29302849798d9c2a5680d82672014a230a20042188ed12a3d8d7ce19cbe8e1091af09bfbf3af394316e4616,
    0x48325e7fd6bb6950a1490347008ffb1ef32b575263560dd8234be1ae763d6cfb40aa465e34a2e98bc0dd67443d66b292c4991fa7b9a8ff99e57f3ab10460dacb,
    0x26ab8db13fb42d609bfd585c42f7554ef9dec378ff879d7cf95131c48dc4c157e34b3f14e8955d7c7d8db56235d601da43808616d1cd49dc81a2392a76c97423,
    0xc3ed4e634247c8129c0eda4b2711243e02ac04924c5770f6ae7edee584ee12fbf805fb91a4c89489fc7145ec2cba38ae9e8532d7d053edd22ebd3647df0faa0b,
    0xc7117f86d5994b6916a0f0993db70626f003a9198b8d463b5de13d0b2240ed796cb489167b0d47b5c9f082499ceb5e0f81b3f75480a15583d81a9a31443cfb66,
    0x51c1645b16afad5a1cab165b2ebd93eef575563ddb5a4c29ba4fe5217d900bf083e0f6ed0303a526798c0d027a854445c4de3df6ffbcddd7dc6345d263b5ae9f,
    0xaef22f6931e0445842540cf8258f13d9261d155b805e9bf4601ac1cb3bb1b2e995dfaf6a4f5976c4f2328091c39e39385ebded607585ed609166d31ee8917454,
    0x54e01fdefb9e8ed59af500cf37450599a53ab88a862fddbfb528a634b4373ea5947f61c0f720026f103397aaed1404d697f18073f37b09599dc7c22804034edb,
    0xc3c0f03cc3544563665d4773c42b193b1966fed3fc68ebd5993b7782e592b2e7de77860dda0a37474be5fe4d2179541cc4ee8822eac96902887cce730ffc3fcc,
    0x8abad81fe692c0b8c2c9d82d4754281772c3867ce237b86069914656675ed211ba15ded326d82be5691a119d51089884d2b7135b990b5e895b67322a444d5ebc,
    0xff00cf30f34bd5cc869681eae54a1f27ab00536534f77d6f4083546cf92a9d2809295dd706a1882b4380d03ee35071336dd6f171cdd1ec8bbaa5f5b400ff0ff,
    0x76e7fc946099c9586f85590317d04da1b123297f2edc923021ae7430ccdba442b4f2d83380fc436db2fcacd5a2428944a608f785508a1ab646400e0392372d0c,
    0xff003303cc4be98622c483d1610b09c48dd76656f0b676b53f35ad1039b03878788f37b74407d10d6a4b7b96ea84f1830994a2224bf9810e8b75699b4e30ffcc,
    0x908e35a03d137612abb734df4706880a008d35e817fa0a700de97cda4a9169b53e62907b46b72990b5eb906c241c4ef9f83016f9bc6117d70f5c6cb5c4afa2ba,
    0xf0ff3c30037f93d5a45680ee3eb2cda6b6af8c8f24cb59ab5980a510703b72db9530b117a6b311c1fe650ec697824f7d2c530e678dc4144cf080ebf41af40f0f,
    0x34dfa5559e0ecc0eb450e089d9341f2de564f17d69bdf891455486d76db898afd47a6408a6bbb9f91b9d26c7fe7ba0c9ea1fe809a175efa820e68a47b367d0c2,
    0x3300c3c0f328f71ebd492b7cc9b072f6a79b7a125587a1cda12bc297890600929ab1e39ea999eb7cd4c834de6fcea257cd1a6980ff06bd90385add39dc881ff0,
    0xb53aa0196afdb1ccf6931912b31182cb0ed03826a778c2893e90ef8d64687c54f7cf6596c59c840cbeda00cba822468f4002db19cde18210b698cec98b1ac889,
    0xf0f033cc3f8c5bdc9d7a102f15e48db80b0acd2e2c3869a36884c1c42cf5627754e3658898aff154399a4aa481f8d40363da949a8b27f0d803ab94b0b415fbf,
    0xe9fb3e12c997eb8fe1deaec4985a3262b41c579047d729b455e6156e266121f223ccf4c02eb8cd62cf94e537fc244d8ccb90cb0f3fa774f662f4bc87ccce6351,
    0x37a95883c7c842805f8d03b370b11c742ee5ffd38ba31bbd715111521595a61fc7d0fbbf68bbe640bf281fabda0da2a2afe7d5ad2ea874b4c6998a38cba59c59,
    0x1bd1d1a5da3c3588a97732fa1106c92ca0cec400bd423c6949299131c8457829584de93c7cbf2cabc6c0436868fc9d62fe843e16712840e363d7ce2fad4b9a9c,
    0xe7ed9952e9155b3e5ca96e7889bc44d8822fa314b85742f9deeacb7e49ec41c130f22f27b6c2aedf4ce3151aa99696f8f0ec928eb0025199a8554cddcdd55603,
    0x8fab81407c557f8e3ec51cfc8e711e2d5559c8f135cb14bd2658b052e7d0c71f0c922824ce699533f3681b477aad56a134e79b258048ea39761710abe47888e1,
    0x9893724fac280c31e546d555b92c1536711b0d304c167ffb64c5d0b1140f9a0f6cc4ff8b3b67b79c58691a389c4da41f2498440d91cbf52a3a9f20894ebf4b8,
    0xb5b43e980d082f83c94f3df10e6a2b0ec760a9ef398e09aaf960ffa373a869891e82331e8c02e747ba72bb7ff339b46a679e4c751f6087fcb864a7dd47c00c29,
    0x54ebbf99674919cdcb23aff94af55ecdc5156c68e491fe27b550a81f18ea4d3a81da36c6b396d5c3ff54d241555e68dbd1e33db41efae2663c902b1d4b91770a,
    0xbd0621f6c8f93477df454e74252f9a2b47b7b7357233920d73fe7760f68677e633cfec373717bd92ce268202d0495bacd5b71cebec05bad6ef43a0ad10c44bed,
    0x49360301a48c6066a3d2bdceadf192c45ff662867fd9dd99e275ffd06bdcd2f91ea51f0371fa60779c43bd4918eb298d155364d22f1c02d7bebc9d9553c02706,
    0x5f8c5a2fe6e7e5afb869f9319174868447adc0f389ead9d5dce8de7cf5b7ff659dce2e69ff0b8c2342d78937b2543afcc0f23787fec3ac3c66b09af5235318c,
    0xecc12779438d82c9632c8d3deae9b3f8adf3bd3f2e91158715b296a5de5e3a707d48eb6de10e0fb5de17472f9651776ffe2845d256ad8d2adc280964d224ed64,
    0x5478810da191625f49b137f11471178b230f1c2beb6c4a4248e395897aeef2b87dd47402e1d7cf4c55ab213b9d9abd17467326907b0ca01e5e41d2b0650db931,
    0x51514f684f44ae7bb1306556522a1c6e163042b2fa3ca9b689840abade5b1c4225403f377578bf7cb62a0acec1785c4fab42757738ef091165f4484a32caa3cc,
    0xc3c7f9775327c10a8527dbefd97998aa168acf2c2a48891c1128ef45b3da2bb9cb8cdc4a986ae0ad502f66142cfadd05c28a6d76ebf5955911bd0b9fcbf6455c,
    0x2a699f171388c96532b6ed28bb63105d60eb04102eb905555824abebe43e1190166d2e439bfb49b50370e7facba07e85b354b416f2b4764d69d4d2a85608aa37,
    0x637d57b4a730400d6ec38491fe24f448afc82ac812b68ea21b5445041728939179cfeab2fd24dc57360d6036ece0eb627ec13ee64d6f2b9e0453c000073e6dd2,
    0xd98ce84792ecacd2c33fa68798b9b0980329d02b1b365d14a489df11c67f99a8662418accfddbc0fcef405ebb07f7524a32f36d0c4467ad57279dcf508bd921b,
    0x9ac0eebe3c0e167b70938dcc0a0ba10af454d9f99634c7088d6e77700f107cc6c4737e57ac87c24572740841cd6fbba3238bb1340b6e2118be86bb9915ab60d6,
    0x8f792eaefcca7e90f525d78fd64d58a5da32a66aae90c9ba3985cfceee2a5b1679d31f7f577cc8c70e4d33f0a3f97dfa0cfb1f85d9976bf62982995b05965e23,
    0x141878d442d0d1bf38e83976bbd0173241c03f2ac42c23199ecf0cc9b281983f0a02261bc34144057481b68f97b62d8d159fa19a721dfd3d29726a90ed52c439,
    0x1590db041a2051e090f4225376883887af64941fa6b6682d3d2df5c68dcc732ed20109b0b334c42d623b17996f79628c64cad90a39afc137c491f4648ca8a734,
    0x553c09325191797314fade9c09b197d38502290c37361be636126ccf51cd06abb15f1ece892fec2d992d9dac172bf5797e8b617508c15019637892267d204c90,
    0x4a517aafd90c81b065a252a14b9efa1b0ac45395b38601f55cf1a9ddb51b1703905b0eef6469e1fce6e33d2ec65bd8c2f4a6b6503101bf84e6ac1817c5d85a03,
    0xe6622cf3a212725074a31cbc795b4bd260e096f508bb4f0b20e322e10cfca612ff439014c554989d0222e77cd83e0cf72f3c163e0a1d1f92ef215d3930351ad4,
    0xf7544d7cb5941d30599f77267d4633345b1f7c3df3e8ab41a8a6713609e3a7e85a47832775ee15cd0c349767a1ee4139fb59058782340f34fd24ffd7b96c8128,
    0xd66c1b762aea47ee5f037072b945d0dcc233fb3846215d5c6d2e81f5b35765e30934eec777220dec3a6449d95e2e0f9b283b2c7a70cb1a1aad18a76661a945a3,
    0x4a6d15fc008dea9668aaab76606dff55f83865382b458dddaa4fca3f227364d3dbd2cc60a4e8ca0f47ac46b528c74c542eebd63cdb63791c65b75bb1d8910b0b,
    0x31a4af0fcd71c88f2089955ffd69fc01b507818ac06358756986f97412cfe4e14be49a4085bb5e7add51efebaa6db554ebf245a7e6c0a9cb07001447d9f9fdc7,
    0xa7466eb4d44dd0b58c87d4b34ea7e09c1a04d74659b8342eed332330ef2b20fc04e47da4fd36788d0450d339dec2add8feab2f0c727bb4e0c9ab57753c251361,
    0xfc718b65e59f33b4f40a8e09140a44c2c6b95fe0acec6846e8ea13a7cd44153137a6d1991630b9fc15f04faa7f9c985ca413283c767922794237264bcf9760c8,
    0xd0c20d101d927942cebb5e8d679a0f91411db04b9fe51672be7ec461d3a39e2f06e6621356beb2a949e1aec576522aa79c49d138dc40af031f5c913a6575d4ad,
    0x267dd10d1e7420383390dfbf229444033acb2dfb145844388a8e67b6776015eaa92bd02f90cf3bcb1c45330817c7cbde56c724cba9fb12173278b8c1a449dac9,
    0x787f79a7a96deabda564902231045042cd57ffed0499b033417535563d39f202c4c8e30a84c01d28d5d95f51f8dafd5ec2ba72854f4000594b29a645bdfb8c8e,
    0x51615d20aec479897dba9be7ea44aae6ee2c214529c62d24d07083fbfd5c4eb62455c49f776ae1b9de570dd461ca9c5805110bffc1842aaa967970d8b5658767,
    0xe6bcc80f215220ea468c1cc822970485dda2d7c5582d6ecdef6d888025ad458029023e69b87b904540d2501529a2d46d7a8d3759c26e0dae494529f57a11c28,
    0x54d3c1d117e19ebec803be7ce320117760a956b6f0a1c107a1b6d14d8a19663bf2cc196025ef1a05b69adecfe083b62216ff839c55a152efdf4c5ae1fca1ab61,
    0x773860ac5f44d8840ecec58d5aa798bb4ce4d9f13915d9f8114cc649a82d287ba9f6348314c432dc61e6a54aae574fdc295187e402ce6b6b6efe9a2837b643bb,
    0x8cea4f40401fff17dc282440b19c5c526a214c96374a38a96de1c76467537d3157c0e4caf5333ff3a51f3590e70202bfe959aae0fcb1f336ecfcf30fcac5e437,
    0x84d3715cc2ff190e82aab6169ac68ef9c74617397ab0201e54390a5146a87bcf5d3bc22094aff9d31fce5d28d5301562a4341367fa17d5be3df0633b2bdaef49,
    0x1e0df26dacb00230c842f2849dff4d31649ebd686cb2bbe280daa297163cd06c4ac13783d6b09f2f8d134d905f67fe38179805261a7968b79d391300e0794747,
    0x88e8b453d0fac21367fd8022111b80540203aef6a7d516f254058dac295b7a36195c90da3f17a90e34fc3799983411f1755e0f52735ef0e14a9ed54118f86bb4,
    0x6a2f20fbfe27bdb570365cf348e1c7fe58096f3c9b40a3ce4c95f4d38d850365330e41e0fca29a1fdfe5e29ddf871221b387083569b544697734d05bba0f163b,
    0x9c4bee44444ff68a15ce363fcf616a841797fd8e123ea356f82cc9f726a9cb55d59a5d5a2c89bfa9217c7cdcdde4e1fa1face65adeb6c1c3a131a2e73bc3e368,
    0xbb8490fb2585440eebf603e4f523a89b92f4cb6cb571ce2c5b4d03fef06f0a651fe0e2b179e0c019d2e8c74ab0471c9c58befac8f276bdb99b8f27c99524b665,
    0xc1631dd584c5733c0de2520aa1f53cb11e3c8e1a1f6af458ca72aefb117621afe23ff0017d5745b080771e05cfb159382ccec743ba19fe2f2a92cc010293d32c,
    0x647ad657acea532c396d54db1f4712cf1548f9c0a6e1d3bbd260315021d61bea8d208d80585a54e94fc957c4ab6c922aca4fb0c9d3efaf56d0ada6e2bd487e50,
    0xcd6a09d79230387ff075ec8278fd146643cd6dbd43d95b3cdbdfe49a21fb043247bab6ee3998b845c52950b856e5f32bf236c6f98abd9884364ca70f2c21b863,
    0x160ff825005ff81dfd99e3a5c8047afe3c700fa20de260f8dda063ada17e7a0edd6514e4bdaffa5dbdd78c178a1244c1a6292d5363e01ca3e73df1bb52d77943,
    0xdc7edd1a43418f4e24bf8e7e03282f001f0ad99af797ee5682b42423124f9d2dba3df9938a6173f0a3a0cfa82be1cac8ed6aa154722853483ce7cd8585ca3c7b,
    0xf1b34a081e43949d90e2dfdedff294c31a0db1546903f5fdeedaaaeb20d4d32ad0d593f3af3946b9307fe0eaf8506361ccf262a5e314f929b484ed7a9540f5fc,
    0x51e904641fdd1b1cb5daa0cdc8259741446252b10acda472d7be35f19bb38cb2472533d1d524ca258b84d406226de1012599fa49dd5d753dc10954797f70ec09,
    0x721edf66d8b939e588c8c9675dc774d74ce931cf7da83a81833a807b3bdaea0c07f4346e262b7556a75376daf57ee1f27a8d3026fe4cc8771c10fe3a514769e,
    0x14aede32cc230ea85daa9a37de8ff1e119843b692c9b4d3a483612403e7bf566666ca25801b834854696524c3a549dac2991e6b77c3392e981bcbedfca2e26ae,
    0x333dffb3528fa138d0f2aa8856decdf7ef981da1e65356f3be11e879dc807430e3ae9adf63eb12285b86ab5963acf7f5964fab44e7d369d1c3a79da74b34d9ec,
    0x2dc446ff5752ef81c0ec2ff7dd12db3cacdf8c8edc119eca5e75d067dabe2db57ea370efc8deebe770c9961c39d7dd02385724c3b3e8df6b72f5c6f5928124e7,
    0x13db59fe17eeb391ef5a9e2aa2fd28e7d389b5e6ea701dc354153f4509405c0048d973827ac27e08826b530db19d6a8586a54179343289d391da2324d07ec760,
    0x1e63e53a4fb6144653f1ac1f5c3948b74daed4bd6d7f7fd4970ea12ac53509e0d981f5feee3698d01d320ec1633f1643658f67aa50060a2bcd64310242e35d48,
    0xdd73fd5bbda184040b167f68b840952e18ee26dfea422bc452699c59404e94d529345ddb537b6b6aa3628a3524b5c3fe9a5c6d1be412b6fcd4da2088c9538446,
    0xc9c11dc278cbb253a2dc11aca63945f2a46eed006ddd47d259e507cba490d862cb4c2f159016bdb31c1b06866eda89cf16a7242ca32d99d89df7ea7c0ee5316e,
    0xf6a98e892c9d6bd1fc21309466b48edf5bfbae88cfa67e940861db22c2faa844641cbc95096e5983129ba0687469b1361b765300f1e1cc8f4ed1d4df5ded216c,
    0x54e016bf679370b2e6ed535861dde9fe29e7d1f5e1d9b3629622daf3c30b3e2a2f614ee4828f149cd35e1e4fd1508cfa7748ec5a7a344e44436e33506491bf93,
    0x1d21c75bcb1be7ae01db674eb2ae6d376a714f2604f40599838a9021c52113a1470e3d74c9702665d84b999d85ed9dbaa67ce24e0a3b74f34f8d2bc947464b55,
    0xd8bbdf440940a01789fcc3a25472ff4e0b849fc1377d2c1d423a06af827670c3fa60821a565dd881b8c0912efd4d06691d10469ed57c11854a469edf309cdc3,
    0xfe35da8b433786887f03d5d8b11b5c7725615fe406530c9a4cea8795c2cf81a9c5d57c7f731b5fdfaef8c8a91ac54c40e843356ec07c5cd134acdbf7a0336232,
    0xb14a80d8e1c0c646622d7d04faf21cd67d2ed54c28a92c7b5b2ec90f3535789d8674707fcd175e4eeb2df0fdb5f8f02d57586600504c9467356ef3895b42e864,
    0xa8c07d852b7401a3a1fc23beeb3e409e7dd875e97181b298f2636bb7a9b61f52d938f12eb1b63dd3e83e8edd04387910baff784f636cf9822523949a3449e04f,
    0x80c7f2d08f6fcf08d393aaf13e01de80d9baa4d32e95aaaf878b830e35915b2e5aeb5d5e841640595f4fc8cd6bbf96c750067e341e77a134442477747ef0266b,
    0xbc7fce1e4e0ceae0f43ba67e3fe9cf892ffe644595f273a8bff01773e00098bc16595746e01e9b07078177ee3eca500cd831733d424674b7220788382e8a04e4,
    0xeff2be2942f83829673d1d00b719d1c27a4c1bd65793b107153e19bec612e6e642cfd258df97603287de5dc3389eb12dd2d768711793d495e0c6d5317aa1588d,
    0x7fec95b206c2e28ad0f2cb43b703ea2d9fac666b8965c23ba9979ace28ed86ad62a87fbf147516a47eef7ee56dff7c1f24bacd24e201ff706ee9fe364fa88391,
    0xb2a7a04b7ff0331eb2438ec01dbc086390d448d2e49aff7f96e45f74120bfc2a582cd48426cb9ea4e92daf2b2cf2350722e68065bf6523e77a56602b49344566,
    0xd2027a10e5a726129e14d63b5c43d5baed9b03995c5d311cf66aa280cd6ab8d1b95c8c9e510e28fe53b289d8745fb3a158e19f3cf3f071b13747bec1670ac46,
    0x5aa3c4322089a9e92bec19e3dcfdeb034ca79eb3699adaef854ff63bd34c63e41481e74d33e56cc5c4d9f971b3bbd8e8d8a026772cb290577e45ddef4e2ba3e7,
    0xea9d4c595b125833dd08731c7934faf92a6e8801a55e71a1095753029965582b12aec2bdd97a5e4dc6c95ad555d06f4497cd454c12ae4cd18b05b3cc9ba07290]
  cs := [
    (3, 0xeab77d09243e32aa4ebb0ea42ccd0f7c7d04b420bd80af5aebd8ba9693596ff22d4c1eb22c6e93fd1d55f25b55014228ebd27427bbcab0850f53ccaff2e83f65, 0xeab77d09243e32aa4ebb0ea42ccd0f7c7d04b420bd80af5aebd8ba9693596ff22d4c1eb22c6e93fd1d55f25b55014228ebd27427bbcab0850f53ccaff2e83f65),
    (5, 0x86405eeed48eeee730cb3b84f426327f2411fbe20929f51dca24c3413512de258ae1578066129571b076d58b4d008cce97cb0df7ad9ddb3ed33a74083986c4e8, 0x8b432a3369fb40f03cc0796526a0567a888f0413fb3e0a9d88205da5fbe7461a40b949d81e792f6c64d3664c9562441f5759d0bb9db5c06191a05cbc56532d32),
    (17, 0xf0f7d190f1886fa563015dd750063b505702b37b6a70356f136c5b63dd335da26d988885ff153e12ebbd18dec81e9fc1bb9a1119b166a82e00ef6372880c572, 0xb36e00bd7fac79d0383419a997bf1d32e533395b8f2db79d6f076bd64711678cba9304e9f6718ff327a896f8f81476f37d9814abe523ebfc38cbef5988946dc4),
    (257, 0x7ee9f5c378ee364248f9f0db666f1af23ceac94a658081d9de7dfdde195fc6121fb4844ea01851f32f9cdef6f6992d7af4ad7e11bc666b1eb57844648e6033a4, 0x80f6af4863a23bc897b72761f58d89db40e347b42611ebd6eeb26dfa8626d2b0da4dab387b7803ab3dd71e74da453557fbe6b8dd54ffded5c34920b57518d150),
    (641, 0x10be4c8950f0b1a74352c247e3e941e46ed58a51498a07de9cf5dac219e7e33cff7b7cd2af8c57fab239b61381930685c9ed5da3e9d8130c22631de7f894d1bb, 0x3f11e5554f7d11d9e422f32a35f8c8c5ecc507b7a900a7bc37f1421ca73d020820f2db28669fd54c79d9ab0126a8b49e4167bd27a090b94df8220975194d3ed5),
    (6700417, 0x4f35060f7554687f6e42f445131368c2b0a631c958e54110449dd7b41a70c7c79040b2d08cc081fad7b6efba6e2a9bccb47453ea872c09556a6f07704308c3df, 0xbf89549bfab98a37114d83ad04e9fb57f47bb5f4e911c4a507efdc6074652d176aba8621e7e1d0fd1e5e0c4affd802f3fd29f0a6dfb5c5407d1bb929c371767a),
    (65537, 0x854c943acd8587903b9133eb22200051743934e55e67efc8a2866aea4c0f0dd25da5a71064f4d8692c2d7f846964b3a75e7ac8f06d02572b45fab5c40ac526e9, 0x70b4e6b3991187c4819046dde242364e8697d5258ee80b04e9788b97d7d9274acae0aad864bfd07dcdb45e0675592dae29816a894a6d5ae5b97d5ef24d1adc0a),
    (274177, 0x55a63add2b132d6f3a37c8c5885a6dbe4405e39629560ae65cf0ff0e51019b388cdbff693a6b7a4e8f6d0a274eca148eaced458919c5faa5615e7c15794159c8, 0x6c1d7c630f05f71ad0f6d5d355a511191c2e717dd36ae7cb4a51ab4923e955b9f7bef979e2e0771253ab48058e43fd3b3bc706cd5f4c15137f6e2515f67e9aae),
    (67280421310721, 0x4b346a608bbd501e294174e57b9c83efd26d937fc3f3c88a5d9023c65eae30e0c5a0de4bf275e7b2d99a3723a4255048542eca26baaec9d938b23aa7aa369cab, 0xab7af8db17341b808892a5006e6bb7ff5b8ec436115dd8bcd135920b1f5f6fb2a9ec35234dc9c5efacb11561485f3c4d984c35ebb2950969cbe7d256d80a6346),
    (59649589127497217, 0x5a0fdeb85924fd54b34d91fbe2e7d9411a511ba86c97aad057a949fa37849062bc761effa06cce38f88968b47c7f3692923d3eac5881b6e3d0bf754e189eb960, 0xcffa6b7163554603aef53dc62c2edd5e7fd77106477bdd43607183b238aa1f87e7f178cf449594f7c0cc419efc5b51aa36cbeb725a17b5b598b70f00338f9f6),
    (5704689200685129054721, 0x6c3e89c60de0e2cd3cffabb7ec285c013ab09bd1e6ee69fc4770fb8d3ede72daf006c82dc975bb714dcfcdf4d2e07f74c65c12318c0a3b1d2fbac382701eaa46, 0x5690975003fac7f567287d5058b5d081645338e03f08eeeb6c590e7f631b8176498158e9f59b96eadf2b10dbdfb8cc418e1d00fc6e0b27bf0f4cfce84043b83f),
    (1238926361552897, 0x3989b3603665426ab3eecc5f1a9357c5ee74cf44d3019f8df40c4acffe651324ab4f420bcb42c3c6c8b24ee3c31520cf87187233da2ebd8904976b0c34cb2360, 0x686233d9945ff6ae9dade0ff2319e9280b039ae1fdbd541842cd70fc07d8abd6809c6603d705420a816fc3606ac343b44a43e488f38e57b789a974de4495d08b),
    (93461639715357977769163558199606896584051237541638188580280321, 0x92794aa0294c66d2d81b0d80b681418e7c20a7f012cbb2bef564f6a6ef74a461a193b668452fad8b3eab302bf7096fbd0bbb02327755d58060d0e8c850f83052, 0xf22a3a45ca760065213c58bd428502a52649a4ac7c717e5410ac9b98c37dccf48e38f2b070f88f5a85cd5678163294719b90d2640bbb19cc3fad15a7f95ab7e)]

theorem cert_x512_orbit : cert_x512.orbitOk 512 (fun k => pack8 (transform8 11 21 (unp8 64 k))) = true := by decide +kernel
theorem cert_x512_basis : cert_x512.basisOk 512 = true := by decide +kernel
theorem cert_x512_ann : cert_x512.annOk 512 = true := by decide +kernel
theorem cert_x512_one : cert_x512.oneOk 512 = true := by decide +kernel
theorem cert_x512_primes : cert_x512.primesOk 512 = true := by decide +kernel

/-- The next state, on numbers. -/
def next_x512 (k : Nat) : Nat := pack8 (transform8 11 21 (unp8 64 k))

theorem cert_x512_valid : cert_x512.Valid 512 next_x512 :=
  ⟨cert_x512_orbit, cert_x512_basis, cert_x512_ann, cert_x512_one, cert_x512_primes⟩

theorem repr_x512 : Repr (lin8 64 11 21) (unp8 64) 512 next_x512 where
  two := S8.two
  xor := unp8_xor 64
  zero := unp8_zero 64
  surj v := ⟨pack8 v, pack8_lt v, (unp_pack8 v).symm⟩
  step _ := unp_pack8 _

theorem full_x512 (v : S8 64) (hv : v ≠ 0) (k : Nat) : (transform8 11 21)^[k] v = v ↔ 2 ^ 512 - 1 ∣ k :=
  cert_x512.full repr_x512 (by decide) (by decide) cert_x512_valid primes_512 v hv k

/-- The period of outputs that differ where they have to. -/
theorem out_x512 (out : S8 64 → Nat) (h : cert_x512.outOk (fun n => !Nat.beq (out (unp8 64 n)) (out (unp8 64 1))) = true) (s : S8 64)
    (hs : s ≠ 0) (j : Nat) :
    (∃ a, ∀ m, a ≤ m → out ((transform8 11 21)^[m + j] s) = out ((transform8 11 21)^[m] s)) ↔ 2 ^ 512 - 1 ∣ j :=
  cert_x512.out_full repr_x512 (by decide) (by decide) cert_x512_valid primes_512 out _ (fun n h e => by rw [e] at h; simp at h) h
    (by decide) s hs j

theorem count_x512 (P : S8 64 → Prop) (s : S8 64) (hs : s ≠ 0) :
    Nat.card {k : Fin (2 ^ 512 - 1) // P ((transform8 11 21)^[k.val] s)} = Nat.card {v : S8 64 // v ≠ 0 ∧ P v} :=
  orbit_count (lin8 64 11 21) full_x512 (by decide) (unp8 64)
    (fun v => ⟨pack8 v, by have := pack8_lt v; simp only [Nat.reduceAdd] at this; omega, (unp_pack8 v).symm⟩) P s hs

theorem reach_x512 (s t : S8 64) (hs : s ≠ 0) (ht : t ≠ 0) : ∃ k < 2 ^ 512 - 1, (transform8 11 21)^[k] s = t :=
  reaches (lin8 64 11 21) full_x512 (by decide) (unp8 64)
    (fun v => ⟨pack8 v, by have := pack8_lt v; simp only [Nat.reduceAdd] at this; omega, (unp_pack8 v).symm⟩) s t hs ht

end Verif.Random
