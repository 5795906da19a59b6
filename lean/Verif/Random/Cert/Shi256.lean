import Verif.Random.Group
import Verif.Random.Check
import Verif.Random.Factors

/-!
The full period of a state transition, with the data for the kernel to check it.
-/
set_option exponentiation.threshold 600
namespace Verif.Random

/-- Certificate for the transition of `x256`. -/
def cert_x256 : Cert where
  p := 0x10003c03c3f3ecb1904b4edcf26259f850280002bcefd1a5e9d116f2bb0f0f001
  mu := 0x10003c0396f32c298132b61f2778b69e1aa1297eadd5e76b793a906d956fbc489
  K := [
    0x1,
    0x100000000000000010000000000000001,
    0x200000000000000000000002000000000000000000010000000000000000,
    0x200004000000000000000000000000000000000200010000200000000001,
    0x4000200004000080000020040002000100002000000200000000000004020000,
    0x4010080000000080400020000400000100000004040200014000000000000080,
    0x4010280201008080000828040402008100002004000200800010080404020001,
    0x500008020100c020401020040100008000180004000200004000000205008001,
    0x58040a030100c020001820020400808100082002040280811018080404024021,
    0x48142b01854020a0500420030100c0a010080804040040214814220501000080,
    0xc102b038460b02808180a068042c02008180a02040080011008010080406001,
    0x60520810420300c0c1403070000a02110080104040220201400200100205028,
    0x420582c1a430a0041a1c2b024060f009081c22020422d029020d018400024004,
    0x4e05a943341874025c1522c3e030b00d100d0884444060244814a147a0103029,
    0x284cbc11438ee0b05090b0480688024040c8b000460e000161c0080d048240f,
    0x1c160d10818220b051503459020a42b171980845440442b10944041c0102a04,
    0xcc402db1c0aab8b1489eb84d8668e2f0298c3800470ca04064ca0149c484c24,
    0x4c31e1cb982b630f95c54371d026c20b105d8810405e080f0810614f84322dab,
    0xad600b8d8d3b7b0e8df5a282440aefa08d88aa2e144ae7af547c08945c4746ab,
    0x3394241d1434732e8dd58283d713a90b540100380c074ea47494a937c536da0a,
    0x67b14cf2a484a306f93133ba8f6d7301ad402b8c1e223da513018d12dd05e780,
    0xd3d4795e2cefd754bd2882ec29229481477095244c4aa924d9f0ea6c67a37923,
    0xafce12949d8f4c144e90f0151cc9eda223a8fda402cb44864d54061607060753,
    0x8112518cdde613e8f88cf39592c3eaf1206c0ba71904ae77c132e92698420fc1,
    0x57b3f42fcb45789c2ef028ba566fe53019d2111413854b47604cb30d5ca0b25e,
    0x67b69cc3ca77b186c94bcbd9c41576e576e8aa3194a1c292e2d563684608185,
    0xace62a22bc6de4bd57ffd81f2073d6eb15d76028016bcac27f38b559a18de6b4,
    0xc5cff726294157a0e8976f91147a305f3d100d6e8095fa9dc609ff531c8bc8cb,
    0x95a7bf1bff49153a344391e9fdcbf894138e9dac886402093ed6051bb55f65f6,
    0xa2e670c52456eee531cc843a4c869d62191b095ec0f09f6bb8ff27acc27272c5,
    0xce31d77faf337c949b8e2277b022efa79028aac84e0470cc03025e3726d4034b,
    0xe18b0bc32fb6fc26cd1ce048776eecec08a4d688d8f29c205d1b2380c7e30f13,
    0x8c00dd25fba97ee83d16722d88cde3ff98a31540687f7fdfb434fecb30a76f15,
    0xc026e294790cb27aa3a25c1847d48cea118199a6d015f335a09736aea3716e22,
    0x2829fa34ef6655233078ca9d02cfe2c812b4f31034b011fd71304d9c0a682f6d,
    0xc89bc753a1249b7aa768ee612b5dcda553fc74113c17dc584bad44b8d1be6bb3,
    0x68e4536cf66853a604e7d2f64253a616bf39dec8c6f47a4ed0caf7fa4c8d2c91,
    0x853d1afbb1b4861369bca8e4fa428a876b14fbc4c82af0c907177a5e7c110579,
    0xcedb5dc53c27ef33992242ef67c18ffe05bf297e4e797f37e93e9b61058f73a3,
    0xd200996c8e976e4b22e0457c9c20fc5d75a3f0f02c37836a225aefda77d1e3a7,
    0x1da434f46d339454e15af2c9ed251ffa75195a56c7c69c9085f98646d5710e86,
    0xa1188d17add4555ed00efb020174117c11ba2ed9ff928deced44e8e47f840642,
    0xdb1656145479ca4860f9ecc36528173e2cf03d3f81629ad25de64b2a2dc2def0,
    0x6a135efccd657aa34760a52c7d4ec9ce11ef9ad6c988531caa002001f8d98e6a,
    0xa537ef7f9885409dd8cd163d23af47a4fc8f1ffb4c1f14b8d1fce42bfc34a7d5,
    0x4a84ab371e109a9336c76a28f6ebe071f5beeded9384f4c9884414af28aef3f0,
    0x8dcb57e748db51b26558598e37d713814b3d936a4dc1e748377e5275a53a9daa,
    0x56df58ded891a0a374f290785c7d8e2b191b9891df2c6963f18896f8a0202b50,
    0xb93809f89809e0f7b459b8d82e9ba57b9c619e112371cc18be4c56b7a79de290,
    0x59de4ab32fd376f3637a88c113647eb9674707eaa778bf39b15c15e1ce5ce7f,
    0x5793927d329ab3114ddf3d3d1a3589943b5619aca7a4026708fc558b846f72e3,
    0xd62ecd98b17a32a7767a27fe9a94fb777e75711a39fef9106439de5a1151c395,
    0x9976f50b77905110f0778a5979e538e26c3688beb23bc1f2cc6262d899d50822,
    0x721c5ea80fb6b8b52d688cf663d430c05023603f520bf13239221f6d5c7e98c0,
    0xa930e447e7d2ebb7d434378cddcea8004469f3a46da159321b1d21fa01c3d147,
    0x7650bdab22fc714e2861cd346e6979478b40e5d2b1ac2075f64436198bb063c2,
    0xa277fa20b0f326a15809875a5331a8555651eff54753af00b546e6018e032f9,
    0x41134be84c2babef232a5effc833287c4bb1e8eae9a6128c54160f3d479a3a63,
    0xb72c6154546054b1a6e9828eaab1121f3c8db928660f00935eb4ac3fe2178300,
    0xea8451743b0f864d8a0de2af4980911fc4d097992ea9918cd5157443d078d722,
    0xc2f825ca98dda2b4702acbbfbae0463d9bc80175b751d7b1fb41b2aec5dec0e3,
    0x8ea0ab260497e5f1898017b2d05c86de10a37864c86f516fa2719611ea52b5e6,
    0x1693d3c07a68599fdb38117d98d033383b52f9c7f26162573c72455326aa0178,
    0x277905b82540f10114c5b0ec7ad43240dc18ade94c1b501711b36f54aea33ab0,
    0x7422df6c350a2d2b5ea4478e745908f0d96e7251986c58e7ead2c705c7f89ba6,
    0xceb995a995a7b5ac50d5b053026f93566d18f2da2bcdcbb1479e6a386a9eee6a,
    0x4fc3b4742cee77cdf2ff8df0ff937d3c7a5328b1433cb68de43f0d4bd4f49077,
    0x582806b21398adfa47a206c2467ded4b6c93a80a685b5bc6d1af918ebb265137,
    0x7ec7869775d70f78c61947fa4ad7bc7cfa9e3f469500e7bae5143f36c0e5a70b,
    0xfd18508b373a3c1a5d8052cd45461b77d993478a1f32fccd614d86e720324fc9,
    0x181ae49162e02501b3d9ea4f9cee54bee55e93a07a46a87345c691e6083a8f1e,
    0xd1ae5fa88ee62314d15f8f24c432dba01341e809ee9273d3b882e6d7109c026c,
    0x8a18f85df6f42c0eb9ceb4d73308d9cc7a9c81fa3a3caa1f7a6d517670e852ab,
    0x10c23e108f34f999c05791d817de8b67b93f645b79dc21788ae928d1bc20d4ba,
    0x1b1c353fab497edd82084ab1e90e5fddf381dd52d2227ea52314729a4ac80c5b,
    0x600f1d13bd0daf2d1bb99c6f5e8c5386529de57971e42d23cb899af733a30c23,
    0x3041c6525f0d599d1ac2e55037695fa582ade3e11ccb7286f91b629dff4a8e2d,
    0xc563765d84b66878241bbe5b2d2fd1886174642cd4e8a30e4bf7472ebc8ca536,
    0xd96ed482e24e2a0ba7b550a4d7bf74be0e989d59454bd7b0efe0555fecd26e40,
    0xbfb77afec93b74e072e78f6c940d1afe46cd98a27e26cd4e38161c844bd793fb,
    0xb735df2f5c4b96e37bb56fa5454689050c3c0b4aa1fc444bc16cfed8fcca2a55,
    0xfa5517613a8cbfb6ac4cd285311aa350b6e59a371870e71b7a652abd017df8fd,
    0x8b15a99611aac45fe247c8d9fe515bad60cc620f2817bcb636d5a7eb2381a050,
    0xaf1d3d7b39732737108c3f1da4bcfbfdb45e0d3df5c7474bdd0c6c721a3cd8b9,
    0x8c0f83686608d996d7fbb8e13016234479de5e524b47640fc64f5c34d688b8c5,
    0xf7b33eba3ba745a9ad10725b2e809b81686aba87add9ff8e339e810efbc7055c,
    0xd744f3fb3087b2cfeb81a8e62a5b9eddf6e449d2789e6153ac4705336db9bf7b,
    0x3a73843417452903d4625ce9854421a6b122e4073f7c40f58de7bf1a25a06ce7,
    0x2d3ed16a2c066507918b9d0b210e4d41e8a707f49f980db406b6df290d990511,
    0xcd1678b33ad3d67398d47d1237ff48507f9a45d6b30f45e4c32f09b7be076da2,
    0x9272f65187acb13bd05612bb023025f2246131733af7601671a334d237dbfe35,
    0x7a25b6c278e457abc3135387f5c7dbc78594171a0f1cbbd1c7b0f3f08a802f18,
    0x1d8f5ff6343b0eff2a97be4e08e5f4df8137b76d705b4f0e38015228fd78c362,
    0x83e33971d13688c7c4c0cd06b8137bd93a15b0b85c678b3a4b9bab3b9188293,
    0xa207f373ed13931a6ee2bdef23ffb52e4b54ed68575fcd9d3f26d22f21cd92ac,
    0x8bd0fd2a63c377498b14c17f990827821a9082a8556dea1fd675cc349b81cc2b,
    0xd3aad2280ff046d55831a790d6b7eba947f18fe357e401b64735b3b6ad2f517d,
    0x88ec728b6bb96b0200c2bbee78f4bad458f59bc52c7cbb62d36eee7df53b161e,
    0xba0c1a033d29c8f8e4260d6afb0bacca8b59ce56a1b317a803770733b2fec67e,
    0x5bea062aba8ab3937bfc493f66a56ab46c08c40fe8467d1c3222d3662e64192e,
    0x99d1e6fc5844aa59c1c14ad5b2f9739a25d65e56a0870e8605c011437ca8d7a1,
    0x749bf780f7155f1878ac1a98d35da43be1d705c06ed6aabdb9c7a9e9846b737e,
    0x7eb4b2a99e481338caeb6edc024cd74520bcb6b139e07df82c8b5ba91da886db,
    0xdd80bc1008314f58b0246b5e414519ec6dc83c426042c6672835fb1ba00e81b,
    0xe71279609100a4d0fe09550c06d8b9853f5d9ac0781095e3b987d7b49c87d088,
    0x6267b09fc741d22720e7299b199690d78d31878e24ffcee61c834147597e1bb,
    0x7c398fdeac6e23c7233782123dd288b66b155ef5264174581f3d57656bac0077,
    0xeaf3e2e59a25714581e099f5bece88c1571f8b82703ffc990811864ee18357e8,
    0x51bb97bd8d2cfd439ef5ffc4a67fdf29deee94392f7223b0b5fdef290b99da34,
    0xdbde71eaa070944b037a4e09ea86051df5e684d4829426ad3aa8ecada9c704c7,
    0x965cc5c71ea7c45c307ba78c0e1b01dacc342670c1d52777149019938b23b621,
    0x5c656b4d1c76fbee680a3db5cbd6b7fbe8df986f44ed908c4ef8fa245451550a,
    0x6d6c56975e644b13162c4e4abe9fe2f1ce2d5ffedb6a727dfa4209060cca3e68,
    0xc72dd468212d30a15393f19856afdc99224318b2693faee45903006f89c40706,
    0x53c8bcadd99b49023bf4238882a3db9f28d3e945b654757bbc6dccb5c1d69943,
    0xe78f2f636abd0df955128395a98342dcaf4a0678f52137a7c776995dae19a53a,
    0x874bc918a52373f39e95f08a68d4e7e63d2e1cb0f2bbd0418fb3b04631859f64,
    0x1476574cbab50af32847a5bbf9d378822c085c7cabeaa8c335d665ee661d3cd6,
    0xf446070fc166022ba5689780ce48445431999c293424ec970da86ede77429ee6,
    0x5dd798bbf364dea8909291176024dab2995965778d2e3625c877f5f88200705a,
    0x5d11b891dfb98fc9920a7eb38e6eaae8c1bc01986f0a9ccd0cf90834fc4a98d7,
    0x62609395b72136169dc3a8924bbe323f5f4f771f1d2eaef29054b13d4cf98bd3,
    0xf31c87a5fc915541e3a923f25aa3b9ec52d86eb01a69171ead7b55b7e6f61337,
    0x84bf4389d22bcdf93b242979269aadb1c0a18f5a63cbdc50cbfbca2000e5168,
    0xc02342883d99a763aee6b24ce9edfbb38307e6c0345b467618fe506f3b105072,
    0x5c22a864948901387b988a955e11abc1351f04e3e6a6edb75bdaf42732d2b167,
    0xfd91ed27b590ee452985b3ffb7ad1aa6155d7a518a65f71132e758a040fd5de8,
    0xa32a9d1992eec7feefc1ff941972474e0e3f910e7d35b05fda2bcfd67f0844bc,
    0x6ef435a2a182fdfb17f6ca2906c403f23bd5a14c1b4fb3ad773ec3c190d3331d,
    0xa9cacaa4329dd75922503f77f14d30ef5b1da8a48d588342221f572f2a1e7d4b,
    0xaa837e5aec4017f8510672e9ddd74da45b52c0fc560bcee6d0c8352f95db2950,
    0x7b23de3a37d4d7490036ebd1d5c064f4da9c873a1e07aa1221198b892f90f04e,
    0x6fab7437eb20053a2f5b5c57ae7494bafbb3e762e4573ea880a6d28906438d15,
    0xe7725283126aa1ee61384670d56719af544e69bc4c60270714be41dc0934b687,
    0x50dd36678767ebc1a6fe9f6c925daf2821c86e109033882fa7827ae3573e306e,
    0x8c7dce22ab0ee2eadd5dc5e8d53d9f4620b48b9f55501769d6972294406a5380,
    0xdeb0759928b7bfcb1cf44ddcbb85ccc62b7e6ce3c007dbaf7a5e6729be34a603,
    0xc8c9eb9c32f5d16bf6daafab2ef6ac54dd44616c5b6b16a8f907e535684c267,
    0x3d8f882b1b15e0d3bcd05fc486bfa8a27d2992bf21dd19c8cec8a6fc501d2e1b,
    0x1f236814c35287595766ba82e53286b90f316b87f77f9f718e6ebc686ad5d700,
    0xa3050202407266850e07e815b10551b9d6396d6d7898cec89e7cbffb5ef8cf28,
    0x5509aea78dede71d4aa1a6df726d9e9146423a8397655059eb40d09466126765,
    0x16e8826972848351d4e65881b4cdf9f4e7a34cc8831aa9adf80b44b07c9ad021,
    0xc55f9e2979d43e33b57c1a049b0d29d5cb4e50f94b4d807809408a118d04fadd,
    0x37c961c239da06531dce068e16f9d3087772c0ec5d445370075144c1bf9d4496,
    0xcaa468177425cc939b47f8c70f84979e6ded82a3f420c4ee47eae5efdb0311b5,
    0xa10fb4e93d569000d9eaf5695d5b862bb1409f8b20a742c5e0a30f5b5b0619c8,
    0x3a58a209e56c43be065fbb7c83d79fe3880965b926fadd26f0ec243946f7cb0d,
    0xd3d3164a38f618723dc1d2b07f6c54ee7ebafafce3da89c842bde38985615595,
    0x923755ad3d96db658a85f68ce99d017b01c6cbc519d788b3efd40f3f5e4dc42f,
    0x2a7ad27e33cd0488f2dbca1ca6b6c55464973276ae074de77c2591577a0c97f9,
    0x492de9ddbc0113b9ea130745477452adea69693d72bd1f4a32c8715fe7c6de96,
    0x819e7468901c19d70aa193609e268c3b32b21f27d20f9371918cf1bf297ad265,
    0x7154d6658d69e842a562c6c091be5e5ea99f7df86553cd2f22a09af06b6958c3,
    0x44adbb197573bd077c3296976089069d2e5d21c89f84cbb2fa6b316d83537dae,
    0xeed6ad5e135a3d5ec5c898f374be7b33a80486327c5eb081909babbc69a40b1b,
    0x91bbe8da456d8de05937cbf27c187028fd57b57d6144c0a9d64980d006a086c4,
    0x29a92d9d8bb4e485e58489abfbeaf6ec7229fe5f1bfc3645baa5dd772289cb8d,
    0x1a580b701a785209a39f6324b5e93d612d08aa83c29f0b24e1250eb5b2c1194d,
    0xeb25a6ea143e7b1c17bde8af1160242c6fb2c712c5b72f08d675af466a264060,
    0x2a829092ec3f1a314fedcc872556644cae7a80fbbef14b4452e2cebebbaf1474,
    0xca2eb09f020d2a591cf87fdb08717038b37582c220083b7cd61aded7e9614501,
    0xa224af2b664ba440cf66e11c97e83539799723cec1180e45af41ec8acb645424,
    0x7540bb76719cb4ea27ba8fa64006611d19b02e589d946f5874f2606f6c37fe21,
    0x1b764d9e12a5dd810ff9d4e1f2819f3c4af8c191b1a5f0641802f541803f2593,
    0x5bcaa31d181f46094d842eb9276baaf5d03e031c31b4acb498c794e233f0876,
    0x57d56b17e94002531d37bd9324dfb2d98057db947252f8121133334e31a5b6dd,
    0x5f483af056107362bb2c6a78e55e04048c5355496728fc16c6b183cdaab74c9c,
    0x11ee9a636df72627d70f27e4b7c54898f1cebcfc28c1b48e15aaec749b8fc3e8,
    0xd2553c0404d3e8a6bb5d9a1345568b70336b776c048b3ffef58acaebdeb95141,
    0x1aeb1c27c96d000ba00f59eee413da317dbc27949f64e5cf14b48183dee18619,
    0x3cb88ceae7766ac1fb92e6a4f16c5c28c907fff9a596b9e773e3ba3088e863dd,
    0x1a64deb7ee62685c778217b90a4a3ff54176a36ddc128612865cc923ca08b0fb,
    0x1dc9cb624fbb464eb70566bfcc668f0eb0a87df71c50091cdd4eb4f9f8785eb5,
    0x69ea55ac36d2aa7d91a5eae62626d1bbdae3afb1284ed8a7702f026cab9311e7,
    0x8e5b56613f43a3d3bee8b8173cfbc05c3b69473ba5fb18fbc326f871b50f633d,
    0x176516a6422b5357f3b90b90b802a36146a7075d2c0fbb9a7614e92b2fb7d815,
    0x9d19aa38423f6dc48b17baa4e0817b74c30ae5e6bbbac0ee27d6f8d0419330d8,
    0xb5a54bc269fbdf30670c350120ce4bac6fcba7921aa88b4279c5b70eb8169df2,
    0x6a8e5b4ddd8a0e6a51edb75e8e5cd65e7102259d82705d1ca3ab5b5ecb45c980,
    0x4a6ec3718fda0bffb97de8e0ff211fde8344c99dc76942c2b827258e94bf9af6,
    0x6927b925415d8916926143bcee1a8528821e04f3acf7c7ea710d2f62dc0cd3cb,
    0x49df9d6737baddb5ea8b3531bdc256e36172682d9ee191099a3492b431a69d37,
    0x69978515bea9552ba0e49a46ae76cbd411cdcfa812855addb29967fe98fdd18b,
    0x81fecf0b4957b5858d2dd8b283311a5f03b03210240e4082cac32d4334d1de7d,
    0x3ea0f049dfa36dab23cebded36e4c422445ec7e193ee84a0488dd05859882b7a,
    0xbd216f5fc6f50989e4804a68662cef582f1daa54fc826bf83273e7f015c5c271,
    0xec4e324798a1674e825a549ca4192d29f9ee07cc8f6b46d1a04f22fb2fb2a000,
    0x4433e2b406b162f92d8c68b106098d29dbfb71ab04c0cbf8b5ef17703878819f,
    0x352033f91263e04e7b357640a9810cb643980e6a3ab1c74e2a27846f3a09289e,
    0x44e00ed707b2651a4dc6874c1d142428128afc45a939e3665c9fb9fc12db0f9e,
    0x70cf8acd5e5255d1e9d26cc3c9032bb603d3c2f5a6f6c8d00af54b6ebc5089e2,
    0x93a02e6389071f1466cc6a40e4f3a254e0f4e558d3a56a8479e9035644f414e3,
    0x4eb20e6a99676b54d594ce5c750fb6b7ffd18c4e73a2dc330abdc86d1e566173,
    0xb6ecf62c70449d58c7b5e174d33fd7c420f88a7f18fb0bf7bbde4a49f493d614,
    0xf2d5f2c28f8a6d1768959acb304201d05c9321423f570a272dca361a9c2c40bb,
    0xace615c8da70161b07dbd27fb820416b19cc8d9393394b4c838ce59a2cf1278b,
    0x2baaf6a5530b69299f701197024966e09d9bba7607e82dac36a67dc165b87adc,
    0x6890b6c6299a6a9cdd3a63863ca91c3c344dd6206019319080973112315b3e59,
    0x6b618b9bac1cc930f1ed92a66ed2226569e084b46deb13f5dc4a51f478d86555,
    0xfb58a05021e5f83e24cf188431e04730444747e67be154c5decb5edbb92fbf90,
    0x959f77e3fcf6cb4075c8b19d2145f8a0be4301b9f32eac6561d4b96de32b136b,
    0xce4a57b8ecb41fb176feead9aa4ebcbaa5f0949314047ae4a08cf37ecf3744e,
    0x60cab4d7758657f14ff5431af90b9f85f73828d34717d82becb363055378721b,
    0x31fb52fe53808652f2e0ae301a25ed9e547e08cced6435b57b41ff0161e9fdc1,
    0x967cecb0ab4657dc98388bf910a6105fdddf59fd96a825ea1ec4a533df0d4e26,
    0xce46c97476a9a7bd3507039a847f5e795b23773759037b935567107ee2e33c10,
    0x5b85d2acb7c865f58e0ea1e291ba62693b4364d33f9f19fac002ae3dcd49e03e,
    0xef81ec18d6cff10a87aa70e16f078257754f6b0c636c9bada0c41842451e9c31,
    0x6d54f359d0e296b4f176ae7a1d431e66522103af497585cb3a0a9f56f0bdf696,
    0xe26fe7eebe1ed332cc22a3c7e668e8f0995d3283a48b6d3b057f6fa0692ae5e9,
    0xb7c12f665aada352ac5a857155340d195000fee42bc960227e4dbacd73bf5be0,
    0x986e1cf83a304e2c2fdf682ee6cf56f98217c1580d4236db998c6b4f02db9890,
    0x4f1ee34f3bb406ee34e319e589a2ce693444c239e956f8b283f5b6ef35a9e067,
    0x5fcb8f6b442eda5c33657da74d6f2e0e83526d33555dd6bcf8af9799e74b1e3b,
    0x619c1b933c4b022e11ac4085075c30354898870dff79e689243675c1f63812db,
    0x5c94e5209393d8663b81cbb73c7622ee7d02b2490e1dc4670d32e95f350af67c,
    0xc3802432caed33b152213ed381b2d4924bb190a1076110f52ca4be36a884ea7d,
    0x84689106369279b15fc78e2708dc3eef353410442e572e1aa4950aa56508c939,
    0xaaf5762b90284318dbdad82c31e0f7d6ce6694c64383d9cc15c98be77dcd9e92,
    0x735a8c927c5dba75e79fd4ccffb569440075c70d0faeb088715a690aae660446,
    0x615fae65e973ee7e18dfa29b30c36d0296b07acb5e7ddd8a02752295dd950ebb,
    0xc67e9efdfa95d6e1ef3c3cf5564263b98c1afac5b32bbe33f59af63b6a9b3d4f,
    0xcd1a494c8c870937ef2dac9940bf5ef696bc300b8ff2e0c5bffe92032325559d,
    0xbd3e4b74cf28e06e30c4217fa2100b6bc66f0e91ec68ebaee458eb442050bc6f,
    0x1780f6a28bca468c9bf12ea551cb70412f3c4aa6e285caa9f09aea10310b7af,
    0x9f184271797808d2dfe2601bef5800ab444578e138245c018c82656145844f6d,
    0x8a9a7b6ba752082ba2a2753212de4fc617257d9b92f813c757df5ff104d81bbe,
    0x437d93b7e0de06b50e4a0f3331885478e258575884fe47bfca60590131720052,
    0x8215424b89dec846a9b5fce8f84542a2672016a840413956b459dee55524158,
    0x3fe225ca6aa9c793030bca28fdfc157227acc34a5ed206e74516c8a069cbbe49,
    0x782e8309dcd0068fc089bf2c99f9ab3b61b1c1c2cae5addc5d582e205db07f3d,
    0xb56a6333e85962c61e5404c79ff1d406fc6050ce0eac79da44c76ceb4b85d46e,
    0xa3638921467fbcdefb0f757427c00068a6f338e2dad879b20dcd5f16ad70cf72,
    0xf8ad80b21638739487079fd279d4cf1a503112805068b6a8085deed531d70a1e,
    0x18a79513924648caaa5ad1d62553c504df6b6387186b73aca0c17ce77787cf22,
    0xa76cd8f99ed29145cd959de7b58c0a26d5f0ceb64abf798a670d8a73fdaaf444,
    0xbd19ee5382c9fa8d37f482eabb32fe627f68d922029987e815919c3c29c71c8b,
    0xfacb84e26ee300a90211be59d25e2e95d0dc7f4906c6501d7e0ab4da99761ee,
    0x4aa16a542ff756d0c8289070feb083071acc775ca4dee6068541d4f71f1534e5,
    0x361aca0da3a11165a3d00d3a2da9b7e257a533db457b51e4d52cc9ff943c8433,
    0x48102c37ff3adcdb114a4e331a5d33d12159f71efcee6235b493302972e6c4b2,
    0x97ddcd293b65207a4be487c6acd1f7638480890494559556dddaeb0071327a5c,
    0x16a5826ba885b5e68437446df74f8d3f12bee5c249b61869ce87af2dde02cf70,
    0x75b1e0836cf53c268134782c199f424f580e0e8260fb5a26ca9cc8843f3162ff,
    0xccc005b7fdc0218156ac715e92e220b013a6be2a46557a96e7232685333f04ff,
    0xab62fbecd773b772cddbdb7154f1244fa229e9f1e7885ed938459d1888aa5fe8,
    0x7d3561296243a61f267d897961e97ba757b7af983bd3257e310e8f05b851b643,
    0x106c255059d62b32484371da9344cde440c4a9e4e26be89a1b8c41b4e1c13522,
    0xb8750a15119697770006f4b9a3b1f8c6130b998a90ee105c4b24cd005a7cf68a,
    0x10e5756fd273f02f78371865d9750e4c5829a03369231e10e05a5e9fdb0471a1,
    0x1dc7e9199aab976ad80b94bc3e517fedc044e6c96b5261fda8968bc360549f9e,
    0x3ed2fbb061fa1e3fbd0fc9db9dffe073b0d9f9b63557818e7515841391ad6909,
    0xb3f631c16040ca953b7627670f4e897a78c3b47e390508f4fb1e8615c500f6b8,
    0xb84c3966b0b7eb28a894d378dba67fc2b8ab150cf34b7736302b03aa9c4534d9,
    0x9383c01ce58d487fb2a63644a98f4b1b2014c5deb4a83c2d30cc2fc0dfb9a8c7,
    0xae8a5672e0b84a2409d770d40e6ce3dca27edc5ac29edff1835b2a028e9cdc95]
  ks := [
    0x1,
    0xf2c9adf7af0df9f465ab73f77cd3a2ef3c25140c5c9c3038e1dedd95ca1747bb,
    0xb460444ac625d79b203cd6b025af2f4ac2a3bb3949b9b88bb714d51dc513ff9,
    0x3551458e3890805b945c1b47157b3a5e69b3afa458ab4f609978da00617ff5df,
    0xdf47767c553f3001a1d225b497038b0a8296cd3a1e5e73c9d37648a6a077762c,
    0x919955f819cf734aae74a0c3528773bf594698cbe24c201bf75bb029e5370af6,
    0x4f360160b8ba7f5839a35309544b938097aa4026f3c3246637d527114e9e5c03,
    0x878e684570dd1a2fb420385235f699a998ad6fbb19907ff9f2e21b93d5c0bb00,
    0x877ae21c02c2f0d8f023f169078d5ba155bf47e5d123c6966f8bfa66bbe07f2,
    0x8443be2e129ae113b575190e092eda0c4bb3d7964eac24622d80c1e9a8aa51f3,
    0xac86331b906f1879278675f2f91c33f2d73e6d9fcc56dc6d5524f5ae275f3594,
    0x8c7bd673189f29a00644c1bc411593687c063b2b45b0e0377787b22ce9a70db6,
    0x8b48e6dc3ee323f718ef9aeba1ebda63ee156c10a348d0b758e9ccb2c611da0f,
    0x3c0983725f6e0a82965f304d65de789c2c8f887cb776dbdb9298aadf12472bf2,
    0xce2bb4c57d9bd28a735e07cef04e43c8fa63333b1f5e002019a9a8e232b213e,
    0x48f60e0a500cd7ea18f2b39ee60290def1e935bdc1e2ffeb161296e849eab201,
    0x9214069e88fd4d32d92800681171d7541cda6a0b12e646193d5c2497d0a5f6af,
    0xf765117ab7bdca5917e70b6aebd99d35693efad2fb24dec4f9ef5c4b4297aafc,
    0xec48e053e19f460ef691f5491ccc7ca8d85501b197b93a9ad5ffa09be83e4edb,
    0x81478d3e7da97a2d9c785136f3f04442aef9a71b507f20b6e47cca56aa7a9e45,
    0x96d538ee43b0728a2a28e01c5b87169df7aebae792938ce632a5976409e10449,
    0x52e56790d730b665e764f0de28c69d6382056c0236744ff6502769bd863b017,
    0x59775805a2f1a9e797c407f95007f2e605a4f1a6154310e9218c028ab2d984,
    0x55759818f8a22dc5c56d946938bbef5c0ce147d9cb4de6d20c06b110e316b421,
    0xb7e0cf5459a9150148908641c2e7c7d9f537dc2a55eb94c88e9c9f82d5c01a0b,
    0x3a74ea63bdaf892e80beaa8c5383564fa427c620cf849a7398b05dc2f0cc9f5a,
    0x1f7e55eca1bd520677be006d8e34b9665fb54310b7773899b6e4e17452361fb6,
    0xe23a606b789ae0b17e3198ec56ed9af4f993df6acf0de2a732c2827db3c507b6,
    0xfac451a8560880a12c127103ebaee67070e91848508324138cf300c012cbfd02,
    0x845ed8a3a86fa7347123109ca8d5472bc280f77498b87365a1a9c29fa49d9243,
    0xde2e2570cac9424f5150daa66b71f2e901b7dd57563489b91f583c2ca02be3d3,
    0xe95777bc2e70a59eb57fbbfd9f6292bbd2792aa0670378e213dedbbd61139002,
    0x5691044a4901cbd416aa594bfce5e38517602b0c5be0e539ed60f057a9c9bdf6,
    0x1f62a7cd1b67f0a4cb1051648c6d9b00c94489d5c39ccfd026a76adba409a306,
    0x5bf0110a1b2e33841ac5015891119a4b65fb0b5dc079a7740f6392847d2ce324,
    0xa9cefbb2398fde751a075e9c8d033999d6ab7cb1cf3dbf4733eaf5f8a952c432,
    0x8197a7371801283f05095cfacbdbec99116e83b0893f4bb9c585577028ee41a9,
    0xc3cfb69a0840156fc1ad4d65fb58a271fe2d5f79346d7c065a6b9b9c74f00926,
    0x442fa7f8fec3fde23f315234282ac158ae5cd073d8054526ee6c5139d5e7ff7d,
    0xc5ccfa104c4ea917c8c3bc7bdde4f53bd803da661447c47bef897c5fca45ede6,
    0x3541748facd1b46868bed551f2ab30fdeeecf5b3515237de78b96d75f6344bde,
    0xd90a7d792d282235eff7a1722f49a007ed616b462ebb003479403bb048fd8d83,
    0x934c81c6d9b632a9f3dd52ad03800717900ca6c845043fbcec1de38eb7216bb6,
    0x1ffb87dd592a5db160f711ad7a70cbeb3191b42b49c4613eb55dad8aaa6c7531,
    0xdf151fadca38f28b46d1e95bbd70287e44b7c6dd26a4d1c230ad372015834ff9,
    0x784d601d889e9508ab04072506a8b174f5278c34e9430c94aa7b06e0af15bc30,
    0xece66530c6962977860b3d87e954b8dcf4a98d21e525e3dc53b9f0dbcbb0f508,
    0x110d6660856a26f51ab823bd6fd53955fd362620f6c3b74d20c0f82e2faf52c9,
    0x13731e8f7e052045c917769561b48b6cc92c593c3dcbf9d93d90bd5c686b1033,
    0xe13618d737a989ea1ee7a32ea1e8b4d21ce38f67eeecc1f8a114a8ea5551277f,
    0xe3b5d2841d30ddf22e6c3ccdce4b63452df24aac7dc3004ef9e7424484c45807,
    0xb84cb22cfc89e93a2ee3286f22eba23fd993cfb863226cf8ce5a2745bb4be98b,
    0xdd1605839d4476f956b883a3c7ff63a33cf08321c5410af1b4fc494cc05e5350,
    0xc1a8e347ef8a8d9eb3a06220e9608f49990082b39b08383d853d019d7000d8d4,
    0xcbd1a53b7d01d3f3d5e6b80f7790c995e0bb7574018ea3980727bfa7a6933345,
    0x2e430dcc18c87e7b62625db74347e6bda17fd27d64485c93bb902e31f17dfba3,
    0xd356e8ce367ae60a4e10de3b84f7807cb82d58f851fe8a173edb643cfbf8051d,
    0x1318159d212269000ab2524aa69d2134db16949c8b524d144e31b504ac97fe56,
    0x4eac4963c14804e3302b6779d28ac9ecba2d02f1997e144a3be429067fad8bb7,
    0x26fea1baeb2a4023493f5e18c459a0f35cb2afa2760388d7bd7bca9144bf07f5,
    0xd20eda578f7681dc663b60417732c050cc72a09bfd7b2b94c974f582f5d45807,
    0xe9286a960c0eb016907539bbe66597ec7ae8656f4bea496075dac159d9a2818d,
    0x884c7d752f75136f2b49a9de29a5c44ef244495bffad8a8584b97f12063c4901,
    0xb2dea88091ac86cdf10ab9187ad2975c5734fdd4d83f34abef97db4e9a9ccb91,
    0x8001e01e1f9f658c825a76e79312cfc281400015e77e8d2f4e88b795d8787802,
    0x1cf5ad36a93ca1877f6dc53df2f9c4ee6598a220bef5ef1c60cb0d5f19ada4aa,
    0x932eeab5116af1c33f5c0a84168a53518f016aab040477fa65d28b9e8ef2980e,
    0xf00bc9c572f6251660cc4dca3359265166fe888f7a7db45e30c56e952a386951,
    0xd12e97fabfdf331a97f9b47c43a34c1546e6fcc2fd6ec429d246da35a025a74f,
    0x6bfdc130004794290f67fc282a68c1241cae7dd9fb434a64880bd76c88056096,
    0x39f6e26f32b6a490edcd797191a02103e5c1a04b791957d03ac86a3fe20bee07,
    0x4cd8249466ea7251b6e481425733e002ff8c68807115da5181a455c5f191db81,
    0x14d48b53604e499dd98561a668cdc1a9201a12c394ad66e67e8d209fe2a30c1d,
    0xcaa483690cd91c3b36be25b3a3fd8959317e44d9938dcd849e583b99ed89031e,
    0xf4cbf86d7d777d7d87b3cd3a893e199c763eddbb07bccb29dcafea0ede101e3,
    0x5ec987e3824f0c890b1f0e69848470e1c48f6be8e744aa2bc9ddd264176d6db6,
    0xd3379ef4421678803b46638a261509b1a8e06e173eb65e44ce3ea78287a3d118,
    0x6617c75d916b10446791f8bc7953cd764f58d4c73556da5aec7d00d1adadc21d,
    0x1fb42b3e845fa4c51df130c7a98bba67589f7ffebb11300503f8785b57c3d2e3,
    0x3596fb0f9780a1adbfc648152c16a6101a66f1b0844a0d0ce9a4d1316f584502,
    0xed202e5075259269582a9bcc9f6c1545b419e12d853c384f378f83da21919e08,
    0x957b6a740b9bba87a0897eaf847a6b75646288e74526c8b51238799894947087,
    0x2eb790ac1350818f10858b1e02c997425f408385cd2d7f09129949c44ceb32da,
    0xc22efcc1e527e7d8702211de2b2ffae3894f9d8521424647695e29386940fba9,
    0xe6c2cd89861972c4c7ab2b1e2ffaf632974a2882c5ed48ceaf803dc47fba02b7,
    0x88ca67d083c0f6f3118dcf7aa74c2885ed1086f5b003a6ae360d61ef848ec025,
    0x9e551c09949b873ce46a0c0e080c1cbf099b9b9f2027a9a6d3de04503cdfca,
    0x501c23928a28e5ea3794017e38e6d49ef22c4a9443b3e250868d3c6fde4a52,
    0xb433d920bf270e17b387d48bd18b3c189334567fa8a1748489eea87aa9e8b112,
    0x69d3a1f6a588d6ca4122005e8ec707b89a5c6f51f8cb79defd38956499ff7119,
    0x3143812f13a40d0fd4a300eddb732e7f90b027a93555ed7fb6bbb2528d7730b7,
    0xb56a30df72467a2347cf1061a08867168d6e514b37602e4361f52aee0e987cb6,
    0x88e94bb8b82b8a0bca99374904af205ddb26bc9f47bac070428eeecb9c02f484,
    0xca90fd34a44933675c39325fb0f77d85e781956d54af4808401ebccef3fd65a6,
    0x5349787bd0578b2c8ce74337566c4ce10074543b2ef0c0df6285bef178cabe4e,
    0xa606949a74e7d2eb34f447cad751f3af4f4ec03b337a57ebb343b58fc25e1804,
    0x866a8ab1b683724226019e3207b936c8a570439e9a31b8ef2c7198848777a517,
    0x31741c7cbb7c191bf3a88a7b5eedfb81f62b574166f7f8485e1d60da9a17978f,
    0x9a182a913bcb7eca38e8821d6aabf9b3790b931560cf9d521976ec4ac4cfb7da,
    0x7794a8150e698c9bdb9ffb87aa2707a44834710b718bb736331fe26b6fc1a7c,
    0xc3e6bdd79ca36af40e788ca0476d7f3929aa46877f62a5deba51dde62d232b87,
    0xe67b76452b9eeb716738d1b62d388a5e01cc11653c115c5104f395dd6368e6de,
    0x2a497c139d7960b9e3a07b95d7522ddf8ad7c8cbbb76a5f1e5663d7a99447944,
    0xe97c49148184cdbd71524b05731e0f6f5e8659d4ec517094b5c729bbc159dd3e,
    0x702253588fcbb2e4e522c00b1c03f9852aaf91bf0a0d7453cd2e6c511772b253,
    0x5e93e46cec65fbe4aefa0975fc00c04bafb2631163a817031db9b206dd0d55c6,
    0x6f3c8352e089b71e1ae0e1c3a0e59221ea9f1edf66777af9332459f1852292b6,
    0xb00b2c4a015ef036f3cfdd6bdacb3de17aabb256d0147fcd7e9d3a45d996a8fa,
    0x51a290af51cc32c6a825bd32116f148428f46eeaf7985c14aa952d6e494fb00f,
    0xccbc7035d5726095038a0dd88e053a5390dcde73a6279f6301cb8eb109a1a678,
    0xafbc38c5d1598d4dcba708030026b2529187dcf8f6242c0813be76f1c2496095,
    0xaa9d9fef57fe3b1c3a762043fb5221c385b75f44719838139f693bde90f174f6,
    0xaf5e52475c97b525f4ff2087e0a19cad778e9ef3820c8271ab6193833c9bd07f,
    0x32f51de7d42679b4b4520ce2a612638ab476d942032c747cc13add1fe8825540,
    0x36b36c6814587b88cd00fcd5ce84276f4eddb030ece417cb5ca4fd152362140c,
    0xacbd1d6da7f6887ccc595fc16195c527dc2e7892de5678fc28008597c3baafd2,
    0xd4a4c9facb141d970299ab594a24e912e51947f8a6df8ac52e97d91450637f09,
    0xe386771017ee96eb3a24189e8054c6b2fc0144153569763b55f5ecdfe8f12dc3,
    0x7249b8c96422e08bc7d0b731e1dea7a6b2eb506c2a59818dde457822f6e77729,
    0xcba67d60226ba647f7afe352b43ef1e713004dd19dca1a41e460fceec23d7297,
    0x4f0485d9576911843dc748427ea39080af8c1db2a281c6543142a2d9e28480b5,
    0x2fbc21f4d2d5e680103d8db01e74d2f3dba66377530dbca2bb7bb08b0f640387,
    0x3a0f56687dab6e3b7a190ba8df4238eda80c848e193daf9e24b2f11a18f5aab5,
    0xde83f3b6bc5ec5dbb4bb65da798d5e5d967c0880307858ebeac2c7fff359f410,
    0x4d18f9a6f9f7edc37985eb8ae0cbb0ce7d1c11442dc8559225ca497af9ca140c,
    0x26c6c0453ebb96b3ee3e74828aceb4694b64f8571ba2210102c13aa1371ccbdd,
    0xd4bce472e9f101fc45d91c7bf2ae3afd1e6ab624290e473818b7991367ee3e83,
    0xbcd025634b2ee0689c7eb5947dfb35510633857df5e26473fb7d838410ff7aeb,
    0x8001e01e1f9f658c825a76e79312cfc281400015e77e8d2f4e88b795d8787801,
    0xbac9b1267146082d524bceb51a8bc5a23779e1f95aca50bdfb904caf7649c66,
    0x8ee4e678e5cc1649e9585d391065444c7b7f267fb9a8db63a8415c6cea01d805,
    0xaff807573b47a5fadc2860030cd468b3dc2a7863938065ff9b4c009589b87730,
    0xb0e4cd427fa0a801713b376edc824e8fc3ddaba711714a2d3acd6cf5f04ccd3a,
    0xd955ff041528caeff94ef0a2fbc4ca60f5e5d4ae136a30160cf6683d17ac8f8d,
    0xe8ace1cefb782578a7288c6a6d7c95825d3f60206d5c3b7a62b7030c31a90a02,
    0xc4495c67c8b397386e30247b2f0dd57d54fbd866955840050b93165a3f20e680,
    0xc4c7931203a388b4883209dd844bf671ff60e41739b225dd584e0755e61040b,
    0x466381270448f416ed95e36e9eab78c8ef2a3c488e84bb7c75c81688a487010a,
    0xfac52a9658589445b4454f0b85922a0bbca15b502a7db25bffb68f7934f0af5e,
    0xca463d4a94d0bd700566a162619f5adc420526bee768902ccc446b3a9d748b6d,
    0x4eed75ac3e0dd78016c22179e20cf890985fda0d159235c3ba159d7e7d614f08,
    0x220d42cb70d90fc3dd70a86bd73144d23ac84c42eccdb6365bd4ffb09b64be0b,
    0xa93e6ea7c3563bcf4af104298869622c8752aaa690f10030157d7c932beb1a1,
    0xec8ce9116795d99396d19cb606111773085daf76c66d0d31d3936a09b5679301,
    0x5b1fe5cfd31c8e2737e676bb8adbf33c93f75f1b7cebe83aed7a8149e08f75f8,
    0x8cd799c7ec632f759c148edf9e3553afdda187bb86b6b1a68518f26ee3dc7f82,
    0x1a6d70640ecf80850f83790a01b88d3e353f817cbb1b2af8f188c743c45911b6,
    0x41e5abbf5ce2a2b7d01e0f4a191aa9a178c574831f3e3dc2d8ca18e8273fa967,
    0x5dbe44877df72e43bd66e6f5e55652118d39e781bca4c7ba657feb43d569fe6d,
    0x87b89d5b9455eb59f3171e6c80d892ffa5707db5d5aa6baf990bfa43ec2a101c,
    0x75ccf40773897d145c260405f8040b95077689751fe2989db14a03cfebb546,
    0xffceb40a9b6c5eaba58128ba37f4d7308bd1e420c9959894448d5e0d4ae59631,
    0x6c1148e06ae2fa0d6e82b386b086ebf78eec322a9860d383875a67d667586f0e,
    0x274e9f5263784db9c0e1ffca7a42fd6876342530a846d74a54e8732388aad0f7,
    0x10c17f1af163fb054c61005b492ee5d5706fe298eccca4d56d9691ce7b2d106d,
    0x9327505ec4d790e9c129549a7d9b578e855a30dfa88b13f4aba3c3436a27846d,
    0x87a6797c7d0cc0f1ba1b49821e799548489d946c78c2b61a4a8a80a01bae0383,
    0x467054ec63c71122cbe8ee356fad2b7ca2808cdb339ac7f83ff59445aeab2362,
    0x3138d7d6b03286e47ba2c112cddbc45f002c33e91a50404ade7c95af28466a3a,
    0x9dfccc623948f751efc0660350d3dbe63b45bff05482c4931a31b663d19a5803,
    0x7dd9866f6d812e3e1dff75ee029712479cd03e8a761097a51bd0887c7d2d630d,
    0x10d3f42b96d408f6ae9879d6ca5b5680ade6cd3f2252a83835f4dfb6760d7285,
    0x7608198f16b92a4617a781f4d999576ed7068ef3204574ce08d25bc643ba92b6,
    0xfd29866b2548314f9704f1d2cb82a5553dfec2e928a360e4aa1f8f04fdfba62b,
    0x415d94b28b9ed9ac05d784603d24d5171899c27d2ade634a69cf4b5de4e1197d,
    0xa2286dd70c601fd8217bebd706f4f349013bf0c5ae5bc205775e56524e880db5,
    0xe639941a9e3d669fa2f38dc9af2d6e367832b85fd3796a9ad7d2ce30e76c78c3,
    0xa72a87186a69fd9c2ca2624633168fa6340237551e642646184dc2702f671b15,
    0x2fe1cec87ab96e5c5ce1bff90bfea883199a8f6af9fb2c3144e5dbcf0d2e6e31,
    0x358ea3dba42356a39a56072cabffbfc69a91def0de980d010b6891fdb4fb3342,
    0xdaeac125b56d2bfd0a33fbfb8240049c580af5ac678620629a131249ecb1de6d,
    0x9007a42dea2016e552d6ef9c545a61dc28196e2b0a58dc8ea17bccda272237a9,
    0x309e706530bbee4267e36b11f0daf383e7ac25a65288340c66731b25c73a9005,
    0x446bd0134cd1df8cfe8604b785fce9ce8fb44a2e9de28adeff468590f89f6228,
    0x9a9557a8a5dd3dcc450ea3441dfee4b28efd4bb117b712327a6508b62e688f8c,
    0x998a354ed840500315be44844b2d6a3d82ed35256adce1c4fe2833ace00083ad,
    0x9acb71d6de98d5ebafc6bb38427c01182cfa75b7c450881aedd054678426e02a,
    0x11acf4a2b3e2289393ce045e620e217993d248c1fee42c2bbf164b0aa781ccc0,
    0x126edbd80c37d687bb00544cba7c1d253a4b6fefa45c0d46cb9c54f31ede0c04,
    0x646b0b249d52782bbbc8cabf208cbce2b41a2871b5cdd7abe7ff8372be96654e,
    0xb39d074253e64d85fde4c2722400d272a288c2b127e18f896e826deaa0717af8,
    0xa17c92e4184fcb51ea7053309dd0c8ed5580c3ea568c242347a38153c800b4be,
    0x2e3897b8dc1e5f86bd4f92ef5f4a629d91a6cfdbe6377f7b4a3cd7e1ada2d2e7,
    0xb9636b340b3324ca5109058b71f6da21f0803b563112fff528d08ebcd1bb7e72,
    0x3afc7cb732d8f083eb42c7c1d59e8f80657bf4919e7f4233ef3e61b75e7c7f93,
    0x1a941f53b1b35d800feb7b6ff5d3b1aeb69dded2cefb6b9e69296f86fadc017d,
    0xe9fb8dcc3e73631e2a64a222a8dd62d8667b839cb2bf9340689e8a109803366c,
    0xb5801179812005be6ffa87f33567bf4873abf866aa7cc1932d4e984c3e98fc0f,
    0x3b0857625752a4bed77ca6865fb96fba2b0bf0c3e4b83371e34638d657460c04,
    0x1dbdbfc315968d915a15d381864593d8c6dc57cd0961e0ff01bf1660ed0bb94b,
    0x4c6ba3d1a750ff543cb70bd6ae65e9ab0a266de3e705c2e8086d770edd5a1581,
    0x6bb01cdec6e5a0278bd59373d4a91330fdee832b535e23d156d4817c0faad659,
    0x866adcf2e66140f00d7d0afb958101f42f30c3c2d79a936bab40956845aa7bc2,
    0x1fb9c39ffac53106471a9b260b5960064dcb338ebc028dee286ae8517757fe24,
    0x7a4aaa2e2831bdf5caa77e848250e1eb75a365aaeee7dfc975d675b0026c78ba,
    0xa6d10f647576a0bc8e191855d85e9c71131d3f0819110dac1a182c7e5590a2cf,
    0x7a6472b435853ab7a7d49793b10c6ca2b66dbc6c8e721ec5b968fd9b5e5a04e6,
    0x5e39c7d203dd9a8302fa113e3da0a3b3d87af871bc6d1e1a82d699db2bf20a7e,
    0x5aeac95de65bd98d49eb5194428a5a1a52c9827ea15f307205eaf026b67cd21c,
    0xdcbd72b07f7153f3588deec7b7fbaa3ac67c45c0e2d1d397cc53fb59e28d79c6,
    0xd198153e1d54b8fd5372e90618a5fc98b0d093a0ad8be306bbf8941d7a7e268,
    0x27979d4eed9b0a28898bc1a04586f0dd90b697eccb53f4032937d927fea372a7,
    0x4179486ade570448d4d208f74217ba92667f0359bc03a31186fe60512e024324,
    0xb27f98b262718f39d1c75b7bdae84df783c6143f4ff9291c46fecc93c974a2ac,
    0x99947bf852fecc514311255582c918d72dd01f713820129ab6db3e611327a825,
    0xcd81af061e58be98ebd2128cb005062069a2a745c5ab1a7dbbf57dfb37206e0e,
    0x5e905890dad40d0f64e99ba5d5278aa7e9721ff9ccd8ca4e0f1c9f4714ef1793,
    0x91b0a5a1f51f03e8ec80a00f2844b3f9587d96381a19cd775e164a023e1aae05,
    0x13d823739b423aaa21299c2626e57b65b9a6773131f5fd5bf83a9a79d227904e,
    0x64c333979a95976bf94477e5b9993aba3c908bf890e99ba7d1c5df22277b799f,
    0xc7797bd197c3bc63d11f409ff57ec18b6f5fa3265894fdd080529d31cc1b00a2,
    0x839748f8527b78e24ad8db01202a6d19c1a4b279248c54c1e916980aaf900ac3,
    0xc4b79da6c325c44ab4c34b7abb7df48f5c72c4a170360dab43ef080f67230536,
    0xbfb39e358d3e3ec54832ee23237c8bdc278199a081bec0b446e2b600357f9c56,
    0xd345dc0027f54d06369d18ce839582037bcc4de938fcaa71371467abb7e945a5,
    0x97891548790cee35b306f71ad7c90e3ddc067dcf45e17124943f91d006de2063,
    0xf4ed645d32a5224da76f3d586cb17df797e6923813bdc84648adb4b92761703a,
    0x304f119f2dfa2851e4aafd8c0884862afb77222f376dd500cead56f2235826a3,
    0x61e193ae6f6600fa9799f7551ce789ae4ce483682ad375873d5b8d16d85db338,
    0x7791f09c4ca7d59f55835b3e1bb3e29eb94f6b2862eaae4bacbe859e323172ef,
    0xeea8066d4256a0c85096aeb64406c494716fc7c7aa96e5271c6adb662e4c3fd2,
    0xe292287aa4833432d0a2fad26673b11e533ffa03752365155d2366f29d3790b3,
    0xb6293eff4bc30337c211b6094bde104dc078e4a1eb985d7de25bcfca6cd7d8bf,
    0xb860663c21d8516b796d39b39dc70af4fe949afd48ef38131c0a457be1626413,
    0x4d8855a62bacbaa67ebc25e3a67072d2bf614624cf25ffa22b4ac6d64f74e9fc,
    0xa0f89fb0ff469b5955a693873fb7c711115b4b03e0dc8fe05a554d5b800b224a,
    0xe521ba4be887fdbaf978a64c4fb85b1b9f834ea70a4eb82ee6325bd6f9e35e90,
    0x5d0b6c60d166f26f9d97615d55f3217e378685c07f64210e65e837c0bdbaaa3e,
    0x72aa4a50414a5faa7e26958fb9216b1196ff04240ceb680f0a20442907ca9c1b,
    0x25b66a5cfc1d486085906fd071331fd48b97e2fb67cc0eb6d1c8356dc7584c2,
    0x63dc7780565c42803af4c49a84005620b7fc31057e4488f383bd6499bd3bfadf,
    0xbdb3db47b5b6aebe007b80b34c80da42388f63b238e4e856333a2856b37468,
    0x4579755d10f7c55690461db968ebdd90e4b6b609e8767bb51f2dedbae1a5ebc4,
    0x527d0bc856eb799ecb55cde566e11024b5693578b23d522a72a2e0dff8a6413,
    0x82632a594fc20bc2a237a43c79364b57a7456d96670c2a6372998eba8087ddea,
    0xf58a91de2a58da72e196609d187214ccd27b931c4a4259933070bb0c1efefa85,
    0x77ad071973e16d6d513d8a6bdafa572a5fe0727908e482617f0030e91b6db4ad,
    0xcd679d9f3fc4af91e4ef8380d279c6d5ce187ae61c83c89cb9045fb3ba40784,
    0xcdba2ac85a879bf8eb9e45bb6a6162e3a7b3731124992be4b10b0d3724b8bbf3,
    0xffd35018fc012692274d306206fb3122476cf0e64954241a50dda631d889ce8d,
    0x78f09b7aed430a3b8cdac62383e39d394d09d19fa4744e663059edd77aae4040,
    0x2b8f93143e35456eee7b0a93f51b524fee4db5e302ba4e42a1a7b3901cc37fe0,
    0x2deada5c1e74464cab8082bf29c634d8e9b368289a961c2ef2f6839fb2d31e0a,
    0xfae393db740dcc42aa75f021d15f27b4323944dbb17d44823c00c75c2267f83b,
    0x3ef74d19b10176d0018f08127c24525916d5e41112cec288f754820ba02ab88d,
    0x1244ac860386b812256c6236536c6a290341e60a48a34009b187ad25c4f1c322,
    0xcb6c84b3c9acf542a6629a4e82233bb76adef84fd80bcc647fef73a655ecb4bd,
    0x2e74a3ce2cc110e88e22641c7d3346d61bc06b2cb4519a4e58d8350c7b5bb3dc,
    0xe887272be342fccaa17e9a84d2e09702790a137e14bfa851676b4420cbbeb8ef,
    0xb863d110a420704c9a793d8f825c7448b73552d91df5efdca84edf5b50ae7a44,
    0xa7091d425ce1bcaa454ff89b23f1eb59fd4ac6dcf2ddf57e78633e02ccf707ef,
    0xb1c20a6de271a7366ee6d737454bf1735d420cc02844749e1fa3a4000af50e18,
    0x6b948575850c1b22c5471e4f90ae68a9439219e63b2c7f5b372f6dc7852f1e0a,
    0xb5a44079be7938669b7b38245cbb219f6f968469710dbcaecd29106474ead633,
    0x3ee376558296e48ee56fe4a198ebe841101fed23daf7e98b5a64e20f0c6159c2,
    0x62b9d7ccf126f5d0501b99b9d014603b046a47d6e86ddb65484bf5d3c0f8bf9e]
  cs := [
    (3, 0x54d6a48aae687fb68b7f13ce6607e276afab085596734aa97762f281b25ed783, 0x54d6a48aae687fb68b7f13ce6607e276afab085596734aa97762f281b25ed783),
    (5, 0x9b17f5767b72e1a3c673d4c3e369b20235e972559753b37fdedc95dc103781f, 0x6ec9cd129895d052616a564f042be5956a2075f39c3d432635ad7e8b44cbcdcd),
    (17, 0xf4646ef27133b2d46393a4c40448d75b8f3adcab0a20793ef8bb26f5b81e7ecf, 0x90269340057d7ee7eb21d977cf20f3dc38da22c5375471f2a0a830a7ef328ee9),
    (257, 0x618e9a9a97b4105e9870464ee696824b10a336ec58f59159b1165cabfe23cd76, 0xfdb7756e6ac858fd6732aab4918d7df125c6c922eca444e8a2a0bb43afdb4f25),
    (641, 0x56ced9120f236c15fdd49ed161d46abc0269afa58693de573c5dcc0645c4b0ff, 0x581da52f86332ea661bcbb2b555ce0f02e9815440881e2bf78b880b86010e91c),
    (6700417, 0x1c10854fe79f6066b6b1fe5c68be2282e701b5777ef01c8fd5b0ea5458d18c36, 0xc6450b829be1a76226abe4270fff410101352a4c92d48efe19b67cdd3c86a7ed),
    (65537, 0x5b7382b05dc5a20686e618650a39fab806017ce589bb2d98cf9b5a05139e793f, 0xb676779c1ec18ee71ca799db6f5623d0f6f65e508c7029e05dafe16943ddddf8),
    (274177, 0x24d5461cfd63732f63b6b60adc840b312db07c0c8c7b46872d3955d70f9e6ac5, 0xe5a556c3c9e400e198126a39102fcc20f4c3663facb3240e1d771075d04e50d8),
    (67280421310721, 0xc3bc6f4888606c0bfb4a6ce96aa43d28506b49c1c962aba2928641dd24af8cf8, 0x2fbf5d361feea8bd9fc94ae35bf3f6a76338c186cf6f576a067bea15d2a4c5d4),
    (59649589127497217, 0x2b0b5d0e0d5dcbfd343a0c7c13920e58856efc82f8b6f3e99a6368bb225afce6, 0x9ca884016a9ae0ccc7d474a8d84519140837e437505a90a217cc3ecd3bb53a6),
    (5704689200685129054721, 0xca8fcba3c0dd08871d4e3f7290e3e7fb8436109b90a55fd4bc6fe9d31b611e5, 0x3d5cb71a110f671392e965f9e4b713e93b04d92f3f0eaf518cdb42c9fdb2914c)]

theorem cert_x256_orbit : cert_x256.orbitOk 256 (fun k => pack4 (transform4 17 45 (unp4 64 k))) = true := by decide +kernel
theorem cert_x256_basis : cert_x256.basisOk 256 = true := by decide +kernel
theorem cert_x256_ann : cert_x256.annOk 256 = true := by decide +kernel
theorem cert_x256_one : cert_x256.oneOk 256 = true := by decide +kernel
theorem cert_x256_primes : cert_x256.primesOk 256 = true := by decide +kernel

/-- The next state, on numbers. -/
def next_x256 (k : Nat) : Nat := pack4 (transform4 17 45 (unp4 64 k))

theorem cert_x256_valid : cert_x256.Valid 256 next_x256 :=
  ⟨cert_x256_orbit, cert_x256_basis, cert_x256_ann, cert_x256_one, cert_x256_primes⟩

theorem repr_x256 : Repr (lin4 64 17 45) (unp4 64) 256 next_x256 where
  two := S4.two
  xor := unp4_xor 64
  zero := unp4_zero 64
  surj v := ⟨pack4 v, pack4_lt v, (unp_pack4 v).symm⟩
  step _ := unp_pack4 _

theorem full_x256 (v : S4 64) (hv : v ≠ 0) (k : Nat) : (transform4 17 45)^[k] v = v ↔ 2 ^ 256 - 1 ∣ k :=
  cert_x256.full repr_x256 (by decide) (by decide) cert_x256_valid primes_256 v hv k

/-- The period of outputs that differ where they have to. -/
theorem out_x256 (out : S4 64 → Nat) (h : cert_x256.outOk (fun n => !Nat.beq (out (unp4 64 n)) (out (unp4 64 1))) = true) (s : S4 64)
    (hs : s ≠ 0) (j : Nat) :
    (∃ a, ∀ m, a ≤ m → out ((transform4 17 45)^[m + j] s) = out ((transform4 17 45)^[m] s)) ↔ 2 ^ 256 - 1 ∣ j :=
  cert_x256.out_full repr_x256 (by decide) (by decide) cert_x256_valid primes_256 out _ (fun n h e => by rw [e] at h; simp at h) h
    (by decide) s hs j

theorem count_x256 (P : S4 64 → Prop) (s : S4 64) (hs : s ≠ 0) :
    Nat.card {k : Fin (2 ^ 256 - 1) // P ((transform4 17 45)^[k.val] s)} = Nat.card {v : S4 64 // v ≠ 0 ∧ P v} :=
  orbit_count (lin4 64 17 45) full_x256 (by decide) (unp4 64)
    (fun v => ⟨pack4 v, by have := pack4_lt v; simp only [Nat.reduceAdd] at this; omega, (unp_pack4 v).symm⟩) P s hs

theorem reach_x256 (s t : S4 64) (hs : s ≠ 0) (ht : t ≠ 0) : ∃ k < 2 ^ 256 - 1, (transform4 17 45)^[k] s = t :=
  reaches (lin4 64 17 45) full_x256 (by decide) (unp4 64)
    (fun v => ⟨pack4 v, by have := pack4_lt v; simp only [Nat.reduceAdd] at this; omega, (unp_pack4 v).symm⟩) s t hs ht

end Verif.Random
