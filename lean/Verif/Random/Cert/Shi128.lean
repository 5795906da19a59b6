import Verif.Random.Group
import Verif.Random.Check
import Verif.Random.Factors

/-!
The full period of a state transition, with the data for the kernel to check it.
-/
set_option exponentiation.threshold 600
namespace Verif.Random

/-- Certificate for the transition of `x128`. -/
def cert_x128 : Cert where
  p := 0x100fc65a2006254b11b489db6de18fc01
  mu := 0x100fc30c1e77fb1ccff70c17d85cb2557
  K := [
    0x1,
    0x10000000100000001,
    0x800000002000000000100000000,
    0x400800000000000000020100000801,
    0x50080200040a0100000a0000400200,
    0x80101002005008010044020100100002,
    0xa0901c0288440a0300040a0280441201,
    0xa0b0050400141c020804120020d00401,
    0xa0b8254528e0180328c00a0388641305,
    0xc17a344320900d0688440105001c3c43,
    0xf1aa3249a88e3b45a8c8304049220905,
    0x10104acb71ccb2404964020010400b0c,
    0xa2465acba988b94c28e8bb4c493443c7,
    0x770c3c5531ca628bc85441c7c39aa240,
    0xc3ec95fa5ad34ecb3a04810c7cc2dfd2,
    0x40a7b7cf2f1389191c151015852acb24,
    0x953ed2e58019683db62c5228d9986cfe,
    0x94066918012554c3efad56ebfa8aec33,
    0x59ff9bdda1026ef01402ee1b8121d3c0,
    0xebae326f25ff8b303421532bccdca606,
    0x7b0a26fcab857b36dd027e1d1353c742,
    0x42c70d30bc2a867465d4c269b55b9fa3,
    0x9e7ac938a0f5cbd76ca5dbbe924850fa,
    0xf8943796790ae72d5e1840936097427c,
    0x63b82d34291c83514785e5c2c61b3579,
    0xee47b121e4cc3228a88253eae226fd8f,
    0x2f165a36024d1ba7ae689c4da4e31f44,
    0xf633dc0b77969ee308c698ae259dd93f,
    0xaa252ff7df3a1bdc5acddf72db689d9a,
    0x47842f879fec62465e9f59342b806d1f,
    0xdbb598c88ade6759eaf3566d329b1bac,
    0x3675298a5ee9a6f552b62a9803ddd509,
    0x18189326316143fc0f825964671ed61b,
    0xd65210bc52cd5de759fdcc8370841c59,
    0x7ee1fc7dd9d047be7bb48d3dff2bc066,
    0xab8a002a4fe1fdd85d4f0ae5fa7eb126,
    0x28567fb62b8a86fee8d0461b0cbbbbe9,
    0x31cd6e0487bd0b17cfe17b0ccc3d8244,
    0x60a847f1897691538461f25f3211974c,
    0x4dad77267883b81f3f06f440d6d822e2,
    0x5c1b3395a3b31afd915d6ebda473a184,
    0x32e9466abd1dc179969dd5c46935fcac,
    0xa49d7523ef83b5d542b5e811cd416f02,
    0x44e997314912f8d7607732c62b69f230,
    0xf52fb9248c1e86e7020c38210ff757c7,
    0x1c082fb99b99932081e5e901f8d4d6c2,
    0x6e35c4efa89f47e2e2a8ace36539107a,
    0xeb4064649cff91982f0efb7be9a47876,
    0x74f8fe2268ad1fee5a5512952deae769,
    0x6f65b975ef62d2871f12ea1203470bde,
    0xba9b3b83c9f1fd59f337334b733058b9,
    0x6046424dd4a733e049f696ab3a9c5071,
    0x86a7314d03163591a7cdf53a132c8497,
    0x5623b90b8bd0c506b7f7443c324640e0,
    0xa7e9bf0e571efde60e61c1dad392bdd7,
    0x43f6a54c470ff4318aed81eb7a1ac303,
    0xd9253e48e616e132b7f8b6d9b301e7a4,
    0xec448b76a47ab496e2efb04fdddc6f35,
    0x59d9c875a6c645a39b496becd377540c,
    0x851cce14e766c9afeef87a4311e7f795,
    0x25a2bb5f0675b83a187944797a0343c2,
    0xdff931ee8efe09f8640fbf8147d8bce4,
    0xb4737ddfd659b71cad290a9dfc2e328b,
    0xd3ba10ca7862bf97875e8f0ae57445c9,
    0x24fe02a72008ee5e1a487554b190da09,
    0xb3bf99f501729c578bd041038f26adfa,
    0x7ec7b1c32ed637ad058470aeb749750c,
    0x1e0b6bda917e1ea19c1b320fcc0ab461,
    0x82ceac106b10b4c0c16f98cf4e1aedb4,
    0x9a6fa1dfa3bc774e465c1bb0dbbd96b,
    0x19dd376e3c03681f13e5dfa4e078e2cd,
    0xc746505117c4c2d2cf9e5576ea400a07,
    0xc0293846c12e24d5321a9da3e2980f20,
    0x9d2f2f91168d6df511acb65610abaac5,
    0x1cce3c645f4a6b30178a71669c283302,
    0x2268105ad7809432d4e82954976c7e00,
    0x1c877b490be42329404c36661ec470e,
    0x65a694aef8d4c93c6556c65af420f3dc,
    0x8297a007a1788ee069a2fcbaf4d0a128,
    0xaae5ef5910515bc83c0ad3721fe5fd95,
    0x79e15cb71a12425d33be752f890ac1be,
    0xf94cc252eff2dde3a0a6f6ccc355e826,
    0x51a4f2cf614aadc58c01c3099abfdcb8,
    0x298e36edf873637d77f4b274471aed7e,
    0xd424caf3560d6603c89d3c77196069e7,
    0xcfb420e57515e1e487f0339305d99f63,
    0x209bb24290ab5887f73c4d144d9d8c15,
    0x3ffab6bda5acfc922a0a99869a3a7343,
    0x8179d8af2aa583d1159c16578fca5c78,
    0x2e77c4a79d4371a9b0f3c9fe1b2f9280,
    0x206accf461ff1f29369f2ad785ab9fd9,
    0xaf3118b7da012ef0d2cbaa27935e79fa,
    0xd59483efde0b190a9b94fd2deea4cb6a,
    0x3f6127019558860ab3b2f4da0a4b5a8,
    0x69e9ed46cfafa7c812ca128508698895,
    0x1ffe1bd953e3255dd50c3dd8734a7756,
    0x91300e5738d2e20bf5a56fd3b9b85157,
    0xab0c2324cbb5155c74cfdc8fdd2d30d3,
    0x1ffd5efe89213b8f6257f90002eecf78,
    0x553ff3ed243df4f7e9980df77f446886,
    0x3ff0d5e56b627271b2e19186c3e3969c,
    0x8a231c686ba2e8ed1a60756b4ef2d2ff,
    0x1b481c82e5baec123f304f79deb1bbfc,
    0xc29fd9235b95a5ee043b1897fac9e807,
    0x260da635d76d63e9a567557e3c6d29b3,
    0x579a5c1b25aab65a4e671f24bf07daf8,
    0xea19f8cf549324a2d4ca7386a6fa99c7,
    0x9c5a49f6668eb16526a3cee39829128e,
    0xcc38add7b93a65ebd8046d0822d0959b,
    0xe606f8a19330e07043ee9d7836ec5544,
    0x432ecd2f78e64534e632284c9304309d,
    0xe72b1d288fb2eda90dd05de53618d5fe,
    0xda066f571911f257b47a65b2dce39533,
    0xe0572b7331390364718802d6b29f9fd6,
    0xf94d2c8e93a330b2f22e9e642340b673,
    0x1d97505beddf4ec142cd18a528230499,
    0xd247f2fa5fcd0058873152fd77794c67,
    0xb5003aab4a11b63faf851ec2220fec60,
    0x292348d46223de5fc79b449d388ac809,
    0xc0624f756c202c569d3252cbd632c440,
    0x80edf2eadeb77e162720badd8b62d9fe,
    0x6a41bd3e14a01de872f51d352caf91c9,
    0xa50058c5d235e6214afa9114341b31c2,
    0xd64e8f7f130cffe3acd446f7dbe1f813,
    0xd64c43d46060e9f064394107a17b319b,
    0xa8169d93b399d66ba522996c130e3348,
    0xa027f869e5a53d2305b57c4f1e3a37b7,
    0x9421352c91679494fe2a76dbbba8b391,
    0x5a1fbb507e229105d4e551ded1a3f066]
  ks := [
    0x1,
    0xa02531d096ba73f912037800f76b8286,
    0x282341fd666963befcf03ebce35138ee,
    0x5a18bb798b0f9b3283445b89df7f7264,
    0xd59c5b02ce590d79cef05c27d1721abf,
    0xf3f9b49d830bb8e61f1bc5f1e858edf0,
    0xc426bb78249ef6bced2a1d0202ac48c4,
    0x641a4180a21de2fba0d1b43686855d74,
    0xf650c1bd3669430b5a238fcaaa57bfa7,
    0x72b380652d14f19ff2134023cf841fbf,
    0x8244cec073eb8949b49e743cb9d761ea,
    0x1e6d2bdbd7ee22ea7b7b60c82d248851,
    0x67d625858faa3eb56b038d2a75137f24,
    0xb861f674b79746a00241951355b5a4eb,
    0xa1915d1fba087ba270c1ee7eaa64c2a8,
    0x9fafca8f9a880d64642d0062358caa6c,
    0x542def4a0efdfdb948c05ab1989ec090,
    0x4107e163da4ba91d4002fd571b42b4a5,
    0x8422319c956a13512fbbdff67e5daf90,
    0xfff31c2c020713499f29158223ba102d,
    0x7d1558e0d25e86137b88173d4cb6c262,
    0x3e1a8d22f9c1121fabbdd56f959a5b51,
    0xeab484d4b194776b96710c48d61c9fdd,
    0xab06b76918d5ef9974a38802cd88ad27,
    0x588069f998ea1dcf7395c2c84e952b22,
    0x878570a85a4477142eb21ec90cc6c158,
    0xdebfa5ae9b2402c90c834495cf56f3b7,
    0x5b333e22f1a25aa622700e9558dd1109,
    0x9727b413d7fec4c64c7444d98293e1d5,
    0xb6ea294defc8a4aa22b9a74ea3d0d3e4,
    0xd4c58fa726cec144316a468ac2dd5456,
    0x5c681b1209e48f2f9cf5f304d5c92d78,
    0x807e32d100312a588da44edb6f0c7e02,
    0x10a49eeb664b8abfb64fd1b74b7a384e,
    0x445723047fe676a287986227b70aedab,
    0x993d2b4fd398fbfc472a9ad751415dfa,
    0x4174ccf7fbcde2a6ec744531fb49ba20,
    0x9ef3d6d7c7f0f90e2af2f4adfa855119,
    0xeaa24eee5b10c296b789a933da1649eb,
    0xfa39a3c11535348a91cbb2764e481452,
    0x170bb4d7f7b5597a8fba0b1db090229c,
    0x5c40f229cc92b1a8908b6e8d17c64ea1,
    0x45579f42de408286a83b4fd1f15d8f20,
    0xb392f08b441a7ef946ef3f2f23d72a8a,
    0xfc4759c9d88162306386dcc1d0af41da,
    0xac7140a034b650f9934f33c2b0a519a2,
    0x13167112a9769e24c2abb674dfe31805,
    0x707415faf83648cbe1041d43afc7fdef,
    0x824d29311a8505ae35e0983bfd72e168,
    0x22f200a75983acecada0caded4284d18,
    0x4aa91e5560037bbbd3e2cda11d8d74e9,
    0x9de13d055ed1de672a72a8e7bdaa4d,
    0xc4a01db1cd924f2f4ad425e43f36e5f5,
    0xe3466e058f5387680f010eb38ef5e50a,
    0x20b11cb03bb1ab8b71364dd87623f255,
    0x830c6215bd925617c5fa07694cc18edc,
    0x9d40e70ffda135795ee164f4ba60c3d5,
    0x4c343ca699c881135175af4041f61e1d,
    0x52a2cef97b897a1f09abf80cc8121cb4,
    0x1b81d1859ba4b247d87c54bb72d8d496,
    0xe55ee55d44519506283e78b2757ab141,
    0x365d239f28174fb04f67008cc851323b,
    0xc315bd3fde98b69b612933e63accfe86,
    0x96e43bad173b59c8f7911f8bc176cc4c,
    0x807e32d100312a588da44edb6f0c7e01,
    0xf037a938dde74a059b02c4008cde43c5,
    0x3c32e103d55dd261828821e292f9a499,
    0x7714e6c54e8856abc2e6764d30c0cb56,
    0x3f2c4452a944a19da42c3cef56c769e0,
    0x8a056ed3428e6495109627091c749b08,
    0xa635e6c436d18de29bbf138303fa6ca6,
    0x56176140f313138670b96e2dc5c7f3ce,
    0xd0693b2ad6cc8d67a9606f490701e74,
    0xcb947286bbafa30886beaee9474a6e60,
    0xc366a9a04a1e4ded6ed14e22e53cd11f,
    0x91258ce73c2819c7cb629e7754bab279,
    0x543d3747487f21efde824bbf4f9ac0b6,
    0x642f3f9fec6dcfa88ec511419063089e,
    0xf159f390670c467348a11941ff56a3fc,
    0xd0782fc857cc0bd6563b80532f4aff5a,
    0x7e3b18ef09830365eca077e954d1a0d8,
    0xe1fa2303375f57cb6da7cd27f9ef90f7,
    0xc6332952dfdf1af9b866300d41737858,
    0x74a0eb0335b0b5dd19d1985d6b663b,
    0x439ff490bb71c51ac64c1ca3eaeda353,
    0xa169f9628510b148f3c77103305b08f9,
    0x1f90f46fe96f6686d0edc4b7d21eae33,
    0x7efbde0c948e320d435602d8c44085b4,
    0x74c05d05549f1328ca5f23ac69dfbeb3,
    0xc447c8fc77664c9e39eb11ad8aa5a1f4,
    0x319e45a8d68729f50766a80447f1f46c,
    0xf6d493e289425dadbeec47049bbfe78d,
    0x5cca5ccb3c308cfde7ea286e2cd66f3f,
    0xed9f3deb182cf6ff33e574e9f238ba16,
    0xbea74874b5a9a1e629df65cfa3b3fe7d,
    0x725c169b0d16c8b8528f0a86bf2dbbc4,
    0xa58b12faddfe6ef088293ec27b2f7633,
    0xf93bb79ff050434e57a4d0a6f35532e6,
    0x2eee74f5de01411021e51c0fc6d2c242,
    0xffbd254b9e6b16f58bfef2635e2c935c,
    0x53d93543f01df421dd2cef09cedce37f,
    0x2958f6a517bf8ce8167f4c809760d66b,
    0x77b14cac5d4f8c6e4af4f358cfb46cb3,
    0xb838fe561b6e2f7d2f7e50b9c304ce17,
    0xec0d4dec97f1747af310a6dbfb2385a9,
    0x91072d4545054e5889598f165390abdd,
    0xe7b8324730cb31c79f0e4e2e484a85ad,
    0x4bea4057bb9e89500b1ae03228461066,
    0x52ae3b4d7678a1d4a60244fbcfd91b4b,
    0x75ffa816da6be19ebf3a06a36ef4bc6a,
    0xa59e944cb7bbe2688ff122f9bd3ea8dd,
    0x722e31852e62e53a74a982344ccbdc41,
    0xa14859d7ac74a13633e55cf0c6994126,
    0x2b4422209e01ee6078c3fbb39dc491a2,
    0x1497d88e94a3e8b0e56588f3de943d5b,
    0x2eb63fc619e9ff4fa74a5fcb820848f4,
    0x5041bf4da77c399ffbe8c3b9b6bdb404,
    0x4dc8cfec121fbe7791ca75d6f75a96b1,
    0x89b9ab74a0d3304a6d4ea0ac7da8a89d,
    0xc28a531f635b7d1c270704ddeaa149b2,
    0x539ea6590340859d7c359855885cdc3f,
    0xea501024d51debc2746b363b0e016f13,
    0x7bf3a985c64dc7108d7e040aac1b12ee,
    0x164139475676eb6434427ee6cbb4bedd,
    0x178fa522e64875ddb1850a3020cb97e1,
    0xad0d8081bc2dc230e570ce11c375d526,
    0xa29f63a031d4edd6d1bdaa1527aa81c5,
    0xdd96267b9ca6f52c8c59904e21cdaa6a]
  cs := [
    (3, 0x188ce7ea029c4bf6dded83847a711395, 0x188ce7ea029c4bf6dded83847a711395),
    (5, 0xd0b81dc3de8363ddddfd32c4ef886bf4, 0xe512c64f8b163ebfb94435faa0248ed4),
    (17, 0x7d5de34ef14456cdccabf22143842b52, 0x8b7e88201598b0a490ec440446989f8a),
    (257, 0xf98c9dfcc04c64b2b8cfb96508e78fcd, 0x1627445f4a43a13e537a125acbb0956),
    (641, 0x40b0c263cbfa8427d62f24e6089d3f8b, 0x241ba3f30761e22af004b16104e524ec),
    (6700417, 0xcfaf9079377931cb1b4625d2ff58d222, 0x7510abe7b6541c3e1bd97f50ff80be96),
    (65537, 0x7c352e1c640bd6131b1eecf072501922, 0x6635cf49f211ea9309a4794fb4f25e9c),
    (274177, 0x464896dcfdd900fb8dfdabe1bc3542b9, 0x2e90e1801c5a010c6952ddc813edc470),
    (67280421310721, 0x39046ea60511db4048a3c9d486cbc62a, 0xdb70776537cdd448c68a2a96caf0f348)]

theorem cert_x128_orbit : cert_x128.orbitOk 128 (fun k => pack4 (transform4 9 11 (unp4 32 k))) = true := by decide +kernel
theorem cert_x128_basis : cert_x128.basisOk 128 = true := by decide +kernel
theorem cert_x128_ann : cert_x128.annOk 128 = true := by decide +kernel
theorem cert_x128_one : cert_x128.oneOk 128 = true := by decide +kernel
theorem cert_x128_primes : cert_x128.primesOk 128 = true := by decide +kernel

/-- The next state, on numbers. -/
def next_x128 (k : Nat) : Nat := pack4 (transform4 9 11 (unp4 32 k))

theorem cert_x128_valid : cert_x128.Valid 128 next_x128 :=
  ⟨cert_x128_orbit, cert_x128_basis, cert_x128_ann, cert_x128_one, cert_x128_primes⟩

theorem repr_x128 : Repr (lin4 32 9 11) (unp4 32) 128 next_x128 where
  two := S4.two
  xor := unp4_xor 32
  zero := unp4_zero 32
  surj v := ⟨pack4 v, pack4_lt v, (unp_pack4 v).symm⟩
  step _ := unp_pack4 _

theorem full_x128 (v : S4 32) (hv : v ≠ 0) (k : Nat) : (transform4 9 11)^[k] v = v ↔ 2 ^ 128 - 1 ∣ k :=
  cert_x128.full repr_x128 (by decide) (by decide) cert_x128_valid primes_128 v hv k

/-- The period of outputs that differ where they have to. -/
theorem out_x128 (out : S4 32 → Nat) (h : cert_x128.outOk (fun n => !Nat.beq (out (unp4 32 n)) (out (unp4 32 1))) = true) (s : S4 32)
    (hs : s ≠ 0) (j : Nat) :
    (∃ a, ∀ m, a ≤ m → out ((transform4 9 11)^[m + j] s) = out ((transform4 9 11)^[m] s)) ↔ 2 ^ 128 - 1 ∣ j :=
  cert_x128.out_full repr_x128 (by decide) (by decide) cert_x128_valid primes_128 out _ (fun n h e => by rw [e] at h; simp at h) h
    (by decide) s hs j

theorem count_x128 (P : S4 32 → Prop) (s : S4 32) (hs : s ≠ 0) :
    Nat.card {k : Fin (2 ^ 128 - 1) // P ((transform4 9 11)^[k.val] s)} = Nat.card {v : S4 32 // v ≠ 0 ∧ P v} :=
  orbit_count (lin4 32 9 11) full_x128 (by decide) (unp4 32)
    (fun v => ⟨pack4 v, by have := pack4_lt v; simp only [Nat.reduceAdd] at this; omega, (unp_pack4 v).symm⟩) P s hs

theorem reach_x128 (s t : S4 32) (hs : s ≠ 0) (ht : t ≠ 0) : ∃ k < 2 ^ 128 - 1, (transform4 9 11)^[k] s = t :=
  reaches (lin4 32 9 11) full_x128 (by decide) (unp4 32)
    (fun v => ⟨pack4 v, by have := pack4_lt v; simp only [Nat.reduceAdd] at this; omega, (unp_pack4 v).symm⟩) s t hs ht

end Verif.Random
