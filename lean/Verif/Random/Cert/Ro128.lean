import Verif.Random.Group
import Verif.Random.Check
import Verif.Random.Factors

/-!
The full period of a state transition, with the data for the kernel to check it.
-/
set_option exponentiation.threshold 600
namespace Verif.Random

/-- Certificate for the transition of `r128`. -/
def cert_r128 : Cert where
  p := 0x10008828e513b43d5095b8f76579aa001
  mu := 0x1000882ce131d909672f817c07cfcaeae
  K := [
    0x1,
    0x20000000000000000001010001,
    0x20200020000004000021002100000001,
    0x8024002000200100000105012501,
    0xa424a420201004a08020842121012521,
    0x22243024808400202524203501100105,
    0x328024a0e00202302210818485942505,
    0xb2c4e6a21214a48c31315497478137b4,
    0xb2b267107eb646aaa6876697729ca26c,
    0x855c98c286a030e182c0910f844a63a0,
    0x5d4a6820f38139a001d54144f12993d0,
    0x55154e0b93e52c80310a025f78d97f31,
    0x678a762c83e98a9d77337e1789bc59b3,
    0x4aba65c2172107610f0bbe376a0ce050,
    0xa5bce628b63b7eafa92eaa38ca13ec8f,
    0x851244019249820f784823d461a1bc8a,
    0x7d07d0bfab4cfabe4eee3581471576a6,
    0x8b3183067d3ca7dd57901c11c60f622d,
    0x6678be1b9433e2f752702b46539455ec,
    0xf4f6e3668112abb8e706c6af9ceec730,
    0xbf8d91027e04b92399a5d6f241936a4e,
    0xf2fa6da4c508fe079399eb0da26376bb,
    0xed71178c2c70d52cea6882b454441157,
    0x6988f60e332a70f2675a91deba5acf9,
    0x12e17ec41da4cfa11b7b8b46fa477e5f,
    0xfc763fc1335eb05cbae2551f0906ca75,
    0x4b0f4528d28d5bc73343564c35cb987c,
    0xe8d8776f09826c9c271d3fba58ce80ed,
    0x299d8e39f8a91aaa3d48d719501af14e,
    0x167d7c829aab241554a5eb620d6aa333,
    0xf830e4c85b12fc12b7356a8223b322cd,
    0x143bdbe9e0b1c94f436c45c96bc9ebb5,
    0x6f045f4aeaf3c411001cdcb31cc14ebf,
    0xc65155cde3107f3e5ffdb485c39c9672,
    0x119d2993359c2904fd275d52bb9f14f8,
    0xc067bf9d974e9831cac065d64b021aa1,
    0x8990520154fb497b06a7041dff1642f5,
    0x7da171d1e6eac395c4d4ebb35565ac8a,
    0x71ede3f72eb34c5690424c415654bbf4,
    0x1cfef45c35f5f6cf0f4f83ea7bd5b5ee,
    0xc4086422762ef6c98e7cec23e30e0ca2,
    0xa41f4d694e910032e196132dcdc58687,
    0x6a90d6a8b12bc89036001896820010a6,
    0x657b06cb9219c7c6042cfd054d2bd82e,
    0xe643fd0c2aff79db9fd40f24eede3315,
    0x842959cf32fe4518af51e83a9b709ec1,
    0x31db7b256f163eb5a01668e5b3f88a31,
    0x9dd6909239a2781b67be37a459caa2ec,
    0xd1b5eff4d14e6ccf9070dfc56f864c0,
    0x7d90419e838a60635b49b08b59198501,
    0x527cac44db3e22bb5c9532033eaaacd2,
    0xb291cd21dd33c8fc9390d17fb9a11b5b,
    0x925a74e420238bcc42e6d9d7eca64376,
    0x90b9175a1795a679aa63c7f5727d2e63,
    0xbd1103475b5a15ec1f07c8698e58ebdd,
    0xa05fc63442d965da00b646c7f62cf9f9,
    0x9eb384741d301e76e7ec18ffd1d62a65,
    0x9cc6826f2bf391791a0586479d12d80b,
    0xdc292e50d8608516c576a011f4894cf4,
    0x9d393c432bf1c82586ea2be411cebf42,
    0x47eeece37a62f4e7e865e3270fde9d4c,
    0xb78d3575f161f88e8740a4e550ff0c48,
    0x33de98c619b23214440dcf021ddfb462,
    0x8db0cecefa6af880220a8c1de05f8bb9,
    0x46ae6735f7485a63f089076dd02e79b5,
    0xecc47ad6c4ec0b04bbaf6947b140aad1,
    0xb5943aaaed62722e034b269705c20ebc,
    0x140f9256dbe387bd3de73693283137b4,
    0x7a5601253d1498be1e056620f7e6573f,
    0x5e59f02c8a6ce0b923a14ba03a6dcae7,
    0x254bcfbf177196664e66477d7c8b15,
    0x4d7f506ccd65b1180c9e93682d8eb4e5,
    0x1d60bfa83c38609ceac8ad5b001a9b6e,
    0x845f7e5ef5025e67be5b344aa93a335f,
    0x870da7074089428b3ab92c1f6ebe360c,
    0xc6ee90f7b691630529c21b19568acdab,
    0x375d5dde5917ddc7d94e138e59c6cb5,
    0x1a22d2fdc269ca072e1a884a4198588,
    0x7e3250e6870b56f724ce411e965f880,
    0x22a9bdeeb5f823f0a55925f24c88010b,
    0x2e045f70fe13039feda0e96dd02e7bde,
    0xc7af08387496c3a51869b65b8891d8a8,
    0x80e361bbf8d7cc7f3a2dd3bc4f1272bb,
    0xf8b7d89759d640f6b48617b0b23b9317,
    0x7dba7c298639e4fd33a41f592fb855f6,
    0x30362169c3cc6e15744172a4eeb91514,
    0xaeaf60288eea79a5b354c7ad42003a73,
    0x9d487ac3bf74f0b9173c6b55fc8f1711,
    0x7f7cf5114e8232c8ce1edd7ab544dbc3,
    0x78dd21762c450d7fe3bc9776d103f7d6,
    0xa8df55336c36c01f5bb048b1d10c463e,
    0xa750c43e6de3b0575f3cacfe05403669,
    0x1470c7df0d8d180d6ea9405587c2ba92,
    0x49f453ef5b30f151a8d4cf7fbabe0bdf,
    0x31df51dc2413921c020ac315c4a82e41,
    0x17778ba67ab2593cb4d8da5c1de4b69e,
    0xeaddf45475ea3f4cae48d21a16403778,
    0x7541068892a4c9cc78cd05d3133040e6,
    0x32912541b1806b70ddc4b28feec6442f,
    0xe8c5ebfdeab2f9cbf7750ecc5fc4ebed,
    0xaec244c3f61ca63636de94ac4aa76728,
    0x977823d3039a0df7e439cbb355931f8a,
    0xc1224fae683d0c0a28742d76ce902bb6,
    0xd5a4f79d2acc5b14fd40545e37395391,
    0xbea110a51c947863d5108765848d48d1,
    0x326164d7632f81399f58291797e2035,
    0xe99b04d35a729b819f76e5b0e2f32da4,
    0x1036c4aeddbc2c77276caacfaa3bc0c0,
    0xf0fd96e6eb4dcc2e969122265b17801d,
    0xb49866ccd969816f4f7131ae1ffdd11,
    0x8d28a0fff7d2aec5702946c2789ab214,
    0xe9039a3fa03cc7b1d944f3c787e93597,
    0xfabe44c608ed3f049e38a718422ab6d5,
    0x58f13a2c90dc7bc99f1a83af1688b176,
    0xca9957f8fd773070d17eb7663a74d03c,
    0xe07c09837cfc13d89d43534d1b9e9efb,
    0xec51a46fa7eb59cc6aeaa33211dcce70,
    0xc6f2f790d760ebb6b3f76da451e17d1f,
    0xd032d52ea0b346904b60fdc80f9b61c4,
    0xe504ea936a451cd57bbb1caf4c3747a9,
    0xce4b6f93d7fec784c7cfe709d475e060,
    0x7164fc813091134088cafef144a8e803,
    0x873f687f35c04e0e0a9adea18cf231bd,
    0x264ff671b4b6dbd79af7fddd7b8be56d,
    0xe7a7d757970175996a6f4f749c1dc947,
    0x63979bd1b913046161778ef6f0a8d391,
    0x377afe005c02a4e9e137f44f0f2aa07e,
    0x650092fac9a149ea930d73c7295e3363,
    0x1fef513ec1bc27bcd0195ff1f9e577fa]
  ks := [
    0x1,
    0x3fd8956a3a216ff1640f5642e09e11e2,
    0x9998246561f65604ea9bed45bf1fe0ce,
    0x4d327f85c2d73d5fff22ce79f537c411,
    0xa97858c4cc7802a260c6c0967b897726,
    0x9033162cbed0e60ca9f57519c9523665,
    0x9cb37a8acbe84ec28c4d8a0b64394c6,
    0xe49408cec0920e38519774adcebabe74,
    0x3e0f9324956a3b5984eaeead500803c0,
    0x7fd2aef4e37bfb3f09727317e4e78ca1,
    0xd1fd62adf919a43e3d495e507c31a070,
    0xe27ddb7a38a92b6cd738f5718e3fdd7f,
    0x4427e093f4516d4a8410c5650a07b1b1,
    0xd1c58291d4e941cb78257983ccf8dee2,
    0x7f81297b7857b164df97036957ff772d,
    0x46dfef18ad152eb93833c108d9ed8154,
    0xd06de3011a9e7c77269218f275d1b438,
    0x35ead6f57e7566a5e2d4a6e71dc992b6,
    0xe20b0942d068645d58cc991750a00d66,
    0x2777be822a2ce0d51fcb2fa0c163e31b,
    0x97677c1bd406cbe0e42269ec069bf7c7,
    0x459917f76f08d037a68333fe76891a81,
    0x176c997ee34030067e4077812cca9adc,
    0xd0b43de526d304dbdd1e8a21537dae49,
    0x8f0449ebc2b4da811b386945ea03c677,
    0x53ef743108616e8aaf2e1c82b1ec4539,
    0xa92d87747051d93466c1e8f0a78c75f5,
    0x857091bbd0bcfdb8a2cdad1c72a1f2a0,
    0x4df3e79363f3a928a75401e26c59e284,
    0x63060829d61cbe14ab1353e569980b7f,
    0xfd546b1368d521ca71954e65e9545524,
    0x5774b26c491c510243d86b2748418004,
    0xb9f17fbaa619176c4a8fce7198adb870,
    0xf3810336a396945b6eec6cdcc5a115fe,
    0x934589a0422b882e027542060df9b5ce,
    0x205b964db1a4c197f7fa6a7234959b96,
    0x97cd7979d55a93d15fc4b7c238d806b2,
    0x72740427cfd9a667eb9bdf61750738cf,
    0x920a3d858a7dec3014858d142d3fb68d,
    0x80f44cfd4770b2b4c6a78364895b3891,
    0xf555eef09574fb6738cc178d87570d88,
    0x3ef8bafeaf56910359610de3c18c24d9,
    0xda0eb5179ba52ce18b9986e5ccf21b37,
    0x56f8d411b7a0a3bd0da4f082ce0cc0ba,
    0xfec83836197e0515554793cd22adf743,
    0xbcf8496dace652eb0cdfe9f44dd23175,
    0x24fc1fced824b5e6ce36893602440f47,
    0x3a2d2fcb0822f99102ff7d269ee0df90,
    0x9ca22164336d1fe3e75020dc2beaaf56,
    0xa9bba963f37ad15374b507bf9337a0b5,
    0xbcab864c9494be4df18265e201420af,
    0x1ee781e15e992a0bea987bc9d0b8c461,
    0xbef77eb62be687320b8e0e5305e2b3b1,
    0x54f8f78fa7808ba2acbcc35d306ea6c0,
    0x2c82172d1ae9d7eefb96cc19a2456d6b,
    0x4c315272ae87dca1f5fb00280b87d9f8,
    0x770d705af53e7d6e494ae66883d5a41d,
    0xca512c975e2e3a62ded4423ec8a780e2,
    0x7122f1f2ba12b6faa0a72e1c0b1e208a,
    0x1cfc17ce4a12d85c533bccca1158b723,
    0xba58ddb782c1865c9c1c1a9d271e38,
    0x5a3b5d9a2fe60123ac635dadd5aa9506,
    0x68c4c371352febcce386141b16ea0649,
    0xc2e459d428d16c0b9cba9477d19b82a2,
    0xc78665b2c9c7ccaa0931f319deccb33a,
    0x962b6e35968c795eb7359fb893a5637e,
    0x4d0aa69871431b745d56de86c7148a34,
    0xf8a37582a894383ae4418f7cc673d41,
    0x8f81ab0d7d81d636336cc0674da58664,
    0x21b4537f7d4318ec78d11b50565363da,
    0x7761022118d41409100e7f9242e9be54,
    0xcf2e51f8e41c26b9707b413e6a9a7e76,
    0x62f72cf9c666b0efa1ad09959c5edff8,
    0x6122f6fb2b0b112be0445798637065e,
    0x985fa67dd80c60293c73ff537acd7a97,
    0xf250105ce07b4ba72cc5c048947510b4,
    0xfc15c2f1efc24a22bf29e84166bb2e8,
    0x68fbc1c51b983312094551885db61285,
    0xb68076fe95f4e696517802586aadfc6b,
    0x86a188212630d609dfcdc701b68d4d1c,
    0xaac71479502401c4baf41334b67a32fc,
    0xaa92cacd01438fcecac9e7add6c2d0da,
    0xf08128e352753c719ad9dde9d1450fd,
    0xc0bd48af1fcb10b991957e1a6658346,
    0x68072147f0246880ca2c67b1bc005c66,
    0x9be1720691e658a8a44100bf7bad523b,
    0x8516d7dea7cfcb1f9df6f4a10625cd7f,
    0xcda2aa00a2c278135c6134b21c0dc181,
    0xc1555959db025570e890792bfff691dc,
    0x8736e1c7d941a7c991d958e653bac563,
    0x2ccc9a013c68dd2c8de03c649c4b35a2,
    0xa07100c576dc957d32c5743b130c090,
    0x928c198f5e9d4b5b263ec170c565eb5c,
    0x497a73ee05dcfbc5fd4d324bf1af581f,
    0x6b1121c2cd3c6bd788f3efd213bbb391,
    0x716c1b551e5fbf52b925eb334d826cf8,
    0x27386d0f41b8831ea877afef28a3a7e,
    0x96a9957d0c81896a01864dc3a1f2d58f,
    0xabd4f1591f22d3535226d5080876a58b,
    0xae21dcedbc300c535aca4bac17f49007,
    0x979055170e9bf312718ab9cf764b89ae,
    0x5f69aaead82aa6f63daa71b79fd2724c,
    0x266c1d7a3877b83ce1eb40a28d87e5a9,
    0xe1866017531804b108fac95f6196f9c0,
    0x7551afb7bde95a8dbc61d036ac9a5d88,
    0x2114f04bb24626fbeb66a6c2b1c32c28,
    0x96c2a7252b5e07e3fed47047137deb50,
    0xf065aa947e569cf8769850051f5a72b2,
    0xaa7414547f4204446524f3861f694cd0,
    0x74e5833cdb138007dc8894c382b67a47,
    0x2019841a8e7bf790da54e5665965c524,
    0x48672bac686bfe8d2a34c77079bd80aa,
    0x83a5e8f679d8024f2525578a83eeaeb6,
    0x1656bf5eaa5a8d2674a1f98f4a8936e5,
    0x6334093235c599fbc1bc89761e0cf097,
    0xefdd2d1b6a501e5705a9c6ca3c6a7ade,
    0x1ce0cfb8f953907dcd2bab5aab2c3b69,
    0x3c1a36c74df42b4710ae7f9cd612c9b1,
    0x9346c2d78e5faeb610f08a16227786fd,
    0x6f5ea5fef80d4bfd69e2e0ac67711952,
    0x1f3b81da78714355da03ea11b93d7e01,
    0xd0a447ede11489302fbe114d464349b9,
    0x277553d22684d40cc16297a34e2639,
    0x8f4389c8779909dc58739ca15a2416ae,
    0xcb0da797751c059caa20ef57b5a7b5db,
    0xf8f39726b0ffc8d2fb8f03e9c5234846,
    0x63728fce448ff3cfdca62fdb808f4b27,
    0x2aba066193254f8cf69816dc53e80586]
  cs := [
    (3, 0x28ad2cf3e09d85f0dc40f461d2c2c7d8, 0x28ad2cf3e09d85f0dc40f461d2c2c7d8),
    (5, 0xbe5308ec69514dc2ca8939e8bb7cc7f3, 0x98f345d6b42b356eb5ebd5843ddbb56a),
    (17, 0xb033aadb8e620d5380760c3edaa7db8, 0xc8f010ecc25abc843dd34d7c8d68d1f2),
    (257, 0x30e5aaf1d16d836bb08347f6b98df9d6, 0x283147f5d2b54bb7aee2e146157266d6),
    (641, 0x6ec2b2abc5012855a81493c7e42b2476, 0xb2475f58fdcce169014677765d790218),
    (6700417, 0xfbf5d1e791cb791fc6077daa37669ed5, 0x840c877ece31bcfd2634145bac44cc62),
    (65537, 0x3c13da96bdf060b8b178dd43e7c56a9e, 0x816817918ff1939964c4348b1da92c47),
    (274177, 0x37430ca27c542004fe3ea4c3ea9f5ebc, 0x9d0890e7cf21827696f55af18b26ce36),
    (67280421310721, 0x55db575fb05489582681f5f2a0a72912, 0x678353df70781cecdd047b2a9386217d)]

theorem cert_r128_orbit : cert_r128.orbitOk 128 (fun k => pack2 (transform2 24 16 37 (unp2 64 k))) = true := by decide +kernel
theorem cert_r128_basis : cert_r128.basisOk 128 = true := by decide +kernel
theorem cert_r128_ann : cert_r128.annOk 128 = true := by decide +kernel
theorem cert_r128_one : cert_r128.oneOk 128 = true := by decide +kernel
theorem cert_r128_primes : cert_r128.primesOk 128 = true := by decide +kernel

/-- The next state, on numbers. -/
def next_r128 (k : Nat) : Nat := pack2 (transform2 24 16 37 (unp2 64 k))

theorem cert_r128_valid : cert_r128.Valid 128 next_r128 :=
  ⟨cert_r128_orbit, cert_r128_basis, cert_r128_ann, cert_r128_one, cert_r128_primes⟩

theorem repr_r128 : Repr (lin2 64 24 16 37) (unp2 64) 128 next_r128 where
  two := S2.two
  xor := unp2_xor 64
  zero := unp2_zero 64
  surj v := ⟨pack2 v, pack2_lt v, (unp_pack2 v).symm⟩
  step _ := unp_pack2 _

theorem full_r128 (v : S2 64) (hv : v ≠ 0) (k : Nat) : (transform2 24 16 37)^[k] v = v ↔ 2 ^ 128 - 1 ∣ k :=
  cert_r128.full repr_r128 (by decide) (by decide) cert_r128_valid primes_128 v hv k

/-- The period of outputs that differ where they have to. -/
theorem out_r128 (out : S2 64 → Nat) (h : cert_r128.outOk (fun n => !Nat.beq (out (unp2 64 n)) (out (unp2 64 1))) = true) (s : S2 64)
    (hs : s ≠ 0) (j : Nat) :
    (∃ a, ∀ m, a ≤ m → out ((transform2 24 16 37)^[m + j] s) = out ((transform2 24 16 37)^[m] s)) ↔ 2 ^ 128 - 1 ∣ j :=
  cert_r128.out_full repr_r128 (by decide) (by decide) cert_r128_valid primes_128 out _ (fun n h e => by rw [e] at h; simp at h) h
    (by decide) s hs j

theorem count_r128 (P : S2 64 → Prop) (s : S2 64) (hs : s ≠ 0) :
    Nat.card {k : Fin (2 ^ 128 - 1) // P ((transform2 24 16 37)^[k.val] s)} = Nat.card {v : S2 64 // v ≠ 0 ∧ P v} :=
  orbit_count (lin2 64 24 16 37) full_r128 (by decide) (unp2 64)
    (fun v => ⟨pack2 v, by have := pack2_lt v; simp only [Nat.reduceAdd] at this; omega, (unp_pack2 v).symm⟩) P s hs

theorem reach_r128 (s t : S2 64) (hs : s ≠ 0) (ht : t ≠ 0) : ∃ k < 2 ^ 128 - 1, (transform2 24 16 37)^[k] s = t :=
  reaches (lin2 64 24 16 37) full_r128 (by decide) (unp2 64)
    (fun v => ⟨pack2 v, by have := pack2_lt v; simp only [Nat.reduceAdd] at this; omega, (unp_pack2 v).symm⟩) s t hs ht

end Verif.Random
