import Verif.Random.Group
import Verif.Random.Check
import Verif.Random.Factors

/-!
The full period of a state transition, with the data for the kernel to check it.
-/
set_option exponentiation.threshold 600
namespace Verif.Random

/-- Certificate for the transition of `r64`. -/
def cert_r64 : Cert where
  p := 0x1053be9da6e2286c1
  mu := 0x1052abb0eebf7c3c2
  K := [
    0x1,
    0x200004000201,
    0x440208000542009,
    0x8011208208144209,
    0xac517100a6e02583,
    0x2a9061566683d215,
    0x766869823eef3a0b,
    0xea7129106adbfd61,
    0x5a8e301550a95984,
    0xed32214455b6eef7,
    0x99f677106c4d7208,
    0x60a31eb7a20000d0,
    0x63ccf854c617d064,
    0x650614bb80931771,
    0xa0795cb20990db97,
    0x30e4b53d26c18e4b,
    0xa76ec2c470c8d14f,
    0xc2717af4a64226ce,
    0x6b874c86381220a1,
    0xad84ea72fdad6aa5,
    0x301aea0594de9b7d,
    0x8e2f1498da75fb15,
    0x5df1aa8bb6ec2261,
    0xb11d5d6356d7ec63,
    0x56201cf9fff3eeb1,
    0x7e49153ac9c8adf2,
    0x371916f07fd70a7f,
    0xc391e91929085ea6,
    0x36f7fd534152e8c5,
    0xa2b2cef4288b7235,
    0x379831472de21309,
    0x4449c34fca893602,
    0x1ea9b1d804004b95,
    0x3f49a3551d4d6163,
    0x9846c440a7f59bb3,
    0x6bfe67f697936f9d,
    0xa10d7f8d502393d5,
    0xdd8b1e25f9b6d217,
    0xb98644870043737a,
    0xa6ffb738dbabc030,
    0x8ee10faa16d4c808,
    0xb8f45306d3e1d082,
    0xb0708d624b5d0cc6,
    0xb0349f65b903bd97,
    0xe45e41263996c804,
    0x11245bb95c3c9602,
    0x19b769a375f349e3,
    0x84080d8869d36d67,
    0x6c1dfdbbc6bdf35a,
    0x1dc355481a73b2c,
    0x61cf100fc4616294,
    0xce5374b5aa5ac111,
    0x36b48c8131cb96a0,
    0xe34420ef798c767b,
    0xad29359e7834f4d,
    0x3b829daa7977f929,
    0xac90685e0dd9bd67,
    0x3aa73429aed4c1cc,
    0x7ebcb28e41236ce2,
    0xfbcd87f389278bdf,
    0x41858e5dd8d6ca03,
    0x688bd32a30b8a376,
    0x6e0b8b06e6112ad1,
    0x543af103fac14b7c,
    0x774ff5dfaa644152]
  ks := [
    0x1,
    0xcd1956858505de60,
    0x1579cfd1b2159f29,
    0x5742f6c1ab34af8c,
    0xc6d1495f53a87ab5,
    0xfb5c3b52e4070c17,
    0xceffc45b7017a924,
    0xad002a27973d87a7,
    0x6569ed4edea777fd,
    0x6192246b5a57004a,
    0xf4fe2adf8547472a,
    0xdf357e1ae2b9174b,
    0x1c110eacae515db4,
    0x43bb3a36ebb34da0,
    0x4883c7d159af1ba6,
    0xbae36c0a93663b2e,
    0xcf894a851297e423,
    0xe837b77c06792125,
    0xe52164216b045ee2,
    0xcd05542618a5e052,
    0xd4ea685aec21b9b8,
    0xf85f97b9e363b9c,
    0xf58caff2909340c1,
    0xe56ba4909ecb06aa,
    0x39428aedf44d25c2,
    0x83cb84c61080844d,
    0xf634ffa34d6bcd5a,
    0x5e44fd1065864073,
    0x6a9550570aca0d3b,
    0x50204a048338ea96,
    0x8c3f491315dad5e,
    0xab75808b27a87966,
    0x7b1a7fd1a6b5e6ac,
    0x60a6dce080d7bd39,
    0xa2ae93170061dad4,
    0x7f52d3c3eaa8dac7,
    0xc2b0b317cb06ac1a,
    0xaee6fb1777d330a4,
    0x4c6230b64706ea44,
    0xcb8c816555bf6897,
    0xed48fe4b30bcfb09,
    0x4a335f0b8fcd578c,
    0x150b7a9d1b823910,
    0x2006975ea7abd220,
    0x7b6eec81165a8926,
    0x97a6dbc8173ccd13,
    0xf8aac59b01ede338,
    0x8a2a7e3f3e4dbb0b,
    0xb5f65fead03447b6,
    0x530fc9c4034e9e0,
    0xeb29e3773c2cf038,
    0xecd8c93d6d7c4682,
    0xf0ab8bb240f6346b,
    0x52f44f7ed785260b,
    0x10d5fe5d2ec9f1b0,
    0x13ed8bc3aae6d558,
    0x4bd238fd41cf0ab3,
    0xe5492ed51cd27464,
    0x9c41cb8e3b7b1186,
    0x598601adaa9d5dbd,
    0x92cef3437592ee3b,
    0x2295984ccc5d69c3,
    0x1462b1e7cb7b3fbf,
    0x680db60518f97820]
  cs := [
    (3, 0xfd64f34d18b1aa77, 0xfd64f34d18b1aa77),
    (5, 0xe899d42abd368284, 0xff60e9b8e910b282),
    (17, 0xc5de2f621b25f09a, 0xbb5216f68b3e5a7b),
    (257, 0xee3c5a7953da7f82, 0x81609b4cec48ede3),
    (641, 0xf269980a0f2f9957, 0x74eccff1772b078f),
    (6700417, 0x4cc5c87d9e634973, 0xefa312dfdfd62080),
    (65537, 0x3b7c5f0bd3e992f6, 0xb8662dd36b156f1a)]

theorem cert_r64_orbit : cert_r64.orbitOk 64 (fun k => pack2 (transform2 26 9 13 (unp2 32 k))) = true := by decide +kernel
theorem cert_r64_basis : cert_r64.basisOk 64 = true := by decide +kernel
theorem cert_r64_ann : cert_r64.annOk 64 = true := by decide +kernel
theorem cert_r64_one : cert_r64.oneOk 64 = true := by decide +kernel
theorem cert_r64_primes : cert_r64.primesOk 64 = true := by decide +kernel

/-- The next state, on numbers. -/
def next_r64 (k : Nat) : Nat := pack2 (transform2 26 9 13 (unp2 32 k))

theorem cert_r64_valid : cert_r64.Valid 64 next_r64 :=
  ⟨cert_r64_orbit, cert_r64_basis, cert_r64_ann, cert_r64_one, cert_r64_primes⟩

theorem repr_r64 : Repr (lin2 32 26 9 13) (unp2 32) 64 next_r64 where
  two := S2.two
  xor := unp2_xor 32
  zero := unp2_zero 32
  surj v := ⟨pack2 v, pack2_lt v, (unp_pack2 v).symm⟩
  step _ := unp_pack2 _

theorem full_r64 (v : S2 32) (hv : v ≠ 0) (k : Nat) : (transform2 26 9 13)^[k] v = v ↔ 2 ^ 64 - 1 ∣ k :=
  cert_r64.full repr_r64 (by decide) (by decide) cert_r64_valid primes_64 v hv k

/-- The period of outputs that differ where they have to. -/
theorem out_r64 (out : S2 32 → Nat) (h : cert_r64.outOk (fun n => !Nat.beq (out (unp2 32 n)) (out (unp2 32 1))) = true) (s : S2 32)
    (hs : s ≠ 0) (j : Nat) :
    (∃ a, ∀ m, a ≤ m → out ((transform2 26 9 13)^[m + j] s) = out ((transform2 26 9 13)^[m] s)) ↔ 2 ^ 64 - 1 ∣ j :=
  cert_r64.out_full repr_r64 (by decide) (by decide) cert_r64_valid primes_64 out _ (fun n h e => by rw [e] at h; simp at h) h
    (by decide) s hs j

theorem count_r64 (P : S2 32 → Prop) (s : S2 32) (hs : s ≠ 0) :
    Nat.card {k : Fin (2 ^ 64 - 1) // P ((transform2 26 9 13)^[k.val] s)} = Nat.card {v : S2 32 // v ≠ 0 ∧ P v} :=
  orbit_count (lin2 32 26 9 13) full_r64 (by decide) (unp2 32)
    (fun v => ⟨pack2 v, by have := pack2_lt v; simp only [Nat.reduceAdd] at this; omega, (unp_pack2 v).symm⟩) P s hs

theorem reach_r64 (s t : S2 32) (hs : s ≠ 0) (ht : t ≠ 0) : ∃ k < 2 ^ 64 - 1, (transform2 26 9 13)^[k] s = t :=
  reaches (lin2 32 26 9 13) full_r64 (by decide) (unp2 32)
    (fun v => ⟨pack2 v, by have := pack2_lt v; simp only [Nat.reduceAdd] at this; omega, (unp_pack2 v).symm⟩) s t hs ht

end Verif.Random
