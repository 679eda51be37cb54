import Verif.Real.Secp256k1
import Verif.Real.Hashes
import Verif.Props.Secp
/-
Known answers for key derivation and signing, evaluated by the kernel on the model with the actual hash functions and curve.
-/
namespace KC.Real.Known
open KC.Secp KC.Spec.Bip32 KC.Real.Secp256k1

/-- An extended key from numbers. -/
def key (depth : UInt8) (fp : Nat) (index : UInt32) (cc k : Nat) (h : 0 < k ∧ k < order) : XPrv :=
  ⟨⟨k, h⟩, ⟨Bytes.beBytes 32 cc, Bytes.beBytes_length 32 cc⟩, ⟨Bytes.beBytes 4 fp, Bytes.beBytes_length 4 fp⟩, depth, index⟩

/-- The HMAC of a derivation step. -/
def stepHash (x : XPrv) (i : UInt32) : Bytes :=
  if 2 ^ 31 ≤ i.toNat then hmacSha512 x.chaincode.val ([0] ++ Bytes.beBytes 32 x.key.val ++ Bytes.beBytes 4 i.toNat)
  else hmacSha512 x.chaincode.val (UInt8.ofNat (2 + (pub x.key).2 % 2) :: Bytes.beBytes 32 (pub x.key).1 ++ Bytes.beBytes 4 i.toNat)

/-- The numbers of a derivation step agree. -/
def stepOk (x : XPrv) (i : UInt32) (y : XPrv) : Bool :=
  let I := stepHash x i
  let l := Bytes.beNat (I.take 32)
  decide (x.depth.toNat < 255 ∧ 0 < l ∧ l < order ∧ y.key.val = (l + x.key.val) % order ∧ y.chaincode.val = I.drop 32 ∧
    y.depth.toNat = x.depth.toNat + 1 ∧ y.index = i ∧
    y.parentFingerprint.val =
      (Ripemd.ripemd160 (sha256 (UInt8.ofNat (2 + (pub x.key).2 % 2) :: Bytes.beBytes 32 (pub x.key).1))).take 4)

theorem derived_of_stepOk (nonce : Bytes → Secret → Nat → Nat) (tries : Nat) (x : XPrv) (i : UInt32) (y : XPrv)
    (h : stepOk x i y = true) : Derived hashes (curve nonce tries) x i y := by
  unfold stepOk at h
  rw [decide_eq_true_eq, Bytes.beNat_eq] at h
  obtain ⟨h1, h2, h3, h4, h5, h6, h7, h8⟩ := h
  rw [order_eq] at h3
  rw [mod_order] at h4
  have hl : (stepHash x i).length = 64 := by
    unfold stepHash
    split <;> exact hmacSha512_len _ _
  refine ⟨h1, i, Nat.le_refl _, fun l a b => absurd a (by omega), (stepHash x i).take 32, (stepHash x i).drop 32, ?_, ?_, ?_, h2, h3, h4, h5,
    h6, h7, ?_⟩
  · rw [List.length_take, hl]; rfl
  · rw [List.length_drop, hl]
  · rw [List.take_append_drop]
    refine ⟨_, _, serSecret_isBe x.key, index_isBe i, ?_⟩
    by_cases hi : 2 ^ 31 ≤ i.toNat
    · left
      refine ⟨hi, ?_⟩
      unfold stepHash
      rw [if_pos hi]
      simp only [hashes, serSecret]
    · right
      refine ⟨by omega, ?_⟩
      unfold stepHash
      rw [if_neg hi]
      simp only [hashes, curve]
  · rw [h8]
    simp only [hashes, curve]
    exact List.take_prefix _ _

/-- The root of a seed has these numbers. -/
def rootOk (seed : Bytes) (x : XPrv) : Bool :=
  decide (hmacSha512 [66, 105, 116, 99, 111, 105, 110, 32, 115, 101, 101, 100] seed = Bytes.beBytes 32 x.key.val ++ x.chaincode.val ∧
    x.depth = 0 ∧ x.index = 0 ∧ x.parentFingerprint.val = [0, 0, 0, 0])

theorem root_of_rootOk (seed : Bytes) (x : XPrv) (h : rootOk seed x = true) : Root hashes seed x := by
  unfold rootOk at h
  rw [decide_eq_true_eq] at h
  obtain ⟨h1, h2, h3, h4⟩ := h
  refine ⟨Bytes.beBytes 32 x.key.val, x.chaincode.val, Bytes.beBytes_length _ _, x.chaincode.2, ?_, serSecret_isBe x.key, rfl, h2, h3,
    h4⟩
  rw [← h1]
  have : ("Bitcoin seed".toList.map fun c => UInt8.ofNat c.toNat) = [66, 105, 116, 99, 111, 105, 110, 32, 115, 101, 101, 100] := by
    decide
  rw [this]
  simp only [hashes]

/-! ### BIP-32, test vector 2 -/

/-- The seed. -/
def tvSeed : Bytes := Bytes.beBytes 64 0xfffcf9f6f3f0edeae7e4e1dedbd8d5d2cfccc9c6c3c0bdbab7b4b1aeaba8a5a29f9c999693908d8a8784817e7b7875726f6c696663605d5a5754514e4b484542

/-- m -/
def tv0 : XPrv := key 0 0x00000000 0x00000000 0x60499f801b896d83179a4374aeb7822aaeaceaa0db1f85ee3e904c4defbd9689
  0x4b03d6fc340455b363f51020ad3ecca4f0850280cf436c70c727923f6db46c3e (by decide +kernel)

theorem tv0_root : Root hashes tvSeed tv0 := root_of_rootOk _ _ (by decide +kernel)

/-- m/0 -/
def tv1 : XPrv := key 1 0xbd16bee5 0x00000000 0xf0909affaa7ee7abe5dd4e100598d4dc53cd709d5a5c2cac40e7412f232f7c9c
  0xabe74a98f6c7eabee0428f53798f0ab8aa1bd37873999041703c742f15ac7e1e (by decide +kernel)

theorem tv1_derived (nonce : Bytes → Secret → Nat → Nat) (tries : Nat) : Derived hashes (curve nonce tries) tv0 0x00000000 tv1 :=
  derived_of_stepOk nonce tries _ _ _ (by decide +kernel)

/-- m/0/2147483647' -/
def tv2 : XPrv := key 2 0x5a61ff8e 0xffffffff 0xbe17a268474a6bb9c61e1d720cf6215e2a88c5406c4aee7b38547f585c9a37d9
  0x877c779ad9687164e9c2f4f0f4ff0340814392330693ce95a58fe18fd52e6e93 (by decide +kernel)

theorem tv2_derived (nonce : Bytes → Secret → Nat → Nat) (tries : Nat) : Derived hashes (curve nonce tries) tv1 0xffffffff tv2 :=
  derived_of_stepOk nonce tries _ _ _ (by decide +kernel)

/-- m/0/2147483647'/1 -/
def tv3 : XPrv := key 3 0xd8ab4937 0x00000001 0xf366f48f1ea9f2d1d3fe958c95ca84ea18e4c4ddb9366c336c927eb246fb38cb
  0x704addf544a06e5ee4bea37098463c23613da32020d604506da8c0518e1da4b7 (by decide +kernel)

theorem tv3_derived (nonce : Bytes → Secret → Nat → Nat) (tries : Nat) : Derived hashes (curve nonce tries) tv2 0x00000001 tv3 :=
  derived_of_stepOk nonce tries _ _ _ (by decide +kernel)

/-- m/0/2147483647'/1/2147483646' -/
def tv4 : XPrv := key 4 0x78412e3a 0xfffffffe 0x637807030d55d01f9a0cb3a7839515d796bd07706386a6eddf06cc29a65a0e29
  0xf1c7c871a54a804afe328b4c83a1c33b8e5ff48f5087273f04efa83b247d6a2d (by decide +kernel)

theorem tv4_derived (nonce : Bytes → Secret → Nat → Nat) (tries : Nat) : Derived hashes (curve nonce tries) tv3 0xfffffffe tv4 :=
  derived_of_stepOk nonce tries _ _ _ (by decide +kernel)

/-- m/0/2147483647'/1/2147483646'/2 -/
def tv5 : XPrv := key 5 0x31a507b8 0x00000002 0x9452b549be8cea3ecb7a84bec10dcfd94afe4d129ebfd3b3cb58eedf394ed271
  0xbb7d39bdb83ecf58f2fd82b6d918341cbef428661ef01ab97c28a4842125ac23 (by decide +kernel)

theorem tv5_derived (nonce : Bytes → Secret → Nat → Nat) (tries : Nat) : Derived hashes (curve nonce tries) tv4 0x00000002 tv5 :=
  derived_of_stepOk nonce tries _ _ _ (by decide +kernel)

/-! ### The seed of "abandon abandon abandon abandon abandon abandon abandon abandon abandon abandon abandon about" -/

/-- The seed, with an empty passphrase. -/
def abSeed : Bytes := Bytes.beBytes 64 0x5eb00bbddcf069084889a8ab9155568165f5c453ccb85e70811aaed6f6da5fc19a5ac40b389cd370d086206dec8aa6c43daea6690f20ad3d8d48b2d2ce9e38e4

/-- m -/
def ab0 : XPrv := key 0 0x00000000 0x00000000 0x7923408dadd3c7b56eed15567707ae5e5dca089de972e07f3b860450e2a3b70e
  0x1837c1be8e2995ec11cda2b066151be2cfb48adf9e47b151d46adab3a21cdf67 (by decide +kernel)

theorem ab0_root : Root hashes abSeed ab0 := root_of_rootOk _ _ (by decide +kernel)

/-- m/44' -/
def ab44 : XPrv := key 1 0x73c5da0a 0x8000002c 0x45d3b0e8206db10a08d555317c7e245c5bbd12254ce968f3c79a959d4e6af98a
  0xcd46049fb82a4fccbd967c5234e61152f4df87d01d1ef833420814c67ee4b7ea (by decide +kernel)

theorem ab44_derived (nonce : Bytes → Secret → Nat → Nat) (tries : Nat) : Derived hashes (curve nonce tries) ab0 0x8000002c ab44 :=
  derived_of_stepOk nonce tries _ _ _ (by decide +kernel)

/-- m/44'/0' -/
def btcCoin : XPrv := key 2 0x88b3582b 0x80000000 0xaf0894dc5f2d5bed0dc85b2fd2053a98575765c144e4e64126ee1009b38860b2
  0xa7661fa497f67a7d5a17f299e76635e16d69aca8b89ac8022cabad47690f47f6 (by decide +kernel)

theorem btcCoin_derived (nonce : Bytes → Secret → Nat → Nat) (tries : Nat) : Derived hashes (curve nonce tries) ab44 0x80000000 btcCoin :=
  derived_of_stepOk nonce tries _ _ _ (by decide +kernel)

/-- m/44'/0'/0' -/
def btcAccount : XPrv := key 3 0x155bca59 0x80000000 0x3da4bc190a2680111d31fadfdc905f2a7f6ce77c6f109919116f253d43445219
  0xfe64af825b5b78554c33a28b23085fc082f691b3c712cc1d4e66e133297da87a (by decide +kernel)

theorem btcAccount_derived (nonce : Bytes → Secret → Nat → Nat) (tries : Nat) : Derived hashes (curve nonce tries) btcCoin 0x80000000 btcAccount :=
  derived_of_stepOk nonce tries _ _ _ (by decide +kernel)

/-- m/44'/0'/0'/0 -/
def btcChange : XPrv := key 4 0x6cc9f252 0x00000000 0xbce80dd580792cd18af542790e56aa813178dc28644bb5f03dbd44c85f2d2e7a
  0x83bda5c7add17ef9bbc1f03391913fe6cc947aa18c4a343607724e815c83eeb7 (by decide +kernel)

theorem btcChange_derived (nonce : Bytes → Secret → Nat → Nat) (tries : Nat) : Derived hashes (curve nonce tries) btcAccount 0x00000000 btcChange :=
  derived_of_stepOk nonce tries _ _ _ (by decide +kernel)

/-- m/44'/0'/0'/0/0 -/
def btcKey : XPrv := key 5 0x1962ab58 0x00000000 0x213909708058e0ec4a99c19d8e041c014ae6c7dc21d2a1fac86772df7ca357a6
  0xe284129cc0922579a535bbf4d1a3b25773090d28c909bc0fed73b5e0222cc372 (by decide +kernel)

theorem btcKey_derived (nonce : Bytes → Secret → Nat → Nat) (tries : Nat) : Derived hashes (curve nonce tries) btcChange 0x00000000 btcKey :=
  derived_of_stepOk nonce tries _ _ _ (by decide +kernel)

/-- m/44'/60' -/
def ethCoin : XPrv := key 2 0x88b3582b 0x8000003c 0xff0603122d4dc5bf9b36606ef1b1b6e5a6c9e79fc6a4b08f7e871eee10457a71
  0xeea62fd3712ad7ff27f7145280d07f0041a51ef2f35432d6b488cb294cf79bef (by decide +kernel)

theorem ethCoin_derived (nonce : Bytes → Secret → Nat → Nat) (tries : Nat) : Derived hashes (curve nonce tries) ab44 0x8000003c ethCoin :=
  derived_of_stepOk nonce tries _ _ _ (by decide +kernel)

/-- m/44'/60'/0' -/
def ethAccount : XPrv := key 3 0xd32e4508 0x80000000 0xd882718b7a42806803eeb17f7483f20620611adb88fc943c898dc5aba94c2819
  0xe9b91c428e679f857fbfa0203440eaeaabb0ca46d80e70b6aa6250696ac0dfc7 (by decide +kernel)

theorem ethAccount_derived (nonce : Bytes → Secret → Nat → Nat) (tries : Nat) : Derived hashes (curve nonce tries) ethCoin 0x80000000 ethAccount :=
  derived_of_stepOk nonce tries _ _ _ (by decide +kernel)

/-- m/44'/60'/0'/0 -/
def ethChange : XPrv := key 4 0x60b68b69 0x00000000 0xc879d136f02003dc804811e42390714ea06448aeaee158c62d65f12a421d988f
  0xa29ac2cb17e31cdab42a8fe2d83f04f4b69c5e73bc8d3bf6b5dc96ac239b145a (by decide +kernel)

theorem ethChange_derived (nonce : Bytes → Secret → Nat → Nat) (tries : Nat) : Derived hashes (curve nonce tries) ethAccount 0x00000000 ethChange :=
  derived_of_stepOk nonce tries _ _ _ (by decide +kernel)

/-- m/44'/60'/0'/0/0 -/
def ethKey : XPrv := key 5 0xe4389614 0x00000000 0x736094f4f24b67e838a4b3d23d31d229ca03e00c9bb99ce95da6d86e8b3847b5
  0x1ab42cc412b618bdea3a599e3c9bae199ebf030895b039e9db1e30dafb12b727 (by decide +kernel)

theorem ethKey_derived (nonce : Bytes → Secret → Nat → Nat) (tries : Nat) : Derived hashes (curve nonce tries) ethChange 0x00000000 ethKey :=
  derived_of_stepOk nonce tries _ _ _ (by decide +kernel)

/-- The known first Bitcoin address of this phrase, 1LqBGSKuX5yYUonjxT5qGfpUsXKYYWeabA. -/
theorem btc_address (nonce : Bytes → Secret → Nat → Nat) (tries : Nat) :
    hashes.ripemd160 (hashes.sha256 ((curve nonce tries).serCompressed ((curve nonce tries).pub btcKey.key))) =
      Bytes.beBytes 20 0xd986ed01b7a22225a70edbf2ba7cfb63a15cb3aa := by
  simp only [hashes, curve]
  decide +kernel

/-- The known first Ethereum address of this phrase. -/
theorem eth_address (nonce : Bytes → Secret → Nat → Nat) (tries : Nat) :
    (hashes.keccak256 (((curve nonce tries).ser ((curve nonce tries).pub ethKey.key)).drop 1)).drop 12 =
      Bytes.beBytes 20 0x9858effd232b4033e47d90003d41ec34ecaeda94 := by
  simp only [hashes, curve]
  decide +kernel

/-- ECDSA, the well-known RFC 6979 example: secret 1, message "Satoshi Nakamoto", with its nonce. -/
theorem satoshi : signWith (Bytes.beNat (sha256 ("Satoshi Nakamoto".toList.map fun c => UInt8.ofNat c.toNat)) % order) 1
    0x8F8A276C19F4149656B280621E358CCE24F5F52542772691EE69063B74F15D15 =
    some (0x934b1ea10a4b3c1757e2b0c017d0b6143ce3c9a7e6a4a49860d7a6ab210ee3d8,
      0x2442ce9d2b916064108014783e923ec36b49743e2ffa1c4496f01a512aafd9e5, 1) := by decide +kernel

end KC.Real.Known
