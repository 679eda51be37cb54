import Verif.Props.Malleable
import Verif.Props.Hex
/-
Concrete cases of C01, C02, C03, C05, C06, C07, C10, C12, C16, C20, C28, C29 and C30, computed with the real hash functions where one is used.
-/
namespace KC.Props
open KC.Bits KC.Bip39 KC.Manager KC.Spec KC.Spec.Bip32 KC.Real.Known
open KC.Real.Secp256k1 (curve)
open KC.Real.Ed25519 (ed)
open KC.Mnemonic (Language)

/-- C01: nine values, 99 bits, in 13 bytes; they read back.  4095 is written as 2047. -/
theorem C01_case : (Writer.new.writeAll [2047, 0, 1029, 5, 1, 1024, 77, 2046, 3]).map Writer.toBytes =
      some [255, 224, 2, 2, 128, 80, 3, 0, 2, 111, 254, 0, 96] ∧
    ((Reader.new [255, 224, 2, 2, 128, 80, 3, 0, 2, 111, 254, 0, 96]).readN 9).map Prod.fst =
      some [2047, 0, 1029, 5, 1, 1024, 77, 2046, 3] ∧
    (Writer.new.writeAll [4095]).map Writer.toBytes = (Writer.new.writeAll [2047]).map Writer.toBytes := by decide +kernel

/-- C02: 14 bytes hold ten values and two bits over; the eleventh read panics. -/
theorem C02_case : ((Reader.new [1, 2, 3, 4, 5, 6, 7, 8, 9, 10, 11, 12, 13, 14]).readN 10).map
      (fun x => (x.1, x.2.size, x.2.read.isNone)) = some ([8, 128, 1544, 80, 771, 1056, 289, 523, 96, 835], some 0, true) ∧
    (Reader.new [1]).size = some 0 ∧ (Reader.new []).read = none := by decide +kernel

/-- C03: high digit first, lower case. -/
theorem C03_case : Hex.encode [0x0f, 0xfa, 0, 0xde] = some "0ffa00de".toList ∧ Hex.decode "0ffa00de".toList = .ok [0x0f, 0xfa, 0, 0xde] := by
  decide +kernel

def sevenf : Entropy := ⟨.w12, List.replicate 16 0x7f, rfl⟩

/-- The second phrase of BIP-39's test vectors. -/
def legalWinner : Mnemonics := ⟨[1019, 2015, 1790, 2039, 1983, 1533, 2031, 1919, 1019, 2015, 1790, 2040]⟩

/-- C05: the second of BIP-39's test vectors, there and back. -/
theorem C05_case : sevenf.toMnemonics Real.hashes = some legalWinner ∧
    legalWinner.toText Language.english.toDict =
      some "legal winner thank year wave sausage worth useful legal winner thank yellow".toList ∧
    (match Entropy.fromMnemonics Real.hashes legalWinner with | .ok e => some e.bytes | _ => none) = some (List.replicate 16 0x7f) := by
  decide +kernel

/-- C06: with another last word of the same entropy bits the checksum is wrong; with two words exchanged also. -/
theorem C06_case :
    (match Entropy.fromMnemonics Real.hashes ⟨[1019, 2015, 1790, 2039, 1983, 1533, 2031, 1919, 1019, 2015, 1790, 2041]⟩ with
      | .err (.invalidChecksum a b) => some (a, b) | _ => none) = some (8, 9) ∧
    (match Entropy.fromMnemonics Real.hashes ⟨[2015, 1019, 1790, 2039, 1983, 1533, 2031, 1919, 1019, 2015, 1790, 2040]⟩ with
      | .err (.invalidChecksum a b) => some (a, b) | _ => none) = some (11, 8) := by decide +kernel

/-- C07: sizes next to supported ones. -/
theorem C07_case : MType.fromWordCount 13 = .err (.wrongNumberOfWords 13) ∧ MType.fromEntropySize 288 = .err (.wrongKeySize 288) ∧
    MType.fromWordCount 21 = .ok .w21 ∧ MType.w21.toKeySize = 224 ∧ MType.w21.checksumSizeBits = 7 ∧
    MType.fromStr "15".toList = some .w15 ∧ MType.fromStr "015".toList = none := by decide +kernel

/-- C10: the last index and the one after it. -/
theorem C10_case : indexNew 2047 = .ok 2047 ∧ indexNew 2048 = .err (.mnemonicOutOfBound 2048) ∧
    Language.french.toDict.lookupWord 2047 = some "zoologie".toList ∧ Language.french.toDict.lookupWord 2048 = none := by decide +kernel

/-- C12: 64 bytes are a seed, 63 are not; and the text of a phrase, as it is, with the passphrase TREZOR. -/
theorem C12_case (H : Hashes) : (∃ s : Seed, Seed.fromSlice (List.replicate 64 7) = .ok s) ∧
    Seed.fromSlice (List.replicate 63 7) = .err (.invalidSeedSize 63) ∧
    Mnemonic.seedFromMnemonic H "legal winner thank year wave sausage worth useful legal winner thank yellow".toList "TREZOR".toList 128 .english =
      .ok (H.pbkdf2 (Str.utf8 "legal winner thank year wave sausage worth useful legal winner thank yellow".toList)
        (Str.utf8 "mnemonicTREZOR".toList) 2048 64) := by
  refine ⟨⟨_, dif_pos (by decide)⟩, by decide +kernel, ?_⟩
  have h := seed_spaced H "TREZOR".toList 128 .english (["legal", "winner", "thank", "year", "wave", "sausage", "worth", "useful", "legal",
    "winner", "thank", "yellow"].map String.toList) (by decide +kernel) (by decide)
  rw [if_neg (by decide), if_neg (by decide)] at h
  have e : spaced (["legal", "winner", "thank", "year", "wave", "sausage", "worth", "useful", "legal", "winner", "thank",
    "yellow"].map String.toList) = "legal winner thank year wave sausage worth useful legal winner thank yellow".toList := by decide +kernel
  rw [e] at h
  rw [h]
  rfl

/-- C16, C20: the paths of the constructors, printed. -/
theorem C20_case : (Bitcoin.bip84 .debug true 3 1 9).map KeyPath.Path.print = .ok "m/84'/1'/3'/1/9".toList ∧
    (Cardano.path .release 0 0 2147483647).map KeyPath.Path.print = .ok "m/44'/1815'/0'/0/2147483647".toList ∧
    (Ethereum.path .debug 5).map KeyPath.Path.print = .ok "m/44'/60'/5'/0/0".toList ∧
    (Ethereum.pathMetamask 5).map KeyPath.Path.print = .ok "m/44'/60'/0'/0/5".toList ∧
    Bitcoin.bip44 .release false 0x80000000 0 0 = .err (.invalidAccount 0x80000000) := by decide +kernel

/-- C28, C29: the Ethereum key of the known seed signs at m/44'/60'/0'/0/0, with nonce 7.  The signature is refused; its first 64 bytes are
accepted; its first 63 are refused. -/
theorem C28_case (Ed : Cardano.Ed) : ∃ d k sig, (factoryOf Real.hashes (curve (fun _ _ _ => 7) 1) Ed .ethereum).keyFromData d = .ok k ∧
    k.sign [1, 2, 3] ⟨0x8000002c, 0x8000003c, 0x80000000, 0, 0⟩ = .ok sig ∧
    k.verify [1, 2, 3] sig ⟨0x8000002c, 0x8000003c, 0x80000000, 0, 0⟩ = .err (.invalidSignatureSize 65 64) ∧
    k.verify [1, 2, 3] (sig.take 64) ⟨0x8000002c, 0x8000003c, 0x80000000, 0, 0⟩ = .ok true ∧
    k.verify [1, 2, 3] (sig.take 63) ⟨0x8000002c, 0x8000003c, 0x80000000, 0, 0⟩ = .err (.invalidSignatureSize 63 64) := by
  obtain ⟨d, hd⟩ := data_exists Real.hashes (curve (fun _ _ _ => 7) 1) Ed abSeed ab0 abSeed_len ab0_root .ethereum nofun
  obtain ⟨k, hk⟩ := ((C31_load _ _ Ed abSeed d).2 hd _ ab0_root).mpr ⟨_, eth_coin_walk _ _⟩
  obtain ⟨root, hr, -, h⟩ := C31_secp _ _ Ed .ethereum abSeed d k nofun hd hk
  obtain rfl := Secp.root_unique hr ab0_root
  obtain ⟨r, s, v, hs, hv⟩ := eth_signs
  have hp : Accepts .ethereum ⟨0x8000002c, 0x8000003c, 0x80000000, 0, 0⟩ :=
    ⟨.inr rfl, rfl, show _ ≤ _ by decide, .inl rfl, show _ < _ by decide⟩
  have hsig := ((h ⟨0x8000002c, 0x8000003c, 0x80000000, 0, 0⟩).2.1 [1, 2, 3] _).mpr ⟨hp, _, eth_walk _ _, r, s, v, hs, hv, rfl⟩
  have hpub := ((h ⟨0x8000002c, 0x8000003c, 0x80000000, 0, 0⟩).1 _).mpr ⟨hp, _, eth_walk _ _, rfl⟩
  have h28 := C28_own_signature_refused _ _ Ed .ethereum d k _ _ _ nofun hk hsig
  have hl : ((r ++ s ++ [v]).take 63).length = 63 := by rw [List.length_take, h28.1]; rfl
  have h29 := (C29_secp _ _ Ed .ethereum d k _ [1, 2, 3] ((r ++ s ++ [v]).take 63) nofun hk ⟨_, hpub⟩).1 (by rw [hl]; decide)
  rw [hl] at h29
  exact ⟨d, k, _, hk, hsig, h28.2.2 _, C28_first_64_verify _ _ Ed .ethereum d k _ _ _ (Real.Secp256k1.ecdsa_correct _ _) nofun hk hsig, h29⟩

/-- C28, C29, C30: the Cardano key of the tests.  Its data loads, and with a byte missing, a byte more or a bit changed it does not.  Its
signature is accepted, 63 bytes are refused and 65 are a panic. -/
theorem C30_case (C : Secp.Curve) : ∃ k sig, let F := factoryOf Real.hashes C (ed Real.hashes inRange) .cardano
    F.keyFromData Real.Ed25519.d1.val = .ok k ∧
    F.keyFromData (Real.Ed25519.d1.val.take 95) = .err (.invalidKeySize 95 96) ∧ F.keyFromData (Real.Ed25519.d1.val ++ [0]) = .panic ∧
    (∃ e, F.keyFromData (Real.Ed25519.d1.val.set 31 0) = .err (.invalidKeyData (.cardano e))) ∧
    k.sign [1, 2, 3] path0 = .ok sig ∧ k.verify [1, 2, 3] sig path0 = .ok true ∧
    k.verify [1, 2, 3] (sig.take 63) path0 = .err (.invalidSignatureSize 63 64) ∧ k.verify [1, 2, 3] (sig ++ [0]) path0 = .panic := by
  obtain ⟨k, hk⟩ := d1_loads C
  obtain ⟨sig, h1, h2, h3⟩ := C28_cardano Real.hashes C _ _ k path0 [1, 2, 3] (Real.Ed25519.ed_correct _ _ inRange_ok) hk path0_ok
  have hd : Real.Ed25519.d1.val.length = 96 := Real.Ed25519.d1.2
  refine ⟨k, sig, hk, ?_, ?_, ?_, h1, h3, ?_, ?_⟩
  · have := (C30_load Real.hashes C (ed Real.hashes inRange) (Real.Ed25519.d1.val.take 95)).1 (by rw [List.length_take, hd]; decide)
    rwa [List.length_take, hd] at this
  · exact (C30_load _ _ _ _).2.1 (by rw [List.length_append, hd]; decide)
  · obtain ⟨e, -, he⟩ := (C30_load Real.hashes C (ed Real.hashes inRange) (Real.Ed25519.d1.val.set 31 0)).2.2.2
      (by rw [List.length_set, hd]) (by unfold Clamped; decide +kernel)
    exact ⟨e, he⟩
  · have := (C29_cardano Real.hashes C (ed Real.hashes inRange) _ k path0 [1, 2, 3] (sig.take 63) hk).1 (by rw [List.length_take, h2]; decide)
    rwa [List.length_take, h2] at this
  · exact (C29_cardano _ _ _ _ k path0 [1, 2, 3] _ hk).2.1 (by rw [List.length_append, h2]; decide)

end KC.Props
