import Verif.Props.Random
import Verif.Model.CApi
import Verif.Model.Display
import Verif.Model.Bip39Text
/-
Small functions that the rest of the library does not use itself: the numbers of words of a factory's seed sizes (C39), the network constants
of the C interface (C53), the names of the word lists (C09), the text of a word list's own error (C68), a seed from an array (C12).
-/
namespace KC.Props
open KC.Manager KC.Spec KC.Spec.Wallet
open KC.Mnemonic (Language)

/-- C39: `min_words` and `max_words` are the numbers of words that BIP-39 has for the two sizes: words of eleven bits for the entropy and one
bit of checksum for every 32; when a size is no multiple of 32, that of the next lower multiple. -/
theorem C39_words (s : SeedSize) :
    (32 ∣ s.min → 11 * s.minWords = s.min + s.min / 32) ∧ (32 ∣ s.max → 11 * s.maxWords = s.max + s.max / 32) ∧
    (∃ k, s.minWords = 3 * k ∧ 32 * k ≤ s.min ∧ s.min < 32 * (k + 1)) ∧
    (∃ k, s.maxWords = 3 * k ∧ 32 * k ≤ s.max ∧ s.max < 32 * (k + 1)) := by
  unfold SeedSize.minWords SeedSize.maxWords
  refine ⟨fun h => ?_, fun h => ?_, ⟨s.min / 32, by omega, by omega, by omega⟩, ⟨s.max / 32, by omega, by omega, by omega⟩⟩ <;> omega

/-- C39: a manager makes phrases, and makes wallets from phrases, only with a number of words that every one of its factories admits. -/
theorem C39_phrases (E : Env) (umax : Nat) (fs : List Factory) (M : Manager) (hM : withFactoryObjs umax fs = .ok M)
    (f : Factory) (hf : f ∈ fs) (r r' : Rng) :
    (∀ lang text, (M.generateMnemonic E lang).run r = (.ok text, r') → ∃ ws : List Str, text = spaced ws ∧
      f.seedSize.minWords ≤ ws.length ∧ ws.length ≤ f.seedSize.maxWords) ∧
    (∀ itF itK text pw lang blob, (M.keychainDataFromMnemonic E itF itK text pw lang).run r = (.ok blob, r') →
      ∃ ws : List Str, text = spaced ws ∧ f.seedSize.minWords ≤ ws.length ∧ ws.length ≤ f.seedSize.maxWords) := by
  obtain ⟨lo, hi, h1, h2, h3, h4, h5⟩ := C39_bounds_exist umax fs
  have A := C39_seed_size umax lo hi fs h1 h2 h3 h4 h5
  have hb : 0 < lo ∧ lo < hi := by
    by_contra hb
    rw [A.2 hb] at hM
    cases hM
  obtain ⟨M', e, -, hs⟩ := A.1 hb
  rw [hM] at e
  cases e
  have key : ∀ l text, Phrase M.seedSize l text → ∃ ws : List Str, text = spaced ws ∧
      f.seedSize.minWords ≤ ws.length ∧ ws.length ≤ f.seedSize.maxWords := by
    rintro l text ⟨ws, ht, -, -, hl⟩
    have := hs f hf
    refine ⟨ws, ht, ?_, ?_⟩ <;> rw [hl]
    · exact Nat.mul_le_mul_right _ (Nat.div_le_div_right this.1)
    · exact Nat.mul_le_mul_right _ (Nat.div_le_div_right this.2)
  refine ⟨fun lang text h => key _ _ (C56_generated E M lang r r' text h).1, fun itF itK text pw lang blob h => ?_⟩
  obtain ⟨s, keys, hs', -⟩ := new_ok ⟨umax, fs, hM⟩ h
  obtain ⟨m, l, e1, e2, hp⟩ := ((seedFromData_ok E M ⟨none, some text, some (lang.getD .english), keys⟩ s).mp hs').1
  cases e1
  exact key _ _ hp

/-- A case: Ethereum's sizes are twelve to twenty-four words. -/
example (H : Hashes) (C : Secp.Curve) :
    (Ethereum.factory H C).seedSize.minWords = 12 ∧ (Ethereum.factory H C).seedSize.maxWords = 24 := by
  constructor <;> simp [SeedSize.minWords, SeedSize.maxWords, Ethereum.factory]

/-- C53: the constants that a C program gets for the three networks are the coin numbers registered in SLIP-44 (Bitcoin 0, Ethereum 60,
Cardano 1815), hardened; they name exactly the network built in when the feature is on. -/
theorem C53_constants (H : Hashes) (Cv : Secp.Curve) (Ed : Cardano.Ed) (ca eth btc : Bool) :
    C.networkBitcoin.val.toNat = 2 ^ 31 + 0 ∧ C.networkEthereum.val.toNat = 2 ^ 31 + 60 ∧ C.networkCardano.val.toNat = 2 ^ 31 + 1815 ∧
    (∀ f ∈ allNetworks H Cv Ed ca eth btc, f.network = C.networkBitcoin.val ∨ f.network = C.networkEthereum.val ∨
      f.network = C.networkCardano.val) ∧
    (C.networkBitcoin.val ∈ (allNetworks H Cv Ed ca eth btc).map Factory.network ↔ btc = true) ∧
    (C.networkEthereum.val ∈ (allNetworks H Cv Ed ca eth btc).map Factory.network ↔ eth = true) ∧
    (C.networkCardano.val ∈ (allNetworks H Cv Ed ca eth btc).map Factory.network ↔ ca = true) := by
  have e : (allNetworks H Cv Ed ca eth btc).map Factory.network = (if ca then [0x80000717] else []) ++ (if eth then [0x8000003c] else []) ++
      (if btc then [0x80000000] else []) := by cases ca <;> cases eth <;> cases btc <;> rfl
  refine ⟨rfl, rfl, rfl, fun f hf => ?_, ?_, ?_, ?_⟩
  · have := List.mem_map_of_mem (f := Factory.network) hf
    rw [e] at this
    simp only [List.mem_append] at this
    rcases this with (h | h) | h <;> split at h <;> simp at h
    · exact .inr (.inr h)
    · exact .inr (.inl h)
    · exact .inl h
  all_goals
    rw [e]
    cases ca <;> cases eth <;> cases btc <;> decide

/-- C09: the eight word lists have eight names, the language in lower case; the two Chinese ones are told apart. -/
theorem C09_names (l l' : Language) : (l.toDict.name = l'.toDict.name → l = l') ∧
    l.toDict.name = (match l with
      | .english => "english" | .french => "french" | .japanese => "japanese" | .korean => "korean"
      | .chineseSimplified => "chinese-simplified" | .chineseTraditional => "chinese-traditional"
      | .italian => "italian" | .spanish => "spanish").toList := by
  have h : ∀ l : Language, l.toDict.name = (match l with
      | .english => "english" | .french => "french" | .japanese => "japanese" | .korean => "korean"
      | .chineseSimplified => "chinese-simplified" | .chineseTraditional => "chinese-traditional"
      | .italian => "italian" | .spanish => "spanish").toList := by
    intro l
    cases l <;> (simp only; decide +kernel)
  refine ⟨fun e => ?_, h l⟩
  rw [h, h] at e
  rw [String.toList_inj] at e
  cases l <;> cases l' <;> first | rfl | exact absurd e (by decide)

/-- C68: the text of a word list's own error has the word in it and so tells two such errors apart. -/
theorem C68_dictionary (e e' : Bip39.DictError) (h : e.display = e'.display) : e = e' := by
  obtain ⟨w⟩ := e
  obtain ⟨w'⟩ := e'
  have h : ("Mnemonic word not found in dictionary \"".toList ++ w) ++ "\"".toList =
    ("Mnemonic word not found in dictionary \"".toList ++ w') ++ "\"".toList := h
  exact congrArg _ (List.append_cancel_left (List.append_cancel_right h))

/-- C12: a seed from an array is the one from a slice with its bytes, and shows these bytes; no slice of another length is taken. -/
theorem C12_bytes (b : Bytes) :
    (∀ h : b.length = Bip39.seedSize, Bip39.Seed.fromSlice b = .ok (Bip39.Seed.fromBytes b h) ∧ (Bip39.Seed.fromBytes b h).asRef = b) ∧
    (b.length ≠ 64 → Bip39.Seed.fromSlice b = .err (.invalidSeedSize b.length)) := by
  refine ⟨fun h => ⟨dif_pos h, rfl⟩, fun h => dif_neg h⟩

end KC.Props
