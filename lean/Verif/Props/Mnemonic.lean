import Verif.Props.Bip39
import Verif.Model.Mnemonic
import Verif.Proofs.Toy
/-
Properties C12 - C15 (keychain/src/mnemonic.rs).
-/
namespace KC.Props
open KC.Bip39 KC.Spec KC.Bits KC.Mnemonic

/-- Outcome of `seed_from_mnemonic` on any space separated known words of a supported number. -/
theorem seed_spaced (P : Hashes) (unique : Str) (size : Nat) (l : Language) (ws : List Str)
    (hw : ∀ w ∈ ws, w ∈ l.toDict.words) (hn : ws.length ∈ wordCounts) :
    seedFromMnemonic P (spaced ws) unique size l =
      if size / 32 * 3 > ws.length then .err (.mnemonicToShort ws.length (size / 32 * 3))
      else if size / 32 * 3 < ws.length then .err (.mnemonicToLong ws.length (size / 32 * 3))
      else .ok (Seed.fromMnemonicString P (spaced ws) (Str.utf8 unique)).val := by
  obtain ⟨m, hm⟩ := (C11_accept l (spaced ws)).mpr ⟨ws, rfl, hw, hn⟩
  have ht := C08_canonical l _ _ hm
  have hne : ws ≠ [] := by rintro rfl; simp [wordCounts] at hn
  have hf := (fromString_ok _ l.good _ _).mp hm
  rw [spaced, split_intercalate ' ' ws hne (fun w hw' => l.good.noSep w (hw w hw'))] at hf
  have hlen := hf.1.length_eq
  obtain ⟨t, htc⟩ := hf.2
  have hg : m.getType = some t := getType_eq.mpr htc
  simp only [seedFromMnemonic, hm, Res.mapErr, Res.bind_ok, hg, Res.ofPanic, htc, ← hlen, ht]

/-- C12: the seed is PBKDF2 over exactly the user's text. -/
theorem C12_seed (P : Hashes) (text unique : Str) (size : Nat) (l : Language) (seed : Bytes)
    (h : seedFromMnemonic P text unique size l = .ok seed) :
    seed = P.pbkdf2 (Str.utf8 text) ([109, 110, 101, 109, 111, 110, 105, 99] ++ Str.utf8 unique) 2048 64 ∧
    seed.length = 64 := by
  have hok : ∃ m, Mnemonics.fromString l.toDict text = .ok m := by
    simp only [seedFromMnemonic, Res.bind_eq_ok, Res.mapErr_eq_ok] at h
    obtain ⟨m, h, -⟩ := h; exact ⟨m, h⟩
  obtain ⟨ws, rfl, hw, hn⟩ := (C11_accept l text).mp hok
  rw [seed_spaced P unique size l ws hw hn] at h
  split_ifs at h
  cases h
  exact ⟨rfl, (Seed.fromMnemonicString P (spaced ws) (Str.utf8 unique)).property⟩

/-- C12: `Seed::from_slice`. -/
theorem C12_from_slice (b : Bytes) :
    (b.length = 64 → ∃ s : Seed, Seed.fromSlice b = .ok s ∧ s.val = b) ∧
    (b.length ≠ 64 → Seed.fromSlice b = .err (.invalidSeedSize b.length)) := by
  constructor
  · intro h; exact ⟨⟨b, h⟩, by simp [Seed.fromSlice, seedSize, h], rfl⟩
  · intro h; simp [Seed.fromSlice, seedSize, h]

/-- C12: BIP-39 seeds of the `bip39` crate for an accepted `MnemonicString` and a passphrase. -/
theorem C12_mnemonic_string (P : Hashes) (l : Language) (text ms : Str) (pass : Bytes)
    (h : mnemonicStringNew l.toDict text = .ok ms) :
    (Seed.fromMnemonicString P ms pass).val =
      P.pbkdf2 (Str.utf8 text) ([109, 110, 101, 109, 111, 110, 105, 99] ++ pass) 2048 64 := by
  rw [(C11_mnemonic_string l text).1 ms h]; rfl

/-- C13: every text is treated in exactly one of these ways. -/
theorem C13_outcome (P : Hashes) (unique : Str) (size : Nat) (l : Language) (text : Str) :
    (∀ ws, text = spaced ws → (∀ w ∈ ws, w ∈ l.toDict.words) → ws.length ∈ wordCounts →
      (ws.length < size / 32 * 3 → seedFromMnemonic P text unique size l = .err (.mnemonicToShort ws.length (size / 32 * 3))) ∧
      (size / 32 * 3 < ws.length → seedFromMnemonic P text unique size l = .err (.mnemonicToLong ws.length (size / 32 * 3))) ∧
      (ws.length = size / 32 * 3 → ∃ seed, seedFromMnemonic P text unique size l = .ok seed)) ∧
    ((∃ seed, seedFromMnemonic P text unique size l = .ok seed) →
      ∃ ws, text = spaced ws ∧ (∀ w ∈ ws, w ∈ l.toDict.words) ∧ ws.length ∈ wordCounts ∧ ws.length = size / 32 * 3) ∧
    seedFromMnemonic P text unique size l ≠ .panic := by
  refine ⟨?_, ?_, ?_⟩
  · rintro ws rfl hw hn
    rw [seed_spaced P unique size l ws hw hn]
    refine ⟨fun h => by rw [if_pos h], fun h => by rw [if_neg (by omega), if_pos h], fun h => ?_⟩
    rw [if_neg (by omega), if_neg (by omega)]
    exact ⟨_, rfl⟩
  · rintro ⟨seed, h⟩
    have hok : ∃ m, Mnemonics.fromString l.toDict text = .ok m := by
      simp only [seedFromMnemonic, Res.bind_eq_ok, Res.mapErr_eq_ok] at h
      obtain ⟨m, h, -⟩ := h; exact ⟨m, h⟩
    obtain ⟨ws, rfl, hw, hn⟩ := (C11_accept l text).mp hok
    rw [seed_spaced P unique size l ws hw hn] at h
    split_ifs at h
    exact ⟨ws, rfl, hw, hn, by omega⟩
  · intro h
    by_cases hok : ∃ m, Mnemonics.fromString l.toDict text = .ok m
    · obtain ⟨ws, rfl, hw, hn⟩ := (C11_accept l text).mp hok
      rw [seed_spaced P unique size l ws hw hn] at h
      split_ifs at h
    · -- the text is refused with an error, not a panic
      obtain ⟨ws, h0, rfl, hsp, -⟩ := C11_pieces text
      by_cases hk : ∀ w ∈ ws, w ∈ l.toDict.words
      · have hn : ws.length ∉ wordCounts := fun hn => hok ((C11_accept l _).mpr ⟨ws, rfl, hk, hn⟩)
        rw [seedFromMnemonic, C11_wrong_count l ws h0 hk hn] at h
        cases h
      · obtain ⟨pre, w, post, rfl, hpre, hw⟩ : ∃ pre w post, ws = pre ++ w :: post ∧ (∀ x ∈ pre, x ∈ l.toDict.words) ∧
            w ∉ l.toDict.words := by
          clear h0 hsp hok h
          induction ws with
          | nil => exact absurd (fun _ h => absurd h (by simp)) hk
          | cons x ws ih =>
            by_cases hx : x ∈ l.toDict.words
            · obtain ⟨pre, w, post, rfl, h1, h2⟩ := ih (fun h => hk (by simpa [hx] using h))
              exact ⟨x :: pre, w, post, rfl, by simpa [hx] using h1, h2⟩
            · exact ⟨[], x, ws, rfl, by simp, hx⟩
        rw [seedFromMnemonic, C11_unknown_word l pre post w hpre hw (hsp w (by simp))
          (fun x hx => hsp x (by simp [hx]))] at h
        cases h

/-- C13: the errors for texts refused before the length is looked at. -/
theorem C13_refused (P : Hashes) (unique : Str) (size : Nat) (l : Language) :
    (∀ ws : List Str, ws ≠ [] → (∀ w ∈ ws, w ∈ l.toDict.words) → ws.length ∉ wordCounts →
      seedFromMnemonic P (spaced ws) unique size l = .err (.wrongNumberOfWords ws.length)) ∧
    (∀ (pre post : List Str) (w : Str), (∀ x ∈ pre, x ∈ l.toDict.words) → w ∉ l.toDict.words → ' ' ∉ w →
      (∀ x ∈ post, ' ' ∉ x) →
      seedFromMnemonic P (spaced (pre ++ w :: post)) unique size l = .err (.unsupportedWordFound w)) := by
  refine ⟨fun ws h0 hk hn => ?_, fun pre post w h1 h2 h3 h4 => ?_⟩
  · rw [seedFromMnemonic, C11_wrong_count l ws h0 hk hn]; rfl
  · rw [seedFromMnemonic, C11_unknown_word l pre post w h1 h2 h3 h4]; rfl

/-- C14: every sequence of dictionary words of the right number is accepted, whatever its checksum. -/
theorem C14_accepts_all (P : Hashes) (unique : Str) (size : Nat) (l : Language) (ws : List Str)
    (hw : ∀ w ∈ ws, w ∈ l.toDict.words) (hn : ws.length ∈ wordCounts) (hs : ws.length = size / 32 * 3) :
    ∃ seed, seedFromMnemonic P (spaced ws) unique size l = .ok seed :=
  ((C13_outcome P unique size l (spaced ws)).1 ws rfl hw hn).2.2 hs

theorem wordsBits_single (a : UInt16) : wordsBits [a] = bitsBE 11 a.toNat := by simp [wordsBits]

theorem take8_bits11 (a : Nat) : (bitsBE 11 a).take 8 = bitsBE 8 (a / 8) := by
  have h : ∀ i, (a / 8).testBit i = a.testBit (i + 3) := fun i => by
    rw [show (8 : Nat) = 2 ^ 3 from rfl, Nat.testBit_div_two_pow]
  simp [bitsBE, List.range_succ, h, -Nat.testBit_zero]

/-- C14: changing the last word of a correct phrase to another of the same block of eight words of the list always makes
the checksum wrong - and the phrase is still accepted for restoring. -/
theorem C14_typo_accepted (P : Hashes) (unique : Str) (size : Nat) (l : Language) (pre : List UInt16) (a b : UInt16)
    (e : Entropy) (hok : Entropy.fromMnemonics P ⟨pre ++ [a]⟩ = .ok e) (hn : (pre ++ [a]).length ∈ wordCounts)
    (hpre : ∀ i ∈ pre, i.toNat ≤ 2047) (ha : a.toNat ≤ 2047) (hab : a ≠ b) (hb : a.toNat / 8 = b.toNat / 8)
    (hs : (pre ++ [a]).length = size / 32 * 3) :
    (∃ c1 c2, Entropy.fromMnemonics P ⟨pre ++ [b]⟩ = .err (.invalidChecksum c1 c2)) ∧
    ∃ text, Mnemonics.toText l.toDict ⟨pre ++ [b]⟩ = some text ∧
      ∃ seed, seedFromMnemonic P text unique size l = .ok seed := by
  have hlen : (pre ++ [b]).length = (pre ++ [a]).length := by simp
  have hb' : b.toNat ≤ 2047 := by omega
  have hrange : ∀ i ∈ pre ++ [b], i.toNat ≤ 2047 := by
    intro i hi; simp only [List.mem_append, List.mem_singleton] at hi
    rcases hi with h | rfl
    · exact hpre i h
    · exact hb'
  have hrange' : ∀ i ∈ pre ++ [a], i.toNat ≤ 2047 := by
    intro i hi; simp only [List.mem_append, List.mem_singleton] at hi
    rcases hi with h | rfl
    · exact hpre i h
    · exact ha
  constructor
  · apply (C06_exact P ⟨pre ++ [b]⟩ (by rw [hlen]; exact hn)).2
    rintro ⟨e', hc'⟩
    have hc := ((C06_exact P ⟨pre ++ [a]⟩ hn).1 e).mp hok
    obtain ⟨t, ht⟩ := count_mem.mp hn
    obtain ⟨s1, s2⟩ := spec_sizes t
    obtain ⟨a1, a2, a3, a4⟩ := type_arith t
    have hbits : (wordsBits (pre ++ [a])).take (entBits (pre ++ [a]).length) =
        (wordsBits (pre ++ [b])).take (entBits (pre ++ [a]).length) := by
      have hk : entBits (pre ++ [a]).length ≤ 11 * pre.length + 8 := by
        rw [← ht, s1]
        have h11 : 11 * (pre.length + 1) = t.toKeySize + t.checksumSizeBits := by
          have : pre.length + 1 = t.mnemonicCount := by rw [ht]; simp
          rw [this]; omega
        have : 3 ≤ t.checksumSizeBits := by cases t <;> decide
        omega
      have : ∀ x : UInt16, (wordsBits (pre ++ [x])).take (11 * pre.length + 8) =
          wordsBits pre ++ bitsBE 8 (x.toNat / 8) := by
        intro x
        rw [wordsBits_append, wordsBits_single, List.take_append, List.take_of_length_le (by simp)]
        rw [← take8_bits11]
        congr 2
        simp
      have h := (this a).trans (by rw [hb, ← this b])
      have h2 := congrArg (List.take (entBits (pre ++ [a]).length)) h
      rwa [List.take_take, List.take_take, Nat.min_eq_left hk] at h2
    have hee : e' = e.bytes := by
      apply bytesBits_inj
      have q1 := hc.2; have q2 := hc'.2
      simp only at q1 q2
      rw [hlen] at q2
      have r1 : (bytesBits e.bytes).length = entBits (pre ++ [a]).length := by rw [bytesBits_length]; exact q1
      have r2 : (bytesBits e').length = entBits (pre ++ [a]).length := by rw [bytesBits_length]; exact q2
      have w1 := hc.1; have w2 := hc'.1
      simp only at w1 w2
      rw [w1, w2, List.take_append_of_le_length (by omega), List.take_append_of_le_length (by omega),
        List.take_of_length_le (by omega), List.take_of_length_le (by omega)] at hbits
      exact hbits.symm
    have : wordsBits (pre ++ [a]) = wordsBits (pre ++ [b]) := by
      have w1 := hc.1; have w2 := hc'.1
      simp only at w1 w2
      rw [w1, w2, hee, hlen]
    have := wordsBits_inj (fun x hx => by have := hrange' x hx; omega) (fun x hx => by have := hrange x hx; omega) this
    simp at this
    exact hab this
  · obtain ⟨text, h1, h2⟩ := C08_roundtrip l ⟨pre ++ [b]⟩ (by rw [hlen]; exact hn) hrange
    refine ⟨text, h1, ?_⟩
    obtain ⟨ws, rfl, hw, hwn⟩ := (C11_accept l text).mp ⟨_, h2⟩
    have hne : ws ≠ [] := by rintro rfl; simp [wordCounts] at hwn
    have hf := (fromString_ok _ l.good _ _).mp h2
    rw [spaced, split_intercalate ' ' ws hne (fun w hw' => l.good.noSep w (hw w hw'))] at hf
    have := hf.1.length_eq
    simp only at this
    exact C14_accepts_all P unique size l ws hw hwn (by rw [this, hlen, hs])

/-- Non-vacuity of `C14_typo_accepted`: a correct phrase ending in word 0, changed to word 5. -/
example : ∃ e, Entropy.fromMnemonics Toy.hashes ⟨List.replicate 11 0 ++ [0]⟩ = .ok e ∧
    (List.replicate 11 (0 : UInt16) ++ [0]).length ∈ wordCounts ∧ (0 : UInt16).toNat / 8 = (5 : UInt16).toNat / 8 ∧
    (List.replicate 11 (0 : UInt16) ++ [0]).length = 128 / 32 * 3 := by
  refine ⟨⟨.w12, List.replicate 16 0, rfl⟩, ?_, by decide, by decide, by decide⟩
  rw [(C06_exact Toy.hashes _ (by decide)).1]
  exact ⟨by decide +kernel, by decide⟩

/-- C15: one draw of `size / 8` bytes; a phrase carrying exactly these bytes; accepted for restoring at this size. -/
theorem C15_generate (P : Hashes) (size : Nat) (l : Language) (r : Rng) (unique : Str)
    (hsize : size ∈ [96, 128, 160, 192, 224, 256]) (hp : r.poisoned = false) (hf : r.fails r.calls = false) :
    ∃ bytes text m seed,
      bytes = (List.range (size / 8)).map (fun i => r.stream (r.pos + i)) ∧
      (generateEntropy size).run r = (.ok bytes, { r with pos := r.pos + size / 8, calls := r.calls + 1 }) ∧
      mnemonicFromEntropy P bytes l = .ok text ∧
      Mnemonics.fromString l.toDict text = .ok m ∧ Carries P.sha256 m.idx bytes ∧
      seedFromMnemonic P text unique size l = .ok seed := by
  obtain ⟨t, ht, hts⟩ : ∃ t, MType.fromEntropySize size = .ok t ∧ t.toKeySize = size := by
    simp only [List.mem_cons, List.not_mem_nil, or_false] at hsize
    rcases hsize with rfl | rfl | rfl | rfl | rfl | rfl
    · exact ⟨.w9, rfl, rfl⟩
    · exact ⟨.w12, rfl, rfl⟩
    · exact ⟨.w15, rfl, rfl⟩
    · exact ⟨.w18, rfl, rfl⟩
    · exact ⟨.w21, rfl, rfl⟩
    · exact ⟨.w24, rfl, rfl⟩
  obtain ⟨a1, a2, a3, a4⟩ := type_arith t
  set bytes := (List.range (size / 8)).map (fun i => r.stream (r.pos + i)) with hb
  have hbl : bytes.length = t.toKeySize / 8 := by simp [hb, hts]
  let e : Entropy := ⟨t, bytes, hbl⟩
  obtain ⟨m, h1, h2, h3, h4, h5⟩ := C05_to_mnemonics P e
  obtain ⟨text, h6, h7⟩ := C08_roundtrip l m h2 h4
  have h8 : Entropy.fromSlice bytes = .ok e := by
    have : bytes.length * 8 = size := by omega
    have hn : Entropy.new t bytes = some e := by
      unfold Entropy.new
      rw [dif_pos (by omega)]
      congr 1
      show (⟨t, _, _⟩ : Entropy) = ⟨t, bytes, hbl⟩
      congr 1
      rw [List.take_of_length_le (by omega)]
    rw [Entropy.fromSlice, this, ht, Res.bind_ok, hn]; rfl
  obtain ⟨ws, hws, hw, hwn⟩ := (C11_accept l text).mp ⟨_, h7⟩
  subst hws
  have hne : ws ≠ [] := by rintro rfl; simp [wordCounts] at hwn
  have hfs := (fromString_ok _ l.good _ _).mp h7
  rw [spaced, split_intercalate ' ' ws hne (fun w hw' => l.good.noSep w (hw w hw'))] at hfs
  have hl := hfs.1.length_eq
  have hcount : ws.length = size / 32 * 3 := by
    rw [hl]
    have q : entBits m.idx.length = 8 * bytes.length := h3
    obtain ⟨t', ht'⟩ := count_mem.mp h2
    rw [← ht'] at q ⊢
    have : 8 * bytes.length = size := by omega
    rw [this] at q
    rw [← q]
    cases t' <;> decide
  obtain ⟨seed, hseed⟩ := C14_accepts_all P unique size l ws hw hwn hcount
  refine ⟨bytes, spaced ws, m, seed, rfl, ?_, ?_, h7, h5, hseed⟩
  · show (generateEntropy size).run r = _
    simp only [generateEntropy, RM.run_bind, RM.run_lift, ht, Res.mapErr, RM.run_fill, Rng.fill, hp, hf, hts, Res.ofPanic,
      Entropy.generate, ← hb, Bool.false_eq_true, ite_false]
    rw [dif_pos (by omega)]
  · simp only [mnemonicFromEntropy, h8, Res.mapErr, Res.bind_ok, h1, Res.ofPanic, h6]

/-- C15: unsupported sizes are refused without drawing anything. -/
theorem C15_bad_size (size : Nat) (r : Rng) (h : size ∉ [96, 128, 160, 192, 224, 256]) :
    (generateEntropy size).run r = (.err (.invalidEntropySize size), r) := by
  simp only [generateEntropy, RM.run_bind, RM.run_lift, (C07_entropy_size size).2 h, Res.mapErr, Error.ofBip39]

/-- Non-vacuity of C13-C15: a healthy source, and a text accepted at size 128 but not at 256. -/
example : ∃ r : Rng, r.poisoned = false ∧ r.fails r.calls = false ∧ r.stream 3 = 7 :=
  ⟨⟨fun i => UInt8.ofNat (i + 4), fun _ => false, 0, 0, false⟩, rfl, rfl, rfl⟩

end KC.Props
