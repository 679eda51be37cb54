import Verif.Spec.Sizes
import Verif.Proofs.Manager
import Verif.Proofs.Letters.English
import Verif.Proofs.Letters.French
import Verif.Proofs.Letters.Japanese
import Verif.Proofs.Letters.Korean
import Verif.Proofs.Letters.ChineseSimplified
import Verif.Proofs.Letters.ChineseTraditional
import Verif.Proofs.Letters.Italian
import Verif.Proofs.Letters.Spanish
/-
Lengths of what is written.
-/
namespace KC.Sizes
open KC.Json KC.Data KC.Spec.Sizes KC.Mnemonic

theorem encode_length : ∀ b : Bytes, (Base64.encode b).length = base64 b.length
  | [] => rfl
  | [_] => by simp [Base64.encode, base64]
  | [_, _] => by simp [Base64.encode, base64]
  | a :: b :: c :: r => by
    have := encode_length r
    simp only [Base64.encode, List.length_cons, this, base64]
    omega

theorem writeNat_length (n : Nat) : (writeNat n).length = decimal n := by
  induction n using Nat.strongRecOn with
  | ind n ih =>
    rw [writeNat]
    split
    · rename_i h
      simp [decimal, Nat.log_of_lt h]
    · rename_i h
      rw [List.length_append, ih (n / 10) (by omega)]
      simp only [decimal, List.length_cons, List.length_nil]
      rw [Nat.log_of_one_lt_of_le (by omega : 1 < 10) (by omega : 10 ≤ n)]

/-- A byte that is written as it is. -/
def Plain (b : UInt8) : Prop := b ≠ 34 ∧ b ≠ 92 ∧ ¬ b < 32

theorem escape_plain {b : UInt8} (h : Plain b) : escape b = [b] := by
  obtain ⟨h1, h2, h3⟩ := h
  have h4 : ∀ c : UInt8, c < 32 → b ≠ c := fun c hc e => h3 (e ▸ hc)
  simp only [escape, h1, h2, h3, h4 8 (by decide), h4 9 (by decide), h4 10 (by decide), h4 12 (by decide), h4 13 (by decide), if_false]

theorem flatMap_plain {l : Bytes} (h : ∀ b ∈ l, Plain b) : l.flatMap escape = l := by
  induction l with
  | nil => rfl
  | cons b l ih =>
    rw [List.flatMap_cons, escape_plain (h b (by simp)), ih fun x hx => h x (by simp [hx])]
    rfl

theorem writeStr_length {s : Str} (h : ∀ b ∈ Str.utf8 s, Plain b) : (writeStr s).length = (Str.utf8 s).length + 2 := by
  rw [writeStr, flatMap_plain h]
  simp

theorem commas_length (l : List Bytes) : (commas l).length = (l.map List.length).sum + (l.length - 1) := by
  induction l with
  | nil => rfl
  | cons x l ih =>
    cases l with
    | nil => simp [commas]
    | cons y l =>
      rw [commas, List.length_append, List.length_append, ih]
      · simp
        omega
      · simp

theorem language_ok (l : Language) : ∀ w ∈ l.toDict.words, Letters.ok false w = true := by
  cases l
  exacts [Letters.english_ok, Letters.french_ok, Letters.japanese_ok, Letters.korean_ok, Letters.chineseSimplified_ok,
    Letters.chineseTraditional_ok, Letters.italian_ok, Letters.spanish_ok]

theorem phrase_ok {l : Language} {ws : List Str} (h : ∀ w ∈ ws, w ∈ l.toDict.words) : Letters.ok false (Spec.spaced ws) = true :=
  Letters.ok_spaced fun w hw => language_ok l w (h w hw)

theorem plain_char {c : Char} (h : c.toNat ≠ 34 ∧ c.toNat ≠ 92 ∧ 32 ≤ c.toNat) : ∀ b ∈ String.utf8EncodeChar c, Plain b := by
  obtain ⟨h1, h2, h3⟩ := h
  intro b hb
  have key : 128 ≤ b.toNat ∨ b.toNat = c.toNat := by
    by_cases h : 128 ≤ c.toNat
    · exact .inl (Json.utf8_high_all c h b hb)
    · have hc : c.val.toNat < 128 := by
        have : c.toNat = c.val.toNat := rfl
        omega
      rw [String.utf8EncodeChar] at hb
      simp only [show c.val.toNat ≤ 127 by omega, if_true, List.mem_singleton] at hb
      right
      rw [hb]
      show (UInt8.ofNat c.val.toNat).toNat = c.val.toNat
      rw [UInt8.toNat_ofNat']
      omega
  refine ⟨?_, ?_, ?_⟩
  · rintro rfl
    rcases key with h | h
    · exact absurd h (by decide)
    · exact h1 h.symm
  · rintro rfl
    rcases key with h | h
    · exact absurd h (by decide)
    · exact h2 h.symm
  · intro h
    have : b.toNat < 32 := UInt8.lt_iff_toNat_lt.mp h
    omega

theorem letters_plain {s : Str} (h : Letters.ok false s = true) : ∀ b ∈ Str.utf8 s, Plain b := by
  intro b hb
  simp only [Str.utf8, List.mem_flatMap] at hb
  obtain ⟨c, hc, hb⟩ := hb
  refine plain_char ?_ b hb
  have e : ∀ n : Nat, n = 34 ∨ n = 92 ∨ n < 32 → Letters.within Letters.marks n = false ∧ Letters.within Letters.starters n = false := by
    intro n hn
    have : n < 93 := by omega
    have all : ∀ n < 93, n = 34 ∨ n = 92 ∨ n < 32 → Letters.within Letters.marks n = false ∧ Letters.within Letters.starters n = false := by
      decide +kernel
    exact all n this hn
  have := Letters.ok_letter h c hc
  by_contra hn
  have := e c.toNat (by omega)
  rcases ‹Letters.within _ _ = true ∨ _› with h | h
  · rw [this.1] at h; cases h
  · rw [this.2] at h; cases h

theorem ascii_length {s : Str} (h : ∀ c ∈ s, c.toNat < 128) : (Str.utf8 s).length = s.length := by
  induction s with
  | nil => rfl
  | cons c t ih =>
    have hc : c.val.toNat < 128 := h c (by simp)
    have := ih fun x hx => h x (by simp [hx])
    simp only [Str.utf8, List.flatMap_cons, List.length_append, List.length_cons] at this ⊢
    rw [this, String.utf8EncodeChar]
    simp only [show c.val.toNat ≤ 127 by omega, if_true, List.length_singleton]
    omega

theorem encode_char : ∀ (b : Bytes), ∀ c ∈ Base64.encode b, c.toNat ≠ 34 ∧ c.toNat ≠ 92 ∧ 32 ≤ c.toNat ∧ c.toNat < 128 := by
  have all : ∀ n < 64, (Base64.digits.getD n 'A').toNat ≠ 34 ∧ (Base64.digits.getD n 'A').toNat ≠ 92 ∧
      32 ≤ (Base64.digits.getD n 'A').toNat ∧ (Base64.digits.getD n 'A').toNat < 128 := by decide +kernel
  have dig : ∀ n, (Base64.digit n).toNat ≠ 34 ∧ (Base64.digit n).toNat ≠ 92 ∧ 32 ≤ (Base64.digit n).toNat ∧ (Base64.digit n).toNat < 128 :=
    fun n => all (n % 64) (Nat.mod_lt _ (by decide))
  have pad : '='.toNat ≠ 34 ∧ '='.toNat ≠ 92 ∧ 32 ≤ '='.toNat ∧ '='.toNat < 128 := by decide
  intro b
  induction b using Base64.encode.induct with
  | case1 => simp [Base64.encode]
  | case2 a =>
    intro c hc
    simp only [Base64.encode, List.mem_cons, List.not_mem_nil, or_false] at hc
    rcases hc with rfl | rfl | rfl | rfl <;> first | exact dig _ | exact pad
  | case3 a b =>
    intro c hc
    simp only [Base64.encode, List.mem_cons, List.not_mem_nil, or_false] at hc
    rcases hc with rfl | rfl | rfl | rfl <;> first | exact dig _ | exact pad
  | case4 a b c r ih =>
    intro x hx
    simp only [Base64.encode, List.mem_cons] at hx
    rcases hx with rfl | rfl | rfl | rfl | hx
    · exact dig _
    · exact dig _
    · exact dig _
    · exact dig _
    · exact ih x hx

theorem plain_text {s : Str} (h : ∀ c ∈ s, c.toNat ≠ 34 ∧ c.toNat ≠ 92 ∧ 32 ≤ c.toNat) : ∀ b ∈ Str.utf8 s, Plain b := by
  intro b hb
  simp only [Str.utf8, List.mem_flatMap] at hb
  obtain ⟨c, hc, hb⟩ := hb
  exact plain_char (h c hc) b hb

theorem writeBytes_length (b : Bytes) : (writeBytes b).length = base64 b.length + 2 := by
  rw [writeBytes, writeStr_length (plain_text fun c hc => by have := encode_char b c hc; exact ⟨this.1, this.2.1, this.2.2.1⟩),
    ascii_length fun c hc => (encode_char b c hc).2.2.2, encode_length]

theorem keys_perm {l m : List (Network × Nat)} (h : l.Perm m) : Spec.Sizes.keys l = Spec.Sizes.keys m := by
  rw [Spec.Sizes.keys, Spec.Sizes.keys, h.length_eq, (h.map _).sum_nat]

theorem writeKeys_length (it : Iter (Network × Bytes)) (m : NMap Bytes) :
    (writeKeys it m).length = Spec.Sizes.keys (m.entries.map fun k => (k.1, k.2.length)) := by
  rw [← keys_perm ((it.perm m.entries).map fun k : Network × Bytes => (k.1, k.2.length))]
  rw [writeKeys]
  generalize it.order m.entries = l
  rw [writeArr, List.length_append, List.length_append, commas_length, Spec.Sizes.keys]
  simp only [List.map_map, List.length_map, List.length_singleton]
  have : ((fun b : Bytes => b.length) ∘ fun e : Network × Bytes => writeArr [writeNat e.1.toNat, writeBytes e.2]) =
      ((fun k : Network × Nat => decimal k.1.toNat + base64 k.2 + "[,\"\"]".length) ∘ fun k : Network × Bytes => (k.1, k.2.length)) := by
    funext e
    simp only [Function.comp, writeArr, commas, List.length_append, List.length_singleton, writeNat_length, writeBytes_length]
    rw [show "[,\"\"]".length = 5 from by decide]
    omega
  rw [show (List.length ∘ fun e : Network × Bytes => writeArr [writeNat e.1.toNat, writeBytes e.2]) = _ from this]
  omega

theorem seed_length (it : Iter (Network × Bytes)) (seed : Bytes) (hs : seed.length = 64) (m : NMap Bytes) :
    (Versioned.new it ⟨some seed, none, none, m⟩).toBytes.length + 60 = ofSeed (m.entries.map fun k => (k.1, k.2.length)) := by
  have inner : (WalletV2.toVec it ⟨some seed, none, none, m⟩).length =
      "{\"seed\":\"\",\"mnemonic\":null,\"dictionary\":null,\"keys\":}".length + base64 64 +
        Spec.Sizes.keys (m.entries.map fun k => (k.1, k.2.length)) := by
    rw [← writeKeys_length it m]
    simp only [WalletV2.toVec, writeObj, writeOpt, List.map_cons, List.map_nil, commas, List.length_append, List.length_singleton,
      writeBytes_length, hs]
    rw [show "{\"seed\":\"\",\"mnemonic\":null,\"dictionary\":null,\"keys\":}".length = 53 by decide +kernel,
      show (writeStr "seed".toList).length = 6 by decide +kernel, show (writeStr "mnemonic".toList).length = 10 by decide +kernel,
      show (writeStr "dictionary".toList).length = 12 by decide +kernel, show (writeStr "keys".toList).length = 6 by decide +kernel,
      show writeNull.length = 4 by decide]
    omega
  rw [ofSeed, wallet, ← inner]
  simp only [Versioned.toBytes, Versioned.new, writeObj, List.map_cons, List.map_nil, commas, List.length_append, List.length_singleton,
    writeBytes_length, Version.toNat]
  rw [show "{\"version\":2,\"data\":\"\"}".length = 23 by decide +kernel,
    show (writeStr "version".toList).length = 9 by decide +kernel, show (writeStr "data".toList).length = 6 by decide +kernel,
    show (writeNat 2).length = 1 by decide +kernel]
  omega

theorem phrase_length (it : Iter (Network × Bytes)) (text : Str) (ht : ∀ b ∈ Str.utf8 text, Plain b) (l : Language) (m : NMap Bytes) :
    (Versioned.new it ⟨none, some text, some l, m⟩).toBytes.length + 60 =
      ofPhrase (Str.utf8 text).length (name l) (m.entries.map fun k => (k.1, k.2.length)) := by
  have inner : (WalletV2.toVec it ⟨none, some text, some l, m⟩).length =
      "{\"seed\":null,\"mnemonic\":\"\",\"dictionary\":\"\",\"keys\":}".length + (Str.utf8 text).length + name l +
        Spec.Sizes.keys (m.entries.map fun k => (k.1, k.2.length)) := by
    rw [← writeKeys_length it m]
    simp only [WalletV2.toVec, writeObj, writeOpt, List.map_cons, List.map_nil, commas, List.length_append, List.length_singleton,
      writeStr_length ht]
    rw [show "{\"seed\":null,\"mnemonic\":\"\",\"dictionary\":\"\",\"keys\":}".length = 51 by decide +kernel,
      show (writeStr "seed".toList).length = 6 by decide +kernel, show (writeStr "mnemonic".toList).length = 10 by decide +kernel,
      show (writeStr "dictionary".toList).length = 12 by decide +kernel, show (writeStr "keys".toList).length = 6 by decide +kernel,
      show writeNull.length = 4 by decide, show (writeStr (languageName l)).length = name l + 2 by cases l <;> decide +kernel]
    omega
  rw [ofPhrase, wallet, ← inner]
  simp only [Versioned.toBytes, Versioned.new, writeObj, List.map_cons, List.map_nil, commas, List.length_append, List.length_singleton,
    writeBytes_length, Version.toNat]
  rw [show "{\"version\":2,\"data\":\"\"}".length = 23 by decide +kernel,
    show (writeStr "version".toList).length = 9 by decide +kernel, show (writeStr "data".toList).length = 6 by decide +kernel,
    show (writeNat 2).length = 1 by decide +kernel]
  omega

end KC.Sizes
