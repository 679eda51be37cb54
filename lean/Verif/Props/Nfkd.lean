import Verif.Proofs.Sizes
import Verif.Props.Random
/-
C77: phrases are in the Unicode form that BIP-39 asks for, without the program ever normalising a text.
-/
namespace KC.Props
open KC.Manager KC.Spec KC.Spec.Wallet KC.Spec.Nfkd
open KC.Mnemonic (Language seedFromMnemonic)

/-- C77: the words of all lists, alone and in phrases, are in NFKD. -/
theorem C77_words (l : Language) (ws : List Str) (h : ∀ w ∈ ws, w ∈ l.toDict.words) : Normal (spaced ws) :=
  Letters.ok_normal (KC.Sizes.phrase_ok h)

/-- C77: so a phrase from which a seed is made is its own NFKD, and the seed is the one BIP-39 defines by the NFKD of the phrase. -/
theorem C77_seed (P : Hashes) (unique : Str) (size : Nat) (l : Language) (text : Str) (seed : Bytes)
    (h : seedFromMnemonic P text unique size l = .ok seed) : Normal text ∧
    seed = P.pbkdf2 (Str.utf8 text) (Str.utf8 ("mnemonic".toList ++ unique)) 2048 64 := by
  refine ⟨?_, (C12_seed P text unique size l seed h).1.trans ?_⟩
  swap
  · rw [show Str.utf8 ("mnemonic".toList ++ unique) = Str.utf8 "mnemonic".toList ++ Str.utf8 unique from List.flatMap_append,
      show Str.utf8 "mnemonic".toList = [109, 110, 101, 109, 111, 110, 105, 99] by decide +kernel]
  obtain ⟨ws, rfl, hw, -⟩ := (C13_outcome P unique size l text).2.1 ⟨seed, h⟩
  exact C77_words l ws hw

/-- C77: the same for the text of a generated phrase. -/
theorem C77_generated (E : Env) (M : Manager) (lang : Option Language) (r r' : Rng) (text : Str)
    (h : (M.generateMnemonic E lang).run r = (.ok text, r')) : Normal text := by
  obtain ⟨⟨ws, rfl, hw, -⟩, -⟩ := C56_generated E M lang r r' text h
  exact C77_words _ ws hw

/-- C77: a phrase in any other form is refused by every manager in every language, before any randomness is used. -/
theorem C77_refused (E : Env) (itF : Iter (Network × Factory)) (itK : Iter (Network × Bytes)) (M : Manager)
    (text pw : Str) (lang : Option Language) (r : Rng) (hn : ¬ Normal text) :
    ∃ e, (M.keychainDataFromMnemonic E itF itK text pw lang).run r = (.err (.mnemonicError e), r) := by
  have hs : ∃ e, seedFromMnemonic E.H text [] M.seedSize (lang.getD .english) = .err e := by
    cases h : seedFromMnemonic E.H text [] M.seedSize (lang.getD .english) with
    | ok s => exact absurd (C77_seed _ _ _ _ _ _ h).1 hn
    | err e => exact ⟨e, rfl⟩
    | panic => exact absurd h (C13_outcome ..).2.2
  obtain ⟨e, he⟩ := hs
  refine ⟨e, ?_⟩
  have : M.seedFromData E none (some text) (some (lang.getD .english)) = .err (.mnemonicError e) := by
    unfold seedFromData
    simp only [Res.okOr, Res.bind_ok, he]
    rfl
  rw [keychainDataFromMnemonic, newKeychainData, this]
  rfl

theorem decomposes_within {c : Char} (h : Letters.within changed c.toNat = true) : Decomposes c := Letters.within_iff.mp h

/-- Non-vacuity of C77: a word with an accent is in NFKD as the list has it, not as one character; nor is a Korean syllable, nor the
wide space that is usual between Japanese words.  A mark of lower class after one of higher class is not in order. -/
example : Normal "a\u0301baco".toList ∧ ¬ Normal "\u00e1baco".toList ∧ ¬ Normal "\uac00".toList ∧ ¬ Normal "\u3000".toList := by
  refine ⟨Letters.ok_normal (by decide +kernel), fun h => h.1 '\u00e1' (by simp) ?_, fun h => h.1 '\uac00' (by simp) ?_,
    fun h => h.1 '\u3000' (by simp) ?_⟩ <;> exact decomposes_within (by decide +kernel)
example : ¬ Normal ['a', '\u0301', '\u0327'] := by
  intro h
  have := h.2 ['a'] '\u0301' '\u0327' [] rfl 230 202 (.inl ⟨(0x300, 0x314, 230), by decide +kernel, by decide, by decide, rfl⟩)
    (.inl ⟨(0x327, 0x328, 202), by decide +kernel, by decide, by decide, rfl⟩) (by decide)
  exact absurd this (by decide)

end KC.Props
