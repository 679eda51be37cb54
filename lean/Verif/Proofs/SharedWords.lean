import Verif.Proofs.Language
import Verif.Proofs.SharedWords.Latin
/-
Words that are in two of the dictionaries.
-/
namespace KC.Mnemonic
open KC.Bip39

/-- The numbers of the words of a dictionary. -/
def Language.codes : Language → List Nat
  | .english => DictData.englishCodes
  | .french => DictData.frenchCodes
  | .japanese => DictData.japaneseCodes
  | .korean => DictData.koreanCodes
  | .chineseSimplified => DictData.chineseSimplifiedCodes
  | .chineseTraditional => DictData.chineseTraditionalCodes
  | .italian => DictData.italianCodes
  | .spanish => DictData.spanishCodes

theorem Language.words_eq (l : Language) : l.toDict.words = decodeWords l.codes := by cases l <;> rfl

theorem Language.codesOk (l : Language) : codesOk l.codes = true := by cases l <;> decide +kernel

theorem Language.codes_len (l : Language) : l.codes.length = 2048 := by
  have h := l.toDict.len
  rw [l.words_eq, decodeWords, List.length_map] at h
  exact h

/-- The script of a language. -/
def Language.script : Language → Nat
  | .english => 0
  | .french => 0
  | .japanese => 2
  | .korean => 1
  | .chineseSimplified => 3
  | .chineseTraditional => 3
  | .italian => 0
  | .spanish => 0

theorem Language.script_ok (l : Language) : (l.codes.all fun n => Bip39.script n == l.script) = true := by cases l <;> decide +kernel

/-- Languages some of whose words are the same. -/
def sharing : Language → Language → Bool
  | .english, .french | .french, .english | .chineseSimplified, .chineseTraditional | .chineseTraditional, .chineseSimplified => true
  | a, b => a == b

theorem shared_word (l l' : Language) (w : Str) (h : w ∈ l.toDict.words) (h' : w ∈ l'.toDict.words) : sharing l l' = true := by
  rw [l.words_eq] at h
  rw [l'.words_eq] at h'
  have hw := code_mem l.codesOk h
  have hw' := code_mem l'.codesOk h'
  have s := List.all_eq_true.mp l.script_ok _ hw
  have s' := List.all_eq_true.mp l'.script_ok _ hw'
  rw [beq_iff_eq] at s s'
  rw [s] at s'
  clear h h' s
  cases l <;> cases l'
  · rfl
  · rfl
  · exact absurd s' (by decide)
  · exact absurd s' (by decide)
  · exact absurd s' (by decide)
  · exact absurd s' (by decide)
  · exact (apart english_italian hw hw').elim
  · exact (apart english_spanish hw hw').elim
  · rfl
  · rfl
  · exact absurd s' (by decide)
  · exact absurd s' (by decide)
  · exact absurd s' (by decide)
  · exact absurd s' (by decide)
  · exact (apart french_italian hw hw').elim
  · exact (apart french_spanish hw hw').elim
  · exact absurd s' (by decide)
  · exact absurd s' (by decide)
  · rfl
  · exact absurd s' (by decide)
  · exact absurd s' (by decide)
  · exact absurd s' (by decide)
  · exact absurd s' (by decide)
  · exact absurd s' (by decide)
  · exact absurd s' (by decide)
  · exact absurd s' (by decide)
  · exact absurd s' (by decide)
  · rfl
  · exact absurd s' (by decide)
  · exact absurd s' (by decide)
  · exact absurd s' (by decide)
  · exact absurd s' (by decide)
  · exact absurd s' (by decide)
  · exact absurd s' (by decide)
  · exact absurd s' (by decide)
  · exact absurd s' (by decide)
  · rfl
  · rfl
  · exact absurd s' (by decide)
  · exact absurd s' (by decide)
  · exact absurd s' (by decide)
  · exact absurd s' (by decide)
  · exact absurd s' (by decide)
  · exact absurd s' (by decide)
  · rfl
  · rfl
  · exact absurd s' (by decide)
  · exact absurd s' (by decide)
  · exact (apart english_italian hw' hw).elim
  · exact (apart french_italian hw' hw).elim
  · exact absurd s' (by decide)
  · exact absurd s' (by decide)
  · exact absurd s' (by decide)
  · exact absurd s' (by decide)
  · rfl
  · exact (apart italian_spanish hw hw').elim
  · exact (apart english_spanish hw' hw).elim
  · exact (apart french_spanish hw' hw).elim
  · exact absurd s' (by decide)
  · exact absurd s' (by decide)
  · exact absurd s' (by decide)
  · exact absurd s' (by decide)
  · exact (apart italian_spanish hw' hw).elim
  · rfl

end KC.Mnemonic
