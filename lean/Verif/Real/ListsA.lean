import Verif.Real.Lists
/-
Kernel evaluation of SHA-256 of the word lists, one word per line.
-/
namespace KC.Real.Lists
open Spec.WordLists (lines)

theorem english_len : count (text [] Bip39.DictData.englishCodes) 0 = 13116 := by decide +kernel

set_option maxRecDepth 100000 in
theorem english : sha256 (Str.utf8 (lines Bip39.english.words)) =
    [0x2f, 0x5e, 0xed, 0x53, 0xa4, 0x72, 0x7b, 0x4b, 0xf8, 0x88, 0x0d, 0x8f, 0x3f, 0x19, 0x9e, 0xfc,
     0x90, 0xe5, 0x85, 0x03, 0x64, 0x6d, 0x9f, 0xf8, 0xef, 0xf3, 0xa2, 0xed, 0x3b, 0x24, 0xdb, 0xda] :=
  sha256_eq english_len (by decide +kernel)

theorem spanish_len : count (text [] Bip39.DictData.spanishCodes) 0 = 13996 := by decide +kernel

set_option maxRecDepth 100000 in
theorem spanish : sha256 (Str.utf8 (lines Bip39.spanish.words)) =
    [0x46, 0x84, 0x6a, 0x5a, 0x01, 0x39, 0xd1, 0xe3, 0xcb, 0x77, 0x29, 0x3e, 0x52, 0x1c, 0x28, 0x65,
     0xf7, 0xbc, 0xdb, 0x82, 0xc4, 0x4e, 0x8d, 0x0a, 0x06, 0xa2, 0xcd, 0x0e, 0xcb, 0xa4, 0x8c, 0x0b] :=
  sha256_eq spanish_len (by decide +kernel)

theorem chineseSimplified_len : count (text [] Bip39.DictData.chineseSimplifiedCodes) 0 = 8192 := by decide +kernel

set_option maxRecDepth 100000 in
theorem chineseSimplified : sha256 (Str.utf8 (lines Bip39.chineseSimplified.words)) =
    [0x5c, 0x59, 0x42, 0x79, 0x2b, 0xd8, 0x34, 0x0c, 0xb8, 0xb2, 0x7c, 0xd5, 0x92, 0xf1, 0x01, 0x5e,
     0xdf, 0x56, 0xa8, 0xc5, 0xb2, 0x62, 0x76, 0xee, 0x18, 0xa4, 0x82, 0x42, 0x8e, 0x7c, 0x57, 0x26] :=
  sha256_eq chineseSimplified_len (by decide +kernel)

theorem chineseTraditional_len : count (text [] Bip39.DictData.chineseTraditionalCodes) 0 = 8192 := by decide +kernel

set_option maxRecDepth 100000 in
theorem chineseTraditional : sha256 (Str.utf8 (lines Bip39.chineseTraditional.words)) =
    [0x41, 0x7b, 0x26, 0xb3, 0xd8, 0x50, 0x0a, 0x4a, 0xe3, 0xd5, 0x97, 0x17, 0xd7, 0x01, 0x19, 0x52,
     0xdb, 0x6f, 0xc2, 0xfb, 0x84, 0xb8, 0x07, 0xf3, 0xf9, 0x4a, 0xc7, 0x34, 0xe8, 0x9c, 0x1b, 0x5f] :=
  sha256_eq chineseTraditional_len (by decide +kernel)

theorem english_nl : ∀ w ∈ Bip39.english.words, '\n' ∉ w := no_nl (by decide +kernel)

theorem spanish_nl : ∀ w ∈ Bip39.spanish.words, '\n' ∉ w := no_nl (by decide +kernel)

theorem chineseSimplified_nl : ∀ w ∈ Bip39.chineseSimplified.words, '\n' ∉ w := no_nl (by decide +kernel)

theorem chineseTraditional_nl : ∀ w ∈ Bip39.chineseTraditional.words, '\n' ∉ w := no_nl (by decide +kernel)

end KC.Real.Lists
