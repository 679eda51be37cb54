import Verif.Real.Lists
/-
Kernel evaluation of SHA-256 of the word lists, one word per line.
-/
namespace KC.Real.Lists
open Spec.WordLists (lines)

theorem french_len : count (text [] Bip39.DictData.frenchCodes) 0 = 16777 := by decide +kernel

set_option maxRecDepth 100000 in
theorem french : sha256 (Str.utf8 (lines Bip39.french.words)) =
    [0xeb, 0xc3, 0x95, 0x9a, 0xb7, 0x80, 0x1a, 0x1d, 0xf6, 0xba, 0xc4, 0xfa, 0x7d, 0x97, 0x06, 0x52,
     0xf1, 0xdf, 0x76, 0xb6, 0x83, 0xcd, 0x2f, 0x40, 0x03, 0xc9, 0x41, 0xc6, 0x3d, 0x51, 0x7e, 0x59] :=
  sha256_eq french_len (by decide +kernel)

theorem italian_len : count (text [] Bip39.DictData.italianCodes) 0 = 16033 := by decide +kernel

set_option maxRecDepth 100000 in
theorem italian : sha256 (Str.utf8 (lines Bip39.italian.words)) =
    [0xd3, 0x92, 0xc4, 0x9f, 0xdb, 0x70, 0x0a, 0x24, 0xcd, 0x1f, 0xce, 0xb2, 0x37, 0xc1, 0xf6, 0x5d,
     0xcc, 0x12, 0x8f, 0x6b, 0x34, 0xa8, 0xaa, 0xcb, 0x58, 0xb5, 0x93, 0x84, 0xb5, 0xc6, 0x48, 0xc2] :=
  sha256_eq italian_len (by decide +kernel)

theorem japanese_len : count (text [] Bip39.DictData.japaneseCodes) 0 = 26423 := by decide +kernel

set_option maxRecDepth 100000 in
theorem japanese : sha256 (Str.utf8 (lines Bip39.japanese.words)) =
    [0x2e, 0xed, 0x0a, 0xef, 0x49, 0x22, 0x91, 0xe0, 0x61, 0x63, 0x3d, 0x7a, 0xd8, 0x11, 0x7f, 0x1a,
     0x2b, 0x03, 0xeb, 0x80, 0xa2, 0x9d, 0x0e, 0x4e, 0x31, 0x17, 0xac, 0x25, 0x28, 0xd0, 0x5f, 0xfd] :=
  sha256_eq japanese_len (by decide +kernel)

theorem french_nl : ∀ w ∈ Bip39.french.words, '\n' ∉ w := no_nl (by decide +kernel)

theorem italian_nl : ∀ w ∈ Bip39.italian.words, '\n' ∉ w := no_nl (by decide +kernel)

theorem japanese_nl : ∀ w ∈ Bip39.japanese.words, '\n' ∉ w := no_nl (by decide +kernel)

end KC.Real.Lists
