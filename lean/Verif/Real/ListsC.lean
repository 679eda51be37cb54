import Verif.Real.Lists
/-
Kernel evaluation of SHA-256 of the word lists, one word per line.
-/
namespace KC.Real.Lists
open Spec.WordLists (lines)

theorem korean_len : count (text [] Bip39.DictData.koreanCodes) 0 = 37832 := by decide +kernel

set_option maxRecDepth 100000 in
theorem korean : sha256 (Str.utf8 (lines Bip39.korean.words)) =
    [0x9e, 0x95, 0xf8, 0x6c, 0x16, 0x7d, 0xe8, 0x8f, 0x45, 0x0f, 0x0a, 0xaf, 0x89, 0xe8, 0x7f, 0x66,
     0x24, 0xa5, 0x7f, 0x97, 0x3c, 0x67, 0xb5, 0x16, 0xe3, 0x38, 0xe8, 0xe8, 0xb8, 0x89, 0x7f, 0x60] :=
  sha256_eq korean_len (by decide +kernel)

theorem korean_nl : ∀ w ∈ Bip39.korean.words, '\n' ∉ w := no_nl (by decide +kernel)

end KC.Real.Lists
