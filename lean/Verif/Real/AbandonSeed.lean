import Verif.Real.AbandonRun1
import Verif.Real.AbandonRun2
import Verif.Real.AbandonRun3
import Verif.Real.AbandonRun4
/-
PBKDF2 with 2048 rounds evaluated for one phrase.
-/
namespace KC.Real.Ab

theorem all_rounds : loop si so 2047 u0 u0 = (u32, t32) := by
  rw [show 2047 = 64 + (64 + (64 + (64 + (64 + (64 + (64 + (64 + (64 + (64 + (64 + (64 + (64 + (64 + (64 + (64 + (64 + (64 + (64 + (64 + (64 + (64 + (64 + (64 + (64 + (64 + (64 + (64 + (64 + (64 + (64 + (63))))))))))))))))))))))))))))))) from rfl]
  rw [loop_add, run1, loop_add, run2, loop_add, run3, loop_add, run4, loop_add, run5, loop_add, run6, loop_add, run7, loop_add, run8, loop_add, run9, loop_add, run10, loop_add, run11, loop_add, run12, loop_add, run13, loop_add, run14, loop_add, run15, loop_add, run16, loop_add, run17, loop_add, run18, loop_add, run19, loop_add, run20, loop_add, run21, loop_add, run22, loop_add, run23, loop_add, run24, loop_add, run25, loop_add, run26, loop_add, run27, loop_add, run28, loop_add, run29, loop_add, run30, loop_add, run31, run32]

/-- The seed of the phrase "abandon abandon abandon abandon abandon abandon abandon abandon abandon abandon abandon about" without a
password: all 2048 rounds. -/
theorem seed_eq : pbkdf2 phrase (Str.utf8 "mnemonic".toList) 2048 64 = Bytes.beBytes 64 0x5eb00bbddcf069084889a8ab9155568165f5c453ccb85e70811aaed6f6da5fc19a5ac40b389cd370d086206dec8aa6c43daea6690f20ad3d8d48b2d2ce9e38e4 := by
  have h : pbkdf2Block phrase (Str.utf8 "mnemonic".toList) 2048 1 = t32.bytes := by
    rw [pbkdf2Block, first_eq, pbkdf2Loop_words _ _ _ _ u0_fits, keyIn_eq, keyOut_eq, show 2048 - 1 = 2047 from rfl]
    rw [all_rounds]
  rw [pbkdf2, show (64 + 63) / 64 = 1 from rfl, show List.range 1 = [0] from rfl]
  simp only [List.flatMap_cons, List.flatMap_nil, List.append_nil, Nat.zero_add]
  rw [h, List.take_of_length_le (by rw [Eight.bytes_length])]
  decide +kernel

end KC.Real.Ab
