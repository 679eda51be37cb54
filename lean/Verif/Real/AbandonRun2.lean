import Verif.Real.AbandonKey
/-
The rounds of PBKDF2 for the phrase "abandon … about" (eleven times the first word) and the salt "mnemonic": part 2 of 4.
The values in between are only given so that the kernel checks short pieces; the end is in Verif/Real/AbandonSeed.lean.
-/
namespace KC.Real.Ab

theorem run9 : loop si so 64 u8 t8 = (u9, t9) := loop_of_fast (by decide +kernel)

theorem run10 : loop si so 64 u9 t9 = (u10, t10) := loop_of_fast (by decide +kernel)

theorem run11 : loop si so 64 u10 t10 = (u11, t11) := loop_of_fast (by decide +kernel)

theorem run12 : loop si so 64 u11 t11 = (u12, t12) := loop_of_fast (by decide +kernel)

theorem run13 : loop si so 64 u12 t12 = (u13, t13) := loop_of_fast (by decide +kernel)

theorem run14 : loop si so 64 u13 t13 = (u14, t14) := loop_of_fast (by decide +kernel)

theorem run15 : loop si so 64 u14 t14 = (u15, t15) := loop_of_fast (by decide +kernel)

theorem run16 : loop si so 64 u15 t15 = (u16, t16) := loop_of_fast (by decide +kernel)

end KC.Real.Ab
