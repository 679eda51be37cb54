import Verif.Real.AbandonKey
/-
The rounds of PBKDF2 for the phrase "abandon … about" (eleven times the first word) and the salt "mnemonic": part 1 of 4.
The values in between are only given so that the kernel checks short pieces; the end is in Verif/Real/AbandonSeed.lean.
-/
namespace KC.Real.Ab

theorem run1 : loop si so 64 u0 u0 = (u1, t1) := loop_of_fast (by decide +kernel)

theorem run2 : loop si so 64 u1 t1 = (u2, t2) := loop_of_fast (by decide +kernel)

theorem run3 : loop si so 64 u2 t2 = (u3, t3) := loop_of_fast (by decide +kernel)

theorem run4 : loop si so 64 u3 t3 = (u4, t4) := loop_of_fast (by decide +kernel)

theorem run5 : loop si so 64 u4 t4 = (u5, t5) := loop_of_fast (by decide +kernel)

theorem run6 : loop si so 64 u5 t5 = (u6, t6) := loop_of_fast (by decide +kernel)

theorem run7 : loop si so 64 u6 t6 = (u7, t7) := loop_of_fast (by decide +kernel)

theorem run8 : loop si so 64 u7 t7 = (u8, t8) := loop_of_fast (by decide +kernel)

end KC.Real.Ab
