import Verif.Real.AbandonKey
/-
The rounds of PBKDF2 for the phrase "abandon … about" (eleven times the first word) and the salt "mnemonic": part 4 of 4.
The values in between are only given so that the kernel checks short pieces; the end is in Verif/Real/AbandonSeed.lean.
-/
namespace KC.Real.Ab

theorem run25 : loop si so 64 u24 t24 = (u25, t25) := loop_of_fast (by decide +kernel)

theorem run26 : loop si so 64 u25 t25 = (u26, t26) := loop_of_fast (by decide +kernel)

theorem run27 : loop si so 64 u26 t26 = (u27, t27) := loop_of_fast (by decide +kernel)

theorem run28 : loop si so 64 u27 t27 = (u28, t28) := loop_of_fast (by decide +kernel)

theorem run29 : loop si so 64 u28 t28 = (u29, t29) := loop_of_fast (by decide +kernel)

theorem run30 : loop si so 64 u29 t29 = (u30, t30) := loop_of_fast (by decide +kernel)

theorem run31 : loop si so 64 u30 t30 = (u31, t31) := loop_of_fast (by decide +kernel)

theorem run32 : loop si so 63 u31 t31 = (u32, t32) := loop_of_fast (by decide +kernel)

end KC.Real.Ab
