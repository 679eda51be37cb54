import Verif.Real.AbandonKey
/-
The rounds of PBKDF2 for the phrase "abandon … about" (eleven times the first word) and the salt "mnemonic": part 3 of 4.
The values in between are only given so that the kernel checks short pieces; the end is in Verif/Real/AbandonSeed.lean.
-/
namespace KC.Real.Ab

theorem run17 : loop si so 64 u16 t16 = (u17, t17) := loop_of_fast (by decide +kernel)

theorem run18 : loop si so 64 u17 t17 = (u18, t18) := loop_of_fast (by decide +kernel)

theorem run19 : loop si so 64 u18 t18 = (u19, t19) := loop_of_fast (by decide +kernel)

theorem run20 : loop si so 64 u19 t19 = (u20, t20) := loop_of_fast (by decide +kernel)

theorem run21 : loop si so 64 u20 t20 = (u21, t21) := loop_of_fast (by decide +kernel)

theorem run22 : loop si so 64 u21 t21 = (u22, t22) := loop_of_fast (by decide +kernel)

theorem run23 : loop si so 64 u22 t22 = (u23, t23) := loop_of_fast (by decide +kernel)

theorem run24 : loop si so 64 u23 t23 = (u24, t24) := loop_of_fast (by decide +kernel)

end KC.Real.Ab
