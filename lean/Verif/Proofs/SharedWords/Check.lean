import Verif.Proofs.Dict
/-
Disjointness of lists of words from a computation on numbers.
-/
namespace KC.Bip39

/-- No number of the first list is congruent to one of the second. -/
def disjointMod (m : Nat) (a b : List Nat) : Bool :=
  let mask := b.foldl (fun k n => k ||| (1 <<< (n % m))) 0
  a.all fun n => !mask.testBit (n % m)

theorem mask_mem (m : Nat) (b : List Nat) (k : Nat) {n : Nat} (h : n ∈ b ∨ k.testBit (n % m) = true) :
    (b.foldl (fun k n => k ||| (1 <<< (n % m))) k).testBit (n % m) = true := by
  induction b generalizing k with
  | nil => simpa using h
  | cons x b ih =>
    rw [List.foldl_cons]
    apply ih
    rcases h with h | h
    · rcases List.mem_cons.mp h with rfl | h
      · right; rw [Nat.testBit_or, Nat.one_shiftLeft, Nat.testBit_two_pow_self, Bool.or_true]
      · exact .inl h
    · right; rw [Nat.testBit_or, h, Bool.true_or]

theorem disjointMod_sound {m : Nat} {a b : List Nat} (h : disjointMod m a b = true) {n : Nat} (ha : n ∈ a) : n ∉ b := by
  intro hb
  have h1 := mask_mem m b 0 (.inl hb)
  have h2 := List.all_eq_true.mp h n ha
  rw [h1] at h2
  exact absurd h2 (by decide)

theorem apart {m : Nat} {a b : List Nat} {w : Str} (h : disjointMod m a b = true) (hw : encodeWord w ∈ a) (hw' : encodeWord w ∈ b) :
    False := disjointMod_sound h hw hw'

/-- The numbers decode to words with these numbers. -/
def codesOk (codes : List Nat) : Bool := codes.all fun n => encodeWord (decodeWord 16 n) == n

theorem code_mem {codes : List Nat} (h : codesOk codes = true) {w : Str} (hw : w ∈ decodeWords codes) : encodeWord w ∈ codes := by
  obtain ⟨n, hn, rfl⟩ := List.mem_map.mp hw
  have := List.all_eq_true.mp h n hn
  rw [beq_iff_eq] at this
  rw [this]; exact hn

theorem code_at {codes : List Nat} (h : codesOk codes = true) {w : Str} {i : Nat} (hw : (decodeWords codes)[i]? = some w) :
    codes[i]? = some (encodeWord w) := by
  rw [decodeWords, List.getElem?_map, Option.map_eq_some_iff] at hw
  obtain ⟨n, hn, rfl⟩ := hw
  have := List.all_eq_true.mp h n (List.mem_of_getElem? hn)
  rw [beq_iff_eq] at this
  rw [this]; exact hn

/-- The script of a word, by its first character: Latin, Hangul, Hiragana, Han. -/
def script (n : Nat) : Nat :=
  let c := n % 2097152
  if c < 0x1000 then 0 else if c < 0x3000 then 1 else if c < 0x4e00 then 2 else 3

end KC.Bip39
