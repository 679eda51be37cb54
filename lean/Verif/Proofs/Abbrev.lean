import Verif.Spec.Abbrev
import Verif.Proofs.SharedWords
/-
Abbreviations of words, and words that differ in one letter, by computations on numbers.
-/
namespace KC.Abbrev
open KC.Spec.Abbrev KC.Bip39
open KC.Mnemonic (Language)

/-- The numbers of the abbreviations. -/
def shortCodes (k : Nat) (codes : List Nat) : List Nat := codes.map fun n => encodeWord (short k (decodeWord 16 n))

theorem short_inj {m k : Nat} {codes : List Nat} (h : distinctMod m (shortCodes k codes) 0 = true) {w v : Str}
    (hw : w ∈ decodeWords codes) (hv : v ∈ decodeWords codes) (he : short k w = short k v) : w = v := by
  have hn := (distinctMod_sound m _ 0 h).1
  obtain ⟨a, ha, rfl⟩ := List.mem_map.mp hw
  obtain ⟨b, hb, rfl⟩ := List.mem_map.mp hv
  rw [List.inj_on_of_nodup_map hn ha hb (congrArg encodeWord he)]

/-- The numbers of the words without what is at place `i`. -/
def holes (i : Nat) (codes : List Nat) : List Nat :=
  codes.map fun n => n % 2097152 ^ i + n / 2097152 ^ (i + 1) * 2097152 ^ (i + 1)

theorem encode_lt (w : Str) : encodeWord w < 2097152 ^ w.length := by
  induction w with
  | nil => decide
  | cons c t ih =>
    have hc : c.toNat < 2097152 := by
      have := c.valid
      rcases this with h | ⟨-, h⟩ <;> have h2 : c.toNat = c.val.toNat := rfl <;> omega
    rw [encodeWord, List.length_cons, Nat.pow_succ]
    omega

theorem encode_append (p q : Str) : encodeWord (p ++ q) = encodeWord p + 2097152 ^ p.length * encodeWord q := by
  induction p with
  | nil => simp [encodeWord]
  | cons c t ih =>
    rw [List.cons_append, encodeWord, encodeWord, ih, List.length_cons, Nat.pow_succ, Nat.mul_add, Nat.add_assoc, ← Nat.mul_assoc,
      Nat.mul_comm 2097152 (2097152 ^ t.length)]

theorem hole (p q : Str) (c : Char) :
    encodeWord (p ++ c :: q) % 2097152 ^ p.length + encodeWord (p ++ c :: q) / 2097152 ^ (p.length + 1) * 2097152 ^ (p.length + 1) =
      encodeWord p + encodeWord q * 2097152 ^ (p.length + 1) := by
  have h1 : encodeWord (p ++ c :: q) % 2097152 ^ p.length = encodeWord p := by
    rw [encode_append, Nat.add_mul_mod_self_left, Nat.mod_eq_of_lt (encode_lt p)]
  have h2 : encodeWord (p ++ c :: q) / 2097152 ^ (p.length + 1) = encodeWord q := by
    have e : p ++ c :: q = (p ++ [c]) ++ q := by simp
    have hl : (p ++ [c]).length = p.length + 1 := by simp
    rw [e, encode_append, hl, Nat.add_mul_div_left _ _ (by positivity), Nat.div_eq_of_lt (by rw [← hl]; exact encode_lt _), Nat.zero_add]
  rw [h1, h2]

theorem hole_inj {m : Nat} {codes : List Nat} (ho : codesOk codes = true) {p q : Str} {c c' : Char}
    (h : distinctMod m (holes p.length codes) 0 = true) (hw : p ++ c :: q ∈ decodeWords codes) (hv : p ++ c' :: q ∈ decodeWords codes) :
    c = c' := by
  have hn := (distinctMod_sound m _ 0 h).1
  have := List.inj_on_of_nodup_map hn (code_mem ho hw) (code_mem ho hv) ((hole p q c).trans (hole p q c').symm)
  have ha := encode_append p (c :: q)
  have hb := encode_append p (c' :: q)
  rw [this, hb] at ha
  have h3 := Nat.eq_of_mul_eq_mul_left (by positivity) (Nat.add_left_cancel ha)
  simp only [encodeWord] at h3
  have h4 : c'.toNat = c.toNat := by omega
  exact Char.ext (UInt32.toNat_inj.mp h4.symm)

/-- No word goes on beyond `k` characters. -/
def within (k : Nat) (codes : List Nat) : Bool := codes.all fun n => Nat.ble (decodeWord 16 n).length k

theorem within_len {k : Nat} {codes : List Nat} (h : within k codes = true) {w : Str} (hw : w ∈ decodeWords codes) : w.length ≤ k := by
  obtain ⟨n, hn, rfl⟩ := List.mem_map.mp hw
  exact Nat.le_of_ble_eq_true (List.all_eq_true.mp h n hn)

/-- The words have `k` letters, or are at the beginning of no other. -/
def free (k : Nat) (codes : List Nat) : Bool :=
  (codes.filter fun a => !Nat.ble k (letters (decodeWord 16 a)).length).all fun a => codes.all fun b =>
    Nat.beq a b || !(decodeWord 16 a).isPrefixOf (decodeWord 16 b)

theorem prefix_free {m k : Nat} {codes : List Nat} (h : distinctMod m (shortCodes k codes) 0 = true) (hf : free k codes = true) {w v : Str}
    (hw : w ∈ decodeWords codes) (hv : v ∈ decodeWords codes) (hp : w <+: v) : w = v := by
  by_cases hl : k ≤ (letters w).length
  · apply short_inj h hw hv
    obtain ⟨t, rfl⟩ := hp
    have e : letters (w ++ t) = letters w ++ letters t := List.filter_append ..
    rw [short, short, e, List.take_append_of_le_length hl]
  · obtain ⟨a, ha, rfl⟩ := List.mem_map.mp hw
    obtain ⟨b, hb, rfl⟩ := List.mem_map.mp hv
    have := List.all_eq_true.mp hf a (List.mem_filter.mpr ⟨ha, by
      rw [Bool.not_eq_true', ← Bool.not_eq_true, Nat.ble_eq]; exact hl⟩)
    have := List.all_eq_true.mp this b hb
    rw [List.isPrefixOf_iff_prefix.mpr hp] at this
    simp only [Bool.not_true, Bool.or_false] at this
    rw [Nat.eq_of_beq_eq_true this]

/-- Words none of which begins another can be told apart without spaces. -/
theorem flatten_inj {d : List Str} (hne : ∀ w ∈ d, w ≠ []) (hf : ∀ w ∈ d, ∀ v ∈ d, w <+: v → w = v) :
    ∀ ws vs : List Str, (∀ w ∈ ws, w ∈ d) → (∀ v ∈ vs, v ∈ d) → ws.flatten = vs.flatten → ws = vs := by
  intro ws
  induction ws with
  | nil =>
    intro vs _ hv h
    cases vs with
    | nil => rfl
    | cons v vs => simp at h; exact absurd h.1.symm (fun e => hne v (hv v (by simp)) e.symm)
  | cons w ws ih =>
    intro vs hw hv h
    cases vs with
    | nil => simp at h; exact absurd h.1 (hne w (hw w (by simp)))
    | cons v vs =>
      rw [List.flatten_cons, List.flatten_cons] at h
      have hwv : w = v := by
        rcases List.prefix_or_prefix_of_prefix (⟨_, rfl⟩ : w <+: w ++ ws.flatten) (h ▸ ⟨_, rfl⟩ : v <+: w ++ ws.flatten) with hp | hp
        · exact hf w (hw w (by simp)) v (hv v (by simp)) hp
        · exact (hf v (hv v (by simp)) w (hw w (by simp)) hp).symm
      subst hwv
      rw [ih vs (fun x hx => hw x (by simp [hx])) (fun x hx => hv x (by simp [hx])) (List.append_cancel_left h)]

end KC.Abbrev
