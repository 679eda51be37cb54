import Verif.Model.Usize
import Verif.Props.Bits
import Verif.Props.Bip39
import Verif.Props.Mnemonic
/-
C91: lengths at the limits of `usize`.
-/
namespace KC.Props
open KC.Bip39 KC.Bits

/-- The supported numbers of bytes. -/
def Supported (k : Nat) : Prop := k ∈ [12, 16, 20, 24, 28, 32]

theorem read_len (r : Reader) (v : UInt16) (r' : Reader) (h : r.read = some (v, r')) : r'.buffer.length ≤ r.buffer.length := by
  obtain ⟨buf, st⟩ := r
  cases st <;> rcases buf with _ | ⟨b0, _ | ⟨b1, _ | ⟨b2, t⟩⟩⟩ <;>
    simp only [Reader.read, Option.some.injEq, Prod.mk.injEq, reduceCtorEq] at h <;>
    (obtain ⟨-, rfl⟩ := h; simp)

theorem len_le (n : Nat) (r0 : Reader) (vs : List UInt16) (r : Reader) (h : r0.readN n = some (vs, r)) :
    r.buffer.length ≤ r0.buffer.length := by
  induction n generalizing r0 vs with
  | zero => simp [Reader.readN] at h; rw [← h.2]
  | succ n ih =>
    simp only [Reader.readN, Option.bind_eq_bind, Option.bind_eq_some_iff, Prod.exists, Option.some.injEq,
      Prod.mk.injEq] at h
    obtain ⟨v, r1, h1, vs', r2, h2, -, rfl⟩ := h
    exact (ih r1 _ h2).trans (read_len _ _ _ h1)

theorem mulUsize_small {w : Nat} (p : Profile) {a b : Nat} (h : a * b < 2 ^ w) : mulUsize w p a b = some (a * b) := if_pos h

/-- C91: below an eighth of the address space the build does not matter, and the other modules are right. -/
theorem C91_small (w : Nat) (p : Profile) (b : Bytes) (h : b.length * 8 < 2 ^ w) :
    Entropy.fromSliceAt w p b = Entropy.fromSlice b ∧
    (∀ H lang, Mnemonic.mnemonicFromEntropyAt w p H b lang = Mnemonic.mnemonicFromEntropy H b lang) ∧
    ∀ n vs r, (Reader.new b).readN n = some (vs, r) → r.sizeAt w p = r.size := by
  have h1 : Entropy.fromSliceAt w p b = Entropy.fromSlice b := by
    rw [Entropy.fromSliceAt, mulUsize_small p h]; rfl
  refine ⟨h1, fun H lang => ?_, fun n vs r hr => ?_⟩
  · rw [Mnemonic.mnemonicFromEntropyAt, h1]; rfl
  · have hl : r.buffer.length ≤ b.length := len_le n (Reader.new b) vs r hr
    obtain ⟨k, hk, -⟩ := C02_size b n vs r hr
    rw [Reader.sizeAt, mulUsize_small p (by omega)]
    unfold Reader.size at hk ⊢
    split at hk
    · rename_i hi
      rw [if_pos hi]
      simp [subUsize, hi]
    · cases hk

/-- C91: from an eighth of the address space on, a debug build panics. -/
theorem C91_debug (w : Nat) (b : Bytes) (h : 2 ^ w ≤ b.length * 8) :
    Entropy.fromSliceAt w .debug b = .panic ∧ (∀ H lang, Mnemonic.mnemonicFromEntropyAt w .debug H b lang = .panic) ∧
    (Reader.new b).sizeAt w .debug = none := by
  have h0 : mulUsize w .debug b.length 8 = none := if_neg (by omega)
  have h1 : Entropy.fromSliceAt w .debug b = .panic := by rw [Entropy.fromSliceAt, h0]; rfl
  refine ⟨h1, fun H lang => ?_, ?_⟩
  · rw [Mnemonic.mnemonicFromEntropyAt, h1]; rfl
  · show (mulUsize w .debug b.length 8).bind _ = none
    rw [h0]; rfl

theorem supported_bits (k : Nat) : Supported k ↔ k * 8 ∈ [96, 128, 160, 192, 224, 256] := by
  simp only [Supported, List.mem_cons, List.not_mem_nil, or_false]; omega

theorem entropy_ext {d e : Entropy} (h : d.bytes = e.bytes) : d = e := by
  obtain ⟨s, b, hb⟩ := d
  obtain ⟨t, c, hc⟩ := e
  cases h
  have : s = t := by cases s <;> cases t <;> first | rfl | (simp [MType.toKeySize] at hb hc; omega)
  cases this; rfl

theorem mul_release (w : Nat) (hw : 3 ≤ w) (n : Nat) : mulUsize w .release n 8 = some (n % 2 ^ (w - 3) * 8) := by
  have e : 2 ^ w = 2 ^ (w - 3) * 8 := by
    conv_lhs => rw [show w = w - 3 + 3 by omega, Nat.pow_add]
  have m : n * 8 % 2 ^ w = n % 2 ^ (w - 3) * 8 := by rw [e, Nat.mul_mod_mul_right]
  unfold mulUsize
  split
  · rename_i h
    rw [← m, Nat.mod_eq_of_lt h]
  · exact congrArg some m

theorem type_of_supported {k : Nat} (h : Supported k) : ∃ t, MType.fromEntropySize (k * 8) = .ok t ∧ t.toKeySize / 8 = k := by
  have hm := (supported_bits k).mp h
  have : ∃ t : MType, t.toKeySize = k * 8 := by
    simp only [List.mem_cons, List.not_mem_nil, or_false] at hm
    rcases hm with h | h | h | h | h | h <;> rw [h]
    exacts [⟨.w9, rfl⟩, ⟨.w12, rfl⟩, ⟨.w15, rfl⟩, ⟨.w18, rfl⟩, ⟨.w21, rfl⟩, ⟨.w24, rfl⟩]
  obtain ⟨t, ht⟩ := this
  exact ⟨t, ((C07_entropy_size _).1 t).mpr ⟨hm, ht⟩, by omega⟩

theorem release_supported (w : Nat) (hw : 3 ≤ w) (b : Bytes) (h : Supported (b.length % 2 ^ (w - 3))) :
    ∃ e, Entropy.fromSliceAt w .release b = .ok e ∧ e.bytes = b.take (b.length % 2 ^ (w - 3)) := by
  obtain ⟨t, ht, hk⟩ := type_of_supported h
  have hle : t.toKeySize / 8 ≤ b.length := hk ▸ Nat.mod_le _ _
  refine ⟨⟨t, b.take (t.toKeySize / 8), by rw [List.length_take]; omega⟩, ?_, congrArg (fun n => b.take n) hk⟩
  rw [Entropy.fromSliceAt, mul_release w hw]
  show (MType.fromEntropySize _).bind _ = _
  rw [ht]
  show Res.ofPanic (Entropy.new t b) = _
  rw [Entropy.new, dif_pos hle]; rfl

/-- C91: a release build goes by what is left of the length modulo an eighth of the address space: it takes that many of the first bytes when
this is a supported size, and otherwise reports that size; it never panics. -/
theorem C91_release (w : Nat) (hw : 3 ≤ w) (b : Bytes) :
    (∀ e, Entropy.fromSliceAt w .release b = .ok e ↔
      Supported (b.length % 2 ^ (w - 3)) ∧ e.bytes = b.take (b.length % 2 ^ (w - 3))) ∧
    (¬ Supported (b.length % 2 ^ (w - 3)) →
      Entropy.fromSliceAt w .release b = .err (.wrongKeySize (b.length % 2 ^ (w - 3) * 8))) ∧
    (Reader.new b).sizeAt w .release = some (b.length % 2 ^ (w - 3) * 8 / 11) := by
  have bad : ¬ Supported (b.length % 2 ^ (w - 3)) →
      Entropy.fromSliceAt w .release b = .err (.wrongKeySize (b.length % 2 ^ (w - 3) * 8)) := fun h => by
    rw [Entropy.fromSliceAt, mul_release w hw]
    show (MType.fromEntropySize _).bind _ = _
    rw [(C07_entropy_size _).2 (fun hm => h ((supported_bits _).mpr hm))]; rfl
  refine ⟨fun e => ⟨fun he => ?_, fun ⟨h, hb⟩ => ?_⟩, bad, ?_⟩
  · by_cases h : Supported (b.length % 2 ^ (w - 3))
    · obtain ⟨d, hd, hb⟩ := release_supported w hw b h
      rw [hd] at he
      cases he
      exact ⟨h, hb⟩
    · rw [bad h] at he
      cases he
  · obtain ⟨d, hd, hb'⟩ := release_supported w hw b h
    rw [hd, entropy_ext (hb'.trans hb.symm)]
  · show (mulUsize w .release b.length 8).bind _ = _
    rw [mul_release w hw]
    simp [subUsize, Reader.new, State.index]

/-- C91: so in a release build a slice that is too long by a multiple of an eighth of the address space is taken for its first bytes. -/
theorem C91_mistaken (w : Nat) (hw : 9 ≤ w) (front rest : Bytes) (hf : Supported front.length) (k : Nat)
    (hr : rest.length = k * 2 ^ (w - 3)) :
    Entropy.fromSliceAt w .release (front ++ rest) = Entropy.fromSlice front ∧
    ∀ H lang, Mnemonic.mnemonicFromEntropyAt w .release H (front ++ rest) lang = Mnemonic.mnemonicFromEntropy H front lang := by
  have hp : 2 ^ 6 ≤ 2 ^ (w - 3) := Nat.pow_le_pow_right (by omega) (by omega)
  have hs : front.length ≤ 32 := by
    simp only [Supported, List.mem_cons, List.not_mem_nil, or_false] at hf; omega
  have hm : (front ++ rest).length % 2 ^ (w - 3) = front.length := by
    rw [List.length_append, hr, Nat.add_mul_mod_self_right, Nat.mod_eq_of_lt (by omega)]
  have hm' : front.length % 2 ^ (w - 3) = front.length := Nat.mod_eq_of_lt (by omega)
  obtain ⟨e, he, hb⟩ := release_supported w (by omega) (front ++ rest) (by rw [hm]; exact hf)
  obtain ⟨d, hd, hc⟩ := release_supported w (by omega) front (by rw [hm']; exact hf)
  have hde : e = d := entropy_ext (by rw [hb, hc, hm, hm', List.take_left, List.take_length])
  have hp9 : 2 ^ 9 ≤ 2 ^ w := Nat.pow_le_pow_right (by omega) hw
  have h1 : Entropy.fromSliceAt w .release (front ++ rest) = Entropy.fromSlice front := by
    rw [he, hde, ← hd, (C91_small w .release front (by omega)).1]
  refine ⟨h1, fun H lang => ?_⟩
  rw [Mnemonic.mnemonicFromEntropyAt, h1]; rfl

/-- C91: for slices that exist (at most `isize::MAX` bytes) this is out of reach of a 64-bit machine with less than 2^61 bytes, and within
reach of a 32-bit one, from 512 MiB on. -/
theorem C91_reach (b : Bytes) :
    (b.length < 2 ^ 61 → ∀ p, Entropy.fromSliceAt 64 p b = Entropy.fromSlice b) ∧
    (b.length < 2 ^ 29 → ∀ p, Entropy.fromSliceAt 32 p b = Entropy.fromSlice b) ∧
    (2 ^ 29 ≤ b.length → Entropy.fromSliceAt 32 .debug b = .panic) :=
  ⟨fun h p => (C91_small 64 p b (by omega)).1, fun h p => (C91_small 32 p b (by omega)).1,
    fun h => (C91_debug 32 b (by omega)).1⟩

/-- C91, a case: 512 MiB and 16 bytes of sevens are sixteen sevens to a 32-bit release build, a panic in a debug build, and an error on
64 bits. -/
theorem C91_case (H : Hashes) (lang : Mnemonic.Language) :
    Mnemonic.mnemonicFromEntropyAt 32 .release H (List.replicate (2 ^ 29 + 16) 7) lang =
      Mnemonic.mnemonicFromEntropy H (List.replicate 16 7) lang ∧
    Entropy.fromSliceAt 32 .debug (List.replicate (2 ^ 29 + 16) 7) = .panic ∧
    ∀ p, Entropy.fromSliceAt 64 p (List.replicate (2 ^ 29 + 16) 7) = .err (.wrongKeySize 4294967424) := by
  refine ⟨?_, (C91_reach _).2.2 (by rw [List.length_replicate]; omega), fun p => ?_⟩
  · rw [Nat.add_comm, List.replicate_add]
    exact (C91_mistaken 32 (by omega) _ _ (by rw [List.length_replicate]; simp [Supported]) 1 (by rw [List.length_replicate]; omega)).2 H lang
  · rw [(C91_reach _).1 (by rw [List.length_replicate]; omega), Entropy.fromSlice, List.length_replicate]
    show (MType.fromEntropySize _).bind _ = _
    rw [(C07_entropy_size _).2 (by decide)]
    rfl

end KC.Props
