import Verif.Proofs.Bits
import Verif.Tactics
/-
Properties C01, C02 (bip39/src/util/bits.rs).
-/
namespace KC.Props
open KC.Bits KC.Spec

/-- C01: packing any sequence never panics and gives the big-endian concatenation of the 11-bit forms,
zero-padded to a whole byte. -/
theorem C01_pack (es : List UInt16) :
    ∃ w pad, Writer.new.writeAll es = some w ∧ pad < 8 ∧
      bytesBits w.toBytes = wordsBits es ++ List.replicate pad false := by
  obtain ⟨w, h, i⟩ := writeAll_inv es Writer.new [] winv_new
  refine ⟨w, w.state.pad, h, ?_, by simpa [WInv, Writer.toBytes] using i⟩
  cases w.state <;> simp [State.pad]

/-- C01: reading the packed buffer back returns what was written (the low 11 bits of each value). -/
theorem C01_roundtrip (es : List UInt16) :
    ∃ w r, Writer.new.writeAll es = some w ∧
      (Reader.new w.toBytes).readN es.length = some (es.map (· % 2048), r) := by
  obtain ⟨w, pad, h, -, hb⟩ := C01_pack es
  have hbits : (Reader.new w.toBytes).bits = wordsBits es ++ List.replicate pad false := by
    simpa [Reader.bits, Reader.new, State.index] using hb
  obtain ⟨vs, r, hr, hl, hv, hw, -⟩ := readN_some es.length (Reader.new w.toBytes) (by rw [hbits]; simp)
  refine ⟨w, r, h, ?_⟩
  rw [hr]
  have : wordsBits vs = wordsBits (es.map (· % 2048)) := by
    rw [hw, hbits, wordsBits_mod, List.take_append_of_le_length (by simp), List.take_of_length_le (by simp)]
  rw [wordsBits_inj hv _ this]
  intro x hx
  obtain ⟨y, -, rfl⟩ := List.mem_map.mp hx
  simp only [UInt16.toNat_mod]
  exact Nat.mod_lt _ (by decide)

/-- C01: for values that fit in 11 bits the round trip is the identity. -/
theorem C01_roundtrip_in_range (es : List UInt16) (h : ∀ e ∈ es, e.toNat ≤ 2047) :
    ∃ w r, Writer.new.writeAll es = some w ∧ (Reader.new w.toBytes).readN es.length = some (es, r) := by
  obtain ⟨w, r, h1, h2⟩ := C01_roundtrip es
  refine ⟨w, r, h1, ?_⟩
  have : es.map (· % 2048) = es := by
    conv => rhs; rw [← List.map_id es]
    apply List.map_congr_left
    intro e he
    apply UInt16.toNat_inj.mp
    have := h e he
    simp only [UInt16.toNat_mod, id]
    exact Nat.mod_eq_of_lt (by simp; omega)
  rw [this] at h2
  exact h2

/-- Non-vacuity of `C01_roundtrip_in_range` on a mixed, multi-byte sequence. -/
example : ∀ e ∈ [2047, 0, 1029, 5, 1, 1024, 77, 2046, 3], (e : UInt16).toNat ≤ 2047 := by decide

/-- C02: after `n` reads of a buffer of `k` bytes (`11 n ≤ 8 k`), the values read are the first `n` groups of
11 bits; a further read panics exactly when fewer than 11 of the `8 k - 11 n` remaining bits are left, and otherwise
returns the next 11 bits. -/
theorem C02_read (b : Bytes) (n : Nat) (h : 11 * n ≤ 8 * b.length) :
    ∃ vs r, (Reader.new b).readN n = some (vs, r) ∧ wordsBits vs = (bytesBits b).take (11 * n) ∧
      (r.read = none ↔ 8 * b.length - 11 * n < 11) ∧
      ∀ v r', r.read = some (v, r') →
        v.toNat ≤ 2047 ∧ bitsBE 11 v.toNat = ((bytesBits b).drop (11 * n)).take 11 := by
  have hb : (Reader.new b).bits = bytesBits b := rfl
  obtain ⟨vs, r, hr, hl, hv, hw, hd⟩ := readN_some n (Reader.new b) (by simpa [hb] using h)
  rw [hb] at hw hd
  have hlen : r.bits.length = 8 * b.length - 11 * n := by simp [hd]
  refine ⟨vs, r, hr, hw, ⟨fun hn => ?_, fun hlt => read_none r (by omega)⟩, ?_⟩
  · by_cases h1 : 11 ≤ r.bits.length
    · obtain ⟨v, r', e, -⟩ := read_some r h1
      simp [hn] at e
    · omega
  · intro v r' e
    by_cases h1 : 11 ≤ r.bits.length
    · obtain ⟨v', r'', e', hv', hb', -⟩ := read_some r h1
      rw [e] at e'
      simp only [Option.some.injEq, Prod.mk.injEq] at e'
      rw [e'.1, ← hd]
      exact ⟨by omega, hb'⟩
    · rw [read_none r (by omega)] at e
      simp at e

/-- C02: reading more groups than the buffer holds panics. -/
theorem C02_overrun (b : Bytes) (n : Nat) (h : 8 * b.length < 11 * n) : (Reader.new b).readN n = none :=
  readN_none n _ (by simpa [Reader.bits, Reader.new, State.index] using h)

/-- C02: at every point, `size()` does not underflow and is the exact number of further reads that succeed. -/
theorem C02_size (b : Bytes) (n : Nat) (vs : List UInt16) (r : Reader)
    (h : (Reader.new b).readN n = some (vs, r)) :
    ∃ k, r.size = some k ∧ ∀ m, (r.readN m).isSome ↔ m ≤ k := by
  have h11 : 11 * n ≤ 8 * b.length := by
    by_contra hc
    rw [C02_overrun b n (by omega)] at h
    simp at h
  have hb : (Reader.new b).bits = bytesBits b := rfl
  obtain ⟨vs', r', hr, -, -, -, hd⟩ := readN_some n (Reader.new b) (by simpa [hb] using h11)
  rw [h] at hr
  simp only [Option.some.injEq, Prod.mk.injEq] at hr
  obtain ⟨-, rfl⟩ := hr
  have hidx : r.state.index ≤ r.buffer.length * 8 := idx_le n (Reader.new b) (by simp [Reader.new, State.index]) vs r h
  refine ⟨(r.buffer.length * 8 - r.state.index) / 11, by simp [Reader.size, hidx], fun m => ?_⟩
  have hlen : r.bits.length = r.buffer.length * 8 - r.state.index := by
    simp [Reader.bits]; omega
  constructor
  · intro hs
    by_contra hc
    rw [readN_none m r (by omega)] at hs
    simp at hs
  · intro hm
    obtain ⟨vs2, r2, e, -⟩ := readN_some m r (by omega)
    simp [e]

/-- Non-vacuity: after five reads of a ten-byte buffer two more are possible. -/
example : ∃ vs r, (Reader.new [1, 2, 3, 4, 5, 6, 7, 8, 9, 10]).readN 5 = some (vs, r) ∧ r.size = some 2 :=
  ⟨_, _, rfl, rfl⟩

end KC.Props
