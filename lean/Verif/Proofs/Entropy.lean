import Verif.Proofs.Text
import Verif.Props.Bits
/-
Entropy and checksum at bit level.
-/
namespace KC.Bip39
open KC.Spec KC.Bits

theorem bits8_inj {a b : UInt8} (h : bitsBE 8 a.toNat = bitsBE 8 b.toNat) : a = b := by
  apply UInt8.toNat_inj.mp
  apply Nat.eq_of_testBit_eq
  intro i
  rw [bits8, bits8] at h
  simp only [List.cons.injEq, and_true] at h
  by_cases hi : i < 8
  · have : i = 0 ∨ i = 1 ∨ i = 2 ∨ i = 3 ∨ i = 4 ∨ i = 5 ∨ i = 6 ∨ i = 7 := by omega
    rcases this with rfl | rfl | rfl | rfl | rfl | rfl | rfl | rfl <;> simp only [h]
  · rw [u8_hi a i (by omega), u8_hi b i (by omega)]

theorem bytesBits_inj {a b : Bytes} (h : bytesBits a = bytesBits b) : a = b := by
  induction a generalizing b with
  | nil =>
    have := congrArg List.length h
    cases b with
    | nil => rfl
    | cons y b => simp at this; omega
  | cons x a ih =>
    cases b with
    | nil => have := congrArg List.length h; simp at this
    | cons y b =>
      simp only [bytesBits_cons] at h
      have h2 := List.append_inj h (by simp)
      rw [bits8_inj h2.1, ih h2.2]

theorem bytesBits_take (b : Bytes) (k : Nat) : bytesBits (b.take k) = (bytesBits b).take (8 * k) := by
  induction b generalizing k with
  | nil => simp
  | cons x b ih =>
    cases k with
    | zero => simp
    | succ k =>
      simp only [List.take_succ_cons, bytesBits_cons, ih]
      rw [List.take_append]
      simp only [bitsBE_length]
      rw [List.take_of_length_le (l := bitsBE 8 x.toNat) (by simp), show 8 * (k + 1) - 8 = 8 * k by omega]

theorem bytesBits_drop (b : Bytes) (k : Nat) : bytesBits (b.drop k) = (bytesBits b).drop (8 * k) := by
  induction b generalizing k with
  | nil => simp
  | cons x b ih =>
    cases k with
    | zero => simp
    | succ k =>
      simp only [List.drop_succ_cons, bytesBits_cons, ih]
      rw [List.drop_append]
      simp only [bitsBE_length]
      rw [List.drop_eq_nil_of_le (as := bitsBE 8 x.toNat) (by simp), show 8 * (k + 1) - 8 = 8 * k by omega]
      simp

theorem type_arith (t : MType) :
    11 * t.mnemonicCount = t.toKeySize + t.checksumSizeBits ∧ t.toKeySize = 8 * (t.toKeySize / 8) ∧
    3 ≤ t.checksumSizeBits ∧ t.checksumSizeBits ≤ 8 := by
  cases t <;> decide

/-- The checksum and the stored checksum are right shifts. -/
theorem shr_bits (t : MType) (x : UInt8) :
    bitsBE 8 (x >>> (8 - UInt8.ofNat t.checksumSizeBits)).toNat =
      List.replicate (8 - t.checksumSizeBits) false ++ (bitsBE 8 x.toNat).take t.checksumSizeBits := by
  have e8 : (8 : UInt8) - 8 = 0 := by decide
  have e3 : (8 : UInt8) - 3 = 5 := by decide
  have e4 : (8 : UInt8) - 4 = 4 := by decide
  have e5 : (8 : UInt8) - 5 = 3 := by decide
  have e6 : (8 : UInt8) - 6 = 2 := by decide
  have e7 : (8 : UInt8) - 7 = 1 := by decide
  cases t <;>
    simp [MType.checksumSizeBits, bits8, e3, e4, e5, e6, e7, e8, Nat.testBit_shiftRight, u8_hi, -Nat.testBit_zero]

theorem checksum_eq (P : Hashes) (e : Entropy) :
    e.checksum P = ((e.hash P).headD 0) >>> (8 - UInt8.ofNat e.ty.checksumSizeBits) := by
  apply bits8_inj
  rw [shr_bits]
  unfold Entropy.checksum
  generalize (e.hash P).headD 0 = x
  have h3 : ∀ (a b : Nat), (a &&& b).testBit 7 = (a.testBit 7 && b.testBit 7) := by
    intros; simp
  cases e.ty <;>
    simp [MType.checksumSizeBits, bits8, Nat.testBit_shiftRight, u8_hi, tbLit, -Nat.testBit_zero]

theorem take_hash (P : Hashes) (e : Entropy) (k : Nat) (hk : k ≤ 8) :
    (bytesBits (e.hash P)).take k = (bitsBE 8 ((e.hash P).headD 0).toNat).take k := by
  have hl := P.sha256_len e.bytes
  unfold Entropy.hash
  cases h : P.sha256 e.bytes with
  | nil => rw [h] at hl; simp at hl
  | cons x t =>
    simp only [bytesBits_cons, List.headD_cons]
    rw [List.take_append_of_le_length (by simp; omega)]

/-- `from_mnemonics` at bit level. -/
theorem fromMnemonics_spec (P : Hashes) (m : Mnemonics) (t : MType) (ht : t.mnemonicCount = m.idx.length) :
    ∃ e c1 c2, e.ty = t ∧ bytesBits e.bytes = (wordsBits m.idx).take t.toKeySize ∧
      bitsBE 8 (UInt8.toNat c1) = List.replicate (8 - t.checksumSizeBits) false ++
        (bytesBits (P.sha256 e.bytes)).take t.checksumSizeBits ∧
      bitsBE 8 (UInt8.toNat c2) = List.replicate (8 - t.checksumSizeBits) false ++ (wordsBits m.idx).drop t.toKeySize ∧
      Entropy.fromMnemonics P m = if c1 = c2 then .ok e else .err (.invalidChecksum c1 c2) := by
  obtain ⟨w, pad, hw, hpad, hbits⟩ := KC.Props.C01_pack m.idx
  obtain ⟨a1, a2, a3, a4⟩ := type_arith t
  have hlen : 8 * w.toBytes.length = 11 * m.idx.length + pad := by
    have := congrArg List.length hbits; simpa using this
  have hl : w.toBytes.length = t.toKeySize / 8 + 1 := by omega
  have hp : pad = 8 - t.checksumSizeBits := by omega
  have hle : t.toKeySize / 8 ≤ w.toBytes.length := by omega
  have hlt : t.toKeySize / 8 ≤ (w.toBytes.take (t.toKeySize / 8)).length := by rw [List.length_take]; omega
  have htk : (w.toBytes.take (t.toKeySize / 8)).take (t.toKeySize / 8) = w.toBytes.take (t.toKeySize / 8) := by
    rw [List.take_take]; simp
  let e : Entropy := ⟨t, (w.toBytes.take (t.toKeySize / 8)).take (t.toKeySize / 8), by
    rw [List.length_take]; omega⟩
  have hnew : Entropy.new t (w.toBytes.take (t.toKeySize / 8)) = some e := by
    simp only [Entropy.new, hlt, dif_pos, e]
  have hbe : bytesBits e.bytes = (wordsBits m.idx).take t.toKeySize := by
    simp only [e]
    rw [htk, bytesBits_take, hbits, ← a2, List.take_append_of_le_length (by simp; omega)]
  obtain ⟨h, hh⟩ : ∃ h, w.toBytes.drop (t.toKeySize / 8) = [h] := by
    apply List.length_eq_one_iff.mp; rw [List.length_drop]; omega
  have hlast : w.toBytes.getLast? = some h := by
    rw [← List.take_append_drop (t.toKeySize / 8) w.toBytes, hh]; simp
  have hbh : bitsBE 8 h.toNat = (wordsBits m.idx).drop t.toKeySize ++ List.replicate pad false := by
    have : bytesBits (w.toBytes.drop (t.toKeySize / 8)) = bitsBE 8 h.toNat := by rw [hh]; simp
    rw [← this, bytesBits_drop, hbits, ← a2, List.drop_append_of_le_length (by simp; omega)]
  have hdl : ((wordsBits m.idx).drop t.toKeySize).length = t.checksumSizeBits := by simp; omega
  refine ⟨e, e.checksum P, h >>> (8 - UInt8.ofNat t.checksumSizeBits), rfl, hbe, ?_, ?_, ?_⟩
  · rw [checksum_eq, shr_bits]
    have := take_hash P e t.checksumSizeBits a4
    rw [← this]; rfl
  · rw [shr_bits, hbh, List.take_append_of_le_length (by omega), List.take_of_length_le (by omega)]
  · simp only [Entropy.fromMnemonics, getType_eq.mpr ht, hw, Res.ofPanic, Res.bind_ok, hle, if_true, hnew, hlast]
    by_cases hc : e.checksum P = h >>> (8 - UInt8.ofNat t.checksumSizeBits) <;> simp [hc]

theorem readIndices_some (n : Nat) (r : Reader) (h : 11 * n ≤ r.bits.length) :
    ∃ vs, readIndices r n = some vs ∧ vs.length = n ∧ (∀ v ∈ vs, v.toNat ≤ 2047) ∧
      wordsBits vs = r.bits.take (11 * n) := by
  induction n generalizing r with
  | zero => exact ⟨[], rfl, rfl, by simp, by simp⟩
  | succ n ih =>
    obtain ⟨v, r1, h1, hv, hb, hd⟩ := read_some r (by omega)
    obtain ⟨vs, h2, hl, hvs, hbs⟩ := ih r1 (by rw [hd, List.length_drop]; omega)
    refine ⟨v :: vs, by simp [readIndices, h1, indexNew_ok.mpr ⟨(show v.toNat ≤ 2047 by omega), rfl⟩, h2],
      by simp [hl], ?_, ?_⟩
    · intro x hx
      rcases List.mem_cons.mp hx with rfl | hx
      · omega
      · exact hvs x hx
    · rw [wordsBits_cons, hb, hbs, hd, show 11 * (n + 1) = 11 + 11 * n by omega, List.take_add]

theorem toMnemonics_spec (P : Hashes) (e : Entropy) :
    ∃ m : Mnemonics, e.toMnemonics P = some m ∧ m.idx.length = e.ty.mnemonicCount ∧ (∀ i ∈ m.idx, i.toNat ≤ 2047) ∧
      wordsBits m.idx = bytesBits e.bytes ++ (bytesBits (P.sha256 e.bytes)).take e.ty.checksumSizeBits := by
  obtain ⟨a1, a2, a3, a4⟩ := type_arith e.ty
  have hl := P.sha256_len e.bytes
  have he := e.len
  have hb : (Reader.new (e.bytes ++ e.hash P)).bits = bytesBits e.bytes ++ bytesBits (P.sha256 e.bytes) := by
    simp [Reader.bits, Reader.new, State.index, Entropy.hash]
  obtain ⟨vs, h1, h2, h3, h4⟩ := readIndices_some e.ty.mnemonicCount (Reader.new (e.bytes ++ e.hash P))
    (by rw [hb]; simp; omega)
  refine ⟨⟨vs⟩, ?_, h2, h3, ?_⟩
  · simp only [Entropy.toMnemonics, h1, Option.bind_eq_bind, Option.bind_some]
    rw [fromMnemonics_ok.mpr ⟨rfl, e.ty, h2.symm⟩]
  · rw [h4, hb, a1, List.take_append]
    have : (bytesBits e.bytes).length = e.ty.toKeySize := by simp; omega
    rw [this, List.take_of_length_le (by omega)]
    congr 2; omega

end KC.Bip39
