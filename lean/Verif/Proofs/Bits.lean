import Lean
import Verif.Model.Bits
import Verif.Spec.Bits
/-
Helper lemmas for bits.rs.
-/
namespace KC.Bits
open KC.Spec

/-- Evaluates `Nat.testBit` on literals (definitionally). -/
dsimproc_decl tbLit (Nat.testBit _ _) := fun e => do
  let_expr Nat.testBit a b ← e | return .continue
  let some a ← Lean.Meta.getNatValue? a | return .continue
  let some b ← Lean.Meta.getNatValue? b | return .continue
  return .done (Lean.toExpr (a.testBit b))

theorem tb_mod256 (x i : Nat) : (x % 256).testBit i = (decide (i < 8) && x.testBit i) :=
  Nat.testBit_mod_two_pow x 8 i
theorem tb_mod2 (x i : Nat) : (x % 2).testBit i = (decide (i < 1) && x.testBit i) :=
  Nat.testBit_mod_two_pow x 1 i
theorem tb_mod65536 (x i : Nat) : (x % 65536).testBit i = (decide (i < 16) && x.testBit i) :=
  Nat.testBit_mod_two_pow x 16 i

theorem bits8 (x : Nat) : bitsBE 8 x = [x.testBit 7, x.testBit 6, x.testBit 5, x.testBit 4, x.testBit 3,
    x.testBit 2, x.testBit 1, x.testBit 0] := rfl
theorem bits11 (x : Nat) : bitsBE 11 x = [x.testBit 10, x.testBit 9, x.testBit 8, x.testBit 7, x.testBit 6,
    x.testBit 5, x.testBit 4, x.testBit 3, x.testBit 2, x.testBit 1, x.testBit 0] := rfl

@[simp] theorem bitsBE_length (w x) : (bitsBE w x).length = w := by simp [bitsBE]
@[simp] theorem bytesBits_nil : bytesBits [] = [] := rfl
@[simp] theorem bytesBits_cons (x b) : bytesBits (x :: b) = bitsBE 8 x.toNat ++ bytesBits b := rfl
@[simp] theorem bytesBits_append (a b) : bytesBits (a ++ b) = bytesBits a ++ bytesBits b := by
  simp [bytesBits]
@[simp] theorem bytesBits_length (b) : (bytesBits b).length = 8 * b.length := by
  induction b with
  | nil => rfl
  | cons x b ih => simp [ih]; omega
@[simp] theorem wordsBits_nil : wordsBits [] = [] := rfl
@[simp] theorem wordsBits_cons (x b) : wordsBits (x :: b) = bitsBE 11 x.toNat ++ wordsBits b := rfl
@[simp] theorem wordsBits_append (a b) : wordsBits (a ++ b) = wordsBits a ++ wordsBits b := by
  simp [wordsBits]
@[simp] theorem wordsBits_length (b) : (wordsBits b).length = 11 * b.length := by
  induction b with
  | nil => rfl
  | cons x b ih => simp [ih]; omega

/-- Padding bits still free in the last byte. -/
def State.pad : State → Nat
  | .S0 => 0 | .S1 => 5 | .S2 => 2 | .S3 => 7 | .S4 => 4 | .S5 => 1 | .S6 => 6 | .S7 => 3

def WInv (w : Writer) (L : List Bool) : Prop :=
  bytesBits w.buffer = L ++ List.replicate w.state.pad false

theorem winv_new : WInv Writer.new [] := rfl

/-- A non-empty buffer's last byte, with its low `p` bits known to be zero. -/
theorem split_last {buf : Bytes} {L : List Bool} {p : Nat} (hp : 0 < p)
    (h : bytesBits buf = L ++ List.replicate p false) :
    ∃ init l, buf = init ++ [l] := by
  have hl := congrArg List.length h
  simp at hl
  rcases List.eq_nil_or_concat buf with rfl | ⟨i, l, rfl⟩
  · simp at hl; omega
  · exact ⟨i, l, by simp⟩

theorem write_step (w : Writer) (e : UInt16) (L : List Bool) (h : WInv w L) :
    ∃ w', w.write e = some w' ∧ WInv w' (L ++ bitsBE 11 e.toNat) := by
  obtain ⟨buf, st⟩ := w
  cases st
  case S0 =>
    refine ⟨_, rfl, ?_⟩
    simp only [WInv, State.pad, List.replicate, List.append_nil] at h ⊢
    simp [h, bits8, bits11, tb_mod256, tb_mod2, Nat.testBit_shiftRight, tbLit, -Nat.testBit_zero]
  all_goals
    obtain ⟨i, l, rfl⟩ := split_last (by simp [State.pad]) h
    simp only [Writer.write, orLast, List.getLast?_append, List.getLast?_singleton, Option.some_or,
      List.dropLast_concat, Option.bind_eq_bind, Option.bind_some]
    refine ⟨_, rfl, ?_⟩
    simp only [WInv, State.pad, bytesBits_append, bytesBits_cons, bytesBits_nil, bits8, bits11,
      List.replicate, List.append_nil, List.cons_append, List.nil_append] at h ⊢
  case S1 =>
    have h2 := List.append_inj'
      (s₁ := bytesBits i ++ [l.toNat.testBit 7, l.toNat.testBit 6, l.toNat.testBit 5])
      (t₁ := [l.toNat.testBit 4, l.toNat.testBit 3, l.toNat.testBit 2, l.toNat.testBit 1, l.toNat.testBit 0])
      (s₂ := L) (t₂ := [false, false, false, false, false])
      (by simpa only [List.append_assoc, List.cons_append, List.nil_append] using h) rfl
    simp only [List.cons.injEq, and_true] at h2
    simp [← h2.1, h2.2, tb_mod256, tb_mod2, Nat.testBit_shiftRight, tbLit, -Nat.testBit_zero]
  case S2 =>
    have h2 := List.append_inj'
      (s₁ := bytesBits i ++ [l.toNat.testBit 7, l.toNat.testBit 6, l.toNat.testBit 5, l.toNat.testBit 4, l.toNat.testBit 3, l.toNat.testBit 2])
      (t₁ := [l.toNat.testBit 1, l.toNat.testBit 0])
      (s₂ := L) (t₂ := [false, false])
      (by simpa only [List.append_assoc, List.cons_append, List.nil_append] using h) rfl
    simp only [List.cons.injEq, and_true] at h2
    simp [← h2.1, h2.2, tb_mod256, tb_mod2, Nat.testBit_shiftRight, tbLit, -Nat.testBit_zero]
  case S3 =>
    have h2 := List.append_inj'
      (s₁ := bytesBits i ++ [l.toNat.testBit 7])
      (t₁ := [l.toNat.testBit 6, l.toNat.testBit 5, l.toNat.testBit 4, l.toNat.testBit 3, l.toNat.testBit 2, l.toNat.testBit 1, l.toNat.testBit 0])
      (s₂ := L) (t₂ := [false, false, false, false, false, false, false])
      (by simpa only [List.append_assoc, List.cons_append, List.nil_append] using h) rfl
    simp only [List.cons.injEq, and_true] at h2
    simp [← h2.1, h2.2, tb_mod256, tb_mod2, Nat.testBit_shiftRight, tbLit, -Nat.testBit_zero]
  case S4 =>
    have h2 := List.append_inj'
      (s₁ := bytesBits i ++ [l.toNat.testBit 7, l.toNat.testBit 6, l.toNat.testBit 5, l.toNat.testBit 4])
      (t₁ := [l.toNat.testBit 3, l.toNat.testBit 2, l.toNat.testBit 1, l.toNat.testBit 0])
      (s₂ := L) (t₂ := [false, false, false, false])
      (by simpa only [List.append_assoc, List.cons_append, List.nil_append] using h) rfl
    simp only [List.cons.injEq, and_true] at h2
    simp [← h2.1, h2.2, tb_mod256, tb_mod2, Nat.testBit_shiftRight, tbLit, -Nat.testBit_zero]
  case S5 =>
    have h2 := List.append_inj'
      (s₁ := bytesBits i ++ [l.toNat.testBit 7, l.toNat.testBit 6, l.toNat.testBit 5, l.toNat.testBit 4, l.toNat.testBit 3, l.toNat.testBit 2, l.toNat.testBit 1])
      (t₁ := [l.toNat.testBit 0])
      (s₂ := L) (t₂ := [false])
      (by simpa only [List.append_assoc, List.cons_append, List.nil_append] using h) rfl
    simp only [List.cons.injEq, and_true] at h2
    simp [← h2.1, h2.2, tb_mod256, tb_mod2, Nat.testBit_shiftRight, tbLit, -Nat.testBit_zero]
  case S6 =>
    have h2 := List.append_inj'
      (s₁ := bytesBits i ++ [l.toNat.testBit 7, l.toNat.testBit 6])
      (t₁ := [l.toNat.testBit 5, l.toNat.testBit 4, l.toNat.testBit 3, l.toNat.testBit 2, l.toNat.testBit 1, l.toNat.testBit 0])
      (s₂ := L) (t₂ := [false, false, false, false, false, false])
      (by simpa only [List.append_assoc, List.cons_append, List.nil_append] using h) rfl
    simp only [List.cons.injEq, and_true] at h2
    simp [← h2.1, h2.2, tb_mod256, tb_mod2, Nat.testBit_shiftRight, tbLit, -Nat.testBit_zero]
  case S7 =>
    have h2 := List.append_inj'
      (s₁ := bytesBits i ++ [l.toNat.testBit 7, l.toNat.testBit 6, l.toNat.testBit 5, l.toNat.testBit 4, l.toNat.testBit 3])
      (t₁ := [l.toNat.testBit 2, l.toNat.testBit 1, l.toNat.testBit 0])
      (s₂ := L) (t₂ := [false, false, false])
      (by simpa only [List.append_assoc, List.cons_append, List.nil_append] using h) rfl
    simp only [List.cons.injEq, and_true] at h2
    simp [← h2.1, h2.2, tb_mod256, tb_mod2, Nat.testBit_shiftRight, tbLit, -Nat.testBit_zero]

theorem writeAll_inv (es : List UInt16) (w : Writer) (L : List Bool) (h : WInv w L) :
    ∃ w', w.writeAll es = some w' ∧ WInv w' (L ++ wordsBits es) := by
  induction es generalizing w L with
  | nil => exact ⟨w, rfl, by simpa using h⟩
  | cons e es ih =>
    obtain ⟨w1, h1, i1⟩ := write_step w e L h
    obtain ⟨w2, h2, i2⟩ := ih w1 _ i1
    exact ⟨w2, by simp [Writer.writeAll, h1, h2], by simpa using i2⟩

/-- The unread bits of a reader. -/
def Reader.bits (r : Reader) : List Bool := (bytesBits r.buffer).drop r.state.index

theorem read_none (r : Reader) (h : r.bits.length < 11) : r.read = none := by
  obtain ⟨buf, st⟩ := r
  cases st <;> simp only [Reader.bits, State.index, List.length_drop, bytesBits_length] at h <;>
  · rcases buf with _ | ⟨b0, _ | ⟨b1, _ | ⟨b2, rest⟩⟩⟩ <;>
      first
        | rfl
        | (exfalso; simp only [List.length_cons, List.length_nil] at h; omega)

theorem bitsBE_inj11 {a b : UInt16} (ha : a.toNat < 2048) (hb : b.toNat < 2048)
    (h : bitsBE 11 a.toNat = bitsBE 11 b.toNat) : a = b := by
  apply UInt16.toNat_inj.mp
  apply Nat.eq_of_testBit_eq
  intro i
  by_cases hi : i < 11
  · have := congrArg (fun l => l[10 - i]?) h
    simp only [bitsBE, List.getElem?_map, List.getElem?_range (show 10 - i < 11 by omega)] at this
    have e : 11 - 1 - (10 - i) = i := by omega
    simpa [e] using this
  · have h1 : 2048 ≤ 2 ^ i := by
      calc 2048 = 2 ^ 11 := rfl
        _ ≤ 2 ^ i := Nat.pow_le_pow_right (by decide) (by omega)
    rw [Nat.testBit_lt_two_pow (by omega), Nat.testBit_lt_two_pow (by omega)]

theorem lt2048 (v : UInt16) (h : v.toNat.testBit 11 = false ∧ v.toNat.testBit 12 = false ∧
    v.toNat.testBit 13 = false ∧ v.toNat.testBit 14 = false ∧ v.toNat.testBit 15 = false) : v.toNat < 2048 := by
  refine (show _ < 2 ^ 11 from Nat.lt_pow_two_of_testBit _ fun i hi => ?_)
  by_cases h16 : 16 ≤ i
  · have h1 : 65536 ≤ 2 ^ i := by
      calc 65536 = 2 ^ 16 := rfl
        _ ≤ 2 ^ i := Nat.pow_le_pow_right (by decide) h16
    have := v.toNat_lt
    exact Nat.testBit_lt_two_pow (by omega)
  · have : i = 11 ∨ i = 12 ∨ i = 13 ∨ i = 14 ∨ i = 15 := by omega
    rcases this with rfl | rfl | rfl | rfl | rfl <;> simp only [h]

theorem u8_hi (b : UInt8) (i : Nat) (h : 8 ≤ i) : b.toNat.testBit i = false := by
  have h1 : 256 ≤ 2 ^ i := by
    calc 256 = 2 ^ 8 := rfl
      _ ≤ 2 ^ i := Nat.pow_le_pow_right (by decide) h
  have := b.toNat_lt
  exact Nat.testBit_lt_two_pow (by omega)

theorem read_some (r : Reader) (h : 11 ≤ r.bits.length) :
    ∃ v r', r.read = some (v, r') ∧ v.toNat < 2048 ∧ bitsBE 11 v.toNat = r.bits.take 11 ∧
      r'.bits = r.bits.drop 11 := by
  obtain ⟨buf, st⟩ := r
  cases st <;> simp only [Reader.bits, State.index, List.length_drop, bytesBits_length] at h
  all_goals
    rcases buf with _ | ⟨b0, _ | ⟨b1, _ | ⟨b2, rest⟩⟩⟩ <;>
      first
        | (exfalso; simp only [List.length_cons, List.length_nil] at h; omega)
        | (refine ⟨_, _, rfl, ?_, ?_, ?_⟩
           · apply lt2048
             simp [Nat.testBit_shiftRight, tb_mod65536, tb_mod2, tbLit, -Nat.testBit_zero, u8_hi]
           · simp [Reader.bits, State.index, bits8, bits11, tb_mod65536, tb_mod2, tbLit, -Nat.testBit_zero]
           · simp [Reader.bits, State.index, bits8])

theorem readN_some (n : Nat) (r : Reader) (h : 11 * n ≤ r.bits.length) :
    ∃ vs r', r.readN n = some (vs, r') ∧ vs.length = n ∧ (∀ v ∈ vs, v.toNat < 2048) ∧
      wordsBits vs = r.bits.take (11 * n) ∧ r'.bits = r.bits.drop (11 * n) := by
  induction n generalizing r with
  | zero => exact ⟨[], r, rfl, rfl, by simp, by simp, by simp⟩
  | succ n ih =>
    obtain ⟨v, r1, h1, hv, hb, hd⟩ := read_some r (by omega)
    obtain ⟨vs, r2, h2, hl, hvs, hbs, hds⟩ := ih r1 (by rw [hd, List.length_drop]; omega)
    refine ⟨v :: vs, r2, by simp [Reader.readN, h1, h2], by simp [hl], ?_, ?_, ?_⟩
    · intro x hx
      rcases List.mem_cons.mp hx with rfl | hx
      · exact hv
      · exact hvs x hx
    · rw [wordsBits_cons, hb, hbs, hd, show 11 * (n + 1) = 11 + 11 * n by omega, List.take_add]
    · rw [hds, hd, List.drop_drop, show 11 * (n + 1) = 11 + 11 * n by omega]

theorem readN_none (n : Nat) (r : Reader) (h : r.bits.length < 11 * n) : r.readN n = none := by
  induction n generalizing r with
  | zero => omega
  | succ n ih =>
    by_cases h1 : 11 ≤ r.bits.length
    · obtain ⟨v, r1, e1, -, -, hd⟩ := read_some r h1
      have : r1.readN n = none := ih r1 (by rw [hd, List.length_drop]; omega)
      simp [Reader.readN, e1, this]
    · simp [Reader.readN, read_none r (by omega)]

theorem wordsBits_inj {a b : List UInt16} (ha : ∀ x ∈ a, x.toNat < 2048) (hb : ∀ x ∈ b, x.toNat < 2048)
    (h : wordsBits a = wordsBits b) : a = b := by
  induction a generalizing b with
  | nil =>
    have := congrArg List.length h
    cases b with
    | nil => rfl
    | cons y b => simp at this; omega
  | cons x a ih =>
    cases b with
    | nil => have := congrArg List.length h; simp at this
    | cons y b =>
      simp only [wordsBits_cons] at h
      have h2 := List.append_inj h (by simp)
      rw [bitsBE_inj11 (ha x (by simp)) (hb y (by simp)) h2.1,
        ih (fun z hz => ha z (by simp [hz])) (fun z hz => hb z (by simp [hz])) h2.2]

theorem bitsBE_mod (w x : Nat) : bitsBE w (x % 2 ^ w) = bitsBE w x := by
  simp only [bitsBE]
  apply List.map_congr_left
  intro i hi
  have := List.mem_range.mp hi
  rw [Nat.testBit_mod_two_pow]
  simp; omega

theorem wordsBits_mod (es : List UInt16) : wordsBits (es.map (· % 2048)) = wordsBits es := by
  induction es with
  | nil => rfl
  | cons e es ih =>
    have : bitsBE 11 (e.toNat % 2048) = bitsBE 11 e.toNat := bitsBE_mod 11 e.toNat
    simp [ih, this]

/-- A successful read leaves the state index inside the buffer. -/
theorem read_idx (r : Reader) (v : UInt16) (r' : Reader) (h : r.read = some (v, r')) :
    r'.state.index ≤ r'.buffer.length * 8 := by
  obtain ⟨buf, st⟩ := r
  cases st <;> rcases buf with _ | ⟨b0, _ | ⟨b1, _ | ⟨b2, t⟩⟩⟩ <;>
    simp only [Reader.read, Option.some.injEq, Prod.mk.injEq, reduceCtorEq] at h <;>
    (obtain ⟨-, rfl⟩ := h; simp [State.index]) <;> omega

theorem idx_le (n : Nat) (r0 : Reader) (h0 : r0.state.index ≤ r0.buffer.length * 8) (vs : List UInt16) (r : Reader)
    (h : r0.readN n = some (vs, r)) : r.state.index ≤ r.buffer.length * 8 := by
  induction n generalizing r0 vs with
  | zero => simp [Reader.readN] at h; rw [← h.2]; exact h0
  | succ n ih =>
    simp only [Reader.readN, Option.bind_eq_bind, Option.bind_eq_some_iff, Prod.exists, Option.some.injEq,
      Prod.mk.injEq] at h
    obtain ⟨v, r1, h1, vs', r2, h2, -, rfl⟩ := h
    exact ih r1 (read_idx _ _ _ h1) _ h2

end KC.Bits
