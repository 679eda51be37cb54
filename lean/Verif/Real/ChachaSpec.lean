import Verif.Spec.Chacha
import Verif.Real.Poly1305
import Verif.Real.RipemdSpec
/-
The evaluable ChaCha20-Poly1305 is that of RFC 8439 (`Spec/Chacha.lean`).
-/
namespace KC.Real.Chacha
open KC.Spec.Chacha hiding block
open KC.Spec.Le (IsLe)
open KC.Real.Ripemd (rotl rotl_eq isLe_iff)

theorem add_eq {w : Nat} (x y : BitVec w) : (x.toNat + y.toNat) % 2 ^ w = (x + y).toNat := (BitVec.toNat_add x y).symm

theorem quarter_force {α : Type} (a b c d : BitVec 32) (f : Nat → Nat → Nat → Nat → α) :
    (force ((a.toNat + b.toNat) % 2 ^ 32) fun a1 => force (rotl 16 (d.toNat ^^^ a1)) fun d1 => force ((c.toNat + d1) % 2 ^ 32) fun c1 =>
     force (rotl 12 (b.toNat ^^^ c1)) fun b1 => force ((a1 + b1) % 2 ^ 32) fun a2 => force (rotl 8 (d1 ^^^ a2)) fun d2 =>
     force ((c1 + d2) % 2 ^ 32) fun c2 => force (rotl 7 (b1 ^^^ c2)) fun b2 => f a2 b2 c2 d2) =
    f (quarter a b c d).1.toNat (quarter a b c d).2.1.toNat (quarter a b c d).2.2.1.toNat (quarter a b c d).2.2.2.toNat := by
  simp only [↓force_eq]
  rw [add_eq a b, ← BitVec.toNat_xor, rotl_eq (by decide), add_eq c, ← BitVec.toNat_xor, rotl_eq (by decide), add_eq (a + b),
    ← BitVec.toNat_xor, rotl_eq (by decide), add_eq, ← BitVec.toNat_xor, rotl_eq (by decide)]
  rfl

theorem inner_eq (s : State) (n : Nat) : rounds (n + 1) (s 0).toNat (s 1).toNat (s 2).toNat (s 3).toNat (s 4).toNat (s 5).toNat (s 6).toNat (s 7).toNat (s 8).toNat (s 9).toNat (s 10).toNat (s 11).toNat (s 12).toNat (s 13).toNat (s 14).toNat (s 15).toNat =
    rounds n (inner s 0).toNat (inner s 1).toNat (inner s 2).toNat (inner s 3).toNat (inner s 4).toNat (inner s 5).toNat (inner s 6).toNat (inner s 7).toNat (inner s 8).toNat (inner s 9).toNat (inner s 10).toNat (inner s 11).toNat (inner s 12).toNat (inner s 13).toNat (inner s 14).toNat (inner s 15).toNat := by
  rw [rounds]
  rw [quarter_force, quarter_force, quarter_force, quarter_force, quarter_force, quarter_force, quarter_force, quarter_force]
  simp only [inner, QUARTERROUND, Fin.isValue, Fin.reduceEq, if_true, if_false]

theorem inners_comm (s : State) (n : Nat) : inners (inner s) n = inner (inners s n) := by
  induction n with
  | zero => rfl
  | succ n ih => rw [inners, inners, ih]

theorem rounds_eq (n : Nat) : ∀ s : State, rounds n (s 0).toNat (s 1).toNat (s 2).toNat (s 3).toNat (s 4).toNat (s 5).toNat (s 6).toNat (s 7).toNat (s 8).toNat (s 9).toNat (s 10).toNat (s 11).toNat (s 12).toNat (s 13).toNat (s 14).toNat (s 15).toNat = List.ofFn fun i => (inners s n i).toNat := by
  induction n with
  | zero =>
    intro s
    rw [rounds]
    rfl
  | succ n ih =>
    intro s
    rw [inner_eq, ih, inners_comm]
    rfl

/-! ### Blocks -/

theorem initial_eq (key nonce : Bytes) (counter : Nat) :
    initial key nonce counter = List.ofFn fun i => (start key nonce counter i).toNat := by
  have hw : ∀ (n : Nat) (b : Bytes), Ripemd.words n b = (List.range n).map fun k => (word b k).toNat := by
    intro n b
    rw [Ripemd.words_eq]
    refine List.map_congr_left fun j _ => ?_
    rw [word, BitVec.toNat_ofNat]
    exact (Nat.mod_eq_of_lt (Ripemd.le_take_lt _)).symm
  rw [initial, hw, hw]
  have hc : [0x61707865, 0x3320646e, 0x79622d32, 0x6b206574] =
      (List.range 4).map fun k => (word ("expand 32-byte k".toList.map fun c => UInt8.ofNat c.toNat) k).toNat := by decide +kernel
  rw [hc]
  simp only [start]
  generalize ("expand 32-byte k".toList.map fun c => UInt8.ofNat c.toNat) = e
  rw [← BitVec.toNat_ofNat]
  rfl

theorem getD_ofFn (f : Fin 16 → Nat) {i : Nat} (h : i < 16) : (List.ofFn f).getD i 0 = f ⟨i, h⟩ := by
  rw [List.getD_eq_getElem?_getD, List.getElem?_ofFn, dif_pos h, Option.getD_some]

theorem beBytes_getD (k : Nat) : ∀ (x j : Nat), j < k → (Bytes.beBytes k x).reverse.getD j 0 = UInt8.ofNat (x / 256 ^ j) := by
  induction k with
  | zero => intro x j h; omega
  | succ k ih =>
    intro x j h
    rw [Bytes.beBytes, List.reverse_append, List.reverse_singleton, List.singleton_append]
    cases j with
    | zero => simp
    | succ j => rw [List.getD_cons_succ, ih _ _ (by omega), Nat.div_div_eq_div_mul, Nat.pow_succ, Nat.mul_comm]

theorem flatMap_getD (L : Nat) (hL : 0 < L) (f : Nat → Bytes) (hf : ∀ i, (f i).length = L) (n : Nat) :
    ((List.range n).flatMap f).length = L * n ∧ ∀ k < L * n, ((List.range n).flatMap f).getD k 0 = (f (k / L)).getD (k % L) 0 := by
  induction n with
  | zero => exact ⟨rfl, fun k h => by omega⟩
  | succ n ih =>
    have e : (List.range (n + 1)).flatMap f = (List.range n).flatMap f ++ f n := by
      rw [List.range_succ, List.flatMap_append]
      simp
    rw [e]
    refine ⟨by rw [List.length_append, ih.1, hf, Nat.mul_succ], fun k hk => ?_⟩
    by_cases h : k < L * n
    · rw [List.getD_append _ _ _ _ (by rw [ih.1]; exact h)]
      exact ih.2 k h
    · rw [List.getD_append_right _ _ _ _ (by rw [ih.1]; omega), ih.1]
      rw [Nat.mul_succ] at hk
      obtain ⟨j, rfl⟩ := Nat.exists_eq_add_of_le (Nat.le_of_not_lt h)
      have hj : j < L := by omega
      rw [Nat.mul_add_div hL, Nat.div_eq_of_lt hj, Nat.mul_add_mod, Nat.mod_eq_of_lt hj]
      simp

theorem block_getD (key nonce : Bytes) (counter : Nat) {k : Nat} (hk : k < 64) :
    (block key nonce counter).getD k 0 = byte (Spec.Chacha.block key nonce counter) k := by
  have hr := rounds_eq 10 (start key nonce counter)
  have hs := initial_eq key nonce counter
  have hg : ∀ i (h : i < 16), (initial key nonce counter).getD i 0 = (start key nonce counter ⟨i, h⟩).toNat := by
    intro i h; rw [hs, getD_ofFn _ h]
  have g0 : (initial key nonce counter).getD 0 0 = (start key nonce counter 0).toNat := hg 0 (by decide)
  have g1 : (initial key nonce counter).getD 1 0 = (start key nonce counter 1).toNat := hg 1 (by decide)
  have g2 : (initial key nonce counter).getD 2 0 = (start key nonce counter 2).toNat := hg 2 (by decide)
  have g3 : (initial key nonce counter).getD 3 0 = (start key nonce counter 3).toNat := hg 3 (by decide)
  have g4 : (initial key nonce counter).getD 4 0 = (start key nonce counter 4).toNat := hg 4 (by decide)
  have g5 : (initial key nonce counter).getD 5 0 = (start key nonce counter 5).toNat := hg 5 (by decide)
  have g6 : (initial key nonce counter).getD 6 0 = (start key nonce counter 6).toNat := hg 6 (by decide)
  have g7 : (initial key nonce counter).getD 7 0 = (start key nonce counter 7).toNat := hg 7 (by decide)
  have g8 : (initial key nonce counter).getD 8 0 = (start key nonce counter 8).toNat := hg 8 (by decide)
  have g9 : (initial key nonce counter).getD 9 0 = (start key nonce counter 9).toNat := hg 9 (by decide)
  have g10 : (initial key nonce counter).getD 10 0 = (start key nonce counter 10).toNat := hg 10 (by decide)
  have g11 : (initial key nonce counter).getD 11 0 = (start key nonce counter 11).toNat := hg 11 (by decide)
  have g12 : (initial key nonce counter).getD 12 0 = (start key nonce counter 12).toNat := hg 12 (by decide)
  have g13 : (initial key nonce counter).getD 13 0 = (start key nonce counter 13).toNat := hg 13 (by decide)
  have g14 : (initial key nonce counter).getD 14 0 = (start key nonce counter 14).toNat := hg 14 (by decide)
  have g15 : (initial key nonce counter).getD 15 0 = (start key nonce counter 15).toNat := hg 15 (by decide)
  rw [block, g0, g1, g2, g3, g4, g5, g6, g7, g8, g9, g10, g11, g12, g13, g14, g15, hr]
  have hf := flatMap_getD 4 (by decide) (fun i => (Bytes.beBytes 4 (((initial key nonce counter).getD i 0 +
    (List.ofFn fun i => (inners (start key nonce counter) 10 i).toNat).getD i 0) % 2 ^ 32)).reverse) (by simp [Bytes.beBytes_length]) 16
  have h4 : k / 4 < 16 := by omega
  have hfin : Fin.ofNat 16 (k / 4) = ⟨k / 4, h4⟩ := by
    apply Fin.ext
    exact Nat.mod_eq_of_lt h4
  refine (hf.2 k (by omega)).trans ?_
  rw [beBytes_getD 4 _ _ (Nat.mod_lt _ (by decide)), hg _ h4, getD_ofFn _ h4, add_eq, byte, hfin]
  rfl

/-! ### The stream -/

theorem stream_getD (key nonce : Bytes) (n : Nat) {i : Nat} (hi : i < 64 * n) :
    (stream key nonce 1 n).getD i 0 = byte (Spec.Chacha.block key nonce (1 + i / 64)) (i % 64) := by
  have hf := flatMap_getD 64 (by decide) (fun i => block key nonce (1 + i)) (fun i => block_len _ _ _) n
  rw [stream, hf.2 i hi, block_getD _ _ _ (Nat.mod_lt _ (by decide))]

theorem crypt_getD (key nonce m : Bytes) {i : Nat} (hi : i < m.length) :
    (crypt key nonce m).getD i 0 = m.getD i 0 ^^^ byte (Spec.Chacha.block key nonce (1 + i / 64)) (i % 64) := by
  have h2 : i < (stream key nonce 1 ((m.length + 63) / 64)).length := by rw [stream_len]; omega
  rw [← stream_getD key nonce ((m.length + 63) / 64) (by omega), crypt]
  simp [List.getD_eq_getElem?_getD, hi, h2]

theorem ext_getD {a b : Bytes} (hl : a.length = b.length) (h : ∀ i < a.length, a.getD i 0 = b.getD i 0) : a = b := by
  apply List.ext_getElem hl
  intro i h1 h2
  have := h i h1
  simpa [List.getD_eq_getElem?_getD, h1, h2] using this

theorem isCrypt_iff {key nonce m c : Bytes} : IsCrypt key nonce m c ↔ c = crypt key nonce m := by
  constructor
  · rintro ⟨hl, h⟩
    refine ext_getD (by rw [hl, crypt_len]) fun i hi => ?_
    rw [h i (by omega), crypt_getD _ _ _ (by omega)]
  · rintro rfl
    exact ⟨crypt_len _ _ _, fun i hi => crypt_getD _ _ _ hi⟩

theorem isOneTimeKey_iff {key nonce k : Bytes} : IsOneTimeKey key nonce k ↔ k = (block key nonce 0).take 32 := by
  have hlen : ((block key nonce 0).take 32).length = 32 := by rw [List.length_take, block_len]; rfl
  have hg : ∀ i < 32, ((block key nonce 0).take 32).getD i 0 = byte (Spec.Chacha.block key nonce 0) i := by
    intro i hi
    rw [← block_getD _ _ _ (by omega : i < 64), List.getD_eq_getElem?_getD, List.getElem?_take, if_pos hi, List.getD_eq_getElem?_getD]
  constructor
  · rintro ⟨hl, h⟩
    exact ext_getD (hl.trans hlen.symm) fun i hi => by rw [h i (by omega), hg i (by omega)]
  · rintro rfl
    exact ⟨hlen, hg⟩

/-! ### Poly1305 -/

theorem clamp_iff {k r : Nat} (hk : k < 2 ^ 128) : IsClamped k r ↔ r = k &&& 0x0ffffffc0ffffffc0ffffffc0fffffff := by
  have hm : ∀ i < 128, Nat.testBit 0x0ffffffc0ffffffc0ffffffc0fffffff i = !cleared i := by decide +kernel
  constructor
  · rintro ⟨hr, h⟩
    apply Nat.eq_of_testBit_eq
    intro i
    rw [Nat.testBit_and]
    by_cases hi : i < 128
    · rw [h i hi, hm i hi]
    · have hp : 2 ^ 128 ≤ 2 ^ i := Nat.pow_le_pow_right (by decide) (by omega)
      rw [Nat.testBit_lt_two_pow (hr.trans_le hp), Nat.testBit_lt_two_pow (hk.trans_le hp), Bool.false_and]
  · rintro rfl
    refine ⟨(Nat.and_le_left).trans_lt hk, fun i hi => ?_⟩
    rw [Nat.testBit_and, hm i hi]

theorem number_eq (m : Bytes) (i : Nat) : number m i = le (((m.drop (16 * i)).take 16) ++ [1]) := by
  rw [le_append_one, number, le_eq, Nat.add_comm]
  rfl

theorem number_drop (m : Bytes) (i : Nat) : number (m.drop 16) i = number m (i + 1) := by
  rw [number_eq, number_eq, List.drop_drop, show 16 + 16 * i = 16 * (i + 1) by omega]

theorem polyLoop_eq (r n : Nat) : ∀ (m : Bytes) (a : Nat), a < 2 ^ 130 - 5 →
    polyLoop r n m a = (a * r ^ n + ∑ i ∈ Finset.range n, number m i * r ^ (n - i)) % (2 ^ 130 - 5) := by
  induction n with
  | zero =>
    intro m a ha
    rw [polyLoop, Finset.range_zero, Finset.sum_empty, pow_zero, Nat.mul_one, Nat.add_zero, Nat.mod_eq_of_lt ha]
  | succ n ih =>
    intro m a ha
    generalize hP : 2 ^ 130 - 5 = P at *
    have hP0 : 0 < P := by omega
    have h0 : le (m.take 16 ++ [1]) = number m 0 := by rw [number_eq, Nat.mul_zero, List.drop_zero]
    rw [polyLoop, force_eq, hP, h0, ih _ _ (Nat.mod_lt _ hP0), Finset.sum_range_succ']
    simp only [number_drop, Nat.add_sub_add_right, Nat.sub_zero]
    rw [Nat.add_mod, Nat.mul_mod, Nat.mod_mod, ← Nat.mul_mod, ← Nat.add_mod]
    congr 1
    ring

theorem isPoly1305_iff {k m t : Bytes} : IsPoly1305 k m t ↔ t = poly1305 k m := by
  have hk : Spec.Le.le (k.take 16) < 2 ^ 128 :=
    (Bytes.be_lt _).trans_le (show 256 ^ (k.take 16).reverse.length ≤ 256 ^ 16 from Nat.pow_le_pow_right (by decide) (by simp))
  have hl : ∀ b : Bytes, Spec.Le.le b = le b := fun b => (le_eq b).symm
  have hlt : ∀ x : Nat, x % 2 ^ 128 < 256 ^ 16 := fun x => Nat.mod_lt _ (by decide)
  have he : ∀ q, (∑ i ∈ Finset.range q, number m i * (le (k.take 16) &&& 0x0ffffffc0ffffffc0ffffffc0fffffff) ^ (q - i)) % (2 ^ 130 - 5) =
      polyLoop (le (k.take 16) &&& 0x0ffffffc0ffffffc0ffffffc0fffffff) q m 0 := by
    intro q
    rw [polyLoop_eq _ _ _ _ (by decide), Nat.zero_mul, Nat.zero_add]
  constructor
  · rintro ⟨r, q, hr, h1, h2, ht⟩
    have hr := (clamp_iff hk).mp hr
    rw [hl] at hr
    subst hr
    have hq : q = (m.length + 15) / 16 := by omega
    subst hq
    rw [he, hl] at ht
    rw [poly1305, (isLe_iff (hlt _)).mp ht]
  · intro e
    rw [e, poly1305]
    refine ⟨_, (m.length + 15) / 16, (clamp_iff hk).mpr rfl, by omega, by omega, ?_⟩
    rw [hl, he, hl, isLe_iff (hlt _)]

theorem isTag_iff {key nonce c t : Bytes} (h : c.length < 2 ^ 64) : IsTag key nonce c t ↔ t = tag key nonce c := by
  have hz : ∀ z, z < 16 ∧ (c.length + z) % 16 = 0 ↔ z = (16 - c.length % 16) % 16 := by
    intro z
    omega
  constructor
  · rintro ⟨k, l, z, hk, hl, h1, h2, ht⟩
    rw [isOneTimeKey_iff.mp hk, (isLe_iff h).mp hl, (hz z).mp ⟨h1, h2⟩] at ht
    rw [tag]
    exact isPoly1305_iff.mp ht
  · intro e
    rw [e, tag]
    obtain ⟨h1, h2⟩ := (hz _).mpr rfl
    exact ⟨_, _, _, isOneTimeKey_iff.mpr rfl, (isLe_iff h).mpr rfl, h1, h2, isPoly1305_iff.mpr rfl⟩

end KC.Real.Chacha
