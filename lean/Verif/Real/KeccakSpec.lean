import Verif.Spec.Keccak
import Verif.Real.Keccak
/-
The evaluable Keccak-256 is that of FIPS 202 (`Spec/Keccak.lean`).
-/
namespace KC.Real.Keccak
open KC.Spec.Keccak
open KC.Spec.Le (le IsLe)

/-- The lanes in order. -/
def lanes (A : State) : List Nat :=
  [(A 0 0).toNat, (A 1 0).toNat, (A 2 0).toNat, (A 3 0).toNat, (A 4 0).toNat, (A 0 1).toNat, (A 1 1).toNat, (A 2 1).toNat, (A 3 1).toNat, (A 4 1).toNat, (A 0 2).toNat, (A 1 2).toNat, (A 2 2).toNat, (A 3 2).toNat, (A 4 2).toNat, (A 0 3).toNat, (A 1 3).toNat, (A 2 3).toNat, (A 3 3).toNat, (A 4 3).toNat, (A 0 4).toNat, (A 1 4).toNat, (A 2 4).toNat, (A 3 4).toNat, (A 4 4).toNat]

theorem offset_0_0 : offset 0 0 = 0 := by decide +kernel
theorem offset_1_0 : offset 1 0 = 1 := by decide +kernel
theorem offset_2_0 : offset 2 0 = 62 := by decide +kernel
theorem offset_3_0 : offset 3 0 = 28 := by decide +kernel
theorem offset_4_0 : offset 4 0 = 27 := by decide +kernel
theorem offset_0_1 : offset 0 1 = 36 := by decide +kernel
theorem offset_1_1 : offset 1 1 = 44 := by decide +kernel
theorem offset_2_1 : offset 2 1 = 6 := by decide +kernel
theorem offset_3_1 : offset 3 1 = 55 := by decide +kernel
theorem offset_4_1 : offset 4 1 = 20 := by decide +kernel
theorem offset_0_2 : offset 0 2 = 3 := by decide +kernel
theorem offset_1_2 : offset 1 2 = 10 := by decide +kernel
theorem offset_2_2 : offset 2 2 = 43 := by decide +kernel
theorem offset_3_2 : offset 3 2 = 25 := by decide +kernel
theorem offset_4_2 : offset 4 2 = 39 := by decide +kernel
theorem offset_0_3 : offset 0 3 = 41 := by decide +kernel
theorem offset_1_3 : offset 1 3 = 45 := by decide +kernel
theorem offset_2_3 : offset 2 3 = 15 := by decide +kernel
theorem offset_3_3 : offset 3 3 = 21 := by decide +kernel
theorem offset_4_3 : offset 4 3 = 8 := by decide +kernel
theorem offset_0_4 : offset 0 4 = 18 := by decide +kernel
theorem offset_1_4 : offset 1 4 = 2 := by decide +kernel
theorem offset_2_4 : offset 2 4 = 61 := by decide +kernel
theorem offset_3_4 : offset 3 4 = 56 := by decide +kernel
theorem offset_4_4 : offset 4 4 = 14 := by decide +kernel

theorem rotl_eq {n : Nat} (h : n < 64) (x : BitVec 64) : rotl n x.toNat = (x.rotateLeft n).toNat := by
  rw [BitVec.toNat_rotateLeft, rotl, Nat.mod_eq_of_lt h]

theorem neg_eq (x : BitVec 64) : 2 ^ 64 - 1 - x.toNat = (~~~x).toNat := (BitVec.toNat_not).symm

theorem chi_eq (x y z : BitVec 64) : x.toNat ^^^ ((2 ^ 64 - 1 - y.toNat) &&& z.toNat) = (x ^^^ (~~~y &&& z)).toNat := by
  rw [neg_eq, BitVec.toNat_xor, BitVec.toNat_and]

theorem round_eq (A : State) (i : Nat) (rcs : List Nat) :
    keccakRounds ((constant i).toNat :: rcs) (lanes A) = keccakRounds rcs (lanes (iota i (chi (pi (rho (theta A)))))) := by
  rw [lanes, keccakRounds]
  simp only [↓force_eq, rotl_eq (show 0 < 64 by decide), rotl_eq (show 1 < 64 by decide), rotl_eq (show 2 < 64 by decide), rotl_eq (show 3 < 64 by decide), rotl_eq (show 6 < 64 by decide), rotl_eq (show 8 < 64 by decide), rotl_eq (show 10 < 64 by decide), rotl_eq (show 14 < 64 by decide), rotl_eq (show 15 < 64 by decide), rotl_eq (show 18 < 64 by decide), rotl_eq (show 20 < 64 by decide), rotl_eq (show 21 < 64 by decide), rotl_eq (show 25 < 64 by decide), rotl_eq (show 27 < 64 by decide), rotl_eq (show 28 < 64 by decide), rotl_eq (show 36 < 64 by decide), rotl_eq (show 39 < 64 by decide), rotl_eq (show 41 < 64 by decide), rotl_eq (show 43 < 64 by decide), rotl_eq (show 44 < 64 by decide), rotl_eq (show 45 < 64 by decide), rotl_eq (show 55 < 64 by decide), rotl_eq (show 56 < 64 by decide), rotl_eq (show 61 < 64 by decide), rotl_eq (show 62 < 64 by decide), ← BitVec.toNat_xor, chi_eq]
  simp only [lanes, iota, chi, pi, rho, theta, parity, Fin.isValue, Fin.reduceAdd, Fin.reduceSub, Fin.reduceMul, Fin.reduceEq, and_true, and_false, if_true, if_false, offset_0_0, offset_1_0, offset_2_0, offset_3_0, offset_4_0, offset_0_1, offset_1_1, offset_2_1, offset_3_1, offset_4_1, offset_0_2, offset_1_2, offset_2_2, offset_3_2, offset_4_2, offset_0_3, offset_1_3, offset_2_3, offset_3_3, offset_4_3, offset_0_4, offset_1_4, offset_2_4, offset_3_4, offset_4_4]

theorem rc_drop : ∀ i < 24, keccakRc.drop i = (constant i).toNat :: keccakRc.drop (i + 1) := by decide +kernel

theorem rounds_eq (A : State) : ∀ n i, i + n = 24 → keccakRounds (keccakRc.drop i) (lanes (rounds A i)) = lanes (permute A)
  | 0, i, h => by
    obtain rfl : i = 24 := by omega
    rw [show keccakRc.drop 24 = [] from rfl, permute, lanes, keccakRounds]
    simp
  | n + 1, i, h => by
    rw [rc_drop i (by omega), round_eq]
    exact rounds_eq A n (i + 1) (by omega)

theorem permute_eq (A : State) : keccakRounds keccakRc (lanes A) = lanes (permute A) := rounds_eq A 24 0 rfl

/-! ### Blocks -/

theorem wordsLe_eq (n : Nat) (b : Bytes) : wordsLe n b = (List.range n).map fun k => le ((b.drop (8 * k)).take 8) := by
  induction n generalizing b with
  | zero => rfl
  | succ n ih =>
    rw [wordsLe, force_eq, ih, List.range_succ_eq_map, List.map_cons, Bytes.beNat_eq]
    simp only [List.map_map, Nat.mul_zero, List.drop_zero, le, List.cons.injEq, true_and]
    refine List.map_congr_left fun j _ => ?_
    simp only [Function.comp, List.drop_drop]
    rw [show 8 + 8 * j = 8 * j.succ by omega]

theorem le_take_lt (b : Bytes) : le (b.take 8) < 2 ^ 64 :=
  (Bytes.be_lt _).trans_le (show 256 ^ (b.take 8).reverse.length ≤ 256 ^ 8 from Nat.pow_le_pow_right (by decide) (by simp))

theorem lane_eq (p : Bytes) (i k : Nat) : le (((p.drop (136 * i)).drop (8 * k)).take 8) = (lane p i k).toNat := by
  rw [lane, BitVec.toNat_ofNat, List.drop_drop]
  exact (Nat.mod_eq_of_lt (le_take_lt _)).symm

theorem block_eq (p : Bytes) (i : Nat) (S : State) :
    List.zipWith (· ^^^ ·) (lanes S) (wordsLe 17 (p.drop (136 * i)) ++ List.replicate 8 0) =
      lanes fun x y => S x y ^^^ if x.val + 5 * y.val < 17 then lane p i (x.val + 5 * y.val) else 0 := by
  rw [wordsLe_eq]
  simp only [lane_eq]
  simp only [show List.range 17 = [0, 1, 2, 3, 4, 5, 6, 7, 8, 9, 10, 11, 12, 13, 14, 15, 16] from rfl,
    show List.replicate 8 0 = [0, 0, 0, 0, 0, 0, 0, 0] from rfl, lanes, List.map_cons, List.map_nil, List.cons_append, List.nil_append,
    List.zipWith_cons_cons, List.zipWith_nil_left, BitVec.toNat_xor]
  rfl

theorem absorb_eq (p : Bytes) : ∀ n i, keccakAbsorb n (p.drop (136 * i)) (lanes (absorbed p i)) = lanes (absorbed p (i + n))
  | 0, _ => rfl
  | n + 1, i => by
    rw [keccakAbsorb, block_eq, permute_eq, List.drop_drop, show 136 * i + 136 = 136 * (i + 1) by omega]
    have := absorb_eq p n (i + 1)
    rw [show i + 1 + n = i + (n + 1) by omega] at this
    exact this

/-! ### Padding -/

theorem bits_append (a b : Bytes) : bits (a ++ b) = bits a ++ bits b := List.flatMap_append

theorem bits_length (a : Bytes) : (bits a).length = 8 * a.length := by
  induction a with
  | nil => rfl
  | cons x a ih => rw [bits, List.flatMap_cons, List.length_append, ← bits, ih]; simp; omega

theorem bits_zeros (n : Nat) : bits (List.replicate n 0) = List.replicate (8 * n) false := by
  induction n with
  | zero => rfl
  | succ n ih =>
    rw [List.replicate_succ, bits, List.flatMap_cons, ← bits, ih, show 8 * (n + 1) = 8 + 8 * n by omega, ← List.replicate_append_replicate]
    congr 1

theorem byte_bits : ∀ x y : UInt8, ((List.range 8).map fun i => x.toNat.testBit i) = ((List.range 8).map fun i => y.toNat.testBit i) → x = y := by
  intro x y h
  have h8 : ∀ i < 8, x.toNat.testBit i = y.toNat.testBit i := by
    intro i hi
    have := congrArg (fun l => l[i]?) h
    simpa [hi] using this
  apply UInt8.toNat_inj.mp
  apply Nat.eq_of_testBit_eq
  intro i
  by_cases hi : i < 8
  · exact h8 i hi
  · have hp : 256 ≤ 2 ^ i := show 2 ^ 8 ≤ 2 ^ i from Nat.pow_le_pow_right (by decide) (by omega)
    rw [Nat.testBit_lt_two_pow (x.toNat_lt.trans_le hp), Nat.testBit_lt_two_pow (y.toNat_lt.trans_le hp)]

theorem bits_inj : ∀ {a b : Bytes}, bits a = bits b → a = b
  | [], b, h => by
    have := congrArg List.length h
    rw [bits_length, bits_length] at this
    exact (List.length_eq_zero_iff.mp (by simpa using this.symm)).symm
  | x :: a, [], h => by
    have := congrArg List.length h
    rw [bits_length, bits_length] at this
    simp at this
  | x :: a, y :: b, h => by
    rw [bits, bits, List.flatMap_cons, List.flatMap_cons] at h
    obtain ⟨h1, h2⟩ := List.append_inj h (by simp)
    rw [byte_bits x y h1, bits_inj h2]

theorem pad_bits (m : Bytes) : ∃ z, bits (keccakPad m) = bits m ++ [true] ++ List.replicate z false ++ [true] ∧
    (bits (keccakPad m)).length % 1088 = 0 ∧ z < 1088 := by
  unfold keccakPad
  have hm := Nat.mod_lt m.length (show 0 < 136 by decide)
  by_cases h : 135 - m.length % 136 = 0
  · refine ⟨6, ?_, ?_, by decide⟩
    · simp only [h, if_true, bits_append, List.append_assoc]
      rfl
    · simp only [h, if_true, bits_length, List.length_append, List.length_singleton]
      omega
  · refine ⟨7 + 8 * (135 - m.length % 136 - 1) + 7, ?_, ?_, by omega⟩
    · simp only [h, if_false, bits_append, bits_zeros, List.append_assoc, ← List.replicate_append_replicate]
      rfl
    · simp only [h, if_false, bits_length, List.length_append, List.length_singleton, List.length_replicate]
      omega

theorem padded_iff {m p : Bytes} : Padded m p ↔ p = keccakPad m := by
  constructor
  · rintro ⟨z, hp, hl, hz⟩
    obtain ⟨z', hp', hl', hz'⟩ := pad_bits m
    have e : z = z' := by
      have h1 := congrArg List.length hp
      have h2 := congrArg List.length hp'
      simp only [List.length_append, List.length_replicate, List.length_singleton] at h1 h2
      rw [h1] at hl
      rw [h2] at hl'
      omega
    subst e
    exact bits_inj (hp.trans hp'.symm)
  · rintro rfl
    exact pad_bits m

theorem le_iff {a : Bytes} {x : BitVec 64} : IsLe 8 x.toNat a ↔ a = (Bytes.beBytes 8 x.toNat).reverse := by
  have h := Bytes.isBe_iff (k := 8) (x := x.toNat) x.isLt (b := a.reverse)
  rw [← List.reverse_inj (xs := a), List.reverse_reverse, ← h, Spec.Bip32.IsBe, List.length_reverse, IsLe, le]

theorem isHash_iff {m d : Bytes} : IsHash m d ↔ d = keccak256 m := by
  have hs : keccakAbsorb ((keccakPad m).length / 136) (keccakPad m) (List.replicate 25 0) =
      lanes (absorbed (keccakPad m) ((keccakPad m).length / 136)) := by
    have := absorb_eq (keccakPad m) ((keccakPad m).length / 136) 0
    rw [Nat.mul_zero, List.drop_zero, Nat.zero_add] at this
    exact this
  have hk : keccak256 m = (Bytes.beBytes 8 (absorbed (keccakPad m) ((keccakPad m).length / 136) 0 0).toNat).reverse ++
      (Bytes.beBytes 8 (absorbed (keccakPad m) ((keccakPad m).length / 136) 1 0).toNat).reverse ++
      (Bytes.beBytes 8 (absorbed (keccakPad m) ((keccakPad m).length / 136) 2 0).toNat).reverse ++
      (Bytes.beBytes 8 (absorbed (keccakPad m) ((keccakPad m).length / 136) 3 0).toNat).reverse := by
    rw [keccak256, hs]
    generalize absorbed (keccakPad m) ((keccakPad m).length / 136) = S
    rfl
  rw [hk]
  constructor
  · rintro ⟨p, hp, a, b, c, e, rfl, h1, h2, h3, h4⟩
    rw [padded_iff.mp hp] at h1 h2 h3 h4
    rw [le_iff.mp h1, le_iff.mp h2, le_iff.mp h3, le_iff.mp h4]
  · intro h
    exact ⟨_, padded_iff.mpr rfl, _, _, _, _, h, le_iff.mpr rfl, le_iff.mpr rfl, le_iff.mpr rfl, le_iff.mpr rfl⟩

end KC.Real.Keccak
