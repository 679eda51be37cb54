import Verif.Spec.Ripemd
import Verif.Real.Ripemd
import Verif.Real.Sha2Spec
/-
The evaluable RIPEMD-160 is that of its authors (`Spec/Ripemd.lean`).
-/
namespace KC.Real.Ripemd
open KC.Spec.Ripemd (Vars fn step compress word value Padded IsHash Constants IsRoot rhos pi shift initial)
open KC.Spec.Le (le IsLe)

/-- The words of five bit vectors. -/
def five (v : Vars) : Five := ⟨v.a.toNat, v.b.toNat, v.c.toNat, v.d.toNat, v.e.toNat⟩

theorem rotl_eq {n : Nat} (h : n < 32) (x : BitVec 32) : rotl n x.toNat = (x.rotateLeft n).toNat := by
  rw [BitVec.toNat_rotateLeft, rotl, Nat.mod_eq_of_lt h]

theorem neg_eq (x : BitVec 32) : neg x.toNat = (~~~x).toNat := (BitVec.toNat_not).symm

theorem f_eq (j : Nat) (x y z : BitVec 32) : f j x.toNat y.toNat z.toNat = (fn j x y z).toNat := by
  rcases j with _ | _ | _ | _ | j <;> simp [f, fn, neg_eq]

/-- The constants of the left line. -/
def kl (j : Nat) : BitVec 32 := BitVec.ofNat 32 ([0, 0x5a827999, 0x6ed9eba1, 0x8f1bbcdc, 0xa953fd4e].getD j 0)

/-- The constants of the right line. -/
def kr (j : Nat) : BitVec 32 := BitVec.ofNat 32 ([0x50a28be6, 0x5c4dd124, 0x6d703ef3, 0x7a6d76e9, 0].getD j 0)

theorem constants : Constants kl kr := by
  simp only [Constants, IsRoot]
  decide +kernel

theorem isRoot_unique {e p : Nat} {k k' : BitVec 32} (h : IsRoot e p k) (h' : IsRoot e p k') : k = k' := by
  have a : k.toNat < k'.toNat + 1 := lt_of_pow_lt_pow_left₀ e (Nat.zero_le _) (h.1.trans_lt h'.2)
  have b : k'.toNat < k.toNat + 1 := lt_of_pow_lt_pow_left₀ e (Nat.zero_le _) (h'.1.trans_lt h.2)
  exact BitVec.eq_of_toNat_eq (by omega)

theorem constants_unique {K K' : Nat → BitVec 32} (h : Constants K K') : (∀ j < 5, K j = kl j) ∧ (∀ j < 5, K' j = kr j) := by
  obtain ⟨h0, h1, h2, h3, h4, h5, h6, h7, h8, h9⟩ := h
  obtain ⟨g0, g1, g2, g3, g4, g5, g6, g7, g8, g9⟩ := constants
  constructor
  · intro j hj
    rcases j with _ | _ | _ | _ | _ | j
    · exact h0.trans g0.symm
    · exact isRoot_unique h1 g1
    · exact isRoot_unique h2 g2
    · exact isRoot_unique h3 g3
    · exact isRoot_unique h4 g4
    · omega
  · intro j hj
    rcases j with _ | _ | _ | _ | _ | j
    · exact isRoot_unique h5 g5
    · exact isRoot_unique h6 g6
    · exact isRoot_unique h7 g7
    · exact isRoot_unique h8 g8
    · exact h9.trans g9.symm
    · omega

theorem left_drop : ∀ t < 80, left.drop t =
    (t / 16, (kl (t / 16)).toNat, rhos (t / 16) (t % 16), shift (t / 16) (rhos (t / 16) (t % 16))) :: left.drop (t + 1) := by
  decide +kernel

theorem right_drop : ∀ t < 80, right.drop t =
    (4 - t / 16, (kr (t / 16)).toNat, rhos (t / 16) (pi (t % 16)), shift (t / 16) (rhos (t / 16) (pi (t % 16)))) :: right.drop (t + 1) := by
  decide +kernel

theorem bounds : ∀ t < 80, rhos (t / 16) (t % 16) < 16 ∧ shift (t / 16) (rhos (t / 16) (t % 16)) < 32 ∧
    rhos (t / 16) (pi (t % 16)) < 16 ∧ shift (t / 16) (rhos (t / 16) (pi (t % 16))) < 32 := by
  decide +kernel

/-- The words of a block as numbers. -/
def nums (X : Nat → BitVec 32) : List Nat := (List.range 16).map fun j => (X j).toNat

theorem nums_getD (X : Nat → BitVec 32) {r : Nat} (h : r < 16) : (nums X).getD r 0 = (X r).toNat := by
  simp [nums, h]

theorem step_eq (X : Nat → BitVec 32) (j r s : Nat) (k : BitVec 32) (l : List (Nat × Nat × Nat × Nat)) (v : Vars) (hr : r < 16) (hs : s < 32) :
    line (nums X) ((j, k.toNat, r, s) :: l) v.a.toNat v.b.toNat v.c.toNat v.d.toNat v.e.toNat =
      line (nums X) l (step (fn j) (X r) k s v).a.toNat (step (fn j) (X r) k s v).b.toNat (step (fn j) (X r) k s v).c.toNat
        (step (fn j) (X r) k s v).d.toNat (step (fn j) (X r) k s v).e.toNat := by
  have h1 : (v.a.toNat + f j v.b.toNat v.c.toNat v.d.toNat + (nums X).getD r 0 + k.toNat) % 2 ^ 32 =
      (v.a + fn j v.b v.c v.d + X r + k).toNat := by
    rw [f_eq, nums_getD X hr]
    simp only [BitVec.toNat_add, Nat.mod_add_mod]
  rw [line, force_eq, force_eq, force_eq, h1, rotl_eq hs, rotl_eq (by decide)]
  rw [← BitVec.toNat_add]
  rfl

theorem left_eq (X : Nat → BitVec 32) (v : Vars) : ∀ n t, t + n = 80 →
    line (nums X) (left.drop t) (Spec.Ripemd.left kl X v t).a.toNat (Spec.Ripemd.left kl X v t).b.toNat (Spec.Ripemd.left kl X v t).c.toNat
      (Spec.Ripemd.left kl X v t).d.toNat (Spec.Ripemd.left kl X v t).e.toNat = five (Spec.Ripemd.left kl X v 80)
  | 0, t, h => by
    obtain rfl : t = 80 := by omega
    generalize Spec.Ripemd.left kl X v 80 = u
    rfl
  | n + 1, t, h => by
    obtain ⟨b1, b2, -, -⟩ := bounds t (by omega)
    rw [left_drop t (by omega), step_eq X _ _ _ _ _ _ b1 b2]
    exact left_eq X v n (t + 1) (by omega)

theorem right_eq (X : Nat → BitVec 32) (v : Vars) : ∀ n t, t + n = 80 →
    line (nums X) (right.drop t) (Spec.Ripemd.right kr X v t).a.toNat (Spec.Ripemd.right kr X v t).b.toNat
      (Spec.Ripemd.right kr X v t).c.toNat (Spec.Ripemd.right kr X v t).d.toNat (Spec.Ripemd.right kr X v t).e.toNat =
        five (Spec.Ripemd.right kr X v 80)
  | 0, t, h => by
    obtain rfl : t = 80 := by omega
    generalize Spec.Ripemd.right kr X v 80 = u
    rfl
  | n + 1, t, h => by
    obtain ⟨-, -, b1, b2⟩ := bounds t (by omega)
    rw [right_drop t (by omega), step_eq X _ _ _ _ _ _ b1 b2]
    exact right_eq X v n (t + 1) (by omega)

theorem add3 {w : Nat} (x y z : BitVec w) : (x + y + z).toNat = (x.toNat + y.toNat + z.toNat) % 2 ^ w := by
  rw [BitVec.toNat_add, BitVec.toNat_add, Nat.mod_add_mod]

theorem five_add (v a b : Vars) : five ⟨v.b + a.c + b.d, v.c + a.d + b.e, v.d + a.e + b.a, v.e + a.a + b.b, v.a + a.b + b.c⟩ =
    ⟨(v.b.toNat + (five a).c + (five b).d) % 2 ^ 32, (v.c.toNat + (five a).d + (five b).e) % 2 ^ 32,
     (v.d.toNat + (five a).e + (five b).a) % 2 ^ 32, (v.e.toNat + (five a).a + (five b).b) % 2 ^ 32,
     (v.a.toNat + (five a).b + (five b).c) % 2 ^ 32⟩ := by
  rw [five, add3, add3, add3, add3, add3, five, five]

theorem force5 (a b c d e : Nat) :
    (force a fun a => force b fun b => force c fun c => force d fun d => force e fun e => Five.mk a b c d e) = ⟨a, b, c, d, e⟩ := by
  rw [force_eq, force_eq, force_eq, force_eq, force_eq]

theorem block_eq (X : Nat → BitVec 32) (v : Vars) : block (five v) (nums X) = five (compress kl kr X v) := by
  have hl : line (nums X) left v.a.toNat v.b.toNat v.c.toNat v.d.toNat v.e.toNat = _ := left_eq X v 80 0 rfl
  have hr : line (nums X) right v.a.toNat v.b.toNat v.c.toNat v.d.toNat v.e.toNat = _ := right_eq X v 80 0 rfl
  have h5 : (five v).a = v.a.toNat ∧ (five v).b = v.b.toNat ∧ (five v).c = v.c.toNat ∧ (five v).d = v.d.toNat ∧ (five v).e = v.e.toNat :=
    ⟨rfl, rfl, rfl, rfl, rfl⟩
  obtain ⟨e1, e2, e3, e4, e5⟩ := h5
  rw [block, e1, e2, e3, e4, e5, hl, hr, compress]
  generalize Spec.Ripemd.left kl X v 80 = a
  generalize Spec.Ripemd.right kr X v 80 = b
  rw [force5, five_add]

theorem words_eq (n : Nat) (b : Bytes) : words n b = (List.range n).map fun k => le ((b.drop (4 * k)).take 4) := by
  induction n generalizing b with
  | zero => rfl
  | succ n ih =>
    rw [words, force_eq, ih, List.range_succ_eq_map, List.map_cons, Bytes.beNat_eq]
    simp only [List.map_map, Nat.mul_zero, List.drop_zero, le, List.cons.injEq, true_and]
    refine List.map_congr_left fun j _ => ?_
    simp only [Function.comp, List.drop_drop]
    rw [show 4 + 4 * j = 4 * j.succ by omega]

theorem le_take_lt (b : Bytes) : le (b.take 4) < 2 ^ 32 :=
  (Bytes.be_lt _).trans_le (show 256 ^ (b.take 4).reverse.length ≤ 256 ^ 4 from Nat.pow_le_pow_right (by decide) (by simp))

theorem words_nums (p : Bytes) (i : Nat) : words 16 (p.drop (64 * i)) = nums (word p i) := by
  rw [words_eq, nums]
  refine List.map_congr_left fun j _ => ?_
  rw [word, BitVec.toNat_ofNat, List.drop_drop]
  exact (Nat.mod_eq_of_lt (le_take_lt _)).symm

theorem left_congr {K K' X : Nat → BitVec 32} (h : ∀ j < 5, K j = K' j) (v : Vars) :
    ∀ t ≤ 80, Spec.Ripemd.left K X v t = Spec.Ripemd.left K' X v t
  | 0, _ => rfl
  | t + 1, ht => by rw [Spec.Ripemd.left, Spec.Ripemd.left, left_congr h v t (by omega), h (t / 16) (by omega)]

theorem right_congr {K K' X : Nat → BitVec 32} (h : ∀ j < 5, K j = K' j) (v : Vars) :
    ∀ t ≤ 80, Spec.Ripemd.right K X v t = Spec.Ripemd.right K' X v t
  | 0, _ => rfl
  | t + 1, ht => by rw [Spec.Ripemd.right, Spec.Ripemd.right, right_congr h v t (by omega), h (t / 16) (by omega)]

theorem compress_congr {K K' X : Nat → BitVec 32} (h : ∀ j < 5, K j = kl j) (h' : ∀ j < 5, K' j = kr j) (v : Vars) :
    compress K K' X v = compress kl kr X v := by
  rw [compress, compress, left_congr h _ 80 (by decide), right_congr h' _ 80 (by decide)]

theorem initial_eq : five initial = ⟨0x67452301, 0xEFCDAB89, 0x98BADCFE, 0x10325476, 0xC3D2E1F0⟩ := rfl

attribute [local irreducible] Spec.Ripemd.compress block five

theorem value_succ (K K' : Nat → BitVec 32) (p : Bytes) (i : Nat) :
    value K K' p (i + 1) = compress K K' (word p i) (value K K' p i) := by rw [value]

theorem blocks_succ (n : Nat) (p : Bytes) (s : Five) : blocks (n + 1) p s = blocks n (p.drop 64) (block s (words 16 p)) := by
  delta blocks
  delta blocks._f
  generalize block = f
  rfl

theorem blocks_zero (p : Bytes) (s : Five) : blocks 0 p s = s := by
  delta blocks
  delta blocks._f
  generalize block = f
  rfl

theorem blocks_eq (p : Bytes) (n : Nat) : ∀ i, blocks n (p.drop (64 * i)) (five (value kl kr p i)) = five (value kl kr p (i + n)) := by
  induction n with
  | zero => intro i; rw [blocks_zero, Nat.add_zero]
  | succ n ih =>
    intro i
    rw [blocks_succ, words_nums, block_eq, ← value_succ, List.drop_drop, show 64 * i + 64 = 64 * (i + 1) by omega, ih (i + 1),
      show i + 1 + n = i + (n + 1) by omega]

theorem value_congr {K K' : Nat → BitVec 32} (h : ∀ j < 5, K j = kl j) (h' : ∀ j < 5, K' j = kr j) (p : Bytes) (i : Nat) :
    value K K' p i = value kl kr p i := by
  induction i with
  | zero => rfl
  | succ i ih => rw [value, value, ih, compress_congr h h']

theorem isLe_iff {k x : Nat} (h : x < 256 ^ k) {b : Bytes} : IsLe k x b ↔ b = (Bytes.beBytes k x).reverse := by
  have h := Bytes.isBe_iff h (b := b.reverse)
  rw [← List.reverse_inj (xs := b), List.reverse_reverse, ← h, Spec.Bip32.IsBe, List.length_reverse, IsLe, le]

theorem pad_padded {m : Bytes} (h : 8 * m.length < 2 ^ 64) : Padded m (pad m) := by
  refine ⟨_, _, rfl, (isLe_iff h).mpr rfl, ?_, Nat.mod_lt _ (by decide)⟩
  simp only [pad, List.length_append, List.length_replicate, List.length_reverse, Bytes.beBytes_length, List.length_singleton]
  omega

theorem padded_unique {m p : Bytes} (h : Padded m p) : p = pad m := by
  obtain ⟨z, l, rfl, hl, hp, hz⟩ := h
  have hlt : 8 * m.length < 256 ^ 8 := by
    have := Bytes.be_lt l.reverse
    rw [List.length_reverse, hl.1] at this
    have e : Spec.Bip32.be l.reverse = 8 * m.length := hl.2
    rwa [e] at this
  have hl' := (isLe_iff hlt).mp hl
  have hlen : l.length = 8 := hl.1
  simp only [List.length_append, List.length_replicate, List.length_singleton, hlen] at hp
  have := Sha2.pad_unique (m := m) (B := 64) (L := 8) (z := z) (by decide) hp hz
  rw [pad, ← this, hl']

theorem isHash_iff {m d : Bytes} (h : 8 * m.length < 2 ^ 64) : IsHash m d ↔ d = ripemd160 m := by
  have hb : ∀ p : Bytes, blocks (p.length / 64) p ⟨0x67452301, 0xEFCDAB89, 0x98BADCFE, 0x10325476, 0xC3D2E1F0⟩ =
      five (value kl kr p (p.length / 64)) := by
    intro p
    have := blocks_eq p (p.length / 64) 0
    rw [Nat.mul_zero, List.drop_zero, Nat.zero_add, value, initial_eq] at this
    exact this
  have hlt : ∀ x : BitVec 32, x.toNat < 256 ^ 4 := fun x => x.isLt
  constructor
  · rintro ⟨K, K', p, hc, hp, hd⟩
    obtain ⟨hK, hK'⟩ := constants_unique hc
    rw [padded_unique hp, value_congr hK hK'] at hd
    obtain ⟨a, b, c, e, f, rfl, h1, h2, h3, h4, h5⟩ := hd
    rw [ripemd160, hb]
    rw [(isLe_iff (hlt _)).mp h1, (isLe_iff (hlt _)).mp h2, (isLe_iff (hlt _)).mp h3, (isLe_iff (hlt _)).mp h4, (isLe_iff (hlt _)).mp h5]
    simp only [five, List.flatMap_cons, List.flatMap_nil, List.append_nil, List.append_assoc]
  · rintro rfl
    refine ⟨kl, kr, pad m, constants, pad_padded h, _, _, _, _, _, ?_, (isLe_iff (hlt _)).mpr rfl, (isLe_iff (hlt _)).mpr rfl,
      (isLe_iff (hlt _)).mpr rfl, (isLe_iff (hlt _)).mpr rfl, (isLe_iff (hlt _)).mpr rfl⟩
    rw [ripemd160, hb]
    simp only [five, List.flatMap_cons, List.flatMap_nil, List.append_nil, List.append_assoc]

end KC.Real.Ripemd
