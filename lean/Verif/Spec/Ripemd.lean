import Verif.Spec.Le
/-
RIPEMD-160 in the words of its authors (Dobbertin, Bosselaers, Preneel: RIPEMD-160, a strengthened version of RIPEMD): the order of the
message words by two permutations, the shifts by round and word, the constants as digits of roots.
-/
namespace KC.Spec.Ripemd
open KC.Spec.Le (le IsLe)

/-- The permutation ρ. -/
def rho (i : Nat) : Nat := [7, 4, 13, 1, 10, 6, 15, 3, 12, 0, 9, 5, 2, 14, 11, 8].getD i 0

/-- The permutation π. -/
def pi (i : Nat) : Nat := (9 * i + 5) % 16

/-- ρ applied `j` times. -/
def rhos : Nat → Nat → Nat
  | 0, i => i
  | j + 1, i => rho (rhos j i)

/-- The shift of word `r` in round `j`. -/
def shift (j r : Nat) : Nat :=
  ([[11, 14, 15, 12, 5, 8, 7, 9, 11, 13, 14, 15, 6, 7, 9, 8],
    [12, 13, 11, 15, 6, 9, 9, 7, 12, 15, 11, 13, 7, 8, 7, 7],
    [13, 15, 14, 11, 7, 7, 6, 8, 13, 14, 13, 12, 5, 5, 6, 9],
    [14, 11, 12, 14, 8, 6, 5, 5, 15, 12, 15, 14, 9, 9, 8, 6],
    [15, 12, 13, 13, 9, 5, 8, 6, 14, 11, 12, 11, 8, 6, 5, 5]].getD j []).getD r 0

/-- The Boolean function of a round. -/
def fn (j : Nat) (x y z : BitVec 32) : BitVec 32 :=
  if j = 0 then x ^^^ y ^^^ z
  else if j = 1 then (x &&& y) ||| (~~~x &&& z)
  else if j = 2 then (x ||| ~~~y) ^^^ z
  else if j = 3 then (x &&& z) ||| (y &&& ~~~z)
  else x ^^^ (y ||| ~~~z)

/-- `k` is the whole part of 2³⁰ times the `e`-th root of `p`. -/
def IsRoot (e p : Nat) (k : BitVec 32) : Prop := k.toNat ^ e ≤ p * 2 ^ (30 * e) ∧ p * 2 ^ (30 * e) < (k.toNat + 1) ^ e

/-- The constants of the two lines. -/
def Constants (K K' : Nat → BitVec 32) : Prop :=
  K 0 = 0 ∧ IsRoot 2 2 (K 1) ∧ IsRoot 2 3 (K 2) ∧ IsRoot 2 5 (K 3) ∧ IsRoot 2 7 (K 4) ∧
  IsRoot 3 2 (K' 0) ∧ IsRoot 3 3 (K' 1) ∧ IsRoot 3 5 (K' 2) ∧ IsRoot 3 7 (K' 3) ∧ K' 4 = 0

/-- The chaining variables. -/
structure Vars where
  (a b c d e : BitVec 32)

/-- One step: the function, the message word, the constant and the shift. -/
def step (f : BitVec 32 → BitVec 32 → BitVec 32 → BitVec 32) (x k : BitVec 32) (s : Nat) (v : Vars) : Vars :=
  ⟨v.e, (v.a + f v.b v.c v.d + x + k).rotateLeft s + v.e, v.b, v.c.rotateLeft 10, v.d⟩

/-- The left line after `t` steps: in round `j`, step `i`, the word ρʲ(i). -/
def left (K X : Nat → BitVec 32) (v : Vars) : Nat → Vars
  | 0 => v
  | t + 1 => step (fn (t / 16)) (X (rhos (t / 16) (t % 16))) (K (t / 16)) (shift (t / 16) (rhos (t / 16) (t % 16))) (left K X v t)

/-- The right line after `t` steps: the functions in the other order, the word ρʲ(π(i)). -/
def right (K X : Nat → BitVec 32) (v : Vars) : Nat → Vars
  | 0 => v
  | t + 1 =>
    step (fn (4 - t / 16)) (X (rhos (t / 16) (pi (t % 16)))) (K (t / 16)) (shift (t / 16) (rhos (t / 16) (pi (t % 16)))) (right K X v t)

/-- One block. -/
def compress (K K' X : Nat → BitVec 32) (h : Vars) : Vars :=
  let l := left K X h 80
  let r := right K' X h 80
  ⟨h.b + l.c + r.d, h.c + l.d + r.e, h.d + l.e + r.a, h.e + l.a + r.b, h.a + l.b + r.c⟩

/-- Word `j` of block `i`. -/
def word (p : Bytes) (i j : Nat) : BitVec 32 := BitVec.ofNat 32 (le ((p.drop (64 * i + 4 * j)).take 4))

/-- The initial value. -/
def initial : Vars := ⟨0x67452301, 0xEFCDAB89, 0x98BADCFE, 0x10325476, 0xC3D2E1F0⟩

/-- The value after `i` blocks. -/
def value (K K' : Nat → BitVec 32) (p : Bytes) : Nat → Vars
  | 0 => initial
  | i + 1 => compress K K' (word p i) (value K K' p i)

/-- Padding as in MD4: a one bit, as few zero bits as possible, the number of bits in eight bytes, to whole blocks of 64 bytes. -/
def Padded (m p : Bytes) : Prop :=
  ∃ (z : Nat) (l : Bytes), p = m ++ [0x80] ++ List.replicate z 0 ++ l ∧ IsLe 8 (8 * m.length) l ∧ p.length % 64 = 0 ∧ z < 64

/-- `d` is the hash of `m`. -/
def IsHash (m d : Bytes) : Prop :=
  ∃ K K' p, Constants K K' ∧ Padded m p ∧
    let v := value K K' p (p.length / 64)
    ∃ a b c e f : Bytes, d = a ++ b ++ c ++ e ++ f ∧ IsLe 4 v.a.toNat a ∧ IsLe 4 v.b.toNat b ∧ IsLe 4 v.c.toNat c ∧ IsLe 4 v.d.toNat e ∧
      IsLe 4 v.e.toNat f

end KC.Spec.Ripemd
