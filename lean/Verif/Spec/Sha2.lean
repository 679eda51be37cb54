import Verif.Spec.Bip32
import Mathlib.NumberTheory.PrimeCounting
/-
SHA-256 and SHA-512 in the words of FIPS 180-4: bit vectors, the schedule and the working variables by index, the constants as digits of
roots of primes.
-/
namespace KC.Spec.Sha2
open KC.Spec.Bip32 (be IsBe)

/-- FIPS 180-4, 4.2.2 and 5.3: the first `w` bits of the fractional part of the `e`-th root of `p`. -/
def RootBits (e p w : Nat) (k : BitVec w) : Prop :=
  ∃ c, c ^ e ≤ p * 2 ^ (e * w) ∧ p * 2 ^ (e * w) < (c + 1) ^ e ∧ k = BitVec.ofNat w c

/-- FIPS 180-4, 4.1.2: Ch and Maj. -/
def ch {w : Nat} (x y z : BitVec w) : BitVec w := (x &&& y) ^^^ (~~~x &&& z)
def maj {w : Nat} (x y z : BitVec w) : BitVec w := (x &&& y) ^^^ (x &&& z) ^^^ (y &&& z)

/-- What differs between the two: the number of rounds and the functions Σ₀, Σ₁, σ₀, σ₁. -/
structure Fns (w : Nat) where
  rounds : Nat
  (S0 S1 s0 s1 : BitVec w → BitVec w)

/-- FIPS 180-4, 4.1.2. -/
def fns256 : Fns 32 where
  rounds := 64
  S0 x := x.rotateRight 2 ^^^ x.rotateRight 13 ^^^ x.rotateRight 22
  S1 x := x.rotateRight 6 ^^^ x.rotateRight 11 ^^^ x.rotateRight 25
  s0 x := x.rotateRight 7 ^^^ x.rotateRight 18 ^^^ x >>> 3
  s1 x := x.rotateRight 17 ^^^ x.rotateRight 19 ^^^ x >>> 10

/-- FIPS 180-4, 4.1.3. -/
def fns512 : Fns 64 where
  rounds := 80
  S0 x := x.rotateRight 28 ^^^ x.rotateRight 34 ^^^ x.rotateRight 39
  S1 x := x.rotateRight 14 ^^^ x.rotateRight 18 ^^^ x.rotateRight 41
  s0 x := x.rotateRight 1 ^^^ x.rotateRight 8 ^^^ x >>> 7
  s1 x := x.rotateRight 19 ^^^ x.rotateRight 61 ^^^ x >>> 6

/-- The working variables, and the intermediate hash values. -/
structure Vars (w : Nat) where
  (a b c d e f g h : BitVec w)

/-- FIPS 180-4, 6.2.2 and 6.4.2, step 1: the message schedule. -/
def schedule {w : Nat} (F : Fns w) (M : Nat → BitVec w) (t : Nat) : BitVec w :=
  if t < 16 then M t
  else F.s1 (schedule F M (t - 2)) + schedule F M (t - 7) + F.s0 (schedule F M (t - 15)) + schedule F M (t - 16)

/-- Step 3: the variables after `t` rounds. -/
def vars {w : Nat} (F : Fns w) (K W : Nat → BitVec w) (H : Vars w) : Nat → Vars w
  | 0 => H
  | t + 1 =>
    let v := vars F K W H t
    let T1 := v.h + F.S1 v.e + ch v.e v.f v.g + K t + W t
    let T2 := F.S0 v.a + maj v.a v.b v.c
    ⟨T1 + T2, v.a, v.b, v.c, v.d + T1, v.e, v.f, v.g⟩

/-- Step 4: the next intermediate hash value. -/
def compress {w : Nat} (F : Fns w) (K M : Nat → BitVec w) (H : Vars w) : Vars w :=
  let v := vars F K (schedule F M) H F.rounds
  ⟨v.a + H.a, v.b + H.b, v.c + H.c, v.d + H.d, v.e + H.e, v.f + H.f, v.g + H.g, v.h + H.h⟩

/-- FIPS 180-4, 5.2: word `j` of block `i`; a block has sixteen words. -/
def word (w : Nat) (p : Bytes) (i j : Nat) : BitVec w := BitVec.ofNat w (be ((p.drop ((16 * i + j) * (w / 8))).take (w / 8)))

/-- The intermediate hash value after `i` blocks. -/
def value {w : Nat} (F : Fns w) (K : Nat → BitVec w) (H : Vars w) (p : Bytes) : Nat → Vars w
  | 0 => H
  | i + 1 => compress F K (word w p i) (value F K H p i)

/-- FIPS 180-4, 5.1: a one bit, as few zero bits as possible, and the number of bits in a word of `w / 4` bytes, to whole blocks. -/
def Padded (w : Nat) (m p : Bytes) : Prop :=
  ∃ (z : Nat) (l : Bytes), p = m ++ [0x80] ++ List.replicate z 0 ++ l ∧ IsBe (w / 4) (8 * m.length) l ∧
    p.length % (16 * (w / 8)) = 0 ∧ z < 16 * (w / 8)

/-- The constants, from the first primes. -/
def Constants {w : Nat} (F : Fns w) (K : Nat → BitVec w) (H : Vars w) : Prop :=
  (∀ t < F.rounds, RootBits 3 (Nat.nth Nat.Prime t) w (K t)) ∧
  RootBits 2 2 w H.a ∧ RootBits 2 3 w H.b ∧ RootBits 2 5 w H.c ∧ RootBits 2 7 w H.d ∧
  RootBits 2 11 w H.e ∧ RootBits 2 13 w H.f ∧ RootBits 2 17 w H.g ∧ RootBits 2 19 w H.h

/-- `d` is the hash of `m`: the words of the last value, big-endian. -/
def IsHash {w : Nat} (F : Fns w) (m d : Bytes) : Prop :=
  ∃ K H p, Constants F K H ∧ Padded w m p ∧
    let v := value F K H p (p.length / (16 * (w / 8)))
    ∃ a b c e f g h i : Bytes, d = a ++ b ++ c ++ e ++ f ++ g ++ h ++ i ∧ IsBe (w / 8) v.a.toNat a ∧ IsBe (w / 8) v.b.toNat b ∧
      IsBe (w / 8) v.c.toNat c ∧ IsBe (w / 8) v.d.toNat e ∧ IsBe (w / 8) v.e.toNat f ∧ IsBe (w / 8) v.f.toNat g ∧
      IsBe (w / 8) v.g.toNat h ∧ IsBe (w / 8) v.h.toNat i

end KC.Spec.Sha2
