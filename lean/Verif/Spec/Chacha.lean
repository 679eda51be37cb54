import Verif.Spec.Le
import Mathlib.Algebra.BigOperators.Group.Finset.Basic
/-
ChaCha20-Poly1305 in the words of RFC 8439, with empty associated data; section numbers below.
-/
namespace KC.Spec.Chacha
open KC.Spec.Le (le IsLe)

/-- 2.3: the state: sixteen words. -/
abbrev State : Type := Fin 16 → BitVec 32

/-- 2.1: the quarter round on four words. -/
def quarter (a b c d : BitVec 32) : BitVec 32 × BitVec 32 × BitVec 32 × BitVec 32 :=
  let a := a + b
  let d := (d ^^^ a).rotateLeft 16
  let c := c + d
  let b := (b ^^^ c).rotateLeft 12
  let a := a + b
  let d := (d ^^^ a).rotateLeft 8
  let c := c + d
  let b := (b ^^^ c).rotateLeft 7
  (a, b, c, d)

/-- 2.2: the quarter round on the state. -/
def QUARTERROUND (x y z w : Fin 16) (s : State) : State :=
  let q := quarter (s x) (s y) (s z) (s w)
  fun i => if i = x then q.1 else if i = y then q.2.1 else if i = z then q.2.2.1 else if i = w then q.2.2.2 else s i

/-- 2.3.1: `inner_block`. -/
def inner (s : State) : State :=
  let s := QUARTERROUND 0 4 8 12 s
  let s := QUARTERROUND 1 5 9 13 s
  let s := QUARTERROUND 2 6 10 14 s
  let s := QUARTERROUND 3 7 11 15 s
  let s := QUARTERROUND 0 5 10 15 s
  let s := QUARTERROUND 1 6 11 12 s
  let s := QUARTERROUND 2 7 8 13 s
  QUARTERROUND 3 4 9 14 s

/-- The state after `n` double rounds. -/
def inners (s : State) : Nat → State
  | 0 => s
  | n + 1 => inner (inners s n)

/-- Word `i` of bytes, the least significant byte first. -/
def word (b : Bytes) (i : Nat) : BitVec 32 := BitVec.ofNat 32 (le ((b.drop (4 * i)).take 4))

/-- 2.3: constants, key, block counter, nonce. -/
def start (key nonce : Bytes) (counter : Nat) : State := fun i =>
  if i.val < 4 then word ("expand 32-byte k".toList.map fun c => UInt8.ofNat c.toNat) i.val
  else if i.val < 12 then word key (i.val - 4)
  else if i.val = 12 then BitVec.ofNat 32 counter
  else word nonce (i.val - 13)

/-- 2.3: the words of a block of key stream: twenty rounds, and the start added. -/
def block (key nonce : Bytes) (counter : Nat) : State := fun i =>
  start key nonce counter i + inners (start key nonce counter) 10 i

/-- Byte `k` of the words, the least significant of each word first. -/
def byte (s : State) (k : Nat) : UInt8 := UInt8.ofNat ((s (Fin.ofNat 16 (k / 4))).toNat / 256 ^ (k % 4))

/-- 2.4: `c` is `m` encrypted: byte `i` combined with byte `i mod 64` of block `1 + i / 64`. -/
def IsCrypt (key nonce m c : Bytes) : Prop :=
  c.length = m.length ∧ ∀ i < m.length, c.getD i 0 = m.getD i 0 ^^^ byte (block key nonce (1 + i / 64)) (i % 64)

/-- 2.5: in a clamped `r` the top four bits of bytes 3, 7, 11, 15 are clear, and the bottom two bits of bytes 4, 8, 12. -/
def cleared (i : Nat) : Bool :=
  ((i / 8 == 3 || i / 8 == 7 || i / 8 == 11 || i / 8 == 15) && decide (4 ≤ i % 8)) ||
    ((i / 8 == 4 || i / 8 == 8 || i / 8 == 12) && decide (i % 8 < 2))

/-- 2.5: `r` is the clamped form of the number `k`. -/
def IsClamped (k r : Nat) : Prop := r < 2 ^ 128 ∧ ∀ i < 128, r.testBit i = (k.testBit i && !cleared i)

/-- 2.5: the number of block `i` of a message: its bytes and a one after them. -/
def number (m : Bytes) (i : Nat) : Nat := le ((m.drop (16 * i)).take 16) + 256 ^ ((m.drop (16 * i)).take 16).length

/-- 2.5: `t` is the tag of `m` under the one-time key `k`: a polynomial in `r` modulo 2¹³⁰ - 5, plus `s`, modulo 2¹²⁸. -/
def IsPoly1305 (k m t : Bytes) : Prop :=
  ∃ r q : Nat, IsClamped (le (k.take 16)) r ∧ 16 * q < m.length + 16 ∧ m.length ≤ 16 * q ∧
    IsLe 16 (((∑ i ∈ Finset.range q, number m i * r ^ (q - i)) % (2 ^ 130 - 5) + le ((k.drop 16).take 16)) % 2 ^ 128) t

/-- 2.6: the one-time key: the first 32 bytes of block 0. -/
def IsOneTimeKey (key nonce k : Bytes) : Prop := k.length = 32 ∧ ∀ i < 32, k.getD i 0 = byte (block key nonce 0) i

/-- 2.8: `t` is the tag of the ciphertext `c` without associated data: `c` filled up with zeros to whole blocks of sixteen bytes, then
the lengths 0 and that of `c`. -/
def IsTag (key nonce c t : Bytes) : Prop :=
  ∃ (k l : Bytes) (z : Nat), IsOneTimeKey key nonce k ∧ IsLe 8 c.length l ∧ z < 16 ∧ (c.length + z) % 16 = 0 ∧
    IsPoly1305 k (c ++ List.replicate z 0 ++ List.replicate 8 0 ++ l) t

end KC.Spec.Chacha
