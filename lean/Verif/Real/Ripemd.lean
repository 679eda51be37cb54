import Verif.Real.Sha2
/-
RIPEMD-160 (Dobbertin, Bosselaers, Preneel 1996).
-/
namespace KC.Real.Ripemd

/-- Rotation to the left of a 32-bit word. -/
def rotl (n x : Nat) : Nat := (x <<< n) % 2 ^ 32 ||| (x >>> (32 - n))

/-- Complement of a 32-bit word. -/
def neg (x : Nat) : Nat := 2 ^ 32 - 1 - x

/-- The five functions. -/
def f : Nat → Nat → Nat → Nat → Nat
  | 0, x, y, z => x ^^^ y ^^^ z
  | 1, x, y, z => (x &&& y) ||| (neg x &&& z)
  | 2, x, y, z => (x ||| neg y) ^^^ z
  | 3, x, y, z => (x &&& z) ||| (y &&& neg z)
  | _, x, y, z => x ^^^ (y ||| neg z)

/-- Five words. -/
structure Five where
  (a b c d e : Nat)

/-- One line: steps given as (function, constant, message word, shift). -/
def line (x : List Nat) : List (Nat × Nat × Nat × Nat) → Nat → Nat → Nat → Nat → Nat → Five
  | [], a, b, c, d, e => ⟨a, b, c, d, e⟩
  | (j, k, r, s) :: l, a, b, c, d, e =>
    force ((a + f j b c d + x.getD r 0 + k) % 2 ^ 32) fun u =>
    force ((rotl s u + e) % 2 ^ 32) fun t =>
    force (rotl 10 c) fun c' =>
    line x l e t b c' d

/-- The left line. -/
def left : List (Nat × Nat × Nat × Nat) :=
  [(0, 0x00000000, 0, 11), (0, 0x00000000, 1, 14), (0, 0x00000000, 2, 15), (0, 0x00000000, 3, 12),
   (0, 0x00000000, 4, 5), (0, 0x00000000, 5, 8), (0, 0x00000000, 6, 7), (0, 0x00000000, 7, 9),
   (0, 0x00000000, 8, 11), (0, 0x00000000, 9, 13), (0, 0x00000000, 10, 14), (0, 0x00000000, 11, 15),
   (0, 0x00000000, 12, 6), (0, 0x00000000, 13, 7), (0, 0x00000000, 14, 9), (0, 0x00000000, 15, 8),
   (1, 0x5a827999, 7, 7), (1, 0x5a827999, 4, 6), (1, 0x5a827999, 13, 8), (1, 0x5a827999, 1, 13),
   (1, 0x5a827999, 10, 11), (1, 0x5a827999, 6, 9), (1, 0x5a827999, 15, 7), (1, 0x5a827999, 3, 15),
   (1, 0x5a827999, 12, 7), (1, 0x5a827999, 0, 12), (1, 0x5a827999, 9, 15), (1, 0x5a827999, 5, 9),
   (1, 0x5a827999, 2, 11), (1, 0x5a827999, 14, 7), (1, 0x5a827999, 11, 13), (1, 0x5a827999, 8, 12),
   (2, 0x6ed9eba1, 3, 11), (2, 0x6ed9eba1, 10, 13), (2, 0x6ed9eba1, 14, 6), (2, 0x6ed9eba1, 4, 7),
   (2, 0x6ed9eba1, 9, 14), (2, 0x6ed9eba1, 15, 9), (2, 0x6ed9eba1, 8, 13), (2, 0x6ed9eba1, 1, 15),
   (2, 0x6ed9eba1, 2, 14), (2, 0x6ed9eba1, 7, 8), (2, 0x6ed9eba1, 0, 13), (2, 0x6ed9eba1, 6, 6),
   (2, 0x6ed9eba1, 13, 5), (2, 0x6ed9eba1, 11, 12), (2, 0x6ed9eba1, 5, 7), (2, 0x6ed9eba1, 12, 5),
   (3, 0x8f1bbcdc, 1, 11), (3, 0x8f1bbcdc, 9, 12), (3, 0x8f1bbcdc, 11, 14), (3, 0x8f1bbcdc, 10, 15),
   (3, 0x8f1bbcdc, 0, 14), (3, 0x8f1bbcdc, 8, 15), (3, 0x8f1bbcdc, 12, 9), (3, 0x8f1bbcdc, 4, 8),
   (3, 0x8f1bbcdc, 13, 9), (3, 0x8f1bbcdc, 3, 14), (3, 0x8f1bbcdc, 7, 5), (3, 0x8f1bbcdc, 15, 6),
   (3, 0x8f1bbcdc, 14, 8), (3, 0x8f1bbcdc, 5, 6), (3, 0x8f1bbcdc, 6, 5), (3, 0x8f1bbcdc, 2, 12),
   (4, 0xa953fd4e, 4, 9), (4, 0xa953fd4e, 0, 15), (4, 0xa953fd4e, 5, 5), (4, 0xa953fd4e, 9, 11),
   (4, 0xa953fd4e, 7, 6), (4, 0xa953fd4e, 12, 8), (4, 0xa953fd4e, 2, 13), (4, 0xa953fd4e, 10, 12),
   (4, 0xa953fd4e, 14, 5), (4, 0xa953fd4e, 1, 12), (4, 0xa953fd4e, 3, 13), (4, 0xa953fd4e, 8, 14),
   (4, 0xa953fd4e, 11, 11), (4, 0xa953fd4e, 6, 8), (4, 0xa953fd4e, 15, 5), (4, 0xa953fd4e, 13, 6)]

/-- The right line. -/
def right : List (Nat × Nat × Nat × Nat) :=
  [(4, 0x50a28be6, 5, 8), (4, 0x50a28be6, 14, 9), (4, 0x50a28be6, 7, 9), (4, 0x50a28be6, 0, 11),
   (4, 0x50a28be6, 9, 13), (4, 0x50a28be6, 2, 15), (4, 0x50a28be6, 11, 15), (4, 0x50a28be6, 4, 5),
   (4, 0x50a28be6, 13, 7), (4, 0x50a28be6, 6, 7), (4, 0x50a28be6, 15, 8), (4, 0x50a28be6, 8, 11),
   (4, 0x50a28be6, 1, 14), (4, 0x50a28be6, 10, 14), (4, 0x50a28be6, 3, 12), (4, 0x50a28be6, 12, 6),
   (3, 0x5c4dd124, 6, 9), (3, 0x5c4dd124, 11, 13), (3, 0x5c4dd124, 3, 15), (3, 0x5c4dd124, 7, 7),
   (3, 0x5c4dd124, 0, 12), (3, 0x5c4dd124, 13, 8), (3, 0x5c4dd124, 5, 9), (3, 0x5c4dd124, 10, 11),
   (3, 0x5c4dd124, 14, 7), (3, 0x5c4dd124, 15, 7), (3, 0x5c4dd124, 8, 12), (3, 0x5c4dd124, 12, 7),
   (3, 0x5c4dd124, 4, 6), (3, 0x5c4dd124, 9, 15), (3, 0x5c4dd124, 1, 13), (3, 0x5c4dd124, 2, 11),
   (2, 0x6d703ef3, 15, 9), (2, 0x6d703ef3, 5, 7), (2, 0x6d703ef3, 1, 15), (2, 0x6d703ef3, 3, 11),
   (2, 0x6d703ef3, 7, 8), (2, 0x6d703ef3, 14, 6), (2, 0x6d703ef3, 6, 6), (2, 0x6d703ef3, 9, 14),
   (2, 0x6d703ef3, 11, 12), (2, 0x6d703ef3, 8, 13), (2, 0x6d703ef3, 12, 5), (2, 0x6d703ef3, 2, 14),
   (2, 0x6d703ef3, 10, 13), (2, 0x6d703ef3, 0, 13), (2, 0x6d703ef3, 4, 7), (2, 0x6d703ef3, 13, 5),
   (1, 0x7a6d76e9, 8, 15), (1, 0x7a6d76e9, 6, 5), (1, 0x7a6d76e9, 4, 8), (1, 0x7a6d76e9, 1, 11),
   (1, 0x7a6d76e9, 3, 14), (1, 0x7a6d76e9, 11, 14), (1, 0x7a6d76e9, 15, 6), (1, 0x7a6d76e9, 0, 14),
   (1, 0x7a6d76e9, 5, 6), (1, 0x7a6d76e9, 12, 9), (1, 0x7a6d76e9, 2, 12), (1, 0x7a6d76e9, 13, 9),
   (1, 0x7a6d76e9, 9, 12), (1, 0x7a6d76e9, 7, 5), (1, 0x7a6d76e9, 10, 15), (1, 0x7a6d76e9, 14, 8),
   (0, 0x00000000, 12, 8), (0, 0x00000000, 15, 5), (0, 0x00000000, 10, 12), (0, 0x00000000, 4, 9),
   (0, 0x00000000, 1, 12), (0, 0x00000000, 5, 5), (0, 0x00000000, 8, 14), (0, 0x00000000, 7, 6),
   (0, 0x00000000, 6, 8), (0, 0x00000000, 2, 13), (0, 0x00000000, 13, 6), (0, 0x00000000, 14, 5),
   (0, 0x00000000, 0, 15), (0, 0x00000000, 3, 13), (0, 0x00000000, 9, 11), (0, 0x00000000, 11, 11)]

/-- The first `n` little-endian words of four bytes. -/
def words : Nat → Bytes → List Nat
  | 0, _ => []
  | n + 1, b => force (Bytes.beNat (b.take 4).reverse) fun x => x :: words n (b.drop 4)

/-- One block. -/
def block (s : Five) (x : List Nat) : Five :=
  let l := line x left s.a s.b s.c s.d s.e
  let r := line x right s.a s.b s.c s.d s.e
  force ((s.b + l.c + r.d) % 2 ^ 32) fun a => force ((s.c + l.d + r.e) % 2 ^ 32) fun b => force ((s.d + l.e + r.a) % 2 ^ 32) fun c =>
  force ((s.e + l.a + r.b) % 2 ^ 32) fun d => force ((s.a + l.b + r.c) % 2 ^ 32) fun e => ⟨a, b, c, d, e⟩

/-- All blocks. -/
def blocks : Nat → Bytes → Five → Five
  | 0, _, s => s
  | n + 1, b, s => blocks n (b.drop 64) (block s (words 16 b))

/-- Padding, as that of MD4. -/
def pad (b : Bytes) : Bytes :=
  b ++ [0x80] ++ List.replicate ((64 + 55 - b.length % 64) % 64) 0 ++ (Bytes.beBytes 8 (8 * b.length)).reverse

/-- RIPEMD-160. -/
def ripemd160 (b : Bytes) : Bytes :=
  let s := blocks ((pad b).length / 64) (pad b) ⟨0x67452301, 0xEFCDAB89, 0x98BADCFE, 0x10325476, 0xC3D2E1F0⟩
  [s.a, s.b, s.c, s.d, s.e].flatMap fun x => (Bytes.beBytes 4 x).reverse

theorem ripemd160_len (b : Bytes) : (ripemd160 b).length = 20 := by
  simp [ripemd160, List.flatMap, Bytes.beBytes_length]

end KC.Real.Ripemd
