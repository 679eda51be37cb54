import Verif.Model.Prims
import Verif.Model.Bytes
import Verif.Proofs.Secp
/-
SHA-256 and SHA-512 as in FIPS 180-4, written over `Nat` so that the kernel can evaluate them.
-/
namespace KC.Real

/-- Evaluate a number before going on (for the kernel's evaluation only; it is `f n`). -/
def force {α : Type} (n : Nat) (f : Nat → α) : α :=
  match n with
  | 0 => f 0
  | m + 1 => f (m + 1)

theorem force_eq {α : Type} (n : Nat) (f : Nat → α) : force n f = f n := by cases n <;> rfl

/-- Rotation to the right of a word of `w` bits. -/
def rotr (w n x : Nat) : Nat := (x >>> n) ||| ((x <<< (w - n)) % 2 ^ w)

/-- Eight words. -/
structure Eight where
  (a b c d e f g h : Nat)
deriving DecidableEq

def Eight.toList (s : Eight) : List Nat := [s.a, s.b, s.c, s.d, s.e, s.f, s.g, s.h]

/-- Sum, word by word. -/
def Eight.sum (m : Nat) (s r : Eight) : Eight :=
  force ((s.a + r.a) % m) fun a => force ((s.b + r.b) % m) fun b => force ((s.c + r.c) % m) fun c => force ((s.d + r.d) % m) fun d =>
  force ((s.e + r.e) % m) fun e => force ((s.f + r.f) % m) fun f => force ((s.g + r.g) % m) fun g => force ((s.h + r.h) % m) fun h =>
  ⟨a, b, c, d, e, f, g, h⟩

/-- The first `n` big-endian words of `w` bytes. -/
def words (w : Nat) : Nat → Bytes → List Nat
  | 0, _ => []
  | n + 1, b => force (Bytes.beNat (b.take w)) fun x => x :: words w n (b.drop w)

/-- FIPS 180-4, section 4.2: the constants. -/
def k256 : List Nat :=
  [0x428a2f98, 0x71374491, 0xb5c0fbcf, 0xe9b5dba5, 0x3956c25b, 0x59f111f1, 0x923f82a4, 0xab1c5ed5,
   0xd807aa98, 0x12835b01, 0x243185be, 0x550c7dc3, 0x72be5d74, 0x80deb1fe, 0x9bdc06a7, 0xc19bf174,
   0xe49b69c1, 0xefbe4786, 0x0fc19dc6, 0x240ca1cc, 0x2de92c6f, 0x4a7484aa, 0x5cb0a9dc, 0x76f988da,
   0x983e5152, 0xa831c66d, 0xb00327c8, 0xbf597fc7, 0xc6e00bf3, 0xd5a79147, 0x06ca6351, 0x14292967,
   0x27b70a85, 0x2e1b2138, 0x4d2c6dfc, 0x53380d13, 0x650a7354, 0x766a0abb, 0x81c2c92e, 0x92722c85,
   0xa2bfe8a1, 0xa81a664b, 0xc24b8b70, 0xc76c51a3, 0xd192e819, 0xd6990624, 0xf40e3585, 0x106aa070,
   0x19a4c116, 0x1e376c08, 0x2748774c, 0x34b0bcb5, 0x391c0cb3, 0x4ed8aa4a, 0x5b9cca4f, 0x682e6ff3,
   0x748f82ee, 0x78a5636f, 0x84c87814, 0x8cc70208, 0x90befffa, 0xa4506ceb, 0xbef9a3f7, 0xc67178f2]

/-- FIPS 180-4, section 5.3: the initial value. -/
def iv256 : Eight :=
  ⟨0x6a09e667, 0xbb67ae85, 0x3c6ef372, 0xa54ff53a, 0x510e527f, 0x9b05688c, 0x1f83d9ab, 0x5be0cd19⟩

/-- FIPS 180-4, section 6: the rounds, one per constant, with the next sixteen words of the schedule and the working variables. -/
def rounds256 : List Nat → Nat → Nat → Nat → Nat → Nat → Nat → Nat → Nat → Nat → Nat → Nat → Nat → Nat → Nat → Nat → Nat →
    Nat → Nat → Nat → Nat → Nat → Nat → Nat → Nat → Eight
  | [], _, _, _, _, _, _, _, _, _, _, _, _, _, _, _, _, a, b, c, d, e, f, g, h => ⟨a, b, c, d, e, f, g, h⟩
  | k :: ks, w0, w1, w2, w3, w4, w5, w6, w7, w8, w9, w10, w11, w12, w13, w14, w15, a, b, c, d, e, f, g, h =>
    let ch := (e &&& f) ^^^ ((2 ^ 32 - 1 - e) &&& g)
    let s1 := rotr 32 6 e ^^^ rotr 32 11 e ^^^ rotr 32 25 e
    let maj := (a &&& b) ^^^ (a &&& c) ^^^ (b &&& c)
    let s0 := rotr 32 2 a ^^^ rotr 32 13 a ^^^ rotr 32 22 a
    let e0 := rotr 32 7 w1 ^^^ rotr 32 18 w1 ^^^ (w1 >>> 3)
    let e1 := rotr 32 17 w14 ^^^ rotr 32 19 w14 ^^^ (w14 >>> 10)
    force ((e1 + w9 + e0 + w0) % 2 ^ 32) fun w16 =>
    force (h + s1 + ch + k + w0) fun t1 =>
    force ((d + t1) % 2 ^ 32) fun e' =>
    force ((t1 + s0 + maj) % 2 ^ 32) fun a' =>
    rounds256 ks w1 w2 w3 w4 w5 w6 w7 w8 w9 w10 w11 w12 w13 w14 w15 w16 a' a b c e' e f g

/-- FIPS 180-4, section 6: one block of sixteen words. -/
def block256 (s : Eight) : List Nat → Eight
  | [w0, w1, w2, w3, w4, w5, w6, w7, w8, w9, w10, w11, w12, w13, w14, w15] =>
    let r := rounds256 k256 w0 w1 w2 w3 w4 w5 w6 w7 w8 w9 w10 w11 w12 w13 w14 w15 s.a s.b s.c s.d s.e s.f s.g s.h
    Eight.sum (2 ^ 32) s r
  | _ => s

/-- All blocks. -/
def blocks256 : Nat → Bytes → Eight → Eight
  | 0, _, s => s
  | n + 1, b, s => blocks256 n (b.drop 64) (block256 s (words 4 16 b))

/-- FIPS 180-4, section 5.1: padding. -/
def pad256 (b : Bytes) : Bytes :=
  b ++ [0x80] ++ List.replicate ((64 + 55 - b.length % 64) % 64) 0 ++ Bytes.beBytes 8 (8 * b.length)

/-- SHA-256. -/
def sha256 (b : Bytes) : Bytes :=
  ((blocks256 ((pad256 b).length / 64) (pad256 b) iv256).toList).flatMap (Bytes.beBytes 4)

theorem sha256_len (b : Bytes) : (sha256 b).length = 32 := by
  simp [sha256, Eight.toList, List.flatMap, Bytes.beBytes_length]

/-- FIPS 180-4, section 4.2: the constants. -/
def k512 : List Nat :=
  [0x428a2f98d728ae22, 0x7137449123ef65cd, 0xb5c0fbcfec4d3b2f, 0xe9b5dba58189dbbc,
   0x3956c25bf348b538, 0x59f111f1b605d019, 0x923f82a4af194f9b, 0xab1c5ed5da6d8118,
   0xd807aa98a3030242, 0x12835b0145706fbe, 0x243185be4ee4b28c, 0x550c7dc3d5ffb4e2,
   0x72be5d74f27b896f, 0x80deb1fe3b1696b1, 0x9bdc06a725c71235, 0xc19bf174cf692694,
   0xe49b69c19ef14ad2, 0xefbe4786384f25e3, 0x0fc19dc68b8cd5b5, 0x240ca1cc77ac9c65,
   0x2de92c6f592b0275, 0x4a7484aa6ea6e483, 0x5cb0a9dcbd41fbd4, 0x76f988da831153b5,
   0x983e5152ee66dfab, 0xa831c66d2db43210, 0xb00327c898fb213f, 0xbf597fc7beef0ee4,
   0xc6e00bf33da88fc2, 0xd5a79147930aa725, 0x06ca6351e003826f, 0x142929670a0e6e70,
   0x27b70a8546d22ffc, 0x2e1b21385c26c926, 0x4d2c6dfc5ac42aed, 0x53380d139d95b3df,
   0x650a73548baf63de, 0x766a0abb3c77b2a8, 0x81c2c92e47edaee6, 0x92722c851482353b,
   0xa2bfe8a14cf10364, 0xa81a664bbc423001, 0xc24b8b70d0f89791, 0xc76c51a30654be30,
   0xd192e819d6ef5218, 0xd69906245565a910, 0xf40e35855771202a, 0x106aa07032bbd1b8,
   0x19a4c116b8d2d0c8, 0x1e376c085141ab53, 0x2748774cdf8eeb99, 0x34b0bcb5e19b48a8,
   0x391c0cb3c5c95a63, 0x4ed8aa4ae3418acb, 0x5b9cca4f7763e373, 0x682e6ff3d6b2b8a3,
   0x748f82ee5defb2fc, 0x78a5636f43172f60, 0x84c87814a1f0ab72, 0x8cc702081a6439ec,
   0x90befffa23631e28, 0xa4506cebde82bde9, 0xbef9a3f7b2c67915, 0xc67178f2e372532b,
   0xca273eceea26619c, 0xd186b8c721c0c207, 0xeada7dd6cde0eb1e, 0xf57d4f7fee6ed178,
   0x06f067aa72176fba, 0x0a637dc5a2c898a6, 0x113f9804bef90dae, 0x1b710b35131c471b,
   0x28db77f523047d84, 0x32caab7b40c72493, 0x3c9ebe0a15c9bebc, 0x431d67c49c100d4c,
   0x4cc5d4becb3e42b6, 0x597f299cfc657e2a, 0x5fcb6fab3ad6faec, 0x6c44198c4a475817]

/-- FIPS 180-4, section 5.3: the initial value. -/
def iv512 : Eight :=
  ⟨0x6a09e667f3bcc908, 0xbb67ae8584caa73b, 0x3c6ef372fe94f82b, 0xa54ff53a5f1d36f1,
   0x510e527fade682d1, 0x9b05688c2b3e6c1f, 0x1f83d9abfb41bd6b, 0x5be0cd19137e2179⟩

/-- FIPS 180-4, section 6: the rounds, one per constant, with the next sixteen words of the schedule and the working variables. -/
def rounds512 : List Nat → Nat → Nat → Nat → Nat → Nat → Nat → Nat → Nat → Nat → Nat → Nat → Nat → Nat → Nat → Nat → Nat →
    Nat → Nat → Nat → Nat → Nat → Nat → Nat → Nat → Eight
  | [], _, _, _, _, _, _, _, _, _, _, _, _, _, _, _, _, a, b, c, d, e, f, g, h => ⟨a, b, c, d, e, f, g, h⟩
  | k :: ks, w0, w1, w2, w3, w4, w5, w6, w7, w8, w9, w10, w11, w12, w13, w14, w15, a, b, c, d, e, f, g, h =>
    let ch := (e &&& f) ^^^ ((2 ^ 64 - 1 - e) &&& g)
    let s1 := rotr 64 14 e ^^^ rotr 64 18 e ^^^ rotr 64 41 e
    let maj := (a &&& b) ^^^ (a &&& c) ^^^ (b &&& c)
    let s0 := rotr 64 28 a ^^^ rotr 64 34 a ^^^ rotr 64 39 a
    let e0 := rotr 64 1 w1 ^^^ rotr 64 8 w1 ^^^ (w1 >>> 7)
    let e1 := rotr 64 19 w14 ^^^ rotr 64 61 w14 ^^^ (w14 >>> 6)
    force ((e1 + w9 + e0 + w0) % 2 ^ 64) fun w16 =>
    force (h + s1 + ch + k + w0) fun t1 =>
    force ((d + t1) % 2 ^ 64) fun e' =>
    force ((t1 + s0 + maj) % 2 ^ 64) fun a' =>
    rounds512 ks w1 w2 w3 w4 w5 w6 w7 w8 w9 w10 w11 w12 w13 w14 w15 w16 a' a b c e' e f g

/-- FIPS 180-4, section 6: one block of sixteen words. -/
def block512 (s : Eight) : List Nat → Eight
  | [w0, w1, w2, w3, w4, w5, w6, w7, w8, w9, w10, w11, w12, w13, w14, w15] =>
    let r := rounds512 k512 w0 w1 w2 w3 w4 w5 w6 w7 w8 w9 w10 w11 w12 w13 w14 w15 s.a s.b s.c s.d s.e s.f s.g s.h
    Eight.sum (2 ^ 64) s r
  | _ => s

/-- All blocks. -/
def blocks512 : Nat → Bytes → Eight → Eight
  | 0, _, s => s
  | n + 1, b, s => blocks512 n (b.drop 128) (block512 s (words 8 16 b))

/-- FIPS 180-4, section 5.1: padding. -/
def pad512 (b : Bytes) : Bytes :=
  b ++ [0x80] ++ List.replicate ((128 + 111 - b.length % 128) % 128) 0 ++ Bytes.beBytes 16 (8 * b.length)

/-- SHA-512. -/
def sha512 (b : Bytes) : Bytes :=
  ((blocks512 ((pad512 b).length / 128) (pad512 b) iv512).toList).flatMap (Bytes.beBytes 8)

theorem sha512_len (b : Bytes) : (sha512 b).length = 64 := by
  simp [sha512, Eight.toList, List.flatMap, Bytes.beBytes_length]

end KC.Real
