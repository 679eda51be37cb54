import Verif.Real.Sha2
/-
Keccak-256: the sponge of FIPS 202 with rate 136, in its original form (padding 0x01 instead of the 0x06 of SHA3-256).
-/
namespace KC.Real

/-- Rotation to the left of a 64-bit word. -/
def rotl (n x : Nat) : Nat := (x <<< n) % 2 ^ 64 ||| (x >>> (64 - n))

/-- FIPS 202, 3.2.5: the round constants. -/
def keccakRc : List Nat :=
  [0x0000000000000001, 0x0000000000008082, 0x800000000000808a, 0x8000000080008000,
   0x000000000000808b, 0x0000000080000001, 0x8000000080008081, 0x8000000000008009,
   0x000000000000008a, 0x0000000000000088, 0x0000000080008009, 0x000000008000000a,
   0x000000008000808b, 0x800000000000008b, 0x8000000000008089, 0x8000000000008003,
   0x8000000000008002, 0x8000000000000080, 0x000000000000800a, 0x800000008000000a,
   0x8000000080008081, 0x8000000000008080, 0x0000000080000001, 0x8000000080008008]

/-- FIPS 202, 3.2: theta, rho, pi, chi, iota; lane `x + 5 y` is word number `x + 5 y`. -/
def keccakRounds : List Nat → List Nat → List Nat
  | rc :: rcs, [a0, a1, a2, a3, a4, a5, a6, a7, a8, a9, a10, a11, a12, a13, a14, a15, a16, a17, a18, a19, a20, a21, a22, a23, a24] =>
    force (a0 ^^^ a5 ^^^ a10 ^^^ a15 ^^^ a20) fun c0 =>
    force (a1 ^^^ a6 ^^^ a11 ^^^ a16 ^^^ a21) fun c1 =>
    force (a2 ^^^ a7 ^^^ a12 ^^^ a17 ^^^ a22) fun c2 =>
    force (a3 ^^^ a8 ^^^ a13 ^^^ a18 ^^^ a23) fun c3 =>
    force (a4 ^^^ a9 ^^^ a14 ^^^ a19 ^^^ a24) fun c4 =>
    force (c4 ^^^ rotl 1 c1) fun d0 =>
    force (c0 ^^^ rotl 1 c2) fun d1 =>
    force (c1 ^^^ rotl 1 c3) fun d2 =>
    force (c2 ^^^ rotl 1 c4) fun d3 =>
    force (c3 ^^^ rotl 1 c0) fun d4 =>
    force (rotl 0 (a0 ^^^ d0)) fun b0 =>
    force (rotl 44 (a6 ^^^ d1)) fun b1 =>
    force (rotl 43 (a12 ^^^ d2)) fun b2 =>
    force (rotl 21 (a18 ^^^ d3)) fun b3 =>
    force (rotl 14 (a24 ^^^ d4)) fun b4 =>
    force (rotl 28 (a3 ^^^ d3)) fun b5 =>
    force (rotl 20 (a9 ^^^ d4)) fun b6 =>
    force (rotl 3 (a10 ^^^ d0)) fun b7 =>
    force (rotl 45 (a16 ^^^ d1)) fun b8 =>
    force (rotl 61 (a22 ^^^ d2)) fun b9 =>
    force (rotl 1 (a1 ^^^ d1)) fun b10 =>
    force (rotl 6 (a7 ^^^ d2)) fun b11 =>
    force (rotl 25 (a13 ^^^ d3)) fun b12 =>
    force (rotl 8 (a19 ^^^ d4)) fun b13 =>
    force (rotl 18 (a20 ^^^ d0)) fun b14 =>
    force (rotl 27 (a4 ^^^ d4)) fun b15 =>
    force (rotl 36 (a5 ^^^ d0)) fun b16 =>
    force (rotl 10 (a11 ^^^ d1)) fun b17 =>
    force (rotl 15 (a17 ^^^ d2)) fun b18 =>
    force (rotl 56 (a23 ^^^ d3)) fun b19 =>
    force (rotl 62 (a2 ^^^ d2)) fun b20 =>
    force (rotl 55 (a8 ^^^ d3)) fun b21 =>
    force (rotl 39 (a14 ^^^ d4)) fun b22 =>
    force (rotl 41 (a15 ^^^ d0)) fun b23 =>
    force (rotl 2 (a21 ^^^ d1)) fun b24 =>
    force ((b0 ^^^ ((2 ^ 64 - 1 - b1) &&& b2)) ^^^ rc) fun e0 =>
    force (b1 ^^^ ((2 ^ 64 - 1 - b2) &&& b3)) fun e1 =>
    force (b2 ^^^ ((2 ^ 64 - 1 - b3) &&& b4)) fun e2 =>
    force (b3 ^^^ ((2 ^ 64 - 1 - b4) &&& b0)) fun e3 =>
    force (b4 ^^^ ((2 ^ 64 - 1 - b0) &&& b1)) fun e4 =>
    force (b5 ^^^ ((2 ^ 64 - 1 - b6) &&& b7)) fun e5 =>
    force (b6 ^^^ ((2 ^ 64 - 1 - b7) &&& b8)) fun e6 =>
    force (b7 ^^^ ((2 ^ 64 - 1 - b8) &&& b9)) fun e7 =>
    force (b8 ^^^ ((2 ^ 64 - 1 - b9) &&& b5)) fun e8 =>
    force (b9 ^^^ ((2 ^ 64 - 1 - b5) &&& b6)) fun e9 =>
    force (b10 ^^^ ((2 ^ 64 - 1 - b11) &&& b12)) fun e10 =>
    force (b11 ^^^ ((2 ^ 64 - 1 - b12) &&& b13)) fun e11 =>
    force (b12 ^^^ ((2 ^ 64 - 1 - b13) &&& b14)) fun e12 =>
    force (b13 ^^^ ((2 ^ 64 - 1 - b14) &&& b10)) fun e13 =>
    force (b14 ^^^ ((2 ^ 64 - 1 - b10) &&& b11)) fun e14 =>
    force (b15 ^^^ ((2 ^ 64 - 1 - b16) &&& b17)) fun e15 =>
    force (b16 ^^^ ((2 ^ 64 - 1 - b17) &&& b18)) fun e16 =>
    force (b17 ^^^ ((2 ^ 64 - 1 - b18) &&& b19)) fun e17 =>
    force (b18 ^^^ ((2 ^ 64 - 1 - b19) &&& b15)) fun e18 =>
    force (b19 ^^^ ((2 ^ 64 - 1 - b15) &&& b16)) fun e19 =>
    force (b20 ^^^ ((2 ^ 64 - 1 - b21) &&& b22)) fun e20 =>
    force (b21 ^^^ ((2 ^ 64 - 1 - b22) &&& b23)) fun e21 =>
    force (b22 ^^^ ((2 ^ 64 - 1 - b23) &&& b24)) fun e22 =>
    force (b23 ^^^ ((2 ^ 64 - 1 - b24) &&& b20)) fun e23 =>
    force (b24 ^^^ ((2 ^ 64 - 1 - b20) &&& b21)) fun e24 =>
    keccakRounds rcs [e0, e1, e2, e3, e4, e5, e6, e7, e8, e9, e10, e11, e12, e13, e14, e15, e16, e17, e18, e19, e20, e21, e22, e23, e24]
  | _, l => l

/-- The first `n` little-endian words of eight bytes. -/
def wordsLe : Nat → Bytes → List Nat
  | 0, _ => []
  | n + 1, b => force (Bytes.beNat (b.take 8).reverse) fun x => x :: wordsLe n (b.drop 8)

/-- Absorb blocks of 136 bytes. -/
def keccakAbsorb : Nat → Bytes → List Nat → List Nat
  | 0, _, s => s
  | n + 1, b, s => keccakAbsorb n (b.drop 136) (keccakRounds keccakRc (List.zipWith (· ^^^ ·) s (wordsLe 17 b ++ List.replicate 8 0)))

/-- Padding `10*1`. -/
def keccakPad (b : Bytes) : Bytes :=
  let z := 135 - b.length % 136
  if z = 0 then b ++ [0x81] else b ++ [0x01] ++ List.replicate (z - 1) 0 ++ [0x80]

/-- Keccak-256. -/
def keccak256 (b : Bytes) : Bytes :=
  let s := keccakAbsorb ((keccakPad b).length / 136) (keccakPad b) (List.replicate 25 0)
  (Bytes.beBytes 8 (s.getD 0 0)).reverse ++ (Bytes.beBytes 8 (s.getD 1 0)).reverse ++ (Bytes.beBytes 8 (s.getD 2 0)).reverse ++
    (Bytes.beBytes 8 (s.getD 3 0)).reverse

theorem keccak256_len (b : Bytes) : (keccak256 b).length = 32 := by
  simp [keccak256, Bytes.beBytes_length]

end KC.Real
