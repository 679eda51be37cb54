import Verif.Real.Ripemd
/-
ChaCha20-Poly1305 (RFC 8439) with empty associated data.
-/
namespace KC.Real.Chacha
open KC.Real.Ripemd (rotl)

/-- RFC 8439, 2.3: double rounds on the sixteen words. -/
def rounds : Nat → Nat → Nat → Nat → Nat → Nat → Nat → Nat → Nat → Nat → Nat → Nat → Nat → Nat → Nat → Nat → Nat → List Nat
  | 0, x0_0, x1_0, x2_0, x3_0, x4_0, x5_0, x6_0, x7_0, x8_0, x9_0, x10_0, x11_0, x12_0, x13_0, x14_0, x15_0 =>
    [x0_0, x1_0, x2_0, x3_0, x4_0, x5_0, x6_0, x7_0, x8_0, x9_0, x10_0, x11_0, x12_0, x13_0, x14_0, x15_0]
  | n + 1, x0_0, x1_0, x2_0, x3_0, x4_0, x5_0, x6_0, x7_0, x8_0, x9_0, x10_0, x11_0, x12_0, x13_0, x14_0, x15_0 =>
    force ((x0_0 + x4_0) % 2 ^ 32) fun x0_1 =>
    force (rotl 16 (x12_0 ^^^ x0_1)) fun x12_1 =>
    force ((x8_0 + x12_1) % 2 ^ 32) fun x8_1 =>
    force (rotl 12 (x4_0 ^^^ x8_1)) fun x4_1 =>
    force ((x0_1 + x4_1) % 2 ^ 32) fun x0_2 =>
    force (rotl 8 (x12_1 ^^^ x0_2)) fun x12_2 =>
    force ((x8_1 + x12_2) % 2 ^ 32) fun x8_2 =>
    force (rotl 7 (x4_1 ^^^ x8_2)) fun x4_2 =>
    force ((x1_0 + x5_0) % 2 ^ 32) fun x1_1 =>
    force (rotl 16 (x13_0 ^^^ x1_1)) fun x13_1 =>
    force ((x9_0 + x13_1) % 2 ^ 32) fun x9_1 =>
    force (rotl 12 (x5_0 ^^^ x9_1)) fun x5_1 =>
    force ((x1_1 + x5_1) % 2 ^ 32) fun x1_2 =>
    force (rotl 8 (x13_1 ^^^ x1_2)) fun x13_2 =>
    force ((x9_1 + x13_2) % 2 ^ 32) fun x9_2 =>
    force (rotl 7 (x5_1 ^^^ x9_2)) fun x5_2 =>
    force ((x2_0 + x6_0) % 2 ^ 32) fun x2_1 =>
    force (rotl 16 (x14_0 ^^^ x2_1)) fun x14_1 =>
    force ((x10_0 + x14_1) % 2 ^ 32) fun x10_1 =>
    force (rotl 12 (x6_0 ^^^ x10_1)) fun x6_1 =>
    force ((x2_1 + x6_1) % 2 ^ 32) fun x2_2 =>
    force (rotl 8 (x14_1 ^^^ x2_2)) fun x14_2 =>
    force ((x10_1 + x14_2) % 2 ^ 32) fun x10_2 =>
    force (rotl 7 (x6_1 ^^^ x10_2)) fun x6_2 =>
    force ((x3_0 + x7_0) % 2 ^ 32) fun x3_1 =>
    force (rotl 16 (x15_0 ^^^ x3_1)) fun x15_1 =>
    force ((x11_0 + x15_1) % 2 ^ 32) fun x11_1 =>
    force (rotl 12 (x7_0 ^^^ x11_1)) fun x7_1 =>
    force ((x3_1 + x7_1) % 2 ^ 32) fun x3_2 =>
    force (rotl 8 (x15_1 ^^^ x3_2)) fun x15_2 =>
    force ((x11_1 + x15_2) % 2 ^ 32) fun x11_2 =>
    force (rotl 7 (x7_1 ^^^ x11_2)) fun x7_2 =>
    force ((x0_2 + x5_2) % 2 ^ 32) fun x0_3 =>
    force (rotl 16 (x15_2 ^^^ x0_3)) fun x15_3 =>
    force ((x10_2 + x15_3) % 2 ^ 32) fun x10_3 =>
    force (rotl 12 (x5_2 ^^^ x10_3)) fun x5_3 =>
    force ((x0_3 + x5_3) % 2 ^ 32) fun x0_4 =>
    force (rotl 8 (x15_3 ^^^ x0_4)) fun x15_4 =>
    force ((x10_3 + x15_4) % 2 ^ 32) fun x10_4 =>
    force (rotl 7 (x5_3 ^^^ x10_4)) fun x5_4 =>
    force ((x1_2 + x6_2) % 2 ^ 32) fun x1_3 =>
    force (rotl 16 (x12_2 ^^^ x1_3)) fun x12_3 =>
    force ((x11_2 + x12_3) % 2 ^ 32) fun x11_3 =>
    force (rotl 12 (x6_2 ^^^ x11_3)) fun x6_3 =>
    force ((x1_3 + x6_3) % 2 ^ 32) fun x1_4 =>
    force (rotl 8 (x12_3 ^^^ x1_4)) fun x12_4 =>
    force ((x11_3 + x12_4) % 2 ^ 32) fun x11_4 =>
    force (rotl 7 (x6_3 ^^^ x11_4)) fun x6_4 =>
    force ((x2_2 + x7_2) % 2 ^ 32) fun x2_3 =>
    force (rotl 16 (x13_2 ^^^ x2_3)) fun x13_3 =>
    force ((x8_2 + x13_3) % 2 ^ 32) fun x8_3 =>
    force (rotl 12 (x7_2 ^^^ x8_3)) fun x7_3 =>
    force ((x2_3 + x7_3) % 2 ^ 32) fun x2_4 =>
    force (rotl 8 (x13_3 ^^^ x2_4)) fun x13_4 =>
    force ((x8_3 + x13_4) % 2 ^ 32) fun x8_4 =>
    force (rotl 7 (x7_3 ^^^ x8_4)) fun x7_4 =>
    force ((x3_2 + x4_2) % 2 ^ 32) fun x3_3 =>
    force (rotl 16 (x14_2 ^^^ x3_3)) fun x14_3 =>
    force ((x9_2 + x14_3) % 2 ^ 32) fun x9_3 =>
    force (rotl 12 (x4_2 ^^^ x9_3)) fun x4_3 =>
    force ((x3_3 + x4_3) % 2 ^ 32) fun x3_4 =>
    force (rotl 8 (x14_3 ^^^ x3_4)) fun x14_4 =>
    force ((x9_3 + x14_4) % 2 ^ 32) fun x9_4 =>
    force (rotl 7 (x4_3 ^^^ x9_4)) fun x4_4 =>
    rounds n x0_4 x1_4 x2_4 x3_4 x4_4 x5_4 x6_4 x7_4 x8_4 x9_4 x10_4 x11_4 x12_4 x13_4 x14_4 x15_4

/-- RFC 8439, 2.3: the initial state. -/
def initial (key nonce : Bytes) (counter : Nat) : List Nat :=
  [0x61707865, 0x3320646e, 0x79622d32, 0x6b206574] ++ Ripemd.words 8 key ++ [counter % 2 ^ 32] ++ Ripemd.words 3 nonce

/-- RFC 8439, 2.3: the block function. -/
def block (key nonce : Bytes) (counter : Nat) : Bytes :=
  let s := initial key nonce counter
  let r := rounds 10 (s.getD 0 0) (s.getD 1 0) (s.getD 2 0) (s.getD 3 0) (s.getD 4 0) (s.getD 5 0) (s.getD 6 0) (s.getD 7 0) (s.getD 8 0) (s.getD 9 0) (s.getD 10 0) (s.getD 11 0) (s.getD 12 0) (s.getD 13 0) (s.getD 14 0) (s.getD 15 0)
  (List.range 16).flatMap fun i => (Bytes.beBytes 4 ((s.getD i 0 + r.getD i 0) % 2 ^ 32)).reverse

/-- RFC 8439, 2.4: `n` blocks of key stream. -/
def stream (key nonce : Bytes) (counter n : Nat) : Bytes := (List.range n).flatMap fun i => block key nonce (counter + i)

/-- RFC 8439, 2.4: encryption and decryption. -/
def crypt (key nonce : Bytes) (b : Bytes) : Bytes := List.zipWith (· ^^^ ·) b (stream key nonce 1 ((b.length + 63) / 64))

/-- Little-endian value. -/
def le (b : Bytes) : Nat := Bytes.beNat b.reverse

/-- RFC 8439, 2.5: blocks of sixteen bytes. -/
def polyLoop (r : Nat) : Nat → Bytes → Nat → Nat
  | 0, _, a => a
  | n + 1, b, a => force ((a + le (b.take 16 ++ [1])) * r % (2 ^ 130 - 5)) fun a' => polyLoop r n (b.drop 16) a'

/-- RFC 8439, 2.5: Poly1305. -/
def poly1305 (key m : Bytes) : Bytes :=
  let r := le (key.take 16) &&& 0x0ffffffc0ffffffc0ffffffc0fffffff
  let s := le ((key.drop 16).take 16)
  (Bytes.beBytes 16 ((polyLoop r ((m.length + 15) / 16) m 0 + s) % 2 ^ 128)).reverse

/-- RFC 8439, 2.8: the tag of a ciphertext. -/
def tag (key nonce c : Bytes) : Bytes :=
  poly1305 ((block key nonce 0).take 32)
    (c ++ List.replicate ((16 - c.length % 16) % 16) 0 ++ List.replicate 8 0 ++ (Bytes.beBytes 8 c.length).reverse)

/-- RFC 8439, 2.8. -/
def enc (key nonce p : Bytes) : Bytes × Bytes := (crypt key nonce p, tag key nonce (crypt key nonce p))

/-- RFC 8439, 2.8. -/
def dec (key nonce c t : Bytes) : Option Bytes := if tag key nonce c = t then some (crypt key nonce c) else none

theorem block_len (key nonce : Bytes) (c : Nat) : (block key nonce c).length = 64 := by
  simp [block, List.range, List.range.loop, List.flatMap, Bytes.beBytes_length]

theorem stream_len (key nonce : Bytes) (c n : Nat) : (stream key nonce c n).length = 64 * n := by
  induction n with
  | zero => rfl
  | succ n ih =>
    rw [stream, List.range_succ, List.flatMap_append, List.length_append, ← stream, ih]
    simp [block_len]
    omega

theorem crypt_len (key nonce b : Bytes) : (crypt key nonce b).length = b.length := by
  simp only [crypt, List.length_zipWith, stream_len]
  omega

theorem zipWith_xor_twice (b s : Bytes) (h : b.length ≤ s.length) :
    List.zipWith (· ^^^ ·) (List.zipWith (· ^^^ ·) b s) s = b := by
  induction b generalizing s with
  | nil => rfl
  | cons x b ih =>
    cases s with
    | nil => simp at h
    | cons y s =>
      simp only [List.zipWith_cons_cons, UInt8.xor_assoc, UInt8.xor_self, UInt8.xor_zero, List.cons.injEq, true_and]
      exact ih s (by simpa using h)

/-- Decryption undoes encryption. -/
theorem crypt_crypt (key nonce b : Bytes) : crypt key nonce (crypt key nonce b) = b := by
  rw [crypt, crypt_len, crypt]
  exact zipWith_xor_twice _ _ (by rw [stream_len]; omega)

theorem tag_len (key nonce c : Bytes) : (tag key nonce c).length = 16 := by
  simp [tag, poly1305, Bytes.beBytes_length]

theorem dec_enc (key nonce p : Bytes) : dec key nonce (enc key nonce p).1 (enc key nonce p).2 = some p := by
  simp [dec, enc, crypt_crypt]

end KC.Real.Chacha
