import Verif.Real.Sha2
/-
HMAC-SHA512 (RFC 2104) and PBKDF2 (RFC 8018) with it.
-/
namespace KC.Real

/-- Bytes combined position by position. -/
def xorBytes (a b : Bytes) : Bytes := List.zipWith (· ^^^ ·) a b

/-- RFC 2104: the key, hashed when longer than a block, filled up with zeros. -/
def hmacPad (k : Bytes) : Bytes :=
  let k := if k.length > 128 then sha512 k else k
  k ++ List.replicate (128 - k.length) 0

/-- RFC 2104 with SHA-512. -/
def hmacSha512 (k m : Bytes) : Bytes :=
  sha512 ((hmacPad k).map (· ^^^ 0x5c) ++ sha512 ((hmacPad k).map (· ^^^ 0x36) ++ m))

theorem hmacSha512_len (k m : Bytes) : (hmacSha512 k m).length = 64 := sha512_len _

/-- RFC 8018, 5.2: `c` further rounds from `u`, with the combination `t` so far. -/
def pbkdf2Loop (p : Bytes) : Nat → Bytes → Bytes → Bytes
  | 0, _, t => t
  | c + 1, u, t => pbkdf2Loop p c (hmacSha512 p u) (xorBytes t (hmacSha512 p u))

/-- RFC 8018, 5.2: block `i`. -/
def pbkdf2Block (p s : Bytes) (c i : Nat) : Bytes :=
  pbkdf2Loop p (c - 1) (hmacSha512 p (s ++ Bytes.beBytes 4 i)) (hmacSha512 p (s ++ Bytes.beBytes 4 i))

/-- RFC 8018, 5.2: PBKDF2 with HMAC-SHA512: password, salt, rounds (at least one), length. -/
def pbkdf2 (p s : Bytes) (c n : Nat) : Bytes :=
  ((List.range ((n + 63) / 64)).flatMap fun i => pbkdf2Block p s c (i + 1)).take n

theorem pbkdf2Loop_len (p : Bytes) (c : Nat) (u t : Bytes) (ht : t.length = 64) : (pbkdf2Loop p c u t).length = 64 := by
  induction c generalizing u t with
  | zero => exact ht
  | succ c ih => exact ih _ _ (by simp [xorBytes, hmacSha512_len, ht])

theorem pbkdf2_len (p s : Bytes) (c n : Nat) : (pbkdf2 p s c n).length = n := by
  have hb : ∀ i, (pbkdf2Block p s c i).length = 64 := fun i => pbkdf2Loop_len _ _ _ _ (hmacSha512_len _ _)
  have : ∀ k, ((List.range k).flatMap fun i => pbkdf2Block p s c (i + 1)).length = 64 * k := by
    intro k
    induction k with
    | zero => rfl
    | succ k ih => rw [List.range_succ, List.flatMap_append, List.length_append, ih]; simp [hb]; omega
  rw [pbkdf2, List.length_take, this]
  omega

end KC.Real
