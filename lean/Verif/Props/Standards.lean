import Verif.Real.HmacSpec
import Verif.Real.KeccakSpec
import Verif.Real.RipemdSpec
import Verif.Real.Hashes
import Verif.Proofs.Crypt
import Verif.Model.Bip39
import Verif.Props.Tamper
/-
The hash functions and the cipher are those of the standards (C82).
-/
namespace KC.Props
open Crypt Spec.Crypt
open KC.Spec.Sha2 (fns256 fns512)
open KC.Spec.Hmac (IsHmac IsPbkdf2)
open KC.Spec.Chacha (IsCrypt IsTag)

/-- C82: SHA-256 is that of FIPS 180-4. -/
theorem C82_sha256 (m d : Bytes) (h : 8 * m.length < 2 ^ 64) : Real.hashes.sha256 m = d ↔ Spec.Sha2.IsHash fns256 m d := by
  rw [Real.Sha2.isHash256_iff h]
  exact eq_comm

/-- C82: SHA-512 is that of FIPS 180-4. -/
theorem C82_sha512 (m d : Bytes) (h : 8 * m.length < 2 ^ 128) : Real.hashes.sha512 m = d ↔ Spec.Sha2.IsHash fns512 m d := by
  rw [Real.Sha2.isHash512_iff h]
  exact eq_comm

/-- C82: Keccak-256 is the sponge of FIPS 202 with the padding of the original submission. -/
theorem C82_keccak256 (m d : Bytes) : Real.hashes.keccak256 m = d ↔ Spec.Keccak.IsHash m d := by
  rw [Real.Keccak.isHash_iff]
  exact eq_comm

/-- C82: RIPEMD-160 is that of Dobbertin, Bosselaers and Preneel. -/
theorem C82_ripemd160 (m d : Bytes) (h : 8 * m.length < 2 ^ 64) : Real.hashes.ripemd160 m = d ↔ Spec.Ripemd.IsHash m d := by
  rw [Real.Ripemd.isHash_iff h]
  exact eq_comm

/-- C82: HMAC is that of RFC 2104 over SHA-512, with blocks of 128 bytes. -/
theorem C82_hmac (k m d : Bytes) (hk : k.length < 2 ^ 123) (hm : m.length < 2 ^ 123) :
    Real.hashes.hmacSha512 k m = d ↔ IsHmac (Spec.Sha2.IsHash fns512) 128 k m d := by
  rw [Real.HmacSpec.hmac512_iff hk hm]
  exact eq_comm

/-- C82: the HMAC inside RFC 6979 is that of RFC 2104 over SHA-256, with blocks of 64 bytes. -/
theorem C82_hmac256 (k m d : Bytes) (hk : k.length < 2 ^ 59) (hm : m.length < 2 ^ 59) :
    Real.hmacSha256 k m = d ↔ IsHmac (Spec.Sha2.IsHash fns256) 64 k m d := by
  rw [Real.HmacSpec.hmac256_iff hk hm]
  exact eq_comm

/-- C82: PBKDF2 is that of RFC 8018 with HMAC-SHA512. -/
theorem C82_pbkdf2 (p s d : Bytes) (c n : Nat) (hp : p.length < 2 ^ 123) (hs : s.length < 2 ^ 122) (hc : 1 ≤ c) (hn : n < 64 * (2 ^ 32 - 1)) :
    Real.hashes.pbkdf2 p s c n = d ↔ IsPbkdf2 (IsHmac (Spec.Sha2.IsHash fns512) 128) 64 p s c n d := by
  rw [Real.HmacSpec.pbkdf2_iff hp hs hc hn]
  exact eq_comm

theorem isCrypt_symm {key nonce a b : Bytes} (h : IsCrypt key nonce a b) : IsCrypt key nonce b a := by
  refine ⟨h.1.symm, fun i hi => ?_⟩
  rw [h.2 i (by rw [← h.1]; exact hi), UInt8.xor_assoc, UInt8.xor_self, UInt8.xor_zero]

/-- C82: the cipher is the AEAD of RFC 8439 without associated data: what it seals. -/
theorem C82_seals (key nonce m c t : Bytes) (h : m.length < 2 ^ 64) :
    Real.aead.enc key nonce m = (c, t) ↔ IsCrypt key nonce m c ∧ IsTag key nonce c t := by
  rw [Real.aead_enc, Real.Chacha.enc, Prod.mk.injEq, Real.Chacha.isCrypt_iff]
  constructor
  · rintro ⟨h1, h2⟩
    subst h1
    exact ⟨rfl, (Real.Chacha.isTag_iff (by rw [Real.Chacha.crypt_len]; exact h)).mpr h2.symm⟩
  · rintro ⟨h1, h2⟩
    subst h1
    exact ⟨rfl, ((Real.Chacha.isTag_iff (by rw [Real.Chacha.crypt_len]; exact h)).mp h2).symm⟩

/-- C82: and what it opens. -/
theorem C82_opens (key nonce c t m : Bytes) (h : c.length < 2 ^ 64) :
    Real.aead.dec key nonce c t = some m ↔ IsTag key nonce c t ∧ IsCrypt key nonce m c := by
  rw [Real.aead_dec, Real.Chacha.isTag_iff h, Real.Chacha.dec]
  have hs : IsCrypt key nonce m c ↔ m = Real.Chacha.crypt key nonce c := by
    rw [← Real.Chacha.isCrypt_iff]
    exact ⟨isCrypt_symm, isCrypt_symm⟩
  rw [hs]
  split
  · next e => rw [Option.some.injEq]; exact ⟨fun h => ⟨e.symm, h.symm⟩, fun h => h.2.symm⟩
  · next e => exact ⟨fun h => (nomatch h), fun h => absurd h.1.symm e⟩

/-- C82: `key` belongs to `password` and `salt`. -/
def StandardKey (password : Str) (salt key : Bytes) : Prop :=
  IsPbkdf2 (IsHmac (Spec.Sha2.IsHash fns512) 128) 64 (Str.utf8 password) salt 19162 32 key

theorem standardKey_iff {password : Str} {salt key : Bytes} (hp : (Str.utf8 password).length < 2 ^ 123) (hs : salt.length = 32) :
    StandardKey password salt key ↔ key = keyOf Real.hashes password salt := by
  rw [StandardKey, keyOf, Real.HmacSpec.pbkdf2_iff hp (by rw [hs]; decide) (by decide) (by decide)]
  simp only [Real.hashes]

/-- C82: wallet data opens with a password exactly as the standards say. -/
theorem C82_format (blob d : Bytes) (password : Str) (hp : (Str.utf8 password).length < 2 ^ 123) (hb : blob.length < 2 ^ 64) :
    decrypt Real.hashes Real.aead blob password = .ok d ↔
      ∃ salt nonce tag ct key, Parts blob salt nonce tag ct ∧ ct ≠ [] ∧ StandardKey password salt key ∧
        IsTag key nonce ct tag ∧ IsCrypt key nonce d ct := by
  have key : ∀ salt nonce tag ct, Parts blob salt nonce tag ct → ct ≠ [] → (decrypt Real.hashes Real.aead blob password = .ok d ↔
      IsTag (keyOf Real.hashes password salt) nonce ct tag ∧ IsCrypt (keyOf Real.hashes password salt) nonce d ct) := by
    intro salt nonce tag ct hP hc
    rw [(C33_outcome Real.hashes Real.aead blob salt nonce tag ct password hP hc).1 d]
    apply C82_opens
    have := congrArg List.length hP.eq
    simp only [List.length_append] at this
    omega
  constructor
  · intro h
    rcases Nat.lt_or_ge 60 blob.length with hl | hl
    · obtain ⟨s, n, t, c, hP, hc⟩ := parts_exist blob hl
      exact ⟨s, n, t, c, _, hP, hc, (standardKey_iff hp hP.salt_len).mpr rfl, (key s n t c hP hc).mp h⟩
    · rw [decrypt_short _ _ blob password hl] at h; cases h
  · rintro ⟨s, n, t, c, k, hP, hc, hk, h⟩
    rw [(standardKey_iff hp hP.salt_len).mp hk] at h
    exact (key s n t c hP hc).mpr h

theorem encrypt_sealed {ε} {P : Hashes} {A : Aead} {data : Bytes} {password : Str} {r r' : Rng} {blob : Bytes}
    (h : (encrypt P A data password : RM ε Bytes).run r = (.ok blob, r')) :
    ∃ s n, s.length = 32 ∧ n.length = 12 ∧ blob = sealed P A data password s n := by
  rw [encrypt_eq] at h
  simp only [RM.run] at h
  rcases h1 : r.fill 32 with ⟨_ | salt, r1⟩
  · rw [h1] at h; cases h
  rw [h1] at h
  rcases h2 : r1.fill 12 with ⟨_ | nonce, r2⟩
  · simp only [h2] at h; cases h
  simp only [h2, Prod.mk.injEq, Res.ok.injEq] at h
  obtain ⟨-, -, hs, -⟩ := fill_ok h1
  obtain ⟨-, -, hn, -⟩ := fill_ok h2
  exact ⟨salt, nonce, by rw [hs]; simp, by rw [hn]; simp, h.1.symm⟩

/-- C82: what `encrypt` writes is what the standards say. -/
theorem C82_written {ε} (data : Bytes) (password : Str) (hp : (Str.utf8 password).length < 2 ^ 123) (hd : data.length < 2 ^ 64)
    (r r' : Rng) (blob : Bytes) (h : (encrypt Real.hashes Real.aead data password : RM ε Bytes).run r = (.ok blob, r')) :
    ∃ tag ct key, Parts blob (seg r.stream r.pos 32) (seg r.stream (r.pos + 32) 12) tag ct ∧
      StandardKey password (seg r.stream r.pos 32) key ∧
      IsTag key (seg r.stream (r.pos + 32) 12) ct tag ∧ IsCrypt key (seg r.stream (r.pos + 32) 12) data ct := by
  obtain ⟨⟨tag, ct, hP⟩, -⟩ := C34_alone Real.hashes Real.aead data password r r' blob h
  have hs := hP.salt_len
  refine ⟨tag, ct, _, hP, (standardKey_iff hp hs).mpr rfl, ?_⟩
  have h2 : Real.aead.enc (keyOf Real.hashes password (seg r.stream r.pos 32)) (seg r.stream (r.pos + 32) 12) data = (ct, tag) := by
    obtain ⟨s, n, hs, hn, e⟩ := encrypt_sealed h
    obtain ⟨rfl, rfl, e3, e4⟩ := parts_unique hP (e ▸ sealed_parts Real.hashes Real.aead data password s n hs hn)
    rw [e3, e4]
  exact ((C82_seals _ _ _ _ _ hd).mp h2).symm

/-- C82: a seed is PBKDF2 of RFC 8018 with HMAC-SHA512, 2048 rounds and the salt "mnemonic" before the password. -/
theorem C82_seed (text : Str) (password d : Bytes) (ht : (Str.utf8 text).length < 2 ^ 123) (hp : password.length < 2 ^ 121) :
    (Bip39.Seed.fromMnemonicString Real.hashes text password).1 = d ↔
      IsPbkdf2 (IsHmac (Spec.Sha2.IsHash fns512) 128) 64 (Str.utf8 text) ([109, 110, 101, 109, 111, 110, 105, 99] ++ password) 2048 64 d := by
  rw [← C82_pbkdf2 _ _ _ _ _ ht (by simp; omega) (by decide) (by decide)]
  have e : Str.utf8 "mnemonic".toList = [109, 110, 101, 109, 111, 110, 105, 99] := by decide +kernel
  simp only [Bip39.Seed.fromMnemonicString, e, Bip39.seedSize]

/-! Known answers: FIPS 180-4 and its examples, the Keccak team's, the paper of RIPEMD-160, RFC 4231, RFC 8439. -/

section
open Real

/-- C82: known answers of SHA-256 and SHA-512 (FIPS 180-4). -/
theorem C82_vectors_sha2 :
    sha256 [] = [227, 176, 196, 66, 152, 252, 28, 20, 154, 251, 244, 200, 153, 111, 185, 36, 39, 174, 65, 228, 100, 155, 147, 76, 164, 149, 153, 27, 120, 82, 184, 85] ∧
    sha256 [97, 98, 99] = [186, 120, 22, 191, 143, 1, 207, 234, 65, 65, 64, 222, 93, 174, 34, 35, 176, 3, 97, 163, 150, 23, 122, 156, 180, 16, 255, 97, 242, 0, 21, 173] ∧
    sha256 [97, 98, 99, 100, 98, 99, 100, 101, 99, 100, 101, 102, 100, 101, 102, 103, 101, 102, 103, 104, 102, 103, 104, 105, 103, 104, 105, 106, 104, 105, 106, 107, 105, 106, 107, 108, 106, 107, 108, 109, 107, 108, 109, 110, 108, 109, 110, 111, 109, 110, 111, 112, 110, 111, 112, 113] = [36, 141, 106, 97, 210, 6, 56, 184, 229, 192, 38, 147, 12, 62, 96, 57, 163, 60, 228, 89, 100, 255, 33, 103, 246, 236, 237, 212, 25, 219, 6, 193] ∧
    sha512 [] = [207, 131, 225, 53, 126, 239, 184, 189, 241, 84, 40, 80, 214, 109, 128, 7, 214, 32, 228, 5, 11, 87, 21, 220, 131, 244, 169, 33, 211, 108, 233, 206, 71, 208, 209, 60, 93, 133, 242, 176, 255, 131, 24, 210, 135, 126, 236, 47, 99, 185, 49, 189, 71, 65, 122, 129, 165, 56, 50, 122, 249, 39, 218, 62] ∧
    sha512 [97, 98, 99] = [221, 175, 53, 161, 147, 97, 122, 186, 204, 65, 115, 73, 174, 32, 65, 49, 18, 230, 250, 78, 137, 169, 126, 162, 10, 158, 238, 230, 75, 85, 211, 154, 33, 146, 153, 42, 39, 79, 193, 168, 54, 186, 60, 35, 163, 254, 235, 189, 69, 77, 68, 35, 100, 60, 232, 14, 42, 154, 201, 79, 165, 76, 164, 159] :=
  ⟨by decide +kernel, by decide +kernel, by decide +kernel, by decide +kernel, by decide +kernel⟩

/-- C82: known answers of Keccak-256. -/
theorem C82_vectors_keccak :
    keccak256 [] = [197, 210, 70, 1, 134, 247, 35, 60, 146, 126, 125, 178, 220, 199, 3, 192, 229, 0, 182, 83, 202, 130, 39, 59, 123, 250, 216, 4, 93, 133, 164, 112] ∧
    keccak256 [97, 98, 99] = [78, 3, 101, 122, 234, 69, 169, 79, 199, 212, 123, 168, 38, 200, 214, 103, 192, 209, 230, 227, 58, 100, 160, 54, 236, 68, 245, 143, 161, 45, 108, 69] ∧
    keccak256 (List.replicate 135 97) = [52, 54, 125, 194, 72, 187, 216, 50, 244, 227, 230, 157, 250, 172, 47, 146, 99, 139, 208, 187, 209, 143, 41, 18, 186, 78, 244, 84, 145, 156, 244, 70] ∧
    keccak256 (List.replicate 136 98) = [18, 27, 118, 208, 177, 159, 60, 44, 118, 50, 49, 11, 146, 197, 76, 221, 213, 157, 22, 166, 181, 170, 254, 132, 105, 100, 38, 241, 14, 87, 51, 191] :=
  ⟨by decide +kernel, by decide +kernel, by decide +kernel, by decide +kernel⟩

open Ripemd in
/-- C82: known answers of RIPEMD-160. -/
theorem C82_vectors_ripemd :
    ripemd160 [] = [156, 17, 133, 165, 197, 233, 252, 84, 97, 40, 8, 151, 126, 232, 245, 72, 178, 37, 141, 49] ∧
    ripemd160 [97, 98, 99] = [142, 178, 8, 247, 224, 93, 152, 122, 155, 4, 74, 142, 152, 198, 176, 135, 241, 90, 11, 252] ∧
    ripemd160 [109, 101, 115, 115, 97, 103, 101, 32, 100, 105, 103, 101, 115, 116] = [93, 6, 137, 239, 73, 210, 250, 229, 114, 184, 129, 177, 35, 168, 95, 250, 33, 89, 95, 54] ∧
    ripemd160 [97, 98, 99, 100, 98, 99, 100, 101, 99, 100, 101, 102, 100, 101, 102, 103, 101, 102, 103, 104, 102, 103, 104, 105, 103, 104, 105, 106, 104, 105, 106, 107, 105, 106, 107, 108, 106, 107, 108, 109, 107, 108, 109, 110, 108, 109, 110, 111, 109, 110, 111, 112, 110, 111, 112, 113] = [18, 160, 83, 56, 74, 156, 12, 136, 228, 5, 160, 108, 39, 220, 244, 154, 218, 98, 235, 43] :=
  ⟨by decide +kernel, by decide +kernel, by decide +kernel, by decide +kernel⟩

/-- C82: known answers of HMAC-SHA512 (RFC 4231) and of PBKDF2 with it. -/
theorem C82_vectors_hmac :
    hmacSha512 [11, 11, 11, 11, 11, 11, 11, 11, 11, 11, 11, 11, 11, 11, 11, 11, 11, 11, 11, 11] [72, 105, 32, 84, 104, 101, 114, 101] = [135, 170, 124, 222, 165, 239, 97, 157, 79, 240, 180, 36, 26, 29, 108, 176, 35, 121, 244, 226, 206, 78, 194, 120, 122, 208, 179, 5, 69, 225, 124, 222, 218, 168, 51, 183, 214, 184, 167, 2, 3, 139, 39, 78, 174, 163, 244, 228, 190, 157, 145, 78, 235, 97, 241, 112, 46, 105, 108, 32, 58, 18, 104, 84] ∧
    hmacSha512 [74, 101, 102, 101] [119, 104, 97, 116, 32, 100, 111, 32, 121, 97, 32, 119, 97, 110, 116, 32, 102, 111, 114, 32, 110, 111, 116, 104, 105, 110, 103, 63] = [22, 75, 122, 123, 252, 248, 25, 226, 227, 149, 251, 231, 59, 86, 224, 163, 135, 189, 100, 34, 46, 131, 31, 214, 16, 39, 12, 215, 234, 37, 5, 84, 151, 88, 191, 117, 192, 90, 153, 74, 109, 3, 79, 101, 248, 240, 230, 253, 202, 234, 177, 163, 77, 74, 107, 75, 99, 110, 7, 10, 56, 188, 231, 55] ∧
    pbkdf2 [112, 97, 115, 115, 119, 111, 114, 100] [115, 97, 108, 116] 1 64 = [134, 127, 112, 207, 26, 222, 2, 207, 243, 117, 37, 153, 163, 165, 61, 196, 175, 52, 199, 166, 105, 129, 90, 229, 213, 19, 85, 78, 28, 140, 242, 82, 192, 45, 71, 10, 40, 90, 5, 1, 186, 217, 153, 191, 233, 67, 192, 143, 5, 2, 53, 215, 214, 139, 29, 165, 94, 99, 247, 59, 96, 165, 127, 206] ∧
    pbkdf2 [112, 97, 115, 115, 119, 111, 114, 100] [115, 97, 108, 116] 2 64 = [225, 217, 193, 106, 166, 129, 112, 138, 69, 245, 199, 196, 226, 21, 206, 182, 110, 1, 26, 46, 159, 0, 64, 113, 63, 24, 174, 253, 184, 102, 213, 60, 247, 108, 171, 40, 104, 163, 155, 159, 120, 64, 237, 206, 79, 239, 90, 130, 190, 103, 51, 92, 119, 166, 6, 142, 4, 17, 39, 84, 242, 124, 207, 78] ∧
    pbkdf2 [112, 97, 115, 115, 119, 111, 114, 100] [115, 97, 108, 116] 2 80 = [225, 217, 193, 106, 166, 129, 112, 138, 69, 245, 199, 196, 226, 21, 206, 182, 110, 1, 26, 46, 159, 0, 64, 113, 63, 24, 174, 253, 184, 102, 213, 60, 247, 108, 171, 40, 104, 163, 155, 159, 120, 64, 237, 206, 79, 239, 90, 130, 190, 103, 51, 92, 119, 166, 6, 142, 4, 17, 39, 84, 242, 124, 207, 78, 71, 62, 49, 26, 216, 39, 182, 137, 69, 244, 226, 221, 219, 32, 76, 120] :=
  ⟨by decide +kernel, by decide +kernel, by decide +kernel, by decide +kernel, by decide +kernel⟩

open Chacha in
/-- C82: known answers of ChaCha20, Poly1305 and both together (RFC 8439). -/
theorem C82_vectors_chacha :
    block [0, 1, 2, 3, 4, 5, 6, 7, 8, 9, 10, 11, 12, 13, 14, 15, 16, 17, 18, 19, 20, 21, 22, 23, 24, 25, 26, 27, 28, 29, 30, 31] [0, 0, 0, 9, 0, 0, 0, 74, 0, 0, 0, 0] 1 = [16, 241, 231, 228, 209, 59, 89, 21, 80, 15, 221, 31, 163, 32, 113, 196, 199, 209, 244, 199, 51, 192, 104, 3, 4, 34, 170, 154, 195, 212, 108, 78, 210, 130, 100, 70, 7, 159, 170, 9, 20, 194, 215, 5, 217, 139, 2, 162, 181, 18, 156, 209, 222, 22, 78, 185, 203, 208, 131, 232, 162, 80, 60, 78] ∧
    crypt [0, 1, 2, 3, 4, 5, 6, 7, 8, 9, 10, 11, 12, 13, 14, 15, 16, 17, 18, 19, 20, 21, 22, 23, 24, 25, 26, 27, 28, 29, 30, 31] [0, 0, 0, 0, 0, 0, 0, 74, 0, 0, 0, 0] [76, 97, 100, 105, 101, 115, 32, 97, 110, 100, 32, 71, 101, 110, 116, 108, 101, 109, 101, 110, 32, 111, 102, 32, 116, 104, 101, 32, 99, 108, 97, 115, 115, 32, 111, 102, 32, 39, 57, 57, 58, 32, 73, 102, 32, 73, 32, 99, 111, 117, 108, 100, 32, 111, 102, 102, 101, 114, 32, 121, 111, 117, 32, 111, 110, 108, 121, 32, 111, 110, 101, 32, 116, 105, 112, 32, 102, 111, 114, 32, 116, 104, 101, 32, 102, 117, 116, 117, 114, 101, 44, 32, 115, 117, 110, 115, 99, 114, 101, 101, 110, 32, 119, 111, 117, 108, 100, 32, 98, 101, 32, 105, 116, 46] = [110, 46, 53, 154, 37, 104, 249, 128, 65, 186, 7, 40, 221, 13, 105, 129, 233, 126, 122, 236, 29, 67, 96, 194, 10, 39, 175, 204, 253, 159, 174, 11, 249, 27, 101, 197, 82, 71, 51, 171, 143, 89, 61, 171, 205, 98, 179, 87, 22, 57, 214, 36, 230, 81, 82, 171, 143, 83, 12, 53, 159, 8, 97, 216, 7, 202, 13, 191, 80, 13, 106, 97, 86, 163, 142, 8, 138, 34, 182, 94, 82, 188, 81, 77, 22, 204, 248, 6, 129, 140, 233, 26, 183, 121, 55, 54, 90, 249, 11, 191, 116, 163, 91, 230, 180, 11, 142, 237, 242, 120, 94, 66, 135, 77] ∧
    poly1305 [133, 214, 190, 120, 87, 85, 109, 51, 127, 68, 82, 254, 66, 213, 6, 168, 1, 3, 128, 138, 251, 13, 178, 253, 74, 191, 246, 175, 65, 73, 245, 27] [67, 114, 121, 112, 116, 111, 103, 114, 97, 112, 104, 105, 99, 32, 70, 111, 114, 117, 109, 32, 82, 101, 115, 101, 97, 114, 99, 104, 32, 71, 114, 111, 117, 112] = [168, 6, 29, 193, 48, 81, 54, 198, 194, 43, 139, 175, 12, 1, 39, 169] ∧
    (enc [128, 129, 130, 131, 132, 133, 134, 135, 136, 137, 138, 139, 140, 141, 142, 143, 144, 145, 146, 147, 148, 149, 150, 151, 152, 153, 154, 155, 156, 157, 158, 159] [7, 0, 0, 0, 64, 65, 66, 67, 68, 69, 70, 71] [76, 97, 100, 105, 101, 115, 32, 97, 110, 100, 32, 71, 101, 110, 116, 108, 101, 109, 101, 110, 32, 111, 102, 32, 116, 104, 101, 32, 99, 108, 97, 115, 115, 32, 111, 102, 32, 39, 57, 57, 58, 32, 73, 102, 32, 73, 32, 99, 111, 117, 108, 100, 32, 111, 102, 102, 101, 114, 32, 121, 111, 117, 32, 111, 110, 108, 121, 32, 111, 110, 101, 32, 116, 105, 112, 32, 102, 111, 114, 32, 116, 104, 101, 32, 102, 117, 116, 117, 114, 101, 44, 32, 115, 117, 110, 115, 99, 114, 101, 101, 110, 32, 119, 111, 117, 108, 100, 32, 98, 101, 32, 105, 116, 46]).2 = [106, 35, 164, 104, 31, 213, 148, 86, 174, 161, 210, 159, 130, 71, 114, 22] :=
  ⟨by decide +kernel, by decide +kernel, by decide +kernel, by decide +kernel⟩

end

/-! The standards' own words about these cases. -/

example : Spec.Sha2.IsHash fns256 [] [227, 176, 196, 66, 152, 252, 28, 20, 154, 251, 244, 200, 153, 111, 185, 36, 39, 174, 65, 228, 100, 155, 147, 76, 164, 149, 153, 27, 120, 82, 184, 85] := (C82_sha256 _ _ (by decide)).mp C82_vectors_sha2.1

example : Spec.Keccak.IsHash [] [197, 210, 70, 1, 134, 247, 35, 60, 146, 126, 125, 178, 220, 199, 3, 192, 229, 0, 182, 83, 202, 130, 39, 59, 123, 250, 216, 4, 93, 133, 164, 112] := (C82_keccak256 _ _).mp C82_vectors_keccak.1

example : Spec.Ripemd.IsHash [] [156, 17, 133, 165, 197, 233, 252, 84, 97, 40, 8, 151, 126, 232, 245, 72, 178, 37, 141, 49] := (C82_ripemd160 _ _ (by decide)).mp C82_vectors_ripemd.1

example : IsHmac (Spec.Sha2.IsHash fns512) 128 [11, 11, 11, 11, 11, 11, 11, 11, 11, 11, 11, 11, 11, 11, 11, 11, 11, 11, 11, 11] [72, 105, 32, 84, 104, 101, 114, 101] [135, 170, 124, 222, 165, 239, 97, 157, 79, 240, 180, 36, 26, 29, 108, 176, 35, 121, 244, 226, 206, 78, 194, 120, 122, 208, 179, 5, 69, 225, 124, 222, 218, 168, 51, 183, 214, 184, 167, 2, 3, 139, 39, 78, 174, 163, 244, 228, 190, 157, 145, 78, 235, 97, 241, 112, 46, 105, 108, 32, 58, 18, 104, 84] :=
  (C82_hmac _ _ _ (by decide) (by decide)).mp C82_vectors_hmac.1

end KC.Props
