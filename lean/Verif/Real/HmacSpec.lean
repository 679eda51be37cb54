import Verif.Spec.Hmac
import Verif.Real.Hmac
import Verif.Real.Rfc6979
import Verif.Real.Sha2Spec
import Verif.Real.ChachaSpec
/-
The evaluable HMAC and PBKDF2 are those of the RFCs (`Spec/Hmac.lean`).
-/
namespace KC.Real.HmacSpec
open KC.Spec.Hmac
open KC.Spec.Bip32 (IsBe)
open KC.Real.Chacha (ext_getD flatMap_getD)

theorem isBlock_iff {Hash : Bytes → Bytes → Prop} {h : Bytes → Bytes} {B L N : Nat} (hL : ∀ b, (h b).length = L) (hLB : L ≤ B)
    (hh : ∀ b d, b.length < N → (Hash b d ↔ d = h b)) {k k0 : Bytes} (hk : k.length < N) :
    IsBlock Hash B k k0 ↔
      k0 = (if k.length > B then h k else k) ++ List.replicate (B - (if k.length > B then h k else k).length) 0 := by
  constructor
  · rintro ⟨hl, k', z, rfl, h1, h2⟩
    have hk' : k' = if k.length > B then h k else k := by
      split
      · next hB => exact (hh k k' hk).mp (h2 hB)
      · next hB => exact h1 (Nat.le_of_not_lt hB)
    rw [← hk']
    simp only [List.length_append, List.length_replicate] at hl
    rw [show B - k'.length = z by omega]
  · intro e
    refine ⟨?_, _, _, e, fun hB => if_neg (by omega), fun hB => (hh k _ hk).mpr (if_pos hB)⟩
    rw [e]
    simp only [List.length_append, List.length_replicate]
    split
    · rw [hL]; omega
    · omega

theorem isHmac_iff {Hash : Bytes → Bytes → Prop} {h : Bytes → Bytes} {B L N : Nat} (hL : ∀ b, (h b).length = L)
    (hh : ∀ b d, b.length < N → (Hash b d ↔ d = h b)) (hN : B + L < N) {k m d : Bytes} (hm : B + m.length < N) :
    IsHmac Hash B k m d ↔ ∃ k0, IsBlock Hash B k k0 ∧ d = h (k0.map (· ^^^ 0x5c) ++ h (k0.map (· ^^^ 0x36) ++ m)) := by
  constructor
  · rintro ⟨k0, i, hb, h1, h2⟩
    have hl := hb.1
    have h1 := (hh _ _ (by simp; omega)).mp h1
    subst h1
    exact ⟨k0, hb, (hh _ _ (by simp [hL]; omega)).mp h2⟩
  · rintro ⟨k0, hb, e⟩
    have hl := hb.1
    exact ⟨k0, _, hb, (hh _ _ (by simp; omega)).mpr rfl, (hh _ _ (by simp [hL]; omega)).mpr e⟩

theorem hash512 (b d : Bytes) (h : b.length < 2 ^ 124) : Spec.Sha2.IsHash Spec.Sha2.fns512 b d ↔ d = sha512 b :=
  Sha2.isHash512_iff (by omega)

theorem hash256 (b d : Bytes) (h : b.length < 2 ^ 60) : Spec.Sha2.IsHash Spec.Sha2.fns256 b d ↔ d = sha256 b :=
  Sha2.isHash256_iff (by omega)

theorem hmac512_iff {k m d : Bytes} (hk : k.length < 2 ^ 123) (hm : m.length < 2 ^ 123) :
    IsHmac (Spec.Sha2.IsHash Spec.Sha2.fns512) 128 k m d ↔ d = hmacSha512 k m := by
  rw [isHmac_iff sha512_len hash512 (by decide) (by omega)]
  simp only [isBlock_iff (B := 128) sha512_len (by decide) hash512 (show k.length < 2 ^ 124 by omega), exists_eq_left]
  rfl

theorem hmac256_iff {k m d : Bytes} (hk : k.length < 2 ^ 59) (hm : m.length < 2 ^ 59) :
    IsHmac (Spec.Sha2.IsHash Spec.Sha2.fns256) 64 k m d ↔ d = hmacSha256 k m := by
  rw [isHmac_iff sha256_len hash256 (by decide) (by omega)]
  simp only [isBlock_iff (B := 64) sha256_len (by decide) hash256 (show k.length < 2 ^ 60 by omega), exists_eq_left]
  rfl

/-- U_j of block `i`. -/
def U (p s : Bytes) (i : Nat) : Nat → Bytes
  | 0 => s ++ Bytes.beBytes 4 i
  | j + 1 => hmacSha512 p (U p s i j)

theorem U_len (p s : Bytes) (i j : Nat) : (U p s i (j + 1)).length = 64 := hmacSha512_len _ _

theorem zip_getD {a b : Bytes} (hl : a.length = b.length) (r : Nat) : (xorBytes a b).getD r 0 = a.getD r 0 ^^^ b.getD r 0 := by
  rcases Nat.lt_or_ge r a.length with h | h
  · have h' : r < b.length := hl ▸ h
    simp [xorBytes, List.getD_eq_getElem?_getD, h, h']
  · have h' : b.length ≤ r := hl ▸ h
    simp [xorBytes, List.getD_eq_getElem?_getD, h, h']

theorem loop_getD (p s : Bytes) (i r n : Nat) : ∀ (m : Nat) (t : Bytes), t.length = 64 →
    (pbkdf2Loop p n (U p s i m) t).getD r 0 = ((List.range n).map fun j => (U p s i (m + j + 1)).getD r 0).foldl (· ^^^ ·) (t.getD r 0) := by
  induction n with
  | zero => intro m t _; rfl
  | succ n ih =>
    intro m t ht
    have e : pbkdf2Loop p (n + 1) (U p s i m) t = pbkdf2Loop p n (U p s i (m + 1)) (xorBytes t (U p s i (m + 1))) := by
      delta pbkdf2Loop pbkdf2Loop._f U U._f
      generalize hmacSha512 = g
      rfl
    rw [e, ih (m + 1) _ (by simp [xorBytes, ht, U_len]), zip_getD (by rw [ht, U_len]), List.range_succ_eq_map, List.map_cons, List.map_map, List.foldl_cons]
    congr 1
    apply List.map_congr_left
    intro j _
    simp only [Function.comp]
    rw [show m + 1 + j + 1 = m + j.succ + 1 by omega]

theorem block_getD (p s : Bytes) (i r c : Nat) (hc : 1 ≤ c) :
    (pbkdf2Block p s c i).getD r 0 = ((List.range c).map fun j => (U p s i (j + 1)).getD r 0).foldl (· ^^^ ·) 0 := by
  obtain ⟨c, rfl⟩ : ∃ c', c = c' + 1 := ⟨c - 1, by omega⟩
  have h1 : hmacSha512 p (s ++ Bytes.beBytes 4 i) = U p s i 1 := by
    delta U U._f
    generalize hmacSha512 = g
    rfl
  rw [pbkdf2Block, h1, Nat.add_sub_cancel, loop_getD p s i r c 1 _ (U_len _ _ _ _), List.range_succ_eq_map, List.map_cons, List.map_map,
    List.foldl_cons, UInt8.zero_xor]
  congr 1
  apply List.map_congr_left
  intro j _
  simp only [Function.comp]
  rw [show 1 + j + 1 = j.succ + 1 by omega]

theorem pbkdf2_getD (p s : Bytes) (c n k : Nat) (hc : 1 ≤ c) (hk : k < n) :
    (pbkdf2 p s c n).getD k 0 = ((List.range c).map fun j => (U p s (k / 64 + 1) (j + 1)).getD (k % 64) 0).foldl (· ^^^ ·) 0 := by
  rw [← block_getD p s _ _ c hc, pbkdf2, List.getD_eq_getElem?_getD, List.getElem?_take_of_lt hk, ← List.getD_eq_getElem?_getD]
  exact (flatMap_getD 64 (by decide) (fun i => pbkdf2Block p s c (i + 1)) (fun i => pbkdf2Loop_len _ _ _ _ (hmacSha512_len _ _)) _).2 k (by omega)

theorem pbkdf2_iff {p s d : Bytes} {c n : Nat} (hp : p.length < 2 ^ 123) (hs : s.length < 2 ^ 122) (hc : 1 ≤ c) (hn : n < 64 * (2 ^ 32 - 1)) :
    IsPbkdf2 (IsHmac (Spec.Sha2.IsHash Spec.Sha2.fns512) 128) 64 p s c n d ↔ d = pbkdf2 p s c n := by
  constructor
  · rintro ⟨hl, V, h1, h2, h3⟩
    have hV : ∀ i, 1 ≤ i → i < 2 ^ 32 → ∀ j, V i (j + 1) = U p s i (j + 1) := by
      intro i hi hi' j
      induction j with
      | zero =>
        have hb := Bytes.isBe_beBytes (k := 4) (x := i) (by omega)
        have hlen := hb.1
        exact (hmac512_iff hp (by rw [U, List.length_append]; omega)).mp (h1 i _ hb)
      | succ j ih =>
        have := h2 i (j + 1) hi hi' (by omega)
        rw [ih] at this
        exact (hmac512_iff hp (by rw [U_len]; decide)).mp this
    apply ext_getD (by rw [hl, pbkdf2_len])
    intro k hk
    rw [hl] at hk
    rw [h3 k hk, pbkdf2_getD p s c n k hc hk]
    congr 1
    apply List.map_congr_left
    intro j _
    rw [hV _ (by omega) (by omega)]
  · intro e
    rw [e]
    refine ⟨pbkdf2_len _ _ _ _, U p s, ?_, ?_, fun k hk => pbkdf2_getD p s c n k hc hk⟩
    · intro i I hI
      have hlen := hI.1
      have hx : i < 256 ^ 4 := by
        have := Bytes.be_lt I
        rwa [hI.2, hI.1] at this
      rw [(Bytes.isBe_iff hx).mp hI]
      exact (hmac512_iff hp (by rw [List.length_append, Bytes.beBytes_length]; omega)).mpr rfl
    · intro i j _ _ hj
      obtain ⟨j, rfl⟩ : ∃ j', j = j' + 1 := ⟨j - 1, by omega⟩
      exact (hmac512_iff hp (by rw [U_len]; decide)).mpr rfl

end KC.Real.HmacSpec
