import Verif.Real.Secp256k1
/-
Decompression of public keys of secp256k1 (SEC 1, 2.3.4), and that it is right.
-/
namespace KC.Real.Secp256k1
open KC.Spec.Secp256k1 KC.Spec.Bip32 KC.Real.Ec

/-- SEC 1, 2.3.4: the second coordinate of parity `v` that belongs to `x`. -/
def root (x v : Nat) : Option Nat :=
  force (powMod p 256 ((x * x % p * x + 7) % p) ((p + 1) / 4)) fun y0 =>
  if y0 * y0 % p ≠ (x * x % p * x + 7) % p then none
  else
    force (if y0 % 2 = v then y0 else (p - y0) % p) fun y => if y % 2 = v then some y else none

theorem root_iff (x v y : Nat) : root x v = some y ↔ y < p ∧ y % 2 = v ∧ (y : ZMod p) ^ 2 = (x : ZMod p) ^ 3 + 7 := by
  have hp0 : 0 < p := by decide +kernel
  have hc : (((x * x % p * x + 7) % p : Nat) : ZMod p) = (x : ZMod p) ^ 3 + 7 := by
    rw [ZMod.natCast_mod, Nat.cast_add, Nat.cast_mul, ZMod.natCast_mod, Nat.cast_mul]
    push_cast
    ring
  unfold root
  rw [powMod_eq _ _ _ _ (by decide +kernel), force_eq]
  generalize hy0' : ((x * x % p * x + 7) % p) ^ ((p + 1) / 4) % p = y0
  have hlt : y0 < p := by rw [← hy0']; exact Nat.mod_lt _ hp0
  have hcy0 : (y0 : ZMod p) = ((x : ZMod p) ^ 3 + 7) ^ ((p + 1) / 4) := by
    rw [← hy0', ZMod.natCast_mod, Nat.cast_pow, hc]
  have hsq : y0 * y0 % p = (x * x % p * x + 7) % p ↔ (y0 : ZMod p) ^ 2 = (x : ZMod p) ^ 3 + 7 := by
    rw [← hc, sq, ← Nat.cast_mul, ZMod.natCast_eq_natCast_iff, Nat.ModEq, Nat.mod_mod]
  have hval : ∀ z : Nat, z < p → (z : ZMod p).val = z := fun z hz => by rw [ZMod.val_natCast, Nat.mod_eq_of_lt hz]
  have hneg : (((p - y0) % p : Nat) : ZMod p) = -(y0 : ZMod p) := by
    rw [ZMod.natCast_mod, Nat.cast_sub hlt.le, ZMod.natCast_self, zero_sub]
  rw [force_eq]
  constructor
  · intro h
    by_cases h1 : y0 * y0 % p = (x * x % p * x + 7) % p
    · rw [if_neg (not_not.mpr h1)] at h
      have hs := hsq.mp h1
      by_cases h2 : y0 % 2 = v
      · rw [if_pos h2, if_pos h2] at h
        cases h
        exact ⟨hlt, h2, hs⟩
      · rw [if_neg h2] at h
        by_cases h3 : (p - y0) % p % 2 = v
        · rw [if_pos h3] at h
          cases h
          exact ⟨Nat.mod_lt _ hp0, h3, by rw [hneg, neg_sq, hs]⟩
        · rw [if_neg h3] at h
          cases h
    · rw [if_pos h1] at h
      cases h
  · rintro ⟨hy, hv, he⟩
    rw [← he] at hcy0 hsq
    have hs : y0 * y0 % p = (x * x % p * x + 7) % p := by
      rw [hsq, hcy0]
      rcases sqrt_val (y : ZMod p) with h | h <;> rw [h]
      exact neg_sq _
    rw [if_neg (not_not.mpr hs)]
    rcases sqrt_val (y : ZMod p) with h | h
    · rw [h] at hcy0
      have : y0 = y := by rw [← hval y0 hlt, hcy0, hval y hy]
      subst this
      rw [if_pos hv, if_pos hv]
    · rw [h] at hcy0
      by_cases hz : (y : ZMod p) = 0
      · have h0 : y = 0 := by rw [← hval y hy, hz, ZMod.val_zero]
        rw [hz, neg_zero] at hcy0
        have : y0 = 0 := by rw [← hval y0 hlt, hcy0, ZMod.val_zero]
        have e : y0 = y := this.trans h0.symm
        subst e
        rw [if_pos hv, if_pos hv]
      · have e : y0 = p - y := by rw [← hval y0 hlt, hcy0, val_neg _ hz, hval y hy]
        have hpos := val_pos _ hz
        rw [hval y hy] at hpos
        have hodd := p_odd
        have e2 : (p - y0) % p = y := by rw [Nat.mod_eq_of_lt (by omega)]; omega
        have hne : ¬ y0 % 2 = v := by omega
        rw [if_neg hne, e2, if_pos hv]

/-- SEC 1, 2.3.4: the uncompressed form from the compressed one. -/
def decompress : Bytes → Option Bytes
  | [] => none
  | t :: b =>
    if (t = 2 ∨ t = 3) ∧ b.length = 32 ∧ Bytes.beNat b < p then
      (root (Bytes.beNat b) (t.toNat - 2)).map fun y => 4 :: b ++ Bytes.beBytes 32 y
    else none

theorem decompress_iff (b u : Bytes) : decompress b = some u ↔ ∃ P, Compressed P b ∧ Uncompressed P u := by
  have hval : ∀ z : Nat, z < p → (z : ZMod p).val = z := fun z hz => by rw [ZMod.val_natCast, Nat.mod_eq_of_lt hz]
  constructor
  · intro h
    cases b with
    | nil => cases h
    | cons t b =>
      rw [decompress] at h
      split at h
      case isFalse => cases h
      case isTrue hc =>
        obtain ⟨ht, hl, hp⟩ := hc
        obtain ⟨y, hy, rfl⟩ := Option.map_eq_some_iff.mp h
        obtain ⟨h1, h2, h3⟩ := (root_iff _ _ _).mp hy
        have hbe : IsBe 32 ((Bytes.beNat b : Nat) : ZMod p).val b := ⟨hl, by rw [hval _ hp, Bytes.beNat_eq]⟩
        refine ⟨.some _ _ (nonsingular h3), ⟨_, _, _, rfl, b, hbe, ?_⟩, ⟨_, _, _, rfl, b, _, hbe, isBe_val _, ?_⟩⟩
        · rw [hval y h1, h2]
          rcases ht with rfl | rfl
          · rfl
          · rfl
        · rw [hval y h1]
          rfl
  · rintro ⟨P, ⟨x, y, h, rfl, bx, hx, rfl⟩, ⟨x', y', h', e, bx', by', hx', hy', rfl⟩⟩
    cases e
    obtain rfl := Bytes.isBe_unique hx hx'
    have heq := (equation_iff _ _).mp h.1
    have hb : Bytes.beNat bx = x.val := by rw [Bytes.beNat_eq, hx.2]
    have hr : root x.val (y.val % 2) = some y.val := by
      rw [root_iff]
      exact ⟨ZMod.val_lt y, rfl, by rw [ZMod.natCast_zmod_val, ZMod.natCast_zmod_val, heq]⟩
    have hby : by' = Bytes.beBytes 32 y.val := Bytes.isBe_unique hy' (isBe_val y)
    show decompress ((if y.val % 2 = 0 then 2 else 3) :: bx) = _
    have ht : ((if y.val % 2 = 0 then 2 else 3 : UInt8).toNat - 2) = y.val % 2 := by
      by_cases h0 : y.val % 2 = 0
      · rw [if_pos h0, h0]; rfl
      · rw [if_neg h0]; show 1 = _; omega
    rw [decompress, if_pos ⟨by split <;> simp, hx.1, by rw [hb]; exact ZMod.val_lt x⟩, ht, hb, hr, hby]
    rfl

end KC.Real.Secp256k1
