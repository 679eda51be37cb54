import Verif.Spec.Ed25519
import Verif.Spec.Keys
import Verif.Proofs.Secp
import Mathlib.GroupTheory.OrderOfElement
/-
Ed25519 with extended keys (crates `ed25519-bip32`, derivation scheme V2, and `cryptoxide`) in place of the record `Cardano.Ed`.
Points are on Curve25519 and get their Edwards form when written.  `ok` is the crate's test of the second half of a signature; of it
only that it passes numbers below the group order is used.
-/
namespace KC.Real.Ed25519
open KC.Real.Ec KC.Spec.Ed25519

/-- `k B` for `k < 2 ^ 256`. -/
def mulB (k : Nat) : J := smul p 486662 1 ⟨bu, bv, 1⟩ 256 k

/-- The opposite point. -/
def neg : J → J
  | ⟨x, y, z⟩ => ⟨x, p - y % p, z⟩

/-- Edwards coordinates from those on Curve25519. -/
def edwards : Option (Nat × Nat) → Nat × Nat
  | none => (0, 1)
  | some (u, v) =>
    if u % p = 0 then (0, p - 1) else (root * u % p * Ec.inv p v % p, (u + (p - 1)) * Ec.inv p (u + 1) % p)

/-- Little-endian form of `x` in `k` bytes. -/
def leBytes (k x : Nat) : Bytes := (Bytes.beBytes k x).reverse

/-- The number written by `b`, little-endian. -/
def leNat (b : Bytes) : Nat := Bytes.beNat b.reverse

/-- The encoding of a point (`GeP3::to_bytes`). -/
def enc (j : J) : Bytes :=
  match edwards (affine p j) with
  | (x, y) => leBytes 32 (y + 2 ^ 255 * (x % 2))

/-- The parts of an extended key: scalar, nonce half, chain code. -/
def kl (x : Cardano.XPrv) : Bytes := x.val.take 32
def kr (x : Cardano.XPrv) : Bytes := (x.val.drop 32).take 32
def cc (x : Cardano.XPrv) : Bytes := x.val.drop 64

/-- `cryptoxide::ed25519::to_public`: the encoded public key. -/
def pubBytes (x : Cardano.XPrv) : Bytes := enc (mulB (leNat (kl x)))

/-- `cryptoxide::ed25519::signature_extended`. -/
def sign (H : Hashes) (x : Cardano.XPrv) (m : Bytes) : Bytes :=
  let r := leNat (H.sha512 (kr x ++ m)) % l
  let R := enc (mulB r)
  let h := leNat (H.sha512 (R ++ pubBytes x ++ m)) % l
  R ++ leBytes 32 ((h * leNat (kl x) + r) % l)

/-- `cryptoxide::ed25519::verify`.  The crate reads the point back from the encoded public key; here it is computed from the secret
again (the same: `verify_eq` in Real/EdDecode). -/
def verify (H : Hashes) (ok : Nat → Bool) (x : Cardano.XPrv) (m sig : Bytes) : Bool :=
  let R := sig.take 32
  let S := leNat ((sig.drop 32).take 32)
  let h := leNat (H.sha512 (R ++ pubBytes x ++ m)) % l
  ok S && (pubBytes x).any (· ≠ 0) &&
    decide (enc (add p 486662 1 (mulB S) (smul p 486662 1 (neg (mulB (leNat (kl x)))) 256 h)) = R)

/-- Both halves of a derivation step: the tag for the hardened case is `t`, for the soft case `t + 2`. -/
def stepHash (H : Hashes) (x : Cardano.XPrv) (i : UInt32) (t : UInt8) : Bytes :=
  if 2 ^ 31 ≤ i.toNat then H.hmacSha512 (cc x) (t :: (x.val.take 64 ++ leBytes 4 i.toNat))
  else H.hmacSha512 (cc x) ((t + 2) :: (pubBytes x ++ leBytes 4 i.toNat))

/-- `ed25519_bip32::derivation::v2` (`add_28_mul8`, `add_256bits`), as bytes. -/
def deriveBytes (H : Hashes) (x : Cardano.XPrv) (i : UInt32) : Bytes :=
  let z := stepHash H x i 0
  leBytes 32 (leNat (kl x) + 8 * leNat (z.take 28)) ++ leBytes 32 (leNat (kr x) + leNat (z.drop 32)) ++ (stepHash H x i 1).drop 32

theorem leBytes_length (k x : Nat) : (leBytes k x).length = k := by rw [leBytes, List.length_reverse, Bytes.beBytes_length]

theorem enc_length (j : J) : (enc j).length = 32 := by
  unfold enc
  exact leBytes_length _ _

theorem stepHash_length (H : Hashes) (x : Cardano.XPrv) (i : UInt32) (t : UInt8) : (stepHash H x i t).length = 64 := by
  unfold stepHash
  split <;> exact H.hmacSha512_len _ _

theorem deriveBytes_length (H : Hashes) (x : Cardano.XPrv) (i : UInt32) : (deriveBytes H x i).length = Cardano.xprvSize := by
  simp only [deriveBytes, List.length_append, leBytes_length, List.length_drop, stepHash_length]
  rfl

theorem cc_length (x : Cardano.XPrv) : (cc x).length = 32 := by
  rw [cc, List.length_drop, x.2]
  rfl

/-- The record of crate `ed25519-bip32`. -/
def ed (H : Hashes) (ok : Nat → Bool) : Cardano.Ed where
  derive x i := ⟨deriveBytes H x i, deriveBytes_length H x i⟩
  pub x := pubBytes x ++ cc x
  pub_len x := by rw [List.length_append, cc_length, pubBytes, enc_length]
  sign := sign H
  sign_len x m := by
    simp only [sign, List.length_append, enc_length, leBytes_length]
    rfl
  verify := verify H ok

/-! ### The group -/

theorem rep_B : Rep ⟨bu, bv, 1⟩ B := ⟨by simp, by simp, by simp⟩

theorem rep_mulB (k : Nat) (hk : k < 2 ^ 256) : Rep (mulB k) (k • B) := rep_smul two_ne rep_B 256 k hk

theorem smul_zero_of (k : Nat) (hk : k < 2 ^ 256) (h : (mulB k).z % p = 0) : k • B = 0 := rep_z (rep_mulB k hk) h

theorem l_smul : l • B = 0 := smul_zero_of l (by decide +kernel) (by decide +kernel)

theorem order_B : addOrderOf B = l := addOrderOf_eq_prime l_smul (WeierstrassCurve.Affine.Point.some_ne_zero _)

theorem smul_eq_zero (k : Nat) : k • B = 0 ↔ l ∣ k := by
  rw [← order_B]
  exact addOrderOf_dvd_iff_nsmul_eq_zero.symm

theorem smul_mod (k : Nat) : (k % l) • B = k • B := by
  rw [nsmul_eq_nsmul_iff_modEq, order_B]
  exact Nat.mod_modEq k l

theorem smul_mul_mod (h k : Nat) : (h % l) • (k • B) = h • (k • B) := by
  rw [← mul_nsmul, ← mul_nsmul, nsmul_eq_nsmul_iff_modEq, order_B]
  exact (Nat.mod_modEq h l).mul_left k

theorem rep_neg {j : J} {P : E.Point} (h : Rep j P) : Rep (neg j) (-P) := by
  obtain ⟨x, y, z⟩ := j
  cases P with
  | zero => exact h
  | some u v huv =>
    obtain ⟨h1, h2, h3⟩ := h
    refine ⟨h1, h2, ?_⟩
    show ((p - y % p : Nat) : ZMod p) = E.negY u v * (z : ZMod p) ^ 3
    rw [negY_eq, Nat.cast_sub (Nat.mod_lt y pos).le, ZMod.natCast_self, ZMod.natCast_mod]
    have h3 : (y : ZMod p) = v * (z : ZMod p) ^ 3 := h3
    rw [h3]
    ring

/-! ### Squares -/

theorem nonsquare (c : Nat) (h : powMod p 256 c ((p - 1) / 2) ≠ 1) (h0 : c % p ≠ 0) (w : ZMod p) : w ^ 2 ≠ (c : ZMod p) := by
  intro hw
  apply h
  have hw0 : w ≠ 0 := by
    rintro rfl
    exact const_ne c h0 (by rw [← hw]; ring)
  rw [powMod_eq _ _ _ _ (by decide +kernel)]
  have := ZMod.natCast_eq_natCast_iff (c ^ ((p - 1) / 2)) 1 p
  rw [Nat.cast_pow, ← hw, ← pow_mul, Nat.cast_one] at this
  have hp : 2 * ((p - 1) / 2) = p - 1 := by decide +kernel
  rw [hp] at this
  have := this.mp (ZMod.pow_card_sub_one_eq_one hw0)
  rw [this]
  decide +kernel

theorem v_ne {u v : ZMod p} (h : v ^ 2 = u ^ 3 + 486662 * u ^ 2 + u) (hu : u ≠ 0) : v ≠ 0 := by
  rintro rfl
  refine nonsquare (486662 ^ 2 - 4) (by decide +kernel) (by decide +kernel) (2 * u + 486662) ?_
  have e : ((486662 ^ 2 - 4 : Nat) : ZMod p) = 486662 ^ 2 - 4 := by norm_num
  rw [e]
  have : u * (u ^ 2 + 486662 * u + 1) = 0 := by linear_combination -h
  have := (mul_eq_zero.mp this).resolve_left hu
  linear_combination 4 * this

theorem u_ne {u v : ZMod p} (h : v ^ 2 = u ^ 3 + 486662 * u ^ 2 + u) : u + 1 ≠ 0 := by
  intro hu
  have hu : u = -1 := by linear_combination hu
  rw [hu] at h
  refine nonsquare 486660 (by decide +kernel) (by decide +kernel) v ?_
  rw [h]
  norm_num

theorem curve_eq {u v : ZMod p} (h : E.Nonsingular u v) : v ^ 2 = u ^ 3 + 486662 * u ^ 2 + u := (equation_iff u v).mp h.1

theorem root_ne : (root : ZMod p) ≠ 0 := const_ne root (by decide +kernel)

theorem root_sq : (root : ZMod p) ^ 2 = -486664 := by
  have := natCast_eq (root ^ 2 + 486664) 0 (by decide +kernel)
  push_cast at this
  linear_combination this

/-! ### Edwards coordinates and encoding -/

theorem p_lt : p < 2 ^ 255 := by decide +kernel
theorem p_odd : p % 2 = 1 := by decide +kernel

theorem leNat_eq (b : Bytes) : leNat b = le b := Bytes.beNat_eq _

theorem isLe_leBytes {k x : Nat} (h : x < 256 ^ k) : IsLe k x (leBytes k x) := by
  rw [IsLe, leBytes, List.reverse_reverse]
  exact Bytes.isBe_beBytes h

theorem isLe_unique {k x : Nat} {a b : Bytes} (ha : IsLe k x a) (hb : IsLe k x b) : a = b :=
  List.reverse_injective (Bytes.isBe_unique ha hb)

theorem le_lt (b : Bytes) : le b < 256 ^ b.length := by
  have := Bytes.be_lt b.reverse
  rwa [List.length_reverse] at this

theorem le_leBytes {k x : Nat} (h : x < 256 ^ k) : le (leBytes k x) = x := (isLe_leBytes h).2

/-- Every point has Edwards coordinates. -/
theorem edwards_spec {j : J} {P : E.Point} (h : Rep j P) {x y : Nat} (he : edwards (affine p j) = (x, y)) :
    Edwards P x y ∧ x < p ∧ y < p := by
  have hp : 1 < p := by decide +kernel
  cases P with
  | zero =>
    have := affine_zero (show Rep j (0 : E.Point) from h)
    rw [this, edwards, Prod.mk.injEq] at he
    obtain ⟨rfl, rfl⟩ := he
    exact ⟨⟨Nat.cast_zero, Nat.cast_one⟩, by omega, hp⟩
  | some u v huv =>
    rw [affine_some h, edwards] at he
    have hiff : u.val % p = 0 ↔ u = 0 := by rw [mod_zero, ZMod.natCast_zmod_val]
    by_cases hu : u = 0
    · rw [if_pos (hiff.mpr hu), Prod.mk.injEq] at he
      obtain ⟨rfl, rfl⟩ := he
      refine ⟨Or.inl ⟨hu, Nat.cast_zero, ?_⟩, by omega, by omega⟩
      rw [Nat.cast_sub hp.le, ZMod.natCast_self]
      simp
    · rw [if_neg (hiff.not.mpr hu), Prod.mk.injEq] at he
      obtain ⟨rfl, rfl⟩ := he
      have hv := v_ne (curve_eq huv) hu
      have hu1 := u_ne (curve_eq huv)
      have e1 : ((u.val + 1 : Nat) : ZMod p) = u + 1 := by push_cast; rw [ZMod.natCast_zmod_val]
      have e2 : ((u.val + (p - 1) : Nat) : ZMod p) = u - 1 := by
        rw [Nat.cast_add, Nat.cast_sub hp.le, ZMod.natCast_self, ZMod.natCast_zmod_val]
        push_cast
        ring
      refine ⟨Or.inr ⟨hu, ?_, ?_⟩, Nat.mod_lt _ pos, Nat.mod_lt _ pos⟩
      · rw [ZMod.natCast_mod, Nat.cast_mul, ZMod.natCast_mod, inv_cast p v.val (by rwa [ZMod.natCast_zmod_val]), Nat.cast_mul,
          ZMod.natCast_zmod_val, ZMod.natCast_zmod_val]
        field_simp
      · rw [ZMod.natCast_mod, Nat.cast_mul, inv_cast p _ (by rwa [e1]), e1, e2]
        field_simp

theorem enc_lt (x y : ZMod p) : y.val + 2 ^ 255 * (x.val % 2) < 256 ^ 32 := by
  have h1 := (ZMod.val_lt y).trans p_lt
  have h2 : x.val % 2 < 2 := Nat.mod_lt _ (by decide)
  omega

theorem enc_spec {j : J} {P : E.Point} (h : Rep j P) : Encodes P (enc j) := by
  obtain ⟨x, y, he⟩ : ∃ x y, edwards (affine p j) = (x, y) := ⟨_, _, rfl⟩
  obtain ⟨h1, h2, h3⟩ := edwards_spec h he
  refine ⟨x, y, h1, ?_⟩
  have : enc j = leBytes 32 (y + 2 ^ 255 * (x % 2)) := by rw [enc, he]
  rw [this]
  have hlt := enc_lt (x : ZMod p) (y : ZMod p)
  rw [ZMod.val_cast_of_lt h2, ZMod.val_cast_of_lt h3] at hlt ⊢
  exact isLe_leBytes hlt

/-- Edwards coordinates are unique. -/
theorem edwards_unique {P : E.Point} {x y x' y' : ZMod p} (h : Edwards P x y) (h' : Edwards P x' y') : x = x' ∧ y = y' := by
  cases P with
  | zero => exact ⟨h.1.trans h'.1.symm, h.2.trans h'.2.symm⟩
  | some u v huv =>
    rcases h with ⟨h1, h2, h3⟩ | ⟨h1, h2, h3⟩ <;> rcases h' with ⟨h1', h2', h3'⟩ | ⟨h1', h2', h3'⟩
    · exact ⟨h2.trans h2'.symm, h3.trans h3'.symm⟩
    · exact absurd h1 h1'
    · exact absurd h1' h1
    · exact ⟨mul_right_cancel₀ (v_ne (curve_eq huv) h1) (h2.trans h2'.symm),
        mul_right_cancel₀ (u_ne (curve_eq huv)) (h3.trans h3'.symm)⟩

theorem encodes_unique {P : E.Point} {a b : Bytes} (ha : Encodes P a) (hb : Encodes P b) : a = b := by
  obtain ⟨x, y, h, hx⟩ := ha
  obtain ⟨x', y', h', hx'⟩ := hb
  obtain ⟨rfl, rfl⟩ := edwards_unique h h'
  exact isLe_unique hx hx'

theorem d_ne (y : ZMod p) : (121666 : ZMod p) - 121665 * y ^ 2 ≠ 0 := by
  intro h
  refine nonsquare (121665 * 121666) (by decide +kernel) (by decide +kernel) (121665 * y) ?_
  push_cast
  linear_combination -121665 * h

/-- The Edwards coordinates of a point satisfy -x² + y² = 1 - (121665/121666) x² y². -/
theorem edwards_eq {P : E.Point} {x y : ZMod p} (h : Edwards P x y) :
    121666 * (-x ^ 2 + y ^ 2) = 121666 - 121665 * x ^ 2 * y ^ 2 := by
  cases P with
  | zero => rw [h.1, h.2]; ring
  | some u v huv =>
    rcases h with ⟨-, h2, h3⟩ | ⟨h1, h2, h3⟩
    · rw [h2, h3]; ring
    have hv := v_ne (curve_eq huv) h1
    have hu := u_ne (curve_eq huv)
    have hx2 : x ^ 2 * v ^ 2 = -486664 * u ^ 2 := by rw [← mul_pow, h2, mul_pow, root_sq]
    have hy2 : y ^ 2 * (u + 1) ^ 2 = (u - 1) ^ 2 := by rw [← mul_pow, h3]
    refine mul_right_cancel₀ (mul_ne_zero (pow_ne_zero 2 hv) (pow_ne_zero 2 hu)) ?_
    linear_combination (-121666 * (u + 1) ^ 2 + 121665 * (y ^ 2 * (u + 1) ^ 2)) * hx2 +
      (121666 * v ^ 2 - 121665 * 486664 * u ^ 2) * hy2 + 121666 * ((u - 1) ^ 2 - (u + 1) ^ 2) * curve_eq huv

/-- A point is determined by its Edwards coordinates. -/
theorem edwards_inj {P Q : E.Point} {x y : ZMod p} (hP : Edwards P x y) (hQ : Edwards Q x y) : P = Q := by
  have hm : (-1 : ZMod p) ≠ 1 := fun h => two_ne (by linear_combination -h)
  have key : ∀ {u : ZMod p}, y * (u + 1) = u - 1 → y ≠ 1 := by
    rintro u h rfl
    exact two_ne (by linear_combination h)
  have key2 : ∀ {u : ZMod p}, u ≠ 0 → y * (u + 1) = u - 1 → y ≠ -1 := by
    rintro u hu h rfl
    exact hu ((mul_eq_zero.mp (show 2 * u = 0 by linear_combination -h)).resolve_left two_ne)
  cases P with
  | zero =>
    cases Q with
    | zero => rfl
    | some u v huv =>
      rcases hQ with ⟨h1, h2, h3⟩ | ⟨h1, h2, h3⟩
      · exact absurd (h3.symm.trans hP.2) hm
      · exact absurd hP.2 (key h3)
  | some u v huv =>
    cases Q with
    | zero =>
      rcases hP with ⟨h1, h2, h3⟩ | ⟨h1, h2, h3⟩
      · exact absurd (h3.symm.trans hQ.2) hm
      · exact absurd hQ.2 (key h3)
    | some u' v' huv' =>
      have aux : ∀ {u v : ZMod p}, v ^ 2 = u ^ 3 + 486662 * u ^ 2 + u → u = 0 → v = 0 := by
        rintro u v h rfl
        exact pow_eq_zero_iff (two_ne_zero) |>.mp (by rw [h]; ring)
      have : u = u' ∧ v = v' := by
        rcases hP with ⟨h1, h2, h3⟩ | ⟨h1, h2, h3⟩ <;> rcases hQ with ⟨h1', h2', h3'⟩ | ⟨h1', h2', h3'⟩
        · exact ⟨h1.trans h1'.symm, (aux (curve_eq huv) h1).trans (aux (curve_eq huv') h1').symm⟩
        · exact absurd h3 (key2 h1' h3')
        · exact absurd h3' (key2 h1 h3)
        · have hy : y - 1 ≠ 0 := fun h => key h3 (by linear_combination h)
          have hu : u = u' := mul_left_cancel₀ hy (by linear_combination h3 - h3')
          subst hu
          have hx : x ≠ 0 := by
            rintro rfl
            exact mul_ne_zero root_ne h1 (by rw [← h2]; ring)
          exact ⟨rfl, mul_left_cancel₀ hx (h2.trans h2'.symm)⟩
      obtain ⟨rfl, rfl⟩ := this
      rfl

/-- The encoding determines the point. -/
theorem encodes_inj {P Q : E.Point} {b : Bytes} (hP : Encodes P b) (hQ : Encodes Q b) : P = Q := by
  obtain ⟨x, y, h, hx⟩ := hP
  obtain ⟨x', y', h', hx'⟩ := hQ
  have he : y.val + 2 ^ 255 * (x.val % 2) = y'.val + 2 ^ 255 * (x'.val % 2) := hx.2.symm.trans hx'.2
  have l1 := (ZMod.val_lt y).trans p_lt
  have l2 := (ZMod.val_lt y').trans p_lt
  have hy : y = y' := ZMod.val_injective p (by omega)
  have hpar : x.val % 2 = x'.val % 2 := by omega
  subst hy
  have e1 := edwards_eq h
  have e2 := edwards_eq h'
  have hx2 : (121666 - 121665 * y ^ 2) * ((x - x') * (x + x')) = 0 := by linear_combination e2 - e1
  replace hx2 := (mul_eq_zero.mp hx2).resolve_left (d_ne y)
  have hxx : x = x' := by
    rcases mul_eq_zero.mp hx2 with h0 | h0
    · exact sub_eq_zero.mp h0
    · have hn : x' = -x := by linear_combination h0
      by_cases hx0 : x = 0
      · rw [hn, hx0, neg_zero]
      · exfalso
        rw [hn, ZMod.neg_val, if_neg hx0] at hpar
        have := ZMod.val_lt x
        have := p_odd
        omega
  subst hxx
  exact edwards_inj h h'

end KC.Real.Ed25519
