import Verif.Spec.Secp256k1
import Verif.Spec.Keys
import Mathlib.GroupTheory.OrderOfElement
/-
secp256k1 and ECDSA (SEC 1, 4.1; SEC 2, 2.4.1) in place of crate `libsecp256k1`.  The nonces are any function of message and key.
-/
namespace KC.Real.Secp256k1
open KC.Real.Ec KC.Spec.Secp256k1

/-- `k G`. -/
def mulG (k : Nat) : J := smul p 0 0 ⟨gx, gy, 1⟩ 256 k

/-- The public key. -/
def pub (k : Secp.Secret) : Nat × Nat := (affine p (mulG k.val)).getD (0, 0)

/-- SEC 1, 4.1.3 with one nonce: `r`, `s` (made at most half the order) and the recovery id; `none` when another nonce is needed. -/
def signWith (z k j : Nat) : Option (Nat × Nat × Nat) :=
  if j = 0 ∨ n ≤ j then none
  else
    match affine p (mulG j) with
    | none => none
    | some (x, y) =>
      if x % n = 0 then none
      else if Ec.inv n j * (z + x % n * k) % n = 0 then none
      else if n / 2 < Ec.inv n j * (z + x % n * k) % n then
        some (x % n, n - Ec.inv n j * (z + x % n * k) % n, (if n ≤ x then 2 else 0) + (1 - y % 2))
      else some (x % n, Ec.inv n j * (z + x % n * k) % n, (if n ≤ x then 2 else 0) + y % 2)

/-- The first result among the first `f` nonces. -/
def firstGood {α : Type} (g : Nat → Option α) : Nat → Nat → Option α
  | 0, _ => none
  | f + 1, i => match g i with
    | some v => some v
    | none => firstGood g f (i + 1)

/-- SEC 1, 4.1.3. -/
def sign (nonce : Bytes → Secp.Secret → Nat → Nat) (tries : Nat) (m : Bytes) (k : Secp.Secret) :
    Res Secp.SecError (Bytes × Bytes × UInt8) :=
  match firstGood (fun i => signWith (Bytes.beNat m % n) k.val (nonce m k i)) tries 0 with
  | some (r, s, v) => .ok (Bytes.beBytes 32 r, Bytes.beBytes 32 s, UInt8.ofNat v)
  | none => .err .invalidMessage

theorem sign_ok {nonce : Bytes → Secp.Secret → Nat → Nat} {tries : Nat} {m : Bytes} {k : Secp.Secret} {r s : Bytes} {v : UInt8}
    (h : sign nonce tries m k = .ok (r, s, v)) :
    ∃ r' s' v', firstGood (fun i => signWith (Bytes.beNat m % n) k.val (nonce m k i)) tries 0 = some (r', s', v') ∧
      r = Bytes.beBytes 32 r' ∧ s = Bytes.beBytes 32 s' ∧ v = UInt8.ofNat v' := by
  unfold sign at h
  generalize firstGood _ _ _ = o at h
  cases o with
  | none => cases h
  | some t =>
    obtain ⟨r', s', v'⟩ := t
    simp only [Res.ok.injEq, Prod.mk.injEq] at h
    exact ⟨r', s', v', rfl, h.1.symm, h.2.1.symm, h.2.2.symm⟩

theorem sign_len (nonce : Bytes → Secp.Secret → Nat → Nat) (tries : Nat) (m : Bytes) (k : Secp.Secret) (r s : Bytes) (v : UInt8)
    (h : sign nonce tries m k = .ok (r, s, v)) : r.length = 32 ∧ s.length = 32 := by
  obtain ⟨r', s', v', -, hr, hs, -⟩ := sign_ok h
  rw [hr, hs]
  exact ⟨Bytes.beBytes_length _ _, Bytes.beBytes_length _ _⟩

theorem sign_no_panic (nonce : Bytes → Secp.Secret → Nat → Nat) (tries : Nat) (m : Bytes) (k : Secp.Secret) :
    sign nonce tries m k ≠ .panic := by
  unfold sign
  generalize firstGood _ _ _ = o
  cases o with
  | none => intro h; cases h
  | some v => intro h; cases h

/-- SEC 1, 4.1.4. -/
def check (z r s : Nat) (q : Nat × Nat) : Bool :=
  if r = 0 ∨ s = 0 then false
  else
    match affine p (add p 0 0 (mulG (Ec.inv n s * z % n)) (smul p 0 0 ⟨q.1, q.2, 1⟩ 256 (Ec.inv n s * r % n))) with
    | none => false
    | some (x, _) => decide (x % n = r)

def verify (m sig : Bytes) (q : Nat × Nat) : Bool :=
  check (Bytes.beNat m % n) (Bytes.beNat (sig.take 32) % n) (Bytes.beNat ((sig.drop 32).take 32) % n) q

/-- The curve record. -/
def curve (nonce : Bytes → Secp.Secret → Nat → Nat) (tries : Nat) : Secp.Curve where
  Pub := Nat × Nat
  pub := pub
  ser q := 4 :: (Bytes.beBytes 32 q.1 ++ Bytes.beBytes 32 q.2)
  ser_len q := by simp [Bytes.beBytes_length]
  serCompressed q := UInt8.ofNat (2 + q.2 % 2) :: Bytes.beBytes 32 q.1
  serCompressed_len q := by simp [Bytes.beBytes_length]
  sign := sign nonce tries
  sign_len m k r s v := sign_len nonce tries m k r s v
  sign_no_panic := sign_no_panic nonce tries
  verify := verify

/-! ### The group -/

theorem rep_G : Rep ⟨gx, gy, 1⟩ G := ⟨by simp, by simp, by simp⟩

theorem rep_mulG (k : Nat) (hk : k < 2 ^ 256) : Rep (mulG k) (k • G) := rep_smul two_ne rep_G 256 k hk

theorem smul_zero_of (k : Nat) (hk : k < 2 ^ 256) (h : (mulG k).z % p = 0) : k • G = 0 := rep_z (rep_mulG k hk) h

theorem n_smul : n • G = 0 := smul_zero_of n (by decide +kernel) (by decide +kernel)

theorem order_G : addOrderOf G = n :=
  addOrderOf_eq_prime n_smul (WeierstrassCurve.Affine.Point.some_ne_zero _)

theorem smul_eq_zero (k : Nat) : k • G = 0 ↔ n ∣ k := by
  rw [← order_G]
  exact addOrderOf_dvd_iff_nsmul_eq_zero.symm

theorem smul_congr (j k : Nat) (h : (j : ZMod n) = (k : ZMod n)) : j • G = k • G := by
  rw [nsmul_eq_nsmul_iff_modEq, order_G]
  exact (ZMod.natCast_eq_natCast_iff j k n).mp h

theorem smul_neg (j k : Nat) (h : (j : ZMod n) = -(k : ZMod n)) : j • G = -(k • G) := by
  rw [eq_neg_iff_add_eq_zero, ← add_nsmul, smul_eq_zero, ← ZMod.natCast_eq_zero_iff, Nat.cast_add, h]
  ring

theorem n_lt : n < 2 ^ 256 := by decide +kernel
theorem p_lt : p < 2 ^ 256 := by decide +kernel
theorem n_pos : 0 < n := by decide +kernel
theorem half_lt {s : Nat} (h : s ≤ n / 2) : s < n := lt_of_le_of_lt h (Nat.div_lt_self n_pos (by decide))

/-- A multiple of the base point that is not a multiple of the order is an affine point. -/
theorem smul_some (k : Nat) (h0 : 0 < k) (hk : k < n) : ∃ x y hxy, k • G = .some x y hxy := by
  have : k • G ≠ 0 := by
    rw [Ne, smul_eq_zero]
    exact fun h => absurd (Nat.le_of_dvd h0 h) (not_le.mpr hk)
  cases hP : k • G with
  | zero => exact absurd hP this
  | some x y hxy => exact ⟨x, y, hxy, rfl⟩

theorem affine_mulG {k : Nat} (hk : k < n) {x y hxy} (h : k • G = .some x y hxy) : affine p (mulG k) = some (x.val, y.val) := by
  have hr := rep_mulG k (hk.trans n_lt)
  rw [h] at hr
  exact affine_some hr

/-- The public key holds the coordinates of `k G`. -/
theorem pub_spec (k : Secp.Secret) : ∃ x y hxy, k.val • G = .some x y hxy ∧ pub k = (x.val, y.val) := by
  obtain ⟨x, y, hxy, h⟩ := smul_some k.val k.2.1 k.2.2
  refine ⟨x, y, hxy, h, ?_⟩
  rw [pub, affine_mulG k.2.2 h]
  rfl

theorem rep_val (x y : ZMod p) (hxy : E.Nonsingular x y) : Rep ⟨x.val, y.val, 1⟩ (.some x y hxy : E.Point) :=
  ⟨by simp, by simp, by simp⟩

theorem rep_pub (k : Secp.Secret) : Rep ⟨(pub k).1, (pub k).2, 1⟩ (k.val • G) := by
  obtain ⟨x, y, hxy, h, hp⟩ := pub_spec k
  rw [hp, h]
  exact rep_val x y hxy

/-- What a signature made with nonce `j` satisfies. -/
theorem signWith_spec {z k j r s v : Nat} (h : signWith z k j = some (r, s, v)) :
    0 < j ∧ j < n ∧ ∃ x y hxy, j • G = .some x y hxy ∧ r = x.val % n ∧ r ≠ 0 ∧ 0 < s ∧ s ≤ n / 2 ∧
      (((s : ZMod n) * j = z + r * k ∧ v = (if n ≤ x.val then 2 else 0) + y.val % 2) ∨
       ((s : ZMod n) * j = -(z + r * k) ∧ v = (if n ≤ x.val then 2 else 0) + (1 - y.val % 2))) := by
  unfold signWith at h
  by_cases hj : j = 0 ∨ n ≤ j
  · rw [if_pos hj] at h; cases h
  rw [if_neg hj] at h
  rw [not_or, not_le] at hj
  have hj0 : 0 < j := Nat.pos_of_ne_zero hj.1
  obtain ⟨x, y, hxy, hG⟩ := smul_some j hj0 hj.2
  rw [affine_mulG hj.2 hG] at h
  simp only at h
  have hjn : (j : ZMod n) ≠ 0 := by
    rw [Ne, ZMod.natCast_eq_zero_iff]
    exact fun h => absurd (Nat.le_of_dvd hj0 h) (not_le.mpr hj.2)
  generalize hS : Ec.inv n j * (z + x.val % n * k) % n = S at h
  have hSn : S < n := by rw [← hS]; exact Nat.mod_lt _ n_pos
  have hSj : (S : ZMod n) * j = z + (x.val % n : Nat) * k := by
    rw [← hS, ZMod.natCast_mod, Nat.cast_mul, inv_cast n j hjn, Nat.cast_add, Nat.cast_mul]
    field_simp
  refine ⟨hj0, hj.2, x, y, hxy, hG, ?_⟩
  by_cases hr : x.val % n = 0
  · rw [if_pos hr] at h; cases h
  rw [if_neg hr] at h
  by_cases hs : S = 0
  · rw [if_pos hs] at h; cases h
  rw [if_neg hs] at h
  by_cases hhalf : n / 2 < S
  · rw [if_pos hhalf] at h
    simp only [Option.some.injEq, Prod.mk.injEq] at h
    obtain ⟨rfl, rfl, rfl⟩ := h
    refine ⟨rfl, hr, by omega, by omega, Or.inr ⟨?_, rfl⟩⟩
    rw [Nat.cast_sub hSn.le, ZMod.natCast_self, zero_sub, neg_mul, hSj]
  · rw [if_neg hhalf] at h
    simp only [Option.some.injEq, Prod.mk.injEq] at h
    obtain ⟨rfl, rfl, rfl⟩ := h
    exact ⟨rfl, hr, by omega, by omega, Or.inl ⟨hSj, rfl⟩⟩

theorem check_signWith {z j r s v : Nat} (k : Secp.Secret) (h : signWith z k.val j = some (r, s, v)) : check z r s (pub k) = true := by
  obtain ⟨hj0, hjn, x, y, hxy, hG, hr, hr0, hs0, hsh, hsj⟩ := signWith_spec h
  have hsn := half_lt hsh
  have hs : (s : ZMod n) ≠ 0 := by
    rw [Ne, ZMod.natCast_eq_zero_iff]
    exact fun h => absurd (Nat.le_of_dvd hs0 h) (not_le.mpr hsn)
  unfold check
  rw [if_neg (by omega)]
  have hu1 : Ec.inv n s * z % n < n := Nat.mod_lt _ n_pos
  have hu2 : Ec.inv n s * r % n < n := Nat.mod_lt _ n_pos
  generalize hU1 : Ec.inv n s * z % n = u1 at hu1
  generalize hU2 : Ec.inv n s * r % n = u2 at hu2
  have c1 : (u1 : ZMod n) = (s : ZMod n)⁻¹ * z := by rw [← hU1, ZMod.natCast_mod, Nat.cast_mul, inv_cast n s hs]
  have c2 : (u2 : ZMod n) = (s : ZMod n)⁻¹ * r := by rw [← hU2, ZMod.natCast_mod, Nat.cast_mul, inv_cast n s hs]
  have hrep := rep_add two_ne (rep_mulG u1 (hu1.trans n_lt)) (rep_smul two_ne (rep_pub k) 256 u2 (hu2.trans n_lt))
  rw [← mul_nsmul', ← add_nsmul] at hrep
  have hcast : ((u1 + u2 * k.val : Nat) : ZMod n) * s = z + r * k.val := by
    push_cast
    rw [c1, c2]
    field_simp
  have hpt : ∃ y' hxy', (u1 + u2 * k.val) • G = .some x y' hxy' := by
    rcases hsj with ⟨e, -⟩ | ⟨e, -⟩
    · refine ⟨y, hxy, ?_⟩
      rw [← hG]
      refine smul_congr _ _ (mul_right_cancel₀ hs ?_)
      rw [hcast, ← e, mul_comm]
    · refine ⟨_, (WeierstrassCurve.Affine.nonsingular_neg _ _).mpr hxy, ?_⟩
      rw [← WeierstrassCurve.Affine.Point.neg_some hxy, ← hG]
      refine smul_neg _ _ (mul_right_cancel₀ hs ?_)
      rw [hcast, neg_mul, mul_comm (j : ZMod n), e, neg_neg]
  obtain ⟨y', hxy', hpt⟩ := hpt
  rw [hpt] at hrep
  rw [affine_some hrep]
  exact decide_eq_true hr.symm

theorem firstGood_some {α : Type} {g : Nat → Option α} {f i : Nat} {v : α} (h : firstGood g f i = some v) : ∃ j, g j = some v := by
  induction f generalizing i with
  | zero => cases h
  | succ f ih =>
    unfold firstGood at h
    split at h
    · rename_i w hw
      exact ⟨i, hw.trans h⟩
    · exact ih h

theorem val_beBytes {x : Nat} (h : x < n) : Bytes.beNat (Bytes.beBytes 32 x) % n = x := by
  have h32 : (256 : Nat) ^ 32 = 2 ^ 256 := by decide +kernel
  rw [Bytes.beNat_eq, Bytes.be_beBytes, h32, Nat.mod_eq_of_lt (h.trans n_lt), Nat.mod_eq_of_lt h]

theorem sig_fst (x y : Nat) : (Bytes.beBytes 32 x ++ Bytes.beBytes 32 y).take 32 = Bytes.beBytes 32 x :=
  List.take_left' (Bytes.beBytes_length 32 x)

theorem sig_snd (x y : Nat) : ((Bytes.beBytes 32 x ++ Bytes.beBytes 32 y).drop 32).take 32 = Bytes.beBytes 32 y := by
  rw [List.drop_left' (Bytes.beBytes_length 32 x), List.take_of_length_le (Bytes.beBytes_length 32 y).le]

/-- ECDSA over secp256k1 verifies what it signed, whatever the nonces. -/
theorem ecdsa_correct (nonce : Bytes → Secp.Secret → Nat → Nat) (tries : Nat) : Spec.EcdsaCorrect (curve nonce tries) := by
  intro m k r s v h
  obtain ⟨r', s', v', hf, er, es, -⟩ := sign_ok (show sign nonce tries m k = _ from h)
  obtain ⟨j, hj⟩ := firstGood_some hf
  obtain ⟨-, -, x, y, hxy, -, hr, -, -, hsh, -⟩ := signWith_spec hj
  have hs := half_lt hsh
  have hr' : r' < n := by rw [hr]; exact Nat.mod_lt _ n_pos
  simp only [curve]
  rw [er, es]
  unfold verify
  rw [sig_fst, sig_snd, val_beBytes hr', val_beBytes hs]
  exact check_signWith k hj

/-! ### Recovery of the public key -/

/-- SEC 1, 4.1.6: the public key from `r`, `s` and a recovery id below 2. -/
def recover (z r s v : Nat) : Option (Nat × Nat) :=
  force (powMod p 256 ((r * r % p * r + 7) % p) ((p + 1) / 4)) fun y0 =>
  if y0 * y0 % p ≠ (r * r % p * r + 7) % p then none
  else
    force (if y0 % 2 = v then y0 else p - y0) fun y =>
    affine p (add p 0 0 (smul p 0 0 ⟨r, y, 1⟩ 256 (Ec.inv n r * s % n)) (mulG (n - Ec.inv n r * z % n)))

theorem sqrt_val (w : ZMod p) : (w ^ 2) ^ ((p + 1) / 4) = w ∨ (w ^ 2) ^ ((p + 1) / 4) = -w := by
  by_cases hw : w = 0
  · left
    rw [hw]
    have : (p + 1) / 4 ≠ 0 := by decide +kernel
    rw [zero_pow two_ne_zero, zero_pow this]
  have h1 : (w ^ ((p - 1) / 2)) ^ 2 = 1 := by
    rw [← pow_mul, show (p - 1) / 2 * 2 = p - 1 by decide +kernel]
    exact ZMod.pow_card_sub_one_eq_one hw
  have h2 : (w ^ 2) ^ ((p + 1) / 4) = w ^ ((p - 1) / 2) * w := by
    rw [← pow_mul, ← pow_succ, show 2 * ((p + 1) / 4) = (p - 1) / 2 + 1 by decide +kernel]
  rw [h2]
  rcases sq_eq_one_iff.mp h1 with h | h
  · left; rw [h, one_mul]
  · right; rw [h, neg_one_mul]

theorem val_neg (y : ZMod p) (hy : y ≠ 0) : (-y).val = p - y.val := by
  rw [ZMod.neg_val, if_neg hy]

theorem val_pos (y : ZMod p) (hy : y ≠ 0) : 0 < y.val := Nat.pos_of_ne_zero fun h => hy ((ZMod.val_eq_zero y).mp h)

theorem p_odd : p % 2 = 1 := by decide +kernel

/-- No multiple of the base point has second coordinate zero. -/
theorem y_ne {j : Nat} {x y hxy} (hG : j • G = .some x y hxy) : y ≠ 0 := by
  intro hy
  have h2 : (2 * j) • G = 0 := by
    rw [two_mul, add_nsmul, hG]
    exact WeierstrassCurve.Affine.Point.add_self_of_Y_eq (by rw [negY_eq, hy, neg_zero])
  rw [smul_eq_zero] at h2
  rcases (Nat.Prime.dvd_mul (Fact.out : n.Prime)).mp h2 with h | h
  · exact absurd (Nat.le_of_dvd (by decide) h) (by decide +kernel)
  · rw [← smul_eq_zero, hG] at h
    exact WeierstrassCurve.Affine.Point.some_ne_zero _ h

/-- In both cases of signing, some multiple of the base point has the coordinates that `r` and the recovery id name. -/
theorem signWith_point {z k j r s v : Nat} (h : signWith z k j = some (r, s, v)) (hv : v < 2) :
    ∃ j' x y hxy, j' • G = .some x y hxy ∧ x.val = r ∧ y.val % 2 = v ∧ (s : ZMod n) * (j' : Nat) = z + r * k ∧
      (r : ZMod n) ≠ 0 := by
  obtain ⟨hj0, hjn, x, y, hxy, hG, hr, hr0, hs0, hsh, hsj⟩ := signWith_spec h
  have hsn := half_lt hsh
  have hx : x.val < n := by
    by_contra hc
    rw [if_pos (not_lt.mp hc)] at hsj
    omega
  rw [if_neg (not_le.mpr hx)] at hsj
  rw [Nat.mod_eq_of_lt hx] at hr
  have hrn : (r : ZMod n) ≠ 0 := by
    rw [Ne, ZMod.natCast_eq_zero_iff]
    exact fun h => absurd (Nat.le_of_dvd (Nat.pos_of_ne_zero hr0) h) (by omega)
  rcases hsj with ⟨e, ev⟩ | ⟨e, ev⟩
  · exact ⟨j, x, y, hxy, hG, hr.symm, by omega, e, hrn⟩
  · have hy := y_ne hG
    refine ⟨n - j, x, -y, ?_, ?_, hr.symm, ?_, ?_, hrn⟩
    · rw [← negY_eq ((0 : Nat) : ZMod p) ((0 : Nat) : ZMod p) ((7 : Nat) : ZMod p) x y]
      exact (WeierstrassCurve.Affine.nonsingular_neg _ _).mpr hxy
    · have : (n - j) • G = -(j • G) := smul_neg _ _ (by rw [Nat.cast_sub hjn.le, ZMod.natCast_self, zero_sub])
      rw [this, hG, WeierstrassCurve.Affine.Point.neg_some]
      congr 1
      exact negY_eq _ _ _ _ _
    · rw [val_neg y hy]
      have := ZMod.val_lt y
      have := p_odd
      omega
    · rw [Nat.cast_sub hjn.le, ZMod.natCast_self, zero_sub, mul_neg, e, neg_neg]

theorem recover_signWith {z j r s v : Nat} (k : Secp.Secret) (h : signWith z k.val j = some (r, s, v)) (hv : v < 2) :
    recover z r s v = some (pub k) := by
  obtain ⟨j', x, y, hxy, hG, hx, hy, e, hrn⟩ := signWith_point h hv
  have hy0 := y_ne hG
  have heq : y ^ 2 = x ^ 3 + 7 := (equation_iff x y).mp hxy.1
  have hxr : (r : ZMod p) = x := by rw [← hx, ZMod.natCast_zmod_val]
  have hc : (((r * r % p * r + 7) % p : Nat) : ZMod p) = y ^ 2 := by
    rw [heq, ZMod.natCast_mod, Nat.cast_add, Nat.cast_mul, ZMod.natCast_mod, Nat.cast_mul, hxr]
    push_cast
    ring
  unfold recover
  rw [powMod_eq _ _ _ _ (by decide +kernel), force_eq]
  generalize hy0' : ((r * r % p * r + 7) % p) ^ ((p + 1) / 4) % p = y0
  have hy0lt : y0 < p := by rw [← hy0']; exact Nat.mod_lt _ (by decide +kernel)
  have hcy0 : (y0 : ZMod p) = (y ^ 2) ^ ((p + 1) / 4) := by
    rw [← hy0', ZMod.natCast_mod, Nat.cast_pow, hc]
  have hsq : y0 * y0 % p = (r * r % p * r + 7) % p := by
    have : ((y0 * y0 : Nat) : ZMod p) = ((r * r % p * r + 7) % p : Nat) := by
      rw [hc, Nat.cast_mul, hcy0]
      rcases sqrt_val y with h | h <;> rw [h] <;> ring
    have := (ZMod.natCast_eq_natCast_iff _ _ p).mp this
    rw [Nat.ModEq, Nat.mod_mod] at this
    exact this
  rw [if_neg (not_not.mpr hsq), force_eq]
  have hyv : (if y0 % 2 = v then y0 else p - y0) = y.val := by
    have hlt := ZMod.val_lt y
    have hpos := val_pos y hy0
    have hodd := p_odd
    have hv0 : y0 = (y0 : ZMod p).val := by rw [ZMod.val_natCast, Nat.mod_eq_of_lt hy0lt]
    rcases sqrt_val y with h | h
    · rw [hcy0, h] at hv0
      rw [hv0, if_pos hy]
    · rw [hcy0, h, val_neg y hy0] at hv0
      rw [if_neg (by omega)]
      omega
  rw [hyv]
  have hu1 : Ec.inv n r * s % n < n := Nat.mod_lt _ n_pos
  have hu2 : Ec.inv n r * z % n < n := Nat.mod_lt _ n_pos
  generalize hU1 : Ec.inv n r * s % n = u1 at hu1
  generalize hU2 : Ec.inv n r * z % n = u2 at hu2
  have c1 : (u1 : ZMod n) = (r : ZMod n)⁻¹ * s := by rw [← hU1, ZMod.natCast_mod, Nat.cast_mul, inv_cast n r hrn]
  have c2 : (u2 : ZMod n) = (r : ZMod n)⁻¹ * z := by rw [← hU2, ZMod.natCast_mod, Nat.cast_mul, inv_cast n r hrn]
  have hR : Rep ⟨r, y.val, 1⟩ (j' • G) := by
    rw [hG, ← hx]
    exact rep_val x y hxy
  have hrep := rep_add two_ne (rep_smul two_ne hR 256 u1 (hu1.trans n_lt))
    (rep_mulG (n - u2) (lt_of_le_of_lt (Nat.sub_le _ _) n_lt))
  rw [← mul_nsmul', ← add_nsmul] at hrep
  have hk : (u1 * j' + (n - u2)) • G = k.val • G := by
    refine smul_congr _ _ ?_
    rw [Nat.cast_add, Nat.cast_mul, Nat.cast_sub hu2.le, ZMod.natCast_self, c1, c2]
    have : (r : ZMod n) * k.val = s * j' - z := by rw [e]; ring
    field_simp
    rw [this]
    ring
  rw [hk] at hrep
  obtain ⟨x', y', hxy', hk', hp⟩ := pub_spec k
  rw [hk'] at hrep
  rw [affine_some hrep, hp]

/-! ### Different secrets, different public keys -/

theorem smul_inj {j k : Nat} (hj : j < n) (hk : k < n) (h : j • G = k • G) : j = k := by
  rw [nsmul_eq_nsmul_iff_modEq, order_G] at h
  exact Nat.ModEq.eq_of_lt_of_lt h hj hk

theorem pub_inj {j k : Secp.Secret} (hx : (pub j).1 = (pub k).1) (hy : (pub j).2 % 2 = (pub k).2 % 2) : j = k := by
  obtain ⟨x, y, hxy, h, hp⟩ := pub_spec j
  obtain ⟨x', y', hxy', h', hp'⟩ := pub_spec k
  rw [hp, hp'] at hx hy
  simp only at hx hy
  have hx := ZMod.val_injective p hx
  subst hx
  refine Subtype.ext (smul_inj j.2.2 k.2.2 ?_)
  rw [h, h']
  have e := (equation_iff _ _).mp hxy.1
  have e' := (equation_iff _ _).mp hxy'.1
  have : y = y' := by
    rcases sq_eq_sq_iff_eq_or_eq_neg.mp (e.trans e'.symm) with h | h
    · exact h
    · exfalso
      have hy' := y_ne h'
      rw [h, val_neg y' hy'] at hy
      have := ZMod.val_lt y'
      have := p_odd
      omega
  subst this
  rfl

/-! ### Serialisation, verification and recovery in terms of points -/

theorem isBe_val (x : ZMod p) : Spec.Bip32.IsBe 32 x.val (Bytes.beBytes 32 x.val) :=
  Bytes.isBe_beBytes (by
    have := ZMod.val_lt x
    have := p_lt
    have h32 : (256 : Nat) ^ 32 = 2 ^ 256 := by decide +kernel
    omega)

theorem isBe_lt {x : Nat} (h : x < n) : Spec.Bip32.IsBe 32 x (Bytes.beBytes 32 x) :=
  Bytes.isBe_beBytes (by
    have := n_lt
    have h32 : (256 : Nat) ^ 32 = 2 ^ 256 := by decide +kernel
    omega)

theorem ser_eq (nonce : Bytes → Secp.Secret → Nat → Nat) (tries : Nat) (k : Secp.Secret) :
    Uncompressed (k.val • G) ((curve nonce tries).ser ((curve nonce tries).pub k)) := by
  obtain ⟨x, y, hxy, h, hp⟩ := pub_spec k
  refine ⟨x, y, hxy, h, _, _, isBe_val x, isBe_val y, ?_⟩
  simp only [curve, hp, List.cons_append, List.nil_append]

theorem serCompressed_eq (nonce : Bytes → Secp.Secret → Nat → Nat) (tries : Nat) (k : Secp.Secret) :
    Compressed (k.val • G) ((curve nonce tries).serCompressed ((curve nonce tries).pub k)) := by
  obtain ⟨x, y, hxy, h, hp⟩ := pub_spec k
  refine ⟨x, y, hxy, h, _, isBe_val x, ?_⟩
  simp only [curve, hp, List.cons_append, List.nil_append, List.cons.injEq, and_true]
  have : y.val % 2 = 0 ∨ y.val % 2 = 1 := by omega
  generalize y.val % 2 = e at this
  rcases this with h | h <;> subst h <;> decide

theorem uncompressed_inj {P Q : E.Point} {b : Bytes} (hP : Uncompressed P b) (hQ : Uncompressed Q b) : P = Q := by
  obtain ⟨x, y, h, rfl, bx, by', hx, hy, hb⟩ := hP
  obtain ⟨x', y', h', rfl, bx', by'', hx', hy', hb'⟩ := hQ
  rw [hb] at hb'
  obtain ⟨e1, e2⟩ := List.append_inj hb' (by simp [hx.1, hx'.1])
  rw [List.append_cancel_left_eq] at e1
  subst e1 e2
  have ex := ZMod.val_injective p (hx.2.symm.trans hx'.2)
  have ey := ZMod.val_injective p (hy.2.symm.trans hy'.2)
  subst ex ey
  rfl

/-- A point is given by its first coordinate and the parity of the second. -/
theorem point_ext {x y x' y' : ZMod p} {h : E.Nonsingular x y} {h' : E.Nonsingular x' y'} (hx : x.val = x'.val)
    (hy : y.val % 2 = y'.val % 2) : (.some x y h : E.Point) = .some x' y' h' := by
  have hx := ZMod.val_injective p hx
  subst hx
  have e := (equation_iff _ _).mp h.1
  have e' := (equation_iff _ _).mp h'.1
  have : y = y' := by
    rcases sq_eq_sq_iff_eq_or_eq_neg.mp (e.trans e'.symm) with h | h
    · exact h
    · by_cases hy' : y' = 0
      · rw [h, hy', neg_zero]
      · exfalso
        rw [h, val_neg y' hy'] at hy
        have := ZMod.val_lt y'
        have := p_odd
        omega
  subst this
  rfl

theorem compressed_inj {P Q : E.Point} {b : Bytes} (hP : Compressed P b) (hQ : Compressed Q b) : P = Q := by
  obtain ⟨x, y, h, rfl, bx, hx, hb⟩ := hP
  obtain ⟨x', y', h', rfl, bx', hx', hb'⟩ := hQ
  rw [hb] at hb'
  obtain ⟨e1, e2⟩ := List.append_inj hb' (by simp)
  subst e2
  refine point_ext (hx.2.symm.trans hx'.2) ?_
  by_cases h1 : y.val % 2 = 0 <;> by_cases h2 : y'.val % 2 = 0
  · rw [h1, h2]
  · rw [if_pos h1, if_neg h2] at e1; exact absurd e1 (by decide)
  · rw [if_neg h1, if_pos h2] at e1; exact absurd e1 (by decide)
  · omega

theorem compressed_unique {P : E.Point} {b b' : Bytes} (h : Compressed P b) (h' : Compressed P b') : b = b' := by
  obtain ⟨x, y, hxy, rfl, bx, hx, hb⟩ := h
  obtain ⟨x', y', hxy', e, bx', hx', hb'⟩ := h'
  cases e
  rw [hb, hb', Bytes.isBe_unique hx hx']

theorem natCast_val (a : ZMod n) : ((a.val : Nat) : ZMod n) = a := ZMod.natCast_zmod_val a

theorem val_lt_n (a : ZMod n) : a.val < n := ZMod.val_lt a

theorem mod_n_zero (x : Nat) : x % n = 0 ↔ (x : ZMod n) = 0 := mod_zero x

theorem check_iff (z r s : Nat) (k : Secp.Secret) : check z (r % n) (s % n) (pub k) = true ↔ Valid z r s (k.val • G) := by
  unfold check Valid
  simp only [mod_n_zero]
  by_cases hr : (r : ZMod n) = 0
  · simp [hr]
  by_cases hs : (s : ZMod n) = 0
  · simp [hs]
  rw [if_neg (by simp [hr, hs])]
  have hs' : ((s % n : Nat) : ZMod n) ≠ 0 := by rwa [ZMod.natCast_mod]
  have c1 : Ec.inv n (s % n) * z % n = ((s : ZMod n)⁻¹ * z).val := by
    rw [← ZMod.val_natCast, Nat.cast_mul, inv_cast n _ hs', ZMod.natCast_mod]
  have c2 : Ec.inv n (s % n) * (r % n) % n = ((s : ZMod n)⁻¹ * r).val := by
    rw [← ZMod.val_natCast, Nat.cast_mul, inv_cast n _ hs', ZMod.natCast_mod, ZMod.natCast_mod]
  rw [c1, c2]
  have hrep := rep_add two_ne (rep_mulG _ ((val_lt_n ((s : ZMod n)⁻¹ * z)).trans n_lt))
    (rep_smul two_ne (rep_pub k) 256 _ ((val_lt_n ((s : ZMod n)⁻¹ * r)).trans n_lt))
  generalize ((s : ZMod n)⁻¹ * z).val • G + ((s : ZMod n)⁻¹ * r).val • (k.val • G) = P at hrep
  cases P with
  | zero =>
    rw [affine_zero hrep]
    constructor
    · intro h; cases h
    · rintro ⟨-, -, x, y, h, e, -⟩; cases e
  | some x y hxy =>
    rw [affine_some hrep]
    simp only [decide_eq_true_eq]
    have e : x.val % n = r % n ↔ ((x.val : Nat) : ZMod n) = r := (ZMod.natCast_eq_natCast_iff _ _ n).symm
    rw [e]
    constructor
    · intro h; exact ⟨hr, hs, x, y, hxy, rfl, h⟩
    · rintro ⟨-, -, x', y', h', e, h⟩
      cases e
      exact h

/-- Verification accepts exactly the valid signatures. -/
theorem verify_iff (nonce : Bytes → Secp.Secret → Nat → Nat) (tries : Nat) (m sig : Bytes) (k : Secp.Secret) :
    (curve nonce tries).verify m sig ((curve nonce tries).pub k) = true ↔
      Valid (Spec.Bip32.be m) (Spec.Bip32.be (sig.take 32)) (Spec.Bip32.be ((sig.drop 32).take 32)) (k.val • G) := by
  simp only [curve]
  unfold verify
  rw [check_iff, Bytes.beNat_eq, Bytes.beNat_eq, Bytes.beNat_eq]
  unfold Valid
  rw [ZMod.natCast_mod]

theorem recovers_signWith {z j r s v : Nat} (k : Secp.Secret) (h : signWith z k.val j = some (r, s, v)) (hv : v < 2) :
    Recovers z r s v (k.val • G) := by
  obtain ⟨j', x, y, hxy, hG, hx, hy, e, hrn⟩ := signWith_point h hv
  refine ⟨⟨.some x y hxy, ⟨x, y, hxy, rfl, hx, hy⟩, ?_⟩, ?_⟩
  · rintro R ⟨x', y', h', rfl, hx', hy'⟩
    exact point_ext (hx'.trans hx.symm) (hy'.trans hy.symm)
  · intro x' y' h' hx' hy'
    rw [point_ext (h := h') (h' := hxy) (hx'.trans hx.symm) (hy'.trans hy.symm), ← hG, eq_sub_iff_add_eq, ← mul_nsmul',
      ← add_nsmul]
    refine smul_congr _ _ ?_
    push_cast
    rw [natCast_val, natCast_val]
    field_simp
    rw [e]
    ring

/-- What signing gives. -/
theorem sign_spec (nonce : Bytes → Secp.Secret → Nat → Nat) (tries : Nat) (m : Bytes) (k : Secp.Secret) (r s : Bytes) (v : UInt8)
    (h : (curve nonce tries).sign m k = .ok (r, s, v)) :
    Spec.Bip32.be s ≤ n / 2 ∧ Valid (Spec.Bip32.be m) (Spec.Bip32.be r) (Spec.Bip32.be s) (k.val • G) ∧
    (v = 0 ∨ v = 1 → Recovers (Spec.Bip32.be m) (Spec.Bip32.be r) (Spec.Bip32.be s) v.toNat (k.val • G)) := by
  obtain ⟨r', s', v', hf, er, es, ev⟩ := sign_ok (show sign nonce tries m k = _ from h)
  obtain ⟨j, hj⟩ := firstGood_some hf
  have hval := ecdsa_correct nonce tries m k r s v h
  rw [verify_iff, er, es, sig_fst, sig_snd, ← er, ← es] at hval
  obtain ⟨-, -, x, y, hxy, -, hr, -, -, hsh, hv⟩ := signWith_spec hj
  have hs := half_lt hsh
  have hr' : r' < n := by rw [hr]; exact Nat.mod_lt _ n_pos
  have be_r : Spec.Bip32.be r = r' := by rw [er]; exact (isBe_lt hr').2
  have be_s : Spec.Bip32.be s = s' := by rw [es]; exact (isBe_lt hs).2
  refine ⟨by rw [be_s]; exact hsh, hval, fun hv01 => ?_⟩
  have hv4 : v' < 4 := by
    have : y.val % 2 < 2 := Nat.mod_lt _ (by decide)
    rcases hv with ⟨-, e⟩ | ⟨-, e⟩ <;> rw [e] <;> split <;> omega
  have hvv : v.toNat = v' := by rw [ev, UInt8.toNat_ofNat']; omega
  have hv2 : v' < 2 := by
    rw [← hvv]
    rcases hv01 with e | e <;> rw [e] <;> decide
  have := recovers_signWith k hj hv2
  rw [be_r, be_s, hvv]
  unfold Recovers at this ⊢
  rwa [ZMod.natCast_mod, Bytes.beNat_eq] at this

end KC.Real.Secp256k1
