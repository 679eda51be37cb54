import Verif.Real.EdSign
/-
Reading encoded points of Ed25519 back (RFC 8032, 5.1.3) and verification with nothing but the encoded public key, and that both are
right.
-/
namespace KC.Real.Ed25519
open KC.Real.Ec KC.Spec.Ed25519

/-- RFC 8032, 5.1: the constant d. -/
def dn : Nat := 37095705934669439343138083508754565189542113879843219016388785533085940283555

theorem dn_eq : (dn : ZMod p) * 121666 = -121665 := by
  have := natCast_eq (dn * 121666 + 121665) 0 (by decide +kernel)
  push_cast at this
  linear_combination this

/-- RFC 8032, 5.1.3, step 2 and 3: a square root of `u / v`, from the candidate u v^3 (u v^7)^((p-5)/8). -/
def ratio (u v : Nat) : Option Nat :=
  force (v * v % p * v % p) fun v3 =>
  force (powMod p 256 (u * v3 % p * v3 % p * v % p) ((p - 5) / 8)) fun t =>
  force (u * v3 % p * t % p) fun c =>
  if v * (c * c % p) % p = u % p then some c
  else if v * (c * c % p) % p = (p - u % p) % p then some (c * im % p)
  else none

theorem natCast_iff (x y : Nat) : x % p = y % p ↔ (x : ZMod p) = (y : ZMod p) := (ZMod.natCast_eq_natCast_iff x y p).symm

theorem ratio_spec (u v : Nat) :
    (∀ r, ratio u v = some r → r < p ∧ (v : ZMod p) * (r : ZMod p) ^ 2 = u) ∧
    (∀ x : ZMod p, (v : ZMod p) ≠ 0 → (v : ZMod p) * x ^ 2 = u → ∃ r, ratio u v = some r) := by
  have hp0 : 0 < p := by decide +kernel
  have hm : ∀ z : Nat, ((z % p : Nat) : ZMod p) = z := fun z => ZMod.natCast_mod z p
  unfold ratio
  rw [force_eq, force_eq, force_eq, powMod_eq _ _ _ _ (by decide +kernel)]
  generalize hcd : u * (v * v % p * v % p) % p *
    ((u * (v * v % p * v % p) % p * (v * v % p * v % p) % p * v % p) ^ ((p - 5) / 8) % p) % p = c
  have hlt : c < p := by rw [← hcd]; exact Nat.mod_lt _ hp0
  have hc : (c : ZMod p) = u * v ^ 3 * (u * v ^ 7) ^ ((p - 5) / 8) := by
    rw [← hcd]
    simp only [hm, Nat.cast_mul, Nat.cast_pow]
    congr 2 <;> ring
  have h1 : v * (c * c % p) % p = u % p ↔ (v : ZMod p) * (c : ZMod p) ^ 2 = u := by
    rw [natCast_iff, Nat.cast_mul, hm, Nat.cast_mul, sq]
  have h2 : v * (c * c % p) % p = (p - u % p) % p ↔ (v : ZMod p) * (c : ZMod p) ^ 2 = -u := by
    rw [natCast_iff, Nat.cast_mul, hm, Nat.cast_mul, sq, Nat.cast_sub (Nat.mod_lt u hp0).le, ZMod.natCast_self, hm, zero_sub]
  constructor
  · intro r h
    split at h
    case isTrue he =>
      cases h
      exact ⟨hlt, h1.mp he⟩
    case isFalse =>
      split at h
      case isTrue he =>
        cases h
        refine ⟨Nat.mod_lt _ hp0, ?_⟩
        rw [hm, Nat.cast_mul]
        linear_combination (im : ZMod p) ^ 2 * h2.mp he - (u : ZMod p) * im_sq
      case isFalse => cases h
  · intro x hv hx
    have key : (v : ZMod p) * (c : ZMod p) ^ 2 = u ∨ (v : ZMod p) * (c : ZMod p) ^ 2 = -u := by
      by_cases hx0 : x = 0
      · left
        have hu : (u : ZMod p) = 0 := by rw [← hx, hx0]; ring
        rw [hc, hu]
        ring
      have hw : ((v : ZMod p) ^ 4 * x) ≠ 0 := mul_ne_zero (pow_ne_zero _ hv) hx0
      have hcx : (c : ZMod p) = x * ((v : ZMod p) ^ 4 * x) ^ ((p - 1) / 4) := by
        have e1 : (u : ZMod p) * v ^ 7 = ((v : ZMod p) ^ 4 * x) ^ 2 := by rw [← hx]; ring
        have e2 : (p - 1) / 4 = 2 * ((p - 5) / 8) + 1 := by decide +kernel
        rw [hc, e1, ← pow_mul, e2, pow_succ, ← hx]
        ring
      have h4 : (((v : ZMod p) ^ 4 * x) ^ ((p - 1) / 4)) ^ 4 = 1 := by
        rw [← pow_mul, show (p - 1) / 4 * 4 = p - 1 by decide +kernel]
        exact ZMod.pow_card_sub_one_eq_one hw
      generalize ((v : ZMod p) ^ 4 * x) ^ ((p - 1) / 4) = z at hcx h4
      have : (z ^ 2 - 1) * (z ^ 2 + 1) = 0 := by linear_combination h4
      rcases mul_eq_zero.mp this with h | h
      · left
        rw [hcx]
        linear_combination hx + (v : ZMod p) * x ^ 2 * h
      · right
        rw [hcx]
        linear_combination -hx + (v : ZMod p) * x ^ 2 * h
    by_cases e1 : v * (c * c % p) % p = u % p
    · exact ⟨_, if_pos e1⟩
    · rw [if_neg e1, if_pos (h2.mpr (key.resolve_left fun h => e1 (h1.mpr h)))]
      exact ⟨_, rfl⟩

/-- RFC 8032, 5.1.3, steps 2 to 4: the first coordinate with lowest bit `s` for the second coordinate `y`. -/
def xOf (y s : Nat) : Option Nat :=
  force (y * y % p) fun y2 =>
  match ratio ((y2 + (p - 1)) % p) ((dn * y2 + 1) % p) with
  | none => none
  | some r =>
    force (if r % 2 = s then r else (p - r) % p) fun x => if x % 2 = s then some x else none

/-- The equation of the curve. -/
theorem curve_iff (x y : ZMod p) :
    ((dn : ZMod p) * y ^ 2 + 1) * x ^ 2 = y ^ 2 - 1 ↔ 121666 * (-x ^ 2 + y ^ 2) = 121666 - 121665 * x ^ 2 * y ^ 2 := by
  constructor
  · intro h
    linear_combination -121666 * h + x ^ 2 * y ^ 2 * dn_eq
  · intro h
    refine mul_left_cancel₀ c_ne ?_
    linear_combination -h + x ^ 2 * y ^ 2 * dn_eq

theorem den_ne (y : ZMod p) : (dn : ZMod p) * y ^ 2 + 1 ≠ 0 := by
  intro h
  refine d_ne y ?_
  linear_combination 121666 * h - y ^ 2 * dn_eq

theorem xOf_iff (y s x : Nat) : xOf y s = some x ↔
    x < p ∧ x % 2 = s ∧ ((dn : ZMod p) * (y : ZMod p) ^ 2 + 1) * (x : ZMod p) ^ 2 = (y : ZMod p) ^ 2 - 1 := by
  have hp0 : 0 < p := by decide +kernel
  have hp1 : 1 ≤ p := hp0
  have hm : ∀ z : Nat, ((z % p : Nat) : ZMod p) = z := fun z => ZMod.natCast_mod z p
  have hval : ∀ z : Nat, z < p → (z : ZMod p).val = z := fun z hz => by rw [ZMod.val_natCast, Nat.mod_eq_of_lt hz]
  have hu : (((y * y % p + (p - 1)) % p : Nat) : ZMod p) = (y : ZMod p) ^ 2 - 1 := by
    rw [hm, Nat.cast_add, hm, Nat.cast_sub hp1, ZMod.natCast_self, Nat.cast_mul]
    push_cast
    ring
  have hv : (((dn * (y * y % p) + 1) % p : Nat) : ZMod p) = (dn : ZMod p) * (y : ZMod p) ^ 2 + 1 := by
    rw [hm, Nat.cast_add, Nat.cast_mul, hm, Nat.cast_mul]
    push_cast
    ring
  obtain ⟨hs1, hs2⟩ := ratio_spec ((y * y % p + (p - 1)) % p) ((dn * (y * y % p) + 1) % p)
  rw [hu, hv] at hs1 hs2
  unfold xOf
  rw [force_eq]
  constructor
  · intro h
    split at h
    case h_1 => cases h
    case h_2 r hr =>
      obtain ⟨hlt, he⟩ := hs1 r hr
      rw [force_eq] at h
      by_cases h2 : r % 2 = s
      · rw [if_pos h2, if_pos h2] at h
        cases h
        exact ⟨hlt, h2, he⟩
      · rw [if_neg h2] at h
        split at h
        case isTrue h3 =>
          cases h
          refine ⟨Nat.mod_lt _ hp0, h3, ?_⟩
          rw [hm, Nat.cast_sub hlt.le, ZMod.natCast_self, zero_sub, neg_sq, he]
        case isFalse => cases h
  · rintro ⟨hx, hp, he⟩
    obtain ⟨r, hr⟩ := hs2 x (den_ne _) he
    obtain ⟨hlt, her⟩ := hs1 r hr
    rw [hr]
    show force _ _ = _
    rw [force_eq]
    have hsq : ((r : ZMod p) - x) * (r + x) = 0 := by
      refine mul_left_cancel₀ (den_ne (y : ZMod p)) ?_
      linear_combination her - he
    rcases mul_eq_zero.mp hsq with h | h
    · have : r = x := by rw [← hval r hlt, sub_eq_zero.mp h, hval x hx]
      subst this
      rw [if_pos hp, if_pos hp]
    · have hmod : (r + x) % p = 0 := by
        rw [mod_zero, Nat.cast_add, h]
      by_cases hx0 : x = 0
      · have : r = x := by
          rw [hx0, Nat.add_zero, Nat.mod_eq_of_lt hlt] at hmod
          rw [hmod, hx0]
        subst this
        rw [if_pos hp, if_pos hp]
      · have hsum : r + x = p := by
          obtain ⟨k, hk⟩ := Nat.dvd_of_mod_eq_zero hmod
          have : k = 1 := by
            have h1 : k < 2 := by
              by_contra hk2
              have : p * 2 ≤ p * k := Nat.mul_le_mul_left p (by omega)
              omega
            have h2 : k ≠ 0 := by
              rintro rfl
              omega
            omega
          rw [this, Nat.mul_one] at hk
          exact hk
        have hodd := p_odd
        have e2 : (p - r) % p = x := by rw [show p - r = x by omega, Nat.mod_eq_of_lt hx]
        have hne : ¬ r % 2 = s := by omega
        rw [if_neg hne, e2, if_pos hp]

/-- The point with the given Edwards coordinates, on Curve25519. -/
def ofEdwards (x y : Nat) : J :=
  if x = 0 then (if y = 1 then ⟨1, 1, 0⟩ else ⟨0, 0, 1⟩)
  else force ((1 + y) * Ec.inv p (subm p 1 y) % p) fun u => ⟨u, root * u % p * Ec.inv p x % p, 1⟩

theorem ofEdwards_rep {P : E.Point} {x y : Nat} (hx : x < p) (hy : y < p) (h : Edwards P x y) : Rep (ofEdwards x y) P := by
  have hp1 : 1 < p := by decide +kernel
  have hm : ∀ z : Nat, ((z % p : Nat) : ZMod p) = z := fun z => ZMod.natCast_mod z p
  have hval : ∀ z : Nat, z < p → (z : ZMod p).val = z := fun z hz => by rw [ZMod.val_natCast, Nat.mod_eq_of_lt hz]
  have hinj : ∀ a b : Nat, a < p → b < p → (a : ZMod p) = b → a = b := fun a b ha hb e => by rw [← hval a ha, e, hval b hb]
  have hmone : (-1 : ZMod p) ≠ 1 := fun h => two_ne (by linear_combination -h)
  unfold ofEdwards
  cases P with
  | zero =>
    obtain ⟨h1, h2⟩ := h
    have e1 : x = 0 := hinj x 0 hx (by omega) (by rw [h1, Nat.cast_zero])
    have e2 : y = 1 := hinj y 1 hy hp1 (by rw [h2, Nat.cast_one])
    rw [if_pos e1, if_pos e2]
    exact rep_zero 1 1
  | some u v huv =>
    rcases h with ⟨h1, h2, h3⟩ | ⟨h1, h2, h3⟩
    · have e1 : x = 0 := hinj x 0 hx (by omega) (by rw [h2, Nat.cast_zero])
      have e2 : y ≠ 1 := by
        rintro rfl
        exact hmone (by rw [← h3, Nat.cast_one])
      have hv0 : v = 0 := by
        have := curve_eq huv
        rw [h1] at this
        exact pow_eq_zero_iff (two_ne_zero) |>.mp (by rw [this]; ring)
      rw [if_pos e1, if_neg e2]
      refine ⟨by simp, ?_, ?_⟩
      · simp [h1]
      · simp [hv0]
    · have hxz : (x : ZMod p) ≠ 0 := by
        intro h0
        rw [h0, zero_mul] at h2
        exact mul_ne_zero root_ne h1 h2.symm
      have e1 : x ≠ 0 := by
        rintro rfl
        exact hxz Nat.cast_zero
      have hyz : (1 : ZMod p) - y ≠ 0 := by
        intro h0
        exact two_ne (by linear_combination h3 + (u + 1) * h0)
      have hu : (((1 + y) * Ec.inv p (subm p 1 y) % p : Nat) : ZMod p) = u := by
        have hsub : ((subm p 1 y : Nat) : ZMod p) = 1 - y := by rw [subm_cast p 1 y (by omega), Nat.cast_one]
        rw [hm, Nat.cast_mul, inv_cast p _ (by rw [hsub]; exact hyz), hsub]
        push_cast
        field_simp
        linear_combination h3
      rw [if_neg e1, force_eq]
      generalize (1 + y) * Ec.inv p (subm p 1 y) % p = un at hu ⊢
      refine ⟨by simp, ?_, ?_⟩
      · simp [hu]
      · show ((root * un % p * Ec.inv p x % p : Nat) : ZMod p) = v * ((1 : Nat) : ZMod p) ^ 3
        rw [hm, Nat.cast_mul, hm, Nat.cast_mul, hu, inv_cast p x hxz]
        push_cast
        field_simp
        linear_combination -h2

/-- RFC 8032, 5.1.3: the point written by `b`. -/
def decode (b : Bytes) : Option J :=
  force (leNat b) fun n =>
  if b.length ≠ 32 ∨ p ≤ n % 2 ^ 255 then none
  else (xOf (n % 2 ^ 255) (n / 2 ^ 255)).map fun x => ofEdwards x (n % 2 ^ 255)

theorem decode_some (b : Bytes) (j : J) (h : decode b = some j) : ∃ P, Encodes P b ∧ Rep j P := by
  have hval : ∀ z : Nat, z < p → (z : ZMod p).val = z := fun z hz => by rw [ZMod.val_natCast, Nat.mod_eq_of_lt hz]
  unfold decode at h
  rw [force_eq] at h
  split at h
  case isTrue => cases h
  case isFalse hc =>
    rw [not_or, not_not, Nat.not_le] at hc
    obtain ⟨hl, hy⟩ := hc
    obtain ⟨x, hx, rfl⟩ := Option.map_eq_some_iff.mp h
    obtain ⟨h1, h2, h3⟩ := (xOf_iff _ _ _).mp hx
    obtain ⟨P, hP⟩ := edwards_surj ((curve_iff _ _).mp h3)
    refine ⟨P, ⟨_, _, hP, ?_⟩, ofEdwards_rep h1 hy hP⟩
    refine ⟨by rw [List.length_reverse, hl], ?_⟩
    rw [hval _ h1, hval _ hy, h2]
    show le b = _
    rw [← leNat_eq]
    omega

theorem decode_of {b : Bytes} {P : E.Point} (h : Encodes P b) : ∃ j, decode b = some j ∧ Rep j P := by
  obtain ⟨x, y, he, hb⟩ := h
  have hl : b.length = 32 := by rw [← List.length_reverse]; exact hb.1
  have hn : leNat b = y.val + 2 ^ 255 * (x.val % 2) := by rw [leNat_eq]; exact hb.2
  have hy := (ZMod.val_lt y).trans p_lt
  have e1 : leNat b % 2 ^ 255 = y.val := by rw [hn]; omega
  have e2 : leNat b / 2 ^ 255 = x.val % 2 := by rw [hn]; omega
  have hx : xOf y.val (x.val % 2) = some x.val := by
    rw [xOf_iff]
    refine ⟨ZMod.val_lt x, rfl, ?_⟩
    rw [ZMod.natCast_zmod_val, ZMod.natCast_zmod_val, curve_iff]
    exact edwards_eq he
  refine ⟨ofEdwards x.val y.val, ?_, ofEdwards_rep (ZMod.val_lt x) (ZMod.val_lt y) (by rwa [ZMod.natCast_zmod_val, ZMod.natCast_zmod_val])⟩
  unfold decode
  rw [force_eq, e1, e2, if_neg (by rw [not_or, not_not, Nat.not_le]; exact ⟨hl, ZMod.val_lt y⟩), hx]
  rfl

/-- Verification with the encoded public key alone (`cryptoxide::ed25519::verify`). -/
def check (H : Hashes) (ok : Nat → Bool) (a m sig : Bytes) : Bool :=
  match decode a with
  | none => false
  | some A =>
    let R := sig.take 32
    let S := leNat ((sig.drop 32).take 32)
    let h := leNat (H.sha512 (R ++ a ++ m)) % l
    ok S && a.any (· ≠ 0) && decide (enc (add p 486662 1 (mulB S) (smul p 486662 1 (neg A) 256 h)) = R)

theorem any_ne {k : Nat} {a : Bytes} (h : Encodes (k • B) a) : a.any (· ≠ 0) = true := by
  obtain ⟨X, Y, h, hb⟩ := h
  by_contra hc
  rw [Bool.not_eq_true, List.any_eq_false] at hc
  have h0 : Spec.Bip32.be a.reverse = 0 := be_zero fun c ha => by
    have := hc c (List.mem_reverse.mp ha)
    simpa using this
  have := hb.2.symm.trans h0
  exact y_ne h ((ZMod.val_eq_zero Y).mp (by omega))

theorem check_iff (H : Hashes) (ok : Nat → Bool) {k : Nat} {a : Bytes} (ha : Encodes (k • B) a) (m sig : Bytes) :
    check H ok a m sig = true ↔
      ok (le ((sig.drop 32).take 32)) = true ∧ Valid H (k • B) m (sig.take 32) ((sig.drop 32).take 32) := by
  have hS : leNat ((sig.drop 32).take 32) < 2 ^ 256 := by
    rw [leNat_eq]
    refine lt_of_lt_of_le (le_lt _) ?_
    calc 256 ^ ((sig.drop 32).take 32).length ≤ 256 ^ 32 := Nat.pow_le_pow_right (by decide) (by rw [List.length_take]; exact min_le_left _ _)
      _ = 2 ^ 256 := by decide +kernel
  obtain ⟨A, hA, hr⟩ := decode_of ha
  unfold check
  rw [hA]
  simp only [Bool.and_eq_true, any_ne ha, and_true, decide_eq_true_eq]
  rw [enc_iff (rep_add two_ne (rep_mulB _ hS) (rep_smul two_ne (rep_neg hr) 256 _ (mod_l_lt _)))]
  simp only [leNat_eq]
  refine and_congr_right fun _ => ?_
  rw [neg_nsmul, smul_mul_mod]
  constructor
  · intro h
    exact ⟨_, _, h, ha, by abel⟩
  · rintro ⟨P, a', h, ha', e⟩
    rw [encodes_unique ha' ha] at e
    rw [e]
    convert h using 1
    abel

/-- Reading the public key back makes no difference. -/
theorem verify_eq (H : Hashes) (ok : Nat → Bool) (x : Cardano.XPrv) (m sig : Bytes) :
    verify H ok x m sig = check H ok (pubBytes x) m sig :=
  Bool.eq_iff_iff.mpr ((verify_iff H ok x m sig).trans (check_iff H ok (encodes_pub x) m sig).symm)

end KC.Real.Ed25519
