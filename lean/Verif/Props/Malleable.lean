import Verif.Props.RealEd
/-
C80: which signatures can be turned into others without the key.
-/
namespace KC.Props
open KC.Manager KC.Spec KC.Spec.Bip32 KC.Secp
open KC.KeyPath (Path)
open KC.Spec.Secp256k1 (G E Valid)
open KC.Real.Secp256k1 (curve)

/-! ### ECDSA -/

/-- For a multiple of the base point there is one multiple to compute. -/
theorem valid_iff (z r s k : Nat) : Valid z r s (k • G) ↔
    (r : ZMod Spec.Secp256k1.n) ≠ 0 ∧ (s : ZMod Spec.Secp256k1.n) ≠ 0 ∧
      ∃ x y h, ((s : ZMod Spec.Secp256k1.n)⁻¹ * (z + r * k)).val • G = .some x y h ∧ ((x.val : Nat) : ZMod Spec.Secp256k1.n) = r := by
  unfold Valid
  rw [← mul_nsmul', ← add_nsmul, Real.Secp256k1.smul_congr (_ + _) ((s : ZMod Spec.Secp256k1.n)⁻¹ * (z + r * k)).val]
  push_cast
  rw [Real.Secp256k1.natCast_val, Real.Secp256k1.natCast_val, Real.Secp256k1.natCast_val]
  ring

theorem valid_neg {z r s s' k : Nat} (h : Valid z r s (k • G)) (hs : (s' : ZMod Spec.Secp256k1.n) = -s) : Valid z r s' (k • G) := by
  rw [valid_iff] at h ⊢
  obtain ⟨h1, h2, x, y, hxy, h3, h4⟩ := h
  rw [hs]
  refine ⟨h1, neg_ne_zero.mpr h2, x, _, (WeierstrassCurve.Affine.nonsingular_neg x y).mpr hxy, ?_, h4⟩
  rw [Real.Secp256k1.smul_neg _ ((s : ZMod Spec.Secp256k1.n)⁻¹ * (z + r * k)).val, h3]
  · rfl
  · rw [Real.Secp256k1.natCast_val, Real.Secp256k1.natCast_val, inv_neg]
    ring

theorem valid_cast {z r s r' s' : Nat} {P : E.Point} (hr : (r' : ZMod Spec.Secp256k1.n) = r) (hs : (s' : ZMod Spec.Secp256k1.n) = s) :
    Valid z r' s' P ↔ Valid z r s P := by
  unfold Valid
  rw [hr, hs]

/-- Two points with the same first coordinate are the same or opposite. -/
theorem same_x {x y y' : ZMod Spec.Secp256k1.p} {h : E.Nonsingular x y} {h' : E.Nonsingular x y'} :
    (.some x y' h' : E.Point) = .some x y h ∨ (.some x y' h' : E.Point) = -.some x y h := by
  have e1 := (Spec.Secp256k1.equation_iff x y).mp h.1
  have e2 := (Spec.Secp256k1.equation_iff x y').mp h'.1
  have : (y' - y) * (y' + y) = 0 := by linear_combination e2 - e1
  rcases mul_eq_zero.mp this with e | e
  · left
    congr 1
    exact sub_eq_zero.mp e
  · right
    rw [WeierstrassCurve.Affine.Point.neg_some]
    congr 1
    rw [WeierstrassCurve.Affine.negY, eq_neg_of_add_eq_zero_left e]
    simp [Real.Ec.curve]

theorem valid_twice {z r s s' k : Nat} (h : Valid z r s (k • G)) (h' : Valid z r s' (k • G)) :
    (s' : ZMod Spec.Secp256k1.n) = s ∨ (s' : ZMod Spec.Secp256k1.n) = -s ∨ r % Spec.Secp256k1.n < 2 ^ 129 := by
  rw [valid_iff] at h h'
  obtain ⟨h1, h2, x, y, hxy, h3, h4⟩ := h
  obtain ⟨-, h2', x', y', hxy', h3', h4'⟩ := h'
  by_cases hx : x = x'
  · subst hx
    have hne : ((z : ZMod Spec.Secp256k1.n) + r * k) ≠ 0 := by
      intro h0
      rw [h0, mul_zero, ZMod.val_zero, zero_nsmul] at h3
      cases h3
    have fin : ∀ a b : ZMod Spec.Secp256k1.n, a ≠ 0 → b ≠ 0 → b⁻¹ * ((z : ZMod Spec.Secp256k1.n) + r * k) = a⁻¹ * (z + r * k) → b = a := by
      intro a b _ _ h
      exact inv_injective (mul_right_cancel₀ hne h)
    rcases same_x (h := hxy) (h' := hxy') with e | e
    · left
      rw [← h3, ← h3'] at e
      have := Real.Secp256k1.smul_inj (Real.Secp256k1.val_lt_n _) (Real.Secp256k1.val_lt_n _) e
      exact fin _ _ h2 h2' (ZMod.val_injective _ this)
    · right; left
      rw [← h3, ← h3', ← Real.Secp256k1.smul_neg (-((s : ZMod Spec.Secp256k1.n)⁻¹ * (z + r * k))).val] at e
      · have := Real.Secp256k1.smul_inj (Real.Secp256k1.val_lt_n _) (Real.Secp256k1.val_lt_n _) e
        refine fin _ _ (neg_ne_zero.mpr h2) h2' ?_
        rw [ZMod.val_injective _ this, inv_neg]
        ring
      · rw [Real.Secp256k1.natCast_val, Real.Secp256k1.natCast_val]
  · right; right
    have e1 : x.val % Spec.Secp256k1.n = r % Spec.Secp256k1.n := (ZMod.natCast_eq_natCast_iff _ _ _).mp h4
    have e2 : x'.val % Spec.Secp256k1.n = r % Spec.Secp256k1.n := (ZMod.natCast_eq_natCast_iff _ _ _).mp h4'
    have hv : x.val ≠ x'.val := fun h => hx (ZMod.val_injective _ h)
    have b1 := ZMod.val_lt x
    have b2 := ZMod.val_lt x'
    generalize x.val = a at *
    generalize x'.val = b at *
    rw [Spec.Secp256k1.n_eq] at *
    unfold Spec.Secp256k1.p at b1 b2
    omega

theorem verify_bool {nonce : Nonces} {tries : Nat} {Ed : Cardano.Ed} {net : Net} {d : Bytes} {k : KeyObj} (hn : net ≠ .cardano)
    (hk : (factoryOf Real.hashes (curve nonce tries) Ed net).keyFromData d = .ok k) (p : Path) :
    (∃ x : Nat, ∀ m a b : Bytes, a.length = 32 → b.length = 32 → ∃ t, k.verify m (a ++ b) p = .ok t ∧
      (t = true ↔ Valid (be (Real.hashes.keccak256 m)) (be a) (be b) (x • G))) ∨
    ∃ e, ∀ m s, k.verify m s p = .err e := by
  rcases C58_loaded nonce tries Ed net d k hn hk p with ⟨x, -, -, a⟩ | ⟨e, -, -, h⟩
  · refine .inl ⟨x, fun m u v l1 l2 => ?_⟩
    obtain ⟨t, h1, h2⟩ := a.accepts m (u ++ v) (by rw [List.length_append, l1, l2])
    rw [List.take_left' l1, List.drop_left' l1] at h2
    exact ⟨t, h1, h2⟩
  · exact .inr ⟨e, h⟩

theorem cast_of_mod {a b : Nat} (h : a % n = b % n) : (a : ZMod Spec.Secp256k1.n) = b := by
  rw [← order_eq] at h
  exact (ZMod.natCast_eq_natCast_iff _ _ _).mpr h

theorem cast_of_sum {a b : Nat} (h : (a + b) % n = 0) : (a : ZMod Spec.Secp256k1.n) = -b := by
  rw [← order_eq] at h
  rw [eq_neg_iff_add_eq_zero, ← Nat.cast_add]
  exact (Real.Secp256k1.mod_n_zero _).mp h

theorem mod_of_cast {a b : Nat} (h : (a : ZMod Spec.Secp256k1.n) = b) : a % n = b % n := by
  rw [← order_eq]
  exact (ZMod.natCast_eq_natCast_iff _ _ _).mp h

theorem sum_of_cast {a b : Nat} (h : (a : ZMod Spec.Secp256k1.n) = -b) : (a + b) % n = 0 := by
  rw [← order_eq]
  refine (Real.Secp256k1.mod_n_zero _).mpr ?_
  rw [Nat.cast_add, h, neg_add_cancel]

/-- C80: only the classes of the two numbers modulo the group order count, and of the second not even the sign. -/
theorem C80_same (nonce : Nonces) (tries : Nat) (Ed : Cardano.Ed) (net : Net) (d : Bytes) (k : KeyObj) (hn : net ≠ .cardano)
    (hk : (factoryOf Real.hashes (curve nonce tries) Ed net).keyFromData d = .ok k) (p : Path) (m a b a' b' : Bytes)
    (h1 : a.length = 32) (h2 : b.length = 32) (h1' : a'.length = 32) (h2' : b'.length = 32) (ha : be a' % n = be a % n)
    (hb : be b' % n = be b % n ∨ (be b' + be b) % n = 0) : k.verify m (a' ++ b') p = k.verify m (a ++ b) p := by
  rcases verify_bool hn hk p with ⟨x, h⟩ | ⟨e, h⟩
  · obtain ⟨t, e, ht⟩ := h m a b h1 h2
    obtain ⟨t', e', ht'⟩ := h m a' b' h1' h2'
    rw [e, e']
    congr 1
    rw [Bool.eq_iff_iff, ht, ht']
    rcases hb with hb | hb
    · exact valid_cast (cast_of_mod ha) (cast_of_mod hb)
    · rw [valid_cast (cast_of_mod ha) rfl]
      have := cast_of_sum hb
      exact ⟨fun h => valid_neg h (by rw [this, neg_neg]), fun h => valid_neg h this⟩
  · rw [h, h]

/-- C80: there are no others with the same first number, unless it is below 2^129. -/
theorem C80_only (nonce : Nonces) (tries : Nat) (Ed : Cardano.Ed) (net : Net) (d : Bytes) (k : KeyObj) (hn : net ≠ .cardano)
    (hk : (factoryOf Real.hashes (curve nonce tries) Ed net).keyFromData d = .ok k) (p : Path) (m a b b' : Bytes)
    (h1 : a.length = 32) (h2 : b.length = 32) (h2' : b'.length = 32) (ha : 2 ^ 129 ≤ be a % n) (h : k.verify m (a ++ b) p = .ok true) :
    k.verify m (a ++ b') p = .ok true ↔ be b' % n = be b % n ∨ (be b' + be b) % n = 0 := by
  refine ⟨fun h' => ?_, fun hb => (C80_same nonce tries Ed net d k hn hk p m a b a b' h1 h2 h1 h2' rfl hb).trans h⟩
  rcases verify_bool hn hk p with ⟨x, hv⟩ | ⟨e, hv⟩
  · obtain ⟨t, e, ht⟩ := hv m a b h1 h2
    obtain ⟨t', e', ht'⟩ := hv m a b' h1 h2'
    rw [h] at e; cases e
    rw [h'] at e'; cases e'
    rcases valid_twice (ht.mp rfl) (ht'.mp rfl) with e | e | e
    · exact .inl (mod_of_cast e)
    · exact .inr (sum_of_cast e)
    · rw [show Spec.Secp256k1.n = n from order_eq] at e
      omega
  · rw [hv] at h; cases h

theorem n_odd : n % 2 = 1 := by decide +kernel

/-- C80: every signature that is made has a twin which verifies too and which no key ever makes. -/
theorem C80_twin (nonce : Nonces) (tries : Nat) (Ed : Cardano.Ed) (net : Net) (d : Bytes) (k : KeyObj) (hn : net ≠ .cardano)
    (hk : (factoryOf Real.hashes (curve nonce tries) Ed net).keyFromData d = .ok k) (p : Path) (m sig : Bytes) (h : k.sign m p = .ok sig) :
    ∃ r s v s', sig = r ++ s ++ [v] ∧ r.length = 32 ∧ s.length = 32 ∧ s'.length = 32 ∧ be s' = n - be s ∧ s' ≠ s ∧
      k.verify m (r ++ s) p = .ok true ∧ k.verify m (r ++ s') p = .ok true ∧
      ∀ nonce tries Ed net d k, net ≠ .cardano → (factoryOf Real.hashes (curve nonce tries) Ed net).keyFromData d = .ok k →
        ∀ m p r s v, k.sign m p = .ok (r ++ s ++ [v]) → r.length = 32 → s.length = 32 → s ≠ s' := by
  have made : ∀ nonce tries Ed net d k, net ≠ .cardano → (factoryOf Real.hashes (curve nonce tries) Ed net).keyFromData d = .ok k →
      ∀ m p sig, k.sign m p = .ok sig → ∃ r s v, sig = r ++ s ++ [v] ∧ r.length = 32 ∧ s.length = 32 ∧ 0 < be s ∧ be s ≤ n / 2 ∧
        k.verify m (r ++ s) p = .ok true := by
    intro nonce tries Ed net d k hn hk m p sig h
    rcases C58_loaded nonce tries Ed net d k hn hk p with ⟨x, -, -, a⟩ | ⟨e, -, hs, -⟩
    · obtain ⟨r, s, v, e, l1, l2, -, hs, hval, hver, -⟩ := a.signs m sig h
      refine ⟨r, s, v, e, l1, l2, Nat.pos_of_ne_zero fun h0 => hval.2.1 ?_, hs, hver⟩
      rw [h0, Nat.cast_zero]
    · rw [hs] at h; cases h
  obtain ⟨r, s, v, e, l1, l2, h0, hs, hver⟩ := made nonce tries Ed net d k hn hk m p sig h
  have hlt : n - be s < 256 ^ 32 := by
    have : n < 256 ^ 32 := by decide +kernel
    omega
  have hs' : be (Bytes.beBytes 32 (n - be s)) = n - be s := (Bytes.be_beBytes 32 _).trans (Nat.mod_eq_of_lt hlt)
  have hodd := n_odd
  refine ⟨r, s, v, Bytes.beBytes 32 (n - be s), e, l1, l2, Bytes.beBytes_length _ _, hs', fun h => ?_, hver, ?_, ?_⟩
  · rw [h] at hs'; omega
  · refine (C80_same nonce tries Ed net d k hn hk p m r s r _ l1 l2 l1 (Bytes.beBytes_length _ _) rfl (.inr ?_)).trans hver
    rw [hs', Nat.sub_add_cancel (by omega), Nat.mod_self]
  · intro nonce tries Ed net d k hn hk m p r' t v' h l1' l2' e
    obtain ⟨r2, s2, v2, e2, l12, l22, h02, hs2, -⟩ := made nonce tries Ed net d k hn hk m p _ h
    obtain ⟨e3, -⟩ := List.append_inj e2 (by rw [List.length_append, List.length_append, l1', l2', l12, l22])
    obtain ⟨-, rfl⟩ := List.append_inj e3 (by rw [l1', l12])
    rw [e, hs'] at hs2
    omega

/-! ### Ed25519 -/

open KC.Spec.Ed25519 (le l B)
open KC.Real.Ed25519 (ed)

/-- C80, Cardano: beside an accepted signature exactly those with the same first half are accepted whose second half is the same modulo
the group order and passes the range check of the library. -/
theorem C80_cardano (H : Hashes) (C : Secp.Curve) (ok : Nat → Bool) (hok : ∀ s, s < l → ok s = true) (d : Bytes) (k : KeyObj)
    (hk : (factoryOf H C (ed H ok) .cardano).keyFromData d = .ok k) (p : Path) (m R S S' : Bytes)
    (h1 : R.length = 32) (h2 : S.length = 32) (h2' : S'.length = 32) (h : k.verify m (R ++ S) p = .ok true) :
    k.verify m (R ++ S') p = .ok true ↔ ok (le S') = true ∧ le S' % l = le S % l := by
  have hp : Accepts .cardano p := by
    obtain ⟨root, -, h3⟩ := cardano_key H C (ed H ok) d k hk
    exact (((h3 p).2.2 m _ _).mp h).1
  obtain ⟨root, y, a, b, c, -, -, -, ha⟩ := C63_loaded H C ok hok d k hk p hp
  have acc : ∀ S, S.length = 32 → (k.verify m (R ++ S) p = .ok true ↔ ok (le S) = true ∧ Spec.Ed25519.Valid H (le a • B) m R S) := by
    intro S hS
    obtain ⟨t, e, ht⟩ := ha.accepts m (R ++ S) (by rw [List.length_append, h1, hS])
    rw [List.take_left' h1, List.drop_left' h1] at ht
    rw [e, ← ht]
    constructor
    · intro h; cases h; rfl
    · rintro rfl; rfl
  rw [acc S' h2']
  refine and_congr_right fun _ => ?_
  obtain ⟨P, A, g1, g2, g3⟩ := ((acc S h2).mp h).2
  constructor
  · rintro ⟨P', A', g1', g2', g3'⟩
    obtain rfl := Real.Ed25519.encodes_inj g1 g1'
    obtain rfl := Real.Ed25519.encodes_unique g2 g2'
    have := g3'.trans g3.symm
    rw [nsmul_eq_nsmul_iff_modEq, Real.Ed25519.order_B] at this
    exact this
  · intro e
    refine ⟨P, A, g1, g2, ?_⟩
    rw [← g3, nsmul_eq_nsmul_iff_modEq, Real.Ed25519.order_B]
    exact e

/-- C80, Cardano: a library that takes only second halves below the group order leaves nothing to change; one that takes all below 2^253
accepts, beside every signature whose second half is below 2^253 - l, another one. -/
theorem C80_cardano_range (H : Hashes) (C : Secp.Curve) (ok : Nat → Bool) (hok : ∀ s, s < l → ok s = true) (d : Bytes) (k : KeyObj)
    (hk : (factoryOf H C (ed H ok) .cardano).keyFromData d = .ok k) (p : Path) (m R S : Bytes)
    (h1 : R.length = 32) (h2 : S.length = 32) (h : k.verify m (R ++ S) p = .ok true) :
    ((∀ s, ok s = true → s < l) → ∀ S' : Bytes, S'.length = 32 → k.verify m (R ++ S') p = .ok true → S' = S) ∧
    ((∀ s, s < 2 ^ 253 → ok s = true) → le S < 2 ^ 253 - l → ∃ S' : Bytes, S'.length = 32 ∧ S' ≠ S ∧ k.verify m (R ++ S') p = .ok true) := by
  have hS := (C80_cardano H C ok hok d k hk p m R S S h1 h2 h2 h).mp h
  constructor
  · intro hr S' h2' h'
    obtain ⟨a, b⟩ := (C80_cardano H C ok hok d k hk p m R S S' h1 h2 h2' h).mp h'
    rw [Nat.mod_eq_of_lt (hr _ a), Nat.mod_eq_of_lt (hr _ hS.1)] at b
    exact Real.Ed25519.le_inj (h2'.trans h2.symm) b
  · intro hr hlt
    have hl : 0 < l := by decide +kernel
    have e : le (Real.Ed25519.leBytes 32 (le S + l)) = le S + l := Real.Ed25519.le_leBytes (by
      have : (2 : Nat) ^ 253 < 256 ^ 32 := by decide +kernel
      omega)
    refine ⟨Real.Ed25519.leBytes 32 (le S + l), Real.Ed25519.leBytes_length _ _, fun h => ?_, ?_⟩
    · rw [h] at e; omega
    · rw [C80_cardano H C ok hok d k hk p m R S _ h1 h2 (Real.Ed25519.leBytes_length _ _) h, e]
      exact ⟨hr _ (by omega), Nat.add_mod_right _ _⟩

/-! ### Cases -/

open KC.Real.Known

/-- The Ethereum key of the known seed signs at m/44'/60'/0'/0/0, with nonce 7: the signature has a twin. -/
example (Ed : Cardano.Ed) : ∃ d k sig, (factoryOf Real.hashes (curve (fun _ _ _ => 7) 1) Ed .ethereum).keyFromData d = .ok k ∧
    k.sign [1, 2, 3] ⟨0x8000002c, 0x8000003c, 0x80000000, 0, 0⟩ = .ok sig ∧
    ∃ r s v s', sig = r ++ s ++ [v] ∧ s' ≠ s ∧ k.verify [1, 2, 3] (r ++ s') ⟨0x8000002c, 0x8000003c, 0x80000000, 0, 0⟩ = .ok true := by
  obtain ⟨d, hd⟩ := data_exists Real.hashes (curve (fun _ _ _ => 7) 1) Ed abSeed ab0 abSeed_len ab0_root .ethereum nofun
  obtain ⟨k, hk⟩ := ((C31_load _ _ Ed abSeed d).2 hd _ ab0_root).mpr ⟨_, eth_coin_walk _ _⟩
  obtain ⟨root, hr, -, h⟩ := C31_secp _ _ Ed .ethereum abSeed d k nofun hd hk
  obtain rfl := root_unique hr ab0_root
  obtain ⟨r, s, v, hs, hv⟩ := eth_signs
  have hsig := ((h ⟨0x8000002c, 0x8000003c, 0x80000000, 0, 0⟩).2.1 [1, 2, 3] _).mpr
    ⟨⟨.inr rfl, rfl, show _ ≤ _ by decide, .inl rfl, show _ < _ by decide⟩, _, eth_walk _ _, r, s, v, hs, hv, rfl⟩
  obtain ⟨r', s', v', t, e, -, -, -, -, hne, -, hver, -⟩ := C80_twin _ _ Ed .ethereum d k nofun hk _ _ _ hsig
  exact ⟨d, k, _, hk, hsig, r', s', v', t, e, hne, hver⟩

/-- The key of the tests, with the range check of RFC 8032: its signature cannot be changed in the second half. -/
example (C : Secp.Curve) (m : Bytes) : ∃ (d : Bytes) (k : KeyObj) (R S : Bytes),
    (factoryOf Real.hashes C (ed Real.hashes inRange) .cardano).keyFromData d = .ok k ∧ k.verify m (R ++ S) path0 = .ok true ∧
    ∀ S' : Bytes, S'.length = 32 → k.verify m (R ++ S') path0 = .ok true → S' = S := by
  obtain ⟨k, hk⟩ := d1_loads C
  obtain ⟨root, y, a, b, c, -, -, -, ha⟩ := C63_loaded Real.hashes C inRange inRange_ok _ k hk path0 path0_ok
  obtain ⟨R, S, -, h1, h2, -, -, h⟩ := ha.signs m
  refine ⟨_, k, R, S, hk, h, (C80_cardano_range Real.hashes C inRange inRange_ok _ k hk path0 m R S h1 h2 h).1 ?_⟩
  intro s hs
  simpa [inRange] using hs

end KC.Props
