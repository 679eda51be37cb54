import Verif.Spec.Leaks
import Verif.Props.RealEd
/-
C79: what one leaked secret reveals.
-/
namespace KC.Props
open KC.Manager KC.Spec KC.Spec.Bip32 KC.Secp
open KC.KeyPath (Path)
open KC.Spec.Secp256k1 (G E Uncompressed Compressed)
open KC.Real.Secp256k1 (curve)

/-! ### Bitcoin and Ethereum -/

theorem parent_of_child {H : Hashes} {nonce : Nonces} {tries : Nat} {x y : XPrv} {i : UInt32} (hi : i.toNat < 2 ^ 31)
    (h : Child H (curve nonce tries) x i y) : ParentSecret H (x.key.val • G) x.chaincode.val i y.key.val x.key.val := by
  obtain ⟨il, ir, l1, l2, ⟨kb, ib, hkb, hib, hI⟩, h0, hlt, hkey, hcc, -⟩ := h
  rcases hI with ⟨hi', -⟩ | ⟨-, hI⟩
  · omega
  refine ⟨_, ib, il, ir, Real.Secp256k1.serCompressed_eq nonce tries x.key, hib, l1, l2, hI.symm, ?_⟩
  have hx : x.key.val < n := by rw [← order_eq]; exact x.key.2.2
  rw [hkey, Nat.mod_eq_of_lt hlt, Nat.mod_add_mod, show be il + x.key.val + (n - be il) = x.key.val + n by omega, Nat.add_mod_right,
    Nat.mod_eq_of_lt hx]

theorem parentSecret_unique {H : Hashes} {P : E.Point} {c : Bytes} {i : UInt32} {k' a b : Nat} (h : ParentSecret H P c i k' a)
    (h' : ParentSecret H P c i k' b) : a = b := by
  obtain ⟨pb, ib, il, ir, hpb, hib, l1, l2, hH, rfl⟩ := h
  obtain ⟨pb', ib', il', ir', hpb', hib', l1', l2', hH', rfl⟩ := h'
  rw [Real.Secp256k1.compressed_unique hpb hpb', Bytes.isBe_unique hib hib', hH'] at hH
  rw [(List.append_inj hH (by rw [l1, l1'])).1]

/-- C79: the secret of a non-hardened child, the parent's public key and its chain code give the parent's secret. -/
theorem C79_parent (H : Hashes) (nonce : Nonces) (tries : Nat) (x y : XPrv) (i : UInt32) (h : x.derive H (curve nonce tries) i = .ok y)
    (hy : y.index.toNat < 2 ^ 31) (k : Nat) :
    ParentSecret H (x.key.val • G) x.chaincode.val y.index y.key.val k ↔ k = x.key.val := by
  obtain ⟨-, j, -, -, hj⟩ := (derive_ok _ _ _ _ _).mp h
  obtain ⟨_, _, _, _, _, _, _, _, _, _, e, -⟩ := id hj
  rw [e] at hy ⊢
  have := parent_of_child hy hj
  exact ⟨fun h => parentSecret_unique h this, fun h => h ▸ this⟩

theorem climb_unique {H : Hashes} {P : E.Point} {c : Bytes} {is : List UInt32} {k' a b : Nat} (h : Climb H P c is k' a)
    (h' : Climb H P c is k' b) : a = b := by
  induction h generalizing b with
  | nil => cases h'; rfl
  | cons h1 _ h3 ih =>
    cases h' with
    | cons h1' h2' h3' =>
      obtain ⟨rfl, rfl⟩ := C61_determined _ _ _ _ _ _ _ _ h1 h1'
      obtain rfl := ih h2'
      exact parentSecret_unique h3 h3'

/-- C79: the same along a path without hardened steps, unless a step has a zero sum (and the next index is taken). -/
theorem C79_path (H : Hashes) (nonce : Nonces) (tries : Nat) (x y : XPrv) (is : List UInt32) (hi : ∀ i ∈ is, i.toNat < 2 ^ 31)
    (h : Walk H (curve nonce tries) x is y) :
    (∀ k, Climb H (x.key.val • G) x.chaincode.val is y.key.val k ↔ k = x.key.val) ∨
    ∃ before i after z, is = before ++ i :: after ∧ Walk H (curve nonce tries) x before z ∧ ZeroSum H (curve nonce tries) z i := by
  suffices Climb H (x.key.val • G) x.chaincode.val is y.key.val x.key.val ∨
      ∃ before i after z, is = before ++ i :: after ∧ Walk H (curve nonce tries) x before z ∧ ZeroSum H (curve nonce tries) z i from
    this.imp (fun h k => ⟨fun h' => climb_unique h' h, fun e => e ▸ h⟩) id
  induction h with
  | nil x => exact .inl (.nil _ _ _)
  | @cons x i y is z hd hw ih =>
    obtain ⟨h255, j, hij, hzero, hc⟩ := id hd
    rcases Nat.lt_or_ge i.toNat j.toNat with hlt | hge
    · exact .inr ⟨[], i, is, x, rfl, .nil x, hzero i (Nat.le_refl _) hlt⟩
    · have e : j = i := UInt32.toNat_inj.mp (Nat.le_antisymm hge hij)
      rw [e] at hc
      have hi0 := hi i List.mem_cons_self
      rcases ih (fun i h => hi i (List.mem_cons_of_mem _ h)) with h | ⟨before, i', after, z', e, h1, h2⟩
      · exact .inl (.cons (pubChild_of_child hi0 hc) h (parent_of_child hi0 hc))
      · exact .inr ⟨i :: before, i', after, z', by rw [e]; rfl, .cons hd h1, h2⟩

theorem walk_append {H : Hashes} {C : Curve} {x y : XPrv} {is js : List UInt32} (h : Walk H C x (is ++ js) y) :
    ∃ z, Walk H C x is z ∧ Walk H C z js y := by
  induction is generalizing x with
  | nil => exact ⟨x, .nil x, h⟩
  | cons i is ih =>
    cases h with
    | cons hc h =>
      obtain ⟨z, h1, h2⟩ := ih h
      exact ⟨z, .cons hc h1, h2⟩

/-- Derivation uses of a key only secret, chain code and depth. -/
theorem derived_congr {H : Hashes} {C : Curve} {x x' y : XPrv} {i : UInt32} (hk : x'.key = x.key) (hc : x'.chaincode = x.chaincode)
    (hd : x'.depth = x.depth) (h : Derived H C x i y) : Derived H C x' i y := by
  have hs : ∀ i I, StepHash H C x i I → StepHash H C x' i I := by
    intro i I h
    unfold StepHash at h ⊢
    rw [hk, hc]
    exact h
  obtain ⟨h1, j, h2, h3, il, ir, l1, l2, h4, h5⟩ := h
  refine ⟨by rw [hd]; exact h1, j, h2, fun l a b => ?_, il, ir, l1, l2, hs _ _ h4, ?_⟩
  · obtain ⟨il, ir, l1, l2, h4, h5⟩ := h3 l a b
    exact ⟨il, ir, l1, l2, hs _ _ h4, by rw [hk]; exact h5⟩
  · rw [hk, hd]
    exact h5

/-- C79: whoever knows the public key and chain code of an account of a Bitcoin or Ethereum key made from a seed, and the secret of one
path of the account, computes the secret of the account and with it the secrets of all its paths. -/
theorem C79_account (nonce : Nonces) (tries : Nat) (Ed : Cardano.Ed) (net : Net) (seed d : Bytes) (k : KeyObj) (hn : net ≠ .cardano)
    (hd : (factoryOf Real.hashes (curve nonce tries) Ed net).keyDataFromSeed seed = .ok d)
    (hk : (factoryOf Real.hashes (curve nonce tries) Ed net).keyFromData d = .ok k) (p p' : Path)
    (h1 : p'.purpose = p.purpose) (h2 : p'.coin = p.coin) (h3 : p'.account = p.account) (out out' : Bytes)
    (ho : k.pubKey p = .ok out) (ho' : k.pubKey p' = .ok out') :
    ∃ root acc y y' : XPrv, Root Real.hashes seed root ∧
      Walk Real.hashes (curve nonce tries) root [p.purpose, p.coin, p.account] acc ∧
      Uncompressed (y.key.val • G) out ∧ Uncompressed (y'.key.val • G) out' ∧
      ((∀ a, Climb Real.hashes (acc.key.val • G) acc.chaincode.val [p.change, p.address] y.key.val a ↔ a = acc.key.val) ∨
        ∃ z, (z = acc ∧ ZeroSum Real.hashes (curve nonce tries) z p.change) ∨
          Walk Real.hashes (curve nonce tries) acc [p.change] z ∧ ZeroSum Real.hashes (curve nonce tries) z p.address) ∧
      ∀ x : XPrv, x.key = acc.key → x.chaincode = acc.chaincode → x.depth = 3 →
        Walk Real.hashes (curve nonce tries) x [p'.change, p'.address] y' := by
  obtain ⟨root, hr, -, h⟩ := C31_secp _ _ Ed net seed d k hn hd hk
  obtain ⟨hp, y, hw, rfl⟩ := ((h p).1 out).mp ho
  obtain ⟨hp', y', hw', rfl⟩ := ((h p').1 out').mp ho'
  obtain ⟨acc, ha, hb⟩ := walk_append (is := [p.purpose, p.coin, p.account]) (js := [p.change, p.address]) hw
  obtain ⟨acc', ha', hb'⟩ := walk_append (is := [p'.purpose, p'.coin, p'.account]) (js := [p'.change, p'.address]) hw'
  rw [h1, h2, h3] at ha'
  obtain rfl := walk_unique ha ha'
  have hdep : acc.depth = 3 := by
    obtain ⟨_, _, _, _, _, _, _, e0, -⟩ := id hr
    cases ha with
    | cons a1 w => cases w with
      | cons a2 w => cases w with
        | cons a3 w =>
          cases w
          obtain ⟨-, _, -, -, _, _, -, -, -, -, -, -, -, e1, -⟩ := a1
          obtain ⟨-, _, -, -, _, _, -, -, -, -, -, -, -, e2, -⟩ := a2
          obtain ⟨-, _, -, -, _, _, -, -, -, -, -, -, -, e3, -⟩ := a3
          refine UInt8.toNat_inj.mp ?_
          rw [e3, e2, e1, e0]; rfl
  refine ⟨root, acc, y, y', hr, ha, Real.Secp256k1.ser_eq nonce tries _, Real.Secp256k1.ser_eq nonce tries _, ?_, ?_⟩
  · have hch : p.change.toNat < 2 ^ 31 := by rcases hp.2.2.2.1 with h | h <;> rw [h] <;> decide
    refine (C79_path _ nonce tries acc y _ ?_ hb).imp id ?_
    · intro i hi
      rcases List.mem_cons.mp hi with rfl | hi
      · exact hch
      · rcases List.mem_singleton.mp hi with rfl
        exact hp.2.2.2.2
    · rintro ⟨before, i, after, z, e, hz, hzero⟩
      refine ⟨z, ?_⟩
      match before, e with
      | [], e => cases e; cases hz; exact .inl ⟨rfl, hzero⟩
      | [_], e => cases e; exact .inr ⟨hz, hzero⟩
      | _ :: _ :: _, e => simp at e
  · intro x e1 e2 e3
    cases hb' with
    | cons c w => exact .cons (derived_congr e1 e2 (e3.trans hdep.symm) c) w

/-! ### Cardano -/

open KC.Spec.Ed25519 (le Parts B Encodes IsLe)
open KC.Real.Ed25519 (kl kr cc ed)

theorem ed_parent_of_child {H : Hashes} {x y : Cardano.XPrv} {i : UInt32} (hi : i.toNat < 2 ^ 31) (h : Spec.Ed25519.Child H x i y) :
    Spec.Ed25519.ParentKey H (le (kl x) • B) (cc x) i y x := by
  obtain ⟨a, b, c, a1, b1, c1, mz, mi, hx', hy, ⟨ib, h1, h2⟩, e1, e2, e3⟩ := h
  obtain ⟨rfl, rfl, rfl⟩ := Real.Ed25519.parts_unique hx' (Real.Ed25519.parts x)
  rcases h2 with ⟨g, -⟩ | ⟨-, pa, ha, rfl, rfl⟩
  · omega
  have hlen := H.hmacSha512_len (cc x) ([2] ++ pa ++ ib)
  have l0 := Real.Ed25519.le_lt ((H.hmacSha512 (cc x) ([2] ++ pa ++ ib)).take 28)
  have l1 := Real.Ed25519.le_lt ((H.hmacSha512 (cc x) ([2] ++ pa ++ ib)).drop 32)
  have l2 := Real.Ed25519.le_lt (kl x)
  have l3 := Real.Ed25519.le_lt (kr x)
  rw [List.length_take, hlen] at l0
  rw [List.length_drop, hlen] at l1
  rw [hx'.2.1] at l2
  rw [hx'.2.2.1] at l3
  refine ⟨pa, ib, _, kl x, kr x, a1, b1, c1, ha, h1, rfl, hy, hx', ?_, ?_⟩
  · rw [e1]
    generalize le (kl x) = u at *
    generalize le ((H.hmacSha512 (cc x) ([2] ++ pa ++ ib)).take 28) = v at *
    norm_num at l0 l2 ⊢
    omega
  · rw [e2]
    generalize le (kr x) = u at *
    generalize le ((H.hmacSha512 (cc x) ([2] ++ pa ++ ib)).drop 32) = v at *
    norm_num at l1 l3 ⊢
    omega

theorem ed_parentKey_unique {H : Hashes} {A : Spec.Ed25519.E.Point} {c : Bytes} {i : UInt32} {y x x' : Cardano.XPrv}
    (h : Spec.Ed25519.ParentKey H A c i y x) (h' : Spec.Ed25519.ParentKey H A c i y x') : x = x' := by
  obtain ⟨a, ib, z, k1, k2, k3, k4, c1, h1, h2, rfl, hy, hx, e1, e2⟩ := h
  obtain ⟨a', ib', z', k1', k2', k3', k4', c1', h1', h2', rfl, hy', hx', e1', e2'⟩ := h'
  obtain rfl := Real.Ed25519.encodes_unique h1 h1'
  obtain rfl := Real.Ed25519.isLe_unique h2 h2'
  obtain ⟨rfl, rfl, rfl⟩ := Real.Ed25519.parts_unique hy hy'
  rw [← e1'] at e1
  rw [← e2'] at e2
  obtain rfl := Real.Ed25519.le_inj (hx.2.1.trans hx'.2.1.symm) e1
  obtain rfl := Real.Ed25519.le_inj (hx.2.2.1.trans hx'.2.2.1.symm) e2
  exact Real.Ed25519.parts_ext hx hx'

theorem ed_climb_unique {H : Hashes} {A : Spec.Ed25519.E.Point} {c : Bytes} {is : List UInt32} {z x x' : Cardano.XPrv}
    (h : Spec.Ed25519.Climb H A c is z x) (h' : Spec.Ed25519.Climb H A c is z x') : x = x' := by
  induction h generalizing x' with
  | nil => cases h'; rfl
  | cons h1 _ h3 ih =>
    cases h' with
    | cons h1' h2' h3' =>
      obtain ⟨_, _, -, hu⟩ := C65_determined H _ _ _ h1.1
      obtain ⟨rfl, rfl⟩ := hu _ _ h1
      obtain ⟨rfl, rfl⟩ := hu _ _ h1'
      obtain rfl := ih h2'
      exact ed_parentKey_unique h3 h3'

/-- C79, Cardano: the soft child and the parent's public key and chain code give the whole parent, also the half that nonces come from. -/
theorem C79_cardano (H : Hashes) (x y : Cardano.XPrv) (i : UInt32) (hi : i.toNat < 2 ^ 31) (h : Spec.Ed25519.Child H x i y)
    (x' : Cardano.XPrv) : Spec.Ed25519.ParentKey H (le (kl x) • B) (cc x) i y x' ↔ x' = x := by
  have := ed_parent_of_child hi h
  exact ⟨fun h => ed_parentKey_unique h this, fun h => h ▸ this⟩

/-- C79, Cardano: whoever knows the public key and chain code of an account and the extended secret of one path of it computes that of the
account, which gives those of all its paths. -/
theorem C79_cardano_account (H : Hashes) (C : Secp.Curve) (ok : Nat → Bool) (d : Bytes) (k : KeyObj)
    (hk : (factoryOf H C (ed H ok) .cardano).keyFromData d = .ok k) (root : Cardano.XPrv) (hr : root.val = d) (p : Path)
    (hp : Accepts .cardano p) (acc y : Cardano.XPrv) (hacc : Spec.Ed25519.Walk H root [p.purpose, p.coin, p.account] acc)
    (hy : Spec.Ed25519.Walk H root (full p) y) :
    (∀ x, Spec.Ed25519.Climb H (le (kl acc) • B) (cc acc) [p.change, p.address] y x ↔ x = acc) ∧
    ∀ p' : Path, p'.purpose = p.purpose → p'.coin = p.coin → p'.account = p.account → ∀ y',
      Spec.Ed25519.Walk H root (full p') y' ↔ Spec.Ed25519.Walk H acc [p'.change, p'.address] y' := by
  have hcl := clamped_of_load hk hr
  have hsplit : ∀ p' : Path, full p' = [p'.purpose, p'.coin, p'.account] ++ [p'.change, p'.address] := fun _ => rfl
  constructor
  · rw [hsplit] at hy
    obtain ⟨acc', hw1, hw2⟩ := ed_walk_append hy
    obtain rfl := Real.Ed25519.walk_unique hacc hw1
    have b1 := (C64_walk H root acc _ hcl hacc (show 3 ≤ 2 ^ 26 by decide)).2.2.2
    have hch : p.change.toNat < 2 ^ 31 := by rcases hp.2.2.2.1 with h | h <;> rw [h] <;> decide
    have hcl : Spec.Ed25519.Climb H (le (kl acc) • B) (cc acc) [p.change, p.address] y acc := by
      cases hw2 with
      | @cons _ _ z _ _ c1 w1 =>
      cases w1 with
      | @cons _ _ z' _ _ c2 w2 =>
      cases w2
      have b2 := (C64_walk H root z _ hcl (ed_walk_trans hacc (.cons c1 (.nil z))) (show 4 ≤ 2 ^ 26 by decide)).2.2.2
      exact .cons (C65_child H acc z _ hch b1 c1) (.cons (C65_child H z y _ hp.2.2.2.2 b2 c2) (.nil _ _ _)
        (ed_parent_of_child hp.2.2.2.2 c2)) (ed_parent_of_child hch c1)
    exact fun x => ⟨fun h => ed_climb_unique h hcl, fun h => h ▸ hcl⟩
  · intro p' h1 h2 h3 y'
    rw [hsplit p', h1, h2, h3]
    constructor
    · intro h
      obtain ⟨acc', hw1, hw2⟩ := ed_walk_append h
      obtain rfl := Real.Ed25519.walk_unique hacc hw1
      exact hw2
    · exact ed_walk_trans hacc

/-! ### Cases -/

open KC.Real.Known

/-- The secret of m/44'/60'/0'/0 follows from that of m/44'/60'/0'/0/0, and that of the account from it. -/
example : ParentSecret Real.hashes (ethChange.key.val • G) ethChange.chaincode.val 0 ethKey.key.val ethChange.key.val ∧
    Climb Real.hashes (ethAccount.key.val • G) ethAccount.chaincode.val [0, 0] ethKey.key.val ethAccount.key.val := by
  have h1 := (derive_ok _ _ _ _ _).mpr (ethChange_derived (fun _ _ _ => 7) 1)
  have h2 := (derive_ok _ _ _ _ _).mpr (ethKey_derived (fun _ _ _ => 7) 1)
  have e1 : ethChange.index = 0 := by decide +kernel
  have e2 : ethKey.index = 0 := by decide +kernel
  have q1 := (C79_parent Real.hashes _ _ _ _ _ h1 (by rw [e1]; decide) _).mpr rfl
  have q2 := (C79_parent Real.hashes _ _ _ _ _ h2 (by rw [e2]; decide) _).mpr rfl
  have p1 := C61_public_child Real.hashes _ _ _ _ _ h1 (by rw [e1]; decide)
  have p2 := C61_public_child Real.hashes _ _ _ _ _ h2 (by rw [e2]; decide)
  rw [e1] at q1 p1
  rw [e2] at q2 p2
  exact ⟨q2, .cons p1 (.cons p2 (.nil _ _ _) q2) q1⟩

/-- `C79_cardano_account` applies to the key of the tests. -/
example (C : Secp.Curve) : ∃ (k : KeyObj) (root acc y : Cardano.XPrv),
    (factoryOf Real.hashes C (ed Real.hashes inRange) .cardano).keyFromData root.val = .ok k ∧
    Spec.Ed25519.Walk Real.hashes root (full path0) y ∧
    Spec.Ed25519.Climb Real.hashes (le (kl acc) • B) (cc acc) [0, 0] y acc := by
  obtain ⟨k, hk⟩ := d1_loads C
  have hw := Real.Ed25519.walk_foldl Real.hashes inRange
  exact ⟨k, _, _, _, hk, hw _ _, ((C79_cardano_account Real.hashes C inRange _ k hk _ rfl path0 path0_ok _ _ (hw _ _) (hw _ _)).1 _).mpr rfl⟩

end KC.Props
