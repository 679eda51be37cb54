import Mathlib.Order.Interval.Finset.Nat
import Mathlib.Data.Finset.Prod
import Verif.Spec.KeyCount
import Verif.Props.Secp
import Verif.Props.Keys
/-
C106: how many hash values give a key.
-/
namespace KC.Props
open KC KC.Secp KC.Spec KC.Spec.Bip32 KC.Spec.KeyCount

theorem pow32 : (256 : Nat) ^ 32 = 2 ^ 256 := by decide +kernel
theorem n_lt : n < 256 ^ 32 := by decide +kernel
theorem n_pos : 2 < n := by decide +kernel

/-- Counting 64-byte values by the number in their first half. -/
theorem ncard_half (S : Finset Nat) (hS : ∀ m ∈ S, m < 256 ^ 32) :
    {v : Bytes | v.length = 64 ∧ be (v.take 32) ∈ S}.ncard = S.card * 256 ^ 32 := by
  generalize hq : (256 : Nat) ^ 32 = q at *
  have e : {v : Bytes | v.length = 64 ∧ be (v.take 32) ∈ S} =
      (fun p : Nat × Nat => Bytes.beBytes 32 p.1 ++ Bytes.beBytes 32 p.2) '' (↑(S ×ˢ Finset.range q) : Set (Nat × Nat)) := by
    ext v
    constructor
    · rintro ⟨h1, h2⟩
      have l1 : (v.take 32).length = 32 := by simp [h1]
      have l2 : (v.drop 32).length = 32 := by simp [h1]
      refine ⟨(be (v.take 32), be (v.drop 32)), ?_, ?_⟩
      · simp only [Finset.coe_product, Set.mem_prod, Finset.mem_coe, Finset.mem_range]
        refine ⟨h2, ?_⟩
        have := Bytes.be_lt (v.drop 32)
        rwa [l2, hq] at this
      · have a1 : Bytes.beBytes 32 (be (v.take 32)) = v.take 32 := Bytes.be_inj (by rw [Bytes.beBytes_length, l1]) (by
          rw [Bytes.be_beBytes, hq, Nat.mod_eq_of_lt (hS _ h2)])
        have a2 : Bytes.beBytes 32 (be (v.drop 32)) = v.drop 32 := Bytes.be_inj (by rw [Bytes.beBytes_length, l2]) (by
          have := Bytes.be_lt (v.drop 32)
          rw [l2] at this
          rw [Bytes.be_beBytes, Nat.mod_eq_of_lt this])
        simp only [a1, a2, List.take_append_drop]
    · rintro ⟨⟨a, b⟩, hab, rfl⟩
      simp only [Finset.coe_product, Set.mem_prod, Finset.mem_coe] at hab
      refine ⟨by simp [Bytes.beBytes_length], ?_⟩
      rw [List.take_append_of_le_length (by rw [Bytes.beBytes_length]), List.take_of_length_le (by rw [Bytes.beBytes_length]),
        Bytes.be_beBytes, hq, Nat.mod_eq_of_lt (hS _ hab.1)]
      exact hab.1
  rw [e, Set.InjOn.ncard_image, Set.ncard_coe_finset, Finset.card_product, Finset.card_range]
  rintro ⟨a, b⟩ h ⟨a', b'⟩ h' hab
  simp only [Finset.coe_product, Set.mem_prod, Finset.mem_coe, Finset.mem_range] at h h'
  obtain ⟨e1, e2⟩ := List.append_inj hab (by rw [Bytes.beBytes_length, Bytes.beBytes_length])
  have e1 := congrArg be e1
  have e2 := congrArg be e2
  rw [Bytes.be_beBytes, Bytes.be_beBytes, hq] at e1 e2
  rw [Nat.mod_eq_of_lt (hS _ h.1), Nat.mod_eq_of_lt (hS _ h'.1)] at e1
  rw [Nat.mod_eq_of_lt h.2, Nat.mod_eq_of_lt h'.2] at e2
  rw [Prod.mk.injEq]
  exact ⟨e1, e2⟩

theorem secret_lt (s : Secret) : 0 < s.val ∧ s.val < n := ⟨s.2.1, Nat.lt_of_lt_of_eq s.2.2 order_eq⟩

theorem split64 {v : Bytes} (h : v.length = 64) : (v.take 32).length = 32 ∧ (v.drop 32).length = 32 ∧ v.take 32 ++ v.drop 32 = v := by
  simp [h]

/-- For a secret, the sum with a number of 1..n-1 is zero for the opposite only. -/
theorem sum_zero {m k : Nat} (hm : 0 < m) (hm' : m < n) (hk : 0 < k) (hk' : k < n) : (m + k) % n = 0 ↔ m = n - k := by
  generalize n = q at *
  constructor
  · intro h
    rcases Nat.lt_or_ge (m + k) q with h1 | h1
    · rw [Nat.mod_eq_of_lt h1] at h; omega
    · rw [Nat.mod_eq_sub_mod h1, Nat.mod_eq_of_lt (by omega)] at h; omega
  · rintro rfl
    rw [Nat.sub_add_cancel (by omega), Nat.mod_self]

/-- C106: `derive(i)` gives the child with this very index exactly if the value of HMAC has a first half in 1..n-1 that is not the
opposite of the parent's secret; it refuses exactly if the first half is no secret; else it goes on with the next index. -/
theorem C106_child (H : Hashes) (C : Curve) (x : XPrv) (i : UInt32) (v : Bytes) (hd : x.depth.toNat < 255) (hv : StepHash H C x i v) :
    v.length = 64 ∧
    ((∃ y, x.derive H C i = .ok y ∧ y.index = i) ↔ v ∈ Child64 x.key.val) ∧
    (v ∈ Bad64 → x.derive H C i = .err .invalidSecretKey) ∧
    (v ∈ Zero64 x.key.val → i.toNat + 1 < 2 ^ 32 → x.derive H C i = x.derive H C (i + 1)) := by
  have hl : v.length = 64 := by
    obtain ⟨k, ib, -, -, ⟨-, rfl⟩ | ⟨-, rfl⟩⟩ := hv <;> exact H.hmacSha512_len _ _
  obtain ⟨l1, l2, e⟩ := split64 hl
  refine ⟨hl, ⟨?_, ?_⟩, ?_, ?_⟩
  · rintro ⟨y, hy, hi⟩
    obtain ⟨-, j, -, -, il, ir, h1, h2, h3, h4, h5, h6, -, -, h7, -⟩ := (C26_exact H C x y i).mp hy
    obtain rfl : i = j := hi.symm.trans h7
    have := stepHash_unique h3 hv
    have e1 : v.take 32 = il := by rw [← this, List.take_append_of_le_length (by omega), List.take_of_length_le (by omega)]
    refine ⟨hl, by rw [e1]; exact h4, by rw [e1]; exact h5, ?_⟩
    rw [e1, ← h6]
    exact Nat.ne_of_gt y.key.2.1
  · rintro ⟨-, h1, h2, h3⟩
    rw [← e] at hv
    obtain ⟨y, hy, -, -, hi⟩ := C26_child H C x i _ _ hd l1 l2 hv h1 h2 h3
    exact ⟨y, hy, hi⟩
  · rintro ⟨-, h⟩
    exact C26_bad_left H C x i hd ⟨_, _, l1, l2, e.symm ▸ hv, h⟩
  · rintro ⟨-, h1, h2, h3⟩ hi
    exact (C26_zero_sum H C x i hd ⟨_, _, l1, l2, e.symm ▸ hv, h1, h2, h3⟩ hi).1

/-- C106: the counts of these values; together they are all 256^64. -/
theorem C106_counts (k : Nat) (hk : 0 < k) (hk' : k < n) :
    (Child64 k).ncard = (n - 2) * 256 ^ 32 ∧ (Zero64 k).ncard = 256 ^ 32 ∧ Bad64.ncard = (256 ^ 32 - n + 1) * 256 ^ 32 ∧
    Root64.ncard = (n - 1) * 256 ^ 32 := by
  have hn := n_lt
  have hn2 := n_pos
  refine ⟨?_, ?_, ?_, ?_⟩
  · have e : Child64 k = {v : Bytes | v.length = 64 ∧ be (v.take 32) ∈ (Finset.Ico 1 n).erase (n - k)} := by
      ext v
      simp only [Child64, Set.mem_ofPred_eq, Finset.mem_erase, Finset.mem_Ico]
      constructor
      · rintro ⟨h1, h2, h3, h4⟩
        exact ⟨h1, fun h => h4 ((sum_zero h2 h3 hk hk').mpr h), h2, h3⟩
      · rintro ⟨h1, h2, h3, h4⟩
        exact ⟨h1, h3, h4, fun h => h2 ((sum_zero h3 h4 hk hk').mp h)⟩
    rw [e, ncard_half, Finset.card_erase_of_mem, Nat.card_Ico]
    · congr 1
    · rw [Finset.mem_Ico]; omega
    · intro m hm
      have := Finset.mem_Ico.mp (Finset.mem_of_mem_erase hm)
      exact Nat.lt_trans this.2 hn
  · have e : Zero64 k = {v : Bytes | v.length = 64 ∧ be (v.take 32) ∈ ({n - k} : Finset Nat)} := by
      ext v
      simp only [Zero64, Set.mem_ofPred_eq, Finset.mem_singleton]
      constructor
      · rintro ⟨h1, h2, h3, h4⟩
        exact ⟨h1, (sum_zero h2 h3 hk hk').mp h4⟩
      · rintro ⟨h1, h2⟩
        have h3 : 0 < be (v.take 32) := by omega
        have h4 : be (v.take 32) < n := by omega
        exact ⟨h1, h3, h4, (sum_zero h3 h4 hk hk').mpr h2⟩
    rw [e, ncard_half, Finset.card_singleton, Nat.one_mul]
    intro m hm
    have := Finset.mem_singleton.mp hm
    omega
  · have e : Bad64 = {v : Bytes | v.length = 64 ∧ be (v.take 32) ∈ insert 0 (Finset.Ico n (256 ^ 32))} := by
      ext v
      simp only [Bad64, Set.mem_ofPred_eq, Finset.mem_insert, Finset.mem_Ico]
      constructor
      · rintro ⟨h1, h2⟩
        have := Bytes.be_lt (v.take 32)
        rw [(split64 h1).1] at this
        exact ⟨h1, h2.imp id fun h => ⟨h, this⟩⟩
      · rintro ⟨h1, h2⟩
        exact ⟨h1, h2.imp id fun h => h.1⟩
    rw [e, ncard_half, Finset.card_insert_of_notMem, Nat.card_Ico]
    · rw [Finset.mem_Ico]; omega
    · intro m hm
      rcases Finset.mem_insert.mp hm with rfl | hm
      · omega
      · exact (Finset.mem_Ico.mp hm).2
  · have e : Root64 = {v : Bytes | v.length = 64 ∧ be (v.take 32) ∈ Finset.Ico 1 n} := by
      ext v
      simp only [Root64, Set.mem_ofPred_eq, Finset.mem_Ico, Nat.one_le_iff_ne_zero, Nat.pos_iff_ne_zero]
    rw [e, ncard_half, Nat.card_Ico]
    intro m hm
    exact Nat.lt_trans (Finset.mem_Ico.mp hm).2 hn

/-- C106: less than one in 2^127 of the values is refused. -/
theorem C106_rare : Bad64.ncard * 2 ^ 127 < 256 ^ 64 := by
  rw [(C106_counts 1 (by decide) (by have := n_pos; omega)).2.2.1]
  decide +kernel

/-- C106: children with the requested index, also with different hash functions, have the same secret and chain code exactly if
the values of HMAC were the same. -/
theorem C106_child_inj (H H' : Hashes) (C : Curve) (x y y' : XPrv) (i : UInt32) (v v' : Bytes) (hv : StepHash H C x i v)
    (hv' : StepHash H' C x i v') (h : x.derive H C i = .ok y) (h' : x.derive H' C i = .ok y') (hi : y.index = i) (hi' : y'.index = i) :
    (y.key = y'.key ∧ y.chaincode = y'.chaincode) ↔ v = v' := by
  obtain ⟨-, j, -, -, il, ir, a1, a2, a3, a4, a5, a6, a7, -, a8, -⟩ := (C26_exact H C x y i).mp h
  obtain ⟨-, j', -, -, il', ir', b1, b2, b3, b4, b5, b6, b7, -, b8, -⟩ := (C26_exact H' C x y' i).mp h'
  obtain rfl : i = j := hi.symm.trans a8
  obtain rfl : i = j' := hi'.symm.trans b8
  obtain rfl := stepHash_unique a3 hv
  obtain rfl := stepHash_unique b3 hv'
  constructor
  · rintro ⟨h1, h2⟩
    have e2 : ir = ir' := by rw [← a7, ← b7, h2]
    have e1 : (be il + x.key.val) % n = (be il' + x.key.val) % n := by rw [← a6, ← b6, h1]
    have e3 : be il % n = be il' % n := Nat.ModEq.add_right_cancel' _ e1
    rw [Nat.mod_eq_of_lt a5, Nat.mod_eq_of_lt b5] at e3
    rw [e2, Bytes.be_inj (by omega) e3]
  · intro h
    obtain ⟨rfl, rfl⟩ := List.append_inj h (by omega)
    exact ⟨Subtype.ext (a6.trans b6.symm), Subtype.ext (a7.trans b7.symm)⟩

/-- C106: every secret but the parent's own, with every chain code, is that of the child for some value; the parent's own never is. -/
theorem C106_child_onto (C : Curve) (x : XPrv) (i : UInt32) (hd : x.depth.toNat < 255) (s : Secret) (c : Bytes) (hc : c.length = 32) :
    (s ≠ x.key → ∃ v ∈ Child64 x.key.val, ∀ H, StepHash H C x i v →
      ∃ y, x.derive H C i = .ok y ∧ y.key = s ∧ y.chaincode.val = c ∧ y.index = i) ∧
    ∀ H y, x.derive H C i = .ok y → y.key ≠ x.key := by
  have hx := secret_lt x.key
  have hs := secret_lt s
  have hn := n_lt
  constructor
  · intro hne
    have hne' : s.val ≠ x.key.val := fun h => hne (Subtype.ext h)
    obtain ⟨m, m0, m1, m2⟩ : ∃ m, 0 < m ∧ m < n ∧ (m + x.key.val) % n = s.val := by
      rcases Nat.lt_or_ge x.key.val s.val with h | h
      · exact ⟨s.val - x.key.val, by omega, by omega, by rw [Nat.sub_add_cancel (by omega), Nat.mod_eq_of_lt hs.2]⟩
      · refine ⟨n + s.val - x.key.val, by omega, by omega, ?_⟩
        rw [Nat.sub_add_cancel (by omega), Nat.add_mod_left, Nat.mod_eq_of_lt hs.2]
    have hb : be (Bytes.beBytes 32 m) = m := by rw [Bytes.be_beBytes, Nat.mod_eq_of_lt (Nat.lt_trans m1 hn)]
    have hl : (Bytes.beBytes 32 m).length = 32 := Bytes.beBytes_length _ _
    refine ⟨Bytes.beBytes 32 m ++ c, ⟨by simp [hl, hc], ?_⟩, fun H hH => ?_⟩
    · rw [List.take_append_of_le_length (by omega), List.take_of_length_le (by omega), hb, m2]
      exact ⟨m0, m1, by omega⟩
    · obtain ⟨y, h1, h2, h3, h4⟩ := C26_child H C x i _ _ hd hl hc hH (by rw [hb]; exact m0) (by rw [hb]; exact m1) (by rw [hb, m2]; omega)
      rw [hb, m2] at h2
      exact ⟨y, h1, Subtype.ext h2, h3, h4⟩
  · intro H y hy he
    obtain ⟨-, j, -, -, il, ir, -, -, -, a4, a5, a6, -⟩ := (C26_exact H C x y i).mp hy
    rw [he] at a6
    have hk := hx.2
    generalize n = q at *
    rcases Nat.lt_or_ge (be il + x.key.val) q with h1 | h1
    · rw [Nat.mod_eq_of_lt h1] at a6; omega
    · rw [Nat.mod_eq_sub_mod h1, Nat.mod_eq_of_lt (by omega)] at a6; omega

/-- C106: the root of a seed: there is one exactly if the value of HMAC has a first half in 1..n-1; secret and chain code are the
halves. -/
theorem C106_root (H : Hashes) (seed : Bip39.Seed) :
    let v := H.hmacSha512 ("Bitcoin seed".toList.map fun c => UInt8.ofNat c.toNat) seed.val
    ((∃ x, XPrv.fromSeed H seed = .ok x) ↔ v ∈ Root64) ∧ (v ∉ Root64 → XPrv.fromSeed H seed = .err .invalidSecretKey) ∧
    ∀ x, XPrv.fromSeed H seed = .ok x → IsBe 32 x.key.val (v.take 32) ∧ x.chaincode.val = v.drop 32 := by
  intro v
  obtain ⟨h1, h2⟩ := C26_root H seed
  have hl : v.length = 64 := H.hmacSha512_len _ _
  obtain ⟨l1, l2, e⟩ := split64 hl
  have parts : ∀ x, Root H seed.val x → IsBe 32 x.key.val (v.take 32) ∧ x.chaincode.val = v.drop 32 := by
    rintro x ⟨il, ir, a1, a2, a3, a4, a5, -⟩
    have a3 : v = il ++ ir := a3
    rw [a3, List.take_append_of_le_length (by omega), List.take_of_length_le (by omega), List.drop_append_of_le_length (by omega),
      List.drop_of_length_le (by omega), List.nil_append]
    exact ⟨a4, a5⟩
  have iff : (∃ x, Root H seed.val x) ↔ v ∈ Root64 := by
    constructor
    · rintro ⟨x, hx⟩
      have hk := secret_lt x.key
      refine ⟨hl, ?_⟩
      rw [(parts x hx).1.2]
      exact hk
    · rintro ⟨-, h3, h4⟩
      exact ⟨⟨⟨be (v.take 32), h3, by rw [order_eq]; exact h4⟩, ⟨v.drop 32, l2⟩, ⟨List.replicate 4 0, rfl⟩, 0, 0⟩,
        _, _, l1, l2, e.symm, ⟨l1, rfl⟩, rfl, rfl, rfl, rfl⟩
  refine ⟨?_, fun h => h2 fun h3 => h (iff.mp h3), fun x hx => parts x ((h1 x).mp hx)⟩
  rw [← iff]
  exact exists_congr h1

/-- C106: every 64-byte value is the value of HMAC in a step, and SHA-512 of a message, for some functions. -/
theorem C106_values (H : Hashes) (C : Curve) (x : XPrv) (i : UInt32) (v : Bytes) (hv : v.length = 64) :
    (∃ H', StepHash H' C x i v) ∧ ∃ H' : Hashes, ∀ m, H'.sha512 m = v := by
  obtain ⟨il, ir, -, -, k, ib, h1, h2, h3⟩ := stepHash_exists H C x i
  refine ⟨⟨{ H with hmacSha512 := fun _ _ => v, hmacSha512_len := fun _ _ => hv }, k, ib, h1, h2, ?_⟩,
    { H with sha512 := fun _ => v, sha512_len := fun _ => hv }, fun _ => rfl⟩
  exact h3.imp (fun h => ⟨h.1, rfl⟩) fun h => ⟨h.1, rfl⟩

/-- 64 bytes, by the two that Cardano changes. -/
theorem cut64 {v : Bytes} (h : v.length = 64) : ∃ (a b : UInt8) (m r : Bytes), v = [a] ++ m ++ [b] ++ r ∧ m.length = 30 ∧ r.length = 32 := by
  refine ⟨v[0], v[31], (v.drop 1).take 30, v.drop 32, ?_, by simp [h], by simp [h]⟩
  have e1 : v = v[0] :: v.drop 1 := by rw [List.getElem_cons_drop (by omega), List.drop_zero]
  have e2 : v.drop 31 = v[31] :: v.drop 32 := by rw [List.getElem_cons_drop (by omega)]
  have e3 : v.drop 1 = (v.drop 1).take 30 ++ v.drop 31 := by
    conv_lhs => rw [← List.take_append_drop 30 (v.drop 1), List.drop_drop]
  conv_lhs => rw [e1, e3, e2]
  simp

theorem cut64_get (a b : UInt8) (m r : Bytes) (hm : m.length = 30) :
    ([a] ++ m ++ [b] ++ r).getD 0 0 = a ∧ ([a] ++ m ++ [b] ++ r).getD 31 0 = b ∧ (([a] ++ m ++ [b] ++ r).drop 1).take 30 = m ∧
    ([a] ++ m ++ [b] ++ r).drop 32 = r := by
  refine ⟨by simp, ?_, ?_, ?_⟩
  · rw [List.getD_eq_getElem?_getD, List.append_assoc, List.getElem?_append_right (by simp [hm])]
    simp [hm]
  · simp [← hm]
  · rw [show 32 = ([a] ++ m ++ [b]).length by simp [hm], List.drop_left]

/-- C106: Cardano data of a seed: each data that ends with the second half of the seed and has the required bits comes from exactly
64 of the 256^64 values of SHA-512. -/
theorem C106_cardano (H0 : Hashes) (C : Curve) (E : Cardano.Ed) (seed d : Bytes) (hs : seed.length = 64) (hd : d.length = 96)
    (hc : Clamped d) (he : d.drop 64 = seed.drop 32) :
    {v : Bytes | v.length = 64 ∧ ∃ H : Hashes, H.sha512 (seed.take 32) = v ∧
      (factoryOf H C E .cardano).keyDataFromSeed seed = .ok d}.ncard = 64 := by
  obtain ⟨a0, b0, m0, r0, e0, hm0, hr0⟩ := cut64 (v := d.take 64) (by simp [hd])
  have ed : d = [a0] ++ m0 ++ [b0] ++ r0 ++ seed.drop 32 := by rw [← e0, ← he, List.take_append_drop]
  obtain ⟨g1, g2, -, -⟩ := cut64_get a0 b0 m0 (r0 ++ seed.drop 32) hm0
  have hc1 : b0.toNat / 32 = 2 ∧ a0.toNat % 8 = 0 := by
    rw [← List.append_assoc, ← ed] at g1 g2
    rw [Clamped, g1, g2] at hc
    exact hc
  have ha := a0.toNat_lt
  have hb := b0.toNat_lt
  have e : {v : Bytes | v.length = 64 ∧ ∃ H : Hashes, H.sha512 (seed.take 32) = v ∧
      (factoryOf H C E .cardano).keyDataFromSeed seed = .ok d} =
      (fun p : Nat × Nat => [UInt8.ofNat (a0.toNat + p.1)] ++ m0 ++ [UInt8.ofNat (b0.toNat % 32 + 32 * p.2)] ++ r0) ''
        (↑(Finset.range 8 ×ˢ Finset.range 8) : Set (Nat × Nat)) := by
    ext v
    constructor
    · rintro ⟨hv, H, h1, h2⟩
      obtain ⟨d', c0, c1, h3, -, -, -, h4, h5, h6⟩ := C30_from_seed H C E seed hs
      obtain rfl : d = d' := Res.ok.inj (h2.symm.trans h3)
      rw [h1] at h4 h5 h6
      obtain ⟨a, b, m, r, rfl, hm, hr⟩ := cut64 hv
      obtain ⟨k1, k2, k3, k4⟩ := cut64_get a b m r hm
      rw [k3, k4] at h4
      rw [k1] at h5
      rw [k2] at h6
      rw [h4] at ed
      obtain ⟨f1, f2⟩ := List.append_inj (List.append_cancel_right ed) (by simp [hm, hm0])
      obtain ⟨f3, e1⟩ := List.append_inj f1 (by simp [hm, hm0])
      obtain ⟨e2, f4⟩ := List.append_inj f3 (by simp)
      subst f2 f4
      obtain rfl : c1 = b0 := by simpa using e1
      obtain rfl : c0 = a0 := by simpa using e2
      have hat := a.toNat_lt
      have hbt := b.toNat_lt
      refine ⟨(a.toNat % 8, b.toNat / 32), ?_, ?_⟩
      · simp only [Finset.coe_product, Set.mem_prod, Finset.mem_coe, Finset.mem_range]
        omega
      · have q1 : c0.toNat + a.toNat % 8 = a.toNat := by omega
        have q2 : c1.toNat % 32 + 32 * (b.toNat / 32) = b.toNat := by omega
        simp only [q1, q2, UInt8.ofNat_toNat]
    · rintro ⟨⟨p, q⟩, hpq, rfl⟩
      simp only [Finset.coe_product, Set.mem_prod, Finset.mem_coe, Finset.mem_range] at hpq
      have hl : ([UInt8.ofNat (a0.toNat + p)] ++ m0 ++ [UInt8.ofNat (b0.toNat % 32 + 32 * q)] ++ r0).length = 64 := by simp [hm0, hr0]
      refine ⟨hl, ?_⟩
      obtain ⟨H, hH⟩ : ∃ H : Hashes, ∀ m, H.sha512 m = [UInt8.ofNat (a0.toNat + p)] ++ m0 ++ [UInt8.ofNat (b0.toNat % 32 + 32 * q)] ++ r0 :=
        ⟨{ H0 with sha512 := fun _ => _, sha512_len := fun _ => hl }, fun _ => rfl⟩
      refine ⟨H, hH _, ?_⟩
      obtain ⟨d', c0, c1, h3, -, -, -, h4, h5, h6⟩ := C30_from_seed H C E seed hs
      rw [h3, h4, ed]
      rw [hH] at h5 h6 ⊢
      obtain ⟨k1, k2, k3, k4⟩ := cut64_get (UInt8.ofNat (a0.toNat + p)) (UInt8.ofNat (b0.toNat % 32 + 32 * q)) m0 r0 hm0
      have w1 : (a0.toNat + p) % 2 ^ 8 = a0.toNat + p := Nat.mod_eq_of_lt (by omega)
      have w2 : (b0.toNat % 32 + 32 * q) % 2 ^ 8 = b0.toNat % 32 + 32 * q := Nat.mod_eq_of_lt (by omega)
      rw [k1, UInt8.toNat_ofNat', w1] at h5
      rw [k2, UInt8.toNat_ofNat', w2] at h6
      rw [k3, k4]
      have q1 : c0 = a0 := UInt8.toNat_inj.mp (by omega)
      have q2 : c1 = b0 := UInt8.toNat_inj.mp (by omega)
      rw [q1, q2]
  rw [e, Set.InjOn.ncard_image, Set.ncard_coe_finset, Finset.card_product, Finset.card_range]
  rintro ⟨p, q⟩ h ⟨p', q'⟩ h' hpq
  simp only [Finset.coe_product, Set.mem_prod, Finset.mem_coe, Finset.mem_range] at h h'
  obtain ⟨hpq, -⟩ := List.append_inj hpq (by simp)
  obtain ⟨hpq, e1⟩ := List.append_inj hpq (by simp)
  obtain ⟨e2, -⟩ := List.append_inj hpq (by simp)
  have e1 := congrArg UInt8.toNat (List.cons.inj e1).1
  have e2 := congrArg UInt8.toNat (List.cons.inj e2).1
  rw [UInt8.toNat_ofNat', UInt8.toNat_ofNat'] at e1 e2
  have w1 : ∀ p < 8, (a0.toNat + p) % 2 ^ 8 = a0.toNat + p := fun p hp => Nat.mod_eq_of_lt (by omega)
  have w2 : ∀ q < 8, (b0.toNat % 32 + 32 * q) % 2 ^ 8 = b0.toNat % 32 + 32 * q := fun q hq => Nat.mod_eq_of_lt (by omega)
  rw [w2 _ h.2, w2 _ h'.2] at e1
  rw [w1 _ h.1, w1 _ h'.1] at e2
  rw [Prod.mk.injEq]
  omega

/-- Non-vacuity: 64 bytes 1 give a child to the secret 1, 64 bytes 0 and 64 bytes 255 are refused, and the number n-1 gives the secret
1 no child with the requested index. -/
example : List.replicate 64 1 ∈ Child64 1 ∧ List.replicate 64 0 ∈ Bad64 ∧ List.replicate 64 255 ∈ Bad64 ∧
    Bytes.beBytes 32 (n - 1) ++ List.replicate 32 7 ∈ Zero64 1 ∧ List.replicate 64 1 ∈ Root64 := by
  simp only [Child64, Bad64, Zero64, Root64, Set.mem_ofPred_eq]
  decide +kernel

/-- Non-vacuity: the data of Cardano that is all 0 but for the byte 64 at place 31 comes from 64 values. -/
example (H0 : Hashes) (C : Curve) (E : Cardano.Ed) :
    {v : Bytes | v.length = 64 ∧ ∃ H : Hashes, H.sha512 (List.replicate 32 0) = v ∧
      (factoryOf H C E .cardano).keyDataFromSeed (List.replicate 64 0) = .ok (List.replicate 31 0 ++ [64] ++ List.replicate 64 0)}.ncard = 64 :=
  C106_cardano H0 C E (List.replicate 64 0) _ rfl rfl (by unfold Clamped; decide +kernel) rfl

end KC.Props
