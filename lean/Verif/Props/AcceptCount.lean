import Mathlib.Data.Set.Card
import Mathlib.Data.Finset.Prod
import Verif.Props.WhoseSignature
/-
C108: how many signatures a key accepts.
-/
namespace KC.Props
open KC.Manager KC.Spec KC.Spec.Bip32 KC.Secp
open KC.KeyPath (Path)
open KC.Spec.Secp256k1 (G E Valid Uncompressed)
open KC.Real.Secp256k1 (curve)
open KC.Spec.Ed25519 (le l B Encodes)
open KC.Real.Ed25519 (ed)

/-! ### Ed25519 -/

/-- What a key with scalar `k` accepts, by a number below the order of the base point. -/
theorem ed_param (H : Hashes) (k : Nat) (m : Bytes) :
    ∃ (R : Nat → Bytes) (s : Nat → Nat), (∀ j, Encodes (j • B) (R j) ∧ (R j).length = 32) ∧ (∀ j, s j < l) ∧
      (∀ i j, i < l → j < l → R i = R j → i = j) ∧
      (∀ (j : Nat) (S : Bytes), Spec.Ed25519.Valid H (k • B) m (R j) S ↔ le S % l = s j) ∧
      ∀ R' S : Bytes, Spec.Ed25519.Valid H (k • B) m R' S → ∃ j, j < l ∧ R' = R j := by
  have hl : 0 < l := by decide +kernel
  choose R hR using fun j : Nat => (C63_encoding (j • B)).1
  obtain ⟨a, ha, -⟩ := (C63_encoding (k • B)).1
  have smul : ∀ i j : Nat, i • B = j • B ↔ i % l = j % l := by
    intro i j
    rw [nsmul_eq_nsmul_iff_modEq, Real.Ed25519.order_B]
    rfl
  refine ⟨R, fun j => (j + le (H.sha512 (R j ++ a ++ m)) * k) % l, hR, fun j => Nat.mod_lt _ hl, ?_, ?_, ?_⟩
  · intro i j hi hj e
    have h1 := Real.Ed25519.encodes_inj (hR i).1 (e ▸ (hR j).1)
    rw [smul, Nat.mod_eq_of_lt hi, Nat.mod_eq_of_lt hj] at h1
    exact h1
  · intro j S
    rw [← smul, add_nsmul, mul_nsmul']
    constructor
    · rintro ⟨P, a', g1, g2, g3⟩
      obtain rfl := Real.Ed25519.encodes_unique g2 ha
      obtain rfl := Real.Ed25519.encodes_inj g1 (hR j).1
      exact g3
    · intro e
      exact ⟨_, a, (hR j).1, ha, e⟩
  · rintro R' S ⟨P, a', g1, g2, g3⟩
    obtain rfl := Real.Ed25519.encodes_unique g2 ha
    generalize le (H.sha512 (R' ++ a' ++ m)) = h at g3
    obtain ⟨q, hq⟩ : ∃ q, q = h * k := ⟨_, rfl⟩
    rw [← mul_nsmul', ← hq] at g3
    refine ⟨(le S + (l - 1) * q) % l, Nat.mod_lt _ hl, ?_⟩
    have e : P = ((le S + (l - 1) * q) % l) • B := by
      have e1 : ((le S + (l - 1) * q) % l) • B + q • B = le S • B := by
        rw [← add_nsmul, smul, Nat.mod_add_mod, Nat.add_assoc, ← Nat.succ_mul, Nat.succ_eq_add_one, Nat.sub_add_cancel hl, Nat.add_mul_mod_self_left]
      rw [g3] at e1
      exact (add_right_cancel e1).symm
    rw [e] at g1
    exact Real.Ed25519.encodes_unique g1 (hR _).1

/-- C108, Cardano: at a path of its network a key accepts at least `l` and at most 16 `l` of the 2^512 signatures of 64 bytes for a
message; exactly `l` if the library takes only second halves below `l`, as RFC 8032 asks. -/
theorem C108_cardano (H : Hashes) (C : Secp.Curve) (ok : Nat → Bool) (hok : ∀ s, s < l → ok s = true) (d : Bytes) (k : KeyObj)
    (hk : (factoryOf H C (ed H ok) .cardano).keyFromData d = .ok k) (p : Path) (hp : Accepts .cardano p) (m : Bytes) :
    l ≤ {sig : Bytes | sig.length = 64 ∧ k.verify m sig p = .ok true}.ncard ∧
    {sig : Bytes | sig.length = 64 ∧ k.verify m sig p = .ok true}.ncard ≤ 16 * l ∧
    ((∀ s, ok s = true → s < l) → {sig : Bytes | sig.length = 64 ∧ k.verify m sig p = .ok true}.ncard = l) := by
  obtain ⟨root, y, a, b, c, -, -, -, ha⟩ := C63_loaded H C ok hok d k hk p hp
  obtain ⟨R, s, hR, hs, hinj, hval, hall⟩ := ed_param H (le a) m
  have acc : ∀ R S : Bytes, R.length = 32 → S.length = 32 →
      (k.verify m (R ++ S) p = .ok true ↔ ok (le S) = true ∧ Spec.Ed25519.Valid H (le a • B) m R S) := by
    intro R S hR hS
    obtain ⟨t, e, ht⟩ := ha.accepts m (R ++ S) (by rw [List.length_append, hR, hS])
    rw [List.take_left' hR, List.drop_left' hR] at ht
    rw [e, ← ht]
    constructor
    · intro h; cases h; rfl
    · rintro rfl; rfl
  have hw : 256 ^ 32 ≤ 16 * l := by decide +kernel
  have hl : 0 < l := by decide +kernel
  have hlw : l < 256 ^ 32 := by decide +kernel
  have hlen : ∀ S : Bytes, S.length = 32 → le S < 256 ^ 32 := by
    intro S hS
    have := Real.Ed25519.le_lt S
    rwa [hS] at this
  have hle : ∀ x, x < 256 ^ 32 → le (Real.Ed25519.leBytes 32 x) = x := fun x hx => Real.Ed25519.le_leBytes hx
  generalize (256 : Nat) ^ 32 = w at hw hlw hlen hle
  have back : ∀ S : Bytes, S.length = 32 → Real.Ed25519.leBytes 32 (le S) = S := fun S hS =>
    Real.Ed25519.le_inj ((Real.Ed25519.leBytes_length _ _).trans hS.symm) (hle _ (hlen S hS))
  generalize hT : {sig : Bytes | sig.length = 64 ∧ k.verify m sig p = .ok true} = T
  have mem : ∀ sig, sig ∈ T ↔ sig.length = 64 ∧ k.verify m sig p = .ok true := fun sig => by rw [← hT]; rfl
  have parts : ∀ sig ∈ T, ∃ j S, j < l ∧ S.length = 32 ∧ sig = R j ++ S ∧ le S % l = s j ∧ ok (le S) = true := by
    intro sig h
    obtain ⟨h1, h2⟩ := (mem sig).mp h
    have l1 : (sig.take 32).length = 32 := by simp [h1]
    have l2 : (sig.drop 32).length = 32 := by simp [h1]
    rw [← List.take_append_drop 32 sig] at h2
    obtain ⟨h3, h4⟩ := (acc _ _ l1 l2).mp h2
    obtain ⟨j, hj, e⟩ := hall _ _ h4
    rw [e] at h4
    exact ⟨j, sig.drop 32, hj, l2, by rw [← e, List.take_append_drop], (hval j _).mp h4, h3⟩
  let g : Nat × Nat → Bytes := fun x => R x.1 ++ Real.Ed25519.leBytes 32 (s x.1 + l * x.2)
  have sub : T ⊆ g '' (↑(Finset.range l ×ˢ Finset.range 16) : Set (Nat × Nat)) := by
    intro sig h
    obtain ⟨j, S, hj, hS, rfl, e, -⟩ := parts sig h
    have hlt := hlen S hS
    refine ⟨(j, le S / l), ?_, ?_⟩
    · simp only [Finset.coe_product, Set.mem_prod, Finset.mem_coe, Finset.mem_range]
      exact ⟨hj, Nat.div_lt_of_lt_mul (by rw [Nat.mul_comm]; omega)⟩
    · show R j ++ Real.Ed25519.leBytes 32 (s j + l * (le S / l)) = _
      rw [← e, Nat.mod_add_div, back S hS]
  have fin : T.Finite := Set.Finite.subset (Set.Finite.image _ (Finset.finite_toSet _)) sub
  have inj : Set.InjOn (fun j => g (j, 0)) (↑(Finset.range l) : Set Nat) := by
    intro i hi j hj e
    rw [Finset.mem_coe, Finset.mem_range] at hi hj
    exact hinj i j hi hj (List.append_inj e (by rw [(hR i).2, (hR j).2])).1
  have sup : (fun j => g (j, 0)) '' (↑(Finset.range l) : Set Nat) ⊆ T := by
    rintro _ ⟨j, hj, rfl⟩
    have h1 : (Real.Ed25519.leBytes 32 (s j + l * 0)).length = 32 := Real.Ed25519.leBytes_length _ _
    have h2 : le (Real.Ed25519.leBytes 32 (s j + l * 0)) = s j := by
      rw [Nat.mul_zero, Nat.add_zero]
      exact hle _ (Nat.lt_trans (hs j) hlw)
    refine (mem _).mpr ⟨List.length_append.trans (by rw [(hR j).2, h1]), (acc _ _ (hR j).2 h1).mpr ⟨?_, (hval j _).mpr ?_⟩⟩
    · rw [h2]; exact hok _ (hs j)
    · rw [h2, Nat.mod_eq_of_lt (hs j)]
  have cnt : ((fun j => g (j, 0)) '' (↑(Finset.range l) : Set Nat)).ncard = l := by
    rw [Set.InjOn.ncard_image inj, Set.ncard_coe_finset, Finset.card_range]
  refine ⟨?_, ?_, fun hr => ?_⟩
  · have := Set.ncard_le_ncard sup fin
    rwa [cnt] at this
  · refine (Set.ncard_le_ncard sub (Set.Finite.image _ (Finset.finite_toSet _))).trans ((Set.ncard_image_le (Finset.finite_toSet _)).trans ?_)
    rw [Set.ncard_coe_finset, Finset.card_product, Finset.card_range, Finset.card_range, Nat.mul_comm]
  · refine Eq.trans (congrArg Set.ncard (Set.Subset.antisymm ?_ sup)) cnt
    intro sig h
    obtain ⟨j, S, hj, hS, rfl, e, h3⟩ := parts sig h
    refine ⟨j, Finset.mem_coe.mpr (Finset.mem_range.mpr hj), ?_⟩
    show R j ++ Real.Ed25519.leBytes 32 (s j + l * 0) = _
    rw [Nat.mul_zero, Nat.add_zero, ← e, Nat.mod_eq_of_lt (hr _ h3), back S hS]

/-! ### ECDSA -/

/-- The numbers of the signatures that a key with secret `k` accepts for the hash `z`, modulo the group order. -/
def Pairs (z k : Nat) : Set (ZMod Spec.Secp256k1.n × ZMod Spec.Secp256k1.n) :=
  {x | x.1 ≠ 0 ∧ x.2 ≠ 0 ∧ Hits x.1.val (x.2⁻¹ * (z + x.1 * k))}

theorem hits_same {r r' : ZMod Spec.Secp256k1.n} {t : ZMod Spec.Secp256k1.n} (h : Hits r.val t) (h' : Hits r'.val t) : r = r' := by
  obtain ⟨x, y, hxy, h1, h2⟩ := h
  obtain ⟨x', y', hxy', h1', h2'⟩ := h'
  obtain ⟨rfl, rfl⟩ := WeierstrassCurve.Affine.Point.some.inj (h1.symm.trans h1')
  rw [h2, Real.Secp256k1.natCast_val, Real.Secp256k1.natCast_val] at h2'
  exact h2'

theorem hits_some {t : ZMod Spec.Secp256k1.n} (ht : t ≠ 0) : ∃ r : ZMod Spec.Secp256k1.n, Hits r.val t := by
  cases e : t.val • G with
  | zero =>
    exfalso
    apply ht
    have h0 : (0 : ZMod Spec.Secp256k1.n).val • G = (0 : E.Point) := by rw [ZMod.val_zero, zero_nsmul]
    exact ZMod.val_injective _ (Real.Secp256k1.smul_inj (Real.Secp256k1.val_lt_n _) (Real.Secp256k1.val_lt_n _) (e.trans h0.symm))
  | some x y h =>
    refine ⟨(x.val : Nat), x, y, h, e, ?_⟩
    rw [Real.Secp256k1.natCast_val]

theorem room_le (r : Nat) : room r ≤ 4 := by
  unfold room
  split <;> omega

/-- The count of these pairs. -/
theorem pairs_count (z k : Nat) (hk : (k : ZMod Spec.Secp256k1.n) ≠ 0) :
    Spec.Secp256k1.n - 9 ≤ (Pairs z k).ncard ∧ (Pairs z k).ncard ≤ Spec.Secp256k1.n - 1 ∧ (Pairs z k).Finite := by
  classical
  let f : ZMod Spec.Secp256k1.n × ZMod Spec.Secp256k1.n → ZMod Spec.Secp256k1.n := fun x => x.2⁻¹ * (z + x.1 * k)
  have hcard : (Finset.univ : Finset (ZMod Spec.Secp256k1.n)).card = Spec.Secp256k1.n := by
    rw [Finset.card_univ, ZMod.card]
  have inj : Set.InjOn f (Pairs z k) := by
    rintro ⟨r, s⟩ ⟨h1, h2, h3⟩ ⟨r', s'⟩ ⟨h1', h2', h3'⟩ e
    have e : s⁻¹ * (z + r * k) = s'⁻¹ * (z + r' * k) := e
    have h3 : Hits r.val (s⁻¹ * (z + r * k)) := h3
    have h3' : Hits r'.val (s'⁻¹ * (z + r' * k)) := h3'
    rw [← e] at h3'
    obtain rfl := hits_same h3 h3'
    have hne : (z + r * k : ZMod Spec.Secp256k1.n) ≠ 0 := fun h => hits_ne h3 (by rw [h, mul_zero])
    rw [mul_right_cancel₀ hne |> fun h => inv_injective (h e)]
  have sub : f '' Pairs z k ⊆ (↑((Finset.univ : Finset (ZMod Spec.Secp256k1.n)).erase 0) : Set (ZMod Spec.Secp256k1.n)) := by
    rintro _ ⟨⟨r, s⟩, ⟨-, -, h3⟩, rfl⟩
    rw [Finset.mem_coe, Finset.mem_erase]
    exact ⟨hits_ne h3, Finset.mem_univ _⟩
  obtain ⟨S, hS, hS'⟩ := hits_few 0
  obtain ⟨T, hT, hT'⟩ := hits_few (-(z : ZMod Spec.Secp256k1.n) * (k : ZMod Spec.Secp256k1.n)⁻¹).val
  have sup : (↑(((Finset.univ : Finset (ZMod Spec.Secp256k1.n)).erase 0) \ (S ∪ T)) : Set (ZMod Spec.Secp256k1.n)) ⊆ f '' Pairs z k := by
    intro t ht
    rw [Finset.mem_coe, Finset.mem_sdiff, Finset.mem_erase, Finset.mem_union, not_or] at ht
    obtain ⟨⟨h0, -⟩, hs, ht⟩ := ht
    obtain ⟨r, hr⟩ := hits_some h0
    have h1 : r ≠ 0 := by
      rintro rfl
      rw [ZMod.val_zero] at hr
      exact hs (hS' t hr)
    have h2 : (z + r * k : ZMod Spec.Secp256k1.n) ≠ 0 := by
      intro h
      apply ht
      apply hT'
      have : r = -(z : ZMod Spec.Secp256k1.n) * (k : ZMod Spec.Secp256k1.n)⁻¹ := by
        rw [eq_mul_inv_iff_mul_eq₀ hk]
        linear_combination h
      rwa [← this]
    have e : (t⁻¹ * (z + r * k))⁻¹ * (z + r * k) = t := by
      rw [mul_inv, inv_inv, mul_assoc, inv_mul_cancel₀ h2, mul_one]
    refine ⟨(r, t⁻¹ * (z + r * k)), ⟨h1, mul_ne_zero (inv_ne_zero h0) h2, ?_⟩, e⟩
    show Hits r.val ((t⁻¹ * (z + r * k))⁻¹ * (z + r * k))
    rw [e]
    exact hr
  have fin : (f '' Pairs z k).Finite := Set.Finite.subset (Finset.finite_toSet _) sub
  have c1 := Set.ncard_le_ncard sub (Finset.finite_toSet _)
  have c2 := Set.ncard_le_ncard sup fin
  rw [Set.InjOn.ncard_image inj, Set.ncard_coe_finset, Finset.card_erase_of_mem (Finset.mem_univ _), hcard] at c1
  rw [Set.InjOn.ncard_image inj, Set.ncard_coe_finset] at c2
  refine ⟨Nat.le_trans ?_ c2, c1, Set.Finite.of_finite_image fin inj⟩
  have c3 := Finset.le_card_sdiff (S ∪ T) ((Finset.univ : Finset (ZMod Spec.Secp256k1.n)).erase 0)
  rw [Finset.card_erase_of_mem (Finset.mem_univ _), hcard] at c3
  have c4 := Finset.card_union_le S T
  have c5 := room_le 0
  have c6 := room_le (-(z : ZMod Spec.Secp256k1.n) * (k : ZMod Spec.Secp256k1.n)⁻¹).val
  omega

theorem hits_val {r : Nat} {t : ZMod Spec.Secp256k1.n} : Hits (r : ZMod Spec.Secp256k1.n).val t ↔ Hits r t := by
  unfold Hits
  rw [Real.Secp256k1.natCast_val]

/-- C108, Bitcoin and Ethereum: where a key has a public key, it accepts, of the pairs of numbers below the group order `n`, at least
n - 9 and at most n - 1 for a message, and at most 4 (n - 1) of the 2^512 signatures of 64 bytes. -/
theorem C108_ecdsa (nonce : Nonces) (tries : Nat) (Ed : Cardano.Ed) (net : Net) (d : Bytes) (k : KeyObj) (hn : net ≠ .cardano)
    (hk : (factoryOf Real.hashes (curve nonce tries) Ed net).keyFromData d = .ok k) (p : Path) (out : Bytes) (ho : k.pubKey p = .ok out)
    (m : Bytes) :
    n - 9 ≤ {sig : Bytes | sig.length = 64 ∧ be (sig.take 32) < n ∧ be (sig.drop 32) < n ∧ k.verify m sig p = .ok true}.ncard ∧
    {sig : Bytes | sig.length = 64 ∧ be (sig.take 32) < n ∧ be (sig.drop 32) < n ∧ k.verify m sig p = .ok true}.ncard ≤ n - 1 ∧
    {sig : Bytes | sig.length = 64 ∧ k.verify m sig p = .ok true}.ncard ≤ 4 * (n - 1) := by
  obtain ⟨x, h0, hx, -, hv⟩ := verify_pub hn hk ho
  have en : Spec.Secp256k1.n = n := order_eq
  have hxc : (x : ZMod Spec.Secp256k1.n) ≠ 0 := by
    rw [Ne, ← Real.Secp256k1.mod_n_zero, en, Nat.mod_eq_of_lt hx]
    omega
  obtain ⟨c1, c2, fin⟩ := pairs_count (be (Real.hashes.keccak256 m)) x hxc
  replace c1 := Nat.le_trans (Nat.sub_le_sub_right (Nat.le_of_eq en.symm) 9) c1
  replace c2 := Nat.le_trans c2 (Nat.sub_le_sub_right (Nat.le_of_eq en) 1)
  generalize hz : be (Real.hashes.keccak256 m) = z at *
  have acc : ∀ a b : Bytes, a.length = 32 → b.length = 32 →
      (k.verify m (a ++ b) p = .ok true ↔ ((be a : ZMod Spec.Secp256k1.n), (be b : ZMod Spec.Secp256k1.n)) ∈ Pairs z x) := by
    intro a b l1 l2
    rw [hv m a b l1 l2, hz, valid_hits, ← hits_val (r := be a)]
    rfl
  have hlt : ∀ q : ZMod Spec.Secp256k1.n, q.val < n := fun q => en ▸ Real.Secp256k1.val_lt_n q
  have hnw : n < 256 ^ 32 := by decide +kernel
  have hwn : 256 ^ 32 ≤ 2 * n := by decide +kernel
  have hbe : ∀ q, q < 256 ^ 32 → be (Bytes.beBytes 32 q) = q := fun q hq => by rw [Bytes.be_beBytes, Nat.mod_eq_of_lt hq]
  have hlen : ∀ a : Bytes, a.length = 32 → be a < 256 ^ 32 := by
    intro a ha
    have := Bytes.be_lt a
    rwa [ha] at this
  have cast : ∀ q : Nat, (q : ZMod Spec.Secp256k1.n).val = q % n := by
    intro q
    rw [ZMod.val_natCast, en]
  generalize (256 : Nat) ^ 32 = w at hnw hwn hbe hlen
  have back : ∀ a : Bytes, a.length = 32 → Bytes.beBytes 32 (be a) = a := fun a ha =>
    Bytes.be_inj ((Bytes.beBytes_length _ _).trans ha.symm) (hbe _ (hlen a ha))
  have split : ∀ sig : Bytes, sig.length = 64 → (sig.take 32).length = 32 ∧ (sig.drop 32).length = 32 := by
    intro sig h
    simp [h]
  have e1 : {sig : Bytes | sig.length = 64 ∧ be (sig.take 32) < n ∧ be (sig.drop 32) < n ∧ k.verify m sig p = .ok true} =
      (fun y : ZMod Spec.Secp256k1.n × ZMod Spec.Secp256k1.n => Bytes.beBytes 32 y.1.val ++ Bytes.beBytes 32 y.2.val) '' Pairs z x := by
    ext sig
    constructor
    · rintro ⟨h1, h2, h3, h4⟩
      obtain ⟨l1, l2⟩ := split sig h1
      rw [← List.take_append_drop 32 sig, acc _ _ l1 l2] at h4
      refine ⟨_, h4, ?_⟩
      show Bytes.beBytes 32 _ ++ Bytes.beBytes 32 _ = _
      rw [cast, cast, Nat.mod_eq_of_lt h2, Nat.mod_eq_of_lt h3, back _ l1, back _ l2, List.take_append_drop]
    · rintro ⟨⟨r, s⟩, h, rfl⟩
      have l1 := Bytes.beBytes_length 32 r.val
      have l2 := Bytes.beBytes_length 32 s.val
      have b1 := hbe _ (Nat.lt_trans (hlt r) hnw)
      have b2 := hbe _ (Nat.lt_trans (hlt s) hnw)
      refine ⟨List.length_append.trans (by rw [l1, l2]), ?_, ?_, ?_⟩
      · show be (List.take 32 (Bytes.beBytes 32 r.val ++ Bytes.beBytes 32 s.val)) < n
        rw [List.take_left' l1, b1]; exact hlt r
      · show be (List.drop 32 (Bytes.beBytes 32 r.val ++ Bytes.beBytes 32 s.val)) < n
        rw [List.drop_left' l1, b2]; exact hlt s
      · show k.verify m (Bytes.beBytes 32 r.val ++ Bytes.beBytes 32 s.val) p = .ok true
        rw [acc _ _ l1 l2, b1, b2, Real.Secp256k1.natCast_val, Real.Secp256k1.natCast_val]
        exact h
  have inj : Set.InjOn (fun y : ZMod Spec.Secp256k1.n × ZMod Spec.Secp256k1.n => Bytes.beBytes 32 y.1.val ++ Bytes.beBytes 32 y.2.val)
      (Pairs z x) := by
    rintro ⟨r, s⟩ - ⟨r', s'⟩ - h
    obtain ⟨g1, g2⟩ := List.append_inj h ((Bytes.beBytes_length _ _).trans (Bytes.beBytes_length _ _).symm)
    have g1 := congrArg be g1
    have g2 := congrArg be g2
    simp only at g1 g2
    rw [hbe _ (Nat.lt_trans (hlt _) hnw), hbe _ (Nat.lt_trans (hlt _) hnw)] at g1 g2
    rw [ZMod.val_injective _ g1, ZMod.val_injective _ g2]
  rw [e1, Set.InjOn.ncard_image inj]
  refine ⟨c1, c2, ?_⟩
  let g : (ZMod Spec.Secp256k1.n × ZMod Spec.Secp256k1.n) × (Nat × Nat) → Bytes := fun y =>
    Bytes.beBytes 32 (y.1.1.val + n * y.2.1) ++ Bytes.beBytes 32 (y.1.2.val + n * y.2.2)
  have sub : {sig : Bytes | sig.length = 64 ∧ k.verify m sig p = .ok true} ⊆
      g '' (Pairs z x ×ˢ (↑(Finset.range 2 ×ˢ Finset.range 2) : Set (Nat × Nat))) := by
    rintro sig ⟨h1, h4⟩
    obtain ⟨l1, l2⟩ := split sig h1
    rw [← List.take_append_drop 32 sig, acc _ _ l1 l2] at h4
    refine ⟨(_, (be (sig.take 32) / n, be (sig.drop 32) / n)), ⟨h4, ?_⟩, ?_⟩
    · simp only [Finset.coe_product, Set.mem_prod, Finset.mem_coe, Finset.mem_range]
      have a1 := hlen _ l1
      have a2 := hlen _ l2
      exact ⟨Nat.div_lt_of_lt_mul (by rw [Nat.mul_comm]; omega), Nat.div_lt_of_lt_mul (by rw [Nat.mul_comm]; omega)⟩
    · show Bytes.beBytes 32 (_ + n * (be (sig.take 32) / n)) ++ Bytes.beBytes 32 (_ + n * (be (sig.drop 32) / n)) = _
      rw [cast, cast, Nat.mod_add_div, Nat.mod_add_div, back _ l1, back _ l2, List.take_append_drop]
  have fin' : (Pairs z x ×ˢ (↑(Finset.range 2 ×ˢ Finset.range 2) : Set (Nat × Nat))).Finite := fin.prod (Finset.finite_toSet _)
  refine (Set.ncard_le_ncard sub (fin'.image _)).trans ((Set.ncard_image_le fin').trans ?_)
  rw [Set.ncard_prod, Set.ncard_coe_finset, Finset.card_product, Finset.card_range, Nat.mul_comm]
  exact Nat.mul_le_mul_left 4 c2

/-- C108: less than one in 2^254 of the signatures of 64 bytes is accepted, for Cardano one in 2^255. -/
theorem C108_share : 4 * (n - 1) * 2 ^ 254 < 256 ^ 64 ∧ 16 * l * 2 ^ 255 < 256 ^ 64 := by decide +kernel

/-! ### Cases -/

open KC.Real.Known

/-- The Ethereum key of the known seed at m/44'/60'/0'/0/0 accepts at least n - 9 signatures of each message. -/
example (Ed : Cardano.Ed) (m : Bytes) : ∃ d k, (factoryOf Real.hashes (curve (fun _ _ _ => 7) 1) Ed .ethereum).keyFromData d = .ok k ∧
    n - 9 ≤ {sig : Bytes | sig.length = 64 ∧ be (sig.take 32) < n ∧ be (sig.drop 32) < n ∧
      k.verify m sig ⟨0x8000002c, 0x8000003c, 0x80000000, 0, 0⟩ = .ok true}.ncard := by
  obtain ⟨d, hd⟩ := data_exists Real.hashes (curve (fun _ _ _ => 7) 1) Ed abSeed ab0 abSeed_len ab0_root .ethereum nofun
  obtain ⟨k, hk⟩ := ((C31_load _ _ Ed abSeed d).2 hd _ ab0_root).mpr ⟨_, eth_coin_walk _ _⟩
  obtain ⟨root, hr, -, h⟩ := C31_secp _ _ Ed .ethereum abSeed d k nofun hd hk
  obtain rfl := root_unique hr ab0_root
  obtain ⟨r, s, v, hs, hv⟩ := eth_signs
  have hsig := ((h ⟨0x8000002c, 0x8000003c, 0x80000000, 0, 0⟩).2.1 [1, 2, 3] _).mpr
    ⟨⟨.inr rfl, rfl, show _ ≤ _ by decide, .inl rfl, show _ < _ by decide⟩, _, eth_walk _ _, r, s, v, hs, hv, rfl⟩
  obtain ⟨r', s', v', t, e, -, -, -, -, hne, -, hver, -⟩ := C80_twin _ _ Ed .ethereum d k nofun hk _ _ _ hsig
  obtain ⟨out, ho⟩ := pub_of_verify (net := .ethereum) nofun hk hver
  exact ⟨d, k, hk, (C108_ecdsa _ _ Ed .ethereum d k nofun hk _ out ho m).1⟩

/-- The Cardano key of the tests, with the range check of RFC 8032, accepts exactly `l` signatures of each message. -/
example (C : Secp.Curve) (m : Bytes) : ∃ (d : Bytes) (k : KeyObj),
    (factoryOf Real.hashes C (ed Real.hashes inRange) .cardano).keyFromData d = .ok k ∧
    {sig : Bytes | sig.length = 64 ∧ k.verify m sig path0 = .ok true}.ncard = l := by
  obtain ⟨k, hk⟩ := d1_loads C
  exact ⟨_, k, hk, (C108_cardano Real.hashes C inRange inRange_ok _ k hk path0 path0_ok m).2.2 fun s hs => by simpa [inRange] using hs⟩

end KC.Props
