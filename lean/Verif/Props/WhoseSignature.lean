import Verif.Props.Malleable
import Verif.Props.Secp
/-
C99: for which keys and which messages one signature is good.
-/
namespace KC.Props
open KC.Manager KC.Spec KC.Spec.Bip32 KC.Secp
open KC.KeyPath (Path)
open KC.Spec.Secp256k1 (G E Valid Uncompressed)
open KC.Real.Secp256k1 (curve)

/-- The multiple of the base point by `t` has a first coordinate that is `r` modulo the group order. -/
def Hits (r : Nat) (t : ZMod Spec.Secp256k1.n) : Prop :=
  ∃ x y h, t.val • G = (.some x y h : E.Point) ∧ ((x.val : Nat) : ZMod Spec.Secp256k1.n) = r

theorem valid_hits (z r s k : Nat) : Valid z r s (k • G) ↔
    (r : ZMod Spec.Secp256k1.n) ≠ 0 ∧ (s : ZMod Spec.Secp256k1.n) ≠ 0 ∧ Hits r ((s : ZMod Spec.Secp256k1.n)⁻¹ * (z + r * k)) :=
  valid_iff z r s k

theorem hits_ne {r : Nat} {t : ZMod Spec.Secp256k1.n} (h : Hits r t) : t ≠ 0 := by
  rintro rfl
  obtain ⟨x, y, hxy, h, -⟩ := h
  rw [ZMod.val_zero, zero_nsmul] at h
  cases h

theorem hits_neg {r : Nat} {t : ZMod Spec.Secp256k1.n} (h : Hits r t) : Hits r (-t) := by
  obtain ⟨x, y, hxy, h, h4⟩ := h
  refine ⟨x, _, (WeierstrassCurve.Affine.nonsingular_neg x y).mpr hxy, ?_, h4⟩
  rw [Real.Secp256k1.smul_neg _ t.val, h]
  · rfl
  · rw [Real.Secp256k1.natCast_val, Real.Secp256k1.natCast_val]

theorem smul_val_eq {t u : ZMod Spec.Secp256k1.n} {x y y' h h'} (e : t.val • G = (.some x y h : E.Point))
    (e' : u.val • G = (.some x y' h' : E.Point)) : u = t ∨ u = -t := by
  rcases same_x (h := h) (h' := h') with g | g
  · left
    rw [← e, ← e'] at g
    exact ZMod.val_injective _ (Real.Secp256k1.smul_inj (Real.Secp256k1.val_lt_n _) (Real.Secp256k1.val_lt_n _) g)
  · right
    rw [← e, ← e', ← Real.Secp256k1.smul_neg (-t).val] at g
    · exact ZMod.val_injective _ (Real.Secp256k1.smul_inj (Real.Secp256k1.val_lt_n _) (Real.Secp256k1.val_lt_n _) g)
    · rw [Real.Secp256k1.natCast_val, Real.Secp256k1.natCast_val]

/-- The first coordinate is one of two numbers, and only one of them is below `p` if `r` is not very small. -/
theorem x_cases {r : Nat} {x : ZMod Spec.Secp256k1.p} (h : ((x.val : Nat) : ZMod Spec.Secp256k1.n) = r) :
    x.val = r % Spec.Secp256k1.n ∨ (x.val = r % Spec.Secp256k1.n + Spec.Secp256k1.n ∧ r % Spec.Secp256k1.n + Spec.Secp256k1.n < Spec.Secp256k1.p) := by
  have e1 : x.val % Spec.Secp256k1.n = r % Spec.Secp256k1.n := (ZMod.natCast_eq_natCast_iff _ _ _).mp h
  have b1 := ZMod.val_lt x
  generalize x.val = a at *
  generalize hr : r % Spec.Secp256k1.n = q at *
  rw [Spec.Secp256k1.n_eq] at *
  unfold Spec.Secp256k1.p at *
  omega

theorem hits_two {r : Nat} (hr : Spec.Secp256k1.p ≤ r % Spec.Secp256k1.n + Spec.Secp256k1.n) {t u : ZMod Spec.Secp256k1.n} (h : Hits r t)
    (h' : Hits r u) : u = t ∨ u = -t := by
  obtain ⟨x, y, hxy, h1, h2⟩ := h
  obtain ⟨x', y', hxy', h1', h2'⟩ := h'
  obtain rfl : x = x' := by
    apply ZMod.val_injective
    rcases x_cases h2 with e | e <;> rcases x_cases h2' with e' | e' <;> omega
  exact smul_val_eq h1 h1'

theorem at_x (v : Nat) : ∃ S : Finset (ZMod Spec.Secp256k1.n), S.card ≤ 2 ∧
    ∀ t x y h, t.val • G = (.some x y h : E.Point) → x.val = v → t ∈ S := by
  by_cases hex : ∃ t : ZMod Spec.Secp256k1.n, ∃ x y h, t.val • G = (.some x y h : E.Point) ∧ x.val = v
  · obtain ⟨t, x, y, h, e, hx⟩ := hex
    refine ⟨{t, -t}, Finset.card_le_two, fun u x' y' h' e' hx' => ?_⟩
    obtain rfl : x = x' := ZMod.val_injective _ (hx.trans hx'.symm)
    rw [Finset.mem_insert, Finset.mem_singleton]
    exact smul_val_eq e e'
  · refine ⟨∅, by simp, fun u x' y' h' e' hx' => (hex ⟨u, x', y', h', e', hx'⟩).elim⟩

/-- How many keys, or hashes, a signature with this first number can be good for. -/
def room (r : Nat) : Nat := if r % Spec.Secp256k1.n + Spec.Secp256k1.n < Spec.Secp256k1.p then 4 else 2

theorem hits_few (r : Nat) : ∃ S : Finset (ZMod Spec.Secp256k1.n), S.card ≤ room r ∧ ∀ t, Hits r t → t ∈ S := by
  obtain ⟨S, hS, h⟩ := at_x (r % Spec.Secp256k1.n)
  obtain ⟨T, hT, h'⟩ := at_x (r % Spec.Secp256k1.n + Spec.Secp256k1.n)
  unfold room
  split
  · refine ⟨S ∪ T, (Finset.card_union_le _ _).trans (by omega), ?_⟩
    rintro t ⟨x, y, hxy, h1, h2⟩
    rcases x_cases h2 with e | e
    · exact Finset.mem_union_left _ (h t x y hxy h1 e)
    · exact Finset.mem_union_right _ (h' t x y hxy h1 e.1)
  · refine ⟨S, hS, ?_⟩
    rintro t ⟨x, y, hxy, h1, h2⟩
    rcases x_cases h2 with e | e
    · exact h t x y hxy h1 e
    · omega

/-- Given that a signature is valid for one hash and key, for which others it is. -/
theorem valid_other {z r s k z' k' : Nat} (hr : Spec.Secp256k1.p ≤ r % Spec.Secp256k1.n + Spec.Secp256k1.n) (h : Valid z r s (k • G)) :
    Valid z' r s (k' • G) ↔ ((z' + r * k' : Nat) : ZMod Spec.Secp256k1.n) = (z + r * k : Nat) ∨
      ((z' + r * k' : Nat) : ZMod Spec.Secp256k1.n) = -(z + r * k : Nat) := by
  rw [valid_hits] at h ⊢
  obtain ⟨h1, h2, h3⟩ := h
  push_cast
  constructor
  · rintro ⟨-, -, h'⟩
    rcases hits_two hr h3 h' with e | e
    · exact .inl (mul_left_cancel₀ (inv_ne_zero h2) e)
    · rw [← mul_neg] at e
      exact .inr (mul_left_cancel₀ (inv_ne_zero h2) e)
  · rintro (e | e)
    · exact ⟨h1, h2, by rwa [e]⟩
    · refine ⟨h1, h2, ?_⟩
      rw [e, mul_neg]
      exact hits_neg h3

/-- What a loaded key accepts at a path at which it has a public key. -/
theorem verify_pub {nonce : Nonces} {tries : Nat} {Ed : Cardano.Ed} {net : Net} {d : Bytes} {k : KeyObj} (hn : net ≠ .cardano)
    (hk : (factoryOf Real.hashes (curve nonce tries) Ed net).keyFromData d = .ok k) {p : Path} {out : Bytes} (ho : k.pubKey p = .ok out) :
    ∃ x, 0 < x ∧ x < n ∧ Uncompressed (x • G) out ∧ ∀ m a b : Bytes, a.length = 32 → b.length = 32 → (k.verify m (a ++ b) p = .ok true ↔
      Valid (be (Real.hashes.keccak256 m)) (be a) (be b) (x • G)) := by
  rcases C58_loaded nonce tries Ed net d k hn hk p with ⟨x, h0, hx, h⟩ | ⟨e, h, -⟩
  · obtain ⟨out', e, hu⟩ := h.pub
    rw [ho] at e; cases e
    refine ⟨x, h0, hx, hu, fun m a b l1 l2 => ?_⟩
    obtain ⟨t, h1, h2⟩ := h.accepts m (a ++ b) (by rw [List.length_append, l1, l2])
    rw [List.take_left' l1, List.drop_left' l1] at h2
    rw [h1, ← h2]
    constructor
    · intro h; cases h; rfl
    · rintro rfl; rfl
  · rw [ho] at h; cases h

theorem pub_of_verify {nonce : Nonces} {tries : Nat} {Ed : Cardano.Ed} {net : Net} {d : Bytes} {k : KeyObj} (hn : net ≠ .cardano)
    (hk : (factoryOf Real.hashes (curve nonce tries) Ed net).keyFromData d = .ok k) {p : Path} {m s : Bytes} (h : k.verify m s p = .ok true) :
    ∃ out, k.pubKey p = .ok out := by
  rcases C58_loaded nonce tries Ed net d k hn hk p with ⟨x, -, -, a⟩ | ⟨e, -, -, h'⟩
  · obtain ⟨out, e, -⟩ := a.pub
    exact ⟨out, e⟩
  · rw [h'] at h; cases h

/-- C99: given that a key accepts a signature of a message, which other keys accept it of which messages. -/
theorem C99_exact (nonce nonce' : Nonces) (tries tries' : Nat) (Ed Ed' : Cardano.Ed) (net net' : Net) (d d' : Bytes) (k k' : KeyObj)
    (hn : net ≠ .cardano) (hn' : net' ≠ .cardano)
    (hk : (factoryOf Real.hashes (curve nonce tries) Ed net).keyFromData d = .ok k)
    (hk' : (factoryOf Real.hashes (curve nonce' tries') Ed' net').keyFromData d' = .ok k')
    (p p' : Path) (out out' : Bytes) (ho : k.pubKey p = .ok out) (ho' : k'.pubKey p' = .ok out') :
    ∃ x x', 0 < x ∧ x < n ∧ 0 < x' ∧ x' < n ∧ Uncompressed (x • G) out ∧ Uncompressed (x' • G) out' ∧
      ∀ m m' a b : Bytes, a.length = 32 → b.length = 32 → Spec.Secp256k1.p ≤ be a % n + n → k.verify m (a ++ b) p = .ok true →
        (k'.verify m' (a ++ b) p' = .ok true ↔
          (be (Real.hashes.keccak256 m') + be a * x') % n = (be (Real.hashes.keccak256 m) + be a * x) % n ∨
          (be (Real.hashes.keccak256 m') + be a * x' + (be (Real.hashes.keccak256 m) + be a * x)) % n = 0) := by
  obtain ⟨x, h0, hx, hu, hv⟩ := verify_pub hn hk ho
  obtain ⟨x', h0', hx', hu', hv'⟩ := verify_pub hn' hk' ho'
  refine ⟨x, x', h0, hx, h0', hx', hu, hu', fun m m' a b l1 l2 hr h => ?_⟩
  rw [hv m a b l1 l2] at h
  rw [hv' m' a b l1 l2, valid_other (by rwa [show Spec.Secp256k1.n = n from order_eq]) h]
  exact or_congr ⟨mod_of_cast, cast_of_mod⟩ ⟨sum_of_cast, cast_of_sum⟩

theorem uncompressed_unique {P : E.Point} {b b' : Bytes} (h : Uncompressed P b) (h' : Uncompressed P b') : b = b' := by
  obtain ⟨x, y, hxy, rfl, bx, by1, hx, hy, rfl⟩ := h
  obtain ⟨x', y', hxy', e, bx', by2, hx', hy', rfl⟩ := h'
  obtain ⟨rfl, rfl⟩ := WeierstrassCurve.Affine.Point.some.inj e
  rw [Bytes.isBe_unique hx hx', Bytes.isBe_unique hy hy']

theorem two_ne_n : (2 : ZMod Spec.Secp256k1.n) ≠ 0 := by
  have : ((2 : Nat) : ZMod Spec.Secp256k1.n) ≠ 0 := by
    rw [Ne, ← Real.Secp256k1.mod_n_zero]
    decide +kernel
  exact_mod_cast this

/-- C99: a signature of a message is good for at most two public keys, or four if its first number is very small. -/
theorem C99_publics (m a b : Bytes) (h1 : a.length = 32) (h2 : b.length = 32) :
    ∃ keys : Finset Bytes, keys.card ≤ (if be a % n + n < Spec.Secp256k1.p then 4 else 2) ∧
      ∀ nonce tries Ed net d k p, net ≠ .cardano → (factoryOf Real.hashes (curve nonce tries) Ed net).keyFromData d = .ok k →
        k.verify m (a ++ b) p = .ok true → ∃ out ∈ keys, k.pubKey p = .ok out := by
  obtain ⟨S, hS, h⟩ := hits_few (be a)
  classical
  let f : ZMod Spec.Secp256k1.n → Bytes := fun t =>
    if g : ∃ out, Uncompressed (((be a : ZMod Spec.Secp256k1.n)⁻¹ * ((be b : ZMod Spec.Secp256k1.n) * t - be (Real.hashes.keccak256 m))).val • G) out
    then g.choose else []
  refine ⟨S.image f, (Finset.card_image_le.trans hS).trans ?_, fun nonce tries Ed net d k p hn hk hv => ?_⟩
  · rw [room, show Spec.Secp256k1.n = n from order_eq]
  obtain ⟨out, ho⟩ := pub_of_verify hn hk hv
  obtain ⟨x, -, hx, hu, hval⟩ := verify_pub hn hk ho
  rw [hval m a b h1 h2, valid_hits] at hv
  obtain ⟨g1, g2, g3⟩ := hv
  refine ⟨out, Finset.mem_image.mpr ⟨_, h _ g3, ?_⟩, ho⟩
  have e : (be a : ZMod Spec.Secp256k1.n)⁻¹ * ((be b : ZMod Spec.Secp256k1.n) *
      ((be b : ZMod Spec.Secp256k1.n)⁻¹ * (be (Real.hashes.keccak256 m) + be a * x)) - be (Real.hashes.keccak256 m)) = x := by
    rw [mul_inv_cancel_left₀ g2, add_sub_cancel_left, inv_mul_cancel_left₀ g1]
  have e' : (x : ZMod Spec.Secp256k1.n).val = x := ZMod.val_cast_of_lt (by rwa [show Spec.Secp256k1.n = n from order_eq])
  have hex : ∃ out, Uncompressed (((be a : ZMod Spec.Secp256k1.n)⁻¹ * ((be b : ZMod Spec.Secp256k1.n) *
      ((be b : ZMod Spec.Secp256k1.n)⁻¹ * (be (Real.hashes.keccak256 m) + be a * x)) - be (Real.hashes.keccak256 m))).val • G) out := by
    rw [e, e']
    exact ⟨out, hu⟩
  simp only [f]
  rw [dif_pos hex]
  have := hex.choose_spec
  generalize hex.choose = o at this
  rw [e, e'] at this
  exact uncompressed_unique this hu

/-- C99: for one key a signature is good for at most two hashes modulo the group order, or four if its first number is very small. -/
theorem C99_hashes (nonce : Nonces) (tries : Nat) (Ed : Cardano.Ed) (net : Net) (d : Bytes) (k : KeyObj) (hn : net ≠ .cardano)
    (hk : (factoryOf Real.hashes (curve nonce tries) Ed net).keyFromData d = .ok k) (p : Path) (a b : Bytes) (h1 : a.length = 32)
    (h2 : b.length = 32) :
    ∃ hs : Finset Nat, hs.card ≤ (if be a % n + n < Spec.Secp256k1.p then 4 else 2) ∧
      ∀ m, k.verify m (a ++ b) p = .ok true → be (Real.hashes.keccak256 m) % n ∈ hs := by
  by_cases hex : ∃ m, k.verify m (a ++ b) p = .ok true
  · obtain ⟨m0, h0⟩ := hex
    obtain ⟨out, ho⟩ := pub_of_verify hn hk h0
    obtain ⟨x, -, -, -, hval⟩ := verify_pub hn hk ho
    obtain ⟨S, hS, h⟩ := hits_few (be a)
    refine ⟨S.image fun t => ((be b : ZMod Spec.Secp256k1.n) * t - be a * x).val, (Finset.card_image_le.trans hS).trans ?_, fun m hm => ?_⟩
    · rw [room, show Spec.Secp256k1.n = n from order_eq]
    rw [hval m a b h1 h2, valid_hits] at hm
    obtain ⟨g1, g2, g3⟩ := hm
    refine Finset.mem_image.mpr ⟨_, h _ g3, ?_⟩
    rw [mul_inv_cancel_left₀ g2, add_sub_cancel_right, ZMod.val_natCast, show Spec.Secp256k1.n = n from order_eq]
  · exact ⟨∅, by simp, fun m hm => (hex ⟨m, hm⟩).elim⟩

/-- The public key of an extended key accepts a signature. -/
def Accepted (nonce : Nonces) (tries : Nat) (y : XPrv) (m sig : Bytes) : Prop :=
  pubVerify Real.hashes (curve nonce tries) (y.public (curve nonce tries)) m sig = .ok true

theorem accepted_iff (nonce : Nonces) (tries : Nat) (y : XPrv) (m a b : Bytes) (h1 : a.length = 32) (h2 : b.length = 32) :
    Accepted nonce tries y m (a ++ b) ↔ Valid (be (Real.hashes.keccak256 m)) (be a) (be b) (y.key.val • G) := by
  have hl : (a ++ b).length = 64 := by rw [List.length_append, h1, h2]
  rw [Accepted, pubVerify, if_neg (not_not.mpr hl), Res.ok.injEq, XPrv.public, Real.Secp256k1.verify_iff, List.take_left' h1,
    List.drop_left' h1, List.take_of_length_le h2.le]

/-- C99: whoever has a signature that an extended key accepts finds another key that accepts it too, with the same chain code and place,
unless the secret of that key would be zero. -/
theorem C99_twin (nonce : Nonces) (tries : Nat) (y : XPrv) (m a b : Bytes) (h1 : a.length = 32) (h2 : b.length = 32)
    (h : Accepted nonce tries y m (a ++ b)) (h0 : (be a * y.key.val + 2 * be (Real.hashes.keccak256 m)) % n ≠ 0) :
    ∃ key, key ≠ y.key ∧ (be a * (key.val + y.key.val) + 2 * be (Real.hashes.keccak256 m)) % n = 0 ∧
      Accepted nonce tries { y with key := key } m (a ++ b) := by
  rw [accepted_iff _ _ _ _ _ _ h1 h2, valid_hits] at h
  obtain ⟨g1, g2, g3⟩ := h
  generalize hz : be (Real.hashes.keccak256 m) = z at *
  generalize hr : be a = r at *
  generalize hs : be b = s at *
  obtain ⟨x, hx⟩ : ∃ x, x = y.key.val := ⟨_, rfl⟩
  rw [← hx] at g3 h0
  have hq : (-(x : ZMod Spec.Secp256k1.n) - 2 * z * (r : ZMod Spec.Secp256k1.n)⁻¹) ≠ 0 := by
    intro e
    apply h0
    rw [← order_eq]
    refine (Real.Secp256k1.mod_n_zero _).mpr ?_
    push_cast
    have : (r : ZMod Spec.Secp256k1.n) * (-(x : ZMod Spec.Secp256k1.n) - 2 * z * (r : ZMod Spec.Secp256k1.n)⁻¹) = 0 := by rw [e, mul_zero]
    rw [mul_sub, mul_left_comm, mul_inv_cancel₀ g1] at this
    linear_combination -this
  obtain ⟨q, hqe⟩ : ∃ q, q = (-(x : ZMod Spec.Secp256k1.n) - 2 * z * (r : ZMod Spec.Secp256k1.n)⁻¹) := ⟨_, rfl⟩
  rw [← hqe] at hq
  have hqr : (r : ZMod Spec.Secp256k1.n) * q = -(r * x) - 2 * z := by
    rw [hqe, mul_sub, mul_left_comm, mul_inv_cancel₀ g1]
    ring
  have hcast : ((q.val : Nat) : ZMod Spec.Secp256k1.n) = q := Real.Secp256k1.natCast_val q
  refine ⟨⟨q.val, Nat.pos_of_ne_zero fun e => hq ((ZMod.val_eq_zero q).mp e), Real.Secp256k1.val_lt_n q⟩, fun e => ?_, ?_, ?_⟩
  · have e : q.val = x := by rw [hx, ← e]
    rw [← e, hcast] at g3 hqr
    refine hits_ne g3 ?_
    have h2 : (2 : ZMod Spec.Secp256k1.n) ≠ 0 := two_ne_n
    have : (2 : ZMod Spec.Secp256k1.n) * (z + r * q) = 0 := by linear_combination hqr
    rw [(mul_eq_zero.mp this).resolve_left h2, mul_zero]
  · show (r * (q.val + y.key.val) + 2 * z) % n = 0
    rw [← hx, ← order_eq]
    refine (Real.Secp256k1.mod_n_zero _).mpr ?_
    push_cast
    rw [hcast]
    linear_combination hqr
  · rw [accepted_iff _ _ _ _ _ _ h1 h2, hr, hs, hz, valid_hits]
    refine ⟨g1, g2, ?_⟩
    show Hits r ((s : ZMod Spec.Secp256k1.n)⁻¹ * (z + r * ((q.val : Nat) : ZMod Spec.Secp256k1.n)))
    rw [hcast, hqr, show (z : ZMod Spec.Secp256k1.n) + (-(r * x) - 2 * z) = -(z + r * x) by ring, mul_neg]
    exact hits_neg g3

theorem hits_G : Hits (Spec.Secp256k1.gx) 1 := by
  have : (1 : ZMod Spec.Secp256k1.n).val = 1 := by decide +kernel
  rw [Hits, this, one_nsmul]
  refine ⟨_, _, _, rfl, ?_⟩
  congr 1

/-- C99: for any two messages whose hashes are neither the same nor opposite modulo the group order, somebody can have made a key, and
one signature, so that the key accepts it for both. -/
theorem C99_shared (nonce : Nonces) (tries : Nat) (y : XPrv) (m m' : Bytes)
    (hne : be (Real.hashes.keccak256 m) % n ≠ be (Real.hashes.keccak256 m') % n)
    (hop : (be (Real.hashes.keccak256 m) + be (Real.hashes.keccak256 m')) % n ≠ 0) :
    ∃ key sig, sig.length = 64 ∧ Accepted nonce tries { y with key := key } m sig ∧ Accepted nonce tries { y with key := key } m' sig := by
  generalize hz : be (Real.hashes.keccak256 m) = z at *
  generalize hz' : be (Real.hashes.keccak256 m') = z' at *
  have h2 : (2 : ZMod Spec.Secp256k1.n) ≠ 0 := two_ne_n
  have hr : ((Spec.Secp256k1.gx : Nat) : ZMod Spec.Secp256k1.n) ≠ 0 := by
    rw [Ne, ← Real.Secp256k1.mod_n_zero]
    decide +kernel
  have hd : (z : ZMod Spec.Secp256k1.n) - z' ≠ 0 := fun e => hne (mod_of_cast (sub_eq_zero.mp e))
  have hs : (z : ZMod Spec.Secp256k1.n) + z' ≠ 0 := fun e => hop (by
    rw [← order_eq]
    exact (Real.Secp256k1.mod_n_zero _).mpr (by push_cast; exact e))
  obtain ⟨q, hq⟩ : ∃ q : ZMod Spec.Secp256k1.n, q = -(z + z') * (2 * (Spec.Secp256k1.gx : ZMod Spec.Secp256k1.n))⁻¹ := ⟨_, rfl⟩
  obtain ⟨s, hse⟩ : ∃ s : ZMod Spec.Secp256k1.n, s = (z - z') * 2⁻¹ := ⟨_, rfl⟩
  have hq0 : q ≠ 0 := by
    rw [hq]
    exact mul_ne_zero (neg_ne_zero.mpr hs) (inv_ne_zero (mul_ne_zero h2 hr))
  have hs0 : s ≠ 0 := by
    rw [hse]
    exact mul_ne_zero hd (inv_ne_zero h2)
  have e1 : (z : ZMod Spec.Secp256k1.n) + (Spec.Secp256k1.gx : Nat) * q = s := by
    rw [hq, hse]
    field_simp
    ring
  have e2 : (z' : ZMod Spec.Secp256k1.n) + (Spec.Secp256k1.gx : Nat) * q = -s := by
    rw [hq, hse]
    field_simp
    ring
  have hcast : ((q.val : Nat) : ZMod Spec.Secp256k1.n) = q := Real.Secp256k1.natCast_val q
  have hscast : ((s.val : Nat) : ZMod Spec.Secp256k1.n) = s := Real.Secp256k1.natCast_val s
  have l1 := Bytes.beBytes_length 32 (Spec.Secp256k1.gx)
  have l2 := Bytes.beBytes_length 32 s.val
  have b1 : be (Bytes.beBytes 32 (Spec.Secp256k1.gx)) = Spec.Secp256k1.gx :=
    (Bytes.be_beBytes 32 _).trans (Nat.mod_eq_of_lt (by decide +kernel))
  have b2 : be (Bytes.beBytes 32 s.val) = s.val := (Real.Secp256k1.isBe_lt (Real.Secp256k1.val_lt_n s)).2
  refine ⟨⟨q.val, Nat.pos_of_ne_zero fun e => hq0 ((ZMod.val_eq_zero q).mp e), Real.Secp256k1.val_lt_n q⟩,
    Bytes.beBytes 32 (Spec.Secp256k1.gx) ++ Bytes.beBytes 32 s.val, by rw [List.length_append, l1, l2], ?_, ?_⟩
  · rw [accepted_iff _ _ _ _ _ _ l1 l2, b1, b2, hz, valid_hits, hscast]
    refine ⟨hr, hs0, ?_⟩
    show Hits _ (s⁻¹ * (z + ((Spec.Secp256k1.gx : Nat) : ZMod Spec.Secp256k1.n) * ((q.val : Nat) : ZMod Spec.Secp256k1.n)))
    rw [hcast, e1, inv_mul_cancel₀ hs0]
    exact hits_G
  · rw [accepted_iff _ _ _ _ _ _ l1 l2, b1, b2, hz', valid_hits, hscast]
    refine ⟨hr, hs0, ?_⟩
    show Hits _ (s⁻¹ * (z' + ((Spec.Secp256k1.gx : Nat) : ZMod Spec.Secp256k1.n) * ((q.val : Nat) : ZMod Spec.Secp256k1.n)))
    rw [hcast, e2, mul_neg, inv_mul_cancel₀ hs0]
    exact hits_neg hits_G

/-! ### Ed25519 -/

open KC.Spec.Ed25519 (le l B Encodes)
open KC.Real.Ed25519 (ed)

/-- What a loaded Cardano key accepts. -/
theorem cardano_accepts {H : Hashes} {C : Secp.Curve} {ok : Nat → Bool} (hok : ∀ s, s < l → ok s = true) {d : Bytes} {k : KeyObj}
    (hk : (factoryOf H C (ed H ok) .cardano).keyFromData d = .ok k) {p : Path} {out : Bytes} (ho : k.pubKey p = .ok out) :
    ∃ x : Nat, (8 ∣ x ∧ 2 ^ 254 ≤ x ∧ x < 2 ^ 255) ∧ Encodes (x • B) (out.take 32) ∧ ∀ m R S : Bytes, R.length = 32 → S.length = 32 →
      (k.verify m (R ++ S) p = .ok true ↔ ok (le S) = true ∧ Spec.Ed25519.Valid H (x • B) m R S) := by
  have hp : Accepts .cardano p := by
    obtain ⟨root, -, h3⟩ := cardano_key H C (ed H ok) d k hk
    exact (((h3 p).1 _).mp ho).1
  obtain ⟨root, y, a, b, c, hr, hw, hpa, ha⟩ := C63_loaded H C ok hok d k hk p hp
  obtain ⟨A, e, l1, -, hA⟩ := ha.pub
  rw [ho] at e; cases e
  refine ⟨le a, C64_loaded H C ok d k hk root y hr p hw a b c hpa, by rwa [List.take_left' l1], fun m R S h1 h2 => ?_⟩
  obtain ⟨t, e, ht⟩ := ha.accepts m (R ++ S) (by rw [List.length_append, h1, h2])
  rw [List.take_left' h1, List.drop_left' h1] at ht
  rw [e, ← ht]
  constructor
  · intro h; cases h; rfl
  · rintro rfl; rfl

/-- C99, Cardano: given that a key accepts a signature of a message, another key accepts it of another exactly if the products of hash and
scalar are the same modulo the group order; the hash is that of the first half, the public key and the message. -/
theorem C99_cardano (H : Hashes) (C C' : Secp.Curve) (ok : Nat → Bool) (hok : ∀ s, s < l → ok s = true) (d d' : Bytes) (k k' : KeyObj)
    (hk : (factoryOf H C (ed H ok) .cardano).keyFromData d = .ok k) (hk' : (factoryOf H C' (ed H ok) .cardano).keyFromData d' = .ok k')
    (p p' : Path) (out out' : Bytes) (ho : k.pubKey p = .ok out) (ho' : k'.pubKey p' = .ok out') :
    ∃ x x' : Nat, (8 ∣ x ∧ 2 ^ 254 ≤ x ∧ x < 2 ^ 255) ∧ (8 ∣ x' ∧ 2 ^ 254 ≤ x' ∧ x' < 2 ^ 255) ∧ Encodes (x • B) (out.take 32) ∧
      Encodes (x' • B) (out'.take 32) ∧
      ∀ m m' R S : Bytes, R.length = 32 → S.length = 32 → k.verify m (R ++ S) p = .ok true →
        (k'.verify m' (R ++ S) p' = .ok true ↔
          le (H.sha512 (R ++ out'.take 32 ++ m')) * x' % l = le (H.sha512 (R ++ out.take 32 ++ m)) * x % l) := by
  obtain ⟨x, hb, hx, h⟩ := cardano_accepts hok hk ho
  obtain ⟨x', hb', hx', h'⟩ := cardano_accepts hok hk' ho'
  refine ⟨x, x', hb, hb', hx, hx', fun m m' R S h1 h2 hv => ?_⟩
  obtain ⟨hr, P, A, g1, g2, g3⟩ := (h m R S h1 h2).mp hv
  obtain rfl := Real.Ed25519.encodes_unique hx g2
  rw [h' m' R S h1 h2]
  constructor
  · rintro ⟨-, P', A', g1', g2', g3'⟩
    obtain rfl := Real.Ed25519.encodes_inj g1 g1'
    obtain rfl := Real.Ed25519.encodes_unique hx' g2'
    have := add_left_cancel (g3'.symm.trans g3)
    rw [← mul_nsmul', ← mul_nsmul', nsmul_eq_nsmul_iff_modEq, Real.Ed25519.order_B] at this
    exact this
  · intro e
    refine ⟨hr, P, _, g1, hx', ?_⟩
    rw [g3]
    congr 1
    rw [← mul_nsmul', ← mul_nsmul', nsmul_eq_nsmul_iff_modEq, Real.Ed25519.order_B]
    exact e.symm

/-- C99, Cardano: one key takes a signature for two messages only if their hashes are the same modulo the group order. -/
theorem C99_cardano_messages (H : Hashes) (C : Secp.Curve) (ok : Nat → Bool) (hok : ∀ s, s < l → ok s = true) (d : Bytes) (k : KeyObj)
    (hk : (factoryOf H C (ed H ok) .cardano).keyFromData d = .ok k) (p : Path) (out : Bytes) (ho : k.pubKey p = .ok out)
    (m m' R S : Bytes) (h1 : R.length = 32) (h2 : S.length = 32) (h : k.verify m (R ++ S) p = .ok true) :
    k.verify m' (R ++ S) p = .ok true ↔ le (H.sha512 (R ++ out.take 32 ++ m')) % l = le (H.sha512 (R ++ out.take 32 ++ m)) % l := by
  obtain ⟨x, x', hb, hb', hx, hx', hv⟩ := C99_cardano H C C ok hok d d k k hk hk p p out out ho ho
  rw [hv m m' R S h1 h2 h]
  obtain ⟨hne, -, -⟩ := C64_public_key x x hb hb
  obtain rfl : x' = x := (C64_public_key x' x hb' hb).2.2.mp (Real.Ed25519.encodes_inj hx' hx)
  have hxl : ¬ l ∣ x' := by rwa [← Real.Ed25519.smul_eq_zero]
  have hc : Nat.Coprime l x' := (Nat.Prime.coprime_iff_not_dvd Spec.Ed25519.l_prime.out).mpr hxl
  exact ⟨fun g => Nat.ModEq.cancel_right_of_coprime hc g, fun g => Nat.ModEq.mul_right x' g⟩

/-! ### Cases -/

open KC.Real.Known

/-- The messages of no bytes and of the bytes 1, 2, 3: there are a key and a signature that it accepts for both. -/
theorem C99_case_shared (nonce : Nonces) (tries : Nat) : ∃ key sig, Accepted nonce tries { ethKey with key := key } [] sig ∧
    Accepted nonce tries { ethKey with key := key } [1, 2, 3] sig := by
  obtain ⟨key, sig, -, h1, h2⟩ := C99_shared nonce tries ethKey [] [1, 2, 3] (by decide +kernel) (by decide +kernel)
  exact ⟨key, sig, h1, h2⟩

/-- The signature that the Ethereum key of the known seed makes of the bytes 1, 2, 3 with nonce 7. -/
def eth7 : Bytes × Bytes :=
  (Bytes.beBytes 32 41948375291644419605210209193538855353224492619856392092318293986323063962044,
   Bytes.beBytes 32 13099193368013676516985320833111046464345966965470350340797672205756041137330)

theorem eth7_len : (eth7.1 ++ eth7.2).length = 64 := by decide +kernel

theorem accepted_of {nonce : Nonces} {tries : Nat} {y : XPrv} {m sig : Bytes} (hl : sig.length = 64)
    (h : Real.Secp256k1.verify (Real.hashes.keccak256 m) sig (Real.Secp256k1.pub y.key) = true) : Accepted nonce tries y m sig := by
  rw [Accepted, pubVerify, if_neg (not_not.mpr hl), Res.ok.injEq, XPrv.public]
  simp only [curve]
  exact h

theorem eth7_accepted (nonce : Nonces) (tries : Nat) : Accepted nonce tries ethKey [1, 2, 3] (eth7.1 ++ eth7.2) :=
  accepted_of eth7_len (by decide +kernel)

/-- Another key accepts it too. -/
theorem C99_case_twin (nonce : Nonces) (tries : Nat) : ∃ key, key ≠ ethKey.key ∧
    Accepted nonce tries { ethKey with key := key } [1, 2, 3] (eth7.1 ++ eth7.2) := by
  obtain ⟨key, h1, -, h2⟩ := C99_twin nonce tries ethKey [1, 2, 3] eth7.1 eth7.2 (Bytes.beBytes_length _ _) (Bytes.beBytes_length _ _)
    (eth7_accepted nonce tries) (by decide +kernel)
  exact ⟨key, h1, h2⟩

/-- A third one does not: there is room for two. -/
example : (if be eth7.1 % n + n < Spec.Secp256k1.p then 4 else 2) = 2 := by decide +kernel

/-- The Cardano key of the tests has signatures to which `C99_cardano` applies. -/
example (C : Secp.Curve) (m : Bytes) : ∃ (k : KeyObj) (R S out : Bytes),
    (factoryOf Real.hashes C (ed Real.hashes inRange) .cardano).keyFromData Real.Ed25519.d1.val = .ok k ∧ R.length = 32 ∧ S.length = 32 ∧
    k.pubKey path0 = .ok out ∧ k.verify m (R ++ S) path0 = .ok true := by
  obtain ⟨k, hk⟩ := d1_loads C
  obtain ⟨root, y, a, b, c, -, -, -, ha⟩ := C63_loaded Real.hashes C inRange inRange_ok _ k hk path0 path0_ok
  obtain ⟨A, e, -⟩ := ha.pub
  obtain ⟨R, S, -, h1, h2, -, -, h⟩ := ha.signs m
  exact ⟨k, R, S, _, hk, h1, h2, e, h⟩

end KC.Props
