import Verif.Real.KnownEd
import Verif.Props.Real
/-
C63 to C65: the Cardano side with Ed25519 itself (RFC 8032, BIP32-Ed25519) instead of the record of external functions.
`Real.Ed25519.ed H ok` tests the second half of a signature with `ok`; of that only what is said is assumed.
-/
namespace KC.Props
open KC.Manager KC.Spec KC.Spec.Wallet
open KC.KeyPath (Path)
open KC.Spec.Ed25519 (B Encodes Edwards le IsLe l Parts Child PubChild PubWalk)
open KC.Real.Ed25519 (ed kl kr cc)

/-! ### The group is that of RFC 8032 -/

/-- C63: the points are the solutions of the curve equation, one for each; the neutral one is (0, 1); they add by the formulas of
RFC 8032; the base point is the one given there, of order `l`. -/
theorem C63_group :
    (∀ P, ∃ x y, Edwards P x y ∧ -x ^ 2 + y ^ 2 = 1 + Real.Ed25519.d * x ^ 2 * y ^ 2) ∧
    (∀ x y, -x ^ 2 + y ^ 2 = 1 + Real.Ed25519.d * x ^ 2 * y ^ 2 → ∃! P, Edwards P x y) ∧
    (∀ P x y x' y', Edwards P x y → Edwards P x' y' → x = x' ∧ y = y') ∧
    Edwards 0 0 1 ∧
    (∀ P Q x1 y1 x2 y2, Edwards P x1 y1 → Edwards Q x2 y2 →
      Edwards (P + Q) ((x1 * y2 + x2 * y1) / (1 + Real.Ed25519.d * x1 * x2 * y1 * y2))
        ((y1 * y2 + x1 * x2) / (1 - Real.Ed25519.d * x1 * x2 * y1 * y2))) ∧
    Edwards B (15112221349535400772501151409588531511454012693041857206046113283949847762202 : Nat)
      (46316835694926478169428394003475163141307993866256225615783033603165251855960 : Nat) ∧
    addOrderOf B = l := by
  have hd : 121666 * Real.Ed25519.d = -121665 := by
    have := Real.Ed25519.c_ne
    rw [Real.Ed25519.d]
    field_simp
  refine ⟨fun P => ?_, fun x y h => ?_, fun P x y x' y' => Real.Ed25519.edwards_unique, ⟨rfl, rfl⟩,
    fun P Q x1 y1 x2 y2 h1 h2 => (Real.Ed25519.edwards_add h1 h2).2.2, Real.Ed25519.edwards_B, Real.Ed25519.order_B⟩
  · obtain ⟨x, y, h⟩ := Real.Ed25519.edwards_exists P
    refine ⟨x, y, h, mul_left_cancel₀ Real.Ed25519.c_ne ?_⟩
    linear_combination Real.Ed25519.edwards_eq h - x ^ 2 * y ^ 2 * hd
  · obtain ⟨P, hP⟩ := Real.Ed25519.edwards_surj (x := x) (y := y) (by linear_combination 121666 * h + x ^ 2 * y ^ 2 * hd)
    exact ⟨P, hP, fun Q hQ => Real.Ed25519.edwards_inj hQ hP⟩

/-- C63: every point has an encoding, of 32 bytes; it determines the point and is determined by it. -/
theorem C63_encoding (P : Spec.Ed25519.E.Point) : (∃ a, Encodes P a ∧ a.length = 32) ∧
    ∀ Q a b, Encodes P a → Encodes Q b → (P = Q ↔ a = b) := by
  refine ⟨?_, fun Q a b ha hb => ?_⟩
  · obtain ⟨x, y, h⟩ := Real.Ed25519.edwards_exists P
    exact ⟨_, ⟨x, y, h, Real.Ed25519.isLe_leBytes (Real.Ed25519.enc_lt x y)⟩, Real.Ed25519.leBytes_length _ _⟩
  constructor
  · rintro rfl
    exact Real.Ed25519.encodes_unique ha hb
  · rintro rfl
    exact Real.Ed25519.encodes_inj ha hb

/-! ### C63 -/

/-- What the operations of a Cardano key with scalar `k` and chain code `c` amount to. -/
structure EdActs (H : Hashes) (ok : Nat → Bool) (k : Nat) (c : Bytes) (pubKey : Res Key.Error Bytes)
    (sign : Bytes → Res Key.Error Bytes) (verify : Bytes → Bytes → Res Key.Error Bool) : Prop where
  /-- The public key is the encoding of `k B` and the chain code. -/
  pub : ∃ a, pubKey = .ok (a ++ c) ∧ a.length = 32 ∧ c.length = 32 ∧ Encodes (k • B) a
  /-- Exactly the valid signatures are accepted. -/
  accepts : ∀ m s, s.length = 64 → ∃ b, verify m s = .ok b ∧
    (b = true ↔ ok (le (s.drop 32)) = true ∧ Spec.Ed25519.Valid H (k • B) m (s.take 32) (s.drop 32))
  /-- There always is a signature; it is valid, has the least second half, and verifies. -/
  signs : ∀ m, ∃ R S, sign m = .ok (R ++ S) ∧ R.length = 32 ∧ S.length = 32 ∧ le S < l ∧
    Spec.Ed25519.Valid H (k • B) m R S ∧ verify m (R ++ S) = .ok true

theorem edActs {H : Hashes} {ok : Nat → Bool} (hok : ∀ s, s < l → ok s = true) (y : Cardano.XPrv) {pubKey : Res Key.Error Bytes}
    {sign : Bytes → Res Key.Error Bytes} {verify : Bytes → Bytes → Res Key.Error Bool} (h1 : pubKey = .ok ((ed H ok).pub y))
    (h2 : ∀ m, sign m = .ok ((ed H ok).sign y m)) (h3 : ∀ m s, s.length = 64 → verify m s = .ok ((ed H ok).verify y m s)) :
    EdActs H ok (le (kl y)) (cc y) pubKey sign verify := by
  have hver : ∀ m s, s.length = 64 → ((ed H ok).verify y m s = true ↔ ok (le (s.drop 32)) = true ∧
      Spec.Ed25519.Valid H (le (kl y) • B) m (s.take 32) (s.drop 32)) := by
    intro m s hs
    have := Real.Ed25519.verify_iff H ok y m s
    rwa [List.take_of_length_le (l := s.drop 32) (by rw [List.length_drop, hs])] at this
  constructor
  · exact ⟨_, h1, Real.Ed25519.enc_length _, Real.Ed25519.cc_length y, Real.Ed25519.encodes_pub y⟩
  · intro m s hs
    exact ⟨_, h3 m s hs, hver m s hs⟩
  · intro m
    obtain ⟨R, S, h, hR, hS, -⟩ := Real.Ed25519.sign_spec H y m
    obtain ⟨hl, hv⟩ := Real.Ed25519.sign_valid H y m R S h hR
    have hlen : (R ++ S).length = 64 := by rw [List.length_append, hR, hS]
    refine ⟨R, S, (h2 m).trans (congrArg Res.ok h), hR, hS, hl, hv, ?_⟩
    rw [h3 m _ hlen, (hver m _ hlen).mpr]
    rw [List.take_left' hR, List.drop_left' hR]
    exact ⟨hok _ hl, hv⟩

/-- C63: a Cardano key loaded from any data works at every path of its network with the BIP32-Ed25519 key at the full path from that
data. -/
theorem C63_loaded (H : Hashes) (C : Secp.Curve) (ok : Nat → Bool) (hok : ∀ s, s < l → ok s = true) (d : Bytes) (k : KeyObj)
    (hk : (factoryOf H C (ed H ok) .cardano).keyFromData d = .ok k) (p : Path) (hp : Accepts .cardano p) :
    ∃ (root y : Cardano.XPrv) (a b c : Bytes), root.val = d ∧ Spec.Ed25519.Walk H root (full p) y ∧ Parts y a b c ∧
      EdActs H ok (le a) c (k.pubKey p) (fun m => k.sign m p) (fun m s => k.verify m s p) := by
  obtain ⟨root, hr, h⟩ := cardano_key H C (ed H ok) d k hk
  obtain ⟨h1, h2, h3⟩ := h p
  have hw := Real.Ed25519.walk_foldl H ok root (full p)
  generalize (full p).foldl (ed H ok).derive root = y at hw h1 h2 h3
  exact ⟨root, y, _, _, _, hr, hw, Real.Ed25519.parts y, edActs hok y ((h1 _).mpr ⟨hp, rfl⟩) (fun m => (h2 m _).mpr ⟨hp, rfl⟩)
    fun m s hs => (h3 m s _).mpr ⟨hp, hs, rfl⟩⟩

/-- C63: the key made from a 64-byte seed: the root is made of the clamped SHA-512 hash of the first half and of the second half. -/
theorem C63_seed (H : Hashes) (C : Secp.Curve) (ok : Nat → Bool) (hok : ∀ s, s < l → ok s = true) (seed : Bytes) (hs : seed.length = 64) :
    ∃ (d : Bytes) (k : KeyObj), (factoryOf H C (ed H ok) .cardano).keyDataFromSeed seed = .ok d ∧
      (factoryOf H C (ed H ok) .cardano).keyFromData d = .ok k ∧
      ∀ p, Accepts .cardano p → ∃ (root y : Cardano.XPrv) (a b c : Bytes) (b0 b31 : UInt8),
        (let h := H.sha512 (seed.take 32)
         root.val = [b0] ++ (h.drop 1).take 30 ++ [b31] ++ h.drop 32 ++ seed.drop 32 ∧
         b0.toNat = (h.getD 0 0).toNat - (h.getD 0 0).toNat % 8 ∧ b31.toNat = (h.getD 31 0).toNat % 32 + 64) ∧
        Spec.Ed25519.Walk H root (full p) y ∧ Parts y a b c ∧
        EdActs H ok (le a) c (k.pubKey p) (fun m => k.sign m p) (fun m s => k.verify m s p) := by
  obtain ⟨d, b0, b31, hd, -, -, ⟨k, hk⟩, h1, h2, h3⟩ := C30_from_seed H C (ed H ok) seed hs
  refine ⟨d, k, hd, hk, fun p hp => ?_⟩
  obtain ⟨root, y, a, b, c, hr, hw, hpt, ha⟩ := C63_loaded H C ok hok d k hk p hp
  exact ⟨root, y, a, b, c, b0, b31, ⟨hr.trans h1, h2, h3⟩, hw, hpt, ha⟩

/-- C63: for a message and a first half there is at most one second half below the group order. -/
theorem C63_one_signature (H : Hashes) (k : Nat) (m R S S' : Bytes) (hl : S.length = 32) (hl' : S'.length = 32)
    (h : Spec.Ed25519.Valid H (k • B) m R S) (h' : Spec.Ed25519.Valid H (k • B) m R S') (hS : le S < l) (hS' : le S' < l) : S = S' := by
  obtain ⟨P, a, h1, h2, h3⟩ := h
  obtain ⟨P', a', h1', h2', h3'⟩ := h'
  obtain rfl := Real.Ed25519.encodes_inj h1 h1'
  obtain rfl := Real.Ed25519.encodes_unique h2 h2'
  have := h3.trans h3'.symm
  rw [nsmul_eq_nsmul_iff_modEq, Real.Ed25519.order_B] at this
  exact Real.Ed25519.le_inj (hl.trans hl'.symm) (Nat.ModEq.eq_of_lt_of_lt this hS hS')

/-- C63, end to end: a wallet is made from a seed, encrypted and opened again.  What its Cardano key signs at a path of its network
verifies with the wallet and is an Ed25519 signature for the public key of the BIP32-Ed25519 scalar at that path from the root made from
the seed. -/
theorem C63_wallet (D : Base64.Decoder) (C : Secp.Curve) (ok : Nat → Bool) (hok : ∀ s, s < l → ok s = true)
    (itF : Iter (Network × Factory)) (itK it : Iter (Network × Bytes)) (M M' : Manager) (hM : BuiltIn Real.hashes C (ed Real.hashes ok) M)
    (hM' : BuiltIn Real.hashes C (ed Real.hashes ok) M') (hn : ∀ n, M'.hasNetwork n = M.hasNetwork n) (seed : Bytes) (pw : Str)
    (r r' : Rng) (blob : Bytes) (h : (M.keychainDataFromSeed (realEnv D) itF itK seed pw).run r = (.ok blob, r'))
    (kc : Keychain) (ho : M'.keychainFromData (realEnv D) it blob pw = .ok kc) (hhas : M.hasNetwork 0x80000717 = true) (p : Path)
    (hp : Accepts .cardano p) (m : Bytes) :
    ∃ (d : Bytes) (root y : Cardano.XPrv) (a b c R S out : Bytes),
      (factoryOf Real.hashes C (ed Real.hashes ok) .cardano).keyDataFromSeed seed = .ok d ∧ root.val = d ∧
      Spec.Ed25519.Walk Real.hashes root (full p) y ∧ Parts y a b c ∧
      kc.pubKey 0x80000717 p = .ok (out ++ c) ∧ Encodes (le a • B) out ∧
      kc.sign 0x80000717 m p = .ok (R ++ S) ∧ R.length = 32 ∧ S.length = 32 ∧ le S < l ∧
      Spec.Ed25519.Valid Real.hashes (le a • B) m R S ∧ kc.verify 0x80000717 m (R ++ S) p = .ok true := by
  have hM2 := hM
  have hM2' := hM'
  rw [← realEnv_H D] at hM2 hM2'
  have hrt := (C40_roundtrip (realEnv D) (realEnv_correct D) itF itK it M M' hM2.built hM2'.honest (hM2.same hM2' hn) seed pw r r'
    blob h).1 kc ho 0x80000717
  obtain ⟨f, hf⟩ := Option.isSome_iff_exists.mp hhas
  obtain ⟨d, k, hd, hk, -, hacts⟩ := hrt.2 f hf
  obtain ⟨a1, a2, a3⟩ := hacts p
  have key : f = factoryOf Real.hashes C (ed Real.hashes ok) .cardano := by
    rcases hM.factory hf with ⟨-, e⟩ | ⟨e, -⟩ | ⟨e, -⟩
    · exact e
    · exact absurd e (by decide)
    · exact absurd e (by decide)
  rw [key] at hd hk
  obtain ⟨root, y, a, b, c, hr, hw, hpt, ha⟩ := C63_loaded Real.hashes C ok hok d k hk p hp
  obtain ⟨out, h1, -, -, he⟩ := ha.pub
  obtain ⟨R, S, h2, hR, hS, hl, hv, h3⟩ := ha.signs m
  refine ⟨d, root, y, a, b, c, R, S, out, hd, hr, hw, hpt, ?_, he, ?_, hR, hS, hl, hv, ?_⟩
  · rw [a1, h1]; rfl
  · rw [a2, h2]; rfl
  · rw [a3, h3]; rfl

/-! A key to which this applies: that of the tests of `ed25519-bip32`, at m/44'/1815'/0'/0/0. -/

/-- The check that RFC 8032 asks for. -/
def inRange (s : Nat) : Bool := decide (s < l)

theorem inRange_ok (s : Nat) (h : s < l) : inRange s = true := decide_eq_true h

theorem d1_clamped : Clamped Real.Ed25519.d1.val := by
  unfold Clamped
  decide +kernel

theorem d1_loads (C : Secp.Curve) : ∃ k, (factoryOf Real.hashes C (ed Real.hashes inRange) .cardano).keyFromData Real.Ed25519.d1.val = .ok k :=
  (C30_load _ _ _ _).2.2.1 Real.Ed25519.d1.2 d1_clamped

def path0 : Path := ⟨0x8000002C, 0x80000717, 0x80000000, 0, 0⟩

theorem path0_ok : Accepts .cardano path0 := by
  refine ⟨Or.inr ?_, ?_, ?_, Or.inl ?_, ?_⟩ <;> (try unfold CoinOk) <;> (try unfold AccountOk) <;> (try unfold AddressOk) <;> decide

example (C : Secp.Curve) (m : Bytes) : ∃ (k : KeyObj) (x : Nat) (R S : Bytes), k.sign m path0 = .ok (R ++ S) ∧ le S < l ∧
    Spec.Ed25519.Valid Real.hashes (x • B) m R S ∧ k.verify m (R ++ S) path0 = .ok true := by
  obtain ⟨k, hk⟩ := d1_loads C
  obtain ⟨root, y, a, b, c, -, -, -, h⟩ := C63_loaded Real.hashes C inRange inRange_ok _ k hk path0 path0_ok
  obtain ⟨R, S, h1, -, -, h2, h3, h4⟩ := h.signs m
  exact ⟨k, le a, R, S, h1, h2, h3, h4⟩

/-- The signature of RFC 8032, 7.1, test 2 is valid, hence the only one with its first half. -/
example (S : Bytes) (hl : S.length = 32) (hS : le S < l)
    (h : Spec.Ed25519.Valid Real.hashes (le (kl Real.Ed25519.test2) • B) [114] ((Real.Ed25519.sign Real.hashes Real.Ed25519.test2 [114]).take 32) S) :
    S = (Real.Ed25519.sign Real.hashes Real.Ed25519.test2 [114]).drop 32 := by
  obtain ⟨R, T, e, hR, hT, -⟩ := Real.Ed25519.sign_spec Real.hashes Real.Ed25519.test2 [114]
  obtain ⟨h1, h2⟩ := Real.Ed25519.sign_valid _ _ _ _ _ e hR
  rw [e, List.take_left' hR] at h
  rw [e, List.drop_left' hR]
  exact C63_one_signature _ _ _ _ _ _ hl hT h h2 hS h1

/-! ### C64 -/

theorem le_cons (b : UInt8) (t : Bytes) : le (b :: t) = b.toNat + 256 * le t := by
  rw [le, le, List.reverse_cons, Bytes.be_append]
  simp [Spec.Bip32.be]
  omega

theorem le_snoc (t : Bytes) (b : UInt8) : le (t ++ [b]) = b.toNat * 256 ^ t.length + le t := by
  rw [le, le, List.reverse_append, List.reverse_singleton, List.singleton_append, Spec.Bip32.be, List.length_reverse]

/-- The bits Cardano demands put the scalar between 2^254 and 2^254 + 2^253, divisible by 8. -/
theorem clamped_scalar (x : Cardano.XPrv) (h : Clamped x.val) :
    8 ∣ le (kl x) ∧ 2 ^ 254 ≤ le (kl x) ∧ le (kl x) < 2 ^ 254 + 2 ^ 253 := by
  have hx : x.val.length = 96 := x.2
  have hl : (kl x).length = 32 := (Real.Ed25519.parts x).2.1
  have e0 : (kl x).getD 0 0 = x.val.getD 0 0 := by
    simp [kl, List.getD_eq_getElem?_getD]
  have e31 : (kl x).getD 31 0 = x.val.getD 31 0 := by
    simp [kl, List.getD_eq_getElem?_getD]
  obtain ⟨h31, h0⟩ := h
  rw [← e31] at h31
  rw [← e0] at h0
  generalize kl x = b at *
  constructor
  · cases b with
    | nil => cases hl
    | cons a t =>
      rw [le_cons]
      have h0 : a.toNat % 8 = 0 := h0
      omega
  · obtain ⟨t, a, rfl⟩ : ∃ t a, b = t ++ [a] := ⟨b.dropLast, b.getLast (by rintro rfl; cases hl), (List.dropLast_append_getLast _).symm⟩
    rw [List.length_append, List.length_singleton] at hl
    have ht : t.length = 31 := by omega
    have ha : (t ++ [a]).getD 31 0 = a := by
      rw [List.getD_eq_getElem?_getD, List.getElem?_append_right (by omega), ht]
      rfl
    rw [ha] at h31
    have hlt := Real.Ed25519.le_lt t
    rw [le_snoc, ht] at *
    have e : 256 ^ 31 = 2 ^ 248 := by decide +kernel
    rw [e] at *
    have e : 2 ^ 254 = 64 * 2 ^ 248 := by decide +kernel
    rw [e]
    have e : 2 ^ 253 = 32 * 2 ^ 248 := by decide +kernel
    rw [e]
    generalize 2 ^ 248 = q at *
    have h1 : 64 ≤ a.toNat := by omega
    have h2 : a.toNat ≤ 95 := by omega
    have h3 := Nat.mul_le_mul_right q h1
    have h4 := Nat.mul_le_mul_right q h2
    omega

/-- C64: along at most 2^26 steps from a key with the demanded bits, the scalar grows without overflow, stays divisible by 8 and between
2^254 and 2^255. -/
theorem C64_walk (H : Hashes) (x y : Cardano.XPrv) (is : List UInt32) (hx : Clamped x.val) (hw : Spec.Ed25519.Walk H x is y)
    (hlen : is.length ≤ 2 ^ 26) : 8 ∣ le (kl y) ∧ le (kl x) ≤ le (kl y) ∧ 2 ^ 254 ≤ le (kl y) ∧ le (kl y) < 2 ^ 255 := by
  obtain ⟨h8, hlo, hhi⟩ := clamped_scalar x hx
  have key : ∀ (n : Nat), n + is.length ≤ 2 ^ 26 → le (kl x) < 2 ^ 254 + 2 ^ 253 + n * 2 ^ 227 →
      8 ∣ le (kl y) ∧ le (kl x) ≤ le (kl y) ∧ le (kl y) < 2 ^ 254 + 2 ^ 253 + 2 ^ 26 * 2 ^ 227 := by
    clear hhi hlen hx hlo
    induction hw with
    | nil x =>
      intro n hn hb
      refine ⟨h8, le_refl _, lt_of_lt_of_le hb ?_⟩
      have := Nat.mul_le_mul_right (2 ^ 227) (show n ≤ 2 ^ 26 by omega)
      omega
    | @cons x i z is y hc _ ih =>
      intro n hn hb
      rw [List.length_cons] at hn
      have hn' := Nat.mul_le_mul_right (2 ^ 227) (show n ≤ 2 ^ 26 by omega)
      obtain ⟨t, ht, e⟩ := Real.Ed25519.child_scalar hc (by omega)
      obtain ⟨g1, g2, g3⟩ := ih (by omega) (n + 1) (by omega) (by omega)
      exact ⟨g1, by omega, g3⟩
  obtain ⟨g1, g2, g3⟩ := key 0 (by omega) (by omega)
  exact ⟨g1, g2, by omega, by omega⟩

theorem clamped_of_load {H : Hashes} {C : Secp.Curve} {E : Cardano.Ed} {d : Bytes} {k : KeyObj}
    (hk : (factoryOf H C E .cardano).keyFromData d = .ok k) {root : Cardano.XPrv} (hr : root.val = d) : Clamped root.val := by
  by_contra hc
  have hl : d.length = 96 := by rw [← hr]; exact root.2
  rw [hr] at hc
  obtain ⟨e, -, he⟩ := (C30_load H C E d).2.2.2 hl hc
  rw [hk] at he
  cases he

/-- C64: the scalar of every Cardano key of a loaded wallet, at every path. -/
theorem C64_loaded (H : Hashes) (C : Secp.Curve) (ok : Nat → Bool) (d : Bytes) (k : KeyObj)
    (hk : (factoryOf H C (ed H ok) .cardano).keyFromData d = .ok k) (root y : Cardano.XPrv) (hr : root.val = d) (p : Path)
    (hw : Spec.Ed25519.Walk H root (full p) y) (a b c : Bytes) (hp : Parts y a b c) :
    8 ∣ le a ∧ 2 ^ 254 ≤ le a ∧ le a < 2 ^ 255 := by
  obtain ⟨rfl, rfl, rfl⟩ := Real.Ed25519.parts_unique hp (Real.Ed25519.parts y)
  have hc := clamped_of_load hk hr
  obtain ⟨h1, -, h2, h3⟩ := C64_walk H root y (full p) hc hw (show 5 ≤ 2 ^ 26 by decide)
  exact ⟨h1, h2, h3⟩

/-- C64: for such scalars the public key is not the neutral element, has prime order, and determines the scalar. -/
theorem C64_public_key (j k : Nat) (hj : 8 ∣ j ∧ 2 ^ 254 ≤ j ∧ j < 2 ^ 255) (hk : 8 ∣ k ∧ 2 ^ 254 ≤ k ∧ k < 2 ^ 255) :
    j • B ≠ 0 ∧ addOrderOf (j • B) = l ∧ (j • B = k • B ↔ j = k) := by
  have hl : 2 ^ 252 < l := by decide +kernel
  have hp : l.Prime := Fact.out
  have h0 : j • B ≠ 0 := by
    rw [Ne, Real.Ed25519.smul_eq_zero]
    intro hd
    obtain ⟨⟨t, rfl⟩, h1, h2⟩ := hj
    have := (hp.dvd_mul.mp hd).resolve_left (by decide +kernel)
    have := Nat.le_of_dvd (by omega) this
    omega
  refine ⟨h0, ?_, ?_, fun h => by rw [h]⟩
  · refine addOrderOf_eq_prime ?_ h0
    rw [← mul_nsmul, Real.Ed25519.smul_eq_zero]
    exact Dvd.intro_left _ rfl
  · intro h
    rw [nsmul_eq_nsmul_iff_modEq, Real.Ed25519.order_B] at h
    obtain ⟨⟨s, rfl⟩, h1, h2⟩ := hj
    obtain ⟨⟨t, rfl⟩, h3, h4⟩ := hk
    have := Nat.ModEq.cancel_left_of_coprime (by decide +kernel) h
    rw [Nat.ModEq.eq_of_lt_of_lt this (by omega) (by omega)]

/-- C64: two loaded Cardano keys that show the same public key at two paths have the same scalar there and accept the same signatures. -/
theorem C64_same_public_key (H : Hashes) (C C' : Secp.Curve) (ok : Nat → Bool) (hok : ∀ s, s < l → ok s = true) (d d' : Bytes)
    (k k' : KeyObj) (hk : (factoryOf H C (ed H ok) .cardano).keyFromData d = .ok k)
    (hk' : (factoryOf H C' (ed H ok) .cardano).keyFromData d' = .ok k') (p p' : Path) (out out' : Bytes)
    (h : k.pubKey p = .ok out) (h' : k'.pubKey p' = .ok out') (ho : out.take 32 = out'.take 32) :
    (∃ (root root' y y' : Cardano.XPrv) (a b c b' c' : Bytes), root.val = d ∧ root'.val = d' ∧
      Spec.Ed25519.Walk H root (full p) y ∧ Spec.Ed25519.Walk H root' (full p') y' ∧ Parts y a b c ∧ Parts y' a b' c') ∧
    ∀ m s, s.length = 64 → k.verify m s p = k'.verify m s p' := by
  have hp : Accepts .cardano p := by
    obtain ⟨_, _, hc⟩ := cardano_key H C (ed H ok) d k hk
    exact (((hc p).1 out).mp h).1
  have hp' : Accepts .cardano p' := by
    obtain ⟨_, _, hc⟩ := cardano_key H C' (ed H ok) d' k' hk'
    exact (((hc p').1 out').mp h').1
  obtain ⟨root, y, a, b, c, hr, hw, hpt, ha⟩ := C63_loaded H C ok hok d k hk p hp
  obtain ⟨root', y', a', b', c', hr', hw', hpt', ha'⟩ := C63_loaded H C' ok hok d' k' hk' p' hp'
  obtain ⟨o, h1, hl, -, he⟩ := ha.pub
  obtain ⟨o', h1', hl', -, he'⟩ := ha'.pub
  rw [h] at h1; rw [h'] at h1'
  cases h1; cases h1'
  rw [List.take_left' hl, List.take_left' hl'] at ho
  subst ho
  have hP := Real.Ed25519.encodes_inj he he'
  have hk1 := C64_loaded H C ok d k hk root y hr p hw a b c hpt
  have hk2 := C64_loaded H C' ok d' k' hk' root' y' hr' p' hw' a' b' c' hpt'
  have hle := ((C64_public_key _ _ hk1 hk2).2.2).mp hP
  have haa : a = a' := Real.Ed25519.le_inj (hpt.2.1.trans hpt'.2.1.symm) hle
  subst haa
  refine ⟨⟨root, root', y, y', a, b, c, b', c', hr, hr', hw, hw', hpt, hpt'⟩, fun m s hs => ?_⟩
  obtain ⟨v, hv, g⟩ := ha.accepts m s hs
  obtain ⟨v', hv', g'⟩ := ha'.accepts m s hs
  rw [hv, hv', Bool.eq_iff_iff.mpr (g.trans g'.symm)]

/-- The key of the tests of `ed25519-bip32` and its child 0x80000000. -/
example : le (kl Real.Ed25519.d1) < le (Real.Ed25519.d1h0.take 32) ∧ le (Real.Ed25519.d1h0.take 32) % 8 = 0 := by decide +kernel

example : le (kl Real.Ed25519.d1) • B ≠ 0 := by
  obtain ⟨h1, -, h2, h3⟩ := C64_walk Real.hashes Real.Ed25519.d1 Real.Ed25519.d1 [] d1_clamped (.nil _) (Nat.zero_le _)
  exact (C64_public_key _ _ ⟨h1, h2, h3⟩ ⟨h1, h2, h3⟩).1

/-! ### C65 -/

/-- C65: a soft child has the public key and chain code that public derivation gives. -/
theorem C65_child (H : Hashes) (x y : Cardano.XPrv) (i : UInt32) (hi : i.toNat < 2 ^ 31) (hx : le (kl x) < 2 ^ 255)
    (h : Child H x i y) : PubChild H (le (kl x) • B) (cc x) i (le (kl y) • B) (cc y) := Real.Ed25519.child_pub h hx hi

/-- C65: the public child is determined by public key, chain code and index, and always exists. -/
theorem C65_determined (H : Hashes) (A : Spec.Ed25519.E.Point) (c : Bytes) (i : UInt32) (hi : i.toNat < 2 ^ 31) :
    ∃ A' c', PubChild H A c i A' c' ∧ ∀ A'' c'', PubChild H A c i A'' c'' → A'' = A' ∧ c'' = c' := by
  obtain ⟨⟨a, ha, -⟩, -⟩ := C63_encoding A
  refine ⟨_, _, ⟨hi, a, _, ha, Real.Ed25519.isLe_index i, rfl, rfl⟩, ?_⟩
  rintro A'' c'' ⟨-, a', ib, ha', hib, rfl, rfl⟩
  obtain rfl := Real.Ed25519.encodes_unique ha ha'
  obtain rfl := Real.Ed25519.isLe_unique hib (Real.Ed25519.isLe_index i)
  exact ⟨rfl, rfl⟩

theorem ed_walk_append {H : Hashes} {x y : Cardano.XPrv} {is js : List UInt32} (h : Spec.Ed25519.Walk H x (is ++ js) y) :
    ∃ z, Spec.Ed25519.Walk H x is z ∧ Spec.Ed25519.Walk H z js y := by
  induction is generalizing x with
  | nil => exact ⟨x, .nil x, h⟩
  | cons i is ih =>
    cases h with
    | cons hc hw =>
      obtain ⟨z, h1, h2⟩ := ih hw
      exact ⟨z, .cons hc h1, h2⟩

theorem ed_walk_trans {H : Hashes} {x y z : Cardano.XPrv} {is js : List UInt32} (h : Spec.Ed25519.Walk H x is y)
    (h' : Spec.Ed25519.Walk H y js z) : Spec.Ed25519.Walk H x (is ++ js) z := by
  induction h with
  | nil => exact h'
  | cons hc _ ih => exact .cons hc (ih h')

/-- C65: all public keys of an account follow from one public key and chain code, that of the account. -/
theorem C65_account (H : Hashes) (C : Secp.Curve) (ok : Nat → Bool) (hok : ∀ s, s < l → ok s = true) (d : Bytes) (k : KeyObj)
    (hk : (factoryOf H C (ed H ok) .cardano).keyFromData d = .ok k) (root : Cardano.XPrv) (hr : root.val = d) (account : UInt32)
    (acc : Cardano.XPrv) (hacc : Spec.Ed25519.Walk H root [0x8000002C, 0x80000717, account] acc) (ka kb c : Bytes)
    (hpt : Parts acc ka kb c) (p : Path) (hp : Accepts .cardano p) (ha : p.account = account) :
    ∃ A' c' out, PubWalk H (le ka • B) c [p.change, p.address] A' c' ∧ Encodes A' out ∧ k.pubKey p = .ok (out ++ c') := by
  obtain ⟨root', y, a, b, c', hr', hw, hpt', hacts⟩ := C63_loaded H C ok hok d k hk p hp
  obtain rfl : root' = root := Subtype.ext (hr'.trans hr.symm)
  obtain ⟨rfl, rfl, rfl⟩ := Real.Ed25519.parts_unique hpt (Real.Ed25519.parts acc)
  obtain ⟨rfl, rfl, rfl⟩ := Real.Ed25519.parts_unique hpt' (Real.Ed25519.parts y)
  have hcl := clamped_of_load hk hr
  have hpu : p.purpose = 0x8000002C := by
    rcases hp.1 with h | h
    · cases h
    · exact UInt32.toNat_inj.mp h
  have hco : p.coin = 0x80000717 := UInt32.toNat_inj.mp hp.2.1
  have hfull : full p = [0x8000002C, 0x80000717, account] ++ [p.change, p.address] := by simp [full, hpu, hco, ha]
  rw [hfull] at hw
  obtain ⟨acc', hw1, hw2⟩ := ed_walk_append hw
  obtain rfl := Real.Ed25519.walk_unique hacc hw1
  have b1 := (C64_walk H root' acc _ hcl hacc (show 3 ≤ 2 ^ 26 by decide)).2.2.2
  have hch : p.change.toNat < 2 ^ 31 := by rcases hp.2.2.2.1 with h | h <;> rw [h] <;> decide
  cases hw2 with
  | @cons _ _ z _ _ c1 w1 =>
  cases w1 with
  | @cons _ _ z' _ _ c2 w2 =>
  cases w2
  have b2 := (C64_walk H root' z _ hcl (ed_walk_trans hacc (.cons c1 (.nil z))) (show 4 ≤ 2 ^ 26 by decide)).2.2.2
  obtain ⟨out, h1, -, -, he⟩ := hacts.pub
  exact ⟨_, _, out, .cons (C65_child H acc z _ hch b1 c1) (.cons (C65_child H z y _ hp.2.2.2.2 b2 c2) (.nil _ _)), he, h1⟩

/-- It applies to the account 0' of the key of the tests. -/
example (C : Secp.Curve) : ∃ (k : KeyObj) (A A' : Spec.Ed25519.E.Point) (c c' out : Bytes),
    PubWalk Real.hashes A c [0, 0] A' c' ∧ Encodes A' out ∧ k.pubKey path0 = .ok (out ++ c') := by
  obtain ⟨k, hk⟩ := d1_loads C
  obtain ⟨A', c', out, h1, h2, h3⟩ := C65_account Real.hashes C inRange inRange_ok _ k hk _ rfl 0x80000000 _
    (Real.Ed25519.walk_foldl Real.hashes inRange _ _) _ _ _ (Real.Ed25519.parts _) path0 path0_ok rfl
  exact ⟨k, _, A', _, c', out, h1, h2, h3⟩

end KC.Props
