import Verif.Spec.Standard
import Verif.Props.Standards
import Verif.Props.RealEd
import Verif.Props.Exported
/-
C83: from a phrase, through storing, any history and opening, to public keys and signatures, in the words of the documents alone.
-/
namespace KC.Props
open KC.Manager KC.Spec KC.Spec.Wallet KC.Secp
open KC.KeyPath (Path)
open KC.Mnemonic (Language)
open KC.Spec.Bip32 (be n IsBe)
open KC.Spec.Secp256k1 (G Uncompressed Compressed Valid Recovers)
open KC.Spec.Ed25519 (B Encodes le IsLe l)
open KC.Spec.Standard (Node EdNode Hmac512 Sha512 Master Halves Exceptional Derive Regular EdMaster EdChild EdDerive EdValid)
open KC.Real.Secp256k1 (curve)
open KC.Real.Ed25519 (ed kl kr cc)

/-! ### What keys do -/

/-- The operations of a Bitcoin or Ethereum key with secret `k`. -/
structure SecpActs {ε} (k : Nat) (pubKey : Res ε Bytes) (sign : Bytes → Res ε Bytes) (verify : Bytes → Bytes → Res ε Bool) : Prop where
  /-- The public key is the uncompressed form of `k G`. -/
  pub : ∃ out, pubKey = .ok out ∧ Uncompressed (k • G) out
  /-- Exactly the valid signatures of the Keccak-256 hash are accepted. -/
  accepts : ∀ m z s, Keccak.IsHash m z → s.length = 64 → ∃ b, verify m s = .ok b ∧
    (b = true ↔ Valid (be z) (be (s.take 32)) (be (s.drop 32)) (k • G))
  /-- Signatures are valid for that hash, have the lower of the two possible `s`, verify, and give back the public key. -/
  signs : ∀ m z sig, Keccak.IsHash m z → sign m = .ok sig → ∃ r s v, sig = r ++ s ++ [v] ∧ r.length = 32 ∧ s.length = 32 ∧
    (v = 0 ∨ v = 1) ∧ be s ≤ n / 2 ∧ Valid (be z) (be r) (be s) (k • G) ∧ verify m (r ++ s) = .ok true ∧
    Recovers (be z) (be r) (be s) v.toNat (k • G)

/-- The operations of a Cardano key with scalar `k` and chain code `c`; `ok` is the test of the second half of a signature. -/
structure CardanoActs {ε} (ok : Nat → Bool) (k : Nat) (c : Bytes) (pubKey : Res ε Bytes) (sign : Bytes → Res ε Bytes)
    (verify : Bytes → Bytes → Res ε Bool) : Prop where
  /-- The public key is the encoding of `k B` and the chain code. -/
  pub : ∃ a, pubKey = .ok (a ++ c) ∧ a.length = 32 ∧ c.length = 32 ∧ Encodes (k • B) a
  /-- Exactly the valid signatures are accepted. -/
  accepts : ∀ m s, m.length < 2 ^ 120 → s.length = 64 → ∃ b, verify m s = .ok b ∧
    (b = true ↔ ok (le (s.drop 32)) = true ∧ EdValid (k • B) m (s.take 32) (s.drop 32))
  /-- There always is a signature; it is valid, has the least second half, and verifies. -/
  signs : ∀ m, m.length < 2 ^ 120 → ∃ R S, sign m = .ok (R ++ S) ∧ R.length = 32 ∧ S.length = 32 ∧ le S < l ∧
    EdValid (k • B) m R S ∧ verify m (R ++ S) = .ok true

theorem SecpActs.map {ε ε'} {k : Nat} {pubKey : Res ε Bytes} {sign : Bytes → Res ε Bytes} {verify : Bytes → Bytes → Res ε Bool}
    (h : SecpActs k pubKey sign verify) {pubKey' : Res ε' Bytes} {sign' : Bytes → Res ε' Bytes} {verify' : Bytes → Bytes → Res ε' Bool}
    (f : ε → ε') (h1 : pubKey' = pubKey.mapErr f) (h2 : ∀ m, sign' m = (sign m).mapErr f)
    (h3 : ∀ m s, verify' m s = (verify m s).mapErr f) : SecpActs k pubKey' sign' verify' := by
  constructor
  · obtain ⟨o, e, hu⟩ := h.pub
    exact ⟨o, by rw [h1, e]; rfl, hu⟩
  · intro m z s hz hs
    obtain ⟨b, e, hb⟩ := h.accepts m z s hz hs
    exact ⟨b, by rw [h3, e]; rfl, hb⟩
  · intro m z sig hz e
    rw [h2, Res.mapErr_eq_ok] at e
    obtain ⟨r, s, v, e1, l1, l2, hv, lo, hval, hver, hrec⟩ := h.signs m z sig hz e
    exact ⟨r, s, v, e1, l1, l2, hv, lo, hval, by rw [h3, hver]; rfl, hrec⟩

theorem CardanoActs.map {ε ε'} {ok : Nat → Bool} {k : Nat} {c : Bytes} {pubKey : Res ε Bytes} {sign : Bytes → Res ε Bytes}
    {verify : Bytes → Bytes → Res ε Bool} (h : CardanoActs ok k c pubKey sign verify) {pubKey' : Res ε' Bytes}
    {sign' : Bytes → Res ε' Bytes} {verify' : Bytes → Bytes → Res ε' Bool}
    (f : ε → ε') (h1 : pubKey' = pubKey.mapErr f) (h2 : ∀ m, sign' m = (sign m).mapErr f)
    (h3 : ∀ m s, verify' m s = (verify m s).mapErr f) : CardanoActs ok k c pubKey' sign' verify' := by
  constructor
  · obtain ⟨o, e, hu⟩ := h.pub
    exact ⟨o, by rw [h1, e]; rfl, hu⟩
  · intro m s hm hs
    obtain ⟨b, e, hb⟩ := h.accepts m s hm hs
    exact ⟨b, by rw [h3, e]; rfl, hb⟩
  · intro m hm
    obtain ⟨R, S, e, l1, l2, lo, hval, hver⟩ := h.signs m hm
    exact ⟨R, S, by rw [h2, e]; rfl, l1, l2, lo, hval, by rw [h3, hver]; rfl⟩

/-! ### BIP-32 -/

theorem hmac_iff {k m d : Bytes} (hk : k.length < 2 ^ 123) (hm : m.length < 2 ^ 123) : Hmac512 k m d ↔ d = Real.hashes.hmacSha512 k m := by
  rw [Hmac512, ← C82_hmac _ _ _ hk hm]
  exact eq_comm

def node (x : XPrv) : Node := ⟨x.key.val, x.chaincode.val⟩

theorem small {a : Nat} (h : a < 2 ^ 10) : a < 2 ^ 123 := lt_trans h (by decide)

theorem halves_iff {nonce : Nonces} {tries : Nat} {x : XPrv} {i : UInt32} {v : Nat} {c : Bytes} :
    Halves (node x) i v c ↔ ∃ il : Bytes, il.length = 32 ∧ c.length = 32 ∧ Spec.Bip32.StepHash Real.hashes (curve nonce tries) x i (il ++ c) ∧
      v = be il := by
  have lc : x.chaincode.val.length < 2 ^ 123 := small (by rw [x.chaincode.2]; decide)
  constructor
  · rintro ⟨d, ib, il, hib, hd, l1, l2, hh, hv⟩
    refine ⟨il, l1, l2, ?_, hv⟩
    rcases hd with ⟨hi, kb, hkb, rfl⟩ | ⟨hi, pb, hpb, rfl⟩
    · exact ⟨kb, ib, hkb, hib, .inl ⟨hi, (hmac_iff lc (small (by simp [hkb.1, hib.1]))).mp hh⟩⟩
    · have e := Real.Secp256k1.compressed_unique hpb (Real.Secp256k1.serCompressed_eq nonce tries x.key)
      subst e
      exact ⟨_, ib, serSecret_isBe x.key, hib, .inr ⟨hi, (hmac_iff lc (small (by simp [hib.1, (curve nonce tries).serCompressed_len]))).mp hh⟩⟩
  · rintro ⟨il, l1, l2, ⟨kb, ib, hkb, hib, hI⟩, hv⟩
    rcases hI with ⟨hi, hI⟩ | ⟨hi, hI⟩
    · refine ⟨_, ib, il, hib, .inl ⟨hi, kb, hkb, rfl⟩, l1, l2, ?_, hv⟩
      exact (hmac_iff lc (small (by simp [hkb.1, hib.1]))).mpr hI
    · refine ⟨_, ib, il, hib, .inr ⟨hi, _, Real.Secp256k1.serCompressed_eq nonce tries x.key, rfl⟩, l1, l2, ?_, hv⟩
      exact (hmac_iff lc (small (by simp [hib.1, (curve nonce tries).serCompressed_len]))).mpr hI

/-- Without an exceptional step, the library derives the key of BIP-32. -/
theorem derive_standard (nonce : Nonces) (tries : Nat) (x : XPrv) (is : List UInt32) (hd : x.depth.toNat + is.length ≤ 255)
    (hr : Regular (node x) is) : ∃ y, Spec.Bip32.Walk Real.hashes (curve nonce tries) x is y ∧ Derive (node x) is (node y) := by
  induction is generalizing x with
  | nil => exact ⟨x, .nil x, .nil _⟩
  | cons i is ih =>
    rw [List.length_cons] at hd
    obtain ⟨il, ir, l1, l2, hI⟩ := stepHash_exists Real.hashes (curve nonce tries) x i
    have hh : Halves (node x) i (be il) ir := (halves_iff (nonce := nonce) (tries := tries)).mpr ⟨il, l1, l2, hI, rfl⟩
    have hx : ¬ Exceptional (node x) i := hr [] i is _ rfl (.nil _)
    have hx : ¬ (be il = 0 ∨ n ≤ be il ∨ (be il + x.key.val) % n = 0) := fun h => hx ⟨_, _, hh, h⟩
    rw [not_or, not_or, not_le] at hx
    obtain ⟨h0, hn, hz⟩ := hx
    obtain ⟨y, hy, -, -, -⟩ := C26_child Real.hashes (curve nonce tries) x i il ir (by omega) l1 l2 hI (Nat.pos_of_ne_zero h0) hn hz
    obtain ⟨y', hy', jl, jr, g1, g2, gI, -, -, k1, k2, k3, -⟩ := derive_child (by omega) l1 l2 hI (Nat.pos_of_ne_zero h0) hn hz
    obtain ⟨rfl, rfl⟩ := split_unique l1 g1 (stepHash_unique hI gI)
    have hc : Standard.Child (node x) i (node y') := by
      refine ⟨be il, ?_, hn, k1, ?_⟩
      · rw [show (node y').c = ir from k2]; exact hh
      · rw [show (node y').k = _ from k1]; exact hz
    obtain ⟨z, hw, hs⟩ := ih y' (by omega) fun before j after z e hb => hr (i :: before) j after z (by rw [e]; rfl) (.cons hc hb)
    exact ⟨z, .cons ((derive_ok ..).mp hy') hw, .cons hc hs⟩

/-- The root of a seed is its master key. -/
theorem master_of_root {seed : Bytes} {x : XPrv} (hs : seed.length = 64) (h : Spec.Bip32.Root Real.hashes seed x) : Master seed (node x) := by
  obtain ⟨il, ir, l1, l2, hh, hk, hc, -⟩ := h
  have e : (node x).c = ir := hc
  refine ⟨il, l1, by rw [e]; exact l2, ?_, hk.2.symm, x.key.2.1, by rw [← order_eq]; exact x.key.2.2⟩
  rw [hmac_iff (by decide +kernel) (small (by omega)), e]
  exact hh.symm

/-- C83, a key: a Bitcoin or Ethereum key made from a seed acts, at every path of its network, with the secret that BIP-32 derives from the
seed's master key, unless a step of the path is exceptional. -/
theorem C83_secp (nonce : Nonces) (tries : Nat) (Ed : Cardano.Ed) (net : Net) (seed d : Bytes) (k : KeyObj) (hn : net ≠ .cardano)
    (hd : (factoryOf Real.hashes (curve nonce tries) Ed net).keyDataFromSeed seed = .ok d)
    (hk : (factoryOf Real.hashes (curve nonce tries) Ed net).keyFromData d = .ok k) :
    ∃ x, Master seed x ∧ ∀ p, Accepts net p → Regular x (full p) → ∃ y, Derive x (full p) y ∧
      SecpActs y.k (k.pubKey p) (fun m => k.sign m p) (fun m s => k.verify m s p) := by
  have hs : seed.length = 64 := by
    by_contra hc
    rw [C30_seed_size _ _ _ net seed hc] at hd
    cases hd
  obtain ⟨root, hr, -, h⟩ := C31_secp _ _ Ed net seed d k hn hd hk
  have h0 : root.depth = 0 := by obtain ⟨_, _, _, _, _, _, _, h0, -⟩ := hr; exact h0
  refine ⟨node root, master_of_root hs hr, fun p hp hreg => ?_⟩
  obtain ⟨y, hw, hy⟩ := derive_standard nonce tries root (full p) (by simp [h0, full]) hreg
  refine ⟨node y, hy, ?_⟩
  have hpub := ((h p).1 _).mpr ⟨hp, y, hw, rfl⟩
  rcases C58_key nonce tries Ed net seed d k hn hd hk p with ⟨root', y', hr', hw', -, ha⟩ | ⟨e, h1, -⟩
  · obtain ⟨o, ho, hu⟩ := ha.pub
    rw [hpub] at ho
    cases ho
    have e := Real.Secp256k1.smul_inj y.key.2.2 y'.key.2.2
      (Real.Secp256k1.uncompressed_inj (Real.Secp256k1.ser_eq nonce tries y.key) hu)
    rw [← e] at ha
    refine ⟨ha.pub, fun m z s hz hs => ?_, fun m z sig hz hsig => ?_⟩
    · obtain rfl := (C82_keccak256 m z).mpr hz
      exact ha.accepts m s hs
    · obtain rfl := (C82_keccak256 m z).mpr hz
      exact ha.signs m sig hsig
  · rw [hpub] at h1
    cases h1

/-! ### BIP32-Ed25519 -/

theorem edValid_iff {A : Ed25519.E.Point} {m R S : Bytes} (hm : m.length < 2 ^ 120) (hR : R.length = 32) :
    Ed25519.Valid Real.hashes A m R S ↔ EdValid A m R S := by
  have hs : ∀ a : Bytes, Encodes A a → 8 * (R ++ a ++ m).length < 2 ^ 128 := by
    rintro a ⟨x, y, -, ha⟩
    have : a.length = 32 := by rw [← List.length_reverse]; exact ha.1
    simp only [List.length_append]
    omega
  constructor
  · rintro ⟨P, a, h1, h2, h3⟩
    exact ⟨P, a, _, h1, h2, (C82_sha512 _ _ (hs a h2)).mp rfl, h3⟩
  · rintro ⟨P, a, h, h1, h2, h3, h4⟩
    obtain rfl := (C82_sha512 _ _ (hs a h2)).mpr h3
    exact ⟨P, a, h1, h2, h4⟩

theorem edDerive_of_walk {x y : Cardano.XPrv} {is : List UInt32} (h : Ed25519.Walk Real.hashes x is y) :
    EdDerive ⟨kl x, kr x, cc x⟩ is ⟨kl y, kr y, cc y⟩ := by
  induction h with
  | nil => exact .nil _
  | @cons x i y is z hc _ ih =>
    refine .cons ?_ ih
    obtain ⟨a, b, c, a', b', c', mz, mi, hx, hy, hm, h1, h2, h3⟩ := hc
    obtain ⟨rfl, rfl, rfl⟩ := Real.Ed25519.parts_unique (Real.Ed25519.parts x) hx
    obtain ⟨rfl, rfl, rfl⟩ := Real.Ed25519.parts_unique (Real.Ed25519.parts y) hy
    have lm : mz.length < 2 ^ 10 ∧ mi.length < 2 ^ 10 := by
      obtain ⟨ib, hib, h⟩ := hm
      have li : ib.length = 4 := by rw [← List.length_reverse]; exact hib.1
      rcases h with ⟨-, rfl, rfl⟩ | ⟨-, p, ⟨_, _, -, hp⟩, rfl, rfl⟩
      · simp [hx.2.1, hx.2.2.1, li]
      · have lp : p.length = 32 := by rw [← List.length_reverse]; exact hp.1
        simp [lp, li]
    have lc : (cc x).length < 2 ^ 123 := small (by rw [hx.2.2.2]; decide)
    refine ⟨mz, mi, _, _, hm, (hmac_iff lc (small lm.1)).mpr rfl, (hmac_iff lc (small lm.2)).mpr rfl, ⟨?_, h1⟩, ⟨?_, h2⟩, h3⟩
    · rw [List.length_reverse]; exact hy.2.1
    · rw [List.length_reverse]; exact hy.2.2.1

/-- C83, a key: a Cardano key made from a seed acts, at every path of its network, with the key that BIP32-Ed25519 derives from the root. -/
theorem C83_cardano (C : Secp.Curve) (ok : Nat → Bool) (hok : ∀ s, s < l → ok s = true) (seed d : Bytes) (k : KeyObj)
    (hd : (factoryOf Real.hashes C (ed Real.hashes ok) .cardano).keyDataFromSeed seed = .ok d)
    (hk : (factoryOf Real.hashes C (ed Real.hashes ok) .cardano).keyFromData d = .ok k) :
    ∃ x, EdMaster seed x ∧ ∀ p, Accepts .cardano p → ∃ y, EdDerive x (full p) y ∧
      CardanoActs ok (le y.kl) y.c (k.pubKey p) (fun m => k.sign m p) (fun m s => k.verify m s p) := by
  have hs : seed.length = 64 := by
    by_contra hc
    rw [C30_seed_size _ _ _ .cardano seed hc] at hd
    cases hd
  obtain ⟨d', b0, b31, hd', ld, -, -, h1, h2, h3⟩ := C30_from_seed Real.hashes C (ed Real.hashes ok) seed hs
  rw [hd] at hd'
  cases hd'
  obtain ⟨root, hr, -⟩ := cardano_key Real.hashes C (ed Real.hashes ok) d k hk
  have lh : (Real.hashes.sha512 (seed.take 32)).length = 64 := Real.hashes.sha512_len _
  have hpt : Ed25519.Parts root ([b0] ++ ((Real.hashes.sha512 (seed.take 32)).drop 1).take 30 ++ [b31])
      ((Real.hashes.sha512 (seed.take 32)).drop 32) (seed.drop 32) := by
    refine ⟨by rw [hr, h1], by simp [lh], by simp [lh], by simp [hs]⟩
  obtain ⟨e1, e2, e3⟩ := Real.Ed25519.parts_unique (Real.Ed25519.parts root) hpt
  refine ⟨⟨kl root, kr root, cc root⟩, ⟨hs, _, b0, b31, (C82_sha512 _ _ ?_).mp rfl, e1, h2, h3, e2, e3⟩, fun p hp => ?_⟩
  · rw [List.length_take, hs]; decide
  obtain ⟨root', y, a, b, c, hr', hw, hy, ha⟩ := C63_loaded Real.hashes C ok hok d k hk p hp
  obtain rfl : root' = root := Subtype.ext (hr'.trans hr.symm)
  obtain ⟨rfl, rfl, rfl⟩ := Real.Ed25519.parts_unique (Real.Ed25519.parts y) hy
  refine ⟨_, edDerive_of_walk hw, ha.pub, fun m s hm hs => ?_, fun m hm => ?_⟩
  · obtain ⟨b, hb, hv⟩ := ha.accepts m s hs
    exact ⟨b, hb, by rw [hv, edValid_iff hm (by simp [hs])]⟩
  · obtain ⟨R, S, h1, h2, h3, h4, h5, h6⟩ := ha.signs m
    exact ⟨R, S, h1, h2, h3, h4, (edValid_iff hm h2).mp h5, h6⟩

/-! ### Wallets -/

/-- The keychain's keys are those that the documents give for the seed. -/
structure FromStandard (ok : Nat → Bool) (seed : Bytes) (kc : Keychain) : Prop where
  /-- Bitcoin. -/
  bitcoin : kc.hasNetwork 0x80000000 = true → ∃ x, Master seed x ∧ ∀ p, Accepts .bitcoin p → Regular x (full p) → ∃ y, Derive x (full p) y ∧
    SecpActs y.k (kc.pubKey 0x80000000 p) (fun m => kc.sign 0x80000000 m p) (fun m s => kc.verify 0x80000000 m s p)
  /-- Ethereum. -/
  ethereum : kc.hasNetwork 0x8000003c = true → ∃ x, Master seed x ∧ ∀ p, Accepts .ethereum p → Regular x (full p) → ∃ y, Derive x (full p) y ∧
    SecpActs y.k (kc.pubKey 0x8000003c p) (fun m => kc.sign 0x8000003c m p) (fun m s => kc.verify 0x8000003c m s p)
  /-- Cardano. -/
  cardano : kc.hasNetwork 0x80000717 = true → ∃ x, EdMaster seed x ∧ ∀ p, Accepts .cardano p → ∃ y, EdDerive x (full p) y ∧
    CardanoActs ok (le y.kl) y.c (kc.pubKey 0x80000717 p) (fun m => kc.sign 0x80000717 m p) (fun m s => kc.verify 0x80000717 m s p)

theorem keychain_standard {D : Base64.Decoder} {nonce : Nonces} {tries : Nat} {ok : Nat → Bool} (hok : ∀ s, s < l → ok s = true)
    {it : Iter (Network × Bytes)} {M' : Manager} (hM' : BuiltIn Real.hashes (curve nonce tries) (ed Real.hashes ok) M') {b : Bytes} {p : Str}
    {c : Content} {seed : Bytes} (hc : Holds (realEnv D) b p c) {ls : List (Network × Bytes)} (hl : getKeysData (realEnv D) it b p = .ok ls)
    (he : Exports Real.hashes (curve nonce tries) (ed Real.hashes ok) seed ls) :
    ((M'.hasNetwork 0x8000003c = true → 0x8000003c ∈ ls.map Prod.fst → ∀ x, Master seed x → Regular x [0x8000002C, 0x8000003c]) →
      ∃ kc, M'.keychainFromData (realEnv D) it b p = .ok kc) ∧
    ∀ kc, M'.keychainFromData (realEnv D) it b p = .ok kc →
      FromStandard ok seed kc ∧ ∀ n, kc.hasNetwork n = true ↔ M'.hasNetwork n = true ∧ n ∈ ls.map Prod.fst := by
  obtain ⟨ls', hl', -, hmem⟩ := C41_keys_data _ it b p c hc
  rw [hl] at hl'
  cases hl'
  have hfst : ∀ n, n ∈ ls.map Prod.fst ↔ c.keys n ≠ none := by
    intro n
    rw [List.mem_map]
    constructor
    · rintro ⟨⟨n', d⟩, hm, rfl⟩
      rw [(hmem n' d).mp hm]
      nofun
    · intro hne
      obtain ⟨d, hd⟩ := Option.ne_none_iff_exists'.mp hne
      exact ⟨(n, d), (hmem n d).mpr hd, rfl⟩
  obtain ⟨ho, hs, -⟩ := C40_open (realEnv D) it M' hM'.honest b p c hc
  constructor
  · intro heth
    refine ho fun n f d hf hd => ?_
    have hx := he n d ((hmem n d).mpr hd)
    rcases hM'.factory hf with ⟨rfl, rfl⟩ | ⟨rfl, rfl⟩ | ⟨rfl, rfl⟩
    · rcases hx with ⟨-, h, -⟩ | ⟨e, -⟩
      · obtain ⟨d', _, _, a, -, -, ⟨k, hk⟩, -⟩ := C30_from_seed Real.hashes (curve nonce tries) (ed Real.hashes ok) seed
          (C81_cardano _ _ _ _ _ h).1
        rw [h] at a
        cases a
        exact ⟨k, hk⟩
      · exact absurd e (by decide)
    · rcases hx with ⟨e, -⟩ | ⟨-, ⟨root, hr, -⟩, h⟩
      · exact absurd e (by decide)
      · have h60 := h .ethereum nofun
        have hs : seed.length = 64 := by
          by_contra hn
          rw [C30_seed_size _ _ _ .ethereum seed hn] at h60
          cases h60
        have h0 : root.depth = 0 := by obtain ⟨_, _, _, _, _, _, _, h0, -⟩ := hr; exact h0
        have hreg := heth (Option.isSome_iff_exists.mpr ⟨_, hf⟩) ((hfst _).mpr (by rw [hd]; nofun)) _ (master_of_root hs hr)
        obtain ⟨y, hw, -⟩ := derive_standard nonce tries root _ (by simp [h0]) hreg
        exact ((C31_load _ _ (ed Real.hashes ok) seed d).2 h60 root hr).mpr ⟨y, hw⟩
    · rcases hx with ⟨e, -⟩ | ⟨-, -, h⟩
      · exact absurd e (by decide)
      · exact (C31_load _ _ (ed Real.hashes ok) seed d).1 (h .bitcoin nofun)
  · intro kc hkc
    obtain ⟨-, hshow⟩ := hs kc hkc
    have hhas : ∀ n, kc.hasNetwork n = true → ∃ f d k, M'.getKeyFactory n = some f ∧ c.keys n = some d ∧ f.keyFromData d = .ok k ∧ Acts kc n k := by
      intro n hn
      have h := hshow n
      cases hf : M'.getKeyFactory n with
      | none => rw [hf] at h; rw [show kc.hasNetwork n = false from h] at hn; cases hn
      | some f =>
        cases hd : c.keys n with
        | none => rw [hf, hd] at h; rw [show kc.hasNetwork n = false from h] at hn; cases hn
        | some d =>
          rw [hf, hd] at h
          obtain ⟨k, hk, ha⟩ := h
          exact ⟨f, d, k, rfl, rfl, hk, ha⟩
    refine ⟨⟨fun hn => ?_, fun hn => ?_, fun hn => ?_⟩, fun n => ⟨fun hn => ?_, fun ⟨h1, h2⟩ => ?_⟩⟩
    · obtain ⟨f, d, k, hf, hd, hk, -, ha⟩ := hhas _ hn
      rcases hM'.factory hf with ⟨e, -⟩ | ⟨e, -⟩ | ⟨-, rfl⟩
      · exact absurd e (by decide)
      · exact absurd e (by decide)
      rcases he _ _ ((hmem _ _).mpr hd) with ⟨e, -⟩ | ⟨-, -, h⟩
      · exact absurd e (by decide)
      obtain ⟨x, hx, h⟩ := C83_secp nonce tries (ed Real.hashes ok) .bitcoin seed d k nofun (h .bitcoin nofun) hk
      refine ⟨x, hx, fun p hp hr => ?_⟩
      obtain ⟨y, hy, hact⟩ := h p hp hr
      exact ⟨y, hy, hact.map _ (ha p).1 (ha p).2.1 (ha p).2.2⟩
    · obtain ⟨f, d, k, hf, hd, hk, -, ha⟩ := hhas _ hn
      rcases hM'.factory hf with ⟨e, -⟩ | ⟨-, rfl⟩ | ⟨e, -⟩
      · exact absurd e (by decide)
      rotate_left
      · exact absurd e (by decide)
      rcases he _ _ ((hmem _ _).mpr hd) with ⟨e, -⟩ | ⟨-, -, h⟩
      · exact absurd e (by decide)
      obtain ⟨x, hx, h⟩ := C83_secp nonce tries (ed Real.hashes ok) .ethereum seed d k nofun (h .ethereum nofun) hk
      refine ⟨x, hx, fun p hp hr => ?_⟩
      obtain ⟨y, hy, hact⟩ := h p hp hr
      exact ⟨y, hy, hact.map _ (ha p).1 (ha p).2.1 (ha p).2.2⟩
    · obtain ⟨f, d, k, hf, hd, hk, -, ha⟩ := hhas _ hn
      rcases hM'.factory hf with ⟨-, rfl⟩ | ⟨e, -⟩ | ⟨e, -⟩
      rotate_left
      · exact absurd e (by decide)
      · exact absurd e (by decide)
      rcases he _ _ ((hmem _ _).mpr hd) with ⟨-, h, -⟩ | ⟨e, -⟩
      rotate_left
      · exact absurd e (by decide)
      obtain ⟨x, hx, h⟩ := C83_cardano (curve nonce tries) ok hok seed d k h hk
      refine ⟨x, hx, fun p hp => ?_⟩
      obtain ⟨y, hy, hact⟩ := h p hp
      exact ⟨y, hy, hact.map _ (ha p).1 (ha p).2.1 (ha p).2.2⟩
    · obtain ⟨f, d, k, hf, hd, -⟩ := hhas n hn
      exact ⟨Option.isSome_iff_exists.mpr ⟨f, hf⟩, (hfst n).mpr (by rw [hd]; nofun)⟩
    · obtain ⟨f, hf⟩ := Option.isSome_iff_exists.mp h1
      obtain ⟨d, hd⟩ := Option.ne_none_iff_exists'.mp ((hfst n).mp h2)
      have h := hshow n
      rw [show M'.getKeyFactory n = some f from hf, hd] at h
      obtain ⟨k, -, ha, -⟩ := h
      exact ha

/-- C83: a wallet made from a seed, after any history of password changes and added networks, opened by any manager: it opens unless
the path m/44'/60' has an exceptional step, and has the keys that the documents give for the seed, on the networks that it was made with or
that were added and that the manager knows. -/
theorem C83_seed (D : Base64.Decoder) (nonce : Nonces) (tries : Nat) (ok : Nat → Bool) (hok : ∀ s, s < l → ok s = true)
    (itF : Iter (Network × Factory)) (itK it : Iter (Network × Bytes)) (M M' : Manager)
    (hM : BuiltIn Real.hashes (curve nonce tries) (ed Real.hashes ok) M) (hM' : BuiltIn Real.hashes (curve nonce tries) (ed Real.hashes ok) M')
    (r r' : Rng) (b0 b : Bytes) (p0 p : Str) (evs : List Event) (hrun : Run (realEnv D) (b0, p0) evs (b, p))
    (hev : ∀ M'' n, Event.added M'' n ∈ evs → BuiltIn Real.hashes (curve nonce tries) (ed Real.hashes ok) M'')
    (seed : Bytes) (h : (M.keychainDataFromSeed (realEnv D) itF itK seed p0).run r = (.ok b0, r')) :
    ((∀ x, Master seed x → Regular x [0x8000002C, 0x8000003c]) → ∃ kc, M'.keychainFromData (realEnv D) it b p = .ok kc) ∧
    ∀ kc, M'.keychainFromData (realEnv D) it b p = .ok kc → FromStandard ok seed kc ∧
      ∀ n, kc.hasNetwork n = true ↔ M'.hasNetwork n = true ∧ (M.hasNetwork n = true ∨ ∃ M'', Event.added M'' n ∈ evs) := by
  have hM2 := hM
  have hev2 := hev
  rw [← realEnv_H D] at hM2 hev2
  obtain ⟨keys, hh, -⟩ := (C44_created _ (realEnv_correct D) itF itK M hM.built r r' b0 b p0 p evs hrun).1 seed h
  obtain ⟨ls, hl, he, hm⟩ := (C81_wallet _ (realEnv_correct D) _ _ itF itK it M hM2 r r' b0 b p0 p evs hrun hev2).1 seed h
  rw [realEnv_H] at he
  obtain ⟨g1, g2⟩ := keychain_standard hok hM' hh hl he
  refine ⟨fun h => g1 fun _ _ => h, fun kc hkc => ?_⟩
  obtain ⟨q1, q2⟩ := g2 kc hkc
  exact ⟨q1, fun n => (q2 n).trans (and_congr_right fun _ => hm n)⟩

/-- C83: the same for a wallet made from a phrase, with the seed that BIP-39 gives for the phrase. -/
theorem C83_phrase (D : Base64.Decoder) (nonce : Nonces) (tries : Nat) (ok : Nat → Bool) (hok : ∀ s, s < l → ok s = true)
    (itF : Iter (Network × Factory)) (itK it : Iter (Network × Bytes)) (M M' : Manager)
    (hM : BuiltIn Real.hashes (curve nonce tries) (ed Real.hashes ok) M) (hM' : BuiltIn Real.hashes (curve nonce tries) (ed Real.hashes ok) M')
    (r r' : Rng) (b0 b : Bytes) (p0 p : Str) (evs : List Event) (hrun : Run (realEnv D) (b0, p0) evs (b, p))
    (hev : ∀ M'' n, Event.added M'' n ∈ evs → BuiltIn Real.hashes (curve nonce tries) (ed Real.hashes ok) M'')
    (text : Str) (lang : Option Language) (ht : (Str.utf8 text).length < 2 ^ 123)
    (h : (M.keychainDataFromMnemonic (realEnv D) itF itK text p0 lang).run r = (.ok b0, r')) :
    ∃ seed, Standard.Seed (Str.utf8 text) seed ∧
    ((∀ x, Master seed x → Regular x [0x8000002C, 0x8000003c]) → ∃ kc, M'.keychainFromData (realEnv D) it b p = .ok kc) ∧
    ∀ kc, M'.keychainFromData (realEnv D) it b p = .ok kc → FromStandard ok seed kc ∧
      ∀ n, kc.hasNetwork n = true ↔ M'.hasNetwork n = true ∧ (M.hasNetwork n = true ∨ ∃ M'', Event.added M'' n ∈ evs) := by
  have hM2 := hM
  have hev2 := hev
  rw [← realEnv_H D] at hM2 hev2
  obtain ⟨keys, hh, -⟩ := (C44_created _ (realEnv_correct D) itF itK M hM.built r r' b0 b p0 p evs hrun).2 text lang h
  obtain ⟨ls, hl, he, hm⟩ := (C81_wallet _ (realEnv_correct D) _ _ itF itK it M hM2 r r' b0 b p0 p evs hrun hev2).2 text lang h
  rw [realEnv_H] at he
  obtain ⟨g1, g2⟩ := keychain_standard hok hM' hh hl he
  refine ⟨phraseSeed Real.hashes text, ?_, fun h => g1 fun _ _ => h, fun kc hkc => ?_⟩
  · have e : Standard.ascii "mnemonic" = [109, 110, 101, 109, 111, 110, 105, 99] := by decide +kernel
    rw [Standard.Seed, e, ← C82_pbkdf2 _ _ _ _ _ ht (by decide) (by decide) (by decide), phraseSeed]
  obtain ⟨q1, q2⟩ := g2 kc hkc
  exact ⟨q1, fun n => (q2 n).trans (and_congr_right fun _ => hm n)⟩

/-! ### One answer -/

theorem halves_unique {x : Node} {i : UInt32} {v v' : Nat} {c c' : Bytes} (hx : x.c.length = 32) (h : Halves x i v c) (h' : Halves x i v' c') :
    v = v' ∧ c = c' := by
  obtain ⟨d, ib, il, hib, hd, l1, l2, hh, hv⟩ := h
  obtain ⟨d', ib', il', hib', hd', l1', l2', hh', hv'⟩ := h'
  obtain rfl := Bytes.isBe_unique hib hib'
  have lc : x.c.length < 2 ^ 123 := small (by omega)
  have hdd : d = d' ∧ d.length < 2 ^ 123 := by
    rcases hd with ⟨hi, kb, hkb, rfl⟩ | ⟨hi, pb, hpb, rfl⟩ <;> rcases hd' with ⟨hi', kb', hkb', rfl⟩ | ⟨hi', pb', hpb', rfl⟩
    · obtain rfl := Bytes.isBe_unique hkb hkb'
      exact ⟨rfl, small (by simp [hkb.1, hib.1])⟩
    · omega
    · omega
    · obtain rfl := Real.Secp256k1.compressed_unique hpb hpb'
      refine ⟨rfl, small ?_⟩
      obtain ⟨_, _, _, -, bx, hbx, rfl⟩ := hpb
      simp [hbx.1, hib.1]
  obtain ⟨rfl, ld⟩ := hdd
  rw [hmac_iff lc ld] at hh hh'
  obtain ⟨rfl, rfl⟩ := split_unique l1 l1' (hh.trans hh'.symm)
  exact ⟨hv.trans hv'.symm, rfl⟩

theorem child_det {x y y' : Node} {i : UInt32} (hx : x.c.length = 32) (h : Standard.Child x i y) (h' : Standard.Child x i y') :
    y = y' ∧ y.c.length = 32 := by
  obtain ⟨v, h1, -, h2, -⟩ := h
  obtain ⟨v', h1', -, h2', -⟩ := h'
  obtain ⟨rfl, e⟩ := halves_unique hx h1 h1'
  obtain ⟨k, c⟩ := y
  obtain ⟨k', c'⟩ := y'
  obtain ⟨_, _, _, _, _, _, l2, _⟩ := h1
  refine ⟨?_, l2⟩
  rw [Node.mk.injEq]
  exact ⟨h2.trans h2'.symm, e⟩

/-- C83: phrase, seed, master key and path determine the key; so do they for Cardano. -/
theorem C83_determined :
    (∀ phrase seed seed', phrase.length < 2 ^ 123 → Standard.Seed phrase seed → Standard.Seed phrase seed' → seed = seed' ∧ seed.length = 64) ∧
    (∀ seed x x', seed.length = 64 → Master seed x → Master seed x' → x = x') ∧
    (∀ seed x is y y', Master seed x → Derive x is y → Derive x is y' → y = y') ∧
    (∀ seed x x', EdMaster seed x → EdMaster seed x' → x = x') ∧
    (∀ seed x is y y', EdMaster seed x → EdDerive x is y → EdDerive x is y' → y = y') := by
  refine ⟨?_, ?_, ?_, ?_, ?_⟩
  · intro phrase seed seed' hp h h'
    have e : Standard.ascii "mnemonic" = [109, 110, 101, 109, 111, 110, 105, 99] := by decide +kernel
    rw [Standard.Seed, e, ← C82_pbkdf2 _ _ _ _ _ hp (by decide) (by decide) (by decide)] at h h'
    refine ⟨h.symm.trans h', ?_⟩
    rw [← h]
    exact Real.hashes.pbkdf2_len _ _ _ _
  · rintro seed ⟨k, c⟩ ⟨k', c'⟩ hs ⟨il, l1, l2, h, e, -⟩ ⟨il', l1', l2', h', e', -⟩
    rw [hmac_iff (by decide +kernel) (small (by omega))] at h h'
    obtain ⟨rfl, e2⟩ := split_unique l1 l1' (h.trans h'.symm)
    rw [Node.mk.injEq]
    exact ⟨e.trans e'.symm, e2⟩
  · rintro seed x is y y' ⟨_, -, hx, -⟩ h
    clear seed
    induction h generalizing y' with
    | nil => intro h'; cases h'; rfl
    | cons hc _ ih =>
      intro h'
      cases h' with
      | cons hc' hd' =>
        obtain ⟨rfl, hl⟩ := child_det hx hc hc'
        exact ih y' hl hd'
  · rintro seed ⟨a, b, c⟩ ⟨a', b', c'⟩ ⟨hs, h, b0, b31, hh, e1, e2, e3, e4, e5⟩ ⟨-, h', b0', b31', hh', e1', e2', e3', e4', e5'⟩
    have hlen : 8 * (seed.take 32).length < 2 ^ 128 := by rw [List.length_take, hs]; decide
    obtain rfl := ((C82_sha512 _ _ hlen).mpr hh).symm.trans ((C82_sha512 _ _ hlen).mpr hh')
    obtain rfl : b0 = b0' := UInt8.toNat_inj.mp (e2.trans e2'.symm)
    obtain rfl : b31 = b31' := UInt8.toNat_inj.mp (e3.trans e3'.symm)
    rw [EdNode.mk.injEq]
    exact ⟨e1.trans e1'.symm, e4.trans e4'.symm, e5.trans e5'.symm⟩
  · rintro seed x is y y' ⟨hs, h, b0, b31, hh, e1, -, -, e4, e5⟩ hd
    have hlen : 8 * (seed.take 32).length < 2 ^ 128 := by rw [List.length_take, hs]; decide
    have lh : h.length = 64 := by
      rw [← (C82_sha512 _ _ hlen).mpr hh]
      exact Real.hashes.sha512_len _
    have hx : x.kl.length = 32 ∧ x.kr.length = 32 ∧ x.c.length = 32 := by
      rw [e1, e4, e5]
      simp [lh, hs]
    clear hs hh e1 e4 e5 hlen lh
    induction hd generalizing y' with
    | nil => intro h'; cases h'; rfl
    | @cons x i z is y hc _ ih =>
      intro h'
      cases h' with
      | @cons _ _ z' _ _ hc' hd' =>
        obtain ⟨mz, mi, w, wi, ⟨ib, hib, hm⟩, g1, g2, g3, g4, g5⟩ := hc
        obtain ⟨mz', mi', w', wi', ⟨ib', hib', hm'⟩, g1', g2', g3', g4', g5'⟩ := hc'
        obtain rfl := Real.Ed25519.isLe_unique hib hib'
        have li : ib.length = 4 := by rw [← List.length_reverse]; exact hib.1
        have hmm : (mz = mz' ∧ mi = mi') ∧ mz.length < 2 ^ 10 ∧ mi.length < 2 ^ 10 := by
          rcases hm with ⟨hi, rfl, rfl⟩ | ⟨hi, q, hq, rfl, rfl⟩ <;> rcases hm' with ⟨hi', rfl, rfl⟩ | ⟨hi', q', hq', rfl, rfl⟩
          · simp [hx.1, hx.2.1, li]
          · omega
          · omega
          · obtain rfl := Real.Ed25519.encodes_unique hq hq'
            obtain ⟨_, _, -, hq⟩ := hq
            have lp : q.length = 32 := by rw [← List.length_reverse]; exact hq.1
            simp [lp, li]
        obtain ⟨⟨rfl, rfl⟩, m1, m2⟩ := hmm
        have lc : x.c.length < 2 ^ 123 := small (by rw [hx.2.2]; decide)
        rw [hmac_iff lc (small m1)] at g1 g1'
        rw [hmac_iff lc (small m2)] at g2 g2'
        subst g1 g2 g1' g2'
        have e : z = z' := by
          obtain ⟨a, b, c⟩ := z
          obtain ⟨a', b', c'⟩ := z'
          rw [EdNode.mk.injEq]
          exact ⟨Real.Ed25519.isLe_unique g3 g3', Real.Ed25519.isLe_unique g4 g4', g5.trans g5'.symm⟩
        subst e
        refine ih y' ⟨?_, ?_, ?_⟩ hd'
        · rw [← List.length_reverse]; exact g3.1
        · rw [← List.length_reverse]; exact g4.1
        · rw [g5, List.length_drop, Real.hashes.hmacSha512_len]

/-! ### A case -/

open KC.Real.Known

theorem step_standard {nonce : Nonces} {tries : Nat} {x y : XPrv} {i : UInt32} (h : Spec.Bip32.Derived Real.hashes (curve nonce tries) x i y)
    (hi : y.index = i) : Standard.Child (node x) i (node y) ∧ ¬ Exceptional (node x) i := by
  obtain ⟨-, j, -, -, il, ir, l1, l2, hI, h0, hn, k1, k2, k3, k4, -⟩ := h
  obtain rfl : i = j := hi.symm.trans k4
  have hh : Halves (node x) i (be il) ir := (halves_iff (nonce := nonce) (tries := tries)).mpr ⟨il, l1, l2, hI, rfl⟩
  have hy : (node y).k = (be il + (node x).k) % n := k1
  have hz : (node y).k ≠ 0 := Nat.pos_iff_ne_zero.mp y.key.2.1
  refine ⟨⟨be il, by rw [show (node y).c = ir from k2]; exact hh, hn, hy, hz⟩, ?_⟩
  rintro ⟨v, c, hv, h⟩
  obtain ⟨rfl, -⟩ := halves_unique x.chaincode.2 hh hv
  rw [← hy] at h
  omega

theorem regular_cons {x y : Node} {i : UInt32} {is : List UInt32} (hx : x.c.length = 32) (h : Standard.Child x i y) (he : ¬ Exceptional x i)
    (hr : Regular y is) : Regular x (i :: is) := by
  intro before j after z e hd
  cases before with
  | nil =>
    cases e
    cases hd
    exact he
  | cons i' before =>
    rw [List.cons_append, List.cons.injEq] at e
    obtain ⟨rfl, rfl⟩ := e
    cases hd with
    | cons hc hd =>
      obtain ⟨rfl, -⟩ := child_det hx h hc
      exact hr before j after z rfl hd

theorem path_cons {nonce : Nonces} {tries : Nat} {x y : XPrv} {i : UInt32} {is : List UInt32} {z : Node}
    (h : Spec.Bip32.Derived Real.hashes (curve nonce tries) x i y) (hi : y.index = i) (hr : Regular (node y) is ∧ Derive (node y) is z) :
    Regular (node x) (i :: is) ∧ Derive (node x) (i :: is) z :=
  ⟨regular_cons x.chaincode.2 (step_standard h hi).1 (step_standard h hi).2 hr.1, .cons (step_standard h hi).1 hr.2⟩

theorem path_nil (x : XPrv) : Regular (node x) [] ∧ Derive (node x) [] (node x) :=
  ⟨fun before i after z e => by simp at e, .nil _⟩

/-- C83, a case: the seed of the phrase "abandon … about" (eleven times the first word) has this master key, the paths m/44'/0'/0'/0/0 and
m/44'/60'/0'/0/0 have no exceptional step, and these are the secrets there. -/
theorem C83_case : ∃ x y z, Master abSeed x ∧
    x.k = 0x1837c1be8e2995ec11cda2b066151be2cfb48adf9e47b151d46adab3a21cdf67 ∧
    Regular x [0x8000002c, 0x80000000, 0x80000000, 0, 0] ∧ Derive x [0x8000002c, 0x80000000, 0x80000000, 0, 0] y ∧
    y.k = 0xe284129cc0922579a535bbf4d1a3b25773090d28c909bc0fed73b5e0222cc372 ∧
    Regular x [0x8000002c, 0x8000003c, 0x80000000, 0, 0] ∧ Derive x [0x8000002c, 0x8000003c, 0x80000000, 0, 0] z ∧
    z.k = 0x1ab42cc412b618bdea3a599e3c9bae199ebf030895b039e9db1e30dafb12b727 := by
  have h0 : Nonces := fun _ _ _ => 0
  obtain ⟨h1, h2⟩ := path_cons (ab44_derived h0 0) rfl (path_cons (btcCoin_derived h0 0) rfl (path_cons (btcAccount_derived h0 0) rfl
    (path_cons (btcChange_derived h0 0) rfl (path_cons (btcKey_derived h0 0) rfl (path_nil _)))))
  obtain ⟨h3, h4⟩ := path_cons (ab44_derived h0 0) rfl (path_cons (ethCoin_derived h0 0) rfl (path_cons (ethAccount_derived h0 0) rfl
    (path_cons (ethChange_derived h0 0) rfl (path_cons (ethKey_derived h0 0) rfl (path_nil _)))))
  exact ⟨_, _, _, master_of_root abSeed_len ab0_root, by decide +kernel, h1, h2, by decide +kernel, h3, h4, by decide +kernel⟩

/-- Non-vacuity of `C83_seed`: a wallet of this seed is made, its password changed, it opens, and its Bitcoin key at m/44'/0'/0'/0/0 has the
public key of the known secret. -/
example (ok : Nat → Bool) (hok : ∀ s, s < l → ok s = true) : ∃ M b0 b kc out r', BuiltIn Real.hashes (curve (fun _ _ _ => 7) 1) (ed Real.hashes ok) M ∧
    (M.keychainDataFromSeed (realEnv Base64.strict) forwards forwards abSeed ['p']).run countingRng = (.ok b0, r') ∧
    Run (realEnv Base64.strict) (b0, ['p']) [.changed] (b, ['q']) ∧
    M.keychainFromData (realEnv Base64.strict) forwards b ['q'] = .ok kc ∧
    kc.pubKey 0x80000000 ⟨0x8000002c, 0x80000000, 0x80000000, 0, 0⟩ = .ok out ∧
    Uncompressed (0xe284129cc0922579a535bbf4d1a3b25773090d28c909bc0fed73b5e0222cc372 • G) out := by
  obtain ⟨M, h1, hnets⟩ := C38_new Real.hashes (curve (fun _ _ _ => 7) 1) (ed Real.hashes ok) true true true 65535 (by decide) (by simp)
  have hb : BuiltIn Real.hashes (curve (fun _ _ _ => 7) 1) (ed Real.hashes ok) M := ⟨65535, true, true, true, .inl h1⟩
  obtain ⟨b0, r', hmade⟩ : ∃ blob r',
      (M.keychainDataFromSeed (realEnv Base64.strict) forwards forwards abSeed ['p']).run countingRng = (.ok blob, r') := by
    refine C40_from_seed_succeeds _ _ _ _ _ _ _ counting_delivers abSeed_len ?_
    intro n f hf
    rcases hb.factory hf with ⟨-, rfl⟩ | ⟨-, rfl⟩ | ⟨-, rfl⟩
    · obtain ⟨d, _, _, h, -⟩ := C30_from_seed Real.hashes (curve (fun _ _ _ => 7) 1) (ed Real.hashes ok) abSeed abSeed_len
      exact ⟨d, h⟩
    · exact data_exists _ _ (ed Real.hashes ok) abSeed ab0 abSeed_len ab0_root .ethereum nofun
    · exact data_exists _ _ (ed Real.hashes ok) abSeed ab0 abSeed_len ab0_root .bitcoin nofun
  obtain ⟨-, keys, -, h0⟩ := C40_from_seed _ (realEnv_correct _) forwards forwards M hb.built abSeed ['p'] countingRng r' b0 hmade
  obtain ⟨plain, hopen, -⟩ := h0
  obtain ⟨b, r2, hch⟩ := ((C42_outcome (realEnv Base64.strict) b0 ['p'] ['q'] countingRng).1 counting_delivers).mp ⟨plain, hopen⟩
  have hrun : Run (realEnv Base64.strict) (b0, ['p']) ([] ++ [.changed]) (b, ['q']) := .change _ [] b0 ['p'] b ['q'] countingRng r2 (.nil _) hch
  obtain ⟨g1, g2⟩ := C83_seed Base64.strict _ 1 ok hok forwards forwards forwards M M hb hb countingRng r' b0 b ['p'] ['q'] _ hrun (by simp) abSeed hmade
  obtain ⟨x, y, z, hx, -, hr, hd, hy, hr2, -⟩ := C83_case
  obtain ⟨kc, hkc⟩ := g1 fun x' hx' => by
    obtain rfl := C83_determined.2.1 _ _ _ abSeed_len hx hx'
    exact fun before i after w e hw => hr2 before i (after ++ [0x80000000, 0, 0]) w
      (by rw [show ([0x8000002c, 0x8000003c, 0x80000000, 0, 0] : List UInt32) = [0x8000002c, 0x8000003c] ++ [0x80000000, 0, 0] from rfl, e]; simp) hw
  obtain ⟨hs, hn⟩ := g2 kc hkc
  obtain ⟨x', hx', h⟩ := hs.bitcoin ((hn _).mpr ⟨(hnets _).mpr (by decide), .inl ((hnets _).mpr (by decide))⟩)
  obtain rfl := C83_determined.2.1 _ _ _ abSeed_len hx hx'
  obtain ⟨y', hd', ha⟩ := h ⟨0x8000002c, 0x80000000, 0x80000000, 0, 0⟩ ⟨.inl rfl, rfl, show _ ≤ _ by decide, .inl rfl, show _ < _ by decide⟩ hr
  obtain rfl := C83_determined.2.2.1 _ _ _ _ _ hx hd hd'
  obtain ⟨out, h1, h2⟩ := ha.pub
  rw [hy] at h2
  exact ⟨M, b0, b, kc, out, r', hb, hmade, hrun, hkc, h1, h2⟩

end KC.Props
