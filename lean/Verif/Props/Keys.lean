import Verif.Proofs.Keys
import Verif.Props.Secp
/-
C21, C22 and C28 to C31: the keys of the built-in networks.
-/
namespace KC.Props
open KC.Spec KC.Secp KC.Bytes KC.Spec.Bip32
open KC.KeyPath (Path)

/-- The five components in order. -/
def full (p : Path) : List UInt32 := [p.purpose, p.coin, p.account, p.change, p.address]

/-! ### C21 -/

/-- A path that is not the network's is refused with a key path error, the one of the first failing check.
(Cardano's `verify` looks at the length of the signature before.) -/
theorem C21_refuses (H : Hashes) (C : Curve) (E : Cardano.Ed) (net : Net) (d : Bytes) (k : KeyObj) (p : Path)
    (hk : (factoryOf H C E net).keyFromData d = .ok k) (hp : ¬ Accepts net p) :
    ∃ e, Refuses net p e ∧ k.pubKey p = .err (.invalidKeyPath e) ∧ (∀ m, k.sign m p = .err (.invalidKeyPath e)) ∧
      ∀ m s, (net = .cardano → s.length = 64) → k.verify m s p = .err (.invalidKeyPath e) := by
  rcases gate_fwd net p with ⟨-, h⟩ | ⟨e, hg, he⟩
  · exact absurd h hp
  refine ⟨e, he, ?_⟩
  cases net with
  | bitcoin =>
    obtain ⟨x, -, -, hs⟩ := bitcoin_load H C E d k hk
    have hd := bitcoin_derive H C x p
    rw [hg] at hd
    exact ⟨by rw [hs.pub, hd]; rfl, fun m => by rw [hs.sign, hd]; rfl, fun m s _ => by rw [hs.verify, hd]; rfl⟩
  | ethereum =>
    obtain ⟨_, x, -, -, -, hs⟩ := ethereum_load H C E d k hk
    have hd := ethereum_derive H C x p
    rw [hg] at hd
    exact ⟨by rw [hs.pub, hd]; rfl, fun m => by rw [hs.sign, hd]; rfl, fun m s _ => by rw [hs.verify, hd]; rfl⟩
  | cardano =>
    obtain ⟨x, -, rfl⟩ := cardano_load H C E d k hk
    have hd := cardano_derive E ([0x8000002C, 0x80000717].foldl E.derive x) p
    rw [hg] at hd
    refine ⟨?_, fun m => ?_, fun m s hl => ?_⟩
    · show Res.map _ _ = _
      rw [hd]; rfl
    · show Res.map _ _ = _
      rw [hd]; rfl
    · show (if s.length < Cardano.signatureSize then _ else _) = _
      have hl := hl rfl
      rw [if_neg (by rw [hl]; decide), copyFrom_eq (show s.length = Cardano.signatureSize from hl), hd]
      rfl

/-- A path of the network is never refused with a key path error. -/
theorem C21_accepts (H : Hashes) (C : Curve) (E : Cardano.Ed) (net : Net) (d : Bytes) (k : KeyObj) (p : Path)
    (hk : (factoryOf H C E net).keyFromData d = .ok k) (hp : Accepts net p) (e : KeyPath.Error) :
    k.pubKey p ≠ .err (.invalidKeyPath e) ∧ (∀ m, k.sign m p ≠ .err (.invalidKeyPath e)) ∧
      ∀ m s, k.verify m s p ≠ .err (.invalidKeyPath e) := by
  rw [← gate_none] at hp
  have secp : ∀ (k : KeyObj) (D : Path → Res Key.Error XPrv) (x : XPrv) (is : List UInt32), SecpKey H C k D →
      D p = (walk H C x is).mapErr Key.Error.ofSecp →
      k.pubKey p ≠ .err (.invalidKeyPath e) ∧ (∀ m, k.sign m p ≠ .err (.invalidKeyPath e)) ∧
        ∀ m s, k.verify m s p ≠ .err (.invalidKeyPath e) := by
    intro k D x is hs hd
    have hD : D p ≠ .err (.invalidKeyPath e) := by
      rw [hd, Ne, Res.mapErr_eq_err]
      rintro ⟨e', -, h⟩
      exact ofSecp_ne_path _ _ h
    refine ⟨?_, fun m => ?_, fun m s => ?_⟩
    · rw [hs.pub, Ne, Res.map_eq_err]; exact hD
    · rw [hs.sign, Ne, Res.bind_eq_err]
      rintro (h | ⟨y, -, h⟩)
      · exact hD h
      · obtain ⟨e', -, h⟩ := Res.mapErr_eq_err.mp h
        cases h
    · rw [hs.verify, Ne, Res.bind_eq_err]
      rintro (h | ⟨y, -, h⟩)
      · exact hD h
      · obtain ⟨e', -, h⟩ := Res.mapErr_eq_err.mp h
        exact ofSecp_ne_path _ _ h
  cases net with
  | bitcoin =>
    obtain ⟨x, -, -, hs⟩ := bitcoin_load H C E d k hk
    have hd := bitcoin_derive H C x p
    rw [hp] at hd
    exact secp k _ _ _ hs hd
  | ethereum =>
    obtain ⟨_, x, -, -, -, hs⟩ := ethereum_load H C E d k hk
    have hd := ethereum_derive H C x p
    rw [hp] at hd
    exact secp k _ _ _ hs hd
  | cardano =>
    obtain ⟨x, -, rfl⟩ := cardano_load H C E d k hk
    have hd := cardano_derive E ([0x8000002C, 0x80000717].foldl E.derive x) p
    rw [hp] at hd
    refine ⟨?_, fun m => ?_, fun m s => ?_⟩
    · show Res.map _ _ ≠ _
      rw [hd]; exact nofun
    · show Res.map _ _ ≠ _
      rw [hd]; exact nofun
    · show (if s.length < Cardano.signatureSize then _ else _) ≠ _
      rw [hd]
      split
      · exact nofun
      · cases copyFrom Cardano.signatureSize s <;> exact nofun

/-- The reported error is determined by the path. -/
theorem C21_one_error (net : Net) (p : Path) :
    (Accepts net p ∧ ∀ e, ¬ Refuses net p e) ∨ (¬ Accepts net p ∧ ∃ e, Refuses net p e ∧ ∀ e', Refuses net p e' → e' = e) := by
  rcases gate_fwd net p with ⟨-, h⟩ | ⟨e, -, h⟩
  · exact Or.inl ⟨h, fun e he => refuses_not_accepts he h⟩
  · exact Or.inr ⟨refuses_not_accepts h, e, h, fun e' h' => refuses_unique h' h⟩

theorem isPath_accepts {net : Net} {k : Path} {pu a c i : Nat} (h : IsPath k pu net.coin a c i) (hp : net = .bitcoin ∨ pu = 44)
    (hc : c < 2) (hi : i < 2 ^ 31) : Accepts net k := by
  obtain ⟨h1, h2, h3, h4, h5⟩ := h
  refine ⟨?_, h2, ?_, ?_, ?_⟩
  · rcases hp with rfl | rfl
    · exact Or.inl rfl
    · exact Or.inr h1
  · rw [AccountOk]; omega
  · rw [ChangeOk]; omega
  · rw [AddressOk]; omega

theorem ctor_accepts {f : UInt32 → UInt32 → UInt32 → Res KeyPath.Error Path} {pu co : Nat} (hf : CtorSpec f pu co)
    {a c i : UInt32} {k : Path} (h : f a c i = .ok k) :
    IsPath k pu co a.toNat c.toNat i.toNat ∧ c.toNat < 2 ∧ i.toNat < 2 ^ 31 := by
  obtain ⟨h1, h2, h3, h4⟩ := hf a c i
  by_cases q1 : 2 ^ 31 ≤ a.toNat
  · rw [h1 q1] at h; cases h
  by_cases q2 : 2 ≤ c.toNat
  · rw [h2 (by omega) q2] at h; cases h
  by_cases q3 : 2 ^ 31 ≤ i.toNat
  · rw [h3 (by omega) (by omega) q3] at h; cases h
  obtain ⟨k', h5, h6⟩ := h4 (by omega) (by omega) (by omega)
  rw [h] at h5; cases h5
  exact ⟨h6, by omega, by omega⟩

/-- Paths from a network's own constructors are paths of that network, Bitcoin testnet excepted. -/
theorem C21_own_paths (pr : Profile) (a c i : UInt32) (k : Path) :
    (Bitcoin.bip44 pr false a c i = .ok k → Accepts .bitcoin k) ∧
    (Bitcoin.bip49 pr false a c i = .ok k → Accepts .bitcoin k) ∧
    (Bitcoin.bip84 pr false a c i = .ok k → Accepts .bitcoin k) ∧
    (Ethereum.path pr a = .ok k → Accepts .ethereum k) ∧
    (Ethereum.pathMetamask a = .ok k → Accepts .ethereum k) ∧
    (Cardano.path pr a c i = .ok k → Accepts .cardano k) := by
  obtain ⟨b1, b2, b3⟩ := C20_bitcoin pr false
  have eth : (Ethereum.path pr a = .ok k → Accepts .ethereum k) ∧ (Ethereum.pathMetamask a = .ok k → Accepts .ethereum k) := by
    obtain ⟨h1, h2⟩ := C20_ethereum pr a
    by_cases q : 2 ^ 31 ≤ a.toNat
    · rw [(h1 q).1, (h1 q).2]; exact ⟨nofun, nofun⟩
    · obtain ⟨⟨k1, e1, p1⟩, k2, e2, p2⟩ := h2 (by omega)
      rw [e1, e2]
      exact ⟨fun h => by cases h; exact isPath_accepts p1 (Or.inr rfl) (by omega) (by omega),
        fun h => by cases h; exact isPath_accepts p2 (Or.inr rfl) (by omega) (by omega)⟩
  refine ⟨fun h => ?_, fun h => ?_, fun h => ?_, eth.1, eth.2, fun h => ?_⟩
  · obtain ⟨q1, q2, q3⟩ := ctor_accepts b1 h
    exact isPath_accepts q1 (Or.inl rfl) q2 q3
  · obtain ⟨q1, q2, q3⟩ := ctor_accepts b2 h
    exact isPath_accepts q1 (Or.inl rfl) q2 q3
  · obtain ⟨q1, q2, q3⟩ := ctor_accepts b3 h
    exact isPath_accepts q1 (Or.inl rfl) q2 q3
  · obtain ⟨q1, q2, q3⟩ := ctor_accepts (C20_cardano pr) h
    exact isPath_accepts q1 (Or.inr rfl) q2 q3

/-- Every Bitcoin testnet path is refused by every Bitcoin key, with `InvalidCoin(1', 0')`. -/
theorem C21_testnet_refused (H : Hashes) (C : Curve) (E : Cardano.Ed) (d : Bytes) (key : KeyObj) (pr : Profile)
    (a c i : UInt32) (k : Path) (hk : (factoryOf H C E .bitcoin).keyFromData d = .ok key)
    (h : Bitcoin.bip44 pr true a c i = .ok k ∨ Bitcoin.bip49 pr true a c i = .ok k ∨ Bitcoin.bip84 pr true a c i = .ok k) :
    key.pubKey k = .err (.invalidKeyPath (.invalidCoin 0x80000001 0x80000000)) := by
  obtain ⟨b1, b2, b3⟩ := C20_bitcoin pr true
  have hc : k.coin.toNat = 1 + 2 ^ 31 := by
    rcases h with h | h | h
    · exact (ctor_accepts b1 h).1.2.1
    · exact (ctor_accepts b2 h).1.2.1
    · exact (ctor_accepts b3 h).1.2.1
  have hn : ¬ CoinOk .bitcoin k := by
    rw [CoinOk, hc]; decide
  have hr : Refuses .bitcoin k (.invalidCoin k.coin 0x80000000) := .coin _ (Or.inl rfl) hn rfl
  obtain ⟨e, he, h1, -⟩ := C21_refuses H C E .bitcoin d key k hk (fun h => hn h.2.1)
  rw [h1, refuses_unique he hr, show k.coin = 0x80000001 from UInt32.toNat_inj.mp hc]

/-! ### C22 -/

theorem C22_disjoint (a b : Net) (p : Path) (h : Accepts a p) (h2 : Accepts b p) : a = b := by
  have h1 := h.2.1
  have h3 := h2.2.1
  rw [CoinOk] at h1 h3
  cases a <;> cases b <;> first | rfl | (rw [h1] at h3; exact absurd h3 (by decide))

/-- A path one network's key works with is refused as a path by the keys of the others. -/
theorem C22_refused_elsewhere (H : Hashes) (C : Curve) (E : Cardano.Ed) (a b : Net) (da db : Bytes) (ka kb : KeyObj) (p : Path)
    (hab : a ≠ b) (ha : (factoryOf H C E a).keyFromData da = .ok ka) (hb : (factoryOf H C E b).keyFromData db = .ok kb)
    (h : ∃ out, ka.pubKey p = .ok out) :
    ∃ e, kb.pubKey p = .err (.invalidKeyPath e) ∧ ∀ m, kb.sign m p = .err (.invalidKeyPath e) := by
  have h1 : Accepts a p := by
    by_contra hn
    obtain ⟨e, -, h2, -⟩ := C21_refuses H C E a da ka p ha hn
    obtain ⟨out, h3⟩ := h
    rw [h2] at h3; cases h3
  obtain ⟨e, -, h2, h3, -⟩ := C21_refuses H C E b db kb p hb (fun h2 => hab (C22_disjoint a b p h1 h2))
  exact ⟨e, h2, h3⟩

example : Accepts .ethereum ⟨0x8000002C, 0x8000003c, 0x80000000, 0, 7⟩ := by
  exact ⟨Or.inr rfl, rfl, show _ ≤ _ by decide, Or.inl rfl, show _ < _ by decide⟩
example : Refuses .cardano ⟨0x8000002C, 0x8000003c, 0, 5, 7⟩ (.invalidCoin 0x8000003c 0x80000717) :=
  .coin _ (Or.inr rfl) (by show ¬ (_ = _); decide) rfl

/-! ### C28, C29 -/

/-- What a successful ECDSA `sign` returns. -/
theorem sign_ok (H : Hashes) (C : Curve) (x : XPrv) (m s : Bytes) : x.sign H C m = .ok s ↔
    ∃ r t v, C.sign (H.keccak256 m) x.key = .ok (r, t, v) ∧ (v = 0 ∨ v = 1) ∧ s = r ++ t ++ [v] := by
  unfold XPrv.sign
  rw [Res.bind_eq_ok]
  constructor
  · rintro ⟨⟨r, t, v⟩, h1, h2⟩
    rw [Res.mapErr_eq_ok] at h1
    simp only at h2
    split at h2
    · cases h2
    · rename_i hv
      cases h2
      exact ⟨r, t, v, h1, by by_cases v = 0 <;> simp_all, rfl⟩
  · rintro ⟨r, t, v, h1, h2, rfl⟩
    refine ⟨(r, t, v), by rw [h1]; rfl, ?_⟩
    simp only
    rw [if_neg]
    rintro ⟨h3, h4⟩
    rcases h2 with h | h <;> contradiction

theorem secp_key (H : Hashes) (C : Curve) (E : Cardano.Ed) (net : Net) (d : Bytes) (k : KeyObj) (hn : net ≠ .cardano)
    (hk : (factoryOf H C E net).keyFromData d = .ok k) : ∃ D, SecpKey H C k D := by
  cases net with
  | bitcoin => obtain ⟨x, -, -, hs⟩ := bitcoin_load H C E d k hk; exact ⟨_, hs⟩
  | ethereum => obtain ⟨_, x, -, -, -, hs⟩ := ethereum_load H C E d k hk; exact ⟨_, hs⟩
  | cardano => exact absurd rfl hn

/-- Bitcoin and Ethereum: a signature is 65 bytes ending in a recovery id 0 or 1, and `verify` refuses it for its length. -/
theorem C28_own_signature_refused (H : Hashes) (C : Curve) (E : Cardano.Ed) (net : Net) (d : Bytes) (k : KeyObj) (p : Path)
    (m s : Bytes) (hn : net ≠ .cardano) (hk : (factoryOf H C E net).keyFromData d = .ok k) (hs : k.sign m p = .ok s) :
    s.length = 65 ∧ (s.getLast? = some 0 ∨ s.getLast? = some 1) ∧ ∀ m', k.verify m' s p = .err (.invalidSignatureSize 65 64) := by
  obtain ⟨D, hk⟩ := secp_key H C E net d k hn hk
  rw [hk.sign] at hs
  obtain ⟨y, h1, h2⟩ := Res.bind_eq_ok.mp hs
  rw [Res.mapErr_eq_ok, sign_ok] at h2
  obtain ⟨r, t, v, h2, hv, rfl⟩ := h2
  obtain ⟨l1, l2⟩ := C.sign_len _ _ _ _ _ h2
  have l : (r ++ t ++ [v]).length = 65 := by simp [l1, l2]
  refine ⟨l, by rcases hv with rfl | rfl <;> simp, fun m' => ?_⟩
  rw [hk.verify, h1]
  show Res.mapErr _ (pubVerify H C _ m' _) = _
  rw [pubVerify, if_pos (by rw [l]; decide), l]
  rfl

/-- Without its last byte the signature verifies, if the library's ECDSA is correct. -/
theorem C28_first_64_verify (H : Hashes) (C : Curve) (E : Cardano.Ed) (net : Net) (d : Bytes) (k : KeyObj) (p : Path)
    (m s : Bytes) (hC : EcdsaCorrect C) (hn : net ≠ .cardano) (hk : (factoryOf H C E net).keyFromData d = .ok k)
    (hs : k.sign m p = .ok s) : k.verify m (s.take 64) p = .ok true := by
  obtain ⟨D, hk⟩ := secp_key H C E net d k hn hk
  rw [hk.sign] at hs
  obtain ⟨y, h1, h2⟩ := Res.bind_eq_ok.mp hs
  rw [Res.mapErr_eq_ok, sign_ok] at h2
  obtain ⟨r, t, v, h2, hv, rfl⟩ := h2
  obtain ⟨l1, l2⟩ := C.sign_len _ _ _ _ _ h2
  have l : (r ++ t).length = 64 := by simp [l1, l2]
  rw [List.take_left' l, hk.verify, h1]
  show Res.mapErr _ (pubVerify H C _ m _) = _
  rw [pubVerify, if_neg (by rw [l]; decide), hC _ _ _ _ _ h2]
  rfl

/-- Cardano: a signature is 64 bytes and verifies, if the library's EdDSA is correct; signing never fails on a path of the network. -/
theorem C28_cardano (H : Hashes) (C : Curve) (E : Cardano.Ed) (d : Bytes) (k : KeyObj) (p : Path) (m : Bytes)
    (hE : EdCorrect E) (hk : (factoryOf H C E .cardano).keyFromData d = .ok k) (hp : Accepts .cardano p) :
    ∃ s, k.sign m p = .ok s ∧ s.length = 64 ∧ k.verify m s p = .ok true := by
  obtain ⟨x, -, rfl⟩ := cardano_load H C E d k hk
  have hd := cardano_derive E ([0x8000002C, 0x80000717].foldl E.derive x) p
  rw [(gate_none _ _).mpr hp] at hd
  refine ⟨_, by show Res.map _ _ = _; rw [hd]; rfl, E.sign_len _ _, ?_⟩
  show (if _ < Cardano.signatureSize then _ else _) = _
  rw [if_neg (by rw [E.sign_len]; decide), copyFrom_eq (E.sign_len _ _), hd]
  show Res.ok (E.verify _ m (E.sign _ m)) = _
  rw [hE]

/-- Bitcoin and Ethereum `verify`: on a path that derives, any length but 64 is refused, and 64 never panics nor fails. -/
theorem C29_secp (H : Hashes) (C : Curve) (E : Cardano.Ed) (net : Net) (d : Bytes) (k : KeyObj) (p : Path) (m s : Bytes)
    (hn : net ≠ .cardano) (hk : (factoryOf H C E net).keyFromData d = .ok k) (hp : ∃ out, k.pubKey p = .ok out) :
    (s.length ≠ 64 → k.verify m s p = .err (.invalidSignatureSize s.length 64)) ∧
    (s.length = 64 → ∃ b, k.verify m s p = .ok b) := by
  obtain ⟨D, hk⟩ := secp_key H C E net d k hn hk
  obtain ⟨out, hp⟩ := hp
  rw [hk.pub] at hp
  obtain ⟨y, h1, -⟩ := Res.map_eq_ok.mp hp
  rw [hk.verify, h1]
  constructor
  · intro hl
    show Res.mapErr _ (pubVerify H C _ m _) = _
    rw [pubVerify, if_pos hl]; rfl
  · intro hl
    refine ⟨C.verify (H.keccak256 m) s (C.pub y.key), ?_⟩
    show Res.mapErr _ (pubVerify H C _ m _) = _
    rw [pubVerify, if_neg (not_not.mpr hl)]; rfl

/-- Bitcoin and Ethereum keys never panic, whatever the path, data and signature. -/
theorem C29_secp_no_panic (H : Hashes) (C : Curve) (E : Cardano.Ed) (net : Net) (d : Bytes) (k : KeyObj) (p : Path)
    (m s : Bytes) (hn : net ≠ .cardano) (hk : (factoryOf H C E net).keyFromData d = .ok k) :
    k.pubKey p ≠ .panic ∧ k.sign m p ≠ .panic ∧ k.verify m s p ≠ .panic := by
  have main : ∀ D, SecpKey H C k D → D p ≠ .panic → k.pubKey p ≠ .panic ∧ k.sign m p ≠ .panic ∧ k.verify m s p ≠ .panic := by
    intro D hs hD
    refine ⟨?_, ?_, ?_⟩
    · rw [hs.pub, Ne, Res.map_eq_panic]; exact hD
    · rw [hs.sign, Ne, Res.bind_eq_panic]
      rintro (h | ⟨y, -, h⟩)
      · exact hD h
      · rw [Res.mapErr_eq_panic] at h
        unfold XPrv.sign at h
        rw [Res.bind_eq_panic] at h
        rcases h with h | ⟨⟨r, t, v⟩, -, h⟩
        · rw [Res.mapErr_eq_panic] at h
          exact C.sign_no_panic _ _ h
        · simp only at h
          split at h <;> cases h
    · rw [hs.verify, Ne, Res.bind_eq_panic]
      rintro (h | ⟨y, -, h⟩)
      · exact hD h
      · rw [Res.mapErr_eq_panic, pubVerify] at h
        split at h <;> cases h
  cases net with
  | bitcoin =>
    obtain ⟨x, -, -, hs⟩ := bitcoin_load H C E d k hk
    refine main _ hs ?_
    rw [bitcoin_derive]
    split
    · exact nofun
    · rw [Ne, Res.mapErr_eq_panic]; exact walk_ne_panic H C _ _
  | ethereum =>
    obtain ⟨_, x, -, -, -, hs⟩ := ethereum_load H C E d k hk
    refine main _ hs ?_
    rw [ethereum_derive]
    split
    · exact nofun
    · rw [Ne, Res.mapErr_eq_panic]; exact walk_ne_panic H C _ _
  | cardano => exact absurd rfl hn

/-- Cardano `verify`: below 64 bytes an error, above 64 a panic, for every path. -/
theorem C29_cardano (H : Hashes) (C : Curve) (E : Cardano.Ed) (d : Bytes) (k : KeyObj) (p : Path) (m s : Bytes)
    (hk : (factoryOf H C E .cardano).keyFromData d = .ok k) :
    (s.length < 64 → k.verify m s p = .err (.invalidSignatureSize s.length 64)) ∧
    (64 < s.length → k.verify m s p = .panic) ∧
    (s.length = 64 → k.verify m s p ≠ .panic) := by
  obtain ⟨x, -, rfl⟩ := cardano_load H C E d k hk
  refine ⟨fun h => if_pos h, fun h => ?_, fun h => ?_⟩
  · show (if _ < Cardano.signatureSize then _ else _) = _
    rw [if_neg (show ¬ s.length < Cardano.signatureSize by show ¬ _ < 64; omega), copyFrom, dif_neg (show ¬ s.length = Cardano.signatureSize by show ¬ _ = 64; omega)]
    rfl
  · show (if _ < Cardano.signatureSize then _ else _) ≠ _
    rw [if_neg (show ¬ s.length < Cardano.signatureSize by show ¬ _ < 64; omega), copyFrom_eq (show s.length = Cardano.signatureSize from h), cardano_derive]
    split <;> exact nofun

/-! ### C30 -/

/-- The scalar bits Cardano demands: top three bits of byte 31 are 010, low three of byte 0 are 000. -/
def Clamped (d : Bytes) : Prop := (d.getD 31 0).toNat / 32 = 2 ∧ (d.getD 0 0).toNat % 8 = 0

theorem forall_u8 {P : UInt8 → Prop} (h : ∀ n : Fin 256, P (UInt8.ofNat n.val)) (b : UInt8) : P b := by
  have := h ⟨b.toNat, UInt8.toNat_lt b⟩
  rwa [UInt8.ofNat_toNat] at this

theorem clamp_high (b : UInt8) : b &&& 0b11100000 = 0b01000000 ↔ b.toNat / 32 = 2 := by
  revert b; exact forall_u8 (by decide +kernel)

theorem clamp_low (b : UInt8) : b &&& 0b00000111 = 0 ↔ b.toNat % 8 = 0 := by
  revert b; exact forall_u8 (by decide +kernel)

/-- Loading Cardano key data: by length, then by the bits. -/
theorem C30_load (H : Hashes) (C : Curve) (E : Cardano.Ed) (d : Bytes) :
    (d.length < 96 → (factoryOf H C E .cardano).keyFromData d = .err (.invalidKeySize d.length 96)) ∧
    (96 < d.length → (factoryOf H C E .cardano).keyFromData d = .panic) ∧
    (d.length = 96 → Clamped d → ∃ k, (factoryOf H C E .cardano).keyFromData d = .ok k) ∧
    (d.length = 96 → ¬ Clamped d →
      ∃ e, (e = if (d.getD 31 0).toNat / 32 = 2 then .lowestBitsInvalid else .highestBitsInvalid) ∧
      (factoryOf H C E .cardano).keyFromData d = .err (.invalidKeyData (.cardano e))) := by
  have main : d.length = 96 → ∃ x : Cardano.XPrv, x.val = d ∧ Cardano.keyFromData E d =
      ((Cardano.fromBytesVerified x).mapErr fun e => Key.Error.invalidKeyData (.cardano e)) >>= fun x =>
        .ok (E.derive (E.derive x KeyPath.bip44Purpose) Cardano.coinType) := by
    intro h
    refine ⟨⟨d, h⟩, rfl, ?_⟩
    unfold Cardano.keyFromData
    rw [if_neg (show ¬ d.length < Cardano.xprvSize by show ¬ _ < 96; omega), copyFrom_eq (show d.length = Cardano.xprvSize from h)]
    rfl
  refine ⟨fun h => ?_, fun h => ?_, fun h hc => ?_, fun h hc => ?_⟩
  · show Res.map _ (Cardano.keyFromData E d) = _
    unfold Cardano.keyFromData
    rw [if_pos (show d.length < Cardano.xprvSize from h)]; rfl
  · show Res.map _ (Cardano.keyFromData E d) = _
    unfold Cardano.keyFromData
    rw [if_neg (show ¬ d.length < Cardano.xprvSize by show ¬ _ < 96; omega), copyFrom, dif_neg (show ¬ d.length = Cardano.xprvSize by show ¬ _ = 96; omega)]
    rfl
  · obtain ⟨x, rfl, hx⟩ := main h
    have : Cardano.fromBytesVerified x = .ok x := by
      unfold Cardano.fromBytesVerified
      rw [if_neg (not_not.mpr ((clamp_high _).mpr hc.1)), if_neg (not_not.mpr ((clamp_low _).mpr hc.2))]
    rw [this] at hx
    refine ⟨Cardano.keyObj E (E.derive (E.derive x KeyPath.bip44Purpose) Cardano.coinType), ?_⟩
    show Res.map _ (Cardano.keyFromData E x.val) = _
    rw [hx]; rfl
  · obtain ⟨x, rfl, hx⟩ := main h
    have : ∃ e, (e = if (x.val.getD 31 0).toNat / 32 = 2 then .lowestBitsInvalid else .highestBitsInvalid) ∧
        Cardano.fromBytesVerified x = .err e := by
      unfold Cardano.fromBytesVerified
      by_cases h1 : (x.val.getD 31 0) &&& 0b11100000 = 0b01000000
      · refine ⟨_, (if_pos ((clamp_high _).mp h1)).symm, ?_⟩
        rw [if_neg (not_not.mpr h1), if_pos]
        intro h2
        exact hc ⟨(clamp_high _).mp h1, (clamp_low _).mp h2⟩
      · exact ⟨_, (if_neg fun h2 => h1 ((clamp_high _).mpr h2)).symm, if_pos h1⟩
    obtain ⟨e, he, h1⟩ := this
    refine ⟨e, he, ?_⟩
    show Res.map _ (Cardano.keyFromData E x.val) = _
    rw [hx, h1]; rfl

theorem clamp31 (b : UInt8) : ((b &&& 63 ||| 64) &&& 0b11011111).toNat = b.toNat % 32 + 64 := by
  revert b; exact forall_u8 (by decide +kernel)

theorem clamp0 (b : UInt8) : (b &&& 248).toNat = b.toNat - b.toNat % 8 := by
  revert b; exact forall_u8 (by decide +kernel)

theorem modify_eq (h : Bytes) (hl : h.length = 64) :
    ((((h.modify 0 (· &&& 248)).modify 31 (· &&& 63)).modify 31 (· ||| 64)).modify 31 (· &&& 0b11011111)) =
      [h.getD 0 0 &&& 248] ++ (h.drop 1).take 30 ++ [(h.getD 31 0 &&& 63 ||| 64) &&& 0b11011111] ++ h.drop 32 := by
  apply List.ext_getElem
  · simp [hl]
  · intro i h1 h2
    simp only [List.length_modify, hl] at h1
    simp only [List.getElem_modify]
    rcases Nat.lt_trichotomy i 31 with hi | rfl | hi
    · rcases Nat.eq_zero_or_pos i with rfl | h0
      · simp [List.getD_eq_getElem?_getD, hl]
      · obtain ⟨j, rfl⟩ : ∃ j, i = j + 1 := ⟨i - 1, by omega⟩
        rw [if_neg (by omega), if_neg (by omega), if_neg (by omega), if_neg (by omega)]
        have hj : j < 30 := by omega
        simp [hl, hj]
    · simp [hl]
    · rw [if_neg (by omega), if_neg (by omega), if_neg (by omega), if_neg (by omega)]
      rw [List.getElem_append_right (by simp [hl]; omega)]
      simp only [List.getElem_drop]
      congr 1
      simp [hl]; omega

/-- Key data made from any 64-byte seed: SHA-512 of the first half with bytes 0 and 31 clamped, then the second half; it loads. -/
theorem C30_from_seed (H : Hashes) (C : Curve) (E : Cardano.Ed) (seed : Bytes) (hl : seed.length = 64) :
    ∃ d b0 b31, (factoryOf H C E .cardano).keyDataFromSeed seed = .ok d ∧ d.length = 96 ∧ Clamped d ∧
      (∃ k, (factoryOf H C E .cardano).keyFromData d = .ok k) ∧
      (let h := H.sha512 (seed.take 32)
       d = [b0] ++ (h.drop 1).take 30 ++ [b31] ++ h.drop 32 ++ seed.drop 32 ∧
       b0.toNat = (h.getD 0 0).toNat - (h.getD 0 0).toNat % 8 ∧ b31.toNat = (h.getD 31 0).toNat % 32 + 64) := by
  set h := H.sha512 (seed.take 32) with hh
  have lh : h.length = 64 := H.sha512_len _
  set b0 := h.getD 0 0 &&& 248 with hb0
  set b31 := (h.getD 31 0 &&& 63 ||| 64) &&& 0b11011111 with hb31
  set d := [b0] ++ (h.drop 1).take 30 ++ [b31] ++ h.drop 32 ++ seed.drop 32 with hd
  have ld : d.length = 96 := by simp [hd, lh, hl]
  have e0 : d.getD 0 0 = b0 := by simp [hd]
  have e31 : d.getD 31 0 = b31 := by
    have : d = ([b0] ++ (h.drop 1).take 30) ++ (b31 :: (h.drop 32 ++ seed.drop 32)) := by simp [hd]
    rw [this, List.getD_eq_getElem?_getD, List.getElem?_append_right (by simp [lh])]
    simp [lh]
  have v0 := clamp0 (h.getD 0 0)
  have v31 := clamp31 (h.getD 31 0)
  have hcl : Clamped d := by
    rw [Clamped, e0, e31, hb0, hb31, v0, v31]
    constructor <;> omega
  refine ⟨d, b0, b31, ?_, ld, hcl, (C30_load H C E d).2.2.1 ld hcl, rfl, v0, v31⟩
  show (seedOrError seed >>= fun s => Cardano.dataFromSeed H s) = _
  have hs : seedOrError seed = .ok ⟨seed, hl⟩ := by
    unfold seedOrError Bip39.Seed.fromSlice
    rw [dif_pos (show seed.length = Bip39.seedSize from hl)]; rfl
  rw [hs, Res.bind_ok]
  unfold Cardano.dataFromSeed
  simp only
  rw [slice_eq (by decide) (by rw [hl]; decide), slice_eq (by decide) (by rw [hl])]
  simp only [Res.ofPanic, Res.bind_ok, List.drop_zero, Nat.sub_zero]
  rw [← hh, modify_eq h lh, ← hb0, ← hb31]
  have : (seed.drop 32).take (64 - 32) = seed.drop 32 := by
    rw [List.take_of_length_le]; simp [hl]
  rw [this, ← hd, copyFrom_eq (show d.length = Cardano.xprvSize from ld)]
  simp only [Res.bind_ok]
  unfold Cardano.fromBytesVerified
  simp only
  rw [if_neg (not_not.mpr ((clamp_high _).mpr hcl.1)), if_neg (not_not.mpr ((clamp_low _).mpr hcl.2))]
  rfl

/-- A seed of any other length is refused by all three networks. -/
theorem C30_seed_size (H : Hashes) (C : Curve) (E : Cardano.Ed) (net : Net) (seed : Bytes) (hl : seed.length ≠ 64) :
    (factoryOf H C E net).keyDataFromSeed seed = .err (.invalidMnemonic (.unknownError (.invalidSeedSize seed.length))) := by
  have hs : seedOrError seed = .err (.invalidMnemonic (.unknownError (.invalidSeedSize seed.length))) := by
    unfold seedOrError Bip39.Seed.fromSlice
    rw [dif_neg (show ¬ seed.length = Bip39.seedSize from hl)]; rfl
  cases net <;> (show (seedOrError seed >>= _) = _; rw [hs]; rfl)

/-! ### C31 -/

/-- Bitcoin and Ethereum: key data is the layout of the seed's root, and every operation works with the key at the full path
from that root. -/
theorem C31_secp (H : Hashes) (C : Curve) (E : Cardano.Ed) (net : Net) (seed d : Bytes) (k : KeyObj) (hn : net ≠ .cardano)
    (hd : (factoryOf H C E net).keyDataFromSeed seed = .ok d) (hk : (factoryOf H C E net).keyFromData d = .ok k) :
    ∃ root, Root H seed root ∧ Layout H root d ∧ ∀ p : Path,
      (∀ out, k.pubKey p = .ok out ↔ Accepts net p ∧ ∃ y, Walk H C root (full p) y ∧ out = C.ser (C.pub y.key)) ∧
      (∀ m s, k.sign m p = .ok s ↔ Accepts net p ∧ ∃ y, Walk H C root (full p) y ∧
        ∃ r t v, C.sign (H.keccak256 m) y.key = .ok (r, t, v) ∧ (v = 0 ∨ v = 1) ∧ s = r ++ t ++ [v]) ∧
      (∀ m s b, k.verify m s p = .ok b ↔ Accepts net p ∧ ∃ y, Walk H C root (full p) y ∧
        s.length = 64 ∧ b = C.verify (H.keccak256 m) s (C.pub y.key)) := by
  have key : ∃ root, Root H seed root ∧ Layout H root d := by
    by_cases hl : seed.length = 64
    · have hs : seedOrError seed = .ok ⟨seed, hl⟩ := by
        unfold seedOrError Bip39.Seed.fromSlice
        rw [dif_pos (show seed.length = Bip39.seedSize from hl)]; rfl
      have h : ((XPrv.fromSeed H ⟨seed, hl⟩).mapErr Key.Error.ofSecp >>= fun x => Res.ofPanic (x.serialize H)) = .ok d := by
        cases net with
        | bitcoin =>
          change (seedOrError seed >>= _) = _ at hd
          rw [hs] at hd; exact hd
        | ethereum =>
          change (seedOrError seed >>= _) = _ at hd
          rw [hs] at hd; exact hd
        | cardano => exact absurd rfl hn
      obtain ⟨x, hx, hy⟩ := Res.bind_eq_ok.mp h
      rw [Res.mapErr_eq_ok, fromSeed_ok] at hx
      obtain ⟨b, hb, hL⟩ := serialize_eq H x
      rw [hb] at hy
      cases hy
      exact ⟨x, hx, hL⟩
    · rw [C30_seed_size H C E net seed hl] at hd; cases hd
  obtain ⟨root, hr, hL⟩ := key
  refine ⟨root, hr, hL, fun p => ?_⟩
  have layout_inj : ∀ x, Layout H x d → x = root := by
    intro x hx
    rw [← fromData_ok] at hx hL
    rw [hx] at hL; cases hL; rfl
  have main : ∀ D, SecpKey H C k D → (∀ y, D p = .ok y ↔ Accepts net p ∧ Walk H C root (full p) y) →
      (∀ out, k.pubKey p = .ok out ↔ Accepts net p ∧ ∃ y, Walk H C root (full p) y ∧ out = C.ser (C.pub y.key)) ∧
      (∀ m s, k.sign m p = .ok s ↔ Accepts net p ∧ ∃ y, Walk H C root (full p) y ∧
        ∃ r t v, C.sign (H.keccak256 m) y.key = .ok (r, t, v) ∧ (v = 0 ∨ v = 1) ∧ s = r ++ t ++ [v]) ∧
      (∀ m s b, k.verify m s p = .ok b ↔ Accepts net p ∧ ∃ y, Walk H C root (full p) y ∧
        s.length = 64 ∧ b = C.verify (H.keccak256 m) s (C.pub y.key)) := by
    intro D hs hD
    refine ⟨fun out => ?_, fun m s => ?_, fun m s b => ?_⟩
    · rw [hs.pub, Res.map_eq_ok]
      constructor
      · rintro ⟨y, h, rfl⟩
        obtain ⟨h1, h2⟩ := (hD y).mp h
        exact ⟨h1, y, h2, rfl⟩
      · rintro ⟨h1, y, h2, rfl⟩
        exact ⟨y, (hD y).mpr ⟨h1, h2⟩, rfl⟩
    · rw [hs.sign, Res.bind_eq_ok]
      constructor
      · rintro ⟨y, h, h'⟩
        obtain ⟨h1, h2⟩ := (hD y).mp h
        rw [Res.mapErr_eq_ok, sign_ok] at h'
        exact ⟨h1, y, h2, h'⟩
      · rintro ⟨h1, y, h2, h'⟩
        exact ⟨y, (hD y).mpr ⟨h1, h2⟩, by rw [Res.mapErr_eq_ok, sign_ok]; exact h'⟩
    · rw [hs.verify, Res.bind_eq_ok]
      constructor
      · rintro ⟨y, h, h'⟩
        obtain ⟨h1, h2⟩ := (hD y).mp h
        rw [Res.mapErr_eq_ok, pubVerify] at h'
        split at h'
        · cases h'
        · rename_i hl
          cases h'
          exact ⟨h1, y, h2, not_not.mp hl, rfl⟩
      · rintro ⟨h1, y, h2, hl, rfl⟩
        refine ⟨y, (hD y).mpr ⟨h1, h2⟩, ?_⟩
        rw [pubVerify, if_neg (not_not.mpr hl)]; rfl
  cases net with
  | bitcoin =>
    obtain ⟨x, hx, -, hs⟩ := bitcoin_load H C E d k hk
    rw [layout_inj x hx] at hs
    refine main _ hs (fun y => ?_)
    rw [bitcoin_derive, ← gate_none]
    cases gate .bitcoin p with
    | some e => simp
    | none =>
      show Res.mapErr _ _ = _ ↔ _
      rw [Res.mapErr_eq_ok, walk_ok]
      simp [full]
  | ethereum =>
    obtain ⟨x, z, hx, hw, -, hs⟩ := ethereum_load H C E d k hk
    rw [layout_inj x hx] at hw
    refine main _ hs (fun y => ?_)
    rw [ethereum_derive]
    cases hg : gate .ethereum p with
    | some e =>
      have : ¬ Accepts .ethereum p := by rw [← gate_none, hg]; simp
      simp [this]
    | none =>
      have ha : Accepts .ethereum p := (gate_none _ _).mp hg
      have hpu : p.purpose = 0x8000002C := by
        rcases ha.1 with h | h
        · cases h
        · exact UInt32.toNat_inj.mp h
      have hco : p.coin = 0x8000003c := UInt32.toNat_inj.mp ha.2.1
      show Res.mapErr _ _ = _ ↔ _
      rw [Res.mapErr_eq_ok, walk_ok]
      have hf : full p = [0x8000002C, 0x8000003c] ++ [p.account, p.change, p.address] := by
        simp [full, hpu, hco]
      rw [hf, Walk_append]
      constructor
      · intro h; exact ⟨ha, z, hw, h⟩
      · rintro ⟨-, z', hw', h⟩
        rw [Walk_unique hw hw']; exact h
  | cardano => exact absurd rfl hn

/-- Bitcoin data made from a seed always loads; Ethereum data exactly when the two steps 44'/60' can be derived. -/
theorem C31_load (H : Hashes) (C : Curve) (E : Cardano.Ed) (seed d : Bytes) :
    ((factoryOf H C E .bitcoin).keyDataFromSeed seed = .ok d → ∃ k, (factoryOf H C E .bitcoin).keyFromData d = .ok k) ∧
    ((factoryOf H C E .ethereum).keyDataFromSeed seed = .ok d → ∀ root, Root H seed root →
      ((∃ k, (factoryOf H C E .ethereum).keyFromData d = .ok k) ↔ ∃ y, Walk H C root [0x8000002C, 0x8000003c] y)) := by
  have key : (seedOrError seed >>= fun s => (XPrv.fromSeed H s).mapErr Key.Error.ofSecp >>= fun x =>
      Res.ofPanic (x.serialize H)) = .ok d → ∃ root, Root H seed root ∧ XPrv.fromData H d = .ok root := by
    intro h
    obtain ⟨s, h1, h2⟩ := Res.bind_eq_ok.mp h
    obtain ⟨x, hx, hy⟩ := Res.bind_eq_ok.mp h2
    have hsv : s.val = seed := by
      unfold seedOrError Bip39.Seed.fromSlice at h1
      split at h1
      · cases h1; rfl
      · cases h1
    rw [Res.mapErr_eq_ok, fromSeed_ok, hsv] at hx
    obtain ⟨b, hb, hL⟩ := serialize_eq H x
    rw [hb] at hy
    cases hy
    exact ⟨x, hx, (fromData_ok ..).mpr hL⟩
  constructor
  · intro h
    obtain ⟨root, -, hr⟩ := key h
    refine ⟨Bitcoin.keyObj H C root, ?_⟩
    show Res.map _ (Res.mapErr _ _) = _
    rw [hr]; rfl
  · intro h root hroot
    obtain ⟨root', hr', hr⟩ := key h
    obtain rfl := root_unique hroot hr'
    constructor
    · rintro ⟨k, hk⟩
      obtain ⟨x, y, hx, hw, -⟩ := ethereum_load H C E d k hk
      rw [← fromData_ok, hr] at hx
      cases hx
      exact ⟨y, hw⟩
    · rintro ⟨y, hw⟩
      refine ⟨Ethereum.keyObj H C y, ?_⟩
      show Res.map _ (Res.mapErr _ _) = _
      rw [← walk_ok, walk_cons2] at hw
      simp only [walk_one] at hw
      rw [hr, Res.bind_ok]
      show Res.map _ (Res.mapErr _ (XPrv.derive H C root 0x8000002C >>= fun y => XPrv.derive H C y 0x8000003c)) = _
      rw [hw]; rfl

/-- Cardano: every operation works with the key at the full path from the loaded key. -/
theorem cardano_key (H : Hashes) (C : Curve) (E : Cardano.Ed) (d : Bytes) (k : KeyObj)
    (hk : (factoryOf H C E .cardano).keyFromData d = .ok k) :
    ∃ root : Cardano.XPrv, root.val = d ∧ ∀ p : Path,
      (∀ out, k.pubKey p = .ok out ↔ Accepts .cardano p ∧ out = E.pub ((full p).foldl E.derive root)) ∧
      (∀ m s, k.sign m p = .ok s ↔ Accepts .cardano p ∧ s = E.sign ((full p).foldl E.derive root) m) ∧
      (∀ m s b, k.verify m s p = .ok b ↔ Accepts .cardano p ∧ s.length = 64 ∧
        b = E.verify ((full p).foldl E.derive root) m s) := by
  obtain ⟨x, rfl, rfl⟩ := cardano_load H C E d k hk
  refine ⟨x, rfl, fun p => ?_⟩
  have hD : ∀ y, Cardano.derivePrivate E ([0x8000002C, 0x80000717].foldl E.derive x) p = .ok y ↔
      Accepts .cardano p ∧ y = (full p).foldl E.derive x := by
    intro y
    rw [cardano_derive]
    cases hg : gate .cardano p with
    | some e =>
      have : ¬ Accepts .cardano p := by rw [← gate_none, hg]; simp
      simp [this]
    | none =>
      have ha : Accepts .cardano p := (gate_none _ _).mp hg
      have hpu : p.purpose = 0x8000002C := by
        rcases ha.1 with h | h
        · cases h
        · exact UInt32.toNat_inj.mp h
      have hco : p.coin = 0x80000717 := UInt32.toNat_inj.mp ha.2.1
      simp only [Res.ok.injEq, ha, true_and, full, hpu, hco, List.foldl_cons, List.foldl_nil]
      exact eq_comm
  refine ⟨fun out => ?_, fun m s => ?_, fun m s b => ?_⟩
  · show Res.map _ _ = _ ↔ _
    rw [Res.map_eq_ok]
    constructor
    · rintro ⟨y, h, rfl⟩
      obtain ⟨h1, rfl⟩ := (hD y).mp h
      exact ⟨h1, rfl⟩
    · rintro ⟨h1, rfl⟩
      exact ⟨_, (hD _).mpr ⟨h1, rfl⟩, rfl⟩
  · show Res.map _ _ = _ ↔ _
    rw [Res.map_eq_ok]
    constructor
    · rintro ⟨y, h, rfl⟩
      obtain ⟨h1, rfl⟩ := (hD y).mp h
      exact ⟨h1, rfl⟩
    · rintro ⟨h1, rfl⟩
      exact ⟨_, (hD _).mpr ⟨h1, rfl⟩, rfl⟩
  · show (if s.length < Cardano.signatureSize then _ else _) = _ ↔ _
    by_cases hl : s.length = 64
    · rw [if_neg (by rw [hl]; decide), copyFrom_eq (show s.length = Cardano.signatureSize from hl)]
      show Res.map _ _ = _ ↔ _
      rw [Res.map_eq_ok]
      constructor
      · rintro ⟨y, h, rfl⟩
        obtain ⟨h1, rfl⟩ := (hD y).mp h
        exact ⟨h1, hl, rfl⟩
      · rintro ⟨h1, -, rfl⟩
        exact ⟨_, (hD _).mpr ⟨h1, rfl⟩, rfl⟩
    · simp only [hl, false_and, and_false, iff_false]
      split
      · exact nofun
      · rw [copyFrom, dif_neg (show ¬ s.length = Cardano.signatureSize from hl)]; exact nofun

/-- Cardano: every operation works with the key at the full path from the root made from the seed. -/
theorem C31_cardano (H : Hashes) (C : Curve) (E : Cardano.Ed) (seed d : Bytes) (k : KeyObj)
    (hd : (factoryOf H C E .cardano).keyDataFromSeed seed = .ok d) (hk : (factoryOf H C E .cardano).keyFromData d = .ok k) :
    ∃ root : Cardano.XPrv, root.val = d ∧ ∀ p : Path,
      (∀ out, k.pubKey p = .ok out ↔ Accepts .cardano p ∧ out = E.pub ((full p).foldl E.derive root)) ∧
      (∀ m s, k.sign m p = .ok s ↔ Accepts .cardano p ∧ s = E.sign ((full p).foldl E.derive root) m) ∧
      (∀ m s b, k.verify m s p = .ok b ↔ Accepts .cardano p ∧ s.length = 64 ∧
        b = E.verify ((full p).foldl E.derive root) m s) :=
  have _ := hd
  cardano_key H C E d k hk

/-! ### A world to which C21 to C31 apply -/

/-- Secret one more, on hardened steps of the toy world. -/
theorem toy_hard (x : XPrv) (i : UInt32) (hd : x.depth.toNat < 255) (hi : 2 ^ 31 ≤ i.toNat) (hk : x.key.val < 100) :
    ∃ y, Derived Toy.skipHashes Toy.curve x i y ∧ y.key.val = x.key.val + 1 ∧ y.depth.toNat = x.depth.toNat + 1 := by
  have hb : be (beBytes 32 1) = 1 := by decide +kernel
  have hh : StepHash Toy.skipHashes Toy.curve x i (beBytes 32 1 ++ List.replicate 32 7) :=
    ⟨_, _, serSecret_isBe _, index_isBe _, Or.inl ⟨hi, rfl⟩⟩
  have hm : (1 + x.key.val) % n = x.key.val + 1 := by
    rw [Nat.mod_eq_of_lt (Nat.lt_trans (show 1 + x.key.val < 1000 by omega) (by decide +kernel)), Nat.add_comm]
  obtain ⟨y, h1, h2, -, -⟩ := C26_child _ _ _ _ _ _ hd (beBytes_length _ _) (by simp) hh (by rw [hb]; decide)
    (by rw [hb]; decide +kernel) (by rw [hb, hm]; omega)
  rw [hb, hm] at h2
  exact ⟨y, (derive_ok ..).mp h1, h2, (C25_step _ _ _ _ _ h1).1⟩

/-- Secret one less, on soft steps. -/
theorem toy_soft (x : XPrv) (i : UInt32) (hd : x.depth.toNat < 255) (hi : i.toNat < 2 ^ 31) (hk : x.key.val < 100)
    (hk2 : 1 < x.key.val) :
    ∃ y, Derived Toy.skipHashes Toy.curve x i y ∧ y.key.val + 1 = x.key.val ∧ y.depth.toNat = x.depth.toNat + 1 := by
  have hn : 1000 < n := by decide +kernel
  have hb : be (beBytes 32 (order - 1)) = n - 1 := by decide +kernel
  have hh : StepHash Toy.skipHashes Toy.curve x i (beBytes 32 (order - 1) ++ List.replicate 32 7) :=
    ⟨_, _, serSecret_isBe _, index_isBe _, Or.inr ⟨hi, rfl⟩⟩
  have hm : (n - 1 + x.key.val) % n = x.key.val - 1 := by
    rw [show n - 1 + x.key.val = (x.key.val - 1) + n by omega, Nat.add_mod_right,
      Nat.mod_eq_of_lt (by omega)]
  obtain ⟨y, h1, h2, -, -⟩ := C26_child _ _ _ _ _ _ hd (beBytes_length _ _) (by simp) hh (by rw [hb]; omega)
    (by rw [hb]; omega) (by rw [hb, hm]; omega)
  rw [hb, hm] at h2
  exact ⟨y, (derive_ok ..).mp h1, by omega, (C25_step _ _ _ _ _ h1).1⟩

/-- From secret 1, every path of the right shape can be walked. -/
theorem toy_walk (p : Path) (h1 : 2 ^ 31 ≤ p.purpose.toNat) (h2 : 2 ^ 31 ≤ p.coin.toNat) (h3 : 2 ^ 31 ≤ p.account.toNat)
    (h4 : p.change.toNat < 2 ^ 31) (h5 : p.address.toNat < 2 ^ 31) (x : XPrv) (hx : x.key.val = 1) (hd : x.depth = 0) :
    ∃ y, Walk Toy.skipHashes Toy.curve x (full p) y := by
  have hd : x.depth.toNat = 0 := by rw [hd]; rfl
  obtain ⟨a, ha, ka, da⟩ := toy_hard x _ (by omega) h1 (by omega)
  obtain ⟨b, hb, kb, db⟩ := toy_hard a _ (by omega) h2 (by omega)
  obtain ⟨c, hc, kc, dc⟩ := toy_hard b _ (by omega) h3 (by omega)
  obtain ⟨d, hd, kd, dd⟩ := toy_soft c _ (by omega) h4 (by omega) (by omega)
  obtain ⟨e, he, ke, de⟩ := toy_soft d _ (by omega) h5 (by omega) (by omega)
  exact ⟨e, .cons ha (.cons hb (.cons hc (.cons hd (.cons he (.nil _)))))⟩

/-- A trivial instance of the Cardano operations. -/
def toyEd : Cardano.Ed where
  derive x _ := x
  pub x := x.val.take 64
  pub_len x := by rw [List.length_take, x.2]; decide
  sign x m := Toy.pad 64 (x.val ++ m)
  sign_len _ _ := Toy.pad_len _ _
  verify x m s := decide (s = Toy.pad 64 (x.val ++ m))

theorem toyEd_correct : EdCorrect toyEd := fun x m => by simp [toyEd]

theorem toyCurve_correct : EcdsaCorrect Toy.curve := by
  intro m k r s v h
  simp only [Toy.curve, Res.ok.injEq, Prod.mk.injEq] at h
  obtain ⟨rfl, rfl, -⟩ := h
  simp [Toy.curve]

def toySeed : Bytes := List.replicate 64 0

theorem toy_root : ∃ x, XPrv.fromSeed Toy.skipHashes ⟨toySeed, rfl⟩ = .ok x ∧ x.key.val = 1 ∧ x.depth = 0 := by
  refine ⟨{ key := ⟨1, by decide, by decide⟩, chaincode := ⟨List.replicate 32 7, by decide⟩, depth := 0, index := 0,
            parentFingerprint := ⟨[0, 0, 0, 0], rfl⟩ }, ?_, rfl, rfl⟩
  rw [fromSeed_ok]
  exact ⟨beBytes 32 1, List.replicate 32 7, beBytes_length _ _, by decide, rfl, ⟨beBytes_length _ _, by decide +kernel⟩,
    rfl, rfl, rfl, rfl⟩

theorem toy_data (net : Net) (hn : net ≠ .cardano) : ∃ d root,
    (factoryOf Toy.skipHashes Toy.curve toyEd net).keyDataFromSeed toySeed = .ok d ∧ Root Toy.skipHashes toySeed root ∧
    root.key.val = 1 ∧ root.depth = 0 := by
  obtain ⟨x, hx, hk, hd⟩ := toy_root
  obtain ⟨b, hb, -⟩ := serialize_eq Toy.skipHashes x
  refine ⟨b, x, ?_, (fromSeed_ok _ _ _).mp hx, hk, hd⟩
  have hs : seedOrError toySeed = .ok ⟨toySeed, rfl⟩ := rfl
  cases net with
  | cardano => exact absurd rfl hn
  | bitcoin =>
    show (seedOrError toySeed >>= fun s => (XPrv.fromSeed Toy.skipHashes s).mapErr Key.Error.ofSecp >>= fun x =>
      Res.ofPanic (x.serialize Toy.skipHashes)) = _
    rw [hs, Res.bind_ok, hx]
    show Res.ofPanic _ = _
    rw [hb]; rfl
  | ethereum =>
    show (seedOrError toySeed >>= fun s => (XPrv.fromSeed Toy.skipHashes s).mapErr Key.Error.ofSecp >>= fun x =>
      Res.ofPanic (x.serialize Toy.skipHashes)) = _
    rw [hs, Res.bind_ok, hx]
    show Res.ofPanic _ = _
    rw [hb]; rfl

/-- In the toy world every network has a seed whose key loads. -/
theorem toy_loads (net : Net) : ∃ d k, (factoryOf Toy.skipHashes Toy.curve toyEd net).keyDataFromSeed toySeed = .ok d ∧
    (factoryOf Toy.skipHashes Toy.curve toyEd net).keyFromData d = .ok k := by
  by_cases hn : net = .cardano
  · subst hn
    obtain ⟨d, _, _, h1, -, -, ⟨k, h2⟩, -⟩ := C30_from_seed Toy.skipHashes Toy.curve toyEd toySeed rfl
    exact ⟨d, k, h1, h2⟩
  · obtain ⟨d, root, h1, h2, h3, h4⟩ := toy_data net hn
    cases net with
    | cardano => exact absurd rfl hn
    | bitcoin =>
      obtain ⟨k, hk⟩ := (C31_load _ _ _ _ _).1 h1
      exact ⟨d, k, h1, hk⟩
    | ethereum =>
      have h4 : root.depth.toNat = 0 := by rw [h4]; rfl
      obtain ⟨a, ha, ka, da⟩ := toy_hard root 0x8000002C (by omega) (by decide) (by omega)
      obtain ⟨b, hb, kb, db⟩ := toy_hard a 0x8000003c (by omega) (by decide) (by omega)
      obtain ⟨k, hk⟩ := ((C31_load _ _ _ _ _).2 h1 root h2).mpr ⟨b, .cons ha (.cons hb (.nil _))⟩
      exact ⟨d, k, h1, hk⟩

/-- And there Bitcoin and Ethereum keys sign on their own BIP-44 paths, so the hypotheses of C28 and C29 are met. -/
theorem toy_signs (net : Net) (hn : net ≠ .cardano) (p : Path) (hp : Accepts net p) (hpu : 2 ^ 31 ≤ p.purpose.toNat) (m : Bytes) :
    ∃ d k out s, (factoryOf Toy.skipHashes Toy.curve toyEd net).keyFromData d = .ok k ∧ k.pubKey p = .ok out ∧
      k.sign m p = .ok s := by
  obtain ⟨d, k, h1, h2⟩ := toy_loads net
  obtain ⟨d', root', h3, h4, h5, h6⟩ := toy_data net hn
  obtain ⟨root, hr, -, H⟩ := C31_secp _ _ _ net _ d k hn h1 h2
  obtain rfl := root_unique hr h4
  obtain ⟨q1, q2, q3⟩ := H p
  obtain ⟨a1, a2, a3, a4, a5⟩ := id hp
  rw [CoinOk] at a2
  rw [ChangeOk] at a4
  obtain ⟨y, hy⟩ := toy_walk p hpu (by omega) a3 (by omega) a5 root h5 h6
  exact ⟨d, k, _, _, h2, (q1 _).mpr ⟨hp, y, hy, rfl⟩, (q2 m _).mpr ⟨hp, y, hy, _, _, 0, rfl, Or.inl rfl, rfl⟩⟩

example : ∃ d k, (factoryOf Toy.skipHashes Toy.curve toyEd .cardano).keyFromData d = .ok k :=
  let ⟨d, k, _, h⟩ := toy_loads .cardano
  ⟨d, k, h⟩
example : EdCorrect toyEd ∧ EcdsaCorrect Toy.curve := ⟨toyEd_correct, toyCurve_correct⟩

end KC.Props
