import Verif.Real.Known
import Verif.Spec.Bip32Pub
import Verif.Props.Manager
/-
C57 to C61: the library with the actual hash functions, cipher and elliptic curve instead of the records of external functions.
`Real.Secp256k1.curve nonce tries` signs with the nonces `nonce`, of which nothing is assumed.
-/
namespace KC.Props
open KC.Manager KC.Spec KC.Spec.Wallet KC.Spec.Bip32 KC.Secp
open KC.KeyPath (Path)
open KC.Spec.Secp256k1 (G E Uncompressed Compressed Valid Recovers)
open KC.Real.Secp256k1 (curve)

/-- Nonces for signing: any function of message, key and number of the attempt. -/
abbrev Nonces := Bytes → Secret → Nat → Nat

/-! ### C57 -/

/-- The environment of the library, with any base64 decoder. -/
def realEnv (D : Base64.Decoder) : Env := ⟨Real.hashes, Real.aead, D⟩

theorem realEnv_A (D : Base64.Decoder) : (realEnv D).A = Real.aead := by simp only [realEnv]
theorem realEnv_H (D : Base64.Decoder) : (realEnv D).H = Real.hashes := by simp only [realEnv]
theorem realEnv_correct (D : Base64.Decoder) : Crypt.AeadCorrect (realEnv D).A := by
  rw [realEnv_A]
  exact Real.aead_correct

/-- C57: what was encrypted is decrypted. -/
theorem C57_crypt {ε} (data : Bytes) (hd : data ≠ []) (password : Str) (r r' : Rng) (blob : Bytes)
    (h : (Crypt.encrypt Real.hashes Real.aead data password : RM ε Bytes).run r = (.ok blob, r')) :
    Crypt.decrypt Real.hashes Real.aead blob password = .ok data ∧ blob.length = data.length + 60 :=
  C32_roundtrip Real.hashes Real.aead Real.aead_correct data hd password r r' blob h

/-- C57: wallets made from a seed by a manager of built-in networks open with the password, to exactly those networks, unless the
seed has no Ethereum key. -/
theorem C57_wallet (D : Base64.Decoder) (nonce : Nonces) (tries : Nat) (Ed : Cardano.Ed) (itF : Iter (Network × Factory))
    (itK it : Iter (Network × Bytes)) (M M' : Manager) (hM : BuiltIn Real.hashes (curve nonce tries) Ed M)
    (hM' : BuiltIn Real.hashes (curve nonce tries) Ed M') (hn : ∀ n, M'.hasNetwork n = M.hasNetwork n) (seed : Bytes) (pw : Str)
    (r r' : Rng) (blob : Bytes) (h : (M.keychainDataFromSeed (realEnv D) itF itK seed pw).run r = (.ok blob, r'))
    (hw : M.hasNetwork 0x8000003c = false ∨ ∀ root, Root Real.hashes seed root →
      ∃ y, Walk Real.hashes (curve nonce tries) root [0x8000002C, 0x8000003c] y) :
    ∃ kc, M'.keychainFromData (realEnv D) it blob pw = .ok kc ∧ ∀ n, kc.hasNetwork n = M.hasNetwork n := by
  rw [← realEnv_H D] at hM hM' hw
  exact (C40_builtin (realEnv D) (realEnv_correct D) (curve nonce tries) Ed itF itK it M M' hM hM' hn seed pw r r' blob h).1 hw

/-- C57: through any sequence of password changes and added networks, a wallet keeps its seed, phrase and keys. -/
theorem C57_history (D : Base64.Decoder) (b0 b : Bytes) (p0 p : Str) (evs : List Event) (c0 : Content)
    (h0 : Holds (realEnv D) b0 p0 c0) (h : Run (realEnv D) (b0, p0) evs (b, p)) :
    ∃ c, Holds (realEnv D) b p c ∧ c.seed = c0.seed ∧ c.mnemonic = c0.mnemonic ∧ c.language = c0.language ∧
      (∀ n d, c0.keys n = some d → c.keys n = some d) ∧
      (∀ n, c.keys n ≠ none ↔ c0.keys n ≠ none ∨ ∃ M, Event.added M n ∈ evs) := by
  obtain ⟨c, h1, h2, h3, h4, h5, h6, -⟩ := C44_history (realEnv D) (realEnv_correct D) b0 b p0 p evs c0 h0 h
  exact ⟨c, h1, h2, h3, h4, h5, h6⟩

/-! ### C58, C59 -/

/-- What the operations of a Bitcoin or Ethereum key with secret `k` amount to. -/
structure ActsWith (H : Hashes) (k : Nat) (pubKey : Res Key.Error Bytes) (sign : Bytes → Res Key.Error Bytes)
    (verify : Bytes → Bytes → Res Key.Error Bool) : Prop where
  /-- The public key is the uncompressed form of `k G`. -/
  pub : ∃ out, pubKey = .ok out ∧ Uncompressed (k • G) out
  /-- Exactly the valid signatures are accepted. -/
  accepts : ∀ m s, s.length = 64 → ∃ b, verify m s = .ok b ∧
    (b = true ↔ Valid (be (H.keccak256 m)) (be (s.take 32)) (be (s.drop 32)) (k • G))
  /-- Signatures are valid, have the lower of the two possible `s`, verify, and give back the public key. -/
  signs : ∀ m sig, sign m = .ok sig → ∃ r s v, sig = r ++ s ++ [v] ∧ r.length = 32 ∧ s.length = 32 ∧ (v = 0 ∨ v = 1) ∧
    be s ≤ n / 2 ∧ Valid (be (H.keccak256 m)) (be r) (be s) (k • G) ∧ verify m (r ++ s) = .ok true ∧
    Recovers (be (H.keccak256 m)) (be r) (be s) v.toNat (k • G)

theorem actsWith {H : Hashes} {nonce : Nonces} {tries : Nat} {k : KeyObj} {D : Path → Res Key.Error XPrv}
    (hk : SecpKey H (curve nonce tries) k D) {p : Path} {y : XPrv} (hy : D p = .ok y) :
    ActsWith H y.key.val (k.pubKey p) (fun m => k.sign m p) (fun m s => k.verify m s p) := by
  have hver : ∀ m s, s.length = 64 →
      k.verify m s p = .ok ((curve nonce tries).verify (H.keccak256 m) s ((curve nonce tries).pub y.key)) := by
    intro m s hs
    rw [hk.verify, hy, Res.bind_ok, pubVerify, if_neg (not_not.mpr hs)]
    rfl
  constructor
  · refine ⟨_, by rw [hk.pub, hy]; rfl, ?_⟩
    exact Real.Secp256k1.ser_eq nonce tries y.key
  · intro m s hs
    refine ⟨_, hver m s hs, ?_⟩
    rw [Real.Secp256k1.verify_iff, List.take_of_length_le (l := s.drop 32) (by rw [List.length_drop, hs])]
  · intro m sig h
    rw [hk.sign, hy, Res.bind_ok, Res.mapErr_eq_ok, sign_ok] at h
    obtain ⟨r, s, v, h, hv, rfl⟩ := h
    obtain ⟨l1, l2⟩ := (curve nonce tries).sign_len _ _ _ _ _ h
    obtain ⟨h1, h2, h3⟩ := Real.Secp256k1.sign_spec nonce tries _ _ _ _ _ h
    refine ⟨r, s, v, rfl, l1, l2, hv, ?_, h2, ?_, h3 hv⟩
    · rw [← order_eq]; exact h1
    · rw [hver m (r ++ s) (by rw [List.length_append, l1, l2]), Real.Secp256k1.ecdsa_correct nonce tries _ _ _ _ _ h]

/-- C58, C59: a Bitcoin or Ethereum key made from a seed works at every path of its network with one secret: the BIP-32 secret at
the full path from the seed's root. -/
theorem C58_key (nonce : Nonces) (tries : Nat) (Ed : Cardano.Ed) (net : Net) (seed d : Bytes) (k : KeyObj) (hn : net ≠ .cardano)
    (hd : (factoryOf Real.hashes (curve nonce tries) Ed net).keyDataFromSeed seed = .ok d)
    (hk : (factoryOf Real.hashes (curve nonce tries) Ed net).keyFromData d = .ok k) (p : Path) :
    (∃ root y, Root Real.hashes seed root ∧ Walk Real.hashes (curve nonce tries) root (full p) y ∧ Accepts net p ∧
      ActsWith Real.hashes y.key.val (k.pubKey p) (fun m => k.sign m p) (fun m s => k.verify m s p)) ∨
    (∃ e, k.pubKey p = .err e ∧ (∀ m, k.sign m p = .err e) ∧ ∀ m s, k.verify m s p = .err e) := by
  obtain ⟨D, hs⟩ := secp_key _ _ Ed net d k hn hk
  cases hD : D p with
  | ok y =>
    left
    obtain ⟨root, hr, -, h⟩ := C31_secp _ _ Ed net seed d k hn hd hk
    have ha := actsWith hs hD
    obtain ⟨out, ho, hu⟩ := ha.pub
    obtain ⟨hp, y', hw, ho'⟩ := ((h p).1 out).mp ho
    have hu' := Real.Secp256k1.ser_eq nonce tries y'.key
    rw [← ho'] at hu'
    have := Real.Secp256k1.smul_inj y.key.2.2 y'.key.2.2 (Real.Secp256k1.uncompressed_inj hu hu')
    rw [this] at ha
    exact ⟨root, y', hr, hw, hp, ha⟩
  | err e =>
    right
    refine ⟨e, ?_, fun m => ?_, fun m s => ?_⟩
    · rw [hs.pub, hD]; rfl
    · rw [hs.sign, hD]; rfl
    · rw [hs.verify, hD]; rfl
  | panic =>
    exfalso
    have := (C29_secp_no_panic _ _ Ed net d k p [] [] hn hk).1
    rw [hs.pub, hD] at this
    exact this rfl

/-- C58: the same for keys loaded from any data. -/
theorem C58_loaded (nonce : Nonces) (tries : Nat) (Ed : Cardano.Ed) (net : Net) (d : Bytes) (k : KeyObj) (hn : net ≠ .cardano)
    (hk : (factoryOf Real.hashes (curve nonce tries) Ed net).keyFromData d = .ok k) (p : Path) :
    (∃ x, 0 < x ∧ x < n ∧ ActsWith Real.hashes x (k.pubKey p) (fun m => k.sign m p) (fun m s => k.verify m s p)) ∨
    (∃ e, k.pubKey p = .err e ∧ (∀ m, k.sign m p = .err e) ∧ ∀ m s, k.verify m s p = .err e) := by
  obtain ⟨D, hs⟩ := secp_key _ _ Ed net d k hn hk
  cases hD : D p with
  | ok y =>
    left
    refine ⟨y.key.val, y.key.2.1, ?_, actsWith hs hD⟩
    rw [← order_eq]; exact y.key.2.2
  | err e =>
    right
    refine ⟨e, ?_, fun m => ?_, fun m s => ?_⟩
    · rw [hs.pub, hD]; rfl
    · rw [hs.sign, hD]; rfl
    · rw [hs.verify, hD]; rfl
  | panic =>
    exfalso
    have := (C29_secp_no_panic _ _ Ed net d k p [] [] hn hk).1
    rw [hs.pub, hD] at this
    exact this rfl

/-- C58, C59, end to end: a wallet is made from a seed, encrypted and opened again.  What its Bitcoin or Ethereum key signs at a path
of its network verifies with the wallet, is valid for the public key of the BIP-32 secret at that path from the seed's root, and gives
back that public key. -/
theorem C58_wallet (D : Base64.Decoder) (nonce : Nonces) (tries : Nat) (Ed : Cardano.Ed) (itF : Iter (Network × Factory))
    (itK it : Iter (Network × Bytes)) (M M' : Manager) (hM : BuiltIn Real.hashes (curve nonce tries) Ed M)
    (hM' : BuiltIn Real.hashes (curve nonce tries) Ed M') (hn : ∀ n, M'.hasNetwork n = M.hasNetwork n) (seed : Bytes) (pw : Str)
    (r r' : Rng) (blob : Bytes) (h : (M.keychainDataFromSeed (realEnv D) itF itK seed pw).run r = (.ok blob, r'))
    (kc : Keychain) (ho : M'.keychainFromData (realEnv D) it blob pw = .ok kc) (net : Network)
    (hnet : net = 0x80000000 ∨ net = 0x8000003c) (p : Path) (m sig : Bytes) (hs : kc.sign net m p = .ok sig) :
    ∃ root y out a b v, Root Real.hashes seed root ∧ Walk Real.hashes (curve nonce tries) root (full p) y ∧
      kc.pubKey net p = .ok out ∧ Uncompressed (y.key.val • G) out ∧
      sig = a ++ b ++ [v] ∧ a.length = 32 ∧ b.length = 32 ∧ be b ≤ n / 2 ∧
      kc.verify net m (a ++ b) p = .ok true ∧
      Valid (be (Real.hashes.keccak256 m)) (be a) (be b) (y.key.val • G) ∧
      Recovers (be (Real.hashes.keccak256 m)) (be a) (be b) v.toNat (y.key.val • G) := by
  have hM2 := hM
  have hM2' := hM'
  rw [← realEnv_H D] at hM2 hM2'
  have hrt := (C40_roundtrip (realEnv D) (realEnv_correct D) itF itK it M M' hM2.built hM2'.honest (hM2.same hM2' hn) seed pw r r'
    blob h).1 kc ho net
  have hhas : M.hasNetwork net = true := by
    cases hh : M.hasNetwork net with
    | true => rfl
    | false =>
      rw [hh] at hrt
      have := ((C45_dispatch kc net).2 hrt.1 p).2.1 m
      rw [hs] at this
      cases this
  obtain ⟨f, hf⟩ := Option.isSome_iff_exists.mp hhas
  obtain ⟨d, k, hd, hk, hacts⟩ := hrt.2 f hf
  have key : ∃ n', n' ≠ Net.cardano ∧ f = factoryOf Real.hashes (curve nonce tries) Ed n' := by
    rcases hM.factory hf with ⟨e, -⟩ | ⟨-, e⟩ | ⟨-, e⟩
    · exfalso; rcases hnet with e' | e' <;> rw [e'] at e <;> exact absurd e (by decide)
    · exact ⟨.ethereum, nofun, e⟩
    · exact ⟨.bitcoin, nofun, e⟩
  obtain ⟨n', hn', rfl⟩ := key
  obtain ⟨-, hacts⟩ := hacts
  obtain ⟨a1, a2, a3⟩ := hacts p
  rw [a2, Res.mapErr_eq_ok] at hs
  rcases C58_key nonce tries Ed n' seed d k hn' hd hk p with ⟨root, y, hroot, hw, -, ha⟩ | ⟨e, -, h2, -⟩
  · obtain ⟨out, h1, hu⟩ := ha.pub
    obtain ⟨a, b, v, e, l1, l2, -, hlow, hval, hver, hrec⟩ := ha.signs m sig hs
    refine ⟨root, y, out, a, b, v, hroot, hw, ?_, hu, e, l1, l2, hlow, ?_, hval, hrec⟩
    · rw [a1, h1]; rfl
    · rw [a3, hver]; rfl
  · rw [h2 m] at hs; cases hs

/-- C59: signature and message determine the public key. -/
theorem C59_recovers_one (z r s v : Nat) (P Q : E.Point) (hP : Recovers z r s v P) (hQ : Recovers z r s v Q) : P = Q := by
  obtain ⟨⟨R, ⟨x, y, h, -, hx, hy⟩, -⟩, h1⟩ := hP
  rw [h1 x y h hx hy, hQ.2 x y h hx hy]

/-- C59: what a loaded key signs at a path and the message give back just the public key shown at that path. -/
theorem C59_recovers (nonce : Nonces) (tries : Nat) (Ed : Cardano.Ed) (net : Net) (d : Bytes) (k : KeyObj) (hn : net ≠ .cardano)
    (hk : (factoryOf Real.hashes (curve nonce tries) Ed net).keyFromData d = .ok k) (p : Path) (m sig : Bytes)
    (h : k.sign m p = .ok sig) :
    ∃ r s v out Q, sig = r ++ s ++ [v] ∧ r.length = 32 ∧ s.length = 32 ∧ (v = 0 ∨ v = 1) ∧ k.pubKey p = .ok out ∧
      Uncompressed Q out ∧ ∀ P, Recovers (be (Real.hashes.keccak256 m)) (be r) (be s) v.toNat P ↔ P = Q := by
  rcases C58_loaded nonce tries Ed net d k hn hk p with ⟨x, -, -, ha⟩ | ⟨e, -, h2, -⟩
  · obtain ⟨out, h1, hu⟩ := ha.pub
    obtain ⟨r, s, v, e, l1, l2, hv, -, -, -, hr⟩ := ha.signs m sig h
    refine ⟨r, s, v, out, _, e, l1, l2, hv, h1, hu, fun P => ⟨fun hP => C59_recovers_one _ _ _ _ _ _ hP hr, ?_⟩⟩
    rintro rfl
    exact hr
  · rw [h2 m] at h; cases h

/-- C59: two extended keys that make the same signature of a message have the same secret. -/
theorem C59_signer (H : Hashes) (nonce nonce' : Nonces) (tries tries' : Nat) (x x' : XPrv) (m sig : Bytes)
    (h : x.sign H (curve nonce tries) m = .ok sig) (h' : x'.sign H (curve nonce' tries') m = .ok sig) : x.key = x'.key := by
  rw [sign_ok] at h h'
  obtain ⟨r, s, v, h, hv, e⟩ := h
  obtain ⟨r', s', v', h', hv', e'⟩ := h'
  obtain ⟨l1, l2⟩ := (curve nonce tries).sign_len _ _ _ _ _ h
  obtain ⟨l1', l2'⟩ := (curve nonce' tries').sign_len _ _ _ _ _ h'
  rw [e] at e'
  obtain ⟨e1, e2⟩ := List.append_inj e' (by simp [l1, l2, l1', l2'])
  obtain ⟨e1, e3⟩ := List.append_inj e1 (by simp [l1, l1'])
  rw [List.cons.injEq] at e2
  obtain ⟨e2, -⟩ := e2
  subst e1 e2 e3
  have a := (Real.Secp256k1.sign_spec nonce tries _ _ _ _ _ h).2.2 hv
  have b := (Real.Secp256k1.sign_spec nonce' tries' _ _ _ _ _ h').2.2 hv
  exact Subtype.ext (Real.Secp256k1.smul_inj x.key.2.2 x'.key.2.2 (C59_recovers_one _ _ _ _ _ _ a b))

/-! ### C60 -/

/-- C60: no two secrets share a public key, in either form. -/
theorem C60_public_keys (nonce nonce' : Nonces) (tries tries' : Nat) (x x' : XPrv)
    (h : pubSerialize (curve nonce tries) (x.public (curve nonce tries)) =
        pubSerialize (curve nonce' tries') (x'.public (curve nonce' tries')) ∨
      (curve nonce tries).serCompressed (x.public (curve nonce tries)) =
        (curve nonce' tries').serCompressed (x'.public (curve nonce' tries'))) : x.key = x'.key := by
  refine Subtype.ext (Real.Secp256k1.smul_inj x.key.2.2 x'.key.2.2 ?_)
  rcases h with h | h
  · have a := Real.Secp256k1.ser_eq nonce tries x.key
    have b := Real.Secp256k1.ser_eq nonce' tries' x'.key
    unfold pubSerialize XPrv.public at h
    rw [h] at a
    exact Real.Secp256k1.uncompressed_inj a b
  · have a := Real.Secp256k1.serCompressed_eq nonce tries x.key
    have b := Real.Secp256k1.serCompressed_eq nonce' tries' x'.key
    unfold XPrv.public at h
    rw [h] at a
    exact Real.Secp256k1.compressed_inj a b

/-- C60: keys (of any networks and data) that show the same public key accept the same signatures. -/
theorem C60_same_public_key (nonce nonce' : Nonces) (tries tries' : Nat) (Ed Ed' : Cardano.Ed) (net net' : Net) (d d' : Bytes)
    (k k' : KeyObj) (hn : net ≠ .cardano) (hn' : net' ≠ .cardano)
    (hk : (factoryOf Real.hashes (curve nonce tries) Ed net).keyFromData d = .ok k)
    (hk' : (factoryOf Real.hashes (curve nonce' tries') Ed' net').keyFromData d' = .ok k') (p p' : Path) (out : Bytes)
    (h : k.pubKey p = .ok out) (h' : k'.pubKey p' = .ok out) (m s : Bytes) (hs : s.length = 64) :
    k.verify m s p = k'.verify m s p' := by
  rcases C58_loaded nonce tries Ed net d k hn hk p with ⟨x, -, -, a⟩ | ⟨e, h1, -⟩
  · rcases C58_loaded nonce' tries' Ed' net' d' k' hn' hk' p' with ⟨x', -, -, a'⟩ | ⟨e, h1, -⟩
    · obtain ⟨o, h1, hu⟩ := a.pub
      obtain ⟨o', h1', hu'⟩ := a'.pub
      rw [h] at h1; rw [h'] at h1'
      cases h1; cases h1'
      obtain ⟨b, hb, hv⟩ := a.accepts m s hs
      obtain ⟨b', hb', hv'⟩ := a'.accepts m s hs
      rw [Real.Secp256k1.uncompressed_inj hu hu', ← hv'] at hv
      rw [hb, hb', Bool.eq_iff_iff.mpr hv]
    · rw [h'] at h1; cases h1
  · rw [h] at h1; cases h1

/-! ### C61 -/

theorem pubChild_of_child {H : Hashes} {nonce : Nonces} {tries : Nat} {x y : XPrv} {i : UInt32} (hi : i.toNat < 2 ^ 31)
    (h : Child H (curve nonce tries) x i y) :
    PubChild H (x.key.val • G) x.chaincode.val i (y.key.val • G) y.chaincode.val := by
  obtain ⟨il, ir, l1, l2, ⟨kb, ib, hkb, hib, hI⟩, h0, hlt, hkey, hcc, -⟩ := h
  rcases hI with ⟨hi', -⟩ | ⟨-, hI⟩
  · omega
  refine ⟨hi, _, ib, il, Real.Secp256k1.serCompressed_eq nonce tries x.key, hib, l1, ?_, h0, hlt, ?_, ?_⟩
  · rw [hcc, hI]
  · rw [← add_nsmul]
    refine Real.Secp256k1.smul_congr _ _ ?_
    rw [hkey, ← order_eq, ZMod.natCast_mod]
  · rw [Ne, Real.Secp256k1.smul_eq_zero]
    exact fun h => absurd (Nat.le_of_dvd y.key.2.1 h) (not_le.mpr y.key.2.2)

/-- C61: deriving a non-hardened key gives the public key and chain code that BIP-32 public derivation gives, from the parent's
public key and chain code alone. -/
theorem C61_public_child (H : Hashes) (nonce : Nonces) (tries : Nat) (x y : XPrv) (i : UInt32)
    (h : x.derive H (curve nonce tries) i = .ok y) (hy : y.index.toNat < 2 ^ 31) :
    PubChild H (x.key.val • G) x.chaincode.val y.index (y.key.val • G) y.chaincode.val := by
  obtain ⟨-, j, -, -, hj⟩ := (derive_ok _ _ _ _ _).mp h
  obtain ⟨_, _, _, _, _, _, _, _, _, _, e, -⟩ := id hj
  rw [e] at hy ⊢
  exact pubChild_of_child hy hj

/-- C61: conversely, a public child is the one `derive` gives. -/
theorem C61_private_child (H : Hashes) (nonce : Nonces) (tries : Nat) (x : XPrv) (i : UInt32) (Q : E.Point) (d : Bytes)
    (hd : x.depth.toNat < 255) (h : PubChild H (x.key.val • G) x.chaincode.val i Q d) :
    ∃ y, x.derive H (curve nonce tries) i = .ok y ∧ y.key.val • G = Q ∧ y.chaincode.val = d ∧ y.index = i := by
  obtain ⟨hi, pb, ib, il, hpb, hib, l1, hH, h0, hlt, hQ', hQ0⟩ := h
  have hl : d.length = 32 := by
    have := congrArg List.length hH
    rw [H.hmacSha512_len, List.length_append, l1] at this
    omega
  have hstep : StepHash H (curve nonce tries) x i (il ++ d) := by
    refine ⟨_, ib, serSecret_isBe x.key, hib, .inr ⟨hi, ?_⟩⟩
    rw [← hH, Real.Secp256k1.compressed_unique hpb (Real.Secp256k1.serCompressed_eq nonce tries x.key)]
  have hne : (be il + x.key.val) % n ≠ 0 := by
    intro h
    refine hQ0 ?_
    rw [hQ', ← add_nsmul, Real.Secp256k1.smul_eq_zero]
    rw [← mod_order] at h
    exact Nat.dvd_of_mod_eq_zero h
  obtain ⟨y, h1, h2, h3, h4⟩ := C26_child H (curve nonce tries) x i il d hd l1 hl hstep h0 hlt hne
  refine ⟨y, h1, ?_, h3, h4⟩
  rw [hQ', ← add_nsmul]
  refine Real.Secp256k1.smul_congr _ _ ?_
  rw [h2, ← mod_order, ZMod.natCast_mod]

/-- C61: the public child is determined by the parent's public key, its chain code and the index. -/
theorem C61_determined (H : Hashes) (P Q Q' : E.Point) (c d d' : Bytes) (i : UInt32) (h : PubChild H P c i Q d)
    (h' : PubChild H P c i Q' d') : Q = Q' ∧ d = d' := by
  obtain ⟨-, pb, ib, il, hpb, hib, l1, hH, -, -, hQ, -⟩ := h
  obtain ⟨-, pb', ib', il', hpb', hib', l1', hH', -, -, hQ', -⟩ := h'
  rw [Real.Secp256k1.compressed_unique hpb hpb', Bytes.isBe_unique hib hib', hH'] at hH
  obtain ⟨e1, e2⟩ := List.append_inj hH (by rw [l1, l1'])
  subst e1 e2
  exact ⟨by rw [hQ, hQ'], rfl⟩

/-- C61: along a path without hardened steps, private derivation ends where public derivation ends, unless a step has a zero sum
(and the next index is taken). -/
theorem C61_walk (H : Hashes) (nonce : Nonces) (tries : Nat) (x y : XPrv) (is : List UInt32)
    (hi : ∀ i ∈ is, i.toNat < 2 ^ 31) (h : Walk H (curve nonce tries) x is y) :
    PubWalk H (x.key.val • G) x.chaincode.val is (y.key.val • G) y.chaincode.val ∨
    ∃ before i after z, is = before ++ i :: after ∧ Walk H (curve nonce tries) x before z ∧ ZeroSum H (curve nonce tries) z i := by
  induction h with
  | nil x => exact .inl (.nil _ _)
  | @cons x i y is z hd hw ih =>
    obtain ⟨h255, j, hij, hzero, hc⟩ := id hd
    rcases Nat.lt_or_ge i.toNat j.toNat with hlt | hge
    · exact .inr ⟨[], i, is, x, rfl, .nil x, hzero i (Nat.le_refl _) hlt⟩
    · have e : j = i := UInt32.toNat_inj.mp (Nat.le_antisymm hge hij)
      rw [e] at hc
      rcases ih (fun i h => hi i (List.mem_cons_of_mem _ h)) with h | ⟨before, i', after, z', e, h1, h2⟩
      · exact .inl (.cons (pubChild_of_child (hi i List.mem_cons_self) hc) h)
      · exact .inr ⟨i :: before, i', after, z', by rw [e]; rfl, .cons hd h1, h2⟩

/-- C61: what public derivation reaches, private derivation reaches. -/
theorem C61_private_walk (H : Hashes) (nonce : Nonces) (tries : Nat) (x : XPrv) (is : List UInt32) (Q : E.Point) (d : Bytes)
    (hd : x.depth.toNat + is.length ≤ 255) (h : PubWalk H (x.key.val • G) x.chaincode.val is Q d) :
    ∃ y, Walk H (curve nonce tries) x is y ∧ y.key.val • G = Q ∧ y.chaincode.val = d := by
  generalize hP : x.key.val • G = P at h
  generalize hc : x.chaincode.val = c at h
  induction h generalizing x with
  | nil P c => exact ⟨x, .nil x, hP, hc⟩
  | cons hch hw ih =>
    rw [List.length_cons] at hd
    rw [← hP, ← hc] at hch
    obtain ⟨y, h1, h2, h3, -⟩ := C61_private_child H nonce tries x _ _ _ (by omega) hch
    have hdep := (C25_step H (curve nonce tries) x y _ h1).1
    obtain ⟨z, hz, h4, h5⟩ := ih y (by omega) h2 h3
    exact ⟨z, .cons ((derive_ok _ _ _ _ _).mp h1) hz, h4, h5⟩

/-! ### Concrete cases: the seed of the phrase "abandon … about", with `Real.Known` -/

open KC.Real.Known

/-- A seed with a root has Bitcoin and Ethereum key data. -/
theorem data_exists (H : Hashes) (C : Curve) (Ed : Cardano.Ed) (seed : Bytes) (root : XPrv) (hl : seed.length = 64)
    (h : Root H seed root) (net : Net) (hn : net ≠ .cardano) : ∃ d, (factoryOf H C Ed net).keyDataFromSeed seed = .ok d := by
  have hs : seedOrError seed = .ok ⟨seed, hl⟩ := by
    unfold seedOrError Bip39.Seed.fromSlice
    rw [dif_pos (show seed.length = Bip39.seedSize from hl)]; rfl
  have hx : XPrv.fromSeed H ⟨seed, hl⟩ = .ok root := (fromSeed_ok _ _ _).mpr h
  obtain ⟨b, hb, -⟩ := serialize_eq H root
  refine ⟨b, ?_⟩
  cases net with
  | cardano => exact absurd rfl hn
  | bitcoin => show (seedOrError seed >>= _) = _; rw [hs, Res.bind_ok]; show (Res.mapErr _ _ >>= _) = _; rw [hx]; show Res.ofPanic _ = _; rw [hb]; rfl
  | ethereum => show (seedOrError seed >>= _) = _; rw [hs, Res.bind_ok]; show (Res.mapErr _ _ >>= _) = _; rw [hx]; show Res.ofPanic _ = _; rw [hb]; rfl

theorem abSeed_len : abSeed.length = 64 := Bytes.beBytes_length _ _

theorem btc_walk (nonce : Nonces) (tries : Nat) : Walk Real.hashes (curve nonce tries) ab0 [0x8000002c, 0x80000000, 0x80000000, 0, 0] btcKey :=
  .cons (ab44_derived nonce tries) (.cons (btcCoin_derived nonce tries) (.cons (btcAccount_derived nonce tries)
    (.cons (btcChange_derived nonce tries) (.cons (btcKey_derived nonce tries) (.nil _)))))

theorem eth_coin_walk (nonce : Nonces) (tries : Nat) : Walk Real.hashes (curve nonce tries) ab0 [0x8000002c, 0x8000003c] ethCoin :=
  .cons (ab44_derived nonce tries) (.cons (ethCoin_derived nonce tries) (.nil _))

theorem eth_walk (nonce : Nonces) (tries : Nat) : Walk Real.hashes (curve nonce tries) ab0 [0x8000002c, 0x8000003c, 0x80000000, 0, 0] ethKey :=
  .cons (ab44_derived nonce tries) (.cons (ethCoin_derived nonce tries) (.cons (ethAccount_derived nonce tries)
    (.cons (ethChange_derived nonce tries) (.cons (ethKey_derived nonce tries) (.nil _)))))

theorem walk_unique {H : Hashes} {C : Curve} {x y z : XPrv} {is : List UInt32} (h : Walk H C x is y) (h' : Walk H C x is z) : y = z := by
  rw [← walk_ok] at h h'
  rw [h] at h'
  cases h'
  rfl

/-- Non-vacuity of C58: the Bitcoin key of this seed at m/44'/0'/0'/0/0 works with the secret of the known address. -/
example (nonce : Nonces) (tries : Nat) (Ed : Cardano.Ed) :
    ∃ d k, (factoryOf Real.hashes (curve nonce tries) Ed .bitcoin).keyDataFromSeed abSeed = .ok d ∧
      (factoryOf Real.hashes (curve nonce tries) Ed .bitcoin).keyFromData d = .ok k ∧
      ∃ out, k.pubKey ⟨0x8000002c, 0x80000000, 0x80000000, 0, 0⟩ = .ok out ∧ Uncompressed (btcKey.key.val • G) out := by
  obtain ⟨d, hd⟩ := data_exists Real.hashes (curve nonce tries) Ed abSeed ab0 abSeed_len ab0_root .bitcoin nofun
  obtain ⟨k, hk⟩ := (C31_load _ _ Ed abSeed d).1 hd
  refine ⟨d, k, hd, hk, ?_⟩
  obtain ⟨root, hr, -, h⟩ := C31_secp _ _ Ed .bitcoin abSeed d k nofun hd hk
  obtain rfl := root_unique hr ab0_root
  exact ⟨_, ((h _).1 _).mpr ⟨⟨.inl rfl, rfl, show _ ≤ _ by decide, .inl rfl, show _ < _ by decide⟩, _, btc_walk nonce tries, rfl⟩,
    Real.Secp256k1.ser_eq nonce tries _⟩

/-- The Ethereum key at m/44'/60'/0'/0/0 signs, with nonce 7. -/
theorem eth_signs : ∃ r s v, (curve (fun _ _ _ => 7) 1).sign (Real.hashes.keccak256 [1, 2, 3]) ethKey.key = .ok (r, s, v) ∧
    (v = 0 ∨ v = 1) := by
  have key : (Real.Secp256k1.signWith (Bytes.beNat (Real.keccak256 [1, 2, 3]) % order) ethKey.key.val 7).map (fun t => t.2.2) =
      some 1 := by decide +kernel
  obtain ⟨⟨r, s, v⟩, h, hv⟩ := Option.map_eq_some_iff.mp key
  simp only at hv
  refine ⟨Bytes.beBytes 32 r, Bytes.beBytes 32 s, UInt8.ofNat v, ?_, by rw [hv]; exact .inr rfl⟩
  simp only [curve, Real.hashes, Real.Secp256k1.sign, Real.Secp256k1.firstGood]
  rw [h]

/-- Non-vacuity of `C57_wallet` and `C58_wallet`: a wallet of this seed is made, opens, and signs with its Ethereum key. -/
example (Ed : Cardano.Ed) : ∃ M, BuiltIn Real.hashes (curve (fun _ _ _ => 7) 1) Ed M ∧ ∃ blob r',
    (M.keychainDataFromSeed (realEnv Base64.strict) forwards forwards abSeed ['p']).run countingRng = (.ok blob, r') ∧
    ∃ kc, M.keychainFromData (realEnv Base64.strict) forwards blob ['p'] = .ok kc ∧
      ∃ sig, kc.sign 0x8000003c [1, 2, 3] ⟨0x8000002c, 0x8000003c, 0x80000000, 0, 0⟩ = .ok sig := by
  obtain ⟨M, h1, hnets⟩ := C38_new Real.hashes (curve (fun _ _ _ => 7) 1) Ed true true true 65535 (by decide) (by simp)
  have hb : BuiltIn Real.hashes (curve (fun _ _ _ => 7) 1) Ed M := ⟨65535, true, true, true, .inl h1⟩
  have hb2 := hb
  rw [← realEnv_H Base64.strict] at hb2
  obtain ⟨blob, r', hmade⟩ : ∃ blob r',
      (M.keychainDataFromSeed (realEnv Base64.strict) forwards forwards abSeed ['p']).run countingRng = (.ok blob, r') := by
    refine C40_from_seed_succeeds _ _ _ _ _ _ _ counting_delivers abSeed_len ?_
    intro n f hf
    rcases hb.factory hf with ⟨-, rfl⟩ | ⟨-, rfl⟩ | ⟨-, rfl⟩
    · obtain ⟨d, _, _, h, -⟩ := C30_from_seed Real.hashes (curve (fun _ _ _ => 7) 1) Ed abSeed abSeed_len
      exact ⟨d, h⟩
    · exact data_exists _ _ Ed abSeed ab0 abSeed_len ab0_root .ethereum nofun
    · exact data_exists _ _ Ed abSeed ab0 abSeed_len ab0_root .bitcoin nofun
  obtain ⟨kc, ho, -⟩ := C57_wallet Base64.strict _ _ Ed forwards forwards forwards M M hb hb (fun _ => rfl) abSeed ['p'] countingRng r'
    blob hmade (.inr fun root hr => by obtain rfl := root_unique hr ab0_root; exact ⟨_, eth_coin_walk _ _⟩)
  refine ⟨M, hb, blob, r', hmade, kc, ho, ?_⟩
  have hhas : M.hasNetwork 0x8000003c = true := (hnets _).mpr (by decide)
  obtain ⟨f, hf⟩ := Option.isSome_iff_exists.mp hhas
  obtain ⟨d, k, hd, hk, -, hacts⟩ := ((C40_roundtrip _ (realEnv_correct _) _ _ _ M M hb2.built hb2.honest (fun _ => rfl) abSeed ['p']
    countingRng r' blob hmade).1 kc ho 0x8000003c).2 f hf
  rcases hb.factory hf with ⟨e, -⟩ | ⟨-, rfl⟩ | ⟨e, -⟩
  · exact absurd e (by decide)
  · obtain ⟨root, hr, -, h⟩ := C31_secp _ _ Ed .ethereum abSeed d k nofun hd hk
    obtain rfl := root_unique hr ab0_root
    obtain ⟨r, s, v, hs, hv⟩ := eth_signs
    refine ⟨r ++ s ++ [v], ?_⟩
    rw [(hacts _).2.1, Res.mapErr_eq_ok]
    exact ((h _).2.1 _ _).mpr ⟨⟨.inr rfl, rfl, show _ ≤ _ by decide, .inl rfl, show _ < _ by decide⟩, _, eth_walk _ _, r, s, v, hs, hv,
      rfl⟩
  · exact absurd e (by decide)

/-- Non-vacuity of C61: the step from m/44'/60'/0' to m/44'/60'/0'/0 and on to m/44'/60'/0'/0/0 is also a public derivation. -/
example : PubWalk Real.hashes (ethAccount.key.val • G) ethAccount.chaincode.val [0, 0] (ethKey.key.val • G) ethKey.chaincode.val :=
  .cons (C61_public_child Real.hashes (fun _ _ _ => 7) 1 _ _ 0 ((derive_ok _ _ _ _ _).mpr (ethChange_derived _ _)) (by decide +kernel))
    (.cons (C61_public_child Real.hashes (fun _ _ _ => 7) 1 _ _ 0 ((derive_ok _ _ _ _ _).mpr (ethKey_derived _ _)) (by decide +kernel))
      (.nil _ _))

/-- Non-vacuity of C59, C60: two keys with different secrets. -/
example : btcKey.key ≠ ethKey.key := by decide +kernel

end KC.Props
