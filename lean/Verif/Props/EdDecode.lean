import Verif.Real.EdDecode
import Verif.Props.RealEd
/-
C73: Cardano signatures can be checked by anyone who has the public key: encoded points are read back (RFC 8032, 5.1.3), and what the
wallet signs and accepts is what a verifier accepts who knows the 32 bytes of the public key and no secret.
-/
namespace KC.Props
open KC.Manager KC.Spec KC.Spec.Wallet
open KC.KeyPath (Path)
open KC.Spec.Ed25519 (B Encodes le l Parts)
open KC.Real.Ed25519 (ed decode check enc)

/-- C73: reading gives the point that the bytes encode, and writing that gives the bytes again. -/
theorem C73_decode (b : Bytes) :
    (∀ P, (∃ j, decode b = some j ∧ Real.Ec.Rep j P) ↔ Encodes P b) ∧
    (∀ j, decode b = some j → enc j = b) ∧
    (decode b = none ↔ ¬ ∃ P, Encodes P b) := by
  refine ⟨fun P => ⟨?_, Real.Ed25519.decode_of⟩, fun j h => ?_, ⟨?_, ?_⟩⟩
  · rintro ⟨j, h, hr⟩
    obtain ⟨Q, hQ, hr'⟩ := Real.Ed25519.decode_some b j h
    have := (Real.Ed25519.enc_iff hr' b).mpr hQ
    exact (Real.Ed25519.enc_iff hr b).mp this
  · obtain ⟨Q, hQ, hr'⟩ := Real.Ed25519.decode_some b j h
    exact (Real.Ed25519.enc_iff hr' b).mpr hQ
  · rintro h ⟨P, hP⟩
    obtain ⟨j, hj, -⟩ := Real.Ed25519.decode_of hP
    rw [h] at hj
    cases hj
  · intro h
    cases hd : decode b with
    | none => rfl
    | some j =>
      obtain ⟨Q, hQ, -⟩ := Real.Ed25519.decode_some b j hd
      exact absurd ⟨Q, hQ⟩ h

/-- C73: with a public key from the group of the base point, exactly the valid signatures pass; with bytes that encode no point, none
do. -/
theorem C73_check (H : Hashes) (ok : Nat → Bool) (a m R S : Bytes) (hR : R.length = 32) (hS : S.length = 32) :
    (∀ k : Nat, Encodes (k • B) a → (check H ok a m (R ++ S) = true ↔ ok (le S) = true ∧ Spec.Ed25519.Valid H (k • B) m R S)) ∧
    ((¬ ∃ P, Encodes P a) → check H ok a m (R ++ S) = false) := by
  constructor
  · intro k ha
    have := Real.Ed25519.check_iff H ok ha m (R ++ S)
    rwa [List.take_left' hR, List.drop_left' hR, List.take_of_length_le (l := S) (by omega)] at this
  · intro h
    unfold check
    rw [((C73_decode a).2.2).mpr h]

/-- C73: what a loaded Cardano key accepts at a path is what passes with its public key, and what it signs passes. -/
theorem C73_key (H : Hashes) (C : Secp.Curve) (ok : Nat → Bool) (hok : ∀ s, s < l → ok s = true) (d : Bytes) (k : KeyObj)
    (hk : (factoryOf H C (ed H ok) .cardano).keyFromData d = .ok k) (p : Path) (hp : Accepts .cardano p) :
    ∃ a c, k.pubKey p = .ok (a ++ c) ∧ a.length = 32 ∧
      (∀ m s, s.length = 64 → k.verify m s p = .ok (check H ok a m s)) ∧
      ∀ m, ∃ s, k.sign m p = .ok s ∧ s.length = 64 ∧ check H ok a m s = true := by
  obtain ⟨root, y, ka, b, c, -, -, -, h⟩ := C63_loaded H C ok hok d k hk p hp
  obtain ⟨a, h1, h2, -, he⟩ := h.pub
  have hv : ∀ m s, s.length = 64 → k.verify m s p = .ok (check H ok a m s) := by
    intro m s hs
    obtain ⟨t, ht, hi⟩ := h.accepts m s hs
    have := Real.Ed25519.check_iff H ok he m s
    rw [List.take_of_length_le (l := s.drop 32) (by rw [List.length_drop, hs])] at this
    rw [ht, Bool.eq_iff_iff.mpr (hi.trans this.symm)]
  refine ⟨a, c, h1, h2, hv, fun m => ?_⟩
  obtain ⟨R, S, h3, hR, hS, -, -, h4⟩ := h.signs m
  have hl : (R ++ S).length = 64 := by rw [List.length_append, hR, hS]
  refine ⟨R ++ S, h3, hl, ?_⟩
  rw [hv m _ hl] at h4
  exact Res.ok.inj h4

/-- C73, end to end: a wallet is made from a seed, encrypted and opened again.  What it signs for Cardano passes with the public key it
shows. -/
theorem C73_wallet (D : Base64.Decoder) (C : Secp.Curve) (ok : Nat → Bool) (hok : ∀ s, s < l → ok s = true)
    (itF : Iter (Network × Factory)) (itK it : Iter (Network × Bytes)) (M M' : Manager) (hM : BuiltIn Real.hashes C (ed Real.hashes ok) M)
    (hM' : BuiltIn Real.hashes C (ed Real.hashes ok) M') (hn : ∀ n, M'.hasNetwork n = M.hasNetwork n) (seed : Bytes) (pw : Str)
    (r r' : Rng) (blob : Bytes) (h : (M.keychainDataFromSeed (realEnv D) itF itK seed pw).run r = (.ok blob, r'))
    (kc : Keychain) (ho : M'.keychainFromData (realEnv D) it blob pw = .ok kc) (hhas : M.hasNetwork 0x80000717 = true) (p : Path)
    (hp : Accepts .cardano p) (m : Bytes) :
    ∃ pub s, kc.pubKey 0x80000717 p = .ok pub ∧ kc.sign 0x80000717 m p = .ok s ∧
      check Real.hashes ok (pub.take 32) m s = true := by
  obtain ⟨d, root, y, a, b, c, R, S, out, -, -, -, -, h1, he, h2, hR, hS, hl, hv, -⟩ :=
    C63_wallet D C ok hok itF itK it M M' hM hM' hn seed pw r r' blob h kc ho hhas p hp m
  refine ⟨_, _, h1, h2, ?_⟩
  have hlen : out.length = 32 := by
    obtain ⟨_, _, _, hb⟩ := he
    rw [← List.length_reverse]
    exact hb.1
  rw [List.take_left' hlen]
  exact ((C73_check Real.hashes ok out m R S hR hS).1 _ he).mpr ⟨hok _ hl, hv⟩

/-! RFC 8032, 7.1, test 2, with the public key and the signature printed there. -/

def pub2 : Bytes :=
  [61, 64, 23, 195, 232, 67, 137, 90, 146, 183, 10, 167, 77, 27, 126, 188, 156, 152, 44, 207, 46, 196, 150, 140, 192, 205, 85, 241, 42,
   244, 102, 12]

def sig2 : Bytes :=
  [146, 160, 9, 169, 240, 212, 202, 184, 114, 14, 130, 11, 95, 100, 37, 64, 162, 178, 123, 84, 22, 80, 63, 143, 179, 118, 34, 35, 235,
   219, 105, 218, 8, 90, 193, 228, 62, 21, 153, 110, 69, 143, 54, 19, 208, 241, 29, 140, 56, 123, 46, 174, 180, 48, 42, 238, 176, 13, 41,
   22, 18, 187, 12, 0]

/-- C73: the printed signature passes; for another message it does not; y = 2 belongs to no point. -/
theorem C73_vector : check Real.hashes inRange pub2 [114] sig2 = true ∧ check Real.hashes inRange pub2 [115] sig2 = false ∧
    decode (2 :: List.replicate 31 0) = none := by decide +kernel

/-- The neutral element and the point of order two are read, the second encoding of the neutral element is not. -/
example : decode (1 :: List.replicate 31 0) = some ⟨1, 1, 0⟩ ∧ decode (236 :: List.replicate 30 255 ++ [127]) = some ⟨0, 0, 1⟩ ∧
    decode (1 :: List.replicate 30 0 ++ [128]) = none ∧ decode (238 :: List.replicate 30 255 ++ [127]) = none := by decide +kernel

end KC.Props
