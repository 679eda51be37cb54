import Verif.Real.PublicForms
import Verif.Props.Real
import Verif.Props.Secp
/-
C72: the two forms of a public key.
-/
namespace KC.Props
open KC.Manager KC.Spec KC.Spec.Wallet KC.Spec.Bip32 KC.Secp
open KC.Spec.Secp256k1 (G E Uncompressed Compressed)
open KC.Real.Secp256k1 (curve decompress)

/-- C72: the two forms of the public key of a secret `k` are those of SEC 1 for the point `k G`; decompressing the one gives the other. -/
theorem C72_forms (nonce : Nonces) (tries : Nat) (x : XPrv) :
    Uncompressed (x.key.val • G) (pubSerialize (curve nonce tries) (x.public (curve nonce tries))) ∧
    (pubSerialize (curve nonce tries) (x.public (curve nonce tries))).length = 65 ∧
    Compressed (x.key.val • G) (pubSerializeCompressed (curve nonce tries) (x.public (curve nonce tries))) ∧
    (pubSerializeCompressed (curve nonce tries) (x.public (curve nonce tries))).length = 33 ∧
    decompress (pubSerializeCompressed (curve nonce tries) (x.public (curve nonce tries))) =
      some (pubSerialize (curve nonce tries) (x.public (curve nonce tries))) := by
  have hu := Real.Secp256k1.ser_eq nonce tries x.key
  have hc := Real.Secp256k1.serCompressed_eq nonce tries x.key
  have hd := (Real.Secp256k1.decompress_iff _ _).mpr ⟨_, hc, hu⟩
  unfold pubSerialize pubSerializeCompressed XPrv.public
  exact ⟨hu, (curve nonce tries).ser_len _, hc, (curve nonce tries).serCompressed_len _, hd⟩

/-- C72: decompressing is exact: it takes the compressed forms of points and nothing else, to the uncompressed form of the same point. -/
theorem C72_decompress (b u : Bytes) : decompress b = some u ↔ ∃ P, Compressed P b ∧ Uncompressed P u :=
  Real.Secp256k1.decompress_iff b u

/-- The compressed form of a point other than zero. -/
theorem compressed_exists {P : E.Point} {u : Bytes} (h : Uncompressed P u) : ∃ b, Compressed P b := by
  obtain ⟨x, y, hxy, rfl, -⟩ := h
  exact ⟨_, x, y, hxy, rfl, _, Real.Secp256k1.isBe_val x, rfl⟩

/-- C72: every uncompressed form comes from exactly one compressed form, of 33 bytes; so one form says as much as the other. -/
theorem C72_unique (P : E.Point) (u : Bytes) (h : Uncompressed P u) : ∃! b, decompress b = some u := by
  obtain ⟨b, hb⟩ := compressed_exists h
  refine ⟨b, (C72_decompress b u).mpr ⟨P, hb, h⟩, fun b' hb' => ?_⟩
  obtain ⟨Q, h1, h2⟩ := (C72_decompress b' u).mp hb'
  rw [Real.Secp256k1.uncompressed_inj h2 h] at h1
  exact Real.Secp256k1.compressed_unique h1 hb

/-- C72: what a wallet gives out as Bitcoin or Ethereum public key is decompressed from exactly one string. -/
theorem C72_wallet (nonce : Nonces) (tries : Nat) (Ed : Cardano.Ed) (net : Net) (d : Bytes) (k : KeyObj) (hn : net ≠ .cardano)
    (hk : (factoryOf Real.hashes (curve nonce tries) Ed net).keyFromData d = .ok k) (p : KeyPath.Path) (out : Bytes)
    (h : k.pubKey p = .ok out) : ∃! b, decompress b = some out := by
  rcases C58_loaded nonce tries Ed net d k hn hk p with ⟨x, -, -, a⟩ | ⟨e, h1, -⟩
  · obtain ⟨o, h1, hu⟩ := a.pub
    rw [h] at h1
    cases h1
    exact C72_unique _ _ hu
  · rw [h] at h1
    cases h1

/-- C72: the hashes of the two forms; the fingerprint children carry begins the RIPEMD-160 of the second (BIP-32 identifiers). -/
theorem C72_hashes (H : Hashes) (C : Curve) (x : XPrv) :
    pubSha256 H C (x.public C) = H.sha256 (pubSerialize C (x.public C)) ∧
    compressedSha256 H C (x.public C) = H.sha256 (pubSerializeCompressed C (x.public C)) ∧
    (pubSha256 H C (x.public C)).length = 32 ∧ (compressedSha256 H C (x.public C)).length = 32 ∧
    ∀ i y, x.derive H C i = .ok y → y.parentFingerprint.val <+: H.ripemd160 (compressedSha256 H C (x.public C)) := by
  refine ⟨rfl, rfl, H.sha256_len _, H.sha256_len _, fun i y h => ?_⟩
  rw [(C25_step H C x y i h).2.2.1]
  exact List.take_prefix 4 _

/-- Non-vacuity of C72: the base point, both ways; a first coordinate that is on no point; the other tag gives the other point. -/
example : decompress (2 :: Bytes.beBytes 32 Spec.Secp256k1.gx) =
      some (4 :: Bytes.beBytes 32 Spec.Secp256k1.gx ++ Bytes.beBytes 32 Spec.Secp256k1.gy) ∧
    decompress (3 :: Bytes.beBytes 32 Spec.Secp256k1.gx) =
      some (4 :: Bytes.beBytes 32 Spec.Secp256k1.gx ++ Bytes.beBytes 32 (Spec.Secp256k1.p - Spec.Secp256k1.gy)) ∧
    decompress (2 :: Bytes.beBytes 32 5) = none ∧ decompress [2] = none ∧
    decompress (4 :: Bytes.beBytes 32 Spec.Secp256k1.gx) = none := by decide +kernel

end KC.Props
