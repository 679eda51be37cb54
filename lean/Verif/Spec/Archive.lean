import Verif.Spec.Standard
import Verif.Spec.Chacha
import Verif.Spec.Data
/-
A wallet file in the words of the documents alone: RFC 8018, RFC 8439, RFC 8259, RFC 4648, BIP-39, BIP-32 and BIP32-Ed25519.  Another
program that writes such files needs to know no more than this.
-/
namespace KC.Spec.Archive
open KC.Spec.Data
open KC.Spec.Bip32 (IsBe)
open KC.Spec.Standard (Master EdMaster)
open KC.Spec.Chacha (IsCrypt IsTag)
open KC.Mnemonic (Language)

/-- The key for a password and a salt. -/
def FileKey (password salt key : Bytes) : Prop := Hmac.IsPbkdf2 (Hmac.IsHmac (Sha2.IsHash Sha2.fns512) 128) 64 password salt 19162 32 key

/-- `blob` is `plain`, sealed with a password. -/
def Sealed (password plain blob : Bytes) : Prop :=
  ∃ salt nonce tag ct key, blob = salt ++ nonce ++ tag ++ ct ∧ salt.length = 32 ∧ nonce.length = 12 ∧ tag.length = 16 ∧ plain ≠ [] ∧
    FileKey password salt key ∧ IsCrypt key nonce plain ct ∧ IsTag key nonce ct tag

/-- SHA-256. -/
def Sha256 (m d : Bytes) : Prop := Sha2.IsHash Sha2.fns256 m d

/-- What is stored for Bitcoin and for Ethereum: the master key at depth 0, without parent and number, and a checksum. -/
def MasterData (seed d : Bytes) : Prop :=
  ∃ x kb h h', Master seed x ∧ IsBe 32 x.k kb ∧ Sha256 (List.replicate 9 0 ++ x.c ++ kb) h ∧ Sha256 h h' ∧
    d = List.replicate 9 0 ++ x.c ++ kb ++ h'.take 4

/-- What is stored for Cardano: the three parts of the root key. -/
def EdData (seed d : Bytes) : Prop := ∃ x, EdMaster seed x ∧ d = x.kl ++ x.kr ++ x.c

/-- A stored key belongs to the seed; only the three networks have keys. -/
def KeyData (seed : Bytes) (e : Network × Bytes) : Prop :=
  ((e.1 = 0x80000000 ∨ e.1 = 0x8000003c) ∧ MasterData seed e.2) ∨ (e.1 = 0x80000717 ∧ EdData seed e.2)

/-- What a wallet is made from: a seed of 64 bytes, or a phrase in UTF-8. -/
inductive Source where
  | seed (s : Bytes)
  | phrase (text : Str) (l : Language)

/-- The seed of a wallet. -/
def Source.IsSeed : Source → Bytes → Prop
  | .seed s, x => x = s ∧ s.length = 64
  | .phrase text _, x => Standard.Seed (Str.utf8 text) x

/-- The phrase is not longer than one can be in memory (and than the messages that SHA-512 is defined for). -/
def Source.Fits : Source → Prop
  | .seed _ => True
  | .phrase text _ => (Str.utf8 text).length < 2 ^ 123

/-- The fields for the source. -/
def Source.seedField : Source → Option Bytes
  | .seed s => some s
  | .phrase _ _ => none
def Source.phraseField : Source → Option Str
  | .seed _ => none
  | .phrase text _ => some text
def Source.languageField : Source → Option Language
  | .seed _ => none
  | .phrase _ l => some l

/-- `blob` is a file of the wallet: in any JSON rendering, with any order of members and perhaps others. -/
def IsFile (password : Bytes) (src : Source) (keys : List (Network × Bytes)) (blob : Bytes) : Prop :=
  ∃ inner plain, Sealed password plain blob ∧ IsEnvelope 2 inner plain ∧ IsV2 src.seedField src.phraseField src.languageField keys inner

/-- A file with these members only. -/
def IsPlainFile (password : Bytes) (src : Source) (keys : List (Network × Bytes)) (blob : Bytes) : Prop :=
  ∃ inner plain, Sealed password plain blob ∧ Json.Doc (envelopeTree 2 inner) plain ∧
    Json.Doc (v2Tree src.seedField src.phraseField src.languageField keys) inner

/-- A file of version 1, which has keys only. -/
def IsOldFile (password : Bytes) (keys : List (Network × Bytes)) (blob : Bytes) : Prop :=
  ∃ inner plain, Sealed password plain blob ∧ IsEnvelope 1 inner plain ∧ IsV1 keys inner

end KC.Spec.Archive
