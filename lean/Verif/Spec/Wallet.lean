import Verif.Spec.Data
import Verif.Spec.Crypt
import Verif.Spec.Bip39
import Verif.Model.Manager
/-
What an encrypted wallet holds, said in terms of the file format alone (bytes, cipher, JSON grammar), and what managers and
keychains are expected to do with it, said in terms of their public operations.
-/
namespace KC.Spec.Wallet
open KC.Spec.Data KC.Spec.Crypt
open KC.Mnemonic (Language)

/-- The content of a wallet. -/
structure Content where
  seed : Option Bytes
  mnemonic : Option Str
  language : Option Language
  keys : Network → Option Bytes

/-- `blob` opens with `password` to `plain`. -/
def Opens (E : Env) (blob : Bytes) (password : Str) (plain : Bytes) : Prop :=
  ∃ salt nonce tag ct, Parts blob salt nonce tag ct ∧ ct ≠ [] ∧ E.A.dec (keyOf E.H password salt) nonce ct tag = some plain

/-- `plain` is a stored wallet, of version 2 or 1, with this content, in any JSON rendering. -/
def IsWallet (D : Base64.Decoder) (c : Content) (plain : Bytes) : Prop :=
  ∃ inner keys, (∀ n, c.keys n = lastOf n keys) ∧
    (AnyEnvelope D 2 inner plain ∧ AnyV2 D c.seed c.mnemonic c.language keys inner ∨
     AnyEnvelope D 1 inner plain ∧ AnyV1 D keys inner ∧ c.seed = none ∧ c.mnemonic = none ∧ c.language = none)

/-- `blob` holds `c` under `password`. -/
def Holds (E : Env) (blob : Bytes) (password : Str) (c : Content) : Prop :=
  ∃ plain, Opens E blob password plain ∧ IsWallet E.D c plain

/-- A manager as the constructors make them (from any factories, also custom ones). -/
def Built (M : Manager) : Prop := ∃ umax factories, Manager.withFactoryObjs umax factories = .ok M

/-- The keys a manager's factories load report the network they are used for. -/
def Honest (M : Manager) : Prop := ∀ n f, M.getKeyFactory n = some f → ∀ d k, f.keyFromData d = .ok k → k.network = n

/-- The text is a phrase of the language with the number of words for `size` bits. -/
def Phrase (size : Nat) (l : Language) (text : Str) : Prop :=
  ∃ ws : List Str, text = spaced ws ∧ (∀ w ∈ ws, w ∈ l.toDict.words) ∧ ws.length ∈ wordCounts ∧ ws.length = size / 32 * 3

/-- The BIP-39 seed of a phrase without passphrase. -/
def phraseSeed (H : Hashes) (text : Str) : Bytes := H.pbkdf2 (Str.utf8 text) [109, 110, 101, 109, 111, 110, 105, 99] 2048 64

/-- The seed of a wallet: the stored one, or else that of the phrase. -/
def seedOf (H : Hashes) (c : Content) : Option Bytes :=
  match c.seed with
  | some s => some s
  | none => c.mnemonic.map (phraseSeed H)

/-- A manager with this seed size can use the wallet's seed. -/
def Usable (size : Nat) (c : Content) : Prop :=
  match c.seed with
  | some s => s.length = 64
  | none => ∃ m l, c.mnemonic = some m ∧ c.language = some l ∧ Phrase size l m

/-- `keys` are exactly the keys that the manager's factories make from the seed. -/
def KeysFrom (M : Manager) (seed : Bytes) (keys : Network → Option Bytes) : Prop :=
  ∀ n, match M.getKeyFactory n with
    | none => keys n = none
    | some f => ∃ d, f.keyDataFromSeed seed = .ok d ∧ keys n = some d

/-- On network `n` the keychain does what the key `k` does, tagging errors with `n`. -/
def Acts (kc : Keychain) (n : Network) (k : KeyObj) : Prop :=
  kc.hasNetwork n = true ∧ ∀ path,
    kc.pubKey n path = (k.pubKey path).mapErr (.keyError n) ∧
    (∀ m, kc.sign n m path = (k.sign m path).mapErr (.keyError n)) ∧
    ∀ m s, kc.verify n m s path = (k.verify m s path).mapErr (.keyError n)

/-- The keychain has exactly the networks that are both in the wallet and known to the manager, each with the key loaded from
the stored data. -/
def Shows (M : Manager) (c : Content) (kc : Keychain) : Prop :=
  ∀ n, match M.getKeyFactory n, c.keys n with
    | some f, some d => ∃ k, f.keyFromData d = .ok k ∧ Acts kc n k
    | _, _ => kc.hasNetwork n = false

/-- Every key that the manager would load does load. -/
def AllLoad (M : Manager) (c : Content) : Prop :=
  ∀ n f d, M.getKeyFactory n = some f → c.keys n = some d → ∃ k, f.keyFromData d = .ok k

/-- The random source delivers the next two draws. -/
def Delivers (r : Rng) : Prop := r.poisoned = false ∧ r.fails r.calls = false ∧ r.fails (r.calls + 1) = false

/-- What happens to a wallet. -/
inductive Event where
  | changed
  | added (M : Manager) (n : Network)

/-- Successful operations on a wallet, each on the latest blob with the latest password; managers, map orders and random sources
may be different each time.  (A failed call returns no blob and leaves the wallet as it is.) -/
inductive Run (E : Env) : Bytes × Str → List Event → Bytes × Str → Prop
  | nil (s) : Run E s [] s
  | change (s evs b p b' p' r r') : Run E s evs (b, p) → (Manager.changePassword E b p p').run r = (.ok b', r') →
      Run E s (evs ++ [.changed]) (b', p')
  | add (s evs b p b' M it n r r') : Run E s evs (b, p) → (M.addNetwork E it b p n).run r = (.ok b', r') →
      Run E s (evs ++ [.added M n]) (b', p)

end KC.Spec.Wallet
