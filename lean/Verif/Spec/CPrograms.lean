import Verif.Spec.CApi
import Verif.Spec.Standard
/-
A wallet that goes from one C program to another, and what a program gets from a keychain, in terms of return values and of the memory that
C reads.
-/
namespace KC.Spec.C
open KC.C
open KC.Spec.Bip32 (be n)
open KC.Spec.Secp256k1 (G Uncompressed Valid Recovers)
open KC.Spec.Ed25519 (B Encodes le l)
open KC.Spec.Standard (EdValid)

/-- A program that follows the rule can be in this state. -/
def Reached (W : Build) (s : State) : Prop := ∃ ops, Follows W ops ⟨[], []⟩ ∧ State.run W ops ⟨[], []⟩ = .next s

/-- A call with the handle in variable `j` returns true, with a value that C reads so. -/
def MayGive (W : Build) (s : State) (j : Nat) {k : Kind} (f : Fn k) (c : Content k) : Prop :=
  ∃ x val err s' v, s.step W (.call k f x j val err) = .next s' ∧ s'.vars = s.vars ++ [⟨k, v⟩] ∧ Reads W s'.heap k v c

/-- It does so whatever the circumstances of the call. -/
def Gives (W : Build) (s : State) (j : Nat) {k : Kind} (f : Fn k) (c : Content k) : Prop :=
  ∀ x val err, ∃ s' v, s.step W (.call k f x j val err) = .next s' ∧ s'.vars = s.vars ++ [⟨k, v⟩] ∧ Reads W s'.heap k v c

/-- Some program of the build made the call and got this. -/
def Returned (W : Build) {k : Kind} (f : Fn k) (c : Content k) : Prop := ∃ s j, Reached W s ∧ MayGive W s j f c

/-- Data and password, before and after programs of such builds changed the password or added a network, each handing on the data that it
got; with the networks added. -/
inductive Handed (P : Build → Prop) (start : Bytes × CText) : List Network → Bytes × CText → Prop
  | start : Handed P start [] start
  | change {adds b pw W pw' b'} : Handed P start adds (b, pw) → P W → Returned W (.change b pw pw') b' → Handed P start adds (b', pw')
  | add {adds b pw W net b'} : Handed P start adds (b, pw) → P W → Returned W (.add b pw net) b' → Handed P start (adds ++ [net.val]) (b', pw)

/-- Variable `j` of the program is a keychain that it opened from this data with this password, at some time, and has not deleted since. -/
def Opened (W : Build) (b : Bytes) (pw : CText) (s : State) (j : Nat) : Prop :=
  ∃ s0 s1 x i val err v ops, Reached W s0 ∧ s0.step W (.call .keychain (.open b pw) x i val err) = .next s1 ∧
    s1.vars = s0.vars ++ [⟨.keychain, v⟩] ∧ j = s0.vars.length ∧ Follows W ops s1 ∧ .delete j ∉ ops ∧ s1.run W ops = .next s

/-- The path that C passes. -/
def pathTo (q : CKeyPath) : KeyPath.Path := ⟨q.purpose, q.coin, q.account, q.change, q.address⟩

/-- A program with a keychain in variable `j` has, on a network at a path, the secp256k1 key `k`. -/
structure SecpInC (W : Build) (s : State) (j : Nat) (net : CNetwork) (p : CKeyPath) (k : Nat) : Prop where
  /-- keychain_pub_key returns true and hands out the uncompressed form of `k G`. -/
  pub : ∃ out, Gives W s j (.pubKey net p) out ∧ Uncompressed (k • G) out
  /-- keychain_verify of 64 bytes returns true and says whether they are a valid signature of the Keccak-256 hash. -/
  accepts : ∀ m z sig, Keccak.IsHash m z → sig.length = 64 → ∃ b : Bool, Gives W s j (.verify net m sig p) b ∧
    (b = true ↔ Valid (be z) (be (sig.take 32)) (be (sig.drop 32)) (k • G))
  /-- What keychain_sign hands out is a valid signature with the lower `s` and the byte that recovers the key; the signature verifies. -/
  signs : ∀ m z sig, Keccak.IsHash m z → MayGive W s j (.sign net m p) sig → ∃ r t v, sig = r ++ t ++ [v] ∧ r.length = 32 ∧ t.length = 32 ∧
    (v = 0 ∨ v = 1) ∧ be t ≤ n / 2 ∧ Valid (be z) (be r) (be t) (k • G) ∧ Recovers (be z) (be r) (be t) v.toNat (k • G) ∧
    Gives W s j (.verify net m (r ++ t) p) true

/-- A program with a keychain in variable `j` has, for Cardano at a path, the key with scalar `k` and chain code `c`. -/
structure CardanoInC (ok : Nat → Bool) (W : Build) (s : State) (j : Nat) (p : CKeyPath) (k : Nat) (c : Bytes) : Prop where
  /-- keychain_pub_key returns true and hands out the encoding of `k B` and the chain code. -/
  pub : ∃ a, Gives W s j (.pubKey ⟨0x80000717⟩ p) (a ++ c) ∧ a.length = 32 ∧ c.length = 32 ∧ Encodes (k • B) a
  /-- keychain_verify of 64 bytes returns true and says whether they are a valid signature. -/
  accepts : ∀ m sig, m.length < 2 ^ 120 → sig.length = 64 → ∃ b : Bool, Gives W s j (.verify ⟨0x80000717⟩ m sig p) b ∧
    (b = true ↔ ok (le (sig.drop 32)) = true ∧ EdValid (k • B) m (sig.take 32) (sig.drop 32))
  /-- keychain_sign returns true and hands out a valid signature, which verifies. -/
  signs : ∀ m, m.length < 2 ^ 120 → ∃ R S, Gives W s j (.sign ⟨0x80000717⟩ m p) (R ++ S) ∧ R.length = 32 ∧ S.length = 32 ∧ le S < l ∧
    EdValid (k • B) m R S ∧ Gives W s j (.verify ⟨0x80000717⟩ m (R ++ S) p) true

end KC.Spec.C
