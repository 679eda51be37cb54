import Verif.Spec.CApi
import Verif.Spec.Wallet
import Verif.Spec.Bip39
/-
What a caller can learn of a secret from a refusal (C85).
-/
namespace KC.Spec.Secrets
open KC.C KC.Spec.C KC.Spec.Wallet KC.Spec
open KC.Mnemonic (Language)

/-- The blob opens with this password. -/
def OpensWith (E : Env) (blob : Bytes) (pw : Str) : Prop := ∃ plain, Opens E blob pw plain

/-- A password in C: text that does not open the blob. -/
def WrongC (E : Env) (blob : Bytes) (pw : CText) : Prop := ∃ t, Str.utf8 t = pw.val ∧ ¬ OpensWith E blob t

/-- Text in C. -/
def TextC (s : CText) : Prop := ∃ t, Str.utf8 t = s.val

/-- The same call with another wrong password; when the password is to be changed, also with another new one. -/
inductive OtherPassword (E : Env) : {k : Kind} → Fn k → Fn k → Prop
  | open (blob : Bytes) (p q : CText) : WrongC E blob p → WrongC E blob q → OtherPassword E (.open blob p) (.open blob q)
  | add (blob : Bytes) (p q : CText) (n : CNetwork) : WrongC E blob p → WrongC E blob q → OtherPassword E (.add blob p n) (.add blob q n)
  | change (blob : Bytes) (p q new new' : CText) : WrongC E blob p → WrongC E blob q → TextC new → TextC new' →
      OtherPassword E (.change blob p new) (.change blob q new')
  | keysData (blob : Bytes) (p q : CText) : WrongC E blob p → WrongC E blob q → OtherPassword E (.keysData blob p) (.keysData blob q)
  | retrieve (blob : Bytes) (p q : CText) : WrongC E blob p → WrongC E blob q → OtherPassword E (.retrieve blob p) (.retrieve blob q)

/-- The first word of the text that is not in the list. -/
def FirstUnknown (l : Language) (text w : Str) : Prop :=
  ∃ pre post : List Str, text = spaced (pre ++ w :: post) ∧ (∀ x ∈ pre, x ∈ l.toDict.words) ∧ w ∉ l.toDict.words ∧ ' ' ∉ w ∧ ∀ x ∈ post, ' ' ∉ x

/-- The text consists of `n` words of the list. -/
def KnownWords (l : Language) (text : Str) (n : Nat) : Prop :=
  ∃ ws : List Str, ws ≠ [] ∧ text = spaced ws ∧ (∀ w ∈ ws, w ∈ l.toDict.words) ∧ ws.length = n

/-- Two refused texts that are refused for the same reason. -/
inductive SameFault (l : Language) (size : Nat) (t t' : Str) : Prop
  | word (w : Str) : FirstUnknown l t w → FirstUnknown l t' w → SameFault l size t t'
  | count (n : Nat) : KnownWords l t n → KnownWords l t' n → n ∉ wordCounts ∨ n ≠ size / 32 * 3 → SameFault l size t t'

/-- The same request for a wallet with another password and another phrase, refused for the same reason. -/
def OtherPhrase (size : Nat) (m m' pw pw' : CText) (lang : CLanguage) : Prop :=
  ∃ t t' l, Str.utf8 t = m.val ∧ Str.utf8 t' = m'.val ∧ TextC pw ∧ TextC pw' ∧ lang.rust = some l ∧ SameFault l size t t'

end KC.Spec.Secrets
