import Verif.Model.Keys
import Verif.Spec.Bip32
/-
Which paths a network's key takes, and what it reports otherwise; correctness of the signature schemes.
-/
namespace KC.Spec
open KC.KeyPath (Path)

/-- The built-in networks. -/
inductive Net where
  | bitcoin | ethereum | cardano
deriving DecidableEq, Repr

/-- SLIP-44 coin numbers. -/
def Net.coin : Net → Nat
  | .bitcoin => 0
  | .ethereum => 60
  | .cardano => 1815

/-- Purpose 44', unless the network takes any purpose. -/
def PurposeOk (net : Net) (p : Path) : Prop := net = .bitcoin ∨ p.purpose.toNat = 44 + 2 ^ 31
def CoinOk (net : Net) (p : Path) : Prop := p.coin.toNat = net.coin + 2 ^ 31
def AccountOk (p : Path) : Prop := 2 ^ 31 ≤ p.account.toNat
def ChangeOk (p : Path) : Prop := p.change.toNat = 0 ∨ p.change.toNat = 1
def AddressOk (p : Path) : Prop := p.address.toNat < 2 ^ 31

/-- The paths of a network. -/
def Accepts (net : Net) (p : Path) : Prop :=
  PurposeOk net p ∧ CoinOk net p ∧ AccountOk p ∧ ChangeOk p ∧ AddressOk p

/-- The error of the first failing check, in the order purpose, coin, account, change, address. -/
inductive Refuses (net : Net) (p : Path) : KeyPath.Error → Prop
  | purpose : ¬ PurposeOk net p → Refuses net p (.invalidPurpose p.purpose 0x8000002C)
  | coin (c : UInt32) : PurposeOk net p → ¬ CoinOk net p → c.toNat = net.coin + 2 ^ 31 → Refuses net p (.invalidCoin p.coin c)
  | account : PurposeOk net p → CoinOk net p → ¬ AccountOk p → Refuses net p (.invalidAccount p.account)
  | change : PurposeOk net p → CoinOk net p → AccountOk p → ¬ ChangeOk p → Refuses net p (.invalidChange p.change)
  | address : PurposeOk net p → CoinOk net p → AccountOk p → ChangeOk p → ¬ AddressOk p →
      Refuses net p (.invalidAddress p.address)

/-- The factory of a built-in network. -/
def factoryOf (H : Hashes) (C : Secp.Curve) (E : Cardano.Ed) : Net → Factory
  | .bitcoin => Bitcoin.factory H C
  | .ethereum => Ethereum.factory H C
  | .cardano => Cardano.factory H E

/-- A signature made with a secret verifies with its public key. -/
def EcdsaCorrect (C : Secp.Curve) : Prop :=
  ∀ m k r s v, C.sign m k = .ok (r, s, v) → C.verify m (r ++ s) (C.pub k) = true

def EdCorrect (E : Cardano.Ed) : Prop := ∀ x m, E.verify x m (E.sign x m) = true

end KC.Spec
