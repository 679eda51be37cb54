import Verif.Model.Live
import Verif.Spec.Keys
/-
What is asked of a path and what becomes of the answers.
-/
namespace KC.Spec.Live
open KC.KeyPath (Path)

/-- Questions with their answers, in order. -/
abbrev Log := List (Part × UInt32)

/-- The path gives these answers, after the questions `h`. -/
def Says (L : Live) : List Part → Log → Prop
  | _, [] => True
  | h, (q, v) :: l => L h q = some v ∧ Says L (h ++ [q]) l

/-- The questions by which one part of a path is checked: the answer that is looked at comes first; an error carries an answer to a
further question. -/
inductive Check (net : Net) : Part → Log → Option KeyPath.Error → Prop
  | anyPurpose : net = .bitcoin → Check net .purpose [] none
  | purpose (v) : net ≠ .bitcoin → v.toNat = 44 + 2 ^ 31 → Check net .purpose [(.purpose, v)] none
  | badPurpose (v w) : net ≠ .bitcoin → v.toNat ≠ 44 + 2 ^ 31 →
      Check net .purpose [(.purpose, v), (.purpose, w)] (some (.invalidPurpose w 0x8000002C))
  | coin (v) : v.toNat = net.coin + 2 ^ 31 → Check net .coin [(.coin, v)] none
  | badCoin (v w c) : v.toNat ≠ net.coin + 2 ^ 31 → c.toNat = net.coin + 2 ^ 31 →
      Check net .coin [(.coin, v), (.coin, w)] (some (.invalidCoin w c))
  | account (v) : 2 ^ 31 ≤ v.toNat → Check net .account [(.account, v)] none
  | badAccount (v w) : v.toNat < 2 ^ 31 → Check net .account [(.account, v), (.account, w)] (some (.invalidAccount w))
  | change0 : Check net .change [(.change, 0)] none
  | change1 (v) : v ≠ 0 → Check net .change [(.change, v), (.change, 1)] none
  | badChange (v w u) : v ≠ 0 → w ≠ 1 →
      Check net .change [(.change, v), (.change, w), (.change, u)] (some (.invalidChange u))
  | address (v) : v.toNat < 2 ^ 31 → Check net .address [(.address, v)] none
  | badAddress (v w) : 2 ^ 31 ≤ v.toNat → Check net .address [(.address, v), (.address, w)] (some (.invalidAddress w))

/-- Checks in a row, up to the first that fails. -/
inductive Checks (net : Net) : List Part → Log → Option KeyPath.Error → Prop
  | done : Checks net [] [] none
  | stop {q qs l e} : Check net q l (some e) → Checks net (q :: qs) l (some e)
  | next {q qs l l' r} : Check net q l none → Checks net qs l' r → Checks net (q :: qs) (l ++ l') r

/-- The order of the checks. -/
def order : List Part := [.purpose, .coin, .account, .change, .address]

/-- The questions whose answers the key is derived with. -/
def used : Net → Path → Log
  | .bitcoin, g => [(.purpose, g.purpose), (.coin, g.coin), (.account, g.account), (.change, g.change), (.address, g.address)]
  | _, g => [(.account, g.account), (.change, g.change), (.address, g.address)]

/-- The numbers the key is derived with, from the root. -/
def route : Net → Path → List UInt32
  | .bitcoin, g => [g.purpose, g.coin, g.account, g.change, g.address]
  | .ethereum, g => [0x8000002C, 0x8000003C, g.account, g.change, g.address]
  | .cardano, g => [0x8000002C, 0x80000717, g.account, g.change, g.address]

/-- The key of a built-in network, for paths of the caller. -/
def liveOf (H : Hashes) (C : Secp.Curve) (E : Cardano.Ed) : Net → Bytes → Res Key.Error LiveKey
  | .bitcoin => Bitcoin.liveFromData H C
  | .ethereum => Ethereum.liveFromData H C
  | .cardano => Cardano.liveFromData E

end KC.Spec.Live
