import Verif.Model.Bip39
/-
Model of keychain/src/key_path.rs and keychain/src/networks/{bitcoin,ethereum,cardano}/key_path.rs.
-/
namespace KC

/-- `char::is_whitespace` (Unicode `White_Space`), used by `str::trim`. -/
def isWhitespace (c : Char) : Bool :=
  let n := c.toNat
  (9 ≤ n && n ≤ 13) || n = 0x20 || n = 0x85 || n = 0xA0 || n = 0x1680 || (0x2000 ≤ n && n ≤ 0x200A) ||
  n = 0x2028 || n = 0x2029 || n = 0x202F || n = 0x205F || n = 0x3000

/-- `str::trim`. -/
def Str.trim (s : Str) : Str := ((s.dropWhile isWhitespace).reverse.dropWhile isWhitespace).reverse

/-- Splitting a `str` at a byte offset (`&s[..k]`, `&s[k..]`); `none` = panic (not a character boundary, or too far). -/
def Str.splitAtByte : Str → Nat → Option (Str × Str)
  | s, 0 => some ([], s)
  | [], _ + 1 => none
  | c :: s, k + 1 =>
    if c.utf8Size ≤ k + 1 then
      (Str.splitAtByte s (k + 1 - c.utf8Size)).map fun (a, b) => (c :: a, b)
    else none

namespace KeyPath

/-- key_path.rs:4 `BIP44_PURPOSE`. -/
def bip44Purpose : UInt32 := 0x8000002C
/-- key_path.rs:7 `BIP44_SOFT_UPPER_BOUND`. -/
def softUpperBound : UInt32 := 0x80000000
/-- key_path.rs:10 `KEY_PATH_PARTS_COUNT`. -/
def partsCount : Nat := 6

/-- `std::num::ParseIntError` of an unsigned parse.  (A lone `+` is `Empty` in early compilers, `InvalidDigit` in later ones;
the model takes the latter.) -/
inductive ParseIntError where
  | empty | invalidDigit | posOverflow
deriving DecidableEq, Repr

/-- key_path.rs:13-23 `Error`. -/
inductive Error where
  | invalidPartsCount (n : Nat)
  | invalidPurpose (got expected : UInt32)
  | invalidPathMarker (s : Str)
  | invalidCoin (got expected : UInt32)
  | invalidAccount (n : UInt32)
  | invalidChange (n : UInt32)
  | invalidAddress (n : UInt32)
  | emptyValueAtIndex (i : Nat)
  | parseErrorAtIndex (i : Nat) (e : ParseIntError)
deriving DecidableEq, Repr

/-- The digit loop of `u32::from_str_radix(_, 10)`: per character, a bad digit first, then overflow of `* 10`, then of
`+ digit`. -/
def parseDigits : Str → UInt32 → Res ParseIntError UInt32
  | [], acc => .ok acc
  | c :: s, acc =>
    if 48 ≤ c.toNat ∧ c.toNat ≤ 57 then
      if acc.toNat * 10 < 4294967296 then
        if acc.toNat * 10 + (c.toNat - 48) < 4294967296 then
          parseDigits s (UInt32.ofNat (acc.toNat * 10 + (c.toNat - 48)))
        else .err .posOverflow
      else .err .posOverflow
    else .err .invalidDigit

/-- `str::parse::<u32>`: an optional `+`, then digits. -/
def parseU32 : Str → Res ParseIntError UInt32
  | [] => .err .empty
  | ['+'] => .err .invalidDigit
  | '+' :: s => parseDigits s 0
  | s => parseDigits s 0

/-- key_path.rs:61-67 `GenericKeyPath`, and the view of any `KeyPath` trait object through its five getters (53-59, 126-146; of
the networks: bitcoin/key_path.rs:82-102, cardano/key_path.rs:28-48, ethereum/key_path.rs:28-48). -/
structure Path where
  purpose : UInt32
  coin : UInt32
  account : UInt32
  change : UInt32
  address : UInt32
deriving DecidableEq, Repr

/-- key_path.rs:77-82 `soft_int`. -/
def softInt (index : Nat) (s : Str) : Res Error UInt32 :=
  if Str.len s = 0 then .err (.emptyValueAtIndex index)
  else (parseU32 s).mapErr (.parseErrorAtIndex index)

/-- `a + b` on `u32`: panic on overflow in debug builds, wrap in release builds. -/
def addU32 (p : Profile) (a b : UInt32) : Option UInt32 :=
  if a.toNat + b.toNat < 4294967296 then some (a + b)
  else match p with
    | .debug => none
    | .release => some (a + b)

/-- key_path.rs:70-75 `hard_int`. -/
def hardInt (p : Profile) (index : Nat) (s : Str) : Res Error UInt32 :=
  if Str.len s = 0 then .err (.emptyValueAtIndex index)
  else do
    let (front, _) ← Res.ofPanic (Str.splitAtByte s (Str.len s - 1))
    let val ← softInt index front
    Res.ofPanic (addU32 p val softUpperBound)

/-- key_path.rs:84-93 `parse_int`. -/
def parseInt (p : Profile) (index : Nat) (s : Str) : Res Error UInt32 :=
  if Str.len s = 0 then .err (.emptyValueAtIndex index)
  else do
    let (_, last) ← Res.ofPanic (Str.splitAtByte s (Str.len s - 1))
    if last = ['\''] then hardInt p index s else softInt index s

/-- `u32::to_string`. -/
def decimal (n : UInt32) : Str := Nat.toDigits 10 n.toNat

/-- key_path.rs:95-101 `print_int`. -/
def printInt (v : UInt32) : Str :=
  if v ≥ softUpperBound then decimal (v - softUpperBound) ++ ['\''] else decimal v

/-- key_path.rs:103-119 `GenericKeyPath::from`. -/
def Path.from (p : Profile) (path : Str) : Res Error Path :=
  let parts := (Bip39.split '/' path).map Str.trim
  if parts.length ≠ partsCount then .err (.invalidPartsCount parts.length)
  else if parts.getD 0 [] ≠ ['m'] then .err (.invalidPathMarker (parts.getD 0 []))
  else do
    let purpose ← parseInt p 1 (parts.getD 1 [])
    let coin ← parseInt p 2 (parts.getD 2 [])
    let account ← parseInt p 3 (parts.getD 3 [])
    let change ← parseInt p 4 (parts.getD 4 [])
    let address ← parseInt p 5 (parts.getD 5 [])
    .ok { purpose, coin, account, change, address }

/-- key_path.rs:148-159 `From<&GenericKeyPath> for String`, `to_string` (121-123). -/
def Path.print (k : Path) : Str :=
  ['m', '/'] ++ printInt k.purpose ++ ['/'] ++ printInt k.coin ++ ['/'] ++ printInt k.account ++ ['/'] ++
    printInt k.change ++ ['/'] ++ printInt k.address

end KeyPath

namespace Bitcoin
open KeyPath

/-- networks/bitcoin/key_path.rs:4, 7, 10, 13. -/
def coinType : UInt32 := 0x80000000
def coinTypeTestnet : UInt32 := 0x80000001
def bip49Purpose : UInt32 := 0x80000031
def bip84Purpose : UInt32 := 0x80000054

/-- networks/bitcoin/key_path.rs:26-32 `KeyPath::coin`. -/
def coin (testnet : Bool) : UInt32 := if testnet then coinTypeTestnet else coinType

/-- networks/bitcoin/key_path.rs:35-46 `is_valid`. -/
def isValid (account change address : UInt32) : Res Error Unit :=
  if account ≥ softUpperBound then .err (.invalidAccount account)
  else if change ≠ 0 ∧ change ≠ 1 then .err (.invalidChange change)
  else if address ≥ softUpperBound then .err (.invalidAddress change)
  else .ok ()

/-- The common body of networks/bitcoin/key_path.rs:48-57, 59-68, 70-79, which differ in the purpose constant. -/
def pathWith (purpose : UInt32) (p : Profile) (testnet : Bool) (account change address : UInt32) : Res Error Path := do
  isValid account change address
  let a ← Res.ofPanic (addU32 p account softUpperBound)
  .ok { purpose, coin := coin testnet, account := a, change, address }

/-- networks/bitcoin/key_path.rs:48-57 `bip44`. -/
def bip44 := pathWith bip44Purpose
/-- networks/bitcoin/key_path.rs:59-68 `bip49`. -/
def bip49 := pathWith bip49Purpose
/-- networks/bitcoin/key_path.rs:70-79 `bip84`. -/
def bip84 := pathWith bip84Purpose

end Bitcoin

namespace Ethereum
open KeyPath

/-- networks/ethereum/key_path.rs:4. -/
def coinType : UInt32 := 0x8000003c

/-- networks/ethereum/key_path.rs:13-18 `KeyPath::new` (with the getters at 28-48). -/
def path (p : Profile) (account : UInt32) : Res Error Path :=
  if account ≥ softUpperBound then .err (.invalidAccount account)
  else do
    let a ← Res.ofPanic (addU32 p account softUpperBound)
    .ok { purpose := bip44Purpose, coin := coinType, account := a, change := 0, address := 0 }

/-- networks/ethereum/key_path.rs:20-25 `KeyPath::new_metamask`. -/
def pathMetamask (account : UInt32) : Res Error Path :=
  if account ≥ softUpperBound then .err (.invalidAccount account)
  else .ok { purpose := bip44Purpose, coin := coinType, account := softUpperBound, change := 0, address := account }

end Ethereum

namespace Cardano
open KeyPath

/-- networks/cardano/key_path.rs:4. -/
def coinType : UInt32 := 0x80000717

/-- networks/cardano/key_path.rs:14-25 `KeyPath::new` (with the getters at 28-48). -/
def path (p : Profile) (account change address : UInt32) : Res Error Path :=
  if account ≥ softUpperBound then .err (.invalidAccount account)
  else if change ≠ 0 ∧ change ≠ 1 then .err (.invalidChange change)
  else if address ≥ softUpperBound then .err (.invalidAddress change)
  else do
    let a ← Res.ofPanic (addU32 p account softUpperBound)
    .ok { purpose := bip44Purpose, coin := coinType, account := a, change, address }

end Cardano
end KC
