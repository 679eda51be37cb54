import Verif.Model.Bip39
import Verif.Model.Hex
/-
Text forms of bip39/src/bip39.rs.
-/
namespace KC.Bip39

/-- bip39.rs:651-655 `Default for Type`. -/
def MType.default : MType := .w18

/-- bip39.rs:197-206 `Entropy::get_type`. -/
def Entropy.getType (e : Entropy) : MType := e.ty

/-- bip39.rs:369-380 `AsRef<[u8]> for Entropy` (also 381-386 `Deref`): the array of the variant. -/
def Entropy.asRef (e : Entropy) : Bytes := e.bytes

/-- bip39.rs:359-363 `Display for Entropy`; `none` = panic.  `Debug` (364-368) is the same. -/
def Entropy.display (e : Entropy) : Option Str := Hex.encode e.asRef

/-- bip39.rs:422-424 `Seed::from_bytes`, of an array of 64 bytes. -/
def Seed.fromBytes (b : Bytes) (h : b.length = seedSize) : Seed := ⟨b, h⟩

/-- bip39.rs:502-506 `AsRef<[u8]> for Seed` (also 507-512 `Deref`). -/
def Seed.asRef (s : Seed) : Bytes := s.val

/-- bip39.rs:487-491 `PartialEq for Seed`. -/
def Seed.eq (s s' : Seed) : Bool := s.asRef == s'.asRef

/-- bip39.rs:497-501 `Display for Seed`; `Debug` (492-496) is the same. -/
def Seed.display (s : Seed) : Option Str := Hex.encode s.asRef

end KC.Bip39
