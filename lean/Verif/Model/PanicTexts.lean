import Verif.Model.CApi
/-
The texts of the panics of keychain-c/src/utils/string.rs, which become texts of errors (keychain-c/src/utils/panic.rs:15-18).  `Model.CApi`
leaves the payload of a panic open.
-/
namespace KC.C

/-- The standard library's text for `unwrap` of an error with the given `Debug` form. -/
def unwrapText (e : Str) : Str := "called `Result::unwrap()` on an `Err` value: ".toList ++ e

/-- `Debug` of `[u8]` after the first number. -/
def moreBytes : Bytes → Str
  | [] => []
  | a :: r => ", ".toList ++ (showNat a.toNat ++ moreBytes r)

/-- `Debug` of `[u8]`. -/
def bytesDebug : Bytes → Str
  | [] => "[]".toList
  | a :: r => "[".toList ++ (showNat a.toNat ++ (moreBytes r ++ "]".toList))

/-- `Debug` of `std::ffi::NulError(usize, Vec<u8>)`: where the first NUL is, and all bytes. -/
def nulErrorDebug (b : Bytes) : Str := "NulError(".toList ++ (showNat (b.idxOf 0) ++ (", ".toList ++ (bytesDebug b ++ ")".toList)))

/-- utils/string.rs:27-37 `to_cstr`: the payload of its panic. -/
def toCstrPanic (s : Str) : PanicPayload := .text (unwrapText (nulErrorDebug (Str.utf8 s)))

end KC.C
