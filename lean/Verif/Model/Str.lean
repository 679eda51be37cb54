import Verif.Model.Basic
/-
Rust `str` as a list of Unicode scalar values, with its UTF-8 view.
-/
namespace KC

/-- `str::as_bytes` / `str::bytes`: the UTF-8 encoding (core Lean's `String.utf8EncodeChar` per character). -/
def Str.utf8 (s : Str) : Bytes := s.flatMap String.utf8EncodeChar

/-- `str::len`: length in bytes. -/
def Str.len (s : Str) : Nat := (Str.utf8 s).length

end KC
