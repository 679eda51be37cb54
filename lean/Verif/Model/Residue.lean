import Verif.Model.Bip39
/-
What deleting a text through the C interface writes to the memory it frees.  What the allocator does with freed memory is not modelled.
-/
namespace KC.C
open KC.Bip39 (Mem)

/-- utils/string.rs:12-15 `free` (used by `delete_string` 18-21, `delete_mnemonic_info` backup.rs:75-80 and
`delete_error` error.rs:35-40) of a text at `a`: dropping a `CString` writes 0 to its first byte (standard library, `Drop for CString`). -/
def charFreeMem (m : Mem) (a : Nat) : Mem := m.write a 0

end KC.C
