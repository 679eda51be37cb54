import Verif.Model.Mnemonic
/-
The functions whose arithmetic on lengths can leave `usize`, with its width `w` (32 or 64 bits) and the build profile.
The other modules take these lengths to be small; C91 says when that is right.
-/
namespace KC

/-- `a * b` on `usize` of `w` bits: panic on overflow in debug builds, wrap in release builds. -/
def mulUsize (w : Nat) (p : Profile) (a b : Nat) : Option Nat :=
  if a * b < 2 ^ w then some (a * b)
  else match p with
    | .debug => none
    | .release => some (a * b % 2 ^ w)

/-- `a - b` on `usize` of `w` bits. -/
def subUsize (w : Nat) (p : Profile) (a b : Nat) : Option Nat :=
  if b ≤ a then some (a - b)
  else match p with
    | .debug => none
    | .release => some (2 ^ w - (b - a))

/-- bip39/src/bip39.rs:146-149 `Entropy::from_slice`. -/
def Bip39.Entropy.fromSliceAt (w : Nat) (p : Profile) (bytes : Bytes) : Res Bip39.Error Bip39.Entropy := do
  let n ← Res.ofPanic (mulUsize w p bytes.length 8)
  let t ← Bip39.MType.fromEntropySize n
  Res.ofPanic (Bip39.Entropy.new t bytes)

/-- bip39/src/util/bits.rs:147-149 `BitReaderBy11::size`; `none` = panic. -/
def Bits.Reader.sizeAt (w : Nat) (p : Profile) (r : Bits.Reader) : Option Nat := do
  let n ← mulUsize w p r.buffer.length 8
  let m ← subUsize w p n r.state.index
  some (m / 11)

/-- keychain/src/mnemonic.rs:88-92 `mnemonic_from_entropy`. -/
def Mnemonic.mnemonicFromEntropyAt (w : Nat) (p : Profile) (P : Hashes) (bytes : Bytes) (language : Mnemonic.Language) :
    Res Mnemonic.Error Str := do
  let ent ← (Bip39.Entropy.fromSliceAt w p bytes).mapErr Mnemonic.Error.ofBip39
  let m ← Res.ofPanic (ent.toMnemonics P)
  Res.ofPanic (m.toText language.toDict)

end KC
