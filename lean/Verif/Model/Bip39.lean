import Verif.Model.Bits
import Verif.Model.Prims
/-
Model of bip39/src/bip39.rs.
-/
namespace KC.Bip39

/-- bip39/src/bip39.rs:863-866 `dictionary::Error`. -/
inductive DictError where
  | wordNotFound (w : Str)
deriving DecidableEq, Repr

/-- bip39.rs:61-88 `Error`. -/
inductive Error where
  | wrongNumberOfWords (n : Nat)
  | wrongKeySize (n : Nat)
  | mnemonicOutOfBound (m : UInt16)
  | languageError (e : DictError)
  | invalidSeedSize (n : Nat)
  | invalidChecksum (expected computed : UInt8)
deriving DecidableEq, Repr

/-- bip39.rs:585-592 `Type`. -/
inductive MType where
  | w9 | w12 | w15 | w18 | w21 | w24
deriving DecidableEq, Repr

namespace MType

/-- bip39.rs:594-604 `Type::from_word_count`. -/
def fromWordCount (len : Nat) : Res Error MType :=
  match len with
  | 9 => .ok w9
  | 12 => .ok w12
  | 15 => .ok w15
  | 18 => .ok w18
  | 21 => .ok w21
  | 24 => .ok w24
  | n => .err (.wrongNumberOfWords n)

/-- bip39.rs:606-616 `Type::from_entropy_size`. -/
def fromEntropySize (len : Nat) : Res Error MType :=
  match len with
  | 96 => .ok w9
  | 128 => .ok w12
  | 160 => .ok w15
  | 192 => .ok w18
  | 224 => .ok w21
  | 256 => .ok w24
  | n => .err (.wrongKeySize n)

/-- bip39.rs:618-627 `Type::to_key_size`. -/
def toKeySize : MType → Nat
  | w9 => 96 | w12 => 128 | w15 => 160 | w18 => 192 | w21 => 224 | w24 => 256

/-- bip39.rs:629-638 `Type::checksum_size_bits`. -/
def checksumSizeBits : MType → Nat
  | w9 => 3 | w12 => 4 | w15 => 5 | w18 => 6 | w21 => 7 | w24 => 8

/-- bip39.rs:640-649 `Type::mnemonic_count`. -/
def mnemonicCount : MType → Nat
  | w9 => 9 | w12 => 12 | w15 => 15 | w18 => 18 | w21 => 21 | w24 => 24

/-- bip39.rs:656-667 `Display for Type`. -/
def display : MType → Str
  | w9 => ['9'] | w12 => ['1', '2'] | w15 => ['1', '5'] | w18 => ['1', '8'] | w21 => ['2', '1'] | w24 => ['2', '4']

/-- bip39.rs:668-681 `FromStr for Type` (the error is a constant message). -/
def fromStr (s : Str) : Option MType :=
  if s = ['9'] then some w9
  else if s = ['1', '2'] then some w12
  else if s = ['1', '5'] then some w15
  else if s = ['1', '8'] then some w18
  else if s = ['2', '1'] then some w21
  else if s = ['2', '4'] then some w24
  else none

end MType

/-- bip39.rs:684 `MAX_MNEMONIC_VALUE`. -/
def maxMnemonicValue : UInt16 := 2047

/-- bip39.rs:716-722 `MnemonicIndex::new`; the struct (693) is its public `u16` field. -/
def indexNew (m : UInt16) : Res Error UInt16 :=
  if m ≤ maxMnemonicValue then .ok m else .err (.mnemonicOutOfBound m)

/-- bip39.rs:769-770 `Mnemonics`: its private vector of indices. -/
structure Mnemonics where
  idx : List UInt16
deriving DecidableEq, Repr

/-- bip39.rs:837-840 `Mnemonics::from_mnemonics`. -/
def Mnemonics.fromMnemonics (v : List UInt16) : Res Error Mnemonics := do
  let _ ← MType.fromWordCount v.length
  .ok ⟨v⟩

/-- bip39.rs:787-789 `Mnemonics::get_type`; `none` = `unwrap` panic. -/
def Mnemonics.getType (m : Mnemonics) : Option MType :=
  match MType.fromWordCount m.idx.length with
  | .ok t => some t
  | _ => none

/-- bip39.rs:129-136 `Entropy`: a variant per type, holding exactly that many bytes. -/
structure Entropy where
  ty : MType
  bytes : Bytes
  len : bytes.length = ty.toKeySize / 8

/-- bip39.rs:179-192 `Entropy::new`: copies as many bytes as the variant has; `none` = index panic. -/
def Entropy.new (t : MType) (bytes : Bytes) : Option Entropy :=
  if h : t.toKeySize / 8 ≤ bytes.length then
    some ⟨t, bytes.take (t.toKeySize / 8), by rw [List.length_take]; omega⟩
  else none

/-- bip39.rs:146-149 `Entropy::from_slice`. -/
def Entropy.fromSlice (bytes : Bytes) : Res Error Entropy := do
  let t ← MType.fromEntropySize (bytes.length * 8)
  Res.ofPanic (Entropy.new t bytes)

/-- bip39.rs:167-177 `Entropy::generate`, with the bytes the generator wrote into the buffer of the type's size; `none` never
occurs for a generator filling exactly the buffer. -/
def Entropy.generate (t : MType) (filled : Bytes) : Option Entropy :=
  if h : filled.length = t.toKeySize / 8 then some ⟨t, filled, h⟩ else none

/-- bip39.rs:219-227 `Entropy::hash`. -/
def Entropy.hash (P : Hashes) (e : Entropy) : Bytes := P.sha256 e.bytes

/-- bip39.rs:258-268 `Entropy::checksum`; `hash[0]` exists as a hash has 32 bytes. -/
def Entropy.checksum (P : Hashes) (e : Entropy) : UInt8 :=
  let hash := (e.hash P).headD 0
  match e.ty with
  | .w9 => (hash >>> 5) &&& 0b00000111
  | .w12 => (hash >>> 4) &&& 0b00001111
  | .w15 => (hash >>> 3) &&& 0b00011111
  | .w18 => (hash >>> 2) &&& 0b00111111
  | .w21 => (hash >>> 1) &&& 0b01111111
  | .w24 => hash

/-- bip39.rs:291-313 `Entropy::from_mnemonics`. -/
def Entropy.fromMnemonics (P : Hashes) (m : Mnemonics) : Res Error Entropy := do
  let t ← Res.ofPanic m.getType
  let w ← Res.ofPanic (Bits.Writer.new.writeAll m.idx)
  let r := w.toBytes
  -- `&r[..t.to_key_size() / 8]` panics when out of range
  let entropyBytes ← Res.ofPanic (if t.toKeySize / 8 ≤ r.length then some (r.take (t.toKeySize / 8)) else none)
  let entropy ← Res.ofPanic (Entropy.new t entropyBytes)
  match r.getLast? with
  | some h =>
    let h2 := h >>> (8 - UInt8.ofNat t.checksumSizeBits)
    let cs := entropy.checksum P
    if cs ≠ h2 then .err (.invalidChecksum cs h2) else .ok entropy
  | none => .ok entropy

/-- bip39.rs:338-353, the word loop of `to_mnemonics`: read 11 bits, wrap in `MnemonicIndex::new(n).unwrap()`
(the `debug_assert!` at 344 checks the same bound); `none` = panic. -/
def readIndices (r : Bits.Reader) : Nat → Option (List UInt16)
  | 0 => some []
  | k + 1 => do
    let (n, r') ← r.read
    match indexNew n with
    | .ok i => do
      let t ← readIndices r' k
      some (i :: t)
    | _ => none

/-- bip39.rs:328-357 `Entropy::to_mnemonics`; `none` = panic. -/
def Entropy.toMnemonics (P : Hashes) (e : Entropy) : Option Mnemonics := do
  let combined := e.bytes ++ e.hash P
  let words ← readIndices (Bits.Reader.new combined) e.ty.mnemonicCount
  match Mnemonics.fromMnemonics words with
  | .ok m => some m
  | _ => none

/-- bip39.rs:899-902 `DefaultDictionary`: an array of exactly 2048 words, and a name. -/
structure Dict where
  words : List Str
  len : words.length = 2048
  name : Str

/-- bip39.rs:907-909 `separator`. -/
def Dict.separator (_ : Dict) : Char := ' '

/-- bip39.rs:910-922 `lookup_mnemonic`: `position` of the word, `v as u16`, `MnemonicIndex::new(..).unwrap()`. -/
def Dict.lookupMnemonic (d : Dict) (word : Str) : Res DictError UInt16 :=
  match d.words.findIdx? (· = word) with
  | none => .err (.wordNotFound word)
  | some v =>
    match indexNew (UInt16.ofNat v) with
    | .ok i => .ok i
    | _ => .panic

/-- bip39.rs:923-925 `lookup_word`: `get_unchecked`, so `none` = undefined behaviour (read outside the array);
also 732-737 `MnemonicIndex::to_word`. -/
def Dict.lookupWord (d : Dict) (m : UInt16) : Option Str := d.words[m.toNat]?

/-- bip39.rs:748-754 `MnemonicIndex::from_word`. -/
def indexFromWord (d : Dict) (word : Str) : Res Error UInt16 :=
  (d.lookupMnemonic word).mapErr .languageError

/-- `str::split` by a single character: the pieces between occurrences, always at least one. -/
def split (sep : Char) : Str → List Str
  | [] => [[]]
  | c :: s =>
    if c = sep then [] :: split sep s
    else match split sep s with
      | [] => [[c]]
      | h :: t => (c :: h) :: t

/-- bip39.rs:825-827, the loop of `from_string`. -/
def fromWords (d : Dict) : List Str → Res Error (List UInt16)
  | [] => .ok []
  | w :: ws => do
    let i ← indexFromWord d w
    let is ← fromWords d ws
    .ok (i :: is)

/-- bip39.rs:820-829 `Mnemonics::from_string` (with a `DefaultDictionary`). -/
def Mnemonics.fromString (d : Dict) (s : Str) : Res Error Mnemonics := do
  let v ← fromWords d (split d.separator s)
  Mnemonics.fromMnemonics v

/-- bip39.rs:800-807, the loop of `to_string`; `none` = undefined behaviour of `lookup_word`. -/
def toStringLoop (d : Dict) : List UInt16 → Bool → Option Str
  | [], _ => some []
  | m :: ms, first => do
    let w ← d.lookupWord m
    let t ← toStringLoop d ms false
    some ((if first then [] else [d.separator]) ++ w ++ t)

/-- bip39.rs:794-809 `Mnemonics::to_string` (a `MnemonicString` is its text). -/
def Mnemonics.toText (d : Dict) (m : Mnemonics) : Option Str := toStringLoop d m.idx true

/-- bip39.rs:548-555 `MnemonicString::new`. -/
def mnemonicStringNew (d : Dict) (s : Str) : Res Error Str := do
  let _ ← Mnemonics.fromString d s
  .ok s

/-- bip39.rs:401 `SEED_SIZE`. -/
def seedSize : Nat := 64

/-- bip39.rs:408 `Seed`: 64 bytes. -/
abbrev Seed := { b : Bytes // b.length = seedSize }

/-- bip39.rs:445-452 `Seed::from_slice`. -/
def Seed.fromSlice (buf : Bytes) : Res Error Seed :=
  if h : buf.length = seedSize then .ok ⟨buf, h⟩ else .err (.invalidSeedSize buf.length)

/-- bip39.rs:478-485 `Seed::from_mnemonic_string`. -/
def Seed.fromMnemonicString (P : Hashes) (text : Str) (password : Bytes) : Seed :=
  ⟨P.pbkdf2 (Str.utf8 text) (Str.utf8 "mnemonic".toList ++ password) 2048 seedSize, P.pbkdf2_len _ _ _ _⟩

/-- Memory: a byte at each address. -/
abbrev Mem := Nat → UInt8

/-- Writing one byte. -/
def Mem.write (m : Mem) (p : Nat) (v : UInt8) : Mem := fun q => if q = p then v else m q

/-- `std::ptr::write_bytes(p, v, n)`: `n` writes. -/
def Mem.writeBytes (m : Mem) (p : Nat) (v : UInt8) : Nat → Mem
  | 0 => m
  | n + 1 => (m.write p v).writeBytes (p + 1) v n

/-- `copy_from_slice` into `n` bytes at `p`: panics unless the lengths agree. -/
def Mem.copyFrom (m : Mem) (p n : Nat) (src : Bytes) : Option Mem :=
  if n = src.length then some (go m p src) else none
where
  go (m : Mem) (p : Nat) : Bytes → Mem
    | [] => m
    | v :: src => go (m.write p v) (p + 1) src

/-- A slice: address and length. -/
structure Slice where
  addr : Nat
  len : Nat

/-- bip39/src/util/securemem.rs:4-13 `zero`. -/
def zero (m : Mem) (s : Slice) : Mem := m.writeBytes s.addr 0 s.len

/-- bip39.rs:129-136: the array of a variant, as a slice; `a` is the address of the array in the value. -/
def Entropy.slice (t : MType) (a : Nat) : Slice :=
  match t with
  | .w9 => ⟨a, 12⟩
  | .w12 => ⟨a, 16⟩
  | .w15 => ⟨a, 20⟩
  | .w18 => ⟨a, 24⟩
  | .w21 => ⟨a, 28⟩
  | .w24 => ⟨a, 32⟩

/-- bip39.rs:387-398 `Drop for Entropy`, for a value of variant `t` with its array at `a`. -/
def Entropy.dropAt (m : Mem) (t : MType) (a : Nat) : Mem :=
  match t with
  | .w9 => zero m (slice .w9 a)
  | .w12 => zero m (slice .w12 a)
  | .w15 => zero m (slice .w15 a)
  | .w18 => zero m (slice .w18 a)
  | .w21 => zero m (slice .w21 a)
  | .w24 => zero m (slice .w24 a)

/-- bip39.rs:513-517 `Drop for Seed`, with its array (bip39.rs:408) at `a`. -/
def Seed.dropAt (m : Mem) (a : Nat) : Option Mem := m.copyFrom a seedSize (List.replicate seedSize 0)

end KC.Bip39
