import Verif.Model.Str
/-
The parts of crate `serde_json` 1.0.40 that keychain/src/data.rs uses: the compact writer (`to_vec`) and the reader
(`from_slice`).

The reader is split in two: text to tree (this file), tree to value (`Model/Data.lean`).  The crate does both at once; a text
is accepted by it exactly when both steps accept, and errors are not distinguished here.
-/
namespace KC.Json

/-- `str::from_utf8`: the text with these UTF-8 bytes, if any (core Lean's decoder). -/
def ofUtf8 (b : Bytes) : Option Str := (ByteArray.utf8Decode? b.toByteArray).map Array.toList

/-- A parsed value.  Strings are `none` when they are well delimited but are not Unicode text (lone surrogates, invalid UTF-8):
the crate accepts those only in values it skips.  Numbers with a fraction or an exponent are only known as such: no field
accepts them. -/
inductive Json where
  | null
  | bool (b : Bool)
  | int (i : Int)
  | float
  | str (s : Option Str)
  | arr (l : List Json)
  | obj (l : List (Option Str × Json))

/-! ### Writer -/

/-- Hex digit of a number below 16, `0-9a-f`. -/
def hexDigit (n : Nat) : UInt8 := if n < 10 then UInt8.ofNat (48 + n) else UInt8.ofNat (87 + n)

/-- `serde_json::ser::format_escaped_str_contents`, one byte: `"`, `\` and control characters are escaped. -/
def escape (b : UInt8) : Bytes :=
  if b = 34 then [92, 34]
  else if b = 92 then [92, 92]
  else if b = 8 then [92, 98]
  else if b = 9 then [92, 116]
  else if b = 10 then [92, 110]
  else if b = 12 then [92, 102]
  else if b = 13 then [92, 114]
  else if b < 32 then [92, 117, 48, 48, hexDigit (b.toNat / 16), hexDigit (b.toNat % 16)]
  else [b]

/-- `Serializer::serialize_str`. -/
def writeStr (s : Str) : Bytes := [34] ++ (Str.utf8 s).flatMap escape ++ [34]

/-- Decimal digits (crate `itoa`), as in `serialize_u16`, `serialize_u32`. -/
def writeNat (n : Nat) : Bytes := if n < 10 then [UInt8.ofNat (48 + n)] else writeNat (n / 10) ++ [UInt8.ofNat (48 + n % 10)]

/-- `Serializer::serialize_none`. -/
def writeNull : Bytes := [110, 117, 108, 108]

/-- Elements separated by commas. -/
def commas : List Bytes → Bytes
  | [] => []
  | [x] => x
  | x :: xs => x ++ [44] ++ commas xs

/-- `collect_seq` / `serialize_tuple`. -/
def writeArr (l : List Bytes) : Bytes := [91] ++ commas l ++ [93]

/-- `serialize_struct`: named fields in order. -/
def writeObj (l : List (Str × Bytes)) : Bytes := [123] ++ commas (l.map fun f => writeStr f.1 ++ [58] ++ f.2) ++ [125]

/-! ### Reader -/

/-- `parse_whitespace`. -/
def skipWs : Bytes → Bytes
  | [] => []
  | b :: r => if b = 32 ∨ b = 10 ∨ b = 9 ∨ b = 13 then skipWs r else b :: r

/-- `decode_hex_val`. -/
def hexVal (b : UInt8) : Option Nat :=
  if 48 ≤ b ∧ b ≤ 57 then some (b.toNat - 48)
  else if 97 ≤ b ∧ b ≤ 102 then some (b.toNat - 87)
  else if 65 ≤ b ∧ b ≤ 70 then some (b.toNat - 55)
  else none

/-- `decode_hex_escape`: four hex digits. -/
def hex4 (a b c d : UInt8) : Option Nat := do
  let a ← hexVal a
  let b ← hexVal b
  let c ← hexVal c
  let d ← hexVal d
  return ((a * 16 + b) * 16 + c) * 16 + d

/-- A piece of a string literal: a byte, or a `\u` escape. -/
inductive Piece where
  | byte (b : UInt8)
  | uni (n : Nat)
deriving DecidableEq

/-- `parse_escape` / `ignore_escape`, the one-letter escapes. -/
def simpleEscape (b : UInt8) : Option UInt8 :=
  if b = 34 then some 34 else if b = 92 then some 92 else if b = 47 then some 47
  else if b = 98 then some 8 else if b = 102 then some 12 else if b = 110 then some 10
  else if b = 114 then some 13 else if b = 116 then some 9 else none

/-- `parse_str_bytes` / `ignore_str`, after the opening quote: pieces and what follows the closing quote. -/
def lexStr : Bytes → Option (List Piece × Bytes)
  | [] => none
  | b :: r =>
    if b = 34 then some ([], r)
    else if b = 92 then
      match r with
      | [] => none
      | c :: r1 =>
        if c = 117 then
          match r1 with
          | h1 :: h2 :: h3 :: h4 :: r2 => do
            let n ← hex4 h1 h2 h3 h4
            let (ps, r3) ← lexStr r2
            return (.uni n :: ps, r3)
          | _ => none
        else do
          let e ← simpleEscape c
          let (ps, r2) ← lexStr r1
          return (.byte e :: ps, r2)
    else if b < 32 then none
    else do
      let (ps, r1) ← lexStr r
      return (.byte b :: ps, r1)

/-- `parse_escape`: surrogate pairs; lone surrogates are refused. -/
def pieceBytes : List Piece → Option Bytes
  | [] => some []
  | .byte b :: ps => do return b :: (← pieceBytes ps)
  | .uni n :: ps =>
    if n < 0xD800 ∨ 0xDFFF < n then do return String.utf8EncodeChar (Char.ofNat n) ++ (← pieceBytes ps)
    else if n < 0xDC00 then
      match ps with
      | .uni m :: ps' =>
        if 0xDC00 ≤ m ∧ m ≤ 0xDFFF then do
          return String.utf8EncodeChar (Char.ofNat (0x10000 + (n - 0xD800) * 0x400 + (m - 0xDC00))) ++ (← pieceBytes ps')
        else none
      | _ => none
    else none

/-- The text of a string literal, if it is one. -/
def text (ps : List Piece) : Option Str := (pieceBytes ps).bind ofUtf8

/-- Leading decimal digits. -/
def spanDigits : Bytes → Bytes × Bytes
  | [] => ([], [])
  | b :: r => if 48 ≤ b ∧ b ≤ 57 then ((b :: (spanDigits r).1), (spanDigits r).2) else ([], b :: r)

/-- Value of decimal digits. -/
def digitsVal (b : Bytes) : Nat := b.foldl (fun a x => a * 10 + (x.toNat - 48)) 0

/-- Optional fraction (`parse_decimal`): `none` = malformed. -/
def fraction : Bytes → Option (Bool × Bytes)
  | b :: r => if b = 46 then (if (spanDigits r).1 = [] then none else some (true, (spanDigits r).2)) else some (false, b :: r)
  | [] => some (false, [])

/-- Optional exponent (`parse_exponent`). -/
def exponent : Bytes → Option (Bool × Bytes)
  | b :: r =>
    if b = 101 ∨ b = 69 then
      let r' := match r with
        | c :: r' => if c = 43 ∨ c = 45 then r' else c :: r'
        | [] => []
      if (spanDigits r').1 = [] then none else some (true, (spanDigits r').2)
    else some (false, b :: r)
  | [] => some (false, [])

/-- `parse_any_number` from the first digit on: no leading zeros. -/
def number (neg : Bool) (b : Bytes) : Option (Json × Bytes) :=
  let ds := (spanDigits b).1
  if ds = [] ∨ (ds.head? = some 48 ∧ ds.length ≠ 1) then none
  else do
    let (f, r) ← fraction (spanDigits b).2
    let (e, r) ← exponent r
    if f ∨ e then return (.float, r)
    else return (.int (if neg then - (digitsVal ds : Int) else digitsVal ds), r)

/-- The rest after an expected keyword. -/
def keyword : Bytes → Bytes → Option Bytes
  | [], r => some r
  | k :: ks, b :: r => if k = b then keyword ks r else none
  | _ :: _, [] => none

/-- A value that is neither an array nor an object; the input starts at its first byte. -/
def scalar : Bytes → Option (Json × Bytes)
  | [] => none
  | b :: r =>
    if b = 110 then (keyword [117, 108, 108] r).map fun r => (.null, r)
    else if b = 116 then (keyword [114, 117, 101] r).map fun r => (.bool true, r)
    else if b = 102 then (keyword [97, 108, 115, 101] r).map fun r => (.bool false, r)
    else if b = 34 then (lexStr r).map fun x => (.str (text x.1), x.2)
    else if b = 45 then number true r
    else number false (b :: r)

/-- Elements of an array, from the first on, to the closing bracket.  `n` bounds the number of elements; callers pass the length of the
input, which is always enough. -/
def elems (p : Bytes → Option (Json × Bytes)) : Nat → Bytes → Option (List Json × Bytes)
  | 0, _ => none
  | n + 1, b => do
    let (j, r) ← p b
    match skipWs r with
    | c :: r =>
      if c = 44 then do
        let (l, r) ← elems p n r
        return (j :: l, r)
      else if c = 93 then some ([j], r)
      else none
    | [] => none

/-- Key and value of a member of an object. -/
def member (p : Bytes → Option (Json × Bytes)) (b : Bytes) : Option ((Option Str × Json) × Bytes) :=
  match skipWs b with
  | q :: r =>
    if q = 34 then do
      let (ps, r) ← lexStr r
      match skipWs r with
      | c :: r =>
        if c = 58 then do
          let (j, r) ← p r
          return ((text ps, j), r)
        else none
      | [] => none
    else none
  | [] => none

/-- Members of an object, from the first on, to the closing brace. -/
def members (p : Bytes → Option (Json × Bytes)) : Nat → Bytes → Option (List (Option Str × Json) × Bytes)
  | 0, _ => none
  | n + 1, b => do
    let (m, r) ← member p b
    match skipWs r with
    | c :: r =>
      if c = 44 then do
        let (l, r) ← members p n r
        return (m :: l, r)
      else if c = 125 then some ([m], r)
      else none
    | [] => none

/-- `deserialize_any` with `d` levels of nesting left. -/
def value : Nat → Bytes → Option (Json × Bytes)
  | 0, b => match skipWs b with
    | c :: r => if c = 91 ∨ c = 123 then none else scalar (c :: r)
    | [] => none
  | d + 1, b => match skipWs b with
    | c :: r =>
      if c = 91 then
        match skipWs r with
        | e :: r' => if e = 93 then some (.arr [], r')
          else (elems (value d) r.length r).map fun x => (.arr x.1, x.2)
        | [] => none
      else if c = 123 then
        match skipWs r with
        | e :: r' => if e = 125 then some (.obj [], r')
          else (members (value d) r.length r).map fun x => (.obj x.1, x.2)
        | [] => none
      else scalar (c :: r)
    | [] => none

/-- `from_slice`: one value, nested at most 127 deep (`remaining_depth: 128`), and nothing after it. -/
def parse (b : Bytes) : Option Json := do
  let (j, r) ← value 127 b
  if skipWs r = [] then return j else none

end KC.Json
