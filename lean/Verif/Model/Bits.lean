import Verif.Model.Basic
/-
Model of bip39/src/util/bits.rs.
-/
namespace KC.Bits

/-- bip39/src/util/bits.rs:4-13 `enum State`. -/
inductive State where
  | S0 | S1 | S2 | S3 | S4 | S5 | S6 | S7
deriving DecidableEq, Repr

/-- bits.rs:14-27 `State::index`: number of bits already used in the current byte. -/
def State.index : State → Nat
  | .S0 => 0
  | .S1 => 3
  | .S2 => 6
  | .S3 => 1
  | .S4 => 4
  | .S5 => 7
  | .S6 => 2
  | .S7 => 5

/-- bits.rs:29-32 `struct BitWriterBy11`. -/
structure Writer where
  buffer : Bytes
  state : State
deriving DecidableEq, Repr

/-- bits.rs:35-37 `BitWriterBy11::new`. -/
def Writer.new : Writer := { buffer := [], state := .S0 }

/-- bits.rs:39-41 `BitWriterBy11::to_bytes`. -/
def Writer.toBytes (w : Writer) : Bytes := w.buffer

/-- bits.rs:55-59 (and 67, 79, 90, 102, 114, 125): `if let Some(last) = buffer.last_mut() { *last |= x } else
{ unreachable!() }`; `none` is the panic of `unreachable!`. -/
def orLast (buf : Bytes) (x : UInt8) : Option Bytes :=
  match buf.getLast? with
  | some l => some (buf.dropLast ++ [l ||| x])
  | none => none

/-- bits.rs:43-134 `BitWriterBy11::write`; `none` = panic.  `x as u8` is `UInt16.toUInt8`. -/
def Writer.write (w : Writer) (e : UInt16) : Option Writer :=
  match w.state with
  | .S0 =>
    let x := e >>> 3 &&& 0b11111111
    let y := e <<< 5 &&& 0b11100000
    some { buffer := w.buffer ++ [x.toUInt8] ++ [y.toUInt8], state := .S1 }
  | .S1 => do
    let x := e >>> 6 &&& 0b00011111
    let y := e <<< 2 &&& 0b11111100
    let b ← orLast w.buffer x.toUInt8
    some { buffer := b ++ [y.toUInt8], state := .S2 }
  | .S2 => do
    let x := e >>> 9 &&& 0b00000011
    let y := e >>> 1 &&& 0b11111111
    let z := e <<< 7 &&& 0b10000000
    let b ← orLast w.buffer x.toUInt8
    some { buffer := b ++ [y.toUInt8] ++ [z.toUInt8], state := .S3 }
  | .S3 => do
    let x := e >>> 4 &&& 0b01111111
    let y := e <<< 4 &&& 0b11110000
    let b ← orLast w.buffer x.toUInt8
    some { buffer := b ++ [y.toUInt8], state := .S4 }
  | .S4 => do
    let x := e >>> 7 &&& 0b00001111
    let y := e <<< 1 &&& 0b11111110
    let b ← orLast w.buffer x.toUInt8
    some { buffer := b ++ [y.toUInt8], state := .S5 }
  | .S5 => do
    let x := e >>> 10 &&& 0b00000001
    let y := e >>> 2 &&& 0b11111111
    let z := e <<< 6 &&& 0b11000000
    let b ← orLast w.buffer x.toUInt8
    some { buffer := b ++ [y.toUInt8] ++ [z.toUInt8], state := .S6 }
  | .S6 => do
    let x := e >>> 5 &&& 0b00111111
    let y := e <<< 3 &&& 0b11111000
    let b ← orLast w.buffer x.toUInt8
    some { buffer := b ++ [y.toUInt8], state := .S7 }
  | .S7 => do
    let x := e >>> 8 &&& 0b00000111
    let y := e &&& 0b11111111
    let b ← orLast w.buffer x.toUInt8
    some { buffer := b ++ [y.toUInt8], state := .S0 }

/-- The loop `for m in … { writer.write(m) }` as in bip39/src/bip39.rs:296-298. -/
def Writer.writeAll (w : Writer) : List UInt16 → Option Writer
  | [] => some w
  | e :: es => do
    let w' ← w.write e
    w'.writeAll es

/-- bits.rs:137-140 `struct BitReaderBy11`. -/
structure Reader where
  buffer : Bytes
  state : State
deriving DecidableEq, Repr

/-- bits.rs:143-145 `BitReaderBy11::new`. -/
def Reader.new (bytes : Bytes) : Reader := { buffer := bytes, state := .S0 }

/-- bits.rs:147-149 `BitReaderBy11::size`; `none` is the `usize` underflow panic of `len * 8 - index`
(debug build; `usize` overflow of `len * 8` is not modelled, slices are shorter than 2^60). -/
def Reader.size (r : Reader) : Option Nat :=
  if r.state.index ≤ r.buffer.length * 8 then some ((r.buffer.length * 8 - r.state.index) / 11) else none

/-- bits.rs:151-220 `BitReaderBy11::read`; `none` = the panic of `assert!` (or of indexing).
`self.buffer = &self.buffer[k..]` is `List.drop k`. -/
def Reader.read (r : Reader) : Option (UInt16 × Reader) :=
  match r.state with
  | .S0 =>
    match r.buffer with
    | b0 :: b1 :: _ =>
      let x := b0.toUInt16 &&& 0b11111111
      let y := b1.toUInt16 &&& 0b11100000
      some ((x <<< 3) ||| (y >>> 5), { state := .S1, buffer := r.buffer.drop 1 })
    | _ => none
  | .S1 =>
    match r.buffer with
    | b0 :: b1 :: _ =>
      let x := b0.toUInt16 &&& 0b00011111
      let y := b1.toUInt16 &&& 0b11111100
      some ((x <<< 6) ||| (y >>> 2), { state := .S2, buffer := r.buffer.drop 1 })
    | _ => none
  | .S2 =>
    match r.buffer with
    | b0 :: b1 :: b2 :: _ =>
      let x := b0.toUInt16 &&& 0b00000011
      let y := b1.toUInt16 &&& 0b11111111
      let z := b2.toUInt16 &&& 0b10000000
      some ((x <<< 9) ||| (y <<< 1) ||| (z >>> 7), { state := .S3, buffer := r.buffer.drop 2 })
    | _ => none
  | .S3 =>
    match r.buffer with
    | b0 :: b1 :: _ =>
      let x := b0.toUInt16 &&& 0b01111111
      let y := b1.toUInt16 &&& 0b11110000
      some ((x <<< 4) ||| (y >>> 4), { state := .S4, buffer := r.buffer.drop 1 })
    | _ => none
  | .S4 =>
    match r.buffer with
    | b0 :: b1 :: _ =>
      let x := b0.toUInt16 &&& 0b00001111
      let y := b1.toUInt16 &&& 0b11111110
      some ((x <<< 7) ||| (y >>> 1), { state := .S5, buffer := r.buffer.drop 1 })
    | _ => none
  | .S5 =>
    match r.buffer with
    | b0 :: b1 :: b2 :: _ =>
      let x := b0.toUInt16 &&& 0b00000001
      let y := b1.toUInt16 &&& 0b11111111
      let z := b2.toUInt16 &&& 0b11000000
      some ((x <<< 10) ||| (y <<< 2) ||| (z >>> 6), { state := .S6, buffer := r.buffer.drop 2 })
    | _ => none
  | .S6 =>
    match r.buffer with
    | b0 :: b1 :: _ =>
      let x := b0.toUInt16 &&& 0b00111111
      let y := b1.toUInt16 &&& 0b11111000
      some ((x <<< 5) ||| (y >>> 3), { state := .S7, buffer := r.buffer.drop 1 })
    | _ => none
  | .S7 =>
    match r.buffer with
    | b0 :: b1 :: _ =>
      let x := b0.toUInt16 &&& 0b00000111
      let y := b1.toUInt16 &&& 0b11111111
      some ((x <<< 8) ||| y, { state := .S0, buffer := r.buffer.drop 2 })
    | _ => none

/-- `n` successive reads, as in the loop of bip39/src/bip39.rs:338-341. -/
def Reader.readN (r : Reader) : Nat → Option (List UInt16 × Reader)
  | 0 => some ([], r)
  | n + 1 => do
    let (v, r') ← r.read
    let (vs, r'') ← r'.readN n
    some (v :: vs, r'')

end KC.Bits
