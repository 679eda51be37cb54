import Verif.Spec.Le
/-
Keccak-256 in the words of FIPS 202 (section numbers below): the five step mappings on lanes, the offsets and round constants by the
algorithms that define them, and the sponge with capacity 512 and the padding `10*1` on bits.  (The standard's SHA3-256 appends two more
bits before the padding; the function used by Ethereum does not.)
-/
namespace KC.Spec.Keccak
open KC.Spec.Le (le IsLe)

/-- 3.1: the state: five by five lanes; arithmetic on `Fin 5` is modulo 5. -/
abbrev State : Type := Fin 5 → Fin 5 → BitVec 64

/-- 3.2.1, step 1. -/
def parity (A : State) (x : Fin 5) : BitVec 64 := A x 0 ^^^ A x 1 ^^^ A x 2 ^^^ A x 3 ^^^ A x 4

/-- 3.2.1: θ. -/
def theta (A : State) : State := fun x y => A x y ^^^ (parity A (x - 1) ^^^ (parity A (x + 1)).rotateLeft 1)

/-- 3.2.2: the lanes in the order of the algorithm for ρ. -/
def walk : Nat → Fin 5 × Fin 5
  | 0 => (1, 0)
  | t + 1 => ((walk t).2, 2 * (walk t).1 + 3 * (walk t).2)

/-- 3.2.2: the offset of a lane. -/
def offset (x y : Fin 5) : Nat :=
  match (List.range 24).find? fun t => walk t = (x, y) with
  | some t => (t + 1) * (t + 2) / 2 % 64
  | none => 0

/-- 3.2.2: ρ. -/
def rho (A : State) : State := fun x y => (A x y).rotateLeft (offset x y)

/-- 3.2.3: π. -/
def pi (A : State) : State := fun x y => A (x + 3 * y) x

/-- 3.2.4: χ. -/
def chi (A : State) : State := fun x y => A x y ^^^ (~~~A (x + 1) y &&& A (x + 2) y)

/-- 3.2.5, algorithm 5: the register after `i` steps. -/
def register : Nat → List Bool
  | 0 => [true, false, false, false, false, false, false, false]
  | i + 1 =>
    match register i with
    | [a, b, c, d, e, f, g, h] => [h, a, b, c, d ^^ h, e ^^ h, f ^^ h, g]
    | l => l

/-- 3.2.5, algorithm 5. -/
def rc (t : Nat) : Bool := (register (t % 255)).headD true

/-- 3.2.5, algorithm 6: the constant of round `i` has bit `2 ^ j - 1` from `rc (j + 7 i)`, for `j` up to 6. -/
def constant (i : Nat) : BitVec 64 :=
  (List.range 7).foldl (fun c j => if rc (j + 7 * i) then c ||| BitVec.ofNat 64 (2 ^ (2 ^ j - 1)) else c) 0

/-- 3.2.5: ι. -/
def iota (i : Nat) (A : State) : State := fun x y => if x = 0 ∧ y = 0 then A x y ^^^ constant i else A x y

/-- 3.3: the state after `i` rounds. -/
def rounds (A : State) : Nat → State
  | 0 => A
  | i + 1 => iota i (chi (pi (rho (theta (rounds A i)))))

/-- 3.4: the permutation. -/
def permute (A : State) : State := rounds A 24

/-- B.1: the bits of a byte string, the least significant of each byte first. -/
def bits (b : Bytes) : List Bool := b.flatMap fun x => (List.range 8).map fun i => x.toNat.testBit i

/-- 5.1: a one, as few zeros as possible, a one, to whole blocks of 1088 bits. -/
def Padded (m p : Bytes) : Prop :=
  ∃ z, bits p = bits m ++ [true] ++ List.replicate z false ++ [true] ∧ (bits p).length % 1088 = 0 ∧ z < 1088

/-- 3.1.2: lane number `k` of block number `i`, of 136 bytes. -/
def lane (p : Bytes) (i k : Nat) : BitVec 64 := BitVec.ofNat 64 (le ((p.drop (136 * i + 8 * k)).take 8))

/-- 4: the state after `i` blocks. -/
def absorbed (p : Bytes) : Nat → State
  | 0 => fun _ _ => 0
  | i + 1 => permute fun x y => absorbed p i x y ^^^ if x.val + 5 * y.val < 17 then lane p i (x.val + 5 * y.val) else 0

/-- `d` is the hash of `m`: the first 256 bits of the last state. -/
def IsHash (m d : Bytes) : Prop :=
  ∃ p, Padded m p ∧ ∃ a b c e : Bytes, d = a ++ b ++ c ++ e ∧
    IsLe 8 (absorbed p (p.length / 136) 0 0).toNat a ∧ IsLe 8 (absorbed p (p.length / 136) 1 0).toNat b ∧
    IsLe 8 (absorbed p (p.length / 136) 2 0).toNat c ∧ IsLe 8 (absorbed p (p.length / 136) 3 0).toNat e

end KC.Spec.Keccak
