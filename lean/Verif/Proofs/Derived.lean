import Verif.Model.Derived
import Verif.Spec.Derived
import Verif.Spec.Bip39
import Verif.Spec.Bip32
import Verif.Proofs.Json
import Verif.Proofs.Str
import Mathlib.Data.Nat.Bitwise
import Mathlib.Tactic.Ring
/-
Lexicographic orders: of UTF-8, of big-endian numbers, of word indices.
-/
namespace KC.Derived
open KC.Bip39 KC.Spec KC.Spec.Derived
open KC.Spec.Bip32 (be)

/-! ### `cmpNat` and `cmpBytes` -/

theorem cmpNat_lt {a b : Nat} : cmpNat a b = .lt ↔ a < b := by
  unfold cmpNat; split
  · simp_all
  · split <;> simp_all

theorem cmpNat_eq {a b : Nat} : cmpNat a b = .eq ↔ a = b := by
  unfold cmpNat; split
  · simp; omega
  · split <;> simp_all

theorem cmpNat_swap (a b : Nat) : (cmpNat a b).swap = cmpNat b a := by
  unfold cmpNat
  rcases Nat.lt_trichotomy a b with h | h | h
  · rw [if_pos h, if_neg (by omega), if_neg (by omega)]; rfl
  · subst h; simp
  · rw [if_neg (by omega), if_neg (by omega), if_pos h]; rfl

theorem then_lt {a b : Ordering} : a.then b = .lt ↔ a = .lt ∨ a = .eq ∧ b = .lt := by cases a <;> cases b <;> simp
theorem then_eq {a b : Ordering} : a.then b = .eq ↔ a = .eq ∧ b = .eq := by cases a <;> cases b <;> simp
theorem then_swap (a b : Ordering) : (a.then b).swap = a.swap.then b.swap := by cases a <;> cases b <;> rfl

theorem cmpBytes_cons {a b : UInt8} {x y : Bytes} :
    cmpBytes (a :: x) (b :: y) = .lt ↔ a.toNat < b.toNat ∨ a.toNat = b.toNat ∧ cmpBytes x y = .lt := by
  rw [cmpBytes, then_lt, cmpNat_lt, cmpNat_eq]

theorem cmpBytes_eq : ∀ {x y : Bytes}, cmpBytes x y = .eq ↔ x = y
  | [], [] => by simp [cmpBytes]
  | [], _ :: _ => by simp [cmpBytes]
  | _ :: _, [] => by simp [cmpBytes]
  | a :: x, b :: y => by
    rw [cmpBytes, then_eq, cmpNat_eq, cmpBytes_eq, List.cons.injEq, UInt8.toNat_inj]

theorem cmpBytes_swap : ∀ x y : Bytes, (cmpBytes x y).swap = cmpBytes y x
  | [], [] => rfl
  | [], _ :: _ => rfl
  | _ :: _, [] => rfl
  | a :: x, b :: y => by rw [cmpBytes, cmpBytes, then_swap, cmpNat_swap, cmpBytes_swap]

theorem cmpBytes_prefix (p : Bytes) (x y : Bytes) : cmpBytes (p ++ x) (p ++ y) = cmpBytes x y := by
  induction p with
  | nil => rfl
  | cons a p ih =>
    rw [List.cons_append, List.cons_append, cmpBytes, ih, cmpNat_eq.mpr rfl]
    rfl

/-! ### Texts -/

theorem four_lt {m n : Nat} (h : m < n) (hn : n < 1114112) (P : Prop) :
    (m / 262144 % 8 + 240) % 2 ^ 8 < (n / 262144 % 8 + 240) % 2 ^ 8 ∨ (m / 262144 % 8 + 240) % 2 ^ 8 = (n / 262144 % 8 + 240) % 2 ^ 8 ∧
    ((m / 4096 % 64 + 128) % 2 ^ 8 < (n / 4096 % 64 + 128) % 2 ^ 8 ∨ (m / 4096 % 64 + 128) % 2 ^ 8 = (n / 4096 % 64 + 128) % 2 ^ 8 ∧
    ((m / 64 % 64 + 128) % 2 ^ 8 < (n / 64 % 64 + 128) % 2 ^ 8 ∨ (m / 64 % 64 + 128) % 2 ^ 8 = (n / 64 % 64 + 128) % 2 ^ 8 ∧
    ((m % 64 + 128) % 2 ^ 8 < (n % 64 + 128) % 2 ^ 8 ∨ (m % 64 + 128) % 2 ^ 8 = (n % 64 + 128) % 2 ^ 8 ∧ P))) := by
  have digits : ∀ k, k < 1114112 → ∃ a b c d, k = 262144 * a + 4096 * b + 64 * c + d ∧ (k / 262144 % 8 + 240) % 2 ^ 8 = a + 240 ∧
      (k / 4096 % 64 + 128) % 2 ^ 8 = b + 128 ∧ (k / 64 % 64 + 128) % 2 ^ 8 = c + 128 ∧ (k % 64 + 128) % 2 ^ 8 = d + 128 ∧ b < 64 ∧ c < 64 ∧ d < 64 := by
    intro k hk
    refine ⟨k / 262144, k / 4096 % 64, k / 64 % 64, k % 64, by omega, by omega, by omega, by omega, by omega, by omega, by omega, by omega⟩
  obtain ⟨a, b, c, d, e, e1, e2, e3, e4, l1, l2, l3⟩ := digits m (by omega)
  obtain ⟨a', b', c', d', e', e1', e2', e3', e4', l1', l2', l3'⟩ := digits n hn
  rw [e1, e2, e3, e4, e1', e2', e3', e4']
  clear e1 e2 e3 e4 e1' e2' e3' e4' digits
  rcases Nat.lt_trichotomy a a' with g | rfl | g
  · exact .inl (by omega)
  · refine .inr ⟨rfl, ?_⟩
    rcases Nat.lt_trichotomy b b' with g | rfl | g
    · exact .inl (by omega)
    · refine .inr ⟨rfl, ?_⟩
      rcases Nat.lt_trichotomy c c' with g | rfl | g
      · exact .inl (by omega)
      · exact .inr ⟨rfl, .inl (by omega)⟩
      · omega
    · omega
  · omega

/-- UTF-8 keeps the order of code points. -/
theorem utf8_lt {c d : Char} (h : c.toNat < d.toNat) (x y : Bytes) :
    cmpBytes (String.utf8EncodeChar c ++ x) (String.utf8EncodeChar d ++ y) = .lt := by
  have ec : c.val.toNat = c.toNat := rfl
  have ed : d.val.toNat = d.toNat := rfl
  have hc := c.valid
  have hd := d.valid
  simp only [UInt32.isValidChar, Nat.isValidChar, ec] at hc
  simp only [UInt32.isValidChar, Nat.isValidChar, ed] at hd
  simp only [String.utf8EncodeChar, ec, ed]
  generalize c.toNat = m at *
  generalize d.toNat = n at *
  (repeat' split) <;> (try omega) <;>
    simp only [List.cons_append, List.nil_append, cmpBytes_cons, UInt8.toNat_ofNat'] <;>
    generalize cmpBytes x y = o <;>
    (try (by_cases hP : o = .lt <;> simp only [hP, and_true, and_false, or_false] <;> omega))
  all_goals first
    | (left; omega)
    | exact four_lt h (by omega) _

theorem cmpText_before {s t : Str} (h : Before s t) : cmpText s t = .lt := by
  unfold cmpText
  induction h with
  | nil c s =>
    obtain ⟨x, r, e, -⟩ := KC.Json.utf8_cons c
    rw [Str.utf8_cons, e]; rfl
  | head c d s t h => exact utf8_lt h _ _
  | tail c s t h ih => rw [Str.utf8_cons, Str.utf8_cons, cmpBytes_prefix, ih]

theorem before_total : ∀ s t : Str, Before s t ∨ s = t ∨ Before t s
  | [], [] => .inr (.inl rfl)
  | [], c :: t => .inl (.nil c t)
  | c :: s, [] => .inr (.inr (.nil c s))
  | c :: s, d :: t => by
    rcases Nat.lt_trichotomy c.toNat d.toNat with h | h | h
    · exact .inl (.head _ _ _ _ h)
    · obtain rfl := Char.toNat_inj' h
      rcases before_total s t with h | rfl | h
      · exact .inl (.tail _ _ _ h)
      · exact .inr (.inl rfl)
      · exact .inr (.inr (.tail _ _ _ h))
    · exact .inr (.inr (.head _ _ _ _ h))

theorem cmpText_self (s : Str) : cmpText s s = .eq := cmpBytes_eq.mpr rfl

theorem cmpText_swap (s t : Str) : (cmpText s t).swap = cmpText t s := cmpBytes_swap _ _

theorem cmpText_lt {s t : Str} : cmpText s t = .lt ↔ Before s t := by
  refine ⟨fun h => ?_, cmpText_before⟩
  rcases before_total s t with h' | rfl | h'
  · exact h'
  · rw [cmpText_self] at h; cases h
  · rw [← cmpText_swap, cmpText_before h'] at h; cases h

theorem cmpText_eq {s t : Str} : cmpText s t = .eq ↔ s = t := by
  refine ⟨fun h => ?_, fun h => h ▸ cmpText_self s⟩
  rcases before_total s t with h' | h' | h'
  · rw [cmpText_before h'] at h; cases h
  · exact h'
  · rw [← cmpText_swap, cmpText_before h'] at h; cases h

/-! ### Numbers -/

/-- The number with these digits. -/
def val (B : Nat) : List Nat → Nat
  | [] => 0
  | x :: l => x * B ^ l.length + val B l

theorem val_lt {B : Nat} : ∀ l : List Nat, (∀ x ∈ l, x < B) → val B l < B ^ l.length
  | [], _ => by simp [val]
  | x :: l, h => by
    have h1 := val_lt l fun y hy => h y (List.mem_cons_of_mem _ hy)
    have h2 : x < B := h x List.mem_cons_self
    rw [val, List.length_cons, Nat.pow_succ]
    calc x * B ^ l.length + val B l < x * B ^ l.length + B ^ l.length := by omega
      _ = (x + 1) * B ^ l.length := by ring
      _ ≤ B * B ^ l.length := Nat.mul_le_mul_right _ h2
      _ = B ^ l.length * B := by ring

theorem less_val {B : Nat} : ∀ {a b : List Nat}, a.length = b.length → (∀ x ∈ a, x < B) → (∀ x ∈ b, x < B) → (Less a b ↔ val B a < val B b)
  | [], [], _, _, _ => by
    constructor
    · nofun
    · intro h; simp [val] at h
  | x :: a, y :: b, hl, ha, hb => by
    have hl' : a.length = b.length := by simpa using hl
    have ha' : ∀ x ∈ a, x < B := fun y hy => ha y (List.mem_cons_of_mem _ hy)
    have hb' : ∀ x ∈ b, x < B := fun y hy => hb y (List.mem_cons_of_mem _ hy)
    have ih := less_val hl' ha' hb'
    have va := val_lt a ha'
    have vb := val_lt b hb'
    rw [val, val, hl']
    rw [hl'] at va
    generalize B ^ b.length = k at *
    rcases Nat.lt_trichotomy x y with h | h | h
    · refine ⟨fun _ => ?_, fun _ => .head _ _ _ _ h⟩
      calc x * k + val B a < x * k + k := by omega
        _ = (x + 1) * k := by ring
        _ ≤ y * k := Nat.mul_le_mul_right _ h
        _ ≤ y * k + val B b := by omega
    · subst h
      constructor
      · intro h
        cases h with
        | head _ _ _ _ h => omega
        | tail _ _ _ h => have := ih.mp h; omega
      · intro h
        exact .tail _ _ _ (ih.mpr (by omega))
    · constructor
      · intro h'
        cases h' with
        | head _ _ _ _ h' => omega
        | tail _ _ _ h' => omega
      · intro h'
        have : y * k + val B b < x * k + val B a := by
          calc y * k + val B b < y * k + k := by omega
            _ = (y + 1) * k := by ring
            _ ≤ x * k := Nat.mul_le_mul_right _ h
            _ ≤ x * k + val B a := by omega
        omega

theorem be_val : ∀ b : Bytes, be b = val 256 (b.map UInt8.toNat)
  | [] => rfl
  | x :: b => by rw [be, List.map_cons, val, be_val b, List.length_map]

theorem cmpBytes_less : ∀ {a b : Bytes}, cmpBytes a b = .lt ↔ Less (a.map UInt8.toNat) (b.map UInt8.toNat)
  | [], [] => by constructor <;> nofun
  | [], b :: y => ⟨fun _ => .nil _ _, fun _ => rfl⟩
  | a :: x, [] => by constructor <;> nofun
  | a :: x, b :: y => by
    rw [cmpBytes_cons, List.map_cons, List.map_cons, cmpBytes_less]
    constructor
    · rintro (h | ⟨h, h'⟩)
      · exact .head _ _ _ _ h
      · rw [h]; exact .tail _ _ _ h'
    · generalize hu : UInt8.toNat a = u
      generalize hv : UInt8.toNat b = v
      intro h
      cases h with
      | head _ _ _ _ h => exact .inl h
      | tail _ _ _ h => exact .inr ⟨rfl, h⟩

theorem cmpBytes_be {a b : Bytes} (h : a.length = b.length) : cmpBytes a b = .lt ↔ be a < be b := by
  rw [cmpBytes_less, be_val, be_val]
  refine less_val (by simpa using h) ?_ ?_ <;>
  · intro x hx
    obtain ⟨y, -, rfl⟩ := List.mem_map.mp hx
    exact UInt8.toNat_lt y

/-! ### Bits -/

def bval (l : List Bool) : Nat := val 2 (l.map Bool.toNat)

theorem val_append (B : Nat) : ∀ a b : List Nat, val B (a ++ b) = val B a * B ^ b.length + val B b
  | [], b => by simp [val]
  | x :: a, b => by
    rw [List.cons_append, val, val, val_append B a b, List.length_append, Nat.pow_add]
    ring

theorem bval_append (a b : List Bool) : bval (a ++ b) = bval a * 2 ^ b.length + bval b := by
  rw [bval, List.map_append, val_append, List.length_map]; rfl

theorem bitsBE_succ (w x : Nat) : bitsBE (w + 1) x = x.testBit w :: bitsBE w x := by
  unfold bitsBE
  rw [List.range_succ_eq_map, List.map_cons, List.map_map]
  congr 1
  apply List.map_congr_left
  intro i hi
  show x.testBit (w + 1 - 1 - (i + 1)) = _
  congr 1
  omega

theorem bitsBE_length (w x : Nat) : (bitsBE w x).length = w := by simp [bitsBE]

theorem bval_bits : ∀ w x : Nat, bval (bitsBE w x) = x % 2 ^ w
  | 0, x => by simp [bitsBE, bval, val, Nat.mod_one]
  | w + 1, x => by
    have := bval_bits w x
    rw [bitsBE_succ, bval, List.map_cons, val, List.length_map, bitsBE_length, Nat.toNat_testBit, Nat.mod_pow_succ]
    unfold bval at this
    rw [this]
    ring

theorem bval_flat {α : Type} (f : α → Nat) (w : Nat) : ∀ l : List α, (∀ x ∈ l, f x < 2 ^ w) →
    bval (l.flatMap fun x => bitsBE w (f x)) = val (2 ^ w) (l.map f) ∧ (l.flatMap fun x => bitsBE w (f x)).length = w * l.length
  | [], _ => ⟨rfl, rfl⟩
  | x :: l, h => by
    obtain ⟨i1, i2⟩ := bval_flat f w l fun y hy => h y (List.mem_cons_of_mem _ hy)
    rw [List.flatMap_cons, bval_append, i1, i2, bval_bits, Nat.mod_eq_of_lt (h x List.mem_cons_self), List.map_cons, val, List.length_map,
      List.length_append, i2, bitsBE_length, List.length_cons, Nat.pow_mul]
    exact ⟨rfl, by ring⟩

theorem bval_bound (l : List Bool) : bval l < 2 ^ l.length := by
  have := val_lt (B := 2) (l.map Bool.toNat) (by
    intro x hx
    obtain ⟨b, -, rfl⟩ := List.mem_map.mp hx
    cases b <;> simp)
  rwa [List.length_map] at this

/-- The order of equally long entropies is the order of their phrases. -/
theorem carries_less {sha256 : Bytes → Bytes} {idx idx' : List UInt16} {e e' : Bytes} (h : Carries sha256 idx e) (h' : Carries sha256 idx' e')
    (hi : ∀ i ∈ idx, i.toNat < 2048) (hi' : ∀ i ∈ idx', i.toNat < 2048) (hl : idx.length = idx'.length)
    (hs : (bytesBits (sha256 e)).length = (bytesBits (sha256 e')).length) (hne : e ≠ e') :
    be e < be e' ↔ Less (idx.map UInt16.toNat) (idx'.map UInt16.toNat) := by
  obtain ⟨h1, h2⟩ := h
  obtain ⟨h1', h2'⟩ := h'
  have hle : e.length = e'.length := by rw [hl] at h2; omega
  rw [less_val (B := 2 ^ 11) (by simpa using hl)
    (by intro x hx; obtain ⟨y, hy, rfl⟩ := List.mem_map.mp hx; exact hi y hy)
    (by intro x hx; obtain ⟨y, hy, rfl⟩ := List.mem_map.mp hx; exact hi' y hy),
    ← (bval_flat UInt16.toNat 11 idx hi).1, ← (bval_flat UInt16.toNat 11 idx' hi').1]
  change _ ↔ bval (wordsBits idx) < bval (wordsBits idx')
  have b8 : ∀ b : Bytes, bval (bytesBits b) = be b := fun b => by
    rw [be_val]; exact (bval_flat UInt8.toNat 8 b fun x _ => UInt8.toNat_lt x).1
  rw [h1, h1', bval_append, bval_append, b8, b8, hl]
  have c1 := bval_bound ((bytesBits (sha256 e)).take (csBits idx'.length))
  have c2 := bval_bound ((bytesBits (sha256 e')).take (csBits idx'.length))
  have el : ((bytesBits (sha256 e)).take (csBits idx'.length)).length = ((bytesBits (sha256 e')).take (csBits idx'.length)).length := by
    rw [List.length_take, List.length_take, hs]
  rw [el] at c1 ⊢
  generalize 2 ^ ((bytesBits (sha256 e')).take (csBits idx'.length)).length = k at *
  generalize bval ((bytesBits (sha256 e)).take (csBits idx'.length)) = u at *
  generalize bval ((bytesBits (sha256 e')).take (csBits idx'.length)) = v at *
  have ne : be e ≠ be e' := by
    intro hb
    rcases h0 : cmpBytes e e' with _ | _ | _
    · exact absurd ((cmpBytes_be hle).mp h0) (by omega)
    · exact hne (cmpBytes_eq.mp h0)
    · have : cmpBytes e' e = .lt := by rw [← cmpBytes_swap, h0]; rfl
      exact absurd ((cmpBytes_be hle.symm).mp this) (by omega)
  generalize be e = m at *
  generalize be e' = n at *
  constructor
  · intro h
    calc m * k + u < m * k + k := by omega
      _ = (m + 1) * k := by ring
      _ ≤ n * k := Nat.mul_le_mul_right _ h
      _ ≤ n * k + v := by omega
  · intro h
    by_contra hc
    have : n * k + v < m * k + u := by
      calc n * k + v < n * k + k := by omega
        _ = (n + 1) * k := by ring
        _ ≤ m * k := Nat.mul_le_mul_right _ (by omega)
        _ ≤ m * k + u := by omega
    omega

end KC.Derived
