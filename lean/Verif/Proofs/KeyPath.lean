import Verif.Tactics
import Verif.Model.KeyPath
import Verif.Spec.KeyPath
import Verif.Proofs.Str
import Verif.Proofs.Text
namespace KC.KeyPath
open KC.Spec

/-! ### Trimming -/

theorem white_iff (c : Char) : isWhitespace c = true ↔ White c := by
  simp only [isWhitespace, White, whiteSpaces, List.mem_cons, List.not_mem_nil, or_false, Bool.or_eq_true,
    Bool.and_eq_true, decide_eq_true_eq]
  omega

theorem dropWhile_all {p : Char → Bool} (l s : Str) (h : ∀ c ∈ l, p c = true) :
    (l ++ s).dropWhile p = s.dropWhile p := by
  induction l with
  | nil => rfl
  | cons c l ih =>
    have hc := h c (by simp)
    simp only [List.cons_append, List.dropWhile_cons, hc, if_true]
    exact ih fun x hx => h x (by simp [hx])

theorem dropWhile_head {p : Char → Bool} (s : Str) (h : ∀ c, s.head? = some c → p c = false) : s.dropWhile p = s := by
  cases s with
  | nil => rfl
  | cons c s => simp [h c rfl]

theorem takeWhile_all {p : Char → Bool} (s : Str) : ∀ c ∈ s.takeWhile p, p c = true := by
  intro c hc
  induction s with
  | nil => simp at hc
  | cons x s ih =>
    rw [List.takeWhile_cons] at hc
    split at hc
    · rename_i hx
      rcases List.mem_cons.mp hc with rfl | h
      · exact hx
      · exact ih h
    · simp at hc

theorem dropWhile_head_not {p : Char → Bool} (s : Str) (c : Char) (h : (s.dropWhile p).head? = some c) : p c = false := by
  induction s with
  | nil => simp at h
  | cons x s ih =>
    rw [List.dropWhile_cons] at h
    split at h
    · exact ih h
    · rename_i hx; simp at h; subst h; simpa using hx

theorem trimmed_trim (s : Str) : Trimmed s (Str.trim s) := by
  let s1 := s.dropWhile isWhitespace
  have e1 : s = s.takeWhile isWhitespace ++ s1 := (List.takeWhile_append_dropWhile ..).symm
  have e2 : s1.reverse = s1.reverse.takeWhile isWhitespace ++ s1.reverse.dropWhile isWhitespace :=
    (List.takeWhile_append_dropWhile ..).symm
  have e3 : s1 = Str.trim s ++ (s1.reverse.takeWhile isWhitespace).reverse := by
    have := congrArg List.reverse e2
    rw [List.reverse_reverse, List.reverse_append] at this
    exact this
  refine ⟨s.takeWhile isWhitespace, (s1.reverse.takeWhile isWhitespace).reverse, ?_, ?_, ?_, ?_, ?_⟩
  · rw [List.append_assoc, ← e3]; exact e1
  · intro c hc; exact (white_iff c).mp (takeWhile_all _ c hc)
  · intro c hc; exact (white_iff c).mp (takeWhile_all _ c (List.mem_reverse.mp hc))
  · intro c hc hw
    have : s1.head? = some c := by rw [e3, List.head?_append, hc]; rfl
    have := dropWhile_head_not _ _ this
    rw [(white_iff c).mpr hw] at this; cases this
  · intro c hc hw
    have hc' : (s1.reverse.dropWhile isWhitespace).head? = some c := by
      have : Str.trim s = (s1.reverse.dropWhile isWhitespace).reverse := rfl
      rwa [this, List.getLast?_reverse] at hc
    have := dropWhile_head_not _ _ hc'
    rw [(white_iff c).mpr hw] at this; cases this

theorem trimmed_eq {s t : Str} (h : Trimmed s t) : t = Str.trim s := by
  obtain ⟨l, r, rfl, hl, hr, hh, ht⟩ := h
  have nw : ∀ c, ¬ White c → isWhitespace c = false := fun c h => by
    cases hc : isWhitespace c with
    | false => rfl
    | true => exact absurd ((white_iff c).mp hc) h
  have hl' : ∀ c ∈ l, isWhitespace c = true := fun c hc => (white_iff c).mpr (hl c hc)
  have hr' : ∀ c ∈ r, isWhitespace c = true := fun c hc => (white_iff c).mpr (hr c hc)
  unfold Str.trim
  rw [List.append_assoc, dropWhile_all _ _ hl']
  cases t with
  | nil =>
    have : ([] ++ r : Str).dropWhile isWhitespace = [] := by
      have := dropWhile_all (p := isWhitespace) r [] hr'
      simpa using this
    rw [this]; rfl
  | cons c t =>
    rw [dropWhile_head (c :: t ++ r) (fun x hx => nw x (hh x (by simpa using hx)))]
    rw [List.reverse_append, dropWhile_all _ _ (fun c hc => hr' c (List.mem_reverse.mp hc)),
      dropWhile_head, List.reverse_reverse]
    intro x hx
    rw [List.head?_reverse] at hx
    exact nw x (ht x hx)

/-! ### Byte slicing -/

theorem utf8Size_pos (c : Char) : 0 < c.utf8Size := by
  by_cases h : c.toNat < 128
  · rw [utf8Size_ascii c h]; decide
  · have := utf8Size_high c (by omega); omega

theorem len_cons (c : Char) (s : Str) : Str.len (c :: s) = c.utf8Size + Str.len s := by
  simp [Str.len, String.length_utf8EncodeChar]

theorem len_zero {s : Str} : Str.len s = 0 ↔ s = [] := by
  cases s with
  | nil => simp [Str.len]
  | cons c s => have := utf8Size_pos c; simp [len_cons]; omega

theorem len_append (a b : Str) : Str.len (a ++ b) = Str.len a + Str.len b := by simp [Str.len]

theorem splitAtByte_front (f b : Str) (k : Nat) :
    Str.splitAtByte (f ++ b) (Str.len f + k) = (Str.splitAtByte b k).map fun (x, y) => (f ++ x, y) := by
  induction f with
  | nil => simp [Str.len]
  | cons c f ih =>
    have := utf8Size_pos c
    obtain ⟨j, hj⟩ : ∃ j, Str.len (c :: f) + k = j + 1 := ⟨c.utf8Size + Str.len f + k - 1, by rw [len_cons]; omega⟩
    rw [hj]
    simp only [List.cons_append, Str.splitAtByte]
    rw [len_cons] at hj
    rw [if_pos (by omega), show j + 1 - c.utf8Size = Str.len f + k by omega, ih]
    cases Str.splitAtByte b k <;> simp

theorem splitAtByte_last (f : Str) (c : Char) :
    Str.splitAtByte (f ++ [c]) (Str.len (f ++ [c]) - 1) = if c.utf8Size = 1 then some (f, [c]) else none := by
  have hp := utf8Size_pos c
  have e : Str.len (f ++ [c]) - 1 = Str.len f + (c.utf8Size - 1) := by
    rw [len_append, len_cons]; simp [Str.len]; omega
  rw [e, splitAtByte_front]
  split
  · rename_i h; simp [h, Str.splitAtByte]
  · obtain ⟨j, hj⟩ : ∃ j, c.utf8Size - 1 = j + 1 := ⟨c.utf8Size - 2, by omega⟩
    rw [hj, Str.splitAtByte, if_neg (by omega)]; rfl

/-! ### Numbers -/

def val (acc : Nat) (ds : Str) : Nat := ds.foldl (fun a c => 10 * a + (c.toNat - 48)) acc

theorem val_ge (ds : Str) (acc : Nat) : acc ≤ val acc ds := by
  induction ds generalizing acc with
  | nil => exact Nat.le_refl _
  | cons c ds ih => have := ih (10 * acc + (c.toNat - 48)); simp only [val, List.foldl_cons] at *; omega

theorem digits_cons {c : Char} {s : Str} : Digits (c :: s) ↔ (48 ≤ c.toNat ∧ c.toNat ≤ 57) ∧ Digits s := by
  simp [Digits]

/-- Full description of the digit loop. -/
theorem parseDigits_cases (s : Str) (acc : UInt32) :
    (Digits s ∧ val acc.toNat s < 2 ^ 32 ∧ ∃ v, parseDigits s acc = .ok v ∧ v.toNat = val acc.toNat s) ∨
    (parseDigits s acc = .err .posOverflow ∧ ∃ ds rest, s = ds ++ rest ∧ Digits ds ∧ 2 ^ 32 ≤ val acc.toNat ds) ∨
    (parseDigits s acc = .err .invalidDigit ∧ (¬ Digits s) ∧
      ¬ ∃ ds rest, s = ds ++ rest ∧ Digits ds ∧ 2 ^ 32 ≤ val acc.toNat ds) := by
  induction s generalizing acc with
  | nil => exact .inl ⟨by simp [Digits], by have := acc.toNat_lt; simpa [val] using this, acc, rfl, rfl⟩
  | cons c s ih =>
    by_cases hc : 48 ≤ c.toNat ∧ c.toNat ≤ 57
    · have hstep : ∀ ds, val acc.toNat (c :: ds) = val (acc.toNat * 10 + (c.toNat - 48)) ds := by
        intro ds; simp only [val, List.foldl_cons]; rw [Nat.mul_comm]
      have hp : parseDigits (c :: s) acc =
          if acc.toNat * 10 + (c.toNat - 48) < 4294967296 then
            parseDigits s (UInt32.ofNat (acc.toNat * 10 + (c.toNat - 48)))
          else .err .posOverflow := by
        simp only [parseDigits, if_pos hc]
        split
        · rfl
        · rw [if_neg (by omega)]
      by_cases hlt : acc.toNat * 10 + (c.toNat - 48) < 4294967296
      · rw [if_pos hlt] at hp
        have hto : (UInt32.ofNat (acc.toNat * 10 + (c.toNat - 48))).toNat = acc.toNat * 10 + (c.toNat - 48) := by
          rw [UInt32.toNat_ofNat']; exact Nat.mod_eq_of_lt hlt
        rcases ih (UInt32.ofNat (acc.toNat * 10 + (c.toNat - 48))) with ⟨h1, h2, v, h3, h4⟩ | ⟨h1, ds, rest, rfl, h2, h3⟩ |
          ⟨h1, h2, h3⟩
        · rw [hto] at h2 h4
          exact .inl ⟨digits_cons.mpr ⟨hc, h1⟩, by rw [hstep]; exact h2, v, by rw [hp, h3], by rw [hstep]; exact h4⟩
        · rw [hto] at h3
          refine .inr (.inl ⟨by rw [hp, h1], c :: ds, rest, rfl, digits_cons.mpr ⟨hc, h2⟩, ?_⟩)
          rw [hstep]; exact h3
        · rw [hto] at h3
          refine .inr (.inr ⟨by rw [hp, h1], fun h => h2 (digits_cons.mp h).2, ?_⟩)
          rintro ⟨ds, rest, he, hd, hv⟩
          cases ds with
          | nil => have := acc.toNat_lt; simp [val] at hv; omega
          | cons c' ds =>
            simp only [List.cons_append, List.cons.injEq] at he
            obtain ⟨rfl, rfl⟩ := he
            exact h3 ⟨ds, rest, rfl, (digits_cons.mp hd).2, by rw [← hstep]; exact hv⟩
      · rw [if_neg hlt] at hp
        refine .inr (.inl ⟨hp, [c], s, rfl, by simpa [Digits] using hc, ?_⟩)
        rw [hstep]; simp only [val, List.foldl_nil]; omega
    · refine .inr (.inr ⟨by simp only [parseDigits, if_neg hc], fun h => hc (digits_cons.mp h).1, ?_⟩)
      rintro ⟨ds, rest, he, hd, hv⟩
      cases ds with
      | nil => have := acc.toNat_lt; simp [val] at hv; omega
      | cons c' ds =>
        simp only [List.cons_append, List.cons.injEq] at he
        obtain ⟨rfl, rfl⟩ := he
        exact hc (digits_cons.mp hd).1

theorem not_digit_plus : ¬ Digits ['+'] := by simp [Digits]

theorem numeral_plus {s : Str} {n : Nat} (hs : s ≠ []) : Numeral ('+' :: s) n ↔ Digits s ∧ decVal s = n := by
  constructor
  · rintro ⟨sign, ds, rfl | rfl, h1, h2, h3, h4⟩
    · simp only [List.nil_append] at h3
      subst h3
      exact absurd (digits_cons.mp h2).1 (by decide)
    · simp only [List.cons_append, List.nil_append, List.cons.injEq, true_and] at h3
      subst h3
      exact ⟨h2, h4⟩
  · rintro ⟨h1, h2⟩
    exact ⟨['+'], s, .inr rfl, hs, h1, rfl, h2⟩

theorem numeral_noplus {s : Str} {n : Nat} (hs : s ≠ []) (hp : s.head? ≠ some '+') :
    Numeral s n ↔ Digits s ∧ decVal s = n := by
  constructor
  · rintro ⟨sign, ds, rfl | rfl, h1, h2, h3, h4⟩
    · simp only [List.nil_append] at h3
      subst h3
      exact ⟨h2, h4⟩
    · subst h3; simp at hp
  · rintro ⟨h1, h2⟩
    exact ⟨[], s, .inl rfl, hs, h1, rfl, h2⟩

theorem toobig_plus {s : Str} : TooBig ('+' :: s) ↔ ∃ ds rest, s = ds ++ rest ∧ Digits ds ∧ 2 ^ 32 ≤ decVal ds := by
  constructor
  · rintro ⟨sign, ds, rest, rfl | rfl, h2, h3, h4⟩
    · cases ds with
      | nil => simp [decVal] at h4
      | cons c ds =>
        simp only [List.nil_append, List.cons_append, List.cons.injEq] at h3
        obtain ⟨rfl, rfl⟩ := h3
        exact absurd (digits_cons.mp h2).1 (by decide)
    · simp only [List.cons_append, List.nil_append, List.cons.injEq, true_and] at h3
      exact ⟨ds, rest, h3, h2, h4⟩
  · rintro ⟨ds, rest, rfl, h1, h2⟩
    exact ⟨['+'], ds, rest, .inr rfl, h1, rfl, h2⟩

theorem toobig_noplus {s : Str} (hp : s.head? ≠ some '+') :
    TooBig s ↔ ∃ ds rest, s = ds ++ rest ∧ Digits ds ∧ 2 ^ 32 ≤ decVal ds := by
  constructor
  · rintro ⟨sign, ds, rest, rfl | rfl, h2, rfl, h4⟩
    · exact ⟨ds, rest, rfl, h2, h4⟩
    · simp at hp
  · rintro ⟨ds, rest, rfl, h1, h2⟩
    exact ⟨[], ds, rest, .inl rfl, h1, rfl, h2⟩

/-- Full description of `str::parse::<u32>` on a non-empty text. -/
theorem parseU32_cases (s : Str) (hs : s ≠ []) :
    (∃ n v, Numeral s n ∧ n < 2 ^ 32 ∧ parseU32 s = .ok v ∧ v.toNat = n) ∨
    (parseU32 s = .err .posOverflow ∧ TooBig s) ∨
    (parseU32 s = .err .invalidDigit ∧ (∀ n, ¬ Numeral s n) ∧ ¬ TooBig s) := by
  have conv : ∀ ds, decVal ds = val (0 : UInt32).toNat ds := fun _ => rfl
  by_cases hp : s.head? = some '+'
  · obtain ⟨t, rfl⟩ : ∃ t, s = '+' :: t := by
      cases s with
      | nil => cases hp
      | cons c t => simp at hp; subst hp; exact ⟨t, rfl⟩
    by_cases ht : t = []
    · subst ht
      refine .inr (.inr ⟨rfl, fun n => ?_, ?_⟩)
      · rintro ⟨sign, ds, rfl | rfl, h1, h2, h3, h4⟩
        · simp only [List.nil_append] at h3; subst h3; exact not_digit_plus h2
        · simp at h3; exact h1 h3
      · rw [toobig_plus]
        rintro ⟨ds, rest, h1, h2, h3⟩
        simp at h1
        rw [h1.1] at h3; simp [decVal] at h3
    · have hpar : parseU32 ('+' :: t) = parseDigits t 0 := by
        cases t with
        | nil => exact absurd rfl ht
        | cons x t => rfl
      rw [hpar]
      rcases parseDigits_cases t 0 with ⟨h1, h2, v, h3, h4⟩ | ⟨h1, ds, rest, rfl, h2, h3⟩ | ⟨h1, h2, h3⟩
      · exact .inl ⟨_, v, (numeral_plus ht).mpr ⟨h1, rfl⟩, h2, h3, h4⟩
      · exact .inr (.inl ⟨h1, toobig_plus.mpr ⟨ds, rest, rfl, h2, h3⟩⟩)
      · exact .inr (.inr ⟨h1, fun n h => h2 ((numeral_plus ht).mp h).1, fun h => h3 (toobig_plus.mp h)⟩)
  · have hpar : parseU32 s = parseDigits s 0 := by
      cases s with
      | nil => exact absurd rfl hs
      | cons c t =>
        simp at hp
        unfold parseU32
        split <;> simp_all
    rw [hpar]
    rcases parseDigits_cases s 0 with ⟨h1, h2, v, h3, h4⟩ | ⟨h1, ds, rest, rfl, h2, h3⟩ | ⟨h1, h2, h3⟩
    · exact .inl ⟨_, v, (numeral_noplus hs hp).mpr ⟨h1, rfl⟩, h2, h3, h4⟩
    · exact .inr (.inl ⟨h1, (toobig_noplus hp).mpr ⟨ds, rest, rfl, h2, h3⟩⟩)
    · exact .inr (.inr ⟨h1, fun n h => h2 ((numeral_noplus hs hp).mp h).1, fun h => h3 ((toobig_noplus hp).mp h)⟩)

theorem numeral_unique {s : Str} {a b : Nat} (ha : Numeral s a) (hb : Numeral s b) : a = b := by
  have hs : s ≠ [] := by
    obtain ⟨sign, ds, h, h1, -, rfl, -⟩ := ha
    intro h; simp at h; exact h1 h.2
  by_cases hp : s.head? = some '+'
  · obtain ⟨t, rfl⟩ : ∃ t, s = '+' :: t := by
      cases s with
      | nil => cases hp
      | cons c t => simp at hp; subst hp; exact ⟨t, rfl⟩
    have ht : t ≠ [] := by
      rintro rfl
      obtain ⟨sign, ds, rfl | rfl, h1, h2, h3, h4⟩ := ha
      · simp only [List.nil_append] at h3; subst h3; exact not_digit_plus h2
      · simp at h3; exact h1 h3
    rw [numeral_plus ht] at ha hb; omega
  · rw [numeral_noplus hs hp] at ha hb; omega

theorem numeral_not_toobig {s : Str} {n : Nat} (ha : Numeral s n) (hn : n < 2 ^ 32) : ¬ TooBig s := by
  have key : ∀ t : Str, decVal t < 2 ^ 32 → ¬ ∃ ds rest, t = ds ++ rest ∧ Digits ds ∧ 2 ^ 32 ≤ decVal ds := by
    rintro t ht ⟨ds, rest, rfl, -, h⟩
    have : decVal (ds ++ rest) = val (decVal ds) rest := by simp [decVal, val]
    have := val_ge rest (decVal ds)
    omega
  have ha' := ha
  obtain ⟨sign, ds, h | h, h1, h2, rfl, h4⟩ := ha'
  · subst h
    rw [List.nil_append, toobig_noplus]
    · exact key ds (by omega)
    · intro h
      cases ds with
      | nil => cases h
      | cons c ds => simp at h; subst h; exact absurd (digits_cons.mp h2).1 (by decide)
  · subst h
    rw [List.cons_append, List.nil_append, toobig_plus]
    exact key ds (by omega)

/-- `soft_int` on a non-empty text. -/
theorem softInt_cases (i : Nat) (s : Str) (hs : s ≠ []) :
    (∃ n v, Numeral s n ∧ n < 2 ^ 32 ∧ softInt i s = .ok v ∧ v.toNat = n) ∨
    (softInt i s = .err (.parseErrorAtIndex i .posOverflow) ∧ TooBig s ∧ ∀ n, Numeral s n → 2 ^ 32 ≤ n) ∨
    (softInt i s = .err (.parseErrorAtIndex i .invalidDigit) ∧ (∀ n, ¬ Numeral s n) ∧ ¬ TooBig s) := by
  have : ¬ Str.len s = 0 := fun h => hs (len_zero.mp h)
  simp only [softInt, if_neg this]
  rcases parseU32_cases s hs with ⟨n, v, h1, h2, h3, h4⟩ | ⟨h1, h2⟩ | ⟨h1, h2⟩
  · exact .inl ⟨n, v, h1, h2, by rw [h3]; rfl, h4⟩
  · refine .inr (.inl ⟨by rw [h1]; rfl, h2, fun n hn => ?_⟩)
    by_contra hlt
    exact numeral_not_toobig hn (by omega) h2
  · exact .inr (.inr ⟨by rw [h1]; rfl, h2⟩)

/-! ### One part -/

theorem numeral_last {s : Str} {n : Nat} (h : Numeral s n) : ∃ f c, s = f ++ [c] ∧ 48 ≤ c.toNat ∧ c.toNat ≤ 57 := by
  obtain ⟨sign, ds, -, h1, h2, rfl, -⟩ := h
  refine ⟨sign ++ ds.dropLast, ds.getLast h1, ?_, h2 _ (List.getLast_mem h1)⟩
  rw [List.append_assoc, List.dropLast_concat_getLast]

theorem numeral_ne {s : Str} {n : Nat} (h : Numeral s n) : s ≠ [] := by
  obtain ⟨f, c, rfl, -⟩ := numeral_last h; simp

theorem partText_hard {b : Str} {n : Nat} : PartText (b ++ ['\'']) true n ↔ Numeral b n ∧ n < 2 ^ 32 := by
  constructor
  · rintro ⟨body, h1, h2, h3⟩
    simp at h3; subst h3; exact ⟨h1, h2⟩
  · rintro ⟨h1, h2⟩; exact ⟨b, h1, h2, rfl⟩

theorem partText_soft_of_quote {b : Str} {n : Nat} : ¬ PartText (b ++ ['\'']) false n := by
  rintro ⟨body, h1, h2, h3⟩
  obtain ⟨f, c, rfl, h4, h5⟩ := numeral_last h1
  simp at h3
  rw [← h3.2] at h4
  exact absurd h4 (by decide)

theorem partText_soft {t : Str} {n : Nat} : PartText t false n ↔ Numeral t n ∧ n < 2 ^ 32 := by
  constructor
  · rintro ⟨body, h1, h2, h3⟩
    simp at h3; subst h3; exact ⟨h1, h2⟩
  · rintro ⟨h1, h2⟩; exact ⟨t, h1, h2, by simp⟩

theorem partText_hard_last {f : Str} {c : Char} {n : Nat} (h : PartText (f ++ [c]) true n) : c = '\'' := by
  obtain ⟨body, h1, h2, h3⟩ := h
  simp at h3; exact h3.2

/-- The components a part may stand for, on trimmed text. -/
def Comp (p : Profile) (t : Str) (v : Nat) : Prop :=
  ∃ hard n, PartText t hard n ∧ (hard = true → p = .debug → n < 2 ^ 31) ∧ v = if hard then (n + 2 ^ 31) % 2 ^ 32 else n

/-- What makes the parser panic on a trimmed part. -/
def Panics (p : Profile) (t : Str) : Prop :=
  (∃ c, t.getLast? = some c ∧ c.utf8Size ≠ 1) ∨ (p = .debug ∧ ∃ n, PartText t true n ∧ 2 ^ 31 ≤ n)

theorem addU32_fit (p : Profile) (a b : UInt32) (h : a.toNat + b.toNat < 4294967296) : addU32 p a b = some (a + b) := by
  unfold addU32; rw [if_pos h]

theorem addU32_debug (a b : UInt32) (h : ¬ a.toNat + b.toNat < 4294967296) : addU32 .debug a b = none := by
  unfold addU32; rw [if_neg h]

theorem addU32_release (a b : UInt32) : addU32 .release a b = some (a + b) := by
  unfold addU32; split <;> rfl

attribute [local irreducible] addU32

theorem hardInt_last (p : Profile) (i : Nat) (f : Str) (c : Char) (hu : c.utf8Size = 1) :
    hardInt p i (f ++ [c]) = (softInt i f >>= fun v => Res.ofPanic (addU32 p v softUpperBound)) := by
  have hl : ¬ Str.len (f ++ [c]) = 0 := fun h => by have := len_zero.mp h; simp at this
  unfold hardInt
  rw [if_neg hl, splitAtByte_last, if_pos hu]
  generalize addU32 p = g
  rfl

/-- Full description of `parse_int`. -/
theorem parseInt_cases (p : Profile) (i : Nat) (t : Str) :
    (∃ v, parseInt p i t = .ok v ∧ Comp p t v.toNat ∧ (∀ w, Comp p t w → w = v.toNat) ∧ ¬ Panics p t ∧ t ≠ [] ∧ t ≠ ['\'']) ∨
    (parseInt p i t = .panic ∧ Panics p t ∧ (∀ w, ¬ Comp p t w) ∧ t ≠ [] ∧ t ≠ ['\'']) ∨
    (parseInt p i t = .err (.emptyValueAtIndex i) ∧ (t = [] ∨ t = ['\'']) ∧ (∀ w, ¬ Comp p t w) ∧ ¬ Panics p t) ∨
    (∃ k, parseInt p i t = .err (.parseErrorAtIndex i k) ∧ t ≠ [] ∧ t ≠ ['\''] ∧ (∀ w, ¬ Comp p t w) ∧ ¬ Panics p t ∧
      ((k = .posOverflow ∧ TooBig t) ∨ (k = .invalidDigit ∧ ¬ TooBig t))) := by
  rcases List.eq_nil_or_concat t with rfl | ⟨f, c, rfl⟩
  · refine .inr (.inr (.inl ⟨by simp [parseInt, Str.len], .inl rfl, ?_, ?_⟩))
    · rintro w ⟨hard, n, ⟨body, h1, h2, h3⟩, -⟩
      simp at h3; exact numeral_ne h1 h3.1
    · rintro (⟨c, h, -⟩ | ⟨-, n, ⟨body, h1, h2, h3⟩, -⟩)
      · cases h
      · simp at h3
  · rw [List.concat_eq_append]
    have hl : ¬ Str.len (f ++ [c]) = 0 := fun h => by have := len_zero.mp h; simp at this
    have hne : f ++ [c] ≠ [] := by simp
    have hpi : parseInt p i (f ++ [c]) =
        if c.utf8Size = 1 then (if c = '\'' then hardInt p i (f ++ [c]) else softInt i (f ++ [c])) else .panic := by
      simp only [parseInt, if_neg hl, splitAtByte_last]
      split
      · simp
      · rfl
    by_cases hu : c.utf8Size = 1
    · rw [hpi, if_pos hu]
      have hnp1 : ¬ ∃ c', (f ++ [c]).getLast? = some c' ∧ c'.utf8Size ≠ 1 := by
        rintro ⟨c', h, h'⟩; simp at h; subst h; exact h' hu
      by_cases hc : c = '\''
      · subst hc
        have hh := hardInt_last p i f '\'' hu
        rw [if_pos rfl, hh]
        have hq : ∀ {t : Str}, TooBig t → TooBig (t ++ ['\'']) := by
          rintro t ⟨s, ds, rest, h1, h2, rfl, h3⟩; exact ⟨s, ds, rest ++ ['\''], h1, h2, by simp, h3⟩
        by_cases hf : f = []
        · subst hf
          refine .inr (.inr (.inl ⟨by rw [show softInt i [] = .err (.emptyValueAtIndex i) from rfl, Res.bind_err], .inr rfl, ?_, ?_⟩))
          · rintro w ⟨hard, n, h, -⟩
            cases hard with
            | true => exact numeral_ne (partText_hard (b := []).mp h).1 rfl
            | false => exact partText_soft_of_quote (b := []) h
          · rintro (h | ⟨-, n, h, -⟩)
            · exact hnp1 h
            · exact numeral_ne (partText_hard (b := []).mp h).1 rfl
        · have hne' : f ++ ['\''] ≠ ['\''] := by simpa using hf
          rcases softInt_cases i f hf with ⟨n, v, h1, h2, h3, h4⟩ | ⟨h1, h2, h3⟩ | ⟨h1, h2, h3⟩
          · have hval : ∀ m, PartText (f ++ ['\'']) true m → m = n := fun m hm =>
              numeral_unique (partText_hard.mp hm).1 h1
            have hsb : softUpperBound.toNat = 2 ^ 31 := rfl
            rw [h3, Res.bind_ok]
            have huniq : ∀ w, Comp p (f ++ ['\'']) w → w = (n + 2 ^ 31) % 2 ^ 32 ∧ (p = .debug → n < 2 ^ 31) := by
              rintro w ⟨hard, m, hm, h5, h6⟩
              cases hard with
              | false => exact absurd hm partText_soft_of_quote
              | true =>
                have := hval m hm; subst this
                exact ⟨by simpa using h6, h5 rfl⟩
            have hsum : (v + softUpperBound).toNat = (n + 2 ^ 31) % 2 ^ 32 := by
              rw [UInt32.toNat_add, h4, hsb]
            by_cases hlt : n < 2 ^ 31
            · have ha : addU32 p v softUpperBound = some (v + softUpperBound) := by
                exact addU32_fit _ _ _ (by rw [h4, hsb]; omega)
              refine .inl ⟨v + softUpperBound, by rw [ha, Res.ofPanic], ⟨true, n, partText_hard.mpr ⟨h1, h2⟩, fun _ _ => hlt, ?_⟩, ?_, ?_, hne, hne'⟩
              · rw [hsum, if_pos rfl]
              · intro w hw; rw [hsum]; exact (huniq w hw).1
              · rintro (h | ⟨-, m, hm, h⟩)
                · exact hnp1 h
                · have := hval m hm; omega
            · cases p with
              | debug =>
                have ha : addU32 .debug v softUpperBound = none := by
                  exact addU32_debug _ _ (by rw [h4, hsb]; omega)
                refine .inr (.inl ⟨by rw [ha, Res.ofPanic], .inr ⟨rfl, n, partText_hard.mpr ⟨h1, h2⟩, by omega⟩, ?_, hne, hne'⟩)
                intro w hw
                exact hlt ((huniq w hw).2 rfl)
              | release =>
                have ha : addU32 .release v softUpperBound = some (v + softUpperBound) := by
                  exact addU32_release _ _
                refine .inl ⟨v + softUpperBound, by rw [ha, Res.ofPanic],
                  ⟨true, n, partText_hard.mpr ⟨h1, h2⟩, by rintro - ⟨⟩, ?_⟩, ?_, ?_, hne, hne'⟩
                · rw [hsum, if_pos rfl]
                · intro w hw; rw [hsum]; exact (huniq w hw).1
                · rintro (h | ⟨h, -⟩)
                  · exact hnp1 h
                  · cases h
          · refine .inr (.inr (.inr ⟨.posOverflow, by rw [h1, Res.bind_err], hne, hne', ?_, ?_, .inl ⟨rfl, hq h2⟩⟩))
            · rintro w ⟨hard, m, hm, -⟩
              cases hard with
              | false => exact absurd hm partText_soft_of_quote
              | true => have := partText_hard.mp hm; have := h3 m this.1; omega
            · rintro (h | ⟨-, m, hm, h⟩)
              · exact hnp1 h
              · have := partText_hard.mp hm; have := h3 m this.1; omega
          · refine .inr (.inr (.inr ⟨.invalidDigit, by rw [h1, Res.bind_err], hne, hne', ?_, ?_, .inr ⟨rfl, ?_⟩⟩))
            · rintro w ⟨hard, m, hm, -⟩
              cases hard with
              | false => exact absurd hm partText_soft_of_quote
              | true => exact h2 m (partText_hard.mp hm).1
            · rintro (h | ⟨-, m, hm, h⟩)
              · exact hnp1 h
              · exact h2 m (partText_hard.mp hm).1
            · rintro ⟨s, ds, rest, hs, hd, he, hv⟩
              apply h3
              rcases List.eq_nil_or_concat rest with rfl | ⟨r', c', rfl⟩
              · exfalso
                rcases List.eq_nil_or_concat ds with rfl | ⟨d', c', rfl⟩
                · simp [decVal] at hv
                · rw [List.append_nil, List.concat_eq_append, ← List.append_assoc] at he
                  have := List.append_inj_right' he rfl
                  simp at this
                  have := hd c' (by simp)
                  subst c'
                  exact absurd this (by decide)
              · rw [List.concat_eq_append, ← List.append_assoc] at he
                exact ⟨s, ds, r', hs, hd, List.append_inj_left' he rfl, hv⟩
      · rw [if_neg hc]
        have hnh : ∀ n, ¬ PartText (f ++ [c]) true n := fun n h => hc (partText_hard_last h)
        have hnp : ¬ Panics p (f ++ [c]) := by
          rintro (h | ⟨-, n, h, -⟩)
          · exact hnp1 h
          · exact hnh n h
        have hne' : f ++ [c] ≠ ['\''] := by
          intro h
          have := congrArg List.getLast? h
          simp at this; exact hc this
        rcases softInt_cases i (f ++ [c]) hne with ⟨n, v, h1, h2, h3, h4⟩ | ⟨h1, h2, h3⟩ | ⟨h1, h2, h3⟩
        · refine .inl ⟨v, h3, ⟨false, n, partText_soft.mpr ⟨h1, h2⟩, by simp, by simp [h4]⟩, ?_, hnp, hne, hne'⟩
          rintro w ⟨hard, m, hm, -, h6⟩
          cases hard with
          | true => exact absurd hm (hnh m)
          | false => rw [h4]; simpa [numeral_unique (partText_soft.mp hm).1 h1] using h6
        · refine .inr (.inr (.inr ⟨.posOverflow, h1, hne, hne', ?_, hnp, .inl ⟨rfl, h2⟩⟩))
          rintro w ⟨hard, m, hm, -⟩
          cases hard with
          | true => exact absurd hm (hnh m)
          | false => have := partText_soft.mp hm; have := h3 m this.1; omega
        · refine .inr (.inr (.inr ⟨.invalidDigit, h1, hne, hne', ?_, hnp, .inr ⟨rfl, h3⟩⟩))
          rintro w ⟨hard, m, hm, -⟩
          cases hard with
          | true => exact absurd hm (hnh m)
          | false => exact h2 m (partText_soft.mp hm).1
    · rw [hpi, if_neg hu]
      refine .inr (.inl ⟨rfl, .inl ⟨c, by simp, hu⟩, ?_, hne, ?_⟩)
      · rintro w ⟨hard, m, hm, -⟩
        cases hard with
        | true => have := partText_hard_last hm; subst this; exact hu (by decide)
        | false =>
          obtain ⟨g, d, he, h1, h2⟩ := numeral_last (partText_soft.mp hm).1
          have := List.append_inj_right' he rfl
          simp at this; subst this
          exact hu (utf8Size_ascii c (by omega))
      · intro h
        have := congrArg List.getLast? h
        simp at this; subst this; exact hu (by decide)

end KC.KeyPath
