import Verif.Proofs.KeyPath
/-
Properties C16 - C20 (keychain/src/key_path.rs and the three networks' key_path.rs).
-/
namespace KC.Props
open KC.KeyPath KC.Spec

/-- Are overflow checks on in this build? -/
def checked : Profile → Bool
  | .debug => true
  | .release => false

/-! Auxiliary: the five numeric parts as a list. -/

def parseParts (p : Profile) : Nat → List Str → Res Error (List UInt32)
  | _, [] => .ok []
  | i, s :: ss => do
    let v ← parseInt p i (Str.trim s)
    let vs ← parseParts p (i + 1) ss
    .ok (v :: vs)

theorem comp_iff (p : Profile) (s : Str) (v : Nat) : Component (checked p) s v ↔ Comp p (Str.trim s) v := by
  constructor
  · rintro ⟨t, hard, n, h1, h2, h3, h4⟩
    rw [trimmed_eq h1] at h2
    exact ⟨hard, n, h2, fun h hp => h3 h (by rw [hp]; rfl), h4⟩
  · rintro ⟨hard, n, h2, h3, h4⟩
    refine ⟨_, hard, n, trimmed_trim s, h2, fun h hc => h3 h ?_, h4⟩
    cases p
    · rfl
    · cases hc

theorem parseParts_ok (p : Profile) (i : Nat) (ss : List Str) (vs : List UInt32) :
    parseParts p i ss = .ok vs ↔ List.Forall₂ (fun s (v : UInt32) => Component (checked p) s v.toNat) ss vs := by
  induction ss generalizing i vs with
  | nil => cases vs <;> simp [parseParts]
  | cons s ss ih =>
    simp only [parseParts, Res.bind_eq_ok, Res.ok.injEq]
    have key : ∀ v, parseInt p i (Str.trim s) = .ok v ↔ Component (checked p) s v.toNat := by
      intro v
      rw [comp_iff]
      rcases parseInt_cases p i (Str.trim s) with ⟨w, h1, h2, h3, -⟩ | ⟨h1, -, h2, -⟩ | ⟨h1, -, h2, -⟩ | ⟨k, h1, -, -, h2, -⟩
      · rw [h1]
        constructor
        · intro h; cases h; exact h2
        · intro h; rw [UInt32.toNat_inj.mp (h3 _ h)]
      · rw [h1]; exact ⟨nofun, fun h => absurd h (h2 _)⟩
      · rw [h1]; exact ⟨nofun, fun h => absurd h (h2 _)⟩
      · rw [h1]; exact ⟨nofun, fun h => absurd h (h2 _)⟩
    constructor
    · rintro ⟨v, h1, ws, h2, rfl⟩
      exact .cons ((key v).mp h1) ((ih _ _).mp h2)
    · intro h
      cases h with
      | cons h1 h2 => exact ⟨_, (key _).mpr h1, _, (ih _ _).mpr h2, rfl⟩

theorem parseParts_fine (p : Profile) (i : Nat) (pre : List Str) (h : ∀ s ∈ pre, ∃ v, Component (checked p) s v) (x : Str)
    (post : List Str) :
    (∀ e, parseInt p (i + pre.length) (Str.trim x) = .err e → parseParts p i (pre ++ x :: post) = .err e) ∧
    (parseInt p (i + pre.length) (Str.trim x) = .panic → parseParts p i (pre ++ x :: post) = .panic) := by
  induction pre generalizing i with
  | nil =>
    simp only [List.length_nil, Nat.add_zero, List.nil_append, parseParts]
    exact ⟨fun e he => by rw [he]; rfl, fun he => by rw [he]; rfl⟩
  | cons s pre ih =>
    obtain ⟨v, hv⟩ := h s (by simp)
    rw [comp_iff] at hv
    have hok : ∃ w, parseInt p i (Str.trim s) = .ok w := by
      rcases parseInt_cases p i (Str.trim s) with ⟨w, h1, -⟩ | ⟨-, -, h2, -⟩ | ⟨-, -, h2, -⟩ | ⟨k, -, -, -, h2, -⟩
      · exact ⟨w, h1⟩
      all_goals exact absurd hv (h2 _)
    obtain ⟨w, hw⟩ := hok
    have := ih (i + 1) (fun s hs => h s (by simp [hs]))
    simp only [List.length_cons, List.cons_append, parseParts, hw, Res.bind_ok]
    rw [show i + (pre.length + 1) = i + 1 + pre.length by omega]
    exact ⟨fun e he => by rw [this.1 e he]; rfl, fun he => by rw [this.2 he]; rfl⟩

theorem parseParts_cases (p : Profile) (i : Nat) (ss : List Str) :
    (∃ vs, parseParts p i ss = .ok vs) ∨
    ∃ pre x post, ss = pre ++ x :: post ∧ (∀ s ∈ pre, ∃ v, Component (checked p) s v) ∧ ¬ ∃ v, Component (checked p) x v := by
  induction ss generalizing i with
  | nil => exact .inl ⟨[], rfl⟩
  | cons s ss ih =>
    by_cases hs : ∃ v, Component (checked p) s v
    · rcases ih (i + 1) with ⟨vs, hvs⟩ | ⟨pre, x, post, rfl, h1, h2⟩
      · obtain ⟨v, hv⟩ := hs
        rw [comp_iff] at hv
        rcases parseInt_cases p i (Str.trim s) with ⟨w, h1, -⟩ | ⟨-, -, h2, -⟩ | ⟨-, -, h2, -⟩ | ⟨k, -, -, -, h2, -⟩
        · exact .inl ⟨w :: vs, by simp only [parseParts, h1, hvs, Res.bind_ok]⟩
        all_goals exact absurd hv (h2 _)
      · refine .inr ⟨s :: pre, x, post, rfl, ?_, h2⟩
        intro y hy
        rcases List.mem_cons.mp hy with rfl | h
        · exact hs
        · exact h1 y h
    · exact .inr ⟨[], s, ss, rfl, by simp, hs⟩

theorem from_parts (p : Profile) (parts : List Str) (h0 : parts ≠ []) (hs : ∀ s ∈ parts, '/' ∉ s) :
    Path.from p (slashed parts) =
      if parts.length ≠ 6 then .err (.invalidPartsCount parts.length)
      else if Str.trim (parts.headD []) ≠ ['m'] then .err (.invalidPathMarker (Str.trim (parts.headD [])))
      else (parseParts p 1 parts.tail).map fun v =>
        ⟨v.getD 0 0, v.getD 1 0, v.getD 2 0, v.getD 3 0, v.getD 4 0⟩ := by
  unfold Path.from slashed
  rw [Bip39.split_intercalate '/' parts h0 hs]
  simp only [List.length_map, partsCount]
  by_cases hl : parts.length = 6
  · obtain ⟨m, a, b, c, d, e, rfl⟩ : ∃ m a b c d e, parts = [m, a, b, c, d, e] := by
      match parts, hl with
      | [m, a, b, c, d, e], _ => exact ⟨m, a, b, c, d, e, rfl⟩
    simp only [List.length_cons, List.length_nil, List.map_cons, List.map_nil, List.headD_cons, List.tail_cons,
      parseParts, List.getD_cons_zero, List.getD_cons_succ]
    have h6 : ¬ (0 + 1 + 1 + 1 + 1 + 1 + 1 ≠ 6) := by decide
    simp only [if_neg h6]
    split
    · rfl
    · cases parseInt p 1 a.trim <;> simp
      cases parseInt p 2 b.trim <;> simp
      cases parseInt p 3 c.trim <;> simp
      cases parseInt p 4 d.trim <;> simp
      cases parseInt p 5 e.trim <;> simp
  · rw [if_pos hl, if_pos hl]

/-- C17: the accepted texts and their components. -/
theorem C17_accept (p : Profile) (path : Str) (k : Path) :
    Path.from p path = .ok k ↔
      ∃ m a b c d e, path = slashed [m, a, b, c, d, e] ∧ (∀ s ∈ [m, a, b, c, d, e], '/' ∉ s) ∧ Trimmed m ['m'] ∧
        Component (checked p) a k.purpose.toNat ∧ Component (checked p) b k.coin.toNat ∧
        Component (checked p) c k.account.toNat ∧ Component (checked p) d k.change.toNat ∧
        Component (checked p) e k.address.toNat := by
  constructor
  · intro h
    have hp : path = slashed (Bip39.split '/' path) := (Bip39.split_join _ _).symm
    have hns := Bip39.split_noSep '/' path
    have hne := Bip39.split_ne_nil '/' path
    generalize Bip39.split '/' path = parts at hp hns hne
    subst hp
    rw [from_parts p parts hne hns] at h
    split at h
    · cases h
    · rename_i hl
      split at h
      · cases h
      · rename_i hm
        obtain ⟨m, a, b, c, d, e, rfl⟩ : ∃ m a b c d e, parts = [m, a, b, c, d, e] := by
          match parts, Decidable.not_not.mp hl with
          | [m, a, b, c, d, e], _ => exact ⟨m, a, b, c, d, e, rfl⟩
        rw [Res.map_eq_ok] at h
        obtain ⟨vs, h1, rfl⟩ := h
        rw [parseParts_ok] at h1
        simp only [List.tail_cons] at h1
        obtain _ | ⟨h1, _ | ⟨h2, _ | ⟨h3, _ | ⟨h4, _ | ⟨h5, _ | _⟩⟩⟩⟩⟩ := h1
        have hm' : Str.trim m = ['m'] := Decidable.not_not.mp hm
        exact ⟨m, a, b, c, d, e, rfl, hns, hm' ▸ trimmed_trim m, h1, h2, h3, h4, h5⟩
  · rintro ⟨m, a, b, c, d, e, rfl, hns, hm, h1, h2, h3, h4, h5⟩
    rw [from_parts p _ (by simp) hns, if_neg (by simp), if_neg (by simpa using (trimmed_eq hm).symm)]
    have := (parseParts_ok p 1 [a, b, c, d, e] [k.purpose, k.coin, k.account, k.change, k.address]).mpr
      (.cons h1 (.cons h2 (.cons h3 (.cons h4 (.cons h5 .nil)))))
    rw [List.tail_cons, this]; rfl

/-- C17: the outcome is determined (a text has one component list at most): components are unique. -/
theorem C17_component_unique (p : Profile) (s : Str) (v w : Nat) (h : Component (checked p) s v)
    (h' : Component (checked p) s w) : v = w := by
  rw [comp_iff] at h h'
  rcases parseInt_cases p 0 (Str.trim s) with ⟨u, -, -, h3, -⟩ | ⟨-, -, h2, -⟩ | ⟨-, -, h2, -⟩ | ⟨k, -, -, -, h2, -⟩
  · rw [h3 v h, h3 w h']
  all_goals exact absurd h (h2 _)

/-- C17: wrong number of parts. -/
theorem C17_count (p : Profile) (parts : List Str) (h0 : parts ≠ []) (hs : ∀ s ∈ parts, '/' ∉ s) (hn : parts.length ≠ 6) :
    Path.from p (slashed parts) = .err (.invalidPartsCount parts.length) := by
  rw [from_parts p parts h0 hs, if_pos hn]

/-- C17: wrong marker, reported without its white space. -/
theorem C17_marker (p : Profile) (m t : Str) (ps : List Str) (hs : ∀ s ∈ m :: ps, '/' ∉ s) (hn : ps.length = 5)
    (ht : Trimmed m t) (hm : t ≠ ['m']) : Path.from p (slashed (m :: ps)) = .err (.invalidPathMarker t) := by
  rw [from_parts p _ (by simp) hs, if_neg (by simp [hn]), List.headD_cons, ← trimmed_eq ht, if_pos hm]

/-- C17: the first bad part decides the error, with its index. -/
theorem C17_part_error (p : Profile) (m x t : Str) (pre post : List Str) (hs : ∀ s ∈ m :: (pre ++ x :: post), '/' ∉ s)
    (hn : (pre ++ x :: post).length = 5) (hm : Trimmed m ['m']) (hpre : ∀ s ∈ pre, ∃ v, Component (checked p) s v)
    (ht : Trimmed x t) (hbad : ¬ ∃ v, Component (checked p) x v) :
    ((t = [] ∨ t = ['\'']) →
      Path.from p (slashed (m :: (pre ++ x :: post))) = .err (.emptyValueAtIndex (pre.length + 1))) ∧
    ((∃ c, t.getLast? = some c ∧ c.utf8Size = 1) → t ≠ ['\''] → (¬ ∃ n, PartText t true n ∧ 2 ^ 31 ≤ n) →
      ((TooBig t → Path.from p (slashed (m :: (pre ++ x :: post))) =
          .err (.parseErrorAtIndex (pre.length + 1) .posOverflow)) ∧
       (¬ TooBig t → Path.from p (slashed (m :: (pre ++ x :: post))) =
          .err (.parseErrorAtIndex (pre.length + 1) .invalidDigit)))) := by
  have hf := parseParts_fine p 1 pre hpre x post
  rw [← trimmed_eq ht, Nat.add_comm 1] at hf
  have hfrom : Path.from p (slashed (m :: (pre ++ x :: post))) = (parseParts p 1 (pre ++ x :: post)).map fun v =>
        ⟨v.getD 0 0, v.getD 1 0, v.getD 2 0, v.getD 3 0, v.getD 4 0⟩ := by
    rw [from_parts p _ (by simp) hs, if_neg (by rw [List.length_cons, hn]; decide), List.headD_cons, ← trimmed_eq hm,
      if_neg (by simp), List.tail_cons]
  have hbad' : ∀ w, ¬ Comp p t w := fun w hw => hbad ⟨w, (comp_iff p x w).mpr (trimmed_eq ht ▸ hw)⟩
  rw [hfrom]
  rcases parseInt_cases p (pre.length + 1) t with ⟨w, -, h1, -⟩ | ⟨h1, h2, h3, h4, h5⟩ | ⟨h1, h2, h3, h4⟩ |
    ⟨k, h1, h2, h3, h4, h5, h6⟩
  · exact absurd h1 (hbad' _)
  · refine ⟨fun h => ?_, fun hc _ hno => ?_⟩
    · rcases h with h | h
      · exact absurd h h4
      · exact absurd h h5
    · obtain ⟨c, hc1, hc2⟩ := hc
      rcases h2 with ⟨c', h6, h7⟩ | ⟨-, n, h6, h7⟩
      · rw [hc1] at h6; cases h6; exact absurd hc2 h7
      · exact absurd ⟨n, h6, h7⟩ hno
  · refine ⟨fun _ => by rw [hf.1 _ h1]; rfl, fun hc hq => ?_⟩
    rcases h2 with rfl | rfl
    · obtain ⟨c, hc, -⟩ := hc; cases hc
    · exact absurd rfl hq
  · refine ⟨fun h => ?_, fun _ _ _ => ?_⟩
    · rcases h with h | h
      · exact absurd h h2
      · exact absurd h h3
    · rcases h6 with ⟨rfl, h6⟩ | ⟨rfl, h6⟩
      · exact ⟨fun _ => by rw [hf.1 _ h1]; rfl, fun h => absurd h6 h⟩
      · exact ⟨fun h => absurd h h6, fun _ => by rw [hf.1 _ h1]; rfl⟩

/-- C19: exactly when parsing panics. -/
theorem C19_panic (p : Profile) (path : Str) :
    Path.from p path = .panic ↔
      ∃ m x t pre post, path = slashed (m :: (pre ++ x :: post)) ∧ (∀ s ∈ m :: (pre ++ x :: post), '/' ∉ s) ∧
        (pre ++ x :: post).length = 5 ∧ Trimmed m ['m'] ∧ (∀ s ∈ pre, ∃ v, Component (checked p) s v) ∧ Trimmed x t ∧
        ((∃ c, t.getLast? = some c ∧ c.utf8Size ≠ 1) ∨ (p = .debug ∧ ∃ n, PartText t true n ∧ 2 ^ 31 ≤ n)) := by
  constructor
  · intro h
    have hp : path = slashed (Bip39.split '/' path) := (Bip39.split_join _ _).symm
    have hns := Bip39.split_noSep '/' path
    have hne := Bip39.split_ne_nil '/' path
    generalize Bip39.split '/' path = parts at hp hns hne
    subst hp
    rw [from_parts p parts hne hns] at h
    split at h
    · cases h
    · rename_i hl
      split at h
      · cases h
      · rename_i hm
        cases parts with
        | nil => exact absurd rfl hne
        | cons m ps =>
          rw [Res.map_eq_panic, List.tail_cons] at h
          have hlen : ps.length = 5 := by simpa using Decidable.not_not.mp hl
          have hm' : Str.trim m = ['m'] := Decidable.not_not.mp hm
          rcases parseParts_cases p 1 ps with ⟨vs, hvs⟩ | ⟨pre, x, post, rfl, h1, h2⟩
          · rw [hvs] at h; cases h
          · refine ⟨m, x, _, pre, post, rfl, hns, hlen, hm' ▸ trimmed_trim m, h1, trimmed_trim x, ?_⟩
            have hf := parseParts_fine p 1 pre h1 x post
            rcases parseInt_cases p (1 + pre.length) (Str.trim x) with ⟨w, -, h3, -⟩ | ⟨-, h3, -⟩ | ⟨h3, -⟩ | ⟨k, h3, -⟩
            · exact absurd ⟨_, (comp_iff p x _).mpr h3⟩ h2
            · exact h3
            · rw [hf.1 _ h3] at h; cases h
            · rw [hf.1 _ h3] at h; cases h
  · rintro ⟨m, x, t, pre, post, rfl, hs, hn, hm, hpre, ht, hpan⟩
    rw [from_parts p _ (by simp) hs, if_neg (by rw [List.length_cons, hn]; decide), List.headD_cons, ← trimmed_eq hm,
      if_neg (by simp), List.tail_cons, Res.map_eq_panic]
    have hf := parseParts_fine p 1 pre hpre x post
    apply hf.2
    rw [← trimmed_eq ht]
    rcases parseInt_cases p (1 + pre.length) t with ⟨w, -, -, -, h3, -⟩ | ⟨h3, -⟩ | ⟨-, -, -, h3⟩ | ⟨k, -, -, -, -, h3, -⟩
    · exact absurd hpan h3
    · exact h3
    all_goals exact absurd hpan h3

/-- C19: in release builds ASCII text never panics. -/
theorem C19_ascii_release (path : Str) (h : ∀ c ∈ path, c.toNat < 128) : Path.from .release path ≠ .panic := by
  intro hp
  obtain ⟨m, x, t, pre, post, rfl, -, -, -, -, ht, ⟨c, hc, hc'⟩ | ⟨h', -⟩⟩ := (C19_panic _ _).mp hp
  · apply hc'
    apply utf8Size_ascii
    apply h
    obtain ⟨l, r, rfl, -⟩ := ht
    have h1 : c ∈ l ++ t ++ r := by simp [List.mem_of_getLast? hc]
    have : ∀ (ps : List Str) (s : Str), s ∈ ps → ∀ c ∈ s, c ∈ slashed ps := by
      intro ps
      induction ps with
      | nil => intro s h; cases h
      | cons q ps ih =>
        intro s hs c hc
        by_cases hps : ps = []
        · subst hps
          simp only [List.mem_singleton] at hs
          subst hs
          rw [slashed, Bip39.join_single]; exact hc
        · rw [slashed, Bip39.join_cons _ _ _ hps]
          rcases List.mem_cons.mp hs with rfl | hs
          · simp [hc]
          · have := ih s hs c hc
            simp only [slashed] at this
            simp [this]
    exact this _ (l ++ t ++ r) (by simp) c h1
  · cases h'

/-! Printing. -/

theorem decVal_toDigits (n : Nat) : decVal (Nat.toDigits 10 n) = n := by
  have := Nat.ofDigitChars_ten_toDigits (n := n)
  rw [Nat.ofDigitChars_eq_foldl] at this
  exact this

theorem digits_toDigits (n : Nat) : Digits (Nat.toDigits 10 n) := by
  intro c hc
  have := Nat.isDigit_of_mem_toDigits (by decide) (by decide) hc
  simp only [Char.isDigit, Bool.and_eq_true, decide_eq_true_eq, ge_iff_le, UInt32.le_iff_toNat_le] at this
  exact this

theorem numeral_toDigits (n : Nat) : Numeral (Nat.toDigits 10 n) n :=
  ⟨[], _, .inl rfl, Nat.toDigits_ne_nil, digits_toDigits n, rfl, decVal_toDigits n⟩

theorem digit_not_white {c : Char} (h : 48 ≤ c.toNat ∧ c.toNat ≤ 57) : ¬ White c := by
  simp only [White, whiteSpaces, List.mem_cons, List.not_mem_nil, or_false]
  omega

theorem printInt_chars (v : UInt32) : (∃ c t, printInt v = c :: t ∧ 48 ≤ c.toNat ∧ c.toNat ≤ 57) ∧
    (∃ t c, printInt v = t ++ [c] ∧ ((48 ≤ c.toNat ∧ c.toNat ≤ 57) ∨ c = '\'')) ∧ '/' ∉ printInt v := by
  have front : ∀ n : Nat, ∃ c t, Nat.toDigits 10 n = c :: t ∧ 48 ≤ c.toNat ∧ c.toNat ≤ 57 := by
    intro n
    cases hd : Nat.toDigits 10 n with
    | nil => exact absurd hd Nat.toDigits_ne_nil
    | cons c t => exact ⟨c, t, rfl, digits_toDigits n c (by rw [hd]; simp)⟩
  have noslash : ∀ n : Nat, '/' ∉ Nat.toDigits 10 n := fun n h => absurd (digits_toDigits n _ h) (by decide)
  unfold printInt decimal
  split
  · obtain ⟨c, t, h1, h2⟩ := front (v - softUpperBound).toNat
    refine ⟨⟨c, t ++ ['\''], by rw [h1]; rfl, h2⟩, ⟨_, '\'', rfl, .inr rfl⟩, ?_⟩
    simp [noslash]
  · obtain ⟨c, t, h1, h2⟩ := front v.toNat
    refine ⟨⟨c, t, h1, h2⟩, ?_, noslash _⟩
    have hne : Nat.toDigits 10 v.toNat ≠ [] := Nat.toDigits_ne_nil
    exact ⟨_, _, (List.dropLast_concat_getLast hne).symm, .inl (digits_toDigits _ _ (List.getLast_mem hne))⟩

theorem printInt_trimmed (v : UInt32) : Trimmed (printInt v) (printInt v) := by
  obtain ⟨⟨c, t, h1, h2⟩, ⟨t', c', h3, h4⟩, -⟩ := printInt_chars v
  refine ⟨[], [], by simp, by simp, by simp, ?_, ?_⟩
  · intro x hx
    rw [h1] at hx; cases hx
    exact digit_not_white h2
  · intro x hx
    rw [h3] at hx; simp at hx; subst hx
    rcases h4 with h4 | rfl
    · exact digit_not_white h4
    · decide

theorem printInt_component (b : Bool) (v : UInt32) : Component b (printInt v) v.toNat := by
  have hb : softUpperBound.toNat = 2 ^ 31 := rfl
  have hv := v.toNat_lt
  refine ⟨_, decide (v ≥ softUpperBound), if v ≥ softUpperBound then v.toNat - 2 ^ 31 else v.toNat, printInt_trimmed v, ?_, ?_, ?_⟩
  · by_cases h : v ≥ softUpperBound
    · have h' : 2 ^ 31 ≤ v.toNat := by have := UInt32.le_iff_toNat_le.mp h; omega
      have hsub : (v - softUpperBound).toNat = v.toNat - 2 ^ 31 := by
        rw [UInt32.toNat_sub_of_le _ _ h, hb]
      refine ⟨decimal (v - softUpperBound), ?_, ?_, ?_⟩
      · rw [if_pos h, decimal, hsub]; exact numeral_toDigits _
      · rw [if_pos h]; omega
      · simp [h, printInt]
    · refine ⟨decimal v, ?_, ?_, ?_⟩
      · rw [if_neg h]; exact numeral_toDigits _
      · rw [if_neg h]; omega
      · simp [h, printInt]
  · intro h _
    rw [if_pos (of_decide_eq_true h)]
    omega
  · by_cases h : v ≥ softUpperBound
    · have h' : 2 ^ 31 ≤ v.toNat := by have := UInt32.le_iff_toNat_le.mp h; omega
      rw [if_pos h, if_pos (decide_eq_true h)]
      omega
    · rw [if_neg h, if_neg (by simpa using h)]

/-- C16: parsing a printed path gives the path back. -/
theorem C16_roundtrip (p : Profile) (k : Path) : Path.from p k.print = .ok k := by
  rw [C17_accept]
  refine ⟨['m'], printInt k.purpose, printInt k.coin, printInt k.account, printInt k.change, printInt k.address,
    ?_, ?_, ?_, printInt_component _ _, printInt_component _ _, printInt_component _ _, printInt_component _ _,
    printInt_component _ _⟩
  · simp [Path.print, slashed, List.intercalate, List.intersperse]
  · intro s hs
    simp only [List.mem_cons, List.not_mem_nil, or_false] at hs
    rcases hs with rfl | rfl | rfl | rfl | rfl | rfl
    · decide
    all_goals exact (printInt_chars _).2.2
  · exact ⟨[], [], rfl, by simp, by simp, by simp; decide, by simp; decide⟩

/-- C16: so different paths print differently. -/
theorem C16_injective (k k' : Path) (h : k.print = k'.print) : k = k' := by
  have h1 := C16_roundtrip .release k
  rw [h, C16_roundtrip] at h1
  cases h1; rfl

/-- C16: shape of the printed text. -/
theorem C16_format (k : Path) : ∃ t : UInt32 → Str,
    k.print = slashed [['m'], t k.purpose, t k.coin, t k.account, t k.change, t k.address] ∧
    ∀ v : UInt32, t v = if v.toNat < 2 ^ 31 then Nat.toDigits 10 v.toNat else Nat.toDigits 10 (v.toNat - 2 ^ 31) ++ ['\''] := by
  refine ⟨printInt, by simp [Path.print, slashed, List.intercalate, List.intersperse], fun v => ?_⟩
  have hb : softUpperBound.toNat = 2 ^ 31 := rfl
  unfold printInt decimal
  by_cases h : v ≥ softUpperBound
  · have h' : 2 ^ 31 ≤ v.toNat := by have := UInt32.le_iff_toNat_le.mp h; omega
    rw [if_pos h, if_neg (by omega), UInt32.toNat_sub_of_le _ _ h, hb]
  · rw [if_neg h, if_pos]
    have := UInt32.lt_iff_toNat_lt.mp (UInt32.not_le.mp h); omega

/-- C18: a hardened part below 2^31 is hardened, in both builds. -/
theorem C18_hardened (p : Profile) (i : Nat) (t : Str) (n : Nat) (h : PartText t true n) (hn : n < 2 ^ 31) :
    ∃ v, parseInt p i t = .ok v ∧ v.toNat = n + 2 ^ 31 := by
  have hc : Comp p t ((n + 2 ^ 31) % 2 ^ 32) := ⟨true, n, h, fun _ _ => hn, by rw [if_pos rfl]⟩
  rcases parseInt_cases p i t with ⟨v, h1, -, h3, -⟩ | ⟨-, -, h2, -⟩ | ⟨-, -, h2, -⟩ | ⟨k, -, -, -, h2, -⟩
  · exact ⟨v, h1, by rw [← h3 _ hc]; omega⟩
  all_goals exact absurd hc (h2 _)

/-- C18: from 2^31 up a debug build panics and a release build gives a soft (non-hardened) index: the property as a user
expects it fails. -/
theorem C18_overflow (i : Nat) (t : Str) (n : Nat) (h : PartText t true n) (hn : 2 ^ 31 ≤ n) :
    parseInt .debug i t = .panic ∧ ∃ v, parseInt .release i t = .ok v ∧ v.toNat = n - 2 ^ 31 ∧ v.toNat < 2 ^ 31 := by
  have hlt : n < 2 ^ 32 := by obtain ⟨_, -, h, -⟩ := h; exact h
  constructor
  · have hp : Panics .debug t := .inr ⟨rfl, n, h, hn⟩
    rcases parseInt_cases .debug i t with ⟨w, -, -, -, h3, -⟩ | ⟨h3, -⟩ | ⟨-, -, -, h3⟩ | ⟨k, -, -, -, -, h3, -⟩
    · exact absurd hp h3
    · exact h3
    all_goals exact absurd hp h3
  · have hc : Comp .release t ((n + 2 ^ 31) % 2 ^ 32) := ⟨true, n, h, nofun, by rw [if_pos rfl]⟩
    rcases parseInt_cases .release i t with ⟨v, h1, -, h3, -⟩ | ⟨-, -, h2, -⟩ | ⟨-, -, h2, -⟩ | ⟨k, -, -, -, h2, -⟩
    · exact ⟨v, h1, by rw [← h3 _ hc]; omega, by rw [← h3 _ hc]; omega⟩
    all_goals exact absurd hc (h2 _)

/-- C18 at the level of whole texts: the account of an accepted path written with `'` and a number below 2^31 is hardened. -/
theorem C18_path (p : Profile) (m a b c d e t : Str) (k : Path) (n : Nat) (hs : ∀ s ∈ [m, a, b, c, d, e], '/' ∉ s)
    (h : Path.from p (slashed [m, a, b, c, d, e]) = .ok k) (ht : Trimmed c t) (hp : PartText t true n) (hn : n < 2 ^ 31) :
    2 ^ 31 ≤ k.account.toNat := by
  obtain ⟨m', a', b', c', d', e', h1, h2, -, -, -, hc, -, -⟩ := (C17_accept p _ k).mp h
  have heq : [m, a, b, c, d, e] = [m', a', b', c', d', e'] := by
    rw [← Bip39.split_intercalate '/' [m, a, b, c, d, e] (by simp) hs,
      ← Bip39.split_intercalate '/' [m', a', b', c', d', e'] (by simp) h2]
    exact congrArg _ h1
  simp only [List.cons.injEq] at heq
  obtain ⟨-, -, -, rfl, -⟩ := heq
  have hc2 : Component (checked p) c ((n + 2 ^ 31) % 2 ^ 32) := ⟨t, true, n, ht, hp, fun _ _ => hn, by rw [if_pos rfl]⟩
  have := C17_component_unique p c _ _ hc hc2
  omega

/-- Concrete cases: an ordinary path; a hardened account that release builds silently turn soft; a panic on non-ASCII. -/
example : Path.from .debug "m/44'/60'/0'/0/7".toList = .ok ⟨0x8000002C, 0x8000003C, 0x80000000, 0, 7⟩ := by decide +kernel
example : Path.from .release " m / 44' / 60' / 2147483649' / 0 / +7".toList =
    .ok ⟨0x8000002C, 0x8000003C, 1, 0, 7⟩ := by decide +kernel
example : Path.from .debug "m/44'/60'/2147483649'/0/7".toList = .panic := by decide +kernel
example : Path.from .release "m/44'/60'/0’/0/7".toList = .panic := by decide +kernel
example : Path.from .release "m/44'/60'/0/0/4294967296".toList = .err (.parseErrorAtIndex 5 .posOverflow) := by decide +kernel
example : Path.from .release "n/a".toList = .err (.invalidPartsCount 2) := by decide +kernel

/-! Constructors. -/

theorem bound_iff {a : UInt32} : a ≥ softUpperBound ↔ 2 ^ 31 ≤ a.toNat := UInt32.le_iff_toNat_le
theorem add_bound {p : Profile} {a : UInt32} (h : a.toNat < 2 ^ 31) :
    ∃ v, addU32 p a softUpperBound = some v ∧ v.toNat = a.toNat + 2 ^ 31 := by
  have hb : softUpperBound.toNat = 2 ^ 31 := rfl
  refine ⟨a + softUpperBound, addU32_fit _ _ _ (by rw [hb]; omega), ?_⟩
  rw [UInt32.toNat_add, hb]; omega

/-- The expected path of the given parameters: purpose, coin and account hardened, the rest soft. -/
def IsPath (k : Path) (purpose coin account change address : Nat) : Prop :=
  k.purpose.toNat = purpose + 2 ^ 31 ∧ k.coin.toNat = coin + 2 ^ 31 ∧ k.account.toNat = account + 2 ^ 31 ∧
  k.change.toNat = change ∧ k.address.toNat = address

/-- What a five-part constructor must do, as to results and errors. -/
def CtorSpec (f : UInt32 → UInt32 → UInt32 → Res Error Path) (purpose coin : Nat) : Prop :=
  ∀ account change address : UInt32,
    (2 ^ 31 ≤ account.toNat → f account change address = .err (.invalidAccount account)) ∧
    (account.toNat < 2 ^ 31 → 2 ≤ change.toNat → f account change address = .err (.invalidChange change)) ∧
    (account.toNat < 2 ^ 31 → change.toNat < 2 → 2 ^ 31 ≤ address.toNat →
      f account change address = .err (.invalidAddress change)) ∧
    (account.toNat < 2 ^ 31 → change.toNat < 2 → address.toNat < 2 ^ 31 →
      ∃ k, f account change address = .ok k ∧ IsPath k purpose coin account.toNat change.toNat address.toNat)

theorem change_iff {c : UInt32} : (c ≠ 0 ∧ c ≠ 1) ↔ 2 ≤ c.toNat := by
  have h0 : c = 0 ↔ c.toNat = 0 := by rw [← UInt32.toNat_inj]; rfl
  have h1 : c = 1 ↔ c.toNat = 1 := by rw [← UInt32.toNat_inj]; rfl
  rw [Ne, Ne, h0, h1]; omega

theorem pathWith_spec (purpose : UInt32) (pn cn : Nat) (p : Profile) (testnet : Bool) (hp : purpose.toNat = pn + 2 ^ 31)
    (hc : (Bitcoin.coin testnet).toNat = cn + 2 ^ 31) : CtorSpec (Bitcoin.pathWith purpose p testnet) pn cn := by
  intro account change address
  unfold Bitcoin.pathWith Bitcoin.isValid
  refine ⟨fun h => ?_, fun h1 h2 => ?_, fun h1 h2 h3 => ?_, fun h1 h2 h3 => ?_⟩
  · rw [if_pos (bound_iff.mpr h)]; rfl
  · rw [if_neg (by rw [bound_iff]; omega), if_pos (change_iff.mpr h2)]; rfl
  · rw [if_neg (by rw [bound_iff]; omega), if_neg (by rw [change_iff]; omega), if_pos (bound_iff.mpr h3)]; rfl
  · rw [if_neg (by rw [bound_iff]; omega), if_neg (by rw [change_iff]; omega), if_neg (by rw [bound_iff]; omega)]
    obtain ⟨v, hv, hv'⟩ := add_bound (p := p) h1
    rw [hv]
    exact ⟨_, rfl, hp, hc, hv', rfl, rfl⟩

/-- C20: Bitcoin. -/
theorem C20_bitcoin (p : Profile) (testnet : Bool) :
    CtorSpec (Bitcoin.bip44 p testnet) 44 (if testnet then 1 else 0) ∧
    CtorSpec (Bitcoin.bip49 p testnet) 49 (if testnet then 1 else 0) ∧
    CtorSpec (Bitcoin.bip84 p testnet) 84 (if testnet then 1 else 0) := by
  have hc : (Bitcoin.coin testnet).toNat = (if testnet then 1 else 0) + 2 ^ 31 := by cases testnet <;> rfl
  exact ⟨pathWith_spec _ _ _ _ _ rfl hc, pathWith_spec _ _ _ _ _ rfl hc, pathWith_spec _ _ _ _ _ rfl hc⟩

/-- C20: Cardano. -/
theorem C20_cardano (p : Profile) : CtorSpec (Cardano.path p) 44 1815 := by
  intro account change address
  unfold Cardano.path
  refine ⟨fun h => ?_, fun h1 h2 => ?_, fun h1 h2 h3 => ?_, fun h1 h2 h3 => ?_⟩
  · rw [if_pos (bound_iff.mpr h)]
  · rw [if_neg (by rw [bound_iff]; omega), if_pos (change_iff.mpr h2)]
  · rw [if_neg (by rw [bound_iff]; omega), if_neg (by rw [change_iff]; omega), if_pos (bound_iff.mpr h3)]
  · rw [if_neg (by rw [bound_iff]; omega), if_neg (by rw [change_iff]; omega), if_neg (by rw [bound_iff]; omega)]
    obtain ⟨v, hv, hv'⟩ := add_bound (p := p) h1
    rw [hv]
    exact ⟨_, rfl, rfl, rfl, hv', rfl, rfl⟩

/-- C20: Ethereum. -/
theorem C20_ethereum (p : Profile) (account : UInt32) :
    (2 ^ 31 ≤ account.toNat → Ethereum.path p account = .err (.invalidAccount account) ∧
      Ethereum.pathMetamask account = .err (.invalidAccount account)) ∧
    (account.toNat < 2 ^ 31 → (∃ k, Ethereum.path p account = .ok k ∧ IsPath k 44 60 account.toNat 0 0) ∧
      ∃ k, Ethereum.pathMetamask account = .ok k ∧ IsPath k 44 60 0 0 account.toNat) := by
  unfold Ethereum.path Ethereum.pathMetamask
  constructor
  · intro h
    rw [if_pos (bound_iff.mpr h), if_pos (bound_iff.mpr h)]
    exact ⟨rfl, rfl⟩
  · intro h
    obtain ⟨v, hv, hv'⟩ := add_bound (p := p) h
    rw [if_neg (by rw [bound_iff]; omega), if_neg (by rw [bound_iff]; omega), hv]
    exact ⟨⟨_, rfl, rfl, rfl, hv', rfl, rfl⟩, _, rfl, rfl, rfl, rfl, rfl, rfl⟩

/-- C20: a constructor meeting `CtorSpec` is injective on what it accepts, and never panics. -/
theorem C20_injective {f : UInt32 → UInt32 → UInt32 → Res Error Path} {purpose coin : Nat} (hf : CtorSpec f purpose coin) :
    (∀ a c i a' c' i' k, f a c i = .ok k → f a' c' i' = .ok k → a = a' ∧ c = c' ∧ i = i') ∧
    (∀ a c i, f a c i ≠ .panic) := by
  have tri : ∀ a c i : UInt32, (∃ k, f a c i = .ok k ∧ IsPath k purpose coin a.toNat c.toNat i.toNat) ∨
      ∃ e, f a c i = .err e := by
    intro a c i
    obtain ⟨h1, h2, h3, h4⟩ := hf a c i
    by_cases q1 : 2 ^ 31 ≤ a.toNat
    · exact .inr ⟨_, h1 q1⟩
    by_cases q2 : 2 ≤ c.toNat
    · exact .inr ⟨_, h2 (by omega) q2⟩
    by_cases q3 : 2 ^ 31 ≤ i.toNat
    · exact .inr ⟨_, h3 (by omega) (by omega) q3⟩
    exact .inl (h4 (by omega) (by omega) (by omega))
  constructor
  · intro a c i a' c' i' k h h'
    have key : ∀ a c i, f a c i = .ok k → IsPath k purpose coin a.toNat c.toNat i.toNat := by
      intro a c i h
      rcases tri a c i with ⟨k', h1, h2⟩ | ⟨e, h1⟩
      · rw [h] at h1; cases h1; exact h2
      · rw [h] at h1; cases h1
    obtain ⟨-, -, h1, h2, h3⟩ := key _ _ _ h
    obtain ⟨-, -, h1', h2', h3'⟩ := key _ _ _ h'
    exact ⟨UInt32.toNat_inj.mp (by omega), UInt32.toNat_inj.mp (by omega), UInt32.toNat_inj.mp (by omega)⟩
  · intro a c i h
    rcases tri a c i with ⟨k', h1, -⟩ | ⟨e, h1⟩ <;> rw [h] at h1 <;> cases h1

/-- C20: the two Ethereum constructors, each injective. -/
theorem C20_ethereum_injective (p : Profile) (a a' : UInt32) (k : Path) :
    (Ethereum.path p a = .ok k → Ethereum.path p a' = .ok k → a = a') ∧
    (Ethereum.pathMetamask a = .ok k → Ethereum.pathMetamask a' = .ok k → a = a') := by
  have tri : ∀ a : UInt32, (Ethereum.path p a = .ok k → k.account.toNat = a.toNat + 2 ^ 31) ∧
      (Ethereum.pathMetamask a = .ok k → k.address.toNat = a.toNat) := by
    intro a
    obtain ⟨h1, h2⟩ := C20_ethereum p a
    by_cases q : 2 ^ 31 ≤ a.toNat
    · rw [(h1 q).1, (h1 q).2]; exact ⟨nofun, nofun⟩
    · obtain ⟨⟨k1, e1, p1⟩, k2, e2, p2⟩ := h2 (by omega)
      rw [e1, e2]
      exact ⟨fun h => by cases h; exact p1.2.2.1, fun h => by cases h; exact p2.2.2.2.2⟩
  exact ⟨fun h h' => UInt32.toNat_inj.mp (by have := (tri a).1 h; have := (tri a').1 h'; omega),
    fun h h' => UInt32.toNat_inj.mp (by have := (tri a).2 h; have := (tri a').2 h'; omega)⟩

example : Bitcoin.bip84 .debug true 3 1 9 = .ok ⟨0x80000054, 0x80000001, 0x80000003, 1, 9⟩ := by decide +kernel
example : Cardano.path .debug 0 1 0x80000000 = .err (.invalidAddress 1) := by decide +kernel

end KC.Props
