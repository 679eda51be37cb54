import Verif.Spec.Nfkd
import Verif.Proofs.Dict
import Verif.Spec.Bip39
/-
The characters of the word lists.
-/
namespace KC.Letters
open KC.Spec.Nfkd KC.Bip39

/-- Letters that stand for themselves, and the space. -/
def starters : List (Nat × Nat) := [(97, 122), (0x4E00, 0x9FFF), (0x1100, 0x11FF), (32, 32), (12354, 12363), (12365, 12365), (12367, 12367),
  (12369, 12369), (12371, 12371), (12373, 12373), (12375, 12375), (12377, 12377), (12379, 12379), (12381, 12381), (12383, 12383),
  (12385, 12385), (12387, 12388), (12390, 12390), (12392, 12392), (12394, 12399), (12402, 12402), (12405, 12405), (12408, 12408),
  (12411, 12411), (12414, 12435)]

/-- Marks on the letter before them. -/
def marks : List (Nat × Nat) := [(0x300, 0x301), (0x303, 0x303), (0x3099, 0x309A)]

/-- In one of the ranges. -/
def within (l : List (Nat × Nat)) (n : Nat) : Bool := l.any fun r => Nat.ble r.1 n && Nat.ble n r.2

theorem within_iff {l : List (Nat × Nat)} {n : Nat} : within l n = true ↔ ∃ r ∈ l, r.1 ≤ n ∧ n ≤ r.2 := by
  simp [within]

/-- Letters, none with two marks. -/
def ok : Bool → Str → Bool
  | _, [] => true
  | prev, c :: t => if within marks c.toNat then !prev && ok true t else within starters c.toNat && ok false t

/-- No range of one list meets one of the other. -/
def apart (l m : List (Nat × Nat)) : Bool := l.all fun a => m.all fun b => Nat.blt a.2 b.1 || Nat.blt b.2 a.1

theorem apart_not {l m : List (Nat × Nat)} (h : apart l m = true) {n : Nat} (hn : within l n = true) :
    ∀ r ∈ m, ¬ (r.1 ≤ n ∧ n ≤ r.2) := by
  obtain ⟨a, ha, h1, h2⟩ := within_iff.mp hn
  intro b hb hc
  simp only [apart, List.all_eq_true] at h
  have := h a ha b hb
  simp only [Bool.or_eq_true, Nat.blt_eq] at this
  omega

theorem starters_fixed : apart starters changed = true := by decide +kernel
theorem marks_fixed : apart marks changed = true := by decide +kernel
theorem starters_zero : apart starters (classes.map fun r => (r.1, r.2.1)) = true := by decide +kernel

theorem class_zero {c : Char} (h : within starters c.toNat = true) {k : Nat} (hc : Class c k) : k = 0 := by
  rcases hc with ⟨r, hr, h1, h2, -⟩ | ⟨h, -⟩
  · exact absurd ⟨h1, h2⟩ (apart_not starters_zero h (r.1, r.2.1) (List.mem_map.mpr ⟨r, hr, rfl⟩))
  · exact h

theorem ok_mono {s : Str} (h : ok true s = true) : ok false s = true := by
  cases s with
  | nil => rfl
  | cons c t =>
    rw [ok] at h ⊢
    split
    · rename_i hm
      rw [if_pos hm] at h
      simp at h
    · rename_i hm
      rw [if_neg hm] at h
      exact h

theorem ok_letter {p : Bool} {s : Str} (h : ok p s = true) : ∀ c ∈ s, within marks c.toNat = true ∨ within starters c.toNat = true := by
  induction s generalizing p with
  | nil => simp
  | cons c t ih =>
    rw [ok] at h
    intro x hx
    split at h
    · rename_i hm
      rcases List.mem_cons.mp hx with rfl | hx
      · exact .inl hm
      · exact ih (Bool.and_eq_true_iff.mp h).2 x hx
    · rcases List.mem_cons.mp hx with rfl | hx
      · exact .inr (Bool.and_eq_true_iff.mp h).1
      · exact ih (Bool.and_eq_true_iff.mp h).2 x hx

theorem ok_tail {p : Bool} {a : Char} {s : Str} (h : ok p (a :: s) = true) : ok (within marks a.toNat) s = true := by
  rw [ok] at h
  split at h
  · rename_i hm
    rw [hm]
    exact (Bool.and_eq_true_iff.mp h).2
  · rename_i hm
    rw [Bool.not_eq_true] at hm
    rw [hm]
    exact (Bool.and_eq_true_iff.mp h).2

theorem ok_normal {s : Str} (h : ok false s = true) : Normal s := by
  refine ⟨fun c hc hd => ?_, ?_⟩
  · obtain ⟨r, hr, h1⟩ := hd
    rcases ok_letter h c hc with h2 | h2
    · exact apart_not marks_fixed h2 r hr h1
    · exact apart_not starters_fixed h2 r hr h1
  · rintro pre a b post rfl j k ha hb hk
    have key : ∀ (pre : Str) (p : Bool), ok p (pre ++ a :: b :: post) = true → ok false (a :: b :: post) = true := by
      intro pre
      induction pre with
      | nil =>
        intro p h
        cases p with
        | true => exact ok_mono h
        | false => exact h
      | cons x pre ih => exact fun p h => ih _ (ok_tail h)
    have hab := key pre false h
    have h1 := ok_tail hab
    cases hm : within marks a.toNat with
    | false =>
      rcases ok_letter hab a (by simp) with h2 | h2
      · rw [hm] at h2; cases h2
      · rw [class_zero h2 ha]; exact Nat.zero_le _
    | true =>
      rw [hm, ok] at h1
      split at h1
      · simp at h1
      · exact absurd (class_zero (Bool.and_eq_true_iff.mp h1).1 hb) hk

theorem ok_spaced {ws : List Str} (h : ∀ w ∈ ws, ok false w = true) : ok false (Spec.spaced ws) = true := by
  have app : ∀ (w rest : Str) p, ok p w = true → ok false rest = true → ok p (w ++ ' ' :: rest) = true := by
    intro w rest
    induction w with
    | nil =>
      intro p _ h2
      rw [List.nil_append, ok, if_neg (by decide), h2]
      decide
    | cons c t ih =>
      intro p h1 h2
      rw [List.cons_append]
      rw [ok] at h1 ⊢
      split
      · rename_i hm
        rw [if_pos hm] at h1
        obtain ⟨e1, e2⟩ := Bool.and_eq_true_iff.mp h1
        rw [e1, ih _ e2 h2]
        rfl
      · rename_i hm
        rw [if_neg hm] at h1
        obtain ⟨e1, e2⟩ := Bool.and_eq_true_iff.mp h1
        rw [e1, ih _ e2 h2]
        rfl
  unfold Spec.spaced
  induction ws with
  | nil => rfl
  | cons w ws ih =>
    cases ws with
    | nil => simpa [List.intercalate] using h w (by simp)
    | cons v ws =>
      have := app w _ false (h w (by simp)) (ih fun x hx => h x (by simp [hx]))
      simpa [List.intercalate] using this

/-- All words of the list are such. -/
theorem words_ok {d : Dict} {codes : List Nat} (hd : d.words = decodeWords codes)
    (h : (codes.all fun n => ok false (decodeWord 16 n)) = true) : ∀ w ∈ d.words, ok false w = true := by
  intro w hw
  rw [hd, decodeWords] at hw
  obtain ⟨n, hn, rfl⟩ := List.mem_map.mp hw
  exact List.all_eq_true.mp h n hn

end KC.Letters
