import Verif.Model.Dictionaries
import Verif.Tactics
import Mathlib.Data.List.Nodup
/-
Distinctness of dictionary words from a computation on numbers.
-/
namespace KC.Bip39

/-- The number of a word. -/
def encodeWord : Str → Nat
  | [] => 0
  | c :: t => c.toNat + 2097152 * encodeWord t

/-- All codes differ modulo `m`, and from the residues in `mask`. -/
def distinctMod (m : Nat) : List Nat → Nat → Bool
  | [], _ => true
  | c :: cs, mask => !mask.testBit (c % m) && distinctMod m cs (mask ||| (1 <<< (c % m)))

theorem distinctMod_sound (m : Nat) (cs : List Nat) (mask : Nat) (h : distinctMod m cs mask = true) :
    cs.Nodup ∧ ∀ c ∈ cs, mask.testBit (c % m) = false := by
  induction cs generalizing mask with
  | nil => simp
  | cons c cs ih =>
    simp only [distinctMod, Bool.and_eq_true, Bool.not_eq_true'] at h
    obtain ⟨h1, h2⟩ := ih _ h.2
    have h2' : ∀ x ∈ cs, mask.testBit (x % m) = false ∧ x % m ≠ c % m := by
      intro x hx
      have := h2 x hx
      rw [Nat.testBit_or, Bool.or_eq_false_iff, Nat.one_shiftLeft, Nat.testBit_two_pow] at this
      refine ⟨this.1, fun e => ?_⟩
      simp [e] at this
    refine ⟨List.nodup_cons.mpr ⟨fun hm => (h2' c hm).2 rfl, h1⟩, ?_⟩
    intro x hx
    rcases List.mem_cons.mp hx with rfl | hx
    · exact h.1
    · exact (h2' x hx).1

/-- The per-word check. -/
def wordOk (n : Nat) : Bool :=
  let w := decodeWord 16 n
  encodeWord w == n && !w.any (· == ' ') && !w.isEmpty

/-- What is used of a dictionary. -/
structure Dict.Good (d : Dict) : Prop where
  nodup : d.words.Nodup
  noSep : ∀ w ∈ d.words, ' ' ∉ w
  nonEmpty : ∀ w ∈ d.words, w ≠ []

theorem good_of_checks (d : Dict) (codes : List Nat) (m : Nat) (hd : d.words = decodeWords codes)
    (h1 : distinctMod m codes 0 = true) (h2 : codes.all wordOk = true) : d.Good := by
  have hw : ∀ n ∈ codes, wordOk n = true := by simpa using h2
  refine ⟨?_, ?_, ?_⟩
  · rw [hd, decodeWords]
    have hn := (distinctMod_sound m codes 0 h1).1
    apply List.Nodup.of_map encodeWord
    rw [List.map_map]
    have : codes.map (encodeWord ∘ decodeWord 16) = codes := by
      conv => rhs; rw [← List.map_id codes]
      apply List.map_congr_left
      intro n hn
      have := hw n hn
      simp only [wordOk, Bool.and_eq_true, beq_iff_eq] at this
      exact this.1.1
    rw [this]; exact hn
  · intro w hw' hs
    rw [hd, decodeWords] at hw'
    obtain ⟨n, hn, rfl⟩ := List.mem_map.mp hw'
    have := hw n hn
    simp only [wordOk, Bool.and_eq_true, Bool.not_eq_true', List.any_eq_false, beq_iff_eq] at this
    exact this.1.2 _ hs rfl
  · intro w hw' hs
    rw [hd, decodeWords] at hw'
    obtain ⟨n, hn, rfl⟩ := List.mem_map.mp hw'
    have := hw n hn
    simp only [wordOk, hs, List.isEmpty_nil] at this
    simp at this

end KC.Bip39
