import Verif.Model.Residue
import Verif.Props.PanicTexts
import Verif.Props.Bip39
/-
C116: what deleting a text through the C interface leaves in memory.
-/
namespace KC.Props
open KC KC.C KC.Spec KC.Spec.Wallet KC.Mnemonic
open KC.Bip39 (Mem)

theorem space_char (c : Char) : (32 : UInt8) ∈ String.utf8EncodeChar c ↔ c = ' ' := by
  by_cases h : c.toNat < 128
  · rw [utf8_ascii c h]
    constructor
    · intro h0
      have h0 : (32 : UInt8) = UInt8.ofNat c.toNat := by simpa using h0
      have := congrArg UInt8.toNat h0
      rw [UInt8.toNat_ofNat_of_lt' (by show c.toNat < 256; omega)] at this
      apply Char.ext
      apply UInt32.toNat.inj
      exact this.symm
    · rintro rfl; decide
  · constructor
    · intro h0
      exfalso
      have h1 : ¬ c.val.toNat ≤ 127 := by
        intro h'; exact h (by show c.val.toNat < 128; omega)
      revert h0
      have hc : c.val.toNat < 1114112 := by
        have := c.valid
        rcases this with h | h
        · have := h; omega
        · exact h.2
      simp only [String.utf8EncodeChar, h1, if_false]
      have key : ∀ n : Nat, 32 < n → n < 256 → (32 : UInt8) ≠ n.toUInt8 := by
        intro n h0 h1 he
        have := congrArg UInt8.toNat he
        rw [show n.toUInt8 = UInt8.ofNat n from rfl, UInt8.toNat_ofNat_of_lt' (by show n < 256; omega)] at this
        simp at this; omega
      split
      · simp only [List.mem_cons, List.not_mem_nil, or_false]
        rintro (h | h) <;> exact key _ (by omega) (by omega) h
      · split
        · simp only [List.mem_cons, List.not_mem_nil, or_false]
          rintro (h | h | h) <;> exact key _ (by omega) (by omega) h
        · simp only [List.mem_cons, List.not_mem_nil, or_false]
          rintro (h | h | h | h) <;> exact key _ (by omega) (by omega) h
    · rintro rfl; exact absurd (by decide) h

theorem space_utf8 (s : Str) : (32 : UInt8) ∈ Str.utf8 s ↔ ' ' ∈ s := by
  induction s with
  | nil => simp
  | cons c s ih =>
    rw [Str.utf8_cons, List.mem_append, space_char, ih, List.mem_cons]
    exact or_congr eq_comm Iff.rfl

/-- C116: deleting a text leaves all of its bytes but the first where they were, and touches nothing else. -/
theorem C116_text (m : Mem) (a : Nat) (b : Bytes) (h : Stored m a b) :
    charFreeMem m a a = 0 ∧ Stored (charFreeMem m a) (a + 1) b.tail ∧ ∀ q, q ≠ a → charFreeMem m a q = m q := by
  refine ⟨by simp [charFreeMem, Bip39.Mem.write], fun i hi => ?_, fun q hq => by simp [charFreeMem, Bip39.Mem.write, hq]⟩
  rw [List.length_tail] at hi
  have h1 := h (i + 1) (by omega)
  have : charFreeMem m a (a + 1 + i) = m (a + 1 + i) := by
    simp only [charFreeMem, Bip39.Mem.write]
    rw [if_neg (by omega)]
  rw [this, show a + 1 + i = a + (i + 1) by omega, h1]
  simp [List.getD_eq_getElem?_getD]

theorem stored_cons {m : Mem} {a : Nat} {x : UInt8} {b : Bytes} (h : Stored m a (x :: b)) : m a = x ∧ Stored m (a + 1) b := by
  refine ⟨by simpa using h 0 (by simp), fun i hi => ?_⟩
  have := h (i + 1) (by simpa using hi)
  rw [show a + 1 + i = a + (i + 1) by omega, this]
  simp

theorem until_nul {m : Mem} : ∀ {b b' : Bytes} {a : Nat}, (0 : UInt8) ∉ b → (0 : UInt8) ∉ b' → Stored m a (b ++ [0]) →
    Stored m a (b' ++ [0]) → b = b'
  | [], [], _, _, _, _, _ => rfl
  | [], y :: b', _, _, h2, h3, h4 => by
    have e := (stored_cons h3).1.symm.trans (stored_cons h4).1
    exact absurd (by rw [e]; exact List.mem_cons_self) h2
  | x :: b, [], _, h1, _, h3, h4 => by
    have e := (stored_cons h4).1.symm.trans (stored_cons h3).1
    exact absurd (by rw [e]; exact List.mem_cons_self) h1
  | x :: b, y :: b', _, h1, h2, h3, h4 => by
    have e := (stored_cons h3).1.symm.trans (stored_cons h4).1
    rw [e, until_nul (fun h => h1 (List.mem_cons_of_mem _ h)) (fun h => h2 (List.mem_cons_of_mem _ h)) (stored_cons h3).2
      (stored_cons h4).2]

theorem split_space : ∀ {u u' r r' : Bytes}, (32 : UInt8) ∉ u → (32 : UInt8) ∉ u' → u ++ 32 :: r = u' ++ 32 :: r' → u = u' ∧ r = r'
  | [], [], _, _, _, _, h => ⟨rfl, (List.cons.inj h).2⟩
  | [], y :: u', _, _, _, h2, h => absurd (by rw [(List.cons.inj h).1]; exact List.mem_cons_self) h2
  | x :: u, [], _, _, h1, _, h => absurd (by rw [← (List.cons.inj h).1]; exact List.mem_cons_self) h1
  | x :: u, y :: u', _, _, h1, h2, h => by
    obtain ⟨e, h⟩ := List.cons.inj h
    obtain ⟨e1, e2⟩ := split_space (fun m => h1 (List.mem_cons_of_mem _ m)) (fun m => h2 (List.mem_cons_of_mem _ m)) h
    exact ⟨by rw [e, e1], e2⟩

theorem phrase_first {size : Nat} {l : Language} {s : Str} (h : Phrase size l s) : ∃ w r, s = w ++ ' ' :: r ∧ w ≠ [] ∧ ' ' ∉ w := by
  obtain ⟨ws, rfl, hw, hc, -⟩ := h
  match ws, hc with
  | [], hc => exact absurd hc (by decide)
  | [_], hc => exact absurd hc (show 1 ∉ wordCounts by decide)
  | w :: v :: t, _ =>
    have := (C09_words l).2.2 w (hw w List.mem_cons_self)
    exact ⟨w, spaced (v :: t), by simp [spaced, List.intercalate], this.1, this.2⟩

/-- C116: so what a deleted phrase leaves in memory determines the phrase but for the first byte of its first word. -/
theorem C116_phrase (size size' : Nat) (l l' : Language) (s s' : Str) (hs : Phrase size l s) (hs' : Phrase size' l' s') (m m' : Mem) (a : Nat)
    (h : Stored m a (Str.utf8 s ++ [0])) (h' : Stored m' a (Str.utf8 s' ++ [0]))
    (hm : ∀ q, charFreeMem m a q = charFreeMem m' a q) :
    ∃ w w' r, s = w ++ ' ' :: r ∧ s' = w' ++ ' ' :: r ∧ ' ' ∉ w ∧ ' ' ∉ w' ∧ (Str.utf8 w).tail = (Str.utf8 w').tail := by
  have n := fun h => C111_own size l s hs ((nul_utf8 s).mp h)
  have n' := fun h => C111_own size' l' s' hs' ((nul_utf8 s').mp h)
  obtain ⟨w, r, rfl, h1, h2⟩ := phrase_first hs
  obtain ⟨w', r', rfl, h1', h2'⟩ := phrase_first hs'
  have ne : ∀ {w : Str}, w ≠ [] → Str.utf8 w ≠ [] := fun h e => h (Passwords.utf8_inj e)
  have tl : ∀ {w r : Str}, w ≠ [] → (Str.utf8 (w ++ ' ' :: r) ++ [0]).tail = ((Str.utf8 w).tail ++ 32 :: Str.utf8 r) ++ [0] := by
    intro w r hw
    rw [Str.utf8_append, Str.utf8_cons, show String.utf8EncodeChar ' ' = [32] from by decide]
    cases hu : Str.utf8 w with
    | nil => exact absurd hu (ne hw)
    | cons x u => simp
  have zero : ∀ {w r : Str}, w ≠ [] → (0 : UInt8) ∉ Str.utf8 (w ++ ' ' :: r) → (0 : UInt8) ∉ (Str.utf8 w).tail ++ 32 :: Str.utf8 r := by
    intro w r hw hn hmem
    refine hn ?_
    have := tl (r := r) hw
    have hm2 : (0 : UInt8) ∈ Str.utf8 (w ++ ' ' :: r) := by
      rw [Str.utf8_append, Str.utf8_cons, show String.utf8EncodeChar ' ' = [32] from by decide]
      rcases List.mem_append.mp hmem with h | h
      · exact List.mem_append.mpr (.inl (List.mem_of_mem_tail h))
      · exact List.mem_append.mpr (.inr h)
    exact hm2
  have k := (C116_text m a _ h).2.1
  have k' := (C116_text m' a _ h').2.1
  rw [tl h1] at k
  rw [tl h1', ← funext hm] at k'
  have e := until_nul (zero h1 n) (zero h1' n') k k'
  have sp : ∀ {w : Str}, ' ' ∉ w → (32 : UInt8) ∉ (Str.utf8 w).tail := fun h hm => h ((space_utf8 _).mp (List.mem_of_mem_tail hm))
  obtain ⟨e1, e2⟩ := split_space (sp h2) (sp h2') e
  refine ⟨w, w', r, rfl, ?_, h2, h2', e1⟩
  rw [Passwords.utf8_inj e2]

/-- Non-vacuity: the text "cab" with its NUL at 100, deleted; an entropy at the same place would be all zero (C55). -/
example : Stored (fun q => [99, 97, 98, 0].getD (q - 100) 0) 100 [99, 97, 98, 0] ∧
    (List.range 4).map (fun i => charFreeMem (fun q => [99, 97, 98, 0].getD (q - 100) 0) 100 (100 + i)) = [0, 97, 98, 0] := by
  refine ⟨fun i _ => by simp, by decide⟩

/-- Two English first words that are told apart by their first letter only. -/
example : "cable".toList ∈ Language.english.toDict.words ∧ "table".toList ∈ Language.english.toDict.words ∧
    (Str.utf8 "cable".toList).tail = (Str.utf8 "table".toList).tail := by decide +kernel

end KC.Props
