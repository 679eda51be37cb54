import Verif.Props.Passwords
import Verif.Props.Nfkd
/-
C84: which phrases have the same seed.
-/
namespace KC.Props
open KC.Bip39 KC.Mnemonic KC.Spec KC.Spec.Passwords KC.Passwords

/-- A phrase has no NUL. -/
theorem phrase_nul {l : Language} {ws : List Str} (h : ∀ w ∈ ws, w ∈ l.toDict.words) : '\x00' ∉ spaced ws := by
  intro hc
  rcases Letters.ok_letter (KC.Sizes.phrase_ok h) _ hc with h | h
  · revert h; decide +kernel
  · revert h; decide +kernel

theorem filled_nul {a b : Str} (hb : '\x00' ∉ b) (h : Filled a b) : a = b := by
  obtain ⟨-, k, rfl⟩ := h
  cases k with
  | zero => simp
  | succ k => exact absurd (List.mem_append_right a (List.mem_replicate.mpr ⟨Nat.succ_ne_zero k, rfl⟩)) hb

/-- Texts without NULs, or their salts, are told apart when they differ. -/
theorem told_of_ne {p q : Str} {s t : Bytes} (hp : '\x00' ∉ p) (hq : '\x00' ∉ q) (hne : ¬ (p = q ∧ s = t)) : Told p s q t ∨ Told q t p s := by
  have hne : p ≠ q ∨ s ≠ t := by
    by_contra h
    rw [not_or, not_not, not_not] at h
    exact hne h
  by_cases h1 : 128 < Str.len p
  · exact .inl (long_told h1 hne)
  by_cases h2 : 128 < Str.len q
  · exact .inr (long_told h2 (hne.imp Ne.symm Ne.symm))
  refine .inl (short_told (Nat.le_of_not_lt h1) (Nat.le_of_not_lt h2) (hne.imp (fun h e => h ?_) id))
  rcases Nat.le_total (Str.len p) (Str.len q) with hl | hl
  · exact filled_nul hq ⟨Nat.le_of_not_lt h2, padded_of hl (Nat.le_of_not_lt h2) e⟩
  · exact (filled_nul hp ⟨Nat.le_of_not_lt h1, padded_of hl (Nat.le_of_not_lt h1) e.symm⟩).symm

/-- PBKDF2 of texts that are told apart. -/
theorem seeds_ne {p q : Str} {s t : Bytes} (h : Told p s q t ∨ Told q t p s) :
    ∃ f H, RfcSeeds f H ∧ H.pbkdf2 (Str.utf8 p) s 2048 64 ≠ H.pbkdf2 (Str.utf8 q) t 2048 64 := by
  have key : ∀ {p q : Str} {s t : Bytes}, Told p s q t →
      ∃ f H, RfcSeeds f H ∧ H.pbkdf2 (Str.utf8 p) s 2048 64 ≠ H.pbkdf2 (Str.utf8 q) t 2048 64 := by
    rintro p q s t ⟨f, hl, hT⟩
    refine ⟨f, over f, over_seeds hl, fun e => ?_⟩
    rw [(over_seeds hl).seed, (over_seeds hl).seed] at e
    have e := congrArg (·[1]?) e
    simp only [(hT _).1, (hT _).2] at e
    revert e
    decide
  rcases h with h | h
  · exact key h
  · obtain ⟨f, H, hR, hn⟩ := key h
    exact ⟨f, H, hR, hn.symm⟩

/-- The texts of which a seed is made have no NUL. -/
theorem seed_nul {P : Hashes} {text unique : Str} {size : Nat} {l : Language} {a : Bytes}
    (h : seedFromMnemonic P text unique size l = .ok a) : '\x00' ∉ text := by
  obtain ⟨ws, rfl, hw, -⟩ := (C13_outcome P unique size l text).2.1 ⟨a, h⟩
  exact phrase_nul hw

/-- Whether a seed is made does not depend on the hashes. -/
theorem seed_any {P : Hashes} {text unique : Str} {size : Nat} {l : Language} {a : Bytes}
    (h : seedFromMnemonic P text unique size l = .ok a) (H : Hashes) :
    seedFromMnemonic H text unique size l =
      .ok (H.pbkdf2 (Str.utf8 text) ([109, 110, 101, 109, 111, 110, 105, 99] ++ Str.utf8 unique) 2048 64) := by
  obtain ⟨ws, ht, hw, hn, hs⟩ := (C13_outcome P unique size l text).2.1 ⟨a, h⟩
  obtain ⟨b, hb⟩ := ((C13_outcome H unique size l text).1 ws ht hw hn).2.2 hs
  rw [hb, (C12_seed H text unique size l b hb).1]

/-- C84: of accepted phrases, in whatever languages and with whatever passphrases, exactly equal texts with equal passphrases have the same
seed whatever the hash. -/
theorem C84_same (P : Hashes) (text text' unique unique' : Str) (size size' : Nat) (l l' : Language) (a b : Bytes)
    (ha : seedFromMnemonic P text unique size l = .ok a) (hb : seedFromMnemonic P text' unique' size' l' = .ok b) :
    (∀ h H, RfcSeeds h H → seedFromMnemonic H text unique size l = seedFromMnemonic H text' unique' size' l') ↔
      text = text' ∧ unique = unique' := by
  constructor
  · intro h
    by_contra hne
    obtain ⟨f, H, hR, hn⟩ := seeds_ne (told_of_ne (s := [109, 110, 101, 109, 111, 110, 105, 99] ++ Str.utf8 unique)
      (t := [109, 110, 101, 109, 111, 110, 105, 99] ++ Str.utf8 unique') (seed_nul ha) (seed_nul hb)
      fun e => hne ⟨e.1, utf8_inj (List.append_cancel_left e.2)⟩)
    have e := h f H hR
    rw [seed_any ha, seed_any hb] at e
    exact hn (Res.ok.inj e)
  · rintro ⟨rfl, rfl⟩ h H -
    rw [seed_any ha, seed_any hb]

/-- C84: the same for the seeds of the `bip39` crate, with passphrases of any bytes. -/
theorem C84_crate (l l' : Language) (text text' ms ms' : Str) (pass pass' : Bytes) (h : mnemonicStringNew l.toDict text = .ok ms)
    (h' : mnemonicStringNew l'.toDict text' = .ok ms') :
    (∀ h H, RfcSeeds h H → Seed.fromMnemonicString H ms pass = Seed.fromMnemonicString H ms' pass') ↔ text = text' ∧ pass = pass' := by
  have hnul : ∀ {l : Language} {text ms : Str}, mnemonicStringNew l.toDict text = .ok ms → '\x00' ∉ text := by
    intro l text ms h
    obtain ⟨ws, rfl, hw, -⟩ := (C11_accept l text).mp ((C11_mnemonic_string l text).2.mp ⟨ms, h⟩)
    exact phrase_nul hw
  constructor
  · intro hall
    by_contra hne
    obtain ⟨f, H, hR, hn⟩ := seeds_ne (told_of_ne (s := [109, 110, 101, 109, 111, 110, 105, 99] ++ pass)
      (t := [109, 110, 101, 109, 111, 110, 105, 99] ++ pass') (hnul h) (hnul h') fun e => hne ⟨e.1, List.append_cancel_left e.2⟩)
    have e := congrArg Subtype.val (hall f H hR)
    rw [C12_mnemonic_string H l text ms pass h, C12_mnemonic_string H l' text' ms' pass' h'] at e
    exact hn e
  · rintro ⟨rfl, rfl⟩ f H -
    rw [(C11_mnemonic_string l text).1 ms h, (C11_mnemonic_string l' text).1 ms' h']

/-- C84: in the library two phrases of more than 128 bytes with the same SHA-512 have the same seeds, and so have such a phrase and a
shorter one that is its SHA-512 up to zeros at the end. -/
theorem C84_long (text text' unique : Str) (size size' : Nat) (l l' : Language) (a b : Bytes)
    (ha : seedFromMnemonic Real.hashes text unique size l = .ok a) (hb : seedFromMnemonic Real.hashes text' unique size' l' = .ok b)
    (hl : 128 < Str.len text)
    (h : (128 < Str.len text' ∧ Real.sha512 (Str.utf8 text) = Real.sha512 (Str.utf8 text')) ∨
      (∃ k, Real.sha512 (Str.utf8 text) = Str.utf8 text' ++ List.replicate k 0)) : a = b := by
  have e : block Real.sha512 (Str.utf8 text) = block Real.sha512 (Str.utf8 text') := by
    have hl : 128 < (Str.utf8 text).length := hl
    unfold block
    rw [if_pos hl]
    rcases h with ⟨h1, h2⟩ | ⟨k, hk⟩
    · have h1 : 128 < (Str.utf8 text').length := h1
      rw [if_pos h1, h2]
    · have h3 := congrArg List.length hk
      rw [Real.sha512_len, List.length_append, List.length_replicate] at h3
      rw [if_neg (by omega), hk]
      simp only [List.length_append, List.length_replicate, List.append_assoc, List.replicate_append_replicate]
      congr 2
      omega
  rw [(C12_seed _ _ _ _ _ _ ha).1, (C12_seed _ _ _ _ _ _ hb).1, real_seeds.seed, real_seeds.seed, T_congr e]

/-- Non-vacuity of C84: two phrases of one wallet size, one of them short and one of more than 128 bytes, are accepted, and some hash tells
their seeds apart. -/
theorem C84_case : ∃ h H, RfcSeeds h H ∧ ∃ a b,
    seedFromMnemonic H (spaced (List.replicate 18 "zoo".toList)) [] 192 .english = .ok a ∧
    seedFromMnemonic H (spaced (List.replicate 18 "abstract".toList)) [] 192 .english = .ok b ∧ a ≠ b ∧
    128 < Str.len (spaced (List.replicate 18 "abstract".toList)) := by
  have hw : ∀ w : Str, w ∈ Language.english.toDict.words → ∀ H, ∃ a,
      seedFromMnemonic H (spaced (List.replicate 18 w)) [] 192 .english = .ok a := by
    intro w hw H
    refine ((C13_outcome H [] 192 .english _).1 _ rfl (fun x hx => ?_) (by rw [List.length_replicate]; decide)).2.2 (by rw [List.length_replicate])
    rw [(List.mem_replicate.mp hx).2]
    exact hw
  have h1 := hw "zoo".toList (by decide +kernel)
  have h2 := hw "abstract".toList (by decide +kernel)
  obtain ⟨a0, ha0⟩ := h1 Toy.hashes
  obtain ⟨b0, hb0⟩ := h2 Toy.hashes
  by_contra hc
  have := (C84_same Toy.hashes _ _ [] [] 192 192 .english .english a0 b0 ha0 hb0).mp fun h H hR => by
    obtain ⟨a, ha⟩ := h1 H
    obtain ⟨b, hb⟩ := h2 H
    by_contra hne
    refine hc ⟨h, H, hR, a, b, ha, hb, fun e => hne (by rw [ha, hb, e]), by decide +kernel⟩
  exact absurd this.1 (by decide +kernel)

/-- With SHA-512 the hypotheses of the seeds of C84 hold. -/
example : RfcSeeds Real.sha512 Real.hashes := real_seeds

end KC.Props
