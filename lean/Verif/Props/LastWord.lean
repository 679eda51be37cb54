import Mathlib.Data.Set.Card
import Mathlib.Order.Interval.Finset.Nat
import Verif.Proofs.Derived
import Verif.Props.Mnemonic
import Verif.Props.Uniform
import Verif.Real.Hashes
/-
C96: completing a phrase.  Of the 2048 words of a list, how many can stand last so that the checksum is right, and which.
-/
namespace KC.Props
open KC.Bip39 KC.Spec KC.Bits KC.Mnemonic

theorem bits_split (k w a : Nat) : bitsBE (k + w) a = bitsBE k (a / 2 ^ w) ++ bitsBE w a := by
  induction k with
  | zero => simp [bitsBE]
  | succ k ih =>
    rw [show k + 1 + w = (k + w) + 1 by omega, KC.Derived.bitsBE_succ, KC.Derived.bitsBE_succ, ih, Nat.testBit_div_two_pow,
      List.cons_append, Nat.add_comm k w]

theorem bval_inj : ∀ {a b : List Bool}, a.length = b.length → KC.Derived.bval a = KC.Derived.bval b → a = b
  | [], [], _, _ => rfl
  | x :: a, y :: b, hl, h => by
    have hl' : a.length = b.length := by simpa using hl
    have e : ∀ (z : Bool) (l : List Bool), KC.Derived.bval (z :: l) = z.toNat * 2 ^ l.length + KC.Derived.bval l := by
      intro z l
      simp [KC.Derived.bval, KC.Derived.val]
    rw [e, e, hl'] at h
    have ha := KC.Derived.bval_bound a
    have hb := KC.Derived.bval_bound b
    rw [hl'] at ha
    have hxy : x = y := by
      cases x <;> cases y <;> simp at h ⊢ <;> omega
    subst hxy
    rw [bval_inj hl' (by omega)]

theorem bits_bval (l : List Bool) : bitsBE l.length (KC.Derived.bval l) = l :=
  bval_inj (by simp) (by rw [KC.Derived.bval_bits, Nat.mod_eq_of_lt (KC.Derived.bval_bound l)])

theorem last_arith {n : Nat} (hn : n + 1 ∈ wordCounts) : 3 ≤ csBits (n + 1) ∧ csBits (n + 1) ≤ 8 ∧
    11 * n + (11 - csBits (n + 1)) = entBits (n + 1) ∧ (11 - csBits (n + 1)) + csBits (n + 1) = 11 ∧
    2 ^ (11 - csBits (n + 1)) * 2 ^ csBits (n + 1) = 2048 := by
  simp only [wordCounts, List.mem_cons, List.not_mem_nil, or_false] at hn
  rcases hn with h | h | h | h | h | h <;> (obtain rfl : n = _ := Nat.succ.inj h) <;> decide

/-- A phrase carries entropy when the entropy is the first words and the beginning of the last, and the end of the last is the
checksum. -/
theorem carries_last (sha256 : Bytes → Bytes) (pre : List UInt16) (a : UInt16) (e : Bytes) (hn : pre.length + 1 ∈ wordCounts) :
    Carries sha256 (pre ++ [a]) e ↔
      bytesBits e = wordsBits pre ++ bitsBE (11 - csBits (pre.length + 1)) (a.toNat / 2 ^ csBits (pre.length + 1)) ∧
      bitsBE (csBits (pre.length + 1)) a.toNat = (bytesBits (sha256 e)).take (csBits (pre.length + 1)) := by
  obtain ⟨a1, a2, a3, a4, -⟩ := last_arith hn
  have hb := bits_split (11 - csBits (pre.length + 1)) (csBits (pre.length + 1)) a.toNat
  rw [a4] at hb
  have hl : (pre ++ [a]).length = pre.length + 1 := by simp
  unfold Carries
  rw [wordsBits_append, wordsBits_single, hl, hb, ← List.append_assoc]
  constructor
  · rintro ⟨h, hlen⟩
    obtain ⟨h1, h2⟩ := List.append_inj h (by simp; omega)
    exact ⟨h1.symm, h2⟩
  · rintro ⟨h1, h2⟩
    refine ⟨by rw [h1, h2], ?_⟩
    have := congrArg List.length h1
    simp at this
    omega

theorem passes_iff (P : Hashes) (pre : List UInt16) (a : UInt16) (hn : pre.length + 1 ∈ wordCounts) :
    (∃ e, Entropy.fromMnemonics P ⟨pre ++ [a]⟩ = .ok e) ↔ ∃ e, Carries P.sha256 (pre ++ [a]) e := by
  have hx := C06_exact P ⟨pre ++ [a]⟩ (by simpa using hn)
  constructor
  · rintro ⟨e, h⟩
    exact ⟨_, (hx.1 e).mp h⟩
  · rintro ⟨e, h⟩
    obtain ⟨t, ht⟩ := count_mem.mp hn
    have hl := h.2
    rw [show (pre ++ [a]).length = t.mnemonicCount by simp [ht], (spec_sizes t).1] at hl
    exact ⟨⟨t, e, by omega⟩, (hx.1 _).mpr h⟩

/-- C96: divide the list into consecutive blocks of as many words as there are checksums.  Whatever the other words are, exactly one
word of each block can stand last. -/
theorem C96_block (P : Hashes) (pre : List UInt16) (hn : pre.length + 1 ∈ wordCounts) (t : Nat)
    (ht : t < 2 ^ (11 - csBits (pre.length + 1))) :
    ∃! a : UInt16, a.toNat / 2 ^ csBits (pre.length + 1) = t ∧ ∃ e, Entropy.fromMnemonics P ⟨pre ++ [a]⟩ = .ok e := by
  obtain ⟨a1, a2, a3, a4, a5⟩ := last_arith hn
  have range : ∀ a : Nat, a / 2 ^ csBits (pre.length + 1) = t → a < 2048 := by
    intro a ha
    rw [← a5]
    exact (Nat.div_lt_iff_lt_mul (by positivity)).mp (ha ▸ ht)
  obtain ⟨T, hT⟩ := count_mem.mp hn
  -- the entropy of the block
  have ⟨e, he⟩ : ∃ e : Bytes, bytesBits e = wordsBits pre ++ bitsBE (11 - csBits (pre.length + 1)) t := by
    have h0 : (t * 2 ^ csBits (pre.length + 1)) / 2 ^ csBits (pre.length + 1) = t := Nat.mul_div_cancel _ (by positivity)
    have hlt := range _ h0
    obtain ⟨e, -, -, -, hb, -⟩ := fromMnemonics_spec P ⟨pre ++ [UInt16.ofNat (t * 2 ^ csBits (pre.length + 1))]⟩ T (by simpa using hT)
    refine ⟨e.bytes, ?_⟩
    rw [hb, ← (spec_sizes T).1, hT, ← a3, wordsBits_append, wordsBits_single, List.take_append, List.take_of_length_le (by simp)]
    congr 1
    have hs := bits_split (11 - csBits (pre.length + 1)) (csBits (pre.length + 1)) (t * 2 ^ csBits (pre.length + 1))
    rw [a4, h0] at hs
    rw [UInt16.toNat_ofNat', Nat.mod_eq_of_lt (by omega), hs, List.take_left' (by simp)]
  have hcl : ((bytesBits (P.sha256 e)).take (csBits (pre.length + 1))).length = csBits (pre.length + 1) := by
    rw [List.length_take, bytesBits_length, P.sha256_len]
    omega
  have hu := KC.Derived.bval_bound ((bytesBits (P.sha256 e)).take (csBits (pre.length + 1)))
  have hub := bits_bval ((bytesBits (P.sha256 e)).take (csBits (pre.length + 1)))
  rw [hcl] at hu hub
  generalize hv : KC.Derived.bval ((bytesBits (P.sha256 e)).take (csBits (pre.length + 1))) = u at hu hub
  have hd : (u + t * 2 ^ csBits (pre.length + 1)) / 2 ^ csBits (pre.length + 1) = t := by
    rw [Nat.add_mul_div_right _ _ (by positivity), Nat.div_eq_of_lt hu, Nat.zero_add]
  have hlt := range _ hd
  have hto : (UInt16.ofNat (u + t * 2 ^ csBits (pre.length + 1))).toNat = u + t * 2 ^ csBits (pre.length + 1) := by
    rw [UInt16.toNat_ofNat', Nat.mod_eq_of_lt (by omega)]
  have hc : Carries P.sha256 (pre ++ [UInt16.ofNat (u + t * 2 ^ csBits (pre.length + 1))]) e := by
    rw [carries_last _ _ _ _ hn, hto, hd]
    refine ⟨he, ?_⟩
    rw [← bitsBE_mod, Nat.add_mul_mod_self_right, bitsBE_mod, hub]
  refine ⟨_, ⟨by rw [hto]; exact hd, (passes_iff P pre _ hn).mpr ⟨e, hc⟩⟩, ?_⟩
  rintro b ⟨hb, hp⟩
  obtain ⟨e', hc'⟩ := (passes_iff P pre b hn).mp hp
  have hb' := ((carries_last _ _ _ _ hn).mp hc').1
  rw [hb, ← he] at hb'
  have := bytesBits_inj hb'
  subst this
  have hw : wordsBits (pre ++ [b]) = wordsBits (pre ++ [UInt16.ofNat (u + t * 2 ^ csBits (pre.length + 1))]) := by
    rw [hc'.1, hc.1]
    simp only [List.length_append, List.length_singleton]
  have hbl := range _ hb
  rw [wordsBits_append, wordsBits_append, wordsBits_single, wordsBits_single] at hw
  exact bitsBE_inj11 hbl (by rw [hto]; exact hlt) (List.append_cancel_left hw)

/-- C96: so there are exactly `2 ^ (11 - checksum bits)` of them. -/
theorem C96_count (P : Hashes) (pre : List UInt16) (hn : pre.length + 1 ∈ wordCounts) :
    {a : UInt16 | a.toNat ≤ 2047 ∧ ∃ e, Entropy.fromMnemonics P ⟨pre ++ [a]⟩ = .ok e}.ncard = 2 ^ (11 - csBits (pre.length + 1)) := by
  obtain ⟨a1, a2, a3, a4, a5⟩ := last_arith hn
  rw [← Finset.card_range (2 ^ (11 - csBits (pre.length + 1))), ← Set.ncard_coe_finset]
  refine Set.ncard_congr (fun a _ => a.toNat / 2 ^ csBits (pre.length + 1)) ?_ ?_ ?_
  · rintro a ⟨h1, -⟩
    simp only [Finset.coe_range, Set.mem_Iio]
    rw [Nat.div_lt_iff_lt_mul (by positivity), a5]
    omega
  · rintro a b ⟨h1, h2⟩ ⟨h3, h4⟩ h
    have hlt : a.toNat / 2 ^ csBits (pre.length + 1) < 2 ^ (11 - csBits (pre.length + 1)) := by
      rw [Nat.div_lt_iff_lt_mul (by positivity), a5]
      omega
    exact (C96_block P pre hn _ hlt).unique ⟨rfl, h2⟩ ⟨h.symm, h4⟩
  · intro t ht
    simp only [Finset.coe_range, Set.mem_Iio] at ht
    obtain ⟨a, ⟨ha, he⟩, -⟩ := C96_block P pre hn t ht
    refine ⟨a, ⟨?_, he⟩, ha⟩
    have : a.toNat < 2048 := by
      rw [← a5]
      exact (Nat.div_lt_iff_lt_mul (by positivity)).mp (ha ▸ ht)
    omega

/-- C96: the mistakes in the last word that the checksum does not show: of the 2047 other words, one less. -/
theorem C96_mistakes (P : Hashes) (pre : List UInt16) (a : UInt16) (e : Entropy) (hn : pre.length + 1 ∈ wordCounts)
    (ha : a.toNat ≤ 2047) (h : Entropy.fromMnemonics P ⟨pre ++ [a]⟩ = .ok e) :
    {b : UInt16 | b ≠ a ∧ b.toNat ≤ 2047 ∧ ∃ e, Entropy.fromMnemonics P ⟨pre ++ [b]⟩ = .ok e}.ncard =
      2 ^ (11 - csBits (pre.length + 1)) - 1 := by
  have hm : a ∈ {a : UInt16 | a.toNat ≤ 2047 ∧ ∃ e, Entropy.fromMnemonics P ⟨pre ++ [a]⟩ = .ok e} := ⟨ha, e, h⟩
  rw [← C96_count P pre hn, ← Set.ncard_sdiff_singleton_of_mem hm]
  congr 1
  ext b
  simp only [Set.mem_ofPred_eq, Set.mem_sdiff, Set.mem_singleton_iff]
  tauto

/-- C96: the same of texts, through the parser: any words of the list but the last, and the words of the list that complete them. -/
theorem C96_words (P : Hashes) (l : Language) (ws : List Str) (hn : ws.length + 1 ∈ wordCounts) (hw : ∀ w ∈ ws, w ∈ l.toDict.words) :
    {w : Str | w ∈ l.toDict.words ∧ ∃ m e, Mnemonics.fromString l.toDict (spaced (ws ++ [w])) = .ok m ∧
      Entropy.fromMnemonics P m = .ok e}.ncard = 2 ^ (11 - csBits (ws.length + 1)) := by
  have idx : ∀ w ∈ l.toDict.words, ∃ i : UInt16, i.toNat ≤ 2047 ∧ l.toDict.words[i.toNat]? = some w := by
    intro w h
    obtain ⟨k, hk, h⟩ := List.getElem_of_mem h
    rw [(C09_words l).1] at hk
    have : (UInt16.ofNat k).toNat = k := by rw [UInt16.toNat_ofNat', Nat.mod_eq_of_lt (by omega)]
    exact ⟨UInt16.ofNat k, by omega, by rw [this, ← h]; exact List.getElem?_eq_getElem _⟩
  obtain ⟨pre, hpre⟩ : ∃ pre : List UInt16, List.Forall₂ (fun w (i : UInt16) => l.toDict.words[i.toNat]? = some w) ws pre := by
    clear hn
    induction ws with
    | nil => exact ⟨[], .nil⟩
    | cons w ws ih =>
      obtain ⟨p, h1⟩ := ih fun x hx => hw x (by simp [hx])
      obtain ⟨i, -, h4⟩ := idx w (hw w (by simp))
      exact ⟨i :: p, .cons h4 h1⟩
  have hl := hpre.length_eq
  have parse : ∀ w i, l.toDict.words[UInt16.toNat i]? = some w →
      Mnemonics.fromString l.toDict (spaced (ws ++ [w])) = .ok ⟨pre ++ [i]⟩ := by
    intro w i h
    have hm := List.mem_of_getElem? h
    rw [fromString_ok _ l.good]
    have hsplit : split ' ' (spaced (ws ++ [w])) = ws ++ [w] := split_intercalate ' ' _ (by simp) (by
      intro x hx
      rcases List.mem_append.mp hx with hx | hx
      · exact l.good.noSep x (hw x hx)
      · rw [List.mem_singleton.mp hx]; exact l.good.noSep w hm)
    rw [hsplit]
    exact ⟨List.rel_append hpre (.cons h .nil), count_mem.mp (by simpa [← hl] using hn)⟩
  rw [hl, ← C96_count P pre (hl ▸ hn)]
  symm
  have get : ∀ i : UInt16, i.toNat ≤ 2047 → i.toNat < l.toDict.words.length := by
    intro i hi
    rw [(C09_words l).1]
    omega
  refine Set.ncard_congr (fun i hi => l.toDict.words[i.toNat]'(get i hi.1)) ?_ ?_ ?_
  · rintro i ⟨h1, e, he⟩
    exact ⟨List.getElem_mem _, _, e, parse _ i (List.getElem?_eq_getElem (get i h1)), he⟩
  · intro i j hi hj h
    exact UInt16.toNat_inj.mp ((List.Nodup.getElem_inj_iff (C09_words l).2.1).mp h)
  · rintro w ⟨h1, m, e, h2, h3⟩
    obtain ⟨i, h4, h5⟩ := idx w h1
    have := parse w i h5
    rw [h2] at this
    cases this
    refine ⟨i, ⟨h4, e, h3⟩, ?_⟩
    have h6 := List.getElem?_eq_getElem (get i h4)
    rw [h6] at h5
    exact Option.some.inj h5

/-- C96: for restoring, though, each of the 2048 words does. -/
theorem C96_restores (P : Hashes) (unique : Str) (size : Nat) (l : Language) (ws : List Str) (hn : ws.length + 1 ∈ wordCounts)
    (hw : ∀ w ∈ ws, w ∈ l.toDict.words) (hs : ws.length + 1 = size / 32 * 3) :
    {w : Str | w ∈ l.toDict.words ∧ ∃ seed, seedFromMnemonic P (spaced (ws ++ [w])) unique size l = .ok seed}.ncard = 2048 := by
  classical
  have h : {w : Str | w ∈ l.toDict.words ∧ ∃ seed, seedFromMnemonic P (spaced (ws ++ [w])) unique size l = .ok seed} =
      (l.toDict.words.toFinset : Set Str) := by
    ext w
    simp only [Set.mem_ofPred_eq, List.coe_toFinset, and_iff_left_iff_imp]
    intro h
    refine C14_accepts_all P unique size l _ ?_ (by simpa using hn) (by simpa using hs)
    intro x hx
    rcases List.mem_append.mp hx with hx | hx
    · exact hw x hx
    · rw [List.mem_singleton.mp hx]; exact h
  rw [h, Set.ncard_coe_finset, List.toFinset_card_of_nodup (C09_words l).2.1, (C09_words l).1]

/-- C96, a case: after eleven times "abandon", of the first sixteen words of the English list only "about" can stand last; there are 127
more such words further down. -/
theorem C96_case : Carries Real.sha256 (List.replicate 11 0 ++ [3]) (List.replicate 16 0) ∧
    (∀ a : UInt16, a.toNat < 16 → (∃ e, Entropy.fromMnemonics Real.hashes ⟨List.replicate 11 0 ++ [a]⟩ = .ok e) → a = 3) ∧
    {a : UInt16 | a.toNat ≤ 2047 ∧ ∃ e, Entropy.fromMnemonics Real.hashes ⟨List.replicate 11 0 ++ [a]⟩ = .ok e}.ncard = 128 := by
  have hc : Carries Real.sha256 (List.replicate 11 0 ++ [3]) (List.replicate 16 0) := by
    refine ⟨?_, by decide⟩
    decide +kernel
  have hn : (List.replicate 11 (0 : UInt16)).length + 1 ∈ wordCounts := by decide
  refine ⟨hc, fun a ha h => ?_, C96_count Real.hashes _ hn⟩
  exact (C96_block Real.hashes _ hn 0 (by decide)).unique ⟨Nat.div_eq_of_lt ha, h⟩
    ⟨by decide, (passes_iff Real.hashes _ _ hn).mpr ⟨_, hc⟩⟩

/-- C06: the two numbers in the error are the checksum that the entropy in the phrase has and the one that the phrase ends with, and they
differ. -/
theorem C06_error (P : Hashes) (m : Mnemonics) (hn : m.idx.length ∈ wordCounts) (c1 c2 : UInt8)
    (h : Entropy.fromMnemonics P m = .err (.invalidChecksum c1 c2)) :
    ∃ e : Bytes, bytesBits e = (wordsBits m.idx).take (entBits m.idx.length) ∧
      bitsBE (csBits m.idx.length) c1.toNat = (bytesBits (P.sha256 e)).take (csBits m.idx.length) ∧ c1.toNat < 2 ^ csBits m.idx.length ∧
      bitsBE (csBits m.idx.length) c2.toNat = (wordsBits m.idx).drop (entBits m.idx.length) ∧ c2.toNat < 2 ^ csBits m.idx.length ∧
      c1 ≠ c2 := by
  obtain ⟨t, ht⟩ := count_mem.mp hn
  obtain ⟨s1, s2⟩ := spec_sizes t
  obtain ⟨a1, a2, a3, a4⟩ := type_arith t
  rw [ht] at s1 s2
  obtain ⟨e, d1, d2, -, hb, h1, h2, hres⟩ := fromMnemonics_spec P m t ht
  rw [hres] at h
  split at h
  · cases h
  · rename_i hne
    cases h
    have key : ∀ (c : UInt8) (l : List Bool), l.length = t.checksumSizeBits →
        bitsBE 8 c.toNat = List.replicate (8 - t.checksumSizeBits) false ++ l →
        bitsBE t.checksumSizeBits c.toNat = l ∧ c.toNat < 2 ^ t.checksumSizeBits := by
      intro c l hl h
      have hs := bits_split (8 - t.checksumSizeBits) t.checksumSizeBits c.toNat
      rw [show 8 - t.checksumSizeBits + t.checksumSizeBits = 8 by omega, h] at hs
      obtain ⟨e1, e2⟩ := List.append_inj hs (by simp)
      refine ⟨e2.symm, ?_⟩
      have hv := congrArg KC.Derived.bval h
      rw [KC.Derived.bval_bits, KC.Derived.bval_append, Nat.mod_eq_of_lt (by simpa using UInt8.toNat_lt c)] at hv
      have hz : KC.Derived.bval (List.replicate (8 - t.checksumSizeBits) false) = 0 := by
        generalize 8 - t.checksumSizeBits = k
        induction k with
        | zero => rfl
        | succ k ih =>
          rw [List.replicate_succ]
          simp only [KC.Derived.bval, List.map_cons, KC.Derived.val] at ih ⊢
          rw [ih]
          simp
      rw [hz, Nat.zero_mul, Nat.zero_add] at hv
      rw [hv, ← hl]
      exact KC.Derived.bval_bound l
    rw [s1, s2]
    obtain ⟨k1, k2⟩ := key _ _ (by rw [List.length_take, bytesBits_length, P.sha256_len]; omega) h1
    obtain ⟨k3, k4⟩ := key _ _ (by rw [List.length_drop, wordsBits_length]; omega) h2
    exact ⟨e.bytes, hb, k1, k2, k3, k4, hne⟩

end KC.Props
