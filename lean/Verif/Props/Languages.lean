import Verif.Props.Mnemonic
import Verif.Props.Hex
import Verif.Model.Bip39Text
import Verif.Proofs.SharedWords
import Verif.Real.Hashes
/-
Property C67 (bip39/src/bip39.rs, keychain/src/mnemonic.rs): one phrase in several languages.
-/
namespace KC.Props
open KC.Bip39 KC.Spec KC.Bits KC.Mnemonic

/-- C67: a phrase read in one language can be written in every other one and reads back there as the same phrase, so with the same
entropy. -/
theorem C67_translate (l l' : Language) (s : Str) (m : Mnemonics) (h : Mnemonics.fromString l.toDict s = .ok m) :
    ∃ s', m.toText l'.toDict = some s' ∧ Mnemonics.fromString l'.toDict s' = .ok m := by
  have hi : ∀ i ∈ m.idx, i.toNat ≤ 2047 := fun i hi => by
    obtain ⟨j, hj⟩ := C10_from_string l s m h i hi
    exact (indexNew_ok.mp hj).1
  rw [fromString_ok _ l.good] at h
  obtain ⟨-, t, ht⟩ := h
  exact C08_roundtrip l' m (count_mem.mpr ⟨t, ht⟩) hi

/-- Two readings of one text, word by word. -/
theorem both_read {l l' : Language} {s : Str} {m m' : Mnemonics} (h : Mnemonics.fromString l.toDict s = .ok m)
    (h' : Mnemonics.fromString l'.toDict s = .ok m') :
    m.idx ≠ [] ∧ List.Forall₂ (fun i j : UInt16 => ∃ w, l.toDict.words[i.toNat]? = some w ∧ l'.toDict.words[j.toNat]? = some w) m.idx m'.idx := by
  rw [fromString_ok _ l.good] at h
  rw [fromString_ok _ l'.good] at h'
  constructor
  · obtain ⟨-, t, ht⟩ := h
    intro e
    rw [e] at ht
    cases t <;> exact absurd ht (by decide)
  · replace h := h.1
    replace h' := h'.1
    revert h h'
    generalize split ' ' s = ws
    generalize m.idx = a
    generalize m'.idx = b
    intro h
    induction h generalizing b with
    | nil => intro h'; cases h'; exact .nil
    | cons hw _ ih => intro h'; cases h' with | cons hw' ht' => exact .cons ⟨_, hw, hw'⟩ (ih _ ht')

/-- C67: the only different languages in which one text can be a phrase are English and French, and the two Chinese ones. -/
theorem C67_one_language (l l' : Language) (s : Str) (m m' : Mnemonics) (h : Mnemonics.fromString l.toDict s = .ok m)
    (h' : Mnemonics.fromString l'.toDict s = .ok m') :
    l = l' ∨ (l = .english ∧ l' = .french) ∨ (l = .french ∧ l' = .english) ∨
      (l = .chineseSimplified ∧ l' = .chineseTraditional) ∨ (l = .chineseTraditional ∧ l' = .chineseSimplified) := by
  obtain ⟨hne, hb⟩ := both_read h h'
  have : sharing l l' = true := by
    generalize m.idx = a at hne hb
    generalize m'.idx = b at hb
    revert hne
    cases hb with
    | nil => exact fun hne => absurd rfl hne
    | cons hw _ =>
      obtain ⟨w, h1, h2⟩ := hw
      exact fun _ => shared_word l l' w (List.mem_of_getElem? h1) (List.mem_of_getElem? h2)
  revert this
  cases l <;> cases l' <;> decide

/-- C67: a text in both Chinese languages is the same phrase in both, so has the same entropy. -/
theorem C67_chinese (s : Str) (m m' : Mnemonics) (h : Mnemonics.fromString Language.chineseSimplified.toDict s = .ok m)
    (h' : Mnemonics.fromString Language.chineseTraditional.toDict s = .ok m') : m = m' := by
  have hb := (both_read h h').2
  obtain ⟨a⟩ := m
  obtain ⟨b⟩ := m'
  congr 1
  refine List.forall₂_eq_eq_eq ▸ hb.imp ?_
  rintro i j ⟨w, hi, hj⟩
  rw [Language.words_eq] at hi hj
  have ci := code_at (Language.codesOk _) hi
  have cj := code_at (Language.codesOk _) hj
  have hlt := (List.getElem?_eq_some_iff.mp ci).1
  have l1 := Language.codes_len .chineseSimplified
  have l2 := Language.codes_len .chineseTraditional
  obtain ⟨x, hx⟩ : ∃ x, Language.chineseTraditional.codes[i.toNat]? = some x := ⟨_, List.getElem?_eq_getElem (by omega)⟩
  by_cases e : encodeWord w = x
  · subst e
    have hn : Language.chineseTraditional.toDict.words.Nodup := (Language.good _).nodup
    rw [Language.words_eq] at hn
    have hxw : (decodeWords Language.chineseTraditional.codes)[i.toNat]? = some w := by
      rw [decodeWords, List.getElem?_map, hx]
      rw [decodeWords, List.getElem?_map, ci] at hi
      exact hi
    obtain ⟨p1, q1⟩ := List.getElem?_eq_some_iff.mp hxw
    obtain ⟨p2, q2⟩ := List.getElem?_eq_some_iff.mp hj
    exact UInt16.toNat_inj.mp ((List.Nodup.getElem_inj_iff hn).mp (q1.trans q2.symm))
  · refine absurd (List.mem_of_getElem? cj) (disjointMod_sound chinese_apart ?_)
    refine List.mem_map.mpr ⟨(encodeWord w, x), List.mem_filter.mpr ⟨?_, by simpa using e⟩, rfl⟩
    refine List.mem_of_getElem? (i := i.toNat) ?_
    rw [List.getElem?_zip_eq_some]
    exact ⟨ci, hx⟩

/-- C67: a text in both English and French is a different phrase in each: no word has the same place in both. -/
theorem C67_english_french (s : Str) (m m' : Mnemonics) (h : Mnemonics.fromString Language.english.toDict s = .ok m)
    (h' : Mnemonics.fromString Language.french.toDict s = .ok m') : m ≠ m' ∧ List.Forall₂ (· ≠ ·) m.idx m'.idx := by
  obtain ⟨hne, hb⟩ := both_read h h'
  have hd : List.Forall₂ (· ≠ ·) m.idx m'.idx := by
    refine hb.imp ?_
    rintro i j ⟨w, hi, hj⟩ rfl
    rw [Language.words_eq] at hi hj
    have ci := code_at (Language.codesOk _) hi
    have cj := code_at (Language.codesOk _) hj
    have hz : (encodeWord w, encodeWord w) ∈ DictData.englishCodes.zip DictData.frenchCodes := by
      refine List.mem_of_getElem? (i := i.toNat) ?_
      rw [List.getElem?_zip_eq_some]
      exact ⟨ci, cj⟩
    have := List.all_eq_true.mp english_french_differ _ hz
    simp at this
  refine ⟨?_, hd⟩
  rintro rfl
  revert hne
  cases hm : m.idx with
  | nil => exact fun h => absurd rfl h
  | cons x t => rw [hm] at hd; cases hd with | cons hx _ => exact absurd rfl hx

/-- C67: the seed is a function of the text alone: two languages that both accept the text give the same seed. -/
theorem C67_seed (P : Hashes) (text unique : Str) (size size' : Nat) (l l' : Language) (a b : Bytes)
    (ha : seedFromMnemonic P text unique size l = .ok a) (hb : seedFromMnemonic P text unique size' l' = .ok b) : a = b := by
  rw [(C12_seed P text unique size l a ha).1, (C12_seed P text unique size' l' b hb).1]

/-- C67: entropy and seeds print as lower-case hexadecimal, which decodes to their bytes; equal prints mean equal values. -/
theorem C67_print (e e' : Entropy) (s s' : Seed) :
    (∃ x, e.display = some x ∧ x.length = 2 * e.bytes.length ∧ Hex.decode x = .ok e.bytes ∧ (e'.display = some x ↔ e' = e)) ∧
    (∃ y, s.display = some y ∧ y.length = 128 ∧ Hex.decode y = .ok s.val ∧ (s'.display = some y ↔ s' = s)) ∧
    (Seed.eq s s' = true ↔ s = s') := by
  have key : ∀ b : Bytes, ∃ x, Hex.encode b = some x ∧ x.length = 2 * b.length ∧ Hex.decode x = .ok b := by
    intro b
    obtain ⟨x, h1, h2⟩ := C03_roundtrip b
    obtain ⟨x', h1', h3, -⟩ := C03_encode b
    rw [h1] at h1'
    cases h1'
    exact ⟨x, h1, h3, h2⟩
  have inj : ∀ b b' : Bytes, ∀ x, Hex.encode b = some x → Hex.encode b' = some x → b' = b := by
    intro b b' x h h'
    obtain ⟨y, q1, -, q2⟩ := key b
    obtain ⟨z, q1', -, q2'⟩ := key b'
    rw [h] at q1; rw [h'] at q1'
    cases q1; cases q1'
    rw [q2] at q2'
    cases q2'; rfl
  refine ⟨?_, ?_, ?_⟩
  · obtain ⟨x, h1, h2, h3⟩ := key e.bytes
    refine ⟨x, h1, h2, h3, fun h => ?_, fun h => h ▸ h1⟩
    have hb := inj _ _ _ h1 h
    obtain ⟨t, b, hl⟩ := e
    obtain ⟨t', b', hl'⟩ := e'
    obtain rfl : b' = b := hb
    have : t' = t := by
      rw [hl] at hl'
      revert hl'
      cases t <;> cases t' <;> decide
    subst this; rfl
  · obtain ⟨y, h1, h2, h3⟩ := key s.val
    exact ⟨y, h1, by rw [h2, s.property]; rfl, h3, fun h => Subtype.ext (inj _ _ _ h1 h), fun h => h ▸ h1⟩
  · rw [Seed.eq, beq_iff_eq]; exact Subtype.ext_iff.symm

/-- C67: the default number of words is 18, and the type of an entropy is that of its size. -/
theorem C67_types (e : Entropy) : MType.default.mnemonicCount = 18 ∧ MType.fromEntropySize (8 * e.bytes.length) = .ok e.getType := by
  refine ⟨rfl, ?_⟩
  obtain ⟨t, b, hl⟩ := e
  simp only [Entropy.getType, hl]
  cases t <;> rfl

/-- A text that is a phrase with correct checksum in English and, with other entropy, in French. -/
def bilingual : Str := "excuse nature globe puzzle animal fortune public fruit prison fragile ozone crucial".toList

def bilingualEnglish : Mnemonics := ⟨[632, 1179, 794, 1399, 72, 732, 1384, 750, 1368, 739, 1268, 419]⟩
def bilingualFrench : Mnemonics := ⟨[763, 1302, 919, 1576, 110, 854, 1567, 880, 1548, 861, 1409, 478]⟩

/-- Whether the checksum is right. -/
def entropyOf (P : Hashes) (m : Mnemonics) : Option Bytes :=
  match Entropy.fromMnemonics P m with
  | .ok e => some e.bytes
  | _ => none

example : Mnemonics.fromString Language.english.toDict bilingual = .ok bilingualEnglish := by decide +kernel
example : Mnemonics.fromString Language.french.toDict bilingual = .ok bilingualFrench := by decide +kernel
example : entropyOf Real.hashes bilingualEnglish =
    some [79, 18, 109, 141, 87, 112, 144, 183, 43, 66, 238, 171, 11, 142, 122, 26] := by decide +kernel
example : entropyOf Real.hashes bilingualFrench =
    some [95, 116, 89, 203, 226, 128, 220, 213, 176, 251, 112, 193, 141, 118, 192, 157] := by decide +kernel

/-- A text in both Chinese languages. -/
example : ∃ m, Mnemonics.fromString Language.chineseSimplified.toDict "的 的 的 的 的 的 的 的 的".toList = .ok m ∧
    Mnemonics.fromString Language.chineseTraditional.toDict "的 的 的 的 的 的 的 的 的".toList = .ok m :=
  ⟨⟨[0, 0, 0, 0, 0, 0, 0, 0, 0]⟩, by decide +kernel, by decide +kernel⟩

/-- The Italian text of an English phrase. -/
example : Mnemonics.toText Language.italian.toDict ⟨[0, 0, 0, 0, 0, 0, 0, 0, 1]⟩ =
    some "abaco abaco abaco abaco abaco abaco abaco abaco abbaglio".toList := by decide +kernel

end KC.Props
