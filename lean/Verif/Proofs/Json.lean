import Verif.Spec.Json
import Verif.Proofs.Str
/-
The reader reads every JSON document; the writer writes JSON.
-/
namespace KC.Json
open KC.Spec.Json

theorem isWs_iff (b : UInt8) : (b ∈ ([32, 9, 10, 13] : List UInt8)) ↔ (b = 32 ∨ b = 10 ∨ b = 9 ∨ b = 13) := by
  simp only [List.mem_cons, List.not_mem_nil, or_false]
  constructor <;> rintro (h | h | h | h) <;> simp [h]

theorem skipWs_append {w : Bytes} (hw : Ws w) (r : Bytes) : skipWs (w ++ r) = skipWs r := by
  induction hw with
  | nil => rfl
  | cons b w hb _ ih =>
    rw [List.cons_append, skipWs, if_pos ((isWs_iff b).mp hb), ih]

theorem skipWs_ws {w : Bytes} (hw : Ws w) : skipWs w = [] := by
  have := skipWs_append hw []
  simpa [skipWs] using this

theorem skipWs_stop {b : UInt8} (h : ¬ (b = 32 ∨ b = 10 ∨ b = 9 ∨ b = 13)) (r : Bytes) : skipWs (b :: r) = b :: r := by
  rw [skipWs, if_neg h]

/-! ### strings -/

theorem ofUtf8_utf8 (s : Str) : ofUtf8 (Str.utf8 s) = some s := by
  have : (Str.utf8 s).toByteArray = s.utf8Encode := rfl
  unfold ofUtf8
  rw [this, List.utf8Decode?_utf8Encode]
  simp

theorem lex_byte {b : UInt8} (h1 : b ≠ 34) (h2 : b ≠ 92) (h3 : ¬ b < 32) {r r' : Bytes} {ps : List Piece}
    (h : lexStr r = some (ps, r')) : lexStr (b :: r) = some (.byte b :: ps, r') := by
  rw [lexStr.eq_def]
  simp [h1, h2, h3, h]

theorem lex_bytes (l : Bytes) (hl : ∀ b ∈ l, b ≠ 34 ∧ b ≠ 92 ∧ ¬ b < 32) {r r' : Bytes} {ps : List Piece}
    (h : lexStr r = some (ps, r')) : lexStr (l ++ r) = some (l.map .byte ++ ps, r') := by
  induction l with
  | nil => exact h
  | cons b l ih =>
    obtain ⟨h1, h2, h3⟩ := hl b (List.mem_cons_self ..)
    exact lex_byte h1 h2 h3 (ih fun b hb => hl b (List.mem_cons_of_mem _ hb))

theorem lex_short {e v : UInt8} (he : e ≠ 117) (hv : simpleEscape e = some v) {r r' : Bytes} {ps : List Piece}
    (h : lexStr r = some (ps, r')) : lexStr (92 :: e :: r) = some (.byte v :: ps, r') := by
  rw [lexStr.eq_def]
  simp [he, hv, h]

theorem lex_uni {a b c d : UInt8} {n : Nat} (hn : hex4 a b c d = some n) {r r' : Bytes} {ps : List Piece}
    (h : lexStr r = some (ps, r')) : lexStr (92 :: 117 :: a :: b :: c :: d :: r) = some (.uni n :: ps, r') := by
  rw [lexStr.eq_def]
  simp [hn, h]

theorem lex_end (r : Bytes) : lexStr (34 :: r) = some ([], r) := by
  rw [lexStr.eq_def]; simp

theorem hexVal_of {n : Nat} {b : UInt8} (h : Hex n b) : hexVal b = some n := by
  cases h with
  | dec n h =>
    have : ∀ n : Fin 10, hexVal (UInt8.ofNat (48 + n.val)) = some n.val := by decide
    exact this ⟨n, h⟩
  | low n h =>
    have : ∀ n : Fin 6, hexVal (UInt8.ofNat (97 + n.val)) = some (10 + n.val) := by decide
    exact this ⟨n, h⟩
  | up n h =>
    have : ∀ n : Fin 6, hexVal (UInt8.ofNat (65 + n.val)) = some (10 + n.val) := by decide
    exact this ⟨n, h⟩

theorem hex4_of {n : Nat} {h : Bytes} (hh : Hex4 n h) : ∃ a b c d, h = [a, b, c, d] ∧ hex4 a b c d = some n := by
  cases hh with
  | mk a b c d x y z w h1 h2 h3 h4 =>
    refine ⟨x, y, z, w, rfl, ?_⟩
    simp only [hex4, hexVal_of h1, hexVal_of h2, hexVal_of h3, hexVal_of h4, Option.bind_eq_bind, Option.bind_some,
      Option.pure_def, Option.some.injEq]
    omega

/-- Bytes of a character outside ASCII are all at least 128. -/
theorem utf8_high_all (c : Char) (h : 128 ≤ c.toNat) : ∀ b ∈ String.utf8EncodeChar c, 128 ≤ b.toNat := by
  have h1 : ¬ c.val.toNat ≤ 0x7f := by have : c.val.toNat = c.toNat := rfl; omega
  simp only [String.utf8EncodeChar, h1, if_false]
  split
  · simp only [List.mem_cons, List.not_mem_nil, or_false]
    rintro b (rfl | rfl) <;> rw [UInt8.toNat_ofNat'] <;> omega
  · split
    · simp only [List.mem_cons, List.not_mem_nil, or_false]
      rintro b (rfl | rfl | rfl) <;> rw [UInt8.toNat_ofNat'] <;> omega
    · simp only [List.mem_cons, List.not_mem_nil, or_false]
      rintro b (rfl | rfl | rfl | rfl) <;> rw [UInt8.toNat_ofNat'] <;> omega

theorem u8_ne {b : UInt8} {n : Nat} (h : b.toNat ≠ n) (hn : n < 256) : b ≠ UInt8.ofNat n := by
  rintro rfl
  exact h (by rw [UInt8.toNat_ofNat']; omega)

theorem raw_bytes (c : Char) (h1 : 32 ≤ c.toNat) (h2 : c ≠ '"') (h3 : c ≠ '\\') :
    ∀ b ∈ String.utf8EncodeChar c, b ≠ 34 ∧ b ≠ 92 ∧ ¬ b < 32 := by
  have key : ∀ b ∈ String.utf8EncodeChar c, b.toNat ≠ 34 ∧ b.toNat ≠ 92 ∧ 32 ≤ b.toNat := by
    rcases Nat.lt_or_ge c.toNat 128 with h | h
    · rw [utf8_ascii c h]
      intro b hb
      rw [List.mem_singleton] at hb
      subst hb
      rw [UInt8.toNat_ofNat', Nat.mod_eq_of_lt (by omega)]
      exact ⟨fun hc => h2 (Char.toNat_inj' hc), fun hc => h3 (Char.toNat_inj' hc), h1⟩
    · intro b hb
      have := utf8_high_all c h b hb
      omega
  intro b hb
  obtain ⟨k1, k2, k3⟩ := key b hb
  refine ⟨u8_ne k1 (by decide), u8_ne k2 (by decide), ?_⟩
  rw [UInt8.lt_iff_toNat_lt]
  show ¬ _ < 32
  omega

theorem pieceBytes_bytes (l : Bytes) (ps : List Piece) :
    pieceBytes (l.map .byte ++ ps) = (pieceBytes ps).map (l ++ ·) := by
  induction l with
  | nil => cases h : pieceBytes ps <;> simp [h]
  | cons b l ih =>
    simp only [List.map_cons, List.cons_append, pieceBytes, ih]
    cases pieceBytes ps <;> rfl

theorem pieceBytes_uni (c : Char) (ps : List Piece) :
    pieceBytes (.uni c.toNat :: ps) = (pieceBytes ps).map (String.utf8EncodeChar c ++ ·) := by
  have hv : c.toNat < 0xD800 ∨ 0xDFFF < c.toNat := by
    have := c.valid
    have e : c.val.toNat = c.toNat := rfl
    simp only [UInt32.isValidChar, Nat.isValidChar, e] at this
    omega
  rw [pieceBytes.eq_def]
  simp only [hv, if_true]
  rw [show Char.ofNat c.toNat = c from Char.ofNat_toNat c]
  cases pieceBytes ps <;> rfl

theorem pieceBytes_pair (c : Char) (hi lo : Nat) (h1 : hi < 1024) (h2 : lo < 1024)
    (hc : c.toNat = 0x10000 + 1024 * hi + lo) (ps : List Piece) :
    pieceBytes (.uni (0xD800 + hi) :: .uni (0xDC00 + lo) :: ps) = (pieceBytes ps).map (String.utf8EncodeChar c ++ ·) := by
  rw [pieceBytes.eq_def]
  dsimp only
  rw [if_neg (by omega), if_pos (by omega), if_pos (by omega)]
  have : 0x10000 + (0xD800 + hi - 0xD800) * 0x400 + (0xDC00 + lo - 0xDC00) = c.toNat := by omega
  rw [this, show Char.ofNat c.toNat = c from Char.ofNat_toNat c]
  cases pieceBytes ps <;> rfl

theorem short_mem {e : UInt8} {c : Char} (h : (e, c) ∈ shortEscapes) :
    e ≠ 117 ∧ ∃ v, simpleEscape e = some v ∧ String.utf8EncodeChar c = [v] := by
  have : ∀ x ∈ shortEscapes, x.1 ≠ 117 ∧ simpleEscape x.1 = some (UInt8.ofNat x.2.toNat) ∧ x.2.toNat < 128 := by decide
  obtain ⟨h1, h2, h3⟩ := this _ h
  exact ⟨h1, _, h2, utf8_ascii c h3⟩

/-- The inside of a string literal is read as the text it stands for. -/
theorem chars_lex {s : Str} {b : Bytes} (h : Chars s b) (r : Bytes) :
    ∃ ps, lexStr (b ++ 34 :: r) = some (ps, r) ∧ pieceBytes ps = some (Str.utf8 s) := by
  induction h with
  | nil => exact ⟨[], lex_end r, rfl⟩
  | raw c s b h1 h2 h3 _ ih =>
    obtain ⟨ps, e1, e2⟩ := ih
    refine ⟨(String.utf8EncodeChar c).map .byte ++ ps, ?_, ?_⟩
    · rw [List.append_assoc]
      exact lex_bytes _ (raw_bytes c h1 h2 h3) e1
    · rw [pieceBytes_bytes, e2]; rfl
  | short e c s b hm _ ih =>
    obtain ⟨ps, e1, e2⟩ := ih
    obtain ⟨h1, v, h2, h3⟩ := short_mem hm
    refine ⟨.byte v :: ps, lex_short h1 h2 e1, ?_⟩
    rw [pieceBytes.eq_def]
    simp [e2, h3]
  | uni c h s b hh _ ih =>
    obtain ⟨ps, e1, e2⟩ := ih
    obtain ⟨x, y, z, w, rfl, e3⟩ := hex4_of hh
    exact ⟨.uni c.toNat :: ps, lex_uni e3 e1, by rw [pieceBytes_uni, e2]; rfl⟩
  | pair c hi lo h l s b hh hl h1 h2 hc _ ih =>
    obtain ⟨ps, e1, e2⟩ := ih
    obtain ⟨x, y, z, w, rfl, e3⟩ := hex4_of hh
    obtain ⟨x', y', z', w', rfl, e4⟩ := hex4_of hl
    exact ⟨.uni (0xD800 + hi) :: .uni (0xDC00 + lo) :: ps, lex_uni e3 (lex_uni e4 e1),
      by rw [pieceBytes_pair c hi lo h1 h2 hc, e2]; rfl⟩

theorem chars_text {s : Str} {b : Bytes} (h : Chars s b) (r : Bytes) :
    ∃ ps, lexStr (b ++ 34 :: r) = some (ps, r) ∧ text ps = some s := by
  obtain ⟨ps, h1, h2⟩ := chars_lex h r
  exact ⟨ps, h1, by rw [text, h2, Option.bind_some, ofUtf8_utf8]⟩

/-- What the string reader has seen, by its first piece. -/
theorem lex_inv {r r' : Bytes} {ps : List Piece} (h : lexStr r = some (ps, r')) :
    (ps = [] ∧ r = 34 :: r') ∨
    (∃ x r1 ps1, r = x :: r1 ∧ ps = .byte x :: ps1 ∧ x ≠ 34 ∧ x ≠ 92 ∧ ¬ x < 32 ∧ lexStr r1 = some (ps1, r')) ∨
    (∃ e v r1 ps1, r = 92 :: e :: r1 ∧ ps = .byte v :: ps1 ∧ simpleEscape e = some v ∧ lexStr r1 = some (ps1, r')) ∨
    (∃ a b c d n r1 ps1, r = 92 :: 117 :: a :: b :: c :: d :: r1 ∧ ps = .uni n :: ps1 ∧ hex4 a b c d = some n ∧
      lexStr r1 = some (ps1, r')) := by
  rw [lexStr.eq_def] at h
  split at h
  · cases h
  rename_i b r
  split at h
  · rename_i hb
    simp only [Option.some.injEq, Prod.mk.injEq] at h
    obtain ⟨rfl, rfl⟩ := h
    exact .inl ⟨rfl, by rw [hb]⟩
  rename_i hb
  split at h
  · rename_i hb2
    subst hb2
    split at h
    · cases h
    rename_i c r1
    split at h
    · rename_i hc
      subst hc
      split at h
      · rename_i h1 h2 h3 h4 r2
        simp only [Option.bind_eq_bind, Option.bind_eq_some_iff, Option.pure_def, Option.some.injEq, Prod.mk.injEq] at h
        obtain ⟨n, hn, ⟨ps1, r3⟩, hl, rfl, rfl⟩ := h
        exact .inr (.inr (.inr ⟨h1, h2, h3, h4, n, r2, ps1, rfl, rfl, hn, hl⟩))
      · cases h
    · simp only [Option.bind_eq_bind, Option.bind_eq_some_iff, Option.pure_def, Option.some.injEq, Prod.mk.injEq] at h
      obtain ⟨v, hv, ⟨ps1, r3⟩, hl, rfl, rfl⟩ := h
      exact .inr (.inr (.inl ⟨c, v, r1, ps1, rfl, rfl, hv, hl⟩))
  rename_i hb2
  split at h
  · cases h
  rename_i hb3
  simp only [Option.bind_eq_bind, Option.bind_eq_some_iff, Option.pure_def, Option.some.injEq, Prod.mk.injEq] at h
  obtain ⟨⟨ps1, r3⟩, hl, rfl, rfl⟩ := h
  exact .inr (.inl ⟨b, r, ps1, rfl, rfl, hb, hb2, hb3, hl⟩)

theorem hexVal_inv {b : UInt8} {n : Nat} (h : hexVal b = some n) : Hex n b := by
  have hb : UInt8.ofNat b.toNat = b := UInt8.ofNat_toNat
  simp only [hexVal, UInt8.le_iff_toNat_le, UInt8.reduceToNat] at h
  split at h
  · cases h
    have := Hex.dec (b.toNat - 48) (by omega)
    rwa [show 48 + (b.toNat - 48) = b.toNat by omega, hb] at this
  split at h
  · cases h
    have := Hex.low (b.toNat - 97) (by omega)
    rwa [show 97 + (b.toNat - 97) = b.toNat by omega, hb, show 10 + (b.toNat - 97) = b.toNat - 87 by omega] at this
  split at h
  · cases h
    have := Hex.up (b.toNat - 65) (by omega)
    rwa [show 65 + (b.toNat - 65) = b.toNat by omega, hb, show 10 + (b.toNat - 65) = b.toNat - 55 by omega] at this
  · cases h

theorem hex4_inv {a b c d : UInt8} {n : Nat} (h : hex4 a b c d = some n) : Hex4 n [a, b, c, d] := by
  simp only [hex4, Option.bind_eq_bind, Option.bind_eq_some_iff, Option.pure_def, Option.some.injEq] at h
  obtain ⟨x, hx, y, hy, z, hz, w, hw, rfl⟩ := h
  have := Hex4.mk x y z w a b c d (hexVal_inv hx) (hexVal_inv hy) (hexVal_inv hz) (hexVal_inv hw)
  rwa [show 4096 * x + 256 * y + 16 * z + w = ((x * 16 + y) * 16 + z) * 16 + w by omega] at this

theorem simpleEscape_inv {e v : UInt8} (h : simpleEscape e = some v) :
    ∃ c, (e, c) ∈ shortEscapes ∧ c.toNat < 128 ∧ String.utf8EncodeChar c = [v] ∧ e ≠ 117 := by
  have key : ∀ i : Fin 256, ∀ v, simpleEscape (UInt8.ofNat i.val) = some v →
      (UInt8.ofNat i.val, Char.ofNat v.toNat) ∈ shortEscapes ∧ (Char.ofNat v.toNat).toNat < 128 ∧
        String.utf8EncodeChar (Char.ofNat v.toNat) = [v] ∧ UInt8.ofNat i.val ≠ 117 := by
    intro i v h
    have : ∀ i : Fin 256, (simpleEscape (UInt8.ofNat i.val)).all fun v => decide
      ((UInt8.ofNat i.val, Char.ofNat v.toNat) ∈ shortEscapes ∧ (Char.ofNat v.toNat).toNat < 128 ∧
        String.utf8EncodeChar (Char.ofNat v.toNat) = [v] ∧ UInt8.ofNat i.val ≠ 117) := by decide +kernel
    have := this i
    rw [h] at this
    simpa using this
  have := key ⟨e.toNat, e.toNat_lt⟩ v (by simpa using h)
  simp only [UInt8.ofNat_toNat] at this
  exact ⟨_, this⟩

theorem utf8_cons (c : Char) : ∃ x t, String.utf8EncodeChar c = x :: t ∧ (∀ y ∈ t, 128 ≤ y.toNat ∧ y.toNat < 192) ∧
    (x.toNat < 128 ∨ 192 ≤ x.toNat) ∧ (x.toNat < 128 → x.toNat = c.toNat ∧ t = []) := by
  have e : c.val.toNat = c.toNat := rfl
  rcases Nat.lt_or_ge c.toNat 128 with h | h
  · refine ⟨_, _, utf8_ascii c h, by simp, .inl ?_, fun _ => ⟨?_, rfl⟩⟩ <;> rw [UInt8.toNat_ofNat'] <;> omega
  · have h1 : ¬ c.val.toNat ≤ 0x7f := by omega
    have hv := c.valid
    simp only [UInt32.isValidChar, Nat.isValidChar, e] at hv
    simp only [String.utf8EncodeChar, h1, if_false]
    split
    · refine ⟨_, _, rfl, ?_, .inr ?_, fun hx => ?_⟩
      · simp only [List.mem_cons, List.not_mem_nil, or_false]
        rintro b rfl
        rw [UInt8.toNat_ofNat']; omega
      · rw [UInt8.toNat_ofNat']; omega
      · rw [UInt8.toNat_ofNat'] at hx; omega
    · split
      · refine ⟨_, _, rfl, ?_, .inr ?_, fun hx => ?_⟩
        · simp only [List.mem_cons, List.not_mem_nil, or_false]
          rintro b (rfl | rfl) <;> rw [UInt8.toNat_ofNat'] <;> omega
        · rw [UInt8.toNat_ofNat']; omega
        · rw [UInt8.toNat_ofNat'] at hx; omega
      · refine ⟨_, _, rfl, ?_, .inr ?_, fun hx => ?_⟩
        · simp only [List.mem_cons, List.not_mem_nil, or_false]
          rintro b (rfl | rfl | rfl) <;> rw [UInt8.toNat_ofNat'] <;> omega
        · rw [UInt8.toNat_ofNat']; omega
        · rw [UInt8.toNat_ofNat'] at hx; omega

theorem utf8_prefix {a b : Char} {x y : Bytes} (h : String.utf8EncodeChar a ++ x = String.utf8EncodeChar b ++ y) :
    a = b ∧ x = y := by
  have h1 := congrArg (fun l : Bytes => ByteArray.utf8DecodeChar? l.toByteArray 0) h
  simp only [List.toByteArray_append, ByteArray.utf8DecodeChar?_utf8EncodeChar_append, Option.some.injEq] at h1
  subst h1
  exact ⟨rfl, List.append_cancel_left h⟩

theorem ofUtf8_inv {b : Bytes} {s : Str} (h : ofUtf8 b = some s) : b = Str.utf8 s := by
  simp only [ofUtf8, Option.map_eq_some_iff] at h
  obtain ⟨a, ha, rfl⟩ := h
  have hs : (b.toByteArray.utf8Decode?).isSome := by rw [ha]; rfl
  have h1 := ByteArray.utf8Encode_get_utf8Decode? (b := b.toByteArray) (h := hs)
  simp only [ha, Option.get_some] at h1
  have h2 : (Str.utf8 a.toList).toByteArray = b.toByteArray := h1
  have := congrArg (fun x => x.data.toList) h2
  simpa using this.symm

theorem pieceBytes_byte_inv {b : UInt8} {ps : List Piece} {B : Bytes} (h : pieceBytes (.byte b :: ps) = some B) :
    ∃ y, pieceBytes ps = some y ∧ B = b :: y := by
  rw [pieceBytes.eq_def] at h
  simp only [Option.bind_eq_bind, Option.bind_eq_some_iff, Option.pure_def, Option.some.injEq] at h
  obtain ⟨y, hy, rfl⟩ := h
  exact ⟨y, hy, rfl⟩

theorem ofNat_val {n : Nat} (h : n.isValidChar) : (Char.ofNat n).toNat = n := by
  rw [Char.ofNat, dif_pos h]
  rfl

theorem hex4_lt {a b c d : UInt8} {n : Nat} (h : hex4 a b c d = some n) : n < 0x10000 := by
  have hx : ∀ {n b}, Hex n b → n < 16 := by
    intro n b h
    cases h <;> omega
  cases hex4_inv h with
  | mk x y z w _ _ _ _ h1 h2 h3 h4 =>
    have := hx h1
    have := hx h2
    have := hx h3
    have := hx h4
    omega

theorem pieceBytes_uni_inv {n : Nat} {ps : List Piece} {B : Bytes} (hlt : n < 0x10000) (h : pieceBytes (.uni n :: ps) = some B) :
    (∃ c : Char, ∃ y, c.toNat = n ∧ B = String.utf8EncodeChar c ++ y ∧ pieceBytes ps = some y) ∨
    (∃ (c : Char) (hi lo : Nat) (ps' : List Piece) (y : Bytes), n = 0xD800 + hi ∧ ps = .uni (0xDC00 + lo) :: ps' ∧ hi < 1024 ∧
      lo < 1024 ∧ c.toNat = 0x10000 + 1024 * hi + lo ∧ B = String.utf8EncodeChar c ++ y ∧ pieceBytes ps' = some y) := by
  rw [pieceBytes.eq_def] at h
  dsimp only at h
  split at h
  · rename_i hn
    simp only [Option.bind_eq_bind, Option.bind_eq_some_iff, Option.pure_def, Option.some.injEq] at h
    obtain ⟨y, hy, rfl⟩ := h
    exact .inl ⟨_, y, ofNat_val (by simp only [Nat.isValidChar]; omega), rfl, hy⟩
  rename_i hn
  split at h
  · rename_i hn2
    split at h
    · rename_i m ps'
      split at h
      · rename_i hm
        simp only [Option.bind_eq_bind, Option.bind_eq_some_iff, Option.pure_def, Option.some.injEq] at h
        obtain ⟨y, hy, rfl⟩ := h
        refine .inr ⟨_, n - 0xD800, m - 0xDC00, ps', y, by omega, by rw [show 0xDC00 + (m - 0xDC00) = m by omega], by omega,
          by omega, ?_, rfl, hy⟩
        rw [ofNat_val (by simp only [Nat.isValidChar]; omega)]
        omega
      · cases h
    · cases h
  · cases h

theorem cont_span (t : Bytes) (ht : ∀ x ∈ t, 128 ≤ x.toNat ∧ x.toNat < 192) {r r' : Bytes} {ps : List Piece} {y : Bytes}
    (h : lexStr r = some (ps, r')) (hp : pieceBytes ps = some (t ++ y)) :
    ∃ r1 ps1, r = t ++ r1 ∧ ps1.length ≤ ps.length ∧ lexStr r1 = some (ps1, r') ∧ pieceBytes ps1 = some y := by
  induction t generalizing r ps with
  | nil => exact ⟨r, ps, rfl, Nat.le_refl _, h, hp⟩
  | cons x t ih =>
    have hx := ht x List.mem_cons_self
    have ht' : ∀ z ∈ t, 128 ≤ z.toNat ∧ z.toNat < 192 := fun z hz => ht z (List.mem_cons_of_mem _ hz)
    rcases lex_inv h with ⟨rfl, rfl⟩ | ⟨z, r1, ps1, rfl, rfl, h1, h2, h3, hl⟩ | ⟨e, v, r1, ps1, rfl, rfl, hv, hl⟩ |
      ⟨a, b, c, d, n, r1, ps1, rfl, rfl, hn, hl⟩
    · simp [pieceBytes] at hp
    · obtain ⟨w, hw, he⟩ := pieceBytes_byte_inv hp
      replace he := he.symm
      rw [List.cons_append, List.cons.injEq] at he
      obtain ⟨rfl, rfl⟩ := he
      obtain ⟨r2, ps2, rfl, hle, h4, h5⟩ := ih ht' hl hw
      exact ⟨r2, ps2, rfl, by simp; omega, h4, h5⟩
    · obtain ⟨c, -, hc, hc', -⟩ := simpleEscape_inv hv
      obtain ⟨w, hw, he⟩ := pieceBytes_byte_inv hp
      replace he := he.symm
      rw [List.cons_append, List.cons.injEq] at he
      rw [utf8_ascii c hc, List.cons.injEq] at hc'
      have := he.1
      rw [← hc'.1] at this
      rw [← this, UInt8.toNat_ofNat'] at hx
      omega
    · have : ∃ (c : Char) (w : Bytes), x :: (t ++ y) = String.utf8EncodeChar c ++ w := by
        rcases pieceBytes_uni_inv (hex4_lt hn) hp with ⟨c, w, -, he, -⟩ | ⟨c, -, -, -, w, -, -, -, -, -, he, -⟩
        · exact ⟨c, w, he⟩
        · exact ⟨c, w, he⟩
      obtain ⟨c, w, he⟩ := this
      obtain ⟨z, u, hz, -, h1, -⟩ := utf8_cons c
      rw [hz, List.cons_append, List.cons.injEq] at he
      rw [he.1] at hx
      omega

/-- What is read as a text is a literal of that text. -/
theorem lex_chars {r r' : Bytes} {ps : List Piece} {s : Str} (h : lexStr r = some (ps, r'))
    (hp : pieceBytes ps = some (Str.utf8 s)) : ∃ b, r = b ++ 34 :: r' ∧ Chars s b := by
  induction s generalizing r ps with
  | nil =>
    rcases lex_inv h with ⟨rfl, rfl⟩ | ⟨z, r1, ps1, rfl, rfl, h1, h2, h3, hl⟩ | ⟨e, v, r1, ps1, rfl, rfl, hv, hl⟩ |
      ⟨a, b, c, d, n, r1, ps1, rfl, rfl, hn, hl⟩
    · exact ⟨[], rfl, .nil⟩
    · obtain ⟨w, -, hw⟩ := pieceBytes_byte_inv hp
      cases hw
    · obtain ⟨w, -, hw⟩ := pieceBytes_byte_inv hp
      cases hw
    · rcases pieceBytes_uni_inv (hex4_lt hn) hp with ⟨c, w, -, he, -⟩ | ⟨c, -, -, -, w, -, -, -, -, -, he, -⟩ <;>
      · obtain ⟨z, u, hz, -⟩ := utf8_cons c
        rw [hz] at he
        cases he
  | cons k s ih =>
    rw [Str.utf8_cons] at hp
    rcases lex_inv h with ⟨rfl, rfl⟩ | ⟨z, r1, ps1, rfl, rfl, h1, h2, h3, hl⟩ | ⟨e, v, r1, ps1, rfl, rfl, hv, hl⟩ |
      ⟨a, b, c, d, n, r1, ps1, rfl, rfl, hn, hl⟩
    · obtain ⟨z, u, hz, -⟩ := utf8_cons k
      rw [hz] at hp
      cases hp
    · obtain ⟨x, t, hx, ht, -, hx2⟩ := utf8_cons k
      obtain ⟨w, hw, he⟩ := pieceBytes_byte_inv hp
      replace he := he.symm
      rw [hx, List.cons_append, List.cons.injEq] at he
      obtain ⟨rfl, rfl⟩ := he
      obtain ⟨r2, ps2, rfl, -, h4, h5⟩ := cont_span t ht hl hw
      obtain ⟨b, rfl, hb⟩ := ih h4 h5
      have h1' : z.toNat ≠ 34 := fun hh => h1 (UInt8.toNat_inj.mp hh)
      have h2' : z.toNat ≠ 92 := fun hh => h2 (UInt8.toNat_inj.mp hh)
      have h3' : ¬ z.toNat < 32 := by rwa [UInt8.lt_iff_toNat_lt] at h3
      refine ⟨String.utf8EncodeChar k ++ b, by rw [hx]; simp, .raw k s b ?_ ?_ ?_ hb⟩
      · refine Nat.le_of_not_lt fun hc => ?_
        obtain ⟨e1, -⟩ : _ ∧ _ := by
          have ha := utf8_ascii k (by omega)
          rw [hx, List.cons.injEq] at ha
          exact ha
        have : z.toNat = k.toNat := by rw [e1, UInt8.toNat_ofNat']; omega
        omega
      · rintro rfl
        have ha := utf8_ascii '"' (by decide)
        rw [hx, List.cons.injEq] at ha
        exact h1 ha.1
      · rintro rfl
        have ha := utf8_ascii '\\' (by decide)
        rw [hx, List.cons.injEq] at ha
        exact h2 ha.1
    · obtain ⟨c, hm, hc, hc', -⟩ := simpleEscape_inv hv
      obtain ⟨w, hw, he⟩ := pieceBytes_byte_inv hp
      replace he := he.symm
      have he' : String.utf8EncodeChar c ++ w = String.utf8EncodeChar k ++ Str.utf8 s := by rw [hc']; exact he
      obtain ⟨rfl, rfl⟩ := utf8_prefix he'
      obtain ⟨b, rfl, hb⟩ := ih hl hw
      exact ⟨92 :: e :: b, rfl, .short e c s b hm hb⟩
    · rcases pieceBytes_uni_inv (hex4_lt hn) hp with ⟨u, w, hu, he, hw⟩ | ⟨u, hi, lo, ps', w, rfl, rfl, hhi, hlo, hu, he, hw⟩
      · obtain ⟨rfl, rfl⟩ := utf8_prefix he
        obtain ⟨b', rfl, hb⟩ := ih hl hw
        refine ⟨92 :: 117 :: ([a, b, c, d] ++ b'), rfl, .uni k _ s b' ?_ hb⟩
        rw [hu]; exact hex4_inv hn
      · obtain ⟨rfl, rfl⟩ := utf8_prefix he
        rcases lex_inv hl with ⟨hc, -⟩ | ⟨_, _, _, _, hc, _⟩ | ⟨_, _, _, _, _, hc, _⟩ |
          ⟨a', b', c', d', m, r2, ps2, rfl, hc, hm, hl'⟩
        · cases hc
        · cases hc
        · cases hc
        · simp only [List.cons.injEq, Piece.uni.injEq] at hc
          obtain ⟨rfl, rfl⟩ := hc
          obtain ⟨b2, rfl, hb⟩ := ih hl' hw
          exact ⟨92 :: 117 :: ([a, b, c, d] ++ 92 :: 117 :: ([a', b', c', d'] ++ b2)), rfl,
            .pair k hi lo _ _ s b2 (hex4_inv hn) (hex4_inv hm) hhi hlo hu hb⟩

/-- Whatever the string reader accepts is well delimited. -/
theorem lex_lit {r r' : Bytes} {ps : List Piece} (h : lexStr r = some (ps, r')) : ∃ b, r = b ++ 34 :: r' ∧ Lit b := by
  induction hn : ps.length generalizing r ps with
  | zero =>
    rcases lex_inv h with ⟨rfl, rfl⟩ | ⟨z, r1, ps1, rfl, rfl, h1, h2, h3, hl⟩ | ⟨e, v, r1, ps1, rfl, rfl, hv, hl⟩ |
      ⟨a, b, c, d, n, r1, ps1, rfl, rfl, hh, hl⟩
    · exact ⟨[], rfl, .nil⟩
    all_goals cases hn
  | succ m ih =>
    rcases lex_inv h with ⟨rfl, rfl⟩ | ⟨z, r1, ps1, rfl, rfl, h1, h2, h3, hl⟩ | ⟨e, v, r1, ps1, rfl, rfl, hv, hl⟩ |
      ⟨a, b, c, d, n, r1, ps1, rfl, rfl, hh, hl⟩
    · cases hn
    · obtain ⟨b, rfl, hb⟩ := ih hl (by simpa using hn)
      exact ⟨z :: b, rfl, .raw z b (UInt8.not_lt.mp h3) h1 h2 hb⟩
    · obtain ⟨b, rfl, hb⟩ := ih hl (by simpa using hn)
      obtain ⟨c, hm, -⟩ := simpleEscape_inv hv
      exact ⟨92 :: e :: b, rfl, .short e c b hm hb⟩
    · obtain ⟨b', rfl, hb⟩ := ih hl (by simpa using hn)
      exact ⟨92 :: 117 :: ([a, b, c, d] ++ b'), rfl, .uni n _ b' (hex4_inv hh) hb⟩

theorem lit_lex {b : Bytes} (h : Lit b) (r : Bytes) : ∃ ps, lexStr (b ++ 34 :: r) = some (ps, r) := by
  induction h with
  | nil => exact ⟨[], lex_end r⟩
  | raw x b h1 h2 h3 _ ih =>
    obtain ⟨ps, e⟩ := ih
    exact ⟨_, lex_byte h2 h3 (UInt8.not_lt.mpr h1) e⟩
  | short e c b hm _ ih =>
    obtain ⟨ps, e1⟩ := ih
    obtain ⟨h1, v, h2, h3⟩ := short_mem hm
    exact ⟨_, lex_short h1 h2 e1⟩
  | uni n h b hh _ ih =>
    obtain ⟨ps, e1⟩ := ih
    obtain ⟨x, y, z, w, rfl, e3⟩ := hex4_of hh
    exact ⟨_, lex_uni e3 e1⟩

/-- A literal is read as what it stands for. -/
theorem literal_text {s : Option Str} {b : Bytes} (h : Literal s b) (r : Bytes) :
    ∃ ps, lexStr (b ++ 34 :: r) = some (ps, r) ∧ text ps = s := by
  cases h with
  | text s b h => exact chars_text h r
  | other b hl hno =>
    obtain ⟨ps, hps⟩ := lit_lex hl r
    refine ⟨ps, hps, ?_⟩
    cases ht : text ps with
    | none => rfl
    | some s =>
      obtain ⟨B, hB, hs⟩ := Option.bind_eq_some_iff.mp ht
      obtain ⟨b', hb, hc⟩ := lex_chars hps (hB.trans (by rw [ofUtf8_inv hs]))
      rw [List.append_cancel_right hb] at hno
      exact absurd hc (hno s)

/-- What the string reader reads is a literal. -/
theorem literal_of_lex {r r' : Bytes} {ps : List Piece} (h : lexStr r = some (ps, r')) :
    ∃ b, r = b ++ 34 :: r' ∧ Literal (text ps) b := by
  obtain ⟨b, rfl, hb⟩ := lex_lit h
  refine ⟨b, rfl, ?_⟩
  cases ht : text ps with
  | some s =>
    obtain ⟨B, hB, hs⟩ := Option.bind_eq_some_iff.mp ht
    obtain ⟨b', hb', hc⟩ := lex_chars h (hB.trans (by rw [ofUtf8_inv hs]))
    rw [List.append_cancel_right hb']
    exact .text s b' hc
  | none =>
    refine .other b hb fun s hc => ?_
    obtain ⟨ps', h1, h2⟩ := chars_text hc r'
    rw [h] at h1
    cases h1
    rw [ht] at h2
    cases h2
/-! ### numbers -/

/-- What may follow a value. -/
def Stop (r : Bytes) : Prop := r = [] ∨ ∃ b t, r = b :: t ∧ b ∈ ([32, 9, 10, 13, 44, 93, 125] : List UInt8)

theorem dec_digits {n : Nat} {b : Bytes} (h : Dec n b) :
    (∀ x ∈ b, 48 ≤ x ∧ x ≤ 57) ∧ digitsVal b = n ∧ b ≠ [] ∧ (b.head? = some 48 → n = 0 ∧ b.length = 1) := by
  have hd : ∀ k, k < 10 → (48 : UInt8) ≤ UInt8.ofNat (48 + k) ∧ UInt8.ofNat (48 + k) ≤ 57 ∧
      (UInt8.ofNat (48 + k)).toNat - 48 = k ∧ (UInt8.ofNat (48 + k) = 48 → k = 0) := by
    have : ∀ k : Fin 10, (48 : UInt8) ≤ UInt8.ofNat (48 + k.val) ∧ UInt8.ofNat (48 + k.val) ≤ 57 ∧
      (UInt8.ofNat (48 + k.val)).toNat - 48 = k.val ∧ (UInt8.ofNat (48 + k.val) = 48 → k.val = 0) := by decide
    exact fun k hk => this ⟨k, hk⟩
  induction h with
  | one n hn =>
    obtain ⟨h1, h2, h3, h4⟩ := hd n hn
    refine ⟨fun x hx => ?_, by simp only [digitsVal, List.foldl_cons, List.foldl_nil, h3]; omega, by simp, ?_⟩
    · rw [List.mem_singleton] at hx; subst hx; exact ⟨h1, h2⟩
    intro hh
    simp only [List.head?_cons, Option.some.injEq] at hh
    exact ⟨h4 hh, rfl⟩
  | more n k ds hn hk _ ih =>
    obtain ⟨i1, i2, i3, i4⟩ := ih
    obtain ⟨h1, h2, h3, h4⟩ := hd k hk
    refine ⟨?_, ?_, by simp, ?_⟩
    · intro x hx
      rw [List.mem_append, List.mem_singleton] at hx
      rcases hx with hx | rfl
      · exact i1 x hx
      · exact ⟨h1, h2⟩
    · simp only [digitsVal, List.foldl_append, List.foldl_cons, List.foldl_nil, h3]
      unfold digitsVal at i2
      rw [i2]; omega
    · intro hh
      obtain ⟨x, t, rfl⟩ := List.exists_cons_of_ne_nil i3
      simp only [List.cons_append, List.head?_cons, Option.some.injEq] at hh
      exact absurd (i4 (by simp [hh])).1 hn

theorem spanDigits_append {b : Bytes} (h : ∀ x ∈ b, 48 ≤ x ∧ x ≤ 57) {r : Bytes}
    (hr : r = [] ∨ ∃ c t, r = c :: t ∧ ¬ (48 ≤ c ∧ c ≤ 57)) : spanDigits (b ++ r) = (b, r) := by
  induction b with
  | nil =>
    rcases hr with rfl | ⟨c, t, rfl, hc⟩
    · rfl
    · rw [List.nil_append, spanDigits, if_neg hc]
  | cons x b ih =>
    have h1 := h x (List.mem_cons_self ..)
    rw [List.cons_append, spanDigits, if_pos h1, ih fun y hy => h y (List.mem_cons_of_mem _ hy)]

theorem stop_facts {r : Bytes} (h : Stop r) :
    (r = [] ∨ ∃ c t, r = c :: t ∧ ¬ (48 ≤ c ∧ c ≤ 57)) ∧ fraction r = some (false, r) ∧ exponent r = some (false, r) := by
  rcases h with rfl | ⟨b, t, rfl, hb⟩
  · exact ⟨.inl rfl, rfl, rfl⟩
  · have : ∀ b ∈ ([32, 9, 10, 13, 44, 93, 125] : List UInt8),
      ¬ (48 ≤ b ∧ b ≤ 57) ∧ b ≠ 46 ∧ ¬ (b = 101 ∨ b = 69) := by decide
    obtain ⟨h1, h2, h3⟩ := this b hb
    exact ⟨.inr ⟨b, t, rfl, h1⟩, by rw [fraction, if_neg h2], by simp only [exponent, h3, if_false]⟩

theorem number_dec {n : Nat} {b : Bytes} (h : Dec n b) (neg : Bool) {r : Bytes} (hr : Stop r) :
    number neg (b ++ r) = some (.int (if neg then -(n : Int) else n), r) := by
  obtain ⟨h1, h2, h3, h4⟩ := dec_digits h
  obtain ⟨s1, s2, s3⟩ := stop_facts hr
  unfold number
  rw [spanDigits_append h1 s1]
  dsimp only
  rw [if_neg, s2]
  · simp only [Option.bind_eq_bind, Option.bind_some, s3, h2]
    rfl
  · rintro (hc | ⟨hc, hl⟩)
    · exact h3 hc
    · exact hl (h4 hc).2

theorem digits_stop {ds : Bytes} (h : Digits ds) {r : Bytes} (hr : r = [] ∨ ∃ c t, r = c :: t ∧ ¬ (48 ≤ c ∧ c ≤ 57)) :
    spanDigits (ds ++ r) = (ds, r) ∧ ds ≠ [] := ⟨spanDigits_append h.2 hr, h.1⟩

theorem fraction_frac {t : Bytes} (h : Frac t) {r : Bytes} (hr : r = [] ∨ ∃ c t, r = c :: t ∧ ¬ (48 ≤ c ∧ c ≤ 57)) :
    fraction (t ++ r) = some (true, r) := by
  cases h with
  | mk ds hd =>
    obtain ⟨h1, h2⟩ := digits_stop hd hr
    rw [List.cons_append, fraction, if_pos rfl, h1, if_neg h2]

/-- The rest after an optional sign. -/
def dropSign : Bytes → Bytes
  | c :: r => if c = 43 ∨ c = 45 then r else c :: r
  | [] => []

theorem exponent_cons (e : UInt8) (r : Bytes) : exponent (e :: r) =
    if e = 101 ∨ e = 69 then (if (spanDigits (dropSign r)).1 = [] then none else some (true, (spanDigits (dropSign r)).2))
    else some (false, e :: r) := by
  cases r <;> rfl

theorem exponent_exp {t : Bytes} (h : Exp t) {r : Bytes} (hr : r = [] ∨ ∃ c t, r = c :: t ∧ ¬ (48 ≤ c ∧ c ≤ 57)) :
    exponent (t ++ r) = some (true, r) := by
  cases h with
  | mk e s ds he hs hd =>
    obtain ⟨h1, h2⟩ := digits_stop hd hr
    have he' : e = 101 ∨ e = 69 := by simpa using he
    have hsd : dropSign (s ++ (ds ++ r)) = ds ++ r := by
      simp only [List.mem_cons, List.not_mem_nil, or_false] at hs
      rcases hs with rfl | rfl | rfl
      · obtain ⟨x, t, rfl⟩ := List.exists_cons_of_ne_nil h2
        have hx := hd.2 x List.mem_cons_self
        have : ¬ (x = 43 ∨ x = 45) := by
          rintro (rfl | rfl)
          · exact absurd hx.1 (by decide)
          · exact absurd hx.1 (by decide)
        simp only [List.nil_append, List.cons_append, dropSign, this, if_false]
      · rfl
      · rfl
    rw [List.cons_append, List.append_assoc, exponent_cons, if_pos he', hsd, h1, if_neg h2]

theorem exp_head {t : Bytes} (h : Exp t) : ∃ c u, t = c :: u ∧ ¬ (48 ≤ c ∧ c ≤ 57) ∧ c ≠ 46 := by
  cases h with
  | mk e s ds he hs hd =>
    have : ∀ e ∈ ([101, 69] : List UInt8), ¬ (48 ≤ e ∧ e ≤ 57) ∧ e ≠ 46 := by decide
    exact ⟨e, _, rfl, this e he⟩

theorem number_float {n : Nat} {b t : Bytes} (h : Dec n b) (ht : Tail t) (neg : Bool) {r : Bytes} (hr : Stop r) :
    number neg (b ++ (t ++ r)) = some (.float, r) := by
  obtain ⟨h1, h2, h3, h4⟩ := dec_digits h
  obtain ⟨s1, s2, s3⟩ := stop_facts hr
  have hnd : t ++ r = [] ∨ ∃ c u, t ++ r = c :: u ∧ ¬ (48 ≤ c ∧ c ≤ 57) := by
    have hf : ∀ {f}, Frac f → ∀ y, ∃ c u, f ++ y = c :: u ∧ ¬ (48 ≤ c ∧ c ≤ 57) := by
      intro f hf y
      cases hf with
      | mk ds _ => exact ⟨46, _, rfl, by decide⟩
    cases ht with
    | frac _ hf' => exact .inr (hf hf' r)
    | exp _ he =>
      obtain ⟨c, u, rfl, hc, -⟩ := exp_head he
      exact .inr ⟨c, _, rfl, hc⟩
    | both f e hf' _ =>
      rw [List.append_assoc]
      exact .inr (hf hf' _)
  unfold number
  rw [spanDigits_append h1 hnd]
  dsimp only
  rw [if_neg (by
    rintro (hc | ⟨hc, hl⟩)
    · exact h3 hc
    · exact hl (h4 hc).2)]
  cases ht with
  | frac _ hf =>
    simp only [fraction_frac hf s1, Option.bind_eq_bind, Option.bind_some, s3]
    rfl
  | exp _ he =>
    have hfr : fraction (t ++ r) = some (false, t ++ r) := by
      obtain ⟨c, u, rfl, -, hc⟩ := exp_head he
      rw [List.cons_append, fraction, if_neg hc]
    simp only [hfr, exponent_exp he s1, Option.bind_eq_bind, Option.bind_some]
    rfl
  | both f e hf he =>
    have : e ++ r = [] ∨ ∃ c t, e ++ r = c :: t ∧ ¬ (48 ≤ c ∧ c ≤ 57) := by
      obtain ⟨c, u, rfl, hc, -⟩ := exp_head he
      exact .inr ⟨c, _, rfl, hc⟩
    simp only [List.append_assoc, fraction_frac hf this, exponent_exp he s1, Option.bind_eq_bind, Option.bind_some]
    rfl

theorem dec_head {n : Nat} {b : Bytes} (h : Dec n b) : ∃ x t, b = x :: t ∧ 48 ≤ x ∧ x ≤ 57 := by
  obtain ⟨h1, -, h3, -⟩ := dec_digits h
  obtain ⟨x, t, rfl⟩ := List.exists_cons_of_ne_nil h3
  exact ⟨x, t, rfl, h1 x (List.mem_cons_self ..)⟩

/-! ### values -/

theorem value_scalar {c : UInt8} (h1 : ¬ (c = 32 ∨ c = 10 ∨ c = 9 ∨ c = 13)) (h2 : c ≠ 91) (h3 : c ≠ 123)
    (d : Nat) {w : Bytes} (hw : Ws w) (t : Bytes) : value d (w ++ c :: t) = scalar (c :: t) := by
  cases d with
  | zero => rw [value, skipWs_append hw, skipWs_stop h1]; simp [h2, h3]
  | succ d => rw [value, skipWs_append hw, skipWs_stop h1]; simp [h2, h3]

theorem value_arr (d : Nat) {w : Bytes} (hw : Ws w) (t : Bytes) {e : UInt8} {t' : Bytes} (ht : skipWs t = e :: t') :
    value (d + 1) (w ++ 91 :: t) =
      if e = 93 then some (.arr [], t') else (elems (value d) t.length t).map fun x => (.arr x.1, x.2) := by
  rw [value, skipWs_append hw, skipWs_stop (by decide)]
  simp only [if_true, ht]

theorem value_obj (d : Nat) {w : Bytes} (hw : Ws w) (t : Bytes) {e : UInt8} {t' : Bytes} (ht : skipWs t = e :: t') :
    value (d + 1) (w ++ 123 :: t) =
      if e = 125 then some (.obj [], t') else (members (value d) t.length t).map fun x => (.obj x.1, x.2) := by
  rw [value, skipWs_append hw, skipWs_stop (by decide)]
  simp only [show ¬ (123 : UInt8) = 91 by decide, if_true, if_false, ht]

theorem digit_facts {x : UInt8} (h : 48 ≤ x ∧ x ≤ 57) :
    ¬ (x = 32 ∨ x = 10 ∨ x = 9 ∨ x = 13) ∧ x ≠ 91 ∧ x ≠ 123 ∧ x ≠ 93 ∧ x ≠ 110 ∧ x ≠ 116 ∧ x ≠ 102 ∧ x ≠ 34 ∧ x ≠ 45 := by
  have : ∀ b : Fin 256, (48 ≤ UInt8.ofNat b.val ∧ UInt8.ofNat b.val ≤ 57) →
    let x := UInt8.ofNat b.val
    ¬ (x = 32 ∨ x = 10 ∨ x = 9 ∨ x = 13) ∧ x ≠ 91 ∧ x ≠ 123 ∧ x ≠ 93 ∧ x ≠ 110 ∧ x ≠ 116 ∧ x ≠ 102 ∧ x ≠ 34 ∧ x ≠ 45 := by
    decide +kernel
  have k := this ⟨x.toNat, x.toNat_lt⟩
  simp only [UInt8.ofNat_toNat] at k
  exact k h

theorem text_head {d : Nat} {j : Json} {b : Bytes} (h : Text d j b) :
    ∃ x t, b = x :: t ∧ ¬ (x = 32 ∨ x = 10 ∨ x = 9 ∨ x = 13) ∧ x ≠ 93 := by
  cases h with
  | nat _ n b h =>
    obtain ⟨x, t, rfl, hx⟩ := dec_head h
    obtain ⟨h1, -, -, h2, -⟩ := digit_facts hx
    exact ⟨x, t, rfl, h1, h2⟩
  | float _ s n b t hs h =>
    obtain ⟨x, u, rfl, hx⟩ := dec_head h
    obtain ⟨h1, -, -, h2, -⟩ := digit_facts hx
    simp only [List.mem_cons, List.not_mem_nil, or_false] at hs
    rcases hs with rfl | rfl
    · exact ⟨x, u ++ t, rfl, h1, h2⟩
    · exact ⟨45, _, rfl, by decide, by decide⟩
  | _ => exact ⟨_, _, rfl, by decide, by decide⟩

theorem elems_head {d : Nat} {l : List Json} {b : Bytes} (h : Elems d l b) (r : Bytes) :
    ∃ x t, skipWs (b ++ r) = x :: t ∧ x ≠ 93 := by
  cases h with
  | one _ j w b w' hw ht _ =>
    obtain ⟨x, t, rfl, h1, h2⟩ := text_head ht
    exact ⟨x, t ++ (w' ++ r), by simp only [List.append_assoc, skipWs_append hw]; exact skipWs_stop h1 _, h2⟩
  | cons _ j l w b w' r' hw ht _ _ =>
    obtain ⟨x, t, rfl, h1, h2⟩ := text_head ht
    refine ⟨x, t ++ (w' ++ (44 :: (r' ++ r))), ?_, h2⟩
    simp only [List.append_assoc, skipWs_append hw]
    exact skipWs_stop h1 _

theorem members_head {d : Nat} {l : List (Option Str × Json)} {b : Bytes} (h : Members d l b) (r : Bytes) :
    ∃ t, skipWs (b ++ r) = 34 :: t := by
  cases h with
  | one _ k j w kb w1 w2 b w' hw =>
    simp only [List.append_assoc, skipWs_append hw]
    exact ⟨_, skipWs_stop (by decide) _⟩
  | cons _ k j l w kb w1 w2 b w' r' hw =>
    simp only [List.append_assoc, skipWs_append hw]
    exact ⟨_, skipWs_stop (by decide) _⟩

theorem stop_ws {w : Bytes} (hw : Ws w) {c : UInt8} (hc : c ∈ ([44, 93, 125] : List UInt8)) (r : Bytes) :
    Stop (w ++ c :: r) := by
  cases hw with
  | nil =>
    refine .inr ⟨c, r, rfl, ?_⟩
    have : ∀ c ∈ ([44, 93, 125] : List UInt8), c ∈ ([32, 9, 10, 13, 44, 93, 125] : List UInt8) := by decide
    exact this c hc
  | cons b w hb _ =>
    refine .inr ⟨b, w ++ c :: r, rfl, ?_⟩
    have : ∀ c ∈ ([32, 9, 10, 13] : List UInt8), c ∈ ([32, 9, 10, 13, 44, 93, 125] : List UInt8) := by decide
    exact this b hb

theorem stop_ws_end {w : Bytes} (hw : Ws w) : Stop w := by
  cases hw with
  | nil => exact .inl rfl
  | cons b w hb _ =>
    refine .inr ⟨b, w, rfl, ?_⟩
    have : ∀ c ∈ ([32, 9, 10, 13] : List UInt8), c ∈ ([32, 9, 10, 13, 44, 93, 125] : List UInt8) := by decide
    exact this b hb

theorem skipWs_then {w : Bytes} (hw : Ws w) {c : UInt8} (hc : ¬ (c = 32 ∨ c = 10 ∨ c = 9 ∨ c = 13)) (r : Bytes) :
    skipWs (w ++ c :: r) = c :: r := by rw [skipWs_append hw, skipWs_stop hc]

mutual
theorem text_value {d : Nat} {j : Json} {b : Bytes} (h : Text d j b) {w : Bytes} (hw : Ws w) {r : Bytes} (hr : Stop r) :
    value d (w ++ (b ++ r)) = some (j, r) := by
  cases h with
  | null => exact (value_scalar (c := 110) (by decide) (by decide) (by decide) d hw _)
  | tt => exact (value_scalar (c := 116) (by decide) (by decide) (by decide) d hw _)
  | ff => exact (value_scalar (c := 102) (by decide) (by decide) (by decide) d hw _)
  | nat _ n b h =>
    have hn := number_dec h false hr
    obtain ⟨x, t, rfl, hx⟩ := dec_head h
    obtain ⟨h1, h2, h3, -, h4, h5, h6, h7, h8⟩ := digit_facts hx
    rw [List.cons_append, value_scalar h1 h2 h3 d hw, scalar, if_neg h4, if_neg h5, if_neg h6, if_neg h7, if_neg h8]
    exact hn
  | neg _ n b h =>
    rw [List.cons_append, value_scalar (by decide) (by decide) (by decide) d hw]
    exact number_dec h true hr
  | float _ s n b t hs h ht =>
    simp only [List.mem_cons, List.not_mem_nil, or_false] at hs
    rcases hs with rfl | rfl
    · have hn := number_float h ht false hr
      obtain ⟨x, u, rfl, hx⟩ := dec_head h
      obtain ⟨h1, h2, h3, -, h4, h5, h6, h7, h8⟩ := digit_facts hx
      rw [List.nil_append, List.append_assoc, List.cons_append, value_scalar h1 h2 h3 d hw, scalar, if_neg h4, if_neg h5,
        if_neg h6, if_neg h7, if_neg h8]
      exact hn
    · rw [List.singleton_append, List.cons_append, value_scalar (by decide) (by decide) (by decide) d hw, List.append_assoc]
      exact number_float h ht true hr
  | str _ s b h =>
    obtain ⟨ps, h1, h2⟩ := literal_text h r
    rw [List.cons_append, value_scalar (by decide) (by decide) (by decide) d hw, List.append_assoc]
    show (lexStr (b ++ 34 :: r)).map _ = _
    rw [h1, Option.map_some, h2]
  | arr0 d w' h =>
    rw [List.cons_append, List.append_assoc, List.singleton_append, value_arr d hw (w' ++ 93 :: r) (skipWs_then h (by decide) r), if_pos rfl]
  | arr d l b h =>
    obtain ⟨x, t, h1, h2⟩ := elems_head h (93 :: r)
    rw [List.cons_append, List.append_assoc, List.singleton_append, value_arr d hw (b ++ 93 :: r) h1, if_neg h2,
      elems_read h _ (by simp) r]
    rfl
  | obj0 d w' h =>
    rw [List.cons_append, List.append_assoc, List.singleton_append, value_obj d hw (w' ++ 125 :: r) (skipWs_then h (by decide) r), if_pos rfl]
  | obj d l b h =>
    obtain ⟨t, h1⟩ := members_head h (125 :: r)
    rw [List.cons_append, List.append_assoc, List.singleton_append, value_obj d hw (b ++ 125 :: r) h1, if_neg (by decide),
      members_read h _ (by simp) r]
    rfl

theorem elems_read {d : Nat} {l : List Json} {b : Bytes} (h : Elems d l b) (n : Nat) (hn : b.length + 1 ≤ n) (r : Bytes) :
    elems (value d) n (b ++ 93 :: r) = some (l, r) := by
  obtain ⟨n, rfl⟩ : ∃ m, n = m + 1 := ⟨n - 1, by omega⟩
  cases h with
  | one _ j w b w' hw ht hw' =>
    rw [elems, List.append_assoc, List.append_assoc, text_value ht hw (stop_ws hw' (by decide) r)]
    simp only [Option.bind_eq_bind, Option.bind_some, skipWs_then hw' (c := 93) (by decide) r]
    rfl
  | cons _ j l w b w' r' hw ht hw' hl =>
    rw [elems, List.append_assoc, List.append_assoc, List.append_assoc,
      List.cons_append, text_value ht hw (stop_ws hw' (by decide) _)]
    simp only [Option.bind_eq_bind, Option.bind_some, skipWs_then hw' (c := 44) (by decide), if_true]
    rw [elems_read hl n (by simp at hn; omega) r]
    rfl

theorem members_read {d : Nat} {l : List (Option Str × Json)} {b : Bytes} (h : Members d l b) (n : Nat)
    (hn : b.length + 1 ≤ n) (r : Bytes) : members (value d) n (b ++ 125 :: r) = some (l, r) := by
  obtain ⟨n, rfl⟩ : ∃ m, n = m + 1 := ⟨n - 1, by omega⟩
  cases h with
  | one _ k j w kb w1 w2 b w' hw hk hw1 hw2 ht hw' =>
    obtain ⟨ps, h1, h2⟩ := literal_text hk (w1 ++ 58 :: (w2 ++ b ++ w' ++ 125 :: r))
    simp only [members, member, List.append_assoc, List.cons_append, skipWs_then hw (c := 34) (by decide), if_true] at h1 ⊢
    rw [h1]
    simp only [Option.bind_eq_bind, Option.bind_some, skipWs_then hw1 (c := 58) (by decide), if_true,
      text_value ht hw2 (stop_ws hw' (c := 125) (by decide) r), h2]
    simp only [Option.pure_def, Option.bind_some, skipWs_then hw' (c := 125) (by decide)]
    rfl
  | cons _ k j l w kb w1 w2 b w' r' hw hk hw1 hw2 ht hw' hl =>
    obtain ⟨ps, h1, h2⟩ := literal_text hk (w1 ++ 58 :: (w2 ++ b ++ w' ++ 44 :: (r' ++ 125 :: r)))
    simp only [members, member, List.append_assoc, List.cons_append, skipWs_then hw (c := 34) (by decide), if_true] at h1 ⊢
    rw [h1]
    simp only [Option.bind_eq_bind, Option.bind_some, skipWs_then hw1 (c := 58) (by decide), if_true,
      text_value ht hw2 (stop_ws hw' (c := 44) (by decide) _), h2]
    simp only [Option.pure_def, Option.bind_some, skipWs_then hw' (c := 44) (by decide), if_true,
      members_read hl n (by simp at hn; omega) r]
end

/-- Every JSON document is read as its value. -/
theorem parse_doc {j : Json} {b : Bytes} (h : Doc j b) : parse b = some j := by
  cases h with
  | mk w b w' hw ht hw' =>
    rw [parse, List.append_assoc, text_value ht hw (stop_ws_end hw')]
    simp [skipWs_ws hw']

/-! ### nothing else is read -/

theorem skipWs_inv (b : Bytes) : ∃ w, Ws w ∧ b = w ++ skipWs b := by
  induction b with
  | nil => exact ⟨[], .nil, rfl⟩
  | cons x b ih =>
    obtain ⟨w, hw, hb⟩ := ih
    rw [skipWs]
    split
    · rename_i hx
      exact ⟨x :: w, .cons x w ((isWs_iff x).mpr hx) hw, by rw [List.cons_append, ← hb]⟩
    · exact ⟨[], .nil, rfl⟩

theorem spanDigits_inv (b : Bytes) : b = (spanDigits b).1 ++ (spanDigits b).2 ∧ ∀ x ∈ (spanDigits b).1, 48 ≤ x ∧ x ≤ 57 := by
  induction b with
  | nil => exact ⟨rfl, by simp [spanDigits]⟩
  | cons x b ih =>
    rw [spanDigits]
    split
    · rename_i hx
      refine ⟨by rw [List.cons_append, ← ih.1], fun y hy => ?_⟩
      rcases List.mem_cons.mp hy with rfl | hy
      · exact hx
      · exact ih.2 y hy
    · exact ⟨rfl, by simp⟩

theorem dec_of_digits (ds : Bytes) (h : ∀ x ∈ ds, 48 ≤ x ∧ x ≤ 57) (hne : ds ≠ [])
    (h0 : ds.head? = some 48 → ds.length = 1) : Dec (digitsVal ds) ds ∧ (ds.head? ≠ some 48 → digitsVal ds ≠ 0) := by
  obtain ⟨n, hn⟩ : ∃ n, ds.length = n := ⟨_, rfl⟩
  induction n generalizing ds with
  | zero => exact absurd (List.length_eq_zero_iff.mp hn) hne
  | succ n ih =>
    obtain ⟨l, x, rfl⟩ : ∃ l x, ds = l ++ [x] := ⟨ds.dropLast, ds.getLast hne, (List.dropLast_concat_getLast hne).symm⟩
    have hx := h x (by simp)
    rw [UInt8.le_iff_toNat_le, UInt8.le_iff_toNat_le] at hx
    simp only [UInt8.reduceToNat] at hx
    have hxe : UInt8.ofNat (48 + (x.toNat - 48)) = x := by
      rw [show 48 + (x.toNat - 48) = x.toNat by omega, UInt8.ofNat_toNat]
    have hv : digitsVal (l ++ [x]) = 10 * digitsVal l + (x.toNat - 48) := by
      simp only [digitsVal, List.foldl_append, List.foldl_cons, List.foldl_nil]
      omega
    cases l with
    | nil =>
      have hv' : digitsVal ([] ++ [x]) = x.toNat - 48 := by rw [hv]; simp [digitsVal]
      refine ⟨?_, fun hh hc => hh ?_⟩
      · have := Dec.one (x.toNat - 48) (by omega)
        rw [hxe] at this
        rw [hv']
        exact this
      · rw [hv'] at hc
        have : x = 48 := UInt8.toNat_inj.mp (by simp only [UInt8.reduceToNat]; omega)
        rw [this]; rfl
    | cons y l =>
      have hhead : (y :: l).head? ≠ some 48 := by
        intro hh
        have := h0 (by simpa using hh)
        simp at this
      obtain ⟨i1, i2⟩ := ih (y :: l) (fun z hz => h z (List.mem_append_left _ hz)) (by simp) (fun hh => absurd hh hhead)
        (by simpa using hn)
      have i3 := i2 hhead
      refine ⟨?_, fun _ => by rw [hv]; omega⟩
      have := Dec.more _ (x.toNat - 48) _ i3 (by omega) i1
      rw [hxe] at this
      rw [hv]
      exact this

theorem fraction_inv {b r : Bytes} {f : Bool} (h : fraction b = some (f, r)) :
    (f = false ∧ b = r) ∨ (f = true ∧ ∃ t, b = t ++ r ∧ Frac t) := by
  unfold fraction at h
  split at h
  · rename_i x u
    split at h
    · rename_i hx
      subst hx
      split at h
      · cases h
      · rename_i hne
        cases h
        obtain ⟨e, hd⟩ := spanDigits_inv u
        exact .inr ⟨rfl, 46 :: (spanDigits u).1, by rw [List.cons_append, ← e], .mk _ ⟨hne, hd⟩⟩
    · cases h
      exact .inl ⟨rfl, rfl⟩
  · cases h
    exact .inl ⟨rfl, rfl⟩

theorem exponent_inv {b r : Bytes} {f : Bool} (h : exponent b = some (f, r)) :
    (f = false ∧ b = r) ∨ (f = true ∧ ∃ t, b = t ++ r ∧ Exp t) := by
  cases b with
  | cons x u =>
    rw [exponent_cons] at h
    split at h
    · rename_i hx
      have hx' : x ∈ ([101, 69] : List UInt8) := by simpa using hx
      obtain ⟨s, u', hs, hu, hm⟩ : ∃ s u', s ∈ ([[], [43], [45]] : List Bytes) ∧ u = s ++ u' ∧ dropSign u = u' := by
        cases u with
        | nil => exact ⟨[], [], by simp, rfl, rfl⟩
        | cons c v =>
          by_cases hc : c = 43 ∨ c = 45
          · refine ⟨[c], v, ?_, rfl, by simp only [dropSign, hc, if_true]⟩
            rcases hc with rfl | rfl <;> simp
          · exact ⟨[], c :: v, by simp, rfl, by simp only [dropSign, hc, if_false]⟩
      rw [hm] at h
      split at h
      · cases h
      · rename_i hne
        cases h
        obtain ⟨e, hd⟩ := spanDigits_inv u'
        refine .inr ⟨rfl, x :: (s ++ (spanDigits u').1), ?_, .mk _ _ _ hx' hs ⟨hne, hd⟩⟩
        rw [hu, List.cons_append, List.append_assoc, ← e]
    · cases h
      exact .inl ⟨rfl, rfl⟩
  | nil =>
    cases h
    exact .inl ⟨rfl, rfl⟩

theorem number_inv {neg : Bool} {b r : Bytes} {j : Json} (h : number neg b = some (j, r)) :
    (∃ n t, b = t ++ r ∧ Dec n t ∧ j = .int (if neg then -(n : Int) else n)) ∨
    (∃ n t u, b = t ++ u ++ r ∧ Dec n t ∧ Tail u ∧ j = .float) := by
  unfold number at h
  dsimp only at h
  split at h
  · cases h
  rename_i hc
  obtain ⟨e, hd⟩ := spanDigits_inv b
  have hdec := (dec_of_digits (spanDigits b).1 hd (fun h => hc (.inl h)) (fun h => by
    by_cases hl : (spanDigits b).1.length = 1
    · exact hl
    · exact absurd (.inr ⟨h, hl⟩) hc)).1
  simp only [Option.bind_eq_bind, Option.bind_eq_some_iff, Option.pure_def] at h
  obtain ⟨⟨f, r1⟩, hf, ⟨g, r2⟩, hg, h⟩ := h
  dsimp only at hg h
  rcases fraction_inv hf with ⟨rfl, e1⟩ | ⟨rfl, t, e1, ht⟩
  · rcases exponent_inv hg with ⟨rfl, e2⟩ | ⟨rfl, u, e2, hu⟩
    · simp only [Bool.false_eq_true, or_self, if_false, Option.some.injEq, Prod.mk.injEq] at h
      obtain ⟨rfl, rfl⟩ := h
      exact .inl ⟨_, _, by rw [← e2, ← e1]; exact e, hdec, rfl⟩
    · simp only [or_true, if_true, Option.some.injEq, Prod.mk.injEq] at h
      obtain ⟨rfl, rfl⟩ := h
      exact .inr ⟨_, _, u, by rw [List.append_assoc, ← e2, ← e1]; exact e, hdec, .exp _ hu, rfl⟩
  · simp only [true_or, if_true, Option.some.injEq, Prod.mk.injEq] at h
    obtain ⟨rfl, rfl⟩ := h
    rcases exponent_inv hg with ⟨rfl, e2⟩ | ⟨rfl, u, e2, hu⟩
    · exact .inr ⟨_, _, t, by rw [List.append_assoc, ← e2, ← e1]; exact e, hdec, .frac _ ht, rfl⟩
    · exact .inr ⟨_, _, t ++ u, by rw [List.append_assoc, List.append_assoc, ← e2, ← e1]; exact e, hdec, .both _ _ ht hu, rfl⟩

theorem keyword_inv {k b r : Bytes} (h : keyword k b = some r) : b = k ++ r := by
  induction k generalizing b with
  | nil => cases h; rfl
  | cons x k ih =>
    cases b with
    | nil => cases h
    | cons y b =>
      rw [keyword] at h
      split at h
      · rename_i hx
        rw [List.cons_append, ← ih h, hx]
      · cases h

theorem scalar_inv {b r : Bytes} {j : Json} (d : Nat) (h : scalar b = some (j, r)) : ∃ t, b = t ++ r ∧ Text d j t := by
  unfold scalar at h
  split at h
  · cases h
  rename_i x u
  split at h
  · rename_i hx
    simp only [Option.map_eq_some_iff, Prod.mk.injEq] at h
    obtain ⟨r', h1, rfl, rfl⟩ := h
    exact ⟨_, by rw [keyword_inv h1, hx]; rfl, .null d⟩
  split at h
  · rename_i hx
    simp only [Option.map_eq_some_iff, Prod.mk.injEq] at h
    obtain ⟨r', h1, rfl, rfl⟩ := h
    exact ⟨_, by rw [keyword_inv h1, hx]; rfl, .tt d⟩
  split at h
  · rename_i hx
    simp only [Option.map_eq_some_iff, Prod.mk.injEq] at h
    obtain ⟨r', h1, rfl, rfl⟩ := h
    exact ⟨_, by rw [keyword_inv h1, hx]; rfl, .ff d⟩
  split at h
  · rename_i hx
    simp only [Option.map_eq_some_iff, Prod.mk.injEq] at h
    obtain ⟨⟨ps, r'⟩, h1, rfl, rfl⟩ := h
    obtain ⟨b, e, hb⟩ := literal_of_lex h1
    exact ⟨_, by rw [e, hx]; simp, .str d _ b hb⟩
  split at h
  · rename_i hx
    rcases number_inv h with ⟨n, t, e, hd, rfl⟩ | ⟨n, t, v, e, hd, hv, rfl⟩
    · exact ⟨_, by rw [e, hx]; rfl, .neg d n t hd⟩
    · exact ⟨_, by rw [e, hx]; simp, .float d [45] n t v (by simp) hd hv⟩
  · rcases number_inv h with ⟨n, t, e, hd, rfl⟩ | ⟨n, t, v, e, hd, hv, rfl⟩
    · exact ⟨_, e, .nat d n t hd⟩
    · exact ⟨_, by rw [e]; simp, .float d [] n t v (by simp) hd hv⟩

/-- What a reader of values accepts is a value, with white space before it. -/
def Reads (d : Nat) (p : Bytes → Option (Json × Bytes)) : Prop :=
  ∀ {b j r}, p b = some (j, r) → ∃ w t, Ws w ∧ Text d j t ∧ b = w ++ (t ++ r)

theorem elems_inv {d : Nat} {p : Bytes → Option (Json × Bytes)} (hp : Reads d p) {n : Nat} {b r : Bytes} {l : List Json}
    (h : elems p n b = some (l, r)) : ∃ t, b = t ++ 93 :: r ∧ Elems d l t := by
  induction n generalizing b l with
  | zero => cases h
  | succ n ih =>
    simp only [elems, Option.bind_eq_bind, Option.bind_eq_some_iff] at h
    obtain ⟨⟨j, r1⟩, hj, h⟩ := h
    obtain ⟨w, t, hw, ht, rfl⟩ := hp hj
    obtain ⟨w', hw', e'⟩ := skipWs_inv r1
    dsimp only at h
    split at h
    · rename_i c r2 hc
      rw [hc] at e'
      split at h
      · rename_i hc'
        subst hc'
        simp only [Option.bind_eq_some_iff, Option.pure_def, Option.some.injEq, Prod.mk.injEq] at h
        obtain ⟨⟨l', r3⟩, hl, rfl, rfl⟩ := h
        obtain ⟨t', rfl, ht'⟩ := ih hl
        exact ⟨_, by rw [e']; simp, .cons d j l' w t w' t' hw ht hw' ht'⟩
      split at h
      · rename_i hc'
        subst hc'
        simp only [Option.some.injEq, Prod.mk.injEq] at h
        obtain ⟨rfl, rfl⟩ := h
        exact ⟨_, by rw [e']; simp, .one d j w t w' hw ht hw'⟩
      · cases h
    · cases h

theorem members_inv {d : Nat} {p : Bytes → Option (Json × Bytes)} (hp : Reads d p) {n : Nat} {b r : Bytes}
    {l : List (Option Str × Json)} (h : members p n b = some (l, r)) : ∃ t, b = t ++ 125 :: r ∧ Members d l t := by
  induction n generalizing b l with
  | zero => cases h
  | succ n ih =>
    simp only [members, Option.bind_eq_bind, Option.bind_eq_some_iff] at h
    obtain ⟨⟨m, r1⟩, hm, h⟩ := h
    obtain ⟨w', hw', e'⟩ := skipWs_inv r1
    unfold member at hm
    obtain ⟨w, hw, e⟩ := skipWs_inv b
    split at hm
    · rename_i q u hq
      rw [hq] at e
      split at hm
      · rename_i hq'
        subst hq'
        simp only [Option.bind_eq_bind, Option.bind_eq_some_iff] at hm
        obtain ⟨⟨ps, u1⟩, hps, hm⟩ := hm
        obtain ⟨kb, rfl, hkb⟩ := literal_of_lex hps
        obtain ⟨w1, hw1, e1⟩ := skipWs_inv u1
        dsimp only at hm
        split at hm
        · rename_i c u2 hc
          rw [hc] at e1
          split at hm
          · rename_i hc'
            subst hc'
            simp only [Option.bind_eq_some_iff, Option.pure_def, Option.some.injEq, Prod.mk.injEq] at hm
            obtain ⟨⟨j, u3⟩, hj, rfl, rfl⟩ := hm
            obtain ⟨w2, t, hw2, ht, rfl⟩ := hp hj
            dsimp only at h e'
            split at h
            · rename_i c r2 hc2
              rw [hc2] at e'
              split at h
              · rename_i hc'
                subst hc'
                simp only [Option.bind_eq_some_iff, Option.pure_def, Option.some.injEq, Prod.mk.injEq] at h
                obtain ⟨⟨l', r3⟩, hl, rfl, rfl⟩ := h
                obtain ⟨t', rfl, ht'⟩ := ih hl
                exact ⟨_, by rw [e, e1, e']; simp, .cons d _ j l' w kb w1 w2 t w' t' hw hkb hw1 hw2 ht hw' ht'⟩
              split at h
              · rename_i hc'
                subst hc'
                simp only [Option.some.injEq, Prod.mk.injEq] at h
                obtain ⟨rfl, rfl⟩ := h
                exact ⟨_, by rw [e, e1, e']; simp, .one d _ j w kb w1 w2 t w' hw hkb hw1 hw2 ht hw'⟩
              · cases h
            · cases h
          · cases hm
        · cases hm
      · cases hm
    · cases hm

theorem value_inv (d : Nat) : Reads d (value d) := by
  induction d with
  | zero =>
    intro b j r h
    obtain ⟨w, hw, e⟩ := skipWs_inv b
    rw [value] at h
    split at h
    · rename_i c u hc
      rw [hc] at e
      split at h
      · cases h
      · obtain ⟨t, e2, ht⟩ := scalar_inv 0 h
        exact ⟨w, t, hw, ht, by rw [e, e2]⟩
    · cases h
  | succ d ih =>
    intro b j r h
    obtain ⟨w, hw, e⟩ := skipWs_inv b
    rw [value] at h
    split at h
    · rename_i c u hc
      rw [hc] at e
      obtain ⟨w1, hw1, e1⟩ := skipWs_inv u
      split at h
      · rename_i hc'
        subst hc'
        split at h
        · rename_i x r' hx
          rw [hx] at e1
          split at h
          · rename_i hx'
            subst hx'
            simp only [Option.some.injEq, Prod.mk.injEq] at h
            obtain ⟨rfl, rfl⟩ := h
            exact ⟨w, _, hw, .arr0 d w1 hw1, by rw [e, e1]; simp⟩
          · simp only [Option.map_eq_some_iff, Prod.mk.injEq] at h
            obtain ⟨⟨l, r2⟩, hl, rfl, rfl⟩ := h
            obtain ⟨t, e2, ht⟩ := elems_inv ih hl
            exact ⟨w, _, hw, .arr d l t ht, by rw [e, e2]; simp⟩
        · cases h
      split at h
      · rename_i hc'
        subst hc'
        split at h
        · rename_i x r' hx
          rw [hx] at e1
          split at h
          · rename_i hx'
            subst hx'
            simp only [Option.some.injEq, Prod.mk.injEq] at h
            obtain ⟨rfl, rfl⟩ := h
            exact ⟨w, _, hw, .obj0 d w1 hw1, by rw [e, e1]; simp⟩
          · simp only [Option.map_eq_some_iff, Prod.mk.injEq] at h
            obtain ⟨⟨l, r2⟩, hl, rfl, rfl⟩ := h
            obtain ⟨t, e2, ht⟩ := members_inv ih hl
            exact ⟨w, _, hw, .obj d l t ht, by rw [e, e2]; simp⟩
        · cases h
      · obtain ⟨t, e2, ht⟩ := scalar_inv (d + 1) h
        exact ⟨w, t, hw, ht, by rw [e, e2]⟩
    · cases h

/-- What is read is a JSON document of that value. -/
theorem doc_parse {j : Json} {b : Bytes} (h : parse b = some j) : Doc j b := by
  simp only [parse, Option.bind_eq_bind, Option.bind_eq_some_iff] at h
  obtain ⟨⟨j', r⟩, hv, h⟩ := h
  obtain ⟨w, t, hw, ht, rfl⟩ := value_inv 127 hv
  obtain ⟨w', hw', e⟩ := skipWs_inv r
  dsimp only at h
  split at h
  · rename_i hr
    cases h
    rw [hr, List.append_nil] at e
    rw [e, ← List.append_assoc]
    exact .mk j w t w' hw ht hw'
  · cases h

/-! ### the writer -/

theorem hexDigit_hex (n : Nat) (h : n < 16) : Hex n (hexDigit n) := by
  unfold hexDigit
  split
  · rename_i h1; exact .dec n h1
  · have : Hex (10 + (n - 10)) (UInt8.ofNat (97 + (n - 10))) := .low (n - 10) (by omega)
    rwa [show 10 + (n - 10) = n by omega, show 97 + (n - 10) = 87 + n by omega] at this

theorem escape_high {b : UInt8} (h : 128 ≤ b.toNat) : escape b = [b] := by
  have hne : ∀ n, n < 128 → b ≠ UInt8.ofNat n := fun n hn => u8_ne (by omega) (by omega)
  unfold escape
  rw [if_neg (show b ≠ 34 from hne 34 (by decide)), if_neg (show b ≠ 92 from hne 92 (by decide)), if_neg (show b ≠ 8 from hne 8 (by decide)), if_neg (show b ≠ 9 from hne 9 (by decide)),
    if_neg (show b ≠ 10 from hne 10 (by decide)), if_neg (show b ≠ 12 from hne 12 (by decide)), if_neg (show b ≠ 13 from hne 13 (by decide)), if_neg]
  rw [UInt8.lt_iff_toNat_lt]
  show ¬ _ < 32
  omega

theorem escape_low : ∀ n : Fin 128, n.val = 34 ∨ n.val = 92 ∨ n.val = 8 ∨ n.val = 9 ∨ n.val = 10 ∨ n.val = 12 ∨ n.val = 13 ∨
    (n.val < 32 ∧ escape (UInt8.ofNat n.val) = [92, 117, 48, 48, hexDigit (n.val / 16), hexDigit (n.val % 16)]) ∨
    (32 ≤ n.val ∧ escape (UInt8.ofNat n.val) = [UInt8.ofNat n.val]) := by decide +kernel

theorem chars_escape (s : Str) : Chars s ((Str.utf8 s).flatMap escape) := by
  induction s with
  | nil => exact .nil
  | cons c s ih =>
    rw [Str.utf8_cons, List.flatMap_append]
    rcases Nat.lt_or_ge c.toNat 128 with h | h
    · rw [utf8_ascii c h, List.flatMap_singleton]
      have short : ∀ (n : Nat) (e : UInt8), c.toNat = n → (e, Char.ofNat n) ∈ shortEscapes →
          escape (UInt8.ofNat n) = [92, e] → Chars (c :: s) (escape (UInt8.ofNat c.toNat) ++ (Str.utf8 s).flatMap escape) := by
        intro n e hn hm he
        have hc : c = Char.ofNat n := by rw [← hn, Char.ofNat_toNat]
        rw [hn, he, hc]
        exact .short e _ s _ hm ih
      rcases escape_low ⟨c.toNat, h⟩ with h1 | h1 | h1 | h1 | h1 | h1 | h1 | ⟨h1, h2⟩ | ⟨h1, h2⟩
      · exact short 34 34 h1 (by decide) (by decide)
      · exact short 92 92 h1 (by decide) (by decide)
      · exact short 8 98 h1 (by decide) (by decide)
      · exact short 9 116 h1 (by decide) (by decide)
      · exact short 10 110 h1 (by decide) (by decide)
      · exact short 12 102 h1 (by decide) (by decide)
      · exact short 13 114 h1 (by decide) (by decide)
      · dsimp only at h1 h2
        rw [h2]
        have hh : Hex4 c.toNat [48, 48, hexDigit (c.toNat / 16), hexDigit (c.toNat % 16)] := by
          have := Hex4.mk 0 0 (c.toNat / 16) (c.toNat % 16) _ _ _ _ (.dec 0 (by decide)) (.dec 0 (by decide))
            (hexDigit_hex (c.toNat / 16) (by omega)) (hexDigit_hex (c.toNat % 16) (by omega))
          rwa [show 4096 * 0 + 256 * 0 + 16 * (c.toNat / 16) + c.toNat % 16 = c.toNat by omega] at this
        exact .uni c _ s _ hh ih
      · dsimp only at h1 h2
        by_cases hq : c = '"'
        · exact short 34 34 (by rw [hq]; rfl) (by decide) (by decide)
        by_cases hb : c = '\\'
        · exact short 92 92 (by rw [hb]; rfl) (by decide) (by decide)
        rw [h2, ← utf8_ascii c h]
        exact .raw c s _ h1 hq hb ih
    · have : (String.utf8EncodeChar c).flatMap escape = String.utf8EncodeChar c := by
        have hb := utf8_high_all c h
        generalize String.utf8EncodeChar c = l at hb
        induction l with
        | nil => rfl
        | cons b l ih2 =>
          rw [List.flatMap_cons, escape_high (hb b (List.mem_cons_self ..)), ih2 fun x hx => hb x (List.mem_cons_of_mem _ hx)]
          rfl
      rw [this]
      refine .raw c s _ (by omega) ?_ ?_ ih
      · rintro rfl; exact absurd h (by decide)
      · rintro rfl; exact absurd h (by decide)

theorem writeStr_text (d : Nat) (s : Str) : Text d (.str (some s)) (writeStr s) := by
  have := Text.str d _ _ (.text _ _ (chars_escape s))
  simpa [writeStr] using this

theorem writeNat_dec (n : Nat) : Dec n (writeNat n) := by
  induction n using Nat.strongRecOn with
  | _ n ih =>
    rw [writeNat]
    split
    · rename_i h; exact .one n h
    · have := Dec.more (n / 10) (n % 10) _ (by omega) (by omega) (ih (n / 10) (by omega))
      rwa [show 10 * (n / 10) + n % 10 = n by omega] at this

theorem writeNat_text (d n : Nat) : Text d (.int n) (writeNat n) := .nat d n _ (writeNat_dec n)

theorem writeNull_text (d : Nat) : Text d .null writeNull := .null d

theorem commas_elems {α : Type} (d : Nat) (f : α → Bytes) (g : α → Json) (l : List α) (hl : l ≠ [])
    (h : ∀ x ∈ l, Text d (g x) (f x)) : Elems d (l.map g) (commas (l.map f)) := by
  induction l with
  | nil => exact absurd rfl hl
  | cons x l ih =>
    have hx := h x (List.mem_cons_self ..)
    cases l with
    | nil =>
      have := Elems.one d (g x) [] (f x) [] .nil hx .nil
      simpa [commas] using this
    | cons y l =>
      have := Elems.cons d (g x) _ [] (f x) [] _ .nil hx .nil (ih (by simp) fun z hz => h z (List.mem_cons_of_mem _ hz))
      simpa [commas] using this

theorem writeArr_text {α : Type} (d : Nat) (f : α → Bytes) (g : α → Json) (l : List α)
    (h : ∀ x ∈ l, Text d (g x) (f x)) : Text (d + 1) (.arr (l.map g)) (writeArr (l.map f)) := by
  cases l with
  | nil => exact .arr0 d [] .nil
  | cons x l => simpa [writeArr] using Text.arr d _ _ (commas_elems d f g (x :: l) (by simp) h)

theorem commas_members {α : Type} (d : Nat) (k : α → Str) (f : α → Bytes) (g : α → Json) (l : List α) (hl : l ≠ [])
    (h : ∀ x ∈ l, Text d (g x) (f x)) :
    Members d (l.map fun x => (some (k x), g x)) (commas (l.map fun x => writeStr (k x) ++ [58] ++ f x)) := by
  induction l with
  | nil => exact absurd rfl hl
  | cons x l ih =>
    have hx := h x (List.mem_cons_self ..)
    cases l with
    | nil =>
      have := Members.one d (k x) (g x) [] _ [] [] (f x) [] .nil (.text _ _ (chars_escape (k x))) .nil .nil hx .nil
      simpa [commas, writeStr] using this
    | cons y l =>
      have := Members.cons d (k x) (g x) _ [] _ [] [] (f x) [] _ .nil (.text _ _ (chars_escape (k x))) .nil .nil hx .nil
        (ih (by simp) fun z hz => h z (List.mem_cons_of_mem _ hz))
      simpa [commas, writeStr] using this

theorem writeObj_text {α : Type} (d : Nat) (k : α → Str) (f : α → Bytes) (g : α → Json) (l : List α)
    (h : ∀ x ∈ l, Text d (g x) (f x)) :
    Text (d + 1) (.obj (l.map fun x => (some (k x), g x))) (writeObj (l.map fun x => (k x, f x))) := by
  cases l with
  | nil => exact .obj0 d [] .nil
  | cons x l =>
    have := Text.obj d _ _ (commas_members d k f g (x :: l) (by simp) h)
    simpa [writeObj, List.map_map, Function.comp_def] using this

/-- A text without white space around it is a document. -/
theorem doc_of_text {j : Json} {b : Bytes} (h : Text 127 j b) : Doc j b := by
  simpa using Doc.mk j [] b [] .nil h .nil

end KC.Json
