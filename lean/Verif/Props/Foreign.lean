import Verif.Props.Manager
import Verif.Proofs.Sizes
import Verif.Spec.Compact
import Verif.Props.Load
/-
C97: what changing the password and adding networks keep of a wallet that another program wrote.
-/
namespace KC.Props
open KC.Manager KC.Data KC.Spec KC.Spec.Wallet KC.Spec.Data KC.Spec.Crypt
open KC.Mnemonic (Language)

/-! ### the text -/

theorem escaped_low : ∀ n : Fin 128, Json.escape (UInt8.ofNat n.val) = Str.utf8 (Compact.escaped (Char.ofNat n.val)) := by
  decide +kernel

theorem escaped_char (c : Char) : (String.utf8EncodeChar c).flatMap Json.escape = Str.utf8 (Compact.escaped c) := by
  rcases Nat.lt_or_ge c.toNat 128 with h | h
  · rw [utf8_ascii c h, List.flatMap_singleton]
    have := escaped_low ⟨c.toNat, h⟩
    rwa [Char.ofNat_toNat] at this
  · have e : Compact.escaped c = [c] := by
      unfold Compact.escaped
      have h1 : c ≠ '"' := by rintro rfl; exact absurd h (by decide)
      have h2 : c ≠ '\\' := by rintro rfl; exact absurd h (by decide)
      rw [if_neg h1, if_neg h2, if_neg (by omega), if_neg (by omega), if_neg (by omega), if_neg (by omega), if_neg (by omega),
        if_neg (by omega)]
    rw [e]
    have hb := Json.utf8_high_all c h
    have : ∀ l : Bytes, (∀ b ∈ l, 128 ≤ b.toNat) → l.flatMap Json.escape = l := by
      intro l
      induction l with
      | nil => intro; rfl
      | cons b l ih =>
        intro hl
        rw [List.flatMap_cons, Json.escape_high (hl b List.mem_cons_self), ih fun x hx => hl x (List.mem_cons_of_mem _ hx)]
        rfl
    rw [this _ hb]
    simp [Str.utf8]

theorem writeStr_quoted (s : Str) : Json.writeStr s = Str.utf8 (Compact.quoted s) := by
  have : (Str.utf8 s).flatMap Json.escape = Str.utf8 (s.flatMap Compact.escaped) := by
    induction s with
    | nil => rfl
    | cons c s ih => rw [Str.utf8_cons, List.flatMap_append, ih, escaped_char, List.flatMap_cons, Str.utf8_append]
  rw [Json.writeStr, this, Compact.quoted, Str.utf8_append, Str.utf8_append]
  rfl

theorem quoted_plain {s : Str} (h : ∀ c ∈ s, c.toNat ≠ 34 ∧ c.toNat ≠ 92 ∧ 32 ≤ c.toNat) :
    Compact.quoted s = ['"'] ++ s ++ ['"'] := by
  have : s.flatMap Compact.escaped = s := by
    induction s with
    | nil => rfl
    | cons c s ih =>
      obtain ⟨h1, h2, h3⟩ := h c List.mem_cons_self
      have e1 : c ≠ '"' := by rintro rfl; exact h1 rfl
      have e2 : c ≠ '\\' := by rintro rfl; exact h2 rfl
      have e : Compact.escaped c = [c] := by
        unfold Compact.escaped
        rw [if_neg e1, if_neg e2, if_neg (by omega), if_neg (by omega), if_neg (by omega), if_neg (by omega), if_neg (by omega),
          if_neg (by omega)]
      rw [List.flatMap_cons, e, ih fun x hx => h x (List.mem_cons_of_mem _ hx)]
      rfl
  rw [Compact.quoted, this]

theorem writeBytes_text (b : Bytes) : writeBytes b = Str.utf8 (Compact.bytes b) := by
  rw [writeBytes, writeStr_quoted, quoted_plain, Base64.encode_rfc, Compact.bytes]
  intro c hc
  have := Sizes.encode_char b c hc
  exact ⟨this.1, this.2.1, this.2.2.1⟩

theorem writeNat_digits (n : Nat) : Json.writeNat n = Str.utf8 (Nat.toDigits 10 n) := by
  have dig : ∀ n < 10, Str.utf8 [Nat.digitChar n] = [UInt8.ofNat (48 + n)] := by decide +kernel
  induction n using Nat.strongRecOn with
  | ind n ih =>
    rw [Json.writeNat]
    split
    · rename_i h
      rw [Nat.toDigits_of_lt_base h, dig n h]
    · rename_i h
      have e := Nat.toDigits_append_toDigits (b := 10) (n := n / 10) (d := n % 10) (by decide) (by omega) (by omega)
      rw [Nat.div_add_mod] at e
      rw [ih (n / 10) (by omega), ← e, Str.utf8_append, Nat.toDigits_of_lt_base (by omega : n % 10 < 10), dig _ (by omega)]

theorem commas_intercalate (l : List Str) : Json.commas (l.map Str.utf8) = Str.utf8 (List.intercalate [','] l) := by
  induction l with
  | nil => rfl
  | cons a l ih =>
    cases l with
    | nil => simp [Json.commas, List.intercalate]
    | cons b l =>
      rw [List.map_cons, List.map_cons, Json.commas, ← List.map_cons, ih]
      · simp only [List.intercalate, List.intersperse_cons_cons, List.flatten_cons, Str.utf8_append]
        rw [List.append_assoc]
        rfl
      · simp

theorem opt_null {α : Type} (f : α → Bytes) (g : α → Str) (h : ∀ a, f a = Str.utf8 (g a)) (o : Option α) :
    writeOpt f o = Str.utf8 (Compact.orNull g o) := by
  cases o with
  | none => rfl
  | some a => exact h a

theorem marks : Str.utf8 ['{'] = [123] ∧ Str.utf8 ['}'] = [125] ∧ Str.utf8 [':'] = [58] ∧ Str.utf8 [','] = [44] ∧
    Str.utf8 ['['] = [91] ∧ Str.utf8 [']'] = [93] ∧ Str.utf8 ['2'] = [50] ∧ Json.writeNat 2 = [50] := by decide +kernel

theorem content_text (it : Iter (Network × Bytes)) (w : WalletV2) :
    w.toVec it = Str.utf8 (Compact.content w.seed w.mnemonic w.dictionary (it.order w.keys.entries)) := by
  have hk : writeKeys it w.keys = Str.utf8 (['['] ++ List.intercalate [','] ((it.order w.keys.entries).map Compact.key) ++ [']']) := by
    have : ((it.order w.keys.entries).map fun e => Json.writeArr [Json.writeNat e.1.toNat, writeBytes e.2]) =
        ((it.order w.keys.entries).map Compact.key).map Str.utf8 := by
      rw [List.map_map]
      refine List.map_congr_left fun e _ => ?_
      show [91] ++ (Json.writeNat e.1.toNat ++ [44] ++ writeBytes e.2) ++ [93] = _
      rw [writeNat_digits, writeBytes_text]
      simp only [Function.comp, Compact.key, Str.utf8_append, List.append_assoc, marks]
    rw [writeKeys, this, Json.writeArr, commas_intercalate, Str.utf8_append, Str.utf8_append, marks.2.2.2.2.1, marks.2.2.2.2.2.1]
  have hl : ∀ l, Json.writeStr (languageName l) = Str.utf8 (['"'] ++ (langName l).toList ++ ['"']) := by
    intro l
    rw [languageName_eq, writeStr_quoted, quoted_plain]
    cases l <;> decide +kernel
  have e1 : "{\"seed\":".toList = ['{'] ++ (Compact.quoted "seed".toList ++ [':']) := by decide +kernel
  have e2 : ",\"mnemonic\":".toList = [','] ++ (Compact.quoted "mnemonic".toList ++ [':']) := by decide +kernel
  have e3 : ",\"dictionary\":".toList = [','] ++ (Compact.quoted "dictionary".toList ++ [':']) := by decide +kernel
  have e4 : ",\"keys\":[".toList = [','] ++ (Compact.quoted "keys".toList ++ [':']) ++ ['['] := by decide +kernel
  have e5 : "]}".toList = [']'] ++ ['}'] := by decide +kernel
  rw [WalletV2.toVec, opt_null _ _ writeBytes_text, opt_null _ _ writeStr_quoted, opt_null _ _ hl, hk]
  unfold Json.writeObj Compact.content
  generalize "{\"seed\":".toList = a1 at e1 ⊢
  generalize ",\"mnemonic\":".toList = a2 at e2 ⊢
  generalize ",\"dictionary\":".toList = a3 at e3 ⊢
  generalize ",\"keys\":[".toList = a4 at e4 ⊢
  generalize "]}".toList = a5 at e5 ⊢
  generalize "seed".toList = b1 at e1 ⊢
  generalize "mnemonic".toList = b2 at e2 ⊢
  generalize "dictionary".toList = b3 at e3 ⊢
  generalize "keys".toList = b4 at e4 ⊢
  subst e1 e2 e3 e4 e5
  simp only [List.map_cons, List.map_nil, Json.commas, writeStr_quoted, Str.utf8_append, List.append_assoc, marks]

/-- C97: what is written, to the byte. -/
theorem C97_text (it : Iter (Network × Bytes)) (w : WalletV2) : (Versioned.new it w).toBytes =
    Str.utf8 (Compact.file w.seed w.mnemonic w.dictionary (it.order w.keys.entries)) := by
  have e : "{\"version\":2,\"data\":".toList = ['{'] ++ (Compact.quoted "version".toList ++ [':']) ++ ['2'] ++ [','] ++
      (Compact.quoted "data".toList ++ [':']) := by decide +kernel
  rw [Versioned.toBytes, Versioned.new]
  unfold Json.writeObj Compact.file
  rw [writeBytes_text, content_text]
  generalize "{\"version\":2,\"data\":".toList = a1 at e ⊢
  generalize "version".toList = b1 at e ⊢
  generalize "data".toList = b2 at e ⊢
  subst e
  simp only [List.map_cons, List.map_nil, Json.commas, writeStr_quoted, Str.utf8_append, List.append_assoc, marks, Version.toNat]

/-! ### what is kept -/

/-- `plain` is the text of the content `c`, its keys in some order, and of nothing else. -/
def Exactly (c : Content) (plain : Bytes) : Prop :=
  ∃ keys : List (Network × Bytes), (keys.map Prod.fst).Nodup ∧ (∀ n d, (n, d) ∈ keys ↔ c.keys n = some d) ∧
    plain = Str.utf8 (Compact.file c.seed c.mnemonic c.language keys)

theorem store_exactly {E : Env} (hA : AeadCorrect E.A) {it : Iter (Network × Bytes)} {w : WalletV2} {pw : Str} {r r' : Rng}
    {blob : Bytes} (h : (store E it w pw).run r = (.ok blob, r')) :
    ∃ plain, Opens E blob pw plain ∧ Exactly (content w) plain := by
  refine ⟨_, encrypt_opens hA (toBytes_ne_nil _) h, it.order w.keys.entries, NMap.perm_nodup (it.perm _) w.keys.nodup,
    fun n d => ?_, C97_text it w⟩
  rw [(it.perm _).mem_iff]
  exact (NMap.get_eq_some ..).symm

theorem opens_unique {E : Env} {blob p q : Bytes} {pw : Str} (h : Opens E blob pw p) (h' : Opens E blob pw q) : p = q := by
  rw [decrypt_opens] at h h'
  rw [h] at h'
  cases h'
  rfl

/-- C97: changing the password keeps the whole text, to the byte, whatever it is; also over any number of changes. -/
theorem C97_password (E : Env) (hA : AeadCorrect E.A) (b0 b : Bytes) (p0 p : Str) (evs : List Event)
    (he : ∀ e ∈ evs, e = .changed) (h : Run E (b0, p0) evs (b, p)) (plain : Bytes) :
    Opens E b0 p0 plain ↔ Opens E b p plain := by
  generalize hs : (b0, p0) = s at h
  generalize ht : (b, p) = t at h
  induction h generalizing b p with
  | nil =>
    subst hs
    cases ht
    rfl
  | change evs b1 p1 b2 p2 r r' hrun hop ih =>
    subst hs
    cases ht
    rw [ih b1 p1 (fun e hm => he e (by simp [hm])) rfl]
    obtain ⟨q, h1, h2⟩ := C42_reencrypts E hA _ _ _ _ _ _ hop
    exact ⟨fun h => opens_unique h1 h ▸ h2, fun h => opens_unique h2 h ▸ h1⟩
  | add evs b1 p1 b2 M it n r r' hrun hop ih =>
    have := he (.added M n) (by simp)
    cases this

/-- C97: adding a network writes the wallet anew: the fields of its content, the other keys as they were, the new key, and nothing
else of the text. -/
theorem C97_added (E : Env) (hA : AeadCorrect E.A) (it : Iter (Network × Bytes)) (M : Manager) (blob blob' : Bytes) (pw : Str)
    (n : Network) (r r' : Rng) (h : (M.addNetwork E it blob pw n).run r = (.ok blob', r')) (c : Content)
    (hc : Holds E blob pw c) :
    ∃ f seed d plain, M.getKeyFactory n = some f ∧ seedOf E.H c = some seed ∧ f.keyDataFromSeed seed = .ok d ∧
      Opens E blob' pw plain ∧ Exactly { c with keys := fun m => if m = n then some d else c.keys m } plain := by
  obtain ⟨f, w, s, d, h1, h2, h3, h4, h5, h6⟩ := add_ok h
  obtain ⟨w', e, rfl⟩ := load_holds hc
  rw [h2] at e; cases e
  obtain ⟨plain, ho, hx⟩ := store_exactly hA h6
  refine ⟨f, s, d, plain, h1, ((seedFromData_ok E M w s).mp h4).2, h5, ho, ?_⟩
  have e : content { w with keys := w.keys.insert n d } = { content w with keys := fun m => if m = n then some d else w.keys.get m } := by
    simp only [content, Content.mk.injEq, true_and]
    funext m
    rw [NMap.get_insert]
    by_cases hm : m = n
    · rw [if_pos hm, if_pos hm.symm]
    · rw [if_neg hm, if_neg (fun e => hm e.symm)]
  rw [e] at hx
  exact hx

theorem exactly_perm {c : Content} {p q : Bytes} (hp : Exactly c p) (hq : Exactly c q) : ∃ ks ls : List (Network × Bytes), ks.Perm ls ∧
    p = Str.utf8 (Compact.file c.seed c.mnemonic c.language ks) ∧ q = Str.utf8 (Compact.file c.seed c.mnemonic c.language ls) := by
  obtain ⟨ks, n1, m1, e1⟩ := hp
  obtain ⟨ls, n2, m2, e2⟩ := hq
  refine ⟨ks, ls, (List.perm_ext_iff_of_nodup n1.of_map n2.of_map).mpr fun x => ?_, e1, e2⟩
  rw [m1 x.1 x.2, m2 x.1 x.2]

/-- C97: so from two texts with the same content, however different otherwise, the same becomes, but for the order of the keys:
nothing else that was in them can be got back. -/
theorem C97_forgets (E : Env) (hA : AeadCorrect E.A) (it it' : Iter (Network × Bytes)) (M : Manager) (b1 b2 b1' b2' : Bytes)
    (p1 p2 : Str) (n : Network) (r1 r1' r2 r2' : Rng) (h1 : (M.addNetwork E it b1 p1 n).run r1 = (.ok b1', r1'))
    (h2 : (M.addNetwork E it' b2 p2 n).run r2 = (.ok b2', r2')) (c : Content) (hc1 : Holds E b1 p1 c) (hc2 : Holds E b2 p2 c) :
    ∃ ks ls : List (Network × Bytes), ks.Perm ls ∧ Opens E b1' p1 (Str.utf8 (Compact.file c.seed c.mnemonic c.language ks)) ∧
      Opens E b2' p2 (Str.utf8 (Compact.file c.seed c.mnemonic c.language ls)) := by
  obtain ⟨f, s, d, q1, hf, hs, hd, o1, e1⟩ := C97_added E hA it M b1 b1' p1 n r1 r1' h1 c hc1
  obtain ⟨f', s', d', q2, hf', hs', hd', o2, e2⟩ := C97_added E hA it' M b2 b2' p2 n r2 r2' h2 c hc2
  rw [hf] at hf'; cases hf'
  rw [hs] at hs'; cases hs'
  rw [hd] at hd'; cases hd'
  obtain ⟨ks, ls, hp, rfl, rfl⟩ := exactly_perm e1 e2
  exact ⟨ks, ls, hp, o1, o2⟩

/-- C97: once a wallet has no text but that of its content, as after an addition, it stays so; the content is that of `C44_history`. -/
theorem C97_history (E : Env) (hA : AeadCorrect E.A) (b0 b : Bytes) (p0 p : Str) (evs : List Event) (c0 : Content)
    (h0 : Holds E b0 p0 c0) (h : Run E (b0, p0) evs (b, p))
    (hx : (∃ plain, Opens E b0 p0 plain ∧ Exactly c0 plain) ∨ ∃ M n, Event.added M n ∈ evs) :
    ∀ c, Holds E b p c → ∃ plain, Opens E b p plain ∧ Exactly c plain := by
  generalize hs : (b0, p0) = s at h
  generalize ht : (b, p) = t at h
  induction h generalizing b p with
  | nil =>
    subst hs
    cases ht
    rcases hx with ⟨plain, h1, h2⟩ | ⟨M, n, hm⟩
    · intro c hc
      cases holds_unique h0 hc
      exact ⟨plain, h1, h2⟩
    · cases hm
  | change evs b1 p1 b2 p2 r r' hrun hop ih =>
    subst hs
    cases ht
    intro c hc
    obtain ⟨c', hc', -⟩ := C44_history E hA b0 b1 p0 p1 evs c0 h0 hrun
    cases holds_unique ((C42_same_wallet E hA _ _ _ _ _ _ hop).1 c' hc') hc
    obtain ⟨plain, ho, he⟩ := ih b1 p1 (hx.imp_right fun ⟨M, n, hm⟩ => ⟨M, n, by simpa using hm⟩) rfl c hc'
    obtain ⟨q, g1, g2⟩ := C42_reencrypts E hA _ _ _ _ _ _ hop
    cases opens_unique ho g1
    exact ⟨plain, g2, he⟩
  | add evs b1 p1 b2 M it n r r' hrun hop ih =>
    subst hs
    cases ht
    intro c hc
    obtain ⟨c', hc', -⟩ := C44_history E hA b0 b1 p0 p1 evs c0 h0 hrun
    obtain ⟨f, s, d, hf, -, -, hs, hd, hH⟩ := C43_added E hA it M b1 b2 p1 n r r' hop c' hc'
    obtain ⟨f', s', d', plain, hf', hs', hd', ho, he⟩ := C97_added E hA it M b1 b2 p1 n r r' hop c' hc'
    rw [hf] at hf'; cases hf'
    rw [hs] at hs'; cases hs'
    rw [hd] at hd'; cases hd'
    cases holds_unique hH hc
    exact ⟨plain, ho, he⟩

/-- C97: a new wallet is such a text. -/
theorem C97_made (E : Env) (hA : AeadCorrect E.A) (itF : Iter (Network × Factory)) (itK : Iter (Network × Bytes)) (M : Manager)
    (hM : Built M) (r r' : Rng) (b : Bytes) (p : Str) :
    (∀ seed, (M.keychainDataFromSeed E itF itK seed p).run r = (.ok b, r') →
      ∃ keys plain, Opens E b p plain ∧ KeysFrom M seed keys ∧ Exactly ⟨some seed, none, none, keys⟩ plain) ∧
    (∀ text lang, (M.keychainDataFromMnemonic E itF itK text p lang).run r = (.ok b, r') →
      ∃ keys plain, Opens E b p plain ∧ KeysFrom M (phraseSeed E.H text) keys ∧
        Exactly ⟨none, some text, some (lang.getD .english), keys⟩ plain) := by
  constructor
  · intro seed h
    obtain ⟨s, keys, hs, hk, hst⟩ := new_ok hM h
    have hs' := (seedFromData_ok E M ⟨some seed, none, none, keys⟩ s).mp hs
    have : s = seed := by simpa [seedOf, content] using hs'.2.symm
    subst this
    obtain ⟨plain, h1, h2⟩ := store_exactly hA hst
    exact ⟨keys.get, plain, h1, hk, h2⟩
  · intro text lang h
    obtain ⟨s, keys, hs, hk, hst⟩ := new_ok hM h
    have hs' := (seedFromData_ok E M ⟨none, some text, some (lang.getD .english), keys⟩ s).mp hs
    have : s = phraseSeed E.H text := by simpa [seedOf, content] using hs'.2.symm
    subst this
    obtain ⟨plain, h1, h2⟩ := store_exactly hA hst
    exact ⟨keys.get, plain, h1, hk, h2⟩

/-! ### a case -/

/-- What another program wrote: a note in the envelope, a label in the content, one network listed twice, one that no manager knows. -/
def foreignInner : Bytes := lit "{\"keys\":[[2,\"AQ==\"],[2,\"AgM=\"],[9,\"/w==\"]], \"label\":\"savings\", \"seed\":\"" ++
  Str.utf8 (Base64.encode toySeed) ++ lit "\"}"

def foreignPlain : Bytes :=
  lit "{\"note\": [1,2], \"data\":\"" ++ Str.utf8 (Base64.encode foreignInner) ++ lit "\", \"version\":2}"

theorem foreign_content : IsWallet Base64.strict ⟨some toySeed, none, none, (NMap.ofList [(2, [2, 3]), (9, [255])]).get⟩ foreignPlain := by
  have h : ((Versioned.fromBytes Base64.strict foreignPlain).bind (Versioned.getData Base64.strict)).any
      (fun w => w.seed = some toySeed && w.mnemonic.isNone && w.dictionary.isNone && w.keys.entries = [(2, [2, 3]), (9, [255])]) = true := by
    decide +kernel
  obtain ⟨w, hw, e⟩ : ∃ w, (Versioned.fromBytes Base64.strict foreignPlain).bind (Versioned.getData Base64.strict) = some w ∧ _ := by
    rwa [Option.any_eq_true] at h
  refine (read_wallet _ _ _).mp ⟨w, hw, ?_⟩
  simp only [Bool.and_eq_true, decide_eq_true_eq, Option.isNone_iff_eq_none] at e
  obtain ⟨⟨⟨e1, e2⟩, e3⟩, e4⟩ := e
  simp only [content, Content.mk.injEq, e1, e2, e3, true_and]
  unfold NMap.get
  rw [e4]
  rfl

/-- After a change of the password the note and the label are still there; after the addition of network 3 the text is this one, but
for the order of the keys. -/
theorem C97_case : ∃ b0 b1 b2 keys, Opens toyEnv b0 ['p'] foreignPlain ∧
    Run toyEnv (b0, ['p']) [.changed] (b1, ['q']) ∧ Opens toyEnv b1 ['q'] foreignPlain ∧
    Run toyEnv (b0, ['p']) [.changed, .added (toyManager [3]) 3] (b2, ['q']) ∧
    List.Perm keys [(2, [2, 3]), (9, [255]), (3, [3, 0, 0, 0])] ∧
    Opens toyEnv b2 ['q'] (Str.utf8 (Compact.file (some toySeed) none none keys)) := by
  obtain ⟨b0, r0, h0⟩ := C32_succeeds (ε := Unit) Toy.hashes Toy.aead foreignPlain ['p'] countingRng rfl rfl rfl
  have o0 : Opens toyEnv b0 ['p'] foreignPlain := encrypt_opens (E := toyEnv) toyAead_correct (by decide +kernel) h0
  obtain ⟨b1, r1, h1⟩ := ((C42_outcome toyEnv b0 ['p'] ['q'] countingRng).1 counting_delivers).mp ⟨_, o0⟩
  have run1 : Run toyEnv (b0, ['p']) [.changed] (b1, ['q']) := .change _ [] _ _ _ _ _ _ (.nil _) h1
  have o1 := (C97_password toyEnv toyAead_correct _ _ _ _ _ (by simp) run1 foreignPlain).mp o0
  have hc : Holds toyEnv b1 ['q'] ⟨some toySeed, none, none, (NMap.ofList [(2, [2, 3]), (9, [255])]).get⟩ := ⟨_, o1, foreign_content⟩
  have hf : (toyManager [3]).getKeyFactory 3 = some (toyFactory 3) := by rw [toyManager_get, if_pos (by decide)]
  obtain ⟨b2, r2, ha⟩ := ((((C43_outcome toyEnv backwards (toyManager [3]) b1 ['q'] 3 countingRng).2 _ hf).2 _ hc).2 rfl).2.2.2
    _ (show toySeed.length = 64 from rfl) rfl |>.2.2 _ rfl counting_delivers
  obtain ⟨f, s, d, plain, e1, e2, e3, o2, keys, hn, hm, rfl⟩ := C97_added toyEnv toyAead_correct _ _ _ _ _ _ _ _ ha _ hc
  rw [hf] at e1
  cases e1
  cases e2
  have ed : d = [3, 0, 0, 0] := by
    have : (toyFactory 3).keyDataFromSeed toySeed = .ok [3, 0, 0, 0] := rfl
    rw [this] at e3
    cases e3
    rfl
  subst ed
  refine ⟨b0, b1, b2, keys, o0, run1, o1, .add _ [.changed] _ _ _ _ _ _ _ _ run1 ha, ?_, o2⟩
  refine (List.perm_ext_iff_of_nodup hn.of_map (by decide)).mpr fun x => ?_
  obtain ⟨n, v⟩ := x
  rw [hm]
  have : (NMap.ofList [((2 : Network), [(2 : UInt8), 3]), (9, [255])]).entries = [(2, [2, 3]), (9, [255])] := by decide
  by_cases h3 : n = 3
  · subst h3
    simp [eq_comm]
  · simp only [if_neg h3]
    rw [NMap.get_eq_some, this]
    simp [h3]

end KC.Props
