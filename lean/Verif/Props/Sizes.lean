import Verif.Proofs.Sizes
import Verif.Props.Manager
/-
C76: what the size of an encrypted wallet depends on.
-/
namespace KC.Props
open KC.Manager KC.Spec KC.Spec.Wallet KC.Spec.Crypt KC.Crypt KC.Data
open KC.Mnemonic (Language)

theorem store_length {E : Env} {it : Iter (Network × Bytes)} {w : WalletV2} {pw : Str} {r r' : Rng} {blob : Bytes}
    (h : (store E it w pw).run r = (.ok blob, r')) : blob.length = (Versioned.new it w).toBytes.length + 60 := by
  unfold store at h
  rw [encrypt_eq] at h
  simp only [RM.run] at h
  rcases h1 : r.fill 32 with ⟨_ | salt, r1⟩
  · rw [h1] at h; cases h
  rw [h1] at h
  rcases h2 : r1.fill 12 with ⟨_ | nonce, r2⟩
  · simp only [h2] at h; cases h
  · simp only [h2] at h
    cases h
    obtain ⟨-, -, e1, -⟩ := fill_ok h1
    obtain ⟨-, -, e2, -⟩ := fill_ok h2
    simp only [sealed, List.length_append, E.A.tag_len, E.A.enc_len, e1, e2, seg_length]
    omega

/-- The keys of a new wallet, each once. -/
def Lists (M : Manager) (seed : Bytes) (l : List (Network × Bytes)) : Prop :=
  (l.map Prod.fst).Nodup ∧ (∀ n d, (n, d) ∈ l → ∃ f, M.getKeyFactory n = some f ∧ f.keyDataFromSeed seed = .ok d) ∧
  ∀ n, (M.getKeyFactory n).isSome → n ∈ l.map Prod.fst

theorem lists_of {M : Manager} {seed : Bytes} {keys : NMap Bytes} (h : KeysFrom M seed keys.get) : Lists M seed keys.entries := by
  refine ⟨keys.nodup, fun n d hm => ?_, fun n hn => ?_⟩
  · rw [← NMap.get_eq_some] at hm
    have := h n
    cases hf : M.getKeyFactory n with
    | none => rw [hf] at this; rw [this] at hm; cases hm
    | some f =>
      rw [hf] at this
      obtain ⟨d', h1, h2⟩ := this
      rw [h2] at hm
      cases hm
      exact ⟨f, rfl, h1⟩
  · have := h n
    obtain ⟨f, hf⟩ := Option.isSome_iff_exists.mp hn
    rw [hf] at this
    obtain ⟨d, -, h2⟩ := this
    exact List.mem_map.mpr ⟨(n, d), (NMap.get_eq_some ..).mp h2, rfl⟩

/-- C76: the size of a wallet made from a seed: given by the numbers of its networks and the lengths of their keys. -/
theorem C76_seed (E : Env) (itF : Iter (Network × Factory)) (itK : Iter (Network × Bytes)) (M : Manager) (hM : Built M) (seed : Bytes)
    (pw : Str) (r r' : Rng) (blob : Bytes) (h : (M.keychainDataFromSeed E itF itK seed pw).run r = (.ok blob, r')) :
    ∃ l, Lists M seed l ∧ blob.length = Sizes.ofSeed (l.map fun k => (k.1, k.2.length)) := by
  obtain ⟨s, keys, hs, hk, hst⟩ := new_ok hM h
  have hs' := (seedFromData_ok E M ⟨some seed, none, none, keys⟩ s).mp hs
  have hl : seed.length = 64 := hs'.1
  have : s = seed := by simpa [seedOf, content] using hs'.2.symm
  subst this
  exact ⟨keys.entries, lists_of hk, by rw [store_length hst, KC.Sizes.seed_length itK s hl keys]⟩

/-- C76: of a wallet made from a phrase: also by the length of its text and by the language. -/
theorem C76_phrase (E : Env) (itF : Iter (Network × Factory)) (itK : Iter (Network × Bytes)) (M : Manager) (hM : Built M)
    (text pw : Str) (lang : Option Language) (r r' : Rng) (blob : Bytes)
    (h : (M.keychainDataFromMnemonic E itF itK text pw lang).run r = (.ok blob, r')) :
    ∃ l, Lists M (phraseSeed E.H text) l ∧
      blob.length = Sizes.ofPhrase (Str.utf8 text).length (Sizes.name (lang.getD .english)) (l.map fun k => (k.1, k.2.length)) := by
  obtain ⟨s, keys, hs, hk, hst⟩ := new_ok hM h
  have hs' := (seedFromData_ok E M ⟨none, some text, some (lang.getD .english), keys⟩ s).mp hs
  obtain ⟨m, l, e1, e2, hp⟩ := hs'.1
  cases e1; cases e2
  have : s = phraseSeed E.H text := by simpa [seedOf, content] using hs'.2.symm
  subst this
  obtain ⟨ws, ht, hw, -⟩ := hp
  have plain : ∀ b ∈ Str.utf8 text, KC.Sizes.Plain b := by
    rw [ht]
    exact KC.Sizes.letters_plain (KC.Sizes.phrase_ok hw)
  exact ⟨keys.entries, lists_of hk, by rw [store_length hst, KC.Sizes.phrase_length itK text plain _ keys]⟩

/-- C76: changing the password does not change the size, whatever the passwords. -/
theorem C76_change (E : Env) (blob blob' : Bytes) (old new : Str) (r r' : Rng)
    (h : (changePassword E blob old new).run r = (.ok blob', r')) : blob'.length = blob.length := by
  unfold changePassword at h
  rw [RM.run_bind, RM.run_lift] at h
  cases hd : Crypt.decrypt E.H E.A blob old with
  | err e => rw [hd] at h; cases h
  | panic => rw [hd] at h; cases h
  | ok plain =>
    rw [hd] at h
    have h : (encrypt E.H E.A plain new : RM Error Bytes).run r = (.ok blob', r') := h
    rw [(C33_length _ _ _ _ _ hd).1]
    rw [encrypt_eq] at h
    simp only [RM.run] at h
    rcases h1 : r.fill 32 with ⟨_ | salt, r1⟩
    · rw [h1] at h; cases h
    rw [h1] at h
    rcases h2 : r1.fill 12 with ⟨_ | nonce, r2⟩
    · simp only [h2] at h; cases h
    · simp only [h2] at h
      cases h
      obtain ⟨-, -, e1, -⟩ := fill_ok h1
      obtain ⟨-, -, e2, -⟩ := fill_ok h2
      simp only [sealed, List.length_append, E.A.tag_len, E.A.enc_len, e1, e2, seg_length]
      omega

/-- The length of the key data of a built-in network. -/
def keyLength (n : Network) : Nat := if n = 0x80000717 then 96 else 77

theorem secp_length {H : Hashes} {seed d : Bytes}
    (h : (seedOrError seed >>= fun s => (Secp.XPrv.fromSeed H s).mapErr Key.Error.ofSecp >>= fun x =>
      Res.ofPanic (x.serialize H)) = .ok d) : d.length = 77 := by
  obtain ⟨s, h1, h2⟩ := Res.bind_eq_ok.mp h
  obtain ⟨x, hx, hy⟩ := Res.bind_eq_ok.mp h2
  obtain ⟨b, hb, hL⟩ := Secp.serialize_eq H x
  rw [hb] at hy
  cases hy
  exact Secp.layout_length hL

theorem made_length {H : Hashes} {C : Secp.Curve} {Ed : Cardano.Ed} {M : Manager} (hb : BuiltIn H C Ed M) {seed : Bytes} {n : Network}
    {f : Factory} (hf : M.getKeyFactory n = some f) {d : Bytes} (hd : f.keyDataFromSeed seed = .ok d) : d.length = keyLength n := by
  rcases hb.factory hf with ⟨rfl, rfl⟩ | ⟨rfl, rfl⟩ | ⟨rfl, rfl⟩
  · by_cases h64 : seed.length = 64
    · obtain ⟨d', -, -, e1, e2, -⟩ := C30_from_seed H C Ed seed h64
      rw [show (factoryOf H C Ed .cardano).keyDataFromSeed seed = (Cardano.factory H Ed).keyDataFromSeed seed from rfl, hd] at e1
      cases e1
      exact e2
    · have := C30_seed_size H C Ed .cardano seed h64
      rw [show (factoryOf H C Ed .cardano).keyDataFromSeed seed = (Cardano.factory H Ed).keyDataFromSeed seed from rfl, hd] at this
      cases this
  · exact secp_length hd
  · exact secp_length hd

theorem builtin_length {H : Hashes} {C : Secp.Curve} {Ed : Cardano.Ed} {M : Manager} (hb : BuiltIn H C Ed M) {seed : Bytes}
    {l : List (Network × Bytes)} (hl : Lists M seed l) : ∀ k ∈ l, k.2.length = keyLength k.1 := by
  rintro ⟨n, d⟩ hk
  obtain ⟨f, hf, hd⟩ := hl.2.1 n d hk
  exact made_length hb hf hd

theorem lists_perm {M M' : Manager} {seed seed' : Bytes} {l l' : List (Network × Bytes)} (hl : Lists M seed l) (hl' : Lists M' seed' l')
    (hn : ∀ n, M.hasNetwork n = M'.hasNetwork n) : (l.map Prod.fst).Perm (l'.map Prod.fst) := by
  have mem : ∀ {M : Manager} {s l}, Lists M s l → ∀ n, n ∈ l.map Prod.fst ↔ M.hasNetwork n = true := by
    intro M s l hl n
    constructor
    · intro h
      obtain ⟨⟨n, d⟩, hk, rfl⟩ := List.mem_map.mp h
      obtain ⟨f, hf, -⟩ := hl.2.1 n d hk
      exact Option.isSome_iff_exists.mpr ⟨f, hf⟩
    · exact hl.2.2 n
  exact (List.perm_ext_iff_of_nodup hl.1 hl'.1).mpr fun n => (mem hl n).trans (by rw [hn n]; exact (mem hl' n).symm)

theorem lists_sizes {H : Hashes} {C : Secp.Curve} {Ed : Cardano.Ed} {M M' : Manager} (hb : BuiltIn H C Ed M) (hb' : BuiltIn H C Ed M')
    (hn : ∀ n, M.hasNetwork n = M'.hasNetwork n) {seed seed' : Bytes} {l l' : List (Network × Bytes)} (hl : Lists M seed l)
    (hl' : Lists M' seed' l') :
    Sizes.keys (l.map fun k => (k.1, k.2.length)) = Sizes.keys (l'.map fun k => (k.1, k.2.length)) := by
  have e : ∀ {M : Manager} {s : Bytes} {l : List (Network × Bytes)}, BuiltIn H C Ed M → Lists M s l →
      (l.map fun k => (k.1, k.2.length)) = (l.map Prod.fst).map fun n => (n, keyLength n) := by
    intro M s l hb hl
    rw [List.map_map]
    apply List.map_congr_left
    intro k hk
    simp only [Function.comp, builtin_length hb hl k hk]
  rw [e hb hl, e hb' hl']
  exact KC.Sizes.keys_perm ((lists_perm hl hl' hn).map _)

/-- C76: with the built-in networks the size of a wallet made from a seed says nothing but which networks it has: not the seed, not
the keys, not the password. -/
theorem C76_hidden_seed (E : Env) (C : Secp.Curve) (Ed : Cardano.Ed) (M M' : Manager) (hb : BuiltIn E.H C Ed M)
    (hb' : BuiltIn E.H C Ed M') (hn : ∀ n, M.hasNetwork n = M'.hasNetwork n) (itF itF' : Iter (Network × Factory))
    (itK itK' : Iter (Network × Bytes)) (seed seed' : Bytes) (pw pw' : Str) (r s r' s' : Rng) (blob blob' : Bytes)
    (h : (M.keychainDataFromSeed E itF itK seed pw).run r = (.ok blob, s))
    (h' : (M'.keychainDataFromSeed E itF' itK' seed' pw').run r' = (.ok blob', s')) : blob.length = blob'.length := by
  obtain ⟨l, hl, e⟩ := C76_seed E itF itK M hb.built seed pw r s blob h
  obtain ⟨l', hl', e'⟩ := C76_seed E itF' itK' M' hb'.built seed' pw' r' s' blob' h'
  rw [e, e', Sizes.ofSeed, Sizes.ofSeed, lists_sizes hb hb' hn hl hl']

/-- C76: for phrases of one language, nothing but the networks and how many bytes the text has. -/
theorem C76_hidden_phrase (E : Env) (C : Secp.Curve) (Ed : Cardano.Ed) (M M' : Manager) (hb : BuiltIn E.H C Ed M)
    (hb' : BuiltIn E.H C Ed M') (hn : ∀ n, M.hasNetwork n = M'.hasNetwork n) (itF itF' : Iter (Network × Factory))
    (itK itK' : Iter (Network × Bytes)) (text text' : Str) (pw pw' : Str) (lang : Option Language) (r s r' s' : Rng) (blob blob' : Bytes)
    (ht : (Str.utf8 text).length = (Str.utf8 text').length)
    (h : (M.keychainDataFromMnemonic E itF itK text pw lang).run r = (.ok blob, s))
    (h' : (M'.keychainDataFromMnemonic E itF' itK' text' pw' lang).run r' = (.ok blob', s')) : blob.length = blob'.length := by
  obtain ⟨l, hl, e⟩ := C76_phrase E itF itK M hb.built text pw lang r s blob h
  obtain ⟨l', hl', e'⟩ := C76_phrase E itF' itK' M' hb'.built text' pw' lang r' s' blob' h'
  rw [e, e', Sizes.ofPhrase, Sizes.ofPhrase, lists_sizes hb hb' hn hl hl', ht]

/-- C76: the numbers for all three networks: 787 bytes with a seed; with a phrase it grows with its text. -/
theorem C76_numbers (E : Env) (C : Secp.Curve) (Ed : Cardano.Ed) (M : Manager) (hb : BuiltIn E.H C Ed M)
    (hn : ∀ n, M.hasNetwork n = true ↔ n = 0x80000717 ∨ n = 0x8000003c ∨ n = 0x80000000) (itF : Iter (Network × Factory))
    (itK : Iter (Network × Bytes)) (pw : Str) (r s : Rng) (blob : Bytes) :
    (∀ seed, (M.keychainDataFromSeed E itF itK seed pw).run r = (.ok blob, s) → blob.length = 787) ∧
    (∀ text lang, (M.keychainDataFromMnemonic E itF itK text pw lang).run r = (.ok blob, s) →
      blob.length = 83 + 4 * ((436 + (Str.utf8 text).length + Sizes.name (lang.getD .english) + 2) / 3)) := by
  have keys : ∀ {seed l}, Lists M seed l → Sizes.keys (l.map fun k => (k.1, k.2.length)) = 385 := by
    intro seed l hl
    have hp : (l.map Prod.fst).Perm [0x80000717, 0x8000003c, 0x80000000] := by
      refine (List.perm_ext_iff_of_nodup hl.1 (by decide)).mpr fun n => ?_
      have : n ∈ l.map Prod.fst ↔ M.hasNetwork n = true := by
        constructor
        · intro h
          obtain ⟨⟨n, d⟩, hk, rfl⟩ := List.mem_map.mp h
          obtain ⟨f, hf, -⟩ := hl.2.1 n d hk
          exact Option.isSome_iff_exists.mpr ⟨f, hf⟩
        · exact hl.2.2 n
      rw [this, hn n]
      simp
    have e : (l.map fun k => (k.1, k.2.length)) = (l.map Prod.fst).map fun n => (n, keyLength n) := by
      rw [List.map_map]
      apply List.map_congr_left
      intro k hk
      simp only [Function.comp, builtin_length hb hl k hk]
    rw [e, KC.Sizes.keys_perm (hp.map _)]
    decide +kernel
  constructor
  · intro seed h
    obtain ⟨l, hl, e⟩ := C76_seed E itF itK M hb.built seed pw r s blob h
    rw [e, Sizes.ofSeed, keys hl]
    decide +kernel
  · intro text lang h
    obtain ⟨l, hl, e⟩ := C76_phrase E itF itK M hb.built text pw lang r s blob h
    rw [e, Sizes.ofPhrase, keys hl, Sizes.wallet, Sizes.base64,
      show "{\"version\":2,\"data\":\"\"}".length = 23 by decide +kernel,
      show "{\"seed\":null,\"mnemonic\":\"\",\"dictionary\":\"\",\"keys\":}".length = 51 by decide +kernel]
    omega

/-! ### After changes -/

/-- The keys, each once. -/
def Entries (keys : Network → Option Bytes) (l : List (Network × Bytes)) : Prop :=
  (l.map Prod.fst).Nodup ∧ ∀ n d, (n, d) ∈ l ↔ keys n = some d

/-- After every change the data has the length of what is written last. -/
theorem run_length {E : Env} (hA : AeadCorrect E.A) {b0 b : Bytes} {p0 p : Str} {evs : List Event}
    (h0 : ∃ w it, Holds E b0 p0 (content w) ∧ b0.length = (Versioned.new it w).toBytes.length + 60) (h : Run E (b0, p0) evs (b, p)) :
    ∃ w it, Holds E b p (content w) ∧ b.length = (Versioned.new it w).toBytes.length + 60 := by
  generalize hs : (b0, p0) = s at h
  generalize ht : (b, p) = t at h
  induction h generalizing b p with
  | nil => subst hs; cases ht; exact h0
  | change evs b1 p1 b2 p2 r r' hrun hop ih =>
    subst hs
    cases ht
    obtain ⟨w, it, hH, hl⟩ := ih rfl
    exact ⟨w, it, (C42_same_wallet E hA _ _ _ _ _ _ hop).1 _ hH, (C76_change E _ _ _ _ _ _ hop).trans hl⟩
  | add evs b1 p1 b2 M it n r r' hrun hop ih =>
    subst hs
    cases ht
    obtain ⟨f, w, s, d, -, -, -, -, -, hst⟩ := add_ok hop
    exact ⟨_, it, store_holds hA hst, store_length hst⟩

theorem entries_of (m : NMap Bytes) : Entries m.get m.entries := ⟨m.nodup, fun _ _ => (NMap.get_eq_some ..).symm⟩

/-- C76: the formulas go on to hold after any password changes and additions of networks, by any managers. -/
theorem C76_history (E : Env) (hA : AeadCorrect E.A) (itF : Iter (Network × Factory)) (itK : Iter (Network × Bytes)) (M : Manager)
    (hM : Built M) (r r' : Rng) (b0 b : Bytes) (p0 p : Str) (evs : List Event) (h : Run E (b0, p0) evs (b, p)) :
    (∀ seed, (M.keychainDataFromSeed E itF itK seed p0).run r = (.ok b0, r') →
      ∃ keys l, Holds E b p ⟨some seed, none, none, keys⟩ ∧ Entries keys l ∧ b.length = Sizes.ofSeed (l.map fun k => (k.1, k.2.length))) ∧
    (∀ text lang, (M.keychainDataFromMnemonic E itF itK text p0 lang).run r = (.ok b0, r') →
      ∃ keys l, Holds E b p ⟨none, some text, some (lang.getD .english), keys⟩ ∧ Entries keys l ∧
        b.length = Sizes.ofPhrase (Str.utf8 text).length (Sizes.name (lang.getD .english)) (l.map fun k => (k.1, k.2.length))) := by
  obtain ⟨hc1, hc2⟩ := C44_created E hA itF itK M hM r r' b0 b p0 p evs h
  constructor
  · intro seed hr
    obtain ⟨keys, hH, -⟩ := hc1 seed hr
    obtain ⟨s, ks, hs, hk, hst⟩ := new_ok hM hr
    have hl : seed.length = 64 := ((seedFromData_ok E M ⟨some seed, none, none, ks⟩ s).mp hs).1
    obtain ⟨w, it, hw, e⟩ := run_length hA ⟨_, itK, store_holds hA hst, store_length hst⟩ h
    have hu := holds_unique hw hH
    obtain ⟨ws, wm, wl, wk⟩ := w
    simp only [content, Content.mk.injEq] at hu
    obtain ⟨rfl, rfl, rfl, rfl⟩ := hu
    exact ⟨_, wk.entries, hH, entries_of wk, by rw [e, KC.Sizes.seed_length it seed hl wk]⟩
  · intro text lang hr
    obtain ⟨keys, hH, -⟩ := hc2 text lang hr
    obtain ⟨s, ks, hs, hk, hst⟩ := new_ok hM hr
    have hs' := (seedFromData_ok E M ⟨none, some text, some (lang.getD .english), ks⟩ s).mp hs
    obtain ⟨m, l, e1, e2, ws, rfl, hwd, -⟩ := hs'.1
    cases e1; cases e2
    have hpl := KC.Sizes.letters_plain (KC.Sizes.phrase_ok hwd)
    obtain ⟨w, it, hw, e⟩ := run_length hA ⟨_, itK, store_holds hA hst, store_length hst⟩ h
    have hu := holds_unique hw hH
    obtain ⟨ws', wm, wl, wk⟩ := w
    simp only [content, Content.mk.injEq] at hu
    obtain ⟨rfl, rfl, rfl, rfl⟩ := hu
    exact ⟨_, wk.entries, hH, entries_of wk, by rw [e, KC.Sizes.phrase_length it _ hpl _ wk]⟩

/-- The networks of a wallet: those of the manager that made it and the added ones. -/
def Nets (M : Manager) (evs : List Event) (n : Network) : Prop := M.hasNetwork n = true ∨ ∃ M', Event.added M' n ∈ evs

/-- The managers of a wallet have the built-in networks only. -/
def AllBuiltIn (H : Hashes) (C : Secp.Curve) (Ed : Cardano.Ed) (M : Manager) (evs : List Event) : Prop :=
  BuiltIn H C Ed M ∧ ∀ M' n, Event.added M' n ∈ evs → BuiltIn H C Ed M'

/-- The lengths of the keys of wallets with the same networks. -/
theorem entries_sizes {E : Env} {C : Secp.Curve} {Ed : Cardano.Ed} {M M' : Manager} {evs evs' : List Event}
    (hb : AllBuiltIn E.H C Ed M evs) (hb' : AllBuiltIn E.H C Ed M' evs') (hn : ∀ n, Nets M evs n ↔ Nets M' evs' n) {seed seed' : Bytes}
    {keys keys' : Network → Option Bytes} {l l' : List (Network × Bytes)} (hl : Entries keys l) (hl' : Entries keys' l')
    (hk : ∀ n, (keys n ≠ none ↔ Nets M evs n) ∧ ∀ M1 f, M1 = M ∨ Event.added M1 n ∈ evs → M1.getKeyFactory n = some f →
      ∃ d, f.keyDataFromSeed seed = .ok d ∧ keys n = some d)
    (hk' : ∀ n, (keys' n ≠ none ↔ Nets M' evs' n) ∧ ∀ M1 f, M1 = M' ∨ Event.added M1 n ∈ evs' → M1.getKeyFactory n = some f →
      ∃ d, f.keyDataFromSeed seed' = .ok d ∧ keys' n = some d)
    (hadd : ∀ M1 n, Event.added M1 n ∈ evs → M1.hasNetwork n = true) (hadd' : ∀ M1 n, Event.added M1 n ∈ evs' → M1.hasNetwork n = true) :
    Sizes.keys (l.map fun k => (k.1, k.2.length)) = Sizes.keys (l'.map fun k => (k.1, k.2.length)) := by
  have e : ∀ {M : Manager} {evs : List Event} {seed : Bytes} {keys : Network → Option Bytes} {l : List (Network × Bytes)},
      AllBuiltIn E.H C Ed M evs → Entries keys l → (∀ n, (keys n ≠ none ↔ Nets M evs n) ∧ ∀ M1 f, M1 = M ∨ Event.added M1 n ∈ evs →
        M1.getKeyFactory n = some f → ∃ d, f.keyDataFromSeed seed = .ok d ∧ keys n = some d) →
      (∀ M1 n, Event.added M1 n ∈ evs → M1.hasNetwork n = true) →
      (l.map fun k => (k.1, k.2.length)) = (l.map Prod.fst).map fun n => (n, keyLength n) := by
    intro M evs seed keys l hb hl hk hadd
    rw [List.map_map]
    apply List.map_congr_left
    rintro ⟨n, d⟩ hm
    simp only [Function.comp]
    congr 1
    have hd := (hl.2 n d).mp hm
    have key : ∀ M1, BuiltIn E.H C Ed M1 → M1 = M ∨ Event.added M1 n ∈ evs → M1.hasNetwork n = true → d.length = keyLength n := by
      intro M1 h1 h2 h3
      obtain ⟨f, hf⟩ := Option.isSome_iff_exists.mp h3
      obtain ⟨d', hd', hk'⟩ := (hk n).2 M1 f h2 hf
      rw [hd] at hk'
      cases hk'
      exact made_length h1 hf hd'
    rcases (hk n).1.mp (by rw [hd]; simp) with h | ⟨M1, h⟩
    · exact key M hb.1 (.inl rfl) h
    · exact key M1 (hb.2 M1 n h) (.inr h) (hadd M1 n h)
  have mem : ∀ {keys : Network → Option Bytes} {l : List (Network × Bytes)}, Entries keys l → ∀ n, n ∈ l.map Prod.fst ↔ keys n ≠ none := by
    intro keys l hl n
    constructor
    · intro h
      obtain ⟨⟨n, d⟩, hk, rfl⟩ := List.mem_map.mp h
      rw [(hl.2 n d).mp hk]
      simp
    · intro h
      obtain ⟨d, hd⟩ := Option.ne_none_iff_exists'.mp h
      exact List.mem_map.mpr ⟨(n, d), (hl.2 n d).mpr hd, rfl⟩
  rw [e hb hl hk hadd, e hb' hl' hk' hadd']
  refine KC.Sizes.keys_perm (List.Perm.map _ ((List.perm_ext_iff_of_nodup hl.1 hl'.1).mpr fun n => ?_))
  rw [mem hl, mem hl', (hk n).1, (hk' n).1, hn n]

theorem run_added {E : Env} {s t : Bytes × Str} {evs : List Event} (h : Run E s evs t) (M : Manager) (n : Network)
    (hm : Event.added M n ∈ evs) : M.hasNetwork n = true := by
  induction h with
  | nil => cases hm
  | change evs b1 p1 b2 p2 r r' hrun hop ih => exact ih (by simpa using hm)
  | add evs b1 p1 b2 M' it n' r r' hrun hop ih =>
    rw [List.mem_append] at hm
    rcases hm with hm | hm
    · exact ih hm
    · simp only [List.mem_singleton, Event.added.injEq] at hm
      obtain ⟨rfl, rfl⟩ := hm
      obtain ⟨f, w, s, d, hf, -⟩ := add_ok hop
      exact Option.isSome_iff_exists.mpr ⟨f, hf⟩

/-- C76: with the built-in networks two wallets made from seeds that have come to the same networks have the same size, whatever their
histories: it does not show which networks were there at first, in which order others came, or how often the password changed. -/
theorem C76_hidden_history (E : Env) (hA : AeadCorrect E.A) (C : Secp.Curve) (Ed : Cardano.Ed) (M M' : Manager)
    (evs evs' : List Event) (hb : AllBuiltIn E.H C Ed M evs) (hb' : AllBuiltIn E.H C Ed M' evs')
    (hn : ∀ n, Nets M evs n ↔ Nets M' evs' n) (itF itF' : Iter (Network × Factory)) (itK itK' : Iter (Network × Bytes))
    (p0 p p0' p' : Str) (r s r' s' : Rng) (b0 b b0' b' : Bytes)
    (h : Run E (b0, p0) evs (b, p)) (h' : Run E (b0', p0') evs' (b', p')) :
    (∀ seed seed', (M.keychainDataFromSeed E itF itK seed p0).run r = (.ok b0, s) →
      (M'.keychainDataFromSeed E itF' itK' seed' p0').run r' = (.ok b0', s') → b.length = b'.length) ∧
    (∀ text text' lang, (M.keychainDataFromMnemonic E itF itK text p0 lang).run r = (.ok b0, s) →
      (M'.keychainDataFromMnemonic E itF' itK' text' p0' lang).run r' = (.ok b0', s') →
      (Str.utf8 text).length = (Str.utf8 text').length → b.length = b'.length) := by
  constructor
  · intro seed seed' hr hr'
    obtain ⟨keys, l, hH, hl, e⟩ := (C76_history E hA itF itK M hb.1.built r s b0 b p0 p evs h).1 seed hr
    obtain ⟨keys', l', hH', hl', e'⟩ := (C76_history E hA itF' itK' M' hb'.1.built r' s' b0' b' p0' p' evs' h').1 seed' hr'
    obtain ⟨k2, hK, hk⟩ := (C44_created E hA itF itK M hb.1.built r s b0 b p0 p evs h).1 seed hr
    obtain ⟨k2', hK', hk'⟩ := (C44_created E hA itF' itK' M' hb'.1.built r' s' b0' b' p0' p' evs' h').1 seed' hr'
    cases holds_unique hH hK
    cases holds_unique hH' hK'
    rw [e, e', Sizes.ofSeed, Sizes.ofSeed, entries_sizes hb hb' hn hl hl' hk hk' (run_added h) (run_added h')]
  · intro text text' lang hr hr' ht
    obtain ⟨keys, l, hH, hl, e⟩ := (C76_history E hA itF itK M hb.1.built r s b0 b p0 p evs h).2 text lang hr
    obtain ⟨keys', l', hH', hl', e'⟩ := (C76_history E hA itF' itK' M' hb'.1.built r' s' b0' b' p0' p' evs' h').2 text' lang hr'
    obtain ⟨k2, hK, hk⟩ := (C44_created E hA itF itK M hb.1.built r s b0 b p0 p evs h).2 text lang hr
    obtain ⟨k2', hK', hk'⟩ := (C44_created E hA itF' itK' M' hb'.1.built r' s' b0' b' p0' p' evs' h').2 text' lang hr'
    cases holds_unique hH hK
    cases holds_unique hH' hK'
    rw [e, e', Sizes.ofPhrase, Sizes.ofPhrase, entries_sizes hb hb' hn hl hl' hk hk' (run_added h) (run_added h'), ht]

/-- Non-vacuity of C76: a wallet with all three networks, made from a seed. -/
example : ∃ M blob r', BuiltIn Toy.skipHashes Toy.curve toyEd M ∧
    (M.keychainDataFromSeed ⟨Toy.skipHashes, Toy.aead, Base64.strict⟩ forwards forwards toySeed ['p']).run countingRng =
      (.ok blob, r') ∧ blob.length = 787 := by
  obtain ⟨M, h1, h2⟩ := C38_new Toy.skipHashes Toy.curve toyEd true true true 65535 (by decide) (by simp)
  have hb : BuiltIn Toy.skipHashes Toy.curve toyEd M := ⟨65535, true, true, true, .inl h1⟩
  obtain ⟨blob, r', hr⟩ := C40_from_seed_succeeds ⟨Toy.skipHashes, Toy.aead, Base64.strict⟩ forwards forwards M toySeed ['p'] countingRng
    counting_delivers (by rfl) (by
      intro n f hf
      rcases hb.factory hf with ⟨-, rfl⟩ | ⟨-, rfl⟩ | ⟨-, rfl⟩
      · obtain ⟨d, k, h, -⟩ := toy_loads .cardano; exact ⟨d, h⟩
      · obtain ⟨d, k, h, -⟩ := toy_loads .ethereum; exact ⟨d, h⟩
      · obtain ⟨d, k, h, -⟩ := toy_loads .bitcoin; exact ⟨d, h⟩)
  refine ⟨M, blob, r', hb, hr, (C76_numbers ⟨Toy.skipHashes, Toy.aead, Base64.strict⟩ Toy.curve toyEd M hb ?_ _ _ _ _ _ _).1 _ hr⟩
  intro n
  rw [h2 n]
  simp [Network.all, Cardano.coinType, Ethereum.coinType, Bitcoin.coinType]

/-- Non-vacuity of C76: a wallet made for Bitcoin only that was then extended by the other networks has the same 787 bytes. -/
example : ∃ M M' b0 b r', AllBuiltIn Toy.skipHashes Toy.curve toyEd M [.added M' 0x80000717, .added M' 0x8000003c] ∧
    (M.keychainDataFromSeed ⟨Toy.skipHashes, Toy.aead, Base64.strict⟩ forwards forwards toySeed ['p']).run countingRng = (.ok b0, r') ∧
    Run ⟨Toy.skipHashes, Toy.aead, Base64.strict⟩ (b0, ['p']) [.added M' 0x80000717, .added M' 0x8000003c] (b, ['p']) ∧
    b0.length < 787 ∧ b.length = 787 := by
  obtain ⟨M, h1, h2⟩ := C38_new Toy.skipHashes Toy.curve toyEd false false true 65535 (by decide) (by simp)
  obtain ⟨M', h1', h2'⟩ := C38_new Toy.skipHashes Toy.curve toyEd true true true 65535 (by decide) (by simp)
  have hb : BuiltIn Toy.skipHashes Toy.curve toyEd M := ⟨65535, false, false, true, .inl h1⟩
  have hb' : BuiltIn Toy.skipHashes Toy.curve toyEd M' := ⟨65535, true, true, true, .inl h1'⟩
  have made : ∀ {M : Manager}, BuiltIn Toy.skipHashes Toy.curve toyEd M → ∀ n f, M.getKeyFactory n = some f →
      ∃ d, f.keyDataFromSeed toySeed = .ok d := by
    intro M hb n f hf
    rcases hb.factory hf with ⟨-, rfl⟩ | ⟨-, rfl⟩ | ⟨-, rfl⟩
    · obtain ⟨d, k, h, -⟩ := toy_loads .cardano; exact ⟨d, h⟩
    · obtain ⟨d, k, h, -⟩ := toy_loads .ethereum; exact ⟨d, h⟩
    · obtain ⟨d, k, h, -⟩ := toy_loads .bitcoin; exact ⟨d, h⟩
  have nets : ∀ n, M.hasNetwork n = true ↔ n = 0x80000000 := by
    intro n
    rw [h2 n]
    simp [Network.all, Bitcoin.coinType]
  have nets' : ∀ n, M'.hasNetwork n = true ↔ n = 0x80000717 ∨ n = 0x8000003c ∨ n = 0x80000000 := by
    intro n
    rw [h2' n]
    simp [Network.all, Cardano.coinType, Ethereum.coinType, Bitcoin.coinType]
  have hA : AeadCorrect Toy.aead := toyAead_correct
  obtain ⟨b0, r0, hr0⟩ := C40_from_seed_succeeds ⟨Toy.skipHashes, Toy.aead, Base64.strict⟩ forwards forwards M toySeed ['p'] countingRng
    counting_delivers (by rfl) (made hb)
  obtain ⟨b3, r3, hr3⟩ := C40_from_seed_succeeds ⟨Toy.skipHashes, Toy.aead, Base64.strict⟩ forwards forwards M' toySeed ['p'] countingRng
    counting_delivers (by rfl) (made hb')
  have step : ∀ {b : Bytes} {evs : List Event} (n : Network), M'.hasNetwork n = true → M.hasNetwork n = false →
      (∀ M1, Event.added M1 n ∉ evs) → Run ⟨Toy.skipHashes, Toy.aead, Base64.strict⟩ (b0, ['p']) evs (b, ['p']) →
      ∃ b', Run ⟨Toy.skipHashes, Toy.aead, Base64.strict⟩ (b0, ['p']) (evs ++ [.added M' n]) (b', ['p']) := by
    intro b evs n hn hm he h
    obtain ⟨keys, hH, hk⟩ := (C44_created _ hA forwards forwards M hb.built _ _ _ _ _ _ _ h).1 toySeed hr0
    obtain ⟨f, hf⟩ := Option.isSome_iff_exists.mp hn
    obtain ⟨d, hd⟩ := made hb' n f hf
    have hnone : keys n = none := by
      by_contra hc
      rcases (hk n).1.mp hc with h | ⟨M1, h⟩
      · rw [hm] at h; cases h
      · exact he M1 h
    have hu : Usable M'.seedSize ⟨some toySeed, none, none, keys⟩ := by
      show toySeed.length = 64
      rfl
    obtain ⟨b', r', hr⟩ := ((((C43_outcome ⟨Toy.skipHashes, Toy.aead, Base64.strict⟩ forwards M' b ['p'] n countingRng).2 f hf).2 _ hH).2
      hnone).2.2.2 toySeed hu rfl |>.2.2 d hd counting_delivers
    exact ⟨b', .add _ _ b ['p'] b' M' forwards n _ _ h hr⟩
  obtain ⟨b1, hrun1⟩ := step 0x80000717 ((nets' _).mpr (.inl rfl)) (by rw [Bool.eq_false_iff, ne_eq, nets]; decide) (by simp) (.nil _)
  obtain ⟨b2, hrun2⟩ := step 0x8000003c ((nets' _).mpr (.inr (.inl rfl))) (by rw [Bool.eq_false_iff, ne_eq, nets]; decide) (by simp) hrun1
  have hall : AllBuiltIn Toy.skipHashes Toy.curve toyEd M [.added M' 0x80000717, .added M' 0x8000003c] := by
    refine ⟨hb, fun M1 n h => ?_⟩
    simp only [List.mem_cons, Event.added.injEq, List.not_mem_nil, or_false] at h
    rcases h with ⟨rfl, -⟩ | ⟨rfl, -⟩ <;> exact hb'
  have h787 := (C76_numbers ⟨Toy.skipHashes, Toy.aead, Base64.strict⟩ Toy.curve toyEd M' hb' nets' forwards forwards ['p'] countingRng r3
    b3).1 _ hr3
  have he := (C76_hidden_history ⟨Toy.skipHashes, Toy.aead, Base64.strict⟩ hA Toy.curve toyEd M M' _ [] hall ⟨hb', by simp⟩ (fun n => by
    simp only [Nets, nets, nets', List.mem_cons, Event.added.injEq, List.not_mem_nil, or_false]
    constructor
    · rintro (h | ⟨_, ⟨-, h⟩ | ⟨-, h⟩⟩)
      · exact .inl (.inr (.inr h))
      · exact .inl (.inl h)
      · exact .inl (.inr (.inl h))
    · rintro ((h | h | h) | ⟨_, h⟩)
      · exact .inr ⟨_, .inl ⟨rfl, h⟩⟩
      · exact .inr ⟨_, .inr ⟨rfl, h⟩⟩
      · exact .inl h
      · cases h) forwards forwards forwards forwards _ _ _ _ _ _ _ _ _ _ _ _ hrun2 (.nil (b3, ['p']))).1 _ _ hr0 hr3
  refine ⟨M, M', b0, b2, r0, hall, hr0, hrun2, ?_, by rw [he, h787]⟩
  obtain ⟨l, hl, e⟩ := C76_seed _ _ _ M hb.built _ _ _ _ _ hr0
  have hp : (l.map Prod.fst).Perm [0x80000000] := by
    refine (List.perm_ext_iff_of_nodup hl.1 (by decide)).mpr fun n => ?_
    rw [List.mem_singleton, ← nets n]
    constructor
    · intro h
      obtain ⟨⟨n, d⟩, hk, rfl⟩ := List.mem_map.mp h
      obtain ⟨f, hf, -⟩ := hl.2.1 n d hk
      exact Option.isSome_iff_exists.mpr ⟨f, hf⟩
    · exact hl.2.2 n
  have e' : (l.map fun k => (k.1, k.2.length)) = (l.map Prod.fst).map fun n => (n, keyLength n) := by
    rw [List.map_map]
    apply List.map_congr_left
    intro k hk
    simp only [Function.comp, builtin_length hb hl k hk]
  rw [e, e', Sizes.ofSeed, KC.Sizes.keys_perm (hp.map _)]
  decide +kernel

end KC.Props
