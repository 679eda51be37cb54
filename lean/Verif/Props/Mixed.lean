import Verif.Props.Foreign
import Verif.Props.Real
/-
C100: the parts of a wallet are not checked against each other.
-/
namespace KC.Props
open KC.Data KC.Manager KC.Spec KC.Spec.Crypt KC.Spec.Data KC.Spec.Wallet
open KC.Mnemonic (Language)

/-- C100: a wallet with any seed, phrase, language and keys, whether they belong together or not, is held by some blob: the text is written
as the library writes it and encrypted with the password. -/
theorem C100_any (E : Env) (hA : AeadCorrect E.A) (seed : Option Bytes) (text : Option Str) (lang : Option Language)
    (ks : List (Network × Bytes)) (hks : (ks.map Prod.fst).Nodup) (pw : Str) (r : Rng) (hr : Delivers r) :
    ∃ blob r', (Crypt.encrypt (ε := KC.Error) E.H E.A (Str.utf8 (Compact.file seed text lang ks)) pw).run r = (.ok blob, r') ∧
      ∃ keys, (∀ n d, (n, d) ∈ ks ↔ keys n = some d) ∧ Holds E blob pw ⟨seed, text, lang, keys⟩ := by
  have ht := C97_text forwards ⟨seed, text, lang, ⟨ks, hks⟩⟩
  obtain ⟨blob, r', h⟩ := C32_succeeds (ε := KC.Error) E.H E.A (Str.utf8 (Compact.file seed text lang ks)) pw r hr.1 hr.2.1 hr.2.2
  refine ⟨blob, r', h, (⟨ks, hks⟩ : NMap Bytes).get, fun n d => (NMap.get_eq_some (⟨ks, hks⟩ : NMap Bytes) n d).symm, ?_⟩
  rw [show Compact.file seed text lang ks = Compact.file seed text lang (forwards.order ks) from rfl, ← ht] at h
  exact store_holds hA (it := forwards) (w := ⟨seed, text, lang, ⟨ks, hks⟩⟩) (r := r) (r' := r') h

/-- C100: what opening gives depends on the stored keys alone: two blobs from which the same keys are exported open alike, whatever seeds and
phrases they hold. -/
theorem C100_open (E E' : Env) (it it' : Iter (Network × Bytes)) (M : Manager) (b b' : Bytes) (p p' : Str) (ks : List (Network × Bytes))
    (h : getKeysData E it b p = .ok ks) (h' : getKeysData E' it' b' p' = .ok ks) :
    M.keychainFromData E it b p = M.keychainFromData E' it' b' p' := by
  rw [getKeysData, Res.map_eq_ok] at h h'
  obtain ⟨w, hw, e⟩ := h
  obtain ⟨w', hw', e'⟩ := h'
  rw [keychainFromData, keychainFromData, hw, hw', Res.bind_ok, Res.bind_ok, e, e']

/-- C100: the phrase that is shown is the stored text, whatever seed and keys are stored. -/
theorem C100_phrase (E E' : Env) (b b' : Bytes) (p p' : Str) (c c' : Content) (h : Holds E b p c) (h' : Holds E' b' p' c')
    (hm : c.mnemonic = c'.mnemonic) (hl : c.language = c'.language) : retrieveMnemonic E b p = retrieveMnemonic E' b' p' := by
  obtain ⟨h1, h2⟩ := C41_retrieve E b p c h
  obtain ⟨h1', h2'⟩ := C41_retrieve E' b' p' c' h'
  cases e1 : c.mnemonic with
  | none => rw [h2 (.inl e1), h2' (.inl (hm ▸ e1))]
  | some t =>
    cases e2 : c.language with
    | none => rw [h2 (.inr e2), h2' (.inr (hl ▸ e2))]
    | some l => rw [h1 t l e1 e2, h1' t l (hm ▸ e1) (hl ▸ e2)]

/-- C100: a key is added from the stored seed if there is one, whatever phrase and keys are stored: nothing else about them is looked at
than that the network has no key yet. -/
theorem C100_add (E : Env) (hA : AeadCorrect E.A) (it : Iter (Network × Bytes)) (M : Manager) (blob : Bytes) (pw : Str) (c : Content)
    (h : Holds E blob pw c) (seed : Bytes) (hs : c.seed = some seed) (hl : seed.length = 64) (n : Network) (f : Factory)
    (hf : M.getKeyFactory n = some f) (hn : c.keys n = none) (d : Bytes) (hd : f.keyDataFromSeed seed = .ok d) (r : Rng) (hr : Delivers r) :
    ∃ blob' r', (M.addNetwork E it blob pw n).run r = (.ok blob', r') ∧
      Holds E blob' pw { c with keys := fun m => if m = n then some d else c.keys m } := by
  have hu : Usable M.seedSize c := by
    unfold Usable
    rw [hs]
    exact hl
  have hso : seedOf E.H c = some seed := by
    unfold seedOf
    rw [hs]
  obtain ⟨blob', r', hb⟩ := (((((C43_outcome E it M blob pw n r).2 f hf).2 c h).2 hn).2.2.2 seed hu hso).2.2 d hd hr
  obtain ⟨f', s', d', g1, -, -, g2, g3, g4⟩ := C43_added E hA it M blob blob' pw n r r' hb c h
  rw [hf] at g1; cases g1
  rw [hso] at g2; cases g2
  rw [hd] at g3; cases g3
  exact ⟨blob', r', hb, g4⟩

/-- C100: so a blob can open to keys of some seeds, show the phrase of another, and add keys of a third, and no call fails. -/
theorem C100_mixed (E : Env) (hA : AeadCorrect E.A) (it : Iter (Network × Bytes)) (M : Manager) (hM : Honest M) (pw : Str) (r : Rng)
    (hr : Delivers r) (seed : Bytes) (hl : seed.length = 64) (text : Str) (lang : Language) (ks : List (Network × Bytes))
    (hks : (ks.map Prod.fst).Nodup) (hload : ∀ n f d, M.getKeyFactory n = some f → (n, d) ∈ ks → ∃ k, f.keyFromData d = .ok k)
    (n : Network) (f : Factory) (hf : M.getKeyFactory n = some f) (hn : n ∉ ks.map Prod.fst) (d : Bytes) (hd : f.keyDataFromSeed seed = .ok d) :
    ∃ blob kc blob' r', M.keychainFromData E it blob pw = .ok kc ∧
      (∀ n f d, M.getKeyFactory n = some f → (n, d) ∈ ks → ∃ k, f.keyFromData d = .ok k ∧ Acts kc n k) ∧
      retrieveMnemonic E blob pw = .ok (text, lang) ∧
      (M.addNetwork E it blob pw n).run r = (.ok blob', r') ∧ retrieveMnemonic E blob' pw = .ok (text, lang) ∧
      ∃ l, getKeysData E it blob' pw = .ok l ∧ ∀ m e, (m, e) ∈ l ↔ (m, e) ∈ ks ∨ (m = n ∧ e = d) := by
  obtain ⟨blob, -, -, keys, hk, hh⟩ := C100_any E hA (some seed) (some text) (some lang) ks hks pw r hr
  obtain ⟨o1, o2, -, -⟩ := C40_open E it M hM blob pw _ hh
  obtain ⟨kc, hkc⟩ := o1 fun n f d h1 h2 => hload n f d h1 ((hk n d).mpr h2)
  obtain ⟨-, hsh⟩ := o2 kc hkc
  have hnone : keys n = none := by
    cases e : keys n with
    | none => rfl
    | some d => exact absurd (List.mem_map.mpr ⟨(n, d), (hk n d).mpr e, rfl⟩) hn
  obtain ⟨blob', r', hadd, hh'⟩ := C100_add E hA it M blob pw _ hh seed rfl hl n f hf hnone d hd r hr
  obtain ⟨l, hl1, -, hl2⟩ := C41_keys_data E it blob' pw _ hh'
  refine ⟨blob, kc, blob', r', hkc, fun n f d h1 h2 => ?_, (C41_retrieve E blob pw _ hh).1 text lang rfl rfl, hadd,
    (C41_retrieve E blob' pw _ hh').1 text lang rfl rfl, l, hl1, fun m e => ?_⟩
  · have := hsh n
    simp only [h1, (hk n d).mp h2] at this
    exact this
  · rw [hl2 m e]
    show (if m = n then some d else keys m) = some e ↔ _
    by_cases hm : m = n
    · subst hm
      rw [if_pos rfl, hk, hnone]
      simp [eq_comm]
    · rw [if_neg hm, hk]
      simp [hm]

/-! ### A case -/

open KC.Spec.Bip32 (Root)
open KC.Real.Secp256k1 (curve)
open KC.Real.Known

theorem tvSeed_len : tvSeed.length = 64 := Bytes.beBytes_length _ _

/-- Bitcoin key of one published seed, Ethereum key of another, the seed of 64 zeros and twelve times "zoo" in one wallet: it opens with both
keys, shows the phrase, and gets the Cardano key of the zeros. -/
theorem C100_case (nonce : Nonces) (tries : Nat) (Ed : Cardano.Ed) : ∃ M blob blob' kc dB dE dC r',
    BuiltIn Real.hashes (curve nonce tries) Ed M ∧ tvSeed ≠ abSeed ∧
    (factoryOf Real.hashes (curve nonce tries) Ed .bitcoin).keyDataFromSeed tvSeed = .ok dB ∧
    (factoryOf Real.hashes (curve nonce tries) Ed .ethereum).keyDataFromSeed abSeed = .ok dE ∧
    (factoryOf Real.hashes (curve nonce tries) Ed .cardano).keyDataFromSeed (List.replicate 64 0) = .ok dC ∧
    M.keychainFromData (realEnv Base64.strict) forwards blob ['p'] = .ok kc ∧ kc.hasNetwork 0x80000000 = true ∧ kc.hasNetwork 0x8000003c = true ∧
    retrieveMnemonic (realEnv Base64.strict) blob ['p'] = .ok (Spec.spaced (List.replicate 12 ['z', 'o', 'o']), .english) ∧
    (M.addNetwork (realEnv Base64.strict) forwards blob ['p'] 0x80000717).run countingRng = (.ok blob', r') ∧
    ∃ l, getKeysData (realEnv Base64.strict) forwards blob' ['p'] = .ok l ∧
      ∀ m e, (m, e) ∈ l ↔ (m, e) ∈ [((0x80000000 : Network), dB), (0x8000003c, dE)] ∨ (m = 0x80000717 ∧ e = dC) := by
  obtain ⟨M, h1, hnets⟩ := C38_new Real.hashes (curve nonce tries) Ed true true true 65535 (by decide) (by simp)
  have hb : BuiltIn Real.hashes (curve nonce tries) Ed M := ⟨65535, true, true, true, .inl h1⟩
  obtain ⟨dB, hB⟩ := data_exists Real.hashes (curve nonce tries) Ed tvSeed tv0 tvSeed_len tv0_root .bitcoin nofun
  obtain ⟨dE, hE⟩ := data_exists Real.hashes (curve nonce tries) Ed abSeed ab0 abSeed_len ab0_root .ethereum nofun
  obtain ⟨dC, _, _, hC, -⟩ := C30_from_seed Real.hashes (curve nonce tries) Ed (List.replicate 64 0) (by decide)
  obtain ⟨kB, hkB⟩ := (C31_load _ _ Ed tvSeed dB).1 hB
  obtain ⟨kE, hkE⟩ := ((C31_load _ _ Ed abSeed dE).2 hE _ ab0_root).mpr ⟨_, eth_coin_walk _ _⟩
  have fac : ∀ n, (n = 0x80000717 ∨ n = 0x8000003c ∨ n = 0x80000000) → ∃ f, M.getKeyFactory n = some f := by
    intro n hn
    exact Option.isSome_iff_exists.mp ((hnets n).mpr (by rcases hn with rfl | rfl | rfl <;> decide))
  obtain ⟨fC, hfC⟩ := fac 0x80000717 (.inl rfl)
  obtain ⟨fE, hfE⟩ := fac 0x8000003c (.inr (.inl rfl))
  obtain ⟨fB, hfB⟩ := fac 0x80000000 (.inr (.inr rfl))
  obtain rfl : fC = factoryOf Real.hashes (curve nonce tries) Ed .cardano := by
    rcases hb.factory hfC with ⟨-, e⟩ | ⟨e, -⟩ | ⟨e, -⟩
    · exact e
    · exact absurd e (by decide)
    · exact absurd e (by decide)
  have hload : ∀ n f d, M.getKeyFactory n = some f → (n, d) ∈ [((0x80000000 : Network), dB), (0x8000003c, dE)] →
      ∃ k, f.keyFromData d = .ok k := by
    intro n f d hf hm
    rw [List.mem_cons, List.mem_singleton, Prod.mk.injEq, Prod.mk.injEq] at hm
    rcases hm with ⟨rfl, rfl⟩ | ⟨rfl, rfl⟩
    · rcases hb.factory hf with ⟨e, -⟩ | ⟨e, -⟩ | ⟨-, rfl⟩
      · exact absurd e (by decide)
      · exact absurd e (by decide)
      · exact ⟨kB, hkB⟩
    · rcases hb.factory hf with ⟨e, -⟩ | ⟨-, rfl⟩ | ⟨e, -⟩
      · exact absurd e (by decide)
      · exact ⟨kE, hkE⟩
      · exact absurd e (by decide)
  obtain ⟨blob, kc, blob', r', g1, g2, g3, g4, -, l, g5, g6⟩ := C100_mixed (realEnv Base64.strict) (realEnv_correct _) forwards M hb.honest
    ['p'] countingRng counting_delivers (List.replicate 64 0) (by decide) (Spec.spaced (List.replicate 12 ['z', 'o', 'o'])) .english
    [((0x80000000 : Network), dB), (0x8000003c, dE)] (by simp only [List.map_cons, List.map_nil]; decide) hload 0x80000717 _ hfC
    (by simp only [List.map_cons, List.map_nil]; decide) dC hC
  obtain ⟨_, -, a1⟩ := g2 _ _ dB hfB (List.mem_cons_self ..)
  obtain ⟨_, -, a2⟩ := g2 _ _ dE hfE (List.mem_cons_of_mem _ (List.mem_cons_self ..))
  exact ⟨M, blob, blob', kc, dB, dE, dC, r', hb, by decide +kernel, hB, hE, hC, g1, a1.1, a2.1, g3, g4, l, g5, g6⟩

end KC.Props
