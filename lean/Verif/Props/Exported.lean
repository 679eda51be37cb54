import Verif.Props.Real
/-
C81: what exported key data contains.
-/
namespace KC.Props
open KC.Manager KC.Spec KC.Spec.Wallet KC.Spec.Bip32 KC.Secp
open KC.KeyPath (Path)
open KC.Spec.Crypt (AeadCorrect)
open KC.Mnemonic (Language)

/-- C81: Bitcoin and Ethereum make the same data from a seed, the root key of BIP-32: exported data of one network is data of the other. -/
theorem C81_shared (H : Hashes) (C : Curve) (Ed : Cardano.Ed) (net net' : Net) (hn : net ≠ .cardano) (hn' : net' ≠ .cardano) (seed d : Bytes)
    (h : (factoryOf H C Ed net).keyDataFromSeed seed = .ok d) :
    (factoryOf H C Ed net').keyDataFromSeed seed = .ok d ∧ d.length = 77 ∧ ∃ root, Root H seed root ∧ Layout H root d := by
  have e : (factoryOf H C Ed net').keyDataFromSeed seed = (factoryOf H C Ed net).keyDataFromSeed seed := by
    cases net <;> cases net' <;> first | rfl | exact absurd rfl hn | exact absurd rfl hn'
  have hb : (factoryOf H C Ed .bitcoin).keyDataFromSeed seed = .ok d := by
    rw [← h]
    cases net <;> first | rfl | exact absurd rfl hn
  obtain ⟨k, hk⟩ := (C31_load H C Ed seed d).1 hb
  obtain ⟨root, hr, hl, -⟩ := C31_secp H C Ed .bitcoin seed d k nofun hb hk
  refine ⟨e.trans h, ?_, root, hr, hl⟩
  obtain ⟨fp, ix, cc, kb, cs, rfl, l1, -, l2, l3, -, l4, l5, -⟩ := hl
  simp [l1, l2.1, l3, l4.1, l5]

/-- C81: the last third of Cardano data is the second half of the seed. -/
theorem C81_cardano (H : Hashes) (C : Curve) (Ed : Cardano.Ed) (seed d : Bytes)
    (h : (factoryOf H C Ed .cardano).keyDataFromSeed seed = .ok d) : seed.length = 64 ∧ d.length = 96 ∧ d.drop 64 = seed.drop 32 := by
  by_cases hl : seed.length = 64
  · obtain ⟨d', b0, b31, hd, l1, -, -, e, -⟩ := C30_from_seed H C Ed seed hl
    rw [h] at hd
    cases hd
    refine ⟨hl, l1, ?_⟩
    rw [e]
    refine List.drop_left' ?_
    have := H.sha512_len (seed.take 32)
    simp [this]
  · rw [C30_seed_size H C Ed .cardano seed hl] at h
    cases h

/-- What exported keys of a wallet with this seed are. -/
def Exports (H : Hashes) (C : Curve) (Ed : Cardano.Ed) (seed : Bytes) (l : List (Network × Bytes)) : Prop :=
  ∀ n d, (n, d) ∈ l →
    (n = 0x80000717 ∧ (factoryOf H C Ed .cardano).keyDataFromSeed seed = .ok d ∧ d.drop 64 = seed.drop 32) ∨
    ((n = 0x80000000 ∨ n = 0x8000003c) ∧ (∃ root, Root H seed root ∧ Layout H root d) ∧
      ∀ net, net ≠ .cardano → (factoryOf H C Ed net).keyDataFromSeed seed = .ok d)

/-- C81: after any history of a wallet made from a seed or a phrase by managers of built-in networks, the exported keys are the data the
networks make from the seed; what is exported for Bitcoin or Ethereum gives the keys of both. -/
theorem C81_wallet (E : Env) (hA : AeadCorrect E.A) (C : Curve) (Ed : Cardano.Ed) (itF : Iter (Network × Factory))
    (itK it : Iter (Network × Bytes)) (M : Manager) (hM : BuiltIn E.H C Ed M) (r r' : Rng) (b0 b : Bytes) (p0 p : Str) (evs : List Event)
    (hrun : Run E (b0, p0) evs (b, p)) (hev : ∀ M' n, Event.added M' n ∈ evs → BuiltIn E.H C Ed M') :
    (∀ seed, (M.keychainDataFromSeed E itF itK seed p0).run r = (.ok b0, r') →
      ∃ l, getKeysData E it b p = .ok l ∧ Exports E.H C Ed seed l ∧
        ∀ n, n ∈ l.map Prod.fst ↔ M.hasNetwork n = true ∨ ∃ M', Event.added M' n ∈ evs) ∧
    (∀ text lang, (M.keychainDataFromMnemonic E itF itK text p0 lang).run r = (.ok b0, r') →
      ∃ l, getKeysData E it b p = .ok l ∧ Exports E.H C Ed (phraseSeed E.H text) l ∧
        ∀ n, n ∈ l.map Prod.fst ↔ M.hasNetwork n = true ∨ ∃ M', Event.added M' n ∈ evs) := by
  have main : ∀ (c : Content) seed, Holds E b p c → (∀ n,
        (c.keys n ≠ none ↔ M.hasNetwork n = true ∨ ∃ M', Event.added M' n ∈ evs) ∧
        ∀ M' f, M' = M ∨ Event.added M' n ∈ evs → M'.getKeyFactory n = some f →
          ∃ d, f.keyDataFromSeed seed = .ok d ∧ c.keys n = some d) →
      (∀ M' n, Event.added M' n ∈ evs → ∃ f, M'.getKeyFactory n = some f) →
      ∃ l, getKeysData E it b p = .ok l ∧ Exports E.H C Ed seed l ∧
        ∀ n, n ∈ l.map Prod.fst ↔ M.hasNetwork n = true ∨ ∃ M', Event.added M' n ∈ evs := by
    intro c seed hc hk hadd
    obtain ⟨l, h1, -, h2⟩ := C41_keys_data E it b p c hc
    have hmem : ∀ n, n ∈ l.map Prod.fst ↔ c.keys n ≠ none := by
      intro n
      rw [List.mem_map]
      constructor
      · rintro ⟨⟨n', d⟩, hm, rfl⟩
        rw [(h2 n' d).mp hm]
        nofun
      · intro hne
        obtain ⟨d, hd⟩ := Option.ne_none_iff_exists'.mp hne
        exact ⟨(n, d), (h2 n d).mpr hd, rfl⟩
    refine ⟨l, h1, fun n d hm => ?_, fun n => (hmem n).trans (hk n).1⟩
    have hd := (h2 n d).mp hm
    obtain ⟨M', f, hM', hf, hb⟩ : ∃ M' f, (M' = M ∨ Event.added M' n ∈ evs) ∧ M'.getKeyFactory n = some f ∧ BuiltIn E.H C Ed M' := by
      rcases ((hk n).1.mp (by rw [hd]; nofun)) with h | ⟨M', h⟩
      · obtain ⟨f, hf⟩ := Option.isSome_iff_exists.mp h
        exact ⟨M, f, .inl rfl, hf, hM⟩
      · obtain ⟨f, hf⟩ := hadd M' n h
        exact ⟨M', f, .inr h, hf, hev _ _ h⟩
    obtain ⟨d', hdd, he⟩ := (hk n).2 M' f hM' hf
    rw [hd] at he
    cases he
    rcases hb.factory hf with ⟨rfl, rfl⟩ | ⟨rfl, rfl⟩ | ⟨rfl, rfl⟩
    · exact .inl ⟨rfl, hdd, (C81_cardano E.H C Ed seed d hdd).2.2⟩
    · exact .inr ⟨.inr rfl, (C81_shared _ C Ed .ethereum .ethereum nofun nofun seed d hdd).2.2, fun net hn =>
        (C81_shared _ C Ed .ethereum net nofun hn seed d hdd).1⟩
    · exact .inr ⟨.inl rfl, (C81_shared _ C Ed .bitcoin .bitcoin nofun nofun seed d hdd).2.2, fun net hn =>
        (C81_shared _ C Ed .bitcoin net nofun hn seed d hdd).1⟩
  obtain ⟨g1, g2⟩ := C44_created E hA itF itK M hM.built r r' b0 b p0 p evs hrun
  have hadd : ∀ c0, Holds E b0 p0 c0 → ∀ M' n, Event.added M' n ∈ evs → ∃ f, M'.getKeyFactory n = some f := by
    intro c0 h0 M' n h
    obtain ⟨c, -, -, -, -, -, -, h'⟩ := C44_history E hA b0 b p0 p evs c0 h0 hrun
    obtain ⟨f, _, _, hf, -⟩ := h' M' n h
    exact ⟨f, hf⟩
  constructor
  · intro seed h
    obtain ⟨keys, hh, hk⟩ := g1 seed h
    obtain ⟨-, _, -, h0⟩ := C40_from_seed E hA itF itK M hM.built seed p0 r r' b0 h
    exact main _ seed hh hk (hadd _ h0)
  · intro text lang h
    obtain ⟨keys, hh, hk⟩ := g2 text lang h
    obtain ⟨-, _, -, h0⟩ := C41_from_mnemonic E hA itF itK M hM.built text p0 lang r r' b0 h
    exact main _ _ hh hk (hadd _ h0)

/-! ### A case -/

open KC.Real.Known
open KC.Real.Secp256k1 (curve)

/-- A wallet of the known seed with all networks: the exported Bitcoin and Ethereum data are the same, and the Cardano data ends with the
second half of the seed. -/
example (Ed : Cardano.Ed) : ∃ M blob l d e, BuiltIn Real.hashes (curve (fun _ _ _ => 7) 1) Ed M ∧
    (∃ r', (M.keychainDataFromSeed (realEnv Base64.strict) forwards forwards abSeed ['p']).run countingRng = (.ok blob, r')) ∧
    getKeysData (realEnv Base64.strict) forwards blob ['p'] = .ok l ∧
    ((0x80000000, d) : Network × Bytes) ∈ l ∧ ((0x8000003c, d) : Network × Bytes) ∈ l ∧ ((0x80000717, e) : Network × Bytes) ∈ l ∧
    e.drop 64 = abSeed.drop 32 := by
  obtain ⟨M, h1, hnets⟩ := C38_new Real.hashes (curve (fun _ _ _ => 7) 1) Ed true true true 65535 (by decide) (by simp)
  have hb : BuiltIn Real.hashes (curve (fun _ _ _ => 7) 1) Ed M := ⟨65535, true, true, true, .inl h1⟩
  have hb2 := hb
  rw [← realEnv_H Base64.strict] at hb2
  obtain ⟨blob, r', hmade⟩ : ∃ blob r',
      (M.keychainDataFromSeed (realEnv Base64.strict) forwards forwards abSeed ['p']).run countingRng = (.ok blob, r') := by
    refine C40_from_seed_succeeds _ _ _ _ _ _ _ counting_delivers abSeed_len ?_
    intro n f hf
    rcases hb.factory hf with ⟨-, rfl⟩ | ⟨-, rfl⟩ | ⟨-, rfl⟩
    · obtain ⟨d, _, _, h, -⟩ := C30_from_seed Real.hashes (curve (fun _ _ _ => 7) 1) Ed abSeed abSeed_len
      exact ⟨d, h⟩
    · exact data_exists _ _ Ed abSeed ab0 abSeed_len ab0_root .ethereum nofun
    · exact data_exists _ _ Ed abSeed ab0 abSeed_len ab0_root .bitcoin nofun
  obtain ⟨l, hl, hx, hm⟩ := (C81_wallet _ (realEnv_correct _) _ Ed forwards forwards forwards M hb2 countingRng r' blob blob ['p'] ['p'] []
    (.nil _) (by simp)).1 abSeed hmade
  have has : ∀ n, M.hasNetwork n = true → ∃ d, (n, d) ∈ l := by
    intro n hn
    obtain ⟨⟨n', d⟩, h1, rfl⟩ := List.mem_map.mp ((hm n).mpr (.inl hn))
    exact ⟨d, h1⟩
  obtain ⟨d1, m1⟩ := has 0x80000000 ((hnets _).mpr (by decide))
  obtain ⟨d2, m2⟩ := has 0x8000003c ((hnets _).mpr (by decide))
  obtain ⟨d3, m3⟩ := has 0x80000717 ((hnets _).mpr (by decide))
  rcases hx _ _ m1 with ⟨e, -⟩ | ⟨-, -, q1⟩
  · exact absurd e (by decide)
  rcases hx _ _ m2 with ⟨e, -⟩ | ⟨-, -, q2⟩
  · exact absurd e (by decide)
  rcases hx _ _ m3 with ⟨-, -, q3⟩ | ⟨e, -⟩
  · have e := (q1 .bitcoin nofun).symm.trans (q2 .bitcoin nofun)
    cases e
    exact ⟨M, blob, l, d1, d3, hb, ⟨r', hmade⟩, hl, m1, m2, m3, q3⟩
  · exact absurd e (by decide)

end KC.Props
