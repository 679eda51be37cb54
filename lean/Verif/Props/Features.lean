import Verif.Props.Manager
import Verif.Props.Random
/-
C94: builds of the library with different features, and managers for different networks, handing phrases and wallets to each other.
-/
namespace KC.Props
open KC.Manager KC.Spec KC.Spec.Wallet KC.Spec.Crypt
open KC.Mnemonic (Language)

/-- A manager that has Bitcoin or Ethereum. -/
def HasSecp (M : Manager) : Prop := M.hasNetwork 0x80000000 = true ∨ M.hasNetwork 0x8000003c = true

/-- `blob` was made by the manager from this seed, and from this phrase in this language, if any. -/
inductive Made (E : Env) (M : Manager) (pw : Str) (blob : Bytes) : Bytes → Option (Str × Language) → Prop
  | seed (itF itK seed r r') : (M.keychainDataFromSeed E itF itK seed pw).run r = (.ok blob, r') → Made E M pw blob seed none
  | phrase (itF itK text) (lang : Option Language) (r r') :
      (M.keychainDataFromMnemonic E itF itK text pw lang).run r = (.ok blob, r') →
      Made E M pw blob (phraseSeed E.H text) (some (text, lang.getD .english))

/-- C94: in any build, the constructors make the managers that the full build makes for those of the networks that are built in. -/
theorem C94_features (H : Hashes) (C : Secp.Curve) (Ed : Cardano.Ed) (ca eth btc : Bool) (umax : Nat) (nets : List Network) :
    Manager.new umax (allNetworks H C Ed ca eth btc) = withNetworks umax (allNetworks H C Ed true true true) (Network.all ca eth btc) ∧
    withNetworks umax (allNetworks H C Ed ca eth btc) nets =
      withNetworks umax (allNetworks H C Ed true true true) (nets.filter fun n => n ∈ Network.all ca eth btc) := by
  have hc : (Cardano.factory H Ed).network = Cardano.coinType := rfl
  have he : (Ethereum.factory H C).network = Ethereum.coinType := rfl
  have hb : (Bitcoin.factory H C).network = Bitcoin.coinType := rfl
  have n1 : Cardano.coinType ≠ Ethereum.coinType := by decide
  have n2 : Cardano.coinType ≠ Bitcoin.coinType := by decide
  have n3 : Ethereum.coinType ≠ Bitcoin.coinType := by decide
  have sub : allNetworks H C Ed ca eth btc =
      (allNetworks H C Ed true true true).filter fun f => (Network.all ca eth btc).any fun n => n = f.network := by
    cases ca <;> cases eth <;> cases btc <;>
      simp [Network.all, allNetworks, hc, he, hb, n1, n2, n3, n1.symm, n2.symm, n3.symm]
  constructor
  · rw [Manager.new, withNetworks, ← sub]
  · rw [withNetworks, withNetworks, sub, List.filter_filter]
    congr 1
    apply List.filter_congr
    intro f _
    rw [Bool.eq_iff_iff]
    simp only [Bool.and_eq_true, List.any_eq_true, decide_eq_true_eq, List.mem_filter]
    constructor
    · rintro ⟨⟨n, h1, rfl⟩, m, h2, h3⟩
      exact ⟨_, ⟨h1, h3 ▸ h2⟩, rfl⟩
    · rintro ⟨n, ⟨h1, h2⟩, rfl⟩
      exact ⟨⟨_, h1, rfl⟩, _, h2, rfl⟩

theorem BuiltIn.size {H : Hashes} {C : Secp.Curve} {Ed : Cardano.Ed} {M : Manager} (h : BuiltIn H C Ed M) :
    (HasSecp M → M.seedSize = 128) ∧ (¬ HasSecp M → M.seedSize = 96) := by
  have hs : M.seedSize = if M.hasNetwork 0x80000000 ∨ M.hasNetwork 0x8000003c then 128 else 96 := by
    obtain ⟨umax, ca, eth, btc, h | ⟨nets, h⟩⟩ := h
    · rw [(C94_features H C Ed ca eth btc umax []).1] at h
      exact C38_seed_size H C Ed _ _ _ _ _ M h
    · exact C38_seed_size H C Ed _ _ _ _ _ M h
  exact ⟨fun h => hs.trans (if_pos h), fun h => hs.trans (if_neg h)⟩

theorem phrase_error {E : Env} {M : Manager} {text : Str} {l : Language} {size : Nat} (hp : Phrase size l text) :
    (size / 32 * 3 < M.seedSize / 32 * 3 → M.seedFromData E none (some text) (some l) =
      .err (.mnemonicError (.mnemonicToShort (size / 32 * 3) (M.seedSize / 32 * 3)))) ∧
    (M.seedSize / 32 * 3 < size / 32 * 3 → M.seedFromData E none (some text) (some l) =
      .err (.mnemonicError (.mnemonicToLong (size / 32 * 3) (M.seedSize / 32 * 3)))) := by
  obtain ⟨ws, e, h1, h2, h3⟩ := hp
  obtain ⟨a, b, -⟩ := (C13_outcome E.H [] M.seedSize l text).1 ws e h1 h2
  rw [← h3]
  constructor
  · intro hlt
    show (Mnemonic.seedFromMnemonic E.H text [] M.seedSize l).mapErr Error.mnemonicError = _
    rw [a hlt]; rfl
  · intro hlt
    show (Mnemonic.seedFromMnemonic E.H text [] M.seedSize l).mapErr Error.mnemonicError = _
    rw [b hlt]; rfl

/-- C94: a phrase that one manager generates can be restored by another exactly if both or neither have Bitcoin or Ethereum; else it has 9
words where 12 are asked for, or 12 where 9 are. -/
theorem C94_phrase (E : Env) (C : Secp.Curve) (Ed : Cardano.Ed) (M M' : Manager) (hM : BuiltIn E.H C Ed M) (hM' : BuiltIn E.H C Ed M')
    (lang : Option Language) (r r' : Rng) (text : Str) (h : (M.generateMnemonic E lang).run r = (.ok text, r'))
    (itF : Iter (Network × Factory)) (itK : Iter (Network × Bytes)) (pw : Str) (q : Rng) :
    ((HasSecp M ↔ HasSecp M') → Delivers q →
      (∀ n f, M'.getKeyFactory n = some f → ∃ d, f.keyDataFromSeed (phraseSeed E.H text) = .ok d) →
      ∃ blob q', (M'.keychainDataFromMnemonic E itF itK text pw lang).run q = (.ok blob, q')) ∧
    (¬ HasSecp M → HasSecp M' →
      (M'.keychainDataFromMnemonic E itF itK text pw lang).run q = (.err (.mnemonicError (.mnemonicToShort 9 12)), q)) ∧
    (HasSecp M → ¬ HasSecp M' →
      (M'.keychainDataFromMnemonic E itF itK text pw lang).run q = (.err (.mnemonicError (.mnemonicToLong 12 9)), q)) := by
  have hp := (C56_generated E M lang r r' text h).1
  refine ⟨fun hs hr hk => ?_, fun h1 h2 => ?_, fun h1 h2 => ?_⟩
  · have : M.seedSize = M'.seedSize := by
      by_cases hx : HasSecp M
      · rw [hM.size.1 hx, hM'.size.1 (hs.mp hx)]
      · rw [hM.size.2 hx, hM'.size.2 (hs.not.mp hx)]
    rw [this] at hp
    exact C41_from_mnemonic_succeeds E itF itK M' text pw lang q hr hp hk
  · have e := (phrase_error (E := E) (M := M') hp).1 (by rw [hM.size.2 h1, hM'.size.1 h2]; decide)
    rw [hM.size.2 h1, hM'.size.1 h2] at e
    rw [keychainDataFromMnemonic, newKeychainData, e]
    rfl
  · have e := (phrase_error (E := E) (M := M') hp).2 (by rw [hM.size.1 h1, hM'.size.2 h2]; decide)
    rw [hM.size.1 h1, hM'.size.2 h2] at e
    rw [keychainDataFromMnemonic, newKeychainData, e]
    rfl

theorem Made.holds {E : Env} (hA : AeadCorrect E.A) {M : Manager} (hM : Built M) {pw : Str} {blob seed : Bytes}
    {ph : Option (Str × Language)} (h : Made E M pw blob seed ph) :
    seed.length = 64 ∧ ∃ c, Holds E blob pw c ∧ KeysFrom M seed c.keys ∧ seedOf E.H c = some seed ∧
      c.mnemonic = ph.map Prod.fst ∧ c.language = ph.map Prod.snd ∧ (ph = none → c.seed = some seed) ∧ (ph ≠ none → c.seed = none) ∧
      ∀ p, ph = some p → Phrase M.seedSize p.2 p.1 := by
  cases h with
  | seed itF itK seed r r' h =>
    obtain ⟨hl, keys, hk, hH⟩ := C40_from_seed E hA itF itK M hM seed pw r r' blob h
    exact ⟨hl, _, hH, hk, rfl, rfl, rfl, fun _ => rfl, fun h => absurd rfl h, nofun⟩
  | phrase itF itK text lang r r' h =>
    obtain ⟨hp, keys, hk, hH⟩ := C41_from_mnemonic E hA itF itK M hM text pw lang r r' blob h
    refine ⟨E.H.pbkdf2_len _ _ _ _, _, hH, hk, rfl, rfl, rfl, nofun, fun _ => rfl, ?_⟩
    rintro p e
    cases e
    exact hp

theorem BuiltIn.agree {H : Hashes} {C : Secp.Curve} {Ed : Cardano.Ed} {M M' : Manager} (h : BuiltIn H C Ed M) (h' : BuiltIn H C Ed M')
    {n : Network} {f f' : Factory} (hf : M.getKeyFactory n = some f) (hf' : M'.getKeyFactory n = some f') : f' = f := by
  rcases h.factory hf with ⟨rfl, rfl⟩ | ⟨rfl, rfl⟩ | ⟨rfl, rfl⟩ <;>
    rcases h'.factory hf' with ⟨e, rfl⟩ | ⟨e, rfl⟩ | ⟨e, rfl⟩ <;>
      first
        | rfl
        | exact absurd e (by decide)

theorem has_iff (M : Manager) (n : Network) : M.hasNetwork n = (M.getKeyFactory n).isSome := rfl

/-- C94: a wallet that one manager made opens with another to exactly the networks of both, each with the key from the seed; it does open,
unless both have Ethereum and the seed has no key at m/44'/60'. -/
theorem C94_open (E : Env) (hA : AeadCorrect E.A) (C : Secp.Curve) (Ed : Cardano.Ed) (M M' : Manager) (hM : BuiltIn E.H C Ed M)
    (hM' : BuiltIn E.H C Ed M') (pw : Str) (blob seed : Bytes) (ph : Option (Str × Language)) (h : Made E M pw blob seed ph)
    (it : Iter (Network × Bytes)) :
    (∀ kc, M'.keychainFromData E it blob pw = .ok kc → ∀ n, kc.hasNetwork n = (M.hasNetwork n && M'.hasNetwork n) ∧
      ∀ f, M.getKeyFactory n = some f → M'.hasNetwork n = true →
        ∃ d k, f.keyDataFromSeed seed = .ok d ∧ f.keyFromData d = .ok k ∧ Acts kc n k) ∧
    (M.hasNetwork 0x8000003c = false ∨ M'.hasNetwork 0x8000003c = false ∨
        (∀ root, Spec.Bip32.Root E.H seed root → ∃ y, Spec.Bip32.Walk E.H C root [0x8000002C, 0x8000003c] y) →
      ∃ kc, M'.keychainFromData E it blob pw = .ok kc) := by
  obtain ⟨hl, c, hH, hk, -⟩ := h.holds hA hM.built
  obtain ⟨o1, o2, -, -⟩ := C40_open E it M' hM'.honest blob pw c hH
  constructor
  · intro kc hkc n
    have hs := (o2 kc hkc).2 n
    have hkn := hk n
    rw [has_iff, has_iff]
    cases hf : M.getKeyFactory n with
    | none =>
      rw [hf] at hkn
      dsimp only at hkn
      rw [hkn] at hs
      refine ⟨?_, nofun⟩
      cases hf' : M'.getKeyFactory n <;> rw [hf'] at hs <;> simpa using hs
    | some f =>
      rw [hf] at hkn
      dsimp only at hkn
      obtain ⟨d, hd, hc⟩ := hkn
      rw [hc] at hs
      cases hf' : M'.getKeyFactory n with
      | none =>
        rw [hf'] at hs
        exact ⟨by simpa using hs, nofun⟩
      | some f' =>
        rw [hf'] at hs
        dsimp only at hs
        obtain ⟨k, hk, hact⟩ := hs
        obtain rfl := hM.agree hM' hf hf'
        refine ⟨by simpa using hact.1, fun g hg _ => ?_⟩
        cases hg
        exact ⟨d, k, hd, hk, hact⟩
  · intro hw
    apply o1
    intro n f' d hf' hd
    have hkn := hk n
    cases hf : M.getKeyFactory n with
    | none =>
      rw [hf] at hkn
      dsimp only at hkn
      rw [hkn] at hd
      cases hd
    | some f =>
      rw [hf] at hkn
      dsimp only at hkn
      obtain ⟨d', hd', hc⟩ := hkn
      rw [hc] at hd
      cases hd
      obtain rfl := hM.agree hM' hf hf'
      rcases hM.factory hf with ⟨rfl, rfl⟩ | ⟨rfl, rfl⟩ | ⟨rfl, rfl⟩
      · obtain ⟨d', _, _, a, -, -, ⟨k, b⟩, -⟩ := C30_from_seed E.H C Ed seed hl
        rw [show (Spec.factoryOf E.H C Ed .cardano).keyDataFromSeed seed = .ok d from hd'] at a
        cases a
        exact ⟨k, b⟩
      · have hw : ∀ root, Spec.Bip32.Root E.H seed root → ∃ y, Spec.Bip32.Walk E.H C root [0x8000002C, 0x8000003c] y := by
          rcases hw with hw | hw | hw
          · rw [has_iff, hf] at hw; cases hw
          · rw [has_iff, hf'] at hw; cases hw
          · exact hw
        have hr : ∃ root, Spec.Bip32.Root E.H seed root := by
          obtain ⟨s, h1, h2⟩ := Res.bind_eq_ok.mp hd'
          obtain ⟨x, hx, -⟩ := Res.bind_eq_ok.mp h2
          have hsv : s.val = seed := by
            unfold seedOrError Bip39.Seed.fromSlice at h1
            split at h1
            · cases h1; rfl
            · cases h1
          rw [Res.mapErr_eq_ok, Secp.fromSeed_ok, hsv] at hx
          exact ⟨x, hx⟩
        obtain ⟨root, hroot⟩ := hr
        exact ((C31_load E.H C Ed seed d).2 hd' root hroot).mpr (hw root hroot)
      · exact (C31_load E.H C Ed seed d).1 hd'

/-- C94: the other manager can add a network of its own to the wallet if it was made from a seed, or if both or neither have Bitcoin or
Ethereum, and the first goes on seeing what it saw; else the phrase in the wallet has 9 words where 12 are asked for, or 12 where 9 are. -/
theorem C94_add (E : Env) (hA : AeadCorrect E.A) (C : Secp.Curve) (Ed : Cardano.Ed) (M M' : Manager) (hM : BuiltIn E.H C Ed M)
    (hM' : BuiltIn E.H C Ed M') (pw : Str) (blob seed : Bytes) (ph : Option (Str × Language)) (h : Made E M pw blob seed ph)
    (n : Network) (f : Factory) (hf : M'.getKeyFactory n = some f) (hn : M.hasNetwork n = false) (it : Iter (Network × Bytes)) (q : Rng) :
    (ph = none ∨ (HasSecp M ↔ HasSecp M') → ∀ d, f.keyDataFromSeed seed = .ok d → Delivers q →
      ∃ blob' q', (M'.addNetwork E it blob pw n).run q = (.ok blob', q') ∧
        ∀ it it' kc, M.keychainFromData E it blob pw = .ok kc → ∃ kc', M.keychainFromData E it' blob' pw = .ok kc' ∧
          ∀ m, kc'.hasNetwork m = kc.hasNetwork m ∧ ∀ path, kc'.pubKey m path = kc.pubKey m path ∧
            (∀ x, kc'.sign m x path = kc.sign m x path) ∧ ∀ x s, kc'.verify m x s path = kc.verify m x s path) ∧
    (ph ≠ none → ¬ HasSecp M → HasSecp M' →
      (M'.addNetwork E it blob pw n).run q = (.err (.mnemonicError (.mnemonicToShort 9 12)), q)) ∧
    (ph ≠ none → HasSecp M → ¬ HasSecp M' →
      (M'.addNetwork E it blob pw n).run q = (.err (.mnemonicError (.mnemonicToLong 12 9)), q)) := by
  obtain ⟨hl, c, hH, hk, hs, hm, hlg, hse, hse', hph⟩ := h.holds hA hM.built
  have hMn : M.getKeyFactory n = none := by
    rw [has_iff] at hn
    exact Option.not_isSome_iff_eq_none.mp (by simp [hn])
  have hkn : c.keys n = none := by
    have := hk n
    rw [hMn] at this
    exact this
  have bad : ∀ p, ph = some p → ∀ e, M'.seedFromData E none (some p.1) (some p.2) = .err e →
      (M'.addNetwork E it blob pw n).run q = (.err e, q) := by
    intro p hp e he
    obtain ⟨w, hw, rfl⟩ := load_holds hH
    rw [addNetwork, show M'.factories.get n = some f from hf, hw]
    simp only [Res.okOr, RM.lift_ok_bind]
    rw [if_neg (by rw [show w.keys.get n = none from hkn]; simp), show w.seed = none from hse' (by rw [hp]; nofun),
      show w.mnemonic = some p.1 by rw [show w.mnemonic = _ from hm, hp]; rfl,
      show w.dictionary = some p.2 by rw [show w.dictionary = _ from hlg, hp]; rfl, he]
    rfl
  refine ⟨fun hok d hd hq => ?_, fun hne h1 h2 => ?_, fun hne h1 h2 => ?_⟩
  · have hu : Usable M'.seedSize c := by
      unfold Usable
      cases hp : ph with
      | none => rw [hse hp]; exact hl
      | some p =>
        rw [hse' (by rw [hp]; nofun)]
        refine ⟨p.1, p.2, by rw [hm, hp]; rfl, by rw [hlg, hp]; rfl, ?_⟩
        have hiff := hok.resolve_left (by rw [hp]; nofun)
        have : M.seedSize = M'.seedSize := by
          by_cases hx : HasSecp M
          · rw [hM.size.1 hx, hM'.size.1 (hiff.mp hx)]
          · rw [hM.size.2 hx, hM'.size.2 (hiff.not.mp hx)]
        rw [← this]
        exact hph p hp
    obtain ⟨blob', q', hrun⟩ := ((((C43_outcome E it M' blob pw n q).2 f hf).2 c hH).2 hkn).2.2.2 seed hu hs |>.2.2 d hd hq
    refine ⟨blob', q', hrun, fun it1 it2 kc hkc => ?_⟩
    obtain ⟨f1, seed1, d1, -, -, -, -, -, hH'⟩ := C43_added E hA it M' blob blob' pw n q q' hrun c hH
    obtain ⟨hall, hsh⟩ := (C40_open E it1 M hM.honest blob pw c hH).2.1 kc hkc
    have O := C40_open E it2 M hM.honest blob' pw _ hH'
    obtain ⟨kc', hkc'⟩ := O.1 (by
      intro m g x hg hx
      have hmn : m ≠ n := by rintro rfl; rw [hMn] at hg; cases hg
      dsimp only at hx
      rw [if_neg hmn] at hx
      exact hall m g x hg hx)
    refine ⟨kc', hkc', fun m => ?_⟩
    have a := hsh m
    have a' := (O.2.1 kc' hkc').2 m
    have absent : kc.hasNetwork m = false → kc'.hasNetwork m = false → kc'.hasNetwork m = kc.hasNetwork m ∧
        ∀ path, kc'.pubKey m path = kc.pubKey m path ∧
        (∀ x, kc'.sign m x path = kc.sign m x path) ∧ ∀ x s, kc'.verify m x s path = kc.verify m x s path := by
      intro e e'
      refine ⟨by rw [e, e'], fun path => ?_⟩
      obtain ⟨x1, x2, x3⟩ := (C45_dispatch kc m).2 e path
      obtain ⟨y1, y2, y3⟩ := (C45_dispatch kc' m).2 e' path
      exact ⟨by rw [x1, y1], fun m => by rw [x2, y2], fun m s => by rw [x3, y3]⟩
    cases hg : M.getKeyFactory m with
    | none =>
      rw [hg] at a a'
      exact absent a a'
    | some g =>
      have hmn : m ≠ n := by rintro rfl; rw [hMn] at hg; cases hg
      dsimp only at a'
      rw [if_neg hmn] at a'
      rw [hg] at a a'
      cases hx : c.keys m with
      | none =>
        rw [hx] at a a'
        exact absent a a'
      | some x =>
        rw [hx] at a a'
        obtain ⟨k, e1, k1, k2⟩ := a
        obtain ⟨k', e2, k1', k2'⟩ := a'
        rw [e1] at e2; cases e2
        refine ⟨by rw [k1, k1'], fun path => ?_⟩
        obtain ⟨x1, x2, x3⟩ := k2 path
        obtain ⟨y1, y2, y3⟩ := k2' path
        exact ⟨by rw [x1, y1], fun m => by rw [x2, y2], fun m s => by rw [x3, y3]⟩
  · obtain ⟨p, hp⟩ := Option.ne_none_iff_exists'.mp hne
    have e := (phrase_error (E := E) (M := M') (hph p hp)).1 (by rw [hM.size.2 h1, hM'.size.1 h2]; decide)
    rw [hM.size.2 h1, hM'.size.1 h2] at e
    exact bad p hp _ e
  · obtain ⟨p, hp⟩ := Option.ne_none_iff_exists'.mp hne
    have e := (phrase_error (E := E) (M := M') (hph p hp)).2 (by rw [hM.size.1 h1, hM'.size.2 h2]; decide)
    rw [hM.size.1 h1, hM'.size.2 h2] at e
    exact bad p hp _ e

/-- C94, a case: a build with Cardano alone and one with all networks; the first generates a phrase that the second refuses. -/
theorem C94_case (E : Env) (C : Secp.Curve) (Ed : Cardano.Ed) : ∃ M M' text r',
    Manager.new 65535 (allNetworks E.H C Ed true false false) = .ok M ∧ Manager.new 65535 (allNetworks E.H C Ed true true true) = .ok M' ∧
    (M.generateMnemonic E none).run countingRng = (.ok text, r') ∧
    ∀ itF itK pw, (M'.keychainDataFromMnemonic E itF itK text pw none).run r' = (.err (.mnemonicError (.mnemonicToShort 9 12)), r') := by
  obtain ⟨M, h1, h2⟩ := C38_new E.H C Ed true false false 65535 (by decide) (by simp)
  obtain ⟨M', h1', h2'⟩ := C38_new E.H C Ed true true true 65535 (by decide) (by simp)
  have hb : BuiltIn E.H C Ed M := ⟨_, _, _, _, .inl h1⟩
  have hb' : BuiltIn E.H C Ed M' := ⟨_, _, _, _, .inl h1'⟩
  have hs : ¬ HasSecp M := by
    rintro (h | h) <;> exact absurd ((h2 _).mp h) (by decide)
  have hs' : HasSecp M' := .inl ((h2' _).mpr (by decide))
  obtain ⟨text, r', hg⟩ := C56_succeeds E M none countingRng counting_delivers (by rw [hb.size.2 hs]; decide)
  exact ⟨M, M', text, r', h1, h1', hg, fun itF itK pw => (C94_phrase E C Ed M M' hb hb' none _ _ text hg itF itK pw r').2.1 hs hs'⟩

end KC.Props
