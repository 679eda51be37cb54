import Verif.Spec.Panics
import Verif.Props.CSession
import Verif.Props.Random
/-
C78: when the library panics.
-/
namespace KC.Props
open KC.Manager KC.Spec KC.Spec.Wallet KC.Spec.Crypt KC.C KC.Spec.C
open KC.Mnemonic (Language)

/-- A manager of built-in networks, or a keychain that such a manager opened. -/
def OfBuiltIn (H : Hashes) (C : Secp.Curve) (Ed : Cardano.Ed) (E : Env) : Target → Prop
  | .keychain kc => ∃ M it blob pw, BuiltIn H C Ed M ∧ M.keychainFromData E it blob pw = .ok kc
  | .manager m _ => BuiltIn H C Ed m
  | _ => True

theorem secp_data_panic (H : Hashes) (seed : Bip39.Seed) :
    ((Secp.XPrv.fromSeed H seed).mapErr Key.Error.ofSecp >>= fun x => Res.ofPanic (x.serialize H)) ≠ .panic := by
  by_cases h : ∃ x, Spec.Bip32.Root H seed.val x
  · obtain ⟨x, hx⟩ := h
    obtain ⟨b, hb, -⟩ := C23_roundtrip H x
    rw [((C26_root H seed).1 x).mpr hx]
    show Res.ofPanic (x.serialize H) ≠ _
    rw [hb]; nofun
  · rw [(C26_root H seed).2 h]; nofun

/-- Making key data never panics. -/
theorem data_panic (H : Hashes) (C : Secp.Curve) (Ed : Cardano.Ed) (net : Net) (seed : Bytes) :
    (factoryOf H C Ed net).keyDataFromSeed seed ≠ .panic := by
  by_cases hl : seed.length = 64
  · have hs : seedOrError seed = .ok ⟨seed, hl⟩ := by
      unfold seedOrError Bip39.Seed.fromSlice
      rw [dif_pos (show seed.length = Bip39.seedSize from hl)]; rfl
    cases net with
    | cardano =>
      obtain ⟨d, -, -, h, -⟩ := C30_from_seed H C Ed seed hl
      rw [h]; nofun
    | bitcoin =>
      show (seedOrError seed >>= Bitcoin.dataFromSeed H) ≠ _
      rw [hs]; exact secp_data_panic H _
    | ethereum =>
      show (seedOrError seed >>= Ethereum.dataFromSeed H) ≠ _
      rw [hs]; exact secp_data_panic H _
  · rw [C30_seed_size H C Ed net seed hl]; nofun

/-- Loading key data panics on Cardano data of more than 96 bytes only. -/
theorem load_panic (H : Hashes) (C : Secp.Curve) (Ed : Cardano.Ed) (net : Net) (d : Bytes) :
    (factoryOf H C Ed net).keyFromData d = .panic ↔ net = .cardano ∧ 96 < d.length := by
  have secp : Secp.XPrv.fromData H d ≠ .panic := C24_no_panic H d
  cases net with
  | cardano =>
    obtain ⟨h1, h2, h3, h4⟩ := C30_load H C Ed d
    refine ⟨fun h => ⟨rfl, ?_⟩, fun h => h2 h.2⟩
    by_contra hl
    rcases Nat.lt_or_ge d.length 96 with q | q
    · rw [h1 q] at h; cases h
    · have q : d.length = 96 := by omega
      by_cases hc : Clamped d
      · obtain ⟨k, hk⟩ := h3 q hc; rw [hk] at h; cases h
      · obtain ⟨e, -, he⟩ := h4 q hc; rw [he] at h; cases h
  | bitcoin =>
    refine ⟨fun h => ?_, fun h => nomatch h.1⟩
    have h : Res.map _ (Res.mapErr _ (Secp.XPrv.fromData H d)) = .panic := h
    rw [Res.map_eq_panic, Res.mapErr_eq_panic] at h
    exact absurd h secp
  | ethereum =>
    refine ⟨fun h => ?_, fun h => nomatch h.1⟩
    have h : Res.map _ (Res.mapErr _ (Secp.XPrv.fromData H d >>= fun x => x.derive H C _ >>= fun x => x.derive H C _)) = .panic := h
    rw [Res.map_eq_panic, Res.mapErr_eq_panic, Res.bind_eq_panic] at h
    rcases h with h | ⟨x, -, h⟩
    · exact absurd h secp
    · rw [Res.bind_eq_panic] at h
      rcases h with h | ⟨y, -, h⟩ <;> exact (Secp.derive_ne_panic _ _ _ _ h).elim

/-- The factories of a manager of built-in networks. -/
theorem builtin_net {H : Hashes} {C : Secp.Curve} {Ed : Cardano.Ed} {M : Manager} (hb : BuiltIn H C Ed M) {n : Network} {f : Factory}
    (hf : M.getKeyFactory n = some f) : ∃ net, f = factoryOf H C Ed net ∧ (net = .cardano ↔ n = cardano) := by
  rcases hb.factory hf with ⟨rfl, rfl⟩ | ⟨rfl, rfl⟩ | ⟨rfl, rfl⟩
  · exact ⟨.cardano, rfl, by decide⟩
  · exact ⟨.ethereum, rfl, by decide⟩
  · exact ⟨.bitcoin, rfl, by decide⟩

/-- Reading a wallet never panics. -/
theorem read_panic (E : Env) (blob : Bytes) (pw : Str) : keychainDataFromBytes E blob pw ≠ .panic := by
  unfold keychainDataFromBytes
  rw [Ne, Res.bind_eq_panic]
  rintro (h | ⟨d, -, h⟩)
  · rw [Res.mapErr_eq_panic] at h; exact C33_no_panic _ _ _ _ h
  · exact absurd h Res.okOr_ne_panic

/-- C78: opening a wallet.  A panic comes from a Cardano key of more than 96 bytes; with such a key the call never succeeds, it panics
unless another key of the wallet is bad too, and then it panics or reports that one. -/
theorem C78_open (H : Hashes) (C : Secp.Curve) (Ed : Cardano.Ed) (E : Env) (it : Iter (Network × Bytes)) (M : Manager)
    (hb : BuiltIn H C Ed M) (blob : Bytes) (pw : Str) :
    (M.keychainFromData E it blob pw = .panic → ∃ c, Holds E blob pw c ∧ LongKey M c) ∧
    ∀ c, Holds E blob pw c → LongKey M c → M.keychainFromData E it blob pw = .panic ∨
      ∃ n f d e, n ≠ cardano ∧ M.getKeyFactory n = some f ∧ c.keys n = some d ∧ f.keyFromData d = .err e ∧
        M.keychainFromData E it blob pw = .err (.keyError n e) := by
  constructor
  · intro h
    cases hl : keychainDataFromBytes E blob pw with
    | ok w =>
      obtain ⟨n, f, d, h1, h2, h3⟩ := (open_content hl).2.2.2 h
      obtain ⟨net, rfl, hn⟩ := builtin_net hb h1
      obtain ⟨h4, h5⟩ := (load_panic ..).mp h3
      have := hn.mp h4
      subst this
      exact ⟨_, loads_iff.mp ⟨w, hl, rfl⟩, Option.isSome_iff_exists.mpr ⟨_, h1⟩, d, h2, h5⟩
    | err e => rw [keychainFromData, hl] at h; cases h
    | panic => exact absurd hl (read_panic _ _ _)
  · rintro c hc ⟨h1, d, h2, h3⟩
    obtain ⟨f, hf⟩ : ∃ f, M.getKeyFactory cardano = some f := Option.isSome_iff_exists.mp h1
    obtain ⟨net, rfl, hn⟩ := builtin_net hb hf
    have := hn.mpr rfl
    subst this
    have hp := (load_panic H C Ed .cardano d).mpr ⟨rfl, h3⟩
    obtain ⟨w, hl, rfl⟩ := loads_iff.mpr hc
    obtain ⟨-, o2, o3, -⟩ := open_content (it := it) (M := M) hl
    cases ho : M.keychainFromData E it blob pw with
    | panic => exact .inl rfl
    | ok kc =>
      obtain ⟨k, hk⟩ := (o2 kc ho).1 _ _ _ hf h2
      rw [hp] at hk; cases hk
    | err e =>
      obtain ⟨n, f, d', e', g1, g2, g3, rfl⟩ := o3 e ho
      refine .inr ⟨n, f, d', e', ?_, g1, g2, g3, rfl⟩
      rintro rfl
      rw [hf] at g1; cases g1
      rw [h2] at g2; cases g2
      rw [hp] at g3; cases g3

/-- The keys of an opened keychain come from the factories of the manager. -/
theorem opened_key {E : Env} {it : Iter (Network × Bytes)} {M : Manager} {b : Bytes} {pw : Str} {kc : Keychain} (hM : Honest M)
    (h : M.keychainFromData E it b pw = .ok kc) {n : Network} {k : KeyObj} (hk : kc.keys.get n = some k) :
    ∃ f d, M.getKeyFactory n = some f ∧ f.keyFromData d = .ok k := by
  rw [Manager.keychainFromData, Res.bind_eq_ok] at h
  obtain ⟨w, -, h⟩ := h
  rw [Res.bind_eq_ok] at h
  obtain ⟨ks, h, hk'⟩ := h
  cases hk'
  rw [Keychain.new, NMap.get_ofList] at hk
  have := NMap.mem_of_lastOf hk
  rw [List.mem_map] at this
  obtain ⟨k', hk', e⟩ := this
  cases e
  obtain ⟨y, hy, hy2⟩ := (Res.mapM_eq_ok h).2.2 k hk'
  obtain ⟨en, hen, hy⟩ := List.mem_filterMap.mp hy
  rw [Option.map_eq_some_iff] at hy
  obtain ⟨f, hf, rfl⟩ := hy
  rw [Res.mapErr_eq_ok] at hy2
  rw [hM _ _ hf _ _ hy2]
  exact ⟨f, _, hf, hy2⟩

/-- What the keys of a keychain of built-in networks do. -/
theorem keychain_panic {H : Hashes} {C : Secp.Curve} {Ed : Cardano.Ed} {E : Env} {kc : Keychain}
    (hk : OfBuiltIn H C Ed E (.keychain kc)) (n : Network) (m s : Bytes) (p : KeyPath.Path) :
    kc.pubKey n p ≠ .panic ∧ kc.sign n m p ≠ .panic ∧
    (kc.verify n m s p = .panic ↔ n = cardano ∧ kc.hasNetwork cardano = true ∧ 64 < s.length) := by
  obtain ⟨M, it, blob, pw, hb, ho⟩ := hk
  unfold Keychain.pubKey Keychain.sign Keychain.verify Keychain.pk
  cases hg : kc.keys.get n with
  | none =>
    refine ⟨nofun, nofun, nofun, ?_⟩
    rintro ⟨rfl, h, -⟩
    rw [Keychain.hasNetwork, hg] at h
    cases h
  | some k =>
    obtain ⟨f, d, hf, hd⟩ := opened_key hb.honest ho hg
    obtain ⟨net, rfl, hn⟩ := builtin_net hb hf
    simp only [Res.okOr, Res.bind_ok, Ne, Res.mapErr_eq_panic]
    by_cases hc : net = .cardano
    · subst hc
      have hn := hn.mp rfl
      subst hn
      obtain ⟨v1, v2, v3⟩ := C29_cardano H C Ed d k p m s hd
      obtain ⟨x, -, rfl⟩ := cardano_load H C Ed d k hd
      refine ⟨?_, ?_, ?_⟩
      · show ¬ Res.map _ (Cardano.derivePrivate Ed _ p) = _
        rw [Res.map_eq_panic, cardano_derive]
        split <;> nofun
      · show ¬ Res.map _ (Cardano.derivePrivate Ed _ p) = _
        rw [Res.map_eq_panic, cardano_derive]
        split <;> nofun
      · refine ⟨fun h => ⟨rfl, by rw [Keychain.hasNetwork, hg]; rfl, ?_⟩, fun h => v2 h.2.2⟩
        by_contra hl
        rcases Nat.lt_or_ge s.length 64 with q | q
        · rw [v1 q] at h; cases h
        · exact v3 (by omega) h
    · obtain ⟨h1, h2, h3⟩ := C29_secp_no_panic H C Ed net d k p m s hc hd
      exact ⟨h1, h2, fun h => absurd h h3, fun h => absurd (hn.mpr h.1) hc⟩

theorem new_panic {H : Hashes} {C : Secp.Curve} {Ed : Cardano.Ed} {E : Env} {M : Manager} (hb : BuiltIn H C Ed M)
    (itF : Iter (Network × Factory)) (itK : Iter (Network × Bytes)) (seed : Option Bytes) (pw : Str) (mn : Option Str) (lang : Option Language)
    {r : Rng} (hr : Delivers r) : ((M.newKeychainData E itF itK seed pw mn lang).run r).1 ≠ .panic := by
  unfold newKeychainData
  rw [RM.run_bind, RM.run_lift]
  cases hs : M.seedFromData E seed mn lang with
  | panic => exact absurd hs (seedFromData_no_panic _ _ _ _ _)
  | err e => nofun
  | ok s =>
    dsimp only
    rw [RM.run_bind, RM.run_lift]
    generalize hp : List.mapM (m := Res Error) _ _ = ps
    cases ps with
    | err e => nofun
    | ok ks =>
      obtain ⟨blob, r', h⟩ := store_runs E itK ⟨seed, mn, lang, NMap.ofList ks⟩ pw hr
      dsimp only
      rw [h]; nofun
    | panic =>
      obtain ⟨f, hf, hp⟩ := Res.mapM_eq_panic hp
      rw [Res.mapErr_eq_panic, Res.map_eq_panic] at hp
      rw [List.mem_map] at hf
      obtain ⟨⟨n, f⟩, he, rfl⟩ := hf
      have hg : M.getKeyFactory n = some f := (NMap.get_eq_some _ _ _).mpr ((itF.perm _).mem_iff.mp he)
      obtain ⟨net, rfl, -⟩ := builtin_net hb hg
      exact absurd hp (data_panic _ _ _ _ _)

theorem add_panic {H : Hashes} {C : Secp.Curve} {Ed : Cardano.Ed} {E : Env} {M : Manager} (hb : BuiltIn H C Ed M)
    (itK : Iter (Network × Bytes)) (blob : Bytes) (pw : Str) (n : Network)
    {r : Rng} (hr : Delivers r) : ((M.addNetwork E itK blob pw n).run r).1 ≠ .panic := by
  unfold addNetwork
  rw [RM.run_bind, RM.run_lift]
  cases hf : M.factories.get n with
  | none => nofun
  | some f =>
    simp only [Res.okOr]
    rw [RM.run_bind, RM.run_lift]
    cases hd : keychainDataFromBytes E blob pw with
    | panic => exact absurd hd (read_panic _ _ _)
    | err e => nofun
    | ok w =>
      dsimp only
      split
      · nofun
      · rw [RM.run_bind, RM.run_lift]
        cases hs : M.seedFromData E w.seed w.mnemonic w.dictionary with
        | panic => exact absurd hs (seedFromData_no_panic _ _ _ _ _)
        | err e => nofun
        | ok s =>
          dsimp only
          rw [RM.run_bind, RM.run_lift]
          obtain ⟨net, rfl, -⟩ := builtin_net hb hf
          cases hk : (factoryOf H C Ed net).keyDataFromSeed s with
          | panic => exact absurd hk (data_panic _ _ _ _ _)
          | err e => nofun
          | ok d =>
            dsimp only [Res.mapErr]
            obtain ⟨b, r', h⟩ := store_runs E itK { w with keys := w.keys.insert n d } pw hr
            rw [h]; nofun

theorem change_panic (E : Env) (blob : Bytes) (old new : Str) {r : Rng} (hr : Delivers r) :
    ((changePassword E blob old new).run r).1 ≠ .panic := by
  unfold changePassword
  rw [RM.run_bind, RM.run_lift]
  cases hd : Crypt.decrypt E.H E.A blob old with
  | panic => exact absurd hd (C33_no_panic _ _ _ _)
  | err e => nofun
  | ok d =>
    dsimp only [Res.mapErr]
    obtain ⟨b, r', h⟩ := C32_succeeds (ε := Error) E.H E.A d new r hr.1 hr.2.1 hr.2.2
    rw [h]; nofun

theorem decode_panic {α} (s : CText) (f : Str → RM Error α) (r : Rng) (P : Str → Prop)
    (h : ∀ t, Str.utf8 t = s.val → ((((f t).run r).1 = .panic) ↔ P t)) :
    ((decode s f).run r).1 = .panic ↔ NotUtf8 s ∨ ∃ t, Str.utf8 t = s.val ∧ P t := by
  rw [run_decode]
  cases hd : Json.ofUtf8 s.val with
  | none =>
    refine ⟨fun _ => .inl fun t ht => ?_, fun _ => rfl⟩
    rw [← ht, Json.ofUtf8_utf8] at hd; cases hd
  | some t =>
    have ht := utf8_ofUtf8 hd
    rw [h t ht]
    refine ⟨fun hp => .inr ⟨t, ht, hp⟩, ?_⟩
    rintro (hn | ⟨t', ht', hp⟩)
    · exact absurd ht (hn t)
    · rw [← ht', Json.ofUtf8_utf8] at hd; cases hd; exact hp

/-- A call that never panics once its texts are decoded. -/
theorem decode_quiet {α} (s : CText) (f : Str → RM Error α) (r : Rng) (h : ∀ t, ((f t).run r).1 ≠ .panic) :
    ((decode s f).run r).1 = .panic ↔ NotUtf8 s := by
  rw [decode_panic s f r (fun _ => False) fun t _ => ⟨fun q => h t q, False.elim⟩]
  simp

theorem checked_debug (p : Profile) : checked p = decide (p = .debug) := by cases p <;> rfl

theorem ctor_panic {f : UInt32 → UInt32 → UInt32 → Res KeyPath.Error KeyPath.Path} {pu co : Nat} (hf : CtorSpec f pu co) (a c i : UInt32)
    (r : Rng) : ((pathRes (f a c i)).run r).1 ≠ .panic := by
  show Res.mapErr _ (f a c i) ≠ _
  rw [Ne, Res.mapErr_eq_panic]
  exact (C20_injective hf).2 a c i

/-- C78: when a call of the library panics, with a working random source: when the handle is null, when a text argument is not UTF-8, when
a key path text has the traps of C19, when a Cardano signature to be verified is longer than 64 bytes; and never otherwise (opening a
wallet is in `C78_open`). -/
theorem C78_panics (H : Hashes) (C : Secp.Curve) (Ed : Cardano.Ed) (W : Build) (x : Ctx) (p : Ptr) (h : Heap) {k : Kind} (f : Fn k) (t : Target)
    (ht : Names W h p f.handle t) (hb : OfBuiltIn H C Ed W.E t) (hr : Delivers t.rng) (ho : f.opens = false) :
    ((f.lib W x t).run t.rng).1 = .panic ↔
      t = .null ∨ (∃ s ∈ f.texts, NotUtf8 s) ∨ f.Trap (decide (W.profile = .debug)) t := by
  have no : ∀ {α} {y : RM Error α} {r : Rng} {s : Option Kind}, Names W h p s t → s = none → (y.run r).1 ≠ .panic →
      ((y.run r).1 = .panic ↔ t = .null ∨ (∃ s ∈ ([] : List CText), NotUtf8 s) ∨ False) := by
    intro α y r s hs e hy
    subst e
    cases hs
    simpa using hy
  cases f with
  | «open» d pw => cases ho
  | keypathFromString s =>
    cases ht
    show ((decode s fun t => pathRes _).run _).1 = _ ↔ _
    rw [decode_panic s _ _ (TrapPath (decide (W.profile = .debug))) fun t _ => ?_]
    · simp [Fn.texts, Fn.Trap]
    · show Res.mapErr _ _ = _ ↔ _
      rw [Res.mapErr_eq_panic, C19_panic, TrapPath, checked_debug]
      simp
  | bitcoinBip44 b a c d => exact no ht rfl (ctor_panic (C20_bitcoin W.profile b).1 a c d _)
  | bitcoinBip49 b a c d => exact no ht rfl (ctor_panic (C20_bitcoin W.profile b).2.1 a c d _)
  | bitcoinBip84 b a c d => exact no ht rfl (ctor_panic (C20_bitcoin W.profile b).2.2 a c d _)
  | cardanoNew a c d => exact no ht rfl (ctor_panic (C20_cardano W.profile) a c d _)
  | ethereumNew a =>
    refine no ht rfl ?_
    show Res.mapErr _ (Ethereum.path W.profile a) ≠ _
    rw [Ne, Res.mapErr_eq_panic]
    obtain ⟨h1, h2⟩ := C20_ethereum W.profile a
    rcases Nat.lt_or_ge a.toNat (2 ^ 31) with q | q
    · obtain ⟨⟨k, hk, -⟩, -⟩ := h2 q; rw [hk]; nofun
    · rw [(h1 q).1]; nofun
  | ethereumMetamask a =>
    refine no ht rfl ?_
    show Res.mapErr _ (Ethereum.pathMetamask a) ≠ _
    rw [Ne, Res.mapErr_eq_panic]
    obtain ⟨h1, h2⟩ := C20_ethereum W.profile a
    rcases Nat.lt_or_ge a.toNat (2 ^ 31) with q | q
    · obtain ⟨-, k, hk, -⟩ := h2 q; rw [hk]; nofun
    · rw [(h1 q).2]; nofun
  | managerNew r =>
    refine no ht rfl ?_
    show Res.map _ (Manager.new W.umax W.all) ≠ _
    rw [Ne, Res.map_eq_panic]
    unfold Manager.new withFactoryObjs calculateSeedSize
    rw [Res.bind_eq_panic]
    rintro (h | ⟨_, -, h⟩)
    · dsimp only at h
      split at h
      · cases h
      · split at h <;> cases h
    · cases h
  | networks =>
    cases ht with
    | null _ e => exact ⟨fun _ => .inl rfl, fun _ => rfl⟩
    | keychain i kc => exact ⟨nofun, by simp [Fn.texts, Fn.Trap]⟩
  | pubKey n q =>
    cases ht with
    | null _ e => exact ⟨fun _ => .inl rfl, fun _ => rfl⟩
    | keychain i kc => exact ⟨fun h => absurd h (keychain_panic hb n.val [] [] _).1, by simp [Fn.texts, Fn.Trap]⟩
  | sign n m q =>
    cases ht with
    | null _ e => exact ⟨fun _ => .inl rfl, fun _ => rfl⟩
    | keychain i kc => exact ⟨fun h => absurd h (keychain_panic hb n.val m [] _).2.1, by simp [Fn.texts, Fn.Trap]⟩
  | verify n m s q =>
    cases ht with
    | null _ e => exact ⟨fun _ => .inl rfl, fun _ => rfl⟩
    | keychain i kc =>
      refine (keychain_panic hb n.val m s _).2.2.trans ?_
      simp [Fn.texts, Fn.Trap]
  | hasNetwork n =>
    cases ht with
    | null _ e => exact ⟨fun _ => .inl rfl, fun _ => rfl⟩
    | manager i M r => exact ⟨nofun, by simp [Fn.texts, Fn.Trap]⟩
  | generate l =>
    cases ht with
    | null _ e => exact ⟨fun _ => .inl rfl, fun _ => rfl⟩
    | manager i M r =>
      refine ⟨fun hp => ?_, by simp [Fn.texts, Fn.Trap]⟩
      have hp : ((M.generateMnemonic W.E (some (language l))).run r).1 = .panic := hp
      by_cases hs : M.seedSize ∈ [96, 128, 160, 192, 224, 256]
      · obtain ⟨text, r', hg⟩ := C56_succeeds W.E M (some (language l)) r hr hs
        rw [hg] at hp; cases hp
      · rw [C56_other_sizes W.E M _ r hs] at hp; cases hp
  | fromSeed s pw =>
    cases ht with
    | null _ e => exact ⟨fun _ => .inl rfl, fun _ => rfl⟩
    | manager i M r =>
      refine (decode_quiet pw _ r fun t => new_panic hb _ _ _ _ _ _ hr).trans ?_
      simp [Fn.texts, Fn.Trap]
  | fromMnemonic m pw l =>
    cases ht with
    | null _ e => exact ⟨fun _ => .inl rfl, fun _ => rfl⟩
    | manager i M r =>
      refine (decode_panic m _ r (fun _ => NotUtf8 pw) fun t _ => decode_quiet pw _ r fun t' => new_panic hb _ _ _ _ _ _ hr).trans ?_
      simp only [Fn.texts, Fn.Trap, List.mem_cons, List.not_mem_nil, or_false, exists_eq_or_imp, exists_eq_left, reduceCtorEq, false_or]
      by_cases hm : ∃ t, Str.utf8 t = m.val
      · simp [hm, exists_and_right]
      · have : NotUtf8 m := fun t ht => hm ⟨t, ht⟩
        simp [this]
  | add d pw n =>
    cases ht with
    | null _ e => exact ⟨fun _ => .inl rfl, fun _ => rfl⟩
    | manager i M r =>
      refine (decode_quiet pw _ r fun t => add_panic hb _ _ _ _ hr).trans ?_
      simp [Fn.texts, Fn.Trap]
  | change d o n =>
    cases ht with
    | null _ e => exact ⟨fun _ => .inl rfl, fun _ => rfl⟩
    | manager i M r =>
      refine (decode_panic o _ r (fun _ => NotUtf8 n) fun t _ => decode_quiet n _ r fun t' => change_panic _ _ _ _ hr).trans ?_
      simp only [Fn.texts, Fn.Trap, List.mem_cons, List.not_mem_nil, or_false, exists_eq_or_imp, exists_eq_left, reduceCtorEq, false_or]
      by_cases hm : ∃ t, Str.utf8 t = o.val
      · simp [hm, exists_and_right]
      · have : NotUtf8 o := fun t ht => hm ⟨t, ht⟩
        simp [this]
  | keysData d pw =>
    cases ht with
    | null _ e => exact ⟨fun _ => .inl rfl, fun _ => rfl⟩
    | manager i M r =>
      refine (decode_quiet pw _ r fun t hp => ?_).trans ?_
      · have hp : Res.map _ (keychainDataFromBytes W.E d t) = .panic := hp
        rw [Res.map_eq_panic] at hp
        exact read_panic _ _ _ hp
      · simp [Fn.texts, Fn.Trap]
  | retrieve d pw =>
    cases ht with
    | null _ e => exact ⟨fun _ => .inl rfl, fun _ => rfl⟩
    | manager i M r =>
      refine (decode_quiet pw _ r fun t hp => ?_).trans ?_
      · have hp : retrieveMnemonic W.E d t = .panic := hp
        rw [retrieveMnemonic, Res.bind_eq_panic] at hp
        rcases hp with hp | ⟨w, -, hp⟩
        · exact read_panic _ _ _ hp
        · rw [Res.bind_eq_panic] at hp
          rcases hp with hp | ⟨w, -, hp⟩
          · exact Res.okOr_ne_panic hp
          · rw [Res.bind_eq_panic] at hp
            rcases hp with hp | ⟨w, -, hp⟩
            · exact Res.okOr_ne_panic hp
            · cases hp
      · simp [Fn.texts, Fn.Trap]

/-- The handles of a program are of built-in networks. -/
theorem handle_builtin {H : Hashes} {C : Secp.Curve} {Ed : Cardano.Ed} {W : Build} {ca eth btc : Bool}
    (hW : W.all = allNetworks H C Ed ca eth btc) {s : State} (hk : Known W s) {j : Nat} {o : Option Kind} {t : Target}
    (ht : Names W s.heap (s.handle o j) o t) : OfBuiltIn H C Ed W.E t := by
  have hb : ∀ M, Manager.new W.umax W.all = .ok M → BuiltIn H C Ed M := fun M h => ⟨W.umax, ca, eth, btc, .inl (hW ▸ h)⟩
  cases t with
  | none => trivial
  | null => trivial
  | keychain kc =>
    obtain ⟨p, h1, h2⟩ := (names_var ht).1 kc rfl
    obtain ⟨M, it, blob, pw, h3, h4⟩ := hk _ (List.mem_of_getElem? h1) kc h2
    exact ⟨M, it, blob, pw, hb M h3, h4⟩
  | manager m r =>
    obtain ⟨p, h1, h2⟩ := (names_var ht).2 m r rfl
    exact hb m (hk _ (List.mem_of_getElem? h1) (m, r) h2)

/-- C78: so in every history of a C program with the built-in networks, a call with a working random source reports a Panic error exactly
for these causes, or for a result that C text cannot carry (a NUL in a stored phrase). -/
theorem C78_programs (H : Hashes) (C : Secp.Curve) (Ed : Cardano.Ed) (W : Build) (ca eth btc : Bool) (hW : W.all = allNetworks H C Ed ca eth btc)
    (ops : List Op) (hf : Follows W ops ⟨[], []⟩) (s : State) (hr : State.run W ops ⟨[], []⟩ = .next s)
    {k : Kind} (f : Fn k) (x : Ctx) (j : Nat) (val : Val k) (err : ErrorPtr) (ho : f.opens = false) (hn : '\x00' ∉ x.panic.message) :
    ∃ t, Names W s.heap (s.handle f.handle j) f.handle t ∧ (Delivers t.rng →
      ((∃ v e h, f.call W x (s.handle f.handle j) val err s.heap = .ret false v e h ∧ e.errorType = .panic) ↔
        t = .null ∨ (∃ u ∈ f.texts, NotUtf8 u) ∨ f.Trap (decide (W.profile = .debug)) t ∨
          ∃ c, ((f.lib W x t).run t.rng).1 = .ok c ∧ ¬ Fits k c)) := by
  obtain ⟨hs, hk⟩ := known_run ops start.1 start.2 hf hr
  obtain ⟨t, ht⟩ := sound_names hs f j
  refine ⟨t, ht, fun hd => ?_⟩
  have hp := C78_panics H C Ed W x _ _ f t ht (handle_builtin hW hk ht) hd ho
  obtain ⟨o1, o2, o3⟩ := C49_outcome W x _ f val err s.heap t ht
  have : (t = .null ∨ (∃ u ∈ f.texts, NotUtf8 u) ∨ f.Trap (decide (W.profile = .debug)) t ∨
      ∃ c, ((f.lib W x t).run t.rng).1 = .ok c ∧ ¬ Fits k c) ↔
      (((f.lib W x t).run t.rng).1 = .panic ∨ ∃ c, ((f.lib W x t).run t.rng).1 = .ok c ∧ ¬ Fits k c) := by
    rw [hp, or_assoc, or_assoc]
  rw [this]
  constructor
  · rintro ⟨v, e, h, hc, he⟩
    cases hl : ((f.lib W x t).run t.rng).1 with
    | panic => exact .inl rfl
    | ok c =>
      refine .inr ⟨c, rfl, fun hfit => ?_⟩
      obtain ⟨v', h', q, -⟩ := o1 c hl hfit
      rw [q] at hc; cases hc
    | err er =>
      exfalso
      by_cases h0 : '\x00' ∈ er.display x.texts
      · obtain ⟨h', q⟩ := (C50_unwinds_iff W x _ f val err s.heap t ht).mpr (.inl ⟨er, hl, h0⟩)
        rw [q] at hc; cases hc
      · obtain ⟨e', h', q, q1, -⟩ := o2 er hl h0
        rw [q] at hc; cases hc
        rw [he] at q1
        have := (C51_range er).2.2
        rw [← show ErrorType.panic = errorType er from q1] at this
        exact this rfl
  · intro hl
    obtain ⟨e, h, q, q1, -⟩ := o3 hl hn
    exact ⟨_, e, h, q, q1⟩

/-! ### Non-vacuity -/

def toyWorld : Env := ⟨Toy.skipHashes, Toy.aead, Base64.strict⟩

/-- A keychain with all three networks: verifying a Cardano signature of 65 bytes panics, one of 64 bytes does not, nor does a Bitcoin one
of 65 bytes. -/
example : ∃ M kc blob, BuiltIn Toy.skipHashes Toy.curve toyEd M ∧ M.keychainFromData toyWorld forwards blob ['p'] = .ok kc ∧
    kc.verify 0x80000717 [] (List.replicate 65 0) ⟨0, 0, 0, 0, 0⟩ = .panic ∧
    kc.verify 0x80000717 [] (List.replicate 64 0) ⟨0, 0, 0, 0, 0⟩ ≠ .panic ∧
    kc.verify 0x80000000 [] (List.replicate 65 0) ⟨0, 0, 0, 0, 0⟩ ≠ .panic := by
  obtain ⟨M, h1, h2⟩ := C38_new Toy.skipHashes Toy.curve toyEd true true true 65535 (by decide) (by simp)
  have hb : BuiltIn Toy.skipHashes Toy.curve toyEd M := ⟨65535, true, true, true, .inl h1⟩
  have made : ∀ n f, M.getKeyFactory n = some f → ∃ d k, f.keyDataFromSeed toySeed = .ok d ∧ f.keyFromData d = .ok k := by
    intro n f hf
    rcases hb.factory hf with ⟨-, rfl⟩ | ⟨-, rfl⟩ | ⟨-, rfl⟩
    · exact toy_loads .cardano
    · exact toy_loads .ethereum
    · exact toy_loads .bitcoin
  obtain ⟨blob, r', hr⟩ := C40_from_seed_succeeds toyWorld forwards forwards M toySeed ['p'] countingRng
    counting_delivers (by rfl) fun n f hf => let ⟨d, _, h, _⟩ := made n f hf; ⟨d, h⟩
  obtain ⟨q1, q2, q3⟩ := C40_roundtrip toyWorld toyAead_correct forwards forwards forwards M M hb.built hb.honest (fun _ => rfl) toySeed ['p']
    countingRng r' blob hr
  cases ho : M.keychainFromData toyWorld forwards blob ['p'] with
  | ok kc =>
    have hkc : OfBuiltIn Toy.skipHashes Toy.curve toyEd toyWorld (.keychain kc) := ⟨M, forwards, blob, ['p'], hb, ho⟩
    have hc : kc.hasNetwork cardano = true := by
      rw [(q1 kc ho cardano).1, h2]
      decide
    refine ⟨M, kc, blob, hb, ho, (keychain_panic hkc _ _ _ _).2.2.mpr ⟨rfl, hc, by decide⟩, fun h => ?_, fun h => ?_⟩
    · have := ((keychain_panic hkc _ _ _ _).2.2.mp h).2.2
      revert this; decide
    · have := ((keychain_panic hkc _ _ _ _).2.2.mp h).1
      revert this; decide
  | err e =>
    obtain ⟨n, f, d, e', g1, g2, g3, -⟩ := q2 e ho
    obtain ⟨d', k, g4, g5⟩ := made n f g1
    rw [g2] at g4; cases g4
    rw [g3] at g5; cases g5
  | panic =>
    obtain ⟨n, f, d, g1, g2, g3⟩ := q3 ho
    obtain ⟨d', k, g4, g5⟩ := made n f g1
    rw [g2] at g4; cases g4
    rw [g3] at g5; cases g5

/-- A wallet with a Cardano key of 97 bytes and no other: opening it panics. -/
example : ∃ M blob, BuiltIn Toy.skipHashes Toy.curve toyEd M ∧ M.keychainFromData toyWorld forwards blob ['p'] = .panic := by
  obtain ⟨M, h1, h2⟩ := C38_new Toy.skipHashes Toy.curve toyEd true true true 65535 (by decide) (by simp)
  have hb : BuiltIn Toy.skipHashes Toy.curve toyEd M := ⟨65535, true, true, true, .inl h1⟩
  obtain ⟨blob, r', hr⟩ := store_runs toyWorld forwards ⟨none, none, none, NMap.ofList [(cardano, List.replicate 97 0)]⟩ ['p'] counting_delivers
  have hh := store_holds toyAead_correct hr
  have hget : ∀ n, (NMap.ofList [(cardano, List.replicate 97 (0 : UInt8))]).get n = if n = cardano then some (List.replicate 97 0) else none := by
    intro n
    rw [NMap.get_ofList]
    by_cases h : n = cardano
    · subst h; rfl
    · rw [if_neg h]
      cases hl : Spec.Data.lastOf n [(cardano, List.replicate 97 (0 : UInt8))] with
      | none => rfl
      | some v =>
        have := NMap.mem_of_lastOf hl
        simp at this
        exact absurd this.1 h
  refine ⟨M, blob, hb, ?_⟩
  rcases (C78_open Toy.skipHashes Toy.curve toyEd toyWorld forwards M hb blob ['p']).2 _ hh ⟨by rw [h2]; decide, List.replicate 97 0, hget cardano, by decide⟩ with h |
    ⟨n, f, d, e, h, -, hd, -⟩
  · exact h
  · exact absurd ((hget n).symm.trans hd) (by rw [if_neg h]; nofun)

/-- Causes from the arguments: a path that ends in a two-byte character; a hardened 2^31 in a debug build; a password that is not UTF-8. -/
example : TrapPath false "m/44'/0'/0'/0/é".toList ∧ TrapPath true "m/2147483648'/0'/0'/0/0".toList ∧ NotUtf8 ⟨[0xff], by decide⟩ := by
  have h : ∀ (p : Profile) s, KeyPath.Path.from p s = .panic → TrapPath (decide (p = .debug)) s := by
    intro p s h
    rw [C19_panic, checked_debug] at h
    simpa [TrapPath] using h
  refine ⟨h .release _ (by decide +kernel), h .debug _ (by decide +kernel), fun t ht => ?_⟩
  have : Json.ofUtf8 [0xff] = some t := by rw [← Json.ofUtf8_utf8, ht]
  revert this
  rw [show Json.ofUtf8 [0xff] = none by decide +kernel]
  nofun

end KC.Props
