import Verif.Props.Mnemonic
import Verif.Props.Crypt
import Verif.Props.Load
import Verif.Spec.Wallet
/-
Lemmas about the manager.
-/
namespace KC

/-! ### `mapM` in `Res` -/
namespace Res
variable {ε α β : Type}

instance : LawfulMonad (Res ε) := LawfulMonad.mk' (Res ε)
  (id_map := fun x => by cases x <;> rfl)
  (pure_bind := fun _ _ => rfl)
  (bind_assoc := fun x f g => by cases x <;> rfl)

theorem mapM_eq_ok {f : α → Res ε β} {l : List α} {bs : List β} (h : l.mapM f = .ok bs) :
    bs.length = l.length ∧ (∀ a ∈ l, ∃ b ∈ bs, f a = .ok b) ∧ ∀ b ∈ bs, ∃ a ∈ l, f a = .ok b := by
  induction l generalizing bs with
  | nil =>
    have : bs = [] := by simpa using h.symm
    subst this; simp
  | cons a l ih =>
    rw [List.mapM_cons, Res.bind_eq_ok] at h
    obtain ⟨b, hb, h⟩ := h
    rw [Res.bind_eq_ok] at h
    obtain ⟨bs', hbs, h⟩ := h
    have : bs = b :: bs' := by simpa using h.symm
    subst this
    obtain ⟨h0, h1, h2⟩ := ih hbs
    refine ⟨by simp [h0], ?_, ?_⟩
    · intro x hx
      rcases List.mem_cons.mp hx with rfl | hx
      · exact ⟨b, by simp, hb⟩
      · obtain ⟨y, hy, e⟩ := h1 x hx
        exact ⟨y, by simp [hy], e⟩
    · intro y hy
      rcases List.mem_cons.mp hy with rfl | hy
      · exact ⟨a, by simp, hb⟩
      · obtain ⟨x, hx, e⟩ := h2 y hy
        exact ⟨x, by simp [hx], e⟩

theorem mapM_ok {f : α → Res ε β} {l : List α} (h : ∀ a ∈ l, ∃ b, f a = .ok b) : ∃ bs, l.mapM f = .ok bs := by
  induction l with
  | nil => exact ⟨[], rfl⟩
  | cons a l ih =>
    obtain ⟨b, hb⟩ := h a (by simp)
    obtain ⟨bs, hbs⟩ := ih fun x hx => h x (by simp [hx])
    exact ⟨b :: bs, by rw [List.mapM_cons, hb, hbs]; rfl⟩

theorem mapM_eq_err {f : α → Res ε β} {l : List α} {e : ε} (h : l.mapM f = .err e) : ∃ a ∈ l, f a = .err e := by
  induction l with
  | nil => cases h
  | cons a l ih =>
    rw [List.mapM_cons, Res.bind_eq_err] at h
    rcases h with h | ⟨b, hb, h⟩
    · exact ⟨a, by simp, h⟩
    · rw [Res.bind_eq_err] at h
      rcases h with h | ⟨bs, -, h⟩
      · obtain ⟨x, hx, e⟩ := ih h
        exact ⟨x, by simp [hx], e⟩
      · cases h

theorem mapM_eq_panic {f : α → Res ε β} {l : List α} (h : l.mapM f = .panic) : ∃ a ∈ l, f a = .panic := by
  induction l with
  | nil => cases h
  | cons a l ih =>
    rw [List.mapM_cons, Res.bind_eq_panic] at h
    rcases h with h | ⟨b, hb, h⟩
    · exact ⟨a, by simp, h⟩
    · rw [Res.bind_eq_panic] at h
      rcases h with h | ⟨bs, -, h⟩
      · obtain ⟨x, hx, e⟩ := ih h
        exact ⟨x, by simp [hx], e⟩
      · cases h

/-- The result is the list of results, in order. -/
theorem mapM_map_fst {γ : Type} {f : α → Res ε β} {l : List α} {bs : List β} (g : α → γ) (g' : β → γ)
    (hg : ∀ a b, f a = .ok b → g' b = g a) (h : l.mapM f = .ok bs) : bs.map g' = l.map g := by
  induction l generalizing bs with
  | nil =>
    have : bs = [] := by simpa using h.symm
    subst this; rfl
  | cons a l ih =>
    rw [List.mapM_cons, Res.bind_eq_ok] at h
    obtain ⟨b, hb, h⟩ := h
    rw [Res.bind_eq_ok] at h
    obtain ⟨bs', hbs, h⟩ := h
    have : bs = b :: bs' := by simpa using h.symm
    subst this
    rw [List.map_cons, List.map_cons, ih hbs, hg a b hb]

end Res

namespace NMap
variable {V : Type}

theorem get_ofList_nodup {l : List (Network × V)} (h : (l.map Prod.fst).Nodup) (n : Network) (v : V) :
    (ofList l).get n = some v ↔ (n, v) ∈ l := by
  rw [get_ofList, lastOf_nodup h, find_eq_some h]

theorem mem_of_lastOf {n : Network} {v : V} {l : List (Network × V)} (h : Spec.Data.lastOf n l = some v) : (n, v) ∈ l := by
  unfold Spec.Data.lastOf at h
  rw [Option.map_eq_some_iff] at h
  obtain ⟨e, he, rfl⟩ := h
  have := List.mem_of_getLast? he
  rw [List.mem_filter] at this
  have h2 : e.1 = n := by simpa using this.2
  rw [← h2]; exact this.1

theorem mem_entries_ofList {l : List (Network × V)} {e : Network × V} (h : e ∈ (ofList l).entries) : e ∈ l := by
  have : (ofList l).get e.1 = some e.2 := (get_eq_some _ _ _).mpr h
  rw [get_ofList] at this
  exact mem_of_lastOf this

theorem get_ofList_isSome {l : List (Network × V)} {n : Network} : ((ofList l).get n).isSome ↔ ∃ v, (n, v) ∈ l := by
  rw [get_ofList]
  constructor
  · intro h
    obtain ⟨v, hv⟩ := Option.isSome_iff_exists.mp h
    exact ⟨v, mem_of_lastOf hv⟩
  · rintro ⟨v, hv⟩
    unfold Spec.Data.lastOf
    rw [Option.isSome_map]
    have : (n, v) ∈ l.filter (fun e => decide (e.1 = n)) := by simp [hv]
    cases h : l.filter (fun e => decide (e.1 = n)) with
    | nil => rw [h] at this; cases this
    | cons x t => rw [List.getLast?_eq_some_getLast (List.cons_ne_nil x t)]; rfl

end NMap

namespace Manager
open KC.Spec.Wallet KC.Spec.Data KC.Spec.Crypt KC.Crypt
open KC.Data (WalletV2 Versioned)

/-- The content of stored data. -/
def content (w : WalletV2) : Content := ⟨w.seed, w.mnemonic, w.dictionary, w.keys.get⟩

theorem decrypt_opens {E : Env} {blob : Bytes} {pw : Str} {plain : Bytes} :
    Opens E blob pw plain ↔ decrypt E.H E.A blob pw = .ok plain := by
  constructor
  · rintro ⟨s, n, t, c, hp, hc, h⟩
    exact ((Props.C33_outcome E.H E.A blob s n t c pw hp hc).1 plain).mpr h
  · intro h
    rcases Nat.lt_or_ge 60 blob.length with hl | hl
    · obtain ⟨s, n, t, c, hp, hc⟩ := parts_exist blob hl
      exact ⟨s, n, t, c, hp, hc, ((Props.C33_outcome E.H E.A blob s n t c pw hp hc).1 plain).mp h⟩
    · rw [decrypt_short _ _ _ _ hl] at h; cases h

/-- Reading a stored wallet. -/
theorem read_wallet (D : Base64.Decoder) (c : Content) (plain : Bytes) :
    (∃ w, (Versioned.fromBytes D plain).bind (Versioned.getData D) = some w ∧ content w = c) ↔ IsWallet D c plain := by
  obtain ⟨a, b, l, f⟩ := c
  constructor
  · rintro ⟨w, h, hc⟩
    simp only [content, Content.mk.injEq] at hc
    obtain ⟨rfl, rfl, rfl, rfl⟩ := hc
    obtain ⟨⟨v, inner⟩, h1, h2⟩ := Option.bind_eq_some_iff.mp h
    have he := (Data.fromBytes_iff D plain v inner).mp h1
    cases v with
    | v1 =>
      obtain ⟨h3, h4, h5, keys, hk, hf⟩ := (Props.C62_v1 D inner _ _ _ _).mp ⟨w, h2, rfl, rfl, rfl, fun _ => rfl⟩
      exact ⟨inner, keys, hf, .inr ⟨he, hk, h3, h4, h5⟩⟩
    | v2 =>
      obtain ⟨keys, hk, hf⟩ := (Props.C62_v2 D inner _ _ _ _).mp ⟨w, h2, rfl, rfl, rfl, fun _ => rfl⟩
      exact ⟨inner, keys, hf, .inl ⟨he, hk⟩⟩
  · rintro ⟨inner, keys, hk, ⟨h1, h2⟩ | ⟨h1, h2, h3, h4, h5⟩⟩
    · obtain ⟨w, e, rfl, rfl, rfl, hf⟩ := (Props.C62_v2 D inner _ _ _ f).mpr ⟨keys, h2, hk⟩
      refine ⟨w, ?_, by simp only [content, Content.mk.injEq, true_and]; funext n; exact hf n⟩
      rw [(Data.fromBytes_iff D plain .v2 inner).mpr h1]
      exact e
    · obtain ⟨w, e, rfl, rfl, rfl, hf⟩ := (Props.C62_v1 D inner a b l f).mpr ⟨h3, h4, h5, keys, h2, hk⟩
      refine ⟨w, ?_, by simp only [content, Content.mk.injEq, true_and]; funext n; exact hf n⟩
      rw [(Data.fromBytes_iff D plain .v1 inner).mpr h1]
      exact e

theorem loads_iff {E : Env} {blob : Bytes} {pw : Str} {c : Content} :
    (∃ w, keychainDataFromBytes E blob pw = .ok w ∧ content w = c) ↔ Holds E blob pw c := by
  constructor
  · rintro ⟨w, h, hc⟩
    cases hd : decrypt E.H E.A blob pw with
    | ok plain =>
      rw [keychainDataFromBytes, hd] at h
      simp only [Res.mapErr, Res.bind_ok] at h
      cases hv : (Versioned.fromBytes E.D plain).bind (Versioned.getData E.D) with
      | none => rw [hv] at h; cases h
      | some w' =>
        rw [hv] at h
        cases h
        exact ⟨plain, decrypt_opens.mpr hd, (read_wallet E.D c plain).mp ⟨w, hv, hc⟩⟩
    | err e => rw [keychainDataFromBytes, hd] at h; cases h
    | panic => rw [keychainDataFromBytes, hd] at h; cases h
  · rintro ⟨plain, h1, h2⟩
    obtain ⟨w, e1, e2⟩ := (read_wallet E.D c plain).mpr h2
    refine ⟨w, ?_, e2⟩
    rw [keychainDataFromBytes, decrypt_opens.mp h1]
    simp only [Res.mapErr, Res.bind_ok, e1, Res.okOr]

theorem load_holds {E : Env} {blob : Bytes} {pw : Str} {c : Content} (h : Holds E blob pw c) :
    ∃ w, keychainDataFromBytes E blob pw = .ok w ∧ content w = c := loads_iff.mpr h

/-- What is stored under a key. -/
theorem encrypt_opens {ε} {E : Env} (hA : AeadCorrect E.A) {data blob : Bytes} {pw : Str} {r r' : Rng} (hd : data ≠ [])
    (h : (encrypt E.H E.A data pw : RM ε Bytes).run r = (.ok blob, r')) : Opens E blob pw data :=
  decrypt_opens.mpr (Props.C32_roundtrip E.H E.A hA data hd pw r r' blob h).1

theorem toBytes_ne_nil (v : Versioned) : v.toBytes ≠ [] := by
  simp [Versioned.toBytes, Json.writeObj]

theorem isWallet_new (D : Base64.Decoder) (it : Iter (Network × Bytes)) (w : WalletV2) :
    IsWallet D (content w) (Versioned.new it w).toBytes := by
  obtain ⟨v, w', h1, h2, h3, h4, h5, h6⟩ := Props.C35_roundtrip D it w
  refine (read_wallet D _ _).mp ⟨w', by rw [h1]; exact h2, ?_⟩
  simp only [content, h3, h4, h5, Content.mk.injEq, true_and]
  funext n; exact h6 n

theorem store_holds {E : Env} (hA : AeadCorrect E.A) {it : Iter (Network × Bytes)} {w : WalletV2} {pw : Str} {r r' : Rng}
    {blob : Bytes} (h : (store E it w pw).run r = (.ok blob, r')) : Holds E blob pw (content w) :=
  ⟨_, encrypt_opens hA (toBytes_ne_nil _) h, isWallet_new E.D it w⟩

theorem store_runs (E : Env) (it : Iter (Network × Bytes)) (w : WalletV2) (pw : Str) {r : Rng} (h : Delivers r) :
    ∃ blob r', (store E it w pw).run r = (.ok blob, r') :=
  Props.C32_succeeds E.H E.A _ pw r h.1 h.2.1 h.2.2

/-- A stored wallet determines its content. -/
theorem holds_unique {E : Env} {blob : Bytes} {pw : Str} {c c' : Content} (h : Holds E blob pw c) (h' : Holds E blob pw c') :
    c = c' := by
  obtain ⟨w, e, rfl⟩ := load_holds h
  obtain ⟨w', e', rfl⟩ := load_holds h'
  rw [e] at e'
  cases e'; rfl

theorem built_entry {M : Manager} (h : Built M) {e : Network × Factory} (he : e ∈ M.factories.entries) : e.2.network = e.1 := by
  obtain ⟨umax, fs, h⟩ := h
  rw [withFactoryObjs, Res.bind_eq_ok] at h
  obtain ⟨s, -, h⟩ := h
  have : M = ⟨NMap.ofList (fs.map fun f => (f.network, f)), s⟩ := by simpa using h.symm
  subst this
  have := NMap.mem_entries_ofList he
  rw [List.mem_map] at this
  obtain ⟨f, -, rfl⟩ := this
  rfl

/-! ### seeds -/

theorem seedFromData_ok (E : Env) (M : Manager) (w : WalletV2) (s : Bytes) :
    M.seedFromData E w.seed w.mnemonic w.dictionary = .ok s ↔
      Usable M.seedSize (content w) ∧ seedOf E.H (content w) = some s := by
  unfold seedFromData Usable seedOf content
  cases hs : w.seed with
  | some seed =>
    dsimp only
    by_cases hl : seed.length = Bip39.seedSize
    · rw [if_pos hl]; simp [show seed.length = 64 from hl]
    · rw [if_neg hl]; simp [show ¬ seed.length = 64 from hl]
  | none =>
    dsimp only
    rw [Res.bind_eq_ok]
    simp only [Res.bind_eq_ok, Res.okOr_eq_ok, Res.mapErr_eq_ok]
    constructor
    · rintro ⟨m, hm, l, hl, h⟩
      have h1 := ((Props.C13_outcome E.H [] M.seedSize l m).2.1 ⟨s, h⟩)
      have h2 := (Props.C12_seed E.H m [] M.seedSize l s h).1
      refine ⟨⟨m, l, hm, hl, h1⟩, ?_⟩
      rw [hm, Option.map_some, h2]
      simp [phraseSeed, Str.utf8]
    · rintro ⟨⟨m, l, hm, hl, ws, h1, h2, h3, h4⟩, h⟩
      refine ⟨m, hm, l, hl, ?_⟩
      obtain ⟨s', hs'⟩ := ((Props.C13_outcome E.H [] M.seedSize l m).1 ws h1 h2 h3).2.2 h4
      rw [hs']
      have := (Props.C12_seed E.H m [] M.seedSize l s' hs').1
      rw [hm, Option.map_some, Option.some.injEq] at h
      rw [← h, this]
      simp [phraseSeed, Str.utf8]

theorem seedFromData_no_panic (E : Env) (M : Manager) (s m l) : M.seedFromData E s m l ≠ .panic := by
  unfold seedFromData
  cases s with
  | some seed => dsimp only; split <;> simp
  | none =>
    cases m with
    | none => simp
    | some m => cases l with
      | none => simp
      | some l =>
        simp only [Res.okOr, Res.bind_ok, ne_eq, Res.mapErr_eq_panic]
        exact (Props.C13_outcome E.H [] M.seedSize l m).2.2

/-! ### creation -/

theorem new_ok {E : Env} {itF : Iter (Network × Factory)} {itK : Iter (Network × Bytes)} {M : Manager} (hM : Built M)
    {seed : Option Bytes} {pw : Str} {mn : Option Str} {lang} {r r' : Rng} {blob : Bytes}
    (h : (M.newKeychainData E itF itK seed pw mn lang).run r = (.ok blob, r')) :
    ∃ s keys, M.seedFromData E seed mn lang = .ok s ∧ KeysFrom M s (NMap.get keys) ∧
      (store E itK ⟨seed, mn, lang, keys⟩ pw).run r = (.ok blob, r') := by
  unfold newKeychainData at h
  rw [RM.run_bind, RM.run_lift] at h
  cases hs : M.seedFromData E seed mn lang with
  | err e => rw [hs] at h; cases h
  | panic => rw [hs] at h; cases h
  | ok s =>
  rw [hs] at h
  dsimp only at h
  rw [RM.run_bind, RM.run_lift] at h
  cases hp : ((itF.order M.factories.entries).map Prod.snd).mapM fun f =>
    ((f.keyDataFromSeed s).map fun data => (f.network, data)).mapErr (Error.keyError f.network) with
  | err e => rw [hp] at h; cases h
  | panic => rw [hp] at h; cases h
  | ok pkeys =>
  rw [hp] at h
  dsimp only at h
  refine ⟨s, NMap.ofList pkeys, rfl, ?_, h⟩
  obtain ⟨-, h1, h2⟩ := Res.mapM_eq_ok hp
  have hfst : pkeys.map Prod.fst = ((itF.order M.factories.entries).map Prod.snd).map Factory.network := by
    refine Res.mapM_map_fst _ _ ?_ hp
    intro f b hb
    rw [Res.mapErr_eq_ok, Res.map_eq_ok] at hb
    obtain ⟨d, -, rfl⟩ := hb
    rfl
  have hent : ∀ e ∈ itF.order M.factories.entries, e.2.network = e.1 := fun e he =>
    built_entry hM ((itF.perm _).mem_iff.mp he)
  have hnd : (pkeys.map Prod.fst).Nodup := by
    rw [hfst, List.map_map, show (itF.order M.factories.entries).map (Factory.network ∘ Prod.snd) = (itF.order M.factories.entries).map Prod.fst from
      List.map_congr_left hent]
    exact NMap.perm_nodup (itF.perm _) M.factories.nodup
  intro n
  cases hf : M.getKeyFactory n with
  | none =>
    dsimp only
    rw [← Option.not_isSome_iff_eq_none, NMap.get_ofList_isSome]
    rintro ⟨d, hd⟩
    obtain ⟨f, hf', hd'⟩ := h2 _ hd
    rw [Res.mapErr_eq_ok, Res.map_eq_ok] at hd'
    obtain ⟨d', -, e⟩ := hd'
    rw [List.mem_map] at hf'
    obtain ⟨⟨n', f'⟩, he, rfl⟩ := hf'
    have hn : n' = n := by
      have := hent _ he
      have e1 : f'.network = n := congrArg Prod.fst e
      exact this.symm.trans e1
    subst hn
    have := (NMap.get_eq_some M.factories n' f').mpr ((itF.perm _).mem_iff.mp he)
    rw [getKeyFactory, this] at hf
    cases hf
  | some f =>
    have hm := (itF.perm _).mem_iff.mpr ((NMap.get_eq_some M.factories n f).mp hf)
    obtain ⟨b, hb, e⟩ := h1 f (List.mem_map_of_mem (f := Prod.snd) hm)
    rw [Res.mapErr_eq_ok, Res.map_eq_ok] at e
    obtain ⟨d, hd, rfl⟩ := e
    refine ⟨d, hd, ?_⟩
    rw [NMap.get_ofList_nodup hnd]
    have := hent _ hm
    dsimp only at this
    rw [← this]; exact hb

theorem new_runs {E : Env} {itF : Iter (Network × Factory)} {itK : Iter (Network × Bytes)} {M : Manager}
    {seed : Option Bytes} {pw : Str} {mn : Option Str} {lang} {r : Rng} {s : Bytes} {keys} (hs : M.seedFromData E seed mn lang = .ok s)
    (hk : KeysFrom M s keys) (hr : Delivers r) :
    ∃ blob r', (M.newKeychainData E itF itK seed pw mn lang).run r = (.ok blob, r') := by
  unfold newKeychainData
  rw [RM.run_bind, RM.run_lift, hs]
  dsimp only
  rw [RM.run_bind, RM.run_lift]
  obtain ⟨pkeys, hp⟩ := Res.mapM_ok (l := (itF.order M.factories.entries).map Prod.snd)
    (f := fun f => ((f.keyDataFromSeed s).map fun data => (f.network, data)).mapErr (Error.keyError f.network)) (by
      intro f hf
      rw [List.mem_map] at hf
      obtain ⟨⟨n, f⟩, he, rfl⟩ := hf
      have := (NMap.get_eq_some M.factories n f).mpr ((itF.perm _).mem_iff.mp he)
      have h := hk n
      rw [getKeyFactory, this] at h
      obtain ⟨d, hd, -⟩ := h
      exact ⟨_, by simp only [hd, Res.map, Res.mapErr]; rfl⟩)
  rw [hp]
  exact store_runs E itK _ pw hr

/-! ### opening -/

theorem acts_of_get {kc : Keychain} {n : Network} {k : KeyObj} (h : kc.keys.get n = some k) : Acts kc n k := by
  refine ⟨by simp [Keychain.hasNetwork, h], fun path => ⟨?_, fun m => ?_, fun m s => ?_⟩⟩ <;>
    simp [Keychain.pubKey, Keychain.sign, Keychain.verify, Keychain.pk, h]

theorem open_content {E : Env} {it : Iter (Network × Bytes)} {M : Manager} {blob : Bytes} {pw : Str} {w : WalletV2}
    (hl : keychainDataFromBytes E blob pw = .ok w) :
    (AllLoad M (content w) → ∃ kc, M.keychainFromData E it blob pw = .ok kc) ∧
    (∀ kc, M.keychainFromData E it blob pw = .ok kc → AllLoad M (content w) ∧ (Honest M → Shows M (content w) kc)) ∧
    (∀ e, M.keychainFromData E it blob pw = .err e → ∃ n f d e', M.getKeyFactory n = some f ∧ (content w).keys n = some d ∧
      f.keyFromData d = .err e' ∧ e = .keyError n e') ∧
    (M.keychainFromData E it blob pw = .panic → ∃ n f d, M.getKeyFactory n = some f ∧ (content w).keys n = some d ∧
      f.keyFromData d = .panic) := by
  have hmem : ∀ x : Network × Factory × Bytes,
      x ∈ ((it.order w.keys.entries).filterMap fun e => (M.factories.get e.1).map fun f => (e.1, f, e.2)) ↔
        M.getKeyFactory x.1 = some x.2.1 ∧ w.keys.get x.1 = some x.2.2 := by
    rintro ⟨n, f, d⟩
    rw [List.mem_filterMap]
    constructor
    · rintro ⟨⟨n', d'⟩, he, h⟩
      rw [Option.map_eq_some_iff] at h
      obtain ⟨f', hf, e⟩ := h
      cases e
      exact ⟨hf, (NMap.get_eq_some _ _ _).mpr ((it.perm _).mem_iff.mp he)⟩
    · rintro ⟨h1, h2⟩
      refine ⟨(n, d), (it.perm _).mem_iff.mpr ((NMap.get_eq_some _ _ _).mp h2), ?_⟩
      dsimp only at h1 ⊢
      rw [show M.factories.get n = some f from h1]; rfl
  unfold keychainFromData
  rw [hl, Res.bind_ok]
  generalize ((it.order w.keys.entries).filterMap fun e => (M.factories.get e.1).map fun f => (e.1, f, e.2)) = xs at hmem
  refine ⟨fun h => ?_, fun kc h => ?_, fun e h => ?_, fun h => ?_⟩
  · obtain ⟨ks, hks⟩ := Res.mapM_ok (l := xs)
      (f := fun x : Network × Factory × Bytes => (x.2.1.keyFromData x.2.2).mapErr (Error.keyError x.1)) (by
        rintro ⟨n, f, d⟩ hx
        obtain ⟨h1, h2⟩ := (hmem _).mp hx
        obtain ⟨k, hk⟩ := h n f d h1 h2
        exact ⟨k, by simp only [hk, Res.mapErr]⟩)
    exact ⟨_, by rw [hks]; rfl⟩
  · rw [Res.bind_eq_ok] at h
    obtain ⟨ks, hks, e⟩ := h
    have : kc = Keychain.new ks := by simpa using e.symm
    subst this
    obtain ⟨-, h1, h2⟩ := Res.mapM_eq_ok hks
    have hall : AllLoad M (content w) := by
      intro n f d hf hd
      obtain ⟨k, -, hk⟩ := h1 (n, f, d) ((hmem _).mpr ⟨hf, hd⟩)
      exact ⟨k, (Res.mapErr_eq_ok).mp hk⟩
    refine ⟨hall, fun hh n => ?_⟩
    -- the keys with their networks
    have hkeys : ∀ n k, (n, k) ∈ ks.map (fun k => (k.network, k)) → ∃ f d, M.getKeyFactory n = some f ∧ w.keys.get n = some d ∧
        f.keyFromData d = .ok k := by
      intro n k hk
      rw [List.mem_map] at hk
      obtain ⟨k', hk, e⟩ := hk
      cases e
      obtain ⟨⟨n, f, d⟩, hx, hk'⟩ := h2 _ hk
      obtain ⟨hx1, hx2⟩ := (hmem _).mp hx
      have hk' := (Res.mapErr_eq_ok).mp hk'
      have := hh n f hx1 d _ hk'
      rw [this]
      exact ⟨f, d, hx1, hx2, hk'⟩
    have habs : ∀ n, (∀ f d, M.getKeyFactory n = some f → w.keys.get n = some d → False) →
        (Keychain.new ks).hasNetwork n = false := by
      intro n hno
      rw [Keychain.hasNetwork, Bool.eq_false_iff, Ne, Keychain.new, NMap.get_ofList_isSome]
      rintro ⟨k, hk⟩
      obtain ⟨f, d, h1, h2, -⟩ := hkeys n k hk
      exact hno f d h1 h2
    cases hf : M.getKeyFactory n with
    | none => exact habs n fun f d h1 _ => by rw [hf] at h1; cases h1
    | some f =>
      cases hd : (content w).keys n with
      | none => exact habs n fun f d _ h2 => by rw [show w.keys.get n = none from hd] at h2; cases h2
      | some d =>
        dsimp only
        obtain ⟨k, hk1, hk2⟩ := h1 (n, f, d) ((hmem _).mpr ⟨hf, hd⟩)
        have hk2 := (Res.mapErr_eq_ok).mp hk2
        have hnet := hh n f hf d k hk2
        have hs : ((Keychain.new ks).keys.get n).isSome := by
          rw [Keychain.new, NMap.get_ofList_isSome]
          exact ⟨k, List.mem_map.mpr ⟨k, hk1, by rw [hnet]⟩⟩
        obtain ⟨k', hk'⟩ := Option.isSome_iff_exists.mp hs
        have hk'm := hk'
        rw [Keychain.new, NMap.get_ofList] at hk'm
        obtain ⟨f', d', e1, e2, e3⟩ := hkeys n k' (NMap.mem_of_lastOf hk'm)
        rw [hf] at e1; cases e1
        rw [show w.keys.get n = some d from hd] at e2; cases e2
        exact ⟨k', e3, acts_of_get hk'⟩
  · rw [Res.bind_eq_err] at h
    rcases h with h | ⟨ks, -, h⟩
    · obtain ⟨⟨n, f, d⟩, hx, he⟩ := Res.mapM_eq_err h
      obtain ⟨h1, h2⟩ := (hmem _).mp hx
      rw [Res.mapErr_eq_err] at he
      obtain ⟨e', he', rfl⟩ := he
      exact ⟨n, f, d, e', h1, h2, he', rfl⟩
    · cases h
  · rw [Res.bind_eq_panic] at h
    rcases h with h | ⟨ks, -, h⟩
    · obtain ⟨⟨n, f, d⟩, hx, he⟩ := Res.mapM_eq_panic h
      obtain ⟨h1, h2⟩ := (hmem _).mp hx
      exact ⟨n, f, d, h1, h2, Res.mapErr_eq_panic.mp he⟩
    · cases h

/-! ### adding a network -/

/-- A successful `add_network`. -/
theorem add_ok {E : Env} {it : Iter (Network × Bytes)} {M : Manager} {blob blob' : Bytes} {pw : Str} {n : Network} {r r' : Rng}
    (h : (M.addNetwork E it blob pw n).run r = (.ok blob', r')) :
    ∃ f w s d, M.getKeyFactory n = some f ∧ keychainDataFromBytes E blob pw = .ok w ∧ w.keys.get n = none ∧
      M.seedFromData E w.seed w.mnemonic w.dictionary = .ok s ∧ f.keyDataFromSeed s = .ok d ∧
      (store E it { w with keys := w.keys.insert n d } pw).run r = (.ok blob', r') := by
  unfold addNetwork at h
  rw [RM.run_bind, RM.run_lift] at h
  cases hf : M.factories.get n with
  | none => rw [hf] at h; cases h
  | some f =>
  rw [hf] at h
  simp only [Res.okOr] at h
  rw [RM.run_bind, RM.run_lift] at h
  cases hw : keychainDataFromBytes E blob pw with
  | err e => rw [hw] at h; cases h
  | panic => rw [hw] at h; cases h
  | ok w =>
  rw [hw] at h
  dsimp only at h
  cases hn : w.keys.get n with
  | some d => rw [if_pos (by rw [hn]; rfl)] at h; cases h
  | none =>
  rw [if_neg (by rw [hn]; simp), RM.run_bind, RM.run_lift] at h
  cases hs : M.seedFromData E w.seed w.mnemonic w.dictionary with
  | err e => rw [hs] at h; cases h
  | panic => rw [hs] at h; cases h
  | ok s =>
  rw [hs] at h
  dsimp only at h
  rw [RM.run_bind, RM.run_lift] at h
  cases hd : f.keyDataFromSeed s with
  | err e => rw [hd] at h; cases h
  | panic => rw [hd] at h; cases h
  | ok d =>
  rw [hd] at h
  exact ⟨f, w, s, d, hf, rfl, hn, hs, hd, h⟩

end Manager
end KC
