import Verif.Spec.Archive
import Verif.Props.Capstone
/-
C87: wallet files in the words of the documents alone: what the library writes, and what it makes of files another program wrote.
-/
namespace KC.Props
open KC.Manager KC.Spec KC.Spec.Wallet KC.Secp KC.Spec.Archive
open KC.Spec.Data (lastOf)
open KC.Mnemonic (Language)
open KC.Spec.Bip32 (be n IsBe)
open KC.Spec.Ed25519 (l)
open KC.Spec.Standard (Node EdNode Master Regular EdMaster)
open KC.Real.Secp256k1 (curve)
open KC.Real.Ed25519 (ed)

/-! ### Key data -/

theorem root_of_master {seed : Bytes} {x : Node} (hs : seed.length = 64) (h : Master seed x) :
    ∃ root, Spec.Bip32.Root Real.hashes seed root ∧ node root = x := by
  obtain ⟨k, c⟩ := x
  obtain ⟨il, l1, l2, hh, e, h0, hn⟩ := h
  rw [hmac_iff (by decide +kernel) (small (by omega))] at hh
  rw [← order_eq] at hn
  refine ⟨⟨⟨k, h0, hn⟩, ⟨c, l2⟩, ⟨List.replicate 4 0, rfl⟩, 0, 0⟩, ⟨il, c, l1, l2, hh.symm, ⟨l1, e.symm⟩, rfl, rfl, rfl, rfl⟩, rfl⟩

theorem sha256_iff {m d : Bytes} (h : m.length < 2 ^ 60) : Sha256 m d ↔ d = Real.hashes.sha256 m := by
  rw [Sha256, ← C82_sha256 _ _ (by omega)]
  exact eq_comm

theorem isBe_zero {b : Bytes} (h : IsBe 4 0 b) : b = List.replicate 4 0 := Bytes.isBe_unique h ⟨rfl, rfl⟩

theorem masterData_of_layout {seed d : Bytes} {root : XPrv} (hs : seed.length = 64) (hr : Spec.Bip32.Root Real.hashes seed root)
    (hl : Spec.Bip32.Layout Real.hashes root d) : MasterData seed d := by
  have hm := master_of_root hs hr
  obtain ⟨_, _, -, -, -, -, -, h0, hi, hf⟩ := hr
  obtain ⟨fp, ix, cc, kb, cs, rfl, -, e1, e2, l3, e3, e4, l5, e5⟩ := hl
  rw [hi] at e2
  rw [hf] at e1
  have e2 := isBe_zero e2
  subst e1 e2
  rw [h0] at e5 ⊢
  have e : [0] ++ List.replicate 4 0 ++ List.replicate 4 0 ++ cc ++ kb = List.replicate 9 (0 : UInt8) ++ cc ++ kb := rfl
  have lb : (List.replicate 9 (0 : UInt8) ++ cc ++ kb).length < 2 ^ 60 := by
    simp only [List.length_append, List.length_replicate, l3, e4.1]; decide
  rw [e] at e5 ⊢
  refine ⟨node root, kb, Real.hashes.sha256 (List.replicate 9 0 ++ cc ++ kb), _, hm, e4, ?_,
    (sha256_iff (by rw [Real.hashes.sha256_len]; decide)).mpr rfl, ?_⟩
  · rw [← show cc = (node root).c from e3]
    exact (sha256_iff lb).mpr rfl
  · rw [← show cc = (node root).c from e3, List.prefix_iff_eq_take.mp e5, l5]

theorem masterData_unique {seed d d' : Bytes} (hs : seed.length = 64) (h : MasterData seed d) (h' : MasterData seed d') : d = d' := by
  obtain ⟨x, kb, a, b, hx, hk, ha, hb, rfl⟩ := h
  obtain ⟨x', kb', a', b', hx', hk', ha', hb', rfl⟩ := h'
  obtain rfl := C83_determined.2.1 _ _ _ hs hx hx'
  obtain rfl := Bytes.isBe_unique hk hk'
  obtain ⟨_, -, lc, -⟩ := hx
  have lb : (List.replicate 9 (0 : UInt8) ++ x.c ++ kb).length < 2 ^ 60 := by
    simp only [List.length_append, List.length_replicate, lc, hk.1]; decide
  rw [sha256_iff lb] at ha ha'
  subst ha ha'
  have la := Real.hashes.sha256_len (List.replicate 9 (0 : UInt8) ++ x.c ++ kb)
  rw [sha256_iff (by rw [la]; decide)] at hb hb'
  rw [hb, hb']

/-- C87: what Bitcoin and Ethereum make from a seed is the written master key, and nothing else is. -/
theorem C87_secp_data (nonce : Nonces) (tries : Nat) (Ed : Cardano.Ed) (net : Net) (hn : net ≠ .cardano) (seed d : Bytes) (hs : seed.length = 64) :
    (factoryOf Real.hashes (curve nonce tries) Ed net).keyDataFromSeed seed = .ok d ↔ MasterData seed d := by
  have fwd : ∀ d, (factoryOf Real.hashes (curve nonce tries) Ed net).keyDataFromSeed seed = .ok d → MasterData seed d := by
    intro d h
    obtain ⟨-, -, root, hr, hl⟩ := C81_shared _ _ Ed net net hn hn seed d h
    exact masterData_of_layout hs hr hl
  refine ⟨fwd d, fun h => ?_⟩
  obtain ⟨x, _, _, _, hx, -⟩ := id h
  obtain ⟨root, hr, -⟩ := root_of_master hs hx
  obtain ⟨d', hd⟩ := data_exists Real.hashes (curve nonce tries) Ed seed root hs hr net hn
  rw [masterData_unique hs h (fwd d' hd)]
  exact hd

/-- C87: what Cardano makes from a seed is the written root key, and nothing else is. -/
theorem C87_cardano_data (C : Curve) (Ed : Cardano.Ed) (seed d : Bytes) (hs : seed.length = 64) :
    (factoryOf Real.hashes C Ed .cardano).keyDataFromSeed seed = .ok d ↔ EdData seed d := by
  obtain ⟨d', b0, b31, hd, -, -, -, e, v0, v31⟩ := C30_from_seed Real.hashes C Ed seed hs
  have hlen : 8 * (seed.take 32).length < 2 ^ 128 := by rw [List.length_take, hs]; decide
  have he : EdData seed d' := by
    have hh := (C82_sha512 (seed.take 32) _ hlen).mp rfl
    revert e v0 v31 hh
    generalize Real.hashes.sha512 (seed.take 32) = h
    intro e v0 v31 hh
    exact ⟨⟨[b0] ++ (h.drop 1).take 30 ++ [b31], h.drop 32, seed.drop 32⟩, ⟨hs, h, b0, b31, hh, rfl, v0, v31, rfl, rfl⟩, e⟩
  rw [hd, Res.ok.injEq]
  constructor
  · rintro rfl
    exact he
  · rintro ⟨x, hx, rfl⟩
    obtain ⟨x', hx', rfl⟩ := he
    rw [C83_determined.2.2.2.1 _ _ _ hx hx']

/-! ### The seal -/

theorem sealed_iff {password : Str} {plain blob : Bytes} (hp : (Str.utf8 password).length < 2 ^ 123) (hb : blob.length < 2 ^ 64) :
    Sealed (Str.utf8 password) plain blob ↔ KC.Crypt.decrypt Real.hashes Real.aead blob password = .ok plain := by
  rw [C82_format blob plain password hp hb]
  constructor
  · rintro ⟨salt, nonce, tag, ct, key, rfl, l1, l2, l3, hne, hk, hc, ht⟩
    refine ⟨salt, nonce, tag, ct, key, ⟨by simp, l1, l2, l3⟩, ?_, hk, ht, hc⟩
    rintro rfl
    exact hne (List.length_eq_zero_iff.mp hc.1.symm)
  · rintro ⟨salt, nonce, tag, ct, key, hP, hne, hk, ht, hc⟩
    refine ⟨salt, nonce, tag, ct, key, by rw [hP.eq]; simp, hP.salt_len, hP.nonce_len, hP.tag_len, ?_, hk, hc, ht⟩
    rintro rfl
    exact hne (List.length_eq_zero_iff.mp hc.1)

theorem sealed_opens {D : Base64.Decoder} {password : Str} {plain blob : Bytes} (hp : (Str.utf8 password).length < 2 ^ 123) (hb : blob.length < 2 ^ 64) :
    Sealed (Str.utf8 password) plain blob ↔ Opens (realEnv D) blob password plain := by
  rw [sealed_iff hp hb, decrypt_opens, realEnv_H, realEnv_A]

/-! ### What the library writes -/

/-- The wallet's text is the library's own. -/
def Own (E : Env) (b : Bytes) (p : Str) : Prop := ∃ it w, Opens E b p (KC.Data.Versioned.new it w).toBytes

theorem own_store {E : Env} (hA : Spec.Crypt.AeadCorrect E.A) {it : Iter (Network × Bytes)} {w : KC.Data.WalletV2} {pw : Str} {r r' : Rng} {blob : Bytes}
    (h : (store E it w pw).run r = (.ok blob, r')) : Own E blob pw := ⟨it, w, encrypt_opens hA (toBytes_ne_nil _) h⟩

theorem own_run {E : Env} (hA : Spec.Crypt.AeadCorrect E.A) {s t : Bytes × Str} {evs : List Event} (h : Run E s evs t) (h0 : Own E s.1 s.2) :
    Own E t.1 t.2 := by
  induction h with
  | nil => exact h0
  | change evs b p b' p' r r' _ hc ih =>
    obtain ⟨it, w, ho⟩ := ih
    obtain ⟨plain, h1, h2⟩ := C42_reencrypts E hA b b' p p' r r' hc
    rw [decrypt_opens] at ho h1
    rw [ho] at h1
    cases h1
    exact ⟨it, w, h2⟩
  | add evs b p b' M it n r r' _ ha ih =>
    obtain ⟨_, _, _, _, -, -, -, -, -, hs⟩ := add_ok ha
    exact own_store hA hs

theorem file_of_own {D : Base64.Decoder} {b : Bytes} {p : Str} (hp : (Str.utf8 p).length < 2 ^ 123) (hb : b.length < 2 ^ 64)
    (h : Own (realEnv D) b p) {src : Source} {f : Network → Option Bytes}
    (hc : Holds (realEnv D) b p ⟨src.seedField, src.phraseField, src.languageField, f⟩) :
    ∃ keys, IsPlainFile (Str.utf8 p) src keys b ∧ (keys.map Prod.fst).Nodup ∧ ∀ n d, (n, d) ∈ keys ↔ f n = some d := by
  obtain ⟨it, w, ho⟩ := h
  have e := holds_unique hc ⟨_, ho, isWallet_new _ it w⟩
  obtain ⟨inner, keys, h1, h2, hperm⟩ := C35_format it w
  simp only [content, Content.mk.injEq] at e
  obtain ⟨e1, e2, e3, e4⟩ := e
  refine ⟨keys, ⟨inner, _, (sealed_opens hp hb).mpr ho, h1, by rw [e1, e2, e3]; exact h2⟩, NMap.perm_nodup hperm w.keys.nodup, fun n d => ?_⟩
  rw [hperm.mem_iff, e4]
  exact (NMap.get_eq_some _ _ _).symm

theorem keyData_of_exports {nonce : Nonces} {tries : Nat} {Ed : Cardano.Ed} {seed : Bytes} {ls : List (Network × Bytes)}
    (h : Exports Real.hashes (curve nonce tries) Ed seed ls) : ∀ e ∈ ls, KeyData seed e := by
  rintro ⟨n, d⟩ hm
  have len : ∀ net, (factoryOf Real.hashes (curve nonce tries) Ed net).keyDataFromSeed seed = .ok d → seed.length = 64 := by
    intro net h
    by_contra hc
    rw [C30_seed_size _ _ _ net seed hc] at h
    cases h
  rcases h n d hm with ⟨hn, h, -⟩ | ⟨hn, -, h⟩
  · exact .inr ⟨hn, (C87_cardano_data _ Ed seed d (len _ h)).mp h⟩
  · exact .inl ⟨hn, (C87_secp_data nonce tries Ed .bitcoin nofun seed d (len _ (h .bitcoin nofun))).mp (h .bitcoin nofun)⟩

/-- C87: what the library writes, from a seed or a phrase and after any history of password changes and added networks, is a file as the
documents say, with a key of the seed for each network that the wallet was made with or that was added, once. -/
theorem C87_written (D : Base64.Decoder) (nonce : Nonces) (tries : Nat) (Ed : Cardano.Ed)
    (itF : Iter (Network × Factory)) (itK : Iter (Network × Bytes)) (M : Manager) (hM : BuiltIn Real.hashes (curve nonce tries) Ed M)
    (r r' : Rng) (b0 b : Bytes) (p0 p : Str) (evs : List Event) (hrun : Run (realEnv D) (b0, p0) evs (b, p))
    (hev : ∀ M' n, Event.added M' n ∈ evs → BuiltIn Real.hashes (curve nonce tries) Ed M')
    (hp : (Str.utf8 p).length < 2 ^ 123) (hb : b.length < 2 ^ 64) :
    (∀ seed, (M.keychainDataFromSeed (realEnv D) itF itK seed p0).run r = (.ok b0, r') →
      ∃ keys, IsPlainFile (Str.utf8 p) (.seed seed) keys b ∧ (Source.seed seed).IsSeed seed ∧ (∀ e ∈ keys, KeyData seed e) ∧
        (keys.map Prod.fst).Nodup ∧ ∀ n, n ∈ keys.map Prod.fst ↔ M.hasNetwork n = true ∨ ∃ M', Event.added M' n ∈ evs) ∧
    (∀ text lang, (Str.utf8 text).length < 2 ^ 123 → (M.keychainDataFromMnemonic (realEnv D) itF itK text p0 lang).run r = (.ok b0, r') →
      ∃ keys seed, IsPlainFile (Str.utf8 p) (.phrase text (lang.getD .english)) keys b ∧ (Source.phrase text (lang.getD .english)).IsSeed seed ∧
        (∀ e ∈ keys, KeyData seed e) ∧
        (keys.map Prod.fst).Nodup ∧ ∀ n, n ∈ keys.map Prod.fst ↔ M.hasNetwork n = true ∨ ∃ M', Event.added M' n ∈ evs) := by
  have hA := realEnv_correct D
  have hM2 := hM
  have hev2 := hev
  rw [← realEnv_H D] at hM2 hev2
  have main : ∀ (src : Source) seed f, Own (realEnv D) b0 p0 → Holds (realEnv D) b p ⟨src.seedField, src.phraseField, src.languageField, f⟩ →
      (∃ ls, getKeysData (realEnv D) itK b p = .ok ls ∧ Exports (realEnv D).H (curve nonce tries) Ed seed ls ∧
        ∀ n, n ∈ ls.map Prod.fst ↔ M.hasNetwork n = true ∨ ∃ M', Event.added M' n ∈ evs) →
      ∃ keys, IsPlainFile (Str.utf8 p) src keys b ∧ (∀ e ∈ keys, KeyData seed e) ∧
        (keys.map Prod.fst).Nodup ∧ ∀ n, n ∈ keys.map Prod.fst ↔ M.hasNetwork n = true ∨ ∃ M', Event.added M' n ∈ evs := by
    rintro src seed f ho hc ⟨ls, hl, he, hm⟩
    obtain ⟨ls', hl', -, hmem⟩ := C41_keys_data _ itK b p _ hc
    rw [hl] at hl'
    cases hl'
    obtain ⟨keys, h1, h2, h3⟩ := file_of_own hp hb (own_run hA hrun ho) hc
    have hsame : ∀ e, e ∈ keys ↔ e ∈ ls := fun e => (h3 e.1 e.2).trans (hmem e.1 e.2).symm
    rw [realEnv_H] at he
    refine ⟨keys, h1, fun e h => keyData_of_exports he e ((hsame e).mp h), h2, fun n => ?_⟩
    rw [← hm n]
    simp only [List.mem_map, hsame]
  obtain ⟨g1, g2⟩ := C44_created _ hA itF itK M hM.built r r' b0 b p0 p evs hrun
  obtain ⟨q1, q2⟩ := C81_wallet _ hA _ Ed itF itK itK M hM2 r r' b0 b p0 p evs hrun hev2
  constructor
  · intro seed h
    obtain ⟨f, hh, -⟩ := g1 seed h
    obtain ⟨_, _, -, -, hst⟩ := new_ok hM.built h
    obtain ⟨keys, k1, k2⟩ := main (.seed seed) seed f (own_store hA hst) hh (q1 seed h)
    exact ⟨keys, k1, ⟨rfl, (C40_from_seed _ hA itF itK M hM.built seed p0 r r' b0 h).1⟩, k2⟩
  · intro text lang ht h
    obtain ⟨f, hh, -⟩ := g2 text lang h
    obtain ⟨_, _, -, -, hst⟩ := new_ok hM.built h
    obtain ⟨keys, k1, k2⟩ := main (.phrase text (lang.getD .english)) _ f (own_store hA hst) hh (q2 text lang h)
    refine ⟨keys, _, k1, ?_, k2⟩
    have e : Standard.ascii "mnemonic" = [109, 110, 101, 109, 111, 110, 105, 99] := by decide +kernel
    rw [Source.IsSeed, Standard.Seed, e, ← C82_pbkdf2 _ _ _ _ _ ht (by decide) (by decide) (by decide), phraseSeed, realEnv_H]

/-! ### What the library reads -/

/-- C87: any such file, whoever wrote it, is a wallet with these fields and the last key listed for each network. -/
theorem C87_read (D : Base64.Decoder) (p : Str) (src : Source) (keys : List (Network × Bytes)) (b : Bytes)
    (hp : (Str.utf8 p).length < 2 ^ 123) (hb : b.length < 2 ^ 64) (h : IsFile (Str.utf8 p) src keys b) :
    Holds (realEnv D) b p ⟨src.seedField, src.phraseField, src.languageField, fun n => lastOf n keys⟩ := by
  obtain ⟨inner, plain, hs, he, hi⟩ := h
  obtain ⟨v, w, h1, h2, h3, h4, h5, h6⟩ := C35_reads_any (realEnv D).D _ _ _ _ _ _ he hi
  refine ⟨plain, (sealed_opens hp hb).mp hs, (read_wallet _ _ _).mp ⟨w, by rw [h1]; exact h2, ?_⟩⟩
  simp only [content, h3, h4, h5, Content.mk.injEq, true_and]
  funext n; exact h6 n

/-- C87: a plain file is a file. -/
theorem C87_plain (password : Bytes) (src : Source) (keys : List (Network × Bytes)) (b : Bytes) (h : IsPlainFile password src keys b) :
    IsFile password src keys b := by
  obtain ⟨inner, plain, hs, he, hi⟩ := h
  exact ⟨inner, plain, hs, ⟨_, he, by simp [Data.key], by simp [Data.Once, Data.key], by simp [Data.Once, Data.key]⟩,
    ⟨_, hi, by simp [Data.key], by simp [Data.Once, Data.key], by simp [Data.Once, Data.key], by simp [Data.Once, Data.key], by simp [Data.Once, Data.key]⟩⟩

/-- C87: a file stands for one wallet. -/
theorem C87_unambiguous (p : Str) (src src' : Source) (keys keys' : List (Network × Bytes)) (b : Bytes)
    (hp : (Str.utf8 p).length < 2 ^ 123) (hb : b.length < 2 ^ 64) (h : IsFile (Str.utf8 p) src keys b) (h' : IsFile (Str.utf8 p) src' keys' b) :
    src = src' ∧ ∀ n, lastOf n keys = lastOf n keys' := by
  have e := holds_unique (C87_read Base64.strict p src keys b hp hb h) (C87_read Base64.strict p src' keys' b hp hb h')
  simp only [Content.mk.injEq] at e
  obtain ⟨e1, e2, e3, e4⟩ := e
  refine ⟨?_, fun n => congrFun e4 n⟩
  cases src <;> cases src' <;> simp_all [Source.seedField, Source.phraseField, Source.languageField]

theorem source_seed {src : Source} {seed : Bytes} {f : Network → Option Bytes} (hf : src.Fits) (h : src.IsSeed seed) :
    seed.length = 64 ∧ seedOf Real.hashes ⟨src.seedField, src.phraseField, src.languageField, f⟩ = some seed := by
  cases src with
  | seed s =>
    obtain ⟨rfl, hl⟩ := h
    exact ⟨hl, rfl⟩
  | phrase text lang =>
    have hf : (Str.utf8 text).length < 2 ^ 123 := hf
    refine ⟨(C83_determined.1 _ _ _ hf h h).2, ?_⟩
    have e : Standard.ascii "mnemonic" = [109, 110, 101, 109, 111, 110, 105, 99] := by decide +kernel
    rw [Source.IsSeed, Standard.Seed, e, ← C82_pbkdf2 _ _ _ _ _ hf (by decide) (by decide) (by decide)] at h
    rw [← h]
    simp only [seedOf, Source.seedField, Source.phraseField, Option.map_some, phraseSeed]

/-- C87: a file that another program wrote, with keys that belong to its seed: after any history of password changes and added networks,
every manager opens it, unless the path m/44'/60' has an exceptional step, and then it has the keys that the documents give for the seed. -/
theorem C87_opens (D : Base64.Decoder) (nonce : Nonces) (tries : Nat) (ok : Nat → Bool) (hok : ∀ s, s < l → ok s = true)
    (it : Iter (Network × Bytes)) (M' : Manager) (hM' : BuiltIn Real.hashes (curve nonce tries) (ed Real.hashes ok) M')
    (b0 b : Bytes) (p0 p : Str) (evs : List Event) (hrun : Run (realEnv D) (b0, p0) evs (b, p))
    (hev : ∀ M'' n, Event.added M'' n ∈ evs → BuiltIn Real.hashes (curve nonce tries) (ed Real.hashes ok) M'')
    (hp : (Str.utf8 p0).length < 2 ^ 123) (hb : b0.length < 2 ^ 64) (src : Source) (hf : src.Fits) (keys : List (Network × Bytes)) (seed : Bytes)
    (hfile : IsFile (Str.utf8 p0) src keys b0) (hseed : src.IsSeed seed) (hkeys : ∀ e ∈ keys, KeyData seed e) :
    ((∀ x, Master seed x → Regular x [0x8000002C, 0x8000003c]) → ∃ kc, M'.keychainFromData (realEnv D) it b p = .ok kc) ∧
    ∀ kc, M'.keychainFromData (realEnv D) it b p = .ok kc → FromStandard ok seed kc ∧
      ∀ n, kc.hasNetwork n = true ↔ M'.hasNetwork n = true ∧ (n ∈ keys.map Prod.fst ∨ ∃ M'', Event.added M'' n ∈ evs) := by
  have h0 := C87_read D p0 src keys b0 hp hb hfile
  obtain ⟨c, hc, -, -, -, k1, k2, k3⟩ := C44_history _ (realEnv_correct D) b0 b p0 p evs _ h0 hrun
  obtain ⟨hlen, hso⟩ := source_seed (f := fun n => lastOf n keys) hf hseed
  obtain ⟨ls, hl, -, hmem⟩ := C41_keys_data _ it b p c hc
  have hlast : ∀ n, lastOf n keys ≠ none ↔ n ∈ keys.map Prod.fst := by
    intro n
    have := (NMap.get_ofList_isSome (l := keys) (n := n))
    rw [NMap.get_ofList] at this
    rw [Option.ne_none_iff_isSome, this, List.mem_map]
    constructor
    · rintro ⟨v, h⟩; exact ⟨(n, v), h, rfl⟩
    · rintro ⟨⟨n', v⟩, h, rfl⟩; exact ⟨v, h⟩
  have secp : ∀ d net net', net ≠ .cardano → net' ≠ .cardano →
      (factoryOf Real.hashes (curve nonce tries) (ed Real.hashes ok) net).keyDataFromSeed seed = .ok d →
      (∃ root, Spec.Bip32.Root Real.hashes seed root ∧ Spec.Bip32.Layout Real.hashes root d) ∧
      (factoryOf Real.hashes (curve nonce tries) (ed Real.hashes ok) net').keyDataFromSeed seed = .ok d := by
    intro d net net' hn hn' h
    obtain ⟨a, -, b⟩ := C81_shared _ _ (ed Real.hashes ok) net net' hn hn' seed d h
    exact ⟨b, a⟩
  have he : Exports Real.hashes (curve nonce tries) (ed Real.hashes ok) seed ls := by
    intro n d hm
    have hd := (hmem n d).mp hm
    by_cases hk : lastOf n keys = none
    · obtain ⟨M, ha⟩ := ((k2 n).mp (by rw [hd]; nofun)).resolve_left (fun h => h hk)
      obtain ⟨f, seed', d', hf', hs', hd', hc'⟩ := k3 M n ha
      rw [hd] at hc'
      cases hc'
      rw [realEnv_H, hso] at hs'
      cases hs'
      rcases (hev M n ha).factory hf' with ⟨rfl, rfl⟩ | ⟨rfl, rfl⟩ | ⟨rfl, rfl⟩
      · exact .inl ⟨rfl, hd', (C81_cardano Real.hashes (curve nonce tries) (ed Real.hashes ok) seed d hd').2.2⟩
      · exact .inr ⟨.inr rfl, (secp d .ethereum .ethereum nofun nofun hd').1, fun net hn => (secp d .ethereum net nofun hn hd').2⟩
      · exact .inr ⟨.inl rfl, (secp d .bitcoin .bitcoin nofun nofun hd').1, fun net hn => (secp d .bitcoin net nofun hn hd').2⟩
    · obtain ⟨d', hd'⟩ := Option.ne_none_iff_exists'.mp hk
      have := k1 n d' hd'
      rw [hd] at this
      cases this
      rcases hkeys (n, d) (NMap.mem_of_lastOf hd') with ⟨hn, h⟩ | ⟨hn, h⟩
      · have h' := (C87_secp_data nonce tries (ed Real.hashes ok) .bitcoin nofun seed d hlen).mpr h
        exact .inr ⟨hn, (secp d .bitcoin .bitcoin nofun nofun h').1, fun net hn => (secp d .bitcoin net nofun hn h').2⟩
      · have h' := (C87_cardano_data (curve nonce tries) (ed Real.hashes ok) seed d hlen).mpr h
        exact .inl ⟨hn, h', (C81_cardano Real.hashes (curve nonce tries) (ed Real.hashes ok) seed d h').2.2⟩
  obtain ⟨g1, g2⟩ := keychain_standard hok hM' hc hl he
  refine ⟨fun h => g1 fun _ _ => h, fun kc hkc => ?_⟩
  obtain ⟨q1, q2⟩ := g2 kc hkc
  refine ⟨q1, fun n => (q2 n).trans (and_congr_right fun _ => ?_)⟩
  rw [← hlast n]
  refine Iff.trans ?_ (k2 n)
  rw [List.mem_map]
  constructor
  · rintro ⟨⟨n', d⟩, hm, rfl⟩
    rw [(hmem n' d).mp hm]
    nofun
  · intro hne
    obtain ⟨d, hd⟩ := Option.ne_none_iff_exists'.mp hne
    exact ⟨(n, d), (hmem n d).mpr hd, rfl⟩

/-- C87: a file of version 1 that another program wrote, with keys that belong to a seed: its password can be changed, but no network can be
added; every manager opens it, unless the path m/44'/60' has an exceptional step, and then it has the keys that the documents give for the seed. -/
theorem C87_old (D : Base64.Decoder) (nonce : Nonces) (tries : Nat) (ok : Nat → Bool) (hok : ∀ s, s < l → ok s = true)
    (it : Iter (Network × Bytes)) (M' : Manager) (hM' : BuiltIn Real.hashes (curve nonce tries) (ed Real.hashes ok) M')
    (b0 b : Bytes) (p0 p : Str) (evs : List Event) (hrun : Run (realEnv D) (b0, p0) evs (b, p))
    (hp : (Str.utf8 p0).length < 2 ^ 123) (hb : b0.length < 2 ^ 64) (keys : List (Network × Bytes)) (seed : Bytes) (hlen : seed.length = 64)
    (hfile : IsOldFile (Str.utf8 p0) keys b0) (hkeys : ∀ e ∈ keys, KeyData seed e) :
    (∀ M'' n, Event.added M'' n ∉ evs) ∧
    ((∀ x, Master seed x → Regular x [0x8000002C, 0x8000003c]) → ∃ kc, M'.keychainFromData (realEnv D) it b p = .ok kc) ∧
    ∀ kc, M'.keychainFromData (realEnv D) it b p = .ok kc → FromStandard ok seed kc ∧
      ∀ n, kc.hasNetwork n = true ↔ M'.hasNetwork n = true ∧ n ∈ keys.map Prod.fst := by
  obtain ⟨inner, plain, hs, he, hi⟩ := hfile
  have h0 : Holds (realEnv D) b0 p0 ⟨none, none, none, fun n => lastOf n keys⟩ := by
    obtain ⟨v, w, h1, h2, h3, h4, h5, h6⟩ := C36_v1 (realEnv D).D keys inner plain he hi
    refine ⟨plain, (sealed_opens hp hb).mp hs, (read_wallet _ _ _).mp ⟨w, by rw [h1]; exact h2, ?_⟩⟩
    simp only [content, h3, h4, h5, Content.mk.injEq, true_and]
    funext n; exact h6 n
  obtain ⟨c, hc, -, -, -, k1, k2, k3⟩ := C44_history _ (realEnv_correct D) b0 b p0 p evs _ h0 hrun
  have hadd : ∀ M'' n, Event.added M'' n ∉ evs := by
    intro M'' n ha
    obtain ⟨_, _, _, -, hs', -⟩ := k3 M'' n ha
    cases hs'
  obtain ⟨ls, hl, -, hmem⟩ := C41_keys_data _ it b p c hc
  have hlast : ∀ n, lastOf n keys ≠ none ↔ n ∈ keys.map Prod.fst := by
    intro n
    have := (NMap.get_ofList_isSome (l := keys) (n := n))
    rw [NMap.get_ofList] at this
    rw [Option.ne_none_iff_isSome, this, List.mem_map]
    constructor
    · rintro ⟨v, h⟩; exact ⟨(n, v), h, rfl⟩
    · rintro ⟨⟨n', v⟩, h, rfl⟩; exact ⟨v, h⟩
  have hk2 : ∀ n, c.keys n ≠ none ↔ lastOf n keys ≠ none := by
    intro n
    rw [k2 n]
    exact ⟨fun h => h.resolve_right (by rintro ⟨M'', ha⟩; exact hadd M'' n ha), .inl⟩
  have he : Exports Real.hashes (curve nonce tries) (ed Real.hashes ok) seed ls := by
    intro n d hm
    have hd := (hmem n d).mp hm
    obtain ⟨d', hd'⟩ := Option.ne_none_iff_exists'.mp ((hk2 n).mp (by rw [hd]; nofun))
    have := k1 n d' hd'
    rw [hd] at this
    cases this
    rcases hkeys (n, d) (NMap.mem_of_lastOf hd') with ⟨hn, h⟩ | ⟨hn, h⟩
    · have h' := (C87_secp_data nonce tries (ed Real.hashes ok) .bitcoin nofun seed d hlen).mpr h
      obtain ⟨-, -, b⟩ := C81_shared _ _ (ed Real.hashes ok) .bitcoin .bitcoin nofun nofun seed d h'
      exact .inr ⟨hn, b, fun net hn => (C81_shared _ _ (ed Real.hashes ok) .bitcoin net nofun hn seed d h').1⟩
    · have h' := (C87_cardano_data (curve nonce tries) (ed Real.hashes ok) seed d hlen).mpr h
      exact .inl ⟨hn, h', (C81_cardano Real.hashes (curve nonce tries) (ed Real.hashes ok) seed d h').2.2⟩
  obtain ⟨g1, g2⟩ := keychain_standard hok hM' hc hl he
  refine ⟨hadd, fun h => g1 fun _ _ => h, fun kc hkc => ?_⟩
  obtain ⟨q1, q2⟩ := g2 kc hkc
  refine ⟨q1, fun n => (q2 n).trans (and_congr_right fun _ => ?_)⟩
  rw [← hlast n, ← hk2 n, List.mem_map]
  constructor
  · rintro ⟨⟨n', d⟩, hm, rfl⟩
    rw [(hmem n' d).mp hm]
    nofun
  · intro hne
    obtain ⟨d, hd⟩ := Option.ne_none_iff_exists'.mp hne
    exact ⟨(n, d), (hmem n d).mpr hd, rfl⟩

end KC.Props
