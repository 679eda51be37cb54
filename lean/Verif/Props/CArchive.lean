import Verif.Props.CPrograms
import Verif.Props.ArchiveCase
/-
C90: wallet files between C programs and programs that do not use the library.
-/
namespace KC.Props
open KC.C KC.Spec.C KC.Spec KC.Spec.Wallet KC.Spec.Archive
open KC.Spec.Data (lastOf)
open KC.Spec.Standard (Master Regular)
open KC.Spec.Ed25519 (l)
open KC.Spec.Secp256k1 (Uncompressed)
open KC.Real.Secp256k1 (curve)
open KC.Real.Ed25519 (ed)

theorem build_builtIn {D : Base64.Decoder} {nonce : Nonces} {tries : Nat} {ok : Nat → Bool} {W : Build} (hW : SomeBuild D nonce tries ok W)
    {M : Manager} (h : Manager.new W.umax W.all = .ok M) : BuiltIn Real.hashes (curve nonce tries) (ed Real.hashes ok) M := by
  obtain ⟨ca, eth, btc, hW⟩ := hW
  exact ⟨W.umax, ca, eth, btc, .inl (hW.all ▸ h)⟩

theorem build_env {D : Base64.Decoder} {nonce : Nonces} {tries : Nat} {ok : Nat → Bool} {W : Build} (hW : SomeBuild D nonce tries ok W) :
    W.E = realEnv D := by
  obtain ⟨ca, eth, btc, hW⟩ := hW
  exact hW.env

theorem decode_utf8 {t : CText} {s : Str} (h : Str.utf8 s = t.val) : Json.ofUtf8 t.val = some s := by
  rw [← h]; exact Json.ofUtf8_utf8 s

/-- C90: what a C program gets for a seed is, after other C programs changed the password or added networks, a file as the documents say. -/
theorem C90_written_seed (D : Base64.Decoder) (nonce : Nonces) (tries : Nat) (ok : Nat → Bool)
    (W : Build) (hW : SomeBuild D nonce tries ok W) (seed : Bytes) (pw0 : CText) (b0 : Bytes)
    (hmade : Returned W (.fromSeed seed pw0) b0) (adds : List Network) (b : Bytes) (pw : CText)
    (hh : Handed (SomeBuild D nonce tries ok) (b0, pw0) adds (b, pw)) (hp : pw.val.length < 2 ^ 123) (hb : b.length < 2 ^ 64) :
    ∃ keys, IsPlainFile pw.val (.seed seed) keys b ∧ (Source.seed seed).IsSeed seed ∧ (∀ e ∈ keys, KeyData seed e) ∧
      (keys.map Prod.fst).Nodup ∧ ∀ n, n ∈ keys.map Prod.fst ↔ n ∈ W.all.map Factory.network ∨ n ∈ adds := by
  obtain ⟨M, r, r', x, hM, hl⟩ := returned_data rfl hmade fun _ => rfl
  obtain ⟨p0, e0, hl⟩ := decode_ok hl
  obtain ⟨p, evs, ep, hrun, hev, hadd⟩ := handed_run e0 hh
  have hu : Str.utf8 p = pw.val := utf8_ofUtf8 ep
  rw [build_env hW] at hl
  obtain ⟨g, -⟩ := C87_written D nonce tries (ed Real.hashes ok) x.factories x.keys M (build_builtIn hW hM) r r' b0 b p0 p evs hrun hev
    (by rw [hu]; exact hp) hb
  obtain ⟨keys, h1, h2, h3, h4, h5⟩ := g seed hl
  rw [hu] at h1
  exact ⟨keys, h1, h2, h3, h4, fun n => (h5 n).trans (or_congr (new_has hM n) (hadd n))⟩

/-- C90: the same for a phrase; the file has the very bytes of the phrase that the program passed. -/
theorem C90_written_phrase (D : Base64.Decoder) (nonce : Nonces) (tries : Nat) (ok : Nat → Bool)
    (W : Build) (hW : SomeBuild D nonce tries ok W) (mn pw0 : CText) (lang : CLanguage) (hlen : mn.val.length < 2 ^ 123) (b0 : Bytes)
    (hmade : Returned W (.fromMnemonic mn pw0 lang) b0) (adds : List Network) (b : Bytes) (pw : CText)
    (hh : Handed (SomeBuild D nonce tries ok) (b0, pw0) adds (b, pw)) (hp : pw.val.length < 2 ^ 123) (hb : b.length < 2 ^ 64) :
    ∃ text keys seed, Str.utf8 text = mn.val ∧ IsPlainFile pw.val (.phrase text (language lang)) keys b ∧ Standard.Seed mn.val seed ∧
      (∀ e ∈ keys, KeyData seed e) ∧
      (keys.map Prod.fst).Nodup ∧ ∀ n, n ∈ keys.map Prod.fst ↔ n ∈ W.all.map Factory.network ∨ n ∈ adds := by
  obtain ⟨M, r, r', x, hM, hl⟩ := returned_data rfl hmade fun _ => rfl
  obtain ⟨m, em, hl⟩ := decode_ok hl
  obtain ⟨p0, e0, hl⟩ := decode_ok hl
  obtain ⟨p, evs, ep, hrun, hev, hadd⟩ := handed_run e0 hh
  have hu : Str.utf8 p = pw.val := utf8_ofUtf8 ep
  have hm : Str.utf8 m = mn.val := utf8_ofUtf8 em
  rw [build_env hW] at hl
  obtain ⟨-, g⟩ := C87_written D nonce tries (ed Real.hashes ok) x.factories x.keys M (build_builtIn hW hM) r r' b0 b p0 p evs hrun hev
    (by rw [hu]; exact hp) hb
  obtain ⟨keys, seed, h1, h2, h3, h4, h5⟩ := g m _ (by rw [hm]; exact hlen) hl
  rw [hu] at h1
  rw [Source.IsSeed, hm] at h2
  exact ⟨m, keys, seed, hm, h1, h2, h3, h4, fun n => (h5 n).trans (or_congr (new_has hM n) (hadd n))⟩

/-- C90: a file that a program without the library wrote, handed to C programs that change its password or add networks: in any C program, the
data opens with the password (unless the path m/44'/60' has an exceptional step), and a keychain opened from it has exactly the networks that
the program knows and the file lists or was given, with the keys and signatures that the documents give for the seed of the file. -/
theorem C90_opens (D : Base64.Decoder) (nonce : Nonces) (tries : Nat) (ok : Nat → Bool) (hok : ∀ s, s < l → ok s = true)
    (b0 : Bytes) (pw0 : CText) (p0 : Str) (hu : Str.utf8 p0 = pw0.val) (hp : pw0.val.length < 2 ^ 123) (hb : b0.length < 2 ^ 64)
    (src : Source) (hf : src.Fits) (keys : List (Network × Bytes)) (seed : Bytes)
    (hfile : IsFile pw0.val src keys b0) (hseed : src.IsSeed seed) (hkeys : ∀ e ∈ keys, KeyData seed e)
    (adds : List Network) (b : Bytes) (pw : CText) (hh : Handed (SomeBuild D nonce tries ok) (b0, pw0) adds (b, pw)) :
    ∀ W', SomeBuild D nonce tries ok W' →
      ((∀ x, Master seed x → Regular x [0x8000002C, 0x8000003c]) →
        ∀ s j q c, Reached W' s → s.vars[j]? = some ⟨.manager, q⟩ → Reads W' s.heap .manager q c → ∀ x val err,
        ∃ s' v, s.step W' (.call .keychain (.open b pw) x j val err) = .next s' ∧ s'.vars = s.vars ++ [⟨.keychain, v⟩]) ∧
      ∀ s j, Opened W' b pw s j →
        KeysInC ok seed (fun n => n ∈ W'.all.map Factory.network ∧ (n ∈ keys.map Prod.fst ∨ n ∈ adds)) W' s j := by
  obtain ⟨p, evs, ep, hrun, hev, hadd⟩ := handed_run (decode_utf8 hu) hh
  rw [← hu] at hp hfile
  have key := fun it M' hB' => C87_opens D nonce tries ok hok it M' hB' b0 b p0 p evs hrun hev hp hb src hf keys seed hfile hseed hkeys
  intro W' hW'
  constructor
  · intro hreg s j q c hs hv hq x' val err
    refine open_in_c hs hv hq ep x' val err fun M' hM' => ?_
    rw [build_env hW']
    exact (key x'.keys M' (build_builtIn hW' hM')).1 hreg
  · intro s j ho
    obtain ⟨M', it, v, kc, hM', hkc, hv, hq⟩ := opened_keychain ep ho
    rw [build_env hW'] at hkc
    obtain ⟨h3, h4⟩ := (key it M' (build_builtIn hW' hM')).2 kc hkc
    exact keys_in_c hv hq h3 fun n => (h4 n).trans (and_congr (new_has hM' n) (or_congr_right (hadd n)))

/-- C90: the same for a file of version 1, to which no C program adds a network. -/
theorem C90_old (D : Base64.Decoder) (nonce : Nonces) (tries : Nat) (ok : Nat → Bool) (hok : ∀ s, s < l → ok s = true)
    (b0 : Bytes) (pw0 : CText) (p0 : Str) (hu : Str.utf8 p0 = pw0.val) (hp : pw0.val.length < 2 ^ 123) (hb : b0.length < 2 ^ 64)
    (keys : List (Network × Bytes)) (seed : Bytes) (hlen : seed.length = 64)
    (hfile : IsOldFile pw0.val keys b0) (hkeys : ∀ e ∈ keys, KeyData seed e)
    (adds : List Network) (b : Bytes) (pw : CText) (hh : Handed (SomeBuild D nonce tries ok) (b0, pw0) adds (b, pw)) :
    adds = [] ∧ ∀ W', SomeBuild D nonce tries ok W' →
      ((∀ x, Master seed x → Regular x [0x8000002C, 0x8000003c]) →
        ∀ s j q c, Reached W' s → s.vars[j]? = some ⟨.manager, q⟩ → Reads W' s.heap .manager q c → ∀ x val err,
        ∃ s' v, s.step W' (.call .keychain (.open b pw) x j val err) = .next s' ∧ s'.vars = s.vars ++ [⟨.keychain, v⟩]) ∧
      ∀ s j, Opened W' b pw s j →
        KeysInC ok seed (fun n => n ∈ W'.all.map Factory.network ∧ n ∈ keys.map Prod.fst) W' s j := by
  obtain ⟨p, evs, ep, hrun, hev, hadd⟩ := handed_run (decode_utf8 hu) hh
  rw [← hu] at hp hfile
  have key := fun it M' hB' => C87_old D nonce tries ok hok it M' hB' b0 b p0 p evs hrun hp hb keys seed hlen hfile hkeys
  have hno : ∀ M'' n, Event.added M'' n ∉ evs := by
    obtain ⟨M, h1, -⟩ := C38_new Real.hashes (curve nonce tries) (ed Real.hashes ok) true true true 65535 (by decide) (by simp)
    exact (key forwards M ⟨65535, true, true, true, .inl h1⟩).1
  refine ⟨List.eq_nil_iff_forall_not_mem.mpr fun n hn => ?_, ?_⟩
  · obtain ⟨M, h⟩ := (hadd n).mpr hn
    exact hno M n h
  intro W' hW'
  constructor
  · intro hreg s j q c hs hv hq x' val err
    refine open_in_c hs hv hq ep x' val err fun M' hM' => ?_
    rw [build_env hW']
    exact (key x'.keys M' (build_builtIn hW' hM')).2.1 hreg
  · intro s j ho
    obtain ⟨M', it, v, kc, hM', hkc, hv, hq⟩ := opened_keychain ep ho
    rw [build_env hW'] at hkc
    obtain ⟨h3, h4⟩ := (key it M' (build_builtIn hW' hM')).2.2 kc hkc
    exact keys_in_c hv hq h3 fun n => (h4 n).trans (and_congr_left fun _ => new_has hM' n)

/-- C90: what any C program shows of such a file: the phrase and its language, unless the phrase has a zero byte, and the stored keys. -/
theorem C90_shown (D : Base64.Decoder) (nonce : Nonces) (tries : Nat) (ok : Nat → Bool)
    (b : Bytes) (pw : CText) (p : Str) (hu : Str.utf8 p = pw.val) (hp : pw.val.length < 2 ^ 123) (hb : b.length < 2 ^ 64)
    (src : Source) (keys : List (Network × Bytes)) (hfile : IsFile pw.val src keys b)
    (W : Build) (hW : SomeBuild D nonce tries ok W) (s : State) (j : Nat) (q : Ptr) (c : Manager × Rng)
    (hv : s.vars[j]? = some ⟨.manager, q⟩) (hq : Reads W s.heap .manager q c) :
    (∀ text lang, src = .phrase text lang → (0 : UInt8) ∉ Str.utf8 text → Gives W s j (.retrieve b pw) (text, lang)) ∧
    ∀ x val err, ∃ s' v ls, s.step W (.call .backup (.keysData b pw) x j val err) = .next s' ∧ s'.vars = s.vars ++ [⟨.backup, v⟩] ∧
      Reads W s'.heap .backup v ls ∧ (ls.map Prod.fst).Nodup ∧ ∀ n d, (n, d) ∈ ls ↔ lastOf n keys = some d := by
  have ep := decode_utf8 hu
  rw [← hu] at hp hfile
  have hh := C87_read D p src keys b hp hb hfile
  constructor
  · rintro text lang rfl h0 x val err
    refine step_good x val err (names_manager hv hq (Fn.retrieve b pw) rfl) (c := (text, lang)) ?_ h0
    show ((decode pw fun pw => .ret (Manager.retrieveMnemonic W.E b pw)).run c.2).1 = _
    unfold decode
    rw [ep, build_env hW]
    exact (C41_retrieve _ b p _ hh).1 text lang rfl rfl
  · intro x val err
    obtain ⟨ls, h1, h2, h3⟩ := C41_keys_data _ x.keys b p _ hh
    obtain ⟨s', v, k1, k2, k3⟩ := step_good x val err (names_manager hv hq (Fn.keysData b pw) rfl) (c := ls) (by
      show ((decode pw fun pw => .ret (Manager.getKeysData W.E x.keys b pw)).run c.2).1 = _
      unfold decode
      rw [ep, build_env hW]
      exact h1) trivial
    exact ⟨s', v, ls, k1, k2, k3, h2, h3⟩

/-! ### A case -/

open KC.Real.Known

/-- C90, a case: the text that the library did not write, with the seed of "abandon … about" and its Bitcoin key, sealed with the password "p",
is handed to a C program, which shows its one key and adds Ethereum; another changes the password to "q"; a third opens it and gets the known
public keys for Bitcoin at m/44'/0'/0'/0/0 and for Ethereum at m/44'/60'/0'/0/0. -/
theorem C90_case (ok : Nat → Bool) (hok : ∀ s, s < l → ok s = true) : ∃ b0 b s out out',
    Sealed [112] otherPlain b0 ∧ IsFile [112] (.seed abSeed) [(0x80000000, abData)] b0 ∧
    Returned (fullBuild ok) (.keysData b0 ⟨[112], by decide⟩) [(0x80000000, abData)] ∧
    Handed (SomeBuild Base64.strict (fun _ _ _ => 7) 1 ok) (b0, ⟨[112], by decide⟩) [0x8000003c] (b, ⟨[113], by decide⟩) ∧
    Opened (fullBuild ok) b ⟨[113], by decide⟩ s 1 ∧
    Gives (fullBuild ok) s 1 (.pubKey ⟨0x80000000⟩ ⟨0x8000002c, 0x80000000, 0x80000000, 0, 0⟩) out ∧
    Uncompressed (0xe284129cc0922579a535bbf4d1a3b25773090d28c909bc0fed73b5e0222cc372 • Spec.Secp256k1.G) out ∧
    Gives (fullBuild ok) s 1 (.pubKey ⟨0x8000003c⟩ ⟨0x8000002c, 0x8000003c, 0x80000000, 0, 0⟩) out' ∧
    Uncompressed (0x1ab42cc412b618bdea3a599e3c9bae199ebf030895b039e9db1e30dafb12b727 • Spec.Secp256k1.G) out' := by
  have hreal : SomeBuild Base64.strict (fun _ _ _ => 7) 1 ok (fullBuild ok) := ⟨_, _, _, fullBuild_real ok⟩
  have henv : (fullBuild ok).E = realEnv Base64.strict := (fullBuild_real ok).env
  have ep : Json.ofUtf8 [112] = some ['p'] := by decide +kernel
  have eq : Json.ofUtf8 [113] = some ['q'] := by decide +kernel
  have up : Str.utf8 ['p'] = [112] := by decide +kernel
  have hp : ([112] : Bytes).length < 2 ^ 123 := by decide +kernel
  -- a program with a manager
  obtain ⟨M, hM, hnets⟩ := C38_new Real.hashes (curve (fun _ _ _ => 7) 1) (ed Real.hashes ok) true true true 65535 (by decide) (by simp)
  have hM : Manager.new (fullBuild ok).umax (fullBuild ok).all = .ok M := hM
  have hB : BuiltIn Real.hashes (curve (fun _ _ _ => 7) 1) (ed Real.hashes ok) M := ⟨65535, true, true, true, .inl hM⟩
  have hl : (((Fn.managerNew countingRng).lib (fullBuild ok) toyCtx .none).run Target.none.rng).1 = .ok (M, countingRng) := by
    show (Manager.new (fullBuild ok).umax (fullBuild ok).all).map (fun m => (m, countingRng)) = _
    rw [hM]; rfl
  obtain ⟨s, q, h1, h2, h3⟩ := step_good (W := fullBuild ok) (s := ⟨[], []⟩) (f := Fn.managerNew countingRng) (j := 0) toyCtx .null
    ⟨.panic, .null⟩ .no hl trivial
  have hs : Reached (fullBuild ok) s := ⟨[.call .manager (.managerNew countingRng) toyCtx 0 .null ⟨.panic, .null⟩],
    ⟨trivial, fun _ _ => trivial⟩, by simp only [State.run, h1]⟩
  have hv : s.vars[0]? = some ⟨.manager, q⟩ := by rw [h2]; rfl
  -- the file
  obtain ⟨b0, r', henc⟩ := C32_succeeds (ε := Unit) Real.hashes Real.aead otherPlain ['p'] countingRng rfl rfl rfl
  obtain ⟨hdec, hlen⟩ := C32_roundtrip _ _ (realEnv_A Base64.strict ▸ realEnv_correct Base64.strict) _ (by decide +kernel) _ _ _ _ henc
  have hb : b0.length < 2 ^ 64 := by
    rw [hlen]
    decide +kernel
  have hseal : Sealed (Str.utf8 ['p']) otherPlain b0 := (sealed_iff (by rw [up]; exact hp) hb).mpr hdec
  have hfile : IsFile (Str.utf8 ['p']) (.seed abSeed) [(0x80000000, abData)] b0 := ⟨_, _, hseal, other_plain, other_inner⟩
  have hh := C87_read Base64.strict ['p'] _ _ b0 (by rw [up]; exact hp) hb hfile
  rw [up] at hseal hfile
  -- its key is shown
  have hshow : Returned (fullBuild ok) (.keysData b0 ⟨[112], by decide⟩) [(0x80000000, abData)] := by
    obtain ⟨-, g⟩ := C90_shown Base64.strict _ 1 ok b0 ⟨[112], by decide⟩ ['p'] up hp hb _ _ hfile _ hreal s 0 q _ hv h3
    obtain ⟨s', v, ls, k1, k2, k3, k4, k5⟩ := g toyCtx ⟨.null, 0⟩ ⟨.panic, .null⟩
    have hone : ∀ e, e ∈ ls ↔ e = (0x80000000, abData) := by
      rintro ⟨n, d⟩
      rw [k5]
      generalize abData = d'
      by_cases hn : n = 0x80000000
      · subst hn
        simp only [lastOf, List.filter_cons, List.filter_nil, decide_true, if_true, List.getLast?_singleton, Option.map_some, Option.some.injEq,
          Prod.mk.injEq, true_and]
        exact eq_comm
      · simp only [lastOf, List.filter_cons, List.filter_nil, decide_eq_false (Ne.symm hn), Bool.false_eq_true, if_false, List.getLast?_nil,
          Option.map_none, reduceCtorEq, Prod.mk.injEq, hn, false_and]
    have hls : ls = [(0x80000000, abData)] := by
      revert k4 hone
      clear k1 k2 k3 k5
      generalize abData = d'
      intro k4 hone
      cases ls with
      | nil => exact absurd ((hone _).mpr rfl) (by simp)
      | cons a t =>
        cases t with
        | nil => rw [(hone a).mp (by simp)]
        | cons a' t =>
          have e1 := (hone a).mp (by simp)
          have e2 := (hone a').mp (by simp)
          subst e1 e2
          simp at k4
    rw [hls] at k3
    exact ⟨s, 0, hs, toyCtx, _, _, s', v, k1, k2, k3⟩
  -- Ethereum is added
  have hso := (source_seed (src := .seed abSeed) (f := fun n => Data.lastOf n [(0x80000000, abData)]) trivial ⟨rfl, abSeed_len⟩).2
  have hnone : Data.lastOf 0x8000003c [((0x80000000 : Network), abData)] = none := by
    generalize abData = d
    rfl
  obtain ⟨f, hf⟩ := Option.isSome_iff_exists.mp ((hnets 0x8000003c).mpr (by decide))
  have hd : ∃ d, f.keyDataFromSeed abSeed = .ok d := by
    rcases hB.factory hf with ⟨e, -⟩ | ⟨-, rfl⟩ | ⟨e, -⟩
    · exact absurd e (by decide)
    · exact data_exists _ _ (ed Real.hashes ok) abSeed ab0 abSeed_len ab0_root .ethereum nofun
    · exact absurd e (by decide)
  obtain ⟨d, hd⟩ := hd
  obtain ⟨b1, r1, hadd⟩ := (((((C43_outcome (realEnv Base64.strict) forwards M b0 ['p'] 0x8000003c countingRng).2 f hf).2 _ hh).2 hnone).2.2.2
    abSeed (show abSeed.length = 64 from abSeed_len) (by rw [realEnv_H]; exact hso)).2.2 d hd counting_delivers
  have hadd1 : Returned (fullBuild ok) (.add b0 ⟨[112], by decide⟩ ⟨0x8000003c⟩) b1 := by
    have hl2 : (((Fn.add b0 ⟨[112], by decide⟩ ⟨0x8000003c⟩).lib (fullBuild ok) toyCtx (.manager M countingRng)).run countingRng).1 = .ok b1 := by
      simp only [Fn.lib, onM, decode, ep]
      rw [henv]
      exact congrArg Prod.fst hadd
    obtain ⟨s1, d, k1, k2, k3⟩ := step_good (W := fullBuild ok) (s := s) (k := .data) toyCtx ⟨.null, 0⟩ ⟨.panic, .null⟩
      (names_manager hv h3 (Fn.add b0 ⟨[112], by decide⟩ ⟨0x8000003c⟩) rfl) hl2 trivial
    exact ⟨s, 0, hs, toyCtx, _, _, s1, d, k1, k2, k3⟩
  obtain ⟨_, _, _, -, -, -, -, -, hh1⟩ := C43_added _ (realEnv_correct _) forwards M b0 b1 ['p'] _ _ _ hadd _ hh
  obtain ⟨plain, hopen, -⟩ := hh1
  -- the password is changed
  obtain ⟨b, r2, hch⟩ := ((C42_outcome (realEnv Base64.strict) b1 ['p'] ['q'] countingRng).1 counting_delivers).mp ⟨plain, hopen⟩
  have hch1 : Returned (fullBuild ok) (.change b1 ⟨[112], by decide⟩ ⟨[113], by decide⟩) b := by
    have hl2 : (((Fn.change b1 ⟨[112], by decide⟩ ⟨[113], by decide⟩).lib (fullBuild ok) toyCtx (.manager M countingRng)).run countingRng).1 =
        .ok b := by
      simp only [Fn.lib, onM, decode, ep, eq]
      rw [henv]
      exact congrArg Prod.fst hch
    obtain ⟨s1, d, k1, k2, k3⟩ := step_good (W := fullBuild ok) (s := s) (k := .data) toyCtx ⟨.null, 0⟩ ⟨.panic, .null⟩
      (names_manager hv h3 (Fn.change b1 ⟨[112], by decide⟩ ⟨[113], by decide⟩) rfl) hl2 trivial
    exact ⟨s, 0, hs, toyCtx, _, _, s1, d, k1, k2, k3⟩
  have hhand : Handed (SomeBuild Base64.strict (fun _ _ _ => 7) 1 ok) (b0, ⟨[112], by decide⟩) ([] ++ [0x8000003c]) (b, ⟨[113], by decide⟩) :=
    .change (.add .start hreal hadd1) hreal hch1
  -- and it opens
  obtain ⟨g1, g2⟩ := C90_opens Base64.strict _ 1 ok hok b0 ⟨[112], by decide⟩ ['p'] up hp hb (.seed abSeed) trivial _ abSeed hfile ⟨rfl, abSeed_len⟩ (by
      intro e he
      rw [List.mem_singleton.mp he]
      exact .inl ⟨.inl rfl, abData_master⟩) _ b _ hhand _ hreal
  obtain ⟨x, y, z, hx, -, hr, hd1, hy, hr2, hd2, hz⟩ := C83_case
  obtain ⟨s', v, k1, k2⟩ := g1 (fun x' hx' => by
    obtain rfl := C83_determined.2.1 _ _ _ abSeed_len hx hx'
    exact fun before i after w e hw => hr2 before i (after ++ [0x80000000, 0, 0]) w
      (by rw [show ([0x8000002c, 0x8000003c, 0x80000000, 0, 0] : List UInt32) = [0x8000002c, 0x8000003c] ++ [0x80000000, 0, 0] from rfl, e]; simp) hw)
    s 0 q _ hs hv h3 toyCtx .null ⟨.panic, .null⟩
  have hop : Opened (fullBuild ok) b ⟨[113], by decide⟩ s' 1 :=
    ⟨s, s', toyCtx, 0, .null, ⟨.panic, .null⟩, v, [], hs, k1, k2, by rw [h2]; rfl, trivial, by simp, rfl⟩
  have hnet : ∀ n : Network, n = 0x80000000 ∨ n = 0x8000003c → n ∈ (fullBuild ok).all.map Factory.network := by
    intro n hn
    refine (new_has hM n).mp ((hnets n).mpr ?_)
    rcases hn with rfl | rfl <;> decide
  obtain ⟨x', hx', h⟩ := (g2 s' 1 hop).bitcoin ⟨hnet _ (.inl rfl), .inl (by simp)⟩
  obtain rfl := C83_determined.2.1 _ _ _ abSeed_len hx hx'
  obtain ⟨y', hd', ha⟩ := h ⟨0x8000002c, 0x80000000, 0x80000000, 0, 0⟩ ⟨.inl rfl, rfl, show _ ≤ _ by decide, .inl rfl, show _ < _ by decide⟩ hr
  obtain rfl := C83_determined.2.2.1 _ _ _ _ _ hx hd1 hd'
  obtain ⟨out, o1, o2⟩ := ha.pub
  rw [hy] at o2
  obtain ⟨x', hx', h⟩ := (g2 s' 1 hop).ethereum ⟨hnet _ (.inr rfl), .inr (by simp)⟩
  obtain rfl := C83_determined.2.1 _ _ _ abSeed_len hx hx'
  obtain ⟨z', hd', ha⟩ := h ⟨0x8000002c, 0x8000003c, 0x80000000, 0, 0⟩ ⟨.inr rfl, rfl, show _ ≤ _ by decide, .inl rfl, show _ < _ by decide⟩ hr2
  obtain rfl := C83_determined.2.2.1 _ _ _ _ _ hx hd2 hd'
  obtain ⟨out', o3, o4⟩ := ha.pub
  rw [hz] at o4
  exact ⟨b0, b, s', out, out', hseal, hfile, hshow, hhand, hop, o1, o2, o3, o4⟩

end KC.Props
