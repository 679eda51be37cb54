import Verif.Spec.CPrograms
import Verif.Props.CReal
import Verif.Props.Capstone
/-
C86: a wallet that goes from one C program to another has the keys that the documents give for the phrase.
-/
namespace KC.Props
open KC.C KC.Spec.C KC.Spec KC.Spec.Wallet
open KC.KeyPath (Path)
open KC.Spec.Standard (Master Regular Derive EdMaster EdDerive)
open KC.Spec.Ed25519 (le l)
open KC.Real.Secp256k1 (curve)
open KC.Real.Ed25519 (ed)

/-- A build with built-in networks, whichever it has. -/
def SomeBuild (D : Base64.Decoder) (nonce : Nonces) (tries : Nat) (ok : Nat → Bool) (W : Build) : Prop :=
  ∃ ca eth btc, RealBuild D nonce tries ok ca eth btc W

theorem reached {W : Build} {s : State} (h : Reached W s) : Sound W s ∧ Known W s := by
  obtain ⟨ops, h1, h2⟩ := h
  exact known_run ops start.1 start.2 h1 h2

/-- What a manager call that returned true is on the Rust side. -/
theorem gave {W : Build} {s : State} (h : Reached W s) {j : Nat} {k : Kind} {f : Fn k} (hf : f.handle = some .manager) {c : Content k}
    (hg : MayGive W s j f c) (hk : k ≠ .error) (hfun : ∀ h v c c', Reads W h k v c → Reads W h k v c' → c = c')
    (hnull : ∀ x, ((f.lib W x .null).run Target.null.rng).1 ≠ .ok c) :
    ∃ M r x, Manager.new W.umax W.all = .ok M ∧ ((f.lib W x (.manager M r)).run r).1 = .ok c := by
  obtain ⟨x, val, err, s', v, hst, hv, hr⟩ := hg
  obtain ⟨hs, hkn⟩ := reached h
  obtain ⟨t, ht⟩ := sound_names hs f j
  rcases step_new ht hst with ⟨c', v', e, h1, h2⟩ | ⟨e, ty, txt, e', -⟩
  · rw [hv] at e
    have e := List.append_cancel_left e
    cases e
    obtain rfl := hfun _ _ _ _ hr h2
    cases t with
    | manager M r =>
      obtain ⟨p, h3, h4⟩ := (names_var ht).2 M r rfl
      exact ⟨M, r, x, hkn _ (List.mem_of_getElem? h3) (M, r) h4, h1⟩
    | null => exact absurd h1 (hnull x)
    | none => rw [hf] at ht; cases ht
    | keychain kc => rw [hf] at ht; cases ht
  · rw [hv] at e'
    have e' := List.append_cancel_left e'
    cases e'
    exact absurd rfl hk

theorem bytes_unique {h : Heap} {v : DataPtr} {b b' : Bytes} (h1 : BytesAt h v b) (h2 : BytesAt h v b') : b = b' := by
  rcases h1 with ⟨-, ⟨rfl, e⟩ | ⟨-, i, e, hl⟩⟩ <;> rcases h2 with ⟨-, ⟨rfl, e'⟩ | ⟨-, i', e', hl'⟩⟩
  · rfl
  · rw [e] at e'; cases e'
  · rw [e] at e'; cases e'
  · rw [e] at e'
    cases e'
    rw [Live] at hl hl'
    rw [hl] at hl'
    injection hl' with e
    injection e with e
    injection e with _ e
    injection e

/-- Data that some program got from a call to a manager. -/
theorem returned_data {W : Build} {f : Fn .data} (hf : f.handle = some .manager) {b : Bytes} (h : Returned W f b)
    (hnull : ∀ x, f.lib W x .null = .ret .panic) :
    ∃ M r r' x, Manager.new W.umax W.all = .ok M ∧ (f.lib W x (.manager M r)).run r = (.ok b, r') := by
  obtain ⟨s, j, hs, hg⟩ := h
  obtain ⟨M, r, x, h1, h2⟩ := gave hs hf hg nofun (fun _ _ _ _ => bytes_unique) fun x => by rw [hnull x]; nofun
  exact ⟨M, r, _, x, h1, Prod.ext h2 rfl⟩

theorem decode_ok {α} {t : CText} {f : Str → RM Error α} {r r' : Rng} {a : α} (h : (decode t f).run r = (.ok a, r')) :
    ∃ s, Json.ofUtf8 t.val = some s ∧ (f s).run r = (.ok a, r') := by
  unfold decode at h
  split at h
  · exact ⟨_, ‹_›, h⟩
  · cases h

/-- Handing on, on the Rust side. -/
theorem handed_run {D : Base64.Decoder} {nonce : Nonces} {tries : Nat} {ok : Nat → Bool} {b0 b : Bytes} {pw0 pw : CText} {adds : List Network}
    {p0 : Str} (h0 : Json.ofUtf8 pw0.val = some p0) (h : Handed (SomeBuild D nonce tries ok) (b0, pw0) adds (b, pw)) :
    ∃ p evs, Json.ofUtf8 pw.val = some p ∧ Run (realEnv D) (b0, p0) evs (b, p) ∧
      (∀ M n, Event.added M n ∈ evs → BuiltIn Real.hashes (curve nonce tries) (ed Real.hashes ok) M) ∧
      ∀ n, (∃ M, Event.added M n ∈ evs) ↔ n ∈ adds := by
  suffices key : ∀ st, Handed (SomeBuild D nonce tries ok) (b0, pw0) adds st → ∃ p evs, Json.ofUtf8 st.2.val = some p ∧
      Run (realEnv D) (b0, p0) evs (st.1, p) ∧
      (∀ M n, Event.added M n ∈ evs → BuiltIn Real.hashes (curve nonce tries) (ed Real.hashes ok) M) ∧
      ∀ n, (∃ M, Event.added M n ∈ evs) ↔ n ∈ adds from key _ h
  clear h
  intro st h
  induction h with
  | start => exact ⟨p0, [], h0, .nil _, nofun, by simp⟩
  | @change adds b pw W pw' b' _ hW hr ih =>
    obtain ⟨p, evs, h1, h2, h3, h4⟩ := ih
    obtain ⟨M, r, r', x, -, hl⟩ := returned_data rfl hr fun _ => rfl
    obtain ⟨q, e, hl⟩ := decode_ok hl
    obtain ⟨q', e', hl⟩ := decode_ok hl
    rw [h1] at e
    cases e
    obtain ⟨_, _, _, hW⟩ := hW
    rw [hW.env] at hl
    refine ⟨q', evs ++ [.changed], e', .change _ _ _ _ _ _ _ _ h2 hl, ?_, ?_⟩
    · intro M n hm
      rcases List.mem_append.mp hm with hm | hm
      · exact h3 M n hm
      · simp at hm
    · intro n
      rw [← h4 n]
      simp
  | @add adds b pw W net b' _ hW hr ih =>
    obtain ⟨p, evs, h1, h2, h3, h4⟩ := ih
    obtain ⟨M, r, r', x, hM, hl⟩ := returned_data rfl hr fun _ => rfl
    obtain ⟨q, e, hl⟩ := decode_ok hl
    rw [h1] at e
    cases e
    obtain ⟨ca, eth, btc, hW⟩ := hW
    rw [hW.env] at hl
    refine ⟨p, evs ++ [.added M net.val], h1, .add _ _ _ _ _ _ _ _ _ _ h2 hl, ?_, ?_⟩
    · intro M' n hm
      rcases List.mem_append.mp hm with hm | hm
      · exact h3 M' n hm
      · simp only [List.mem_singleton, Event.added.injEq] at hm
        obtain ⟨rfl, -⟩ := hm
        exact ⟨W.umax, ca, eth, btc, .inl (hW.all ▸ hM)⟩
    · intro n
      rw [List.mem_append, ← h4 n]
      simp only [List.mem_append, List.mem_singleton, Event.added.injEq, exists_or]
      exact or_congr_right ⟨fun ⟨_, _, e⟩ => e, fun e => ⟨M, rfl, e⟩⟩

theorem gives_of {W : Build} {s : State} {j : Nat} {v : Ptr} {kc : Keychain} (hv : s.vars[j]? = some ⟨.keychain, v⟩)
    (hq : Reads W s.heap .keychain v kc) {k : Kind} {f : Fn k} (hf : f.handle = some .keychain) {c : Content k}
    (hl : ∀ x, ((f.lib W x (.keychain kc)).run (Target.keychain kc).rng).1 = .ok c) (hfit : Fits k c) : Gives W s j f c :=
  fun x val err => step_good x val err (names_keychain hv hq f hf) (hl x) hfit

theorem may_of {W : Build} {s : State} {j : Nat} {v : Ptr} {kc : Keychain} (hv : s.vars[j]? = some ⟨.keychain, v⟩)
    (hq : Reads W s.heap .keychain v kc) {f : Fn .data} (hf : f.handle = some .keychain) {b : Bytes} (h : MayGive W s j f b) :
    ∃ x, ((f.lib W x (.keychain kc)).run (Target.keychain kc).rng).1 = .ok b := by
  obtain ⟨x, val, err, s', w, hst, hw, hr⟩ := h
  rcases step_new (names_keychain hv hq f hf) hst with ⟨c', v', e, h1, h2⟩ | ⟨e, ty, txt, e', -⟩
  · rw [hw] at e
    have e := List.append_cancel_left e
    cases e
    obtain rfl := bytes_unique hr h2
    exact ⟨x, h1⟩
  · rw [hw] at e'
    have e' := List.append_cancel_left e'
    cases e'

/-- A Bitcoin or Ethereum key of a keychain, through C. -/
theorem secp_in_c {W : Build} {s : State} {j : Nat} {v : Ptr} {kc : Keychain} (hv : s.vars[j]? = some ⟨.keychain, v⟩)
    (hq : Reads W s.heap .keychain v kc) {net : CNetwork} {p : CKeyPath} {k : Nat}
    (h : SecpActs k (kc.pubKey net.val (pathTo p)) (fun m => kc.sign net.val m (pathTo p)) (fun m s => kc.verify net.val m s (pathTo p))) :
    SecpInC W s j net p k := by
  constructor
  · obtain ⟨out, h1, h2⟩ := h.pub
    exact ⟨out, gives_of hv hq rfl (fun _ => h1) trivial, h2⟩
  · intro m z sig hz hs
    obtain ⟨b, h1, h2⟩ := h.accepts m z sig hz hs
    exact ⟨b, gives_of hv hq rfl (fun _ => h1) trivial, h2⟩
  · intro m z sig hz hm
    obtain ⟨x, hl⟩ := may_of hv hq rfl hm
    obtain ⟨r, t, v, h1, h2, h3, h4, h5, h6, h7, h8⟩ := h.signs m z sig hz hl
    exact ⟨r, t, v, h1, h2, h3, h4, h5, h6, h8, gives_of hv hq rfl (fun _ => h7) trivial⟩

/-- A Cardano key of a keychain, through C. -/
theorem cardano_in_c {ok : Nat → Bool} {W : Build} {s : State} {j : Nat} {v : Ptr} {kc : Keychain} (hv : s.vars[j]? = some ⟨.keychain, v⟩)
    (hq : Reads W s.heap .keychain v kc) {p : CKeyPath} {k : Nat} {c : Bytes}
    (h : CardanoActs ok k c (kc.pubKey 0x80000717 (pathTo p)) (fun m => kc.sign 0x80000717 m (pathTo p))
      (fun m s => kc.verify 0x80000717 m s (pathTo p))) : CardanoInC ok W s j p k c := by
  constructor
  · obtain ⟨a, h1, h2⟩ := h.pub
    exact ⟨a, gives_of hv hq rfl (fun _ => h1) trivial, h2⟩
  · intro m sig hm hs
    obtain ⟨b, h1, h2⟩ := h.accepts m sig hm hs
    exact ⟨b, gives_of hv hq rfl (fun _ => h1) trivial, h2⟩
  · intro m hm
    obtain ⟨R, S, h1, h2, h3, h4, h5, h6⟩ := h.signs m hm
    exact ⟨R, S, gives_of hv hq rfl (fun _ => h1) trivial, h2, h3, h4, h5, gives_of hv hq rfl (fun _ => h6) trivial⟩

/-- An opened keychain on the Rust side. -/
theorem opened_keychain {W : Build} {b : Bytes} {pw : CText} {p : Str} (hp : Json.ofUtf8 pw.val = some p) {s : State} {j : Nat}
    (h : Opened W b pw s j) : ∃ M it v kc, Manager.new W.umax W.all = .ok M ∧ M.keychainFromData W.E it b p = .ok kc ∧
      s.vars[j]? = some ⟨.keychain, v⟩ ∧ Reads W s.heap .keychain v kc := by
  obtain ⟨s0, s1, x, i, val, err, v, ops, h0, hst, hv, rfl, hf, hd, hr⟩ := h
  obtain ⟨hs, hk⟩ := reached h0
  obtain ⟨t, ht⟩ := sound_names hs (Fn.open b pw) i
  rcases step_new ht hst with ⟨kc, v', e, h1, h2⟩ | ⟨e, ty, txt, e', -⟩
  · rw [hv] at e
    have e := List.append_cancel_left e
    cases e
    cases t with
    | manager M r =>
      obtain ⟨q, h3, h4⟩ := (names_var ht).2 M r rfl
      have hM := hk _ (List.mem_of_getElem? h3) (M, r) h4
      obtain ⟨p', e, h1⟩ := decode_ok (r := r) (Prod.ext h1 rfl)
      rw [hp] at e
      cases e
      have hs1 : Sound W s1 := by
        rcases sound_step hs (.call .keychain (.open b pw) x i val err) trivial with ⟨s2, e, h⟩ | h
        · rw [hst] at e; cases e; exact h
        · rw [hst] at h; cases h
      have hv1 : s1.vars[s0.vars.length]? = some ⟨.keychain, v⟩ := by rw [hv]; simp
      have hsp : ∀ op ∈ ops, Spares s0.vars.length op := by
        intro op ho
        cases op with
        | call => trivial
        | delete i => rintro rfl; exact hd ho
      obtain ⟨-, h5, h6⟩ := keychain_kept hs1 hf hr hsp hv1 h2
      exact ⟨M, x.keys, v, kc, hM, congrArg Prod.fst h1, h5, h6⟩
    | _ => cases h1
  · rw [hv] at e'
    have e' := List.append_cancel_left e'
    cases e'

/-- What a program finds in a wallet of this seed. -/
structure KeysInC (ok : Nat → Bool) (seed : Bytes) (nets : Network → Prop) (W : Build) (s : State) (j : Nat) : Prop where
  /-- keychain_networks returns true, with each of the networks once. -/
  networks : ∀ x val err, ∃ s' v ns, s.step W (.call .networks .networks x j val err) = .next s' ∧ s'.vars = s.vars ++ [⟨.networks, v⟩] ∧
    Reads W s'.heap .networks v ns ∧ ns.Nodup ∧ ∀ n, n ∈ ns ↔ nets n
  bitcoin : nets 0x80000000 → ∃ x, Master seed x ∧ ∀ p, Accepts .bitcoin (pathTo p) → Regular x (full (pathTo p)) →
    ∃ y, Derive x (full (pathTo p)) y ∧ SecpInC W s j ⟨0x80000000⟩ p y.k
  ethereum : nets 0x8000003c → ∃ x, Master seed x ∧ ∀ p, Accepts .ethereum (pathTo p) → Regular x (full (pathTo p)) →
    ∃ y, Derive x (full (pathTo p)) y ∧ SecpInC W s j ⟨0x8000003c⟩ p y.k
  cardano : nets 0x80000717 → ∃ x, EdMaster seed x ∧ ∀ p, Accepts .cardano (pathTo p) →
    ∃ y, EdDerive x (full (pathTo p)) y ∧ CardanoInC ok W s j p (le y.kl) y.c

theorem keys_in_c {ok : Nat → Bool} {seed : Bytes} {W : Build} {s : State} {j : Nat} {v : Ptr} {kc : Keychain}
    (hv : s.vars[j]? = some ⟨.keychain, v⟩) (hq : Reads W s.heap .keychain v kc) (h : FromStandard ok seed kc) {nets : Network → Prop}
    (hn : ∀ n, kc.hasNetwork n = true ↔ nets n) : KeysInC ok seed nets W s j := by
  constructor
  · intro x val err
    obtain ⟨-, h1, h2⟩ := C45_networks x.keyObjs [] kc
    obtain ⟨s', w, k1, k2, k3⟩ := step_good x val err (names_keychain hv hq Fn.networks rfl) (c := kc.networks x.keyObjs) rfl trivial
    exact ⟨s', w, _, k1, k2, k3, h1, fun n => (h2 n).trans (hn n)⟩
  · intro hb
    obtain ⟨x, h1, h2⟩ := h.bitcoin ((hn _).mpr hb)
    refine ⟨x, h1, fun p hp hr => ?_⟩
    obtain ⟨y, h3, h4⟩ := h2 _ hp hr
    exact ⟨y, h3, secp_in_c hv hq h4⟩
  · intro hb
    obtain ⟨x, h1, h2⟩ := h.ethereum ((hn _).mpr hb)
    refine ⟨x, h1, fun p hp hr => ?_⟩
    obtain ⟨y, h3, h4⟩ := h2 _ hp hr
    exact ⟨y, h3, secp_in_c hv hq h4⟩
  · intro hb
    obtain ⟨x, h1, h2⟩ := h.cardano ((hn _).mpr hb)
    refine ⟨x, h1, fun p hp => ?_⟩
    obtain ⟨y, h3, h4⟩ := h2 _ hp
    exact ⟨y, h3, cardano_in_c hv hq h4⟩

theorem new_has {u : Nat} {all : List Factory} {M : Manager} (h : Manager.new u all = .ok M) (n : Network) :
    M.hasNetwork n = true ↔ n ∈ all.map Factory.network := by
  rw [Manager.hasNetwork, new_factories h, NMap.get_ofList_isSome]
  simp [eq_comm]

theorem open_in_c {W : Build} {s : State} (hs : Reached W s) {j : Nat} {q : Ptr} {c : Manager × Rng}
    (hv : s.vars[j]? = some ⟨.manager, q⟩) (hq : Reads W s.heap .manager q c) {b : Bytes} {pw : CText} {p : Str}
    (hp : Json.ofUtf8 pw.val = some p) (x : Ctx) (val : Ptr) (err : ErrorPtr)
    (h : ∀ M, Manager.new W.umax W.all = .ok M → ∃ kc, M.keychainFromData W.E x.keys b p = .ok kc) :
    ∃ s' v, s.step W (.call .keychain (.open b pw) x j val err) = .next s' ∧ s'.vars = s.vars ++ [⟨.keychain, v⟩] := by
  obtain ⟨-, hk⟩ := reached hs
  obtain ⟨kc, ho⟩ := h c.1 (hk _ (List.mem_of_getElem? hv) c hq)
  have hl : (((Fn.open b pw).lib W x (.manager c.1 c.2)).run c.2).1 = .ok kc := by
    show ((decode pw fun pw => .ret (c.1.keychainFromData W.E x.keys b pw)).run c.2).1 = _
    unfold decode
    rw [hp]
    exact ho
  obtain ⟨s2, v, h1, h2, -⟩ := step_good x val err (names_manager hv hq (Fn.open b pw) rfl) hl trivial
  exact ⟨s2, v, h1, h2⟩

/-- C86: some C program makes a wallet from a phrase, and programs hand it on, changing the password or adding networks.  In any program, after
any history, the data opens with the password (unless the path m/44'/60' has an exceptional step); and a keychain opened from it, at any
later time before it is deleted, has exactly the networks that the program knows and the wallet was made with or was given, with the keys and
signatures that the documents give for the very bytes of the phrase that the first program passed. -/
theorem C86_phrase (D : Base64.Decoder) (nonce : Nonces) (tries : Nat) (ok : Nat → Bool) (hok : ∀ s, s < l → ok s = true)
    (W : Build) (hW : SomeBuild D nonce tries ok W) (mn pw0 : CText) (lang : CLanguage) (hlen : mn.val.length < 2 ^ 123) (b0 : Bytes)
    (hmade : Returned W (.fromMnemonic mn pw0 lang) b0) (adds : List Network) (b : Bytes) (pw : CText)
    (hh : Handed (SomeBuild D nonce tries ok) (b0, pw0) adds (b, pw)) :
    ∃ seed, Standard.Seed mn.val seed ∧ ∀ W', SomeBuild D nonce tries ok W' →
      ((∀ x, Master seed x → Regular x [0x8000002C, 0x8000003c]) →
        ∀ s j q c, Reached W' s → s.vars[j]? = some ⟨.manager, q⟩ → Reads W' s.heap .manager q c → ∀ x val err,
        ∃ s' v, s.step W' (.call .keychain (.open b pw) x j val err) = .next s' ∧ s'.vars = s.vars ++ [⟨.keychain, v⟩]) ∧
      ∀ s j, Opened W' b pw s j →
        KeysInC ok seed (fun n => n ∈ W'.all.map Factory.network ∧ (n ∈ W.all.map Factory.network ∨ n ∈ adds)) W' s j := by
  obtain ⟨M, r, r', x, hM, hl⟩ := returned_data rfl hmade fun _ => rfl
  obtain ⟨m, em, hl⟩ := decode_ok hl
  obtain ⟨p0, e0, hl⟩ := decode_ok hl
  obtain ⟨p, evs, ep, hrun, hev, hadd⟩ := handed_run e0 hh
  obtain ⟨ca, eth, btc, hW⟩ := hW
  rw [hW.env] at hl
  have hB : BuiltIn Real.hashes (curve nonce tries) (ed Real.hashes ok) M := ⟨W.umax, ca, eth, btc, .inl (hW.all ▸ hM)⟩
  have hu : Str.utf8 m = mn.val := utf8_ofUtf8 em
  have key := fun it M' hB' => C83_phrase D nonce tries ok hok x.factories x.keys it M M' hB hB' r r' b0 b p0 p evs hrun hev m _
    (by rw [hu]; exact hlen) hl
  obtain ⟨seed, hseed, -⟩ := key x.keys M hB
  rw [hu] at hseed key
  have uniq : ∀ seed', Standard.Seed mn.val seed' → seed' = seed := fun seed' h => (C83_determined.1 _ _ _ hlen h hseed).1
  refine ⟨seed, hseed, ?_⟩
  rintro W' ⟨ca', eth', btc', hW'⟩
  have hB' : ∀ M', Manager.new W'.umax W'.all = .ok M' → BuiltIn Real.hashes (curve nonce tries) (ed Real.hashes ok) M' :=
    fun M' h => ⟨W'.umax, ca', eth', btc', .inl (hW'.all ▸ h)⟩
  constructor
  · intro hreg s j q c hs hv hq x' val err
    refine open_in_c hs hv hq ep x' val err fun M' hM' => ?_
    obtain ⟨seed', h1, h2, -⟩ := key x'.keys M' (hB' M' hM')
    rw [uniq _ h1] at h2
    rw [hW'.env]
    exact h2 hreg
  · intro s j ho
    obtain ⟨M', it, v, kc, hM', hkc, hv, hq⟩ := opened_keychain ep ho
    obtain ⟨seed', h1, -, h2⟩ := key it M' (hB' M' hM')
    rw [uniq _ h1] at h2
    rw [hW'.env] at hkc
    obtain ⟨h3, h4⟩ := h2 kc hkc
    exact keys_in_c hv hq h3 fun n => (h4 n).trans (and_congr (new_has hM' n) (or_congr (new_has hM n) (hadd n)))

/-- C86: the same for a wallet made from a seed. -/
theorem C86_seed (D : Base64.Decoder) (nonce : Nonces) (tries : Nat) (ok : Nat → Bool) (hok : ∀ s, s < l → ok s = true)
    (W : Build) (hW : SomeBuild D nonce tries ok W) (seed : Bytes) (pw0 : CText) (b0 : Bytes)
    (hmade : Returned W (.fromSeed seed pw0) b0) (adds : List Network) (b : Bytes) (pw : CText)
    (hh : Handed (SomeBuild D nonce tries ok) (b0, pw0) adds (b, pw)) : ∀ W', SomeBuild D nonce tries ok W' →
      ((∀ x, Master seed x → Regular x [0x8000002C, 0x8000003c]) →
        ∀ s j q c, Reached W' s → s.vars[j]? = some ⟨.manager, q⟩ → Reads W' s.heap .manager q c → ∀ x val err,
        ∃ s' v, s.step W' (.call .keychain (.open b pw) x j val err) = .next s' ∧ s'.vars = s.vars ++ [⟨.keychain, v⟩]) ∧
      ∀ s j, Opened W' b pw s j →
        KeysInC ok seed (fun n => n ∈ W'.all.map Factory.network ∧ (n ∈ W.all.map Factory.network ∨ n ∈ adds)) W' s j := by
  obtain ⟨M, r, r', x, hM, hl⟩ := returned_data rfl hmade fun _ => rfl
  obtain ⟨p0, e0, hl⟩ := decode_ok hl
  obtain ⟨p, evs, ep, hrun, hev, hadd⟩ := handed_run e0 hh
  obtain ⟨ca, eth, btc, hW⟩ := hW
  rw [hW.env] at hl
  have hB : BuiltIn Real.hashes (curve nonce tries) (ed Real.hashes ok) M := ⟨W.umax, ca, eth, btc, .inl (hW.all ▸ hM)⟩
  have key := fun it M' hB' => C83_seed D nonce tries ok hok x.factories x.keys it M M' hB hB' r r' b0 b p0 p evs hrun hev seed hl
  rintro W' ⟨ca', eth', btc', hW'⟩
  have hB' : ∀ M', Manager.new W'.umax W'.all = .ok M' → BuiltIn Real.hashes (curve nonce tries) (ed Real.hashes ok) M' :=
    fun M' h => ⟨W'.umax, ca', eth', btc', .inl (hW'.all ▸ h)⟩
  constructor
  · intro hreg s j q c hs hv hq x' val err
    refine open_in_c hs hv hq ep x' val err fun M' hM' => ?_
    rw [hW'.env]
    exact (key x'.keys M' (hB' M' hM')).1 hreg
  · intro s j ho
    obtain ⟨M', it, v, kc, hM', hkc, hv, hq⟩ := opened_keychain ep ho
    rw [hW'.env] at hkc
    obtain ⟨h3, h4⟩ := (key it M' (hB' M' hM')).2 kc hkc
    exact keys_in_c hv hq h3 fun n => (h4 n).trans (and_congr (new_has hM' n) (or_congr (new_has hM n) (hadd n)))

/-! ### A case -/

open KC.Real.Known KC.Spec.Secp256k1

/-- C86, a case: one program makes a wallet from the seed of "abandon … about", another changes its password, a third opens it and gets, for
Bitcoin at m/44'/0'/0'/0/0, the public key of the known secret. -/
theorem C86_case (ok : Nat → Bool) (hok : ∀ s, s < l → ok s = true) : ∃ b0 b s out,
    Returned (fullBuild ok) (.fromSeed abSeed ⟨[112], by decide⟩) b0 ∧
    Handed (SomeBuild Base64.strict (fun _ _ _ => 7) 1 ok) (b0, ⟨[112], by decide⟩) [] (b, ⟨[113], by decide⟩) ∧
    Opened (fullBuild ok) b ⟨[113], by decide⟩ s 1 ∧
    Gives (fullBuild ok) s 1 (.pubKey ⟨0x80000000⟩ ⟨0x8000002c, 0x80000000, 0x80000000, 0, 0⟩) out ∧
    Uncompressed (0xe284129cc0922579a535bbf4d1a3b25773090d28c909bc0fed73b5e0222cc372 • G) out := by
  have hreal : SomeBuild Base64.strict (fun _ _ _ => 7) 1 ok (fullBuild ok) := ⟨_, _, _, fullBuild_real ok⟩
  have henv : (fullBuild ok).E = realEnv Base64.strict := (fullBuild_real ok).env
  have ep : Json.ofUtf8 [112] = some ['p'] := by decide +kernel
  have eq : Json.ofUtf8 [113] = some ['q'] := by decide +kernel
  obtain ⟨M, hM, -⟩ := C38_new Real.hashes (curve (fun _ _ _ => 7) 1) (ed Real.hashes ok) true true true 65535 (by decide) (by simp)
  have hM : Manager.new (fullBuild ok).umax (fullBuild ok).all = .ok M := hM
  have hb : BuiltIn Real.hashes (curve (fun _ _ _ => 7) 1) (ed Real.hashes ok) M := ⟨65535, true, true, true, .inl hM⟩
  have hl : (((Fn.managerNew countingRng).lib (fullBuild ok) toyCtx .none).run Target.none.rng).1 = .ok (M, countingRng) := by
    show (Manager.new (fullBuild ok).umax (fullBuild ok).all).map (fun m => (m, countingRng)) = _
    rw [hM]; rfl
  obtain ⟨s, q, h1, h2, h3⟩ := step_good (W := fullBuild ok) (s := ⟨[], []⟩) (f := Fn.managerNew countingRng) (j := 0) toyCtx .null
    ⟨.panic, .null⟩ .no hl trivial
  have hs : Reached (fullBuild ok) s := ⟨[.call .manager (.managerNew countingRng) toyCtx 0 .null ⟨.panic, .null⟩],
    ⟨trivial, fun _ _ => trivial⟩, by simp only [State.run, h1]⟩
  have hv : s.vars[0]? = some ⟨.manager, q⟩ := by rw [h2]; rfl
  obtain ⟨b0, r', hmade⟩ : ∃ blob r',
      (M.keychainDataFromSeed (realEnv Base64.strict) forwards forwards abSeed ['p']).run countingRng = (.ok blob, r') := by
    refine C40_from_seed_succeeds _ _ _ _ _ _ _ counting_delivers abSeed_len ?_
    intro n f hf
    rcases hb.factory hf with ⟨-, rfl⟩ | ⟨-, rfl⟩ | ⟨-, rfl⟩
    · obtain ⟨d, _, _, h, -⟩ := C30_from_seed Real.hashes (curve (fun _ _ _ => 7) 1) (ed Real.hashes ok) abSeed abSeed_len
      exact ⟨d, h⟩
    · exact data_exists _ _ (ed Real.hashes ok) abSeed ab0 abSeed_len ab0_root .ethereum nofun
    · exact data_exists _ _ (ed Real.hashes ok) abSeed ab0 abSeed_len ab0_root .bitcoin nofun
  have hmade1 : Returned (fullBuild ok) (.fromSeed abSeed ⟨[112], by decide⟩) b0 := by
    have hl2 : (((Fn.fromSeed abSeed ⟨[112], by decide⟩).lib (fullBuild ok) toyCtx (.manager M countingRng)).run countingRng).1 = .ok b0 := by
      simp only [Fn.lib, onM, decode, ep]
      rw [henv]
      exact congrArg Prod.fst hmade
    obtain ⟨s1, d, k1, k2, k3⟩ := step_good (W := fullBuild ok) (s := s) (k := .data) toyCtx ⟨.null, 0⟩ ⟨.panic, .null⟩
      (names_manager hv h3 (Fn.fromSeed abSeed ⟨[112], by decide⟩) rfl) hl2 trivial
    exact ⟨s, 0, hs, toyCtx, _, _, s1, d, k1, k2, k3⟩
  obtain ⟨-, keys, -, h0⟩ := C40_from_seed _ (realEnv_correct _) forwards forwards M hb.built abSeed ['p'] countingRng r' b0 hmade
  obtain ⟨plain, hopen, -⟩ := h0
  obtain ⟨b, r2, hch⟩ := ((C42_outcome (realEnv Base64.strict) b0 ['p'] ['q'] countingRng).1 counting_delivers).mp ⟨plain, hopen⟩
  have hch1 : Returned (fullBuild ok) (.change b0 ⟨[112], by decide⟩ ⟨[113], by decide⟩) b := by
    have hl2 : (((Fn.change b0 ⟨[112], by decide⟩ ⟨[113], by decide⟩).lib (fullBuild ok) toyCtx (.manager M countingRng)).run countingRng).1 =
        .ok b := by
      simp only [Fn.lib, onM, decode, ep, eq]
      rw [henv]
      exact congrArg Prod.fst hch
    obtain ⟨s1, d, k1, k2, k3⟩ := step_good (W := fullBuild ok) (s := s) (k := .data) toyCtx ⟨.null, 0⟩ ⟨.panic, .null⟩
      (names_manager hv h3 (Fn.change b0 ⟨[112], by decide⟩ ⟨[113], by decide⟩) rfl) hl2 trivial
    exact ⟨s, 0, hs, toyCtx, _, _, s1, d, k1, k2, k3⟩
  have hh : Handed (SomeBuild Base64.strict (fun _ _ _ => 7) 1 ok) (b0, ⟨[112], by decide⟩) [] (b, ⟨[113], by decide⟩) :=
    .change .start hreal hch1
  obtain ⟨g1, g2⟩ := C86_seed Base64.strict _ 1 ok hok _ hreal abSeed _ b0 hmade1 [] b _ hh _ hreal
  obtain ⟨x, y, z, hx, -, hr, hd, hy, hr2, -⟩ := C83_case
  obtain ⟨s', v, k1, k2⟩ := g1 (fun x' hx' => by
    obtain rfl := C83_determined.2.1 _ _ _ abSeed_len hx hx'
    exact fun before i after w e hw => hr2 before i (after ++ [0x80000000, 0, 0]) w
      (by rw [show ([0x8000002c, 0x8000003c, 0x80000000, 0, 0] : List UInt32) = [0x8000002c, 0x8000003c] ++ [0x80000000, 0, 0] from rfl, e]; simp) hw)
    s 0 q _ hs hv h3 toyCtx .null ⟨.panic, .null⟩
  have hop : Opened (fullBuild ok) b ⟨[113], by decide⟩ s' 1 :=
    ⟨s, s', toyCtx, 0, .null, ⟨.panic, .null⟩, v, [], hs, k1, k2, by rw [h2]; rfl, trivial, by simp, rfl⟩
  have hnet : (0x80000000 : Network) ∈ (fullBuild ok).all.map Factory.network := (new_has hM _).mp (by
    rw [Manager.hasNetwork, new_factories hM]; rfl)
  obtain ⟨x', hx', h⟩ := (g2 s' 1 hop).bitcoin ⟨hnet, .inl hnet⟩
  obtain rfl := C83_determined.2.1 _ _ _ abSeed_len hx hx'
  obtain ⟨y', hd', ha⟩ := h ⟨0x8000002c, 0x80000000, 0x80000000, 0, 0⟩ ⟨.inl rfl, rfl, show _ ≤ _ by decide, .inl rfl, show _ < _ by decide⟩ hr
  obtain rfl := C83_determined.2.2.1 _ _ _ _ _ hx hd hd'
  obtain ⟨out, e1, e2⟩ := ha.pub
  rw [hy] at e2
  exact ⟨b0, b, s', out, hmade1, hh, hop, e1, e2⟩

end KC.Props
