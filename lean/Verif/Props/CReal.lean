import Verif.Props.RealEd
import Verif.Props.CSession
/-
C69, continued: a wallet made by one program through the C interface and used by another, with the actual algorithms.
-/
namespace KC.Props
open KC.C KC.Spec.C KC.Spec KC.Spec.Wallet KC.Spec.Bip32
open KC.KeyPath (Path)
open KC.Real.Secp256k1 (curve)
open KC.Real.Ed25519 (ed)

/-- A build with the built-in networks (each as chosen) and the actual algorithms.  Word size, layouts, build profile are any; `nonce`,
`tries` and `ok` as in C58 and C63. -/
structure RealBuild (D : Base64.Decoder) (nonce : Nonces) (tries : Nat) (ok : Nat → Bool) (ca eth btc : Bool) (W : Build) : Prop where
  env : W.E = realEnv D
  all : W.all = allNetworks Real.hashes (curve nonce tries) (ed Real.hashes ok) ca eth btc

/-- The path C passes. -/
def pathOf (q : CKeyPath) : Path := ⟨q.purpose, q.coin, q.account, q.change, q.address⟩

theorem new_factories {u : Nat} {all : List Factory} {M : Manager} (h : Manager.new u all = .ok M) :
    M.factories = NMap.ofList (all.map fun f => (f.network, f)) := by
  rw [Manager.new, Manager.withFactoryObjs, Res.bind_eq_ok] at h
  obtain ⟨s, -, h⟩ := h
  cases h
  rfl

/-- Everything that is known of a keychain opened from a wallet made from a seed. -/
structure FromSeed (D : Base64.Decoder) (nonce : Nonces) (tries : Nat) (ok : Nat → Bool) (ca eth btc : Bool) (seed : Bytes) (kc : Keychain) :
    Prop where
  made : ∃ (M M' : Manager) (itF : Iter (Network × Factory)) (itK it : Iter (Network × Bytes)) (pw : Str) (r r' : Rng) (blob : Bytes),
    BuiltIn Real.hashes (curve nonce tries) (ed Real.hashes ok) M ∧ BuiltIn Real.hashes (curve nonce tries) (ed Real.hashes ok) M' ∧
    (∀ n, M'.hasNetwork n = M.hasNetwork n) ∧ (M.hasNetwork 0x80000717 = ca) ∧
    (M.keychainDataFromSeed (realEnv D) itF itK seed pw).run r = (.ok blob, r') ∧
    M'.keychainFromData (realEnv D) it blob pw = .ok kc

theorem all_ethereum {H : Hashes} {C : Secp.Curve} {Ed : Cardano.Ed} {ca eth btc : Bool} :
    ((NMap.ofList ((allNetworks H C Ed ca eth btc).map fun f => (f.network, f))).get 0x8000003c).isSome = eth := by
  cases ca <;> cases eth <;> cases btc <;> rfl

theorem all_cardano {H : Hashes} {C : Secp.Curve} {Ed : Cardano.Ed} {ca eth btc : Bool} :
    ((NMap.ofList ((allNetworks H C Ed ca eth btc).map fun f => (f.network, f))).get 0x80000717).isSome = ca := by
  cases ca <;> cases eth <;> cases btc <;> rfl

/-- Making: the wallet a program finds in the data it is handed. -/
theorem made_data {W : Build} {s s1 : State} (hs : Sound W s) (hk : Known W s) {seed : Bytes} {pw : CText} {x : Ctx} {j : Nat}
    {val : DataPtr} {err : ErrorPtr} {d : DataPtr} (hst : s.step W (.call .data (.fromSeed seed pw) x j val err) = .next s1)
    (hd : s1.vars = s.vars ++ [⟨.data, d⟩]) :
    ∃ blob M r r' t, Json.ofUtf8 pw.val = some t ∧ Manager.new W.umax W.all = .ok M ∧
      (M.keychainDataFromSeed W.E x.factories x.keys seed t).run r = (.ok blob, r') ∧ Reads W s1.heap .data d blob := by
  obtain ⟨t, ht⟩ := sound_names hs (Fn.fromSeed seed pw) j
  rcases step_new ht hst with ⟨c, v, e, h1, h2⟩ | ⟨e, ty, txt, e', h1⟩
  · rw [hd] at e
    have e := List.append_cancel_left e
    cases e
    cases t with
    | manager M r =>
      obtain ⟨p, h3, h4⟩ := (names_var ht).2 M r rfl
      have hM := hk _ (List.mem_of_getElem? h3) (M, r) h4
      have h1 : ((decode pw fun pw => M.keychainDataFromSeed W.E x.factories x.keys seed pw).run r).1 = .ok c := h1
      unfold decode at h1
      split at h1
      · rename_i t et
        exact ⟨c, M, r, _, t, et, hM, Prod.ext h1 rfl, h2⟩
      · cases h1
    | _ => cases h1
  · rw [hd] at e'
    have e' := List.append_cancel_left e'
    cases e'

/-- Opening, in any program of such a build. -/
theorem opens {D : Base64.Decoder} {nonce : Nonces} {tries : Nat} {ok : Nat → Bool} {ca eth btc : Bool} {W W' : Build}
    (hW : RealBuild D nonce tries ok ca eth btc W) (hW' : RealBuild D nonce tries ok ca eth btc W') {seed blob : Bytes} {pw : CText} {t : Str}
    (et : Json.ofUtf8 pw.val = some t) {M : Manager} (hM : Manager.new W.umax W.all = .ok M) {itF : Iter (Network × Factory)}
    {itK : Iter (Network × Bytes)} {r r' : Rng} (hb : (M.keychainDataFromSeed W.E itF itK seed t).run r = (.ok blob, r'))
    (heth : eth = false ∨ ∀ root, Root Real.hashes seed root → ∃ y, Walk Real.hashes (curve nonce tries) root [0x8000002C, 0x8000003c] y)
    {s : State} (hk : Known W' s) {j : Nat} {q : Ptr} {c : Manager × Rng} (hv : s.vars[j]? = some ⟨.manager, q⟩)
    (hq : Reads W' s.heap .manager q c) (x : Ctx) (val : Ptr) (err : ErrorPtr) :
    ∃ s2 v kc, s.step W' (.call .keychain (.open blob pw) x j val err) = .next s2 ∧ s2.vars = s.vars ++ [⟨.keychain, v⟩] ∧
      Reads W' s2.heap .keychain v kc ∧ FromSeed D nonce tries ok ca eth btc seed kc := by
  have hM' : Manager.new W'.umax W'.all = .ok c.1 := hk _ (List.mem_of_getElem? hv) c hq
  have hB : BuiltIn Real.hashes (curve nonce tries) (ed Real.hashes ok) M := ⟨W.umax, ca, eth, btc, .inl (hW.all ▸ hM)⟩
  have hB' : BuiltIn Real.hashes (curve nonce tries) (ed Real.hashes ok) c.1 := ⟨W'.umax, ca, eth, btc, .inl (hW'.all ▸ hM')⟩
  have hn : ∀ n, c.1.hasNetwork n = M.hasNetwork n := by
    intro n
    simp only [Manager.hasNetwork]
    rw [new_factories hM, new_factories hM', hW.all, hW'.all]
  have hca : M.hasNetwork 0x80000717 = ca := by
    simp only [Manager.hasNetwork]
    rw [new_factories hM, hW.all]
    exact all_cardano
  have heth' : M.hasNetwork 0x8000003c = eth := by
    simp only [Manager.hasNetwork]
    rw [new_factories hM, hW.all]
    exact all_ethereum
  rw [hW.env] at hb
  obtain ⟨kc, ho, -⟩ := C57_wallet D nonce tries (ed Real.hashes ok) itF itK x.keys M c.1 hB hB' hn seed t r r' blob hb (heth'.symm ▸ heth)
  have hl : (((Fn.open blob pw).lib W' x (.manager c.1 c.2)).run c.2).1 = .ok kc := by
    show ((decode pw fun pw => .ret (c.1.keychainFromData W'.E x.keys blob pw)).run c.2).1 = _
    unfold decode
    rw [et, hW'.env]
    exact ho
  obtain ⟨s2, v, h1, h2, h3⟩ := step_good x val err (names_manager hv hq (Fn.open blob pw) rfl) hl trivial
  exact ⟨s2, v, kc, h1, h2, h3, ⟨M, c.1, itF, itK, x.keys, t, r, r', blob, hB, hB', hn, hca, hb, ho⟩⟩

/-- C69, Cardano: a program makes a wallet from a seed, through the C interface, after any history.  In any program (of such a build, maybe
of another word size), after any history, opening the data with the password gives a keychain; after any further history that does not
delete it, signing any data at an accepted path returns true with a signature valid by RFC 8032 for the key of the seed at that path; and
after any further history verifying it returns true with the answer true.  (Hypothesis on Ethereum: see C40; it is about 1 in 2^127 seeds.) -/
theorem C69_cardano (D : Base64.Decoder) (nonce : Nonces) (tries : Nat) (ok : Nat → Bool) (hok : ∀ s, s < Spec.Ed25519.l → ok s = true)
    (eth btc : Bool) (W W' : Build) (hW : RealBuild D nonce tries ok true eth btc W) (hW' : RealBuild D nonce tries ok true eth btc W')
    (ops : List Op) (hf : Follows W ops ⟨[], []⟩) (s s1 : State) (hr : State.run W ops ⟨[], []⟩ = .next s)
    (seed : Bytes) (pw : CText) (x : Ctx) (j : Nat) (val : DataPtr) (err : ErrorPtr) (d : DataPtr)
    (hst : s.step W (.call .data (.fromSeed seed pw) x j val err) = .next s1) (hd : s1.vars = s.vars ++ [⟨.data, d⟩])
    (heth : eth = false ∨ ∀ root, Root Real.hashes seed root → ∃ y, Walk Real.hashes (curve nonce tries) root [0x8000002C, 0x8000003c] y) :
    ∃ blob, Reads W s1.heap .data d blob ∧
    ∀ ops' s', Follows W' ops' ⟨[], []⟩ → State.run W' ops' ⟨[], []⟩ = .next s' →
    ∀ j' q c, s'.vars[j']? = some ⟨.manager, q⟩ → Reads W' s'.heap .manager q c → ∀ x' val' err',
    ∃ s2 v, s'.step W' (.call .keychain (.open blob pw) x' j' val' err') = .next s2 ∧ s2.vars = s'.vars ++ [⟨.keychain, v⟩] ∧
    ∀ ops2 s3, Follows W' ops2 s2 → (∀ op ∈ ops2, Spares s'.vars.length op) → s2.run W' ops2 = .next s3 →
    ∀ (m : Bytes) (p : CKeyPath), Accepts .cardano (pathOf p) → ∀ x3 val3 err3,
    ∃ s4 g R S, s3.step W' (.call .data (.sign ⟨0x80000717⟩ m p) x3 s'.vars.length val3 err3) = .next s4 ∧
      s4.vars = s3.vars ++ [⟨.data, g⟩] ∧ Reads W' s4.heap .data g (R ++ S) ∧
      (∃ (data : Bytes) (root y : Cardano.XPrv) (a b cc : Bytes),
        (factoryOf Real.hashes (curve nonce tries) (ed Real.hashes ok) .cardano).keyDataFromSeed seed = .ok data ∧ root.val = data ∧
        Spec.Ed25519.Walk Real.hashes root (full (pathOf p)) y ∧ Spec.Ed25519.Parts y a b cc ∧
        R.length = 32 ∧ S.length = 32 ∧ Spec.Ed25519.Valid Real.hashes (Spec.Ed25519.le a • Spec.Ed25519.B) m R S) ∧
    ∀ ops4 s5, Follows W' ops4 s4 → (∀ op ∈ ops4, Spares s'.vars.length op) → s4.run W' ops4 = .next s5 → ∀ x5 val5 err5,
    ∃ s6, s5.step W' (.call .bool (.verify ⟨0x80000717⟩ m (R ++ S) p) x5 s'.vars.length val5 err5) = .next s6 ∧
      s6.vars = s5.vars ++ [⟨.bool, true⟩] := by
  obtain ⟨hs, hk⟩ := known_run ops start.1 start.2 hf hr
  obtain ⟨blob, M, r, r', t, et, hM, hb, hrd⟩ := made_data hs hk hst hd
  refine ⟨blob, hrd, ?_⟩
  intro ops' s' hf' hr' j' q c hv hq x' val' err'
  obtain ⟨hs', hk'⟩ := known_run ops' start.1 start.2 hf' hr'
  obtain ⟨s2, v, kc, h1, h2, h3, ⟨M, M', itF, itK, it, pw', rr, rr', blob', hB, hB', hn, hca, hb', ho⟩⟩ :=
    opens hW hW' et hM hb heth hk' hv hq x' val' err'
  refine ⟨s2, v, h1, h2, ?_⟩
  intro ops2 s3 hf2 hsp hr2 m p hp x3 val3 err3
  have hs2 : Sound W' s2 := by
    rcases sound_step hs' (.call .keychain (.open blob pw) x' j' val' err') trivial with ⟨s2', e, h⟩ | h
    · rw [h1] at e; cases e; exact h
    · rw [h1] at h; cases h
  have hv2 : s2.vars[s'.vars.length]? = some ⟨.keychain, v⟩ := by rw [h2]; simp
  obtain ⟨hv3, hk3, -⟩ := C52_kept_history W' ops2 s2 s3 hs2 hf2 hr2 _ hsp _ hv2
  obtain ⟨kc', hq3, e⟩ := hk3 kc h3
  obtain rfl : kc = kc' := e
  obtain ⟨data, root, y, a, b, cc, R, S, out, g1, g2, g3, g4, -, -, g5, g6, g7, -, g8, g9⟩ :=
    C63_wallet D (curve nonce tries) ok hok itF itK it M M' hB hB' hn seed pw' rr rr' blob' hb' kc ho hca (pathOf p) hp m
  have hl : (((Fn.sign ⟨0x80000717⟩ m p).lib W' x3 (.keychain kc)).run (Target.keychain kc).rng).1 = .ok (R ++ S) := g5
  obtain ⟨s4, g, k1, k2, k3⟩ := step_good x3 val3 err3 (names_keychain hv3 hq3 (Fn.sign ⟨0x80000717⟩ m p) rfl) hl trivial
  refine ⟨s4, g, R, S, k1, k2, k3, ⟨data, root, y, a, b, cc, g1, g2, g3, g4, g6, g7, g8⟩, ?_⟩
  intro ops4 s5 hf4 hsp4 hr4 x5 val5 err5
  have hs3 : Sound W' s3 := by
    rcases sound_run ops2 hs2 hf2 with ⟨s3', e, h⟩ | h
    · rw [hr2] at e; cases e; exact h
    · rw [hr2] at h; cases h
  have hs4 : Sound W' s4 := by
    rcases sound_step hs3 (.call .data (.sign ⟨0x80000717⟩ m p) x3 s'.vars.length val3 err3) trivial with ⟨s4', e, h⟩ | h
    · rw [k1] at e; cases e; exact h
    · rw [k1] at h; cases h
  obtain ⟨hv4, hk4, -⟩ := C52_kept W' s3 s4 hs3 (.call .data (.sign ⟨0x80000717⟩ m p) x3 s'.vars.length val3 err3) trivial k1 s'.vars.length
    trivial _ hv3
  obtain ⟨kc4, hq4, e⟩ := hk4 kc hq3
  obtain rfl : kc = kc4 := e
  obtain ⟨hv5, hk5, -⟩ := C52_kept_history W' ops4 s4 s5 hs4 hf4 hr4 _ hsp4 _ hv4
  obtain ⟨kc5, hq5, e⟩ := hk5 kc hq4
  obtain rfl : kc = kc5 := e
  have hl5 : (((Fn.verify ⟨0x80000717⟩ m (R ++ S) p).lib W' x5 (.keychain kc)).run (Target.keychain kc).rng).1 = .ok true := g9
  obtain ⟨s6, b6, l1, l2, l3⟩ := step_good x5 val5 err5 (names_keychain hv5 hq5 (Fn.verify ⟨0x80000717⟩ m (R ++ S) p) rfl) hl5 trivial
  obtain rfl : b6 = true := l3
  exact ⟨s6, l1, l2⟩

/-- A keychain handle through a history that does not delete it. -/
theorem keychain_kept {W : Build} {ops : List Op} {s s' : State} (hs : Sound W s) (hf : Follows W ops s) (hr : s.run W ops = .next s') {j : Nat}
    (hj : ∀ op ∈ ops, Spares j op) {v : Ptr} {kc : Keychain} (hv : s.vars[j]? = some ⟨.keychain, v⟩) (hq : Reads W s.heap .keychain v kc) :
    Sound W s' ∧ s'.vars[j]? = some ⟨.keychain, v⟩ ∧ Reads W s'.heap .keychain v kc := by
  obtain ⟨h1, h2, -⟩ := C52_kept_history W ops s s' hs hf hr j hj _ hv
  obtain ⟨kc', h3, e⟩ := h2 kc hq
  obtain rfl : kc = kc' := e
  refine ⟨?_, h1, h3⟩
  rcases sound_run ops hs hf with ⟨s3, e, h⟩ | h
  · rw [hr] at e; cases e; exact h
  · rw [hr] at h; cases h

/-- C69, Bitcoin and Ethereum: as `C69_cardano`.  Signing succeeds if the nonces allow it; whenever it hands out data, these are a valid
ECDSA signature for the key of the seed at that path and a recovery byte, and the signature verifies after any further history. -/
theorem C69_secp (D : Base64.Decoder) (nonce : Nonces) (tries : Nat) (ok : Nat → Bool)
    (ca eth btc : Bool) (W W' : Build) (hW : RealBuild D nonce tries ok ca eth btc W) (hW' : RealBuild D nonce tries ok ca eth btc W')
    (ops : List Op) (hf : Follows W ops ⟨[], []⟩) (s s1 : State) (hr : State.run W ops ⟨[], []⟩ = .next s)
    (seed : Bytes) (pw : CText) (x : Ctx) (j : Nat) (val : DataPtr) (err : ErrorPtr) (d : DataPtr)
    (hst : s.step W (.call .data (.fromSeed seed pw) x j val err) = .next s1) (hd : s1.vars = s.vars ++ [⟨.data, d⟩])
    (heth : eth = false ∨ ∀ root, Root Real.hashes seed root → ∃ y, Walk Real.hashes (curve nonce tries) root [0x8000002C, 0x8000003c] y) :
    ∃ blob, Reads W s1.heap .data d blob ∧
    ∀ ops' s', Follows W' ops' ⟨[], []⟩ → State.run W' ops' ⟨[], []⟩ = .next s' →
    ∀ j' q c, s'.vars[j']? = some ⟨.manager, q⟩ → Reads W' s'.heap .manager q c → ∀ x' val' err',
    ∃ s2 v, s'.step W' (.call .keychain (.open blob pw) x' j' val' err') = .next s2 ∧ s2.vars = s'.vars ++ [⟨.keychain, v⟩] ∧
    ∀ ops2 s3, Follows W' ops2 s2 → (∀ op ∈ ops2, Spares s'.vars.length op) → s2.run W' ops2 = .next s3 →
    ∀ (net : CNetwork) (m : Bytes) (p : CKeyPath), net.val = 0x80000000 ∨ net.val = 0x8000003c → ∀ x3 val3 err3 s4 g,
      s3.step W' (.call .data (.sign net m p) x3 s'.vars.length val3 err3) = .next s4 → s4.vars = s3.vars ++ [⟨.data, g⟩] →
    ∃ a b i, Reads W' s4.heap .data g (a ++ b ++ [i]) ∧ a.length = 32 ∧ b.length = 32 ∧
      (∃ root y, Root Real.hashes seed root ∧ Walk Real.hashes (curve nonce tries) root (full (pathOf p)) y ∧
        Secp256k1.Valid (be (Real.hashes.keccak256 m)) (be a) (be b) (y.key.val • Secp256k1.G) ∧
        Secp256k1.Recovers (be (Real.hashes.keccak256 m)) (be a) (be b) i.toNat (y.key.val • Secp256k1.G)) ∧
    ∀ ops4 s5, Follows W' ops4 s4 → (∀ op ∈ ops4, Spares s'.vars.length op) → s4.run W' ops4 = .next s5 → ∀ x5 val5 err5,
    ∃ s6, s5.step W' (.call .bool (.verify net m (a ++ b) p) x5 s'.vars.length val5 err5) = .next s6 ∧
      s6.vars = s5.vars ++ [⟨.bool, true⟩] := by
  obtain ⟨hs, hk⟩ := known_run ops start.1 start.2 hf hr
  obtain ⟨blob, M, r, r', t, et, hM, hb, hrd⟩ := made_data hs hk hst hd
  refine ⟨blob, hrd, ?_⟩
  intro ops' s' hf' hr' j' q c hv hq x' val' err'
  obtain ⟨hs', hk'⟩ := known_run ops' start.1 start.2 hf' hr'
  obtain ⟨s2, v, kc, h1, h2, h3, ⟨M, M', itF, itK, it, pw', rr, rr', blob', hB, hB', hn, hca, hb', ho⟩⟩ :=
    opens hW hW' et hM hb heth hk' hv hq x' val' err'
  refine ⟨s2, v, h1, h2, ?_⟩
  intro ops2 s3 hf2 hsp hr2 net m p hnet x3 val3 err3 s4 g k1 k2
  have hs2 : Sound W' s2 := by
    rcases sound_step hs' (.call .keychain (.open blob pw) x' j' val' err') trivial with ⟨s2', e, h⟩ | h
    · rw [h1] at e; cases e; exact h
    · rw [h1] at h; cases h
  have hv2 : s2.vars[s'.vars.length]? = some ⟨.keychain, v⟩ := by rw [h2]; simp
  obtain ⟨hs3, hv3, hq3⟩ := keychain_kept hs2 hf2 hr2 hsp hv2 h3
  rcases step_new (names_keychain hv3 hq3 (Fn.sign net m p) rfl) k1 with ⟨sig, g', e, hl, hg⟩ | ⟨e, ty, txt, e', -⟩
  · rw [k2] at e
    have e := List.append_cancel_left e
    cases e
    have hl : kc.sign net.val m (pathOf p) = .ok sig := hl
    obtain ⟨root, y, out, a, b, i, g1, g2, -, -, rfl, g3, g4, -, g5, g6, g7⟩ :=
      C58_wallet D nonce tries (ed Real.hashes ok) itF itK it M M' hB hB' hn seed pw' rr rr' blob' hb' kc ho net.val hnet (pathOf p) m sig hl
    refine ⟨a, b, i, hg, g3, g4, ⟨root, y, g1, g2, g6, g7⟩, ?_⟩
    intro ops4 s5 hf4 hsp4 hr4 x5 val5 err5
    obtain ⟨hv4, hk4, -⟩ := C52_kept W' s3 s4 hs3 (.call .data (.sign net m p) x3 s'.vars.length val3 err3) trivial k1 s'.vars.length
      trivial _ hv3
    obtain ⟨kc4, hq4, e⟩ := hk4 kc hq3
    obtain rfl : kc = kc4 := e
    have hs4 : Sound W' s4 := by
      rcases sound_step hs3 (.call .data (.sign net m p) x3 s'.vars.length val3 err3) trivial with ⟨s4', e, h⟩ | h
      · rw [k1] at e; cases e; exact h
      · rw [k1] at h; cases h
    obtain ⟨-, hv5, hq5⟩ := keychain_kept hs4 hf4 hr4 hsp4 hv4 hq4
    have hl5 : (((Fn.verify net m (a ++ b) p).lib W' x5 (.keychain kc)).run (Target.keychain kc).rng).1 = .ok true := g5
    obtain ⟨s6, b6, l1, l2, l3⟩ := step_good x5 val5 err5 (names_keychain hv5 hq5 (Fn.verify net m (a ++ b) p) rfl) hl5 trivial
    obtain rfl : b6 = true := l3
    exact ⟨s6, l1, l2⟩
  · rw [k2] at e'
    have e' := List.append_cancel_left e'
    cases e'

/-! ### Non-vacuity -/

open KC.Real.Known

/-- A build with all three networks. -/
def fullBuild (ok : Nat → Bool) : Build :=
  { toyBuild with
    E := realEnv Base64.strict
    all := allNetworks Real.hashes (curve (fun _ _ _ => 7) 1) (ed Real.hashes ok) true true true }

theorem fullBuild_real (ok : Nat → Bool) : RealBuild Base64.strict (fun _ _ _ => 7) 1 ok true true true (fullBuild ok) := ⟨rfl, rfl⟩

/-- A program that makes a manager and then a wallet: the hypotheses of `C69_cardano` and `C69_secp` hold; for a second program, one that
makes a manager will do. -/
example (ok : Nat → Bool) : ∃ s s1 d q M,
    Follows (fullBuild ok) [.call .manager (.managerNew countingRng) toyCtx 0 .null ⟨.panic, .null⟩] ⟨[], []⟩ ∧
    State.run (fullBuild ok) [.call .manager (.managerNew countingRng) toyCtx 0 .null ⟨.panic, .null⟩] ⟨[], []⟩ = .next s ∧
    s.vars[0]? = some ⟨.manager, q⟩ ∧ Reads (fullBuild ok) s.heap .manager q (M, countingRng) ∧
    s.step (fullBuild ok) (.call .data (.fromSeed abSeed ⟨[112], by decide⟩) toyCtx 0 ⟨.null, 0⟩ ⟨.panic, .null⟩) = .next s1 ∧
    s1.vars = s.vars ++ [⟨.data, d⟩] ∧
    ∀ root, Root Real.hashes abSeed root → ∃ y, Walk Real.hashes (curve (fun _ _ _ => 7) 1) root [0x8000002C, 0x8000003c] y := by
  obtain ⟨M, hM, -⟩ := C38_new Real.hashes (curve (fun _ _ _ => 7) 1) (ed Real.hashes ok) true true true 65535 (by decide) (by simp)
  have hb : BuiltIn Real.hashes (curve (fun _ _ _ => 7) 1) (ed Real.hashes ok) M := ⟨65535, true, true, true, .inl hM⟩
  have hl : (((Fn.managerNew countingRng).lib (fullBuild ok) toyCtx .none).run Target.none.rng).1 = .ok (M, countingRng) := by
    show (Manager.new (fullBuild ok).umax (fullBuild ok).all).map (fun m => (m, countingRng)) = _
    have e : Manager.new (fullBuild ok).umax (fullBuild ok).all = .ok M := hM
    rw [e]; rfl
  obtain ⟨s, q, h1, h2, h3⟩ := step_good (W := fullBuild ok) (s := ⟨[], []⟩) (f := Fn.managerNew countingRng) (j := 0) toyCtx .null
    ⟨.panic, .null⟩ .no hl trivial
  obtain ⟨blob, r', hmade⟩ : ∃ blob r',
      (M.keychainDataFromSeed (realEnv Base64.strict) forwards forwards abSeed ['p']).run countingRng = (.ok blob, r') := by
    refine C40_from_seed_succeeds _ _ _ _ _ _ _ counting_delivers abSeed_len ?_
    intro n f hf
    rcases hb.factory hf with ⟨-, rfl⟩ | ⟨-, rfl⟩ | ⟨-, rfl⟩
    · obtain ⟨d, _, _, h, -⟩ := C30_from_seed Real.hashes (curve (fun _ _ _ => 7) 1) (ed Real.hashes ok) abSeed abSeed_len
      exact ⟨d, h⟩
    · exact data_exists _ _ (ed Real.hashes ok) abSeed ab0 abSeed_len ab0_root .ethereum nofun
    · exact data_exists _ _ (ed Real.hashes ok) abSeed ab0 abSeed_len ab0_root .bitcoin nofun
  have hv : s.vars[0]? = some ⟨.manager, q⟩ := by rw [h2]; rfl
  have hl2 : (((Fn.fromSeed abSeed ⟨[112], by decide⟩).lib (fullBuild ok) toyCtx (.manager M countingRng)).run countingRng).1 = .ok blob := by
    have e : Json.ofUtf8 [112] = some ['p'] := by decide +kernel
    simp only [Fn.lib, onM, decode, e]
    have e2 : (fullBuild ok).E = realEnv Base64.strict := (fullBuild_real ok).env
    rw [e2]
    exact congrArg Prod.fst hmade
  obtain ⟨s1, d, k1, k2, k3⟩ := step_good (W := fullBuild ok) (s := s) (k := .data) toyCtx ⟨.null, 0⟩ ⟨.panic, .null⟩
    (names_manager hv h3 (Fn.fromSeed abSeed ⟨[112], by decide⟩) rfl) hl2 trivial
  refine ⟨s, s1, d, q, M, ⟨trivial, fun _ _ => trivial⟩, ?_, hv, h3, k1, k2, ?_⟩
  · simp only [State.run, h1]
  · intro root hr
    obtain rfl := KC.Secp.root_unique hr ab0_root
    exact ⟨_, eth_coin_walk _ _⟩

end KC.Props
