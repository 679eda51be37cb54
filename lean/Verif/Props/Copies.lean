import Verif.Props.Points
/-
C102: copies of a wallet that went separate ways.
-/
namespace KC.Props
open KC.Manager KC.Spec KC.Spec.Crypt KC.Spec.Wallet
open KC.Mnemonic (Language)

/-- The managers that added networks in the two histories use the same factory for each network. -/
def Agree (evs evs' : List Event) : Prop :=
  ∀ M M' n, Event.added M n ∈ evs → Event.added M' n ∈ evs' → M.getKeyFactory n = M'.getKeyFactory n

/-- C102: two wallets that come from one, by any two histories, have the same seed, phrase and language, and the same key for every network
that both have. -/
theorem C102_agree (E : Env) (hA : AeadCorrect E.A) (b0 b b' : Bytes) (p0 p p' : Str) (evs evs' : List Event) (c0 : Content)
    (h0 : Holds E b0 p0 c0) (h : Run E (b0, p0) evs (b, p)) (h' : Run E (b0, p0) evs' (b', p')) (ha : Agree evs evs') :
    ∃ c c', Holds E b p c ∧ Holds E b' p' c' ∧ c.seed = c'.seed ∧ c.mnemonic = c'.mnemonic ∧ c.language = c'.language ∧
      ∀ n d d', c.keys n = some d → c'.keys n = some d' → d = d' := by
  obtain ⟨c, hc, e1, e2, e3, k1, k2, k3⟩ := C44_history E hA b0 b p0 p evs c0 h0 h
  obtain ⟨c', hc', e1', e2', e3', k1', k2', k3'⟩ := C44_history E hA b0 b' p0 p' evs' c0 h0 h'
  refine ⟨c, c', hc, hc', e1.trans e1'.symm, e2.trans e2'.symm, e3.trans e3'.symm, fun n d d' hd hd' => ?_⟩
  cases e0 : c0.keys n with
  | some x =>
    have a := k1 n x e0
    have a' := k1' n x e0
    rw [hd] at a; rw [hd'] at a'
    cases a; cases a'; rfl
  | none =>
    obtain ⟨M, hM⟩ := ((k2 n).mp (by rw [hd]; nofun)).resolve_left (fun x => x e0)
    obtain ⟨M', hM'⟩ := ((k2' n).mp (by rw [hd']; nofun)).resolve_left (fun x => x e0)
    obtain ⟨f, s, x, g1, g2, g3, g4⟩ := k3 M n hM
    obtain ⟨f', s', x', g1', g2', g3', g4'⟩ := k3' M' n hM'
    rw [ha M M' n hM hM', g1'] at g1
    cases g1
    rw [g2'] at g2
    cases g2
    rw [g3'] at g3
    cases g3
    rw [hd] at g4; rw [hd'] at g4'
    cases g4; cases g4'; rfl

/-- A manager that added a network can use the seed of the wallet that the history began with. -/
theorem usable_of_added (E : Env) (hA : AeadCorrect E.A) (b0 b : Bytes) (p0 p : Str) (evs : List Event) (c0 : Content)
    (h0 : Holds E b0 p0 c0) (h : Run E (b0, p0) evs (b, p)) (M : Manager) (n : Network) (hm : Event.added M n ∈ evs) :
    Usable M.seedSize c0 := by
  generalize hs : (b0, p0) = s at h
  generalize ht : (b, p) = t at h
  induction h generalizing b p with
  | nil => cases hm
  | change evs b1 p1 b2 p2 r r' hrun hop ih =>
    exact ih b1 p1 (by simpa using hm) rfl
  | add evs b1 p1 b2 M' it n' r r' hrun hop ih =>
    rw [List.mem_append, List.mem_singleton] at hm
    rcases hm with hm | hm
    · exact ih b1 p1 hm rfl
    · cases hm
      subst hs
      obtain ⟨c, hc, e1, e2, e3, -⟩ := C44_history E hA b0 b1 p0 p1 evs c0 h0 hrun
      obtain ⟨f, w, s, d, -, g1, -, g2, -⟩ := add_ok hop
      have := holds_unique hc (loads_iff.mp ⟨w, g1, rfl⟩)
      subst this
      have := ((seedFromData_ok E M w s).mp g2).1
      unfold Usable at this ⊢
      rw [e1, e2, e3] at this
      exact this

/-- C102: a network that was added to one of them can be added to the other, by the manager that added it there, whatever passwords the two
have got meanwhile, and it gets the same key. -/
theorem C102_catch_up (E : Env) (hA : AeadCorrect E.A) (b0 b b' : Bytes) (p0 p p' : Str) (evs evs' : List Event) (c0 c c' : Content)
    (h0 : Holds E b0 p0 c0) (h : Run E (b0, p0) evs (b, p)) (h' : Run E (b0, p0) evs' (b', p')) (hc : Holds E b p c) (hc' : Holds E b' p' c')
    (M : Manager) (n : Network) (hm : Event.added M n ∈ evs) (hn : c'.keys n = none) (it : Iter (Network × Bytes)) (r : Rng) (hr : Delivers r) :
    ∃ b2 r2 d, (M.addNetwork E it b' p' n).run r = (.ok b2, r2) ∧ c.keys n = some d ∧
      Holds E b2 p' { c' with keys := fun m => if m = n then some d else c'.keys m } := by
  obtain ⟨x, hx, -, -, -, -, -, k3⟩ := C44_history E hA b0 b p0 p evs c0 h0 h
  obtain rfl := holds_unique hx hc
  obtain ⟨x', hx', e1, e2, e3, -⟩ := C44_history E hA b0 b' p0 p' evs' c0 h0 h'
  obtain rfl := holds_unique hx' hc'
  obtain ⟨f, s, d, g1, g2, g3, g4⟩ := k3 M n hm
  have hu : Usable M.seedSize x' := by
    have := usable_of_added E hA b0 b p0 p evs c0 h0 h M n hm
    unfold Usable at this ⊢
    rw [e1, e2, e3]
    exact this
  have hs : seedOf E.H x' = some s := by
    rw [← g2]
    unfold seedOf
    rw [e1, e2]
  obtain ⟨b2, r2, hb⟩ := (((((C43_outcome E it M b' p' n r).2 f g1).2 x' hc').2 hn).2.2.2 s hu hs).2.2 d g3 hr
  obtain ⟨f', s', d', a1, -, -, a2, a3, a4⟩ := C43_added E hA it M b' b2 p' n r r2 hb x' hc'
  rw [g1] at a1; cases a1
  rw [hs] at a2; cases a2
  rw [g3] at a3; cases a3
  exact ⟨b2, r2, d, hb, g4, a4⟩

/-- C102: two of them with the same networks hold the same. -/
theorem C102_same (E : Env) (hA : AeadCorrect E.A) (b0 b b' : Bytes) (p0 p p' : Str) (evs evs' : List Event) (c0 : Content)
    (h0 : Holds E b0 p0 c0) (h : Run E (b0, p0) evs (b, p)) (h' : Run E (b0, p0) evs' (b', p')) (ha : Agree evs evs')
    (hn : ∀ n, (∃ M, Event.added M n ∈ evs) ↔ ∃ M, Event.added M n ∈ evs') :
    ∃ c, Holds E b p c ∧ Holds E b' p' c := by
  obtain ⟨c, c', hc, hc', e1, e2, e3, hk⟩ := C102_agree E hA b0 b b' p0 p p' evs evs' c0 h0 h h' ha
  obtain ⟨x, hx, -, -, -, -, k2, -⟩ := C44_history E hA b0 b p0 p evs c0 h0 h
  obtain rfl := holds_unique hx hc
  obtain ⟨x', hx', -, -, -, -, k2', -⟩ := C44_history E hA b0 b' p0 p' evs' c0 h0 h'
  obtain rfl := holds_unique hx' hc'
  have : x.keys = x'.keys := by
    funext n
    have hiff : x.keys n ≠ none ↔ x'.keys n ≠ none := by rw [k2, k2', hn]
    cases e : x.keys n with
    | none =>
      cases e' : x'.keys n with
      | none => rfl
      | some d => exact absurd e (hiff.mpr (by rw [e']; nofun))
    | some d =>
      cases e' : x'.keys n with
      | none => exact absurd e' (hiff.mp (by rw [e]; nofun))
      | some d' => rw [hk n d d' e e']
  obtain ⟨a1, a2, a3, a4⟩ := x
  obtain ⟨a1', a2', a3', a4'⟩ := x'
  dsimp only at e1 e2 e3 this
  subst e1 e2 e3 this
  exact ⟨_, hc, hc'⟩

/-- C102: a copy that was kept goes on to open with the password it had, and from it, with that password, the keys that were added to the
wallet later can be made: changing the password takes back nothing from those who have an older copy and its password. -/
theorem C102_old_copy (E : Env) (hA : AeadCorrect E.A) (b0 b : Bytes) (p0 p : Str) (evs : List Event) (c0 c : Content)
    (h0 : Holds E b0 p0 c0) (h : Run E (b0, p0) evs (b, p)) (hc : Holds E b p c) (it : Iter (Network × Bytes)) (r : Rng) (hr : Delivers r) :
    c.seed = c0.seed ∧ retrieveMnemonic E b0 p0 = retrieveMnemonic E b p ∧
    ∀ n d, c.keys n = some d → c0.keys n = some d ∨ ∃ M b2 r2, Event.added M n ∈ evs ∧ (M.addNetwork E it b0 p0 n).run r = (.ok b2, r2) ∧
      ∃ c2, Holds E b2 p0 c2 ∧ c2.keys n = some d := by
  obtain ⟨x, hx, e1, e2, e3, k1, k2, -⟩ := C44_history E hA b0 b p0 p evs c0 h0 h
  obtain rfl := holds_unique hx hc
  refine ⟨e1, C100_phrase E E b0 b p0 p c0 x h0 hc e2.symm e3.symm, fun n d hd => ?_⟩
  cases e0 : c0.keys n with
  | some y =>
    have := k1 n y e0
    rw [hd] at this
    exact .inl this.symm
  | none =>
    obtain ⟨M, hM⟩ := ((k2 n).mp (by rw [hd]; nofun)).resolve_left (fun y => y e0)
    obtain ⟨b2, r2, d', g1, g2, g3⟩ := C102_catch_up E hA b0 b b0 p0 p p0 evs [] c0 x c0 h0 h (.nil _) hc h0 M n hM e0 it r hr
    rw [hd] at g2
    cases g2
    exact .inr ⟨M, b2, r2, hM, g1, _, g3, if_pos rfl⟩

/-! ### A case -/

open KC.Real.Secp256k1 (curve)
open KC.Real.Known

/-- A wallet with a published seed and no keys; one copy gets the Bitcoin key, the other a new password and then the Bitcoin key; a third is
left as it is.  The key is the same in the first two, and the third still opens with the first password. -/
theorem C102_case (nonce : Nonces) (tries : Nat) (Ed : Cardano.Ed) : ∃ M b0 b1 b2 d,
    BuiltIn Real.hashes (curve nonce tries) Ed M ∧
    Run (realEnv Base64.strict) (b0, ['p']) [.added M 0x80000000] (b1, ['p']) ∧
    Run (realEnv Base64.strict) (b0, ['p']) [.changed, .added M 0x80000000] (b2, ['q']) ∧
    (factoryOf Real.hashes (curve nonce tries) Ed .bitcoin).keyDataFromSeed tvSeed = .ok d ∧
    (∃ c, Holds (realEnv Base64.strict) b1 ['p'] c ∧ Holds (realEnv Base64.strict) b2 ['q'] c ∧ c.keys 0x80000000 = some d) ∧
    ∃ kc, M.keychainFromData (realEnv Base64.strict) forwards b0 ['p'] = .ok kc := by
  obtain ⟨M, h1, hnets⟩ := C38_new Real.hashes (curve nonce tries) Ed true true true 65535 (by decide) (by simp)
  have hb : BuiltIn Real.hashes (curve nonce tries) Ed M := ⟨65535, true, true, true, .inl h1⟩
  obtain ⟨d, hB⟩ := data_exists Real.hashes (curve nonce tries) Ed tvSeed tv0 tvSeed_len tv0_root .bitcoin nofun
  obtain ⟨f, hf⟩ : ∃ f, M.getKeyFactory 0x80000000 = some f := Option.isSome_iff_exists.mp ((hnets 0x80000000).mpr (by decide))
  obtain rfl : f = factoryOf Real.hashes (curve nonce tries) Ed .bitcoin := by
    rcases hb.factory hf with ⟨e, -⟩ | ⟨e, -⟩ | ⟨-, e⟩
    · exact absurd e (by decide)
    · exact absurd e (by decide)
    · exact e
  have hA := realEnv_correct Base64.strict
  obtain ⟨b0, -, -, keys, hk, h0⟩ := C100_any (realEnv Base64.strict) hA (some tvSeed) none none [] (by simp) ['p'] countingRng counting_delivers
  have hnone : keys = fun _ => none := by
    funext n
    cases e : keys n with
    | none => rfl
    | some d => exact absurd ((hk n d).mpr e) List.not_mem_nil
  subst hnone
  obtain ⟨b1, r1, g1, g1'⟩ := C100_add (realEnv Base64.strict) hA forwards M b0 ['p'] _ h0 tvSeed rfl tvSeed_len 0x80000000 _ hf rfl d hB
    countingRng counting_delivers
  obtain ⟨bm, rm, gm⟩ := ((C42_outcome (realEnv Base64.strict) b0 ['p'] ['q'] countingRng).1 counting_delivers).mp ⟨_, h0.choose_spec.1⟩
  have hm := (C42_same_wallet (realEnv Base64.strict) hA b0 bm ['p'] ['q'] _ _ gm).1 _ h0
  obtain ⟨b2, r2, g2, g2'⟩ := C100_add (realEnv Base64.strict) hA forwards M bm ['q'] _ hm tvSeed rfl tvSeed_len 0x80000000 _ hf rfl d hB
    countingRng counting_delivers
  refine ⟨M, b0, b1, b2, d, hb, .add _ [] b0 _ b1 M _ _ _ _ (.nil _) g1,
    .add _ [.changed] bm _ b2 M _ _ _ _ (.change _ [] b0 _ bm _ _ _ (.nil _) gm) g2, hB, ⟨_, g1', g2', ?_⟩, ?_⟩
  · dsimp only
    rw [if_pos rfl]
  · exact (C40_open (realEnv Base64.strict) forwards M hb.honest b0 ['p'] _ h0).1 nofun

end KC.Props
