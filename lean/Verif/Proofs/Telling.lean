import Verif.Proofs.CErrors
import Verif.Spec.ErrorTexts
/-
Which errors a library call can give.
-/
namespace KC.C
open KC.Spec.C

theorem ofBip39_tells {e : Bip39.Error} (w) : Mnemonic.Error.ofBip39 e ≠ .unknownError (.languageError w) := by
  cases e with
  | languageError l => cases l; nofun
  | _ => nofun

theorem seedFromMnemonic_tells {P : Hashes} {m u : Str} {size : Nat} {l : Mnemonic.Language} {e : Mnemonic.Error}
    (h : Mnemonic.seedFromMnemonic P m u size l = .err e) (w) : e ≠ .unknownError (.languageError w) := by
  rw [Mnemonic.seedFromMnemonic, Res.bind_eq_err] at h
  rcases h with h | ⟨mn, -, h⟩
  · rw [Res.mapErr_eq_err] at h
    obtain ⟨e', h, rfl⟩ := h
    exact ofBip39_tells w
  · rw [Res.bind_eq_err] at h
    rcases h with h | ⟨t, -, h⟩
    · exact absurd h ofPanic_no_err
    · dsimp only at h
      split at h
      · cases h; nofun
      · split at h
        · cases h; nofun
        · rw [Res.bind_eq_err] at h
          rcases h with h | ⟨tx, -, h⟩
          · exact absurd h ofPanic_no_err
          · cases h

theorem seedFromData_tells {E : Env} {M : Manager} {s : Option Bytes} {m : Option Str} {l} {e : Error}
    (h : M.seedFromData E s m l = .err e) : Telling e := by
  cases s with
  | some s =>
    simp only [Manager.seedFromData] at h
    split at h
    · cases h
    · cases h; trivial
  | none =>
    simp only [Manager.seedFromData] at h
    cases m with
    | none => cases h; trivial
    | some m =>
      cases l with
      | none => cases h; trivial
      | some l =>
        simp only [Res.okOr, Res.bind_ok, Res.mapErr_eq_err] at h
        obtain ⟨e', h, rfl⟩ := h
        exact seedFromMnemonic_tells h

theorem load_tells {E : Env} {b : Bytes} {pw : Str} {e : Error} (h : Manager.keychainDataFromBytes E b pw = .err e) : Telling e := by
  rw [Manager.keychainDataFromBytes, Res.bind_eq_err] at h
  rcases h with h | ⟨d, -, h⟩
  · rw [Res.mapErr_eq_err] at h
    obtain ⟨e', -, rfl⟩ := h
    cases e' <;> trivial
  · cases hx : (Data.Versioned.fromBytes E.D d).bind (Data.Versioned.getData E.D) with
    | none => rw [hx] at h; cases h; trivial
    | some w => rw [hx] at h; cases h

theorem new_tells {E : Env} {itF itK} {M : Manager} {s : Option Bytes} {pw : Str} {m : Option Str} {l} {r : Rng} {e : Error}
    (hM : ∀ n f, M.getKeyFactory n = some f → TellingFactory f)
    (h : ((M.newKeychainData E itF itK s pw m l).run r).1 = .err e) : Telling e := by
  rw [Manager.newKeychainData] at h
  rcases run_lift_err h with h | ⟨seed, -, h⟩
  · exact seedFromData_tells h
  · rcases run_lift_err h with h | ⟨keys, -, h⟩
    · obtain ⟨f, hf, h⟩ := Res.mapM_eq_err h
      obtain ⟨en, hen, rfl⟩ := List.mem_map.mp hf
      rw [Res.mapErr_eq_err] at h
      obtain ⟨e', h5, rfl⟩ := h
      rw [Res.map_eq_err] at h5
      exact (hM _ _ (factory_mem ((itF.perm _).subset hen))).2.1 _ _ h5 _
    · exact absurd h encrypt_no_err

theorem open_tells {E : Env} {it} {M : Manager} {b : Bytes} {pw : Str} {e : Error}
    (hM : ∀ n f, M.getKeyFactory n = some f → TellingFactory f)
    (h : M.keychainFromData E it b pw = .err e) : Telling e := by
  rw [Manager.keychainFromData, Res.bind_eq_err] at h
  rcases h with h | ⟨w, -, h⟩
  · exact load_tells h
  · rw [Res.bind_eq_err] at h
    rcases h with h | ⟨ks, -, h⟩
    · obtain ⟨y, hy, h⟩ := Res.mapM_eq_err h
      obtain ⟨en, hen, hy⟩ := List.mem_filterMap.mp hy
      rw [Option.map_eq_some_iff] at hy
      obtain ⟨f, hf, rfl⟩ := hy
      rw [Res.mapErr_eq_err] at h
      obtain ⟨e', h5, rfl⟩ := h
      exact (hM _ _ hf).1 _ _ h5 _
    · cases h

theorem opened_tells {E : Env} {it} {M : Manager} {b : Bytes} {pw : Str} {kc : Keychain}
    (hM : ∀ n f, M.getKeyFactory n = some f → TellingFactory f)
    (h : M.keychainFromData E it b pw = .ok kc) : ∀ n k, kc.keys.get n = some k → TellingKey k := by
  rw [Manager.keychainFromData, Res.bind_eq_ok] at h
  obtain ⟨w, -, h⟩ := h
  rw [Res.bind_eq_ok] at h
  obtain ⟨ks, h, hk⟩ := h
  cases hk
  intro n k hk
  rw [Keychain.new, NMap.get_ofList] at hk
  have := NMap.mem_of_lastOf hk
  rw [List.mem_map] at this
  obtain ⟨k', hk', e⟩ := this
  cases e
  obtain ⟨y, hy, hy2⟩ := (Res.mapM_eq_ok h).2.2 k hk'
  obtain ⟨en, hen, hy⟩ := List.mem_filterMap.mp hy
  rw [Option.map_eq_some_iff] at hy
  obtain ⟨f, hf, rfl⟩ := hy
  rw [Res.mapErr_eq_ok] at hy2
  exact (hM _ _ hf).2.2 _ _ hy2

theorem add_tells {E : Env} {it} {M : Manager} {b : Bytes} {pw : Str} {n : Network} {r : Rng} {e : Error}
    (hM : ∀ n f, M.getKeyFactory n = some f → TellingFactory f)
    (h : ((M.addNetwork E it b pw n).run r).1 = .err e) : Telling e := by
  rw [Manager.addNetwork] at h
  rcases run_lift_err h with h | ⟨f, hf, h⟩
  · cases hg : M.factories.get n <;> rw [hg] at h <;> cases h
    trivial
  · rcases run_lift_err h with h | ⟨w, hw, h⟩
    · exact load_tells h
    · split at h
      · cases h; trivial
      · rcases run_lift_err h with h | ⟨seed, hs, h⟩
        · exact seedFromData_tells h
        · rcases run_lift_err h with h | ⟨kd, -, h⟩
          · rw [Res.mapErr_eq_err] at h
            obtain ⟨e', h5, rfl⟩ := h
            exact (hM _ _ (Res.okOr_eq_ok.mp hf)).2.1 _ _ h5 _
          · exact absurd h encrypt_no_err

theorem key_call_tells {α} {kc : Keychain} {n : Network} {f : KeyObj → Res Key.Error α} {e : Error}
    (hk : ∀ k, kc.keys.get n = some k → ∀ e, f k = .err e → KeyTelling e)
    (h : (kc.pk n >>= fun k => (f k).mapErr (Error.keyError n)) = .err e) : Telling e := by
  rw [Res.bind_eq_err] at h
  rcases h with h | ⟨k, h1, h⟩
  · unfold Keychain.pk at h
    cases hg : kc.keys.get n <;> rw [hg] at h <;> cases h
    trivial
  · rw [Res.mapErr_eq_err] at h
    obtain ⟨e', h, rfl⟩ := h
    exact hk k (Res.okOr_eq_ok.mp h1) _ h _

theorem generate_tells {E : Env} {M : Manager} {l : Option Mnemonic.Language} {r : Rng} {e : Error}
    (h : ((M.generateMnemonic E l).run r).1 = .err e) : Telling e := by
  unfold Manager.generateMnemonic at h
  rw [RM.run_mapErr] at h
  dsimp only at h
  rw [Res.mapErr_eq_err] at h
  obtain ⟨e', h, rfl⟩ := h
  intro w
  rcases run_bind_err h with h | ⟨ent, r', -, h⟩
  · unfold Mnemonic.generateEntropy at h
    rcases run_lift_err h with h | ⟨t, -, h⟩
    · rw [Res.mapErr_eq_err] at h
      obtain ⟨e2, -, rfl⟩ := h
      exact ofBip39_tells w
    · rcases run_bind_err h with h | ⟨b, r', -, h⟩
      · rw [RM.run_fill] at h
        rcases hx : r.fill (t.toKeySize / 8) with ⟨_ | _, _⟩ <;> rw [hx] at h <;> cases h
      · rcases run_lift_err h with h | ⟨e, -, h⟩
        · exact absurd h ofPanic_no_err
        · cases h
  · have h : Mnemonic.mnemonicFromEntropy E.H ent (l.getD .english) = .err e' := h
    unfold Mnemonic.mnemonicFromEntropy at h
    rw [Res.bind_eq_err] at h
    rcases h with h | ⟨en, -, h⟩
    · rw [Res.mapErr_eq_err] at h
      obtain ⟨e2, -, rfl⟩ := h
      exact ofBip39_tells w
    · rw [Res.bind_eq_err] at h
      rcases h with h | ⟨m, -, h⟩
      · exact absurd h ofPanic_no_err
      · exact absurd h ofPanic_no_err

theorem lib_tells {W : Build} {x : Ctx} {t : Target} {k : Kind} {f : Fn k} {r : Rng} {e : Error} (ht : t.Telling)
    (h : ((f.lib W x t).run r).1 = .err e) : Telling e := by
  cases f with
  | keypathFromString s =>
    obtain ⟨t, -, ht, h⟩ := decode_err h
    obtain ⟨e', h5, rfl⟩ := pathRes_err h
    trivial
  | bitcoinBip44 t a c d => obtain ⟨e', h5, rfl⟩ := pathRes_err h; trivial
  | bitcoinBip49 t a c d => obtain ⟨e', h5, rfl⟩ := pathRes_err h; trivial
  | bitcoinBip84 t a c d => obtain ⟨e', h5, rfl⟩ := pathRes_err h; trivial
  | ethereumNew a => obtain ⟨e', h5, rfl⟩ := pathRes_err h; trivial
  | ethereumMetamask a => obtain ⟨e', h5, rfl⟩ := pathRes_err h; trivial
  | cardanoNew a c d => obtain ⟨e', h5, rfl⟩ := pathRes_err h; trivial
  | networks => obtain ⟨kc, rfl, h⟩ := onK_err h; cases h
  | pubKey n p => obtain ⟨kc, rfl, h⟩ := onK_err h; exact key_call_tells (fun k hk e he => (ht _ k hk).1 _ e he) h
  | sign n d p => obtain ⟨kc, rfl, h⟩ := onK_err h; exact key_call_tells (fun k hk e he => (ht _ k hk).2.1 _ _ e he) h
  | verify n d s p => obtain ⟨kc, rfl, h⟩ := onK_err h; exact key_call_tells (fun k hk e he => (ht _ k hk).2.2 _ _ _ e he) h
  | managerNew r =>
    have h : (Manager.new W.umax W.all).map (fun m => (m, r)) = .err e := h
    rw [Res.map_eq_err] at h
    unfold Manager.new Manager.withFactoryObjs at h
    rw [Res.bind_eq_err] at h
    rcases h with h | ⟨s, -, h⟩
    · unfold Manager.calculateSeedSize at h
      dsimp only at h
      split at h
      · cases h; trivial
      split at h
      · cases h; trivial
      · cases h
    · cases h
  | hasNetwork n => obtain ⟨m, r', rfl, h⟩ := onM_err h; cases h
  | generate l => obtain ⟨m, r', rfl, h⟩ := onM_err h; exact generate_tells h
  | fromSeed s pw =>
    obtain ⟨m, r', rfl, h⟩ := onM_err h
    obtain ⟨t, -, -, h⟩ := decode_err h
    exact new_tells ht h
  | fromMnemonic s pw l =>
    obtain ⟨m, r', rfl, h⟩ := onM_err h
    obtain ⟨t, -, hn, h⟩ := decode_err h
    obtain ⟨t', -, -, h⟩ := decode_err h
    exact new_tells ht h
  | «open» d pw =>
    obtain ⟨m, r', rfl, h⟩ := onM_err h
    obtain ⟨t, -, -, h⟩ := decode_err h
    exact open_tells ht h
  | add d pw n =>
    obtain ⟨m, r', rfl, h⟩ := onM_err h
    obtain ⟨t, hpw, -, h⟩ := decode_err h
    exact add_tells ht h
  | change d o n =>
    obtain ⟨m, r', rfl, h⟩ := onM_err h
    obtain ⟨t, -, -, h⟩ := decode_err h
    obtain ⟨t', -, -, h⟩ := decode_err h
    unfold Manager.changePassword at h
    rcases run_lift_err h with h | ⟨d, -, h⟩
    · rw [Res.mapErr_eq_err] at h
      obtain ⟨e', -, rfl⟩ := h
      cases e' <;> trivial
    · exact absurd h encrypt_no_err
  | keysData d pw =>
    obtain ⟨m, r', rfl, h⟩ := onM_err h
    obtain ⟨t, -, -, h⟩ := decode_err h
    have h : Manager.getKeysData W.E x.keys d t = .err e := h
    exact load_tells (Res.map_eq_err.mp h)
  | retrieve d pw =>
    obtain ⟨m, r', rfl, h⟩ := onM_err h
    obtain ⟨t, -, -, h⟩ := decode_err h
    have h : Manager.retrieveMnemonic W.E d t = .err e := h
    unfold Manager.retrieveMnemonic at h
    rw [Res.bind_eq_err] at h
    rcases h with h | ⟨w, -, h⟩
    · exact load_tells h
    · cases hm : w.mnemonic with
      | none => rw [hm] at h; cases h; trivial
      | some m =>
        rw [hm] at h
        cases hl : w.dictionary with
        | none => rw [hl] at h; cases h; trivial
        | some l => rw [hl] at h; cases h

/-! ### The built-in networks -/

theorem seed_tells {s : Bytes} {e : Key.Error} (h : seedOrError s = .err e) : KeyTelling e := by
  unfold seedOrError at h
  rw [Res.mapErr_eq_err] at h
  obtain ⟨e', h, rfl⟩ := h
  exact fun _ w => ofBip39_tells w

theorem mapSecp_tells {α} {x : Res Secp.KeyError α} {e : Key.Error} (h : x.mapErr Key.Error.ofSecp = .err e) : KeyTelling e := by
  rw [Res.mapErr_eq_err] at h
  obtain ⟨e', -, rfl⟩ := h
  intro n
  cases e' <;> first | trivial | exact nofun

theorem mapSecpSign_tells {α} {x : Res Secp.KeyError α} {e : Key.Error} (h : x.mapErr Key.Error.ofSecpSign = .err e) : KeyTelling e := by
  rw [Res.mapErr_eq_err] at h
  obtain ⟨e', -, rfl⟩ := h
  exact fun _ _ => nofun

theorem bitcoin_telling {H : Hashes} {C : Secp.Curve} {x : Secp.XPrv} : TellingKey (Bitcoin.keyObj H C x) := by
  have der : ∀ {p e}, Bitcoin.derivePrivate H C x p = .err e → KeyTelling e := by
    intro p e h
    unfold Bitcoin.derivePrivate at h
    iterate 4
      split at h
      · cases h; exact fun _ => trivial
    exact mapSecp_tells h
  refine ⟨fun p e h => der (Res.map_eq_err.mp h), fun m p e h => ?_, fun m s p e h => ?_⟩
  · have h : (Bitcoin.derivePrivate H C x p >>= fun pk => (pk.sign H C m).mapErr Key.Error.ofSecpSign) = .err e := h
    rw [Res.bind_eq_err] at h
    rcases h with h | ⟨_, -, h⟩
    · exact der h
    · exact mapSecpSign_tells h
  · have h : (Bitcoin.derivePrivate H C x p >>= fun pk => (Secp.pubVerify H C (pk.public C) m s).mapErr Key.Error.ofSecp) = .err e := h
    rw [Res.bind_eq_err] at h
    rcases h with h | ⟨_, -, h⟩
    · exact der h
    · exact mapSecp_tells h

theorem ethereum_telling {H : Hashes} {C : Secp.Curve} {x : Secp.XPrv} : TellingKey (Ethereum.keyObj H C x) := by
  have der : ∀ {p e}, Ethereum.derivePrivate H C x p = .err e → KeyTelling e := by
    intro p e h
    unfold Ethereum.derivePrivate at h
    iterate 5
      split at h
      · cases h; exact fun _ => trivial
    exact mapSecp_tells h
  refine ⟨fun p e h => der (Res.map_eq_err.mp h), fun m p e h => ?_, fun m s p e h => ?_⟩
  · have h : (Ethereum.derivePrivate H C x p >>= fun pk => (pk.sign H C m).mapErr Key.Error.ofSecpSign) = .err e := h
    rw [Res.bind_eq_err] at h
    rcases h with h | ⟨_, -, h⟩
    · exact der h
    · exact mapSecpSign_tells h
  · have h : (Ethereum.derivePrivate H C x p >>= fun pk => (Secp.pubVerify H C (pk.public C) m s).mapErr Key.Error.ofSecp) = .err e := h
    rw [Res.bind_eq_err] at h
    rcases h with h | ⟨_, -, h⟩
    · exact der h
    · exact mapSecp_tells h

theorem cardano_telling {E : Cardano.Ed} {x : Cardano.XPrv} : TellingKey (Cardano.keyObj E x) := by
  have der : ∀ {p e}, Cardano.derivePrivate E x p = .err e → KeyTelling e := by
    intro p e h
    unfold Cardano.derivePrivate at h
    iterate 5
      split at h
      · cases h; exact fun _ => trivial
    cases h
  refine ⟨fun p e h => der (Res.map_eq_err.mp h), fun m p e h => der (Res.map_eq_err.mp h), fun m s p e h => ?_⟩
  have h : (if s.length < Cardano.signatureSize then .err (.invalidSignatureSize s.length Cardano.signatureSize)
    else do
      let s ← Res.ofPanic (Bytes.copyFrom Cardano.signatureSize s)
      (Cardano.derivePrivate E x p).map fun pk => E.verify pk m s.val : Res Key.Error Bool) = .err e := h
  split at h
  · cases h; exact fun _ => trivial
  · rw [Res.bind_eq_err] at h
    rcases h with h | ⟨_, -, h⟩
    · exact absurd h ofPanic_no_err
    · exact der (Res.map_eq_err.mp h)

theorem bitcoin_factory_telling (H : Hashes) (C : Secp.Curve) : TellingFactory (Bitcoin.factory H C) := by
  refine ⟨fun d e h => ?_, fun d e h => ?_, fun d k h => ?_⟩
  · exact mapSecp_tells (Res.map_eq_err.mp h)
  · have h : (seedOrError d >>= fun s => Bitcoin.dataFromSeed H s) = .err e := h
    rw [Res.bind_eq_err] at h
    rcases h with h | ⟨s, -, h⟩
    · exact seed_tells h
    · unfold Bitcoin.dataFromSeed at h
      rw [Res.bind_eq_err] at h
      rcases h with h | ⟨_, -, h⟩
      · exact mapSecp_tells h
      · exact absurd h ofPanic_no_err
  · obtain ⟨a, rfl⟩ := map_key h; exact bitcoin_telling

theorem ethereum_factory_telling (H : Hashes) (C : Secp.Curve) : TellingFactory (Ethereum.factory H C) := by
  refine ⟨fun d e h => ?_, fun d e h => ?_, fun d k h => ?_⟩
  · exact mapSecp_tells (Res.map_eq_err.mp h)
  · have h : (seedOrError d >>= fun s => Ethereum.dataFromSeed H s) = .err e := h
    rw [Res.bind_eq_err] at h
    rcases h with h | ⟨s, -, h⟩
    · exact seed_tells h
    · unfold Ethereum.dataFromSeed at h
      rw [Res.bind_eq_err] at h
      rcases h with h | ⟨_, -, h⟩
      · exact mapSecp_tells h
      · exact absurd h ofPanic_no_err
  · obtain ⟨a, rfl⟩ := map_key h; exact ethereum_telling

theorem cardano_factory_telling (H : Hashes) (E : Cardano.Ed) : TellingFactory (Cardano.factory H E) := by
  have ver : ∀ {b e}, (Cardano.fromBytesVerified b).mapErr (fun e => Key.Error.invalidKeyData (.cardano e)) = .err e → KeyTelling e := by
    intro b e h
    rw [Res.mapErr_eq_err] at h
    obtain ⟨e', -, rfl⟩ := h
    exact fun _ _ => nofun
  refine ⟨fun d e h => ?_, fun d e h => ?_, fun d k h => ?_⟩
  · have h := Res.map_eq_err.mp h
    unfold Cardano.keyFromData at h
    split at h
    · cases h; exact fun _ => trivial
    · rw [Res.bind_eq_err] at h
      rcases h with h | ⟨_, -, h⟩
      · exact absurd h ofPanic_no_err
      rw [Res.bind_eq_err] at h
      rcases h with h | ⟨_, -, h⟩
      · exact ver h
      · cases h
  · have h : (seedOrError d >>= fun s => Cardano.dataFromSeed H s) = .err e := h
    rw [Res.bind_eq_err] at h
    rcases h with h | ⟨s, -, h⟩
    · exact seed_tells h
    · unfold Cardano.dataFromSeed at h
      rw [Res.bind_eq_err] at h
      rcases h with h | ⟨_, -, h⟩
      · exact absurd h ofPanic_no_err
      dsimp only at h
      rw [Res.bind_eq_err] at h
      rcases h with h | ⟨_, -, h⟩
      · exact absurd h ofPanic_no_err
      rw [Res.bind_eq_err] at h
      rcases h with h | ⟨_, -, h⟩
      · exact absurd h ofPanic_no_err
      rw [Res.bind_eq_err] at h
      rcases h with h | ⟨_, -, h⟩
      · exact ver h
      · cases h
  · obtain ⟨a, rfl⟩ := map_key h; exact cardano_telling

end KC.C
