import Verif.Proofs.Manager
import Verif.Props.Keys
/-
C38-C48: keychain/src/manager.rs and keychain.rs.
-/
namespace KC.Props
open KC.Manager KC.Spec.Wallet KC.Spec.Data KC.Spec.Crypt
open KC.Mnemonic (Language)

/-! ### C39 -/

theorem fold_sizes (fs : List Factory) (a b : Nat) :
    fs.foldl (fun (min, max) f => (Nat.max min f.seedSize.min, Nat.min max f.seedSize.max)) (a, b) =
      ((fs.map fun f => f.seedSize.min).foldl Nat.max a, (fs.map fun f => f.seedSize.max).foldl Nat.min b) := by
  induction fs generalizing a b with
  | nil => rfl
  | cons f fs ih => simp only [List.foldl_cons, List.map_cons, ih]

theorem foldl_max (l : List Nat) (a x : Nat) (h : ∀ y ∈ l, y ≤ x) (hx : x = a ∨ x ∈ l) (ha : a ≤ x) : l.foldl Nat.max a = x := by
  induction l generalizing a with
  | nil => rcases hx with hx | hx; exacts [hx.symm, absurd hx (by simp)]
  | cons y l ih =>
    rw [List.foldl_cons]
    have hy : y ≤ x := h y (by simp)
    refine ih _ (fun z hz => h z (by simp [hz])) ?_ (by show max a y ≤ x; omega)
    by_cases hm : x ∈ l
    · exact .inr hm
    · left
      show x = max a y
      rcases hx with rfl | hx
      · omega
      · rcases List.mem_cons.mp hx with rfl | hx
        · omega
        · exact absurd hx hm

theorem foldl_min (l : List Nat) (a x : Nat) (h : ∀ y ∈ l, x ≤ y) (hx : x = a ∨ x ∈ l) (ha : x ≤ a) : l.foldl Nat.min a = x := by
  induction l generalizing a with
  | nil => rcases hx with hx | hx; exacts [hx.symm, absurd hx (by simp)]
  | cons y l ih =>
    rw [List.foldl_cons]
    have hy : x ≤ y := h y (by simp)
    refine ih _ (fun z hz => h z (by simp [hz])) ?_ (by show x ≤ min a y; omega)
    by_cases hm : x ∈ l
    · exact .inr hm
    · left
      show x = min a y
      rcases hx with rfl | hx
      · omega
      · rcases List.mem_cons.mp hx with rfl | hx
        · omega
        · exact absurd hx hm

/-- C39: `lo` being the largest minimum (0 without factories) and `hi` the smallest maximum (at most `usize::MAX`), the manager
is built exactly when `0 < lo < hi`, with seed size `lo`, which all its factories admit. -/
theorem C39_seed_size (umax lo hi : Nat) (fs : List Factory)
    (hlo : ∀ f ∈ fs, f.seedSize.min ≤ lo) (hlo' : lo = 0 ∨ ∃ f ∈ fs, f.seedSize.min = lo)
    (hhi : ∀ f ∈ fs, hi ≤ f.seedSize.max) (hu : hi ≤ umax) (hhi' : hi = umax ∨ ∃ f ∈ fs, f.seedSize.max = hi) :
    (0 < lo ∧ lo < hi → ∃ M, withFactoryObjs umax fs = .ok M ∧ M.seedSize = lo ∧
      ∀ f ∈ fs, f.seedSize.min ≤ M.seedSize ∧ M.seedSize ≤ f.seedSize.max) ∧
    (¬ (0 < lo ∧ lo < hi) → withFactoryObjs umax fs = .err (.cantCalculateSeedSize lo hi)) := by
  have e1 : (fs.map fun f => f.seedSize.min).foldl Nat.max 0 = lo := by
    refine foldl_max _ _ _ ?_ ?_ (Nat.zero_le _)
    · simpa using hlo
    · simpa using hlo'
  have e2 : (fs.map fun f => f.seedSize.max).foldl Nat.min umax = hi := by
    refine foldl_min _ _ _ ?_ ?_ hu
    · simpa using hhi
    · simpa using hhi'
  have e : calculateSeedSize umax fs = if lo = 0 then .err (.cantCalculateSeedSize lo hi)
      else if lo ≥ hi then .err (.cantCalculateSeedSize lo hi) else .ok lo := by
    rw [calculateSeedSize, fold_sizes, e1, e2]
  constructor
  · rintro ⟨h1, h2⟩
    rw [if_neg (by omega), if_neg (by omega)] at e
    refine ⟨_, by rw [withFactoryObjs, e]; rfl, rfl, fun f hf => ⟨hlo f hf, ?_⟩⟩
    have := hhi f hf
    show lo ≤ _
    omega
  · intro h
    have : calculateSeedSize umax fs = .err (.cantCalculateSeedSize lo hi) := by
      rw [e]; split
      · rfl
      · rw [if_pos (by omega)]
    rw [withFactoryObjs, this]; rfl

/-- C39: such bounds always exist, so the previous theorem covers every list of factories. -/
theorem C39_bounds_exist (umax : Nat) (fs : List Factory) :
    ∃ lo hi, (∀ f ∈ fs, f.seedSize.min ≤ lo) ∧ (lo = 0 ∨ ∃ f ∈ fs, f.seedSize.min = lo) ∧
      (∀ f ∈ fs, hi ≤ f.seedSize.max) ∧ hi ≤ umax ∧ (hi = umax ∨ ∃ f ∈ fs, f.seedSize.max = hi) := by
  induction fs with
  | nil => exact ⟨0, umax, by simp⟩
  | cons f fs ih =>
    obtain ⟨lo, hi, h1, h2, h3, h4, h5⟩ := ih
    refine ⟨max lo f.seedSize.min, min hi f.seedSize.max, ?_, ?_, ?_, by omega, ?_⟩
    · intro g hg
      rcases List.mem_cons.mp hg with rfl | hg
      · omega
      · have := h1 g hg; omega
    · by_cases h : lo ≤ f.seedSize.min
      · right; exact ⟨f, by simp, by omega⟩
      · rcases h2 with h2 | ⟨g, hg, h2⟩
        · omega
        · right; exact ⟨g, by simp [hg], by omega⟩
    · intro g hg
      rcases List.mem_cons.mp hg with rfl | hg
      · omega
      · have := h3 g hg; omega
    · by_cases h : f.seedSize.max ≤ hi
      · right; exact ⟨f, by simp, by omega⟩
      · rcases h5 with h5 | ⟨g, hg, h5⟩
        · left; omega
        · right; exact ⟨g, by simp [hg], by omega⟩

/-- C39: the order of the factories does not matter to whether the manager is built, with which seed size, or to the error. -/
theorem C39_order (umax : Nat) (fs fs' : List Factory) (hp : fs.Perm fs') :
    ((∃ M, withFactoryObjs umax fs = .ok M) ↔ ∃ M, withFactoryObjs umax fs' = .ok M) ∧
    (∀ M M', withFactoryObjs umax fs = .ok M → withFactoryObjs umax fs' = .ok M' → M.seedSize = M'.seedSize) ∧
    ∀ e, withFactoryObjs umax fs = .err e → withFactoryObjs umax fs' = .err e := by
  obtain ⟨lo, hi, h1, h2, h3, h4, h5⟩ := C39_bounds_exist umax fs
  have A := C39_seed_size umax lo hi fs h1 h2 h3 h4 h5
  have B := C39_seed_size umax lo hi fs' (by simpa only [hp.mem_iff] using h1) (by simpa only [hp.mem_iff] using h2)
    (by simpa only [hp.mem_iff] using h3) h4 (by simpa only [hp.mem_iff] using h5)
  by_cases h : 0 < lo ∧ lo < hi
  · obtain ⟨M, e, s, -⟩ := A.1 h
    obtain ⟨M', e', s', -⟩ := B.1 h
    refine ⟨⟨fun _ => ⟨_, e'⟩, fun _ => ⟨_, e⟩⟩, ?_, ?_⟩
    · intro N N' hN hN'
      rw [e] at hN; rw [e'] at hN'
      cases hN; cases hN'
      rw [s, s']
    · intro e'' he; rw [e] at he; cases he
  · have e := A.2 h
    have e' := B.2 h
    refine ⟨⟨?_, ?_⟩, ?_, ?_⟩
    · rintro ⟨M, hM⟩; rw [e] at hM; cases hM
    · rintro ⟨M, hM⟩; rw [e'] at hM; cases hM
    · intro M M' hM; rw [e] at hM; cases hM
    · intro x hx; rw [e] at hx; cases hx; exact e'

/-- A factory with given bounds. -/
def boundsFactory (n : Network) (lo hi : Nat) : Factory := ⟨n, ⟨lo, hi⟩, fun _ => .panic, fun _ => .panic⟩

/-- Non-vacuity of C39, and the refused case of equal bounds although 128 would suit both factories. -/
example : (∃ M, withFactoryObjs 65535 [boundsFactory 1 96 256, boundsFactory 2 128 192] = .ok M ∧ M.seedSize = 128) ∧
    withFactoryObjs 65535 [boundsFactory 1 128 256, boundsFactory 2 96 128] = .err (.cantCalculateSeedSize 128 128) :=
  ⟨⟨_, rfl, rfl⟩, rfl⟩

/-! ### C38 -/

theorem mem_allNetworks (H : Hashes) (C : Secp.Curve) (Ed : Cardano.Ed) (ca eth btc : Bool) (f : Factory) :
    f ∈ allNetworks H C Ed ca eth btc ↔ ca = true ∧ f = Cardano.factory H Ed ∨ eth = true ∧ f = Ethereum.factory H C ∨
      btc = true ∧ f = Bitcoin.factory H C := by
  cases ca <;> cases eth <;> cases btc <;> simp [allNetworks]

theorem allNetworks_size {H : Hashes} {C : Secp.Curve} {Ed : Cardano.Ed} {ca eth btc : Bool} {f : Factory}
    (h : f ∈ allNetworks H C Ed ca eth btc) :
    (f.seedSize = ⟨96, 256⟩ ∧ f.network = 0x80000717) ∨
      (f.seedSize = ⟨128, 256⟩ ∧ (f.network = 0x8000003c ∨ f.network = 0x80000000)) := by
  rcases (mem_allNetworks H C Ed ca eth btc f).mp h with ⟨-, rfl⟩ | ⟨-, rfl⟩ | ⟨-, rfl⟩
  · exact .inl ⟨rfl, rfl⟩
  · exact .inr ⟨rfl, .inl rfl⟩
  · exact .inr ⟨rfl, .inr rfl⟩

theorem has_ofObjs {umax : Nat} {fs : List Factory} {M : Manager} (hM : withFactoryObjs umax fs = .ok M) (n : Network) :
    M.hasNetwork n = true ↔ ∃ f ∈ fs, f.network = n := by
  rw [withFactoryObjs, Res.bind_eq_ok] at hM
  obtain ⟨s, -, hM⟩ := hM
  have : M = ⟨NMap.ofList (fs.map fun f => (f.network, f)), s⟩ := by simpa using hM.symm
  subst this
  rw [hasNetwork, NMap.get_ofList_isSome]
  constructor
  · rintro ⟨f, hf⟩
    rw [List.mem_map] at hf
    obtain ⟨g, hg, e⟩ := hf
    cases e
    exact ⟨_, hg, rfl⟩
  · rintro ⟨f, hf, rfl⟩
    exact ⟨f, List.mem_map.mpr ⟨f, hf, rfl⟩⟩

/-- C38: `with_networks` supports exactly the requested networks that are built in; nothing in common is refused. -/
theorem C38_with_networks (H : Hashes) (C : Secp.Curve) (Ed : Cardano.Ed) (ca eth btc : Bool) (umax : Nat) (hu : 256 ≤ umax)
    (nets : List Network) :
    ((∃ n ∈ nets, n ∈ Network.all ca eth btc) →
      ∃ M, withNetworks umax (allNetworks H C Ed ca eth btc) nets = .ok M ∧
        (∀ n, M.hasNetwork n = true ↔ n ∈ nets ∧ n ∈ Network.all ca eth btc) ∧
        (∀ n f, M.getKeyFactory n = some f → f ∈ allNetworks H C Ed ca eth btc ∧ f.network = n)) ∧
    ((¬ ∃ n ∈ nets, n ∈ Network.all ca eth btc) →
      withNetworks umax (allNetworks H C Ed ca eth btc) nets = .err (.cantCalculateSeedSize 0 umax)) := by
  have hall : ∀ n, n ∈ Network.all ca eth btc ↔ ∃ f ∈ allNetworks H C Ed ca eth btc, f.network = n := by
    intro n
    have hc : (Cardano.factory H Ed).network = Cardano.coinType := rfl
    have he : (Ethereum.factory H C).network = Ethereum.coinType := rfl
    have hb : (Bitcoin.factory H C).network = Bitcoin.coinType := rfl
    cases ca <;> cases eth <;> cases btc <;>
      simp [Network.all, allNetworks, hc, he, hb, eq_comm]
  have hsize : ∀ f ∈ allNetworks H C Ed ca eth btc, 0 < f.seedSize.min ∧ f.seedSize.min ≤ 128 ∧ f.seedSize.max = 256 := by
    intro f hf
    rcases allNetworks_size hf with ⟨h, -⟩ | ⟨h, -⟩ <;> rw [h] <;> simp
  generalize hfs : ((allNetworks H C Ed ca eth btc).filter fun f => nets.any fun n => decide (n = f.network)) = fs
  have hw : withNetworks umax (allNetworks H C Ed ca eth btc) nets = withFactoryObjs umax fs := by rw [withNetworks, hfs]
  have hmem : ∀ f, f ∈ fs ↔ f ∈ allNetworks H C Ed ca eth btc ∧ f.network ∈ nets := by
    intro f; rw [← hfs]; simp [List.mem_filter]
  rw [hw]
  obtain ⟨lo, hi, h1, h2, h3, h4, h5⟩ := C39_bounds_exist umax fs
  have A := C39_seed_size umax lo hi fs h1 h2 h3 h4 h5
  constructor
  · rintro ⟨n, hn, hn'⟩
    obtain ⟨f, hf, rfl⟩ := (hall n).mp hn'
    have hfm : f ∈ fs := (hmem f).mpr ⟨hf, hn⟩
    have hlo : 0 < lo := by have := h1 f hfm; have := (hsize f hf).1; omega
    have hlo' : lo ≤ 128 := by
      rcases h2 with h2 | ⟨g, hg, h2⟩
      · omega
      · have := (hsize g ((hmem g).mp hg).1).2.1; omega
    have hhi : 256 ≤ hi := by
      rcases h5 with h5 | ⟨g, hg, h5⟩
      · omega
      · have := (hsize g ((hmem g).mp hg).1).2.2; omega
    obtain ⟨M, hM, -, -⟩ := A.1 ⟨hlo, by omega⟩
    refine ⟨M, hM, ?_, ?_⟩
    · intro n
      rw [has_ofObjs hM]
      constructor
      · rintro ⟨g, hg, rfl⟩
        obtain ⟨g1, g2⟩ := (hmem _).mp hg
        exact ⟨g2, (hall _).mpr ⟨_, g1, rfl⟩⟩
      · rintro ⟨hn, hn'⟩
        obtain ⟨f, hf, rfl⟩ := (hall n).mp hn'
        exact ⟨f, (hmem f).mpr ⟨hf, hn⟩, rfl⟩
    · intro n f hf
      have hb : Built M := ⟨umax, fs, hM⟩
      have he := (NMap.get_eq_some _ _ _).mp hf
      refine ⟨?_, built_entry hb he⟩
      rw [withFactoryObjs, Res.bind_eq_ok] at hM
      obtain ⟨s, -, hM⟩ := hM
      have : M = ⟨NMap.ofList (fs.map fun f => (f.network, f)), s⟩ := by simpa using hM.symm
      subst this
      have := NMap.mem_entries_ofList he
      rw [List.mem_map] at this
      obtain ⟨g, hg, e⟩ := this
      cases e
      exact ((hmem _).mp hg).1
  · intro hno
    have hemp : fs = [] := by
      rw [List.eq_nil_iff_forall_not_mem]
      intro f hf
      obtain ⟨g1, g2⟩ := (hmem f).mp hf
      exact hno ⟨f.network, g2, (hall _).mpr ⟨f, g1, rfl⟩⟩
    subst hemp
    have hlo : lo = 0 := by simpa using h2
    have hhi : hi = umax := by simpa using h5
    rw [A.2 (by omega), hlo, hhi]

/-- C38: only the set of requested networks counts, not order or repetition or unknown ones. -/
theorem C38_set (umax : Nat) (all : List Factory) (nets nets' : List Network)
    (h : ∀ f ∈ all, f.network ∈ nets ↔ f.network ∈ nets') : withNetworks umax all nets = withNetworks umax all nets' := by
  unfold withNetworks
  congr 1
  apply List.filter_congr
  intro f hf
  rw [Bool.eq_iff_iff]
  simpa using h f hf

/-- C38: `new` supports all built-in networks. -/
theorem C38_new (H : Hashes) (C : Secp.Curve) (Ed : Cardano.Ed) (ca eth btc : Bool) (umax : Nat) (hu : 256 ≤ umax)
    (hne : (ca || eth || btc) = true) :
    ∃ M, Manager.new umax (allNetworks H C Ed ca eth btc) = .ok M ∧ ∀ n, M.hasNetwork n = true ↔ n ∈ Network.all ca eth btc := by
  have e : Manager.new umax (allNetworks H C Ed ca eth btc) =
      withNetworks umax (allNetworks H C Ed ca eth btc) (Network.all ca eth btc) := by
    rw [Manager.new, withNetworks, List.filter_eq_self.mpr]
    have hc : (Cardano.factory H Ed).network = Cardano.coinType := rfl
    have he : (Ethereum.factory H C).network = Ethereum.coinType := rfl
    have hb : (Bitcoin.factory H C).network = Bitcoin.coinType := rfl
    cases ca <;> cases eth <;> cases btc <;> simp [Network.all, allNetworks, hc, he, hb]
  have hex : ∃ n ∈ Network.all ca eth btc, n ∈ Network.all ca eth btc := by
    cases ca <;> cases eth <;> cases btc <;> simp_all [Network.all]
  obtain ⟨M, h1, h2, -⟩ := (C38_with_networks H C Ed ca eth btc umax hu (Network.all ca eth btc)).1 hex
  exact ⟨M, e.trans h1, fun n => (h2 n).trans and_self_iff⟩

/-- C38: the seed size is 128 bits as soon as Bitcoin or Ethereum is among the networks, else 96. -/
theorem C38_seed_size (H : Hashes) (C : Secp.Curve) (Ed : Cardano.Ed) (ca eth btc : Bool) (umax : Nat)
    (nets : List Network) (M : Manager) (h : withNetworks umax (allNetworks H C Ed ca eth btc) nets = .ok M) :
    M.seedSize = if M.hasNetwork 0x80000000 ∨ M.hasNetwork 0x8000003c then 128 else 96 := by
  rw [withNetworks] at h
  generalize hfs : ((allNetworks H C Ed ca eth btc).filter fun f => nets.any fun n => decide (n = f.network)) = fs at h
  have hmem : ∀ f ∈ fs, f ∈ allNetworks H C Ed ca eth btc := by
    intro f hf; rw [← hfs] at hf; exact (List.mem_filter.mp hf).1
  obtain ⟨lo, hi, h1, h2, h3, h4, h5⟩ := C39_bounds_exist umax fs
  have A := C39_seed_size umax lo hi fs h1 h2 h3 h4 h5
  by_cases hb : 0 < lo ∧ lo < hi
  · obtain ⟨M', e, hs, -⟩ := A.1 hb
    rw [h] at e
    cases e
    rw [hs]
    split
    · rename_i hex
      rw [has_ofObjs h, has_ofObjs h] at hex
      have : ∃ f ∈ fs, f.seedSize.min = 128 := by
        rcases hex with ⟨f, hf, hn⟩ | ⟨f, hf, hn⟩ <;>
        · refine ⟨f, hf, ?_⟩
          rcases allNetworks_size (hmem f hf) with ⟨-, hn'⟩ | ⟨hs, -⟩
          · rw [hn] at hn'; exact absurd hn' (by decide)
          · rw [hs]
      obtain ⟨f, hf, hm⟩ := this
      have hge := h1 f hf
      rcases h2 with h2 | ⟨g, hg, h2⟩
      · omega
      · rcases allNetworks_size (hmem g hg) with ⟨e, -⟩ | ⟨e, -⟩ <;> rw [e] at h2 <;> simp only at h2 <;> omega
    · rename_i hno
      rw [has_ofObjs h, has_ofObjs h] at hno
      rcases h2 with h2 | ⟨g, hg, h2⟩
      · omega
      · rcases allNetworks_size (hmem g hg) with ⟨e, -⟩ | ⟨-, e | e⟩
        · rw [← h2, e]
        · exact absurd (.inr ⟨g, hg, e⟩) hno
        · exact absurd (.inl ⟨g, hg, e⟩) hno
  · rw [A.2 hb] at h; cases h

/-- Non-vacuity of C38: Ethereum and an unknown network, requested twice, from all three. -/
example (H : Hashes) (C : Secp.Curve) (Ed : Cardano.Ed) :
    ∃ M, withNetworks 65535 (allNetworks H C Ed true true true) [7, 0x8000003c, 0x8000003c] = .ok M ∧
      M.hasNetwork 0x8000003c = true ∧ M.hasNetwork 7 = false ∧ M.hasNetwork 0x80000717 = false := by
  obtain ⟨M, h1, h2, -⟩ := (C38_with_networks H C Ed true true true 65535 (by decide) [7, 0x8000003c, 0x8000003c]).1
    ⟨0x8000003c, by decide, by decide⟩
  refine ⟨M, h1, (h2 _).mpr (by decide), ?_, ?_⟩
  · rw [Bool.eq_false_iff, Ne, h2]; decide
  · rw [Bool.eq_false_iff, Ne, h2]; decide

/-! ### C40, C41, C46 -/

/-- C40: what opening does with any wallet: it succeeds exactly when every key the manager knows loads, and then the keychain
has exactly the common networks with those keys; an error or panic comes from loading a stored key, and the error names its
network. -/
theorem C40_open (E : Env) (it : Iter (Network × Bytes)) (M : Manager) (hM : Honest M) (blob : Bytes) (pw : Str)
    (c : Content) (h : Holds E blob pw c) :
    (AllLoad M c → ∃ kc, M.keychainFromData E it blob pw = .ok kc) ∧
    (∀ kc, M.keychainFromData E it blob pw = .ok kc → AllLoad M c ∧ Shows M c kc) ∧
    (∀ e, M.keychainFromData E it blob pw = .err e → ∃ n f d e', M.getKeyFactory n = some f ∧ c.keys n = some d ∧
      f.keyFromData d = .err e' ∧ e = .keyError n e') ∧
    (M.keychainFromData E it blob pw = .panic → ∃ n f d, M.getKeyFactory n = some f ∧ c.keys n = some d ∧
      f.keyFromData d = .panic) := by
  obtain ⟨w, hw, rfl⟩ := load_holds h
  obtain ⟨h1, h2, h3, h4⟩ := open_content (it := it) (M := M) hw
  exact ⟨h1, fun kc hkc => ⟨(h2 kc hkc).1, (h2 kc hkc).2 hM⟩, h3, h4⟩

/-- C40: a wallet made from a seed holds the seed and exactly the keys the manager's factories make from it. -/
theorem C40_from_seed (E : Env) (hA : AeadCorrect E.A) (itF : Iter (Network × Factory)) (itK : Iter (Network × Bytes))
    (M : Manager) (hM : Built M) (seed : Bytes) (pw : Str) (r r' : Rng) (blob : Bytes)
    (h : (M.keychainDataFromSeed E itF itK seed pw).run r = (.ok blob, r')) :
    seed.length = 64 ∧ ∃ keys, KeysFrom M seed keys ∧ Holds E blob pw ⟨some seed, none, none, keys⟩ := by
  obtain ⟨s, keys, hs, hk, hst⟩ := new_ok hM h
  have hs' := (seedFromData_ok E M ⟨some seed, none, none, keys⟩ s).mp hs
  have hl : seed.length = 64 := hs'.1
  have : s = seed := by simpa [seedOf, content] using hs'.2.symm
  subst this
  exact ⟨hl, keys.get, hk, store_holds hA hst⟩

theorem keysFrom_exists {M : Manager} {seed : Bytes}
    (hk : ∀ n f, M.getKeyFactory n = some f → ∃ d, f.keyDataFromSeed seed = .ok d) : ∃ keys, KeysFrom M seed keys := by
  have : ∀ n, ∃ v : Option Bytes, match M.getKeyFactory n with
      | none => v = none
      | some f => ∃ d, f.keyDataFromSeed seed = .ok d ∧ v = some d := by
    intro n
    cases hf : M.getKeyFactory n with
    | none => exact ⟨none, rfl⟩
    | some f =>
      obtain ⟨d, hd⟩ := hk n f hf
      exact ⟨some d, d, hd, rfl⟩
  exact ⟨fun n => (this n).choose, fun n => (this n).choose_spec⟩

/-- C40: it is made exactly when the seed has 64 bytes and every factory makes a key (the source permitting). -/
theorem C40_from_seed_succeeds (E : Env) (itF : Iter (Network × Factory)) (itK : Iter (Network × Bytes))
    (M : Manager) (seed : Bytes) (pw : Str) (r : Rng) (hr : Delivers r) (hl : seed.length = 64)
    (hk : ∀ n f, M.getKeyFactory n = some f → ∃ d, f.keyDataFromSeed seed = .ok d) :
    ∃ blob r', (M.keychainDataFromSeed E itF itK seed pw).run r = (.ok blob, r') := by
  have hs : M.seedFromData E (some seed) none none = .ok seed := if_pos hl
  obtain ⟨keys, hkeys⟩ := keysFrom_exists hk
  exact new_runs hs hkeys hr

/-- C40: a seed of any other size is refused, and no randomness is used. -/
theorem C40_seed_size (E : Env) (itF : Iter (Network × Factory)) (itK : Iter (Network × Bytes)) (M : Manager) (seed : Bytes)
    (pw : Str) (r : Rng) (hl : seed.length ≠ 64) :
    (M.keychainDataFromSeed E itF itK seed pw).run r = (.err (.invalidSeedSize seed.length), r) := by
  have : M.seedFromData E (some seed) none none = .err (.invalidSeedSize seed.length) := if_neg hl
  rw [keychainDataFromSeed, newKeychainData, this]
  rfl

/-- C40, together: what a manager makes from a seed, any manager with the same factories opens, to exactly its networks. -/
theorem C40_roundtrip (E : Env) (hA : AeadCorrect E.A) (itF : Iter (Network × Factory)) (itK it : Iter (Network × Bytes))
    (M M' : Manager) (hM : Built M) (hh : Honest M') (hsame : ∀ n, M'.getKeyFactory n = M.getKeyFactory n) (seed : Bytes)
    (pw : Str) (r r' : Rng) (blob : Bytes) (h : (M.keychainDataFromSeed E itF itK seed pw).run r = (.ok blob, r')) :
    (∀ kc, M'.keychainFromData E it blob pw = .ok kc → ∀ n, kc.hasNetwork n = M.hasNetwork n ∧
      ∀ f, M.getKeyFactory n = some f → ∃ d k, f.keyDataFromSeed seed = .ok d ∧ f.keyFromData d = .ok k ∧ Acts kc n k) ∧
    (∀ e, M'.keychainFromData E it blob pw = .err e → ∃ n f d e', M.getKeyFactory n = some f ∧
      f.keyDataFromSeed seed = .ok d ∧ f.keyFromData d = .err e' ∧ e = .keyError n e') ∧
    (M'.keychainFromData E it blob pw = .panic → ∃ n f d, M.getKeyFactory n = some f ∧
      f.keyDataFromSeed seed = .ok d ∧ f.keyFromData d = .panic) := by
  obtain ⟨-, keys, hk, hH⟩ := C40_from_seed E hA itF itK M hM seed pw r r' blob h
  obtain ⟨-, h2, h3, h4⟩ := C40_open E it M' hh blob pw _ hH
  have key : ∀ n f d, M'.getKeyFactory n = some f → keys n = some d → M.getKeyFactory n = some f ∧ f.keyDataFromSeed seed = .ok d := by
    intro n f d hf hd
    rw [hsame] at hf
    have := hk n
    rw [hf] at this
    obtain ⟨d', e, hd'⟩ := this
    rw [hd] at hd'; cases hd'
    exact ⟨hf, e⟩
  refine ⟨fun kc hkc n => ?_, fun e he => ?_, fun hp => ?_⟩
  · have hs := (h2 kc hkc).2 n
    rw [hsame] at hs
    have hkn := hk n
    cases hf : M.getKeyFactory n with
    | none =>
      rw [hf] at hs hkn
      refine ⟨?_, fun f hf' => nomatch hf'⟩
      rw [Manager.hasNetwork, show M.factories.get n = none from hf]
      exact hs
    | some f =>
      rw [hf] at hs hkn
      obtain ⟨d, hd, hkd⟩ := hkn
      dsimp only at hs
      rw [hkd] at hs
      obtain ⟨k, hk1, hk2⟩ := hs
      refine ⟨?_, fun f' hf' => ?_⟩
      · rw [Manager.hasNetwork, show M.factories.get n = some f from hf, hk2.1]; rfl
      · cases hf'
        exact ⟨d, k, hd, hk1, hk2⟩
  · obtain ⟨n, f, d, e', a, b, c, d'⟩ := h3 e he
    obtain ⟨x, y⟩ := key n f d a b
    exact ⟨n, f, d, e', x, y, c, d'⟩
  · obtain ⟨n, f, d, a, b, c⟩ := h4 hp
    obtain ⟨x, y⟩ := key n f d a b
    exact ⟨n, f, d, x, y, c⟩

/-- C41: a wallet made from a phrase holds the phrase, the language and exactly the keys for the phrase's seed. -/
theorem C41_from_mnemonic (E : Env) (hA : AeadCorrect E.A) (itF : Iter (Network × Factory)) (itK : Iter (Network × Bytes))
    (M : Manager) (hM : Built M) (text pw : Str) (lang : Option Language) (r r' : Rng) (blob : Bytes)
    (h : (M.keychainDataFromMnemonic E itF itK text pw lang).run r = (.ok blob, r')) :
    Phrase M.seedSize (lang.getD .english) text ∧
    ∃ keys, KeysFrom M (phraseSeed E.H text) keys ∧ Holds E blob pw ⟨none, some text, some (lang.getD .english), keys⟩ := by
  obtain ⟨s, keys, hs, hk, hst⟩ := new_ok hM h
  have hs' := (seedFromData_ok E M ⟨none, some text, some (lang.getD .english), keys⟩ s).mp hs
  obtain ⟨m, l, e1, e2, hp⟩ := hs'.1
  cases e1; cases e2
  have : s = phraseSeed E.H text := by simpa [seedOf, content] using hs'.2.symm
  subst this
  exact ⟨hp, keys.get, hk, store_holds hA hst⟩

/-- C41: and it is made whenever the text is such a phrase, every factory makes a key and the source delivers. -/
theorem C41_from_mnemonic_succeeds (E : Env) (itF : Iter (Network × Factory)) (itK : Iter (Network × Bytes))
    (M : Manager) (text pw : Str) (lang : Option Language) (r : Rng) (hr : Delivers r)
    (hp : Phrase M.seedSize (lang.getD .english) text)
    (hk : ∀ n f, M.getKeyFactory n = some f → ∃ d, f.keyDataFromSeed (phraseSeed E.H text) = .ok d) :
    ∃ blob r', (M.keychainDataFromMnemonic E itF itK text pw lang).run r = (.ok blob, r') := by
  have hs : M.seedFromData E none (some text) (some (lang.getD .english)) = .ok (phraseSeed E.H text) :=
    (seedFromData_ok E M ⟨none, some text, some (lang.getD .english), NMap.empty⟩ _).mpr
      ⟨⟨text, _, rfl, rfl, hp⟩, rfl⟩
  obtain ⟨keys, hkeys⟩ := keysFrom_exists hk
  exact new_runs hs hkeys hr

/-- What `retrieve_mnemonic` says about any wallet. -/
theorem C41_retrieve (E : Env) (blob : Bytes) (pw : Str) (c : Content) (h : Holds E blob pw c) :
    (∀ text l, c.mnemonic = some text → c.language = some l → retrieveMnemonic E blob pw = .ok (text, l)) ∧
    (c.mnemonic = none ∨ c.language = none → retrieveMnemonic E blob pw = .err .seedIsNotSaved) := by
  obtain ⟨w, hw, rfl⟩ := load_holds h
  unfold retrieveMnemonic
  rw [hw, Res.bind_ok]
  constructor
  · intro text l h1 h2
    rw [show w.mnemonic = some text from h1, show w.dictionary = some l from h2]; rfl
  · intro h
    cases h1 : w.mnemonic with
    | none => rfl
    | some m =>
      have : w.dictionary = none := by
        rcases h with h | h
        · rw [show w.mnemonic = none from h] at h1; cases h1
        · exact h
      rw [this]; rfl

/-- C41: the phrase comes back from a wallet made from it, and not from one made from a seed. -/
theorem C41_recoverable (E : Env) (hA : AeadCorrect E.A) (itF : Iter (Network × Factory)) (itK : Iter (Network × Bytes))
    (M : Manager) (hM : Built M) (pw : Str) (r r' : Rng) (blob : Bytes) :
    (∀ text lang, (M.keychainDataFromMnemonic E itF itK text pw lang).run r = (.ok blob, r') →
      retrieveMnemonic E blob pw = .ok (text, lang.getD .english)) ∧
    (∀ seed, (M.keychainDataFromSeed E itF itK seed pw).run r = (.ok blob, r') →
      retrieveMnemonic E blob pw = .err .seedIsNotSaved) := by
  constructor
  · intro text lang h
    obtain ⟨-, keys, -, hH⟩ := C41_from_mnemonic E hA itF itK M hM text pw lang r r' blob h
    exact (C41_retrieve E blob pw _ hH).1 _ _ rfl rfl
  · intro seed h
    obtain ⟨-, keys, -, hH⟩ := C40_from_seed E hA itF itK M hM seed pw r r' blob h
    exact (C41_retrieve E blob pw _ hH).2 (.inl rfl)

/-- `get_keys_data` lists exactly the stored keys, each once. -/
theorem C41_keys_data (E : Env) (it : Iter (Network × Bytes)) (blob : Bytes) (pw : Str) (c : Content) (h : Holds E blob pw c) :
    ∃ l, getKeysData E it blob pw = .ok l ∧ (l.map Prod.fst).Nodup ∧ ∀ n d, (n, d) ∈ l ↔ c.keys n = some d := by
  obtain ⟨w, hw, rfl⟩ := load_holds h
  refine ⟨it.order w.keys.entries, by rw [getKeysData, hw]; rfl, NMap.perm_nodup (it.perm _) w.keys.nodup, fun n d => ?_⟩
  rw [(it.perm _).mem_iff]
  exact (NMap.get_eq_some _ _ _).symm

/-! ### C42 -/

/-- C42: changing the password re-encrypts the same plaintext, whatever it is. -/
theorem C42_reencrypts (E : Env) (hA : AeadCorrect E.A) (blob blob' : Bytes) (old new : Str) (r r' : Rng)
    (h : (changePassword E blob old new).run r = (.ok blob', r')) :
    ∃ plain, Opens E blob old plain ∧ Opens E blob' new plain := by
  unfold changePassword at h
  rw [RM.run_bind, RM.run_lift] at h
  cases hd : Crypt.decrypt E.H E.A blob old with
  | err e => rw [hd] at h; cases h
  | panic => rw [hd] at h; cases h
  | ok plain =>
    rw [hd] at h
    exact ⟨plain, decrypt_opens.mpr hd, encrypt_opens hA (C33_length _ _ _ _ _ hd).2 h⟩

/-- C42: so every manager reads the new blob as it read the old one. -/
theorem C42_same_wallet (E : Env) (hA : AeadCorrect E.A) (blob blob' : Bytes) (old new : Str) (r r' : Rng)
    (h : (changePassword E blob old new).run r = (.ok blob', r')) :
    (∀ c, Holds E blob old c → Holds E blob' new c) ∧
    (∀ (M : Manager) it, M.keychainFromData E it blob' new = M.keychainFromData E it blob old) ∧
    retrieveMnemonic E blob' new = retrieveMnemonic E blob old ∧
    (∀ it, getKeysData E it blob' new = getKeysData E it blob old) := by
  obtain ⟨plain, h1, h2⟩ := C42_reencrypts E hA blob blob' old new r r' h
  have e : keychainDataFromBytes E blob' new = keychainDataFromBytes E blob old := by
    rw [keychainDataFromBytes, keychainDataFromBytes, decrypt_opens.mp h1, decrypt_opens.mp h2]
  refine ⟨?_, fun M it => ?_, ?_, fun it => ?_⟩
  · rintro c ⟨p, hp, hw⟩
    have : p = plain := by
      have a := decrypt_opens.mp hp
      rw [decrypt_opens.mp h1] at a
      cases a; rfl
    exact ⟨plain, h2, this ▸ hw⟩
  · rw [keychainFromData, keychainFromData, e]
  · rw [retrieveMnemonic, retrieveMnemonic, e]
  · rw [getKeysData, getKeysData, e]

/-- C42: when it succeeds, and its errors; wallet content is not looked at. -/
theorem C42_outcome (E : Env) (blob : Bytes) (old new : Str) (r : Rng) :
    (Delivers r → ((∃ plain, Opens E blob old plain) ↔ ∃ blob' r', (changePassword E blob old new).run r = (.ok blob', r'))) ∧
    (blob.length ≤ 60 → (changePassword E blob old new).run r = (.err .notEnoughData, r)) ∧
    (60 < blob.length → (¬ ∃ plain, Opens E blob old plain) → (changePassword E blob old new).run r = (.err .wrongPassword, r)) := by
  refine ⟨fun hr => ⟨?_, ?_⟩, fun hl => ?_, fun hl hno => ?_⟩
  · rintro ⟨plain, hp⟩
    unfold changePassword
    rw [RM.run_bind, RM.run_lift, decrypt_opens.mp hp]
    exact C32_succeeds E.H E.A plain new r hr.1 hr.2.1 hr.2.2
  · rintro ⟨blob', r', h⟩
    unfold changePassword at h
    rw [RM.run_bind, RM.run_lift] at h
    cases hd : Crypt.decrypt E.H E.A blob old with
    | err e => rw [hd] at h; cases h
    | panic => rw [hd] at h; cases h
    | ok plain => exact ⟨plain, decrypt_opens.mpr hd⟩
  · unfold changePassword
    rw [RM.run_bind, RM.run_lift, Crypt.decrypt_short _ _ _ _ hl]; rfl
  · unfold changePassword
    rw [RM.run_bind, RM.run_lift]
    cases hd : Crypt.decrypt E.H E.A blob old with
    | ok plain => exact absurd ⟨plain, decrypt_opens.mpr hd⟩ hno
    | panic => exact absurd hd (C33_no_panic _ _ _ _)
    | err e =>
      cases e with
      | notEnoughData => exact absurd ((C33_not_enough _ _ _ _).mp hd) (by omega)
      | decryptionFailed => rfl

/-! ### C43 -/

/-- C43: a successful addition. -/
theorem C43_added (E : Env) (hA : AeadCorrect E.A) (it : Iter (Network × Bytes)) (M : Manager) (blob blob' : Bytes) (pw : Str)
    (n : Network) (r r' : Rng) (h : (M.addNetwork E it blob pw n).run r = (.ok blob', r')) (c : Content)
    (hc : Holds E blob pw c) :
    ∃ f seed d, M.getKeyFactory n = some f ∧ c.keys n = none ∧ Usable M.seedSize c ∧ seedOf E.H c = some seed ∧
      f.keyDataFromSeed seed = .ok d ∧
      Holds E blob' pw { c with keys := fun m => if m = n then some d else c.keys m } := by
  obtain ⟨f, w, s, d, h1, h2, h3, h4, h5, h6⟩ := add_ok h
  obtain ⟨w', e, rfl⟩ := load_holds hc
  rw [h2] at e; cases e
  obtain ⟨hu, hs⟩ := (seedFromData_ok E M w s).mp h4
  refine ⟨f, s, d, h1, h3, hu, hs, h5, ?_⟩
  have := store_holds hA h6
  have e : content { w with keys := w.keys.insert n d } = { content w with keys := fun m => if m = n then some d else w.keys.get m } := by
    simp only [content, Content.mk.injEq, true_and]
    funext m
    rw [NMap.get_insert]
    by_cases hm : m = n
    · rw [if_pos hm, if_pos hm.symm]
    · rw [if_neg hm, if_neg (fun e => hm e.symm)]
  rw [e] at this
  exact this

/-- C43: when and how `add_network` fails or succeeds, in this order. -/
theorem C43_outcome (E : Env) (it : Iter (Network × Bytes)) (M : Manager) (blob : Bytes) (pw : Str) (n : Network) (r : Rng) :
    (M.getKeyFactory n = none → (M.addNetwork E it blob pw n).run r = (.err (.networkIsNotSupported n), r)) ∧
    ∀ f, M.getKeyFactory n = some f →
      (∀ it' e, getKeysData E it' blob pw = .err e → (M.addNetwork E it blob pw n).run r = (.err e, r)) ∧
      ∀ c, Holds E blob pw c →
        (c.keys n ≠ none → (M.addNetwork E it blob pw n).run r = (.err (.keyAlreadyExist n), r)) ∧
        (c.keys n = none →
          (c.seed = none → c.mnemonic = none ∨ c.language = none →
            (M.addNetwork E it blob pw n).run r = (.err .seedIsNotSaved, r)) ∧
          (∀ s, c.seed = some s → s.length ≠ 64 → (M.addNetwork E it blob pw n).run r = (.err (.invalidSeedSize s.length), r)) ∧
          (∀ m l, c.seed = none → c.mnemonic = some m → c.language = some l → ¬ Phrase M.seedSize l m →
            ∃ e, (M.addNetwork E it blob pw n).run r = (.err (.mnemonicError e), r)) ∧
          ∀ s, Usable M.seedSize c → seedOf E.H c = some s →
            (∀ e, f.keyDataFromSeed s = .err e → (M.addNetwork E it blob pw n).run r = (.err (.keyError n e), r)) ∧
            (f.keyDataFromSeed s = .panic → (M.addNetwork E it blob pw n).run r = (.panic, r)) ∧
            (∀ d, f.keyDataFromSeed s = .ok d → Delivers r →
              ∃ blob' r', (M.addNetwork E it blob pw n).run r = (.ok blob', r'))) := by
  refine ⟨fun h => ?_, fun f hf => ⟨fun it' e he => ?_, fun c hc => ?_⟩⟩
  · rw [addNetwork, show M.factories.get n = none from h]; rfl
  · rw [getKeysData, Res.map_eq_err] at he
    rw [addNetwork, show M.factories.get n = some f from hf, he]; rfl
  · obtain ⟨w, hw, rfl⟩ := load_holds hc
    have e : (M.addNetwork E it blob pw n) = (if (w.keys.get n).isSome then RM.lift (.err (.keyAlreadyExist n))
        else do
          let seed ← RM.lift (M.seedFromData E w.seed w.mnemonic w.dictionary)
          let keyData ← RM.lift ((f.keyDataFromSeed seed).mapErr (.keyError n))
          store E it { w with keys := w.keys.insert n keyData } pw) := by
      rw [addNetwork, show M.factories.get n = some f from hf, hw]; rfl
    rw [e]
    refine ⟨fun hn => ?_, fun hn => ?_⟩
    · have hn' : w.keys.get n ≠ none := hn
      rw [if_pos (Option.isSome_iff_ne_none.mpr hn')]; rfl
    · have hn' : w.keys.get n = none := hn
      rw [if_neg (by rw [hn']; simp)]
      refine ⟨fun h1 h2 => ?_, fun s h1 h2 => ?_, fun m l h1 h2 h3 h4 => ?_, fun s hu hs => ?_⟩
      · have : M.seedFromData E w.seed w.mnemonic w.dictionary = .err .seedIsNotSaved := by
          rw [show w.seed = none from h1]
          unfold seedFromData
          cases h3 : w.mnemonic with
          | none => rfl
          | some m =>
            have : w.dictionary = none := by
              rcases h2 with h2 | h2
              · rw [show w.mnemonic = none from h2] at h3; cases h3
              · exact h2
            rw [this]; rfl
        rw [this]; rfl
      · have : M.seedFromData E w.seed w.mnemonic w.dictionary = .err (.invalidSeedSize s.length) := by
          rw [show w.seed = some s from h1]; exact if_neg h2
        rw [this]; rfl
      · have hne : ∀ s, M.seedFromData E w.seed w.mnemonic w.dictionary ≠ .ok s := by
          intro s hs
          have := ((seedFromData_ok E M w s).mp hs).1
          unfold Usable at this
          rw [h1] at this
          obtain ⟨m', l', e1, e2, hp⟩ := this
          rw [h2] at e1; rw [h3] at e2
          cases e1; cases e2
          exact h4 hp
        have e : M.seedFromData E w.seed w.mnemonic w.dictionary =
            (Mnemonic.seedFromMnemonic E.H m [] M.seedSize l).mapErr .mnemonicError := by
          rw [show w.seed = none from h1, show w.mnemonic = some m from h2, show w.dictionary = some l from h3]; rfl
        cases hs : Mnemonic.seedFromMnemonic E.H m [] M.seedSize l with
        | ok s => rw [hs] at e; exact absurd e (hne s)
        | panic => exact absurd hs (C13_outcome E.H [] M.seedSize l m).2.2
        | err x => rw [e, hs]; exact ⟨x, rfl⟩
      · rw [(seedFromData_ok E M w s).mpr ⟨hu, hs⟩]
        refine ⟨fun e he => ?_, fun hp => ?_, fun d hd hr => ?_⟩
        · simp only [RM.lift_ok_bind, he, Res.mapErr]; rfl
        · simp only [RM.lift_ok_bind, hp, Res.mapErr]; rfl
        · simp only [RM.lift_ok_bind, hd, Res.mapErr]
          exact store_runs E it _ pw hr

/-- C43: the errors of reading. -/
theorem C43_read_errors (E : Env) (it : Iter (Network × Bytes)) (blob : Bytes) (pw : Str) :
    (getKeysData E it blob pw = .err .notEnoughData ↔ blob.length ≤ 60) ∧
    (getKeysData E it blob pw = .err .wrongPassword ↔ 60 < blob.length ∧ ¬ ∃ plain, Opens E blob pw plain) ∧
    (∀ e, getKeysData E it blob pw = .err e → e = .notEnoughData ∨ e = .wrongPassword ∨ e = .dataError) ∧
    getKeysData E it blob pw ≠ .panic := by
  have hop : (∃ plain, Opens E blob pw plain) ↔ ∃ plain, Crypt.decrypt E.H E.A blob pw = .ok plain := by
    simp only [decrypt_opens]
  rw [hop, getKeysData, keychainDataFromBytes]
  have hne := C33_not_enough E.H E.A blob pw
  have hnp := C33_no_panic E.H E.A blob pw
  rw [← hne]
  cases hd : Crypt.decrypt E.H E.A blob pw with
  | panic => exact absurd hd hnp
  | ok plain =>
    have : ¬ blob.length ≤ 60 := by rw [← hne, hd]; simp
    cases hv : (Data.Versioned.fromBytes E.D plain).bind (Data.Versioned.getData E.D) <;>
      simp [hv]
  | err e =>
    cases e with
    | notEnoughData =>
      have : blob.length ≤ 60 := hne.mp hd
      simp [Error.ofCrypt, this]
    | decryptionFailed =>
      have : ¬ blob.length ≤ 60 := by rw [← hne, hd]; simp
      simp [Error.ofCrypt]
      omega

/-- C62: reading succeeds on exactly the wallets that hold something, in the sense of the format, and every way of reading fails
with a data error on exactly those texts that open but are no wallet. -/
theorem C62_manager (E : Env) (it : Iter (Network × Bytes)) (M : Manager) (blob : Bytes) (pw : Str) :
    ((∃ l, getKeysData E it blob pw = .ok l) ↔ ∃ c, Holds E blob pw c) ∧
    (getKeysData E it blob pw = .err .dataError ↔ ∃ plain, Opens E blob pw plain ∧ ¬ ∃ c, IsWallet E.D c plain) ∧
    (retrieveMnemonic E blob pw = .err .dataError ↔ ∃ plain, Opens E blob pw plain ∧ ¬ ∃ c, IsWallet E.D c plain) ∧
    (M.keychainFromData E it blob pw = .err .dataError ↔ ∃ plain, Opens E blob pw plain ∧ ¬ ∃ c, IsWallet E.D c plain) := by
  have hdata : keychainDataFromBytes E blob pw = .err .dataError ↔
      ∃ plain, Opens E blob pw plain ∧ ¬ ∃ c, IsWallet E.D c plain := by
    simp only [decrypt_opens, ← read_wallet]
    rw [keychainDataFromBytes]
    cases hd : Crypt.decrypt E.H E.A blob pw with
    | panic => exact absurd hd (C33_no_panic E.H E.A blob pw)
    | ok plain =>
      simp only [Res.mapErr, Res.bind_ok, Res.ok.injEq, exists_eq_left']
      cases hv : (Data.Versioned.fromBytes E.D plain).bind (Data.Versioned.getData E.D) <;> simp [Res.okOr]
    | err e => cases e <;> simp [Res.mapErr, Res.bind_err, Error.ofCrypt]
  refine ⟨?_, ?_, ?_, ?_⟩
  · simp only [getKeysData, ← loads_iff]
    cases keychainDataFromBytes E blob pw <;> simp [Res.map]
  · rw [← hdata, getKeysData]
    cases keychainDataFromBytes E blob pw <;> simp [Res.map]
  · rw [← hdata, retrieveMnemonic]
    cases keychainDataFromBytes E blob pw with
    | ok w => cases hm : w.mnemonic <;> cases hl : w.dictionary <;> simp [Res.okOr, hm, hl]
    | err e => simp [Res.bind_err]
    | panic => simp [Res.bind_panic]
  · rw [← hdata]
    cases hw : keychainDataFromBytes E blob pw with
    | ok w =>
      simp only [reduceCtorEq, iff_false]
      intro h
      obtain ⟨n, f, d, e', -, -, -, he⟩ := (open_content (it := it) (M := M) hw).2.2.1 _ h
      cases he
    | err e => simp [keychainFromData, hw, Res.bind_err]
    | panic => simp [keychainFromData, hw, Res.bind_panic]

/-! ### C36, in the manager -/

/-- C36: a version 1 wallet opens, but gives no phrase and cannot be extended. -/
theorem C36_manager (E : Env) (it : Iter (Network × Bytes)) (M : Manager) (blob plain inner : Bytes) (pw : Str)
    (keys : List (Network × Bytes)) (ho : Opens E blob pw plain) (he : AnyEnvelope E.D 1 inner plain) (hi : AnyV1 E.D keys inner) :
    Holds E blob pw ⟨none, none, none, fun n => lastOf n keys⟩ ∧
    retrieveMnemonic E blob pw = .err .seedIsNotSaved ∧
    ∀ n, M.hasNetwork n = true → lastOf n keys = none →
      ∀ r, (M.addNetwork E it blob pw n).run r = (.err .seedIsNotSaved, r) := by
  have hH : Holds E blob pw ⟨none, none, none, fun n => lastOf n keys⟩ :=
    ⟨plain, ho, inner, keys, fun _ => rfl, .inr ⟨he, hi, rfl, rfl, rfl⟩⟩
  refine ⟨hH, (C41_retrieve E blob pw _ hH).2 (.inl rfl), fun n hn hl r => ?_⟩
  obtain ⟨f, hf⟩ := Option.isSome_iff_exists.mp hn
  exact (((C43_outcome E it M blob pw n r).2 f hf).2 _ hH).2 hl |>.1 rfl (.inl rfl)

/-! ### C44 -/

/-- C44: over any history of password changes and additions, by any managers: seed, phrase and language stay; every key stays
as it was; the networks are the old ones and the added ones; an added key is what the factory that was used makes from the
wallet's seed. -/
theorem C44_history (E : Env) (hA : AeadCorrect E.A) (b0 b : Bytes) (p0 p : Str) (evs : List Event) (c0 : Content)
    (h0 : Holds E b0 p0 c0) (h : Run E (b0, p0) evs (b, p)) :
    ∃ c, Holds E b p c ∧ c.seed = c0.seed ∧ c.mnemonic = c0.mnemonic ∧ c.language = c0.language ∧
      (∀ n d, c0.keys n = some d → c.keys n = some d) ∧
      (∀ n, c.keys n ≠ none ↔ c0.keys n ≠ none ∨ ∃ M, Event.added M n ∈ evs) ∧
      (∀ M n, Event.added M n ∈ evs → ∃ f seed d, M.getKeyFactory n = some f ∧ seedOf E.H c0 = some seed ∧
        f.keyDataFromSeed seed = .ok d ∧ c.keys n = some d) := by
  generalize hs : (b0, p0) = s at h
  generalize ht : (b, p) = t at h
  induction h generalizing b p with
  | nil =>
    subst hs
    cases ht
    exact ⟨c0, h0, rfl, rfl, rfl, fun _ _ h => h, by simp, by simp⟩
  | change evs b1 p1 b2 p2 r r' hrun hop ih =>
    subst hs
    cases ht
    obtain ⟨c, hc, e1, e2, e3, k1, k2, k3⟩ := ih b1 p1 rfl
    refine ⟨c, (C42_same_wallet E hA _ _ _ _ _ _ hop).1 c hc, e1, e2, e3, k1, ?_, ?_⟩
    · intro n; rw [k2]; simp
    · intro M n hm
      exact k3 M n (by simpa using hm)
  | add evs b1 p1 b2 M it n r r' hrun hop ih =>
    subst hs
    cases ht
    obtain ⟨c, hc, e1, e2, e3, k1, k2, k3⟩ := ih b1 p1 rfl
    obtain ⟨f, seed, d, hf, hnone, -, hseed, hd, hH⟩ := C43_added E hA it M b1 b2 p1 n r r' hop c hc
    have hseed' : seedOf E.H c0 = some seed := by
      rw [← hseed]; unfold seedOf; rw [e1, e2]
    refine ⟨_, hH, e1, e2, e3, ?_, ?_, ?_⟩
    · intro m d' hm
      have := k1 m d' hm
      dsimp only
      rw [if_neg]
      · exact this
      · rintro rfl; rw [hnone] at this; cases this
    · intro m
      dsimp only
      by_cases hm : m = n
      · subst hm
        rw [if_pos rfl]
        simp only [ne_eq, reduceCtorEq, not_false_eq_true, true_iff]
        right; exact ⟨M, by simp⟩
      · rw [if_neg hm, k2]
        constructor
        · rintro (h | ⟨M', h⟩)
          · exact .inl h
          · exact .inr ⟨M', by simp [h]⟩
        · rintro (h | ⟨M', h⟩)
          · exact .inl h
          · rw [List.mem_append] at h
            rcases h with h | h
            · exact .inr ⟨M', h⟩
            · simp only [List.mem_singleton, Event.added.injEq] at h
              exact absurd h.2 hm
    · intro M' m hm
      rw [List.mem_append] at hm
      rcases hm with hm | hm
      · obtain ⟨f', s', d', x1, x2, x3, x4⟩ := k3 M' m hm
        refine ⟨f', s', d', x1, x2, x3, ?_⟩
        dsimp only
        rw [if_neg]
        · exact x4
        · rintro rfl; rw [hnone] at x4; cases x4
      · simp only [List.mem_singleton, Event.added.injEq] at hm
        obtain ⟨rfl, rfl⟩ := hm
        exact ⟨f, seed, d, hf, hseed', hd, if_pos rfl⟩

/-- C44, from the creation on: the wallet has exactly the creator's networks and the added ones, every key being the one its
maker's factory derives from the original seed. -/
theorem C44_created (E : Env) (hA : AeadCorrect E.A) (itF : Iter (Network × Factory)) (itK : Iter (Network × Bytes))
    (M : Manager) (hM : Built M) (r r' : Rng) (b0 b : Bytes) (p0 p : Str) (evs : List Event) (h : Run E (b0, p0) evs (b, p)) :
    (∀ seed, (M.keychainDataFromSeed E itF itK seed p0).run r = (.ok b0, r') →
      ∃ keys, Holds E b p ⟨some seed, none, none, keys⟩ ∧ ∀ n,
        (keys n ≠ none ↔ M.hasNetwork n = true ∨ ∃ M', Event.added M' n ∈ evs) ∧
        ∀ M' f, M' = M ∨ Event.added M' n ∈ evs → M'.getKeyFactory n = some f →
          ∃ d, f.keyDataFromSeed seed = .ok d ∧ keys n = some d) ∧
    (∀ text lang, (M.keychainDataFromMnemonic E itF itK text p0 lang).run r = (.ok b0, r') →
      ∃ keys, Holds E b p ⟨none, some text, some (lang.getD .english), keys⟩ ∧ ∀ n,
        (keys n ≠ none ↔ M.hasNetwork n = true ∨ ∃ M', Event.added M' n ∈ evs) ∧
        ∀ M' f, M' = M ∨ Event.added M' n ∈ evs → M'.getKeyFactory n = some f →
          ∃ d, f.keyDataFromSeed (phraseSeed E.H text) = .ok d ∧ keys n = some d) := by
  have main : ∀ (c0 : Content) (seed : Bytes), Holds E b0 p0 c0 → seedOf E.H c0 = some seed → KeysFrom M seed c0.keys →
      ∃ c, Holds E b p c ∧ c.seed = c0.seed ∧ c.mnemonic = c0.mnemonic ∧ c.language = c0.language ∧ ∀ n,
        (c.keys n ≠ none ↔ M.hasNetwork n = true ∨ ∃ M', Event.added M' n ∈ evs) ∧
        ∀ M' f, M' = M ∨ Event.added M' n ∈ evs → M'.getKeyFactory n = some f →
          ∃ d, f.keyDataFromSeed seed = .ok d ∧ c.keys n = some d := by
    intro c0 seed h0 hseed hk
    obtain ⟨c, hc, e1, e2, e3, k1, k2, k3⟩ := C44_history E hA b0 b p0 p evs c0 h0 h
    refine ⟨c, hc, e1, e2, e3, fun n => ⟨?_, ?_⟩⟩
    · rw [k2]
      have : c0.keys n ≠ none ↔ M.hasNetwork n = true := by
        have := hk n
        unfold Manager.hasNetwork
        change _ ↔ (M.getKeyFactory n).isSome = true
        cases hf : M.getKeyFactory n with
        | none => rw [hf] at this; simp [this]
        | some f => rw [hf] at this; obtain ⟨d, -, e⟩ := this; simp [e]
      rw [this]
    · rintro M' f (rfl | hm) hf
      · have := hk n
        rw [hf] at this
        obtain ⟨d, hd, e⟩ := this
        exact ⟨d, hd, k1 n d e⟩
      · obtain ⟨f', s', d, a1, a2, a3, a4⟩ := k3 M' n hm
        rw [hf] at a1; rw [hseed] at a2
        cases a1; cases a2
        exact ⟨d, a3, a4⟩
  constructor
  · intro seed hcr
    obtain ⟨-, keys, hk, hH⟩ := C40_from_seed E hA itF itK M hM seed p0 r r' b0 hcr
    obtain ⟨⟨a1, a2, a3, a4⟩, hc, e1, e2, e3, H⟩ := main _ seed hH rfl hk
    dsimp only at e1 e2 e3
    subst e1 e2 e3
    exact ⟨a4, hc, H⟩
  · intro text lang hcr
    obtain ⟨-, keys, hk, hH⟩ := C41_from_mnemonic E hA itF itK M hM text p0 lang r r' b0 hcr
    obtain ⟨⟨a1, a2, a3, a4⟩, hc, e1, e2, e3, H⟩ := main _ (phraseSeed E.H text) hH rfl hk
    dsimp only at e1 e2 e3
    subst e1 e2 e3
    exact ⟨a4, hc, H⟩

/-- C44: no network is ever added twice, whoever adds. -/
theorem C44_added_once (E : Env) (hA : AeadCorrect E.A) (b0 b : Bytes) (p0 p : Str) (evs : List Event) (c0 : Content)
    (h0 : Holds E b0 p0 c0) (h : Run E (b0, p0) evs (b, p)) (it : Iter (Network × Bytes)) (M M' : Manager) (n : Network)
    (hm : Event.added M n ∈ evs ∨ c0.keys n ≠ none) (hn : M'.hasNetwork n = true) (r : Rng) :
    (M'.addNetwork E it b p n).run r = (.err (.keyAlreadyExist n), r) := by
  obtain ⟨c, hc, -, -, -, -, k2, -⟩ := C44_history E hA b0 b p0 p evs c0 h0 h
  obtain ⟨f, hf⟩ := Option.isSome_iff_exists.mp hn
  refine (((C43_outcome E it M' b p n r).2 f hf).2 c hc).1 ((k2 n).mpr ?_)
  rcases hm with hm | hm
  · exact .inr ⟨M, hm⟩
  · exact .inl hm

/-! ### C45 -/

/-- C45: dispatch. -/
theorem C45_dispatch (kc : Keychain) (n : Network) :
    (kc.hasNetwork n = true → ∃ k, Acts kc n k) ∧
    (kc.hasNetwork n = false → ∀ path, kc.pubKey n path = .err (.keyDoesNotExist n) ∧
      (∀ m, kc.sign n m path = .err (.keyDoesNotExist n)) ∧ ∀ m s, kc.verify n m s path = .err (.keyDoesNotExist n)) := by
  constructor
  · intro h
    obtain ⟨k, hk⟩ := Option.isSome_iff_exists.mp h
    exact ⟨k, acts_of_get hk⟩
  · intro h
    have hn : kc.keys.get n = none := by
      rw [← Option.not_isSome_iff_eq_none]
      unfold Keychain.hasNetwork at h
      rw [h]; simp
    intro path
    refine ⟨?_, fun m => ?_, fun m s => ?_⟩ <;> simp [Keychain.pubKey, Keychain.sign, Keychain.verify, Keychain.pk, hn]

/-- C45: a keychain made from any keys acts on each network with the last key of that network. -/
theorem C45_new (before after : List KeyObj) (k : KeyObj) (h : ∀ k' ∈ after, k'.network ≠ k.network) :
    Acts (Keychain.new (before ++ k :: after)) k.network k := by
  apply acts_of_get
  rw [Keychain.new, NMap.get_ofList]
  have h' : (after.map fun k => (k.network, k)).filter (fun e => decide (e.1 = k.network)) = [] := by
    rw [List.filter_eq_nil_iff]
    intro e he
    rw [List.mem_map] at he
    obtain ⟨k', hk', rfl⟩ := he
    simpa using h k' hk'
  simp [lastOf, List.filter_append, h']

/-- C45: which networks it has, and `networks()` lists each of them once. -/
theorem C45_networks (it : Iter (Network × KeyObj)) (ks : List KeyObj) (kc : Keychain) :
    (∀ n, (Keychain.new ks).hasNetwork n = true ↔ ∃ k ∈ ks, k.network = n) ∧
    (kc.networks it).Nodup ∧ ∀ n, n ∈ kc.networks it ↔ kc.hasNetwork n = true := by
  refine ⟨fun n => ?_, NMap.perm_nodup (it.perm _) kc.keys.nodup, fun n => ?_⟩
  · rw [Keychain.hasNetwork, Keychain.new, NMap.get_ofList_isSome]
    constructor
    · rintro ⟨k, hk⟩
      rw [List.mem_map] at hk
      obtain ⟨k', h1, h2⟩ := hk
      cases h2
      exact ⟨k, h1, rfl⟩
    · rintro ⟨k, hk, rfl⟩
      exact ⟨k, List.mem_map.mpr ⟨k, hk, rfl⟩⟩
  · rw [Keychain.networks, List.mem_map, Keychain.hasNetwork, Option.isSome_iff_exists]
    constructor
    · rintro ⟨⟨n', k⟩, he, rfl⟩
      exact ⟨k, (NMap.get_eq_some _ _ _).mpr ((it.perm _).mem_iff.mp he)⟩
    · rintro ⟨k, hk⟩
      exact ⟨(n, k), (it.perm _).mem_iff.mpr ((NMap.get_eq_some _ _ _).mp hk), rfl⟩

/-! ### C46, C47, C48 -/

/-- C46: a manager that lacks networks opens exactly the common ones, and its operations keep the keys of the others. -/
theorem C46_fewer_networks (E : Env) (hA : AeadCorrect E.A) (it : Iter (Network × Bytes)) (M : Manager) (hh : Honest M)
    (blob : Bytes) (pw : Str) (c : Content) (hc : Holds E blob pw c) (n : Network) (d : Bytes) (hd : c.keys n = some d) :
    (∀ kc, M.keychainFromData E it blob pw = .ok kc → kc.hasNetwork n = M.hasNetwork n) ∧
    (∀ new r r' blob', (changePassword E blob pw new).run r = (.ok blob', r') →
      ∃ c', Holds E blob' new c' ∧ c'.keys n = some d) ∧
    (∀ m r r' blob', (M.addNetwork E it blob pw m).run r = (.ok blob', r') →
      ∃ c', Holds E blob' pw c' ∧ c'.keys n = some d) := by
  refine ⟨fun kc hkc => ?_, fun new r r' blob' h => ?_, fun m r r' blob' h => ?_⟩
  · have hs := ((C40_open E it M hh blob pw c hc).2.1 kc hkc).2 n
    rw [hd] at hs
    cases hf : M.getKeyFactory n with
    | none =>
      rw [hf] at hs
      rw [Manager.hasNetwork, show M.factories.get n = none from hf]; exact hs
    | some f =>
      rw [hf] at hs
      obtain ⟨k, -, hk⟩ := hs
      rw [Manager.hasNetwork, show M.factories.get n = some f from hf, hk.1]; rfl
  · exact ⟨c, (C42_same_wallet E hA _ _ _ _ _ _ h).1 c hc, hd⟩
  · obtain ⟨f, seed, d', -, hn, -, -, -, hH⟩ := C43_added E hA it M blob blob' pw m r r' h c hc
    refine ⟨_, hH, ?_⟩
    dsimp only
    rw [if_neg]
    · exact hd
    · rintro rfl; rw [hn] at hd; cases hd

/-- C47: same seed, same keys. -/
theorem C47_seed (E : Env) (hA : AeadCorrect E.A) (itF itF' : Iter (Network × Factory)) (itK itK' it it' : Iter (Network × Bytes))
    (M M' : Manager) (hM : Built M) (hM' : Built M') (n : Network) (f : Factory) (hf : M.getKeyFactory n = some f)
    (hf' : M'.getKeyFactory n = some f) (seed : Bytes) (pw pw' : Str) (r r1 r' r1' : Rng) (blob blob' : Bytes)
    (h : (M.keychainDataFromSeed E itF itK seed pw).run r = (.ok blob, r1))
    (h' : (M'.keychainDataFromSeed E itF' itK' seed pw').run r' = (.ok blob', r1')) :
    ∃ d l l', getKeysData E it blob pw = .ok l ∧ getKeysData E it' blob' pw' = .ok l' ∧ (n, d) ∈ l ∧ (n, d) ∈ l' := by
  obtain ⟨-, keys, hk, hH⟩ := C40_from_seed E hA itF itK M hM seed pw r r1 blob h
  obtain ⟨-, keys', hk', hH'⟩ := C40_from_seed E hA itF' itK' M' hM' seed pw' r' r1' blob' h'
  obtain ⟨l, e, -, hl⟩ := C41_keys_data E it blob pw _ hH
  obtain ⟨l', e', -, hl'⟩ := C41_keys_data E it' blob' pw' _ hH'
  have a := hk n
  have a' := hk' n
  rw [hf] at a; rw [hf'] at a'
  obtain ⟨d, hd, a⟩ := a
  obtain ⟨d', hd', a'⟩ := a'
  rw [hd] at hd'; cases hd'
  exact ⟨d, l, l', e, e', (hl n d).mpr a, (hl' n d).mpr a'⟩

/-- C47: same phrase and language, same keys; the managers' seed sizes then agree on the number of words. -/
theorem C47_mnemonic (E : Env) (hA : AeadCorrect E.A) (itF itF' : Iter (Network × Factory))
    (itK itK' it it' : Iter (Network × Bytes)) (M M' : Manager) (hM : Built M) (hM' : Built M') (n : Network) (f : Factory)
    (hf : M.getKeyFactory n = some f) (hf' : M'.getKeyFactory n = some f) (text : Str) (lang lang' : Option Language)
    (pw pw' : Str) (r r1 r' r1' : Rng) (blob blob' : Bytes)
    (h : (M.keychainDataFromMnemonic E itF itK text pw lang).run r = (.ok blob, r1))
    (h' : (M'.keychainDataFromMnemonic E itF' itK' text pw' lang').run r' = (.ok blob', r1')) :
    ∃ d l l', getKeysData E it blob pw = .ok l ∧ getKeysData E it' blob' pw' = .ok l' ∧ (n, d) ∈ l ∧ (n, d) ∈ l' := by
  obtain ⟨-, keys, hk, hH⟩ := C41_from_mnemonic E hA itF itK M hM text pw lang r r1 blob h
  obtain ⟨-, keys', hk', hH'⟩ := C41_from_mnemonic E hA itF' itK' M' hM' text pw' lang' r' r1' blob' h'
  obtain ⟨l, e, -, hl⟩ := C41_keys_data E it blob pw _ hH
  obtain ⟨l', e', -, hl'⟩ := C41_keys_data E it' blob' pw' _ hH'
  have a := hk n
  have a' := hk' n
  rw [hf] at a; rw [hf'] at a'
  obtain ⟨d, hd, a⟩ := a
  obtain ⟨d', hd', a'⟩ := a'
  rw [hd] at hd'; cases hd'
  exact ⟨d, l, l', e, e', (hl n d).mpr a, (hl' n d).mpr a'⟩

theorem delivers_of_store {E : Env} {it : Iter (Network × Bytes)} {w : Data.WalletV2} {pw : Str} {r r' : Rng} {blob : Bytes}
    (h : (store E it w pw).run r = (.ok blob, r')) : Delivers r := by
  unfold store at h
  rw [Crypt.encrypt_eq] at h
  simp only [RM.run] at h
  rcases h1 : r.fill 32 with ⟨_ | salt, r1⟩
  · rw [h1] at h; cases h
  rw [h1] at h
  rcases h2 : r1.fill 12 with ⟨_ | nonce, r2⟩
  · simp only [h2] at h; cases h
  obtain ⟨p1, f1, -, rfl⟩ := Crypt.fill_ok h1
  obtain ⟨p2, f2, -, rfl⟩ := Crypt.fill_ok h2
  exact ⟨p1, f1, f2⟩

theorem keysFrom_unique {M : Manager} {s : Bytes} {k k' : Network → Option Bytes} (h : KeysFrom M s k) (h' : KeysFrom M s k') :
    k = k' := by
  funext n
  have a := h n
  have a' := h' n
  cases hf : M.getKeyFactory n with
  | none => rw [hf] at a a'; exact a.trans a'.symm
  | some f =>
    rw [hf] at a a'
    obtain ⟨d, hd, a⟩ := a
    obtain ⟨d', hd', a'⟩ := a'
    rw [hd] at hd'; cases hd'
    rw [a, a']

/-- C48: creation. -/
theorem C48_create (E : Env) (hA : AeadCorrect E.A) (itF itF' : Iter (Network × Factory)) (itK itK' : Iter (Network × Bytes))
    (M : Manager) (hM : Built M) (pw : Str) (r r1 : Rng) (blob : Bytes) :
    (∀ seed, (M.keychainDataFromSeed E itF itK seed pw).run r = (.ok blob, r1) →
      ∃ blob' r1' c, (M.keychainDataFromSeed E itF' itK' seed pw).run r = (.ok blob', r1') ∧ Holds E blob pw c ∧ Holds E blob' pw c) ∧
    (∀ text lang, (M.keychainDataFromMnemonic E itF itK text pw lang).run r = (.ok blob, r1) →
      ∃ blob' r1' c, (M.keychainDataFromMnemonic E itF' itK' text pw lang).run r = (.ok blob', r1') ∧ Holds E blob pw c ∧
        Holds E blob' pw c) := by
  constructor
  · intro seed h
    obtain ⟨s, keys, hs, hk, hst⟩ := new_ok hM h
    obtain ⟨blob', r1', h'⟩ := new_runs (itF := itF') (itK := itK') (pw := pw) hs hk (delivers_of_store hst)
    obtain ⟨s', keys', hs', hk', hst'⟩ := new_ok hM h'
    rw [hs] at hs'; cases hs'
    refine ⟨blob', r1', _, h', store_holds hA hst, ?_⟩
    have := store_holds hA hst'
    simp only [content] at this ⊢
    rwa [keysFrom_unique hk hk']
  · intro text lang h
    obtain ⟨s, keys, hs, hk, hst⟩ := new_ok hM h
    obtain ⟨blob', r1', h'⟩ := new_runs (itF := itF') (itK := itK') (pw := pw) hs hk (delivers_of_store hst)
    obtain ⟨s', keys', hs', hk', hst'⟩ := new_ok hM h'
    rw [hs] at hs'; cases hs'
    refine ⟨blob', r1', _, h', store_holds hA hst, ?_⟩
    have := store_holds hA hst'
    simp only [content] at this ⊢
    rwa [keysFrom_unique hk hk']

/-- C48: opening and adding, for any blob at all. -/
theorem C48_open_add (E : Env) (hA : AeadCorrect E.A) (it it' : Iter (Network × Bytes)) (M : Manager) (hh : Honest M)
    (blob : Bytes) (pw : Str) :
    (∀ kc, M.keychainFromData E it blob pw = .ok kc → ∃ kc', M.keychainFromData E it' blob pw = .ok kc' ∧
      ∀ n, kc'.hasNetwork n = kc.hasNetwork n ∧ ∀ path, kc'.pubKey n path = kc.pubKey n path ∧
        (∀ m, kc'.sign n m path = kc.sign n m path) ∧ ∀ m s, kc'.verify n m s path = kc.verify n m s path) ∧
    (∀ n r r1 blob', (M.addNetwork E it blob pw n).run r = (.ok blob', r1) →
      ∃ blob'' r1' c, (M.addNetwork E it' blob pw n).run r = (.ok blob'', r1') ∧ Holds E blob' pw c ∧ Holds E blob'' pw c) := by
  constructor
  · intro kc h
    have hw : ∃ w, keychainDataFromBytes E blob pw = .ok w := by
      rw [keychainFromData, Res.bind_eq_ok] at h
      obtain ⟨w, hw, -⟩ := h
      exact ⟨w, hw⟩
    obtain ⟨w, hw⟩ := hw
    obtain ⟨-, h2, -, -⟩ := open_content (it := it) (M := M) hw
    obtain ⟨h1', h2', -, -⟩ := open_content (it := it') (M := M) hw
    obtain ⟨hall, hs⟩ := h2 kc h
    obtain ⟨kc', h'⟩ := h1' hall
    have hs := hs hh
    have hs' := (h2' kc' h').2 hh
    refine ⟨kc', h', fun n => ?_⟩
    have a := hs n
    have a' := hs' n
    have absent : kc.hasNetwork n = false → kc'.hasNetwork n = false → kc'.hasNetwork n = kc.hasNetwork n ∧
        ∀ path, kc'.pubKey n path = kc.pubKey n path ∧
        (∀ m, kc'.sign n m path = kc.sign n m path) ∧ ∀ m s, kc'.verify n m s path = kc.verify n m s path := by
      intro e e'
      refine ⟨by rw [e, e'], fun path => ?_⟩
      obtain ⟨x1, x2, x3⟩ := (C45_dispatch kc n).2 e path
      obtain ⟨y1, y2, y3⟩ := (C45_dispatch kc' n).2 e' path
      exact ⟨by rw [x1, y1], fun m => by rw [x2, y2], fun m s => by rw [x3, y3]⟩
    cases hf : M.getKeyFactory n with
    | none =>
      rw [hf] at a a'
      exact absent a a'
    | some f =>
      cases hd : (content w).keys n with
      | none =>
        rw [hf, hd] at a a'
        exact absent a a'
      | some d =>
        rw [hf, hd] at a a'
        obtain ⟨k, e1, k1, k2⟩ := a
        obtain ⟨k', e2, k1', k2'⟩ := a'
        rw [e1] at e2; cases e2
        refine ⟨by rw [k1, k1'], fun path => ?_⟩
        obtain ⟨x1, x2, x3⟩ := k2 path
        obtain ⟨y1, y2, y3⟩ := k2' path
        exact ⟨by rw [x1, y1], fun m => by rw [x2, y2], fun m s => by rw [x3, y3]⟩
  · intro n r r1 blob' h
    obtain ⟨f, w, s, d, h1, h2, h3, h4, h5, h6⟩ := add_ok h
    obtain ⟨blob'', r1', h'⟩ := store_runs E it' { w with keys := w.keys.insert n d } pw (delivers_of_store h6)
    refine ⟨blob'', r1', _, ?_, store_holds hA h6, store_holds hA h'⟩
    rw [addNetwork, show M.factories.get n = some f from h1, h2]
    simp only [Res.okOr, RM.lift_ok_bind]
    rw [if_neg (by rw [h3]; simp), h4]
    simp only [RM.lift_ok_bind, h5, Res.mapErr]
    exact h'

/-! ### The built-in networks -/

/-- A manager as the public constructors make it without custom networks. -/
def BuiltIn (H : Hashes) (C : Secp.Curve) (Ed : Cardano.Ed) (M : Manager) : Prop :=
  ∃ umax ca eth btc, Manager.new umax (allNetworks H C Ed ca eth btc) = .ok M ∨
    ∃ nets, withNetworks umax (allNetworks H C Ed ca eth btc) nets = .ok M

theorem BuiltIn.sub {H : Hashes} {C : Secp.Curve} {Ed : Cardano.Ed} {M : Manager} (h : BuiltIn H C Ed M) :
    ∃ umax fs, withFactoryObjs umax fs = .ok M ∧ ∀ f ∈ fs, f ∈ allNetworks H C Ed true true true := by
  obtain ⟨umax, ca, eth, btc, h⟩ := h
  have sub : ∀ f ∈ allNetworks H C Ed ca eth btc, f ∈ allNetworks H C Ed true true true := by
    intro f hf
    rw [mem_allNetworks] at hf ⊢
    rcases hf with hf | hf | hf
    · exact .inl ⟨rfl, hf.2⟩
    · exact .inr (.inl ⟨rfl, hf.2⟩)
    · exact .inr (.inr ⟨rfl, hf.2⟩)
  rcases h with h | ⟨nets, h⟩
  · exact ⟨umax, _, h, sub⟩
  · exact ⟨umax, _, h, fun f hf => sub f (List.mem_filter.mp hf).1⟩

theorem BuiltIn.built {H : Hashes} {C : Secp.Curve} {Ed : Cardano.Ed} {M : Manager} (h : BuiltIn H C Ed M) : Built M := by
  obtain ⟨umax, fs, h, -⟩ := h.sub
  exact ⟨umax, fs, h⟩

theorem BuiltIn.factory {H : Hashes} {C : Secp.Curve} {Ed : Cardano.Ed} {M : Manager} (h : BuiltIn H C Ed M) {n : Network}
    {f : Factory} (hf : M.getKeyFactory n = some f) :
    n = 0x80000717 ∧ f = Cardano.factory H Ed ∨ n = 0x8000003c ∧ f = Ethereum.factory H C ∨
      n = 0x80000000 ∧ f = Bitcoin.factory H C := by
  obtain ⟨umax, fs, h, hsub⟩ := h.sub
  rw [withFactoryObjs, Res.bind_eq_ok] at h
  obtain ⟨s, -, h⟩ := h
  have : M = ⟨NMap.ofList (fs.map fun f => (f.network, f)), s⟩ := by simpa using h.symm
  subst this
  have hf : (NMap.ofList (fs.map fun f => (f.network, f))).get n = some f := hf
  rw [NMap.get_ofList] at hf
  have := NMap.mem_of_lastOf hf
  rw [List.mem_map] at this
  obtain ⟨g, hg, e⟩ := this
  cases e
  rcases (mem_allNetworks H C Ed _ _ _ _).mp (hsub _ hg) with ⟨-, rfl⟩ | ⟨-, rfl⟩ | ⟨-, rfl⟩
  · exact .inl ⟨rfl, rfl⟩
  · exact .inr (.inl ⟨rfl, rfl⟩)
  · exact .inr (.inr ⟨rfl, rfl⟩)

/-- The built-in factories load keys for their own network. -/
theorem BuiltIn.honest {H : Hashes} {C : Secp.Curve} {Ed : Cardano.Ed} {M : Manager} (h : BuiltIn H C Ed M) : Honest M := by
  intro n f hf d k hk
  rcases h.factory hf with ⟨rfl, rfl⟩ | ⟨rfl, rfl⟩ | ⟨rfl, rfl⟩
  · obtain ⟨x, -, rfl⟩ := cardano_load H C Ed d k hk
    rfl
  · obtain ⟨x, y, -, -, e, -⟩ := ethereum_load H C Ed d k hk
    exact e
  · obtain ⟨x, -, e, -⟩ := bitcoin_load H C Ed d k hk
    exact e

theorem BuiltIn.same {H : Hashes} {C : Secp.Curve} {Ed : Cardano.Ed} {M M' : Manager} (h : BuiltIn H C Ed M)
    (h' : BuiltIn H C Ed M') (hn : ∀ n, M'.hasNetwork n = M.hasNetwork n) (n : Network) :
    M'.getKeyFactory n = M.getKeyFactory n := by
  have hn := hn n
  unfold Manager.hasNetwork at hn
  change (M'.getKeyFactory n).isSome = (M.getKeyFactory n).isSome at hn
  cases hf : M.getKeyFactory n with
  | none => rw [hf] at hn; simpa using hn
  | some f =>
    rw [hf] at hn
    obtain ⟨f', hf'⟩ := Option.isSome_iff_exists.mp hn
    rw [hf']
    rcases h.factory hf with ⟨rfl, rfl⟩ | ⟨rfl, rfl⟩ | ⟨rfl, rfl⟩ <;>
      rcases h'.factory hf' with ⟨e, rfl⟩ | ⟨e, rfl⟩ | ⟨e, rfl⟩ <;>
        first
          | rfl
          | exact absurd e (by decide)

/-- C40 for the built-in networks: a wallet made from a seed opens (with exactly the manager's networks) unless Ethereum is
among them and the seed has no key at m/44'/60'; then the error names Ethereum.  It never panics. -/
theorem C40_builtin (E : Env) (hA : AeadCorrect E.A) (C : Secp.Curve) (Ed : Cardano.Ed) (itF : Iter (Network × Factory))
    (itK it : Iter (Network × Bytes)) (M M' : Manager) (hM : BuiltIn E.H C Ed M) (hM' : BuiltIn E.H C Ed M')
    (hn : ∀ n, M'.hasNetwork n = M.hasNetwork n) (seed : Bytes) (pw : Str) (r r' : Rng) (blob : Bytes)
    (h : (M.keychainDataFromSeed E itF itK seed pw).run r = (.ok blob, r')) :
    ((M.hasNetwork 0x8000003c = false ∨ ∀ root, Spec.Bip32.Root E.H seed root →
        ∃ y, Spec.Bip32.Walk E.H C root [0x8000002C, 0x8000003c] y) →
      ∃ kc, M'.keychainFromData E it blob pw = .ok kc ∧ ∀ n, kc.hasNetwork n = M.hasNetwork n) ∧
    (M.hasNetwork 0x8000003c = true → (∃ root, Spec.Bip32.Root E.H seed root ∧
        ¬ ∃ y, Spec.Bip32.Walk E.H C root [0x8000002C, 0x8000003c] y) →
      ∃ e, M'.keychainFromData E it blob pw = .err (.keyError 0x8000003c e)) := by
  obtain ⟨h1, h2, h3⟩ := C40_roundtrip E hA itF itK it M M' hM.built hM'.honest (hM.same hM' hn) seed pw r r' blob h
  obtain ⟨hl, keys, hk, hH⟩ := C40_from_seed E hA itF itK M hM.built seed pw r r' blob h
  have bad : ∀ n f d, M.getKeyFactory n = some f → f.keyDataFromSeed seed = .ok d → (∀ k, f.keyFromData d ≠ .ok k) →
      n = 0x8000003c ∧ f = Ethereum.factory E.H C := by
    intro n f d hf hd hb
    rcases hM.factory hf with ⟨rfl, rfl⟩ | ⟨rfl, rfl⟩ | ⟨rfl, rfl⟩
    · obtain ⟨d', _, _, a, -, -, ⟨k, b⟩, -⟩ := C30_from_seed E.H C Ed seed hl
      rw [show (Spec.factoryOf E.H C Ed .cardano).keyDataFromSeed seed = .ok d from hd] at a
      cases a
      exact absurd b (hb k)
    · exact ⟨rfl, rfl⟩
    · obtain ⟨k, b⟩ := (C31_load E.H C Ed seed d).1 hd
      exact absurd b (hb k)
  have noPanic : M'.keychainFromData E it blob pw ≠ .panic := by
    intro hp
    obtain ⟨n, f, d, hf, hd, hb⟩ := h3 hp
    obtain ⟨rfl, rfl⟩ := bad n f d hf hd (by rw [hb]; exact nofun)
    obtain hb := Res.mapErr_eq_panic.mp (Res.map_eq_panic.mp hb)
    rcases Res.bind_eq_panic.mp hb with hb | ⟨x, -, hb⟩
    · exact C24_no_panic E.H d hb
    · rcases Res.bind_eq_panic.mp hb with hb | ⟨y, -, hb⟩
      · exact C26_no_panic _ _ _ _ hb
      · exact C26_no_panic _ _ _ _ hb
  constructor
  · intro hw
    cases ho : M'.keychainFromData E it blob pw with
    | ok kc => exact ⟨kc, rfl, fun n => (h1 kc ho n).1⟩
    | panic => exact absurd ho noPanic
    | err e =>
      obtain ⟨n, f, d, e', hf, hd, hb, -⟩ := h2 e ho
      obtain ⟨rfl, rfl⟩ := bad n f d hf hd (by rw [hb]; exact nofun)
      rcases hw with hw | hw
      · rw [Manager.hasNetwork, show M.factories.get _ = some _ from hf] at hw
        cases hw
      · have hr : ∃ root, Spec.Bip32.Root E.H seed root := by
          obtain ⟨s, h1, h2⟩ := Res.bind_eq_ok.mp hd
          obtain ⟨x, hx, -⟩ := Res.bind_eq_ok.mp h2
          have hsv : s.val = seed := by
            unfold seedOrError Bip39.Seed.fromSlice at h1
            split at h1
            · cases h1; rfl
            · cases h1
          rw [Res.mapErr_eq_ok, Secp.fromSeed_ok, hsv] at hx
          exact ⟨x, hx⟩
        obtain ⟨root, hroot⟩ := hr
        obtain ⟨k, hk⟩ := ((C31_load E.H C Ed seed d).2 hd root hroot).mpr (hw root hroot)
        rw [show (Ethereum.factory E.H C).keyFromData d = .ok k from hk] at hb
        cases hb
  · rintro hhas ⟨root, hroot, hno⟩
    obtain ⟨f, hf⟩ := Option.isSome_iff_exists.mp hhas
    have hf' : f = Ethereum.factory E.H C := by
      rcases hM.factory hf with ⟨e, -⟩ | ⟨-, rfl⟩ | ⟨e, -⟩
      · exact absurd e (by decide)
      · rfl
      · exact absurd e (by decide)
    subst hf'
    cases ho : M'.keychainFromData E it blob pw with
    | ok kc =>
      obtain ⟨d, k, hd, hk, -⟩ := (h1 kc ho _).2 _ hf
      exact absurd (((C31_load E.H C Ed seed d).2 hd root hroot).mp ⟨k, hk⟩) hno
    | panic => exact absurd ho noPanic
    | err e =>
      obtain ⟨n, f, d, e', hf, hd, hb, rfl⟩ := h2 e ho
      obtain ⟨rfl, -⟩ := bad n f d hf hd (by rw [hb]; exact nofun)
      exact ⟨e', rfl⟩

/-! ### Non-vacuity -/

/-- A toy world: the cipher and hashes of `Toy`, and networks whose key is the front of the seed. -/
def toyEnv : Env := ⟨Toy.hashes, Toy.aead, Base64.strict⟩
def toyKey (n : Network) (d : Bytes) : KeyObj := ⟨n, fun _ => .ok d, fun m _ => .ok (m ++ d), fun m s _ => .ok (s = m ++ d)⟩
def toyFactory (n : Network) : Factory := ⟨n, ⟨128, 256⟩, fun d => .ok (toyKey n d), fun s => .ok (n.toUInt8 :: s.take 3)⟩
def toyManager (ns : List Network) : Manager := ⟨NMap.ofList ((ns.map toyFactory).map fun f => (f.network, f)), 128⟩

theorem toyManager_get (ns : List Network) (n : Network) :
    (toyManager ns).getKeyFactory n = if n ∈ ns then some (toyFactory n) else none := by
  show (NMap.ofList _).get n = _
  have hall : ∀ e ∈ (ns.map toyFactory).map (fun f => (f.network, f)), e.2 = toyFactory e.1 := by
    intro e he
    simp only [List.map_map, List.mem_map] at he
    obtain ⟨m, -, rfl⟩ := he
    rfl
  cases hg : (NMap.ofList ((ns.map toyFactory).map fun f => (f.network, f))).get n with
  | none =>
    rw [if_neg]
    intro hm
    have : ((NMap.ofList ((ns.map toyFactory).map fun f => (f.network, f))).get n).isSome :=
      NMap.get_ofList_isSome.mpr ⟨toyFactory n, by simpa using ⟨n, hm, rfl, rfl⟩⟩
    rw [hg] at this; cases this
  | some f =>
    rw [NMap.get_ofList] at hg
    have hm := NMap.mem_of_lastOf hg
    have := hall _ hm
    dsimp only at this
    subst this
    rw [if_pos]
    simp only [List.map_map, List.mem_map] at hm
    obtain ⟨m, hm, e⟩ := hm
    cases e
    exact hm

theorem toyManager_built : Built (toyManager [1, 2]) ∧ Built (toyManager [2, 3]) :=
  ⟨⟨65535, [toyFactory 1, toyFactory 2], rfl⟩, ⟨65535, [toyFactory 2, toyFactory 3], rfl⟩⟩

theorem toyManager_honest (ns : List Network) : Honest (toyManager ns) := by
  intro n f hf d k hk
  rw [toyManager_get] at hf
  split at hf
  · cases hf; cases hk; rfl
  · cases hf

theorem counting_delivers : Delivers countingRng := ⟨rfl, rfl, rfl⟩

theorem toyManager_derives (ns : List Network) (seed : Bytes) (n : Network) (f : Factory)
    (h : (toyManager ns).getKeyFactory n = some f) : ∃ d, f.keyDataFromSeed seed = .ok d := by
  rw [toyManager_get] at h
  split at h
  · cases h; exact ⟨_, rfl⟩
  · cases h

/-- Non-vacuity of C40, C47, C48: a wallet for networks 1 and 2 from a seed. -/
theorem toy_seed_wallet (itF : Iter (Network × Factory)) (itK : Iter (Network × Bytes)) (pw : Str) : ∃ blob r',
    ((toyManager [1, 2]).keychainDataFromSeed toyEnv itF itK (List.replicate 64 9) pw).run countingRng = (.ok blob, r') :=
  C40_from_seed_succeeds _ _ _ _ _ _ _ counting_delivers (by simp) (toyManager_derives _ _)

/-- ... and what it holds. -/
theorem toy_seed_holds (itF : Iter (Network × Factory)) (itK : Iter (Network × Bytes)) (pw : Str) : ∃ blob c,
    Holds toyEnv blob pw c ∧ c.seed = some (List.replicate 64 9) ∧ c.keys 1 = some [1, 9, 9, 9] ∧ c.keys 2 = some [2, 9, 9, 9] ∧
    c.keys 3 = none := by
  obtain ⟨blob, r', h⟩ := toy_seed_wallet itF itK pw
  obtain ⟨-, keys, hk, hH⟩ := C40_from_seed toyEnv toyAead_correct itF itK _ toyManager_built.1 _ pw _ _ _ h
  refine ⟨blob, _, hH, rfl, ?_, ?_, ?_⟩
  · have := hk 1
    rw [toyManager_get, if_pos (by decide)] at this
    obtain ⟨d, hd, e⟩ := this
    cases hd; exact e
  · have := hk 2
    rw [toyManager_get, if_pos (by decide)] at this
    obtain ⟨d, hd, e⟩ := this
    cases hd; exact e
  · have := hk 3
    rw [toyManager_get, if_neg (by decide)] at this
    exact this

/-- Non-vacuity of C41: twelve words. -/
theorem toy_phrase : Phrase 128 .english (Spec.spaced (List.replicate 12 "abandon".toList)) :=
  ⟨List.replicate 12 "abandon".toList, rfl, fun w hw => by rw [List.eq_of_mem_replicate hw]; decide +kernel, by decide, by decide⟩

example : ∃ blob r', ((toyManager [1, 2]).keychainDataFromMnemonic toyEnv forwards backwards
    (Spec.spaced (List.replicate 12 "abandon".toList)) ['p'] none).run countingRng = (.ok blob, r') :=
  C41_from_mnemonic_succeeds _ _ _ _ _ _ _ _ counting_delivers toy_phrase (toyManager_derives _ _)

/-- Non-vacuity of C42 to C44 and C46: the wallet gets a new password from somebody, then network 3 from another manager, which
does not know network 1; opened by that manager it shows 2 and 3 and keeps 1. -/
example : ∃ b0 b c0, Holds toyEnv b0 ['p'] c0 ∧ c0.keys 3 = none ∧
    Run toyEnv (b0, ['p']) [.changed, .added (toyManager [2, 3]) 3] (b, ['q']) ∧
    ∃ kc, (toyManager [2, 3]).keychainFromData toyEnv forwards b ['q'] = .ok kc ∧ kc.hasNetwork 1 = false ∧
      kc.hasNetwork 2 = true ∧ kc.hasNetwork 3 = true ∧
    ∃ l, getKeysData toyEnv backwards b ['q'] = .ok l ∧ (1, [1, 9, 9, 9]) ∈ l := by
  obtain ⟨b0, c0, h0, hs, k1, k2, k3⟩ := toy_seed_holds forwards forwards ['p']
  have hop : ∃ plain, Opens toyEnv b0 ['p'] plain := by
    obtain ⟨plain, h, -⟩ := h0; exact ⟨plain, h⟩
  obtain ⟨b1, r1, hc⟩ := ((C42_outcome toyEnv b0 ['p'] ['q'] countingRng).1 counting_delivers).mp hop
  have h1 := (C42_same_wallet toyEnv toyAead_correct _ _ _ _ _ _ hc).1 c0 h0
  have hf : (toyManager [2, 3]).getKeyFactory 3 = some (toyFactory 3) := by rw [toyManager_get, if_pos (by decide)]
  obtain ⟨b2, r2, ha⟩ := ((((C43_outcome toyEnv backwards (toyManager [2, 3]) b1 ['q'] 3 countingRng).2 _ hf).2 c0 h1).2 k3).2.2.2
    _ (by unfold Usable; rw [hs]; rfl) (show seedOf toyEnv.H c0 = _ by unfold seedOf; rw [hs]) |>.2.2 _ rfl counting_delivers
  have hrun : Run toyEnv (b0, ['p']) [.changed, .added (toyManager [2, 3]) 3] (b2, ['q']) :=
    .add _ [.changed] b1 ['q'] b2 _ backwards 3 _ _ (.change _ [] b0 ['p'] b1 ['q'] _ _ (.nil _) hc) ha
  obtain ⟨c, h2, -, -, -, o1, o2, o3⟩ := C44_history toyEnv toyAead_correct _ _ _ _ _ _ h0 hrun
  have hall : AllLoad (toyManager [2, 3]) c := by
    intro n f d hf hd
    rw [toyManager_get] at hf
    split at hf
    · cases hf; exact ⟨_, rfl⟩
    · cases hf
  have ho := C40_open toyEnv forwards (toyManager [2, 3]) (toyManager_honest _) b2 ['q'] c h2
  obtain ⟨kc, hkc⟩ := ho.1 hall
  have hsh := (ho.2.1 kc hkc).2
  refine ⟨b0, b2, c0, h0, k3, hrun, kc, hkc, ?_, ?_, ?_, ?_⟩
  · have := hsh 1
    rw [toyManager_get, if_neg (by decide)] at this
    exact this
  · have := hsh 2
    rw [toyManager_get, if_pos (by decide), o1 2 _ k2] at this
    obtain ⟨k, -, hk⟩ := this
    exact hk.1
  · obtain ⟨f, s, d, -, -, -, hd⟩ := o3 (toyManager [2, 3]) 3 (by simp)
    have := hsh 3
    rw [toyManager_get, if_pos (by decide), hd] at this
    obtain ⟨k, -, hk⟩ := this
    exact hk.1
  · obtain ⟨l, hl, -, hm⟩ := C41_keys_data toyEnv backwards b2 ['q'] c h2
    exact ⟨l, hl, (hm 1 _).mpr (o1 1 _ k1)⟩

/-- Non-vacuity of `C62_manager`: a text that opens and is no wallet, because something follows it. -/
example : ∃ blob, Opens toyEnv blob ['p'] (sampleV1Envelope ++ [44]) ∧ ¬ ∃ c, IsWallet toyEnv.D c (sampleV1Envelope ++ [44]) := by
  obtain ⟨blob, r', h⟩ := C32_succeeds (ε := Unit) Toy.hashes Toy.aead (sampleV1Envelope ++ [44]) ['p'] countingRng rfl rfl rfl
  refine ⟨blob, encrypt_opens (E := toyEnv) toyAead_correct (by decide +kernel) h, ?_⟩
  rintro ⟨c, hc⟩
  obtain ⟨w, hw, -⟩ := (read_wallet _ _ _).mpr hc
  have : Data.Versioned.fromBytes toyEnv.D (sampleV1Envelope ++ [44]) = none := by
    have hp : (Json.parse (sampleV1Envelope ++ [44])).isNone := by decide +kernel
    rw [Data.fromBytes_eq, Option.isNone_iff_eq_none.mp hp]
    rfl
  rw [this] at hw
  cases hw

/-- Non-vacuity of `C36_manager`. -/
example : ∃ blob, Opens toyEnv blob ['p'] sampleV1Envelope ∧ AnyEnvelope toyEnv.D 1 sampleV1 sampleV1Envelope ∧
    AnyV1 toyEnv.D [(60, [1]), (60, [2])] sampleV1 ∧ (toyManager [1, 2]).hasNetwork 1 = true ∧ lastOf 1 [(60, [1]), (60, [(2 : UInt8)])] = none := by
  obtain ⟨blob, r', h⟩ := C32_succeeds (ε := Unit) Toy.hashes Toy.aead sampleV1Envelope ['p'] countingRng rfl rfl rfl
  refine ⟨blob, encrypt_opens (E := toyEnv) toyAead_correct (by decide +kernel) h,
    IsEnvelope.any toyEnv.D
      ⟨_, Json.doc_of_text (Data.envelope_text 126 ⟨.v1, sampleV1⟩), by simp [key], by simp [Once, key, Data.Version.toNat],
        by simp [Once, key]⟩,
    IsV1.any toyEnv.D sampleV1_isV1, ?_, by decide⟩
  rw [Manager.hasNetwork, show (toyManager [1, 2]).factories.get 1 = some (toyFactory 1) by
    have := toyManager_get [1, 2] 1
    rwa [if_pos (by decide)] at this]
  rfl

/-- Non-vacuity of C45: two keys for network 1, the second wins; network 2 has none. -/
example : Acts (Keychain.new [toyKey 1 [7], toyKey 1 [8]]) 1 (toyKey 1 [8]) ∧
    (Keychain.new [toyKey 1 [7], toyKey 1 [8]]).hasNetwork 2 = false :=
  ⟨C45_new [toyKey 1 [7]] [] (toyKey 1 [8]) (by simp), rfl⟩

/-- Non-vacuity of `C40_builtin`: a built-in manager whose factories make keys. -/
example : ∃ M, BuiltIn Toy.skipHashes Toy.curve toyEd M ∧ ∃ blob r',
    (M.keychainDataFromSeed ⟨Toy.skipHashes, Toy.aead, Base64.strict⟩ forwards forwards toySeed ['p']).run countingRng =
      (.ok blob, r') := by
  obtain ⟨M, h1, -⟩ := C38_new Toy.skipHashes Toy.curve toyEd true true true 65535 (by decide) (by simp)
  have hb : BuiltIn Toy.skipHashes Toy.curve toyEd M := ⟨65535, true, true, true, .inl h1⟩
  refine ⟨M, hb, C40_from_seed_succeeds _ _ _ _ _ _ _ counting_delivers (by rfl) ?_⟩
  intro n f hf
  rcases hb.factory hf with ⟨-, rfl⟩ | ⟨-, rfl⟩ | ⟨-, rfl⟩
  · obtain ⟨d, k, h, -⟩ := toy_loads .cardano; exact ⟨d, h⟩
  · obtain ⟨d, k, h, -⟩ := toy_loads .ethereum; exact ⟨d, h⟩
  · obtain ⟨d, k, h, -⟩ := toy_loads .bitcoin; exact ⟨d, h⟩

end KC.Props
