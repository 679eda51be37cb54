import Verif.Props.OpenCount
import Verif.Props.LastWord
import Verif.Props.Keys
/-
C110: how many phrases have a right checksum, and how many paths a key takes.
-/
namespace KC.Props
open KC KC.Bip39 KC.Spec KC.Secp KC.KeyPath

/-- C110: there are as many phrases of a number of words with a right checksum as there are entropies of its size. -/
theorem C110_phrases (P : Hashes) (w : Nat) (hw : w ∈ wordCounts) :
    {m : Mnemonics | m.idx.length = w ∧ (∀ i ∈ m.idx, i.toNat ≤ 2047) ∧ ∃ e, Entropy.fromMnemonics P m = .ok e}.ncard = 2 ^ entBits w := by
  obtain ⟨t, ht⟩ := count_mem.mp hw
  have hs := (spec_sizes t).1
  rw [ht] at hs
  have h8 : 256 ^ (t.toKeySize / 8) = 2 ^ entBits w := by
    rw [hs, show (256 : Nat) = 2 ^ 8 from rfl, ← pow_mul]
    congr 1
    cases t <;> rfl
  rw [← h8, ← ncard_words]
  have g : ∀ m ∈ {m : Mnemonics | m.idx.length = w ∧ (∀ i ∈ m.idx, i.toNat ≤ 2047) ∧ ∃ e, Entropy.fromMnemonics P m = .ok e},
      ∃ e : Entropy, Entropy.fromMnemonics P m = .ok e := fun m hm => hm.2.2
  choose f hf using g
  have hc : ∀ m hm, Carries P.sha256 m.idx (f m hm).bytes := fun m hm => ((C06_exact P m (by rw [hm.1]; exact hw)).1 _).mp (hf m hm)
  refine Set.ncard_congr (fun m hm => (f m hm).bytes) ?_ ?_ ?_
  · intro m hm
    have := (hc m hm).2
    rw [hm.1, hs] at this
    show (f m hm).bytes.length = _
    omega
  · intro m m' hm hm' h
    have e : f m hm = f m' hm' := by
      have h1 := (hc m hm).2
      have h2 := (C06_exact P m' (by rw [hm'.1]; exact hw)).1 (f m hm)
      have := h2.mpr (by show Carries _ _ (f m hm).bytes; rw [show (f m hm).bytes = _ from h]; exact hc m' hm')
      rw [hf m' hm'] at this
      exact (Res.ok.inj this).symm
    have a := C06_reencode P m (by rw [hm.1]; exact hw) hm.2.1 _ (hf m hm)
    have b := C06_reencode P m' (by rw [hm'.1]; exact hw) hm'.2.1 _ (hf m' hm')
    rw [e, b] at a
    exact (Option.some.inj a).symm
  · intro b hb
    obtain ⟨m, h1, h2, h3, h4, h5⟩ := C05_to_mnemonics P ⟨t, b, hb⟩
    have hl : m.idx.length = w := by
      obtain ⟨t', ht'⟩ := count_mem.mp h2
      have h6 := (spec_sizes t').1
      rw [ht', h3] at h6
      have hb : b.length = t.toKeySize / 8 := hb
      have h6 : 8 * b.length = t'.toKeySize := h6
      rw [hb] at h6
      rw [← ht, ← ht']
      cases t <;> cases t' <;> first | rfl | (exact absurd h6 (by decide))
    have hok := ((C06_exact P m h2).1 ⟨t, b, hb⟩).mpr h5
    have hm : m ∈ {m : Mnemonics | m.idx.length = w ∧ (∀ i ∈ m.idx, i.toNat ≤ 2047) ∧ ∃ e, Entropy.fromMnemonics P m = .ok e} :=
      ⟨hl, h4, _, hok⟩
    refine ⟨m, hm, ?_⟩
    have := hf m hm
    rw [hok] at this
    exact congrArg Entropy.bytes (Res.ok.inj this).symm

theorem ncard_u32 (lo hi : Nat) (h : hi ≤ 2 ^ 32) : {x : UInt32 | lo ≤ x.toNat ∧ x.toNat < hi}.ncard = hi - lo := by
  have e : {x : UInt32 | lo ≤ x.toNat ∧ x.toNat < hi} = UInt32.ofNat '' (↑(Finset.Ico lo hi) : Set Nat) := by
    ext x
    constructor
    · rintro ⟨h1, h2⟩
      exact ⟨x.toNat, Finset.mem_coe.mpr (Finset.mem_Ico.mpr ⟨h1, h2⟩), UInt32.ofNat_toNat⟩
    · rintro ⟨y, hy, rfl⟩
      have hy := Finset.mem_Ico.mp (Finset.mem_coe.mp hy)
      have := UInt32.toNat_ofNat_of_lt' (show y < UInt32.size from Nat.lt_of_lt_of_le hy.2 h)
      show lo ≤ _ ∧ _ < hi
      rw [this]
      exact hy
  rw [e, Set.InjOn.ncard_image, Set.ncard_coe_finset, Nat.card_Ico]
  intro a ha b hb hab
  have ha := (Finset.mem_Ico.mp (Finset.mem_coe.mp ha)).2
  have hb := (Finset.mem_Ico.mp (Finset.mem_coe.mp hb)).2
  have := congrArg UInt32.toNat hab
  rwa [UInt32.toNat_ofNat_of_lt' (show a < UInt32.size from Nat.lt_of_lt_of_le ha h),
    UInt32.toNat_ofNat_of_lt' (show b < UInt32.size from Nat.lt_of_lt_of_le hb h)] at this

/-- C110: one in 2^c phrases has a right checksum, c the number of its bits. -/
theorem C110_phrase_share (w : Nat) (hw : w ∈ wordCounts) : 2 ^ entBits w * 2 ^ csBits w = 2048 ^ w := by
  simp only [wordCounts, List.mem_cons, List.not_mem_nil, or_false] at hw
  rcases hw with rfl | rfl | rfl | rfl | rfl | rfl <;> decide +kernel

theorem ncard_accepts (net : Net) : {p : Path | Accepts net p}.ncard = (if net = .bitcoin then 2 ^ 32 else 1) * 2 ^ 63 := by
  let g : (UInt32 × UInt32) × (UInt32 × UInt32 × UInt32) → Path := fun y => ⟨y.1.1, y.1.2, y.2.1, y.2.2.1, y.2.2.2⟩
  have e : {p : Path | Accepts net p} = g '' (({x : UInt32 | (if net = .bitcoin then 0 else 44 + 2 ^ 31) ≤ x.toNat ∧
        x.toNat < (if net = .bitcoin then 2 ^ 32 else 45 + 2 ^ 31)} ×ˢ
      {x : UInt32 | net.coin + 2 ^ 31 ≤ x.toNat ∧ x.toNat < net.coin + 1 + 2 ^ 31}) ×ˢ
      ({x : UInt32 | 2 ^ 31 ≤ x.toNat ∧ x.toNat < 2 ^ 32} ×ˢ ({x : UInt32 | 0 ≤ x.toNat ∧ x.toNat < 2} ×ˢ
      {x : UInt32 | 0 ≤ x.toNat ∧ x.toNat < 2 ^ 31}))) := by
    ext ⟨p, c, a, ch, ad⟩
    have := p.toNat_lt
    have := a.toNat_lt
    constructor
    · rintro ⟨h1, h2, h3, h4, h5⟩
      refine ⟨((p, c), (a, ch, ad)), ⟨⟨?_, ?_⟩, ?_, ?_, ?_⟩, rfl⟩
      all_goals simp only [PurposeOk, CoinOk, AccountOk, ChangeOk, AddressOk, Set.mem_ofPred_eq] at *
      · cases net <;> simp at * <;> omega
      all_goals omega
    · rintro ⟨⟨⟨p', c'⟩, ⟨a', ch', ad'⟩⟩, ⟨⟨h1, h2⟩, h3, h4, h5⟩, h⟩
      obtain ⟨rfl, rfl, rfl, rfl, rfl⟩ := Path.mk.inj h
      simp only [Set.mem_ofPred_eq] at *
      refine ⟨?_, ?_, ?_, ?_, ?_⟩
      all_goals simp only [PurposeOk, CoinOk, AccountOk, ChangeOk, AddressOk] at *
      · cases net <;> simp at * <;> omega
      all_goals omega
  rw [e, Set.InjOn.ncard_image, Set.ncard_prod, Set.ncard_prod, Set.ncard_prod, Set.ncard_prod, ncard_u32, ncard_u32, ncard_u32, ncard_u32,
    ncard_u32]
  · cases net <;> decide +kernel
  all_goals first | (cases net <;> decide) | skip
  rintro ⟨⟨a, b⟩, c, d, e⟩ - ⟨⟨a', b'⟩, c', d', e'⟩ - h
  obtain ⟨rfl, rfl, rfl, rfl, rfl⟩ := Path.mk.inj h
  rfl

/-- C110: every key of Ethereum and of Cardano takes exactly 2^63 of the 2^160 paths, every key of Bitcoin 2^95; the others it refuses as
paths. -/
theorem C110_paths (H : Hashes) (C : Curve) (E : Cardano.Ed) (net : Net) (d : Bytes) (k : KeyObj)
    (hk : (factoryOf H C E net).keyFromData d = .ok k) :
    {p : Path | ∀ e, k.pubKey p ≠ .err (.invalidKeyPath e)}.ncard = (if net = .bitcoin then 2 ^ 95 else 2 ^ 63) ∧
    ∀ m : Bytes, {p : Path | ∀ e, k.sign m p ≠ .err (.invalidKeyPath e)} = {p : Path | ∀ e, k.pubKey p ≠ .err (.invalidKeyPath e)} := by
  have a : ∀ p, (∀ e, k.pubKey p ≠ .err (.invalidKeyPath e)) ↔ Accepts net p := by
    intro p
    refine ⟨fun h => ?_, fun h e => (C21_accepts H C E net d k p hk h e).1⟩
    by_contra hp
    obtain ⟨e, -, he, -⟩ := C21_refuses H C E net d k p hk hp
    exact h e he
  have b : ∀ m p, (∀ e, k.sign m p ≠ .err (.invalidKeyPath e)) ↔ Accepts net p := by
    intro m p
    refine ⟨fun h => ?_, fun h e => (C21_accepts H C E net d k p hk h e).2.1 m⟩
    by_contra hp
    obtain ⟨e, -, -, he, -⟩ := C21_refuses H C E net d k p hk hp
    exact h e (he m)
  refine ⟨?_, fun m => Set.ext fun p => (b m p).trans (a p).symm⟩
  rw [show {p : Path | ∀ e, k.pubKey p ≠ .err (.invalidKeyPath e)} = {p : Path | Accepts net p} from Set.ext a, ncard_accepts]
  cases net <;> decide +kernel

theorem path_ext {k p : Path} (h1 : k.purpose.toNat = p.purpose.toNat) (h2 : k.coin.toNat = p.coin.toNat)
    (h3 : k.account.toNat = p.account.toNat) (h4 : k.change.toNat = p.change.toNat) (h5 : k.address.toNat = p.address.toNat) : k = p := by
  obtain ⟨a, b, c, d, e⟩ := k
  obtain ⟨a', b', c', d', e'⟩ := p
  obtain rfl := UInt32.toNat_inj.mp h1
  obtain rfl := UInt32.toNat_inj.mp h2
  obtain rfl := UInt32.toNat_inj.mp h3
  obtain rfl := UInt32.toNat_inj.mp h4
  obtain rfl := UInt32.toNat_inj.mp h5
  rfl

theorem ctor_iff {f : UInt32 → UInt32 → UInt32 → Res KeyPath.Error Path} {P c : Nat} (hf : CtorSpec f P c) (p : Path) :
    (∃ a ch i, f a ch i = .ok p) ↔ p.purpose.toNat = P + 2 ^ 31 ∧ p.coin.toNat = c + 2 ^ 31 ∧ AccountOk p ∧ ChangeOk p ∧ AddressOk p := by
  constructor
  · rintro ⟨a, ch, i, h⟩
    obtain ⟨h1, h2, h3, h4⟩ := hf a ch i
    by_cases q1 : 2 ^ 31 ≤ a.toNat
    · rw [h1 q1] at h; cases h
    by_cases q2 : 2 ≤ ch.toNat
    · rw [h2 (by omega) q2] at h; cases h
    by_cases q3 : 2 ^ 31 ≤ i.toNat
    · rw [h3 (by omega) (by omega) q3] at h; cases h
    obtain ⟨k, hk, r1, r2, r3, r4, r5⟩ := h4 (by omega) (by omega) (by omega)
    rw [h] at hk
    obtain rfl := Res.ok.inj hk
    refine ⟨r1, r2, ?_, ?_, ?_⟩ <;> simp only [AccountOk, ChangeOk, AddressOk] <;> omega
  · rintro ⟨h1, h2, h3, h4, h5⟩
    simp only [AccountOk, ChangeOk, AddressOk] at h3 h4 h5
    have hl := p.account.toNat_lt
    have ha : (UInt32.ofNat (p.account.toNat - 2 ^ 31)).toNat = p.account.toNat - 2 ^ 31 :=
      UInt32.toNat_ofNat_of_lt' (show p.account.toNat - 2 ^ 31 < UInt32.size by show _ < 4294967296; omega)
    obtain ⟨k, hk, r1, r2, r3, r4, r5⟩ := (hf (UInt32.ofNat (p.account.toNat - 2 ^ 31)) p.change p.address).2.2.2 (by omega) (by omega) h5
    refine ⟨_, _, _, hk.trans (congrArg Res.ok (path_ext ?_ ?_ ?_ ?_ ?_))⟩ <;> omega

/-- C110: the constructors of Cardano give every path its keys take; those of Bitcoin exactly those with one of three purposes, those of
Ethereum exactly those with change 0 and account or address 0. -/
theorem C110_constructors (pr : Profile) (p : Path) :
    ((∃ a c i, Cardano.path pr a c i = .ok p) ↔ Accepts .cardano p) ∧
    ((∃ a c i, Bitcoin.bip44 pr false a c i = .ok p ∨ Bitcoin.bip49 pr false a c i = .ok p ∨ Bitcoin.bip84 pr false a c i = .ok p) ↔
      Accepts .bitcoin p ∧ (p.purpose.toNat = 44 + 2 ^ 31 ∨ p.purpose.toNat = 49 + 2 ^ 31 ∨ p.purpose.toNat = 84 + 2 ^ 31)) ∧
    ((∃ a, Ethereum.path pr a = .ok p ∨ Ethereum.pathMetamask a = .ok p) ↔
      Accepts .ethereum p ∧ p.change.toNat = 0 ∧ (p.address.toNat = 0 ∨ p.account.toNat = 2 ^ 31)) := by
  refine ⟨?_, ?_, ?_⟩
  · rw [ctor_iff (C20_cardano pr)]
    constructor
    · rintro ⟨h1, h⟩
      exact ⟨.inr h1, h⟩
    · rintro ⟨h1 | h1, h⟩
      · cases h1
      · exact ⟨h1, h⟩
  · obtain ⟨b1, b2, b3⟩ := C20_bitcoin pr false
    have c1 := ctor_iff b1 p
    have c2 := ctor_iff b2 p
    have c3 := ctor_iff b3 p
    constructor
    · rintro ⟨a, c, i, h | h | h⟩
      · obtain ⟨h1, h2⟩ := c1.mp ⟨a, c, i, h⟩
        exact ⟨⟨.inl rfl, h2⟩, .inl h1⟩
      · obtain ⟨h1, h2⟩ := c2.mp ⟨a, c, i, h⟩
        exact ⟨⟨.inl rfl, h2⟩, .inr (.inl h1)⟩
      · obtain ⟨h1, h2⟩ := c3.mp ⟨a, c, i, h⟩
        exact ⟨⟨.inl rfl, h2⟩, .inr (.inr h1)⟩
    · rintro ⟨⟨-, h2⟩, h1 | h1 | h1⟩
      · obtain ⟨a, c, i, h⟩ := c1.mpr ⟨h1, h2⟩
        exact ⟨a, c, i, .inl h⟩
      · obtain ⟨a, c, i, h⟩ := c2.mpr ⟨h1, h2⟩
        exact ⟨a, c, i, .inr (.inl h)⟩
      · obtain ⟨a, c, i, h⟩ := c3.mpr ⟨h1, h2⟩
        exact ⟨a, c, i, .inr (.inr h)⟩
  · simp only [Accepts, PurposeOk, CoinOk, AccountOk, ChangeOk, AddressOk]
    constructor
    · rintro ⟨a, h⟩
      obtain ⟨e1, e2⟩ := C20_ethereum pr a
      by_cases q : 2 ^ 31 ≤ a.toNat
      · rw [(e1 q).1, (e1 q).2] at h
        rcases h with h | h <;> cases h
      obtain ⟨⟨k1, f1, r1, r2, r3, r4, r5⟩, k2, f2, t1, t2, t3, t4, t5⟩ := e2 (by omega)
      rw [f1, f2] at h
      rcases h with h | h
      · obtain rfl := Res.ok.inj h
        exact ⟨⟨.inr r1, r2, by omega, by omega, by omega⟩, r4, .inl r5⟩
      · obtain rfl := Res.ok.inj h
        exact ⟨⟨.inr t1, t2, by omega, by omega, by omega⟩, t4, .inr (by omega)⟩
    · rintro ⟨⟨h1, h2, h3, -, h5⟩, h4, h6⟩
      have h1 := h1.resolve_left nofun
      have h2 : p.coin.toNat = 60 + 2 ^ 31 := h2
      have hl := p.account.toNat_lt
      rcases h6 with h6 | h6
      · have ha : (UInt32.ofNat (p.account.toNat - 2 ^ 31)).toNat = p.account.toNat - 2 ^ 31 :=
          UInt32.toNat_ofNat_of_lt' (show p.account.toNat - 2 ^ 31 < UInt32.size by show _ < 4294967296; omega)
        obtain ⟨⟨k1, f1, r1, r2, r3, r4, r5⟩, -⟩ := (C20_ethereum pr (UInt32.ofNat (p.account.toNat - 2 ^ 31))).2 (by omega)
        exact ⟨_, .inl (f1.trans (congrArg Res.ok (path_ext (by omega) (by omega) (by omega) (by omega) (by omega))))⟩
      · obtain ⟨-, k2, f2, t1, t2, t3, t4, t5⟩ := (C20_ethereum pr p.address).2 h5
        exact ⟨_, .inr (f2.trans (congrArg Res.ok (path_ext (by omega) (by omega) (by omega) (by omega) (by omega))))⟩

/-- Non-vacuity: a phrase of 12 words in sixteen has a right checksum; a key that loads takes some paths and refuses others. -/
example (H : Hashes) (C : Curve) (E : Cardano.Ed) :
    {m : Mnemonics | m.idx.length = 12 ∧ (∀ i ∈ m.idx, i.toNat ≤ 2047) ∧ ∃ e, Entropy.fromMnemonics H m = .ok e}.ncard * 16 = 2048 ^ 12 ∧
    ∃ k, (factoryOf H C E .cardano).keyFromData (List.replicate 31 0 ++ [64] ++ List.replicate 64 0) = .ok k ∧
      (⟨0x8000002C, 0x80000717, 0x80000000, 1, 7⟩ : Path) ∈ {p : Path | ∀ e, k.pubKey p ≠ .err (.invalidKeyPath e)} ∧
      (⟨0x8000002C, 0x80000717, 0x80000000, 2, 7⟩ : Path) ∉ {p : Path | ∀ e, k.pubKey p ≠ .err (.invalidKeyPath e)} := by
  refine ⟨by rw [C110_phrases H 12 (by decide)]; decide +kernel, ?_⟩
  obtain ⟨k, hk⟩ := (C30_load H C E (List.replicate 31 0 ++ [64] ++ List.replicate 64 0)).2.2.1 rfl (by unfold Clamped; decide +kernel)
  refine ⟨k, hk, fun e => (C21_accepts H C E .cardano _ k _ hk ?_ e).1, fun h => ?_⟩
  · exact ⟨.inr rfl, rfl, by unfold AccountOk; decide, .inr rfl, by unfold AddressOk; decide⟩
  · obtain ⟨e, -, he, -⟩ := C21_refuses H C E .cardano _ k ⟨0x8000002C, 0x80000717, 0x80000000, 2, 7⟩ hk (by
      rintro ⟨-, -, -, h | h, -⟩ <;> exact absurd h (by decide))
    exact h e he

end KC.Props
