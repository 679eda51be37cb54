import Verif.Props.KeyCount
import Verif.Props.OpenCount
/-
C109: how many byte strings are key data.
-/
namespace KC.Props
open KC KC.Secp KC.Spec KC.Spec.Bip32

theorem sha256_take4 (H : Hashes) (b : Bytes) : ((H.sha256 b).take 4).length = 4 := by
  rw [List.length_take, H.sha256_len]
  rfl

/-- C109: exactly (n - 1) 256^41 byte strings load as an extended private key, all of 77 bytes. -/
theorem C109_secp (H : Hashes) : {b : Bytes | ∃ x, XPrv.fromData H b = .ok x}.ncard = (n - 1) * 256 ^ 41 := by
  let f : Bytes × Nat → Bytes := fun y => y.1 ++ Bytes.beBytes 32 y.2
  let g : Bytes → Bytes := fun b => b ++ (H.sha256 (H.sha256 b)).take 4
  have hn := n_lt
  have hbe : ∀ q, q < 256 ^ 32 → be (Bytes.beBytes 32 q) = q := fun q hq => by rw [Bytes.be_beBytes, Nat.mod_eq_of_lt hq]
  have hlen : ∀ a : Bytes, a.length = 32 → be a < 256 ^ 32 := by
    intro a ha
    have := Bytes.be_lt a
    rwa [ha] at this
  generalize (256 : Nat) ^ 32 = w at hn hbe hlen
  have e : {b : Bytes | ∃ x, XPrv.fromData H b = .ok x} =
      (fun y => g (f y)) '' ({p : Bytes | p.length = 41} ×ˢ (↑(Finset.Ico 1 n) : Set Nat)) := by
    ext b
    refine (C24_accepts H b).trans ⟨?_, ?_⟩
    · rintro ⟨h1, h2, h3, h4⟩
      have l2 : ((b.drop 41).take 32).length = 32 := by simp [h1]
      have e1 : f (b.take 41, be ((b.drop 41).take 32)) = b.take 73 := by
        show b.take 41 ++ Bytes.beBytes 32 (be ((b.drop 41).take 32)) = _
        rw [show Bytes.beBytes 32 (be ((b.drop 41).take 32)) = (b.drop 41).take 32 from
          Bytes.be_inj ((Bytes.beBytes_length _ _).trans l2.symm) (hbe _ (hlen _ l2)), ← List.take_add]
      refine ⟨(b.take 41, be ((b.drop 41).take 32)), ⟨?_, Finset.mem_coe.mpr (Finset.mem_Ico.mpr ⟨h3, h4⟩)⟩, ?_⟩
      · show (b.take 41).length = 41
        simp [h1]
      · show g (f _) = b
        rw [e1]
        show b.take 73 ++ _ = b
        rw [← h2, List.take_append_drop]
    · rintro ⟨⟨p, q⟩, ⟨hp, hq⟩, rfl⟩
      have hp : p.length = 41 := hp
      have hq : 1 ≤ q ∧ q < n := Finset.mem_Ico.mp (Finset.mem_coe.mp hq)
      have lq := Bytes.beBytes_length 32 q
      have lf : (f (p, q)).length = 73 := List.length_append.trans (by rw [hp, lq])
      have ls := sha256_take4 H (H.sha256 (f (p, q)))
      have t : (g (f (p, q))).take 73 = f (p, q) := List.take_left' lf
      have dr : (g (f (p, q))).drop 73 = (H.sha256 (H.sha256 (f (p, q)))).take 4 := List.drop_left' lf
      have m : ((g (f (p, q))).drop 41).take 32 = Bytes.beBytes 32 q := by
        show (List.drop 41 ((p ++ Bytes.beBytes 32 q) ++ _)).take 32 = _
        rw [List.append_assoc, List.drop_left' hp, List.take_left' lq]
      refine ⟨List.length_append.trans (by rw [lf, ls]), ?_, ?_⟩
      · show (g (f (p, q))).drop 73 = (H.sha256 (H.sha256 ((g (f (p, q))).take 73))).take 4
        rw [t, dr]
      · show 0 < be (((g (f (p, q))).drop 41).take 32) ∧ be (((g (f (p, q))).drop 41).take 32) < n
        rw [m, hbe _ (Nat.lt_trans hq.2 hn)]
        exact hq
  rw [e, Set.InjOn.ncard_image, Set.ncard_prod, ncard_words, Set.ncard_coe_finset, Nat.card_Ico, Nat.mul_comm]
  rintro ⟨p, q⟩ ⟨hp, hq⟩ ⟨p', q'⟩ ⟨hp', hq'⟩ h
  have l1 : p.length = 41 := hp
  have l2 : p'.length = 41 := hp'
  have b1 : 1 ≤ q ∧ q < n := Finset.mem_Ico.mp (Finset.mem_coe.mp hq)
  have b2 : 1 ≤ q' ∧ q' < n := Finset.mem_Ico.mp (Finset.mem_coe.mp hq')
  have lf : ∀ p q, p.length = 41 → (f (p, q)).length = 73 := fun p q hp => List.length_append.trans (by rw [hp, Bytes.beBytes_length])
  have h1 := (List.append_inj h ((lf p q l1).trans (lf p' q' l2).symm)).1
  obtain ⟨h2, h3⟩ := List.append_inj h1 (l1.trans l2.symm)
  have h4 : be (Bytes.beBytes 32 q) = be (Bytes.beBytes 32 q') := congrArg be h3
  rw [hbe _ (Nat.lt_trans b1.2 hn), hbe _ (Nat.lt_trans b2.2 hn)] at h4
  exact Prod.ext h2 h4

/-- 96 bytes, by the two that Cardano checks. -/
theorem cut96 {v : Bytes} (h : v.length = 96) : ∃ (a b : UInt8) (m r : Bytes), v = [a] ++ m ++ [b] ++ r ∧ m.length = 30 ∧ r.length = 64 := by
  obtain ⟨a, b, m, r, e, hm, hr⟩ := cut64 (v := v.take 64) (by simp [h])
  refine ⟨a, b, m, r ++ v.drop 64, ?_, hm, by simp [h, hr]⟩
  rw [← List.append_assoc, ← e, List.take_append_drop]

/-- C109: one in 64 of the byte strings of 96 bytes loads as a Cardano key, and no other. -/
theorem C109_cardano (H : Hashes) (C : Curve) (E : Cardano.Ed) :
    {d : Bytes | ∃ k, (factoryOf H C E .cardano).keyFromData d = .ok k}.ncard * 64 = 256 ^ 96 := by
  let f : (UInt8 × UInt8) × (Bytes × Bytes) → Bytes := fun y => [y.1.1] ++ y.2.1 ++ [y.1.2] ++ y.2.2
  have e : {d : Bytes | ∃ k, (factoryOf H C E .cardano).keyFromData d = .ok k} =
      f '' ((↑((Finset.univ.filter fun a : UInt8 => a.toNat % 8 = 0) ×ˢ (Finset.univ.filter fun b : UInt8 => b.toNat / 32 = 2)) :
        Set (UInt8 × UInt8)) ×ˢ ({m : Bytes | m.length = 30} ×ˢ {r : Bytes | r.length = 64})) := by
    ext d
    obtain ⟨h1, h2, h3, h4⟩ := C30_load H C E d
    constructor
    · rintro ⟨k, hk⟩
      have hl : d.length = 96 := by
        rcases Nat.lt_trichotomy d.length 96 with h | h | h
        · rw [h1 h] at hk; cases hk
        · exact h
        · rw [h2 h] at hk; cases hk
      have hc : Clamped d := by
        by_contra hc
        obtain ⟨e, -, he⟩ := h4 hl hc
        rw [he] at hk; cases hk
      obtain ⟨a, b, m, r, rfl, hm, hr⟩ := cut96 hl
      obtain ⟨g1, g2, -, -⟩ := cut64_get a b m r hm
      rw [Clamped, g1, g2] at hc
      refine ⟨((a, b), (m, r)), ⟨?_, hm, hr⟩, rfl⟩
      simp only [Finset.coe_product, Set.mem_prod, Finset.mem_coe, Finset.mem_filter, Finset.mem_univ, true_and]
      exact ⟨hc.2, hc.1⟩
    · rintro ⟨⟨⟨a, b⟩, ⟨m, r⟩⟩, ⟨hab, hm, hr⟩, rfl⟩
      have hm : m.length = 30 := hm
      have hr : r.length = 64 := hr
      simp only [Finset.coe_product, Set.mem_prod, Finset.mem_coe, Finset.mem_filter, Finset.mem_univ, true_and] at hab
      refine h3 ?_ ?_
      · show ([a] ++ m ++ [b] ++ r).length = 96
        simp [hm, hr]
      · show Clamped ([a] ++ m ++ [b] ++ r)
        obtain ⟨g1, g2, -, -⟩ := cut64_get a b m r hm
        rw [Clamped, g1, g2]
        exact ⟨hab.2, hab.1⟩
  have c1 : (Finset.univ.filter fun a : UInt8 => a.toNat % 8 = 0).card = 32 := by decide +kernel
  have c2 : (Finset.univ.filter fun b : UInt8 => b.toNat / 32 = 2).card = 32 := by decide +kernel
  rw [e, Set.InjOn.ncard_image, Set.ncard_prod, Set.ncard_prod, ncard_words, ncard_words, Set.ncard_coe_finset, Finset.card_product, c1, c2]
  · decide +kernel
  · rintro ⟨⟨a, b⟩, ⟨m, r⟩⟩ ⟨-, hm, hr⟩ ⟨⟨a', b'⟩, ⟨m', r'⟩⟩ ⟨-, hm', hr'⟩ h
    have l1 : m.length = 30 := hm
    have l2 : m'.length = 30 := hm'
    have h : [a] ++ m ++ [b] ++ r = [a'] ++ m' ++ [b'] ++ r' := h
    obtain ⟨g1, g2, g3, g4⟩ := cut64_get a b m r l1
    obtain ⟨k1, k2, k3, k4⟩ := cut64_get a' b' m' r' l2
    rw [h] at g1 g2 g3 g4
    rw [← g1, ← g2, ← g3, ← g4, k1, k2, k3, k4]

theorem load_secp {H : Hashes} {C : Curve} {E : Cardano.Ed} {d : Bytes} :
    (∃ k, (factoryOf H C E .bitcoin).keyFromData d = .ok k) ↔ ∃ x, XPrv.fromData H d = .ok x := by
  constructor
  · rintro ⟨k, hk⟩
    cases h : XPrv.fromData H d with
    | ok x => exact ⟨x, rfl⟩
    | err e => simp [factoryOf, Bitcoin.factory, Bitcoin.keyFromData, h, Res.mapErr, Res.map] at hk
    | panic => simp [factoryOf, Bitcoin.factory, Bitcoin.keyFromData, h, Res.mapErr, Res.map] at hk
  · rintro ⟨x, hx⟩
    simp [factoryOf, Bitcoin.factory, Bitcoin.keyFromData, hx, Res.mapErr, Res.map]

/-- C109: the byte strings that load as a Bitcoin key. -/
theorem C109_bitcoin (H : Hashes) (C : Curve) (E : Cardano.Ed) :
    {d : Bytes | ∃ k, (factoryOf H C E .bitcoin).keyFromData d = .ok k}.ncard = (n - 1) * 256 ^ 41 := by
  rw [← C109_secp H]
  exact congrArg Set.ncard (Set.ext fun d => load_secp)

/-- C109: no more load as an Ethereum key, which is derived two steps on from the data. -/
theorem C109_ethereum (H : Hashes) (C : Curve) (E : Cardano.Ed) :
    {d : Bytes | ∃ k, (factoryOf H C E .ethereum).keyFromData d = .ok k}.ncard ≤ (n - 1) * 256 ^ 41 := by
  have c := C109_secp H
  rw [← c]
  refine Set.ncard_le_ncard ?_ (Set.finite_of_ncard_pos ?_)
  · rintro d ⟨k, hk⟩
    cases h : XPrv.fromData H d with
    | ok x => exact ⟨x, h⟩
    | err e => simp [factoryOf, Ethereum.factory, Ethereum.keyFromData, h, Res.mapErr, Res.map] at hk
    | panic => simp [factoryOf, Ethereum.factory, Ethereum.keyFromData, h, Res.mapErr, Res.map] at hk
  · rw [c]
    decide +kernel

/-- C109: less than one in 2^32 of the byte strings of 77 bytes loads. -/
theorem C109_share : (n - 1) * 256 ^ 41 * 2 ^ 32 < 256 ^ 77 := by decide +kernel

/-- Non-vacuity: the key 1 with its checksum loads, and the clamped key of Cardano. -/
example (H : Hashes) (C : Curve) (E : Cardano.Ed) :
    (∃ x, XPrv.fromData H ((List.replicate 72 0 ++ [1]) ++ (H.sha256 (H.sha256 (List.replicate 72 0 ++ [1]))).take 4) = .ok x) ∧
    ¬ (∃ x, XPrv.fromData H ((List.replicate 73 0) ++ (H.sha256 (H.sha256 (List.replicate 73 0))).take 4) = .ok x) ∧
    (∃ k, (factoryOf H C E .cardano).keyFromData (List.replicate 31 0 ++ [64] ++ List.replicate 64 0) = .ok k) := by
  refine ⟨?_, ?_, (C30_load H C E _).2.2.1 rfl (by unfold Clamped; decide +kernel)⟩
  · rw [C24_accepts]
    generalize hc : (H.sha256 (H.sha256 (List.replicate 72 0 ++ [1]))).take 4 = c
    have lc : c.length = 4 := hc ▸ sha256_take4 H _
    have m : (((List.replicate 72 0 ++ [1] ++ c : Bytes).drop 41).take 32) = List.replicate 31 0 ++ [1] := by
      rw [List.drop_append_of_le_length (by decide), List.take_append_of_le_length (by decide)]
      decide +kernel
    refine ⟨by simp [lc], ?_, ?_, ?_⟩
    · rw [List.take_left' (by decide), List.drop_left' (by decide), hc]
    · rw [m]; decide +kernel
    · rw [m]; decide +kernel
  · rw [C24_accepts]
    generalize hc : (H.sha256 (H.sha256 (List.replicate 73 0))).take 4 = c
    have lc : c.length = 4 := hc ▸ sha256_take4 H _
    match c, lc with
    | [a, b, d, e], _ =>
      rintro ⟨-, -, h, -⟩
      have h : 1 ≤ be (List.replicate 32 0) := h
      revert h
      decide +kernel

end KC.Props
