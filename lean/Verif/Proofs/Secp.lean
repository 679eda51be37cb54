import Verif.Spec.Bip32
import Verif.Tactics
/-
Lemmas on byte layouts and on the model of secp256k1_bip32.
-/
namespace KC.Bytes
open KC.Spec.Bip32 (be IsBe)

theorem beNat_foldl (b : Bytes) (a : Nat) :
    b.foldl (fun a x => a * 256 + x.toNat) a = a * 256 ^ b.length + be b := by
  induction b generalizing a with
  | nil => simp [be]
  | cons x b ih =>
    rw [List.foldl_cons, ih, be, List.length_cons, Nat.pow_succ]
    rw [Nat.add_mul, Nat.mul_assoc, Nat.mul_comm 256, Nat.add_assoc]

theorem beNat_eq (b : Bytes) : beNat b = be b := by
  rw [beNat, beNat_foldl]; simp

theorem be_append (a b : Bytes) : be (a ++ b) = be a * 256 ^ b.length + be b := by
  rw [← beNat_eq, beNat, List.foldl_append, beNat_foldl, ← beNat_eq a, beNat]

theorem be_lt (b : Bytes) : be b < 256 ^ b.length := by
  induction b with
  | nil => simp [be]
  | cons x b ih =>
    rw [be, List.length_cons, Nat.pow_succ]
    have h : x.toNat < 256 := UInt8.toNat_lt x
    have h2 : x.toNat * 256 ^ b.length + 256 ^ b.length ≤ 256 * 256 ^ b.length := by
      rw [← Nat.succ_mul]; exact Nat.mul_le_mul_right _ h
    rw [Nat.mul_comm (256 ^ b.length)]
    omega

theorem beBytes_length (k x : Nat) : (beBytes k x).length = k := by
  induction k generalizing x with
  | zero => rfl
  | succ k ih => simp [beBytes, ih]

theorem be_beBytes (k x : Nat) : be (beBytes k x) = x % 256 ^ k := by
  induction k generalizing x with
  | zero => simp [beBytes, be, Nat.mod_one]
  | succ k ih =>
    have hx : (UInt8.ofNat x).toNat = x % 256 := by simp
    rw [beBytes, be_append, ih]
    simp only [be, List.length_cons, List.length_nil, hx]
    rw [show x % 256 ^ (k + 1) = x % (256 * 256 ^ k) by rw [Nat.pow_succ, Nat.mul_comm], Nat.mod_mul]
    omega

theorem isBe_beBytes {k x : Nat} (h : x < 256 ^ k) : IsBe k x (beBytes k x) :=
  ⟨beBytes_length k x, by rw [be_beBytes, Nat.mod_eq_of_lt h]⟩

theorem be_inj {a b : Bytes} (hl : a.length = b.length) (h : be a = be b) : a = b := by
  induction a generalizing b with
  | nil => cases b with
    | nil => rfl
    | cons => simp at hl
  | cons x a ih =>
    cases b with
    | nil => simp at hl
    | cons y b =>
      have hl : a.length = b.length := by simpa using hl
      rw [be, be, hl] at h
      have ha := be_lt a
      have hb := be_lt b
      rw [hl] at ha
      have hp : 0 < 256 ^ b.length := Nat.pow_pos (by decide)
      generalize 256 ^ b.length = P at *
      have hxy : x.toNat = y.toNat := by
        have h1 : (x.toNat * P + be a) / P = x.toNat := by
          rw [Nat.mul_comm, Nat.mul_add_div hp, Nat.div_eq_of_lt ha]; omega
        have h2 : (y.toNat * P + be b) / P = y.toNat := by
          rw [Nat.mul_comm, Nat.mul_add_div hp, Nat.div_eq_of_lt hb]; omega
        rw [← h1, ← h2, h]
      rw [hxy] at h
      have := ih hl (by omega)
      rw [this, UInt8.toNat_inj.mp hxy]

theorem isBe_unique {k x : Nat} {a b : Bytes} (ha : IsBe k x a) (hb : IsBe k x b) : a = b :=
  be_inj (ha.1.trans hb.1.symm) (ha.2.trans hb.2.symm)

theorem isBe_iff {k x : Nat} (h : x < 256 ^ k) {b : Bytes} : IsBe k x b ↔ b = beBytes k x :=
  ⟨fun hb => isBe_unique hb (isBe_beBytes h), fun e => e ▸ isBe_beBytes h⟩

theorem beBytes_be (b : Bytes) : beBytes b.length (be b) = b :=
  isBe_unique (isBe_beBytes (be_lt b)) ⟨rfl, rfl⟩

theorem slice_eq {b : Bytes} {i j : Nat} (h : i ≤ j) (h2 : j ≤ b.length) :
    slice b i j = some ((b.drop i).take (j - i)) := if_pos ⟨h, h2⟩

theorem slice_append (a m c : Bytes) {i j : Nat} (hi : a.length = i) (hj : i + m.length = j) :
    slice (a ++ m ++ c) i j = some m := by
  rw [slice_eq (by omega) (by simp; omega)]
  subst hi hj
  simp

theorem copyFrom_eq {k : Nat} {b : Bytes} (h : b.length = k) : copyFrom k b = some ⟨b, h⟩ := dif_pos h

end KC.Bytes

namespace KC.Secp
open KC.Bytes
open KC.Spec.Bip32

theorem order_eq : order = n := by decide +kernel
theorem order_pos : 0 < order := by decide +kernel
theorem mod_order (a : Nat) : a % order = a % n := by rw [order_eq]
theorem order_lt : order < 256 ^ 32 := by decide +kernel

attribute [local irreducible] order

theorem secret_lt (k : Secret) : k.val < 256 ^ 32 := Nat.lt_trans k.2.2 order_lt

theorem serSecret_isBe (k : Secret) : IsBe 32 k.val (serSecret k) := isBe_beBytes (secret_lt k)
theorem serSecret_len (k : Secret) : (serSecret k).length = 32 := (serSecret_isBe k).1

theorem u32_lt (i : UInt32) : i.toNat < 256 ^ 4 := UInt32.toNat_lt i

theorem index_isBe (i : UInt32) : IsBe 4 i.toNat (beBytes 4 i.toNat) := isBe_beBytes (u32_lt i)

theorem parseSecret_ok {b : Bytes} {k : Secret} : parseSecret b = .ok k ↔ IsBe 32 k.val b := by
  unfold parseSecret
  constructor
  · intro h
    split at h
    · cases h
    · rename_i hl
      split at h
      · simp only [Res.ok.injEq] at h
        subst h
        exact ⟨by omega, (beNat_eq b).symm⟩
      · cases h
  · rintro ⟨hl, hv⟩
    rw [if_neg (by omega)]
    rw [← beNat_eq] at hv
    rw [dif_pos (by rw [hv]; exact k.2)]
    simp only [Res.ok.injEq]
    exact Subtype.ext hv

theorem parseSecret_err {b : Bytes} (h : b.length = 32) (hb : be b = 0 ∨ n ≤ be b) : parseSecret b = .err .invalidSecretKey := by
  unfold parseSecret
  rw [if_neg (by omega), dif_neg]
  rw [beNat_eq, order_eq]
  omega

theorem parseSecret_ne_panic (b : Bytes) : parseSecret b ≠ .panic := by
  unfold parseSecret
  split
  · simp
  · split <;> simp

/-- A split of a list of known length. -/
theorem split_at {α} (b : List α) (k m : Nat) (h : b.length = k + m) :
    ∃ x y, b = x ++ y ∧ x.length = k ∧ y.length = m :=
  ⟨b.take k, b.drop k, (List.take_append_drop k b).symm, by simp; omega, by simp; omega⟩

/-- `from_data` on data cut into its fields. -/
theorem fromData_fields (H : Hashes) (d : UInt8) (fp ix cc k cs : Bytes) (h1 : fp.length = 4) (h2 : ix.length = 4)
    (h3 : cc.length = 32) (h4 : k.length = 32) (h5 : cs.length = 4) :
    XPrv.fromData H ([d] ++ fp ++ ix ++ cc ++ k ++ cs) =
      if cs ≠ (H.sha256 (H.sha256 ([d] ++ fp ++ ix ++ cc ++ k))).take 4 then .err .invalidSecretKey
      else ((parseSecret k).mapErr .ofSec).map fun key =>
        { key, chaincode := ⟨cc, h3⟩, parentFingerprint := ⟨fp, h1⟩, depth := d, index := UInt32.ofNat (beNat ix) } := by
  set b := [d] ++ fp ++ ix ++ cc ++ k ++ cs with hb
  have hlen : b.length = keyDataSize := by
    simp [hb, h1, h2, h3, h4, h5, keyDataSize, depthSize, fingerprintSize, indexSize, chainCodeSize, keySize, checksumSize]
  have s1 : slice b depthStart keyEnd = some ([d] ++ fp ++ ix ++ cc ++ k) := by
    have := slice_append [] ([d] ++ fp ++ ix ++ cc ++ k) cs (i := depthStart) (j := keyEnd) rfl (by simp [h1, h2, h3, h4]; rfl)
    simpa [hb] using this
  have s2 : slice b checksumStart checksumEnd = some cs := by
    have := slice_append ([d] ++ fp ++ ix ++ cc ++ k) cs [] (i := checksumStart) (j := checksumEnd)
      (by simp [h1, h2, h3, h4]; rfl) (by rw [h5]; rfl)
    simpa [hb] using this
  have s3 : slice b fingerprintStart fingerprintEnd = some fp := by
    have := slice_append [d] fp (ix ++ cc ++ k ++ cs) (i := fingerprintStart) (j := fingerprintEnd) rfl (by rw [h1]; rfl)
    simpa [hb] using this
  have s4 : slice b indexStart indexEnd = some ix := by
    have := slice_append ([d] ++ fp) ix (cc ++ k ++ cs) (i := indexStart) (j := indexEnd)
      (by simp [h1]; rfl) (by rw [h2]; rfl)
    simpa [hb] using this
  have s5 : slice b chainCodeStart chainCodeEnd = some cc := by
    have := slice_append ([d] ++ fp ++ ix) cc (k ++ cs) (i := chainCodeStart) (j := chainCodeEnd)
      (by simp [h1, h2]; rfl) (by rw [h3]; rfl)
    simpa [hb] using this
  have s6 : slice b keyStart keyEnd = some k := by
    have := slice_append ([d] ++ fp ++ ix ++ cc) k cs (i := keyStart) (j := keyEnd)
      (by simp [h1, h2, h3]; rfl) (by rw [h4]; rfl)
    simpa [hb] using this
  have s7 : b[depthStart]? = some d := by simp [hb, depthStart]
  have s8 : ∀ z : Bytes, slice (H.sha256 z) 0 checksumSize = some ((H.sha256 z).take 4) := by
    intro z
    rw [slice_eq (by decide) (by rw [H.sha256_len]; decide)]
    rfl
  unfold XPrv.fromData
  rw [if_neg (by omega)]
  simp only [s1, s2, s3, s4, s5, s6, s7, s8, Res.ofPanic, Res.bind_ok,
    copyFrom_eq (show fp.length = fingerprintSize from h1), copyFrom_eq (show cc.length = chainCodeSize from h3)]
  split
  · rfl
  · cases parseSecret k <;> rfl

/-- Cutting 77 bytes into fields. -/
theorem cut77 (b : Bytes) (h : b.length = 77) : ∃ (d : UInt8) (fp ix cc k cs : Bytes),
    b = [d] ++ fp ++ ix ++ cc ++ k ++ cs ∧ fp.length = 4 ∧ ix.length = 4 ∧ cc.length = 32 ∧ k.length = 32 ∧ cs.length = 4 := by
  obtain ⟨b5, cs, rfl, l5, e5⟩ := split_at b 73 4 h
  obtain ⟨b4, k, rfl, l4, e4⟩ := split_at b5 41 32 l5
  obtain ⟨b3, cc, rfl, l3, e3⟩ := split_at b4 9 32 l4
  obtain ⟨b2, ix, rfl, l2, e2⟩ := split_at b3 5 4 l3
  obtain ⟨b1, fp, rfl, l1, e1⟩ := split_at b2 1 4 l2
  obtain ⟨d, rfl⟩ := List.length_eq_one_iff.mp l1
  exact ⟨d, fp, ix, cc, k, cs, rfl, e1, e2, e3, e4, e5⟩

theorem prefix_take {α} {a b : List α} {k : Nat} (h : a.length = k) : a <+: b ↔ a = b.take k ∧ k ≤ b.length := by
  constructor
  · rintro ⟨t, rfl⟩
    subst h
    simp
  · rintro ⟨e, -⟩
    rw [e]; exact List.take_prefix k b

theorem fromData_ok (H : Hashes) (b : Bytes) (x : XPrv) : XPrv.fromData H b = .ok x ↔ Layout H x b := by
  by_cases hl : b.length = 77
  · obtain ⟨d, fp, ix, cc, k, cs, rfl, h1, h2, h3, h4, h5⟩ := cut77 b hl
    rw [fromData_fields H d fp ix cc k cs h1 h2 h3 h4 h5]
    constructor
    · intro h
      split at h
      · cases h
      · rename_i hc
        obtain ⟨key, hk, rfl⟩ := Res.map_eq_ok.mp h
        rw [Res.mapErr_eq_ok, parseSecret_ok] at hk
        refine ⟨fp, ix, cc, k, cs, rfl, h1, rfl, ⟨h2, ?_⟩, h3, rfl, hk, h5, ?_⟩
        · show be ix = (UInt32.ofNat (beNat ix)).toNat
          have := be_lt ix
          rw [h2] at this
          rw [beNat_eq, UInt32.toNat_ofNat_of_lt' this]
        · rw [prefix_take h5]
          exact ⟨not_not.mp hc, by rw [H.sha256_len]; decide⟩
    · rintro ⟨fp', ix', cc', k', cs', e, l1, e1, l2, l3, e3, l4, l5, hc⟩
      obtain ⟨f1, rfl⟩ := List.append_inj' e (h5.trans l5.symm)
      obtain ⟨f2, rfl⟩ := List.append_inj' f1 (h4.trans l4.1.symm)
      obtain ⟨f3, rfl⟩ := List.append_inj' f2 (h3.trans l3.symm)
      obtain ⟨f4, rfl⟩ := List.append_inj' f3 (h2.trans l2.1.symm)
      obtain ⟨f5, rfl⟩ := List.append_inj' f4 (h1.trans l1.symm)
      simp only [List.cons.injEq, and_true] at f5
      subst f5
      rw [prefix_take h5] at hc
      rw [if_neg (not_not.mpr hc.1), Res.map_eq_ok]
      refine ⟨x.key, by rw [Res.mapErr_eq_ok, parseSecret_ok]; exact l4, ?_⟩
      rcases x with ⟨key, ⟨_, _⟩, ⟨_, _⟩, d, i⟩
      simp only at e1 e3 l2
      subst e1 e3
      simp only [XPrv.mk.injEq, true_and]
      rw [beNat_eq, l2.2, UInt32.ofNat_toNat]
  · have : XPrv.fromData H b = .err (.invalidDataSize b.length 77) := if_pos hl
    rw [this]
    simp only [reduceCtorEq, false_iff]
    rintro ⟨fp', ix', cc', k', cs', rfl, l1, e1, l2, l3, e3, l4, l5, hc⟩
    apply hl
    simp [l1, l2.1, l3, l4.1, l5]

theorem serialize_eq (H : Hashes) (x : XPrv) : ∃ b, x.serialize H = some b ∧ Layout H x b := by
  have s8 : ∀ z : Bytes, slice (H.sha256 z) 0 checksumSize = some ((H.sha256 z).take 4) := by
    intro z
    rw [slice_eq (by decide) (by rw [H.sha256_len]; decide)]
    rfl
  refine ⟨_, by unfold XPrv.serialize; dsimp only; rw [s8]; rfl, ?_⟩
  refine ⟨x.parentFingerprint.val, beBytes 4 x.index.toNat, x.chaincode.val, serSecret x.key, _, rfl, x.parentFingerprint.2, rfl,
    index_isBe _, x.chaincode.2, rfl, serSecret_isBe _, ?_, List.take_prefix _ _⟩
  rw [List.length_take, H.sha256_len]; decide

theorem layout_unique {H : Hashes} {x : XPrv} {a b : Bytes} (ha : Layout H x a) (hb : Layout H x b) : a = b := by
  obtain ⟨fp, ix, cc, k, cs, rfl, h1, e1, h2, h3, e3, h4, h5, hc⟩ := ha
  obtain ⟨fp', ix', cc', k', cs', rfl, l1, f1, l2, l3, f3, l4, l5, hd⟩ := hb
  obtain rfl := isBe_unique h2 l2
  obtain rfl := isBe_unique h4 l4
  subst e1 e3 f1 f3
  rw [prefix_take h5] at hc
  rw [prefix_take l5] at hd
  rw [hc.1, hd.1]

theorem layout_length {H : Hashes} {x : XPrv} {a : Bytes} (ha : Layout H x a) : a.length = 77 := by
  obtain ⟨fp, ix, cc, k, cs, rfl, h1, e1, h2, h3, e3, h4, h5, hc⟩ := ha
  simp [h1, h2.1, h3, h4.1, h5]

/-- The HMAC of a derivation step, as the code computes it. -/
theorem stepHash_iff (H : Hashes) (C : Curve) (x : XPrv) (i : UInt32) (I : Bytes) :
    StepHash H C x i I ↔ I = H.hmacSha512 x.chaincode.val
      (if decide (i ≥ softUpperBound) = true then [0x00] ++ serSecret x.key ++ beBytes 4 i.toNat
       else C.serCompressed (x.public C) ++ beBytes 4 i.toNat) := by
  have hb : (i ≥ softUpperBound) ↔ 2 ^ 31 ≤ i.toNat := UInt32.le_iff_toNat_le
  constructor
  · rintro ⟨k, ib, hk, hi, h⟩
    rw [isBe_unique hk (serSecret_isBe _), isBe_unique hi (index_isBe _)] at h
    rcases h with ⟨h1, h2⟩ | ⟨h1, h2⟩
    · rw [if_pos (decide_eq_true (hb.mpr h1))]; exact h2
    · rw [if_neg (by rw [decide_eq_true_eq, hb]; omega)]; exact h2
  · intro h
    refine ⟨_, _, serSecret_isBe _, index_isBe _, ?_⟩
    by_cases h1 : 2 ^ 31 ≤ i.toNat
    · rw [if_pos (decide_eq_true (hb.mpr h1))] at h; exact Or.inl ⟨h1, h⟩
    · rw [if_neg (by rw [decide_eq_true_eq, hb]; omega)] at h; exact Or.inr ⟨by omega, h⟩

theorem stepHash_unique {H : Hashes} {C : Curve} {x : XPrv} {i : UInt32} {I J : Bytes} (h : StepHash H C x i I)
    (h2 : StepHash H C x i J) : I = J := by
  rw [stepHash_iff] at h h2; rw [h, h2]

theorem stepHash_exists (H : Hashes) (C : Curve) (x : XPrv) (i : UInt32) :
    ∃ il ir, il.length = 32 ∧ ir.length = 32 ∧ StepHash H C x i (il ++ ir) := by
  obtain ⟨il, ir, e, h1, h2⟩ := split_at (H.hmacSha512 x.chaincode.val
      (if decide (i ≥ softUpperBound) = true then [0x00] ++ serSecret x.key ++ beBytes 4 i.toNat
       else C.serCompressed (x.public C) ++ beBytes 4 i.toNat)) 32 32 (H.hmacSha512_len _ _)
  exact ⟨il, ir, h1, h2, (stepHash_iff ..).mpr e.symm⟩

theorem tweakAdd_eq (k t : Secret) : tweakAdd k t =
    if h : 0 < (k.val + t.val) % order then .ok ⟨(k.val + t.val) % order, h, Nat.mod_lt _ order_pos⟩
    else .err .tweakOutOfRange := rfl

/-- The tail of `derive` after the HMAC. -/
theorem derive_eq (H : Hashes) (C : Curve) (x : XPrv) (i : UInt32) (il ir : Bytes) (h1 : il.length = 32) (h2 : ir.length = 32)
    (hI : StepHash H C x i (il ++ ir)) (hd : x.depth ≠ 255) :
    x.derive H C i = ((parseSecret il).mapErr .ofSec).bind fun tweak =>
      match tweakAdd x.key tweak with
      | .ok newpk => do
        let h160 := H.ripemd160 (compressedSha256 H C (x.public C))
        let fp ← Res.ofPanic (slice h160 0 fingerprintSize)
        let parentFingerprint ← Res.ofPanic (copyFrom fingerprintSize fp)
        .ok { key := newpk, depth := x.depth + 1, chaincode := ⟨ir, h2⟩, index := i, parentFingerprint }
      | _ =>
        if (decide (i ≥ softUpperBound) = true ∧ i < 4294967295) ∨ (¬ decide (i ≥ softUpperBound) = true ∧ i < softUpperBound) then
          x.derive H C (i + 1)
        else .err .tweakOutOfRange := by
  rw [stepHash_iff] at hI
  rw [XPrv.derive, if_neg hd]
  dsimp only
  rw [← hI]
  have l : (il ++ ir).length = 64 := by simp [h1, h2]
  have s1 : slice (il ++ ir) keySize (keySize + chainCodeSize) = some ir := by
    have := slice_append il ir [] (i := keySize) (j := keySize + chainCodeSize) h1 (by rw [h2]; rfl)
    simpa using this
  have s2 : slice (il ++ ir) 0 keySize = some il := by
    have := slice_append [] il ir (i := 0) (j := keySize) rfl (by rw [h1]; rfl)
    simpa using this
  rw [if_neg (by rw [l]; decide), s1, s2]
  simp only [Res.ofPanic, Res.bind_ok, copyFrom_eq (show ir.length = chainCodeSize from h2)]
  cases parseSecret il with
  | err e => rfl
  | panic => rfl
  | ok t =>
    simp only [Res.mapErr, Res.bind_ok, Res.bind]
    cases tweakAdd x.key t <;> simp only [dite_eq_ite]

theorem succ_toNat {i : UInt32} (h : i.toNat + 1 < 2 ^ 32) : (i + 1).toNat = i.toNat + 1 := by
  rw [UInt32.toNat_add]
  show (i.toNat + 1) % 2 ^ 32 = _
  exact Nat.mod_eq_of_lt h

theorem depth_ne {d : UInt8} : d ≠ 255 ↔ d.toNat < 255 := by
  have := UInt8.toNat_lt d
  rw [Ne, ← UInt8.toNat_inj]
  show ¬ d.toNat = 255 ↔ _
  omega

theorem derive_bad {H : Hashes} {C : Curve} {x : XPrv} {i : UInt32} (hd : x.depth.toNat < 255) (h : BadLeft H C x i) :
    x.derive H C i = .err .invalidSecretKey := by
  obtain ⟨il, ir, h1, h2, hI, hb⟩ := h
  rw [derive_eq H C x i il ir h1 h2 hI (depth_ne.mpr hd), parseSecret_err h1 hb]
  rfl

theorem secret_of_be {il : Bytes} (h1 : il.length = 32) (h0 : 0 < be il) (h : be il < n) :
    ∃ t : Secret, parseSecret il = .ok t ∧ t.val = be il :=
  ⟨⟨be il, h0, order_eq ▸ h⟩, parseSecret_ok.mpr ⟨h1, rfl⟩, rfl⟩

theorem derive_zero {H : Hashes} {C : Curve} {x : XPrv} {i : UInt32} (hd : x.depth.toNat < 255) (h : ZeroSum H C x i) :
    x.derive H C i = if i.toNat + 1 < 2 ^ 32 then x.derive H C (i + 1) else .err .tweakOutOfRange := by
  obtain ⟨il, ir, h1, h2, hI, h0, hn, hz⟩ := h
  obtain ⟨t, ht, hv⟩ := secret_of_be h1 h0 hn
  rw [derive_eq H C x i il ir h1 h2 hI (depth_ne.mpr hd), ht]
  have : tweakAdd x.key t = .err .tweakOutOfRange := by
    rw [tweakAdd_eq, dif_neg]
    rw [hv, Nat.add_comm, mod_order, hz]
    exact Nat.lt_irrefl 0
  simp only [Res.mapErr, Res.bind, this]
  have hb : (i ≥ softUpperBound) ↔ 2 ^ 31 ≤ i.toNat := UInt32.le_iff_toNat_le
  have hb2 : (i < softUpperBound) ↔ i.toNat < 2 ^ 31 := UInt32.lt_iff_toNat_lt
  have hb3 : (i < 4294967295) ↔ i.toNat < 4294967295 := UInt32.lt_iff_toNat_lt
  simp only [decide_eq_true_eq, hb, hb2, hb3]
  by_cases hi : i.toNat + 1 < 2 ^ 32
  · rw [if_pos hi, if_pos (by omega)]
  · rw [if_neg hi, if_neg (by omega)]

theorem derive_child {H : Hashes} {C : Curve} {x : XPrv} {i : UInt32} {il ir : Bytes} (hd : x.depth.toNat < 255)
    (h1 : il.length = 32) (h2 : ir.length = 32) (hI : StepHash H C x i (il ++ ir)) (h0 : 0 < be il) (hn : be il < n)
    (hz : (be il + x.key.val) % n ≠ 0) : ∃ y, x.derive H C i = .ok y ∧ Child H C x i y := by
  obtain ⟨t, ht, hv⟩ := secret_of_be h1 h0 hn
  have hm : (x.key.val + t.val) % order = (be il + x.key.val) % n := by rw [hv, Nat.add_comm, mod_order]
  have hp : 0 < (x.key.val + t.val) % order := by rw [hm]; exact Nat.pos_of_ne_zero hz
  have ht2 : tweakAdd x.key t = .ok ⟨(x.key.val + t.val) % order, hp, Nat.mod_lt _ order_pos⟩ := by
    rw [tweakAdd_eq, dif_pos hp]
  have s : slice (H.ripemd160 (compressedSha256 H C (x.public C))) 0 fingerprintSize =
      some ((H.ripemd160 (compressedSha256 H C (x.public C))).take 4) := by
    rw [slice_eq (by decide) (by rw [H.ripemd160_len]; decide)]; rfl
  have l : ((H.ripemd160 (compressedSha256 H C (x.public C))).take 4).length = fingerprintSize := by
    rw [List.length_take, H.ripemd160_len]; decide
  refine ⟨{ key := ⟨(x.key.val + t.val) % order, hp, Nat.mod_lt _ order_pos⟩, depth := x.depth + 1, chaincode := ⟨ir, h2⟩,
            index := i, parentFingerprint := ⟨_, l⟩ }, ?_, il, ir, h1, h2, hI, h0, hn, hm, rfl, ?_, rfl, List.take_prefix _ _⟩
  · rw [derive_eq H C x i il ir h1 h2 hI (depth_ne.mpr hd), ht]
    simp only [Res.mapErr, Res.bind, ht2]
    rw [s]
    simp only [Res.ofPanic, Res.bind_ok, copyFrom_eq l]
  · show (x.depth + 1).toNat = _
    rw [UInt8.toNat_add]
    exact Nat.mod_eq_of_lt (show x.depth.toNat + 1 < 256 by omega)

/-- Each step has exactly one of three outcomes. -/
theorem step_cases (H : Hashes) (C : Curve) (x : XPrv) (i : UInt32) :
    BadLeft H C x i ∨ ZeroSum H C x i ∨ ∃ il ir, il.length = 32 ∧ ir.length = 32 ∧ StepHash H C x i (il ++ ir) ∧
      0 < be il ∧ be il < n ∧ (be il + x.key.val) % n ≠ 0 := by
  obtain ⟨il, ir, h1, h2, hI⟩ := stepHash_exists H C x i
  by_cases hb : be il = 0 ∨ n ≤ be il
  · exact Or.inl ⟨il, ir, h1, h2, hI, hb⟩
  · by_cases hz : (be il + x.key.val) % n = 0
    · exact Or.inr (Or.inl ⟨il, ir, h1, h2, hI, by omega, by omega, hz⟩)
    · exact Or.inr (Or.inr ⟨il, ir, h1, h2, hI, by omega, by omega, hz⟩)

theorem split_unique {a b c d : Bytes} (h1 : a.length = 32) (h2 : c.length = 32) (h : a ++ b = c ++ d) : a = c ∧ b = d :=
  List.append_inj h (h1.trans h2.symm)

theorem child_unique {H : Hashes} {C : Curve} {x : XPrv} {i : UInt32} {y z : XPrv} (hy : Child H C x i y)
    (hz : Child H C x i z) : y = z := by
  obtain ⟨il, ir, h1, h2, hI, h0, hn, k1, k2, k3, k4, k5⟩ := hy
  obtain ⟨jl, jr, g1, g2, gI, g0, gn, m1, m2, m3, m4, m5⟩ := hz
  obtain ⟨rfl, rfl⟩ := split_unique h1 g1 (stepHash_unique hI gI)
  rcases y with ⟨⟨ky, _⟩, ⟨cy, _⟩, ⟨fy, ly⟩, dy, iy⟩
  rcases z with ⟨⟨kz, _⟩, ⟨cz, _⟩, ⟨fz, lz⟩, dz, iz⟩
  simp only at k1 k2 k3 k4 k5 m1 m2 m3 m4 m5
  have hd : dy = dz := UInt8.toNat_inj.mp (k3.trans m3.symm)
  rw [prefix_take ly] at k5
  rw [prefix_take lz] at m5
  subst hd
  obtain rfl := k1.trans m1.symm
  obtain rfl := k2.trans m2.symm
  obtain rfl := k4.trans m4.symm
  obtain rfl := k5.1.trans m5.1.symm
  rfl

theorem child_not_bad {H : Hashes} {C : Curve} {x : XPrv} {i : UInt32} {y : XPrv} (hy : Child H C x i y) :
    ¬ BadLeft H C x i ∧ ¬ ZeroSum H C x i := by
  obtain ⟨il, ir, h1, h2, hI, h0, hn, k1, k2, k3, k4, k5⟩ := hy
  constructor
  · rintro ⟨jl, jr, g1, g2, gI, hb⟩
    obtain ⟨rfl, rfl⟩ := split_unique h1 g1 (stepHash_unique hI gI)
    omega
  · rintro ⟨jl, jr, g1, g2, gI, _, _, hz⟩
    obtain ⟨rfl, rfl⟩ := split_unique h1 g1 (stepHash_unique hI gI)
    rw [hz] at k1
    have := y.key.2.1
    omega

theorem bad_not_zero {H : Hashes} {C : Curve} {x : XPrv} {i : UInt32} (h : BadLeft H C x i) : ¬ ZeroSum H C x i := by
  obtain ⟨il, ir, h1, h2, hI, hb⟩ := h
  rintro ⟨jl, jr, g1, g2, gI, h0, hn, hz⟩
  obtain ⟨rfl, rfl⟩ := split_unique h1 g1 (stepHash_unique hI gI)
  omega

/-- Where the chain of zero sums from `i` ends. -/
inductive Outcome (H : Hashes) (C : Curve) (x : XPrv) (i : UInt32) : Res KeyError XPrv → Prop
  | child {j y} : i.toNat ≤ j.toNat → (∀ l : UInt32, i.toNat ≤ l.toNat → l.toNat < j.toNat → ZeroSum H C x l) →
      Child H C x j y → Outcome H C x i (.ok y)
  | bad {j} : i.toNat ≤ j.toNat → (∀ l : UInt32, i.toNat ≤ l.toNat → l.toNat < j.toNat → ZeroSum H C x l) →
      BadLeft H C x j → Outcome H C x i (.err .invalidSecretKey)
  | out : (∀ l : UInt32, i.toNat ≤ l.toNat → ZeroSum H C x l) → Outcome H C x i (.err .tweakOutOfRange)

theorem derive_outcome (H : Hashes) (C : Curve) (x : XPrv) (hd : x.depth.toNat < 255) :
    ∀ (m : Nat) (i : UInt32), 2 ^ 32 - i.toNat ≤ m → Outcome H C x i (x.derive H C i) := by
  intro m
  induction m with
  | zero =>
    intro i h
    have : i.toNat < 2 ^ 32 := UInt32.toNat_lt i
    omega
  | succ m ih =>
    intro i h
    rcases step_cases H C x i with hb | hz | ⟨il, ir, h1, h2, hI, h0, hn, hz⟩
    · rw [derive_bad hd hb]
      exact .bad (Nat.le_refl _) (fun l h1 h2 => by omega) hb
    · rw [derive_zero hd hz]
      by_cases hi : i.toNat + 1 < 2 ^ 32
      · rw [if_pos hi]
        have e := succ_toNat hi
        have key : ∀ l : UInt32, i.toNat ≤ l.toNat → l = i ∨ (i + 1).toNat ≤ l.toNat := by
          intro l hl
          by_cases h : l.toNat = i.toNat
          · exact Or.inl (UInt32.toNat_inj.mp h)
          · right; omega
        have ih' := ih (i + 1) (by omega)
        generalize x.derive H C (i + 1) = r at ih'
        cases ih' with
        | child a b c =>
          refine .child (by omega) (fun l h3 h4 => ?_) c
          rcases key l h3 with rfl | h5
          · exact hz
          · exact b l h5 h4
        | bad a b c =>
          refine .bad (by omega) (fun l h3 h4 => ?_) c
          rcases key l h3 with rfl | h5
          · exact hz
          · exact b l h5 h4
        | out b =>
          refine .out (fun l h3 => ?_)
          rcases key l h3 with rfl | h5
          · exact hz
          · exact b l h5
      · rw [if_neg hi]
        refine .out (fun l h3 => ?_)
        have := UInt32.toNat_lt l
        have : l = i := UInt32.toNat_inj.mp (by omega)
        exact this ▸ hz
    · obtain ⟨y, hy, hc⟩ := derive_child hd h1 h2 hI h0 hn hz
      rw [hy]
      exact .child (Nat.le_refl _) (fun l h1 h2 => by omega) hc

theorem derive_deep {H : Hashes} {C : Curve} {x : XPrv} {i : UInt32} (h : x.depth.toNat = 255) :
    x.derive H C i = .err .deriveDepthTooBig := by
  rw [XPrv.derive, if_pos]
  exact UInt8.toNat_inj.mp h

theorem first_unique {H : Hashes} {C : Curve} {x : XPrv} {i j k : UInt32}
    (hj : i.toNat ≤ j.toNat) (hk : i.toNat ≤ k.toNat)
    (aj : ∀ l : UInt32, i.toNat ≤ l.toNat → l.toNat < j.toNat → ZeroSum H C x l)
    (ak : ∀ l : UInt32, i.toNat ≤ l.toNat → l.toNat < k.toNat → ZeroSum H C x l)
    (bj : ¬ ZeroSum H C x j) (bk : ¬ ZeroSum H C x k) : j = k := by
  rcases Nat.lt_trichotomy j.toNat k.toNat with h | h | h
  · exact absurd (ak j hj h) bj
  · exact UInt32.toNat_inj.mp h
  · exact absurd (aj k hk h) bk

/-- `derive` succeeds exactly with what the specification allows. -/
theorem derive_ok (H : Hashes) (C : Curve) (x y : XPrv) (i : UInt32) :
    x.derive H C i = .ok y ↔ Derived H C x i y := by
  by_cases hd : x.depth.toNat < 255
  · have ho := derive_outcome H C x hd _ i (Nat.le_refl _)
    constructor
    · intro h
      rw [h] at ho
      cases ho with
      | child a b c => exact ⟨hd, _, a, b, c⟩
    · rintro ⟨-, j, a, b, c⟩
      generalize x.derive H C i = r at ho
      cases ho with
      | child a' b' c' =>
        obtain rfl := first_unique a a' b b' (child_not_bad c).2 (child_not_bad c').2
        rw [child_unique c c']
      | bad a' b' c' =>
        obtain rfl := first_unique a a' b b' (child_not_bad c).2 (bad_not_zero c')
        exact absurd c' (child_not_bad c).1
      | out b' => exact absurd (b' j a) (child_not_bad c).2
  · have := UInt8.toNat_lt x.depth
    rw [derive_deep (by omega)]
    simp only [reduceCtorEq, false_iff]
    exact fun h => hd h.1

theorem derive_ne_panic (H : Hashes) (C : Curve) (x : XPrv) (i : UInt32) : x.derive H C i ≠ .panic := by
  intro hp
  by_cases hd : x.depth.toNat < 255
  · have ho := derive_outcome H C x hd _ i (Nat.le_refl _)
    rw [hp] at ho
    cases ho
  · have := UInt8.toNat_lt x.depth
    rw [derive_deep (by omega)] at hp
    cases hp

/-- Derivation along a list, as the code chains it. -/
def walk (H : Hashes) (C : Curve) (x : XPrv) : List UInt32 → Res KeyError XPrv
  | [] => .ok x
  | i :: is => (x.derive H C i).bind fun y => walk H C y is

theorem walk_ok (H : Hashes) (C : Curve) (x y : XPrv) (is : List UInt32) : walk H C x is = .ok y ↔ Walk H C x is y := by
  induction is generalizing x with
  | nil =>
    constructor
    · intro h; cases h; exact .nil _
    · rintro ⟨⟩; rfl
  | cons i is ih =>
    rw [walk]
    constructor
    · intro h
      obtain ⟨z, h1, h2⟩ := Res.bind_eq_ok.mp h
      exact .cons ((derive_ok ..).mp h1) ((ih z).mp h2)
    · rintro (_ | ⟨h1, h2⟩)
      exact Res.bind_eq_ok.mpr ⟨_, (derive_ok ..).mpr h1, (ih _).mpr h2⟩

theorem fromSeed_ok (H : Hashes) (seed : Bip39.Seed) (x : XPrv) : XPrv.fromSeed H seed = .ok x ↔ Root H seed.val x := by
  have hk : ("Bitcoin seed".toList.map fun c => UInt8.ofNat c.toNat) = hmacKey := by decide
  obtain ⟨il, ir, e, h1, h2⟩ := split_at (H.hmacSha512 hmacKey seed.val) 32 32 (H.hmacSha512_len _ _)
  have s1 : slice (il ++ ir) keySize (keySize + chainCodeSize) = some ir := by
    have := slice_append il ir [] (i := keySize) (j := keySize + chainCodeSize) h1 (by rw [h2]; rfl)
    simpa using this
  have s2 : slice (il ++ ir) 0 keySize = some il := by
    have := slice_append [] il ir (i := 0) (j := keySize) rfl (by rw [h1]; rfl)
    simpa using this
  have l : (il ++ ir).length = 64 := by simp [h1, h2]
  have : XPrv.fromSeed H seed = ((parseSecret il).mapErr .ofSec).map fun key =>
      { key, chaincode := ⟨ir, h2⟩, depth := 0, index := 0, parentFingerprint := ⟨[0, 0, 0, 0], rfl⟩ } := by
    unfold XPrv.fromSeed
    dsimp only
    rw [e, if_neg (by rw [l]; decide), s1, s2]
    simp only [Res.ofPanic, Res.bind_ok, copyFrom_eq (show ir.length = chainCodeSize from h2)]
    cases parseSecret il <;> rfl
  rw [this, Res.map_eq_ok]
  constructor
  · rintro ⟨k, hk', rfl⟩
    rw [Res.mapErr_eq_ok, parseSecret_ok] at hk'
    exact ⟨il, ir, h1, h2, by rw [hk, e], hk', rfl, rfl, rfl, rfl⟩
  · rintro ⟨jl, jr, g1, g2, ge, gk, c, d, i, f⟩
    rw [hk, e] at ge
    obtain ⟨rfl, rfl⟩ := split_unique h1 g1 ge
    refine ⟨x.key, by rw [Res.mapErr_eq_ok, parseSecret_ok]; exact gk, ?_⟩
    rcases x with ⟨_, ⟨_, _⟩, ⟨_, _⟩, _, _⟩
    simp only at c d i f
    subst c d i f
    rfl

theorem root_unique {H : Hashes} {s : Bytes} {x y : XPrv} (hx : Root H s x) (hy : Root H s y) : x = y := by
  obtain ⟨il, ir, h1, h2, e, k, c, d, i, f⟩ := hx
  obtain ⟨jl, jr, g1, g2, e', k', c', d', i', f'⟩ := hy
  rw [e] at e'
  obtain ⟨rfl, rfl⟩ := split_unique h1 g1 e'
  rcases x with ⟨⟨_, _⟩, ⟨_, _⟩, ⟨_, _⟩, _, _⟩
  rcases y with ⟨⟨_, _⟩, ⟨_, _⟩, ⟨_, _⟩, _, _⟩
  simp only at c d i f c' d' i' f' k k'
  subst c d i f c' d' i'
  obtain rfl := k.2.symm.trans k'.2
  subst f'
  rfl

end KC.Secp
