import Verif.Proofs.ToyCurve
/-
C23 to C27: extended private keys.
-/
namespace KC.Props
open KC.Secp KC.Bytes KC.Spec.Bip32

/-! ### C23 -/

/-- Serialising always gives the 77-byte layout, and loading it gives the key back. -/
theorem C23_roundtrip (H : Hashes) (x : XPrv) :
    ∃ b, x.serialize H = some b ∧ b.length = 77 ∧ Layout H x b ∧ XPrv.fromData H b = .ok x := by
  obtain ⟨b, h, hl⟩ := serialize_eq H x
  exact ⟨b, h, layout_length hl, hl, (fromData_ok H b x).mpr hl⟩

/-- No other byte string loads as that key. -/
theorem C23_unique (H : Hashes) (x : XPrv) (b : Bytes) (h : XPrv.fromData H b = .ok x) : x.serialize H = some b := by
  obtain ⟨c, hc, hl⟩ := serialize_eq H x
  rw [hc, layout_unique hl ((fromData_ok H b x).mp h)]

/-- So serialisation is injective. -/
theorem C23_injective (H : Hashes) (x y : XPrv) (h : x.serialize H = y.serialize H) : x = y := by
  obtain ⟨b, h1, -, -, h2⟩ := C23_roundtrip H x
  obtain ⟨c, h3, -, -, h4⟩ := C23_roundtrip H y
  rw [h1, h3] at h
  cases h
  rw [h2] at h4
  cases h4
  rfl

example : ∃ b, Toy.one.serialize Toy.hashes = some b ∧ b.length = 77 ∧ XPrv.fromData Toy.hashes b = .ok Toy.one :=
  let ⟨b, h, l, _, f⟩ := C23_roundtrip Toy.hashes Toy.one
  ⟨b, h, l, f⟩

/-! ### C24 -/

/-- Loading succeeds exactly on 77 bytes whose checksum fits and whose secret is in 1..n-1, and then gives the key laid out there. -/
theorem C24_accepts (H : Hashes) (b : Bytes) :
    (∃ x, XPrv.fromData H b = .ok x) ↔
      b.length = 77 ∧ b.drop 73 = (H.sha256 (H.sha256 (b.take 73))).take 4 ∧
      0 < be ((b.drop 41).take 32) ∧ be ((b.drop 41).take 32) < n := by
  by_cases hl : b.length = 77
  · obtain ⟨d, fp, ix, cc, k, cs, rfl, h1, h2, h3, h4, h5⟩ := cut77 b hl
    rw [fromData_fields H d fp ix cc k cs h1 h2 h3 h4 h5]
    have e1 : ([d] ++ fp ++ ix ++ cc ++ k ++ cs).drop 73 = cs :=
      List.drop_left' (by simp [h1, h2, h3, h4])
    have e2 : ([d] ++ fp ++ ix ++ cc ++ k ++ cs).take 73 = [d] ++ fp ++ ix ++ cc ++ k :=
      List.take_left' (by simp [h1, h2, h3, h4])
    have e3 : (([d] ++ fp ++ ix ++ cc ++ k ++ cs).drop 41).take 32 = k := by
      rw [List.append_assoc _ k cs, List.drop_left' (by simp [h1, h2, h3]), List.take_left' h4]
    rw [e1, e2, e3]
    constructor
    · rintro ⟨x, hx⟩
      split at hx
      · cases hx
      · rename_i hc
        obtain ⟨key, hk, -⟩ := Res.map_eq_ok.mp hx
        rw [Res.mapErr_eq_ok, parseSecret_ok] at hk
        refine ⟨hl, not_not.mp hc, ?_⟩
        rw [hk.2]
        exact ⟨key.2.1, order_eq ▸ key.2.2⟩
    · rintro ⟨-, hc, h0, hn⟩
      obtain ⟨t, ht, -⟩ := secret_of_be h4 h0 hn
      rw [if_neg (not_not.mpr hc), ht]
      exact ⟨_, rfl⟩
  · have : XPrv.fromData H b = .err (.invalidDataSize b.length 77) := if_pos hl
    rw [this]
    simp [hl]

/-- What is loaded is what is laid out. -/
theorem C24_value (H : Hashes) (b : Bytes) (x : XPrv) : XPrv.fromData H b = .ok x ↔ Layout H x b := fromData_ok H b x

/-- Everything else is refused, by length first. -/
theorem C24_refuses (H : Hashes) (b : Bytes) (h : ¬ ∃ x, XPrv.fromData H b = .ok x) :
    (b.length ≠ 77 ∧ XPrv.fromData H b = .err (.invalidDataSize b.length 77)) ∨
    (b.length = 77 ∧ XPrv.fromData H b = .err .invalidSecretKey) := by
  by_cases hl : b.length = 77
  · right
    refine ⟨hl, ?_⟩
    obtain ⟨d, fp, ix, cc, k, cs, rfl, h1, h2, h3, h4, h5⟩ := cut77 b hl
    rw [fromData_fields H d fp ix cc k cs h1 h2 h3 h4 h5] at h ⊢
    split at h
    · rename_i hc; rw [if_pos hc]
    · rename_i hc
      rw [if_neg hc]
      by_cases hb : be k = 0 ∨ n ≤ be k
      · rw [parseSecret_err h4 hb]; rfl
      · obtain ⟨t, ht, -⟩ := secret_of_be h4 (by omega) (by omega)
        rw [ht] at h
        exact absurd ⟨_, rfl⟩ h
  · exact Or.inl ⟨hl, if_pos hl⟩

theorem C24_no_panic (H : Hashes) (b : Bytes) : XPrv.fromData H b ≠ .panic := by
  intro hp
  rcases C24_refuses H b (by rintro ⟨x, h⟩; rw [hp] at h; cases h) with ⟨-, h⟩ | ⟨-, h⟩ <;> rw [hp] at h <;> cases h

/-- Changing only the checksum of stored key data makes it unreadable. -/
theorem C24_checksum_flip (H : Hashes) (x : XPrv) (b c : Bytes) (h : XPrv.fromData H b = .ok x) (hl : c.length = 4)
    (hc : c ≠ b.drop 73) : XPrv.fromData H (b.take 73 ++ c) = .err .invalidSecretKey := by
  have hb := (C24_accepts H b).mp ⟨x, h⟩
  have l73 : (b.take 73).length = 73 := by rw [List.length_take, hb.1]; decide
  rcases C24_refuses H (b.take 73 ++ c) (by
    rw [C24_accepts]
    rintro ⟨-, h2, -⟩
    rw [List.drop_left' l73, List.take_left' l73, ← hb.2.1] at h2
    exact hc h2) with ⟨h2, -⟩ | ⟨-, h2⟩
  · exact absurd (by rw [List.length_append, l73, hl]) h2
  · exact h2

example : ∃ b, XPrv.fromData Toy.hashes b = .ok Toy.one :=
  let ⟨b, _, _, _, f⟩ := C23_roundtrip Toy.hashes Toy.one
  ⟨b, f⟩
example : XPrv.fromData Toy.hashes [] = .err (.invalidDataSize 0 77) := rfl

/-! ### C25 -/

/-- A successful step: depth one more, parent's fingerprint, an index not below the one asked for, a secret in range. -/
theorem C25_step (H : Hashes) (C : Curve) (x y : XPrv) (i : UInt32) (h : x.derive H C i = .ok y) :
    y.depth.toNat = x.depth.toNat + 1 ∧ i.toNat ≤ y.index.toNat ∧
    y.parentFingerprint.val = (H.ripemd160 (H.sha256 (C.serCompressed (C.pub x.key)))).take 4 ∧
    1 ≤ y.key.val ∧ y.key.val < n := by
  obtain ⟨-, j, hj, -, il, ir, -, -, -, -, -, -, -, hd, rfl, hf⟩ := (derive_ok ..).mp h
  exact ⟨hd, hj, ((prefix_take y.parentFingerprint.2).mp hf).1, y.key.2.1, order_eq ▸ y.key.2.2⟩

theorem C25_depth_limit (H : Hashes) (C : Curve) (x : XPrv) (i : UInt32) :
    x.derive H C i = .err .deriveDepthTooBig ↔ x.depth = 255 := by
  constructor
  · intro h
    by_contra hd
    have ho := derive_outcome H C x (depth_ne.mp hd) _ i (Nat.le_refl _)
    rw [h] at ho
    cases ho
  · intro h
    exact derive_deep (by rw [h]; rfl)

/-- Along any list of steps the depth grows by their number and stays below 256. -/
theorem C25_walk_depth (H : Hashes) (C : Curve) (x y : XPrv) (is : List UInt32) (h : Walk H C x is y) :
    y.depth.toNat = x.depth.toNat + is.length := by
  induction h with
  | nil => simp
  | cons h1 _ ih =>
    have := (C25_step H C _ _ _ ((derive_ok ..).mpr h1)).1
    rw [ih, this, List.length_cons]; omega

/-- From the root of a seed, `k` steps give depth `k`; more than 255 steps are impossible. -/
theorem C25_from_root (H : Hashes) (C : Curve) (seed : Bip39.Seed) (x y : XPrv) (is : List UInt32)
    (hx : XPrv.fromSeed H seed = .ok x) (h : Walk H C x is y) : y.depth.toNat = is.length ∧ is.length ≤ 255 := by
  have h1 := C25_walk_depth H C x y is h
  obtain ⟨il, ir, -, -, -, -, -, hd, -, -⟩ := (fromSeed_ok ..).mp hx
  rw [hd] at h1
  have h2 : y.depth.toNat = is.length := by rw [h1]; show 0 + _ = _; omega
  have := UInt8.toNat_lt y.depth
  exact ⟨h2, by omega⟩

/-! ### C26 -/

/-- `derive(i)` succeeds with `y` exactly when `y` is the BIP-32 child of the first index from `i` on without a zero sum. -/
theorem C26_exact (H : Hashes) (C : Curve) (x y : XPrv) (i : UInt32) :
    x.derive H C i = .ok y ↔ Derived H C x i y := derive_ok H C x y i

/-- The usual case: left half in range and sum not zero give child `i`, for every parent below depth 255. -/
theorem C26_child (H : Hashes) (C : Curve) (x : XPrv) (i : UInt32) (il ir : Bytes) (hd : x.depth.toNat < 255)
    (h1 : il.length = 32) (h2 : ir.length = 32) (hI : StepHash H C x i (il ++ ir)) (h0 : 0 < be il) (hn : be il < n)
    (hz : (be il + x.key.val) % n ≠ 0) :
    ∃ y, x.derive H C i = .ok y ∧ y.key.val = (be il + x.key.val) % n ∧ y.chaincode.val = ir ∧ y.index = i := by
  obtain ⟨y, h, jl, jr, g1, g2, gI, -, -, k1, k2, k3, k4, k5⟩ := derive_child hd h1 h2 hI h0 hn hz
  obtain ⟨rfl, rfl⟩ := split_unique h1 g1 (stepHash_unique hI gI)
  exact ⟨y, h, k1, k2, k4⟩

/-- A zero sum proceeds with the next index. -/
theorem C26_zero_sum (H : Hashes) (C : Curve) (x : XPrv) (i : UInt32) (hd : x.depth.toNat < 255) (h : ZeroSum H C x i)
    (hi : i.toNat + 1 < 2 ^ 32) : x.derive H C i = x.derive H C (i + 1) ∧ (i + 1).toNat = i.toNat + 1 := by
  rw [derive_zero hd h, if_pos hi]
  exact ⟨rfl, succ_toNat hi⟩

/-- BIP-32 proceeds with the next index also when `I_L ≥ n`; this code fails, and it fails for `I_L = 0`. -/
theorem C26_bad_left (H : Hashes) (C : Curve) (x : XPrv) (i : UInt32) (hd : x.depth.toNat < 255) (h : BadLeft H C x i) :
    x.derive H C i = .err .invalidSecretKey := derive_bad hd h

/-- All outcomes: the child, `InvalidSecretKey` at the first bad left half, `TweakOutOfRange` when zero sums run to the end. -/
theorem C26_errors (H : Hashes) (C : Curve) (x : XPrv) (i : UInt32) (e : KeyError) (h : x.derive H C i = .err e) :
    (x.depth = 255 ∧ e = .deriveDepthTooBig) ∨
    (e = .invalidSecretKey ∧ ∃ j, i.toNat ≤ j.toNat ∧ BadLeft H C x j ∧
      ∀ l : UInt32, i.toNat ≤ l.toNat → l.toNat < j.toNat → ZeroSum H C x l) ∨
    (e = .tweakOutOfRange ∧ ∀ l : UInt32, i.toNat ≤ l.toNat → ZeroSum H C x l) := by
  by_cases hd : x.depth = 255
  · rw [(C25_depth_limit H C x i).mpr hd] at h
    cases h
    exact Or.inl ⟨hd, rfl⟩
  · have ho := derive_outcome H C x (depth_ne.mp hd) _ i (Nat.le_refl _)
    rw [h] at ho
    cases ho with
    | bad a b c => exact Or.inr (Or.inl ⟨rfl, _, a, c, b⟩)
    | out b => exact Or.inr (Or.inr ⟨rfl, b⟩)

theorem C26_no_panic (H : Hashes) (C : Curve) (x : XPrv) (i : UInt32) : x.derive H C i ≠ .panic := derive_ne_panic H C x i

/-- The root key of a seed follows BIP-32, with `InvalidSecretKey` when the left half is no secret. -/
theorem C26_root (H : Hashes) (seed : Bip39.Seed) :
    (∀ x, XPrv.fromSeed H seed = .ok x ↔ Root H seed.val x) ∧
    ((¬ ∃ x, Root H seed.val x) → XPrv.fromSeed H seed = .err .invalidSecretKey) := by
  refine ⟨fromSeed_ok H seed, fun h => ?_⟩
  have hk : ("Bitcoin seed".toList.map fun c => UInt8.ofNat c.toNat) = hmacKey := by decide
  obtain ⟨il, ir, e, h1, h2⟩ := split_at (H.hmacSha512 hmacKey seed.val) 32 32 (H.hmacSha512_len _ _)
  by_cases hb : be il = 0 ∨ n ≤ be il
  · have s1 : slice (il ++ ir) keySize (keySize + chainCodeSize) = some ir := by
      have := slice_append il ir [] (i := keySize) (j := keySize + chainCodeSize) h1 (by rw [h2]; rfl)
      simpa using this
    have s2 : slice (il ++ ir) 0 keySize = some il := by
      have := slice_append [] il ir (i := 0) (j := keySize) rfl (by rw [h1]; rfl)
      simpa using this
    have l : (il ++ ir).length = 64 := by simp [h1, h2]
    unfold XPrv.fromSeed
    dsimp only
    rw [e, if_neg (by rw [l]; decide), s1, s2]
    simp only [Res.ofPanic, Res.bind_ok, copyFrom_eq (show ir.length = chainCodeSize from h2), parseSecret_err h1 hb]
    rfl
  · exfalso
    apply h
    exact ⟨{ key := ⟨be il, by omega, by rw [order_eq]; omega⟩, chaincode := ⟨ir, h2⟩, depth := 0, index := 0,
             parentFingerprint := ⟨[0, 0, 0, 0], rfl⟩ }, il, ir, h1, h2, by rw [hk, e], ⟨h1, rfl⟩, rfl, rfl, rfl, rfl⟩

/-! ### C27 -/

/-- A hardened request never yields a soft child. -/
theorem C27_hardened_stays (H : Hashes) (C : Curve) (x y : XPrv) (i : UInt32) (hi : 2 ^ 31 ≤ i.toNat)
    (h : x.derive H C i = .ok y) : 2 ^ 31 ≤ y.index.toNat :=
  Nat.le_trans hi (C25_step H C x y i h).2.1

/-- A soft request yields a soft child exactly when not every soft index from it on has a zero sum. -/
theorem C27_soft_stays (H : Hashes) (C : Curve) (x y : XPrv) (i : UInt32)
    (h : x.derive H C i = .ok y) :
    y.index.toNat < 2 ^ 31 ↔ ∃ l : UInt32, i.toNat ≤ l.toNat ∧ l.toNat < 2 ^ 31 ∧ ¬ ZeroSum H C x l := by
  obtain ⟨-, j, hj, hs, hc⟩ := (derive_ok ..).mp h
  have hi : y.index = j := by obtain ⟨_, _, _, _, _, _, _, _, _, _, h, _⟩ := hc; exact h
  rw [hi]
  constructor
  · intro h
    exact ⟨j, hj, h, (child_not_bad hc).2⟩
  · rintro ⟨l, h1, h2, h3⟩
    by_contra h4
    exact h3 (hs l h1 (by omega))

/-- The expectation fails: with suitable hashes the request 0x7fffffff yields the hardened child 0x80000000. -/
theorem C27_soft_can_harden : ∃ (H : Hashes) (C : Curve) (x y : XPrv),
    x.derive H C 0x7fffffff = .ok y ∧ y.index = 0x80000000 := by
  have hd : Toy.one.depth.toNat < 255 := by decide
  have hsoft : StepHash Toy.skipHashes Toy.curve Toy.one 0x7fffffff (beBytes 32 (order - 1) ++ List.replicate 32 7) := by
    rw [stepHash_iff]
    decide +kernel
  have hhard : StepHash Toy.skipHashes Toy.curve Toy.one 0x80000000 (beBytes 32 1 ++ List.replicate 32 7) := by
    rw [stepHash_iff]
    decide +kernel
  have hz : ZeroSum Toy.skipHashes Toy.curve Toy.one 0x7fffffff :=
    ⟨_, _, beBytes_length _ _, by simp, hsoft, by decide +kernel, by decide +kernel, by decide +kernel⟩
  obtain ⟨y, h1, h2⟩ := derive_child hd (beBytes_length _ _) (by simp) hhard (by decide +kernel) (by decide +kernel)
    (by decide +kernel)
  refine ⟨Toy.skipHashes, Toy.curve, Toy.one, y, ?_, ?_⟩
  · rw [(C26_zero_sum _ _ _ _ hd hz (by decide)).1]
    exact h1
  · obtain ⟨_, _, _, _, _, _, _, _, _, _, h, _⟩ := h2; exact h

/-- `derive` ends on every input (it is a total function with a value that is no panic). -/
theorem C27_terminates (H : Hashes) (C : Curve) (x : XPrv) (i : UInt32) :
    (∃ y, x.derive H C i = .ok y) ∨ ∃ e, x.derive H C i = .err e := by
  cases h : x.derive H C i with
  | ok y => exact Or.inl ⟨y, rfl⟩
  | err e => exact Or.inr ⟨e, rfl⟩
  | panic => exact absurd h (derive_ne_panic H C x i)

/-- A key with a child to which the theorems of C25 to C27 apply. -/
example : ∃ y, Toy.one.derive Toy.skipHashes Toy.curve 0x80000005 = .ok y ∧ y.key.val = 2 ∧ y.index = 0x80000005 := by
  have hhard : StepHash Toy.skipHashes Toy.curve Toy.one 0x80000005 (beBytes 32 1 ++ List.replicate 32 7) := by
    rw [stepHash_iff]
    decide +kernel
  obtain ⟨y, h1, h2, -, h3⟩ := C26_child _ _ _ _ _ _ (by decide) (beBytes_length _ _) (by simp) hhard (by decide +kernel)
    (by decide +kernel) (by decide +kernel)
  exact ⟨y, h1, h2.trans (by decide +kernel), h3⟩

end KC.Props
