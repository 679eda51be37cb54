import Verif.Real.Edwards
import Verif.Spec.EdBip32
/-
What signing, verifying and deriving with `Real.Ed25519.ed` amount to.
-/
namespace KC.Real.Ed25519
open KC.Real.Ec KC.Spec.Ed25519

theorem kl_lt (x : Cardano.XPrv) : leNat (kl x) < 2 ^ 256 := by
  rw [leNat_eq]
  refine lt_of_lt_of_le (le_lt _) ?_
  calc 256 ^ (kl x).length ≤ 256 ^ 32 := Nat.pow_le_pow_right (by decide) (by rw [kl, List.length_take]; exact min_le_left _ _)
    _ = 2 ^ 256 := by decide +kernel

theorem mod_l_lt (k : Nat) : k % l < 2 ^ 256 := (Nat.mod_lt k (by decide +kernel)).trans (by decide +kernel)

theorem mod_l_lt' (k : Nat) : k % l < 256 ^ 32 := (Nat.mod_lt k (by decide +kernel)).trans (by decide +kernel)

theorem encodes_pub (x : Cardano.XPrv) : Encodes (le (kl x) • B) (pubBytes x) := by
  rw [← leNat_eq, pubBytes]
  exact enc_spec (rep_mulB _ (kl_lt x))

theorem enc_iff {j : J} {P : E.Point} (h : Rep j P) (b : Bytes) : enc j = b ↔ Encodes P b :=
  ⟨fun hb => hb ▸ enc_spec h, fun hb => encodes_unique (enc_spec h) hb⟩

theorem smul_self_zero {k : Nat} {n : Nat} (hn : ¬ l ∣ n) (h : n • (k • B) = 0) : k • B = 0 := by
  rw [← mul_nsmul, smul_eq_zero] at h
  rw [smul_eq_zero]
  exact (((Fact.out : l.Prime).dvd_mul.mp h).resolve_right hn)

/-- No multiple of the base point has y = 0. -/
theorem y_ne {k : Nat} {x y : ZMod p} (h : Edwards (k • B) x y) : y ≠ 0 := by
  rintro rfl
  have hc := edwards_eq h
  obtain ⟨x2, y2, h2⟩ := edwards_exists (k • B + k • B)
  obtain ⟨e1, e2⟩ := law h h h2
  have hx2 : x2 = 0 := mul_right_cancel₀ c_ne (by linear_combination e1)
  have hy2 : y2 = -1 := mul_right_cancel₀ c_ne (by linear_combination e2 - hc)
  rw [hx2, hy2] at h2
  have hT := edwards_inj h2 edwards_T
  have h4 : 4 • (k • B) = 0 := by
    have : 4 • (k • B) = (k • B + k • B) + (k • B + k • B) := by abel
    rw [this, hT, T_add_T]
  have h0 := smul_self_zero (by decide +kernel) h4
  rw [h0] at h
  exact zero_ne_one h.2

theorem be_zero {b : Bytes} (h : ∀ a ∈ b, a = 0) : Spec.Bip32.be b = 0 := by
  induction b with
  | nil => rfl
  | cons a b ih =>
    rw [Spec.Bip32.be, h a List.mem_cons_self, ih fun c hc => h c (List.mem_cons_of_mem _ hc)]
    simp

theorem pub_any (x : Cardano.XPrv) : (pubBytes x).any (· ≠ 0) = true := by
  obtain ⟨X, Y, h, hb⟩ := encodes_pub x
  by_contra hc
  rw [Bool.not_eq_true, List.any_eq_false] at hc
  have h0 : Spec.Bip32.be (pubBytes x).reverse = 0 := be_zero fun a ha => by
    have := hc a (List.mem_reverse.mp ha)
    simpa using this
  have := hb.2.symm.trans h0
  exact y_ne h ((ZMod.val_eq_zero Y).mp (by omega))

/-- The signatures `verify` takes. -/
theorem verify_iff (H : Hashes) (ok : Nat → Bool) (x : Cardano.XPrv) (m sig : Bytes) : verify H ok x m sig = true ↔
    ok (le ((sig.drop 32).take 32)) = true ∧ Valid H (le (kl x) • B) m (sig.take 32) ((sig.drop 32).take 32) := by
  have hS : leNat ((sig.drop 32).take 32) < 2 ^ 256 := by
    rw [leNat_eq]
    refine lt_of_lt_of_le (le_lt _) ?_
    calc 256 ^ ((sig.drop 32).take 32).length ≤ 256 ^ 32 := Nat.pow_le_pow_right (by decide) (by rw [List.length_take]; exact min_le_left _ _)
      _ = 2 ^ 256 := by decide +kernel
  unfold verify
  simp only [Bool.and_eq_true, pub_any, and_true, decide_eq_true_eq]
  rw [enc_iff (rep_add two_ne (rep_mulB _ hS) (rep_smul two_ne (rep_neg (rep_mulB _ (kl_lt x))) 256 _ (mod_l_lt _)))]
  simp only [leNat_eq]
  refine and_congr_right fun _ => ?_
  rw [neg_nsmul, smul_mul_mod]
  constructor
  · intro h
    exact ⟨_, _, h, encodes_pub x, by abel⟩
  · rintro ⟨P, a, h, ha, e⟩
    rw [encodes_unique ha (encodes_pub x)] at e
    rw [e]
    convert h using 1
    abel

/-- What `sign` makes. -/
theorem sign_spec (H : Hashes) (x : Cardano.XPrv) (m : Bytes) : ∃ R S : Bytes, sign H x m = R ++ S ∧ R.length = 32 ∧ S.length = 32 ∧
    Encodes (le (H.sha512 (kr x ++ m)) • B) R ∧
    le S = (le (H.sha512 (R ++ pubBytes x ++ m)) * le (kl x) + le (H.sha512 (kr x ++ m))) % l := by
  refine ⟨_, _, rfl, enc_length _, leBytes_length _ _, ?_, ?_⟩
  · rw [← leNat_eq, ← smul_mod]
    exact enc_spec (rep_mulB _ (mod_l_lt _))
  · rw [le_leBytes (mod_l_lt' _)]
    simp only [leNat_eq]
    rw [Nat.add_mod, Nat.mul_mod, Nat.mod_mod, Nat.mod_mod, ← Nat.mul_mod, ← Nat.add_mod]

theorem sign_valid (H : Hashes) (x : Cardano.XPrv) (m R S : Bytes) (h : sign H x m = R ++ S) (hR : R.length = 32) :
    le S < l ∧ Valid H (le (kl x) • B) m R S := by
  obtain ⟨R', S', h', hR', -, h1, h2⟩ := sign_spec H x m
  obtain ⟨rfl, rfl⟩ := List.append_inj (h'.symm.trans h) (hR'.trans hR.symm)
  refine ⟨by rw [h2]; exact Nat.mod_lt _ (by decide +kernel), _, _, h1, encodes_pub x, ?_⟩
  rw [h2, smul_mod, add_nsmul, mul_comm, mul_nsmul]
  abel

theorem ed_correct (H : Hashes) (ok : Nat → Bool) (hok : ∀ s, s < l → ok s = true) : Spec.EdCorrect (ed H ok) := by
  intro x m
  show verify H ok x m (sign H x m) = true
  obtain ⟨R, S, h, hR, hS, -⟩ := sign_spec H x m
  obtain ⟨h1, h2⟩ := sign_valid H x m R S h hR
  rw [verify_iff, h, List.take_left' hR, List.drop_left' hR, List.take_of_length_le hS.le]
  exact ⟨hok _ h1, h2⟩

/-! ### Derivation -/

theorem parts (x : Cardano.XPrv) : Parts x (kl x) (kr x) (cc x) := by
  have hx : x.val.length = 96 := x.2
  refine ⟨?_, ?_, ?_, cc_length x⟩
  · have h1 : x.val.drop 64 = (x.val.drop 32).drop 32 := by rw [List.drop_drop]
    rw [kl, kr, cc, h1, List.append_assoc, List.take_append_drop, List.take_append_drop]
  · rw [kl, List.length_take, hx]; rfl
  · rw [kr, List.length_take, List.length_drop, hx]; rfl

theorem parts_unique {x : Cardano.XPrv} {a b c a' b' c' : Bytes} (h : Parts x a b c) (h' : Parts x a' b' c') : a = a' ∧ b = b' ∧ c = c' := by
  obtain ⟨e, l1, l2, -⟩ := h
  obtain ⟨e', l1', l2', -⟩ := h'
  rw [e] at e'
  obtain ⟨e1, e2⟩ := List.append_inj e' (by rw [List.length_append, List.length_append, l1, l2, l1', l2'])
  obtain ⟨e1, e3⟩ := List.append_inj e1 (by rw [l1, l1'])
  exact ⟨e1, e3, e2⟩

theorem parts_ext {x y : Cardano.XPrv} {a b c : Bytes} (hx : Parts x a b c) (hy : Parts y a b c) : x = y :=
  Subtype.ext (hx.1.trans hy.1.symm)

theorem le_leBytes_mod (k x : Nat) : le (leBytes k x) = x % 256 ^ k := by
  rw [le, leBytes, List.reverse_reverse]
  exact Bytes.be_beBytes k x

theorem two256 : 256 ^ 32 = 2 ^ 256 := by decide +kernel

theorem isLe_index (i : UInt32) : IsLe 4 i.toNat (leBytes 4 i.toNat) := isLe_leBytes (Secp.u32_lt i)

theorem take64 (x : Cardano.XPrv) : x.val.take 64 = kl x ++ kr x := by
  have h := parts x
  rw [h.1, List.take_left' (by rw [List.length_append, h.2.1, h.2.2.1])]

theorem child_derive (H : Hashes) (ok : Nat → Bool) (x : Cardano.XPrv) (i : UInt32) : Child H x i ((ed H ok).derive x i) := by
  have hy : Parts ((ed H ok).derive x i) (leBytes 32 (leNat (kl x) + 8 * leNat ((stepHash H x i 0).take 28)))
      (leBytes 32 (leNat (kr x) + leNat ((stepHash H x i 0).drop 32))) ((stepHash H x i 1).drop 32) :=
    ⟨rfl, leBytes_length _ _, leBytes_length _ _, by rw [List.length_drop, stepHash_length]⟩
  by_cases hi : 2 ^ 31 ≤ i.toNat
  · refine ⟨_, _, _, _, _, _, [0] ++ kl x ++ kr x ++ leBytes 4 i.toNat, [1] ++ kl x ++ kr x ++ leBytes 4 i.toNat, parts x, hy,
      ⟨_, isLe_index i, .inl ⟨hi, rfl, rfl⟩⟩, ?_, ?_, ?_⟩
    · rw [le_leBytes_mod, two256, leNat_eq, leNat_eq, stepHash, if_pos hi, take64]
      simp only [List.append_assoc, List.cons_append, List.nil_append]
    · rw [le_leBytes_mod, two256, leNat_eq, leNat_eq, stepHash, if_pos hi, take64]
      simp only [List.append_assoc, List.cons_append, List.nil_append]
    · rw [stepHash, if_pos hi, take64]
      simp only [List.append_assoc, List.cons_append, List.nil_append]
  · refine ⟨_, _, _, _, _, _, [2] ++ pubBytes x ++ leBytes 4 i.toNat, [3] ++ pubBytes x ++ leBytes 4 i.toNat, parts x, hy,
      ⟨_, isLe_index i, .inr ⟨by omega, _, encodes_pub x, rfl, rfl⟩⟩, ?_, ?_, ?_⟩
    · rw [le_leBytes_mod, two256, leNat_eq, leNat_eq, stepHash, if_neg hi, show (0 : UInt8) + 2 = 2 from rfl]
      simp only [List.append_assoc, List.cons_append, List.nil_append]
    · rw [le_leBytes_mod, two256, leNat_eq, leNat_eq, stepHash, if_neg hi, show (0 : UInt8) + 2 = 2 from rfl]
      simp only [List.append_assoc, List.cons_append, List.nil_append]
    · rw [stepHash, if_neg hi, show (1 : UInt8) + 2 = 3 from rfl]
      simp only [List.append_assoc, List.cons_append, List.nil_append]

theorem messages_unique {a b : Bytes} {i : UInt32} {mz mi mz' mi' : Bytes} (h : Messages a b i mz mi) (h' : Messages a b i mz' mi') :
    mz = mz' ∧ mi = mi' := by
  obtain ⟨ib, h1, h2⟩ := h
  obtain ⟨ib', h1', h2'⟩ := h'
  obtain rfl := isLe_unique h1 h1'
  rcases h2 with ⟨g, rfl, rfl⟩ | ⟨g, pa, ha, rfl, rfl⟩ <;> rcases h2' with ⟨g', rfl, rfl⟩ | ⟨g', pa', ha', rfl, rfl⟩
  · exact ⟨rfl, rfl⟩
  · omega
  · omega
  · obtain rfl := encodes_unique ha ha'
    exact ⟨rfl, rfl⟩

theorem le_inj {a b : Bytes} (hl : a.length = b.length) (h : le a = le b) : a = b :=
  List.reverse_injective (Bytes.be_inj (by rw [List.length_reverse, List.length_reverse, hl]) h)

theorem child_unique {H : Hashes} {x y y' : Cardano.XPrv} {i : UInt32} (h : Child H x i y) (h' : Child H x i y') : y = y' := by
  obtain ⟨a, b, c, a1, b1, c1, mz, mi, hx, hy, hm, e1, e2, e3⟩ := h
  obtain ⟨a', b', c', a1', b1', c1', mz', mi', hx', hy', hm', e1', e2', e3'⟩ := h'
  obtain ⟨rfl, rfl, rfl⟩ := parts_unique hx hx'
  obtain ⟨rfl, rfl⟩ := messages_unique hm hm'
  obtain rfl := le_inj (hy.2.1.trans hy'.2.1.symm) (e1.trans e1'.symm)
  obtain rfl := le_inj (hy.2.2.1.trans hy'.2.2.1.symm) (e2.trans e2'.symm)
  obtain rfl := e3.trans e3'.symm
  exact parts_ext hy hy'

theorem walk_foldl (H : Hashes) (ok : Nat → Bool) (x : Cardano.XPrv) (is : List UInt32) : Walk H x is (is.foldl (ed H ok).derive x) := by
  induction is generalizing x with
  | nil => rw [List.foldl_nil]; exact .nil x
  | cons i is ih =>
    rw [List.foldl_cons]
    have h := child_derive H ok x i
    generalize (ed H ok).derive x i = y at h ⊢
    exact .cons h (ih y)

theorem walk_unique {H : Hashes} {x y y' : Cardano.XPrv} {is : List UInt32} (h : Walk H x is y) (h' : Walk H x is y') : y = y' := by
  induction h with
  | nil => cases h'; rfl
  | cons hc _ ih =>
    cases h' with
    | cons hc' h' =>
      rw [child_unique hc' hc] at h'
      exact ih h'

theorem le_take28 (b : Bytes) : le (b.take 28) < 2 ^ 224 := by
  refine lt_of_lt_of_le (le_lt _) ?_
  calc 256 ^ (b.take 28).length ≤ 256 ^ 28 := Nat.pow_le_pow_right (by decide) (by rw [List.length_take]; exact min_le_left _ _)
    _ = 2 ^ 224 := by decide +kernel

/-- A step adds a multiple of 8 below 2^227, without overflow when the scalar is not near the top. -/
theorem child_scalar {H : Hashes} {x y : Cardano.XPrv} {i : UInt32} (h : Child H x i y) (hx : le (kl x) < 2 ^ 255) :
    ∃ z, z < 2 ^ 224 ∧ le (kl y) = le (kl x) + 8 * z := by
  obtain ⟨a, b, c, a1, b1, c1, mz, mi, hx', hy, hm, e1, e2, e3⟩ := h
  obtain ⟨rfl, rfl, rfl⟩ := parts_unique hx' (parts x)
  obtain ⟨rfl, rfl, rfl⟩ := parts_unique hy (parts y)
  refine ⟨le ((H.hmacSha512 (cc x) mz).take 28), le_take28 _, ?_⟩
  have := le_take28 (H.hmacSha512 (cc x) mz)
  rw [e1, Nat.mod_eq_of_lt]
  omega

theorem child_pub {H : Hashes} {x y : Cardano.XPrv} {i : UInt32} (h : Child H x i y) (hx : le (kl x) < 2 ^ 255) (hi : i.toNat < 2 ^ 31) :
    PubChild H (le (kl x) • B) (cc x) i (le (kl y) • B) (cc y) := by
  obtain ⟨a, b, c, a1, b1, c1, mz, mi, hx', hy, ⟨ib, h1, h2⟩, e1, e2, e3⟩ := h
  obtain ⟨rfl, rfl, rfl⟩ := parts_unique hx' (parts x)
  obtain ⟨rfl, rfl, rfl⟩ := parts_unique hy (parts y)
  rcases h2 with ⟨g, -⟩ | ⟨g, pa, ha, rfl, rfl⟩
  · omega
  refine ⟨hi, pa, ib, ha, h1, ?_, e3⟩
  have := le_take28 (H.hmacSha512 (cc x) ([2] ++ pa ++ ib))
  rw [e1, Nat.mod_eq_of_lt (by omega), add_nsmul]

end KC.Real.Ed25519
