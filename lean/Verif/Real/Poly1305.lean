import Mathlib.Algebra.Polynomial.Roots
import Mathlib.Algebra.Field.ZMod
import Verif.Real.Chacha
import Verif.Real.PolyPrime
/-
Poly1305 as a polynomial: for two different messages and two tags, few values of the secret point fit.
-/
namespace KC.Real.Chacha
open Polynomial

/-- The prime of RFC 8439, 2.5. -/
def P : Nat := 2 ^ 130 - 5

instance : Fact P.Prime := ⟨prime_1361129467683753853853498429727072845819⟩

theorem le_eq (b : Bytes) : le b = Spec.Bip32.be b.reverse := Bytes.beNat_eq _

theorem le_append_one (b : Bytes) : le (b ++ [1]) = 256 ^ b.length + le b := by
  rw [le_eq, le_eq, List.reverse_append, List.reverse_singleton, List.singleton_append, Spec.Bip32.be, List.length_reverse]
  simp

theorem le_lt (b : Bytes) : le b < 256 ^ b.length := by
  have := Bytes.be_lt b.reverse
  rwa [List.length_reverse, ← le_eq] at this

theorem le_inj {a b : Bytes} (hl : a.length = b.length) (h : le a = le b) : a = b := by
  rw [le_eq, le_eq] at h
  exact List.reverse_injective (Bytes.be_inj (by simpa using hl) h)

/-- The number of a block tells the block. -/
theorem block_inj {a b : Bytes} (h : le (a ++ [1]) = le (b ++ [1])) : a = b := by
  rw [le_append_one, le_append_one] at h
  have ha := le_lt a
  have hb := le_lt b
  have key : ∀ i j x y : Nat, i < j → 256 ^ i + x = 256 ^ j + y → x < 256 ^ i → False := by
    intro i j x y hij e hx
    have : 256 ^ (i + 1) ≤ 256 ^ j := Nat.pow_le_pow_right (by decide) hij
    rw [pow_succ] at this
    omega
  rcases Nat.lt_trichotomy a.length b.length with hl | hl | hl
  · exact (key _ _ _ _ hl h ha).elim
  · rw [hl] at h
    exact le_inj hl (by omega)
  · exact (key _ _ _ _ hl h.symm hb).elim

/-- The numbers of the first `n` blocks. -/
def nums : Nat → Bytes → List Nat
  | 0, _ => []
  | n + 1, b => le (b.take 16 ++ [1]) :: nums n (b.drop 16)

theorem nums_length (n : Nat) (b : Bytes) : (nums n b).length = n := by
  induction n generalizing b with
  | zero => rfl
  | succ n ih => simp [nums, ih]

theorem nums_range (n : Nat) (b : Bytes) : ∀ c ∈ nums n b, 0 < c ∧ c < P := by
  induction n generalizing b with
  | zero => simp [nums]
  | succ n ih =>
    intro c hc
    rcases List.mem_cons.mp hc with rfl | hc
    · rw [le_append_one]
      have h1 := le_lt (b.take 16)
      have h2 : 256 ^ (b.take 16).length ≤ 256 ^ 16 := Nat.pow_le_pow_right (by decide) (by simp)
      have h3 : 0 < 256 ^ (b.take 16).length := by positivity
      have h4 : 2 * 256 ^ 16 ≤ P := by decide +kernel
      omega
    · exact ih _ c hc

/-- The numbers of all blocks tell the message. -/
theorem nums_inj {n : Nat} {a b : Bytes} (ha : (a.length + 15) / 16 = n) (hb : (b.length + 15) / 16 = n) (h : nums n a = nums n b) :
    a = b := by
  induction n generalizing a b with
  | zero =>
    have h1 : a = [] := List.eq_nil_of_length_eq_zero (by omega)
    have h2 : b = [] := List.eq_nil_of_length_eq_zero (by omega)
    rw [h1, h2]
  | succ n ih =>
    simp only [nums, List.cons.injEq] at h
    have h1 := block_inj h.1
    have h2 := ih (a := a.drop 16) (b := b.drop 16) (by rw [List.length_drop]; omega) (by rw [List.length_drop]; omega) h.2
    rw [← List.take_append_drop 16 a, ← List.take_append_drop 16 b, h1, h2]

/-- The polynomial of a list of numbers. -/
noncomputable def F (cs : List Nat) : (ZMod P)[X] := cs.foldl (fun a (c : Nat) => (a + C (c : ZMod P)) * X) 0

theorem F_snoc (cs : List Nat) (c : Nat) : F (cs ++ [c]) = (F cs + C (c : ZMod P)) * X := by
  rw [F, List.foldl_append]; rfl

theorem F_coeff_zero (cs : List Nat) : (F cs).coeff 0 = 0 := by
  induction cs using List.reverseRecOn with
  | nil => simp [F]
  | append_singleton cs c _ => rw [F_snoc, mul_coeff_zero]; simp

theorem F_degree (cs : List Nat) : (F cs).natDegree ≤ cs.length := by
  induction cs using List.reverseRecOn with
  | nil => simp [F]
  | append_singleton cs c ih =>
    rw [F_snoc, List.length_append, List.length_singleton]
    refine natDegree_mul_le.trans (Nat.add_le_add ?_ natDegree_X_le)
    exact (natDegree_add_le _ _).trans (max_le ih (by simp))

theorem cast_inj {a b : Nat} (ha : a < P) (hb : b < P) (h : (a : ZMod P) = b) : a = b :=
  Nat.ModEq.eq_of_lt_of_lt ((ZMod.natCast_eq_natCast_iff _ _ _).mp h) ha hb

theorem F_cancel {cs ds : List Nat} {c d : Nat} (h : F (cs ++ [c]) = F (ds ++ [d])) : (c : ZMod P) = d ∧ F cs = F ds := by
  rw [F_snoc, F_snoc] at h
  have h := mul_right_cancel₀ X_ne_zero h
  have h0 := congrArg (fun f => coeff f 0) h
  simp only [coeff_add, F_coeff_zero, coeff_C_zero, zero_add] at h0
  refine ⟨h0, ?_⟩
  rw [h0] at h
  exact add_right_cancel h

/-- The polynomial tells the numbers. -/
theorem F_inj {cs ds : List Nat} (hc : ∀ c ∈ cs, 0 < c ∧ c < P) (hd : ∀ c ∈ ds, 0 < c ∧ c < P) (h : F cs = F ds) : cs = ds := by
  have nil : ∀ cs : List Nat, (∀ c ∈ cs, 0 < c ∧ c < P) → F cs = 0 → cs = [] := by
    intro cs hc h
    rcases List.eq_nil_or_concat' cs with rfl | ⟨cs, c, rfl⟩
    · rfl
    · rw [F_snoc] at h
      have h := (mul_eq_zero.mp h).resolve_right X_ne_zero
      have h0 := congrArg (fun f => coeff f 0) h
      simp only [coeff_add, F_coeff_zero, coeff_C_zero, zero_add, coeff_zero] at h0
      have := hc c (by simp)
      have := cast_inj (b := 0) this.2 (by omega) (by simpa using h0)
      omega
  induction cs using List.reverseRecOn generalizing ds with
  | nil => exact (nil ds hd h.symm).symm
  | append_singleton cs c ih =>
    rcases List.eq_nil_or_concat' ds with rfl | ⟨ds, d, rfl⟩
    · exact nil _ hc h
    · obtain ⟨h0, h1⟩ := F_cancel h
      rw [cast_inj (hc c (by simp)).2 (hd d (by simp)).2 h0,
        ih (fun x hx => hc x (by simp [hx])) (fun x hx => hd x (by simp [hx])) h1]

/-- The loop computes the value of the polynomial. -/
theorem polyLoop_eval (r n : Nat) (b : Bytes) (a : Nat) (f : (ZMod P)[X]) (h : f.eval (r : ZMod P) = a) :
    ((nums n b).foldl (fun a (c : Nat) => (a + C (c : ZMod P)) * X) f).eval (r : ZMod P) = polyLoop r n b a := by
  induction n generalizing b a f with
  | zero => exact h
  | succ n ih =>
    rw [polyLoop, force_eq, nums, List.foldl_cons]
    apply ih
    rw [show 2 ^ 130 - 5 = P from rfl, ZMod.natCast_mod]
    simp [h]

theorem polyLoop_lt (r n : Nat) (b : Bytes) (a : Nat) (h : a < P) : polyLoop r n b a < P := by
  induction n generalizing b a with
  | zero => exact h
  | succ n ih =>
    rw [polyLoop, force_eq]
    exact ih _ _ (Nat.mod_lt _ (by decide))

/-- The secret point of a one-time key. -/
def rOf (key : Bytes) : Nat := le (key.take 16) &&& 0x0ffffffc0ffffffc0ffffffc0fffffff

theorem rOf_lt (key : Bytes) : rOf key < P :=
  lt_of_le_of_lt Nat.and_le_right (by decide +kernel)

/-- The number of blocks of a message. -/
def blocks (m : Bytes) : Nat := (m.length + 15) / 16

theorem le_poly1305 (key m : Bytes) : le (poly1305 key m) =
    (polyLoop (rOf key) (blocks m) m 0 + le ((key.drop 16).take 16)) % 2 ^ 128 := by
  rw [poly1305, le_eq, List.reverse_reverse, Bytes.be_beBytes]
  have : 256 ^ 16 = 2 ^ 128 := by decide +kernel
  rw [this, Nat.mod_mod]
  rfl

/-- The eight possible differences of the values of two messages with the tags `t` and `u`. -/
def diffs (t u : Nat) : List Int := (List.range 8).map fun k : Nat => ((t : Int) - u) % 2 ^ 128 + ((k : Int) - 4) * 2 ^ 128

theorem diff_mem {a b s : Nat} (ha : a < P) (hb : b < P) : (a : Int) - b ∈ diffs ((a + s) % 2 ^ 128) ((b + s) % 2 ^ 128) := by
  have hP : P = 1361129467683753853853498429727072845819 := rfl
  rw [diffs, List.mem_map]
  refine ⟨(((a : Int) - b) / 2 ^ 128 + 4).toNat, ?_, ?_⟩
  · rw [List.mem_range]
    omega
  · omega

open Classical in
/-- The values of the secret point for which `m` has the tag `t` and `m'` the tag `t'`, and possibly some more. -/
noncomputable def bad (m m' t t' : Bytes) : Finset Nat :=
  (diffs (le t) (le t')).toFinset.biUnion fun u =>
    ((F (nums (blocks m) m) - F (nums (blocks m') m') - C (u : ZMod P)).roots.toFinset).image ZMod.val

theorem card_bad (m m' t t' : Bytes) : (bad m m' t t').card ≤ 8 * max (blocks m) (blocks m') := by
  classical
  refine Finset.card_biUnion_le.trans ?_
  refine (Finset.sum_le_card_nsmul _ _ (max (blocks m) (blocks m')) fun u _ => ?_).trans ?_
  · refine Finset.card_image_le.trans ((Multiset.toFinset_card_le _).trans ((card_roots' _).trans ?_))
    refine (natDegree_sub_le _ _).trans (max_le ((natDegree_sub_le _ _).trans (max_le_max ?_ ?_)) (by simp))
    · exact (F_degree _).trans (nums_length _ _).le
    · exact (F_degree _).trans (nums_length _ _).le
  · rw [smul_eq_mul]
    refine Nat.mul_le_mul_right _ ((List.toFinset_card_le _).trans ?_)
    simp [diffs]

/-- Poly1305: for two different messages and two tags, only the few points of `bad` give the tags. -/
theorem forgery {m m' : Bytes} (h : m ≠ m') (key : Bytes) : rOf key ∈ bad m m' (poly1305 key m) (poly1305 key m') := by
  classical
  rw [bad, Finset.mem_biUnion]
  refine ⟨(polyLoop (rOf key) (blocks m) m 0 : Int) - polyLoop (rOf key) (blocks m') m' 0, ?_, ?_⟩
  · rw [List.mem_toFinset, le_poly1305, le_poly1305]
    exact diff_mem (polyLoop_lt _ _ _ _ (by decide)) (polyLoop_lt _ _ _ _ (by decide))
  · rw [Finset.mem_image]
    refine ⟨(rOf key : ZMod P), ?_, ?_⟩
    · rw [Multiset.mem_toFinset, mem_roots']
      constructor
      · intro h0
        apply h
        have hc := congrArg (fun f => coeff f 0) h0
        simp only [coeff_sub, F_coeff_zero, coeff_C_zero, coeff_zero, sub_self, zero_sub, neg_eq_zero] at hc
        rw [hc, C_0, sub_zero, sub_eq_zero] at h0
        have hn := F_inj (nums_range _ _) (nums_range _ _) h0
        have hl := congrArg List.length hn
        rw [nums_length, nums_length] at hl
        rw [← hl] at hn
        exact nums_inj rfl hl.symm hn
      · have e1 := polyLoop_eval (rOf key) (blocks m) m 0 0 (by simp)
        have e2 := polyLoop_eval (rOf key) (blocks m') m' 0 0 (by simp)
        rw [IsRoot.def, eval_sub, eval_sub, F, F, e1, e2]
        simp
    · rw [ZMod.val_natCast, Nat.mod_eq_of_lt (rOf_lt key)]

attribute [irreducible] bad

/-- What is authenticated for a ciphertext. -/
def macData (c : Bytes) : Bytes :=
  c ++ List.replicate ((16 - c.length % 16) % 16) 0 ++ List.replicate 8 0 ++ (Bytes.beBytes 8 c.length).reverse

theorem tag_eq (key nonce c : Bytes) : tag key nonce c = poly1305 ((block key nonce 0).take 32) (macData c) := rfl

theorem macData_length (c : Bytes) : (macData c).length = 16 * ((c.length + 15) / 16) + 16 := by
  simp only [macData, List.length_append, List.length_replicate, List.length_reverse, Bytes.beBytes_length]
  omega

theorem blocks_macData (c : Bytes) : blocks (macData c) = (c.length + 15) / 16 + 1 := by
  rw [blocks, macData_length]
  omega

theorem macData_inj {c c' : Bytes} (h : macData c = macData c') : c = c' := by
  have hl := congrArg List.length h
  rw [macData_length, macData_length] at hl
  have hs : (Bytes.beBytes 8 c.length).reverse = (Bytes.beBytes 8 c'.length).reverse :=
    List.append_inj_right' h (by simp [Bytes.beBytes_length])
  have hb := congrArg Spec.Bip32.be (List.reverse_injective hs)
  rw [Bytes.be_beBytes, Bytes.be_beBytes] at hb
  have e : c.length = c'.length := by omega
  rw [macData, macData, List.append_assoc, List.append_assoc, List.append_assoc, List.append_assoc] at h
  exact List.append_inj_left h e

theorem rOf_take (k : Bytes) : rOf (k.take 32) = rOf k := by
  rw [rOf, rOf, List.take_take]
  rfl

theorem forgery_take {m m' : Bytes} (h : m ≠ m') (k : Bytes) :
    rOf k ∈ bad m m' (poly1305 (k.take 32) m) (poly1305 (k.take 32) m') := by
  have := forgery h (k.take 32)
  rw [rOf_take] at this
  exact this

theorem tag_forgery {c c' : Bytes} (h : c ≠ c') (key nonce : Bytes) :
    rOf (block key nonce 0) ∈ bad (macData c) (macData c') (tag key nonce c) (tag key nonce c') := by
  rw [tag_eq, tag_eq]
  exact forgery_take (mt macData_inj h) _

end KC.Real.Chacha
