import Verif.Spec.Sha2
import Verif.Real.Sha2
/-
The evaluable SHA-256 and SHA-512 are those of FIPS 180-4 (`Spec/Sha2.lean`).
-/
namespace KC.Real.Sha2
open KC.Spec.Sha2
open KC.Spec.Bip32 (be IsBe)

/-- The words of eight bit vectors. -/
def eight {w : Nat} (v : Vars w) : Eight := ⟨v.a.toNat, v.b.toNat, v.c.toNat, v.d.toNat, v.e.toNat, v.f.toNat, v.g.toNat, v.h.toNat⟩

theorem ch_toNat {w : Nat} (x y z : BitVec w) :
    (ch x y z).toNat = (x.toNat &&& y.toNat) ^^^ ((2 ^ w - 1 - x.toNat) &&& z.toNat) := by
  simp only [ch, BitVec.toNat_xor, BitVec.toNat_and, BitVec.toNat_not]

theorem maj_toNat {w : Nat} (x y z : BitVec w) :
    (maj x y z).toNat = (x.toNat &&& y.toNat) ^^^ (x.toNat &&& z.toNat) ^^^ (y.toNat &&& z.toNat) := by
  simp only [maj, BitVec.toNat_xor, BitVec.toNat_and]

/-! ### SHA-256 -/

/-- The constants as bit vectors. -/
def kv256 (t : Nat) : BitVec 32 := BitVec.ofNat 32 (k256.getD t 0)

theorem kv256_drop : ∀ t < fns256.rounds, k256.drop t = (kv256 t).toNat :: k256.drop (t + 1) := by decide +kernel

theorem S0_256 (x : BitVec 32) : (fns256.S0 x).toNat = rotr 32 2 x.toNat ^^^ rotr 32 13 x.toNat ^^^ rotr 32 22 x.toNat := by
  simp only [fns256, BitVec.toNat_xor, BitVec.toNat_rotateRight, rotr, Nat.reduceMod]

theorem S1_256 (x : BitVec 32) : (fns256.S1 x).toNat = rotr 32 6 x.toNat ^^^ rotr 32 11 x.toNat ^^^ rotr 32 25 x.toNat := by
  simp only [fns256, BitVec.toNat_xor, BitVec.toNat_rotateRight, rotr, Nat.reduceMod]

theorem s0_256 (x : BitVec 32) : (fns256.s0 x).toNat = rotr 32 7 x.toNat ^^^ rotr 32 18 x.toNat ^^^ (x.toNat >>> 3) := by
  simp only [fns256, BitVec.toNat_xor, BitVec.toNat_rotateRight, BitVec.toNat_ushiftRight, rotr, Nat.reduceMod]

theorem s1_256 (x : BitVec 32) : (fns256.s1 x).toNat = rotr 32 17 x.toNat ^^^ rotr 32 19 x.toNat ^^^ (x.toNat >>> 10) := by
  simp only [fns256, BitVec.toNat_xor, BitVec.toNat_rotateRight, BitVec.toNat_ushiftRight, rotr, Nat.reduceMod]

theorem sched256 (M : Nat → BitVec 32) (t : Nat) :
    (schedule fns256 M (t + 16)).toNat =
      ((fns256.s1 (schedule fns256 M (t + 14))).toNat + (schedule fns256 M (t + 9)).toNat + (fns256.s0 (schedule fns256 M (t + 1))).toNat +
        (schedule fns256 M t).toNat) % 2 ^ 32 := by
  rw [schedule, if_neg (by omega)]
  simp only [show t + 16 - 2 = t + 14 by omega, show t + 16 - 7 = t + 9 by omega, show t + 16 - 15 = t + 1 by omega,
    show t + 16 - 16 = t by omega, BitVec.toNat_add, Nat.mod_add_mod]

theorem rounds256_eq (M : Nat → BitVec 32) (H : Vars 32) : ∀ n t, t + n = fns256.rounds →
    let W := schedule fns256 M
    let v := vars fns256 kv256 W H t
    rounds256 (k256.drop t) (W (t)).toNat (W (t + 1)).toNat (W (t + 2)).toNat (W (t + 3)).toNat (W (t + 4)).toNat (W (t + 5)).toNat (W (t + 6)).toNat (W (t + 7)).toNat (W (t + 8)).toNat (W (t + 9)).toNat (W (t + 10)).toNat (W (t + 11)).toNat (W (t + 12)).toNat (W (t + 13)).toNat (W (t + 14)).toNat (W (t + 15)).toNat
      v.a.toNat v.b.toNat v.c.toNat v.d.toNat v.e.toNat v.f.toNat v.g.toNat v.h.toNat = eight (vars fns256 kv256 W H fns256.rounds)
  | 0, t, ht => by
    have ht' : t = fns256.rounds := by omega
    have hk : k256.drop fns256.rounds = [] := rfl
    subst ht'
    simp only [hk, rounds256, eight]
  | n + 1, t, ht => by
    intro W v
    have ih := rounds256_eq M H n (t + 1) (by omega)
    rw [kv256_drop t (by omega), rounds256]
    simp only [force_eq]
    rw [← ih]
    congr 1
    · show _ = (W (t + 1 + 15)).toNat
      rw [show t + 1 + 15 = t + 16 by omega, sched256, s0_256, s1_256]
    · show _ = (v.h + fns256.S1 v.e + ch v.e v.f v.g + kv256 t + W t + (fns256.S0 v.a + maj v.a v.b v.c)).toNat
      simp only [BitVec.toNat_add, S0_256, S1_256, ch_toNat, maj_toNat, Nat.mod_add_mod, Nat.add_mod_mod, Nat.add_assoc]
    · show _ = (v.d + (v.h + fns256.S1 v.e + ch v.e v.f v.g + kv256 t + W t)).toNat
      simp only [BitVec.toNat_add, S1_256, ch_toNat, Nat.mod_add_mod, Nat.add_mod_mod, Nat.add_assoc]

/-! ### SHA-512 -/

/-- The constants as bit vectors. -/
def kv512 (t : Nat) : BitVec 64 := BitVec.ofNat 64 (k512.getD t 0)

theorem kv512_drop : ∀ t < fns512.rounds, k512.drop t = (kv512 t).toNat :: k512.drop (t + 1) := by decide +kernel

theorem S0_512 (x : BitVec 64) : (fns512.S0 x).toNat = rotr 64 28 x.toNat ^^^ rotr 64 34 x.toNat ^^^ rotr 64 39 x.toNat := by
  simp only [fns512, BitVec.toNat_xor, BitVec.toNat_rotateRight, rotr, Nat.reduceMod]

theorem S1_512 (x : BitVec 64) : (fns512.S1 x).toNat = rotr 64 14 x.toNat ^^^ rotr 64 18 x.toNat ^^^ rotr 64 41 x.toNat := by
  simp only [fns512, BitVec.toNat_xor, BitVec.toNat_rotateRight, rotr, Nat.reduceMod]

theorem s0_512 (x : BitVec 64) : (fns512.s0 x).toNat = rotr 64 1 x.toNat ^^^ rotr 64 8 x.toNat ^^^ (x.toNat >>> 7) := by
  simp only [fns512, BitVec.toNat_xor, BitVec.toNat_rotateRight, BitVec.toNat_ushiftRight, rotr, Nat.reduceMod]

theorem s1_512 (x : BitVec 64) : (fns512.s1 x).toNat = rotr 64 19 x.toNat ^^^ rotr 64 61 x.toNat ^^^ (x.toNat >>> 6) := by
  simp only [fns512, BitVec.toNat_xor, BitVec.toNat_rotateRight, BitVec.toNat_ushiftRight, rotr, Nat.reduceMod]

theorem sched512 (M : Nat → BitVec 64) (t : Nat) :
    (schedule fns512 M (t + 16)).toNat =
      ((fns512.s1 (schedule fns512 M (t + 14))).toNat + (schedule fns512 M (t + 9)).toNat + (fns512.s0 (schedule fns512 M (t + 1))).toNat +
        (schedule fns512 M t).toNat) % 2 ^ 64 := by
  rw [schedule, if_neg (by omega)]
  simp only [show t + 16 - 2 = t + 14 by omega, show t + 16 - 7 = t + 9 by omega, show t + 16 - 15 = t + 1 by omega,
    show t + 16 - 16 = t by omega, BitVec.toNat_add, Nat.mod_add_mod]

theorem rounds512_eq (M : Nat → BitVec 64) (H : Vars 64) : ∀ n t, t + n = fns512.rounds →
    let W := schedule fns512 M
    let v := vars fns512 kv512 W H t
    rounds512 (k512.drop t) (W (t)).toNat (W (t + 1)).toNat (W (t + 2)).toNat (W (t + 3)).toNat (W (t + 4)).toNat (W (t + 5)).toNat (W (t + 6)).toNat (W (t + 7)).toNat (W (t + 8)).toNat (W (t + 9)).toNat (W (t + 10)).toNat (W (t + 11)).toNat (W (t + 12)).toNat (W (t + 13)).toNat (W (t + 14)).toNat (W (t + 15)).toNat
      v.a.toNat v.b.toNat v.c.toNat v.d.toNat v.e.toNat v.f.toNat v.g.toNat v.h.toNat = eight (vars fns512 kv512 W H fns512.rounds)
  | 0, t, ht => by
    have ht' : t = fns512.rounds := by omega
    have hk : k512.drop fns512.rounds = [] := rfl
    subst ht'
    simp only [hk, rounds512, eight]
  | n + 1, t, ht => by
    intro W v
    have ih := rounds512_eq M H n (t + 1) (by omega)
    rw [kv512_drop t (by omega), rounds512]
    simp only [force_eq]
    rw [← ih]
    congr 1
    · show _ = (W (t + 1 + 15)).toNat
      rw [show t + 1 + 15 = t + 16 by omega, sched512, s0_512, s1_512]
    · show _ = (v.h + fns512.S1 v.e + ch v.e v.f v.g + kv512 t + W t + (fns512.S0 v.a + maj v.a v.b v.c)).toNat
      simp only [BitVec.toNat_add, S0_512, S1_512, ch_toNat, maj_toNat, Nat.mod_add_mod, Nat.add_mod_mod, Nat.add_assoc]
    · show _ = (v.d + (v.h + fns512.S1 v.e + ch v.e v.f v.g + kv512 t + W t)).toNat
      simp only [BitVec.toNat_add, S1_512, ch_toNat, Nat.mod_add_mod, Nat.add_mod_mod, Nat.add_assoc]

/-! ### Constants -/

theorem rootBits_unique {e p w : Nat} {k k' : BitVec w} (h : RootBits e p w k) (h' : RootBits e p w k') : k = k' := by
  obtain ⟨c, h1, h2, rfl⟩ := h
  obtain ⟨c', h1', h2', rfl⟩ := h'
  have a : c < c' + 1 := lt_of_pow_lt_pow_left₀ e (Nat.zero_le _) (h1.trans_lt h2')
  have b : c' < c + 1 := lt_of_pow_lt_pow_left₀ e (Nat.zero_le _) (h1'.trans_lt h2)
  rw [show c = c' by omega]

/-- Test of a root with a small whole part. -/
def rootTest (e p w k : Nat) : Bool :=
  (List.range 8).any fun q => decide ((q * 2 ^ w + k) ^ e ≤ p * 2 ^ (e * w)) && decide (p * 2 ^ (e * w) < (q * 2 ^ w + k + 1) ^ e)

theorem rootBits_of {e p w k : Nat} (h : rootTest e p w k = true) : RootBits e p w (BitVec.ofNat w k) := by
  simp only [rootTest, List.any_eq_true, Bool.and_eq_true, decide_eq_true_eq] at h
  obtain ⟨q, -, h1, h2⟩ := h
  refine ⟨_, h1, h2, ?_⟩
  apply BitVec.eq_of_toNat_eq
  simp

/-- The first eighty primes. -/
def primes80 : List Nat :=
  [2, 3, 5, 7, 11, 13, 17, 19, 23, 29, 31, 37, 41, 43, 47, 53, 59, 61, 67, 71, 73, 79, 83, 89, 97, 101, 103, 107, 109, 113, 127, 131, 137,
   139, 149, 151, 157, 163, 167, 173, 179, 181, 191, 193, 197, 199, 211, 223, 227, 229, 233, 239, 241, 251, 257, 263, 269, 271, 277, 281,
   283, 293, 307, 311, 313, 317, 331, 337, 347, 349, 353, 359, 367, 373, 379, 383, 389, 397, 401, 409]

/-- Trial division, for numbers below 441. -/
def primeTest (q : Nat) : Bool :=
  decide (2 ≤ q) && [2, 3, 4, 5, 6, 7, 8, 9, 10, 11, 12, 13, 14, 15, 16, 17, 18, 19, 20].all fun m => decide (q < m * m) || decide (q % m ≠ 0)

theorem primeTest_iff {q : Nat} (hq : q < 441) : primeTest q = true ↔ Nat.Prime q := by
  have hmem : ∀ m, m ∈ [2, 3, 4, 5, 6, 7, 8, 9, 10, 11, 12, 13, 14, 15, 16, 17, 18, 19, 20] ↔ 2 ≤ m ∧ m ≤ 20 := by
    intro m
    simp only [List.mem_cons, List.not_mem_nil, or_false]
    omega
  simp only [primeTest, Bool.and_eq_true, decide_eq_true_eq, List.all_eq_true, Bool.or_eq_true, hmem]
  rw [Nat.prime_def_le_sqrt]
  refine and_congr_right fun h2 => ⟨fun h m hm hs hd => ?_, fun h m hm => ?_⟩
  · have hmm := Nat.le_sqrt.mp hs
    have h20 : m ≤ 20 := by
      by_contra hc
      have : 21 * 21 ≤ m * m := Nat.mul_le_mul (by omega) (by omega)
      omega
    rcases h m ⟨hm, h20⟩ with h | h
    · omega
    · exact h (Nat.mod_eq_zero_of_dvd hd)
  · by_cases b : q < m * m
    · exact .inl b
    · exact .inr fun e => h m hm.1 (Nat.le_sqrt.mpr (by omega)) (Nat.dvd_of_mod_eq_zero e)

theorem prime_mem {q : Nat} (hq : q < 410) : Nat.Prime q ↔ q ∈ primes80 := by
  have h : ∀ q < 410, primeTest q = decide (q ∈ primes80) := by decide +kernel
  rw [← primeTest_iff (by omega), h q hq, decide_eq_true_eq]

theorem nth_prime : ∀ t < 80, Nat.nth Nat.Prime t = primes80.getD t 0 := by
  intro t ht
  classical
  have hc : ∀ t < 80, primes80.getD t 0 < 410 ∧ primes80.getD t 0 ∈ primes80 ∧
      (primes80.filter fun q => decide (q < primes80.getD t 0)).length = t := by decide +kernel
  have hd : primes80.Nodup := by decide +kernel
  obtain ⟨h0, h1, h2⟩ := hc t ht
  have hn := Nat.nth_count ((prime_mem h0).mpr h1)
  rw [Nat.count_eq_card_filter_range] at hn
  have he : Finset.filter Nat.Prime (Finset.range (primes80.getD t 0)) = (primes80.filter fun q => decide (q < primes80.getD t 0)).toFinset := by
    ext q
    simp only [Finset.mem_filter, Finset.mem_range, List.mem_toFinset, List.mem_filter, decide_eq_true_eq]
    exact ⟨fun h => ⟨(prime_mem (by omega)).mp h.2, h.1⟩, fun h => ⟨h.2, (prime_mem (by omega)).mpr h.1⟩⟩
  rw [he, List.toFinset_card_of_nodup (hd.filter _), h2] at hn
  exact hn

/-! ### Words and blocks -/

theorem sum_eq (m : Nat) (s r : Eight) : Eight.sum m s r = ⟨(s.a + r.a) % m, (s.b + r.b) % m, (s.c + r.c) % m, (s.d + r.d) % m,
    (s.e + r.e) % m, (s.f + r.f) % m, (s.g + r.g) % m, (s.h + r.h) % m⟩ := by
  unfold Eight.sum
  rw [force_eq, force_eq, force_eq, force_eq, force_eq, force_eq, force_eq, force_eq]

theorem sum_eight {w : Nat} (H v : Vars w) : Eight.sum (2 ^ w) (eight H) (eight v) =
    eight ⟨v.a + H.a, v.b + H.b, v.c + H.c, v.d + H.d, v.e + H.e, v.f + H.f, v.g + H.g, v.h + H.h⟩ := by
  rw [sum_eq]
  simp only [eight, BitVec.toNat_add, Eight.mk.injEq]
  refine ⟨?_, ?_, ?_, ?_, ?_, ?_, ?_, ?_⟩ <;> exact congrArg (· % 2 ^ w) (Nat.add_comm _ _)

theorem words_eq (w n : Nat) (b : Bytes) : words w n b = (List.range n).map fun j => be ((b.drop (j * w)).take w) := by
  induction n generalizing b with
  | zero => rfl
  | succ n ih =>
    rw [words, force_eq, ih, List.range_succ_eq_map, List.map_cons, Bytes.beNat_eq]
    simp only [List.map_map, Nat.zero_mul, List.drop_zero, List.cons.injEq, true_and]
    refine List.map_congr_left fun j _ => ?_
    simp only [Function.comp, List.drop_drop]
    rw [show w + j * w = j.succ * w by rw [Nat.succ_mul]; omega]

theorem be_take_lt (k : Nat) (b : Bytes) : be (b.take k) < 256 ^ k :=
  (Bytes.be_lt _).trans_le (Nat.pow_le_pow_right (by decide) (by simp))

theorem pad_unique {m : Bytes} {B L z : Nat} (hL : L < B) (h : (m.length + 1 + z + L) % B = 0) (hz : z < B) :
    z = (B + (B - 1 - L) - m.length % B) % B := by
  have h1 := Nat.mod_lt m.length (show 0 < B by omega)
  have h2 : (m.length % B + 1 + z + L) % B = 0 := by
    rw [← h]; simp [Nat.add_mod]
  obtain ⟨q, hq⟩ := Nat.dvd_of_mod_eq_zero h2
  generalize m.length % B = r at *
  have : q = 1 ∨ q = 2 := by
    have : q < 3 := by
      by_contra hh
      have : B * 3 ≤ B * q := Nat.mul_le_mul_left _ (by omega)
      omega
    have : q ≠ 0 := by rintro rfl; omega
    omega
  rcases this with rfl | rfl
  · rw [show B + (B - 1 - L) - r = z + B by omega, Nat.add_mod_right, Nat.mod_eq_of_lt hz]
  · rw [show B + (B - 1 - L) - r = z by omega, Nat.mod_eq_of_lt hz]

/-! ### SHA-256: the hash -/

/-- The initial value as bit vectors. -/
def hv256 : Vars 32 where
  a := BitVec.ofNat 32 iv256.a
  b := BitVec.ofNat 32 iv256.b
  c := BitVec.ofNat 32 iv256.c
  d := BitVec.ofNat 32 iv256.d
  e := BitVec.ofNat 32 iv256.e
  f := BitVec.ofNat 32 iv256.f
  g := BitVec.ofNat 32 iv256.g
  h := BitVec.ofNat 32 iv256.h

theorem constants256 : Constants fns256 kv256 hv256 := by
  have hk : ∀ t < fns256.rounds, rootTest 3 (primes80.getD t 0) 32 (k256.getD t 0) = true := by decide +kernel
  have hr : fns256.rounds ≤ 80 := by decide
  refine ⟨fun t ht => ?_, rootBits_of ?_, rootBits_of ?_, rootBits_of ?_, rootBits_of ?_, rootBits_of ?_, rootBits_of ?_,
    rootBits_of ?_, rootBits_of ?_⟩
  · rw [nth_prime t (by omega)]
    exact rootBits_of (hk t ht)
  all_goals decide +kernel

theorem constants256_unique {K : Nat → BitVec 32} {H : Vars 32} (h : Constants fns256 K H) :
    (∀ t < fns256.rounds, K t = kv256 t) ∧ H = hv256 := by
  obtain ⟨h0, h1, h2, h3, h4, h5, h6, h7, h8⟩ := h
  obtain ⟨g0, g1, g2, g3, g4, g5, g6, g7, g8⟩ := constants256
  refine ⟨fun t ht => rootBits_unique (h0 t ht) (g0 t ht), ?_⟩
  cases H
  cases e : hv256
  simp only [e] at *
  rw [rootBits_unique h1 g1, rootBits_unique h2 g2, rootBits_unique h3 g3, rootBits_unique h4 g4, rootBits_unique h5 g5,
    rootBits_unique h6 g6, rootBits_unique h7 g7, rootBits_unique h8 g8]

theorem block256_eq (M : Nat → BitVec 32) (H : Vars 32) :
    block256 (eight H) [(M 0).toNat, (M 1).toNat, (M 2).toNat, (M 3).toNat, (M 4).toNat, (M 5).toNat, (M 6).toNat, (M 7).toNat, (M 8).toNat, (M 9).toNat, (M 10).toNat, (M 11).toNat, (M 12).toNat, (M 13).toNat, (M 14).toNat, (M 15).toNat] = eight (compress fns256 kv256 M H) := by
  have h := rounds256_eq M H fns256.rounds 0 (Nat.zero_add _)
  have hW : ∀ t < 16, schedule fns256 M t = M t := fun t ht => by rw [schedule, if_pos ht]
  have h0 : vars fns256 kv256 (schedule fns256 M) H 0 = H := rfl
  simp only [h0, List.drop_zero, Nat.zero_add] at h
  rw [hW 0 (by decide), hW 1 (by decide), hW 2 (by decide), hW 3 (by decide), hW 4 (by decide), hW 5 (by decide), hW 6 (by decide),
    hW 7 (by decide), hW 8 (by decide), hW 9 (by decide), hW 10 (by decide), hW 11 (by decide), hW 12 (by decide), hW 13 (by decide),
    hW 14 (by decide), hW 15 (by decide)] at h
  rw [block256]
  have e : ∀ x : Vars 32, (eight x).a = x.a.toNat ∧ (eight x).b = x.b.toNat ∧ (eight x).c = x.c.toNat ∧ (eight x).d = x.d.toNat ∧
      (eight x).e = x.e.toNat ∧ (eight x).f = x.f.toNat ∧ (eight x).g = x.g.toNat ∧ (eight x).h = x.h.toNat :=
    fun x => ⟨rfl, rfl, rfl, rfl, rfl, rfl, rfl, rfl⟩
  obtain ⟨e1, e2, e3, e4, e5, e6, e7, e8⟩ := e H
  simp only [e1, e2, e3, e4, e5, e6, e7, e8, h]
  rw [compress]
  generalize vars fns256 kv256 (schedule fns256 M) H fns256.rounds = v
  exact sum_eight H v

theorem words256_eq (p : Bytes) (i : Nat) :
    words 4 16 (p.drop (64 * i)) = (List.range 16).map fun j => (word 32 p i j).toNat := by
  rw [words_eq]
  refine List.map_congr_left fun j _ => ?_
  rw [List.drop_drop, word, BitVec.toNat_ofNat, show (32 : Nat) / 8 = 4 from rfl, Nat.mod_eq_of_lt (show be _ < 2 ^ 32 from be_take_lt 4 _),
    show 64 * i + j * 4 = (16 * i + j) * 4 by omega]

theorem blocks256_eq (p : Bytes) : ∀ n i, blocks256 n (p.drop (64 * i)) (eight (value fns256 kv256 hv256 p i)) =
    eight (value fns256 kv256 hv256 p (i + n))
  | 0, _ => rfl
  | n + 1, i => by
    have hl : words 4 16 (p.drop (64 * i)) = [(word 32 p i 0).toNat, (word 32 p i 1).toNat, (word 32 p i 2).toNat, (word 32 p i 3).toNat, (word 32 p i 4).toNat, (word 32 p i 5).toNat, (word 32 p i 6).toNat, (word 32 p i 7).toNat, (word 32 p i 8).toNat, (word 32 p i 9).toNat, (word 32 p i 10).toNat, (word 32 p i 11).toNat, (word 32 p i 12).toNat, (word 32 p i 13).toNat, (word 32 p i 14).toNat, (word 32 p i 15).toNat] := by
      rw [words256_eq]; rfl
    rw [blocks256, hl, block256_eq, List.drop_drop, show 64 * i + 64 = 64 * (i + 1) by omega]
    have := blocks256_eq p n (i + 1)
    rw [show i + 1 + n = i + (n + 1) by omega] at this
    exact this

theorem compress256_congr {K K' M : Nat → BitVec 32} {H : Vars 32} (h : ∀ t < fns256.rounds, K t = K' t) :
    compress fns256 K M H = compress fns256 K' M H := by
  have : ∀ t ≤ fns256.rounds, vars fns256 K (schedule fns256 M) H t = vars fns256 K' (schedule fns256 M) H t := by
    intro t
    induction t with
    | zero => intro _; rfl
    | succ t ih =>
      intro ht
      rw [vars, vars, ih (by omega), h t (by omega)]
  rw [compress, compress, this _ le_rfl]

theorem value256_congr {K K' : Nat → BitVec 32} {H : Vars 32} (h : ∀ t < fns256.rounds, K t = K' t) (p : Bytes) (i : Nat) :
    value fns256 K H p i = value fns256 K' H p i := by
  induction i with
  | zero => rfl
  | succ i ih => rw [value, value, ih, compress256_congr h]

theorem pad256_padded {m : Bytes} (h : 8 * m.length < 2 ^ 64) : Padded 32 m (pad256 m) := by
  refine ⟨_, _, rfl, Bytes.isBe_beBytes h, ?_, Nat.mod_lt _ (by decide)⟩
  simp only [pad256, List.length_append, List.length_replicate, Bytes.beBytes_length, List.length_singleton]
  omega

theorem padded256_unique {m p : Bytes} (h : Padded 32 m p) : p = pad256 m := by
  obtain ⟨z, l, rfl, hl, hp, hz⟩ := h
  have hlt : 8 * m.length < 256 ^ 8 := by
    have := Bytes.be_lt l
    rw [hl.1, hl.2] at this
    exact this
  have hl' := (Bytes.isBe_iff hlt).mp hl
  have hlen : l.length = 8 := hl.1
  simp only [List.length_append, List.length_replicate, List.length_singleton, hlen] at hp
  have := pad_unique (m := m) (B := 64) (L := 8) (z := z) (by decide) hp hz
  rw [pad256, ← this, hl']

theorem isHash256_iff {m d : Bytes} (h : 8 * m.length < 2 ^ 64) : IsHash fns256 m d ↔ d = sha256 m := by
  have hb : ∀ p : Bytes, (blocks256 (p.length / 64) p iv256) = eight (value fns256 kv256 hv256 p (p.length / 64)) := by
    intro p
    have := blocks256_eq p (p.length / 64) 0
    rw [Nat.mul_zero, List.drop_zero, Nat.zero_add] at this
    exact this
  have hlt : ∀ x : BitVec 32, x.toNat < 256 ^ 4 := fun x => x.isLt
  constructor
  · rintro ⟨K, H, p, hc, hp, hd⟩
    obtain ⟨hK, rfl⟩ := constants256_unique hc
    rw [padded256_unique hp] at hd
    rw [value256_congr hK] at hd
    obtain ⟨a, b, c, e, f, g, h, i, rfl, h1, h2, h3, h4, h5, h6, h7, h8⟩ := hd
    rw [sha256, hb, Eight.toList]
    rw [(Bytes.isBe_iff (hlt _)).mp h1, (Bytes.isBe_iff (hlt _)).mp h2, (Bytes.isBe_iff (hlt _)).mp h3, (Bytes.isBe_iff (hlt _)).mp h4,
      (Bytes.isBe_iff (hlt _)).mp h5, (Bytes.isBe_iff (hlt _)).mp h6, (Bytes.isBe_iff (hlt _)).mp h7, (Bytes.isBe_iff (hlt _)).mp h8]
    simp only [eight, List.flatMap_cons, List.flatMap_nil, List.append_nil, List.append_assoc]
  · rintro rfl
    refine ⟨kv256, hv256, pad256 m, constants256, pad256_padded h, _, _, _, _, _, _, _, _, ?_, Bytes.isBe_beBytes (hlt _), Bytes.isBe_beBytes (hlt _),
      Bytes.isBe_beBytes (hlt _), Bytes.isBe_beBytes (hlt _), Bytes.isBe_beBytes (hlt _), Bytes.isBe_beBytes (hlt _),
      Bytes.isBe_beBytes (hlt _), Bytes.isBe_beBytes (hlt _)⟩
    rw [sha256, hb, Eight.toList]
    simp only [eight, List.flatMap_cons, List.flatMap_nil, List.append_nil, List.append_assoc]

/-! ### SHA-512: the hash -/

/-- The initial value as bit vectors. -/
def hv512 : Vars 64 where
  a := BitVec.ofNat 64 iv512.a
  b := BitVec.ofNat 64 iv512.b
  c := BitVec.ofNat 64 iv512.c
  d := BitVec.ofNat 64 iv512.d
  e := BitVec.ofNat 64 iv512.e
  f := BitVec.ofNat 64 iv512.f
  g := BitVec.ofNat 64 iv512.g
  h := BitVec.ofNat 64 iv512.h

theorem constants512 : Constants fns512 kv512 hv512 := by
  have hk : ∀ t < fns512.rounds, rootTest 3 (primes80.getD t 0) 64 (k512.getD t 0) = true := by decide +kernel
  have hr : fns512.rounds ≤ 80 := by decide
  refine ⟨fun t ht => ?_, rootBits_of ?_, rootBits_of ?_, rootBits_of ?_, rootBits_of ?_, rootBits_of ?_, rootBits_of ?_,
    rootBits_of ?_, rootBits_of ?_⟩
  · rw [nth_prime t (by omega)]
    exact rootBits_of (hk t ht)
  all_goals decide +kernel

theorem constants512_unique {K : Nat → BitVec 64} {H : Vars 64} (h : Constants fns512 K H) :
    (∀ t < fns512.rounds, K t = kv512 t) ∧ H = hv512 := by
  obtain ⟨h0, h1, h2, h3, h4, h5, h6, h7, h8⟩ := h
  obtain ⟨g0, g1, g2, g3, g4, g5, g6, g7, g8⟩ := constants512
  refine ⟨fun t ht => rootBits_unique (h0 t ht) (g0 t ht), ?_⟩
  cases H
  cases e : hv512
  simp only [e] at *
  rw [rootBits_unique h1 g1, rootBits_unique h2 g2, rootBits_unique h3 g3, rootBits_unique h4 g4, rootBits_unique h5 g5,
    rootBits_unique h6 g6, rootBits_unique h7 g7, rootBits_unique h8 g8]

theorem block512_eq (M : Nat → BitVec 64) (H : Vars 64) :
    block512 (eight H) [(M 0).toNat, (M 1).toNat, (M 2).toNat, (M 3).toNat, (M 4).toNat, (M 5).toNat, (M 6).toNat, (M 7).toNat, (M 8).toNat, (M 9).toNat, (M 10).toNat, (M 11).toNat, (M 12).toNat, (M 13).toNat, (M 14).toNat, (M 15).toNat] = eight (compress fns512 kv512 M H) := by
  have h := rounds512_eq M H fns512.rounds 0 (Nat.zero_add _)
  have hW : ∀ t < 16, schedule fns512 M t = M t := fun t ht => by rw [schedule, if_pos ht]
  have h0 : vars fns512 kv512 (schedule fns512 M) H 0 = H := rfl
  simp only [h0, List.drop_zero, Nat.zero_add] at h
  rw [hW 0 (by decide), hW 1 (by decide), hW 2 (by decide), hW 3 (by decide), hW 4 (by decide), hW 5 (by decide), hW 6 (by decide),
    hW 7 (by decide), hW 8 (by decide), hW 9 (by decide), hW 10 (by decide), hW 11 (by decide), hW 12 (by decide), hW 13 (by decide),
    hW 14 (by decide), hW 15 (by decide)] at h
  rw [block512]
  have e : ∀ x : Vars 64, (eight x).a = x.a.toNat ∧ (eight x).b = x.b.toNat ∧ (eight x).c = x.c.toNat ∧ (eight x).d = x.d.toNat ∧
      (eight x).e = x.e.toNat ∧ (eight x).f = x.f.toNat ∧ (eight x).g = x.g.toNat ∧ (eight x).h = x.h.toNat :=
    fun x => ⟨rfl, rfl, rfl, rfl, rfl, rfl, rfl, rfl⟩
  obtain ⟨e1, e2, e3, e4, e5, e6, e7, e8⟩ := e H
  simp only [e1, e2, e3, e4, e5, e6, e7, e8, h]
  rw [compress]
  generalize vars fns512 kv512 (schedule fns512 M) H fns512.rounds = v
  exact sum_eight H v

theorem words512_eq (p : Bytes) (i : Nat) :
    words 8 16 (p.drop (128 * i)) = (List.range 16).map fun j => (word 64 p i j).toNat := by
  rw [words_eq]
  refine List.map_congr_left fun j _ => ?_
  rw [List.drop_drop, word, BitVec.toNat_ofNat, show (64 : Nat) / 8 = 8 from rfl, Nat.mod_eq_of_lt (show be _ < 2 ^ 64 from be_take_lt 8 _),
    show 128 * i + j * 8 = (16 * i + j) * 8 by omega]

theorem blocks512_eq (p : Bytes) : ∀ n i, blocks512 n (p.drop (128 * i)) (eight (value fns512 kv512 hv512 p i)) =
    eight (value fns512 kv512 hv512 p (i + n))
  | 0, _ => rfl
  | n + 1, i => by
    have hl : words 8 16 (p.drop (128 * i)) = [(word 64 p i 0).toNat, (word 64 p i 1).toNat, (word 64 p i 2).toNat, (word 64 p i 3).toNat, (word 64 p i 4).toNat, (word 64 p i 5).toNat, (word 64 p i 6).toNat, (word 64 p i 7).toNat, (word 64 p i 8).toNat, (word 64 p i 9).toNat, (word 64 p i 10).toNat, (word 64 p i 11).toNat, (word 64 p i 12).toNat, (word 64 p i 13).toNat, (word 64 p i 14).toNat, (word 64 p i 15).toNat] := by
      rw [words512_eq]; rfl
    rw [blocks512, hl, block512_eq, List.drop_drop, show 128 * i + 128 = 128 * (i + 1) by omega]
    have := blocks512_eq p n (i + 1)
    rw [show i + 1 + n = i + (n + 1) by omega] at this
    exact this

theorem compress512_congr {K K' M : Nat → BitVec 64} {H : Vars 64} (h : ∀ t < fns512.rounds, K t = K' t) :
    compress fns512 K M H = compress fns512 K' M H := by
  have : ∀ t ≤ fns512.rounds, vars fns512 K (schedule fns512 M) H t = vars fns512 K' (schedule fns512 M) H t := by
    intro t
    induction t with
    | zero => intro _; rfl
    | succ t ih =>
      intro ht
      rw [vars, vars, ih (by omega), h t (by omega)]
  rw [compress, compress, this _ le_rfl]

theorem value512_congr {K K' : Nat → BitVec 64} {H : Vars 64} (h : ∀ t < fns512.rounds, K t = K' t) (p : Bytes) (i : Nat) :
    value fns512 K H p i = value fns512 K' H p i := by
  induction i with
  | zero => rfl
  | succ i ih => rw [value, value, ih, compress512_congr h]

theorem pad512_padded {m : Bytes} (h : 8 * m.length < 2 ^ 128) : Padded 64 m (pad512 m) := by
  refine ⟨_, _, rfl, Bytes.isBe_beBytes h, ?_, Nat.mod_lt _ (by decide)⟩
  simp only [pad512, List.length_append, List.length_replicate, Bytes.beBytes_length, List.length_singleton]
  omega

theorem padded512_unique {m p : Bytes} (h : Padded 64 m p) : p = pad512 m := by
  obtain ⟨z, l, rfl, hl, hp, hz⟩ := h
  have hlt : 8 * m.length < 256 ^ 16 := by
    have := Bytes.be_lt l
    rw [hl.1, hl.2] at this
    exact this
  have hl' := (Bytes.isBe_iff hlt).mp hl
  have hlen : l.length = 16 := hl.1
  simp only [List.length_append, List.length_replicate, List.length_singleton, hlen] at hp
  have := pad_unique (m := m) (B := 128) (L := 16) (z := z) (by decide) hp hz
  rw [pad512, ← this, hl']

theorem isHash512_iff {m d : Bytes} (h : 8 * m.length < 2 ^ 128) : IsHash fns512 m d ↔ d = sha512 m := by
  have hb : ∀ p : Bytes, (blocks512 (p.length / 128) p iv512) = eight (value fns512 kv512 hv512 p (p.length / 128)) := by
    intro p
    have := blocks512_eq p (p.length / 128) 0
    rw [Nat.mul_zero, List.drop_zero, Nat.zero_add] at this
    exact this
  have hlt : ∀ x : BitVec 64, x.toNat < 256 ^ 8 := fun x => x.isLt
  constructor
  · rintro ⟨K, H, p, hc, hp, hd⟩
    obtain ⟨hK, rfl⟩ := constants512_unique hc
    rw [padded512_unique hp] at hd
    rw [value512_congr hK] at hd
    obtain ⟨a, b, c, e, f, g, h, i, rfl, h1, h2, h3, h4, h5, h6, h7, h8⟩ := hd
    rw [sha512, hb, Eight.toList]
    rw [(Bytes.isBe_iff (hlt _)).mp h1, (Bytes.isBe_iff (hlt _)).mp h2, (Bytes.isBe_iff (hlt _)).mp h3, (Bytes.isBe_iff (hlt _)).mp h4,
      (Bytes.isBe_iff (hlt _)).mp h5, (Bytes.isBe_iff (hlt _)).mp h6, (Bytes.isBe_iff (hlt _)).mp h7, (Bytes.isBe_iff (hlt _)).mp h8]
    simp only [eight, List.flatMap_cons, List.flatMap_nil, List.append_nil, List.append_assoc]
  · rintro rfl
    refine ⟨kv512, hv512, pad512 m, constants512, pad512_padded h, _, _, _, _, _, _, _, _, ?_, Bytes.isBe_beBytes (hlt _), Bytes.isBe_beBytes (hlt _),
      Bytes.isBe_beBytes (hlt _), Bytes.isBe_beBytes (hlt _), Bytes.isBe_beBytes (hlt _), Bytes.isBe_beBytes (hlt _),
      Bytes.isBe_beBytes (hlt _), Bytes.isBe_beBytes (hlt _)⟩
    rw [sha512, hb, Eight.toList]
    simp only [eight, List.flatMap_cons, List.flatMap_nil, List.append_nil, List.append_assoc]

end KC.Real.Sha2
