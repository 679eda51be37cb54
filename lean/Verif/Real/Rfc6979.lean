import Verif.Spec.Rfc6979
import Verif.Real.Secp256k1
import Verif.Real.Sha2
/-
HMAC-SHA256 (RFC 2104) and the nonces of RFC 6979 made with it (crate `libsecp256k1` takes its nonces from `hmac-drbg`, which is the
same), and that they repeat only with a collision.
-/
namespace KC.Real

/-- RFC 2104 with SHA-256. -/
def hmacSha256 (k m : Bytes) : Bytes :=
  let k := if k.length > 64 then sha256 k else k
  let k := k ++ List.replicate (64 - k.length) 0
  sha256 (k.map (· ^^^ 0x5c) ++ sha256 (k.map (· ^^^ 0x36) ++ m))

theorem hmacSha256_len (k m : Bytes) : (hmacSha256 k m).length = 32 := sha256_len _

/-! RFC 4231, test cases 1 and 2. -/

example : hmacSha256 (List.replicate 20 11) [72, 105, 32, 84, 104, 101, 114, 101] =
    Bytes.beBytes 32 0xb0344c61d8db38535ca8afceaf0bf12b881dc200c9833da726e9376c2e32cff7 := by decide +kernel

example : hmacSha256 [74, 101, 102, 101] [119, 104, 97, 116, 32, 100, 111, 32, 121, 97, 32, 119, 97, 110, 116, 32, 102, 111, 114, 32, 110, 111, 116, 104, 105, 110, 103, 63] =
    Bytes.beBytes 32 0x5bdcc146bf60754e6a042426089575c75a003f089d2739839dec58b964ec3843 := by decide +kernel

namespace Rfc6979
open KC.Spec.Rfc6979 KC.Spec.Secp256k1 KC.Real.Secp256k1

/-- `HmacDRBG::new`: the first `K` and `V`. -/
def start (M : Bytes → Bytes → Bytes) (x h : Bytes) : Bytes × Bytes :=
  let v := List.replicate 32 1
  let k := M (List.replicate 32 0) (v ++ [0] ++ x ++ h)
  let v := M k v
  let k := M k (v ++ [1] ++ x ++ h)
  (k, M k v)

/-- `HmacDRBG::generate`, what it leaves. -/
def next (M : Bytes → Bytes → Bytes) (s : Bytes × Bytes) : Bytes × Bytes :=
  let t := M s.1 s.2
  let k := M s.1 (t ++ [0])
  (k, M k t)

/-- The state before candidate `i`. -/
def state (M : Bytes → Bytes → Bytes) (x h : Bytes) : Nat → Bytes × Bytes
  | 0 => start M x h
  | i + 1 => next M (state M x h i)

/-- `HmacDRBG::generate`, what it gives. -/
def out (M : Bytes → Bytes → Bytes) (s : Bytes × Bytes) : Bytes := M s.1 s.2

/-- Candidate `i` for the hash `m` and the secret `k`. -/
def nonce (M : Bytes → Bytes → Bytes) (m : Bytes) (k : Secp.Secret) (i : Nat) : Nat :=
  Bytes.beNat (out M (state M (Bytes.beBytes 32 k.val) (Bytes.beBytes 32 (Bytes.beNat m % n)) i))

theorem state_iff (M : Bytes → Bytes → Bytes) (x h : Bytes) (i : Nat) (K V : Bytes) : State M x h i K V ↔ state M x h i = (K, V) := by
  induction i generalizing K V with
  | zero =>
    constructor
    · intro hs
      cases hs with
      | start V₀ K₀ K₁ V₁ K₂ V₂ h1 h2 h3 h4 h5 h6 =>
        subst h1; subst h2; subst h3; subst h4; subst h5; subst h6
        rfl
    · intro hs
      cases hs
      exact .start _ _ _ _ _ _ rfl rfl rfl rfl rfl rfl
  | succ i ih =>
    constructor
    · intro hs
      cases hs with
      | retry i K₀ V₀ K' V' h1 h2 h3 =>
        subst h2; subst h3
        rw [state, (ih K₀ V₀).mp h1]
        rfl
    · intro hs
      rw [state] at hs
      rcases hst : state M x h i with ⟨K₀, V₀⟩
      rw [hst] at hs
      cases hs
      exact .retry i K₀ V₀ _ _ ((ih K₀ V₀).mpr hst) rfl rfl

theorem candidate_iff (M : Bytes → Bytes → Bytes) (x h : Bytes) (i j : Nat) :
    Candidate M x h i j ↔ j = Spec.Bip32.be (out M (state M x h i)) := by
  constructor
  · rintro ⟨K, V, hs, rfl⟩
    rw [(state_iff ..).mp hs]
    rfl
  · rintro rfl
    exact ⟨_, _, (state_iff ..).mpr rfl, rfl⟩

/-! ### Signatures -/

theorem made_iff (z k j r s v : Nat) : signWith z k j = some (r, s, v) ↔ Made z k j r s v := by
  refine ⟨signWith_spec, fun h => ?_⟩
  have key : ∀ r' s' v', signWith z k j = some (r', s', v') → (r', s', v') = (r, s, v) := by
    intro r' s' v' hw
    obtain ⟨h1, h2, x, y, hxy, hG, hr, -, hs0, hs, hv⟩ := h
    obtain ⟨-, -, x', y', hxy', hG', hr', -, hs0', hs', hv'⟩ := signWith_spec hw
    rw [hG] at hG'
    cases hG'
    obtain rfl : r' = r := hr'.trans hr.symm
    have hj : (j : ZMod n) ≠ 0 := by
      rw [Ne, ZMod.natCast_eq_zero_iff]
      exact fun h => absurd (Nat.le_of_dvd h1 h) (not_le.mpr h2)
    have hn2 : n % 2 = 1 := by decide +kernel
    have hn0 : 0 < n := n_pos
    have same : (s' : ZMod n) = s → s' = s := by
      intro e
      rw [ZMod.natCast_eq_natCast_iff] at e
      exact Nat.ModEq.eq_of_lt_of_lt e (by omega) (by omega)
    have opp : ¬ (s' : ZMod n) = -s := by
      intro e
      have : ((s' + s : Nat) : ZMod n) = 0 := by rw [Nat.cast_add, e]; ring
      rw [ZMod.natCast_eq_zero_iff] at this
      have := Nat.le_of_dvd (by omega) this
      omega
    rcases hv with ⟨e, ev⟩ | ⟨e, ev⟩ <;> rcases hv' with ⟨e', ev'⟩ | ⟨e', ev'⟩
    · rw [same (mul_right_cancel₀ hj (e'.trans e.symm)), ev, ev']
    · exact absurd (mul_right_cancel₀ hj (by rw [e', neg_mul, e])) opp
    · exact absurd (mul_right_cancel₀ hj (by rw [e', neg_mul, e, neg_neg])) opp
    · rw [same (mul_right_cancel₀ hj (e'.trans e.symm)), ev, ev']
  obtain ⟨⟨r', s', v'⟩, hw⟩ : ∃ t, signWith z k j = some t := by
    obtain ⟨h1, h2, x, y, hxy, hG, hr, hr0, hs0, hs, hv⟩ := h
    unfold signWith
    rw [if_neg (by omega), affine_mulG h2 hG]
    simp only
    rw [if_neg (by rw [← hr]; exact hr0), if_neg]
    · split
      · exact ⟨_, rfl⟩
      · exact ⟨_, rfl⟩
    · intro h0
      have hj : (j : ZMod n) ≠ 0 := by
        rw [Ne, ZMod.natCast_eq_zero_iff]
        exact fun h => absurd (Nat.le_of_dvd h1 h) (not_le.mpr h2)
      have : ((Ec.inv n j * (z + x.val % n * k) % n : Nat) : ZMod n) = 0 := by rw [h0, Nat.cast_zero]
      rw [ZMod.natCast_mod, Nat.cast_mul, Ec.inv_cast n j hj, Nat.cast_add, Nat.cast_mul, ← hr] at this
      have hz := (mul_eq_zero.mp this).resolve_left (inv_ne_zero hj)
      have hsn : (s : ZMod n) ≠ 0 := by
        rw [Ne, ZMod.natCast_eq_zero_iff]
        exact fun h => absurd (Nat.le_of_dvd hs0 h) (not_le.mpr (half_lt hs))
      rcases hv with ⟨e, -⟩ | ⟨e, -⟩
      · rw [hz] at e
        exact mul_ne_zero hsn hj e
      · rw [hz, neg_zero] at e
        exact mul_ne_zero hsn hj e
  rw [hw, key _ _ _ hw]

theorem firstGood_iff {α : Type} (g : Nat → Option α) (f i : Nat) (v : α) :
    firstGood g f i = some v ↔ ∃ d, d < f ∧ g (i + d) = some v ∧ ∀ e, e < d → g (i + e) = none := by
  induction f generalizing i with
  | zero =>
    constructor
    · intro h; cases h
    · rintro ⟨d, hd, -⟩
      omega
  | succ f ih =>
    unfold firstGood
    cases hg : g i with
    | some w =>
      constructor
      · intro h
        exact ⟨0, by omega, by rw [Nat.add_zero, hg]; exact h, by omega⟩
      · rintro ⟨d, -, h1, h2⟩
        cases d with
        | zero => rw [Nat.add_zero, hg] at h1; exact h1
        | succ d =>
          have := h2 0 (by omega)
          rw [Nat.add_zero, hg] at this
          cases this
    | none =>
      rw [ih]
      constructor
      · rintro ⟨d, hd, h1, h2⟩
        refine ⟨d + 1, by omega, by rw [← h1]; congr 1; omega, fun e he => ?_⟩
        cases e with
        | zero => exact hg
        | succ e => rw [← h2 e (by omega)]; congr 1; omega
      · rintro ⟨d, hd, h1, h2⟩
        cases d with
        | zero => rw [Nat.add_zero, hg] at h1; cases h1
        | succ d =>
          refine ⟨d, by omega, by rw [← h1]; congr 1; omega, fun e he => ?_⟩
          rw [← h2 (e + 1) (by omega)]
          congr 1
          omega

/-! ### Repeated nonces -/

/-- Equal outputs of different states are a collision. -/
theorem peel {M : Bytes → Bytes → Bytes} (hc : ¬ Collision M) {k t k' t' : Bytes}
    (hk : k.length = 32) (hk' : k'.length = 32) (h : M k t = M k' t') : k = k' ∧ t = t' := by
  by_contra hne
  exact hc ⟨k, t, k', t', hk, hk', fun e => hne (Prod.mk.inj e), h⟩

theorem state_len {M : Bytes → Bytes → Bytes} (hM : ∀ k t, (M k t).length = 32) (x h : Bytes) (i : Nat) :
    (state M x h i).1.length = 32 ∧ (state M x h i).2.length = 32 := by
  cases i with
  | zero => exact ⟨hM _ _, hM _ _⟩
  | succ i => exact ⟨hM _ _, hM _ _⟩

/-- States that agree come from the same secret, hash and number of attempts. -/
theorem state_inj {M : Bytes → Bytes → Bytes} (hM : ∀ k t, (M k t).length = 32) (hc : ¬ Collision M) {x h x' h' : Bytes}
    (hx : x.length = 32) (hh : h.length = 32) (hx' : x'.length = 32) (hh' : h'.length = 32) {i j : Nat}
    (e : state M x h i = state M x' h' j) : x = x' ∧ h = h' ∧ i = j := by
  induction i generalizing j with
  | zero =>
    cases j with
    | zero =>
      have e1 : (start M x h).1 = (start M x' h').1 := congrArg Prod.fst e
      unfold start at e1
      simp only at e1
      obtain ⟨-, e2⟩ := peel hc (hM _ _) (hM _ _) e1
      simp only [List.append_assoc] at e2
      obtain ⟨-, e3⟩ := List.append_inj e2 (by rw [hM, hM])
      obtain ⟨-, e4⟩ := List.append_inj e3 rfl
      obtain ⟨e5, e6⟩ := List.append_inj e4 (hx.trans hx'.symm)
      exact ⟨e5, e6, rfl⟩
    | succ j =>
      exfalso
      have e1 : (start M x h).1 = (next M (state M x' h' j)).1 := congrArg Prod.fst e
      unfold start next at e1
      simp only at e1
      obtain ⟨-, e2⟩ := peel hc (hM _ _) (state_len hM x' h' j).1 e1
      have := congrArg List.length e2
      simp only [List.length_append, hM, hx, hh, List.length_singleton] at this
      omega
  | succ i ih =>
    cases j with
    | zero =>
      exfalso
      have e1 : (next M (state M x h i)).1 = (start M x' h').1 := congrArg Prod.fst e
      unfold start next at e1
      simp only at e1
      obtain ⟨-, e2⟩ := peel hc (state_len hM x h i).1 (hM _ _) e1
      have := congrArg List.length e2
      simp only [List.length_append, hM, hx', hh', List.length_singleton] at this
      omega
    | succ j =>
      have e1 : (next M (state M x h i)).1 = (next M (state M x' h' j)).1 := congrArg Prod.fst e
      unfold next at e1
      simp only at e1
      obtain ⟨h1, e2⟩ := peel hc (state_len hM x h i).1 (state_len hM x' h' j).1 e1
      obtain ⟨e3, -⟩ := List.append_inj e2 (by rw [hM, hM])
      obtain ⟨-, h2⟩ := peel hc (state_len hM x h i).1 (state_len hM x' h' j).1 e3
      obtain ⟨a, b, c⟩ := ih (Prod.ext h1 h2)
      exact ⟨a, b, by omega⟩

theorem out_inj {M : Bytes → Bytes → Bytes} (hM : ∀ k t, (M k t).length = 32) (hc : ¬ Collision M) {x h x' h' : Bytes}
    (hx : x.length = 32) (hh : h.length = 32) (hx' : x'.length = 32) (hh' : h'.length = 32) {i j : Nat}
    (e : out M (state M x h i) = out M (state M x' h' j)) : x = x' ∧ h = h' ∧ i = j := by
  obtain ⟨h1, h2⟩ := peel hc (state_len hM x h i).1 (state_len hM x' h' j).1 e
  exact state_inj hM hc hx hh hx' hh' (Prod.ext h1 h2)

end Rfc6979
end KC.Real
