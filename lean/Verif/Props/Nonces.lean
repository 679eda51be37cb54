import Verif.Real.Rfc6979
import Verif.Props.Real
/-
C74: Bitcoin and Ethereum signatures are those of RFC 6979; their nonces repeat only with a collision of HMAC-SHA256, and a repeated
nonce would give the secret away.  `Real.Rfc6979.nonce M` are the nonces made with the code `M`, tried up to `tries` times.
-/
namespace KC.Props
open KC.Manager KC.Spec KC.Spec.Wallet KC.Secp
open KC.KeyPath (Path)
open KC.Spec.Secp256k1 (n G Uncompressed)
open KC.Spec.Bip32 (be IsBe)
open KC.Spec.Rfc6979 (Candidate Made Signed Collision)
open KC.Real.Secp256k1 (curve)
open KC.Real (hmacSha256)
open KC.Real.Rfc6979 (nonce)

theorem w_small {z k j r s v : Nat} (h : Made z k j r s v) : v < 4 ∧ r < n ∧ s < n := by
  obtain ⟨-, -, x, y, -, -, hr, -, -, hs, hv⟩ := h
  have : y.val % 2 < 2 := Nat.mod_lt _ (by decide)
  refine ⟨?_, by rw [hr]; exact Nat.mod_lt _ Real.Secp256k1.n_pos, Real.Secp256k1.half_lt hs⟩
  rcases hv with ⟨-, e⟩ | ⟨-, e⟩ <;> rw [e] <;> split <;> omega

/-- C74: signing gives the signature of RFC 6979, in bytes, and fails exactly when none of the candidates tried is good for one. -/
theorem C74_sign (M : Bytes → Bytes → Bytes) (tries : Nat) (m : Bytes) (k : Secret) (x h : Bytes) (hx : IsBe 32 k.val x)
    (hh : IsBe 32 (be m % n) h) :
    (∀ r s v, (curve (nonce M) tries).sign m k = .ok (r, s, v) ↔
      ∃ i R S, i < tries ∧ Signed M x h (be m % n) k.val i R S v.toNat ∧ IsBe 32 R r ∧ IsBe 32 S s) ∧
    (∀ e, (curve (nonce M) tries).sign m k = .err e →
      ∀ i j R S W, i < tries → Candidate M x h i j → ¬ Made (be m % n) k.val j R S W) := by
  have hn : n < 256 ^ 32 := by decide +kernel
  have hxe : Bytes.beBytes 32 k.val = x := Bytes.isBe_unique (Bytes.isBe_beBytes (k.2.2.trans (by rw [order_eq]; exact hn))) hx
  have hhe : Bytes.beBytes 32 (be m % n) = h :=
    Bytes.isBe_unique (Bytes.isBe_beBytes ((Nat.mod_lt _ Real.Secp256k1.n_pos).trans hn)) hh
  have hnon : ∀ i, nonce M m k i = be (Real.Rfc6979.out M (Real.Rfc6979.state M x h i)) := by
    intro i
    unfold nonce
    rw [hxe, Bytes.beNat_eq, Bytes.beNat_eq, hhe]
  have hgood : ∀ i R S W, Real.Secp256k1.signWith (Bytes.beNat m % n) k.val (nonce M m k i) = some (R, S, W) ↔
      ∃ j, Candidate M x h i j ∧ Made (be m % n) k.val j R S W := by
    intro i R S W
    rw [Bytes.beNat_eq, hnon, Real.Rfc6979.made_iff]
    constructor
    · intro hm
      exact ⟨_, (Real.Rfc6979.candidate_iff ..).mpr rfl, hm⟩
    · rintro ⟨j, hj, hm⟩
      rwa [← (Real.Rfc6979.candidate_iff ..).mp hj]
  have hbad : ∀ i, Real.Secp256k1.signWith (Bytes.beNat m % n) k.val (nonce M m k i) = none ↔
      ∀ j R S W, Candidate M x h i j → ¬ Made (be m % n) k.val j R S W := by
    intro i
    constructor
    · intro hnone j R S W hj hm
      rw [(hgood i R S W).mpr ⟨j, hj, hm⟩] at hnone
      cases hnone
    · intro hall
      rcases hs : Real.Secp256k1.signWith (Bytes.beNat m % n) k.val (nonce M m k i) with _ | ⟨R, S, W⟩
      · rfl
      · obtain ⟨j, hj, hm⟩ := (hgood i R S W).mp hs
        exact absurd hm (hall j R S W hj)
  constructor
  · intro r s v
    constructor
    · intro hs
      obtain ⟨R, S, W, hf, er, es, ev⟩ := Real.Secp256k1.sign_ok (show Real.Secp256k1.sign (nonce M) tries m k = _ from hs)
      obtain ⟨i, hi, h1, h2⟩ := (Real.Rfc6979.firstGood_iff _ _ _ _).mp hf
      simp only [Nat.zero_add] at h1 h2
      obtain ⟨j, hj, hm⟩ := (hgood i R S W).mp h1
      obtain ⟨w1, w2, w3⟩ := w_small hm
      have hv : v.toNat = W := by rw [ev, UInt8.toNat_ofNat']; omega
      refine ⟨i, R, S, hi, ⟨⟨j, hj, by rw [hv]; exact hm⟩, fun i' j' r' s' v' hi' => (hbad i').mp (h2 i' hi') j' r' s' v'⟩, ?_, ?_⟩
      · rw [er]; exact Bytes.isBe_beBytes (w2.trans hn)
      · rw [es]; exact Bytes.isBe_beBytes (w3.trans hn)
    · rintro ⟨i, R, S, hi, ⟨⟨j, hj, hm⟩, hall⟩, hr, hs⟩
      have hf : Real.Secp256k1.firstGood
          (fun i => Real.Secp256k1.signWith (Bytes.beNat m % n) k.val (nonce M m k i)) tries 0 = some (R, S, v.toNat) := by
        refine (Real.Rfc6979.firstGood_iff _ _ _ _).mpr ⟨i, hi, ?_, fun i' hi' => ?_⟩
        · simp only [Nat.zero_add]; exact (hgood i R S _).mpr ⟨j, hj, hm⟩
        · simp only [Nat.zero_add]; exact (hbad i').mpr fun j' R' S' W' => hall i' j' R' S' W' hi'
      obtain ⟨w1, w2, w3⟩ := w_small hm
      show Real.Secp256k1.sign (nonce M) tries m k = _
      unfold Real.Secp256k1.sign
      rw [hf]
      simp only
      rw [Bytes.isBe_unique (Bytes.isBe_beBytes (w2.trans hn)) hr, Bytes.isBe_unique (Bytes.isBe_beBytes (w3.trans hn)) hs,
        UInt8.ofNat_toNat]
  · intro e he i j R S W hi
    have hf : Real.Secp256k1.firstGood
        (fun i => Real.Secp256k1.signWith (Bytes.beNat m % n) k.val (nonce M m k i)) tries 0 = none := by
      replace he : Real.Secp256k1.sign (nonce M) tries m k = _ := he
      unfold Real.Secp256k1.sign at he
      generalize Real.Secp256k1.firstGood _ _ _ = o at he
      cases o with
      | none => rfl
      | some t => cases he
    have hall : ∀ i, i < tries → Real.Secp256k1.signWith (Bytes.beNat m % n) k.val (nonce M m k i) = none := by
      intro i hi
      by_contra hne
      have hex : ∃ i, i < tries ∧ Real.Secp256k1.signWith (Bytes.beNat m % n) k.val (nonce M m k i) ≠ none := ⟨i, hi, hne⟩
      classical
      obtain ⟨t1, t2⟩ := Nat.find_spec hex
      obtain ⟨v, hv⟩ := Option.ne_none_iff_exists'.mp t2
      have := (Real.Rfc6979.firstGood_iff (fun i => Real.Secp256k1.signWith (Bytes.beNat m % n) k.val (nonce M m k i)) tries 0 v).mpr
        ⟨Nat.find hex, t1, by simp only [Nat.zero_add]; exact hv, fun e he => by
          have := Nat.find_min hex he
          simp only [Nat.zero_add]
          by_contra hc
          exact this ⟨he.trans t1, hc⟩⟩
      rw [hf] at this
      cases this
    exact (hbad i).mp (hall i hi) j R S W

/-- C74: there is at most one RFC 6979 signature. -/
theorem C74_one (M : Bytes → Bytes → Bytes) (x h : Bytes) (z k i r s v i' r' s' v' : Nat) (h1 : Signed M x h z k i r s v)
    (h2 : Signed M x h z k i' r' s' v') : i = i' ∧ r = r' ∧ s = s' ∧ v = v' := by
  obtain ⟨⟨j, hj, hm⟩, ha⟩ := h1
  obtain ⟨⟨j', hj', hm'⟩, ha'⟩ := h2
  have hi : i = i' := by
    rcases Nat.lt_trichotomy i i' with hlt | he | hlt
    · exact absurd hm (ha' i j r s v hlt hj)
    · exact he
    · exact absurd hm' (ha i' j' r' s' v' hlt hj')
  subst hi
  have hjj : j = j' := ((Real.Rfc6979.candidate_iff ..).mp hj).trans ((Real.Rfc6979.candidate_iff ..).mp hj').symm
  subst hjj
  have := ((Real.Rfc6979.made_iff ..).mpr hm).symm.trans ((Real.Rfc6979.made_iff ..).mpr hm')
  cases this
  exact ⟨rfl, rfl, rfl, rfl⟩

/-- C74: a loaded Bitcoin or Ethereum key signs at a path with the secret of the public key it shows there, and gives just the RFC 6979
signatures (with HMAC-SHA256) of the Keccak-256 hash of the message. -/
theorem C74_key (tries : Nat) (Ed : Cardano.Ed) (net : Net) (d : Bytes) (k : KeyObj) (hn : net ≠ .cardano)
    (hk : (factoryOf Real.hashes (curve (nonce hmacSha256) tries) Ed net).keyFromData d = .ok k) (p : Path) (out : Bytes)
    (ho : k.pubKey p = .ok out) :
    ∃ x bx, 0 < x ∧ x < n ∧ Uncompressed (x • G) out ∧ IsBe 32 x bx ∧ ∀ m h, IsBe 32 (be (Real.hashes.keccak256 m) % n) h →
      ∀ sig, k.sign m p = .ok sig ↔ ∃ i R S r s v, i < tries ∧
        Signed hmacSha256 bx h (be (Real.hashes.keccak256 m) % n) x i R S v.toNat ∧ IsBe 32 R r ∧ IsBe 32 S s ∧ (v = 0 ∨ v = 1) ∧
        sig = r ++ s ++ [v] := by
  obtain ⟨D, hs⟩ := secp_key _ _ Ed net d k hn hk
  cases hD : D p with
  | err e => rw [hs.pub, hD] at ho; cases ho
  | panic => rw [hs.pub, hD] at ho; cases ho
  | ok y =>
    have hlt : y.key.val < n := y.key.2.2
    have hx : IsBe 32 y.key.val (Bytes.beBytes 32 y.key.val) := Bytes.isBe_beBytes (hlt.trans (by decide +kernel))
    refine ⟨y.key.val, Bytes.beBytes 32 y.key.val, y.key.2.1, hlt, ?_, hx, fun m h hh sig => ?_⟩
    · obtain ⟨out', ho', hu⟩ := (actsWith hs hD).pub
      rw [ho] at ho'
      cases ho'
      exact hu
    · rw [hs.sign, hD, Res.bind_ok, Res.mapErr_eq_ok, sign_ok]
      constructor
      · rintro ⟨r, s, v, h1, hv, e⟩
        obtain ⟨i, R, S, hi, h2, hr, hs'⟩ := ((C74_sign hmacSha256 tries _ y.key _ h hx hh).1 r s v).mp h1
        exact ⟨i, R, S, r, s, v, hi, h2, hr, hs', hv, e⟩
      · rintro ⟨i, R, S, r, s, v, hi, h2, hr, hs', hv, e⟩
        exact ⟨r, s, v, ((C74_sign hmacSha256 tries _ y.key _ h hx hh).1 r s v).mpr ⟨i, R, S, hi, h2, hr, hs'⟩, hv, e⟩

/-- C74: a nonce occurs again, for another secret, another message hash or another attempt, only with a collision. -/
theorem C74_no_repeat (M : Bytes → Bytes → Bytes) (hM : ∀ k t, (M k t).length = 32) (x h x' h' : Bytes) (hx : x.length = 32)
    (hh : h.length = 32) (hx' : x'.length = 32) (hh' : h'.length = 32) (i i' j : Nat) (h1 : Candidate M x h i j)
    (h2 : Candidate M x' h' i' j) : (x = x' ∧ h = h' ∧ i = i') ∨ Collision M := by
  by_cases hc : Collision M
  · exact Or.inr hc
  left
  rw [Real.Rfc6979.candidate_iff] at h1 h2
  have hl : ∀ s, (Real.Rfc6979.out M s).length = 32 := fun s => hM _ _
  exact Real.Rfc6979.out_inj hM hc hx hh hx' hh' (Bytes.isBe_unique ⟨hl _, h1.symm⟩ ⟨hl _, h2.symm⟩)

/-- C74: two signatures made with one nonce give the secret, up to the choice between two numbers. -/
theorem C74_leak (z z' k j r s v r' s' v' : Nat) (h : Made z k j r s v) (h' : Made z' k j r' s' v') (hz : (z : ZMod n) ≠ z') :
    r' = r ∧ ((k : ZMod n) = ((s : ZMod n) * (z - z') / (s - s') - z) / r ∨ (k : ZMod n) = ((s : ZMod n) * (z - z') / (s + s') - z) / r) := by
  obtain ⟨h1, h2, x, y, hxy, hG, hr, hr0, -, -, hv⟩ := h
  obtain ⟨-, -, x', y', hxy', hG', hr', -, -, -, hv'⟩ := h'
  rw [hG] at hG'
  cases hG'
  obtain rfl : r' = r := hr'.trans hr.symm
  refine ⟨rfl, ?_⟩
  have hj : (j : ZMod n) ≠ 0 := by
    rw [Ne, ZMod.natCast_eq_zero_iff]
    exact fun h => absurd (Nat.le_of_dvd h1 h) (not_le.mpr h2)
  have hrn : (r' : ZMod n) ≠ 0 := by
    rw [Ne, ZMod.natCast_eq_zero_iff]
    exact fun h => absurd (Nat.le_of_dvd (Nat.pos_of_ne_zero hr0) h) (not_le.mpr (by rw [hr]; exact Nat.mod_lt _ Real.Secp256k1.n_pos))
  have hzz : (z : ZMod n) - z' ≠ 0 := sub_ne_zero.mpr hz
  rcases hv with ⟨e, -⟩ | ⟨e, -⟩ <;> rcases hv' with ⟨e', -⟩ | ⟨e', -⟩
  · left
    have hd : ((s : ZMod n) - s') * j = z - z' := by linear_combination e - e'
    have hs : (s : ZMod n) - s' ≠ 0 := fun h0 => hzz (by rw [← hd, h0, zero_mul])
    rw [eq_div_iff hrn, eq_sub_iff_add_eq, eq_div_iff hs]
    linear_combination (-(s : ZMod n) + s') * e + (s : ZMod n) * hd
  · right
    have hd : ((s : ZMod n) + s') * j = z - z' := by linear_combination e + e'
    have hs : (s : ZMod n) + s' ≠ 0 := fun h0 => hzz (by rw [← hd, h0, zero_mul])
    rw [eq_div_iff hrn, eq_sub_iff_add_eq, eq_div_iff hs]
    linear_combination (-(s : ZMod n) - s') * e + (s : ZMod n) * hd
  · right
    have hd : ((s : ZMod n) + s') * j = -(z - z') := by linear_combination e + e'
    have hs : (s : ZMod n) + s' ≠ 0 := fun h0 => hzz (by rw [← neg_eq_zero, ← hd, h0, zero_mul])
    rw [eq_div_iff hrn, eq_sub_iff_add_eq, eq_div_iff hs]
    linear_combination ((s : ZMod n) + s') * e - (s : ZMod n) * hd
  · left
    have hd : ((s : ZMod n) - s') * j = -(z - z') := by linear_combination e - e'
    have hs : (s : ZMod n) - s' ≠ 0 := fun h0 => hzz (by rw [← neg_eq_zero, ← hd, h0, zero_mul])
    rw [eq_div_iff hrn, eq_sub_iff_add_eq, eq_div_iff hs]
    linear_combination ((s : ZMod n) - s') * e - (s : ZMod n) * hd

/-- C74: the well-known example: secret 1, the hash of "Satoshi Nakamoto". -/
theorem C74_vector : (curve (nonce hmacSha256) 1).sign (Real.sha256 ("Satoshi Nakamoto".toList.map fun c => UInt8.ofNat c.toNat))
    ⟨1, by decide +kernel⟩ =
    .ok (Bytes.beBytes 32 0x934b1ea10a4b3c1757e2b0c017d0b6143ce3c9a7e6a4a49860d7a6ab210ee3d8,
      Bytes.beBytes 32 0x2442ce9d2b916064108014783e923ec36b49743e2ffa1c4496f01a512aafd9e5, 1) := by decide +kernel

/-! Two messages signed with that nonce, and what they give. -/

def nonce1 : Nat := 0x8F8A276C19F4149656B280621E358CCE24F5F52542772691EE69063B74F15D15

theorem nonce1_twice : (Real.Secp256k1.signWith 5 7 nonce1).isSome = true ∧ (Real.Secp256k1.signWith 6 7 nonce1).isSome = true ∧ 5 % n ≠ 6 % n := by
  decide +kernel

example : ∃ r s v s' v', Made 5 7 nonce1 r s v ∧ Made 6 7 nonce1 r s' v' ∧
    ((7 : ZMod n) = ((s : ZMod n) * (5 - 6) / (s - s') - 5) / r ∨ (7 : ZMod n) = ((s : ZMod n) * (5 - 6) / (s + s') - 5) / r) := by
  obtain ⟨h1, h2, h3⟩ := nonce1_twice
  obtain ⟨⟨r, s, v⟩, h1⟩ := Option.isSome_iff_exists.mp h1
  obtain ⟨⟨r', s', v'⟩, h2⟩ := Option.isSome_iff_exists.mp h2
  rw [Real.Rfc6979.made_iff] at h1 h2
  have hz : ((5 : Nat) : ZMod n) ≠ (6 : Nat) := by
    rw [Ne, ZMod.natCast_eq_natCast_iff]
    exact h3
  obtain ⟨rfl, h⟩ := C74_leak 5 6 7 nonce1 r s v r' s' v' h1 h2 hz
  exact ⟨_, s, v, s', v', h1, h2, by exact_mod_cast h⟩

example (h h' : Bytes) (hh : h.length = 32) (hh' : h'.length = 32) (j : Nat)
    (h1 : Candidate hmacSha256 (Bytes.beBytes 32 7) h 0 j) (h2 : Candidate hmacSha256 (Bytes.beBytes 32 7) h' 0 j) (hne : h ≠ h') :
    Collision hmacSha256 :=
  (C74_no_repeat hmacSha256 Real.hmacSha256_len _ h _ h' (Bytes.beBytes_length 32 7) hh (Bytes.beBytes_length 32 7) hh' 0 0 j h1 h2).resolve_left
    fun e => hne e.2.1

end KC.Props
