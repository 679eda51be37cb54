import Mathlib.Data.Set.Card
import Mathlib.Order.Interval.Finset.Nat
import Verif.Spec.Uniform
import Verif.Props.Random
import Verif.Props.WordLists
import Verif.Proofs.Secp
/-
C75: no randomness is lost.  What a call gives is determined by the drawn bytes and determines them; so with uniform bytes all
phrases are equally likely, and there are as many as drawn values.
-/
namespace KC.Props
open KC.Manager KC.Spec KC.Spec.Wallet KC.Spec.Crypt KC.Crypt KC.Spec.Uniform
open KC.Mnemonic (Language mnemonicFromEntropy)

/-- The sizes of entropy. -/
abbrev entropySizes : List Nat := [96, 128, 160, 192, 224, 256]

theorem size_words {size : Nat} (hs : size ∈ entropySizes) : size / 32 * 3 ∈ wordCounts ∧ entBits (size / 32 * 3) = size ∧
    8 * (size / 8) = size := by
  simp only [entropySizes, List.mem_cons, List.not_mem_nil, or_false] at hs
  rcases hs with h | h | h | h | h | h <;> subst h <;> decide

/-- A checked phrase is the text of exactly one byte string. -/
theorem checked_iff (H : Hashes) (size : Nat) (hs : size ∈ entropySizes) (l : Language) (text : Str) :
    Checked H.sha256 size l text ↔ ∃ b : Bytes, b.length = size / 8 ∧ mnemonicFromEntropy H b l = .ok text := by
  obtain ⟨h1, h2, h3⟩ := size_words hs
  constructor
  · rintro ⟨idx, ws, e, hi, hc, hw, rfl⟩
    refine ⟨e, ?_, (phrase_iff H l e _).mpr ⟨idx, ws, hi ▸ h1, hc, hw, rfl⟩⟩
    have := hc.2
    rw [hi, h2] at this
    omega
  · rintro ⟨b, hb, h⟩
    obtain ⟨idx, ws, hi, hc, hw, rfl⟩ := (phrase_iff H l b _).mp h
    refine ⟨idx, ws, b, entBits_inj hi h1 ?_, hc, hw, rfl⟩
    have := hc.2
    omega

theorem entropy_inj (H : Hashes) (l : Language) {b b' : Bytes} {text : Str} (h : mnemonicFromEntropy H b l = .ok text)
    (h' : mnemonicFromEntropy H b' l = .ok text) : b = b' := by
  have key : ∀ b, mnemonicFromEntropy H b l = .ok text → ∃ idx, Bip39.Mnemonics.fromString l.toDict text = .ok idx ∧
      idx.idx.length ∈ wordCounts ∧ Carries H.sha256 idx.idx b := by
    intro b h
    simp only [mnemonicFromEntropy, Res.bind_eq_ok, Res.mapErr_eq_ok] at h
    obtain ⟨e, he, m, hm, ht⟩ := h
    obtain ⟨m', h1, h2, h3, h4, h5⟩ := C05_to_mnemonics H e
    rw [h1] at hm
    cases hm
    obtain ⟨s, h6, h7⟩ := C08_roundtrip l m h2 h4
    rw [h6] at ht
    cases ht
    exact ⟨m, h7, h2, fromSlice_bytes he ▸ h5⟩
  obtain ⟨m, h1, -, h2⟩ := key b h
  obtain ⟨m', h3, -, h4⟩ := key b' h'
  rw [h1] at h3
  cases h3
  have hl : b.length = b'.length := by have := h2.2; have := h4.2; omega
  have := h2.1.symm.trans h4.1
  exact Bip39.bytesBits_inj (List.append_inj_left this (by simp [hl]))

/-- The number of random bytes in a result. -/
def Out.uses (M : Manager) : Out → Nat
  | .text _ => M.seedSize / 8
  | .blob _ => 32 + 12

theorem seg_append (s : Nat → UInt8) (p m n : Nat) : seg s p (m + n) = seg s p m ++ seg s (p + m) n := by
  simp only [seg, List.range_add, List.map_append, List.map_map]
  congr 1
  apply List.map_congr_left
  intro i _
  simp [Nat.add_assoc]

theorem run_mapOk_encrypt (E : Env) (data : Bytes) (pw : Str) (r : Rng) (hr : Delivers r) :
    (RM.mapOk Out.blob (encrypt E.H E.A data pw : RM Error Bytes)).run r =
      (.ok (.blob (sealed E.H E.A data pw (seg r.stream r.pos 32) (seg r.stream (r.pos + 32) 12))),
        { r with pos := r.pos + 32 + 12, calls := r.calls + 1 + 1 }) := by
  rw [RM.mapOk, RM.run_bind, encrypt_eq]
  simp only [RM.run, fill_healthy 32 hr.1 hr.2.1]
  rw [fill_healthy (r := { r with pos := r.pos + 32, calls := r.calls + 1 }) 12 hr.1 hr.2.2]
  rfl

/-- C75: two successful runs of a call, with any two random sources, give the same result exactly if the bytes they drew are the
same ones: the salt and the nonce for data, the entropy for a phrase. -/
theorem C75_call (E : Env) (M : Manager) (c : Call) (r r' s s' : Rng) (o o' : Out) (hr : Delivers r) (hr' : Delivers r')
    (h : (c.prog E M).run r = (.ok o, s)) (h' : (c.prog E M).run r' = (.ok o', s')) :
    (o = o' ↔ seg r.stream r.pos (o.uses M) = seg r'.stream r'.pos (o.uses M)) ∧
    s = { r with pos := r.pos + o.uses M, calls := s.calls } := by
  rcases call_shape E M c with ⟨x, hx, hno⟩ | ⟨data, pw, -, hx⟩ | ⟨l, hs, k, hx, hk⟩
  · rw [hx] at h
    cases h
    exact absurd rfl (hno o)
  · rw [hx, run_mapOk_encrypt E data pw r hr] at h
    rw [hx, run_mapOk_encrypt E data pw r' hr'] at h'
    cases h
    cases h'
    rw [show ∀ b, (Out.blob b).uses M = 32 + 12 from fun _ => rfl]
    rw [seg_append, seg_append]
    refine ⟨⟨fun h => ?_, fun h => ?_⟩, rfl⟩
    · have hb := Out.blob.inj h
      unfold sealed at hb
      obtain ⟨e1, e2⟩ := List.append_inj hb (by simp)
      rw [e1, (List.append_inj e2 (by simp)).1]
    · obtain ⟨e1, e2⟩ := List.append_inj h (by simp)
      rw [e1, e2]
  · rw [hx] at h h'
    simp only [RM.run, fill_healthy _ hr.1 hr.2.1] at h
    simp only [RM.run, fill_healthy _ hr'.1 hr'.2.1] at h'
    obtain ⟨t, t1, t2⟩ := hk (seg r.stream r.pos (M.seedSize / 8)) (by simp)
    obtain ⟨t', t3, t4⟩ := hk (seg r'.stream r'.pos (M.seedSize / 8)) (by simp)
    rw [t2] at h
    rw [t4] at h'
    cases h
    cases h'
    refine ⟨⟨fun h => ?_, fun h => ?_⟩, rfl⟩
    · cases h
      exact entropy_inj E.H l t1 t3
    · simp only [Out.uses] at h
      rw [h, t3] at t1
      cases t1
      rfl

/-- What `generate_mnemonic` gives when the source delivers. -/
theorem generate_run (E : Env) (M : Manager) (lang : Option Language) (hs : M.seedSize ∈ entropySizes) (r : Rng) (hr : Delivers r) :
    ∃ text, mnemonicFromEntropy E.H (seg r.stream r.pos (M.seedSize / 8)) (lang.getD .english) = .ok text ∧
      ((M.generateMnemonic E lang).run r).1 = .ok text := by
  obtain ⟨bytes, text, m, seed, q1, q2, q3, -⟩ := C15_generate E.H M.seedSize (lang.getD .english) r [] hs hr.1 hr.2.1
  have : bytes = seg r.stream r.pos (M.seedSize / 8) := q1
  refine ⟨text, this ▸ q3, ?_⟩
  unfold generateMnemonic
  rw [RM.run_mapErr, RM.run_bind, q2]
  simp only [RM.run_lift, q3, Res.mapErr]

/-- C75: the phrases that can be generated are all phrases of the manager's size in the language with a right checksum, and each of
them comes from exactly one value of the drawn bytes, whatever the source did before. -/
theorem C75_phrase (E : Env) (M : Manager) (lang : Option Language) (hs : M.seedSize ∈ entropySizes) (text : Str) :
    (Checked E.H.sha256 M.seedSize (lang.getD .english) text →
      ∃ b : Bytes, b.length = M.seedSize / 8 ∧ ∀ r, Delivers r →
        (((M.generateMnemonic E lang).run r).1 = .ok text ↔ seg r.stream r.pos (M.seedSize / 8) = b)) ∧
    (¬ Checked E.H.sha256 M.seedSize (lang.getD .english) text →
      ∀ r, Delivers r → ((M.generateMnemonic E lang).run r).1 ≠ .ok text) := by
  constructor
  · intro h
    obtain ⟨b, hb, ht⟩ := (checked_iff E.H _ hs _ text).mp h
    refine ⟨b, hb, fun r hr => ?_⟩
    obtain ⟨t, h1, h2⟩ := generate_run E M lang hs r hr
    rw [h2]
    constructor
    · intro h
      cases h
      exact entropy_inj E.H _ h1 ht
    · intro h
      rw [h, ht] at h1
      cases h1
      rfl
  · intro h r hr hc
    obtain ⟨t, h1, h2⟩ := generate_run E M lang hs r hr
    rw [h2] at hc
    cases hc
    exact h ((checked_iff E.H _ hs _ _).mpr ⟨_, by simp, h1⟩)

/-- C75: there are exactly `2 ^ size` of them. -/
theorem C75_count (H : Hashes) (size : Nat) (hs : size ∈ entropySizes) (l : Language) :
    {text : Str | Checked H.sha256 size l text}.ncard = 2 ^ size := by
  have total : ∀ b : Bytes, b.length = size / 8 → ∃ t, mnemonicFromEntropy H b l = .ok t := by
    intro b hb
    obtain ⟨bytes, text, -, -, e1, -, e2, -⟩ := C15_generate H size l ⟨fun i => b.getD i 0, fun _ => false, 0, 0, false⟩ [] hs rfl rfl
    have : bytes = b := by
      rw [e1]
      apply List.ext_getElem
      · simp [hb]
      · intro i h1 h2
        simp [h2]
    exact ⟨text, this ▸ e2⟩
  have h8 := (size_words hs).2.2
  have hp : 256 ^ (size / 8) = 2 ^ size := by
    rw [show (256 : Nat) = 2 ^ 8 from rfl, ← pow_mul, h8]
  have hlen : ∀ x, (Bytes.beBytes (size / 8) x).length = size / 8 := Bytes.beBytes_length _
  rw [← hp, ← Finset.card_range (256 ^ (size / 8)), ← Set.ncard_coe_finset]
  refine (Set.ncard_congr (fun x _ => (total (Bytes.beBytes (size / 8) x) (hlen x)).choose) ?_ ?_ ?_).symm
  · intro x _
    exact (checked_iff H size hs l _).mpr ⟨_, hlen x, (total _ (hlen x)).choose_spec⟩
  · intro x y hx hy h
    have h1 := (total _ (hlen x)).choose_spec
    have h2 := (total _ (hlen y)).choose_spec
    rw [h] at h1
    have := congrArg Bip32.be (entropy_inj H l h1 h2)
    simp only [Finset.coe_range, Set.mem_Iio] at hx hy
    rwa [Bytes.be_beBytes, Bytes.be_beBytes, Nat.mod_eq_of_lt hx, Nat.mod_eq_of_lt hy] at this
  · intro t ht
    obtain ⟨b, hb, h⟩ := (checked_iff H size hs l t).mp ht
    have hlt := Bytes.be_lt b
    rw [hb] at hlt
    have e : Bytes.beBytes (size / 8) (Bip32.be b) = b := Bytes.be_inj (by rw [hlen, hb]) (by
      rw [Bytes.be_beBytes, Nat.mod_eq_of_lt hlt])
    refine ⟨Bip32.be b, by simpa using hlt, ?_⟩
    have h1 := (total _ (hlen (Bip32.be b))).choose_spec
    rw [← e] at h
    exact Res.ok.inj (h1.symm.trans h)

/-- Non-vacuity of C75: two sources, two phrases; and a text that is no checked phrase. -/
example : (((toyManager [1]).generateMnemonic toyEnv none).run countingRng).1 ≠
    (((toyManager [1]).generateMnemonic toyEnv none).run { countingRng with stream := fun _ => 0 }).1 := by
  obtain ⟨t, h1, h2⟩ := generate_run toyEnv (toyManager [1]) none (by decide) countingRng counting_delivers
  obtain ⟨t', h3, h4⟩ := generate_run toyEnv (toyManager [1]) none (by decide) { countingRng with stream := fun _ => 0 } counting_delivers
  rw [h2, h4]
  intro h
  cases h
  exact absurd (entropy_inj _ _ h1 h3) (by decide)
example : {text : Str | Checked toyEnv.H.sha256 128 .english text}.ncard = 2 ^ 128 := C75_count _ _ (by decide) _
example : ¬ Checked toyEnv.H.sha256 128 .english [] := by
  rintro ⟨idx, ws, e, h1, -, h2, h3⟩
  have hw := h2.length_eq
  match ws, h3 with
  | [], _ => simp at hw; omega
  | [w], h3 => simp at hw; omega
  | w :: v :: ws, h3 => simp [spaced, List.intercalate] at h3

end KC.Props
