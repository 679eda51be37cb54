import Verif.Proofs.Threads
import Verif.Proofs.Toy
/-
C32-C34: keychain/src/crypt.rs and the random source.
-/
namespace KC.Props
open KC.Crypt KC.Spec.Crypt

/-- C32: whatever random bytes were drawn, the blob opens with the same password to the same data and is 60 bytes longer. -/
theorem C32_roundtrip {ε} (P : Hashes) (A : Aead) (hA : AeadCorrect A) (data : Bytes) (hd : data ≠ []) (password : Str)
    (r r' : Rng) (blob : Bytes) (h : (encrypt P A data password : RM ε Bytes).run r = (.ok blob, r')) :
    decrypt P A blob password = .ok data ∧ blob.length = data.length + 60 := by
  rw [encrypt_eq] at h
  simp only [RM.run] at h
  rcases h1 : r.fill 32 with ⟨_ | salt, r1⟩
  · rw [h1] at h; cases h
  rw [h1] at h
  rcases h2 : r1.fill 12 with ⟨_ | nonce, r2⟩
  · simp only [h2] at h; cases h
  simp only [h2, Prod.mk.injEq, Res.ok.injEq] at h
  obtain ⟨rfl, -⟩ := h
  obtain ⟨-, -, hs, -⟩ := fill_ok h1
  obtain ⟨-, -, hn, -⟩ := fill_ok h2
  have hsl : salt.length = 32 := by rw [hs, seg_length]
  have hnl : nonce.length = 12 := by rw [hn, seg_length]
  have hp := sealed_parts P A data password salt nonce hsl hnl
  refine ⟨?_, ?_⟩
  · rw [decrypt_parts P A password hp]
    · rw [hA]
    · intro hc
      have := A.enc_len (keyOf P password salt) nonce data
      rw [hc] at this
      exact hd (List.length_eq_zero_iff.mp this.symm)
  · rw [hp.eq]
    simp only [List.length_append, hsl, hnl, A.tag_len, A.enc_len]
    omega

/-- C32: encryption succeeds as long as the source delivers. -/
theorem C32_succeeds {ε} (P : Hashes) (A : Aead) (data : Bytes) (password : Str) (r : Rng)
    (hp : r.poisoned = false) (h1 : r.fails r.calls = false) (h2 : r.fails (r.calls + 1) = false) :
    ∃ blob r', (encrypt P A data password : RM ε Bytes).run r = (.ok blob, r') := by
  rw [encrypt_eq]
  simp only [RM.run, fill_healthy 32 hp h1]
  rw [fill_healthy (r := { r with pos := r.pos + 32, calls := r.calls + 1 }) 12 hp h2]
  exact ⟨_, _, rfl⟩

/-- C32: encrypted empty data cannot be opened. -/
theorem C32_empty {ε} (P : Hashes) (A : Aead) (password password' : Str) (r r' : Rng) (blob : Bytes)
    (h : (encrypt P A [] password : RM ε Bytes).run r = (.ok blob, r')) :
    decrypt P A blob password' = .err .notEnoughData := by
  rw [encrypt_eq] at h
  simp only [RM.run] at h
  rcases h1 : r.fill 32 with ⟨_ | salt, r1⟩
  · rw [h1] at h; cases h
  rw [h1] at h
  rcases h2 : r1.fill 12 with ⟨_ | nonce, r2⟩
  · simp only [h2] at h; cases h
  simp only [h2, Prod.mk.injEq, Res.ok.injEq] at h
  obtain ⟨rfl, -⟩ := h
  obtain ⟨-, -, hs, -⟩ := fill_ok h1
  obtain ⟨-, -, hn, -⟩ := fill_ok h2
  apply decrypt_short
  unfold sealed
  simp [hs, hn, A.tag_len, A.enc_len]

theorem toyAead_correct : AeadCorrect Toy.aead := fun k n p => by simp [Toy.aead]

/-- A source that delivers 1, 2, 3, ... -/
def countingRng : Rng := ⟨fun i => UInt8.ofNat (i + 1), fun _ => false, 0, 0, false⟩

/-- Non-vacuity of C32: a correct cipher exists; a concrete blob; the wrong password does not open it. -/
example : ∃ blob r', (encrypt Toy.hashes Toy.aead [7, 8] ['a'] : RM Unit Bytes).run countingRng = (.ok blob, r') ∧
    blob.take 4 = [1, 2, 3, 4] ∧ decrypt Toy.hashes Toy.aead blob ['b'] = .err .decryptionFailed ∧
    decrypt Toy.hashes Toy.aead blob ['a'] = .ok [7, 8] :=
  ⟨_, _, rfl, by decide +kernel, by decide +kernel, by decide +kernel⟩

/-- C33: `NotEnoughData` exactly on at most 60 bytes. -/
theorem C33_not_enough (P : Hashes) (A : Aead) (blob : Bytes) (password : Str) :
    decrypt P A blob password = .err .notEnoughData ↔ blob.length ≤ 60 := by
  refine ⟨fun h => ?_, decrypt_short P A blob password⟩
  rcases Nat.lt_or_ge 60 blob.length with hl | hl
  · obtain ⟨s, n, t, c, hp, hc⟩ := parts_exist blob hl
    rw [decrypt_parts P A password hp hc] at h
    split at h <;> simp at h
  · exact hl

/-- C33: otherwise the outcome is that of the cipher on the parts. -/
theorem C33_outcome (P : Hashes) (A : Aead) (blob salt nonce tag ct : Bytes) (password : Str)
    (hp : Parts blob salt nonce tag ct) (hc : ct ≠ []) :
    (∀ d, decrypt P A blob password = .ok d ↔ A.dec (keyOf P password salt) nonce ct tag = some d) ∧
    (decrypt P A blob password = .err .decryptionFailed ↔ A.dec (keyOf P password salt) nonce ct tag = none) := by
  rw [decrypt_parts P A password hp hc]
  cases A.dec (keyOf P password salt) nonce ct tag <;> simp

/-- C33: such parts exist for every longer blob, and are determined by it. -/
theorem C33_parts (blob : Bytes) :
    (60 < blob.length ↔ ∃ s n t c, Parts blob s n t c ∧ c ≠ []) ∧
    ∀ s n t c s' n' t' c', Parts blob s n t c → Parts blob s' n' t' c' → s = s' ∧ n = n' ∧ t = t' ∧ c = c' := by
  refine ⟨⟨parts_exist blob, ?_⟩, fun _ _ _ _ _ _ _ _ => parts_unique⟩
  rintro ⟨s, n, t, c, hp, hc⟩
  have := List.length_pos_iff.mpr hc
  rw [hp.eq]
  simp only [List.length_append, hp.salt_len, hp.nonce_len, hp.tag_len]
  omega

/-- C33: the plaintext is 60 bytes shorter. -/
theorem C33_length (P : Hashes) (A : Aead) (blob d : Bytes) (password : Str) (h : decrypt P A blob password = .ok d) :
    blob.length = d.length + 60 ∧ d ≠ [] := by
  rcases Nat.lt_or_ge 60 blob.length with hl | hl
  · obtain ⟨s, n, t, c, hp, hc⟩ := parts_exist blob hl
    have h1 := ((C33_outcome P A blob s n t c password hp hc).1 d).mp h
    have h2 := A.dec_len _ _ _ _ _ h1
    have h3 := List.length_pos_iff.mpr hc
    refine ⟨?_, ?_⟩
    · rw [hp.eq]
      simp only [List.length_append, hp.salt_len, hp.nonce_len, hp.tag_len]
      omega
    · rintro rfl; simp at h2; omega
  · rw [decrypt_short P A blob password hl] at h; cases h

/-- C33: `decrypt` never panics. -/
theorem C33_no_panic (P : Hashes) (A : Aead) (blob : Bytes) (password : Str) : decrypt P A blob password ≠ .panic := by
  rcases Nat.lt_or_ge 60 blob.length with hl | hl
  · obtain ⟨s, n, t, c, hp, hc⟩ := parts_exist blob hl
    rw [decrypt_parts P A password hp hc]
    split <;> simp
  · rw [decrypt_short P A blob password hl]; simp

/-- Non-vacuity of C33: both outcomes occur on blobs that no encryption made. -/
example : decrypt Toy.hashes Toy.aead (List.replicate 61 0) [] = .ok [0] ∧
    decrypt Toy.hashes Toy.aead (List.replicate 61 1) [] = .err .decryptionFailed := by
  constructor <;> decide +kernel

/-- C34: an encryption running alone draws 32 bytes, then 12, and these are salt and nonce of the blob. -/
theorem C34_alone {ε} (P : Hashes) (A : Aead) (data : Bytes) (password : Str) (r r' : Rng) (blob : Bytes)
    (h : (encrypt P A data password : RM ε Bytes).run r = (.ok blob, r')) :
    (∃ tag ct, Parts blob (seg r.stream r.pos 32) (seg r.stream (r.pos + 32) 12) tag ct) ∧
    r' = { r with pos := r.pos + 44, calls := r.calls + 2 } := by
  rw [encrypt_eq] at h
  simp only [RM.run] at h
  rcases h1 : r.fill 32 with ⟨_ | salt, r1⟩
  · rw [h1] at h; cases h
  rw [h1] at h
  rcases h2 : r1.fill 12 with ⟨_ | nonce, r2⟩
  · simp only [h2] at h; cases h
  simp only [h2, Prod.mk.injEq, Res.ok.injEq] at h
  obtain ⟨rfl, rfl⟩ := h
  obtain ⟨-, -, hs, rfl⟩ := fill_ok h1
  obtain ⟨-, -, hn, rfl⟩ := fill_ok h2
  subst hs hn
  exact ⟨⟨_, _, sealed_parts P A data password _ _ (by simp) (by simp)⟩, rfl⟩

/-- C34: under every schedule of every set of threads, each with any list of operations, no part of the source's output is
delivered twice. -/
theorem C34_disjoint {ε α} (r : Rng) (progs : Nat → List (RM ε α)) (sched : List Nat) :
    (((Sys.start r progs).exec sched).log).Pairwise fun d e => d.pos + d.len ≤ e.pos :=
  (Sys.inv_exec r progs sched).disj

/-- C34: under every schedule, a finished encryption (the `i`-th operation of thread `t`) made two draws, of 32 and 12
bytes, in this order, and their bytes are salt and nonce of its blob. -/
theorem C34_threads {ε} (P : Hashes) (A : Aead) (r : Rng) (progs : Nat → List (RM ε Bytes)) (sched : List Nat)
    (t i : Nat) (data : Bytes) (password : Str) (hprog : (progs t)[i]? = some (encrypt P A data password))
    (blob : Bytes) (hdone : (t, i, .ok blob) ∈ ((Sys.start r progs).exec sched).done) :
    ∃ p q tag ct, p + 32 ≤ q ∧
      ((Sys.start r progs).exec sched).log.filter (fun d => d.thread = t ∧ d.op = i) = [⟨t, i, p, 32⟩, ⟨t, i, q, 12⟩] ∧
      Parts blob (seg r.stream p 32) (seg r.stream q 12) tag ct := by
  have inv := Sys.inv_exec r progs sched
  obtain ⟨-, p, hp, hf⟩ := inv.fin _ hdone
  dsimp only at hp hf
  rw [hprog] at hp
  cases hp
  have hf : RM.Follows r.stream (encrypt P A data password : RM ε Bytes)
      (Sys.drawsOf ((Sys.start r progs).exec sched).log t i) (.ret (.ok blob)) := by
    rcases hf with hf | hf
    · cases hf
    · exact hf
  rw [encrypt_eq] at hf
  have hd := inv.disj.filter (p := fun d => decide (d.thread = t ∧ d.op = i))
  have hm : ∀ d ∈ Sys.drawsOf ((Sys.start r progs).exec sched).log t i, d.thread = t ∧ d.op = i := by
    intro d hd
    simpa using (List.mem_filter.mp hd).2
  unfold Sys.drawsOf at hf hm
  generalize ((Sys.start r progs).exec sched).log.filter (fun d => d.thread = t ∧ d.op = i) = ds at *
  cases hf with
  | cons n k d ds q h1 hf =>
  cases hf with
  | cons n k e ds q h2 hf =>
  cases hf with
  | nil =>
  obtain ⟨t1, i1, p, n1⟩ := d
  obtain ⟨t2, i2, q, n2⟩ := e
  obtain ⟨rfl, rfl⟩ := hm _ (List.mem_cons_self ..)
  obtain ⟨rfl, rfl⟩ := hm ⟨t2, i2, q, n2⟩ (by simp)
  dsimp only at h1 h2
  subst h1 h2
  refine ⟨p, q, _, _, by simpa using hd, rfl, sealed_parts P A data password _ _ (by simp) (by simp)⟩

/-- C34: so the salts and nonces of different encryptions come from disjoint parts of the source's output. -/
theorem C34_fresh {ε} (P : Hashes) (A : Aead) (r : Rng) (progs : Nat → List (RM ε Bytes)) (sched : List Nat)
    (t i t' i' : Nat) (hne : (t, i) ≠ (t', i')) (data data' : Bytes) (password password' : Str)
    (hprog : (progs t)[i]? = some (encrypt P A data password))
    (hprog' : (progs t')[i']? = some (encrypt P A data' password'))
    (blob blob' : Bytes) (hdone : (t, i, .ok blob) ∈ ((Sys.start r progs).exec sched).done)
    (hdone' : (t', i', .ok blob') ∈ ((Sys.start r progs).exec sched).done) :
    ∃ p q p' q' tag ct tag' ct', Parts blob (seg r.stream p 32) (seg r.stream q 12) tag ct ∧
      Parts blob' (seg r.stream p' 32) (seg r.stream q' 12) tag' ct' ∧
      ∀ x, ((p ≤ x ∧ x < p + 32) ∨ (q ≤ x ∧ x < q + 12)) → ¬ ((p' ≤ x ∧ x < p' + 32) ∨ (q' ≤ x ∧ x < q' + 12)) := by
  obtain ⟨p, q, tag, ct, -, hl, hP⟩ := C34_threads P A r progs sched t i data password hprog blob hdone
  obtain ⟨p', q', tag', ct', -, hl', hP'⟩ := C34_threads P A r progs sched t' i' data' password' hprog' blob' hdone'
  refine ⟨p, q, p', q', tag, ct, tag', ct', hP, hP', ?_⟩
  have mem : ∀ d ∈ [(⟨t, i, p, 32⟩ : Draw), ⟨t, i, q, 12⟩], d ∈ ((Sys.start r progs).exec sched).log := by
    rw [← hl]; exact fun d hd => (List.mem_filter.mp hd).1
  have mem' : ∀ d ∈ [(⟨t', i', p', 32⟩ : Draw), ⟨t', i', q', 12⟩], d ∈ ((Sys.start r progs).exec sched).log := by
    rw [← hl']; exact fun d hd => (List.mem_filter.mp hd).1
  have key := C34_disjoint r progs sched
  have sep : ∀ d ∈ ((Sys.start r progs).exec sched).log, ∀ e ∈ ((Sys.start r progs).exec sched).log, d ≠ e →
      d.pos + d.len ≤ e.pos ∨ e.pos + e.len ≤ d.pos := by
    intro d hd e he hde
    exact List.Pairwise.forall_of_forall_of_flip (R := fun d e => d ≠ e → d.pos + d.len ≤ e.pos ∨ e.pos + e.len ≤ d.pos)
      (fun x _ hx => absurd rfl hx) (key.imp fun h _ => .inl h) (key.imp fun h _ => .inr h) hd he hde
  have ne : ∀ a b c d : Nat, (⟨t, i, a, b⟩ : Draw) ≠ ⟨t', i', c, d⟩ := by
    intro a b c d hc
    simp only [Draw.mk.injEq] at hc
    exact hne (by rw [hc.1, hc.2.1])
  have a1 := sep _ (mem ⟨t, i, p, 32⟩ (by simp)) _ (mem' ⟨t', i', p', 32⟩ (by simp)) (ne _ _ _ _)
  have a2 := sep _ (mem ⟨t, i, p, 32⟩ (by simp)) _ (mem' ⟨t', i', q', 12⟩ (by simp)) (ne _ _ _ _)
  have a3 := sep _ (mem ⟨t, i, q, 12⟩ (by simp)) _ (mem' ⟨t', i', p', 32⟩ (by simp)) (ne _ _ _ _)
  have a4 := sep _ (mem ⟨t, i, q, 12⟩ (by simp)) _ (mem' ⟨t', i', q', 12⟩ (by simp)) (ne _ _ _ _)
  dsimp only at a1 a2 a3 a4
  omega

/-- Non-vacuity of C34: two threads, with their draws interleaved, both finish. -/
example : ∃ b b', (0, 0, Res.ok b) ∈ ((Sys.start countingRng fun t =>
      if t < 2 then [(encrypt Toy.hashes Toy.aead [7] ['a'] : RM Unit Bytes)] else []).exec [0, 1, 0, 1, 0, 1]).done ∧
    (1, 0, Res.ok b') ∈ ((Sys.start countingRng fun t =>
      if t < 2 then [(encrypt Toy.hashes Toy.aead [7] ['a'] : RM Unit Bytes)] else []).exec [0, 1, 0, 1, 0, 1]).done ∧
    b.take 1 = [1] ∧ b'.take 1 = [33] :=
  ⟨_, _, List.mem_cons_self .., List.mem_cons_of_mem _ (List.mem_cons_self ..), by decide +kernel, by decide +kernel⟩

end KC.Props
