import Verif.Proofs.Birthday
import Verif.Proofs.Interleaved
/-
C105: how often salt and nonce, or a phrase, come up again.
-/
namespace KC.Props
open KC KC.Manager KC.Spec KC.Spec.Wallet KC.Spec.Crypt KC.Crypt KC.Spec.Birthday KC.Proofs.Birthday
open KC.Mnemonic (Language mnemonicFromEntropy)

theorem meets_bad {α : Type} (mark : Out → Option α) (E : Env) (S : Caller) (n k T : Nat) :
    {b : Bytes | b.length = T ∧ Meets mark E S n k b}.ncard = cnt T (Bad mark E S k n T [] [] 0) := by
  rw [← cnt_ncard]
  congr 1
  ext b
  refine and_congr_right ?_
  rintro rfl
  simp only [Meets, Bad, source, List.nil_append, List.length_nil, Nat.zero_add]

theorem bound0 {α : Type} (mark : Out → Option α) (w : Nat) (g : Bytes → α)
    (hg : ∀ a b : Bytes, a.length = w → b.length = w → g a = g b → a = b) (E : Env) (S : Caller)
    (hS : ∀ h M c, S h = some (M, c) → Fits mark w g E M c) (n k T : Nat) :
    {b : Bytes | b.length = T ∧ Meets mark E S n k b}.ncard * (2 * 256 ^ w) ≤ k * (k - 1) * 256 ^ T := by
  rw [meets_bad]
  have := bound mark w g hg E S hS k n T [] [] 0 List.nodup_nil (Nat.zero_le _)
  exact Nat.le_trans (Nat.le_add_right _ _) this

theorem run_sealed (E : Env) (data : Bytes) (pw : Str) (r : Rng) (hr : Delivers r) :
    (RM.mapOk Out.blob (encrypt E.H E.A data pw : RM Error Bytes)).run r =
      (.ok (.blob (sealed E.H E.A data pw ((seg r.stream r.pos 44).take 32) ((seg r.stream r.pos 44).drop 32))),
        { r with pos := r.pos + 44, calls := r.calls + 2 }) := by
  rw [run_mapOk_encrypt E data pw r hr]
  have e : seg r.stream r.pos 44 = seg r.stream r.pos 32 ++ seg r.stream (r.pos + 32) 12 := seg_append _ _ 32 12
  rw [e, List.take_append_of_le_length (by simp), List.drop_append_of_le_length (by simp), List.take_of_length_le (by simp),
    List.drop_of_length_le (by simp), List.nil_append]

theorem opening_sealed (E : Env) (data : Bytes) (pw : Str) (b : Bytes) (h : b.length = 44) :
    opening (.blob (sealed E.H E.A data pw (b.take 32) (b.drop 32))) = some b := by
  simp only [opening, sealed, Option.some.injEq]
  rw [← List.append_assoc, List.take_append_drop, List.take_append_of_le_length (by omega), List.take_of_length_le (by omega)]

theorem fits_opening (E : Env) (M : Manager) (c : Call) : Fits opening 44 id E M c := by
  rcases call_shape E M c with h | ⟨data, pw, -, hx⟩ | ⟨l, hs, k, hx, hk⟩
  · exact .inl h
  · refine .inr ⟨44, 2, fun b => .blob (sealed E.H E.A data pw (b.take 32) (b.drop 32)), fun r hr => by rw [hx]; exact run_sealed E data pw r hr, .inr ⟨rfl, fun b hb => ?_⟩⟩
    exact opening_sealed E data pw b hb
  · refine .inr ⟨M.seedSize / 8, 1, fun b => match k b with | .ret (.ok o) => o | _ => .text [], fun r hr => ?_, .inl fun b hb => ?_⟩
    · obtain ⟨t, -, t2⟩ := hk (seg r.stream r.pos (M.seedSize / 8)) (by simp)
      rw [hx]
      simp only [RM.run, fill_healthy _ hr.1 hr.2.1, t2]
    · obtain ⟨t, -, t2⟩ := hk b hb
      simp only [t2, opening]

/-- C105: let a caller choose its calls in any way by what came before, on any managers, and get at most `k` encrypted blobs.
Among all outputs of the random source of a length the share of those with which two blobs begin with the same salt and nonce
is at most k (k - 1) / 2 to 256^44. -/
theorem C105_opening (E : Env) (S : Caller) (n k T : Nat) :
    {b : Bytes | b.length = T ∧ Meets opening E S n k b}.ncard * (2 * 256 ^ 44) ≤ k * (k - 1) * 256 ^ T :=
  bound0 opening 44 id (fun _ _ _ _ h => h) E S (fun _ M c _ => fits_opening E M c) n k T

/-- The share is below 2^-225 for 2^64 blobs. -/
theorem C105_rare (E : Env) (S : Caller) (n k T : Nat) (hk : k ≤ 2 ^ 64) :
    {b : Bytes | b.length = T ∧ Meets opening E S n k b}.ncard * 2 ^ 225 ≤ 256 ^ T := by
  have h := C105_opening E S n k T
  have hk2 : k * (k - 1) ≤ 2 ^ 128 := Nat.le_trans (Nat.mul_le_mul hk (by omega : k - 1 ≤ 2 ^ 64)) (by decide)
  have h2 := Nat.le_trans h (Nat.mul_le_mul_right (256 ^ T) hk2)
  rw [show (2 * 256 ^ 44 : Nat) = 2 ^ 225 * 2 ^ 128 by decide +kernel, ← Nat.mul_assoc, Nat.mul_comm (2 ^ 128)] at h2
  exact Nat.le_of_mul_le_mul_right h2 (by decide)

/-- C105: the same for phrases of one size in one language: the share of the outputs with which one comes up again among `k` is at
most k (k - 1) / 2 to 2^size. -/
theorem C105_phrase (E : Env) (S : Caller) (size : Nat) (l : Language) (hs : size ∈ entropySizes)
    (hS : ∀ h M lang, S h = some (M, .generate lang) → M.seedSize = size ∧ lang.getD .english = l) (n k T : Nat) :
    {b : Bytes | b.length = T ∧ Meets phrase E S n k b}.ncard * (2 * 2 ^ size) ≤ k * (k - 1) * 256 ^ T := by
  have hpow : (2 : Nat) ^ size = 256 ^ (size / 8) := by
    simp only [entropySizes, List.mem_cons, List.not_mem_nil, or_false] at hs
    rcases hs with rfl | rfl | rfl | rfl | rfl | rfl <;> decide +kernel
  have total : ∀ b : Bytes, b.length = size / 8 → ∃ t, mnemonicFromEntropy E.H b l = .ok t := by
    intro b hb
    obtain ⟨t, ht, -⟩ := generate_run E ⟨NMap.empty, size⟩ (some l) hs ⟨fun i => b.getD i 0, fun _ => false, 0, 0, false⟩ ⟨rfl, rfl, rfl⟩
    have e := seg_mid [] b []
    rw [List.append_nil, List.nil_append, List.length_nil, hb] at e
    simp only [e, Option.getD_some] at ht
    exact ⟨t, ht⟩
  rw [hpow]
  refine bound0 phrase (size / 8) (fun b => match mnemonicFromEntropy E.H b l with | .ok t => t | _ => []) ?_ E S ?_ n k T
  · intro a b ha hb h
    obtain ⟨t, ht⟩ := total a ha
    obtain ⟨t', ht'⟩ := total b hb
    simp only [ht, ht'] at h
    exact entropy_inj E.H l (h ▸ ht) ht'
  · intro h M c hc
    rcases call_shape E M c with h1 | ⟨data, pw, -, hx⟩ | ⟨l', hs', f, hx, hf⟩
    · exact .inl h1
    · exact .inr ⟨44, 2, fun b => .blob (sealed E.H E.A data pw (b.take 32) (b.drop 32)),
        fun r hr => by rw [hx]; exact run_sealed E data pw r hr, .inl fun b hb => rfl⟩
    · have ran : ∀ r, Delivers r → ∃ t, mnemonicFromEntropy E.H (seg r.stream r.pos (M.seedSize / 8)) l' = .ok t ∧
          (c.prog E M).run r = (.ok (.text t), { r with pos := r.pos + M.seedSize / 8, calls := r.calls + 1 }) := by
        intro r hr
        obtain ⟨t, t1, t2⟩ := hf (seg r.stream r.pos (M.seedSize / 8)) (by simp)
        refine ⟨t, t1, ?_⟩
        rw [hx]
        simp only [RM.run, fill_healthy _ hr.1 hr.2.1, t2]
      have noBlob : ∀ x : RM Error Bytes, c.prog E M ≠ RM.mapOk .blob x := by
        intro x hx'
        obtain ⟨t, -, h2⟩ := ran (source []) ⟨rfl, rfl, rfl⟩
        rw [hx', RM.mapOk, RM.run_bind] at h2
        rcases hxr : x.run (source []) with ⟨_ | _ | _, r'⟩ <;> rw [hxr] at h2 <;> cases h2
      cases c with
      | generate lang =>
        obtain ⟨hsz, hl⟩ := hS h M lang hc
        refine .inr ⟨M.seedSize / 8, 1, fun b => .text (match mnemonicFromEntropy E.H b l with | .ok t => t | _ => []), fun r hr => ?_,
          .inr ⟨by rw [hsz], fun b hb => rfl⟩⟩
        obtain ⟨t, -, h2⟩ := ran r hr
        obtain ⟨t', h3, h4⟩ := generate_run E M lang hs' r hr
        rw [hl] at h3
        rw [h2]
        simp only [h3]
        have h5 : (((Call.generate lang).prog E M).run r).1 = .ok (.text t') := by
          rw [Call.prog, RM.mapOk, RM.run_bind]
          rcases hg : (M.generateMnemonic E lang).run r with ⟨x, r'⟩
          rw [hg] at h4
          cases h4
          rfl
        rw [h2] at h5
        cases h5
        rfl
      | fromSeed => exact absurd rfl (noBlob _)
      | fromMnemonic => exact absurd rfl (noBlob _)
      | change => exact absurd rfl (noBlob _)
      | add => exact absurd rfl (noBlob _)

/-- A caller that makes one call twice and stops. -/
def twice (M : Manager) (c : Call) : Caller := fun h => if h.length < 2 then some (M, c) else none

/-- C105: the bound is sharp: for a call that can give a blob, made twice, exactly one in 256^44 outputs makes salt and nonce come up
again. -/
theorem C105_sharp (E : Env) (M : Manager) (c : Call) (r r' : Rng) (blob : Bytes) (hb : (c.prog E M).run r = (.ok (.blob blob), r')) :
    {b : Bytes | b.length = 88 ∧ Meets opening E (twice M c) 2 2 b}.ncard = 256 ^ 44 := by
  obtain ⟨data, pw, hx⟩ : ∃ data pw, c.prog E M = RM.mapOk .blob (encrypt E.H E.A data pw) := by
    rcases call_shape E M c with ⟨x, hx, hno⟩ | ⟨data, pw, -, hx⟩ | ⟨l, hs, k, hx, hk⟩
    · rw [hx] at hb
      cases hb
      exact absurd rfl (hno _)
    · exact ⟨data, pw, hx⟩
    · exfalso
      rw [hx, RM.run] at hb
      rcases h1 : r.fill (M.seedSize / 8) with ⟨_ | b, r1⟩
      · rw [h1] at hb; cases hb
      · obtain ⟨-, -, hb', -⟩ := fill_ok h1
        obtain ⟨text, -, hk⟩ := hk b (by rw [hb', seg_length])
        rw [h1] at hb
        simp only [hk, RM.run] at hb
        cases hb
  have key : ∀ a v : Bytes, a.length = 44 → v.length = 44 → (Meets opening E (twice M c) 2 2 (a ++ v) ↔ a = v) := by
    intro a v ha hv
    have e1 := seg_mid [] a v
    have e2 := seg_mid a v []
    rw [ha] at e1
    rw [ha, hv, List.append_nil] at e2
    simp only [List.nil_append, List.length_nil] at e1
    have p : play E (twice M c) 2 [] (source (a ++ v)) =
        ([.ok (.blob (sealed E.H E.A data pw (a.take 32) (a.drop 32))), .ok (.blob (sealed E.H E.A data pw (v.take 32) (v.drop 32)))],
          ⟨fun i => (a ++ v).getD i 0, fun _ => false, 88, 4, false⟩) := by
      have s1 := run_sealed E data pw (source (a ++ v)) ⟨rfl, rfl, rfl⟩
      have s2 := run_sealed E data pw ⟨fun i => (a ++ v).getD i 0, fun _ => false, 44, 2, false⟩ ⟨rfl, rfl, rfl⟩
      simp only [source, e1, Nat.zero_add] at s1
      simp only [e2] at s2
      simp only [play, twice, List.length_nil, List.nil_append, List.length_singleton, Nat.zero_lt_succ, if_true, hx, source, s1,
        show (1 : Nat) < 2 from by decide, s2, List.singleton_append]
    simp only [Meets, p, marks, List.filterMap_cons, List.filterMap_nil, opening_sealed E data pw a ha, opening_sealed E data pw v hv]
    simp [ha, hv]
  have e : {b : Bytes | b.length = 88 ∧ Meets opening E (twice M c) 2 2 b} = (fun a => a ++ a) '' {a : Bytes | a.length = 44 ∧ True} := by
    ext b
    constructor
    · rintro ⟨h1, h2⟩
      rw [← List.take_append_drop 44 b, key _ _ (by simp; omega) (by simp; omega)] at h2
      refine ⟨b.take 44, ⟨by simp; omega, trivial⟩, ?_⟩
      show b.take 44 ++ b.take 44 = b
      conv_lhs => rhs; rw [h2]
      exact List.take_append_drop 44 b
    · rintro ⟨a, ⟨ha, -⟩, rfl⟩
      exact ⟨by simp [ha], (key a a ha ha).mpr rfl⟩
  rw [e, Set.InjOn.ncard_image]
  · exact (cnt_ncard 44 fun _ => True).trans (cnt_true 44)
  · rintro a ⟨ha, -⟩ b ⟨hb, -⟩ hab
    exact (List.append_inj hab (by rw [ha, hb])).1

theorem shared_like (E : Env) (M : Manager) (fails : Nat → Bool) (calls : Nat → List Call) (sched : List Nat) (b b' : Bytes) :
    Like (shared E M fails calls sched b) (shared E M fails calls sched b') := by
  refine like_exec (s := Sys.start ⟨fun i => b.getD i 0, fails, 0, 0, false⟩ fun t => (calls t).map (Call.prog E M))
    (s' := Sys.start ⟨fun i => b'.getD i 0, fails, 0, 0, false⟩ fun t => (calls t).map (Call.prog E M))
    ⟨rfl, rfl, rfl, rfl, fun _ => rfl, fun t => ?_, rfl, .nil⟩ sched
  show List.Forall₂ Sim ((calls t).map (Call.prog E M)) ((calls t).map (Call.prog E M))
  rw [List.forall₂_same]
  intro p hp
  obtain ⟨c, -, rfl⟩ := List.mem_map.mp hp
  exact sim_call E M c

/-- What is known about a finished call that gave a blob. -/
theorem shared_blob (E : Env) (M : Manager) (fails : Nat → Bool) (calls : Nat → List Call) (sched : List Nat) (b : Bytes)
    {y : (Nat × Nat) × Bytes} (hy : y ∈ tagged (shared E M fails calls sched b).done) :
    (places (shared E M fails calls sched b).log y.1).length = 44 ∧
    (∀ x ∈ places (shared E M fails calls sched b).log y.1, x < (shared E M fails calls sched b).rng.pos) ∧
    y.2 = (places (shared E M fails calls sched b).log y.1).map fun i => b.getD i 0 := by
  obtain ⟨blob, hm, hy2⟩ := tagged_mem hy
  have inv := Sys.inv_exec ⟨fun i => b.getD i 0, fails, 0, 0, false⟩ (fun t => (calls t).map (Call.prog E M)) sched
  rcases C34_manager E M _ calls sched y.1.1 y.1.2 (.blob blob) hm with ⟨b', p, q, tag, ct, hb, -, hl, hP⟩ | ⟨_, _, _, _, hb, -⟩
  · cases hb
    have hl' : (shared E M fails calls sched b).log.filter (fun d => d.thread = y.1.1 ∧ d.op = y.1.2) =
        [⟨y.1.1, y.1.2, p, 32⟩, ⟨y.1.1, y.1.2, q, 12⟩] := hl
    have e : places (shared E M fails calls sched b).log y.1 = (List.range 32).map (p + ·) ++ (List.range 12).map (q + ·) := by
      rw [places, hl', List.flatMap_cons, List.flatMap_cons, List.flatMap_nil, List.append_nil]
    have mem : ∀ d ∈ [(⟨y.1.1, y.1.2, p, 32⟩ : Draw), ⟨y.1.1, y.1.2, q, 12⟩], d.pos + d.len ≤ (shared E M fails calls sched b).rng.pos := by
      intro d hd
      rw [← hl'] at hd
      exact (inv.above d (List.mem_filter.mp hd).1).2
    have m1 := mem _ (List.mem_cons_self ..)
    have m2 := mem ⟨y.1.1, y.1.2, q, 12⟩ (by simp)
    refine ⟨by rw [e]; simp, fun x hx => ?_, ?_⟩
    · rw [e, List.mem_append, List.mem_map, List.mem_map] at hx
      simp only [List.mem_range] at hx
      simp only at m1 m2
      omega
    · rw [hy2, e, List.map_append, List.map_map, List.map_map]
      obtain ⟨rfl, -⟩ := hP
      rw [← List.append_assoc, List.take_append_of_le_length (by simp), List.take_of_length_le (by simp)]
      rfl
  · cases hb

/-- C105: the same for any number of threads that share a manager, under any schedule, whichever calls to the random source fail. -/
theorem C105_threads (E : Env) (M : Manager) (fails : Nat → Bool) (calls : Nat → List Call) (sched : List Nat) (k T : Nat) :
    {b : Bytes | b.length = T ∧ MeetsShared opening E M fails calls sched k b}.ncard * (2 * 256 ^ 44) ≤ k * (k - 1) * 256 ^ T := by
  have like := fun b => shared_like E M fails calls sched b []
  have ops := fun b => tagged_like (like b).done
  have inv := Sys.inv_exec ⟨fun i => ([] : Bytes).getD i 0, fails, 0, 0, false⟩ (fun t => (calls t).map (Call.prog E M)) sched
  generalize hO : (tagged (shared E M fails calls sched []).done).map Prod.fst = O at ops
  have hOn : O.Nodup := hO ▸ (tagged_sub _).nodup (done_nodup _ _ sched)
  let P : Nat → List Nat := fun i => places (shared E M fails calls sched []).log (O.getD i (0, 0))
  rw [cnt_ncard]
  have cover := cnt_exists T (MeetsShared opening E M fails calls sched k) ((Finset.range k).sigma Finset.range)
    (fun x b => ((P x.1).length = 44 ∧ (P x.2).length = 44 ∧ (∀ y ∈ P x.1, y < T) ∧ (∀ y ∈ P x.2, y < T) ∧ (P x.2).Nodup ∧
      ∀ y ∈ P x.1, y ∉ P x.2) ∧ (P x.1).map (fun i => b.getD i 0) = (P x.2).map fun i => b.getD i 0) ?_
  · have each : ∀ x ∈ (Finset.range k).sigma Finset.range, cnt T (fun b =>
        ((P x.1).length = 44 ∧ (P x.2).length = 44 ∧ (∀ y ∈ P x.1, y < T) ∧ (∀ y ∈ P x.2, y < T) ∧ (P x.2).Nodup ∧
        ∀ y ∈ P x.1, y ∉ P x.2) ∧ (P x.1).map (fun i => b.getD i 0) = (P x.2).map fun i => b.getD i 0) * 256 ^ 44 ≤ 256 ^ T := by
      intro x _
      by_cases hx : (P x.1).length = 44 ∧ (P x.2).length = 44 ∧ (∀ y ∈ P x.1, y < T) ∧ (∀ y ∈ P x.2, y < T) ∧ (P x.2).Nodup ∧
        ∀ y ∈ P x.1, y ∉ P x.2
      · obtain ⟨x1, x2, x3, x4, x5, x6⟩ := hx
        refine Nat.le_trans (Nat.mul_le_mul_right _ (Nat.le_of_eq (cnt_congr fun b _ => ?_))) (cnt_agree T 44 _ _ x1 x2 x3 x4 x5 x6)
        exact ⟨fun h => h.2, fun h => ⟨⟨x1, x2, x3, x4, x5, x6⟩, h⟩⟩
      · rw [cnt_zero fun b _ h => hx h.1, Nat.zero_mul]
        exact Nat.zero_le _
    have sum := Finset.sum_le_sum each
    rw [← Finset.sum_mul, Finset.sum_const, Finset.card_sigma, smul_eq_mul] at sum
    simp only [Finset.card_range] at sum
    have two := Finset.sum_range_id_mul_two k
    have c2 := Nat.mul_le_mul_right (256 ^ 44) cover
    have := Nat.mul_le_mul_left 2 (Nat.le_trans c2 sum)
    rw [← two]
    calc _ = _ := Nat.mul_left_comm _ 2 _
      _ ≤ _ := this
      _ = _ := by rw [← Nat.mul_assoc, Nat.mul_comm 2]
  · rintro b hb ⟨h1, h2, h3⟩
    rw [tagged_marks] at h2 h3
    rw [List.nodup_iff_pairwise_ne, List.pairwise_iff_getElem] at h3
    push Not at h3
    obtain ⟨i, j, hi, hj, hij, he⟩ := h3
    rw [List.length_map] at hi hj h2
    rw [List.getElem_map, List.getElem_map] at he
    have len : O.length = (tagged (shared E M fails calls sched b).done).length := by rw [← ops b, List.length_map]
    have at' : ∀ n (hn : n < (tagged (shared E M fails calls sched b).done).length),
        O.getD n (0, 0) = ((tagged (shared E M fails calls sched b).done)[n]).1 := by
      intro n hn
      rw [← ops b, List.getD_eq_getElem?_getD, List.getElem?_map, List.getElem?_eq_getElem hn]
      rfl
    have hne : O.getD i (0, 0) ≠ O.getD j (0, 0) := by
      rw [List.getD_eq_getElem?_getD, List.getD_eq_getElem?_getD, List.getElem?_eq_getElem (by omega), List.getElem?_eq_getElem (by omega)]
      intro hc
      exact absurd ((List.Nodup.getElem_inj_iff hOn).mp hc) (by omega)
    obtain ⟨a1, a2, a3⟩ := shared_blob E M fails calls sched b (List.getElem_mem hi)
    obtain ⟨b1, b2, b3⟩ := shared_blob E M fails calls sched b (List.getElem_mem hj)
    rw [(like b).log, ← at' i hi] at a1 a2 a3
    rw [(like b).log, ← at' j hj] at b1 b2 b3
    refine ⟨⟨j, i⟩, by simp; omega, ⟨b1, a1, fun y hy => ?_, fun y hy => ?_, places_nodup inv.disj _, places_disjoint inv.disj (Ne.symm hne)⟩, ?_⟩
    · have := b2 y hy; omega
    · have := a2 y hy; omega
    · rw [← a3, ← b3, he]

/-- Non-vacuity of C105: a wallet made twice from one seed and password; and a caller that generates phrases until one begins with an
"a", then makes wallets without end. -/
example : {b : Bytes | b.length = 88 ∧ Meets opening toyEnv
    (twice (toyManager [1, 2]) (.fromSeed forwards forwards (List.replicate 64 9) ['p'])) 2 2 b}.ncard = 256 ^ 44 := by
  obtain ⟨blob, r', h⟩ := toy_seed_wallet forwards forwards ['p']
  refine C105_sharp toyEnv (toyManager [1, 2]) _ countingRng r' blob ?_
  rw [Call.prog, RM.mapOk, RM.run_bind, h]
  rfl
def picky : Caller := fun h =>
  some (toyManager [1, 2], if (marks phrase h).any (fun s => s.head? == some 'a') then .fromSeed forwards forwards (List.replicate 64 9) ['p']
    else .generate none)
example (n k T : Nat) : {b : Bytes | b.length = T ∧ Meets phrase toyEnv picky n k b}.ncard * (2 * 2 ^ 128) ≤ k * (k - 1) * 256 ^ T := by
  refine C105_phrase toyEnv picky 128 .english (by decide) (fun h M lang hc => ?_) n k T
  simp only [picky, Option.some.injEq, Prod.mk.injEq] at hc
  obtain ⟨rfl, h2⟩ := hc
  split at h2
  · cases h2
  · cases h2
    exact ⟨rfl, rfl⟩

/-- Two threads that make a wallet each, by turns: with a source of zeros they meet a repetition, with a counting source not. -/
def pair : Nat → List Call := fun t => if t < 2 then [.fromSeed forwards forwards (List.replicate 64 9) ['p']] else []
example : MeetsShared opening toyEnv (toyManager [1, 2]) (fun _ => false) pair [0, 1, 1, 0, 0, 1] 2 (List.replicate 88 0) := by
  unfold MeetsShared
  decide +kernel
example : (marks opening ((shared toyEnv (toyManager [1, 2]) (fun _ => false) pair [0, 1, 1, 0, 0, 1]
      ((List.range 88).map UInt8.ofNat)).done.map fun x => x.2.2)).length = 2 ∧
    ¬ MeetsShared opening toyEnv (toyManager [1, 2]) (fun _ => false) pair [0, 1, 1, 0, 0, 1] 2 ((List.range 88).map UInt8.ofNat) := by
  unfold MeetsShared
  decide +kernel

end KC.Props
