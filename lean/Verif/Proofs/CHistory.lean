import Verif.Proofs.CApi
/-
The C interface: memory over a history of calls and deletes.
-/
namespace KC.C
open KC.Spec.C

theorem run_poisoned {ε α} (x : RM ε α) {r : Rng} (h : r.poisoned = true) : (x.run r).2 = r := by
  cases x with
  | ret x => rfl
  | draw n k =>
    have : r.fill n = (none, r) := by rw [Rng.fill, if_pos h]
    simp only [RM.run, this]

/-! ### What a step leaves alone -/

/-- Off the blocks of `D`, live blocks stay (a manager may get another random source, unless it is poisoned); freed blocks stay freed. -/
structure Keeps (D : List Nat) (h h' : Heap) : Prop where
  dead : ∀ i : Nat, h[i]? = some none → h'[i]? = some none
  same : ∀ i l p, i ∉ D → Live h i l p → (∀ m r, p ≠ .manager m r) → Live h' i l p
  mgr : ∀ i l m r, i ∉ D → Live h i l (.manager m r) → ∃ r', Live h' i l (.manager m r') ∧ (r.poisoned = true → r' = r)

theorem Keeps.append (h n : Heap) : Keeps [] h (h ++ n) where
  dead i hi := by rw [List.getElem?_append_left (List.getElem?_eq_some_iff.mp hi).1]; exact hi
  same i l p _ hl _ := live_append n hl
  mgr i l m r _ hl := ⟨r, live_append n hl, fun _ => rfl⟩

theorem Keeps.trans {h h' h'' : Heap} (a : Keeps [] h h') (b : Keeps [] h' h'') : Keeps [] h h'' where
  dead i hi := b.dead i (a.dead i hi)
  same i l p hd hl hp := b.same i l p hd (a.same i l p hd hl hp) hp
  mgr i l m r hd hl := by
    obtain ⟨r', h1, h2⟩ := a.mgr i l m r hd hl
    obtain ⟨r'', h3, h4⟩ := b.mgr i l m r' hd h1
    exact ⟨r'', h3, fun hr => by rw [h4 (by rw [h2 hr]; exact hr), h2 hr]⟩

theorem withRng_length (h : Heap) (t : Target) (p : Ptr) (r : Rng) : (withRng h t p r).length = h.length := by
  unfold withRng
  split <;> simp

theorem withRng_get {W : Build} {h : Heap} {i : Nat} {m : Manager} {r : Rng} (hl : Live h i W.manager (.manager m r)) (r' : Rng) (j : Nat) :
    (withRng h (.manager m r) (.to i) r')[j]? = if i = j then some (some ⟨W.manager, .manager m r'⟩) else h[j]? := by
  simp only [withRng]
  rw [List.getElem?_modify]
  by_cases hj : i = j
  · subst hj
    rw [show h[i]? = _ from hl]; simp
  · cases h[j]? <;> simp [hj]

theorem Keeps.withRng {W : Build} {h : Heap} {p : Ptr} {o : Option Kind} {t : Target} (ht : Names W h p o t) (r' : Rng)
    (hp : t.rng.poisoned = true → r' = t.rng) : Keeps [] h (withRng h t p r') := by
  have refl : Keeps [] h h := by simpa using Keeps.append h []
  cases ht with
  | manager i m r hi hl =>
    subst hi
    refine ⟨fun j hj => ?_, fun j l q _ hq hn => ?_, fun j l m' r0 _ hq => ?_⟩
    · rw [withRng_get hl, if_neg]
      · exact hj
      · rintro rfl; rw [show h[i]? = _ from hl] at hj; cases hj
    · unfold Live; rw [withRng_get hl, if_neg]
      · exact hq
      · rintro rfl; rw [Live, show h[i]? = _ from hl] at hq; cases hq; exact hn _ _ rfl
    · by_cases hj : i = j
      · subst hj
        rw [Live, show h[i]? = _ from hl] at hq; cases hq
        exact ⟨r', by unfold Live; rw [withRng_get hl, if_pos rfl], hp⟩
      · exact ⟨r0, by unfold Live; rw [withRng_get hl, if_neg hj]; exact hq, fun _ => rfl⟩
  | _ => exact refl

theorem withRng_isSome {W : Build} {h : Heap} {p : Ptr} {o : Option Kind} {t : Target} (ht : Names W h p o t) (r' : Rng) (j : Nat) :
    (withRng h t p r')[j]?.join.isSome = h[j]?.join.isSome := by
  cases ht with
  | manager i m r hp hl =>
    subst hp
    rw [withRng_get hl]
    by_cases hj : i = j
    · subst hj; rw [show h[i]? = _ from hl, if_pos rfl]; rfl
    · rw [if_neg hj]
  | _ => rfl

/-- Blocks freed. -/
def clear (h : Heap) (D : List Nat) : Heap := D.foldl (fun h i => h.set i none) h

theorem clear_nil (h : Heap) : clear h [] = h := rfl
theorem clear_cons (h : Heap) (i : Nat) (D : List Nat) : clear h (i :: D) = clear (h.set i none) D := rfl
theorem clear_append (h : Heap) (D E : List Nat) : clear h (D ++ E) = clear (clear h D) E := by simp [clear]

theorem clear_get (h : Heap) (D : List Nat) (j : Nat) : (clear h D)[j]? = if j ∈ D then h[j]?.map (fun _ => none) else h[j]? := by
  induction D generalizing h with
  | nil => simp [clear_nil]
  | cons i D ih =>
    rw [clear_cons, ih, List.getElem?_set]
    by_cases hj : j = i
    · subst hj
      by_cases hlt : j < h.length
      · simp [hlt]
      · simp [hlt]
    · have hj' : ¬ i = j := fun e => hj e.symm
      simp [hj, hj']

theorem Keeps.clear (h : Heap) (D : List Nat) : Keeps D h (clear h D) where
  dead i hi := by rw [clear_get, hi]; split <;> rfl
  same i l p hd hl _ := by unfold Live; rw [clear_get, if_neg hd]; exact hl
  mgr i l m r hd hl := ⟨r, by unfold Live; rw [clear_get, if_neg hd]; exact hl, fun _ => rfl⟩

theorem bytesAt_keeps {D : List Nat} {h h' : Heap} (hk : Keeps D h h') {d : DataPtr} {b : Bytes} (hb : BytesAt h d b)
    (hd : ∀ i ∈ ptrIds d.ptr, i ∉ D) : BytesAt h' d b := by
  obtain ⟨h1, h2 | ⟨h2, i, h3, h4⟩⟩ := hb
  · exact ⟨h1, .inl h2⟩
  · exact ⟨h1, .inr ⟨h2, i, h3, hk.same i _ _ (hd i (by rw [h3]; simp [ptrIds])) h4 nofun⟩⟩

theorem elemsAt_keeps {D : List Nat} {h h' : Heap} (hk : Keeps D h h') : ∀ {es cs}, ElemsAt h es cs → (∀ i ∈ elemIds es, i ∉ D) →
    ElemsAt h' es cs
  | [], [], _, _ => trivial
  | e :: es, _ :: _, ⟨h1, h2, h3⟩, hd => by
    have hd' : ∀ i ∈ ptrIds e.data.ptr ++ elemIds es, i ∉ D := hd
    exact ⟨h1, bytesAt_keeps hk h2 (fun i hi => hd' i (List.mem_append_left _ hi)),
      elemsAt_keeps hk h3 (fun i hi => hd' i (List.mem_append_right _ hi))⟩

theorem textAt_keeps {D : List Nat} {h h' : Heap} (hk : Keeps D h h') {p : Ptr} {s : Str} (hb : TextAt h p s)
    (hd : ∀ i ∈ ptrIds p, i ∉ D) : TextAt h' p s := by
  obtain ⟨h1, i, rfl, h4⟩ := hb
  exact ⟨h1, i, rfl, hk.same i _ _ (hd i (by simp [ptrIds])) h4 nofun⟩

theorem textAt_isLive {h : Heap} {p : Ptr} {s : Str} (hb : TextAt h p s) : isLive h p = true := by
  obtain ⟨-, i, rfl, h4⟩ := hb
  simp only [isLive]; rw [show h[i]? = _ from h4]; rfl

theorem owned_text {W : Build} {h : Heap} {v : Val .text} {c : Content .text} (hr : Reads W h .text v c) : owned h .text v = ptrIds v := by
  simp only [owned]; rw [textAt_isLive hr]; rfl

theorem owned_backup {h : Heap} {v : KeyBackupPtr} {i l es} (hp : v.ptr = .to i) (hl : Live h i l (.elems es)) :
    owned h .backup v = elemIds es ++ [i] := by
  simp only [owned, hp]; rw [show h[i]? = _ from hl]

theorem reads_keeps {W : Build} {D : List Nat} {h h' : Heap} (hk : Keeps D h h') {k : Kind} {v : Val k} {c : Content k}
    (hr : Reads W h k v c) (hd : ∀ i ∈ owned h k v, i ∉ D) :
    ∃ c', Reads W h' k v c' ∧ Same k c c' ∧ owned h' k v = owned h k v := by
  cases k with
  | path => exact ⟨c, hr, rfl, rfl⟩
  | bool => exact ⟨c, hr, rfl, rfl⟩
  | text =>
    rw [owned_text hr] at hd ⊢
    have := textAt_keeps hk hr hd
    exact ⟨c, this, rfl, owned_text (W := W) this⟩
  | data => exact ⟨c, bytesAt_keeps hk hr hd, rfl, rfl⟩
  | networks =>
    obtain ⟨h1, h2 | ⟨h2, i, h3, h4⟩⟩ := hr
    · exact ⟨c, ⟨h1, .inl h2⟩, rfl, rfl⟩
    · exact ⟨c, ⟨h1, .inr ⟨h2, i, h3, hk.same i _ _ (hd i (by simp [owned, h3, ptrIds])) h4 nofun⟩⟩, rfl, rfl⟩
  | keychain =>
    obtain ⟨i, h3, h4⟩ := hr
    exact ⟨c, ⟨i, h3, hk.same i _ _ (hd i (by simp [owned, h3, ptrIds])) h4 nofun⟩, rfl, rfl⟩
  | manager =>
    obtain ⟨i, h3, h4⟩ := hr
    obtain ⟨r', h5, h6⟩ := hk.mgr i _ _ _ (hd i (by simp [owned, h3, ptrIds])) h4
    exact ⟨(c.1, r'), ⟨i, h3, h5⟩, ⟨rfl, h6⟩, rfl⟩
  | backup =>
    obtain ⟨h1, h2 | ⟨h2, i, es, h3, h4, h5⟩⟩ := hr
    · refine ⟨c, ⟨h1, .inl h2⟩, rfl, ?_⟩
      simp only [owned, h2.2]
    · rw [owned_backup h3 h4] at hd ⊢
      have h6 := hk.same i _ _ (hd i (by simp)) h4 nofun
      exact ⟨c, ⟨h1, .inr ⟨h2, i, es, h3, h6, elemsAt_keeps hk h5 (fun j hj => hd j (by simp [hj]))⟩⟩, rfl, owned_backup h3 h6⟩
  | info => exact ⟨c, ⟨textAt_keeps hk hr.1 hd, hr.2⟩, rfl, rfl⟩
  | error => exact ⟨c, ⟨hr.1, textAt_keeps hk hr.2 hd⟩, rfl, rfl⟩

theorem gone_owned {h : Heap} {k : Kind} {v : Val k} (hg : Gone h k v) : owned h k v = [] := by
  cases k with
  | path => rfl
  | bool => rfl
  | text =>
    obtain ⟨i, rfl, hi⟩ := hg
    simp [owned, isLive, hi]
  | data => have hg : v.ptr = .null := hg; simp [owned, hg, ptrIds]
  | networks => have hg : v.ptr = .null := hg; simp [owned, hg, ptrIds]
  | keychain => have hg : v = .null := hg; simp [owned, hg, ptrIds]
  | manager => have hg : v = .null := hg; simp [owned, hg, ptrIds]
  | backup => have hg : v.ptr = .null := hg; simp [owned, hg]
  | info => have hg : v.mnemonic = .null := hg; simp [owned, hg, ptrIds]
  | error => have hg : v.message = .null := hg; simp [owned, hg, ptrIds]

theorem gone_keeps {D : List Nat} {h h' : Heap} (hk : Keeps D h h') {k : Kind} {v : Val k} (hg : Gone h k v) : Gone h' k v := by
  cases k with
  | text => obtain ⟨i, hv, hi⟩ := hg; exact ⟨i, hv, hk.dead i hi⟩
  | _ => exact hg

/-! ### Deleting -/

theorem dealloc_live {ε} {h : Heap} {i l p} (hl : Live h i l p) (hz : l.size ≠ 0) :
    (CM.dealloc (.to i) l : CM ε Unit) h = .ok () (h.set i none) := by
  simp only [CM.dealloc, if_neg hz]
  rw [live_at hl]
  simp

theorem charFree_live {h : Heap} {p : Ptr} {s : Str} (ht : TextAt h p s) : charFree p h = .ok .null (clear h (ptrIds p)) := by
  obtain ⟨-, i, rfl, hl⟩ := ht
  simp only [charFree]
  rw [live_at hl]
  dsimp only
  exact CM.bind_ok (dealloc_live (ε := Empty) hl (by simp [textLayout]))

theorem data_free {h : Heap} {d : DataPtr} {b : Bytes} (hb : BytesAt h d b) :
    d.free h = .ok { d with ptr := .null } (clear h (ptrIds d.ptr)) := by
  obtain ⟨hl, ⟨rfl, h2⟩ | ⟨h2, i, h3, h4⟩⟩ := hb
  · rw [DataPtr.free, if_neg (by rw [h2]; nofun)]
    have hl : d.len = 0 := hl
    simp only [CM.bind_apply, CM.dealloc, bytesLayout, hl, if_pos, h2, ptrIds, clear_nil, CM.pure_apply]
  · rw [DataPtr.free, if_neg (by rw [h3]; nofun), h3, hl]
    have := dealloc_live (ε := Empty) h4 (by simpa using h2)
    rw [show bytesLayout b.length = ⟨b.length, 1⟩ from rfl, CM.bind_ok this]
    rfl

theorem freeElems_live {h : Heap} : ∀ {es cs}, ElemsAt h es cs → (elemIds es).Nodup → freeElems es h = .ok () (clear h (elemIds es))
  | [], [], _, _ => rfl
  | e :: es, c :: cs, ⟨_, h2, h3⟩, hn => by
    have hn' : (ptrIds e.data.ptr ++ elemIds es).Nodup := hn
    obtain ⟨-, n2, n3⟩ := List.nodup_append.mp hn'
    rw [freeElems, CM.bind_ok (data_free h2), freeElems_live (elemsAt_keeps (Keeps.clear h _) h3 fun i hi hj => n3 i hj i hi rfl) n2]
    show _ = Out.ok () (clear h (ptrIds e.data.ptr ++ elemIds es))
    rw [clear_append]

/-- Deleting a value frees all its blocks. -/
theorem delete_reads {W : Build} {h : Heap} {k : Kind} {v : Val k} {c : Content k} (hr : Reads W h k v c) (hn : (owned h k v).Nodup)
    (hk : ∀ n : NetworksPtr, (⟨k, v⟩ : Var) = ⟨.networks, n⟩ → n.count = 0) :
    ∃ v', delete W k v h = .ok v' (clear h (owned h k v)) ∧ Gone (clear h (owned h k v)) k v' := by
  cases k with
  | path => exact ⟨v, rfl, trivial⟩
  | bool => exact ⟨v, rfl, trivial⟩
  | text =>
    rw [owned_text hr]
    refine ⟨v, ?_, ?_⟩
    · simp only [delete, deleteString]
      have h1 : (charFree v >>= fun _ => (pure () : CM Empty Unit)) h = .ok () (clear h (ptrIds v)) := CM.bind_ok (charFree_live hr)
      exact CM.bind_ok h1
    · obtain ⟨-, i, rfl, hl⟩ := hr
      refine ⟨i, rfl, ?_⟩
      rw [clear_get, show h[i]? = _ from hl]; simp [ptrIds]
  | data => exact ⟨_, data_free hr, rfl⟩
  | networks =>
    have hz : v.count = 0 := hk v rfl
    obtain ⟨h1, ⟨h2, h3⟩ | ⟨h2, -⟩⟩ := hr
    · refine ⟨{ v with ptr := .null }, ?_, rfl⟩
      simp only [delete, deleteNetworks, NetworksPtr.free, h3]
      rw [if_neg nofun]
      simp only [CM.bind_apply, CM.dealloc, hz, Nat.mul_zero, if_pos, CM.pure_apply, owned, h3, ptrIds, clear_nil]
    · rw [hz] at h1; exact absurd (List.length_eq_zero_iff.mp h1.symm) h2
  | keychain =>
    obtain ⟨i, rfl, hl⟩ := hr
    refine ⟨.null, ?_, rfl⟩
    have := W.keychain_ok
    simp only [delete, deleteKeychain]
    rw [if_neg nofun, CM.bind_ok (dealloc_live hl (by omega))]; rfl
  | manager =>
    obtain ⟨i, rfl, hl⟩ := hr
    refine ⟨.null, ?_, rfl⟩
    have := W.manager_ok
    simp only [delete, deleteKeychainManager]
    rw [if_neg nofun, CM.bind_ok (dealloc_live hl (by omega))]; rfl
  | backup =>
    refine ⟨{ v with ptr := .null }, ?_, rfl⟩
    obtain ⟨h1, ⟨h2, h3⟩ | ⟨h2, i, es, h3, h4, h5⟩⟩ := hr
    · subst h2
      have h1 : v.count = 0 := h1
      have hd : delete W .backup v = pure { v with ptr := .null } := by
        exact (if_neg (by rw [h3]; nofun)).trans (if_pos h1)
      refine (congrFun hd h).trans ?_
      simp only [owned, h3, clear_nil, CM.pure_apply]
    · have hlen := elemsAt_length h5
      have hc : v.count ≠ 0 := by rw [h1]; simpa using h2
      rw [owned_backup h3 h4] at hn ⊢
      obtain ⟨n1, -, n3⟩ := List.nodup_append.mp hn
      have hi : i ∉ elemIds es := fun hm => n3 i hm i (by simp) rfl
      have hd : delete W .backup v = _ := (if_neg (by rw [h3]; nofun)).trans (if_neg hc)
      refine (congrFun hd h).trans ?_
      rw [h3, live_at h4]
      dsimp only
      rw [if_pos (by rw [hlen, h1]), CM.bind_ok (freeElems_live h5 n1)]
      have h6 := (Keeps.clear h (elemIds es)).same i _ _ hi h4 nofun
      have hz : 3 * W.word * c.length ≠ 0 := by
        have := word_pos W
        exact Nat.mul_ne_zero (by omega) (by simpa using h2)
      rw [show elemsLayout W v.count = ⟨3 * W.word * c.length, W.word⟩ by rw [h1]; rfl, CM.bind_ok (dealloc_live h6 hz), clear_append]
      rfl
  | info =>
    refine ⟨{ v with mnemonic := .null }, ?_, rfl⟩
    simp only [delete, deleteMnemonicInfo]
    have hv : v.mnemonic ≠ .null := by obtain ⟨⟨-, i, hi, -⟩, -⟩ := hr; rw [hi]; nofun
    rw [if_neg hv, CM.bind_ok (charFree_live hr.1)]; rfl
  | error =>
    refine ⟨{ v with message := .null }, ?_, rfl⟩
    simp only [delete, deleteError, ErrorPtr.free]
    have hv : v.message ≠ .null := by obtain ⟨-, -, i, hi, -⟩ := hr; rw [hi]; nofun
    rw [if_neg hv, CM.bind_ok (charFree_live hr.2)]; rfl

/-- Deleting again does nothing (a text must not be deleted again). -/
theorem delete_gone {W : Build} {h : Heap} {k : Kind} {v : Val k} (hg : Gone h k v) (hk : k ≠ .text) : delete W k v h = .ok v h := by
  cases k with
  | path => rfl
  | bool => rfl
  | text => exact absurd rfl hk
  | data => exact congrFun (if_pos hg) h
  | networks => exact congrFun (if_pos hg) h
  | keychain => exact congrFun (if_pos hg) h
  | manager => exact congrFun (if_pos hg) h
  | backup => exact congrFun (if_pos hg) h
  | info => exact congrFun (if_pos hg) h
  | error => exact congrFun (if_pos hg) h

/-! ### Calls -/

/-- How a call ends, in general. -/
inductive Ends (W : Build) (x : Ctx) {k : Kind} (val : Val k) (err : ErrorPtr) (res : Res Error (Content k)) (h1 : Heap) :
    CallOut (Val k) → Prop
  | good (c : Content k) (v : Val k) (new : Heap) : res = .ok c → Fits k c → Reads W (h1 ++ new) k v c →
      owned (h1 ++ new) k v = List.range' h1.length new.length → (∀ b ∈ new, b.isSome) → Ends W x val err res h1 (.ret true v err (h1 ++ new))
  | bad (e : ErrorPtr) (ty : ErrorType) (s : Str) (b : Block) : Reads W (h1 ++ [some b]) .error e (ty, s) →
      owned (h1 ++ [some b]) .error e = [h1.length] →
      ((∃ er, res = .err er ∧ ty = errorType er ∧ s = er.display x.texts) ∨
       ((res = .panic ∨ ∃ c, res = .ok c ∧ ¬ Fits k c) ∧ ty = .panic ∧ s = x.panic.message)) →
      Ends W x val err res h1 (.ret false val e (h1 ++ [some b]))
  | unwind : ((∃ er, res = .err er ∧ (0 : UInt8) ∈ Str.utf8 (er.display x.texts)) ∨
       ((res = .panic ∨ ∃ c, res = .ok c ∧ ¬ Fits k c) ∧ (0 : UInt8) ∈ Str.utf8 x.panic.message)) →
      Ends W x val err res h1 (.unwind h1)

theorem reads_failed {W : Build} {ty : ErrorType} {s : Str} {h : Heap} (hn : (0 : UInt8) ∉ Str.utf8 s) :
    Reads W (h ++ [some ⟨textLayout (Str.utf8 s).length, .text (Str.utf8 s)⟩]) .error ⟨ty, .to h.length⟩ (ty, s) :=
  ⟨rfl, hn, h.length, rfl, live_new ..⟩

theorem after_ends (W : Build) (x : Ctx) {k : Kind} (f : Fn k) (val : Val k) (err : ErrorPtr) (res : Res Error (Content k)) (h1 : Heap) :
    Ends W x val err res h1 (after x (Fn.mk W f) val err res h1) := by
  unfold after
  cases res with
  | ok c =>
    dsimp only
    obtain ⟨m1, m2⟩ := Fn.makes W f c h1
    by_cases hf : Fits k c
    · obtain ⟨v, new, q1, q2, q3, q4⟩ := m1 hf
      rw [q1]
      exact .good c v new rfl hf q2 q3 q4
    · rw [m2 hf]
      simp only [settle, failed]
      by_cases hn : (0 : UInt8) ∈ Str.utf8 x.panic.message
      · rw [if_pos hn]; exact .unwind (.inr ⟨.inr ⟨c, rfl, hf⟩, hn⟩)
      · rw [if_neg hn]; exact .bad _ _ _ _ (reads_failed hn) (by simp [owned, ptrIds]) (.inr ⟨.inr ⟨c, rfl, hf⟩, rfl, rfl⟩)
  | err e =>
    simp only [failed]
    by_cases hn : (0 : UInt8) ∈ Str.utf8 (e.display x.texts)
    · rw [if_pos hn]; exact .unwind (.inl ⟨e, rfl, hn⟩)
    · rw [if_neg hn]; exact .bad _ _ _ _ (reads_failed hn) (by simp [owned, ptrIds]) (.inl ⟨e, rfl, rfl, rfl⟩)
  | panic =>
    simp only [failed]
    by_cases hn : (0 : UInt8) ∈ Str.utf8 x.panic.message
    · rw [if_pos hn]; exact .unwind (.inr ⟨.inl rfl, hn⟩)
    · rw [if_neg hn]; exact .bad _ _ _ _ (reads_failed hn) (by simp [owned, ptrIds]) (.inr ⟨.inl rfl, rfl, rfl⟩)

theorem call_ends {W : Build} (x : Ctx) {p : Ptr} {k : Kind} {f : Fn k} (val : Val k) (err : ErrorPtr) {h : Heap} {t : Target}
    (ht : Names W h p f.handle t) :
    Ends W x val err ((f.lib W x t).run t.rng).1 (withRng h t p ((f.lib W x t).run t.rng).2) (f.call W x p val err h) := by
  rw [Fn.call_eq W x p f val err h t ht]
  exact after_ends ..

/-! ### Soundness of memory along histories -/

theorem sound_names {W : Build} {s : State} (hs : Sound W s) {k : Kind} (f : Fn k) (j : Nat) :
    ∃ t, Names W s.heap (s.handle f.handle j) f.handle t := by
  generalize f.handle = o
  cases o with
  | none => exact ⟨_, .no⟩
  | some ko =>
    unfold State.handle
    cases hv : s.vars[j]? with
    | none => exact ⟨_, .null _ rfl⟩
    | some v =>
      have hm : v ∈ s.vars := List.mem_of_getElem? hv
      rcases v with ⟨kv, p⟩
      have hh := hs.held _ hm
      cases kv with
      | keychain =>
        by_cases ho : (some ko : Option Kind) = some .keychain
        · obtain rfl : ko = .keychain := by simpa using ho
          rcases hh with ⟨c, i, hp, hl⟩ | hg
          · exact ⟨_, .keychain i c (by simpa [Var.handle] using hp) hl⟩
          · exact ⟨_, .null _ (by simpa [Var.handle] using (show p = .null from hg))⟩
        · exact ⟨_, .null _ (by simp only [Var.handle, if_neg ho])⟩
      | manager =>
        by_cases ho : (some ko : Option Kind) = some .manager
        · obtain rfl : ko = .manager := by simpa using ho
          rcases hh with ⟨c, i, hp, hl⟩ | hg
          · exact ⟨_, .manager i c.1 c.2 (by simpa [Var.handle] using hp) hl⟩
          · exact ⟨_, .null _ (by simpa [Var.handle] using (show p = .null from hg))⟩
        · exact ⟨_, .null _ (by simp only [Var.handle, if_neg ho])⟩
      | _ => exact ⟨_, .null _ rfl⟩

theorem owned_lt {W : Build} {s : State} (hs : Sound W s) {i : Nat} (hi : i ∈ s.owned) : i < s.heap.length := by
  have := (hs.exact i).mpr hi
  by_contra hlt
  rw [List.getElem?_eq_none (by omega)] at this
  simp at this

theorem flatMap_congr {α β : Type} {l : List α} {f g : α → List β} (h : ∀ a ∈ l, f a = g a) : l.flatMap f = l.flatMap g := by
  induction l with
  | nil => rfl
  | cons a l ih => simp [List.flatMap_cons, h a (by simp), ih fun b hb => h b (by simp [hb])]

/-- A new value in fresh memory keeps memory in order. -/
theorem sound_new {W : Build} {s : State} (hs : Sound W s) {h1 new : Heap} (hk : Keeps [] s.heap h1) (hlen : h1.length = s.heap.length)
    (hsome : ∀ j : Nat, h1[j]?.join.isSome = s.heap[j]?.join.isSome) {k : Kind} {v : Val k} {c : Content k}
    (hr : Reads W (h1 ++ new) k v c) (ho : owned (h1 ++ new) k v = List.range' h1.length new.length) (hn : ∀ b ∈ new, b.isSome) :
    Sound W ⟨h1 ++ new, s.vars ++ [⟨k, v⟩]⟩ := by
  have hk' : Keeps [] s.heap (h1 ++ new) := hk.trans (Keeps.append _ _)
  have hold : ∀ u ∈ s.vars, KC.Spec.C.owned (h1 ++ new) u.kind u.val = KC.Spec.C.owned s.heap u.kind u.val := by
    intro u hu
    rcases hs.held u hu with ⟨c, hc⟩ | hg
    · obtain ⟨-, -, -, h⟩ := reads_keeps hk' hc nofun; exact h
    · rw [gone_owned hg, gone_owned (gone_keeps hk' hg)]
  have hown : State.owned ⟨h1 ++ new, s.vars ++ [⟨k, v⟩]⟩ = s.owned ++ List.range' s.heap.length new.length := by
    simp only [State.owned, List.flatMap_append, List.flatMap_cons, List.flatMap_nil, List.append_nil]
    rw [flatMap_congr hold, ← hlen, ← ho]
  refine ⟨?_, ?_, ?_⟩
  · intro u hu
    rcases List.mem_append.mp hu with hu | hu
    · rcases hs.held u hu with ⟨c, hc⟩ | hg
      · obtain ⟨c', h, -⟩ := reads_keeps hk' hc nofun; exact .inl ⟨c', h⟩
      · exact .inr (gone_keeps hk' hg)
    · obtain rfl : u = ⟨k, v⟩ := by simpa using hu
      exact .inl ⟨c, hr⟩
  · rw [hown, List.nodup_append]
    refine ⟨hs.once, List.nodup_range', ?_⟩
    rintro i hi j hj rfl
    have := owned_lt hs hi
    rw [List.mem_range'_1] at hj
    omega
  · intro i
    rw [hown, List.mem_append, List.mem_range'_1]
    show (h1 ++ new)[i]?.join.isSome ↔ _
    by_cases hi : i < h1.length
    · rw [List.getElem?_append_left hi, hsome, hs.exact]
      constructor
      · exact .inl
      · rintro (h | h)
        · exact h
        · omega
    · rw [List.getElem?_append_right (by omega)]
      constructor
      · intro h
        right
        have : i - h1.length < new.length := by
          by_contra hlt
          rw [List.getElem?_eq_none (by omega)] at h; simp at h
        omega
      · rintro (h | h)
        · have := owned_lt hs h; omega
        · have hlt : i - h1.length < new.length := by omega
          rw [List.getElem?_eq_getElem hlt]
          have := hn _ (List.getElem_mem hlt)
          simpa using this

theorem split_at {α : Type} {l : List α} {j : Nat} {v : α} (h : l[j]? = some v) :
    l = l.take j ++ v :: l.drop (j + 1) ∧ ∀ w, l.set j w = l.take j ++ w :: l.drop (j + 1) := by
  obtain ⟨hlt, rfl⟩ := List.getElem?_eq_some_iff.mp h
  refine ⟨?_, fun w => List.set_eq_take_append_cons_drop .. |>.trans (if_pos hlt)⟩
  have := List.set_eq_take_append_cons_drop (l := l) (i := j) (a := l[j])
  rw [if_pos hlt, List.set_getElem_self] at this
  exact this

theorem sound_delete {W : Build} {s : State} (hs : Sound W s) {j : Nat} {v : Var} (hv : s.vars[j]? = some v)
    (ha : Allowed s (.delete j)) :
    ∃ s', s.step W (.delete j) = .next s' ∧ Sound W s' ∧ s'.heap = clear s.heap (KC.Spec.C.owned s.heap v.kind v.val) ∧
      (∃ v', s'.vars = s.vars.set j ⟨v.kind, v'⟩ ∧ Gone s'.heap v.kind v') := by
  have hm : v ∈ s.vars := List.mem_of_getElem? hv
  have ha := ha v hv
  obtain ⟨hsplit, hset⟩ := split_at hv
  have hown : s.owned = (s.vars.take j).flatMap (fun v => KC.Spec.C.owned s.heap v.kind v.val) ++ KC.Spec.C.owned s.heap v.kind v.val ++
      (s.vars.drop (j + 1)).flatMap (fun v => KC.Spec.C.owned s.heap v.kind v.val) := by
    rw [State.owned]
    conv => lhs; rw [hsplit]
    simp
  have hnd := hs.once
  rw [hown] at hnd
  obtain ⟨n1, n2, n3⟩ := List.nodup_append.mp hnd
  obtain ⟨n4, n5, n6⟩ := List.nodup_append.mp n1
  -- the deletion
  have hdel : ∃ v', delete W v.kind v.val s.heap = .ok v' (clear s.heap (KC.Spec.C.owned s.heap v.kind v.val)) ∧
      Gone (clear s.heap (KC.Spec.C.owned s.heap v.kind v.val)) v.kind v' := by
    rcases hs.held v hm with ⟨c, hc⟩ | hg
    · refine delete_reads hc n5 ?_
      intro n hn
      have hn : v = ⟨.networks, n⟩ := hn
      subst hn
      rcases ha with ha | ha
      · exact ha
      · obtain ⟨-, ⟨-, h⟩ | ⟨-, i, h, -⟩⟩ := hc
        all_goals rw [show NetworksPtr.ptr n = _ from h] at ha; cases ha
    · by_cases hk : v.kind = .text
      · rcases v with ⟨kv, v⟩
        obtain rfl : kv = .text := hk
        obtain ⟨i, hvi, hi⟩ := hg
        have ha : isLive s.heap v = true := ha
        have hvi : v = .to i := hvi
        rw [hvi] at ha
        simp only [isLive, hi] at ha
        simp at ha
      · rw [gone_owned hg, clear_nil]
        exact ⟨v.val, delete_gone hg hk, hg⟩
  obtain ⟨v', d1, d2⟩ := hdel
  have hk := Keeps.clear s.heap (KC.Spec.C.owned s.heap v.kind v.val)
  have hother : ∀ u ∈ s.vars.take j ++ s.vars.drop (j + 1), (∀ i ∈ KC.Spec.C.owned s.heap u.kind u.val, i ∉ KC.Spec.C.owned s.heap v.kind v.val) := by
    intro u hu i hi hi'
    rcases List.mem_append.mp hu with hu | hu
    · exact n6 i (List.mem_flatMap.mpr ⟨u, hu, hi⟩) i hi' rfl
    · exact n3 i (List.mem_append_right _ hi') i (List.mem_flatMap.mpr ⟨u, hu, hi⟩) rfl
  have hmem : ∀ u ∈ s.vars.take j ++ s.vars.drop (j + 1), u ∈ s.vars := by
    intro u hu
    rcases List.mem_append.mp hu with hu | hu
    exacts [List.mem_of_mem_take hu, List.mem_of_mem_drop hu]
  have hold : ∀ u ∈ s.vars.take j ++ s.vars.drop (j + 1),
      KC.Spec.C.owned (clear s.heap (KC.Spec.C.owned s.heap v.kind v.val)) u.kind u.val = KC.Spec.C.owned s.heap u.kind u.val := by
    intro u hu
    rcases hs.held u (hmem u hu) with ⟨c, hc⟩ | hg
    · obtain ⟨-, -, -, h⟩ := reads_keeps hk hc (hother u hu); exact h
    · rw [gone_owned hg, gone_owned (gone_keeps hk hg)]
  have hown' : State.owned ⟨clear s.heap (KC.Spec.C.owned s.heap v.kind v.val), s.vars.set j ⟨v.kind, v'⟩⟩ =
      (s.vars.take j).flatMap (fun v => KC.Spec.C.owned s.heap v.kind v.val) ++
      (s.vars.drop (j + 1)).flatMap (fun v => KC.Spec.C.owned s.heap v.kind v.val) := by
    simp only [State.owned]
    rw [hset, List.flatMap_append, List.flatMap_cons, gone_owned d2, List.nil_append,
      flatMap_congr fun u hu => hold u (List.mem_append_left _ hu), flatMap_congr fun u hu => hold u (List.mem_append_right _ hu)]
  refine ⟨⟨clear s.heap (KC.Spec.C.owned s.heap v.kind v.val), s.vars.set j ⟨v.kind, v'⟩⟩, ?_, ⟨?_, ?_, ?_⟩, rfl, v', rfl, d2⟩
  · simp only [State.step, hv, d1]
  · intro u hu
    rw [hset] at hu
    have hu : u = ⟨v.kind, v'⟩ ∨ u ∈ s.vars.take j ++ s.vars.drop (j + 1) := by
      rcases List.mem_append.mp hu with hu | hu
      · exact .inr (List.mem_append_left _ hu)
      · rcases List.mem_cons.mp hu with hu | hu
        · exact .inl hu
        · exact .inr (List.mem_append_right _ hu)
    rcases hu with rfl | hu
    · exact .inr d2
    · rcases hs.held u (hmem u hu) with ⟨c, hc⟩ | hg
      · obtain ⟨c', h, -⟩ := reads_keeps hk hc (hother u hu); exact .inl ⟨c', h⟩
      · exact .inr (gone_keeps hk hg)
  · rw [hown', List.nodup_append]
    exact ⟨n4, n2, fun a ha b hb => n3 a (List.mem_append_left _ ha) b hb⟩
  · intro i
    rw [hown']
    have hex := hs.exact i
    rw [hown, List.mem_append, List.mem_append] at hex
    rw [List.mem_append]
    show (clear s.heap _)[i]?.join.isSome ↔ _
    rw [clear_get]
    by_cases hi : i ∈ KC.Spec.C.owned s.heap v.kind v.val
    · rw [if_pos hi]
      constructor
      · intro h
        cases hg : s.heap[i]? <;> rw [hg] at h <;> simp at h
      · rintro (h | h)
        · exact absurd rfl (n6 i h i hi)
        · exact absurd rfl (n3 i (List.mem_append_right _ hi) i h)
    · rw [if_neg hi, hex]
      constructor
      · rintro ((h | h) | h)
        · exact .inl h
        · exact absurd h hi
        · exact .inr h
      · rintro (h | h)
        · exact .inl (.inl h)
        · exact .inr h

theorem sound_call {W : Build} {s : State} (hs : Sound W s) {k : Kind} (f : Fn k) (x : Ctx) (j : Nat) (val : Val k) (err : ErrorPtr) :
    (∃ s' v, s.step W (.call k f x j val err) = .next s' ∧ s'.vars = s.vars ++ [v] ∧ Sound W s' ∧ Keeps [] s.heap s'.heap) ∨
    s.step W (.call k f x j val err) = .unwound := by
  obtain ⟨t, ht⟩ := sound_names hs f j
  have h1 := call_ends x val err ht
  have hk := Keeps.withRng ht ((f.lib W x t).run t.rng).2 (run_poisoned _)
  have hlen := withRng_length s.heap t (s.handle f.handle j) ((f.lib W x t).run t.rng).2
  have hsome := withRng_isSome ht ((f.lib W x t).run t.rng).2
  simp only [State.step]
  generalize f.call W x (s.handle f.handle j) val err s.heap = o at h1 ⊢
  cases h1 with
  | good c v new q1 q2 q3 q4 q5 =>
    exact .inl ⟨_, _, rfl, rfl, sound_new hs hk hlen hsome q3 q4 q5, hk.trans (Keeps.append _ _)⟩
  | bad e ty str b q1 q2 q3 =>
    exact .inl ⟨_, _, rfl, rfl, sound_new hs hk hlen hsome q1 (by rw [q2]; rfl) (by simp), hk.trans (Keeps.append _ _)⟩
  | unwind q => exact .inr rfl

theorem sound_step {W : Build} {s : State} (hs : Sound W s) (op : Op) (ha : Allowed s op) :
    (∃ s', s.step W op = .next s' ∧ Sound W s') ∨ s.step W op = .unwound := by
  cases op with
  | call k f x j val err =>
    rcases sound_call hs f x j val err with ⟨s', v, h1, -, h2, -⟩ | h
    · exact .inl ⟨s', h1, h2⟩
    · exact .inr h
  | delete j =>
    cases hv : s.vars[j]? with
    | none => exact .inl ⟨s, by simp only [State.step, hv], hs⟩
    | some v =>
      obtain ⟨s', h1, h2, -⟩ := sound_delete hs hv ha
      exact .inl ⟨s', h1, h2⟩

theorem sound_run {W : Build} (ops : List Op) {s : State} (hs : Sound W s) (hf : Follows W ops s) :
    (∃ s', s.run W ops = .next s' ∧ Sound W s') ∨ s.run W ops = .unwound := by
  induction ops generalizing s with
  | nil => exact .inl ⟨s, rfl, hs⟩
  | cons op ops ih =>
    rcases sound_step hs op hf.1 with ⟨s', h1, h2⟩ | h
    · simp only [State.run, h1]
      exact ih h2 (hf.2 s' h1)
    · simp only [State.run, h]
      exact .inr trivial

end KC.C
