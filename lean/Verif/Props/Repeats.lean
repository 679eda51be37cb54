import Verif.Props.Tamper
import Verif.Props.Random
/-
C93: what a random source that repeats itself gives away, with ChaCha20-Poly1305 itself.
-/
namespace KC.Real.Chacha

theorem stream_add (key nonce : Bytes) (c m n : Nat) : ∃ rest, stream key nonce c (m + n) = stream key nonce c m ++ rest := by
  refine ⟨(List.range n).flatMap fun i => block key nonce (c + (m + i)), ?_⟩
  rw [stream, List.range_add, List.flatMap_append, List.flatMap_map, stream]

/-- Where two ciphertexts under one key and nonce overlap, their difference is that of the plaintexts. -/
theorem crypt_xor (key nonce a b : Bytes) :
    List.zipWith (· ^^^ ·) (crypt key nonce a) (crypt key nonce b) = List.zipWith (· ^^^ ·) a b := by
  obtain ⟨n, hn⟩ : ∃ n, n = (a.length + 63) / 64 + (b.length + 63) / 64 := ⟨_, rfl⟩
  have hs : ∀ x : Bytes, (x.length + 63) / 64 ≤ n → crypt key nonce x = List.zipWith (· ^^^ ·) x (stream key nonce 1 n) := by
    intro x hx
    obtain ⟨rest, hr⟩ := stream_add key nonce 1 ((x.length + 63) / 64) (n - (x.length + 63) / 64)
    rw [Nat.add_sub_cancel' hx] at hr
    apply List.ext_getElem?
    intro i
    rw [crypt, hr, List.getElem?_zipWith, List.getElem?_zipWith]
    by_cases hi : i < x.length
    · rw [List.getElem?_append_left (by rw [stream_len]; omega)]
    · rw [List.getElem?_eq_none (by omega : x.length ≤ i)]
  rw [hs a (by omega), hs b (by omega)]
  have hla : a.length ≤ (stream key nonce 1 n).length := by rw [stream_len]; omega
  have hlb : b.length ≤ (stream key nonce 1 n).length := by rw [stream_len]; omega
  generalize stream key nonce 1 n = s at hla hlb
  clear hs hn
  induction s generalizing a b with
  | nil =>
    have : a = [] := List.eq_nil_of_length_eq_zero (by simpa using hla)
    subst this; rfl
  | cons z s ih =>
    cases a with
    | nil => rfl
    | cons x a =>
      cases b with
      | nil => rfl
      | cons y b =>
        simp only [List.zipWith_cons_cons, List.cons.injEq]
        refine ⟨?_, ih a b (by simpa using hla) (by simpa using hlb)⟩
        rw [UInt8.xor_assoc, UInt8.xor_comm y z, ← UInt8.xor_assoc z z y, UInt8.xor_self, UInt8.zero_xor]

/-- The tag that goes with `c`, if the secret point is `r` and `t0` goes with `c0`. -/
def tagAt (c0 t0 c : Bytes) (r : Nat) : Bytes :=
  (Bytes.beBytes 16 ((polyLoop r (blocks (macData c)) (macData c) 0 +
    (2 ^ 128 - polyLoop r (blocks (macData c0)) (macData c0) 0 % 2 ^ 128 + le t0)) % 2 ^ 128)).reverse

theorem tag_at (key nonce c0 c : Bytes) : tag key nonce c = tagAt c0 (tag key nonce c0) c (rOf (block key nonce 0)) := by
  rw [tagAt, tag_eq key nonce c0, le_poly1305, rOf_take, tag_eq, poly1305]
  rw [show le (((block key nonce 0).take 32).take 16) &&& 0x0ffffffc0ffffffc0ffffffc0fffffff = rOf (block key nonce 0) from rOf_take _]
  congr 2
  show (polyLoop _ (blocks (macData c)) (macData c) 0 + _) % _ = _
  generalize polyLoop _ (blocks (macData c)) (macData c) 0 = q
  generalize polyLoop _ (blocks (macData c0)) (macData c0) 0 = q0
  generalize le _ = s
  omega

end KC.Real.Chacha

namespace KC.Props
open KC.Crypt (decrypt encrypt)
open KC.Spec.Crypt
open KC.Spec.Wallet (Delivers)

theorem open_parts {blob d : Bytes} {password : Str} (h : decrypt Real.hashes Real.aead blob password = .ok d) :
    Parts blob (blob.take 32) ((blob.drop 32).take 12) ((blob.drop 44).take 16) (blob.drop 60) ∧ blob.drop 60 ≠ [] := by
  have hl := C33_length Real.hashes Real.aead blob d password h
  have hd := List.length_pos_iff.mpr hl.2
  refine ⟨⟨?_, by rw [List.length_take]; omega, by rw [List.length_take, List.length_drop]; omega,
    by rw [List.length_take, List.length_drop]; omega⟩, fun e => ?_⟩
  · conv_lhs => rw [← List.take_append_drop 32 blob, ← List.take_append_drop 12 (blob.drop 32),
      ← List.take_append_drop 16 ((blob.drop 32).drop 12)]
    simp only [List.drop_drop]
  · have := congrArg List.length e
    rw [List.length_drop, List.length_nil] at this
    omega

theorem take_parts {a b : Bytes} (h : a.take 44 = b.take 44) : a.take 32 = b.take 32 ∧ (a.drop 32).take 12 = (b.drop 32).take 12 := by
  constructor
  · have := congrArg (List.take 32) h
    rwa [List.take_take, List.take_take] at this
  · have := congrArg (List.drop 32) h
    simpa only [List.drop_take] using this

/-- C93: of two blobs that begin with the same 44 bytes and open with the same password, the rest shows the difference of the contents. -/
theorem C93_xor (a b da db : Bytes) (password : Str) (h : a.take 44 = b.take 44)
    (ha : decrypt Real.hashes Real.aead a password = .ok da) (hb : decrypt Real.hashes Real.aead b password = .ok db) :
    List.zipWith (· ^^^ ·) da db = List.zipWith (· ^^^ ·) (a.drop 60) (b.drop 60) := by
  obtain ⟨pa, ea⟩ := open_parts ha
  obtain ⟨pb, eb⟩ := open_parts hb
  obtain ⟨h1, h2⟩ := take_parts h
  obtain ⟨-, rfl⟩ := (real_opens pa ea password da).mp ha
  obtain ⟨-, rfl⟩ := (real_opens pb eb password db).mp hb
  rw [h1, h2]
  exact Real.Chacha.crypt_xor _ _ _ _

theorem xor_back (a b : Bytes) : List.zipWith (· ^^^ ·) a (List.zipWith (· ^^^ ·) a b) = b.take a.length := by
  induction a generalizing b with
  | nil => simp
  | cons x a ih =>
    cases b with
    | nil => rfl
    | cons y b =>
      simp only [List.zipWith_cons_cons, List.length_cons, List.take_succ_cons, List.cons.injEq]
      exact ⟨by rw [← UInt8.xor_assoc, UInt8.xor_self, UInt8.zero_xor], ih b⟩

/-- C93: so whoever knows what is in one of them reads the other as far as that goes, without the password. -/
theorem C93_read (a b da db : Bytes) (password : Str) (h : a.take 44 = b.take 44)
    (ha : decrypt Real.hashes Real.aead a password = .ok da) (hb : decrypt Real.hashes Real.aead b password = .ok db) :
    db.take da.length = List.zipWith (· ^^^ ·) da (List.zipWith (· ^^^ ·) (a.drop 60) (b.drop 60)) := by
  rw [← C93_xor a b da db password h ha hb, xor_back]

/-- C93: and writes blobs with contents of its choice, up to that length, that open with the password: the two blobs leave but a few tags
to try. -/
theorem C93_forge (a b da w : Bytes) (h : a.take 44 = b.take 44) (hne : a ≠ b) (hw : w ≠ []) (hl : w.length ≤ da.length) :
    ∃ tags : Finset Bytes, tags.card ≤ 8 * ((max a.length b.length - 60 + 15) / 16 + 1) ∧
      ∀ password db, decrypt Real.hashes Real.aead a password = .ok da → decrypt Real.hashes Real.aead b password = .ok db →
        ∃ tag ∈ tags, decrypt Real.hashes Real.aead
          (a.take 44 ++ tag ++ List.zipWith (· ^^^ ·) w (List.zipWith (· ^^^ ·) da (a.drop 60))) password = .ok w := by
  classical
  obtain ⟨c, hcd⟩ : ∃ c, c = List.zipWith (· ^^^ ·) w (List.zipWith (· ^^^ ·) da (a.drop 60)) := ⟨_, rfl⟩
  rw [← hcd]
  refine ⟨(Real.Chacha.bad (Real.Chacha.macData (a.drop 60)) (Real.Chacha.macData (b.drop 60)) ((a.drop 44).take 16)
    ((b.drop 44).take 16)).image (Real.Chacha.tagAt (a.drop 60) ((a.drop 44).take 16) c), ?_, fun password db ha hb => ?_⟩
  · refine Finset.card_image_le.trans ((Real.Chacha.card_bad _ _ _ _).trans (Nat.mul_le_mul_left _ ?_))
    rw [Real.Chacha.blocks_macData, Real.Chacha.blocks_macData, List.length_drop, List.length_drop]
    omega
  obtain ⟨pa, ea⟩ := open_parts ha
  obtain ⟨pb, eb⟩ := open_parts hb
  obtain ⟨h1, h2⟩ := take_parts h
  have hla := (C33_length Real.hashes Real.aead a da password ha).1
  obtain ⟨ta, hda⟩ := (real_opens pa ea password da).mp ha
  obtain ⟨tb, -⟩ := (real_opens pb eb password db).mp hb
  rw [← h1, ← h2] at tb
  generalize hk : keyOf Real.hashes password (a.take 32) = key at ta tb hda
  have hct : a.drop 60 ≠ b.drop 60 := by
    intro e
    rw [← e, ta] at tb
    apply hne
    rw [pa.eq, pb.eq, h1, h2, tb, e]
  have hr := Real.Chacha.tag_forgery hct key ((a.drop 32).take 12)
  rw [ta, tb] at hr
  refine ⟨_, Finset.mem_image_of_mem _ hr, ?_⟩
  have htag := Real.Chacha.tag_at key ((a.drop 32).take 12) (a.drop 60) c
  rw [ta] at htag
  rw [← htag]
  have hclen : c.length = w.length := by
    rw [hcd, List.length_zipWith, List.length_zipWith, List.length_drop]; omega
  have hc0 : c ≠ [] := fun e => hw (List.eq_nil_of_length_eq_zero (by rw [← hclen, e]; rfl))
  have hp : Parts (a.take 44 ++ Real.Chacha.tag key ((a.drop 32).take 12) c ++ c) (a.take 32) ((a.drop 32).take 12)
      (Real.Chacha.tag key ((a.drop 32).take 12) c) c := by
    refine ⟨?_, pa.salt_len, pa.nonce_len, Real.Chacha.tag_len _ _ _⟩
    have : a.take 44 = a.take 32 ++ (a.drop 32).take 12 := by
      rw [show 44 = 32 + 12 from rfl, List.take_add]
    rw [this]
    simp only [List.append_assoc]
  refine (real_opens hp hc0 password w).mpr ⟨by rw [hk], ?_⟩
  rw [hk]
  -- the key stream as far as the known contents go
  have hx := Real.Chacha.crypt_xor key ((a.drop 32).take 12) (a.drop 60) c
  rw [← hda] at hx
  have hlen : (Real.Chacha.crypt key ((a.drop 32).take 12) c).length = w.length := by rw [Real.Chacha.crypt_len, hclen]
  have e1 := xor_back da (Real.Chacha.crypt key ((a.drop 32).take 12) c)
  rw [hx, List.take_of_length_le (by omega)] at e1
  rw [← e1, hcd]
  have hdl : (a.drop 60).length = da.length := by rw [List.length_drop]; omega
  generalize a.drop 60 = x at hdl
  clear * - hdl hl
  induction w generalizing da x with
  | nil => simp
  | cons p w ih =>
    cases da with
    | nil => simp at hl
    | cons q da =>
      cases x with
      | nil => simp at hdl
      | cons r x =>
        simp only [List.zipWith_cons_cons, List.cons.injEq]
        refine ⟨?_, ih da (by simpa using hl) x (by simpa using hdl)⟩
        rw [UInt8.xor_comm q r, ← UInt8.xor_assoc p r q, UInt8.xor_comm p r, UInt8.xor_assoc r p q, ← UInt8.xor_assoc r r,
          UInt8.xor_self, UInt8.zero_xor, UInt8.xor_comm p q, ← UInt8.xor_assoc, UInt8.xor_self, UInt8.zero_xor]

/-- C93: two encryptions for which the source delivered the same 44 bytes, for any data and passwords, give such blobs. -/
theorem C93_repeat {ε} (P : Hashes) (A : Aead) (data data' : Bytes) (password password' : Str) (r r' r1 r1' : Rng) (a b : Bytes)
    (ha : (encrypt P A data password : RM ε Bytes).run r = (.ok a, r1)) (hb : (encrypt P A data' password' : RM ε Bytes).run r' = (.ok b, r1'))
    (h : seg r.stream r.pos 44 = seg r'.stream r'.pos 44) : a.take 44 = b.take 44 := by
  have split : ∀ q : Rng, seg q.stream q.pos 44 = seg q.stream q.pos 32 ++ seg q.stream (q.pos + 32) 12 := by
    intro q
    rw [seg, show 44 = 32 + 12 from rfl, List.range_add, List.map_append, List.map_map, seg, seg]
    congr 1
  have hd : ∀ {x : Bytes} {q : Rng} {t c}, Parts x (seg q.stream q.pos 32) (seg q.stream (q.pos + 32) 12) t c →
      x.take 44 = seg q.stream q.pos 44 := by
    intro x q t c hp
    have e : x = seg q.stream q.pos 44 ++ (t ++ c) := by rw [hp.eq, split, List.append_assoc]
    rw [e, List.take_left' (by simp [seg])]
  obtain ⟨⟨_, _, pa⟩, -⟩ := C34_alone P A data password r r1 a ha
  obtain ⟨⟨_, _, pb⟩, -⟩ := C34_alone P A data' password' r' r1' b hb
  rw [hd pa, hd pb, h]

/-- C93: so do all calls of managers that give wallets. -/
theorem C93_calls (E : Env) (M M' : Manager) (c c' : Call) (r r' r1 r1' : Rng) (a b : Bytes)
    (ha : (c.prog E M).run r = (.ok (.blob a), r1)) (hb : (c'.prog E M').run r' = (.ok (.blob b), r1'))
    (h : seg r.stream r.pos 44 = seg r'.stream r'.pos 44) : a.take 44 = b.take 44 := by
  have key : ∀ {M : Manager} {c : Call} {r r1 : Rng} {a : Bytes}, (c.prog E M).run r = (.ok (.blob a), r1) →
      ∃ data pw, (encrypt E.H E.A data pw : RM Error Bytes).run r = (.ok a, r1) := by
    intro M c r r1 a h
    rcases call_shape E M c with ⟨x, hx, hno⟩ | ⟨data, pw, -, hx⟩ | ⟨l, hs, k, hx, hk⟩
    · rw [hx] at h
      cases h
      exact absurd rfl (hno _)
    · refine ⟨data, pw, ?_⟩
      rw [hx, KC.Crypt.encrypt_eq] at h
      rw [KC.Crypt.encrypt_eq]
      simp only [RM.mapOk, Bind.bind, RM.bind, RM.run, RM.lift] at h ⊢
      rcases h1 : r.fill 32 with ⟨_ | salt, r2⟩
      · rw [h1] at h; cases h
      rw [h1] at h
      dsimp only at h ⊢
      rcases h2 : r2.fill 12 with ⟨_ | nonce, r3⟩
      · rw [h2] at h; cases h
      rw [h2] at h
      dsimp only at h ⊢
      cases h
      rfl
    · rw [hx] at h
      simp only [RM.run] at h
      rcases h1 : r.fill (M.seedSize / 8) with ⟨_ | b, r2⟩
      · rw [h1] at h; cases h
      rw [h1] at h
      dsimp only at h
      obtain ⟨-, -, hb, -⟩ := KC.Crypt.fill_ok h1
      obtain ⟨text, -, e⟩ := hk b (by rw [hb]; simp [seg])
      rw [e] at h
      cases h
  obtain ⟨d, p, h1⟩ := key ha
  obtain ⟨d', p', h2⟩ := key hb
  exact C93_repeat E.H E.A d d' p p' r r' r1 r1' a b h1 h2 h

/-- C93: and two phrases of the same size and language, made from the same bytes of the source, are the same. -/
theorem C93_phrases (E : Env) (M M' : Manager) (hM : M.seedSize = M'.seedSize) (l : Option Mnemonic.Language) (r r' r1 r1' : Rng)
    (s s' : Str) (ha : (M.generateMnemonic E l).run r = (.ok s, r1)) (hb : (M'.generateMnemonic E l).run r' = (.ok s', r1'))
    (h : seg r.stream r.pos (M.seedSize / 8) = seg r'.stream r'.pos (M.seedSize / 8)) : s = s' := by
  have hg : M'.generateMnemonic E l = M.generateMnemonic E l := by
    unfold Manager.generateMnemonic
    rw [hM]
  rw [hg] at hb
  have run : ∀ {q q1 : Rng} {t : Str}, (M.generateMnemonic E l).run q = (.ok t, q1) →
      ((Call.generate l).prog E M).run q = (.ok (.text t), q1) := by
    intro q q1 t hq
    show (RM.mapOk Out.text (M.generateMnemonic E l)).run q = _
    rw [RM.mapOk, RM.run_bind, hq]
    rfl
  have ha := run ha
  have hb := run hb
  rcases call_shape E M (.generate l) with ⟨x, hx, hno⟩ | ⟨data, pw, -, hx⟩ | ⟨l, hs, k, hx, hk⟩
  · rw [hx] at ha
    cases ha
    exact absurd rfl (hno _)
  · rw [hx, RM.mapOk, RM.run_bind] at ha
    cases he : (encrypt E.H E.A data pw : RM Error Bytes).run r with
    | mk o q =>
      rw [he] at ha
      cases o <;> cases ha
  · rw [hx] at ha hb
    simp only [RM.run] at ha hb
    rcases h1 : r.fill (M.seedSize / 8) with ⟨_ | b, r2⟩
    · rw [h1] at ha; cases ha
    rcases h2 : r'.fill (M.seedSize / 8) with ⟨_ | b', r2'⟩
    · rw [h2] at hb; cases hb
    rw [h1] at ha
    rw [h2] at hb
    dsimp only at ha hb
    obtain ⟨-, -, e1, -⟩ := KC.Crypt.fill_ok h1
    obtain ⟨-, -, e2, -⟩ := KC.Crypt.fill_ok h2
    rw [e1] at ha
    rw [e2, ← h] at hb
    obtain ⟨text, -, e⟩ := hk (seg r.stream r.pos (M.seedSize / 8)) (by simp [seg])
    rw [e] at ha hb
    cases ha
    cases hb
    rfl

/-- C93, a case: the same source used twice, for two texts of three bytes under one password. -/
theorem C93_case (password : Str) (r : Rng) (hr : Delivers r) : ∃ a b r1,
    (encrypt Real.hashes Real.aead [1, 2, 3] password : RM Error Bytes).run r = (.ok a, r1) ∧
    (encrypt Real.hashes Real.aead [4, 5, 6] password : RM Error Bytes).run r = (.ok b, r1) ∧
    a.take 44 = b.take 44 ∧ a ≠ b ∧ List.zipWith (· ^^^ ·) (a.drop 60) (b.drop 60) = [5, 7, 5] ∧
    ∃ tags : Finset Bytes, tags.card ≤ 16 ∧ ∃ tag ∈ tags,
      decrypt Real.hashes Real.aead (a.take 44 ++ tag ++ List.zipWith (· ^^^ ·) [7, 7] (List.zipWith (· ^^^ ·) [1, 2, 3] (a.drop 60)))
        password = .ok [7, 7] := by
  obtain ⟨a, r1, ha⟩ := C32_succeeds (ε := Error) Real.hashes Real.aead [1, 2, 3] password r hr.1 hr.2.1 hr.2.2
  obtain ⟨b, r2, hb⟩ := C32_succeeds (ε := Error) Real.hashes Real.aead [4, 5, 6] password r hr.1 hr.2.1 hr.2.2
  have h1 := C32_roundtrip Real.hashes Real.aead Real.aead_correct _ (by decide) password r r1 a ha
  have h2 := C32_roundtrip Real.hashes Real.aead Real.aead_correct _ (by decide) password r r2 b hb
  have hr1 := (C34_alone _ _ _ _ _ _ _ ha).2
  have hr2 := (C34_alone _ _ _ _ _ _ _ hb).2
  have ht := C93_repeat Real.hashes Real.aead _ _ _ _ r r r1 r2 a b ha hb rfl
  have hne : a ≠ b := by
    rintro rfl
    rw [h1.1] at h2
    exact absurd h2.1 (by decide)
  obtain ⟨tags, hc, hf⟩ := C93_forge a b [1, 2, 3] [7, 7] ht hne (by decide) (by decide)
  obtain ⟨tag, hm, ho⟩ := hf password [4, 5, 6] h1.1 h2.1
  refine ⟨a, b, r1, ha, by rw [hb, hr1, hr2], ht, hne, (C93_xor a b _ _ password ht h1.1 h2.1).symm, tags, ?_, tag, hm, ho⟩
  rw [h1.2, h2.2] at hc
  exact hc

end KC.Props
