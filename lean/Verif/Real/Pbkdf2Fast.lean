import Verif.Real.Hmac
/-
PBKDF2 with HMAC-SHA512 on words instead of bytes, so that the kernel can evaluate 2048 rounds in reasonable time. Everything here is proved
equal to `pbkdf2` (Verif/Real/Hmac.lean); it is only used to evaluate concrete cases.
-/
namespace KC.Real

/-! ### Words and bytes -/

/-- The eight words as bytes. -/
def Eight.bytes (s : Eight) : Bytes := s.toList.flatMap (Bytes.beBytes 8)

/-- Every word fits. -/
def Eight.Fits (s : Eight) : Prop := ∀ x ∈ s.toList, x < 2 ^ 64

/-- Combination, word by word. -/
def Eight.xor (s t : Eight) : Eight :=
  ⟨s.a ^^^ t.a, s.b ^^^ t.b, s.c ^^^ t.c, s.d ^^^ t.d, s.e ^^^ t.e, s.f ^^^ t.f, s.g ^^^ t.g, s.h ^^^ t.h⟩

theorem Eight.bytes_length (s : Eight) : s.bytes.length = 64 := by
  simp [Eight.bytes, Eight.toList, List.flatMap, Bytes.beBytes_length]

theorem xorBytes_append (a b c d : Bytes) (h : a.length = c.length) : xorBytes (a ++ b) (c ++ d) = xorBytes a c ++ xorBytes b d := by
  simp only [xorBytes]
  exact List.zipWith_append h

theorem xor_beBytes (n x y : Nat) : xorBytes (Bytes.beBytes n x) (Bytes.beBytes n y) = Bytes.beBytes n (x ^^^ y) := by
  induction n generalizing x y with
  | zero => rfl
  | succ n ih =>
    simp only [Bytes.beBytes]
    rw [xorBytes_append _ _ _ _ (by simp [Bytes.beBytes_length]), ih]
    congr 1
    · congr 1
      rw [show (256 : Nat) = 2 ^ 8 from rfl, Nat.xor_div_two_pow]
    · simp only [xorBytes, List.zipWith_cons_cons, List.zipWith_nil_left]
      congr 1
      apply UInt8.toNat_inj.mp
      simp only [UInt8.toNat_xor, UInt8.toNat_ofNat']
      rw [Nat.xor_mod_two_pow]

theorem xor_bytes (s t : Eight) : xorBytes s.bytes t.bytes = (s.xor t).bytes := by
  have h : ∀ x y : Nat, (Bytes.beBytes 8 x).length = (Bytes.beBytes 8 y).length := fun x y => by simp [Bytes.beBytes_length]
  simp only [Eight.bytes, Eight.toList, Eight.xor, List.flatMap_cons, List.flatMap_nil, List.append_nil]
  rw [xorBytes_append _ _ _ _ (h _ _), xorBytes_append _ _ _ _ (h _ _), xorBytes_append _ _ _ _ (h _ _), xorBytes_append _ _ _ _ (h _ _),
    xorBytes_append _ _ _ _ (h _ _), xorBytes_append _ _ _ _ (h _ _), xorBytes_append _ _ _ _ (h _ _)]
  simp only [xor_beBytes]

theorem words_cons (n x : Nat) (rest : Bytes) (hx : x < 2 ^ 64) : words 8 (n + 1) (Bytes.beBytes 8 x ++ rest) = x :: words 8 n rest := by
  have hl : (Bytes.beBytes 8 x).length = 8 := Bytes.beBytes_length _ _
  rw [words, force_eq, List.take_left' hl, List.drop_left' hl, Bytes.beNat_eq, Bytes.be_beBytes]
  congr 1
  exact Nat.mod_eq_of_lt hx

/-! ### One block after a block of key -/

/-- The state after a block of eight words, when one block came before: the block is filled up as FIPS 180-4, section 5.1, has it. -/
def inner (s u : Eight) : Eight :=
  block512 s [u.a, u.b, u.c, u.d, u.e, u.f, u.g, u.h, 0x8000000000000000, 0, 0, 0, 0, 0, 0, 1536]

theorem Eight.sum_fits (s r : Eight) : (Eight.sum (2 ^ 64) s r).Fits := by
  intro x hx
  simp only [Eight.sum, force_eq, Eight.toList, List.mem_cons, List.not_mem_nil, or_false] at hx
  rcases hx with rfl | rfl | rfl | rfl | rfl | rfl | rfl | rfl <;> exact Nat.mod_lt _ (by decide)

theorem inner_fits (s u : Eight) : (inner s u).Fits := Eight.sum_fits _ _

theorem sha512_two (key : Bytes) (hk : key.length = 128) (u : Eight) (hu : u.Fits) :
    sha512 (key ++ u.bytes) = (inner (block512 iv512 (words 8 16 key)) u).bytes := by
  have hl : (key ++ u.bytes).length = 192 := by rw [List.length_append, hk, u.bytes_length]
  have hpad : pad512 (key ++ u.bytes) = key ++ (u.bytes ++ ([0x80] ++ List.replicate 47 0 ++ Bytes.beBytes 16 1536)) := by
    rw [pad512, hl]; simp
  have hlen : (pad512 (key ++ u.bytes)).length = 256 := by
    rw [hpad]; simp [hk, u.bytes_length, Bytes.beBytes_length]
  have hw : words 8 16 (key ++ (u.bytes ++ ([0x80] ++ List.replicate 47 0 ++ Bytes.beBytes 16 1536))) = words 8 16 key := by
    have h : ∀ n (a b : Bytes), 8 * n ≤ a.length → words 8 n (a ++ b) = words 8 n a := by
      intro n
      induction n with
      | zero => intros; rfl
      | succ n ih =>
        intro a b h
        rw [words, words, force_eq, force_eq, List.take_append_of_le_length (by omega), List.drop_append_of_le_length (by omega),
          ih _ _ (by rw [List.length_drop]; omega)]
    exact h 16 _ _ (by omega)
  have htail : ([0x80] ++ List.replicate 47 0 ++ Bytes.beBytes 16 1536 : Bytes) = Bytes.beBytes 8 0x8000000000000000 ++ (Bytes.beBytes 8 0 ++
      (Bytes.beBytes 8 0 ++ (Bytes.beBytes 8 0 ++ (Bytes.beBytes 8 0 ++ (Bytes.beBytes 8 0 ++ (Bytes.beBytes 8 0 ++ Bytes.beBytes 8 1536)))))) := by
    decide +kernel
  have hb : words 8 16 (u.bytes ++ ([0x80] ++ List.replicate 47 0 ++ Bytes.beBytes 16 1536)) =
      [u.a, u.b, u.c, u.d, u.e, u.f, u.g, u.h, 0x8000000000000000, 0, 0, 0, 0, 0, 0, 1536] := by
    have f : ∀ x ∈ u.toList, x < 2 ^ 64 := hu
    simp only [Eight.toList, List.mem_cons, List.not_mem_nil, or_false, forall_eq_or_imp, forall_eq] at f
    obtain ⟨fa, fb, fc, fd, fe, ff, fg, fh⟩ := f
    have hlast : words 8 1 (Bytes.beBytes 8 1536) = [1536] := by decide +kernel
    rw [htail]
    simp only [Eight.bytes, Eight.toList, List.flatMap_cons, List.flatMap_nil, List.append_nil, List.append_assoc]
    rw [words_cons _ _ _ fa, words_cons _ _ _ fb, words_cons _ _ _ fc, words_cons _ _ _ fd, words_cons _ _ _ fe, words_cons _ _ _ ff,
      words_cons _ _ _ fg, words_cons _ _ _ fh, words_cons _ _ _ (by decide), words_cons _ _ _ (by decide), words_cons _ _ _ (by decide),
      words_cons _ _ _ (by decide), words_cons _ _ _ (by decide), words_cons _ _ _ (by decide), words_cons _ _ _ (by decide), hlast]
  rw [sha512, hlen, hpad, show 256 / 128 = 2 from rfl]
  simp only [blocks512]
  rw [hw, List.drop_left' hk, hb]
  rfl

/-! ### The rounds of PBKDF2 -/

/-- `n` rounds: the last value and the combination of all. -/
def loop (si so : Eight) : Nat → Eight → Eight → Eight × Eight
  | 0, u, t => (u, t)
  | n + 1, u, t => loop si so n (inner so (inner si u)) (t.xor (inner so (inner si u)))

theorem loop_add (si so : Eight) (m n : Nat) (u t : Eight) :
    loop si so (m + n) u t = loop si so n (loop si so m u t).1 (loop si so m u t).2 := by
  induction m generalizing u t with
  | zero => rw [Nat.zero_add]; rfl
  | succ m ih => rw [Nat.succ_add]; simp only [loop]; exact ih _ _

/-- The states after the key. -/
def keyIn (p : Bytes) : Eight := block512 iv512 (words 8 16 ((hmacPad p).map (· ^^^ 0x36)))
def keyOut (p : Bytes) : Eight := block512 iv512 (words 8 16 ((hmacPad p).map (· ^^^ 0x5c)))

theorem hmacPad_len (p : Bytes) : (hmacPad p).length = 128 := by
  simp only [hmacPad, List.length_append, List.length_replicate]
  by_cases h : p.length > 128
  · rw [if_pos h, sha512_len]
  · rw [if_neg h]; omega

theorem hmac_words (p : Bytes) (u : Eight) (hu : u.Fits) : hmacSha512 p u.bytes = (inner (keyOut p) (inner (keyIn p) u)).bytes := by
  rw [hmacSha512, sha512_two _ (by rw [List.length_map, hmacPad_len]) _ hu, sha512_two _ (by rw [List.length_map, hmacPad_len]) _ (inner_fits _ _)]
  rfl

theorem pbkdf2Loop_words (p : Bytes) (n : Nat) (u t : Eight) (hu : u.Fits) :
    pbkdf2Loop p n u.bytes t.bytes = (loop (keyIn p) (keyOut p) n u t).2.bytes := by
  induction n generalizing u t with
  | zero => rfl
  | succ n ih =>
    rw [pbkdf2Loop, hmac_words p u hu, xor_bytes, ih _ _ (inner_fits _ _)]
    rfl

/-! ### For the kernel -/

/-- `f n`, with `n` evaluated first. -/
noncomputable def force' {α : Type} (n : Nat) (f : Nat → α) : α := Nat.rec (f 0) (fun m _ => f (Nat.succ m)) n

theorem force'_eq {α : Type} (n : Nat) (f : Nat → α) : force' n f = f n := by cases n <;> rfl

/-- `rotr 64 n` with `m = 64 - n`. -/
def rot (n m x : Nat) : Nat := Nat.lor (Nat.shiftRight x n) (Nat.mod (Nat.shiftLeft x m) 18446744073709551616)

abbrev Rounds : Type := Nat → Nat → Nat → Nat → Nat → Nat → Nat → Nat → Nat → Nat → Nat → Nat → Nat → Nat → Nat → Nat →
    Nat → Nat → Nat → Nat → Nat → Nat → Nat → Nat → Eight

/-- `rounds512`, with the operations written in the form the kernel computes with. -/
noncomputable def fastRounds (ks : List Nat) : Rounds :=
  List.rec (motive := fun _ => Rounds)
   (fun _ _ _ _ _ _ _ _ _ _ _ _ _ _ _ _ a b c d e f g h => ⟨a, b, c, d, e, f, g, h⟩)
   (fun k _ ih w0 w1 w2 w3 w4 w5 w6 w7 w8 w9 w10 w11 w12 w13 w14 w15 a b c d e f g h =>
    force' (Nat.mod (Nat.add (Nat.add (Nat.add (Nat.xor (Nat.xor (rot 19 45 w14) (rot 61 3 w14)) (Nat.shiftRight w14 6)) w9)
       (Nat.xor (Nat.xor (rot 1 63 w1) (rot 8 56 w1)) (Nat.shiftRight w1 7))) w0) 18446744073709551616) fun w16 =>
    force' (Nat.add (Nat.add (Nat.add (Nat.add h (Nat.xor (Nat.xor (rot 14 50 e) (rot 18 46 e)) (rot 41 23 e)))
       (Nat.xor (Nat.land e f) (Nat.land (Nat.sub 18446744073709551615 e) g))) k) w0) fun t1 =>
    force' (Nat.mod (Nat.add d t1) 18446744073709551616) fun e' =>
    force' (Nat.mod (Nat.add (Nat.add t1 (Nat.xor (Nat.xor (rot 28 36 a) (rot 34 30 a)) (rot 39 25 a)))
         (Nat.xor (Nat.xor (Nat.land a b) (Nat.land a c)) (Nat.land b c))) 18446744073709551616) fun a' =>
    ih w1 w2 w3 w4 w5 w6 w7 w8 w9 w10 w11 w12 w13 w14 w15 w16 a' a b c e' e f g) ks

theorem rot_eq (n m x : Nat) (h : m = 64 - n) : rot n m x = rotr 64 n x := by subst h; rfl

theorem fastRounds_eq (ks : List Nat) : fastRounds ks = rounds512 ks := by
  induction ks with
  | nil => rfl
  | cons k ks ih =>
    funext w0 w1 w2 w3 w4 w5 w6 w7 w8 w9 w10 w11 w12 w13 w14 w15 a b c d e f g h
    rw [rounds512, ← ih]
    simp only [force_eq]
    simp only [fastRounds, force'_eq, rot_eq _ _ _ (show 45 = 64 - 19 from rfl), rot_eq _ _ _ (show 3 = 64 - 61 from rfl),
      rot_eq _ _ _ (show 63 = 64 - 1 from rfl), rot_eq _ _ _ (show 56 = 64 - 8 from rfl), rot_eq _ _ _ (show 50 = 64 - 14 from rfl),
      rot_eq _ _ _ (show 46 = 64 - 18 from rfl), rot_eq _ _ _ (show 23 = 64 - 41 from rfl), rot_eq _ _ _ (show 36 = 64 - 28 from rfl),
      rot_eq _ _ _ (show 30 = 64 - 34 from rfl), rot_eq _ _ _ (show 25 = 64 - 39 from rfl)]
    rfl

/-- `Eight.sum (2 ^ 64)`, handed on when evaluated. -/
noncomputable def fastSum {α : Type} (s r : Eight) (k : Eight → α) : α :=
  force' (Nat.mod (Nat.add s.a r.a) 18446744073709551616) fun a =>
  force' (Nat.mod (Nat.add s.b r.b) 18446744073709551616) fun b =>
  force' (Nat.mod (Nat.add s.c r.c) 18446744073709551616) fun c =>
  force' (Nat.mod (Nat.add s.d r.d) 18446744073709551616) fun d =>
  force' (Nat.mod (Nat.add s.e r.e) 18446744073709551616) fun e =>
  force' (Nat.mod (Nat.add s.f r.f) 18446744073709551616) fun f =>
  force' (Nat.mod (Nat.add s.g r.g) 18446744073709551616) fun g =>
  force' (Nat.mod (Nat.add s.h r.h) 18446744073709551616) fun h => k ⟨a, b, c, d, e, f, g, h⟩

/-- `Eight.xor`, handed on when evaluated. -/
noncomputable def fastXor {α : Type} (s r : Eight) (k : Eight → α) : α :=
  force' (Nat.xor s.a r.a) fun a => force' (Nat.xor s.b r.b) fun b => force' (Nat.xor s.c r.c) fun c => force' (Nat.xor s.d r.d) fun d =>
  force' (Nat.xor s.e r.e) fun e => force' (Nat.xor s.f r.f) fun f => force' (Nat.xor s.g r.g) fun g => force' (Nat.xor s.h r.h) fun h =>
  k ⟨a, b, c, d, e, f, g, h⟩

noncomputable def fastInner {α : Type} (s u : Eight) (k : Eight → α) : α :=
  fastSum s (fastRounds k512 u.a u.b u.c u.d u.e u.f u.g u.h 9223372036854775808 0 0 0 0 0 0 1536 s.a s.b s.c s.d s.e s.f s.g s.h) k

theorem fastInner_eq {α : Type} (s u : Eight) (k : Eight → α) : fastInner s u k = k (inner s u) := by
  rw [fastInner, fastRounds_eq, fastSum]
  simp only [force'_eq]
  rw [inner, block512, Eight.sum]
  simp only [force_eq]
  rfl

theorem fastXor_eq {α : Type} (s u : Eight) (k : Eight → α) : fastXor s u k = k (s.xor u) := by
  rw [fastXor]
  simp only [force'_eq]
  rfl

def Eight.beq (s t : Eight) : Bool :=
  Nat.beq s.a t.a && Nat.beq s.b t.b && Nat.beq s.c t.c && Nat.beq s.d t.d && Nat.beq s.e t.e && Nat.beq s.f t.f && Nat.beq s.g t.g &&
    Nat.beq s.h t.h

theorem Eight.eq_of_beq {s t : Eight} (h : s.beq t = true) : s = t := by
  simp only [Eight.beq, Bool.and_eq_true, Nat.beq_eq] at h
  obtain ⟨⟨⟨⟨⟨⟨⟨h1, h2⟩, h3⟩, h4⟩, h5⟩, h6⟩, h7⟩, h8⟩ := h
  cases s; cases t
  simp only at h1 h2 h3 h4 h5 h6 h7 h8
  subst h1 h2 h3 h4 h5 h6 h7 h8
  rfl

/-- Do `n` rounds end with these values? -/
noncomputable def fastLoop (si so u' t' : Eight) (n : Nat) : Eight → Eight → Bool :=
  Nat.rec (motive := fun _ => Eight → Eight → Bool) (fun u t => Eight.beq u u' && Eight.beq t t')
    (fun _ ih u t => fastInner si u fun v => fastInner so v fun w => fastXor t w fun t => ih w t) n

theorem loop_of_fast {si so u' t' : Eight} {n : Nat} {u t : Eight} (h : fastLoop si so u' t' n u t = true) :
    loop si so n u t = (u', t') := by
  induction n generalizing u t with
  | zero =>
    have h : (Eight.beq u u' && Eight.beq t t') = true := h
    rw [Bool.and_eq_true] at h
    rw [loop, Eight.eq_of_beq h.1, Eight.eq_of_beq h.2]
  | succ n ih =>
    rw [loop]
    apply ih
    have e : fastLoop si so u' t' (n + 1) u t =
      fastInner si u fun v => fastInner so v fun w => fastXor t w fun t => fastLoop si so u' t' n w t := rfl
    rw [e, fastInner_eq, fastInner_eq, fastXor_eq] at h
    exact h

end KC.Real
