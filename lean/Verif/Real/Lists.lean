import Verif.Model.Dictionaries
import Verif.Proofs.Str
import Verif.Spec.WordLists
import Verif.Real.Sha2
/-
SHA-256 of the word lists, evaluated by the kernel.  The functions here are those of `Verif.Real.Sha2` and the UTF-8 encoding, written
so that the kernel evaluates them fast; the theorems say that they are the same.
-/
namespace KC.Real.Lists
open Spec.WordLists (lines)

/-- `force` by the recursor. -/
noncomputable def frc {α : Type} (n : Nat) (f : Nat → α) : α := Nat.rec (f 0) (fun m _ => f (Nat.succ m)) n

theorem frc_eq {α : Type} (n : Nat) (f : Nat → α) : frc n f = f n := by cases n <;> rfl

/-- `rounds256`. -/
noncomputable def rnd (ks : List Nat) : Nat → Nat → Nat → Nat → Nat → Nat → Nat → Nat → Nat → Nat → Nat → Nat → Nat → Nat → Nat → Nat → 
    Nat → Nat → Nat → Nat → Nat → Nat → Nat → Nat → Eight :=
  List.rec (motive := fun _ => Nat → Nat → Nat → Nat → Nat → Nat → Nat → Nat → Nat → Nat → Nat → Nat → Nat → Nat → Nat → Nat → 
    Nat → Nat → Nat → Nat → Nat → Nat → Nat → Nat → Eight)
  (fun _ _ _ _ _ _ _ _ _ _ _ _ _ _ _ _ a b c d e f g h => ⟨a, b, c, d, e, f, g, h⟩)
  (fun k _ ih w0 w1 w2 w3 w4 w5 w6 w7 w8 w9 w10 w11 w12 w13 w14 w15 a b c d e f g h =>
    frc (Nat.mod (Nat.add (Nat.add (Nat.add (Nat.xor (Nat.xor (Nat.lor (Nat.shiftRight w14 17) (Nat.mod (Nat.shiftLeft w14 15) 4294967296)) (Nat.lor (Nat.shiftRight w14 19) (Nat.mod (Nat.shiftLeft w14 13) 4294967296))) (Nat.shiftRight w14 10))
      w9) (Nat.xor (Nat.xor (Nat.lor (Nat.shiftRight w1 7) (Nat.mod (Nat.shiftLeft w1 25) 4294967296)) (Nat.lor (Nat.shiftRight w1 18) (Nat.mod (Nat.shiftLeft w1 14) 4294967296))) (Nat.shiftRight w1 3))) w0)
      4294967296) fun w16 =>
    frc (Nat.add (Nat.add (Nat.add (Nat.add h (Nat.xor (Nat.xor (Nat.lor (Nat.shiftRight e 6) (Nat.mod (Nat.shiftLeft e 26) 4294967296)) (Nat.lor (Nat.shiftRight e 11) (Nat.mod (Nat.shiftLeft e 21) 4294967296))) (Nat.lor (Nat.shiftRight e 25) (Nat.mod (Nat.shiftLeft e 7) 4294967296))))
      (Nat.xor (Nat.land e f) (Nat.land (Nat.sub 4294967295 e) g))) k) w0) fun t1 =>
    frc (Nat.mod (Nat.add d t1) 4294967296) fun e' =>
    frc (Nat.mod (Nat.add (Nat.add t1 (Nat.xor (Nat.xor (Nat.lor (Nat.shiftRight a 2) (Nat.mod (Nat.shiftLeft a 30) 4294967296)) (Nat.lor (Nat.shiftRight a 13) (Nat.mod (Nat.shiftLeft a 19) 4294967296))) (Nat.lor (Nat.shiftRight a 22) (Nat.mod (Nat.shiftLeft a 10) 4294967296))))
      (Nat.xor (Nat.xor (Nat.land a b) (Nat.land a c)) (Nat.land b c))) 4294967296) fun a' =>
    ih w1 w2 w3 w4 w5 w6 w7 w8 w9 w10 w11 w12 w13 w14 w15 w16 a' a b c e' e f g) ks

theorem rnd_eq (ks : List Nat) : ∀ w0 w1 w2 w3 w4 w5 w6 w7 w8 w9 w10 w11 w12 w13 w14 w15 a b c d e f g h,
    rnd ks w0 w1 w2 w3 w4 w5 w6 w7 w8 w9 w10 w11 w12 w13 w14 w15 a b c d e f g h =
    rounds256 ks w0 w1 w2 w3 w4 w5 w6 w7 w8 w9 w10 w11 w12 w13 w14 w15 a b c d e f g h := by
  induction ks with
  | nil => intros; rfl
  | cons k ks ih =>
    intros
    simp only [rounds256, force_eq]
    rw [← ih]
    simp only [rnd, frc_eq]
    rfl

/-- The next four numbers as one. -/
noncomputable def four {α : Type} (z : α) (l : List Nat) (k : Nat → List Nat → α) : α :=
  List.casesOn l z fun x l => List.casesOn l z fun y l => List.casesOn l z fun u l => List.casesOn l z fun v l =>
    frc (Nat.add (Nat.mul (Nat.add (Nat.mul (Nat.add (Nat.mul x 256) y) 256) u) 256) v) fun w => k w l

theorem four_eq {α : Type} (z : α) (b : Bytes) (h : 4 ≤ b.length) (k : Nat → List Nat → α) :
    four z (b.map UInt8.toNat) k = k (Bytes.beNat (b.take 4)) ((b.drop 4).map UInt8.toNat) := by
  obtain ⟨x, y, u, v, r, rfl⟩ : ∃ x y u v r, b = x :: y :: u :: v :: r := by
    match b, h with
    | x :: y :: u :: v :: r, _ => exact ⟨x, y, u, v, r, rfl⟩
  simp [four, frc_eq, Bytes.beNat]

/-- One block, and then `go`. -/
noncomputable def step (go : List Nat → Nat → Nat → Nat → Nat → Nat → Nat → Nat → Nat → Eight) (l : List Nat) (a b c d e f g h : Nat) : Eight :=
  four ⟨0, 0, 0, 0, 0, 0, 0, 0⟩ l fun w0 l =>
  four ⟨0, 0, 0, 0, 0, 0, 0, 0⟩ l fun w1 l =>
  four ⟨0, 0, 0, 0, 0, 0, 0, 0⟩ l fun w2 l =>
  four ⟨0, 0, 0, 0, 0, 0, 0, 0⟩ l fun w3 l =>
  four ⟨0, 0, 0, 0, 0, 0, 0, 0⟩ l fun w4 l =>
  four ⟨0, 0, 0, 0, 0, 0, 0, 0⟩ l fun w5 l =>
  four ⟨0, 0, 0, 0, 0, 0, 0, 0⟩ l fun w6 l =>
  four ⟨0, 0, 0, 0, 0, 0, 0, 0⟩ l fun w7 l =>
  four ⟨0, 0, 0, 0, 0, 0, 0, 0⟩ l fun w8 l =>
  four ⟨0, 0, 0, 0, 0, 0, 0, 0⟩ l fun w9 l =>
  four ⟨0, 0, 0, 0, 0, 0, 0, 0⟩ l fun w10 l =>
  four ⟨0, 0, 0, 0, 0, 0, 0, 0⟩ l fun w11 l =>
  four ⟨0, 0, 0, 0, 0, 0, 0, 0⟩ l fun w12 l =>
  four ⟨0, 0, 0, 0, 0, 0, 0, 0⟩ l fun w13 l =>
  four ⟨0, 0, 0, 0, 0, 0, 0, 0⟩ l fun w14 l =>
  four ⟨0, 0, 0, 0, 0, 0, 0, 0⟩ l fun w15 l =>
  Eight.casesOn (rnd k256 w0 w1 w2 w3 w4 w5 w6 w7 w8 w9 w10 w11 w12 w13 w14 w15 a b c d e f g h) fun a' b' c' d' e' f' g' h' =>
  frc (Nat.mod (Nat.add a a') 4294967296) fun a =>
  frc (Nat.mod (Nat.add b b') 4294967296) fun b =>
  frc (Nat.mod (Nat.add c c') 4294967296) fun c =>
  frc (Nat.mod (Nat.add d d') 4294967296) fun d =>
  frc (Nat.mod (Nat.add e e') 4294967296) fun e =>
  frc (Nat.mod (Nat.add f f') 4294967296) fun f =>
  frc (Nat.mod (Nat.add g g') 4294967296) fun g =>
  frc (Nat.mod (Nat.add h h') 4294967296) fun h =>
  go l a b c d e f g h

/-- `blocks256`. -/
noncomputable def blk (n : Nat) : List Nat → Nat → Nat → Nat → Nat → Nat → Nat → Nat → Nat → Eight :=
  Nat.rec (motive := fun _ => List Nat → Nat → Nat → Nat → Nat → Nat → Nat → Nat → Nat → Eight)
  (fun _ a b c d e f g h => ⟨a, b, c, d, e, f, g, h⟩) (fun _ ih => step ih) n

theorem step_eq (go : List Nat → Nat → Nat → Nat → Nat → Nat → Nat → Nat → Nat → Eight) (bs : Bytes) (a b c d e f g h : Nat) (hl : 64 ≤ bs.length) :
    step go (bs.map UInt8.toNat) a b c d e f g h =
    (let s := block256 ⟨a, b, c, d, e, f, g, h⟩ (words 4 16 bs); go ((bs.drop 64).map UInt8.toNat) s.a s.b s.c s.d s.e s.f s.g s.h) := by
  have hd : ∀ n, n ≤ 60 → 4 ≤ (bs.drop n).length := fun n h => by rw [List.length_drop]; omega
  rw [step, four_eq _ bs (hd 0 (by decide))]
  rw [four_eq _ (bs.drop 4) (hd 4 (by decide))]
  iterate 14 rw [four_eq _ (List.drop _ (List.drop _ bs)) (by simp only [List.drop_drop]; exact hd _ (by decide)), List.drop_drop]
  simp only [words, force_eq, List.drop_drop, Nat.reduceAdd, block256, ← rnd_eq, frc_eq]
  generalize rnd k256 _ _ _ _ _ _ _ _ _ _ _ _ _ _ _ _ _ _ _ _ _ _ _ _ = r
  obtain ⟨a', b', c', d', e', f', g', h'⟩ := r
  simp only [Eight.sum, force_eq]
  rfl

theorem blk_eq : ∀ (n : Nat) (bs : Bytes) (s : Eight), 64 * n ≤ bs.length →
    blk n (bs.map UInt8.toNat) s.a s.b s.c s.d s.e s.f s.g s.h = blocks256 n bs s
  | 0, _, _, _ => rfl
  | n + 1, bs, s, hl => by
    have hs : blk (n + 1) = step (blk n) := rfl
    rw [hs, step_eq _ _ _ _ _ _ _ _ _ _ (by omega), blocks256]
    exact blk_eq n (bs.drop 64) _ (by rw [List.length_drop]; omega)

theorem mod_eq (a b : Nat) : Nat.mod a b = a % b := rfl
theorem div_eq (a b : Nat) : Nat.div a b = a / b := rfl

/-- The UTF-8 encoding of a character given by its number, in front of `r`. -/
noncomputable def enc (c : Nat) (r : List Nat) : List Nat :=
  Bool.casesOn (Nat.ble 128 c) (c :: r)
    (Bool.casesOn (Nat.ble 2048 c)
      (frc (Nat.add (Nat.mod (Nat.div c 64) 32) 192) fun x => frc (Nat.add (Nat.mod c 64) 128) fun y => x :: y :: r)
      (Bool.casesOn (Nat.ble 55296 c)
        (frc (Nat.add (Nat.mod (Nat.div c 4096) 16) 224) fun x => frc (Nat.add (Nat.mod (Nat.div c 64) 64) 128) fun y =>
          frc (Nat.add (Nat.mod c 64) 128) fun z => x :: y :: z :: r)
        ((String.utf8EncodeChar (Char.ofNat c)).map UInt8.toNat ++ r)))

theorem enc_eq (c : Nat) (r : List Nat) : enc c r = (String.utf8EncodeChar (Char.ofNat c)).map UInt8.toNat ++ r := by
  have hv : c < 55296 → (Char.ofNat c).val.toNat = c := by
    intro h
    have hc : c.isValidChar := .inl h
    have : (Char.ofNat c).toNat = c := by
      rw [Char.ofNat, dif_pos hc]
      rfl
    exact this
  unfold enc
  rcases h1 : Nat.ble 128 c with - | -
  · have h : ¬ 128 ≤ c := fun h => by rw [Nat.ble_eq_true_of_le h] at h1; cases h1
    simp only [String.utf8EncodeChar, hv (by omega), show c ≤ 127 by omega, if_true, List.map_cons, List.map_nil, List.cons_append,
      List.nil_append]
    congr 1
    rw [UInt8.toNat_ofNat']
    omega
  have h1 := Nat.le_of_ble_eq_true h1
  rcases h2 : Nat.ble 2048 c with - | -
  · have h : ¬ 2048 ≤ c := fun h => by rw [Nat.ble_eq_true_of_le h] at h2; cases h2
    simp only [String.utf8EncodeChar, hv (by omega), show ¬ c ≤ 127 by omega, show c ≤ 2047 by omega, if_true, if_false, List.map_cons,
      List.map_nil, List.cons_append, List.nil_append, frc_eq, UInt8.toNat_ofNat', Nat.add_eq, mod_eq, div_eq]
    congr 1
    · omega
    · congr 1
      omega
  have h2 := Nat.le_of_ble_eq_true h2
  rcases h3 : Nat.ble 55296 c with - | -
  · have h : ¬ 55296 ≤ c := fun h => by rw [Nat.ble_eq_true_of_le h] at h3; cases h3
    simp only [String.utf8EncodeChar, hv (by omega), show ¬ c ≤ 127 by omega, show ¬ c ≤ 2047 by omega, show c ≤ 65535 by omega, if_true,
      if_false, List.map_cons, List.map_nil, List.cons_append, List.nil_append, frc_eq, UInt8.toNat_ofNat', Nat.add_eq, mod_eq,
      div_eq]
    congr 1
    · omega
    · congr 1
      · omega
      · congr 1
        omega
  · rfl

/-- The encoding of the word with the given number, in front of `r`. -/
noncomputable def word (fuel : Nat) : Nat → List Nat → List Nat :=
  Nat.rec (motive := fun _ => Nat → List Nat → List Nat) (fun _ r => r)
    (fun _ ih n r => Nat.casesOn n r fun m =>
      frc (Nat.mod (Nat.succ m) 2097152) fun c => frc (Nat.div (Nat.succ m) 2097152) fun n => enc c (ih n r)) fuel

theorem word_eq : ∀ (f n : Nat) (r : List Nat), word f n r = (Str.utf8 (Bip39.decodeWord f n)).map UInt8.toNat ++ r
  | 0, _, _ => rfl
  | f + 1, 0, _ => by simp [word, Bip39.decodeWord]
  | f + 1, n + 1, r => by
    have ih := word_eq f ((n + 1) / 2097152) r
    have : word (f + 1) (n + 1) r = enc ((n + 1) % 2097152) (word f ((n + 1) / 2097152) r) := by
      simp only [word, frc_eq]
      rfl
    rw [this, ih, enc_eq, Bip39.decodeWord, if_neg (Nat.succ_ne_zero n)]
    simp

/-- The words one per line, in front of `r`. -/
noncomputable def text (r : List Nat) (codes : List Nat) : List Nat := List.rec r (fun c _ ih => word 16 c (10 :: ih)) codes

theorem text_eq (r : List Nat) : ∀ codes, text r codes = (Str.utf8 (lines (Bip39.decodeWords codes))).map UInt8.toNat ++ r
  | [] => rfl
  | c :: cs => by
    have : text r (c :: cs) = word 16 c (10 :: text r cs) := rfl
    rw [this, word_eq, text_eq r cs]
    simp [Bip39.decodeWords, lines]
    rfl

/-- The number of bytes, counted. -/
noncomputable def count (l : List Nat) : Nat → Nat := List.rec (motive := fun _ => Nat → Nat) (fun n => n) (fun _ _ ih n => frc (Nat.succ n) ih) l

theorem count_eq : ∀ (l : List Nat) (n : Nat), count l n = n + l.length
  | [], _ => rfl
  | x :: l, n => by
    have : count (x :: l) n = count l (n + 1) := by simp only [count, frc_eq]
    rw [this, count_eq l]
    simp
    omega

/-- SHA-256 of the lines, when they have `len` bytes. -/
theorem sha256_eq {codes : List Nat} {len : Nat} (hl : count (text [] codes) 0 = len) {d : Bytes}
    (hd : (blk ((len + 72) / 64) (text (128 :: (List.replicate ((64 + 55 - len % 64) % 64) 0 ++ (Bytes.beBytes 8 (8 * len)).map UInt8.toNat)) codes)
      iv256.a iv256.b iv256.c iv256.d iv256.e iv256.f iv256.g iv256.h).toList.flatMap (Bytes.beBytes 4) = d) :
    sha256 (Str.utf8 (lines (Bip39.decodeWords codes))) = d := by
  rw [count_eq, text_eq, Nat.zero_add] at hl
  simp only [List.append_nil, List.length_map] at hl
  generalize hb : Str.utf8 (lines (Bip39.decodeWords codes)) = b at hl
  have hp : (pad256 b).map UInt8.toNat =
      text (128 :: (List.replicate ((64 + 55 - len % 64) % 64) 0 ++ (Bytes.beBytes 8 (8 * len)).map UInt8.toNat)) codes := by
    rw [text_eq, hb, pad256, hl]
    simp
  have hn : (pad256 b).length = 64 * ((len + 72) / 64) := by
    simp only [pad256, List.length_append, List.length_replicate, List.length_singleton, Bytes.beBytes_length, hl]
    omega
  rw [sha256, ← hd, ← hp, blk_eq _ _ _ (by rw [hn]), hn, Nat.mul_div_cancel_left _ (by decide)]

/-- Whether the word with the given number has no line end. -/
noncomputable def clean (fuel : Nat) : Nat → Bool :=
  Nat.rec (motive := fun _ => Nat → Bool) (fun _ => true)
    (fun _ ih n => Nat.casesOn n true fun m =>
      Bool.casesOn (Nat.beq (Nat.mod (Nat.succ m) 2097152) 10) (frc (Nat.div (Nat.succ m) 2097152) ih) false) fuel

theorem ofNat_nl {d : Nat} (h : Char.ofNat d = '\n') : d = 10 := by
  by_cases hv : d.isValidChar
  · have : (Char.ofNat d).toNat = d := by rw [Char.ofNat, dif_pos hv]; rfl
    rw [← this, h]
    rfl
  · rw [Char.ofNat, dif_neg hv] at h
    exact absurd h (by decide)

theorem clean_eq : ∀ (f n : Nat), clean f n = true → '\n' ∉ Bip39.decodeWord f n
  | 0, _, _ => by simp [Bip39.decodeWord]
  | f + 1, 0, _ => by simp [Bip39.decodeWord]
  | f + 1, n + 1, h => by
    have hc : clean (f + 1) (n + 1) =
        Bool.casesOn (Nat.beq (Nat.mod (Nat.succ n) 2097152) 10) (clean f ((n + 1) / 2097152)) false := by
      simp only [clean, frc_eq]
      rfl
    rw [hc] at h
    rw [Bip39.decodeWord, if_neg (Nat.succ_ne_zero n), List.mem_cons, not_or]
    cases hb : Nat.beq (Nat.mod (Nat.succ n) 2097152) 10 with
    | true => rw [hb] at h; cases h
    | false =>
      rw [hb] at h
      exact ⟨fun e => Nat.ne_of_beq_eq_false hb (ofNat_nl e.symm), clean_eq f _ h⟩

/-- No word contains a line end. -/
theorem no_nl {codes : List Nat} (h : codes.all (clean 16) = true) : ∀ w ∈ Bip39.decodeWords codes, '\n' ∉ w := by
  intro w hw
  obtain ⟨n, hm, rfl⟩ := List.mem_map.mp hw
  exact clean_eq 16 n (List.all_eq_true.mp h n hm)

end KC.Real.Lists
