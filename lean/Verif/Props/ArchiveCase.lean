import Verif.Props.Archive
/-
C87: a file that the library did not write.
-/
namespace KC.Props
open KC.Manager KC.Spec KC.Spec.Wallet KC.Secp KC.Spec.Archive
open KC.Spec.Ed25519 (l)
open KC.Spec.Secp256k1 (Uncompressed)
open KC.Spec.Standard (Master Regular)
open KC.Real.Secp256k1 (curve)
open KC.Real.Ed25519 (ed)
open KC.Real.Known

/-! ### Comparing JSON values -/

mutual
/-- Equality of JSON values, for evaluation. -/
def same : KC.Json.Json → KC.Json.Json → Bool
  | .null, .null => true
  | .bool a, .bool b => a == b
  | .int a, .int b => a == b
  | .float, .float => true
  | .str a, .str b => decide (a = b)
  | .arr a, .arr b => sameList a b
  | .obj a, .obj b => sameMembers a b
  | _, _ => false
def sameList : List KC.Json.Json → List KC.Json.Json → Bool
  | [], [] => true
  | a :: l, b :: m => same a b && sameList l m
  | _, _ => false
def sameMembers : List (Option Str × KC.Json.Json) → List (Option Str × KC.Json.Json) → Bool
  | [], [] => true
  | (x, a) :: l, (y, b) :: m => decide (x = y) && same a b && sameMembers l m
  | _, _ => false
end

mutual
theorem same_eq : ∀ a b, same a b = true → a = b
  | .null, b, h => by cases b <;> simp_all [same]
  | .bool _, b, h => by cases b <;> simp_all [same]
  | .int _, b, h => by cases b <;> simp_all [same]
  | .float, b, h => by cases b <;> simp_all [same]
  | .str _, b, h => by cases b <;> simp_all [same]
  | .arr l, b, h => by
    cases b <;> simp only [same, Bool.false_eq_true] at h
    rw [sameList_eq _ _ h]
  | .obj l, b, h => by
    cases b <;> simp only [same, Bool.false_eq_true] at h
    rw [sameMembers_eq _ _ h]
theorem sameList_eq : ∀ a b, sameList a b = true → a = b
  | [], b, h => by cases b <;> simp_all [sameList]
  | a :: l, b, h => by
    cases b with
    | nil => simp [sameList] at h
    | cons b m =>
      simp only [sameList, Bool.and_eq_true] at h
      rw [same_eq _ _ h.1, sameList_eq _ _ h.2]
theorem sameMembers_eq : ∀ a b, sameMembers a b = true → a = b
  | [], b, h => by cases b <;> simp_all [sameMembers]
  | (x, a) :: l, b, h => by
    cases b with
    | nil => simp [sameMembers] at h
    | cons b m =>
      obtain ⟨y, b⟩ := b
      simp only [sameMembers, Bool.and_eq_true, decide_eq_true_eq] at h
      rw [h.1.1, same_eq _ _ h.1.2, sameMembers_eq _ _ h.2]
end

theorem parse_same {t : Bytes} {j : KC.Json.Json} (h : (match KC.Json.parse t with | some i => same i j | none => false) = true) : Json.Doc j t := by
  rw [← C62_json]
  cases e : KC.Json.parse t with
  | none => rw [e] at h; cases h
  | some i => rw [e] at h; rw [same_eq _ _ h]

/-! ### The file -/

/-- The stored Bitcoin key of the known seed. -/
def abData : Bytes :=
  [0, 0, 0, 0, 0, 0, 0, 0, 0, 121, 35, 64, 141, 173, 211, 199, 181, 110, 237, 21, 86, 119, 7, 174, 94, 93, 202, 8, 157, 233, 114, 224, 127, 59, 134, 4, 80, 226, 163, 183, 14, 24, 55, 193, 190, 142, 41, 149, 236, 17, 205, 162, 176, 102, 21, 27, 226, 207, 180, 138, 223, 158, 71, 177, 81, 212, 106, 218, 179, 162, 28, 223, 103, 180, 113, 125, 180]

def abBody : Bytes := List.replicate 9 0 ++ (node ab0).c ++ serSecret ab0.key

theorem abData_eq : abData = abBody ++ (Real.hashes.sha256 (Real.hashes.sha256 abBody)).take 4 := by decide +kernel

theorem abBody_len : abBody.length < 2 ^ 60 := by decide +kernel

theorem abData_master : MasterData abSeed abData := by
  rw [abData_eq]
  have h1 : Sha256 abBody (Real.hashes.sha256 abBody) := (sha256_iff abBody_len).mpr (Eq.refl _)
  have h2 : Sha256 (Real.hashes.sha256 abBody) (Real.hashes.sha256 (Real.hashes.sha256 abBody)) :=
    (sha256_iff (by rw [Real.hashes.sha256_len]; decide)).mpr (Eq.refl _)
  generalize Real.hashes.sha256 (Real.hashes.sha256 abBody) = h' at h2 ⊢
  generalize Real.hashes.sha256 abBody = h at h1 h2
  unfold abBody at h1 ⊢
  exact ⟨node ab0, serSecret ab0.key, h, h', master_of_root abSeed_len ab0_root, serSecret_isBe ab0.key, h1, h2, rfl⟩

/-- A file as another program may write it: other spacing, other order, a member that the library does not know. -/
def otherInner : Str :=
  ['{', ' ', '"', 'k', 'e', 'y', 's', '"', ' ', ':', ' ', '[', '[', '2', '1', '4', '7', '4', '8', '3', '6', '4', '8', ',', ' ',
   '"', 'A', 'A', 'A', 'A', 'A', 'A', 'A', 'A', 'A', 'A', 'A', 'A', 'e', 'S', 'N', 'A', 'j', 'a', '3', 'T', 'x', '7', 'V', 'u',
   '7', 'R', 'V', 'W', 'd', 'w', 'e', 'u', 'X', 'l', '3', 'K', 'C', 'J', '3', 'p', 'c', 'u', 'B', '/', 'O', '4', 'Y', 'E', 'U',
   'O', 'K', 'j', 't', 'w', '4', 'Y', 'N', '8', 'G', '+', 'j', 'i', 'm', 'V', '7', 'B', 'H', 'N', 'o', 'r', 'B', 'm', 'F', 'R',
   'v', 'i', 'z', '7', 'S', 'K', '3', '5', '5', 'H', 's', 'V', 'H', 'U', 'a', 't', 'q', 'z', 'o', 'h', 'z', 'f', 'Z', '7', 'R',
   'x', 'f', 'b', 'Q', '=', '"', ']', ']', ' ', ',', ' ', '"', 'm', 'a', 'd', 'e', ' ', 'b', 'y', '"', ' ', ':', ' ', '{', '"',
   'h', 'a', 'n', 'd', '"', ' ', ':', ' ', '1', '.', '5', 'e', '3', '}', ',', '"', 'd', 'i', 'c', 't', 'i', 'o', 'n', 'a', 'r',
   'y', '"', ':', 'n', 'u', 'l', 'l', ',', ' ', '"', 'm', 'n', 'e', 'm', 'o', 'n', 'i', 'c', '"', ':', 'n', 'u', 'l', 'l', ',',
   '"', 's', 'e', 'e', 'd', '"', ':', '"', 'X', 'r', 'A', 'L', 'v', 'd', 'z', 'w', 'a', 'Q', 'h', 'I', 'i', 'a', 'i', 'r', 'k',
   'V', 'V', 'W', 'g', 'W', 'X', '1', 'x', 'F', 'P', 'M', 'u', 'F', '5', 'w', 'g', 'R', 'q', 'u', '1', 'v', 'b', 'a', 'X', '8',
   'G', 'a', 'W', 's', 'Q', 'L', 'O', 'J', 'z', 'T', 'c', 'N', 'C', 'G', 'I', 'G', '3', 's', 'i', 'q', 'b', 'E', 'P', 'a', '6',
   'm', 'a', 'Q', '8', 'g', 'r', 'T', '2', 'N', 'S', 'L', 'L', 'S', 'z', 'p', '4', '4', '5', 'A', '=', '=', '"', '}']
def otherPlain : Bytes :=
  KC.Json.writeObj [("data".toList, KC.Data.writeBytes (Str.utf8 otherInner)), ("version".toList, KC.Json.writeNat 2)]

theorem abData_text : Spec.Base64.text abData =
    ['A', 'A', 'A', 'A', 'A', 'A', 'A', 'A', 'A', 'A', 'A', 'A', 'e', 'S', 'N', 'A', 'j', 'a', '3', 'T', 'x', '7', 'V', 'u', '7',
   'R', 'V', 'W', 'd', 'w', 'e', 'u', 'X', 'l', '3', 'K', 'C', 'J', '3', 'p', 'c', 'u', 'B', '/', 'O', '4', 'Y', 'E', 'U', 'O',
   'K', 'j', 't', 'w', '4', 'Y', 'N', '8', 'G', '+', 'j', 'i', 'm', 'V', '7', 'B', 'H', 'N', 'o', 'r', 'B', 'm', 'F', 'R', 'v',
   'i', 'z', '7', 'S', 'K', '3', '5', '5', 'H', 's', 'V', 'H', 'U', 'a', 't', 'q', 'z', 'o', 'h', 'z', 'f', 'Z', '7', 'R', 'x',
   'f', 'b', 'Q', '='] := by
  rw [← C35_base64]; decide +kernel

theorem abSeed_text : Spec.Base64.text abSeed = ['X', 'r', 'A', 'L', 'v', 'd', 'z', 'w', 'a', 'Q', 'h', 'I', 'i', 'a', 'i', 'r', 'k', 'V', 'V', 'W', 'g', 'W', 'X', '1', 'x',
   'F', 'P', 'M', 'u', 'F', '5', 'w', 'g', 'R', 'q', 'u', '1', 'v', 'b', 'a', 'X', '8', 'G', 'a', 'W', 's', 'Q', 'L', 'O', 'J',
   'z', 'T', 'c', 'N', 'C', 'G', 'I', 'G', '3', 's', 'i', 'q', 'b', 'E', 'P', 'a', '6', 'm', 'a', 'Q', '8', 'g', 'r', 'T', '2',
   'N', 'S', 'L', 'L', 'S', 'z', 'p', '4', '4', '5', 'A', '=', '='] := by
  rw [← C35_base64]; decide +kernel

theorem other_inner : Data.IsV2 (some abSeed) none none [(0x80000000, abData)] (Str.utf8 otherInner) := by
  have h : Json.Doc (.obj [(Data.key "keys", Data.keysTree [(0x80000000, abData)]),
      (Data.key "made by", .obj [(Data.key "hand", .float)]), (Data.key "dictionary", .null), (Data.key "mnemonic", .null),
      (Data.key "seed", Data.bytesTree abSeed)]) (Str.utf8 otherInner) := by
    simp only [Data.keysTree, Data.keyTree, Data.bytesTree, List.map_cons, List.map_nil, abData_text, abSeed_text]
    exact parse_same (by decide +kernel)
  exact ⟨_, h, by simp [Data.key], by simp [Data.Once, Data.key, Data.optTree], by simp [Data.Once, Data.key, Data.optTree],
    by simp [Data.Once, Data.key, Data.optTree], by simp [Data.Once, Data.key]⟩

theorem other_plain : Data.IsEnvelope 2 (Str.utf8 otherInner) otherPlain := by
  generalize e : Str.utf8 otherInner = inner
  rw [otherPlain, e]
  have h : Json.Doc (.obj [(Data.key "data", Data.bytesTree inner), (Data.key "version", .int 2)])
      (KC.Json.writeObj [("data".toList, KC.Data.writeBytes inner), ("version".toList, KC.Json.writeNat 2)]) :=
    KC.Json.doc_of_text (KC.Json.writeObj_text 126 (fun x : String × KC.Json.Json × Bytes => x.1.toList) (fun x => x.2.2) (fun x => x.2.1)
      [("data", Data.bytesTree inner, KC.Data.writeBytes inner), ("version", .int 2, KC.Json.writeNat 2)] (by
        intro x hx
        simp only [List.mem_cons, List.not_mem_nil, or_false] at hx
        rcases hx with rfl | rfl
        · exact KC.Data.bytes_text _ _
        · exact KC.Json.writeNat_text _ 2))
  exact ⟨_, h, by simp [Data.key], by simp [Data.Once, Data.key], by simp [Data.Once, Data.key]⟩

/-- C87, a case: the seed of "abandon … about" and its Bitcoin key in a text that the library did not write, sealed with a password, are a
file; after adding Ethereum and changing the password, the library opens it and has the known keys at m/44'/0'/0'/0/0 and m/44'/60'/0'/0/0. -/
theorem C87_case (ok : Nat → Bool) (hok : ∀ s, s < l → ok s = true) : ∃ M b0 b kc out out',
    BuiltIn Real.hashes (curve (fun _ _ _ => 7) 1) (ed Real.hashes ok) M ∧
    Sealed [112] otherPlain b0 ∧ IsFile [112] (.seed abSeed) [(0x80000000, abData)] b0 ∧ KeyData abSeed (0x80000000, abData) ∧
    Run (realEnv Base64.strict) (b0, ['p']) [.added M 0x8000003c, .changed] (b, ['q']) ∧
    M.keychainFromData (realEnv Base64.strict) forwards b ['q'] = .ok kc ∧ kc.hasNetwork 0x80000717 = false ∧
    kc.pubKey 0x80000000 ⟨0x8000002c, 0x80000000, 0x80000000, 0, 0⟩ = .ok out ∧
    Uncompressed (0xe284129cc0922579a535bbf4d1a3b25773090d28c909bc0fed73b5e0222cc372 • Spec.Secp256k1.G) out ∧
    kc.pubKey 0x8000003c ⟨0x8000002c, 0x8000003c, 0x80000000, 0, 0⟩ = .ok out' ∧
    Uncompressed (0x1ab42cc412b618bdea3a599e3c9bae199ebf030895b039e9db1e30dafb12b727 • Spec.Secp256k1.G) out' := by
  obtain ⟨M, h1, hnets⟩ := C38_new Real.hashes (curve (fun _ _ _ => 7) 1) (ed Real.hashes ok) true true true 65535 (by decide) (by simp)
  have hB : BuiltIn Real.hashes (curve (fun _ _ _ => 7) 1) (ed Real.hashes ok) M := ⟨65535, true, true, true, .inl h1⟩
  have hp : (Str.utf8 ['p']).length < 2 ^ 123 := by decide +kernel
  have up : Str.utf8 ['p'] = [112] := by decide +kernel
  have hne : otherPlain ≠ [] := by decide +kernel
  obtain ⟨b0, r', henc⟩ := C32_succeeds (ε := Unit) Real.hashes Real.aead otherPlain ['p'] countingRng rfl rfl rfl
  obtain ⟨hdec, hlen⟩ := C32_roundtrip _ _ (realEnv_A Base64.strict ▸ realEnv_correct Base64.strict) _ hne _ _ _ _ henc
  have hb : b0.length < 2 ^ 64 := by
    rw [hlen]
    decide +kernel
  have hseal := (sealed_iff hp hb).mpr hdec
  have hfile : IsFile (Str.utf8 ['p']) (.seed abSeed) [(0x80000000, abData)] b0 := ⟨_, _, hseal, other_plain, other_inner⟩
  have hkey : KeyData abSeed (0x80000000, abData) := .inl ⟨.inl rfl, abData_master⟩
  have hh := C87_read Base64.strict ['p'] _ _ b0 hp hb hfile
  have hso := (source_seed (src := .seed abSeed) (f := fun n => Data.lastOf n [(0x80000000, abData)]) trivial ⟨rfl, abSeed_len⟩).2
  have hnone : Data.lastOf 0x8000003c [((0x80000000 : Network), abData)] = none := by
    generalize abData = d
    rfl
  obtain ⟨f, hf⟩ := Option.isSome_iff_exists.mp ((hnets 0x8000003c).mpr (by decide))
  have hd : ∃ d, f.keyDataFromSeed abSeed = .ok d := by
    rcases hB.factory hf with ⟨e, -⟩ | ⟨-, rfl⟩ | ⟨e, -⟩
    · exact absurd e (by decide)
    · exact data_exists _ _ (ed Real.hashes ok) abSeed ab0 abSeed_len ab0_root .ethereum nofun
    · exact absurd e (by decide)
  obtain ⟨d, hd⟩ := hd
  obtain ⟨b1, r1, hadd⟩ := (((((C43_outcome (realEnv Base64.strict) forwards M b0 ['p'] 0x8000003c countingRng).2 f hf).2 _ hh).2 hnone).2.2.2
    abSeed (show abSeed.length = 64 from abSeed_len) (by rw [realEnv_H]; exact hso)).2.2 d hd counting_delivers
  obtain ⟨_, _, _, -, -, -, -, -, hh1⟩ := C43_added _ (realEnv_correct _) forwards M b0 b1 ['p'] _ _ _ hadd _ hh
  obtain ⟨plain, hopen, -⟩ := hh1
  obtain ⟨b, r2, hch⟩ := ((C42_outcome (realEnv Base64.strict) b1 ['p'] ['q'] countingRng).1 counting_delivers).mp ⟨plain, hopen⟩
  have hrun : Run (realEnv Base64.strict) (b0, ['p']) (([] ++ [.added M 0x8000003c]) ++ [.changed]) (b, ['q']) :=
    .change _ _ b1 ['p'] b ['q'] countingRng r2 (.add _ [] b0 ['p'] b1 M forwards 0x8000003c countingRng r1 (.nil _) hadd) hch
  obtain ⟨g1, g2⟩ := C87_opens Base64.strict _ 1 ok hok forwards M hB b0 b ['p'] ['q'] _ hrun (by
      intro M'' n h
      simp only [List.nil_append, List.cons_append, List.mem_cons, Event.added.injEq, List.not_mem_nil, or_false, reduceCtorEq] at h
      rw [h.1]
      exact hB) hp hb (.seed abSeed) trivial _ abSeed hfile ⟨rfl, abSeed_len⟩ (by
      intro e he
      rw [List.mem_singleton.mp he]
      exact hkey)
  obtain ⟨x, y, z, hx, -, hr, hd1, hy, hr2, hd2, hz⟩ := C83_case
  obtain ⟨kc, hkc⟩ := g1 fun x' hx' => by
    obtain rfl := C83_determined.2.1 _ _ _ abSeed_len hx hx'
    exact fun before i after w e hw => hr2 before i (after ++ [0x80000000, 0, 0]) w
      (by rw [show ([0x8000002c, 0x8000003c, 0x80000000, 0, 0] : List UInt32) = [0x8000002c, 0x8000003c] ++ [0x80000000, 0, 0] from rfl, e]; simp) hw
  obtain ⟨hs, hn⟩ := g2 kc hkc
  have hno : kc.hasNetwork 0x80000717 = false := by
    by_contra hc
    rcases ((hn _).mp (Bool.not_eq_false _ ▸ hc)).2 with h | ⟨M'', h⟩
    · simp only [List.map_cons, List.map_nil, List.mem_singleton] at h
      exact absurd h (by decide)
    · simp only [List.nil_append, List.cons_append, List.mem_cons, Event.added.injEq, List.not_mem_nil, or_false, reduceCtorEq] at h
      exact absurd h.2 (by decide)
  obtain ⟨x', hx', h⟩ := hs.bitcoin ((hn _).mpr ⟨(hnets _).mpr (by decide), .inl (by simp)⟩)
  obtain rfl := C83_determined.2.1 _ _ _ abSeed_len hx hx'
  obtain ⟨y', hd', ha⟩ := h ⟨0x8000002c, 0x80000000, 0x80000000, 0, 0⟩ ⟨.inl rfl, rfl, show _ ≤ _ by decide, .inl rfl, show _ < _ by decide⟩ hr
  obtain rfl := C83_determined.2.2.1 _ _ _ _ _ hx hd1 hd'
  obtain ⟨out, o1, o2⟩ := ha.pub
  rw [hy] at o2
  obtain ⟨x', hx', h⟩ := hs.ethereum ((hn _).mpr ⟨(hnets _).mpr (by decide), .inr ⟨M, by simp⟩⟩)
  obtain rfl := C83_determined.2.1 _ _ _ abSeed_len hx hx'
  obtain ⟨z', hd', ha⟩ := h ⟨0x8000002c, 0x8000003c, 0x80000000, 0, 0⟩ ⟨.inr rfl, rfl, show _ ≤ _ by decide, .inl rfl, show _ < _ by decide⟩ hr2
  obtain rfl := C83_determined.2.2.1 _ _ _ _ _ hx hd2 hd'
  obtain ⟨out', o3, o4⟩ := ha.pub
  rw [hz] at o4
  rw [up] at hseal hfile
  exact ⟨M, b0, b, kc, out, out', hB, hseal, hfile, hkey, hrun, hkc, hno, o1, o2, o3, o4⟩

/-- The same text, marked as version 1. -/
def oldPlain : Bytes := KC.Data.Versioned.toBytes ⟨.v1, Str.utf8 otherInner⟩

theorem old_plain : Data.IsEnvelope 1 (Str.utf8 otherInner) oldPlain := by
  unfold oldPlain
  generalize Str.utf8 otherInner = inner
  exact ⟨_, KC.Json.doc_of_text (KC.Data.envelope_text 126 ⟨.v1, inner⟩), by simp [Data.key], by simp [Data.Once, Data.key, KC.Data.Version.toNat],
    by simp [Data.Once, Data.key]⟩

/-- C87, a case for version 1: the same text marked as version 1 is a file of version 1, whose seed does not count: Ethereum cannot be added,
and after changing the password it opens to the known Bitcoin key. -/
theorem C87_old_case (ok : Nat → Bool) (hok : ∀ s, s < l → ok s = true) : ∃ M b0 b kc out,
    BuiltIn Real.hashes (curve (fun _ _ _ => 7) 1) (ed Real.hashes ok) M ∧
    Sealed [112] oldPlain b0 ∧ IsOldFile [112] [(0x80000000, abData)] b0 ∧
    (∀ it r b' r', (addNetwork (realEnv Base64.strict) it M b0 ['p'] 0x8000003c).run r ≠ (.ok b', r')) ∧
    Run (realEnv Base64.strict) (b0, ['p']) [.changed] (b, ['q']) ∧
    M.keychainFromData (realEnv Base64.strict) forwards b ['q'] = .ok kc ∧ kc.hasNetwork 0x8000003c = false ∧
    kc.pubKey 0x80000000 ⟨0x8000002c, 0x80000000, 0x80000000, 0, 0⟩ = .ok out ∧
    Uncompressed (0xe284129cc0922579a535bbf4d1a3b25773090d28c909bc0fed73b5e0222cc372 • Spec.Secp256k1.G) out := by
  obtain ⟨M, h1, hnets⟩ := C38_new Real.hashes (curve (fun _ _ _ => 7) 1) (ed Real.hashes ok) true true true 65535 (by decide) (by simp)
  have hB : BuiltIn Real.hashes (curve (fun _ _ _ => 7) 1) (ed Real.hashes ok) M := ⟨65535, true, true, true, .inl h1⟩
  have hp : (Str.utf8 ['p']).length < 2 ^ 123 := by decide +kernel
  have up : Str.utf8 ['p'] = [112] := by decide +kernel
  have hne : oldPlain ≠ [] := by decide +kernel
  obtain ⟨b0, r', henc⟩ := C32_succeeds (ε := Unit) Real.hashes Real.aead oldPlain ['p'] countingRng rfl rfl rfl
  obtain ⟨hdec, hlen⟩ := C32_roundtrip _ _ (realEnv_A Base64.strict ▸ realEnv_correct Base64.strict) _ hne _ _ _ _ henc
  have hb : b0.length < 2 ^ 64 := by
    rw [hlen]
    decide +kernel
  have hseal := (sealed_iff hp hb).mpr hdec
  have hv1 : Data.IsV1 [(0x80000000, abData)] (Str.utf8 otherInner) := by
    obtain ⟨m, g1, g2, -, -, -, g3⟩ := other_inner
    exact ⟨m, g1, g2, g3⟩
  have hfile : IsOldFile (Str.utf8 ['p']) [(0x80000000, abData)] b0 := ⟨_, _, hseal, old_plain, hv1⟩
  have hkey : ∀ e ∈ [((0x80000000 : Network), abData)], KeyData abSeed e := by
    intro e he
    rw [List.mem_singleton.mp he]
    exact .inl ⟨.inl rfl, abData_master⟩
  have hopen := (sealed_opens (D := Base64.strict) hp hb).mp hseal
  obtain ⟨b, r2, hch⟩ := ((C42_outcome (realEnv Base64.strict) b0 ['p'] ['q'] countingRng).1 counting_delivers).mp ⟨_, hopen⟩
  have hrun : Run (realEnv Base64.strict) (b0, ['p']) ([] ++ [.changed]) (b, ['q']) :=
    .change _ _ b0 ['p'] b ['q'] countingRng r2 (.nil _) hch
  obtain ⟨-, g1, g2⟩ := C87_old Base64.strict _ 1 ok hok forwards M hB b0 b ['p'] ['q'] _ hrun hp hb _ abSeed abSeed_len hfile hkey
  obtain ⟨x, y, z, hx, -, hr, hd1, hy, hr2, hd2, hz⟩ := C83_case
  obtain ⟨kc, hkc⟩ := g1 fun x' hx' => by
    obtain rfl := C83_determined.2.1 _ _ _ abSeed_len hx hx'
    exact fun before i after w e hw => hr2 before i (after ++ [0x80000000, 0, 0]) w
      (by rw [show ([0x8000002c, 0x8000003c, 0x80000000, 0, 0] : List UInt32) = [0x8000002c, 0x8000003c] ++ [0x80000000, 0, 0] from rfl, e]; simp) hw
  obtain ⟨hs, hn⟩ := g2 kc hkc
  have hno : kc.hasNetwork 0x8000003c = false := by
    by_contra hc
    have h := ((hn _).mp (Bool.not_eq_false _ ▸ hc)).2
    simp only [List.map_cons, List.map_nil, List.mem_singleton] at h
    exact absurd h (by decide)
  obtain ⟨x', hx', h⟩ := hs.bitcoin ((hn _).mpr ⟨(hnets _).mpr (by decide), by simp⟩)
  obtain rfl := C83_determined.2.1 _ _ _ abSeed_len hx hx'
  obtain ⟨y', hd', ha⟩ := h ⟨0x8000002c, 0x80000000, 0x80000000, 0, 0⟩ ⟨.inl rfl, rfl, show _ ≤ _ by decide, .inl rfl, show _ < _ by decide⟩ hr
  obtain rfl := C83_determined.2.2.1 _ _ _ _ _ hx hd1 hd'
  obtain ⟨out, o1, o2⟩ := ha.pub
  rw [hy] at o2
  have hadd : ∀ it r b' r', (addNetwork (realEnv Base64.strict) it M b0 ['p'] 0x8000003c).run r ≠ (.ok b', r') := by
    intro it r b' r' h
    have hrun' : Run (realEnv Base64.strict) (b0, ['p']) ([] ++ [.added M 0x8000003c]) (b', ['p']) :=
      .add _ [] b0 ['p'] b' M it 0x8000003c r r' (.nil _) h
    exact (C87_old Base64.strict _ 1 ok hok forwards M hB b0 b' ['p'] ['p'] _ hrun' hp hb _ abSeed abSeed_len hfile hkey).1 M 0x8000003c (by simp)
  rw [up] at hseal hfile
  exact ⟨M, b0, b, kc, out, hB, hseal, hfile, hadd, hrun, hkc, hno, o1, o2⟩

end KC.Props
