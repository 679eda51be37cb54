import Verif.Real.Hashes
import Verif.Props.Bip39
/-
The repository's own BIP-39 test vectors (bip39/src/test_vectors/bip39_english.txt and bip39_japanese.txt, used by the tests in
bip39/src/bip39.rs), evaluated by the kernel on the model with SHA-256: all English and the first four Japanese ones.
As in those tests the texts are first brought into normalisation form NFKD.
-/
namespace KC.Real
open KC.Bip39 KC.Mnemonic

/-- The entropy gives the phrase and the phrase gives the entropy. -/
def Vector (l : Language) (entropy len : Nat) (phrase : String) : Prop :=
  ∃ e m, Entropy.fromSlice (Bytes.beBytes len entropy) = .ok e ∧ e.toMnemonics hashes = some m ∧
    m.toText l.toDict = some phrase.toList ∧ Mnemonics.fromString l.toDict phrase.toList = .ok m ∧
    Entropy.fromMnemonics hashes m = .ok e

/-- The entropy gives the phrase. -/
def fwd (d : Dict) (entropy len : Nat) (phrase : String) : Bool :=
  match Entropy.fromSlice (Bytes.beBytes len entropy) with
  | .ok e =>
    match e.toMnemonics hashes with
    | none => false
    | some m => decide (m.toText d = some phrase.toList)
  | _ => false

/-- The other direction follows. -/
theorem vector_of (l : Language) (entropy len : Nat) (phrase : String) (h : fwd l.toDict entropy len phrase = true) :
    Vector l entropy len phrase := by
  unfold fwd at h
  cases he : Entropy.fromSlice (Bytes.beBytes len entropy) with
  | err e => rw [he] at h; cases h
  | panic => rw [he] at h; cases h
  | ok e =>
    rw [he] at h
    simp only at h
    obtain ⟨m, hm, hn, -, hi, -⟩ := Props.C05_to_mnemonics hashes e
    obtain ⟨m', hm', hb⟩ := Props.C05_roundtrip hashes e
    rw [hm] at hm'
    cases hm'
    rw [hm] at h
    simp only [decide_eq_true_eq] at h
    obtain ⟨s, hs, hf⟩ := Props.C08_roundtrip l m hn hi
    rw [h] at hs
    cases hs
    exact ⟨e, m, he, hm, h, hf, hb⟩

example : Vector .english 0x00000000000000000000000000000000 16
    "abandon abandon abandon abandon abandon abandon abandon abandon abandon abandon abandon about" :=
  vector_of _ _ _ _ (by decide +kernel)

example : Vector .english 0x7f7f7f7f7f7f7f7f7f7f7f7f7f7f7f7f 16
    "legal winner thank year wave sausage worth useful legal winner thank yellow" :=
  vector_of _ _ _ _ (by decide +kernel)

example : Vector .english 0x80808080808080808080808080808080 16
    "letter advice cage absurd amount doctor acoustic avoid letter advice cage above" :=
  vector_of _ _ _ _ (by decide +kernel)

example : Vector .english 0xffffffffffffffffffffffffffffffff 16
    "zoo zoo zoo zoo zoo zoo zoo zoo zoo zoo zoo wrong" :=
  vector_of _ _ _ _ (by decide +kernel)

example : Vector .english 0x000000000000000000000000000000000000000000000000 24
    "abandon abandon abandon abandon abandon abandon abandon abandon abandon abandon abandon abandon abandon abandon abandon abandon abandon agent" :=
  vector_of _ _ _ _ (by decide +kernel)

example : Vector .english 0x7f7f7f7f7f7f7f7f7f7f7f7f7f7f7f7f7f7f7f7f7f7f7f7f 24
    "legal winner thank year wave sausage worth useful legal winner thank year wave sausage worth useful legal will" :=
  vector_of _ _ _ _ (by decide +kernel)

example : Vector .english 0x808080808080808080808080808080808080808080808080 24
    "letter advice cage absurd amount doctor acoustic avoid letter advice cage absurd amount doctor acoustic avoid letter always" :=
  vector_of _ _ _ _ (by decide +kernel)

example : Vector .english 0xffffffffffffffffffffffffffffffffffffffffffffffff 24
    "zoo zoo zoo zoo zoo zoo zoo zoo zoo zoo zoo zoo zoo zoo zoo zoo zoo when" :=
  vector_of _ _ _ _ (by decide +kernel)

example : Vector .english 0x0000000000000000000000000000000000000000000000000000000000000000 32
    "abandon abandon abandon abandon abandon abandon abandon abandon abandon abandon abandon abandon abandon abandon abandon abandon abandon abandon abandon abandon abandon abandon abandon art" :=
  vector_of _ _ _ _ (by decide +kernel)

example : Vector .english 0x7f7f7f7f7f7f7f7f7f7f7f7f7f7f7f7f7f7f7f7f7f7f7f7f7f7f7f7f7f7f7f7f 32
    "legal winner thank year wave sausage worth useful legal winner thank year wave sausage worth useful legal winner thank year wave sausage worth title" :=
  vector_of _ _ _ _ (by decide +kernel)

example : Vector .english 0x8080808080808080808080808080808080808080808080808080808080808080 32
    "letter advice cage absurd amount doctor acoustic avoid letter advice cage absurd amount doctor acoustic avoid letter advice cage absurd amount doctor acoustic bless" :=
  vector_of _ _ _ _ (by decide +kernel)

example : Vector .english 0xffffffffffffffffffffffffffffffffffffffffffffffffffffffffffffffff 32
    "zoo zoo zoo zoo zoo zoo zoo zoo zoo zoo zoo zoo zoo zoo zoo zoo zoo zoo zoo zoo zoo zoo zoo vote" :=
  vector_of _ _ _ _ (by decide +kernel)

example : Vector .english 0x9e885d952ad362caeb4efe34a8e91bd2 16
    "ozone drill grab fiber curtain grace pudding thank cruise elder eight picnic" :=
  vector_of _ _ _ _ (by decide +kernel)

example : Vector .english 0x6610b25967cdcca9d59875f5cb50b0ea75433311869e930b 24
    "gravity machine north sort system female filter attitude volume fold club stay feature office ecology stable narrow fog" :=
  vector_of _ _ _ _ (by decide +kernel)

example : Vector .english 0x68a79eaca2324873eacc50cb9c6eca8cc68ea5d936f98787c60c7ebc74e6ce7c 32
    "hamster diagram private dutch cause delay private meat slide toddler razor book happy fancy gospel tennis maple dilemma loan word shrug inflict delay length" :=
  vector_of _ _ _ _ (by decide +kernel)

example : Vector .english 0xc0ba5a8e914111210f2bd131f3d5e08d 16
    "scheme spot photo card baby mountain device kick cradle pact join borrow" :=
  vector_of _ _ _ _ (by decide +kernel)

example : Vector .english 0x6d9be1ee6ebd27a258115aad99b7317b9c8d28b6d76431c3 24
    "horn tenant knee talent sponsor spell gate clip pulse soap slush warm silver nephew swap uncle crack brave" :=
  vector_of _ _ _ _ (by decide +kernel)

example : Vector .english 0x9f6a2878b2520799a44ef18bc7df394e7061a224d2c33cd015b157d746869863 32
    "panda eyebrow bullet gorilla call smoke muffin taste mesh discover soft ostrich alcohol speed nation flash devote level hobby quick inner drive ghost inside" :=
  vector_of _ _ _ _ (by decide +kernel)

example : Vector .english 0x23db8160a31d3e0dca3688ed941adbf3 16
    "cat swing flag economy stadium alone churn speed unique patch report train" :=
  vector_of _ _ _ _ (by decide +kernel)

example : Vector .english 0x8197a4a47f0425faeaa69deebc05ca29c0a5b5cc76ceacc0 24
    "light rule cinnamon wrap drastic word pride squirrel upgrade then income fatal apart sustain crack supply proud access" :=
  vector_of _ _ _ _ (by decide +kernel)

example : Vector .english 0x066dca1a2bb7e8a1db2832148ce9933eea0f3ac9548d793112d9a95c9407efad 32
    "all hour make first leader extend hole alien behind guard gospel lava path output census museum junior mass reopen famous sing advance salt reform" :=
  vector_of _ _ _ _ (by decide +kernel)

example : Vector .english 0xf30f8c1da665478f49b001d94c5fc452 16
    "vessel ladder alter error federal sibling chat ability sun glass valve picture" :=
  vector_of _ _ _ _ (by decide +kernel)

example : Vector .english 0xc10ec20dc3cd9f652c7fac2f1230f7a3c828389a14392f05 24
    "scissors invite lock maple supreme raw rapid void congress muscle digital elegant little brisk hair mango congress clump" :=
  vector_of _ _ _ _ (by decide +kernel)

example : Vector .english 0xf585c11aec520db57dd353c69554b21a89b20fb0650966fa0a9d6f74fd989d8f 32
    "void come effort suffer camp survey warrior heavy shoot primary clutch crush open amazing screen patrol group space point ten exist slush involve unfold" :=
  vector_of _ _ _ _ (by decide +kernel)

example : Vector .japanese 0x00000000000000000000000000000000 16
    "あいこくしん あいこくしん あいこくしん あいこくしん あいこくしん あいこくしん あいこくしん あいこくしん あいこくしん あいこくしん あいこくしん あおぞら" :=
  vector_of _ _ _ _ (by decide +kernel)

example : Vector .japanese 0x7f7f7f7f7f7f7f7f7f7f7f7f7f7f7f7f 16
    "そつう れきだい ほんやく わかす りくつ ばいか ろせん やちん そつう れきだい ほんやく わかめ" :=
  vector_of _ _ _ _ (by decide +kernel)

example : Vector .japanese 0x80808080808080808080808080808080 16
    "そとづら あまど おおう あこがれる いくぶん けいけん あたえる いよく そとづら あまど おおう あかちゃん" :=
  vector_of _ _ _ _ (by decide +kernel)

example : Vector .japanese 0xffffffffffffffffffffffffffffffff 16
    "われる われる われる われる われる われる われる われる われる われる われる ろんぶん" :=
  vector_of _ _ _ _ (by decide +kernel)

end KC.Real
