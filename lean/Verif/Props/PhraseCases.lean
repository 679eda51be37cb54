import Verif.Props.CPrograms
import Verif.Props.Seeds
import Verif.Real.AbandonSeed
/-
C83 and C86 for one phrase, "abandon abandon abandon abandon abandon abandon abandon abandon abandon abandon abandon about", from its text to
a public key, with all 2048 rounds of PBKDF2 evaluated.
-/
namespace KC.Props
open KC.Manager KC.C KC.Spec.C KC.Spec KC.Spec.Wallet
open KC.KeyPath (Path)
open KC.Mnemonic (Language seedFromMnemonic)
open KC.Spec.Standard (Master Regular Derive)
open KC.Spec.Ed25519 (l)
open KC.Real.Secp256k1 (curve)
open KC.Real.Ed25519 (ed)
open KC.Real.Known KC.Spec.Secp256k1

theorem ab_salt : Str.utf8 "mnemonic".toList = [109, 110, 101, 109, 111, 110, 105, 99] := by decide +kernel

/-- The seed of the phrase. -/
theorem ab_seed : phraseSeed Real.hashes Real.Ab.text = abSeed := by
  have h := Real.Ab.seed_eq
  rw [ab_salt, Real.Ab.phrase] at h
  rw [phraseSeed, show Real.hashes.pbkdf2 = Real.pbkdf2 from rfl, h, abSeed]

theorem ab_phrase : Phrase 128 .english Real.Ab.text :=
  ⟨List.replicate 11 "abandon".toList ++ ["about".toList], by decide +kernel, by decide +kernel, by decide, by decide⟩

/-- C12, a case: the seed that the library makes from this phrase, with an empty passphrase and entropy of 128 bits. -/
theorem C12_case_phrase : seedFromMnemonic Real.hashes Real.Ab.text [] 128 .english = .ok abSeed := by
  obtain ⟨ws, e, hw, hn, hs⟩ := ab_phrase
  obtain ⟨seed, h⟩ := ((C13_outcome Real.hashes [] 128 .english Real.Ab.text).1 ws e hw hn).2.2 hs
  rw [seed_any h Real.hashes, show Str.utf8 ([] : Str) = [] from rfl, List.append_nil]
  exact congrArg Res.ok ab_seed

/-- C83, a case: this is the seed that BIP-39 gives for the bytes of the phrase. -/
theorem C83_case_seed : Standard.Seed (Str.utf8 Real.Ab.text) abSeed := by
  have e : Standard.ascii "mnemonic" = [109, 110, 101, 109, 111, 110, 105, 99] := by decide +kernel
  rw [Standard.Seed, e, ← C82_pbkdf2 _ _ _ _ _ (by decide +kernel) (by decide) (by decide) (by decide)]
  exact ab_seed

theorem ab_made (ok : Nat → Bool) (M : Manager) (hb : BuiltIn Real.hashes (curve (fun _ _ _ => 7) 1) (ed Real.hashes ok) M)
    (hs : M.seedSize = 128) : ∃ blob r',
    (M.keychainDataFromMnemonic (realEnv Base64.strict) forwards forwards Real.Ab.text ['p'] (some .english)).run countingRng = (.ok blob, r') := by
  refine C41_from_mnemonic_succeeds _ _ _ _ _ _ _ _ counting_delivers (by rw [hs]; exact ab_phrase) ?_
  rw [realEnv_H, ab_seed]
  intro n f hf
  rcases hb.factory hf with ⟨-, rfl⟩ | ⟨-, rfl⟩ | ⟨-, rfl⟩
  · obtain ⟨d, _, _, h, -⟩ := C30_from_seed Real.hashes (curve (fun _ _ _ => 7) 1) (ed Real.hashes ok) abSeed abSeed_len
    exact ⟨d, h⟩
  · exact data_exists _ _ (ed Real.hashes ok) abSeed ab0 abSeed_len ab0_root .ethereum nofun
  · exact data_exists _ _ (ed Real.hashes ok) abSeed ab0 abSeed_len ab0_root .bitcoin nofun

theorem full_size {H : Hashes} {C : Secp.Curve} {Ed : Cardano.Ed} {M : Manager}
    (h : Manager.new 65535 (allNetworks H C Ed true true true) = .ok M) : M.seedSize = 128 := by
  have e : calculateSeedSize 65535 (allNetworks H C Ed true true true) = .ok 128 := rfl
  rw [Manager.new, withFactoryObjs, e] at h
  cases h
  rfl

/-- C83, a case: a wallet is made from the text of the phrase, its password changed, it opens, and for Bitcoin it has, at m/44'/0'/0'/0/0, the
public key of the known secret. -/
theorem C83_case_phrase (ok : Nat → Bool) (hok : ∀ s, s < l → ok s = true) : ∃ M b0 b kc out r',
    BuiltIn Real.hashes (curve (fun _ _ _ => 7) 1) (ed Real.hashes ok) M ∧
    (M.keychainDataFromMnemonic (realEnv Base64.strict) forwards forwards Real.Ab.text ['p'] (some .english)).run countingRng = (.ok b0, r') ∧
    Run (realEnv Base64.strict) (b0, ['p']) [.changed] (b, ['q']) ∧
    M.keychainFromData (realEnv Base64.strict) forwards b ['q'] = .ok kc ∧
    kc.pubKey 0x80000000 ⟨0x8000002c, 0x80000000, 0x80000000, 0, 0⟩ = .ok out ∧
    Uncompressed (0xe284129cc0922579a535bbf4d1a3b25773090d28c909bc0fed73b5e0222cc372 • G) out := by
  obtain ⟨M, h1, hnets⟩ := C38_new Real.hashes (curve (fun _ _ _ => 7) 1) (ed Real.hashes ok) true true true 65535 (by decide) (by simp)
  have hb : BuiltIn Real.hashes (curve (fun _ _ _ => 7) 1) (ed Real.hashes ok) M := ⟨65535, true, true, true, .inl h1⟩
  obtain ⟨b0, r', hmade⟩ := ab_made ok M hb (full_size h1)
  obtain ⟨-, keys, -, h0⟩ := C41_from_mnemonic _ (realEnv_correct _) forwards forwards M hb.built _ _ _ countingRng r' b0 hmade
  obtain ⟨plain, hopen, -⟩ := h0
  obtain ⟨b, r2, hch⟩ := ((C42_outcome (realEnv Base64.strict) b0 ['p'] ['q'] countingRng).1 counting_delivers).mp ⟨plain, hopen⟩
  have hrun : Run (realEnv Base64.strict) (b0, ['p']) ([] ++ [.changed]) (b, ['q']) := .change _ [] b0 ['p'] b ['q'] countingRng r2 (.nil _) hch
  obtain ⟨seed, hseed, g1, g2⟩ := C83_phrase Base64.strict _ 1 ok hok forwards forwards forwards M M hb hb countingRng r' b0 b ['p'] ['q'] _ hrun
    (by simp) Real.Ab.text _ (by decide +kernel) hmade
  obtain ⟨rfl, -⟩ := C83_determined.1 _ _ _ (by decide +kernel) C83_case_seed hseed
  obtain ⟨x, y, z, hx, -, hr, hd, hy, hr2, -⟩ := C83_case
  obtain ⟨kc, hkc⟩ := g1 fun x' hx' => by
    obtain rfl := C83_determined.2.1 _ _ _ abSeed_len hx hx'
    exact fun before i after w e hw => hr2 before i (after ++ [0x80000000, 0, 0]) w
      (by rw [show ([0x8000002c, 0x8000003c, 0x80000000, 0, 0] : List UInt32) = [0x8000002c, 0x8000003c] ++ [0x80000000, 0, 0] from rfl, e]; simp) hw
  obtain ⟨hs, hn⟩ := g2 kc hkc
  obtain ⟨x', hx', h⟩ := hs.bitcoin ((hn _).mpr ⟨(hnets _).mpr (by decide), .inl ((hnets _).mpr (by decide))⟩)
  obtain rfl := C83_determined.2.1 _ _ _ abSeed_len hx hx'
  obtain ⟨y', hd', ha⟩ := h ⟨0x8000002c, 0x80000000, 0x80000000, 0, 0⟩ ⟨.inl rfl, rfl, show _ ≤ _ by decide, .inl rfl, show _ < _ by decide⟩ hr
  obtain rfl := C83_determined.2.2.1 _ _ _ _ _ hx hd hd'
  obtain ⟨out, h1, h2⟩ := ha.pub
  rw [hy] at h2
  exact ⟨M, b0, b, kc, out, r', hb, hmade, hrun, hkc, h1, h2⟩

/-- The bytes of the phrase and of two passwords, as a C program passes them. -/
def abText : CText := ⟨Str.utf8 Real.Ab.text, by decide +kernel⟩

/-- C86, a case: one program makes a wallet from the phrase, another changes its password, a third opens it and gets, for Bitcoin at
m/44'/0'/0'/0/0, the public key of the known secret. -/
theorem C86_case_phrase (ok : Nat → Bool) (hok : ∀ s, s < l → ok s = true) : ∃ b0 b s out,
    Returned (fullBuild ok) (.fromMnemonic abText ⟨[112], by decide⟩ .english) b0 ∧
    Handed (SomeBuild Base64.strict (fun _ _ _ => 7) 1 ok) (b0, ⟨[112], by decide⟩) [] (b, ⟨[113], by decide⟩) ∧
    Opened (fullBuild ok) b ⟨[113], by decide⟩ s 1 ∧
    Gives (fullBuild ok) s 1 (.pubKey ⟨0x80000000⟩ ⟨0x8000002c, 0x80000000, 0x80000000, 0, 0⟩) out ∧
    Uncompressed (0xe284129cc0922579a535bbf4d1a3b25773090d28c909bc0fed73b5e0222cc372 • G) out := by
  have hreal : SomeBuild Base64.strict (fun _ _ _ => 7) 1 ok (fullBuild ok) := ⟨_, _, _, fullBuild_real ok⟩
  have henv : (fullBuild ok).E = realEnv Base64.strict := (fullBuild_real ok).env
  have ep : Json.ofUtf8 [112] = some ['p'] := by decide +kernel
  have eq : Json.ofUtf8 [113] = some ['q'] := by decide +kernel
  have et : Json.ofUtf8 abText.val = some Real.Ab.text := by decide +kernel
  obtain ⟨M, hM, -⟩ := C38_new Real.hashes (curve (fun _ _ _ => 7) 1) (ed Real.hashes ok) true true true 65535 (by decide) (by simp)
  have hsize := full_size hM
  have hM : Manager.new (fullBuild ok).umax (fullBuild ok).all = .ok M := hM
  have hb : BuiltIn Real.hashes (curve (fun _ _ _ => 7) 1) (ed Real.hashes ok) M := ⟨65535, true, true, true, .inl hM⟩
  have hl : (((Fn.managerNew countingRng).lib (fullBuild ok) toyCtx .none).run Target.none.rng).1 = .ok (M, countingRng) := by
    show (Manager.new (fullBuild ok).umax (fullBuild ok).all).map (fun m => (m, countingRng)) = _
    rw [hM]; rfl
  obtain ⟨s, q, h1, h2, h3⟩ := step_good (W := fullBuild ok) (s := ⟨[], []⟩) (f := Fn.managerNew countingRng) (j := 0) toyCtx .null
    ⟨.panic, .null⟩ .no hl trivial
  have hs : Reached (fullBuild ok) s := ⟨[.call .manager (.managerNew countingRng) toyCtx 0 .null ⟨.panic, .null⟩],
    ⟨trivial, fun _ _ => trivial⟩, by simp only [State.run, h1]⟩
  have hv : s.vars[0]? = some ⟨.manager, q⟩ := by rw [h2]; rfl
  obtain ⟨b0, r', hmade⟩ := ab_made ok M hb hsize
  have hmade1 : Returned (fullBuild ok) (.fromMnemonic abText ⟨[112], by decide⟩ .english) b0 := by
    have hl2 : (((Fn.fromMnemonic abText ⟨[112], by decide⟩ .english).lib (fullBuild ok) toyCtx (.manager M countingRng)).run countingRng).1 =
        .ok b0 := by
      simp only [Fn.lib, onM, decode, ep, et, language]
      rw [henv]
      exact congrArg Prod.fst hmade
    obtain ⟨s1, d, k1, k2, k3⟩ := step_good (W := fullBuild ok) (s := s) (k := .data) toyCtx ⟨.null, 0⟩ ⟨.panic, .null⟩
      (names_manager hv h3 (Fn.fromMnemonic abText ⟨[112], by decide⟩ .english) rfl) hl2 trivial
    exact ⟨s, 0, hs, toyCtx, _, _, s1, d, k1, k2, k3⟩
  obtain ⟨-, keys, -, h0⟩ := C41_from_mnemonic _ (realEnv_correct _) forwards forwards M hb.built _ _ _ countingRng r' b0 hmade
  obtain ⟨plain, hopen, -⟩ := h0
  obtain ⟨b, r2, hch⟩ := ((C42_outcome (realEnv Base64.strict) b0 ['p'] ['q'] countingRng).1 counting_delivers).mp ⟨plain, hopen⟩
  have hch1 : Returned (fullBuild ok) (.change b0 ⟨[112], by decide⟩ ⟨[113], by decide⟩) b := by
    have hl2 : (((Fn.change b0 ⟨[112], by decide⟩ ⟨[113], by decide⟩).lib (fullBuild ok) toyCtx (.manager M countingRng)).run countingRng).1 =
        .ok b := by
      simp only [Fn.lib, onM, decode, ep, eq]
      rw [henv]
      exact congrArg Prod.fst hch
    obtain ⟨s1, d, k1, k2, k3⟩ := step_good (W := fullBuild ok) (s := s) (k := .data) toyCtx ⟨.null, 0⟩ ⟨.panic, .null⟩
      (names_manager hv h3 (Fn.change b0 ⟨[112], by decide⟩ ⟨[113], by decide⟩) rfl) hl2 trivial
    exact ⟨s, 0, hs, toyCtx, _, _, s1, d, k1, k2, k3⟩
  have hh : Handed (SomeBuild Base64.strict (fun _ _ _ => 7) 1 ok) (b0, ⟨[112], by decide⟩) [] (b, ⟨[113], by decide⟩) :=
    .change .start hreal hch1
  obtain ⟨seed, hseed, g⟩ := C86_phrase Base64.strict _ 1 ok hok _ hreal abText _ _ (by decide +kernel) b0 hmade1 [] b _ hh
  obtain ⟨rfl, -⟩ := C83_determined.1 _ _ _ (by decide +kernel) C83_case_seed hseed
  obtain ⟨g1, g2⟩ := g _ hreal
  obtain ⟨x, y, z, hx, -, hr, hd, hy, hr2, -⟩ := C83_case
  obtain ⟨s', v, k1, k2⟩ := g1 (fun x' hx' => by
    obtain rfl := C83_determined.2.1 _ _ _ abSeed_len hx hx'
    exact fun before i after w e hw => hr2 before i (after ++ [0x80000000, 0, 0]) w
      (by rw [show ([0x8000002c, 0x8000003c, 0x80000000, 0, 0] : List UInt32) = [0x8000002c, 0x8000003c] ++ [0x80000000, 0, 0] from rfl, e]; simp) hw)
    s 0 q _ hs hv h3 toyCtx .null ⟨.panic, .null⟩
  have hop : Opened (fullBuild ok) b ⟨[113], by decide⟩ s' 1 :=
    ⟨s, s', toyCtx, 0, .null, ⟨.panic, .null⟩, v, [], hs, k1, k2, by rw [h2]; rfl, trivial, by simp, rfl⟩
  have hnet : (0x80000000 : Network) ∈ (fullBuild ok).all.map Factory.network := (new_has hM _).mp (by
    rw [Manager.hasNetwork, new_factories hM]; rfl)
  obtain ⟨x', hx', h⟩ := (g2 s' 1 hop).bitcoin ⟨hnet, .inl hnet⟩
  obtain rfl := C83_determined.2.1 _ _ _ abSeed_len hx hx'
  obtain ⟨y', hd', ha⟩ := h ⟨0x8000002c, 0x80000000, 0x80000000, 0, 0⟩ ⟨.inl rfl, rfl, show _ ≤ _ by decide, .inl rfl, show _ < _ by decide⟩ hr
  obtain rfl := C83_determined.2.2.1 _ _ _ _ _ hx hd hd'
  obtain ⟨out, e1, e2⟩ := ha.pub
  rw [hy] at e2
  exact ⟨b0, b, s', out, hmade1, hh, hop, e1, e2⟩

end KC.Props
