import Verif.Props.KeyPath
import Verif.Spec.Builds
import Verif.Props.CApi
import Verif.Proofs.Json
/-
C92: debug and release builds.
-/
namespace KC.Props
open KC.KeyPath KC.Spec KC.C KC.Spec.C

theorem addU32_builds (a b : UInt32) : addU32 .debug a b = addU32 .release a b ∨ addU32 .debug a b = none := by
  unfold addU32
  split
  · exact .inl rfl
  · exact .inr rfl

theorem bind_builds {ε α β : Type} {x y : Res ε α} {f g : α → Res ε β} (h : x = y ∨ x = .panic)
    (k : ∀ a, f a = g a ∨ f a = .panic) : (x >>= f) = (y >>= g) ∨ (x >>= f) = .panic := by
  rcases h with rfl | rfl
  · cases x with
    | ok a => exact k a
    | err e => exact .inl rfl
    | panic => exact .inl rfl
  · exact .inr rfl

theorem hardInt_builds (i : Nat) (s : Str) : hardInt .debug i s = hardInt .release i s ∨ hardInt .debug i s = .panic := by
  unfold hardInt
  split
  · exact .inl rfl
  · refine bind_builds (.inl rfl) fun fr => ?_
    refine bind_builds (.inl rfl) fun v => ?_
    rcases addU32_builds v softUpperBound with h | h <;> rw [h]
    · exact .inl rfl
    · exact .inr rfl

theorem parseInt_builds (i : Nat) (s : Str) : parseInt .debug i s = parseInt .release i s ∨ parseInt .debug i s = .panic := by
  unfold parseInt
  split
  · exact .inl rfl
  · refine bind_builds (.inl rfl) fun fr => ?_
    dsimp only
    split
    · exact hardInt_builds i s
    · exact .inl rfl

theorem from_builds (t : Str) : Path.from .debug t = Path.from .release t ∨ Path.from .debug t = .panic := by
  unfold Path.from
  dsimp only
  split
  · exact .inl rfl
  · split
    · exact .inl rfl
    · refine bind_builds (parseInt_builds _ _) fun _ => ?_
      refine bind_builds (parseInt_builds _ _) fun _ => ?_
      refine bind_builds (parseInt_builds _ _) fun _ => ?_
      refine bind_builds (parseInt_builds _ _) fun _ => ?_
      exact bind_builds (parseInt_builds _ _) fun _ => .inl rfl

theorem component_weaken {s : Str} {v : Nat} (h : Component true s v) : Component false s v := by
  obtain ⟨t, hard, n, h1, h2, -, h4⟩ := h
  exact ⟨t, hard, n, h1, h2, nofun, h4⟩

/-- C92: texts of key paths are read alike, but for those with a hardened number that does not fit: there a debug build panics, and a release
build goes on, to a panic only if a later part gives it one. -/
theorem C92_text (t : Str) :
    (Path.from .debug t ≠ Path.from .release t ↔ Overflows t ∧ Path.from .release t ≠ .panic) ∧
    (Overflows t → Path.from .debug t = .panic) := by
  have hov : Overflows t → Path.from .debug t = .panic := fun ⟨m, x, u, pre, post, n, h1, h2, h3, h4, h5, h6, h7, h8⟩ =>
    (C19_panic _ _).mpr ⟨m, x, u, pre, post, h1, h2, h3, h4, h5, h6, .inr ⟨rfl, n, h7, h8⟩⟩
  refine ⟨⟨fun hne => ?_, fun ⟨h, hr⟩ e => hr (e ▸ hov h)⟩, hov⟩
  have hd := (from_builds t).resolve_left hne
  have hr : Path.from .release t ≠ .panic := fun h => hne (hd.trans h.symm)
  refine ⟨?_, hr⟩
  obtain ⟨m, x, u, pre, post, h1, h2, h3, h4, h5, h6, h7 | ⟨-, n, h7, h8⟩⟩ := (C19_panic _ _).mp hd
  · exact absurd ((C19_panic .release _).mpr ⟨m, x, u, pre, post, h1, h2, h3, h4,
      fun s hs => let ⟨v, hv⟩ := h5 s hs; ⟨v, component_weaken hv⟩, h6, .inl h7⟩) hr
  · exact ⟨m, x, u, pre, post, n, h1, h2, h3, h4, h5, h6, h7, h8⟩

theorem text_same {t : Str} (h : ¬ Overflows t) (p q : Profile) : Path.from p t = Path.from q t := by
  have e : Path.from .debug t = Path.from .release t := by
    by_contra hne
    exact h ((C92_text t).1.mp hne).1
  match p, q with
  | .debug, .debug => rfl
  | .debug, .release => exact e
  | .release, .debug => exact e.symm
  | .release, .release => rfl

theorem add_same (p q : Profile) {a : UInt32} (h : ¬ a ≥ softUpperBound) : addU32 p a softUpperBound = addU32 q a softUpperBound := by
  have hb : softUpperBound.toNat = 2 ^ 31 := rfl
  have : a.toNat < 2 ^ 31 := by rw [bound_iff] at h; omega
  rw [addU32_fit p _ _ (by rw [hb]; omega), addU32_fit q _ _ (by rw [hb]; omega)]

/-- C92: the constructors of paths are the same in every build. -/
theorem C92_constructors (p q : Profile) (testnet : Bool) (account change address : UInt32) :
    Bitcoin.bip44 p testnet account change address = Bitcoin.bip44 q testnet account change address ∧
    Bitcoin.bip49 p testnet account change address = Bitcoin.bip49 q testnet account change address ∧
    Bitcoin.bip84 p testnet account change address = Bitcoin.bip84 q testnet account change address ∧
    Ethereum.path p account = Ethereum.path q account ∧ Cardano.path p account change address = Cardano.path q account change address := by
  have hb : ∀ purpose, Bitcoin.pathWith purpose p testnet account change address = Bitcoin.pathWith purpose q testnet account change address := by
    intro purpose
    by_cases h : account ≥ softUpperBound
    · have he : ∀ p, Bitcoin.pathWith purpose p testnet account change address = .err (.invalidAccount account) := fun p => by
        unfold Bitcoin.pathWith Bitcoin.isValid
        rw [if_pos h]; rfl
      rw [he p, he q]
    · unfold Bitcoin.pathWith
      rw [add_same p q h]
  refine ⟨hb _, hb _, hb _, ?_, ?_⟩
  · unfold Ethereum.path
    by_cases h : account ≥ softUpperBound
    · rw [if_pos h, if_pos h]
    · rw [add_same p q h]
  · unfold Cardano.path
    by_cases h : account ≥ softUpperBound
    · rw [if_pos h, if_pos h]
    · rw [add_same p q h]

theorem call_same (W : Build) (p : Profile) (x : Ctx) (ptr : Ptr) (k : Kind) (f : Fn k) (v : Val k) (e : ErrorPtr) (j : Nat) (h : Heap)
    (hf : ¬ AsksOverflow (.call k f x j v e)) : f.call { W with profile := p } x ptr v e h = f.call W x ptr v e h := by
  cases f with
  | keypathFromString s =>
    show keypathFromString _ x s v e h = keypathFromString _ x s v e h
    unfold keypathFromString
    have : (do let t ← s.rust; pathResult (Path.from p t) : CM KC.Error CKeyPath) =
        (do let t ← s.rust; pathResult (Path.from W.profile t)) := by
      funext h'
      show (s.rust : CM KC.Error Str).bind _ h' = (s.rust : CM KC.Error Str).bind _ h'
      unfold CM.bind
      rw [text_rust]
      cases ht : Json.ofUtf8 s.val with
      | none => rfl
      | some t =>
        have hn : ¬ Overflows t := fun ho => hf ⟨t, Json.ofUtf8_inv ht, ho⟩
        show pathResult (Path.from p t) h' = pathResult (Path.from W.profile t) h'
        rw [text_same hn p W.profile]
    dsimp only
    rw [this]
  | bitcoinBip44 t a c d =>
    show keypathBitcoinNewBip44 _ x t a c d v e h = keypathBitcoinNewBip44 _ x t a c d v e h
    unfold keypathBitcoinNewBip44
    rw [(C92_constructors p W.profile t a c d).1]
  | bitcoinBip49 t a c d =>
    show keypathBitcoinNewBip49 _ x t a c d v e h = keypathBitcoinNewBip49 _ x t a c d v e h
    unfold keypathBitcoinNewBip49
    rw [(C92_constructors p W.profile t a c d).2.1]
  | bitcoinBip84 t a c d =>
    show keypathBitcoinNewBip84 _ x t a c d v e h = keypathBitcoinNewBip84 _ x t a c d v e h
    unfold keypathBitcoinNewBip84
    rw [(C92_constructors p W.profile t a c d).2.2.1]
  | ethereumNew a =>
    show keypathEthereumNew _ x a v e h = keypathEthereumNew _ x a v e h
    unfold keypathEthereumNew
    rw [(C92_constructors p W.profile true a 0 0).2.2.2.1]
  | cardanoNew a c d =>
    show keypathCardanoNew _ x a c d v e h = keypathCardanoNew _ x a c d v e h
    unfold keypathCardanoNew
    rw [(C92_constructors p W.profile true a c d).2.2.2.2]
  | _ => rfl

/-- C92: a C program that asks for no path with such a number runs alike in every build, call by call: return values, variables and memory. -/
theorem C92_program (W : Build) (p : Profile) (ops : List Op) (s : State) (hops : ∀ op ∈ ops, ¬ AsksOverflow op) :
    s.run { W with profile := p } ops = s.run W ops ∧ (Follows { W with profile := p } ops s ↔ Follows W ops s) := by
  have hstep : ∀ op, ¬ AsksOverflow op → ∀ s : State, s.step { W with profile := p } op = s.step W op := by
    intro op h s
    cases op with
    | call k f x j v e =>
      unfold State.step
      dsimp only
      rw [call_same W p x _ k f v e j _ h]
    | delete j =>
      unfold State.step
      dsimp only
      split
      · rfl
      · rename_i v _
        have : delete { W with profile := p } v.kind v.val = delete W v.kind v.val := by
          obtain ⟨k, u⟩ := v
          cases k <;> rfl
        rw [this]
  induction ops generalizing s with
  | nil => exact ⟨rfl, Iff.rfl⟩
  | cons op ops ih =>
    have h1 := hstep op (hops op (.head _)) s
    have ih := fun s => ih s fun o ho => hops o (.tail _ ho)
    constructor
    · unfold State.run
      rw [h1]
      cases s.step W op with
      | next s' => exact (ih s').1
      | _ => rfl
    · unfold Follows
      rw [h1]
      exact and_congr_right fun _ => forall_congr' fun s' => imp_congr_right fun _ => (ih s').2

theorem fromString_body (s : CText) (t : Str) (hs : s.val = Str.utf8 t) (W : Build) (x : Ctx) (ptr : Ptr) (v : Val .path) (e : ErrorPtr)
    (h : Heap) : (Fn.keypathFromString s).call W x ptr v e h =
      respond (handleExceptionResult x (pathResult (Path.from W.profile t))) v e h := by
  have hr : (s.rust : CM KC.Error Str) h = .ok t h := by rw [text_rust, hs, Json.ofUtf8_utf8]
  show keypathFromString W x s v e h = _
  unfold keypathFromString
  rw [respond_result, respond_result]
  congr 1
  show (s.rust : CM KC.Error Str).bind _ h = _
  unfold CM.bind
  rw [hr]

/-- C92: a text with such a number that a release build accepts: there C gets a path, while in a debug build the same call returns false with
the panic, leaving the variable alone. -/
theorem C92_parting (W : Build) (s : CText) (t : Str) (hs : s.val = Str.utf8 t) (ho : Overflows t) (k : Path)
    (hk : Path.from .release t = .ok k) (x : Ctx) (hx : '\x00' ∉ x.panic.message) (ptr : Ptr) (v : CKeyPath) (e : ErrorPtr) (h : Heap) :
    (Fn.keypathFromString s).call { W with profile := .release } x ptr v e h =
      .ret true ⟨k.purpose, k.coin, k.account, k.change, k.address⟩ e h ∧
    ∃ r h', (Fn.keypathFromString s).call { W with profile := .debug } x ptr v e h = .ret false v r h' ∧
      Reads W h' .error r (.panic, x.panic.message) := by
  constructor
  · rw [fromString_body s t hs]
    dsimp only
    rw [hk]; rfl
  · rw [fromString_body s t hs]
    dsimp only
    rw [(C92_text t).2 ho]
    exact (C50_guard W x _ v e h h rfl).1 hx

/-- C92, a case: m/44'/60'/2147483649'/0/7 is a path with the soft account 1 in a release build only; m/44'/60'/0'/0/7 is no such text. -/
theorem C92_case : Overflows "m/44'/60'/2147483649'/0/7".toList ∧
    Path.from .release "m/44'/60'/2147483649'/0/7".toList = .ok ⟨0x8000002C, 0x8000003C, 1, 0, 7⟩ ∧
    Path.from .debug "m/44'/60'/2147483649'/0/7".toList = .panic ∧
    (∀ p, Path.from p "m/44'/60'/0'/0/7".toList = .ok ⟨0x8000002C, 0x8000003C, 0x80000000, 0, 7⟩) ∧
    ¬ Overflows "m/44'/60'/0'/0/7".toList := by
  have h1 : Path.from .release "m/44'/60'/2147483649'/0/7".toList = .ok ⟨0x8000002C, 0x8000003C, 1, 0, 7⟩ := by decide +kernel
  have h2 : Path.from .debug "m/44'/60'/2147483649'/0/7".toList = .panic := by decide +kernel
  have h3 : Path.from .debug "m/44'/60'/0'/0/7".toList = .ok ⟨0x8000002C, 0x8000003C, 0x80000000, 0, 7⟩ := by decide +kernel
  have hno : ¬ Overflows "m/44'/60'/0'/0/7".toList := fun h => by
    have := (C92_text _).2 h
    rw [h3] at this
    cases this
  refine ⟨((C92_text _).1.mp ?_).1, h1, h2, fun p => (text_same hno p .debug).trans h3, hno⟩
  rw [h1, h2]
  exact nofun

end KC.Props
