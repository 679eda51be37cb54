import Verif.Proofs.Live
import Verif.Props.Keys
/-
C104: what a key does with a path of the caller that may answer differently each time it is asked.
-/
namespace KC.Props
open KC KC.Spec KC.Spec.Live KC.Spec.Bip32 KC.Secp KC.LM
open KC.KeyPath (Path)

/-! ### Lemmas -/

/-- A key that derives with `D` and then works on secp256k1. -/
structure SecpLive (H : Hashes) (C : Curve) (k : LiveKey) (D : Live → LM XPrv) : Prop where
  pub : ∀ L, k.pubKey L = (D L >>= fun pk => lift (.ok (C.ser (C.pub pk.key))))
  sign : ∀ m L, k.sign m L = (D L >>= fun pk => lift ((pk.sign H C m).mapErr Key.Error.ofSecpSign))
  verify : ∀ m s L, k.verify m s L = (D L >>= fun pk => lift ((pubVerify H C (C.pub pk.key) m s).mapErr Key.Error.ofSecp))

theorem bitcoin_used (H : Hashes) (C : Curve) (x y : XPrv) (l : Log) :
    WalkP H C [.purpose, .coin, .account, .change, .address] x l (.ok y) ↔
      ∃ g, l = used .bitcoin g ∧ Walk H C x (route .bitcoin g) y := by
  rw [walkP_ok]
  constructor
  · rintro ⟨h, hw⟩
    match l, h with
    | [(.purpose, a), (.coin, b), (.account, c), (.change, d), (.address, e)], _ => exact ⟨⟨a, b, c, d, e⟩, rfl, hw⟩
  · rintro ⟨g, rfl, hw⟩
    exact ⟨rfl, hw⟩

theorem ethereum_used (H : Hashes) (C : Curve) (x z y : XPrv) (l : Log) (hz : Walk H C x [0x8000002C, 0x8000003C] z) :
    WalkP H C [.account, .change, .address] z l (.ok y) ↔
      ∃ g, l = used .ethereum g ∧ Walk H C x (route .ethereum g) y := by
  have hr : ∀ g, route .ethereum g = [0x8000002C, 0x8000003C] ++ [g.account, g.change, g.address] := fun _ => rfl
  rw [walkP_ok]
  constructor
  · rintro ⟨h, hw⟩
    match l, h with
    | [(.account, c), (.change, d), (.address, e)], _ =>
      exact ⟨⟨0, 0, c, d, e⟩, rfl, by rw [hr]; exact Walk_append.mpr ⟨z, hz, hw⟩⟩
  · rintro ⟨g, rfl, hw⟩
    rw [hr] at hw
    obtain ⟨z', hz', hw⟩ := Walk_append.mp hw
    rw [Walk_unique hz hz']
    exact ⟨rfl, hw⟩

/-- What loading gives, on secp256k1. -/
theorem secp_live (H : Hashes) (C : Curve) (E : Cardano.Ed) (net : Net) (d : Bytes) (k : LiveKey) (hn : net ≠ .cardano)
    (hk : liveOf H C E net d = .ok k) :
    ∃ root D Q, Layout H root d ∧ SecpLive H C k D ∧ (∀ L, Does L (D L) (Before net order Q)) ∧
      (∀ l y, Q l (.ok y) ↔ ∃ g, l = used net g ∧ Walk H C root (route net g) y) ∧
      ∀ l e, Q l (.err e) → ∃ e', e = Key.Error.ofSecp e' := by
  cases net with
  | cardano => exact absurd rfl hn
  | bitcoin =>
    obtain ⟨x, hx, rfl⟩ := Res.map_eq_ok.mp hk
    exact ⟨x, Bitcoin.livePrivate H C x, _, (fromData_ok H d x).mp (Res.mapErr_eq_ok.mp hx),
      ⟨fun _ => rfl, fun _ _ => rfl, fun _ _ _ => rfl⟩, bitcoin_live H C x, fun l y => bitcoin_used H C x y l,
      fun _ _ h => walkP_err h⟩
  | ethereum =>
    obtain ⟨y, hy, rfl⟩ := Res.map_eq_ok.mp hk
    obtain ⟨x, hx, hw⟩ := Res.bind_eq_ok.mp (Res.mapErr_eq_ok.mp hy)
    have hz : Walk H C x [0x8000002C, 0x8000003C] y := by
      rw [← walk_ok, walk_cons2]
      simp only [walk_one]
      exact hw
    exact ⟨x, Ethereum.livePrivate H C y, _, (fromData_ok H d x).mp hx,
      ⟨fun _ => rfl, fun _ _ => rfl, fun _ _ _ => rfl⟩, ethereum_live H C y, fun l z => ethereum_used H C x y z l hz,
      fun _ _ h => walkP_err h⟩

/-- What loading gives, for Cardano. -/
theorem cardano_live_load (H : Hashes) (C : Curve) (E : Cardano.Ed) (d : Bytes) (k : LiveKey) (hk : liveOf H C E .cardano d = .ok k) :
    ∃ x : Cardano.XPrv, x.val = d ∧ k = Cardano.liveKey E ([0x8000002C, 0x80000717].foldl E.derive x) := by
  obtain ⟨y, hy, rfl⟩ := Res.map_eq_ok.mp hk
  obtain ⟨x, hx, hy'⟩ := cardano_load H C E d (Cardano.keyObj E y) (Res.map_eq_ok.mpr ⟨y, hy, rfl⟩)
  refine ⟨x, hx, ?_⟩
  unfold Cardano.keyFromData at hy
  split at hy
  · cases hy
  · obtain ⟨a, ha, hy⟩ := Res.bind_eq_ok.mp hy
    obtain ⟨w, hw, hy⟩ := Res.bind_eq_ok.mp hy
    cases hy
    rw [Res.mapErr_eq_ok] at hw
    have hwa : w = a := by
      unfold Cardano.fromBytesVerified at hw
      split at hw
      · cases hw
      · split at hw
        · cases hw
        · cases hw; rfl
    subst hwa
    have : x = w := by
      apply Subtype.ext
      unfold Bytes.copyFrom at ha
      split at ha
      · cases ha; exact hx
      · cases ha
    rw [this]; rfl

theorem fst_bind {α β : Type} (m : LM α) (f : α → LM β) (h : List Part) :
    ((m >>= f) h).1 = (m h).1 >>= fun a => (f a (m h).2).1 := by
  show (LM.bind m f h).1 = _
  unfold LM.bind
  rcases m h with ⟨_ | _ | _, h1⟩ <;> rfl

theorem fst_lift {α : Type} (r : Res Key.Error α) (h : List Part) : (lift r h).1 = r := rfl
theorem fst_pure {α : Type} (a : α) (h : List Part) : ((pure a : LM α) h).1 = .ok a := rfl

theorem fst_ite {α : Type} (c : Prop) [Decidable c] (a b : LM α) (h : List Part) :
    ((if c then a else b) h).1 = if c then (a h).1 else (b h).1 := by split <;> rfl

theorem fixed_purpose (p : Path) (h : List Part) : (ask (.fixed p) .purpose h).1 = .ok p.purpose := rfl
theorem fixed_coin (p : Path) (h : List Part) : (ask (.fixed p) .coin h).1 = .ok p.coin := rfl
theorem fixed_account (p : Path) (h : List Part) : (ask (.fixed p) .account h).1 = .ok p.account := rfl
theorem fixed_change (p : Path) (h : List Part) : (ask (.fixed p) .change h).1 = .ok p.change := rfl
theorem fixed_address (p : Path) (h : List Part) : (ask (.fixed p) .address h).1 = .ok p.address := rfl

theorem mapErr_bind {ε ε' α β : Type} (f : ε → ε') (r : Res ε α) (g : α → Res ε β) :
    (r >>= g).mapErr f = r.mapErr f >>= fun a => (g a).mapErr f := by
  cases r <;> rfl

theorem bitcoin_fixed (H : Hashes) (C : Curve) (x : XPrv) (p : Path) (h : List Part) :
    (Bitcoin.livePrivate H C x (.fixed p) h).1 = Bitcoin.derivePrivate H C x p := by
  unfold Bitcoin.livePrivate Bitcoin.derivePrivate Live.checkCoin Live.checkAccount Live.checkChange Live.checkAddress
  simp only [fst_bind, fst_ite, fst_lift, fst_pure, fixed_purpose, fixed_coin, fixed_account, fixed_change, fixed_address, Res.bind_ok]
  by_cases h2 : p.coin ≠ Bitcoin.coinType
  · simp only [if_pos h2, Res.bind_err]
  simp only [if_neg h2, Res.bind_ok]
  by_cases h3 : p.account < KeyPath.softUpperBound
  · simp only [if_pos h3, Res.bind_err]
  simp only [if_neg h3, Res.bind_ok]
  by_cases h4 : p.change = 0
  · have h4' : ¬ (p.change ≠ 0 ∧ p.change ≠ 1) := fun h => h.1 h4
    simp only [if_neg h4', if_neg (not_not.mpr h4), Res.bind_ok]
    by_cases h6 : p.address ≥ KeyPath.softUpperBound
    · simp only [if_pos h6, Res.bind_err]
    · simp only [if_neg h6, Res.bind_ok, mapErr_bind]
  · by_cases h5 : p.change = 1
    · have h4' : ¬ (p.change ≠ 0 ∧ p.change ≠ 1) := fun h => h.2 h5
      simp only [if_neg h4', if_pos (show p.change ≠ 0 from h4), if_neg (not_not.mpr h5), Res.bind_ok]
      by_cases h6 : p.address ≥ KeyPath.softUpperBound
      · simp only [if_pos h6, Res.bind_err]
      · simp only [if_neg h6, Res.bind_ok, mapErr_bind]
    · simp only [if_pos (show p.change ≠ 0 ∧ p.change ≠ 1 from ⟨h4, h5⟩), if_pos (show p.change ≠ 0 from h4),
        if_pos (show p.change ≠ 1 from h5), Res.bind_err]

theorem ethereum_fixed (H : Hashes) (C : Curve) (x : XPrv) (p : Path) (h : List Part) :
    (Ethereum.livePrivate H C x (.fixed p) h).1 = Ethereum.derivePrivate H C x p := by
  unfold Ethereum.livePrivate Ethereum.derivePrivate Live.checkPurpose Live.checkCoin Live.checkAccount Live.checkChange Live.checkAddress
  simp only [fst_bind, fst_ite, fst_lift, fst_pure, fixed_purpose, fixed_coin, fixed_account, fixed_change, fixed_address, Res.bind_ok]
  by_cases h1 : p.purpose ≠ KeyPath.bip44Purpose
  · simp only [if_pos h1, Res.bind_err]
  simp only [if_neg h1, Res.bind_ok]
  by_cases h2 : p.coin ≠ Ethereum.coinType
  · simp only [if_pos h2, Res.bind_err]
  simp only [if_neg h2, Res.bind_ok]
  by_cases h3 : p.account < KeyPath.softUpperBound
  · simp only [if_pos h3, Res.bind_err]
  simp only [if_neg h3, Res.bind_ok]
  by_cases h4 : p.change = 0
  · have h4' : ¬ (p.change ≠ 0 ∧ p.change ≠ 1) := fun h => h.1 h4
    simp only [if_neg h4', if_neg (not_not.mpr h4), Res.bind_ok]
    by_cases h6 : p.address ≥ KeyPath.softUpperBound
    · simp only [if_pos h6, Res.bind_err]
    · simp only [if_neg h6, Res.bind_ok, mapErr_bind]
  · by_cases h5 : p.change = 1
    · have h4' : ¬ (p.change ≠ 0 ∧ p.change ≠ 1) := fun h => h.2 h5
      simp only [if_neg h4', if_pos (show p.change ≠ 0 from h4), if_neg (not_not.mpr h5), Res.bind_ok]
      by_cases h6 : p.address ≥ KeyPath.softUpperBound
      · simp only [if_pos h6, Res.bind_err]
      · simp only [if_neg h6, Res.bind_ok, mapErr_bind]
    · simp only [if_pos (show p.change ≠ 0 ∧ p.change ≠ 1 from ⟨h4, h5⟩), if_pos (show p.change ≠ 0 from h4),
        if_pos (show p.change ≠ 1 from h5), Res.bind_err]

theorem cardano_fixed (E : Cardano.Ed) (x : Cardano.XPrv) (p : Path) (h : List Part) :
    (Cardano.livePrivate E x (.fixed p) h).1 = Cardano.derivePrivate E x p := by
  unfold Cardano.livePrivate Cardano.derivePrivate Live.checkPurpose Live.checkCoin Live.checkAccount Live.checkChange Live.checkAddress
  simp only [fst_bind, fst_ite, fst_lift, fst_pure, fixed_purpose, fixed_coin, fixed_account, fixed_change, fixed_address, Res.bind_ok]
  by_cases h1 : p.purpose ≠ KeyPath.bip44Purpose
  · simp only [if_pos h1, Res.bind_err]
  simp only [if_neg h1, Res.bind_ok]
  by_cases h2 : p.coin ≠ Cardano.coinType
  · simp only [if_pos h2, Res.bind_err]
  simp only [if_neg h2, Res.bind_ok]
  by_cases h3 : p.account < KeyPath.softUpperBound
  · simp only [if_pos h3, Res.bind_err]
  simp only [if_neg h3, Res.bind_ok]
  by_cases h4 : p.change = 0
  · have h4' : ¬ (p.change ≠ 0 ∧ p.change ≠ 1) := fun h => h.1 h4
    simp only [if_neg h4', if_neg (not_not.mpr h4), Res.bind_ok]
    by_cases h6 : p.address ≥ KeyPath.softUpperBound
    · simp only [if_pos h6, Res.bind_err]
    · simp only [if_neg h6, Res.bind_ok]
  · by_cases h5 : p.change = 1
    · have h4' : ¬ (p.change ≠ 0 ∧ p.change ≠ 1) := fun h => h.2 h5
      simp only [if_neg h4', if_pos (show p.change ≠ 0 from h4), if_neg (not_not.mpr h5), Res.bind_ok]
      by_cases h6 : p.address ≥ KeyPath.softUpperBound
      · simp only [if_pos h6, Res.bind_err]
      · simp only [if_neg h6, Res.bind_ok]
    · simp only [if_pos (show p.change ≠ 0 ∧ p.change ≠ 1 from ⟨h4, h5⟩), if_pos (show p.change ≠ 0 from h4),
        if_pos (show p.change ≠ 1 from h5), Res.bind_err]

/-! ### C104 -/

/-- With a path that always answers the same, the keys are those of `Model/Keys`. -/
theorem C104_fixed (H : Hashes) (C : Curve) (E : Cardano.Ed) (net : Net) (d : Bytes) (k : KeyObj)
    (hk : (factoryOf H C E net).keyFromData d = .ok k) :
    ∃ k', liveOf H C E net d = .ok k' ∧ k'.network = k.network ∧ ∀ p h,
      (k'.pubKey (.fixed p) h).1 = k.pubKey p ∧ (∀ m, (k'.sign m (.fixed p) h).1 = k.sign m p) ∧
      ∀ m s, (k'.verify m s (.fixed p) h).1 = k.verify m s p := by
  cases net with
  | bitcoin =>
    obtain ⟨x, hx, rfl⟩ := Res.map_eq_ok.mp hk
    refine ⟨Bitcoin.liveKey H C x, Res.map_eq_ok.mpr ⟨x, hx, rfl⟩, rfl, fun p h => ⟨?_, fun m => ?_, fun m s => ?_⟩⟩
    · show ((Bitcoin.livePrivate H C x _ >>= _) h).1 = Res.map _ _
      rw [fst_bind, bitcoin_fixed]
      cases Bitcoin.derivePrivate H C x p <;> rfl
    · show ((Bitcoin.livePrivate H C x _ >>= _) h).1 = (_ >>= _)
      rw [fst_bind, bitcoin_fixed]; rfl
    · show ((Bitcoin.livePrivate H C x _ >>= _) h).1 = (_ >>= _)
      rw [fst_bind, bitcoin_fixed]; rfl
  | ethereum =>
    obtain ⟨x, hx, rfl⟩ := Res.map_eq_ok.mp hk
    refine ⟨Ethereum.liveKey H C x, Res.map_eq_ok.mpr ⟨x, hx, rfl⟩, rfl, fun p h => ⟨?_, fun m => ?_, fun m s => ?_⟩⟩
    · show ((Ethereum.livePrivate H C x _ >>= _) h).1 = Res.map _ _
      rw [fst_bind, ethereum_fixed]
      cases Ethereum.derivePrivate H C x p <;> rfl
    · show ((Ethereum.livePrivate H C x _ >>= _) h).1 = (_ >>= _)
      rw [fst_bind, ethereum_fixed]; rfl
    · show ((Ethereum.livePrivate H C x _ >>= _) h).1 = (_ >>= _)
      rw [fst_bind, ethereum_fixed]; rfl
  | cardano =>
    obtain ⟨x, hx, rfl⟩ := Res.map_eq_ok.mp hk
    refine ⟨Cardano.liveKey E x, Res.map_eq_ok.mpr ⟨x, hx, rfl⟩, rfl, fun p h => ⟨?_, fun m => ?_, fun m s => ?_⟩⟩
    · show ((Cardano.livePrivate E x _ >>= _) h).1 = Res.map _ _
      rw [fst_bind, cardano_fixed]
      cases Cardano.derivePrivate E x p <;> rfl
    · show ((Cardano.livePrivate E x _ >>= _) h).1 = Res.map _ _
      rw [fst_bind, cardano_fixed]
      cases Cardano.derivePrivate E x p <;> rfl
    · show ((if s.length < Cardano.signatureSize then _ else _ : LM Bool) h).1 = if s.length < Cardano.signatureSize then _ else _
      split
      · rfl
      · rw [fst_bind, fst_lift]
        congr 1
        funext t
        rw [fst_bind, cardano_fixed]
        cases Cardano.derivePrivate E x p <;> rfl

/-- On secp256k1, an operation succeeds exactly if the path passes the checks with some answers and, asked again, gives numbers along
which there is a key: that key is the one used, whatever the answers that were checked. -/
theorem C104_secp (H : Hashes) (C : Curve) (E : Cardano.Ed) (net : Net) (d : Bytes) (k : LiveKey) (hn : net ≠ .cardano)
    (hk : liveOf H C E net d = .ok k) :
    ∃ root, Layout H root d ∧ ∀ L h,
      (∀ out, (k.pubKey L h).1 = .ok out ↔ ∃ l g y, Says L h (l ++ used net g) ∧ Checks net order l none ∧
        Walk H C root (route net g) y ∧ out = C.ser (C.pub y.key)) ∧
      (∀ m s, (k.sign m L h).1 = .ok s ↔ ∃ l g y, Says L h (l ++ used net g) ∧ Checks net order l none ∧
        Walk H C root (route net g) y ∧
        ∃ r t v, C.sign (H.keccak256 m) y.key = .ok (r, t, v) ∧ (v = 0 ∨ v = 1) ∧ s = r ++ t ++ [v]) ∧
      (∀ m s b, (k.verify m s L h).1 = .ok b ↔ ∃ l g y, Says L h (l ++ used net g) ∧ Checks net order l none ∧
        Walk H C root (route net g) y ∧ s.length = 64 ∧ b = C.verify (H.keccak256 m) s (C.pub y.key)) := by
  obtain ⟨root, D, Q, hL, hs, hD, hQ, -⟩ := secp_live H C E net d k hn hk
  refine ⟨root, hL, fun L h => ?_⟩
  have key : ∀ {β : Type} (f : XPrv → Res Key.Error β) (b : β), ((D L >>= fun a => lift (f a)) h).1 = .ok b ↔
      ∃ l g y, Says L h (l ++ used net g) ∧ Checks net order l none ∧ Walk H C root (route net g) y ∧ f y = .ok b := by
    intro β f b
    rw [(does_then (hD L) f h).1]
    constructor
    · rintro ⟨l, y, h1, ⟨e, -, h2⟩ | ⟨l1, l2, rfl, h2, h3⟩, h4⟩
      · cases h2
      · obtain ⟨g, rfl, h5⟩ := (hQ l2 y).mp h3
        exact ⟨l1, g, y, h1, h2, h5, h4⟩
    · rintro ⟨l, g, y, h1, h2, h3, h4⟩
      exact ⟨_, y, h1, Or.inr ⟨l, _, rfl, h2, (hQ ..).mpr ⟨g, rfl, h3⟩⟩, h4⟩
  refine ⟨fun out => ?_, fun m s => ?_, fun m s b => ?_⟩
  · rw [hs.pub, key]
    simp only [Res.ok.injEq, eq_comm]
  · rw [hs.sign, key]
    simp only [Res.mapErr_eq_ok, sign_ok]
  · rw [hs.verify, key]
    have : ∀ y : XPrv, (pubVerify H C (C.pub y.key) m s).mapErr Key.Error.ofSecp = .ok b ↔
        s.length = 64 ∧ b = C.verify (H.keccak256 m) s (C.pub y.key) := by
      intro y
      rw [Res.mapErr_eq_ok, pubVerify]
      by_cases hl : s.length = 64
      · rw [if_neg (not_not.mpr hl)]
        simp [hl, eq_comm]
      · rw [if_pos hl]
        simp [hl]
    simp only [this]

/-- The same for Cardano. -/
theorem C104_cardano (H : Hashes) (C : Curve) (E : Cardano.Ed) (d : Bytes) (k : LiveKey) (hk : liveOf H C E .cardano d = .ok k) :
    ∃ root : Cardano.XPrv, root.val = d ∧ ∀ L h,
      (∀ out, (k.pubKey L h).1 = .ok out ↔ ∃ l g, Says L h (l ++ used .cardano g) ∧ Checks .cardano order l none ∧
        out = E.pub ((route .cardano g).foldl E.derive root)) ∧
      (∀ m s, (k.sign m L h).1 = .ok s ↔ ∃ l g, Says L h (l ++ used .cardano g) ∧ Checks .cardano order l none ∧
        s = E.sign ((route .cardano g).foldl E.derive root) m) ∧
      (∀ m s b, (k.verify m s L h).1 = .ok b ↔ s.length = 64 ∧ ∃ l g, Says L h (l ++ used .cardano g) ∧
        Checks .cardano order l none ∧ b = E.verify ((route .cardano g).foldl E.derive root) m s) := by
  obtain ⟨x, hx, rfl⟩ := cardano_live_load H C E d k hk
  refine ⟨x, hx, fun L h => ?_⟩
  have key : ∀ {β : Type} (f : Cardano.XPrv → β) (b : β),
      ((Cardano.livePrivate E ([0x8000002C, 0x80000717].foldl E.derive x) L >>= fun a => lift (.ok (f a))) h).1 = .ok b ↔
      ∃ l g, Says L h (l ++ used .cardano g) ∧ Checks .cardano order l none ∧
        b = f ((route .cardano g).foldl E.derive x) := by
    intro β f b
    rw [(does_then (cardano_live E _ L) (fun a => .ok (f a)) h).1]
    constructor
    · rintro ⟨l, y, h1, ⟨e, -, h2⟩ | ⟨l1, l2, rfl, h2, h3, h5⟩, h4⟩
      · cases h2
      · cases h5; cases h4
        match l2, h3 with
        | [(.account, i), (.change, j), (.address, t)], _ => exact ⟨l1, ⟨0, 0, i, j, t⟩, h1, h2, rfl⟩
    · rintro ⟨l, g, h1, h2, rfl⟩
      exact ⟨_, _, h1, Or.inr ⟨l, _, rfl, h2, rfl, rfl⟩, rfl⟩
  refine ⟨fun out => key E.pub out, fun m s => key (fun y => E.sign y m) s, fun m s b => ?_⟩
  show ((if s.length < Cardano.signatureSize then _ else _ : LM Bool) h).1 = _ ↔ _
  by_cases hl : s.length = 64
  · rw [if_neg (by rw [hl]; decide), Bytes.copyFrom_eq (show s.length = Cardano.signatureSize from hl)]
    rw [← key (fun y => E.verify y m s) b]
    simp only [hl, true_and]
    rfl
  · simp only [hl, false_and, iff_false]
    split
    · exact nofun
    · rw [fst_bind, Bytes.copyFrom, dif_neg (show ¬ s.length = Cardano.signatureSize from hl)]; exact nofun

/-- A path is refused by the first check that fails, and the error carries what the path answered when asked once more. -/
theorem C104_refused (H : Hashes) (C : Curve) (E : Cardano.Ed) (net : Net) (d : Bytes) (k : LiveKey)
    (hk : liveOf H C E net d = .ok k) (L : Live) (h : List Part) (e : KeyPath.Error) :
    ((k.pubKey L h).1 = .err (.invalidKeyPath e) ↔ ∃ l, Says L h l ∧ Checks net order l (some e)) ∧
    (∀ m, (k.sign m L h).1 = .err (.invalidKeyPath e) ↔ ∃ l, Says L h l ∧ Checks net order l (some e)) ∧
    ∀ m s, (net = .cardano → s.length = 64) →
      ((k.verify m s L h).1 = .err (.invalidKeyPath e) ↔ ∃ l, Says L h l ∧ Checks net order l (some e)) := by
  by_cases hn : net = .cardano
  · subst hn
    obtain ⟨x, hx, rfl⟩ := cardano_live_load H C E d k hk
    have key : ∀ {β : Type} (f : Cardano.XPrv → β),
        ((Cardano.livePrivate E ([0x8000002C, 0x80000717].foldl E.derive x) L >>= fun a => lift (.ok (f a))) h).1 =
          .err (.invalidKeyPath e) ↔ ∃ l, Says L h l ∧ Checks .cardano order l (some e) := by
      intro β f
      rw [(does_then (cardano_live E _ L) (fun a => .ok (f a)) h).2]
      constructor
      · rintro ⟨l, h1, (⟨e', h2, h3⟩ | ⟨l1, l2, -, -, -, h3⟩) | ⟨a, -, h3⟩⟩
        · cases h3; exact ⟨l, h1, h2⟩
        · cases h3
        · cases h3
      · rintro ⟨l, h1, h2⟩
        exact ⟨l, h1, Or.inl (Or.inl ⟨e, h2, rfl⟩)⟩
    refine ⟨key E.pub, fun m => key fun y => E.sign y m, fun m s hs => ?_⟩
    have hl := hs rfl
    show ((if s.length < Cardano.signatureSize then _ else _ : LM Bool) h).1 = _ ↔ _
    rw [if_neg (by rw [hl]; decide), Bytes.copyFrom_eq (show s.length = Cardano.signatureSize from hl)]
    exact key fun y => E.verify y m s
  · obtain ⟨root, D, Q, hL, hs, hD, -, hQ⟩ := secp_live H C E net d k hn hk
    have key : ∀ {β : Type} (f : XPrv → Res Key.Error β), (∀ a, f a ≠ .err (.invalidKeyPath e)) →
        (((D L >>= fun a => lift (f a)) h).1 = .err (.invalidKeyPath e) ↔ ∃ l, Says L h l ∧ Checks net order l (some e)) := by
      intro β f hf
      rw [(does_then (hD L) f h).2]
      constructor
      · rintro ⟨l, h1, (⟨e', h2, h3⟩ | ⟨l1, l2, -, -, h3⟩) | ⟨a, -, h3⟩⟩
        · cases h3; exact ⟨l, h1, h2⟩
        · obtain ⟨e', h3⟩ := hQ _ _ h3
          exact absurd h3.symm (ofSecp_ne_path e' e)
        · exact absurd h3 (hf a)
      · rintro ⟨l, h1, h2⟩
        exact ⟨l, h1, Or.inl (Or.inl ⟨e, h2, rfl⟩)⟩
    refine ⟨?_, fun m => ?_, fun m s _ => ?_⟩
    · rw [hs.pub]; exact key _ fun _ => nofun
    · rw [hs.sign]
      refine key _ fun a ha => ?_
      revert ha
      cases a.sign H C m with
      | ok _ => exact nofun
      | panic => exact nofun
      | err e' => cases e' <;> exact nofun
    · rw [hs.verify]
      refine key _ fun a ha => ?_
      revert ha
      cases pubVerify H C (C.pub a.key) m s with
      | ok _ => exact nofun
      | panic => exact nofun
      | err e' => exact fun ha => ofSecp_ne_path e' e (Res.err.inj ha)

/-- A path that passes the checks of a network and is then `g`: good answers while it is checked, those of `g` after. -/
def turncoat (net : Net) (g : Path) : Live := fun h q =>
  if h.length < (if net = .bitcoin then 4 else 5) then some (match q with
    | .purpose => 0x8000002C
    | .coin => netCoin net
    | .account => 0x80000000
    | .change => 0
    | .address => 0)
  else Live.fixed g h q

theorem turncoat_passes (net : Net) (g : Path) : ∃ l, Says (turncoat net g) [] (l ++ used net g) ∧ Checks net order l none := by
  have hc : Check net .coin [(.coin, netCoin net)] none := .coin _ (netCoin_toNat net)
  have hr : Checks net [.coin, .account, .change, .address] [(.coin, netCoin net), (.account, 0x80000000), (.change, 0), (.address, 0)]
      none :=
    .next hc <| .next (.account 0x80000000 (by decide)) <| .next .change0 <| .next (l' := []) (.address 0 (by decide)) .done
  cases net with
  | bitcoin =>
    refine ⟨[(.coin, netCoin .bitcoin), (.account, 0x80000000), (.change, 0), (.address, 0)], ?_, .next (.anyPurpose rfl) hr⟩
    simp [Says, turncoat, used, Live.fixed]
  | ethereum =>
    refine ⟨[(.purpose, 0x8000002C), (.coin, netCoin .ethereum), (.account, 0x80000000), (.change, 0), (.address, 0)], ?_,
      .next (.purpose _ (by decide) (by decide)) hr⟩
    simp [Says, turncoat, used, Live.fixed]
  | cardano =>
    refine ⟨[(.purpose, 0x8000002C), (.coin, netCoin .cardano), (.account, 0x80000000), (.change, 0), (.address, 0)], ?_,
      .next (.purpose _ (by decide) (by decide)) hr⟩
    simp [Says, turncoat, used, Live.fixed]

/-- So the checks bind nothing: for any five numbers there is a path that passes them and whose key is the one at those numbers (below
44' and the coin, where the network's key starts there). -/
theorem C104_any (H : Hashes) (C : Curve) (E : Cardano.Ed) (net : Net) (d : Bytes) (k : LiveKey) (hn : net ≠ .cardano)
    (hk : liveOf H C E net d = .ok k) :
    ∃ root, Layout H root d ∧ ∀ g, ∃ L : Live, (∀ h q, (L h q).isSome) ∧ ∀ y, Walk H C root (route net g) y →
      (k.pubKey L []).1 = .ok (C.ser (C.pub y.key)) ∧
      ∀ m r t v, C.sign (H.keccak256 m) y.key = .ok (r, t, v) → v = 0 ∨ v = 1 → (k.sign m L []).1 = .ok (r ++ t ++ [v]) := by
  obtain ⟨root, hL, hk⟩ := C104_secp H C E net d k hn hk
  refine ⟨root, hL, fun g => ⟨turncoat net g, fun h q => ?_, fun y hy => ?_⟩⟩
  · unfold turncoat Live.fixed
    by_cases h.length < (if net = .bitcoin then 4 else 5) <;> simp only [*, if_true, if_false, Option.isSome_some]
  · obtain ⟨l, h1, h2⟩ := turncoat_passes net g
    refine ⟨((hk _ _).1 _).mpr ⟨l, g, y, h1, h2, hy, rfl⟩, fun m r t v hs hv => ?_⟩
    exact ((hk _ _).2.1 _ _).mpr ⟨l, g, y, h1, h2, hy, r, t, v, hs, hv, rfl⟩

/-- The same for Cardano. -/
theorem C104_any_cardano (H : Hashes) (C : Curve) (E : Cardano.Ed) (d : Bytes) (k : LiveKey) (hk : liveOf H C E .cardano d = .ok k) :
    ∃ root : Cardano.XPrv, root.val = d ∧ ∀ g, ∃ L : Live, (∀ h q, (L h q).isSome) ∧
      (k.pubKey L []).1 = .ok (E.pub ((route .cardano g).foldl E.derive root)) ∧
      ∀ m, (k.sign m L []).1 = .ok (E.sign ((route .cardano g).foldl E.derive root) m) := by
  obtain ⟨root, hL, hk⟩ := C104_cardano H C E d k hk
  refine ⟨root, hL, fun g => ⟨turncoat .cardano g, fun h q => ?_, ?_⟩⟩
  · unfold turncoat Live.fixed
    by_cases h.length < (if Net.cardano = .bitcoin then 4 else 5) <;> simp only [*, if_true, if_false, Option.isSome_some]
  · obtain ⟨l, h1, h2⟩ := turncoat_passes .cardano g
    exact ⟨((hk _ _).1 _).mpr ⟨l, g, h1, h2, rfl⟩, fun m => ((hk _ _).2.1 _ _).mpr ⟨l, g, h1, h2, rfl⟩⟩

/-- In particular the Bitcoin key of a wallet signs for its Ethereum accounts: for each path of theirs there is a path with which the
Bitcoin key gives the same public key and the same signatures. -/
theorem C104_cross (H : Hashes) (C : Curve) (E : Cardano.Ed) (d : Bytes) (ke : KeyObj) (kb : LiveKey) (p : Path)
    (he : (factoryOf H C E .ethereum).keyFromData d = .ok ke) (hb : liveOf H C E .bitcoin d = .ok kb) :
    ∃ L : Live, (∀ out, ke.pubKey p = .ok out → (kb.pubKey L []).1 = .ok out) ∧
      ∀ m s, ke.sign m p = .ok s → (kb.sign m L []).1 = .ok s := by
  obtain ⟨k', hk', -, hf⟩ := C104_fixed H C E .ethereum d ke he
  obtain ⟨re, hle, hse⟩ := C104_secp H C E .ethereum d k' (by decide) hk'
  obtain ⟨rb, hlb, hsb⟩ := C104_secp H C E .bitcoin d kb (by decide) hb
  have hrr : re = rb := by
    rw [← fromData_ok] at hle hlb
    rw [hle] at hlb
    cases hlb; rfl
  subst hrr
  obtain ⟨f1, f2, -⟩ := hf p []
  have hg : ∀ l g, Says (.fixed p) [] (l ++ used .ethereum g) →
      route .ethereum g = route .bitcoin ⟨0x8000002C, 0x8000003C, p.account, p.change, p.address⟩ := by
    intro l g h
    obtain ⟨-, h⟩ := (says_append ..).mp h
    simp only [used, Says, Live.fixed, Option.some.injEq] at h
    obtain ⟨h1, h2, h3, -⟩ := h
    simp only [route, h1, h2, h3]
  obtain ⟨l', h1', h2'⟩ := turncoat_passes .bitcoin ⟨0x8000002C, 0x8000003C, p.account, p.change, p.address⟩
  refine ⟨turncoat .bitcoin ⟨0x8000002C, 0x8000003C, p.account, p.change, p.address⟩, fun out ho => ?_, fun m s ho => ?_⟩
  · rw [← f1] at ho
    obtain ⟨l, g, y, h1, h2, h3, h4⟩ := ((hse _ _).1 _).mp ho
    rw [hg l g h1] at h3
    exact ((hsb _ _).1 _).mpr ⟨l', _, y, h1', h2', h3, h4⟩
  · rw [← f2] at ho
    obtain ⟨l, g, y, h1, h2, h3, h4⟩ := ((hse _ _).2.1 _ _).mp ho
    rw [hg l g h1] at h3
    exact ((hsb _ _).2.1 _ _).mpr ⟨l', _, y, h1', h2', h3, h4⟩

/-- An error can name as wrong the very number it says was expected. -/
theorem C104_message (H : Hashes) (C : Curve) (E : Cardano.Ed) (net : Net) (d : Bytes) (k : LiveKey) (hk : liveOf H C E net d = .ok k) :
    ∃ (L : Live) (c : UInt32), c.toNat = net.coin + 2 ^ 31 ∧ (k.pubKey L []).1 = .err (.invalidKeyPath (.invalidCoin c c)) := by
  refine ⟨fun h q => some (match q with
    | .purpose => 0x8000002C
    | .coin => if .coin ∈ h then netCoin net else 0
    | _ => 0), netCoin net, netCoin_toNat net, ?_⟩
  rw [(C104_refused H C E net d k hk _ _ _).1]
  have hc : Check net .coin [(.coin, 0), (.coin, netCoin net)] (some (.invalidCoin (netCoin net) (netCoin net))) :=
    .badCoin 0 (netCoin net) (netCoin net) (by show 0 ≠ _; omega) (netCoin_toNat net)
  by_cases hn : net = .bitcoin
  · exact ⟨_, by simp [Says], .next (.anyPurpose hn) (.stop hc)⟩
  · exact ⟨_, by simp [Says], .next (.purpose 0x8000002C hn (by decide)) (.stop hc)⟩

/-- A Cardano key and a path that says change 7, then 1, then 9: the check passes, and the key is the one at 9, which no path of fixed
numbers gets; and one that says account 2, then 2³¹, is refused for account 2³¹. -/
theorem C104_case (E : Cardano.Ed) (x : Cardano.XPrv) :
    (((Cardano.liveKey E x).pubKey (fun h q => some (match q with
      | .purpose => 0x8000002C
      | .coin => 0x80000717
      | .account => 0x80000000
      | .change => if h.count .change = 0 then 7 else if h.count .change = 1 then 1 else 9
      | .address => 3)) []).1 = .ok (E.pub (E.derive (E.derive (E.derive x 0x80000000) 9) 3))) ∧
    ((Cardano.liveKey E x).pubKey (fun h q => some (match q with
      | .purpose => 0x8000002C
      | .coin => 0x80000717
      | .account => if .account ∈ h then 0x80000000 else 2
      | .change => 0
      | .address => 3)) []).1 = .err (.invalidKeyPath (.invalidAccount 0x80000000)) := ⟨rfl, rfl⟩

/-- The hypotheses of `C104_cross` can be met, with a key there to sign with. -/
example (p : Path) (hp : Accepts .ethereum p) : ∃ d ke kb out s,
    (factoryOf Toy.skipHashes Toy.curve toyEd .ethereum).keyFromData d = .ok ke ∧
    liveOf Toy.skipHashes Toy.curve toyEd .bitcoin d = .ok kb ∧ ke.pubKey p = .ok out ∧ ke.sign [1, 2, 3] p = .ok s := by
  have hpu : 2 ^ 31 ≤ p.purpose.toNat := by
    rcases hp.1 with h | h
    · cases h
    · omega
  obtain ⟨d, k, out, s, h1, h2, h3⟩ := toy_signs .ethereum (by decide) p hp hpu [1, 2, 3]
  obtain ⟨root, _, hL, -⟩ := ethereum_load _ _ _ d k h1
  refine ⟨d, k, Bitcoin.liveKey Toy.skipHashes Toy.curve root, out, s, h1, ?_, h2, h3⟩
  show Res.map _ (Res.mapErr _ _) = _
  rw [(fromData_ok ..).mpr hL]; rfl

end KC.Props
