import Verif.Spec.Keys
import Verif.Proofs.Secp
import Verif.Props.KeyPath
/-
Lemmas on the keys of the built-in networks.
-/
namespace KC
open KC.KeyPath (Path)
open KC.Spec KC.Secp
open KC.Props (bound_iff change_iff)

theorem purpose_iff {p : UInt32} : p = KeyPath.bip44Purpose ↔ p.toNat = 44 + 2 ^ 31 := by
  rw [← UInt32.toNat_inj]; rfl

theorem soft_iff {p : UInt32} : p < KeyPath.softUpperBound ↔ p.toNat < 2 ^ 31 := UInt32.lt_iff_toNat_lt

/-- Coin constant of a network. -/
def netCoin : Net → UInt32
  | .bitcoin => Bitcoin.coinType
  | .ethereum => Ethereum.coinType
  | .cardano => Cardano.coinType

/-- The gate of a network, as data. -/
def gate (net : Net) (p : Path) : Option KeyPath.Error :=
  if net ≠ .bitcoin ∧ p.purpose ≠ KeyPath.bip44Purpose then some (.invalidPurpose p.purpose KeyPath.bip44Purpose)
  else if p.coin ≠ netCoin net then some (.invalidCoin p.coin (netCoin net))
  else if p.account < KeyPath.softUpperBound then some (.invalidAccount p.account)
  else if p.change ≠ 0 ∧ p.change ≠ 1 then some (.invalidChange p.change)
  else if p.address ≥ KeyPath.softUpperBound then some (.invalidAddress p.address)
  else none

theorem coin_iff (net : Net) (p : Path) : p.coin = netCoin net ↔ CoinOk net p := by
  cases net <;> (rw [← UInt32.toNat_inj]; rfl)

theorem changeOk_iff (p : Path) : ¬ (p.change ≠ 0 ∧ p.change ≠ 1) ↔ ChangeOk p := by
  rw [change_iff, ChangeOk]; omega

theorem purposeOk_iff (net : Net) (p : Path) : ¬ (net ≠ .bitcoin ∧ p.purpose ≠ KeyPath.bip44Purpose) ↔ PurposeOk net p := by
  rw [PurposeOk, Ne, Ne, purpose_iff]
  by_cases net = .bitcoin <;> simp [*]

theorem gate_fwd (net : Net) (p : Path) :
    (gate net p = none ∧ Accepts net p) ∨ ∃ e, gate net p = some e ∧ Refuses net p e := by
  unfold gate
  split
  · rename_i h1
    exact Or.inr ⟨_, rfl, .purpose (by rw [← purposeOk_iff]; exact not_not.mpr h1)⟩
  rename_i h1; rw [purposeOk_iff] at h1
  split
  · rename_i h2
    exact Or.inr ⟨_, rfl, .coin _ h1 (by rw [← coin_iff]; exact h2) (by cases net <;> rfl)⟩
  rename_i h2; rw [not_not, coin_iff] at h2
  split
  · rename_i h3
    exact Or.inr ⟨_, rfl, .account h1 h2 (by rw [soft_iff] at h3; rw [AccountOk]; omega)⟩
  rename_i h3
  have h3 : AccountOk p := by rw [soft_iff] at h3; rw [AccountOk]; omega
  split
  · rename_i h4
    exact Or.inr ⟨_, rfl, .change h1 h2 h3 (by rw [← changeOk_iff]; exact not_not.mpr h4)⟩
  rename_i h4; rw [changeOk_iff] at h4
  split
  · rename_i h5
    exact Or.inr ⟨_, rfl, .address h1 h2 h3 h4 (by rw [bound_iff] at h5; rw [AddressOk]; omega)⟩
  · rename_i h5
    exact Or.inl ⟨rfl, h1, h2, h3, h4, by rw [bound_iff] at h5; rw [AddressOk]; omega⟩

theorem refuses_not_accepts {net : Net} {p : Path} {e : KeyPath.Error} (h : Refuses net p e) : ¬ Accepts net p := by
  rintro ⟨a, b, c, d, f⟩
  cases h <;> contradiction

theorem refuses_unique {net : Net} {p : Path} {e e' : KeyPath.Error} (h : Refuses net p e) (h' : Refuses net p e') : e = e' := by
  cases h <;> cases h' <;> first | rfl | contradiction | skip
  rename_i c _ _ h1 c' _ _ h2
  rw [UInt32.toNat_inj.mp (h1.trans h2.symm)]

theorem gate_none (net : Net) (p : Path) : gate net p = none ↔ Accepts net p := by
  rcases gate_fwd net p with ⟨h, h'⟩ | ⟨e, h, h'⟩
  · simp [h, h']
  · simp [h, refuses_not_accepts h']

theorem gate_some (net : Net) (p : Path) (e : KeyPath.Error) : gate net p = some e ↔ Refuses net p e := by
  rcases gate_fwd net p with ⟨h, h'⟩ | ⟨e', h, h'⟩
  · rw [h]
    simp only [reduceCtorEq, false_iff]
    exact fun hr => refuses_not_accepts hr h'
  · rw [h]
    constructor
    · intro he; cases he; exact h'
    · intro hr; rw [refuses_unique hr h']

theorem walk_one (H : Hashes) (C : Curve) (x : XPrv) (i : UInt32) : walk H C x [i] = x.derive H C i := by
  rw [walk]
  cases x.derive H C i <;> rfl

theorem walk_cons (H : Hashes) (C : Curve) (x : XPrv) (i : UInt32) (is : List UInt32) :
    walk H C x (i :: is) = x.derive H C i >>= fun y => walk H C y is := rfl

theorem walk_append (H : Hashes) (C : Curve) (x : XPrv) (a b : List UInt32) :
    walk H C x (a ++ b) = walk H C x a >>= fun y => walk H C y b := by
  induction a generalizing x with
  | nil => rfl
  | cons i a ih =>
    rw [List.cons_append, walk_cons, walk_cons]
    cases x.derive H C i with
    | ok y => exact ih y
    | err e => rfl
    | panic => rfl

theorem Walk_append {H : Hashes} {C : Curve} {x z : XPrv} {a b : List UInt32} :
    Spec.Bip32.Walk H C x (a ++ b) z ↔ ∃ y, Spec.Bip32.Walk H C x a y ∧ Spec.Bip32.Walk H C y b z := by
  rw [← walk_ok, walk_append, Res.bind_eq_ok]
  simp only [walk_ok]

theorem Walk_unique {H : Hashes} {C : Curve} {x y z : XPrv} {a : List UInt32} (h : Spec.Bip32.Walk H C x a y)
    (h2 : Spec.Bip32.Walk H C x a z) : y = z := by
  rw [← walk_ok] at h h2
  rw [h] at h2
  cases h2; rfl

theorem walk_ne_panic (H : Hashes) (C : Curve) (x : XPrv) (is : List UInt32) : walk H C x is ≠ .panic := by
  induction is generalizing x with
  | nil => exact nofun
  | cons i is ih =>
    rw [walk_cons, Ne, Res.bind_eq_panic]
    rintro (h | ⟨y, -, h⟩)
    · exact derive_ne_panic H C x i h
    · exact ih y h

theorem walk_cons2 (H : Hashes) (C : Curve) (x : XPrv) (i j : UInt32) (is : List UInt32) :
    walk H C x (i :: j :: is) = x.derive H C i >>= fun y => walk H C y (j :: is) := rfl

theorem bitcoin_derive (H : Hashes) (C : Curve) (x : XPrv) (p : Path) : Bitcoin.derivePrivate H C x p =
    match gate .bitcoin p with
    | some e => .err (.invalidKeyPath e)
    | none => (walk H C x [p.purpose, p.coin, p.account, p.change, p.address]).mapErr Key.Error.ofSecp := by
  unfold Bitcoin.derivePrivate gate
  simp only [walk_cons2, walk_one]
  rw [if_neg (show ¬ (Net.bitcoin ≠ .bitcoin ∧ p.purpose ≠ KeyPath.bip44Purpose) from fun h => h.1 rfl)]
  by_cases h2 : p.coin ≠ Bitcoin.coinType
  · rw [if_pos h2, if_pos (show p.coin ≠ netCoin .bitcoin from h2)]; rfl
  rw [if_neg h2, if_neg (show ¬ p.coin ≠ netCoin .bitcoin from h2)]
  by_cases h3 : p.account < KeyPath.softUpperBound
  · rw [if_pos h3, if_pos h3]
  rw [if_neg h3, if_neg h3]
  by_cases h4 : p.change ≠ 0 ∧ p.change ≠ 1
  · rw [if_pos h4, if_pos h4]
  rw [if_neg h4, if_neg h4]
  by_cases h5 : p.address ≥ KeyPath.softUpperBound
  · rw [if_pos h5, if_pos h5]
  rw [if_neg h5, if_neg h5]

theorem ethereum_derive (H : Hashes) (C : Curve) (x : XPrv) (p : Path) : Ethereum.derivePrivate H C x p =
    match gate .ethereum p with
    | some e => .err (.invalidKeyPath e)
    | none => (walk H C x [p.account, p.change, p.address]).mapErr Key.Error.ofSecp := by
  unfold Ethereum.derivePrivate gate
  have : (Net.ethereum ≠ .bitcoin ∧ p.purpose ≠ KeyPath.bip44Purpose) ↔ p.purpose ≠ KeyPath.bip44Purpose := by simp
  simp only [walk_cons2, walk_one, this]
  by_cases h1 : p.purpose ≠ KeyPath.bip44Purpose
  · rw [if_pos h1, if_pos h1]
  rw [if_neg h1, if_neg h1]
  by_cases h2 : p.coin ≠ Ethereum.coinType
  · rw [if_pos h2, if_pos (show p.coin ≠ netCoin .ethereum from h2)]; rfl
  rw [if_neg h2, if_neg (show ¬ p.coin ≠ netCoin .ethereum from h2)]
  by_cases h3 : p.account < KeyPath.softUpperBound
  · rw [if_pos h3, if_pos h3]
  rw [if_neg h3, if_neg h3]
  by_cases h4 : p.change ≠ 0 ∧ p.change ≠ 1
  · rw [if_pos h4, if_pos h4]
  rw [if_neg h4, if_neg h4]
  by_cases h5 : p.address ≥ KeyPath.softUpperBound
  · rw [if_pos h5, if_pos h5]
  rw [if_neg h5, if_neg h5]

theorem cardano_derive (E : Cardano.Ed) (x : Cardano.XPrv) (p : Path) : Cardano.derivePrivate E x p =
    match gate .cardano p with
    | some e => .err (.invalidKeyPath e)
    | none => .ok ([p.account, p.change, p.address].foldl E.derive x) := by
  unfold Cardano.derivePrivate gate
  have : (Net.cardano ≠ .bitcoin ∧ p.purpose ≠ KeyPath.bip44Purpose) ↔ p.purpose ≠ KeyPath.bip44Purpose := by simp
  simp only [this]
  by_cases h1 : p.purpose ≠ KeyPath.bip44Purpose
  · rw [if_pos h1, if_pos h1]
  rw [if_neg h1, if_neg h1]
  by_cases h2 : p.coin ≠ Cardano.coinType
  · rw [if_pos h2, if_pos (show p.coin ≠ netCoin .cardano from h2)]; rfl
  rw [if_neg h2, if_neg (show ¬ p.coin ≠ netCoin .cardano from h2)]
  by_cases h3 : p.account < KeyPath.softUpperBound
  · rw [if_pos h3, if_pos h3]
  rw [if_neg h3, if_neg h3]
  by_cases h4 : p.change ≠ 0 ∧ p.change ≠ 1
  · rw [if_pos h4, if_pos h4]
  rw [if_neg h4, if_neg h4]
  by_cases h5 : p.address ≥ KeyPath.softUpperBound
  · rw [if_pos h5, if_pos h5]
  rw [if_neg h5, if_neg h5]
  rfl

theorem ofSecp_ne_path (e : Secp.KeyError) (e' : KeyPath.Error) : Key.Error.ofSecp e ≠ .invalidKeyPath e' := by
  cases e <;> exact nofun

/-- A key that derives with `D` and then works on secp256k1. -/
structure SecpKey (H : Hashes) (C : Curve) (k : KeyObj) (D : Path → Res Key.Error XPrv) : Prop where
  pub : ∀ p, k.pubKey p = (D p).map fun pk => C.ser (C.pub pk.key)
  sign : ∀ m p, k.sign m p = D p >>= fun pk => (pk.sign H C m).mapErr Key.Error.ofSecpSign
  verify : ∀ m s p, k.verify m s p = D p >>= fun pk => (pubVerify H C (C.pub pk.key) m s).mapErr Key.Error.ofSecp

/-- What loading gives, for Bitcoin. -/
theorem bitcoin_load (H : Hashes) (C : Curve) (E : Cardano.Ed) (d : Bytes) (k : KeyObj)
    (h : (factoryOf H C E .bitcoin).keyFromData d = .ok k) :
    ∃ x, Spec.Bip32.Layout H x d ∧ k.network = 0x80000000 ∧ SecpKey H C k (Bitcoin.derivePrivate H C x) := by
  obtain ⟨x, hx, rfl⟩ := Res.map_eq_ok.mp h
  exact ⟨x, (fromData_ok H d x).mp (Res.mapErr_eq_ok.mp hx), rfl, fun _ => rfl, fun _ _ => rfl, fun _ _ _ => rfl⟩

/-- What loading gives, for Ethereum. -/
theorem ethereum_load (H : Hashes) (C : Curve) (E : Cardano.Ed) (d : Bytes) (k : KeyObj)
    (h : (factoryOf H C E .ethereum).keyFromData d = .ok k) :
    ∃ x y, Spec.Bip32.Layout H x d ∧ Spec.Bip32.Walk H C x [0x8000002C, 0x8000003c] y ∧ k.network = 0x8000003c ∧
      SecpKey H C k (Ethereum.derivePrivate H C y) := by
  obtain ⟨y, hy, rfl⟩ := Res.map_eq_ok.mp h
  obtain ⟨x, hx, hw⟩ := Res.bind_eq_ok.mp (Res.mapErr_eq_ok.mp hy)
  refine ⟨x, y, (fromData_ok H d x).mp hx, ?_, rfl, fun _ => rfl, fun _ _ => rfl, fun _ _ _ => rfl⟩
  rw [← walk_ok, walk_cons2]
  simp only [walk_one]
  exact hw

/-- What loading gives, for Cardano. -/
theorem cardano_load (H : Hashes) (C : Curve) (E : Cardano.Ed) (d : Bytes) (k : KeyObj)
    (h : (factoryOf H C E .cardano).keyFromData d = .ok k) :
    ∃ x : Cardano.XPrv, x.val = d ∧
      k = Cardano.keyObj E ([0x8000002C, 0x80000717].foldl E.derive x) := by
  obtain ⟨y, hy, rfl⟩ := Res.map_eq_ok.mp h
  unfold Cardano.keyFromData at hy
  split at hy
  · cases hy
  · obtain ⟨a, ha, hy⟩ := Res.bind_eq_ok.mp hy
    obtain ⟨x, hx, hy⟩ := Res.bind_eq_ok.mp hy
    cases hy
    refine ⟨x, ?_, rfl⟩
    rw [Res.mapErr_eq_ok] at hx
    have hxa : x = a := by
      unfold Cardano.fromBytesVerified at hx
      split at hx
      · cases hx
      · split at hx
        · cases hx
        · cases hx; rfl
    subst hxa
    unfold Bytes.copyFrom at ha
    split at ha
    · cases ha; rfl
    · cases ha

end KC
