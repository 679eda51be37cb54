import Verif.Spec.Live
import Verif.Proofs.Keys
/-
Lemmas on keys with paths of the caller.
-/
namespace KC
open KC.KeyPath (Path)
open KC.Spec KC.Spec.Live KC.Secp
open KC.Props (bound_iff change_iff)

theorem says_append (L : Live) (h : List Part) (l l' : Log) :
    Says L h (l ++ l') ↔ Says L h l ∧ Says L (h ++ l.map Prod.fst) l' := by
  induction l generalizing h with
  | nil => simp [Says]
  | cons a l ih =>
    obtain ⟨q, v⟩ := a
    simp only [List.cons_append, Says, ih, List.map_cons, List.append_assoc, List.nil_append, and_assoc]

namespace LM
variable {α β : Type}

theorem bind_ok {m : LM α} {f : α → LM β} {h h'} {b : β} :
    (m >>= f) h = (.ok b, h') ↔ ∃ a h1, m h = (.ok a, h1) ∧ f a h1 = (.ok b, h') := by
  show LM.bind m f h = _ ↔ _
  unfold LM.bind
  rcases m h with ⟨_ | _ | _, h1⟩ <;> simp

theorem bind_err {m : LM α} {f : α → LM β} {h h'} {e : Key.Error} :
    (m >>= f) h = (.err e, h') ↔ m h = (.err e, h') ∨ ∃ a h1, m h = (.ok a, h1) ∧ f a h1 = (.err e, h') := by
  show LM.bind m f h = _ ↔ _
  unfold LM.bind
  rcases m h with ⟨_ | _ | _, h1⟩ <;> simp

/-- Code asks questions and, with the answers, ends as `P` says; panics are left out. -/
def Does (L : Live) (m : LM α) (P : Log → Res Key.Error α → Prop) : Prop :=
  ∀ h r h', r ≠ .panic → (m h = (r, h') ↔ ∃ l, Says L h l ∧ P l r ∧ h' = h ++ l.map Prod.fst)

theorem Does.imp {L : Live} {m : LM α} {P Q : Log → Res Key.Error α → Prop} (hm : Does L m P)
    (hpq : ∀ l r, r ≠ .panic → (P l r ↔ Q l r)) : Does L m Q := by
  intro h r h' hr
  rw [hm h r h' hr]
  simp only [hpq _ _ hr]

theorem does_ask (L : Live) (q : Part) : Does L (ask L q) (fun l r => ∃ v, l = [(q, v)] ∧ r = .ok v) := by
  intro h r h' hr
  unfold ask
  constructor
  · intro hh
    cases hq : L h q with
    | none => rw [hq] at hh; cases hh; exact absurd rfl hr
    | some v =>
      rw [hq] at hh; cases hh
      exact ⟨[(q, v)], ⟨hq, trivial⟩, ⟨v, rfl, rfl⟩, rfl⟩
  · rintro ⟨l, hl, ⟨v, rfl, rfl⟩, rfl⟩
    rw [hl.1]; rfl

theorem does_lift (L : Live) (x : Res Key.Error α) : Does L (lift x) (fun l r => l = [] ∧ r = x) := by
  intro h r h' hr
  unfold lift
  constructor
  · intro hh; cases hh
    exact ⟨[], trivial, ⟨rfl, rfl⟩, by simp⟩
  · rintro ⟨l, -, ⟨rfl, rfl⟩, rfl⟩
    simp

theorem does_pure (L : Live) (a : α) : Does L (pure a) (fun l r => l = [] ∧ r = .ok a) := does_lift L (.ok a)

theorem Does.bind {L : Live} {m : LM α} {f : α → LM β} {P : Log → Res Key.Error α → Prop} {Q : α → Log → Res Key.Error β → Prop}
    (hm : Does L m P) (hf : ∀ a, Does L (f a) (Q a)) :
    Does L (m >>= f) (fun l r => (∃ e, P l (.err e) ∧ r = .err e) ∨ ∃ l1 a l2, l = l1 ++ l2 ∧ P l1 (.ok a) ∧ Q a l2 r) := by
  have key : ∀ (h h' : List Part) (r : Res Key.Error β), r ≠ .panic →
      ((∃ a h1, m h = (.ok a, h1) ∧ f a h1 = (r, h')) ↔
        ∃ l, Says L h l ∧ (∃ l1 a l2, l = l1 ++ l2 ∧ P l1 (.ok a) ∧ Q a l2 r) ∧ h' = h ++ l.map Prod.fst) := by
    intro h h' r hr
    constructor
    · rintro ⟨a, h1, h2, h3⟩
      obtain ⟨l1, s1, p1, rfl⟩ := (hm h (.ok a) h1 nofun).mp h2
      obtain ⟨l2, s2, p2, rfl⟩ := (hf a _ _ _ hr).mp h3
      exact ⟨l1 ++ l2, (says_append ..).mpr ⟨s1, s2⟩, ⟨l1, a, l2, rfl, p1, p2⟩, by simp⟩
    · rintro ⟨l, s, ⟨l1, a, l2, rfl, p1, p2⟩, rfl⟩
      obtain ⟨s1, s2⟩ := (says_append ..).mp s
      exact ⟨a, _, (hm h (.ok a) _ nofun).mpr ⟨l1, s1, p1, rfl⟩, (hf a _ _ _ hr).mpr ⟨l2, s2, p2, by simp⟩⟩
  intro h r h' hr
  cases r with
  | panic => exact absurd rfl hr
  | ok b =>
    rw [bind_ok, key h h' _ hr]
    simp
  | err e =>
    rw [bind_err, key h h' _ hr, hm h (.err e) h' nofun]
    constructor
    · rintro (⟨l, s, p, rfl⟩ | ⟨l, s, p, rfl⟩)
      · exact ⟨l, s, Or.inl ⟨e, p, rfl⟩, rfl⟩
      · exact ⟨l, s, Or.inr p, rfl⟩
    · rintro ⟨l, s, ⟨e', p, he⟩ | p, rfl⟩
      · cases he; exact Or.inl ⟨l, s, p, rfl⟩
      · exact Or.inr ⟨l, s, p, rfl⟩

/-- What a check ends with. -/
def verdict : Option KeyPath.Error → Res Key.Error Unit
  | none => .ok ()
  | some e => .err (.invalidKeyPath e)

theorem verdict_ok {o} : verdict o = .ok () ↔ o = none := by cases o <;> simp [verdict]
theorem verdict_err {o e} : verdict o = .err e ↔ ∃ e', o = some e' ∧ e = .invalidKeyPath e' := by
  cases o <;> simp [verdict, eq_comm]

end LM
open LM

/-- A check does what `Check` says. -/
def Does1 (net : Net) (q : Part) (L : Live) (m : LM Unit) : Prop :=
  Does L m (fun l r => ∃ o, Check net q l o ∧ r = verdict o)

/-- A first question, with the check of the answer. -/
theorem does_check (L : Live) (q : Part) (bad : UInt32 → Prop) [DecidablePred bad] (err : UInt32 → Key.Error) :
    Does L (ask L q >>= fun v => if bad v then ask L q >>= fun w => lift (.err (err w)) else pure ())
      (fun l r => (∃ v, ¬ bad v ∧ l = [(q, v)] ∧ r = .ok ()) ∨ ∃ v w, bad v ∧ l = [(q, v), (q, w)] ∧ r = .err (err w)) := by
  have h1 : ∀ v, Does L (if bad v then ask L q >>= fun w => lift (.err (err w)) else pure ())
      (fun l r => (¬ bad v ∧ l = [] ∧ r = .ok ()) ∨ ∃ w, bad v ∧ l = [(q, w)] ∧ r = .err (err w)) := by
    intro v
    by_cases hb : bad v
    · rw [if_pos hb]
      refine ((does_ask L q).bind fun w => does_lift L _).imp fun l r _ => ?_
      constructor
      · rintro (⟨e, ⟨v', -, h⟩, -⟩ | ⟨l1, a, l2, rfl, ⟨v', rfl, h⟩, rfl, rfl⟩)
        · cases h
        · cases h; exact Or.inr ⟨_, hb, rfl, rfl⟩
      · rintro (⟨h, -⟩ | ⟨w, -, rfl, rfl⟩)
        · exact absurd hb h
        · exact Or.inr ⟨[(q, w)], w, [], rfl, ⟨w, rfl, rfl⟩, rfl, rfl⟩
    · rw [if_neg hb]
      refine (does_pure L ()).imp fun l r _ => ?_
      simp [hb]
  refine ((does_ask L q).bind h1).imp fun l r _ => ?_
  constructor
  · rintro (⟨e, ⟨v', -, h⟩, -⟩ | ⟨l1, a, l2, rfl, ⟨v', rfl, h⟩, h2⟩)
    · cases h
    · cases h
      rcases h2 with ⟨hb, rfl, rfl⟩ | ⟨w, hb, rfl, rfl⟩
      · exact Or.inl ⟨_, hb, rfl, rfl⟩
      · exact Or.inr ⟨_, w, hb, rfl, rfl⟩
  · rintro (⟨v, hb, rfl, rfl⟩ | ⟨v, w, hb, rfl, rfl⟩)
    · exact Or.inr ⟨[(q, v)], v, [], rfl, ⟨v, rfl, rfl⟩, Or.inl ⟨hb, rfl, rfl⟩⟩
    · exact Or.inr ⟨[(q, v)], v, [(q, w)], rfl, ⟨v, rfl, rfl⟩, Or.inr ⟨w, hb, rfl, rfl⟩⟩

theorem netCoin_iff (net : Net) (v : UInt32) : v = netCoin net ↔ v.toNat = net.coin + 2 ^ 31 := by
  cases net <;> (rw [← UInt32.toNat_inj]; rfl)

theorem netCoin_toNat (net : Net) : (netCoin net).toNat = net.coin + 2 ^ 31 := (netCoin_iff net _).mp rfl

theorem does_coin (net : Net) (L : Live) : Does1 net .coin L (L.checkCoin (netCoin net)) := by
  refine (does_check L .coin (fun v => v ≠ netCoin net) fun w => .invalidKeyPath (.invalidCoin w (netCoin net))).imp fun l r _ => ?_
  constructor
  · rintro (⟨v, hb, rfl, rfl⟩ | ⟨v, w, hb, rfl, rfl⟩)
    · exact ⟨none, .coin v ((netCoin_iff ..).mp (not_not.mp hb)), rfl⟩
    · exact ⟨_, .badCoin v w _ (fun h => hb ((netCoin_iff ..).mpr h)) (netCoin_toNat net), rfl⟩
  · rintro ⟨o, hc, rfl⟩
    cases hc with
    | coin v h => exact Or.inl ⟨v, not_not.mpr ((netCoin_iff ..).mpr h), rfl, rfl⟩
    | badCoin v w c h hc =>
      refine Or.inr ⟨v, w, fun h' => h ((netCoin_iff ..).mp h'), rfl, ?_⟩
      rw [(netCoin_iff net c).mpr hc]; rfl

theorem does_purpose (net : Net) (hn : net ≠ .bitcoin) (L : Live) : Does1 net .purpose L L.checkPurpose := by
  refine (does_check L .purpose (fun v => v ≠ KeyPath.bip44Purpose)
    fun w => .invalidKeyPath (.invalidPurpose w KeyPath.bip44Purpose)).imp fun l r _ => ?_
  constructor
  · rintro (⟨v, hb, rfl, rfl⟩ | ⟨v, w, hb, rfl, rfl⟩)
    · exact ⟨none, .purpose v hn (purpose_iff.mp (not_not.mp hb)), rfl⟩
    · exact ⟨_, .badPurpose v w hn (fun h => hb (purpose_iff.mpr h)), rfl⟩
  · rintro ⟨o, hc, rfl⟩
    cases hc with
    | anyPurpose h => exact absurd h hn
    | purpose v _ h => exact Or.inl ⟨v, not_not.mpr (purpose_iff.mpr h), rfl, rfl⟩
    | badPurpose v w _ h => exact Or.inr ⟨v, w, fun h' => h (purpose_iff.mp h'), rfl, rfl⟩

theorem does_account (net : Net) (L : Live) : Does1 net .account L L.checkAccount := by
  refine (does_check L .account (fun v => v < KeyPath.softUpperBound) fun w => .invalidKeyPath (.invalidAccount w)).imp fun l r _ => ?_
  simp only [soft_iff]
  constructor
  · rintro (⟨v, hb, rfl, rfl⟩ | ⟨v, w, hb, rfl, rfl⟩)
    · exact ⟨none, .account v (by omega), rfl⟩
    · exact ⟨_, .badAccount v w hb, rfl⟩
  · rintro ⟨o, hc, rfl⟩
    cases hc with
    | account v h => exact Or.inl ⟨v, by omega, rfl, rfl⟩
    | badAccount v w h => exact Or.inr ⟨v, w, h, rfl, rfl⟩

theorem does_address (net : Net) (L : Live) : Does1 net .address L L.checkAddress := by
  refine (does_check L .address (fun v => v ≥ KeyPath.softUpperBound) fun w => .invalidKeyPath (.invalidAddress w)).imp fun l r _ => ?_
  simp only [bound_iff]
  constructor
  · rintro (⟨v, hb, rfl, rfl⟩ | ⟨v, w, hb, rfl, rfl⟩)
    · exact ⟨none, .address v (by omega), rfl⟩
    · exact ⟨_, .badAddress v w (by omega), rfl⟩
  · rintro ⟨o, hc, rfl⟩
    cases hc with
    | address v h => exact Or.inl ⟨v, by omega, rfl, rfl⟩
    | badAddress v w h => exact Or.inr ⟨v, w, by omega, rfl, rfl⟩

theorem does_change (net : Net) (L : Live) : Does1 net .change L L.checkChange := by
  have h1 : ∀ v : UInt32, Does L (if v ≠ 0 then (ask L .change >>= fun w => if w ≠ 1 then
        (ask L .change >>= fun u => lift (.err (.invalidKeyPath (.invalidChange u)))) else pure ()) else pure ())
      (fun l r => (v = 0 ∧ l = [] ∧ r = .ok ()) ∨ (v ≠ 0 ∧ l = [(.change, 1)] ∧ r = .ok ()) ∨
        ∃ w u, v ≠ 0 ∧ w ≠ 1 ∧ l = [(.change, w), (.change, u)] ∧ r = .err (.invalidKeyPath (.invalidChange u))) := by
    intro v
    by_cases hv : v = 0
    · rw [if_neg (not_not.mpr hv)]
      refine (does_pure L ()).imp fun l r _ => ?_
      simp [hv]
    · rw [if_pos hv]
      refine (does_check L .change (fun w => w ≠ 1) fun u => .invalidKeyPath (.invalidChange u)).imp fun l r _ => ?_
      constructor
      · rintro (⟨w, hb, rfl, rfl⟩ | ⟨w, u, hb, rfl, rfl⟩)
        · rw [not_not.mp hb]
          exact Or.inr (Or.inl ⟨hv, rfl, rfl⟩)
        · exact Or.inr (Or.inr ⟨w, u, hv, hb, rfl, rfl⟩)
      · rintro (⟨h, -⟩ | ⟨-, rfl, rfl⟩ | ⟨w, u, -, hb, rfl, rfl⟩)
        · exact absurd h hv
        · exact Or.inl ⟨1, fun h => h rfl, rfl, rfl⟩
        · exact Or.inr ⟨w, u, hb, rfl, rfl⟩
  refine ((does_ask L .change).bind h1).imp fun l r _ => ?_
  constructor
  · rintro (⟨e, ⟨v', -, h⟩, -⟩ | ⟨l1, a, l2, rfl, ⟨v', rfl, h⟩, h2⟩)
    · cases h
    · cases h
      rcases h2 with ⟨rfl, rfl, rfl⟩ | ⟨hv, rfl, rfl⟩ | ⟨w, u, hv, hw, rfl, rfl⟩
      · exact ⟨none, .change0, rfl⟩
      · exact ⟨none, .change1 _ hv, rfl⟩
      · exact ⟨_, .badChange _ w u hv hw, rfl⟩
  · rintro ⟨o, hc, rfl⟩
    cases hc with
    | change0 => exact Or.inr ⟨[(.change, 0)], 0, [], rfl, ⟨0, rfl, rfl⟩, Or.inl ⟨rfl, rfl, rfl⟩⟩
    | change1 v hv => exact Or.inr ⟨[(.change, v)], v, [(.change, 1)], rfl, ⟨v, rfl, rfl⟩, Or.inr (Or.inl ⟨hv, rfl, rfl⟩)⟩
    | badChange v w u hv hw =>
      exact Or.inr ⟨[(.change, v)], v, [(.change, w), (.change, u)], rfl, ⟨v, rfl, rfl⟩, Or.inr (Or.inr ⟨w, u, hv, hw, rfl, rfl⟩)⟩

/-- Checks in a row, before something else. -/
def Before (net : Net) (qs : List Part) {α : Type} (Q : Log → Res Key.Error α → Prop) (l : Log) (r : Res Key.Error α) : Prop :=
  (∃ e, Checks net qs l (some e) ∧ r = .err (.invalidKeyPath e)) ∨ ∃ l1 l2, l = l1 ++ l2 ∧ Checks net qs l1 none ∧ Q l2 r

theorem before_nil {α : Type} (net : Net) (L : Live) (m : LM α) (Q) (h : Does L m Q) : Does L m (Before net [] Q) := by
  refine h.imp fun l r _ => ?_
  constructor
  · intro hq; exact Or.inr ⟨[], l, rfl, .done, hq⟩
  · rintro (⟨e, h, -⟩ | ⟨l1, l2, rfl, h, hq⟩)
    · cases h
    · cases h; exact hq

theorem before_cons {α : Type} (net : Net) (q : Part) (qs : List Part) (L : Live) (c : LM Unit) (m : LM α) (Q)
    (hc : Does1 net q L c) (hm : Does L m (Before net qs Q)) : Does L (c >>= fun _ => m) (Before net (q :: qs) Q) := by
  refine (Does.bind hc fun _ => hm).imp fun l r _ => ?_
  constructor
  · rintro (⟨e, ⟨o, h1, h2⟩, rfl⟩ | ⟨l1, _, l2, rfl, ⟨o, h1, h2⟩, h3⟩)
    · obtain ⟨e', rfl, rfl⟩ := verdict_err.mp h2.symm
      exact Or.inl ⟨e', .stop h1, rfl⟩
    · obtain rfl := verdict_ok.mp h2.symm
      rcases h3 with ⟨e, h3, rfl⟩ | ⟨l3, l4, rfl, h3, h4⟩
      · exact Or.inl ⟨e, .next h1 h3, rfl⟩
      · exact Or.inr ⟨l1 ++ l3, l4, by simp, .next h1 h3, h4⟩
  · rintro (⟨e, h, rfl⟩ | ⟨l1, l2, rfl, h, hq⟩)
    · cases h with
      | stop h => exact Or.inl ⟨_, ⟨_, h, rfl⟩, rfl⟩
      | next h h' => exact Or.inr ⟨_, (), _, rfl, ⟨_, h, rfl⟩, Or.inl ⟨e, h', rfl⟩⟩
    · cases h with
      | next h h' => exact Or.inr ⟨_, (), _, List.append_assoc .., ⟨_, h, rfl⟩, Or.inr ⟨_, l2, rfl, h', hq⟩⟩

/-- Asking for a part and deriving with the answer, before something else. -/
theorem does_step {α : Type} (H : Hashes) (C : Curve) (L : Live) (x : XPrv) (q : Part) (f : XPrv → LM α)
    (Q : XPrv → Log → Res Key.Error α → Prop) (hf : ∀ y, Does L (f y) (Q y)) :
    Does L (ask L q >>= fun i => lift ((x.derive H C i).mapErr Key.Error.ofSecp) >>= f)
      (fun l r => (∃ v e, l = [(q, v)] ∧ x.derive H C v = .err e ∧ r = .err (Key.Error.ofSecp e)) ∨
        ∃ v y l', l = (q, v) :: l' ∧ x.derive H C v = .ok y ∧ Q y l' r) := by
  refine ((does_ask L q).bind fun v => (does_lift L _).bind hf).imp fun l r _ => ?_
  constructor
  · rintro (⟨e, ⟨v', -, h⟩, -⟩ | ⟨l1, a, l2, rfl, ⟨v', rfl, h⟩, h2⟩)
    · cases h
    · cases h
      rcases h2 with ⟨e, ⟨rfl, h⟩, rfl⟩ | ⟨l3, y, l4, rfl, ⟨rfl, h⟩, h3⟩
      · left
        refine ⟨a, ?_⟩
        cases hd : x.derive H C a with
        | ok y => rw [hd] at h; cases h
        | panic => rw [hd] at h; cases h
        | err e' => rw [hd] at h; cases h; exact ⟨e', rfl, rfl, rfl⟩
      · exact Or.inr ⟨a, y, l4, rfl, Res.mapErr_eq_ok.mp h.symm, h3⟩
  · rintro (⟨v, e, rfl, h, rfl⟩ | ⟨v, y, l', rfl, h, hq⟩)
    · exact Or.inr ⟨[(q, v)], v, [], rfl, ⟨v, rfl, rfl⟩, Or.inl ⟨_, ⟨rfl, by rw [h]; rfl⟩, rfl⟩⟩
    · exact Or.inr ⟨[(q, v)], v, l', rfl, ⟨v, rfl, rfl⟩, Or.inr ⟨[], y, l', rfl, ⟨rfl, by rw [h]; rfl⟩, hq⟩⟩

/-- Asking for parts and deriving with the answers. -/
def WalkP (H : Hashes) (C : Curve) : List Part → XPrv → Log → Res Key.Error XPrv → Prop
  | [], x, l, r => l = [] ∧ r = .ok x
  | q :: qs, x, l, r => (∃ v e, l = [(q, v)] ∧ x.derive H C v = .err e ∧ r = .err (Key.Error.ofSecp e)) ∨
      ∃ v y l', l = (q, v) :: l' ∧ x.derive H C v = .ok y ∧ WalkP H C qs y l' r

theorem walkP_ok {H : Hashes} {C : Curve} {qs x l y} :
    WalkP H C qs x l (.ok y) ↔ l.map Prod.fst = qs ∧ Spec.Bip32.Walk H C x (l.map Prod.snd) y := by
  induction qs generalizing x l with
  | nil =>
    simp only [WalkP, List.map_eq_nil_iff]
    constructor
    · rintro ⟨rfl, h⟩; cases h; exact ⟨rfl, .nil _⟩
    · rintro ⟨rfl, h⟩; cases h; exact ⟨rfl, rfl⟩
  | cons q qs ih =>
    rw [WalkP]
    constructor
    · rintro (⟨v, e, -, -, h⟩ | ⟨v, z, l', rfl, h, hw⟩)
      · cases h
      · obtain ⟨h1, h2⟩ := ih.mp hw
        refine ⟨by simp [h1], ?_⟩
        rw [← walk_ok] at h2 ⊢
        rw [List.map_cons, walk_cons, h]
        exact h2
    · rintro ⟨h1, h2⟩
      cases l with
      | nil => cases h1
      | cons a l =>
        obtain ⟨q', v⟩ := a
        rw [List.map_cons, List.cons.injEq] at h1
        obtain ⟨rfl, h1⟩ := h1
        rw [← walk_ok, List.map_cons, walk_cons, Res.bind_eq_ok] at h2
        obtain ⟨z, h2, h3⟩ := h2
        exact Or.inr ⟨v, z, l, rfl, h2, ih.mpr ⟨h1, (walk_ok ..).mp h3⟩⟩

theorem walkP_err {H : Hashes} {C : Curve} {qs x l e} (h : WalkP H C qs x l (.err e)) : ∃ e', e = Key.Error.ofSecp e' := by
  induction qs generalizing x l with
  | nil => cases h.2
  | cons q qs ih =>
    rcases h with ⟨v, e', -, -, h⟩ | ⟨v, z, l', rfl, h, hw⟩
    · cases h; exact ⟨e', rfl⟩
    · exact ih hw

theorem lift_pure {α : Type} (r : Res Key.Error α) : (lift r >>= fun y => (pure y : LM α)) = lift r := by
  funext h
  cases r <;> rfl

theorem does_last (H : Hashes) (C : Curve) (L : Live) (x : XPrv) (q : Part) :
    Does L (ask L q >>= fun i => lift ((x.derive H C i).mapErr Key.Error.ofSecp)) (WalkP H C [q] x) := by
  have := does_step H C L x q (fun y => pure y) (fun y l r => l = [] ∧ r = .ok y) (fun y => does_pure L y)
  simp only [lift_pure] at this
  exact this

theorem bitcoin_live (H : Hashes) (C : Curve) (x : XPrv) (L : Live) : Does L (Bitcoin.livePrivate H C x L)
    (Before .bitcoin order (WalkP H C [.purpose, .coin, .account, .change, .address] x)) := by
  have h0 := before_cons .bitcoin .coin _ L _ _ _ (does_coin _ L) <|
    before_cons _ .account _ L _ _ _ (does_account _ L) <|
    before_cons _ .change _ L _ _ _ (does_change _ L) <|
    before_cons _ .address _ L _ _ _ (does_address _ L) <| before_nil _ L _ _ <|
    does_step H C L x .purpose _ _ fun x => does_step H C L x .coin _ _ fun x => does_step H C L x .account _ _ fun x =>
      does_step H C L x .change _ _ fun x => does_last H C L x .address
  refine Does.imp (m := Bitcoin.livePrivate H C x L) h0 fun l r _ => ?_
  constructor
  · rintro (⟨e, h, rfl⟩ | ⟨l1, l2, rfl, h, hq⟩)
    · exact Or.inl ⟨e, .next (.anyPurpose rfl) h, rfl⟩
    · exact Or.inr ⟨l1, l2, rfl, .next (.anyPurpose rfl) h, hq⟩
  · rintro (⟨e, h, rfl⟩ | ⟨l1, l2, rfl, h, hq⟩)
    · cases h with
      | stop h => cases h with | badPurpose v w h => exact absurd rfl h
      | next h h' =>
        cases h with
        | anyPurpose => exact Or.inl ⟨e, h', rfl⟩
        | purpose v h => exact absurd rfl h
    · cases h with
      | next h h' =>
        cases h with
        | anyPurpose => exact Or.inr ⟨_, l2, rfl, h', hq⟩
        | purpose v h => exact absurd rfl h

theorem ethereum_live (H : Hashes) (C : Curve) (x : XPrv) (L : Live) : Does L (Ethereum.livePrivate H C x L)
    (Before .ethereum order (WalkP H C [.account, .change, .address] x)) :=
  before_cons .ethereum .purpose _ L _ _ _ (does_purpose _ (by decide) L) <|
    before_cons .ethereum .coin _ L _ _ _ (does_coin _ L) <|
    before_cons _ .account _ L _ _ _ (does_account _ L) <|
    before_cons _ .change _ L _ _ _ (does_change _ L) <|
    before_cons _ .address _ L _ _ _ (does_address _ L) <| before_nil _ L _ _ <|
    does_step H C L x .account _ _ fun x => does_step H C L x .change _ _ fun x => does_last H C L x .address

theorem cardano_live (E : Cardano.Ed) (x : Cardano.XPrv) (L : Live) : Does L (Cardano.livePrivate E x L)
    (Before .cardano order fun l r => l.map Prod.fst = [.account, .change, .address] ∧
      r = .ok ((l.map Prod.snd).foldl E.derive x)) := by
  refine before_cons .cardano .purpose _ L _ _ _ (does_purpose _ (by decide) L) <|
    before_cons .cardano .coin _ L _ _ _ (does_coin _ L) <|
    before_cons _ .account _ L _ _ _ (does_account _ L) <|
    before_cons _ .change _ L _ _ _ (does_change _ L) <|
    before_cons _ .address _ L _ _ _ (does_address _ L) <| before_nil _ L _ _ <|
    ((does_ask L .account).bind fun i => (does_ask L .change).bind fun j => (does_ask L .address).bind fun k =>
      does_lift L (.ok (E.derive (E.derive (E.derive x i) j) k))).imp fun l r _ => ?_
  constructor
  · rintro (⟨e, ⟨v, -, h⟩, -⟩ | ⟨l1, i, l2, rfl, ⟨v, rfl, h⟩, ⟨e, ⟨v', -, h'⟩, -⟩ | ⟨l1, j, l2, rfl, ⟨v', rfl, h'⟩,
      ⟨e, ⟨v'', -, h''⟩, -⟩ | ⟨l1, k, l2, rfl, ⟨v'', rfl, h''⟩, rfl, rfl⟩⟩⟩)
    · cases h
    · cases h'
    · cases h''
    · cases h; cases h'; cases h''
      exact ⟨rfl, rfl⟩
  · rintro ⟨h, rfl⟩
    match l, h with
    | [(.account, i), (.change, j), (.address, k)], _ =>
      exact Or.inr ⟨[(.account, i)], i, _, rfl, ⟨i, rfl, rfl⟩, Or.inr ⟨[(.change, j)], j, _, rfl, ⟨j, rfl, rfl⟩,
        Or.inr ⟨[(.address, k)], k, [], rfl, ⟨k, rfl, rfl⟩, rfl, rfl⟩⟩⟩

/-- Code that calls no getter, after code that does. -/
theorem does_then {α β : Type} {L : Live} {m : LM α} {P : Log → Res Key.Error α → Prop} (hm : Does L m P) (f : α → Res Key.Error β)
    (h : List Part) : (∀ b, ((m >>= fun a => lift (f a)) h).1 = .ok b ↔ ∃ l a, Says L h l ∧ P l (.ok a) ∧ f a = .ok b) ∧
      ∀ e, ((m >>= fun a => lift (f a)) h).1 = .err e ↔ ∃ l, Says L h l ∧ (P l (.err e) ∨ ∃ a, P l (.ok a) ∧ f a = .err e) := by
  have hd := hm.bind fun a => does_lift L (f a)
  have h1 : ∀ r, r ≠ .panic → (((m >>= fun a => lift (f a)) h).1 = r ↔ ∃ l, Says L h l ∧
      ((∃ e, P l (.err e) ∧ r = .err e) ∨ ∃ l1 a l2, l = l1 ++ l2 ∧ P l1 (.ok a) ∧ l2 = [] ∧ r = f a)) := by
    intro r hr
    constructor
    · intro hh
      obtain ⟨l, h1, h2, -⟩ := (hd h r _ hr).mp (Prod.ext hh rfl)
      exact ⟨l, h1, h2⟩
    · rintro ⟨l, h1, h2⟩
      rw [(hd h r _ hr).mpr ⟨l, h1, h2, rfl⟩]
  constructor
  · intro b
    rw [h1 (.ok b) nofun]
    constructor
    · rintro ⟨l, hs, ⟨e, -, h⟩ | ⟨l1, a, l2, rfl, hp, rfl, hf⟩⟩
      · cases h
      · exact ⟨l1, a, by simpa using hs, hp, hf.symm⟩
    · rintro ⟨l, a, hs, hp, hf⟩
      exact ⟨l, hs, Or.inr ⟨l, a, [], by simp, hp, rfl, hf.symm⟩⟩
  · intro e
    rw [h1 (.err e) nofun]
    constructor
    · rintro ⟨l, hs, ⟨e', hp, h⟩ | ⟨l1, a, l2, rfl, hp, rfl, hf⟩⟩
      · cases h; exact ⟨l, hs, Or.inl hp⟩
      · exact ⟨l1, by simpa using hs, Or.inr ⟨a, hp, hf.symm⟩⟩
    · rintro ⟨l, hs, hp | ⟨a, hp, hf⟩⟩
      · exact ⟨l, hs, Or.inl ⟨e, hp, rfl⟩⟩
      · exact ⟨l, hs, Or.inr ⟨l, a, [], by simp, hp, rfl, hf.symm⟩⟩

end KC
