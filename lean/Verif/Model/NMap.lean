import Verif.Model.Keys
/-
`HashMap<Network, V>`.
-/
namespace KC

/-- `HashMap<Network, V>`: entries with distinct keys.  The order of the list means nothing: every iteration of the program goes
through an `Iter`. -/
structure NMap (V : Type) where
  entries : List (Network × V)
  nodup : (entries.map Prod.fst).Nodup

/-- One iteration over a hash map: it visits the entries in some order, which the program does not control. -/
structure Iter (α : Type) where
  order : List α → List α
  perm : ∀ l, (order l).Perm l

namespace NMap
variable {V : Type}

/-- `HashMap::new`. -/
def empty : NMap V := ⟨[], by simp⟩

/-- First value stored under a key in a list of entries. -/
def find (n : Network) : List (Network × V) → Option V
  | [] => none
  | e :: l => if e.1 = n then some e.2 else find n l

/-- `HashMap::get`. -/
def get (m : NMap V) (n : Network) : Option V := find n m.entries

/-- Store under a key: in place when there, else new. -/
def put (n : Network) (v : V) : List (Network × V) → List (Network × V)
  | [] => [(n, v)]
  | e :: l => if e.1 = n then (n, v) :: l else e :: put n v l

theorem mem_put_keys {n : Network} {v : V} {l : List (Network × V)} {k : Network}
    (h : k ∈ (put n v l).map Prod.fst) : k = n ∨ k ∈ l.map Prod.fst := by
  induction l with
  | nil => simpa [put] using h
  | cons e l ih =>
    simp only [put] at h
    split at h
    · rename_i he
      simp only [List.map_cons, List.mem_cons] at h ⊢
      rcases h with h | h
      · exact .inl h
      · exact .inr (.inr h)
    · simp only [List.map_cons, List.mem_cons] at h ⊢
      rcases h with h | h
      · exact .inr (.inl h)
      · rcases ih h with h | h
        · exact .inl h
        · exact .inr (.inr h)

theorem put_nodup (n : Network) (v : V) {l : List (Network × V)} (h : (l.map Prod.fst).Nodup) :
    ((put n v l).map Prod.fst).Nodup := by
  induction l with
  | nil => simp [put]
  | cons e l ih =>
    simp only [List.map_cons, List.nodup_cons] at h
    simp only [put]
    split
    · rename_i he
      simp only [List.map_cons, List.nodup_cons]
      exact ⟨he ▸ h.1, h.2⟩
    · rename_i he
      simp only [List.map_cons, List.nodup_cons]
      refine ⟨fun hm => ?_, ih h.2⟩
      rcases mem_put_keys hm with hk | hk
      · exact he hk
      · exact h.1 hk

/-- `HashMap::insert`. -/
def insert (m : NMap V) (n : Network) (v : V) : NMap V := ⟨put n v m.entries, put_nodup n v m.nodup⟩

/-- `collect::<HashMap<_, _>>` / a loop of `insert`: later entries replace earlier ones. -/
def ofList (l : List (Network × V)) : NMap V := l.foldl (fun m e => m.insert e.1 e.2) empty

end NMap
end KC
