import Verif.Model.NMap
import Verif.Spec.Data
/-
Lemmas about maps.
-/
namespace KC.NMap
open KC.Spec.Data
variable {V : Type}

theorem find_put (n k : Network) (v : V) (l : List (Network × V)) :
    find k (put n v l) = if n = k then some v else find k l := by
  induction l with
  | nil => simp [put, find]
  | cons e l ih =>
    simp only [put]
    by_cases he : e.1 = n
    · rw [if_pos he]
      by_cases hk : n = k
      · simp [find, hk]
      · simp [find, hk, he]
    · rw [if_neg he, find, find, ih]
      by_cases hk : n = k
      · subst hk; simp [he]
      · simp [hk]

theorem get_insert (m : NMap V) (n k : Network) (v : V) : (m.insert n v).get k = if n = k then some v else m.get k :=
  find_put n k v m.entries

@[simp] theorem get_empty (k : Network) : (empty : NMap V).get k = none := rfl

theorem get_foldl (l : List (Network × V)) (m : NMap V) (n : Network) :
    (l.foldl (fun m e => m.insert e.1 e.2) m).get n = ((lastOf n l).or (m.get n)) := by
  induction l generalizing m with
  | nil => simp [lastOf]
  | cons e l ih =>
    rw [List.foldl_cons, ih, get_insert]
    unfold lastOf
    by_cases he : e.1 = n
    · rw [if_pos he, List.filter_cons_of_pos (by simpa using he)]
      cases h : l.filter fun e => decide (e.1 = n) with
      | nil => simp
      | cons x t =>
        rw [List.getLast?_cons_cons, List.getLast?_eq_some_getLast (List.cons_ne_nil x t)]
        rfl
    · rw [if_neg he, List.filter_cons_of_neg (by simpa using he)]

/-- A collected map gives the last entry. -/
theorem get_ofList (l : List (Network × V)) (n : Network) : (ofList l).get n = lastOf n l := by
  rw [ofList, get_foldl, get_empty, Option.or_none]

theorem find_eq_some {l : List (Network × V)} (h : (l.map Prod.fst).Nodup) (n : Network) (v : V) :
    find n l = some v ↔ (n, v) ∈ l := by
  induction l with
  | nil => simp [find]
  | cons e l ih =>
    simp only [List.map_cons, List.nodup_cons] at h
    simp only [find, List.mem_cons]
    by_cases he : e.1 = n
    · rw [if_pos he]
      constructor
      · intro hv; left; rw [← he]; simp only [Option.some.injEq] at hv; rw [← hv]
      · rintro (hv | hv)
        · rw [← hv]
        · exact absurd (List.mem_map_of_mem (f := Prod.fst) hv) (he ▸ h.1)
    · rw [if_neg he, ih h.2]
      constructor
      · exact .inr
      · rintro (hv | hv)
        · exact absurd (by rw [← hv]) he
        · exact hv

theorem get_eq_some (m : NMap V) (n : Network) (v : V) : m.get n = some v ↔ (n, v) ∈ m.entries :=
  find_eq_some m.nodup n v

theorem find_eq_none {l : List (Network × V)} (n : Network) : find n l = none ↔ n ∉ l.map Prod.fst := by
  induction l with
  | nil => simp [find]
  | cons e l ih =>
    simp only [find, List.map_cons, List.mem_cons, not_or]
    by_cases he : e.1 = n
    · simp [he]
    · rw [if_neg he, ih]
      constructor
      · exact fun h => ⟨fun hc => he hc.symm, h⟩
      · exact fun h => h.2

theorem get_eq_none (m : NMap V) (n : Network) : m.get n = none ↔ n ∉ m.entries.map Prod.fst := find_eq_none n

theorem nodup_filter {l : List (Network × V)} (h : (l.map Prod.fst).Nodup) (n : Network) :
    l.filter (fun e => e.1 = n) = match find n l with
      | some v => [(n, v)]
      | none => [] := by
  induction l with
  | nil => rfl
  | cons e l ih =>
    simp only [List.map_cons, List.nodup_cons] at h
    by_cases he : e.1 = n
    · rw [List.filter_cons_of_pos (by simpa using he), ih h.2]
      have hn : find n l = none := by rw [find_eq_none, ← he]; exact h.1
      rw [hn, find, if_pos he, ← he]
    · rw [List.filter_cons_of_neg (by simpa using he), ih h.2, find, if_neg he]

theorem lastOf_nodup {l : List (Network × V)} (h : (l.map Prod.fst).Nodup) (n : Network) : lastOf n l = find n l := by
  rw [lastOf, nodup_filter h]
  cases find n l <;> rfl

theorem perm_nodup {l l' : List (Network × V)} (hp : l'.Perm l) (h : (l.map Prod.fst).Nodup) :
    (l'.map Prod.fst).Nodup := ((hp.map Prod.fst).nodup_iff).mpr h

theorem find_perm {l l' : List (Network × V)} (hp : l'.Perm l) (h : (l.map Prod.fst).Nodup) (n : Network) :
    find n l' = find n l := by
  apply Option.ext
  intro v
  rw [find_eq_some h, find_eq_some (perm_nodup hp h), hp.mem_iff]

/-- Collecting the entries in any order gives the same map. -/
theorem get_ofList_perm (m : NMap V) {l : List (Network × V)} (hp : l.Perm m.entries) (n : Network) :
    (ofList l).get n = m.get n := by
  rw [get_ofList, lastOf_nodup (perm_nodup hp m.nodup), find_perm hp m.nodup]; rfl

end KC.NMap
