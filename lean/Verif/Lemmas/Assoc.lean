/-! # Helper lemmas: association lists (Python dictionaries) -/

namespace Netlab

theorem lookup_cons_self {α β} [BEq α] [LawfulBEq α] (k : α) (v : β) (r : List (α × β)) :
    ((k, v) :: r).lookup k = some v := by
  simp [List.lookup]

theorem lookup_cons_ne {α β} [BEq α] [LawfulBEq α] {k p : α} (v : β) (r : List (α × β))
    (h : p ≠ k) : ((k, v) :: r).lookup p = r.lookup p := by
  have : (p == k) = false := by simpa using h
  simp [List.lookup, this]

theorem mem_of_lookup {α β} [BEq α] [LawfulBEq α] {k : α} {v : β} {l : List (α × β)}
    (h : l.lookup k = some v) : (k, v) ∈ l := by
  induction l with
  | nil => simp at h
  | cons x r ih =>
    obtain ⟨a, b⟩ := x
    by_cases hk : k = a
    · subst hk
      rw [lookup_cons_self] at h
      cases h
      exact List.mem_cons_self ..
    · rw [lookup_cons_ne _ _ hk] at h
      exact List.mem_cons_of_mem _ (ih h)

theorem lookup_eq_none_iff {α β} [BEq α] [LawfulBEq α] {k : α} {l : List (α × β)} :
    l.lookup k = none ↔ k ∉ l.map (·.1) := by
  induction l with
  | nil => simp
  | cons x r ih =>
    obtain ⟨a, b⟩ := x
    by_cases hk : k = a
    · subst hk
      rw [lookup_cons_self]
      simp
    · rw [lookup_cons_ne _ _ hk, ih]
      simp [hk]

theorem lookup_of_mem {α β} [BEq α] [LawfulBEq α] {k : α} {v : β} {l : List (α × β)}
    (hnd : (l.map (·.1)).Nodup) (h : (k, v) ∈ l) : l.lookup k = some v := by
  induction l with
  | nil => simp at h
  | cons x r ih =>
    obtain ⟨a, b⟩ := x
    simp only [List.map_cons, List.nodup_cons] at hnd
    rcases List.mem_cons.1 h with h' | h'
    · cases h'; exact lookup_cons_self ..
    · have hk : k ≠ a := by
        rintro rfl
        exact hnd.1 (List.mem_map.2 ⟨(k, v), h', rfl⟩)
      rw [lookup_cons_ne _ _ hk]
      exact ih hnd.2 h'

end Netlab
