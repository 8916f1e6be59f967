import Verif.Model.Evpn
/-!
# C77: lists of VLANs and VRFs
-/

namespace Netlab

theorem appendNew_spec (a b : List String) :
    let r := b.foldl (fun l k => if l.contains k then l else l ++ [k]) a
    (∀ x, x ∈ r ↔ x ∈ a ∨ x ∈ b) ∧ (a.Nodup → r.Nodup) ∧ a <+: r ∧ ∃ c, r = a ++ c ∧ c.Sublist b := by
  induction b generalizing a with
  | nil => exact ⟨by simp, fun h => h, ⟨[], by simp⟩, [], by simp, .slnil⟩
  | cons k b ih =>
    intro r
    by_cases hk : k ∈ a
    · have hr : r = b.foldl (fun l k => if l.contains k then l else l ++ [k]) a := by
        simp only [r, List.foldl_cons]
        rw [if_pos (List.contains_iff_mem.mpr hk)]
      obtain ⟨h1, h2, h3, c, h4, h5⟩ := ih a
      rw [← hr] at h1 h2 h3 h4
      refine ⟨fun x => ?_, h2, h3, c, h4, h5.cons k⟩
      rw [h1, List.mem_cons]
      constructor
      · rintro (h | h)
        · exact .inl h
        · exact .inr (.inr h)
      · rintro (h | h | h)
        · exact .inl h
        · subst h; exact .inl hk
        · exact .inr h
    · have hr : r = b.foldl (fun l k => if l.contains k then l else l ++ [k]) (a ++ [k]) := by
        simp only [r, List.foldl_cons]
        rw [if_neg (by simpa using hk)]
      obtain ⟨h1, h2, h3, c, h4, h5⟩ := ih (a ++ [k])
      rw [← hr] at h1 h2 h3 h4
      refine ⟨fun x => ?_, fun h => h2 ?_, ?_, k :: c, ?_, h5.cons_cons k⟩
      · rw [h1, List.mem_append, List.mem_singleton, List.mem_cons, or_assoc]
      · rw [List.nodup_append]
        refine ⟨h, by simp, ?_⟩
        intro x hx y hy
        rw [List.mem_singleton] at hy
        subst hy
        rintro rfl
        exact hk hx
      · exact (List.prefix_append a [k]).trans h3
      · rw [h4, List.append_assoc, List.singleton_append]

/-- A list of objects (VLANs, VRFs) in a node or in the topology.  A list with elements is not changed.  Without elements, and
when the default is wanted and there are objects, it becomes the list of the selected objects followed by the other
elements of the global list (when it should be used), or stays as it is if there are none.  There are no errors if and
only if all elements are names of local or global objects. -/
theorem C77_reference_lists (list loc glob : Option (List String)) (dflt : List String) (create merge : Bool)
    (topoList : Option (List String)) :
    let r := refList list loc glob dflt create merge topoList
    (list.getD [] ≠ [] → r.1 = list) ∧
    (list.getD [] = [] → (loc = none ∨ create = false) → r.1 = list) ∧
    (list.getD [] = [] → loc ≠ none → create = true →
      (∀ x, x ∈ r.1.getD [] ↔ x ∈ dflt ∨ merge = true ∧ x ∈ topoList.getD []) ∧
      (dflt.Nodup → (r.1.getD []).Nodup) ∧
      (∃ c, r.1.getD [] = dflt ++ c ∧ c.Sublist (topoList.getD []) ∧ (merge = false → c = [])) ∧
      (r.1.getD [] = [] → r.1 = list)) ∧
    (r.2 = 0 ↔ ∀ x ∈ r.1.getD [], x ∈ loc.getD [] ∨ x ∈ glob.getD []) := by
  have hcheck : ∀ l : List String,
      (l.filter (fun n => !(loc.getD []).contains n && !(glob.getD []).contains n)).length = 0 ↔
        ∀ x ∈ l, x ∈ loc.getD [] ∨ x ∈ glob.getD [] := by
    intro l
    rw [List.length_eq_zero_iff, List.filter_eq_nil_iff]
    apply forall_congr'
    intro x
    apply forall_congr'
    intro _
    by_cases h1 : x ∈ loc.getD [] <;> by_cases h2 : x ∈ glob.getD [] <;> simp [h1, h2]
  have hempty : list.getD [] = [] → refList list loc glob dflt create merge topoList =
      (if loc.isNone || !create then (list, 0)
       else
        let l := if merge then
            (topoList.getD []).foldl (fun l k => if l.contains k then l else l ++ [k]) dflt
          else dflt
        if l.isEmpty then (list, 0)
        else (some l, (l.filter (fun n => !(loc.getD []).contains n && !(glob.getD []).contains n)).length)) := by
    intro h
    cases list with
    | none => rfl
    | some l =>
      cases l with
      | nil => rfl
      | cons a l => simp at h
  intro r
  by_cases hl : list.getD [] = []
  · have hr : r = _ := hempty hl
    by_cases hc : (loc.isNone || !create) = true
    · rw [if_pos hc] at hr
      have hc' : loc = none ∨ create = false := by simpa using hc
      rw [hr]
      refine ⟨fun h => absurd hl h, fun _ _ => rfl, fun _ h1 h2 => ?_, ?_⟩
      · rcases hc' with h | h
        · exact absurd h h1
        · rw [h] at h2; cases h2
      · simp [hl]
    · rw [if_neg hc] at hr
      have hc' : loc ≠ none ∧ create = true := by
        cases loc with
        | none => simp at hc
        | some x => simpa using hc
      simp only at hr
      generalize hL : (if merge then
            (topoList.getD []).foldl (fun l k => if l.contains k then l else l ++ [k]) dflt
          else dflt) = L at hr
      have hLs : (∀ x, x ∈ L ↔ x ∈ dflt ∨ merge = true ∧ x ∈ topoList.getD []) ∧ (dflt.Nodup → L.Nodup) ∧
          (∃ c, L = dflt ++ c ∧ c.Sublist (topoList.getD []) ∧ (merge = false → c = [])) := by
        obtain ⟨h1, h2, _, c, h4, h5⟩ := appendNew_spec dflt (topoList.getD [])
        cases merge with
        | true =>
          simp only [if_true] at hL
          rw [hL] at h1 h2 h4
          exact ⟨fun x => by rw [h1]; simp, h2, c, h4, h5, by simp⟩
        | false =>
          simp only [Bool.false_eq_true, if_false] at hL
          subst hL
          exact ⟨by simp, fun h => h, [], by simp, List.nil_sublist _, fun _ => rfl⟩
      by_cases he : L.isEmpty = true
      · rw [if_pos he] at hr
        have he' : L = [] := List.isEmpty_iff.mp he
        rw [he'] at hLs
        rw [hr]
        refine ⟨fun h => absurd hl h, fun _ _ => rfl, fun _ _ _ => ?_, by simp [hl]⟩
        rw [hl]
        exact ⟨hLs.1, fun _ => List.nodup_nil, hLs.2.2, fun _ => rfl⟩
      · rw [if_neg he] at hr
        have he' : L ≠ [] := fun h => he (List.isEmpty_iff.mpr h)
        rw [hr]
        refine ⟨fun h => absurd hl h, fun _ h => ?_, fun _ _ _ => ⟨hLs.1, hLs.2.1, hLs.2.2, fun h => absurd h he'⟩, hcheck L⟩
        rcases h with h | h
        · exact absurd h hc'.1
        · rw [h] at hc'; cases hc'.2
  · have hr : ∃ a l, list = some (a :: l) := by
      cases list with
      | none => simp at hl
      | some l =>
        cases l with
        | nil => simp at hl
        | cons a l => exact ⟨a, l, rfl⟩
    obtain ⟨a, l, rfl⟩ := hr
    exact ⟨fun _ => rfl, fun h => absurd h hl, fun h => absurd h hl, hcheck (a :: l)⟩

example : refList none (some ["a", "b"]) (some ["c"]) ["b"] true true (some ["c", "b", "d"]) = (some ["b", "c", "d"], 1) := by
  decide

end Netlab
