/-!
# General list lemmas
-/

namespace Netlab

theorem nodup_eraseDups {α : Type} [BEq α] [LawfulBEq α] (l : List α) : l.eraseDups.Nodup := by
  match l with
  | [] => simp
  | a :: as =>
    rw [List.eraseDups_cons, List.nodup_cons]
    refine ⟨?_, nodup_eraseDups _⟩
    rw [List.mem_eraseDups]
    simp
  termination_by l.length
  decreasing_by
    simp only [List.length_cons]
    have := List.length_filter_le (fun b => !b == a) as
    omega

end Netlab
