import Verif.Model.Sort
import Verif.Spec.Sort
import Mathlib.Data.Fintype.Card
import Mathlib.Data.List.Perm.Basic
import Mathlib.Data.Set.Finite.List
/-!
# Lemmas on dependency sort
-/

namespace Netlab
open Spec

theorem depRound_eq (dep : String → List String) (mods ms : List String) :
    depRound dep mods ms =
      (ms.filter (fun m => (dep m).any (fun r => mods.contains r)),
       ms.filter (fun m => !(dep m).any (fun r => mods.contains r))) := by
  induction ms with
  | nil => rfl
  | cons m ms ih =>
    simp only [depRound, ih, List.filter_cons]
    cases h : ((dep m).any fun r => mods.contains r) <;> simp only [Bool.not_true, Bool.not_false, Bool.false_eq_true, if_true, if_false]

/-- Everything about a successful run of the loop. -/
theorem depLoop_some (dep : String → List String) (w : Nat) :
    ∀ (mods out res : List String), depLoop dep w mods out = some res →
      ∃ tail, res = out ++ tail ∧ tail.Perm mods ∧ InDependencyOrder dep tail := by
  induction w with
  | zero =>
    intro mods out res h
    unfold depLoop at h
    split at h
    · rename_i he
      cases h
      rw [List.isEmpty_iff] at he
      exact ⟨[], by simp, by simp [he], by simp [InDependencyOrder]⟩
    · simp at h
  | succ w ih =>
    intro mods out res h
    unfold depLoop at h
    split at h
    · rename_i he
      cases h
      rw [List.isEmpty_iff] at he
      exact ⟨[], by simp, by simp [he], by simp [InDependencyOrder]⟩
    · simp only [depRound_eq] at h
      obtain ⟨tail, rfl, hp, ho⟩ := ih _ _ _ h
      generalize hs : mods.filter (fun m => (dep m).any (fun r => mods.contains r)) = sk at hp
      generalize hn : mods.filter (fun m => !(dep m).any (fun r => mods.contains r)) = nw at *
      have hperm : (nw ++ tail).Perm mods := by
        have h1 : (nw ++ sk).Perm mods := by
          rw [← hs, ← hn]
          exact (List.perm_append_comm).trans
            (List.filter_append_perm (fun m => (dep m).any (fun r => mods.contains r)) mods)
        exact (hp.append_left nw).trans h1
      have hfree : ∀ m ∈ nw, ∀ r ∈ dep m, r ∉ mods := by
        intro m hm r hr hmem
        rw [← hn, List.mem_filter] at hm
        have := hm.2
        simp only [Bool.not_eq_true', List.any_eq_false] at this
        exact this r hr (by simpa using hmem)
      refine ⟨nw ++ tail, by simp, hperm, ?_, ?_⟩
      · intro m hm hd
        rcases List.mem_append.1 hm with hm | hm
        · exact hfree m hm m hd (hperm.mem_iff.1 (List.mem_append_left _ hm))
        · exact ho.1 m hm hd
      · rw [List.pairwise_append]
        refine ⟨?_, ho.2, ?_⟩
        · refine List.Pairwise.imp_of_mem (R := fun _ _ => True) ?_ (List.pairwise_of_forall (fun _ _ => trivial))
          intro a b ha hb _ hd
          exact hfree a ha b hd (hperm.mem_iff.1 (List.mem_append_left _ hb))
        · intro a ha b hb hd
          exact hfree a ha b hd (hperm.mem_iff.1 (List.mem_append_right _ hb))

/-- Objects that all depend on one another are never sorted. -/
theorem depLoop_none_of_closed (dep : String → List String) (S : List String) (hS : S ≠ [])
    (hcl : ∀ m ∈ S, ∃ r ∈ dep m, r ∈ S) (w : Nat) :
    ∀ (mods out : List String), (∀ m ∈ S, m ∈ mods) → depLoop dep w mods out = none := by
  have hne : ∀ mods : List String, (∀ m ∈ S, m ∈ mods) → mods.isEmpty = false := by
    intro mods h
    obtain ⟨m, hm⟩ := List.exists_mem_of_ne_nil S hS
    have := h m hm
    cases mods with
    | nil => simp at this
    | cons => rfl
  induction w with
  | zero =>
    intro mods out h
    unfold depLoop
    simp [hne mods h]
  | succ w ih =>
    intro mods out h
    unfold depLoop
    rw [hne mods h]
    simp only [Bool.false_eq_true, if_false, depRound_eq]
    apply ih
    intro m hm
    rw [List.mem_filter]
    obtain ⟨r, hr, hrS⟩ := hcl m hm
    refine ⟨h m hm, List.any_eq_true.2 ⟨r, hr, by simpa using h r hrS⟩⟩

/-- When the loop fails, the remaining objects contain a closed set. -/
theorem depLoop_none (dep : String → List String) (w : Nat) :
    ∀ (mods out : List String), mods.length ≤ w → depLoop dep w mods out = none →
      ∃ S, S ≠ [] ∧ (∀ m ∈ S, m ∈ mods) ∧ ∀ m ∈ S, ∃ r ∈ dep m, r ∈ S := by
  induction w with
  | zero =>
    intro mods out hl h
    unfold depLoop at h
    have : mods = [] := List.length_eq_zero_iff.1 (by omega)
    simp [this] at h
  | succ w ih =>
    intro mods out hl h
    unfold depLoop at h
    split at h
    · cases h
    · rename_i hne
      simp only [depRound_eq] at h
      generalize hs : mods.filter (fun m => (dep m).any (fun r => mods.contains r)) = sk at h
      by_cases hlen : sk.length = mods.length
      · have hall : ∀ m ∈ mods, (dep m).any (fun r => mods.contains r) = true := by
          have hsub : sk = mods := by
            rw [← hs] at hlen ⊢
            exact (List.filter_sublist).eq_of_length hlen
          intro m hm
          rw [← hsub, ← hs, List.mem_filter] at hm
          exact hm.2
        refine ⟨mods, by rintro rfl; simp at hne, fun _ h => h, ?_⟩
        intro m hm
        obtain ⟨r, hr, hr2⟩ := List.any_eq_true.1 (hall m hm)
        exact ⟨r, hr, by simpa using hr2⟩
      · have hle : sk.length ≤ mods.length := by rw [← hs]; exact List.length_filter_le _ _
        obtain ⟨S, h1, h2, h3⟩ := ih sk _ (by omega) h
        refine ⟨S, h1, fun m hm => ?_, h3⟩
        have := h2 m hm
        rw [← hs, List.mem_filter] at this
        exact this.1

theorem hasLoop_of_closed {mods S : List String} {dep : String → List String} (hS : S ≠ [])
    (hsub : ∀ m ∈ S, m ∈ mods) (hcl : ∀ m ∈ S, ∃ r ∈ dep m, r ∈ S) : HasLoop mods dep := by
  by_contra hno
  let R : {m // m ∈ S} → {m // m ∈ S} → Prop := fun a b => b.1 ∈ dep a.1
  have hfin : Finite {m // m ∈ S} := by
    have := List.finite_toSet S
    exact this.to_subtype
  have lift : ∀ a b, Relation.TransGen R a b →
      Relation.TransGen (fun x y => y ∈ dep x ∧ y ∈ mods) a.1 b.1 := by
    intro a b h
    induction h with
    | single h => exact .single ⟨h, hsub _ (Subtype.property _)⟩
    | tail _ h ih => exact .tail ih ⟨h, hsub _ (Subtype.property _)⟩
  have hirr : Std.Irrefl (Relation.TransGen R) := ⟨fun a h =>
    hno ⟨a.1, hsub _ a.2, lift a a h⟩⟩
  have hirr' : Std.Irrefl (Function.swap (Relation.TransGen R)) := ⟨fun a h => hirr.irrefl a h⟩
  have htr : IsTrans _ (Function.swap (Relation.TransGen R)) :=
    ⟨fun a b c h1 h2 => Relation.TransGen.trans h2 h1⟩
  have hwf := Finite.wellFounded_of_trans_of_irrefl (Function.swap (Relation.TransGen R))
  obtain ⟨m, hm⟩ := List.exists_mem_of_ne_nil S hS
  obtain ⟨⟨x, hx⟩, -, hmin⟩ := hwf.has_min Set.univ ⟨⟨m, hm⟩, trivial⟩
  obtain ⟨r, hr, hrS⟩ := hcl x hx
  exact hmin ⟨r, hrS⟩ trivial (.single hr)

theorem closed_of_hasLoop {mods : List String} {dep : String → List String}
    (h : HasLoop mods dep) :
    ∃ S, S ≠ [] ∧ (∀ m ∈ S, m ∈ mods) ∧ ∀ m ∈ S, ∃ r ∈ dep m, r ∈ S := by
  classical
  obtain ⟨m, hm, hc⟩ := h
  refine ⟨mods.filter (fun x => decide (Relation.TransGen (fun a b => b ∈ dep a ∧ b ∈ mods) x m)),
    ?_, ?_, ?_⟩
  · apply List.ne_nil_of_mem (a := m)
    simp [hm, hc]
  · intro x hx
    exact (List.mem_filter.1 hx).1
  · intro x hx
    obtain ⟨hxm, hxc⟩ := List.mem_filter.1 hx
    simp only [decide_eq_true_eq] at hxc
    rcases Relation.TransGen.head'_iff.1 hxc with ⟨c, ⟨h1, h2⟩, h3⟩
    refine ⟨c, h1, ?_⟩
    simp only [List.mem_filter, decide_eq_true_eq]
    refine ⟨h2, ?_⟩
    rcases Relation.reflTransGen_iff_eq_or_transGen.1 h3 with heq | ht
    · rw [← heq]; exact hc
    · exact ht

end Netlab
