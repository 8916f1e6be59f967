import Verif.Model.Nodeset
import Verif.Spec.Nodeset
import Verif.Props.Groups
/-!
# C35: node sets on the command line
-/

namespace Netlab
open Spec

theorem splitOnChar_ne_nil (sep : Char) (l : List Char) : splitOnChar sep l ≠ [] := by
  cases l with
  | nil => simp [splitOnChar]
  | cons c r =>
    unfold splitOnChar
    split
    · simp
    · split <;> simp

theorem splitOnChar_one (sep : Char) (l : List Char) (h : sep ∉ l) : splitOnChar sep l = [l] := by
  induction l with
  | nil => rfl
  | cons c r ih =>
    simp only [List.mem_cons, not_or] at h
    have hc : ¬ ((c == sep) = true) := by
      simpa using fun e : c = sep => h.1 e.symm
    unfold splitOnChar
    rw [if_neg hc, ih h.2]

theorem splitOnChar_append (sep : Char) (p r : List Char) (h : sep ∉ p) :
    splitOnChar sep (p ++ sep :: r) = p :: splitOnChar sep r := by
  induction p with
  | nil => simp [splitOnChar]
  | cons c p ih =>
    simp only [List.mem_cons, not_or] at h
    have hc : ¬ ((c == sep) = true) := by
      simpa using fun e : c = sep => h.1 e.symm
    rw [List.cons_append, splitOnChar, if_neg hc, ih h.2]

theorem splitOnChar_intercalate (sep : Char) (els : List (List Char)) (hne : els ≠ [])
    (h : ∀ e ∈ els, sep ∉ e) : splitOnChar sep (List.intercalate [sep] els) = els := by
  induction els with
  | nil => exact absurd rfl hne
  | cons e rest ih =>
    cases rest with
    | nil => simpa using splitOnChar_one sep e (h e (by simp))
    | cons e' rest =>
      have : List.intercalate [sep] (e :: e' :: rest) = e ++ sep :: List.intercalate [sep] (e' :: rest) := by
        simp [List.intercalate, List.intersperse]
      rw [this, splitOnChar_append _ _ _ (h e (by simp)), ih (by simp) (fun x hx => h x (by simp [hx]))]

theorem intercalate_splitOnChar (sep : Char) (l : List Char) :
    List.intercalate [sep] (splitOnChar sep l) = l ∧ ∀ e ∈ splitOnChar sep l, sep ∉ e := by
  induction l with
  | nil => simp [splitOnChar, List.intercalate]
  | cons c r ih =>
    unfold splitOnChar
    split
    · rename_i hc
      have hc : c = sep := by simpa using hc
      subst hc
      constructor
      · cases hs : splitOnChar c r with
        | nil => exact absurd hs (splitOnChar_ne_nil _ _)
        | cons p ps =>
          rw [hs] at ih
          have : List.intercalate [c] ([] :: p :: ps) = c :: List.intercalate [c] (p :: ps) := by
            simp [List.intercalate, List.intersperse]
          rw [this, ih.1]
      · intro e he
        cases List.mem_cons.1 he with
        | inl e' => subst e'; simp
        | inr he => exact ih.2 e he
    · rename_i hc
      have hc : ¬ sep = c := fun e => hc (by simp [e])
      split
      · rename_i hs
        exact absurd hs (splitOnChar_ne_nil _ _)
      · rename_i p ps hs
        rw [hs] at ih
        constructor
        · rw [← ih.1]
          cases ps <;> simp [List.intercalate, List.intersperse]
        · intro e he
          cases List.mem_cons.1 he with
          | inl e' =>
            subst e'
            simp only [List.mem_cons, not_or]
            exact ⟨hc, ih.2 p (by simp)⟩
          | inr he => exact ih.2 e (by simp [he])

/-- **C35 (every argument is a node set).**  Every string is a list of elements separated by
commas. -/
theorem C35_every_string (ns : String) :
    ∃ els : List String, els ≠ [] ∧ (∀ e ∈ els, ',' ∉ e.toList) ∧ ns = joinComma els := by
  obtain ⟨h1, h2⟩ := intercalate_splitOnChar ',' ns.toList
  refine ⟨(splitOnChar ',' ns.toList).map String.ofList, ?_, ?_, ?_⟩
  · simpa using splitOnChar_ne_nil ',' ns.toList
  · intro e he
    obtain ⟨l, hl, rfl⟩ := List.mem_map.1 he
    simpa using h2 l hl
  · unfold joinComma
    rw [List.map_map]
    have : (String.toList ∘ String.ofList) = (id : List Char → List Char) := by
      funext l
      simp
    rw [this, List.map_id, h1]
    simp

theorem parseNodeset_join (fn : String → String → Bool) (gs : Groups) (nodes els : List String)
    (hne : els ≠ []) (h : ∀ e ∈ els, ',' ∉ e.toList) :
    parseNodeset fn gs nodes (joinComma els) = nodesetLoop fn gs nodes els [] := by
  unfold parseNodeset joinComma
  rw [String.toList_ofList, splitOnChar_intercalate]
  · rw [List.map_map]
    have : (String.ofList ∘ String.toList) = (id : String → String) := by
      funext l
      simp
    rw [this, List.map_id]
  · simpa using hne
  · intro e he
    obtain ⟨s, hs, rfl⟩ := List.mem_map.1 he
    exact h s hs

theorem isGlob_iff (s : String) : isGlob s = true ↔ IsPattern s := by
  unfold isGlob IsPattern
  simp only [List.any_eq_true, Bool.or_eq_true, beq_iff_eq]
  constructor
  · rintro ⟨c, hc, ((rfl | rfl) | rfl)⟩
    · exact Or.inl hc
    · exact Or.inr (Or.inl hc)
    · exact Or.inr (Or.inr hc)
  · rintro (h | h | h)
    · exact ⟨_, h, Or.inl (Or.inl rfl)⟩
    · exact ⟨_, h, Or.inl (Or.inr rfl)⟩
    · exact ⟨_, h, Or.inr rfl⟩

theorem addGlob_spec (fn : String → String → Bool) (g : String) (nodes acc : List String) :
    (∀ n, n ∈ (addGlob fn g nodes acc).1 ↔ n ∈ acc ∨ n ∈ nodes ∧ fn n g = true) ∧
    ((addGlob fn g nodes acc).2 = 0 ↔ ∀ n ∈ nodes, fn n g = false) ∧
    (acc.Nodup → (addGlob fn g nodes acc).1.Nodup) ∧
    ∃ ext, (addGlob fn g nodes acc).1 = acc ++ ext := by
  induction nodes generalizing acc with
  | nil => simp [addGlob]
  | cons m rest ih =>
    unfold addGlob
    by_cases hf : fn m g = true
    · rw [if_pos hf]
      obtain ⟨h1, h2, h3, ext, h4⟩ := ih (if acc.contains m then acc else acc ++ [m])
      refine ⟨?_, ?_, ?_, ?_⟩
      · intro n
        simp only [h1, List.mem_cons]
        by_cases hm : m ∈ acc
        · rw [if_pos (by simpa using hm)]
          constructor
          · rintro (h | h)
            · exact Or.inl h
            · exact Or.inr ⟨Or.inr h.1, h.2⟩
          · rintro (h | ⟨rfl | h, h'⟩)
            · exact Or.inl h
            · exact Or.inl hm
            · exact Or.inr ⟨h, h'⟩
        · rw [if_neg (by simpa using hm)]
          simp only [List.mem_append, List.mem_singleton]
          constructor
          · rintro ((h | rfl) | h)
            · exact Or.inl h
            · exact Or.inr ⟨Or.inl rfl, hf⟩
            · exact Or.inr ⟨Or.inr h.1, h.2⟩
          · rintro (h | ⟨rfl | h, h'⟩)
            · exact Or.inl (Or.inl h)
            · exact Or.inl (Or.inr rfl)
            · exact Or.inr ⟨h, h'⟩
      · simp only
        constructor
        · intro h
          omega
        · intro h
          have := h m (by simp)
          rw [hf] at this
          cases this
      · intro hn
        apply h3
        split
        · exact hn
        · rename_i hm
          rw [List.nodup_append]
          refine ⟨hn, by simp, ?_⟩
          intro a ha b hb e
          simp only [List.mem_singleton] at hb
          subst hb
          subst e
          exact hm (by simpa using ha)
      · simp only [h4]
        split
        · exact ⟨ext, rfl⟩
        · exact ⟨m :: ext, by simp⟩
    · rw [if_neg hf]
      obtain ⟨h1, h2, h3, h4⟩ := ih acc
      have hf' : fn m g = false := by simpa using hf
      refine ⟨?_, ?_, h3, h4⟩
      · intro n
        rw [h1]
        simp only [List.mem_cons]
        constructor
        · rintro (h | h)
          · exact Or.inl h
          · exact Or.inr ⟨Or.inr h.1, h.2⟩
        · rintro (h | ⟨rfl | h, h'⟩)
          · exact Or.inl h
          · rw [hf'] at h'
            cases h'
          · exact Or.inr ⟨h, h'⟩
      · rw [h2]
        simp [hf']

theorem has_lookup (gs : Groups) (e : String) : gs.has e = true ↔ gs.lookup e ≠ none := by
  unfold Groups.has
  cases gs.lookup e <;> simp

theorem nodesetLoop_spec (fn : String → String → Bool) (gs : Groups) (nodes els acc : List String)
    (l : List String) (k : Nat) (h : nodesetLoop fn gs nodes els acc = some (l, k)) :
    (∀ n, n ∈ l ↔ n ∈ acc ∨ ∃ e ∈ els, Selects fn gs nodes e n) ∧
    (k = 0 ↔ ∀ e ∈ els, Correct fn gs nodes e) ∧
    ((∀ e ∈ els, ∀ m, groupMembers gs nodes "node" 100 e = some m → m.Nodup) → acc.Nodup → l.Nodup) ∧
    ∃ ext, l = acc ++ ext := by
  induction els generalizing acc l k with
  | nil =>
    simp only [nodesetLoop, Option.some.injEq, Prod.mk.injEq] at h
    obtain ⟨rfl, rfl⟩ := h
    simp
  | cons e rest ih =>
    unfold nodesetLoop at h
    by_cases hg : isGlob e = true
    · rw [if_pos hg] at h
      have hp := (isGlob_iff e).1 hg
      obtain ⟨g1, g2, g3, ge, g4⟩ := addGlob_spec fn e nodes acc
      simp only at h
      split at h
      · cases h
      · rename_i r hr
        simp only [Option.some.injEq, Prod.mk.injEq] at h
        obtain ⟨rfl, hk⟩ := h
        obtain ⟨i1, i2, i3, ext, i4⟩ := ih _ r.1 r.2 hr
        refine ⟨?_, ?_, ?_, ?_⟩
        · intro n
          rw [i1, g1]
          simp only [List.mem_cons, or_and_right, exists_or, exists_eq_left]
          have : Selects fn gs nodes e n ↔ n ∈ nodes ∧ fn n e = true := by
            simp [Selects, hp]
          rw [this, or_assoc]
        · simp only [List.forall_mem_cons, ← i2]
          have : Correct fn gs nodes e ↔ ¬ ((addGlob fn e nodes acc).2 = 0) := by
            rw [g2]
            simp [Correct, hp]
          rw [this, ← hk]
          by_cases h0 : (addGlob fn e nodes acc).2 = 0
          · simp [h0]
          · simp [h0]
        · intro hm hn
          exact i3 (fun x hx => hm x (by simp [hx])) (g3 hn)
        · exact ⟨ge ++ ext, by rw [i4, g4, List.append_assoc]⟩
    · have hp : ¬ IsPattern e := fun h' => hg ((isGlob_iff e).2 h')
      rw [if_neg hg] at h
      by_cases hgr : gs.has e = true
      · rw [if_pos hgr] at h
        have hl := (has_lookup gs e).1 hgr
        split at h
        · cases h
        · rename_i m hm
          obtain ⟨i1, i2, i3, ext, i4⟩ := ih _ l k h
          have hmem := C14_members_exact gs nodes "node" e m hm
          refine ⟨?_, ?_, ?_, ?_⟩
          · intro n
            rw [i1]
            simp only [List.mem_cons, or_and_right, exists_or, exists_eq_left, List.mem_append,
              List.mem_filter]
            have : Selects fn gs nodes e n ↔ n ∈ m := by
              rw [hmem]
              simp [Selects, hp, hl]
            rw [this]
            by_cases hna : n ∈ acc
            · simp [hna]
            · simp [hna]
          · simp only [List.forall_mem_cons, ← i2]
            simp [Correct, hp, hl]
          · intro hnd hn
            apply i3 (fun x hx => hnd x (by simp [hx]))
            rw [List.nodup_append]
            refine ⟨hn, (hnd e (by simp) m hm).filter _, ?_⟩
            intro a ha b hb eq
            subst eq
            rw [List.mem_filter] at hb
            have := hb.2
            simp [ha] at this
          · exact ⟨_, by rw [i4, List.append_assoc]⟩
      · rw [if_neg hgr] at h
        have hl : gs.lookup e = none := by
          cases hx : gs.lookup e with
          | none => rfl
          | some _ => exact absurd ((has_lookup gs e).2 (by simp [hx])) hgr
        by_cases hn : e ∈ nodes
        · rw [if_neg (by simpa using hn)] at h
          obtain ⟨i1, i2, i3, ext, i4⟩ := ih _ l k h
          refine ⟨?_, ?_, ?_, ?_⟩
          · intro n
            rw [i1]
            simp only [List.mem_cons, or_and_right, exists_or, exists_eq_left]
            have : Selects fn gs nodes e n ↔ n = e := by
              simp only [Selects, hp, hl]
              constructor
              · rintro ⟨_, (h | h | h)⟩
                · exact h.1.elim
                · exact absurd rfl h.2.1
                · exact h.2.2
              · rintro rfl
                exact ⟨hn, Or.inr (Or.inr ⟨not_false, trivial, rfl⟩)⟩
            rw [this]
            by_cases hea : e ∈ acc
            · rw [if_pos (by simpa using hea)]
              constructor
              · rintro (h | h)
                · exact Or.inl h
                · exact Or.inr (Or.inr h)
              · rintro (h | rfl | h)
                · exact Or.inl h
                · exact Or.inl hea
                · exact Or.inr h
            · rw [if_neg (by simpa using hea)]
              simp only [List.mem_append, List.mem_singleton, or_assoc]
          · simp only [List.forall_mem_cons, ← i2]
            simp [Correct, hp, hn]
          · intro hnd hacc
            apply i3 (fun x hx => hnd x (by simp [hx]))
            split
            · exact hacc
            · rename_i hm
              rw [List.nodup_append]
              refine ⟨hacc, by simp, ?_⟩
              intro a ha b hb eq
              simp only [List.mem_singleton] at hb
              subst hb
              subst eq
              exact hm (by simpa using ha)
          · split at i4
            · exact ⟨ext, i4⟩
            · exact ⟨[e] ++ ext, by rw [i4, List.append_assoc]⟩
        · rw [if_pos (by simpa using hn)] at h
          split at h
          · cases h
          · rename_i r hr
            simp only [Option.some.injEq, Prod.mk.injEq] at h
            obtain ⟨rfl, hk⟩ := h
            obtain ⟨i1, i2, i3, ext, i4⟩ := ih _ r.1 r.2 hr
            refine ⟨?_, ?_, ?_, ⟨ext, i4⟩⟩
            · intro n
              rw [i1]
              simp only [List.mem_cons, or_and_right, exists_or, exists_eq_left]
              have : ¬ Selects fn gs nodes e n := by
                rintro ⟨hnn, (h | h | h)⟩
                · exact hp h.1
                · exact absurd hl h.2.1
                · exact hn (h.2.2 ▸ hnn)
              simp [this]
            · constructor
              · intro h0
                omega
              · intro hall
                have := (hall e (by simp)).2 hp
                rcases this with h' | h'
                · exact absurd hl h'
                · exact absurd h' hn
            · intro hnd hacc
              exact i3 (fun x hx => hnd x (by simp [hx])) hacc

/-- **C35 (selected nodes).**  The parsed node set contains exactly the nodes selected by at least one of its
elements. -/
theorem C35_members (fn : String → String → Bool) (gs : Groups) (nodes els : List String)
    (hne : els ≠ []) (hc : ∀ e ∈ els, ',' ∉ e.toList) (l : List String) (k : Nat)
    (h : parseNodeset fn gs nodes (joinComma els) = some (l, k)) (n : String) :
    n ∈ l ↔ ∃ e ∈ els, Selects fn gs nodes e n := by
  rw [parseNodeset_join fn gs nodes els hne hc] at h
  simpa using (nodesetLoop_spec fn gs nodes els [] l k h).1 n

/-- **C35 (errors).**  An error is reported iff some element is a pattern matching no node, or
is neither the name of a group nor the name of a node. -/
theorem C35_errors (fn : String → String → Bool) (gs : Groups) (nodes els : List String)
    (hne : els ≠ []) (hc : ∀ e ∈ els, ',' ∉ e.toList) (l : List String) (k : Nat)
    (h : parseNodeset fn gs nodes (joinComma els) = some (l, k)) :
    0 < k ↔ ∃ e ∈ els, ¬ Correct fn gs nodes e := by
  rw [parseNodeset_join fn gs nodes els hne hc] at h
  have := (nodesetLoop_spec fn gs nodes els [] l k h).2.1
  constructor
  · intro hk
    apply Classical.byContradiction
    intro hno
    have : k = 0 := this.2 (fun e he => Classical.byContradiction (fun hx => hno ⟨e, he, hx⟩))
    omega
  · rintro ⟨e, he, hx⟩
    apply Nat.pos_of_ne_zero
    intro h0
    exact hx (this.1 h0 e he)

/-- **C35 (each node once).**  A node is listed twice only if a group named in the node set reaches a node
in two ways (see `C35_duplicate_node`). -/
theorem C35_once (fn : String → String → Bool) (gs : Groups) (nodes els : List String)
    (hne : els ≠ []) (hc : ∀ e ∈ els, ',' ∉ e.toList) (l : List String) (k : Nat)
    (h : parseNodeset fn gs nodes (joinComma els) = some (l, k))
    (hd : ¬ l.Nodup) : ∃ e ∈ els, TwoWays gs "node" nodes e := by
  rw [parseNodeset_join fn gs nodes els hne hc] at h
  apply Classical.byContradiction
  intro hno
  refine hd ((nodesetLoop_spec fn gs nodes els [] l k h).2.2.1 (fun e he m hm => ?_) List.nodup_nil)
  apply Classical.byContradiction
  exact fun hx => hno ⟨e, he, (C14_repeated_iff gs nodes "node" e m hm).1 hx⟩

/-- **C35 (order).**  The nodes selected by the first elements come first: adding elements to a node set
only adds nodes to the end of the list. -/
theorem C35_order (fn : String → String → Bool) (gs : Groups) (nodes els more : List String)
    (hne : els ≠ []) (hc : ∀ e ∈ els ++ more, ',' ∉ e.toList) (l l' : List String) (k k' : Nat)
    (h : parseNodeset fn gs nodes (joinComma els) = some (l, k))
    (h' : parseNodeset fn gs nodes (joinComma (els ++ more)) = some (l', k')) : ∃ ext, l' = l ++ ext := by
  rw [parseNodeset_join fn gs nodes els hne (fun e he => hc e (by simp [he]))] at h
  rw [parseNodeset_join fn gs nodes (els ++ more) (by simp [hne]) hc] at h'
  have key : ∀ (els : List String) (acc : List String) (l l' : List String) (k k' : Nat),
      nodesetLoop fn gs nodes els acc = some (l, k) →
      nodesetLoop fn gs nodes (els ++ more) acc = some (l', k') → ∃ ext, l' = l ++ ext := by
    intro els
    induction els with
    | nil =>
      intro acc l l' k k' h h'
      simp only [nodesetLoop, Option.some.injEq, Prod.mk.injEq] at h
      obtain ⟨rfl, rfl⟩ := h
      exact (nodesetLoop_spec fn gs nodes more acc l' k' h').2.2.2
    | cons e rest ih =>
      intro acc l l' k k' h h'
      rw [List.cons_append] at h'
      unfold nodesetLoop at h h'
      by_cases hg : isGlob e = true
      · rw [if_pos hg] at h h'
        simp only at h h'
        split at h
        · cases h
        · rename_i r hr
          split at h'
          · cases h'
          · rename_i r' hr'
            simp only [Option.some.injEq, Prod.mk.injEq] at h h'
            obtain ⟨rfl, _⟩ := h
            obtain ⟨rfl, _⟩ := h'
            exact ih _ _ _ _ _ hr hr'
      · rw [if_neg hg] at h h'
        by_cases hgr : gs.has e = true
        · rw [if_pos hgr] at h h'
          split at h
          · cases h
          · rename_i m hm
            rw [hm] at h'
            simp only at h'
            exact ih _ _ _ _ _ h h'
        · rw [if_neg hgr] at h h'
          by_cases hn : (!(nodes.contains e)) = true
          · rw [if_pos hn] at h h'
            split at h
            · cases h
            · rename_i r hr
              split at h'
              · cases h'
              · rename_i r' hr'
                simp only [Option.some.injEq, Prod.mk.injEq] at h h'
                obtain ⟨rfl, _⟩ := h
                obtain ⟨rfl, _⟩ := h'
                exact ih _ _ _ _ _ hr hr'
          · rw [if_neg hn] at h h'
            exact ih _ _ _ _ _ h h'
  exact key els [] l l' k k' h h'

/-- **C35 (pruned topology).**  The pruned topology has exactly the nodes of the node set, with their data and in
their original order. -/
theorem C35_prune {α : Type} (nodes : List (String × α)) (l : List String) :
    (getNodeset nodes l).Sublist nodes ∧ ∀ x, x ∈ getNodeset nodes l ↔ x ∈ nodes ∧ x.1 ∈ l := by
  unfold getNodeset
  exact ⟨List.filter_sublist, fun x => by simp⟩

/-- Two groups, the second one is a member of the first one and shares a node with it -/
def nodesetSample : Groups := [("g", { members := ["a", "h"] }), ("h", { members := ["a", "b"] })]

example : parseNodeset (fun _ _ => true) nodesetSample ["a", "b", "c"] "c,h" = some (["c", "a", "b"], 0) := by
  decide +kernel
example : parseNodeset (fun n _ => n == "b") nodesetSample ["a", "b", "c"] "b*,a,x" = some (["b", "a"], 1) := by
  decide +kernel
example : joinComma ["c", "h"] = "c,h" := by decide +kernel
example : ∀ m, groupMembers nodesetSample ["a", "b", "c"] "node" 100 "h" = some m → m.Nodup := by
  intro m hm
  have : groupMembers nodesetSample ["a", "b", "c"] "node" 100 "h" = some ["a", "b"] := by decide +kernel
  rw [this] at hm
  cases hm
  decide

/-- **C35 (defect).**  A node reached in two ways through a group hierarchy is listed twice. -/
theorem C35_duplicate_node :
    parseNodeset (fun _ _ => false) nodesetSample ["a", "b", "c"] "g" = some (["a", "a", "b"], 0) := by
  decide +kernel

end Netlab
