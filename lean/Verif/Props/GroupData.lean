import Verif.Lemmas.Layers
import Verif.Props.Groups
/-!
# C15, C16: data and configuration templates copied from groups to nodes
-/

namespace Netlab
open Spec

/-! ### C15: node data -/

/-- Data that the groups in `order` copy into a node, in the order of processing. -/
def groupLayers (gs : Groups) (pfx : String) (topoModules : List String)
    (isMember : String → Bool) (nodeModules : Option (List String)) (order : List String) :
    List (List (String × Val)) :=
  order.filterMap (fun g =>
    match gs.lookup g with
    | none => none
    | some d => match d.nodeData with
      | none => none
      | some nd => if pfx.toList.isPrefixOf g.toList && isMember g
        then some (dropUnused topoModules nodeModules nd) else none)

theorem copyNodeData_eq (gs : Groups) (pfx : String) (tm : List String) (isMember : String → Bool)
    (order : List String) : ∀ n : GNode,
    copyNodeData gs pfx tm isMember order n =
      { n with
        data := (groupLayers gs pfx tm isMember n.module order).foldl
                  (fun acc g => mergeDict g acc) n.data } := by
  induction order with
  | nil => intro n; rfl
  | cons g r ih =>
    intro n
    unfold copyNodeData groupLayers
    rw [List.filterMap_cons]
    cases hl : gs.lookup g with
    | none => simp only [ih]; rfl
    | some d =>
      cases hd : d.nodeData with
      | none => simp only [hd, ih]; rfl
      | some nd =>
        simp only [hd]
        by_cases hc : (pfx.toList.isPrefixOf g.toList && isMember g) = true
        · simp only [hc, if_true, List.foldl_cons]
          rw [ih]
          rfl
        · simp only [hc, Bool.false_eq_true, if_false]
          rw [ih]
          rfl

theorem uniqueKeys_dropUnused (tm : List String) (nm : Option (List String))
    {d : List (String × Val)} (h : Val.UniqueKeys (.dict d)) :
    Val.UniqueKeys (.dict (dropUnused tm nm d)) := by
  unfold dropUnused
  cases nm with
  | none => exact h
  | some ms => exact uniqueKeys_foldl_popKey _ _ h

/-- Keys are unique in the data of all groups (as they are in Python dictionaries). -/
def Spec.GroupsUniqueKeys (gs : Groups) : Prop :=
  ∀ g d nd, gs.lookup g = some d → d.nodeData = some nd → Val.UniqueKeys (.dict nd)

theorem uniqueKeys_groupLayers {gs : Groups} (hgs : GroupsUniqueKeys gs) (pfx : String)
    (tm : List String) (isMember : String → Bool) (nm : Option (List String))
    (order : List String) :
    ∀ l ∈ groupLayers gs pfx tm isMember nm order, Val.UniqueKeys (.dict l) := by
  intro l hl
  obtain ⟨g, -, h⟩ := List.mem_filterMap.1 hl
  cases e1 : gs.lookup g with
  | none => simp [e1] at h
  | some d =>
    cases e2 : d.nodeData with
    | none => simp [e1, e2] at h
    | some nd =>
      simp only [e1, e2] at h
      split at h
      · cases h
        exact uniqueKeys_dropUnused _ _ (hgs g d nd e1 e2)
      · cases h

/-- **C15 (node data wins).**  Groups never change a value set on a node. -/
theorem C15_node_values_kept (gs : Groups) (hgs : GroupsUniqueKeys gs) (pfx : String)
    (tm : List String) (isMember : String → Bool) (order : List String) (n : GNode)
    (hn : Val.UniqueKeys (.dict n.data)) (p : List String) (w : Val)
    (h : Val.leafAt (.dict n.data) p w) :
    Val.leafAt (.dict (copyNodeData gs pfx tm isMember order n).data) p w := by
  rw [copyNodeData_eq]
  exact foldl_keeps _ _ p w hn (uniqueKeys_groupLayers hgs _ _ _ _ _) h

/-- **C15 (nothing else).**  A value on a node after group processing was set on the node, or it
comes from a group the node is a member of (and it wasn't set on the node). -/
theorem C15_values_come_from_groups (gs : Groups) (hgs : GroupsUniqueKeys gs) (pfx : String)
    (tm : List String) (isMember : String → Bool) (order : List String) (n : GNode)
    (hn : Val.UniqueKeys (.dict n.data)) (p : List String) (w : Val)
    (h : Val.leafAt (.dict (copyNodeData gs pfx tm isMember order n).data) p w) :
    Val.leafAt (.dict n.data) p w ∨
    (Val.at (.dict n.data) p = none ∧ ∃ g ∈ order, isMember g = true ∧ ∃ d nd,
      gs.lookup g = some d ∧ d.nodeData = some nd ∧
      Val.leafAt (.dict (dropUnused tm n.module nd)) p w) := by
  rw [copyNodeData_eq] at h
  obtain ⟨before, l, after, e1, e2, e3⟩ :=
    foldl_source _ _ p w hn (uniqueKeys_groupLayers hgs _ _ _ _ _) h
  cases before with
  | nil =>
    simp only [List.nil_append, List.cons.injEq] at e1
    rw [e1.1]
    exact Or.inl e2
  | cons b before =>
    simp only [List.cons_append, List.cons.injEq] at e1
    obtain ⟨rfl, e1⟩ := e1
    refine Or.inr ⟨e3 _ (by simp), ?_⟩
    have hl : l ∈ groupLayers gs pfx tm isMember n.module order := by rw [e1]; simp
    obtain ⟨g, hg, h⟩ := List.mem_filterMap.1 hl
    cases f1 : gs.lookup g with
    | none => simp [f1] at h
    | some d =>
      cases f2 : d.nodeData with
      | none => simp [f1, f2] at h
      | some nd =>
        simp only [f1, f2] at h
        split at h
        · rename_i hc
          cases h
          simp only [Bool.and_eq_true] at hc
          exact ⟨g, hg, hc.2, d, nd, f1, f2, e2⟩
        · cases h

/-- **C15 (innermost group wins).**  Let the node be a member of the group `inner`, and let
every other group of this node that says something about the path contain the group `inner`
(directly or through other groups).  Then a value not set on the node is the value set in
`inner`. -/
theorem C15_innermost_group_wins (gs : Groups) (hgs : GroupsUniqueKeys gs)
    (hnd : (gs.map (·.1)).Nodup) (fuel : Nat) (order : List String)
    (ho : reverseTopsort gs fuel = some order) (tm : List String) (isMember : String → Bool)
    (n : GNode) (hn : Val.UniqueKeys (.dict n.data)) (p : List String) (w : Val)
    (inner : String) (d : Group) (nd : List (String × Val)) (hd : gs.lookup inner = some d)
    (hnd2 : d.nodeData = some nd) (hin : isMember inner = true)
    (hval : Val.leafAt (.dict (dropUnused tm n.module nd)) p w)
    (hnode : Untouched (.dict n.data) p)
    (hother : ∀ g e ed, g ≠ inner → isMember g = true → gs.lookup g = some e →
      e.nodeData = some ed → ¬ Untouched (.dict (dropUnused tm n.module ed)) p →
      Relation.TransGen (SubGroup gs) g inner) :
    Val.leafAt (.dict (copyNodeData gs "" tm isMember order n).data) p w := by
  obtain ⟨hperm, hfirst⟩ := C14_inner_groups_first gs hnd fuel order ho
  have hon : order.Nodup := hperm.nodup_iff.2 hnd
  have hio : inner ∈ order := hperm.mem_iff.2 (lookup_mem_keys (has_iff.2 ⟨d, hd⟩))
  obtain ⟨o1, o2, rfl⟩ := List.append_of_mem hio
  rw [copyNodeData_eq]
  apply foldl_decides _ _ p w hn (uniqueKeys_groupLayers hgs _ _ _ _ _)
  refine ⟨n.data :: groupLayers gs "" tm isMember n.module o1,
    dropUnused tm n.module nd, groupLayers gs "" tm isMember n.module o2, ?_, hval, ?_⟩
  · unfold groupLayers
    rw [List.filterMap_append, List.filterMap_cons]
    simp [hd, hnd2, hin]
  · intro b hb
    rcases List.mem_cons.1 hb with rfl | hb
    · exact hnode
    · obtain ⟨g, hg, h⟩ := List.mem_filterMap.1 hb
      cases f1 : gs.lookup g with
      | none => simp [f1] at h
      | some e =>
        cases f2 : e.nodeData with
        | none => simp [f1, f2] at h
        | some ed =>
          simp only [f1, f2] at h
          split at h
          · rename_i hc
            cases h
            simp only [Bool.and_eq_true] at hc
            by_contra hun
            have hne : g ≠ inner := by
              rintro rfl
              rw [List.nodup_append] at hon
              exact hon.2.2 g hg g (by simp) rfl
            have ht := hother g e ed hne hc.2 f1 f2 hun
            have hs := hfirst g inner ht
            -- inner precedes g, yet g is before inner
            rw [List.nodup_append] at hon
            obtain ⟨r1, r2, he, h1, h2⟩ := List.cons_sublist_iff.1 hs
            have h2 : g ∈ r2 := List.singleton_sublist.1 h2
            have hgi : g ∈ o1 := hg
            -- split the list at inner
            have : ∀ (o1 o2 r1 r2 : List String), o1 ++ inner :: o2 = r1 ++ r2 → inner ∈ r1 →
                (o1 ++ inner :: o2).Nodup → g ∈ o1 → g ∈ r2 → False := by
              intro o1
              induction o1 with
              | nil => intro o2 r1 r2 _ _ _ h _; simp at h
              | cons x o1 ih =>
                intro o2 r1 r2 he hi hn hg1 hg2
                cases r1 with
                | nil => simp at hi
                | cons y r1 =>
                  simp only [List.cons_append, List.cons.injEq] at he hn
                  obtain ⟨rfl, he⟩ := he
                  rw [List.nodup_cons] at hn
                  have hxi : inner ≠ x := by
                    rintro rfl
                    exact hn.1 (by simp)
                  have hi : inner ∈ r1 := by simpa [hxi] using hi
                  rcases List.mem_cons.1 hg1 with rfl | hg1
                  · exact hn.1 (by rw [he]; simp [hg2])
                  · exact ih o2 r1 r2 he hi hn.2 hg1 hg2
            exact this o1 o2 r1 r2 he h1 (by
              rw [List.nodup_append]; exact hon) hgi h2
          · cases h

/-- **C15 (unused modules).**  Data of a module enabled in the topology but not on the node is
never copied from groups into the node; all other group data is. -/
theorem C15_unused_module_data (tm : List String) (ms : List String) (nd : List (String × Val))
    (k : String) : (dropUnused tm (some ms) nd).lookup k =
      if k ∈ tm ∧ k ∉ ms then none else nd.lookup k := by
  unfold dropUnused
  rw [lookup_foldl_popKey]
  simp

/-- The device set by the first group (in processing order) that has one. -/
theorem copyDeviceModule_device (gs : Groups) (isMember : String → Bool) (order : List String) :
    ∀ n : GNode, (copyDeviceModule gs isMember order n).device =
      match n.device with
      | some x => some x
      | none => order.findSome? (fun g => if isMember g then (gs.lookup g).bind (·.device) else none) := by
  induction order with
  | nil => intro n; cases h : n.device <;> simp [copyDeviceModule, h]
  | cons g r ih =>
    intro n
    unfold copyDeviceModule
    cases hl : gs.lookup g with
    | none =>
      simp only [ih]
      cases n.device <;> simp [hl]
    | some d =>
      simp only [ih]
      by_cases hm : isMember g = true
      · simp only [hm, if_true, copyDeviceModule1]
        cases n.device with
        | some x => rfl
        | none =>
          simp only [List.findSome?_cons, hm, if_true, hl, Option.bind_some]
          cases d.device <;> rfl
      · simp only [hm, Bool.false_eq_true, if_false]
        cases n.device <;> simp [hm]

/-- **C15 (device).**  The device of a node is never changed by a group; a node without a
device gets one only from a group it is a member of. -/
theorem C15_device (gs : Groups) (isMember : String → Bool) (order : List String) (n : GNode) :
    (∀ x, n.device = some x → (copyDeviceModule gs isMember order n).device = some x) ∧
    (n.device = none → ∀ x, (copyDeviceModule gs isMember order n).device = some x →
      ∃ g ∈ order, isMember g = true ∧ ∃ d, gs.lookup g = some d ∧ d.device = some x) ∧
    (n.device = none → (copyDeviceModule gs isMember order n).device = none →
      ∀ g ∈ order, isMember g = true → ∀ d, gs.lookup g = some d → d.device = none) := by
  rw [copyDeviceModule_device]
  refine ⟨?_, ?_, ?_⟩
  · intro x hx; rw [hx]
  · intro hx x h
    rw [hx] at h
    obtain ⟨g, hg, h⟩ := List.exists_of_findSome?_eq_some h
    split at h
    · rename_i hm
      obtain ⟨d, h1, h2⟩ := Option.bind_eq_some_iff.1 h
      exact ⟨g, hg, hm, d, h1, h2⟩
    · cases h
  · intro hx h g hg hm d hd
    rw [hx] at h
    have := List.findSome?_eq_none_iff.1 h g hg
    rw [if_pos hm, hd] at this
    exact this

theorem mem_addModules (ms r : List String) (m : String) :
    m ∈ addModules ms r ↔ m ∈ ms ∨ m ∈ r := by
  induction r generalizing ms with
  | nil => simp [addModules]
  | cons x r ih =>
    rw [addModules, ih]
    by_cases hc : ms.contains x = true
    · rw [if_pos hc]
      simp only [List.mem_cons]
      have hx : x ∈ ms := by simpa using hc
      constructor
      · rintro (h | h)
        · exact Or.inl h
        · exact Or.inr (Or.inr h)
      · rintro (h | rfl | h)
        · exact Or.inl h
        · exact Or.inl hx
        · exact Or.inr h
    · rw [if_neg hc]
      simp only [List.mem_append, List.mem_cons, List.not_mem_nil, or_false]
      tauto

theorem addModules_prefix (ms r : List String) : ms <+: addModules ms r := by
  induction r generalizing ms with
  | nil => exact List.prefix_refl _
  | cons x r ih =>
    rw [addModules]
    split
    · exact ih ms
    · exact (List.prefix_append ms [x]).trans (ih _)

theorem nodup_addModules (ms r : List String) (h : ms.Nodup) : (addModules ms r).Nodup := by
  induction r generalizing ms with
  | nil => exact h
  | cons x r ih =>
    rw [addModules]
    split
    · exact ih ms h
    · rename_i hc
      refine ih _ ?_
      rw [List.nodup_append]
      refine ⟨h, by simp, ?_⟩
      intro a ha b hb hab
      have : b = x := by simpa using hb
      subst this; subst hab
      exact hc (by simpa using ha)

/-- **C15 (modules).**  Groups add modules to the end of the node's list of modules without
duplicates; the resulting list has exactly the node's modules and the modules of its groups. -/
theorem C15_modules (gs : Groups) (isMember : String → Bool) (order : List String) (n : GNode) :
    let out := (copyDeviceModule gs isMember order n).module
    (n.module.getD [] <+: out.getD []) ∧
    ((n.module.getD []).Nodup → (out.getD []).Nodup) ∧
    ∀ m, m ∈ out.getD [] ↔ m ∈ n.module.getD [] ∨
      ∃ g ∈ order, isMember g = true ∧ ∃ d l, gs.lookup g = some d ∧ d.module = some l ∧ m ∈ l := by
  induction order generalizing n with
  | nil => simp [copyDeviceModule]
  | cons g r ih =>
    unfold copyDeviceModule
    cases hl : gs.lookup g with
    | none =>
      obtain ⟨i1, i2, i3⟩ := ih n
      refine ⟨i1, i2, ?_⟩
      intro m
      rw [i3 m]
      simp [hl]
    | some d =>
      simp only
      by_cases hm : isMember g = true
      · rw [if_pos hm]
        obtain ⟨i1, i2, i3⟩ := ih (copyDeviceModule1 d n)
        cases hd : d.module with
        | none =>
          have e : (copyDeviceModule1 d n).module = n.module := by simp [copyDeviceModule1, hd]
          rw [e] at i1 i2 i3
          refine ⟨i1, i2, ?_⟩
          intro m
          rw [i3 m]
          simp [hl, hd]
        | some l =>
          have e : (copyDeviceModule1 d n).module = some (addModules (n.module.getD []) l) := by
            simp [copyDeviceModule1, hd]
          rw [e] at i1 i2 i3
          refine ⟨(addModules_prefix _ _).trans i1, fun h => i2 (nodup_addModules _ _ h), ?_⟩
          intro m
          rw [i3 m, Option.getD_some, mem_addModules]
          simp only [List.mem_cons, exists_eq_or_imp, hm, true_and, hl, Option.some.injEq,
            exists_and_left, exists_eq_left', hd]
          tauto
      · rw [if_neg hm]
        obtain ⟨i1, i2, i3⟩ := ih n
        refine ⟨i1, i2, ?_⟩
        intro m
        rw [i3 m]
        simp [hm]

/-! ### C16: custom configuration templates -/

/-- Templates of the groups of a node: groups processed last (the outermost ones) come first. -/
theorem collectConfig_eq (gs : Groups) (isMember : String → Bool) (order : List String) :
    ∀ cfg, collectConfig gs isMember order cfg =
      (order.reverse.flatMap (fun g => if isMember g || g == "all" then
        ((gs.lookup g).bind (·.config)).getD [] else [])) ++ cfg := by
  induction order with
  | nil => intro cfg; rfl
  | cons g r ih =>
    intro cfg
    unfold collectConfig
    rw [List.reverse_cons, List.flatMap_append]
    cases hl : gs.lookup g with
    | none => simp [ih, hl]
    | some d =>
      cases hc : d.config with
      | none => simp [ih, hl, hc]
      | some c =>
        simp only [ih, List.flatMap_singleton, hl, Option.bind_some, hc, Option.getD_some]
        split <;> simp

/-- A list of templates after all removal requests are honoured: an entry starting with a minus
sign is a request, any other entry stays unless a later request removes it. -/
def Spec.afterRemoval : List String → List String
  | [] => []
  | c :: r =>
    if c.toList.head? = some '-' then afterRemoval r
    else if "-" ∈ r ∨ "-" ++ c ∈ r then afterRemoval r
    else c :: afterRemoval r

theorem minus_append_inj (t c : String) (l : List Char) (h : c.toList = '-' :: l) :
    ("-" ++ t = c) ↔ t = String.ofList l := by
  constructor
  · rintro rfl
    apply String.toList_injective
    simpa using h
  · rintro rfl
    apply String.toList_injective
    simp [h]

theorem cleanConfig_eq (l : List String) (hne : ∀ c ∈ l, c ≠ "") : ∀ acc,
    cleanConfig acc l =
      some (acc.filter (fun t => !decide ("-" ∈ l ∨ "-" ++ t ∈ l)) ++ afterRemoval l) := by
  induction l with
  | nil => intro acc; simp [cleanConfig, afterRemoval]
  | cons c r ih =>
    intro acc
    have hr : ∀ c ∈ r, c ≠ "" := fun x hx => hne x (by simp [hx])
    unfold cleanConfig
    by_cases hc : c = "-"
    · subst hc
      rw [if_pos rfl, ih hr, afterRemoval]
      simp
    · rw [if_neg hc]
      cases ht : c.toList with
      | nil =>
        exfalso
        apply hne c (by simp)
        apply String.toList_injective
        simpa using ht
      | cons x t =>
        simp only
        by_cases hx : x = '-'
        · subst hx
          rw [if_pos rfl, ih hr, afterRemoval, ht]
          simp only [List.head?_cons, if_true, List.filter_filter]
          congr 2
          apply List.filter_congr
          intro u _
          have h1 : ("-" ∈ c :: r) ↔ "-" ∈ r := by
            simp only [List.mem_cons]
            exact ⟨fun h => h.resolve_left (fun e => hc e.symm), Or.inr⟩
          have h2 : ("-" ++ u ∈ c :: r) ↔ (u = String.ofList t ∨ "-" ++ u ∈ r) := by
            simp only [List.mem_cons, minus_append_inj u c t ht]
          simp only [h1, h2]
          by_cases a1 : "-" ∈ r <;> by_cases a2 : "-" ++ u ∈ r <;> by_cases a3 : u = String.ofList t <;>
            simp [a1, a2, a3]
        · rw [if_neg hx, ih hr, afterRemoval, ht]
          have hh : ¬ (List.head? (x :: t) = some '-') := by simpa using hx
          rw [if_neg hh]
          have hmem : ∀ u : String, ("-" ++ u ∈ c :: r) ↔ "-" ++ u ∈ r := by
            intro u
            simp only [List.mem_cons]
            refine ⟨fun h => h.resolve_left ?_, Or.inr⟩
            intro e
            have := congrArg String.toList e
            simp [ht] at this
            exact hx this.1.symm
          have h1 : ("-" ∈ c :: r) ↔ "-" ∈ r := by
            simp only [List.mem_cons]
            exact ⟨fun h => h.resolve_left (fun e => hc e.symm), Or.inr⟩
          simp only [h1, hmem, List.filter_append]
          by_cases hrem : "-" ∈ r ∨ "-" ++ c ∈ r
          · rw [if_pos hrem]
            have hf : List.filter (fun t => !decide ("-" ∈ r ∨ "-" ++ t ∈ r)) [c] = [] := by
              rw [List.filter_cons, if_neg (by rw [decide_eq_true hrem]; decide)]
              rfl
            rw [hf, List.append_nil]
          · rw [if_neg hrem]
            have hf : List.filter (fun t => !decide ("-" ∈ r ∨ "-" ++ t ∈ r)) [c] = [c] := by
              rw [List.filter_cons, if_pos (by rw [decide_eq_false hrem]; decide)]
              rfl
            rw [hf, List.append_assoc]
            rfl

/-- **C16.**  The custom configuration templates of a node are the templates of its groups and
of the special group `all`, outer groups before inner groups, followed by the templates
listed on the node, from which an entry `-` removes everything before it, and an entry
`-x` removes every `x` before it. -/
theorem C16_templates (gs : Groups) (isMember : String → Bool) (order cfg : List String)
    (hne : ∀ c ∈ cfg, c ≠ "")
    (hng : ∀ g d l, gs.lookup g = some d → d.config = some l → ∀ c ∈ l, c ≠ "") :
    nodeConfigTemplates gs isMember order cfg = some (afterRemoval (
      (order.reverse.flatMap (fun g => if isMember g || g == "all" then
        ((gs.lookup g).bind (·.config)).getD [] else [])) ++ cfg)) := by
  unfold nodeConfigTemplates
  rw [collectConfig_eq, cleanConfig_eq]
  · simp
  · intro c hc
    rcases List.mem_append.1 hc with hc | hc
    · obtain ⟨g, -, hg⟩ := List.mem_flatMap.1 hc
      split at hg
      · cases hl : gs.lookup g with
        | none => simp [hl] at hg
        | some d =>
          cases hcfg : d.config with
          | none => simp [hl, hcfg] at hg
          | some l => exact hng g d l hl hcfg c (by simpa [hl, hcfg] using hg)
      · simp at hg
    · exact hne c hc

/-- **C16 (removal).**  A template is in the cleaned-up list if and only if it is listed with no
removal request for it, or for everything, after it. -/
theorem C16_removal (l : List String) (t : String) :
    t ∈ afterRemoval l ↔ ∃ before after, l = before ++ t :: after ∧
      t.toList.head? ≠ some '-' ∧ "-" ∉ after ∧ "-" ++ t ∉ after := by
  induction l with
  | nil => simp [afterRemoval]
  | cons c r ih =>
    rw [afterRemoval]
    have lift : (∃ before after, r = before ++ t :: after ∧ t.toList.head? ≠ some '-' ∧
        "-" ∉ after ∧ "-" ++ t ∉ after) → ∃ before after, c :: r = before ++ t :: after ∧
        t.toList.head? ≠ some '-' ∧ "-" ∉ after ∧ "-" ++ t ∉ after := by
      rintro ⟨b, a, rfl, h⟩
      exact ⟨c :: b, a, rfl, h⟩
    split
    · rename_i hc
      rw [ih]
      refine ⟨lift, ?_⟩
      rintro ⟨b, a, he, h1, h2⟩
      cases b with
      | nil =>
        simp only [List.nil_append, List.cons.injEq] at he
        obtain ⟨rfl, rfl⟩ := he
        exact absurd hc h1
      | cons x b =>
        simp only [List.cons_append, List.cons.injEq] at he
        exact ⟨b, a, he.2, h1, h2⟩
    · rename_i hc
      split
      · rename_i hrem
        rw [ih]
        refine ⟨lift, ?_⟩
        rintro ⟨b, a, he, h1, h2⟩
        cases b with
        | nil =>
          simp only [List.nil_append, List.cons.injEq] at he
          obtain ⟨rfl, rfl⟩ := he
          rcases hrem with h | h
          · exact absurd h h2.1
          · exact absurd h h2.2
        | cons x b =>
          simp only [List.cons_append, List.cons.injEq] at he
          exact ⟨b, a, he.2, h1, h2⟩
      · rename_i hrem
        rw [List.mem_cons, ih]
        constructor
        · rintro (rfl | h)
          · exact ⟨[], r, rfl, hc, fun h => hrem (Or.inl h), fun h => hrem (Or.inr h)⟩
          · exact lift h
        · rintro ⟨b, a, he, h1, h2⟩
          cases b with
          | nil =>
            simp only [List.nil_append, List.cons.injEq] at he
            exact Or.inl he.1.symm
          | cons x b =>
            simp only [List.cons_append, List.cons.injEq] at he
            exact Or.inr ⟨b, a, he.2, h1, h2⟩

/-- **C16 (order).**  The cleaned-up list keeps the order of the templates. -/
theorem C16_order_kept (l : List String) : (afterRemoval l).Sublist l := by
  induction l with
  | nil => exact .slnil
  | cons c r ih =>
    rw [afterRemoval]
    split
    · exact ih.cons _
    · split
      · exact ih.cons _
      · exact ih.cons_cons _

/-- Groups of the examples: `all` comes first in the processing order -/
private def cfgGroups : Groups :=
  [("all", { members := [], config := some ["base"] }),
   ("pe", { members := ["r1"], config := some ["-base", "mpls"] })]

/-- **C16 (finding).**  Group `all` is processed before groups with names later in the
alphabet, so the templates of such a group precede templates of `all`, and cannot remove
them. -/
theorem C16_group_all_is_not_outermost :
    reverseTopsort cfgGroups 2 = some ["all", "pe"] ∧
    nodeConfigTemplates cfgGroups (fun g => g == "pe") ["all", "pe"] ["acl"] =
      some ["mpls", "base", "acl"] := by
  refine ⟨?_, by decide +kernel⟩
  have h : "all" ≤ "pe" := by decide
  simp [reverseTopsort, topLoop, topRound, cfgGroups, List.mergeSort,
      List.MergeSort.Internal.splitInTwo, Groups.members, List.lookup, h]

example : nodeConfigTemplates cfgGroups (fun g => g == "pe") ["all", "pe"] ["-base", "acl"] =
    some ["mpls", "acl"] := by decide +kernel

/-- Node data of the C15 example -/
private def dataGroups : Groups :=
  [("core", { members := ["pe"], nodeData := some [("mtu", .int 9000), ("bgp", .dict [("as", .int 1)])] }),
   ("pe", { members := ["r1"], nodeData := some [("bgp", .dict [("as", .int 2)])] })]

example : (copyNodeData dataGroups "" [] (fun _ => true) ["pe", "core"]
    ⟨none, none, [("mtu", .int 1500)]⟩).data =
    [("mtu", .int 1500), ("bgp", .dict [("as", .int 2)])] := by
  simp [copyNodeData, dataGroups, List.lookup, dropUnused, mergeDict, mergePair, mergeVal, setKey]

end Netlab
