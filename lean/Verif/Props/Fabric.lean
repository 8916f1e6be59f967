import Verif.Spec.Fabric
import Verif.Props.LinkNorm
/-!
# C40: leaf-and-spine fabrics
-/

namespace Netlab

open Spec

/-! ### Nodes -/

theorem foldl_setKey {β : Type} (key : β → String) (l : List β) (d : List (String × β))
    (hn : (l.map key).Nodup) (hd : ∀ x ∈ l, key x ∉ d.map Prod.fst) :
    l.foldl (fun d n => setKey d (key n) n) d = d ++ l.map (fun n => (key n, n)) := by
  induction l generalizing d with
  | nil => simp
  | cons x rest ih =>
    simp only [List.map_cons, List.nodup_cons] at hn
    have hx : setKey d (key x) x = d ++ [(key x, x)] := by
      have := setKey_append d [] (key x) x (by
        have := hd x (List.mem_cons_self ..)
        simpa using this)
      simpa [setKey] using this
    simp only [List.foldl_cons, hx]
    rw [ih (d ++ [(key x, x)]) hn.2 ?_]
    · simp
    · intro y hy
      simp only [List.map_append, List.map_cons, List.map_nil, List.mem_append, List.mem_cons, List.not_mem_nil, or_false,
        not_or]
      refine ⟨hd y (List.mem_cons_of_mem _ hy), ?_⟩
      intro he
      exact hn.1 (he ▸ List.mem_map_of_mem hy)

theorem nodeDict_distinct (l : List FabNode) (hn : (l.map FabNode.name).Nodup) :
    nodeDict l = l.map (fun n => (n.name, n)) := by
  have := foldl_setKey FabNode.name l [] hn (by simp)
  simpa [nodeDict] using this

theorem fabNodeParams_name (ev : FabNode → String → Val) (r : FabRole) (n : FabNode) :
    (fabNodeParams ev r n).name = n.name := by
  unfold fabNodeParams
  split <;> rfl

theorem fabNodes_names (r : FabRole) :
    (fabNodes r).map FabNode.name = (List.range r.count.toNat).map (fun k => r.name (k + 1)) := by
  unfold fabNodes
  rw [List.map_map]
  rfl

theorem nodup_names (r : FabRole) (h : DistinctNames r.name r.count) :
    ((List.range r.count.toNat).map (fun k => r.name (k + 1))).Nodup := by
  unfold List.Nodup
  rw [List.pairwise_map]
  have hr : (List.range r.count.toNat).Pairwise (fun a b => a < b ∧ b < r.count.toNat) := by
    have := List.pairwise_lt_range (n := r.count.toNat)
    rw [List.pairwise_iff_forall_sublist] at this ⊢
    intro a b hab
    exact ⟨this hab, by
      have := hab.subset (List.mem_cons_of_mem _ (List.mem_cons_self ..))
      simpa using this⟩
  refine hr.imp ?_
  intro a b ⟨h1, h2⟩ he
  have := h (a + 1) (b + 1) (by omega) (by omega) (by omega) (by omega) he
  omega

theorem nodup_all (leaf spine : FabRole) (hl : DistinctNames leaf.name leaf.count)
    (hs : DistinctNames spine.name spine.count) (hd : DisjointNames leaf spine) :
    ((fabNodes leaf ++ fabNodes spine).map FabNode.name).Nodup := by
  rw [List.map_append, fabNodes_names, fabNodes_names, List.nodup_append]
  refine ⟨nodup_names leaf hl, nodup_names spine hs, ?_⟩
  intro a ha b hb he
  obtain ⟨i, hi, rfl⟩ := List.mem_map.mp ha
  obtain ⟨j, hj, rfl⟩ := List.mem_map.mp hb
  have hi' := List.mem_range.mp hi
  have hj' := List.mem_range.mp hj
  exact hd (i + 1) (j + 1) (by omega) (by omega) (by omega) (by omega) he

/-- **C40.**  The fabric has the requested number of leafs and spines with the requested names. -/
theorem C40_nodes (ev : FabNode → String → Val) (leaf spine : FabRole) (hl : DistinctNames leaf.name leaf.count)
    (hs : DistinctNames spine.name spine.count) (hd : DisjointNames leaf spine) :
    (generateFabric ev leaf spine).nodes.map Prod.fst =
      (List.range leaf.count.toNat).map (fun k => leaf.name (k + 1)) ++
      (List.range spine.count.toNat).map (fun k => spine.name (k + 1)) ∧
    ((generateFabric ev leaf spine).nodes.map Prod.fst).Nodup ∧
    (generateFabric ev leaf spine).nodes.length = leaf.count.toNat + spine.count.toNat := by
  have hnd := nodup_all leaf spine hl hs hd
  have hmap : ((fabNodes leaf).map (fabNodeParams ev leaf) ++ (fabNodes spine).map (fabNodeParams ev spine)).map
      FabNode.name = (fabNodes leaf ++ fabNodes spine).map FabNode.name := by
    simp only [List.map_append, List.map_map]
    congr 1 <;>
    · apply List.map_congr_left
      intro x _
      exact fabNodeParams_name ev _ x
  have hk : (generateFabric ev leaf spine).nodes.map Prod.fst = (fabNodes leaf ++ fabNodes spine).map FabNode.name := by
    simp only [generateFabric]
    rw [nodeDict_distinct _ (by rw [hmap]; exact hnd), List.map_map, ← hmap]
    rfl
  refine ⟨?_, ?_, ?_⟩
  · rw [hk, List.map_append, fabNodes_names, fabNodes_names]
  · rw [hk]
    exact hnd
  · rw [← List.length_map (f := Prod.fst), hk]
    simp [fabNodes]

/-! ### Links -/

theorem fabLink_norm (nodes : List String) (name : String) (l s : FabNode) (hls : l.name ≠ s.name) (hl : l.name ∈ nodes)
    (hs : s.name ∈ nodes) (h1 : l.name ≠ "interfaces") (h2 : s.name ≠ "interfaces") :
    adjustLink nodes name (fabLink l s) =
      ⟨some ⟨name, [], [[("node", .str l.name)], [("node", .str s.name)]]⟩, 0⟩ := by
  have hsk : setKey [(l.name, Val.dict [])] s.name (.dict []) = [(l.name, .dict []), (s.name, .dict [])] := by
    simp [setKey, hls]
  have hlook : List.lookup "interfaces" [(l.name, Val.dict []), (s.name, .dict [])] = none := by
    rw [lookup_eq_none_iff]
    simp [Ne.symm h1, Ne.symm h2]
  unfold fabLink
  rw [hsk]
  simp only [adjustLink, hlook, splitLink, keyIf, setKey]
  rw [if_pos (by simpa using hl), if_pos (by simpa using hs)]

theorem elems_all (nodes : List String) (path : String) (n : Nat) (vs : List Val) (is : List (List (List (String × Val))))
    (h : List.Forall₂ (fun v i => ∀ name, adjustLink nodes name v = ⟨some ⟨name, [], i⟩, 0⟩) vs is) :
    (adjustElems nodes path n vs).errs = 0 ∧ (adjustElems nodes path n vs).val.map NLink.ifs = is := by
  induction h generalizing n with
  | nil => exact ⟨rfl, rfl⟩
  | cons hv _ ih =>
    obtain ⟨h1, h2⟩ := ih (n + 1)
    simp only [adjustElems, hv, NLink.disabled, List.lookup_nil]
    rw [if_neg (by simp)]
    exact ⟨by simp only [h1], by simp [h2]⟩

theorem forall₂_map {α β γ : Type} {R : β → γ → Prop} {f : α → β} {g : α → γ} {l : List α} (h : ∀ x ∈ l, R (f x) (g x)) :
    List.Forall₂ R (l.map f) (l.map g) := by
  induction l with
  | nil => exact .nil
  | cons x rest ih =>
    exact .cons (h x (List.mem_cons_self ..)) (ih (fun y hy => h y (List.mem_cons_of_mem _ hy)))

theorem forall₂_flatMap {α β γ : Type} {R : β → γ → Prop} {f : α → List β} {g : α → List γ} {l : List α}
    (h : ∀ x ∈ l, List.Forall₂ R (f x) (g x)) : List.Forall₂ R (l.flatMap f) (l.flatMap g) := by
  induction l with
  | nil => exact .nil
  | cons x rest ih =>
    simp only [List.flatMap_cons]
    exact List.rel_append (h x (List.mem_cons_self ..)) (ih (fun y hy => h y (List.mem_cons_of_mem _ hy)))

theorem nodup_product {α β : Type} (as bs : List α) (g : α → α → β)
    (hinj : ∀ a ∈ as, ∀ b ∈ bs, ∀ a' ∈ as, ∀ b' ∈ bs, g a b = g a' b' → a = a' ∧ b = b') (ha : as.Nodup) (hb : bs.Nodup) :
    (as.flatMap (fun a => bs.map (g a))).Nodup := by
  induction as with
  | nil => simp
  | cons a rest ih =>
    simp only [List.flatMap_cons]
    rw [List.nodup_cons] at ha
    rw [List.nodup_append]
    refine ⟨?_, ih (fun a' h' b h1 a'' h'' b' h2 => hinj a' (List.mem_cons_of_mem _ h') b h1 a'' (List.mem_cons_of_mem _ h'') b' h2) ha.2, ?_⟩
    · unfold List.Nodup
      rw [List.pairwise_map, List.pairwise_iff_forall_sublist]
      intro b b' hsub he
      have hb' : b ∈ bs ∧ b' ∈ bs := ⟨hsub.subset (List.mem_cons_self ..),
        hsub.subset (List.mem_cons_of_mem _ (List.mem_cons_self ..))⟩
      have := (hinj a (List.mem_cons_self ..) b hb'.1 a (List.mem_cons_self ..) b' hb'.2 he).2
      subst this
      have hnd := hb.sublist hsub
      simp at hnd
    · intro x hx y hy hxy
      subst hxy
      obtain ⟨b, hbm, rfl⟩ := List.mem_map.mp hx
      obtain ⟨a', ha', hm⟩ := List.mem_flatMap.mp hy
      obtain ⟨b', hb', he⟩ := List.mem_map.mp hm
      have := (hinj a' (List.mem_cons_of_mem _ ha') b' hb' a (List.mem_cons_self ..) b hbm he).1
      exact ha.1 (this ▸ ha')

/-- **C40.**  There is exactly one link between each leaf and each spine, and there are no other links. -/
theorem C40_links (ev : FabNode → String → Val) (leaf spine : FabRole) (hl : DistinctNames leaf.name leaf.count)
    (hs : DistinctNames spine.name spine.count) (hd : DisjointNames leaf spine)
    (hi : ∀ k, leaf.name k ≠ "interfaces" ∧ spine.name k ≠ "interfaces") :
    (generateFabric ev leaf spine).links.errs = 0 ∧
    ((generateFabric ev leaf spine).links.val.map linkEnds).Nodup ∧
    (∀ e, e ∈ (generateFabric ev leaf spine).links.val.map linkEnds ↔
      ∃ i j : Nat, 1 ≤ i ∧ (i : Int) ≤ leaf.count ∧ 1 ≤ j ∧ (j : Int) ≤ spine.count ∧ e = [leaf.name i, spine.name j]) ∧
    (∀ l ∈ (generateFabric ev leaf spine).links.val, l.attrs = []) := by
  have hkeys := (C40_nodes ev leaf spine hl hs hd).1
  -- all links
  have hmem : ∀ l ∈ fabNodes leaf, ∀ s ∈ fabNodes spine, ∀ name,
      adjustLink ((generateFabric ev leaf spine).nodes.map Prod.fst) name (fabLink l s) =
        ⟨some ⟨name, [], [[("node", .str l.name)], [("node", .str s.name)]]⟩, 0⟩ := by
    intro l hlm s hsm name
    obtain ⟨i, hi1, rfl⟩ := List.mem_map.mp hlm
    obtain ⟨j, hj1, rfl⟩ := List.mem_map.mp hsm
    have hi2 := List.mem_range.mp hi1
    have hj2 := List.mem_range.mp hj1
    apply fabLink_norm
    · exact hd (i + 1) (j + 1) (by omega) (by omega) (by omega) (by omega)
    · rw [hkeys]
      exact List.mem_append_left _ (List.mem_map_of_mem hi1)
    · rw [hkeys]
      exact List.mem_append_right _ (List.mem_map_of_mem hj1)
    · exact (hi (i + 1)).1
    · exact (hi (j + 1)).2
  have hall := elems_all ((generateFabric ev leaf spine).nodes.map Prod.fst) "fabric" 1
    (fabLinks (fabNodes leaf) (fabNodes spine))
    ((fabNodes leaf).flatMap (fun l => (fabNodes spine).map (fun s => [[("node", .str l.name)], [("node", .str s.name)]])))
    (forall₂_flatMap (fun l hl' => forall₂_map (fun s hs' => hmem l hl' s hs')))
  have hlinks : (generateFabric ev leaf spine).links =
      adjustElems ((generateFabric ev leaf spine).nodes.map Prod.fst) "fabric" 1
        (fabLinks (fabNodes leaf) (fabNodes spine)) := by
    simp only [generateFabric, adjustLinks]
  rw [← hlinks] at hall
  have hends : (generateFabric ev leaf spine).links.val.map linkEnds =
      (List.range leaf.count.toNat).flatMap (fun i => (List.range spine.count.toNat).map (fun j =>
        [leaf.name (i + 1), spine.name (j + 1)])) := by
    have h1 : (generateFabric ev leaf spine).links.val.map linkEnds =
        ((generateFabric ev leaf spine).links.val.map NLink.ifs).map (fun ifs => linkEnds ⟨"", [], ifs⟩) := by
      rw [List.map_map]
      rfl
    rw [h1, hall.2, List.map_flatMap]
    unfold fabNodes
    rw [List.flatMap_map]
    simp only [List.map_map]
    rfl
  refine ⟨hall.1, ?_, ?_, ?_⟩
  · rw [hends]
    apply nodup_product
    · intro a ha b hb a' ha' b' hb' he
      simp only [List.cons.injEq, and_true] at he
      have ha := List.mem_range.mp ha
      have hb := List.mem_range.mp hb
      have ha' := List.mem_range.mp ha'
      have hb' := List.mem_range.mp hb'
      have h1 := hl (a + 1) (a' + 1) (by omega) (by omega) (by omega) (by omega) he.1
      have h2 := hs (b + 1) (b' + 1) (by omega) (by omega) (by omega) (by omega) he.2
      exact ⟨by omega, by omega⟩
    · exact List.nodup_range
    · exact List.nodup_range
  · intro e
    rw [hends]
    simp only [List.mem_flatMap, List.mem_map, List.mem_range]
    constructor
    · rintro ⟨i, h1, j, h2, rfl⟩
      exact ⟨i + 1, j + 1, by omega, by omega, by omega, by omega, rfl⟩
    · rintro ⟨i, j, h1, h2, h3, h4, rfl⟩
      exact ⟨i - 1, by omega, j - 1, by omega, by rw [Nat.sub_add_cancel h1, Nat.sub_add_cancel h3]⟩
  · rw [hlinks]
    have hgen : ∀ (vs : List Val) (n : Nat), (∀ v ∈ vs, ∃ l ∈ fabNodes leaf, ∃ s ∈ fabNodes spine, v = fabLink l s) →
        ∀ x ∈ (adjustElems ((generateFabric ev leaf spine).nodes.map Prod.fst) "fabric" n vs).val, x.attrs = [] := by
      intro vs
      induction vs with
      | nil =>
        intro n _ x hx
        simp [adjustElems] at hx
      | cons v rest ih =>
        intro n hv x hx
        obtain ⟨l, hl', s, hs', rfl⟩ := hv v (List.mem_cons_self ..)
        simp only [adjustElems, hmem l hl' s hs', NLink.disabled, List.lookup_nil] at hx
        rw [if_neg (by simp)] at hx
        rcases List.mem_cons.mp hx with hx | hx
        · subst hx
          rfl
        · exact ih (n + 1) (fun w hw => hv w (List.mem_cons_of_mem _ hw)) x hx
    apply hgen
    intro v hv
    obtain ⟨l, hl', hm⟩ := List.mem_flatMap.mp hv
    obtain ⟨s, hs', rfl⟩ := List.mem_map.mp hm
    exact ⟨l, hl', s, hs', rfl⟩

/-! ### Groups -/

/-- **C40.**  Leafs and spines are members of their groups; parameters of leafs and spines that do not have to be
formatted are parameters of groups. -/
theorem C40_groups (ev : FabNode → String → Val) (leaf spine : FabRole) (hg : leaf.group ≠ spine.group) :
    (generateFabric ev leaf spine).groups =
      [(leaf.group, ⟨(List.range leaf.count.toNat).map (fun k => leaf.name (k + 1)),
          mergeDict [] (extractParams false (roleParams leaf))⟩),
       (spine.group, ⟨(List.range spine.count.toNat).map (fun k => spine.name (k + 1)),
          mergeDict [] (extractParams false (roleParams spine))⟩)] := by
  have hne : (leaf.group == spine.group) = false := by simpa using hg
  have hne' : (spine.group == leaf.group) = false := by simpa using hg.symm
  simp [generateFabric, fabGroup, addGroup, addGroupParams, setKey, List.lookup, hne, hne', fabNodes_names]

/-- **C40, an exception.**  When leafs and spines use the same group, leafs are not in the group. -/
theorem C40_shared_group (ev : FabNode → String → Val) :
    ((generateFabric ev ⟨1, fun _ => "l1", "fabric", []⟩ ⟨1, fun _ => "s1", "fabric", []⟩).groups.map
      (fun g => (g.1, g.2.members))) = [("fabric", ["s1"])] := by
  rfl

/-- **C40, an exception.**  When leafs and spines have the same names, the fabric has fewer nodes than requested, and
links are attached to one node only; no error is reported. -/
theorem C40_same_names (ev : FabNode → String → Val) :
    (generateFabric ev ⟨1, fun _ => "n1", "leafs", []⟩ ⟨1, fun _ => "n1", "spines", []⟩).nodes.map Prod.fst = ["n1"] ∧
    (generateFabric ev ⟨1, fun _ => "n1", "leafs", []⟩ ⟨1, fun _ => "n1", "spines", []⟩).links.val.map linkEnds = [["n1"]] ∧
    (generateFabric ev ⟨1, fun _ => "n1", "leafs", []⟩ ⟨1, fun _ => "n1", "spines", []⟩).links.errs = 0 := by
  refine ⟨rfl, rfl, rfl⟩

/-! ### Parameters -/

theorem keys_extract (fmt : Bool) (d : List (String × Val)) : List.Sublist ((extractParams fmt d).map Prod.fst) (d.map Prod.fst) := by
  induction d with
  | nil => simp [extractParams]
  | cons p rest ih =>
    obtain ⟨k, v⟩ := p
    simp only [extractParams, extractPair]
    split
    · exact ih.cons k
    · exact ih.cons_cons k

theorem lookup_extract (fmt : Bool) (d : List (String × Val)) (hn : (d.map Prod.fst).Nodup) (k : String) :
    (extractParams fmt d).lookup k = (d.lookup k).bind (extractVal fmt) := by
  induction d with
  | nil => simp [extractParams]
  | cons p rest ih =>
    obtain ⟨k', v⟩ := p
    simp only [List.map_cons, List.nodup_cons] at hn
    simp only [extractParams, extractPair]
    by_cases hk : k = k'
    · subst hk
      rw [lookup_cons_self]
      have hnone : (extractParams fmt rest).lookup k = none := by
        rw [lookup_eq_none_iff]
        intro hm
        exact hn.1 ((keys_extract fmt rest).subset hm)
      cases hv : extractVal fmt v with
      | none => simpa [hv] using hnone
      | some w => simp [hv]
    · have hr : List.lookup k ((k', v) :: rest) = rest.lookup k := lookup_cons_ne _ _ hk
      rw [hr]
      cases hv : extractVal fmt v with
      | none => simpa using ih hn.2
      | some w =>
        simp only [List.singleton_append]
        rw [lookup_cons_ne _ _ hk]
        exact ih hn.2

theorem isFormat_iff (v : Val) (hd : v.isDict = false) (fmt : Bool) :
    extractVal fmt v = some v ∧ (fmt = true ↔ Formatted v) ∨ extractVal fmt v = none ∧ ¬ (fmt = true ↔ Formatted v) := by
  cases v with
  | str s =>
    have hf : Formatted (.str s) ↔ isFormat s = true := by
      constructor
      · rintro ⟨s', he, hm⟩
        obtain rfl := Val.str.inj he
        simpa [isFormat] using hm
      · intro h
        exact ⟨s, rfl, by simpa [isFormat] using h⟩
    rw [hf]
    cases fmt <;> cases hs : isFormat s <;> simp [extractVal, hs]
  | dict d => simp [Val.isDict] at hd
  | _ => cases fmt <;> simp [extractVal, Formatted]

theorem extract_leaf (fmt : Bool) (p : List String) (v w : Val) (hu : Val.UniqueKeys v) (hw : w.isDict = false)
    (h : Val.at v p = some w) :
    ((fmt = true ↔ Formatted w) → ∃ e, extractVal fmt v = some e ∧ Val.at e p = some w) ∧
    (¬ (fmt = true ↔ Formatted w) → ∀ e, extractVal fmt v = some e → Val.at e p = none) := by
  induction p generalizing v with
  | nil =>
    simp only [Val.at, Option.some.injEq] at h
    subst h
    rcases isFormat_iff v hw fmt with ⟨h1, h2⟩ | ⟨h1, h2⟩
    · exact ⟨fun _ => ⟨v, h1, rfl⟩, fun hn => absurd h2 hn⟩
    · refine ⟨fun hh => absurd hh h2, fun _ e he => ?_⟩
      rw [h1] at he
      exact absurd he (by simp)
  | cons k rest ih =>
    cases v with
    | dict d =>
      simp only [Val.at] at h
      cases hk : d.lookup k with
      | none => simp [hk] at h
      | some u =>
        simp only [hk] at h
        have hu' := uniqueKeys_dict.mp hu
        have hnd := hu'.1
        have huu : Val.UniqueKeys u := hu'.2 k u hk
        obtain ⟨i1, i2⟩ := ih u huu h
        have hlk := lookup_extract fmt d hnd k
        rw [hk, Option.bind_some] at hlk
        have hval : ∀ e, extractVal fmt (.dict d) = some e → e = .dict (extractParams fmt d) := by
          intro e he
          simp only [extractVal] at he
          split at he
          · rename_i hnil
            split at he
            · exact absurd he (by simp)
            · rw [hnil]
              exact (Option.some.inj he).symm
          · exact (Option.some.inj he).symm
        constructor
        · intro hf
          obtain ⟨e, he, hat⟩ := i1 hf
          refine ⟨.dict (extractParams fmt d), ?_, ?_⟩
          · simp only [extractVal]
            split
            · rename_i hnil
              rw [hnil] at hlk
              rw [he] at hlk
              exact absurd hlk (by simp)
            · rfl
          · simp only [Val.at, hlk, he, hat]
        · intro hf e he
          rw [hval e he]
          simp only [Val.at, hlk]
          cases hx : extractVal fmt u with
          | none => rfl
          | some x => exact i2 hf x hx
    | _ => simp [Val.at] at h

/-- **C40.**  Every leaf or spine parameter, however deep, is either a node parameter (strings with formatting
expressions) or a group parameter (everything else), never both. -/
theorem C40_params (d : List (String × Val)) (hu : Val.UniqueKeys (.dict d)) (k : String) (p : List String) (w : Val)
    (h : Val.leafAt (.dict d) (k :: p) w) :
    (Formatted w → Val.leafAt (.dict (extractParams true d)) (k :: p) w ∧
      Val.at (.dict (extractParams false d)) (k :: p) = none) ∧
    (¬ Formatted w → Val.leafAt (.dict (extractParams false d)) (k :: p) w ∧
      Val.at (.dict (extractParams true d)) (k :: p) = none) := by
  obtain ⟨hat, hw⟩ := h
  have hu' := uniqueKeys_dict.mp hu
  simp only [Val.at] at hat
  cases hk : d.lookup k with
  | none => simp [hk] at hat
  | some u =>
    simp only [hk] at hat
    have huu : Val.UniqueKeys u := hu'.2 k u hk
    have hlk : ∀ fmt, (extractParams fmt d).lookup k = extractVal fmt u := by
      intro fmt
      rw [lookup_extract fmt d hu'.1 k, hk, Option.bind_some]
    have key : ∀ fmt, ((fmt = true ↔ Formatted w) → Val.leafAt (.dict (extractParams fmt d)) (k :: p) w) ∧
        (¬ (fmt = true ↔ Formatted w) → Val.at (.dict (extractParams fmt d)) (k :: p) = none) := by
      intro fmt
      obtain ⟨i1, i2⟩ := extract_leaf fmt p u w huu hw hat
      constructor
      · intro hf
        obtain ⟨e, he, hate⟩ := i1 hf
        refine ⟨?_, hw⟩
        simp only [Val.at, hlk, he, hate]
      · intro hf
        simp only [Val.at, hlk]
        cases hx : extractVal fmt u with
        | none => rfl
        | some x => exact i2 hf x hx
    constructor
    · intro hf
      exact ⟨(key true).1 (by simp [hf]), (key false).2 (by simp [hf])⟩
    · intro hf
      exact ⟨(key false).1 (by simp [hf]), (key true).2 (by simp [hf])⟩

theorem keys_format (ev : String → Val) (d : List (String × Val)) : (formatParams ev d).map Prod.fst = d.map Prod.fst := by
  induction d with
  | nil => simp [formatParams]
  | cons p rest ih =>
    obtain ⟨k, v⟩ := p
    simp [formatParams, formatPair, ih]

theorem lookup_format (ev : String → Val) (d : List (String × Val)) (k : String) :
    (formatParams ev d).lookup k = (d.lookup k).map (formatVal ev) := by
  induction d with
  | nil => simp [formatParams]
  | cons p rest ih =>
    obtain ⟨j, v⟩ := p
    simp only [formatParams, formatPair]
    by_cases hk : k = j
    · subst hk
      rw [lookup_cons_self, lookup_cons_self]
      rfl
    · rw [lookup_cons_ne _ _ hk, lookup_cons_ne _ _ hk, ih]

theorem at_format (ev : String → Val) (p : List String) (v : Val) (s : String) (h : Val.at v p = some (.str s)) :
    Val.at (formatVal ev v) p = some (ev s) := by
  induction p generalizing v with
  | nil =>
    simp only [Val.at, Option.some.injEq] at h
    subst h
    simp [formatVal, Val.at]
  | cons k rest ih =>
    cases v with
    | dict d =>
      simp only [Val.at] at h
      cases hk : d.lookup k with
      | none => simp [hk] at h
      | some u =>
        simp only [hk] at h
        simp only [formatVal, Val.at, lookup_format, hk, Option.map_some]
        exact ih u h
    | _ => simp [Val.at] at h

theorem lookup_roleParams (r : FabRole) (k : String) :
    (roleParams r).lookup k = if k = "name" ∨ k = "group" then none else r.params.lookup k := by
  unfold roleParams
  induction r.params with
  | nil => simp
  | cons p rest ih =>
    obtain ⟨j, v⟩ := p
    by_cases hk : k = j
    · subst hk
      by_cases hn : k = "name" ∨ k = "group"
      · rw [if_pos hn] at ih ⊢
        rw [List.filter_cons_of_neg (by rcases hn with h | h <;> simp [h]), ih]
      · rw [if_neg hn, List.filter_cons_of_pos (by simpa using hn), lookup_cons_self, lookup_cons_self]
    · rw [lookup_cons_ne _ _ hk, ← ih]
      by_cases hn : (j != "name" && j != "group") = true
      · rw [List.filter_cons_of_pos (by simpa using hn), lookup_cons_ne _ _ hk]
      · rw [List.filter_cons_of_neg (by simpa using hn)]

theorem nodup_roleParams (r : FabRole) (h : (r.params.map Prod.fst).Nodup) : ((roleParams r).map Prod.fst).Nodup :=
  h.sublist (List.filter_sublist.map _)

theorem nodes_lookup (ev : FabNode → String → Val) (leaf spine : FabRole) (hl : DistinctNames leaf.name leaf.count)
    (hs : DistinctNames spine.name spine.count) (hd : DisjointNames leaf spine) (r : FabRole) (hr : r = leaf ∨ r = spine)
    (i : Nat) (h1 : 1 ≤ i) (hi : (i : Int) ≤ r.count) :
    (generateFabric ev leaf spine).nodes.lookup (r.name i) = some (fabNodeParams ev r (fabNode r.name i)) := by
  have hnd := nodup_all leaf spine hl hs hd
  have hmap : ((fabNodes leaf).map (fabNodeParams ev leaf) ++ (fabNodes spine).map (fabNodeParams ev spine)).map
      FabNode.name = (fabNodes leaf ++ fabNodes spine).map FabNode.name := by
    simp only [List.map_append, List.map_map]
    congr 1 <;>
    · apply List.map_congr_left
      intro x _
      exact fabNodeParams_name ev _ x
  simp only [generateFabric]
  rw [nodeDict_distinct _ (by rw [hmap]; exact hnd)]
  have hin : fabNode r.name i ∈ fabNodes r := by
    unfold fabNodes
    refine List.mem_map.mpr ⟨i - 1, List.mem_range.mpr (by omega), ?_⟩
    rw [show i - 1 + 1 = i by omega]
  apply lookup_of_mem
  · rw [List.map_map, show (Prod.fst ∘ fun n : FabNode => (n.name, n)) = FabNode.name from rfl, hmap]
    exact hnd
  · refine List.mem_map.mpr ⟨fabNodeParams ev r (fabNode r.name i), ?_, ?_⟩
    · rw [List.mem_append]
      rcases hr with rfl | rfl
      · exact .inl (List.mem_map_of_mem hin)
      · exact .inr (List.mem_map_of_mem hin)
    · rw [fabNodeParams_name]
      rfl

/-- **C40.**  Every parameter with a formatting expression, however deep, is an attribute of every leaf (or spine) of the
fabric, and its value is the value of the expression for that node.  The name of the node is not changed, the name of the
group is not a node attribute, and `_fabric_count` is the number of the node. -/
theorem C40_node_params (ev : FabNode → String → Val) (leaf spine : FabRole) (hl : DistinctNames leaf.name leaf.count)
    (hs : DistinctNames spine.name spine.count) (hd : DisjointNames leaf spine) (r : FabRole) (hr : r = leaf ∨ r = spine)
    (hu : Val.UniqueKeys (.dict r.params)) (i : Nat) (h1 : 1 ≤ i) (hi : (i : Int) ≤ r.count) :
    ∃ x, (generateFabric ev leaf spine).nodes.lookup (r.name i) = some x ∧
      x.attrs.lookup "name" = some (.str (r.name i)) ∧ x.attrs.lookup "group" = none ∧
      (r.params.lookup "_fabric_count" = none → x.attrs.lookup "_fabric_count" = some (.int i)) ∧
      ∀ k p s, k ∉ ["name", "group", "interfaces", "_fabric_count"] → Val.at (.dict r.params) (k :: p) = some (.str s) →
        '{' ∈ s.toList → Val.at (.dict x.attrs) (k :: p) = some (ev (fabNode r.name i) s) := by
  refine ⟨_, nodes_lookup ev leaf spine hl hs hd r hr i h1 hi, ?_⟩
  have hnd := nodup_roleParams r (uniqueKeys_dict.mp hu).1
  have hlk : ∀ k, (extractParams true (roleParams r)).lookup k =
      if k = "name" ∨ k = "group" then none else (r.params.lookup k).bind (extractVal true) := by
    intro k
    rw [lookup_extract true _ hnd k, lookup_roleParams]
    split <;> simp
  have hattr : ∀ k, (fabNodeParams ev r (fabNode r.name i)).attrs.lookup k =
      mergedOpt ((fabNode r.name i).attrs.lookup k)
        (((extractParams true (roleParams r)).lookup k).map (formatVal (ev (fabNode r.name i)))) := by
    intro k
    unfold fabNodeParams
    split
    · rename_i he
      rw [he]
      cases h : (fabNode r.name i).attrs.lookup k <;> simp [mergedOpt]
    · simp only
      rw [lookup_mergeDict _ _ (by
        have := keys_format (ev (fabNode r.name i)) (extractParams true (roleParams r))
        show ((formatParams _ _).map Prod.fst).Nodup
        rw [this]
        exact hnd.sublist (keys_extract true _)), lookup_format]
  refine ⟨?_, ?_, ?_, ?_⟩
  · rw [hattr, hlk]
    simp [fabNode, mergedOpt]
  · rw [hattr, hlk]
    simp [fabNode, mergedOpt, List.lookup]
  · intro hc
    rw [hattr, hlk, hc]
    simp [fabNode, mergedOpt, List.lookup]
  · intro k p s hk hat hs
    simp only [List.mem_cons, List.not_mem_nil, or_false, not_or] at hk
    obtain ⟨k1, k2, k3, k4⟩ := hk
    have hbase : (fabNode r.name i).attrs.lookup k = none := by
      rw [lookup_eq_none_iff]
      simp [fabNode, k1, k3, k4]
    simp only [Val.at] at hat ⊢
    rw [hattr, hlk, hbase, if_neg (by simp [k1, k2])]
    cases hp : r.params.lookup k with
    | none => simp [hp] at hat
    | some u =>
      simp only [hp] at hat
      have huu : Val.UniqueKeys u := (uniqueKeys_dict.mp hu).2 k u hp
      obtain ⟨e, he, hate⟩ := (extract_leaf true p u (.str s) huu rfl hat).1 (by
        simp only [true_iff]
        exact ⟨s, rfl, hs⟩)
      simp only [Option.bind_some, he, Option.map_some, mergedOpt]
      exact at_format _ p e s hate

/-- **C40.**  Every other parameter is an attribute of the group of leafs (or spines), with its value; `name` and `group` are not
group attributes. -/
theorem C40_group_params (ev : FabNode → String → Val) (leaf spine : FabRole) (hg : leaf.group ≠ spine.group) (r : FabRole)
    (hr : r = leaf ∨ r = spine) (hu : Val.UniqueKeys (.dict r.params)) :
    ∃ x, (generateFabric ev leaf spine).groups.lookup r.group = some x ∧
      x.attrs.lookup "name" = none ∧ x.attrs.lookup "group" = none ∧
      ∀ k p w, k ≠ "name" → k ≠ "group" → Val.leafAt (.dict r.params) (k :: p) w → ¬ Formatted w →
        Val.leafAt (.dict x.attrs) (k :: p) w := by
  have hgr := C40_groups ev leaf spine hg
  have hne : (leaf.group == spine.group) = false := by simpa using hg
  have hne' : (spine.group == leaf.group) = false := by simpa using hg.symm
  have hx : ∃ m, (generateFabric ev leaf spine).groups.lookup r.group =
      some ⟨m, mergeDict [] (extractParams false (roleParams r))⟩ := by
    rw [hgr]
    rcases hr with rfl | rfl
    · exact ⟨_, by simp [List.lookup]; rfl⟩
    · exact ⟨_, by simp [List.lookup, hne']; rfl⟩
  obtain ⟨m, hx⟩ := hx
  have hnd := nodup_roleParams r (uniqueKeys_dict.mp hu).1
  have hlk : ∀ k, (mergeDict [] (extractParams false (roleParams r))).lookup k =
      if k = "name" ∨ k = "group" then none else (r.params.lookup k).bind (extractVal false) := by
    intro k
    rw [lookup_mergeDict _ _ (hnd.sublist (keys_extract false _)), lookup_extract false _ hnd k, lookup_roleParams]
    split
    · simp [mergedOpt]
    · cases (r.params.lookup k).bind (extractVal false) <;> simp [mergedOpt]
  refine ⟨_, hx, ?_, ?_, ?_⟩
  · simp only
    rw [hlk]
    simp
  · simp only
    rw [hlk]
    simp
  · intro k p w k1 k2 ⟨hat, hw⟩ hf
    refine ⟨?_, hw⟩
    simp only [Val.at] at hat ⊢
    rw [hlk, if_neg (by simp [k1, k2])]
    cases hp : r.params.lookup k with
    | none => simp [hp] at hat
    | some u =>
      simp only [hp] at hat
      have huu : Val.UniqueKeys u := (uniqueKeys_dict.mp hu).2 k u hp
      obtain ⟨e, he, hate⟩ := (extract_leaf false p u w huu hw hat).1 (by simp [hf])
      simp only [Option.bind_some, he]
      exact hate

/-! ### Merge with the topology -/

theorem lookup_map_key {β : Type} (d : List (String × β)) (f : String × β → String × β) (hf : ∀ p, (f p).1 = p.1) (k : String) :
    (d.map f).lookup k = (d.lookup k).map (fun v => (f (k, v)).2) := by
  induction d with
  | nil => rfl
  | cons p rest ih =>
    obtain ⟨a, v⟩ := p
    rw [List.map_cons, show f (a, v) = (a, (f (a, v)).2) from Prod.ext (hf (a, v)) rfl]
    by_cases hk : k = a
    · subst hk
      rw [lookup_cons_self, lookup_cons_self]
      rfl
    · rw [lookup_cons_ne _ _ hk, lookup_cons_ne _ _ hk, ih]

/-- **C40.**  The topology keeps its nodes and links; fabric links come first; attributes of a node in the topology take
precedence over attributes of the same fabric node; the members of a fabric group are the fabric members and the
members set by the user, and group attributes set by the user take precedence. -/
theorem C40_expand (sortSet : List String → List String) (hsort : ∀ l x, x ∈ sortSet l ↔ x ∈ l) (f : Fabric)
    (t : FabTopo) :
    (fabricExpand sortSet f t).links = f.links.val ++ t.links ∧
    (∀ n, n ∈ (fabricExpand sortSet f t).nodes.map Prod.fst ↔ n ∈ f.nodes.map Prod.fst ∨ n ∈ t.nodes.map Prod.fst) ∧
    (∀ n x y, f.nodes.lookup n = some x → t.nodes.lookup n = some y →
      (fabricExpand sortSet f t).nodes.lookup n = some ⟨x.name, mergeDict x.attrs y.attrs⟩) ∧
    (∀ g x, f.groups.lookup g = some x → ∃ r, (fabricExpand sortSet f t).groups.lookup g = some r ∧
      (∀ m, m ∈ r.members ↔ m ∈ x.members ∨ ∃ y, t.groups.lookup g = some y ∧ m ∈ y.members) ∧
      (t.groups.lookup g = none → r.attrs = x.attrs) ∧
      ∀ y, t.groups.lookup g = some y → r.attrs = mergeDict x.attrs y.attrs) := by
  have hnode : ∀ p, (mergeNode t.nodes p).1 = p.1 := by
    intro p
    unfold mergeNode
    split <;> rfl
  have hgroup : ∀ p, (mergeGroup sortSet t.groups p).1 = p.1 := by
    intro p
    unfold mergeGroup
    split <;> rfl
  have happ : ∀ {β : Type} (a b : List (String × β)) (k : String) (v : β), a.lookup k = some v →
      (a ++ b).lookup k = some v := by
    intro β a b k v h
    rw [List.lookup_append, h]
    rfl
  refine ⟨rfl, ?_, ?_, ?_⟩
  · intro n
    simp only [fabricExpand, List.map_append, List.mem_append, List.map_map]
    have hm : f.nodes.map (Prod.fst ∘ mergeNode t.nodes) = f.nodes.map Prod.fst :=
      List.map_congr_left (fun p _ => hnode p)
    rw [hm]
    constructor
    · rintro (h | h)
      · exact .inl h
      · obtain ⟨p, hp, rfl⟩ := List.mem_map.mp h
        exact .inr (List.mem_map_of_mem (List.mem_filter.mp hp).1)
    · rintro (h | h)
      · exact .inl h
      · by_cases hin : n ∈ f.nodes.map Prod.fst
        · exact .inl hin
        · obtain ⟨p, hp, rfl⟩ := List.mem_map.mp h
          refine .inr (List.mem_map_of_mem (List.mem_filter.mpr ⟨hp, ?_⟩))
          rw [lookup_eq_none_iff.mpr hin]
          rfl
  · intro n x y hx hy
    simp only [fabricExpand]
    apply happ
    rw [lookup_map_key _ _ hnode, hx]
    simp only [Option.map_some, mergeNode, hy]
  · intro g x hx
    simp only [fabricExpand]
    cases hy : t.groups.lookup g with
    | none =>
      refine ⟨_, happ _ _ _ _ (by rw [lookup_map_key _ _ hgroup, hx, Option.map_some]), ?_, fun _ => by simp [mergeGroup, hy],
        by simp⟩
      intro m
      simp only [mergeGroup, hy, hsort, List.mem_append, or_self]
      constructor
      · exact .inl
      · rintro (h | ⟨y, h, -⟩)
        · exact h
        · exact absurd h (by simp)
    | some y =>
      refine ⟨_, happ _ _ _ _ (by rw [lookup_map_key _ _ hgroup, hx, Option.map_some]), ?_, by simp, ?_⟩
      · intro m
        simp only [mergeGroup, hy, hsort, List.mem_append]
        constructor
        · rintro (h | h)
          · exact .inr ⟨y, rfl, h⟩
          · exact .inl h
        · rintro (h | ⟨y', h, hm⟩)
          · exact .inr h
          · obtain rfl := Option.some.inj h
            exact .inl hm
      · intro y' h
        obtain rfl := Option.some.inj h
        simp [mergeGroup, hy]

/-! ### A concrete fabric -/

/-- Default names of leafs. -/
def demoLeaf : FabRole := ⟨3, fun k => "L" ++ toString k, "leafs", [("device", .str "eos"), ("id", .str "{count+10}")]⟩

/-- Default names of spines. -/
def demoSpine : FabRole := ⟨2, fun k => "S" ++ toString k, "spines", []⟩

example : DistinctNames demoLeaf.name demoLeaf.count ∧ DistinctNames demoSpine.name demoSpine.count ∧
    DisjointNames demoLeaf demoSpine ∧ ∀ k, demoLeaf.name k ≠ "interfaces" ∧ demoSpine.name k ≠ "interfaces" := by
  have hinj : ∀ (s : String) (i j : Nat), s ++ toString i = s ++ toString j → i = j := by
    intro s i j h
    have h1 : (s ++ toString i).toList = (s ++ toString j).toList := by rw [h]
    simp only [String.toList_append] at h1
    exact Nat.repr_inj.1 (String.toList_injective (List.append_cancel_left h1))
  have hhead : ∀ (a b : String) (r t : String) (c d : Char), a.toList = [c] → b.toList = [d] → c ≠ d → a ++ r ≠ b ++ t := by
    intro a b r t c d ha hb hcd h
    have h1 : (a ++ r).toList = (b ++ t).toList := by rw [h]
    simp only [String.toList_append, ha, hb, List.singleton_append, List.cons.injEq] at h1
    exact hcd h1.1
  refine ⟨?_, ?_, ?_, ?_⟩
  · intro i j _ _ _ _ h
    exact hinj "L" i j h
  · intro i j _ _ _ _ h
    exact hinj "S" i j h
  · intro i j _ _ _ _
    exact hhead "L" "S" _ _ 'L' 'S' rfl rfl (by decide)
  · intro k
    exact ⟨hhead "L" "i" _ "nterfaces" 'L' 'i' rfl rfl (by decide), hhead "S" "i" _ "nterfaces" 'S' 'i' rfl rfl (by decide)⟩

example : Val.at (.dict demoLeaf.params) ["id"] = some (.str "{count+10}") ∧ '{' ∈ "{count+10}".toList ∧
    Val.leafAt (.dict demoLeaf.params) ["device"] (.str "eos") ∧ ¬ Formatted (.str "eos") ∧
    demoLeaf.group ≠ demoSpine.group := by
  refine ⟨rfl, by decide, ⟨rfl, rfl⟩, ?_, by decide⟩
  rintro ⟨s, h, hm⟩
  obtain rfl := Val.str.inj h
  revert hm
  decide

example : Val.UniqueKeys (.dict demoLeaf.params) := by
  rw [uniqueKeys_dict]
  refine ⟨by decide, ?_⟩
  intro k v h p d hp
  have hv : v = .str "eos" ∨ v = .str "{count+10}" := by
    have := mem_of_lookup h
    simp only [demoLeaf, List.mem_cons, Prod.mk.injEq, List.not_mem_nil, or_false] at this
    rcases this with ⟨-, h⟩ | ⟨-, h⟩
    · exact .inl h
    · exact .inr h
  rcases hv with rfl | rfl <;> cases p <;> simp [Val.at] at hp

end Netlab
