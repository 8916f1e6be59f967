import Verif.Spec.Clone
import Verif.Lemmas.Assoc
import Verif.Lemmas.Box
/-!
# C41: node cloning
-/

namespace Netlab

open Spec

variable {α : Type}

/-! ### Links -/

theorem cloneIf_of (n clone : String) (c : Nat) (i : KIf α) : CloneIfOf n clone c i (cloneIf n clone c i) := by
  unfold cloneIf
  by_cases h : i.node = n
  · rw [if_pos h]
    exact ⟨rfl, fun _ => ⟨rfl, rfl⟩, fun hn => absurd h hn⟩
  · rw [if_neg h]
    exact ⟨rfl, fun hn => absurd hn h, fun _ => ⟨rfl, rfl⟩⟩

theorem forall₂_self_map {β γ : Type} {R : β → γ → Prop} {g : β → γ} {l : List β} (h : ∀ x ∈ l, R x (g x)) :
    List.Forall₂ R l (l.map g) := by
  induction l with
  | nil => exact .nil
  | cons x rest ih =>
    exact .cons (h x (List.mem_cons_self ..)) (ih (fun y hy => h y (List.mem_cons_of_mem _ hy)))

theorem forall₂_right {β γ : Type} {R : β → γ → Prop} {l : List β} {l' : List γ} (h : List.Forall₂ R l l') {b : γ}
    (hb : b ∈ l') : ∃ a ∈ l, R a b := by
  induction h with
  | nil => exact absurd hb (by simp)
  | cons h1 _ ih =>
    rcases List.mem_cons.mp hb with hb | hb
    · subst hb
      exact ⟨_, List.mem_cons_self .., h1⟩
    · obtain ⟨a, ha, q⟩ := ih hb
      exact ⟨a, List.mem_cons_of_mem _ ha, q⟩

/-- The link of one clone. -/
def cloneOne (n : String) (l : KLink α) (x : String × Nat) : KLink α := { l with ifs := l.ifs.map (cloneIf n x.1 x.2) }

theorem cloneOne_of (n : String) (l : KLink α) (x : String × Nat) : CloneLinkOf n x.1 x.2 l (cloneOne n l x) :=
  ⟨rfl, forall₂_self_map (fun i _ => cloneIf_of n x.1 x.2 i)⟩

theorem cloneLink_eq (n : String) (clones : List String) (l : KLink α) :
    cloneLink n clones l = if usesNode n l = true then clones.zipIdx.map (cloneOne n l) else [] := rfl

theorem bump_of (n : String) (l : KLink α) (x : String × Nat) : CloneEndsOf n x.1 x.2 l (bumpLink x.2 (cloneOne n l x)) := by
  refine ⟨rfl, ?_⟩
  unfold bumpLink cloneOne
  simp only [List.map_map]
  apply forall₂_self_map
  intro i _
  have h := cloneIf_of n x.1 x.2 i
  refine ⟨h.data, fun hn => ⟨(h.own hn).1, ?_⟩, fun hn => ⟨(h.peer hn).1, ?_⟩⟩
  · simp only [Function.comp, (h.own hn).2]
  · simp only [Function.comp, (h.peer hn).2, Option.map_map]
    congr 1
    funext k
    simp only [Function.comp]
    omega

theorem lagIndex_of (ix : Option Nat) (c k : Nat) :
    lagIndex ix c = some k ↔ (k = 0 ∧ ix = some 0) ∨ ∃ j, ix = some j ∧ j ≠ 0 ∧ k = j + c := by
  unfold lagIndex
  cases ix with
  | none => simp
  | some j =>
    by_cases h : j = 0
    · subst h
      simp [eq_comm]
    · simp [h, eq_comm]

theorem cloned_members (n : String) (clones : List String) (hc : clones ≠ []) (ms : List (KLink α)) :
    (ms.map (cloneLink n clones)).filter (fun l => !l.isEmpty) =
      (ms.filter (usesNode n)).map (fun l => clones.zipIdx.map (cloneOne n l)) := by
  induction ms with
  | nil => rfl
  | cons l rest ih =>
    rw [List.map_cons, List.filter_cons, ih, List.filter_cons, cloneLink_eq]
    by_cases h : usesNode n l = true
    · rw [if_pos h, if_pos h, if_pos (by
        cases clones with
        | nil => exact absurd rfl hc
        | cons a b => simp), List.map_cons]
    · rw [if_neg h, if_neg h, if_neg (by simp)]

theorem getElem_zipIdx_map {β γ : Type} (l : List β) (f : β × Nat → γ) (x : β × Nat) (hx : x ∈ l.zipIdx) :
    (l.zipIdx.map f)[x.2]? = some (f x) := by
  obtain ⟨a, k⟩ := x
  rw [List.mk_mem_zipIdx_iff_getElem?] at hx
  simp [hx]

theorem cloneItem_nil (n : String) (clones : List String) (hc : clones ≠ []) (it : KItem α) :
    cloneItem n clones it = [] ↔ itemUses n it = false := by
  have hz : ∀ {β : Type} (f : String × Nat → β), clones.zipIdx.map f ≠ [] := by
    intro β f
    cases clones with
    | nil => exact absurd rfl hc
    | cons a b => simp
  cases it with
  | link l =>
    simp only [cloneItem, itemUses, cloneLink_eq]
    by_cases h : usesNode n l = true
    · simp [h, hc]
    · simp [h]
  | lag ix data ms =>
    simp only [cloneItem, cloneLag, itemUses, cloned_members n clones hc]
    by_cases h : ms.any (usesNode n) = true
    · have hne : (ms.filter (usesNode n)) ≠ [] := by
        obtain ⟨m, hm, hu⟩ := List.any_eq_true.mp h
        intro he
        have : m ∈ ms.filter (usesNode n) := List.mem_filter.mpr ⟨hm, hu⟩
        rw [he] at this
        exact absurd this (by simp)
      rw [if_neg (by simpa using hne), h]
      simp only [Bool.true_eq_false, iff_false]
      exact hz _
    · have he : ms.filter (usesNode n) = [] := by
        rw [List.filter_eq_nil_iff]
        intro m hm hu
        exact h (List.any_eq_true.mpr ⟨m, hm, hu⟩)
      rw [he]
      simpa using h

theorem cloneItem_of (n : String) (clones : List String) (hc : clones ≠ []) (it : KItem α) (hu : itemUses n it = true) :
    List.Forall₂ (fun x it' => CloneItemOf n x.1 x.2 it it') clones.zipIdx (cloneItem n clones it) := by
  cases it with
  | link l =>
    simp only [itemUses] at hu
    simp only [cloneItem, cloneLink_eq, hu, if_true, List.map_map]
    apply forall₂_self_map
    intro x _
    exact .link l _ (cloneOne_of n l x)
  | lag ix data ms =>
    have hne : cloneItem n clones (.lag ix data ms) ≠ [] := by
      intro h
      rw [cloneItem_nil n clones hc, hu] at h
      exact absurd h (by simp)
    simp only [cloneItem, cloneLag] at hne ⊢
    split
    · rename_i he
      rw [if_pos he] at hne
      exact absurd rfl hne
    · rw [cloned_members n clones hc]
      apply forall₂_self_map
      intro x hx
      refine .lag ix _ data ms _ (lagIndex_of ix x.2) ?_
      rw [List.filterMap_map]
      have : ((fun l => Option.map (bumpLink x.2) l[x.2]?) ∘ fun l => clones.zipIdx.map (cloneOne n l)) =
          fun l => some (bumpLink x.2 (cloneOne (α := α) n l x)) := by
        funext l
        simp only [Function.comp]
        rw [getElem_zipIdx_map _ _ x hx]
        rfl
      rw [this, List.filterMap_eq_map']
      exact forall₂_self_map (fun l _ => bump_of n l x)

theorem processLinks_perm [DecidableEq α] (n : String) (clones : List String) (hc : clones ≠ [])
    (todo items acc : List (KItem α)) (h : items.Perm (todo ++ acc)) :
    (processLinks n clones todo items).Perm
      (todo.filter (fun it => !itemUses n it) ++ acc ++ (todo.filter (itemUses n)).flatMap (cloneItem n clones)) := by
  induction todo generalizing items acc with
  | nil => simpa [processLinks] using h
  | cons l rest ih =>
    cases hcl : cloneItem n clones l with
    | nil =>
      have hu := (cloneItem_nil n clones hc l).mp hcl
      simp only [processLinks, hcl]
      have := ih items (l :: acc) (h.trans List.perm_middle.symm)
      refine this.trans ?_
      rw [List.filter_cons, if_pos (by simp [hu]), List.filter_cons, if_neg (by simp [hu])]
      rw [List.cons_append, List.cons_append]
      exact List.Perm.append_right _ List.perm_middle
    | cons a b =>
      have hu : itemUses n l = true := by
        cases hx : itemUses n l with
        | true => rfl
        | false =>
          rw [(cloneItem_nil n clones hc l).mpr hx] at hcl
          exact absurd hcl (by simp)
      simp only [processLinks, hcl]
      have he : (items.erase l).Perm (rest ++ acc) := by
        have := h.erase l
        simpa using this
      have := ih (items.erase l ++ a :: b) (acc ++ a :: b) (by
        rw [← List.append_assoc]
        exact he.append_right _)
      refine this.trans ?_
      rw [List.filter_cons, if_neg (by simp [hu]), List.filter_cons, if_pos hu, List.flatMap_cons, hcl]
      simp

/-- The links after a node was replaced with its clones. -/
def LinksCloned (n : String) (clones : List String) (old new : List (KItem α)) : Prop :=
  ∃ css, List.Forall₂ (fun it cs => List.Forall₂ (fun x it' => CloneItemOf n x.1 x.2 it it') clones.zipIdx cs)
      (old.filter (itemUses n)) css ∧
    new.Perm (old.filter (fun it => !itemUses n it) ++ css.flatten)

theorem linksCloned [DecidableEq α] (n : String) (clones : List String) (hc : clones ≠ []) (links : List (KItem α)) :
    LinksCloned n clones links (processLinks n clones links links) := by
  refine ⟨(links.filter (itemUses n)).map (cloneItem n clones), ?_, ?_⟩
  · apply forall₂_self_map
    intro it hit
    exact cloneItem_of n clones hc it (List.mem_filter.mp hit).2
  · have := processLinks_perm n clones hc links links [] (by simp)
    rw [List.append_nil] at this
    rw [← List.flatMap_def]
    exact this

theorem cloneParams_pos {p : List (String × Val)} {q : Nat × Nat × Nat} (h : cloneParams p = some q) :
    0 < q.1 ∧ 0 < q.2.1 ∧ 0 < q.2.2 := by
  have hpos : ∀ (o : Option Val) (k : Nat), o.bind posInt = some k → 0 < k := by
    intro o k hk
    cases o with
    | none => exact absurd hk (by simp)
    | some v =>
      simp only [Option.bind_some] at hk
      cases v with
      | int i =>
        simp only [posInt] at hk
        split at hk
        · obtain rfl := Option.some.inj hk
          omega
        · exact absurd hk (by simp)
      | _ => simp [posInt] at hk
  simp only [cloneParams] at h
  split at h
  · split at h
    · rename_i h1 h2 h3
      obtain rfl := Option.some.inj h
      exact ⟨hpos _ _ h1, hpos _ _ h2, hpos _ _ h3⟩
    · exact absurd h (by simp)
  · exact absurd h (by simp)

theorem clones_ne_nil {fmt : Nat → String} {p : List (String × Val)} {q : Nat × Nat × Nat} (h : cloneParams p = some q) :
    cloneNames fmt q ≠ [] := by
  have := (cloneParams_pos h).2.2
  simp only [cloneNames, cloneIds, ne_eq, List.map_eq_nil_iff, List.range_eq_nil]
  omega

/-- **C41.**  Every link of the node (in the topology, in VLANs and in VRFs) is replaced with one link per clone with the
same attributes and the same other nodes; other links do not change. -/
theorem C41_links [DecidableEq α] (fmt : List (String × Val) → Nat → String) (n : String)
    (clone node : List (String × Val)) (t : KTopo α) (p : Nat × Nat × Nat) (hp : cloneParams clone = some p)
    (hi : node.lookup "include" = none) :
    LinksCloned n (cloneNames (fmt node) p) t.links (cloneNode fmt n clone node t).links ∧
    List.Forall₂ (fun s s' => s'.1 = s.1 ∧ LinksCloned n (cloneNames (fmt node) p) s.2 s'.2) t.segments
      (cloneNode fmt n clone node t).segments := by
  have hc := clones_ne_nil (fmt := fmt node) hp
  simp only [cloneNode, hp, hi, Option.isSome_none, Bool.false_eq_true, if_false]
  refine ⟨linksCloned n _ hc t.links, ?_⟩
  apply forall₂_self_map
  intro s _
  exact ⟨rfl, linksCloned n _ hc s.2⟩

/-- **C41.**  No link is attached to the original node. -/
theorem C41_no_links_left [DecidableEq α] (fmt : List (String × Val) → Nat → String) (n : String)
    (clone node : List (String × Val)) (t : KTopo α) (p : Nat × Nat × Nat) (hp : cloneParams clone = some p)
    (hi : node.lookup "include" = none) (hn : n ∉ cloneNames (fmt node) p) :
    ∀ it ∈ (cloneNode fmt n clone node t).links, itemUses n it = false := by
  obtain ⟨css, hcs, hperm⟩ := (C41_links fmt n clone node t p hp hi).1
  intro it hit
  rcases List.mem_append.mp (hperm.mem_iff.mp hit) with h | h
  · simpa using (List.mem_filter.mp h).2
  · obtain ⟨cs, hcm, hic⟩ := List.mem_flatten.mp h
    obtain ⟨it0, -, hf⟩ := forall₂_right hcs hcm
    obtain ⟨x, hx, hco⟩ := forall₂_right hf hic
    have hxn : x.1 ≠ n := fun he => hn (he ▸ List.fst_mem_of_mem_zipIdx hx)
    have hends : ∀ l l' : KLink α, List.Forall₂ (fun i i' => (i.node = n → i'.node = x.1) ∧ (i.node ≠ n → i'.node = i.node))
        l.ifs l'.ifs → usesNode n l' = false := by
      intro l l' hf
      cases hu : usesNode n l' with
      | false => rfl
      | true =>
        obtain ⟨i, him, hin⟩ := List.any_eq_true.mp hu
        obtain ⟨a, -, h1, h2⟩ := forall₂_right hf him
        have hin' : i.node = n := by simpa using hin
        by_cases ha : a.node = n
        · exact absurd ((h1 ha).symm.trans hin') hxn
        · exact absurd ((h2 ha).symm.trans hin') ha
    cases hco with
    | link l l' hl =>
      exact hends l l' (hl.2.imp (fun _ _ hx => ⟨fun q => (hx.own q).1, fun q => (hx.peer q).1⟩))
    | lag ix ix' data ms ms' _ hl =>
      simp only [itemUses]
      rw [List.any_eq_false]
      intro m hm
      obtain ⟨l, -, q⟩ := forall₂_right hl hm
      rw [hends l m (q.2.imp (fun _ _ hx => ⟨fun q => (hx.2.1 q).1, fun q => (hx.2.2 q).1⟩))]
      simp

/-! ### Nodes -/

/-- **C41.**  The number of clones, and their names when the pattern gives a different name to every identifier. -/
theorem C41_names (fmt : Nat → String) (clone : List (String × Val)) (p : Nat × Nat × Nat)
    (hp : cloneParams clone = some p) (hinj : ∀ i j, fmt i = fmt j → i = j) :
    (cloneNames fmt p).length = p.2.2 ∧ (cloneNames fmt p).Nodup ∧
    ∀ x, x ∈ cloneNames fmt p ↔ ∃ k, k < p.2.2 ∧ x = fmt (p.1 + k * p.2.1) := by
  have hpos := (cloneParams_pos hp).2.1
  refine ⟨by simp [cloneNames, cloneIds], ?_, ?_⟩
  · unfold cloneNames cloneIds List.Nodup
    rw [List.pairwise_map, List.pairwise_map]
    refine List.pairwise_lt_range.imp ?_
    intro a b hab he
    have := hinj _ _ he
    have h2 : a * p.2.1 < b * p.2.1 := Nat.mul_lt_mul_of_pos_right hab hpos
    omega
  · intro x
    simp only [cloneNames, cloneIds, List.map_map, List.mem_map, List.mem_range, Function.comp]
    constructor
    · rintro ⟨k, hk, rfl⟩
      exact ⟨k, hk, rfl⟩
    · rintro ⟨k, hk, rfl⟩
      exact ⟨k, hk, rfl⟩

theorem lookup_addClone (nodes : List (String × List (String × Val))) (name m : String) (attrs : List (String × Val)) :
    (addClone nodes name attrs).lookup m =
      if m = name then some (((nodes.lookup name).map (mergeDict attrs)).getD attrs) else nodes.lookup m := by
  unfold addClone
  split
  · rename_i h
    rw [lookup_setKey, h]
    rfl
  · rename_i old h
    rw [lookup_setKey, h]
    rfl

theorem lookup_addClones (fmt : Nat → String) (node : List (String × Val)) (ids : List Nat)
    (nodes : List (String × List (String × Val))) (hn : (ids.map fmt).Nodup) :
    (∀ m, m ∉ ids.map fmt → (addClones fmt node ids nodes).lookup m = nodes.lookup m) ∧
    (∀ c ∈ ids, (addClones fmt node ids nodes).lookup (fmt c) =
      some (((nodes.lookup (fmt c)).map (mergeDict (cloneAttrs node (fmt c) c))).getD (cloneAttrs node (fmt c) c))) := by
  induction ids generalizing nodes with
  | nil => exact ⟨fun m _ => rfl, by simp⟩
  | cons c rest ih =>
    simp only [List.map_cons, List.nodup_cons] at hn
    obtain ⟨h1, h2⟩ := ih (addClone nodes (fmt c) (cloneAttrs node (fmt c) c)) hn.2
    simp only [addClones]
    constructor
    · intro m hm
      simp only [List.map_cons, List.mem_cons, not_or] at hm
      rw [h1 m hm.2, lookup_addClone, if_neg hm.1]
    · intro c' hc'
      rcases List.mem_cons.mp hc' with hc' | hc'
      · subst hc'
        rw [h1 _ hn.1, lookup_addClone, if_pos rfl]
      · rw [h2 c' hc', lookup_addClone, if_neg ?_]
        intro he
        exact hn.1 (he ▸ List.mem_map_of_mem hc')

/-- **C41.**  The node is replaced with its clones, other nodes do not change.  A clone has the attributes of the node; a
node that has the name of the clone adds its attributes to the clone. -/
theorem C41_nodes [DecidableEq α] (fmt : List (String × Val) → Nat → String) (n : String)
    (clone node : List (String × Val)) (t : KTopo α) (p : Nat × Nat × Nat) (hp : cloneParams clone = some p)
    (hi : node.lookup "include" = none) (hd : (cloneNames (fmt node) p).Nodup) (hn : n ∉ cloneNames (fmt node) p) :
    (cloneNode fmt n clone node t).nodes.lookup n = none ∧
    (∀ m, m ≠ n → m ∉ cloneNames (fmt node) p → (cloneNode fmt n clone node t).nodes.lookup m = t.nodes.lookup m) ∧
    (∀ k, k < p.2.2 → ∃ attrs,
      (cloneNode fmt n clone node t).nodes.lookup (fmt node (p.1 + k * p.2.1)) =
        some (((t.nodes.lookup (fmt node (p.1 + k * p.2.1))).map (mergeDict attrs)).getD attrs) ∧
      attrs.lookup "name" = some (.str (fmt node (p.1 + k * p.2.1))) ∧
      (∀ i, node.lookup "id" = some (.int i) → attrs.lookup "id" = some (.int (i + (p.1 + k * p.2.1) - 1))) ∧
      (∀ a, a ≠ "name" → a ≠ "interfaces" → a ≠ "id" → attrs.lookup a = node.lookup a)) := by
  simp only [cloneNode, hp, hi, Option.isSome_none, Bool.false_eq_true, if_false]
  obtain ⟨h1, h2⟩ := lookup_addClones (fmt node) node (cloneIds p) t.nodes hd
  refine ⟨?_, ?_, ?_⟩
  · rw [lookup_popKey, if_pos rfl]
  · intro m hm hmc
    rw [lookup_popKey, if_neg hm]
    exact h1 m hmc
  · intro k hk
    have hmem : p.1 + k * p.2.1 ∈ cloneIds p := List.mem_map.mpr ⟨k, List.mem_range.mpr hk, rfl⟩
    refine ⟨cloneAttrs node (fmt node (p.1 + k * p.2.1)) (p.1 + k * p.2.1), ?_, ?_, ?_, ?_⟩
    · rw [lookup_popKey, if_neg ?_]
      · exact h2 _ hmem
      · intro he
        exact hn (he ▸ List.mem_map_of_mem hmem)
    · unfold cloneAttrs
      split <;> simp [lookup_setKey]
    · intro i hid
      unfold cloneAttrs
      rw [hid]
      simp [lookup_setKey]
    · intro a ha1 ha2 ha3
      unfold cloneAttrs
      split <;> simp [lookup_setKey, ha1, ha2, ha3]

/-! ### Groups -/

/-- **C41.**  The clones replace the node in groups. -/
theorem C41_groups [DecidableEq α] (fmt : List (String × Val) → Nat → String) (n : String)
    (clone node : List (String × Val)) (t : KTopo α) (p : Nat × Nat × Nat) (hp : cloneParams clone = some p)
    (hi : node.lookup "include" = none) (hm : ∀ g ∈ t.groups, g.2.Nodup) (hu : ∀ g ∈ t.groups, g.1.toList.head? ≠ some '_') :
    List.Forall₂ (fun g g' => g'.1 = g.1 ∧
      ∀ x, x ∈ g'.2 ↔ (x ∈ g.2 ∧ x ≠ n) ∨ (n ∈ g.2 ∧ x ∈ cloneNames (fmt node) p)) t.groups
      (cloneNode fmt n clone node t).groups := by
  simp only [cloneNode, hp, hi, Option.isSome_none, Bool.false_eq_true, if_false]
  apply forall₂_self_map
  intro g hg
  unfold cloneGroup
  rw [if_neg (by simpa using hu g hg)]
  by_cases hc : g.2.contains n = true
  · rw [if_pos hc]
    have hin : n ∈ g.2 := by simpa using hc
    refine ⟨rfl, ?_⟩
    intro x
    simp only [List.mem_append, (hm g hg).mem_erase_iff]
    constructor
    · rintro (⟨h1, h2⟩ | h)
      · exact .inl ⟨h2, h1⟩
      · exact .inr ⟨hin, h⟩
    · rintro (⟨h1, h2⟩ | ⟨-, h⟩)
      · exact .inl ⟨h2, h1⟩
      · exact .inr h
  · rw [if_neg hc]
    have hin : n ∉ g.2 := by simpa using hc
    refine ⟨rfl, ?_⟩
    intro x
    constructor
    · intro hx
      exact .inl ⟨hx, fun he => hin (he ▸ hx)⟩
    · rintro (⟨h1, -⟩ | ⟨h1, -⟩)
      · exact h1
      · exact absurd h1 hin

/-! ### Concrete topologies -/

/-- Two hosts attached to a switch; the second link is a VLAN link. -/
def cloneDemo : KTopo Nat where
  nodes := [("s", [("name", .str "s")]), ("h", [("name", .str "h"), ("id", .int 5)])]
  links := [.link ⟨[⟨"s", some 3, 0⟩, ⟨"h", none, 0⟩], 7⟩, .link ⟨[⟨"s", none, 0⟩], 8⟩]
  groups := [("hosts", ["h"]), ("all", ["s", "h"])]
  segments := []
  errors := 0

/-- Clone names. -/
def demoFmt (_ : List (String × Val)) (k : Nat) : String := "h" ++ toString k

example : (cloneNode demoFmt "h" [("count", .int 2)] [("name", .str "h"), ("id", .int 5)] cloneDemo).links =
    [.link ⟨[⟨"s", none, 0⟩], 8⟩, .link ⟨[⟨"s", some 3, 0⟩, ⟨"h1", none, 0⟩], 7⟩,
      .link ⟨[⟨"s", some 4, 0⟩, ⟨"h2", none, 0⟩], 7⟩] := by decide +kernel

example : (cloneNode demoFmt "h" [("count", .int 2)] [("name", .str "h"), ("id", .int 5)] cloneDemo).groups =
    [("hosts", ["h1", "h2"]), ("all", ["s", "h1", "h2"])] := by decide +kernel

example : cloneParams [("count", .int 2)] = some (1, 1, 2) ∧ "h" ∉ cloneNames (demoFmt []) (1, 1, 2) ∧
    (cloneNames (demoFmt []) (1, 1, 2)).Nodup := by decide +kernel

/-- **C41, an exception.**  A node connected to two switches with a link aggregation group: after one of the switches is
cloned, the node has one group per clone, and the link to the other switch disappears. -/
theorem C41_lag_link_lost :
    (cloneNode demoFmt "s" [("count", .int 1)] [("name", .str "s")]
      { cloneDemo with links := [.lag none 0 [⟨[⟨"h", none, 0⟩, ⟨"s", none, 0⟩], 1⟩, ⟨[⟨"h", none, 0⟩, ⟨"t", none, 0⟩], 2⟩]] }).links =
    [.lag none 0 [⟨[⟨"h", none, 0⟩, ⟨"h1", none, 0⟩], 1⟩]] := by decide +kernel

/-- The default pattern of clone names, `{name[:13]}-{id:02d}` (`netsim/extra/node.clone/defaults.yml`). -/
def defaultFmt (node : List (String × Val)) (k : Nat) : String :=
  match node.lookup "name" with
  | some (.str s) => String.ofList (s.toList.take 13) ++ "-" ++ (if k < 10 then "0" else "") ++ toString k
  | _ => ""

/-- **C41, an exception.**  Clones of two nodes with the same first 13 characters have the same names: the expansion
reports no error, and the two nodes become one. -/
theorem C41_truncated_names :
    ((expandClones defaultFmt ({ nodes := [
        ("distribution-a", [("name", .str "distribution-a"), ("clone", .dict [("count", .int 1)])]),
        ("distribution-b", [("name", .str "distribution-b"), ("clone", .dict [("count", .int 1)])])]
                                 links := []
                                 groups := []
                                 segments := []
                                 errors := 0 } : KTopo Nat)).nodes.map Prod.fst) = ["distribution--01"] := by decide +kernel

end Netlab
