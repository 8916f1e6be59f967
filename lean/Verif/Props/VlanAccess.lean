import Verif.Model.VlanAccess
import Verif.Lemmas.Box
import Verif.Props.LinkIntf

namespace Netlab

open Spec

/-! ### Appending links -/

/-- Append links with link indices -/
def vaAppend (start : Int) (cur items : List VaLink) : List VaLink :=
  items.foldl (fun cur x => cur ++ [{ x with idx := nextLinkindex start (cur.map (·.idx)) }]) cur

theorem vaAppend_spec (start : Int) (items cur : List VaLink) :
    ∃ new, vaAppend start cur items = cur ++ new ∧
      new.map (fun l => (l.vlan, l.nodes, l.pfx, l.member)) = items.map (fun l => (l.vlan, l.nodes, l.pfx, l.member)) ∧
      new.map (·.idx) = (List.range items.length).map (fun k : Nat => nextLinkindex start (cur.map (·.idx)) + (k : Int)) := by
  induction items generalizing cur with
  | nil => exact ⟨[], by simp [vaAppend], rfl, rfl⟩
  | cons x r ih =>
    obtain ⟨new, h1, h2, h3⟩ := ih (cur ++ [{ x with idx := nextLinkindex start (cur.map (·.idx)) }])
    have hnext : nextLinkindex start (List.map VaLink.idx (cur ++ [{ x with idx := nextLinkindex start (cur.map (·.idx)) }])) = nextLinkindex start (cur.map (·.idx)) + 1 := by
      conv => lhs; unfold nextLinkindex
      rw [List.map_append, List.map_singleton, List.getLast?_concat]
      rfl
    refine ⟨{ x with idx := nextLinkindex start (cur.map (·.idx)) } :: new, ?_, ?_, ?_⟩
    · unfold vaAppend at h1 ⊢
      rw [List.foldl_cons, h1, List.append_assoc]
      rfl
    · rw [List.map_cons, h2]
      rfl
    · rw [List.map_cons, h3, hnext, List.length_cons, List.range_succ_eq_map, List.map_cons, List.map_map]
      congr 1
      · simp
      · apply List.map_congr_left
        intro k _
        simp only [Function.comp]
        omega

theorem vaAppend_append (start : Int) (cur a b : List VaLink) : vaAppend start (vaAppend start cur a) b = vaAppend start cur (a ++ b) := by
  unfold vaAppend
  rw [List.foldl_append]

/-- The links needed by VLANs of a node -/
def vaItems (gpfx : String → Option Val) (mode : String → String → String) (links : List VaLink) (n : String × List String) : List VaLink :=
  (n.2.filter (fun v => mode n.1 v = "irb" && !vaAttached links n.1 v)).map (fun v => ⟨0, some v, [n.1], (gpfx v).filter (fun v => v.truthy), true⟩)

theorem vaNode_append (start : Int) (gpfx : String → Option Val) (mode : String → String → String) (links : List VaLink) (n : String × List String)
    (cur : List VaLink) : n.2.foldl (vaVlan start gpfx mode links n.1) cur = vaAppend start cur (vaItems gpfx mode links n) := by
  unfold vaItems
  generalize n.2 = vs
  induction vs generalizing cur with
  | nil => rfl
  | cons v r ih =>
    rw [List.foldl_cons, ih]
    unfold vaVlan
    by_cases ha : vaAttached links n.1 v = true
    · rw [if_pos ha, List.filter_cons_of_neg (by simp [ha])]
    · by_cases hm : mode n.1 v = "irb"
      · rw [if_neg ha, if_pos hm, List.filter_cons_of_pos (by simp [ha, hm])]
        rfl
      · rw [if_neg ha, if_neg hm, List.filter_cons_of_neg (by simp [hm])]

theorem vaLoopback_append (start : Int) (gpfx : String → Option Val) (mode : String → String → String) (links : List VaLink) (nodes : List (String × List String)) :
    vaLoopback start gpfx mode links nodes = vaAppend start links (nodes.flatMap (vaItems gpfx mode links)) := by
  unfold vaLoopback
  have key : ∀ cur, nodes.foldl (fun cur n => n.2.foldl (vaVlan start gpfx mode links n.1) cur) cur = vaAppend start cur (nodes.flatMap (vaItems gpfx mode links)) := by
    induction nodes with
    | nil => intro cur; rfl
    | cons n r ih =>
      intro cur
      rw [List.foldl_cons, ih, vaNode_append, vaAppend_append, List.flatMap_cons]
  exact key links

theorem vaAttached_iff (links : List VaLink) (n v : String) : vaAttached links n v = true ↔ ∃ l ∈ links, l.vlan = some v ∧ n ∈ l.nodes := by
  unfold vaAttached
  simp

/-! ### VLANs without links -/

/-- C99: the created links: links of the topology are not changed, and every new link connects one node to a VLAN that uses integrated routing and bridging on the
node and is not used on other links of the node. The link has the prefix of the global VLAN, and link indices are consecutive. -/
theorem C99_vlan_links (start : Int) (gpfx : String → Option Val) (mode : String → String → String) (links : List VaLink) (nodes : List (String × List String)) :
    ∃ new, vaLoopback start gpfx mode links nodes = links ++ new ∧
      (∀ l ∈ new, l.member = true ∧ ∃ n v, l.nodes = [n] ∧ l.vlan = some v ∧ (∃ vs, (n, vs) ∈ nodes ∧ v ∈ vs) ∧ mode n v = "irb" ∧
        (¬ ∃ k ∈ links, k.vlan = some v ∧ n ∈ k.nodes) ∧ ∀ p, l.pfx = some p ↔ gpfx v = some p ∧ p.truthy = true) ∧
      new.map (·.idx) = (List.range new.length).map (fun k : Nat => nextLinkindex start (links.map (·.idx)) + (k : Int)) := by
  obtain ⟨new, h1, h2, h3⟩ := vaAppend_spec start (nodes.flatMap (vaItems gpfx mode links)) links
  refine ⟨new, by rw [vaLoopback_append, h1], ?_, ?_⟩
  · intro l hl
    have hm : (l.vlan, l.nodes, l.pfx, l.member) ∈ new.map (fun l => (l.vlan, l.nodes, l.pfx, l.member)) := List.mem_map.2 ⟨l, hl, rfl⟩
    rw [h2] at hm
    obtain ⟨x, hx, he⟩ := List.mem_map.1 hm
    obtain ⟨n, hn, hxn⟩ := List.mem_flatMap.1 hx
    unfold vaItems at hxn
    obtain ⟨v, hv, rfl⟩ := List.mem_map.1 hxn
    rw [List.mem_filter, Bool.and_eq_true, decide_eq_true_eq, Bool.not_eq_true', ← Bool.not_eq_true, vaAttached_iff] at hv
    simp only [Prod.mk.injEq] at he
    refine ⟨he.2.2.2.symm, n.1, v, he.2.1.symm, he.1.symm, ⟨n.2, hn, hv.1⟩, hv.2.1, hv.2.2, fun p => ?_⟩
    rw [← he.2.2.1, Option.filter_eq_some_iff]
  · rw [h3]
    have : new.length = (nodes.flatMap (vaItems gpfx mode links)).length := by
      have := congrArg List.length h2
      simpa using this
    rw [this]

/-- C99: every VLAN that uses integrated routing and bridging on a node is used on a link of the node. -/
theorem C99_every_vlan (start : Int) (gpfx : String → Option Val) (mode : String → String → String) (links : List VaLink) (nodes : List (String × List String))
    (n : String) (vs : List String) (hn : (n, vs) ∈ nodes) (v : String) (hv : v ∈ vs) (hm : mode n v = "irb") :
    ∃ l ∈ vaLoopback start gpfx mode links nodes, l.vlan = some v ∧ n ∈ l.nodes := by
  obtain ⟨new, h1, h2, -⟩ := vaAppend_spec start (nodes.flatMap (vaItems gpfx mode links)) links
  rw [vaLoopback_append, h1]
  by_cases ha : vaAttached links n v = true
  · obtain ⟨l, hl, h⟩ := (vaAttached_iff links n v).1 ha
    exact ⟨l, List.mem_append_left _ hl, h⟩
  · have hx : (⟨0, some v, [n], (gpfx v).filter (fun v => v.truthy), true⟩ : VaLink) ∈ nodes.flatMap (vaItems gpfx mode links) := by
      refine List.mem_flatMap.2 ⟨(n, vs), hn, ?_⟩
      unfold vaItems
      refine List.mem_map.2 ⟨v, List.mem_filter.2 ⟨hv, by simp [hm, ha]⟩, rfl⟩
    have : (some v, [n], (gpfx v).filter (fun v => v.truthy), true) ∈ new.map (fun l => (l.vlan, l.nodes, l.pfx, l.member)) := by
      rw [h2]
      exact List.mem_map.2 ⟨_, hx, rfl⟩
    obtain ⟨l, hl, he⟩ := List.mem_map.1 this
    simp only [Prod.mk.injEq] at he
    exact ⟨l, List.mem_append_right _ hl, he.1, by rw [he.2.1]; exact List.mem_singleton.2 rfl⟩

/-- C99: there is at most one new link for a VLAN of a node. -/
theorem C99_one_link (start : Int) (gpfx : String → Option Val) (mode : String → String → String) (links : List VaLink) (nodes : List (String × List String))
    (hn : (nodes.map (·.1)).Nodup) (hv : ∀ n ∈ nodes, n.2.Nodup) (new : List VaLink) (h : vaLoopback start gpfx mode links nodes = links ++ new) :
    new.Pairwise (fun a b => ¬ (a.vlan = b.vlan ∧ a.nodes = b.nodes)) := by
  obtain ⟨new', h1, h2, -⟩ := vaAppend_spec start (nodes.flatMap (vaItems gpfx mode links)) links
  rw [vaLoopback_append, h1] at h
  cases List.append_cancel_left h
  have key : (nodes.flatMap (vaItems gpfx mode links)).Pairwise (fun a b => ¬ (a.vlan = b.vlan ∧ a.nodes = b.nodes)) := by
    rw [List.pairwise_flatMap]
    refine ⟨fun n hx => ?_, ?_⟩
    · unfold vaItems
      rw [List.pairwise_map]
      refine ((hv n hx).filter _).imp (fun {a b} hab he => hab ?_)
      exact Option.some.inj he.1
    · rw [List.Nodup, List.pairwise_map] at hn
      refine hn.imp (fun {a b} hab x hx y hy he => hab ?_)
      unfold vaItems at hx hy
      obtain ⟨u, -, rfl⟩ := List.mem_map.1 hx
      obtain ⟨w, -, rfl⟩ := List.mem_map.1 hy
      exact (List.cons.inj he.2).1
  have hm : ∀ l : List VaLink, l.Pairwise (fun a b => ¬ (a.vlan = b.vlan ∧ a.nodes = b.nodes)) ↔
      (l.map (fun l => (l.vlan, l.nodes, l.pfx, l.member))).Pairwise (fun a b => ¬ (a.1 = b.1 ∧ a.2.1 = b.2.1)) := by
    intro l
    rw [List.pairwise_map]
  rw [hm, h2, ← hm]
  exact key

/-- C99: VLAN member links are removed from the topology, and other links are not changed. -/
theorem C99_members_removed (start : Int) (gpfx : String → Option Val) (mode : String → String → String) (links : List VaLink) (nodes : List (String × List String)) :
    vaFinal (vaLoopback start gpfx mode links nodes) = links.filter (fun l => !l.member) := by
  obtain ⟨new, h1, h2, -⟩ := C99_vlan_links start gpfx mode links nodes
  unfold vaFinal
  rw [h1, List.filter_append, (List.filter_eq_nil_iff.2 (fun l hl => by rw [(h2 l hl).1]; decide) : new.filter (fun l => !l.member) = []), List.append_nil]

/-! ### Links of VLANs -/

/-- C99: every valid link of a global VLAN becomes a link with access VLAN; link indices are consecutive and the existing links are not changed. -/
theorem C99_access_links (start : Int) (adj : String → List String → Option VaLink) (links : List VaLink) (vlans : List (String × List (List String))) :
    ∃ new, vaAccess start adj links vlans = links ++ new ∧
      new.map (fun l => (l.vlan, l.nodes, l.pfx, l.member)) =
        vlans.flatMap (fun v => (v.2.filterMap (adj v.1)).map (fun x => (some v.1, x.nodes, x.pfx, x.member))) ∧
      new.map (·.idx) = (List.range new.length).map (fun k : Nat => nextLinkindex start (links.map (·.idx)) + (k : Int)) := by
  have inner : ∀ (v : String) (ls : List (List String)) (cur : List VaLink),
      ls.foldl (vaAccStep start adj v) cur = vaAppend start cur ((ls.filterMap (adj v)).map (fun x => { x with vlan := some v })) := by
    intro v ls
    induction ls with
    | nil => intro cur; rfl
    | cons l r ih =>
      intro cur
      rw [List.foldl_cons, ih, List.filterMap_cons]
      unfold vaAccStep
      cases adj v l with
      | none => rfl
      | some x => rfl
  have outer : ∀ cur, vaAccess start adj cur vlans = vaAppend start cur (vlans.flatMap (fun v => (v.2.filterMap (adj v.1)).map (fun x => { x with vlan := some v.1 }))) := by
    unfold vaAccess
    induction vlans with
    | nil => intro cur; rfl
    | cons v r ih =>
      intro cur
      rw [List.foldl_cons, ih, inner, vaAppend_append, List.flatMap_cons]
  obtain ⟨new, h1, h2, h3⟩ := vaAppend_spec start (vlans.flatMap (fun v => (v.2.filterMap (adj v.1)).map (fun x => { x with vlan := some v.1 }))) links
  refine ⟨new, by rw [outer, h1], ?_, ?_⟩
  · rw [h2, List.map_flatMap]
    congr 1
    funext v
    rw [List.map_map]
    rfl
  · rw [h3]
    have := congrArg List.length h2
    simp only [List.length_map] at this
    rw [this]

/-! ### Interface attributes -/

/-- C99: attributes of a VLAN interface are accepted exactly when the interface is routed, or when it has only physical interface attributes or disabled address
families and the VLAN is not a routed VLAN. -/
theorem C99_attributes (valid : List String) (m : String) (routed : Bool) (intf : List (String × Val)) :
    ∃ e, claErrors valid (some m) routed intf = some e ∧ (e = 0 ↔ m = "route" ∨ routed = false ∧
      ∀ k v, (k, v) ∈ intf → k ∈ valid ∨ k = "node" ∨ k = "_vlan_mode" ∨ (k = "ipv4" ∨ k = "ipv6") ∧ v = .bool false) := by
  have hb : ∀ v : Val, vaFalse v = true ↔ v = .bool false := by
    intro v
    cases v with
    | bool b => cases b <;> simp [vaFalse]
    | _ => simp [vaFalse]
  unfold claErrors
  simp only
  by_cases hm : m = "route"
  · exact ⟨0, by rw [if_pos hm], by simp [hm]⟩
  · rw [if_neg hm]
    cases routed with
    | true => exact ⟨1, rfl, by simp [hm]⟩
    | false =>
      simp only [Bool.false_eq_true, if_false]
      have hall : intf.all (fun p => (valid ++ ["node", "_vlan_mode"]).contains p.1 || (["ipv4", "ipv6"].contains p.1 && vaFalse p.2)) = true ↔
          ∀ k v, (k, v) ∈ intf → k ∈ valid ∨ k = "node" ∨ k = "_vlan_mode" ∨ (k = "ipv4" ∨ k = "ipv6") ∧ v = .bool false := by
        rw [List.all_eq_true]
        constructor
        · intro h k v hk
          have := h (k, v) hk
          simp only [Bool.or_eq_true, Bool.and_eq_true, List.contains_iff_mem, List.mem_append, List.mem_cons, List.not_mem_nil, or_false, hb] at this
          rcases this with (h | h | h) | h
          · exact Or.inl h
          · exact Or.inr (Or.inl h)
          · exact Or.inr (Or.inr (Or.inl h))
          · exact Or.inr (Or.inr (Or.inr h))
        · rintro h ⟨k, v⟩ hk
          simp only [Bool.or_eq_true, Bool.and_eq_true, List.contains_iff_mem, List.mem_append, List.mem_cons, List.not_mem_nil, or_false, hb]
          rcases h k v hk with h | h | h | h
          · exact Or.inl (Or.inl h)
          · exact Or.inl (Or.inr (Or.inl h))
          · exact Or.inl (Or.inr (Or.inr h))
          · exact Or.inr h
      by_cases h : intf.all (fun p => (valid ++ ["node", "_vlan_mode"]).contains p.1 || (["ipv4", "ipv6"].contains p.1 && vaFalse p.2)) = true
      · exact ⟨0, by rw [if_pos h], by simp only [hm, false_or, true_and, true_iff]; exact hall.1 h⟩
      · refine ⟨1, by rw [if_neg h], ?_⟩
        simp only [Nat.one_ne_zero, hm, false_or, true_and, false_iff]
        exact fun hh => h (hall.2 hh)

theorem clgSet_lookup (lg a : List (String × Val)) (x k : String) :
    (clgSet lg a x).lookup k = if k = x then (lg.lookup k).or (a.lookup k) else a.lookup k := by
  unfold clgSet
  by_cases hk : k = x
  · subst hk
    rw [if_pos rfl]
    cases lg.lookup k with
    | none => rfl
    | some v => simp [lookup_setKey]
  · rw [if_neg hk]
    cases lg.lookup x with
    | none => rfl
    | some v => simp [lookup_setKey, hk]

/-- C99: VLAN attributes of the node (addresses, gateway) replace attributes of VLAN interfaces, other attributes are not changed. -/
theorem C99_copied_attributes (copied : List String) (vdata intf : List (String × Val)) (k : String) :
    (vaCopy copied vdata intf).lookup k = if k ∈ copied then (vdata.lookup k).or (intf.lookup k) else intf.lookup k := by
  unfold vaCopy
  induction copied generalizing intf with
  | nil => simp
  | cons x r ih =>
    rw [List.foldl_cons, ih, clgSet_lookup]
    by_cases hk : k = x
    · subst hk
      simp only [List.mem_cons, true_or, if_true]
      split
      · cases vdata.lookup k <;> rfl
      · rfl
    · simp [hk]

/-- C99: an interface is renamed in neighbor lists wherever it is a neighbor, and nothing else is changed. -/
theorem C99_renamed (nbr old new : String) (intfs : List (List (String × String))) (i j : Nat) :
    ((vaRename nbr old new intfs)[i]?).bind (·[j]?) = ((intfs[i]?).bind (·[j]?)).map (fun n => if n = (nbr, old) then (nbr, new) else n) := by
  unfold vaRename
  rw [List.getElem?_map]
  cases intfs[i]? with
  | none => rfl
  | some l =>
    simp only [Option.map_some, Option.bind_some, List.getElem?_map]
    cases l[j]? with
    | none => rfl
    | some n =>
      obtain ⟨a, b⟩ := n
      simp only [Option.map_some, Prod.mk.injEq]
      split
      · rename_i h; rw [h.1]
      · rfl

/-- C99: internal attributes are removed from interfaces, and the VLAN mode becomes a VLAN parameter of the interface. -/
theorem C99_internal_attributes (intf : List (String × Val)) :
    (∀ k, k = "vlan_name" ∨ k = "_global_merge" ∨ k = "_vlan_mode" → (vaClean intf).lookup k = none) ∧
    (∀ k, k ≠ "vlan_name" → k ≠ "_global_merge" → k ≠ "_vlan_mode" → k ≠ "vlan" → (vaClean intf).lookup k = intf.lookup k) ∧
    (∀ m, intf.lookup "_vlan_mode" = some m → ∃ d, (vaClean intf).lookup "vlan" = some (.dict d) ∧ d.lookup "mode" = some m ∧
      ∀ e, intf.lookup "vlan" = some (.dict e) → ∀ k, k ≠ "mode" → d.lookup k = e.lookup k) ∧
    (intf.lookup "_vlan_mode" = none → (vaClean intf).lookup "vlan" = intf.lookup "vlan") := by
  have hl : ∀ k, k ≠ "vlan_name" → k ≠ "_global_merge" → (popKey (popKey intf "vlan_name") "_global_merge").lookup k = intf.lookup k := by
    intro k h1 h2
    rw [lookup_popKey, if_neg h2, lookup_popKey, if_neg h1]
  unfold vaClean
  simp only
  rw [hl "_vlan_mode" (by decide) (by decide), hl "vlan" (by decide) (by decide)]
  cases hm : intf.lookup "_vlan_mode" with
  | none =>
    refine ⟨?_, fun k h1 h2 _ _ => hl k h1 h2, fun m h => (by cases h), fun _ => hl "vlan" (by decide) (by decide)⟩
    rintro k (rfl | rfl | rfl)
    · rw [lookup_popKey, lookup_popKey]; simp
    · rw [lookup_popKey]; simp
    · rw [hl _ (by decide) (by decide), hm]
  | some m =>
    refine ⟨?_, ?_, ?_, fun h => (by cases h)⟩
    · rintro k (rfl | rfl | rfl)
      · simp only
        rw [lookup_popKey, lookup_setKey, lookup_popKey, lookup_popKey]; simp
      · simp only
        rw [lookup_popKey, lookup_setKey, lookup_popKey]; simp
      · simp only
        rw [lookup_popKey]; simp
    · intro k h1 h2 h3 h4
      simp only
      rw [lookup_popKey, if_neg h3, lookup_setKey, if_neg h4, hl k h1 h2]
    · intro m' hm'
      cases hm'
      refine ⟨_, by simp only; rw [lookup_popKey, if_neg (by decide), lookup_setKey, if_pos rfl], by rw [lookup_setKey, if_pos rfl], ?_⟩
      intro e he k hk
      rw [he]
      simp only
      rw [lookup_setKey, if_neg hk]

example : (vaLoopback 1 (fun _ => none) (fun _ _ => "irb") [⟨1, some "red", ["a", "b"], none, false⟩] [("a", ["red", "blue"]), ("b", ["red"])]).map
    (fun l => (l.idx, l.vlan, l.nodes)) = [(1, some "red", ["a", "b"]), (2, some "blue", ["a"])] := by decide +kernel
example : claErrors ["ifindex"] (some "irb") false [("node", .str "a"), ("ipv4", .bool false)] = some 0 := by rfl
example : claErrors ["ifindex"] (some "irb") false [("node", .str "a"), ("ospf", .dict [])] = some 1 := by rfl

/-- C99 defect: the prefix of a VLAN defined on a node is not used on its link: the link depends on global VLANs only. -/
theorem C99_node_prefix : (vaLoopback 1 (fun _ => none) (fun _ _ => "irb") [] [("a", ["blue"])]).map (fun l => l.pfx.isSome) = [false] := by decide +kernel

/-- C99: VLAN modes are needed to check access interfaces; a missing mode terminates the transformation. -/
theorem C99_no_mode (valid : List String) (routed : Bool) (intf : List (String × Val)) : claErrors valid none routed intf = none := rfl

end Netlab
