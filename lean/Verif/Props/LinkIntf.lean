import Verif.Model.LinkIntf
import Verif.Spec.LinkIntf
import Verif.Lemmas.Box
import Verif.Lemmas.Util
import Verif.Props.Gateway
import Verif.Props.IgpProto

namespace Netlab

open Spec

/-! ### Attributes copied from links to interfaces and neighbors -/

theorem idAttr_lookup (link d : List (String × Val)) (j k : String) :
    (idAttr link d j).lookup k = if k = j then CopiedAttr (link.lookup k) (d.lookup k) else d.lookup k := by
  unfold idAttr
  by_cases hk : k = j
  · subst hk
    rw [if_pos rfl]
    cases hl : link.lookup k with
    | none => cases hd : d.lookup k <;> simp [CopiedAttr]
    | some lv =>
      cases hd : d.lookup k with
      | none => simp [CopiedAttr, lookup_setKey]
      | some dv => cases lv <;> cases dv <;> simp [CopiedAttr, lookup_setKey, hd]
  · rw [if_neg hk]
    cases hl : link.lookup j with
    | none => rfl
    | some lv =>
      cases hd : d.lookup j with
      | none => simp [lookup_setKey, hk]
      | some dv => cases lv <;> cases dv <;> simp [lookup_setKey, hk]

/-- C98: an interface has the value of a propagated link attribute unless it has its own value (dictionaries are merged, interface values prevail); other attributes
are not changed. The order of attributes does not matter. -/
theorem C98_propagated (link : List (String × Val)) (attrs : List String) (hn : attrs.Nodup) (d : List (String × Val)) (k : String) :
    (intfData link attrs d).lookup k = if k ∈ attrs then CopiedAttr (link.lookup k) (d.lookup k) else d.lookup k := by
  unfold intfData
  induction attrs generalizing d with
  | nil => simp
  | cons j r ih =>
    rw [List.foldl_cons, ih (List.nodup_cons.1 hn).2, idAttr_lookup]
    have hj := (List.nodup_cons.1 hn).1
    by_cases hk : k = j
    · subst hk
      simp [hj]
    · simp [hk]

/-- C98: the propagated attributes: link attributes that can be propagated, and modules of the node. -/
theorem C98_propagated_attributes (link internal noProp modules noMod : List String) (k : String) :
    (propAttrs link internal noProp modules noMod).Nodup ∧
    (k ∈ propAttrs link internal noProp modules noMod ↔ ((k ∈ link ∨ k ∈ internal) ∧ k ∉ noProp ∨ k ∈ modules) ∧ k ∉ noMod) := by
  refine ⟨nodup_eraseDups _, ?_⟩
  unfold propAttrs
  simp only [List.mem_eraseDups, List.mem_filter, List.mem_append, Bool.not_eq_true', List.contains_eq_mem, decide_eq_false_iff_not]

/-- C98: neighbor data contain the name and interface of the neighbor, its addresses and data of its modules, and nothing else. -/
theorem C98_neighbor_data (node : String) (ifname : Val) (mods : List String) (remote : List (String × Val)) (hm : "node" ∉ mods) (hi : "ifname" ∉ mods) :
    (ngbData node ifname mods remote).lookup "node" = some (.str node) ∧ (ngbData node ifname mods remote).lookup "ifname" = some ifname ∧
    ∀ k, k ≠ "node" → k ≠ "ifname" → (ngbData node ifname mods remote).lookup k = if k = "ipv4" ∨ k = "ipv6" ∨ k ∈ mods then remote.lookup k else none := by
  have key := C98_propagated remote (mods ++ ["ipv4", "ipv6"]).eraseDups (nodup_eraseDups _) [("ifname", ifname), ("node", .str node)]
  have hb : ∀ k, k ∈ (mods ++ ["ipv4", "ipv6"]).eraseDups ↔ k = "ipv4" ∨ k = "ipv6" ∨ k ∈ mods := by
    intro k
    rw [List.mem_eraseDups, List.mem_append]
    simp only [List.mem_cons, List.not_mem_nil, or_false]
    constructor
    · rintro (h | h | h)
      · exact Or.inr (Or.inr h)
      · exact Or.inl h
      · exact Or.inr (Or.inl h)
    · rintro (h | h | h)
      · exact Or.inr (Or.inl h)
      · exact Or.inr (Or.inr h)
      · exact Or.inl h
  unfold ngbData
  refine ⟨?_, ?_, fun k h1 h2 => ?_⟩
  · rw [key, if_neg (by rw [hb]; simp [hm]), lookup_cons_ne _ _ (by decide), lookup_cons_self]
  · rw [key, if_neg (by rw [hb]; simp [hi]), lookup_cons_self]
  · have hd : [("ifname", ifname), ("node", Val.str node)].lookup k = none := by
      rw [lookup_cons_ne _ _ h2, lookup_cons_ne _ _ h1]; rfl
    rw [key, hd]
    simp only [hb]
    split
    · cases remote.lookup k with
      | none => rfl
      | some v => cases v <;> rfl
    · rfl

/-! ### Addresses -/

/-- C98: without errors an interface has no address, is unnumbered, or has an address with prefix length; link data and node data contain the same address. Addresses
are numbers, text or Booleans. -/
theorem C98_addresses (v w : Option Val) (ht : ∀ x, v = some x → (∃ b, x = .bool b) ∨ (∃ i, x = .int i) ∨ ∃ s, x = .str s) (h : liClean v = some (w, 0)) :
    liNode v = w ∧ (w = none ↔ v = none ∨ v = some (.bool false)) ∧ (w = none ∨ w = some (.bool true) ∨ ∃ s, w = some (.str s) ∧ '/' ∈ s.toList) := by
  cases v with
  | none => cases h; exact ⟨rfl, by simp, Or.inl rfl⟩
  | some x =>
    rcases ht x rfl with ⟨b, rfl⟩ | ⟨i, rfl⟩ | ⟨s, rfl⟩
    · cases b <;> cases h
      · exact ⟨rfl, by simp, Or.inl rfl⟩
      · exact ⟨rfl, by simp, Or.inr (Or.inl rfl)⟩
    · cases h
    · simp only [liClean, Option.some.injEq, Prod.mk.injEq] at h
      obtain ⟨rfl, h⟩ := h
      have hs : '/' ∈ s.toList := by
        by_cases hc : s.toList.contains '/' = true
        · simpa using hc
        · rw [if_neg hc] at h; cases h
      have hne : s ≠ "" := by rintro rfl; simp at hs
      refine ⟨?_, by simp, Or.inr (Or.inr ⟨s, rfl, hs⟩)⟩
      have : (Val.str s).truthy = true := by simp [Val.truthy, hne]
      simp only [liNode, this, if_true]

/-- C98: addresses that are rejected: numbers (host index without a prefix) and text without prefix length. -/
theorem C98_bad_addresses (v : Option Val) (ht : ∀ x, v = some x → (∃ b, x = .bool b) ∨ (∃ i, x = .int i) ∨ ∃ s, x = .str s) :
    ∃ w e, liClean v = some (w, e) ∧ (e ≠ 0 ↔ (∃ i, v = some (.int i)) ∨ ∃ s, v = some (.str s) ∧ '/' ∉ s.toList) := by
  cases v with
  | none => exact ⟨_, _, rfl, by simp⟩
  | some x =>
    rcases ht x rfl with ⟨b, rfl⟩ | ⟨i, rfl⟩ | ⟨s, rfl⟩
    · cases b <;> exact ⟨_, _, rfl, by simp⟩
    · exact ⟨_, _, rfl, by simp⟩
    · refine ⟨_, _, rfl, ?_⟩
      simp

/-- C98: unnumbered IPv4 interfaces have the loopback interface as their parent; other interfaces have no parent. -/
theorem C98_parent (v4 lbname lbv4 : Option Val) :
    (v4 ≠ some (.bool true) → parentIntf v4 lbname lbv4 = (none, none)) ∧
    (v4 = some (.bool true) → ∀ n a, lbname = some (.str n) → lbv4 = some (.str a) → n ≠ "" → a ≠ "" →
      parentIntf v4 lbname lbv4 = (some (.str n), some (.str a))) := by
  unfold parentIntf
  constructor
  · intro h
    rw [if_neg (by rw [ipUnnum_iff]; exact h)]
  · rintro rfl n a rfl rfl hn ha
    simp [ipUnnum, liNode, Val.truthy, hn, ha]

/-- C98: interface addressing is accepted exactly when every node supports the unnumbered interfaces it uses. -/
theorem C98_features (nodes : List FcNode) :
    fcErrors nodes = 0 ↔ ∀ n ∈ nodes, ∀ i ∈ n.intfs, (i.1 = some (.bool true) → n.f4 = true) ∧ (i.2 = some (.bool true) → n.f6 = true) := by
  have hs : ∀ {α : Type} (l : List α) (f : α → Nat), (l.map f).sum = 0 ↔ ∀ x ∈ l, f x = 0 := by
    intro α l f
    induction l with
    | nil => simp
    | cons a r ih => simp [ih]
  unfold fcErrors
  rw [hs]
  refine forall_congr' fun n => forall_congr' fun _ => ?_
  rw [hs]
  refine forall_congr' fun i => forall_congr' fun _ => ?_
  rw [Nat.add_eq_zero_iff, ← ipUnnum_iff, ← ipUnnum_iff]
  cases ipUnnum i.1 <;> cases ipUnnum i.2 <;> cases n.f4 <;> cases n.f6 <;> simp

/-- C98: the address family flag of a node is set when its loopback or one of its interfaces uses the address family. -/
theorem C98_node_af (lb : List String) (intfs : List (List String)) (af : List (String × Val)) (x : String) :
    (nodeAf lb intfs af).lookup x = if (x = "ipv4" ∨ x = "ipv6") ∧ (x ∈ lb ∨ ∃ i ∈ intfs, x ∈ i) then some (.bool true) else af.lookup x := by
  have hu : ∀ y, (lb.contains y || intfs.any (fun i => i.contains y)) = true ↔ y ∈ lb ∨ ∃ i ∈ intfs, y ∈ i := by
    intro y
    simp
  have step : ∀ (a : List (String × Val)) (y : String),
      (if (lb.contains y || intfs.any (fun i => i.contains y)) = true then setKey a y (.bool true) else a).lookup x =
        if x = y ∧ (y ∈ lb ∨ ∃ i ∈ intfs, y ∈ i) then some (.bool true) else a.lookup x := by
    intro a y
    by_cases h : (lb.contains y || intfs.any (fun i => i.contains y)) = true
    · rw [if_pos h, lookup_setKey]
      simp [(hu y).1 h]
    · rw [if_neg h, if_neg (fun hh => h ((hu y).2 hh.2))]
  unfold nodeAf
  simp only [List.foldl_cons, List.foldl_nil]
  rw [step, step]
  by_cases h4 : x = "ipv4"
  · subst h4
    simp
  · by_cases h6 : x = "ipv6"
    · subst h6
      simp
    · simp [h4, h6]

/-! ### Interface names -/

theorem stringLen_append (a b : String) : (a ++ b).length = a.length + b.length := String.length_append ..

/-- C98: a description of an interface starts with the node name; a description with a list of neighbors is not longer than the limit. -/
theorem C98_ifname (maxn maxl : Nat) (hm : 3 ≤ maxl) (node : String) (ngb : List String) (p2p : Bool) :
    (ngb = [] → createIfname maxn maxl node ngb p2p = node ++ " -> stub") ∧
    (∀ x, ngb = [x] → p2p = true → createIfname maxn maxl node ngb p2p = node ++ " -> " ++ x) ∧
    (2 ≤ ngb.length → (createIfname maxn maxl node ngb p2p).length ≤ maxl ∧
      (ngb.length ≤ maxn → (node ++ " -> [" ++ ",".intercalate ngb ++ "]").length < maxl →
        createIfname maxn maxl node ngb p2p = node ++ " -> [" ++ ",".intercalate ngb ++ "]")) := by
  refine ⟨by rintro rfl; rfl, by rintro x rfl rfl; rfl, fun h => ?_⟩
  match ngb, h with
  | x :: y :: r, _ =>
    unfold createIfname
    simp only [List.isEmpty_cons, Bool.false_and, Bool.false_eq_true, if_false]
    generalize hn : node ++ " -> [" ++ ",".intercalate ((x :: y :: r).take maxn) ++ (if (x :: y :: r).length ≤ maxn then "" else "...") ++ "]" = name
    constructor
    · split
      · rw [stringLen_append, String.length_ofList, List.length_take]
        have : ("..." : String).length = 3 := by decide
        omega
      · omega
    · intro hl hs
      rw [if_pos hl, List.take_of_length_le hl, String.append_empty] at hn
      rw [hn] at hs
      rw [if_neg (by omega), hn]

/-- C98: without a link name, the neighbors in an interface description are the other nodes on the link. -/
theorem C98_interface_name (maxn maxl : Nat) (linkName : Option String) (nodes : List String) (i : Nat) (h : i < nodes.length) :
    setIfName maxn maxl linkName nodes i = some (linkName.getD (createIfname maxn maxl nodes[i] (nodes.take i ++ nodes.drop (i + 1)) true)) := by
  unfold setIfName
  cases linkName with
  | some n => rfl
  | none => simp [List.getElem?_eq_getElem h, List.eraseIdx_eq_take_drop_succ]

/-! ### Gateways -/

theorem clgCopy_lookup (lg gw : List (String × Val)) (k : String) :
    (clgCopy lg gw).lookup k = if k = "ipv4" ∨ k = "ipv6" then (lg.lookup k).or (gw.lookup k) else gw.lookup k := by
  have step : ∀ (a : List (String × Val)) (x : String),
      (clgSet lg a x).lookup k = if k = x then (lg.lookup k).or (a.lookup k) else a.lookup k := by
    intro a x
    unfold clgSet
    by_cases hk : k = x
    · subst hk
      rw [if_pos rfl]
      cases lg.lookup k with
      | none => rfl
      | some v => simp [lookup_setKey]
    · rw [if_neg hk]
      cases lg.lookup x with
      | none => rfl
      | some v => simp [lookup_setKey, hk]
  unfold clgCopy
  simp only [List.foldl_cons, List.foldl_nil]
  rw [step, step]
  by_cases h4 : k = "ipv4"
  · subst h4
    simp
  · by_cases h6 : k = "ipv6"
    · subst h6
      simp
    · simp [h4, h6]

/-- C98: with gateway data on a link, hosts get the gateway data, nodes using the gateway module get gateway addresses (unless the gateway is turned off) and keep
other gateway parameters of the interface; nothing is changed on other nodes. -/
theorem C98_gateway (d : List (String × Val)) (host uses : Bool) (gw : Option GwVal) (hg : gw ≠ some .on) :
    ∃ o, clgIntf (.data d) host uses gw = some o ∧
      (host = true → o = some (.data d)) ∧
      (host = false → (uses = false ∨ gw = some .off) → o = gw) ∧
      (host = false → uses = true → gw ≠ some .off → ∀ k,
        GwParam o k = if k = "ipv4" ∨ k = "ipv6" then (d.lookup k).or (GwParam gw k) else GwParam gw k) := by
  cases host with
  | true => exact ⟨_, by cases uses <;> rfl, fun _ => rfl, fun h => (by cases h), fun h => (by cases h)⟩
  | false =>
    cases uses with
    | false => exact ⟨gw, rfl, fun h => (by cases h), fun _ _ => rfl, fun _ h => by cases h⟩
    | true =>
      match gw with
      | none =>
        refine ⟨_, rfl, fun h => (by cases h), fun _ h => (by rcases h with h | h <;> cases h), fun _ _ _ k => ?_⟩
        by_cases hc : ((d.lookup "ipv4").isSome || (d.lookup "ipv6").isSome) = true
        · simp only [hc, if_true]
          exact clgCopy_lookup d [] k
        · simp only [hc, Bool.false_eq_true, if_false]
          simp only [Bool.or_eq_true, not_or, Bool.not_eq_true, Option.isSome_eq_false_iff, Option.isNone_iff_eq_none] at hc
          split
          · rename_i h
            rcases h with rfl | rfl
            · rw [hc.1]; rfl
            · rw [hc.2]; rfl
          · rfl
      | some .off => exact ⟨_, rfl, fun h => (by cases h), fun _ _ => rfl, fun _ _ h => absurd rfl h⟩
      | some .on => exact absurd rfl hg
      | some (.data g) =>
        exact ⟨_, rfl, fun h => (by cases h), fun _ h => (by rcases h with h | h <;> cases h), fun _ _ _ k => clgCopy_lookup d g k⟩

/-- C98: after successful gateway processing, no interface of a link has an unfinished gateway setting. -/
theorem C98_gateway_ready (pe : List (String × Val) → Nat) (glob : List (String × Val)) (hglob : glob ≠ []) (lg : Option GwVal) (ifs : List GwIntf)
    (he : (gwLink pe glob lg ifs).errors = 0) (g : GwVal) (hg : (gwLink pe glob lg ifs).gw = some g) :
    (∃ d, g = .data d) ∧ ∀ i ∈ (gwLink pe glob lg ifs).ifs, i.gw ≠ some .on := by
  have hgl : glob.isEmpty = false := by cases glob <;> simp_all
  have fin : ∀ x is w e, (gwFinish x is w e).errors = 0 → (gwFinish x is w e).gw = some g →
      (∃ d, g = .data d) ∧ ∀ i ∈ (gwFinish x is w e).ifs, i.gw ≠ some .on := by
    intro x is w e h1 h2
    rw [gwFinish_gw] at h2
    refine ⟨⟨x, (Option.some.inj h2).symm⟩, ?_⟩
    unfold gwFinish at h1 ⊢
    split at h1
    · rename_i hc
      rw [if_pos hc]
      intro i hi
      simp only [List.mem_map] at hi
      obtain ⟨j, hj, rfl⟩ := hi
      unfold gwStep3
      split
      · simp
      · assumption
    · cases h1
  unfold gwLink at he hg ⊢
  simp only [hgl, Bool.false_eq_true, if_false] at he hg ⊢
  generalize hr : gwStep1 lg ifs = r at *
  cases hr1 : r.1 with
  | none => rw [hr1] at hg; cases hg
  | some v =>
    rw [hr1] at he hg
    cases v with
    | on => exact fin _ _ _ _ he hg
    | off => cases hg
    | data d => exact fin _ _ _ _ he hg

example : intfData [("mtu", .int 1500), ("ospf", .dict [("area", .int 1)])] ["mtu", "ospf"] [("node", .str "a"), ("mtu", .int 9000)] =
    [("node", .str "a"), ("mtu", .int 9000), ("ospf", .dict [("area", .int 1)])] := by rfl
example : createIfname 5 255 "a" ["b", "c"] true = "a -> [b,c]" := by decide +kernel
example : (clgIntf (.data [("id", .int 1), ("ipv4", .str "10.0.0.1/24")]) false true (some (.data [("protocol", .str "vrrp")]))).isSome = true := rfl
example : fcErrors [⟨true, false, [(some (.bool true), none)]⟩] = 0 := by decide +kernel

/-- C98 defect: when the gateway data are missing, a node using the gateway module on a link with `gateway: True` crashes the transformation. -/
theorem C98_gateway_crash : clgIntf .on false true none = none := rfl

end Netlab
