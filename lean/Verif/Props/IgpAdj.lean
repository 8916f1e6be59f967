import Verif.Spec.IgpAdj
import Verif.Props.LinkIntf
import Verif.Props.ModHooks
import Verif.Props.Igp
/-!
# Both ends of a link agree on routing protocol adjacency (C125)
-/

namespace Netlab

open Netlab.Spec

theorem adjData_lookup (e : AdjEnv) (link : List (String × Val)) (x : AdjEnd) (k : String) :
    (adjData e link x).lookup k = if ((k ∈ e.linkAttrs ∨ k ∈ e.internal) ∧ k ∉ e.noProp ∨ k ∈ (e.nodes x.node).modules) ∧ k ∉ e.noMod
      then CopiedAttr (link.lookup k) (x.data.lookup k) else x.data.lookup k := by
  obtain ⟨h1, h2⟩ := C98_propagated_attributes e.linkAttrs e.internal e.noProp (e.nodes x.node).modules e.noMod k
  unfold adjData
  rw [C98_propagated _ _ h1]
  simp only [h2]

theorem copied_none (l : Option Val) : CopiedAttr l none = l := by
  cases l with
  | none => rfl
  | some v => cases v <;> rfl

theorem adjData_role {e : AdjEnv} (hd : AdjDefaults e) {link : List (String × Val)} {x : AdjEnd} (hx : PlainEnd e x) :
    (adjData e link x).lookup "role" = link.lookup "role" := by
  rw [adjData_lookup, if_pos ⟨.inl ⟨List.mem_append.1 hd.role.1, hd.role.2.1⟩, hd.role.2.2⟩, hx.role, copied_none]

theorem adjData_type {e : AdjEnv} (hd : AdjDefaults e) {link : List (String × Val)} {x : AdjEnd} (hx : PlainEnd e x) :
    (adjData e link x).lookup "type" = link.lookup "type" := by
  rw [adjData_lookup, if_pos ⟨.inl ⟨List.mem_append.1 hd.type.1, hd.type.2.1⟩, hd.type.2.2⟩, hx.type, copied_none]

theorem adjData_proto {e : AdjEnv} (hd : AdjDefaults e) {link : List (String × Val)} {x : AdjEnd} (hx : PlainEnd e x) :
    (adjData e link x).lookup e.proto = link.lookup e.proto := by
  rw [adjData_lookup, if_pos ⟨.inr hx.runs, hd.proto⟩, hx.proto, copied_none]

theorem adjData_addr {e : AdjEnv} {link : List (String × Val)} {x : AdjEnd} {f : String} (h : x.data.lookup f ≠ none) :
    ((adjData e link x).lookup f).isSome = true := by
  rw [adjData_lookup]
  obtain ⟨v, hv⟩ := Option.ne_none_iff_exists'.1 h
  rw [hv]
  split
  · cases hl : link.lookup f with
    | none => rfl
    | some w => cases w <;> cases v <;> rfl
  · rfl

theorem mergeDict_nil (a : List (String × Val)) : mergeDict a [] = a := by simp [mergeDict]

/-- Routing protocol attributes of an interface: attributes of the link, then copied attributes of the node -/
theorem adjProto_link {e : AdjEnv} (hd : AdjDefaults e) {link d : List (String × Val)} (hl : LinkIgp e link d) (hn : (d.map (·.1)).Nodup) {x : AdjEnd} (hx : PlainEnd e x) :
    (adjProto e link x = none ∨ ∃ r, adjProto e link x = some (.dict r)) ∧
    ∀ k, protoAttr e link x k = mergedOpt (if k ∈ e.nodeCopy then (e.nodes x.node).igp.lookup k else none) (d.lookup k) := by
  have hm : ∀ o : Option Val, mergedOpt none o = o := by intro o; cases o <;> rfl
  have hp : adjProto e link x = if e.nodeCopy.isEmpty then link.lookup e.proto else (cnIntf (cnPick e.nodeCopy (e.nodes x.node).igp) [] [] none (link.lookup e.proto)).getD none := by
    unfold adjProto
    rw [adjData_proto hd hx]
  have hk : ∀ k, (if k ∈ e.nodeCopy then (e.nodes x.node).igp.lookup k else none) = (cnPick e.nodeCopy (e.nodes x.node).igp).lookup k := fun k => (cnPick_lookup _ _ _).symm
  simp only [hk]
  unfold protoAttr
  rw [hp]
  by_cases he : e.nodeCopy.isEmpty = true
  · have hc : cnPick e.nodeCopy (e.nodes x.node).igp = [] := by
      rw [List.isEmpty_iff] at he
      simp [cnPick, he]
    rw [if_pos he, hc]
    rcases hl with h | ⟨h, rfl⟩ <;> rw [h]
    · exact ⟨.inr ⟨_, rfl⟩, fun k => by simp [hm]⟩
    · exact ⟨.inl rfl, fun k => by simp [mergedOpt]⟩
  · rw [if_neg he]
    generalize cnPick e.nodeCopy (e.nodes x.node).igp = ca
    rcases hl with h | ⟨h, rfl⟩ <;> rw [h]
    · simp only [cnIntf, cnVrf, List.isEmpty_nil, Bool.and_true]
      by_cases hca : ca.isEmpty = true
      · rw [if_pos hca]
        rw [List.isEmpty_iff] at hca
        exact ⟨.inr ⟨_, rfl⟩, fun k => by simp [hm, hca]⟩
      · rw [if_neg hca]
        refine ⟨.inr ⟨_, rfl⟩, fun k => ?_⟩
        simp only [Option.getD_some, mergeDict_nil]
        rw [lookup_mergeDict _ _ hn]
    · simp only [cnIntf, cnVrf, List.isEmpty_nil, Bool.and_true]
      by_cases hca : ca.isEmpty = true
      · rw [if_pos hca]
        rw [List.isEmpty_iff] at hca
        exact ⟨.inl rfl, fun k => by simp [hca, mergedOpt]⟩
      · rw [if_neg hca]
        refine ⟨.inr ⟨_, rfl⟩, fun k => ?_⟩
        simp only [Option.getD_some, mergeDict_nil]
        cases ca.lookup k <;> rfl

/-- Routing protocol data used by the routing protocol module -/
def adjWanted (e : AdjEnv) (link : List (String × Val)) (x : AdjEnd) : IgpData where
  passive := (protoAttr e link x "passive").map Val.truthy
  ntype := (protoAttr e link x "network_type").map fun t => match t with
    | .str s => if s = "" then none else some s
    | _ => none

theorem adjResult_link {e : AdjEnv} (hd : AdjDefaults e) {link d : List (String × Val)} (hl : LinkIgp e link d) (hn : (d.map (·.1)).Nodup)
    {ends : List AdjEnd} {i : Nat} {x : AdjEnd} (hi : ends[i]? = some x) (hx : PlainEnd e x) (ha : HasAddress x) :
    ∃ o, adjResult e link ends i = some o ∧ ((adjStr link "role" = "external" ∧ o.igp = .missing) ∨ (adjStr link "role" ≠ "external" ∧ ∃ s : IgpIntf,
      s.role = adjStr link "role" ∧ s.type = adjStr link "type" ∧ s.ngb = (ends.eraseIdx i).map (·.node) ∧
      o.igp = .data { passive := some (igpPassive (adjRuns e) s (adjWanted e link x)), ntype := (igpNetworkType e.allowed s (adjWanted e link x)).1 })) := by
  obtain ⟨h1, -⟩ := adjProto_link hd hl hn hx
  have hat : ∃ at', adjAttr (adjProto e link x) = some at' ∧ at' ≠ .off ∧ (match at' with | .data d => d | _ => ({} : IgpData)) = adjWanted e link x := by
    unfold adjWanted protoAttr
    rcases h1 with h | ⟨r, h⟩ <;> rw [h]
    · exact ⟨.missing, rfl, by simp, rfl⟩
    · exact ⟨_, rfl, by simp, rfl⟩
  obtain ⟨at', e1, e2, e3⟩ := hat
  have hr : adjStr (adjData e link x) "role" = adjStr link "role" := by unfold adjStr; rw [adjData_role hd hx]
  have ht : adjStr (adjData e link x) "type" = adjStr link "type" := by unfold adjStr; rw [adjData_type hd hx]
  unfold adjResult adjIntf
  rw [hi]
  dsimp only
  rw [e1, hr, ht]
  refine ⟨_, rfl, ?_⟩
  dsimp only
  have haf : ["ipv4", "ipv6"].any (fun a => (["ipv4", "ipv6"].filter fun f => ((adjData e link x).lookup f).isSome).contains a) = true := by
    obtain ⟨f, hf, hl⟩ := ha
    rw [List.any_eq_true]
    refine ⟨f, by rcases hf with rfl | rfl <;> simp, ?_⟩
    rw [List.contains_iff_mem, List.mem_filter]
    exact ⟨by rcases hf with rfl | rfl <;> simp, adjData_addr hl⟩
  generalize hs : ({ name := x.node, role := adjStr link "role", type := adjStr link "type", af := ["ipv4", "ipv6"].filter fun f => ((adjData e link x).lookup f).isSome, ngb := (ends.eraseIdx i).map (·.node), igp := at' } : IgpIntf) = s
  have s1 : s.role = adjStr link "role" := by rw [← hs]
  have s2 : s.type = adjStr link "type" := by rw [← hs]
  have s3 : s.ngb = (ends.eraseIdx i).map (·.node) := by rw [← hs]
  have s4 : s.igp = at' := by rw [← hs]
  have s5 : s.af = ["ipv4", "ipv6"].filter fun f => ((adjData e link x).lookup f).isSome := by rw [← hs]
  by_cases hx : adjStr link "role" = "external"
  · left
    refine ⟨hx, ?_⟩
    have : igpExternal s = true := by simp [igpExternal, s1, hx]
    unfold igpIntf removeUnaddressed
    rw [if_pos this]
    dsimp only
    split <;> rfl
  · right
    refine ⟨hx, s, s1, s2, s3, ?_⟩
    have hne : ¬ igpExternal s = true := by simp [igpExternal, s1, hx, s4, e2]
    unfold igpIntf removeUnaddressed
    rw [if_neg hne]
    dsimp only
    rw [s5, if_pos (by
      rw [List.any_eq_true] at haf ⊢
      obtain ⟨a, b, c⟩ := haf
      exact ⟨a, b, by rw [c]; rfl⟩)]
    dsimp only
    rw [s4]
    rw [← e3]
    cases at' <;> rfl

/-- A neighbor that runs the protocol -/
theorem not_true_stub {e : AdjEnv} {ends : List AdjEnd} {i j : Nat} {y : AdjEnd} (hij : i ≠ j) (hj : ends[j]? = some y) (hy : PlainEnd e y) {s : IgpIntf}
    (hs : s.ngb = (ends.eraseIdx i).map (·.node)) : isTrueStub (adjRuns e) s = false := by
  have hm : y ∈ ends.eraseIdx i := by
    rw [List.mem_eraseIdx_iff_getElem?]
    exact ⟨j, Ne.symm hij, hj⟩
  unfold isTrueStub
  rw [hs, List.all_eq_false]
  refine ⟨y.node, List.mem_map.2 ⟨y, hm, rfl⟩, ?_⟩
  have : adjRuns e y.node = true := by unfold adjRuns; rw [List.contains_iff_mem]; exact hy.runs
  simp [this]

theorem passive_eq {runs : String → Bool} {s s' : IgpIntf} {w : IgpData} (hr : s.role = s'.role) (ht : s.type = s'.type)
    (hs : isTrueStub runs s = false) (hs' : isTrueStub runs s' = false) : igpPassive runs s w = igpPassive runs s' w := by
  unfold igpPassive
  rw [hr, ht, hs, hs']

theorem ntype_eq {allowed : List String} {s s' : IgpIntf} {w : IgpData} (hl : s.ngb.length = s'.ngb.length) :
    igpNetworkType allowed s w = igpNetworkType allowed s' w := by
  unfold igpNetworkType
  rw [hl]

/-- **C125**: two nodes attached to a link run the routing protocol on both ends or on none of them, both interfaces are passive or none of them is, and they have the same network type,
when interfaces have no settings of their own and nodes have the same default settings. -/
theorem C125_same (e : AdjEnv) (hd : AdjDefaults e) (link d : List (String × Val)) (hl : LinkIgp e link d) (hn : (d.map (·.1)).Nodup) (ends : List AdjEnd) (i j : Nat) (hij : i ≠ j)
    (x y : AdjEnd) (hi : ends[i]? = some x) (hj : ends[j]? = some y) (hx : PlainEnd e x) (hy : PlainEnd e y) (ax : HasAddress x) (ay : HasAddress y)
    (hs : ∀ k, k = "passive" ∨ k = "network_type" → k ∈ e.nodeCopy → (e.nodes x.node).igp.lookup k = (e.nodes y.node).igp.lookup k) :
    ∃ a b, adjResult e link ends i = some a ∧ adjResult e link ends j = some b ∧ a.igp = b.igp := by
  obtain ⟨a, h1, h2⟩ := adjResult_link hd hl hn hi hx ax
  obtain ⟨b, k1, k2⟩ := adjResult_link hd hl hn hj hy ay
  refine ⟨a, b, h1, k1, ?_⟩
  rcases h2 with ⟨hr, h2⟩ | ⟨hr, s, s1, s2, s3, s4⟩ <;> rcases k2 with ⟨hr', k2⟩ | ⟨hr', s', s1', s2', s3', s4'⟩
  · rw [h2, k2]
  · exact absurd hr hr'
  · exact absurd hr' hr
  · have hw : adjWanted e link x = adjWanted e link y := by
      have key : ∀ k, k = "passive" ∨ k = "network_type" → protoAttr e link x k = protoAttr e link y k := by
        intro k hk
        rw [(adjProto_link hd hl hn hx).2, (adjProto_link hd hl hn hy).2]
        by_cases hc : k ∈ e.nodeCopy
        · rw [if_pos hc, if_pos hc, hs k hk hc]
        · rw [if_neg hc, if_neg hc]
      unfold adjWanted
      rw [key _ (.inl rfl), key _ (.inr rfl)]
    have li : i < ends.length := (List.getElem?_eq_some_iff.1 hi).1
    have lj : j < ends.length := (List.getElem?_eq_some_iff.1 hj).1
    have t1 := passive_eq (w := adjWanted e link y) (s1.trans s1'.symm) (s2.trans s2'.symm) (not_true_stub hij hj hy s3) (not_true_stub (Ne.symm hij) hi hx s3')
    have t2 := ntype_eq (allowed := e.allowed) (w := adjWanted e link y) (s := s) (s' := s') (by rw [s3, s3', List.length_map, List.length_map, List.length_eraseIdx_of_lt li, List.length_eraseIdx_of_lt lj])
    rw [s4, s4', hw, t1, t2]

/-- **C125**: the routing protocol runs on an interface to another node running it unless the link is external; the interface is passive only if the link is passive,
and the network type is the one set on the link, or point-to-point for links with two nodes. -/
theorem C125_interface (e : AdjEnv) (hd : AdjDefaults e) (link d : List (String × Val)) (hl : LinkIgp e link d) (hn : (d.map (·.1)).Nodup) (ends : List AdjEnd) (i j : Nat) (hij : i ≠ j)
    (x y : AdjEnd) (hi : ends[i]? = some x) (hj : ends[j]? = some y) (hx : PlainEnd e x) (hy : PlainEnd e y) (ax : HasAddress x)
    (hp : NoNodeDefault e x.node "passive") (ht : NoNodeDefault e x.node "network_type") :
    ∃ a, adjResult e link ends i = some a ∧
    (link.lookup "role" = some (.str "external") → a.igp = .missing) ∧
    (link.lookup "role" ≠ some (.str "external") → ∃ p t, a.igp = .data { passive := some p, ntype := t } ∧
      (p = true ↔ (∃ v, d.lookup "passive" = some v ∧ v.truthy = true) ∨
        d.lookup "passive" = none ∧ (link.lookup "role" = some (.str "passive") ∨ link.lookup "type" = some (.str "stub"))) ∧
      (∀ s, d.lookup "network_type" = some (.str s) → s ≠ "" → t = some (some s)) ∧
      (d.lookup "network_type" = none → t = if ends.length = 2 then some (some "point-to-point") else none)) := by
  have hstr : ∀ k s, s ≠ "" → (adjStr link k = s ↔ link.lookup k = some (.str s)) := by
    intro k s hs
    unfold adjStr
    cases hv : link.lookup k with
    | none => simp [Ne.symm hs]
    | some v => cases v <;> simp [Ne.symm hs]
  have hdef : ∀ k, NoNodeDefault e x.node k → protoAttr e link x k = d.lookup k := by
    intro k hk
    rw [(adjProto_link hd hl hn hx).2]
    have : (if k ∈ e.nodeCopy then (e.nodes x.node).igp.lookup k else none) = none := by
      rcases hk with hk | hk
      · rw [if_neg hk]
      · rw [hk]; split <;> rfl
    rw [this]
    cases d.lookup k <;> rfl
  obtain ⟨a, h1, h2⟩ := adjResult_link hd hl hn hi hx ax
  refine ⟨a, h1, ?_, ?_⟩
  · intro hr
    rcases h2 with ⟨-, h2⟩ | ⟨hr', -⟩
    · exact h2
    · exact absurd ((hstr "role" "external" (by decide)).2 hr) hr'
  · intro hr
    rcases h2 with ⟨hr', -⟩ | ⟨hr', s, s1, s2, s3, s4⟩
    · exact absurd ((hstr "role" "external" (by decide)).1 hr') hr
    · have w1 : (adjWanted e link x).passive = (d.lookup "passive").map Val.truthy := by unfold adjWanted; rw [hdef _ hp]
      have w2 : (adjWanted e link x).ntype = (d.lookup "network_type").map fun t => match t with
          | .str s => if s = "" then none else some s
          | _ => none := by unfold adjWanted; rw [hdef _ ht]
      have li : i < ends.length := (List.getElem?_eq_some_iff.1 hi).1
      refine ⟨_, _, s4, ?_, ?_, ?_⟩
      · unfold igpPassive
        rw [w1, not_true_stub hij hj hy s3, s1, s2]
        cases hpv : d.lookup "passive" with
        | some v => simp
        | none =>
          simp only [Option.map_none, reduceCtorEq, false_and, exists_false, true_and, false_or]
          rw [← hstr "role" "passive" (by decide), ← hstr "type" "stub" (by decide)]
          by_cases c1 : adjStr link "role" = "passive" <;> by_cases c2 : adjStr link "type" = "stub" <;> simp [c1, c2, hr']
      · intro t htv hne
        unfold igpNetworkType
        rw [w2, htv]
        simp only [Option.map_some, if_neg hne]
        rw [if_neg (by simpa using hne)]
        split <;> rfl
      · intro htv
        unfold igpNetworkType
        rw [w2, htv, s3]
        simp only [Option.map_none, List.length_map, List.length_eraseIdx_of_lt li, beq_iff_eq]
        by_cases hlen : ends.length = 2
        · rw [if_pos hlen, if_pos (by omega)]
        · rw [if_neg hlen, if_neg (by omega)]

/-- **C125**: a routing protocol disabled on a link is not used on any of its interfaces. -/
theorem C125_disabled (e : AdjEnv) (hd : AdjDefaults e) (link : List (String × Val)) (hl : link.lookup e.proto = some (.bool false)) (ends : List AdjEnd) (i : Nat)
    (x : AdjEnd) (hi : ends[i]? = some x) (hx : PlainEnd e x) :
    ∃ a, adjResult e link ends i = some a ∧ a.igp = .missing := by
  have hp : adjProto e link x = some (.bool false) := by
    unfold adjProto
    rw [adjData_proto hd hx, hl]
    split <;> rfl
  unfold adjResult adjIntf
  rw [hi]
  dsimp only
  rw [hp]
  refine ⟨_, rfl, ?_⟩
  dsimp only
  have hr : ∀ s : IgpIntf, s.igp = .off → (removeUnaddressed (igpIntf (adjRuns e) e.allowed s).1).igp = .missing := by
    intro s hs
    have he : igpExternal s = true := by simp [igpExternal, hs]
    unfold igpIntf removeUnaddressed
    rw [if_pos he]
    dsimp only
    split <;> rfl
  exact hr _ rfl

/-- **C125**: the ends of a link have the same value of a routing protocol attribute (area, timers, password) when it is set on the link, or when nodes have the same default value. -/
theorem C125_attributes (e : AdjEnv) (hd : AdjDefaults e) (link d : List (String × Val)) (hl : LinkIgp e link d) (hn : (d.map (·.1)).Nodup)
    (x y : AdjEnd) (hx : PlainEnd e x) (hy : PlainEnd e y) (k : String) :
    (∀ v, d.lookup k = some v → v.isDict = false → protoAttr e link x k = some v ∧ protoAttr e link y k = some v) ∧
    ((e.nodes x.node).igp.lookup k = (e.nodes y.node).igp.lookup k → protoAttr e link x k = protoAttr e link y k) ∧
    (d.lookup k = none → NoNodeDefault e x.node k → protoAttr e link x k = none) := by
  rw [(adjProto_link hd hl hn hx).2, (adjProto_link hd hl hn hy).2]
  refine ⟨fun v hv hdict => ?_, fun h => by rw [h], fun h1 h2 => ?_⟩
  · have hm : ∀ o : Option Val, mergedOpt o (some v) = some v := by
      intro o
      cases o with
      | none => rfl
      | some w => cases w <;> cases v <;> simp_all [mergedOpt, mergeVal, Val.isDict]
    rw [hv, hm, hm]
    exact ⟨rfl, rfl⟩
  · have : (if k ∈ e.nodeCopy then (e.nodes x.node).igp.lookup k else none) = none := by
      rcases h2 with h2 | h2
      · rw [if_neg h2]
      · rw [h2]; split <;> rfl
    rw [this, h1]
    rfl

namespace AdjEx

def nodes (n : String) : AdjNode :=
  if n = "h" then { modules := [] }
  else if n = "d" then { modules := ["ospf"], igp := [("area", .str "0.0.0.1")] }
  else { modules := ["ospf", "bgp"], igp := [("area", .str "0.0.0.0"), ("router_id", .str "10.0.0.1")] }

def env : AdjEnv where
  linkAttrs := ["role", "type", "mtu", "prefix"]
  noProp := ["prefix"]
  noMod := ["vlan"]
  nodeCopy := ["area", "passive", "timers"]
  proto := "ospf"
  allowed := ["point-to-point", "broadcast"]
  nodes := nodes

def link : List (String × Val) := [("type", .str "lan"), ("role", .str "stub"), ("ospf", .dict [("cost", .int 10)])]
def ends : List AdjEnd := [⟨"a", [("ipv4", .str "172.16.0.1/24")]⟩, ⟨"b", [("ipv4", .str "172.16.0.2/24")]⟩, ⟨"h", [("ipv4", .str "172.16.0.3/24")]⟩]

end AdjEx

/-- **C125** (limit): nodes with different default areas use different areas on the same link, and no error is reported. -/
theorem C125_area_mismatch :
    protoAttr AdjEx.env [("type", .str "p2p")] ⟨"a", [("ipv4", .str "10.1.0.1/30")]⟩ "area" = some (.str "0.0.0.0") ∧
    protoAttr AdjEx.env [("type", .str "p2p")] ⟨"d", [("ipv4", .str "10.1.0.2/30")]⟩ "area" = some (.str "0.0.0.1") := by
  constructor <;> decide +kernel

theorem AdjEx.defaults : AdjDefaults AdjEx.env := by
  refine ⟨?_, ?_, ?_⟩ <;> simp [AdjEx.env]

theorem AdjEx.plain (n a : String) (h : n = "a" ∨ n = "b") : PlainEnd AdjEx.env ⟨n, [("ipv4", .str a)]⟩ := by
  refine ⟨?_, by simp [List.lookup], by simp [List.lookup], by simp [List.lookup, AdjEx.env]⟩
  rcases h with rfl | rfl <;> simp [AdjEx.env, AdjEx.nodes]

/-- A stub LAN with two routers and a host: the interfaces of routers are not passive. -/
example : ∃ a b, adjResult AdjEx.env AdjEx.link AdjEx.ends 0 = some a ∧ adjResult AdjEx.env AdjEx.link AdjEx.ends 1 = some b ∧ a.igp = b.igp :=
  C125_same AdjEx.env AdjEx.defaults AdjEx.link [("cost", .int 10)] (.inl (by decide +kernel)) (by simp) AdjEx.ends 0 1 (by decide) _ _ rfl rfl
    (AdjEx.plain _ _ (.inl rfl)) (AdjEx.plain _ _ (.inr rfl)) ⟨"ipv4", .inl rfl, by decide +kernel⟩ ⟨"ipv4", .inl rfl, by decide +kernel⟩
    (fun k _ _ => rfl)

example : (adjResult AdjEx.env AdjEx.link AdjEx.ends 0).map (·.igp) = some (.data { passive := some false, ntype := none }) := by decide +kernel
example : (adjResult AdjEx.env AdjEx.link (AdjEx.ends.drop 1) 0).map (·.igp) = some (.data { passive := some true, ntype := some (some "point-to-point") }) := by decide +kernel

end Netlab
