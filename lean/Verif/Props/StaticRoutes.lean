import Mathlib.Data.List.Forall2
import Verif.Spec.StaticRoutes
/-!
# C60: static routes; C61: static routes of hosts
-/

namespace Netlab
open Netlab.Spec

theorem nhVrf_eq (r : SrRoute) (n : SrNext) : r.nhVrf n = nextHopVrf r n := by
  unfold SrRoute.nhVrf nextHopVrf
  cases n.vrf <;> rfl

@[simp] theorem Dual.get_of {α : Type} (f : Bool → Option α) (af : Bool) : (Dual.of f).get af = f af := by
  cases af <;> rfl

theorem Dual.isEmpty_iff {α : Type} (d : Dual α) : d.isEmpty = true ↔ ∀ af, d.get af = none := by
  obtain ⟨a, b⟩ := d
  simp only [Dual.isEmpty, Bool.and_eq_true, Option.isNone_iff_eq_none]
  constructor
  · rintro ⟨rfl, rfl⟩ af
    cases af <;> rfl
  · intro h
    exact ⟨h false, h true⟩

theorem get_strAddrs {d : Dual SrAddr} {af : Bool} {s : String} :
    (strAddrs d).get af = some s ↔ d.get af = some (.str s) := by
  simp only [strAddrs, Dual.get_of]
  cases h : d.get af with
  | none => simp
  | some x => cases x <;> simp

theorem get_hostAddrs {env : SrEnv} {d : Dual SrAddr} {af : Bool} {s : String} :
    (hostAddrs env d).get af = some (.str s) ↔ ∃ t, d.get af = some (.str t) ∧ s = env.host t := by
  simp only [hostAddrs, Dual.get_of]
  cases h : d.get af with
  | none => simp
  | some x => cases x <;> simp [eq_comm]

theorem get_asAddrs {d : Dual String} {af : Bool} {a : SrAddr} :
    (asAddrs d).get af = some a ↔ ∃ s, d.get af = some s ∧ a = .str s := by
  simp only [asAddrs, Dual.get_of]
  cases h : d.get af with
  | none => simp
  | some x => simp [eq_comm]

theorem asAddrs_none {d : Dual String} {af : Bool} : (asAddrs d).get af = none ↔ d.get af = none := by
  simp [asAddrs]

theorem nexthopData_spec {n : SrNext} {a : Dual SrAddr} {i : SrIntf} {e : NhEntry} :
    nexthopData n a i = some e ↔ (∃ af s, a.get af = some (.str s)) ∧ e = ⟨strAddrs a, i.name, n.vrf⟩ := by
  simp only [nexthopData]
  by_cases h : (strAddrs a).isEmpty = true
  · rw [if_pos h]
    have h2 := (Dual.isEmpty_iff _).mp h
    simp only [reduceCtorEq, false_iff, not_and]
    rintro ⟨af, s, hs⟩
    rw [← get_strAddrs, h2 af] at hs
    cases hs
  · rw [if_neg h]
    constructor
    · intro he
      refine ⟨?_, (Option.some.inj he).symm⟩
      rw [Dual.isEmpty_iff] at h
      have : ∃ af, (strAddrs a).get af ≠ none := by
        rcases Classical.em (∃ af, (strAddrs a).get af ≠ none) with h2 | h2
        · exact h2
        · exact absurd (fun af => Classical.byContradiction (fun h3 => h2 ⟨af, h3⟩)) h
      obtain ⟨af, haf⟩ := this
      cases hs : (strAddrs a).get af with
      | none => exact absurd hs haf
      | some s => exact ⟨af, s, get_strAddrs.mp hs⟩
    · rintro ⟨_, rfl⟩
      rfl

/-! ### Next-hop nodes -/

theorem mem_nodeHops {env : SrEnv} {r : SrRoute} {n : SrNext} {node : String} {i : SrIntf} {e : NhEntry} :
    e ∈ nodeHops env r n node i ↔ i.vrf = r.nhVrf n ∧
      ∃ g ∈ i.neighbors, g.node = node ∧ (∃ af s, g.addr.get af = some (.str s)) ∧
        e = ⟨strAddrs (hostAddrs env g.addr), i.name, n.vrf⟩ := by
  unfold nodeHops
  by_cases h : i.vrf = r.nhVrf n
  · rw [if_pos h, List.mem_filterMap]
    constructor
    · rintro ⟨g, hg, he⟩
      by_cases hn : g.node = node
      · rw [if_pos hn] at he
        obtain ⟨⟨af, s, hs⟩, he⟩ := nexthopData_spec.mp he
        obtain ⟨t, ht, _⟩ := get_hostAddrs.mp hs
        exact ⟨h, g, hg, hn, ⟨af, t, ht⟩, he⟩
      · rw [if_neg hn] at he
        cases he
    · rintro ⟨_, g, hg, hn, ⟨af, s, hs⟩, he⟩
      refine ⟨g, hg, ?_⟩
      rw [if_pos hn]
      exact nexthopData_spec.mpr ⟨⟨af, env.host s, get_hostAddrs.mpr ⟨s, hs, rfl⟩⟩, he⟩
  · rw [if_neg h]
    simp [h]

theorem nodeHops_adjacent {env : SrEnv} {r : SrRoute} {n : SrNext} {node : String} {ifs : List SrIntf} {af : Bool}
    {a ifname : String} :
    (∃ e ∈ ifs.flatMap (nodeHops env r n node), e.addr.get af = some a ∧ e.intf = ifname) ↔
      Adjacent env ifs (r.nhVrf n) node af a ifname := by
  simp only [List.mem_flatMap, mem_nodeHops, Adjacent]
  constructor
  · rintro ⟨e, ⟨i, hi, hv, g, hg, hn, _, rfl⟩, ha, rfl⟩
    obtain ⟨s, hs, rfl⟩ := get_hostAddrs.mp (get_strAddrs.mp ha)
    exact ⟨i, hi, hv, rfl, g, hg, hn, s, hs, rfl⟩
  · rintro ⟨i, hi, hv, rfl, g, hg, hn, s, hs, rfl⟩
    exact ⟨_, ⟨i, hi, hv, g, hg, hn, ⟨af, s, hs⟩, rfl⟩, get_strAddrs.mpr (get_hostAddrs.mpr ⟨s, hs, rfl⟩), rfl⟩

/-! ### Final routes -/

theorem mem_expandAf {env : SrEnv} {r : SrRoute} {l : List NhEntry} {af : Bool} {f : SrFinal}
    (h : f ∈ expandAf env r l af) :
    ∃ p e, r.dst.get af = some p ∧ e ∈ l ∧ (e.addr.get af).isSome ∧
      f.dst = Dual.of (fun f => if f = af then some p else none) ∧ f.vrf = r.vrf ∧ f.addr = asAddrs e.addr ∧
      f.intf = some e.intf ∧ f.nhVrf = e.vrf ∧ f.idx < env.maxNexthop := by
  unfold expandAf at h
  cases hp : r.dst.get af with
  | none => rw [hp] at h; cases h
  | some p =>
    rw [hp] at h
    obtain ⟨x, hx, rfl⟩ := List.mem_map.mp h
    obtain ⟨e, k⟩ := x
    have h1 := List.mem_zipIdx hx
    have he : e ∈ (l.filter (fun e => (e.addr.get af).isSome)).take env.maxNexthop := by
      rw [h1.2.2]
      exact List.getElem_mem _
    have h2 := List.mem_filter.mp (List.mem_of_mem_take he)
    refine ⟨p, e, rfl, h2.1, by simpa using h2.2, rfl, rfl, rfl, rfl, rfl, ?_⟩
    have := h1.2.1
    simp only [List.length_take] at this
    simp only
    omega

theorem expandAf_mem {env : SrEnv} {r : SrRoute} {l : List NhEntry} {af : Bool} {p : String} (hp : r.dst.get af = some p)
    {e : NhEntry} (he : e ∈ l) (hs : (e.addr.get af).isSome)
    (hm : (l.filter (fun e => (e.addr.get af).isSome)).length ≤ env.maxNexthop) :
    ∃ f ∈ expandAf env r l af, f.dst = Dual.of (fun f => if f = af then some p else none) ∧ f.addr = asAddrs e.addr ∧
      f.intf = some e.intf := by
  unfold expandAf
  rw [hp]
  have h1 : e ∈ (l.filter (fun e => (e.addr.get af).isSome)).take env.maxNexthop := by
    rw [List.take_of_length_le hm]
    exact List.mem_filter.mpr ⟨he, by simpa using hs⟩
  obtain ⟨k, hk, rfl⟩ := List.getElem_of_mem h1
  refine ⟨_, List.mem_map.mpr ⟨(_, k), ?_, rfl⟩, rfl, rfl, rfl⟩
  rw [List.mk_mem_zipIdx_iff_getElem?]
  exact List.getElem?_eq_getElem hk

/-- The first next hop of an address family is always used. -/
theorem expandAf_first {env : SrEnv} (h0 : 0 < env.maxNexthop) {r : SrRoute} {l : List NhEntry} {af : Bool} {p : String}
    (hp : r.dst.get af = some p) {e : NhEntry} (he : e ∈ l) (hs : (e.addr.get af).isSome) :
    ∃ f ∈ expandAf env r l af, f.dst.get af = some p ∧ f.vrf = r.vrf := by
  unfold expandAf
  rw [hp]
  have h1 : e ∈ l.filter (fun e => (e.addr.get af).isSome) := List.mem_filter.mpr ⟨he, by simpa using hs⟩
  cases hl : l.filter (fun e => (e.addr.get af).isSome) with
  | nil => rw [hl] at h1; cases h1
  | cons x rest =>
    obtain ⟨m, hm⟩ : ∃ m, env.maxNexthop = m + 1 := ⟨env.maxNexthop - 1, by omega⟩
    rw [hm, List.take_succ_cons, List.zipIdx_cons]
    simp only [List.map_cons]
    exact ⟨_, List.mem_cons_self .., by simp, rfl⟩

theorem finish_expand {env : SrEnv} {r : SrRoute} {n : SrNext} {x : SrResolved} {l : List SrFinal}
    (h : finishRoute env r n x = .expand l) :
    (∀ af, (r.dst.get af).isSome → (x.addr.get af).isSome) ∧ x.nhlist ≠ [] ∧
      l = expandAf env r x.nhlist false ++ expandAf env r x.nhlist true := by
  unfold finishRoute at h
  by_cases h1 : ([false, true].any (fun af => (r.dst.get af).isSome && (x.addr.get af).isNone)) = true
  · rw [if_pos h1] at h
    split at h <;> cases h
  · rw [if_neg h1] at h
    by_cases h2 : x.nhlist.isEmpty = true
    · rw [if_pos h2] at h; cases h
    · rw [if_neg h2] at h
      refine ⟨?_, by simpa using h2, (SrResult.expand.inj h).symm⟩
      intro af haf
      cases hx : x.addr.get af with
      | some _ => rfl
      | none =>
        exfalso
        apply h1
        rw [List.any_eq_true]
        exact ⟨af, by cases af <;> simp, by simp [haf, hx]⟩

theorem finish_keep {env : SrEnv} {r : SrRoute} {n : SrNext} {x : SrResolved} {f : SrFinal}
    (h : finishRoute env r n x = .keep f) :
    (∀ af, (r.dst.get af).isSome → (x.addr.get af).isSome) ∧ x.nhlist = [] ∧ f = ⟨r.dst, r.vrf, x.addr, none, n.vrf, 0⟩ := by
  unfold finishRoute at h
  by_cases h1 : ([false, true].any (fun af => (r.dst.get af).isSome && (x.addr.get af).isNone)) = true
  · rw [if_pos h1] at h
    split at h <;> cases h
  · rw [if_neg h1] at h
    by_cases h2 : x.nhlist.isEmpty = true
    · rw [if_pos h2] at h
      refine ⟨?_, by simpa using h2, (SrResult.keep.inj h).symm⟩
      intro af haf
      cases hx : x.addr.get af with
      | some _ => rfl
      | none =>
        exfalso
        apply h1
        rw [List.any_eq_true]
        exact ⟨af, by cases af <;> simp, by simp [haf, hx]⟩
    · rw [if_neg h2] at h; cases h

/-- How the result of a route was obtained. -/
theorem checkRoute_cases {env : SrEnv} {ifs : List SrIntf} {r : SrRoute} {res : SrResult}
    (h : (checkRoute env ifs r).2 = res) (h1 : res ≠ .error) (h2 : res ≠ .skip) (h3 : res ≠ .crash) :
    r.dst.isEmpty = false ∧ ∃ n, r.next = some n ∧ vrfRouteOk env r n = true ∧
      ((∃ x, n.hop = .node x ∧ (resolveNode env r n x ifs).2 = 0 ∧
          finishRoute env r n (resolveNode env r n x ifs).1 = res) ∨
       (n.hop = .gateway ∧ finishRoute env r n (resolveGateway env r n ifs).2 = res) ∨
       (∃ a y, n.hop = .addr a ∧ resolveAddr env r n a ifs = some y ∧ finishRoute env r n y = res)) := by
  unfold checkRoute at h
  by_cases hd : r.dst.isEmpty = true
  · rw [if_pos hd] at h
    exact absurd h.symm h1
  rw [if_neg hd] at h
  refine ⟨by simpa using hd, ?_⟩
  cases hn : r.next with
  | none =>
    rw [hn] at h
    simp only at h
    split at h
    · exact absurd h.symm h2
    · exact absurd h.symm h1
  | some n =>
    rw [hn] at h
    simp only at h
    by_cases hv : (!vrfRouteOk env r n) = true
    · rw [if_pos hv] at h
      exact absurd h.symm h1
    rw [if_neg hv] at h
    refine ⟨n, rfl, by simpa using hv, ?_⟩
    cases hh : n.hop with
    | node x =>
      rw [hh] at h
      simp only at h
      by_cases he : (resolveNode env r n x ifs).2 ≠ 0
      · rw [if_pos he] at h
        exact absurd h.symm h1
      · rw [if_neg he] at h
        exact .inl ⟨x, rfl, by omega, h⟩
    | gateway =>
      rw [hh] at h
      exact .inr (.inl ⟨rfl, h⟩)
    | addr a =>
      rw [hh] at h
      simp only at h
      cases hy : resolveAddr env r n a ifs with
      | none =>
        rw [hy] at h
        exact absurd h.symm h3
      | some y =>
        rw [hy] at h
        exact .inr (.inr ⟨a, y, rfl, hy, h⟩)

/-- C60: a route that is not rejected, in whatever way its next hop was specified, has a next hop in the address family of its
prefix. -/
theorem C60_has_nexthop {env : SrEnv} {ifs : List SrIntf} {r : SrRoute} :
    (∀ f, (checkRoute env ifs r).2 = .keep f → ∀ af, (f.dst.get af).isSome → (f.addr.get af).isSome) ∧
    (∀ l, (checkRoute env ifs r).2 = .expand l → ∀ f ∈ l, ∃ af p a ifname, RouteVia f af p a ifname ∧
      r.dst.get af = some p ∧ f.vrf = r.vrf ∧ f.idx < env.maxNexthop) := by
  have ex : ∀ (x : SrResolved) (n : SrNext) (l : List SrFinal), finishRoute env r n x = .expand l → ∀ f ∈ l,
      ∃ af p a ifname, RouteVia f af p a ifname ∧ r.dst.get af = some p ∧ f.vrf = r.vrf ∧ f.idx < env.maxNexthop := by
    intro x n l h f hf
    obtain ⟨_, _, rfl⟩ := finish_expand h
    have : ∃ af, f ∈ expandAf env r x.nhlist af := by
      rcases List.mem_append.mp hf with h | h
      · exact ⟨false, h⟩
      · exact ⟨true, h⟩
    obtain ⟨af, hf⟩ := this
    obtain ⟨p, e, hp, _, he, hd, hv, ha, hi, _, hx⟩ := mem_expandAf hf
    obtain ⟨a, hea⟩ := Option.isSome_iff_exists.mp he
    refine ⟨af, p, a, e.intf, ⟨?_, ?_, ?_, hi⟩, hp, hv, hx⟩
    · rw [hd]; simp
    · rw [hd]; cases af <;> simp
    · rw [ha]; exact get_asAddrs.mpr ⟨a, hea, rfl⟩
  constructor
  · intro f hf af haf
    obtain ⟨_, n, _, _, h⟩ := checkRoute_cases hf (by simp) (by simp) (by simp)
    have : ∃ x, finishRoute env r n x = .keep f := by
      rcases h with ⟨x, _, _, h⟩ | ⟨_, h⟩ | ⟨a, y, _, _, h⟩
      · exact ⟨_, h⟩
      · exact ⟨_, h⟩
      · exact ⟨_, h⟩
    obtain ⟨x, hx⟩ := this
    obtain ⟨h1, _, rfl⟩ := finish_keep hx
    exact h1 af haf
  · intro l hl f hf
    obtain ⟨_, n, _, _, h⟩ := checkRoute_cases hl (by simp) (by simp) (by simp)
    rcases h with ⟨x, _, _, h⟩ | ⟨_, h⟩ | ⟨a, y, _, _, h⟩
    · exact ex _ n l h f hf
    · exact ex _ n l h f hf
    · exact ex _ n l h f hf

/-- C60: a route through a node: every resulting route has the prefix and the VRF of the original one, and its next hop is an
address of the node on a link connected to the interface of the route, in the VRF of the next hop. -/
theorem C60_node_sound {env : SrEnv} {ifs : List SrIntf} {r : SrRoute} {n : SrNext} {x : String} (hn : r.next = some n)
    (hh : n.hop = .node x) {l : List SrFinal} (h : (checkRoute env ifs r).2 = .expand l) :
    ∀ f ∈ l, ∃ af p a ifname, RouteVia f af p a ifname ∧ r.dst.get af = some p ∧ f.vrf = r.vrf ∧ f.nhVrf = n.vrf ∧
      Adjacent env ifs (nextHopVrf r n) x af a ifname := by
  rw [← nhVrf_eq]
  intro f hf
  obtain ⟨_, n', hn', _, hc⟩ := checkRoute_cases h (by simp) (by simp) (by simp)
  obtain rfl := Option.some.inj (hn.symm.trans hn')
  rcases hc with ⟨x', hx', _, hc⟩ | ⟨hc, _⟩ | ⟨a, y, hc, _⟩
  · rw [hh] at hx'
    obtain rfl := SrHop.node.inj hx'
    obtain ⟨_, h2, rfl⟩ := finish_expand hc
    have hl : (resolveNode env r n x ifs).1.nhlist = ifs.flatMap (nodeHops env r n x) := by
      simp only [resolveNode] at h2 ⊢
      split
      · rename_i he; rw [if_pos he] at h2; exact absurd rfl h2
      · rfl
    have : ∃ af, f ∈ expandAf env r (resolveNode env r n x ifs).1.nhlist af := by
      rcases List.mem_append.mp hf with h | h
      · exact ⟨false, h⟩
      · exact ⟨true, h⟩
    obtain ⟨af, hf⟩ := this
    obtain ⟨p, e, hp, hem, he, hd, hv, ha, hi, hnv, _⟩ := mem_expandAf hf
    obtain ⟨a, hea⟩ := Option.isSome_iff_exists.mp he
    rw [hl] at hem
    refine ⟨af, p, a, e.intf, ⟨?_, ?_, ?_, hi⟩, hp, hv, ?_, nodeHops_adjacent.mp ⟨e, hem, hea, rfl⟩⟩
    · rw [hd]; simp
    · rw [hd]; cases af <;> simp
    · rw [ha]; exact get_asAddrs.mpr ⟨a, hea, rfl⟩
    · rw [hnv]
      obtain ⟨i, _, hm⟩ := List.mem_flatMap.mp hem
      obtain ⟨_, g, _, _, _, rfl⟩ := mem_nodeHops.mp hm
      rfl
  · rw [hh] at hc; cases hc
  · rw [hh] at hc; cases hc

/-- C60: when the node is adjacent in the VRF of the next hop, in every address family of the route, the route is replaced with
routes for all adjacencies (up to the number of next hops supported by the device). -/
theorem C60_node_complete {env : SrEnv} {ifs : List SrIntf} {r : SrRoute} {n : SrNext} {x : String} (hn : r.next = some n)
    (hh : n.hop = .node x) (hv : vrfRouteOk env r n = true) (hd : r.dst.isEmpty = false)
    (hall : ∀ af, (r.dst.get af).isSome → ∃ a i, Adjacent env ifs (nextHopVrf r n) x af a i)
    (hm : (ifs.flatMap (nodeHops env r n x)).length ≤ env.maxNexthop) :
    ∃ l, (checkRoute env ifs r).2 = .expand l ∧
      ∀ af p a i, r.dst.get af = some p → Adjacent env ifs (nextHopVrf r n) x af a i → ∃ f ∈ l, RouteVia f af p a i := by
  rw [← nhVrf_eq] at hall ⊢
  have hne : ifs.flatMap (nodeHops env r n x) ≠ [] := by
    have : ∃ af, (r.dst.get af).isSome := by
      revert hd
      generalize r.dst = d
      intro hd
      obtain ⟨d4, d6⟩ := d
      cases d4 with
      | some _ => exact ⟨false, rfl⟩
      | none =>
        cases d6 with
        | some _ => exact ⟨true, rfl⟩
        | none => cases hd
    obtain ⟨af, haf⟩ := this
    obtain ⟨a, i, ha⟩ := hall af haf
    obtain ⟨e, he, _⟩ := nodeHops_adjacent.mpr ha
    exact List.ne_nil_of_mem he
  have hr : resolveNode env r n x ifs =
      (⟨asAddrs (firstAddrs (ifs.flatMap (nodeHops env r n x))), ifs.flatMap (nodeHops env r n x)⟩, 0) := by
    simp only [resolveNode]
    rw [if_neg (by simpa using hne)]
  have hfin : finishRoute env r n (resolveNode env r n x ifs).1 = .expand
      (expandAf env r (ifs.flatMap (nodeHops env r n x)) false ++ expandAf env r (ifs.flatMap (nodeHops env r n x)) true) := by
    rw [hr]
    unfold finishRoute
    rw [if_neg, if_neg (by simpa using hne)]
    rw [List.any_eq_true]
    rintro ⟨af, _, h⟩
    simp only [Bool.and_eq_true, Option.isNone_iff_eq_none] at h
    obtain ⟨a, i, ha⟩ := hall af h.1
    obtain ⟨e, he, hea, _⟩ := nodeHops_adjacent.mpr ha
    have h2 := asAddrs_none.mp h.2
    simp only [firstAddrs, Dual.get_of, List.findSome?_eq_none_iff] at h2
    rw [h2 e he] at hea
    cases hea
  refine ⟨expandAf env r (ifs.flatMap (nodeHops env r n x)) false ++ expandAf env r (ifs.flatMap (nodeHops env r n x)) true,
    ?_, ?_⟩
  · unfold checkRoute
    rw [if_neg (by simp [hd]), hn]
    simp only [hv, Bool.not_true, Bool.false_eq_true, if_false, hh]
    rw [if_neg (by rw [hr]; simp), hfin]
  · intro af p a i hp ha
    obtain ⟨e, he, hea, rfl⟩ := nodeHops_adjacent.mpr ha
    obtain ⟨f, hf, hfd, hfa, hfi⟩ := expandAf_mem (env := env) hp he (by rw [hea]; rfl)
      (Nat.le_trans (List.length_filter_le ..) hm)
    refine ⟨f, ?_, ⟨?_, ?_, ?_, hfi⟩⟩
    · cases af
      · exact List.mem_append_left _ hf
      · exact List.mem_append_right _ hf
    · rw [hfd]; simp
    · rw [hfd]; cases af <;> simp
    · rw [hfa]; exact get_asAddrs.mpr ⟨a, hea, rfl⟩

/-- C60: a route through a node that is not adjacent uses the addresses of the remote node (its loopback or the first
interface). -/
theorem C60_node_remote {env : SrEnv} {ifs : List SrIntf} {r : SrRoute} {n : SrNext} {x : String} (hn : r.next = some n)
    (hh : n.hop = .node x) (hna : ∀ i ∈ ifs, ∀ g ∈ i.neighbors, g.node ≠ x) :
    (∀ l, (checkRoute env ifs r).2 ≠ .expand l) ∧
      ∀ f, (checkRoute env ifs r).2 = .keep f → f.dst = r.dst ∧ f.vrf = r.vrf ∧ f.addr = hostAddrs env (env.endpoint x) := by
  have hl : ifs.flatMap (nodeHops env r n x) = [] := by
    rw [List.flatMap_eq_nil_iff]
    intro i hi
    rw [List.eq_nil_iff_forall_not_mem]
    intro e he
    obtain ⟨_, g, hg, hgn, _⟩ := mem_nodeHops.mp he
    exact hna i hi g hg hgn
  have hr : (resolveNode env r n x ifs).1 = ⟨hostAddrs env (env.endpoint x), []⟩ := by
    simp [resolveNode, hl]
  constructor
  · intro l h
    obtain ⟨_, n', hn', _, hc⟩ := checkRoute_cases h (by simp) (by simp) (by simp)
    obtain rfl := Option.some.inj (hn.symm.trans hn')
    rcases hc with ⟨x', hx', _, hc⟩ | ⟨hc, _⟩ | ⟨a, y, hc, _⟩
    · rw [hh] at hx'
      obtain rfl := SrHop.node.inj hx'
      rw [hr] at hc
      exact (finish_expand hc).2.1 rfl
    · rw [hh] at hc; cases hc
    · rw [hh] at hc; cases hc
  · intro f h
    obtain ⟨_, n', hn', _, hc⟩ := checkRoute_cases h (by simp) (by simp) (by simp)
    obtain rfl := Option.some.inj (hn.symm.trans hn')
    rcases hc with ⟨x', hx', _, hc⟩ | ⟨hc, _⟩ | ⟨a, y, hc, _⟩
    · rw [hh] at hx'
      obtain rfl := SrHop.node.inj hx'
      rw [hr] at hc
      obtain ⟨_, _, rfl⟩ := finish_keep hc
      exact ⟨rfl, rfl, rfl⟩
    · rw [hh] at hc; cases hc
    · rw [hh] at hc; cases hc

/-! ### Next-hop addresses -/

theorem directHops_some {env : SrEnv} {r : SrRoute} {n : SrNext} {a : Dual String} {ifs : List SrIntf} {af : Bool}
    {l : List NhEntry} (h : directHops env r n a ifs af = some l) :
    (∀ e ∈ l, ∃ s, a.get af = some s ∧ e.addr = Dual.of (fun f => if f = af then some s else none) ∧ e.vrf = n.vrf ∧
      OnSubnet env ifs (r.nhVrf n) af s e.intf) ∧
    (∀ s i, (r.dst.get af).isSome → a.get af = some s → OnSubnet env ifs (r.nhVrf n) af s i →
      ∃ e ∈ l, e.intf = i ∧ (e.addr.get af).isSome) := by
  unfold directHops at h
  by_cases hd : (r.dst.get af).isNone = true
  · rw [if_pos hd] at h
    obtain rfl := Option.some.inj h
    refine ⟨by simp, ?_⟩
    intro s i hs
    rw [Option.isNone_iff_eq_none] at hd
    rw [hd] at hs
    cases hs
  · rw [if_neg hd] at h
    cases ha : a.get af with
    | none => rw [ha] at h; cases h
    | some s =>
      rw [ha] at h
      obtain rfl := Option.some.inj h
      constructor
      · intro e he
        obtain ⟨i, hi, he⟩ := List.mem_filterMap.mp he
        refine ⟨s, rfl, ?_⟩
        cases hp : i.addr.get af with
        | none => rw [hp] at he; cases he
        | some v =>
          rw [hp] at he
          cases v with
          | flag b => cases he
          | str p =>
            simp only at he
            by_cases hc : i.vrf = r.nhVrf n ∧ env.inSubnet s p
            · rw [if_pos hc] at he
              obtain rfl := Option.some.inj he
              exact ⟨rfl, rfl, i, hi, hc.1, rfl, p, hp, hc.2⟩
            · rw [if_neg hc] at he
              cases he
      · intro s' i _ hs ho
        obtain rfl := Option.some.inj hs
        obtain ⟨j, hj, hjv, rfl, p, hp, hin⟩ := ho
        refine ⟨⟨Dual.of (fun f => if f = af then some s else none), j.name, n.vrf⟩,
          List.mem_filterMap.mpr ⟨j, hj, ?_⟩, rfl, by simp⟩
        rw [hp]
        simp only
        rw [if_pos ⟨hjv, hin⟩]

/-- C60: a route through an address: when the route is replaced with routes through interfaces, the prefix and the address are
unchanged, and the address belongs to the subnet of the interface, in the VRF of the next hop. -/
theorem C60_addr_sound {env : SrEnv} {ifs : List SrIntf} {r : SrRoute} {n : SrNext} {a : Dual String}
    (hn : r.next = some n) (hh : n.hop = .addr a) {l : List SrFinal} (h : (checkRoute env ifs r).2 = .expand l) :
    ∀ f ∈ l, ∃ af p s ifname, RouteVia f af p s ifname ∧ r.dst.get af = some p ∧ a.get af = some s ∧ f.vrf = r.vrf ∧
      OnSubnet env ifs (nextHopVrf r n) af s ifname := by
  rw [← nhVrf_eq]
  intro f hf
  obtain ⟨_, n', hn', _, hc⟩ := checkRoute_cases h (by simp) (by simp) (by simp)
  obtain rfl := Option.some.inj (hn.symm.trans hn')
  rcases hc with ⟨x', hx', _, hc⟩ | ⟨hc, _⟩ | ⟨a', y, ha', hy, hc⟩
  · rw [hh] at hx'; cases hx'
  · rw [hh] at hc; cases hc
  · rw [hh] at ha'
    obtain rfl := SrHop.addr.inj ha'
    obtain ⟨_, _, rfl⟩ := finish_expand hc
    unfold resolveAddr at hy
    cases h4 : directHops env r n a ifs false with
    | none => rw [h4] at hy; cases hy
    | some l4 =>
      cases h6 : directHops env r n a ifs true with
      | none => rw [h4, h6] at hy; cases hy
      | some l6 =>
        rw [h4, h6] at hy
        obtain rfl := Option.some.inj hy
        have : ∃ af, f ∈ expandAf env r (l4 ++ l6) af := by
          rcases List.mem_append.mp hf with h | h
          · exact ⟨false, h⟩
          · exact ⟨true, h⟩
        obtain ⟨af, hf⟩ := this
        obtain ⟨p, e, hp, hem, he, hd, hv, ha, hi, hnv, _⟩ := mem_expandAf hf
        have key : ∃ s, a.get af = some s ∧ e.addr.get af = some s ∧ OnSubnet env ifs (r.nhVrf n) af s e.intf := by
          rcases List.mem_append.mp hem with hm | hm
          · obtain ⟨s, h1, h2, _, h4⟩ := (directHops_some h4).1 e hm
            rw [h2] at he
            cases af with
            | true => simp at he
            | false => exact ⟨s, h1, by rw [h2]; simp, h4⟩
          · obtain ⟨s, h1, h2, _, h4⟩ := (directHops_some h6).1 e hm
            rw [h2] at he
            cases af with
            | false => simp at he
            | true => exact ⟨s, h1, by rw [h2]; simp, h4⟩
        obtain ⟨s, hs, hes, ho⟩ := key
        refine ⟨af, p, s, e.intf, ⟨?_, ?_, ?_, hi⟩, hp, hs, hv, ho⟩
        · rw [hd]; simp
        · rw [hd]; cases af <;> simp
        · rw [ha]; exact get_asAddrs.mpr ⟨s, hes, rfl⟩

/-- C60: the program does not fail when there is a next-hop address for every address family of the prefix. -/
theorem C60_no_crash {env : SrEnv} {ifs : List SrIntf} {r : SrRoute}
    (h : ∀ n a, r.next = some n → n.hop = .addr a → ∀ af, (r.dst.get af).isSome → (a.get af).isSome) :
    (checkRoute env ifs r).2 ≠ .crash := by
  have hf : ∀ n x, finishRoute env r n x ≠ .crash := by
    intro n x hx
    unfold finishRoute at hx
    repeat' split at hx
    all_goals cases hx
  unfold checkRoute
  by_cases hd : r.dst.isEmpty = true
  · rw [if_pos hd]; simp
  rw [if_neg hd]
  cases hn : r.next with
  | none =>
    simp only
    split <;> simp
  | some n =>
    simp only
    by_cases hv : (!vrfRouteOk env r n) = true
    · rw [if_pos hv]; simp
    rw [if_neg hv]
    cases hh : n.hop with
    | node x =>
      simp only
      split
      · simp
      · exact hf _ _
    | gateway => exact hf _ _
    | addr a =>
      have hs : ∀ af, ∃ l, directHops env r n a ifs af = some l := by
        intro af
        unfold directHops
        by_cases hd : (r.dst.get af).isNone = true
        · rw [if_pos hd]; exact ⟨_, rfl⟩
        · rw [if_neg hd]
          have : (r.dst.get af).isSome := by
            cases hx : r.dst.get af with
            | none => rw [hx] at hd; exact absurd rfl hd
            | some _ => rfl
          obtain ⟨s, hs⟩ := Option.isSome_iff_exists.mp (h n a hn hh af this)
          rw [hs]
          exact ⟨_, rfl⟩
      obtain ⟨x, hx⟩ := hs false
      obtain ⟨y, hy⟩ := hs true
      simp only [resolveAddr, hx, hy]
      exact hf _ _

/-! ### The prefix is not lost -/

theorem firstAddrs_mem {l : List NhEntry} {af : Bool} (h : ((asAddrs (firstAddrs l)).get af).isSome) :
    ∃ e ∈ l, (e.addr.get af).isSome := by
  obtain ⟨a, ha⟩ := Option.isSome_iff_exists.mp h
  obtain ⟨s, hs, _⟩ := get_asAddrs.mp ha
  simp only [firstAddrs, Dual.get_of] at hs
  obtain ⟨e, he, hes⟩ := List.exists_of_findSome?_eq_some hs
  exact ⟨e, he, by rw [hes]; rfl⟩

theorem resolveGateway_addr (env : SrEnv) (r : SrRoute) (n : SrNext) (ifs : List SrIntf) :
    (resolveGateway env r n ifs).2.addr = asAddrs (firstAddrs (resolveGateway env r n ifs).2.nhlist) := by
  simp only [resolveGateway]
  split <;> rfl

theorem resolveNode_addr {env : SrEnv} {r : SrRoute} {n : SrNext} {x : String} {ifs : List SrIntf}
    (h : (resolveNode env r n x ifs).1.nhlist ≠ []) :
    (resolveNode env r n x ifs).1.addr = asAddrs (firstAddrs (resolveNode env r n x ifs).1.nhlist) := by
  simp only [resolveNode] at h ⊢
  split
  · rename_i he; rw [if_pos he] at h; exact absurd rfl h
  · rfl

/-- C60: a route through a node or a gateway that is not rejected or skipped results in at least one route for every prefix
specified by the user. -/
theorem C60_covered {env : SrEnv} (h0 : 0 < env.maxNexthop) {ifs : List SrIntf} {r : SrRoute} {n : SrNext}
    (hn : r.next = some n) (hh : ∀ a, n.hop ≠ .addr a) {l : List SrFinal} (h : (checkRoute env ifs r).2 = .expand l)
    {af : Bool} {p : String} (hp : r.dst.get af = some p) : ∃ f ∈ l, f.dst.get af = some p ∧ f.vrf = r.vrf := by
  have key : ∀ x : SrResolved, finishRoute env r n x = .expand l → x.addr = asAddrs (firstAddrs x.nhlist) →
      ∃ f ∈ l, f.dst.get af = some p ∧ f.vrf = r.vrf := by
    intro x hx ha
    obtain ⟨h1, _, rfl⟩ := finish_expand hx
    have h2 := h1 af (by rw [hp]; rfl)
    rw [ha] at h2
    obtain ⟨e, he, hes⟩ := firstAddrs_mem h2
    obtain ⟨f, hf, hfd, hfv⟩ := expandAf_first h0 hp he hes
    refine ⟨f, ?_, hfd, hfv⟩
    cases af
    · exact List.mem_append_left _ hf
    · exact List.mem_append_right _ hf
  obtain ⟨_, n', hn', _, hc⟩ := checkRoute_cases h (by simp) (by simp) (by simp)
  obtain rfl := Option.some.inj (hn.symm.trans hn')
  rcases hc with ⟨x', hx', _, hc⟩ | ⟨_, hc⟩ | ⟨a, y, hc, _⟩
  · exact key _ hc (resolveNode_addr (finish_expand hc).2.1)
  · exact key _ hc (resolveGateway_addr ..)
  · exact absurd hc (hh a)

/-! ### VRFs -/

/-- C60: a route is accepted only if its VRF and the VRF of the next hop are defined on the node and supported by the device. -/
theorem C60_vrf {env : SrEnv} {ifs : List SrIntf} {r : SrRoute} {n : SrNext} (hn : r.next = some n)
    (h1 : (checkRoute env ifs r).2 ≠ .error) (hd : r.dst.isEmpty = false) :
    (∀ v, r.vrf = some v → v ∈ env.vrfs ∧ env.vrfOk = true) ∧
      (∀ v, n.vrf = some v → env.interVrfOk = true ∧ ∀ w, v = some w → w ∈ env.vrfs) := by
  unfold checkRoute at h1
  rw [if_neg (by simp [hd]), hn] at h1
  simp only at h1
  by_cases hv : (!vrfRouteOk env r n) = true
  · rw [if_pos hv] at h1
    exact absurd rfl h1
  have hv : vrfRouteOk env r n = true := by simpa using hv
  unfold vrfRouteOk at hv
  rw [Bool.and_eq_true] at hv
  constructor
  · intro v hr
    have := hv.1
    rw [hr] at this
    simpa using this
  · intro v hr
    have := hv.2
    rw [hr] at this
    cases v with
    | none => exact ⟨this, by simp⟩
    | some w =>
      simp only [Bool.and_eq_true, List.contains_eq_mem, decide_eq_true_eq] at this
      refine ⟨this.1, ?_⟩
      intro u hu
      obtain rfl := Option.some.inj hu
      exact this.2

/-! ### Gateways -/

/-- The interface with a cache. -/
structure CacheOk (env : SrEnv) (i j : SrIntf) : Prop where
  same : j = { i with gateway := j.gateway }
  own : i.gateway.isSome → j.gateway = i.gateway
  ok : ∀ g, j.gateway = some g → ∀ af a, g.get af = some a → GatewayAddr env i af a

theorem cacheOk_refl (env : SrEnv) (i : SrIntf) : CacheOk env i i :=
  ⟨rfl, fun _ => rfl, fun g hg _ _ ha => .own g hg ha⟩

theorem gatewayOf_ok {env : SrEnv} {i j : SrIntf} (h : CacheOk env i j) {g : Dual SrAddr} (hg : gatewayOf j = some g) :
    ∀ af a, g.get af = some a → GatewayAddr env i af a := by
  intro af a ha
  unfold gatewayOf at hg
  cases hj : j.gateway with
  | some g' =>
    rw [hj] at hg
    obtain rfl := Option.some.inj hg
    exact h.ok g' hj af a ha
  | none =>
    rw [hj] at hg
    have hi : i.gateway = none := by
      cases hi : i.gateway with
      | none => rfl
      | some x => rw [h.own (by rw [hi]; rfl), hi] at hj; cases hj
    obtain ⟨n, hn, hng⟩ := List.exists_of_findSome?_eq_some hg
    have hjn : j.neighbors = i.neighbors := by rw [h.same]
    rw [hjn] at hn
    exact .neighbor n g hi hn hng ha

theorem lastResort_ok {env : SrEnv} {i j : SrIntf} (h : CacheOk env i j) (hg : gatewayOf j = none) {missing : List Bool} :
    ∀ af a, (lastResort env j missing).get af = some a → GatewayAddr env i af a ∧ ∃ s, a = .str s := by
  intro af a ha
  unfold gatewayOf at hg
  cases hj : j.gateway with
  | some g' => rw [hj] at hg; cases hg
  | none =>
    rw [hj] at hg
    have hi : i.gateway = none := by
      cases hi : i.gateway with
      | none => rfl
      | some x => rw [h.own (by rw [hi]; rfl), hi] at hj; cases hj
    have hjn : j.neighbors = i.neighbors := by rw [h.same]
    rw [hjn] at hg
    simp only [List.findSome?_eq_none_iff] at hg
    simp only [lastResort, Dual.get_of] at ha
    split at ha
    · unfold lastResortAf at ha
      obtain ⟨n, hn, hna⟩ := List.exists_of_findSome?_eq_some ha
      rw [hjn] at hn
      by_cases hh : env.isHost n.node = true
      · rw [if_pos hh] at hna; cases hna
      · rw [if_neg hh] at hna
        cases hx : n.addr.get af with
        | none => rw [hx] at hna; cases hna
        | some v =>
          rw [hx] at hna
          cases v with
          | flag b => cases hna
          | str s =>
            simp only at hna
            by_cases hd : (n.dhcp.get af).isSome = true
            · rw [if_pos hd] at hna; cases hna
            · rw [if_neg hd] at hna
              obtain rfl := Option.some.inj hna
              exact ⟨.router n hi hg hn (by simpa using hh) (by simpa using hd) hx, s, rfl⟩
    · cases ha

/-- A next hop is justified by an interface. -/
def Justified (env : SrEnv) (ifs : List SrIntf) (vrf : Option String) (e : NhEntry) : Prop :=
  ∃ i ∈ ifs, i.vrf = vrf ∧ e.intf = i.name ∧
    ∀ af s, e.addr.get af = some s → ∃ t, GatewayAddr env i af (.str t) ∧ s = env.host t

theorem justified_entry {env : SrEnv} {n : SrNext} {i j : SrIntf} (h : CacheOk env i j) {g : Dual SrAddr}
    (hg : ∀ af a, g.get af = some a → GatewayAddr env i af a) {e : NhEntry}
    (he : e ∈ (nexthopData n (hostAddrs env g) j).toList) :
    e.intf = i.name ∧ ∀ af s, e.addr.get af = some s → ∃ t, GatewayAddr env i af (.str t) ∧ s = env.host t := by
  rw [Option.mem_toList] at he
  obtain ⟨_, rfl⟩ := nexthopData_spec.mp he
  refine ⟨by rw [h.same], ?_⟩
  intro af s hs
  obtain ⟨t, ht, rfl⟩ := get_hostAddrs.mp (get_strAddrs.mp hs)
  exact ⟨t, hg af _ ht, rfl⟩

theorem gatewayLoop_ok {env : SrEnv} (r : SrRoute) (n : SrNext) (create : Bool) {is js : List SrIntf}
    (h : List.Forall₂ (CacheOk env) is js) (missing : List Bool) :
    List.Forall₂ (CacheOk env) is (gatewayLoop env r n create js missing).1 ∧
      ∀ e ∈ (gatewayLoop env r n create js missing).2, Justified env is (r.nhVrf n) e := by
  induction h generalizing missing with
  | nil => exact ⟨.nil, by simp [gatewayLoop]⟩
  | @cons i j is js hij _ ih =>
    have lift : ∀ {e : NhEntry}, Justified env is (r.nhVrf n) e → Justified env (i :: is) (r.nhVrf n) e := by
      rintro e ⟨k, hk, h⟩
      exact ⟨k, List.mem_cons_of_mem _ hk, h⟩
    have hvv : j.vrf = i.vrf := by rw [hij.same]
    rw [gatewayLoop]
    by_cases hv : j.vrf ≠ r.nhVrf n
    · rw [if_pos hv]
      obtain ⟨h1, h2⟩ := ih missing
      exact ⟨.cons hij h1, fun e he => lift (h2 e he)⟩
    · rw [if_neg hv]
      have hv2 : i.vrf = r.nhVrf n := by rw [← hvv]; exact Classical.not_not.mp hv
      cases hg : gatewayOf j with
      | some g =>
        obtain ⟨h1, h2⟩ := ih missing
        have hok := gatewayOf_ok hij hg
        refine ⟨.cons ⟨?_, ?_, ?_⟩ h1, ?_⟩
        · rw [hij.same]
        · intro hi
          have hj := hij.own hi
          obtain ⟨g', hg'⟩ := Option.isSome_iff_exists.mp hi
          unfold gatewayOf at hg
          rw [hj, hg'] at hg
          rw [hg', ← hg]
        · intro g' hg'
          obtain rfl := Option.some.inj hg'
          exact hok
        · intro e he
          rcases List.mem_append.mp he with he | he
          · obtain ⟨e1, e2⟩ := justified_entry hij hok he
            exact ⟨i, List.mem_cons_self .., hv2, e1, e2⟩
          · exact lift (h2 e he)
      | none =>
        simp only
        have hok := fun af a h => (lastResort_ok (missing := missing) hij hg af a h).1
        by_cases hc : (create && !(lastResort env j missing).isEmpty) = true
        · rw [if_pos hc]
          obtain ⟨h1, h2⟩ := ih (missing.filter (fun af => ((lastResort env j missing).get af).isNone))
          refine ⟨.cons ⟨?_, ?_, ?_⟩ h1, ?_⟩
          · rw [hij.same]
          · intro hi
            have hj := hij.own hi
            obtain ⟨g', hg'⟩ := Option.isSome_iff_exists.mp hi
            unfold gatewayOf at hg
            rw [hj, hg'] at hg
            cases hg
          · intro g' hg'
            obtain rfl := Option.some.inj hg'
            exact hok
          · intro e he
            rcases List.mem_append.mp he with he | he
            · obtain ⟨e1, e2⟩ := justified_entry hij hok he
              exact ⟨i, List.mem_cons_self .., hv2, e1, e2⟩
            · exact lift (h2 e he)
        · rw [if_neg hc]
          obtain ⟨h1, h2⟩ := ih missing
          exact ⟨.cons hij h1, fun e he => lift (h2 e he)⟩

theorem resolveGateway_ok {env : SrEnv} (r : SrRoute) (n : SrNext) {is js : List SrIntf}
    (h : List.Forall₂ (CacheOk env) is js) :
    List.Forall₂ (CacheOk env) is (resolveGateway env r n js).1 ∧
      ∀ e ∈ (resolveGateway env r n js).2.nhlist, Justified env is (r.nhVrf n) e := by
  obtain ⟨h1, h2⟩ := gatewayLoop_ok r n false h env.nodeAf
  simp only [resolveGateway]
  split
  · exact gatewayLoop_ok r n true h1 env.nodeAf
  · exact ⟨h1, h2⟩

theorem checkRoute_cache {env : SrEnv} (r : SrRoute) {is js : List SrIntf}
    (h : List.Forall₂ (CacheOk env) is js) : List.Forall₂ (CacheOk env) is (checkRoute env js r).1 := by
  unfold checkRoute
  split
  · exact h
  · cases r.next with
    | none => exact h
    | some n =>
      simp only
      split
      · exact h
      · cases n.hop with
        | node x => exact h
        | gateway => exact (resolveGateway_ok r n h).1
        | addr a =>
          simp only
          split
          · exact h
          · exact h

theorem forall₂_refl_cache (env : SrEnv) (l : List SrIntf) : List.Forall₂ (CacheOk env) l l := by
  induction l with
  | nil => exact .nil
  | cons i rest ih => exact .cons (cacheOk_refl env i) ih

theorem checkRoutes_gateway {env : SrEnv} (rs : List SrRoute) {is js : List SrIntf}
    (h : List.Forall₂ (CacheOk env) is js) (k : Nat) {r : SrRoute} {n : SrNext} (hr : rs[k]? = some r)
    (hn : r.next = some n) (hh : n.hop = .gateway) {l : List SrFinal}
    (hl : (checkRoutes env js rs).2[k]? = some (.expand l)) :
    ∀ f ∈ l, ∃ af p a ifname, RouteVia f af p a ifname ∧ r.dst.get af = some p ∧ f.vrf = r.vrf ∧
      ∃ i ∈ is, i.vrf = r.nhVrf n ∧ i.name = ifname ∧ ∃ t, GatewayAddr env i af (.str t) ∧ a = env.host t := by
  induction rs generalizing js k with
  | nil => simp at hr
  | cons r0 rest ih =>
    rw [checkRoutes] at hl
    simp only at hl
    cases k with
    | succ k =>
      rw [List.getElem?_cons_succ] at hr hl
      exact ih (checkRoute_cache r0 h) k hr hl
    | zero =>
      rw [List.getElem?_cons_zero] at hr hl
      obtain rfl := Option.some.inj hr
      have hl := Option.some.inj hl
      obtain ⟨_, n', hn', _, hc⟩ := checkRoute_cases hl (by simp) (by simp) (by simp)
      obtain rfl := Option.some.inj (hn.symm.trans hn')
      rcases hc with ⟨x', hx', _, hc⟩ | ⟨_, hc⟩ | ⟨a, y, hc, _⟩
      · rw [hh] at hx'; cases hx'
      · intro f hf
        obtain ⟨_, _, rfl⟩ := finish_expand hc
        have : ∃ af, f ∈ expandAf env r0 (resolveGateway env r0 n js).2.nhlist af := by
          rcases List.mem_append.mp hf with h | h
          · exact ⟨false, h⟩
          · exact ⟨true, h⟩
        obtain ⟨af, hf⟩ := this
        obtain ⟨p, e, hp, hem, he, hd, hv, ha, hi, _, _⟩ := mem_expandAf hf
        obtain ⟨a, hea⟩ := Option.isSome_iff_exists.mp he
        obtain ⟨i, hi1, hi2, hi3, hi4⟩ := (resolveGateway_ok r0 n h).2 e hem
        refine ⟨af, p, a, e.intf, ⟨?_, ?_, ?_, hi⟩, hp, hv, i, hi1, hi2, hi3.symm, hi4 af a hea⟩
        · rw [hd]; simp
        · rw [hd]; cases af <;> simp
        · rw [ha]; exact get_asAddrs.mpr ⟨a, hea, rfl⟩
      · rw [hh] at hc; cases hc

/-- C60: routes through gateways: whatever routes were processed before (gateways found for them are remembered), the next hop is a
gateway configured on the interface or on its neighbor, or an adjacent router with a static address, on an interface in the VRF
of the next hop. -/
theorem C60_gateway_sound {env : SrEnv} {ifs : List SrIntf} {rs : List SrRoute} {k : Nat} {r : SrRoute} {n : SrNext}
    (hr : rs[k]? = some r) (hn : r.next = some n) (hh : n.hop = .gateway) {l : List SrFinal}
    (hl : (checkRoutes env ifs rs).2[k]? = some (.expand l)) :
    ∀ f ∈ l, ∃ af p a ifname, RouteVia f af p a ifname ∧ r.dst.get af = some p ∧ f.vrf = r.vrf ∧
      ∃ i ∈ ifs, i.vrf = nextHopVrf r n ∧ i.name = ifname ∧ ∃ t, GatewayAddr env i af (.str t) ∧ a = env.host t :=
  nhVrf_eq r n ▸ checkRoutes_gateway rs (forall₂_refl_cache env ifs) k hr hn hh hl

/-! ### Repeated processing -/

theorem gatewayLoop_again (env : SrEnv) (r : SrRoute) (n : SrNext) (c : Bool) (ifs : List SrIntf) (m m' : List Bool) :
    gatewayLoop env r n false (gatewayLoop env r n c ifs m).1 m' = gatewayLoop env r n c ifs m := by
  induction ifs generalizing m m' with
  | nil => rfl
  | cons i rest ih =>
    rw [gatewayLoop]
    by_cases hv : i.vrf ≠ r.nhVrf n
    · rw [if_pos hv, gatewayLoop, if_pos hv, ih]
    · rw [if_neg hv]
      cases hg : gatewayOf i with
      | some g =>
        simp only
        rw [gatewayLoop, if_neg hv, show gatewayOf { i with gateway := some g } = some g from rfl]
        simp only [ih]
        rfl
      | none =>
        simp only
        by_cases hc : (c && !(lastResort env i m).isEmpty) = true
        · rw [if_pos hc, gatewayLoop, if_neg hv,
            show gatewayOf { i with gateway := some (lastResort env i m) } = some (lastResort env i m) from rfl]
          simp only [ih]
          rfl
        · rw [if_neg hc]
          simp only
          rw [gatewayLoop, if_neg hv, hg]
          simp only [Bool.false_and, Bool.false_eq_true, if_false, ih]

theorem lastResort_nexthop {env : SrEnv} {i : SrIntf} {m : List Bool} (n : SrNext)
    (h : (lastResort env i m).isEmpty = false) :
    (nexthopData n (hostAddrs env (lastResort env i m)) i).toList ≠ [] := by
  have : ∃ af a, (lastResort env i m).get af = some a := by
    rcases Classical.em (∃ af a, (lastResort env i m).get af = some a) with h2 | h2
    · exact h2
    · rw [(Dual.isEmpty_iff _).mpr] at h
      · cases h
      · intro af
        cases hx : (lastResort env i m).get af with
        | none => rfl
        | some a => exact absurd ⟨af, a, hx⟩ h2
  obtain ⟨af, a, ha⟩ := this
  have hs : ∃ s, a = .str s := by
    simp only [lastResort, Dual.get_of] at ha
    split at ha
    · unfold lastResortAf at ha
      obtain ⟨n, _, hna⟩ := List.exists_of_findSome?_eq_some ha
      by_cases hh : env.isHost n.node = true
      · rw [if_pos hh] at hna; cases hna
      · rw [if_neg hh] at hna
        cases hx : n.addr.get af with
        | none => rw [hx] at hna; cases hna
        | some v =>
          rw [hx] at hna
          cases v with
          | flag b => cases hna
          | str s =>
            simp only at hna
            by_cases hd : (n.dhcp.get af).isSome = true
            · rw [if_pos hd] at hna; cases hna
            · rw [if_neg hd] at hna
              exact ⟨s, (Option.some.inj hna).symm⟩
    · cases ha
  obtain ⟨s, rfl⟩ := hs
  have := nexthopData_spec.mpr (⟨⟨af, env.host s, get_hostAddrs.mpr ⟨s, ha, rfl⟩⟩, rfl⟩ :
    (∃ af s, (hostAddrs env (lastResort env i m)).get af = some (.str s)) ∧ _ = (⟨_, i.name, n.vrf⟩ : NhEntry))
  rw [this]
  simp

theorem gatewayLoop_create_again (env : SrEnv) (r : SrRoute) (n : SrNext) (ifs : List SrIntf) (m : List Bool)
    (h : (gatewayLoop env r n true ifs m).2 = []) :
    gatewayLoop env r n true (gatewayLoop env r n true ifs m).1 m = gatewayLoop env r n true ifs m := by
  induction ifs with
  | nil => rfl
  | cons i rest ih =>
    rw [gatewayLoop] at h ⊢
    by_cases hv : i.vrf ≠ r.nhVrf n
    · rw [if_pos hv] at h ⊢
      rw [gatewayLoop, if_pos hv, ih h]
    · rw [if_neg hv] at h ⊢
      cases hg : gatewayOf i with
      | some g =>
        rw [hg] at h
        simp only [List.append_eq_nil_iff] at h
        simp only
        rw [gatewayLoop, if_neg hv, show gatewayOf { i with gateway := some g } = some g from rfl]
        simp only [ih h.2]
        rfl
      | none =>
        rw [hg] at h
        simp only at h ⊢
        by_cases hc : (true && !(lastResort env i m).isEmpty) = true
        · rw [if_pos hc] at h
          simp only [List.append_eq_nil_iff] at h
          exact absurd h.1 (lastResort_nexthop n (by simpa using hc))
        · rw [if_neg hc] at h ⊢
          simp only
          rw [gatewayLoop, if_neg hv, hg]
          simp only
          rw [if_neg hc, ih h]

theorem gatewayLoop_congr (env : SrEnv) (r r' : SrRoute) (n : SrNext) (h : r'.nhVrf n = r.nhVrf n) (c : Bool)
    (ifs : List SrIntf) (m : List Bool) : gatewayLoop env r' n c ifs m = gatewayLoop env r n c ifs m := by
  induction ifs generalizing m with
  | nil => rfl
  | cons i rest ih => simp only [gatewayLoop, h, ih]

/-- C60: the gateways remembered during the resolution of a route do not change the result for other routes through the gateway in the
same VRF: all of them have the same next hops. -/
theorem C60_gateway_stable (env : SrEnv) (r r' : SrRoute) (n : SrNext) (h : nextHopVrf r' n = nextHopVrf r n) (ifs : List SrIntf) :
    resolveGateway env r' n (resolveGateway env r n ifs).1 = resolveGateway env r n ifs := by
  have hc : ∀ c l m, gatewayLoop env r' n c l m = gatewayLoop env r n c l m := fun c l m =>
    gatewayLoop_congr env r r' n (by rw [nhVrf_eq, nhVrf_eq, h]) c l m
  simp only [resolveGateway, hc]
  by_cases h1 : ((gatewayLoop env r n false ifs env.nodeAf).2.isEmpty) = true
  · simp only [if_pos h1]
    rw [gatewayLoop_again]
    by_cases h2 : ((gatewayLoop env r n true (gatewayLoop env r n false ifs env.nodeAf).1 env.nodeAf).2.isEmpty) = true
    · rw [if_pos h2, gatewayLoop_create_again _ _ _ _ _ (by simpa using h2)]
    · rw [if_neg h2]
  · simp only [if_neg h1]
    rw [gatewayLoop_again, if_neg h1]

/-! ### Defects and examples -/

/-- A device with two interfaces. -/
def srEnv : SrEnv where
  host := id
  inSubnet := fun a p => a == "10.0.0.2" && p == "10.0.0.1/24"
  endpoint := fun n => if n = "h" then ⟨some (.flag true), none⟩ else ⟨some (.str "192.168.0.1"), none⟩
  isHost := fun n => n == "h"
  nodeAf := [false, true]
  vrfs := []
  vrfOk := false
  interVrfOk := false
  maxNexthop := 256

/-- The interfaces of the device. -/
def srIfs : List SrIntf :=
  [⟨"eth1", none, ⟨some (.str "10.0.0.1/24"), some (.str "2001:db8::1/64")⟩,
     [⟨"r2", ⟨some (.str "10.0.0.2"), none⟩, none, ⟨none, none⟩⟩], none⟩,
   ⟨"eth2", none, ⟨some (.str "10.0.1.1/24"), none⟩,
     [⟨"r2", ⟨some (.str "10.0.1.2"), none⟩, none, ⟨none, none⟩⟩], none⟩]

/-- A route through an adjacent node. -/
example : (checkRoute srEnv srIfs ⟨⟨some "172.16.0.0/16", none⟩, none, some ⟨.node "r2", none⟩, false⟩).2 =
    .expand [⟨⟨some "172.16.0.0/16", none⟩, none, ⟨some (.str "10.0.0.2"), none⟩, some "eth1", none, 0⟩,
      ⟨⟨some "172.16.0.0/16", none⟩, none, ⟨some (.str "10.0.1.2"), none⟩, some "eth2", none, 1⟩] := by decide +kernel

/-- A route through the gateway of last resort. -/
example : (checkRoute srEnv srIfs ⟨⟨some "172.16.0.0/16", none⟩, none, some ⟨.gateway, none⟩, true⟩).2 =
    .expand [⟨⟨some "172.16.0.0/16", none⟩, none, ⟨some (.str "10.0.0.2"), none⟩, some "eth1", none, 0⟩] := by decide +kernel

/-- C60 (defect): a route with IPv4 and IPv6 prefixes and next-hop addresses; the IPv4 next hop is directly connected, the IPv6 next
hop is not.  The IPv6 route is lost without an error. -/
theorem C60_ipv6_route_lost :
    (checkRoute srEnv srIfs ⟨⟨some "172.16.0.0/16", some "2001:db8:1::/48"⟩, none,
        some ⟨.addr ⟨some "10.0.0.2", some "2001:db8:2::1"⟩, none⟩, false⟩).2 =
      .expand [⟨⟨some "172.16.0.0/16", none⟩, none, ⟨some (.str "10.0.0.2"), none⟩, some "eth1", none, 0⟩] := by
  decide +kernel

/-- C60 (defect): a route with IPv4 and IPv6 prefixes and an IPv4 next-hop address is not an error; the program fails with an
exception. -/
theorem C60_crash :
    (checkRoute srEnv srIfs ⟨⟨some "172.16.0.0/16", some "2001:db8:1::/48"⟩, none,
        some ⟨.addr ⟨some "10.0.0.2", none⟩, none⟩, false⟩).2 = .crash := by
  decide +kernel

/-- C60 (defect): a route through a remote host with an unnumbered interface is accepted; the next hop is not an address. -/
theorem C60_not_an_address :
    (checkRoute srEnv srIfs ⟨⟨some "172.16.0.0/16", none⟩, none, some ⟨.node "h", none⟩, false⟩).2 =
      .keep ⟨⟨some "172.16.0.0/16", none⟩, none, ⟨some (.flag true), none⟩, none, none, 0⟩ := by
  decide +kernel

/-! ### C61: hosts -/

/-- C61: the default routes of hosts: one for every IPv4 or IPv6 prefix of every address pool (except the management pool and the
pool of router identifiers), through the gateway. -/
theorem C61_default_routes (pools : List (String × Dual String)) (r : SrRoute) :
    r ∈ defaultRoutes pools ↔
      ∃ name d af a, (name, d) ∈ pools ∧ name ≠ "mgmt" ∧ name ≠ "router_id" ∧ d.get af = some a ∧
        r = ⟨Dual.of (fun f => if f = af then some a else none), none, some ⟨.gateway, none⟩, true⟩ := by
  unfold defaultRoutes
  rw [List.mem_flatMap]
  constructor
  · rintro ⟨⟨name, d⟩, hp, hr⟩
    by_cases hx : name = "mgmt" ∨ name = "router_id"
    · rw [if_pos hx] at hr; cases hr
    · rw [if_neg hx] at hr
      obtain ⟨af, _, h⟩ := List.mem_filterMap.mp hr
      simp only [Option.map_eq_some_iff] at h
      obtain ⟨a, ha, rfl⟩ := h
      exact ⟨name, d, af, a, hp, fun h => hx (.inl h), fun h => hx (.inr h), ha, rfl⟩
  · rintro ⟨name, d, af, a, hp, h1, h2, ha, rfl⟩
    refine ⟨(name, d), hp, ?_⟩
    rw [if_neg (by rintro (h | h); exact h1 h; exact h2 h)]
    refine List.mem_filterMap.mpr ⟨af, by cases af <;> simp, ?_⟩
    simp [ha]

/-- C61: a default route never causes an error: it is removed when there is no usable gateway in its address family, and otherwise
replaced with routes through usable gateways. -/
theorem C61_no_errors {env : SrEnv} (h0 : 0 < env.maxNexthop) {pools : List (String × Dual String)} {afs : List Bool}
    {r : SrRoute} (hr : r ∈ hostRoutes afs (defaultRoutes pools)) (ifs : List SrIntf) :
    (checkRoute env ifs r).2 = .skip ∨
      ∃ l af p, (checkRoute env ifs r).2 = .expand l ∧ r.dst.get af = some p ∧ ∃ f ∈ l, f.dst.get af = some p := by
  unfold hostRoutes at hr
  obtain ⟨af0, _, hr⟩ := List.mem_flatMap.mp hr
  have hr := (List.mem_filter.mp hr).1
  obtain ⟨name, d, af, a, _, _, _, _, rfl⟩ := (C61_default_routes pools r).mp hr
  have hd : (Dual.of (fun f => if f = af then some a else none)).isEmpty = false := by
    cases af <;> rfl
  have hc : (checkRoute env ifs ⟨Dual.of (fun f => if f = af then some a else none), none, some ⟨.gateway, none⟩, true⟩).2 =
      finishRoute env ⟨Dual.of (fun f => if f = af then some a else none), none, some ⟨.gateway, none⟩, true⟩ ⟨.gateway, none⟩
        (resolveGateway env ⟨Dual.of (fun f => if f = af then some a else none), none, some ⟨.gateway, none⟩, true⟩
          ⟨.gateway, none⟩ ifs).2 := by
    unfold checkRoute
    rw [if_neg (by simp [hd])]
    rfl
  generalize hR : (⟨Dual.of (fun f => if f = af then some a else none), none, some ⟨.gateway, none⟩, true⟩ : SrRoute) = R
    at hc ⊢
  have hRd : R.dst.get af = some a := by rw [← hR]; simp
  have hRs : R.skipMissing = true := by rw [← hR]
  have hRn : R.next = some ⟨.gateway, none⟩ := by rw [← hR]
  have hx := resolveGateway_addr env R ⟨.gateway, none⟩ ifs
  generalize hX : (resolveGateway env R ⟨.gateway, none⟩ ifs).2 = X at hc hx
  by_cases h1 : ([false, true].any (fun af => (R.dst.get af).isSome && (X.addr.get af).isNone)) = true
  · left
    rw [hc]
    unfold finishRoute
    rw [if_pos h1, if_pos hRs]
  · right
    have h2 : X.nhlist.isEmpty = false := by
      cases hl : X.nhlist with
      | cons => rfl
      | nil =>
        exfalso
        apply h1
        rw [List.any_eq_true]
        refine ⟨af, by cases af <;> simp, ?_⟩
        rw [hx, hl, hRd]
        simp [firstAddrs, asAddrs]
    have he : (checkRoute env ifs R).2 = .expand (expandAf env R X.nhlist false ++ expandAf env R X.nhlist true) := by
      rw [hc]
      unfold finishRoute
      rw [if_neg h1, if_neg (by simp [h2])]
    obtain ⟨f, hf, hfd, _⟩ := C60_covered h0 hRn (by simp) he hRd
    exact ⟨_, af, a, he, hRd, f, hf, hfd⟩

/-- C61: a host has a static route exactly for the entries of the list in the address families of the host. -/
theorem C61_host_routes (afs : List Bool) (l : List SrRoute) (r : SrRoute) :
    r ∈ hostRoutes afs l ↔ r ∈ l ∧ ∃ af ∈ afs, (r.dst.get af).isSome := by
  unfold hostRoutes
  rw [List.mem_flatMap]
  constructor
  · rintro ⟨af, haf, hr⟩
    obtain ⟨h1, h2⟩ := List.mem_filter.mp hr
    exact ⟨h1, af, haf, by simpa using h2⟩
  · rintro ⟨h1, af, haf, h2⟩
    exact ⟨af, haf, List.mem_filter.mpr ⟨h1, by simpa using h2⟩⟩

/-- C61: no route is used twice when every entry of the list has a single prefix. -/
theorem C61_no_repeats {afs : List Bool} (ha : afs.Nodup) {l : List SrRoute} (hl : l.Nodup)
    (h1 : ∀ r ∈ l, r.dst.v4 = none ∨ r.dst.v6 = none) : (hostRoutes afs l).Nodup := by
  unfold hostRoutes
  induction afs with
  | nil => exact List.nodup_nil
  | cons af rest ih =>
    rw [List.nodup_cons] at ha
    rw [List.flatMap_cons, List.nodup_append]
    refine ⟨hl.filter _, ih ha.2, ?_⟩
    rintro r hr s hs rfl
    obtain ⟨hm, h2⟩ := List.mem_filter.mp hr
    obtain ⟨af', haf', hs⟩ := List.mem_flatMap.mp hs
    have h3 := (List.mem_filter.mp hs).2
    have hne : af ≠ af' := fun h => ha.1 (h ▸ haf')
    have key : ∀ b : Bool, (r.dst.get b).isSome = true → (r.dst.get (!b)).isSome = true → False := by
      intro b h4 h5
      rcases h1 r hm with h | h
      · cases b
        · rw [show r.dst.get false = none from h] at h4; cases h4
        · rw [show r.dst.get (!true) = none from h] at h5; cases h5
      · cases b
        · rw [show r.dst.get (!false) = none from h] at h5; cases h5
        · rw [show r.dst.get true = none from h] at h4; cases h4
    have he : af' = !af := by
      cases af <;> cases af'
      · exact absurd rfl hne
      · rfl
      · rfl
      · exact absurd rfl hne
    subst he
    exact key af (by simpa using h2) (by simpa using h3)

/-- C61 (defect): a dual-stack host gets two copies of a route with IPv4 and IPv6 prefixes (in the list of static routes for
hosts), and an entry with a pool, a named prefix or a node as the destination (it has no prefix yet) is ignored. -/
theorem C61_duplicate_and_ignored (n : SrNext) :
    hostRoutes [false, true] [⟨⟨some "10.0.0.0/8", some "2001:db8::/32"⟩, none, some n, false⟩,
        ⟨⟨none, none⟩, none, some n, false⟩] =
      [⟨⟨some "10.0.0.0/8", some "2001:db8::/32"⟩, none, some n, false⟩,
       ⟨⟨some "10.0.0.0/8", some "2001:db8::/32"⟩, none, some n, false⟩] := rfl

example : hostRoutes [false] (defaultRoutes [("lan", ⟨some "172.16.0.0/16", some "2001:db8::/48"⟩), ("mgmt", ⟨some "x", none⟩)]) =
    [⟨⟨some "172.16.0.0/16", none⟩, none, some ⟨.gateway, none⟩, true⟩] := by decide +kernel

end Netlab
