import Verif.Spec.Bgp
/-!
# C23: IBGP sessions
-/

namespace Netlab
open Spec

theorem eq_of_nodup_name {topo : List BgpNode} (hn : (topo.map (·.name)).Nodup) {x y : BgpNode}
    (hx : x ∈ topo) (hy : y ∈ topo) (h : x.name = y.name) : x = y := by
  induction topo with
  | nil => simp at hx
  | cons a r ih =>
    simp only [List.map_cons, List.nodup_cons, List.mem_map, not_exists, not_and] at hn
    rcases List.mem_cons.1 hx with e | hx' <;> rcases List.mem_cons.1 hy with e' | hy'
    · rw [e, e']
    · subst e; exact absurd h.symm (hn.1 _ hy')
    · subst e'; exact absurd h (hn.1 _ hx')
    · exact ih hn.2 hx' hy'

theorem isRr_iff (n : BgpNode) : n.isRr = true ↔ n.rr = some true := by
  unfold BgpNode.isRr
  cases n.rr with
  | none => simp
  | some b => cases b <;> simp

theorem bgpNeighbor_isSome (g : BgpNgb) (af : AfAddr) (s : Sessions) :
    (bgpNeighbor g af s).isSome = true ↔ Usable s g.type af := by
  unfold bgpNeighbor Usable
  by_cases h4 : g.type ∈ s.ipv4 <;> by_cases h6 : g.type ∈ s.ipv6 <;>
    cases e4 : af.ipv4 <;> cases e6 : af.ipv6 <;> simp [h4, h6]

theorem bgpNeighbor_some {g g' : BgpNgb} {af : AfAddr} {s : Sessions} (h : bgpNeighbor g af s = some g') :
    g'.name = g.name ∧ g'.asn = g.asn ∧ g'.type = g.type ∧ g'.rr = g.rr ∧ g'.ifindex = g.ifindex ∧
    g'.vrf = g.vrf ∧ g'.localIf = g.localIf ∧ g'.rfc8950 = g.rfc8950 ∧ g'.localAs = g.localAs ∧
    g'.ipv4 = (if g.type ∈ s.ipv4 then af.ipv4.map AddrV.peer else none) ∧
    g'.ipv6 = (if g.type ∈ s.ipv6 then af.ipv6.map AddrV.peer else none) := by
  unfold bgpNeighbor at h
  simp only at h
  generalize hc : (_ && _ : Bool) = c at h
  cases c with
  | true => simp at h
  | false =>
    simp only [Bool.false_eq_true, if_false] at h
    obtain rfl := Option.some.inj h
    simp

theorem ibgpReachable_iff (x y : BgpNode) :
    IbgpReachable x y ↔ Usable x.sessions .ibgp (ibgpEndpoint y) := by
  constructor
  · rintro ⟨af, h, hu⟩
    cases h with
    | loopback _ h => simpa [ibgpEndpoint, h] using hu
    | daemon i r h1 h2 h3 => simpa [ibgpEndpoint, h1, h2, h3] using hu
  · intro hu
    unfold ibgpEndpoint at hu
    have hno : ¬ Usable x.sessions .ibgp {} := by simp [Usable]
    cases hl : y.loopback with
    | some l =>
      rw [hl] at hu
      exact ⟨l, .loopback l hl, hu⟩
    | none =>
      rw [hl] at hu
      by_cases hd : y.daemon = true
      · cases hi : y.interfaces with
        | nil => simp only [hd, hi, if_true] at hu; exact absurd hu hno
        | cons i r =>
          simp only [hd, hi, if_true] at hu
          exact ⟨_, .daemon i r hl hd hi, hu⟩
      · simp only [hd] at hu
        exact absurd hu hno

theorem findBgpRr_isEmpty (a : Int) (topo : List BgpNode) :
    (findBgpRr a topo).isEmpty = true ↔ ¬ ∃ r ∈ topo, RouteReflector r a := by
  simp [findBgpRr, RouteReflector, isRr_iff, List.filter_eq_nil_iff]

theorem mem_buildIbgp (topo : List BgpNode) (x : BgpNode) (a : Int) (g : BgpNgb) (hx : x.bgpAs = some a) :
    g ∈ buildIbgpSessions topo x a ↔
      ∃ y ∈ topo, IbgpWanted topo x y a ∧ ibgpSession x.sessions a y = some g := by
  unfold buildIbgpSessions
  simp only
  by_cases hc : ((findBgpRr a topo).isEmpty || x.isRr) = true
  · rw [if_pos hc]
    simp only [List.mem_filterMap]
    rw [Bool.or_eq_true, findBgpRr_isEmpty, isRr_iff] at hc
    constructor
    · rintro ⟨y, hy, h⟩
      by_cases hcond : y.bgpAs = some a ∧ y.name ≠ x.name
      · rw [if_pos hcond] at h
        refine ⟨y, hy, ⟨hx, hcond.1, fun e => hcond.2 e.symm, ?_⟩, h⟩
        rcases hc with h | h
        · exact .inl h
        · exact .inr (.inl h)
      · rw [if_neg hcond] at h; cases h
    · rintro ⟨y, hy, ⟨-, h2, h3, -⟩, h⟩
      exact ⟨y, hy, by rw [if_pos ⟨h2, fun e => h3 e.symm⟩]; exact h⟩
  · rw [if_neg hc]
    simp only [List.mem_filterMap]
    rw [Bool.or_eq_true, findBgpRr_isEmpty, isRr_iff] at hc
    simp only [not_or] at hc
    constructor
    · rintro ⟨y, hy, h⟩
      simp only [findBgpRr, List.mem_filter, Bool.and_eq_true, decide_eq_true_eq, isRr_iff] at hy
      by_cases hcond : y.name ≠ x.name
      · rw [if_pos hcond] at h
        exact ⟨y, hy.1, ⟨hx, hy.2.1, fun e => hcond e.symm, .inr (.inr hy.2.2)⟩, h⟩
      · rw [if_neg hcond] at h; cases h
    · rintro ⟨y, hy, ⟨-, h2, h3, h4⟩, h⟩
      have hrr : y.rr = some true := by
        rcases h4 with h4 | h4 | h4
        · exact absurd h4 hc.1
        · exact absurd h4 hc.2
        · exact h4
      refine ⟨y, ?_, by rw [if_pos (fun e => h3 e.symm)]; exact h⟩
      simp [findBgpRr, isRr_iff, hy, h2, hrr]

/-- C23: a router has an IBGP session with another router if and only if they are different routers in
the same AS, the AS has no route reflectors or one of the two routers is a route reflector, and
the other router is reachable (it has an address in an address family enabled for IBGP). -/
theorem C23_ibgp_sessions_exact (topo : List BgpNode) (x y : BgpNode) (a : Int)
    (hn : (topo.map (·.name)).Nodup) (hy : y ∈ topo) (hx : x.bgpAs = some a) :
    (∃ g ∈ buildIbgpSessions topo x a, g.name = y.name) ↔
      IbgpWanted topo x y a ∧ IbgpReachable x y := by
  rw [ibgpReachable_iff]
  constructor
  · rintro ⟨g, hg, hname⟩
    obtain ⟨z, hz, hw, hs⟩ := (mem_buildIbgp topo x a g hx).1 hg
    have hzy : z = y := by
      have h1 := (bgpNeighbor_some hs).1
      have h2 : z.name = y.name := by rw [← hname, h1]
      exact eq_of_nodup_name hn hz hy h2
    subst hzy
    refine ⟨hw, ?_⟩
    have := (bgpNeighbor_isSome _ _ _).1 (Option.isSome_iff_exists.2 ⟨g, hs⟩)
    exact this
  · rintro ⟨hw, hu⟩
    have hu' := (bgpNeighbor_isSome { name := y.name, asn := a, type := .ibgp, rr := y.rr } (ibgpEndpoint y)
      x.sessions).2 hu
    obtain ⟨g, hg⟩ := Option.isSome_iff_exists.1 hu'
    exact ⟨g, (mem_buildIbgp topo x a g hx).2 ⟨y, hy, hw, hg⟩, (bgpNeighbor_some hg).1⟩

/-- C23: IBGP sessions are symmetric when the two routers can reach each other. -/
theorem C23_ibgp_symmetric (topo : List BgpNode) (x y : BgpNode) (a : Int)
    (hn : (topo.map (·.name)).Nodup) (hx : x ∈ topo) (hy : y ∈ topo)
    (hxa : x.bgpAs = some a) (hya : y.bgpAs = some a)
    (hxy : IbgpReachable x y) (hyx : IbgpReachable y x) :
    (∃ g ∈ buildIbgpSessions topo x a, g.name = y.name) ↔
    (∃ g ∈ buildIbgpSessions topo y a, g.name = x.name) := by
  rw [C23_ibgp_sessions_exact topo x y a hn hy hxa, C23_ibgp_sessions_exact topo y x a hn hx hya]
  constructor
  · rintro ⟨⟨h1, h2, h3, h4⟩, -⟩
    exact ⟨⟨h2, h1, fun e => h3 e.symm, h4.imp id Or.symm⟩, hyx⟩
  · rintro ⟨⟨h1, h2, h3, h4⟩, -⟩
    exact ⟨⟨h2, h1, fun e => h3 e.symm, h4.imp id Or.symm⟩, hxy⟩

/-- C23: a router never peers with itself and has at most one IBGP session with another router. -/
theorem C23_ibgp_no_self_no_duplicates (topo : List BgpNode) (x : BgpNode) (a : Int)
    (hn : (topo.map (·.name)).Nodup) (hx : x.bgpAs = some a) :
    (∀ g ∈ buildIbgpSessions topo x a, g.name ≠ x.name) ∧
    ((buildIbgpSessions topo x a).map (·.name)).Nodup := by
  constructor
  · intro g hg
    obtain ⟨y, -, hw, hs⟩ := (mem_buildIbgp topo x a g hx).1 hg
    rw [(bgpNeighbor_some hs).1]
    exact fun e => hw.2.2.1 e.symm
  · have key : ∀ (l : List BgpNode) (f : BgpNode → Option BgpNgb),
        (∀ n g, f n = some g → g.name = n.name) → (l.map (·.name)).Nodup →
        ((l.filterMap f).map (·.name)).Nodup := by
      intro l f hf hl
      have sub : ((l.filterMap f).map (·.name)).Sublist (l.map (·.name)) := by
        clear hl
        induction l with
        | nil => simp
        | cons n r ih =>
          cases hfn : f n with
          | none => simp only [List.filterMap_cons, hfn, List.map_cons]; exact .cons _ ih
          | some g =>
            simp only [List.filterMap_cons, hfn, List.map_cons, hf n g hfn]
            exact .cons_cons _ ih
      exact sub.nodup hl
    have hsess : ∀ (n : BgpNode) g, ibgpSession x.sessions a n = some g → g.name = n.name :=
      fun n g h => (bgpNeighbor_some h).1
    unfold buildIbgpSessions
    simp only
    split
    · apply key _ _ _ hn
      intro n g h
      split at h
      · exact hsess _ _ h
      · cases h
    · refine key _ _ ?_ ?_
      · intro n g h
        split at h
        · exact hsess _ _ h
        · cases h
      · exact (List.Sublist.map _ List.filter_sublist).nodup hn

/-- C23: every IBGP neighbor has the AS number of the router, the route reflector flag of the neighbor, and its addresses:
an address family is used if and only if it is enabled for IBGP sessions and the neighbor has it. -/
theorem C23_ibgp_session_data (topo : List BgpNode) (x : BgpNode) (a : Int) (g : BgpNgb)
    (hx : x.bgpAs = some a) (hg : g ∈ buildIbgpSessions topo x a) :
    ∃ y ∈ topo, ∃ af, IbgpAddresses y af ∧
      g.name = y.name ∧ g.asn = a ∧ y.bgpAs = some a ∧ g.type = .ibgp ∧ g.rr = y.rr ∧ g.vrf = none ∧
      (∀ p, g.ipv4 = some p ↔ SType.ibgp ∈ x.sessions.ipv4 ∧ af.ipv4.map AddrV.peer = some p) ∧
      (∀ p, g.ipv6 = some p ↔ SType.ibgp ∈ x.sessions.ipv6 ∧ af.ipv6.map AddrV.peer = some p) := by
  obtain ⟨y, hy, hw, hs⟩ := (mem_buildIbgp topo x a g hx).1 hg
  obtain ⟨h1, h2, h3, h4, -, h6, -, -, -, h10, h11⟩ := bgpNeighbor_some hs
  have hu := (bgpNeighbor_isSome _ _ _).1 (Option.isSome_iff_exists.2 ⟨g, hs⟩)
  have hr : IbgpReachable x y := (ibgpReachable_iff x y).2 hu
  obtain ⟨af, ha, -⟩ := hr
  have haf : ibgpEndpoint y = af := by
    cases ha with
    | loopback _ h => simp [ibgpEndpoint, h]
    | daemon i r e1 e2 e3 => simp [ibgpEndpoint, e1, e2, e3]
  rw [haf] at h10 h11
  refine ⟨y, hy, af, ha, h1, h2, hw.2.1, h3, h4, h6, fun p => ?_, fun p => ?_⟩
  · rw [h10]
    split <;> rename_i hc
    · exact ⟨fun e => ⟨hc, e⟩, fun e => e.2⟩
    · exact ⟨(fun e => by cases e), fun e => absurd e.1 hc⟩
  · rw [h11]
    split <;> rename_i hc
    · exact ⟨fun e => ⟨hc, e⟩, fun e => e.2⟩
    · exact ⟨(fun e => by cases e), fun e => absurd e.1 hc⟩

/-- C23: with default session settings and an IPv4 or IPv6 address on all loopback interfaces, an AS without route
reflectors has a full mesh of IBGP sessions, and an AS with route reflectors has sessions exactly
between routers one of which is a route reflector. -/
theorem C23_ibgp_default_mesh (topo : List BgpNode) (a : Int) (hn : (topo.map (·.name)).Nodup)
    (hd : ∀ n ∈ topo, n.sessions = .default ∧ ∃ l, n.loopback = some l ∧ (l.ipv4 ≠ none ∨ l.ipv6 ≠ none))
    (x y : BgpNode) (hx : x ∈ topo) (hy : y ∈ topo) (hxa : x.bgpAs = some a) (hya : y.bgpAs = some a)
    (hne : x.name ≠ y.name) :
    (∃ g ∈ buildIbgpSessions topo x a, g.name = y.name) ↔
      ((∃ r ∈ topo, RouteReflector r a) → RouteReflector x a ∨ RouteReflector y a) := by
  have hr : IbgpReachable x y := by
    obtain ⟨l, hl, h⟩ := (hd y hy).2
    refine ⟨l, .loopback l hl, ?_⟩
    rw [(hd x hx).1]
    simpa [Usable, Sessions.default] using h
  rw [C23_ibgp_sessions_exact topo x y a hn hy hxa]
  constructor
  · rintro ⟨⟨-, -, -, h⟩, -⟩ hrr
    rcases h with h | h | h
    · exact absurd hrr h
    · exact .inl ⟨hxa, h⟩
    · exact .inr ⟨hya, h⟩
  · intro h
    refine ⟨⟨hxa, hya, hne, ?_⟩, hr⟩
    by_cases hrr : ∃ r ∈ topo, RouteReflector r a
    · rcases h hrr with h | h
      · exact .inr (.inl h.2)
      · exact .inr (.inr h.2)
    · exact .inl hrr

namespace IbgpExample

def lo (ip : String) : Option AfAddr := some { ipv4 := some (.addr ip 32) }
def r1 : BgpNode := { name := "r1", bgpAs := some 65000, loopback := lo "10.0.0.1", rr := some true }
def r2 : BgpNode := { name := "r2", bgpAs := some 65000, loopback := lo "10.0.0.2" }
def r3 : BgpNode := { name := "r3", bgpAs := some 65000, loopback := lo "10.0.0.3" }
def x1 : BgpNode := { name := "x1", bgpAs := some 65001, loopback := lo "10.0.0.4" }
def h1 : BgpNode := { name := "h1", bgpAs := some 65000 }

/-- Non-vacuity: a route reflector client has a single session, the route reflector peers with both clients. -/
example : ((buildIbgpSessions [r1, r2, r3, x1] r2 65000).map (·.name),
    (buildIbgpSessions [r1, r2, r3, x1] r1 65000).map (·.name),
    (buildIbgpSessions [r2, r3, x1] r2 65000).map (·.name)) = (["r1"], ["r2", "r3"], ["r3"]) := by
  decide +kernel

end IbgpExample

/-- C23: reachability is needed for the symmetry.  A router without a loopback interface has a one-sided
session with a router that has one. -/
theorem C23_ibgp_one_sided :
    ∃ (topo : List BgpNode) (x y : BgpNode), (topo.map (·.name)).Nodup ∧ x ∈ topo ∧ y ∈ topo ∧
      (∃ g ∈ buildIbgpSessions topo x 65000, g.name = y.name) ∧
      ¬ (∃ g ∈ buildIbgpSessions topo y 65000, g.name = x.name) := by
  refine ⟨[IbgpExample.r2, IbgpExample.h1], IbgpExample.h1, IbgpExample.r2, ?_, ?_, ?_, ?_, ?_⟩ <;> decide +kernel

end Netlab
