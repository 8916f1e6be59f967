import Verif.Props.Evpn
/-!
# C75: EVPN on nodes
-/

namespace Netlab
open Spec

theorem ev_sum_zero (l : List Nat) : l.sum = 0 ↔ ∀ x ∈ l, x = 0 := by
  induction l with
  | nil => simp
  | cons a l ih => simp [Nat.add_eq_zero_iff, ih]

/-- The node before route distinguishers are set -/
def evpnPre (usesEvpn : String → Bool) (g : EvGlobal) (n : EvNode) : EvNode :=
  trimEvpnLists (copyEvpnLists g (enableEvpnAf usesEvpn n))

theorem evpnNode_eq (usesEvpn : String → Bool) (g : EvGlobal) (n : EvNode) :
    (evpnNode usesEvpn g n).1 = (setEvpnRd (evpnPre usesEvpn g n)).1 := rfl

/-- C75: the EVPN address family is active on exactly the sessions of an EVPN session type with
nodes using EVPN. -/
theorem C75_neighbors (usesEvpn : String → Bool) (g : EvGlobal) (n : EvNode) (h : ∀ x ∈ n.ngbs, x.evpn = false) :
    List.Forall₂ (fun x y => y.name = x.name ∧ y.type = x.type ∧
        (y.evpn = true ↔ (∃ l, n.session = some l ∧ x.type ∈ l) ∧ usesEvpn x.name = true))
      n.ngbs (evpnNode usesEvpn g n).1.ngbs := by
  have he : (evpnNode usesEvpn g n).1.ngbs = n.ngbs.map (fun g =>
      if (n.session.getD []).contains g.type && usesEvpn g.name then { g with evpn := true } else g) := rfl
  rw [he, List.forall₂_map_right_iff, List.forall₂_same]
  intro x hx
  have hs : (n.session.getD []).contains x.type = true ↔ ∃ l, n.session = some l ∧ x.type ∈ l := by
    cases n.session <;> simp
  rw [← hs]
  by_cases hc : ((n.session.getD []).contains x.type && usesEvpn x.name) = true
  · rw [if_pos hc]
    rw [Bool.and_eq_true] at hc
    exact ⟨rfl, rfl, by simp only [true_iff]; exact hc⟩
  · rw [if_neg hc, h x hx]
    rw [Bool.and_eq_true] at hc
    exact ⟨rfl, rfl, by simp only [Bool.false_eq_true, false_iff]; exact hc⟩

/-- C75: sessions agree: when two nodes using EVPN have the same EVPN session types, and each is a neighbor of the other
over a session of the same type, EVPN is active on both ends or on none. -/
theorem C75_symmetric (usesEvpn : String → Bool) (g : EvGlobal) (a b : EvNode) (x y : EvNgb)
    (hab : a.session = b.session) (hua : usesEvpn a.name = true) (hub : usesEvpn b.name = true)
    (ha : ∀ x ∈ a.ngbs, x.evpn = false) (hb : ∀ x ∈ b.ngbs, x.evpn = false)
    (hx : x ∈ (evpnNode usesEvpn g a).1.ngbs) (hy : y ∈ (evpnNode usesEvpn g b).1.ngbs)
    (hxn : x.name = b.name) (hyn : y.name = a.name) (ht : x.type = y.type) : x.evpn = y.evpn := by
  have key : ∀ (n : EvNode) (z : EvNgb), (∀ x ∈ n.ngbs, x.evpn = false) → z ∈ (evpnNode usesEvpn g n).1.ngbs →
      (z.evpn = true ↔ (∃ l, n.session = some l ∧ z.type ∈ l) ∧ usesEvpn z.name = true) := by
    intro n z hn hz
    have hf := C75_neighbors usesEvpn g n hn
    clear hn
    revert hz
    generalize (evpnNode usesEvpn g n).1.ngbs = m at hf
    generalize n.ngbs = k at hf
    intro hz
    induction hf with
    | nil => cases hz
    | cons hr _ ih =>
      rcases List.mem_cons.1 hz with rfl | hz
      · rw [hr.1, hr.2.1]; exact hr.2.2
      · exact ih hz
  have h1 := key a x ha hx
  have h2 := key b y hb hy
  rw [hxn, hab, ht] at h1
  rw [hyn] at h2
  have : x.evpn = true ↔ y.evpn = true := by
    rw [h1, h2, hua, hub]
  cases hx : x.evpn <;> cases hy : y.evpn <;> simp_all

/-- C75: the EVPN lists of a node: VLANs and VRFs of the node that are in the list of the node or else in the global one,
in the order of the node. -/
theorem C75_lists (usesEvpn : String → Bool) (g : EvGlobal) (n : EvNode) :
    (∀ l, nodeOr n.evVlans g.evVlans l →
      ∃ k, (evpnNode usesEvpn g n).1.evVlans = some k ∧ List.Sublist k (n.vlans.map (·.1)) ∧
        ∀ x, x ∈ k ↔ x ∈ n.vlans.map (·.1) ∧ x ∈ l) ∧
    (∀ l, nodeOr n.evVrfs g.evVrfs l →
      ∃ k, (evpnNode usesEvpn g n).1.evVrfs = some k ∧ List.Sublist k (n.vrfs.map (·.1)) ∧
        ∀ x, x ∈ k ↔ x ∈ n.vrfs.map (·.1) ∧ x ∈ l) ∧
    ((n.evVlans = none ∧ g.evVlans = none) → (evpnNode usesEvpn g n).1.evVlans = none) ∧
    ((n.evVrfs = none ∧ g.evVrfs = none) → (evpnNode usesEvpn g n).1.evVrfs = none) ∧
    (∀ t, (evpnNode usesEvpn g n).1.transport = some t ↔ nodeOr n.transport g.transport t) := by
  have e1 : (evpnNode usesEvpn g n).1.evVlans = (if n.evVlans.isSome then n.evVlans else g.evVlans).map
      (fun l => (n.vlans.map (·.1)).filter l.contains) := rfl
  have e2 : (evpnNode usesEvpn g n).1.evVrfs = (if n.evVrfs.isSome then n.evVrfs else g.evVrfs).map
      (fun l => (n.vrfs.map (·.1)).filter l.contains) := rfl
  have e3 : (evpnNode usesEvpn g n).1.transport = (if n.transport.isSome then n.transport else g.transport) := rfl
  have hor : ∀ (α : Type) (a b : Option α) x, nodeOr a b x → (if a.isSome then a else b) = some x := by
    rintro α a b x (rfl | ⟨rfl, rfl⟩) <;> rfl
  rw [e1, e2, e3]
  refine ⟨?_, ?_, ?_, ?_, ?_⟩
  · intro l hl
    rw [hor _ _ _ _ hl]
    refine ⟨_, rfl, List.filter_sublist, ?_⟩
    intro x
    rw [List.mem_filter]
    simp
  · intro l hl
    rw [hor _ _ _ _ hl]
    refine ⟨_, rfl, List.filter_sublist, ?_⟩
    intro x
    rw [List.mem_filter]
    simp
  · rintro ⟨h1, h2⟩; rw [h1, h2]; rfl
  · rintro ⟨h1, h2⟩; rw [h1, h2]; rfl
  · intro t
    unfold nodeOr
    cases n.transport <;> simp

theorem evpnRd_spec (rid : String) (o : Option EvObj) (h : (evpnRd rid o).2 = 0) :
    (o = none → (evpnRd rid o).1 = none) ∧
    ∀ e, o = some e → ∃ i, e.evi = some i ∧
      (evpnRd rid o).1 = some { e with rd := some (e.rd.getD (rid ++ ":" ++ toString i)) } := by
  unfold evpnRd at h ⊢
  cases o with
  | none => exact ⟨fun _ => rfl, fun e h => by cases h⟩
  | some e =>
    refine ⟨(fun h => nomatch h), ?_⟩
    rintro f hf
    cases hf
    simp only at h ⊢
    cases he : e.evi with
    | none => rw [he] at h; cases h
    | some i =>
      refine ⟨i, rfl, ?_⟩
      simp only
      cases e.rd <;> simp

/-- C75: when a node is accepted, every VLAN and VRF with EVPN attributes has an EVPN instance and a route distinguisher:
the configured one, or the router ID of the node followed by the EVPN instance.  Nothing else is changed. -/
theorem C75_route_distinguishers (usesEvpn : String → Bool) (g : EvGlobal) (n : EvNode)
    (hok : (evpnNode usesEvpn g n).2 = 0) :
    List.Forall₂ (fun v w => w.1 = v.1 ∧ (v.2 = none → w.2 = none) ∧ ∀ e, v.2 = some e → ∃ i, e.evi = some i ∧
        w.2 = some { e with rd := some (e.rd.getD (n.routerId ++ ":" ++ toString i)) })
      n.vlans (evpnNode usesEvpn g n).1.vlans ∧
    List.Forall₂ (fun v w => w.1 = v.1 ∧ w.2.af = v.2.af ∧ (v.2.evpn = none → w.2.evpn = none) ∧
        ∀ e, v.2.evpn = some e → ∃ i, e.evi = some i ∧
          w.2.evpn = some { e with rd := some (e.rd.getD (n.routerId ++ ":" ++ toString i)) })
      n.vrfs (evpnNode usesEvpn g n).1.vrfs := by
  have e1 : (evpnNode usesEvpn g n).1.vlans = (n.vlans.map (fun v => (v.1, evpnRd n.routerId v.2))).map
      (fun v => (v.1, v.2.1)) := rfl
  have e2 : (evpnNode usesEvpn g n).1.vrfs = (n.vrfs.map (fun v => (v.1, v.2.af, evpnRd n.routerId v.2.evpn))).map
      (fun v => (v.1, ({ af := v.2.1, evpn := v.2.2.1 } : EvNodeVrf))) := rfl
  have e3 : ∃ x, (evpnNode usesEvpn g n).2 = x +
      (((n.vlans.map (fun v => (v.1, evpnRd n.routerId v.2))).map (fun v => v.2.2)).sum +
       ((n.vrfs.map (fun v => (v.1, v.2.af, evpnRd n.routerId v.2.evpn))).map (fun v => v.2.2.2)).sum) := ⟨_, rfl⟩
  obtain ⟨x, e3⟩ := e3
  rw [e3] at hok
  have z1 : ((n.vlans.map (fun v => (v.1, evpnRd n.routerId v.2))).map (fun v => v.2.2)).sum = 0 := by omega
  have z2 : ((n.vrfs.map (fun v => (v.1, v.2.af, evpnRd n.routerId v.2.evpn))).map (fun v => v.2.2.2)).sum = 0 := by omega
  rw [List.map_map, ev_sum_zero] at z1 z2
  rw [e1, e2, List.map_map, List.map_map]
  constructor
  · rw [List.forall₂_map_right_iff, List.forall₂_same]
    intro v hv
    have hz : (evpnRd n.routerId v.2).2 = 0 := z1 _ (List.mem_map.2 ⟨v, hv, rfl⟩)
    obtain ⟨k1, k2⟩ := evpnRd_spec n.routerId v.2 hz
    exact ⟨rfl, k1, k2⟩
  · rw [List.forall₂_map_right_iff, List.forall₂_same]
    intro v hv
    have hz : (evpnRd n.routerId v.2.evpn).2 = 0 := z2 _ (List.mem_map.2 ⟨v, hv, rfl⟩)
    obtain ⟨k1, k2⟩ := evpnRd_spec n.routerId v.2.evpn hz
    exact ⟨rfl, rfl, k1, k2⟩

/-- C75: route distinguishers that are not configured differ when the EVPN instances do. -/
theorem C75_distinguishers_differ (routerId : String) (i j : Int) :
    routerId ++ ":" ++ toString i = routerId ++ ":" ++ toString j ↔ i = j :=
  ⟨prefixed_inj, fun h => by rw [h]⟩

theorem pySubstr_iff (x y : List Char) : pySubstr x y = true ↔ ∃ a b, y = a ++ x ++ b := by
  induction y with
  | nil =>
    simp only [pySubstr, List.isEmpty_iff]
    constructor
    · rintro rfl; exact ⟨[], [], rfl⟩
    · rintro ⟨a, b, h⟩
      have := congrArg List.length h
      simp only [List.length_nil, List.length_append] at this
      exact List.length_eq_zero_iff.1 (by omega)
  | cons c y ih =>
    simp only [pySubstr, Bool.or_eq_true, List.isPrefixOf_iff_prefix, ih]
    constructor
    · rintro (⟨b, h⟩ | ⟨a, b, h⟩)
      · exact ⟨[], b, by simpa using h.symm⟩
      · exact ⟨c :: a, b, by rw [h]; rfl⟩
    · rintro ⟨a, b, h⟩
      cases a with
      | nil => left; exact ⟨b, by simpa using h.symm⟩
      | cons d a =>
        right
        rw [List.cons_append, List.cons_append] at h
        exact ⟨a, b, (List.cons.inj h).2⟩

theorem checkAsymVlan_zero (g : EvGlobal) (n : EvNode) (name : String) :
    checkAsymVlan g n name = 0 ↔
      ∀ l ∈ g.vlans, NamedLike name l.2.1 → l.2.2 = true → l.1 ∈ n.vlans.map (·.1) := by
  unfold checkAsymVlan NamedLike
  rw [List.length_eq_zero_iff, List.filter_eq_nil_iff]
  have key : ∀ l : String × Option String × Bool,
      (¬ (pySubstr name.toList (l.2.1.getD "").toList && l.2.2 && !(n.vlans.map (·.1)).contains l.1) = true) ↔
      ((∃ a b, (l.2.1.getD "").toList = a ++ name.toList ++ b) → l.2.2 = true → l.1 ∈ n.vlans.map (·.1)) := by
    intro l
    rw [Bool.and_eq_true, Bool.and_eq_true, pySubstr_iff, Bool.not_eq_true', ← List.contains_iff_mem]
    constructor
    · intro h h1 h2
      cases hc : (n.vlans.map (·.1)).contains l.1 with
      | true => rfl
      | false => exact absurd ⟨⟨h1, h2⟩, hc⟩ h
    · rintro h ⟨⟨h1, h2⟩, h3⟩
      rw [h h1 h2] at h3
      cases h3
  constructor
  · intro h l hl; exact (key l).1 (h l hl)
  · intro h l hl; exact (key l).2 (h l hl)

theorem checkVrfIrb_zero (usesEvpn : String → Bool) (g : EvGlobal) (n : EvNode) (name : String) (v : EvNodeVrf) :
    checkVrfIrb g (copyEvpnLists g (enableEvpnAf usesEvpn n)) name v = 0 ↔
      (v.af = true → UsableVrf g n (NamedLike name) v) := by
  have htr : (copyEvpnLists g (enableEvpnAf usesEvpn n)).transport =
    (if n.transport.isSome then n.transport else g.transport) := rfl
  have hirb : (copyEvpnLists g (enableEvpnAf usesEvpn n)).irb = n.irb := rfl
  have hasym : (copyEvpnLists g (enableEvpnAf usesEvpn n)).asymIrb = n.asymIrb := rfl
  have hchk : checkAsymVlan g (copyEvpnLists g (enableEvpnAf usesEvpn n)) name = checkAsymVlan g n name := rfl
  have hno : ∀ x, nodeOr n.transport g.transport x ↔ (if n.transport.isSome then n.transport else g.transport) = some x := by
    intro x
    unfold nodeOr
    cases n.transport <;> simp
  unfold checkVrfIrb UsableVrf SymmetricIrb
  rw [htr, hirb, hasym, hchk]
  simp only [hno, ← checkAsymVlan_zero]
  generalize (if n.transport.isSome then n.transport else g.transport) = tr
  have h1 : (v.evpn.any (·.transitVni)) = true ↔ ∃ e, v.evpn = some e ∧ e.transitVni = true := by
    cases v.evpn <;> simp
  have h2 : (tr.getD "vxlan" == "mpls") = true ↔ tr = some "mpls" := by
    cases tr <;> simp
  have h3 : (tr.getD "vxlan" == "vxlan") = false ↔ ∃ x, tr = some x ∧ x ≠ "vxlan" := by
    cases tr <;> simp
  rw [← h1, ← h2, ← h3]
  generalize (tr.getD "vxlan" == "mpls") = a
  generalize (tr.getD "vxlan" == "vxlan") = b
  generalize v.evpn.any (·.transitVni) = c
  generalize n.irb = d
  generalize n.asymIrb = e
  generalize v.af = f
  cases a <;> cases b <;> cases c <;> cases d <;> cases e <;> cases f <;> simp

theorem checkVrfBundle_zero (n : EvNode) (v : EvNodeVrf) :
    checkVrfBundle n v = 0 ↔ ∀ e b, v.evpn = some e → e.bundle = some b → b ≠ "" → b ∈ n.bundles := by
  unfold checkVrfBundle
  cases hv : v.evpn with
  | none => simp
  | some e =>
    cases hb : e.bundle with
    | none =>
      simp only [Option.bind_some, hb, Option.getD_none, if_true, true_iff]
      rintro f c hf hc -
      cases hf
      rw [hb] at hc
      cases hc
    | some b =>
      simp only [Option.bind_some, hb, Option.getD_some]
      by_cases h : b = ""
      · rw [if_pos h]
        simp only [true_iff]
        rintro f c hf hc hne
        cases hf
        rw [hb] at hc
        cases hc
        exact absurd h hne
      · rw [if_neg h]
        by_cases hc : n.bundles.contains b = true
        · rw [if_pos hc]
          simp only [true_iff]
          rintro f c hf hc' -
          cases hf
          rw [hb] at hc'
          cases hc'
          exact List.contains_iff_mem.1 hc
        · rw [if_neg hc]
          simp only [Nat.one_ne_zero, false_iff]
          intro hh
          exact hc (List.contains_iff_mem.2 (hh e b rfl hb h))

theorem evpnRd_zero (rid : String) (o : Option EvObj) : (evpnRd rid o).2 = 0 ↔ ∀ e, o = some e → e.evi ≠ none := by
  unfold evpnRd
  cases o with
  | none => simp
  | some e => cases he : e.evi <;> simp [he]

/-- C75: a node is accepted if and only if all its VRFs are usable, the device supports all its bundles and all EVPN
objects have an EVPN instance.  A VRF using asymmetric IRB needs all VLANs of VRFs whose name contains its name. -/
theorem C75_accepted_iff (usesEvpn : String → Bool) (g : EvGlobal) (n : EvNode) :
    (evpnNode usesEvpn g n).2 = 0 ↔
      (∀ v ∈ n.vrfs, v.2.af = true → UsableVrf g n (NamedLike v.1) v.2) ∧
      (∀ v ∈ n.vrfs, ∀ e b, v.2.evpn = some e → e.bundle = some b → b ≠ "" → b ∈ n.bundles) ∧
      (∀ v ∈ n.vlans, ∀ e, v.2 = some e → e.evi ≠ none) ∧ (∀ v ∈ n.vrfs, ∀ e, v.2.evpn = some e → e.evi ≠ none) := by
  have e3 : (evpnNode usesEvpn g n).2 =
      ((n.vrfs.map (fun v => checkVrfIrb g (copyEvpnLists g (enableEvpnAf usesEvpn n)) v.1 v.2)).sum +
       (n.vrfs.map (fun v => checkVrfBundle (copyEvpnLists g (enableEvpnAf usesEvpn n)) v.2)).sum) +
      (((n.vlans.map (fun v => (v.1, evpnRd n.routerId v.2))).map (fun v => v.2.2)).sum +
       ((n.vrfs.map (fun v => (v.1, v.2.af, evpnRd n.routerId v.2.evpn))).map (fun v => v.2.2.2)).sum) := rfl
  rw [e3]
  simp only [Nat.add_eq_zero_iff, ev_sum_zero, List.mem_map, forall_exists_index, and_imp, forall_apply_eq_imp_iff₂,
    checkVrfIrb_zero, checkVrfBundle_zero, evpnRd_zero]
  exact ⟨fun ⟨⟨a, b⟩, c, d⟩ => ⟨a, b, c, d⟩, fun ⟨a, b, c, d⟩ => ⟨⟨a, b⟩, c, d⟩⟩

/-- C75: when a node is accepted, every VRF with addresses either uses symmetric IRB and the device supports it, or the
device supports asymmetric IRB and all EVPN VLANs of the VRF are on the node. -/
theorem C75_irb (usesEvpn : String → Bool) (g : EvGlobal) (n : EvNode) (hok : (evpnNode usesEvpn g n).2 = 0) :
    ∀ v ∈ n.vrfs, v.2.af = true → UsableVrf g n (fun vrf => vrf = some v.1) v.2 := by
  intro v hv haf
  rcases ((C75_accepted_iff usesEvpn g n).1 hok).1 v hv haf with h | ⟨h1, h2, h3⟩
  · exact .inl h
  · refine .inr ⟨h1, h2, ?_⟩
    intro l hl hlv
    exact h3 l hl ⟨[], [], by rw [hlv]; simp⟩

/-- A node in the example -/
def exEvNode : EvNode where
  name := "s1"
  routerId := "10.0.0.1"
  session := some [.ibgp]
  ngbs := [⟨"s2", .ibgp, false⟩, ⟨"s3", .ibgp, false⟩, ⟨"s2", .ebgp, false⟩]
  vlans := [("red", some { evi := some 1000 }), ("x", none), ("blue", some { evi := some 1001, rd := some "1:1" })]
  vrfs := [("tenant", { af := true, evpn := some { evi := some 1, transitVni := true } })]
  irb := true

/-- Non-trivial instance of C75 -/
example :
    let r := evpnNode (fun n => n = "s1" || n = "s2") { evVlans := some ["blue", "green", "red"], evVrfs := some ["tenant"] } exEvNode
    r.2 = 0 ∧ r.1.ngbs.map (·.evpn) = [true, false, false] ∧ r.1.evVlans = some ["red", "blue"] ∧
    r.1.evVrfs = some ["tenant"] ∧
    r.1.vlans.map (fun v => v.2.bind (·.rd)) = [some "10.0.0.1:1000", none, some "1:1"] := by decide +kernel

/-- Defect: a VLAN and a VRF with the same EVPN instance get the same route distinguisher on a node; the instances are the
VLAN id and the VRF id unless they are configured. -/
theorem C75_vlan_and_vrf_share_rd :
    let n : EvNode := { name := "s", routerId := "10.0.0.1", vlans := [("red", some { evi := some 1 })],
                        vrfs := [("tenant", { af := true, evpn := some { evi := some 1, transitVni := true } })], irb := true }
    let r := evpnNode (fun _ => true) {} n
    r.2 = 0 ∧ r.1.vlans.map (fun v => v.2.bind (·.rd)) = [some "10.0.0.1:1"] ∧
    r.1.vrfs.map (fun v => v.2.evpn.bind (·.rd)) = [some "10.0.0.1:1"] := by decide +kernel

/-- Defect: a node is rejected when it lacks a VLAN of another VRF whose name contains the name of its VRF. -/
theorem C75_rejected_due_to_other_vrf :
    (evpnNode (fun _ => true) { vlans := [("v1", some "infrared", true)] }
      { name := "s", vrfs := [("red", { af := true })], asymIrb := true }).2 = 1 ∧
    (evpnNode (fun _ => true) { vlans := [("v1", some "blue", true)] }
      { name := "s", vrfs := [("red", { af := true })], asymIrb := true }).2 = 0 := by decide +kernel

end Netlab
