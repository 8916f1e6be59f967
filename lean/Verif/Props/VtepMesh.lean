import Verif.Props.Vtep
/-!
# C127: static VXLAN flooding lists form a full mesh
-/

namespace Netlab
open Spec

theorem storeVteps_vni (dom : List VxNode) (me : VxNode) (v : VxVlan) :
    (storeVteps dom me v).vni = v.vni := by
  unfold storeVteps
  split <;> rfl

theorem vxFlood_fields (dom : List VxNode) (me : VxNode) :
    (vxFlood dom me).name = me.name ∧ (vxFlood dom me).domain = me.domain ∧
    (vxFlood dom me).vtep = me.vtep ∧ (vxFlood dom me).static = me.static ∧
    ∀ x, UsesVni (vxFlood dom me) x ↔ UsesVni me x := by
  unfold vxFlood
  split
  · exact ⟨rfl, rfl, rfl, rfl, fun _ => Iff.rfl⟩
  · refine ⟨rfl, rfl, rfl, rfl, fun x => ?_⟩
    unfold UsesVni
    dsimp only
    cases me.vlans with
    | none => simp
    | some l =>
      simp only [Option.map_some, Option.some.injEq, exists_eq_left', List.mem_map]
      constructor
      · rintro ⟨v, ⟨w, hw, rfl⟩, hv⟩
        exact ⟨w, hw, by rw [← hv, storeVteps_vni]⟩
      · rintro ⟨w, hw, hv⟩
        exact ⟨_, ⟨w, hw, rfl⟩, by rw [storeVteps_vni, hv]⟩

/-- The flooding list of a VLAN in terms of the resulting nodes -/
theorem vlan_flood_list (v6 : Bool) (nodes : List VxNode) (m : VxNode) (hm : m ∈ vxlanPost v6 nodes)
    (hs : m.static = true) (l : List VxVlan) (hl : m.vlans = some l) (v : VxVlan) (hv : v ∈ l)
    (x : VlanVni) (hx : v.vni = some x) (a : String) :
    a ∈ v.vtepList.getD [] ↔ ∃ k ∈ vxlanPost v6 nodes, k.name ≠ m.name ∧ k.domain = m.domain ∧
      k.vtep = some a ∧ m.vtep ≠ some a ∧ UsesVni k x := by
  unfold vxlanPost at hm ⊢
  obtain ⟨me, hme, rfl⟩ := List.mem_map.1 hm
  generalize hpart : nodes.filterMap (vxPrepare v6) = part at hme hm hs hl ⊢
  have hf := vxFlood_fields (part.filter (fun n => n.domain == me.domain)) me
  rw [hf.2.2.2.1] at hs
  have hlist : v.vtepList.getD [] = buildVtepList x me (part.filter (fun n => n.domain == me.domain)) [] := by
    unfold vxFlood at hl
    rw [if_neg (by simp [hs])] at hl
    dsimp only at hl
    obtain ⟨l0, hl0, rfl⟩ := Option.map_eq_some_iff.1 hl
    obtain ⟨w, hw, rfl⟩ := List.mem_map.1 hv
    rw [storeVteps_vni] at hx
    unfold storeVteps
    rw [if_neg (by simp [hx])]
    rw [hx]
    show _ = vlanVteps (part.filter (fun n => n.domain == me.domain)) me (some x)
    by_cases he : (vlanVteps (part.filter (fun n => n.domain == me.domain)) me (some x)).isEmpty = true
    · dsimp only
      rw [if_pos he]
      rw [List.isEmpty_iff] at he
      rw [he]
      rfl
    · dsimp only
      rw [if_neg he]
      rfl
  rw [hlist, mem_buildVtepList]
  simp only [List.not_mem_nil, false_or, List.mem_filter, beq_iff_eq, List.mem_map]
  constructor
  · rintro ⟨n, ⟨h1, h2⟩, h3, h4, h5, h6⟩
    have hn := vxFlood_fields (part.filter (fun k => k.domain == n.domain)) n
    exact ⟨_, ⟨n, h1, rfl⟩, by rw [hn.1, hf.1]; exact h3, by rw [hn.2.1, hf.2.1]; exact h2,
      by rw [hn.2.2.1]; exact h4, by rw [hf.2.2.1]; exact h5, (hn.2.2.2.2 x).2 h6⟩
  · rintro ⟨_, ⟨n, h1, rfl⟩, h3, h2, h4, h5, h6⟩
    have hn := vxFlood_fields (part.filter (fun k => k.domain == n.domain)) n
    rw [hn.1, hf.1] at h3
    rw [hn.2.1, hf.2.1] at h2
    rw [hn.2.2.1] at h4
    rw [hf.2.2.1] at h5
    exact ⟨n, ⟨h1, h2⟩, h3, h4, h5, (hn.2.2.2.2 x).1 h6⟩

/-- C127: two nodes of the same VXLAN domain that use static flooding lists and the same VNI have each other's
VTEP in the lists of that VNI, unless they share the VTEP address. -/
theorem C127_mesh (v6 : Bool) (nodes : List VxNode) (m k : VxNode)
    (hm : m ∈ vxlanPost v6 nodes) (hk : k ∈ vxlanPost v6 nodes)
    (hsm : m.static = true) (hsk : k.static = true)
    (hname : m.name ≠ k.name) (hdom : m.domain = k.domain)
    (a b : String) (ha : m.vtep = some a) (hb : k.vtep = some b) (hab : a ≠ b)
    (lm lk : List VxVlan) (hlm : m.vlans = some lm) (hlk : k.vlans = some lk)
    (vm vk : VxVlan) (hvm : vm ∈ lm) (hvk : vk ∈ lk)
    (x : VlanVni) (hxm : vm.vni = some x) (hxk : vk.vni = some x) :
    b ∈ vm.vtepList.getD [] ∧ a ∈ vk.vtepList.getD [] := by
  constructor
  · rw [vlan_flood_list v6 nodes m hm hsm lm hlm vm hvm x hxm]
    exact ⟨k, hk, hname.symm, hdom.symm, hb, by rw [ha]; simpa using hab, lk, hlk, vk, hvk, hxk⟩
  · rw [vlan_flood_list v6 nodes k hk hsk lk hlk vk hvk x hxk]
    exact ⟨m, hm, hname, hdom, ha, by rw [hb]; simpa using hab.symm, lm, hlm, vm, hvm, hxm⟩

/-- C127: nothing is flooded into the void.  Every address in the flooding list of a VNI is the VTEP of another
node of the same domain that uses the VNI, and if that node uses static flooding lists, all its lists for the VNI include
the VTEP of the first node. -/
theorem C127_reciprocal (v6 : Bool) (nodes : List VxNode) (m : VxNode) (hm : m ∈ vxlanPost v6 nodes)
    (hsm : m.static = true) (l : List VxVlan) (hl : m.vlans = some l) (v : VxVlan) (hv : v ∈ l)
    (x : VlanVni) (hx : v.vni = some x) (b : String) (hb : b ∈ v.vtepList.getD []) :
    ∃ k ∈ vxlanPost v6 nodes, k.name ≠ m.name ∧ k.domain = m.domain ∧ k.vtep = some b ∧
      ∃ lk, k.vlans = some lk ∧ (∃ w ∈ lk, w.vni = some x) ∧
        (k.static = true → ∀ w ∈ lk, w.vni = some x →
          ∃ a, m.vtep = some a ∧ a ∈ w.vtepList.getD []) := by
  obtain ⟨k, hk, h1, h2, h3, h4, lk, h5, w, h6, h7⟩ :=
    (vlan_flood_list v6 nodes m hm hsm l hl v hv x hx b).1 hb
  refine ⟨k, hk, h1, h2, h3, lk, h5, ⟨w, h6, h7⟩, fun hs w' hw' hx' => ?_⟩
  obtain ⟨n, -, a, -, -, -, ha, -⟩ := C50_participants v6 nodes m hm
  refine ⟨a, ha, ?_⟩
  have hab : a ≠ b := fun e => h4 (by rw [ha, e])
  exact (C127_mesh v6 nodes m k hm hk hsm hs (Ne.symm h1) h2.symm a b ha h3 hab l lk hl h5 v w' hv hw' x
    hx hx').2

/-- Three switches; `s3` uses EVPN. -/
def meshSample : List VxNode :=
  [⟨"s1", true, ⟨true, false, some "10.0.0.1", none⟩, [⟨false, false, some "10.1.0.1", none⟩], false,
      "global", true, some [⟨"red", some (.num 1000), none⟩, ⟨"blue", some (.num 1001), none⟩], false, none, none⟩,
   ⟨"s2", true, ⟨true, false, some "10.0.0.2", none⟩, [⟨false, false, some "10.1.0.2", none⟩], false,
      "global", true, some [⟨"red", some (.num 1000), none⟩], false, none, none⟩,
   ⟨"s3", true, ⟨true, false, some "10.0.0.3", none⟩, [⟨false, false, some "10.1.0.3", none⟩], false,
      "global", false, some [⟨"red", some (.num 1000), none⟩], false, none, none⟩]

/-- Flooding lists of the nodes -/
def floodLists (v6 : Bool) (nodes : List VxNode) : List (String × List (String × Option (List String))) :=
  (nodes.filterMap (vxPrepare v6)).map fun me =>
    (me.name, (if me.static then (me.vlans.getD []).map
      (storeVteps ((nodes.filterMap (vxPrepare v6)).filter (fun n => n.domain == me.domain)) me)
      else me.vlans.getD []).map fun v => (v.name, v.vtepList))

theorem floodLists_eq (v6 : Bool) (nodes : List VxNode) :
    floodLists v6 nodes = (vxlanPost v6 nodes).map fun m =>
      (m.name, (m.vlans.getD []).map fun v => (v.name, v.vtepList)) := by
  unfold floodLists vxlanPost
  simp only [List.map_map]
  apply List.map_congr_left
  intro me _
  cases hs : me.static with
  | false => simp [vxFlood, hs]
  | true => cases hv : me.vlans <;> simp [vxFlood, hs, hv]

/-- Non-vacuity, and the limit of the property: `s1` and `s2` list each other, and they also list
`s3`, which has no flooding list. -/
theorem C127_mixed_flooding :
    (vxlanPost false meshSample).map (fun m =>
      (m.name, (m.vlans.getD []).map fun v => (v.name, v.vtepList))) =
    [("s1", [("red", some ["10.0.0.2", "10.0.0.3"]), ("blue", none)]),
     ("s2", [("red", some ["10.0.0.1", "10.0.0.3"])]),
     ("s3", [("red", none)])] := by
  rw [← floodLists_eq]
  decide +kernel

end Netlab
