import Verif.Model.VxlanSegments
import Verif.Spec.VxlanSegments
import Verif.Props.Vlan
import Verif.Props.VtepMesh
/-!
# C138: a VLAN extended with VXLAN connects the nodes that have it, and no others
-/

namespace Netlab
open Spec

theorem vxlanMesh_facts {v6 : Bool} {sv sn : Int} {extra : List IdVal} {glist : List String}
    {lists used : String → List String} {t : VlanTopo} {nodes mesh : List VxNode} {e : Nat}
    (h : vxlanMesh v6 sv sn extra glist lists used t nodes = .ok (mesh, e)) :
    ∃ t2, vlanVxlanTransform sv sn extra glist lists t = .ok (t2, e) ∧
      mesh = vxlanPost v6 (nodes.map (withVlans t2 used)) := by
  unfold vxlanMesh at h
  cases h1 : vlanVxlanTransform sv sn extra glist lists t with
  | error x => simp [h1] at h
  | ok p =>
    obtain ⟨t2, errs⟩ := p
    simp only [h1, Except.ok.injEq, Prod.mk.injEq] at h
    obtain ⟨rfl, rfl⟩ := h
    exact ⟨t2, rfl, rfl⟩

/-- The transformation neither adds nor removes VLAN definitions -/
theorem vlanVxlan_same {sv sn : Int} {extra : List IdVal} {glist : List String}
    {lists : String → List String} {t t2 : VlanTopo} {e : Nat}
    (h : vlanVxlanTransform sv sn extra glist lists t = .ok (t2, e)) (p : VlanPos) :
    (vlanAt t2 p).isSome = (vlanAt t p).isSome := by
  obtain ⟨t1, var1, e1, var2, e2, h1, h2, -⟩ := vlanVxlan_facts h
  have f2 := (vniTransform_facts (by exact counterOk_foldl t.nodes _ sn 16777215) h2).2.1 p
  have := congrArg Option.isSome f2
  rw [Option.isSome_map, Option.isSome_map] at this
  rw [this]
  exact (C20_every_vlan_has_id sv t t1 var1 e1 h1 p).1

theorem vlanVxlan_valid {sv sn : Int} {extra : List IdVal} {glist : List String}
    {lists : String → List String} {t t2 : VlanTopo} {e : Nat} (hvalid : VnisValid t)
    (h : vlanVxlanTransform sv sn extra glist lists t = .ok (t2, e)) (p : VlanPos) (o : Vlan)
    (hp : vlanOwner t p = p) (ho : vlanAt t2 p = some o) : o.vni ≠ .flag true := by
  obtain ⟨t1, var1, e1, var2, e2, h1, h2, -⟩ := vlanVxlan_facts h
  have hsame := vlanVxlan_same h p
  obtain ⟨a, ha⟩ : ∃ a, vlanAt t p = some a := by
    rw [ho] at hsame
    exact Option.isSome_iff_exists.1 hsame.symm
  obtain ⟨x, hx⟩ : ∃ x, vlanAt t1 p = some x := by
    have := (C20_every_vlan_has_id sv t t1 var1 e1 h1 p).1
    rw [ha] at this
    exact Option.isSome_iff_exists.1 this
  have hxa := vlanTransform_vni h1 p a x hp ha hx
  rcases (vniTransform_facts (by exact counterOk_foldl t.nodes _ sn 16777215) h2).2.2.1 p x o hx ho with
    hh | ⟨-, -, -, -, k, hk, -⟩
  · rw [hh, hxa]
    exact hvalid p a ha
  · intro hf
    simp [vniNum, hf] at hk

/-- The node data of a global VLAN has the VNI attribute of the global VLAN or none at all -/
theorem vlanVxlan_copy {sv sn : Int} {extra : List IdVal} {glist : List String}
    {lists : String → List String} {t t2 : VlanTopo}
    (h : vlanVxlanTransform sv sn extra glist lists t = .ok (t2, 0)) (n w : String) (a b : Vlan)
    (ha : vlanAt t (none, w) = some a) (hb : vlanAt t2 (some n, w) = some b) :
    b.vni = a.vni ∨ b.vni = .missing := by
  obtain ⟨t1, var1, e1, var2, e2, h1, h2, he⟩ := vlanVxlan_facts h
  obtain rfl : e1 = 0 := by omega
  have hcnt : CounterOk sn 16777215 ((registerStaticVni sn t).extend extra) := by
    exact counterOk_foldl t.nodes _ sn 16777215
  obtain ⟨-, f2, f3, -⟩ := vniTransform_facts hcnt h2
  obtain ⟨-, hs, hv, -, h5⟩ := vlanTransform_facts h1
  obtain ⟨x, hx⟩ : ∃ x, vlanAt t1 (some n, w) = some x := by
    have := congrArg Option.isSome (f2 (some n, w))
    rw [Option.isSome_map, Option.isSome_map, hb] at this
    exact Option.isSome_iff_exists.1 this.symm
  simp only [vlanAt] at ha
  have hbx : b.vni = x.vni := by
    rcases f3 _ x b hx hb with hh | ⟨ho, -⟩
    · exact hh
    · have : (t1.vlans.lookup w).isSome = true := by rw [hs, ha]; rfl
      simp [vlanOwner, this] at ho
  rw [hbx]
  obtain ⟨ga, hga⟩ : ∃ ga, t1.vlans.lookup w = some ga := by
    apply Option.isSome_iff_exists.1
    rw [hs, ha]; rfl
  have hgv : ga.vni = a.vni := by
    have := hv w
    rw [hga, ha] at this
    simpa using this
  simp only [vlanAt] at hx
  rcases h5 n with ⟨p, q⟩ | ⟨d, d', p, q, hr, hno⟩
  · rw [q] at hx; simp at hx
  · rw [q] at hx
    simp only [Option.bind_some] at hx
    obtain ⟨y, hy⟩ : ∃ y, d.lookup w = some y := by
      apply Option.isSome_iff_exists.1
      rw [← hr.same, hx]; rfl
    rcases hr.vni w y x hy hx with k | ⟨k1, gv, k2, k3⟩
    · rcases (hno rfl w y ga hy hga).2 with z | z
      · exact .inr (k.trans z)
      · exact .inl (by rw [k, z, hgv])
    · rw [hga] at k2
      cases k2
      exact .inl (k3.trans hgv)

/-- The VNI of a VLAN of a node is the VNI of the definition that decides about it -/
theorem mergedVlan_owner {sv sn : Int} {extra : List IdVal} {glist : List String}
    {lists : String → List String} {t t2 : VlanTopo} (hvalid : VnisValid t)
    (h : vlanVxlanTransform sv sn extra glist lists t = .ok (t2, 0)) (n w : String) :
    (mergedVlan t2.vlans ((t2.nodes.lookup n).getD []) w).vni =
      ((vlanAt t2 (vlanOwner t (some n, w))).map (·.vni)).getD .missing := by
  have hnode : (((t2.nodes.lookup n).getD []).lookup w) = vlanAt t2 (some n, w) := by
    simp only [vlanAt]
    cases t2.nodes.lookup n <;> rfl
  have hglob := vlanVxlan_same h (none, w)
  unfold mergedVlan
  rw [hnode]
  cases ha : t.vlans.lookup w with
  | none =>
    have ho : vlanOwner t (some n, w) = (some n, w) := by simp [vlanOwner, ha]
    have h0 : t2.vlans.lookup w = none := by
      simp only [vlanAt, ha] at hglob
      simpa using hglob
    rw [ho, h0]
    cases hb : vlanAt t2 (some n, w) with
    | none => rfl
    | some b =>
      simp only [mergeVlan, Option.getD_some, Option.getD_none, Option.map_some]
      cases b.vni <;> rfl
  | some a =>
    have ho : vlanOwner t (some n, w) = (none, w) := by simp [vlanOwner, ha]
    obtain ⟨g, hg⟩ : ∃ g, vlanAt t2 (none, w) = some g := by
      apply Option.isSome_iff_exists.1
      rw [hglob]
      simp [vlanAt, ha]
    have hg' : t2.vlans.lookup w = some g := hg
    rw [ho, hg, hg']
    cases hb : vlanAt t2 (some n, w) with
    | none => rfl
    | some b =>
      simp only [mergeVlan, Option.getD_some, Option.map_some]
      have hav : vlanAt t (none, w) = some a := ha
      have hnt := hvalid _ _ hav
      have hkeep := C20_vni_kept sv sn extra glist lists t t2 0 h (none, w) a g
        (by simp [vlanOwner]) hav hg
      rcases vlanVxlan_copy h n w a b hav hb with hc | hc
      · rw [hc]
        cases hx : a.vni with
        | missing => rfl
        | flag f =>
          cases f with
          | true => exact absurd hx hnt
          | false => exact (hkeep (.inr (.inl hx)) |>.trans hx).symm
        | num k => exact (hkeep (.inl (by simp [vniNum, hx])) |>.trans hx).symm
      · rw [hc]

/-- VLAN data of a node is kept by `module_post_transform`, apart from the VTEP lists -/
theorem mem_vxlanPost_vlans {v6 : Bool} {nodes : List VxNode} {m : VxNode} (hm : m ∈ vxlanPost v6 nodes) :
    ∃ n ∈ nodes, m.name = n.name ∧ m.vlans.isSome = n.vlans.isSome ∧
      (m.vlans.getD []).map (fun v => (v.name, v.vni)) = (n.vlans.getD []).map (fun v => (v.name, v.vni)) := by
  unfold vxlanPost at hm
  simp only [List.mem_map, List.mem_filterMap, vxPrepare_iff] at hm
  obtain ⟨me, ⟨n, hn, hact, a, ha, rfl⟩, rfl⟩ := hm
  refine ⟨n, hn, (vxFlood_fields _ _).1, ?_⟩
  unfold vxFlood
  split
  · exact ⟨rfl, rfl⟩
  · dsimp only
    cases n.vlans with
    | none => exact ⟨rfl, rfl⟩
    | some l =>
      refine ⟨rfl, ?_⟩
      simp only [Option.map_some, Option.getD_some, List.map_map]
      apply List.map_congr_left
      intro v _
      simp only [Function.comp_apply, storeVteps_vni]
      unfold storeVteps
      split <;> rfl

theorem withVlans_vlans (t : VlanTopo) (used : String → List String) (n : VxNode) :
    (withVlans t used n).vlans.getD [] =
      nodeVxVlans t.vlans ((t.nodes.lookup n.name).getD []) (used n.name) := by
  unfold withVlans
  dsimp only
  split
  · rename_i h
    rw [List.isEmpty_iff] at h
    rw [h]; rfl
  · rfl

theorem lookup_isSome_iff_key {β : Type} (d : List (String × β)) (w : String) :
    (d.lookup w).isSome ↔ w ∈ d.map (·.1) := by
  induction d with
  | nil => simp
  | cons kv r ih =>
    obtain ⟨k, v⟩ := kv
    by_cases e : w = k
    · subst e; simp [List.lookup]
    · have hb : (w == k) = false := by simpa using e
      simp only [List.lookup, hb, ih, List.map_cons, List.mem_cons, e, false_or]

/-- The VLANs found in the resulting node data -/
theorem mesh_vlan {v6 : Bool} {sv sn : Int} {extra : List IdVal} {glist : List String}
    {lists used : String → List String} {t t2 : VlanTopo} {nodes : List VxNode} {e : Nat}
    (h : vlanVxlanTransform sv sn extra glist lists t = .ok (t2, e)) {m : VxNode}
    (hm : m ∈ vxlanPost v6 (nodes.map (withVlans t2 used))) (w : String) (x : Option VlanVni) :
    (∃ v, FinalVlan m w v ∧ v.vni = x) ↔
      NodeHasVlan t used m.name w ∧
        x = vxVni (mergedVlan t2.vlans ((t2.nodes.lookup m.name).getD []) w).vni := by
  obtain ⟨n', hn', hname, hsome, hmap⟩ := mem_vxlanPost_vlans hm
  obtain ⟨n, -, rfl⟩ := List.mem_map.1 hn'
  rw [withVlans_vlans] at hmap
  have hnm : m.name = n.name := hname
  have hkey : NodeHasVlan t used m.name w ↔
      w ∈ (((t2.nodes.lookup n.name).getD []).map (·.1) ++
        (used n.name).filter (fun w => !(((t2.nodes.lookup n.name).getD []).map (·.1)).contains w)) := by
    unfold NodeHasVlan
    rw [← vlanVxlan_same h, hnm]
    have : vlanAt t2 (some n.name, w) = ((t2.nodes.lookup n.name).getD []).lookup w := by
      simp only [vlanAt]
      cases t2.nodes.lookup n.name <;> rfl
    rw [this, lookup_isSome_iff_key, List.mem_append, List.mem_filter]
    by_cases hk : w ∈ ((t2.nodes.lookup n.name).getD []).map (·.1)
    · simp only [hk, or_true, true_or]
    · simp [hk]
  rw [hkey, hnm]
  constructor
  · rintro ⟨v, ⟨l, hl, hv, rfl⟩, rfl⟩
    rw [hl] at hmap
    have h1 : (v.name, v.vni) ∈ ((some l).getD []).map (fun v => (v.name, v.vni)) :=
      List.mem_map.2 ⟨v, hv, rfl⟩
    rw [hmap] at h1
    obtain ⟨y, hy, hyv⟩ := List.mem_map.1 h1
    unfold nodeVxVlans at hy
    obtain ⟨z, hz, rfl⟩ := List.mem_map.1 hy
    simp only [Prod.mk.injEq] at hyv
    obtain ⟨rfl, h2⟩ := hyv
    exact ⟨hz, h2.symm⟩
  · rintro ⟨hz, rfl⟩
    have h1 : (w, vxVni (mergedVlan t2.vlans ((t2.nodes.lookup n.name).getD []) w).vni) ∈
        (m.vlans.getD []).map (fun v => (v.name, v.vni)) := by
      rw [hmap]
      unfold nodeVxVlans
      exact List.mem_map.2 ⟨_, List.mem_map.2 ⟨w, hz, rfl⟩, rfl⟩
    obtain ⟨v, hv, hvv⟩ := List.mem_map.1 h1
    simp only [Prod.mk.injEq] at hvv
    cases hml : m.vlans with
    | none => rw [hml] at hv; simp at hv
    | some l =>
      rw [hml] at hv
      exact ⟨v, ⟨l, hml, hv, hvv.1⟩, hvv.2⟩

/-- C138: the VLANs found in node data are those mentioned in the node or used on one of its interfaces. -/
theorem C138_members (v6 : Bool) (sv sn : Int) (extra : List IdVal) (glist : List String)
    (lists used : String → List String) (t : VlanTopo) (nodes mesh : List VxNode) (e : Nat)
    (h : vxlanMesh v6 sv sn extra glist lists used t nodes = .ok (mesh, e))
    (m : VxNode) (hm : m ∈ mesh) (w : String) :
    (∃ v, FinalVlan m w v) ↔ NodeHasVlan t used m.name w := by
  obtain ⟨t2, h2, rfl⟩ := vxlanMesh_facts h
  constructor
  · rintro ⟨v, hv⟩
    exact ((mesh_vlan h2 hm w v.vni).1 ⟨v, hv, rfl⟩).1
  · intro hn
    obtain ⟨v, hv, -⟩ := (mesh_vlan h2 hm w _).2 ⟨hn, rfl⟩
    exact ⟨v, hv⟩

/-- C138: a VLAN defined in the topology and extended with VXLAN connects any two nodes that have it, use static flooding lists
and are in the same VXLAN domain: each of them floods the traffic of the VLAN to the other one. -/
theorem C138_connected (v6 : Bool) (sv sn : Int) (extra : List IdVal) (glist : List String)
    (lists used : String → List String) (t : VlanTopo) (nodes mesh : List VxNode) (hvalid : VnisValid t)
    (h : vxlanMesh v6 sv sn extra glist lists used t nodes = .ok (mesh, 0))
    (w : String) (a : Vlan) (hw : vlanAt t (none, w) = some a) (hlist : w ∈ glist) (hon : a.vni ≠ .flag false)
    (m k : VxNode) (hm : m ∈ mesh) (hk : k ∈ mesh) (hname : m.name ≠ k.name)
    (hsm : m.static = true) (hsk : k.static = true) (hdom : m.domain = k.domain) (hvtep : m.vtep ≠ k.vtep)
    (hmw : NodeHasVlan t used m.name w) (hkw : NodeHasVlan t used k.name w) :
    FloodsTo m k w ∧ FloodsTo k m w := by
  obtain ⟨t2, h2, rfl⟩ := vxlanMesh_facts h
  have hown : ∀ n, vlanOwner t (some n, w) = (none, w) := by
    intro n
    have : t.vlans.lookup w = some a := hw
    simp [vlanOwner, this]
  obtain ⟨b, j, hb, hj⟩ := C20_listed_vlan_has_vni sv sn extra glist lists t t2 0 h2 (none, w) a
    (by simp [vlanOwner]) hw hlist hon
  have hvni : ∀ n, vxVni (mergedVlan t2.vlans ((t2.nodes.lookup n).getD []) w).vni = some (.num j) := by
    intro n
    rw [mergedVlan_owner hvalid h2, hown, hb]
    simp only [Option.map_some, Option.getD_some]
    cases hbv : b.vni with
    | missing => simp [vniNum, hbv] at hj
    | flag f => simp [vniNum, hbv] at hj
    | num i =>
      simp only [vniNum, hbv, Option.some.injEq] at hj
      rw [hj]; rfl
  obtain ⟨vm, ⟨lm, hlm, hvm, hvmn⟩, hxm⟩ := (mesh_vlan h2 hm w (some (.num j))).2 ⟨hmw, (hvni _).symm⟩
  obtain ⟨vk, ⟨lk, hlk, hvk, hvkn⟩, hxk⟩ := (mesh_vlan h2 hk w (some (.num j))).2 ⟨hkw, (hvni _).symm⟩
  obtain ⟨-, -, x, -, -, -, hx, -⟩ := C50_participants v6 _ m hm
  obtain ⟨-, -, y, -, -, -, hy, -⟩ := C50_participants v6 _ k hk
  have hxy : x ≠ y := fun e => hvtep (by rw [hx, hy, e])
  obtain ⟨r1, r2⟩ := C127_mesh v6 _ m k hm hk hsm hsk hname hdom x y hx hy hxy lm lk hlm hlk vm vk hvm hvk _ hxm hxk
  exact ⟨⟨y, vm, hy, ⟨lm, hlm, hvm, hvmn⟩, r1⟩, ⟨x, vk, hx, ⟨lk, hlk, hvk, hvkn⟩, r2⟩⟩

/-- C138: a VLAN with an automatic VNI is never connected to another VLAN: every tunnel endpoint in its flooding list belongs to
another node of the same VXLAN domain that has the same VLAN, and that VLAN is defined in the topology.  In particular, a VLAN
defined in a node only is not extended to any other node. -/
theorem C138_isolated (v6 : Bool) (sv sn : Int) (extra : List IdVal) (glist : List String)
    (lists used : String → List String) (t : VlanTopo) (nodes mesh : List VxNode) (hvalid : VnisValid t)
    (h : vxlanMesh v6 sv sn extra glist lists used t nodes = .ok (mesh, 0))
    (m : VxNode) (hm : m ∈ mesh) (hsm : m.static = true) (w : String) (v : VxVlan) (hv : FinalVlan m w v)
    (a : Vlan) (ha : vlanAt t (vlanOwner t (some m.name, w)) = some a) (hauto : vniNum a = none)
    (j : Int) (hj : v.vni = some (.num j)) (b : String) (hb : b ∈ v.vtepList.getD []) :
    (vlanAt t (none, w)).isSome ∧
      ∃ k ∈ mesh, k.name ≠ m.name ∧ k.domain = m.domain ∧ k.vtep = some b ∧ NodeHasVlan t used k.name w := by
  obtain ⟨t2, h2, rfl⟩ := vxlanMesh_facts h
  have hmw := (mesh_vlan h2 hm w v.vni).1 ⟨v, hv, rfl⟩
  obtain ⟨l, hl, hvl, hvn⟩ := hv
  obtain ⟨k, hk, hkn, hkd, hkv, -, lk, hlk, u, hu, hux⟩ := (vlan_flood_list v6 _ m hm hsm l hl v hvl _ hj b).1 hb
  have hku := (mesh_vlan h2 hk u.name u.vni).1 ⟨u, ⟨lk, hlk, hu, rfl⟩, rfl⟩
  have hidem : ∀ p, vlanOwner t (vlanOwner t p) = vlanOwner t p := by
    intro p
    unfold vlanOwner
    split <;> simp_all
  -- the VNI of a VLAN in a node belongs to its owner
  have key : ∀ n x, some (VlanVni.num j) = vxVni (mergedVlan t2.vlans ((t2.nodes.lookup n).getD []) x).vni →
      ∃ o, vlanAt t2 (vlanOwner t (some n, x)) = some o ∧ vniNum o = some j := by
    intro n x hx
    rw [mergedVlan_owner hvalid h2] at hx
    cases ho : vlanAt t2 (vlanOwner t (some n, x)) with
    | none => rw [ho] at hx; simp [vxVni] at hx
    | some o =>
      rw [ho] at hx
      simp only [Option.map_some, Option.getD_some] at hx
      refine ⟨o, rfl, ?_⟩
      cases hov : o.vni with
      | missing => rw [hov] at hx; simp [vxVni] at hx
      | flag f =>
        cases f with
        | false => rw [hov] at hx; simp [vxVni] at hx
        | true =>
          exact absurd hov (vlanVxlan_valid hvalid h2 _ o (hidem _) ho)
      | num i =>
        rw [hov] at hx
        simp only [vxVni, Option.some.injEq, VlanVni.num.injEq] at hx
        simp [vniNum, hov, hx]
  obtain ⟨o1, ho1, hj1⟩ := key m.name w (hj ▸ hmw.2)
  obtain ⟨o2, ho2, hj2⟩ := key k.name u.name (hux ▸ hku.2)
  have hsame : vlanOwner t (some m.name, w) = vlanOwner t (some k.name, u.name) := by
    refine Classical.byContradiction fun hne => ?_
    exact (C20_auto_vni_unique sv sn extra glist lists t t2 0 h2 _ _ a o1 o2 j (hidem _) (hidem _) hne ha hauto
      ho1 ho2 hj1).1 hj2
  unfold vlanOwner at hsame
  by_cases hgw : (t.vlans.lookup w).isSome = true
  · rw [if_pos hgw] at hsame
    split at hsame
    · simp only [Prod.mk.injEq, true_and] at hsame
      refine ⟨hgw, k, hk, hkn, hkd, hkv, ?_⟩
      rw [hsame]
      exact hku.1
    · simp at hsame
  · rw [if_neg hgw] at hsame
    split at hsame
    · simp at hsame
    · simp only [Prod.mk.injEq, Option.some.injEq] at hsame
      exact absurd hsame.1.symm hkn

/-- A topology with a global VLAN on two switches (used on interfaces of `s1`, mentioned in `s2`) and two local VLANs with the
same name -/
def segTopo : VlanTopo :=
  { vlans := [("red", { id := some 1000 })],
    nodes := [("s1", [("local", {})]), ("s2", [("red", {}), ("local", {})]), ("s3", [])] }

/-- Node data of three switches -/
def segNodes : List VxNode :=
  [("s1", "10.0.0.1"), ("s2", "10.0.0.2"), ("s3", "10.0.0.3")].map fun p =>
    { name := p.1, enabled := true, loopback := ⟨true, false, some p.2, none⟩,
      intfs := [⟨false, false, none, none⟩], vtep6 := false, domain := "global", static := true, vlans := none,
      l3vnis := false }

set_option synthInstance.maxSize 1024 in
/-- Non-vacuity: the global VLAN is extended between the two switches, the local VLANs are not. -/
example : VnisValid segTopo ∧
    (((vxlanMesh false 1000 100000 [] ["red"] (fun _ => ["local"])
      (fun n => if n = "s1" then ["red", "local"] else []) segTopo segNodes).toOption.map fun r =>
        (r.2, r.1.map fun m => (m.name, (m.vlans.getD []).map fun v => (v.name, v.vni, v.vtepList)))) :
      Option (Nat × List (String × List (String × Option VlanVni × Option (List String))))) =
    some (0, [("s1", [("local", some (.num 101001), none), ("red", some (.num 101000), some ["10.0.0.2"])]),
              ("s2", [("red", some (.num 101000), some ["10.0.0.1"]), ("local", some (.num 101002), none)])]) := by
  refine ⟨?_, ?_⟩
  · have hg : ∀ w a, segTopo.vlans.lookup w = some a → a.vni ≠ .flag true := by
      intro w a ha
      have := mem_of_lookup ha
      simp only [segTopo, List.mem_singleton, Prod.mk.injEq] at this
      rw [this.2]; decide
    rintro ⟨s, w⟩ a ha
    cases s with
    | none => exact hg w a ha
    | some n =>
      simp only [vlanAt] at ha
      obtain ⟨d, hd, hda⟩ := Option.bind_eq_some_iff.1 ha
      have h1 := mem_of_lookup hd
      have h2 := mem_of_lookup hda
      simp only [segTopo, List.mem_cons, Prod.mk.injEq, List.not_mem_nil, or_false] at h1
      rcases h1 with ⟨-, rfl⟩ | ⟨-, rfl⟩ | ⟨-, rfl⟩ <;> simp at h2
      · rw [h2.2]; decide
      · rcases h2 with h2 | h2 <;> rw [h2.2] <;> decide
  · decide +kernel

set_option synthInstance.maxSize 1024 in
/-- C138 (why automatic VNIs only): nobody checks that static VNIs are different.  Two VLANs defined with the same VNI are
connected to each other without an error message. -/
theorem C138_static_clash :
    (((vxlanMesh false 1000 100000 [] ["red", "blue"] (fun _ => [])
      (fun n => if n = "s1" then ["red"] else if n = "s2" then ["blue"] else [])
      { vlans := [("red", { vni := .num 5000 }), ("blue", { vni := .num 5000 })], nodes := [] } segNodes).toOption.map fun r =>
        (r.2, r.1.map fun m => (m.name, (m.vlans.getD []).map fun v => (v.name, v.vtepList)))) :
      Option (Nat × List (String × List (String × Option (List String))))) =
    some (0, [("s1", [("red", some ["10.0.0.2"])]), ("s2", [("blue", some ["10.0.0.1"])])]) := by
  decide +kernel

end Netlab
