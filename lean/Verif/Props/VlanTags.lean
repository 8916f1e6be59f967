import Verif.Spec.VlanTags
import Verif.Props.Vlan
import Verif.Props.Svi
import Verif.Props.VlanTrunk
import Verif.Props.VlanLinks
/-!
# C128: both ends of a link use the same VLAN tags

`vlanTransform` assigns VLAN identifiers, `createSvi` sets the VLAN identifiers of interfaces of a node, and
`mapTrunks` the identifiers in trunks.
-/

namespace Netlab
open Spec

theorem vlanTransform_glob {start : Int} {t t' : VlanTopo} {var : IdVar} {e : Nat}
    (h : vlanTransform start t = .ok (t', var, e)) (w : String) :
    (t'.vlans.lookup w).isSome = (t.vlans.lookup w).isSome :=
  (C20_every_vlan_has_id start t t' var e h (none, w)).1

/-- The tag of a VLAN on a node is the identifier of the VLAN the name means there. -/
theorem node_tag {start : Int} {t t' : VlanTopo} {var : IdVar}
    (h : vlanTransform start t = .ok (t', var, 0)) {T : SvTopo} {nd nd' : SvNode} {upds : List SvUpd}
    (hf : FreshNode T nd) (ht : TagsFrom t' T nd) (hs : createSvi T nd = .ok (nd', upds))
    (v : String) (vd : NVlan) (hv : nd'.vlans.lookup v = some vd) :
    vd.id.map Int.ofNat = (vlanAt t' (vlanMeant t nd.name v)).bind (·.id) := by
  have hd := (C64_vlan_data hf hs v vd hv).1
  rw [hd, Option.map_or, ht.glob, ht.loc]
  unfold vlanMeant vlanOwner
  dsimp only
  cases hg : (t.vlans.lookup v).isSome with
  | true =>
    rw [if_pos rfl]
    rw [← vlanTransform_glob h] at hg
    obtain ⟨g, hg⟩ := Option.isSome_iff_exists.1 hg
    cases hl : vlanAt t' (some nd.name, v) with
    | none => simp
    | some b =>
      have := C20_copy_has_global_id start t t' var h nd.name v b g hl hg
      rw [show vlanAt t' (none, v) = some g from hg]
      simp only [Option.bind_some, this, Option.or_self]
  | false =>
    rw [if_neg (by simp)]
    rw [← vlanTransform_glob h] at hg
    have : vlanAt t' (none, v) = none := by
      show t'.vlans.lookup v = none
      cases hx : t'.vlans.lookup v with
      | none => rfl
      | some y => rw [hx] at hg; cases hg
    rw [this]
    simp

/-- The interface after VLAN interfaces have been created, at the same place in the list of interfaces -/
theorem svi_intf {T : SvTopo} {nd nd' : SvNode} {upds : List SvUpd} (hs : createSvi T nd = .ok (nd', upds))
    {k : Nat} {i j : SvIf} (hi : nd.ifs[k]? = some i) (hj : nd'.ifs[k]? = some j) :
    j.trunk = i.trunk ∧ ∀ v, belongsTo i v → ∃ vd, nd'.vlans.lookup v = some vd ∧ j.accessId = vd.id := by
  have hF := C64_interfaces hs
  have hk : k < nd.ifs.length := (List.getElem?_eq_some_iff.1 hi).1
  have hj' : (nd'.ifs.take nd.ifs.length)[k]? = some j := by
    rw [List.getElem?_take, if_pos hk, hj]
  have hk' : k < (nd'.ifs.take nd.ifs.length).length := (List.getElem?_eq_some_iff.1 hj').1
  have := hF.get hk hk'
  rw [List.get_eq_getElem, List.get_eq_getElem, (List.getElem?_eq_some_iff.1 hi).2,
    (List.getElem?_eq_some_iff.1 hj').2] at this
  obtain ⟨-, -, -, h4, -, h6, h7⟩ := this
  refine ⟨h4, ?_⟩
  rintro v (hm | ⟨hu, hr, hm⟩)
  · exact (h6 v hm).2.2.2.2.2.2.2
  · exact ((h7 v hu hr).2.2.2.2.2 hm).2.2

/-- C128: the VLAN identifier of an interface in a VLAN (a bridged interface or a VLAN subinterface) is the identifier
assigned to the VLAN, and there always is one. -/
theorem C128_interface_tag (start : Int) (t t' : VlanTopo) (var : IdVar)
    (h : vlanTransform start t = .ok (t', var, 0)) (T : SvTopo) (nd nd' : SvNode) (upds : List SvUpd)
    (hf : FreshNode T nd) (ht : TagsFrom t' T nd) (hs : createSvi T nd = .ok (nd', upds))
    (k : Nat) (i j : SvIf) (hi : nd.ifs[k]? = some i) (hj : nd'.ifs[k]? = some j)
    (v : String) (hv : belongsTo i v) (hdef : (vlanAt t (vlanMeant t nd.name v)).isSome) :
    ∃ a n, vlanAt t' (vlanMeant t nd.name v) = some a ∧ j.accessId = some n ∧ a.id = some (Int.ofNat n) := by
  obtain ⟨vd, hvd, ha⟩ := (svi_intf hs hi hj).2 v hv
  have htag := node_tag h hf ht hs v vd hvd
  have hid := C20_every_vlan_has_id start t t' var 0 h (vlanMeant t nd.name v)
  rw [← hid.1] at hdef
  obtain ⟨a, hat⟩ := Option.isSome_iff_exists.1 hdef
  obtain ⟨x, hx⟩ := Option.ne_none_iff_exists'.1 (hid.2 a hat)
  rw [hat, Option.bind_some, hx] at htag
  obtain ⟨n, hn, rfl⟩ := Option.map_eq_some_iff.1 htag
  exact ⟨a, n, hat, ha.trans hn, hx⟩

/-- C128: interfaces of two nodes in the same global VLAN have the same VLAN identifier. -/
theorem C128_same_tag (start : Int) (t t' : VlanTopo) (var : IdVar)
    (h : vlanTransform start t = .ok (t', var, 0)) (T : SvTopo)
    (n1 n1' n2 n2' : SvNode) (u1 u2 : List SvUpd)
    (hf1 : FreshNode T n1) (hf2 : FreshNode T n2) (ht1 : TagsFrom t' T n1) (ht2 : TagsFrom t' T n2)
    (hs1 : createSvi T n1 = .ok (n1', u1)) (hs2 : createSvi T n2 = .ok (n2', u2))
    (k1 k2 : Nat) (i1 j1 i2 j2 : SvIf)
    (hi1 : n1.ifs[k1]? = some i1) (hj1 : n1'.ifs[k1]? = some j1)
    (hi2 : n2.ifs[k2]? = some i2) (hj2 : n2'.ifs[k2]? = some j2)
    (v : String) (hv1 : belongsTo i1 v) (hv2 : belongsTo i2 v) (hg : (vlanAt t (none, v)).isSome) :
    j1.accessId = j2.accessId ∧ j1.accessId ≠ none := by
  have hm : ∀ n, vlanMeant t n v = (none, v) := by
    intro n
    unfold vlanMeant vlanOwner
    exact if_pos hg
  obtain ⟨a, m, h1, h2, h3⟩ := C128_interface_tag start t t' var h T n1 n1' u1 hf1 ht1 hs1 k1 i1 j1 hi1 hj1 v hv1
    (by rw [hm]; exact hg)
  obtain ⟨b, n, h4, h5, h6⟩ := C128_interface_tag start t t' var h T n2 n2' u2 hf2 ht2 hs2 k2 i2 j2 hi2 hj2 v hv2
    (by rw [hm]; exact hg)
  rw [hm] at h1 h4
  rw [h1] at h4
  obtain rfl := Option.some.inj h4
  rw [h3] at h6
  have : m = n := Int.ofNat.inj (Option.some.inj h6)
  rw [h2, h5, this]
  exact ⟨rfl, by simp⟩

/-- C128: interfaces in different VLANs (of the same node or of different nodes) have different VLAN identifiers when
the identifier of one of the VLANs is automatic. -/
theorem C128_different_tags (start : Int) (t t' : VlanTopo) (var : IdVar)
    (h : vlanTransform start t = .ok (t', var, 0)) (T : SvTopo)
    (n1 n1' n2 n2' : SvNode) (u1 u2 : List SvUpd)
    (hf1 : FreshNode T n1) (hf2 : FreshNode T n2) (ht1 : TagsFrom t' T n1) (ht2 : TagsFrom t' T n2)
    (hs1 : createSvi T n1 = .ok (n1', u1)) (hs2 : createSvi T n2 = .ok (n2', u2))
    (k1 k2 : Nat) (i1 j1 i2 j2 : SvIf)
    (hi1 : n1.ifs[k1]? = some i1) (hj1 : n1'.ifs[k1]? = some j1)
    (hi2 : n2.ifs[k2]? = some i2) (hj2 : n2'.ifs[k2]? = some j2)
    (v w : String) (hv : belongsTo i1 v) (hw : belongsTo i2 w)
    (a : Vlan) (ha : vlanAt t (vlanMeant t n1.name v) = some a) (hauto : a.id = none)
    (hwd : (vlanAt t (vlanMeant t n2.name w)).isSome)
    (hne : vlanMeant t n1.name v ≠ vlanMeant t n2.name w) :
    j1.accessId ≠ j2.accessId := by
  obtain ⟨b, m, h1, h2, h3⟩ := C128_interface_tag start t t' var h T n1 n1' u1 hf1 ht1 hs1 k1 i1 j1 hi1 hj1 v hv
    (by rw [ha]; rfl)
  obtain ⟨c, n, h4, h5, h6⟩ := C128_interface_tag start t t' var h T n2 n2' u2 hf2 ht2 hs2 k2 i2 j2 hi2 hj2 w hw hwd
  have hoo : ∀ p, vlanOwner t (vlanOwner t p) = vlanOwner t p := by
    intro p
    unfold vlanOwner
    split <;> simp_all
  have := (C20_auto_id_unique start t t' var h (vlanMeant t n1.name v) (vlanMeant t n2.name w) a b c
    (by unfold vlanMeant at ha ⊢; rw [hoo]; exact ha) hauto h1 h4
    (by unfold vlanMeant at hne ⊢; rw [hoo, hoo]; exact hne)).1
  rw [h3, h6] at this
  rw [h2, h5]
  intro e
  apply this
  rw [Option.some.inj e]

/-- C128: the identifiers on a trunk are the identifiers of its VLANs, in the same order. -/
theorem C128_trunk_tags (start : Int) (t t' : VlanTopo) (var : IdVar)
    (h : vlanTransform start t = .ok (t', var, 0)) (T : SvTopo) (nd nd' : SvNode) (upds : List SvUpd)
    (hf : FreshNode T nd) (ht : TagsFrom t' T nd) (hs : createSvi T nd = .ok (nd', upds))
    (l : List SvIf) (hl : mapTrunks nd'.vlans nd'.ifs = .ok l)
    (k : Nat) (i j : SvIf) (hi : nd.ifs[k]? = some i) (hj : l[k]? = some j)
    (tr : List String) (htr : i.trunk = some tr) (hne : tr ≠ [])
    (hdef : ∀ v ∈ tr, (vlanAt t (vlanMeant t nd.name v)).isSome) :
    ∃ ids, j.trunkId = some ids ∧
      List.Forall₂ (fun v n => ∃ a, vlanAt t' (vlanMeant t nd.name v) = some a ∧ a.id = some (Int.ofNat n)) tr ids := by
  obtain ⟨rfl, hall⟩ := mapTrunks_ok hl
  rw [List.getElem?_map] at hj
  obtain ⟨j0, hj0, rfl⟩ := Option.map_eq_some_iff.1 hj
  have htr0 : j0.trunk = some tr := by rw [(svi_intf hs hi hj0).1, htr]
  have hdef0 := hall j0 (List.mem_of_getElem? hj0)
  rw [htr0] at hdef0
  simp only [Option.getD_some] at hdef0
  refine ⟨trunkIds nd'.vlans j0, ?_, ?_⟩
  · unfold trunkMap
    rw [htr0, Option.getD_some, if_neg hne]
  · unfold trunkIds
    rw [htr0, Option.getD_some]
    have key : ∀ v ∈ tr, ∃ a, vlanAt t' (vlanMeant t nd.name v) = some a ∧
        a.id = some (Int.ofNat (((nd'.vlans.lookup v).bind (·.id)).getD 0)) := by
      intro v hv
      obtain ⟨vd, hvd⟩ := Option.isSome_iff_exists.1 (hdef0 v hv)
      have htag := node_tag h hf ht hs v vd hvd
      have hid := C20_every_vlan_has_id start t t' var 0 h (vlanMeant t nd.name v)
      have hd := hdef v hv
      rw [← hid.1] at hd
      obtain ⟨a, hat⟩ := Option.isSome_iff_exists.1 hd
      obtain ⟨x, hx⟩ := Option.ne_none_iff_exists'.1 (hid.2 a hat)
      rw [hat, Option.bind_some, hx] at htag
      obtain ⟨n, hn, rfl⟩ := Option.map_eq_some_iff.1 htag
      exact ⟨a, hat, by rw [hvd, Option.bind_some, hn]; exact hx⟩
    clear hdef hdef0 hne htr htr0
    induction tr with
    | nil => exact .nil
    | cons v r ih =>
      exact .cons (key v List.mem_cons_self) (ih fun w hw => key w (List.mem_cons_of_mem _ hw))

/-- C128: a global VLAN has the same tag at both ends of a trunk, and two global VLANs, one of them with an automatic
identifier, have different tags. -/
theorem C128_trunk_ends (start : Int) (t t' : VlanTopo) (var : IdVar)
    (h : vlanTransform start t = .ok (t', var, 0)) (T : SvTopo)
    (n1 n1' n2 n2' : SvNode) (u1 u2 : List SvUpd)
    (hf1 : FreshNode T n1) (hf2 : FreshNode T n2) (ht1 : TagsFrom t' T n1) (ht2 : TagsFrom t' T n2)
    (hs1 : createSvi T n1 = .ok (n1', u1)) (hs2 : createSvi T n2 = .ok (n2', u2))
    (l1 l2 : List SvIf) (hl1 : mapTrunks n1'.vlans n1'.ifs = .ok l1) (hl2 : mapTrunks n2'.vlans n2'.ifs = .ok l2)
    (k1 k2 : Nat) (i1 j1 i2 j2 : SvIf)
    (hi1 : n1.ifs[k1]? = some i1) (hj1 : l1[k1]? = some j1)
    (hi2 : n2.ifs[k2]? = some i2) (hj2 : l2[k2]? = some j2)
    (tr1 tr2 : List String) (htr1 : i1.trunk = some tr1) (htr2 : i2.trunk = some tr2)
    (hg1 : ∀ v ∈ tr1, (vlanAt t (none, v)).isSome) (hg2 : ∀ v ∈ tr2, (vlanAt t (none, v)).isSome)
    (p q : Nat) (v w : String) (hp : tr1[p]? = some v) (hq : tr2[q]? = some w) :
    ∃ m n, (j1.trunkId.getD [])[p]? = some m ∧ (j2.trunkId.getD [])[q]? = some n ∧
      (v = w → m = n) ∧
      (v ≠ w → (∃ a, vlanAt t (none, v) = some a ∧ a.id = none) → m ≠ n) := by
  have hm : ∀ n v, (vlanAt t (none, v)).isSome → vlanMeant t n v = (none, v) := by
    intro n v hg
    unfold vlanMeant vlanOwner
    exact if_pos hg
  have hv := hg1 v (List.mem_of_getElem? hp)
  have hw := hg2 w (List.mem_of_getElem? hq)
  obtain ⟨ids1, e1, F1⟩ := C128_trunk_tags start t t' var h T n1 n1' u1 hf1 ht1 hs1 l1 hl1 k1 i1 j1 hi1 hj1 tr1 htr1
    (List.ne_nil_of_mem (List.mem_of_getElem? hp)) (fun v hv => by rw [hm _ _ (hg1 v hv)]; exact hg1 v hv)
  obtain ⟨ids2, e2, F2⟩ := C128_trunk_tags start t t' var h T n2 n2' u2 hf2 ht2 hs2 l2 hl2 k2 i2 j2 hi2 hj2 tr2 htr2
    (List.ne_nil_of_mem (List.mem_of_getElem? hq)) (fun v hv => by rw [hm _ _ (hg2 v hv)]; exact hg2 v hv)
  have pick : ∀ {nm : String} {tr : List String} {ids : List Nat} {p : Nat} {v : String},
      List.Forall₂ (fun v n => ∃ a, vlanAt t' (vlanMeant t nm v) = some a ∧ a.id = some (Int.ofNat n)) tr ids →
      tr[p]? = some v → (vlanAt t (none, v)).isSome →
      ∃ n, ids[p]? = some n ∧ ∃ a, vlanAt t' (none, v) = some a ∧ a.id = some (Int.ofNat n) := by
    intro nm tr ids p v F hp hv
    have hlt : p < tr.length := (List.getElem?_eq_some_iff.1 hp).1
    have hlt' : p < ids.length := by rw [← F.length_eq]; exact hlt
    have := F.get hlt hlt'
    rw [List.get_eq_getElem, List.get_eq_getElem, (List.getElem?_eq_some_iff.1 hp).2, hm _ _ hv] at this
    exact ⟨_, List.getElem?_eq_getElem hlt', this⟩
  obtain ⟨m, hm1, a, ha, hai⟩ := pick F1 hp hv
  obtain ⟨n, hn1, b, hb, hbi⟩ := pick F2 hq hw
  refine ⟨m, n, by rw [e1]; exact hm1, by rw [e2]; exact hn1, ?_, ?_⟩
  · rintro rfl
    rw [ha] at hb
    obtain rfl := Option.some.inj hb
    rw [hai] at hbi
    exact Int.ofNat.inj (Option.some.inj hbi)
  · rintro hne ⟨c, hc, hauto⟩ rfl
    have hown : ∀ x, (vlanAt t (none, x)).isSome → vlanOwner t (none, x) = (none, x) := by
      intro x hx
      unfold vlanOwner
      exact if_pos hx
    have := (C20_auto_id_unique start t t' var h (none, v) (none, w) c a b (by rw [hown v hv]; exact hc) hauto ha hb
      (by rw [hown v hv, hown w hw]; simpa using hne)).1
    exact this (hai.trans hbi.symm)

/-- C128: the whole story for an access link.  If the link is accepted, interfaces attached to it whose access VLANs are
global VLANs have the same VLAN identifier. -/
theorem C128_access_link (tl : VTopo) (sort : List String → List String) (pick : List String → Option String) (lk : VLink)
    (hlk : (vlanLink tl sort pick lk).errors = 0) (x y : VlanAttr) (hx : OnLink lk x) (hy : OnLink lk y)
    (start : Int) (t t' : VlanTopo) (var : IdVar) (h : vlanTransform start t = .ok (t', var, 0))
    (hglob : ∀ v, (tl.vlans.lookup v).isSome = (vlanAt t (none, v)).isSome) (T : SvTopo)
    (n1 n1' n2 n2' : SvNode) (u1 u2 : List SvUpd)
    (hf1 : FreshNode T n1) (hf2 : FreshNode T n2) (ht1 : TagsFrom t' T n1) (ht2 : TagsFrom t' T n2)
    (hs1 : createSvi T n1 = .ok (n1', u1)) (hs2 : createSvi T n2 = .ok (n2', u2))
    (k1 k2 : Nat) (i1 j1 i2 j2 : SvIf)
    (hi1 : n1.ifs[k1]? = some i1) (hj1 : n1'.ifs[k1]? = some j1)
    (hi2 : n2.ifs[k2]? = some i2) (hj2 : n2'.ifs[k2]? = some j2)
    (v w : String) (hv : i1.access = some v) (hw : i2.access = some w)
    (hb1 : i1.mode ≠ some .route) (hb2 : i2.mode ≠ some .route)
    (hxv : x.access = some v) (hyw : y.access = some w)
    (gv : (vlanAt t (none, v)).isSome) (gw : (vlanAt t (none, w)).isSome) :
    v = w ∧ j1.accessId = j2.accessId ∧ j1.accessId ≠ none := by
  have hvw : v = w := C62_one_access tl sort pick lk hlk x y hx hy v w hxv hyw
    (by rw [← Option.isSome_iff_ne_none, hglob]; exact gv) (by rw [← Option.isSome_iff_ne_none, hglob]; exact gw)
  subst hvw
  exact ⟨rfl, C128_same_tag start t t' var h T n1 n1' n2 n2' u1 u2 hf1 hf2 ht1 ht2 hs1 hs2 k1 k2 i1 j1 i2 j2 hi1 hj1 hi2 hj2 v
    (.inl ⟨.inl hv, hb1⟩) (.inl ⟨.inl hw, hb2⟩) gv⟩

/-! ## Non-vacuity and limits -/

namespace TagExample

/-- Two global VLANs (one of them automatic), the same VLAN name on two nodes -/
def topo : VlanTopo :=
  { vlans := [("red", {}), ("blue", { id := some 1000 })]
    nodes := [("s1", [("red", {}), ("loc", { id := some 10 })]), ("s2", [("loc", { id := some 20 })])] }

/-- The VLANs after identifiers were assigned -/
def after : VlanTopo :=
  { vlans := [("red", { id := some 1001 }), ("blue", { id := some 1000 })]
    nodes := [("s1", [("red", { id := some 1001 }), ("loc", { id := some 10 })]), ("s2", [("loc", { id := some 20 })])] }

/-- Global VLANs when VLAN interfaces are created -/
def svTopo : SvTopo := { vlans := [("red", { id := some 1001 }), ("blue", { id := some 1000 })] }

/-- A trunk or an access interface -/
def vif (idx : Int) (a : Option String) (tr : Option (List String)) : SvIf :=
  { ifindex := idx, ifname := "eth", kind := "p2p", access := a, trunk := tr,
    mode := if a.isSome then some .irb else none }

/-- The first switch -/
def s1 : SvNode :=
  { name := "s1", sviName := some fun _ _ _ => "vlan", vlans := [("red", { id := some 1001 }), ("loc", { id := some 10 })],
    ifs := [vif 1 (some "red") none, vif 2 (some "loc") none, vif 3 none (some ["red", "loc"])] }

/-- The second switch -/
def s2 : SvNode :=
  { name := "s2", sviName := some fun _ _ _ => "vlan", vlans := [("loc", { id := some 20 })],
    ifs := [vif 1 (some "red") none, vif 2 (some "loc") none, vif 3 none (some ["loc", "red"])] }

/-- Identifiers of access VLANs and trunks -/
def tags (nd : SvNode) : Option (List (Option Nat × Option (List Nat))) :=
  match createSvi svTopo nd with
  | .ok (nd', _) =>
    match mapTrunks nd'.vlans nd'.ifs with
    | .ok l => some (l.map fun j => (j.accessId, j.trunkId))
    | _ => none
  | _ => none

/-- Identifiers are assigned without errors. -/
example : (vlanTransform 1000 topo).toOption.map (fun r => (r.1.vlans, r.2.2)) = some (after.vlans, 0) ∧
    (vlanTransform 1000 topo).toOption.map (fun r => r.1.nodes.map Prod.snd) = some (after.nodes.map Prod.snd) := by
  constructor <;> decide +kernel

theorem fresh1 : FreshNode svTopo s1 := by
  refine ⟨?_, ?_, by decide⟩
  · intro v d h
    have := mem_of_lookup h
    simp [svTopo] at this
    rcases this with ⟨-, rfl⟩ | ⟨-, rfl⟩ <;> rfl
  · intro v d h
    have := mem_of_lookup h
    simp [s1] at this
    rcases this with ⟨-, rfl⟩ | ⟨-, rfl⟩ <;> exact ⟨rfl, rfl⟩

theorem from1 : TagsFrom after svTopo s1 := by
  constructor
  · intro v
    by_cases h1 : v = "red"
    · subst h1; decide
    · by_cases h2 : v = "blue"
      · subst h2; decide
      · simp [svTopo, after, vlanAt, List.lookup, beq_eq_false_iff_ne.2 h1, beq_eq_false_iff_ne.2 h2]
  · intro v
    by_cases h1 : v = "red"
    · subst h1; decide
    · by_cases h2 : v = "loc"
      · subst h2; decide
      · simp [s1, after, vlanAt, List.lookup, beq_eq_false_iff_ne.2 h1, beq_eq_false_iff_ne.2 h2]

end TagExample

open TagExample in
/-- C128 does not hold for VLANs defined in nodes: VLAN `loc` has different tags on two switches connected by links in that
VLAN (such links are accepted, see `C62_local_names`); the tags of the global VLAN `red` are the same. -/
theorem C128_local_vlans :
    tags s1 = some [(some 1001, none), (some 10, none), (none, some [1001, 10]), (none, none), (none, none)] ∧
    tags s2 = some [(some 1001, none), (some 20, none), (none, some [20, 1001]), (none, none), (none, none)] := by
  constructor <;> decide +kernel

end Netlab
