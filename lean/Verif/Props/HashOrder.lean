import Verif.Spec.HashOrder
import Verif.Lemmas.Vrf
import Verif.Props.TestEntry
import Verif.Props.VlanLinks
import Verif.Props.Sort
import Verif.Props.RoutingObjects
import Verif.Model.RrCluster
import Mathlib.Data.List.Perm.Basic
/-!
# Results do not depend on the order of Python sets (C124)
-/

namespace Netlab

open Netlab.Spec

/-! ### Sorted sets -/

theorem sorted_nodup_ext {a b : List String} (ha : a.Pairwise (· ≤ ·)) (hb : b.Pairwise (· ≤ ·)) (na : a.Nodup) (nb : b.Nodup) (h : ∀ x, x ∈ a ↔ x ∈ b) : a = b := by
  have hp : a.Perm b := (List.perm_ext_iff_of_nodup na nb).2 h
  exact hp.eq_of_pairwise (fun x y _ _ h1 h2 => String.le_antisymm h1 h2) ha hb

/-- **C124**: a sorted set (lists of VTEPs, modules, group members, supported devices) depends only on the elements of the set. -/
theorem C124_sorted (a b : List String) (h : ∀ x, x ∈ a ↔ x ∈ b) : sortedSet a = sortedSet b :=
  sorted_nodup_ext (sorted_sortedSet a) (sorted_sortedSet b) (nodup_sortedSet a) (nodup_sortedSet b) (fun x => by rw [mem_sortedSet, mem_sortedSet, h])

/-! ### Route reflector clusters -/


/-- The cluster ID of a route reflector -/
def rrClusterId (topo : List RrNode) (a : Int) (n : RrNode) : String :=
  match minString ((topo.filter (fun n => n.isRrIn a && n.clusterId.isNone)).map (·.routerId)) with
  | some m => if m = "" then n.routerId else m
  | none => n.routerId

theorem rrClusterAs_eq (topo : List RrNode) (a : Int) :
    rrClusterAs topo a = topo.map (fun n => if n.isRrIn a && n.clusterId.isNone then { n with clusterId := some (rrClusterId topo a n) } else n) := rfl

theorem isRrIn_disjoint {a b : Int} (h : a ≠ b) (n : RrNode) (ha : n.isRrIn a = true) : n.isRrIn b = false := by
  unfold RrNode.isRrIn at ha ⊢
  simp only [Bool.and_eq_true, decide_eq_true_eq] at ha
  rw [ha.1]
  simp [h]

theorem rrClusterAs_other (topo : List RrNode) {a b : Int} (h : a ≠ b) :
    ((rrClusterAs topo a).filter (fun n => n.isRrIn b && n.clusterId.isNone)).map (·.routerId) =
      (topo.filter (fun n => n.isRrIn b && n.clusterId.isNone)).map (·.routerId) := by
  rw [rrClusterAs_eq]
  have : ∀ (f : RrNode → String) (l : List RrNode),
      ((l.map (fun n => if n.isRrIn a && n.clusterId.isNone then { n with clusterId := some (f n) } else n)).filter
        (fun n => n.isRrIn b && n.clusterId.isNone)).map (·.routerId) =
      (l.filter (fun n => n.isRrIn b && n.clusterId.isNone)).map (·.routerId) := by
    intro f l
    induction l with
    | nil => rfl
    | cons n r ih =>
      rw [List.map_cons]
      by_cases hn : (n.isRrIn a && n.clusterId.isNone) = true
      · rw [if_pos hn]
        have h1 := isRrIn_disjoint h n (by simp only [Bool.and_eq_true] at hn; exact hn.1)
        rw [List.filter_cons_of_neg (by simp), List.filter_cons_of_neg (by simp [h1])]
        exact ih
      · rw [if_neg hn]
        by_cases hb : (n.isRrIn b && n.clusterId.isNone) = true
        · rw [List.filter_cons, List.filter_cons, if_pos hb, if_pos hb, List.map_cons, List.map_cons, ih]
        · rw [List.filter_cons, List.filter_cons, if_neg hb, if_neg hb, ih]
  exact this _ _

theorem rrClusterAs_comm (topo : List RrNode) (a b : Int) :
    rrClusterAs (rrClusterAs topo a) b = rrClusterAs (rrClusterAs topo b) a := by
  by_cases h : a = b
  · rw [h]
  · have e1 : ∀ n, rrClusterId (rrClusterAs topo a) b n = rrClusterId topo b n := by
      intro n; unfold rrClusterId; rw [rrClusterAs_other topo h]
    have e2 : ∀ n, rrClusterId (rrClusterAs topo b) a n = rrClusterId topo a n := by
      intro n; unfold rrClusterId; rw [rrClusterAs_other topo (Ne.symm h)]
    rw [rrClusterAs_eq (rrClusterAs topo a) b, rrClusterAs_eq (rrClusterAs topo b) a]
    simp only [e1, e2]
    rw [rrClusterAs_eq topo a, rrClusterAs_eq topo b, List.map_map, List.map_map]
    apply List.map_congr_left
    intro n _
    simp only [Function.comp]
    by_cases ha : (n.isRrIn a && n.clusterId.isNone) = true
    · have h1 := isRrIn_disjoint h n (by simp only [Bool.and_eq_true] at ha; exact ha.1)
      rw [if_pos ha, if_neg (by simp), if_neg (show ¬ (n.isRrIn b && n.clusterId.isNone) = true by simp [h1]), if_pos ha]
    · rw [if_neg ha]
      by_cases hb : (n.isRrIn b && n.clusterId.isNone) = true
      · rw [if_pos hb, if_neg (by simp)]
      · rw [if_neg hb, if_neg ha]

/-- **C124**: the cluster IDs of route reflectors do not depend on the order in which the autonomous systems are processed. -/
theorem C124_rr_clusters (topo : List RrNode) (asns asns' : List Int) (h : asns.Perm asns') :
    buildRrClusters asns topo = buildRrClusters asns' topo := by
  unfold buildRrClusters
  exact h.foldl_eq' (fun x _ y _ z => rrClusterAs_comm z x y) topo

/-! ### VRF identifiers -/

/-- The same outcome for one node -/
def SameDictResult : Except Fatal (VrfDict × VrfSets × Nat) → Except Fatal (VrfDict × VrfSets × Nat) → Prop
  | .ok (r, s, e), .ok (r', s', e') => SameContent r r' ∧ s = s' ∧ e = e'
  | .error e, .error e' => e = e'
  | _, _ => False

theorem setVrfIds_same (glob : Option VrfDict) (asn : Option Int) : ∀ (ks : List String) (d d' : VrfDict) (s : VrfSets), SameContent d d' →
    SameDictResult (setVrfIds glob asn d s ks) (setVrfIds glob asn d' s ks)
  | [], d, d', s, h => by exact ⟨h, rfl, rfl⟩
  | k :: ks, d, d', s, h => by
    have hset : ∀ v : Vrf, SameContent (setKey d k v) (setKey d' k v) := by
      intro v w; rw [lookup_setKey, lookup_setKey, h w]
    simp only [setVrfIds]
    rw [← h k]
    cases hl : d.lookup k with
    | none => exact setVrfIds_same glob asn ks d d' s h
    | some v =>
      dsimp only
      by_cases hn : vrfNeedsId v = true
      · rw [if_pos hn, if_pos hn]
        cases hg : glob.bind (·.lookup k) with
        | some g => exact setVrfIds_same glob asn ks _ _ s (hset _)
        | none =>
          cases asn with
          | none => exact ⟨h, rfl, rfl⟩
          | some a =>
            dsimp only
            cases hx : getNextVrfId a s with
            | error e => rfl
            | ok x =>
              obtain ⟨n, rd, s'⟩ := x
              exact setVrfIds_same glob (some a) ks _ _ s' (hset _)
      · rw [if_neg hn, if_neg hn]
        exact setVrfIds_same glob asn ks d d' s h

/-- The loop over two lists of VRFs; an error stops it. -/
theorem setVrfIds_append (glob : Option VrfDict) (asn : Option Int) : ∀ (ks xs : List String) (d : VrfDict) (s : VrfSets),
    setVrfIds glob asn d s (ks ++ xs) = (match setVrfIds glob asn d s ks with
      | .ok (d1, s1, 0) => setVrfIds glob asn d1 s1 xs
      | r => r)
  | [], xs, d, s => by simp [setVrfIds]
  | k :: ks, xs, d, s => by
    simp only [List.cons_append, setVrfIds]
    cases d.lookup k with
    | none => exact setVrfIds_append glob asn ks xs d s
    | some v =>
      dsimp only
      by_cases hn : vrfNeedsId v = true
      · rw [if_pos hn, if_pos hn]
        cases glob.bind (·.lookup k) with
        | some g => exact setVrfIds_append glob asn ks xs _ s
        | none =>
          cases asn with
          | none => rfl
          | some a =>
            dsimp only
            cases getNextVrfId a s with
            | error e => rfl
            | ok x => exact setVrfIds_append glob (some a) ks xs _ _
      · rw [if_neg hn, if_neg hn]
        exact setVrfIds_append glob asn ks xs d s

/-- A VRF that takes missing identifiers from the global VRF -/
def vrfFromGlobal (glob : Option VrfDict) (k : String) (v : Vrf) : Vrf :=
  if vrfNeedsId v then
    match glob.bind (·.lookup k) with
    | some g => { v with id := g.id, rd := g.rd }
    | none => v
  else v

theorem vrfFromGlobal_idem (glob : Option VrfDict) (k : String) (v : Vrf) :
    vrfFromGlobal glob k (vrfFromGlobal glob k v) = vrfFromGlobal glob k v := by
  unfold vrfFromGlobal
  by_cases hn : vrfNeedsId v = true
  · rw [if_pos hn]
    cases hg : glob.bind (·.lookup k) with
    | none => simp [hn]
    | some g =>
      dsimp only
      split <;> rfl
  · rw [if_neg hn, if_neg hn]

theorem setVrfIds_global (glob : Option VrfDict) (asn : Option Int) : ∀ (xs : List String) (d : VrfDict) (s : VrfSets),
    (∀ k ∈ xs, (glob.bind (·.lookup k)).isSome = true) →
    ∃ d', setVrfIds glob asn d s xs = .ok (d', s, 0) ∧ ∀ w, d'.lookup w = if w ∈ xs then (d.lookup w).map (vrfFromGlobal glob w) else d.lookup w
  | [], d, s, _ => ⟨d, rfl, by simp⟩
  | k :: xs, d, s, h => by
    have hx : ∀ j ∈ xs, (glob.bind (·.lookup j)).isSome = true := fun j hj => h j (List.mem_cons_of_mem _ hj)
    obtain ⟨g, hg⟩ := Option.isSome_iff_exists.1 (h k List.mem_cons_self)
    simp only [setVrfIds]
    cases hl : d.lookup k with
    | none =>
      obtain ⟨d', h1, h2⟩ := setVrfIds_global glob asn xs d s hx
      refine ⟨d', h1, fun w => ?_⟩
      rw [h2 w]
      by_cases hw : w = k
      · subst hw; simp [hl]
      · simp [hw]
    | some v =>
      dsimp only
      by_cases hn : vrfNeedsId v = true
      · rw [if_pos hn, hg]
        dsimp only
        obtain ⟨d', h1, h2⟩ := setVrfIds_global glob asn xs (setKey d k { v with id := g.id, rd := g.rd }) s hx
        refine ⟨d', h1, fun w => ?_⟩
        have hv : ({ v with id := g.id, rd := g.rd } : Vrf) = vrfFromGlobal glob k v := by
          unfold vrfFromGlobal; rw [if_pos hn, hg]
        rw [h2 w, lookup_setKey]
        by_cases hw : w = k
        · subst hw
          rw [hl, if_pos rfl, if_pos List.mem_cons_self, Option.map_some, Option.map_some, hv, vrfFromGlobal_idem]
          split <;> rfl
        · simp [hw]
      · rw [if_neg hn]
        obtain ⟨d', h1, h2⟩ := setVrfIds_global glob asn xs d s hx
        refine ⟨d', h1, fun w => ?_⟩
        rw [h2 w]
        by_cases hw : w = k
        · subst hw
          have hv : vrfFromGlobal glob w v = v := by unfold vrfFromGlobal; rw [if_neg hn]
          simp [hl, hv]
        · simp [hw]

theorem pullVrfs_keys : ∀ (ks : List String) (d : VrfDict),
    ∃ xs, (pullVrfs d ks).map (·.1) = d.map (·.1) ++ xs ∧ ∀ k, k ∈ xs ↔ k ∈ ks ∧ d.lookup k = none
  | [], d => ⟨[], by simp [pullVrfs], by simp⟩
  | k :: ks, d => by
    simp only [pullVrfs]
    cases hl : d.lookup k with
    | some v =>
      obtain ⟨xs, h1, h2⟩ := pullVrfs_keys ks d
      refine ⟨xs, h1, fun w => ?_⟩
      rw [h2 w, List.mem_cons]
      constructor
      · rintro ⟨a, b⟩; exact ⟨.inr a, b⟩
      · rintro ⟨rfl | a, b⟩
        · rw [hl] at b; cases b
        · exact ⟨a, b⟩
    | none =>
      obtain ⟨xs, h1, h2⟩ := pullVrfs_keys ks (setKey d k {})
      refine ⟨k :: xs, ?_, fun w => ?_⟩
      · dsimp only
        rw [h1, setKey_new d k _ hl]
        simp
      · rw [List.mem_cons, h2 w, lookup_setKey, List.mem_cons]
        by_cases hw : w = k
        · subst hw; simp [hl]
        · simp [hw]

theorem nodeVrf_same (glob : Option VrfDict) (asn : Option Int) (s : VrfSets) (d : VrfDict) (vs vs' : List String)
    (hm : ∀ v, v ∈ vs ↔ v ∈ vs') (hd : ∀ v ∈ vs, d.lookup v ≠ none ∨ ∃ g, glob = some g ∧ g.lookup v ≠ none) :
    SameDictResult (setVrfIds glob asn (pullVrfs d vs) s ((pullVrfs d vs).map (·.1))) (setVrfIds glob asn (pullVrfs d vs') s ((pullVrfs d vs').map (·.1))) := by
  obtain ⟨xs, h1, h2⟩ := pullVrfs_keys vs d
  obtain ⟨xs', h1', h2'⟩ := pullVrfs_keys vs' d
  have hsame : SameContent (pullVrfs d vs) (pullVrfs d vs') := by
    intro w
    rw [pullVrfs_lookup, pullVrfs_lookup]
    simp only [hm w]
  have hx : ∀ w, w ∈ xs ↔ w ∈ xs' := by intro w; rw [h2, h2', hm]
  have hg : ∀ k ∈ xs, (glob.bind (·.lookup k)).isSome = true := by
    intro k hk
    obtain ⟨a, b⟩ := (h2 k).1 hk
    rcases hd k a with h | ⟨g, hg, hl⟩
    · exact absurd b h
    · subst hg
      simpa [Option.isSome_iff_ne_none] using hl
  have hg' : ∀ k ∈ xs', (glob.bind (·.lookup k)).isSome = true := fun k hk => hg k ((hx k).2 hk)
  rw [h1, h1', setVrfIds_append, setVrfIds_append]
  have hK := setVrfIds_same glob asn (d.map (·.1)) _ _ s hsame
  rcases hr : setVrfIds glob asn (pullVrfs d vs) s (d.map (·.1)) with e | ⟨r, s1, e⟩ <;>
    rcases hr' : setVrfIds glob asn (pullVrfs d vs') s (d.map (·.1)) with e' | ⟨r', s1', e'⟩ <;> rw [hr, hr'] at hK ⊢ <;> dsimp only [SameDictResult] at hK
  · exact hK
  · obtain ⟨k1, rfl, rfl⟩ := hK
    cases e with
    | succ n => exact ⟨k1, rfl, rfl⟩
    | zero =>
      obtain ⟨a, ha1, ha2⟩ := setVrfIds_global glob asn xs r s1 hg
      obtain ⟨b, hb1, hb2⟩ := setVrfIds_global glob asn xs' r' s1 hg'
      show SameDictResult (setVrfIds glob asn r s1 xs) (setVrfIds glob asn r' s1 xs')
      rw [ha1, hb1]
      refine ⟨fun w => ?_, rfl, rfl⟩
      rw [ha2, hb2, k1 w]
      simp only [hx w]

/-- **C124**: VRF identifiers and route distinguishers of all nodes do not depend on the order in which the VRFs used by VLANs are visited,
when all those VRFs are defined. -/
theorem C124_vrf_ids (t : VrfTopo) (glob : Option VrfDict) : ∀ (nodes nodes' : List (String × VrfNode)) (s : VrfSets),
    List.Forall₂ SameNode nodes nodes' → (∀ n ∈ nodes, VrfsDefined glob n.2) →
    SameVrfs (nodeVrfIds t glob s nodes) (nodeVrfIds t glob s nodes')
  | [], _, s, h, _ => by
    cases h
    simp [nodeVrfIds, SameVrfs]
  | (n, nd) :: r, _, s, h, hd => by
    obtain _ | @⟨_, ⟨n', nd'⟩, _, r', hn, hr⟩ := h
    obtain ⟨q1, q2, q3, q4, q5⟩ := hn
    dsimp only at q1 q2 q3 q4 q5
    subst q1
    have hs := nodeVrf_same glob (getRdAs nd.bgpAs nd.vrfAs t) s nd.vrfs nd.vlanVrfs nd'.vlanVrfs q5 (hd _ List.mem_cons_self)
    simp only [nodeVrfIds]
    rw [← q2, ← q3, ← q4]
    rcases ha : setVrfIds glob (getRdAs nd.bgpAs nd.vrfAs t) (pullVrfs nd.vrfs nd.vlanVrfs) s ((pullVrfs nd.vrfs nd.vlanVrfs).map (·.1)) with e | ⟨d1, s1, e1⟩ <;>
      rcases hb : setVrfIds glob (getRdAs nd.bgpAs nd.vrfAs t) (pullVrfs nd.vrfs nd'.vlanVrfs) s ((pullVrfs nd.vrfs nd'.vlanVrfs).map (·.1)) with e' | ⟨d1', s1', e1'⟩ <;>
      rw [ha, hb] at hs ⊢ <;> dsimp only [SameDictResult] at hs
    · exact hs
    · obtain ⟨k1, rfl, rfl⟩ := hs
      have ih := C124_vrf_ids t glob r r' s1 hr (fun x hx => hd x (List.mem_cons_of_mem _ hx))
      dsimp only
      rcases hc : nodeVrfIds t glob s1 r with e | ⟨a, sa, ea⟩ <;> rcases hc' : nodeVrfIds t glob s1 r' with e' | ⟨b, sb, eb⟩ <;>
        rw [hc, hc'] at ih <;> dsimp only [SameVrfs] at ih ⊢
      · obtain ⟨i1, i2, i3, i4⟩ := ih
        refine ⟨by simp [i1], ?_, i3, by rw [i4]⟩
        intro k x y hx hy
        cases k with
        | zero =>
          simp only [List.getElem?_cons_zero, Option.some.injEq] at hx hy
          subst hx; subst hy
          exact k1
        | succ k =>
          simp only [List.getElem?_cons_succ] at hx hy
          exact i2 k x y hx hy

/-! ### VLANs on links -/

theorem eraseDups_same {l : List String} (h : ∀ x ∈ l, ∀ y ∈ l, x = y) : l.eraseDups = [] ∨ ∃ x ∈ l, l.eraseDups = [x] := by
  have hn := nodup_eraseDups l
  have hm : ∀ x, x ∈ l.eraseDups ↔ x ∈ l := fun x => List.mem_eraseDups
  generalize l.eraseDups = m at hn hm
  match m with
  | [] => exact .inl rfl
  | [x] => exact .inr ⟨x, (hm x).1 (by simp), rfl⟩
  | x :: y :: r =>
    have := h x ((hm x).1 (by simp)) y ((hm y).1 (by simp))
    subst this
    simp at hn

theorem pick_same {pick pick' : List String → Option String} (hp : Picks pick) (hp' : Picks pick') {l : List String} (h : ∀ x ∈ l, ∀ y ∈ l, x = y) :
    pick l.eraseDups = pick' l.eraseDups ∧ ∀ x, pick l.eraseDups = some x → x ∈ l := by
  rcases eraseDups_same h with e | ⟨x, hx, e⟩ <;> rw [e]
  · rw [hp.1, hp'.1]
    exact ⟨rfl, by simp⟩
  · obtain ⟨y, hy, e1⟩ := hp.2 [x] (by simp)
    obtain ⟨z, hz, e2⟩ := hp'.2 [x] (by simp)
    simp only [List.mem_singleton] at hy hz
    subst hy; subst hz
    rw [e1, e2]
    exact ⟨rfl, by rintro w ⟨⟩; exact hx⟩

/-- **C124**: the prefix of a link with VLANs, the forwarding modes of its interfaces and the VLAN member links do not depend on the arbitrary choices of set
elements when there is one access VLAN and one native VLAN on the link and they are global VLANs. -/
theorem C124_vlan_link (t : VTopo) (sort : List String → List String) (pick pick' : List String → Option String) (l : VLink) (hp : Picks pick) (hp' : Picks pick')
    (ha : ∀ a b v w, OnLink l a → OnLink l b → a.access = some v → b.access = some w → v = w)
    (hn : ∀ a b v w, OnLink l a → OnLink l b → a.native = some v → b.native = some w → v = w)
    (hg : ∀ a v, OnLink l a → a.access = some v ∨ a.native = some v → t.vlans.lookup v ≠ none) :
    vlanLink t sort pick l = vlanLink t sort pick' l := by
  unfold vlanLink
  dsimp only
  by_cases hc : (collectLink t l).2 = 0
  · have hs := (collectLink_spec t l hc).2.2
    have key : ∀ k, k = .access ∨ k = .native → ∀ c, (collectLink t l).1 k = some c →
        pick c.list.eraseDups = pick' c.list.eraseDups ∧ ∀ x, pick c.list.eraseDups = some x → t.vlans.lookup x ≠ none := by
      intro k hk c hcc
      have h2 := (hs k).2.1
      simp only [VColls.ls, hcc, Option.getD_some] at h2
      rw [h2]
      have hu : ∀ x ∈ linkNames l k, ∀ y ∈ linkNames l k, x = y := by
        intro x hx y hy
        obtain ⟨a, ha1, hx⟩ := (mem_linkNames l k x).1 hx
        obtain ⟨b, hb1, hy⟩ := (mem_linkNames l k y).1 hy
        rcases hk with rfl | rfl
        · cases h1 : a.access <;> cases h2 : b.access <;> simp [nm, VlanAttr.names, h1, h2] at hx hy
          subst hx; subst hy
          exact ha a b _ _ ha1 hb1 h1 h2
        · cases h1 : a.native <;> cases h2 : b.native <;> simp [nm, VlanAttr.names, h1, h2] at hx hy
          subst hx; subst hy
          exact hn a b _ _ ha1 hb1 h1 h2
      obtain ⟨e1, e2⟩ := pick_same hp hp' hu
      refine ⟨e1, fun x hx => ?_⟩
      obtain ⟨a, ha1, hx⟩ := (mem_linkNames l k x).1 (e2 x hx)
      rcases hk with rfl | rfl
      · cases h1 : a.access <;> simp [nm, VlanAttr.names, h1] at hx
        subst hx
        exact hg a _ ha1 (.inl h1)
      · cases h1 : a.native <;> simp [nm, VlanAttr.names, h1] at hx
        subst hx
        exact hg a _ ha1 (.inr h1)
    have hvp : ∀ k, k = .access ∨ k = .native → ∀ c l', (collectLink t l).1 k = some c → vlanPrefix t pick c l' = vlanPrefix t pick' c l' := by
      intro k hk c l' hcc
      obtain ⟨e1, e2⟩ := key k hk c hcc
      unfold vlanPrefix
      rw [← e1]
      cases hx : pick c.list.eraseDups with
      | none => rfl
      | some x =>
        dsimp only
        cases hl : t.vlans.lookup x with
        | none => exact absurd hl (e2 x hx)
        | some d => rfl
    have hsp : ∀ l', setPrefix t pick (collectLink t l).1 l' = setPrefix t pick' (collectLink t l).1 l' := by
      intro l'
      unfold setPrefix
      cases h1 : (collectLink t l).1 .access with
      | some c => exact hvp _ (.inl rfl) c l' h1
      | none =>
        cases h2 : (collectLink t l).1 .native with
        | some c => exact hvp _ (.inr rfl) c l' h2
        | none => cases (collectLink t l).1 .trunk <;> rfl
    have hav : accessVlan pick (collectLink t l).1 = accessVlan pick' (collectLink t l).1 := by
      have hb : ∀ k, k = .access ∨ k = .native → ((collectLink t l).1 k).bind (fun c => pick c.list.eraseDups) = ((collectLink t l).1 k).bind (fun c => pick' c.list.eraseDups) := by
        intro k hk
        cases h1 : (collectLink t l).1 k with
        | none => rfl
        | some c => exact (key k hk c h1).1
      unfold accessVlan
      rw [hb .access (.inl rfl), hb .native (.inr rfl)]
    have hap : ∀ l', accessPart t pick (collectLink t l).1 l' = accessPart t pick' (collectLink t l).1 l' := by
      intro l'
      unfold accessPart
      rw [hav]
      simp only [hsp]
    simp only [hap]
  · rw [if_pos hc, if_pos hc]

/-! ### Custom configurations -/

theorem consistent_orders_eq {a b : List String} (na : a.Nodup) (nb : b.Nodup) (hm : ∀ x, x ∈ a ↔ x ∈ b)
    (h : ∀ x ∈ a, ∀ y ∈ a, x ≠ y → ([x, y].Sublist a ∧ [x, y].Sublist b) ∨ ([y, x].Sublist a ∧ [y, x].Sublist b)) : a = b := by
  have hp : a.Perm b := (List.perm_ext_iff_of_nodup na nb).2 hm
  have pw : ∀ l : List String, l.Nodup → l.Pairwise (fun x y => [x, y].Sublist l) := by
    intro l hl
    rw [List.pairwise_iff_forall_sublist]
    intro x y hxy
    exact hxy
  have noboth : ∀ (l : List String), l.Nodup → ∀ x y, [x, y].Sublist l → [y, x].Sublist l → x = y := by
    intro l
    induction l with
    | nil => intro _ x y h; cases h
    | cons z r ih =>
      intro hl x y h1 h2
      rw [List.nodup_cons] at hl
      cases h1 with
      | cons _ h1 =>
        cases h2 with
        | cons _ h2 => exact ih hl.2 x y h1 h2
        | cons_cons _ h2 =>
          exact absurd (h1.subset (by simp)) hl.1
      | cons_cons _ h1 =>
        cases h2 with
        | cons _ h2 => exact absurd (h2.subset (by simp)) hl.1
        | cons_cons _ h2 => rfl
  have hb : b.Pairwise (fun x y => [x, y].Sublist a) := by
    refine (pw b nb).imp_of_mem ?_
    intro x y hx hy hs
    by_cases e : x = y
    · subst e
      have := hs.nodup nb
      simp at this
    · rcases h x ((hm x).2 hx) y ((hm y).2 hy) e with h | h
      · exact h.1
      · exact absurd (noboth b nb x y hs h.2) e
  exact hp.eq_of_pairwise (fun x y _ _ h1 h2 => noboth a na x y h1 h2) (pw a na) hb

theorem configs_same (nodes : List (List String)) (extra extra' out out' : List String)
    (hnd : ∀ cfg ∈ nodes, cfg.Nodup)
    (hex : ∀ c, c ∈ extra ↔ ∃ cfg ∈ nodes, c ∈ cfg) (hexn : extra.Nodup) (hp : extra.Perm extra')
    (hdet : ∀ a ∈ extra, ∀ b ∈ extra, a ≠ b → ∃ cfg ∈ nodes, a ∈ cfg ∧ b ∈ cfg)
    (h : sortExtraConfig nodes extra = some out) (h' : sortExtraConfig nodes extra' = some out') : out = out' := by
  obtain ⟨a1, a2, a3⟩ := C54_consistent_order nodes extra out hnd hex hexn h
  obtain ⟨b1, b2, b3⟩ := C54_consistent_order nodes extra' out' hnd (fun c => by rw [← hp.mem_iff, hex]) (hp.nodup_iff.1 hexn) h'
  apply consistent_orders_eq a1 b1 (fun x => by rw [a2, b2])
  intro x hx y hy hne
  obtain ⟨cfg, hc, h1, h2⟩ := hdet x ((hex x).2 ((a2 x).1 hx)) y ((hex y).2 ((a2 y).1 hy)) hne
  have : [x, y].Sublist cfg ∨ [y, x].Sublist cfg := by
    clear a3 b3 hc
    induction cfg with
    | nil => cases h1
    | cons z r ih =>
      rcases List.mem_cons.1 h1 with rfl | k1
      · rcases List.mem_cons.1 h2 with rfl | k2
        · exact absurd rfl hne
        · exact .inl ((List.singleton_sublist.2 k2).cons_cons _)
      · rcases List.mem_cons.1 h2 with rfl | k2
        · exact .inr ((List.singleton_sublist.2 k1).cons_cons _)
        · rcases ih k1 k2 with h | h
          · exact .inl (h.cons _)
          · exact .inr (h.cons _)
  rcases this with h | h
  · exact .inl ⟨a3 cfg hc _ _ h, b3 cfg hc _ _ h⟩
  · exact .inr ⟨a3 cfg hc _ _ h, b3 cfg hc _ _ h⟩

/-- **C124**: the topology-wide list of custom configurations (or the error) does not depend on the order of the set of configurations when
every two configurations are used (in some order) on the same node. -/
theorem C124_configs (nodes : List (List String)) (extra extra' : List String)
    (hnd : ∀ cfg ∈ nodes, cfg.Nodup)
    (hex : ∀ c, c ∈ extra ↔ ∃ cfg ∈ nodes, c ∈ cfg) (hexn : extra.Nodup) (hp : extra.Perm extra')
    (hdet : ∀ a ∈ extra, ∀ b ∈ extra, a ≠ b → ∃ cfg ∈ nodes, a ∈ cfg ∧ b ∈ cfg) :
    sortExtraConfig nodes extra = sortExtraConfig nodes extra' := by
  by_cases hl : 2 ≤ extra.length
  · have e1 := C54_error_iff_contradiction nodes extra hnd hex hl
    have e2 := C54_error_iff_contradiction nodes extra' hnd (fun c => by rw [← hp.mem_iff, hex]) (hp.length_eq ▸ hl)
    cases h : sortExtraConfig nodes extra with
    | none => exact (e2.2 (e1.1 h)).symm
    | some out =>
      cases h' : sortExtraConfig nodes extra' with
      | none => rw [e1.2 (e2.1 h')] at h; cases h
      | some out' => rw [configs_same nodes extra extra' out out' hnd hex hexn hp hdet h h']
  · match extra, hl with
    | [], _ => rw [List.nil_perm.1 hp]
    | [x], _ => rw [List.singleton_perm.1 hp]
    | x :: y :: r, h => simp at h

/-! ### Defects -/

namespace HashEx

/-- A node with two VLANs in VRFs that are defined nowhere -/
def undefNode (order : List String) : List (String × VrfNode) := [("r", { bgpAs := some 65000, vlanVrfs := order })]

def vrfIdsOf (r : Except Fatal (List (String × VrfNode) × VrfSets × Nat)) : List (String × List (String × Option Int)) × Nat :=
  match r with
  | .ok (n, _, e) => (n.map fun x => (x.1, x.2.vrfs.map fun v => (v.1, v.2.id)), e)
  | .error _ => ([], 99)

def firstOf (l : List String) : Option String := l.head?
def lastOf (l : List String) : Option String := l.getLast?

/-- A VLAN defined on two nodes with different prefixes -/
def localTopo : VTopo := { node := fun n =>
  if n = "a" then { aware := true, vlans := [("red", { pfx := some "10.0.0.0/24" })] }
  else { aware := true, vlans := [("red", { pfx := some "10.1.0.0/24" })] } }

def localLink : VLink := { ifs := [{ node := "a", vlan := some { access := some "red" } }, { node := "b", vlan := some { access := some "red" } }] }

def globTopo : VTopo := { vlans := [("red", { pfx := some "10.0.0.0/24" })], node := fun _ => { aware := true } }

end HashEx

/-- **C124**, defect: VRFs used in VLANs but defined nowhere are created without an error, and their identifiers depend on the
order of the set (`netsim/modules/vrf.py:447-451`). -/
theorem C124_undefined_vrfs :
    HashEx.vrfIdsOf (nodeVrfIds {} none initVrfSets (HashEx.undefNode ["red", "blue"])) = ([("r", [("red", some 1), ("blue", some 2)])], 0) ∧
    HashEx.vrfIdsOf (nodeVrfIds {} none initVrfSets (HashEx.undefNode ["blue", "red"])) = ([("r", [("blue", some 1), ("red", some 2)])], 0) := by
  constructor <;> decide +kernel

/-- **C124**, defect: a link between two nodes with different definitions of a node VLAN gets the prefix of an arbitrary node
(`netsim/modules/vlan.py:578-584`). -/
theorem C124_node_vlan_prefix :
    (vlanLink HashEx.localTopo id HashEx.firstOf HashEx.localLink).link.pfx = .net "10.0.0.0/24" ∧
    (vlanLink HashEx.localTopo id HashEx.lastOf HashEx.localLink).link.pfx = .net "10.1.0.0/24" ∧
    (vlanLink HashEx.localTopo id HashEx.firstOf HashEx.localLink).errors = 0 ∧
    (vlanLink HashEx.localTopo id HashEx.lastOf HashEx.localLink).errors = 0 := by
  refine ⟨?_, ?_, ?_, ?_⟩ <;> decide +kernel

/-- **C124**, defect: the order of configurations used on different nodes is the order of the set
(`netsim/augment/plugin.py:161-174`). -/
theorem C124_unrelated_configs :
    sortExtraConfig [["a"], ["b"]] ["a", "b"] = some ["a", "b"] ∧ sortExtraConfig [["a"], ["b"]] ["b", "a"] = some ["b", "a"] := by
  constructor <;> decide +kernel

/-- The hypotheses of `C124_vrf_ids` hold for a node with a local VRF and two VLANs in global VRFs. -/
example : List.Forall₂ SameNode
    [("r", { bgpAs := some 65000, vrfs := [("own", {})], vlanVrfs := ["red", "own", "blue"] })]
    [("r", { bgpAs := some 65000, vrfs := [("own", {})], vlanVrfs := ["blue", "red", "own"] })] ∧
    VrfsDefined (some [("red", { id := some 7, rd := .str "1:7" }), ("blue", { id := some 8, rd := .str "1:8" })])
      { bgpAs := some 65000, vrfs := [("own", {})], vlanVrfs := ["red", "own", "blue"] } := by
  refine ⟨.cons ⟨rfl, rfl, rfl, rfl, by simp; tauto⟩ .nil, ?_⟩
  intro v hv
  simp only [List.mem_cons, List.not_mem_nil, or_false] at hv
  rcases hv with rfl | rfl | rfl
  · exact .inr ⟨_, rfl, by decide⟩
  · exact .inl (by decide)
  · exact .inr ⟨_, rfl, by decide⟩

/-- The hypotheses of `C124_vlan_link` hold for a link with a global VLAN, and the link gets its prefix. -/
example : Picks HashEx.firstOf ∧ Picks HashEx.lastOf ∧
    (∀ a b v w, OnLink HashEx.localLink a → OnLink HashEx.localLink b → a.access = some v → b.access = some w → v = w) ∧
    (∀ a v, OnLink HashEx.localLink a → a.access = some v ∨ a.native = some v → HashEx.globTopo.vlans.lookup v ≠ none) ∧
    (vlanLink HashEx.globTopo id HashEx.firstOf HashEx.localLink).link.pfx = .net "10.0.0.0/24" := by
  have hon : ∀ a, OnLink HashEx.localLink a → a = { access := some "red" } := by
    rintro a (h | ⟨i, hi, h⟩)
    · cases h
    · simp only [HashEx.localLink, List.mem_cons, List.not_mem_nil, or_false] at hi
      rcases hi with rfl | rfl <;> (cases h; rfl)
  refine ⟨⟨rfl, ?_⟩, ⟨rfl, ?_⟩, ?_, ?_, by decide +kernel⟩
  · intro s hs
    cases s with
    | nil => exact absurd rfl hs
    | cons x r => exact ⟨x, by simp, rfl⟩
  · intro s hs
    exact ⟨s.getLast hs, List.getLast_mem hs, List.getLast?_eq_some_getLast hs⟩
  · intro a b v w ha hb h1 h2
    rw [hon a ha] at h1
    rw [hon b hb] at h2
    cases h1; cases h2; rfl
  · intro a v ha h
    rw [hon a ha] at h
    rcases h with h | h <;> cases h
    decide

example : sortedSet ["b", "a", "b"] = sortedSet ["a", "a", "b"] := C124_sorted _ _ (by simp)
example : (∀ a ∈ ["x", "y"], ∀ b ∈ ["x", "y"], a ≠ b → ∃ cfg ∈ [["y", "x"]], a ∈ cfg ∧ b ∈ cfg) := by decide

end Netlab
