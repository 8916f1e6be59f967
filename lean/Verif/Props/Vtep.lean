import Verif.Model.Vtep
import Verif.Spec.Vtep
import Verif.Lemmas.Util
/-!
# C50: VXLAN flooding lists
-/

namespace Netlab
open Spec

theorem nodeSetVtep_iff (v6 : Bool) (n : VxNode) (a : String) :
    nodeSetVtep v6 n = some a ↔ IsVtep v6 n a := by
  have key : ∀ i : VxIntf, ((n.intfs.find? (fun i => i.isLoopback && i.vtep)).getD n.loopback = i) ↔
      ((∃ pre post, n.intfs = pre ++ i :: post ∧ i.isLoopback = true ∧ i.vtep = true ∧
        ∀ j ∈ pre, ¬ (j.isLoopback = true ∧ j.vtep = true)) ∨
      (i = n.loopback ∧ ∀ j ∈ n.intfs, ¬ (j.isLoopback = true ∧ j.vtep = true))) := by
    intro i
    cases hf : n.intfs.find? (fun i => i.isLoopback && i.vtep) with
    | none =>
      rw [List.find?_eq_none] at hf
      simp only [Bool.and_eq_true] at hf
      constructor
      · intro e
        exact Or.inr ⟨e.symm, hf⟩
      · rintro (⟨pre, post, h1, h2, h3, _⟩ | ⟨e, _⟩)
        · exact absurd ⟨h2, h3⟩ (hf i (by simp [h1]))
        · exact e.symm
    | some j =>
      have hj := hf
      rw [List.find?_eq_some_iff_append] at hf
      obtain ⟨hp, pre, post, hl, hpre⟩ := hf
      simp only [Bool.and_eq_true] at hp
      constructor
      · intro e
        simp only [Option.getD_some] at e
        subst e
        refine Or.inl ⟨pre, post, hl, hp.1, hp.2, ?_⟩
        intro k hk hc
        have := hpre k hk
        simp [hc.1, hc.2] at this
      · rintro (⟨pre', post', h1, h2, h3, h4⟩ | ⟨e, hall⟩)
        · have : n.intfs.find? (fun i => i.isLoopback && i.vtep) = some i := by
            rw [List.find?_eq_some_iff_append]
            refine ⟨by simp [h2, h3], pre', post', h1, ?_⟩
            intro k hk
            have := h4 k hk
            cases h5 : k.isLoopback <;> cases h6 : k.vtep <;> simp_all
          rw [this] at hj
          simpa using hj.symm
        · exact absurd hp (hall j (by simp [hl]))
  unfold nodeSetVtep IsVtep
  constructor
  · intro h
    refine ⟨_, (key _).1 rfl, ?_⟩
    cases v6
    · simpa using h
    · simp only [if_true] at h ⊢
      split at h
      · exact ⟨by assumption, h⟩
      · cases h
  · rintro ⟨i, hi, h⟩
    have := (key i).2 hi
    simp only [this]
    cases v6
    · simpa using h
    · simp only [if_true] at h ⊢
      rw [if_pos h.1]
      exact h.2

theorem usesVxlan_iff (n : VxNode) :
    usesVxlan n = true ↔ n.l3vnis = true ∨ ∃ k, k ≠ 0 ∧ UsesVni n (.num k) := by
  unfold usesVxlan UsesVni
  simp only [Bool.or_eq_true, List.any_eq_true]
  constructor
  · rintro (⟨v, hv, h⟩ | h)
    · right
      cases hl : n.vlans with
      | none => simp [hl] at hv
      | some l =>
        rw [hl] at hv
        cases hx : v.vni with
        | none => simp [hx, vniTruthy] at h
        | some x =>
          cases x with
          | off => simp [hx, vniTruthy] at h
          | num k =>
            refine ⟨k, ?_, l, rfl, v, hv, hx⟩
            simpa [hx, vniTruthy] using h
    · exact Or.inl h
  · rintro (h | ⟨k, hk, l, hl, v, hv, hx⟩)
    · exact Or.inr h
    · left
      refine ⟨v, by simpa [hl] using hv, ?_⟩
      simpa [hx, vniTruthy] using hk

theorem vxPrepare_iff (v6 : Bool) (n m : VxNode) :
    vxPrepare v6 n = some m ↔
      VxlanActive n ∧ ∃ a, IsVtep v6 n a ∧ m = { n with vtep := some a } := by
  unfold vxPrepare VxlanActive
  rw [← usesVxlan_iff]
  cases h1 : n.enabled with
  | false => simp
  | true =>
    cases h2 : n.intfs with
    | nil => simp
    | cons i l =>
      cases h3 : usesVxlan n with
      | false => simp
      | true =>
        cases h4 : nodeSetVtep v6 n with
        | none =>
          have : ∀ a, ¬ IsVtep v6 n a := fun a ha => by
            rw [← nodeSetVtep_iff, h4] at ha
            cases ha
          simp [this]
        | some a =>
          have ha := (nodeSetVtep_iff v6 n a).1 h4
          have hu : ∀ b, IsVtep v6 n b ↔ b = a := fun b => by
            rw [← nodeSetVtep_iff, h4]
            constructor
            · intro e
              exact (Option.some.inj e).symm
            · intro e
              rw [e]
          simp [hu]
          exact eq_comm

theorem mem_buildVtepList (x : VlanVni) (me : VxNode) (nodes : List VxNode) (acc : List String)
    (a : String) :
    a ∈ buildVtepList x me nodes acc ↔
      a ∈ acc ∨ ∃ n ∈ nodes, n.name ≠ me.name ∧ n.vtep = some a ∧ me.vtep ≠ some a ∧
        UsesVni n x := by
  induction nodes generalizing acc with
  | nil => simp [buildVtepList]
  | cons n rest ih =>
    have skip : ∀ (P : Prop), ¬ (n.name ≠ me.name ∧ n.vtep = some a ∧ me.vtep ≠ some a ∧
        UsesVni n x) ∨ a ∈ acc →
        ((a ∈ acc ∨ ∃ n ∈ rest, n.name ≠ me.name ∧ n.vtep = some a ∧ me.vtep ≠ some a ∧
        UsesVni n x) ↔ (a ∈ acc ∨ ∃ m ∈ n :: rest, m.name ≠ me.name ∧ m.vtep = some a ∧
        me.vtep ≠ some a ∧ UsesVni m x)) := by
      intro _ h
      constructor
      · rintro (h' | ⟨m, hm, h'⟩)
        · exact Or.inl h'
        · exact Or.inr ⟨m, List.mem_cons_of_mem _ hm, h'⟩
      · rintro (h' | ⟨m, hm, h'⟩)
        · exact Or.inl h'
        · cases List.mem_cons.1 hm with
          | inl e =>
            subst e
            cases h with
            | inl h => exact absurd h' h
            | inr h => exact Or.inl h
          | inr hm => exact Or.inr ⟨m, hm, h'⟩
    unfold buildVtepList
    by_cases h1 : n.name = me.name
    · simp only [h1, beq_self_eq_true, if_true, ih]
      exact skip True (Or.inl (fun h => h.1 h1))
    · rw [if_neg (by simpa using h1)]
      cases hl : n.vlans with
      | none =>
        simp only [ih]
        refine skip True (Or.inl ?_)
        rintro ⟨_, _, _, l, hl', _⟩
        rw [hl] at hl'
        cases hl'
      | some l =>
        cases hv : n.vtep with
        | none =>
          simp only [ih]
          refine skip True (Or.inl ?_)
          rintro ⟨_, h, _⟩
          rw [hv] at h
          cases h
        | some b =>
          simp only
          by_cases h2 : some b = me.vtep
          · rw [if_pos (by simpa using h2), ih]
            refine skip True (Or.inl ?_)
            rintro ⟨_, h, h', _⟩
            rw [hv] at h
            exact h' (h2 ▸ h)
          · rw [if_neg (by simpa using h2)]
            by_cases h3 : b ∈ acc
            · rw [if_pos (by simpa using h3), ih]
              refine skip True ?_
              by_cases e : a = b
              · exact Or.inr (e ▸ h3)
              · left
                rintro ⟨_, h, _⟩
                rw [hv] at h
                exact e (Option.some.inj h).symm
            · rw [if_neg (by simpa using h3)]
              by_cases h4 : ∃ v ∈ l, v.vni = some x
              · have h4' : (l.any (fun v => v.vni == some x)) = true := by simpa using h4
                rw [if_pos h4', ih]
                simp only [List.mem_append, List.not_mem_nil, or_false, List.mem_cons, or_and_right, exists_or, exists_eq_left]
                constructor
                · rintro ((h | rfl) | h)
                  · exact Or.inl h
                  · exact Or.inr (Or.inl ⟨h1, hv, fun e => h2 e.symm, l, hl, h4⟩)
                  · exact Or.inr (Or.inr h)
                · rintro (h | ⟨_, h, _⟩ | h)
                  · exact Or.inl (Or.inl h)
                  · rw [hv] at h
                    exact Or.inl (Or.inr (Option.some.inj h).symm)
                  · exact Or.inr h
              · have h4' : ¬ (l.any (fun v => v.vni == some x)) = true := by simpa using h4
                rw [if_neg h4', ih]
                refine skip True (Or.inl ?_)
                rintro ⟨_, _, _, l', hl', hx⟩
                rw [hl] at hl'
                cases hl'
                exact h4 hx

theorem nodup_buildVtepList (x : VlanVni) (me : VxNode) (nodes : List VxNode) (acc : List String)
    (h : acc.Nodup) : (buildVtepList x me nodes acc).Nodup := by
  induction nodes generalizing acc with
  | nil => simpa [buildVtepList] using h
  | cons n rest ih =>
    unfold buildVtepList
    split
    · exact ih _ h
    · split
      · exact ih _ h
      · split
        · exact ih _ h
        · rename_i b _
          split
          · exact ih _ h
          · split
            · exact ih _ h
            · rename_i hc
              split
              · apply ih
                rw [List.nodup_append]
                refine ⟨h, by simp, ?_⟩
                intro p hp q hq e
                simp only [List.mem_singleton] at hq
                subst hq
                subst e
                exact hc (by simpa using hp)
              · exact ih _ h

theorem usesVni_vtep (n : VxNode) (a : Option String) (x : VlanVni) :
    UsesVni { n with vtep := a } x ↔ UsesVni n x := Iff.rfl

/-- the remote VTEPs computed by the model are those of the specification -/
theorem mem_vlanVteps (v6 : Bool) (nodes : List VxNode) (n : VxNode) (mine : String)
    (x : VlanVni) (a : String) :
    let me := { n with vtep := some mine }
    a ∈ vlanVteps ((nodes.filterMap (vxPrepare v6)).filter (fun m => m.domain == me.domain)) me (some x) ↔
      RemoteVtep v6 nodes n mine x a := by
  simp only [vlanVteps]
  rw [mem_buildVtepList]
  simp only [List.not_mem_nil, false_or, List.mem_filter, List.mem_filterMap, vxPrepare_iff]
  unfold RemoteVtep
  constructor
  · rintro ⟨m, ⟨⟨m0, hm0, hact, b, hb, rfl⟩, hd⟩, hne, hv, hm, hu⟩
    simp only [Option.some.injEq] at hv
    subst hv
    refine ⟨m0, hm0, hne, by simpa using hd, hact, hb, ?_, hu⟩
    intro e
    exact hm (by rw [e])
  · rintro ⟨m0, hm0, hne, hd, hact, hb, hm, hu⟩
    refine ⟨_, ⟨⟨m0, hm0, hact, a, hb, rfl⟩, by simpa using hd⟩, hne, rfl, ?_, hu⟩
    simpa using fun e : mine = a => hm e.symm

/-- **C50 (who takes part).**  The nodes taking part in VXLAN are, in topology order, the active nodes
with a usable VTEP address; that address becomes their VTEP and nothing but VTEP lists changes. -/
theorem C50_participants (v6 : Bool) (nodes : List VxNode) (m : VxNode) :
    m ∈ vxlanPost v6 nodes →
      ∃ n ∈ nodes, ∃ a, VxlanActive n ∧ IsVtep v6 n a ∧ m.name = n.name ∧ m.vtep = some a ∧
        (n.static = false → m = { n with vtep := some a }) := by
  unfold vxlanPost
  simp only [List.mem_map, List.mem_filterMap, vxPrepare_iff]
  rintro ⟨me, ⟨n, hn, hact, a, ha, rfl⟩, rfl⟩
  refine ⟨n, hn, a, hact, ha, ?_, ?_, ?_⟩
  · unfold vxFlood
    split <;> rfl
  · unfold vxFlood
    split <;> rfl
  · intro hs
    unfold vxFlood
    rw [if_pos (by simp [hs])]

/-- **C50.**  A node using static flooding gets in each of its VLANs with a VNI a list of
exactly the VTEP addresses, different from its own, of the other nodes of its VXLAN domain using the same
VNI (the list is absent when there are none); VLANs without a VNI are unchanged.  The lists have no
duplicates and never contain the VTEP of the node. -/
theorem C50_flood_list (v6 : Bool) (nodes : List VxNode) (n : VxNode) (hn : n ∈ nodes)
    (hact : VxlanActive n) (mine : String) (hm : IsVtep v6 n mine) (hs : n.static = true)
    (l : List VxVlan) (hl : n.vlans = some l) :
    ∃ m ∈ vxlanPost v6 nodes, m.name = n.name ∧ m.vtep = some mine ∧
      ∃ l', m.vlans = some l' ∧ l'.length = l.length ∧
        ∀ i (h : i < l.length) (h' : i < l'.length),
          l'[i].name = l[i].name ∧ l'[i].vni = l[i].vni ∧
          (l[i].vni = none → l'[i] = l[i]) ∧
          ∀ x, l[i].vni = some x →
            (∀ a, a ∈ l'[i].vtepList.getD [] ↔ RemoteVtep v6 nodes n mine x a) ∧
            l'[i].vtepList ≠ some [] ∧
            (l'[i].vtepList.getD []).Nodup ∧ mine ∉ l'[i].vtepList.getD [] := by
  refine ⟨vxFlood ((nodes.filterMap (vxPrepare v6)).filter (fun k => k.domain == n.domain))
    { n with vtep := some mine }, ?_, ?_, ?_, ?_⟩
  · unfold vxlanPost
    refine List.mem_map.2 ⟨{ n with vtep := some mine }, ?_, rfl⟩
    exact List.mem_filterMap.2 ⟨n, hn, (vxPrepare_iff _ _ _).2 ⟨hact, mine, hm, rfl⟩⟩
  · unfold vxFlood
    split <;> rfl
  · unfold vxFlood
    split <;> rfl
  · generalize hdom : ((nodes.filterMap (vxPrepare v6)).filter (fun k => k.domain == n.domain)) = dom
    refine ⟨l.map (storeVteps dom { n with vtep := some mine }), ?_, by simp, ?_⟩
    · unfold vxFlood
      rw [if_neg (by simp [hs])]
      simp [hl]
    · intro i h h'
      simp only [List.getElem_map]
      generalize l[i] = v
      refine ⟨?_, ?_, ?_, ?_⟩
      · unfold storeVteps
        split <;> rfl
      · unfold storeVteps
        split <;> rfl
      · intro hv
        unfold storeVteps
        rw [if_pos (by simp [hv])]
      · intro x hx
        have hst : (storeVteps dom { n with vtep := some mine } v).vtepList.getD [] =
            vlanVteps dom { n with vtep := some mine } (some x) ∧
            (storeVteps dom { n with vtep := some mine } v).vtepList ≠ some [] := by
          unfold storeVteps
          rw [if_neg (by simp [hx])]
          rw [hx]
          simp only
          by_cases he : (vlanVteps dom { n with vtep := some mine } (some x)).isEmpty = true
          · rw [if_pos he]
            simp only [List.isEmpty_iff] at he
            simp [he]
          · rw [if_neg he]
            simp only [List.isEmpty_iff] at he
            simp [he]
        rw [hst.1]
        have hmem : ∀ a, a ∈ vlanVteps dom { n with vtep := some mine } (some x) ↔
            RemoteVtep v6 nodes n mine x a := by
          intro a
          rw [← hdom]
          exact mem_vlanVteps v6 nodes n mine x a
        refine ⟨hmem, hst.2, nodup_buildVtepList _ _ _ _ List.nodup_nil, ?_⟩
        intro hmine
        obtain ⟨_, _, _, _, _, _, hne, _⟩ := (hmem mine).1 hmine
        exact hne rfl

/-- **C50 (node list).**  The list of VTEPs of a node using static flooding is sorted, has
no duplicates, and contains exactly the remote VTEPs of its VLANs. -/
theorem C50_node_list (v6 : Bool) (nodes : List VxNode) (n : VxNode) (hn : n ∈ nodes)
    (hact : VxlanActive n) (mine : String) (hm : IsVtep v6 n mine) (hs : n.static = true) :
    ∃ m ∈ vxlanPost v6 nodes, m.name = n.name ∧ ∃ l, m.vtepList = some l ∧
      l.Pairwise (· ≤ ·) ∧ l.Nodup ∧
      ∀ a, a ∈ l ↔ ∃ x, UsesVni n x ∧ RemoteVtep v6 nodes n mine x a := by
  refine ⟨vxFlood ((nodes.filterMap (vxPrepare v6)).filter (fun k => k.domain == n.domain))
    { n with vtep := some mine }, ?_, ?_, ?_⟩
  · unfold vxlanPost
    refine List.mem_map.2 ⟨{ n with vtep := some mine }, ?_, rfl⟩
    exact List.mem_filterMap.2 ⟨n, hn, (vxPrepare_iff _ _ _).2 ⟨hact, mine, hm, rfl⟩⟩
  · unfold vxFlood
    split <;> rfl
  · unfold vxFlood
    rw [if_neg (by simp [hs])]
    refine ⟨_, rfl, ?_, ?_, ?_⟩
    · unfold sortedSet
      refine (List.pairwise_mergeSort ?_ ?_ _).imp ?_
      · intro a b c h1 h2
        simp only [decide_eq_true_eq] at *
        exact String.le_trans h1 h2
      · intro a b
        simp only [Bool.or_eq_true, decide_eq_true_eq]
        exact String.le_total a b
      · intro a b h
        simpa using h
    · unfold sortedSet
      rw [(List.mergeSort_perm _ _).nodup_iff]
      exact nodup_eraseDups _
    · intro a
      unfold sortedSet
      rw [(List.mergeSort_perm _ _).mem_iff, List.mem_eraseDups, List.mem_flatMap]
      constructor
      · rintro ⟨v, hv, ha⟩
        cases hl : n.vlans with
        | none => simp [hl] at hv
        | some l =>
          simp only [hl, Option.getD_some] at hv
          cases hx : v.vni with
          | none => simp [hx, vlanVteps] at ha
          | some x =>
            rw [hx] at ha
            exact ⟨x, ⟨l, hl, v, hv, hx⟩, (mem_vlanVteps v6 nodes n mine x a).1 ha⟩
      · rintro ⟨x, ⟨l, hl, v, hv, hx⟩, hr⟩
        refine ⟨v, by simpa [hl] using hv, ?_⟩
        rw [hx]
        exact (mem_vlanVteps v6 nodes n mine x a).2 hr

/-- Three nodes used in the examples: `s1` and `s2` share VNI 1000, `s3` shares an address with
`s1` (an anycast VTEP) -/
def vxSample : List VxNode :=
  let lo (a : String) : VxIntf := ⟨true, false, some a, none⟩
  let e : VxIntf := ⟨false, false, some "10.1.0.1", none⟩
  [⟨"s1", true, lo "10.0.0.1", [e], false, "global", true,
      some [⟨"red", some (.num 1000), none⟩, ⟨"blue", some .off, none⟩], false, none, none⟩,
   ⟨"s2", true, lo "10.0.0.2", [e], false, "global", true,
      some [⟨"red", some (.num 1000), none⟩, ⟨"green", some .off, none⟩], false, none, none⟩,
   ⟨"s3", true, lo "10.0.0.1", [e], false, "global", false,
      some [⟨"red", some (.num 1000), none⟩], false, none, none⟩]

example : (vxlanPost false vxSample).map (fun n => n.vtep) =
    [some "10.0.0.1", some "10.0.0.2", some "10.0.0.1"] := by decide +kernel

/-- The anycast VTEP is in the list of `s2` only once, `s1` does not use `s3`. -/
example : ((vxlanPost false vxSample).map
    (fun n => (n.vlans.getD []).head?.map (fun v => v.vtepList))) =
    [some (some ["10.0.0.2"]), some (some ["10.0.0.1"]), some none] := by
  decide +kernel

/-- **C50 (defect).**  A VLAN excluded from VXLAN with `vni: false` still gets a flooding list,
made of the nodes that exclude any of their VLANs, even an unrelated one. -/
theorem C50_disabled_vlan_flooded :
    ∃ nodes : List VxNode, ∃ m ∈ vxlanPost false nodes, ∃ l, m.vlans = some l ∧
      ∃ v ∈ l, v.name = "blue" ∧ v.vni = some .off ∧ v.vtepList = some ["10.0.0.2"] ∧
        ∀ n ∈ nodes, n.name ≠ m.name → ∀ l', n.vlans = some l' → ∀ w ∈ l', w.name ≠ "blue" := by
  refine ⟨vxSample, vxFlood ((vxSample.filterMap (vxPrepare false)).filter (fun k => k.domain == "global"))
    ⟨"s1", true, ⟨true, false, some "10.0.0.1", none⟩, [⟨false, false, some "10.1.0.1", none⟩], false,
      "global", true, some [⟨"red", some (.num 1000), none⟩, ⟨"blue", some .off, none⟩], false,
      some "10.0.0.1", none⟩, ?_, ?_⟩
  · unfold vxlanPost
    refine List.mem_map.2 ⟨_, ?_, rfl⟩
    decide +kernel
  · refine ⟨[⟨"red", some (.num 1000), some ["10.0.0.2"]⟩, ⟨"blue", some .off, some ["10.0.0.2"]⟩], by decide +kernel,
      ⟨"blue", some .off, some ["10.0.0.2"]⟩, by simp, rfl, rfl, rfl, ?_⟩
    intro n hn hne l' hl w hw e
    have : ∀ n ∈ vxSample, n.name = "s1" ∨ ∀ w ∈ n.vlans.getD [], w.name ≠ "blue" := by
      decide +kernel
    rcases this n hn with h | h
    · exact hne h
    · exact h w (by simpa [hl] using hw) e

end Netlab
