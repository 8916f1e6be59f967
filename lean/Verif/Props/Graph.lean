import Verif.Spec.Graph
import Verif.Lemmas.Box
import Verif.Props.BgpDomain
import Verif.Props.BgpSession
/-!
# C110: topology and BGP graphs
-/

namespace Netlab
open Netlab.Spec

/-! ## Clusters -/

theorem lookup_append_none {β : Type} (a : List (String × β)) (k c : String) (v : β) (h : a.lookup k = none) :
    (a ++ [(k, v)]).lookup c = if c = k then some v else a.lookup c := by
  induction a with
  | nil =>
    by_cases hc : c = k
    · subst hc; simp
    · rw [List.nil_append, lookup_cons_ne _ _ hc, if_neg hc]
  | cons x a ih =>
    obtain ⟨j, w⟩ := x
    by_cases hk : k = j
    · subst hk; rw [lookup_cons_self] at h; simp at h
    · rw [lookup_cons_ne _ _ hk] at h
      rw [List.cons_append]
      by_cases hc : c = j
      · subst hc
        rw [lookup_cons_self, lookup_cons_self, if_neg (fun e => hk e.symm)]
      · rw [lookup_cons_ne _ _ hc, lookup_cons_ne _ _ hc, ih h]

/-- Clusters are well formed: every cluster is drawn once, has at least one node, and no node twice. -/
def GvWell (m : List (String × List String)) : Prop := (m.map (·.1)).Nodup ∧ ∀ c ∈ m, c.2.Nodup ∧ c.2 ≠ []

theorem gvAdd_spec (m : List (String × List String)) (c n : String) (hw : GvWell m) :
    GvWell (gvAdd m c n) ∧ ∀ c' n', InCluster (gvAdd m c n) c' n' ↔ InCluster m c' n' ∨ (c' = c ∧ n' = n) := by
  unfold gvAdd
  cases hl : m.lookup c with
  | some l =>
    simp only
    have hlm := hw.2 (c, l) (mem_of_lookup hl)
    generalize hl' : (if l.contains n then l else l ++ [n]) = l'
    have hmem : ∀ x, x ∈ l' ↔ x ∈ l ∨ x = n := by
      intro x
      rw [← hl']
      by_cases hn : n ∈ l
      · rw [if_pos (by simpa using hn)]
        exact ⟨Or.inl, fun h => h.elim id (fun e => e ▸ hn)⟩
      · rw [if_neg (by simpa using hn)]; simp
    refine ⟨⟨nodup_setKey hw.1 _ _, ?_⟩, ?_⟩
    · intro x hx
      have hx' := lookup_of_mem (nodup_setKey hw.1 c l') (show (x.1, x.2) ∈ _ from hx)
      rw [lookup_setKey] at hx'
      by_cases hc : x.1 = c
      · rw [if_pos hc] at hx'
        cases hx'
        rw [← hl']
        by_cases hn : n ∈ l
        · rw [if_pos (by simpa using hn)]; exact hlm
        · rw [if_neg (by simpa using hn)]
          refine ⟨?_, by simp⟩
          rw [List.nodup_append]
          exact ⟨hlm.1, by simp, fun a ha b hb e => hn (by simp at hb; rw [← hb, ← e]; exact ha)⟩
      · rw [if_neg hc] at hx'
        exact hw.2 (x.1, x.2) (mem_of_lookup hx')
    · intro c' n'
      unfold InCluster
      rw [lookup_setKey]
      by_cases hc : c' = c
      · subst hc
        rw [if_pos rfl, hl]
        simp only [Option.some.injEq, exists_eq_left', true_and, hmem]
      · rw [if_neg hc]; simp [hc]
  | none =>
    simp only
    refine ⟨⟨?_, ?_⟩, ?_⟩
    · rw [List.map_append, List.nodup_append]
      refine ⟨hw.1, by simp, ?_⟩
      intro a ha b hb e
      simp at hb
      subst hb; subst e
      exact lookup_eq_none_iff.1 hl ha
    · intro x hx
      rcases List.mem_append.1 hx with hx | hx
      · exact hw.2 x hx
      · simp at hx; subst hx; simp
    · intro c' n'
      unfold InCluster
      rw [lookup_append_none _ _ _ _ hl]
      by_cases hc : c' = c
      · subst hc
        rw [if_pos rfl, hl]; simp
      · rw [if_neg hc]; simp [hc]

theorem gvAs_spec (nodes : List GvNode) (m : List (String × List String)) (hw : GvWell m) :
    let r := nodes.foldl (fun m n => match n.asn with
      | some a => gvAdd m ("AS_" ++ a) n.name
      | none => m) m
    GvWell r ∧ ∀ c x, InCluster r c x ↔ InCluster m c x ∨ ∃ n ∈ nodes, ∃ a, n.asn = some a ∧ c = "AS_" ++ a ∧ n.name = x := by
  induction nodes generalizing m with
  | nil => exact ⟨hw, by simp⟩
  | cons n r ih =>
    intro res
    cases hn : n.asn with
    | none =>
      obtain ⟨i1, i2⟩ := ih m hw
      have hres : res = r.foldl (fun m n => match n.asn with | some a => gvAdd m ("AS_" ++ a) n.name | none => m) m := by
        simp only [res, List.foldl_cons, hn]
      rw [hres]
      refine ⟨i1, fun c x => ?_⟩
      rw [i2]
      simp [hn]
    | some a =>
      obtain ⟨a1, a2⟩ := gvAdd_spec m ("AS_" ++ a) n.name hw
      obtain ⟨i1, i2⟩ := ih _ a1
      have hres : res = r.foldl (fun m n => match n.asn with | some a => gvAdd m ("AS_" ++ a) n.name | none => m) (gvAdd m ("AS_" ++ a) n.name) := by
        simp only [res, List.foldl_cons, hn]
      rw [hres]
      refine ⟨i1, fun c x => ?_⟩
      rw [i2, a2]
      simp only [List.mem_cons, exists_eq_or_imp, hn, Option.some.injEq, exists_eq_left']
      constructor
      · rintro ((h | h) | h)
        · exact Or.inl h
        · exact Or.inr (Or.inl ⟨h.1, h.2.symm⟩)
        · exact Or.inr (Or.inr h)
      · rintro (h | h | h)
        · exact Or.inl (Or.inl h)
        · exact Or.inl (Or.inr ⟨h.1, h.2.symm⟩)
        · exact Or.inr h

theorem gvWell_nil : GvWell [] := ⟨by simp, by simp⟩

/-- **C110**: AS clusters: a node is drawn in the cluster of its own AS, and in no other cluster; nodes without an AS number are in no cluster.  No cluster is empty or drawn twice. -/
theorem C110_as_clusters (nodes : List GvNode) :
    (∀ c x, InCluster (gvAs nodes) c x ↔ ∃ n ∈ nodes, ∃ a, n.asn = some a ∧ c = "AS_" ++ a ∧ n.name = x) ∧
    ((gvAs nodes).map (·.1)).Nodup ∧ ∀ c ∈ gvAs nodes, c.2.Nodup ∧ c.2 ≠ [] := by
  obtain ⟨h1, h2⟩ := gvAs_spec nodes [] gvWell_nil
  refine ⟨fun c x => ?_, h1.1, h1.2⟩
  have := h2 c x
  rw [show InCluster [] c x ↔ False from ⟨by rintro ⟨l, h, _⟩; simp at h, False.elim⟩, false_or] at this
  exact this

theorem asPrefix_inj {a b : String} (h : "AS_" ++ a = "AS_" ++ b) : a = b := by
  have := congrArg String.toList h
  simp only [String.toList_append] at this
  exact String.toList_inj.1 (List.append_cancel_left this)

/-- **C110**: a node is never drawn in two AS clusters. -/
theorem C110_one_as (nodes : List GvNode) (hn : (nodes.map (·.name)).Nodup) (c c' x : String) (h : InCluster (gvAs nodes) c x) (h' : InCluster (gvAs nodes) c' x) : c = c' := by
  rw [(C110_as_clusters nodes).1] at h h'
  obtain ⟨n, hm, a, ha, rfl, hx⟩ := h
  obtain ⟨n', hm', a', ha', rfl, hx'⟩ := h'
  have : n = n' := by
    exact eq_of_map_nodup hn hm hm' (hx.trans hx'.symm)
  subst this
  rw [ha] at ha'
  cases ha'
  rfl

/-! ## Group clusters -/

theorem gvMembers_spec (g : String) (ms : List String) (m : List (String × List String)) (placed : List String) (e : Nat) (hw : GvWell m) :
    let r := gvMembers g ms (m, placed, e)
    GvWell r.1 ∧ (∀ c x, InCluster r.1 c x ↔ InCluster m c x ∨ (c = g ∧ x ∈ ms ∧ x ∉ placed)) ∧
    (∀ x, x ∈ r.2.1 ↔ x ∈ placed ∨ x ∈ ms) ∧ e ≤ r.2.2 ∧ (r.2.2 = e ↔ ms.Nodup ∧ ∀ x ∈ ms, x ∉ placed) := by
  induction ms generalizing m placed e with
  | nil => simp [gvMembers, hw]
  | cons n ms ih =>
    unfold gvMembers
    by_cases hp : n ∈ placed
    · rw [if_pos (by simpa using hp)]
      obtain ⟨i1, i2, i3, i4, i5⟩ := ih m placed (e + 1) hw
      refine ⟨i1, fun c x => ?_, fun x => ?_, by omega, ?_⟩
      · rw [i2]
        refine or_congr_right (and_congr_right fun _ => ?_)
        constructor
        · rintro ⟨h1, h2⟩; exact ⟨List.mem_cons_of_mem _ h1, h2⟩
        · rintro ⟨h1, h2⟩
          rcases List.mem_cons.1 h1 with rfl | h1
          · exact absurd hp h2
          · exact ⟨h1, h2⟩
      · rw [i3, List.mem_cons]
        constructor
        · rintro (h | h)
          · exact Or.inl h
          · exact Or.inr (Or.inr h)
        · rintro (h | rfl | h)
          · exact Or.inl h
          · exact Or.inl hp
          · exact Or.inr h
      · constructor
        · intro h; omega
        · rintro ⟨_, h⟩; exact absurd hp (h n List.mem_cons_self)
    · rw [if_neg (by simpa using hp)]
      obtain ⟨a1, a2⟩ := gvAdd_spec m g n hw
      obtain ⟨i1, i2, i3, i4, i5⟩ := ih (gvAdd m g n) (placed ++ [n]) e a1
      refine ⟨i1, fun c x => ?_, fun x => ?_, i4, ?_⟩
      · rw [i2, a2]
        simp only [List.mem_append, List.mem_cons, List.not_mem_nil, or_false]
        constructor
        · rintro ((h | ⟨rfl, rfl⟩) | ⟨rfl, h1, h2⟩)
          · exact Or.inl h
          · exact Or.inr ⟨rfl, Or.inl rfl, hp⟩
          · exact Or.inr ⟨rfl, Or.inr h1, fun h => h2 (Or.inl h)⟩
        · rintro (h | ⟨rfl, rfl | h1, h2⟩)
          · exact Or.inl (Or.inl h)
          · exact Or.inl (Or.inr ⟨rfl, rfl⟩)
          · by_cases hx : x = n
            · exact Or.inl (Or.inr ⟨rfl, hx⟩)
            · exact Or.inr ⟨rfl, h1, fun h => h.elim h2 hx⟩
      · rw [i3]; simp only [List.mem_append, List.mem_cons, List.not_mem_nil, or_false, or_assoc]
      · rw [i5, List.nodup_cons]
        simp only [List.mem_append, List.mem_cons, List.not_mem_nil, or_false, not_or]
        constructor
        · rintro ⟨h1, h2⟩
          refine ⟨⟨fun h => (h2 n h).2 rfl, h1⟩, ?_⟩
          rintro x (rfl | hx)
          · exact hp
          · exact (h2 x hx).1
        · rintro ⟨⟨h1, h2⟩, h3⟩
          exact ⟨h2, fun x hx => ⟨h3 x (Or.inr hx), fun h => h1 (h ▸ hx)⟩⟩

theorem gvGroups_fold (groups : List (String × List String)) (selected : List String) (m : List (String × List String)) (placed : List String) (e : Nat) (hw : GvWell m)
    (hp : ∀ c x, InCluster m c x → x ∈ placed) :
    let r := groups.foldl (fun s g => if selected.contains g.1 then gvMembers g.1 g.2 s else s) (m, placed, e)
    GvWell r.1 ∧ (∀ c x, InCluster r.1 c x ↔ InCluster m c x ∨ (x ∉ placed ∧ FirstGroup groups selected x c)) ∧
    (∀ x, x ∈ r.2.1 ↔ x ∈ placed ∨ ∃ g ∈ groups, g.1 ∈ selected ∧ x ∈ g.2) ∧ e ≤ r.2.2 ∧
    (r.2.2 = e ↔ ((groups.filter (fun g => selected.contains g.1)).flatMap (·.2)).Nodup ∧ ∀ x ∈ (groups.filter (fun g => selected.contains g.1)).flatMap (·.2), x ∉ placed) := by
  induction groups generalizing m placed e with
  | nil =>
    refine ⟨hw, fun c x => ?_, by simp, Nat.le_refl _, by simp⟩
    constructor
    · exact Or.inl
    · rintro (h | ⟨_, pre, ms, post, he, _⟩)
      · exact h
      · simp at he
  | cons g gs ih =>
    rw [List.foldl_cons]
    by_cases hs : g.1 ∈ selected
    · rw [if_pos (by simpa using hs)]
      have M := gvMembers_spec g.1 g.2 m placed e hw
      generalize gvMembers g.1 g.2 (m, placed, e) = st at M
      obtain ⟨m', placed', e'⟩ := st
      simp only at M
      obtain ⟨g1, g2, g3, g4, g5⟩ := M
      have hp' : ∀ c x, InCluster m' c x → x ∈ placed' := by
        intro c x hx
        rw [g3]
        rcases (g2 c x).1 hx with h | h
        · exact Or.inl (hp c x h)
        · exact Or.inr h.2.1
      obtain ⟨i1, i2, i3, i4, i5⟩ := ih m' placed' e' g1 hp'
      refine ⟨i1, fun c x => ?_, fun x => ?_, by omega, ?_⟩
      · rw [i2, g2, g3]
        constructor
        · rintro ((h | ⟨rfl, h1, h2⟩) | ⟨h1, pre, ms, post, h2, h3, h4, h5⟩)
          · exact Or.inl h
          · exact Or.inr ⟨h2, [], g.2, gs, rfl, hs, h1, by simp⟩
          · refine Or.inr ⟨fun h => h1 (Or.inl h), g :: pre, ms, post, by rw [h2]; rfl, h3, h4, ?_⟩
            intro y hy hys
            rcases List.mem_cons.1 hy with rfl | hy
            · exact fun h => h1 (Or.inr h)
            · exact h5 y hy hys
        · rintro (h | ⟨h1, pre, ms, post, h2, h3, h4, h5⟩)
          · exact Or.inl (Or.inl h)
          · cases pre with
            | nil =>
              simp only [List.nil_append, List.cons.injEq] at h2
              obtain ⟨rfl, rfl⟩ := h2
              exact Or.inl (Or.inr ⟨rfl, h4, h1⟩)
            | cons p pre =>
              simp only [List.cons_append, List.cons.injEq] at h2
              obtain ⟨rfl, rfl⟩ := h2
              exact Or.inr ⟨fun h => h.elim h1 (h5 g List.mem_cons_self hs), pre, ms, post, rfl, h3, h4, fun y hy => h5 y (List.mem_cons_of_mem _ hy)⟩
      · rw [i3, g3]
        simp only [List.mem_cons, exists_eq_or_imp, hs, true_and, or_assoc]
      · have hfl : ((g :: gs).filter (fun g => selected.contains g.1)).flatMap (·.2) = g.2 ++ (gs.filter (fun g => selected.contains g.1)).flatMap (·.2) := by
          rw [List.filter_cons_of_pos (by simpa using hs), List.flatMap_cons]
        rw [hfl, List.nodup_append]
        generalize (gs.filter (fun g => selected.contains g.1)).flatMap (·.2) = R at i5
        constructor
        · intro h
          have h1 : e' = e := by omega
          obtain ⟨a1, a2⟩ := g5.1 h1
          obtain ⟨b1, b2⟩ := i5.1 (by omega)
          refine ⟨⟨a1, b1, ?_⟩, ?_⟩
          · intro x hx y hy he
            subst he
            exact b2 x hy ((g3 x).2 (Or.inr hx))
          · intro x hx
            rcases List.mem_append.1 hx with hx | hx
            · exact a2 x hx
            · exact fun h => b2 x hx ((g3 x).2 (Or.inl h))
        · rintro ⟨⟨a1, b1, c1⟩, h⟩
          have h1 : e' = e := g5.2 ⟨a1, fun x hx => h x (List.mem_append_left _ hx)⟩
          rw [← h1]
          refine i5.2 ⟨b1, fun x hx hpl => ?_⟩
          rcases (g3 x).1 hpl with hh | hh
          · exact h x (List.mem_append_right _ hx) hh
          · exact c1 x hh x hx rfl
    · rw [if_neg (by simpa using hs)]
      obtain ⟨i1, i2, i3, i4, i5⟩ := ih m placed e hw hp
      refine ⟨i1, fun c x => ?_, fun x => ?_, i4, ?_⟩
      · rw [i2]
        refine or_congr_right (and_congr_right fun _ => ?_)
        constructor
        · rintro ⟨pre, ms, post, h2, h3, h4, h5⟩
          refine ⟨g :: pre, ms, post, by rw [h2]; rfl, h3, h4, ?_⟩
          intro y hy hys
          rcases List.mem_cons.1 hy with rfl | hy
          · exact absurd hys hs
          · exact h5 y hy hys
        · rintro ⟨pre, ms, post, h2, h3, h4, h5⟩
          cases pre with
          | nil =>
            simp only [List.nil_append, List.cons.injEq] at h2
            obtain ⟨rfl, rfl⟩ := h2
            exact absurd h3 hs
          | cons p pre =>
            simp only [List.cons_append, List.cons.injEq] at h2
            obtain ⟨rfl, rfl⟩ := h2
            exact ⟨pre, ms, post, rfl, h3, h4, fun y hy => h5 y (List.mem_cons_of_mem _ hy)⟩
      · rw [i3]
        simp only [List.mem_cons, exists_eq_or_imp, hs, false_and, false_or]
      · rw [i5, List.filter_cons_of_neg (by simpa using hs)]

/-- **C110**: group clusters: a node is drawn in the cluster of the first selected group it belongs to, and nowhere else; there is an error exactly when a node is listed twice in selected groups. -/
theorem C110_group_clusters (groups : List (String × List String)) (selected : List String) :
    (∀ c x, InCluster (gvGroups groups selected).1 c x ↔ FirstGroup groups selected x c) ∧
    ((gvGroups groups selected).2.2 = 0 ↔ ((groups.filter (fun g => selected.contains g.1)).flatMap (·.2)).Nodup) ∧
    ((gvGroups groups selected).1.map (·.1)).Nodup ∧ ∀ c ∈ (gvGroups groups selected).1, c.2.Nodup ∧ c.2 ≠ [] := by
  have hno : ∀ c x, ¬ InCluster [] c x := by rintro c x ⟨l, h, _⟩; simp at h
  obtain ⟨h1, h2, _, _, h5⟩ := gvGroups_fold groups selected [] [] 0 gvWell_nil (fun c x h => absurd h (hno c x))
  refine ⟨fun c x => ?_, ?_, h1.1, h1.2⟩
  · have := h2 c x
    simp only [hno, false_or, List.not_mem_nil, not_false_eq_true, true_and] at this
    exact this
  · have h6 : (gvGroups groups selected).2.2 = 0 ↔ _ := h5
    rw [h6]; simp

theorem firstGroup_unique {groups : List (String × List String)} {selected : List String} {x c c' : String} (h : FirstGroup groups selected x c) (h' : FirstGroup groups selected x c') : c = c' := by
  induction groups with
  | nil => obtain ⟨pre, ms, post, he, _⟩ := h; simp at he
  | cons g gs ih =>
    obtain ⟨pre, ms, post, h2, h3, h4, h5⟩ := h
    obtain ⟨pre', ms', post', h2', h3', h4', h5'⟩ := h'
    cases pre with
    | nil =>
      cases pre' with
      | nil =>
        simp only [List.nil_append, List.cons.injEq] at h2 h2'
        rw [h2.1] at h2'
        exact congrArg Prod.fst h2'.1
      | cons p pre' =>
        simp only [List.nil_append, List.cons_append, List.cons.injEq] at h2 h2'
        have := h5' p List.mem_cons_self
        rw [← h2'.1, h2.1] at this
        exact absurd h4 (this h3)
    | cons p pre =>
      cases pre' with
      | nil =>
        simp only [List.nil_append, List.cons_append, List.cons.injEq] at h2 h2'
        have := h5 p List.mem_cons_self
        rw [← h2.1, h2'.1] at this
        exact absurd h4' (this h3')
      | cons p' pre' =>
        simp only [List.cons_append, List.cons.injEq] at h2 h2'
        exact ih ⟨pre, ms, post, h2.2, h3, h4, fun y hy => h5 y (List.mem_cons_of_mem _ hy)⟩ ⟨pre', ms', post', h2'.2, h3', h4', fun y hy => h5' y (List.mem_cons_of_mem _ hy)⟩

/-! ## Drawn objects -/

theorem drawn_clusters (label : String → Option String) (m : List (String × List String)) :
    drawnNodes (gvClusters label m) = [] ∧ drawnClusters (gvClusters label m) = m ∧ drawnEdges (gvClusters label m) = [] ∧ drawnNets (gvClusters label m) = [] := by
  unfold gvClusters drawnNodes drawnClusters drawnEdges drawnNets
  induction m with
  | nil => simp
  | cons c m ih => simp

theorem drawn_nodes (l : List GvNode) :
    drawnNodes (l.map (fun n => .node n.name)) = l.map (·.name) ∧ drawnClusters (l.map (fun n => .node n.name)) = [] ∧ drawnEdges (l.map (fun n => .node n.name)) = [] ∧
    drawnNets (l.map (fun n => .node n.name)) = [] := by
  unfold drawnNodes drawnClusters drawnEdges drawnNets
  induction l with
  | nil => simp
  | cons c m ih => simp

theorem drawn_edges (l : List (String × String)) :
    drawnNodes (l.map (fun e => .edge e.1 e.2)) = [] ∧ drawnClusters (l.map (fun e => .edge e.1 e.2)) = [] ∧ drawnEdges (l.map (fun e => .edge e.1 e.2)) = l ∧
    drawnNets (l.map (fun e => .edge e.1 e.2)) = [] := by
  unfold drawnNodes drawnClusters drawnEdges drawnNets
  induction l with
  | nil => simp
  | cons c m ih => simp

theorem drawn_append (a b : List GvItem) :
    drawnNodes (a ++ b) = drawnNodes a ++ drawnNodes b ∧ drawnClusters (a ++ b) = drawnClusters a ++ drawnClusters b ∧ drawnEdges (a ++ b) = drawnEdges a ++ drawnEdges b ∧
    drawnNets (a ++ b) = drawnNets a ++ drawnNets b := by
  unfold drawnNodes drawnClusters drawnEdges drawnNets
  simp [List.filterMap_append]

theorem gvLink_spec (nodes : List String) (name : String → String) (l : GvLink) (hk : ∀ n ∈ l.nodes, n ∈ nodes) :
    (gvLink nodes name l = none ↔ l.p2p = true ∧ l.nodes.length < 2) ∧
    ∀ r, gvLink nodes name l = some r → drawnNodes r = [] ∧ drawnClusters r = [] ∧ drawnEdges r = linkEdges name l ∧ drawnNets r = if l.p2p = true then [] else [l.bridge] := by
  unfold gvLink linkEdges
  by_cases hp : l.p2p = true
  · rw [if_pos hp, if_pos hp, if_pos hp]
    cases hn : l.nodes with
    | nil => simp [hp]
    | cons a r =>
      cases r with
      | nil => simp [hp]
      | cons b r =>
        refine ⟨by simp, ?_⟩
        intro r' h
        simp only [Option.some.injEq] at h
        subst h
        exact ⟨rfl, rfl, rfl, rfl⟩
  · rw [if_neg hp, if_neg hp, if_neg hp]
    refine ⟨by simp [hp], ?_⟩
    intro r h
    simp only [Option.some.injEq] at h
    subst h
    have hf : l.nodes.filter (fun n => nodes.contains n) = l.nodes := List.filter_eq_self.2 (fun n hn => by simpa using hk n hn)
    rw [hf]
    have he : l.nodes.map (fun n => GvItem.edge (name n) l.bridge) = (l.nodes.map (fun n => (name n, l.bridge))).map (fun e => .edge e.1 e.2) := by
      rw [List.map_map]; rfl
    rw [he]
    obtain ⟨d1, d2, d3, d4⟩ := drawn_edges (l.nodes.map (fun n => (name n, l.bridge)))
    have hc : ∀ (x : List GvItem), GvItem.net l.bridge :: x = [GvItem.net l.bridge] ++ x := fun _ => rfl
    rw [hc]
    obtain ⟨e1, e2, e3, e4⟩ := drawn_append [GvItem.net l.bridge] ((l.nodes.map (fun n => (name n, l.bridge))).map (fun e => .edge e.1 e.2))
    rw [e1, e2, e3, e4, d1, d2, d3, d4]
    exact ⟨rfl, rfl, rfl, rfl⟩

theorem gvLinks_spec (nodes : List String) (name : String → String) (links : List GvLink) (hk : ∀ l ∈ links, ∀ n ∈ l.nodes, n ∈ nodes) (ls : List (List GvItem))
    (h : links.mapM (gvLink nodes name) = some ls) :
    drawnNodes ls.flatten = [] ∧ drawnClusters ls.flatten = [] ∧ drawnEdges ls.flatten = links.flatMap (linkEdges name) ∧
    drawnNets ls.flatten = (links.filter (fun l => !l.p2p)).map (·.bridge) := by
  induction links generalizing ls with
  | nil => cases h; exact ⟨rfl, rfl, rfl, rfl⟩
  | cons l r ih =>
    rw [List.mapM_cons] at h
    cases hl : gvLink nodes name l with
    | none => rw [hl] at h; simp at h
    | some x =>
      cases hr : r.mapM (gvLink nodes name) with
      | none => rw [hl, hr] at h; simp at h
      | some y =>
        rw [hl, hr] at h
        simp at h
        subst h
        obtain ⟨a1, a2, a3, a4⟩ := (gvLink_spec nodes name l (hk l List.mem_cons_self)).2 x hl
        obtain ⟨b1, b2, b3, b4⟩ := ih (fun z hz => hk z (List.mem_cons_of_mem _ hz)) y hr
        obtain ⟨c1, c2, c3, c4⟩ := drawn_append x y.flatten
        rw [List.flatten_cons, c1, c2, c3, c4, a1, a2, a3, a4, b1, b2, b3, b4]
        refine ⟨rfl, rfl, by rw [List.flatMap_cons], ?_⟩
        cases hp : l.p2p <;> simp [hp]

theorem drawn_groupItems (groups : List (String × List String)) (selected : Option (List String)) :
    drawnNodes (gvGroupItems groups selected) = [] ∧ drawnClusters (gvGroupItems groups selected) = groupClusters groups selected ∧
    drawnEdges (gvGroupItems groups selected) = [] ∧ drawnNets (gvGroupItems groups selected) = [] := by
  cases selected with
  | none => exact ⟨rfl, rfl, rfl, rfl⟩
  | some s => exact drawn_clusters (fun _ => none) (gvGroups groups s).1

/-- **C110**: every link is drawn: a connection between the two nodes of a point-to-point link, or a network connected to every node attached to any other link; no other connections or networks are drawn. -/
theorem C110_links (nodes : List GvNode) (bgp : Bool) (asList : List (Val × Option String)) (groups : List (String × List String)) (selected : Option (List String)) (asClusters : Bool) (links : List GvLink)
    (hk : ∀ l ∈ links, ∀ n ∈ l.nodes, n ∈ nodes.map (·.name)) (items : List GvItem) (h : gvTopology nodes bgp asList groups selected asClusters links = some items) :
    drawnEdges items = links.flatMap (linkEdges id) ∧ drawnNets items = (links.filter (fun l => !l.p2p)).map (·.bridge) := by
  unfold gvTopology at h
  simp only [Option.map_eq_some_iff] at h
  obtain ⟨ls, hl, rfl⟩ := h
  obtain ⟨_, _, h3, h4⟩ := gvLinks_spec _ _ links hk ls hl
  obtain ⟨_, _, c3, c4⟩ := drawn_append (gvGroupItems groups selected ++ gvNodeItems nodes bgp asList asClusters) ls.flatten
  rw [c3, c4, h3, h4]
  obtain ⟨_, _, d3, d4⟩ := drawn_append (gvGroupItems groups selected) (gvNodeItems nodes bgp asList asClusters)
  rw [d3, d4]
  obtain ⟨_, _, e1, e2⟩ := drawn_groupItems groups selected
  have e3 : drawnEdges (gvNodeItems nodes bgp asList asClusters) = [] ∧ drawnNets (gvNodeItems nodes bgp asList asClusters) = [] := by
    unfold gvNodeItems
    simp only
    generalize (if bgp = true then gvAs nodes else []) = maps
    split
    · exact ⟨(drawn_clusters _ _).2.2.1, (drawn_clusters _ _).2.2.2⟩
    · exact ⟨(drawn_nodes _).2.2.1, (drawn_nodes _).2.2.2⟩
  rw [e1, e2, e3.1, e3.2]
  exact ⟨rfl, rfl⟩

/-- **C110**: the topology graph cannot be drawn exactly when a point-to-point link has less than two nodes. -/
theorem C110_crash (nodes : List GvNode) (bgp : Bool) (asList : List (Val × Option String)) (groups : List (String × List String)) (selected : Option (List String)) (asClusters : Bool) (links : List GvLink)
    (hk : ∀ l ∈ links, ∀ n ∈ l.nodes, n ∈ nodes.map (·.name)) :
    gvTopology nodes bgp asList groups selected asClusters links = none ↔ ∃ l ∈ links, l.p2p = true ∧ l.nodes.length < 2 := by
  unfold gvTopology
  simp only [Option.map_eq_none_iff, mapM_none_iff]
  constructor
  · rintro ⟨l, hl, he⟩; exact ⟨l, hl, ((gvLink_spec _ id l (hk l hl)).1).1 he⟩
  · rintro ⟨l, hl, he⟩; exact ⟨l, hl, ((gvLink_spec _ id l (hk l hl)).1).2 he⟩

/-- **C110**: every node is drawn exactly once (outside of clusters or within clusters of selected groups) unless the graph uses AS clusters; the drawn clusters are those of the selected groups. -/
theorem C110_nodes (nodes : List GvNode) (bgp : Bool) (asList : List (Val × Option String)) (groups : List (String × List String)) (selected : Option (List String)) (asClusters : Bool) (links : List GvLink)
    (hk : ∀ l ∈ links, ∀ n ∈ l.nodes, n ∈ nodes.map (·.name)) (items : List GvItem) (h : gvTopology nodes bgp asList groups selected asClusters links = some items)
    (hc : asClusters = false ∨ bgp = false ∨ ∀ n ∈ nodes, n.asn = none) :
    drawnNodes items = nodes.map (·.name) ∧ drawnClusters items = groupClusters groups selected := by
  unfold gvTopology at h
  simp only [Option.map_eq_some_iff] at h
  obtain ⟨ls, hl, rfl⟩ := h
  have hcond : (!(if bgp then gvAs nodes else []).isEmpty && asClusters) = false := by
    rcases hc with rfl | rfl | hc
    · simp
    · simp
    · have : gvAs nodes = [] := by
        cases hg : gvAs nodes with
        | nil => rfl
        | cons c r =>
          exfalso
          have hw := C110_as_clusters nodes
          have hcm : c ∈ gvAs nodes := by rw [hg]; exact List.mem_cons_self
          obtain ⟨_, hne⟩ := hw.2.2 c hcm
          obtain ⟨x, hx⟩ := List.exists_mem_of_ne_nil _ hne
          obtain ⟨n, hn, a, ha, _⟩ := (hw.1 c.1 x).1 ⟨c.2, lookup_of_mem hw.2.1 hcm, hx⟩
          rw [hc n hn] at ha
          cases ha
      rw [this]; simp
  have hni : gvNodeItems nodes bgp asList asClusters = nodes.map (fun n => .node n.name) := by
    unfold gvNodeItems
    simp only
    rw [hcond]
    rfl
  obtain ⟨h1, h2, _⟩ := gvLinks_spec _ _ links hk ls hl
  obtain ⟨c1, c2, _⟩ := drawn_append (gvGroupItems groups selected ++ gvNodeItems nodes bgp asList asClusters) ls.flatten
  obtain ⟨d1, d2, _⟩ := drawn_append (gvGroupItems groups selected) (gvNodeItems nodes bgp asList asClusters)
  obtain ⟨e1, e2, _⟩ := drawn_groupItems groups selected
  rw [c1, c2, h1, h2, d1, d2, e1, e2, hni, (drawn_nodes nodes).1, (drawn_nodes nodes).2.1]
  simp

/-- **C110**: in a graph with AS clusters the nodes are drawn in the clusters of their ASes (and not outside of them). -/
theorem C110_as_graph (nodes : List GvNode) (asList : List (Val × Option String)) (groups : List (String × List String)) (links : List GvLink)
    (hk : ∀ l ∈ links, ∀ n ∈ l.nodes, n ∈ nodes.map (·.name)) (items : List GvItem) (h : gvTopology nodes true asList groups none true links = some items) (ha : ∃ n ∈ nodes, n.asn ≠ none) :
    drawnNodes items = [] ∧ ∀ c x, InCluster (drawnClusters items) c x ↔ ∃ n ∈ nodes, ∃ a, n.asn = some a ∧ c = "AS_" ++ a ∧ n.name = x := by
  unfold gvTopology at h
  simp only [Option.map_eq_some_iff] at h
  obtain ⟨ls, hl, rfl⟩ := h
  have hne : (gvAs nodes).isEmpty = false := by
    cases hg : gvAs nodes with
    | cons c r => rfl
    | nil =>
      exfalso
      obtain ⟨n, hn, hna⟩ := ha
      cases hh : n.asn with
      | none => exact hna hh
      | some a =>
        obtain ⟨l, hl, _⟩ := ((C110_as_clusters nodes).1 ("AS_" ++ a) n.name).2 ⟨n, hn, a, hh, rfl, rfl⟩
        rw [hg] at hl; simp at hl
  have hni : gvGroupItems groups none ++ gvNodeItems nodes true asList true = gvClusters (gvAsName asList) (gvAs nodes) := by
    unfold gvNodeItems gvGroupItems
    simp [hne]
  rw [hni]
  obtain ⟨h1, h2, _⟩ := gvLinks_spec _ _ links hk ls hl
  obtain ⟨c1, c2, _⟩ := drawn_append (gvClusters (gvAsName asList) (gvAs nodes)) ls.flatten
  rw [c1, c2, h1, h2, (drawn_clusters _ _).1, (drawn_clusters _ _).2.1, List.append_nil, List.append_nil]
  exact ⟨rfl, (C110_as_clusters nodes).1⟩

example : gvTopology [{ name := "r1", asn := some "65000" }, { name := "r2", asn := some "65001" }] true [] [] none true [⟨true, "", ["r1", "r2"]⟩, ⟨false, "br_1", ["r1", "r2"]⟩] =
    some [.cluster "AS_65000" none ["r1"], .cluster "AS_65001" none ["r2"], .edge "r1" "r2", .net "br_1", .edge "r1" "br_1", .edge "r2" "br_1"] := by decide +kernel

/-- **C110** (defect): a node without an AS number (for example, a host) is not drawn in a graph with AS clusters. -/
theorem C110_host_missing : gvTopology [{ name := "r1", asn := some "65000" }, { name := "h" }] true [] [] none true [] = some [.cluster "AS_65000" none ["r1"]] := by decide +kernel

/-- **C110** (defect): with groups and AS clusters a node is drawn in two clusters. -/
theorem C110_two_clusters : gvTopology [{ name := "r1", asn := some "65000" }] true [] [("g", ["r1"])] (some ["g"]) true [] =
    some [.cluster "g" none ["r1"], .cluster "AS_65000" none ["r1"]] := by decide +kernel

/-- **C110** (defect): AS names are never used as cluster labels when the AS list contains AS numbers. -/
theorem C110_as_name (asList : List (Val × Option String)) (h : ∀ a ∈ asList, ∃ i, a.1 = .int i) (c : String) : gvAsName asList c = none := by
  unfold gvAsName
  have : asList.reverse.find? (fun a => a.2.isSome && decide (a.1 = .str c)) = none := by
    rw [List.find?_eq_none]
    intro a ha
    obtain ⟨i, hi⟩ := h a (List.mem_reverse.1 ha)
    simp [hi]
  rw [this]

/-! ## D2 graphs -/

theorem d2Name_spec (m : List (String × List String)) (hw : (m.map (·.1)).Nodup) (hone : ∀ c c' x, InCluster m c x → InCluster m c' x → c = c') (n : String) :
    (∀ c, InCluster m c n → d2Name m n = c ++ "." ++ n) ∧ ((∀ c, ¬ InCluster m c n) → d2Name m n = n) := by
  unfold d2Name
  cases hf : m.reverse.find? (fun c => c.2.contains n) with
  | some c =>
    have h1 := List.find?_some hf
    have h2 := List.mem_reverse.1 (List.mem_of_find?_eq_some hf)
    have hin : InCluster m c.1 n := ⟨c.2, lookup_of_mem hw h2, by simpa using h1⟩
    exact ⟨fun c' hc' => by rw [hone c' c.1 n hc' hin], fun hno => absurd hin (hno c.1)⟩
  | none =>
    rw [List.find?_eq_none] at hf
    refine ⟨?_, fun _ => rfl⟩
    rintro c ⟨l, hl, hn⟩
    exact absurd (by simpa using hn) (hf (c, l) (List.mem_reverse.2 (mem_of_lookup hl)))

theorem d2_items (nodes : List GvNode) (name : String → String) (label : String → Option String) (m : List (String × List String)) (links : List GvLink)
    (hk : ∀ l ∈ links, ∀ n ∈ l.nodes, n ∈ nodes.map (·.name)) (items : List GvItem)
    (h : (links.mapM (gvLink (nodes.map (·.name)) name)).map (fun l => gvClusters label m ++ l.flatten) = some items) :
    drawnClusters items = m ∧ drawnEdges items = links.flatMap (linkEdges name) := by
  rw [Option.map_eq_some_iff] at h
  obtain ⟨ls, hl, rfl⟩ := h
  obtain ⟨_, h2, h3, _⟩ := gvLinks_spec _ _ links hk ls hl
  obtain ⟨_, c2, c3, _⟩ := drawn_append (gvClusters label m) ls.flatten
  rw [c2, c3, h2, h3, (drawn_clusters _ _).2.1, (drawn_clusters _ _).2.2.1]
  simp

/-- **C110**: D2 graphs: every link is drawn; a connection of a node drawn in a cluster always uses the full name of the node in that cluster, a connection of any other node uses its name. -/
theorem C110_d2_links (nodes : List GvNode) (hn : (nodes.map (·.name)).Nodup) (bgp : Bool) (asList : List (Val × Option String)) (groups : List (String × List String))
    (selected : Option (List String)) (asClusters : Bool) (links : List GvLink) (hk : ∀ l ∈ links, ∀ n ∈ l.nodes, n ∈ nodes.map (·.name)) (items : List GvItem)
    (h : d2Topology nodes bgp asList groups selected asClusters links = some items) :
    ∃ name : String → String, drawnEdges items = links.flatMap (linkEdges name) ∧
      (∀ c n, InCluster (drawnClusters items) c n → name n = c ++ "." ++ n) ∧ (∀ n, (∀ c, ¬ InCluster (drawnClusters items) c n) → name n = n) := by
  have hAs : ((if bgp then gvAs nodes else []).map (·.1)).Nodup ∧ ∀ c c' x, InCluster (if bgp then gvAs nodes else []) c x → InCluster (if bgp then gvAs nodes else []) c' x → c = c' := by
    cases bgp with
    | true => exact ⟨(C110_as_clusters nodes).2.1, fun c c' x => C110_one_as nodes hn c c' x⟩
    | false => exact ⟨by simp, fun c c' x h => by obtain ⟨l, hl, _⟩ := h; simp at hl⟩
  unfold d2Topology at h
  simp only at h
  generalize (if bgp then gvAs nodes else []) = maps at h hAs
  cases selected with
  | some s =>
    simp only at h
    obtain ⟨h1, h2⟩ := d2_items nodes _ _ _ links hk items h
    have hG := C110_group_clusters groups s
    have hsp := d2Name_spec (gvGroups groups s).1 hG.2.2.1 (fun c c' x a b => firstGroup_unique ((hG.1 c x).1 a) ((hG.1 c' x).1 b))
    rw [h1]
    exact ⟨_, h2, fun c n => (hsp n).1 c, fun n => (hsp n).2⟩
  | none =>
    simp only at h
    by_cases hc : (!maps.isEmpty && asClusters) = true
    · rw [if_pos hc] at h
      obtain ⟨h1, h2⟩ := d2_items nodes _ _ _ links hk items h
      have hsp := d2Name_spec maps hAs.1 hAs.2
      rw [h1]
      exact ⟨_, h2, fun c n => (hsp n).1 c, fun n => (hsp n).2⟩
    · rw [if_neg hc, Option.map_eq_some_iff] at h
      obtain ⟨ls, hl, rfl⟩ := h
      obtain ⟨_, h2, h3, _⟩ := gvLinks_spec _ _ links hk ls hl
      obtain ⟨_, c2, c3, _⟩ := drawn_append (nodes.map (fun n => .node n.name)) ls.flatten
      rw [c2, c3, h2, h3, (drawn_nodes _).2.1, (drawn_nodes _).2.2.1]
      refine ⟨id, by simp, ?_, fun n _ => rfl⟩
      rintro c n ⟨l, hl, _⟩
      simp at hl

example : d2Topology [{ name := "r1", asn := some "65000" }, { name := "h" }] true [] [] none true [⟨true, "", ["r1", "h"]⟩] =
    some [.cluster "AS_65000" none ["r1"], .edge "AS_65000.r1" "h"] := by decide +kernel

/-- **C110** (defect): nodes that are not members of selected groups are not drawn in a D2 graph using groups. -/
theorem C110_d2_missing : d2Topology [{ name := "r1" }, { name := "r2" }] false [] [("g", ["r1"])] (some ["g"]) false [] = some [.cluster "g" none ["r1"]] := by decide +kernel

/-! ## BGP sessions -/

/-- **C110**: a BGP session is drawn exactly for BGP neighbors with names following the node name. -/
theorem C110_sessions (nodes : List GvNode) (asList : List (Val × Option String)) (rrSession : Bool) (a b dir : String) :
    GvItem.session a b dir ∈ gvBgp nodes asList rrSession ↔ a < b ∧ ∃ n ∈ nodes, n.name = a ∧ ∃ s ∈ n.neighbors, s.name = b ∧ dir = gvDir rrSession n.rr s := by
  unfold gvBgp
  rw [List.mem_append]
  have hc : GvItem.session a b dir ∉ gvClusters (gvAsName asList) (gvAs nodes) := by
    unfold gvClusters
    simp
  simp only [hc, false_or, List.mem_flatMap, List.mem_map, List.mem_filter, decide_eq_true_eq, GvItem.session.injEq]
  constructor
  · rintro ⟨n, hn, s, ⟨hs, hlt⟩, rfl, rfl, rfl⟩
    exact ⟨hlt, n, hn, rfl, s, hs, rfl, rfl⟩
  · rintro ⟨hlt, n, hn, rfl, s, hs, rfl, rfl⟩
    exact ⟨n, hn, s, ⟨hs, hlt⟩, rfl, rfl, rfl⟩

/-- **C110**: when BGP neighbors are symmetric, the session between two different nodes is drawn, and only in one direction. -/
theorem C110_session_drawn (nodes : List GvNode) (asList : List (Val × Option String)) (rrSession : Bool) (n n' : GvNode) (hn : n ∈ nodes) (hn' : n' ∈ nodes) (hne : n.name ≠ n'.name)
    (h : ∃ s ∈ n.neighbors, s.name = n'.name) (h' : ∃ s ∈ n'.neighbors, s.name = n.name) :
    ((∃ dir, GvItem.session n.name n'.name dir ∈ gvBgp nodes asList rrSession) ∧ ¬ ∃ dir, GvItem.session n'.name n.name dir ∈ gvBgp nodes asList rrSession) ∨
    ((∃ dir, GvItem.session n'.name n.name dir ∈ gvBgp nodes asList rrSession) ∧ ¬ ∃ dir, GvItem.session n.name n'.name dir ∈ gvBgp nodes asList rrSession) := by
  have htri : n.name < n'.name ∨ n'.name < n.name := by
    rcases String.le_total n.name n'.name with hle | hle
    · left; exact String.not_le.1 (fun hge => hne (String.le_antisymm hle hge))
    · right; exact String.not_le.1 (fun hge => hne (String.le_antisymm hge hle))
  simp only [C110_sessions]
  obtain ⟨s, hs, hsn⟩ := h
  obtain ⟨s', hs', hsn'⟩ := h'
  rcases htri with hlt | hlt
  · left
    refine ⟨⟨_, hlt, n, hn, rfl, s, hs, hsn, rfl⟩, ?_⟩
    rintro ⟨_, hgt, _⟩
    exact String.lt_asymm hlt hgt
  · right
    refine ⟨⟨_, hlt, n', hn', rfl, s', hs', hsn', rfl⟩, ?_⟩
    rintro ⟨_, hgt, _⟩
    exact String.lt_asymm hlt hgt

/-- **C110**: the direction of sessions: without route reflector sessions they're bidirectional; otherwise an IBGP session goes from the route reflector to its client, and all other sessions have no direction. -/
theorem C110_direction (rr : Option Bool) (hrr : rr ≠ some false) (s : GvNeighbor) :
    gvDir false rr s = "both" ∧
    (gvDir true rr s = "forward" ↔ s.ibgp = true ∧ rr = some true ∧ s.rr = false) ∧
    (gvDir true rr s = "back" ↔ s.ibgp = true ∧ rr = none ∧ s.rr = true) ∧
    (s.ibgp = false ∨ (rr = some true ↔ s.rr = true) → gvDir true rr s = "none") := by
  unfold gvDir
  rcases rr with _ | _ | _
  · cases s.ibgp <;> cases s.rr <;> simp
  · simp at hrr
  · cases s.ibgp <;> cases s.rr <;> simp

/-- **C110** (defect): the session between a route reflector and a node that is explicitly configured not to be one (`bgp.rr: False`) has no direction. -/
theorem C110_rr_false : gvDir true (some false) { name := "rr", ibgp := true, rr := true } = "none" := by decide +kernel

/-- **C110**: D2 BGP graphs: sessions are drawn exactly for BGP neighbors with names following the node name.  A session of a node with an AS number uses the full
name of the node in its AS, and a session of any other node uses its name. -/
theorem C110_d2_sessions (nodes : List GvNode) (hn : (nodes.map (·.name)).Nodup) (asList : List (Val × Option String)) (setting : Bool) (format : Option (List String)) :
    ∃ name : String → String,
      (∀ n ∈ nodes, name n.name = match n.asn with | some a => "AS_" ++ a ++ "." ++ n.name | none => n.name) ∧
      ∀ a b dir, GvItem.session a b dir ∈ d2Bgp nodes asList setting format ↔
        ∃ n ∈ nodes, ∃ s ∈ n.neighbors, n.name < s.name ∧ a = name n.name ∧ b = name s.name ∧ dir = d2Dir (d2RrSession setting format) n.rr s := by
  have hsp := d2Name_spec (gvAs nodes) (C110_as_clusters nodes).2.1 (fun c c' x => C110_one_as nodes hn c c' x)
  refine ⟨d2Name (gvAs nodes), ?_, ?_⟩
  · intro n hm
    cases ha : n.asn with
    | some a =>
      simp only
      exact (hsp n.name).1 _ (((C110_as_clusters nodes).1 ("AS_" ++ a) n.name).2 ⟨n, hm, a, ha, rfl, rfl⟩)
    | none =>
      simp only
      refine (hsp n.name).2 (fun c hc => ?_)
      obtain ⟨m, hm', a, hma, -, hname⟩ := ((C110_as_clusters nodes).1 c n.name).1 hc
      have : m = n := eq_of_map_nodup hn hm' hm hname
      rw [this, ha] at hma
      cases hma
  · intro a b dir
    unfold d2Bgp
    rw [List.mem_append]
    have hc : GvItem.session a b dir ∉ gvClusters (gvAsName asList) (gvAs nodes) := by
      unfold gvClusters
      simp
    simp only [hc, false_or, List.mem_flatMap, List.mem_map, List.mem_filter, decide_eq_true_eq, GvItem.session.injEq]
    constructor
    · rintro ⟨n, hm, s, ⟨hs, hlt⟩, rfl, rfl, rfl⟩
      exact ⟨n, hm, s, hs, hlt, rfl, rfl, rfl⟩
    · rintro ⟨n, hm, s, hs, hlt, rfl, rfl, rfl⟩
      exact ⟨n, hm, s, ⟨hs, hlt⟩, rfl, rfl, rfl⟩

/-- **C110**: the direction of sessions in D2 graphs: with route reflector sessions, an IBGP session goes from the route reflector to its client, and all other sessions
are bidirectional.  Route reflector sessions are drawn when the output format says so, or when they're enabled in settings and the format says nothing. -/
theorem C110_d2_direction (rr : Option Bool) (hrr : rr ≠ some false) (s : GvNeighbor) (rrSession : Bool) :
    (d2Dir rrSession rr s = "->" ↔ rrSession = true ∧ s.ibgp = true ∧ rr = some true ∧ s.rr = false) ∧
    (d2Dir rrSession rr s = "<-" ↔ rrSession = true ∧ s.ibgp = true ∧ rr = none ∧ s.rr = true) ∧
    (d2Dir rrSession rr s = "->" ∨ d2Dir rrSession rr s = "<-" ∨ d2Dir rrSession rr s = "<->") ∧
    (∀ setting f x r, d2RrSession setting (some (f :: x :: r)) = true ↔ x = "rr") ∧
    (∀ setting f, d2RrSession setting (some [f]) = setting ∧ d2RrSession setting none = setting) := by
  refine ⟨?_, ?_, ?_, fun _ _ _ _ => by simp [d2RrSession], fun _ _ => ⟨rfl, rfl⟩⟩ <;>
  · unfold d2Dir
    rcases rr with _ | _ | _
    · cases rrSession <;> cases s.ibgp <;> cases s.rr <;> simp
    · simp at hrr
    · cases rrSession <;> cases s.ibgp <;> cases s.rr <;> simp

example : d2Bgp [{ name := "a", asn := some "65000", rr := some true, neighbors := [⟨"b", true, false⟩] }, { name := "b", asn := some "65000", neighbors := [⟨"a", true, true⟩] }] []
    false (some ["bgp", "rr"]) = [.cluster "AS_65000" none ["a", "b"], .session "AS_65000.a" "AS_65000.b" "->"] := by decide +kernel

end Netlab
