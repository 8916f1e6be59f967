import Verif.Spec.Graphite
import Verif.Props.IfNames
import Verif.Props.LibvirtNet
/-!
# C143: the graph of the topology shown by Graphite
-/

namespace Netlab
open Spec

theorem gphSet_lookup (r : List (String × GphItem)) (k : String) (v : GphItem) (x : String) :
    (gphSet r k v).lookup x = if x = k then some v else r.lookup x := by
  have hmap : ∀ r : List (String × GphItem), r.any (fun p => p.1 == k) = true →
      (r.map (fun p => if p.1 == k then (k, v) else p)).lookup x = if x = k then some v else r.lookup x := by
    intro r
    induction r with
    | nil => intro h; simp at h
    | cons p t ih =>
      intro h
      obtain ⟨a, b⟩ := p
      by_cases hak : a = k
      · subst hak
        by_cases hx : x = a
        · subst hx; simp
        · rw [if_neg hx]
          have hxa : (x == a) = false := by simpa using hx
          simp only [List.map_cons, beq_self_eq_true, if_true, List.lookup_cons, hxa]
          by_cases ht : t.any (fun p => p.1 == a) = true
          · rw [ih ht, if_neg hx]
          · congr 1
            rw [show t.map (fun p => if p.1 == a then (a, v) else p) = t.map id from ?_, List.map_id]
            refine List.map_congr_left fun p hp => ?_
            rw [if_neg]
            · rfl
            · intro hpa
              exact ht (List.any_eq_true.2 ⟨p, hp, hpa⟩)
      · have hak' : (a == k) = false := by simpa using hak
        have ht : t.any (fun p => p.1 == k) = true := by simpa [hak] using h
        simp only [List.map_cons, hak', List.lookup_cons]
        by_cases hx : x = a
        · subst hx
          simp [hak]
        · have hxa : (x == a) = false := by simpa using hx
          rw [if_neg (by decide), List.lookup_cons, hxa]
          exact ih ht
  unfold gphSet
  split
  · rename_i h; exact hmap r h
  · rename_i h
    rw [List.lookup_append]
    by_cases hx : x = k
    · subst hx
      have : r.lookup x = none := by
        rw [List.lookup_eq_none_iff]
        intro p hp
        cases hpx : (x == p.1) with
        | false => simpa using hpx
        | true =>
          exfalso
          apply h
          rw [List.any_eq_true]
          exact ⟨p, hp, by rw [beq_iff_eq] at hpx ⊢; exact hpx.symm⟩
      rw [this]
      simp
    · rw [if_neg hx]
      have : (x == k) = false := by simpa using hx
      simp [List.lookup_cons, this]

theorem gphBase_lookup (nodes : List GphNode) (hu : (nodes.map (·.name)).Nodup) :
    ∀ (r : List (String × GphItem)) (x : String),
    (nodes.foldl (fun r n => gphSet r n.name (gphNodeItem n)) r).lookup x =
      match nodes.find? (fun n => n.name == x) with
      | some n => some (gphNodeItem n)
      | none => r.lookup x := by
  induction nodes with
  | nil => intro r x; rfl
  | cons n t ih =>
    intro r x
    rw [List.map_cons, List.nodup_cons] at hu
    rw [List.foldl_cons, ih hu.2]
    by_cases hx : n.name = x
    · subst hx
      have : t.find? (fun m => m.name == n.name) = none := by
        rw [List.find?_eq_none]
        intro m hm hmn
        rw [beq_iff_eq] at hmn
        exact hu.1 (hmn ▸ List.mem_map_of_mem hm)
      rw [this, gphSet_lookup]
      simp
    · have : (n.name == x) = false := by simpa using hx
      rw [List.find?_cons, this]
      dsimp only
      cases t.find? (fun n => n.name == x) with
      | some m => rfl
      | none =>
        dsimp only
        rw [gphSet_lookup, if_neg (fun h => hx h.symm)]

theorem gphBridgeName_paren (l : GphLink) : ∃ s, gphBridgeName l = "(" ++ s :=
  ⟨l.type ++ ":" ++ toString l.index ++ ")", by unfold gphBridgeName; simp only [String.append_assoc]⟩

theorem gphBridges_ok (nodes : List GphNode) : ∀ (links : List GphLink) (r : List (String × GphItem)),
    (∀ l ∈ links, l.intfs ≠ []) → (∀ l ∈ links, ∀ i ∈ l.intfs, ∃ n ∈ nodes, n.name = i.node) →
    ∃ g, gphBridges nodes links r = some g ∧
      (∀ x, (∀ l ∈ links, gphNeedsBridge l = true → x ≠ gphBridgeName l) → g.lookup x = r.lookup x) ∧
      (∀ x, (∃ l ∈ links, gphNeedsBridge l = true ∧ x = gphBridgeName l) →
        ∃ l ∈ links, gphNeedsBridge l = true ∧ x = gphBridgeName l ∧ ∃ i ∈ l.intfs.head?, ∃ n ∈ nodes, n.name = i.node ∧
          g.lookup x = some ⟨.bridge l.bridge, none, "", gphGroup n, n.level.getD 1, "expand"⟩) := by
  intro links
  induction links with
  | nil => intro r _ _; exact ⟨r, rfl, fun _ _ => rfl, by rintro x ⟨l, hl, -⟩; cases hl⟩
  | cons l ls ih =>
    intro r hu ha
    have hu' := fun m hm => hu m (List.mem_cons_of_mem _ hm)
    have ha' := fun m hm => ha m (List.mem_cons_of_mem _ hm)
    unfold gphBridges
    by_cases hb : gphNeedsBridge l = true
    · rw [if_pos hb]
      cases hi : l.intfs with
      | nil => exact absurd hi (hu l (List.mem_cons_self ..))
      | cons i t =>
        obtain ⟨m, hm, hmi⟩ := ha l (List.mem_cons_self ..) i (hi ▸ List.mem_cons_self ..)
        cases hn : nodes.find? (fun n => n.name == i.node) with
        | none =>
          rw [List.find?_eq_none] at hn
          exact absurd (beq_iff_eq.2 hmi) (hn m hm)
        | some n =>
          have hnm := List.mem_of_find?_eq_some hn
          have hnn := List.find?_some hn
          rw [beq_iff_eq] at hnn
          have hitem : gphBridgeItem nodes l = some ⟨.bridge l.bridge, none, "", gphGroup n, n.level.getD 1, "expand"⟩ := by
            unfold gphBridgeItem
            rw [hi]
            dsimp only
            rw [hn]
          rw [hitem]
          dsimp only
          obtain ⟨g, hg, h1, h2⟩ := ih (gphSet r (gphBridgeName l) _) hu' ha'
          refine ⟨g, hg, ?_, ?_⟩
          · intro x hx
            rw [h1 x (fun k hk => hx k (List.mem_cons_of_mem _ hk)), gphSet_lookup,
              if_neg (hx l (List.mem_cons_self ..) hb)]
          · intro x hx
            by_cases hex : ∃ k ∈ ls, gphNeedsBridge k = true ∧ x = gphBridgeName k
            · obtain ⟨k, hk, h⟩ := h2 x hex
              exact ⟨k, List.mem_cons_of_mem _ hk, h⟩
            · obtain ⟨k, hk, hkb, hkx⟩ := hx
              have hkl : k = l := by
                rcases List.mem_cons.1 hk with h | h
                · exact h
                · exact absurd ⟨k, h, hkb, hkx⟩ hex
              subst hkl
              refine ⟨k, List.mem_cons_self .., hkb, hkx, i, by rw [hi]; rfl, n, hnm, hnn, ?_⟩
              rw [h1 x (fun j hj hjb hjx => hex ⟨j, hj, hjb, hjx⟩), gphSet_lookup, if_pos hkx]
    · rw [if_neg hb]
      obtain ⟨g, hg, h1, h2⟩ := ih r hu' ha'
      refine ⟨g, hg, ?_, ?_⟩
      · intro x hx
        exact h1 x (fun k hk => hx k (List.mem_cons_of_mem _ hk))
      · rintro x ⟨k, hk, hkb, hkx⟩
        rcases List.mem_cons.1 hk with h | h
        · subst h; exact absurd hkb hb
        · obtain ⟨j, hj, h⟩ := h2 x ⟨k, h, hkb, hkx⟩
          exact ⟨j, List.mem_cons_of_mem _ hj, h⟩

theorem gphNeedsBridge_iff (l : GphLink) :
    gphNeedsBridge l = true ↔ GphLink.Shown l ∧ ¬ GphLink.Direct l := by
  unfold gphNeedsBridge GphLink.Shown GphLink.Direct
  simp only [Bool.or_eq_true, Bool.and_eq_true, beq_iff_eq, bne_iff_ne, ne_eq]
  by_cases h1 : l.type = "p2p" <;> by_cases h2 : l.type = "lan" <;> by_cases h3 : l.type = "stub" <;> simp_all

theorem gphBridgeName_inj {k l : GphLink} (hk : gphNeedsBridge k = true) (hl : gphNeedsBridge l = true)
    (h : gphBridgeName k = gphBridgeName l) : k.index = l.index := by
  have ht : ∀ m : GphLink, gphNeedsBridge m = true → m.type = "lan" ∨ m.type = "stub" := by
    intro m hm
    unfold gphNeedsBridge at hm
    simp only [Bool.or_eq_true, Bool.and_eq_true, beq_iff_eq] at hm
    exact hm.imp And.left id
  have h' := congrArg String.toList h
  unfold gphBridgeName at h'
  have hr : ∀ n : Nat, toString n = n.repr := fun _ => rfl
  rcases ht k hk with h1 | h1 <;> rcases ht l hl with h2 | h2 <;>
    simp [h1, h2, String.toList_append, -Nat.toList_repr, hr] at h'
  · exact repr_inj_list h'
  · exact repr_inj_list h'

theorem gphIndex_inj {links : List GphLink} (hu : (links.map (·.index)).Nodup) {k l : GphLink} (hk : k ∈ links) (hl : l ∈ links)
    (h : k.index = l.index) : k = l := by
  induction links with
  | nil => cases hk
  | cons m t ih =>
    rw [List.map_cons, List.nodup_cons] at hu
    rcases List.mem_cons.1 hk with rfl | hk'
    · rcases List.mem_cons.1 hl with rfl | hl'
      · rfl
      · exact absurd (h ▸ List.mem_map_of_mem hl') hu.1
    · rcases List.mem_cons.1 hl with rfl | hl'
      · exact absurd (h.symm ▸ List.mem_map_of_mem hk') hu.1
      · exact ih hu.2 hk' hl'

/-- C143: the graph contains every node of the topology with its attributes, a node for every link that is not a line between two
nodes (with the name of its bridge, and the group and level of the first node on the link), and nothing else. -/
theorem C143_nodes {nodes : List GphNode} {links : List GphLink} (h : GphTopology nodes links) :
    ∃ g, gphNodes nodes links = some g ∧
      (∀ n ∈ nodes, g.lookup n.name = some (gphNodeItem n)) ∧
      (∀ l ∈ links, GphLink.Shown l → ¬ GphLink.Direct l →
        ∃ i ∈ l.intfs.head?, ∃ n ∈ nodes, n.name = i.node ∧
          g.lookup (gphBridgeName l) = some ⟨.bridge l.bridge, none, "", gphGroup n, n.level.getD 1, "expand"⟩) ∧
      (∀ x, g.lookup x ≠ none → (∃ n ∈ nodes, n.name = x) ∨
        ∃ l ∈ links, GphLink.Shown l ∧ ¬ GphLink.Direct l ∧ x = gphBridgeName l) := by
  obtain ⟨g, hg, h1, h2⟩ := gphBridges_ok nodes links (nodes.foldl (fun r n => gphSet r n.name (gphNodeItem n)) [])
    h.used h.attached
  refine ⟨g, hg, ?_, ?_, ?_⟩
  · intro n hn
    rw [h1]
    · rw [gphBase_lookup nodes h.unique]
      cases hf : nodes.find? (fun m => m.name == n.name) with
      | none =>
        rw [List.find?_eq_none] at hf
        exact absurd (by simp) (hf n hn)
      | some m =>
        have hm := List.mem_of_find?_eq_some hf
        have hmn := List.find?_some hf
        rw [beq_iff_eq] at hmn
        have : m = n := by
          have hu := h.unique
          clear hf h1 h2 hg h
          induction nodes with
          | nil => cases hm
          | cons k t ih =>
            rw [List.map_cons, List.nodup_cons] at hu
            rcases List.mem_cons.1 hm with rfl | hm'
            · rcases List.mem_cons.1 hn with rfl | hn'
              · rfl
              · exact absurd (hmn ▸ List.mem_map_of_mem hn') hu.1
            · rcases List.mem_cons.1 hn with rfl | hn'
              · exact absurd (hmn.symm ▸ List.mem_map_of_mem hm') hu.1
              · exact ih hn' hm' hu.2
        rw [this]
    · intro l _ _ hx
      obtain ⟨s, hs⟩ := gphBridgeName_paren l
      exact h.named n hn s (hx.trans hs)
  · intro l hl hs hd
    have hb := (gphNeedsBridge_iff l).2 ⟨hs, hd⟩
    obtain ⟨k, hk, hkb, hkl, hx⟩ := h2 (gphBridgeName l) ⟨l, hl, hb, rfl⟩
    cases gphIndex_inj h.indexes hk hl (gphBridgeName_inj hkb hb hkl.symm)
    exact hx
  · intro x hx
    by_cases hex : ∃ l ∈ links, gphNeedsBridge l = true ∧ x = gphBridgeName l
    · obtain ⟨l, hl, hb, hxl⟩ := hex
      obtain ⟨hs, hd⟩ := (gphNeedsBridge_iff l).1 hb
      exact .inr ⟨l, hl, hs, hd, hxl⟩
    · left
      rw [h1 x (fun l hl hb hxl => hex ⟨l, hl, hb, hxl⟩), gphBase_lookup nodes h.unique] at hx
      cases hf : nodes.find? (fun m => m.name == x) with
      | none => rw [hf] at hx; exact absurd rfl hx
      | some m =>
        have hmn := List.find?_some hf
        rw [beq_iff_eq] at hmn
        exact ⟨m, List.mem_of_find?_eq_some hf, hmn⟩

theorem gphLines_direct {l : GphLink} (hd : GphLink.Direct l) :
    gphLines l = match l.intfs with
      | a :: b :: _ => some [(gphEnd a, gphEnd b)]
      | _ => none := by
  have hc : (l.type == "p2p" || (l.type == "lan" && l.count == 2)) = true := by
    simp only [Bool.or_eq_true, Bool.and_eq_true, beq_iff_eq]
    exact hd
  unfold gphLines
  rw [if_pos hc]
  rfl

theorem gphLines_bridge {l : GphLink} (hs : GphLink.Shown l) (hd : ¬ GphLink.Direct l) :
    gphLines l = some (l.intfs.map fun i => (gphEnd i, ⟨gphBridgeName l, ""⟩)) := by
  unfold gphLines
  rw [if_neg, if_pos]
  · rcases hs with h | h | h
    · exact absurd (.inl h) hd
    · simp [h]
    · simp [h]
  · intro h
    simp only [Bool.or_eq_true, Bool.and_eq_true, beq_iff_eq] at h
    exact hd h

theorem gphLines_other {l : GphLink} (hs : ¬ GphLink.Shown l) : gphLines l = some [] := by
  unfold GphLink.Shown at hs
  unfold gphLines
  rw [if_neg, if_neg]
  · intro h; apply hs; simp only [Bool.or_eq_true, beq_iff_eq] at h; exact .inr h
  · intro h; apply hs
    simp only [Bool.or_eq_true, Bool.and_eq_true, beq_iff_eq] at h
    exact h.imp id fun h => .inl h.1

/-- A line of the graph drawn for a link -/
def LineOf (l : GphLink) (a b : GphEnd) : Prop :=
  (GphLink.Direct l ∧ ∃ i j, l.intfs = [i, j] ∧ a = gphEnd i ∧ b = gphEnd j) ∨
  (GphLink.Shown l ∧ ¬ GphLink.Direct l ∧ ∃ i ∈ l.intfs, a = gphEnd i ∧ b = ⟨gphBridgeName l, ""⟩)

theorem gphLinks_ok : ∀ links : List GphLink, (∀ l ∈ links, GphLink.Direct l → l.intfs.length = 2) →
    ∃ lines, gphLinks links = some lines ∧ ∀ a b, (a, b) ∈ lines ↔ ∃ l ∈ links, LineOf l a b := by
  intro links
  induction links with
  | nil => intro _; exact ⟨[], rfl, fun a b => by simp⟩
  | cons l r ih =>
    intro h
    obtain ⟨y, hy, hm⟩ := ih fun m hm => h m (List.mem_cons_of_mem _ hm)
    have step : ∃ x, gphLines l = some x ∧ ∀ a b, (a, b) ∈ x ↔ LineOf l a b := by
      by_cases hd : GphLink.Direct l
      · have h2 := h l (List.mem_cons_self ..) hd
        obtain ⟨i, j, hij⟩ := List.length_eq_two.1 h2
        refine ⟨[(gphEnd i, gphEnd j)], by rw [gphLines_direct hd, hij], fun a b => ?_⟩
        rw [List.mem_singleton]
        constructor
        · intro he; cases he; exact .inl ⟨hd, i, j, hij, rfl, rfl⟩
        · rintro (⟨-, i', j', hij', rfl, rfl⟩ | ⟨-, hn, -⟩)
          · rw [hij] at hij'; cases hij'; rfl
          · exact absurd hd hn
      · by_cases hs : GphLink.Shown l
        · refine ⟨_, gphLines_bridge hs hd, fun a b => ?_⟩
          rw [List.mem_map]
          constructor
          · rintro ⟨i, hi, he⟩; cases he; exact .inr ⟨hs, hd, i, hi, rfl, rfl⟩
          · rintro (⟨hn, -⟩ | ⟨-, -, i, hi, rfl, rfl⟩)
            · exact absurd hn hd
            · exact ⟨i, hi, rfl⟩
        · refine ⟨[], gphLines_other hs, fun a b => ?_⟩
          constructor
          · intro h; cases h
          · rintro (⟨hn, -⟩ | ⟨hn, -⟩)
            · exact absurd hn hd
            · exact absurd hn hs
    obtain ⟨x, hx, hxm⟩ := step
    refine ⟨x ++ y, by unfold gphLinks; rw [hx, hy], fun a b => ?_⟩
    rw [List.mem_append, hxm, hm]
    simp [List.mem_cons]

theorem direct_shown {l : GphLink} (h : GphLink.Direct l) : GphLink.Shown l :=
  h.imp id fun h => .inl h.1

theorem gphEnd_node {nodes : List GphNode} {links : List GphLink} (h : GphTopology nodes links) {l : GphLink} (hl : l ∈ links)
    {i : GphIntf} (hi : i ∈ l.intfs) : ∃ n ∈ nodes, n.name = (gphEnd i).node := h.attached l hl i hi

/-- C143: every line of the graph connects two nodes of the graph. -/
theorem C143_endpoints {nodes : List GphNode} {links : List GphLink} (h : GphTopology nodes links) :
    ∃ g lines, gphNodes nodes links = some g ∧ gphLinks links = some lines ∧
      ∀ p ∈ lines, g.lookup p.1.node ≠ none ∧ g.lookup p.2.node ≠ none := by
  obtain ⟨g, hg, h1, h2, -⟩ := C143_nodes h
  obtain ⟨lines, hl, hm⟩ := gphLinks_ok links h.two
  refine ⟨g, lines, hg, hl, ?_⟩
  have hn : ∀ l ∈ links, ∀ i ∈ l.intfs, g.lookup (gphEnd i).node ≠ none := by
    intro l hl i hi
    obtain ⟨n, hn, he⟩ := gphEnd_node h hl hi
    rw [← he, h1 n hn]
    simp
  rintro ⟨a, b⟩ hp
  obtain ⟨l, hl, ⟨hd, i, j, hij, rfl, rfl⟩ | ⟨hs, hd, i, hi, rfl, rfl⟩⟩ := (hm a b).1 hp
  · exact ⟨hn l hl i (by simp [hij]), hn l hl j (by simp [hij])⟩
  · refine ⟨hn l hl i hi, ?_⟩
    obtain ⟨_, _, _, _, _, hx⟩ := h2 l hl hs hd
    dsimp only
    rw [hx]
    simp

/-- C143: two interfaces are connected in the graph exactly when they are attached to the same link of the topology (point-to-point
link, LAN or stub link). -/
theorem C143_connected {nodes : List GphNode} {links : List GphLink} (h : GphTopology nodes links) :
    ∃ lines, gphLinks links = some lines ∧
      ∀ a b : GphEnd, a ≠ b → (∃ n ∈ nodes, n.name = a.node) → (∃ n ∈ nodes, n.name = b.node) →
        (GraphConnected lines a b ↔
          ∃ l ∈ links, GphLink.Shown l ∧ (∃ i ∈ l.intfs, gphEnd i = a) ∧ ∃ j ∈ l.intfs, gphEnd j = b) := by
  obtain ⟨lines, hl, hm⟩ := gphLinks_ok links h.two
  refine ⟨lines, hl, ?_⟩
  intro a b hab ha hb
  have notp : ∀ e : GphEnd, (∃ n ∈ nodes, n.name = e.node) → ∀ s, e.node ≠ "(" ++ s := by
    rintro e ⟨n, hn, he⟩ s hs
    exact h.named n hn s (he.trans hs)
  have dir : ∀ x y : GphEnd, (∃ n ∈ nodes, n.name = y.node) → (x, y) ∈ lines →
      ∃ l ∈ links, GphLink.Shown l ∧ (∃ i ∈ l.intfs, gphEnd i = x) ∧ ∃ j ∈ l.intfs, gphEnd j = y := by
    intro x y hy hxy
    obtain ⟨l, hl, ⟨hd, i, j, hij, rfl, rfl⟩ | ⟨hs, hd, i, hi, rfl, rfl⟩⟩ := (hm x y).1 hxy
    · exact ⟨l, hl, direct_shown hd, ⟨i, by simp [hij], rfl⟩, j, by simp [hij], rfl⟩
    · obtain ⟨s, hs'⟩ := gphBridgeName_paren l
      exact absurd hs' (notp _ hy s)
  constructor
  · rintro (h1 | h1 | ⟨e, ⟨s, hs⟩, h1, h2⟩)
    · exact dir a b hb h1
    · obtain ⟨l, hl, hs, hi, hj⟩ := dir b a ha h1
      exact ⟨l, hl, hs, hj, hi⟩
    · have br : ∀ x, (x, e) ∈ lines → ∃ l ∈ links, gphNeedsBridge l = true ∧ (∃ i ∈ l.intfs, gphEnd i = x) ∧
          e.node = gphBridgeName l := by
        intro x hx
        obtain ⟨l, hl, ⟨hd, i, j, hij, rfl, rfl⟩ | ⟨hs', hd, i, hi, rfl, rfl⟩⟩ := (hm x e).1 hx
        · exact absurd hs (notp _ (gphEnd_node h hl (by simp [hij])) s)
        · exact ⟨l, hl, (gphNeedsBridge_iff l).2 ⟨hs', hd⟩, ⟨i, hi, rfl⟩, rfl⟩
      obtain ⟨k, hk, hkb, hi, hke⟩ := br a h1
      obtain ⟨l, hl, hlb, hj, hle⟩ := br b h2
      cases gphIndex_inj h.indexes hk hl (gphBridgeName_inj hkb hlb (hke.symm.trans hle))
      exact ⟨k, hk, ((gphNeedsBridge_iff k).1 hkb).1, hi, hj⟩
  · rintro ⟨l, hl, hs, ⟨i, hi, rfl⟩, j, hj, rfl⟩
    by_cases hd : GphLink.Direct l
    · obtain ⟨p, q, hpq⟩ := List.length_eq_two.1 (h.two l hl hd)
      have hline : (gphEnd p, gphEnd q) ∈ lines := (hm _ _).2 ⟨l, hl, .inl ⟨hd, p, q, hpq, rfl, rfl⟩⟩
      rw [hpq] at hi hj
      simp only [List.mem_cons, List.not_mem_nil, or_false] at hi hj
      rcases hi with rfl | rfl <;> rcases hj with rfl | rfl
      · exact absurd rfl hab
      · exact .inl hline
      · exact .inr (.inl hline)
      · exact absurd rfl hab
    · have hline : ∀ k ∈ l.intfs, (gphEnd k, ⟨gphBridgeName l, ""⟩) ∈ lines := fun k hk =>
        (hm _ _).2 ⟨l, hl, .inr ⟨hs, hd, k, hk, rfl, rfl⟩⟩
      exact .inr (.inr ⟨⟨gphBridgeName l, ""⟩, gphBridgeName_paren l, hline i hi, hline j hj⟩)

/-- C143: every interface attached to a link appears in the graph exactly once, in the order of the links. -/
theorem C143_interfaces {nodes : List GphNode} {links : List GphLink} (h : GphTopology nodes links) :
    ∃ lines, gphLinks links = some lines ∧
      (lines.flatMap fun p => [p.1, p.2]).filter (fun e => nodes.any fun n => n.name == e.node) =
        (links.filter fun l => l.type == "p2p" || l.type == "lan" || l.type == "stub").flatMap fun l => l.intfs.map gphEnd := by
  have hnode : ∀ l ∈ links, ∀ i ∈ l.intfs, (nodes.any fun n => n.name == (gphEnd i).node) = true := by
    intro l hl i hi
    obtain ⟨n, hn, he⟩ := gphEnd_node h hl hi
    exact List.any_eq_true.2 ⟨n, hn, beq_iff_eq.2 he⟩
  have hbr : ∀ l : GphLink, (nodes.any fun n => n.name == gphBridgeName l) = false := by
    intro l
    rw [← Bool.not_eq_true, List.any_eq_true]
    rintro ⟨n, hn, he⟩
    obtain ⟨s, hs⟩ := gphBridgeName_paren l
    exact h.named n hn s ((beq_iff_eq.1 he).trans hs)
  have h2 := h.two
  clear h
  induction links with
  | nil => exact ⟨[], rfl, rfl⟩
  | cons l r ih =>
    obtain ⟨y, hy, he⟩ := ih (fun m hm => hnode m (List.mem_cons_of_mem _ hm)) (fun m hm => h2 m (List.mem_cons_of_mem _ hm))
    have hn := hnode l (List.mem_cons_self ..)
    by_cases hs : GphLink.Shown l
    · have hf : (l.type == "p2p" || l.type == "lan" || l.type == "stub") = true := by
        simp only [Bool.or_eq_true, beq_iff_eq, or_assoc]; exact hs
      by_cases hd : GphLink.Direct l
      · obtain ⟨i, j, hij⟩ := List.length_eq_two.1 (h2 l (List.mem_cons_self ..) hd)
        have hx : gphLines l = some [(gphEnd i, gphEnd j)] := by rw [gphLines_direct hd, hij]
        refine ⟨[(gphEnd i, gphEnd j)] ++ y, by unfold gphLinks; rw [hx, hy], ?_⟩
        rw [List.flatMap_append, List.filter_append, he, List.filter_cons, if_pos hf, List.flatMap_cons (xs := List.filter _ r), hij]
        congr 1
        simp [hn i (by simp [hij]), hn j (by simp [hij])]
      · have hx := gphLines_bridge hs hd
        refine ⟨_ ++ y, by unfold gphLinks; rw [hx, hy], ?_⟩
        rw [List.flatMap_append, List.filter_append, he, List.filter_cons, if_pos hf, List.flatMap_cons (xs := List.filter _ r)]
        congr 1
        revert hn
        generalize l.intfs = is
        induction is with
        | nil => intro _; rfl
        | cons i t iht =>
          intro hn
          rw [List.map_cons, List.flatMap_cons, List.filter_append, iht fun k hk => hn k (List.mem_cons_of_mem _ hk)]
          simp [hn i (List.mem_cons_self ..), hbr l]
    · have hf : ¬ (l.type == "p2p" || l.type == "lan" || l.type == "stub") = true := by
        simp only [Bool.or_eq_true, beq_iff_eq, or_assoc]; exact hs
      refine ⟨y, by unfold gphLinks; rw [gphLines_other hs, hy]; rfl, ?_⟩
      rw [he, List.filter_cons, if_neg hf]

/-- C143: attributes of a node in the graph. -/
theorem C143_attributes (n : GphNode) :
    (gphNodeItem n).kind = .device n.device ∧ (gphNodeItem n).mgmt = n.mgmt ∧ (gphNodeItem n).image = n.box ∧
    (gphNodeItem n).level = n.level.getD 1 ∧
    (∀ a, n.asn = some a → a ≠ 0 → (gphNodeItem n).group = "as" ++ toString a) ∧
    ((n.asn = none ∨ n.asn = some 0) → (gphNodeItem n).group = "tier-1") ∧
    (∀ i, n.icon = some i → i ≠ "" → (gphNodeItem n).icon = i) ∧
    ((n.icon = none ∨ n.icon = some "") → (∀ i, n.deviceIcon = some i → i ≠ "" → (gphNodeItem n).icon = i) ∧
      ((n.deviceIcon = none ∨ n.deviceIcon = some "") → (gphNodeItem n).icon = "router")) := by
  refine ⟨rfl, rfl, rfl, rfl, ?_, ?_, ?_, ?_⟩
  · intro a h h0
    simp only [gphNodeItem, gphGroup, h, if_neg h0]
  · rintro (h | h) <;> simp [gphNodeItem, gphGroup, h]
  · intro i h h0
    simp [gphNodeItem, gphIcon, h, Option.filter, h0]
  · intro h
    refine ⟨fun i hi h0 => ?_, fun h2 => ?_⟩
    · rcases h with h | h <;> simp [gphNodeItem, gphIcon, h, hi, Option.filter, h0]
    · rcases h with h | h <;> rcases h2 with h2 | h2 <;> simp [gphNodeItem, gphIcon, h, h2, Option.filter]

theorem replaceOnce_prefix (x y s : List Char) (hx : x ≠ []) : replaceOnce x y (x ++ s) = y ++ s := by
  cases x with
  | nil => exact absurd rfl hx
  | cons c r =>
    rw [List.cons_append, replaceOnce, if_pos]
    · rw [← List.cons_append, List.drop_left]
    · rw [List.isPrefixOf_iff_prefix]
      exact ⟨s, rfl⟩

theorem subStr_prefix (x s : List Char) : subStr x (x ++ s) = true := (subStr_iff x _).2 ⟨[], s, by simp⟩

/-- C143: interface names in the graph: prefixes `GigabitEthernet` and `Ethernet` are abbreviated, names without Ethernet do not change. -/
theorem C143_interface_names (s : String) :
    shortIfname ("GigabitEthernet" ++ s) = "ge" ++ s ∧
    (subStr "GigabitEthernet".toList ("Ethernet" ++ s).toList = false → shortIfname ("Ethernet" ++ s) = "eth" ++ s) ∧
    ((∀ x ∈ ["Ethernet", "ether"], subStr x.toList s.toList = false) → shortIfname s = s) := by
  refine ⟨?_, ?_, ?_⟩
  · have h : subStr "GigabitEthernet".toList ("GigabitEthernet" ++ s).toList = true := by
      rw [String.toList_append]; exact subStr_prefix _ _
    unfold shortIfname shortIfTable
    rw [List.find?_cons_of_pos (by exact h)]
    dsimp only
    rw [String.toList_append, replaceOnce_prefix _ _ _ (by decide), ← String.toList_append, String.ofList_toList]
  · intro hg
    have h : subStr "Ethernet".toList ("Ethernet" ++ s).toList = true := by
      rw [String.toList_append]; exact subStr_prefix _ _
    unfold shortIfname shortIfTable
    rw [List.find?_cons_of_neg (by rw [hg]; decide), List.find?_cons_of_pos (by exact h)]
    dsimp only
    rw [String.toList_append, replaceOnce_prefix _ _ _ (by decide), ← String.toList_append, String.ofList_toList]
  · intro h
    have h1 := h "Ethernet" (by simp)
    have h2 := h "ether" (by simp)
    have sub : ∀ x y z : List Char, ∀ t, subStr t s.toList = false → x = y ++ t ++ z → subStr x s.toList = false := by
      rintro x y z t ht rfl
      rw [← Bool.not_eq_true] at ht ⊢
      intro hx
      apply ht
      obtain ⟨a, b, hab⟩ := (subStr_iff _ _).1 hx
      exact (subStr_iff _ _).2 ⟨a ++ y, z ++ b, by rw [hab]; simp⟩
    unfold shortIfname
    have : shortIfTable.find? (fun p => subStr p.1.toList s.toList) = none := by
      rw [List.find?_eq_none]
      intro p hp
      simp only [shortIfTable, List.mem_cons, List.not_mem_nil, or_false] at hp
      rcases hp with rfl | rfl | rfl | rfl
      · dsimp only
        rw [sub "GigabitEthernet".toList "Gigabit".toList [] "Ethernet".toList h1 (by decide)]; decide
      · dsimp only; rw [h1]; decide
      · dsimp only
        rw [sub "ethernet".toList [] "net".toList "ether".toList h2 (by decide)]; decide
      · dsimp only; rw [h2]; decide
    rw [this]

/-- Sample nodes -/
def gphSampleNodes : List GphNode :=
  [⟨"r1", "iosv", some "192.168.121.101", "cisco/iosv", none, none, some 2, some 65000⟩,
   ⟨"r2", "eos", some "192.168.121.102", "ceos:4.33", some "", some "switch", none, none⟩,
   ⟨"r3", "linux", some "192.168.121.103", "python:3.13", none, some "server", none, none⟩]

/-- Sample links -/
def gphSampleLinks : List GphLink :=
  [⟨"p2p", 2, 1, none, [⟨"r1", "GigabitEthernet0/1"⟩, ⟨"r2", "Ethernet1"⟩]⟩,
   ⟨"lan", 3, 2, some "X_2", [⟨"r1", "GigabitEthernet0/2"⟩, ⟨"r2", "Ethernet2"⟩, ⟨"r3", "eth1"⟩]⟩,
   ⟨"stub", 1, 3, some "X_3", [⟨"r3", "eth2"⟩]⟩]

/-- The sample meets the hypotheses. -/
theorem gphSample_ok : GphTopology gphSampleNodes gphSampleLinks where
  unique := by decide +kernel
  named := by
    intro n hn s hs
    have := congrArg String.toList hs
    rw [String.toList_append] at this
    simp only [gphSampleNodes, List.mem_cons, List.not_mem_nil, or_false] at hn
    rcases hn with rfl | rfl | rfl <;> simp at this
  attached := by decide +kernel
  used := by decide +kernel
  two := by
    intro l hl hd
    simp only [gphSampleLinks, List.mem_cons, List.not_mem_nil, or_false] at hl
    rcases hl with rfl | rfl | rfl
    · rfl
    · rcases hd with hd | ⟨-, hd⟩ <;> revert hd <;> decide
    · rcases hd with hd | ⟨hd, -⟩ <;> revert hd <;> decide
  indexes := by decide +kernel

/-- Non-vacuity: the graph of the sample topology. -/
example :
    (gphNodes gphSampleNodes gphSampleLinks).map (·.map fun p => (p.1, p.2.group, p.2.level, p.2.icon)) =
      some [("r1", "as65000", 2, "router"), ("r2", "tier-1", 1, "switch"), ("r3", "tier-1", 1, "server"),
        ("(lan:2)", "as65000", 2, "expand"), ("(stub:3)", "tier-1", 1, "expand")] ∧
    gphLinks gphSampleLinks = some [(⟨"r1", "ge0/1"⟩, ⟨"r2", "eth1"⟩), (⟨"r1", "ge0/2"⟩, ⟨"(lan:2)", ""⟩),
      (⟨"r2", "eth2"⟩, ⟨"(lan:2)", ""⟩), (⟨"r3", "eth1"⟩, ⟨"(lan:2)", ""⟩), (⟨"r3", "eth2"⟩, ⟨"(stub:3)", ""⟩)] := by
  decide +kernel

/-- C143: interface names are shortened in a way that makes two different interfaces of a device look the same, so the graph does not
tell them apart. -/
theorem C143_short_names : shortIfname "Ethernet1" = shortIfname "ether1" ∧ "Ethernet1" ≠ "ether1" := by decide +kernel

end Netlab
