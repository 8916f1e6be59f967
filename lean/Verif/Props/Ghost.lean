import Verif.Spec.Ghost
import Verif.Props.GroupInit
import Mathlib.Data.List.Forall2
/-!
# C85: outputs contain only managed devices
-/

namespace Netlab

open Spec

variable {α β : Type}

/-- Names of managed nodes. -/
def gbNames (t : GbTopo α β) : List String := (t.nodes.filter (fun n => !n.unmanaged)).map (·.name)

theorem gbOn_iff (t : GbTopo α β) (i : String × β) : gbOn (gbNames t) i = true ↔ Managed t i.1 := by
  unfold gbOn gbNames Managed
  rw [List.contains_iff_mem, List.mem_map]
  constructor
  · rintro ⟨x, hx, he⟩
    rw [List.mem_filter] at hx
    exact ⟨x, hx.1, he, by simpa using hx.2⟩
  · rintro ⟨x, hx, he, hu⟩
    exact ⟨x, List.mem_filter.mpr ⟨hx, by simp [hu]⟩, he⟩

theorem gbBridge_spec (name : String) (l : GbLink β) :
    ∃ b, (gbBridge name l).1 = { l with bridge := b } ∧ (∀ c, l.bridge = some c → b = some c) ∧
      (NeedsBridge l.type → b ≠ none) ∧ (¬ NeedsBridge l.type → b = l.bridge) := by
  unfold gbBridge NeedsBridge
  by_cases h : (l.type = "p2p" || l.type = "loopback" || l.type = "vlan_member") = true
  · rw [if_pos h]
    refine ⟨l.bridge, rfl, fun c hc => hc, fun hn => ?_, fun _ => rfl⟩
    simp only [Bool.or_eq_true, decide_eq_true_eq] at h
    rcases h with (h | h) | h
    · exact absurd h hn.1
    · exact absurd h hn.2.1
    · exact absurd h hn.2.2
  · rw [if_neg h]
    simp only [Bool.or_eq_true, decide_eq_true_eq, not_or] at h
    have hneeds : l.type ≠ "p2p" ∧ l.type ≠ "loopback" ∧ l.type ≠ "vlan_member" := ⟨h.1.1, h.1.2, h.2⟩
    cases hb : l.bridge with
    | none =>
      simp only [bridgeName]
      exact ⟨_, rfl, fun c hc => (nomatch hc), fun _ h => (nomatch h), fun hn => absurd hneeds hn⟩
    | some b =>
      simp only [bridgeName]
      split
      · rename_i b' heq
        split at heq
        · cases heq
        · cases heq
          exact ⟨some b, rfl, fun c hc => hc, fun _ h => (nomatch h), fun hn => absurd hneeds hn⟩
      · refine ⟨some b, by rw [← hb], fun c hc => hc, fun _ h => (nomatch h), fun hn => absurd hneeds hn⟩

theorem gb_filter_length {l : List (String × β)} {p : String × β → Bool} (h : (l.filter p).length = l.length) : l.filter p = l :=
  List.filter_sublist.eq_of_length h

theorem gbLink_spec (name : String) (t : GbTopo α β) (l : GbLink β) : SeenAs t l (gbLink name (gbNames t) l).1 := by
  unfold gbLink
  simp only []
  by_cases h : (l.ifs.filter (gbOn (gbNames t))).length = l.ifs.length
  · rw [if_pos h]
    have hf := gb_filter_length h
    have hall : ∀ i ∈ l.ifs, Managed t i.1 := by
      intro i hi
      rw [← hf] at hi
      exact (gbOn_iff t i).mp (List.mem_filter.mp hi).2
    refine ⟨rfl, rfl, rfl, List.Sublist.refl _, fun i => ⟨fun hi => ⟨hi, hall i hi⟩, fun hi => hi.1⟩, fun _ => rfl, fun h2 _ hlt => ?_, fun _ => rfl, fun hc => hc,
      fun b hb => hb, fun hne => absurd rfl hne, fun _ => rfl⟩
    simp only [] at hlt; omega
  · rw [if_neg h]
    generalize hl' : ({ l with ifs := l.ifs.filter (gbOn (gbNames t)), nodeCount := gbCount l (l.ifs.filter (gbOn (gbNames t))), type := gbType l (gbCount l (l.ifs.filter (gbOn (gbNames t)))) } : GbLink β) = m
    obtain ⟨b, hb, b1, b2, b3⟩ := gbBridge_spec name m
    have hlt : (l.ifs.filter (gbOn (gbNames t))).length < l.ifs.length :=
      Nat.lt_of_le_of_ne (List.length_filter_le _ _) h
    subst hl'
    simp only [hb]
    refine ⟨rfl, rfl, rfl, List.filter_sublist, fun i => ?_, fun hall => ?_, fun h2 hc hlt2 => ?_, fun h2 => ?_, fun hc => ?_, b1, fun _ => b2, b3⟩
    · rw [List.mem_filter, gbOn_iff]
    · exfalso
      apply h
      congr 1
      rw [List.filter_eq_self]
      intro i hi
      exact (gbOn_iff t i).mpr (hall i hi)
    · simp only [gbType, if_pos h2, ltDefault]
      have hcc : gbCount l (l.ifs.filter (gbOn (gbNames t))) = (l.ifs.filter (gbOn (gbNames t))).length := by
        unfold gbCount
        rw [if_pos (by omega)]
      rw [hcc]
      simp only [] at hlt2
      rw [if_neg (by omega)]
      by_cases hh : l.hostCount = 0
      · rw [if_neg (by simpa using hh), if_neg (by omega), if_pos hh]
      · rw [if_pos (by simpa using hh), if_neg hh]
    · simp only [gbType, if_neg h2]
    · simp only [gbCount, if_pos hc]

/-- **C85** (nodes).  The nodes of the new topology are exactly the managed nodes, in the original order. -/
theorem C85_nodes (name : String) (t : GbTopo α β) :
    (ghostBuster name t).1.nodes.Sublist t.nodes ∧ ∀ n, n ∈ (ghostBuster name t).1.nodes ↔ n ∈ t.nodes ∧ n.unmanaged = false := by
  unfold ghostBuster
  simp only []
  refine ⟨List.filter_sublist, fun n => ?_⟩
  rw [List.mem_filter]
  simp

theorem ghostBuster_links (name : String) (t : GbTopo α β) :
    (ghostBuster name t).1.links = ((t.links.map (gbLink name (gbNames t))).map (·.1)).filter (fun l => l.nodeCount > 0) := rfl

/-- **C85** (links).  Every link of the new topology is a link of the original one as seen by managed nodes; the links keep their order. -/
theorem C85_links (name : String) (t : GbTopo α β) :
    ∃ ls : List (GbLink β), ls.Sublist t.links ∧ List.Forall₂ (SeenAs t) ls (ghostBuster name t).1.links := by
  rw [ghostBuster_links]
  induction t.links with
  | nil => exact ⟨[], .slnil, .nil⟩
  | cons l ls ih =>
    obtain ⟨ks, h1, h2⟩ := ih
    simp only [List.map_cons, List.filter_cons]
    split
    · exact ⟨l :: ks, h1.cons_cons l, .cons (gbLink_spec name t l) h2⟩
    · exact ⟨ks, h1.cons l, h2⟩

/-- **C85** (all links).  When nobody changed the number of nodes on links, a link is in the new topology exactly when it has a managed node,
and the number of nodes of every link is the number of its interfaces. -/
theorem C85_complete (name : String) (t : GbTopo α β) (hc : Counted t) :
    (∀ l ∈ t.links, (∃ i ∈ l.ifs, Managed t i.1) → ∃ l' ∈ (ghostBuster name t).1.links, SeenAs t l l') ∧
    Counted (ghostBuster name t).1 ∧ (∀ l ∈ (ghostBuster name t).1.links, l.ifs ≠ [] ∧ ∀ i ∈ l.ifs, Managed (ghostBuster name t).1 i.1) := by
  have hmem : ∀ l', l' ∈ (ghostBuster name t).1.links ↔ (∃ l ∈ t.links, l' = (gbLink name (gbNames t) l).1) ∧ 0 < l'.nodeCount := by
    intro l'
    rw [ghostBuster_links, List.mem_filter]
    constructor
    · rintro ⟨h1, h2⟩
      obtain ⟨x, hx, rfl⟩ := List.mem_map.mp h1
      obtain ⟨l, hl, rfl⟩ := List.mem_map.mp hx
      exact ⟨⟨l, hl, rfl⟩, by simpa using h2⟩
    · rintro ⟨⟨l, hl, rfl⟩, h2⟩
      exact ⟨List.mem_map_of_mem (List.mem_map_of_mem hl), by simpa using h2⟩
  have hcount : ∀ l ∈ t.links, (gbLink name (gbNames t) l).1.nodeCount = (gbLink name (gbNames t) l).1.ifs.length :=
    fun l hl => (gbLink_spec name t l).count (hc l hl)
  refine ⟨fun l hl ⟨i, hi, hm⟩ => ?_, ?_, ?_⟩
  · have hs := gbLink_spec name t l
    refine ⟨_, (hmem _).mpr ⟨⟨l, hl, rfl⟩, ?_⟩, hs⟩
    rw [hcount l hl]
    exact List.length_pos_of_mem ((hs.members i).mpr ⟨hi, hm⟩)
  · intro l' hl'
    obtain ⟨⟨l, hl, rfl⟩, _⟩ := (hmem l').mp hl'
    exact hcount l hl
  · intro l' hl'
    obtain ⟨⟨l, hl, rfl⟩, hp⟩ := (hmem l').mp hl'
    rw [hcount l hl] at hp
    refine ⟨List.length_pos_iff.mp hp, fun i hi => ?_⟩
    obtain ⟨_, x, hx, hn, hu⟩ := ((gbLink_spec name t l).members i).mp hi
    exact ⟨x, ((C85_nodes name t).2 x).mpr ⟨hx, hu⟩, hn, hu⟩

/-- **C85** (labs without unmanaged devices).  Nothing changes when all devices are managed, and removing unmanaged devices twice is the
same as removing them once. -/
theorem C85_identity (name : String) (t : GbTopo α β) (hu : ∀ n ∈ t.nodes, n.unmanaged = false) (hn : ∀ l ∈ t.links, 0 < l.nodeCount ∧ ∀ i ∈ l.ifs, ∃ n ∈ t.nodes, n.name = i.1) :
    ghostBuster name t = (t, 0) := by
  have hl : ∀ l ∈ t.links, gbLink name (gbNames t) l = (l, 0) := by
    intro l hl
    unfold gbLink
    simp only []
    rw [if_pos]
    congr 1
    rw [List.filter_eq_self]
    intro i hi
    rw [gbOn_iff]
    obtain ⟨n, hn1, hn2⟩ := (hn l hl).2 i hi
    exact ⟨n, hn1, hn2, hu n hn1⟩
  have hnodes : t.nodes.filter (fun n => !n.unmanaged) = t.nodes := by
    rw [List.filter_eq_self]
    intro n hn
    simp [hu n hn]
  have hmap : t.links.map (gbLink name (gbNames t)) = t.links.map (fun l => (l, 0)) := List.map_congr_left hl
  have h1 : (ghostBuster name t).1.links = t.links := by
    rw [ghostBuster_links, hmap, List.map_map]
    have : t.links.map ((fun x : GbLink β × Nat => x.1) ∘ fun l => (l, 0)) = t.links := by
      rw [show ((fun x : GbLink β × Nat => x.1) ∘ fun l => (l, 0)) = id from rfl, List.map_id]
    rw [this, List.filter_eq_self]
    intro l hl
    simpa using (hn l hl).1
  have h2 : (ghostBuster name t).2 = 0 := by
    show ((t.links.map (gbLink name (gbNames t))).map (·.2)).sum = 0
    rw [hmap, List.map_map, gi_sum_zero]
    intro l _
    rfl
  have h3 : (ghostBuster name t).1.nodes = t.nodes := hnodes
  have h4 : (ghostBuster name t).1 = t := by
    cases t
    cases hg : (ghostBuster name _).1
    rw [hg] at h1 h3
    simp only [] at h1 h3
    rw [h1, h3]
  exact Prod.ext h4 h2

/-- **C85** (removing twice).  Unmanaged devices removed from the result: nothing changes. -/
theorem C85_idempotent (name : String) (t : GbTopo α β) (hc : Counted t) :
    ghostBuster name (ghostBuster name t).1 = ((ghostBuster name t).1, 0) := by
  obtain ⟨_, h2, h3⟩ := C85_complete name t hc
  apply C85_identity
  · intro n hn
    exact (((C85_nodes name t).2 n).mp hn).2
  · intro l hl
    rw [h2 l hl]
    refine ⟨List.length_pos_iff.mpr (h3 l hl).1, fun i hi => ?_⟩
    obtain ⟨x, hx, hn, _⟩ := (h3 l hl).2 i hi
    exact ⟨x, hx, hn⟩

/-- **C85** (errors).  There are no errors when bridge names in the topology are not too long. -/
theorem C85_no_errors (name : String) (t : GbTopo α β) (h : ∀ l ∈ t.links, ∀ b, l.bridge = some b → b.length ≤ 15) : (ghostBuster name t).2 = 0 := by
  show ((t.links.map (gbLink name (gbNames t))).map (·.2)).sum = 0
  rw [List.map_map, gi_sum_zero]
  intro l hl
  show (gbLink name (gbNames t) l).2 = 0
  unfold gbLink
  simp only []
  split
  · rfl
  · unfold gbBridge
    simp only []
    split
    · rfl
    · cases hb : l.bridge with
      | none => simp only [bridgeName]
      | some b =>
        simp only [bridgeName]
        rw [if_neg (by have := h l hl b hb; omega)]

/-- A lab with a managed host, a managed router and an unmanaged device -/
def gbSample : GbTopo Unit Unit :=
  { nodes := [⟨"r", false, ()⟩, ⟨"u", true, ()⟩, ⟨"h", false, ()⟩],
    links := [⟨1, "p2p", 2, 0, none, [("r", ()), ("u", ())], ()⟩, ⟨2, "lan", 3, 1, some "b", [("r", ()), ("u", ()), ("h", ())], ()⟩, ⟨3, "stub", 1, 0, some "c", [("u", ())], ()⟩,
      ⟨4, "lan", 2, 1, some "d", [("r", ()), ("h", ())], ()⟩] }

example : ghostBuster "demo" gbSample =
    ({ nodes := [⟨"r", false, ()⟩, ⟨"h", false, ()⟩],
       links := [⟨1, "stub", 1, 0, some "demo_1", [("r", ())], ()⟩, ⟨2, "lan", 2, 1, some "b", [("r", ()), ("h", ())], ()⟩,
         ⟨4, "lan", 2, 1, some "d", [("r", ()), ("h", ())], ()⟩] }, 0) := by decide +kernel

example : Counted gbSample := by
  intro l hl
  simp only [gbSample, List.mem_cons, List.not_mem_nil, or_false] at hl
  rcases hl with rfl | rfl | rfl | rfl <;> rfl

/-- **C85** (defect).  A link between unmanaged devices stays in the topology when its number of nodes was changed by a provider, and it has
no interfaces. -/
theorem C85_ghost_link : ∃ (t : GbTopo Unit Unit) (l : GbLink Unit), l ∈ (ghostBuster "x" t).1.links ∧ l.ifs = [] ∧ ∃ l0 ∈ t.links, l0.ifs ≠ [] ∧ l0.idx = l.idx :=
  ⟨{ nodes := [⟨"u", true, ()⟩], links := [⟨1, "lan", 999, 0, some "b", [("u", ())], ()⟩] }, ⟨1, "lan", 999, 0, some "b", [], ()⟩, by decide +kernel, rfl,
    ⟨1, "lan", 999, 0, some "b", [("u", ())], ()⟩, by decide +kernel, by decide, rfl⟩

/-- **C85** (defect).  A virtual link (VLAN subinterface, tunnel) between a managed and an unmanaged device becomes a physical stub link with a bridge. -/
theorem C85_virtual_link : ∃ (t : GbTopo Unit Unit) (l l' : GbLink Unit), t.links = [l] ∧ (ghostBuster "x" t).1.links = [l'] ∧ l.type = "vlan_member" ∧ l.bridge = none ∧
    l'.type = "stub" ∧ l'.bridge ≠ none :=
  ⟨{ nodes := [⟨"r", false, ()⟩, ⟨"u", true, ()⟩], links := [⟨1, "vlan_member", 2, 0, none, [("r", ()), ("u", ())], ()⟩] }, _, ⟨1, "stub", 1, 0, some "x_1", [("r", ())], ()⟩, rfl,
    by decide +kernel, rfl, rfl, rfl, by simp⟩

end Netlab
