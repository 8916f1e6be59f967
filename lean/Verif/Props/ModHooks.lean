import Verif.Spec.ModHooks
import Verif.Props.Sort
import Verif.Props.RefList
import Verif.Props.BgpDomain
import Verif.Props.Stp
import Verif.Lemmas.Layers
/-!
# C109: module hooks, module removal, and node data copied into interfaces
-/

namespace Netlab
open Netlab.Spec

/-! ## Hooks -/

theorem mhFold_spec (lists : List (List String)) (acc : List String) (hacc : acc.Nodup) :
    let r := lists.foldl (fun acc l => l.foldl (fun a m => if a.contains m then a else a ++ [m]) acc) acc
    r.Nodup ∧ ∀ x, x ∈ r ↔ x ∈ acc ∨ ∃ l ∈ lists, x ∈ l := by
  induction lists generalizing acc with
  | nil => exact ⟨hacc, by simp⟩
  | cons l ls ih =>
    obtain ⟨h1, h2, _⟩ := appendNew_spec acc l
    obtain ⟨i1, i2⟩ := ih _ (h2 hacc)
    refine ⟨i1, fun x => ?_⟩
    rw [List.foldl_cons, i2, h1]
    simp only [List.mem_cons, exists_eq_or_imp, or_assoc]

theorem mhLinkModules_spec (nodes : List (String × List String)) (intfs ms : List String) (h : mhLinkModules nodes intfs = some ms) :
    ms.Nodup ∧ ∀ m, m ∈ ms ↔ ∃ n ∈ intfs, ∃ l, nodes.lookup n = some l ∧ m ∈ l := by
  unfold mhLinkModules at h
  rw [Option.map_eq_some_iff] at h
  obtain ⟨lists, hl, rfl⟩ := h
  obtain ⟨h1, h2⟩ := mhFold_spec lists [] .nil
  refine ⟨h1, fun m => ?_⟩
  rw [h2]
  obtain ⟨s1, s2⟩ := (mapM_option_spec _ intfs).1 lists hl
  constructor
  · rintro (h | ⟨l, hl, hm⟩)
    · simp at h
    · obtain ⟨n, hn, he⟩ := s2 l hl
      exact ⟨n, hn, l, he, hm⟩
  · rintro ⟨n, hn, l, he, hm⟩
    obtain ⟨l', hl', he'⟩ := s1 n hn
    rw [he] at he'
    cases he'
    exact Or.inr ⟨l, hl', hm⟩

theorem mhLinks_spec (has : String → String → Bool) (nodes : List (String × List String)) : ∀ (links : List (List String)) (i : Nat) (calls : List HookCall), mhLinks has nodes i links = some calls →
    calls.Nodup ∧ (∀ c ∈ calls, ∃ k m, c = .link k m ∧ i ≤ k) ∧
    (∀ k m, HookCall.link (i + k) m ∈ calls ↔ has "link" m = true ∧ ∃ l, links[k]? = some l ∧ ∃ n ∈ l, ∃ ms, nodes.lookup n = some ms ∧ m ∈ ms) := by
  intro links
  induction links with
  | nil => intro i calls h; simp only [mhLinks, Option.some.injEq] at h; subst h; simp
  | cons l r ih =>
    intro i calls h
    simp only [mhLinks] at h
    cases hm : mhLinkModules nodes l with
    | none => rw [hm] at h; simp at h
    | some ms =>
      cases hr : mhLinks has nodes (i + 1) r with
      | none => rw [hm, hr] at h; simp at h
      | some rest =>
        rw [hm, hr] at h
        simp only [Option.some.injEq] at h
        subst h
        obtain ⟨m1, m2⟩ := mhLinkModules_spec nodes l ms hm
        obtain ⟨r1, r2, r3⟩ := ih (i + 1) rest hr
        refine ⟨?_, ?_, ?_⟩
        · rw [List.nodup_append]
          refine ⟨?_, r1, ?_⟩
          · unfold List.Nodup
            rw [List.pairwise_map]
            refine (m1.sublist List.filter_sublist).imp ?_
            intro a b hab he
            cases he
            exact hab rfl
          · intro a ha b hb he
            obtain ⟨m, _, rfl⟩ := List.mem_map.1 ha
            obtain ⟨k, m', hk, hi⟩ := r2 b hb
            rw [hk] at he
            cases he
            omega
        · intro c hc
          rcases List.mem_append.1 hc with hc | hc
          · obtain ⟨m, _, rfl⟩ := List.mem_map.1 hc
            exact ⟨i, m, rfl, Nat.le_refl _⟩
          · obtain ⟨k, m, hk, hi⟩ := r2 c hc
            exact ⟨k, m, hk, by omega⟩
        · intro k m
          rw [List.mem_append, List.mem_map]
          cases k with
          | zero =>
            simp only [Nat.add_zero, List.getElem?_cons_zero, Option.some.injEq, exists_eq_left']
            constructor
            · rintro (⟨x, hx, he⟩ | hc)
              · cases he
                rw [List.mem_filter] at hx
                exact ⟨hx.2, (m2 _).1 hx.1⟩
              · obtain ⟨k, m', hk, hi⟩ := r2 _ hc
                cases hk; omega
            · rintro ⟨hh, hx⟩
              exact Or.inl ⟨m, List.mem_filter.2 ⟨(m2 m).2 hx, hh⟩, rfl⟩
          | succ k =>
            have := r3 k m
            rw [List.getElem?_cons_succ, show i + (k + 1) = i + 1 + k by omega]
            rw [← this]
            constructor
            · rintro (⟨x, hx, he⟩ | hc)
              · simp only [HookCall.link.injEq] at he; omega
              · exact hc
            · exact Or.inr

theorem mem_mhNode (has : String → String → Bool) (nodes : List (String × List String)) (c : HookCall) :
    c ∈ mdhNode has nodes ↔ ∃ n ∈ nodes, ∃ m ∈ n.2, has "node" m = true ∧ c = .node n.1 m := by
  unfold mdhNode
  simp only [List.mem_flatMap, List.mem_map, List.mem_filter]
  constructor
  · rintro ⟨n, hn, m, ⟨hm, hh⟩, rfl⟩; exact ⟨n, hn, m, hm, hh, rfl⟩
  · rintro ⟨n, hn, m, hm, hh, rfl⟩; exact ⟨n, hn, m, ⟨hm, hh⟩, rfl⟩

theorem mem_mhModule (has : String → String → Bool) (mods extra : List String) (c : HookCall) :
    c ∈ mhModule has mods extra ↔ ∃ m, (m ∈ mods ∨ m ∈ extra) ∧ has "module" m = true ∧ c = .topo m := by
  unfold mhModule
  simp only [List.mem_map, List.mem_filter, List.mem_append]
  constructor
  · rintro ⟨m, ⟨hm, hh⟩, rfl⟩; exact ⟨m, hm, hh, rfl⟩
  · rintro ⟨m, hm, hh, rfl⟩; exact ⟨m, ⟨hm, hh⟩, rfl⟩

/-- **C109**: which hooks are called in a transformation stage: the topology hook of every module used in the topology, the node hook of every module used by the node, and the link hook of every module used
by any node attached to the link (if the module has the hook), and nothing else. -/
theorem C109_calls (has : String → String → Bool) (mods extra : List String) (nodes : List (String × List String)) (links : List (List String)) (calls : List HookCall)
    (h : mhStage has mods extra nodes links = some calls) :
    (∀ m, HookCall.topo m ∈ calls ↔ has "module" m = true ∧ (m ∈ mods ∨ m ∈ extra)) ∧
    (∀ n m, HookCall.node n m ∈ calls ↔ has "node" m = true ∧ ∃ ms, (n, ms) ∈ nodes ∧ m ∈ ms) ∧
    (∀ i m, HookCall.link i m ∈ calls ↔ has "link" m = true ∧ ∃ l, links[i]? = some l ∧ ∃ n ∈ l, ∃ ms, nodes.lookup n = some ms ∧ m ∈ ms) := by
  unfold mhStage at h
  rw [Option.map_eq_some_iff] at h
  obtain ⟨lc, hl, rfl⟩ := h
  obtain ⟨_, l2, l3⟩ := mhLinks_spec has nodes links 0 lc hl
  have hlt : ∀ c ∈ lc, ∃ k m, c = .link k m := fun c hc => by obtain ⟨k, m, hk, _⟩ := l2 c hc; exact ⟨k, m, hk⟩
  refine ⟨fun m => ?_, fun n m => ?_, fun i m => ?_⟩
  · rw [List.mem_append, List.mem_append, mem_mhModule, mem_mhNode]
    constructor
    · rintro ((⟨x, hx, hh, he⟩ | ⟨n, _, x, _, _, he⟩) | hc)
      · cases he; exact ⟨hh, hx⟩
      · cases he
      · obtain ⟨_, _, he⟩ := hlt _ hc; cases he
    · rintro ⟨hh, hx⟩; exact Or.inl (Or.inl ⟨m, hx, hh, rfl⟩)
  · rw [List.mem_append, List.mem_append, mem_mhModule, mem_mhNode]
    constructor
    · rintro ((⟨x, hx, hh, he⟩ | ⟨⟨nn, ms⟩, hn, x, hx, hh, he⟩) | hc)
      · cases he
      · cases he; exact ⟨hh, ms, hn, hx⟩
      · obtain ⟨_, _, he⟩ := hlt _ hc; cases he
    · rintro ⟨hh, ms, hn, hm⟩; exact Or.inl (Or.inr ⟨(n, ms), hn, m, hm, hh, rfl⟩)
  · rw [List.mem_append, List.mem_append, mem_mhModule, mem_mhNode]
    have := l3 i m
    rw [Nat.zero_add] at this
    rw [← this]
    constructor
    · rintro ((⟨x, hx, hh, he⟩ | ⟨nn, hn, x, hx, hh, he⟩) | hc)
      · cases he
      · cases he
      · exact hc
    · exact Or.inr

/-- **C109**: in every stage topology hooks are called before node hooks, and node hooks before link hooks. -/
theorem C109_stages (has : String → String → Bool) (mods extra : List String) (nodes : List (String × List String)) (links : List (List String)) (calls : List HookCall)
    (h : mhStage has mods extra nodes links = some calls) : calls.Pairwise (fun a b => hookRank a ≤ hookRank b) := by
  unfold mhStage at h
  rw [Option.map_eq_some_iff] at h
  obtain ⟨lc, hl, rfl⟩ := h
  obtain ⟨_, l2, _⟩ := mhLinks_spec has nodes links 0 lc hl
  have r0 : ∀ c ∈ mhModule has mods extra, hookRank c = 0 := by
    intro c hc; obtain ⟨m, _, _, rfl⟩ := (mem_mhModule ..).1 hc; rfl
  have r1 : ∀ c ∈ mdhNode has nodes, hookRank c = 1 := by
    intro c hc; obtain ⟨n, _, m, _, _, rfl⟩ := (mem_mhNode ..).1 hc; rfl
  have r2 : ∀ c ∈ lc, hookRank c = 2 := by
    intro c hc; obtain ⟨k, m, rfl, _⟩ := l2 c hc; rfl
  have pw : ∀ (l : List HookCall) (k : Nat), (∀ c ∈ l, hookRank c = k) → l.Pairwise (fun a b => hookRank a ≤ hookRank b) := by
    intro l k hk
    induction l with
    | nil => exact .nil
    | cons c l ih =>
      refine List.pairwise_cons.2 ⟨fun d hd => ?_, ih (fun x hx => hk x (List.mem_cons_of_mem _ hx))⟩
      rw [hk c List.mem_cons_self, hk d (List.mem_cons_of_mem _ hd)]
  rw [List.pairwise_append, List.pairwise_append]
  refine ⟨⟨pw _ 0 r0, pw _ 1 r1, fun a ha b hb => by have h0 := r0 a ha; have h1 := r1 b hb; omega⟩, pw _ 2 r2, ?_⟩
  intro a ha b hb
  rw [r2 b hb]
  rcases List.mem_append.1 ha with ha | ha
  · have := r0 a ha; omega
  · have := r1 a ha; omega

theorem nodup_mhNode (has : String → String → Bool) (nodes : List (String × List String)) (hn : (nodes.map (·.1)).Nodup) (hm : ∀ n ∈ nodes, n.2.Nodup) : (mdhNode has nodes).Nodup := by
  induction nodes with
  | nil => exact .nil
  | cons n r ih =>
    rw [List.map_cons, List.nodup_cons] at hn
    have he : mdhNode has (n :: r) = (n.2.filter (has "node")).map (fun m => .node n.1 m) ++ mdhNode has r := by simp [mdhNode]
    rw [he, List.nodup_append]
    refine ⟨?_, ih hn.2 (fun x hx => hm x (List.mem_cons_of_mem _ hx)), ?_⟩
    · unfold List.Nodup
      rw [List.pairwise_map]
      refine ((hm n List.mem_cons_self).sublist List.filter_sublist).imp ?_
      intro a b hab e
      cases e; exact hab rfl
    · intro a ha b hb e
      obtain ⟨m, _, rfl⟩ := List.mem_map.1 ha
      obtain ⟨n', hn', m', _, _, rfl⟩ := (mem_mhNode ..).1 hb
      simp only [HookCall.node.injEq] at e
      exact hn.1 (List.mem_map.2 ⟨n', hn', e.1.symm⟩)

/-- **C109**: no hook is called twice for the same object when modules are not listed twice. -/
theorem C109_once (has : String → String → Bool) (mods extra : List String) (nodes : List (String × List String)) (links : List (List String)) (calls : List HookCall)
    (h : mhStage has mods extra nodes links = some calls) (hmods : (mods ++ extra).Nodup) (hn : (nodes.map (·.1)).Nodup) (hm : ∀ n ∈ nodes, n.2.Nodup) : calls.Nodup := by
  have h' := h
  unfold mhStage at h
  rw [Option.map_eq_some_iff] at h
  obtain ⟨lc, hl, rfl⟩ := h
  obtain ⟨l1, l2, _⟩ := mhLinks_spec has nodes links 0 lc hl
  rw [List.nodup_append, List.nodup_append]
  refine ⟨⟨?_, nodup_mhNode has nodes hn hm, ?_⟩, l1, ?_⟩
  · unfold mhModule List.Nodup
    rw [List.pairwise_map]
    refine (hmods.sublist List.filter_sublist).imp ?_
    intro a b hab e
    cases e; exact hab rfl
  · intro a ha b hb e
    obtain ⟨m, _, _, rfl⟩ := (mem_mhModule ..).1 ha
    obtain ⟨n, _, m', _, _, rfl⟩ := (mem_mhNode ..).1 hb
    cases e
  · intro a ha b hb e
    obtain ⟨k, m, rfl, _⟩ := l2 b hb
    rcases List.mem_append.1 ha with ha | ha
    · obtain ⟨m, _, _, rfl⟩ := (mem_mhModule ..).1 ha
      cases e
    · obtain ⟨n, _, m', _, _, rfl⟩ := (mem_mhNode ..).1 ha
      cases e

/-- **C109**: a stage fails only when a link refers to an unknown node. -/
theorem C109_no_crash (has : String → String → Bool) (mods extra : List String) (nodes : List (String × List String)) (links : List (List String)) :
    mhStage has mods extra nodes links = none ↔ ∃ l ∈ links, ∃ n ∈ l, n ∉ nodes.map (·.1) := by
  unfold mhStage
  rw [Option.map_eq_none_iff]
  have key : ∀ i, mhLinks has nodes i links = none ↔ ∃ l ∈ links, ∃ n ∈ l, n ∉ nodes.map (·.1) := by
    induction links with
    | nil => intro i; simp [mhLinks]
    | cons l r ih =>
      intro i
      have hl : mhLinkModules nodes l = none ↔ ∃ n ∈ l, n ∉ nodes.map (·.1) := by
        unfold mhLinkModules
        rw [Option.map_eq_none_iff, mapM_none_iff]
        constructor
        · rintro ⟨n, hn, he⟩; exact ⟨n, hn, lookup_eq_none_iff.1 he⟩
        · rintro ⟨n, hn, he⟩; exact ⟨n, hn, lookup_eq_none_iff.2 he⟩
      simp only [mhLinks, List.mem_cons, exists_eq_or_imp]
      rw [← hl, ← ih (i + 1)]
      cases mhLinkModules nodes l <;> cases mhLinks has nodes (i + 1) r <;> simp
  exact key 0

/-- **C109** (defect): a module needed by a plugin that is also listed in the topology is processed twice. -/
theorem C109_extra_twice : mhStage (fun _ _ => true) ["routing"] ["routing"] [] [] = some [.topo "routing", .topo "routing"] := by decide +kernel

example : mhStage (fun k m => k != "module" || m == "bgp") ["ospf", "bgp"] [] [("a", ["ospf"]), ("b", ["bgp", "ospf"])] [["a", "b"], ["b"]] =
    some [.topo "bgp", .node "a" "ospf", .node "b" "bgp", .node "b" "ospf", .link 0 "ospf", .link 0 "bgp", .link 1 "bgp", .link 1 "ospf"] := by decide +kernel

/-! ## Order of hooks -/

/-- A single dependency-sorted list without repetitions: no module before a module it depends on -/
theorem sorted_follows {params : String → Option ModDef} {mods out : List String} (h : sortModuleList mods params = some out) :
    out.Pairwise (fun m r => ¬ Follows params m r) := by
  refine (C13_modules mods params out h).2.imp ?_
  rintro a b hab ⟨d, hd, h1 | h1⟩
  · exact (hab d hd).1 h1
  · exact (hab d hd).2 h1

theorem mhReorder_spec {params : String → Option ModDef} {mods extra : List String} {nodes ns : List (String × List String)} {t : List String}
    (h : mhReorder params mods extra nodes = some (t, ns)) :
    t.Pairwise (fun m r => ¬ Follows params m r) ∧ (∀ m, m ∈ t ↔ (m ∈ mods ∨ m ∈ extra) ∧ (params m).isSome = true) ∧
    ns.map (·.1) = nodes.map (·.1) ∧ List.Forall₂ (fun n n' => n'.1 = n.1 ∧ sortModuleList n.2 params = some n'.2) nodes ns := by
  unfold mhReorder at h
  simp only at h
  generalize hall : mods ++ extra.filter (fun m => !mods.contains m) = all at h
  have hmem : ∀ m, m ∈ all ↔ m ∈ mods ∨ m ∈ extra := by
    intro m
    rw [← hall, List.mem_append, List.mem_filter]
    constructor
    · rintro (h | h)
      · exact Or.inl h
      · exact Or.inr h.1
    · rintro (h | h)
      · exact Or.inl h
      · by_cases hm : m ∈ mods
        · exact Or.inl hm
        · exact Or.inr ⟨h, by simp [hm]⟩
  cases ht : (if all.isEmpty then some all else sortModuleList all params) with
  | none => rw [ht] at h; simp at h
  | some t' =>
    cases hn : nodes.mapM (fun n => (sortModuleList n.2 params).map (fun l => (n.1, l))) with
    | none => rw [ht, hn] at h; simp at h
    | some ns' =>
      rw [ht, hn] at h
      simp only [Option.some.injEq, Prod.mk.injEq] at h
      obtain ⟨rfl, rfl⟩ := h
      have hf := mapM_forall₂ _ _ _ hn
      have hf' : List.Forall₂ (fun n n' => n'.1 = n.1 ∧ sortModuleList n.2 params = some n'.2) nodes ns' := by
        refine hf.imp ?_
        intro a b hab
        rw [Option.map_eq_some_iff] at hab
        obtain ⟨l, hl, rfl⟩ := hab
        exact ⟨rfl, hl⟩
      refine ⟨?_, ?_, ?_, hf'⟩
      · by_cases he : all.isEmpty = true
        · rw [if_pos he] at ht
          cases ht
          rw [List.isEmpty_iff.1 he]; exact .nil
        · rw [if_neg he] at ht
          exact sorted_follows ht
      · intro m
        rw [← hmem]
        by_cases he : all.isEmpty = true
        · rw [if_pos he] at ht
          cases ht
          rw [List.isEmpty_iff.1 he]; simp
        · rw [if_neg he] at ht
          rw [(C13_modules all params t' ht).1.mem_iff, List.mem_filter]
      · clear hf hn ht hall hmem
        induction hf' with
        | nil => rfl
        | cons hx _ ih => simp [hx.1, ih]

theorem pairwise_not_kind {P : HookCall → HookCall → Prop} {l : List HookCall} (h : ∀ c ∈ l, ∀ d, P c d) : l.Pairwise P := by
  induction l with
  | nil => exact .nil
  | cons c l ih => exact List.pairwise_cons.2 ⟨fun d _ => h c List.mem_cons_self d, ih (fun x hx => h x (List.mem_cons_of_mem _ hx))⟩

theorem mhNode_ordered (has : String → String → Bool) (dep : String → String → Prop) (nodes : List (String × List String)) (hn : (nodes.map (·.1)).Nodup)
    (hs : ∀ n ∈ nodes, n.2.Pairwise (fun m r => ¬ dep m r)) : NodeOrdered dep (mdhNode has nodes) := by
  induction nodes with
  | nil => exact .nil
  | cons n r ih =>
    rw [List.map_cons, List.nodup_cons] at hn
    have he : mdhNode has (n :: r) = (n.2.filter (has "node")).map (fun m => .node n.1 m) ++ mdhNode has r := by simp [mdhNode]
    unfold NodeOrdered
    rw [he, List.pairwise_append]
    refine ⟨?_, ih hn.2 (fun x hx => hs x (List.mem_cons_of_mem _ hx)), ?_⟩
    · rw [List.pairwise_map]
      refine ((hs n List.mem_cons_self).sublist List.filter_sublist).imp ?_
      intro a b hab _ m r hx hy
      cases hx; cases hy; exact hab
    · intro a ha b hb nn m r' hx hy
      obtain ⟨m1, _, rfl⟩ := List.mem_map.1 ha
      obtain ⟨n', hn', m', _, _, rfl⟩ := (mem_mhNode ..).1 hb
      cases hx
      simp only [HookCall.node.injEq] at hy
      exact absurd (List.mem_map.2 ⟨n', hn', hy.1⟩) hn.1

/-- Modules on a link when the required modules are always used together with the modules that need them -/
theorem mhFold_ordered (req : String → String → Prop) (lists : List (List String)) (hs : ∀ l ∈ lists, l.Pairwise (fun m r => ¬ req m r)) (hc : ∀ l ∈ lists, ∀ m ∈ l, ∀ r, req m r → r ∈ l)
    (acc : List String) (hacc : acc.Nodup) (h1 : acc.Pairwise (fun m r => ¬ req m r)) (h2 : ∀ m ∈ acc, ∀ r, req m r → r ∈ acc) :
    (lists.foldl (fun acc l => l.foldl (fun a m => if a.contains m then a else a ++ [m]) acc) acc).Pairwise (fun m r => ¬ req m r) := by
  induction lists generalizing acc with
  | nil => exact h1
  | cons l ls ih =>
    obtain ⟨a1, a2, _, c, a4, a5⟩ := appendNew_spec acc l
    rw [List.foldl_cons]
    refine ih (fun x hx => hs x (List.mem_cons_of_mem _ hx)) (fun x hx => hc x (List.mem_cons_of_mem _ hx)) _ (a2 hacc) ?_ ?_
    · have hnd := a2 hacc
      rw [a4] at hnd ⊢
      rw [List.nodup_append] at hnd
      rw [List.pairwise_append]
      refine ⟨h1, (hs l List.mem_cons_self).sublist a5, ?_⟩
      intro m hm r hr hreq
      exact hnd.2.2 r (h2 m hm r hreq) r hr rfl
    · intro m hm r hreq
      rw [a1] at hm ⊢
      rcases hm with hm | hm
      · exact Or.inl (h2 m hm r hreq)
      · exact Or.inr (hc l List.mem_cons_self m hm r hreq)

theorem mhLinks_ordered (has : String → String → Bool) (req : String → String → Prop) (nodes : List (String × List String)) (hs : ∀ n ∈ nodes, n.2.Pairwise (fun m r => ¬ req m r))
    (hc : ∀ n ∈ nodes, ∀ m ∈ n.2, ∀ r, req m r → r ∈ n.2) : ∀ (links : List (List String)) (i : Nat) (calls : List HookCall), mhLinks has nodes i links = some calls → LinkOrdered req calls := by
  intro links
  induction links with
  | nil => intro i calls h; simp only [mhLinks, Option.some.injEq] at h; subst h; exact .nil
  | cons l r ih =>
    intro i calls h
    simp only [mhLinks] at h
    cases hm : mhLinkModules nodes l with
    | none => rw [hm] at h; simp at h
    | some ms =>
      cases hr : mhLinks has nodes (i + 1) r with
      | none => rw [hm, hr] at h; simp at h
      | some rest =>
        rw [hm, hr] at h
        simp only [Option.some.injEq] at h
        subst h
        have hms : ms.Pairwise (fun m r => ¬ req m r) := by
          unfold mhLinkModules at hm
          rw [Option.map_eq_some_iff] at hm
          obtain ⟨lists, hl, rfl⟩ := hm
          have hmem : ∀ x ∈ lists, ∃ n ∈ nodes, n.2 = x := by
            intro x hx
            obtain ⟨k, _, hk⟩ := ((mapM_option_spec _ l).1 lists hl).2 x hx
            exact ⟨(k, x), mem_of_lookup hk, rfl⟩
          refine mhFold_ordered req lists ?_ ?_ [] .nil .nil (by simp)
          · intro x hx; obtain ⟨n, hn, rfl⟩ := hmem x hx; exact hs n hn
          · intro x hx; obtain ⟨n, hn, rfl⟩ := hmem x hx; exact hc n hn
        unfold LinkOrdered
        rw [List.pairwise_append]
        refine ⟨?_, ih (i + 1) rest hr, ?_⟩
        · rw [List.pairwise_map]
          refine (hms.sublist List.filter_sublist).imp ?_
          intro a b hab _ m r hx hy
          cases hx; cases hy; exact hab
        · intro a ha b hb j m r' hx hy
          obtain ⟨m1, _, rfl⟩ := List.mem_map.1 ha
          obtain ⟨k, m2, rfl, hk⟩ := (mhLinks_spec has nodes r (i + 1) rest hr).2.1 b hb
          cases hx
          simp only [HookCall.link.injEq] at hy
          omega

/-- **C109**: once the modules have been reordered, hooks are called in dependency order: the hook of a module is never called (for the topology or for the same node) before the hook of a module it requires
or has to follow.  Link hooks are called after the link hooks of the required modules when the modules are used together with the modules they require. -/
theorem C109_order (has : String → String → Bool) (params : String → Option ModDef) (mods extra : List String) (nodes ns : List (String × List String)) (t : List String) (links : List (List String))
    (calls : List HookCall) (hr : mhReorder params mods extra nodes = some (t, ns)) (hn : (nodes.map (·.1)).Nodup) (h : mhStage has t [] ns links = some calls) :
    TopoOrdered (Follows params) calls ∧ NodeOrdered (Follows params) calls ∧
    ((∀ n ∈ nodes, ∀ m ∈ n.2, ∀ r, Requires params m r → r ∈ n.2 ∧ (params r).isSome = true) → LinkOrdered (Requires params) calls) := by
  obtain ⟨s1, _, s3, s4⟩ := mhReorder_spec hr
  have hns : (ns.map (·.1)).Nodup := by rw [s3]; exact hn
  have hpick : ∀ n' ∈ ns, ∃ n ∈ nodes, sortModuleList n.2 params = some n'.2 := by
    clear hr h hns hn s3
    induction s4 with
    | nil => intro n' h; simp at h
    | @cons a b as bs hx _ ih =>
      intro n' hn'
      rcases List.mem_cons.1 hn' with rfl | hn'
      · exact ⟨a, List.mem_cons_self, hx.2⟩
      · obtain ⟨n, hn, he⟩ := ih n' hn'
        exact ⟨n, List.mem_cons_of_mem _ hn, he⟩
  have hsort : ∀ n' ∈ ns, n'.2.Pairwise (fun m r => ¬ Follows params m r) := by
    intro n' hn'
    obtain ⟨n, _, he⟩ := hpick n' hn'
    exact sorted_follows he
  unfold mhStage at h
  rw [Option.map_eq_some_iff] at h
  obtain ⟨lc, hl, rfl⟩ := h
  have kl := (mhLinks_spec has ns links 0 lc hl).2.1
  refine ⟨?_, ?_, ?_⟩
  · unfold TopoOrdered
    rw [List.append_assoc, List.pairwise_append]
    refine ⟨?_, ?_, ?_⟩
    · unfold mhModule
      rw [List.append_nil, List.pairwise_map]
      refine (s1.sublist List.filter_sublist).imp ?_
      intro a b hab m r hx hy
      cases hx; cases hy; exact hab
    · apply pairwise_not_kind
      intro c hc d m r hx
      rcases List.mem_append.1 hc with hc | hc
      · obtain ⟨_, _, _, _, _, rfl⟩ := (mem_mhNode ..).1 hc; cases hx
      · obtain ⟨_, _, rfl, _⟩ := kl c hc; cases hx
    · intro c _ d hd m r _ hy
      rcases List.mem_append.1 hd with hd | hd
      · obtain ⟨_, _, _, _, _, rfl⟩ := (mem_mhNode ..).1 hd; cases hy
      · obtain ⟨_, _, rfl, _⟩ := kl d hd; cases hy
  · unfold NodeOrdered
    rw [List.pairwise_append, List.pairwise_append]
    refine ⟨⟨?_, mhNode_ordered has _ ns hns hsort, ?_⟩, ?_, ?_⟩
    · apply pairwise_not_kind
      intro c hc d n m r hx
      obtain ⟨_, _, _, rfl⟩ := (mem_mhModule ..).1 hc; cases hx
    · intro c hc d _ n m r hx
      obtain ⟨_, _, _, rfl⟩ := (mem_mhModule ..).1 hc; cases hx
    · apply pairwise_not_kind
      intro c hc d n m r hx
      obtain ⟨_, _, rfl, _⟩ := kl c hc; cases hx
    · intro c _ d hd n m r _ hy
      obtain ⟨_, _, rfl, _⟩ := kl d hd; cases hy
  · intro hreq
    have hlo : LinkOrdered (Requires params) lc := by
      refine mhLinks_ordered has _ ns ?_ ?_ links 0 lc hl
      · intro n' hn'
        refine (hsort n' hn').imp ?_
        rintro a b hab ⟨d, hd, h1⟩
        exact hab ⟨d, hd, Or.inl h1⟩
      · intro n' hn' m hm r hmr
        obtain ⟨n, hnn, he⟩ := hpick n' hn'
        have hp := (C13_modules n.2 params n'.2 he).1
        rw [hp.mem_iff, List.mem_filter] at hm ⊢
        exact hreq n hnn m hm.1 r hmr
    unfold LinkOrdered
    rw [List.pairwise_append]
    refine ⟨?_, hlo, ?_⟩
    · apply pairwise_not_kind
      intro c hc d i m r hx
      rcases List.mem_append.1 hc with hc | hc
      · obtain ⟨_, _, _, rfl⟩ := (mem_mhModule ..).1 hc; cases hx
      · obtain ⟨_, _, _, _, _, rfl⟩ := (mem_mhNode ..).1 hc; cases hx
    · intro c hc d _ i m r hx
      rcases List.mem_append.1 hc with hc | hc
      · obtain ⟨_, _, _, rfl⟩ := (mem_mhModule ..).1 hc; cases hx
      · obtain ⟨_, _, _, _, _, rfl⟩ := (mem_mhNode ..).1 hc; cases hx

/-- **C109** (defect): the link hook of a module can be called before the link hook of a module it has to follow: BGP has to be processed after OSPF, but its link hook is called first when the first node on the
link uses BGP without OSPF. -/
theorem C109_link_order :
    ((mhReorder (fun m => if m = "bgp" then some ⟨[], ["ospf"]⟩ else some ⟨[], []⟩) ["bgp", "ospf"] [] [("a", ["bgp"]), ("b", ["bgp", "ospf"])]).bind
      (fun r => mhStage (fun k _ => k == "link") r.1 [] r.2 [["a", "b"]])) = some [.link 0 "bgp", .link 0 "ospf"] := by decide +kernel

/-- **C109**: the list of topology modules contains all modules (including those needed by plugins); no module is lost in the reordering of topology or node modules. -/
theorem C109_reorder_keeps (params : String → Option ModDef) (mods extra : List String) (nodes ns : List (String × List String)) (t : List String)
    (hr : mhReorder params mods extra nodes = some (t, ns)) :
    (∀ m, m ∈ t ↔ (m ∈ mods ∨ m ∈ extra) ∧ (params m).isSome = true) ∧ ns.map (·.1) = nodes.map (·.1) ∧
    ∀ (k : Nat) (n : String × List String), nodes[k]? = some n → ∃ n' : String × List String, ns[k]? = some n' ∧ n'.1 = n.1 ∧ n'.2.Perm (n.2.filter (fun m => (params m).isSome)) := by
  obtain ⟨_, s2, s3, s4⟩ := mhReorder_spec hr
  refine ⟨s2, s3, ?_⟩
  clear s2 s3 hr
  induction s4 with
  | nil => intro k n h; simp at h
  | @cons a b as bs hx _ ih =>
    intro k n h
    cases k with
    | zero =>
      simp at h; subst h
      exact ⟨b, by simp, hx.1, (C13_modules _ _ _ hx.2).1⟩
    | succ k => simpa using ih k n (by simpa using h)

/-! ## Removing a module -/

theorem lookup_foldl_pop (ks : List String) (d : List (String × Val)) (j : String) : (ks.foldl popKey d).lookup j = if j ∈ ks then none else d.lookup j := by
  induction ks generalizing d with
  | nil => simp
  | cons k ks ih =>
    rw [List.foldl_cons, ih, lookup_popKey]
    by_cases h : j ∈ ks
    · simp [h]
    · by_cases hk : j = k
      · simp [hk]
      · simp [h, hk]

/-- **C109**: removing a module removes the module and its data from the node and all its interfaces; everything else stays. -/
theorem C109_remove (node : List (String × Val)) (intfs : List (List (String × Val))) (mods : List String) (m : String) (extra : List String) :
    let r := mhRemove node intfs mods m extra
    m ∉ r.2.2 ∧ (∀ x, x ≠ m → (x ∈ r.2.2 ↔ x ∈ mods)) ∧ r.2.2.Sublist mods ∧
    (∀ k, r.1.lookup k = if k = m ∨ k ∈ extra then none else node.lookup k) ∧
    r.2.1.length = intfs.length ∧ ∀ (i : Nat) (d : List (String × Val)), intfs[i]? = some d → ∃ d' : List (String × Val), r.2.1[i]? = some d' ∧ ∀ k, d'.lookup k = if k = m ∨ k ∈ extra then none else d.lookup k := by
  have hl : ∀ (d : List (String × Val)) (k : String), ((extra ++ [m]).foldl popKey d).lookup k = if k = m ∨ k ∈ extra then none else d.lookup k := by
    intro d k
    rw [lookup_foldl_pop]
    simp only [List.mem_append, List.mem_singleton]
    by_cases h : k = m <;> by_cases h' : k ∈ extra <;> simp [h, h']
  simp only [mhRemove]
  refine ⟨by simp, fun x hx => by simp [hx], List.filter_sublist, hl node, by simp, ?_⟩
  intro i d hd
  exact ⟨_, by rw [List.getElem?_map, hd]; rfl, hl d⟩

example : mhRemove [("name", .str "r1"), ("ospf", .dict [])] [[("ospf", .dict []), ("ifname", .str "e1")]] ["ospf", "bgp"] "ospf" [] =
    ([("name", .str "r1")], [[("ifname", .str "e1")]], ["bgp"]) := by decide +kernel

/-! ## Node data copied into interfaces -/

theorem cnPick_lookup (keys : List String) (d : List (String × Val)) (k : String) : (cnPick keys d).lookup k = if k ∈ keys then d.lookup k else none := by
  unfold cnPick
  induction d with
  | nil => simp
  | cons x r ih =>
    obtain ⟨j, v⟩ := x
    by_cases hj : j ∈ keys
    · rw [List.filter_cons_of_pos (by simpa using hj)]
      by_cases hk : k = j
      · subst hk; rw [lookup_cons_self, lookup_cons_self, if_pos hj]
      · rw [lookup_cons_ne _ _ hk, lookup_cons_ne _ _ hk, ih]
    · rw [List.filter_cons_of_neg (by simpa using hj)]
      by_cases hk : k = j
      · subst hk; rw [ih, if_neg hj, if_neg hj]
      · rw [lookup_cons_ne _ _ hk, ih]

theorem cnPick_leaf (keys : List String) (d : List (String × Val)) (p : List String) (w : Val) : Val.leafAt (.dict (cnPick keys d)) p w ↔ Selected keys d p w := by
  unfold Selected Val.leafAt
  cases p with
  | nil =>
    simp only [Val.at, Option.some.injEq, reduceCtorEq, false_and, exists_false, iff_false, not_and]
    rintro rfl; simp [Val.isDict]
  | cons k r =>
    rw [at_dict_cons, cnPick_lookup]
    constructor
    · rintro ⟨h1, h2⟩
      by_cases hk : k ∈ keys
      · rw [if_pos hk] at h1
        exact ⟨k, r, rfl, hk, by rw [at_dict_cons]; exact h1, h2⟩
      · rw [if_neg hk] at h1; simp at h1
    · rintro ⟨k', r', he, hk, h1, h2⟩
      cases he
      rw [if_pos hk]
      rw [at_dict_cons] at h1
      exact ⟨h1, h2⟩

theorem cnPick_untouched (keys : List String) (d : List (String × Val)) (k : String) (r : List String) :
    Untouched (.dict (cnPick keys d)) (k :: r) ↔ k ∉ keys ∨ Untouched (.dict d) (k :: r) := by
  rw [untouched_cons_dict, untouched_cons_dict, cnPick_lookup]
  by_cases hk : k ∈ keys <;> simp [hk]

theorem cnPick_unique {keys : List String} {d : List (String × Val)} (h : Val.UniqueKeys (.dict d)) : Val.UniqueKeys (.dict (cnPick keys d)) := by
  intro p x hx
  cases p with
  | nil =>
    simp only [Val.at, Option.some.injEq, Val.dict.injEq] at hx
    subst hx
    exact (h [] d rfl).sublist (List.Sublist.map _ List.filter_sublist)
  | cons k r =>
    rw [at_dict_cons, cnPick_lookup] at hx
    by_cases hk : k ∈ keys
    · rw [if_pos hk] at hx
      exact h (k :: r) x (by rw [at_dict_cons]; exact hx)
    · rw [if_neg hk] at hx; simp at hx

/-- VRF module data of an interface: nothing when the interface is not in a VRF, or when the VRF has no (or disabled) module data -/
theorem cnVrf_spec (vrfAware : List String) (vrfs : List (String × Val)) (vrf : Option String) (va : List (String × Val)) (h : cnVrf vrfAware vrfs vrf = some va) :
    ∃ vd, va = cnPick vrfAware vd ∧ ((∃ v, vrf = some v ∧ vrfs.lookup v = some (.dict vd)) ∨ (vd = [] ∧ ¬ ∃ v d, vrf = some v ∧ vrfAware ≠ [] ∧ vrfs.lookup v = some (.dict d))) := by
  unfold cnVrf at h
  cases vrf with
  | none => simp at h; subst h; exact ⟨[], rfl, Or.inr ⟨rfl, by simp⟩⟩
  | some v =>
    simp only at h
    by_cases he : vrfAware.isEmpty = true
    · rw [if_pos he] at h
      cases h
      exact ⟨[], rfl, Or.inr ⟨rfl, by simp [List.isEmpty_iff.1 he]⟩⟩
    · rw [if_neg he] at h
      cases hl : vrfs.lookup v with
      | none => rw [hl] at h; simp at h; subst h; exact ⟨[], rfl, Or.inr ⟨rfl, by simp [hl]⟩⟩
      | some x =>
        rw [hl] at h
        cases x with
        | dict d => simp at h; exact ⟨d, h.symm, Or.inl ⟨v, rfl, hl⟩⟩
        | bool b =>
          cases b with
          | false => simp at h; subst h; exact ⟨[], rfl, Or.inr ⟨rfl, by simp [hl]⟩⟩
          | true => simp at h
        | null => simp at h
        | int => simp at h
        | str => simp at h
        | list => simp at h

theorem leafAt_nil (p : List String) (w : Val) : ¬ Val.leafAt (.dict []) p w := by
  rintro ⟨h1, h2⟩
  cases p with
  | nil => simp [Val.at] at h1; subst h1; simp [Val.isDict] at h2
  | cons k r => simp [Val.at] at h1

theorem mergeDict_leaves (a b : List (String × Val)) (hb : Val.UniqueKeys (.dict b)) (p : List String) (w : Val) :
    Val.leafAt (.dict (mergeDict a b)) p w ↔ Val.leafAt (.dict b) p w ∨ (Val.leafAt (.dict a) p w ∧ Untouched (.dict b) p) := by
  have := mergeVal_leaves (.dict a) (.dict b) rfl rfl hb p w
  rwa [mergeVal_dict] at this

/-- **C109**: an interface takes module settings from three places, and the most specific one wins: interface settings, then VRF settings listed in `vrf_aware`, then node settings listed in `node_copy`.  Nothing
else is ever copied into the interface. -/
theorem C109_copy (nodeCopy vrfAware : List String) (nd vd : List (String × Val)) (vrfs : List (String × Val)) (vrf : Option String) (intf : Option Val) (d : List (String × Val)) (r : Option Val)
    (hi : intf = some (.dict d) ∨ (intf = none ∧ d = [])) (hv : (∃ v, vrf = some v ∧ vrfs.lookup v = some (.dict vd)) ∨
      ((vrf = none ∨ ∃ v, vrf = some v ∧ (vrfs.lookup v = none ∨ vrfs.lookup v = some (.bool false))) ∧ vd = []))
    (hud : Val.UniqueKeys (.dict d)) (huv : Val.UniqueKeys (.dict vd))
    (h : cnIntf (cnPick nodeCopy nd) vrfAware vrfs vrf intf = some r) (k : String) (p : List String) (w : Val) :
    Val.leafAt (r.getD (.dict [])) (k :: p) w ↔
      Val.leafAt (.dict d) (k :: p) w ∨
      (Untouched (.dict d) (k :: p) ∧ (Selected vrfAware vd (k :: p) w ∨
        ((k ∉ vrfAware ∨ Untouched (.dict vd) (k :: p)) ∧ Selected nodeCopy nd (k :: p) w))) := by
  have hva : cnVrf vrfAware vrfs vrf = some (cnPick vrfAware vd) := by
    rcases hv with ⟨v, rfl, hv⟩ | ⟨rfl | ⟨v, rfl, hv⟩, rfl⟩
    · unfold cnVrf
      simp only [hv]
      by_cases he : vrfAware.isEmpty = true
      · rw [if_pos he, List.isEmpty_iff.1 he]
        simp [cnPick]
      · rw [if_neg he]
    · rfl
    · unfold cnVrf
      by_cases he : vrfAware.isEmpty = true
      · simp only [if_pos he]; rfl
      · rcases hv with hv | hv <;> simp only [if_neg he, hv] <;> rfl
  have hmain : ∀ (e : Bool), e = ((cnPick nodeCopy nd).isEmpty && (cnPick vrfAware vd).isEmpty) → (Val.leafAt (if e then .dict d else .dict (mergeDict (mergeDict (cnPick nodeCopy nd) (cnPick vrfAware vd)) d)) (k :: p) w ↔
      Val.leafAt (.dict d) (k :: p) w ∨
      (Untouched (.dict d) (k :: p) ∧ (Selected vrfAware vd (k :: p) w ∨
        ((k ∉ vrfAware ∨ Untouched (.dict vd) (k :: p)) ∧ Selected nodeCopy nd (k :: p) w)))) := by
    intro e he
    cases e with
    | true =>
      have he' := he.symm
      rw [Bool.and_eq_true, List.isEmpty_iff, List.isEmpty_iff] at he'
      rw [if_pos rfl]
      rw [← cnPick_leaf, ← cnPick_leaf, he'.1, he'.2]
      simp [leafAt_nil]
    | false =>
      rw [if_neg (by simp), mergeDict_leaves _ _ hud, mergeDict_leaves _ _ (cnPick_unique huv), cnPick_leaf, cnPick_leaf, cnPick_untouched]
      constructor
      · rintro (h | ⟨h | ⟨h, h2⟩, h3⟩)
        · exact Or.inl h
        · exact Or.inr ⟨h3, Or.inl h⟩
        · exact Or.inr ⟨h3, Or.inr ⟨h2, h⟩⟩
      · rintro (h | ⟨h3, h | ⟨h2, h⟩⟩)
        · exact Or.inl h
        · exact Or.inr ⟨Or.inl h, h3⟩
        · exact Or.inr ⟨Or.inr ⟨h, h2⟩, h3⟩
  rw [← hmain _ rfl]
  unfold cnIntf at h
  rcases hi with rfl | ⟨rfl, rfl⟩
  · simp only [hva] at h
    by_cases he : ((cnPick nodeCopy nd).isEmpty && (cnPick vrfAware vd).isEmpty) = true
    · rw [if_pos he] at h
      cases h
      rw [he]; simp
    · rw [if_neg he] at h
      cases h
      rw [if_neg he]; simp
  · simp only [hva] at h
    by_cases he : ((cnPick nodeCopy nd).isEmpty && (cnPick vrfAware vd).isEmpty) = true
    · rw [if_pos he] at h
      cases h
      rw [he]; simp
    · rw [if_neg he] at h
      cases h
      rw [if_neg he]; simp

/-- **C109**: interface module data that is not a dictionary (for example, `ospf: False`) is never changed. -/
theorem C109_copy_disabled (copyAttr : List (String × Val)) (vrfAware : List String) (vrfs : List (String × Val)) (vrf : Option String) (v : Val) (hv : v.isDict = false) :
    cnIntf copyAttr vrfAware vrfs vrf (some v) = some (some v) := by
  cases v <;> first | rfl | simp [Val.isDict] at hv

/-- **C109**: the copying of data of one interface doesn't depend on other interfaces; the order and number of interfaces don't change. -/
theorem C109_copy_each (nodeCopy vrfAware : List String) (hne : nodeCopy ≠ []) (nd : List (String × Val)) (vrfs : List (String × Val)) (intfs : List (Option String × Option Val)) (r : List (Option Val))
    (h : cnModule nodeCopy vrfAware (some (.dict nd)) vrfs intfs = some r) :
    List.Forall₂ (fun i o => cnIntf (cnPick nodeCopy nd) vrfAware vrfs i.1 i.2 = some o) intfs r := by
  unfold cnModule at h
  rw [if_neg (by simpa using hne)] at h
  exact mapM_forall₂ _ _ _ h

/-- **C109** (defect): VRF settings are not copied into interfaces when the module has no node attributes that could be copied. -/
theorem C109_copy_vrf_skipped : cnModule [] ["area"] (some (.dict [])) [("red", .dict [("area", .int 1)])] [(some "red", none)] = some [none] := by decide +kernel

/-- **C109** (defect): VRF module data set to `true` crashes the transformation. -/
theorem C109_copy_crash : cnModule ["area"] ["area"] (some (.dict [])) [("red", .bool true)] [(some "red", none)] = none := by decide +kernel

example : cnModule ["area", "cost"] ["area"] (some (.dict [("area", .int 0), ("cost", .int 10), ("router_id", .str "x")])) [("red", .dict [("area", .int 1)])]
    [(none, none), (some "red", none), (none, some (.dict [("cost", .int 5)])), (none, some (.bool false))] =
    some [some (.dict [("area", .int 0), ("cost", .int 10)]), some (.dict [("area", .int 1), ("cost", .int 10)]), some (.dict [("area", .int 0), ("cost", .int 5)]), some (.bool false)] := by decide +kernel

end Netlab
