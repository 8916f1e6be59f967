import Verif.Model.Provider
import Verif.Spec.Provider
import Verif.Lemmas.Assoc
/-!
# C49: primary provider selection
-/

namespace Netlab
open Spec

theorem mem_usedProviders (t : ProvTopo) (p : String) : p ∈ usedProviders t ↔ Used t p := by
  simp only [usedProviders, Used, EffProvider, List.mem_map]

theorem onlyProvider_iff (t : ProvTopo) (p : String) :
    onlyProvider t = some p ↔ t.nodes ≠ [] ∧ ∀ n ∈ t.nodes, EffProvider t n = p := by
  unfold onlyProvider
  have hu : ∀ q, q ∈ usedProviders t ↔ Used t q := mem_usedProviders t
  cases h : usedProviders t with
  | nil =>
    have : t.nodes = [] := by simpa [usedProviders] using h
    simp [this]
  | cons q rest =>
    have hne : t.nodes ≠ [] := by
      intro e
      simp [usedProviders, e] at h
    rw [h] at hu
    simp only [Ne, hne, not_false_eq_true, true_and]
    constructor
    · intro hs
      split at hs
      · rename_i hall
        cases hs
        intro n hn
        have := (hu (EffProvider t n)).2 ⟨n, hn, rfl⟩
        cases List.mem_cons.1 this with
        | inl e => exact e
        | inr e =>
          have := List.all_eq_true.1 hall _ e
          simpa using this
      · cases hs
    · intro hall
      have hq : ∀ x ∈ q :: rest, x = p := by
        intro x hx
        obtain ⟨n, hn, e⟩ := (hu x).1 hx
        rw [← e]
        exact hall n hn
      have hqp := hq q (by simp)
      subst hqp
      rw [if_pos]
      rw [List.all_eq_true]
      intro x hx
      simpa using hq x (by simp [hx])

theorem filter_head (l : List String) (f : String → Bool) (p : String) (rest : List String)
    (h : l.filter f = p :: rest) :
    ∃ pre post, l = pre ++ p :: post ∧ f p = true ∧ ∀ q ∈ pre, f q = false := by
  have hf : l.find? f = some p := by
    have := List.head?_filter (p := f) (l := l)
    rw [← this, h]
    rfl
  rw [List.find?_eq_some_iff_append] at hf
  obtain ⟨h1, pre, post, h2, h3⟩ := hf
  exact ⟨pre, post, h2, h1, fun q hq => by simpa using h3 q hq⟩

theorem selectMixed_primary (multi : List String) (t : ProvTopo) :
    FirstUsed t multi (selectMixed multi t).provider ∨
    (∀ q ∈ multi, ¬ Used t q) ∧ selectMixed multi t = t := by
  unfold selectMixed
  split
  · rename_i h
    right
    refine ⟨?_, rfl⟩
    intro q hq hu
    have : q ∈ multi.filter (fun x => (usedProviders t).contains x) := by
      rw [List.mem_filter]
      exact ⟨hq, by simpa using (mem_usedProviders t q).2 hu⟩
    rw [h] at this
    cases this
  · rename_i top rest h
    left
    obtain ⟨pre, post, h1, h2, h3⟩ := filter_head _ _ _ _ h
    have hfirst : FirstUsed t multi top := by
      refine ⟨pre, post, h1, (mem_usedProviders t top).1 (by simpa using h2), ?_⟩
      intro q hq hu
      have := h3 q hq
      rw [show (usedProviders t).contains q = true by simpa using (mem_usedProviders t q).2 hu] at this
      cases this
    split
    · rename_i e
      rw [show t.provider = top from (by simpa using e : top = t.provider).symm]
      exact hfirst
    · exact hfirst

/-- **C49 (primary provider).**  In a topology where all nodes use the same provider, it becomes the
primary provider.  In other topologies the primary provider is the first provider of the list of
providers that can be mixed which is used by a node; it is not changed when there is none. -/
theorem C49_primary (multi : List String) (t : ProvTopo) :
    (t.nodes ≠ [] → ∀ p, (∀ n ∈ t.nodes, EffProvider t n = p) →
      (selectPrimaryProvider multi t).provider = p) ∧
    ((∀ p, ∃ n ∈ t.nodes, EffProvider t n ≠ p) →
      FirstUsed t multi (selectPrimaryProvider multi t).provider ∨
      (∀ q ∈ multi, ¬ Used t q) ∧ selectPrimaryProvider multi t = t) := by
  constructor
  · intro hne p hall
    have ho := (onlyProvider_iff t p).2 ⟨hne, hall⟩
    unfold selectPrimaryProvider
    rw [ho]
    simp only
    split
    · rfl
    · rename_i e
      have e : t.provider = p := by simpa using e
      rcases selectMixed_primary multi t with h | ⟨_, h⟩
      · obtain ⟨_, _, _, ⟨n, hn, hu⟩, _⟩ := h
        rw [← hu, hall n hn]
      · rw [h, e]
  · intro hmix
    have ho : onlyProvider t = none := by
      cases h : onlyProvider t with
      | none => rfl
      | some p =>
        obtain ⟨n, hn, hne⟩ := hmix p
        exact absurd (((onlyProvider_iff t p).1 h).2 n hn) hne
    unfold selectPrimaryProvider
    rw [ho]
    exact selectMixed_primary multi t

/-- **C49 (nodes are not affected).**  Selecting the primary provider does not change the provider used
by any node, neither according to the topology provider nor to the default provider. -/
theorem C49_nodes_unchanged (multi : List String) (t : ProvTopo) (hd : t.defProvider = t.provider)
    (i : Nat) (h : i < t.nodes.length) :
    ∃ h' : i < (selectPrimaryProvider multi t).nodes.length,
      ((selectPrimaryProvider multi t).nodes[i]).1 = (t.nodes[i]).1 ∧
      EffProvider (selectPrimaryProvider multi t) ((selectPrimaryProvider multi t).nodes[i]) =
        EffProvider t (t.nodes[i]) ∧
      getProvider (selectPrimaryProvider multi t) ((selectPrimaryProvider multi t).nodes[i]) =
        EffProvider t (t.nodes[i]) := by
  have mixed : ∃ h' : i < (selectMixed multi t).nodes.length,
      ((selectMixed multi t).nodes[i]).1 = (t.nodes[i]).1 ∧
      EffProvider (selectMixed multi t) ((selectMixed multi t).nodes[i]) = EffProvider t (t.nodes[i]) ∧
      getProvider (selectMixed multi t) ((selectMixed multi t).nodes[i]) = EffProvider t (t.nodes[i]) := by
    unfold selectMixed
    split
    · exact ⟨h, rfl, rfl, by simp [getProvider, EffProvider, hd]⟩
    · split
      · exact ⟨h, rfl, rfl, by simp [getProvider, EffProvider, hd]⟩
      · exact ⟨by simpa using h, by simp, by simp [EffProvider], by simp [getProvider, EffProvider]⟩
  unfold selectPrimaryProvider
  split
  · rename_i p hp
    split
    · rename_i hne
      have hne : t.provider ≠ p := by simpa using hne
      have hx := ((onlyProvider_iff t p).1 hp).2 t.nodes[i] (List.getElem_mem h)
      refine ⟨h, rfl, ?_, ?_⟩
      all_goals
        cases hn : (t.nodes[i]).2 with
        | none =>
          simp only [EffProvider, hn, Option.getD_none] at hx
          exact absurd hx hne
        | some q => simp [EffProvider, getProvider, hn]
    · exact mixed
  · exact mixed

theorem mem_addProvider (l : List String) (p q : String) : q ∈ addProvider l p ↔ q ∈ l ∨ q = p := by
  unfold addProvider
  split
  · rename_i h
    have h : p ∈ l := by simpa using h
    constructor
    · exact Or.inl
    · rintro (h' | e)
      · exact h'
      · exact e ▸ h
  · simp

theorem markLoop_mem (nodes : List (String × String)) (acc l : List String) (q : String) :
    q ∈ markLoop nodes acc l ↔ q ∈ acc ∨ ∃ n ∈ l, nodes.lookup n = some q := by
  induction l generalizing acc with
  | nil => simp [markLoop]
  | cons n rest ih =>
    unfold markLoop
    split
    · rename_i h
      rw [ih]
      simp [h]
    · rename_i p h
      rw [ih, mem_addProvider]
      simp only [List.mem_cons, or_and_right, exists_or, exists_eq_left, h, Option.some.injEq]
      constructor
      · rintro ((a | a) | a)
        · exact Or.inl a
        · exact Or.inr (Or.inl a.symm)
        · exact Or.inr (Or.inr a)
      · rintro (a | a | a)
        · exact Or.inl (Or.inl a)
        · exact Or.inl (Or.inr a.symm)
        · exact Or.inr a

theorem lookup_mark (t : ProvTopo) (hnd : (t.nodes.map (·.1)).Nodup) (n q : String) :
    (t.nodes.map (fun x => (x.1, EffProvider t x))).lookup n = some q ↔
      ∃ x ∈ t.nodes, x.1 = n ∧ EffProvider t x = q := by
  have hnd' : ((t.nodes.map (fun x => (x.1, EffProvider t x))).map (·.1)).Nodup := by
    simpa [List.map_map, Function.comp_def] using hnd
  constructor
  · intro h
    have := mem_of_lookup h
    obtain ⟨x, hx, e⟩ := List.mem_map.1 this
    exact ⟨x, hx, (Prod.mk.inj e).1, (Prod.mk.inj e).2⟩
  · rintro ⟨x, hx, rfl, rfl⟩
    exact lookup_of_mem hnd' (List.mem_map.2 ⟨x, hx, rfl⟩)

/-- **C49 (providers of nodes and links).**  Marking nodes and links gives every node its effective provider,
and every (not yet marked) link exactly the providers of the nodes attached to it. -/
theorem C49_mark (t : ProvTopo) (hnd : (t.nodes.map (·.1)).Nodup) (links : List ProvLink) :
    (markProviders t links).1 = t.nodes.map (fun n => (n.1, EffProvider t n)) ∧
    (markProviders t links).2.length = links.length ∧
    ∀ i (h : i < links.length) (h' : i < (markProviders t links).2.length),
      links[i].provider = [] →
      ((markProviders t links).2[i]).nodes = links[i].nodes ∧
      ∀ p, p ∈ ((markProviders t links).2[i]).provider ↔
        ∃ n ∈ t.nodes, n.1 ∈ links[i].nodes ∧ EffProvider t n = p := by
  refine ⟨rfl, by simp [markProviders], ?_⟩
  intro i h h' he
  simp only [markProviders, List.getElem_map, markLink]
  refine ⟨trivial, ?_⟩
  intro p
  rw [markLoop_mem, he]
  have hl := lookup_mark t hnd
  simp only [EffProvider] at hl
  simp only [List.not_mem_nil, false_or, hl]
  constructor
  · rintro ⟨n, hn, x, hx, rfl, e⟩
    exact ⟨x, hx, hn, e⟩
  · rintro ⟨x, hx, hn, e⟩
    exact ⟨x.1, hn, x, hx, rfl, e⟩

/-- **C49 (topology of a provider).**  The topology handed to a provider keeps all nodes, marks the nodes
of other providers as unmanaged, and has exactly the links with at least one node of that provider. -/
theorem C49_select (t : ProvTopo) (hnd : (t.nodes.map (·.1)).Nodup) (links : List ProvLink)
    (hl : ∀ l ∈ links, l.provider = []) (p : String) :
    let m := markProviders t links
    (selectTopology m.1 m.2 p).1 = t.nodes.map (fun n => (n.1, decide (EffProvider t n ≠ p))) ∧
    (selectTopology m.1 m.2 p).2.map (·.nodes) =
      (links.filter (fun l => t.nodes.any (fun n => l.nodes.contains n.1 && EffProvider t n == p))).map
        (·.nodes) := by
  constructor
  · simp only [selectTopology, markProviders, List.map_map, Function.comp_def, EffProvider]
    apply List.map_congr_left
    intro n _
    simp [bne]
    by_cases h : n.2.getD t.provider = p <;> simp [h]
  · simp only [selectTopology, markProviders]
    rw [List.filter_map, List.map_map]
    have : ((fun l : ProvLink => l.provider.contains p) ∘
        markLink (t.nodes.map (fun n => (n.1, n.2.getD t.provider)))) =
        ((fun l : ProvLink => l.provider.contains p) ∘
        markLink (t.nodes.map (fun n => (n.1, EffProvider t n)))) := rfl
    rw [this]
    have hf : ∀ l ∈ links, ((fun l : ProvLink => l.provider.contains p) ∘
        markLink (t.nodes.map (fun n => (n.1, EffProvider t n)))) l =
        t.nodes.any (fun n => l.nodes.contains n.1 && EffProvider t n == p) := by
      intro l hlm
      rw [Bool.eq_iff_iff]
      simp only [Function.comp_apply, List.contains_iff_mem, List.any_eq_true, Bool.and_eq_true,
        beq_iff_eq]
      unfold markLink
      simp only
      rw [markLoop_mem, hl l hlm]
      simp only [List.not_mem_nil, false_or, lookup_mark t hnd]
      constructor
      · rintro ⟨n, hn, x, hx, rfl, e⟩
        exact ⟨x, hx, hn, e⟩
      · rintro ⟨x, hx, hn, e⟩
        exact ⟨x.1, hn, x, hx, rfl, e⟩
    rw [List.filter_congr hf]
    rfl

/-- clab nodes in a topology with the default provider clab, with one libvirt node -/
def provSample : ProvTopo := ⟨"clab", "clab", [("a", none), ("b", some "libvirt"), ("c", some "clab")]⟩

example : selectPrimaryProvider ["libvirt", "clab"] provSample =
    ⟨"libvirt", "libvirt", [("a", some "clab"), ("b", some "libvirt"), ("c", some "clab")]⟩ := by
  decide
example : (provSample.nodes.map (·.1)).Nodup := by decide
example : ∀ p, ∃ n ∈ provSample.nodes, EffProvider provSample n ≠ p := by
  intro p
  by_cases h : p = "clab"
  · exact ⟨("b", some "libvirt"), by decide, by subst h; decide⟩
  · exact ⟨("a", none), by decide, fun e => h e.symm⟩
example : (selectTopology (markProviders provSample [⟨["a", "b"], []⟩, ⟨["a", "c"], []⟩]).1
    (markProviders provSample [⟨["a", "b"], []⟩, ⟨["a", "c"], []⟩]).2 "libvirt") =
    ([("a", true), ("b", false), ("c", true)], [⟨["a", "b"], ["clab", "libvirt"]⟩]) := by decide

end Netlab
