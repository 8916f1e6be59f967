import Verif.Model.Modules
import Verif.Lemmas.Util
import Mathlib.Data.List.Dedup
/-!
# C19: module lists, module dependencies and device support
-/

namespace Netlab

namespace Spec

/-- The modules a node uses: its own list, otherwise the global list -- unless the node
is a host that is not a daemon. -/
def EffectiveModules (g : List String) (n : ModNode) (m : String) : Prop :=
  match n.module with
  | some l => m ∈ l
  | none => (n.isHost = false ∨ n.daemon = true) ∧ m ∈ g

end Spec
open Spec

theorem mem_augmentNodeModule (g : List String) (n : ModNode) (m : String) :
    m ∈ (augmentNodeModule g n).module.getD [] ↔ EffectiveModules g n m := by
  obtain ⟨name, device, isHost, daemon, module⟩ := n
  cases module with
  | some l => simp [augmentNodeModule, EffectiveModules]
  | none =>
    simp only [augmentNodeModule, EffectiveModules]
    cases g with
    | nil => simp
    | cons a l => cases isHost <;> cases daemon <;> simp

theorem augmentNodeModule_name (g : List String) (n : ModNode) :
    (augmentNodeModule g n).name = n.name ∧ (augmentNodeModule g n).device = n.device := by
  unfold augmentNodeModule
  split
  · exact ⟨rfl, rfl⟩
  · split <;> exact ⟨rfl, rfl⟩

theorem mem_adjustGlobalModules (g : List String) (nodes : List ModNode) (m : String) :
    m ∈ adjustGlobalModules g nodes ↔ m ∈ g ∨ ∃ n ∈ nodes, m ∈ n.module.getD [] := by
  unfold adjustGlobalModules
  rw [(List.mergeSort_perm _ _).mem_iff]
  simp [List.mem_eraseDups, List.mem_flatMap]

/-- **C19 (global list).**  The global list of modules is sorted, has no duplicates and contains
exactly the modules listed globally or used by at least one node. -/
theorem C19_global_list (g : List String) (nodes : List ModNode) :
    let out := adjustGlobalModules g (nodes.map (augmentNodeModule g))
    out.Pairwise (· ≤ ·) ∧ out.Nodup ∧
    ∀ m, m ∈ out ↔ m ∈ g ∨ ∃ n ∈ nodes, EffectiveModules g n m := by
  refine ⟨?_, ?_, ?_⟩
  · unfold adjustGlobalModules
    refine (List.pairwise_mergeSort ?_ ?_ _).imp ?_
    · intro a b c h1 h2
      simp only [decide_eq_true_eq] at *
      exact String.le_trans h1 h2
    · intro a b
      simp only [Bool.or_eq_true, decide_eq_true_eq]
      exact String.le_total a b
    · intro a b h
      simpa using h
  · unfold adjustGlobalModules
    rw [(List.mergeSort_perm _ _).nodup_iff]
    exact nodup_eraseDups _
  · intro m
    rw [mem_adjustGlobalModules]
    simp only [List.mem_map, exists_exists_and_eq_and, mem_augmentNodeModule]

/-- **C19 (every missing dependency is reported).**  The reported errors are exactly: a global
module whose required module is not in the topology, and a node with a module whose required
module (required by the module or by the node device) is not used on that node. -/
theorem C19_errors_exact (g : List String) (nodes : List ModNode) (defs : String → Option ModInfo)
    (devReq : String → String → List String) :
    (∀ m q, (m, q) ∈ (checkModuleDeps g nodes defs devReq).1 ↔
      m ∈ g ∧ ∃ d, defs m = some d ∧ q ∈ d.requires ∧ q ∉ g) ∧
    (∀ m node q, (m, node, q) ∈ (checkModuleDeps g nodes defs devReq).2 ↔
      m ∈ g ∧ ∃ d, defs m = some d ∧ ∃ n ∈ nodes, n.name = node ∧ m ∈ n.module.getD [] ∧
        (q ∈ d.requires ∨ q ∈ devReq n.device m) ∧ q ∉ n.module.getD []) := by
  constructor
  · intro m q
    simp only [checkModuleDeps, List.mem_flatMap]
    constructor
    · rintro ⟨m', hm, h⟩
      cases hd : defs m' with
      | none => simp [hd] at h
      | some d =>
        simp [hd] at h
        obtain ⟨⟨h1, h2⟩, rfl⟩ := h
        exact ⟨hm, d, hd, h1, h2⟩
    · rintro ⟨hm, d, hd, h1, h2⟩
      exact ⟨m, hm, by simp [hd, h1, h2]⟩
  · intro m node q
    simp only [checkModuleDeps, List.mem_flatMap]
    constructor
    · rintro ⟨m', hm, h⟩
      cases hd : defs m' with
      | none => simp [hd] at h
      | some d =>
        simp only [hd, List.mem_flatMap] at h
        obtain ⟨n, hn, h⟩ := h
        unfold nodeDepErrors at h
        split at h
        · simp at h
        · rename_i hc
          simp only [List.mem_map, List.mem_filter, List.mem_append, Prod.mk.injEq] at h
          obtain ⟨q', ⟨h1, h2⟩, rfl, rfl, rfl⟩ := h
          exact ⟨hm, d, hd, n, hn, rfl, by simpa using hc, h1, by simpa using h2⟩
    · rintro ⟨hm, d, hd, n, hn, rfl, h1, h2, h3⟩
      refine ⟨m, hm, ?_⟩
      simp only [hd, List.mem_flatMap]
      refine ⟨n, hn, ?_⟩
      unfold nodeDepErrors
      rw [if_neg (by simpa using h1)]
      simp only [List.mem_map, List.mem_filter, List.mem_append, Prod.mk.injEq]
      exact ⟨q, ⟨h2, by simpa using h3⟩, by simp⟩

/-- Errors in the list of devices supported by modules. -/
theorem mem_checkSupported (nodes : List ModNode) (defs : String → Option ModInfo)
    (m node : String) :
    (m, node) ∈ checkSupported nodes defs ↔ ∃ n ∈ nodes, n.name = node ∧ m ∈ n.module.getD [] ∧
      (defs m = none ∨ ∃ d l, defs m = some d ∧ d.supportedOn = some l ∧ n.device ∉ l) := by
  simp only [checkSupported, List.mem_flatMap, List.mem_filterMap]
  constructor
  · rintro ⟨n, hn, m', hm, h⟩
    cases hd : defs m' with
    | none =>
      simp [hd] at h
      obtain ⟨rfl, rfl⟩ := h
      exact ⟨n, hn, rfl, hm, Or.inl hd⟩
    | some d =>
      cases hs : d.supportedOn with
      | none => simp [hd, hs] at h
      | some l =>
        simp only [hd, hs] at h
        split at h
        · simp at h
        · rename_i hc
          simp only [Option.some.injEq, Prod.mk.injEq] at h
          obtain ⟨rfl, rfl⟩ := h
          exact ⟨n, hn, rfl, hm, Or.inr ⟨d, l, hd, hs, by simpa using hc⟩⟩
  · rintro ⟨n, hn, rfl, hm, h⟩
    refine ⟨n, hn, m, hm, ?_⟩
    rcases h with h | ⟨d, l, hd, hs, hl⟩
    · simp [h]
    · simp only [hd, hs]
      rw [if_neg (by simpa using hl)]

private theorem isEmpty_iff_forall {α : Type} (l : List α) :
    (l.isEmpty = true) ↔ ∀ x, x ∉ l := by
  rw [List.isEmpty_iff, List.eq_nil_iff_forall_not_mem]

/-- **C19 (accepted topologies).**  The module checks accept a topology exactly when every module
used on a node is known, is supported on the node's device, and has all its required modules
(including device-specific requirements) on the same node, and every known module listed
globally has its required modules somewhere in the topology. -/
theorem C19_accepted_iff (g : List String) (nodes : List ModNode)
    (defs : String → Option ModInfo) (devReq : String → String → List String) :
    (modulePhases g nodes defs devReq).isSome = true ↔
      (∀ n ∈ nodes, ∀ m, EffectiveModules g n m → ∃ d, defs m = some d ∧
        (∀ l, d.supportedOn = some l → n.device ∈ l) ∧
        (∀ q ∈ d.requires, EffectiveModules g n q) ∧
        (∀ q ∈ devReq n.device m, EffectiveModules g n q)) ∧
      (∀ m ∈ g, ∀ d, defs m = some d → ∀ q ∈ d.requires,
        q ∈ g ∨ ∃ n ∈ nodes, EffectiveModules g n q) := by
  have hE := C19_errors_exact (adjustGlobalModules g (nodes.map (augmentNodeModule g)))
    (nodes.map (augmentNodeModule g)) defs devReq
  have hS := mem_checkSupported (nodes.map (augmentNodeModule g)) defs
  have hG := (C19_global_list g nodes).2.2
  have hiff : (modulePhases g nodes defs devReq).isSome = true ↔
      (∀ x, x ∉ (checkModuleDeps (adjustGlobalModules g (nodes.map (augmentNodeModule g)))
        (nodes.map (augmentNodeModule g)) defs devReq).1) ∧
      (∀ x, x ∉ (checkModuleDeps (adjustGlobalModules g (nodes.map (augmentNodeModule g)))
        (nodes.map (augmentNodeModule g)) defs devReq).2) ∧
      (∀ x, x ∉ checkSupported (nodes.map (augmentNodeModule g)) defs) := by
    rw [← isEmpty_iff_forall, ← isEmpty_iff_forall, ← isEmpty_iff_forall]
    unfold modulePhases
    simp only
    generalize checkModuleDeps (adjustGlobalModules g (nodes.map (augmentNodeModule g)))
      (nodes.map (augmentNodeModule g)) defs devReq = e
    obtain ⟨e1, e2⟩ := e
    generalize checkSupported (nodes.map (augmentNodeModule g)) defs = s
    simp only
    cases e1.isEmpty <;> cases e2.isEmpty <;> cases s.isEmpty <;> simp
  rw [hiff]
  constructor
  · rintro ⟨h1, h2, h3⟩
    constructor
    · intro n hn m hm
      have hn' : augmentNodeModule g n ∈ nodes.map (augmentNodeModule g) :=
        List.mem_map_of_mem hn
      have hm' := (mem_augmentNodeModule g n m).2 hm
      have hmg := (hG m).2 (Or.inr ⟨n, hn, hm⟩)
      have hdev := (augmentNodeModule_name g n).2
      cases hd : defs m with
      | none =>
        exact absurd ((hS m _).2 ⟨_, hn', rfl, hm', Or.inl hd⟩) (h3 _)
      | some d =>
        refine ⟨d, rfl, ?_, ?_, ?_⟩
        · intro l hl
          by_contra hc
          exact h3 _ ((hS m _).2 ⟨_, hn', rfl, hm', Or.inr ⟨d, l, hd, hl, by rwa [hdev]⟩⟩)
        · intro q hq
          by_contra hc
          rw [← mem_augmentNodeModule] at hc
          exact h2 _ ((hE.2 m _ q).2 ⟨hmg, d, hd, _, hn', rfl, hm', Or.inl hq, hc⟩)
        · intro q hq
          by_contra hc
          rw [← mem_augmentNodeModule] at hc
          exact h2 _ ((hE.2 m _ q).2 ⟨hmg, d, hd, _, hn', rfl, hm', Or.inr (by rwa [hdev]), hc⟩)
    · intro m hm d hd q hq
      by_contra hc
      rw [← hG] at hc
      exact h1 _ ((hE.1 m q).2 ⟨(hG m).2 (Or.inl hm), d, hd, hq, hc⟩)
  · rintro ⟨h1, h2⟩
    refine ⟨?_, ?_, ?_⟩
    · rintro ⟨m, q⟩ hx
      obtain ⟨hm, d, hd, hq, hnq⟩ := (hE.1 m q).1 hx
      rw [hG] at hm hnq
      rcases hm with hm | ⟨n, hn, hm⟩
      · exact hnq (h2 m hm d hd q hq)
      · obtain ⟨d', hd', -, hr, -⟩ := h1 n hn m hm
        rw [hd] at hd'
        cases hd'
        exact hnq (Or.inr ⟨n, hn, hr q hq⟩)
    · rintro ⟨m, node, q⟩ hx
      obtain ⟨hm, d, hd, n', hn', -, hmn, hq, hnq⟩ := (hE.2 m node q).1 hx
      obtain ⟨n, hn, rfl⟩ := List.mem_map.1 hn'
      rw [mem_augmentNodeModule] at hmn hnq
      obtain ⟨d', hd', -, hr, hv⟩ := h1 n hn m hmn
      rw [hd] at hd'
      cases hd'
      rw [(augmentNodeModule_name g n).2] at hq
      rcases hq with hq | hq
      · exact hnq (hr q hq)
      · exact hnq (hv q hq)
    · rintro ⟨m, node⟩ hx
      obtain ⟨n', hn', -, hmn, hq⟩ := (hS m node).1 hx
      obtain ⟨n, hn, rfl⟩ := List.mem_map.1 hn'
      rw [mem_augmentNodeModule] at hmn
      obtain ⟨d', hd', hs, -, -⟩ := h1 n hn m hmn
      rcases hq with hq | ⟨d, l, hd, hl, hdl⟩
      · rw [hq] at hd'; cases hd'
      · rw [hd] at hd'
        cases hd'
        rw [(augmentNodeModule_name g n).2] at hdl
        exact hdl (hs l hl)

/-- Definitions used in the example: EVPN needs BGP, VLANs work on two devices. -/
private def exDefs : String → Option ModInfo
  | "bgp" => some ⟨[], none⟩
  | "evpn" => some ⟨["bgp"], some ["eos"]⟩
  | _ => none
private def exN1 : ModNode := ⟨"r1", "eos", false, false, none⟩
private def exN2 : ModNode := ⟨"h1", "linux", true, false, none⟩
private def exN3 : ModNode := ⟨"r2", "eos", false, false, some ["evpn", "bgp"]⟩

example : (modulePhases ["bgp"] [exN1, exN2, exN3] exDefs (fun _ _ => [])).isSome = true := by
  rw [C19_accepted_iff]
  simp [EffectiveModules, exN1, exN2, exN3, exDefs]
example : (modulePhases ["evpn"] [exN1, exN2, exN3] exDefs (fun _ _ => [])).isSome = false := by
  rw [Bool.eq_false_iff, ne_eq, C19_accepted_iff]
  simp [EffectiveModules, exN1, exN2, exN3, exDefs]

end Netlab
