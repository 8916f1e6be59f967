import Verif.Spec.DeviceInv
import Verif.Props.Access
/-!
# C161: the device inventory
-/

namespace Netlab
open Spec

theorem diHas_iff (sub l : List Char) : diHas sub l = true ↔ sub <:+: l := by
  induction l with
  | nil => simp [diHas]
  | cons c r ih => simp only [diHas, Bool.or_eq_true, List.isPrefixOf_iff_prefix, ih, List.infix_cons_iff]

theorem diInternal_iff (k : String) : diInternal k = true ↔ InternalPoolAttr k := by
  simp only [diInternal, Bool.or_eq_true, diHas_iff, InternalPoolAttr]

theorem diNodes_other (g : String → List (String × Val)) (p : AcProvider) (nodes : List (String × List (String × Val))) :
    ∀ (inv out : List (String × Val)) (k : String), diNodes g p inv nodes = some out → k ∉ nodes.map (·.1) → out.lookup k = inv.lookup k := by
  induction nodes with
  | nil => intro inv out k h _; cases h; rfl
  | cons n r ih =>
    intro inv out k h hk
    simp only [diNodes] at h
    cases hh : acHost (g n.1) ["name"] p n.2 with
    | none => rw [hh] at h; cases h
    | some host =>
      rw [hh] at h
      simp only [List.map_cons, List.mem_cons, not_or] at hk
      rw [ih _ _ k h hk.2, lookup_setKey]
      simp [hk.1]

theorem diNodes_node (g : String → List (String × Val)) (p : AcProvider) (nodes : List (String × List (String × Val))) :
    ∀ (inv out : List (String × Val)), diNodes g p inv nodes = some out → (nodes.map (·.1)).Nodup →
      ∀ n ∈ nodes, ∃ host, acHost (g n.1) ["name"] p n.2 = some host ∧ out.lookup n.1 = some (.dict host) := by
  induction nodes with
  | nil => intro inv out _ _ n hn; simp at hn
  | cons m r ih =>
    intro inv out h hd n hn
    simp only [diNodes] at h
    rw [List.map_cons, List.nodup_cons] at hd
    cases hh : acHost (g m.1) ["name"] p m.2 with
    | none => rw [hh] at h; cases h
    | some host =>
      rw [hh] at h
      rcases List.mem_cons.mp hn with rfl | hn
      · refine ⟨host, hh, ?_⟩
        rw [diNodes_other g p r _ _ _ h hd.1, lookup_setKey]
        simp
      · exact ih _ _ h hd.2 n hn

theorem diNodes_some (g : String → List (String × Val)) (p : AcProvider) (nodes : List (String × List (String × Val)))
    (h : ∀ n ∈ nodes, (acHost (g n.1) ["name"] p n.2).isSome = true) : ∀ inv, ∃ out, diNodes g p inv nodes = some out := by
  induction nodes with
  | nil => exact fun inv => ⟨inv, rfl⟩
  | cons n r ih =>
    intro inv
    obtain ⟨host, hh⟩ := Option.isSome_iff_exists.mp (h n List.mem_cons_self)
    simp only [diNodes, hh]
    exact ih (fun m hm => h m (List.mem_cons_of_mem _ hm)) _

/-- C161: the inventory contains an entry for every node.  Forwarded ports are changed by the ID of the node and override everything else;
other settings come, in this order, from the provider, from the node, from its name or management address, and from its device. -/
theorem C161_nodes (g : String → List (String × Val)) (p : AcProvider) (nodes : List (String × List (String × Val))) (pools : Bool)
    (addressing : List (String × List (String × Val))) (hn : (nodes.map (·.1)).Nodup)
    (hi : (p.inventory.map (·.1)).Nodup) (hp : (p.portMap.map (·.2)).Nodup)
    (hg : ∀ n ∈ nodes, ((g n.1).map (·.1)).Nodup) (hd : ∀ n ∈ nodes, (n.2.map (·.1)).Nodup)
    (hid : ∀ n ∈ nodes, ∃ i, HostSetting (g n.1) ["name"] p.inventory n.2 "id" = some (.int i)) :
    ∃ inv, diCreate g p nodes pools addressing = some inv ∧ ∀ n ∈ nodes, ∃ host, inv.lookup n.1 = some (.dict host) ∧
      (∀ a k f i, (a, k) ∈ p.portMap → p.forwarded.lookup a = some f →
        HostSetting (g n.1) ["name"] p.inventory n.2 "id" = some (.int i) → host.lookup k = some (.int (f + i))) ∧
      (∀ k, (∀ a f, (a, k) ∈ p.portMap → p.forwarded.lookup a ≠ some f) →
        host.lookup k = HostSetting (g n.1) ["name"] p.inventory n.2 k) := by
  have hall : ∀ n ∈ nodes, (acHost (g n.1) ["name"] p n.2).isSome = true := by
    intro n hm
    obtain ⟨i, hi'⟩ := hid n hm
    obtain ⟨host, hh, -⟩ := C114_host (g n.1) ["name"] p n.2 i (hg n hm) hi (hd n hm) hp hi'
    rw [hh]; rfl
  obtain ⟨inv, hinv⟩ := diNodes_some g p nodes hall (if pools then diStart addressing else [])
  refine ⟨inv, hinv, fun n hm => ?_⟩
  obtain ⟨host, hh, hl⟩ := diNodes_node g p nodes _ _ hinv hn n hm
  obtain ⟨i, hi'⟩ := hid n hm
  obtain ⟨host', hh', h1, h2⟩ := C114_host (g n.1) ["name"] p n.2 i (hg n hm) hi (hd n hm) hp hi'
  rw [hh] at hh'
  cases hh'
  refine ⟨host, hl, fun a k f j ha hf hj => ?_, h2⟩
  rw [hi'] at hj
  cases hj
  exact h1 a k f ha hf

/-- C161: apart from nodes, the inventory can contain only the entry `all`, and only in the format with address pools. -/
theorem C161_only (g : String → List (String × Val)) (p : AcProvider) (nodes : List (String × List (String × Val))) (pools : Bool)
    (addressing : List (String × List (String × Val))) (inv : List (String × Val)) (h : diCreate g p nodes pools addressing = some inv)
    (k : String) (hk : (inv.lookup k).isSome = true) : k ∈ nodes.map (·.1) ∨ (k = "all" ∧ pools = true ∧ addressing ≠ []) := by
  by_cases hm : k ∈ nodes.map (·.1)
  · exact Or.inl hm
  · right
    rw [diNodes_other g p nodes _ _ k h hm] at hk
    cases pools with
    | false => simp at hk
    | true =>
      simp only [if_true, diStart] at hk
      cases addressing with
      | nil => simp at hk
      | cons x r =>
        by_cases ha : k = "all"
        · exact ⟨ha, rfl, by simp⟩
        · rw [List.isEmpty_cons, if_neg (by decide), lookup_cons_ne _ _ ha] at hk
          simp at hk

/-- C161: all address pools are in the inventory, in the original order, with all their attributes apart from the internal ones. -/
theorem C161_pools (g : String → List (String × Val)) (p : AcProvider) (nodes : List (String × List (String × Val)))
    (addressing : List (String × List (String × Val))) (inv : List (String × Val)) (h : diCreate g p nodes true addressing = some inv)
    (ha : "all" ∉ nodes.map (·.1)) (hne : addressing ≠ []) :
    ∃ l : List (String × List (String × Val)),
      inv.lookup "all" = some (.dict [("vars", .dict [("pools", .dict (l.map (fun x => (x.1, .dict x.2))))])]) ∧
      l.map (·.1) = addressing.map (·.1) ∧
      ∀ (i : Nat) (pool : String × List (String × Val)), addressing[i]? = some pool → ∃ d : List (String × Val), l[i]? = some (pool.1, d) ∧ d.Sublist pool.2 ∧
        ∀ x ∈ pool.2, x ∈ d ↔ ¬ InternalPoolAttr x.1 := by
  refine ⟨addressing.map (fun q => (q.1, q.2.filter (fun x => !diInternal x.1))), ?_, ?_, ?_⟩
  · rw [diNodes_other g p nodes _ _ "all" h ha]
    have he : addressing.isEmpty = false := by
      cases addressing with
      | nil => exact absurd rfl hne
      | cons x r => rfl
    simp only [if_true, diStart, he, Bool.false_eq_true, if_false, lookup_cons_self, diPools, List.map_map]
    rfl
  · rw [List.map_map]; rfl
  · intro i pool hi
    refine ⟨pool.2.filter (fun x => !diInternal x.1), by rw [List.getElem?_map, hi]; rfl, List.filter_sublist, ?_⟩
    intro x hx
    rw [List.mem_filter, ← diInternal_iff]
    simp [hx]

/-- C161, the exception: the entry of a node called `all` replaces the address pools. -/
theorem C161_node_all (g : String → List (String × Val)) (p : AcProvider) (nodes : List (String × List (String × Val))) (pools : Bool)
    (addressing : List (String × List (String × Val))) (inv : List (String × Val)) (h : diCreate g p nodes pools addressing = some inv)
    (hn : (nodes.map (·.1)).Nodup) (d : List (String × Val)) (hm : ("all", d) ∈ nodes) :
    ∃ host, acHost (g "all") ["name"] p d = some host ∧ inv.lookup "all" = some (.dict host) :=
  diNodes_node g p nodes _ _ h hn ("all", d) hm

/-- Non-vacuity: two nodes, a forwarded port and an address pool -/
example : (diCreate (fun _ => [("ansible_user", .str "admin")]) { portMap := [("ssh", "ansible_port")], forwarded := [("ssh", 2000)] }
    [("r1", [("id", .int 1), ("name", .str "r1")]), ("r2", [("id", .int 2), ("name", .str "r2")])] true
    [("lan", [("ipv4", .str "172.16.0.0/16"), ("ipv4_pfx", .str "x")])]).map (fun l => l.map (·.1)) = some ["all", "r1", "r2"] := by
  decide +kernel

/-- Non-vacuity: internal attributes -/
example : InternalPoolAttr "ipv4_pfx" ∧ ¬ InternalPoolAttr "ipv4" := by
  rw [← diInternal_iff, ← diInternal_iff]
  decide +kernel

end Netlab
