import Verif.Spec.ProviderNode

namespace Netlab

open Spec

/-! ### Forwarded ports -/

theorem fwPorts_mem (fmap pmap : List (String × Int)) (id : Int) (h p : Int) : (h, p) ∈ fwPorts fmap pmap id ↔ Forwarded fmap pmap id h p := by
  unfold fwPorts Forwarded
  simp only [List.mem_filterMap, Option.map_eq_some_iff, Prod.mk.injEq]
  constructor
  · rintro ⟨f, hf, q, hq, h1, h2⟩
    exact ⟨f.1, f.2, hf, by rw [hq, h2], h1.symm⟩
  · rintro ⟨n, s, hm, hl, rfl⟩
    exact ⟨(n, s), hm, p, hl, rfl, rfl⟩

theorem fwLoop_spec (l : List (Int × Int)) (d : List String) :
    ∃ x, fwLoop l d = d ++ x ∧ x.Nodup ∧ (∀ s ∈ x, s ∉ d) ∧ ∀ s, s ∈ d ++ x ↔ s ∈ d ∨ ∃ p ∈ l, s = fwLine p := by
  induction l generalizing d with
  | nil => exact ⟨[], by simp [fwLoop], by simp, by simp, by simp⟩
  | cons p r ih =>
    unfold fwLoop
    by_cases h : d.contains (fwLine p) = true
    · rw [if_pos h]
      obtain ⟨x, h1, h2, h3, h4⟩ := ih d
      refine ⟨x, h1, h2, h3, fun s => ?_⟩
      rw [h4]
      constructor
      · rintro (h | ⟨q, hq, he⟩)
        · exact Or.inl h
        · exact Or.inr ⟨q, List.mem_cons_of_mem _ hq, he⟩
      · rintro (h | ⟨q, hq, he⟩)
        · exact Or.inl h
        · rcases List.mem_cons.1 hq with rfl | hq
          · exact Or.inl (by rw [he]; exact List.contains_iff_mem.1 h)
          · exact Or.inr ⟨q, hq, he⟩
    · rw [if_neg h]
      have hp : fwLine p ∉ d := fun hm => h (List.contains_iff_mem.2 hm)
      obtain ⟨x, h1, h2, h3, h4⟩ := ih (d ++ [fwLine p])
      refine ⟨fwLine p :: x, by rw [h1]; simp, ?_, ?_, fun s => ?_⟩
      · rw [List.nodup_cons]
        exact ⟨fun hm => h3 _ hm (by simp), h2⟩
      · intro s hs
        rcases List.mem_cons.1 hs with rfl | hs
        · exact hp
        · exact fun hd => h3 s hs (List.mem_append_left _ hd)
      · have := h4 s
        rw [show d ++ fwLine p :: x = d ++ [fwLine p] ++ x by simp, this]
        simp only [List.mem_append, List.mem_cons, List.not_mem_nil, or_false]
        constructor
        · rintro ((h | h) | ⟨q, hq, he⟩)
          · exact Or.inl h
          · exact Or.inr ⟨p, Or.inl rfl, h⟩
          · exact Or.inr ⟨q, Or.inr hq, he⟩
        · rintro (h | ⟨q, rfl | hq, he⟩)
          · exact Or.inl (Or.inl h)
          · exact Or.inl (Or.inr he)
          · exact Or.inr ⟨q, hq, he⟩

/-- C92: the list of ports of a container starts with the ports set by the user, followed by one entry for every forwarded service not in the list. -/
theorem C92_ports (fmap pmap : List (String × Int)) (id : Int) (ports : Option (List String)) :
    ∃ x, (fwNode fmap pmap id ports).getD [] = ports.getD [] ++ x ∧ x.Nodup ∧ (∀ s ∈ x, s ∉ ports.getD []) ∧
      ∀ s, s ∈ (fwNode fmap pmap id ports).getD [] ↔ s ∈ ports.getD [] ∨ ∃ h p, Forwarded fmap pmap id h p ∧ s = toString h ++ ":" ++ toString p := by
  unfold fwNode
  have hex : ∀ s, (∃ h p, Forwarded fmap pmap id h p ∧ s = toString h ++ ":" ++ toString p) ↔ ∃ q ∈ fwPorts fmap pmap id, s = fwLine q := by
    intro s
    constructor
    · rintro ⟨h, p, hf, he⟩
      exact ⟨(h, p), (fwPorts_mem _ _ _ _ _).2 hf, he⟩
    · rintro ⟨q, hq, he⟩
      exact ⟨q.1, q.2, (fwPorts_mem _ _ _ _ _).1 hq, he⟩
  simp only [hex]
  by_cases h : (fwPorts fmap pmap id).isEmpty = true
  · rw [if_pos h]
    refine ⟨[], by simp, by simp, by simp, fun s => ?_⟩
    rw [List.isEmpty_iff.1 h]
    simp
  · rw [if_neg h]
    obtain ⟨x, h1, h2, h3, h4⟩ := fwLoop_spec (fwPorts fmap pmap id) (ports.getD [])
    refine ⟨x, h1, h2, h3, fun s => ?_⟩
    rw [Option.getD_some, h1]
    exact h4 s

/-- C92: forwarded ports of all nodes are different when the first ports of services are further apart than node IDs. -/
theorem C92_host_ports (fmap pmap : List (String × Int)) (ids : List Int) (lo hi : Int) (hid : ids.Nodup) (hr : ∀ i ∈ ids, lo ≤ i ∧ i ≤ hi)
    (hf : fmap.Pairwise (fun a b => a.2 - b.2 > hi - lo ∨ b.2 - a.2 > hi - lo)) :
    ((ids.flatMap (fun i => fwPorts fmap pmap i)).map (·.1)).Nodup := by
  have hone : ∀ i ∈ ids, ((fwPorts fmap pmap i).map (·.1)).Nodup := by
    intro i hi'
    unfold fwPorts
    rw [List.Nodup, List.pairwise_map, List.pairwise_filterMap]
    refine hf.imp ?_
    intro a b hab x hx y hy
    obtain ⟨p, _, rfl⟩ := Option.map_eq_some_iff.1 hx
    obtain ⟨q, _, rfl⟩ := Option.map_eq_some_iff.1 hy
    have := hr i hi'
    simp only [ne_eq]
    omega
  have hsame : ∀ a ∈ fmap, ∀ b ∈ fmap, a.2 = b.2 ∨ a.2 - b.2 > hi - lo ∨ b.2 - a.2 > hi - lo := by
    clear hone
    induction fmap with
    | nil => intro a ha; cases ha
    | cons c r ih =>
      rw [List.pairwise_cons] at hf
      intro a ha b hb
      rcases List.mem_cons.1 ha with h1 | h1 <;> rcases List.mem_cons.1 hb with h2 | h2
      · left; rw [h1, h2]
      · right; rw [h1]; exact hf.1 b h2
      · right; rw [h2]; exact (hf.1 a h1).symm
      · exact ih hf.2 a h1 b h2
  clear hf
  induction ids with
  | nil => simp
  | cons i r ih =>
    rw [List.nodup_cons] at hid
    rw [List.flatMap_cons, List.map_append, List.nodup_append]
    refine ⟨hone i List.mem_cons_self, ih hid.2 (fun x hx => hr x (List.mem_cons_of_mem _ hx)) (fun x hx => hone x (List.mem_cons_of_mem _ hx)), ?_⟩
    intro h1 hm1 h2 hm2 he
    obtain ⟨⟨x, p⟩, hx, rfl⟩ := List.mem_map.1 hm1
    obtain ⟨⟨y, q⟩, hy, rfl⟩ := List.mem_map.1 hm2
    obtain ⟨j, hj, hy⟩ := List.mem_flatMap.1 hy
    obtain ⟨n1, s1, hs1, _, hx1⟩ := (fwPorts_mem _ _ _ _ _).1 hx
    obtain ⟨n2, s2, hs2, _, hy1⟩ := (fwPorts_mem _ _ _ _ _).1 hy
    have hne : i ≠ j := fun h => hid.1 (h ▸ hj)
    have hi1 := hr i List.mem_cons_self
    have hj1 := hr j (List.mem_cons_of_mem _ hj)
    have hss := hsame _ hs1 _ hs2
    simp only at he hss
    omega

/-! ### Management addresses -/

theorem pvSize_pos (a : PvAddr) : 0 < pvSize a := Nat.pow_pos (by decide)

theorem inNetwork_iff (a : PvAddr) (x : Nat) : InNetwork a x ↔ pvFirst a ≤ x ∧ x ≤ pvLast a := by
  unfold InNetwork pvLast pvFirst
  have hs : 2 ^ ((if a.v6 then 128 else 32) - a.plen) = pvSize a := rfl
  rw [hs]
  have hp := pvSize_pos a
  have h1 := Nat.div_add_mod x (pvSize a)
  have h2 := Nat.mod_lt x hp
  constructor
  · intro h
    rw [← h]
    rw [Nat.mul_comm] at h1
    omega
  · rintro ⟨h3, h4⟩
    refine Nat.div_eq_of_lt_le h3 ?_
    rw [Nat.succ_mul]
    omega

theorem pvSubnet_iff (a b : PvAddr) : pvSubnet a b = some true ↔ WithinPool a b := by
  unfold pvSubnet WithinPool
  by_cases h : a.v6 = b.v6
  · rw [if_neg (fun hn => hn h)]
    simp only [Option.some.injEq, Bool.and_eq_true, decide_eq_true_eq, h, true_and, inNetwork_iff]
    have := pvSize_pos a
    constructor
    · rintro ⟨h1, h2⟩ x ⟨h3, h4⟩
      exact ⟨Nat.le_trans h1 h3, Nat.le_trans h4 h2⟩
    · intro hx
      have hl : pvFirst a ≤ pvLast a := by unfold pvLast; omega
      exact ⟨(hx _ ⟨Nat.le_refl _, hl⟩).1, (hx _ ⟨hl, Nat.le_refl _⟩).2⟩
  · rw [if_pos h]
    simp [h]

theorem pvAf_zero (a p : Option PvAddr) : pvAf a p = some 0 ↔ MgmtOk a p := by
  unfold pvAf MgmtOk
  cases a with
  | none => simp
  | some a =>
    cases p with
    | none => simp
    | some p =>
      simp only [Option.some.injEq, forall_eq', exists_eq_left', ← pvSubnet_iff]
      cases pvSubnet a p with
      | none => simp
      | some b => cases b <;> simp

/-- C92: management addresses are accepted exactly when a required address is there, and all addresses belong to the prefixes of the management pool. -/
theorem C92_mgmt_iff (required v4only : Bool) (a4 a6 : Option PvAddr) (pool : Option (Option PvAddr × Option PvAddr)) :
    pvMgmt required v4only a4 a6 pool = some 0 ↔
      (required = true → a4 ≠ none ∨ (v4only = false ∧ a6 ≠ none)) ∧ ∀ p, pool = some p → MgmtOk a4 p.1 ∧ MgmtOk a6 p.2 := by
  unfold pvMgmt
  have he : (if required && !(a4.isSome || (!v4only && a6.isSome)) then 1 else 0) = 0 ↔ (required = true → a4 ≠ none ∨ (v4only = false ∧ a6 ≠ none)) := by
    cases required <;> cases v4only <;> cases a4 <;> cases a6 <;> simp
  rw [← he]
  cases pool with
  | none => simp
  | some p =>
    simp only [Option.some.injEq, forall_eq', ← pvAf_zero]
    cases h1 : pvAf a4 p.1 with
    | none => simp
    | some x =>
      cases h2 : pvAf a6 p.2 with
      | none => simp
      | some y => simp only [Option.some.injEq]; omega

/-- C92: the check fails with an exception exactly when an address and the prefix belong to different address families. -/
theorem C92_mgmt_crash (required v4only : Bool) (a4 a6 : Option PvAddr) (pool : Option (Option PvAddr × Option PvAddr)) :
    pvMgmt required v4only a4 a6 pool = none ↔
      ∃ p, pool = some p ∧ ((∃ x y, a4 = some x ∧ p.1 = some y ∧ x.v6 ≠ y.v6) ∨ (∃ x y, a6 = some x ∧ p.2 = some y ∧ x.v6 ≠ y.v6)) := by
  have haf : ∀ a p : Option PvAddr, pvAf a p = none ↔ ∃ x y, a = some x ∧ p = some y ∧ x.v6 ≠ y.v6 := by
    intro a p
    unfold pvAf pvSubnet
    cases a with
    | none => simp
    | some a =>
      cases p with
      | none => simp
      | some p => by_cases h : a.v6 = p.v6 <;> simp [h]
  unfold pvMgmt
  cases pool with
  | none => simp
  | some p =>
    simp only [Option.some.injEq, exists_eq_left', ← haf]
    cases pvAf a4 p.1 <;> cases pvAf a6 p.2 <;> simp

/-! ### Examples and defects -/

example : fwNode [("ssh", 2000), ("gopher", 7000), ("netconf", 3000)] [("ssh", 22), ("netconf", 830)] 5 (some ["8080:80", "3005:830"]) =
    some ["8080:80", "3005:830", "2005:22"] := by decide

example : pvMgmt true false (some ⟨false, 3232266245, 24⟩) none (some (some ⟨false, 3232266240, 24⟩, none)) = some 0 ∧
    pvMgmt true false (some ⟨false, 3232266245, 16⟩) none (some (some ⟨false, 3232266240, 24⟩, none)) = some 1 := by decide

/-- C92 defect: services with close ports result in the same host port on two nodes. -/
theorem C92_port_collision :
    ∃ (fmap pmap : List (String × Int)) (i j : Int) (p q : Int), i ≠ j ∧ p ≠ q ∧
      (2010, p) ∈ fwPorts fmap pmap i ∧ (2010, q) ∈ fwPorts fmap pmap j :=
  ⟨[("ssh", 2000), ("http", 2001)], [("ssh", 22), ("http", 80)], 10, 9, 22, 80, by decide, by decide, by decide, by decide⟩

end Netlab
