import Verif.Spec.NodeClean
import Verif.Props.GroupInit
import Mathlib.Data.List.Forall2
/-!
# C86: final cleanup of nodes
-/

namespace Netlab

open Spec

variable {α : Type}

theorem ncNames_spec (l seen : List String) : ncNames seen l = 0 ↔ l.Nodup ∧ ∀ x ∈ l, x ∉ seen := by
  induction l generalizing seen with
  | nil => simp [ncNames]
  | cons x r ih =>
    unfold ncNames
    by_cases h : seen.contains x = true
    · rw [if_pos h]
      constructor
      · intro h'; omega
      · rintro ⟨_, h2⟩
        exact absurd (List.contains_iff_mem.mp h) (h2 x List.mem_cons_self)
    · rw [if_neg h, ih]
      have hx : x ∉ seen := fun hm => h (List.contains_iff_mem.mpr hm)
      constructor
      · rintro ⟨h1, h2⟩
        refine ⟨List.nodup_cons.mpr ⟨fun hm => ?_, h1⟩, fun y hy => ?_⟩
        · exact h2 x hm (List.mem_append_right _ List.mem_cons_self)
        · rcases List.mem_cons.mp hy with rfl | hy
          · exact hx
          · exact fun hs => h2 y hy (List.mem_append_left _ hs)
      · rintro ⟨h1, h2⟩
        obtain ⟨n1, n2⟩ := List.nodup_cons.mp h1
        refine ⟨n2, fun y hy hs => ?_⟩
        rcases List.mem_append.mp hs with hs | hs
        · exact h2 y (List.mem_cons_of_mem _ hy) hs
        · rcases List.mem_cons.mp hs with rfl | hs
          · exact n1 hy
          · cases hs

theorem ncBelow_iff (m : Int) (o : Option Int) : ncBelow m o = true ↔ ∃ x, o = some x ∧ m < x := by
  cases o <;> simp [ncBelow]

theorem ncAbove_iff (m : Int) (o : Option Int) : ncAbove m o = true ↔ ∃ x, o = some x ∧ x < m := by
  cases o <;> simp [ncAbove]

theorem ncBelow_false (m : Int) (o : Option Int) : ncBelow m o = false ↔ ∀ x, o = some x → x ≤ m := by
  cases o <;> simp [ncBelow]

theorem ncAbove_false (m : Int) (o : Option Int) : ncAbove m o = false ↔ ∀ x, o = some x → m ≤ x := by
  cases o <;> simp [ncAbove]

theorem ncSystem_iff (f : NcFeat) (n : NcNode α) (m : Int) : ncSystem f n = some m ↔ SystemMtu f n m := by
  unfold ncSystem SystemMtu
  cases f.system <;> simp

theorem ncMtuErr_zero (f : NcFeat) (ipv6 : Bool) (m : Int) :
    (if ncBelow m f.minMtu then 1 else if ipv6 && decide (m < 1280) then 1 else 0) + (if ncAbove m f.maxMtu then 1 else 0) = 0 ↔ MtuOk f ipv6 m := by
  unfold MtuOk
  rw [← ncBelow_false, ← ncAbove_false]
  cases ncBelow m f.minMtu <;> cases ncAbove m f.maxMtu <;> cases ipv6 <;> simp

theorem ncNodeErr_zero (f : NcFeat) (ipv6 : Bool) (m : Int) : ncNodeErr f ipv6 m = 0 ↔ MtuOk f ipv6 m ∧ ∀ x, f.minPhy = some x → x ≤ m := by
  rw [← ncMtuErr_zero, ← ncBelow_false]
  unfold ncNodeErr
  cases ncBelow m f.minPhy <;> simp

theorem ncIntf_spec (f : NcFeat) (n : NcNode α) (i : NcIntf α) :
    IntfCleaned f n i (ncIntf f (ncSystem f n) i).1 ∧
    ((ncIntf f (ncSystem f n) i).2 = 0 ↔ ∀ m, i.mtu = some m → ¬ SystemMtu f n m → MtuOk f i.ipv6 m) := by
  unfold ncIntf
  cases hm : i.mtu with
  | none =>
    refine ⟨⟨rfl, rfl, rfl, fun m => ?_, ?_⟩, ?_⟩
    · simp [hm]
    · simp [hm]
    · simp
  | some m =>
    simp only []
    by_cases hs : ncSystem f n = some m
    · rw [if_pos hs]
      have hsm := (ncSystem_iff f n m).mp hs
      refine ⟨⟨rfl, rfl, rfl, fun m' => ?_, ?_⟩, ?_⟩
      · simp only [hm, reduceCtorEq, Option.some.injEq, false_iff, not_and, Classical.not_not]
        rintro rfl
        exact hsm
      · simp
      · simp only [Option.some.injEq, true_iff]
        rintro m' rfl hn
        exact absurd hsm hn
    · rw [if_neg hs]
      have hsm : ¬ SystemMtu f n m := fun h => hs ((ncSystem_iff f n m).mpr h)
      constructor
      · by_cases hb : ncBelow m f.minPhy = true
        · rw [if_pos hb]
          obtain ⟨x, hx, hlt⟩ := (ncBelow_iff _ _).mp hb
          refine ⟨rfl, rfl, rfl, fun m' => ?_, ?_⟩
          · simp only [hm, Option.some.injEq]
            exact ⟨fun h => ⟨h, h ▸ hsm⟩, fun h => h.1⟩
          · simp only [true_iff]
            exact .inr ⟨m, x, rfl, hx, hlt⟩
        · rw [if_neg hb]
          refine ⟨rfl, rfl, rfl, fun m' => ?_, ?_⟩
          · simp only [hm, Option.some.injEq]
            exact ⟨fun h => ⟨h, h ▸ hsm⟩, fun h => h.1⟩
          · constructor
            · exact .inl
            · rintro (h | ⟨m', x, h1, h2, h3⟩)
              · exact h
              · rw [hm] at h1
                cases h1
                exact absurd ((ncBelow_iff _ _).mpr ⟨x, h2, h3⟩) hb
      · simp only [Option.some.injEq, forall_eq']
        rw [Nat.add_comm, ncMtuErr_zero]
        exact ⟨fun h _ => h, fun h => h hsm⟩

/-- **C86** (accepted nodes).  A node is accepted exactly when its interfaces have different names, the system MTU is a valid (physical) MTU
and all other interface MTU values are valid. -/
theorem C86_accepted_iff (f : NcFeat) (n : NcNode α) : (ncClean f n).2 = 0 ↔ NodeUsable f n := by
  unfold ncClean ncMtu
  simp only []
  rw [Nat.add_eq_zero_iff, Nat.add_eq_zero_iff, ncNames_spec, List.map_map, gi_sum_zero]
  have hsys : ncSysErr f n.ipv6 (ncSystem f n) = 0 ↔
      ∀ m, SystemMtu f n m → MtuOk f n.ipv6 m ∧ ∀ x, f.minPhy = some x → x ≤ m := by
    cases hs : ncSystem f n with
    | none =>
      simp only [ncSysErr, true_iff]
      intro m hm
      rw [(ncSystem_iff f n m).mpr hm] at hs
      cases hs
    | some m =>
      simp only [ncSysErr]
      rw [ncNodeErr_zero]
      constructor
      · intro h m' hm'
        rw [(ncSystem_iff f n m').mpr hm'] at hs
        cases hs
        exact h
      · intro h
        exact h m ((ncSystem_iff f n m).mp hs)
  rw [hsys]
  constructor
  · rintro ⟨⟨h1, _⟩, h2, h3⟩
    exact ⟨h1, h2, fun i hi => (ncIntf_spec f n i).2.mp (h3 i hi)⟩
  · rintro ⟨h1, h2, h3⟩
    exact ⟨⟨h1, fun x _ h => (nomatch h)⟩, h2, fun i hi => (ncIntf_spec f n i).2.mpr (h3 i hi)⟩

/-- **C86** (interfaces).  MTU values equal to the system MTU are removed from interfaces, MTU values that are not valid physical MTU values
are marked, and nothing else changes. -/
theorem C86_interfaces (f : NcFeat) (n : NcNode α) :
    (ncClean f n).1.mtu = n.mtu ∧ (ncClean f n).1.ipv6 = n.ipv6 ∧ List.Forall₂ (IntfCleaned f n) n.ifs (ncClean f n).1.ifs := by
  refine ⟨rfl, rfl, ?_⟩
  show List.Forall₂ _ n.ifs ((n.ifs.map (ncIntf f (ncSystem f n))).map (·.1))
  rw [List.map_map]
  induction n.ifs with
  | nil => exact .nil
  | cons i r ih => exact .cons (ncIntf_spec f n i).1 ih

/-- **C86** (effective MTU).  The MTU of an interface, or of the system when the interface has none, is the same before and after the cleanup. -/
theorem C86_effective_mtu (f : NcFeat) (n : NcNode α) :
    List.Forall₂ (fun i i' : NcIntf α => i'.mtu.or n.mtu = i.mtu.or n.mtu) n.ifs (ncClean f n).1.ifs := by
  refine (C86_interfaces f n).2.2.imp ?_
  rintro i i' ⟨_, _, _, h, _⟩
  cases hm : i.mtu with
  | none =>
    cases hm' : i'.mtu with
    | none => rfl
    | some m => have := ((h m).mp hm').1; rw [hm] at this; cases this
  | some m =>
    cases hm' : i'.mtu with
    | some m' =>
      have := ((h m').mp hm').1
      rw [hm] at this
      cases this
      rfl
    | none =>
      have : SystemMtu f n m := by
        apply Classical.byContradiction
        intro hn
        have := (h m).mpr ⟨hm, hn⟩
        rw [hm'] at this
        cases this
      rw [this.2]
      rfl

/-- `a` with every `@` replaced with a dot -/
def DotName (a b : String) : Prop := b.toList = a.toList.map (fun c => if c = '@' then '.' else c)

/-- **C86** (configuration files of daemons).  Exactly the files used for the device, a module or a configuration template of the node stay,
apart from internal ones that always stay. -/
theorem C86_daemon_config (device : String) (modules config : List String) (d : List (String × α)) :
    (ncDaemon device modules config d).Sublist d ∧
    ∀ p, p ∈ ncDaemon device modules config d ↔ p ∈ d ∧ ((∃ r, p.1.toList = '_' :: r) ∨ ∃ k, DotName p.1 k ∧ (k = device ∨ k ∈ modules ∨ k ∈ config)) := by
  unfold ncDaemon
  refine ⟨List.filter_sublist, fun p => ?_⟩
  rw [List.mem_filter]
  have h1 : (p.1.toList.head? == some '_') = true ↔ ∃ r, p.1.toList = '_' :: r := by
    cases p.1.toList with
    | nil => simp
    | cons c r => simp
  have h2 : ∀ k, DotName p.1 k ↔ k = ncDot p.1 := by
    intro k
    unfold DotName ncDot
    constructor
    · intro h; rw [← h, String.ofList_toList]
    · intro h; rw [h, String.toList_ofList]
  simp only [Bool.or_eq_true, h1, beq_iff_eq, List.contains_iff_mem, h2]
  constructor
  · rintro ⟨hm, ((h | h) | h) | h⟩
    · exact ⟨hm, .inl h⟩
    · exact ⟨hm, .inr ⟨_, rfl, .inl h⟩⟩
    · exact ⟨hm, .inr ⟨_, rfl, .inr (.inl h)⟩⟩
    · exact ⟨hm, .inr ⟨_, rfl, .inr (.inr h)⟩⟩
  · rintro ⟨hm, h | ⟨k, rfl, h | h | h⟩⟩
    · exact ⟨hm, .inl (.inl (.inl h))⟩
    · exact ⟨hm, .inl (.inl (.inr h))⟩
    · exact ⟨hm, .inl (.inr h)⟩
    · exact ⟨hm, .inr h⟩

/-- A node with system MTU 1500 and an interface with MTU 1000 -/
def ncSample : NcNode Unit := ⟨some 1500, true, [⟨"eth1", some 1500, true, false, ()⟩, ⟨"eth2", some 1000, false, false, ()⟩]⟩

example : ncClean { system := true, minPhy := some 1200, minMtu := some 68, maxMtu := some 9000 } ncSample =
    (⟨some 1500, true, [⟨"eth1", none, true, false, ()⟩, ⟨"eth2", some 1000, false, true, ()⟩]⟩, 0) := by decide +kernel

example : (ncClean { minMtu := some 1100 } ncSample).2 = 1 := by decide +kernel

example : ncDaemon "bird" ["bgp"] ["ebgp.utils"] [("bird", 1), ("ospf", 2), ("bgp", 3), ("ebgp@utils", 4), ("_x", 5)] = [("bird", 1), ("bgp", 3), ("ebgp@utils", 4), ("_x", 5)] := by
  decide +kernel

/-- **C86** (IPv6).  When IPv6 is in the address families of a node with IPv6 interfaces, an accepted node has no IPv6 interface with a configured MTU
below 1280, and no MTU outside of the limits of the device. -/
theorem C86_limits (f : NcFeat) (n : NcNode α) (h : (ncClean f n).2 = 0) (h6 : ∀ i ∈ n.ifs, i.ipv6 = true → n.ipv6 = true) :
    ∀ i ∈ n.ifs, ∀ m, i.mtu = some m → MtuOk f i.ipv6 m := by
  intro i hi m hm
  obtain ⟨_, hs, hif⟩ := (C86_accepted_iff f n).mp h
  by_cases hsm : SystemMtu f n m
  · obtain ⟨⟨a, b, c⟩, _⟩ := hs m hsm
    exact ⟨a, b, fun h => c (h6 i hi h)⟩
  · exact hif i hi m hm hsm

end Netlab
