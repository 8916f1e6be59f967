import Verif.Model.HostRoutes
import Verif.Spec.HostRoutes
import Verif.Props.StaticRoutes
/-!
# Default routes of hosts (C132)
-/

namespace Netlab
open Spec

/-! ### Address families -/

/-- Interfaces that are DHCP clients in the address family. -/
theorem hrScanIntf_spec (af : Bool) (ifs : List HrIntf) (l : List Bool) (hn : l.Nodup) (hm : af ∈ l) :
    hrScanIntf af ifs l =
      if (ifs.filter (fun i => !i.relay && (i.client.get af).isSome)).length ≤ 1 then
        some (if (ifs.filter (fun i => !i.relay && (i.client.get af).isSome)).length = 0 then l else l.erase af)
      else none := by
  have h2 : ∀ ifs' l', af ∉ l' → hrScanIntf af ifs' l' =
      if (ifs'.filter (fun i => !i.relay && (i.client.get af).isSome)).length = 0 then some l' else none := by
    intro ifs' l' hl'
    induction ifs' with
    | nil => rfl
    | cons i rest ih =>
      unfold hrScanIntf
      by_cases h1 : i.relay = true
      · rw [if_pos h1, ih, List.filter_cons_of_neg (by simp [h1])]
      · rw [if_neg h1]
        by_cases h3 : (i.client.get af).isSome = true
        · rw [if_pos h3, List.filter_cons_of_pos (by simp [h1, h3])]
          simp [hrRemove, hl']
        · rw [if_neg h3, ih, List.filter_cons_of_neg (by simp [h3])]
  induction ifs with
  | nil => rfl
  | cons i rest ih =>
    unfold hrScanIntf
    by_cases h1 : i.relay = true
    · rw [if_pos h1, ih, List.filter_cons_of_neg (by simp [h1])]
    · rw [if_neg h1]
      by_cases h3 : (i.client.get af).isSome = true
      · rw [if_pos h3, List.filter_cons_of_pos (by simp [h1, h3])]
        have he : af ∉ l.erase af := fun h => hn.not_mem_erase h
        simp only [hrRemove, List.contains_iff_mem.mpr hm, if_true, Option.bind_some]
        rw [h2 _ _ he]
        simp only [List.length_cons]
        by_cases h4 : (rest.filter (fun i => !i.relay && (i.client.get af).isSome)).length = 0
        · rw [if_pos h4, if_pos (by omega), if_neg (by omega)]
        · rw [if_neg h4, if_neg (by omega)]
      · rw [if_neg h3, ih, List.filter_cons_of_neg (by simp [h3])]

theorem filter_length_zero {α : Type} {p : α → Bool} {l : List α} : (l.filter p).length = 0 ↔ ∀ x ∈ l, p x = false := by
  rw [List.length_eq_zero_iff, List.filter_eq_nil_iff]
  simp

/-- Number of DHCP clients in the address family. -/
theorem hrScanAf_spec (n : HrNode) (todo l : List Bool) (hn : l.Nodup) (ht : todo.Nodup) (hs : ∀ af ∈ todo, af ∈ l) :
    hrScanAf n todo l =
      if n.dhcpServer = true ∨
          ∀ af ∈ todo, (n.ifs.filter (fun i => !i.relay && (i.client.get af).isSome)).length ≤ 1 then
        some (l.filter (fun af => n.dhcpServer || !todo.contains af ||
          (n.ifs.filter (fun i => !i.relay && (i.client.get af).isSome)).length == 0))
      else none := by
  induction todo generalizing l with
  | nil => simp [hrScanAf]
  | cons af rest ih =>
    rw [List.nodup_cons] at ht
    unfold hrScanAf
    by_cases hsv : n.dhcpServer = true
    · rw [if_pos hsv, ih l hn ht.2 (fun x hx => hs x (by simp [hx]))]
      simp [hsv]
    · rw [if_neg hsv, hrScanIntf_spec af n.ifs l hn (hs af (by simp))]
      by_cases h1 : (n.ifs.filter (fun i => !i.relay && (i.client.get af).isSome)).length ≤ 1
      · rw [if_pos h1]
        simp only [Option.bind_some]
        have hrest : ∀ x ∈ rest, x ≠ af := fun x hx e => ht.1 (e ▸ hx)
        by_cases h0 : (n.ifs.filter (fun i => !i.relay && (i.client.get af).isSome)).length = 0
        · rw [if_pos h0, ih l hn ht.2 (fun x hx => hs x (by simp [hx]))]
          simp only [hsv]
          have e1 : (∀ x ∈ af :: rest, (n.ifs.filter (fun i => !i.relay && (i.client.get x).isSome)).length ≤ 1) ↔
              ∀ x ∈ rest, (n.ifs.filter (fun i => !i.relay && (i.client.get x).isSome)).length ≤ 1 := by
            rw [List.forall_mem_cons]
            exact ⟨fun h => h.2, fun h => ⟨h1, h⟩⟩
          simp only [Bool.false_eq_true, false_or, e1]
          congr 2
          apply List.filter_congr
          intro x _
          by_cases hx : x = af
          · subst hx
            simp [h0]
          · simp [hx]
        · rw [if_neg h0, ih (l.erase af) (hn.erase _) ht.2
            (fun x hx => (List.mem_erase_of_ne (hrest x hx)).mpr (hs x (by simp [hx])))]
          simp only [hsv]
          have e1 : (∀ x ∈ af :: rest, (n.ifs.filter (fun i => !i.relay && (i.client.get x).isSome)).length ≤ 1) ↔
              ∀ x ∈ rest, (n.ifs.filter (fun i => !i.relay && (i.client.get x).isSome)).length ≤ 1 := by
            rw [List.forall_mem_cons]
            exact ⟨fun h => h.2, fun h => ⟨h1, h⟩⟩
          simp only [Bool.false_eq_true, false_or, e1]
          congr 2
          rw [hn.erase_eq_filter, List.filter_filter]
          apply List.filter_congr
          intro x _
          by_cases hx : x = af
          · subst hx
            simp [h0]
          · simp [hx]
      · rw [if_neg h1]
        simp only [Option.bind_none, hsv, Bool.false_eq_true, false_or]
        rw [if_neg (fun h => h1 (h af (by simp)))]

/-- The number of interfaces that are DHCP clients. -/
theorem clients_zero {n : HrNode} {af : Bool} :
    (n.ifs.filter (fun i => !i.relay && (i.client.get af).isSome)).length = 0 ↔ ∀ i ∈ n.ifs, ¬ UsesDhcp i af := by
  rw [filter_length_zero]
  unfold UsesDhcp
  constructor
  · intro h i hi hu
    have := h i hi
    simp [hu.1, hu.2] at this
  · intro h i hi
    have := h i hi
    cases hr : i.relay with
    | true => rfl
    | false =>
      rw [hr] at this
      simp at this
      simp [this]

theorem mem_hrAfs {n : HrNode} {af : Bool} : af ∈ hrAfs n ↔ af ∈ n.afs ∧ (af = true → n.useRa = false) := by
  unfold hrAfs
  rw [List.mem_filter]
  cases af <;> simp

/-- Two interfaces of the host are DHCP clients in an address family of the host. -/
theorem hrNode_spec (dhcp : Bool) (sr : List SrRoute) (n : HrNode) (hn : n.afs.Nodup) :
    hrNode dhcp sr n =
      if n.host = true ∧ n.static = [] then
        if dhcp = true ∧ n.dhcpServer = false ∧
            ∃ af ∈ hrAfs n, 2 ≤ (n.ifs.filter (fun i => !i.relay && (i.client.get af).isSome)).length then none
        else
          let l := (hrAfs n).filter (fun af => !dhcp || n.dhcpServer ||
            (n.ifs.filter (fun i => !i.relay && (i.client.get af).isSome)).length == 0)
          if l = [] then some (n, false)
          else some ({ n with static := hostRoutes l sr, modules := hrAppend n.modules "routing" }, true)
      else some (n, false) := by
  unfold hrNode
  by_cases h1 : n.host = true
  · rw [if_neg (by simp [h1])]
    by_cases h2 : n.static = []
    · rw [if_neg (by simp [h2]), if_pos (show n.host = true ∧ n.static = [] from ⟨h1, h2⟩)]
      have hnd : (hrAfs n).Nodup := hn.filter _
      cases dhcp with
      | false =>
        simp only [Bool.false_eq_true, if_false, false_and, Bool.not_false, Bool.true_or, List.filter_true]
        cases h3 : hrAfs n <;> simp
      | true =>
        simp only [if_true, Bool.not_true, Bool.false_or, true_and]
        rw [hrScanAf_spec n _ _ hnd hnd (fun _ h => h)]
        have e2 : (hrAfs n).filter (fun af => n.dhcpServer || !(hrAfs n).contains af ||
              (n.ifs.filter (fun i => !i.relay && (i.client.get af).isSome)).length == 0) =
            (hrAfs n).filter (fun af => n.dhcpServer ||
              (n.ifs.filter (fun i => !i.relay && (i.client.get af).isSome)).length == 0) := by
          apply List.filter_congr
          intro x hx
          simp [hx]
        rw [e2]
        by_cases h4 : n.dhcpServer = true ∨
            ∀ af ∈ hrAfs n, (n.ifs.filter (fun i => !i.relay && (i.client.get af).isSome)).length ≤ 1
        · rw [if_pos h4, if_neg (c := n.dhcpServer = false ∧ _)]
          · generalize (hrAfs n).filter _ = l
            cases l <;> simp
          · rintro ⟨a, af, haf, hl⟩
            rcases h4 with h4 | h4
            · rw [a] at h4; cases h4
            · have := h4 af haf
              omega
        · rw [if_neg h4, if_pos (c := n.dhcpServer = false ∧ _)]
          rw [not_or] at h4
          refine ⟨by simpa using h4.1, ?_⟩
          have := h4.2
          simp only [Classical.not_forall] at this
          obtain ⟨af, haf, hl⟩ := this
          exact ⟨af, haf, by omega⟩
    · rw [if_pos (by cases hs : n.static <;> simp_all), if_neg (fun h => h2 h.2)]
  · rw [if_pos (by simp [h1]), if_neg (fun h => h1 h.1)]

theorem mem_hrAppend {l : List String} {x y : String} : y ∈ hrAppend l x ↔ y ∈ l ∨ y = x := by
  unfold hrAppend
  by_cases h : l.contains x = true
  · rw [if_pos h]
    rw [List.contains_iff_mem] at h
    constructor
    · exact Or.inl
    · rintro (h2 | rfl)
      · exact h2
      · exact h
  · rw [if_neg h]
    simp

theorem hrAppend_dhcp (l : List String) : (hrAppend l "routing").contains "dhcp" = l.contains "dhcp" := by
  rw [Bool.eq_iff_iff, List.contains_iff_mem, List.contains_iff_mem, mem_hrAppend]
  simp

theorem two_positions {α : Type} {p : α → Bool} {l : List α} :
    2 ≤ (l.filter p).length ↔ ∃ (j k : Nat), ∃ a b, j < k ∧ l[j]? = some a ∧ l[k]? = some b ∧ p a = true ∧ p b = true := by
  induction l with
  | nil => simp
  | cons x rest ih =>
    constructor
    · intro h
      by_cases hx : p x = true
      · rw [List.filter_cons_of_pos hx, List.length_cons] at h
        have h1 : 0 < (rest.filter p).length := by omega
        obtain ⟨b, hb⟩ := List.exists_mem_of_length_pos h1
        obtain ⟨hb1, hb2⟩ := List.mem_filter.mp hb
        obtain ⟨k, hk⟩ := List.mem_iff_getElem?.mp hb1
        exact ⟨0, k + 1, x, b, by omega, by simp, by simpa using hk, hx, hb2⟩
      · rw [List.filter_cons_of_neg hx] at h
        obtain ⟨j, k, a, b, h1, h2, h3, h4, h5⟩ := ih.mp h
        exact ⟨j + 1, k + 1, a, b, by omega, by simpa using h2, by simpa using h3, h4, h5⟩
    · rintro ⟨j, k, a, b, h1, h2, h3, h4, h5⟩
      cases k with
      | zero => omega
      | succ k =>
        simp only [List.getElem?_cons_succ] at h3
        cases j with
        | zero =>
          simp only [List.getElem?_cons_zero, Option.some.injEq] at h2
          subst h2
          rw [List.filter_cons_of_pos h4, List.length_cons]
          have : b ∈ rest.filter p := List.mem_filter.mpr ⟨List.mem_of_getElem? h3, h5⟩
          have := List.length_pos_of_mem this
          omega
        | succ j =>
          simp only [List.getElem?_cons_succ] at h2
          have := ih.mpr ⟨j, k, a, b, by omega, h2, h3, h4, h5⟩
          by_cases hx : p x = true
          · rw [List.filter_cons_of_pos hx, List.length_cons]; omega
          · rw [List.filter_cons_of_neg hx]; exact this

theorem hrNodes_none (sr : List SrRoute) (mods : List String) (nodes : List HrNode) :
    hrNodes sr mods nodes = none ↔ ∃ n ∈ nodes, hrNode (mods.contains "dhcp") sr n = none := by
  induction nodes generalizing mods with
  | nil => simp [hrNodes]
  | cons n rest ih =>
    unfold hrNodes
    rw [List.exists_mem_cons_iff]
    cases hx : hrNode (mods.contains "dhcp") sr n with
    | none => simp
    | some y =>
      obtain ⟨n', added⟩ := y
      have e : (if added = true then hrAppend mods "routing" else mods).contains "dhcp" = mods.contains "dhcp" := by
        cases added
        · rfl
        · exact hrAppend_dhcp mods
      have := ih (if added = true then hrAppend mods "routing" else mods)
      rw [e] at this
      simp only [reduceCtorEq, false_or]
      rw [← this]
      cases hrNodes sr (if added = true then hrAppend mods "routing" else mods) rest <;> simp

theorem hrNodes_some {sr : List SrRoute} {mods : List String} {nodes l : List HrNode} {m : List String}
    (h : hrNodes sr mods nodes = some (l, m)) :
    List.Forall₂ (fun n n' => ∃ b, hrNode (mods.contains "dhcp") sr n = some (n', b)) nodes l ∧
      (∀ x, x ∈ m ↔ x ∈ mods ∨ x = "routing" ∧ ∃ n ∈ nodes, ∃ n', hrNode (mods.contains "dhcp") sr n = some (n', true)) := by
  induction nodes generalizing mods l m with
  | nil =>
    simp only [hrNodes, Option.some.injEq, Prod.mk.injEq] at h
    obtain ⟨rfl, rfl⟩ := h
    exact ⟨.nil, by simp⟩
  | cons n rest ih =>
    unfold hrNodes at h
    cases hx : hrNode (mods.contains "dhcp") sr n with
    | none => rw [hx] at h; cases h
    | some y =>
      obtain ⟨n', added⟩ := y
      rw [hx] at h
      simp only at h
      cases hy : hrNodes sr (if added = true then hrAppend mods "routing" else mods) rest with
      | none => rw [hy] at h; cases h
      | some z =>
        obtain ⟨l', m'⟩ := z
        rw [hy] at h
        simp only [Option.some.injEq, Prod.mk.injEq] at h
        obtain ⟨rfl, rfl⟩ := h
        have e : (if added = true then hrAppend mods "routing" else mods).contains "dhcp" = mods.contains "dhcp" := by
          cases added
          · rfl
          · exact hrAppend_dhcp mods
        obtain ⟨i1, i2⟩ := ih hy
        rw [e] at i1 i2
        refine ⟨.cons ⟨added, hx⟩ i1, ?_⟩
        intro x
        rw [i2 x, List.exists_mem_cons_iff]
        cases added with
        | false => simp only [hx, Bool.false_eq_true, if_false, Option.some.injEq, Prod.mk.injEq, and_false, exists_false, false_or]
        | true =>
          simp only [if_true, mem_hrAppend, hx]
          constructor
          · rintro ((h | rfl) | ⟨h1, h2⟩)
            · exact Or.inl h
            · exact Or.inr ⟨rfl, Or.inl ⟨n', rfl⟩⟩
            · exact Or.inr ⟨h1, Or.inr h2⟩
          · rintro (h | ⟨h1, _⟩)
            · exact Or.inl (Or.inl h)
            · exact Or.inl (Or.inr h1)

/-! ### C132: hosts with default routes -/

/-- C132: a host without its own static routes gets the routes in the address families in which it needs them and no others;
all other nodes stay as they were. -/
theorem C132_hosts {user : Option (List SrRoute)} {pools : List (String × Dual String)} {mods : List String}
    {nodes l : List HrNode} {m : List String} (hn : ∀ n ∈ nodes, n.afs.Nodup)
    (h : addHostRoutes user pools mods nodes = some (l, m)) :
    List.Forall₂ (HostRoutesOf (mods.contains "dhcp") (user.getD (defaultRoutes pools))) nodes l ∧
    ∀ x, x ∈ m ↔ x ∈ mods ∨ x = "routing" ∧ ∃ n ∈ nodes, GetsRoutes (mods.contains "dhcp") n := by
  unfold addHostRoutes at h
  obtain ⟨h1, h2⟩ := hrNodes_some h
  have hneeds : ∀ n af, af ∈ (hrAfs n).filter (fun af => !(mods.contains "dhcp") || n.dhcpServer ||
      (n.ifs.filter (fun i => !i.relay && (i.client.get af).isSome)).length == 0) ↔
      NeedsRoutes (mods.contains "dhcp") n af := by
    intro n af
    rw [List.mem_filter, mem_hrAfs]
    constructor
    · rintro ⟨⟨a, b⟩, c⟩
      refine ⟨a, b, ?_⟩
      intro d e
      rw [d, e] at c
      simp only [Bool.not_true, Bool.false_or, beq_iff_eq] at c
      exact clients_zero.mp c
    · rintro ⟨a, b, c⟩
      refine ⟨⟨a, b⟩, ?_⟩
      cases hd : mods.contains "dhcp" with
      | false => rfl
      | true =>
        cases hs : n.dhcpServer with
        | true => rfl
        | false =>
          simp only [Bool.not_true, Bool.false_or, beq_iff_eq]
          exact clients_zero.mpr (c hd hs)
  have hempty : ∀ n, (hrAfs n).filter (fun af => !(mods.contains "dhcp") || n.dhcpServer ||
      (n.ifs.filter (fun i => !i.relay && (i.client.get af).isSome)).length == 0) = [] ↔
      ¬ ∃ af, NeedsRoutes (mods.contains "dhcp") n af := by
    intro n
    rw [List.eq_nil_iff_forall_not_mem]
    simp only [hneeds, not_exists]
  have key : ∀ n ∈ nodes, ∀ n' b, hrNode (mods.contains "dhcp") (user.getD (defaultRoutes pools)) n = some (n', b) →
      (b = true ↔ GetsRoutes (mods.contains "dhcp") n) ∧
      HostRoutesOf (mods.contains "dhcp") (user.getD (defaultRoutes pools)) n n' := by
    intro n hnm n' b hb
    rw [hrNode_spec _ _ _ (hn n hnm)] at hb
    by_cases c1 : n.host = true ∧ n.static = []
    · rw [if_pos c1] at hb
      split at hb
      · cases hb
      · simp only at hb
        by_cases c2 : ∃ af, NeedsRoutes (mods.contains "dhcp") n af
        · rw [if_neg (fun e => (hempty n).mp e c2)] at hb
          simp only [Option.some.injEq, Prod.mk.injEq] at hb
          obtain ⟨rfl, rfl⟩ := hb
          refine ⟨⟨fun _ => ⟨c1.1, c1.2, c2⟩, fun _ => rfl⟩, ?_⟩
          refine ⟨?_, fun _ x => mem_hrAppend, rfl, fun hx => absurd ⟨c1.1, c1.2, c2⟩ hx⟩
          intro _ r
          simp only
          rw [C61_host_routes]
          simp only [hneeds]
        · rw [if_pos ((hempty n).mpr c2)] at hb
          simp only [Option.some.injEq, Prod.mk.injEq] at hb
          obtain ⟨rfl, rfl⟩ := hb
          exact ⟨⟨fun h => (by cases h), fun h => absurd h.2.2 c2⟩, fun h => absurd h.2.2 c2, fun h => absurd h.2.2 c2, rfl,
            fun _ => rfl⟩
    · rw [if_neg c1] at hb
      simp only [Option.some.injEq, Prod.mk.injEq] at hb
      obtain ⟨rfl, rfl⟩ := hb
      exact ⟨⟨fun h => (by cases h), fun h => absurd ⟨h.1, h.2.1⟩ c1⟩, fun h => absurd ⟨h.1, h.2.1⟩ c1,
        fun h => absurd ⟨h.1, h.2.1⟩ c1, rfl, fun _ => rfl⟩
  constructor
  · have : ∀ (a b : List HrNode), (∀ n ∈ a, n ∈ nodes) →
        List.Forall₂ (fun n n' => ∃ b, hrNode (mods.contains "dhcp") (user.getD (defaultRoutes pools)) n = some (n', b)) a b →
        List.Forall₂ (HostRoutesOf (mods.contains "dhcp") (user.getD (defaultRoutes pools))) a b := by
      intro a b ha hab
      induction hab with
      | nil => exact .nil
      | cons hh _ ih =>
        obtain ⟨b, hb⟩ := hh
        exact .cons (key _ (ha _ (by simp)) _ b hb).2 (ih (fun n hn => ha n (by simp [hn])))
    exact this nodes l (fun _ h => h) h1
  · intro x
    rw [h2 x]
    have e : (∃ n ∈ nodes, ∃ n', hrNode (mods.contains "dhcp") (user.getD (defaultRoutes pools)) n = some (n', true)) ↔
        ∃ n ∈ nodes, GetsRoutes (mods.contains "dhcp") n := by
      constructor
      · rintro ⟨n, hnm, n', hb⟩
        exact ⟨n, hnm, (key n hnm n' true hb).1.mp rfl⟩
      · rintro ⟨n, hnm, hc⟩
        have hne : hrNode (mods.contains "dhcp") (user.getD (defaultRoutes pools)) n ≠ none := by
          intro hno
          have := (hrNodes_none (user.getD (defaultRoutes pools)) mods nodes).mpr ⟨n, hnm, hno⟩
          rw [h] at this
          cases this
        cases hb : hrNode (mods.contains "dhcp") (user.getD (defaultRoutes pools)) n with
        | none => exact absurd hb hne
        | some y =>
          obtain ⟨n', b⟩ := y
          have := (key n hnm n' b hb).1.mpr hc
          subst this
          exact ⟨n, hnm, n', hb⟩
    rw [e]

/-- C132 (defect): the program fails exactly when the DHCP module is used and a host (not a DHCP server, without its own static
routes) has two interfaces that are DHCP clients in the same address family (unless it is IPv6 on a device listening to router
advertisements). -/
theorem C132_crash {user : Option (List SrRoute)} {pools : List (String × Dual String)} {mods : List String}
    {nodes : List HrNode} (hn : ∀ n ∈ nodes, n.afs.Nodup) :
    addHostRoutes user pools mods nodes = none ↔
      "dhcp" ∈ mods ∧ ∃ n ∈ nodes, n.host = true ∧ n.static = [] ∧ n.dhcpServer = false ∧
        ∃ af ∈ n.afs, (af = true → n.useRa = false) ∧
          ∃ (j k : Nat), ∃ a b, j < k ∧ n.ifs[j]? = some a ∧ n.ifs[k]? = some b ∧ UsesDhcp a af ∧ UsesDhcp b af := by
  unfold addHostRoutes
  rw [hrNodes_none]
  have hu : ∀ (i : HrIntf) af, (!i.relay && (i.client.get af).isSome) = true ↔ UsesDhcp i af := by
    intro i af
    unfold UsesDhcp
    simp
  constructor
  · rintro ⟨n, hnm, h⟩
    rw [hrNode_spec _ _ _ (hn n hnm)] at h
    by_cases c1 : n.host = true ∧ n.static = []
    · rw [if_pos c1] at h
      split at h
      · rename_i h3
        obtain ⟨h4, h5, af, haf, h6⟩ := h3
        obtain ⟨j, k, a, b, hjk, ha, hb, hpa, hpb⟩ := two_positions.mp h6
        obtain ⟨h7, h8⟩ := mem_hrAfs.mp haf
        exact ⟨List.contains_iff_mem.mp h4, n, hnm, c1.1, c1.2, h5, af, h7, h8, j, k, a, b, hjk, ha, hb,
          (hu a af).mp hpa, (hu b af).mp hpb⟩
      · simp only at h
        split at h <;> cases h
    · rw [if_neg c1] at h
      cases h
  · rintro ⟨h4, n, hnm, c1, c2, h5, af, h7, h8, j, k, a, b, hjk, ha, hb, hpa, hpb⟩
    refine ⟨n, hnm, ?_⟩
    rw [hrNode_spec _ _ _ (hn n hnm), if_pos ⟨c1, c2⟩, if_pos]
    exact ⟨List.contains_iff_mem.mpr h4, h5, af, mem_hrAfs.mpr ⟨h7, h8⟩,
      two_positions.mpr ⟨j, k, a, b, hjk, ha, hb, (hu a af).mpr hpa, (hu b af).mpr hpb⟩⟩

/-! ### Gateways -/

theorem nexthopData_has {env : SrEnv} {n : SrNext} {g : Dual SrAddr} {i : SrIntf} {af : Bool} :
    (∃ e ∈ (nexthopData n (hostAddrs env g) i).toList, (e.addr.get af).isSome) ↔ ∃ s, g.get af = some (.str s) := by
  constructor
  · rintro ⟨e, he, hs⟩
    rw [Option.mem_toList] at he
    obtain ⟨_, rfl⟩ := nexthopData_spec.mp he
    obtain ⟨a, ha⟩ := Option.isSome_iff_exists.mp hs
    obtain ⟨t, ht, _⟩ := get_hostAddrs.mp (get_strAddrs.mp ha)
    exact ⟨t, ht⟩
  · rintro ⟨s, hs⟩
    have h1 : (hostAddrs env g).get af = some (.str (env.host s)) := get_hostAddrs.mpr ⟨s, hs, rfl⟩
    refine ⟨⟨strAddrs (hostAddrs env g), i.name, n.vrf⟩, ?_, ?_⟩
    · rw [Option.mem_toList]
      exact nexthopData_spec.mpr ⟨⟨af, _, h1⟩, rfl⟩
    · exact Option.isSome_iff_exists.mpr ⟨_, get_strAddrs.mpr h1⟩

theorem lastResortAf_str {env : SrEnv} {i : SrIntf} {af : Bool} {a : SrAddr} (h : lastResortAf env i af = some a) :
    ∃ s, a = .str s := by
  unfold lastResortAf at h
  obtain ⟨m, _, hm⟩ := List.exists_of_findSome?_eq_some h
  split at hm
  · cases hm
  · split at hm
    · split at hm
      · cases hm
      · exact ⟨_, (Option.some.inj hm).symm⟩
    · cases hm

theorem lastResortAf_some {env : SrEnv} {i : SrIntf} {af : Bool} : (lastResortAf env i af).isSome ↔ RouterOn env i af := by
  unfold lastResortAf RouterOn
  rw [List.findSome?_isSome_iff]
  constructor
  · rintro ⟨m, hm, h⟩
    refine ⟨m, hm, ?_⟩
    split at h
    · cases h
    · rename_i h1
      split at h
      · rename_i s hs
        split at h
        · cases h
        · rename_i h2
          exact ⟨by simpa using h1, by simpa using h2, s, hs⟩
      · cases h
  · rintro ⟨m, hm, h1, h2, s, hs⟩
    refine ⟨m, hm, ?_⟩
    rw [if_neg (by simp [h1]), hs]
    simp [h2]

theorem gatewayLoop_has (env : SrEnv) (r : SrRoute) (n : SrNext) (create : Bool) (ifs : List SrIntf) (m : List Bool)
    (af : Bool) :
    (∃ e ∈ (gatewayLoop env r n create ifs m).2, (e.addr.get af).isSome) ↔
      (∃ i ∈ ifs, i.vrf = r.nhVrf n ∧ ∃ g s, gatewayOf i = some g ∧ g.get af = some (.str s)) ∨
      (create = true ∧ af ∈ m ∧ ∃ i ∈ ifs, i.vrf = r.nhVrf n ∧ gatewayOf i = none ∧ RouterOn env i af) := by
  induction ifs generalizing m with
  | nil => simp [gatewayLoop]
  | cons i rest ih =>
    unfold gatewayLoop
    simp only [List.exists_mem_cons_iff]
    by_cases hv : i.vrf = r.nhVrf n
    · rw [if_neg (by simp [hv])]
      cases hg : gatewayOf i with
      | some g =>
        simp only [List.mem_append, or_and_right, exists_or]
        rw [nexthopData_has, ih]
        simp [hv, or_assoc]
      | none =>
        simp only
        by_cases hc : (create && !(lastResort env i m).isEmpty) = true
        · rw [if_pos hc]
          simp only [List.mem_append, or_and_right, exists_or]
          rw [nexthopData_has, ih]
          have hcr : create = true := by
            simp only [Bool.and_eq_true] at hc
            exact hc.1
          have hl : (∃ s, (lastResort env i m).get af = some (.str s)) ↔ af ∈ m ∧ RouterOn env i af := by
            simp only [lastResort, Dual.get_of, List.contains_iff_mem]
            by_cases hm : af ∈ m
            · rw [if_pos hm, ← lastResortAf_some]
              simp only [hm, true_and]
              constructor
              · rintro ⟨s, hs⟩
                rw [hs]
                rfl
              · intro h
                obtain ⟨a, ha⟩ := Option.isSome_iff_exists.mp h
                obtain ⟨s, rfl⟩ := lastResortAf_str ha
                exact ⟨s, ha⟩
            · rw [if_neg hm]
              simp [hm]
          have hm2 : af ∈ m.filter (fun f => ((lastResort env i m).get f).isNone) ↔ af ∈ m ∧ ¬ RouterOn env i af := by
            rw [List.mem_filter]
            constructor
            · rintro ⟨h1, h2⟩
              refine ⟨h1, fun h3 => ?_⟩
              obtain ⟨s, hs⟩ := hl.mpr ⟨h1, h3⟩
              rw [hs] at h2
              cases h2
            · rintro ⟨h1, h2⟩
              refine ⟨h1, ?_⟩
              cases hx : (lastResort env i m).get af with
              | none => rfl
              | some a =>
                simp only [lastResort, Dual.get_of] at hx
                split at hx
                · exact absurd (lastResortAf_some.mp (by rw [hx]; rfl)) h2
                · cases hx
          rw [hl, hm2]
          simp only [hcr, hv, true_and, reduceCtorEq, false_and, exists_false, false_or]
          rcases Classical.em (RouterOn env i af) with hR | hR
          · simp only [hR, and_true, not_true_eq_false, and_false, false_and, or_false, true_or]
            exact or_comm
          · simp only [hR, and_false, false_or, not_false_eq_true, and_true]
        · rw [if_neg hc]
          simp only
          rw [ih]
          have : create = true → af ∈ m → ¬ RouterOn env i af := by
            intro h1 h2 h3
            rw [h1] at hc
            simp only [Bool.true_and, Bool.not_eq_true', Bool.not_eq_false] at hc
            have h4 := (Dual.isEmpty_iff _).mp hc af
            simp only [lastResort, Dual.get_of, List.contains_iff_mem] at h4
            rw [if_pos h2] at h4
            have h5 := lastResortAf_some.mpr h3
            rw [h4] at h5
            cases h5
          simp only [hv, true_and, reduceCtorEq, false_and, exists_false, false_or]
          constructor
          · rintro (h | ⟨h1, h2, h3⟩)
            · exact Or.inl h
            · exact Or.inr ⟨h1, h2, Or.inr h3⟩
          · rintro (h | ⟨h1, h2, h3 | h3⟩)
            · exact Or.inl h
            · exact absurd h3 (this h1 h2)
            · exact Or.inr ⟨h1, h2, h3⟩
    · rw [if_pos hv]
      simp only
      rw [ih]
      simp [hv]

theorem gatewayLoop_nonempty {env : SrEnv} {r : SrRoute} {n : SrNext} {create : Bool} {ifs : List SrIntf} {m : List Bool} :
    ∀ e ∈ (gatewayLoop env r n create ifs m).2, ∃ af, (e.addr.get af).isSome := by
  have key : ∀ (g : Dual SrAddr) (i : SrIntf), ∀ e ∈ (nexthopData n (hostAddrs env g) i).toList, ∃ af, (e.addr.get af).isSome := by
    intro g i e he
    rw [Option.mem_toList] at he
    obtain ⟨⟨af, s, hs⟩, rfl⟩ := nexthopData_spec.mp he
    exact ⟨af, Option.isSome_iff_exists.mpr ⟨s, get_strAddrs.mpr hs⟩⟩
  induction ifs generalizing m with
  | nil => simp [gatewayLoop]
  | cons i rest ih =>
    unfold gatewayLoop
    split
    · exact ih
    · split
      · intro e he
        rcases List.mem_append.mp he with h | h
        · exact key _ _ e h
        · exact ih e h
      · simp only
        split
        · intro e he
          rcases List.mem_append.mp he with h | h
          · exact key _ _ e h
          · exact ih e h
        · exact ih

theorem gatewayLoop_cache (env : SrEnv) (r : SrRoute) (n : SrNext) (ifs : List SrIntf) (m : List Bool) :
    (gatewayLoop env r n false ifs m).1 =
      ifs.map (fun i => { i with gateway := if i.vrf = r.nhVrf n then gatewayOf i else i.gateway }) := by
  induction ifs generalizing m with
  | nil => rfl
  | cons i rest ih =>
    unfold gatewayLoop
    rw [List.map_cons]
    by_cases hv : i.vrf = r.nhVrf n
    · rw [if_neg (by simp [hv])]
      cases hg : gatewayOf i with
      | some g => simp [ih, hv]
      | none =>
        have : i.gateway = none := by
          unfold gatewayOf at hg
          cases hx : i.gateway with
          | none => rfl
          | some y => rw [hx] at hg; cases hg
        simp [ih, hv]
        rw [← this, ← hv]
    · rw [if_pos hv]
      simp [ih, hv]

theorem gatewayOf_cached (i : SrIntf) : gatewayOf { i with gateway := gatewayOf i } = gatewayOf i := by
  unfold gatewayOf
  cases i.gateway with
  | some g => rfl
  | none =>
    simp only
    cases i.neighbors.findSome? (·.gateway) <;> rfl

theorem gatewayOf_some {i : SrIntf} {g : Dual SrAddr} : gatewayOf i = some g ↔ GwConfigured i g := by
  unfold gatewayOf GwConfigured
  cases i.gateway with
  | some x => simp
  | none =>
    simp only [reduceCtorEq, false_or, true_and]
    rw [List.findSome?_eq_some_iff]
    constructor
    · rintro ⟨l, m, r, h1, h2, h3⟩
      exact ⟨l, m, r, h1, h3, h2⟩
    · rintro ⟨l, m, r, h1, h2, h3⟩
      exact ⟨l, m, r, h1, h3, h2⟩

theorem gatewayOf_none {i : SrIntf} : gatewayOf i = none ↔ NoGateway i := by
  unfold gatewayOf NoGateway
  cases i.gateway with
  | some x => simp
  | none => simp [List.findSome?_eq_none_iff]

/-- The next hops found for an address family. -/
theorem resolveGateway_has (env : SrEnv) (r : SrRoute) (n : SrNext) (hv : r.nhVrf n = none) (ifs : List SrIntf) (af : Bool) :
    (∃ e ∈ (resolveGateway env r n ifs).2.nhlist, (e.addr.get af).isSome) ↔ HasGateway env ifs af := by
  have hconf : ∀ f, (∃ e ∈ (gatewayLoop env r n false ifs env.nodeAf).2, (e.addr.get f).isSome) ↔ HasConfigured ifs f := by
    intro f
    rw [gatewayLoop_has]
    simp only [Bool.false_eq_true, false_and, or_false, hv, gatewayOf_some, HasConfigured]
  unfold resolveGateway HasGateway
  simp only
  by_cases he : (gatewayLoop env r n false ifs env.nodeAf).2.isEmpty = true
  · rw [if_pos he]
    have he2 : (gatewayLoop env r n false ifs env.nodeAf).2 = [] := List.isEmpty_iff.mp he
    have hno : ∀ f, ¬ HasConfigured ifs f := by
      intro f hf
      obtain ⟨e, hem, _⟩ := (hconf f).mpr hf
      rw [he2] at hem
      cases hem
    simp only
    rw [gatewayLoop_has, gatewayLoop_cache]
    have e1 : ∀ (P : SrIntf → Prop), (∃ i ∈ ifs.map (fun i => { i with gateway := if i.vrf = r.nhVrf n then gatewayOf i else i.gateway }),
        i.vrf = r.nhVrf n ∧ P i) ↔ ∃ i ∈ ifs, i.vrf = r.nhVrf n ∧ P { i with gateway := gatewayOf i } := by
      intro P
      constructor
      · rintro ⟨_, hj, hv, hP⟩
        obtain ⟨i, hi, rfl⟩ := List.mem_map.mp hj
        simp only at hv
        rw [if_pos hv] at hP
        exact ⟨i, hi, hv, hP⟩
      · rintro ⟨i, hi, hv, hP⟩
        refine ⟨_, List.mem_map.mpr ⟨i, hi, rfl⟩, hv, ?_⟩
        rw [if_pos hv]
        exact hP
    rw [e1, e1]
    have e2 : ∀ i : SrIntf, RouterOn env { i with gateway := gatewayOf i } af ↔ RouterOn env i af := fun i => Iff.rfl
    simp only [gatewayOf_cached, e2, gatewayOf_some, gatewayOf_none, hv]
    constructor
    · rintro (h | ⟨_, h1, h2⟩)
      · exact Or.inl h
      · exact Or.inr ⟨hno, h1, h2⟩
    · rintro (h | ⟨_, h1, h2⟩)
      · exact Or.inl h
      · exact Or.inr ⟨trivial, h1, h2⟩
  · rw [if_neg he]
    simp only
    rw [hconf]
    constructor
    · exact Or.inl
    · rintro (h | ⟨h, _⟩)
      · exact h
      · exfalso
        apply he
        rw [List.isEmpty_iff, List.eq_nil_iff_forall_not_mem]
        intro e hem
        obtain ⟨f, hf⟩ := gatewayLoop_nonempty e hem
        exact h f ((hconf f).mp ⟨e, hem, hf⟩)

theorem firstAddrs_isSome {l : List NhEntry} {af : Bool} (h : ∃ e ∈ l, (e.addr.get af).isSome) :
    ((asAddrs (firstAddrs l)).get af).isSome := by
  simp only [asAddrs, firstAddrs, Dual.get_of, Option.isSome_map]
  rw [List.findSome?_isSome_iff]
  exact h

/-- C132: a default route of a host is used if and only if the host has a gateway in its address family; otherwise it is removed
without an error. -/
theorem C132_gateway {env : SrEnv} (h0 : 0 < env.maxNexthop) {pools : List (String × Dual String)} {r : SrRoute}
    (hr : r ∈ defaultRoutes pools) (ifs : List SrIntf) :
    ∃ af p, r.dst.get af = some p ∧
      (HasGateway env ifs af → ∃ l, (checkRoute env ifs r).2 = .expand l ∧ ∃ f ∈ l, f.dst.get af = some p) ∧
      (¬ HasGateway env ifs af → (checkRoute env ifs r).2 = .skip) := by
  obtain ⟨name, d, af, a, _, _, _, _, rfl⟩ := (C61_default_routes pools r).mp hr
  refine ⟨af, a, by simp, ?_⟩
  have hd : (Dual.of (fun f => if f = af then some a else none)).isEmpty = false := by
    cases af <;> rfl
  generalize hR : (⟨Dual.of (fun f => if f = af then some a else none), none, some ⟨.gateway, none⟩, true⟩ : SrRoute) = R
  have hRd : R.dst.get af = some a := by rw [← hR]; simp
  have hRo : R.dst.get (!af) = none := by rw [← hR]; cases af <;> simp
  have hRs : R.skipMissing = true := by rw [← hR]
  have hRn : R.next = some ⟨.gateway, none⟩ := by rw [← hR]
  have hRv : R.vrf = none := by rw [← hR]
  have hc : (checkRoute env ifs R).2 = finishRoute env R ⟨.gateway, none⟩ (resolveGateway env R ⟨.gateway, none⟩ ifs).2 := by
    rw [← hR]
    unfold checkRoute
    rw [if_neg (by simp [hd])]
    rfl
  have hx := resolveGateway_addr env R ⟨.gateway, none⟩ ifs
  have hg := resolveGateway_has env R ⟨.gateway, none⟩ (by unfold SrRoute.nhVrf; exact hRv) ifs af
  generalize hX : (resolveGateway env R ⟨.gateway, none⟩ ifs).2 = X at hc hx hg
  have hcond : ([false, true].any (fun f => (R.dst.get f).isSome && (X.addr.get f).isNone)) = (X.addr.get af).isNone := by
    cases af
    · simp only [Bool.not_false] at hRo
      simp [List.any_cons, hRd, hRo]
    · simp only [Bool.not_true] at hRo
      simp [List.any_cons, hRd, hRo]
  constructor
  · intro hG
    have h1 := hg.mpr hG
    have h2 : (X.addr.get af).isSome := by
      rw [hx]
      exact firstAddrs_isSome h1
    have h3 : X.nhlist.isEmpty = false := by
      obtain ⟨e, he, _⟩ := h1
      cases hl : X.nhlist with
      | nil => rw [hl] at he; cases he
      | cons => rfl
    have he : (checkRoute env ifs R).2 = .expand (expandAf env R X.nhlist false ++ expandAf env R X.nhlist true) := by
      rw [hc]
      unfold finishRoute
      rw [if_neg (by rw [hcond]; cases hq : X.addr.get af <;> simp_all), if_neg (by simp [h3])]
    obtain ⟨f, hf, hfd, _⟩ := C60_covered h0 hRn (by simp) he hRd
    exact ⟨_, he, f, hf, hfd⟩
  · intro hG
    rw [hc]
    unfold finishRoute
    rw [if_pos, if_pos hRs]
    rw [hcond]
    cases hy : X.addr.get af with
    | none => rfl
    | some y =>
      exfalso
      apply hG
      apply hg.mp
      rw [hx] at hy
      exact firstAddrs_mem (by rw [hy]; rfl)

/-- Routes through the gateway in the global routing table do not depend on the routes processed before. -/
theorem checkRoutes_hosts (env : SrEnv) (ifs : List SrIntf) (rs : List SrRoute)
    (h : ∀ r ∈ rs, r.dst.isEmpty = false ∧ r.vrf = none ∧ r.next = some ⟨.gateway, none⟩) :
    (checkRoutes env ifs rs).2 = rs.map (fun r => (checkRoute env ifs r).2) := by
  have one : ∀ r ∈ rs, ∀ js, checkRoute env js r =
      ((resolveGateway env r ⟨.gateway, none⟩ js).1, finishRoute env r ⟨.gateway, none⟩ (resolveGateway env r ⟨.gateway, none⟩ js).2) := by
    intro r hr js
    obtain ⟨h1, h2, h3⟩ := h r hr
    unfold checkRoute
    rw [if_neg (by simp [h1]), h3]
    simp only [vrfRouteOk, h2]
    rfl
  have gen : ∀ (l : List SrRoute) (js : List SrIntf), (∀ r ∈ l, r ∈ rs) →
      (∀ r ∈ l, resolveGateway env r ⟨.gateway, none⟩ js = resolveGateway env r ⟨.gateway, none⟩ ifs ∨ js = ifs) →
      (checkRoutes env js l).2 = l.map (fun r => (checkRoute env ifs r).2) := by
    intro l
    induction l with
    | nil => intros; rfl
    | cons r rest ih =>
      intro js hl hj
      have hr := hl r (by simp)
      have hjr : resolveGateway env r ⟨.gateway, none⟩ js = resolveGateway env r ⟨.gateway, none⟩ ifs := by
        rcases hj r (by simp) with e | e
        · exact e
        · rw [e]
      rw [checkRoutes, List.map_cons]
      simp only [one r hr]
      rw [hjr]
      congr 1
      apply ih _ (fun x hx => hl x (by simp [hx]))
      intro x hx
      left
      have hv : nextHopVrf x ⟨.gateway, none⟩ = nextHopVrf r ⟨.gateway, none⟩ := by
        unfold nextHopVrf
        simp [(h x (hl x (by simp [hx]))).2.1, (h r hr).2.1]
      have hv2 : x.nhVrf ⟨.gateway, none⟩ = r.nhVrf ⟨.gateway, none⟩ := by rw [nhVrf_eq, nhVrf_eq, hv]
      rw [C60_gateway_stable env r x _ hv]
      unfold resolveGateway
      simp only [gatewayLoop_congr env r x _ hv2]
  exact gen rs ifs (fun _ h => h) (fun _ _ => Or.inr rfl)

/-- C132: a host that gets default routes: for every prefix of every address pool (other than management and router IDs) in an
address family with a usable gateway there's a route in the final list of routes, and no processing of a default route fails. -/
theorem C132_reachable {env : SrEnv} (h0 : 0 < env.maxNexthop) {pools : List (String × Dual String)} {afs : List Bool}
    (ifs : List SrIntf) :
    (∀ x ∈ (checkRoutes env ifs (hostRoutes afs (defaultRoutes pools))).2, x ≠ .error ∧ x ≠ .crash) ∧
    ∀ name d af p, (name, d) ∈ pools → name ≠ "mgmt" → name ≠ "router_id" → d.get af = some p → af ∈ afs →
      ((∃ f ∈ finalRoutes (checkRoutes env ifs (hostRoutes afs (defaultRoutes pools))).2, f.dst.get af = some p) ↔
        HasGateway env ifs af) := by
  have hall : ∀ r ∈ hostRoutes afs (defaultRoutes pools), r ∈ defaultRoutes pools := fun r hr =>
    ((C61_host_routes afs _ r).mp hr).1
  have hform : ∀ r ∈ hostRoutes afs (defaultRoutes pools),
      r.dst.isEmpty = false ∧ r.vrf = none ∧ r.next = some ⟨.gateway, none⟩ := by
    intro r hr
    obtain ⟨name, d, af, a, _, _, _, _, rfl⟩ := (C61_default_routes pools r).mp (hall r hr)
    refine ⟨by cases af <;> rfl, rfl, rfl⟩
  rw [checkRoutes_hosts env ifs _ hform]
  constructor
  · intro x hx
    obtain ⟨r, hr, rfl⟩ := List.mem_map.mp hx
    obtain ⟨af, p, _, h1, h2⟩ := C132_gateway h0 (hall r hr) ifs
    rcases Classical.em (HasGateway env ifs af) with hG | hG
    · obtain ⟨l, hl, _⟩ := h1 hG
      rw [hl]
      simp
    · rw [h2 hG]
      simp
  · intro name d af p hp hn1 hn2 hd haf
    constructor
    · rintro ⟨f, hf, hfd⟩
      unfold finalRoutes at hf
      have hkeep : ∀ r ∈ hostRoutes afs (defaultRoutes pools), ∀ g, (checkRoute env ifs r).2 ≠ .keep g := by
        intro r hr g
        obtain ⟨af', p', _, h1, h2⟩ := C132_gateway h0 (hall r hr) ifs
        rcases Classical.em (HasGateway env ifs af') with hG | hG
        · obtain ⟨l, hl, _⟩ := h1 hG
          rw [hl]; simp
        · rw [h2 hG]; simp
      rcases List.mem_append.mp hf with hf | hf
      · obtain ⟨x, hx, hf⟩ := List.mem_flatMap.mp hf
        obtain ⟨r, hr, rfl⟩ := List.mem_map.mp hx
        split at hf
        · rename_i g hg
          exact absurd hg (hkeep r hr g)
        · cases hf
      · obtain ⟨x, hx, hf⟩ := List.mem_flatMap.mp hf
        obtain ⟨r, hr, rfl⟩ := List.mem_map.mp hx
        split at hf
        · rename_i l hl
          obtain ⟨af', p', hrd, h1, h2⟩ := C132_gateway h0 (hall r hr) ifs
          rcases Classical.em (HasGateway env ifs af') with hG | hG
          · have hsame : af' = af := by
              obtain ⟨_, _, af2, a2, _, _, _, _, rfl⟩ := (C61_default_routes pools r).mp (hall r hr)
              have e1 : af' = af2 := by
                simp only [Dual.get_of] at hrd
                split at hrd
                · assumption
                · cases hrd
              subst e1
              have hc : (checkRoute env ifs ⟨Dual.of (fun f => if f = af' then some a2 else none), none, some ⟨.gateway, none⟩, true⟩).2 =
                  finishRoute env ⟨Dual.of (fun f => if f = af' then some a2 else none), none, some ⟨.gateway, none⟩, true⟩ ⟨.gateway, none⟩
                    (resolveGateway env ⟨Dual.of (fun f => if f = af' then some a2 else none), none, some ⟨.gateway, none⟩, true⟩
                      ⟨.gateway, none⟩ ifs).2 := by
                unfold checkRoute
                rw [if_neg (by cases af' <;> simp [Dual.isEmpty, Dual.of])]
                rfl
              rw [hc] at hl
              obtain ⟨_, _, rfl⟩ := finish_expand hl
              have hm : ∃ k, f ∈ expandAf env ⟨Dual.of (fun f => if f = af' then some a2 else none), none, some ⟨.gateway, none⟩, true⟩
                  (resolveGateway env ⟨Dual.of (fun f => if f = af' then some a2 else none), none, some ⟨.gateway, none⟩, true⟩
                      ⟨.gateway, none⟩ ifs).2.nhlist k := by
                rcases List.mem_append.mp hf with h | h
                · exact ⟨false, h⟩
                · exact ⟨true, h⟩
              obtain ⟨k, hk⟩ := hm
              obtain ⟨q, e, hq, _, _, hdst, _⟩ := mem_expandAf hk
              simp only [Dual.get_of] at hq
              rw [hdst, Dual.get_of] at hfd
              split at hq
              · rename_i hk2
                split at hfd
                · rename_i hk3
                  rw [hk3, hk2]
                · cases hfd
              · cases hq
            rw [← hsame]
            exact hG
          · rw [h2 hG] at hl
            cases hl
        · cases hf
    · intro hG
      have hmem : (⟨Dual.of (fun f => if f = af then some p else none), none, some ⟨.gateway, none⟩, true⟩ : SrRoute) ∈
          hostRoutes afs (defaultRoutes pools) := by
        rw [C61_host_routes]
        exact ⟨(C61_default_routes pools _).mpr ⟨name, d, af, p, hp, hn1, hn2, hd, rfl⟩, af, haf, by simp⟩
      obtain ⟨af', p', hrd, h1, _⟩ := C132_gateway h0 (hall _ hmem) ifs
      simp only [Dual.get_of] at hrd
      split at hrd
      · rename_i e1
        subst e1
        obtain rfl := Option.some.inj hrd
        obtain ⟨l, hl, f, hf, hfd⟩ := h1 hG
        refine ⟨f, ?_, hfd⟩
        unfold finalRoutes
        apply List.mem_append_right
        rw [List.mem_flatMap]
        refine ⟨_, List.mem_map.mpr ⟨_, hmem, rfl⟩, ?_⟩
        rw [hl]
        exact hf
      · cases hrd

/-! ### Examples -/

/-- A host with an IPv4 gateway configured on the link and an adjacent dual-stack router. -/
def hrIfs (gw : Option (Dual SrAddr)) : List SrIntf :=
  [⟨"eth1", none, ⟨some (.str "10.0.0.5/24"), some (.str "2001:db8::5/64")⟩,
    [⟨"r1", ⟨some (.str "10.0.0.1/24"), some (.str "2001:db8::1/64")⟩, none, ⟨none, none⟩⟩], gw⟩]

/-- The pools of a dual-stack topology. -/
def hrPools : List (String × Dual String) :=
  [("lan", ⟨some "10.0.0.0/8", some "2001:db8::/32"⟩), ("mgmt", ⟨some "192.168.121.0/24", none⟩)]

/-- Without a configured gateway the host has IPv4 and IPv6 routes through the adjacent router. -/
example : ((finalRoutes (checkRoutes srEnv (hrIfs none) (hostRoutes [false, true] (defaultRoutes hrPools))).2).map
    (fun f => (f.dst.v4, f.dst.v6, f.intf))) =
    [(some "10.0.0.0/8", none, some "eth1"), (none, some "2001:db8::/32", some "eth1")] := by decide +kernel

example : HasGateway srEnv (hrIfs none) true := by
  refine Or.inr ⟨?_, by decide, _, List.mem_cons_self .., rfl, ⟨rfl, by decide⟩, _, List.mem_cons_self .., by decide, rfl, _, rfl⟩
  rintro f ⟨i, hi, _, g, s, hc, _⟩
  simp only [hrIfs, List.mem_singleton] at hi
  subst hi
  rcases hc with hc | ⟨_, l, m, r, hm, _, hg⟩
  · cases hc
  · have : m ∈ [(⟨"r1", ⟨some (.str "10.0.0.1/24"), some (.str "2001:db8::1/64")⟩, none, ⟨none, none⟩⟩ : SrNgb)] := by
      have hm' := congrArg (fun l => m ∈ l) hm
      simp only [List.mem_append, List.mem_cons, true_or, or_true, eq_iff_iff, iff_true] at hm'
      simpa using hm'
    simp only [List.mem_singleton] at this
    subst this
    cases hg

/-- C132 (defect): an IPv4 gateway configured on the link of a dual-stack host removes IPv6 routes of the host although the adjacent
router has an IPv6 address. -/
theorem C132_ipv6_lost :
    (∀ i ∈ hrIfs (some ⟨some (.str "10.0.0.1/24"), none⟩), RouterOn srEnv i true) ∧
    ((finalRoutes (checkRoutes srEnv (hrIfs (some ⟨some (.str "10.0.0.1/24"), none⟩))
      (hostRoutes [false, true] (defaultRoutes hrPools))).2).map (fun f => (f.dst.v4, f.dst.v6, f.intf))) =
      [(some "10.0.0.0/8", none, some "eth1")] := by
  constructor
  · intro i hi
    simp only [hrIfs, List.mem_singleton] at hi
    subst hi
    exact ⟨_, List.mem_cons_self .., by decide +kernel, rfl, _, rfl⟩
  · decide +kernel

/-- A host with two DHCP client interfaces. -/
def hrTwoClients : HrNode :=
  ⟨"h", true, [], [false], true, false, [⟨false, ⟨some (), none⟩⟩, ⟨false, ⟨some (), none⟩⟩], ["dhcp"]⟩

example : addHostRoutes none hrPools ["dhcp"] [hrTwoClients] = none := by decide +kernel

/-- A host with one DHCP client interface gets no IPv4 routes, a host without DHCP gets them. -/
example : addHostRoutes none hrPools ["dhcp"]
    [{ hrTwoClients with ifs := [⟨false, ⟨some (), none⟩⟩] }, { hrTwoClients with ifs := [] }] =
    some ([{ hrTwoClients with ifs := [⟨false, ⟨some (), none⟩⟩] },
      { hrTwoClients with ifs := [], modules := ["dhcp", "routing"],
                          static := [⟨⟨some "10.0.0.0/8", none⟩, none, some ⟨.gateway, none⟩, true⟩] }],
      ["dhcp", "routing"]) := by decide +kernel

example : ∀ n ∈ [hrTwoClients], n.afs.Nodup := by decide

end Netlab
