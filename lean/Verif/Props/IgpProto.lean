import Verif.Model.IgpProto
import Verif.Spec.Net
import Verif.Props.NodeDevice
import Verif.Lemmas.Util

namespace Netlab

open Spec

theorem ipUnnum_iff (v : Option Val) : ipUnnum v = true ↔ v = some (.bool true) := by
  unfold ipUnnum
  split
  · simp
  · rename_i h
    simp only [Bool.false_eq_true, false_iff]
    exact h

/-! ### Unnumbered interfaces -/

/-- C97: OSPF is accepted exactly when every unnumbered OSPF interface has a single neighbor, and the device supports unnumbered interfaces when they are used. -/
theorem C97_ospf_unnumbered (feature has : Bool) (intfs : List IpIntf) :
    ((ospfUnnum feature has intfs).2 = 0 ↔
      (∀ i ∈ intfs, i.v4 = some (.bool true) → i.attrs ≠ none → i.nbrs = 1) ∧
      ((has = true ∨ ∃ i ∈ intfs, i.v4 = some (.bool true) ∧ i.attrs ≠ none) → feature = true)) ∧
    ((ospfUnnum feature has intfs).1 = true ↔ has = true ∨ ∃ i ∈ intfs, i.v4 = some (.bool true) ∧ i.attrs ≠ none) := by
  have hu : ∀ i : IpIntf, ospfUnnumIntf i = true ↔ i.v4 = some (.bool true) ∧ i.attrs ≠ none := by
    intro i
    unfold ospfUnnumIntf
    rw [Bool.and_eq_true, ipUnnum_iff, Option.isSome_iff_ne_none]
  have hf : (has || intfs.any ospfUnnumIntf) = true ↔ has = true ∨ ∃ i ∈ intfs, i.v4 = some (.bool true) ∧ i.attrs ≠ none := by
    rw [Bool.or_eq_true, List.any_eq_true]
    simp only [hu]
  have hl : (intfs.filter (fun i => ospfUnnumIntf i && (decide (i.nbrs > 1) || i.nbrs == 0))).length = 0 ↔
      ∀ i ∈ intfs, i.v4 = some (.bool true) → i.attrs ≠ none → i.nbrs = 1 := by
    rw [List.length_eq_zero_iff, List.filter_eq_nil_iff]
    constructor
    · intro h i hi h1 h2
      have := h i hi
      simp only [Bool.and_eq_true, hu, Bool.or_eq_true, decide_eq_true_eq, beq_iff_eq, not_and, not_or] at this
      have := this ⟨h1, h2⟩
      omega
    · intro h i hi
      simp only [Bool.and_eq_true, hu, Bool.or_eq_true, decide_eq_true_eq, beq_iff_eq, not_and, not_or]
      rintro ⟨h1, h2⟩
      have := h i hi h1 h2
      omega
  refine ⟨?_, hf⟩
  unfold ospfUnnum
  simp only
  rw [Nat.add_eq_zero_iff, hl, ← hf]
  cases (has || intfs.any ospfUnnumIntf) <;> cases feature <;> simp

/-- C97: IS-IS is accepted exactly when the device supports all kinds of unnumbered interfaces used on the node. -/
theorem C97_isis_unnumbered (f4 f6 net : Bool) (intfs : List IpIntf) :
    isisUnnum f4 f6 net intfs = 0 ↔
      ((∃ i ∈ intfs, i.v4 = some (.bool true)) → f4 = true) ∧ ((∃ i ∈ intfs, i.v6 = some (.bool true)) → f6 = true) ∧
      ((∃ i ∈ intfs, i.v4 = some (.bool true) ∧ i.nbrs > 1) → net = true) := by
  have h4 : intfs.any (fun i => ipUnnum i.v4) = true ↔ ∃ i ∈ intfs, i.v4 = some (.bool true) := by
    rw [List.any_eq_true]; simp only [ipUnnum_iff]
  have h6 : intfs.any (fun i => ipUnnum i.v6) = true ↔ ∃ i ∈ intfs, i.v6 = some (.bool true) := by
    rw [List.any_eq_true]; simp only [ipUnnum_iff]
  have hl : (intfs.filter (fun i => ipUnnum i.v4 && decide (i.nbrs > 1) && !net)).length = 0 ↔ ((∃ i ∈ intfs, i.v4 = some (.bool true) ∧ i.nbrs > 1) → net = true) := by
    rw [List.length_eq_zero_iff, List.filter_eq_nil_iff]
    constructor
    · rintro h ⟨i, hi, h1, h2⟩
      have := h i hi
      simp only [Bool.and_eq_true, ipUnnum_iff, decide_eq_true_eq, Bool.not_eq_true'] at this
      cases net with
      | true => rfl
      | false => exact absurd ⟨⟨h1, h2⟩, rfl⟩ this
    · intro h i hi hc
      simp only [Bool.and_eq_true, ipUnnum_iff, decide_eq_true_eq, Bool.not_eq_true'] at hc
      rw [h ⟨i, hi, hc.1⟩] at hc
      exact absurd hc.2 (by decide)
  unfold isisUnnum
  rw [← h4, ← h6]
  cases ha : intfs.any (fun i => ipUnnum i.v4) <;> cases f4 <;> cases hb : intfs.any (fun i => ipUnnum i.v6) <;> cases f6 <;> simp [hl]

/-- C97: IS-IS instances of VRFs of a node have different names. -/
theorem C97_isis_instances (vrfs : List (String × Option String)) (hn : (vrfs.map (·.1)).Nodup) :
    (isisInstances vrfs).map (·.1) = vrfs.map (·.1) ∧
    (isisInstances vrfs).Pairwise (fun a b => ∀ x, a.2 = some x → x ≠ "" → b.2 ≠ some x) := by
  refine ⟨?_, ?_⟩
  · unfold isisInstances
    rw [List.map_map]
    rfl
  · unfold isisInstances
    rw [List.pairwise_map]
    rw [List.Nodup, List.pairwise_map] at hn
    have key : ∀ v : String × Option String, ∀ x, (match v.2 with | some i => if i = "" then some i else some v.1 | none => none) = some x → x ≠ "" → x = v.1 := by
      intro v x h hx
      cases hv : v.2 with
      | none => rw [hv] at h; cases h
      | some i =>
        rw [hv] at h
        simp only at h
        split at h
        · rename_i he
          exact absurd (by rw [← Option.some.inj h]; exact he) hx
        · exact (Option.some.inj h).symm
    refine hn.imp (fun {a b} hab x h1 hx h2 => hab ?_)
    rw [← key a x h1 hx, key b x h2 hx]

/-! ### Strict BFD -/

/-- C97: strict BFD is used exactly when it is requested and can be used; otherwise a request for strict BFD is an error. -/
theorem C97_strict_bfd (bfd : Option Val) (feature bfdModule : Bool) :
    (∀ d v, bfd = some (.dict d) → d.lookup "strict" = some v → v.truthy = true →
      (feature = true ∧ bfdModule = true ∧ ospfStrict bfd feature bfdModule = (some ((d.lookup "strict_delay").getD (.int 0)), 0)) ∨
      ((feature = false ∨ bfdModule = false) ∧ ospfStrict bfd feature bfdModule = (none, 1))) ∧
    ((∀ d v, bfd = some (.dict d) → d.lookup "strict" = some v → v.truthy = false) → ospfStrict bfd feature bfdModule = (none, 0)) := by
  constructor
  · rintro d v rfl hv ht
    simp only [ospfStrict, hv, Option.getD_some, ht, if_true]
    cases feature <;> cases bfdModule <;> simp
  · intro h
    unfold ospfStrict
    split
    · rename_i d
      have : ((d.lookup "strict").getD (.bool false)).truthy = false := by
        cases hs : d.lookup "strict" with
        | none => rfl
        | some v => exact h d v rfl hs
      rw [this]
      rfl
    · rfl

/-! ### Attributes copied into VRFs -/

/-- C97: a VRF attribute keeps its value; a missing attribute gets the value from the node when it is one of the copied attributes. -/
theorem C97_vrf_copy (kws : List String) (ospf : List (String × Val)) (vrfs : List (String × Option (List (String × Val)))) :
    List.Forall₂ (fun v w : String × Option (List (String × Val)) => w.1 = v.1 ∧ (v.2 = none → w.2 = none) ∧
      ∀ d, v.2 = some d → ∃ e, w.2 = some e ∧ ∀ k, e.lookup k = (d.lookup k).or (if k ∈ kws then ospf.lookup k else none)) vrfs (ospfVrfs kws ospf vrfs) := by
  unfold ospfVrfs
  rw [List.forall₂_map_right_iff, List.forall₂_same]
  intro v _
  refine ⟨rfl, fun h => by rw [h]; rfl, fun d h => ⟨_, by rw [h]; rfl, fun k => foldl_ndCopy ospf kws d k⟩⟩

/-- C97: the loopback interface is in the OSPF area of the node. -/
theorem C97_loopback_area (ospf lb : List (String × Val)) (a : Val) (h : ospf.lookup "area" = some a) :
    ∃ l, ospfLoopback ospf (some lb) = some l ∧ l.lookup "area" = some a ∧ ∀ k, k ≠ "area" → l.lookup k = lb.lookup k := by
  refine ⟨setKey lb "area" a, by simp only [ospfLoopback, h], by rw [lookup_setKey, if_pos rfl], fun k hk => by rw [lookup_setKey, if_neg hk]⟩

/-! ### RIP timers -/

/-- C97: when a RIP timer is configured, all timers are set: configured timers are not changed, and missing timers depend on the update timer. -/
theorem C97_rip_timers (t : List (String × Int)) :
    (∀ k, (ripTimers t).lookup k = if k = "update" then some ((t.lookup "update").getD 30)
      else if k = "timeout" then some ((t.lookup "timeout").getD (6 * (t.lookup "update").getD 30))
      else if k = "garbage" then some ((t.lookup "garbage").getD (4 * (t.lookup "update").getD 30)) else t.lookup k) := by
  intro k
  have h1 : ∀ (t : List (String × Int)) (j : String) (x : Int) (k : String),
      (if (t.lookup j).isNone then setKey t j x else t).lookup k = if k = j then some ((t.lookup j).getD x) else t.lookup k := by
    intro t j x k
    cases hj : t.lookup j with
    | none =>
      simp only [Option.isNone_none, if_true, Option.getD_none]
      rw [lookup_setKey]
    | some v =>
      simp only [Option.isNone_some, Bool.false_eq_true, if_false, Option.getD_some]
      split
      · rename_i hk; rw [hk, hj]
      · rfl
  unfold ripTimers
  simp only
  generalize ht1 : (if (t.lookup "update").isNone then setKey t "update" 30 else t) = t1
  have e1 : ∀ k, t1.lookup k = if k = "update" then some ((t.lookup "update").getD 30) else t.lookup k := fun k => by rw [← ht1, h1]
  generalize ht2 : (if (t1.lookup "timeout").isNone then setKey t1 "timeout" ((t1.lookup "update").getD 0 * 6) else t1) = t2
  have e2 : ∀ k, t2.lookup k = if k = "timeout" then some ((t1.lookup "timeout").getD ((t1.lookup "update").getD 0 * 6)) else t1.lookup k := fun k => by rw [← ht2, h1]
  rw [h1]
  simp only [e2, e1]
  by_cases ha : k = "update"
  · subst ha
    simp
  · by_cases hb : k = "timeout"
    · subst hb
      simp [Int.mul_comm]
    · by_cases hc : k = "garbage"
      · subst hc
        simp [Int.mul_comm]
      · simp [ha, hb, hc]

/-- C97: timers are adjusted in all protocol instances that have timers, and nowhere else. -/
theorem C97_rip_instances (insts : List (Option (Option (List (String × Int))))) (n : Nat) :
    (ripNode insts)[n]? = (insts[n]?).map (Option.map (Option.map ripTimers)) := by
  unfold ripNode
  rw [List.getElem?_map]

/-! ### Protocols in VRFs -/

/-- C97: a device not supporting the protocol in VRFs is rejected exactly when a VRF using the address family uses the protocol; without errors, these VRFs have the
address family in their protocol data, and nothing else is changed. -/
theorem C97_vrf_protocol (feature : Bool) (af : String) (vrfs : List CvVrf) :
    ((cvCheck feature af vrfs).2 = 0 ↔ (feature = true ∨ ∀ v ∈ vrfs, v.proto = none ∨ af ∉ v.af)) ∧
    ((cvCheck feature af vrfs).2 = 0 → List.Forall₂ (fun v w : CvVrf => w.name = v.name ∧ w.af = v.af ∧ (v.proto = none ↔ w.proto = none) ∧
      ∀ p q, v.proto = some p → w.proto = some q → ∀ k, q.lookup k = if k = af ∧ af ∈ v.af then some true else p.lookup k) vrfs (cvCheck feature af vrfs).1) := by
  have triv : ∀ v : CvVrf, (v.proto = none ∨ af ∉ v.af) → (v.name = v.name ∧ v.af = v.af ∧ (v.proto = none ↔ v.proto = none) ∧
      ∀ p q, v.proto = some p → v.proto = some q → ∀ k, q.lookup k = if k = af ∧ af ∈ v.af then some true else p.lookup k) := by
    intro v hv
    refine ⟨rfl, rfl, Iff.rfl, fun p q hp hq k => ?_⟩
    rcases hv with hv | hv
    · rw [hv] at hp; cases hp
    · rw [hp] at hq
      cases hq
      rw [if_neg (fun h => hv h.2)]
  induction vrfs with
  | nil => exact ⟨by simp [cvCheck], fun _ => .nil⟩
  | cons v r ih =>
    unfold cvCheck
    cases hv : v.proto with
    | none =>
      simp only
      refine ⟨?_, fun h => .cons (triv v (Or.inl hv)) (ih.2 h)⟩
      rw [ih.1]
      simp only [List.forall_mem_cons, hv, true_or, true_and]
    | some p =>
      simp only
      by_cases ha : af ∈ v.af
      · have hc : (!v.af.contains af) = false := by simp [ha]
        simp only [hc, Bool.false_eq_true, if_false]
        cases feature with
        | false =>
          simp only [Bool.not_false, if_true]
          refine ⟨?_, fun h => absurd h (by decide)⟩
          simp [hv, ha]
        | true =>
          simp only [Bool.not_true, Bool.false_eq_true, if_false]
          refine ⟨?_, fun h => .cons ⟨rfl, rfl, by simp [hv], fun p' q hp hq k => ?_⟩ (ih.2 h)⟩
          · rw [ih.1]
            simp
          · rw [hv] at hp
            cases hp
            cases hq
            rw [lookup_setKey]
            simp [ha]
      · have hc : (!v.af.contains af) = true := by simp [ha]
        simp only [hc, if_true]
        refine ⟨?_, fun h => .cons (triv v (Or.inr ha)) (ih.2 h)⟩
        rw [ih.1]
        simp only [List.forall_mem_cons, ha, not_false_eq_true, or_true, true_and]

/-! ### Interface parameters -/

/-- C97: every unsupported optional parameter used on an interface outside of VRFs is reported once, and nothing else is reported. -/
theorem C97_intf_params (optional : Option (List String)) (features : List String) (glob : List IpIntf) (vrfs : List (List IpIntf)) :
    (ciErrors optional features (igpIntfs (fun _ => false) glob vrfs)).Nodup ∧
    ∀ k, k ∈ ciErrors optional features (igpIntfs (fun _ => false) glob vrfs) ↔
      ∃ o, optional = some o ∧ k ∈ o ∧ k ∉ features ∧ ∃ i ∈ glob, ∃ a, i.attrs = some a ∧ k ∈ a := by
  unfold ciErrors
  cases optional with
  | none => simp
  | some o =>
    refine ⟨nodup_eraseDups _, fun k => ?_⟩
    simp only [List.mem_eraseDups, List.mem_filter, List.mem_flatMap, Bool.and_eq_true, List.contains_iff_mem, Bool.not_eq_true', Option.some.injEq,
      exists_eq_left', igpIntfs, List.filter_false, List.append_nil]
    have hc : features.contains k = false ↔ k ∉ features := by
      rw [← Bool.not_eq_true, List.contains_iff_mem]
    rw [hc]
    constructor
    · rintro ⟨⟨i, ⟨hi, hs⟩, hk⟩, ho, hf⟩
      refine ⟨ho, hf, i, hi, ?_⟩
      obtain ⟨a, ha⟩ := Option.isSome_iff_exists.1 hs
      rw [ha] at hk
      exact ⟨a, ha, hk⟩
    · rintro ⟨ho, hf, i, hi, a, ha, hk⟩
      exact ⟨⟨i, ⟨hi, by rw [ha]; rfl⟩, by rw [ha]; exact hk⟩, ho, hf⟩

/-- C97: the list of used router identifiers is complete. -/
theorem C97_router_ids (nodes : List (Option String × List (Option String))) (x : String) :
    x ∈ ridBlacklist nodes ↔ ∃ n ∈ nodes, n.1 = some x ∨ some x ∈ n.2 := by
  unfold ridBlacklist
  simp only [List.mem_filterMap, List.mem_flatMap, List.mem_cons, id]
  constructor
  · rintro ⟨y, ⟨n, hn, h⟩, rfl⟩
    exact ⟨n, hn, h.imp Eq.symm (fun h => h)⟩
  · rintro ⟨n, hn, h⟩
    exact ⟨some x, ⟨n, hn, h.imp Eq.symm (fun h => h)⟩, rfl⟩

/-! ### SRv6 locators -/

theorem srValue_snoc (l : List Nat) (x : Nat) : srValue (l ++ [x]) = srValue l * 65536 + x := by
  unfold srValue
  rw [List.foldl_append]
  rfl

/-- C97: SRv6 locators of nodes with different identifiers do not overlap. -/
theorem C97_srv6_locators (groups : List Nat) (i j : Nat) (h : i ≠ j) (a b : Net) (ha : srLocator groups i = some a) (hb : srLocator groups j = some b) :
    Spec.Disjoint a b := by
  unfold srLocator at ha hb
  split at ha
  · cases ha
  · split at ha
    · cases ha
    · split at hb
      · cases hb
      · split at hb
        · cases hb
        · rename_i h1 h2 h3 h4
          cases ha
          cases hb
          rw [srValue_snoc, List.length_append, List.length_singleton, ne_eq, Classical.not_not] at h2 h4
          rintro x ⟨⟨c1, c2⟩, ⟨c3, c4⟩⟩
          simp only [srValue_snoc, List.length_append, List.length_singleton] at c1 c2 c3 c4
          generalize hk : 2 ^ (16 * (8 - (groups.length + 1))) = k at *
          have hkp : 0 < k := by rw [← hk]; exact Nat.two_pow_pos _
          obtain ⟨u, hu⟩ := Nat.dvd_of_mod_eq_zero h2
          obtain ⟨v, hv⟩ := Nat.dvd_of_mod_eq_zero h4
          rw [hu] at c1 c2
          rw [hv] at c3 c4
          have huv : u = v := by omega
          rw [huv, ← hv] at hu
          have := Nat.eq_of_mul_eq_mul_right hkp hu
          omega

/-- C97: without an error, the node has an IPv6 loopback address outside of its SRv6 locator. -/
theorem C97_srv6_loopback (groups : List Nat) (id : Nat) (lb : Option Net) (l : Net) (h : srNode groups id lb = some (l, 0)) :
    srLocator groups id = some l ∧ ∃ n, lb = some n ∧ ¬ Inside n l := by
  unfold srNode at h
  cases hl : srLocator groups id with
  | none => rw [hl] at h; cases h
  | some m =>
    rw [hl] at h
    cases lb with
    | none => cases h
    | some n =>
      simp only [Option.some.injEq, Prod.mk.injEq] at h
      obtain ⟨rfl, he⟩ := h
      refine ⟨rfl, n, rfl, fun hin => ?_⟩
      split at he
      · cases he
      · rename_i hc
        apply hc
        have hp : 0 < 2 ^ (n.w - n.plen) := Nat.two_pow_pos _
        have h1 := hin n.base ⟨Nat.le_refl _, by omega⟩
        have h2 := hin (n.base + (2 ^ (n.w - n.plen) - 1)) ⟨by omega, by omega⟩
        simp only [Bool.and_eq_true, decide_eq_true_eq, Net.size]
        refine ⟨h1.1, ?_⟩
        have h3 := h2.2
        apply decide_eq_true
        clear h2 hc
        generalize 2 ^ (n.w - n.plen) = k at *
        omega

/-! ### Examples and defects -/

example : (ospfUnnum true false [⟨"e1", some (.bool true), none, 1, some []⟩, ⟨"e2", some (.bool true), none, 3, none⟩]) = (true, 0) := by decide +kernel
example : (ospfUnnum true false [⟨"e1", some (.bool true), none, 2, some []⟩]).2 = 1 := by decide +kernel
example : ripTimers [("timeout", 100)] = [("timeout", 100), ("update", 30), ("garbage", 120)] := by decide
example : srLocator [0x2001, 0xdb8, 0xaaaa] 5 = some ⟨128, 0x20010db8aaaa0005 * 2 ^ 64, 64⟩ := by decide +kernel

/-- C97 defect: an interface not using IS-IS makes the node unusable. -/
theorem C97_isis_other_intf : isisUnnum false true true [⟨"e1", some (.bool true), none, 1, none⟩] = 1 := by decide +kernel

/-- C97 defect: unsupported parameters of VRF interfaces are not reported. -/
theorem C97_vrf_intf_params (i : IpIntf) (o features : List String) (vrfs : List (List IpIntf)) :
    ciErrors (some o) features (igpIntfs (fun _ => false) [] (vrfs ++ [[i]])) = [] := by
  have h : (vrfs.map (List.filter (fun _ : IpIntf => false))).flatten = [] := by
    induction vrfs with
    | nil => rfl
    | cons v r ih => simp [ih]
  simp [ciErrors, igpIntfs, h]

/-- C97 defect: a loopback prefix containing the locator is accepted. -/
theorem C97_srv6_contained : ∃ l n, srNode [0x2001, 0xdb8, 0xaaaa] 5 (some n) = some (l, 0) ∧ n = ⟨128, 0x20010db8aaaa * 2 ^ 80, 48⟩ ∧ Inside l n := by
  refine ⟨⟨128, 0x20010db8aaaa0005 * 2 ^ 64, 64⟩, _, by decide +kernel, rfl, ?_⟩
  rintro a ⟨h1, h2⟩
  simp only at h1 h2
  exact ⟨by simp only; omega, by simp only; omega⟩

end Netlab
