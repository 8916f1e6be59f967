import Verif.Spec.TestEntry
import Verif.Props.Stp
import Verif.Props.BgpSession
import Verif.Lemmas.Util
import Verif.Lemmas.Box
/-!
# C105: lab validation tests and tools
-/

namespace Netlab
open Spec

theorem teHas_iff (e : List (String × Val)) (k : String) : teHas e k = true ↔ TestHas e k := by
  unfold teHas TestHas
  cases e.lookup k <;> simp

theorem teDict_has (key sub : String) (e : List (String × Val)) (k : String) : TestHas (teDict key sub e) k ↔ TestHas e k := by
  unfold teDict
  split
  · rename_i s h
    unfold TestHas
    rw [lookup_setKey]
    by_cases hk : k = key
    · subst hk; simp [h]
    · rw [if_neg hk]
  · exact Iff.rfl

theorem teNorm_has (e : List (String × Val)) (k : String) : TestHas (teNorm e) k ↔ TestHas e k := by
  unfold teNorm
  rw [teDict_has, teDict_has]

theorem teDict_other (key sub : String) (e : List (String × Val)) (k : String) (hk : k ≠ key) : (teDict key sub e).lookup k = e.lookup k := by
  unfold teDict
  split
  · rw [lookup_setKey, if_neg hk]
  · rfl

theorem teNorm_other (e : List (String × Val)) (k : String) (hk : k ≠ "config") (hk2 : k ≠ "suzieq") : (teNorm e).lookup k = e.lookup k := by
  unfold teNorm
  rw [teDict_other _ _ _ _ hk, teDict_other _ _ _ _ hk2]

theorem teCheck_entry (e : List (String × Val)) : (teCheck e).1 = e ∨ (teCheck e).1 = teNorm e := by
  unfold teCheck
  simp only
  repeat (first | split | exact Or.inl rfl | exact Or.inr rfl)

/-- More than one action with an action that has to be the only one -/
theorem te_single (e : List (String × Val)) :
    (decide ((["show", "exec", "config", "plugin", "suzieq"].filter (teHas e)).length > 1) &&
      (["show", "exec", "config", "plugin", "suzieq"].filter (teHas e)).any (fun k => !["show", "exec"].contains k)) = false ↔
    ∀ k ∈ ["config", "plugin", "suzieq"], TestHas e k → ∀ j ∈ ["show", "exec", "config", "plugin", "suzieq"], TestHas e j → j = k := by
  simp only [← teHas_iff]
  generalize h1 : teHas e "show" = a
  generalize h2 : teHas e "exec" = b
  generalize h3 : teHas e "config" = c
  generalize h4 : teHas e "plugin" = d
  generalize h5 : teHas e "suzieq" = f
  cases a <;> cases b <;> cases c <;> cases d <;> cases f <;> simp [h1, h2, h3, h4, h5]

/-- **C105**: a test is accepted if and only if it makes sense. -/
theorem C105_accepted (e : List (String × Val)) : (teCheck e).2 = true ↔ TestMakesSense e := by
  have hn : ∀ k, teHas (teNorm e) k = teHas e k := by
    intro k
    rw [Bool.eq_iff_iff, teHas_iff, teHas_iff, teNorm_has]
  have hs := te_single e
  unfold teCheck
  simp only [hn, funext hn]
  generalize hx : (decide ((["show", "exec", "config", "plugin", "suzieq"].filter (teHas e)).length > 1) &&
      (["show", "exec", "config", "plugin", "suzieq"].filter (teHas e)).any (fun k => !["show", "exec"].contains k)) = x at *
  constructor
  · intro h
    split at h
    · simp at h
    · rename_i h1
      split at h
      · simp at h
      · rename_i h2
        split at h
        · simp at h
        · rename_i h3
          split at h
          · simp at h
          · rename_i h4
            refine ⟨?_, hs.1 (by simpa using h2), ?_, ?_, ?_⟩
            · simp only [Bool.not_eq_true', Bool.not_eq_false, List.any_eq_true] at h1
              obtain ⟨k, hk, hh⟩ := h1
              exact ⟨k, hk, (teHas_iff e k).1 hh⟩
            · rw [← teHas_iff, ← teHas_iff, ← teHas_iff]
              revert h3
              cases teHas e "nodes" <;> cases teHas e "suzieq" <;> cases teHas e "wait" <;> simp
            · rw [← teHas_iff, ← teHas_iff]
              revert h4
              cases teHas e "show" <;> cases teHas e "valid" <;> simp
            · rw [← teHas_iff, ← teHas_iff, ← teHas_iff, ← teHas_iff]
              revert h
              cases teHas e "valid" <;> cases teHas e "show" <;> cases teHas e "exec" <;> cases teHas e "suzieq" <;> simp
  · rintro ⟨h1, h2, h3, h4, h5⟩
    simp only [← teHas_iff] at h1 h3 h4 h5
    rw [if_neg, if_neg, if_neg, if_neg]
    · revert h5
      cases teHas e "valid" <;> cases teHas e "show" <;> cases teHas e "exec" <;> cases teHas e "suzieq" <;> simp
    · revert h4
      cases teHas e "show" <;> cases teHas e "valid" <;> simp
    · revert h3
      cases teHas e "nodes" <;> cases teHas e "suzieq" <;> cases teHas e "wait" <;> simp
    · rw [hs.2 h2]; simp
    · obtain ⟨k, hk, hh⟩ := h1
      simp only [Bool.not_eq_true', Bool.not_eq_false, List.any_eq_true]
      exact ⟨k, hk, hh⟩

example : (teCheck [("nodes", .list [.str "r1"]), ("show", .dict [("eos", .str "ip route")]), ("valid", .str "x")]).2 = true ∧
    (teCheck [("nodes", .list [.str "r1"]), ("show", .dict [("eos", .str "ip route")])]).2 = false ∧
    (teCheck [("suzieq", .str "bgp"), ("config", .str "t")]).2 = false := by decide +kernel

theorem mem_sortedSet (l : List String) (x : String) : x ∈ sortedSet l ↔ x ∈ l := by
  unfold sortedSet
  rw [(List.mergeSort_perm _ _).mem_iff, List.mem_eraseDups]

theorem nodup_sortedSet (l : List String) : (sortedSet l).Nodup := by
  unfold sortedSet
  rw [(List.mergeSort_perm _ _).nodup_iff]
  exact nodup_eraseDups _

theorem sorted_sortedSet (l : List String) : (sortedSet l).Pairwise (· ≤ ·) := by
  unfold sortedSet
  refine (List.pairwise_mergeSort ?_ ?_ _).imp ?_
  · intro a b c h1 h2
    simp only [decide_eq_true_eq] at *
    exact String.le_trans h1 h2
  · intro a b
    simp only [Bool.or_eq_true, decide_eq_true_eq]
    exact String.le_total a b
  · intro a b h
    simpa using h

theorem teDevs_mem (v : Option Val) (l : List String) (h : teDevs v = some l) (x : String) : x ∈ l ↔ ∃ d, v = some (.dict d) ∧ x ∈ d.map (·.1) := by
  unfold teDevs at h
  split at h
  · simp only [Option.some.injEq] at h; subst h; simp
  · simp only [Option.some.injEq] at h; subst h; simp
  · rename_i d
    simp only [Option.some.injEq] at h; subst h
    constructor
    · intro hx; exact ⟨d, rfl, hx⟩
    · rintro ⟨d', he, hx⟩
      simp only [Option.some.injEq, Val.dict.injEq] at he
      subst he; exact hx
  · simp at h

theorem te_lookup_key (d : List (String × Val)) (x : String) : (d.lookup x).isSome = true ↔ x ∈ d.map (·.1) := by
  constructor
  · intro h
    obtain ⟨v, hv⟩ := Option.isSome_iff_exists.1 h
    exact List.mem_map.2 ⟨(x, v), mem_of_lookup hv, rfl⟩
  · intro h
    cases hl : d.lookup x with
    | some _ => rfl
    | none => exact absurd h (lookup_eq_none_iff.1 hl)

theorem teValid_mem (v : Option Val) (l : List String) (x : String) : x ∈ teValid v l ↔ x ∈ l ∧ ∀ d, v = some (.dict d) → x ∈ d.map (·.1) := by
  unfold teValid
  split
  · rename_i d
    rw [List.mem_filter, te_lookup_key]
    constructor
    · rintro ⟨h1, h2⟩
      refine ⟨h1, ?_⟩
      intro d' he
      simp only [Option.some.injEq, Val.dict.injEq] at he
      subst he; exact h2
    · rintro ⟨h1, h2⟩
      exact ⟨h1, h2 d rfl⟩
  · rename_i hv
    constructor
    · intro h
      exact ⟨h, fun d he => absurd he (hv d)⟩
    · exact fun h => h.1

/-- **C105**: the devices supported by a test (when they are not specified in the test) are, without duplicates and in alphabetical order, devices with an action and a validation expression;
a test without such a device is an error. -/
theorem C105_devices (e e' : List (String × Val)) (n : Nat) (h : teSupport e = some (e', n)) :
    (NeedsDevices e → ∃ ds : List String, e' = setKey e "devices" (.list (ds.map .str)) ∧ ds.Nodup ∧ ds.Pairwise (· ≤ ·) ∧ (∀ d, d ∈ ds ↔ DeviceTested e d) ∧
      n = (if ds = [] then 1 else 0)) ∧
    (¬ NeedsDevices e → e' = e ∧ n = 0) := by
  unfold teSupport at h
  have hneed : NeedsDevices e ↔ (!teHas e "show" && !teHas e "exec") = false ∧ teHas e "devices" = false := by
    unfold NeedsDevices
    rw [← teHas_iff, ← teHas_iff, ← teHas_iff]
    cases teHas e "show" <;> cases teHas e "exec" <;> cases teHas e "devices" <;> simp
  rw [hneed]
  split at h
  · rename_i h1
    simp only [Option.some.injEq, Prod.mk.injEq] at h
    rw [h1]
    exact ⟨by simp, fun _ => ⟨h.1.symm, h.2.symm⟩⟩
  · rename_i h1
    split at h
    · rename_i h2
      simp only [Option.some.injEq, Prod.mk.injEq] at h
      rw [h2]
      exact ⟨by simp, fun _ => ⟨h.1.symm, h.2.symm⟩⟩
    · rename_i h2
      split at h
      · rename_i a b ha hb
        simp only [Option.some.injEq, Prod.mk.injEq] at h
        constructor
        · intro _
          refine ⟨sortedSet (teValid (e.lookup "valid") (a ++ b)), h.1.symm, nodup_sortedSet _, sorted_sortedSet _, ?_, ?_⟩
          · intro d
            rw [mem_sortedSet, teValid_mem, List.mem_append, teDevs_mem _ _ ha, teDevs_mem _ _ hb]
            unfold DeviceTested
            apply and_congr_left'
            simp
          · rw [← h.2]
            simp
        · intro hn
          exact absurd ⟨by simpa using h1, by simpa using h2⟩ hn
      · simp at h

/-- The test as it is processed -/
theorem teOne_spec (t : String × List (String × Val)) (e : List (String × Val)) (n : Nat) (h : teOne t = some (e, n)) :
    e.lookup "name" = some (.str t.1) ∧
    (∀ k, k ∉ ["name", "config", "suzieq", "devices"] → e.lookup k = t.2.lookup k) ∧
    (n = 0 ↔ TestMakesSense t.2 ∧ (NeedsDevices t.2 → ∃ d, DeviceTested t.2 d)) ∧
    (n = 0 → NeedsDevices t.2 → ∃ ds : List String, e.lookup "devices" = some (.list (ds.map .str)) ∧ ds ≠ [] ∧ ds.Nodup ∧ ds.Pairwise (· ≤ ·) ∧ ∀ d, d ∈ ds ↔ DeviceTested t.2 d) := by
  have hset : ∀ k, k ≠ "name" → (setKey t.2 "name" (.str t.1)).lookup k = t.2.lookup k := by
    intro k hk
    rw [lookup_setKey, if_neg hk]
  have hname : (setKey t.2 "name" (.str t.1)).lookup "name" = some (.str t.1) := by rw [lookup_setKey, if_pos rfl]
  have hhas : ∀ k, k ≠ "name" → (TestHas (setKey t.2 "name" (.str t.1)) k ↔ TestHas t.2 k) := by
    intro k hk
    unfold TestHas
    rw [hset k hk]
  have hms : TestMakesSense (setKey t.2 "name" (.str t.1)) ↔ TestMakesSense t.2 := by
    have hl : ∀ k ∈ ["show", "exec", "config", "wait", "plugin", "suzieq"], (TestHas (setKey t.2 "name" (.str t.1)) k ↔ TestHas t.2 k) := by
      intro k hk
      apply hhas
      rintro rfl
      simp at hk
    have hnodes := hhas "nodes" (by decide)
    have hvalid := hhas "valid" (by decide)
    have h1 := hl "show" (by simp)
    have h2 := hl "exec" (by simp)
    have h3 := hl "config" (by simp)
    have h4 := hl "wait" (by simp)
    have h5 := hl "plugin" (by simp)
    have h6 := hl "suzieq" (by simp)
    constructor
    · rintro ⟨a1, a2, a3, a4, a5⟩
      refine ⟨?_, ?_, ?_, ?_, ?_⟩
      · simpa [h1, h2, h3, h4, h5, h6] using a1
      · simpa [h1, h2, h3, h4, h5, h6] using a2
      · simpa [h1, h2, h3, h4, h5, h6, hnodes] using a3
      · simpa [h1, hvalid] using a4
      · simpa [h1, h2, h6, hvalid] using a5
    · rintro ⟨a1, a2, a3, a4, a5⟩
      refine ⟨?_, ?_, ?_, ?_, ?_⟩
      · simpa [h1, h2, h3, h4, h5, h6] using a1
      · simpa [h1, h2, h3, h4, h5, h6] using a2
      · simpa [h1, h2, h3, h4, h5, h6, hnodes] using a3
      · simpa [h1, hvalid] using a4
      · simpa [h1, h2, h6, hvalid] using a5
  have hc := C105_accepted (setKey t.2 "name" (.str t.1))
  rw [hms] at hc
  have he := teCheck_entry (setKey t.2 "name" (.str t.1))
  unfold teOne at h
  simp only at h
  generalize hcc : teCheck (setKey t.2 "name" (.str t.1)) = c at *
  have hother : ∀ k, k ≠ "config" → k ≠ "suzieq" → c.1.lookup k = (setKey t.2 "name" (.str t.1)).lookup k := by
    intro k h1 h2
    rcases he with he | he
    · rw [he]
    · rw [he, teNorm_other _ _ h1 h2]
  have hsame : ∀ k, k ≠ "config" → k ≠ "suzieq" → k ≠ "name" → c.1.lookup k = t.2.lookup k := by
    intro k h1 h2 h3
    rw [hother k h1 h2, hset k h3]
  have hneed : NeedsDevices c.1 ↔ NeedsDevices t.2 := by
    unfold NeedsDevices TestHas
    rw [hsame "show" (by decide) (by decide) (by decide), hsame "exec" (by decide) (by decide) (by decide), hsame "devices" (by decide) (by decide) (by decide)]
  have htested : ∀ d, DeviceTested c.1 d ↔ DeviceTested t.2 d := by
    intro d
    unfold DeviceTested
    rw [hsame "valid" (by decide) (by decide) (by decide)]
    simp only [List.mem_cons, List.not_mem_nil, or_false, exists_eq_or_imp, exists_eq_left, hsame "show" (by decide) (by decide) (by decide),
      hsame "exec" (by decide) (by decide) (by decide)]
  cases hc2 : c.2 with
  | false =>
    rw [hc2, if_neg (by simp)] at h
    simp only [Option.some.injEq, Prod.mk.injEq] at h
    obtain ⟨rfl, rfl⟩ := h
    refine ⟨?_, ?_, ?_, by simp⟩
    · rw [hother "name" (by decide) (by decide), hname]
    · intro k hk
      simp only [List.mem_cons, List.not_mem_nil, or_false, not_or] at hk
      exact hsame k hk.2.1 hk.2.2.1 hk.1
    · have : ¬ TestMakesSense t.2 := fun hx => by rw [← hc, hc2] at hx; simp at hx
      simp [this]
  | true =>
    rw [hc2, if_pos rfl] at h
    have hok : TestMakesSense t.2 := hc.1 hc2
    obtain ⟨d1, d2⟩ := C105_devices c.1 e n h
    by_cases hn : NeedsDevices c.1
    · obtain ⟨ds, he', hnd, hso, hmem, hcount⟩ := d1 hn
      refine ⟨?_, ?_, ?_, ?_⟩
      · rw [he', lookup_setKey, if_neg (by decide), hother "name" (by decide) (by decide), hname]
      · intro k hk
        simp only [List.mem_cons, List.not_mem_nil, or_false, not_or] at hk
        rw [he', lookup_setKey, if_neg hk.2.2.2]
        exact hsame k hk.2.1 hk.2.2.1 hk.1
      · rw [hcount]
        by_cases hds : ds = []
        · rw [if_pos hds]
          constructor
          · intro hx; simp at hx
          · rintro ⟨_, hx⟩
            obtain ⟨d, hd⟩ := hx (hneed.1 hn)
            rw [← htested, ← hmem, hds] at hd
            simp at hd
        · rw [if_neg hds]
          simp only [true_iff]
          refine ⟨hok, fun _ => ?_⟩
          obtain ⟨d, hd⟩ := List.exists_mem_of_ne_nil ds hds
          exact ⟨d, (htested d).1 ((hmem d).1 hd)⟩
      · intro hz _
        refine ⟨ds, by rw [he', lookup_setKey, if_pos rfl], ?_, hnd, hso, fun d => (hmem d).trans (htested d)⟩
        intro hds
        rw [hcount, if_pos hds] at hz
        simp at hz
    · obtain ⟨he', hz⟩ := d2 hn
      subst he' hz
      refine ⟨?_, ?_, ?_, ?_⟩
      · rw [hother "name" (by decide) (by decide), hname]
      · intro k hk
        simp only [List.mem_cons, List.not_mem_nil, or_false, not_or] at hk
        exact hsame k hk.2.1 hk.2.2.1 hk.1
      · simp only [true_iff]
        exact ⟨hok, fun hx => absurd (hneed.2 hx) hn⟩
      · intro _ hx
        exact absurd (hneed.2 hx) hn

/-- **C105**: the dictionary of tests is turned into a list of tests in the same order; every test has its name, and apart from `config`, `suzieq` and `devices` no other attribute is changed. -/
theorem C105_list (tests : List (String × List (String × Val))) (l : List (List (String × Val))) (n : Nat) (h : teProcess tests = some (l, n)) :
    List.Forall₂ (fun t e => e.lookup "name" = some (.str t.1) ∧ ∀ k, k ∉ ["name", "config", "suzieq", "devices"] → e.lookup k = t.2.lookup k) tests l := by
  unfold teProcess at h
  rw [Option.map_eq_some_iff] at h
  obtain ⟨r, hr, he⟩ := h
  simp only [Prod.mk.injEq] at he
  rw [← he.1]
  have := mapM_forall₂ teOne tests r hr
  clear hr he
  induction this with
  | nil => exact .nil
  | cons hx _ ih =>
    refine .cons ?_ ih
    obtain ⟨h1, h2, _⟩ := teOne_spec _ _ _ hx
    exact ⟨h1, h2⟩

/-- **C105**: no errors are reported if and only if every test makes sense and supports at least one device (when the devices have to be found from the test). -/
theorem C105_errors (tests : List (String × List (String × Val))) (l : List (List (String × Val))) (n : Nat) (h : teProcess tests = some (l, n)) :
    n = 0 ↔ ∀ t ∈ tests, TestMakesSense t.2 ∧ (NeedsDevices t.2 → ∃ d, DeviceTested t.2 d) := by
  unfold teProcess at h
  rw [Option.map_eq_some_iff] at h
  obtain ⟨r, hr, he⟩ := h
  simp only [Prod.mk.injEq] at he
  rw [← he.2]
  have := mapM_forall₂ teOne tests r hr
  clear hr he
  induction this with
  | nil => simp
  | @cons t p ts ps hx _ ih =>
    obtain ⟨_, _, h3, _⟩ := teOne_spec t p.1 p.2 hx
    simp only [List.map_cons, List.sum_cons, Nat.add_eq_zero_iff, List.forall_mem_cons]
    exact and_congr h3 ih

/-- **C105**: after a validation without errors, a test with `show` or `exec` action and no list of devices has a list of all devices that can be tested. -/
theorem C105_supported (tests : List (String × List (String × Val))) (l : List (List (String × Val))) (h : teProcess tests = some (l, 0)) :
    List.Forall₂ (fun t e => NeedsDevices t.2 → ∃ ds : List String, e.lookup "devices" = some (.list (ds.map .str)) ∧ ds ≠ [] ∧ ds.Nodup ∧ ds.Pairwise (· ≤ ·) ∧
      ∀ d, d ∈ ds ↔ DeviceTested t.2 d) tests l := by
  unfold teProcess at h
  rw [Option.map_eq_some_iff] at h
  obtain ⟨r, hr, he⟩ := h
  simp only [Prod.mk.injEq] at he
  rw [← he.1]
  have hs := he.2
  have := mapM_forall₂ teOne tests r hr
  clear hr he
  induction this with
  | nil => exact .nil
  | @cons t p ts ps hx _ ih =>
    simp only [List.map_cons, List.sum_cons, Nat.add_eq_zero_iff] at hs
    obtain ⟨_, _, _, h4⟩ := teOne_spec t p.1 p.2 hx
    exact .cons (h4 hs.1) (ih hs.2)

/-- **C105**: tests can be processed when their actions are strings or dictionaries. -/
theorem C105_no_crash (tests : List (String × List (String × Val)))
    (h : ∀ t ∈ tests, ∀ k ∈ ["show", "exec"], ∀ v, t.2.lookup k = some v → (∃ s, v = .str s) ∨ ∃ d, v = .dict d) : ∃ r, teProcess tests = some r := by
  unfold teProcess
  obtain ⟨r, hr⟩ := mapM_option_some teOne tests (by
    intro t ht
    unfold teOne
    simp only
    have he := teCheck_entry (setKey t.2 "name" (.str t.1))
    generalize teCheck (setKey t.2 "name" (.str t.1)) = c at he
    have hsame : ∀ k, k ∈ ["show", "exec"] → c.1.lookup k = t.2.lookup k := by
      intro k hk
      have h1 : k ≠ "config" := by rintro rfl; simp at hk
      have h2 : k ≠ "suzieq" := by rintro rfl; simp at hk
      have h3 : k ≠ "name" := by rintro rfl; simp at hk
      rcases he with he | he
      · rw [he, lookup_setKey, if_neg h3]
      · rw [he, teNorm_other _ _ h1 h2, lookup_setKey, if_neg h3]
    have hdev : ∀ k ∈ ["show", "exec"], ∃ l, teDevs (c.1.lookup k) = some l := by
      intro k hk
      rw [hsame k hk]
      cases hl : t.2.lookup k with
      | none => exact ⟨_, rfl⟩
      | some v =>
        rcases h t ht k hk v hl with ⟨s, rfl⟩ | ⟨d, rfl⟩
        · exact ⟨_, rfl⟩
        · exact ⟨_, rfl⟩
    split
    · unfold teSupport
      obtain ⟨a, ha⟩ := hdev "show" (by simp)
      obtain ⟨b, hb⟩ := hdev "exec" (by simp)
      rw [ha, hb]
      split
      · exact ⟨_, rfl⟩
      · split
        · exact ⟨_, rfl⟩
        · exact ⟨_, rfl⟩
    · exact ⟨_, rfl⟩)
  rw [hr]
  exact ⟨_, rfl⟩

example : teProcess [("t1", [("wait", .int 5)]), ("t2", [("nodes", .list []), ("exec", .str "ping"), ("devices", .list [.str "eos"])])] =
    some ([[("wait", .int 5), ("name", .str "t1")], [("nodes", .list []), ("exec", .str "ping"), ("devices", .list [.str "eos"]), ("name", .str "t2")]], 0) := by decide +kernel

example : NeedsDevices [("show", .dict [("eos", .str "b")]), ("valid", .str "x")] ∧ DeviceTested [("show", .dict [("eos", .str "b")]), ("valid", .str "x")] "eos" := by
  refine ⟨⟨Or.inl ⟨_, rfl⟩, ?_⟩, ⟨"show", by simp, _, rfl, by simp⟩, ?_⟩
  · rintro ⟨v, hv⟩
    simp [List.lookup] at hv
  · intro d hd
    simp [List.lookup] at hd

theorem toolCopy_spec (tools : List (String × List (String × Val))) (defaults : List (String × List (String × Val))) (hd : (defaults.map (·.1)).Nodup) :
    ∀ k, (toolCopy defaults tools).lookup k = (tools.lookup k).or ((defaults.lookup k).filter (fun d => decide (d.lookup "enabled" = some (.bool true)))) := by
  intro k
  unfold toolCopy
  induction defaults generalizing tools with
  | nil => simp [Option.filter]
  | cons d r ih =>
    simp only [List.map_cons, List.nodup_cons] at hd
    simp only [List.foldl_cons]
    rw [ih _ hd.2]
    obtain ⟨n, a⟩ := d
    unfold toolAdd
    simp only
    by_cases hk : k = n
    · subst hk
      have hn : r.lookup k = none := lookup_eq_none_iff.2 hd.1
      rw [lookup_cons_self, hn]
      by_cases he : a.lookup "enabled" = some (.bool true)
      · cases ht : tools.lookup k with
        | some v => simp [ht]
        | none => simp [he, List.lookup_append, ht, Option.filter]
      · rw [if_neg (fun h => he h.1)]
        simp [Option.filter, he]
    · rw [lookup_cons_ne _ _ (by exact hk)]
      split
      · have : (k == n) = false := by simpa using hk
        simp [List.lookup_append, List.lookup, this]
      · rfl

/-- Settings of a tool after processing: a known tool without a runtime is started with Docker. -/
def Spec.toolSettings (d : List (String × Val)) : List (String × Val) := if (d.lookup "runtime").isNone then setKey d "runtime" (.str "docker") else d

theorem lookup_toolRuntime (defaults : List (String × List (String × Val))) (l : List (String × List (String × Val))) (k : String) :
    ((l.map (toolRuntime defaults)).map (·.1)).lookup k = (l.lookup k).map (fun d => if (defaults.lookup k).isNone then d else toolSettings d) := by
  induction l with
  | nil => rfl
  | cons t r ih =>
    obtain ⟨n, a⟩ := t
    have h1 : (toolRuntime defaults (n, a)).1 = (n, if (defaults.lookup n).isNone then a else toolSettings a) := by
      unfold toolRuntime toolSettings
      simp only
      by_cases h1 : (defaults.lookup n).isNone = true
      · rw [if_pos h1, if_pos h1]
      · rw [if_neg h1, if_neg h1]
        split <;> rfl
    simp only [List.map_cons, h1]
    by_cases hk : k = n
    · subst hk; rw [lookup_cons_self, lookup_cons_self]; rfl
    · rw [lookup_cons_ne _ _ (by exact hk), lookup_cons_ne _ _ (by exact hk), ih]

/-- **C105**: tools specified in lab topology are kept, tools enabled in system defaults are added, and no other tool is used; known tools without a runtime use Docker. -/
theorem C105_tools (defaults tools ts : List (String × List (String × Val))) (hd : (defaults.map (·.1)).Nodup) (n : Nat) (h : toolProcess defaults tools = some (ts, n)) (k : String) :
    (∀ d, tools.lookup k = some d → ts.lookup k = some (if (defaults.lookup k).isNone then d else toolSettings d)) ∧
    (tools.lookup k = none → ∀ d, defaults.lookup k = some d → d.lookup "enabled" = some (.bool true) → ts.lookup k = some (toolSettings d)) ∧
    (tools.lookup k = none → (∀ d, defaults.lookup k = some d → d.lookup "enabled" ≠ some (.bool true)) → ts.lookup k = none) := by
  unfold toolProcess at h
  simp only at h
  rw [Option.map_eq_some_iff] at h
  obtain ⟨r, _, he⟩ := h
  simp only [Prod.mk.injEq] at he
  rw [← he.1, lookup_toolRuntime, toolCopy_spec tools defaults hd]
  refine ⟨?_, ?_, ?_⟩
  · intro d hl
    simp [hl]
  · intro hl d hdl hen
    simp [hl, hdl, Option.filter, hen]
  · intro hl hall
    rw [hl]
    cases hdl : defaults.lookup k with
    | none => rfl
    | some d => simp [Option.filter, hall d hdl]

theorem toolMerge_zero (defaults : List (String × List (String × Val))) (t : String × List (String × Val)) (h : toolMerge defaults t = some 0) :
    ToolStarts (mergeDict ((defaults.lookup t.1).getD []) t.2) := by
  unfold toolMerge at h
  simp only at h
  split at h
  · rename_i r hr
    split at h
    · rename_i x hx
      refine ⟨r, x, hr, hx, ?_⟩
      rw [← te_lookup_key]
      by_cases hu : (x.lookup "up").isSome = true
      · exact hu
      · rw [if_neg hu] at h; simp at h
    · simp at h
  all_goals simp at h

/-- **C105**: when no error is reported, every tool is a known tool, and its data (defaults merged with its settings) has a runtime with the command that starts the tool. -/
theorem C105_tools_start (defaults tools ts : List (String × List (String × Val))) (h : toolProcess defaults tools = some (ts, 0)) :
    ∀ t ∈ ts, ∃ d, defaults.lookup t.1 = some d ∧ ToolStarts (mergeDict d t.2) := by
  unfold toolProcess at h
  simp only at h
  rw [Option.map_eq_some_iff] at h
  obtain ⟨r, hr, he⟩ := h
  simp only [Prod.mk.injEq] at he
  rw [← he.1]
  have hs := he.2
  have hf := mapM_forall₂ _ _ r hr
  have hloc : ∀ t ∈ toolCopy defaults tools, toolMerge defaults (toolRuntime defaults t).1 = some 0 ∧ (toolRuntime defaults t).2 = 0 := by
    clear hr he
    generalize toolCopy defaults tools = l at *
    induction l generalizing r with
    | nil => simp
    | cons a l ih =>
      simp only [List.map_cons] at hf
      cases hf with
      | cons hx hrest =>
        simp only [List.sum_cons, Nat.add_eq_zero_iff] at hs
        rw [List.forall_mem_cons]
        refine ⟨?_, ih _ hs.2 hrest⟩
        rw [Option.map_eq_some_iff] at hx
        obtain ⟨m, hm, hb⟩ := hx
        rw [hs.1] at hb
        have h0 : m = 0 := by omega
        exact ⟨by rw [hm, h0], by omega⟩
  intro t ht
  simp only [List.map_map, List.mem_map, Function.comp] at ht
  obtain ⟨a, ha, rfl⟩ := ht
  obtain ⟨h1, h2⟩ := hloc a ha
  have hn : (toolRuntime defaults a).1.1 = a.1 := by
    unfold toolRuntime
    split
    · rfl
    · split <;> rfl
  have hk : ∃ d, defaults.lookup a.1 = some d := by
    cases hl : defaults.lookup a.1 with
    | some d => exact ⟨d, rfl⟩
    | none =>
      unfold toolRuntime at h2
      rw [hl] at h2
      simp at h2
  obtain ⟨d, hd⟩ := hk
  refine ⟨d, by rw [hn]; exact hd, ?_⟩
  have := toolMerge_zero defaults _ h1
  rw [hn, hd] at this
  exact this

example : toolProcess [("graphite", [("docker", .dict [("up", .str "run")])]), ("suzieq", [("enabled", .bool true), ("docker", .dict [("up", .str "run")])])] [("graphite", [])] =
    some ([("graphite", [("runtime", .str "docker")]), ("suzieq", [("enabled", .bool true), ("docker", .dict [("up", .str "run")]), ("runtime", .str "docker")])], 0) := by
  simp [toolProcess, toolCopy, toolAdd, toolRuntime, toolMerge, setKey, mergeDict, mergePair, mergeVal, List.lookup]

/-- **C105** (defect): an unknown tool without a runtime crashes netlab after the error was reported. -/
theorem C105_unknown_tool (defaults tools : List (String × List (String × Val))) (k : String) (d : List (String × Val)) (hm : (k, d) ∈ tools) (hk : defaults.lookup k = none)
    (hr : d.lookup "runtime" = none) (hu : (d.map (·.1)).Nodup) : toolProcess defaults tools = none := by
  have hin : (k, d) ∈ toolCopy defaults tools := by
    unfold toolCopy
    clear hk
    induction defaults generalizing tools with
    | nil => exact hm
    | cons a r ih =>
      simp only [List.foldl_cons]
      apply ih
      unfold toolAdd
      split
      · exact List.mem_append.2 (Or.inl hm)
      · exact hm
  unfold toolProcess
  simp only
  cases hx : ((toolCopy defaults tools).map (toolRuntime defaults)).mapM (fun t => (toolMerge defaults t.1).map (· + t.2)) with
  | none => rfl
  | some r =>
    exfalso
    have hf := mapM_forall₂ _ _ r hx
    clear hx
    have hloc : ∀ t ∈ (toolCopy defaults tools).map (toolRuntime defaults), ∃ y, (toolMerge defaults t.1).map (· + t.2) = some y := by
      generalize (toolCopy defaults tools).map (toolRuntime defaults) = l at hf
      induction hf with
      | nil => simp
      | cons h1 _ ih =>
        rw [List.forall_mem_cons]
        exact ⟨⟨_, h1⟩, ih⟩
    obtain ⟨y, hy⟩ := hloc _ (List.mem_map.2 ⟨(k, d), hin, rfl⟩)
    have h1 : toolRuntime defaults (k, d) = ((k, d), 1) := by
      unfold toolRuntime
      rw [hk]
      rfl
    rw [h1] at hy
    have h2 : toolMerge defaults (k, d) = none := by
      unfold toolMerge
      simp only [hk, Option.getD_none]
      have : (mergeDict [] d).lookup "runtime" = none := by
        rw [lookup_eq_none_iff] at hr ⊢
        intro hm
        rw [mem_keys_mergeDict _ _ hu] at hm
        simp at hm
        simp at hr
        obtain ⟨x, hx⟩ := hm
        exact hr x hx
      rw [this]
    rw [h2] at hy
    simp at hy

end Netlab
