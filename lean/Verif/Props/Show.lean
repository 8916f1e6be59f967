import Verif.Spec.Show
import Verif.Lemmas.Box
import Verif.Props.TestEntry
import Verif.Props.HashOrder
/-!
# C145: `netlab show` commands display the content of system defaults
-/

namespace Netlab

open Spec

theorem shWanted_iff (arg d : String) : shWanted arg d = true ↔ Displayed arg d := by
  unfold shWanted Displayed shSkip
  by_cases h1 : d = "none" <;> by_cases h2 : d = "unknown" <;> by_cases h3 : arg = "*" <;> by_cases h4 : d = arg <;>
    simp [h1, h2, h3, h4] <;> simp_all [eq_comm]

theorem mem_shDevices (devs : List ShDev) (arg n : String) :
    n ∈ shDevices devs arg ↔ (∃ d ∈ devs, d.name = n) ∧ Displayed arg n := by
  unfold shDevices
  rw [List.mem_filter, mem_sortedSet, List.mem_map, shWanted_iff]

theorem shDev_mem {devs : List ShDev} (hu : (devs.map (·.name)).Nodup) {d : ShDev} (hd : d ∈ devs) : shDev devs d.name = d := by
  unfold shDev
  induction devs with
  | nil => cases hd
  | cons e r ih =>
    simp only [List.map_cons, List.nodup_cons] at hu
    rcases List.mem_cons.mp hd with h | h
    · subst h
      simp
    · have : ¬ (e.name == d.name) = true := by
        intro hx
        exact hu.1 (List.mem_map.mpr ⟨d, h, (by simpa using hx : e.name = d.name).symm⟩)
      rw [List.find?_cons_of_neg (by exact this)]
      exact ih hu.2 h

theorem mem_showDevices {devs : List ShDev} (hu : (devs.map (·.name)).Nodup) (arg n : String) (x : ShDescr) :
    (n, x) ∈ showDevices devs arg ↔ ∃ d ∈ devs, d.name = n ∧ Displayed arg n ∧ x = shDescr d := by
  unfold showDevices
  simp only [List.mem_map, mem_shDevices, Prod.mk.injEq]
  constructor
  · rintro ⟨a, ⟨⟨d, hd, he⟩, hw⟩, h1, h2⟩
    subst h1
    subst he
    rw [shDev_mem hu hd] at h2
    exact ⟨d, hd, rfl, hw, h2.symm⟩
  · rintro ⟨d, hd, he, hw, hx⟩
    subst he
    exact ⟨d.name, ⟨⟨d, hd, rfl⟩, hw⟩, rfl, by rw [shDev_mem hu hd, hx]⟩

/-- **C145**: `netlab show devices` displays the descriptions of selected devices in alphabetical order and without duplicates; in
the tables, daemons are separated from other devices. -/
theorem C145_devices (devs : List ShDev) (hu : (devs.map (·.name)).Nodup) (arg : String) :
    (∀ n x, (n, x) ∈ showDevices devs arg ↔ ∃ d ∈ devs, d.name = n ∧ Displayed arg n ∧
      ((d.daemon = true ∧ x = .daemon d.description d.parent) ∨ (d.daemon = false ∧ x = .plain d.description))) ∧
    (∀ n s, (n, s) ∈ showDevTable devs arg ↔ ∃ d ∈ devs, d.name = n ∧ Displayed arg n ∧ d.daemon = false ∧ d.description = some s) ∧
    (∀ n s, (n, s) ∈ showDaemonTable devs arg ↔ ∃ d ∈ devs, d.name = n ∧ Displayed arg n ∧ d.daemon = true ∧ d.description = s) ∧
    ((showDevices devs arg).map (·.1)).Pairwise (· ≤ ·) ∧ ((showDevices devs arg).map (·.1)).Nodup := by
  refine ⟨fun n x => ?_, fun n s => ?_, fun n s => ?_, ?_, ?_⟩
  · rw [mem_showDevices hu]
    refine exists_congr fun d => and_congr_right fun _ => and_congr_right fun _ => and_congr_right fun _ => ?_
    unfold shDescr
    cases d.daemon <;> simp
  · unfold showDevTable
    simp only [List.mem_filterMap]
    constructor
    · rintro ⟨⟨a, x⟩, hm, hx⟩
      obtain ⟨d, hd, he, hw, hh⟩ := (mem_showDevices hu _ _ _).mp hm
      subst hh
      unfold shDescr at hx
      cases hdd : d.daemon with
      | true => simp [hdd] at hx
      | false =>
        cases hde : d.description with
        | none => simp [hdd, hde] at hx
        | some t =>
          simp [hdd, hde] at hx
          refine ⟨d, hd, ?_, ?_, hdd, ?_⟩
          · rw [he, hx.1]
          · rw [← hx.1]; exact hw
          · rw [hde, hx.2]
    · rintro ⟨d, hd, he, hw, hdd, hde⟩
      refine ⟨(n, .plain (some s)), (mem_showDevices hu _ _ _).mpr ⟨d, hd, he, hw, ?_⟩, rfl⟩
      simp [shDescr, hdd, hde]
  · unfold showDaemonTable
    simp only [List.mem_filterMap]
    constructor
    · rintro ⟨⟨a, x⟩, hm, hx⟩
      obtain ⟨d, hd, he, hw, hh⟩ := (mem_showDevices hu _ _ _).mp hm
      subst hh
      unfold shDescr at hx
      cases hdd : d.daemon with
      | false => simp [hdd] at hx
      | true =>
        simp [hdd] at hx
        refine ⟨d, hd, ?_, ?_, hdd, hx.2⟩
        · rw [he, hx.1]
        · rw [← hx.1]; exact hw
    · rintro ⟨d, hd, he, hw, hdd, hde⟩
      refine ⟨(n, .daemon s d.parent), (mem_showDevices hu _ _ _).mpr ⟨d, hd, he, hw, ?_⟩, rfl⟩
      simp [shDescr, hdd, hde]
  · have : (showDevices devs arg).map (·.1) = shDevices devs arg := by
      unfold showDevices
      rw [List.map_map]
      exact List.map_id' _
    rw [this]
    exact (sorted_sortedSet _).sublist List.filter_sublist
  · have : (showDevices devs arg).map (·.1) = shDevices devs arg := by
      unfold showDevices
      rw [List.map_map]
      exact List.map_id' _
    rw [this]
    exact (nodup_sortedSet _).sublist List.filter_sublist

/-- **C145**: `netlab show images` displays the images of selected devices for all providers apart from `external`. -/
theorem C145_images (provs : List String) (devs : List ShDev) (hu : (devs.map (·.name)).Nodup) (arg : String) (n : String)
    (row : List (String × String)) :
    (n, row) ∈ showImages provs devs arg ↔ ∃ d ∈ devs, d.name = n ∧ Displayed arg n ∧
      row.map (·.1) = provs.filter (· != "external") ∧ ∀ p i, (p, i) ∈ row → d.images.lookup p = some i ∨ (d.images.lookup p = none ∧ i = "") := by
  unfold showImages
  simp only [List.mem_map, mem_shDevices, Prod.mk.injEq]
  constructor
  · rintro ⟨a, ⟨⟨d, hd, he⟩, hw⟩, h1, h2⟩
    subst h1
    subst he
    rw [shDev_mem hu hd] at h2
    refine ⟨d, hd, rfl, hw, ?_, ?_⟩
    · rw [← h2, List.map_map]
      exact List.map_id' _
    · intro p i hp
      rw [← h2] at hp
      obtain ⟨q, _, hq⟩ := List.mem_map.mp hp
      simp only [Prod.mk.injEq] at hq
      obtain ⟨h1, h2⟩ := hq
      subst h1
      cases h : d.images.lookup q with
      | none => right; rw [h] at h2; exact ⟨rfl, h2.symm⟩
      | some t => left; rw [h] at h2; exact congrArg some h2
  · rintro ⟨d, hd, he, hw, h1, h2⟩
    subst he
    refine ⟨d.name, ⟨⟨d, hd, rfl⟩, hw⟩, rfl, ?_⟩
    rw [shDev_mem hu hd, ← h1, List.map_map]
    have : ∀ x ∈ row, (((fun p => (p, (d.images.lookup p).getD "")) ∘ (·.1)) x) = x := by
      rintro ⟨p, i⟩ hx
      rcases h2 p i hx with h | ⟨h, h'⟩
      · simp [h]
      · simp [h, h']
    rw [List.map_congr_left this]
    exact List.map_id' _

theorem shSupports_iff {mods : List ShMod} (hu : (mods.map (·.name)).Nodup) (m d : String) :
    shSupports mods m d = true ↔ Supports mods m d := by
  unfold shSupports Supports
  induction mods with
  | nil => simp
  | cons e r ih =>
    simp only [List.map_cons, List.nodup_cons] at hu
    by_cases h : e.name = m
    · rw [List.find?_cons_of_pos (by simpa using h)]
      simp only [List.contains_eq_mem, decide_eq_true_eq, List.mem_cons]
      constructor
      · intro hd
        exact ⟨e, Or.inl rfl, h, hd⟩
      · rintro ⟨x, hx | hx, h1, h2⟩
        · subst hx; exact h2
        · exact (hu.1 (List.mem_map.mpr ⟨x, hx, by rw [h1, h]⟩)).elim
    · rw [List.find?_cons_of_neg (by simpa using h), ih hu.2]
      constructor
      · rintro ⟨x, hx, h1, h2⟩
        exact ⟨x, List.mem_cons_of_mem _ hx, h1, h2⟩
      · rintro ⟨x, hx, h1, h2⟩
        rcases List.mem_cons.mp hx with hx | hx
        · subst hx; exact (h h1).elim
        · exact ⟨x, hx, h1, h2⟩

theorem shModlist_all (mods : List ShMod) : shModlist mods none = some (sortedSet (mods.map (·.name))) := rfl

theorem shModlist_mem {mods : List ShMod} (m : Option String) (l : List String)
    (h : shModlist mods m = some l) (x : String) :
    x ∈ l ↔ (∃ y ∈ mods, y.name = x) ∧ (m = none ∨ m = some x) := by
  cases m with
  | none =>
    rw [shModlist_all] at h
    cases h
    rw [mem_sortedSet]
    simp
  | some m =>
    unfold shModlist at h
    dsimp only at h
    cases hf : mods.find? (fun x => x.name == m) with
    | none => rw [hf] at h; cases h
    | some y =>
      rw [hf] at h
      dsimp only at h
      split at h
      · cases h
      · cases h
        have hy := List.mem_of_find?_eq_some hf
        have hn := List.find?_some hf
        simp only [beq_iff_eq] at hn
        simp only [List.mem_singleton, reduceCtorEq, false_or, Option.some.injEq]
        constructor
        · intro hx
          subst hx
          exact ⟨⟨y, hy, hn⟩, rfl⟩
        · rintro ⟨_, hx⟩
          exact hx.symm

/-- **C145**: `netlab show module-support` has a column for every (selected) module, a row for every selected device, and marks
modules supported by the device; the text format lists supported modules.  The command fails only when the selected module does not
exist or has no devices. -/
theorem C145_support (mods : List ShMod) (devs : List ShDev) (hm : (mods.map (·.name)).Nodup) (arg : String) (m : Option String) :
    (supportTable mods devs arg m = none ↔ ∃ x, m = some x ∧ ∀ d, ¬ Supports mods x d) ∧
    ∀ cols rows, supportTable mods devs arg m = some (cols, rows) →
      (∀ x, x ∈ cols ↔ (∃ y ∈ mods, y.name = x) ∧ (m = none ∨ m = some x)) ∧
      (∀ d, d ∈ rows.map (·.1) ↔ (∃ e ∈ devs, e.name = d) ∧ Displayed arg d) ∧
      (∀ d marks, (d, marks) ∈ rows → marks.length = cols.length ∧
        ∀ (i : Nat) (x : String), cols[i]? = some x → (marks[i]? = some true ↔ Supports mods x d)) ∧
      ∃ text, supportText mods devs arg m = some text ∧ text.map (·.1) = rows.map (·.1) ∧
        ∀ d l, (d, l) ∈ text → ∀ x, x ∈ l ↔ x ∈ cols ∧ Supports mods x d := by
  constructor
  · unfold supportTable
    rw [Option.map_eq_none_iff]
    cases m with
    | none => simp [shModlist_all]
    | some m =>
      unfold shModlist
      dsimp only
      have key : (∃ x, some m = some x ∧ ∀ d, ¬ Supports mods x d) ↔ ∀ d, ¬ Supports mods m d := by
        constructor
        · rintro ⟨x, hx, h⟩
          cases hx
          exact h
        · exact fun h => ⟨m, rfl, h⟩
      rw [key]
      cases hf : mods.find? (fun x => x.name == m) with
      | none =>
        simp only [true_iff]
        intro d hs
        rw [← shSupports_iff hm] at hs
        unfold shSupports at hs
        rw [hf] at hs
        cases hs
      | some y =>
        have hd : ∀ d, Supports mods m d ↔ d ∈ y.supported := by
          intro d
          rw [← shSupports_iff hm]
          unfold shSupports
          rw [hf]
          simp
        simp only [hd]
        by_cases he : y.supported.isEmpty = true
        · simp only [he, if_true, true_iff]
          intro d
          rw [List.isEmpty_iff.mp he]
          simp
        · simp only [he]
          simp only [Bool.false_eq_true, if_false, reduceCtorEq, false_iff]
          intro hx
          cases hl : y.supported with
          | nil => rw [hl] at he; exact he rfl
          | cons a b => exact hx a (by rw [hl]; simp)
  · intro cols rows h
    unfold supportTable at h
    obtain ⟨l, hl, hx⟩ := Option.map_eq_some_iff.mp h
    simp only [Prod.mk.injEq] at hx
    obtain ⟨h1, h2⟩ := hx
    subst h1
    have hr : rows.map (·.1) = shDevices devs arg := by
      rw [← h2, List.map_map]
      exact List.map_id' _
    refine ⟨shModlist_mem m l hl, ?_, ?_, ?_⟩
    · intro d
      rw [hr, mem_shDevices]
    · intro d marks hd
      rw [← h2] at hd
      obtain ⟨e, _, he⟩ := List.mem_map.mp hd
      simp only [Prod.mk.injEq] at he
      obtain ⟨he1, he2⟩ := he
      subst he1
      subst he2
      refine ⟨by simp, ?_⟩
      intro i x hi
      rw [List.getElem?_map, hi, Option.map_some, ← shSupports_iff hm]
      simp
    · unfold supportText
      rw [hl, Option.map_some]
      refine ⟨_, rfl, ?_, ?_⟩
      · rw [hr, List.map_map]
        exact List.map_id' _
      · intro d l' hd x
        obtain ⟨e, _, he⟩ := List.mem_map.mp hd
        simp only [Prod.mk.injEq] at he
        obtain ⟨he1, he2⟩ := he
        subst he1
        subst he2
        rw [List.mem_filter, shSupports_iff hm]

theorem supportAdd_lookup (d : ShDev) (l : List String) (acc : List (String × Val)) (x : String) :
    (supportAdd d l acc).lookup x = if x ∈ l then some (shFeature d x) else acc.lookup x := by
  unfold supportAdd
  induction l generalizing acc with
  | nil => simp
  | cons m r ih =>
    rw [List.foldl_cons, ih, lookup_setKey]
    by_cases h1 : x ∈ r
    · simp [h1]
    · by_cases h2 : x = m
      · simp [h2]
      · simp [h1, h2]

theorem shFeature_iff (d : ShDev) (m : String) (v : Val) : shFeature d m = v ↔ DisplayedFeatures d m v := by
  unfold shFeature DisplayedFeatures
  cases h : d.features.lookup m with
  | none => simp [eq_comm]
  | some w =>
    cases w with
    | dict l => cases l <;> simp [eq_comm] <;> (rintro rfl; simp)
    | _ => simp [eq_comm] <;> (rintro rfl; simp)

/-- **C145**: `netlab show module-support --device d --format yaml` displays the modules supported by the device and their features.
-/
theorem C145_support_yaml (mods : List ShMod) (devs : List ShDev) (hm : (mods.map (·.name)).Nodup) (hu : (devs.map (·.name)).Nodup)
    (d : ShDev) (hd : d ∈ devs) (hn : Displayed d.name d.name) (ha : d.name ≠ "*") (m : Option String) (y : List (String × Val))
    (h : supportYaml mods devs d.name m = some y) (x : String) (v : Val) :
    y.lookup x = some v ↔ Supports mods x d.name ∧ (m = none ∨ m = some x) ∧ DisplayedFeatures d x v := by
  unfold supportYaml at h
  obtain ⟨l, hl, rfl⟩ := Option.map_eq_some_iff.mp h
  have hdev : shDevices devs d.name = [d.name] := by
    have hnd : (shDevices devs d.name).Nodup := (nodup_sortedSet _).sublist List.filter_sublist
    have hmem : ∀ n, n ∈ shDevices devs d.name ↔ n = d.name := by
      intro n
      rw [mem_shDevices]
      constructor
      · rintro ⟨_, _, _, h | h⟩
        · exact (ha h).elim
        · exact h.symm
      · intro hx
        subst hx
        exact ⟨⟨d, hd, rfl⟩, hn⟩
    cases hs : shDevices devs d.name with
    | nil => exact ((List.not_mem_nil (a := d.name)) (hs ▸ (hmem d.name).mpr rfl)).elim
    | cons a r =>
      rw [hs] at hnd hmem
      have ha' := (hmem a).mp (by simp)
      subst ha'
      cases r with
      | nil => rfl
      | cons b r =>
        have hb := (hmem b).mp (by simp)
        simp only [List.nodup_cons, List.mem_cons] at hnd
        exact (hnd.1 (Or.inl hb.symm)).elim
  rw [hdev, List.foldl_cons, List.foldl_nil, supportAdd_lookup, shDev_mem hu hd]
  have hmem : x ∈ l.filter (fun x => shSupports mods x d.name) ↔
      ((∃ y ∈ mods, y.name = x) ∧ (m = none ∨ m = some x)) ∧ Supports mods x d.name := by
    rw [List.mem_filter, shSupports_iff hm, shModlist_mem m l hl]
  rw [← shFeature_iff]
  constructor
  · intro h
    split at h
    · rename_i hc
      have hc := hmem.mp hc
      exact ⟨hc.2, hc.1.2, by simpa using h⟩
    · cases h
  · rintro ⟨h1, h2, h3⟩
    have h4 : ∃ y ∈ mods, y.name = x := by
      obtain ⟨z, hz, hz1, _⟩ := h1
      exact ⟨z, hz, hz1⟩
    rw [if_pos (hmem.mpr ⟨⟨h4, h2⟩, h1⟩), h3]

/-- The last device in the list that supports the module decides. -/
theorem supportFold_lookup (g : String → ShDev) (f : String → List String) (ns : List String) (acc : List (String × Val)) (x : String) :
    (ns.foldl (fun acc n => supportAdd (g n) (f n) acc) acc).lookup x =
      match (ns.filter (fun n => decide (x ∈ f n))).getLast? with
      | some n => some (shFeature (g n) x)
      | none => acc.lookup x := by
  induction ns generalizing acc with
  | nil => simp
  | cons n r ih =>
    rw [List.foldl_cons, ih, supportAdd_lookup]
    by_cases h : x ∈ f n
    · rw [List.filter_cons_of_pos (by simpa using h)]
      cases hr : r.filter (fun n => decide (x ∈ f n)) with
      | nil => simp [h]
      | cons a b =>
        rw [List.getLast?_cons_cons]
        rw [show (a :: b).getLast? = some ((a :: b).getLast (by simp)) from List.getLast?_eq_some_getLast _]
    · rw [List.filter_cons_of_neg (by simpa using h)]
      simp [h]

/-- **C145** (defect): without the `--device` argument, the YAML format has no device names; every module has the features of the
last device (in alphabetical order) supporting it. -/
theorem C145_support_yaml_all (mods : List ShMod) (devs : List ShDev) (hm : (mods.map (·.name)).Nodup) (hu : (devs.map (·.name)).Nodup)
    (y : List (String × Val)) (h : supportYaml mods devs "*" none = some y) :
    (∀ x, (y.lookup x).isSome → ∃ z ∈ mods, z.name = x) ∧
    ∀ d ∈ devs, ∀ x, Displayed "*" d.name → Supports mods x d.name →
      (∀ e ∈ devs, Displayed "*" e.name → Supports mods x e.name → e.name ≤ d.name) →
      ∃ v, y.lookup x = some v ∧ DisplayedFeatures d x v := by
  unfold supportYaml at h
  obtain ⟨l, hl, rfl⟩ := Option.map_eq_some_iff.mp h
  constructor
  · intro x hx
    rw [supportFold_lookup] at hx
    cases hg : ((shDevices devs "*").filter (fun n => decide (x ∈ l.filter (fun x => shSupports mods x n)))).getLast? with
    | none => rw [hg] at hx; cases hx
    | some n =>
      have hn := List.mem_of_getLast? hg
      have := (List.mem_filter.mp hn).2
      simp only [decide_eq_true_eq, List.mem_filter] at this
      exact ((shModlist_mem none l hl x).mp this.1).1
  · intro d hd x hdis hs hlast
    refine ⟨shFeature d x, ?_, (shFeature_iff d x _).mp rfl⟩
    rw [supportFold_lookup]
    have hx : x ∈ l := by
      obtain ⟨z, hz, hz1, _⟩ := hs
      exact (shModlist_mem none l hl x).mpr ⟨⟨z, hz, hz1⟩, Or.inl rfl⟩
    have hin : d.name ∈ (shDevices devs "*").filter (fun n => decide (x ∈ l.filter (fun x => shSupports mods x n))) := by
      rw [List.mem_filter, mem_shDevices]
      exact ⟨⟨⟨d, hd, rfl⟩, hdis⟩, by simp [hx, (shSupports_iff hm x d.name).mpr hs]⟩
    cases hg : ((shDevices devs "*").filter (fun n => decide (x ∈ l.filter (fun x => shSupports mods x n)))).getLast? with
    | none =>
      rw [List.getLast?_eq_none_iff] at hg
      rw [hg] at hin
      cases hin
    | some n =>
      have hn := List.mem_of_getLast? hg
      obtain ⟨h1, h2⟩ := List.mem_filter.mp hn
      obtain ⟨⟨e, he, hen⟩, hew⟩ := (mem_shDevices devs "*" n).mp h1
      simp only [decide_eq_true_eq, List.mem_filter] at h2
      have hle : n ≤ d.name := by
        rw [← hen]
        exact hlast e he (hen ▸ hew) (hen ▸ (shSupports_iff hm x n).mp h2.2)
      have hge : d.name ≤ n := by
        have hp : ((shDevices devs "*").filter (fun n => decide (x ∈ l.filter (fun x => shSupports mods x n)))).Pairwise (· ≤ ·) :=
          ((sorted_sortedSet _).sublist List.filter_sublist).sublist List.filter_sublist
        obtain ⟨pre, hpre⟩ := List.getLast?_eq_some_iff.mp hg
        rw [hpre] at hin hp
        rcases List.mem_append.mp hin with hi | hi
        · exact (List.pairwise_append.mp hp).2.2 _ hi _ (by simp)
        · rw [List.mem_singleton.mp hi]
          exact String.le_refl n
      have : n = d.name := String.le_antisymm hle hge
      subst this
      dsimp only
      rw [shDev_mem hu hd]

/-- **C145**: `netlab show modules` lists, for every module (or the selected one), the devices supporting it. -/
theorem C145_modules (mods : List ShMod) (devs : List ShDev) (hm : (mods.map (·.name)).Nodup) (hi : ∀ x ∈ mods, x.name ≠ "initial")
    (m : Option String) (text : List (String × List String)) (h : showModText mods devs m = some text) :
    (m = some "initial" → ∃ l, text = [("initial", l)] ∧ ∀ d, d ∈ l ↔ (∃ e ∈ devs, e.name = d) ∧ Displayed "*" d) ∧
    (m ≠ some "initial" →
      (∀ x, x ∈ text.map (·.1) ↔ (∃ y ∈ mods, y.name = x) ∧ (m = none ∨ m = some x)) ∧
      ∀ x l, (x, l) ∈ text → ∀ d, d ∈ l ↔ Supports mods x d ∧ Displayed "*" d) := by
  unfold showModText at h
  obtain ⟨l, hl, rfl⟩ := Option.map_eq_some_iff.mp h
  have hskip : ∀ d, (!shSkip.contains d) = true ↔ Displayed "*" d := by
    intro d
    rw [← shWanted_iff]
    unfold shWanted
    simp
  constructor
  · intro hx
    unfold showModlist at hl
    rw [if_pos hx] at hl
    cases hl
    refine ⟨_, rfl, ?_⟩
    intro d
    unfold showModDevs
    rw [if_pos rfl, List.mem_filter, hskip, List.mem_map]
  · intro hx
    unfold showModlist at hl
    rw [if_neg hx] at hl
    have hmem := shModlist_mem m l hl
    refine ⟨?_, ?_⟩
    · intro x
      rw [List.map_map, ← hmem]
      simp
    · intro x l' hl' d
      obtain ⟨z, hz, hz'⟩ := List.mem_map.mp hl'
      simp only [Prod.mk.injEq] at hz'
      obtain ⟨h1, h2⟩ := hz'
      subst h1
      obtain ⟨⟨y, hy, hyn⟩, _⟩ := (hmem z).mp hz
      have hne : z ≠ "initial" := hyn ▸ hi y hy
      rw [← h2, ← shSupports_iff hm, ← hskip]
      unfold showModDevs shSupports
      rw [if_neg hne, List.mem_filter]
      cases mods.find? (fun x => x.name == z) <;> simp

/-- **C145** (defect): the YAML format without a module argument has the names of modules, but not a single device. -/
theorem C145_modules_yaml (mods : List ShMod) :
    ∃ y, showModYaml mods = some y ∧ (∀ x, x ∈ y.map (·.1) ↔ ∃ z ∈ mods, z.name = x) ∧ ∀ x v, (x, v) ∈ y → v = .dict [] := by
  unfold showModYaml showModlist
  rw [if_neg (by simp), shModlist_all]
  refine ⟨_, rfl, ?_, ?_⟩
  · intro x
    rw [List.map_map]
    have := shModlist_mem none _ (shModlist_all mods) x
    simp only [true_or, and_true] at this
    rw [← this]
    simp
  · intro x v h
    obtain ⟨z, _, hz⟩ := List.mem_map.mp h
    simp only [Prod.mk.injEq] at hz
    exact hz.2.symm

/-- **C145**: `netlab show modules --module m --format yaml` displays the features of all devices supporting the module, or the
selected feature; it fails only when the features of a device are not a dictionary. -/
theorem C145_features_yaml (mods : List ShMod) (devs : List ShDev) (m : String) (f : Option String)
    (hd : ∀ d ∈ showModDevs mods devs m, ∃ l, shDevFeatures devs d m = .dict l) :
    ∃ y, showFeatYaml mods devs m f = some y ∧ y.map (·.1) = showModDevs mods devs m ∧
      ∀ d v, (d, v) ∈ y → ∀ k w, Val.at v [k] = some w ↔ Val.at (shDevFeatures devs d m) [k] = some w ∧ (f = none ∨ f = some k) := by
  unfold showFeatYaml
  generalize showModDevs mods devs m = ds at hd
  induction ds with
  | nil => exact ⟨[], rfl, rfl, by simp⟩
  | cons a r ih =>
    obtain ⟨y, h1, h2, h3⟩ := ih (fun d hd' => hd d (List.mem_cons_of_mem _ hd'))
    obtain ⟨l, hl⟩ := hd a (by simp)
    have key : ∃ v, shOnly f (.dict l) = some v ∧
        ∀ k w, Val.at v [k] = some w ↔ Val.at (.dict l) [k] = some w ∧ (f = none ∨ f = some k) := by
      cases f with
      | none => exact ⟨_, rfl, fun k w => by simp⟩
      | some f =>
        unfold shOnly
        dsimp only
        cases hf : l.lookup f with
        | none =>
          refine ⟨_, rfl, fun k w => ?_⟩
          simp only [Val.at, List.lookup_nil, reduceCtorEq, false_or, Option.some.injEq, false_iff]
          rintro ⟨hh, he⟩
          subst he
          rw [hf] at hh
          cases hh
        | some t =>
          refine ⟨_, rfl, fun k w => ?_⟩
          by_cases he : f = k
          · subst he
            simp [Val.at, hf]
          · have hb : (k == f) = false := by simpa using fun hh => he hh.symm
            simp [Val.at, List.lookup_cons, hb, he]
    obtain ⟨v, hv, hk⟩ := key
    refine ⟨(a, v) :: y, ?_, ?_, ?_⟩
    · rw [List.mapM_cons, hl, hv, h1]
      rfl
    · rw [List.map_cons, h2]
    · intro d w hw
      rcases List.mem_cons.mp hw with hw | hw
      · cases hw
        rw [hl]
        exact hk
      · exact h3 d w hw

/-- The keys below a dictionary: paths to values that are not dictionaries -/
theorem leafAt_cons {k : String} {v : Val} {r : List (String × Val)} (hk : k ∉ r.map (·.1)) (p : List String) (w : Val) :
    Val.leafAt (.dict ((k, v) :: r)) p w ↔ (∃ q, p = k :: q ∧ Val.leafAt v q w) ∨ Val.leafAt (.dict r) p w := by
  unfold Val.leafAt
  cases p with
  | nil =>
    simp only [Val.at, Option.some.injEq]
    constructor
    · rintro ⟨h, h'⟩; subst h; cases h'
    · rintro (⟨q, hq, _⟩ | ⟨h, h'⟩)
      · cases hq
      · subst h; cases h'
  | cons j q =>
    by_cases h : j = k
    · subst h
      have : r.lookup j = none := by
        rw [List.lookup_eq_none_iff]
        intro x hx
        simp only [bne_iff_ne, ne_eq]
        intro he
        exact hk (List.mem_map.mpr ⟨x, hx, he.symm⟩)
      simp [Val.at, this]
    · have hb : (j == k) = false := by simpa using h
      simp [Val.at, List.lookup_cons, hb, h]

/-- Unique keys in all dictionaries -/
theorem uniqueKeys_cons {k : String} {v : Val} {r : List (String × Val)} (h : Val.UniqueKeys (.dict ((k, v) :: r))) :
    k ∉ r.map (·.1) ∧ Val.UniqueKeys v ∧ Val.UniqueKeys (.dict r) := by
  have h0 := h [] _ rfl
  simp only [List.map_cons, List.nodup_cons] at h0
  refine ⟨h0.1, ?_, ?_⟩
  · intro p d hp
    exact h (k :: p) d (by simpa [Val.at] using hp)
  · intro p d hp
    cases p with
    | nil =>
      simp only [Val.at, Option.some.injEq, Val.dict.injEq] at hp
      subst hp
      exact h0.2
    | cons j q =>
      refine h (j :: q) d ?_
      have hj : j ≠ k := by
        intro he
        subst he
        have : r.lookup j = none := by
          rw [List.lookup_eq_none_iff]
          intro x hx
          simp only [bne_iff_ne, ne_eq]
          intro he
          exact h0.1 (List.mem_map.mpr ⟨x, hx, he.symm⟩)
        simp [Val.at, this] at hp
      have hb : (j == k) = false := by simpa using hj
      simpa [Val.at, List.lookup_cons, hb] using hp

theorem lastKeys_cons (k : String) (q : List String) (hq : q ≠ []) (c : String) :
    (LastKeys (k :: q) c ↔ (∃ j, q = [j] ∧ c = k ++ "." ++ j) ∨ (2 ≤ q.length ∧ LastKeys q c)) := by
  unfold LastKeys
  constructor
  · rintro (⟨j, h, _⟩ | ⟨p, i, j, h, hc⟩)
    · simp only [List.cons.injEq] at h
      exact (hq h.2).elim
    · cases p with
      | nil =>
        simp only [List.nil_append, List.cons.injEq] at h
        obtain ⟨rfl, rfl⟩ := h
        exact Or.inl ⟨j, rfl, hc⟩
      | cons a p =>
        simp only [List.cons_append, List.cons.injEq] at h
        obtain ⟨rfl, rfl⟩ := h
        exact Or.inr ⟨by simp, Or.inr ⟨p, i, j, rfl, hc⟩⟩
  · rintro (⟨j, rfl, hc⟩ | ⟨hl, ⟨j, rfl, hc⟩ | ⟨p, i, j, rfl, hc⟩⟩)
    · exact Or.inr ⟨[], k, j, rfl, hc⟩
    · simp at hl
    · exact Or.inr ⟨k :: p, i, j, rfl, hc⟩

theorem featureList_leaf {pfx k : String} {v : Val} {r : List (String × Val)} (hv : v.isDict = false) :
    featureList pfx ((k, v) :: r) = (pfx ++ k) :: featureList pfx r := by
  cases v with
  | dict d => cases hv
  | _ => rw [featureList]

theorem leafAt_scalar {v : Val} (hv : v.isDict = false) (q : List String) (w : Val) : Val.leafAt v q w ↔ q = [] ∧ w = v := by
  unfold Val.leafAt
  cases q with
  | nil =>
    simp only [Val.at, Option.some.injEq, true_and]
    constructor
    · rintro ⟨h, _⟩; exact h.symm
    · rintro rfl; exact ⟨rfl, hv⟩
  | cons a q =>
    cases v with
    | dict d => cases hv
    | _ => simp [Val.at]

theorem mem_featureList (pfx : String) (l : List (String × Val)) (hu : Val.UniqueKeys (.dict l)) (c : String) :
    c ∈ featureList pfx l ↔ ∃ p w, Val.leafAt (.dict l) p w ∧ ((∃ k, p = [k] ∧ c = pfx ++ k) ∨ (2 ≤ p.length ∧ LastKeys p c)) := by
  induction pfx, l using featureList.induct with
  | case1 pfx =>
    rw [featureList]
    simp only [List.not_mem_nil, false_iff]
    rintro ⟨p, w, ⟨h1, h2⟩, _⟩
    cases p with
    | nil => simp only [Val.at, Option.some.injEq] at h1; subst h1; cases h2
    | cons a b => simp [Val.at] at h1
  | case2 pfx k d r ih1 ih2 =>
    obtain ⟨hk, hu1, hu2⟩ := uniqueKeys_cons hu
    rw [featureList, List.mem_append, ih1 hu1, ih2 hu2]
    constructor
    · rintro (⟨p, w, hp, hc⟩ | ⟨p, w, hp, hc⟩)
      · refine ⟨k :: p, w, (leafAt_cons hk _ _).mpr (Or.inl ⟨p, rfl, hp⟩), Or.inr ?_⟩
        have hne : p ≠ [] := by
          rintro rfl
          obtain ⟨h1, h2⟩ := hp
          simp only [Val.at, Option.some.injEq] at h1
          subst h1
          cases h2
        rw [lastKeys_cons k p hne]
        rcases hc with ⟨j, rfl, hc⟩ | ⟨hl, hc⟩
        · exact ⟨by simp, Or.inl ⟨j, rfl, hc⟩⟩
        · exact ⟨by simp only [List.length_cons]; omega, Or.inr ⟨hl, hc⟩⟩
      · exact ⟨p, w, (leafAt_cons hk _ _).mpr (Or.inr hp), hc⟩
    · rintro ⟨p, w, hp, hc⟩
      rcases (leafAt_cons hk _ _).mp hp with ⟨q, rfl, hq⟩ | hp
      · left
        refine ⟨q, w, hq, ?_⟩
        have hne : q ≠ [] := by
          rintro rfl
          obtain ⟨h1, h2⟩ := hq
          simp only [Val.at, Option.some.injEq] at h1
          subst h1
          cases h2
        rcases hc with ⟨j, h, _⟩ | ⟨_, hc⟩
        · simp only [List.cons.injEq] at h
          exact (hne h.2).elim
        · exact (lastKeys_cons k q hne c).mp hc
      · exact Or.inr ⟨p, w, hp, hc⟩
  | _ pfx k => 
    rename_i r ih
    obtain ⟨hk, -, hu2⟩ := uniqueKeys_cons hu
    rw [featureList_leaf rfl, List.mem_cons, ih hu2]
    constructor
    · rintro (h | ⟨p, w, hp, hc⟩)
      · exact ⟨[k], _, (leafAt_cons hk _ _).mpr (Or.inl ⟨[], rfl, (leafAt_scalar rfl _ _).mpr ⟨rfl, rfl⟩⟩), Or.inl ⟨k, rfl, h⟩⟩
      · exact ⟨p, w, (leafAt_cons hk _ _).mpr (Or.inr hp), hc⟩
    · rintro ⟨p, w, hp, hc⟩
      rcases (leafAt_cons hk _ _).mp hp with ⟨q, rfl, hq⟩ | hp
      · obtain ⟨rfl, -⟩ := (leafAt_scalar rfl _ _).mp hq
        left
        rcases hc with ⟨j, h, hc⟩ | ⟨hl, _⟩
        · simp only [List.cons.injEq, and_true] at h
          rw [hc, h]
        · simp at hl
      · exact Or.inr ⟨p, w, hp, hc⟩

/-- **C145**: the table of module features has a column for every feature of the module.  The name of the column has the last two
keys of the feature (a defect when features have three levels: the first key is lost). -/
theorem C145_columns (l : List (String × Val)) (hu : Val.UniqueKeys (.dict l)) (c : String) :
    c ∈ featureList "" l ↔ ∃ p w, Val.leafAt (.dict l) p w ∧ LastKeys p c := by
  rw [mem_featureList "" l hu]
  refine exists_congr fun p => exists_congr fun w => and_congr_right fun hp => ?_
  constructor
  · rintro (⟨k, rfl, h⟩ | ⟨_, h⟩)
    · exact Or.inl ⟨k, rfl, by simpa using h⟩
    · exact h
  · rintro (⟨k, rfl, h⟩ | ⟨q, j, k, rfl, h⟩)
    · exact Or.inl ⟨k, rfl, by simpa using h⟩
    · exact Or.inr ⟨by simp, Or.inr ⟨q, j, k, rfl, h⟩⟩

/-- **C145**: a cell of the table is empty when the device does not have the feature, and marked when the feature is true. -/
theorem C145_cells (str : Val → String) (v : Option Val) :
    (v = none ∨ v = some .null ∨ v = some (.bool false) → featureCell str v = "") ∧ (v = some (.bool true) → featureCell str v = "x") ∧
    (∀ l, v = some (.list l) → featureCell str v = ",".intercalate (l.map str)) ∧
    (∀ d, v = some (.dict d) → featureCell str v = ",".intercalate (d.map (·.1))) ∧ (∀ s, v = some (.str s) → featureCell str v = str (.str s)) := by
  refine ⟨?_, ?_, ?_, ?_, ?_⟩
  · rintro (rfl | rfl | rfl) <;> rfl
  · rintro rfl; rfl
  · rintro l rfl; rfl
  · rintro d rfl; rfl
  · rintro s rfl; rfl

/-! ### Examples -/

/-- Two network devices, a daemon, an internal device -/
def shEx : List ShDev :=
  [{ name := "frr", description := some "FRR", images := [("clab", "frr:10")], features := [("bgp", .dict [("local_as", .bool true)])] },
   { name := "eos", description := some "Arista EOS", images := [("clab", "ceos"), ("libvirt", "veos")],
     features := [("bgp", .dict [("local_as", .bool true), ("ipv6_lla", .bool true)]), ("ospf", .null)] },
   { name := "bird", description := some "BIRD", daemon := true, parent := "linux" },
   { name := "none", description := some "internal" }]

/-- Modules supported by these devices -/
def shExMods : List ShMod :=
  [{ name := "ospf", supported := ["eos", "frr"] }, { name := "bgp", supported := ["frr", "eos", "none"], features := [("local_as", .str "?")] }]

example : (shEx.map (·.name)).Nodup ∧ (shExMods.map (·.name)).Nodup ∧ Displayed "*" "eos" ∧ ¬ Displayed "*" "none" ∧ ¬ Displayed "frr" "eos" := by
  refine ⟨by decide, by decide, ?_, ?_, ?_⟩ <;> simp [Displayed]

theorem shEx_names : sortedSet (shEx.map (·.name)) = ["bird", "eos", "frr", "none"] :=
  sorted_nodup_ext (sorted_sortedSet _) (by decide) (nodup_sortedSet _) (by decide) (fun x => by
    rw [mem_sortedSet]
    simp [shEx]
    grind)

theorem shEx_mods : sortedSet (shExMods.map (·.name)) = ["bgp", "ospf"] :=
  sorted_nodup_ext (sorted_sortedSet _) (by decide) (nodup_sortedSet _) (by decide) (fun x => by
    rw [mem_sortedSet]
    simp [shExMods]
    grind)

example : showDevices shEx "eos" = [("eos", .plain (some "Arista EOS"))] ∧ shDevices shEx "*" = ["bird", "eos", "frr"] ∧
    showDaemonTable shEx "*" = [("bird", some "BIRD")] ∧
    supportText shExMods shEx "*" none = some [("bird", []), ("eos", ["bgp", "ospf"]), ("frr", ["bgp", "ospf"])] ∧
    showImages ["clab", "external", "libvirt"] shEx "frr" = [("frr", [("clab", "frr:10"), ("libvirt", "")])] := by
  unfold showDaemonTable showDevices supportText showImages shModlist shDevices
  dsimp only
  rw [shEx_names, shEx_mods]
  decide +kernel

/-- **C145** (defect): in the YAML format, features of other devices are lost. -/
theorem C145_support_yaml_lost :
    (supportYaml shExMods shEx "*" none).map (·.map (·.1)) = some ["bgp", "ospf"] ∧
    (supportYaml shExMods shEx "*" none).bind (fun y => y.lookup "bgp") = some (.dict [("local_as", .bool true)]) := by
  unfold supportYaml shModlist shDevices
  dsimp only
  rw [shEx_names, shEx_mods]
  decide +kernel

end Netlab
