import Verif.Lemmas.Settings
import Verif.Props.Box
/-!
# C18, C43, C48: settings collected from several scopes
-/

namespace Netlab
open Spec

/-! ### C18: module parameters -/

theorem uniqueKeys_nil : Val.UniqueKeys (.dict []) := by
  rw [uniqueKeys_dict]
  simp

theorem mergeDict_nil_left {a : List (String × Val)} (h : (a.map (·.1)).Nodup) :
    mergeDict [] a = a := (C17_empty a h).2

theorem addScope_getD {s : Option (List (String × Val))} {n : Option (List (String × Val))}
    (hn : Val.UniqueKeys (.dict (n.getD []))) :
    (addScope s n).getD [] = mergeDict (s.getD []) (n.getD []) := by
  unfold addScope
  cases s with
  | none => exact (mergeDict_nil_left (uniqueKeys_dict.1 hn).1).symm
  | some l =>
    cases l with
    | nil => exact (mergeDict_nil_left (uniqueKeys_dict.1 hn).1).symm
    | cons p r => rfl

theorem propagated_nil (np : List String) : propagated np [] = [] := by
  unfold propagated
  induction np with
  | nil => rfl
  | cons k r ih => simpa [popKey] using ih

theorem uniqueKeys_propagated (np : List String) {s : List (String × Val)}
    (h : Val.UniqueKeys (.dict s)) : Val.UniqueKeys (.dict (propagated np s)) :=
  uniqueKeys_foldl_popKey np s h

/-- The scopes of a module parameter on a node, the most specific first: the node (including the
data copied from groups), the topology, the device, and the module defaults. -/
def Spec.moduleScopes (np : List String) (glob dev : Option (List (String × Val)))
    (dflt : List (String × Val)) (n : Option (List (String × Val))) :
    List (List (String × Val)) :=
  [n.getD [], propagated np (glob.getD []), propagated np (dev.getD []), propagated np dflt]

theorem nodeModuleParams_eq (np : List String) (glob dev : Option (List (String × Val)))
    (dflt : List (String × Val)) (n : Option (List (String × Val)))
    (hn : Val.UniqueKeys (.dict (n.getD []))) (hg : Val.UniqueKeys (.dict (glob.getD [])))
    (hd : Val.UniqueKeys (.dict (dev.getD []))) :
    (nodeModuleParams np glob dev dflt n).getD [] =
      [propagated np (glob.getD []), propagated np (dev.getD []), propagated np dflt].foldl
        (fun acc g => mergeDict g acc) (n.getD []) := by
  have e1 : (glob.map (propagated np)).getD [] = propagated np (glob.getD []) := by
    cases glob with
    | none => simp [propagated_nil]
    | some g => rfl
  have u1 : Val.UniqueKeys (.dict ((addScope (glob.map (propagated np)) n).getD [])) := by
    rw [addScope_getD hn, e1]
    exact uniqueKeys_mergeDict (uniqueKeys_propagated np hg) hn
  unfold nodeModuleParams
  simp only [List.foldl_cons, List.foldl_nil]
  cases dev with
  | none =>
    rw [addScope_getD u1, addScope_getD hn, e1]
    simp only [Option.getD_none, propagated_nil, Option.getD_some]
    rw [mergeDict_nil_left]
    rw [addScope_getD hn, e1] at u1
    exact (uniqueKeys_dict.1 u1).1
  | some d =>
    cases d with
    | nil =>
      simp only [addScope_getD u1, Option.getD_some, propagated_nil]
      rw [addScope_getD hn, e1, mergeDict_nil_left]
      rw [addScope_getD hn, e1] at u1
      exact (uniqueKeys_dict.1 u1).1
    | cons p r =>
      simp only
      rw [addScope_getD]
      · simp only [Option.getD_some]
        rw [addScope_getD hn, e1]
      · simp only [Option.getD_some]
        exact uniqueKeys_mergeDict (uniqueKeys_propagated np hd) u1

/-- **C18.**  The value of a module parameter on a node comes from the most specific scope that
sets it: the node, the topology, the device, or the module defaults. -/
theorem C18_most_specific_scope_wins (np : List String) (glob dev : Option (List (String × Val)))
    (dflt : List (String × Val)) (n : Option (List (String × Val)))
    (hn : Val.UniqueKeys (.dict (n.getD []))) (hg : Val.UniqueKeys (.dict (glob.getD [])))
    (hd : Val.UniqueKeys (.dict (dev.getD []))) (hf : Val.UniqueKeys (.dict dflt))
    (p : List String) (w : Val) (h : Decides (moduleScopes np glob dev dflt n) p w) :
    Val.leafAt (.dict ((nodeModuleParams np glob dev dflt n).getD [])) p w := by
  rw [nodeModuleParams_eq np glob dev dflt n hn hg hd]
  apply foldl_decides _ _ p w hn _ h
  intro l hl
  simp only [List.mem_cons, List.not_mem_nil, or_false] at hl
  rcases hl with rfl | rfl | rfl
  · exact uniqueKeys_propagated np hg
  · exact uniqueKeys_propagated np hd
  · exact uniqueKeys_propagated np hf

/-- **C18 (nothing else).**  A module parameter on a node was set in one of the scopes, and no more
specific scope has it. -/
theorem C18_no_other_source (np : List String) (glob dev : Option (List (String × Val)))
    (dflt : List (String × Val)) (n : Option (List (String × Val)))
    (hn : Val.UniqueKeys (.dict (n.getD []))) (hg : Val.UniqueKeys (.dict (glob.getD [])))
    (hd : Val.UniqueKeys (.dict (dev.getD []))) (hf : Val.UniqueKeys (.dict dflt))
    (p : List String) (w : Val)
    (h : Val.leafAt (.dict ((nodeModuleParams np glob dev dflt n).getD [])) p w) :
    ∃ before l after, moduleScopes np glob dev dflt n = before ++ l :: after ∧
      Val.leafAt (.dict l) p w ∧ ∀ b ∈ before, Val.at (.dict b) p = none := by
  rw [nodeModuleParams_eq np glob dev dflt n hn hg hd] at h
  apply foldl_source _ _ p w hn _ h
  intro l hl
  simp only [List.mem_cons, List.not_mem_nil, or_false] at hl
  rcases hl with rfl | rfl | rfl
  · exact uniqueKeys_propagated np hg
  · exact uniqueKeys_propagated np hd
  · exact uniqueKeys_propagated np hf

/-- **C18 (non-propagating parameters).**  Parameters that should not be propagated are never
copied to a node: the node has such a parameter only when it's set on the node. -/
theorem C18_not_propagated (np : List String) (glob dev : Option (List (String × Val)))
    (dflt : List (String × Val)) (n : Option (List (String × Val)))
    (hn : Val.UniqueKeys (.dict (n.getD []))) (hg : Val.UniqueKeys (.dict (glob.getD [])))
    (hd : Val.UniqueKeys (.dict (dev.getD []))) (k : String) (hk : k ∈ np) :
    ((nodeModuleParams np glob dev dflt n).getD []).lookup k = (n.getD []).lookup k := by
  rw [nodeModuleParams_eq np glob dev dflt n hn hg hd]
  have hl : ∀ s, (propagated np s).lookup k = none := by
    intro s
    unfold propagated
    rw [lookup_foldl_popKey, if_pos hk]
  simp only [List.foldl_cons, List.foldl_nil]
  have u1 := uniqueKeys_mergeDict (uniqueKeys_propagated np hg) hn
  have u2 := uniqueKeys_mergeDict (uniqueKeys_propagated np hd) u1
  rw [lookup_mergeDict _ _ (uniqueKeys_dict.1 u2).1, hl,
    lookup_mergeDict _ _ (uniqueKeys_dict.1 u1).1, hl,
    lookup_mergeDict _ _ (uniqueKeys_dict.1 hn).1, hl]
  cases (n.getD []).lookup k <;> rfl

/-- **C18 (which parameters).**  All other parameters of a scope are propagated. -/
theorem C18_propagated (modNp modKeys : List String) (s : List (String × Val)) (k : String) :
    (propagated (noPropagate modNp modKeys) s).lookup k =
      if k ∈ noPropagateList ∨ k ∈ modNp ∨
        (k ∈ modKeys ∧ containsStr "no_propagate".toList k.toList = true) then none
      else s.lookup k := by
  unfold propagated
  rw [lookup_foldl_popKey]
  unfold noPropagate
  simp only [List.mem_append, List.mem_filter, or_assoc]

/-- **C18 (topology).**  Global module parameters are the parameters set in the topology, and the
module defaults for everything else. -/
theorem C18_global (np : List String) (dflt : List (String × Val))
    (t : Option (List (String × Val))) (ht : Val.UniqueKeys (.dict (t.getD [])))
    (p : List String) (w : Val) :
    Val.leafAt (.dict ((globalModuleParams np dflt t).getD [])) p w ↔
      Val.leafAt (.dict (t.getD [])) p w ∨
      (Val.leafAt (.dict (propagated np dflt)) p w ∧ Untouched (.dict (t.getD [])) p) := by
  unfold globalModuleParams
  rw [addScope_getD ht, ← mergeVal_dict]
  exact mergeVal_leaves _ _ rfl rfl ht p w

/-- OSPF parameters: the node sets the area, the topology the timers and the area, the device a
timer and the defaults a process ID -/
example : nodeModuleParams ["attributes", "x"]
    (some [("timers", .dict [("hello", .int 10)]), ("area", .int 0), ("x", .int 1)])
    (some [("timers", .dict [("hello", .int 5), ("dead", .int 20)])])
    [("process", .int 1), ("area", .int 42), ("attributes", .dict [])]
    (some [("area", .int 3)]) =
    some [("process", .int 1), ("area", .int 3),
      ("timers", .dict [("hello", .int 10), ("dead", .int 20)])] := by
  simp [nodeModuleParams, addScope, propagated, popKey, mergeDict,
    mergePair, mergeVal, setKey, List.lookup]

/-! ### C48: default settings -/

theorem includeDefaults_eq {d : List (String × Val)} (hd : (d.map (·.1)).Nodup)
    (f : Option (List (String × Val))) : includeDefaults d f = mergeDict (f.getD []) d := by
  unfold includeDefaults
  cases f with
  | none => exact (mergeDict_nil_left hd).symm
  | some l =>
    cases l with
    | nil => exact (mergeDict_nil_left hd).symm
    | cons => rfl

theorem foldl_includeDefaults (files : List (Option (List (String × Val)))) :
    ∀ d, Val.UniqueKeys (.dict d) → (∀ f ∈ files, Val.UniqueKeys (.dict (f.getD []))) →
      files.foldl includeDefaults d =
        (files.map (·.getD [])).foldl (fun acc g => mergeDict g acc) d := by
  induction files with
  | nil => intro d _ _; rfl
  | cons f r ih =>
    intro d hd hf
    simp only [List.foldl_cons, List.map_cons]
    rw [includeDefaults_eq (uniqueKeys_dict.1 hd).1]
    exact ih _ (uniqueKeys_mergeDict (hf f (by simp)) hd) (fun x hx => hf x (by simp [hx]))

/-- **C48.**  A default setting comes from the topology file if it's set there, otherwise from the
first of the defaults files that sets it. -/
theorem C48_first_source_wins (topo : List (String × Val))
    (files : List (Option (List (String × Val)))) (ht : Val.UniqueKeys (.dict topo))
    (hf : ∀ f ∈ files, Val.UniqueKeys (.dict (f.getD []))) (p : List String) (w : Val)
    (h : Decides (topo :: files.map (·.getD [])) p w) :
    ∃ out, loadDefaults topo files [] = some out ∧ Val.leafAt (.dict out) p w := by
  refine ⟨_, rfl, ?_⟩
  rw [foldl_includeDefaults files topo ht hf]
  refine foldl_decides _ _ p w ht ?_ h
  intro l hl
  obtain ⟨f, hf2, rfl⟩ := List.mem_map.1 hl
  exact hf f hf2

/-- **C48 (nothing else).**  A default setting has been set in the topology or in one of the
defaults files, and no earlier source has it. -/
theorem C48_no_other_source (topo : List (String × Val))
    (files : List (Option (List (String × Val)))) (ht : Val.UniqueKeys (.dict topo))
    (hf : ∀ f ∈ files, Val.UniqueKeys (.dict (f.getD []))) (p : List String) (w : Val)
    (out : List (String × Val)) (ho : loadDefaults topo files [] = some out)
    (h : Val.leafAt (.dict out) p w) :
    ∃ before l after, topo :: files.map (·.getD []) = before ++ l :: after ∧
      Val.leafAt (.dict l) p w ∧ ∀ b ∈ before, Val.at (.dict b) p = none := by
  simp only [loadDefaults, includeEnvironment, Option.some.injEq] at ho
  subst ho
  rw [foldl_includeDefaults files topo ht hf] at h
  refine foldl_source _ _ p w ht ?_ h
  intro l hl
  obtain ⟨f, hf2, rfl⟩ := List.mem_map.1 hl
  exact hf f hf2

/-- **C48 (list of defaults files).**  An explicit list is used as it is; otherwise the extra
files come before the user defaults and these before the system defaults. -/
theorem C48_sources (list extra user system : Option Val) (userDef sysDef allDef : List Val) :
    (∀ l, list = some (.list l) → l ≠ [] →
      buildDefaultsList list extra user system userDef sysDef allDef = l) ∧
    (list = none → ∃ e u s,
      buildDefaultsList list extra user system userDef sysDef allDef = e ++ u ++ s ∧
      (∀ l, extra = some (.list l) → e = l) ∧ (extra = none → e = []) ∧
      (∀ l, user = some (.list l) → l ≠ [] → u = l) ∧ (user = none → u = userDef) ∧
      (∀ l, system = some (.list l) → l ≠ [] → s = l) ∧ (system = none → s = sysDef)) := by
  constructor
  · rintro l rfl hl
    simp [buildDefaultsList, listParam, hl]
  · rintro rfl
    refine ⟨_, _, _, by simp only [buildDefaultsList, listParam, ne_eq, not_true, if_false]; rfl,
      ?_, ?_, ?_, ?_, ?_, ?_⟩
    · rintro l rfl
      by_cases h : l = [] <;> simp [h]
    · rintro rfl; simp
    · rintro l rfl h; simp [h]
    · rintro rfl; simp
    · rintro l rfl h; simp [h]
    · rintro rfl; simp

/-- **C48 (finding).**  An explicit empty list of user (or system) defaults does not disable
them. -/
theorem C48_empty_list_ignored (userDef sysDef allDef : List Val) :
    buildDefaultsList none none (some (.list [])) none userDef sysDef allDef = userDef ++ sysDef := by
  simp [buildDefaultsList, listParam]

theorem setPath_cons (v : Val) (k : String) (j : String) (q : List String)
    (d : List (String × Val)) :
    setPath v (k :: j :: q) d = match d.lookup k with
      | none => (setPath v (j :: q) []).map (fun s => setKey d k (.dict s))
      | some (.dict s) => (setPath v (j :: q) s).map (fun s => setKey d k (.dict s))
      | some (.list _) => none
      | some _ => some (setKey d (".".intercalate (k :: j :: q)) v) := rfl

/-- **C48 (environment).**  A setting from an environment variable is stored whenever all the
intermediate settings are dictionaries (or missing); nothing else is changed. -/
theorem C48_environment_set (v : Val) (p : List String) : ∀ (d : List (String × Val)), p ≠ [] →
    (∀ q u, q <+: p → q ≠ p → Val.at (.dict d) q = some u → u.isDict = true) →
    ∃ out, setPath v p d = some out ∧ Val.at (.dict out) p = some v ∧
      ∀ q w, ¬ (p <+: q) → (Val.leafAt (.dict out) q w ↔ Val.leafAt (.dict d) q w) := by
  induction p with
  | nil => intro d h; exact absurd rfl h
  | cons k q ih =>
    intro d _ hp
    cases q with
    | nil =>
      refine ⟨_, rfl, ?_, ?_⟩
      · rw [at_dict_cons, lookup_setKey]
        simp [Val.at]
      · intro r w hr
        unfold Val.leafAt
        cases r with
        | nil =>
          constructor
          · rintro ⟨h1, h2⟩
            simp only [Val.at, Option.some.injEq] at h1
            subst h1
            simp [Val.isDict] at h2
          · rintro ⟨h1, h2⟩
            simp only [Val.at, Option.some.injEq] at h1
            subst h1
            simp [Val.isDict] at h2
        | cons j r =>
          have hj : j ≠ k := by
            rintro rfl
            apply hr
            simp
          rw [at_dict_cons, at_dict_cons, lookup_setKey, if_neg hj]
    | cons j q =>
      -- the dictionary the rest of the path applies to
      have key : ∀ s : List (String × Val),
          (∀ r u, r <+: j :: q → r ≠ j :: q → Val.at (.dict s) r = some u → u.isDict = true) →
          (∀ r, (d.lookup k).bind (fun w => Val.at w r) = Val.at (.dict s) r ∨
            (d.lookup k = none ∧ s = [])) →
          setPath v (k :: j :: q) d =
            (setPath v (j :: q) s).map (fun s => setKey d k (.dict s)) →
          ∃ out, setPath v (k :: j :: q) d = some out ∧
            Val.at (.dict out) (k :: j :: q) = some v ∧
            ∀ r w, ¬ (k :: j :: q <+: r) →
              (Val.leafAt (.dict out) r w ↔ Val.leafAt (.dict d) r w) := by
        intro s hs hds heq
        obtain ⟨o, h1, h2, h3⟩ := ih s (by simp) hs
        refine ⟨setKey d k (.dict o), by rw [heq, h1]; rfl, ?_, ?_⟩
        · rw [at_dict_cons, lookup_setKey, if_pos rfl]
          exact h2
        · intro r w hr
          unfold Val.leafAt
          cases r with
          | nil =>
            constructor
            · rintro ⟨h1, h2⟩
              simp only [Val.at, Option.some.injEq] at h1
              subst h1
              simp [Val.isDict] at h2
            · rintro ⟨h1, h2⟩
              simp only [Val.at, Option.some.injEq] at h1
              subst h1
              simp [Val.isDict] at h2
          | cons i r =>
            rw [at_dict_cons, at_dict_cons, lookup_setKey]
            by_cases hi : i = k
            · subst hi
              rw [if_pos rfl]
              simp only [Option.bind_some]
              have hnr : ¬ (j :: q <+: r) := by
                intro h
                apply hr
                rw [List.cons_prefix_cons]
                exact ⟨rfl, h⟩
              have := h3 r w hnr
              unfold Val.leafAt at this
              rw [this]
              rcases hds r with e | ⟨e1, e2⟩
              · rw [e]
              · subst e2
                rw [e1]
                cases r with
                | nil =>
                  constructor
                  · rintro ⟨h1, h2⟩
                    simp only [Val.at, Option.some.injEq] at h1
                    subst h1
                    simp [Val.isDict] at h2
                  · rintro ⟨h1, h2⟩
                    simp at h1
                | cons => simp [Val.at]
            · rw [if_neg hi]
      cases hl : d.lookup k with
      | none =>
        apply key []
        · intro r u hr hne hu
          cases r with
          | nil =>
            simp only [Val.at, Option.some.injEq] at hu
            subst hu
            rfl
          | cons => simp [Val.at] at hu
        · intro r; exact Or.inr ⟨hl, rfl⟩
        · rw [setPath_cons, hl]
      | some u =>
        have hud : u.isDict = true := by
          apply hp [k] u
          · simp
          · simp
          · simp [hl, Val.at]
        obtain ⟨s, rfl⟩ := isDict_iff.1 hud
        apply key s
        · intro r u hr hne hu
          apply hp (k :: r) u
          · rw [List.cons_prefix_cons]; exact ⟨rfl, hr⟩
          · intro e; exact hne (List.cons.inj e).2
          · rw [at_dict_cons, hl]; exact hu
        · intro r; exact Or.inl (by rw [hl]; rfl)
        · rw [setPath_cons, hl]

theorem includeEnvironment_append (a b : List (List String × Val)) : ∀ d : List (String × Val),
    includeEnvironment (a ++ b) d = (includeEnvironment a d).bind (includeEnvironment b) := by
  induction a with
  | nil => intro d; rfl
  | cons e a ih =>
    intro d
    obtain ⟨p, v⟩ := e
    simp only [List.cons_append, includeEnvironment]
    cases setPath v p d with
    | none => rfl
    | some d => exact ih d

/-- **C48 (environment wins).**  A setting requested by an environment variable overrides the
topology, all defaults files and all variables processed before it, as long as the intermediate
settings are dictionaries at that moment; all the other settings are kept. -/
theorem C48_environment_wins (topo : List (String × Val))
    (files : List (Option (List (String × Val)))) (before : List (List String × Val))
    (p : List String) (v : Val) (hp : p ≠ []) (mid : List (String × Val))
    (hm : loadDefaults topo files before = some mid)
    (hpre : ∀ q u, q <+: p → q ≠ p → Val.at (.dict mid) q = some u → u.isDict = true) :
    ∃ out, loadDefaults topo files (before ++ [(p, v)]) = some out ∧
      Val.at (.dict out) p = some v ∧
      ∀ q w, ¬ (p <+: q) → (Val.leafAt (.dict out) q w ↔ Val.leafAt (.dict mid) q w) := by
  obtain ⟨out, h1, h2, h3⟩ := C48_environment_set v p mid hp hpre
  refine ⟨out, ?_, h2, h3⟩
  unfold loadDefaults at hm ⊢
  rw [includeEnvironment_append, hm]
  simp [includeEnvironment, h1]

/-- **C48 (finding).**  A setting from an environment variable is lost when an intermediate
setting is a scalar: it's stored under a key containing dots. -/
theorem C48_environment_lost :
    loadDefaults [("provider", .str "clab")] [] [(["provider", "clab", "runtime"], .str "podman")] =
      some [("provider", .str "clab"), ("provider.clab.runtime", .str "podman")] := by
  have h : ".".intercalate ["provider", "clab", "runtime"] = "provider.clab.runtime" := by
    decide +kernel
  simp [loadDefaults, includeEnvironment, setPath, setKey, h]

/-- **C48 (plugins).**  Plugin defaults are used for settings missing in the topology; the
important ones override everything else. -/
theorem C48_plugin_defaults (plugin imp topo : List (String × Val)) (hne : plugin ≠ [])
    (himp : plugin.lookup "important" = some (.dict imp)) (ht : Val.UniqueKeys (.dict topo))
    (hi : Val.UniqueKeys (.dict imp)) (p : List String) (w : Val)
    (hp : p.head? ≠ some "important") :
    (Val.leafAt (.dict imp) p w → Val.leafAt (.dict (mergePluginDefaults plugin topo)) p w) ∧
    (Untouched (.dict imp) p → Val.leafAt (.dict topo) p w →
      Val.leafAt (.dict (mergePluginDefaults plugin topo)) p w) ∧
    (Untouched (.dict imp) p → Untouched (.dict topo) p → Val.leafAt (.dict plugin) p w →
      Val.leafAt (.dict (mergePluginDefaults plugin topo)) p w) := by
  unfold mergePluginDefaults
  rw [if_neg hne, himp]
  simp only
  have m1 := fun p w => mergeVal_leaves (.dict (mergeDict (popKey plugin "important") topo))
    (.dict imp) rfl rfl hi p w
  have m2 := fun p w => mergeVal_leaves (.dict (popKey plugin "important")) (.dict topo) rfl rfl ht p w
  simp only [mergeVal_dict] at m1 m2
  refine ⟨?_, ?_, ?_⟩
  · intro h
    rw [m1]
    exact Or.inl h
  · intro h1 h2
    rw [m1, m2]
    exact Or.inr ⟨Or.inl h2, h1⟩
  · intro h1 h2 h3
    rw [m1, m2]
    exact Or.inr ⟨Or.inr ⟨(leafAt_popKey hp).2 h3, h2⟩, h1⟩

example : loadDefaults [("device", .str "frr")]
    [some [("device", .str "eos"), ("addressing", .dict [("lan", .int 1)])], none,
     some [("addressing", .dict [("lan", .int 2), ("p2p", .int 3)])]]
    [(["addressing", "p2p"], .int 4)] =
    some [("addressing", .dict [("lan", .int 1), ("p2p", .int 4)]), ("device", .str "frr")] := by
  simp [loadDefaults, includeDefaults, includeEnvironment, setPath, mergeDict, mergePair, mergeVal,
    setKey, List.lookup]

/-! ### C43: device inheritance -/

/-- **C43 (termination).**  Device inheritance can be processed for every table of devices, even
when there are loops in the table. -/
theorem C43_terminates (devs : List (String × Device)) : ∃ out, deviceInheritance devs = some out := by
  apply inheritLoop_total
  unfold orphans
  have := List.length_filter_le (fun p : String × Device => p.2.parent.isSome) devs
  omega

theorem lineageData_layers (devs : List (String × Device))
    (hu : ∀ n, Val.UniqueKeys (.dict (getDevice devs n).data)) (p : List String)
    (hp : p.head? ≠ some "template") : ∀ l : List String, l ≠ [] →
    Val.UniqueKeys (.dict (lineageData devs l)) ∧
    ((∀ m ∈ l, Untouched (.dict (getDevice devs m).data) p) →
      Untouched (.dict (lineageData devs l)) p) ∧
    (∀ w, Decides (l.map (fun m => (getDevice devs m).data)) p w →
      (Val.leafAt (.dict (lineageData devs l)) p w ∧ (w = .null → l.length = 1)) ∨
      (w = .null ∧ Untouched (.dict (lineageData devs l)) p)) := by
  intro l
  induction l with
  | nil => intro h; exact absurd rfl h
  | cons n l ih =>
    intro _
    cases l with
    | nil =>
      refine ⟨hu n, fun h => h n (by simp), ?_⟩
      rintro w ⟨before, x, after, h1, h2, h3⟩
      cases before with
      | nil =>
        simp only [List.map_cons, List.map_nil, List.nil_append, List.cons.injEq] at h1
        rw [← h1.1] at h2
        exact Or.inl ⟨h2, fun _ => rfl⟩
      | cons b before => simp at h1
    | cons q l =>
      obtain ⟨i1, i2, i3⟩ := ih (by simp)
      have hpu := uniqueKeys_popKey i1 "template"
      have hmu := uniqueKeys_mergeDict hpu (hu n)
      have hm := fun p w => mergeVal_leaves
        (.dict (popKey (lineageData devs (q :: l)) "template"))
        (.dict (getDevice devs n).data) rfl rfl (hu n) p w
      simp only [mergeVal_dict] at hm
      refine ⟨uniqueKeys_removeNull hmu, ?_, ?_⟩
      · intro h
        apply untouched_removeNull hmu
        apply untouched_mergeDict _ _ (hu n) _ _ (h n (by simp))
        exact (untouched_popKey hp).2 (i2 (fun m hm => h m (List.mem_cons_of_mem _ hm)))
      · rintro w ⟨before, x, after, h1, h2, h3⟩
        have fin : Val.leafAt (.dict (mergeDict (popKey (lineageData devs (q :: l)) "template")
            (getDevice devs n).data)) p w →
            (Val.leafAt (.dict (lineageData devs (n :: q :: l))) p w ∧
              (w = .null → (n :: q :: l).length = 1)) ∨
            (w = .null ∧ Untouched (.dict (lineageData devs (n :: q :: l))) p) := by
          intro hleaf
          by_cases hw : w = .null
          · subst hw
            exact Or.inr ⟨rfl, untouched_removeNull_null hmu hleaf.1⟩
          · exact Or.inl ⟨(leafAt_removeNull hmu p w).2 ⟨hleaf, hw⟩, fun h => absurd h hw⟩
        cases before with
        | nil =>
          simp only [List.map_cons, List.nil_append, List.cons.injEq] at h1
          rw [← h1.1] at h2
          exact fin ((hm p w).2 (Or.inl h2))
        | cons b before =>
          simp only [List.map_cons, List.cons_append, List.cons.injEq] at h1
          have hb : Untouched (.dict (getDevice devs n).data) p := by
            have := h3 b (by simp)
            rwa [← h1.1] at this
          rcases i3 w ⟨before, x, after, by rw [List.map_cons]; exact h1.2, h2,
              fun y hy => h3 y (by simp [hy])⟩ with ⟨g, -⟩ | ⟨g1, g2⟩
          · exact fin ((hm p w).2 (Or.inr ⟨(leafAt_popKey hp).2 g, hb⟩))
          · refine Or.inr ⟨g1, ?_⟩
            apply untouched_removeNull hmu
            exact untouched_mergeDict _ _ (hu n) _ ((untouched_popKey hp).2 g2) hb

/-- **C43.**  Without loops, the settings of a device come from the device or its closest ancestor
that has them; a setting that is null there is removed. -/
theorem C43_closest_ancestor_wins (devs out : List (String × Device))
    (hu : ∀ n, Val.UniqueKeys (.dict (getDevice devs n).data))
    (hacyclic : ∀ n ∈ devs.map (·.1), ∃ l, Lineage devs n l)
    (ho : deviceInheritance devs = some out) (n : String) (hn : n ∈ devs.map (·.1))
    (l : List String) (hl : Lineage devs n l) (p : List String)
    (hp : p.head? ≠ some "template") (w : Val)
    (h : Decides (l.map (fun m => (getDevice devs m).data)) p w) :
    (w ≠ .null → Val.leafAt (.dict (getDevice out n).data) p w) ∧
    (w = .null → l.length ≠ 1 → Val.at (.dict (getDevice out n).data) p = none) := by
  unfold deviceInheritance at ho
  obtain ⟨-, h2⟩ := inheritLoop_inv _ _ devs out hacyclic (fun m => Or.inl rfl) ho
  rw [h2 n l hl (Or.inl hn)]
  have hne : l ≠ [] := by
    obtain ⟨r, rfl⟩ := lineage_cons hl
    simp
  rcases (lineageData_layers devs hu p hp l hne).2.2 w h with ⟨g1, g2⟩ | ⟨g1, g2⟩
  · exact ⟨fun _ => g1, fun e hl1 => absurd (g2 e) hl1⟩
  · refine ⟨fun e => absurd g1 e, fun _ _ => ?_⟩
    cases ha : Val.at (.dict (lineageData devs l)) p with
    | none => rfl
    | some v => exact absurd rfl (g2 p v (List.prefix_refl _) ha).2

/-- **C43 (templates).**  The flag marking a device as a template is never inherited. -/
theorem C43_template_not_inherited (devs out : List (String × Device))
    (hu : ∀ n, Val.UniqueKeys (.dict (getDevice devs n).data))
    (hacyclic : ∀ n ∈ devs.map (·.1), ∃ l, Lineage devs n l)
    (ho : deviceInheritance devs = some out) (n : String) (hn : n ∈ devs.map (·.1))
    (h : (getDevice devs n).data.lookup "template" = none) :
    (getDevice out n).data.lookup "template" = none := by
  obtain ⟨l, hl⟩ := hacyclic n hn
  unfold deviceInheritance at ho
  obtain ⟨-, h2⟩ := inheritLoop_inv _ _ devs out hacyclic (fun m => Or.inl rfl) ho
  rw [h2 n l hl (Or.inl hn)]
  cases hl with
  | root => exact h
  | @child _ q _ h1 h3 =>
    obtain ⟨r, rfl⟩ := lineage_cons h3
    simp only [lineageData]
    -- uniqueness of keys
    have hur : ∀ l : List String, l ≠ [] → Val.UniqueKeys (.dict (lineageData devs l)) :=
      fun l hne => (lineageData_layers devs hu ["x"] (by decide) l hne).1
    have hmu := uniqueKeys_mergeDict (uniqueKeys_popKey (hur (q :: r) (List.cons_ne_nil _ _))
      "template") (hu n)
    rw [lookup_removeNull (uniqueKeys_dict.1 hmu).1,
      lookup_mergeDict _ _ (uniqueKeys_dict.1 (hu n)).1, lookup_popKey, if_pos rfl, h]
    rfl

/-- **C43 (loops).**  A loop of parents is not reported; it's broken at the device that comes
first in the table. -/
theorem C43_loop_not_reported :
    (deviceInheritance [("a", ⟨some "b", [("x", .int 1)]⟩), ("b", ⟨some "a", [("x", .int 2), ("y", .int 3)]⟩)]).map
      (fun o => o.map (fun d => (d.1, d.2.data))) =
    some [("a", [("x", .int 1), ("y", .int 3)]), ("b", [("x", .int 2), ("y", .int 3)])] := by
  simp [deviceInheritance, inheritLoop, childDevice, getDevice, List.lookup, setKey, mergeDict,
    mergePair, mergeVal, popKey, removeNull]

/-- A three-level hierarchy with an overridden and a removed setting -/
private def exDevs : List (String × Device) :=
  [("c", ⟨some "b", [("x", .int 1), ("z", .null)]⟩),
   ("b", ⟨some "a", [("x", .int 2), ("y", .int 3), ("template", .bool true)]⟩),
   ("a", ⟨none, [("y", .int 4), ("z", .int 5), ("t", .int 6)]⟩)]

example : Lineage exDevs "c" ["c", "b", "a"] :=
  .child rfl (.child rfl (.root rfl))

example : (deviceInheritance exDevs).map (fun o => (getDevice o "c").data) =
    some [("y", .int 3), ("t", .int 6), ("x", .int 1)] := by
  simp [deviceInheritance, exDevs, inheritLoop, childDevice, getDevice, List.lookup, setKey,
    mergeDict, mergePair, mergeVal, popKey, removeNull]

end Netlab
