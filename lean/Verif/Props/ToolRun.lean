import Verif.Model.ToolRun
import Verif.Spec.ToolRun
import Verif.Lemmas.Assoc
import Verif.Lemmas.Box
import Verif.Props.TestEntry
/-!
# External tools and lab status (C133)
-/

namespace Netlab
open Spec

theorem at_cons (k : String) (r : List String) (d : List (String × Val)) :
    Val.at (.dict d) (k :: r) = (d.lookup k).bind (fun v => Val.at v r) := by
  rw [Val.at]
  cases d.lookup k <;> rfl

theorem at_one (p : String) (d : List (String × Val)) : Val.at (.dict d) [p] = d.lookup p := by
  rw [at_cons]
  cases d.lookup p <;> simp [Val.at]

theorem at_subDict (k l : String) (r : List String) (d : List (String × Val)) :
    Val.at (.dict d) (k :: l :: r) = Val.at (.dict (subDict d k)) (l :: r) := by
  rw [at_cons]
  unfold subDict
  cases h : d.lookup k with
  | none => rfl
  | some v => cases v <;> simp [Val.at]

theorem uniqueKeys_subDict {d : List (String × Val)} (h : Val.UniqueKeys (.dict d)) (k : String) :
    Val.UniqueKeys (.dict (subDict d k)) := by
  unfold subDict
  cases hl : d.lookup k with
  | none => exact uniqueKeys_dict.mpr ⟨List.nodup_nil, by simp⟩
  | some v =>
    have := (uniqueKeys_dict.mp h).2 k v hl
    cases v <;> first | exact this | exact uniqueKeys_dict.mpr ⟨List.nodup_nil, by simp⟩

/-- A dictionary on the right side of `+` is needed to mix values. -/
theorem mergedOpt_leaf {a b : Option Val} (h : ∀ v, b = some v → v.isDict = false) : mergedOpt a b = firstSetting b a := by
  unfold firstSetting
  cases b with
  | none => cases a <;> rfl
  | some v =>
    have := h v rfl
    cases a with
    | none => rfl
    | some u => cases v <;> first | rfl | (simp [Val.isDict] at this)

theorem lookup_trData {topo : List (String × Val)} (h : Val.UniqueKeys (.dict topo)) (tool p : String) :
    (trData topo tool).lookup p =
      mergedOpt (Val.at (.dict topo) ["defaults", "tools", tool, p]) (Val.at (.dict topo) ["tools", tool, p]) := by
  unfold trData
  rw [lookup_mergeDict _ _ (uniqueKeys_dict.mp (uniqueKeys_subDict (uniqueKeys_subDict h "tools") tool)).1]
  simp only [at_subDict, at_one]

theorem trRuntime_eq {topo : List (String × Val)} (h : Val.UniqueKeys (.dict topo)) (tool : String) :
    trRuntime (trData topo tool) = runtimeOf topo tool := by
  unfold trRuntime runtimeOf
  rw [lookup_trData h]
  generalize Val.at (.dict topo) ["defaults", "tools", tool, "runtime"] = D
  generalize Val.at (.dict topo) ["tools", tool, "runtime"] = T
  cases T with
  | none => cases D <;> rfl
  | some v =>
    cases D with
    | none => rfl
    | some u =>
      cases v with
      | dict y => cases u <;> simp [mergedOpt, mergeVal, firstSetting]
      | _ => rfl

theorem runtime_known {topo : List (String × Val)} (h : Val.UniqueKeys (.dict topo)) (tool : String) :
    ((trData topo tool).lookup (trRuntime (trData topo tool))).isNone = false ↔ RuntimeKnown topo tool := by
  rw [trRuntime_eq h, lookup_trData h]
  unfold RuntimeKnown
  generalize Val.at (.dict topo) ["defaults", "tools", tool, runtimeOf topo tool] = D
  generalize Val.at (.dict topo) ["tools", tool, runtimeOf topo tool] = T
  cases T <;> cases D <;> simp [mergedOpt]

/-- All data of the tool. -/
def trFull (topo : List (String × Val)) (tool : String) : List (String × Val) :=
  mergeDict (subDict (trData topo tool) (runtimeOf topo tool)) (trData topo tool)

theorem uniqueKeys_trData {topo : List (String × Val)} (h : Val.UniqueKeys (.dict topo)) (tool : String) :
    Val.UniqueKeys (.dict (trData topo tool)) := by
  have := uniqueKeys_mergeVal (.dict (subDict (subDict (subDict topo "defaults") "tools") tool))
    (.dict (subDict (subDict topo "tools") tool))
    (uniqueKeys_subDict (uniqueKeys_subDict (uniqueKeys_subDict h "defaults") "tools") tool)
    (uniqueKeys_subDict (uniqueKeys_subDict h "tools") tool)
  rwa [mergeVal_dict] at this

theorem lookup_runtime {topo : List (String × Val)} (h : ToolsOk topo) (tool p : String) :
    (subDict (trData topo tool) (runtimeOf topo tool)).lookup p =
      mergedOpt (Val.at (.dict topo) ["defaults", "tools", tool, runtimeOf topo tool, p])
        (Val.at (.dict topo) ["tools", tool, runtimeOf topo tool, p]) := by
  have hd : Val.at (.dict topo) ["defaults", "tools", tool, runtimeOf topo tool, p] =
      (Val.at (.dict topo) ["defaults", "tools", tool, runtimeOf topo tool]).bind (fun v => Val.at v [p]) := by
    simp only [at_subDict]
    rw [← at_subDict, at_cons, at_one]
  have ht : Val.at (.dict topo) ["tools", tool, runtimeOf topo tool, p] =
      (Val.at (.dict topo) ["tools", tool, runtimeOf topo tool]).bind (fun v => Val.at v [p]) := by
    simp only [at_subDict]
    rw [← at_subDict, at_cons, at_one]
  rw [hd, ht]
  unfold subDict
  rw [lookup_trData h.keys]
  have h1 := h.runtime tool
  have h2 := h.defaults tool
  have hu : ∀ y, Val.at (.dict topo) ["tools", tool, runtimeOf topo tool] = some (.dict y) → (y.map (·.1)).Nodup := by
    intro y hy
    exact h.keys _ _ hy
  generalize Val.at (.dict topo) ["defaults", "tools", tool, runtimeOf topo tool] = D at h1 h2 hu
  generalize Val.at (.dict topo) ["tools", tool, runtimeOf topo tool] = T at h1 h2 hu
  cases T with
  | none =>
    cases D with
    | none => rfl
    | some u =>
      obtain ⟨x, rfl⟩ := isDict_iff.1 (h2 u rfl)
      simp only [mergedOpt, Option.bind_some, Option.bind_none, at_one]
  | some v =>
    obtain ⟨y, rfl⟩ := isDict_iff.1 (h1 v rfl)
    cases D with
    | none =>
      simp only [mergedOpt, Option.bind_some, Option.bind_none, at_one]
      cases y.lookup p <;> rfl
    | some u =>
      obtain ⟨x, rfl⟩ := isDict_iff.1 (h2 u rfl)
      simp only [mergedOpt, mergeVal_dict, Option.bind_some, at_one]
      exact lookup_mergeDict _ _ (hu y rfl) p

theorem firstOf_some {a b : Option Val} {v : Val} : firstSetting a b = some v ↔ a = some v ∨ a = none ∧ b = some v := by
  unfold firstSetting
  cases a <;> simp

theorem lookup_trFull {topo : List (String × Val)} (h : ToolsOk topo) (tool p : String)
    (hl : ∀ v, toolSetting topo tool p = some v → v.isDict = false) : (trFull topo tool).lookup p = toolSetting topo tool p := by
  unfold trFull
  rw [lookup_mergeDict _ _ (uniqueKeys_dict.mp (uniqueKeys_trData h.keys tool)).1, lookup_runtime h, lookup_trData h.keys]
  unfold toolSetting at hl ⊢
  generalize Val.at (.dict topo) ["tools", tool, p] = A at hl ⊢
  generalize Val.at (.dict topo) ["defaults", "tools", tool, p] = B at hl ⊢
  generalize Val.at (.dict topo) ["tools", tool, runtimeOf topo tool, p] = C at hl ⊢
  generalize Val.at (.dict topo) ["defaults", "tools", tool, runtimeOf topo tool, p] = D at hl ⊢
  cases A with
  | some v =>
    have hv := hl v rfl
    rw [mergedOpt_leaf (a := B) (b := some v) (by rintro _ ⟨⟩; exact hv)]
    exact mergedOpt_leaf (by rintro _ ⟨⟩; exact hv)
  | none =>
    cases B with
    | some v =>
      have hv := hl v rfl
      exact mergedOpt_leaf (b := some v) (by rintro _ ⟨⟩; exact hv)
    | none =>
      cases C with
      | some v =>
        have hv := hl v rfl
        show mergedOpt D (some v) = some v
        rw [mergedOpt_leaf (by rintro _ ⟨⟩; exact hv)]
        rfl
      | none => cases D <;> rfl

theorem trParam_fst (tool p : String) {topo : List (String × Val)} (h : ToolsOk topo) :
    (RuntimeKnown topo tool → (trParam tool p topo).1 = setKey topo tool (.dict (trFull topo tool))) ∧
    (¬ RuntimeKnown topo tool → (trParam tool p topo) = (topo, none)) := by
  have hk := runtime_known h.keys tool
  unfold trParam
  constructor
  · intro hr
    have := hk.mpr hr
    simp only [this, Bool.false_eq_true, if_false]
    rw [trRuntime_eq h.keys]
    unfold trFull
    split <;> rfl
  · intro hr
    have : ((trData topo tool).lookup (trRuntime (trData topo tool))).isNone = true := by
      cases hx : ((trData topo tool).lookup (trRuntime (trData topo tool))).isNone with
      | true => rfl
      | false => exact absurd (hk.mp hx) hr
    simp only [this, if_true]

/-- C133: the value of a tool parameter (command, message): settings of the tool win over the settings of its runtime, and settings in
the lab topology win over system defaults; there's no value when the runtime is not known or the value is empty. -/
theorem C133_parameter (tool p : String) {topo : List (String × Val)} (h : ToolsOk topo)
    (hl : ∀ v, toolSetting topo tool p = some v → v.isDict = false) (v : Val) :
    (trParam tool p topo).2 = some v ↔ RuntimeKnown topo tool ∧ toolSetting topo tool p = some v ∧ v.truthy = true := by
  rcases Classical.em (RuntimeKnown topo tool) with hr | hr
  · have hk := (runtime_known h.keys tool).mpr hr
    have hx := lookup_trFull h tool p hl
    unfold trParam
    simp only [hk, Bool.false_eq_true, if_false]
    rw [trRuntime_eq h.keys]
    unfold trFull at hx
    rw [hx]
    simp only [hr, true_and]
    cases toolSetting topo tool p with
    | none => simp
    | some w =>
      simp only
      by_cases hw : w.truthy = true
      · rw [if_pos hw]
        simp only [Option.some.injEq]
        exact ⟨fun e => ⟨e, e ▸ hw⟩, fun e => e.1⟩
      · rw [if_neg hw]
        simp only [reduceCtorEq, Option.some.injEq, false_iff, not_and]
        intro e
        exact e ▸ hw
  · rw [(trParam_fst tool p h).2 hr]
    simp [hr]

/-! ### Commands -/

/-- The topology data used to start tools is the same. -/
structure SameTools (topo t : List (String × Val)) : Prop where
  tools : t.lookup "tools" = topo.lookup "tools"
  defaults : t.lookup "defaults" = topo.lookup "defaults"
  provider : t.lookup "provider" = topo.lookup "provider"
  addressing : t.lookup "addressing" = topo.lookup "addressing"
  secondary : ∀ p, topo.lookup "provider" = some (.str p) → t.lookup p = topo.lookup p

theorem SameTools.data {topo t : List (String × Val)} (h : SameTools topo t) (tool : String) : trData t tool = trData topo tool := by
  have h1 : subDict t "tools" = subDict topo "tools" := by unfold subDict; rw [h.tools]
  have h2 : subDict t "defaults" = subDict topo "defaults" := by unfold subDict; rw [h.defaults]
  unfold trData
  rw [h1, h2]

theorem SameTools.net {topo t : List (String × Val)} (h : SameTools topo t) : dockerNet t = dockerNet topo := by
  have h1 : subDict t "addressing" = subDict topo "addressing" := by unfold subDict; rw [h.addressing]
  have h2 : dockerUsed t = dockerUsed topo := by
    unfold dockerUsed
    rw [h.provider]
    cases hp : topo.lookup "provider" with
    | none => rfl
    | some v =>
      cases v with
      | str p =>
        have h3 : subDict t p = subDict topo p := by unfold subDict; rw [h.secondary p hp]
        simp only [h3]
      | _ => rfl
  unfold dockerNet
  rw [h1, h2]

theorem SameTools.set {topo t : List (String × Val)} (h : SameTools topo t) {k : String} (v : Val)
    (hk : k ∉ ["tools", "defaults", "provider", "addressing"])
    (hp : topo.lookup "provider" ≠ some (.str k)) : SameTools topo (setKey t k v) := by
  simp only [List.mem_cons, List.not_mem_nil, or_false, not_or] at hk
  obtain ⟨a, b, c, d⟩ := hk
  refine ⟨?_, ?_, ?_, ?_, ?_⟩
  · rw [lookup_setKey, if_neg (Ne.symm a), h.tools]
  · rw [lookup_setKey, if_neg (Ne.symm b), h.defaults]
  · rw [lookup_setKey, if_neg (Ne.symm c), h.provider]
  · rw [lookup_setKey, if_neg (Ne.symm d), h.addressing]
  · intro p hpp
    rw [lookup_setKey, if_neg, h.secondary p hpp]
    rintro rfl
    exact hp hpp

theorem dockerUsed_iff (topo : List (String × Val)) : dockerUsed topo = true ↔ UsesContainers topo := by
  unfold dockerUsed UsesContainers
  simp only [at_one]
  cases hp : topo.lookup "provider" with
  | none => simp
  | some v =>
    cases v with
    | str p =>
      simp only [Option.some.injEq, Val.str.injEq]
      by_cases hc : p = "clab"
      · simp [hc]
      · rw [if_neg hc]
        simp only [hc, false_or]
        have h1 : Val.at (.dict topo) [p, "providers"] = (subDict topo p).lookup "providers" := by rw [at_subDict, at_one]
        have h2 : Val.at (.dict topo) [p, "providers", "clab"] =
            ((subDict topo p).lookup "providers").bind (fun v => Val.at v ["clab"]) := by rw [at_subDict, at_cons]
        constructor
        · intro h
          refine ⟨p, rfl, ?_⟩
          rw [h1, h2]
          cases hq : (subDict topo p).lookup "providers" with
          | none => rw [hq] at h; cases h
          | some w =>
            rw [hq] at h
            cases w with
            | dict d => left; simp only [Option.bind_some, at_one]; exact h
            | list l => right; exact ⟨l, rfl, by simpa using h⟩
            | _ => cases h
        · rintro ⟨q, rfl, h⟩
          rw [h1, h2] at h
          cases hq : (subDict topo p).lookup "providers" with
          | none => rw [hq] at h; simp at h
          | some w =>
            rw [hq] at h
            cases w with
            | dict d => simpa [at_one] using h
            | list l => simpa [Val.at] using h
            | _ => simp [Val.at] at h
    | _ => simp

theorem dockerNet_eq (topo : List (String × Val)) :
    (UsesContainers topo → dockerNet topo = "--network=" ++ mgmtNetwork topo) ∧ (¬ UsesContainers topo → dockerNet topo = "") := by
  rw [← dockerUsed_iff]
  unfold dockerNet mgmtNetwork
  constructor
  · intro h
    rw [if_pos h]
    simp only [at_subDict, at_one]
    cases (subDict (subDict topo "addressing") "mgmt").lookup "_network" with
    | none => rfl
    | some v => cases v <;> rfl
  · intro h
    rw [if_neg h]

theorem trCommand_spec {topo t : List (String × Val)} (h : ToolsOk topo) (hs : SameTools topo t) (tool action : String)
    (hl : ∀ v, toolSetting topo tool action = some v → v.isDict = false) :
    ((trCommand tool action t).2.getD []) = toolCommands topo tool action ∧
    (RuntimeKnown topo tool → (trCommand tool action t).1 = setKey t tool (.dict (trFull topo tool))) ∧
    (¬ RuntimeKnown topo tool → trCommand tool action t = (t, none)) := by
  have hrt := trRuntime_eq h.keys tool
  have hp : trParam tool action t =
      (if ((trData topo tool).lookup (trRuntime (trData topo tool))).isNone = true then (t, none)
        else (setKey t tool (.dict (trFull topo tool)), (trParam tool action topo).2)) := by
    unfold trParam trFull
    simp only [hs.data, hrt]
    by_cases hc : ((trData topo tool).lookup (runtimeOf topo tool)).isNone = true
    · simp only [hc, if_true]
    · simp only [hc, Bool.false_eq_true, if_false]
      split <;> rfl
  have hpar := C133_parameter tool action h hl
  have hk := runtime_known h.keys tool
  rcases Classical.em (RuntimeKnown topo tool) with hr | hr
  · have hk := hk.mpr hr
    rw [if_neg (by simp [hk])] at hp
    refine ⟨?_, fun _ => ?_, fun h => absurd hr h⟩
    · unfold trCommand toolCommands
      rw [hp, if_pos hr]
      simp only [hr, true_and] at hpar
      cases hv : (trParam tool action topo).2 with
      | some v =>
        obtain ⟨h1, h2⟩ := (hpar v).mp hv
        rw [h1]
        cases v <;> simp [commandsIn, h2]
      | none =>
        cases hts : toolSetting topo tool action with
        | none => rfl
        | some w =>
          have : w.truthy = false := by
            cases hw : w.truthy with
            | false => rfl
            | true => rw [(hpar w).mpr ⟨hts, hw⟩] at hv; cases hv
          cases w with
          | list l =>
            simp only [Val.truthy, Bool.not_eq_false', List.isEmpty_iff] at this
            simp [commandsIn, this]
          | _ => simp [commandsIn, this]
    · unfold trCommand
      rw [hp]
  · have hk' : ((trData topo tool).lookup (trRuntime (trData topo tool))).isNone = true := by
      cases hx : ((trData topo tool).lookup (trRuntime (trData topo tool))).isNone with
      | true => rfl
      | false => exact absurd (hk.mp hx) hr
    rw [if_pos hk'] at hp
    refine ⟨?_, fun h => absurd h hr, fun _ => ?_⟩
    · unfold trCommand toolCommands
      rw [hp, if_neg hr]
      rfl
    · unfold trCommand
      rw [hp]
      rfl

theorem trTools_spec {topo : List (String × Val)} (h : ToolsOk topo) (action addr : String) (tools : List String)
    (hn : ToolNames topo tools) (hl : ∀ tool ∈ tools, ∀ v, toolSetting topo tool action = some v → v.isDict = false)
    {t : List (String × Val)} (hs : SameTools topo t) (hsys : topo.lookup "provider" ≠ some (.str "sys")) :
    (trTools action addr tools t).map (fun r => (r.tool, r.cmd)) =
      tools.flatMap (fun tool => (toolCommands topo tool action).map (fun c => (tool, c))) ∧
    ∀ r ∈ trTools action addr tools t, CommandData topo addr r := by
  induction tools generalizing t with
  | nil => exact ⟨rfl, by simp [trTools]⟩
  | cons tool rest ih =>
    have hn' : ToolNames topo rest := ⟨fun x hx => hn.fixed x (by simp [hx]), fun x hx => hn.provider x (by simp [hx])⟩
    have hl' : ∀ tool ∈ rest, ∀ v, toolSetting topo tool action = some v → v.isDict = false :=
      fun x hx => hl x (by simp [hx])
    obtain ⟨c1, c2, c3⟩ := trCommand_spec h hs tool action (hl tool (by simp))
    have hfix := hn.fixed tool (by simp)
    simp only [List.mem_cons, List.not_mem_nil, or_false, not_or] at hfix
    have hprov : topo.lookup "provider" ≠ some (.str tool) := by
      have := hn.provider tool (by simp)
      rwa [at_one] at this
    have hset : RuntimeKnown topo tool → SameTools topo (trCommand tool action t).1 := by
      intro hr
      rw [c2 hr]
      exact hs.set _ (by simp [hfix.1, hfix.2.1, hfix.2.2.2.1, hfix.2.2.2.2]) hprov
    have hafter : SameTools topo (trCommand tool action t).1 := by
      rcases Classical.em (RuntimeKnown topo tool) with hr | hr
      · exact hset hr
      · rw [c3 hr]; exact hs
    unfold trTools
    cases hc : (trCommand tool action t).2 with
    | none =>
      have e : trTool action addr tool t = ((trCommand tool action t).1, []) := by
        unfold trTool
        simp only [hc]
      rw [e]
      rw [hc] at c1
      obtain ⟨i1, i2⟩ := ih hn' hl' hafter
      constructor
      · simp only [List.nil_append, List.flatMap_cons]
        rw [i1, ← c1]
        rfl
      · simpa using i2
    | some l =>
      have e : trTool action addr tool t = (trSys addr (trCommand tool action t).1,
          l.map (fun c => ⟨tool, c, trSys addr (trCommand tool action t).1⟩)) := by
        unfold trTool
        simp only [hc]
      rw [e]
      rw [hc] at c1
      simp only [Option.getD_some] at c1
      have hsys2 : SameTools topo (trSys addr (trCommand tool action t).1) := by
        unfold trSys
        exact hafter.set _ (by decide) hsys
      obtain ⟨i1, i2⟩ := ih hn' hl' hsys2
      constructor
      · simp only [List.map_append, List.map_map, List.flatMap_cons]
        rw [i1, ← c1]
        rfl
      · intro r hr
        rcases List.mem_append.mp hr with hr | hr
        · obtain ⟨c, _, rfl⟩ := List.mem_map.mp hr
          have hr : RuntimeKnown topo tool := by
            rcases Classical.em (RuntimeKnown topo tool) with hr | hr
            · exact hr
            · rw [c3 hr] at hc; cases hc
          have hd : Val.at (.dict (trSys addr (trCommand tool action t).1)) ["sys", "docker_net"] =
              some (.str (dockerNet topo)) := by
            rw [at_subDict, at_one]
            unfold trSys
            rw [hafter.net]
            generalize subDict (trCommand tool action t).1 "sys" = q
            unfold subDict
            rw [lookup_setKey, if_pos rfl]
            simp only
            rw [lookup_setKey, if_neg (by decide), lookup_setKey, if_pos rfl]
          refine ⟨fun hu => ?_, fun hu => ?_, ?_, ?_⟩
          · rw [hd, (dockerNet_eq topo).1 hu]
          · rw [hd, (dockerNet_eq topo).2 hu]
          · rw [at_subDict, at_one]
            unfold trSys
            generalize subDict (trCommand tool action t).1 "sys" = q
            unfold subDict
            rw [lookup_setKey, if_pos rfl]
            simp only
            rw [lookup_setKey, if_pos rfl]
          · intro p hleaf
            simp only at hleaf ⊢
            rw [at_subDict, at_one, c2 hr]
            unfold trSys
            generalize (Val.dict (setKey (setKey (subDict _ "sys") _ _) _ _)) = q
            have : subDict (setKey (setKey t tool (.dict (trFull topo tool))) "sys" q) tool = trFull topo tool := by
              unfold subDict
              rw [lookup_setKey, if_neg hfix.2.2.1, lookup_setKey, if_pos rfl]
            rw [this]
            exact lookup_trFull h tool p hleaf
        · exact i2 r hr

theorem SameTools.refl (topo : List (String × Val)) : SameTools topo topo := ⟨rfl, rfl, rfl, rfl, fun _ _ => rfl⟩

theorem toolsUsed_eq (topo : List (String × Val)) : (subDict topo "tools").map (·.1) = toolsUsed topo := by
  unfold toolsUsed subDict
  rw [at_one]
  cases topo.lookup "tools" with
  | none => rfl
  | some v => cases v <;> rfl

theorem toolsUsed_none {topo : List (String × Val)} (h : (topo.lookup "tools").isNone = true) : toolsUsed topo = [] := by
  unfold toolsUsed
  rw [at_one, Option.isNone_iff_eq_none.mp h]

/-- C133: `netlab up` executes the `up` commands of all tools used in the lab, tool by tool and in the order specified by the user,
and nothing else; nothing is executed when tools are disabled on the command line.  Commands can use all parameters of their tool and
the Docker network of the lab. -/
theorem C133_start {topo : List (String × Val)} (h : ToolsOk topo) (addr : String)
    (hn : ToolNames topo (toolsUsed topo)) (hp : Val.at (.dict topo) ["provider"] ≠ some (.str "sys"))
    (hl : ∀ tool ∈ toolsUsed topo, ∀ v, toolSetting topo tool "up" = some v → v.isDict = false) :
    (startTools false addr topo).map (fun r => (r.tool, r.cmd)) =
      (toolsUsed topo).flatMap (fun tool => (toolCommands topo tool "up").map (fun c => (tool, c))) ∧
    (∀ r ∈ startTools false addr topo, CommandData topo addr r) ∧ startTools true addr topo = [] := by
  rw [at_one] at hp
  have := trTools_spec h "up" addr (toolsUsed topo) hn hl (SameTools.refl topo) hp
  unfold startTools
  by_cases ht : (topo.lookup "tools").isNone = true
  · simp only [if_pos ht, toolsUsed_none ht]
    simp
  · simp only [if_neg ht, Bool.false_eq_true, if_false, if_true, toolsUsed_eq]
    exact ⟨this.1, this.2, trivial⟩

/-- C133: `netlab down` executes the `down` commands of all tools used in the lab. -/
theorem C133_stop {topo : List (String × Val)} (h : ToolsOk topo) (addr : String)
    (hn : ToolNames topo (toolsUsed topo)) (hp : Val.at (.dict topo) ["provider"] ≠ some (.str "sys"))
    (hl : ∀ tool ∈ toolsUsed topo, ∀ v, toolSetting topo tool "down" = some v → v.isDict = false) :
    (stopTools addr topo).map (fun r => (r.tool, r.cmd)) =
      (toolsUsed topo).flatMap (fun tool => (toolCommands topo tool "down").map (fun c => (tool, c))) ∧
    ∀ r ∈ stopTools addr topo, CommandData topo addr r := by
  rw [at_one] at hp
  have := trTools_spec h "down" addr (toolsUsed topo) hn hl (SameTools.refl topo) hp
  unfold stopTools
  by_cases ht : (topo.lookup "tools").isNone = true
  · simp only [if_pos ht, toolsUsed_none ht]
    simp
  · simp only [if_neg ht, toolsUsed_eq]
    exact this

/-- Tools as a part of lab topology. -/
def toolsVal (l : List (String × List (String × Val))) : Val := .dict (l.map (fun t => (t.1, .dict t.2)))

theorem lookup_toolsVal (l : List (String × List (String × Val))) (k : String) :
    (l.map (fun t => (t.1, Val.dict t.2))).lookup k = (l.lookup k).map .dict := by
  induction l with
  | nil => rfl
  | cons a r ih =>
    obtain ⟨n, d⟩ := a
    rw [List.map_cons]
    by_cases h : k = n
    · subst h
      rw [lookup_cons_self, lookup_cons_self]
      rfl
    · rw [lookup_cons_ne _ _ h, lookup_cons_ne _ _ h, ih]

/-- C133: when the tools of a lab topology have been accepted, the runtime of every tool is known and the tool has a command that starts
it. -/
theorem C133_accepted {defaults tools ts : List (String × List (String × Val))} (h : toolProcess defaults tools = some (ts, 0))
    {topo dflt : List (String × Val)} (hk : ToolsOk topo) (ht : topo.lookup "tools" = some (toolsVal ts))
    (hd : topo.lookup "defaults" = some (.dict dflt)) (hdt : dflt.lookup "tools" = some (toolsVal defaults)) :
    ∀ t ∈ toolsUsed topo, (Val.at (.dict topo) ["tools", t, "runtime"]) ≠ some (.str "") →
      RuntimeKnown topo t ∧ (toolSetting topo t "up").isSome := by
  intro t htm hne
  have hts : toolsUsed topo = ts.map (·.1) := by
    unfold toolsUsed
    rw [at_one, ht]
    simp [toolsVal]
  rw [hts, List.mem_map] at htm
  obtain ⟨⟨tn, td⟩, hm, rfl⟩ := htm
  have hnd : (ts.map (·.1)).Nodup := by
    have := (uniqueKeys_dict.mp (uniqueKeys_subDict hk.keys "tools")).1
    unfold subDict at this
    rw [ht] at this
    simp only [toolsVal, List.map_map] at this
    exact this
  have hlk : ts.lookup tn = some td := lookup_of_mem hnd hm
  obtain ⟨d, hdl, r, x, h1, h2, h3⟩ := C105_tools_start _ _ _ h _ hm
  simp only at hdl h1 h2 h3 hne ⊢
  have hdata : trData topo tn = mergeDict d td := by
    unfold trData
    have e1 : subDict topo "tools" = ts.map (fun t => (t.1, Val.dict t.2)) := by
      unfold subDict; rw [ht]; rfl
    have e2 : subDict topo "defaults" = dflt := by
      unfold subDict; rw [hd]
    have e3 : subDict dflt "tools" = defaults.map (fun t => (t.1, Val.dict t.2)) := by
      unfold subDict; rw [hdt]; rfl
    rw [e1, e2, e3]
    have e4 : subDict (ts.map (fun t => (t.1, Val.dict t.2))) tn = td := by
      unfold subDict; rw [lookup_toolsVal, hlk]; rfl
    have e5 : subDict (defaults.map (fun t => (t.1, Val.dict t.2))) tn = d := by
      unfold subDict; rw [lookup_toolsVal, hdl]; rfl
    rw [e4, e5]
  have hr0 : r ≠ "" := by
    rintro rfl
    -- the runtime of an accepted tool is always in its settings
    have hrt := lookup_trData hk.keys tn "runtime"
    rw [hdata, h1] at hrt
    have hset : ∃ v, Val.at (.dict topo) ["tools", tn, "runtime"] = some v := by
      rw [at_subDict, at_subDict, at_one]
      have e1 : subDict topo "tools" = ts.map (fun t => (t.1, Val.dict t.2)) := by
        unfold subDict; rw [ht]; rfl
      have e4 : subDict (ts.map (fun t => (t.1, Val.dict t.2))) tn = td := by
        unfold subDict; rw [lookup_toolsVal, hlk]; rfl
      rw [e1, e4]
      unfold toolProcess at h
      simp only at h
      rw [Option.map_eq_some_iff] at h
      obtain ⟨_, _, he⟩ := h
      simp only [Prod.mk.injEq] at he
      have hm' := hm
      rw [← he.1, List.mem_map] at hm'
      obtain ⟨y, hy, hyt⟩ := hm'
      obtain ⟨z, _, rfl⟩ := List.mem_map.mp hy
      unfold toolRuntime at hyt
      split at hyt
      · rename_i hno
        simp only at hyt
        subst hyt
        simp [hdl] at hno
      · split at hyt
        · simp only [Prod.mk.injEq] at hyt
          rw [← hyt.2, lookup_setKey]
          simp
        · rename_i hso
          simp only at hyt
          subst hyt
          cases hq : td.lookup "runtime" with
          | none => simp [hq] at hso
          | some v => exact ⟨v, rfl⟩
    obtain ⟨v, hv⟩ := hset
    rw [hv] at hrt hne
    cases hD : Val.at (.dict topo) ["defaults", "tools", tn, "runtime"] with
    | none => rw [hD] at hrt; exact hne hrt.symm
    | some u =>
      rw [hD] at hrt
      cases v with
      | dict y => cases u <;> simp [mergedOpt, mergeVal] at hrt
      | _ => exact hne hrt.symm
  have hrt : runtimeOf topo tn = r := by
    rw [← trRuntime_eq hk.keys, hdata]
    unfold trRuntime
    rw [h1]
    simp [hr0]
  refine ⟨?_, ?_⟩
  · apply (runtime_known hk.keys tn).mp
    rw [trRuntime_eq hk.keys, hrt, hdata, h2]
    rfl
  · have hx : (subDict (trData topo tn) (runtimeOf topo tn)) = x := by
      unfold subDict
      rw [hrt, hdata, h2]
    have hl := lookup_runtime hk tn "up"
    rw [hx] at hl
    unfold toolSetting firstSetting
    have hup : (x.lookup "up").isSome := by
      cases hq : x.lookup "up" with
      | none => exact absurd h3 (lookup_eq_none_iff.mp hq)
      | some v => rfl
    rw [hl] at hup
    generalize Val.at (.dict topo) ["tools", tn, runtimeOf topo tn, "up"] = T at hup ⊢
    generalize Val.at (.dict topo) ["defaults", "tools", tn, runtimeOf topo tn, "up"] = D at hup ⊢
    split
    · assumption
    · split
      · assumption
      · split
        · assumption
        · cases T with
          | none => simpa [mergedOpt] using hup
          | some w => rename_i hw; exact absurd rfl hw

/-- C133 (defect): the runtime of a tool specified in system defaults is not used when the tool is listed in the lab topology: Docker
replaces it, and the program does not execute the commands of the default runtime. -/
theorem C133_default_runtime :
    let d := [("graphite", [("runtime", Val.str "podman"), ("docker", .dict [("up", .str "docker run")]), ("podman", .dict [("up", .str "podman run")])])]
    ∃ ts, toolProcess d [("graphite", [])] = some (ts, 0) ∧
      (startTools false "127.0.0.1" [("defaults", .dict [("tools", toolsVal d)]), ("tools", toolsVal ts)]).map (fun r => (r.tool, r.cmd)) =
        [("graphite", .str "docker run")] ∧
      (startTools false "127.0.0.1" [("defaults", .dict [("tools", toolsVal d)]), ("tools", toolsVal [("graphite", [])])]).map
          (fun r => (r.tool, r.cmd)) = [("graphite", .str "podman run")] := by
  refine ⟨[("graphite", [("runtime", .str "docker")])], ?_, ?_, ?_⟩ <;> decide +kernel

/-! ### Lab status -/

/-- C133: `netlab status` finds the instance the user asked for, or the instance started from the current directory, and fails when
there's no such instance. -/
theorem C133_instance (states : List (LabKey × String)) (cwd : String) :
    (∀ a, a ≠ "" → ∀ k, getInstance (some a) cwd states = some k ↔ k = labKey a ∧ k ∈ states.map (·.1)) ∧
    (∀ k, getInstance none cwd states = some k → (k, cwd) ∈ states) ∧
    (getInstance none cwd states = none ↔ ∀ s ∈ states, s.2 ≠ cwd) := by
  refine ⟨?_, ?_, ?_⟩
  · intro a ha k
    unfold getInstance
    simp only
    rw [if_neg ha]
    by_cases h : (states.lookup (labKey a)).isSome = true
    · rw [if_pos h]
      have hm : labKey a ∈ states.map (·.1) := by
        obtain ⟨v, hv⟩ := Option.isSome_iff_exists.mp h
        exact List.mem_map.mpr ⟨_, mem_of_lookup hv, rfl⟩
      constructor
      · rintro ⟨⟩
        exact ⟨rfl, hm⟩
      · rintro ⟨rfl, _⟩
        rfl
    · rw [if_neg h]
      simp only [reduceCtorEq, false_iff, not_and]
      rintro rfl hm
      apply h
      cases hq : states.lookup (labKey a) with
      | none => exact absurd hm (lookup_eq_none_iff.mp hq)
      | some v => rfl
  · intro k h
    unfold getInstance at h
    simp only [Option.map_eq_some_iff] at h
    obtain ⟨⟨k', d⟩, h1, rfl⟩ := h
    have h2 := List.find?_some h1
    simp only [beq_iff_eq] at h2
    subst h2
    exact List.mem_of_find?_eq_some h1
  · unfold getInstance
    simp only [Option.map_eq_none_iff, List.find?_eq_none, beq_iff_eq]

/-- C133: the status display has a row for every node and for every tool.  The status of a managed node is the status of its VM or
container, or (when it's not known under that name) of the VM with the name of the node: Vagrant reports node names. -/
theorem C133_rows (stat : String → List (String × String)) (vmName : String → String → String) (dflt lab : String)
    (nodes : List StatNode) (tools : List String) :
    (statusRows stat vmName dflt lab nodes tools).length = nodes.length + tools.length ∧
    (∀ (i : Nat) (n : StatNode), nodes[i]? = some n → ∃ row, (statusRows stat vmName dflt lab nodes tools)[i]? = some row ∧
      (n.unmanaged = true → row = .unmanaged n.name) ∧
      (n.unmanaged = false → ∃ s, row = .node n.name (n.provider.getD dflt) (vmName (n.provider.getD dflt) n.name) s ∧
        (∀ x, (stat (n.provider.getD dflt)).lookup (vmName (n.provider.getD dflt) n.name) = some x → s = x) ∧
        ((stat (n.provider.getD dflt)).lookup (vmName (n.provider.getD dflt) n.name) = none →
          ((stat (n.provider.getD dflt)).lookup n.name = none → s = "Unknown") ∧
          (∀ x, (stat (n.provider.getD dflt)).lookup n.name = some x → s = x)))) ∧
    (∀ (i : Nat) (t : String), tools[i]? = some t → ∃ s, (statusRows stat vmName dflt lab nodes tools)[nodes.length + i]? =
        some (.tool t (lab ++ "_" ++ t) s) ∧
      (∀ x, (stat "clab").lookup (lab ++ "_" ++ t) = some x → s = x) ∧
      ((stat "clab").lookup (lab ++ "_" ++ t) = none → s = "Not running")) := by
  unfold statusRows
  refine ⟨by simp, ?_, ?_⟩
  · intro i n hn
    have hi : i < nodes.length := (List.getElem?_eq_some_iff.mp hn).1
    refine ⟨statusNode stat vmName dflt n, ?_, ?_, ?_⟩
    · rw [List.getElem?_append_left (by simpa using hi), List.getElem?_map, hn]
      rfl
    · intro hu
      unfold statusNode
      simp [hu]
    · intro hu
      unfold statusNode
      simp only [hu, Bool.false_eq_true, if_false]
      refine ⟨_, rfl, ?_, ?_⟩
      · intro x hx
        rw [hx]
      · intro h1
        rw [h1]
        constructor
        · intro h2
          rw [h2]
          rfl
        · intro x h2
          rw [h2]
          rfl
  · intro i t ht
    refine ⟨((stat "clab").lookup (lab ++ "_" ++ t)).getD "Not running", ?_, ?_, ?_⟩
    · rw [List.getElem?_append_right (by simp), List.length_map, Nat.add_sub_cancel_left, List.getElem?_map, ht]
      rfl
    · intro x hx
      rw [hx]
      rfl
    · intro hx
      rw [hx]
      rfl

/-- C133 (defect): a node that is not running is shown with the status of an unrelated container that has the same name as the
node. -/
theorem C133_unrelated_container :
    statusRows (fun _ => [("r1", "Up 2 days")]) (fun _ n => clabNode "clab" "mylab" n) "clab" "mylab" [⟨"r1", none, false⟩] [] =
      [.node "r1" "clab" "clab-mylab-r1" "Up 2 days"] := by decide +kernel

/-- C133: the nodes are displayed (the result contains `started`) if and only if the lab is started or something has been started
according to the log. -/
theorem C133_started (started : String → Bool) (hs : started "started" = true) (status : String) (lines : List String) :
    started (labStatusOf started status lines) = true ↔ started status = true ∨ ∃ l ∈ lines, started l = true := by
  unfold labStatusOf
  by_cases h : status = "started"
  · subst h
    simp [hs]
  · rw [if_neg h]
    cases hf : lines.find? started with
    | some l =>
      simp only [List.find?_some hf, true_iff]
      exact Or.inr ⟨l, List.mem_of_find?_eq_some hf, List.find?_some hf⟩
    | none =>
      simp only
      rw [List.find?_eq_none] at hf
      constructor
      · exact Or.inl
      · rintro (h1 | ⟨l, hl, hl2⟩)
        · exact h1
        · exact absurd hl2 (hf l hl)

theorem vagrantStatus_snoc (lines : List (List String)) (l : List String) :
    vagrantStatus (lines ++ [l]) = (match l with
      | _ :: vm :: k :: s :: _ => if k = "state-human-short" then setKey (vagrantStatus lines) vm s else vagrantStatus lines
      | _ => vagrantStatus lines) := by
  unfold vagrantStatus
  rw [List.foldl_append]
  rfl

/-- C133: the status of a VM is the state in the last line about it in the printout; VMs not in the printout have no status. -/
theorem C133_vagrant (lines : List (List String)) (vm s : String) :
    (vagrantStatus lines).lookup vm = some s ↔ LastState lines vm s := by
  have gen : ∀ n, ∀ lines : List (List String), lines.length = n →
      ((vagrantStatus lines).lookup vm = some s ↔ LastState lines vm s) := by
    intro n
    induction n with
    | zero =>
      intro lines hl
      rw [List.length_eq_zero_iff] at hl
      subst hl
      simp [vagrantStatus, LastState]
    | succ n ih =>
      intro lines hl
      obtain ⟨a, b, rfl⟩ : ∃ a b, lines = a ++ [b] := by
        have : lines ≠ [] := by rintro rfl; simp at hl
        exact ⟨lines.dropLast, lines.getLast this, (List.dropLast_append_getLast this).symm⟩
      have ha : a.length = n := by simpa using hl
      have iha := ih a ha
      rw [vagrantStatus_snoc]
      have hother : (∀ t' s' rest', b ≠ t' :: vm :: "state-human-short" :: s' :: rest') →
          (LastState (a ++ [b]) vm s ↔ LastState a vm s) := by
        intro hb
        constructor
        · rintro ⟨l, t, r, rest, he, hr⟩
          rcases List.eq_nil_or_concat r with rfl | ⟨r', c, rfl⟩
          · have := List.append_inj_right' he rfl
            simp only [List.cons.injEq, and_true] at this
            exact absurd this (hb _ _ _)
          · rw [List.concat_eq_append] at he hr
            rw [show l ++ (t :: vm :: "state-human-short" :: s :: rest) :: (r' ++ [c]) =
              (l ++ (t :: vm :: "state-human-short" :: s :: rest) :: r') ++ [c] by simp] at he
            have h1 := List.append_inj_left' he rfl
            exact ⟨l, t, r', rest, h1, fun t' s' rest' hm => hr t' s' rest' (by simp [hm])⟩
        · rintro ⟨l, t, r, rest, he, hr⟩
          refine ⟨l, t, r ++ [b], rest, by simp [he], ?_⟩
          intro t' s' rest' hm
          rcases List.mem_append.mp hm with hm | hm
          · exact hr t' s' rest' hm
          · exact hb t' s' rest' (List.mem_singleton.mp hm).symm
      have hsame : ∀ t' s' rest', b = t' :: vm :: "state-human-short" :: s' :: rest' →
          (LastState (a ++ [b]) vm s ↔ s' = s) := by
        intro t' s' rest' hb
        constructor
        · rintro ⟨l, t, r, rest, he, hr⟩
          rcases List.eq_nil_or_concat r with rfl | ⟨r', c, rfl⟩
          · have := List.append_inj_right' he rfl
            simp only [List.cons.injEq, and_true] at this
            rw [hb] at this
            simp only [List.cons.injEq] at this
            exact this.2.2.2.1
          · rw [List.concat_eq_append] at he hr
            rw [show l ++ (t :: vm :: "state-human-short" :: s :: rest) :: (r' ++ [c]) =
              (l ++ (t :: vm :: "state-human-short" :: s :: rest) :: r') ++ [c] by simp] at he
            have h1 := List.append_inj_right' he rfl
            simp only [List.cons.injEq, and_true] at h1
            exact absurd (by rw [← h1, hb]; simp) (hr t' s' rest')
        · rintro rfl
          exact ⟨a, t', [], rest', by simp [hb], by simp⟩
      split
      · rename_i t' vm' k s' rest'
        by_cases hk : k = "state-human-short"
        · rw [if_pos hk, lookup_setKey]
          subst hk
          by_cases hv : vm = vm'
          · subst hv
            rw [if_pos rfl, hsame _ _ _ rfl]
            simp
          · rw [if_neg hv, iha, hother]
            intro t2 s2 rest2 he
            simp only [List.cons.injEq] at he
            exact hv he.2.1.symm
        · rw [if_neg hk, iha, hother]
          intro t2 s2 rest2 he
          simp only [List.cons.injEq] at he
          exact hk he.2.2.1
      · rename_i hb
        rw [iha, hother]
        intro t2 s2 rest2 he
        exact hb _ _ _ _ _ he
  exact gen _ lines rfl

/-- C133: the status of a container is the status in the printout; containers that are not in the printout have no status. -/
theorem C133_docker (lines : List (String × String)) (h : (lines.map (·.1)).Nodup) (c s : String) :
    (dockerStatus lines).lookup c = some s ↔ (c, s) ∈ lines := by
  have gen : ∀ (lines : List (String × String)) (d : List (String × String)), (lines.map (·.1)).Nodup →
      ((lines.foldl (fun d l => setKey d l.1 l.2) d).lookup c = some s ↔
        (c, s) ∈ lines ∨ (c ∉ lines.map (·.1) ∧ d.lookup c = some s)) := by
    intro lines
    induction lines with
    | nil => simp
    | cons a r ih =>
      intro d hnd
      rw [List.map_cons, List.nodup_cons] at hnd
      rw [List.foldl_cons, ih _ hnd.2, lookup_setKey]
      obtain ⟨a1, a2⟩ := a
      by_cases hc : c = a1
      · subst hc
        simp only [if_true, List.mem_cons, Prod.mk.injEq, true_and, List.map_cons, true_or, not_true_eq_false, false_and, or_false]
        have hn : (c, s) ∉ r := fun hm => hnd.1 (List.mem_map.mpr ⟨_, hm, rfl⟩)
        constructor
        · rintro (h | ⟨_, h⟩)
          · exact absurd h hn
          · exact Or.inl (Option.some.inj h).symm
        · rintro (h | h)
          · exact Or.inr ⟨hnd.1, by rw [h]⟩
          · exact absurd h hn
      · simp only [List.mem_cons, Prod.mk.injEq, hc, false_and, false_or, List.map_cons, if_false]
  unfold dockerStatus
  rw [gen _ _ h]
  simp

/-- C133: tools are reached through the address the SSH session of the user is connected to, or through the loopback address. -/
theorem C133_address (a b c d : String) (rest : List String) :
    localAddr (some (a :: b :: c :: d :: rest)) = c ∧ localAddr none = "127.0.0.1" := by
  constructor
  · unfold localAddr
    simp
  · rfl

/-- C133: all running containers are displayed as such: the name of a container is made from the names of the lab and the node, and
the display shows the status Docker reports for that container. -/
theorem C133_running (lines : List (String × String)) (h : (lines.map (·.1)).Nodup) (stat : String → List (String × String))
    (hs : stat "clab" = dockerStatus lines) (vmName : String → String → String) (pfx lab dflt : String)
    (hv : ∀ n, vmName "clab" n = clabNode pfx lab n) (nodes : List StatNode) (tools : List String) (n : StatNode) (hn : n ∈ nodes)
    (hp : n.provider.getD dflt = "clab") (hu : n.unmanaged = false) (s : String)
    (hr : (pfx ++ "-" ++ lab ++ "-" ++ n.name, s) ∈ lines) (hpf : pfx ≠ "") :
    .node n.name "clab" (pfx ++ "-" ++ lab ++ "-" ++ n.name) s ∈ statusRows stat vmName dflt lab nodes tools := by
  obtain ⟨i, hi⟩ := List.getElem?_of_mem hn
  obtain ⟨row, hrow, _, h2⟩ := (C133_rows stat vmName dflt lab nodes tools).2.1 i n hi
  obtain ⟨s', h3, h4, _⟩ := h2 hu
  rw [hp, hv] at h3 h4
  have hc : clabNode pfx lab n.name = pfx ++ "-" ++ lab ++ "-" ++ n.name := by
    unfold clabNode
    rw [if_neg hpf]
  rw [hc] at h3 h4
  rw [hs] at h4
  have := h4 s ((C133_docker lines h _ _).mpr hr)
  subst this
  rw [h3] at hrow
  exact List.mem_of_getElem? hrow

/-! ### Examples -/

/-- A lab topology with two tools. -/
def toolTopo : List (String × Val) :=
  [("provider", .str "libvirt"),
   ("libvirt", .dict [("providers", .dict [("clab", .dict [])])]),
   ("defaults", .dict [("tools", .dict [
     ("graphite", .dict [("docker", .dict [("up", .list [.str "docker run graphite", .str "sleep 1"]), ("down", .str "docker kill graphite"),
        ("message", .str "Connect to port 8080")])]),
     ("edgeshark", .dict [("docker", .dict [("up", .str "docker compose up")])])])]),
   ("tools", .dict [("graphite", .dict [("port", .int 8090)]), ("edgeshark", .dict [])]),
   ("addressing", .dict [("mgmt", .dict [("_network", .str "mgmt2")])])]

theorem runtimeOf_toolTopo (t : String) : runtimeOf toolTopo t = "docker" := by
  unfold runtimeOf firstSetting
  by_cases h1 : t = "graphite"
  · subst h1; decide +kernel
  · by_cases h2 : t = "edgeshark"
    · subst h2; decide +kernel
    · rw [at_subDict, at_subDict, at_one, at_subDict, at_subDict, at_subDict, at_one]
      have e1 : subDict toolTopo "tools" = [("graphite", .dict [("port", .int 8090)]), ("edgeshark", .dict [])] := rfl
      rw [e1]
      have e2 : subDict [("graphite", Val.dict [("port", .int 8090)]), ("edgeshark", .dict [])] t = [] := by
        unfold subDict
        rw [lookup_cons_ne _ _ h1, lookup_cons_ne _ _ h2]
        rfl
      rw [e2]
      have e3 : subDict (subDict (subDict toolTopo "defaults") "tools") t = [] := by
        have : subDict (subDict toolTopo "defaults") "tools" = [
         ("graphite", .dict [("docker", .dict [("up", .list [.str "docker run graphite", .str "sleep 1"]), ("down", .str "docker kill graphite"),
        ("message", .str "Connect to port 8080")])]),
         ("edgeshark", .dict [("docker", .dict [("up", .str "docker compose up")])])] := rfl
        rw [this]
        unfold subDict
        rw [lookup_cons_ne _ _ h1, lookup_cons_ne _ _ h2]
        rfl
      rw [e3]
      rfl

/-- Unique keys of all values. -/
def UkAll : List (String × Val) → Prop
  | [] => True
  | x :: r => Val.UniqueKeys x.2 ∧ UkAll r

theorem uniqueKeys_of_mem {d : List (String × Val)} (h1 : (d.map (·.1)).Nodup) (h2 : UkAll d) : Val.UniqueKeys (.dict d) := by
  refine uniqueKeys_dict.mpr ⟨h1, ?_⟩
  clear h1
  intro k v hv
  have hm := mem_of_lookup hv
  clear hv
  induction d with
  | nil => cases hm
  | cons a r ih =>
    rcases List.mem_cons.mp hm with rfl | hm
    · exact h2.1
    · exact ih h2.2 hm

theorem toolTopo_ok : ToolsOk toolTopo := by
  refine ⟨?_, ?_, ?_⟩
  · unfold toolTopo
    repeat' (first
      | exact trivial
      | (apply uniqueKeys_leaf; rfl)
      | (apply uniqueKeys_of_mem; · decide)
      | constructor)
  · intro t v hv
    rw [runtimeOf_toolTopo] at hv
    by_cases h1 : t = "graphite"
    · subst h1; cases hv
    · by_cases h2 : t = "edgeshark"
      · subst h2; cases hv
      · rw [at_subDict, at_subDict, at_one] at hv
        have e1 : subDict toolTopo "tools" = [("graphite", .dict [("port", .int 8090)]), ("edgeshark", .dict [])] := rfl
        rw [e1] at hv
        unfold subDict at hv
        rw [lookup_cons_ne _ _ h1, lookup_cons_ne _ _ h2] at hv
        cases hv
  · intro t v hv
    rw [runtimeOf_toolTopo] at hv
    rw [at_subDict, at_subDict, at_subDict, at_one] at hv
    have : subDict (subDict toolTopo "defaults") "tools" = [
         ("graphite", .dict [("docker", .dict [("up", .list [.str "docker run graphite", .str "sleep 1"]), ("down", .str "docker kill graphite"),
        ("message", .str "Connect to port 8080")])]),
         ("edgeshark", .dict [("docker", .dict [("up", .str "docker compose up")])])] := rfl
    rw [this] at hv
    unfold subDict at hv
    by_cases h1 : t = "graphite"
    · subst h1
      cases hv
      rfl
    · by_cases h2 : t = "edgeshark"
      · subst h2
        cases hv
        rfl
      · rw [lookup_cons_ne _ _ h1, lookup_cons_ne _ _ h2] at hv
        cases hv

/-- Hypotheses of `C133_start` and `C133_stop` are met by a lab with two tools; three commands are executed to start them. -/
example : ToolsOk toolTopo ∧ toolsUsed toolTopo = ["graphite", "edgeshark"] ∧
    Val.at (.dict toolTopo) ["provider"] ≠ some (.str "sys") ∧
    (∀ t ∈ ["graphite", "edgeshark"], t ∉ ["tools", "defaults", "sys", "provider", "addressing"]) ∧
    (startTools false "10.0.0.1" toolTopo).map (fun r => (r.tool, r.cmd)) =
      [("graphite", .str "docker run graphite"), ("graphite", .str "sleep 1"), ("edgeshark", .str "docker compose up")] ∧
    (stopTools "10.0.0.1" toolTopo).map (fun r => (r.tool, r.cmd)) = [("graphite", .str "docker kill graphite")] ∧
    (startTools false "10.0.0.1" toolTopo).map (fun r => Val.at (.dict r.topo) ["sys", "docker_net"]) =
      [some (.str "--network=mgmt2"), some (.str "--network=mgmt2"), some (.str "--network=mgmt2")] ∧
    toolMessage "graphite" toolTopo = some (.str "Connect to port 8080") := by
  refine ⟨toolTopo_ok, ?_⟩
  decide +kernel

example : ToolNames toolTopo (toolsUsed toolTopo) := by
  have : toolsUsed toolTopo = ["graphite", "edgeshark"] := rfl
  rw [this]
  constructor <;> decide +kernel

/-- Hypotheses of `C133_accepted` can be met. -/
example : ∃ ts, toolProcess [("graphite", [("docker", .dict [("up", .str "docker run")])])] [("graphite", [])] = some (ts, 0) ∧
    ts = [("graphite", [("runtime", .str "docker")])] := ⟨_, by decide +kernel, rfl⟩

/-- Status of a lab. -/
example : getInstance (some "12") "/home/x" [(.name "default", "/home/x"), (.num 12, "/home/y")] = some (.num 12) ∧
    getInstance none "/home/x" [(.name "default", "/home/x"), (.num 12, "/home/y")] = some (.name "default") ∧
    getInstance none "/home/z" [(.name "default", "/home/x"), (.num 12, "/home/y")] = none ∧
    vagrantStatus [["1", "r1", "metadata", "provider"], ["1", "r1", "state-human-short", "preparing"], ["2", "r1", "state-human-short", "running"],
      ["x"]] = [("r1", "running")] ∧
    statusRows (fun p => if p = "clab" then [("clab-l-h1", "Up 1 second"), ("l_graphite", "Up 2 seconds")] else [("r1", "running")])
      (fun p n => if p = "clab" then clabNode "clab" "l" n else n) "libvirt" "l"
      [⟨"r1", none, false⟩, ⟨"h1", some "clab", false⟩, ⟨"h2", some "clab", false⟩, ⟨"x", none, true⟩] ["graphite", "nso"] =
      [.node "r1" "libvirt" "r1" "running", .node "h1" "clab" "clab-l-h1" "Up 1 second", .node "h2" "clab" "clab-l-h2" "Unknown",
       .unmanaged "x", .tool "graphite" "l_graphite" "Up 2 seconds", .tool "nso" "l_nso" "Not running"] := by
  refine ⟨?_, ?_, ?_, ?_, ?_⟩ <;> decide +kernel

end Netlab
