import Verif.Spec.TestPlugin
/-!
# C146: validation tests use the right plugins and actions
-/

namespace Netlab

open Spec

theorem plFind_iff (env : PlEnv) (d : String) (f : PlFile) : plFind env d env.path = f ↔ PluginFile env d f := by
  have key : ∀ l, (plFind env d l = .missing ∧ ∀ q ∈ l, env.file q d = .missing) ∨
      ∃ pre p post, l = pre ++ p :: post ∧ (∀ q ∈ pre, env.file q d = .missing) ∧ env.file p d ≠ .missing ∧ plFind env d l = env.file p d := by
    intro l
    induction l with
    | nil => exact Or.inl ⟨rfl, by simp⟩
    | cons p r ih =>
      by_cases hm : env.file p d = .missing
      · have he : plFind env d (p :: r) = plFind env d r := by
          rw [plFind, hm]
        rcases ih with ⟨h1, h2⟩ | ⟨pre, q, post, h1, h2, h3, h4⟩
        · left
          refine ⟨by rw [he, h1], ?_⟩
          intro q hq
          rcases List.mem_cons.mp hq with rfl | hq
          · exact hm
          · exact h2 q hq
        · right
          refine ⟨p :: pre, q, post, by rw [h1]; rfl, ?_, h3, by rw [he, h4]⟩
          intro x hx
          rcases List.mem_cons.mp hx with rfl | hx
          · exact hm
          · exact h2 x hx
      · right
        refine ⟨[], p, r, rfl, by simp, hm, ?_⟩
        rw [plFind]
        cases hf : env.file p d with
        | missing => exact (hm hf).elim
        | broken => rfl
        | ok fs => rfl
  constructor
  · intro h
    rcases key env.path with ⟨h1, h2⟩ | ⟨pre, p, post, h1, h2, h3, h4⟩
    · rw [← h, h1]
      exact .none h2
    · rw [← h, h4]
      exact .found pre post p h1 h2 h3
  · intro h
    cases h with
    | found pre post p h hp hf =>
      have : ∀ l, (∀ q ∈ l, env.file q d = .missing) → plFind env d (l ++ p :: post) = env.file p d := by
        intro l
        induction l with
        | nil =>
          intro _
          rw [List.nil_append, plFind]
          cases hx : env.file p d with
          | missing => exact (hf hx).elim
          | broken => rfl
          | ok fs => rfl
        | cons a r ih =>
          intro hl
          rw [List.cons_append, plFind, hl a (by simp)]
          exact ih (fun q hq => hl q (List.mem_cons_of_mem _ hq))
      rw [h]
      exact this pre hp
    | none hp =>
      rcases key env.path with ⟨h1, _⟩ | ⟨pre, p, post, h1, _, h3, _⟩
      · exact h1
      · exact (h3 (hp p (by rw [h1]; simp))).elim

/-- The plugin found in a file -/
def plOpt : PlFile → Option (List String)
  | .ok fs => some fs
  | _ => none

/-- What's known about a device: nothing, or the file found by the first request -/
def PlInv (s : PlState) (d : String) : Option PlFile → Prop
  | none => s.cache.lookup d = none ∧ d ∉ s.reported ∧ s.loads.count d = 0 ∧ s.events.count (.noPlugin d) = 0 ∧ s.events.count (.broken d) = 0
  | some f => s.cache.lookup d = some (plOpt f) ∧ s.loads.count d = (if f = .missing then 0 else 1) ∧
      s.events.count (.noPlugin d) = (if f = .missing then 1 else 0) ∧ s.events.count (.broken d) = (if f = .broken then 1 else 0)

theorem lookup_append_other {β : Type} (l : List (String × β)) (e d : String) (v : β) (h : d ≠ e) :
    (l ++ [(e, v)]).lookup d = l.lookup d := by
  have hb : (d == e) = false := by simpa using h
  induction l with
  | nil => simp [List.lookup_cons, hb]
  | cons a r ih =>
    rw [List.cons_append, List.lookup_cons, List.lookup_cons, ih]

theorem lookup_append_self {β : Type} (l : List (String × β)) (d : String) (v : β) (h : l.lookup d = none) :
    (l ++ [(d, v)]).lookup d = some v := by
  induction l with
  | nil => simp
  | cons a r ih =>
    rw [List.cons_append, List.lookup_cons]
    rw [List.lookup_cons] at h
    split at h
    · cases h
    · exact ih h

theorem findTestPlugin_self (env : PlEnv) (d : String) (s : PlState) (o : Option PlFile) (h : PlInv s d o) :
    PlInv (findTestPlugin env d s).2 d (some (o.getD (plFind env d env.path))) ∧
      (findTestPlugin env d s).1 = plOpt (o.getD (plFind env d env.path)) := by
  cases o with
  | some f =>
    unfold findTestPlugin
    rw [h.1]
    exact ⟨h, rfl⟩
  | none =>
    obtain ⟨h1, h2, h3, h4, h5⟩ := h
    unfold findTestPlugin loadTestPlugin
    rw [h1]
    dsimp only
    cases hf : plFind env d env.path with
    | ok fs => simp [PlInv, plOpt, h3, h4, h5, lookup_append_self _ _ _ h1]
    | broken => simp [PlInv, plOpt, h3, h4, h5, lookup_append_self _ _ _ h1]
    | missing =>
      have : s.reported.contains d = false := by simpa using h2
      simp [PlInv, plOpt, h2, h3, h4, h5, lookup_append_self _ _ _ h1]

theorem findTestPlugin_other (env : PlEnv) (e d : String) (hne : d ≠ e) (s : PlState) (o : Option PlFile) (h : PlInv s d o) :
    PlInv (findTestPlugin env e s).2 d o := by
  have hne' : e ≠ d := fun x => hne x.symm
  have c1 : [e].count d = 0 := by simp [hne']
  have c2 : [PlEvent.noPlugin e].count (PlEvent.noPlugin d) = 0 := by simp [hne']
  have c3 : [PlEvent.broken e].count (PlEvent.noPlugin d) = 0 := by simp
  have c4 : [PlEvent.noPlugin e].count (PlEvent.broken d) = 0 := by simp
  have c5 : [PlEvent.broken e].count (PlEvent.broken d) = 0 := by simp [hne']
  unfold findTestPlugin
  cases hl : s.cache.lookup e with
  | some p => exact h
  | none =>
    unfold loadTestPlugin
    dsimp only
    cases plFind env e env.path with
    | ok fs =>
      cases o with
      | none => simpa only [PlInv, lookup_append_other _ _ _ _ hne, List.count_append, c1, Nat.add_zero] using h
      | some f => simpa only [PlInv, lookup_append_other _ _ _ _ hne, List.count_append, c1, Nat.add_zero] using h
    | broken =>
      cases o with
      | none => simpa only [PlInv, lookup_append_other _ _ _ _ hne, List.count_append, c1, c3, c5, Nat.add_zero] using h
      | some f => simpa only [PlInv, lookup_append_other _ _ _ _ hne, List.count_append, c1, c3, c5, Nat.add_zero] using h
    | missing =>
      dsimp only
      by_cases hr : s.reported.contains e = true
      · rw [if_pos hr]
        cases o with
        | none => simpa only [PlInv, lookup_append_other _ _ _ _ hne] using h
        | some f => simpa only [PlInv, lookup_append_other _ _ _ _ hne] using h
      · rw [if_neg hr]
        cases o with
        | none =>
          simpa only [PlInv, lookup_append_other _ _ _ _ hne, List.count_append, c2, c4, Nat.add_zero, List.mem_append, List.mem_singleton, hne,
            or_false] using h
        | some f => simpa only [PlInv, lookup_append_other _ _ _ _ hne, List.count_append, c2, c4, Nat.add_zero] using h

/-- Additional errors about actions do not matter. -/
theorem plInv_noAction (s : PlState) (d : String) (o : Option PlFile) (e f : String) (h : PlInv s d o) :
    PlInv { s with events := s.events ++ [.noAction e f] } d o := by
  have c1 : [PlEvent.noAction e f].count (PlEvent.noPlugin d) = 0 := by simp
  have c2 : [PlEvent.noAction e f].count (PlEvent.broken d) = 0 := by simp
  cases o with
  | none => simpa only [PlInv, List.count_append, c1, c2, Nat.add_zero] using h
  | some g => simpa only [PlInv, List.count_append, c1, c2, Nat.add_zero] using h

/-- The state after a request is the state after the plugin was found, perhaps with one more error. -/
theorem findPluginAction_state (env : PlEnv) (e : String) (call : String) (s : PlState) :
    (findPluginAction env e (some call) s).2 = (findTestPlugin env e s).2 ∨
    (findPluginAction env e (some call) s).2 =
      { (findTestPlugin env e s).2 with events := (findTestPlugin env e s).2.events ++ [.noAction e (plFunc call)] } := by
  unfold findPluginAction
  dsimp only
  cases (findTestPlugin env e s).1 with
  | none => exact Or.inl rfl
  | some fs =>
    dsimp only
    split
    · exact Or.inl rfl
    · split
      · exact Or.inl rfl
      · exact Or.inr rfl

/-- The request is the first one for the device when nothing is known about it. -/
theorem plStep_inv (c : PlCall) (d : String) (s : PlState) (o : Option PlFile) (h : PlInv s d o) :
    PlInv (findPluginAction c.env c.device c.plugin s).2 d
      (if c.device = d ∧ c.plugin.isSome = true then some (o.getD (plFind c.env d c.env.path)) else o) := by
  obtain ⟨env, e, plugin⟩ := c
  cases plugin with
  | none => simpa [findPluginAction] using h
  | some call =>
    simp only [Option.isSome_some, and_true]
    by_cases he : e = d
    · subst he
      rw [if_pos rfl]
      have := (findTestPlugin_self env e s o h).1
      rcases findPluginAction_state env e call s with hs | hs
      · rw [hs]; exact this
      · rw [hs]; exact plInv_noAction _ _ _ _ _ this
    · rw [if_neg he]
      have := findTestPlugin_other env e d (fun x => he x.symm) s o h
      rcases findPluginAction_state env e call s with hs | hs
      · rw [hs]; exact this
      · rw [hs]; exact plInv_noAction _ _ _ _ _ this

/-- The file found by the first request -/
def plFirst (h : List PlCall) (d : String) : Option PlFile :=
  (h.find? (fun c => decide (c.device = d ∧ c.plugin.isSome = true))).map (fun c => plFind c.env d c.env.path)

theorem plRun_inv (h : List PlCall) (d : String) (s : PlState) (o : Option PlFile) (hi : PlInv s d o) :
    PlInv (plRun s h) d (o.or (plFirst h d)) := by
  induction h generalizing s o with
  | nil => simpa [plRun, plFirst] using hi
  | cons c r ih =>
    have := ih _ _ (plStep_inv c d s o hi)
    rw [plRun]
    by_cases hc : c.device = d ∧ c.plugin.isSome = true
    · rw [if_pos hc] at this
      have hf : plFirst (c :: r) d = some (plFind c.env d c.env.path) := by
        unfold plFirst
        rw [List.find?_cons_of_pos (by simpa using hc)]
        rfl
      rw [hf]
      cases o <;> simpa using this
    · rw [if_neg hc] at this
      have hf : plFirst (c :: r) d = plFirst r d := by
        unfold plFirst
        rw [List.find?_cons_of_neg (by simpa using hc)]
      rw [hf]
      exact this

theorem plRun_append (s : PlState) (h : List PlCall) (c : PlCall) :
    plRun s (h ++ [c]) = (findPluginAction c.env c.device c.plugin (plRun s h)).2 := by
  induction h generalizing s with
  | nil => rfl
  | cons a r ih => exact ih _

theorem plInit (d : String) : PlInv {} d none := by simp [PlInv]

theorem firstRequest_find {h : List PlCall} {d : String} {c : PlCall} (hf : FirstRequest h d c) :
    h.find? (fun c => decide (c.device = d ∧ c.plugin.isSome = true)) = some c := by
  obtain ⟨pre, post, rfl, h1, h2, h3⟩ := hf
  rw [List.find?_append]
  have : pre.find? (fun c => decide (c.device = d ∧ c.plugin.isSome = true)) = none := by
    rw [List.find?_eq_none]
    intro x hx
    simp only [decide_eq_true_eq]
    rintro ⟨ha, hb⟩
    rw [h3 x hx ha] at hb
    cases hb
  rw [this, List.find?_cons_of_pos (by simp [h1, h2])]
  rfl

theorem plFirst_of {h : List PlCall} {d : String} {c : PlCall} (hf : FirstRequest h d c) :
    plFirst h d = some (plFind c.env d c.env.path) := by
  unfold plFirst
  rw [firstRequest_find hf]
  rfl

/-- **C146**: a test uses the plugin for its device found in the first directory of the search path when the device was used for the
first time, no matter what requests were made before and what happened with the files in the meantime. -/
theorem C146_action (h : List PlCall) (c : PlCall) (call : String) (hc : c.plugin = some call) (first : PlCall)
    (hf : FirstRequest (h ++ [c]) c.device first) (f : PlFile) (hp : PluginFile first.env c.device f) :
    PluginAction (plFunc call) f (findPluginAction c.env c.device c.plugin (plRun {} h)).1 := by
  have hfile := (plFind_iff first.env c.device f).mpr hp
  have hinv := plRun_inv h c.device {} none (plInit _)
  simp only [Option.none_or] at hinv
  have hfst : (plFirst h c.device).getD (plFind c.env c.device c.env.path) = f := by
    have hx := plFirst_of hf
    unfold plFirst at hx ⊢
    rw [List.find?_append] at hx
    cases hh : h.find? (fun x => decide (x.device = c.device ∧ x.plugin.isSome = true)) with
    | some y =>
      rw [hh] at hx
      simp only [Option.some_or, Option.map_some, Option.some.injEq] at hx
      rw [Option.map_some, Option.getD_some, hx, hfile]
    | none =>
      rw [hh, List.find?_cons_of_pos (by simp [hc])] at hx
      simp only [Option.none_or, Option.map_some, Option.some.injEq] at hx
      rw [Option.map_none, Option.getD_none, hx, hfile]
  have hfound := (findTestPlugin_self c.env c.device _ _ hinv).2
  rw [hfst] at hfound
  rw [hc]
  unfold findPluginAction
  dsimp only
  rw [hfound]
  cases f with
  | missing => exact .missing
  | broken => exact .broken
  | ok fs =>
    dsimp only [plOpt]
    by_cases h1 : "show_" ++ plFunc call ∈ fs
    · rw [if_pos (by simpa using h1)]
      exact .shows fs h1
    · rw [if_neg (by simpa using h1)]
      by_cases h2 : "exec_" ++ plFunc call ∈ fs
      · rw [if_pos (by simpa using h2)]
        exact .execs fs h1 h2
      · rw [if_neg (by simpa using h2)]
        exact .neither fs h1 h2

/-- **C146**: the plugin for a device is loaded at most once, and a missing or broken plugin is reported exactly once, however many
tests need it.  There are no errors for devices that were not used. -/
theorem C146_once (h : List PlCall) (d : String) :
    (∀ first f, FirstRequest h d first → PluginFile first.env d f →
      (plRun {} h).loads.count d = (if f = .missing then 0 else 1) ∧
      (plRun {} h).events.count (.noPlugin d) = (if f = .missing then 1 else 0) ∧
      (plRun {} h).events.count (.broken d) = (if f = .broken then 1 else 0)) ∧
    ((∀ x ∈ h, x.device = d → x.plugin = none) →
      d ∉ (plRun {} h).loads ∧ .noPlugin d ∉ (plRun {} h).events ∧ .broken d ∉ (plRun {} h).events) := by
  have hinv := plRun_inv h d {} none (plInit _)
  simp only [Option.none_or] at hinv
  constructor
  · intro first f hf hp
    rw [plFirst_of hf, (plFind_iff first.env d f).mpr hp] at hinv
    exact hinv.2
  · intro hn
    have : plFirst h d = none := by
      unfold plFirst
      rw [List.find?_eq_none.mpr ?_]
      · rfl
      · intro x hx
        simp only [decide_eq_true_eq]
        rintro ⟨ha, hb⟩
        rw [hn x hx ha] at hb
        cases hb
    rw [this] at hinv
    obtain ⟨_, _, h3, h4, h5⟩ := hinv
    exact ⟨List.count_eq_zero.mp h3, List.count_eq_zero.mp h4, List.count_eq_zero.mp h5⟩

open Classical in
/-- The number of errors about actions reported by one request -/
theorem noAction_step (c : PlCall) (d g : String) (s : PlState) (o : Option PlFile) (h : PlInv s d o) :
    (findPluginAction c.env c.device c.plugin s).2.events.count (.noAction d g) = s.events.count (.noAction d g) +
      (if c.device = d ∧ c.plugin.map plFunc = some g ∧
          (∃ fs, o.getD (plFind c.env d c.env.path) = .ok fs ∧ ("show_" ++ g) ∉ fs ∧ ("exec_" ++ g) ∉ fs) then 1 else 0) := by
  obtain ⟨env, e, plugin⟩ := c
  have hfp : (findTestPlugin env e s).2.events.count (.noAction d g) = s.events.count (.noAction d g) := by
    unfold findTestPlugin loadTestPlugin
    cases s.cache.lookup e with
    | some p => rfl
    | none =>
      dsimp only
      cases plFind env e env.path with
      | ok fs => rfl
      | broken => simp
      | missing =>
        dsimp only
        split <;> simp
  cases plugin with
  | none => simp [findPluginAction]
  | some call =>
    simp only [Option.map_some, Option.some.injEq]
    unfold findPluginAction
    dsimp only
    by_cases he : e = d
    · subst he
      have hself := (findTestPlugin_self env e s o h).2
      rw [hself]
      generalize o.getD (plFind env e env.path) = f
      cases f with
      | missing => simp [plOpt, hfp]
      | broken => simp [plOpt, hfp]
      | ok fs =>
        dsimp only [plOpt]
        simp only [PlFile.ok.injEq, exists_eq_left', true_and]
        by_cases hg : plFunc call = g
        · subst hg
          by_cases h1 : "show_" ++ plFunc call ∈ fs
          · rw [if_pos (by simpa using h1)]
            simp [h1, hfp]
          · rw [if_neg (by simpa using h1)]
            by_cases h2 : "exec_" ++ plFunc call ∈ fs
            · rw [if_pos (by simpa using h2)]
              simp [h2, hfp]
            · rw [if_neg (by simpa using h2)]
              simp [h1, h2, hfp]
        · have : (if fs.contains ("show_" ++ plFunc call) = true then (some true, (findTestPlugin env e s).2)
              else if fs.contains ("exec_" ++ plFunc call) = true then (some false, (findTestPlugin env e s).2)
              else (none, { (findTestPlugin env e s).2 with
                events := (findTestPlugin env e s).2.events ++ [.noAction e (plFunc call)] })).2.events.count (.noAction e g) =
              s.events.count (.noAction e g) := by
            split
            · exact hfp
            · split
              · exact hfp
              · simp [hfp, hg]
          rw [this]
          simp [hg]
    · have : ∀ x : Option (List String),
          (match x with
            | none => (none, (findTestPlugin env e s).2)
            | some fs =>
              if fs.contains ("show_" ++ plFunc call) = true then (some true, (findTestPlugin env e s).2)
              else if fs.contains ("exec_" ++ plFunc call) = true then (some false, (findTestPlugin env e s).2)
              else (none, { (findTestPlugin env e s).2 with
                events := (findTestPlugin env e s).2.events ++ [.noAction e (plFunc call)] }) : Option Bool × PlState).2.events.count
            (.noAction d g) = s.events.count (.noAction d g) := by
        intro x
        cases x with
        | none => exact hfp
        | some fs =>
          dsimp only
          split
          · exact hfp
          · split
            · exact hfp
            · simp [hfp, he]
      rw [if_neg (by simp [he]), Nat.add_zero]
      exact this _

/-- **C146** (defect): an action missing in a plugin is reported every time it's needed (the key of the error is never stored). -/
theorem C146_repeated (h : List PlCall) (c : PlCall) (call : String) (hc : c.plugin = some call) (first : PlCall)
    (hf : FirstRequest (h ++ [c]) c.device first) (fs : List String) (hp : PluginFile first.env c.device (.ok fs))
    (h1 : "show_" ++ plFunc call ∉ fs) (h2 : "exec_" ++ plFunc call ∉ fs) :
    (plRun {} (h ++ [c])).events.count (.noAction c.device (plFunc call)) =
      (plRun {} h).events.count (.noAction c.device (plFunc call)) + 1 := by
  have hfile := (plFind_iff first.env c.device _).mpr hp
  have hinv := plRun_inv h c.device {} none (plInit _)
  simp only [Option.none_or] at hinv
  rw [plRun_append, noAction_step c c.device (plFunc call) _ _ hinv]
  rw [if_pos]
  refine ⟨rfl, by rw [hc]; rfl, fs, ?_, h1, h2⟩
  have hx := plFirst_of hf
  unfold plFirst at hx ⊢
  rw [List.find?_append] at hx
  cases hh : h.find? (fun x => decide (x.device = c.device ∧ x.plugin.isSome = true)) with
  | some y =>
    rw [hh] at hx
    simp only [Option.some_or, Option.map_some, Option.some.injEq] at hx
    rw [Option.map_some, Option.getD_some, hx, hfile]
  | none =>
    rw [hh, List.find?_cons_of_pos (by simp [hc])] at hx
    simp only [Option.none_or, Option.map_some, Option.some.injEq] at hx
    rw [Option.map_none, Option.getD_none, hx, hfile]

theorem selMatch_iff (d : String) (s : Option ValSel) : selMatch d s = true ↔ HasCommand d s := by
  unfold HasCommand
  cases s with
  | none => simp [selMatch]
  | some x => cases x <;> simp [selMatch]

/-- **C146**: the action of a test is the `show` command for the device, otherwise the `exec` command for the device, configuration
template, SuzieQ query, the action of the plugin, or waiting when the test has no command for any device. -/
theorem C146_precedence (t : ValTopo) (e : ValEntry) (n : String) :
    (HasCommand (t.device n) e.shows → findTestAction t e n = some .query) ∧
    (¬ HasCommand (t.device n) e.shows → HasCommand (t.device n) e.execs → findTestAction t e n = some .exec) ∧
    (¬ HasCommand (t.device n) e.shows → ¬ HasCommand (t.device n) e.execs →
      (e.config = true → findTestAction t e n = some .config) ∧
      (e.config = false → e.suzieq = true → findTestAction t e n = some .suzieq) ∧
      (e.config = false → e.suzieq = false → e.plugin = true →
        findTestAction t e n = (t.plugShow n).map (fun b => if b then .query else .exec)) ∧
      (e.config = false → e.suzieq = false → e.plugin = false →
        findTestAction t e n = if e.wait ≠ none ∧ e.shows = none ∧ e.execs = none then some .wait else none)) := by
  simp only [← selMatch_iff]
  unfold findTestAction
  refine ⟨fun h => by rw [if_pos h], fun h1 h2 => by rw [if_neg h1, if_pos h2], fun h1 h2 => ?_⟩
  rw [if_neg h1, if_neg h2]
  refine ⟨fun h => by simp [h], fun h h' => by simp [h, h'], fun h h' h'' => by simp [h, h', h''], fun h h' h'' => ?_⟩
  simp only [h, h', h'']
  cases e.wait <;> cases e.shows <;> cases e.execs <;> simp

/-- **C146**: `netlab validate test...` executes exactly the specified tests in the order in which they are defined; a test that
does not exist is reported. -/
theorem C146_tests (args tests : List String) (ha : args ≠ []) :
    (filterByTests false args tests).2 = (args.filter (fun t => decide (t ∉ tests))).length ∧
    ((∀ t ∈ args, t ∈ tests) → (filterByTests false args tests).1 = tests.filter (fun t => decide (t ∈ args))) ∧
    ((∃ t ∈ args, t ∉ tests) → 0 < (filterByTests false args tests).2) ∧ filterByTests false [] tests = (tests, 0) := by
  have hne : args.isEmpty = false := by cases args <;> simp_all
  have he : args.filter (fun t => (tests.filter (· == t)).isEmpty) = args.filter (fun t => decide (t ∉ tests)) := by
    apply List.filter_congr
    intro t _
    by_cases h : t ∈ tests
    · have : (tests.filter (· == t)) ≠ [] := by
        intro hx
        rw [List.filter_eq_nil_iff] at hx
        exact hx t h (by simp)
      simp [h]
    · simp only [h, not_false_eq_true, decide_true, List.isEmpty_iff, List.filter_eq_nil_iff, beq_iff_eq]
      rintro x hx rfl
      exact h hx
  have hz : (filterByTests false args tests).2 = (args.filter (fun t => decide (t ∉ tests))).length := by
    unfold filterByTests
    rw [he, hne]
    generalize (args.filter (fun t => decide (t ∉ tests))).length = k
    cases k with
    | zero => rfl
    | succ k => rfl
  refine ⟨hz, ?_, ?_, rfl⟩
  · intro h
    have h0 : args.filter (fun t => decide (t ∉ tests)) = [] := by
      rw [List.filter_eq_nil_iff]
      intro t ht
      simp [h t ht]
    unfold filterByTests
    rw [he, hne, h0]
    simp
  · rintro ⟨t, ht, hn⟩
    rw [hz]
    exact List.length_pos_of_mem (List.mem_filter.mpr ⟨ht, by simpa using hn⟩)

/-! ### Examples -/

/-- Two directories; the first one has no plugin for EOS. -/
def plEx : PlEnv :=
  { path := ["./validate", "/usr/validate"]
    file := fun p d => if d = "eos" ∧ p = "/usr/validate" then .ok ["show_bgp_neighbor", "valid_bgp_neighbor", "exec_ping"]
      else if d = "frr" ∧ p = "./validate" then .broken else .missing }

example : (findPluginAction plEx "eos" (some "ping('h1')") {}).1 = some false ∧
    (findPluginAction plEx "eos" (some "bgp_neighbor(node.bgp.neighbors)") {}).1 = some true ∧
    (plRun {} [⟨plEx, "eos", some "x"⟩, ⟨plEx, "frr", some "x"⟩, ⟨plEx, "eos", some "x"⟩, ⟨plEx, "linux", some "y"⟩, ⟨plEx, "linux", some "z"⟩]).events =
      [.noAction "eos" "x", .broken "frr", .noAction "eos" "x", .noPlugin "linux"] ∧
    filterByTests false ["ping", "bgp"] ["bgp", "ospf", "ping"] = (["bgp", "ping"], 0) ∧
    filterByTests false ["ping", "x"] ["bgp", "ospf", "ping"] = (["bgp", "ospf", "ping"], 1) := by decide +kernel

end Netlab
