import Verif.Spec.Log
import Verif.Props.Nodeset
/-!
# C104: errors, warnings and hints
-/

namespace Netlab
open Spec

theorem lgLines_ne (s : String) : lgLines s ≠ [] := by
  unfold lgLines
  simp [splitOnChar_ne_nil]

/-- Effect of the parts of a message that follow the text on the error log, warnings and other variables -/
structure LgTail (warn : Bool) (s t : LgSt) : Prop where
  errs : s.errors <+: t.errors
  same : warn = true → t.errors = s.errors
  warnings : t.warnings = s.warnings
  quiet : t.quiet = s.quiet
  topo : t.hints.isSome = s.hints.isSome
  msgs : t.display.filter isMessage = s.display.filter isMessage

theorem lgTail_refl (w : Bool) (s : LgSt) : LgTail w s s := ⟨List.prefix_rfl, fun _ => rfl, rfl, rfl, rfl, rfl⟩

theorem lgTail_trans {w : Bool} {s t u : LgSt} (h : LgTail w s t) (g : LgTail w t u) : LgTail w s u :=
  ⟨h.errs.trans g.errs, fun hw => (g.same hw).trans (h.same hw), g.warnings.trans h.warnings, g.quiet.trans h.quiet, g.topo.trans h.topo, g.msgs.trans h.msgs⟩

theorem lgPrint_tail (env : LgEnv) (w : Bool) (h : LgHint) (o : LgOut) (ho : isMessage o = false) (s : LgSt) : LgTail w s (lgPrint env w h o s) := by
  unfold lgPrint
  simp only
  split
  · exact lgTail_refl w s
  · refine ⟨?_, ?_, rfl, rfl, rfl, ?_⟩
    · cases w <;> simp
    · intro hw; simp [hw]
    · simp [List.filter_append, ho]

theorem lgData_tail (env : LgEnv) (m : LgMsg) (s : LgSt) : LgTail (m.cat == "Warning") s (lgData env m s) := by
  unfold lgData
  split
  · exact lgPrint_tail env _ _ _ rfl s
  · exact lgTail_refl _ s

theorem lgMore_tail (env : LgEnv) (m : LgMsg) (s : LgSt) : LgTail (m.cat == "Warning") s (lgMore env m s) := by
  unfold lgMore
  split
  · rename_i h _
    simp only
    have : LgTail (m.cat == "Warning") s (if s.cache.contains h then s else lgPrint env (m.cat == "Warning") h (.hint h) s) := by
      split
      · exact lgTail_refl _ s
      · exact lgPrint_tail env _ _ _ rfl s
    exact ⟨this.errs, this.same, this.warnings, this.quiet, this.topo, this.msgs⟩
  · exact lgTail_refl _ s

theorem lgStatic_tail (env : LgEnv) (m : LgMsg) (s : LgSt) : LgTail (m.cat == "Warning") s (lgStatic env m s) := by
  unfold lgStatic
  split
  · rename_i h hs hh hhs
    split
    · split
      · exact lgTail_refl _ s
      · refine ⟨?_, ?_, rfl, rfl, ?_, ?_⟩
        · by_cases hw : m.cat = "Warning"
          · simp [hw]
          · simp only [hw, if_false, List.append_assoc]; exact List.prefix_append _ _
        · intro hw
          have hw' : m.cat = "Warning" := by simpa using hw
          simp [hw']
        · simp [hhs]
        · simp [List.filter_append, isMessage]
    · exact lgTail_refl _ s
  · exact lgTail_refl _ s

/-- The effects of a message -/
structure LgEff (warn : Bool) (msg : Option LgOut) (s t : LgSt) : Prop where
  errs : s.errors <+: t.errors
  same : warn = true → t.errors = s.errors
  more : warn = false → t.errors ≠ []
  wlog : s.warnings <+: t.warnings
  quiet : t.quiet = s.quiet
  topo : t.hints.isSome = s.hints.isSome
  msgs : t.display.filter isMessage = s.display.filter isMessage ++ msg.toList

theorem lgError_eff (env : LgEnv) (m : LgMsg) (s : LgSt) :
    LgEff (m.cat == "Warning") (if m.cat = "Warning" ∧ s.quiet = true then none else some (.msg m.cat (shownModule m.module) m.text)) s (lgError env m s).1 ∧
    (lgError env m s).2 = (m.exit && m.cat != "Warning" ) := by
  unfold lgError
  simp only
  obtain ⟨m', hm'⟩ : ∃ m', m' = (if m.module = "-" then { m with module := "" } else m) := ⟨_, rfl⟩
  rw [← hm']
  have h1 : m'.cat = m.cat := by rw [hm']; split <;> rfl
  have h2 : m'.module = shownModule m.module := by rw [hm']; unfold shownModule; split <;> simp_all
  have h3 : m'.text = m.text := by rw [hm']; split <;> rfl
  have h4 : m'.exit = m.exit := by rw [hm']; split <;> rfl
  rw [← h1, ← h2, ← h3, ← h4]
  generalize m' = m
  have hrest : ∀ s1, LgTail (m.cat == "Warning") s1 (lgStatic env m (lgMore env m (lgData env m s1))) :=
    fun s1 => lgTail_trans (lgTail_trans (lgData_tail env m s1) (lgMore_tail env m _)) (lgStatic_tail env m _)
  by_cases hc : m.cat = "Warning"
  · by_cases hq : s.quiet = true
    · have : lgMsg m s = none := by unfold lgMsg; rw [if_pos hc, if_pos hq]
      rw [this]
      simp only
      refine ⟨⟨List.prefix_rfl, fun _ => rfl, ?_, List.prefix_rfl, rfl, rfl, ?_⟩, ?_⟩
      · simp [hc]
      · simp [hc, hq]
      · simp [hc]
    · have : lgMsg m s = some { s with warnings := s.warnings ++ lgLines (m.module ++ ": " ++ m.text), display := s.display ++ [.msg m.cat m.module m.text] } := by
        unfold lgMsg; rw [if_pos hc, if_neg hq]
      rw [this]
      simp only
      have hr := hrest { s with warnings := s.warnings ++ lgLines (m.module ++ ": " ++ m.text), display := s.display ++ [.msg m.cat m.module m.text] }
      refine ⟨⟨hr.errs, hr.same, by simp [hc], ?_, hr.quiet, hr.topo, ?_⟩, trivial⟩
      · rw [hr.warnings]; exact List.prefix_append _ _
      · rw [hr.msgs, if_neg (by simp [hq])]; simp [List.filter_append, List.filter_cons, isMessage]
  · have : lgMsg m s = some { s with errors := s.errors ++ lgLines (lgErrText m), display := s.display ++ [.msg m.cat m.module m.text] } := by
      unfold lgMsg; rw [if_neg hc]
    rw [this]
    simp only
    have hr := hrest { s with errors := s.errors ++ lgLines (lgErrText m), display := s.display ++ [.msg m.cat m.module m.text] }
    refine ⟨⟨?_, by simp [hc], ?_, ?_, hr.quiet, hr.topo, ?_⟩, trivial⟩
    · exact (List.prefix_append _ _).trans hr.errs
    · intro _ h0
      have := hr.errs
      rw [h0] at this
      simp only [List.prefix_nil, List.append_eq_nil_iff] at this
      exact lgLines_ne _ this.2
    · rw [hr.warnings]
    · rw [hr.msgs, if_neg (by simp [hc])]; simp [List.filter_append, List.filter_cons, isMessage]

theorem lgEff_cache {w : Bool} {msg : Option LgOut} {s t : LgSt} {c d : List LgHint} (h : LgEff w msg { s with cache := c } t) : LgEff w msg s { t with cache := d } :=
  ⟨h.errs, h.same, h.more, h.wlog, h.quiet, h.topo, h.msgs⟩

theorem lgWarning_off (env : LgEnv) (m : LgMsg) (f : String) (s : LgSt) (h : FlagOff env s.hints.isSome m.module f) : lgWarning env m (some f) s = (s, false) := by
  unfold lgWarning
  simp only
  unfold FlagOff at h
  rw [if_pos h]

theorem lgWarning_eff (env : LgEnv) (m : LgMsg) (f : String) (s : LgSt) (h : ¬ FlagOff env s.hints.isSome m.module f) :
    LgEff (m.cat == "Warning") (if m.cat = "Warning" ∧ s.quiet = true then none else some (.msg m.cat (shownModule m.module) m.text)) s (lgWarning env m (some f) s).1 ∧
    (lgWarning env m (some f) s).2 = (m.exit && m.cat != "Warning") := by
  unfold lgWarning
  simp only
  unfold FlagOff at h
  rw [if_neg h]
  generalize lgAddHint (lgDisable m.cat (lgFlag m.module f)) m.more s.cache = a
  have he := lgError_eff env { m with more := a.2.1 } { s with cache := a.2.2 }
  simp only at he
  generalize lgError env { m with more := a.2.1 } { s with cache := a.2.2 } = r at he
  cases hr : r.2 with
  | true =>
    rw [if_pos rfl]
    refine ⟨⟨he.1.errs, he.1.same, he.1.more, he.1.wlog, he.1.quiet, he.1.topo, he.1.msgs⟩, he.2⟩
  | false =>
    rw [if_neg Bool.false_ne_true]
    refine ⟨lgEff_cache he.1, ?_⟩
    rw [← he.2, hr]

theorem lgRepeat_tail (env : LgEnv) (ws : List String) : ∀ s : LgSt,
    let t := ws.foldl (fun s w => (lgError env { text := w, cat := "Warning", module := "-" } s).1) s
    t.errors = s.errors ∧ s.warnings <+: t.warnings ∧ t.quiet = s.quiet ∧ t.hints.isSome = s.hints.isSome ∧
    t.display.filter isMessage = s.display.filter isMessage ++ (if s.quiet then [] else ws.map (fun w => .msg "Warning" "" w)) := by
  induction ws with
  | nil => intro s; simp
  | cons w r ih =>
    intro s
    simp only [List.foldl_cons]
    have he := (lgError_eff env { text := w, cat := "Warning", module := "-" } s).1
    have := ih (lgError env { text := w, cat := "Warning", module := "-" } s).1
    simp only at this
    obtain ⟨h1, h2, h3, h4, h5⟩ := this
    refine ⟨h1.trans (he.same rfl), he.wlog.trans h2, h3.trans he.quiet, h4.trans he.topo, ?_⟩
    rw [h5, he.msgs, he.quiet]
    cases s.quiet <;> simp [shownModule]

/-- Effects of a single call -/
theorem lgOp_eff (env : LgEnv) (o : LgOp) (s : LgSt) :
    s.errors <+: (lgOp env o s).1.errors ∧ s.warnings <+: (lgOp env o s).1.warnings ∧ (lgOp env o s).1.quiet = s.quiet ∧ (lgOp env o s).1.hints.isSome = s.hints.isSome ∧
    (ReportsError env s.hints.isSome o → (lgOp env o s).1.errors ≠ []) ∧
    (¬ ReportsError env s.hints.isSome o → (lgOp env o s).2 = false → (lgOp env o s).1.errors = s.errors) ∧
    (¬ ReportsError env s.hints.isSome o → s.errors = [] → (lgOp env o s).2 = false) := by
  have hw : ∀ (m : LgMsg), (m.cat == "Warning") = false ↔ m.cat ≠ "Warning" := by intro m; simp
  cases o with
  | error m =>
    obtain ⟨h, hx⟩ := lgError_eff env m s
    simp only [lgOp, ReportsError]
    refine ⟨h.errs, h.wlog, h.quiet, h.topo, fun hc => h.more ((hw m).2 hc), ?_, ?_⟩
    · intro hc _; exact h.same (by simpa using hc)
    · intro hc _; rw [hx]; simp at hc; simp [hc]
  | warning m f =>
    cases f with
    | none =>
      obtain ⟨h, hx⟩ := lgError_eff env { m with cat := "Warning" } s
      simp only [lgOp, ReportsError, lgWarning]
      refine ⟨h.errs, h.wlog, h.quiet, h.topo, by simp, ?_, ?_⟩
      · intro _ _; exact h.same rfl
      · intro _ _; rw [hx]; simp
    | some f =>
      by_cases hf : FlagOff env s.hints.isSome m.module f
      · simp only [lgOp, ReportsError, lgWarning_off env m f s hf]
        simp [hf]
      · obtain ⟨h, hx⟩ := lgWarning_eff env m f s hf
        simp only [lgOp, ReportsError]
        refine ⟨h.errs, h.wlog, h.quiet, h.topo, fun hc => h.more ((hw m).2 hc.1), ?_, ?_⟩
        · intro hc _
          apply h.same
          by_cases hcat : m.cat = "Warning"
          · simp [hcat]
          · exact absurd ⟨hcat, hf⟩ hc
        · intro hc _
          rw [hx]
          by_cases hcat : m.cat = "Warning"
          · simp [hcat]
          · exact absurd ⟨hcat, hf⟩ hc
  | repeatWarnings c =>
    simp only [lgOp, ReportsError, lgRepeat]
    split
    · simp
    · have he := (lgError_eff env { text := "The following warnings were generated during the '" ++ c ++ "' processing", cat := "Warning", module := "-" } s).1
      have := lgRepeat_tail env s.warnings (lgError env { text := "The following warnings were generated during the '" ++ c ++ "' processing", cat := "Warning", module := "-" } s).1
      simp only at this
      obtain ⟨h1, h2, h3, h4, _⟩ := this
      have he' : _ = _ := h1.trans (he.same rfl)
      exact ⟨he' ▸ List.prefix_rfl, he.wlog.trans h2, h3.trans he.quiet, h4.trans he.topo, by simp, fun _ _ => he', fun _ _ => trivial⟩
  | exitOnError n =>
    simp only [lgOp, ReportsError, lgExit]
    split
    · rename_i hn
      simp only [lgFatal]
      refine ⟨List.prefix_append _ _, List.prefix_rfl, trivial, trivial, by simp, by simp, ?_⟩
      intro _ h0
      rw [h0] at hn
      simp at hn
    · simp
  | fatal t m =>
    simp only [lgOp, ReportsError, lgFatal]
    refine ⟨List.prefix_append _ _, List.prefix_rfl, trivial, trivial, ?_, by simp, by simp⟩
    intro _
    simp [lgLines_ne]

theorem lgRun_errors (env : LgEnv) (ops : List LgOp) : ∀ (s t : LgSt), lgRun env ops s = (t, false) →
    t.hints.isSome = s.hints.isSome ∧ t.quiet = s.quiet ∧ s.errors <+: t.errors ∧ s.warnings <+: t.warnings ∧
    (t.errors ≠ [] ↔ s.errors ≠ [] ∨ ∃ o ∈ ops, ReportsError env s.hints.isSome o) := by
  induction ops with
  | nil =>
    intro s t h
    simp only [lgRun, Prod.mk.injEq, and_true] at h
    subst h
    simp
  | cons o r ih =>
    intro s t h
    simp only [lgRun] at h
    obtain ⟨e1, e2, e3, e4, e5, e6, e7⟩ := lgOp_eff env o s
    cases ho : (lgOp env o s).2 with
    | true => rw [if_pos ho] at h; rw [h] at ho; simp at ho
    | false =>
      rw [if_neg (by simp [ho])] at h
      obtain ⟨i1, i2, i3, i4, i5⟩ := ih _ t h
      refine ⟨i1.trans e4, i2.trans e3, e1.trans i3, e2.trans i4, ?_⟩
      rw [i5, e4]
      constructor
      · rintro (hx | ⟨o', hm, hr⟩)
        · by_cases hr : ReportsError env s.hints.isSome o
          · exact Or.inr ⟨o, List.mem_cons_self, hr⟩
          · rw [e6 hr ho] at hx; exact Or.inl hx
        · exact Or.inr ⟨o', List.mem_cons_of_mem _ hm, hr⟩
      · rintro (hx | ⟨o', hm, hr⟩)
        · left
          intro h0
          rw [h0] at e1
          simp only [List.prefix_nil] at e1
          exact hx e1
        · rcases List.mem_cons.1 hm with rfl | hm
          · exact Or.inl (e5 hr)
          · exact Or.inr ⟨o', hm, hr⟩

/-- **C104**: whatever calls the program made, `exit_on_error` terminates it if and only if an error was reported (warnings and disabled checks don't count, and no error is lost). -/
theorem C104_exit_on_error (env : LgEnv) (ops : List LgOp) (s t : LgSt) (h0 : s.errors = []) (h : lgRun env ops s = (t, false)) :
    (lgExit 0 t).2 = true ↔ ∃ o ∈ ops, ReportsError env s.hints.isSome o := by
  obtain ⟨_, _, _, _, h5⟩ := lgRun_errors env ops s t h
  have : (lgExit 0 t).2 = true ↔ t.errors ≠ [] := by
    unfold lgExit
    cases t.errors <;> simp [lgFatal]
  rw [this, h5]
  simp [h0]

example : (lgRun { wrap := fun s => [s], format := id } [.warning { text := "w" } none, .error { text := "e", cat := "IncorrectValue" }] {}).2 = false ∧
    (lgExit 0 (lgRun { wrap := fun s => [s], format := id } [.warning { text := "w" } none, .error { text := "e", cat := "IncorrectValue" }] {}).1).2 = true ∧
    (lgExit 0 (lgRun { wrap := fun s => [s], format := id } [.warning { text := "w", more := some (.one "x") } none] {}).1).2 = false := by
  refine ⟨?_, ?_, ?_⟩ <;> decide +kernel

/-- **C104**: errors and warnings stay in the logs. -/
theorem C104_logs_grow (env : LgEnv) (ops : List LgOp) (s t : LgSt) (h : lgRun env ops s = (t, false)) : s.errors <+: t.errors ∧ s.warnings <+: t.warnings := by
  obtain ⟨_, _, h3, h4, _⟩ := lgRun_errors env ops s t h
  exact ⟨h3, h4⟩

/-- **C104**: as long as no error is reported, the program is not terminated (whatever the arguments of warnings are), and the error log stays empty. -/
theorem C104_warnings_never_abort (env : LgEnv) (ops : List LgOp) : ∀ (s : LgSt), s.errors = [] → (∀ o ∈ ops, ¬ ReportsError env s.hints.isSome o) →
    (lgRun env ops s).2 = false ∧ (lgRun env ops s).1.errors = [] := by
  induction ops with
  | nil => intro s h0 _; exact ⟨rfl, h0⟩
  | cons o r ih =>
    intro s h0 hall
    obtain ⟨e1, e2, e3, e4, e5, e6, e7⟩ := lgOp_eff env o s
    have hn := hall o List.mem_cons_self
    have ho := e7 hn h0
    simp only [lgRun]
    rw [if_neg (by simp [ho])]
    apply ih
    · rw [e6 hn ho, h0]
    · rw [e4]; exact fun o' hm => hall o' (List.mem_cons_of_mem _ hm)

/-- **C104**: errors and warnings are displayed once, in the order they are reported; quiet warnings and disabled warnings are not displayed. -/
theorem C104_messages (env : LgEnv) (ops : List LgOp) (hk : ∀ o ∈ ops, (∃ m, o = .error m) ∨ ∃ m f, o = .warning m f) : ∀ (s t : LgSt), lgRun env ops s = (t, false) →
    t.display.filter isMessage = s.display.filter isMessage ++ ops.filterMap (messageOf env s.hints.isSome s.quiet) := by
  induction ops with
  | nil =>
    intro s t h
    simp only [lgRun, Prod.mk.injEq, and_true] at h
    subst h
    simp
  | cons o r ih =>
    intro s t h
    simp only [lgRun] at h
    obtain ⟨_, _, e3, e4, _⟩ := lgOp_eff env o s
    cases ho : (lgOp env o s).2 with
    | true => rw [if_pos ho] at h; rw [h] at ho; simp at ho
    | false =>
      rw [if_neg (by simp [ho])] at h
      rw [ih (fun o' hm => hk o' (List.mem_cons_of_mem _ hm)) _ t h, e3, e4]
      have hstep : (lgOp env o s).1.display.filter isMessage = s.display.filter isMessage ++ (messageOf env s.hints.isSome s.quiet o).toList := by
        rcases hk o List.mem_cons_self with ⟨m, rfl⟩ | ⟨m, f, rfl⟩
        · rw [show (lgOp env (.error m) s) = lgError env m s from rfl, (lgError_eff env m s).1.msgs]
          simp only [messageOf]
        · cases f with
          | none =>
            rw [show (lgOp env (.warning m none) s) = lgError env { m with cat := "Warning" } s from rfl, (lgError_eff env _ s).1.msgs]
            simp only [messageOf, true_and]
          | some f =>
            simp only [lgOp, messageOf]
            by_cases hf : FlagOff env s.hints.isSome m.module f
            · rw [lgWarning_off env m f s hf, if_pos hf]; simp
            · rw [(lgWarning_eff env m f s hf).1.msgs, if_neg hf]
      rw [hstep, List.append_assoc, List.filterMap_cons]
      cases messageOf env s.hints.isSome s.quiet o <;> simp

/-- **C104**: a warning disabled in lab topology does nothing. -/
theorem C104_disabled (env : LgEnv) (m : LgMsg) (f : String) (s : LgSt) (h : s.hints.isSome = true)
    (hf : (∃ r, f = "defaults." ++ r ∧ env.flag f = some false) ∨
      ((∀ r, f ≠ "defaults." ++ r) ∧ '.' ∈ f.toList ∧ env.flag ("defaults.warnings." ++ f) = some false) ∨
      ('.' ∉ f.toList ∧ env.flag ("defaults." ++ m.module ++ ".warnings." ++ f) = some false)) :
    lgOp env (.warning m (some f)) s = (s, false) := by
  apply lgWarning_off
  refine ⟨h, ?_⟩
  have hp : ∀ r : String, ("defaults.".toList.isPrefixOf ("defaults." ++ r).toList) = true := by
    intro r
    rw [List.isPrefixOf_iff_prefix, String.toList_append]
    exact List.prefix_append _ _
  unfold lgFlag
  rcases hf with ⟨r, rfl, hv⟩ | ⟨hn, hd, hv⟩ | ⟨hd, hv⟩
  · rw [if_pos (hp r)]; exact hv
  · rw [if_neg, if_pos (by simpa using hd)]
    · exact hv
    · intro hpre
      obtain ⟨r, hr⟩ := List.isPrefixOf_iff_prefix.1 hpre
      apply hn (String.ofList r)
      rw [← String.toList_inj, String.toList_append, ← hr]
      simp
  · rw [if_neg, if_neg (by simpa using hd)]
    · exact hv
    · intro hpre
      apply hd
      have hdot : '.' ∈ "defaults.".toList := by decide
      exact (List.isPrefixOf_iff_prefix.1 hpre).subset hdot

/-- **C104**: an error terminates the program immediately only when the caller asked for that, and a warning never does. -/
theorem C104_exit_request (env : LgEnv) (m : LgMsg) (s : LgSt) : (lgOp env (.error m) s).2 = true ↔ m.exit = true ∧ m.cat ≠ "Warning" := by
  rw [show lgOp env (.error m) s = lgError env m s from rfl, (lgError_eff env m s).2]
  simp

/-- **C104**: warnings are repeated in the order they were generated, together with a header, unless the program is quiet. -/
theorem C104_repeat (env : LgEnv) (cmd : String) (s : LgSt) (hq : s.quiet = false) :
    (lgRepeat env cmd s).display.filter isMessage = s.display.filter isMessage ++
      (if s.warnings = [] then [] else .msg "Warning" "" ("The following warnings were generated during the '" ++ cmd ++ "' processing") :: s.warnings.map (fun w => .msg "Warning" "" w)) := by
  unfold lgRepeat
  cases hw : s.warnings with
  | nil => simp
  | cons w ws =>
    rw [← hw, if_neg (by simp [hw]), if_neg (by simp [hw])]
    have he := (lgError_eff env { text := "The following warnings were generated during the '" ++ cmd ++ "' processing", cat := "Warning", module := "-" } s).1
    have := lgRepeat_tail env s.warnings (lgError env { text := "The following warnings were generated during the '" ++ cmd ++ "' processing", cat := "Warning", module := "-" } s).1
    simp only at this
    obtain ⟨_, _, _, _, h5⟩ := this
    rw [h5, he.quiet, he.msgs]
    simp [hq, shownModule]

/-- The hints displayed so far are in the cache, and none was displayed twice -/
def LgHints (s : LgSt) : Prop := ∀ h, s.display.count (.hint h) ≤ 1 ∧ (LgOut.hint h ∈ s.display → h ∈ s.cache)

/-- Parts of the state used in `LgHints` -/
theorem lgHints_of {s t : LgSt} (hs : LgHints s) (hd : ∀ h, t.display.count (.hint h) = s.display.count (.hint h)) (hc : ∀ h ∈ s.cache, h ∈ t.cache) : LgHints t := by
  intro h
  refine ⟨by rw [hd]; exact (hs h).1, ?_⟩
  intro hm
  apply hc
  apply (hs h).2
  have : 0 < t.display.count (.hint h) := List.count_pos_iff.2 hm
  rw [hd] at this
  exact List.count_pos_iff.1 this

theorem lgPrint_count (env : LgEnv) (w : Bool) (h : LgHint) (o : LgOut) (s : LgSt) :
    ((lgPrint env w h o s).display = s.display ∨ (lgPrint env w h o s).display = s.display ++ [o]) ∧ (lgPrint env w h o s).cache = s.cache := by
  unfold lgPrint
  simp only
  split
  · exact ⟨Or.inl rfl, rfl⟩
  · exact ⟨Or.inr rfl, rfl⟩

theorem lgStatic_display (env : LgEnv) (m : LgMsg) (s : LgSt) :
    ((lgStatic env m s).display = s.display ∨ ∃ a b, (lgStatic env m s).display = s.display ++ [.static a b]) ∧ (lgStatic env m s).cache = s.cache := by
  unfold lgStatic
  split
  · split
    · split
      · exact ⟨Or.inl rfl, rfl⟩
      · exact ⟨Or.inr ⟨_, _, rfl⟩, rfl⟩
    · exact ⟨Or.inl rfl, rfl⟩
  · exact ⟨Or.inl rfl, rfl⟩

theorem lgMsg_display (m : LgMsg) (s t : LgSt) (h : lgMsg m s = some t) : t.display = s.display ++ [.msg m.cat m.module m.text] ∧ t.cache = s.cache ∧ t.hints = s.hints := by
  unfold lgMsg at h
  split at h
  · split at h
    · simp at h
    · simp only [Option.some.injEq] at h; subst h; exact ⟨rfl, rfl, rfl⟩
  · simp only [Option.some.injEq] at h; subst h; exact ⟨rfl, rfl, rfl⟩

theorem lgData_display (env : LgEnv) (m : LgMsg) (s : LgSt) :
    ((lgData env m s).display = s.display ∨ ∃ d, (lgData env m s).display = s.display ++ [.data d]) ∧ (lgData env m s).cache = s.cache ∧ (lgData env m s).hints = s.hints := by
  unfold lgData
  split
  · rename_i d _
    obtain ⟨h1, h2⟩ := lgPrint_count env (m.cat == "Warning") d (.data d) s
    refine ⟨h1.imp id (fun h => ⟨d, h⟩), h2, ?_⟩
    unfold lgPrint; simp only; split <;> rfl
  · exact ⟨Or.inl rfl, rfl, rfl⟩

/-- What a message displays: the hint is displayed only when it's not in the cache -/
theorem lgError_display (env : LgEnv) (m : LgMsg) (s : LgSt) :
    ∃ a b, (lgError env m s).1.display = s.display ++ a ++ b ∧
      (∀ x ∈ a ++ b, ∀ h, x = .hint h → m.more = some h ∧ h ∉ s.cache ∧ h ∈ (lgError env m s).1.cache) ∧
      ((a ++ b).countP (fun x => match x with | .hint _ => true | _ => false) ≤ 1) ∧
      ∀ h ∈ s.cache, h ∈ (lgError env m s).1.cache := by
  unfold lgError
  simp only
  obtain ⟨m', hm'⟩ : ∃ m', m' = (if m.module = "-" then { m with module := "" } else m) := ⟨_, rfl⟩
  rw [← hm']
  have h1 : m'.more = m.more := by rw [hm']; split <;> rfl
  rw [← h1]
  generalize m' = m
  cases hmsg : lgMsg m s with
  | none => exact ⟨[], [], by simp, by simp, by simp, fun _ h => h⟩
  | some s1 =>
    simp only
    obtain ⟨d1, c1, _⟩ := lgMsg_display m s s1 hmsg
    obtain ⟨d2, c2, _⟩ := lgData_display env m s1
    obtain ⟨d4, c4⟩ := lgStatic_display env m (lgMore env m (lgData env m s1))
    generalize hs2 : lgData env m s1 = s2 at *
    have hp2 : ∃ p, s2.display = s.display ++ p ∧ (∀ x ∈ p, ∀ h, x ≠ .hint h) := by
      rcases d2 with d2 | ⟨d, d2⟩
      · exact ⟨[.msg m.cat m.module m.text], by rw [d2, d1], by simp⟩
      · refine ⟨[.msg m.cat m.module m.text, .data d], by rw [d2, d1]; simp, by simp⟩
    have hp4 : ∃ p, (lgStatic env m (lgMore env m s2)).display = (lgMore env m s2).display ++ p ∧ (∀ x ∈ p, ∀ h, x ≠ .hint h) := by
      rcases d4 with d4 | ⟨a, b, d4⟩
      · exact ⟨[], by simp [d4], by simp⟩
      · exact ⟨[.static a b], d4, by simp⟩
    have hc2 : s2.cache = s.cache := by rw [c2, c1]
    obtain ⟨p, hp, hpn⟩ := hp2
    obtain ⟨q, hq, hqn⟩ := hp4
    have hz : ∀ l : List LgOut, (∀ x ∈ l, ∀ h, x ≠ .hint h) → l.countP (fun x => match x with | .hint _ => true | _ => false) = 0 := by
      intro l hl
      rw [List.countP_eq_zero]
      intro x hx
      cases x with
      | hint h => exact absurd rfl (hl _ hx h)
      | _ => simp
    rw [c4, hq]
    cases hm : m.more with
    | none =>
      have : lgMore env m s2 = s2 := by unfold lgMore; rw [hm]
      rw [this, hp, hc2]
      refine ⟨p, q, rfl, ?_, ?_, fun _ h => h⟩
      · intro x hx h hxh
        rcases List.mem_append.1 hx with hx | hx
        · exact absurd hxh (hpn x hx h)
        · exact absurd hxh (hqn x hx h)
      · rw [List.countP_append, hz p hpn, hz q hqn]; simp
    | some h =>
      have hmore : (lgMore env m s2).cache = s.cache ++ [h] ∧
          ((lgMore env m s2).display = s2.display ∨ (h ∉ s.cache ∧ (lgMore env m s2).display = s2.display ++ [.hint h])) := by
        unfold lgMore
        rw [hm]
        simp only
        by_cases hc : s2.cache.contains h = true
        · rw [if_pos hc]
          exact ⟨by rw [hc2], Or.inl rfl⟩
        · rw [if_neg hc]
          obtain ⟨g1, g2⟩ := lgPrint_count env (m.cat == "Warning") h (.hint h) s2
          refine ⟨by rw [g2, hc2], ?_⟩
          rcases g1 with g1 | g1
          · exact Or.inl g1
          · refine Or.inr ⟨?_, g1⟩
            rw [← hc2]
            simpa using hc
      obtain ⟨m1, m2⟩ := hmore
      rw [m1]
      rcases m2 with m2 | ⟨hn, m2⟩
      · rw [m2, hp]
        refine ⟨p, q, rfl, ?_, ?_, fun _ hx => List.mem_append.2 (Or.inl hx)⟩
        · intro x hx h hxh
          rcases List.mem_append.1 hx with hx | hx
          · exact absurd hxh (hpn x hx h)
          · exact absurd hxh (hqn x hx h)
        · rw [List.countP_append, hz p hpn, hz q hqn]; simp
      · rw [m2, hp]
        refine ⟨p ++ [.hint h], q, by simp, ?_, ?_, fun _ hx => List.mem_append.2 (Or.inl hx)⟩
        · intro x hx h' hxh
          rcases List.mem_append.1 hx with hx | hx
          · rcases List.mem_append.1 hx with hx | hx
            · exact absurd hxh (hpn x hx h')
            · simp only [List.mem_singleton] at hx
              rw [hx] at hxh
              simp only [LgOut.hint.injEq] at hxh
              subst hxh
              exact ⟨rfl, hn, by simp⟩
          · exact absurd hxh (hqn x hx h')
        · rw [List.countP_append, List.countP_append, hz p hpn, hz q hqn]; simp

theorem lgError_hints (env : LgEnv) (m : LgMsg) (s : LgSt) (hs : LgHints s) : LgHints (lgError env m s).1 := by
  obtain ⟨a, b, hd, hx, hn, hc⟩ := lgError_display env m s
  intro h
  rw [hd, List.append_assoc]
  by_cases hm : LgOut.hint h ∈ a ++ b
  · obtain ⟨_, h2, h3⟩ := hx _ hm h rfl
    refine ⟨?_, fun _ => h3⟩
    rw [List.count_append]
    have hz : s.display.count (.hint h) = 0 := by
      rw [List.count_eq_zero]
      exact fun hx => h2 ((hs h).2 hx)
    have hle : (a ++ b).count (.hint h) ≤ (a ++ b).countP (fun x => match x with | .hint _ => true | _ => false) := by
      rw [List.count]
      apply List.countP_mono_left
      intro x _ hxe
      have : x = .hint h := by simpa using hxe
      rw [this]
    omega
  · refine ⟨?_, ?_⟩
    · rw [List.count_append, List.count_eq_zero.2 hm]
      exact (hs h).1
    · intro hmem
      rcases List.mem_append.1 hmem with h1 | h1
      · exact hc h ((hs h).2 h1)
      · exact absurd h1 hm

theorem lgAddHint_cache (q : String) (more : Option LgHint) (cache : List LgHint) : ∀ h ∈ cache, h ∈ (lgAddHint q more cache).2.2 := by
  intro h hm
  unfold lgAddHint
  simp only
  split
  · exact hm
  · split <;> exact List.mem_append.2 (Or.inl hm)

theorem lgRepeat_ind (P : LgSt → Prop) (env : LgEnv) (hP : ∀ w s, P s → P (lgError env { text := w, cat := "Warning", module := "-" } s).1) (c : String) (s : LgSt) (h : P s) :
    P (lgRepeat env c s) := by
  unfold lgRepeat
  split
  · exact h
  · have h0 := hP ("The following warnings were generated during the '" ++ c ++ "' processing") s h
    generalize (lgError env { text := "The following warnings were generated during the '" ++ c ++ "' processing", cat := "Warning", module := "-" } s).1 = s1 at h0
    generalize s.warnings = ws
    induction ws generalizing s1 with
    | nil => exact h0
    | cons w r ih => exact ih _ (hP w s1 h0)

theorem lgFatal_hints (t m : String) (s : LgSt) (hs : LgHints s) : LgHints (lgFatal t m s).1 := by
  refine lgHints_of hs ?_ (fun _ h => h)
  intro h
  simp [lgFatal, List.count_append, List.count_cons]

theorem lgOp_hints (env : LgEnv) (o : LgOp) (s : LgSt) (hs : LgHints s) : LgHints (lgOp env o s).1 := by
  cases o with
  | error m => exact lgError_hints env m s hs
  | warning m f =>
    cases f with
    | none => exact lgError_hints env _ s hs
    | some f =>
      simp only [lgOp, lgWarning]
      split
      · exact hs
      · have h1 : LgHints { s with cache := (lgAddHint (lgDisable m.cat (lgFlag m.module f)) m.more s.cache).2.2 } :=
          lgHints_of hs (fun _ => rfl) (lgAddHint_cache _ _ _)
        have h2 := lgError_hints env { m with more := (lgAddHint (lgDisable m.cat (lgFlag m.module f)) m.more s.cache).2.1 } _ h1
        split
        · exact h2
        · exact lgHints_of h2 (fun _ => rfl) (fun h hm => List.mem_append.2 (Or.inl hm))
  | repeatWarnings c => exact lgRepeat_ind LgHints env (fun w s => lgError_hints env _ s) c s hs
  | exitOnError n =>
    simp only [lgOp, lgExit]
    split
    · exact lgFatal_hints _ _ s hs
    · exact hs
  | fatal t m => exact lgFatal_hints t m s hs

theorem lgRun_ind (P : LgSt → Prop) (Q : LgOp → Prop) (env : LgEnv) (hP : ∀ o s, Q o → P s → P (lgOp env o s).1) (ops : List LgOp) : (∀ o ∈ ops, Q o) → ∀ s, P s → P (lgRun env ops s).1 := by
  induction ops with
  | nil => intro _ s h; exact h
  | cons o r ih =>
    intro hq s h
    simp only [lgRun]
    have := hP o s (hq o List.mem_cons_self) h
    split
    · exact this
    · exact ih (fun o' hm => hq o' (List.mem_cons_of_mem _ hm)) _ this

/-- **C104**: a hint is displayed at most once, whatever the program does. -/
theorem C104_hint_once (env : LgEnv) (ops : List LgOp) (s : LgSt) (hs : s.display = []) (h : LgHint) : (lgRun env ops s).1.display.count (.hint h) ≤ 1 := by
  have h0 : LgHints s := by intro h; simp [hs]
  exact (lgRun_ind LgHints (fun _ => True) env (fun o s _ => lgOp_hints env o s) ops (fun _ _ => trivial) s h0 h).1

/-- At most one displayed hint has the line, and then the line is in the cache -/
def LgLine (q : String) (s : LgSt) : Prop := s.display.countP (showsLine q) ≤ 1 ∧ (s.display.countP (showsLine q) ≠ 0 → LgHint.one q ∈ s.cache)

theorem showsLine_hint (q : String) (x : LgOut) (h : showsLine q x = true) : ∃ y, x = .hint y := by
  cases x with
  | hint y => exact ⟨y, rfl⟩
  | _ => simp [showsLine] at h

/-- A message without the line in its hint -/
theorem lgError_line (q : String) (env : LgEnv) (m : LgMsg) (s : LgSt) (hm : hintWithout q m.more) : (lgError env m s).1.display.countP (showsLine q) = s.display.countP (showsLine q) ∧
    ∀ h ∈ s.cache, h ∈ (lgError env m s).1.cache := by
  obtain ⟨a, b, hd, hx, _, hc⟩ := lgError_display env m s
  refine ⟨?_, hc⟩
  rw [hd, List.append_assoc, List.countP_append]
  have : (a ++ b).countP (showsLine q) = 0 := by
    rw [List.countP_eq_zero]
    intro x hmem hsl
    obtain ⟨y, rfl⟩ := showsLine_hint q x hsl
    obtain ⟨h1, _⟩ := hx _ hmem y rfl
    rw [h1] at hm
    cases y with
    | one z => simp [showsLine] at hsl; exact hm hsl
    | many l => simp [showsLine] at hsl; exact hm hsl
  omega

/-- Any message displays at most one hint with the line -/
theorem lgError_line_le (q : String) (env : LgEnv) (m : LgMsg) (s : LgSt) : (lgError env m s).1.display.countP (showsLine q) ≤ s.display.countP (showsLine q) + 1 ∧
    ∀ h ∈ s.cache, h ∈ (lgError env m s).1.cache := by
  obtain ⟨a, b, hd, hx, hn, hc⟩ := lgError_display env m s
  refine ⟨?_, hc⟩
  rw [hd, List.append_assoc, List.countP_append]
  have : (a ++ b).countP (showsLine q) ≤ (a ++ b).countP (fun x => match x with | .hint _ => true | _ => false) := by
    apply List.countP_mono_left
    intro x _ hsl
    obtain ⟨y, rfl⟩ := showsLine_hint q x hsl
    rfl
  omega

theorem lgLine_step {q : String} {s t : LgSt} (hs : LgLine q s) (hd : t.display.countP (showsLine q) = s.display.countP (showsLine q)) (hc : ∀ h ∈ s.cache, h ∈ t.cache) : LgLine q t := by
  refine ⟨by rw [hd]; exact hs.1, ?_⟩
  rw [hd]
  exact fun h => hc _ (hs.2 h)

/-- The hint describing a flag is added only when it was not displayed before -/
theorem lgAddHint_line (q r : String) (more : Option LgHint) (cache : List LgHint) (hm : hintWithout q more) :
    hintWithout q (lgAddHint r more cache).2.1 ∨ (r = q ∧ LgHint.one q ∉ cache ∧ LgHint.one q ∈ (lgAddHint r more cache).2.2) := by
  unfold lgAddHint
  simp only
  by_cases hc : cache.contains (.one r) = true
  · rw [if_pos hc]; exact Or.inl hm
  · rw [if_neg hc]
    have hc' : LgHint.one r ∉ cache := by simpa using hc
    by_cases hr : r = q
    · subst hr
      right
      refine ⟨rfl, hc', ?_⟩
      split <;> simp
    · left
      have hq : q ≠ r := fun h => hr h.symm
      cases more with
      | none => simp [hintWithout, hq]
      | some h =>
        simp only
        by_cases hx : cache.contains h = true
        · rw [if_pos hx]; simp [hintWithout, hq]
        · rw [if_neg hx]
          cases h with
          | one x => simp only [hintWithout] at hm; simp [hintWithout, hq, Ne.symm hm]
          | many l => simp only [hintWithout] at hm; simp [hintWithout, hq, hm]

theorem lgFatal_line (q t m : String) (s : LgSt) (hs : LgLine q s) : LgLine q (lgFatal t m s).1 := by
  refine lgLine_step hs ?_ (fun _ h => h)
  simp [lgFatal, showsLine]

theorem lgOp_line (q : String) (env : LgEnv) (o : LgOp) (s : LgSt) (ho : hintWithout q (callHint o)) (hs : LgLine q s) : LgLine q (lgOp env o s).1 := by
  cases o with
  | error m =>
    obtain ⟨h1, h2⟩ := lgError_line q env m s ho
    exact lgLine_step hs h1 h2
  | warning m f =>
    cases f with
    | none =>
      obtain ⟨h1, h2⟩ := lgError_line q env { m with cat := "Warning" } s ho
      exact lgLine_step hs h1 h2
    | some f =>
      simp only [lgOp, lgWarning]
      split
      · exact hs
      · have hac := lgAddHint_cache (lgDisable m.cat (lgFlag m.module f)) m.more s.cache
        have hal := lgAddHint_line q (lgDisable m.cat (lgFlag m.module f)) m.more s.cache ho
        generalize lgAddHint (lgDisable m.cat (lgFlag m.module f)) m.more s.cache = a at *
        have h1 : LgLine q (lgError env { m with more := a.2.1 } { s with cache := a.2.2 }).1 := by
          rcases hal with hal | ⟨_, hn, hin⟩
          · obtain ⟨h1, h2⟩ := lgError_line q env { m with more := a.2.1 } { s with cache := a.2.2 } hal
            exact lgLine_step hs h1 (fun h hm => h2 h (hac h hm))
          · obtain ⟨h1, h2⟩ := lgError_line_le q env { m with more := a.2.1 } { s with cache := a.2.2 }
            have hz : s.display.countP (showsLine q) = 0 := by
              cases hz : s.display.countP (showsLine q) with
              | zero => rfl
              | succ n => exact absurd (hs.2 (by omega)) hn
            simp only at h1
            exact ⟨by omega, fun _ => h2 _ hin⟩
        split
        · exact h1
        · exact lgLine_step h1 rfl (fun h hm => List.mem_append.2 (Or.inl hm))
  | repeatWarnings c =>
    refine lgRepeat_ind (LgLine q) env (fun w s hs => ?_) c s hs
    obtain ⟨h1, h2⟩ := lgError_line q env { text := w, cat := "Warning", module := "-" } s trivial
    exact lgLine_step hs h1 h2
  | exitOnError n =>
    simp only [lgOp, lgExit]
    split
    · exact lgFatal_line q _ _ s hs
    · exact hs
  | fatal t m => exact lgFatal_line q t m s hs

/-- **C104**: the user is told how to disable a warning at most once, whatever the program does (unless the program uses the same text as another hint). -/
theorem C104_disable_hint_once (env : LgEnv) (ops : List LgOp) (q : String) (hq : ∀ o ∈ ops, hintWithout q (callHint o)) (s : LgSt) (hs : s.display = []) :
    (lgRun env ops s).1.display.countP (showsLine q) ≤ 1 := by
  have h0 : LgLine q s := by simp [LgLine, hs]
  exact (lgRun_ind (LgLine q) (fun o => hintWithout q (callHint o)) env (fun o s => lgOp_line q env o s) ops hq s h0).1

/-- **C104**: the first time a warning with a flag is displayed, the user is told how to disable it. -/
theorem C104_disable_hint_shown (env : LgEnv) (m : LgMsg) (f : String) (s : LgSt) (hc : m.cat = "Warning") (hq : s.quiet = false) (hf : ¬ FlagOff env s.hints.isSome m.module f)
    (hm : m.more = none) (hn : LgHint.one ("Set " ++ lgFlag m.module f ++ " to False to hide this warning") ∉ s.cache ∧
      LgHint.many ["Set " ++ lgFlag m.module f ++ " to False to hide this warning"] ∉ s.cache) :
    LgOut.hint (.many ["Set " ++ lgFlag m.module f ++ " to False to hide this warning"]) ∈ (lgOp env (.warning m (some f)) s).1.display := by
  have hd : lgDisable m.cat (lgFlag m.module f) = "Set " ++ lgFlag m.module f ++ " to False to hide this warning" := by
    unfold lgDisable
    rw [if_pos hc, String.append_assoc]
    rfl
  simp only [lgOp, lgWarning]
  unfold FlagOff at hf
  rw [if_neg hf, hd]
  generalize hqq : "Set " ++ lgFlag m.module f ++ " to False to hide this warning" = q at *
  have hqne : q ≠ "" := by
    rw [← hqq]
    intro h
    have := congrArg String.toList h
    simp [String.toList_append] at this
  have ha : lgAddHint q m.more s.cache = (none, some (.many [q]), s.cache ++ [.one q]) := by
    unfold lgAddHint
    rw [hm]
    simp [hn.1]
  rw [ha]
  simp only
  have hmem : LgOut.hint (.many [q]) ∈ (lgError env { m with more := some (.many [q]) } { s with cache := s.cache ++ [.one q] }).1.display := by
    unfold lgError
    simp only
    obtain ⟨m', hm'⟩ : ∃ m', m' = (if m.module = "-" then { m with more := some (.many [q]), module := "" } else { m with more := some (.many [q]) }) := ⟨_, rfl⟩
    rw [show (if m.module = "-" then ({ m with more := some (.many [q]), module := "" } : LgMsg) else { m with more := some (.many [q]) }) = m' from hm'.symm]
    have c1 : m'.cat = "Warning" := by rw [hm']; split <;> exact hc
    have c2 : m'.more = some (.many [q]) := by rw [hm']; split <;> rfl
    have : lgMsg m' { s with cache := s.cache ++ [.one q] } = some { s with cache := s.cache ++ [.one q], warnings := s.warnings ++ lgLines (m'.module ++ ": " ++ m'.text), display := s.display ++ [.msg m'.cat m'.module m'.text] } := by
      unfold lgMsg
      rw [if_pos c1, if_neg (by simp [hq])]
    rw [this]
    simp only
    obtain ⟨d2, e2, _⟩ := lgData_display env m' { s with cache := s.cache ++ [.one q], warnings := s.warnings ++ lgLines (m'.module ++ ": " ++ m'.text), display := s.display ++ [.msg m'.cat m'.module m'.text] }
    generalize lgData env m' { s with cache := s.cache ++ [.one q], warnings := s.warnings ++ lgLines (m'.module ++ ": " ++ m'.text), display := s.display ++ [.msg m'.cat m'.module m'.text] } = s2 at *
    simp only at e2
    have h3 : LgOut.hint (.many [q]) ∈ (lgMore env m' s2).display := by
      unfold lgMore
      rw [c2]
      simp only
      rw [if_neg (by rw [e2]; simp [hn.2])]
      unfold lgPrint
      simp [lgHintLines, hqne]
    obtain ⟨d4, _⟩ := lgStatic_display env m' (lgMore env m' s2)
    rcases d4 with d4 | ⟨a, b, d4⟩
    · rw [d4]; exact h3
    · rw [d4]; exact List.mem_append.2 (Or.inl h3)
  split
  · exact hmem
  · exact hmem

/-- A static hint that was displayed is not available any more, and it was displayed once -/
def LgStaticOnce (k : String × String) (s : LgSt) : Prop :=
  s.display.count (.static k.1 k.2) ≤ 1 ∧ (LgOut.static k.1 k.2 ∈ s.display → ∀ hs, s.hints = some hs → ∀ t, hs.lookup k = some t → t = "")

theorem lookup_lgUsed (k j : String × String) (hs : List ((String × String) × String)) : (lgUsed k hs).lookup j = if j = k then (hs.lookup j).map (fun _ => "") else hs.lookup j := by
  unfold lgUsed
  induction hs with
  | nil => simp
  | cons p r ih =>
    obtain ⟨a, b⟩ := p
    simp only [List.map_cons]
    by_cases hj : j = a
    · subst hj
      by_cases hk : j = k
      · simp [hk, List.lookup]
      · simp [hk, List.lookup]
    · have hn : (j == a) = false := by simpa using hj
      have : ((if a = k then (a, "") else (a, b)) : (String × String) × String).1 = a := by split <;> rfl
      rw [show (if a = k then (a, "") else (a, b)) = ((a, (if a = k then (a, "") else (a, b)).2) : (String × String) × String) from by split <;> rfl]
      simp only [List.lookup, hn]
      exact ih

theorem lgStaticOnce_of {k : String × String} {s t : LgSt} (hs : LgStaticOnce k s) (hd : t.display.count (.static k.1 k.2) = s.display.count (.static k.1 k.2)) (hh : t.hints = s.hints) :
    LgStaticOnce k t := by
  refine ⟨by rw [hd]; exact hs.1, ?_⟩
  intro hm
  rw [hh]
  apply hs.2
  have : 0 < t.display.count (.static k.1 k.2) := List.count_pos_iff.2 hm
  rw [hd] at this
  exact List.count_pos_iff.1 this

theorem lgMore_static (k : String × String) (env : LgEnv) (m : LgMsg) (s : LgSt) :
    (lgMore env m s).display.count (.static k.1 k.2) = s.display.count (.static k.1 k.2) ∧ (lgMore env m s).hints = s.hints := by
  unfold lgMore
  split
  · rename_i h _
    simp only
    split
    · exact ⟨rfl, rfl⟩
    · unfold lgPrint
      simp only
      split
      · exact ⟨rfl, rfl⟩
      · simp [List.count_append, List.count_cons]
  · exact ⟨rfl, rfl⟩

theorem lgError_static (k : String × String) (env : LgEnv) (m : LgMsg) (s : LgSt) (hs : LgStaticOnce k s) : LgStaticOnce k (lgError env m s).1 := by
  unfold lgError
  simp only
  generalize (if m.module = "-" then { m with module := "" } else m) = m
  cases hmsg : lgMsg m s with
  | none => exact hs
  | some s1 =>
    simp only
    obtain ⟨d1, _, c1⟩ := lgMsg_display m s s1 hmsg
    obtain ⟨d2, _, c2⟩ := lgData_display env m s1
    obtain ⟨d3, c3⟩ := lgMore_static k env m (lgData env m s1)
    have h3 : LgStaticOnce k (lgMore env m (lgData env m s1)) := by
      refine lgStaticOnce_of hs ?_ (by rw [c3, c2, c1])
      rw [d3]
      rcases d2 with d2 | ⟨d, d2⟩ <;> rw [d2, d1] <;> simp [List.count_append, List.count_cons]
    generalize lgMore env m (lgData env m s1) = s3 at h3
    unfold lgStatic
    split
    · rename_i h hs' hh hhs
      split
      · rename_i t ht
        split
        · exact h3
        · rename_i hne
          by_cases hk : (m.module, h) = k
          · subst hk
            have hz : s3.display.count (.static m.module h) = 0 := by
              rw [List.count_eq_zero]
              intro hmem
              exact hne (h3.2 hmem hs' hhs t ht)
            refine ⟨?_, ?_⟩
            · simp [List.count_append, hz]
            · intro _ hs2 he t2 ht2
              simp only [Option.some.injEq] at he
              rw [← he, lookup_lgUsed, if_pos rfl] at ht2
              rw [Option.map_eq_some_iff] at ht2
              obtain ⟨_, _, h2⟩ := ht2
              exact h2.symm
          · have hne2 : LgOut.static m.module h ≠ .static k.1 k.2 := by
              intro he
              simp only [LgOut.static.injEq] at he
              exact hk (by rw [he.1, he.2])
            have hcnt : (s3.display ++ [LgOut.static m.module h]).count (.static k.1 k.2) = s3.display.count (.static k.1 k.2) := by
              rw [List.count_append, List.count_cons_of_ne hne2]
              simp
            refine ⟨by simp only; rw [hcnt]; exact h3.1, ?_⟩
            intro hmem hs2 he t2 ht2
            simp only [Option.some.injEq] at he
            rw [← he, lookup_lgUsed, if_neg (Ne.symm hk)] at ht2
            refine h3.2 ?_ hs' hhs t2 ht2
            have : 0 < (s3.display ++ [LgOut.static m.module h]).count (.static k.1 k.2) := List.count_pos_iff.2 hmem
            rw [hcnt] at this
            exact List.count_pos_iff.1 this
      · exact h3
    · exact h3

theorem lgOp_static (k : String × String) (env : LgEnv) (o : LgOp) (s : LgSt) (hs : LgStaticOnce k s) : LgStaticOnce k (lgOp env o s).1 := by
  have hfat : ∀ t m, LgStaticOnce k (lgFatal t m s).1 := by
    intro t m
    exact lgStaticOnce_of hs (by simp [lgFatal, List.count_append, List.count_cons]) rfl
  cases o with
  | error m => exact lgError_static k env m s hs
  | warning m f =>
    cases f with
    | none => exact lgError_static k env _ s hs
    | some f =>
      simp only [lgOp, lgWarning]
      split
      · exact hs
      · generalize lgAddHint (lgDisable m.cat (lgFlag m.module f)) m.more s.cache = a
        have h1 : LgStaticOnce k { s with cache := a.2.2 } := hs
        have h2 := lgError_static k env { m with more := a.2.1 } _ h1
        split
        · exact h2
        · exact lgStaticOnce_of h2 rfl rfl
  | repeatWarnings c => exact lgRepeat_ind (LgStaticOnce k) env (fun w s => lgError_static k env _ s) c s hs
  | exitOnError n =>
    simp only [lgOp, lgExit]
    split
    · exact hfat _ _
    · exact hs
  | fatal t m => exact hfat t m

/-- **C104**: a static hint of a module is displayed at most once. -/
theorem C104_static_hint_once (env : LgEnv) (ops : List LgOp) (s : LgSt) (hs : s.display = []) (module hint : String) :
    (lgRun env ops s).1.display.count (.static module hint) ≤ 1 := by
  have h0 : LgStaticOnce (module, hint) s := by simp [LgStaticOnce, hs]
  exact (lgRun_ind (LgStaticOnce (module, hint)) (fun _ => True) env (fun o s _ => lgOp_static (module, hint) env o s) ops (fun _ _ => trivial) s h0).1

/-- **C104** (defect): repeated warnings are logged again, so the second `repeat_warnings` call displays them twice, together with the header of the first one. -/
theorem C104_repeat_twice :
    (lgRepeat { wrap := fun s => [s], format := id } "up" (lgRepeat { wrap := fun s => [s], format := id } "up" { warnings := ["bgp: w"] })).warnings.length = 7 := by decide +kernel

/-- **C104** (defect): `exit_on_error` counts lines, not errors: a single error with a hint exceeds the limit of one error. -/
theorem C104_lines_counted :
    (lgExit 1 (lgError { wrap := fun s => [s], format := id } { text := "e", cat := "IncorrectValue", more := some (.one "hint") } {}).1).2 = true := by decide +kernel

/-- **C104** (defect): a quiet warning marks the hint describing the flag as displayed. -/
theorem C104_quiet_hint :
    (lgWarning { wrap := fun s => [s], format := id } { text := "w", cat := "Warning", module := "bgp" } (some "x") { quiet := true }).1 =
      { quiet := true, cache := [.one "Set defaults.bgp.warnings.x to False to hide this warning"] } := by decide +kernel

/-- **C104** (defect): initializing the logging system for another topology does not remove warnings, so warnings of the previous topology are repeated. -/
theorem C104_init_keeps_warnings (env : LgEnv) (cmd : String) (s : LgSt) (hq : s.quiet = false) (w : String) (hw : w ∈ s.warnings) :
    LgOut.msg "Warning" "" w ∈ (lgRepeat env cmd (lgInit s)).display := by
  have h := C104_repeat env cmd (lgInit s) hq
  have hne : (lgInit s).warnings ≠ [] := by
    intro h0
    rw [show (lgInit s).warnings = s.warnings from rfl] at h0
    rw [h0] at hw
    simp at hw
  rw [if_neg hne] at h
  have hm : LgOut.msg "Warning" "" w ∈ (lgRepeat env cmd (lgInit s)).display.filter isMessage := by
    rw [h]
    apply List.mem_append_right
    apply List.mem_cons_of_mem
    exact List.mem_map.2 ⟨w, hw, rfl⟩
  exact (List.mem_filter.1 hm).1

end Netlab
