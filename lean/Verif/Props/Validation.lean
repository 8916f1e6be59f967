import Verif.Spec.Validation

namespace Netlab

open Netlab.Spec

/-! ### One attempt -/

theorem suzRecords_some (warn all report : Bool) (evs : List EvalRes) (x : Bool) (c : ValCounts) :
    (suzRecords warn all report evs (some x, c)).1 =
      some (if all then x && decide (.bad ∉ evs) else x || decide (.good ∈ evs)) := by
  induction evs generalizing x c with
  | nil => cases all <;> simp [suzRecords]
  | cons r rest ih =>
    simp only [suzRecords]
    cases r <;> cases all <;> cases x <;> simp [execExpr, suzCombine, ih]

theorem suz_verdict (warn all report : Bool) (r : SuzRes) (c : ValCounts) :
    (execSuzieq warn all report r c).1 = suzVerdict all r := by
  have hfin : ∀ s : Option Bool × ValCounts, (suzFinish warn report s).1 = s.1 := by
    rintro ⟨x, c⟩
    cases x with
    | none => rfl
    | some b => cases b <;> rfl
  unfold execSuzieq
  rw [hfin]
  cases r with
  | error ev => cases ev <;> rfl
  | dict b ev => cases ev <;> rfl
  | list evs =>
    cases evs with
    | nil => rfl
    | cons r rest =>
      simp only [suzRecords, suzVerdict, suzCombine, suzRecords_some]
      cases r <;> cases all <;> simp [execExpr]

theorem expr_verdict (warn report rok : Bool) (r : EvalRes) (c : ValCounts) :
    (execExpr warn report rok r c).1 = exprVerdict r := by cases r <;> rfl

theorem plug_verdict (warn report : Bool) (r : PlugRes) (c : ValCounts) :
    (execPlugin warn report r c).1 = plugVerdict r := by cases r <;> rfl

theorem nodeCheck_none (e : ValEntry) (a : ValAction) (ha : a ≠ .suzieq) (report : Bool) (r : ValResp) (c : ValCounts) :
    (nodeCheck e a report r none c).1 = checkVerdict e r := by
  unfold nodeCheck checkVerdict
  have h : ((none : Option Bool) != some false) = true := by decide
  rw [h, Bool.true_and]
  by_cases hv : e.valid = true
  · rw [if_pos hv, if_pos hv, if_neg ha]
    exact expr_verdict ..
  · rw [if_neg hv, if_neg hv]
    by_cases hp : e.plugin = true
    · rw [if_pos hp, if_pos hp]
      exact plug_verdict ..
    · rw [if_neg hp, if_neg hp]

theorem nodeFinish_cases (report : Bool) (s : Option Bool × ValCounts) :
    ((s.1 = some false ∧ report = false) → (nodeFinish report s).1 = (false, none)) ∧
    (¬ (s.1 = some false ∧ report = false) → (nodeFinish report s).1 = (true, s.1)) := by
  unfold nodeFinish
  constructor
  · intro h
    rw [if_pos h]
  · intro h
    rw [if_neg h]

theorem action_suzieq {t : ValTopo} {e : ValEntry} {n : String} (h : findTestAction t e n = some .suzieq) :
    e.suzieq = true := by
  unfold findTestAction at h
  split at h
  · simp at h
  · split at h
    · simp at h
    · split at h
      · simp at h
      · split at h
        · assumption
        · split at h
          · cases hp : t.plugShow n with
            | none => simp [hp] at h
            | some b => cases b <;> simp [hp] at h
          · split at h <;> simp at h

/-- The result of an attempt, without counts. -/
theorem execNode_right (t : ValTopo) (e : ValEntry) (stop : Nat) (cn : ValCounts) (c : ValCall) (h1 : OneAction e)
    (hb : FailedExecIsBad e c)
    (hc : (c.proc, c.ok) = (execNode e (findTestAction t e c.node) (decide (stop ≤ c.time)) c.resp cn).1) :
    AttemptRight t e stop c := by
  unfold AttemptRight TryAgain Hopeless
  obtain ⟨n, time, r, proc, ok⟩ := c
  simp only at *
  cases ha : findTestAction t e n with
  | none =>
    rw [ha] at hc
    simp only [execNode, Prod.mk.injEq] at hc
    simp [verdict, hc]
  | some a =>
    rw [ha] at hc
    cases a with
    | wait =>
      simp only [execNode, Prod.mk.injEq] at hc
      simp [verdict, hc]
    | query =>
      simp only [execNode, verdict] at hc ⊢
      by_cases hs : r.showErr = true
      · rw [if_pos hs] at hc
        simp only [Prod.mk.injEq] at hc
        simp [hs, hc]
      · rw [if_neg hs] at hc
        rw [if_neg hs]
        have hn := nodeCheck_none e .query (by simp) (decide (stop ≤ time)) r cn
        obtain ⟨hf1, hf2⟩ := nodeFinish_cases (decide (stop ≤ time)) (nodeCheck e .query (decide (stop ≤ time)) r none cn)
        rw [hn] at hf1 hf2
        by_cases hx : checkVerdict e r = some false ∧ time < stop
        · rw [hf1 ⟨hx.1, by simpa using hx.2⟩, Prod.mk.injEq] at hc
          simp [hx, hs, hc]
        · rw [hf2 (by simpa using hx), Prod.mk.injEq] at hc
          refine ⟨fun h => absurd ⟨h.1, h.2.1⟩ hx, fun _ => hc⟩
    | config =>
      simp only [execNode, verdict] at hc ⊢
      have hn := nodeCheck_none e .config (by simp) (decide (stop ≤ time)) r cn
      obtain ⟨hf1, hf2⟩ := nodeFinish_cases (decide (stop ≤ time)) (nodeCheck e .config (decide (stop ≤ time)) r none cn)
      rw [hn] at hf1 hf2
      by_cases hx : checkVerdict e r = some false ∧ time < stop
      · rw [hf1 ⟨hx.1, by simpa using hx.2⟩, Prod.mk.injEq] at hc
        simp [hx, hc]
      · rw [hf2 (by simpa using hx), Prod.mk.injEq] at hc
        refine ⟨fun h => absurd ⟨h.1, h.2.1⟩ hx, fun _ => hc⟩
    | exec =>
      simp only [execNode, verdict] at hc ⊢
      have hn := nodeCheck_none e .exec (by simp) (decide (stop ≤ time)) r cn
      obtain ⟨hf1, hf2⟩ := nodeFinish_cases (decide (stop ≤ time)) (nodeCheck e .exec (decide (stop ≤ time)) r none cn)
      rw [hn] at hf1 hf2
      by_cases hs : r.execFail = true
      · have hb' := hb hs
        simp only [hs, if_true]
        by_cases hl : stop ≤ time
        · simp only [hs, hl, decide_true, Bool.and_self, if_true, Prod.mk.injEq] at hc
          have : ¬ time < stop := by omega
          simp [hc, this]
        · simp only [hs, hl, decide_false, Bool.and_false, Bool.false_eq_true, if_false] at hc
          simp only [hl, decide_false] at hf1
          rw [hf1 ⟨hb', by simp⟩, Prod.mk.injEq] at hc
          have : time < stop := by omega
          simp [hc, this]
      · have hs' : r.execFail = false := by simpa using hs
        simp only [hs', Bool.false_and, Bool.false_eq_true, if_false] at hc ⊢
        by_cases hx : checkVerdict e r = some false ∧ time < stop
        · rw [hf1 ⟨hx.1, by simpa using hx.2⟩, Prod.mk.injEq] at hc
          simp [hx, hc]
        · rw [hf2 (by simpa using hx), Prod.mk.injEq] at hc
          refine ⟨fun h => absurd ⟨h.1, h.2.1⟩ hx, fun _ => hc⟩
    | suzieq =>
      have hpl : e.plugin = false := by
        cases hp : e.plugin with
        | false => rfl
        | true => exact absurd ⟨action_suzieq ha, hp⟩ h1
      simp only [execNode, verdict] at hc ⊢
      by_cases hd : r.suz.nonempty = e.suzieqEmpty
      · rw [if_pos hd]
        by_cases hl : stop ≤ time
        · simp only [hd, beq_self_eq_true, hl, decide_true, Bool.and_self, if_true, Prod.mk.injEq] at hc
          have : ¬ time < stop := by omega
          simp [hc, this]
        · simp only [hd, hl, decide_false, Bool.and_false, Bool.false_eq_true, if_false, bne_self_eq_false,
            nodeCheck, Bool.false_and, hpl, nodeFinish] at hc
          have : time < stop := by omega
          simp at hc
          simp [hc, this]
      · rw [if_neg hd]
        have hbeq : (r.suz.nonempty == e.suzieqEmpty) = false := by simpa using hd
        have hbne : (r.suz.nonempty != e.suzieqEmpty) = true := by simpa using hd
        rw [hbeq, hbne] at hc
        simp only [Bool.false_and, Bool.false_eq_true, if_false] at hc
        have hn : (nodeCheck e .suzieq (decide (stop ≤ time)) r (some true) cn).1 =
            if e.valid = true then suzVerdict e.suzieqAll r.suz else some true := by
          unfold nodeCheck
          have h : ((some true : Option Bool) != some false) = true := by decide
          rw [h, Bool.true_and]
          by_cases hv : e.valid = true
          · rw [if_pos hv, if_pos rfl, if_pos hv]
            exact suz_verdict ..
          · rw [if_neg hv, if_neg hv, hpl]
            rfl
        obtain ⟨hf1, hf2⟩ := nodeFinish_cases (decide (stop ≤ time))
          (nodeCheck e .suzieq (decide (stop ≤ time)) r (some true) cn)
        rw [hn] at hf1 hf2
        by_cases hx : (if e.valid = true then suzVerdict e.suzieqAll r.suz else some true) = some false ∧ time < stop
        · rw [hf1 ⟨hx.1, by simpa using hx.2⟩, Prod.mk.injEq] at hc
          refine ⟨fun _ => hc, fun h => absurd ⟨hx.1, hx.2, by simp⟩ h⟩
        · rw [hf2 (by simpa using hx), Prod.mk.injEq] at hc
          refine ⟨fun h => absurd ⟨h.1, h.2.1⟩ hx, fun _ => hc⟩

/-! ### The retry loop -/

/-- The call has the result of an attempt. -/
def CallOf (t : ValTopo) (e : ValEntry) (stop : Nat) (c : ValCall) : Prop :=
  ∃ cn, (c.proc, c.ok) = (execNode e (findTestAction t e c.node) (decide (stop ≤ c.time)) c.resp cn).1

theorem round_spec (t : ValTopo) (env : ValEnv) (stop : Nat) (e : ValEntry) (ns rem : List String) (st : ValState) :
    ∃ calls, (valRound t env stop e ns rem st).2.log = st.log ++ calls ∧ calls.map ValCall.node = ns ∧
      (∀ c ∈ calls, CallOf t e stop c) ∧
      (valRound t env stop e ns rem st).1 = rem.filter (fun x => !calls.any (fun c => c.node == x && c.proc)) ∧
      (valRound t env stop e ns rem st).2.ret = calls.foldl (fun r c => valCombine r c.ok) st.ret ∧
      (valRound t env stop e ns rem st).2.k = st.k + ns.length := by
  induction ns generalizing rem st with
  | nil => exact ⟨[], by simp [valRound], rfl, by simp, (List.filter_eq_self.mpr (by simp)).symm, rfl, rfl⟩
  | cons n rest ih =>
    simp only [valRound]
    obtain ⟨calls, h1, h2, h3, h4, h5, h6⟩ := ih
      (if (valAttempt t env stop e n st).1.1 = true then rem.filter (fun x => x != n) else rem) (valStep t env stop e n st)
    refine ⟨⟨n, (env st.k).1, (env st.k).2, (valAttempt t env stop e n st).1.1, (valAttempt t env stop e n st).1.2⟩ :: calls,
      ?_, ?_, ?_, ?_, ?_, ?_⟩
    · rw [h1]
      simp [valStep]
    · simp [h2]
    · intro c hc
      rcases List.mem_cons.mp hc with h | h
      · subst h
        exact ⟨st.counts, rfl⟩
      · exact h3 c h
    · rw [h4]
      by_cases hp : (valAttempt t env stop e n st).1.1 = true
      · rw [if_pos hp, List.filter_filter]
        apply List.filter_congr
        intro x _
        simp only [List.any_cons, hp, Bool.and_true, Bool.not_or]
        rw [Bool.and_comm]
        congr 1
        simp only [bne, Bool.beq_comm]
      · have hp' : (valAttempt t env stop e n st).1.1 = false := by simpa using hp
        rw [if_neg hp]
        apply List.filter_congr
        intro x _
        simp [hp']
    · rw [h5]
      rfl
    · rw [h6]
      simp only [valStep, List.length_cons]
      omega

theorem filter_single {calls : List ValCall} {ns : List String} (h : calls.map ValCall.node = ns) (hn : ns.Nodup) {n : String}
    (hm : n ∈ ns) : ∃ c ∈ calls, c.node = n ∧ calls.filter (fun c => c.node == n) = [c] := by
  induction calls generalizing ns with
  | nil =>
    subst h
    exact absurd hm (by simp)
  | cons c rest ih =>
    subst h
    simp only [List.map_cons, List.nodup_cons] at hn
    rcases List.mem_cons.mp hm with h | h
    · refine ⟨c, List.mem_cons_self .., h.symm, ?_⟩
      rw [List.filter_cons, if_pos (by simp [h])]
      congr 1
      rw [List.filter_eq_nil_iff]
      intro x hx
      simp only [beq_iff_eq]
      intro hxn
      exact hn.1 (List.mem_map.mpr ⟨x, hx, by rw [hxn, h]⟩)
    · obtain ⟨d, hd, hdn, hf⟩ := ih rfl hn.2 h
      refine ⟨d, List.mem_cons_of_mem _ hd, hdn, ?_⟩
      rw [List.filter_cons, if_neg, hf]
      simp only [beq_iff_eq]
      rintro rfl
      exact hn.1 h

theorem loop_spec (t : ValTopo) (env : ValEnv) (stop : Nat) (e : ValEntry) (f : Nat) (rem : List String) (st st' : ValState)
    (hn : rem.Nodup) (h : valLoop t env stop e f rem st = some st') :
    ∃ calls, st'.log = st.log ++ calls ∧ (∀ c ∈ calls, CallOf t e stop c ∧ c.node ∈ rem) ∧
      st'.ret = calls.foldl (fun r c => valCombine r c.ok) st.ret ∧
      ∀ n ∈ rem, ∃ pre last, attemptsOn n calls = pre ++ [last] ∧ (∀ c ∈ pre, c.proc = false) ∧ last.proc = true := by
  induction f generalizing rem st with
  | zero =>
    cases rem with
    | nil =>
      simp only [valLoop, Option.some.injEq] at h
      subst h
      exact ⟨[], by simp, by simp, rfl, by simp⟩
    | cons n rest => simp [valLoop] at h
  | succ f ih =>
    cases rem with
    | nil =>
      simp only [valLoop, Option.some.injEq] at h
      subst h
      exact ⟨[], by simp, by simp, rfl, by simp⟩
    | cons m rest =>
      simp only [valLoop] at h
      obtain ⟨calls, h1, h2, h3, h4, h5, h6⟩ := round_spec t env stop e (m :: rest) (m :: rest) st
      generalize hr : valRound t env stop e (m :: rest) (m :: rest) st = rd at h h1 h4 h5 h6
      obtain ⟨later, l1, l2, l3, l4⟩ := ih rd.1 rd.2 (by rw [h4]; exact hn.filter _) h
      refine ⟨calls ++ later, by rw [l1, h1, List.append_assoc], ?_, ?_, ?_⟩
      · intro c hc
        rcases List.mem_append.mp hc with hc | hc
        · refine ⟨h3 c hc, ?_⟩
          rw [← h2]
          exact List.mem_map_of_mem hc
        · refine ⟨(l2 c hc).1, ?_⟩
          have := (l2 c hc).2
          rw [h4] at this
          exact (List.mem_filter.mp this).1
      · rw [l3, h5, List.foldl_append]
      · intro n hnm
        obtain ⟨c, hc, hcn, hcf⟩ := filter_single h2 hn hnm
        have hcf' : attemptsOn n calls = [c] := hcf
        have happ : attemptsOn n (calls ++ later) = attemptsOn n calls ++ attemptsOn n later := List.filter_append ..
        rw [happ, hcf']
        cases hp : c.proc with
        | true =>
          have hno : attemptsOn n later = [] := by
            unfold attemptsOn
            rw [List.filter_eq_nil_iff]
            intro x hx
            simp only [beq_iff_eq]
            intro hxn
            have := (l2 x hx).2
            rw [h4, List.mem_filter, hxn] at this
            have hany : calls.any (fun c => c.node == n && c.proc) = true :=
              List.any_eq_true.mpr ⟨c, hc, by simp [hcn, hp]⟩
            rw [hany] at this
            exact absurd this.2 (by simp)
          exact ⟨[], c, by rw [hno]; rfl, by simp, hp⟩
        | false =>
          have hin : n ∈ rd.1 := by
            rw [h4, List.mem_filter]
            refine ⟨hnm, ?_⟩
            cases hany : calls.any (fun c => c.node == n && c.proc) with
            | false => rfl
            | true =>
              obtain ⟨d, hd, hdp⟩ := List.any_eq_true.mp hany
              simp only [Bool.and_eq_true, beq_iff_eq] at hdp
              have : d ∈ calls.filter (fun c => c.node == n) := List.mem_filter.mpr ⟨hd, by simp [hdp.1]⟩
              rw [hcf] at this
              simp only [List.mem_cons, List.not_mem_nil, or_false] at this
              subst this
              rw [hp] at hdp
              exact absurd hdp.2 (by simp)
          obtain ⟨pre, last, q1, q2, q3⟩ := l4 n hin
          refine ⟨c :: pre, last, by rw [q1]; rfl, ?_, q3⟩
          intro x hx
          rcases List.mem_cons.mp hx with hx | hx
          · subst hx
            exact hp
          · exact q2 x hx

/-- **C38.**  Every node of the test is tried until it passes, fails for good or the wait time expires, and never
again after that; every attempt but the last one failed before the deadline. -/
theorem C38_attempts (t : ValTopo) (env : ValEnv) (stop : Nat) (e : ValEntry) (f : Nat) (k : Nat) (c0 : ValCounts)
    (st : ValState) (hn : e.nodes.Nodup) (h1 : OneAction e)
    (h : valLoop t env stop e f e.nodes ⟨k, none, c0, []⟩ = some st) (hb : ∀ c ∈ st.log, FailedExecIsBad e c) :
    (∀ c ∈ st.log, c.node ∈ e.nodes ∧ AttemptRight t e stop c) ∧
    ∀ n ∈ e.nodes, ∃ pre last, attemptsOn n st.log = pre ++ [last] ∧ (∀ c ∈ pre, TryAgain t e stop c) ∧
      ¬ TryAgain t e stop last ∧ last.ok = verdict e (findTestAction t e n) last.resp := by
  obtain ⟨calls, hl, hc, -, hat⟩ := loop_spec t env stop e f e.nodes _ st hn h
  rw [List.nil_append] at hl
  rw [hl] at hb
  have hr : ∀ c ∈ calls, AttemptRight t e stop c := by
    intro c hcm
    obtain ⟨cn, hcn⟩ := (hc c hcm).1
    exact execNode_right t e stop cn c h1 (hb c hcm) hcn
  rw [hl]
  refine ⟨fun c hcm => ⟨(hc c hcm).2, hr c hcm⟩, ?_⟩
  intro n hnm
  obtain ⟨pre, last, hpl, hp, hla⟩ := hat n hnm
  have hsub : ∀ c, c ∈ pre ++ [last] → c ∈ calls ∧ c.node = n := by
    intro c hc
    rw [← hpl] at hc
    unfold attemptsOn at hc
    have := List.mem_filter.mp hc
    exact ⟨this.1, by simpa using this.2⟩
  refine ⟨pre, last, hpl, ?_, ?_⟩
  · intro c hcp
    have hrc := hr c (hsub c (List.mem_append_left _ hcp)).1
    apply Classical.byContradiction
    intro hno
    have := (hrc.2 hno).1
    rw [hp c hcp] at this
    exact absurd this (by simp)
  · obtain ⟨hm, hmn⟩ := hsub last (by simp)
    have hno : ¬ TryAgain t e stop last := by
      intro ht
      have := ((hr last hm).1 ht).1
      rw [hla] at this
      exact absurd this (by simp)
    refine ⟨hno, ?_⟩
    have := ((hr last hm).2 hno).2
    rw [hmn] at this
    exact this

theorem fold_combine (calls : List ValCall) (r : Option Bool) :
    (calls.foldl (fun r c => valCombine r c.ok) r = some false ↔ r = some false ∨ ∃ c ∈ calls, c.ok = some false) ∧
    (calls.foldl (fun r c => valCombine r c.ok) r = some true ↔
      r ≠ some false ∧ (∀ c ∈ calls, c.ok ≠ some false) ∧ (r = some true ∨ ∃ c ∈ calls, c.ok = some true)) := by
  induction calls generalizing r with
  | nil =>
    cases r with
    | none => simp
    | some b => cases b <;> simp
  | cons c rest ih =>
    obtain ⟨i1, i2⟩ := ih (valCombine r c.ok)
    simp only [List.foldl_cons, i1, i2, List.mem_cons, exists_eq_or_imp, forall_eq_or_imp]
    cases r with
    | none =>
      cases hk : c.ok with
      | none => simp [valCombine]
      | some b => cases b <;> simp [valCombine]
    | some x =>
      cases hk : c.ok with
      | none => simp [valCombine]
      | some b => cases b <;> cases x <;> simp [valCombine]

/-- **C38.**  A test fails if and only if at least one node failed; it passes if and only if no node failed and at
least one node passed. -/
theorem C38_test_result (t : ValTopo) (env : ValEnv) (stop : Nat) (e : ValEntry) (f : Nat) (k : Nat) (c0 : ValCounts)
    (st : ValState) (hn : e.nodes.Nodup) (h : valLoop t env stop e f e.nodes ⟨k, none, c0, []⟩ = some st) :
    (st.ret = some false ↔ ∃ c ∈ st.log, c.ok = some false) ∧
    (st.ret = some true ↔ (∀ c ∈ st.log, c.ok ≠ some false) ∧ ∃ c ∈ st.log, c.ok = some true) := by
  obtain ⟨calls, hl, -, hr, -⟩ := loop_spec t env stop e f e.nodes _ st hn h
  rw [List.nil_append] at hl
  rw [hl, hr]
  obtain ⟨h1, h2⟩ := fold_combine calls none
  refine ⟨by simpa using h1, by simpa using h2⟩

/-! ### Termination -/

theorem late_proc (e : ValEntry) (a : Option ValAction) (r : ValResp) (c : ValCounts) : (execNode e a true r c).1.1 = true := by
  have hf : ∀ s : Option Bool × ValCounts, (nodeFinish true s).1.1 = true := by
    intro s
    unfold nodeFinish
    rw [if_neg (by simp)]
  unfold execNode
  split
  · rfl
  · rfl
  · split
    · rfl
    · exact hf _
  · split
    · rfl
    · exact hf _
  · split
    · rfl
    · exact hf _
  · exact hf _

theorem round_late (t : ValTopo) (env : ValEnv) (stop : Nat) (e : ValEntry) (ns rem : List String) (st : ValState)
    (hl : ∀ j, st.k ≤ j → stop ≤ (env j).1) (hsub : ∀ x ∈ rem, x ∈ ns) : (valRound t env stop e ns rem st).1 = [] := by
  induction ns generalizing rem st with
  | nil =>
    simp only [valRound]
    cases rem with
    | nil => rfl
    | cons x _ => exact absurd (hsub x (List.mem_cons_self ..)) (by simp)
  | cons n rest ih =>
    simp only [valRound]
    have hp : (valAttempt t env stop e n st).1.1 = true := by
      unfold valAttempt
      rw [decide_eq_true (hl st.k (Nat.le_refl _))]
      exact late_proc ..
    rw [if_pos hp]
    apply ih
    · intro j hj
      simp only [valStep] at hj
      exact hl j (by omega)
    · intro x hx
      rw [List.mem_filter] at hx
      rcases List.mem_cons.mp (hsub x hx.1) with h | h
      · simp [h] at hx
      · exact h

theorem loop_terminates (t : ValTopo) (env : ValEnv) (stop : Nat) (e : ValEntry) (K : Nat)
    (hK : ∀ j, K ≤ j → stop ≤ (env j).1) (d : Nat) (rem : List String) (st : ValState) (hd : K ≤ st.k + d) :
    ∃ st', valLoop t env stop e (d + 1) rem st = some st' := by
  induction d generalizing rem st with
  | zero =>
    cases rem with
    | nil => exact ⟨st, rfl⟩
    | cons m rest =>
      simp only [valLoop]
      rw [round_late t env stop e (m :: rest) (m :: rest) st (fun j hj => hK j (by omega)) (fun _ h => h)]
      exact ⟨_, rfl⟩
  | succ d ih =>
    cases rem with
    | nil => exact ⟨st, rfl⟩
    | cons m rest =>
      rw [valLoop]
      apply ih
      obtain ⟨_, _, _, _, _, _, hk⟩ := round_spec t env stop e (m :: rest) (m :: rest) st
      rw [hk]
      simp only [List.length_cons]
      omega

theorem loop_mono (t : ValTopo) (env : ValEnv) (stop : Nat) (e : ValEntry) (f g : Nat) (hfg : f ≤ g) (rem : List String)
    (st st' : ValState) (h : valLoop t env stop e f rem st = some st') : valLoop t env stop e g rem st = some st' := by
  induction f generalizing g rem st with
  | zero =>
    cases rem with
    | nil => cases g <;> exact h
    | cons m rest => simp [valLoop] at h
  | succ f ih =>
    obtain ⟨g, rfl⟩ : ∃ g', g = g' + 1 := ⟨g - 1, by omega⟩
    cases rem with
    | nil => exact h
    | cons m rest =>
      rw [valLoop] at h ⊢
      exact ih g (by omega) _ _ h

/-- Time goes on. -/
def TimeGoesOn (env : ValEnv) : Prop := ∀ T, ∃ K, ∀ j, K ≤ j → T ≤ (env j).1

theorem test_terminates (t : ValTopo) (env : ValEnv) (nowait : Bool) (e : ValEntry) (c : ValCounts) (k : Nat)
    (ht : TimeGoesOn env) : ∃ r F, ∀ f, F ≤ f → execTest t env f nowait e c k = some r := by
  unfold execTest
  by_cases h1 : e.nodes = []
  · simp only [h1, if_true]
    by_cases h2 : e.wait.isSome = true
    · simp only [h2, if_true]
      by_cases h3 : (e.stop && c.failed != 0) = true
      · simp only [h3, if_true]
        exact ⟨_, 0, fun _ _ => rfl⟩
      · simp only [h3, Bool.false_eq_true, if_false]
        exact ⟨_, 0, fun _ _ => rfl⟩
    · simp only [h2, Bool.false_eq_true, if_false]
      exact ⟨_, 0, fun _ _ => rfl⟩
  · simp only [h1, if_false]
    by_cases h2 : e.config = true
    · simp only [h2, if_true]
      exact ⟨_, 0, fun _ _ => rfl⟩
    · simp only [h2, Bool.false_eq_true, if_false]
      obtain ⟨K, hK⟩ := ht ((env k).1 + waitTime nowait e)
      obtain ⟨st, hst⟩ := loop_terminates t env ((env k).1 + waitTime nowait e) e K hK K e.nodes ⟨k + 1, none, c, []⟩
        (by simp only; omega)
      refine ⟨.result st.ret st.counts st.k st.log, K + 1, fun f hf => ?_⟩
      rw [loop_mono t env _ e (K + 1) f hf _ _ _ hst]
      rfl

/-- **C38.**  Validation terminates when time goes on, whatever devices do; the result does not depend on the fuel of
the model. -/
theorem C38_terminates (t : ValTopo) (env : ValEnv) (nowait : Bool) (es : List ValEntry) (c : ValCounts) (k : Nat)
    (ht : TimeGoesOn env) : ∃ r F, ∀ f, F ≤ f → valRun t env f nowait es c k = some r := by
  induction es generalizing c k with
  | nil => exact ⟨_, 0, fun _ _ => rfl⟩
  | cons e rest ih =>
    obtain ⟨r, F, hF⟩ := test_terminates t env nowait e c k ht
    cases r with
    | exit1 c' =>
      refine ⟨⟨1, c', []⟩, F, fun f hf => ?_⟩
      rw [valRun, hF f hf]
    | result r c' k' log =>
      by_cases hs : r = some false ∧ e.stop = true
      · refine ⟨⟨1, c', [(e, r)]⟩, F, fun f hf => ?_⟩
        rw [valRun, hF f hf]
        simp only [hs, and_self, if_true]
      · obtain ⟨x, G, hG⟩ := ih c' k'
        refine ⟨⟨x.code, x.counts, (e, r) :: x.tests⟩, max F G, fun f hf => ?_⟩
        rw [valRun, hF f (by omega)]
        simp only
        rw [if_neg hs, hG f (by omega)]
        rfl

/-! ### Counts and the exit code -/

/-- The change of the counts by a test that failed (`bad`) or did not. -/
def Tally (warn bad : Bool) (c c' : ValCounts) : Prop :=
  if bad then
    if warn then c'.failed = c.failed ∧ c.warning < c'.warning else c.failed < c'.failed ∧ c'.warning = c.warning
  else c'.failed = c.failed ∧ c'.warning = c.warning

/-- Every count belongs to a pass, a failure or a warning. -/
def Sums (c : ValCounts) : Prop := c.count = c.passed + c.failed + c.warning

theorem tally_refl (w : Bool) (c : ValCounts) : Tally w false c c := by simp [Tally]

theorem tally_pass (w : Bool) (c : ValCounts) : Tally w false c c.pass := by simp [Tally, ValCounts.pass]

theorem tally_fail (w : Bool) (c : ValCounts) : Tally w true c (c.fail w) := by
  cases w <;> simp [Tally, ValCounts.fail]

theorem tally_skip (w : Bool) (c : ValCounts) : Tally w false c c.skipped := by simp [Tally, ValCounts.skipped]

theorem tally_trans {w x y : Bool} {a b c : ValCounts} (h1 : Tally w x a b) (h2 : Tally w y b c) : Tally w (x || y) a c := by
  cases w <;> cases x <;> cases y <;> simp only [Tally, Bool.or_true, Bool.or_false, Bool.false_eq_true, if_true, if_false] at * <;> omega

theorem sums_fail (w : Bool) {c : ValCounts} (h : Sums c) : Sums (c.fail w) := by
  cases w <;> simp only [Sums, ValCounts.fail, Bool.false_eq_true, if_true, if_false] at * <;> omega

theorem sums_pass {c : ValCounts} (h : Sums c) : Sums c.pass := by
  simp only [Sums, ValCounts.pass] at *
  omega

/-- The result of a check and the change of counts: a failure is counted if it has to be reported. -/
def Counted (w report : Bool) (c : ValCounts) (s : Option Bool × ValCounts) : Prop :=
  Tally w (report && s.1 == some false) c s.2

theorem counted_expr (w report rok : Bool) (r : EvalRes) (c : ValCounts) : Counted w report c (execExpr w report rok r c) := by
  unfold Counted
  cases r with
  | missing => simpa [execExpr] using tally_skip w c
  | good =>
    cases rok
    · simpa [execExpr] using tally_refl w c
    · simpa [execExpr] using tally_pass w c
  | bad =>
    cases report
    · simpa [execExpr] using tally_refl w c
    · simpa [execExpr] using tally_fail w c

theorem counted_plugin (w report : Bool) (r : PlugRes) (c : ValCounts) : Counted w report c (execPlugin w report r c) := by
  unfold Counted
  cases r with
  | unknown => simpa [execPlugin] using tally_refl w c
  | good => simpa [execPlugin] using tally_pass w c
  | bad =>
    cases report
    · simpa [execPlugin] using tally_refl w c
    · simpa [execPlugin] using tally_fail w c

/-- Failures of single records are failures when all of them must be valid. -/
theorem records_tally (w report : Bool) (evs : List EvalRes) (s : Option Bool × ValCounts) (c : ValCounts) (x : Bool)
    (h : Tally w x c s.2) (hx : x = true → report = true ∧ s.1 = some false) :
    ∃ y, Tally w y c (suzRecords w true report evs s).2 ∧
      (y = true → report = true ∧ (suzRecords w true report evs s).1 = some false) := by
  induction evs generalizing s x with
  | nil => exact ⟨x, h, hx⟩
  | cons r rest ih =>
    simp only [suzRecords]
    apply ih _ (x || (report && (execExpr w report false r s.2).1 == some false))
    · exact tally_trans h (counted_expr w report false r s.2)
    · intro hy
      simp only [Bool.or_eq_true, Bool.and_eq_true, beq_iff_eq] at hy
      obtain ⟨a, b⟩ := s
      rcases hy with hy | ⟨hy1, hy2⟩
      · obtain ⟨h1, h2⟩ := hx hy
        simp only at h2
        subst h2
        refine ⟨h1, ?_⟩
        cases r <;> simp [suzCombine, execExpr]
      · refine ⟨hy1, ?_⟩
        rw [hy2]
        cases a with
        | none => simp [suzCombine]
        | some z => simp [suzCombine]

theorem finish_tally (w report : Bool) (s : Option Bool × ValCounts) (c : ValCounts) (x : Bool) (h : Tally w x c s.2)
    (hx : x = true → report = true ∧ s.1 = some false) : Counted w report c (suzFinish w report s) := by
  unfold Counted
  obtain ⟨a, b⟩ := s
  have hxf : a ≠ some false → x = false := by
    intro ha
    cases x with
    | false => rfl
    | true => exact absurd (hx rfl).2 ha
  cases a with
  | none =>
    have := hxf (by simp)
    subst this
    simpa [suzFinish] using h
  | some z =>
    cases z with
    | true =>
      have := hxf (by simp)
      subst this
      simpa [suzFinish] using tally_trans h (tally_pass w b)
    | false =>
      cases report with
      | false =>
        have : x = false := by
          cases x with
          | false => rfl
          | true => exact absurd (hx rfl).1 (by simp)
        subst this
        simpa [suzFinish] using h
      | true => simpa [suzFinish] using tally_trans h (tally_fail w b)

theorem counted_suzieq (w report : Bool) (r : SuzRes) (c : ValCounts) : Counted w report c (execSuzieq w true report r c) := by
  have hex : ∀ ev, Counted w report c (suzFinish w report (execExpr w report true ev c)) := by
    intro ev
    refine finish_tally w report _ c _ (counted_expr w report true ev c) ?_
    intro h
    simpa using h
  unfold execSuzieq
  cases r with
  | error ev => exact hex ev
  | dict b ev => exact hex ev
  | list evs =>
    obtain ⟨y, h1, h2⟩ := records_tally w report evs (none, c) c false (tally_refl w c) (by simp)
    exact finish_tally w report _ c y h1 h2

theorem counted_check (e : ValEntry) (a : ValAction) (report : Bool) (r : ValResp) (ok : Option Bool) (c : ValCounts)
    (hall : AllRecords e) (hok : ok = some false → report = false) : Counted e.warning report c (nodeCheck e a report r ok c) := by
  unfold nodeCheck
  by_cases h1 : (ok != some false && e.valid) = true
  · rw [if_pos h1]
    by_cases h2 : a = .suzieq
    · rw [if_pos h2]
      have : e.suzieqAll = true := hall (by simp at h1; exact h1.2)
      rw [this]
      exact counted_suzieq ..
    · rw [if_neg h2]
      exact counted_expr ..
  · rw [if_neg h1]
    by_cases h2 : e.plugin = true
    · rw [if_pos h2]
      exact counted_plugin ..
    · rw [if_neg h2]
      unfold Counted
      have : (report && ok == some false) = false := by
        cases hr : report with
        | false => rfl
        | true =>
          by_cases ho : ok = some false
          · have := hok ho
            rw [hr] at this
            exact absurd this (by simp)
          · simpa using ho
      simp only [this]
      exact tally_refl ..

theorem counted_finish (w report : Bool) (s : Option Bool × ValCounts) (c : ValCounts) (h : Counted w report c s) :
    Tally w ((nodeFinish report s).1.2 == some false) c (nodeFinish report s).2 := by
  unfold Counted at h
  unfold nodeFinish
  by_cases hs : s.1 = some false ∧ report = false
  · rw [if_pos hs]
    rw [hs.2] at h
    exact h
  · rw [if_neg hs]
    cases hr : report with
    | true =>
      rw [hr, Bool.true_and] at h
      exact h
    | false =>
      rw [hr, Bool.false_and] at h
      have : (s.1 == some false) = false := by
        simp only [hr, and_true] at hs
        simpa using hs
      rw [this]
      exact h

theorem tally_node (e : ValEntry) (a : Option ValAction) (report : Bool) (r : ValResp) (c : ValCounts) (hall : AllRecords e) :
    Tally e.warning ((execNode e a report r c).1.2 == some false) c (execNode e a report r c).2 := by
  unfold execNode
  split
  · exact tally_refl ..
  · exact tally_skip ..
  · split
    · exact tally_fail ..
    · exact counted_finish _ _ _ _ (counted_check e .query report r none c hall (by simp))
  · split
    · exact tally_fail ..
    · exact counted_finish _ _ _ _ (counted_check e .exec report r none c hall (by simp))
  · split
    · exact tally_fail ..
    · rename_i hcond
      refine counted_finish _ _ _ _ (counted_check e .suzieq report r _ c hall ?_)
      intro hok
      simp only [Option.some.injEq, bne_eq_false_iff_eq] at hok
      rw [hok] at hcond
      simpa using hcond
  · exact counted_finish _ _ _ _ (counted_check e .config report r none c hall (by simp))

theorem tally_step (t : ValTopo) (env : ValEnv) (stop : Nat) (e : ValEntry) (n : String) (st : ValState) (c0 : ValCounts)
    (hall : AllRecords e) (h : Tally e.warning (st.ret == some false) c0 st.counts) :
    Tally e.warning ((valStep t env stop e n st).ret == some false) c0 (valStep t env stop e n st).counts := by
  have h2 := tally_node e (findTestAction t e n) (decide (stop ≤ (env st.k).1)) (env st.k).2 st.counts hall
  have h3 := tally_trans h h2
  simp only [valStep]
  have : (valCombine st.ret (valAttempt t env stop e n st).1.2 == some false) =
      (st.ret == some false || (valAttempt t env stop e n st).1.2 == some false) := by
    cases st.ret with
    | none =>
      cases (valAttempt t env stop e n st).1.2 with
      | none => rfl
      | some b => cases b <;> rfl
    | some x =>
      cases (valAttempt t env stop e n st).1.2 with
      | none => cases x <;> rfl
      | some b => cases b <;> cases x <;> rfl
  rw [this]
  exact h3

theorem tally_round (t : ValTopo) (env : ValEnv) (stop : Nat) (e : ValEntry) (ns rem : List String) (st : ValState) (c0 : ValCounts)
    (hall : AllRecords e) (h : Tally e.warning (st.ret == some false) c0 st.counts) :
    Tally e.warning ((valRound t env stop e ns rem st).2.ret == some false) c0 (valRound t env stop e ns rem st).2.counts := by
  induction ns generalizing rem st with
  | nil => exact h
  | cons n rest ih =>
    simp only [valRound]
    exact ih _ _ (tally_step t env stop e n st c0 hall h)

theorem tally_loop (t : ValTopo) (env : ValEnv) (stop : Nat) (e : ValEntry) (f : Nat) (rem : List String) (st st' : ValState)
    (c0 : ValCounts) (hall : AllRecords e) (h : Tally e.warning (st.ret == some false) c0 st.counts)
    (hl : valLoop t env stop e f rem st = some st') : Tally e.warning (st'.ret == some false) c0 st'.counts := by
  induction f generalizing rem st with
  | zero =>
    cases rem with
    | nil =>
      simp only [valLoop, Option.some.injEq] at hl
      subst hl
      exact h
    | cons n rest => simp [valLoop] at hl
  | succ f ih =>
    cases rem with
    | nil =>
      simp only [valLoop, Option.some.injEq] at hl
      subst hl
      exact h
    | cons m rest =>
      rw [valLoop] at hl
      exact ih _ _ (tally_round t env stop e _ _ st c0 hall h) hl

/-- The result of a test and the change of counts. -/
def TestTally (e : ValEntry) (c : ValCounts) : ValResult → Prop
  | .exit1 c' => c' = c ∧ c.failed ≠ 0
  | .result res c' _ _ => Tally e.warning (res == some false) c c'

theorem tally_test (t : ValTopo) (env : ValEnv) (f : Nat) (nowait : Bool) (e : ValEntry) (c : ValCounts) (k : Nat)
    (hall : AllRecords e) (r : ValResult) (h : execTest t env f nowait e c k = some r) : TestTally e c r := by
  unfold execTest at h
  split at h
  · split at h
    · split at h
      · rename_i hs
        obtain rfl := Option.some.inj h
        simp only [Bool.and_eq_true, bne_iff_ne] at hs
        exact ⟨rfl, hs.2⟩
      · obtain rfl := Option.some.inj h
        exact tally_refl ..
    · obtain rfl := Option.some.inj h
      exact tally_skip ..
  · split at h
    · obtain rfl := Option.some.inj h
      unfold execConfig
      cases (env k).2.cmdOk with
      | true => exact tally_pass ..
      | false => exact tally_fail ..
    · cases hl : valLoop t env ((env k).1 + waitTime nowait e) e f e.nodes ⟨k + 1, none, c, []⟩ with
      | none => simp [hl, loopResult] at h
      | some st =>
        rw [hl] at h
        obtain rfl := Option.some.inj h
        exact tally_loop t env _ e f _ _ st c hall (tally_refl ..) hl

theorem run_code (t : ValTopo) (env : ValEnv) (f : Nat) (nowait : Bool) (es : List ValEntry) (c : ValCounts) (k : Nat)
    (x : ValRun) (hall : ∀ e ∈ es, AllRecords e) (h : valRun t env f nowait es c k = some x) :
    (x.code = 1 ↔ c.failed ≠ 0 ∨ ∃ p ∈ x.tests, Failure p) ∧
    (x.code = 0 ↔ c.failed = 0 ∧ c.warning = 0 ∧ ∀ p ∈ x.tests, p.2 ≠ some false) ∧
    (x.code = 0 ∨ x.code = 1 ∨ x.code = 3) := by
  induction es generalizing c k x with
  | nil =>
    simp only [valRun, Option.some.injEq] at h
    subst h
    simp only [exitCode]
    by_cases h1 : c.failed = 0 <;> by_cases h2 : c.warning = 0 <;> simp [h1, h2]
  | cons e rest ih =>
    rw [valRun] at h
    cases ht : execTest t env f nowait e c k with
    | none => simp [ht] at h
    | some r =>
      have hr := tally_test t env f nowait e c k (hall e (List.mem_cons_self ..)) r ht
      cases r with
      | exit1 c' =>
        simp only [ht, Option.some.injEq] at h
        subst h
        simp only [TestTally] at hr
        simp [hr.2]
      | result res c' k' log =>
        simp only [ht] at h
        simp only [TestTally] at hr
        by_cases hs : res = some false ∧ e.stop = true
        · rw [if_pos hs] at h
          obtain rfl := Option.some.inj h
          simp [Failure, hs]
        · rw [if_neg hs] at h
          cases hn : valRun t env f nowait rest c' k' with
          | none => simp [hn, ValRun.cons] at h
          | some y =>
            simp only [hn, ValRun.cons, Option.map_some, Option.some.injEq] at h
            subst h
            obtain ⟨i1, i2, i3⟩ := ih c' k' y (fun e he => hall e (List.mem_cons_of_mem _ he)) hn
            simp only [i1, i2, List.mem_cons, exists_eq_or_imp, forall_eq_or_imp]
            refine ⟨?_, ?_, ?_⟩
            · by_cases hres : res = some false
              · have hst : e.stop = false := by
                  cases hst : e.stop with
                  | false => rfl
                  | true => exact absurd ⟨hres, hst⟩ hs
                simp only [hres, beq_self_eq_true, Tally, if_true] at hr
                cases hw : e.warning with
                | true =>
                  simp only [hw, if_true] at hr
                  simp [Failure, hw, hst, hr.1]
                | false =>
                  simp only [hw, Bool.false_eq_true, if_false] at hr
                  have : c'.failed ≠ 0 := by omega
                  simp [Failure, hw, hres, this]
              · have : (res == some false) = false := by simpa using hres
                simp only [this, Tally, Bool.false_eq_true, if_false] at hr
                simp [Failure, hres, hr.1]
            · by_cases hres : res = some false
              · simp only [hres, beq_self_eq_true, Tally, if_true] at hr
                have : ¬ (c'.failed = 0 ∧ c'.warning = 0) := by
                  cases hw : e.warning <;> simp [hw] at hr <;> omega
                constructor
                · rintro ⟨a, b, -⟩
                  exact absurd ⟨a, b⟩ this
                · rintro ⟨-, -, a, -⟩
                  exact absurd hres a
              · have : (res == some false) = false := by simpa using hres
                simp only [this, Tally, Bool.false_eq_true, if_false] at hr
                simp [hres, hr.1, hr.2]
            · rw [← i1, ← i2]
              simpa using i3

/-- **C38.**  The exit code is 1 if and only if a test failed (and a failure of the test is not just a warning, or the
test is mandatory), 0 if and only if no test failed, and 3 otherwise. -/
theorem C38_exit_code (t : ValTopo) (env : ValEnv) (f : Nat) (nowait : Bool) (es : List ValEntry) (x : ValRun)
    (hall : ∀ e ∈ es, AllRecords e) (h : valRun t env f nowait es ValCounts.zero 0 = some x) :
    (x.code = 1 ↔ ∃ p ∈ x.tests, Failure p) ∧ (x.code = 0 ↔ ∀ p ∈ x.tests, p.2 ≠ some false) ∧
    (x.code = 3 ↔ (∃ p ∈ x.tests, p.2 = some false) ∧ ∀ p ∈ x.tests, ¬ Failure p) := by
  obtain ⟨h1, h2, h3⟩ := run_code t env f nowait es ValCounts.zero 0 x hall h
  simp only [ValCounts.zero, ne_eq, not_true_eq_false, false_or, true_and] at h1 h2
  refine ⟨h1, h2, ?_⟩
  constructor
  · intro h
    have n1 : ¬ x.code = 1 := by omega
    have n0 : ¬ x.code = 0 := by omega
    rw [h1] at n1
    rw [h2] at n0
    simp only [not_exists, not_and] at n1
    simp only [ne_eq, Classical.not_forall, Classical.not_not] at n0
    obtain ⟨p, hp, hf⟩ := n0
    exact ⟨⟨p, hp, hf⟩, n1⟩
  · rintro ⟨⟨p, hp, hf⟩, hno⟩
    have n1 : ¬ x.code = 1 := by
      rw [h1]
      rintro ⟨q, hq, hqf⟩
      exact hno q hq hqf
    have n0 : ¬ x.code = 0 := by
      rw [h2]
      intro h
      exact h p hp hf
    omega

/-- **C38.**  Tests are executed in sequence, and all of them unless a mandatory test failed or a mandatory wait
found earlier failures; the exit code is then 1. -/
theorem C38_all_tests (t : ValTopo) (env : ValEnv) (f : Nat) (nowait : Bool) (es : List ValEntry) (c : ValCounts) (k : Nat)
    (x : ValRun) (h : valRun t env f nowait es c k = some x) :
    x.tests.map Prod.fst <+: es ∧ (x.tests.map Prod.fst = es ∨ (x.code = 1 ∧ ∃ e ∈ es, e.stop = true)) := by
  induction es generalizing c k x with
  | nil =>
    simp only [valRun, Option.some.injEq] at h
    subst h
    simp
  | cons e rest ih =>
    rw [valRun] at h
    cases ht : execTest t env f nowait e c k with
    | none => simp [ht] at h
    | some r =>
      cases r with
      | exit1 c' =>
        simp only [ht, Option.some.injEq] at h
        subst h
        refine ⟨List.nil_prefix, .inr ⟨rfl, e, List.mem_cons_self .., ?_⟩⟩
        unfold execTest at ht
        split at ht
        · split at ht
          · split at ht
            · rename_i hs
              simp only [Bool.and_eq_true] at hs
              exact hs.1
            · simp at ht
          · simp at ht
        · split at ht
          · unfold execConfig at ht
            split at ht <;> simp at ht
          · cases hl : valLoop t env ((env k).1 + waitTime nowait e) e f e.nodes ⟨k + 1, none, c, []⟩ <;>
              simp [hl, loopResult] at ht
      | result res c' k' log =>
        simp only [ht] at h
        by_cases hs : res = some false ∧ e.stop = true
        · rw [if_pos hs] at h
          obtain rfl := Option.some.inj h
          refine ⟨?_, .inr ⟨rfl, e, List.mem_cons_self .., hs.2⟩⟩
          simp
        · rw [if_neg hs] at h
          cases hn : valRun t env f nowait rest c' k' with
          | none => simp [hn, ValRun.cons] at h
          | some y =>
            simp only [hn, ValRun.cons, Option.map_some, Option.some.injEq] at h
            subst h
            obtain ⟨i1, i2⟩ := ih c' k' y hn
            simp only [List.map_cons]
            refine ⟨List.prefix_cons_inj e |>.mpr i1, ?_⟩
            rcases i2 with i2 | ⟨i2, a, ha, has⟩
            · exact .inl (by rw [i2])
            · exact .inr ⟨i2, a, List.mem_cons_of_mem _ ha, has⟩

/-! ### The summary -/

theorem sums_skip {c : ValCounts} (h : Sums c) : Sums c.skipped := h

theorem sums_expr (w report rok : Bool) (r : EvalRes) {c : ValCounts} (h : Sums c) : Sums (execExpr w report rok r c).2 := by
  cases r <;> simp only [execExpr]
  · exact sums_skip h
  · cases rok
    · exact h
    · exact sums_pass h
  · cases report
    · exact h
    · exact sums_fail w h

theorem sums_plugin (w report : Bool) (r : PlugRes) {c : ValCounts} (h : Sums c) : Sums (execPlugin w report r c).2 := by
  cases r <;> simp only [execPlugin]
  · exact h
  · exact sums_pass h
  · cases report
    · exact h
    · exact sums_fail w h

theorem sums_records (w all report : Bool) (evs : List EvalRes) (s : Option Bool × ValCounts) (h : Sums s.2) :
    Sums (suzRecords w all report evs s).2 := by
  induction evs generalizing s with
  | nil => exact h
  | cons r rest ih => exact ih _ (sums_expr w report false r h)

theorem sums_suzieq (w all report : Bool) (r : SuzRes) {c : ValCounts} (h : Sums c) : Sums (execSuzieq w all report r c).2 := by
  have hf : ∀ s : Option Bool × ValCounts, Sums s.2 → Sums (suzFinish w report s).2 := by
    rintro ⟨a, b⟩ hs
    cases a with
    | none => exact hs
    | some z =>
      cases z with
      | true => exact sums_pass hs
      | false =>
        cases report
        · exact hs
        · exact sums_fail w hs
  unfold execSuzieq
  apply hf
  cases r with
  | error ev => exact sums_expr w report true ev h
  | dict b ev => exact sums_expr w report true ev h
  | list evs => exact sums_records w all report evs (none, c) h

theorem sums_check (e : ValEntry) (a : ValAction) (report : Bool) (r : ValResp) (ok : Option Bool) {c : ValCounts} (h : Sums c) :
    Sums (nodeCheck e a report r ok c).2 := by
  unfold nodeCheck
  split
  · split
    · exact sums_suzieq _ _ _ _ h
    · exact sums_expr _ _ _ _ h
  · split
    · exact sums_plugin _ _ _ h
    · exact h

theorem sums_nodeFinish (report : Bool) (s : Option Bool × ValCounts) (h : Sums s.2) : Sums (nodeFinish report s).2 := by
  unfold nodeFinish
  split <;> exact h

theorem sums_node (e : ValEntry) (a : Option ValAction) (report : Bool) (r : ValResp) {c : ValCounts} (h : Sums c) :
    Sums (execNode e a report r c).2 := by
  unfold execNode
  split
  · exact h
  · exact sums_skip h
  · split
    · exact sums_fail _ h
    · exact sums_nodeFinish _ _ (sums_check _ _ _ _ _ h)
  · split
    · exact sums_fail _ h
    · exact sums_nodeFinish _ _ (sums_check _ _ _ _ _ h)
  · split
    · exact sums_fail _ h
    · exact sums_nodeFinish _ _ (sums_check _ _ _ _ _ h)
  · exact sums_nodeFinish _ _ (sums_check _ _ _ _ _ h)

theorem sums_round (t : ValTopo) (env : ValEnv) (stop : Nat) (e : ValEntry) (ns rem : List String) (st : ValState)
    (h : Sums st.counts) : Sums (valRound t env stop e ns rem st).2.counts := by
  induction ns generalizing rem st with
  | nil => exact h
  | cons n rest ih =>
    simp only [valRound]
    exact ih _ _ (sums_node e _ _ _ h)

theorem sums_loop (t : ValTopo) (env : ValEnv) (stop : Nat) (e : ValEntry) (f : Nat) (rem : List String) (st st' : ValState)
    (h : Sums st.counts) (hl : valLoop t env stop e f rem st = some st') : Sums st'.counts := by
  induction f generalizing rem st with
  | zero =>
    cases rem with
    | nil =>
      simp only [valLoop, Option.some.injEq] at hl
      subst hl
      exact h
    | cons n rest => simp [valLoop] at hl
  | succ f ih =>
    cases rem with
    | nil =>
      simp only [valLoop, Option.some.injEq] at hl
      subst hl
      exact h
    | cons m rest =>
      rw [valLoop] at hl
      exact ih _ _ (sums_round t env stop e _ _ st h) hl

/-- The counts after a test. -/
def ValResult.counts : ValResult → ValCounts
  | .exit1 c => c
  | .result _ c _ _ => c

theorem sums_test (t : ValTopo) (env : ValEnv) (f : Nat) (nowait : Bool) (e : ValEntry) (c : ValCounts) (k : Nat)
    (r : ValResult) (hs : Sums c) (h : execTest t env f nowait e c k = some r) : Sums r.counts := by
  unfold execTest at h
  split at h
  · split at h
    · split at h
      · obtain rfl := Option.some.inj h
        exact hs
      · obtain rfl := Option.some.inj h
        exact hs
    · obtain rfl := Option.some.inj h
      exact sums_skip hs
  · split at h
    · obtain rfl := Option.some.inj h
      unfold execConfig
      cases (env k).2.cmdOk with
      | true => exact sums_pass hs
      | false => exact sums_fail _ hs
    · cases hl : valLoop t env ((env k).1 + waitTime nowait e) e f e.nodes ⟨k + 1, none, c, []⟩ with
      | none => simp [hl, loopResult] at h
      | some st =>
        rw [hl] at h
        obtain rfl := Option.some.inj h
        exact sums_loop t env _ e f _ _ st hs hl

/-- **C38.**  The summary says that all tests passed if and only if there were no failures and no warnings. -/
theorem C38_summary (t : ValTopo) (env : ValEnv) (f : Nat) (nowait : Bool) (es : List ValEntry) (x : ValRun)
    (h : valRun t env f nowait es ValCounts.zero 0 = some x) :
    x.counts.passed = x.counts.count ↔ x.counts.failed = 0 ∧ x.counts.warning = 0 := by
  have hgen : ∀ (es : List ValEntry) (c : ValCounts) (k : Nat) (x : ValRun), Sums c →
      valRun t env f nowait es c k = some x → Sums x.counts := by
    intro es
    induction es with
    | nil =>
      intro c k x hs h
      simp only [valRun, Option.some.injEq] at h
      subst h
      exact hs
    | cons e rest ih =>
      intro c k x hs h
      rw [valRun] at h
      cases ht : execTest t env f nowait e c k with
      | none => simp [ht] at h
      | some r =>
        have hr := sums_test t env f nowait e c k r hs ht
        cases r with
        | exit1 c' =>
          simp only [ht, Option.some.injEq] at h
          subst h
          exact hr
        | result res c' k' log =>
          simp only [ht] at h
          split at h
          · obtain rfl := Option.some.inj h
            exact hr
          · cases hn : valRun t env f nowait rest c' k' with
            | none => simp [hn, ValRun.cons] at h
            | some y =>
              simp only [hn, ValRun.cons, Option.map_some, Option.some.injEq] at h
              subst h
              exact ih c' k' y hr hn
  have := hgen es ValCounts.zero 0 x (by simp [Sums, ValCounts.zero]) h
  unfold Sums at this
  omega

/-! ### Concrete runs -/

/-- A test that uses a `show` command on two nodes and waits up to 3 seconds. -/
def valDemo : ValEntry where
  name := "adj"
  warning := false
  stop := false
  wait := some 3
  nodes := ["a", "b"]
  shows := some .all
  execs := none
  config := false
  suzieq := false
  suzieqEmpty := false
  suzieqAll := false
  plugin := false
  valid := true

/-- A lab with one type of devices. -/
def valTopo : ValTopo := ⟨fun _ => "frr", fun _ => none⟩

/-- A response with a result of the validation expression. -/
def valResp (ev : EvalRes) : ValResp := ⟨false, false, ev, .unknown, .list [], true⟩

/-- Node `a` passes in the second round, node `b` passes in the first one. -/
def valEnv : ValEnv := fun k => (k, valResp (if k = 1 then .bad else .good))

example : valLoop valTopo valEnv 3 valDemo 4 ["a", "b"] ⟨1, none, .zero, []⟩ =
    some ⟨4, some true, ⟨2, 0, 0, 2, 0⟩,
      [⟨"a", 1, valResp .bad, false, none⟩, ⟨"b", 2, valResp .good, true, some true⟩,
       ⟨"a", 3, valResp .good, true, some true⟩]⟩ := by decide +kernel

/-! ### Skipped tests -/

/-- At least `m` tests were skipped. -/
def SkipsFrom (m : Nat) (c : ValCounts) : Prop := m ≤ c.skip

theorem skips_pass {m : Nat} {c : ValCounts} (h : SkipsFrom m c) : SkipsFrom m c.pass := h

theorem skips_fail {m : Nat} (w : Bool) {c : ValCounts} (h : SkipsFrom m c) : SkipsFrom m (c.fail w) := by
  cases w <;> exact h

theorem skips_skip {m : Nat} {c : ValCounts} (h : SkipsFrom m c) : SkipsFrom m c.skipped := by
  unfold SkipsFrom ValCounts.skipped at *
  simp only
  omega

theorem skips_expr {m : Nat} (w report rok : Bool) (r : EvalRes) {c : ValCounts} (h : SkipsFrom m c) : SkipsFrom m (execExpr w report rok r c).2 := by
  cases r <;> simp only [execExpr]
  · exact skips_skip h
  · cases rok
    · exact h
    · exact skips_pass h
  · cases report
    · exact h
    · exact skips_fail w h

theorem skips_plugin {m : Nat} (w report : Bool) (r : PlugRes) {c : ValCounts} (h : SkipsFrom m c) : SkipsFrom m (execPlugin w report r c).2 := by
  cases r <;> simp only [execPlugin]
  · exact h
  · exact skips_pass h
  · cases report
    · exact h
    · exact skips_fail w h

theorem skips_records {m : Nat} (w all report : Bool) (evs : List EvalRes) (s : Option Bool × ValCounts) (h : SkipsFrom m s.2) :
    SkipsFrom m (suzRecords w all report evs s).2 := by
  induction evs generalizing s with
  | nil => exact h
  | cons r rest ih => exact ih _ (skips_expr w report false r h)

theorem skips_suzieq {m : Nat} (w all report : Bool) (r : SuzRes) {c : ValCounts} (h : SkipsFrom m c) : SkipsFrom m (execSuzieq w all report r c).2 := by
  have hf : ∀ s : Option Bool × ValCounts, SkipsFrom m s.2 → SkipsFrom m (suzFinish w report s).2 := by
    rintro ⟨a, b⟩ hs
    cases a with
    | none => exact hs
    | some z =>
      cases z with
      | true => exact skips_pass hs
      | false =>
        cases report
        · exact hs
        · exact skips_fail w hs
  unfold execSuzieq
  apply hf
  cases r with
  | error ev => exact skips_expr w report true ev h
  | dict b ev => exact skips_expr w report true ev h
  | list evs => exact skips_records w all report evs (none, c) h

theorem skips_check {m : Nat} (e : ValEntry) (a : ValAction) (report : Bool) (r : ValResp) (ok : Option Bool) {c : ValCounts} (h : SkipsFrom m c) :
    SkipsFrom m (nodeCheck e a report r ok c).2 := by
  unfold nodeCheck
  split
  · split
    · exact skips_suzieq _ _ _ _ h
    · exact skips_expr _ _ _ _ h
  · split
    · exact skips_plugin _ _ _ h
    · exact h

theorem skips_nodeFinish {m : Nat} (report : Bool) (s : Option Bool × ValCounts) (h : SkipsFrom m s.2) : SkipsFrom m (nodeFinish report s).2 := by
  unfold nodeFinish
  split <;> exact h

theorem skips_node {m : Nat} (e : ValEntry) (a : Option ValAction) (report : Bool) (r : ValResp) {c : ValCounts} (h : SkipsFrom m c) :
    SkipsFrom m (execNode e a report r c).2 := by
  unfold execNode
  split
  · exact h
  · exact skips_skip h
  · split
    · exact skips_fail _ h
    · exact skips_nodeFinish _ _ (skips_check _ _ _ _ _ h)
  · split
    · exact skips_fail _ h
    · exact skips_nodeFinish _ _ (skips_check _ _ _ _ _ h)
  · split
    · exact skips_fail _ h
    · exact skips_nodeFinish _ _ (skips_check _ _ _ _ _ h)
  · exact skips_nodeFinish _ _ (skips_check _ _ _ _ _ h)

theorem skips_round {m : Nat} (t : ValTopo) (env : ValEnv) (stop : Nat) (e : ValEntry) (ns rem : List String) (st : ValState)
    (h : SkipsFrom m st.counts) : SkipsFrom m (valRound t env stop e ns rem st).2.counts := by
  induction ns generalizing rem st with
  | nil => exact h
  | cons n rest ih =>
    simp only [valRound]
    exact ih _ _ (skips_node e _ _ _ h)

theorem skips_loop {m : Nat} (t : ValTopo) (env : ValEnv) (stop : Nat) (e : ValEntry) (f : Nat) (rem : List String) (st st' : ValState)
    (h : SkipsFrom m st.counts) (hl : valLoop t env stop e f rem st = some st') : SkipsFrom m st'.counts := by
  induction f generalizing rem st with
  | zero =>
    cases rem with
    | nil =>
      simp only [valLoop, Option.some.injEq] at hl
      subst hl
      exact h
    | cons n rest => simp [valLoop] at hl
  | succ f ih =>
    cases rem with
    | nil =>
      simp only [valLoop, Option.some.injEq] at hl
      subst hl
      exact h
    | cons m rest =>
      rw [valLoop] at hl
      exact ih _ _ (skips_round t env stop e _ _ st h) hl

theorem skips_test {m : Nat} (t : ValTopo) (env : ValEnv) (f : Nat) (nowait : Bool) (e : ValEntry) (c : ValCounts) (k : Nat)
    (r : ValResult) (hs : SkipsFrom m c) (h : execTest t env f nowait e c k = some r) : SkipsFrom m r.counts := by
  unfold execTest at h
  split at h
  · split at h
    · split at h
      · obtain rfl := Option.some.inj h
        exact hs
      · obtain rfl := Option.some.inj h
        exact hs
    · obtain rfl := Option.some.inj h
      exact skips_skip hs
  · split at h
    · obtain rfl := Option.some.inj h
      unfold execConfig
      cases (env k).2.cmdOk with
      | true => exact skips_pass hs
      | false => exact skips_fail _ hs
    · cases hl : valLoop t env ((env k).1 + waitTime nowait e) e f e.nodes ⟨k + 1, none, c, []⟩ with
      | none => simp [hl, loopResult] at h
      | some st =>
        rw [hl] at h
        obtain rfl := Option.some.inj h
        exact skips_loop t env _ e f _ _ st hs hl

/-- **C38.**  Every test without nodes that is not a wait is counted as skipped. -/
theorem C38_skipped (t : ValTopo) (env : ValEnv) (f : Nat) (nowait : Bool) (es : List ValEntry) (x : ValRun)
    (h : valRun t env f nowait es ValCounts.zero 0 = some x) :
    (x.tests.filter (fun p => p.1.nodes.isEmpty && p.1.wait.isNone)).length ≤ x.counts.skip := by
  have hgen : ∀ (es : List ValEntry) (c : ValCounts) (k m : Nat) (x : ValRun), m ≤ c.skip →
      valRun t env f nowait es c k = some x →
      m + (x.tests.filter (fun p => p.1.nodes.isEmpty && p.1.wait.isNone)).length ≤ x.counts.skip := by
    intro es
    induction es with
    | nil =>
      intro c k m x hs h
      simp only [valRun, Option.some.injEq] at h
      subst h
      simpa using hs
    | cons e rest ih =>
      intro c k m x hs h
      rw [valRun] at h
      cases ht : execTest t env f nowait e c k with
      | none => simp [ht] at h
      | some r =>
        have hr := skips_test (m := m) t env f nowait e c k r hs ht
        cases r with
        | exit1 c' =>
          simp only [ht, Option.some.injEq] at h
          subst h
          exact hr
        | result res c' k' log =>
          have hr' : m + ([(e, res)].filter (fun p => p.1.nodes.isEmpty && p.1.wait.isNone)).length ≤ c'.skip := by
            by_cases hc : (e.nodes.isEmpty && e.wait.isNone) = true
            · simp only [List.filter_cons, hc, if_true, List.filter_nil, List.length_cons, List.length_nil]
              simp only [Bool.and_eq_true, List.isEmpty_iff, Option.isNone_iff_eq_none] at hc
              unfold execTest at ht
              rw [if_pos hc.1, hc.2] at ht
              simp only [Option.isSome_none, Bool.false_eq_true, if_false, Option.some.injEq, ValResult.result.injEq] at ht
              rw [← ht.2.1]
              simp only [ValCounts.skipped]
              omega
            · simp only [List.filter_cons, hc, Bool.false_eq_true, if_false, List.filter_nil, List.length_nil]
              exact hr
          simp only [ht] at h
          split at h
          · obtain rfl := Option.some.inj h
            exact hr'
          · cases hn : valRun t env f nowait rest c' k' with
            | none => simp [hn, ValRun.cons] at h
            | some y =>
              simp only [hn, ValRun.cons, Option.map_some, Option.some.injEq] at h
              subst h
              have hy := ih c' k' _ y hr' hn
              have hl : ((e, res) :: y.tests) = [(e, res)] ++ y.tests := rfl
              simp only [hl, List.filter_append, List.length_append]
              omega
  have := hgen es ValCounts.zero 0 0 x (Nat.zero_le _) h
  omega

/-- A test without nodes is skipped. -/
example : (valRun valTopo valEnv 4 false [{ valDemo with nodes := [], wait := none }] .zero 0).map (fun x => (x.code, x.counts.skip)) =
    some (0, 1) := by decide +kernel

/-- The hypotheses of C38_attempts hold for the demo test. -/
example : valDemo.nodes.Nodup ∧ OneAction valDemo ∧ AllRecords { valDemo with suzieqAll := true } :=
  ⟨by decide, by unfold OneAction; decide, fun _ => rfl⟩

/-- Node `a` never passes: the test fails after the deadline and the exit code is 1.  The second test is skipped when
the first one is mandatory. -/
example : (valRun valTopo (fun k => (k, valResp (if k % 2 = 1 then .bad else .good))) 10 false
      [{ valDemo with suzieqAll := true }, { valDemo with warning := true, suzieqAll := true }] .zero 0).map
        (fun x => (x.code, x.tests.map Prod.snd)) = some (1, [some false, some false]) ∧
    (valRun valTopo (fun k => (k, valResp (if k % 2 = 1 then .bad else .good))) 10 false
      [{ valDemo with stop := true, suzieqAll := true }, valDemo] .zero 0).map
        (fun x => (x.code, x.tests.map Prod.snd)) = some (1, [some false]) ∧
    (valRun valTopo (fun k => (k, valResp (if k % 2 = 1 then .bad else .good))) 10 false
      [{ valDemo with warning := true, suzieqAll := true }] .zero 0).map
        (fun x => (x.code, x.tests.map Prod.snd)) = some (3, [some false]) := by decide +kernel

/-- **C38, an exception.**  The exit code is 1 although every test passed: SuzieQ returned two records, one valid record
is enough to pass the test, but the invalid one was counted as a failure. -/
theorem C38_suzieq_any :
    (valRun valTopo (fun k => (k, ⟨false, false, .good, .unknown, .list [.bad, .good], true⟩)) 10 false
      [{ valDemo with shows := none, suzieq := true, wait := none, nodes := ["a"] }] .zero 0).map
        (fun x => (x.code, x.tests.map Prod.snd)) = some (1, [some true]) := by decide +kernel

/-- **C38, an exception.**  A command fails on the only node of the test, and the test has no validation expression.
The failure is reported when there is no wait time, and lost otherwise. -/
theorem C38_exec_failure_lost :
    (valRun valTopo (fun k => (k, ⟨false, true, .good, .unknown, .list [], true⟩)) 10 false
      [{ valDemo with shows := none, execs := some .all, valid := false, nodes := ["a"] }] .zero 0).map
        (fun x => (x.code, x.tests.map Prod.snd)) = some (0, [none]) ∧
    (valRun valTopo (fun k => (k, ⟨false, true, .good, .unknown, .list [], true⟩)) 10 true
      [{ valDemo with shows := none, execs := some .all, valid := false, nodes := ["a"] }] .zero 0).map
        (fun x => (x.code, x.tests.map Prod.snd)) = some (1, [some false]) := by decide +kernel

/-- **C38, an exception.**  The SuzieQ command fails, and a test expecting data without further validation passes. -/
theorem C38_suzieq_error_passes :
    (valRun valTopo (fun k => (k, ⟨false, false, .good, .unknown, .error .bad, true⟩)) 10 false
      [{ valDemo with shows := none, suzieq := true, valid := false, nodes := ["a"] }] .zero 0).map
        (fun x => (x.code, x.tests.map Prod.snd)) = some (0, [some true]) := by decide +kernel

end Netlab
