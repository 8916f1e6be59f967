import Verif.Spec.TypeTest
import Verif.Lemmas.Settings
/-!
# C103: data type tests
-/

namespace Netlab
open Spec

theorem ttBool_spec (a : TtArgs) (parent : List (String × Val)) (key : String) (v : Val) (h : parent.lookup key = some v) :
    (ttBool a parent key v).raised = false ∧ (ttBool a parent key v).errors = 0 ∧
    (ttBool a parent key v).parent.lookup key = boolReplacement a v ∧
    (ttBool a parent key v).value = (boolReplacement a v).getD .null ∧
    (∀ j, j ≠ key → (ttBool a parent key v).parent.lookup j = parent.lookup j) := by
  unfold ttBool boolReplacement
  cases v with
  | bool b =>
    cases ht : a.trueValue with
    | none => cases b <;> simp [h]
    | some t =>
      cases b with
      | true =>
        refine ⟨rfl, rfl, by simp [lookup_setKey], rfl, ?_⟩
        intro j hj
        simp [lookup_setKey, hj]
      | false =>
        cases hf : a.falseValue with
        | none =>
          refine ⟨rfl, rfl, by simp [lookup_popKey], rfl, ?_⟩
          intro j hj
          simp [lookup_popKey, hj]
        | some f =>
          refine ⟨rfl, rfl, by simp [lookup_setKey], rfl, ?_⟩
          intro j hj
          simp [lookup_setKey, hj]
  | _ => cases a.trueValue <;> simp [h]

theorem ttGet_spec (a : TtArgs) (parent : List (String × Val)) (key : String) :
    ((ttGet a parent key).raised = true ↔ EmptyAbort a (parent.lookup key)) ∧ (ttGet a parent key).errors = 0 ∧
    (ttGet a parent key).parent.lookup key = valueToTest a (parent.lookup key) ∧
    (ttGet a parent key).value = (valueToTest a (parent.lookup key)).getD .null ∧
    (∀ j, j ≠ key → (ttGet a parent key).parent.lookup j = parent.lookup j) := by
  have hset : ∀ e, ((ttBool a (setKey parent key e) key e).raised = false ∧ (ttBool a (setKey parent key e) key e).errors = 0 ∧
      (ttBool a (setKey parent key e) key e).parent.lookup key = boolReplacement a e ∧
      (ttBool a (setKey parent key e) key e).value = (boolReplacement a e).getD .null ∧
      (∀ j, j ≠ key → (ttBool a (setKey parent key e) key e).parent.lookup j = parent.lookup j)) := by
    intro e
    have h1 := ttBool_spec a (setKey parent key e) key e (by simp [lookup_setKey])
    refine ⟨h1.1, h1.2.1, h1.2.2.1, h1.2.2.2.1, ?_⟩
    intro j hj
    rw [h1.2.2.2.2 j hj, lookup_setKey, if_neg hj]
  have hnull : ∀ (o : Option Val), parent.lookup key = o → o = none ∨ o = some .null →
      ((ttGet a parent key).raised = true ↔ EmptyAbort a o) ∧ (ttGet a parent key).errors = 0 ∧
      (ttGet a parent key).parent.lookup key = valueToTest a o ∧
      (ttGet a parent key).value = (valueToTest a o).getD .null ∧
      (∀ j, j ≠ key → (ttGet a parent key).parent.lookup j = parent.lookup j) := by
    intro o ho hn
    have hg : (parent.lookup key).getD .null = .null := by rw [ho]; rcases hn with rfl | rfl <;> rfl
    unfold ttGet
    rw [hg]
    simp only
    cases he : a.emptyValue with
    | none =>
      refine ⟨?_, rfl, ?_, ?_, fun _ _ => rfl⟩
      · simp [EmptyAbort, he]
      · rcases hn with rfl | rfl <;> simp [valueToTest, he, ho]
      · rcases hn with rfl | rfl <;> simp [valueToTest, he]
    | some e =>
      simp only
      by_cases hc : a.createEmpty = some false
      · rw [if_neg (by simp [hc])]
        refine ⟨?_, rfl, ?_, ?_, fun _ _ => rfl⟩
        · simp [EmptyAbort, he, hc, hn]
        · rcases hn with rfl | rfl <;> simp [valueToTest, he, hc, ho]
        · rcases hn with rfl | rfl <;> simp [valueToTest, he, hc]
      · have hc' : a.createEmpty.getD true = true := by
          cases hx : a.createEmpty with
          | none => rfl
          | some b =>
            cases b with
            | true => rfl
            | false => exact absurd hx hc
        rw [if_pos hc']
        obtain ⟨h1, h2, h3, h4, h5⟩ := hset e
        refine ⟨?_, h2, ?_, ?_, h5⟩
        · rw [h1]; simp [EmptyAbort, hc]
        · rw [h3]; rcases hn with rfl | rfl <;> simp [valueToTest, he, hc]
        · rw [h4]; rcases hn with rfl | rfl <;> simp [valueToTest, he, hc]
  cases ho : parent.lookup key with
  | none => exact hnull none ho (Or.inl rfl)
  | some v =>
    by_cases hv : v = .null
    · subst hv; exact hnull _ ho (Or.inr rfl)
    · have hg : ttGet a parent key = ttBool a parent key v := by
        unfold ttGet
        rw [ho]
        cases v <;> first | rfl | exact absurd rfl hv
      have hw : valueToTest a (some v) = boolReplacement a v := by
        cases v <;> first | rfl | exact absurd rfl hv
      obtain ⟨h1, h2, h3, h4, h5⟩ := ttBool_spec a parent key v ho
      rw [hg, hw]
      refine ⟨?_, h2, h3, h4, h5⟩
      rw [h1]
      simp [EmptyAbort, hv]

theorem ttAllowed_iff (a : TtArgs) (v : Val) : (a.validValues.isEmpty || ttAllowed a.validValues v) = true ↔ Expected a.validValues v := by
  unfold Expected
  rw [Bool.or_eq_true]
  apply or_congr
  · simp
  · cases v with
    | list l => simp [ttAllowed, List.all_eq_true]
    | _ => simp [ttAllowed]

theorem ttPost_spec (a : TtArgs) (s : TtStatus) (parent : List (String × Val)) (key : String) (v : Val) (h : parent.lookup key = some v) :
    (s.valid = true → (ttPost a s parent key v).raised = false ∧ (ttPost a s parent key v).errors = 0 ∧ (ttPost a s parent key v).value = transformed s v ∧
      (ttPost a s parent key v).parent.lookup key = some (transformed s v)) ∧
    (s.valid = false → (ttPost a s parent key v).raised = a.abort ∧ (ttPost a s parent key v).errors = (if a.raw || a.silent then 0 else 1) ∧ (ttPost a s parent key v).value = .null ∧
      (ttPost a s parent key v).parent.lookup key = some v) ∧
    (∀ j, j ≠ key → (ttPost a s parent key v).parent.lookup j = parent.lookup j) := by
  unfold ttPost transformed
  cases hv : s.valid with
  | true =>
    rw [if_pos rfl]
    cases s.transform with
    | none => simp [h]
    | some f =>
      refine ⟨fun _ => ⟨rfl, rfl, rfl, by simp [lookup_setKey]⟩, by simp, ?_⟩
      intro j hj
      simp [lookup_setKey, hj]
  | false =>
    rw [if_neg (by simp)]
    exact ⟨by simp, fun _ => ⟨rfl, rfl, rfl, h⟩, fun _ _ => rfl⟩

/-- The complete result of a type test -/
theorem ttRun_spec (test : Val → TtStatus) (a : TtArgs) (parent : List (String × Val)) (key : String) :
    match valueToTest a (parent.lookup key) with
    | none => ∃ r, ttRun test a parent key = some r ∧ r.parent.lookup key = none ∧ r.value = .null ∧ r.errors = 0 ∧ (r.raised = true ↔ EmptyAbort a (parent.lookup key)) ∧
        ∀ j, j ≠ key → r.parent.lookup j = parent.lookup j
    | some v =>
      (EmptyAbort a (parent.lookup key) → ∃ r, ttRun test a parent key = some r ∧ r.raised = true) ∧
      (¬ EmptyAbort a (parent.lookup key) → Accepted test a v → ∃ r, ttRun test a parent key = some r ∧ r.raised = false ∧ r.errors = 0 ∧ r.value = transformed (test v) v ∧
        r.parent.lookup key = some (transformed (test v) v)) ∧
      (¬ EmptyAbort a (parent.lookup key) → (test v).valid = false → ∃ r, ttRun test a parent key = some r ∧ r.raised = a.abort ∧ r.errors = (if a.raw || a.silent then 0 else 1) ∧
        r.value = .null ∧ r.parent.lookup key = some v) ∧
      (¬ EmptyAbort a (parent.lookup key) → (test v).valid = true → ¬ Expected a.validValues (transformed (test v) v) →
        (ttJoin a (transformed (test v) v) = false → ttRun test a parent key = none) ∧
        (ttJoin a (transformed (test v) v) = true → ∃ r, ttRun test a parent key = some r ∧ r.raised = a.abort ∧ r.errors = (if a.raw || a.silent then 0 else 1) ∧
          r.value = transformed (test v) v ∧ r.parent.lookup key = some (transformed (test v) v))) ∧
      ∀ r, ttRun test a parent key = some r → ∀ j, j ≠ key → r.parent.lookup j = parent.lookup j := by
  obtain ⟨g1, g2, g3, g4, g5⟩ := ttGet_spec a parent key
  generalize hg : ttGet a parent key = g at *
  cases hw : valueToTest a (parent.lookup key) with
  | none =>
    simp only
    refine ⟨g, ?_, by rw [g3, hw], by rw [g4, hw]; rfl, g2, g1, g5⟩
    unfold ttRun
    simp only [hg]
    rw [if_pos (by simp [g3, hw])]
  | some v =>
    simp only
    have hl : g.parent.lookup key = some v := by rw [g3, hw]
    have hgv : g.value = v := by rw [g4, hw]; rfl
    have hrun : g.raised = true → ttRun test a parent key = some g := by
      intro h
      unfold ttRun
      simp only [hg]
      rw [if_pos (by simp [h])]
    have hrun2 : g.raised = false → ttRun test a parent key =
        (if (ttPost a (test v) g.parent key v).raised || !(test v).valid then some (ttPost a (test v) g.parent key v) else ttCheck a (ttPost a (test v) g.parent key v)) := by
      intro h
      unfold ttRun
      simp only [hg]
      rw [if_neg (by simp [h, hl]), hgv]
    obtain ⟨p1, p2, p3⟩ := ttPost_spec a (test v) g.parent key v hl
    have hnr : ¬ EmptyAbort a (parent.lookup key) → g.raised = false := by
      intro h
      cases hr : g.raised with
      | false => rfl
      | true => exact absurd (g1.1 hr) h
    refine ⟨?_, ?_, ?_, ?_, ?_⟩
    · intro h
      exact ⟨g, hrun (g1.2 h), g1.2 h⟩
    · intro h ha
      obtain ⟨q1, q2, q3, q4⟩ := p1 ha.1
      refine ⟨_, ?_, q1, q2, q3, q4⟩
      rw [hrun2 (hnr h), if_neg (by simp [q1, ha.1])]
      unfold ttCheck
      rw [q3, if_pos ((ttAllowed_iff a _).2 ha.2)]
    · intro h hv
      obtain ⟨q1, q2, q3, q4⟩ := p2 hv
      refine ⟨_, ?_, q1, q2, q3, q4⟩
      rw [hrun2 (hnr h), if_pos (by simp [hv])]
    · intro h hv he
      obtain ⟨q1, q2, q3, q4⟩ := p1 hv
      have hr : ttRun test a parent key = ttCheck a (ttPost a (test v) g.parent key v) := by
        rw [hrun2 (hnr h), if_neg (by simp [q1, hv])]
      have hna : ¬ (a.validValues.isEmpty || ttAllowed a.validValues (transformed (test v) v)) = true := by
        rw [ttAllowed_iff]; exact he
      constructor
      · intro hj
        rw [hr]
        unfold ttCheck
        rw [q3, if_neg hna, if_neg (by rw [hj]; simp)]
      · intro hj
        refine ⟨{ ttPost a (test v) g.parent key v with errors := (ttPost a (test v) g.parent key v).errors + (if a.raw || a.silent then 0 else 1), raised := a.abort }, ?_, rfl, ?_, q3, q4⟩
        · rw [hr]
          unfold ttCheck
          rw [if_neg (by rw [q3]; exact hna), if_pos (by rw [q3]; exact hj)]
        · simp [q2]
    · intro r hr j hj
      cases hgr : g.raised with
      | true =>
        rw [hrun hgr] at hr
        simp only [Option.some.injEq] at hr
        rw [← hr, g5 j hj]
      | false =>
        rw [hrun2 hgr] at hr
        have : r.parent = (ttPost a (test v) g.parent key v).parent := by
          split at hr
          · simp only [Option.some.injEq] at hr; rw [← hr]
          · unfold ttCheck at hr
            split at hr
            · simp only [Option.some.injEq] at hr; rw [← hr]
            · split at hr
              · simp only [Option.some.injEq] at hr; rw [← hr]
              · simp at hr
        rw [this, p3 j hj, g5 j hj]

/-- **C103**: a type test changes only the tested setting. -/
theorem C103_other_settings (test : Val → TtStatus) (a : TtArgs) (parent : List (String × Val)) (key : String) (r : TtRes) (h : ttRun test a parent key = some r) (j : String)
    (hj : j ≠ key) : r.parent.lookup j = parent.lookup j := by
  have := ttRun_spec test a parent key
  split at this
  · obtain ⟨r', h1, _, _, _, _, h2⟩ := this
    rw [h1] at h
    simp only [Option.some.injEq] at h
    rw [← h]
    exact h2 j hj
  · exact this.2.2.2.2 r h j hj

/-- **C103**: when the value (after replacing missing and Boolean values) is accepted, the setting is the transformed value, and that's the value returned to the caller.
When there's nothing to test, the setting is missing. -/
theorem C103_accepted (test : Val → TtStatus) (a : TtArgs) (parent : List (String × Val)) (key : String) (he : ¬ EmptyAbort a (parent.lookup key)) :
    (∀ v, valueToTest a (parent.lookup key) = some v → Accepted test a v →
      ∃ r, ttRun test a parent key = some r ∧ r.raised = false ∧ r.errors = 0 ∧ r.value = transformed (test v) v ∧ r.parent.lookup key = some (transformed (test v) v)) ∧
    (valueToTest a (parent.lookup key) = none →
      ∃ r, ttRun test a parent key = some r ∧ r.raised = false ∧ r.errors = 0 ∧ r.value = .null ∧ r.parent.lookup key = none) := by
  have := ttRun_spec test a parent key
  constructor
  · intro v hv ha
    rw [hv] at this
    exact this.2.1 he ha
  · intro hv
    rw [hv] at this
    obtain ⟨r, h1, h2, h3, h4, h5, _⟩ := this
    refine ⟨r, h1, ?_, h4, h3, h2⟩
    cases hr : r.raised with
    | false => rfl
    | true => exact absurd (h5.1 hr) he

/-- **C103**: a test without an error means that there's nothing to test or that the value was accepted; with an error the setting keeps the value (after the transformation when
only the expected values don't match). -/
theorem C103_errors (test : Val → TtStatus) (a : TtArgs) (hrs : (a.raw || a.silent) = false) (parent : List (String × Val)) (key : String) (r : TtRes) (h : ttRun test a parent key = some r)
    (he : ¬ EmptyAbort a (parent.lookup key)) :
    (r.errors = 0 ↔ ∀ v, valueToTest a (parent.lookup key) = some v → Accepted test a v) ∧
    (∀ v, valueToTest a (parent.lookup key) = some v → (test v).valid = false → r.value = .null ∧ r.parent.lookup key = some v) ∧
    (r.raised = true ↔ a.abort = true ∧ r.errors ≠ 0) := by
  have := ttRun_spec test a parent key
  cases hw : valueToTest a (parent.lookup key) with
  | none =>
    rw [hw] at this
    obtain ⟨r', h1, h2, h3, h4, h5, _⟩ := this
    rw [h1] at h
    simp only [Option.some.injEq] at h
    subst h
    refine ⟨by simp [h4], by simp, ?_⟩
    rw [h5, h4]
    simp [he]
  | some v =>
    rw [hw] at this
    obtain ⟨_, t2, t3, t4, _⟩ := this
    by_cases hv : (test v).valid = true
    · by_cases hx : Expected a.validValues (transformed (test v) v)
      · obtain ⟨r', h1, h2, h3, _⟩ := t2 he ⟨hv, hx⟩
        rw [h1] at h
        simp only [Option.some.injEq] at h
        subst h
        refine ⟨?_, ?_, ?_⟩
        · rw [h3]; simp only [true_iff]; intro w hw'; simp only [Option.some.injEq] at hw'; subst hw'; exact ⟨hv, hx⟩
        · intro w hw' hf; simp only [Option.some.injEq] at hw'; subst hw'; rw [hv] at hf; simp at hf
        · rw [h2, h3]; simp
      · obtain ⟨u1, u2⟩ := t4 he hv hx
        cases hj : ttJoin a (transformed (test v) v) with
        | false => rw [u1 hj] at h; simp at h
        | true =>
          obtain ⟨r', h1, h2, h3, _⟩ := u2 hj
          rw [h1] at h
          simp only [Option.some.injEq] at h
          subst h
          rw [hrs] at h3
          simp only [Bool.false_eq_true, if_false] at h3
          refine ⟨?_, ?_, ?_⟩
          · rw [h3]; simp only [Nat.succ_ne_zero, false_iff]; intro hall; exact hx (hall v rfl).2
          · intro w hw' hf; simp only [Option.some.injEq] at hw'; subst hw'; rw [hv] at hf; simp at hf
          · rw [h2, h3]; simp
    · have hv' : (test v).valid = false := by simpa using hv
      obtain ⟨r', h1, h2, h3, h4, h5⟩ := t3 he hv'
      rw [h1] at h
      simp only [Option.some.injEq] at h
      subst h
      rw [hrs] at h3
      simp only [Bool.false_eq_true, if_false] at h3
      refine ⟨?_, ?_, ?_⟩
      · rw [h3]; simp only [Nat.succ_ne_zero, false_iff]; intro hall; exact hv (hall v rfl).1
      · intro w hw' _; simp only [Option.some.injEq] at hw'; subst hw'; exact ⟨h4, h5⟩
      · rw [h2, h3]; simp

/-- **C103**: silent tests and tests returning raw status never report errors. -/
theorem C103_silent (test : Val → TtStatus) (a : TtArgs) (hrs : (a.raw || a.silent) = true) (parent : List (String × Val)) (key : String) (r : TtRes) (h : ttRun test a parent key = some r) :
    r.errors = 0 := by
  unfold ttRun at h
  simp only at h
  split at h
  · simp only [Option.some.injEq] at h
    rw [← h]
    exact (ttGet_spec a parent key).2.1
  · have hp : (ttPost a (test (ttGet a parent key).value) (ttGet a parent key).parent key (ttGet a parent key).value).errors = 0 := by
      unfold ttPost
      split
      · split <;> rfl
      · simp [hrs]
    split at h
    · simp only [Option.some.injEq] at h; rw [← h]; exact hp
    · unfold ttCheck at h
      split at h
      · simp only [Option.some.injEq] at h; rw [← h]; exact hp
      · split at h
        · simp only [Option.some.injEq] at h; rw [← h]; simp [hp]
        · simp at h

/-- **C103**: testing an accepted setting again does not change it (for validators that accept transformed values without transforming them again). -/
theorem C103_stable (test : Val → TtStatus) (a : TtArgs) (parent : List (String × Val)) (key : String) (he : ¬ EmptyAbort a (parent.lookup key)) (v : Val)
    (hv : valueToTest a (parent.lookup key) = some v) (ha : Accepted test a v)
    (ht : (test (transformed (test v) v)).valid = true ∧ transformed (test (transformed (test v) v)) (transformed (test v) v) = transformed (test v) v)
    (hb : transformed (test v) v ≠ .null ∧ (a.trueValue = none ∨ ∀ b, transformed (test v) v ≠ .bool b)) (r : TtRes) (h : ttRun test a parent key = some r) :
    ∃ r', ttRun test a r.parent key = some r' ∧ r'.errors = 0 ∧ r'.value = r.value ∧ ∀ j, r'.parent.lookup j = r.parent.lookup j := by
  obtain ⟨r0, h1, h2, h3, h4, h5⟩ := (C103_accepted test a parent key he).1 v hv ha
  rw [h1] at h
  simp only [Option.some.injEq] at h
  subst h
  have hx := ha.2
  generalize transformed (test v) v = w at *
  have hw : valueToTest a (r0.parent.lookup key) = some w := by
    rw [h5]
    have h6 : boolReplacement a w = some w := by
      unfold boolReplacement
      rcases hb.2 with hb | hb
      · rw [hb]; cases w with
        | bool b => cases b <;> rfl
        | _ => rfl
      · cases w with
        | bool b => exact absurd rfl (hb b)
        | _ => cases a.trueValue <;> rfl
    unfold valueToTest
    cases w with
    | null => exact absurd rfl hb.1
    | _ => exact h6
  have hne : ¬ EmptyAbort a (r0.parent.lookup key) := by
    rw [h5]
    rintro ⟨h | h, _⟩
    · simp at h
    · simp only [Option.some.injEq] at h; exact hb.1 h
  obtain ⟨r', g1, g2, g3, g4, g5⟩ := (C103_accepted test a r0.parent key hne).1 w hw ⟨ht.1, by rw [ht.2]; exact hx⟩
  refine ⟨r', g1, g3, by rw [g4, ht.2, h4], ?_⟩
  intro j
  by_cases hj : j = key
  · subst hj; rw [g5, ht.2, h5]
  · exact C103_other_settings test a r0.parent key r' g1 j hj

/-- **C103**: a setting that must be a list is a list after a test without errors; scalars become lists with one element, and Boolean false, or a missing value, becomes an empty list. -/
theorem C103_list (a : TtArgs) (hrs : (a.raw || a.silent) = false) (hf : a.falseValue = some (.list [])) (hm : a.emptyValue = some (.list [])) (hc : a.createEmpty ≠ some false)
    (parent : List (String × Val)) (key : String) (r : TtRes) (h : ttRun ttList a parent key = some r) (he : r.errors = 0) :
    ∃ l, r.value = .list l ∧ r.parent.lookup key = some (.list l) := by
  have hne : ¬ EmptyAbort a (parent.lookup key) := fun hx => hc hx.2.2.1
  have h1 := (C103_errors ttList a hrs parent key r h hne).1.1 he
  have hb : ∀ v, ∃ w, boolReplacement a v = some w := by
    intro v
    unfold boolReplacement
    split
    · exact ⟨_, rfl⟩
    · exact ⟨_, hf⟩
    · exact ⟨_, rfl⟩
  obtain ⟨v, hv⟩ : ∃ v, valueToTest a (parent.lookup key) = some v := by
    unfold valueToTest
    split
    · rw [if_neg hc]; exact hb _
    · rw [if_neg hc]; exact hb _
    · rename_i hx; rw [hm] at hx; simp at hx
    · exact ⟨_, rfl⟩
    · exact hb _
  have ha := h1 v hv
  obtain ⟨r', g1, _, _, g4, g5⟩ := (C103_accepted ttList a parent key hne).1 v hv ha
  rw [h] at g1
  simp only [Option.some.injEq] at g1
  subst g1
  have hl : ∃ l, transformed (ttList v) v = .list l := by
    have := ha.1
    cases v <;> simp [ttList, transformed] at this ⊢
  obtain ⟨l, hl⟩ := hl
  exact ⟨l, by rw [g4, hl], by rw [g5, hl]⟩

example : ttRun ttList { falseValue := some (.list []), emptyValue := some (.list []), validValues := [.str "a", .str "b"] } [("x", .int 1), ("y", .str "a")] "y" =
    some { parent := [("x", .int 1), ("y", .list [.str "a"])], value := .list [.str "a"] } := by
  rfl

/-- **C103** (defect): a list with an unexpected value that is not a string crashes instead of reporting an error, and so does every unexpected value when the expected values
are not strings. -/
theorem C103_crash :
    ttRun ttList { validValues := [.str "a"] } [("y", .list [.int 1])] "y" = none ∧
    ttRun (fun _ => { valid := true }) { validValues := [.int 1, .int 2] } [("y", .int 3)] "y" = none := by
  constructor
  · rfl
  · rfl

/-- **C103** (defect): an unexpected value is returned to the caller as if it were valid. -/
theorem C103_unexpected_value :
    ttRun ttStr { validValues := [.str "a"] } [("y", .str "b")] "y" = some { parent := [("y", .str "b")], value := .str "b", errors := 1 } := by
  rfl

end Netlab
