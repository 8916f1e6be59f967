import Verif.Spec.RoutePolicy
import Verif.Props.RoutingObjects
import Verif.Lemmas.Box
/-!
# C79: routing policies on nodes
-/

namespace Netlab
open Spec

/-! ## Normalization -/

theorem policyShortcut_spec (kws : List String) (st : List (String × RmVal) × Option RmSub) :
    (policyShortcut kws st = none ↔ NoPlace kws st.1 st.2) ∧
    ∀ r, policyShortcut kws st = some r →
      (∀ k, r.1.lookup k = if k ∈ kws then none else st.1.lookup k) ∧
      (∀ k, SubVal r.2 k = ShortcutVal kws st.1 st.2 k) ∧ (st.2 = some .other → r.2 = some .other) ∧ (r.2 = some .other → st.2 = some .other) := by
  induction kws generalizing st with
  | nil =>
    refine ⟨by simp [policyShortcut, NoPlace], fun r h => ?_⟩
    simp only [policyShortcut, List.foldlM_nil] at h
    cases h
    exact ⟨fun k => by simp, fun k => by simp [ShortcutVal], fun h => h, fun h => h⟩
  | cons a kws ih =>
    obtain ⟨top, sub⟩ := st
    have hu : policyShortcut (a :: kws) (top, sub) = (shortcutStep (top, sub) a).bind (policyShortcut kws) := by
      simp only [policyShortcut, List.foldlM_cons, Option.bind_eq_bind]
      rfl
    rw [hu]
    cases hl : top.lookup a with
    | none =>
      have hs : shortcutStep (top, sub) a = some (top, sub) := by simp [shortcutStep, hl]
      rw [hs, Option.bind_some]
      obtain ⟨i1, i2⟩ := ih (top, sub)
      refine ⟨?_, fun r h => ?_⟩
      · rw [i1]
        simp only [NoPlace, List.mem_cons]
        constructor
        · rintro ⟨h1, k, hk, h2⟩; exact ⟨h1, k, Or.inr hk, h2⟩
        · rintro ⟨h1, k, rfl | hk, h2⟩
          · exact absurd hl h2
          · exact ⟨h1, k, hk, h2⟩
      · obtain ⟨j1, j2, j3⟩ := i2 r h
        refine ⟨fun k => ?_, fun k => ?_, j3⟩
        · rw [j1]
          by_cases hk : k = a
          · subst hk; simp [hl]
          · simp [hk]
        · rw [j2]
          unfold ShortcutVal
          by_cases hk : k = a
          · subst hk; simp [hl]
          · simp [hk]
    | some v =>
      have hgen : ∀ d', shortcutStep (top, sub) a = some (popKey top a, some (.dict d')) → sub ≠ some .other →
          (∀ k, d'.lookup k = if k = a then some v else SubVal sub k) →
          (((shortcutStep (top, sub) a).bind (policyShortcut kws) = none ↔ NoPlace (a :: kws) top sub) ∧
            ∀ r, (shortcutStep (top, sub) a).bind (policyShortcut kws) = some r →
              (∀ k, r.1.lookup k = if k ∈ a :: kws then none else top.lookup k) ∧
              (∀ k, SubVal r.2 k = ShortcutVal (a :: kws) top sub k) ∧ (sub = some .other → r.2 = some .other) ∧ (r.2 = some .other → sub = some .other)) := by
        intro d' hs hne hd
        rw [hs, Option.bind_some]
        obtain ⟨i1, i2⟩ := ih (popKey top a, some (.dict d'))
        refine ⟨?_, fun r h => ?_⟩
        · rw [i1]
          simp only [NoPlace]
          constructor
          · rintro ⟨h1, _⟩; cases h1
          · rintro ⟨h1, _⟩; exact absurd h1 hne
        · obtain ⟨j1, j2, j3, j4⟩ := i2 r h
          refine ⟨fun k => ?_, fun k => ?_, fun h => absurd h hne, fun h => nomatch j4 h⟩
          · rw [j1]
            simp only [lookup_popKey]
            by_cases hk : k = a
            · simp [hk]
            · simp [hk]
          · rw [j2]
            unfold ShortcutVal
            simp only [lookup_popKey, SubVal, hd]
            by_cases hk : k = a
            · subst hk
              simp [hl]
            · simp [hk]
      cases hsub : sub with
      | none =>
        rw [hsub] at hgen
        refine hgen [(a, v)] (by simp [shortcutStep, hl]) (by simp) (fun k => ?_)
        by_cases hk : k = a
        · subst hk; simp
        · rw [if_neg hk, lookup_cons_ne _ _ hk]; rfl
      | some x =>
        cases x with
        | dict d =>
          rw [hsub] at hgen
          exact hgen (setKey d a v) (by simp [shortcutStep, hl]) (by simp) (fun k => by rw [lookup_setKey]; rfl)
        | other =>
          have hs : shortcutStep (top, some .other) a = none := by simp [shortcutStep, hl]
          rw [hs]
          refine ⟨⟨fun _ => ⟨rfl, a, by simp, by simp [hl]⟩, fun _ => rfl⟩, fun r h => nomatch h⟩

theorem fixPrepend_spec (s : Option RmSub) (k : String) : SubVal (fixPrepend s) k = PrependPath k (SubVal s k) := by
  cases s with
  | none => simp [fixPrepend, SubVal, PrependPath]
  | some x =>
    cases x with
    | other => simp [fixPrepend, SubVal, PrependPath]
    | dict d =>
      unfold fixPrepend PrependPath
      by_cases hk : k = "prepend"
      · subst hk
        cases hl : d.lookup "prepend" with
        | none => simp [SubVal, hl]
        | some v => cases v <;> simp [SubVal, hl, lookup_setKey]
      · cases hl : d.lookup "prepend" with
        | none => simp [SubVal, hk, hl]
        | some v => cases v <;> simp [SubVal, lookup_setKey, hk, hl]

theorem entryDefaults_spec (top : List (String × RmVal)) (idx : Nat) (k : String) :
    (entryDefaults top idx).lookup k =
      if k = "action" then some ((top.lookup "action").getD (.text "permit"))
      else if k = "sequence" then some ((top.lookup "sequence").getD (.num (10 * (idx + 1)))) else top.lookup k := by
  have hne : ("sequence" : String) ≠ "action" := by decide
  have h10 : ((idx : Int) + 1) * 10 = 10 * ((idx : Int) + 1) := by omega
  unfold entryDefaults
  cases ha : top.lookup "action" with
  | none =>
    simp only [Option.isSome_none, Bool.false_eq_true, if_false, lookup_setKey, hne]
    cases hs : top.lookup "sequence" with
    | none =>
      simp only [Option.isSome_none, Bool.false_eq_true, if_false, lookup_setKey, h10]
      by_cases h1 : k = "action"
      · subst h1; simp
      · simp [h1]
    | some v =>
      simp only [Option.isSome_some, if_true, lookup_setKey]
      by_cases h1 : k = "action"
      · subst h1; simp
      · by_cases h2 : k = "sequence"
        · subst h2; simp [hs]
        · simp [h1, h2]
  | some w =>
    simp only [Option.isSome_some, if_true]
    cases hs : top.lookup "sequence" with
    | none =>
      simp only [Option.isSome_none, Bool.false_eq_true, if_false, lookup_setKey, h10]
      by_cases h1 : k = "action"
      · subst h1; simp [ha]
      · simp [h1]
    | some v =>
      simp only [Option.isSome_some, if_true]
      by_cases h1 : k = "action"
      · subst h1; simp [ha]
      · by_cases h2 : k = "sequence"
        · subst h2; simp [hs]
        · simp [h1, h2]

/-- **C79** (normalization): a normalized policy entry has no shortcuts: their values are in `set` and `match`, everything else is
the same, and the defaults of action and sequence number are set. -/
theorem C79_normalized (setKw matchKw : List String) (e e' : RmEntry) (idx : Nat)
    (hk : ∀ k ∈ setKw ++ matchKw, k ≠ "action" ∧ k ≠ "sequence") (hd : ∀ k ∈ setKw, k ∉ matchKw)
    (h : normalizePolicy setKw matchKw e idx = some e') : NormalizedEntry setKw matchKw idx e e' := by
  unfold normalizePolicy at h
  simp only [Option.bind_eq_bind, Option.bind_eq_some_iff, Option.pure_def, Option.some.injEq] at h
  obtain ⟨a, ha, b, hb, rfl⟩ := h
  obtain ⟨a1, a2, -⟩ := (policyShortcut_spec setKw (e.top, e.set)).2 a ha
  obtain ⟨b1, b2, -⟩ := (policyShortcut_spec matchKw (a.1, e.mtch)).2 b hb
  have hact : "action" ∉ setKw ++ matchKw := fun h => (hk _ h).1 rfl
  have hseq : "sequence" ∉ setKw ++ matchKw := fun h => (hk _ h).2 rfl
  have hlk : ∀ k, b.1.lookup k = if k ∈ setKw ++ matchKw then none else e.top.lookup k := by
    intro k
    rw [b1, a1]
    by_cases h1 : k ∈ matchKw <;> by_cases h2 : k ∈ setKw <;> simp [h1, h2]
  refine ⟨fun k hm => ?_, fun k => ?_, fun k => ?_, ?_, ?_, fun k h1 h2 h3 => ?_⟩
  · simp only
    rw [entryDefaults_spec, if_neg (hk k hm).1, if_neg (hk k hm).2, hlk, if_pos hm]
  · simp only
    rw [fixPrepend_spec, a2]
  · simp only
    rw [b2]
    unfold ShortcutVal
    by_cases h1 : k ∈ matchKw
    · have h2 : k ∉ setKw := fun h => hd k h h1
      simp only [h1, if_true, a1, h2, if_false]
    · simp only [h1, if_false]
  · simp only
    rw [entryDefaults_spec, if_pos rfl, hlk, if_neg hact]
  · simp only
    rw [entryDefaults_spec, if_neg (by decide), if_pos rfl, hlk, if_neg hseq]
  · simp only
    rw [entryDefaults_spec, if_neg h2, if_neg h3, hlk, if_neg h1]

/-- **C79** (normalization, crash): normalization fails exactly when a shortcut is used in an entry with `set` or `match` that is not
a dictionary. -/
theorem C79_normalization_fails_iff (setKw matchKw : List String) (e : RmEntry) (idx : Nat) (hd : ∀ k ∈ setKw, k ∉ matchKw) :
    normalizePolicy setKw matchKw e idx = none ↔ NoPlace setKw e.top e.set ∨ NoPlace matchKw e.top e.mtch := by
  unfold normalizePolicy
  obtain ⟨h1, h2⟩ := policyShortcut_spec setKw (e.top, e.set)
  simp only at h1 h2
  rw [← h1]
  cases ha : policyShortcut setKw (e.top, e.set) with
  | none => simp
  | some a =>
    obtain ⟨a1, -⟩ := h2 a ha
    obtain ⟨b1, -⟩ := policyShortcut_spec matchKw (a.1, e.mtch)
    have hiff : NoPlace matchKw a.1 e.mtch ↔ NoPlace matchKw e.top e.mtch := by
      unfold NoPlace
      constructor
      · rintro ⟨x, k, hk, h⟩
        refine ⟨x, k, hk, fun h0 => h ?_⟩
        rw [a1, h0]; simp
      · rintro ⟨x, k, hk, h⟩
        refine ⟨x, k, hk, ?_⟩
        rw [a1, if_neg (fun hs => hd k hs hk)]
        exact h
    simp only at b1
    rw [hiff] at b1
    simp only [Option.bind_eq_bind, Option.bind_some, reduceCtorEq, false_or]
    rw [← b1]
    cases policyShortcut matchKw (a.1, e.mtch) <;> simp

/-- The shortcuts (`netsim/modules/routing.yml:70-72`) -/
def demoSetKw : List String := ["locpref", "med", "weight", "prepend"]

/-- The shortcuts (`netsim/modules/routing.yml:70-72`) -/
def demoMatchKw : List String := ["prefix", "nexthop", "aspath"]

example : normalizePolicy demoSetKw demoMatchKw
      { top := [("locpref", .num 200), ("prefix", .text "pf"), ("prepend", .num 65000)], set := some (.dict [("med", .num 5), ("locpref", .num 1)]) } 1 =
    some { top := [("action", .text "permit"), ("sequence", .num 20)]
           set := some (.dict [("med", .num 5), ("locpref", .num 200), ("prepend", .dict [("path", "65000")])])
           mtch := some (.dict [("prefix", .text "pf")]) } := by decide +kernel

example : (∀ k ∈ demoSetKw ++ demoMatchKw, k ≠ "action" ∧ k ≠ "sequence") ∧ ∀ k ∈ demoSetKw, k ∉ demoMatchKw := by decide

/-- **C79** (defect): an entry with an empty `set` and a shortcut (the usual mistake in indentation) crashes the program. -/
theorem C79_empty_set_crashes : normalizePolicy demoSetKw demoMatchKw { top := [("locpref", .num 200)], set := some .other } 0 = none := by
  decide +kernel

/-! ## Device support -/

theorem rp_sum_zero {β : Type} (f : β → Nat) (l : List β) : (l.map f).sum = 0 ↔ ∀ x ∈ l, f x = 0 := by
  induction l with
  | nil => simp
  | cons a r ih => simp [ih]

theorem kwErrors_iff (f : RmFeat) (kw : String) (v : RmVal) : kwErrors f kw v = 0 ↔ KwOk f kw v := by
  unfold kwErrors KwOk
  cases f with
  | list l =>
    simp only [kwSupported, RmFeat.list.injEq, reduceCtorEq, false_and, exists_false, or_false, exists_eq_left']
    by_cases h : kw ∈ l
    · simp [h]
    · simp [h]
  | dict d =>
    simp only [reduceCtorEq, false_and, exists_false, false_or, RmFeat.dict.injEq, exists_eq_left']
    cases hl : d.lookup kw with
    | none =>
      have hk : kwSupported kw (.dict d) = false := by simp [kwSupported, hl]
      simp [hk]
    | some x =>
      cases x with
      | flag b =>
        have hk : kwSupported kw (.dict d) = b := by simp [kwSupported, hl]
        cases b <;> cases v <;> simp [hk, hl]
      | opts o =>
        have hk : kwSupported kw (.dict d) = !o.isEmpty := by simp [kwSupported, hl]
        rw [hk]
        cases o with
        | nil => simp
        | cons y r =>
          cases v with
          | text s => simp
          | num n => simp
          | other => simp
          | dict s =>
            simp only [List.isEmpty_cons, Bool.not_false, Bool.not_true, Bool.false_eq_true, if_false, Option.some.injEq, reduceCtorEq,
              false_or, RmKw.opts.injEq, exists_eq_left', ne_eq, not_false_eq_true, true_and,
              RmVal.dict.injEq, forall_eq', hl, List.length_eq_zero_iff, List.filter_eq_nil_iff]
            apply forall_congr'
            intro z
            apply imp_congr_right
            intro _
            cases h : List.lookup z.1 (y :: r) with
            | none => simp
            | some b => cases b <;> simp

/-- **C79** (device support): a routing policy is accepted on a device exactly when the device supports routing policies and all
`set` and `match` keywords, including their options, of every entry. -/
theorem C79_device_support_iff (f : Option RmFeatures) (l : List (RpEntry RmBody)) : policyErrors f l = 0 ↔ PolicyOk f l := by
  unfold policyErrors PolicyOk
  cases f with
  | none => simp
  | some g =>
    simp only [Option.some.injEq, exists_eq_left']
    rw [rp_sum_zero]
    apply forall_congr'
    intro e
    apply imp_congr_right
    intro _
    rw [Nat.add_eq_zero_iff, rp_sum_zero, rp_sum_zero]
    simp only [kwErrors_iff]

example : PolicyOk (some { set := .dict [("locpref", .flag true), ("prepend", .opts [("path", true)])], mtch := .list ["prefix"] })
    [⟨10, { set := [("locpref", .num 5), ("prepend", .dict [("path", "65000")])], mtch := [("prefix", "pf")] }⟩] := by
  rw [← C79_device_support_iff]; decide +kernel

/-! ## Values of filters -/

/-- The way a filter used in a policy is imported -/
def refImport {α : Type} (t : RFilt) (node : Option (RObj α)) (topo : Option (List (RpEntry α))) : ImportRes α × Option (RObj α) :=
  if t = .community then importCommunity node topo else importObject node topo

/-- A community list gets global entries -/
def Clash {α : Type} (t : RFilt) (node : Option (List (RpEntry α))) (topo : Option (List (RpEntry α))) : Prop :=
  t = .community ∧ ∃ e ∈ topo.getD [], ∀ m ∈ node.getD [], m.sequence ≠ e.sequence

theorem importObject_none {α : Type} (topo : Option (List (RpEntry α))) :
    importObject none topo = match topo with | none => (.missing, none) | some t => (.imported t, some (.list t)) := by
  cases topo <;> rfl

theorem import_unchanged {α : Type} (node : Option (List (RpEntry α))) (topo : Option (List (RpEntry α))) (hd : node ≠ none ∨ topo ≠ none) :
    ∃ r, (importObject (node.map .list) topo).2 = some (.list r) ∧ Merges node topo r ∧
      importObject (some (.list r)) topo = (.unchanged, some (.list r)) ∧
      ((importObject (node.map .list) topo).1 = .imported r ∨ ((importObject (node.map .list) topo).1 = .unchanged ∧ node = some r)) ∧
      (r = [] ∨ (importObject (node.map .list) topo).1 = .unchanged ∨ ∃ e ∈ topo.getD [], ∀ m ∈ node.getD [], m.sequence ≠ e.sequence) := by
  obtain ⟨r, h1, h2⟩ := C25_import_object node topo (by rintro ⟨rfl, rfl⟩; rcases hd with h | h <;> exact h rfl)
  refine ⟨r, h1, ⟨hd, fun e => ?_⟩, ?_, ?_, ?_⟩
  · rw [h2]; exact Iff.rfl
  · cases topo with
    | none => rfl
    | some tp => exact C25_import_idempotent node tp r h1
  · cases node with
    | none =>
      cases topo with
      | none => rcases hd with h | h <;> exact absurd rfl h
      | some t => cases h1; exact Or.inl rfl
    | some np =>
      cases topo with
      | none => cases h1; exact Or.inr ⟨rfl, rfl⟩
      | some tp =>
        simp only [Option.map_some, importObject] at h1 ⊢
        cases hm : mergeEntries np tp with
        | none => rw [hm] at h1; cases h1; exact Or.inr ⟨rfl, rfl⟩
        | some x => rw [hm] at h1; cases h1; exact Or.inl rfl
  · cases node with
    | none =>
      cases topo with
      | none => rcases hd with h | h <;> exact absurd rfl h
      | some t =>
        cases h1
        cases r with
        | nil => exact Or.inl rfl
        | cons a l => exact Or.inr (Or.inr ⟨a, by simp, by simp⟩)
    | some np =>
      cases topo with
      | none => exact Or.inr (Or.inl rfl)
      | some tp =>
        simp only [Option.map_some, importObject] at h1 ⊢
        cases hm : mergeEntries np tp with
        | none => exact Or.inr (Or.inl rfl)
        | some x =>
          right; right
          have hne : ¬ ∀ e ∈ tp, ∃ n ∈ np, n.sequence = e.sequence := by
            rw [← C25_merge_nothing, hm]; simp
          simp only [Classical.not_forall] at hne
          obtain ⟨e, he, h⟩ := hne
          exact ⟨e, he, fun m hm hs => h ⟨m, hm, hs⟩⟩

/-- The value of a filter after it was imported because a policy uses it -/
theorem refImport_first {α : Type} (t : RFilt) (node : Option (List (RpEntry α))) (topo : Option (List (RpEntry α))) (hd : node ≠ none ∨ topo ≠ none) :
    (∃ r, Merges node topo r ∧ (refImport t (node.map .list) topo).1 ≠ .crash ∧ (refImport t (node.map .list) topo).1 ≠ .missing ∧
      ((refImport t (node.map .list) topo).1 = .unchanged → node = some r) ∧
      (¬ Clash t node topo → (refImport t (node.map .list) topo).2 = some (.list r) ∧
        refImport t (some (.list r)) topo = (.unchanged, some (.list r)) ∧ importObject (some (.list r)) topo = (.unchanged, some (.list r))) ∧
      (Clash t node topo → (refImport t (node.map .list) topo).2 = some (.expanded r) ∧ (∃ l, (refImport t (node.map .list) topo).1 = .imported l) ∧
        topo ≠ none)) := by
  obtain ⟨r, h1, h2, h3, h4, h5⟩ := import_unchanged node topo hd
  refine ⟨r, h2, ?_⟩
  by_cases ht : t = .community
  · have href : ∀ x, refImport t x topo = importCommunity x topo := fun x => by simp [refImport, ht]
    simp only [href]
    have hun : importCommunity (some (.list r)) topo = (.unchanged, some (.list r)) := by
      unfold importCommunity; rw [h3]
    rcases h4 with h4 | ⟨h4, h6⟩
    · have himp : importObject (node.map .list) topo = (.imported r, some (.list r)) := by rw [← h1, ← h4]
      cases hr : r with
      | nil =>
        rw [hr] at himp
        have hc : importCommunity (node.map .list) topo = (.imported [], some (.list [])) := by
          unfold importCommunity; rw [himp]; rfl
        rw [hc]
        refine ⟨by simp, by simp, by simp, fun _ => ⟨rfl, by rw [← hr]; exact hun, by rw [← hr]; exact h3⟩, fun hcl => ?_⟩
        exfalso
        obtain ⟨-, e, he, hm⟩ := hcl
        have := (h2.2 e).mpr (Or.inr ⟨he, hm⟩)
        rw [hr] at this
        cases this
      | cons a l =>
        rw [hr] at himp
        have hc : importCommunity (node.map .list) topo = (.imported (a :: l), some (.expanded (a :: l))) := by
          unfold importCommunity; rw [himp]; rfl
        rw [hc]
        have hcl : Clash t node topo := by
          refine ⟨ht, ?_⟩
          rcases h5 with h5 | h5 | h5
          · rw [hr] at h5; cases h5
          · rw [himp] at h5; cases h5
          · exact h5
        refine ⟨by simp, by simp, by simp, fun h => absurd hcl h, fun _ => ⟨rfl, ⟨_, rfl⟩, ?_⟩⟩
        rintro rfl
        obtain ⟨-, e, he, -⟩ := hcl
        cases he
    · have hun0 : importObject (node.map .list) topo = (.unchanged, some (.list r)) := by rw [← h1, ← h4]
      have hc : importCommunity (node.map .list) topo = (.unchanged, some (.list r)) := by
        unfold importCommunity; rw [hun0]
      rw [hc]
      refine ⟨by simp, by simp, fun _ => h6, fun _ => ⟨rfl, hun, h3⟩, fun hcl => ?_⟩
      exfalso
      obtain ⟨-, e, he, hm⟩ := hcl
      have : e ∈ node.getD [] := by
        rw [h6]
        exact (h2.2 e).mpr (Or.inr ⟨he, hm⟩)
      exact hm e this rfl
  · have href : ∀ x, refImport t x topo = importObject x topo := fun x => by simp [refImport, ht]
    simp only [href]
    refine ⟨?_, ?_, ?_, fun _ => ⟨h1, h3, h3⟩, fun hcl => absurd hcl.1 ht⟩
    · rcases h4 with h4 | ⟨h4, _⟩ <;> rw [h4] <;> simp
    · rcases h4 with h4 | ⟨h4, _⟩ <;> rw [h4] <;> simp
    · intro h
      rcases h4 with h4 | ⟨_, h6⟩
      · rw [h4] at h; cases h
      · exact h6

/-! ## Filters of a node while policies are processed -/

/-- The value of a filter -/
def fVal {α : Type} (st : RpState α) (t : RFilt) (n : String) : Option (RObj α) := ((st.filts.get t).lookup n).join

/-- The node has an object, or at least a null value, with this name -/
def FKey {α : Type} (st : RpState α) (t : RFilt) (n : String) : Prop := n ∈ (st.filts.get t).map (·.1)

/-- The filter is defined on the node or globally -/
def FDef {α : Type} (env : RpEnv α) (st : RpState α) (t : RFilt) (n : String) : Prop := NodeFilter st t n ≠ none ∨ env.filters t n ≠ none

/-- No community list is expanded before policies are processed. -/
def Unexpanded {α : Type} (st : RpState α) : Prop := ∀ t n l, fVal st t n ≠ some (.expanded l)

theorem fVal_orig {α : Type} {st : RpState α} (h : Unexpanded st) (t : RFilt) (n : String) : fVal st t n = (NodeFilter st t n).map .list := by
  have := h t n
  unfold NodeFilter
  unfold fVal at this ⊢
  cases hx : ((st.filts.get t).lookup n).join with
  | none => rfl
  | some o =>
    cases o with
    | list l => rfl
    | expanded l => exact absurd hx (this l)

theorem RpTables.get_set {α : Type} (x : RpTables α) (t t' : RFilt) (n m : String) (v : Option (RObj α)) :
    ((x.set t n v).get t').lookup m = if t' = t ∧ m = n then some v else (x.get t').lookup m := by
  cases t <;> cases t' <;> simp [RpTables.set, RpTables.get, lookup_setKey]

theorem RpTables.keys_set {α : Type} (x : RpTables α) (t t' : RFilt) (n m : String) (v : Option (RObj α)) :
    m ∈ ((x.set t n v).get t').map (·.1) ↔ (t' = t ∧ m = n) ∨ m ∈ (x.get t').map (·.1) := by
  have hk : ∀ d : List (String × Option (RObj α)), m ∈ (setKey d n v).map (·.1) ↔ m = n ∨ m ∈ d.map (·.1) := by
    intro d
    rw [keys_setKey]
    by_cases hn : n ∈ d.map (·.1)
    · rw [if_pos hn]
      constructor
      · exact Or.inr
      · rintro (rfl | h)
        · exact hn
        · exact h
    · rw [if_neg hn, List.mem_append, List.mem_singleton]
      exact Or.comm
  cases t <;> cases t' <;> simp only [RpTables.set, RpTables.get, hk] <;> simp

theorem fKey_of_val {α : Type} {st : RpState α} {t : RFilt} {n : String} (h : fVal st t n ≠ none) : FKey st t n := by
  unfold FKey
  unfold fVal at h
  cases hx : (st.filts.get t).lookup n with
  | none => rw [hx] at h; exact absurd rfl h
  | some v => exact List.mem_map.mpr ⟨(n, v), mem_of_lookup hx, rfl⟩

/-- The value of a filter used in a policy -/
def sVal {α : Type} (env : RpEnv α) (st0 : RpState α) (t : RFilt) (n : String) : Option (RObj α) :=
  (refImport t (fVal st0 t n) (env.filters t n)).2

/-- The filter was imported because a policy uses it. -/
def Settled {α : Type} (env : RpEnv α) (st0 st : RpState α) (t : RFilt) (n : String) : Prop :=
  FDef env st0 t n ∧ fVal st t n = sVal env st0 t n

/-- Filters are either unchanged or imported. -/
def FInv {α : Type} (env : RpEnv α) (st0 st : RpState α) : Prop := ∀ t n, fVal st t n = fVal st0 t n ∨ Settled env st0 st t n

theorem importFilter_eq {α : Type} (env : RpEnv α) (st : RpState α) (t : RFilt) (n : String) :
    importFilter env st (t, n) = match refImport t (fVal st t n) (env.filters t n) with
      | (.crash, _) => none
      | (.missing, _) => some { st with errors := st.errors + 1 }
      | (.unchanged, _) => some st
      | (.imported r, o) => some { st with filts := st.filts.set t n o, errors := st.errors + if r.isEmpty || env.objOk t then 0 else 1 } := rfl

theorem importFilter_spec {α : Type} (env : RpEnv α) (st0 st : RpState α) (h0 : Unexpanded st0) (hi : FInv env st0 st) (t : RFilt) (n : String) :
    (∀ st', importFilter env st (t, n) = some st' → FInv env st0 st' ∧ st'.pols = st.pols ∧ st.errors ≤ st'.errors ∧
      (st'.errors = st.errors → Settled env st0 st' t n) ∧ (∀ u m, Settled env st0 st u m → Settled env st0 st' u m) ∧
      (∀ u m, FKey st' u m → FKey st u m ∨ (u = t ∧ m = n))) ∧
    (FDef env st0 t n → ¬ Clash t (NodeFilter st0 t n) (env.filters t n) → env.objOk t = true →
      ∃ st', importFilter env st (t, n) = some st' ∧ st'.errors = st.errors) := by
  rw [importFilter_eq]
  by_cases hd : FDef env st0 t n
  · obtain ⟨r, r1, r2, r3, r4, r5, r6⟩ := refImport_first t (NodeFilter st0 t n) (env.filters t n) hd
    rw [← fVal_orig h0] at r2 r3 r4 r5 r6
    by_cases hs : fVal st t n = sVal env st0 t n
    · -- imported before
      by_cases hc : Clash t (NodeFilter st0 t n) (env.filters t n)
      · obtain ⟨c1, -, c3⟩ := r6 hc
        have hv : fVal st t n = some (.expanded r) := by rw [hs]; exact c1
        have hcr : refImport t (some (.expanded r)) (env.filters t n) = (.crash, some (.expanded r)) := by
          unfold refImport
          rw [if_pos hc.1]
          unfold importCommunity
          cases hg : env.filters t n with
          | none => exact absurd hg c3
          | some tp => rfl
        rw [hv, hcr]
        exact ⟨fun st' h => (nomatch h), fun _ h => absurd hc h⟩
      · obtain ⟨c1, c2, -⟩ := r5 hc
        have hv : fVal st t n = some (.list r) := by rw [hs]; exact c1
        rw [hv, c2]
        refine ⟨fun st' h => ?_, fun _ _ _ => ⟨st, rfl, rfl⟩⟩
        cases h
        exact ⟨hi, rfl, Nat.le_refl _, fun _ => ⟨hd, hs⟩, fun _ _ h => h, fun _ _ h => Or.inl h⟩
    · have hv : fVal st t n = fVal st0 t n := by
        rcases hi t n with h | h
        · exact h
        · exact absurd h.2 hs
      rw [hv]
      have hsv : sVal env st0 t n = (refImport t (fVal st0 t n) (env.filters t n)).2 := rfl
      generalize hR : refImport t (fVal st0 t n) (env.filters t n) = R at r2 r3 r4 r5 r6 hsv
      obtain ⟨a, o⟩ := R
      cases a with
      | crash => exact absurd rfl r2
      | missing => exact absurd rfl r3
      | unchanged =>
        exfalso
        have horig := r4 rfl
        by_cases hc : Clash t (NodeFilter st0 t n) (env.filters t n)
        · obtain ⟨-, ⟨l, hl⟩, -⟩ := r6 hc
          cases hl
        · apply hs
          rw [hv, hsv, fVal_orig h0, horig, (r5 hc).1]
          rfl
      | imported l =>
        have hset : ∀ u m, fVal { st with filts := st.filts.set t n o, errors := st.errors + if l.isEmpty || env.objOk t then 0 else 1 } u m =
            if u = t ∧ m = n then o else fVal st u m := by
          intro u m
          unfold fVal
          simp only [RpTables.get_set]
          by_cases h : u = t ∧ m = n
          · rw [if_pos h, if_pos h]; rfl
          · rw [if_neg h, if_neg h]
        refine ⟨fun st' h => ?_, fun _ _ ho => ⟨_, rfl, by simp [ho]⟩⟩
        simp only [Option.some.injEq] at h
        subst h
        refine ⟨fun u m => ?_, rfl, by simp, fun _ => ⟨hd, ?_⟩, fun u m hum => ⟨hum.1, ?_⟩, fun u m hk => ?_⟩
        · by_cases h : u = t ∧ m = n
          · obtain ⟨rfl, rfl⟩ := h
            right
            exact ⟨hd, by rw [hset, if_pos ⟨rfl, rfl⟩, hsv]⟩
          · unfold Settled
            rw [hset, if_neg h]
            exact hi u m
        · rw [hset, if_pos ⟨rfl, rfl⟩, hsv]
        · rw [hset]
          by_cases h : u = t ∧ m = n
          · obtain ⟨rfl, rfl⟩ := h
            rw [if_pos ⟨rfl, rfl⟩, hsv]
          · rw [if_neg h]; exact hum.2
        · unfold FKey at hk ⊢
          simp only [RpTables.keys_set] at hk
          exact hk.symm
  · have hnone : NodeFilter st0 t n = none ∧ env.filters t n = none := by
      unfold FDef at hd
      constructor
      · exact Classical.byContradiction fun h => hd (Or.inl h)
      · exact Classical.byContradiction fun h => hd (Or.inr h)
    have hv : fVal st t n = none := by
      rcases hi t n with h | h
      · rw [h, fVal_orig h0, hnone.1]; rfl
      · exact absurd h.1 hd
    have hm : refImport t none (env.filters t n) = (ImportRes.missing, none) := by
      rw [hnone.2]
      unfold refImport
      by_cases ht : t = .community
      · rw [if_pos ht]; rfl
      · rw [if_neg ht]; rfl
    rw [hv, hm]
    refine ⟨fun st' h => ?_, fun h => absurd h hd⟩
    simp only [Option.some.injEq] at h
    subst h
    exact ⟨hi, rfl, Nat.le_succ _, fun h => absurd h (Nat.succ_ne_self _), fun _ _ h => h, fun _ _ h => Or.inl h⟩

theorem importFilters_spec {α : Type} (env : RpEnv α) (st0 st : RpState α) (h0 : Unexpanded st0) (hi : FInv env st0 st) (l : List (RFilt × String)) :
    (∀ st', l.foldlM (importFilter env) st = some st' → FInv env st0 st' ∧ st'.pols = st.pols ∧ st.errors ≤ st'.errors ∧
      (st'.errors = st.errors → ∀ x ∈ l, Settled env st0 st' x.1 x.2) ∧ (∀ u m, Settled env st0 st u m → Settled env st0 st' u m) ∧
      (∀ u m, FKey st' u m → FKey st u m ∨ (u, m) ∈ l)) ∧
    ((∀ x ∈ l, FDef env st0 x.1 x.2 ∧ ¬ Clash x.1 (NodeFilter st0 x.1 x.2) (env.filters x.1 x.2) ∧ env.objOk x.1 = true) →
      ∃ st', l.foldlM (importFilter env) st = some st' ∧ st'.errors = st.errors) := by
  induction l generalizing st with
  | nil =>
    refine ⟨fun st' h => ?_, fun _ => ⟨st, rfl, rfl⟩⟩
    cases h
    exact ⟨hi, rfl, Nat.le_refl _, fun _ _ h => (nomatch h), fun _ _ h => h, fun _ _ h => Or.inl h⟩
  | cons x r ih =>
    obtain ⟨t, n⟩ := x
    obtain ⟨s1, s2⟩ := importFilter_spec env st0 st h0 hi t n
    have hu : ((t, n) :: r).foldlM (importFilter env) st = (importFilter env st (t, n)).bind (fun s => r.foldlM (importFilter env) s) := by
      rw [List.foldlM_cons]; rfl
    rw [hu]
    refine ⟨fun st' h => ?_, fun hall => ?_⟩
    · obtain ⟨m, hm, h⟩ := Option.bind_eq_some_iff.mp h
      obtain ⟨a1, a2, a3, a4, a5, a6⟩ := s1 m hm
      obtain ⟨b1, b2, b3, b4, b5, b6⟩ := (ih m a1).1 st' h
      refine ⟨b1, b2.trans a2, Nat.le_trans a3 b3, fun he => ?_, fun u v huv => b5 u v (a5 u v huv), fun u v hk => ?_⟩
      · intro y hy
        rcases List.mem_cons.mp hy with rfl | hy
        · exact b5 _ _ (a4 (by omega))
        · exact b4 (by omega) y hy
      · rcases b6 u v hk with h | h
        · rcases a6 u v h with h | ⟨rfl, rfl⟩
          · exact Or.inl h
          · exact Or.inr (by simp)
        · exact Or.inr (List.mem_cons_of_mem _ h)
    · obtain ⟨d1, d2, d3⟩ := hall (t, n) (by simp)
      obtain ⟨m, hm, he⟩ := s2 d1 d2 d3
      obtain ⟨st', h, he'⟩ := (ih m (s1 m hm).1).2 (fun y hy => hall y (by simp [hy]))
      exact ⟨st', by rw [hm]; exact h, by omega⟩

/-! ## Policies -/

/-- The policy is defined on the node or globally. -/
def PDef {α : Type} (env : RpEnv α) (st : RpState α) (n : String) : Prop := NodePolicy st n ≠ none ∨ env.policies n ≠ none

/-- Entries of the policy after the import -/
def pVal {α : Type} (env : RpEnv α) (st0 : RpState α) (n : String) : List (RpEntry RmBody) :=
  (((importObject ((NodePolicy st0 n).map .list) (env.policies n)).2).map RObj.entries).getD []

theorem pVal_spec {α : Type} (env : RpEnv α) (st0 : RpState α) (n : String) (hd : PDef env st0 n) :
    (importObject ((NodePolicy st0 n).map .list) (env.policies n)).2 = some (.list (pVal env st0 n)) ∧
    Merges (NodePolicy st0 n) (env.policies n) (pVal env st0 n) ∧
    importObject (some (.list (pVal env st0 n))) (env.policies n) = (.unchanged, some (.list (pVal env st0 n))) ∧
    ((importObject ((NodePolicy st0 n).map .list) (env.policies n)).1 = .imported (pVal env st0 n) ∨
      ((importObject ((NodePolicy st0 n).map .list) (env.policies n)).1 = .unchanged ∧ NodePolicy st0 n = some (pVal env st0 n))) := by
  obtain ⟨r, h1, h2, h3, h4, -⟩ := import_unchanged (NodePolicy st0 n) (env.policies n) hd
  have : pVal env st0 n = r := by unfold pVal; rw [h1]; rfl
  rw [this]
  exact ⟨h1, h2, h3, h4⟩

/-- Policies are either unchanged or imported. -/
def PInv {α : Type} (env : RpEnv α) (st0 st : RpState α) : Prop :=
  ∀ n, NodePolicy st n = NodePolicy st0 n ∨ (PDef env st0 n ∧ NodePolicy st n = some (pVal env st0 n))

/-- What is checked for a policy -/
def PolReq {α : Type} (env : RpEnv α) (st0 : RpState α) (n : String) : Prop :=
  PDef env st0 n ∧ policyErrors env.feat (pVal env st0 n) = 0 ∧
  ∀ x ∈ (pVal env st0 n).flatMap entryFilters, FDef env st0 x.1 x.2 ∧ ¬ Clash x.1 (NodeFilter st0 x.1 x.2) (env.filters x.1 x.2) ∧ env.objOk x.1 = true

theorem nodePolicy_set {α : Type} (st : RpState α) (n m : String) (r : List (RpEntry RmBody)) :
    NodePolicy { st with pols := setKey st.pols n (some r) } m = if m = n then some r else NodePolicy st m := by
  unfold NodePolicy
  simp only [lookup_setKey]
  by_cases h : m = n
  · rw [if_pos h, if_pos h]; rfl
  · rw [if_neg h, if_neg h]

theorem checkRelated_spec {α : Type} (env : RpEnv α) (st0 st : RpState α) (h0 : Unexpanded st0) (hi : FInv env st0 st) (r : List (RpEntry RmBody)) :
    (∀ st', checkRelated env r st = some st' → FInv env st0 st' ∧ st'.pols = st.pols ∧ st.errors ≤ st'.errors ∧
      (st'.errors = st.errors → policyErrors env.feat r = 0 ∧ ∀ x ∈ r.flatMap entryFilters, Settled env st0 st' x.1 x.2) ∧
      (∀ u m, Settled env st0 st u m → Settled env st0 st' u m) ∧
      (∀ u m, FKey st' u m → FKey st u m ∨ (u, m) ∈ r.flatMap entryFilters)) ∧
    (policyErrors env.feat r = 0 → (∀ x ∈ r.flatMap entryFilters, FDef env st0 x.1 x.2 ∧ ¬ Clash x.1 (NodeFilter st0 x.1 x.2) (env.filters x.1 x.2) ∧ env.objOk x.1 = true) →
      ∃ st', checkRelated env r st = some st' ∧ st'.errors = st.errors) := by
  unfold checkRelated importFilters
  obtain ⟨s1, s2⟩ := importFilters_spec env st0 { st with errors := st.errors + policyErrors env.feat r } h0 hi (r.flatMap entryFilters)
  refine ⟨fun st' h => ?_, fun hz hall => ?_⟩
  · obtain ⟨a1, a2, a3, a4, a5, a6⟩ := s1 st' h
    simp only at a2 a3 a4
    refine ⟨a1, a2, by omega, fun he => ?_, a5, a6⟩
    exact ⟨by omega, a4 (by omega)⟩
  · obtain ⟨st', h, he⟩ := s2 hall
    exact ⟨st', h, by rw [he]; simp [hz]⟩

theorem processPolicy_spec {α : Type} (env : RpEnv α) (st0 st : RpState α) (h0 : Unexpanded st0) (hi : FInv env st0 st) (hp : PInv env st0 st) (n : String) :
    (∀ st', processPolicy env st n = some st' → FInv env st0 st' ∧ PInv env st0 st' ∧ st.errors ≤ st'.errors ∧ PDef env st0 n ∧
      NodePolicy st' n = some (pVal env st0 n) ∧ (∀ m, PDef env st0 m → NodePolicy st m = some (pVal env st0 m) → NodePolicy st' m = some (pVal env st0 m)) ∧
      (st'.errors = st.errors → policyErrors env.feat (pVal env st0 n) = 0 ∧ ∀ x ∈ (pVal env st0 n).flatMap entryFilters, Settled env st0 st' x.1 x.2) ∧
      (∀ u m, Settled env st0 st u m → Settled env st0 st' u m) ∧
      (∀ u m, FKey st' u m → FKey st u m ∨ (u, m) ∈ (pVal env st0 n).flatMap entryFilters)) ∧
    (PolReq env st0 n → ∃ st', processPolicy env st n = some st' ∧ st'.errors = st.errors) := by
  have hpe : processPolicy env st n = match importObject ((NodePolicy st n).map .list) (env.policies n) with
      | (.imported r, _) => (importFilters env r { st with pols := setKey st.pols n (some r) }).bind (checkRelated env r)
      | (.unchanged, some o) => checkRelated env o.entries st
      | _ => none := rfl
  rw [hpe]
  by_cases hd : PDef env st0 n
  · obtain ⟨p1, p2, p3, p4⟩ := pVal_spec env st0 n hd
    have hcase : (NodePolicy st n = some (pVal env st0 n) ∧ importObject ((NodePolicy st n).map .list) (env.policies n) = (.unchanged, some (.list (pVal env st0 n)))) ∨
        importObject ((NodePolicy st n).map .list) (env.policies n) = (.imported (pVal env st0 n), some (.list (pVal env st0 n))) := by
      rcases hp n with h | ⟨-, h⟩
      · rw [h]
        rcases p4 with p4 | ⟨p4, p5⟩
        · right; rw [← p1, ← p4]
        · left; exact ⟨p5, by rw [← p1, ← p4]⟩
      · left; rw [h]; exact ⟨rfl, p3⟩
    generalize hv : pVal env st0 n = r at *
    rcases hcase with ⟨hn, hc⟩ | hc
    · rw [hc]
      simp only [RObj.entries]
      obtain ⟨s1, s2⟩ := checkRelated_spec env st0 st h0 hi r
      refine ⟨fun st' h => ?_, fun hq => ?_⟩
      · obtain ⟨a1, a2, a3, a4, a5, a6⟩ := s1 st' h
        have hnp : ∀ m, NodePolicy st' m = NodePolicy st m := fun m => by unfold NodePolicy; rw [a2]
        refine ⟨a1, fun m => by rw [hnp]; exact hp m, a3, hd, by rw [hnp]; exact hn, fun m _ hm => by rw [hnp]; exact hm, a4, a5, a6⟩
      · obtain ⟨-, q2, q3⟩ := hq
        rw [hv] at q2 q3
        exact s2 q2 q3
    · rw [hc]
      simp only
      have hi' : FInv env st0 { st with pols := setKey st.pols n (some r) } := hi
      obtain ⟨s1, s2⟩ := importFilters_spec env st0 { st with pols := setKey st.pols n (some r) } h0 hi' (r.flatMap entryFilters)
      refine ⟨fun st' h => ?_, fun hq => ?_⟩
      · obtain ⟨m, hm, h⟩ := Option.bind_eq_some_iff.mp h
        obtain ⟨a1, a2, a3, a4, a5, a6⟩ := s1 m hm
        obtain ⟨b1, b2, b3, b4, b5, b6⟩ := (checkRelated_spec env st0 m h0 a1 r).1 st' h
        simp only at a3 a4
        have hnp : ∀ x, NodePolicy st' x = if x = n then some r else NodePolicy st x := by
          intro x
          rw [← nodePolicy_set]
          unfold NodePolicy
          rw [b2, a2]
        refine ⟨b1, fun x => ?_, by omega, hd, by rw [hnp, if_pos rfl], fun x _ hx => ?_, fun he => b4 (by omega), fun u y huy => b5 u y (a5 u y huy), fun u y hk => ?_⟩
        · rw [hnp]
          by_cases hx : x = n
          · subst hx
            rw [if_pos rfl]
            right; exact ⟨hd, by rw [hv]⟩
          · rw [if_neg hx]; exact hp x
        · rw [hnp]
          by_cases he : x = n
          · subst he
            rw [if_pos rfl, hv]
          · rw [if_neg he]; exact hx
        · rcases b6 u y hk with h | h
          · exact a6 u y h
          · exact Or.inr h
      · obtain ⟨-, q2, q3⟩ := hq
        rw [hv] at q2 q3
        obtain ⟨m, hm, he⟩ := s2 q3
        obtain ⟨st', h, he'⟩ := (checkRelated_spec env st0 m h0 (s1 m hm).1 r).2 q2 q3
        refine ⟨st', ?_, he'.trans he⟩
        have hm' : importFilters env r { st with pols := setKey st.pols n (some r) } = some m := hm
        rw [hm']
        exact h
  · have hnone : NodePolicy st0 n = none ∧ env.policies n = none := by
      unfold PDef at hd
      constructor
      · exact Classical.byContradiction fun h => hd (Or.inl h)
      · exact Classical.byContradiction fun h => hd (Or.inr h)
    have hn : NodePolicy st n = none := by
      rcases hp n with h | h
      · rw [h, hnone.1]
      · exact absurd h.1 hd
    rw [hn, hnone.2]
    exact ⟨fun st' h => (nomatch h), fun h => absurd h.1 hd⟩

theorem processPolicies_spec {α : Type} (env : RpEnv α) (st0 st : RpState α) (h0 : Unexpanded st0) (hi : FInv env st0 st) (hp : PInv env st0 st) (l : List String) :
    (∀ st', l.foldlM (processPolicy env) st = some st' → FInv env st0 st' ∧ PInv env st0 st' ∧ st.errors ≤ st'.errors ∧ (∀ n ∈ l, PDef env st0 n) ∧
      (∀ n ∈ l, NodePolicy st' n = some (pVal env st0 n)) ∧ (∀ m, PDef env st0 m → NodePolicy st m = some (pVal env st0 m) → NodePolicy st' m = some (pVal env st0 m)) ∧
      (st'.errors = st.errors → ∀ n ∈ l, policyErrors env.feat (pVal env st0 n) = 0 ∧ ∀ x ∈ (pVal env st0 n).flatMap entryFilters, Settled env st0 st' x.1 x.2) ∧
      (∀ u m, Settled env st0 st u m → Settled env st0 st' u m) ∧
      (∀ u m, FKey st' u m → FKey st u m ∨ ∃ n ∈ l, (u, m) ∈ (pVal env st0 n).flatMap entryFilters)) ∧
    ((∀ n ∈ l, PolReq env st0 n) → ∃ st', l.foldlM (processPolicy env) st = some st' ∧ st'.errors = st.errors) := by
  induction l generalizing st with
  | nil =>
    refine ⟨fun st' h => ?_, fun _ => ⟨st, rfl, rfl⟩⟩
    cases h
    exact ⟨hi, hp, Nat.le_refl _, fun _ h => (nomatch h), fun _ h => (nomatch h), fun _ _ h => h, fun _ _ h => (nomatch h), fun _ _ h => h, fun _ _ h => Or.inl h⟩
  | cons n r ih =>
    obtain ⟨s1, s2⟩ := processPolicy_spec env st0 st h0 hi hp n
    have hu : (n :: r).foldlM (processPolicy env) st = (processPolicy env st n).bind (fun s => r.foldlM (processPolicy env) s) := by
      rw [List.foldlM_cons]; rfl
    rw [hu]
    refine ⟨fun st' h => ?_, fun hall => ?_⟩
    · obtain ⟨m, hm, h⟩ := Option.bind_eq_some_iff.mp h
      obtain ⟨a1, a2, a3, a4, a5, a6, a7, a8, a9⟩ := s1 m hm
      obtain ⟨b1, b2, b3, b4, b5, b6, b7, b8, b9⟩ := (ih m a1 a2).1 st' h
      refine ⟨b1, b2, by omega, fun x hx => ?_, fun x hx => ?_, fun x hx h => b6 x hx (a6 x hx h), fun he x hx => ?_, fun u y h => b8 u y (a8 u y h), fun u y hk => ?_⟩
      · rcases List.mem_cons.mp hx with rfl | hx
        · exact a4
        · exact b4 x hx
      · rcases List.mem_cons.mp hx with rfl | hx
        · exact b6 _ a4 a5
        · exact b5 x hx
      · rcases List.mem_cons.mp hx with rfl | hx
        · obtain ⟨c1, c2⟩ := a7 (by omega)
          exact ⟨c1, fun y hy => b8 _ _ (c2 y hy)⟩
        · exact b7 (by omega) x hx
      · rcases b9 u y hk with h | ⟨x, hx, h⟩
        · rcases a9 u y h with h | h
          · exact Or.inl h
          · exact Or.inr ⟨n, by simp, h⟩
        · exact Or.inr ⟨x, by simp [hx], h⟩
    · obtain ⟨m, hm, he⟩ := s2 (hall n (by simp))
      obtain ⟨a1, a2, -⟩ := s1 m hm
      obtain ⟨st', h, he'⟩ := (ih m a1 a2).2 (fun y hy => hall y (by simp [hy]))
      exact ⟨st', by rw [hm]; exact h, by omega⟩

/-! ## Filters -/

/-- Entries of the filter after the import -/
def eVal {α : Type} (env : RpEnv α) (st0 : RpState α) (t : RFilt) (n : String) : List (RpEntry α) :=
  (((importObject (fVal st0 t n) (env.filters t n)).2).map RObj.entries).getD []

theorem eVal_spec {α : Type} (env : RpEnv α) (st0 : RpState α) (h0 : Unexpanded st0) (t : RFilt) (n : String) (hd : FDef env st0 t n) :
    (importObject (fVal st0 t n) (env.filters t n)).2 = some (.list (eVal env st0 t n)) ∧
    Merges (NodeFilter st0 t n) (env.filters t n) (eVal env st0 t n) ∧
    importObject (some (.list (eVal env st0 t n))) (env.filters t n) = (.unchanged, some (.list (eVal env st0 t n))) ∧
    ((importObject (fVal st0 t n) (env.filters t n)).1 = .imported (eVal env st0 t n) ∨
      ((importObject (fVal st0 t n) (env.filters t n)).1 = .unchanged ∧ fVal st0 t n = some (.list (eVal env st0 t n)))) := by
  obtain ⟨r, h1, h2, h3, h4, -⟩ := import_unchanged (NodeFilter st0 t n) (env.filters t n) hd
  rw [← fVal_orig h0] at h1 h4
  have : eVal env st0 t n = r := by unfold eVal; rw [h1]; rfl
  rw [this]
  refine ⟨h1, h2, h3, ?_⟩
  rcases h4 with h4 | ⟨h4, h5⟩
  · exact Or.inl h4
  · exact Or.inr ⟨h4, by rw [fVal_orig h0, h5]; rfl⟩

theorem sVal_spec {α : Type} (env : RpEnv α) (st0 : RpState α) (h0 : Unexpanded st0) (t : RFilt) (n : String) (hd : FDef env st0 t n) :
    (¬ Clash t (NodeFilter st0 t n) (env.filters t n) → sVal env st0 t n = some (.list (eVal env st0 t n))) ∧
    (Clash t (NodeFilter st0 t n) (env.filters t n) → (∃ l, sVal env st0 t n = some (.expanded l)) ∧ env.filters t n ≠ none) := by
  obtain ⟨r, -, -, -, -, r5, r6⟩ := refImport_first t (NodeFilter st0 t n) (env.filters t n) hd
  rw [← fVal_orig h0] at r5 r6
  refine ⟨fun hc => ?_, fun hc => ⟨⟨r, (r6 hc).1⟩, (r6 hc).2.2⟩⟩
  obtain ⟨e1, -⟩ := eVal_spec env st0 h0 t n hd
  have heq : (refImport t (fVal st0 t n) (env.filters t n)).2 = (importObject (fVal st0 t n) (env.filters t n)).2 := by
    have h1 := (r5 hc).1
    rw [h1]
    unfold refImport at h1
    by_cases ht : t = .community
    · rw [if_pos ht] at h1
      unfold importCommunity at h1
      generalize hR : importObject (fVal st0 t n) (env.filters t n) = R at h1
      obtain ⟨a, o⟩ := R
      cases a with
      | imported l =>
        simp only at h1
        rw [hR] at e1
        simp only at e1
        have hol : o = some (.list l) := by
          obtain ⟨-, -, -, e4⟩ := eVal_spec env st0 h0 t n hd
          rw [hR] at e4
          rcases e4 with e4 | ⟨e4, -⟩
          · cases e4; exact e1
          · cases e4
        by_cases hl : l.isEmpty = true
        · rw [if_pos hl] at h1
          simp only at h1
          simp only
          rw [hol, ← h1]
        · rw [if_neg hl] at h1; cases h1
      | missing => exact h1.symm
      | unchanged => exact h1.symm
      | crash => exact h1.symm
    · rw [if_neg ht] at h1; exact h1.symm
  rw [← e1, ← heq]
  rfl

/-- Filters are unchanged, imported because of a policy, or imported for themselves. -/
def FInv2 {α : Type} (env : RpEnv α) (st0 st : RpState α) : Prop :=
  ∀ t n, fVal st t n = fVal st0 t n ∨ Settled env st0 st t n ∨ (FDef env st0 t n ∧ fVal st t n = some (.list (eVal env st0 t n)))

theorem processFilter_spec {α : Type} (env : RpEnv α) (st0 st : RpState α) (h0 : Unexpanded st0) (hi : FInv2 env st0 st) (t : RFilt) (n : String)
    (hk : FKey st t n) :
    (∀ st', processFilter env t st n = some st' → FInv2 env st0 st' ∧ st'.pols = st.pols ∧ st.errors ≤ st'.errors ∧
      (st'.errors = st.errors → FDef env st0 t n ∧ env.objOk t = true ∧ fVal st' t n = some (.list (eVal env st0 t n)) ∧ ∀ l, fVal st t n ≠ some (.expanded l)) ∧
      (∀ u m, ¬ (u = t ∧ m = n) → fVal st' u m = fVal st u m) ∧ (∀ u m, FKey st' u m ↔ FKey st u m) ∧ (∀ u, u ≠ t → st'.filts.get u = st.filts.get u)) ∧
    (FDef env st0 t n → env.objOk t = true → (∀ l, fVal st t n ≠ some (.expanded l)) → ∃ st', processFilter env t st n = some st' ∧ st'.errors = st.errors) := by
  have hpe : processFilter env t st n = match importObject (fVal st t n) (env.filters t n) with
      | (.crash, _) => none
      | (.missing, _) => some { st with errors := st.errors + (if env.objOk t then 0 else 1) + 1 }
      | (.unchanged, _) => some { st with errors := st.errors + if env.objOk t then 0 else 1 }
      | (.imported _, o) => some { st with errors := st.errors + (if env.objOk t then 0 else 1), filts := st.filts.set t n o } := rfl
  rw [hpe]
  have hok : (st.errors + if env.objOk t then 0 else 1) = st.errors ↔ env.objOk t = true := by
    cases env.objOk t <;> simp
  by_cases hd : FDef env st0 t n
  · obtain ⟨e1, e2, e3, e4⟩ := eVal_spec env st0 h0 t n hd
    obtain ⟨v1, v2⟩ := sVal_spec env st0 h0 t n hd
    have hcase : (∃ l, fVal st t n = some (.expanded l) ∧ importObject (fVal st t n) (env.filters t n) = (.crash, some (.expanded l))) ∨
        ((∀ l, fVal st t n ≠ some (.expanded l)) ∧ fVal st t n = some (.list (eVal env st0 t n)) ∧
          importObject (fVal st t n) (env.filters t n) = (.unchanged, some (.list (eVal env st0 t n)))) ∨
        ((∀ l, fVal st t n ≠ some (.expanded l)) ∧
          importObject (fVal st t n) (env.filters t n) = (.imported (eVal env st0 t n), some (.list (eVal env st0 t n)))) := by
      rcases hi t n with h | ⟨-, h⟩ | ⟨-, h⟩
      · right
        rw [h]
        rcases e4 with e4 | ⟨e4, e5⟩
        · right; exact ⟨fun l => h0 t n l, by rw [← e1, ← e4]⟩
        · left; exact ⟨fun l => h0 t n l, e5, by rw [← e1, ← e4]⟩
      · by_cases hc : Clash t (NodeFilter st0 t n) (env.filters t n)
        · left
          obtain ⟨⟨l, hl⟩, hg⟩ := v2 hc
          refine ⟨l, by rw [h, hl], ?_⟩
          rw [h, hl]
          cases hx : env.filters t n with
          | none => exact absurd hx hg
          | some tp => rfl
        · right; left
          rw [h, v1 hc]
          exact ⟨fun l hl => (nomatch hl), rfl, e3⟩
      · right; left
        rw [h]
        exact ⟨fun l hl => (nomatch hl), rfl, e3⟩
    rcases hcase with ⟨l, hl, hc⟩ | ⟨hne, hl, hc⟩ | ⟨hne, hc⟩
    · rw [hc]
      exact ⟨fun st' h => (nomatch h), fun _ _ h => absurd hl (h l)⟩
    · rw [hc]
      simp only
      refine ⟨fun st' h => ?_, fun _ ho _ => ⟨_, rfl, hok.mpr ho⟩⟩
      simp only [Option.some.injEq] at h
      subst h
      exact ⟨hi, rfl, by simp, fun he => ⟨hd, hok.mp he, hl, hne⟩, fun _ _ _ => rfl, fun _ _ => Iff.rfl, fun _ _ => rfl⟩
    · rw [hc]
      simp only
      have hset : ∀ u m, fVal { st with errors := st.errors + (if env.objOk t then 0 else 1), filts := st.filts.set t n (some (.list (eVal env st0 t n))) } u m =
          if u = t ∧ m = n then some (.list (eVal env st0 t n)) else fVal st u m := by
        intro u m
        unfold fVal
        simp only [RpTables.get_set]
        by_cases h : u = t ∧ m = n
        · rw [if_pos h, if_pos h]; rfl
        · rw [if_neg h, if_neg h]
      refine ⟨fun st' h => ?_, fun _ ho _ => ⟨_, rfl, hok.mpr ho⟩⟩
      simp only [Option.some.injEq] at h
      subst h
      refine ⟨fun u m => ?_, rfl, by simp, fun he => ⟨hd, hok.mp he, by rw [hset, if_pos ⟨rfl, rfl⟩], hne⟩, fun u m h => by rw [hset, if_neg h], fun u m => ?_, fun u hu => ?_⟩
      · by_cases h : u = t ∧ m = n
        · obtain ⟨rfl, rfl⟩ := h
          right; right
          exact ⟨hd, by rw [hset, if_pos ⟨rfl, rfl⟩]⟩
        · unfold Settled
          rw [hset, if_neg h]
          exact hi u m
      · unfold FKey at hk ⊢
        simp only [RpTables.keys_set]
        constructor
        · rintro (⟨rfl, rfl⟩ | h)
          · exact hk
          · exact h
        · exact Or.inr
      · cases t <;> cases u <;> first | rfl | exact absurd rfl hu
  · have hnone : NodeFilter st0 t n = none ∧ env.filters t n = none := by
      unfold FDef at hd
      constructor
      · exact Classical.byContradiction fun h => hd (Or.inl h)
      · exact Classical.byContradiction fun h => hd (Or.inr h)
    have hv : fVal st t n = none := by
      rcases hi t n with h | h | h
      · rw [h, fVal_orig h0, hnone.1]; rfl
      · exact absurd h.1 hd
      · exact absurd h.1 hd
    rw [hv, hnone.2]
    simp only [importObject]
    refine ⟨fun st' h => ?_, fun h => absurd h hd⟩
    simp only [Option.some.injEq] at h
    subst h
    exact ⟨hi, rfl, by simp only; omega, fun h => by simp only at h; omega, fun _ _ _ => rfl, fun _ _ => Iff.rfl, fun _ _ => rfl⟩

theorem processFilterList_spec {α : Type} (env : RpEnv α) (st0 st : RpState α) (h0 : Unexpanded st0) (hi : FInv2 env st0 st) (t : RFilt) (l : List String)
    (hk : ∀ n ∈ l, FKey st t n) :
    (∀ st', l.foldlM (processFilter env t) st = some st' → FInv2 env st0 st' ∧ st'.pols = st.pols ∧ st.errors ≤ st'.errors ∧
      (st'.errors = st.errors → (∀ n ∈ l, FDef env st0 t n ∧ env.objOk t = true ∧ fVal st' t n = some (.list (eVal env st0 t n)) ∧ ∀ l, fVal st t n ≠ some (.expanded l)) ∧
        ∀ n, fVal st t n = some (.list (eVal env st0 t n)) → fVal st' t n = some (.list (eVal env st0 t n))) ∧
      (∀ u m, FKey st' u m ↔ FKey st u m) ∧ (∀ u, u ≠ t → st'.filts.get u = st.filts.get u)) ∧
    ((∀ n ∈ l, FDef env st0 t n ∧ env.objOk t = true ∧ ∀ l, fVal st t n ≠ some (.expanded l)) →
      ∃ st', l.foldlM (processFilter env t) st = some st' ∧ st'.errors = st.errors) := by
  induction l generalizing st with
  | nil =>
    refine ⟨fun st' h => ?_, fun _ => ⟨st, rfl, rfl⟩⟩
    cases h
    exact ⟨hi, rfl, Nat.le_refl _, fun _ => ⟨fun _ h => (nomatch h), fun _ h => h⟩, fun _ _ => Iff.rfl, fun _ _ => rfl⟩
  | cons n r ih =>
    obtain ⟨s1, s2⟩ := processFilter_spec env st0 st h0 hi t n (hk n (by simp))
    have hu : (n :: r).foldlM (processFilter env t) st = (processFilter env t st n).bind (fun s => r.foldlM (processFilter env t) s) := by
      rw [List.foldlM_cons]; rfl
    rw [hu]
    refine ⟨fun st' h => ?_, fun hall => ?_⟩
    · obtain ⟨m, hm, h⟩ := Option.bind_eq_some_iff.mp h
      obtain ⟨a1, a2, a3, a4, a5, a6, a7⟩ := s1 m hm
      obtain ⟨b1, b2, b3, b4, b5, b6⟩ := (ih m a1 (fun x hx => (a6 t x).mpr (hk x (by simp [hx])))).1 st' h
      refine ⟨b1, b2.trans a2, by omega, fun he => ?_, fun u x => (b5 u x).trans (a6 u x), fun u hu => (b6 u hu).trans (a7 u hu)⟩
      obtain ⟨c1, c2, c3, c4⟩ := a4 (by omega)
      obtain ⟨d1, d2⟩ := b4 (by omega)
      refine ⟨fun x hx => ?_, fun x hx => ?_⟩
      · by_cases hxn : x = n
        · subst hxn
          exact ⟨c1, c2, d2 _ c3, c4⟩
        · rcases List.mem_cons.mp hx with rfl | hx
          · exact absurd rfl hxn
          · obtain ⟨e1, e2, e3, e4⟩ := d1 x hx
            exact ⟨e1, e2, e3, fun l hl => e4 l (by rw [a5 t x (fun h => hxn h.2)]; exact hl)⟩
      · by_cases hxn : x = n
        · subst hxn; exact d2 _ c3
        · exact d2 x (by rw [a5 t x (fun h => hxn h.2)]; exact hx)
    · obtain ⟨c1, c2, c3⟩ := hall n (by simp)
      obtain ⟨m, hm, he⟩ := s2 c1 c2 c3
      obtain ⟨a1, a2, a3, a4, a5, a6, a7⟩ := s1 m hm
      obtain ⟨st', h, he'⟩ := (ih m a1 (fun x hx => (a6 t x).mpr (hk x (by simp [hx])))).2 (fun x hx => by
        obtain ⟨d1, d2, d3⟩ := hall x (by simp [hx])
        refine ⟨d1, d2, fun l => ?_⟩
        by_cases hxn : x = n
        · subst hxn
          rw [(a4 he).2.2.1]
          simp
        · rw [a5 t x (fun h => hxn h.2)]; exact d3 l)
      exact ⟨st', by rw [hm]; exact h, by omega⟩

theorem foldlM_keep {σ β : Type} (f : σ → β → Option σ) (P : σ → Prop) (l : List β) (h : ∀ s, ∀ x ∈ l, ∀ s', f s x = some s' → P s → P s') (s s' : σ)
    (hf : l.foldlM f s = some s') (hp : P s) : P s' := by
  induction l generalizing s with
  | nil => cases hf; exact hp
  | cons x r ih =>
    have hu : (x :: r).foldlM f s = (f s x).bind (fun s => r.foldlM f s) := by rw [List.foldlM_cons]; rfl
    rw [hu] at hf
    obtain ⟨m, hm, hf⟩ := Option.bind_eq_some_iff.mp hf
    exact ih (fun s y hy => h s y (by simp [hy])) m hf (h s x (by simp) m hm hp)

theorem importFilters_keys {α : Type} (env : RpEnv α) (t : RFilt) (n : String) (l : List (RpEntry RmBody)) (st st' : RpState α)
    (h : importFilters env l st = some st') (hk : FKey st t n) : FKey st' t n := by
  refine foldlM_keep (importFilter env) (fun s => FKey s t n) _ (fun s x _ s' hs hp => ?_) st st' h hk
  obtain ⟨u, m⟩ := x
  rw [importFilter_eq] at hs
  split at hs <;> simp only [Option.some.injEq, reduceCtorEq] at hs
  · subst hs; exact hp
  · subst hs; exact hp
  · subst hs
    unfold FKey at hp ⊢
    simp only [RpTables.keys_set]
    exact Or.inr hp

theorem processPolicies_keys {α : Type} (env : RpEnv α) (t : RFilt) (n : String) (l : List String) (st st' : RpState α)
    (h : l.foldlM (processPolicy env) st = some st') (hk : FKey st t n) : FKey st' t n := by
  refine foldlM_keep (processPolicy env) (fun s => FKey s t n) _ (fun s x _ s' hs hp => ?_) st st' h hk
  unfold processPolicy at hs
  split at hs
  · obtain ⟨m, hm, hs⟩ := Option.bind_eq_some_iff.mp hs
    unfold checkRelated at hs
    have : FKey m t n := importFilters_keys env t n _ _ _ hm hp
    exact importFilters_keys env t n _ _ _ hs this
  · unfold checkRelated at hs
    exact importFilters_keys env t n _ _ _ hs hp
  · cases hs

theorem importFilters_other {α : Type} (env : RpEnv α) (t : RFilt) (n : String) (l : List (RpEntry RmBody)) (hn : (t, n) ∉ l.flatMap entryFilters)
    (st st' : RpState α) (h : importFilters env l st = some st') : fVal st' t n = fVal st t n := by
  refine foldlM_keep (importFilter env) (fun s => fVal s t n = fVal st t n) _ (fun s x hx s' hs hp => ?_) st st' h rfl
  obtain ⟨u, m⟩ := x
  rw [importFilter_eq] at hs
  split at hs <;> simp only [Option.some.injEq, reduceCtorEq] at hs
  · subst hs; exact hp
  · subst hs; exact hp
  · subst hs
    rw [← hp]
    unfold fVal
    simp only [RpTables.get_set]
    rw [if_neg]
    rintro ⟨rfl, rfl⟩
    exact hn hx

theorem processPolicies_other {α : Type} (env : RpEnv α) (st0 st : RpState α) (h0 : Unexpanded st0) (t : RFilt) (n : String) (l : List String)
    (hn : ∀ p ∈ l, (t, n) ∉ (pVal env st0 p).flatMap entryFilters) (h : l.foldlM (processPolicy env) st0 = some st) : fVal st t n = fVal st0 t n := by
  refine (foldlM_keep (processPolicy env) (fun s => FInv env st0 s ∧ PInv env st0 s ∧ fVal s t n = fVal st0 t n) _ (fun s x hx s' hs hp => ?_) st0 st h
    ⟨fun _ _ => Or.inl rfl, fun _ => Or.inl rfl, rfl⟩).2.2
  obtain ⟨hi, hp, hv⟩ := hp
  obtain ⟨a1, a2, -, a4, -⟩ := (processPolicy_spec env st0 s h0 hi hp x).1 s' hs
  refine ⟨a1, a2, ?_⟩
  rw [← hv]
  have hd : PDef env st0 x := a4
  obtain ⟨p1, -, p3, p4⟩ := pVal_spec env st0 x hd
  have hx' := hn x hx
  have hcase : importObject ((NodePolicy s x).map .list) (env.policies x) = (.imported (pVal env st0 x), some (.list (pVal env st0 x))) ∨
      importObject ((NodePolicy s x).map .list) (env.policies x) = (.unchanged, some (.list (pVal env st0 x))) := by
    rcases hp x with h | ⟨-, h⟩
    · rw [h]
      rcases p4 with p4 | ⟨p4, -⟩
      · left; rw [← p1, ← p4]
      · right; rw [← p1, ← p4]
    · rw [h]; right; exact p3
  unfold processPolicy at hs
  rcases hcase with hc | hc
  · unfold NodePolicy at hc
    rw [hc] at hs
    simp only at hs
    obtain ⟨m, hm, hs⟩ := Option.bind_eq_some_iff.mp hs
    have h1 : fVal m t n = fVal s t n := importFilters_other env t n _ hx' { s with pols := setKey s.pols x (some (pVal env st0 x)) } _ hm
    have h2 : fVal s' t n = fVal m t n :=
      importFilters_other env t n _ hx' { m with errors := m.errors + policyErrors env.feat (pVal env st0 x) } _ hs
    exact h2.trans h1
  · unfold NodePolicy at hc
    rw [hc] at hs
    have hs : checkRelated env (pVal env st0 x) s = some s' := hs
    exact importFilters_other env t n _ hx' { s with errors := s.errors + policyErrors env.feat (pVal env st0 x) } _ hs

theorem usesFilter_iff (e : RpEntry RmBody) (t : RFilt) (n : String) : UsesFilter e t n ↔ (t, n) ∈ entryFilters e := by
  unfold UsesFilter entryFilters matchObjects
  simp only [List.mem_filterMap, List.mem_cons, List.not_mem_nil, or_false, Option.map_eq_some_iff, Prod.mk.injEq]
  constructor
  · rintro ⟨kw, h, ⟨rfl, rfl⟩ | ⟨rfl, rfl⟩ | ⟨rfl, rfl⟩ | ⟨rfl, rfl⟩⟩
    · exact ⟨("prefix", .pfx), by simp, n, h, rfl, rfl⟩
    · exact ⟨("nexthop", .pfx), by simp, n, h, rfl, rfl⟩
    · exact ⟨("aspath", .aspath), by simp, n, h, rfl, rfl⟩
    · exact ⟨("community", .community), by simp, n, h, rfl, rfl⟩
  · rintro ⟨x, rfl | rfl | rfl | rfl, m, h, rfl, rfl⟩
    · exact ⟨_, h, by simp⟩
    · exact ⟨_, h, by simp⟩
    · exact ⟨_, h, by simp⟩
    · exact ⟨_, h, by simp⟩

theorem processAllFilters_spec {α : Type} (env : RpEnv α) (st0 st : RpState α) (h0 : Unexpanded st0) (hi : FInv2 env st0 st) (ts : List RFilt) (hn : ts.Nodup) :
    (∀ st', ts.foldlM (processFilters env) st = some st' → FInv2 env st0 st' ∧ st'.pols = st.pols ∧ st.errors ≤ st'.errors ∧
      (st'.errors = st.errors → ∀ t ∈ ts, ∀ n, FKey st t n → FDef env st0 t n ∧ env.objOk t = true ∧ fVal st' t n = some (.list (eVal env st0 t n)) ∧ ∀ l, fVal st t n ≠ some (.expanded l)) ∧
      (∀ u m, FKey st' u m ↔ FKey st u m) ∧ (∀ u, u ∉ ts → st'.filts.get u = st.filts.get u)) ∧
    ((∀ t ∈ ts, ∀ n, FKey st t n → FDef env st0 t n ∧ env.objOk t = true ∧ ∀ l, fVal st t n ≠ some (.expanded l)) →
      ∃ st', ts.foldlM (processFilters env) st = some st' ∧ st'.errors = st.errors) := by
  induction ts generalizing st with
  | nil =>
    refine ⟨fun st' h => ?_, fun _ => ⟨st, rfl, rfl⟩⟩
    cases h
    exact ⟨hi, rfl, Nat.le_refl _, fun _ _ h => (nomatch h), fun _ _ => Iff.rfl, fun _ _ => rfl⟩
  | cons t r ih =>
    obtain ⟨hnt, hnr⟩ := List.nodup_cons.mp hn
    obtain ⟨s1, s2⟩ := processFilterList_spec env st0 st h0 hi t ((st.filts.get t).map Prod.fst) (fun _ h => h)
    have hu : (t :: r).foldlM (processFilters env) st = (processFilters env st t).bind (fun s => r.foldlM (processFilters env) s) := by
      rw [List.foldlM_cons]; rfl
    rw [hu]
    have hfv : ∀ (a b : RpState α) u, a.filts.get u = b.filts.get u → ∀ n, fVal a u n = fVal b u n := by
      intro a b u h n; unfold fVal; rw [h]
    refine ⟨fun st' h => ?_, fun hall => ?_⟩
    · obtain ⟨m, hm, h⟩ := Option.bind_eq_some_iff.mp h
      obtain ⟨a1, a2, a3, a4, a5, a6⟩ := s1 m hm
      obtain ⟨b1, b2, b3, b4, b5, b6⟩ := (ih m a1 hnr).1 st' h
      refine ⟨b1, b2.trans a2, by omega, fun he u hu n hk => ?_, fun u x => (b5 u x).trans (a5 u x), fun u hu => ?_⟩
      · rcases List.mem_cons.mp hu with rfl | hu
        · obtain ⟨c1, c2, c3, c4⟩ := (a4 (by omega)).1 n hk
          exact ⟨c1, c2, by rw [hfv st' m u (b6 u hnt)]; exact c3, c4⟩
        · obtain ⟨c1, c2, c3, c4⟩ := b4 (by omega) u hu n ((a5 u n).mpr hk)
          refine ⟨c1, c2, c3, fun l => ?_⟩
          rw [← hfv m st u (a6 u (fun h => hnt (h ▸ hu)))]
          exact c4 l
      · simp only [List.mem_cons, not_or] at hu
        rw [b6 u hu.2, a6 u hu.1]
    · obtain ⟨m, hm, he⟩ := s2 (fun n hk => hall t (by simp) n hk)
      obtain ⟨a1, a2, a3, a4, a5, a6⟩ := s1 m hm
      obtain ⟨st', h, he'⟩ := (ih m a1 hnr).2 (fun u hu n hk => by
        obtain ⟨c1, c2, c3⟩ := hall u (by simp [hu]) n ((a5 u n).mp hk)
        refine ⟨c1, c2, fun l => ?_⟩
        rw [hfv m st u (a6 u (fun h => hnt (h ▸ hu)))]
        exact c3 l)
      refine ⟨st', ?_, by omega⟩
      have : processFilters env st t = some m := hm
      rw [this]; exact h

theorem nodup_filts : [RFilt.pfx, .aspath, .community].Nodup := by decide

/-- The node has no expanded lists before its data is processed; there are no errors. -/
def FreshNode {α : Type} (st : RpState α) : Prop := Unexpanded st ∧ st.errors = 0

theorem processRouting_spec {α : Type} (env : RpEnv α) (st0 : RpState α) (h0 : FreshNode st0) :
    (∀ st, processRouting env st0 = some st → st.errors = 0 →
      (∀ n ∈ st0.pols.map (·.1), PolReq env st0 n ∧ NodePolicy st n = some (pVal env st0 n)) ∧
      (∀ t n, FKey st0 t n → FKey st t n) ∧
      (∀ n ∈ st0.pols.map (·.1), ∀ x ∈ (pVal env st0 n).flatMap entryFilters, FKey st x.1 x.2) ∧
      (∀ t n, FKey st t n → FDef env st0 t n ∧ env.objOk t = true ∧ fVal st t n = some (.list (eVal env st0 t n))) ∧
      (∀ t n, FKey st t n → FKey st0 t n ∨ ∃ p ∈ st0.pols.map (·.1), (t, n) ∈ (pVal env st0 p).flatMap entryFilters)) ∧
    ((∀ n ∈ st0.pols.map (·.1), PolReq env st0 n) → (∀ t n, FKey st0 t n → FDef env st0 t n ∧ env.objOk t = true) →
      ∃ st, processRouting env st0 = some st ∧ st.errors = 0) := by
  obtain ⟨h0, hz⟩ := h0
  have hi : FInv env st0 st0 := fun _ _ => Or.inl rfl
  have hp : PInv env st0 st0 := fun _ => Or.inl rfl
  obtain ⟨s1, s2⟩ := processPolicies_spec env st0 st0 h0 hi hp (st0.pols.map (·.1))
  have hall : ∀ t : RFilt, t ∈ [RFilt.pfx, .aspath, .community] := by intro t; cases t <;> decide
  have h2 : ∀ m, FInv env st0 m → FInv2 env st0 m := fun m h t n => (h t n).imp id Or.inl
  have hset : ∀ m t n, Settled env st0 m t n → fVal m t n ≠ none ∧ (∀ l, fVal m t n ≠ some (.expanded l)) → ¬ Clash t (NodeFilter st0 t n) (env.filters t n) := by
    intro m t n hs hf hc
    obtain ⟨⟨l, hl⟩, -⟩ := (sVal_spec env st0 h0 t n hs.1).2 hc
    exact hf.2 l (hs.2.trans hl)
  have hsome : ∀ m t n, Settled env st0 m t n → fVal m t n ≠ none := by
    intro m t n hs
    rw [hs.2]
    by_cases hc : Clash t (NodeFilter st0 t n) (env.filters t n)
    · obtain ⟨⟨l, hl⟩, -⟩ := (sVal_spec env st0 h0 t n hs.1).2 hc
      rw [hl]; simp
    · rw [(sVal_spec env st0 h0 t n hs.1).1 hc]; simp
  refine ⟨fun st h he => ?_, fun hreq hfil => ?_⟩
  · obtain ⟨m, hm, h⟩ := Option.bind_eq_some_iff.mp h
    obtain ⟨a1, a2, a3, a4, a5, a6, a7, a8, a9⟩ := s1 m hm
    obtain ⟨b1, b2, b3, b4, b5, -⟩ := (processAllFilters_spec env st0 m h0 (h2 m a1) _ nodup_filts).1 st h
    have ha := a7 (by omega)
    have hb := b4 (by omega)
    have hx : ∀ n ∈ st0.pols.map (·.1), ∀ x ∈ (pVal env st0 n).flatMap entryFilters, FKey m x.1 x.2 := fun n hn x hx =>
      fKey_of_val (hsome m _ _ ((ha n hn).2 x hx))
    refine ⟨fun n hn => ⟨⟨a4 n hn, (ha n hn).1, fun x hx' => ?_⟩, ?_⟩, fun t n hk => (b5 t n).mpr (processPolicies_keys env t n _ _ _ hm hk), fun n hn x hx' => (b5 _ _).mpr (hx n hn x hx'), fun t n hk => ?_, fun t n hk => ?_⟩
    · have hs := (ha n hn).2 x hx'
      obtain ⟨c1, c2, c3, c4⟩ := hb x.1 (hall _) x.2 (hx n hn x hx')
      exact ⟨c1, hset m _ _ hs ⟨hsome m _ _ hs, c4⟩, c2⟩
    · have := a5 n hn
      unfold NodePolicy at this ⊢
      rw [b2]
      exact this
    · obtain ⟨c1, c2, c3, c4⟩ := hb t (hall _) n ((b5 t n).mp hk)
      exact ⟨c1, c2, c3⟩
    · exact a9 t n ((b5 t n).mp hk)
  · obtain ⟨m, hm, he⟩ := s2 hreq
    obtain ⟨a1, a2, a3, a4, a5, a6, a7, a8, a9⟩ := s1 m hm
    obtain ⟨st, h, he'⟩ := (processAllFilters_spec env st0 m h0 (h2 m a1) _ nodup_filts).2 (fun t _ n hk => by
      have hreq' : ∀ p ∈ st0.pols.map (·.1), (t, n) ∈ (pVal env st0 p).flatMap entryFilters → FDef env st0 t n ∧ env.objOk t = true ∧ ∀ l, fVal m t n ≠ some (.expanded l) := by
        intro p hp hx
        obtain ⟨d1, d2, d3⟩ := (hreq p hp).2.2 _ hx
        refine ⟨d1, d3, fun l hl => ?_⟩
        have hs := (a7 he p hp).2 _ hx
        rw [hs.2, (sVal_spec env st0 h0 t n d1).1 d2] at hl
        cases hl
      by_cases hu : ∃ p ∈ st0.pols.map (·.1), (t, n) ∈ (pVal env st0 p).flatMap entryFilters
      · obtain ⟨p, hp, hx⟩ := hu
        exact hreq' p hp hx
      · have hk0 : FKey st0 t n := (a9 t n hk).resolve_right hu
        obtain ⟨d1, d2⟩ := hfil t n hk0
        refine ⟨d1, d2, fun l hl => ?_⟩
        rw [processPolicies_other env st0 m h0 t n _ (fun p hp hx => hu ⟨p, hp, hx⟩) hm] at hl
        exact h0 t n l hl)
    exact ⟨st, by unfold processRouting; rw [hm]; exact h, by omega⟩

/-! ## Routing policies of a node -/

theorem merges_entries {α : Type} {node glob : Option (List (RpEntry α))} {r r' : List (RpEntry α)} (h : Merges node glob r) (h' : Merges node glob r') (e : RpEntry α) :
    e ∈ r ↔ e ∈ r' := (h.2 e).trans (h'.2 e).symm

/-- When the routing objects of a node are accepted, every policy of the node has its entries and the global entries with other sequence
numbers, the device supports everything in the policy, and every filter used in the policy is on the node, also merged with the global
filter. All filters on the node are merged with the global filters, and the device supports them. Filters that were not on the node are
used by a policy. -/
theorem C79_accepted {α : Type} (env : RpEnv α) (st0 st : RpState α) (h0 : FreshNode st0) (h : processRouting env st0 = some st) (he : st.errors = 0) :
    (∀ p ∈ st0.pols.map (·.1), ∃ r, NodePolicy st p = some r ∧ Merges (NodePolicy st0 p) (env.policies p) r ∧ PolicyOk env.feat r ∧
      ∀ e ∈ r, ∀ t n, UsesFilter e t n → ∃ f, NodeFilter st t n = some f) ∧
    (∀ t n, n ∈ (st0.filts.get t).map (·.1) → n ∈ (st.filts.get t).map (·.1)) ∧
    (∀ t n, n ∈ (st.filts.get t).map (·.1) → env.objOk t = true ∧ ∃ f, NodeFilter st t n = some f ∧ Merges (NodeFilter st0 t n) (env.filters t n) f) ∧
    (∀ t n, n ∈ (st.filts.get t).map (·.1) → n ∈ (st0.filts.get t).map (·.1) ∨
      ∃ p ∈ st0.pols.map (·.1), ∃ r, NodePolicy st p = some r ∧ ∃ e ∈ r, UsesFilter e t n) := by
  obtain ⟨a1, a2, a3, a4, a5⟩ := (processRouting_spec env st0 h0).1 st h he
  have hf : ∀ t n, FKey st t n → NodeFilter st t n = some (eVal env st0 t n) := by
    intro t n hk
    have h3 := (a4 t n hk).2.2
    unfold fVal at h3
    unfold NodeFilter
    rw [h3]; rfl
  refine ⟨fun p hp => ?_, a2, fun t n hk => ?_, fun t n hk => ?_⟩
  · obtain ⟨⟨c1, c2, c3⟩, c4⟩ := a1 p hp
    refine ⟨_, c4, (pVal_spec env st0 p c1).2.1, (C79_device_support_iff _ _).mp c2, fun e hee t n hu => ?_⟩
    exact ⟨_, hf t n (a3 p hp (t, n) (List.mem_flatMap.mpr ⟨e, hee, (usesFilter_iff e t n).mp hu⟩))⟩
  · obtain ⟨c1, c2, c3⟩ := a4 t n hk
    exact ⟨c2, _, hf t n hk, (eVal_spec env st0 h0.1 t n c1).2.1⟩
  · rcases a5 t n hk with h | ⟨p, hp, hx⟩
    · exact Or.inl h
    · obtain ⟨e, hee, hx⟩ := List.mem_flatMap.mp hx
      exact Or.inr ⟨p, hp, _, (a1 p hp).2, e, hee, (usesFilter_iff e t n).mpr hx⟩

/-- The routing objects of a node are accepted exactly when every policy is defined on the node or globally, the device supports it, every
filter on the node or used in a policy is defined and supported by the device, and no policy uses a community list with entries coming from
the global list. -/
theorem C79_accepted_iff {α : Type} (env : RpEnv α) (st0 : RpState α) (h0 : FreshNode st0) :
    (∃ st, processRouting env st0 = some st ∧ st.errors = 0) ↔
      (∀ p ∈ st0.pols.map (·.1), ∃ r, Merges (NodePolicy st0 p) (env.policies p) r ∧ PolicyOk env.feat r ∧
        ∀ e ∈ r, ∀ t n, UsesFilter e t n → (NodeFilter st0 t n ≠ none ∨ env.filters t n ≠ none) ∧ env.objOk t = true ∧
          (t = .community → ¬ GlobalCommunity env st0 n)) ∧
      ∀ t, ∀ n ∈ (st0.filts.get t).map (·.1), (NodeFilter st0 t n ≠ none ∨ env.filters t n ≠ none) ∧ env.objOk t = true := by
  constructor
  · rintro ⟨st, h, he⟩
    obtain ⟨a1, a2, a3, a4, a5⟩ := (processRouting_spec env st0 h0).1 st h he
    refine ⟨fun p hp => ?_, fun t n hk => ?_⟩
    · obtain ⟨⟨c1, c2, c3⟩, c4⟩ := a1 p hp
      refine ⟨_, (pVal_spec env st0 p c1).2.1, (C79_device_support_iff _ _).mp c2, fun e hee t n hu => ?_⟩
      obtain ⟨d1, d2, d3⟩ := c3 (t, n) (List.mem_flatMap.mpr ⟨e, hee, (usesFilter_iff e t n).mp hu⟩)
      refine ⟨d1, d3, ?_⟩
      rintro rfl hg
      exact d2 ⟨rfl, hg⟩
    · obtain ⟨c1, c2, -⟩ := a4 t n (a2 t n hk)
      exact ⟨c1, c2⟩
  · rintro ⟨hp, hf⟩
    refine (processRouting_spec env st0 h0).2 (fun p hpp => ?_) hf
    obtain ⟨r, h1, h2, h3⟩ := hp p hpp
    have hd : PDef env st0 p := h1.1
    have hm := (pVal_spec env st0 p hd).2.1
    refine ⟨hd, (C79_device_support_iff _ _).mpr ?_, fun x hx => ?_⟩
    · obtain ⟨g, hg, hall⟩ := h2
      exact ⟨g, hg, fun e hee => hall e ((merges_entries hm h1 e).mp hee)⟩
    · obtain ⟨e, hee, hx⟩ := List.mem_flatMap.mp hx
      obtain ⟨d1, d2, d3⟩ := h3 e ((merges_entries hm h1 e).mp hee) x.1 x.2 ((usesFilter_iff e x.1 x.2).mpr hx)
      refine ⟨d1, fun hc => d3 hc.1 ?_, d2⟩
      have := hc.2
      rw [hc.1] at this
      exact this

/-! ## Defects -/

/-- A node policy without entries that is not a global policy crashes the transformation; it is not reported as an error. -/
theorem C79_missing_policy_crashes {α : Type} (env : RpEnv α) (st : RpState α) (p : String) (h0 : FreshNode st) (hp : p ∈ st.pols.map (·.1))
    (hn : NodePolicy st p = none) (hg : env.policies p = none) : processRouting env st = none := by
  cases h : processRouting env st with
  | none => rfl
  | some st' =>
    exfalso
    obtain ⟨m, hm, -⟩ := Option.bind_eq_some_iff.mp h
    have := ((processPolicies_spec env st st h0.1 (fun _ _ => Or.inl rfl) (fun _ => Or.inl rfl) _).1 m hm).2.2.2.1 p hp
    rcases this with h | h
    · exact h hn
    · exact h hg

/-- A device that supports everything a policy needs -/
def demoRpFeat : RmFeatures := { set := .list ["locpref"], mtch := .list ["prefix", "community"] }

/-- A policy that uses a prefix list -/
def demoRpPol : RpEntry RmBody := { sequence := 10, body := { set := [("locpref", .num 200)], mtch := [("prefix", "px")] } }

/-- A policy that uses a community list -/
def demoRpComm : RpEntry RmBody := { sequence := 10, body := { set := [], mtch := [("community", "cl")] } }

/-- Global policies and filters -/
def demoRpEnv : RpEnv String :=
  { policies := fun n => if n = "p1" then some [demoRpPol] else if n = "p2" then some [demoRpComm] else none
    filters := fun t n => if t = .pfx ∧ n = "px" then some [⟨10, "10.0.0.0/8"⟩] else if t = .community ∧ n = "cl" then some [⟨10, "65000:1"⟩] else none
    feat := some demoRpFeat
    objOk := fun _ => true }

/-- A node that uses a global policy gets the policy and the prefix list. -/
example : (processRouting demoRpEnv { pols := [("p1", none)], filts := {} }).map (fun st => (st.errors, st.pols == [("p1", some [demoRpPol])],
    NodeFilter st .pfx "px" == some [⟨10, "10.0.0.0/8"⟩])) = some (0, true, true) := by decide +kernel

/-- A global policy that uses a global community list crashes the transformation. -/
theorem C79_global_community_crashes : processRouting demoRpEnv { pols := [("p2", none)], filts := {} } = none := by decide +kernel

/-- A policy that uses a missing prefix list is an error. -/
example : (processRouting ({ demoRpEnv with filters := fun _ _ => none } : RpEnv String) { pols := [("p1", none)], filts := {} }).map (·.errors) = some 2 := by decide +kernel

example : FreshNode ({ pols := [("p1", none)], filts := {} } : RpState String) := ⟨fun t n l => by cases t <;> simp [fVal, RpTables.get], rfl⟩

end Netlab
