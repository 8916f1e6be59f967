import Verif.Model.FilterNorm
import Verif.Spec.FilterNorm
import Verif.Lemmas.Box
/-!
# C150: routing filters are normalized as specified
-/

namespace Netlab

open Spec

theorem lookup_rnDefaults (d : List (String × Val)) (idx : Nat) (k : String) : (rnDefaults d idx).lookup k =
    if k = "action" then some ((d.lookup "action").getD (.str "permit"))
    else if k = "sequence" then some ((d.lookup "sequence").getD (.int ((idx + 1) * 10)))
    else d.lookup k := by
  have h1 : ∀ k', (if (d.lookup "action").isSome then d else setKey d "action" (.str "permit")).lookup k' =
      if k' = "action" then some ((d.lookup "action").getD (.str "permit")) else d.lookup k' := by
    intro k'
    cases ha : d.lookup "action" with
    | some a =>
      simp only [Option.isSome_some, if_true, Option.getD_some]
      by_cases hk : k' = "action"
      · rw [if_pos hk, hk, ha]
      · rw [if_neg hk]
    | none =>
      simp only [Option.isSome_none, Bool.false_eq_true, if_false, Option.getD_none]
      rw [lookup_setKey]
  unfold rnDefaults
  generalize hd : (if (d.lookup "action").isSome then d else setKey d "action" (.str "permit")) = d' at h1
  dsimp only
  have hs := h1 "sequence"
  rw [if_neg (by decide)] at hs
  cases hq : d.lookup "sequence" with
  | some a =>
    rw [hq] at hs
    rw [hs]
    simp only [Option.isSome_some, if_true, Option.getD_some]
    rw [h1]
    by_cases h2 : k = "action"
    · rw [if_pos h2, if_pos h2]
    · rw [if_neg h2, if_neg h2]
      by_cases h3 : k = "sequence"
      · rw [if_pos h3, h3, hq]
      · rw [if_neg h3]
  | none =>
    rw [hq] at hs
    rw [hs]
    simp only [Option.isSome_none, Bool.false_eq_true, if_false, Option.getD_none]
    rw [lookup_setKey, h1]
    by_cases h3 : k = "sequence"
    · subst h3; simp
    · simp [h3, eq_comm]

theorem lookup_rnPath (str : Val → String) (v : Val) (k : String) :
    (rnPath str v).lookup k = if k = "path" then filterPath str v else entryAttr v k := by
  have hv : ∀ k, entryAttr v k = (match v with
    | .dict d => d
    | _ => [("path", v)] : List (String × Val)).lookup k := by
    intro k
    cases v with
    | dict d => rfl
    | _ =>
      unfold entryAttr
      by_cases hk : k = "path"
      · subst hk; rfl
      · have : (k == "path") = false := by simpa using hk
        simp [hk, List.lookup_cons, this]
  have key : ∀ d : List (String × Val), (∀ k, entryAttr v k = d.lookup k) →
      (match (if (d.lookup "path").isNone && (d.lookup "list").isNone then setKey d "path" (.str ".*") else d).lookup "path" with
        | some (.list l) => setKey (if (d.lookup "path").isNone && (d.lookup "list").isNone then setKey d "path" (.str ".*") else d)
            "path" (.str (" ".intercalate (l.map str)))
        | _ => (if (d.lookup "path").isNone && (d.lookup "list").isNone then setKey d "path" (.str ".*") else d)).lookup k =
      if k = "path" then filterPath str v else entryAttr v k := by
    intro d hd
    unfold filterPath
    rw [hd, hd, hd]
    cases hp : d.lookup "path" with
    | some p =>
      simp only [Option.isNone_some, Bool.false_and, Bool.false_eq_true, if_false, hp]
      cases p with
      | list l =>
        simp only [pathText]
        rw [lookup_setKey]
      | _ =>
        simp only [pathText]
        by_cases hk : k = "path"
        · rw [if_pos hk, hk, hp]
        · rw [if_neg hk]
    | none =>
      cases hl : d.lookup "list" with
      | some q =>
        simp only [Option.isNone_none, Option.isNone_some, Bool.true_and, Bool.false_eq_true, if_false, hp]
        by_cases hk : k = "path"
        · rw [if_pos hk, hk, hp]
        · rw [if_neg hk]
      | none =>
        simp only [Option.isNone_none, Bool.true_and, if_true]
        have : (setKey d "path" (.str ".*")).lookup "path" = some (.str ".*") := by rw [lookup_setKey]; simp
        rw [this]
        simp only
        rw [lookup_setKey]
  unfold rnPath
  exact key _ hv

theorem rnList_get (cb : Val → Nat → Val) (l : List Val) (n i : Nat) :
    (rnList cb n l)[i]? = l[i]?.map (fun v => cb v (n + i)) := by
  induction l generalizing n i with
  | nil => rfl
  | cons v r ih =>
    cases i with
    | zero => rfl
    | succ i =>
      simp only [rnList, List.getElem?_cons_succ]
      rw [ih, show n + 1 + i = n + (i + 1) from by omega]

theorem rnList_length (cb : Val → Nat → Val) (l : List Val) (n : Nat) : (rnList cb n l).length = l.length := by
  induction l generalizing n with
  | nil => rfl
  | cons v r ih => simp [rnList, ih]

theorem rnObjects_lookup (cb : Val → Nat → Val) (topo : Bool) (d : List (String × Val)) (n : String) :
    (rnObjects cb topo d).1.lookup n = (d.lookup n).map (fun v => if v = .null then .null else .list (rnList cb 0 (filterEntries v))) := by
  induction d with
  | nil => rfl
  | cons x r ih =>
    obtain ⟨m, v⟩ := x
    have : ∃ e, rnObjects cb topo ((m, v) :: r) =
        ((m, if v = .null then .null else .list (rnList cb 0 (filterEntries v))) :: (rnObjects cb topo r).1, e) := by
      cases v <;> exact ⟨_, rfl⟩
    obtain ⟨e, he⟩ := this
    rw [he]
    simp only [List.lookup_cons]
    cases n == m with
    | true => rfl
    | false => exact ih

/-- **C150**: an entry of an AS path or community filter is a dictionary with the path the entry matches, the specified action and
sequence number (`permit` and ten times the position of the entry when they are not specified), and all other attributes. -/
theorem C150_entry (str : Val → String) (v : Val) (idx : Nat) : ∃ d, rnAspath str v idx = .dict d ∧
    d.lookup "path" = filterPath str v ∧
    d.lookup "action" = some ((entryAttr v "action").getD (.str "permit")) ∧
    d.lookup "sequence" = some ((entryAttr v "sequence").getD (.int ((idx + 1) * 10))) ∧
    ∀ k, k ≠ "path" → k ≠ "action" → k ≠ "sequence" → d.lookup k = entryAttr v k := by
  refine ⟨_, rfl, ?_, ?_, ?_, ?_⟩
  · simp [lookup_rnDefaults, lookup_rnPath]
  · simp [lookup_rnDefaults, lookup_rnPath]
  · simp [lookup_rnDefaults, lookup_rnPath]
  · intro k h1 h2 h3
    simp [lookup_rnDefaults, lookup_rnPath, h1, h2, h3]

/-- **C150**: an entry of a prefix filter gets the default action and sequence number, and nothing else is changed. -/
theorem C150_prefix (d : List (String × Val)) (idx : Nat) : ∃ d', rnEntry (.dict d) idx = .dict d' ∧ ∀ k, d'.lookup k =
    if k = "action" then some ((d.lookup "action").getD (.str "permit"))
    else if k = "sequence" then some ((d.lookup "sequence").getD (.int ((idx + 1) * 10)))
    else d.lookup k := ⟨_, rfl, lookup_rnDefaults d idx⟩

/-- **C150**: a filter becomes a list with one entry for every specified entry, in the same order; a filter without a value is left for
later, and it is an error in the topology. -/
theorem C150_objects (cb : Val → Nat → Val) (topo : Bool) (d : List (String × Val)) (n : String) :
    (d.lookup n = none → (rnObjects cb topo d).1.lookup n = none) ∧
    (d.lookup n = some .null → (rnObjects cb topo d).1.lookup n = some .null) ∧
    (∀ v, d.lookup n = some v → v ≠ .null → ∃ l, (rnObjects cb topo d).1.lookup n = some (.list l) ∧
      l.length = (filterEntries v).length ∧ ∀ i, l[i]? = (filterEntries v)[i]?.map (fun e => cb e i)) := by
  rw [rnObjects_lookup]
  refine ⟨fun h => by rw [h]; rfl, fun h => by rw [h]; rfl, fun v h hv => ?_⟩
  rw [h]
  refine ⟨rnList cb 0 (filterEntries v), by simp [hv], rnList_length _ _ _, fun i => ?_⟩
  rw [rnList_get]
  simp

/-- **C150**: the number of reported errors is the number of filters without a value in the topology. -/
theorem C150_errors (cb : Val → Nat → Val) (topo : Bool) (d : List (String × Val)) :
    (rnObjects cb topo d).2 = if topo then (d.filter (fun p => p.2 = .null)).length else 0 := by
  induction d with
  | nil => cases topo <;> rfl
  | cons x r ih =>
    obtain ⟨m, v⟩ := x
    cases v <;> simp only [rnObjects, ih] <;> cases topo <;> simp

/-! ### Normalization is idempotent -/

theorem rnDefaults_idem (d : List (String × Val)) (i j : Nat) : rnDefaults (rnDefaults d i) j = rnDefaults d i := by
  have h1 := lookup_rnDefaults d i "action"
  have h2 := lookup_rnDefaults d i "sequence"
  rw [if_pos rfl] at h1
  rw [if_neg (by decide), if_pos rfl] at h2
  generalize rnDefaults d i = e at h1 h2
  unfold rnDefaults
  simp [h1, h2]

theorem rnEntry_idem (v : Val) (i : Nat) : rnEntry (rnEntry v i) i = rnEntry v i := by
  cases v with
  | dict d =>
    show Val.dict _ = Val.dict _
    rw [rnDefaults_idem]
  | _ => rfl

theorem rnPath_fix (str : Val → String) (d : List (String × Val)) (h1 : ¬ ∃ l, d.lookup "path" = some (.list l))
    (h2 : (d.lookup "path").isSome ∨ (d.lookup "list").isSome) : rnPath str (.dict d) = d := by
  unfold rnPath
  have : ((d.lookup "path").isNone && (d.lookup "list").isNone) = false := by
    cases hp : d.lookup "path" <;> cases hl : d.lookup "list" <;> simp_all
  simp only [this, Bool.false_eq_true, if_false]
  split
  · rename_i l hl
    exact absurd ⟨l, hl⟩ h1
  · rfl

theorem rnAspath_idem (str : Val → String) (v : Val) (i : Nat) : rnAspath str (rnAspath str v i) i = rnAspath str v i := by
  obtain ⟨d, hd, hp, -, -, hk⟩ := C150_entry str v i
  have hd' : rnDefaults (rnPath str v) i = d := by
    have : Val.dict (rnDefaults (rnPath str v) i) = .dict d := hd
    exact Val.dict.inj this
  rw [hd]
  unfold rnAspath
  rw [rnPath_fix]
  · show Val.dict _ = _
    rw [← hd', rnDefaults_idem]
  · rintro ⟨l, hl⟩
    rw [hp] at hl
    unfold filterPath at hl
    cases h1 : entryAttr v "path" with
    | some p =>
      rw [h1] at hl
      cases p <;> simp [pathText] at hl
    | none =>
      rw [h1] at hl
      cases h2 : entryAttr v "list" <;> rw [h2] at hl <;> simp at hl
  · rw [hp, hk "list" (by decide) (by decide) (by decide)]
    unfold filterPath
    cases h1 : entryAttr v "path" <;> cases h2 : entryAttr v "list" <;> simp

theorem rnList_idem {cb : Val → Nat → Val} (h : ∀ v i, cb (cb v i) i = cb v i) (l : List Val) (n : Nat) :
    rnList cb n (rnList cb n l) = rnList cb n l := by
  induction l generalizing n with
  | nil => rfl
  | cons v r ih => simp only [rnList, h, ih]

theorem rnObjects_idem {cb : Val → Nat → Val} (h : ∀ v i, cb (cb v i) i = cb v i) (topo : Bool) (d : List (String × Val)) :
    rnObjects cb topo (rnObjects cb topo d).1 = rnObjects cb topo d := by
  induction d with
  | nil => rfl
  | cons x r ih =>
    obtain ⟨m, v⟩ := x
    cases v <;> simp only [rnObjects, ih, rnList_idem h]

theorem rnStep_lookup (topo : Bool) (st : List (String × Val) × Nat) (p : String × (Val → Nat → Val)) (k : String) :
    (rnStep topo st p).1.lookup k = match st.1.lookup k with
      | some (.dict d) => if k = p.1 then some (.dict (rnObjects p.2 topo d).1) else some (.dict d)
      | x => x := by
  unfold rnStep
  split
  · rename_i d hd
    dsimp only
    rw [lookup_setKey]
    by_cases hk : p.1 = k
    · subst hk
      simp [hd]
    · have hk' : ¬ k = p.1 := fun e => hk e.symm
      simp only [hk', if_false]
      cases st.1.lookup k with
      | none => rfl
      | some v => cases v <;> rfl
  · rename_i hne
    by_cases hk : k = p.1
    · subst hk
      cases hl : st.1.lookup p.1 with
      | none => rfl
      | some v => cases v <;> first | rfl | exact absurd hl (hne _)
    · simp only [hk, if_false]
      cases st.1.lookup k with
      | none => rfl
      | some v => cases v <;> rfl

theorem rnData_lookup (str : Val → String) (policy : Val → Nat → Val) (topo : Bool) (r : List (String × Val)) (k : String) :
    (rnData str policy topo r).1.lookup k = match r.lookup k with
      | some (.dict d) => some (.dict (match (rnDispatch str policy).lookup k with
        | some cb => (rnObjects cb topo d).1
        | none => d))
      | x => x := by
  unfold rnData rnDispatch
  simp only [List.foldl_cons, List.foldl_nil, rnStep_lookup]
  cases r.lookup k with
  | none => rfl
  | some v =>
    cases v with
    | dict d =>
      by_cases h1 : k = "policy"
      · subst h1; simp [List.lookup_cons]
      · by_cases h2 : k = "prefix"
        · subst h2; simp [List.lookup_cons]
        · by_cases h3 : k = "aspath"
          · subst h3; simp [List.lookup_cons]
          · by_cases h4 : k = "community"
            · subst h4; simp [List.lookup_cons]
            · simp [List.lookup_cons, h1, h2, h3, h4, beq_false_of_ne]
    | _ => rfl

theorem rnStep_errors (topo : Bool) (st : List (String × Val) × Nat) (p : String × (Val → Nat → Val)) :
    (rnStep topo st p).2 = st.2 + if topo then emptyObjects st.1 p.1 else 0 := by
  unfold rnStep emptyObjects
  split
  · rename_i d hd
    simp only [hd, C150_errors]
  · rename_i hne
    cases hl : st.1.lookup p.1 with
    | none => cases topo <;> rfl
    | some v =>
      cases v with
      | dict d => exact absurd hl (hne d)
      | _ => cases topo <;> rfl

theorem rnStep_empty (topo : Bool) (st : List (String × Val) × Nat) (p : String × (Val → Nat → Val)) (k : String) (hk : k ≠ p.1) :
    emptyObjects (rnStep topo st p).1 k = emptyObjects st.1 k := by
  unfold emptyObjects
  rw [rnStep_lookup]
  simp only [hk, if_false]
  cases st.1.lookup k with
  | none => rfl
  | some v => cases v <;> rfl

/-- **C150**: the number of all reported errors is the number of routing policies and prefix, AS path and community filters without a
value in the topology; there are no errors in nodes. -/
theorem C150_all_errors (str : Val → String) (policy : Val → Nat → Val) (topo : Bool) (r : List (String × Val)) :
    (rnData str policy topo r).2 = if topo then
      emptyObjects r "policy" + emptyObjects r "prefix" + emptyObjects r "aspath" + emptyObjects r "community" else 0 := by
  unfold rnData rnDispatch
  simp only [List.foldl_cons, List.foldl_nil, rnStep_errors]
  rw [rnStep_empty _ _ _ "community" (by simp), rnStep_empty _ _ _ "community" (by simp), rnStep_empty _ _ _ "community" (by simp),
    rnStep_empty _ _ _ "aspath" (by simp), rnStep_empty _ _ _ "aspath" (by simp), rnStep_empty _ _ _ "prefix" (by simp)]
  cases topo <;> simp

/-- Non-vacuity: two empty filters of different types -/
example : (rnData (fun _ => "") (fun v _ => v) true [("prefix", .dict [("a", .null)]), ("aspath", .dict [("b", .null), ("c", .str "65000")])]).2 = 2 := by
  decide +kernel

/-- **C150**: prefix, AS path and community filters and routing policies are normalized, other routing data are not changed. -/
theorem C150_data (str : Val → String) (policy : Val → Nat → Val) (topo : Bool) (r : List (String × Val)) (k : String) :
    ((∀ d, r.lookup k ≠ some (.dict d)) → (rnData str policy topo r).1.lookup k = r.lookup k) ∧
    (k ∉ ["policy", "prefix", "aspath", "community"] → (rnData str policy topo r).1.lookup k = r.lookup k) ∧
    ∀ d, r.lookup k = some (.dict d) →
      (k = "policy" → (rnData str policy topo r).1.lookup k = some (.dict (rnObjects policy topo d).1)) ∧
      (k = "prefix" → (rnData str policy topo r).1.lookup k = some (.dict (rnObjects rnEntry topo d).1)) ∧
      (k = "aspath" ∨ k = "community" → (rnData str policy topo r).1.lookup k = some (.dict (rnObjects (rnAspath str) topo d).1)) := by
  rw [rnData_lookup]
  refine ⟨?_, ?_, ?_⟩
  · intro h
    split
    · rename_i d hd; exact absurd hd (h d)
    · rfl
  · intro h
    simp only [List.mem_cons, List.not_mem_nil, or_false, not_or] at h
    obtain ⟨h1, h2, h3, h4⟩ := h
    have : (rnDispatch str policy).lookup k = none := by
      simp [rnDispatch, List.lookup_cons, h1, h2, h3, h4, beq_false_of_ne]
    rw [this]
    split
    · rename_i d hd; rw [hd]
    · rfl
  · intro d hd
    rw [hd]
    refine ⟨?_, ?_, ?_⟩
    · rintro rfl; rfl
    · rintro rfl; rfl
    · rintro (rfl | rfl) <;> rfl

/-- **C150**: normalizing normalized data changes nothing. -/
theorem C150_idempotent (str : Val → String) (policy : Val → Nat → Val) (hp : ∀ v i, policy (policy v i) i = policy v i) (topo : Bool)
    (r : List (String × Val)) (k : String) :
    (rnData str policy topo (rnData str policy topo r).1).1.lookup k = (rnData str policy topo r).1.lookup k := by
  have hcb : ∀ cb, (rnDispatch str policy).lookup k = some cb → ∀ v i, cb (cb v i) i = cb v i := by
    intro cb h
    unfold rnDispatch at h
    simp only [List.lookup_cons] at h
    split at h
    · cases h; exact hp
    · split at h
      · cases h; exact rnEntry_idem
      · split at h
        · cases h; exact rnAspath_idem str
        · split at h
          · cases h; exact rnAspath_idem str
          · cases h
  rw [rnData_lookup str policy topo (rnData str policy topo r).1, rnData_lookup]
  cases r.lookup k with
  | none => rfl
  | some v =>
    cases v with
    | dict d =>
      dsimp only
      cases hl : (rnDispatch str policy).lookup k with
      | none => rfl
      | some cb =>
        dsimp only
        rw [rnObjects_idem (hcb cb hl)]
    | _ => rfl

example : rnData (fun v => match v with | .int n => toString n | _ => "") (fun v _ => v) true
    [("aspath", .dict [("a", .list [.list [.int 65000, .int 65001], .dict [("action", .str "deny")]]), ("b", .null), ("c", .int 1)]),
     ("static", .list [])] =
    ([("aspath", .dict [("a", .list [.dict [("path", .str "65000 65001"), ("action", .str "permit"), ("sequence", .int 10)],
        .dict [("action", .str "deny"), ("path", .str ".*"), ("sequence", .int 20)]]), ("b", .null),
        ("c", .list [.dict [("path", .int 1), ("action", .str "permit"), ("sequence", .int 10)]])]),
      ("static", .list [])], 1) := by decide +kernel

end Netlab
